import Verif.Lemmas.LocusSlope
import Verif.Props.MixedCT
import Verif.Props.Sqrt

/-!
# The chord of the locus in the precision of the code
-/

namespace CS
open F32 B32 Util NewtonSqrt

/-- `util::sqrtf` as a function that may fail to return. -/
def usqrtF (x : F32) : Option F32 :=
  (Util.sqrtf ltInf x).map fun
    | .val r => r
    | .quietNaN => .nan

/-- The square of the root is relatively accurate. -/
theorem usqrt_rel (x : F32) (hx : x.isFinite = true) (h0 : 0 < x.val) :
    ∃ r, usqrtF x = some r ∧ r.isFinite = true ∧ 0 < r.val ∧ |r.val * r.val - x.val| ≤ x.val / 2 ^ 21 := by
  have hrep := rep_val x
  have hlt : x.val < 2 ^ 128 := by
    have := abs_val_lt x
    rwa [abs_of_pos h0] at this
  obtain ⟨N, X', e, c⟩ := exists_ctx hrep h0 hlt
  obtain ⟨r, R, h1, h2, h3, h4⟩ := c.newton (Is.of x hx)
  have hu := c.upos
  have hR0 : 0 < R := lt_of_lt_of_le (mul_pos c.Npos hu) h3
  have hRr : Rep R := h2.2 ▸ rep_val r
  refine ⟨r, ?_, h2.1, by rw [h2.2]; exact hR0, ?_⟩
  · unfold usqrtF Util.sqrtf
    rw [if_pos (sqrtf_guard hx h0.le), h1]; rfl
  · rw [h2.2]
    have fx := c.fixed hRr h3 h4
    have lo : ((2 ^ 23 : ℤ) : ℚ) ≤ N := by exact_mod_cast c.lo
    have sq : ((N * N : ℤ) : ℚ) ≤ X' := by exact_mod_cast c.sq
    have sq1 : ((X' : ℤ) : ℚ) ≤ ((N + 1) * (N + 1) : ℤ) := by exact_mod_cast c.sq1.le
    rw [c.val]
    push_cast at lo sq sq1
    generalize (2 : ℚ) ^ e = u at *
    have u2 : 0 < u * u := mul_pos hu hu
    have key : 2 * (N : ℚ) + 1 ≤ X' / 2 ^ 21 := by
      rw [le_div_iff₀ (by norm_num)]
      nlinarith
    have e1 : (X' : ℚ) * (u * u) / 2 ^ 21 = (X' / 2 ^ 21) * (u * u) := by ring
    rw [e1]
    rcases fx with h5 | ⟨h5, -⟩
    · rw [h5, show (N : ℚ) * u * (N * u) - X' * (u * u) = (N * N - X') * (u * u) by ring, abs_mul, abs_of_pos u2]
      refine mul_le_mul_of_nonneg_right ?_ u2.le
      rw [abs_le]; constructor <;> nlinarith
    · rw [h5]
      push_cast
      rw [show ((N : ℚ) + 1) * u * ((N + 1) * u) - X' * (u * u) = ((N + 1) * (N + 1) - X') * (u * u) by ring, abs_mul, abs_of_pos u2]
      refine mul_le_mul_of_nonneg_right ?_ u2.le
      rw [abs_le]; constructor <;> nlinarith

namespace Locus
open Tristimulus

/-- One kelvin less, exactly. -/
theorem sub_one {T : F32} (hf : T.isFinite = true) (h0 : 1000 ≤ T.val) (h1 : T.val ≤ 10000) :
    TempOK (T - Arith.lit 1) ∧ (T - Arith.lit 1 : F32).val = T.val - 1 := by
  have is1 : Is (lit 1) 1 := by
    have := Is.litInt (n := 1) (by norm_num); exact_mod_cast this
  have hrep : Rep (T.val - 1) := by
    obtain ⟨m, e, hv, hm, he⟩ := T.rep_val
    rcases le_or_gt e 0 with h | h
    · obtain ⟨k, rfl⟩ : ∃ k : ℕ, e = -(k : ℤ) := ⟨(-e).toNat, by omega⟩
      have e1 : T.val - 1 = ((m - 2 ^ k : ℤ) : ℚ) * 2 ^ (-(k : ℤ)) := by
        rw [hv]; push_cast
        rw [sub_mul, zpow_neg, zpow_natCast, mul_inv_cancel₀ (by positivity)]
      have hp : (0 : ℚ) < 2 ^ (-(k : ℤ)) := by positivity
      have h2 : (0 : ℚ) < ((m - 2 ^ k : ℤ) : ℚ) := by
        by_contra hc
        have := mul_nonpos_of_nonpos_of_nonneg (not_lt.1 hc) hp.le
        rw [← e1] at this
        linarith
      have h3 : 0 < m - 2 ^ k := by exact_mod_cast h2
      have h4 : (0 : ℤ) < 2 ^ k := by positivity
      refine ⟨m - 2 ^ k, _, e1, ?_, he⟩
      rw [abs_of_pos h3]
      have := (abs_lt.1 hm).2
      omega
    · obtain ⟨k, rfl⟩ : ∃ k : ℕ, e = (k : ℤ) := ⟨e.toNat, by omega⟩
      have e1 : T.val - 1 = ((m * 2 ^ k - 1 : ℤ) : ℚ) := by rw [hv]; push_cast; rw [zpow_natCast]
      rw [e1]
      have h2 : ((m * 2 ^ k - 1 : ℤ) : ℚ) ≤ 9999 := by rw [← e1]; linarith
      have h3 : (999 : ℚ) ≤ ((m * 2 ^ k - 1 : ℤ) : ℚ) := by rw [← e1]; linarith
      have h4 : m * 2 ^ k - 1 ≤ 9999 := by exact_mod_cast h2
      have h5 : 999 ≤ m * 2 ^ k - 1 := by exact_mod_cast h3
      refine rep_int ?_
      rw [abs_le]; constructor <;> omega
  have hlt : |T.val - 1| < 2 ^ 128 := by
    rw [abs_of_nonneg (by linarith)]
    exact lt_of_le_of_lt (by linarith : T.val - 1 ≤ 10000) (by norm_num)
  have k2 : Is (T - lit 1 : F32) (T.val - 1) := (Is.of T hf).sub is1 hrep hlt
  exact ⟨⟨k2.1, by rw [k2.2]; linarith, by rw [k2.2]; linarith⟩, k2.2⟩

/-- Rounding errors of `u` and `v`, hi range. -/
theorem uv_round_hi {x y : F32} (fx : x.isFinite = true) (fy : y.isFinite = true) {a b : ℝ} (ha : (x.val : ℝ) = a) (hb : (y.val : ℝ) = b)
    (x0 : 0 ≤ a) (x1 : a ≤ 0.381) (y0 : 0 ≤ b) (y1 : b ≤ 0.3785) (D0 : 5.89 ≤ -2 * a + 12 * b + 3) (D1 : -2 * a + 12 * b + 3 ≤ 6.79)
    (hU : 4 * a ≤ 0.226 * (-2 * a + 12 * b + 3)) (hV : 6 * b ≤ 0.336 * (-2 * a + 12 * b + 3)) :
    F32.Ap (u_from_xy x y) (4 * a / (-2 * a + 12 * b + 3)) 6.7e-8 ∧ F32.Ap (v_from_xy x y) (6 * b / (-2 * a + 12 * b + 3)) 1e-7 := by
  have ax := Ap.exact fx
  have ay := Ap.exact fy
  rw [ha] at ax
  rw [hb] at ay
  have d1 := yuv_2.neg.mul ax (R := 2) (S := 0.381) (E := 4.6e-8) (by norm_num) (by rw [abs_of_nonneg x0]; exact x1) (by norm_num) (by norm_num)
  have d2 := yuv_12.mul ay (R := 12) (S := 0.3785) (E := 2.72e-7) (by norm_num) (by rw [abs_of_nonneg y0]; exact y1) (by norm_num) (by norm_num)
  have d3 := d1.add d2 (B := 3.79) (E := 5.46e-7) (by rw [_root_.abs_le]; constructor <;> linarith) (by norm_num) (by norm_num)
  have d4 := d3.add lab_3 (B := 6.79) (E := 9.6e-7) (by rw [_root_.abs_le]; constructor <;> linarith) (by norm_num) (by norm_num)
  have n1 := yuv_4.mul ax (R := 4) (S := 0.381) (E := 9.2e-8) (by norm_num) (by rw [abs_of_nonneg x0]; exact x1) (by norm_num) (by norm_num)
  have n2 := yuv_6.mul ay (R := 6) (S := 0.3785) (E := 1.37e-7) (by norm_num) (by rw [abs_of_nonneg y0]; exact y1) (by norm_num) (by norm_num)
  constructor
  · refine n1.div d4 (Q := 0.226) (S := 5.88) (d := 5.3e-8) ?_ (by norm_num at *; linarith) (by norm_num) (by norm_num) (by norm_num) (by norm_num)
    rw [abs_of_nonneg (div_nonneg (by linarith) (by linarith)), div_le_iff₀ (by linarith)]
    exact hU
  · refine n2.div d4 (Q := 0.336) (S := 5.88) (d := 7.9e-8) ?_ (by norm_num at *; linarith) (by norm_num) (by norm_num) (by norm_num) (by norm_num)
    rw [abs_of_nonneg (div_nonneg (by linarith) (by linarith)), div_le_iff₀ (by linarith)]
    exact hV

/-- Rounding errors of `u` and `v`, lo range. -/
theorem uv_round_lo {x y : F32} (fx : x.isFinite = true) (fy : y.isFinite = true) {a b : ℝ} (ha : (x.val : ℝ) = a) (hb : (y.val : ℝ) = b)
    (x0 : 0 ≤ a) (x1 : a ≤ 0.661) (y0 : 0 ≤ b) (y1 : b ≤ 0.4305) (D0 : 5.84 ≤ -2 * a + 12 * b + 3) (D1 : -2 * a + 12 * b + 3 ≤ 7.03)
    (hU : 4 * a ≤ 0.448 * (-2 * a + 12 * b + 3)) (hV : 6 * b ≤ 0.362 * (-2 * a + 12 * b + 3)) :
    F32.Ap (u_from_xy x y) (4 * a / (-2 * a + 12 * b + 3)) 1.38e-7 ∧ F32.Ap (v_from_xy x y) (6 * b / (-2 * a + 12 * b + 3)) 1.17e-7 := by
  have ax := Ap.exact fx
  have ay := Ap.exact fy
  rw [ha] at ax
  rw [hb] at ay
  have d1 := yuv_2.neg.mul ax (R := 2) (S := 0.661) (E := 8e-8) (by norm_num) (by rw [abs_of_nonneg x0]; exact x1) (by norm_num) (by norm_num)
  have d2 := yuv_12.mul ay (R := 12) (S := 0.4305) (E := 3.1e-7) (by norm_num) (by rw [abs_of_nonneg y0]; exact y1) (by norm_num) (by norm_num)
  have d3 := d1.add d2 (B := 4.03) (E := 6.33e-7) (by rw [_root_.abs_le]; constructor <;> linarith) (by norm_num) (by norm_num)
  have d4 := d3.add lab_3 (B := 7.03) (E := 1.06e-6) (by rw [_root_.abs_le]; constructor <;> linarith) (by norm_num) (by norm_num)
  have n1 := yuv_4.mul ax (R := 4) (S := 0.661) (E := 1.6e-7) (by norm_num) (by rw [abs_of_nonneg x0]; exact x1) (by norm_num) (by norm_num)
  have n2 := yuv_6.mul ay (R := 6) (S := 0.4305) (E := 1.56e-7) (by norm_num) (by rw [abs_of_nonneg y0]; exact y1) (by norm_num) (by norm_num)
  constructor
  · refine n1.div d4 (Q := 0.448) (S := 5.83) (d := 1.1e-7) ?_ (by norm_num at *; linarith) (by norm_num) (by norm_num) (by norm_num) (by norm_num)
    rw [abs_of_nonneg (div_nonneg (by linarith) (by linarith)), div_le_iff₀ (by linarith)]
    exact hU
  · refine n2.div d4 (Q := 0.362) (S := 5.83) (d := 9.4e-8) ?_ (by norm_num at *; linarith) (by norm_num) (by norm_num) (by norm_num) (by norm_num)
    rw [abs_of_nonneg (div_nonneg (by linarith) (by linarith)), div_le_iff₀ (by linarith)]
    exact hV

/-- How `u` and `v` react to a change of `x` and `y`. -/
theorem uv_sens {a b A B ea eb U V : ℝ} (ha : |a - A| ≤ ea) (hb : |b - B| ≤ eb) (D0 : 0 < -2 * A + 12 * B + 3)
    (d0 : 0 < -2 * a + 12 * b + 3) (u0 : 0 ≤ 4 * A / (-2 * A + 12 * B + 3)) (u1 : 4 * A / (-2 * A + 12 * B + 3) ≤ U)
    (v0 : 0.2 ≤ 6 * B / (-2 * A + 12 * B + 3)) (v1 : 6 * B / (-2 * A + 12 * B + 3) ≤ V) (hV : V ≤ 0.5) :
    |4 * a / (-2 * a + 12 * b + 3) - 4 * A / (-2 * A + 12 * B + 3)| ≤ ((4 + 2 * U) * ea + 12 * U * eb) / (-2 * a + 12 * b + 3) ∧
    |6 * b / (-2 * a + 12 * b + 3) - 6 * B / (-2 * A + 12 * B + 3)| ≤ (3.6 * eb + 2 * V * ea) / (-2 * a + 12 * b + 3) := by
  have ea0 : 0 ≤ ea := (abs_nonneg _).trans ha
  have eb0 : 0 ≤ eb := (abs_nonneg _).trans hb
  have U0 : 0 ≤ U := u0.trans u1
  have V0 : 0 ≤ V := by linarith
  obtain ⟨u, hu⟩ : ∃ u, u = 4 * A / (-2 * A + 12 * B + 3) := ⟨_, rfl⟩
  obtain ⟨v, hv⟩ : ∃ v, v = 6 * B / (-2 * A + 12 * B + 3) := ⟨_, rfl⟩
  rw [← hu] at u0 u1 ⊢
  rw [← hv] at v0 v1 ⊢
  rw [eq_div_iff D0.ne'] at hu hv
  have e1 : 4 * a / (-2 * a + 12 * b + 3) - u = ((4 + 2 * u) * (a - A) - 12 * u * (b - B)) / (-2 * a + 12 * b + 3) := by
    rw [eq_div_iff d0.ne', sub_mul, div_mul_cancel₀ _ d0.ne']; linarith
  have e2 : 6 * b / (-2 * a + 12 * b + 3) - v = ((6 - 12 * v) * (b - B) + 2 * v * (a - A)) / (-2 * a + 12 * b + 3) := by
    rw [eq_div_iff d0.ne', sub_mul, div_mul_cancel₀ _ d0.ne']; linarith
  rw [e1, e2, abs_div, abs_div, abs_of_pos d0]
  constructor
  · refine div_le_div_of_nonneg_right ?_ d0.le
    refine (abs_sub _ _).trans ?_
    rw [abs_mul, abs_mul, abs_of_nonneg (by linarith : 0 ≤ 4 + 2 * u), abs_of_nonneg (by linarith : 0 ≤ 12 * u)]
    gcongr
  · refine div_le_div_of_nonneg_right ?_ d0.le
    refine (abs_add_le _ _).trans ?_
    rw [abs_mul, abs_mul, abs_of_nonneg (by linarith : 0 ≤ 2 * v)]
    have : |6 - 12 * v| ≤ 3.6 := by rw [_root_.abs_le]; constructor <;> linarith
    gcongr

/-- The computed point of the locus, low temperatures. -/
theorem point_lo {T : F32} (h : TempOK T) (h4 : T.val ≤ 4000) :
    F32.Ap (u_from_xy (Mixed.blackbody_x_approx T) (Mixed.blackbody_y_approx T)) (U T.val) 2e-7 ∧
    F32.Ap (v_from_xy (Mixed.blackbody_x_approx T) (Mixed.blackbody_y_approx T)) (V T.val) 1.4e-7 := by
  have h4' : (T.val : ℝ) ≤ 4000 := by exact_mod_cast h4
  obtain ⟨ax, ay⟩ := C94_chroma T h
  change F32.Ap _ (X T.val) _ at ax
  change F32.Ap _ (Y T.val) _ at ay
  obtain ⟨⟨x0, x1⟩, y0, y1⟩ := box h.mem
  have D0 := Dlo1 _ h.mem.1 h4'
  have D1 := Dlo2 _ h.mem.1 h4'
  have hU := Ulo _ h.mem.1 h4'
  have hV := Vlo _ h.mem.1 h4'
  have hV0 := (UV_box h.mem).2.1
  show F32.Ap _ (4 * X T.val / (-2 * X T.val + 12 * Y T.val + 3)) _ ∧ F32.Ap _ (6 * Y T.val / (-2 * X T.val + 12 * Y T.val + 3)) _
  rw [V] at hV0
  generalize Mixed.blackbody_x_approx T = x at *
  generalize Mixed.blackbody_y_approx T = y at *
  generalize X (T.val : ℝ) = A at *
  generalize Y (T.val : ℝ) = B at *
  have ea := ax.err
  have eb := ay.err
  obtain ⟨a, ha⟩ : ∃ a, (x.val : ℝ) = a := ⟨_, rfl⟩
  obtain ⟨b, hb⟩ : ∃ b, (y.val : ℝ) = b := ⟨_, rfl⟩
  rw [ha] at ea
  rw [hb] at eb
  have ea' := _root_.abs_le.1 ea
  have eb' := _root_.abs_le.1 eb
  norm_num at x0 x1 y0 y1 D0 D1 hU hV hV0 ea' eb'
  have D0p : 0 < -2 * A + 12 * B + 3 := by linarith
  have d0 : 5.84 ≤ -2 * a + 12 * b + 3 := by norm_num; linarith
  have r := uv_round_lo ax.fin ay.fin ha hb (by linarith) (by norm_num; linarith) (by linarith) (by norm_num; linarith) d0 (by norm_num; linarith)
    (by norm_num; linarith) (by norm_num; linarith)
  obtain ⟨s1, s2⟩ := uv_sens (U := 0.447) (V := 0.361) ea eb D0p (by linarith) (div_nonneg (by linarith) D0p.le)
    (by rw [div_le_iff₀ D0p]; norm_num; linarith) (by norm_num; linarith) (by rw [div_le_iff₀ D0p]; norm_num; linarith) (by norm_num)
  have q1 : ((4 + 2 * 0.447) * 4e-8 + 12 * 0.447 * 2.6e-8) / (-2 * a + 12 * b + 3) ≤ 5.8e-8 := by
    rw [div_le_iff₀ (by linarith)]; norm_num at d0 ⊢; linarith
  have q2 : (3.6 * 2.6e-8 + 2 * 0.361 * 4e-8) / (-2 * a + 12 * b + 3) ≤ 2.2e-8 := by
    rw [div_le_iff₀ (by linarith)]; norm_num at d0 ⊢; linarith
  refine ⟨⟨r.1.fin, ?_⟩, ⟨r.2.fin, ?_⟩⟩
  · refine (abs_sub_le _ _ _).trans ((add_le_add r.1.err (s1.trans q1)).trans (by norm_num))
  · refine (abs_sub_le _ _ _).trans ((add_le_add r.2.err (s2.trans q2)).trans (by norm_num))

/-- The computed point of the locus, high temperatures. -/
theorem point_hi {T : F32} (h : TempOK T) (h4 : 3999 ≤ T.val) :
    F32.Ap (u_from_xy (Mixed.blackbody_x_approx T) (Mixed.blackbody_y_approx T)) (U T.val) 9.55e-8 ∧
    F32.Ap (v_from_xy (Mixed.blackbody_x_approx T) (Mixed.blackbody_y_approx T)) (V T.val) 1.17e-7 := by
  have h4' : 3999 ≤ (T.val : ℝ) := by exact_mod_cast h4
  have X1 := Xhi _ h4' h.mem.2
  have Y1 := Yhi _ h4' h.mem.2
  obtain ⟨⟨x0, -⟩, y0, -⟩ := box h.mem
  have ax : F32.Ap (Mixed.blackbody_x_approx T) (X T.val) 2.28e-8 :=
    (x_double h.fin h.abs).toF32 (B := 0.3805) (by rw [_root_.abs_le]; norm_num at *; constructor <;> linarith) (by norm_num) (by norm_num)
  have ay : F32.Ap (Mixed.blackbody_y_approx T) (Y T.val) 2.28e-8 :=
    (y_double h.fin h.abs).toF32 (B := 0.378) (by rw [_root_.abs_le]; norm_num at *; constructor <;> linarith) (by norm_num) (by norm_num)
  have D0 := Dhi1 _ h4' h.mem.2
  have D1 := Dhi2 _ h4' h.mem.2
  have hU := Uhi _ h4' h.mem.2
  have hV := Vhi _ h4' h.mem.2
  have hV0 := (UV_box h.mem).2.1
  show F32.Ap _ (4 * X T.val / (-2 * X T.val + 12 * Y T.val + 3)) _ ∧ F32.Ap _ (6 * Y T.val / (-2 * X T.val + 12 * Y T.val + 3)) _
  rw [V] at hV0
  generalize Mixed.blackbody_x_approx T = x at *
  generalize Mixed.blackbody_y_approx T = y at *
  generalize X (T.val : ℝ) = A at *
  generalize Y (T.val : ℝ) = B at *
  have ea := ax.err
  have eb := ay.err
  obtain ⟨a, ha⟩ : ∃ a, (x.val : ℝ) = a := ⟨_, rfl⟩
  obtain ⟨b, hb⟩ : ∃ b, (y.val : ℝ) = b := ⟨_, rfl⟩
  rw [ha] at ea
  rw [hb] at eb
  have ea' := _root_.abs_le.1 ea
  have eb' := _root_.abs_le.1 eb
  norm_num at x0 y0 X1 Y1 D0 D1 hU hV hV0 ea' eb'
  have D0p : 0 < -2 * A + 12 * B + 3 := by linarith
  have d0 : 5.89 ≤ -2 * a + 12 * b + 3 := by norm_num; linarith
  have r := uv_round_hi ax.fin ay.fin ha hb (by linarith) (by norm_num; linarith) (by linarith) (by norm_num; linarith) d0 (by norm_num; linarith)
    (by norm_num; linarith) (by norm_num; linarith)
  obtain ⟨s1, s2⟩ := uv_sens (U := 0.225) (V := 0.335) ea eb D0p (by linarith) (div_nonneg (by linarith) D0p.le)
    (by rw [div_le_iff₀ D0p]; norm_num; linarith) (by norm_num; linarith) (by rw [div_le_iff₀ D0p]; norm_num; linarith) (by norm_num)
  have q1 : ((4 + 2 * 0.225) * 2.28e-8 + 12 * 0.225 * 2.28e-8) / (-2 * a + 12 * b + 3) ≤ 2.8e-8 := by
    rw [div_le_iff₀ (by linarith)]; norm_num at d0 ⊢; linarith
  have q2 : (3.6 * 2.28e-8 + 2 * 0.335 * 2.28e-8) / (-2 * a + 12 * b + 3) ≤ 1.7e-8 := by
    rw [div_le_iff₀ (by linarith)]; norm_num at d0 ⊢; linarith
  refine ⟨⟨r.1.fin, ?_⟩, ⟨r.2.fin, ?_⟩⟩
  · refine (abs_sub_le _ _ _).trans ((add_le_add r.1.err (s1.trans q1)).trans (by norm_num))
  · refine (abs_sub_le _ _ _).trans ((add_le_add r.2.err (s2.trans q2)).trans (by norm_num))

end Locus
end CS
