import Verif.Props.DeltaFloat
import Verif.Props.LabFloat
import Verif.Props.Yxy

/-!
# C93: Yxy and Yuv in binary32
-/

namespace CS
open B32 F32 Tristimulus

theorem abs_f_lt {x : F32} (hx : x.isFinite = true) (h : (2e-8 : ℚ) ≤ x.val) : Arith.lt (abs_f x) (Arith.lit 1e-8 : F32) = false := by
  unfold abs_f
  rw [lt_lit hx (q := 0) (c := 0) (by decide +kernel), if_neg (by simp; linarith)]
  have h1 := Ap.ofEval (x := (Arith.lit 1e-8 : F32)) (q := 1e-8) (e := 1e-9) (r := 1e-8) (E := 1e-9) (by decide +kernel) (by norm_num) (by norm_num)
  rw [alt_def, lt_finite hx h1.fin, decide_eq_false_iff_not, not_lt]
  have h2 := (_root_.abs_le.1 h1.err).2
  have h3 : ((Arith.lit 1e-8 : F32).val : ℝ) ≤ (2e-8 : ℚ) := by push_cast; linarith
  exact le_trans (by exact_mod_cast h3) h

/-- A positive quotient. -/
theorem div_rel {x y : F32} {r s : ℝ} (hx : x.isFinite = true) (hy : y.isFinite = true) (x0 : 0 ≤ x.val) (y0 : 0 < y.val)
    (hle : x.val ≤ y.val) (hs : |(y.val : ℝ) - s| ≤ 1.25e-7 * s) (hr : (x.val : ℝ) = r) (hs0 : 0 < s) :
    Ap (x / y) (r / s) (1.9e-7 * (r / s) + 1 / 2 ^ 150) ∧ 0 ≤ (x / y).val ∧ (x / y).val ≤ 1 := by
  have q0 : 0 ≤ x.val / y.val := by positivity
  have q1 : x.val / y.val ≤ 1 := by rw [div_le_one y0]; exact hle
  have n0 := rnd_nonneg q0
  have rep1 : Rep 1 := by simpa using rep_int (n := 1) (by norm_num)
  have n1 := rnd_le rep1 q1
  have hd : (x / y).isFinite = true ∧ (x / y).val = rnd (x.val / y.val) := by
    rw [div_def, div_finite hx hy y0.ne']
    exact pack_finite (by rw [abs_of_nonneg n0]; exact lt_of_le_of_lt n1 (by norm_num))
  refine ⟨⟨hd.1, ?_⟩, by rw [hd.2]; exact n0, by rw [hd.2]; exact n1⟩
  rw [hd.2]
  have hr' := rnd_rel' (x.val / y.val)
  rw [abs_of_nonneg q0] at hr'
  have h1 := (Rat.cast_le (K := ℝ)).2 hr'
  push_cast at h1
  have r0 : 0 ≤ r := by rw [← hr]; exact_mod_cast x0
  have y0' : (0 : ℝ) < y.val := by exact_mod_cast y0
  rw [hr] at h1
  generalize (y.val : ℝ) = v at *
  obtain ⟨s1, s2⟩ := _root_.abs_le.1 hs
  have key : |r / v - r / s| ≤ 1.26e-7 * (r / s) := by
    have e : r / v - r / s = (r / s) * ((s - v) / v) := by field_simp
    have p : 0 ≤ r / s := by positivity
    rw [e, abs_mul, abs_of_nonneg p, mul_comm]
    gcongr
    rw [abs_div, abs_of_pos y0', div_le_iff₀ y0', _root_.abs_le]
    constructor <;> nlinarith
  have h2 : r / v ≤ r / s * (1 + 1.26e-7) := by
    have := (_root_.abs_le.1 key).2
    linarith
  have p : 0 ≤ r / s := by positivity
  have h3 : r / v / 2 ^ 24 ≤ r / s * 6e-8 := by
    rw [div_eq_mul_one_div]
    calc r / v * (1 / 2 ^ 24) ≤ (r / s * (1 + 1.26e-7)) * (1 / 2 ^ 24) := by gcongr
      _ = r / s * ((1 + 1.26e-7) * (1 / 2 ^ 24)) := by ring
      _ ≤ _ := by gcongr; norm_num
  have := abs_add_le (((rnd (x.val / y.val) : ℚ) : ℝ) - r / v) (r / v - r / s)
  rw [sub_add_sub_cancel] at this
  refine this.trans ?_
  generalize r / s = z at *
  linarith

/-- Non-negative finite components; the sum is neither tiny nor huge. -/
structure YxyOK (t : Tristimulus F32) : Prop where
  fa : t.a.isFinite = true
  fb : t.b.isFinite = true
  fc : t.c.isFinite = true
  a0 : 0 ≤ t.a.val
  b0 : 0 ≤ t.b.val
  c0 : 0 ≤ t.c.val
  lo : 3e-8 ≤ t.a.val + t.b.val + t.c.val
  hi : t.a.val + t.b.val + t.c.val ≤ 2 ^ 60

/-- The sum of the components. -/
noncomputable def sum3 (t : Tristimulus F32) : ℝ := (t.a.val : ℝ) + t.b.val + t.c.val

theorem sum_ok {t : Tristimulus F32} (h : YxyOK t) :
    (t.a + t.b + t.c).isFinite = true ∧ |((t.a + t.b + t.c).val : ℝ) - sum3 t| ≤ 1.25e-7 * sum3 t ∧
    t.a.val ≤ (t.a + t.b + t.c).val ∧ t.b.val ≤ (t.a + t.b + t.c).val ∧ t.c.val ≤ (t.a + t.b + t.c).val ∧
    2e-8 ≤ (t.a + t.b + t.c).val := by
  obtain ⟨fa, fb, fc, a0, b0, c0, lo, hi⟩ := h
  have big : (2 : ℚ) ^ 60 ≤ 2 ^ 105 := by norm_num
  obtain ⟨f1, l1, u1⟩ := add_rel fa fb a0 b0 (by linarith) (by linarith)
  have s0 : 0 ≤ (t.a + t.b).val := le_trans (mul_nonneg (by linarith) (by norm_num)) l1
  have sb : (t.a + t.b).val ≤ 2 ^ 105 := by
    have : (2 : ℚ) ^ 60 * (1 + 1 / 2 ^ 24) ≤ 2 ^ 105 := by norm_num
    refine u1.trans (le_trans ?_ this)
    gcongr; linarith
  obtain ⟨f2, l2, u2⟩ := add_rel f1 fc s0 c0 sb (by linarith)
  have v1 : (t.a + t.b).val = rnd (t.a.val + t.b.val) := by
    rw [add_def, add_finite fa fb]
    refine (pack_finite ?_).2
    have n0 := rnd_nonneg (show 0 ≤ t.a.val + t.b.val by linarith)
    have := rnd_add_rel t.a.rep_val t.b.rep_val
    rw [abs_of_nonneg (show 0 ≤ t.a.val + t.b.val by linarith)] at this
    have := (_root_.abs_le.1 this).2
    rw [abs_of_nonneg n0]
    norm_num at *; linarith
  have v2 : (t.a + t.b + t.c).val = rnd ((t.a + t.b).val + t.c.val) := by
    rw [add_def, add_finite f1 fc]
    refine (pack_finite ?_).2
    have n0 := rnd_nonneg (show 0 ≤ (t.a + t.b).val + t.c.val by linarith)
    have := rnd_add_rel (t.a + t.b).rep_val t.c.rep_val
    rw [abs_of_nonneg (show 0 ≤ (t.a + t.b).val + t.c.val by linarith)] at this
    have := (_root_.abs_le.1 this).2
    rw [abs_of_nonneg n0]
    norm_num at *; linarith
  have ma : t.a.val ≤ (t.a + t.b).val := by rw [v1]; exact le_rnd t.a.rep_val (by linarith)
  have mb : t.b.val ≤ (t.a + t.b).val := by rw [v1]; exact le_rnd t.b.rep_val (by linarith)
  have ms : (t.a + t.b).val ≤ (t.a + t.b + t.c).val := by rw [v2]; exact le_rnd (t.a + t.b).rep_val (by linarith)
  have mc : t.c.val ≤ (t.a + t.b + t.c).val := by rw [v2]; exact le_rnd t.c.rep_val (by linarith)
  refine ⟨f2, ?_, ma.trans ms, mb.trans ms, mc, ?_⟩
  · have hq : |(t.a + t.b + t.c).val - (t.a.val + t.b.val + t.c.val)| ≤ 1.25e-7 * (t.a.val + t.b.val + t.c.val) := by
      generalize (t.a + t.b + t.c).val = V at *
      generalize (t.a + t.b).val = W at *
      rw [_root_.abs_le]
      norm_num at *
      constructor <;> linarith
    have := (Rat.cast_le (K := ℝ)).2 hq
    push_cast at this
    unfold sum3
    exact this
  · generalize (t.a + t.b + t.c).val = V at *
    generalize (t.a + t.b).val = W at *
    norm_num at *
    linarith

/-- C93: in binary32 the chromaticities computed by `toYxy` lie in [0,1] and have relative error at most `1.9e-7` (plus
`2^-150`); the luminance is copied. -/
theorem C93_toYxy (t : Tristimulus F32) (h : YxyOK t) :
    (toYxy t).a = t.b ∧
    Ap (toYxy t).b (t.a.val / sum3 t) (1.9e-7 * (t.a.val / sum3 t) + 1 / 2 ^ 150) ∧ 0 ≤ (toYxy t).b.val ∧ (toYxy t).b.val ≤ 1 ∧
    Ap (toYxy t).c (t.b.val / sum3 t) (1.9e-7 * (t.b.val / sum3 t) + 1 / 2 ^ 150) ∧ 0 ≤ (toYxy t).c.val ∧ (toYxy t).c.val ≤ 1 := by
  obtain ⟨f, e, la, lb, lc, lo⟩ := sum_ok h
  have hs : 0 < sum3 t := by
    have := h.lo
    have h2 : (((3e-8 : ℚ)) : ℝ) ≤ ((t.a.val + t.b.val + t.c.val : ℚ) : ℝ) := by exact_mod_cast this
    push_cast at h2
    unfold sum3
    linarith
  have p0 : 0 < (t.a + t.b + t.c).val := by linarith
  refine ⟨rfl, ?_⟩
  have h1 : (toYxy t).b = t.a / (t.a + t.b + t.c) := by
    show x_from_XYZ t.a t.b t.c = _
    unfold x_from_XYZ
    rw [abs_f_lt f lo, if_neg (by simp)]
  have h2 : (toYxy t).c = t.b / (t.a + t.b + t.c) := by
    show y_from_XYZ t.a t.b t.c = _
    unfold y_from_XYZ
    rw [abs_f_lt f lo, if_neg (by simp)]
  obtain ⟨a1, a2, a3⟩ := div_rel h.fa f h.a0 p0 la e rfl hs
  obtain ⟨b1, b2, b3⟩ := div_rel h.fb f h.b0 p0 lb e rfl hs
  rw [h1, h2]
  exact ⟨a1, a2, a3, b1, b2, b3⟩

/-- One channel of `fromYxy`. -/
theorem chan_ap {v y' Y : F32} {a b S e1 : ℝ} (hv : Ap v a e1) (a1 : |a| ≤ 1) (he : e1 ≤ 1e-3) (hy : Ap y' b (2e-7 * b))
    (b0 : 1 / 2 ^ 20 ≤ b) (b1 : b ≤ 1) (S1 : S ≤ 2 ^ 60) (S0 : 0 < S) (hY : Y.isFinite = true) (hYv : (Y.val : ℝ) = b * S) :
    Ap (v * Y / y') (a * S) ((e1 * 1.001 + 3.3e-7) * S + 1 / 2 ^ 120) := by
  have bp : 0 < b := lt_of_lt_of_le (by positivity) b0
  have e0 := hv.nonneg
  have P0 : 0 < b * S := by positivity
  have P1 : b * S ≤ 2 ^ 60 := by
    calc b * S ≤ 1 * 2 ^ 60 := by gcongr
      _ = _ := one_mul _
  have hYa : Ap Y (b * S) 0 := by rw [← hYv]; exact Ap.exact hY
  have m1 := hv.mul hYa (R := 1) (S := b * S) (E := (e1 * 1.0001 + 6e-8) * (b * S) + 1 / 2 ^ 150) a1
    (by rw [abs_of_pos P0])
    (by
      generalize b * S = P at *
      have : e1 * P ≤ 1e-3 * P := by gcongr
      have h2 : (2 : ℝ) ^ 60 * 2 ≤ 2 ^ 120 := by norm_num
      linarith)
    (by
      generalize b * S = P at *
      have h2 : e1 * P ≥ 0 := by positivity
      have h3 : (P + e1 * P) / 2 ^ 24 ≤ 6e-8 * P + 1e-4 * (e1 * P) := by
        rw [div_le_iff₀ (by positivity)]; norm_num; linarith
      rw [zero_mul, mul_zero, add_zero, add_zero, one_mul]
      linarith)
  have es : a * (b * S) / b = a * S := by field_simp
  have aS : |a * S| ≤ S := by rw [abs_mul, abs_of_pos S0]; nlinarith
  have res := m1.div hy (Q := S) (S := b * (1 - 2e-7)) (d := (e1 * 1.0005 + 2.65e-7) * S + 1 / 2 ^ 129)
    (E := (e1 * 1.001 + 3.3e-7) * S + 1 / 2 ^ 120) (by rw [es]; exact aS) (by linarith)
    (by norm_num; exact bp)
    (by
      rw [div_le_iff₀ (by norm_num; exact bp)]
      have h1 : ((e1 * 1.0005 + 2.65e-7) * S + 1 / 2 ^ 129) * (b * (1 - 2e-7)) =
        (1.0005 * (1 - 2e-7)) * (e1 * (b * S)) + (2.65e-7 * (1 - 2e-7)) * (b * S) + (1 / 2 ^ 129 * (1 - 2e-7)) * b := by ring
      have h2 : (e1 * 1.0001 + 6e-8) * (b * S) + 1 / 2 ^ 150 + S * (2e-7 * b) = 1.0001 * (e1 * (b * S)) + 2.6e-7 * (b * S) + 1 / 2 ^ 150 := by ring
      have h3 : (1 / 2 ^ 129 * (1 - 2e-7)) * (1 / 2 ^ 20) ≤ (1 / 2 ^ 129 * (1 - 2e-7)) * b := by gcongr
      have h4 : (1 : ℝ) / 2 ^ 150 ≤ (1 / 2 ^ 129 * (1 - 2e-7)) * (1 / 2 ^ 20) := by norm_num
      have h5 : 0 ≤ e1 * (b * S) := by positivity
      rw [h1, h2]
      generalize b * S = P at *
      generalize e1 * P = W at *
      norm_num at *
      linarith)
    (by
      have : e1 * S ≤ 1e-3 * S := by gcongr
      have h2 : (2 : ℝ) ^ 60 * 2 + 1 / 2 ^ 129 ≤ 2 ^ 120 := by norm_num
      nlinarith)
    (by
      have h5 : 0 ≤ e1 * S := by positivity
      have h6 : (S + ((e1 * 1.0005 + 2.65e-7) * S + 1 / 2 ^ 129)) / 2 ^ 24 ≤ 6e-8 * S + 1e-4 * (e1 * S) + 1 / 2 ^ 129 := by
        rw [div_le_iff₀ (by positivity)]
        have : (0 : ℝ) < 1 / 2 ^ 129 := by positivity
        norm_num at *
        linarith
      have h7 : (1 : ℝ) / 2 ^ 129 + 1 / 2 ^ 129 + 1 / 2 ^ 150 ≤ 1 / 2 ^ 120 := by norm_num
      linarith)
  rw [es] at res
  exact res

/-- C93: in binary32, XYZ → Yxy → XYZ gives back every colour whose chromaticity `y` is at least `2^-20`, up to
`5.3e-7` (X) and `1e-6` (Z) of `X+Y+Z`; Y is returned exactly. -/
theorem C93_roundtrip (t : Tristimulus F32) (h : YxyOK t) (hy : sum3 t / 2 ^ 20 ≤ t.b.val) :
    Ap (fromYxy (toYxy t)).a t.a.val (5.3e-7 * sum3 t + 1 / 2 ^ 120) ∧ (fromYxy (toYxy t)).b = t.b ∧
    Ap (fromYxy (toYxy t)).c t.c.val (1e-6 * sum3 t + 1 / 2 ^ 120) := by
  obtain ⟨-, xa, x0, x1, ya, y0, y1⟩ := C93_toYxy t h
  have hs : 3e-8 ≤ sum3 t := by
    have := h.lo
    have h2 : (((3e-8 : ℚ)) : ℝ) ≤ ((t.a.val + t.b.val + t.c.val : ℚ) : ℝ) := by exact_mod_cast this
    push_cast at h2
    unfold sum3
    linarith
  have hS : sum3 t ≤ 2 ^ 60 := by
    have := h.hi
    have h2 : ((t.a.val + t.b.val + t.c.val : ℚ) : ℝ) ≤ (((2 ^ 60 : ℚ)) : ℝ) := by exact_mod_cast this
    push_cast at h2
    unfold sum3
    linarith
  have S0 : 0 < sum3 t := by linarith
  have ea : (t.a.val : ℝ) / sum3 t * sum3 t = t.a.val := div_mul_cancel₀ _ S0.ne'
  have eb : (t.b.val : ℝ) = t.b.val / sum3 t * sum3 t := (div_mul_cancel₀ _ S0.ne').symm
  have ec : (1 - (t.a.val : ℝ) / sum3 t - t.b.val / sum3 t) * sum3 t = t.c.val := by
    field_simp; unfold sum3; ring
  have ra0 : 0 ≤ (t.a.val : ℝ) / sum3 t := div_nonneg (by exact_mod_cast h.a0) S0.le
  have rb0 : 1 / 2 ^ 20 ≤ (t.b.val : ℝ) / sum3 t := by rw [le_div_iff₀ S0]; linarith
  have rc0 : 0 ≤ 1 - (t.a.val : ℝ) / sum3 t - t.b.val / sum3 t := by
    by_contra hc
    rw [not_le] at hc
    have := mul_neg_of_neg_of_pos hc S0
    rw [ec] at this
    have h0 : (0 : ℝ) ≤ t.c.val := by exact_mod_cast h.c0
    linarith
  show Ap (X_from_Yxy (toYxy t).a (toYxy t).b (toYxy t).c) _ _ ∧ _ ∧ Ap (Z_from_Yxy (toYxy t).a (toYxy t).b (toYxy t).c) _ _
  rw [show (toYxy t).a = t.b from rfl]
  refine (fun (p : Ap _ _ _ ∧ Ap _ _ _) => ⟨p.1, rfl, p.2⟩) ?_
  generalize (toYxy t).b = x at *
  generalize (toYxy t).c = y at *
  generalize (t.a.val : ℝ) / sum3 t = a at *
  generalize (t.b.val : ℝ) / sum3 t = b at *
  generalize sum3 t = S at *
  have hlo : (2e-8 : ℚ) ≤ y.val := by
    have := (_root_.abs_le.1 ya.err).1
    have h2 : (((2e-8 : ℚ)) : ℝ) ≤ (y.val : ℝ) := by push_cast; norm_num at *; linarith
    exact_mod_cast h2
  have ya' : Ap y b (2e-7 * b) := ya.weaken (by norm_num at *; linarith)
  have xa' : Ap x a 1.9001e-7 := xa.weaken (by norm_num; linarith)
  unfold X_from_Yxy Z_from_Yxy z_from_xy
  rw [abs_f_lt ya.fin hlo, if_neg (by simp), if_neg (by simp), ← ea, ← ec]
  constructor
  · exact (chan_ap xa' (by rw [abs_of_nonneg ra0]; linarith [show (0 : ℝ) < 1 / 2 ^ 20 by positivity]) (by norm_num) ya' rb0 (by linarith) hS S0 h.fb eb).weaken
      (by linarith)
  · have z1 := lab_1.sub xa' (B := 1) (E := 2.5e-7) (by rw [_root_.abs_le]; constructor <;> linarith [show (0 : ℝ) < 1 / 2 ^ 20 by positivity]) (by norm_num) (by norm_num)
    have z2 := z1.sub (ya'.weaken (e' := 2e-7) (by linarith)) (B := 1) (E := 5.2e-7)
      (by rw [_root_.abs_le]; constructor <;> linarith [show (0 : ℝ) < 1 / 2 ^ 20 by positivity]) (by norm_num) (by norm_num)
    exact (chan_ap z2 (by rw [abs_of_nonneg rc0]; linarith [show (0 : ℝ) < 1 / 2 ^ 20 by positivity]) (by norm_num) ya' rb0 (by linarith) hS S0 h.fb eb).weaken
      (by linarith)

/-! ### Yuv -/

theorem yuv_2 : Ap (Arith.lit 2 : F32) 2 0 := Ap.ofEval (q := 2) (e := 0) (by decide +kernel) (by norm_num) (by norm_num)
theorem yuv_4 : Ap (Arith.lit 4 : F32) 4 0 := Ap.ofEval (q := 4) (e := 0) (by decide +kernel) (by norm_num) (by norm_num)
theorem yuv_6 : Ap (Arith.lit 6 : F32) 6 0 := Ap.ofEval (q := 6) (e := 0) (by decide +kernel) (by norm_num) (by norm_num)
theorem yuv_8 : Ap (Arith.lit 8 : F32) 8 0 := Ap.ofEval (q := 8) (e := 0) (by decide +kernel) (by norm_num) (by norm_num)
theorem yuv_12 : Ap (Arith.lit 12 : F32) 12 0 := Ap.ofEval (q := 12) (e := 0) (by decide +kernel) (by norm_num) (by norm_num)

/-- Chromaticities in a rectangle containing every real colour. -/
structure XyOK (x y : F32) : Prop where
  fx : x.isFinite = true
  fy : y.isFinite = true
  x0 : 0 ≤ x.val
  y0 : 0 ≤ y.val
  x1 : x.val ≤ 0.75
  y1 : y.val ≤ 0.85

/-- C93: in binary32 the CIE 1960 coordinates of every chromaticity in the rectangle are accurate to `3.1e-6` and `1e-6`. -/
theorem C93_uv (x y : F32) (h : XyOK x y) :
    Ap (u_from_xy x y) (4 * x.val / (-2 * x.val + 12 * y.val + 3)) 3.1e-6 ∧
    Ap (v_from_xy x y) (6 * y.val / (-2 * x.val + 12 * y.val + 3)) 1e-6 := by
  have x0 : (0 : ℝ) ≤ x.val := by exact_mod_cast h.x0
  have y0 : (0 : ℝ) ≤ y.val := by exact_mod_cast h.y0
  have x1 : (x.val : ℝ) ≤ 0.75 := by
    have := (Rat.cast_le (K := ℝ)).2 h.x1
    push_cast at this; exact this
  have y1 : (y.val : ℝ) ≤ 0.85 := by
    have := (Rat.cast_le (K := ℝ)).2 h.y1
    push_cast at this; exact this
  have ax := Ap.exact h.fx
  have ay := Ap.exact h.fy
  generalize (x.val : ℝ) = a at *
  generalize (y.val : ℝ) = b at *
  have d1 := yuv_2.neg.mul ax (R := 2) (S := 0.75) (E := 9.1e-8) (by norm_num) (by rw [abs_of_nonneg x0]; exact x1) (by norm_num) (by norm_num)
  have d2 := yuv_12.mul ay (R := 12) (S := 0.85) (E := 6.1e-7) (by norm_num) (by rw [abs_of_nonneg y0]; exact y1) (by norm_num) (by norm_num)
  have d3 := d1.add d2 (B := 10.2) (E := 1.32e-6) (by rw [_root_.abs_le]; constructor <;> linarith) (by norm_num) (by norm_num)
  have d4 := d3.add lab_3 (B := 13.2) (E := 2.11e-6) (by rw [_root_.abs_le]; constructor <;> linarith) (by norm_num) (by norm_num)
  have n1 := yuv_4.mul ax (R := 4) (S := 0.75) (E := 1.8e-7) (by norm_num) (by rw [abs_of_nonneg x0]; exact x1) (by norm_num) (by norm_num)
  have n2 := yuv_6.mul ay (R := 6) (S := 0.85) (E := 3.1e-7) (by norm_num) (by rw [abs_of_nonneg y0]; exact y1) (by norm_num) (by norm_num)
  have D0 : 1.5 ≤ -2 * a + 12 * b + 3 := by linarith
  constructor
  · refine n1.div d4 (Q := 2) (S := 1.49) (d := 2.96e-6) ?_ (by norm_num at *; linarith) (by norm_num) (by norm_num) (by norm_num) (by norm_num)
    rw [abs_of_nonneg (div_nonneg (by linarith) (by linarith)), div_le_iff₀ (by linarith)]
    linarith
  · refine n2.div d4 (Q := 0.5) (S := 1.49) (d := 9.2e-7) ?_ (by norm_num at *; linarith) (by norm_num) (by norm_num) (by norm_num) (by norm_num)
    rw [abs_of_nonneg (div_nonneg (by linarith) (by linarith)), div_le_iff₀ (by linarith)]
    linarith

/-- C93: in binary32, Yxy → Yuv → Yxy: the luminance exactly, `x` and `y` up to `2.5e-5` and `1.8e-5`. -/
theorem C93_uv_roundtrip (t : Tristimulus F32) (h : XyOK t.b t.c) :
    (YuvToYxy (YxyToYuv t)).a = t.a ∧ Ap (YuvToYxy (YxyToYuv t)).b t.b.val 2.5e-5 ∧ Ap (YuvToYxy (YxyToYuv t)).c t.c.val 1.8e-5 := by
  refine ⟨rfl, ?_⟩
  obtain ⟨hu, hv⟩ := C93_uv _ _ h
  show Ap (x_from_uv (u_from_xy t.b t.c) (v_from_xy t.b t.c)) _ _ ∧ Ap (y_from_uv (u_from_xy t.b t.c) (v_from_xy t.b t.c)) _ _
  have x0 : (0 : ℝ) ≤ t.b.val := by exact_mod_cast h.x0
  have y0 : (0 : ℝ) ≤ t.c.val := by exact_mod_cast h.y0
  have x1 : (t.b.val : ℝ) ≤ 0.75 := by
    have := (Rat.cast_le (K := ℝ)).2 h.x1
    push_cast at this; exact this
  have y1 : (t.c.val : ℝ) ≤ 0.85 := by
    have := (Rat.cast_le (K := ℝ)).2 h.y1
    push_cast at this; exact this
  generalize u_from_xy t.b t.c = u at *
  generalize v_from_xy t.b t.c = v at *
  generalize (t.b.val : ℝ) = a at *
  generalize (t.c.val : ℝ) = b at *
  have D0 : 1.5 ≤ -2 * a + 12 * b + 3 := by linarith
  have D1 : -2 * a + 12 * b + 3 ≤ 13.2 := by linarith
  have ea : 3 * (4 * a / (-2 * a + 12 * b + 3)) / (12 / (-2 * a + 12 * b + 3)) = a := by
    obtain ⟨D, hD⟩ : ∃ D, D = -2 * a + 12 * b + 3 := ⟨_, rfl⟩
    rw [← hD] at D0 ⊢
    have : D ≠ 0 := by linarith
    field_simp
    try linarith
  have eb : 2 * (6 * b / (-2 * a + 12 * b + 3)) / (12 / (-2 * a + 12 * b + 3)) = b := by
    obtain ⟨D, hD⟩ : ∃ D, D = -2 * a + 12 * b + 3 := ⟨_, rfl⟩
    rw [← hD] at D0 ⊢
    have : D ≠ 0 := by linarith
    field_simp
    try linarith
  have ed : 2 * (4 * a / (-2 * a + 12 * b + 3)) - 8 * (6 * b / (-2 * a + 12 * b + 3)) + 4 = 12 / (-2 * a + 12 * b + 3) := by
    obtain ⟨D, hD⟩ : ∃ D, D = -2 * a + 12 * b + 3 := ⟨_, rfl⟩
    rw [← hD] at D0 ⊢
    have : D ≠ 0 := by linarith
    field_simp
    try linarith
  have u0 : 0 ≤ 4 * a / (-2 * a + 12 * b + 3) := div_nonneg (by linarith) (by linarith)
  have u1 : 4 * a / (-2 * a + 12 * b + 3) ≤ 2 := by rw [div_le_iff₀ (by linarith)]; linarith
  have v0 : 0 ≤ 6 * b / (-2 * a + 12 * b + 3) := div_nonneg (by linarith) (by linarith)
  have v1 : 6 * b / (-2 * a + 12 * b + 3) ≤ 0.5 := by rw [div_le_iff₀ (by linarith)]; linarith
  have w0 : 0.9 ≤ 12 / (-2 * a + 12 * b + 3) := by rw [le_div_iff₀ (by linarith)]; linarith
  have w1 : 12 / (-2 * a + 12 * b + 3) ≤ 8 := by rw [div_le_iff₀ (by linarith)]; linarith
  unfold x_from_uv y_from_uv
  generalize 4 * a / (-2 * a + 12 * b + 3) = p at *
  generalize 6 * b / (-2 * a + 12 * b + 3) = q at *
  generalize 12 / (-2 * a + 12 * b + 3) = w at *
  have d1 := yuv_2.mul hu (R := 2) (S := 2) (E := 6.5e-6) (by norm_num) (by rw [abs_of_nonneg u0]; exact u1) (by norm_num) (by norm_num)
  have d2 := yuv_8.mul hv (R := 8) (S := 0.5) (E := 8.3e-6) (by norm_num) (by rw [abs_of_nonneg v0]; exact v1) (by norm_num) (by norm_num)
  have d3 := d1.sub d2 (B := 4) (E := 1.51e-5) (by rw [_root_.abs_le]; constructor <;> linarith) (by norm_num) (by norm_num)
  have d4 := d3.add yuv_4 (B := 8) (E := 1.56e-5) (by rw [ed, abs_of_nonneg (by linarith)]; exact w1) (by norm_num) (by norm_num)
  rw [ed] at d4
  have n1 := lab_3.mul hu (R := 3) (S := 2) (E := 9.7e-6) (by norm_num) (by rw [abs_of_nonneg u0]; exact u1) (by norm_num) (by norm_num)
  have n2 := yuv_2.mul hv (R := 2) (S := 0.5) (E := 2.1e-6) (by norm_num) (by rw [abs_of_nonneg v0]; exact v1) (by norm_num) (by norm_num)
  have r1 := n1.div d4 (Q := 0.75) (S := 0.89) (d := 2.45e-5) (E := 2.5e-5) (by rw [ea, abs_of_nonneg x0]; exact x1) (by norm_num at *; linarith) (by norm_num) (by norm_num) (by norm_num) (by norm_num)
  have r2 := n2.div d4 (Q := 0.85) (S := 0.89) (d := 1.75e-5) (E := 1.8e-5) (by rw [eb, abs_of_nonneg y0]; exact y1) (by norm_num at *; linarith) (by norm_num) (by norm_num) (by norm_num) (by norm_num)
  rw [ea] at r1
  rw [eb] at r2
  exact ⟨r1, r2⟩

/-- The hypotheses can be met (the D65 white). -/
example : YxyOK ⟨lit 0.9505, lit 1, lit 1.089⟩ ∧ XyOK (lit 0.3127) (lit 0.329) :=
  ⟨⟨by decide +kernel, by decide +kernel, by decide +kernel, by decide +kernel, by decide +kernel, by decide +kernel, by decide +kernel, by decide +kernel⟩,
    ⟨by decide +kernel, by decide +kernel, by decide +kernel, by decide +kernel, by decide +kernel, by decide +kernel⟩⟩

end CS
