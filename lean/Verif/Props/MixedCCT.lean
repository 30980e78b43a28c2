import Verif.Lemmas.MixedFrame
import Verif.Lemmas.CloseMatrix

/-!
# C103: a colour temperature with an offset, in the precision of the code
-/

namespace CS
open F32 B32

/-- Nearby vectors have nearby directions. -/
theorem unit_near {z w : ℂ} {k κ : ℝ} (hw : 0 < ‖w‖) (h : ‖z - w‖ ≤ k * ‖w‖) (k0 : 0 ≤ k) (k1 : k < 1) (κ0 : 0 ≤ κ)
    (hκ : k ^ 2 ≤ κ ^ 2 * (1 - k)) : ‖z / ‖z‖ - w / ‖w‖‖ ≤ κ := by
  have hz : (1 - k) * ‖w‖ ≤ ‖z‖ := by
    have := norm_sub_norm_le w z
    rw [norm_sub_rev] at this
    linarith
  have hz0 : 0 < ‖z‖ := lt_of_lt_of_le (mul_pos (by linarith) hw) hz
  have zr : ‖z‖ ^ 2 = z.re ^ 2 + z.im ^ 2 := by rw [← Complex.normSq_eq_norm_sq, Complex.normSq_apply]; ring
  have wr : ‖w‖ ^ 2 = w.re ^ 2 + w.im ^ 2 := by rw [← Complex.normSq_eq_norm_sq, Complex.normSq_apply]; ring
  have dr : ‖z - w‖ ^ 2 = (z.re - w.re) ^ 2 + (z.im - w.im) ^ 2 := by
    rw [← Complex.normSq_eq_norm_sq, Complex.normSq_apply, Complex.sub_re, Complex.sub_im]; ring
  have er : ‖z / ‖z‖ - w / ‖w‖‖ ^ 2 = (z.re / ‖z‖ - w.re / ‖w‖) ^ 2 + (z.im / ‖z‖ - w.im / ‖w‖) ^ 2 := by
    rw [← Complex.normSq_eq_norm_sq, Complex.normSq_apply, Complex.sub_re, Complex.sub_im, Complex.div_ofReal_re,
      Complex.div_ofReal_re, Complex.div_ofReal_im, Complex.div_ofReal_im]; ring
  have hd : ‖z - w‖ ^ 2 ≤ k ^ 2 * ‖w‖ ^ 2 := by
    rw [← mul_pow]; exact pow_le_pow_left₀ (norm_nonneg _) h 2
  refine le_of_sq_le_sq ?_ κ0
  rw [er]
  rw [dr] at hd
  generalize ‖z‖ = Z at *
  generalize ‖w‖ = W at *
  have e : (z.re / Z - w.re / W) ^ 2 + (z.im / Z - w.im / W) ^ 2 =
      ((z.re - w.re) ^ 2 + (z.im - w.im) ^ 2 - (Z - W) ^ 2) / (Z * W) := by
    have : 2 * (z.re * w.re + z.im * w.im) = Z ^ 2 + W ^ 2 - ((z.re - w.re) ^ 2 + (z.im - w.im) ^ 2) := by
      rw [zr, wr]; ring
    have e1 : (z.re / Z - w.re / W) ^ 2 + (z.im / Z - w.im / W) ^ 2 =
        (z.re ^ 2 + z.im ^ 2) / Z ^ 2 + (w.re ^ 2 + w.im ^ 2) / W ^ 2 - 2 * (z.re * w.re + z.im * w.im) / (Z * W) := by
      field_simp; ring
    rw [e1, ← zr, ← wr, this]
    field_simp
    ring
  rw [e, div_le_iff₀ (mul_pos hz0 hw)]
  have h1 : κ ^ 2 * ((1 - k) * W * W) ≤ κ ^ 2 * (Z * W) := by
    refine mul_le_mul_of_nonneg_left ?_ (sq_nonneg _)
    exact mul_le_mul_of_nonneg_right hz hw.le
  have h2 : k ^ 2 * W ^ 2 ≤ κ ^ 2 * (1 - k) * W ^ 2 := mul_le_mul_of_nonneg_right hκ (sq_nonneg _)
  nlinarith [sq_nonneg (Z - W)]

namespace Locus
open Tristimulus

theorem sum_deriv {T : ℝ} (hT : T ∈ Set.Icc (999 : ℝ) 10000) : HasDerivAt (fun T => U T + V T)
    ((4 * (X' T * (12 * Y T + 3) - 12 * X T * Y' T) + 6 * (Y' T * (3 - 2 * X T) + 2 * X' T * Y T))
      / (-2 * X T + 12 * Y T + 3) ^ 2) T := by
  obtain ⟨⟨-, h2⟩, h3, -⟩ := box hT
  norm_num at h2 h3
  have hD : -2 * X T + 12 * Y T + 3 ≠ 0 := by linarith
  have dD := (((hasX T).const_mul (-2)).add ((hasY T).const_mul 12)).add_const 3
  refine ((((hasX T).const_mul 4).div dD hD).add (((hasY T).const_mul 6).div dD hD)).congr_deriv ?_
  simp only [Pi.add_apply]
  rw [← add_div]
  congr 1
  ring

/-- How much `u + v` falls within a kelvin. -/
theorem sum_drop {m hi T : ℝ} (hhi : hi ≤ 10000) (hm : ∀ T : ℝ, 999 ≤ T → T ≤ hi →
    0 ≤ -(4 * (X' T * (12 * Y T + 3) - 12 * X T * Y' T) + 6 * (Y' T * (3 - 2 * X T) + 2 * X' T * Y T)) -
      m * (-2 * X T + 12 * Y T + 3) ^ 2) (h0 : 1000 ≤ T) (h1 : T ≤ hi) :
    m ≤ (U (T - 1) - U T) + (V (T - 1) - V T) := by
  have mem : ∀ t ∈ Set.Icc (999 : ℝ) hi, t ∈ Set.Icc (999 : ℝ) 10000 := fun t ht => ⟨ht.1, ht.2.trans hhi⟩
  have key : AntitoneOn (fun t => (U t + V t) + m * t) (Set.Icc 999 hi) := by
    have hd : ∀ t ∈ Set.Icc (999 : ℝ) hi, HasDerivAt (fun t => (U t + V t) + m * t) _ t := fun t ht =>
      (sum_deriv (mem t ht)).add ((hasDerivAt_id' t).const_mul m)
    refine antitoneOn_of_deriv_nonpos (convex_Icc _ _) (fun t ht => (hd t ht).continuousAt.continuousWithinAt) ?_ ?_
    · intro t ht
      exact (hd t (interior_subset ht)).differentiableAt.differentiableWithinAt
    · intro t ht
      have ht' := interior_subset ht
      rw [(hd t ht').deriv]
      obtain ⟨⟨-, h2⟩, h3, -⟩ := box (mem t ht')
      norm_num at h2 h3
      have hD : 0 < -2 * X t + 12 * Y t + 3 := by linarith
      have := hm t ht'.1 ht'.2
      rw [mul_one, ← le_neg_iff_add_nonpos_right, div_le_iff₀ (pow_pos hD 2)]
      linarith
  have := key (show T - 1 ∈ Set.Icc 999 hi from ⟨by linarith, by linarith⟩) (show T ∈ Set.Icc 999 hi from ⟨by linarith, h1⟩) (by linarith)
  simp only at this
  linarith

/-- The exact chord of one kelvin as a complex number. -/
noncomputable def chordC (T : ℝ) : ℂ := ⟨U (T - 1) - U T, V (T - 1) - V T⟩

theorem chord_ge {m c T : ℝ} (h : m ≤ (U (T - 1) - U T) + (V (T - 1) - V T)) (m0 : 0 ≤ m) (c0 : 0 ≤ c) (hc : 2 * c ^ 2 ≤ m ^ 2) : c ≤ ‖chordC T‖ := by
  refine le_of_sq_le_sq ?_ (norm_nonneg _)
  rw [← Complex.normSq_eq_norm_sq, Complex.normSq_apply]
  simp only [chordC]
  nlinarith [sq_nonneg ((U (T - 1) - U T) - (V (T - 1) - V T))]

/-- A computed difference of two computed numbers. -/
theorem diff_ap {x y : F32} {r s e f : ℝ} (hx : F32.Ap x r e) (hy : F32.Ap y s f) (hb : |r - s| ≤ 1) (he : e ≤ 1) (hf : f ≤ 1) :
    F32.Ap (x - y) (r - s) ((e + f) * 1.0000001 + |r - s| * 6e-8) := by
  have e0 := hx.nonneg
  have f0 := hy.nonneg
  refine ⟨(hx.sub hy (B := 1) (E := 5) hb (by norm_num; linarith) (by norm_num; linarith)).fin, ?_⟩
  have fin := (hx.sub hy (B := 1) (E := 5) hb (by norm_num; linarith) (by norm_num; linarith)).fin
  have ax := _root_.abs_le.1 hx.err
  have ay := _root_.abs_le.1 hy.err
  have ar := _root_.abs_le.1 hb
  have hq : |((x.val - y.val : ℚ) : ℝ)| ≤ 3 := by push_cast; rw [_root_.abs_le]; constructor <;> linarith
  have hq' : |x.val - y.val| ≤ 3 := by exact_mod_cast hq
  have h1 := rnd_sub_rel (rep_val x) (rep_val y)
  have hlt : |rnd (x.val - y.val)| < 2 ^ 128 := by
    have := abs_sub_abs_le_abs_sub (rnd (x.val - y.val)) (x.val - y.val)
    have h3 : |x.val - y.val| / 2 ^ 24 ≤ 3 / 2 ^ 24 := by gcongr
    have : |rnd (x.val - y.val)| ≤ 4 := by
      have h4 : (3 : ℚ) / 2 ^ 24 ≤ 1 := by norm_num
      linarith
    exact lt_of_le_of_lt this (by norm_num)
  have hv : (x - y : F32).val = rnd (x.val - y.val) := ((Is.of x hx.fin).sub_rnd (Is.of y hy.fin) hlt).2
  rw [hv]
  have h1' : |((rnd (x.val - y.val) : ℚ) : ℝ) - (x.val - y.val)| ≤ |(x.val : ℝ) - y.val| / 2 ^ 24 := by
    have := (Rat.cast_le (K := ℝ)).2 h1
    push_cast at this; exact this
  have h2 : |(x.val : ℝ) - y.val - (r - s)| ≤ e + f := by
    rw [show (x.val : ℝ) - y.val - (r - s) = (x.val - r) - (y.val - s) by ring]
    exact (abs_sub _ _).trans (add_le_add hx.err hy.err)
  have h3 : |(x.val : ℝ) - y.val| ≤ |r - s| + (e + f) := by
    have := abs_sub_abs_le_abs_sub ((x.val : ℝ) - y.val) (r - s)
    linarith
  have h4 := abs_sub_le ((rnd (x.val - y.val) : ℚ) : ℝ) ((x.val : ℝ) - y.val) (r - s)
  have h5 : |(x.val : ℝ) - y.val| / 2 ^ 24 ≤ (|r - s| + (e + f)) * 6e-8 := by
    rw [div_le_iff₀ (by norm_num)]
    have := abs_nonneg (r - s)
    norm_num
    linarith
  norm_num at h5 ⊢
  linarith

/-- What the code has computed before it takes the root: the point, and a chord whose error is a fraction `k` of the
exact chord. -/
structure FrameOK (T : F32) (k : ℝ) : Prop where
  u : F32.Ap (Mixed.cctFrame T).1 (U T.val) 2e-7
  v : F32.Ap (Mixed.cctFrame T).2.1 (V T.val) 1.4e-7
  du : (Mixed.cctFrame T).2.2.1.isFinite = true
  dv : (Mixed.cctFrame T).2.2.2.isFinite = true
  near : ‖(⟨(Mixed.cctFrame T).2.2.1.val, (Mixed.cctFrame T).2.2.2.val⟩ : ℂ) - chordC T.val‖ ≤ k * ‖chordC T.val‖
  big : 3.9e-6 ≤ ‖chordC T.val‖

theorem frame_core {T : F32} {eu ev k c : ℝ} (hf : T.isFinite = true) (h0 : 1000 ≤ T.val) (h1 : T.val ≤ 10000)
    (p1 : F32.Ap (u_from_xy (Mixed.blackbody_x_approx T) (Mixed.blackbody_y_approx T)) (U T.val) eu ∧
      F32.Ap (v_from_xy (Mixed.blackbody_x_approx T) (Mixed.blackbody_y_approx T)) (V T.val) ev)
    (p2 : F32.Ap (u_from_xy (Mixed.blackbody_x_approx (T - Arith.lit 1)) (Mixed.blackbody_y_approx (T - Arith.lit 1))) (U (T.val - 1)) eu ∧
      F32.Ap (v_from_xy (Mixed.blackbody_x_approx (T - Arith.lit 1)) (Mixed.blackbody_y_approx (T - Arith.lit 1))) (V (T.val - 1)) ev)
    (hu : eu ≤ 2e-7) (hv : ev ≤ 1.4e-7) (hc : c ≤ ‖chordC T.val‖) (hc0 : 3.9e-6 ≤ c) (k0 : 0 ≤ k)
    (hk : ((2 * eu * 1.0000001) ^ 2 + (2 * ev * 1.0000001) ^ 2) ≤ ((k - 1.2e-7) * c) ^ 2) (k1 : 1.2e-7 ≤ k) : FrameOK T k := by
  have hT : (T.val : ℝ) ∈ Set.Icc (999 : ℝ) 10000 :=
    ⟨le_trans (by norm_num) (show (1000 : ℝ) ≤ T.val by exact_mod_cast h0), by exact_mod_cast h1⟩
  have hT1 : (T.val : ℝ) - 1 ∈ Set.Icc (999 : ℝ) 10000 :=
    ⟨by linarith [show (1000 : ℝ) ≤ T.val by exact_mod_cast h0], by linarith [hT.2]⟩
  have bu : ∀ t ∈ Set.Icc (999 : ℝ) 10000, 0 ≤ U t ∧ U t ≤ 1 := by
    intro t ht
    obtain ⟨⟨a1, a2⟩, a3, a4⟩ := box ht
    norm_num at a1 a2 a3 a4
    exact ⟨div_nonneg (by linarith) (by linarith), by rw [U, div_le_one (by linarith)]; linarith⟩
  obtain ⟨-, v1, v2⟩ := UV_box hT
  obtain ⟨-, v3, v4⟩ := UV_box hT1
  norm_num at v1 v3
  obtain ⟨u1, u2⟩ := bu _ hT
  obtain ⟨u3, u4⟩ := bu _ hT1
  have au := diff_ap p2.1 p1.1 (by rw [_root_.abs_le]; constructor <;> linarith) (by linarith) (by linarith)
  have av := diff_ap p2.2 p1.2 (by rw [_root_.abs_le]; constructor <;> linarith) (by linarith) (by linarith)
  refine ⟨p1.1.weaken hu, p1.2.weaken hv, au.fin, av.fin, ?_, hc0.trans hc⟩
  have ru : |U (T.val - 1) - U T.val| ≤ ‖chordC T.val‖ := Complex.abs_re_le_norm (chordC T.val)
  have rv : |V (T.val - 1) - V T.val| ≤ ‖chordC T.val‖ := Complex.abs_im_le_norm (chordC T.val)
  have n0 := norm_nonneg (chordC T.val)
  have eu' := au.err
  have ev' := av.err
  show ‖(⟨((u_from_xy (Mixed.blackbody_x_approx (T - Arith.lit 1)) (Mixed.blackbody_y_approx (T - Arith.lit 1)) -
      u_from_xy (Mixed.blackbody_x_approx T) (Mixed.blackbody_y_approx T) : F32).val : ℝ),
      ((v_from_xy (Mixed.blackbody_x_approx (T - Arith.lit 1)) (Mixed.blackbody_y_approx (T - Arith.lit 1)) -
      v_from_xy (Mixed.blackbody_x_approx T) (Mixed.blackbody_y_approx T) : F32).val : ℝ)⟩ : ℂ) - ⟨U (T.val - 1) - U T.val, V (T.val - 1) - V T.val⟩‖ ≤ _
  generalize ((u_from_xy (Mixed.blackbody_x_approx (T - Arith.lit 1)) (Mixed.blackbody_y_approx (T - Arith.lit 1)) -
      u_from_xy (Mixed.blackbody_x_approx T) (Mixed.blackbody_y_approx T) : F32).val : ℝ) = p at *
  generalize ((v_from_xy (Mixed.blackbody_x_approx (T - Arith.lit 1)) (Mixed.blackbody_y_approx (T - Arith.lit 1)) -
      v_from_xy (Mixed.blackbody_x_approx T) (Mixed.blackbody_y_approx T) : F32).val : ℝ) = q at *
  generalize ‖chordC T.val‖ = C at *
  generalize U (T.val - 1) - U T.val = DU at *
  generalize V (T.val - 1) - V T.val = DV at *
  -- split off the relative part
  have split : ‖(⟨p - DU, q - DV⟩ : ℂ)‖ ≤ (k - 1.2e-7) * C + 1.2e-7 * C := by
    obtain ⟨a, a1, a2⟩ : ∃ a, |a| ≤ 2 * eu * 1.0000001 ∧ |p - DU - a| ≤ 6e-8 * C := by
      rcases le_total |p - DU| (2 * eu * 1.0000001) with h | h
      · exact ⟨p - DU, h, by simpa using by positivity⟩
      · have e0 : 0 ≤ 2 * eu * 1.0000001 := by have := p1.1.nonneg; positivity
        rcases le_total 0 (p - DU) with hs | hs
        · refine ⟨2 * eu * 1.0000001, by rw [abs_of_nonneg e0], ?_⟩
          rw [abs_of_nonneg hs] at h eu'
          rw [abs_of_nonneg (by linarith)]
          linarith
        · refine ⟨-(2 * eu * 1.0000001), by rw [abs_neg, abs_of_nonneg e0], ?_⟩
          rw [abs_of_nonpos hs] at h eu'
          rw [abs_of_nonpos (by linarith)]
          linarith
    obtain ⟨b, b1, b2⟩ : ∃ b, |b| ≤ 2 * ev * 1.0000001 ∧ |q - DV - b| ≤ 6e-8 * C := by
      rcases le_total |q - DV| (2 * ev * 1.0000001) with h | h
      · exact ⟨q - DV, h, by simpa using by positivity⟩
      · have e0 : 0 ≤ 2 * ev * 1.0000001 := by have := p1.2.nonneg; positivity
        rcases le_total 0 (q - DV) with hs | hs
        · refine ⟨2 * ev * 1.0000001, by rw [abs_of_nonneg e0], ?_⟩
          rw [abs_of_nonneg hs] at h ev'
          rw [abs_of_nonneg (by linarith)]
          linarith
        · refine ⟨-(2 * ev * 1.0000001), by rw [abs_neg, abs_of_nonneg e0], ?_⟩
          rw [abs_of_nonpos hs] at h ev'
          rw [abs_of_nonpos (by linarith)]
          linarith
    have e : (⟨p - DU, q - DV⟩ : ℂ) = ⟨a, b⟩ + ⟨p - DU - a, q - DV - b⟩ := by
      apply Complex.ext <;> simp
    rw [e]
    refine (norm_add_le _ _).trans (add_le_add ?_ ?_)
    · refine le_of_sq_le_sq ?_ (mul_nonneg (by linarith) n0)
      rw [← Complex.normSq_eq_norm_sq, Complex.normSq_apply]
      have s1 : a ^ 2 ≤ (2 * eu * 1.0000001) ^ 2 := sq_le_sq' (by linarith [(_root_.abs_le.1 a1).1]) (_root_.abs_le.1 a1).2
      have s2 : b ^ 2 ≤ (2 * ev * 1.0000001) ^ 2 := sq_le_sq' (by linarith [(_root_.abs_le.1 b1).1]) (_root_.abs_le.1 b1).2
      have s3 : ((k - 1.2e-7) * c) ^ 2 ≤ ((k - 1.2e-7) * C) ^ 2 := by
        refine pow_le_pow_left₀ (mul_nonneg (by linarith) (by linarith)) ?_ 2
        exact mul_le_mul_of_nonneg_left hc (by linarith)
      simp only
      nlinarith
    · refine (Complex.norm_le_abs_re_add_abs_im _).trans ?_
      simp only
      linarith
  have e : (⟨p, q⟩ : ℂ) - ⟨DU, DV⟩ = ⟨p - DU, q - DV⟩ := by apply Complex.ext <;> simp
  rw [e]
  refine split.trans (le_of_eq (by ring))

theorem frame_ok {T : F32} (hf : T.isFinite = true) (h0 : 1000 ≤ T.val) (h1 : T.val ≤ 10000) :
    FrameOK T 0.0766 ∧ (T.val ≤ 6600 → FrameOK T 0.0359) := by
  obtain ⟨t1, tv⟩ := sub_one hf h0 h1
  have ok : TempOK T := ⟨hf, by linarith, h1⟩
  have r0 : (1000 : ℝ) ≤ T.val := by exact_mod_cast h0
  have r1 : (T.val : ℝ) ≤ 10000 := by exact_mod_cast h1
  have tv' : ((T - Arith.lit 1 : F32).val : ℝ) = T.val - 1 := by rw [tv]; push_cast; rfl
  rcases le_total T.val 4000 with h | h
  · have r4 : (T.val : ℝ) ≤ 4000 := by exact_mod_cast h
    have p1 := point_lo ok h
    have p2 := point_lo t1 (by rw [tv]; linarith)
    rw [tv'] at p2
    have c := chord_ge (c := 2.05e-5) (sum_drop (by norm_num) slope_low r0 r4) (by norm_num) (by norm_num) (by norm_num)
    have key : ∀ k : ℝ, 0.03 ≤ k → FrameOK T k := fun k hk =>
      frame_core hf h0 h1 p1 p2 le_rfl le_rfl c (by norm_num) (by linarith) (by
        have : ((0.03 - 1.2e-7) * 2.05e-5 : ℝ) ^ 2 ≤ ((k - 1.2e-7) * 2.05e-5) ^ 2 := by
          refine pow_le_pow_left₀ (by norm_num) ?_ 2
          refine mul_le_mul_of_nonneg_right (by linarith) (by norm_num)
        exact le_trans (by norm_num) this) (by linarith)
    exact ⟨key _ (by norm_num), fun _ => key _ (by norm_num)⟩
  · have p1 := point_hi ok (by linarith)
    have p2 := point_hi t1 (by rw [tv]; linarith)
    rw [tv'] at p2
    refine ⟨?_, fun h6 => ?_⟩
    · have c := chord_ge (c := 3.945e-6) (sum_drop le_rfl slope_all r0 r1) (by norm_num) (by norm_num) (by norm_num)
      exact frame_core hf h0 h1 p1 p2 (by norm_num) (by norm_num) c (by norm_num) (by norm_num) (by norm_num) (by norm_num)
    · have c := chord_ge (c := 8.48e-6) (sum_drop (by norm_num) slope_mid r0 (by exact_mod_cast h6)) (by norm_num) (by norm_num) (by norm_num)
      exact frame_core hf h0 h1 p1 p2 (by norm_num) (by norm_num) c (by norm_num) (by norm_num) (by norm_num) (by norm_num)

/-! ### From `u, v` back to a colour -/

/-- Rounding errors of `x` and `y`. -/
theorem xy_round {u v : F32} (fu : u.isFinite = true) (fv : v.isFinite = true) {a b : ℝ} (ha : (u.val : ℝ) = a) (hb : (v.val : ℝ) = b)
    (a0 : 0.1 ≤ a) (a1 : a ≤ 0.49) (b0 : 0.2 ≤ b) (b1 : b ≤ 0.402) (w0 : 1.3 ≤ 2 * a - 8 * b + 4) (w1 : 2 * a - 8 * b + 4 ≤ 2.47)
    (hx : 3 * a ≤ 0.98 * (2 * a - 8 * b + 4)) (hy : 2 * b ≤ 0.63 * (2 * a - 8 * b + 4)) :
    F32.Ap (x_from_uv u v) (3 * a / (2 * a - 8 * b + 4)) 5.7e-7 ∧ F32.Ap (y_from_uv u v) (2 * b / (2 * a - 8 * b + 4)) 3.6e-7 := by
  have au := Ap.exact fu
  have av := Ap.exact fv
  rw [ha] at au
  rw [hb] at av
  have na : |a| ≤ 0.49 := by rw [abs_of_nonneg (by linarith)]; exact a1
  have nb : |b| ≤ 0.402 := by rw [abs_of_nonneg (by linarith)]; exact b1
  have d1 := yuv_2.mul au (R := 2) (S := 0.49) (E := 5.9e-8) (by norm_num) na (by norm_num) (by norm_num)
  have d2 := yuv_8.mul av (R := 8) (S := 0.402) (E := 1.93e-7) (by norm_num) nb (by norm_num) (by norm_num)
  have d3 := d1.sub d2 (B := 2.7) (E := 4.14e-7) (by rw [_root_.abs_le]; constructor <;> linarith) (by norm_num) (by norm_num)
  have d4 := d3.add yuv_4 (B := 2.47) (E := 5.63e-7) (by rw [_root_.abs_le]; constructor <;> linarith) (by norm_num) (by norm_num)
  have n1 := lab_3.mul au (R := 3) (S := 0.49) (E := 8.9e-8) (by norm_num) na (by norm_num) (by norm_num)
  have n2 := yuv_2.mul av (R := 2) (S := 0.402) (E := 4.9e-8) (by norm_num) nb (by norm_num) (by norm_num)
  constructor
  · refine n1.div d4 (Q := 0.98) (S := 1.29) (d := 5e-7) ?_ (by linarith) (by norm_num) (by norm_num) (by norm_num) (by norm_num)
    rw [abs_of_nonneg (div_nonneg (by linarith) (by linarith)), div_le_iff₀ (by linarith)]
    exact hx
  · refine n2.div d4 (Q := 0.63) (S := 1.29) (d := 3.2e-7) ?_ (by linarith) (by norm_num) (by norm_num) (by norm_num) (by norm_num)
    rw [abs_of_nonneg (div_nonneg (by linarith) (by linarith)), div_le_iff₀ (by linarith)]
    exact hy

/-- The colour of a computed chromaticity. -/
theorem uv_of_float {x y L : F32} (fx : x.isFinite = true) (fy : y.isFinite = true) {a b : ℝ} (ha : (x.val : ℝ) = a) (hb : (y.val : ℝ) = b)
    (a0 : 0.05 ≤ a) (a1 : a ≤ 0.981) (b0 : 0.16 ≤ b) (b1 : b ≤ 0.631) (D0 : 4.85 ≤ -2 * a + 12 * b + 3)
    (hu : 4 * a ≤ 0.495 * (-2 * a + 12 * b + 3)) (hv : 6 * b ≤ 0.41 * (-2 * a + 12 * b + 3))
    (hL : L.isFinite = true) (L0 : 1 / 2 ^ 80 ≤ L.val) (L1 : L.val ≤ 2 ^ 50) :
    (fromYxy ⟨L, x, y⟩ : Tristimulus F32).a.isFinite = true ∧ (fromYxy ⟨L, x, y⟩ : Tristimulus F32).c.isFinite = true ∧
    |(Spec.uv (fromYxy ⟨L, x, y⟩ : Tristimulus F32).real).1 - 4 * a / (-2 * a + 12 * b + 3)| ≤ 4.6e-7 ∧
    |(Spec.uv (fromYxy ⟨L, x, y⟩ : Tristimulus F32).real).2 - 6 * b / (-2 * a + 12 * b + 3)| ≤ 1.5e-7 := by
  have hlo : (2e-8 : ℚ) ≤ y.val := by
    have h2 : (((2e-8 : ℚ)) : ℝ) ≤ (y.val : ℝ) := by rw [hb]; push_cast; norm_num at *; linarith
    exact_mod_cast h2
  have bp : 0 < b := by linarith
  have l0 : (1 : ℝ) / 2 ^ 80 ≤ L.val := by
    have := (Rat.cast_le (K := ℝ)).2 L0
    push_cast at this; exact this
  have lp : (0 : ℝ) < L.val := lt_of_lt_of_le (by positivity) l0
  have l1 : (L.val : ℝ) ≤ 2 ^ 50 := by exact_mod_cast L1
  have S0 : 0 < (L.val : ℝ) / b := by positivity
  have S1 : (L.val : ℝ) / b ≤ 2 ^ 60 := by
    rw [div_le_iff₀ bp]
    refine l1.trans ?_
    have : (2 : ℝ) ^ 60 * 0.16 ≤ 2 ^ 60 * b := by gcongr
    exact le_trans (by norm_num) this
  have S2 : (1 : ℝ) / 2 ^ 80 ≤ L.val / b := l0.trans (by rw [le_div_iff₀ bp]; nlinarith)
  have ax := Ap.exact fx
  have ay := Ap.exact fy
  rw [ha] at ax
  rw [hb] at ay
  have ay' : F32.Ap y b (2e-7 * b) := ay.weaken (by positivity)
  have hb20 : (1 : ℝ) / 2 ^ 20 ≤ b := le_trans (by norm_num) b0
  have eL : (L.val : ℝ) = b * (L.val / b) := by field_simp
  have c1 := chan_ap ax (by rw [_root_.abs_le]; constructor <;> linarith) (by norm_num) ay' hb20 (by linarith) S1 S0 hL eL
  have z1 := lab_1.sub ax (B := 0.95) (E := 5.7e-8) (by rw [_root_.abs_le]; constructor <;> linarith) (by norm_num) (by norm_num)
  have z2 := z1.sub ay (B := 0.8) (E := 1.1e-7) (by rw [_root_.abs_le]; constructor <;> linarith) (by norm_num) (by norm_num)
  have c2 := chan_ap z2 (by rw [_root_.abs_le]; constructor <;> linarith) (by norm_num) ay' hb20 (by linarith) S1 S0 hL eL
  have e1 : (fromYxy ⟨L, x, y⟩ : Tristimulus F32) = ⟨x * L / y, L, (Arith.lit 1 - x - y) * L / y⟩ := by
    simp only [fromYxy, fromYxy3, X_from_Yxy, Y_from_Yxy, Z_from_Yxy, z_from_xy]
    rw [abs_f_lt fy hlo, if_neg (by simp), if_neg (by simp)]
  rw [e1]
  refine ⟨c1.fin, c2.fin, ?_⟩
  simp only [Spec.uv, Tristimulus.real]
  have h1 := c1.err
  have h2 := c2.err
  generalize ((x * L / y : F32).val : ℝ) = P at *
  generalize (((Arith.lit 1 - x - y) * L / y : F32).val : ℝ) = Q at *
  rw [eL]
  generalize (L.val : ℝ) / b = S at *
  have t : (1 : ℝ) / 2 ^ 120 ≤ 1e-9 * S := le_trans (b := (1e-9 : ℝ) * (1 / 2 ^ 80)) (by norm_num) (by gcongr)
  generalize (1 : ℝ) / 2 ^ 120 = tiny at *
  obtain ⟨D, hD⟩ : ∃ D, D = -2 * a + 12 * b + 3 := ⟨_, rfl⟩
  rw [← hD] at D0 hu hv ⊢
  have Dp : 0 < D := by linarith
  have hs : |P + 15 * (b * S) + 3 * Q - S * D| ≤ 1.67e-6 * S := by
    rw [show P + 15 * (b * S) + 3 * Q - S * D = (P - a * S) + 3 * (Q - (1 - a - b) * S) by rw [hD]; ring]
    refine (abs_add_le _ _).trans ?_
    rw [abs_mul, abs_of_pos (by norm_num : (0 : ℝ) < 3)]
    norm_num at h1 h2 t ⊢
    linarith
  obtain ⟨s, es⟩ : ∃ s, s = P + 15 * (b * S) + 3 * Q := ⟨_, rfl⟩
  rw [← es] at hs ⊢
  have sp : 4.84 * S ≤ s := by
    have := (_root_.abs_le.1 hs).1
    have h3 : 4.85 * S ≤ S * D := by nlinarith
    norm_num at this h3 ⊢
    linarith
  have s0 : 0 < s := lt_of_lt_of_le (by positivity) sp
  obtain ⟨u, hu'⟩ : ∃ u, u = 4 * a / D := ⟨_, rfl⟩
  obtain ⟨v, hv'⟩ : ∃ v, v = 6 * b / D := ⟨_, rfl⟩
  have u0 : 0 ≤ u := by rw [hu']; exact div_nonneg (by linarith) Dp.le
  have v0 : 0 ≤ v := by rw [hv']; exact div_nonneg (by linarith) Dp.le
  have u1 : u ≤ 0.495 := by rw [hu', div_le_iff₀ Dp]; exact hu
  have v1 : v ≤ 0.41 := by rw [hv', div_le_iff₀ Dp]; exact hv
  rw [← hu', ← hv']
  rw [eq_div_iff Dp.ne'] at hu' hv'
  constructor
  · have e : 4 * P / s - u = (4 * (P - a * S) - u * (s - S * D)) / s := by
      rw [eq_div_iff s0.ne', sub_mul, div_mul_cancel₀ _ s0.ne']
      linear_combination (-S) * hu'
    rw [e, abs_div, abs_of_pos s0, div_le_iff₀ s0]
    refine (abs_sub _ _).trans ?_
    rw [abs_mul, abs_mul, abs_of_pos (by norm_num : (0 : ℝ) < 4), abs_of_nonneg u0]
    have : u * |s - S * D| ≤ 0.495 * (1.67e-6 * S) := by gcongr
    norm_num at h1 t this sp ⊢
    linarith
  · have e : 6 * (b * S) / s - v = (-(v * (s - S * D))) / s := by
      rw [eq_div_iff s0.ne', sub_mul, div_mul_cancel₀ _ s0.ne']
      linear_combination (-S) * hv'
    rw [e, abs_div, abs_of_pos s0, div_le_iff₀ s0, abs_neg, abs_mul, abs_of_nonneg v0]
    have : v * |s - S * D| ≤ 0.41 * (1.67e-6 * S) := by gcongr
    norm_num at this sp ⊢
    linarith

/-- From computed `u, v` to the colour and back to its chromaticity. -/
theorem uv_back {u v L : F32} (fu : u.isFinite = true) (fv : v.isFinite = true) {a b : ℝ} (ha : (u.val : ℝ) = a) (hb : (v.val : ℝ) = b)
    (a0 : 0.1 ≤ a) (a1 : a ≤ 0.49) (b0 : 0.205 ≤ b) (b1 : b ≤ 0.402) (w0 : 1.3 ≤ 2 * a - 8 * b + 4) (w1 : 2 * a - 8 * b + 4 ≤ 2.46)
    (hx : 3 * a ≤ 0.98 * (2 * a - 8 * b + 4)) (hy : 2 * b ≤ 0.63 * (2 * a - 8 * b + 4))
    (hL : L.isFinite = true) (L0 : 1 / 2 ^ 80 ≤ L.val) (L1 : L.val ≤ 2 ^ 50) :
    (fromYxy ⟨L, x_from_uv u v, y_from_uv u v⟩ : Tristimulus F32).a.isFinite = true ∧
    (fromYxy ⟨L, x_from_uv u v, y_from_uv u v⟩ : Tristimulus F32).c.isFinite = true ∧
    |(Spec.uv (fromYxy ⟨L, x_from_uv u v, y_from_uv u v⟩ : Tristimulus F32).real).1 - a| ≤ 1.5e-6 ∧
    |(Spec.uv (fromYxy ⟨L, x_from_uv u v, y_from_uv u v⟩ : Tristimulus F32).real).2 - b| ≤ 5.2e-7 := by
  obtain ⟨rx, ry⟩ := xy_round fu fv ha hb a0 a1 (by linarith) b1 w0 (by linarith) hx hy
  have wp : 0 < 2 * a - 8 * b + 4 := by linarith
  obtain ⟨A, hA⟩ : ∃ A, A = 3 * a / (2 * a - 8 * b + 4) := ⟨_, rfl⟩
  obtain ⟨B, hB⟩ : ∃ B, B = 2 * b / (2 * a - 8 * b + 4) := ⟨_, rfl⟩
  rw [← hA] at rx
  rw [← hB] at ry
  have A0 : 0.12 ≤ A := by rw [hA, le_div_iff₀ wp]; norm_num at *; linarith
  have A1 : A ≤ 0.98 := by rw [hA, div_le_iff₀ wp]; exact hx
  have B0 : 0.166 ≤ B := by rw [hB, le_div_iff₀ wp]; norm_num at *; linarith
  have B1 : B ≤ 0.63 := by rw [hB, div_le_iff₀ wp]; exact hy
  have eD : (-2 * A + 12 * B + 3) * (2 * a - 8 * b + 4) = 12 := by
    rw [hA, hB]; field_simp; ring
  have D0 : 4.87 ≤ -2 * A + 12 * B + 3 := by
    by_contra hc
    rw [not_le] at hc
    have : (-2 * A + 12 * B + 3) * (2 * a - 8 * b + 4) < 4.87 * 2.46 := by
      calc _ < 4.87 * (2 * a - 8 * b + 4) := mul_lt_mul_of_pos_right hc wp
        _ ≤ _ := by gcongr
    norm_num at this
    linarith
  have Dp : 0 < -2 * A + 12 * B + 3 := by linarith
  have ea : 4 * A / (-2 * A + 12 * B + 3) = a := by
    rw [div_eq_iff Dp.ne']
    have : A * (2 * a - 8 * b + 4) = 3 * a := by rw [hA, div_mul_cancel₀ _ wp.ne']
    have h3 : (4 * A - a * (-2 * A + 12 * B + 3)) * (2 * a - 8 * b + 4) = 0 := by linear_combination 4 * this - a * eD
    have := (mul_eq_zero.1 h3).resolve_right wp.ne'
    linarith
  have eb : 6 * B / (-2 * A + 12 * B + 3) = b := by
    rw [div_eq_iff Dp.ne']
    have : B * (2 * a - 8 * b + 4) = 2 * b := by rw [hB, div_mul_cancel₀ _ wp.ne']
    have h3 : (6 * B - b * (-2 * A + 12 * B + 3)) * (2 * a - 8 * b + 4) = 0 := by linear_combination 6 * this - b * eD
    have := (mul_eq_zero.1 h3).resolve_right wp.ne'
    linarith
  have hu4 : 4 * A = a * (-2 * A + 12 * B + 3) := (div_eq_iff Dp.ne').1 ea
  have hv6 : 6 * B = b * (-2 * A + 12 * B + 3) := (div_eq_iff Dp.ne').1 eb
  have r1 := rx.err
  have r2 := ry.err
  obtain ⟨p, hp⟩ : ∃ p, ((x_from_uv u v).val : ℝ) = p := ⟨_, rfl⟩
  obtain ⟨q, hq⟩ : ∃ q, ((y_from_uv u v).val : ℝ) = q := ⟨_, rfl⟩
  rw [hp] at r1
  rw [hq] at r2
  have r1' := _root_.abs_le.1 r1
  have r2' := _root_.abs_le.1 r2
  have d0 : 4.86 ≤ -2 * p + 12 * q + 3 := by norm_num at *; linarith
  have hD10 : -2 * A + 12 * B + 3 ≤ 11 := by norm_num at *; linarith
  have s := uv_sens (U := 0.49) (V := 0.402) r1 r2 Dp (by linarith) (by rw [ea]; linarith) (by rw [ea]; exact a1) (by rw [eb]; linarith)
    (by rw [eb]; exact b1) (by norm_num)
  rw [ea, eb] at s
  have q1 : ((4 + 2 * 0.49) * 5.7e-7 + 12 * 0.49 * 3.6e-7) / (-2 * p + 12 * q + 3) ≤ 1.03e-6 := by
    rw [div_le_iff₀ (by linarith)]; norm_num at d0 ⊢; linarith
  have q2 : (3.6 * 3.6e-7 + 2 * 0.402 * 5.7e-7) / (-2 * p + 12 * q + 3) ≤ 3.7e-7 := by
    rw [div_le_iff₀ (by linarith)]; norm_num at d0 ⊢; linarith
  have s1 := s.1.trans q1
  have s2 := s.2.trans q2
  have hu : 4 * p ≤ 0.495 * (-2 * p + 12 * q + 3) := by
    have h1 : a * (-2 * A + 12 * B + 3) ≤ 0.49 * (-2 * A + 12 * B + 3) := by gcongr
    norm_num at *; linarith
  have hv : 6 * q ≤ 0.41 * (-2 * p + 12 * q + 3) := by
    have h1 : b * (-2 * A + 12 * B + 3) ≤ 0.402 * (-2 * A + 12 * B + 3) := by gcongr
    norm_num at *; linarith
  obtain ⟨f1, f2, g1, g2⟩ := uv_of_float rx.fin ry.fin hp hq (by linarith) (by linarith) (by linarith)
    (by linarith) (by linarith) hu hv hL L0 L1
  refine ⟨f1, f2, ?_, ?_⟩
  · exact (abs_sub_le _ _ _).trans ((add_le_add g1 s1).trans (by norm_num))
  · exact (abs_sub_le _ _ _).trans ((add_le_add g2 s2).trans (by norm_num))

/-- The locus in `u, v`. -/
theorem UV_box' {T : ℝ} (h : T ∈ Set.Icc (999 : ℝ) 10000) :
    (0.15 ≤ U T ∧ U T ≤ 0.447) ∧ (0.25 ≤ V T ∧ V T ≤ 0.361) ∧ (1.709 ≤ 2 * U T - 8 * V T + 4 ∧ 2 * U T - 8 * V T + 4 ≤ 2.052) ∧
    3 * U T ≤ 0.66 * (2 * U T - 8 * V T + 4) ∧ 2 * V T ≤ 0.43 * (2 * U T - 8 * V T + 4) := by
  obtain ⟨⟨x0, x1⟩, y0, y1⟩ := box h
  have hV := (UV_box h).2.1
  have D : 5.85 ≤ -2 * X T + 12 * Y T + 3 ∧ -2 * X T + 12 * Y T + 3 ≤ 7.02 ∧ 4 * X T ≤ 0.447 * (-2 * X T + 12 * Y T + 3) ∧
      6 * Y T ≤ 0.361 * (-2 * X T + 12 * Y T + 3) := by
    rcases le_total T 4000 with h4 | h4
    · have h1 := Dlo1 T h.1 h4
      have h2 := Dlo2 T h.1 h4
      have h3 := Ulo T h.1 h4
      have h5 := Vlo T h.1 h4
      norm_num at h1 h2 h3 h5 ⊢
      refine ⟨?_, ?_, ?_, ?_⟩ <;> linarith
    · have h1 := Dhi1 T (by linarith) h.2
      have h2 := Dhi2 T (by linarith) h.2
      have h3 := Uhi T (by linarith) h.2
      have h5 := Vhi T (by linarith) h.2
      norm_num at h1 h2 h3 h5 ⊢
      refine ⟨?_, ?_, ?_, ?_⟩ <;> linarith
  obtain ⟨D0, D1, hU, hV'⟩ := D
  have e : 2 * U T - 8 * V T + 4 = 12 / (-2 * X T + 12 * Y T + 3) := by
    simp only [U, V]
    have hD : 0 < -2 * X T + 12 * Y T + 3 := by linarith
    rw [eq_div_iff hD.ne', add_mul, sub_mul, mul_assoc, mul_assoc, div_mul_cancel₀ _ hD.ne', div_mul_cancel₀ _ hD.ne']
    ring
  rw [e]
  simp only [U, V] at hV ⊢
  generalize X T = A at *
  generalize Y T = B at *
  generalize hE : -2 * A + 12 * B + 3 = D at *
  have Dp : 0 < D := by linarith
  refine ⟨⟨?_, ?_⟩, ⟨hV, ?_⟩, ⟨?_, ?_⟩, ?_, ?_⟩
  · rw [le_div_iff₀ Dp]; norm_num at *; linarith
  · rw [div_le_iff₀ Dp]; exact hU
  · rw [div_le_iff₀ Dp]; exact hV'
  · rw [le_div_iff₀ Dp]; norm_num at *; linarith
  · rw [div_le_iff₀ Dp]; norm_num at *; linarith
  · rw [← mul_div_assoc, ← mul_div_assoc, div_le_div_iff_of_pos_right Dp]; norm_num at *; linarith
  · rw [← mul_div_assoc, ← mul_div_assoc, div_le_div_iff_of_pos_right Dp]; norm_num at *; linarith

/-- The length the code computes for the chord. -/
theorem length_ok {p q : F32} (fp : p.isFinite = true) (fq : q.isFinite = true) {z : ℂ} (hz : z = ⟨p.val, q.val⟩)
    (z0 : 3e-6 ≤ ‖z‖) (z1 : ‖z‖ ≤ 2) :
    ∃ l, usqrtF (p * p + q * q) = some l ∧ l.isFinite = true ∧ |(l.val : ℝ) - ‖z‖| ≤ 8e-7 * ‖z‖ := by
  have zr : ‖z‖ ^ 2 = (p.val : ℝ) ^ 2 + (q.val : ℝ) ^ 2 := by
    rw [← Complex.normSq_eq_norm_sq, Complex.normSq_apply, hz]; ring
  have zn := norm_nonneg z
  generalize ‖z‖ = Z at *
  have Z2 : 9e-12 ≤ Z ^ 2 := by nlinarith
  have Z3 : Z ^ 2 ≤ 4 := by nlinarith
  have ap := Ap.exact fp
  have aq := Ap.exact fq
  have P0 := sq_nonneg (p.val : ℝ)
  have Q0 := sq_nonneg (q.val : ℝ)
  have m1 := ap.mul ap (R := |(p.val : ℝ)|) (S := |(p.val : ℝ)|) (E := (p.val : ℝ) ^ 2 * 6e-8 + 1 / 2 ^ 150) le_rfl le_rfl
    (by rw [abs_mul_abs_self, ← pow_two]; norm_num; linarith) (by rw [abs_mul_abs_self, ← pow_two]; norm_num; linarith)
  have m2 := aq.mul aq (R := |(q.val : ℝ)|) (S := |(q.val : ℝ)|) (E := (q.val : ℝ) ^ 2 * 6e-8 + 1 / 2 ^ 150) le_rfl le_rfl
    (by rw [abs_mul_abs_self, ← pow_two]; norm_num; linarith) (by rw [abs_mul_abs_self, ← pow_two]; norm_num; linarith)
  have n := m1.add m2 (B := Z ^ 2) (E := 1.3e-7 * Z ^ 2)
    (by rw [abs_of_nonneg (by nlinarith), zr]; exact le_of_eq (by ring))
    (by
      have t : (1 : ℝ) / 2 ^ 150 ≤ 1e-9 := by norm_num
      norm_num at t Z3 ⊢
      linarith)
    (by
      have t : (1 : ℝ) / 2 ^ 150 ≤ 1e-22 := by norm_num
      generalize (1 : ℝ) / 2 ^ 150 = tiny at *
      norm_num at t Z2 ⊢
      linarith)
  have e : (p.val : ℝ) * p.val + q.val * q.val = Z ^ 2 := by rw [zr]; ring
  rw [e] at n
  have n1 := _root_.abs_le.1 n.err
  have npos : (0 : ℝ) < (p * p + q * q : F32).val := by norm_num at n1; linarith
  obtain ⟨l, h1, h2, h3, h4⟩ := usqrt_rel _ n.fin (by exact_mod_cast npos)
  refine ⟨l, h1, h2, ?_⟩
  have h4' : |(l.val : ℝ) * l.val - (p * p + q * q : F32).val| ≤ (p * p + q * q : F32).val / 2 ^ 21 := by exact_mod_cast h4
  have h3' : (0 : ℝ) < l.val := by exact_mod_cast h3
  generalize ((p * p + q * q : F32).val : ℝ) = N at *
  generalize (l.val : ℝ) = r at *
  have h5 := _root_.abs_le.1 h4'
  have h6 : |r * r - Z ^ 2| ≤ 8e-7 * Z ^ 2 := by
    rw [_root_.abs_le]
    norm_num at n1 h5 ⊢
    constructor <;> linarith
  have hZ : 0 < Z := by linarith
  have h7 : r * r - Z ^ 2 = (r - Z) * (r + Z) := by ring
  rw [h7, abs_mul, abs_of_pos (by linarith : 0 < r + Z)] at h6
  have h8 : |r - Z| * Z ≤ 8e-7 * Z * Z := by
    refine le_trans ?_ (h6.trans (le_of_eq (by ring)))
    exact mul_le_mul_of_nonneg_left (by linarith) (abs_nonneg _)
  exact le_of_mul_le_mul_right h8 hZ

/-- A computed offset. -/
theorem offset_ok {d p l : F32} (fd : d.isFinite = true) (fp : p.isFinite = true) (fl : l.isFinite = true) (hd : |(d.val : ℝ)| ≤ 0.04)
    (l0 : 2e-6 ≤ (l.val : ℝ)) (hp : |(p.val : ℝ)| ≤ 1.000001 * l.val) (l1 : (l.val : ℝ) ≤ 3) :
    F32.Ap (d * p / l) (d.val * p.val / l.val) 6e-9 ∧ |(d.val : ℝ) * p.val / l.val| ≤ 0.0401 := by
  have lp : (0 : ℝ) < l.val := by linarith
  have hq : |(d.val : ℝ) * p.val / l.val| ≤ 0.0401 := by
    rw [abs_div, abs_mul, abs_of_pos lp, div_le_iff₀ lp]
    calc _ ≤ 0.04 * (1.000001 * (l.val : ℝ)) := by gcongr
      _ ≤ _ := by norm_num; linarith
  refine ⟨?_, hq⟩
  have m := (Ap.exact fd).mul (Ap.exact fp) (R := 0.04) (S := 1.000001 * l.val) (E := 3e-9 * l.val) hd hp
    (by norm_num; linarith)
    (by
      have t : (1 : ℝ) / 2 ^ 150 ≤ 1e-30 := by norm_num
      generalize (1 : ℝ) / 2 ^ 150 = tiny at *
      norm_num at t l0 ⊢
      linarith)
  exact m.div (Ap.exact fl) (Q := 0.0401) (S := l.val) (d := 3e-9) hq (by simp) lp
    (by rw [mul_zero, add_zero, mul_div_assoc, div_self lp.ne', mul_one]) (by norm_num) (by norm_num)

end Locus

open Locus Tristimulus

/-- The arguments of C103. -/
structure CCTOK (T d L : F32) : Prop where
  fT : T.isFinite = true
  T0 : 1000 ≤ T.val
  T1 : T.val ≤ 10000
  fd : d.isFinite = true
  d1 : |d.val| ≤ 0.04
  fL : L.isFinite = true
  L0 : 1 / 2 ^ 80 ≤ L.val
  L1 : L.val ≤ 2 ^ 50

/-- C103 with the fraction as a parameter. -/
theorem cct_near {T d L : F32} {k κ : ℝ} (h : CCTOK T d L) (fr : FrameOK T k) (k0 : 0 ≤ k) (k1 : k ≤ 0.1) (κ0 : 0 ≤ κ)
    (hκ : k ^ 2 ≤ κ ^ 2 * (1 - k)) :
    ∃ t, Mixed.fromCCT usqrtF T d L = some t ∧ t.a.isFinite = true ∧ t.b = L ∧ t.c.isFinite = true ∧
      ∃ t' : Tristimulus ℝ, fromCCT (fun x => some (Real.sqrt x)) (T.val : ℝ) d.val L.val = some t' ∧
        Real.sqrt (((Spec.uv t.real).1 - (Spec.uv t').1) ^ 2 + ((Spec.uv t.real).2 - (Spec.uv t').2) ^ 2) ≤
          (κ + 1e-6) * |(d.val : ℝ)| + 2.5e-6 := by
  have r0 : (1000 : ℝ) ≤ T.val := by exact_mod_cast h.T0
  have r1 : (T.val : ℝ) ≤ 10000 := by exact_mod_cast h.T1
  have mem : (T.val : ℝ) ∈ Set.Icc (1000 : ℝ) 10000 := ⟨r0, r1⟩
  have mem' : (T.val : ℝ) ∈ Set.Icc (999 : ℝ) 10000 := ⟨by linarith, r1⟩
  have hd : |(d.val : ℝ)| ≤ 0.04 := by
    have := (Rat.cast_le (K := ℝ)).2 h.d1
    push_cast at this; exact this
  have L0 : (L.val : ℝ) ≠ 0 := by
    have h1 : 0 < L.val := lt_of_lt_of_le (by norm_num) h.L0
    exact_mod_cast h1.ne'
  -- the exact point
  have nc : Real.sqrt (cctNormSq (T.val : ℝ)) = ‖chordC T.val‖ := by
    rw [cctNormSq_eq, Complex.norm_def, Complex.normSq_apply]; rfl
  have C0 : 0 < ‖chordC T.val‖ := lt_of_lt_of_le (by norm_num) fr.big
  have sqC : cctNormSq (T.val : ℝ) = ‖chordC T.val‖ ^ 2 := by
    rw [cctNormSq_eq, ← Complex.normSq_eq_norm_sq, Complex.normSq_apply]; rfl
  obtain ⟨t', ht', hu'⟩ := uv_fromCCT (usqrt := fun x => some (Real.sqrt x)) (d := d.val) L0 mem (by linarith) rfl
    (by rw [nc]; exact C0) (by rw [nc, sqC]; nlinarith)
  rw [nc] at hu'
  -- the computed one
  have ef : Mixed.cctFrame T = ((Mixed.cctFrame T).1, (Mixed.cctFrame T).2.1, (Mixed.cctFrame T).2.2.1, (Mixed.cctFrame T).2.2.2) := rfl
  obtain ⟨fu, fv, fdu, fdv, near, big⟩ := fr
  have key : ∀ l, usqrtF ((Mixed.cctFrame T).2.2.1 * (Mixed.cctFrame T).2.2.1 + (Mixed.cctFrame T).2.2.2 * (Mixed.cctFrame T).2.2.2) = some l →
      Mixed.fromCCT usqrtF T d L = some (fromYxy ⟨L,
        x_from_uv ((Mixed.cctFrame T).1 - d * (Mixed.cctFrame T).2.2.2 / l) ((Mixed.cctFrame T).2.1 + d * (Mixed.cctFrame T).2.2.1 / l),
        y_from_uv ((Mixed.cctFrame T).1 - d * (Mixed.cctFrame T).2.2.2 / l) ((Mixed.cctFrame T).2.1 + d * (Mixed.cctFrame T).2.2.1 / l)⟩) := by
    intro l hl
    simp only [Mixed.fromCCT, Mixed.cctNormSq, hl, Option.map_some]
    rfl
  generalize (Mixed.cctFrame T).1 = u1 at *
  generalize (Mixed.cctFrame T).2.1 = v1 at *
  generalize (Mixed.cctFrame T).2.2.1 = du at *
  generalize (Mixed.cctFrame T).2.2.2 = dv at *
  obtain ⟨z, hz⟩ : ∃ z : ℂ, z = ⟨du.val, dv.val⟩ := ⟨_, rfl⟩
  rw [← hz] at near
  obtain ⟨⟨U0, U1⟩, ⟨V0, V1⟩, ⟨W0, W1⟩, hX, hY⟩ := UV_box' mem'
  obtain ⟨⟨U0', U1'⟩, ⟨V0', V1'⟩, -⟩ := UV_box' (T := (T.val : ℝ) - 1) ⟨by linarith, by linarith⟩
  have wle : ‖chordC T.val‖ ≤ 1 := by
    refine (Complex.norm_le_abs_re_add_abs_im _).trans ?_
    have h1 : |U ((T.val : ℝ) - 1) - U T.val| ≤ 0.3 := by rw [_root_.abs_le]; constructor <;> linarith
    have h2 : |V ((T.val : ℝ) - 1) - V T.val| ≤ 0.3 := by rw [_root_.abs_le]; constructor <;> linarith
    show |U ((T.val : ℝ) - 1) - U T.val| + |V ((T.val : ℝ) - 1) - V T.val| ≤ 1
    linarith
  have tri1 := norm_sub_norm_le z (chordC T.val)
  have tri2 := norm_sub_norm_le (chordC T.val) z
  rw [norm_sub_rev] at tri2
  have kC : k * ‖chordC T.val‖ ≤ 0.1 * ‖chordC T.val‖ := by gcongr
  have dir := unit_near (κ := κ) C0 near k0 (by linarith) κ0 hκ
  obtain ⟨l, hl, fl, el⟩ := length_ok fdu fdv hz (by linarith) (by linarith)
  have z0 : 3e-6 ≤ ‖z‖ := by linarith
  have zu : |(du.val : ℝ)| ≤ ‖z‖ := by rw [hz]; exact Complex.abs_re_le_norm ⟨(du.val : ℝ), dv.val⟩
  have zv : |(dv.val : ℝ)| ≤ ‖z‖ := by rw [hz]; exact Complex.abs_im_le_norm ⟨(du.val : ℝ), dv.val⟩
  have z2 : ‖z‖ ≤ 2 := by linarith
  have el' := _root_.abs_le.1 el
  have l0 : 2e-6 ≤ (l.val : ℝ) := by norm_num at el' z0 ⊢; linarith
  have l1 : (l.val : ℝ) ≤ 3 := by norm_num at el' ⊢; linarith
  have zl : ‖z‖ ≤ 1.000001 * l.val := by norm_num at el' ⊢; linarith
  obtain ⟨ou, bu⟩ := offset_ok h.fd fdv fl hd l0 (zv.trans zl) l1
  obtain ⟨ov, bv⟩ := offset_ok h.fd fdu fl hd l0 (zu.trans zl) l1
  have bu' := _root_.abs_le.1 bu
  have bv' := _root_.abs_le.1 bv
  have au := fu.sub ou (B := 0.5) (E := 2.4e-7) (by rw [_root_.abs_le]; constructor <;> linarith) (by norm_num) (by norm_num)
  have av := fv.add ov (B := 0.5) (E := 1.8e-7) (by rw [_root_.abs_le]; constructor <;> linarith) (by norm_num) (by norm_num)
  have au' := _root_.abs_le.1 au.err
  have av' := _root_.abs_le.1 av.err
  have lp : (0 : ℝ) < l.val := by linarith
  -- the direction
  have dirl : ‖z / (l.val : ℝ) - chordC T.val / ‖chordC T.val‖‖ ≤ κ + 1e-6 := by
    have zp : 0 < ‖z‖ := by linarith
    have e : z / (l.val : ℝ) - chordC T.val / ‖chordC T.val‖ =
        (z / ‖z‖ - chordC T.val / ‖chordC T.val‖) + z / ‖z‖ * (((‖z‖ - l.val) / l.val : ℝ) : ℂ) := by
      have h1 : ((‖z‖ : ℝ) : ℂ) ≠ 0 := by exact_mod_cast zp.ne'
      have h2 : ((l.val : ℝ) : ℂ) ≠ 0 := by exact_mod_cast lp.ne'
      rw [Complex.ofReal_div, Complex.ofReal_sub, sub_div _ _ ((l.val : ℝ) : ℂ), div_self h2, mul_sub, mul_one,
        div_mul_div_cancel₀ h1]
      ring
    rw [e]
    refine (norm_add_le _ _).trans (add_le_add dir ?_)
    rw [norm_mul, norm_div, Complex.norm_real, Complex.norm_real, norm_norm, div_self zp.ne', one_mul, Real.norm_eq_abs, abs_div, abs_of_pos lp,
      div_le_iff₀ lp, abs_sub_comm]
    refine el.trans ?_
    norm_num at zl ⊢
    linarith
  refine ⟨_, key l hl, ?_⟩
  obtain ⟨a, ha⟩ : ∃ a, ((u1 - d * dv / l : F32).val : ℝ) = a := ⟨_, rfl⟩
  obtain ⟨b, hb⟩ : ∃ b, ((v1 + d * du / l : F32).val : ℝ) = b := ⟨_, rfl⟩
  rw [ha] at au'
  rw [hb] at av'
  have finu := au.fin
  have finv := av.fin
  have ae := au.err
  have be := av.err
  rw [ha] at ae
  rw [hb] at be
  have back := uv_back (L := L) finu finv ha hb (by linarith) (by linarith) (by linarith)
    (by linarith) (by linarith) (by linarith) (by linarith) (by linarith) h.fL h.L0 h.L1
  obtain ⟨f1, f2, g1, g2⟩ := back
  refine ⟨f1, rfl, f2, t', ht', ?_⟩
  rw [hu']
  generalize (fromYxy ⟨L, x_from_uv (u1 - d * dv / l) (v1 + d * du / l), y_from_uv (u1 - d * dv / l) (v1 + d * du / l)⟩ : Tristimulus F32).real = R at *
  have e : (⟨(Spec.uv R).1 - (U T.val - d.val * (V (T.val - 1) - V T.val) / ‖chordC T.val‖),
      (Spec.uv R).2 - (V T.val + d.val * (U (T.val - 1) - U T.val) / ‖chordC T.val‖)⟩ : ℂ) =
      (⟨((Spec.uv R).1 - a) + (a - (U T.val - d.val * dv.val / l.val)),
        ((Spec.uv R).2 - b) + (b - (V T.val + d.val * du.val / l.val))⟩ : ℂ) +
      (d.val : ℝ) * Complex.I * (z / (l.val : ℝ) - chordC T.val / ‖chordC T.val‖) := by
    have c1 : (chordC T.val).re = U (T.val - 1) - U T.val := rfl
    have c2 : (chordC T.val).im = V (T.val - 1) - V T.val := rfl
    have c3 : z.re = du.val := by rw [hz]
    have c4 : z.im = dv.val := by rw [hz]
    apply Complex.ext
    · simp only [Complex.add_re, Complex.mul_re, Complex.sub_re, Complex.sub_im, Complex.div_ofReal_re, Complex.div_ofReal_im,
        Complex.ofReal_re, Complex.ofReal_im, Complex.I_re, Complex.I_im, Complex.mul_im, c1, c2, c3, c4]
      ring
    · simp only [Complex.add_im, Complex.mul_re, Complex.sub_re, Complex.sub_im, Complex.div_ofReal_re, Complex.div_ofReal_im,
        Complex.ofReal_re, Complex.ofReal_im, Complex.I_re, Complex.I_im, Complex.mul_im, c1, c2, c3, c4]
      ring
  have nrm : ∀ p q : ℝ, Real.sqrt (p ^ 2 + q ^ 2) = ‖(⟨p, q⟩ : ℂ)‖ := by
    intro p q
    rw [Complex.norm_def, Complex.normSq_apply, pow_two, pow_two]
  rw [nrm, e]
  refine (norm_add_le _ _).trans ?_
  rw [norm_mul, norm_mul, Complex.norm_I, mul_one, Complex.norm_real, Real.norm_eq_abs, add_comm]
  refine add_le_add ?_ ?_
  · rw [mul_comm]
    exact mul_le_mul_of_nonneg_right dirl (abs_nonneg _)
  · refine (Complex.norm_le_abs_re_add_abs_im _).trans ?_
    simp only
    have h1 := (abs_add_le ((Spec.uv R).1 - a) (a - (U T.val - d.val * dv.val / l.val))).trans (add_le_add g1 ae)
    have h2 := (abs_add_le ((Spec.uv R).2 - b) (b - (V T.val + d.val * du.val / l.val))).trans (add_le_add g2 be)
    refine (add_le_add h1 h2).trans (by norm_num)

/-- C103: for every `float` temperature between 1000 K and 10000 K and every offset up to 0.04, `fromCCT` returns (the root
always terminates); the luminance is exact and the chromaticity returned is within `8%` of the offset (plus `2.5e-6`) of
the point the exact construction gives; up to 6600 K within `3.7%`. -/
theorem C103_position (T d L : F32) (h : CCTOK T d L) :
    ∃ t, Mixed.fromCCT usqrtF T d L = some t ∧ t.a.isFinite = true ∧ t.b = L ∧ t.c.isFinite = true ∧
      ∃ t' : Tristimulus ℝ, fromCCT (fun x => some (Real.sqrt x)) (T.val : ℝ) d.val L.val = some t' ∧
        Real.sqrt (((Spec.uv t.real).1 - (Spec.uv t').1) ^ 2 + ((Spec.uv t.real).2 - (Spec.uv t').2) ^ 2) ≤
          0.08 * |(d.val : ℝ)| + 2.5e-6 ∧
        (T.val ≤ 6600 →
          Real.sqrt (((Spec.uv t.real).1 - (Spec.uv t').1) ^ 2 + ((Spec.uv t.real).2 - (Spec.uv t').2) ^ 2) ≤
            0.037 * |(d.val : ℝ)| + 2.5e-6) := by
  obtain ⟨f1, f2⟩ := frame_ok h.fT h.T0 h.T1
  obtain ⟨t, ht, fa, hb, fc, t', ht', e⟩ := cct_near (κ := 0.0799) h f1 (by norm_num) (by norm_num) (by norm_num) (by norm_num)
  refine ⟨t, ht, fa, hb, fc, t', ht', ?_, fun h6 => ?_⟩
  · refine e.trans ?_
    have := abs_nonneg (d.val : ℝ)
    linarith
  · obtain ⟨s, hs, -, -, -, s', hs', e'⟩ := cct_near (κ := 0.0366) h (f2 h6) (by norm_num) (by norm_num) (by norm_num) (by norm_num)
    rw [ht] at hs
    rw [ht'] at hs'
    cases hs
    cases hs'
    refine e'.trans ?_
    have := abs_nonneg (d.val : ℝ)
    linarith

/-- C103: the offset is not lost: the returned point is between `0.9` and `1.1` offsets from the point of the locus, plus or minus `2.5e-6`. -/
theorem C103_distance (T d L : F32) (h : CCTOK T d L) (t : Tristimulus F32) (ht : Mixed.fromCCT usqrtF T d L = some t) :
    |Real.sqrt (((Spec.uv t.real).1 - (Spec.uv (fromCT (T.val : ℝ) L.val)).1) ^ 2 +
        ((Spec.uv t.real).2 - (Spec.uv (fromCT (T.val : ℝ) L.val)).2) ^ 2) - abs (d.val : ℝ)| ≤ 0.08 * |(d.val : ℝ)| + 2.5e-6 := by
  obtain ⟨s, hs, -, -, -, t', ht', e, -⟩ := C103_position T d L h
  rw [ht] at hs
  cases hs
  have L0 : (L.val : ℝ) ≠ 0 := by
    have h1 : 0 < L.val := lt_of_lt_of_le (by norm_num) h.L0
    exact_mod_cast h1.ne'
  have hd : |(d.val : ℝ)| ≤ 0.05 := by
    have := (Rat.cast_le (K := ℝ)).2 h.d1
    push_cast at this
    exact this.trans (by norm_num)
  obtain ⟨s', hs', h1, -⟩ := C71_distance (T := T.val) (d := d.val) L0 ⟨by exact_mod_cast h.T0, by exact_mod_cast h.T1⟩ hd
  rw [ht'] at hs'
  cases hs'
  have nrm : ∀ p q : ℝ, Real.sqrt (p ^ 2 + q ^ 2) = ‖(⟨p, q⟩ : ℂ)‖ := by
    intro p q
    rw [Complex.norm_def, Complex.normSq_apply, pow_two, pow_two]
  rw [nrm] at e h1 ⊢
  have q := abs_norm_sub_norm_le
    (⟨(Spec.uv t.real).1 - (Spec.uv (fromCT (T.val : ℝ) L.val)).1, (Spec.uv t.real).2 - (Spec.uv (fromCT (T.val : ℝ) L.val)).2⟩ : ℂ)
    ⟨(Spec.uv t').1 - (Spec.uv (fromCT (T.val : ℝ) L.val)).1, (Spec.uv t').2 - (Spec.uv (fromCT (T.val : ℝ) L.val)).2⟩
  rw [h1] at q
  refine q.trans (le_trans (le_of_eq ?_) e)
  congr 1
  apply Complex.ext <;> simp

/-- The hypotheses can be met: 6504 K, offset 0.0032, unit luminance. -/
example : CCTOK (Arith.lit 6504) (Arith.lit 0.0032) (Arith.lit 1) := by
  refine ⟨?_, ?_, ?_, ?_, ?_, ?_, ?_, ?_⟩ <;> decide +kernel

end CS
