import Verif.Model.Tristimulus
import Mathlib.Tactic.NormNum
import Mathlib.Tactic.Linarith
import Mathlib.Tactic.FieldSimp

/-!
# C11: CIELAB  (exact arithmetic)
-/

namespace CS
open Tristimulus

/-- Specification: the CIE function `f` with `δ = 6/29`. -/
noncomputable def Spec.labF (t : ℝ) : ℝ :=
  if (6 / 29 : ℝ) ^ 3 < t then t ^ ((1 : ℝ) / 3) else t / (3 * (6 / 29) ^ 2) + 4 / 29

theorem curve_real (f : ℝ) : CIELAB_curve f = if 1 < f then 1 else Spec.labF f := by
  unfold CIELAB_curve Spec.labF
  simp only [lt_real, lit_real, powf_real]
  norm_num
  split
  · rfl
  · split
    · rfl
    · ring

theorem decurve_real (f : ℝ) : CIELAB_decurve f =
    if 1 < f then 1 else if 6 / 29 < f then f ^ (3 : ℝ) else 3 * (6 / 29) ^ 2 * (f - 4 / 29) := by
  unfold CIELAB_decurve
  simp only [lt_real, lit_real, powf_real]
  norm_num
  split
  · rfl
  · split
    · rfl
    · ring

theorem cube_third {x : ℝ} (h : 0 ≤ x) : (x ^ ((1 : ℝ) / 3)) ^ (3 : ℝ) = x := by
  rw [← Real.rpow_mul h]; norm_num

theorem third_cube {x : ℝ} (h : 0 ≤ x) : (x ^ (3 : ℝ)) ^ ((1 : ℝ) / 3) = x := by
  rw [← Real.rpow_mul h]; norm_num

theorem knee_cube : ((6 : ℝ) / 29) ^ (3 : ℝ) = (6 / 29) ^ 3 := by
  rw [← Real.rpow_natCast]; norm_num

theorem decurve_curve (f : ℝ) (h : f ≤ 1) : CIELAB_decurve (CIELAB_curve f) = f := by
  rw [curve_real, if_neg (not_lt.mpr h)]
  unfold Spec.labF
  split
  · next hf =>
    have hf0 : 0 ≤ f := le_trans (by norm_num) hf.le
    have h1 : f ^ ((1 : ℝ) / 3) ≤ 1 := Real.rpow_le_one hf0 h (by norm_num)
    have h2 : 6 / 29 < f ^ ((1 : ℝ) / 3) := by
      rw [← knee_cube] at hf
      have := Real.rpow_lt_rpow (by positivity) hf (show (0 : ℝ) < 1 / 3 by norm_num)
      rwa [third_cube (by norm_num)] at this
    rw [decurve_real, if_neg (not_lt.mpr h1), if_pos h2, cube_third hf0]
  · next hf =>
    have hf' : f ≤ (6 / 29) ^ 3 := not_lt.mp hf
    norm_num at hf'
    rw [decurve_real, if_neg (by norm_num; linarith), if_neg (by norm_num; linarith)]
    ring

theorem curve_decurve (f : ℝ) (h : f ≤ 1) : CIELAB_curve (CIELAB_decurve f) = f := by
  rw [decurve_real, if_neg (not_lt.mpr h)]
  split
  · next hf =>
    have hf0 : 0 ≤ f := le_trans (by norm_num) hf.le
    have h1 : f ^ (3 : ℝ) ≤ 1 := Real.rpow_le_one hf0 h (by norm_num)
    have h2 : (6 / 29) ^ 3 < f ^ (3 : ℝ) := by
      rw [← knee_cube]
      exact Real.rpow_lt_rpow (by norm_num) hf (by norm_num)
    rw [curve_real, if_neg (not_lt.mpr h1), Spec.labF, if_pos h2, third_cube hf0]
  · next hf =>
    have hf' : f ≤ 6 / 29 := not_lt.mp hf
    rw [curve_real, if_neg (by norm_num; linarith), Spec.labF, if_neg (by norm_num; linarith)]
    ring

/-- C11: for colours not exceeding the white, `toCIELAB` is the CIE definition. -/
theorem C11_cie (t w : Tristimulus ℝ) (hw : 0 < w.a ∧ 0 < w.b ∧ 0 < w.c)
    (h : t.a ≤ w.a ∧ t.b ≤ w.b ∧ t.c ≤ w.c) :
    toCIELAB t w = ⟨116 * Spec.labF (t.b / w.b) - 16,
      500 * (Spec.labF (t.a / w.a) - Spec.labF (t.b / w.b)),
      200 * (Spec.labF (t.b / w.b) - Spec.labF (t.c / w.c))⟩ := by
  have e1 := not_lt.mpr ((div_le_one hw.1).mpr h.1)
  have e2 := not_lt.mpr ((div_le_one hw.2.1).mpr h.2.1)
  have e3 := not_lt.mpr ((div_le_one hw.2.2).mpr h.2.2)
  simp only [toCIELAB, curve_real, e1, e2, e3, if_false, lit_real]
  norm_num

theorem fromCIELAB_toCIELAB (t w : Tristimulus ℝ) :
    fromCIELAB (toCIELAB t w) w =
      ⟨CIELAB_decurve (CIELAB_curve (t.a / w.a)) * w.a,
       CIELAB_decurve (CIELAB_curve (t.b / w.b)) * w.b,
       CIELAB_decurve (CIELAB_curve (t.c / w.c)) * w.c⟩ := by
  simp only [fromCIELAB, toCIELAB, lit_real]
  norm_num

theorem decurve_curve_clamp (f : ℝ) : CIELAB_decurve (CIELAB_curve f) = min f 1 := by
  rcases le_or_gt f 1 with h | h
  · rw [decurve_curve f h, min_eq_left h]
  · rw [curve_real, if_pos h, min_eq_right h.le]
    have := decurve_curve 1 le_rfl
    rw [curve_real, if_neg (lt_irrefl _)] at this
    have h1 : Spec.labF 1 = 1 := by
      rw [Spec.labF, if_pos (by norm_num), Real.one_rpow]
    rwa [h1] at this

/-- C11: encoding then decoding with the same white clamps every component to the white (so it is
the identity on colours not exceeding the white, negative ones included). -/
theorem C11_clamp (t w : Tristimulus ℝ) (hw : 0 < w.a ∧ 0 < w.b ∧ 0 < w.c) :
    fromCIELAB (toCIELAB t w) w = ⟨min t.a w.a, min t.b w.b, min t.c w.c⟩ := by
  have key : ∀ x y : ℝ, 0 < y → min (x / y) 1 * y = min x y := by
    intro x y hy
    rw [min_mul_of_nonneg _ _ hy.le, one_mul, div_mul_cancel₀ _ hy.ne']
  rw [fromCIELAB_toCIELAB]
  simp only [decurve_curve_clamp, key _ _ hw.1, key _ _ hw.2.1, key _ _ hw.2.2]

/-- C11: the round trip. -/
theorem C11_roundtrip (t w : Tristimulus ℝ) (hw : 0 < w.a ∧ 0 < w.b ∧ 0 < w.c)
    (h : t.a ≤ w.a ∧ t.b ≤ w.b ∧ t.c ≤ w.c) : fromCIELAB (toCIELAB t w) w = t := by
  rw [C11_clamp t w hw, min_eq_left h.1, min_eq_left h.2.1, min_eq_left h.2.2]

/-- C11: LAB → XYZ → LAB, when no decoded component exceeds the white. -/
theorem C11_lab (l w : Tristimulus ℝ) (hw : 0 < w.a ∧ 0 < w.b ∧ 0 < w.c)
    (hL : l.a ≤ 100) (ha : (l.a + 16) / 116 + l.b / 500 ≤ 1) (hb : (l.a + 16) / 116 - l.c / 200 ≤ 1) :
    toCIELAB (fromCIELAB l w) w = l := by
  have hL' : (l.a + 16) / 116 ≤ 1 := by rw [div_le_one (by norm_num)]; linarith
  simp only [fromCIELAB, toCIELAB, lit_real]
  norm_num
  rw [mul_div_cancel_right₀ _ hw.1.ne', mul_div_cancel_right₀ _ hw.2.1.ne',
    mul_div_cancel_right₀ _ hw.2.2.ne', curve_decurve _ hL', curve_decurve _ ha,
    curve_decurve _ hb]
  ext <;> simp <;> ring

/-- C11: the white is `L* = 100, a* = b* = 0`; black is `0, 0, 0`. -/
theorem C11_white (w : Tristimulus ℝ) (hw : 0 < w.a ∧ 0 < w.b ∧ 0 < w.c) :
    toCIELAB w w = ⟨100, 0, 0⟩ ∧ toCIELAB ⟨0, 0, 0⟩ w = ⟨0, 0, 0⟩ := by
  have h1 : Spec.labF 1 = 1 := by
    rw [Spec.labF, if_pos (by norm_num), Real.one_rpow]
  have h0 : Spec.labF 0 = 4 / 29 := by
    rw [Spec.labF, if_neg (by norm_num)]; norm_num
  rw [C11_cie w w hw ⟨le_rfl, le_rfl, le_rfl⟩,
    C11_cie ⟨0, 0, 0⟩ w hw ⟨hw.1.le, hw.2.1.le, hw.2.2.le⟩]
  simp only [div_self hw.1.ne', div_self hw.2.1.ne', div_self hw.2.2.ne', zero_div, h0, h1]
  norm_num

/-- C11: lightness increases with luminance: a colour with larger `Y` (up to the white) has a
strictly larger `L*`. -/
theorem C11_monotone (s t w : Tristimulus ℝ) (hw : 0 < w.a ∧ 0 < w.b ∧ 0 < w.c)
    (hs : s.b < t.b) (ht : t.b ≤ w.b) : (toCIELAB s w).a < (toCIELAB t w).a := by
  have hst : s.b / w.b < t.b / w.b := div_lt_div_of_pos_right hs hw.2.1
  have ht1 : t.b / w.b ≤ 1 := (div_le_one hw.2.1).mpr ht
  have hm : Spec.labF (s.b / w.b) < Spec.labF (t.b / w.b) := by
    generalize s.b / w.b = x at *
    generalize t.b / w.b = y at *
    unfold Spec.labF
    have hroot : ∀ z : ℝ, (6 / 29) ^ 3 < z → 6 / 29 < z ^ ((1 : ℝ) / 3) := by
      intro z hz
      rw [← knee_cube] at hz
      have := Real.rpow_lt_rpow (by positivity) hz (show (0 : ℝ) < 1 / 3 by norm_num)
      rwa [third_cube (by norm_num)] at this
    split_ifs with h1 h2 h2
    · exact Real.rpow_lt_rpow (le_trans (by norm_num) h1.le) hst (by norm_num)
    · exact absurd (h1.trans hst) h2
    · have := hroot y h2
      have h1' := not_lt.mp h1
      norm_num at h1' ⊢
      norm_num at this
      linarith
    · norm_num
      linarith
  simp only [toCIELAB, curve_real, not_lt.mpr ht1, not_lt.mpr (hst.le.trans ht1), if_false, lit_real]
  norm_num
  exact hm

/-- The default D50 white and an ordinary colour meet the hypotheses. -/
example : (0 < (labWhiteD50 : Tristimulus ℝ).a ∧ 0 < (labWhiteD50 : Tristimulus ℝ).b ∧
    0 < (labWhiteD50 : Tristimulus ℝ).c) ∧
    ((0.2 : ℝ) ≤ (labWhiteD50 : Tristimulus ℝ).a ∧ (-0.1 : ℝ) ≤ (labWhiteD50 : Tristimulus ℝ).b) := by
  norm_num [labWhiteD50]

end CS
