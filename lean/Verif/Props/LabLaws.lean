import Verif.Props.Lab
import Verif.Model.Gamut

/-!
# C105: how CIELAB responds to its arguments  (exact arithmetic)
-/

namespace CS
open Tristimulus

theorem labF_lt {x y : ℝ} (hst : x < y) : Spec.labF x < Spec.labF y := by
  unfold Spec.labF
  have hroot : ∀ z : ℝ, (6 / 29) ^ 3 < z → 6 / 29 < z ^ ((1 : ℝ) / 3) := by
    intro z hz
    rw [← knee_cube] at hz
    have := Real.rpow_lt_rpow (by positivity) hz (show (0 : ℝ) < 1 / 3 by norm_num)
    rwa [third_cube (by norm_num)] at this
  split_ifs with h1 h2 h2
  · exact Real.rpow_lt_rpow (le_trans (by norm_num) h1.le) hst (by norm_num)
  · exact absurd (h1.trans hst) h2
  · have := hroot y h2
    have h1' := not_lt.mp h1
    norm_num at h1' ⊢
    norm_num at this
    linarith
  · norm_num
    linarith

theorem labF_mono : StrictMono Spec.labF := fun _ _ h => labF_lt h

theorem labF_one : Spec.labF 1 = 1 := by rw [Spec.labF, if_pos (by norm_num), Real.one_rpow]
theorem labF_zero : Spec.labF 0 = 4 / 29 := by rw [Spec.labF, if_neg (by norm_num)]; norm_num

/-- The curve of the code: the CIE function of the argument clamped at one. -/
theorem curve_min (f : ℝ) : CIELAB_curve f = Spec.labF (min f 1) := by
  rw [curve_real]
  split_ifs with h
  · rw [min_eq_right h.le, labF_one]
  · rw [min_eq_left (not_lt.1 h)]

theorem toCIELAB_real (t w : Tristimulus ℝ) : toCIELAB t w =
    ⟨116 * Spec.labF (min (t.b / w.b) 1) - 16, 500 * (Spec.labF (min (t.a / w.a) 1) - Spec.labF (min (t.b / w.b) 1)),
      200 * (Spec.labF (min (t.b / w.b) 1) - Spec.labF (min (t.c / w.c) 1))⟩ := by
  simp only [toCIELAB, curve_min, lit_real]
  norm_num

/-- C105: only the ratio of the colour to the white matters. -/
theorem C105_adapts (t w : Tristimulus ℝ) (k : ℝ) (hk : k ≠ 0) : toCIELAB (t.scale k) (w.scale k) = toCIELAB t w := by
  simp only [toCIELAB_real, Tristimulus.scale, mul_div_mul_right _ _ hk]

/-- C105: every multiple of the white is neutral; its lightness is that of the clamped factor. -/
theorem C105_neutral (w : Tristimulus ℝ) (hw : w.a ≠ 0 ∧ w.b ≠ 0 ∧ w.c ≠ 0) (k : ℝ) :
    toCIELAB (w.scale k) w = ⟨116 * Spec.labF (min k 1) - 16, 0, 0⟩ := by
  simp only [toCIELAB_real, Tristimulus.scale, mul_div_cancel_left₀ _ hw.1, mul_div_cancel_left₀ _ hw.2.1, mul_div_cancel_left₀ _ hw.2.2, sub_self,
    mul_zero]

/-- C105: for colours not exceeding the white, the neutral colours are exactly the multiples of the white. -/
theorem C105_neutral_iff (t w : Tristimulus ℝ) (hw : 0 < w.a ∧ 0 < w.b ∧ 0 < w.c) (h : t.a ≤ w.a ∧ t.b ≤ w.b ∧ t.c ≤ w.c) :
    ((toCIELAB t w).b = 0 ∧ (toCIELAB t w).c = 0) ↔ ∃ k, t = w.scale k := by
  constructor
  · rintro ⟨h1, h2⟩
    rw [C11_cie t w hw h] at h1 h2
    simp only at h1 h2
    have e1 := labF_mono.injective (show Spec.labF (t.a / w.a) = Spec.labF (t.b / w.b) by linarith)
    have e2 := labF_mono.injective (show Spec.labF (t.c / w.c) = Spec.labF (t.b / w.b) by linarith)
    refine ⟨t.b / w.b, ?_⟩
    rw [div_eq_iff hw.1.ne'] at e1
    rw [div_eq_iff hw.2.2.ne'] at e2
    ext
    · simp only [Tristimulus.scale]; linarith
    · simp only [Tristimulus.scale]; rw [mul_div_cancel₀ _ hw.2.1.ne']
    · simp only [Tristimulus.scale]; linarith
  · rintro ⟨k, rfl⟩
    rw [C105_neutral w ⟨hw.1.ne', hw.2.1.ne', hw.2.2.ne'⟩]
    exact ⟨rfl, rfl⟩

/-- C105: the signs of the opponent coordinates (for colours not exceeding the white): `a* > 0` exactly when `X` is larger
relative to the white than `Y`, `b* > 0` exactly when `Z` is smaller. -/
theorem C105_signs (t w : Tristimulus ℝ) (hw : 0 < w.a ∧ 0 < w.b ∧ 0 < w.c) (h : t.a ≤ w.a ∧ t.b ≤ w.b ∧ t.c ≤ w.c) :
    (0 < (toCIELAB t w).b ↔ t.b * w.a < t.a * w.b) ∧ (0 < (toCIELAB t w).c ↔ t.c * w.b < t.b * w.c) := by
  rw [C11_cie t w hw h]
  simp only
  constructor
  · rw [← div_lt_div_iff₀ hw.2.1 hw.1, ← labF_mono.lt_iff_lt (a := t.b / w.b)]
    constructor <;> intro h <;> linarith
  · rw [← div_lt_div_iff₀ hw.2.2 hw.2.1, ← labF_mono.lt_iff_lt (a := t.c / w.c)]
    constructor <;> intro h <;> linarith

/-- C105: the range for non-negative colours, however bright: `0 ≤ L* ≤ 100`, `|a*| ≤ 12500/29`, `|b*| ≤ 5000/29`; both bounds
of each are attained. -/
theorem C105_range (t w : Tristimulus ℝ) (hw : 0 < w.a ∧ 0 < w.b ∧ 0 < w.c) (h : 0 ≤ t.a ∧ 0 ≤ t.b ∧ 0 ≤ t.c) :
    (0 ≤ (toCIELAB t w).a ∧ (toCIELAB t w).a ≤ 100) ∧ |(toCIELAB t w).b| ≤ 12500 / 29 ∧ |(toCIELAB t w).c| ≤ 5000 / 29 := by
  have key : ∀ x : ℝ, 0 ≤ x → 4 / 29 ≤ Spec.labF (min x 1) ∧ Spec.labF (min x 1) ≤ 1 := by
    intro x hx
    rw [← labF_zero, ← labF_one, labF_one]
    refine ⟨labF_mono.monotone (le_min hx zero_le_one), ?_⟩
    rw [← labF_one]
    exact labF_mono.monotone (by rw [labF_one]; exact min_le_right _ _)
  have h1 := key (t.a / w.a) (div_nonneg h.1 hw.1.le)
  have h2 := key (t.b / w.b) (div_nonneg h.2.1 hw.2.1.le)
  have h3 := key (t.c / w.c) (div_nonneg h.2.2 hw.2.2.le)
  rw [toCIELAB_real]
  simp only
  refine ⟨⟨by linarith, by linarith⟩, ?_, ?_⟩ <;> rw [abs_le] <;> constructor <;> linarith

/-- C105: the bounds of the range are attained. -/
theorem C105_range_sharp (w : Tristimulus ℝ) (hw : 0 < w.a ∧ 0 < w.b ∧ 0 < w.c) :
    (toCIELAB ⟨w.a, 0, 0⟩ w).b = 12500 / 29 ∧ (toCIELAB ⟨0, w.b, 0⟩ w).b = -(12500 / 29) ∧
    (toCIELAB ⟨0, w.b, 0⟩ w).c = 5000 / 29 ∧ (toCIELAB ⟨0, 0, w.c⟩ w).c = -(5000 / 29) := by
  simp only [toCIELAB_real, zero_div, div_self hw.1.ne', div_self hw.2.1.ne', div_self hw.2.2.ne', min_self, labF_one,
    min_eq_left (zero_le_one (α := ℝ)), labF_zero]
  norm_num

/-- C105: every colour at least as bright as the white in all three components is indistinguishable from it. -/
theorem C105_saturates (t w : Tristimulus ℝ) (hw : 0 < w.a ∧ 0 < w.b ∧ 0 < w.c) (h : w.a ≤ t.a ∧ w.b ≤ t.b ∧ w.c ≤ t.c) :
    toCIELAB t w = ⟨100, 0, 0⟩ := by
  rw [toCIELAB_real, min_eq_right ((one_le_div hw.1).2 h.1), min_eq_right ((one_le_div hw.2.1).2 h.2.1),
    min_eq_right ((one_le_div hw.2.2).2 h.2.2), labF_one]
  norm_num

/-- C105: the white used when none is given is the ICC's D50, `(0.9642, 1, 0.8249)`: it is `L* = 100`, neutral, and back.  The
library's own constant `Illuminant_D50` is slightly larger in `X` and `Z` and therefore also comes out as `(100, 0, 0)`. -/
theorem C105_default :
    toCIELAB0 (⟨0.9642, 1, 0.8249⟩ : Tristimulus ℝ) = ⟨100, 0, 0⟩ ∧
    fromCIELAB0 (⟨100, 0, 0⟩ : Tristimulus ℝ) = ⟨0.9642, 1, 0.8249⟩ ∧
    toCIELAB0 (Illuminant_D50 : Tristimulus ℝ) = ⟨100, 0, 0⟩ ∧
    fromCIELAB0 (toCIELAB0 (Illuminant_D50 : Tristimulus ℝ)) ≠ Illuminant_D50 := by
  have e : (labWhiteD50 : Tristimulus ℝ) = ⟨0.9642, 1, 0.8249⟩ := by
    simp only [labWhiteD50, lit_real]; norm_num
  have hw : 0 < (⟨0.9642, 1, 0.8249⟩ : Tristimulus ℝ).a ∧ 0 < (⟨0.9642, 1, 0.8249⟩ : Tristimulus ℝ).b ∧
      0 < (⟨0.9642, 1, 0.8249⟩ : Tristimulus ℝ).c := by norm_num
  have h1 := (C11_white _ hw).1
  have h3 : toCIELAB (Illuminant_D50 : Tristimulus ℝ) ⟨0.9642, 1, 0.8249⟩ = ⟨100, 0, 0⟩ := by
    refine C105_saturates _ _ hw ?_
    simp only [Illuminant_D50, lit_real]
    norm_num
  have h2 : fromCIELAB (⟨100, 0, 0⟩ : Tristimulus ℝ) ⟨0.9642, 1, 0.8249⟩ = ⟨0.9642, 1, 0.8249⟩ := by
    rw [← h1, C11_roundtrip _ _ hw ⟨le_rfl, le_rfl, le_rfl⟩]
  simp only [toCIELAB0, fromCIELAB0, e]
  refine ⟨h1, h2, h3, ?_⟩
  rw [h3, h2]
  intro h
  have := congrArg Tristimulus.a h
  simp only [Illuminant_D50, lit_real] at this
  norm_num at this

/-- A mid grey under the default white meets the hypotheses. -/
example : (0 < (labWhiteD50 : Tristimulus ℝ).a ∧ 0 < (labWhiteD50 : Tristimulus ℝ).b ∧ 0 < (labWhiteD50 : Tristimulus ℝ).c) ∧
    ((0.2 : ℝ) ≤ (labWhiteD50 : Tristimulus ℝ).a ∧ (0.2 : ℝ) ≤ (labWhiteD50 : Tristimulus ℝ).b ∧ (0.2 : ℝ) ≤ (labWhiteD50 : Tristimulus ℝ).c) := by
  norm_num [labWhiteD50]

end CS
