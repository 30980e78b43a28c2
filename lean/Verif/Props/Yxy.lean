import Verif.Lemmas.Gamut
import Verif.Spec.Gamut
import Mathlib.Tactic.Positivity

/-!
# C09, C10: Yxy and Yuv  (exact arithmetic)
-/

namespace CS
open Tristimulus

theorem toYxy_real (t : Tristimulus ℝ) (h : 1e-8 ≤ |t.a + t.b + t.c|) :
    toYxy t = ⟨t.b, t.a / (t.a + t.b + t.c), t.b / (t.a + t.b + t.c)⟩ := by
  simp [toYxy, toYxy3, Y_from_XYZ, x_from_XYZ, y_from_XYZ, abs_f_real, not_lt.mpr h]

theorem fromYxy_real (t : Tristimulus ℝ) (h : 1e-8 ≤ |t.c|) :
    fromYxy t = ⟨t.b * t.a / t.c, t.a, (1 - t.b - t.c) * t.a / t.c⟩ :=
  fromYxy3_real _ _ _ h

theorem ne_zero_of_abs {x : ℝ} (h : 1e-8 ≤ |x|) : x ≠ 0 := by
  rintro rfl; norm_num at h

/-! ## C09 -/

/-- C09: XYZ → Yxy → XYZ is the identity unless the colour is (nearly) black or its `y` (nearly) zero. -/
theorem C09_xyz (t : Tristimulus ℝ) (hs : 1e-8 ≤ |t.a + t.b + t.c|)
    (hy : 1e-8 ≤ |t.b / (t.a + t.b + t.c)|) : fromYxy (toYxy t) = t := by
  have h0 := ne_zero_of_abs hs
  have hb : t.b ≠ 0 := by
    rintro hb; rw [hb] at hy; norm_num at hy
  rw [toYxy_real t hs, fromYxy_real _ (by simpa using hy)]
  ext <;> simp <;> field_simp
  ring

/-- C09: Yxy → XYZ → Yxy is the identity. -/
theorem C09_yxy (t : Tristimulus ℝ) (hy : 1e-8 ≤ |t.c|) (hq : 1e-8 ≤ |t.a / t.c|) :
    toYxy (fromYxy t) = t := by
  have hc := ne_zero_of_abs hy
  have ha : t.a ≠ 0 := by rintro h; rw [h] at hq; norm_num at hq
  have hsum : t.b * t.a / t.c + t.a + (1 - t.b - t.c) * t.a / t.c = t.a / t.c := by
    field_simp; ring
  rw [fromYxy_real t hy, toYxy_real _ (by simpa [hsum] using hq)]
  ext <;> simp [hsum] <;> field_simp

/-- C09: what `toYxy` means — the chromaticity of the colour — away from black. -/
theorem C09_chroma (t : Tristimulus ℝ) (hs : 1e-8 ≤ |t.a + t.b + t.c|) :
    Spec.HasChroma t (toYxy t).b (toYxy t).c := by
  have h0 := ne_zero_of_abs hs
  rw [toYxy_real t hs]
  refine ⟨h0, ?_, ?_⟩ <;> simp <;> field_simp

/-- C09: the fallbacks: a (nearly) black colour reports the D65 chromaticity, and a chromaticity with
(nearly) zero `y` yields `X = Z = 0`. -/
theorem C09_fallback (t : Tristimulus ℝ) :
    (|t.a + t.b + t.c| < 1e-8 → toYxy t = ⟨t.b, 0.3127, 0.3290⟩) ∧
    (|t.c| < 1e-8 → fromYxy t = ⟨0, t.a, 0⟩) := by
  constructor <;> intro h
  · simp [toYxy, toYxy3, Y_from_XYZ, x_from_XYZ, y_from_XYZ, abs_f_real, h]
  · simp [fromYxy, fromYxy3, X_from_Yxy, Z_from_Yxy, Y_from_Yxy, abs_f_real, h]

/-- C09: luminance is passed through unchanged, for every colour, in any arithmetic (also on
floats, bit for bit). -/
theorem C09_luminance {α : Type} [Arith α] (t : Tristimulus α) :
    (toYxy t).a = t.b ∧ (fromYxy t).b = t.a := ⟨rfl, rfl⟩

/-- A typical colour meets the hypotheses of both round trips. -/
example : (1e-8 : ℝ) ≤ |0.4 + 0.3 + 0.2| ∧ (1e-8 : ℝ) ≤ |0.3 / (0.4 + 0.3 + 0.2)| ∧
    (1e-8 : ℝ) ≤ |0.5 / 0.3| := by
  refine ⟨?_, ?_, ?_⟩ <;> rw [abs_of_pos (by norm_num)] <;> norm_num

/-! ## C10 -/

/-- C10: Yxy → Yuv → Yxy. -/
theorem C10_yxy (t : Tristimulus ℝ) (h : -2 * t.b + 12 * t.c + 3 ≠ 0) : YuvToYxy (YxyToYuv t) = t := by
  simp only [neg_mul] at h
  ext <;> simp [YuvToYxy, YxyToYuv, u_from_xy, v_from_xy, x_from_uv, y_from_uv]
  all_goals
    generalize hD : -(2 * t.b) + 12 * t.c + 3 = D at h
    have hd : 2 * (4 * t.b / D) - 8 * (6 * t.c / D) + 4 = 12 / D := by
      field_simp; linarith
    rw [hd]
    field_simp
    ring

/-- C10: Yuv → Yxy → Yuv. -/
theorem C10_yuv (t : Tristimulus ℝ) (h : 2 * t.b - 8 * t.c + 4 ≠ 0) : YxyToYuv (YuvToYxy t) = t := by
  ext <;> simp [YuvToYxy, YxyToYuv, u_from_xy, v_from_xy, x_from_uv, y_from_uv]
  all_goals
    generalize hD : 2 * t.b - 8 * t.c + 4 = D at h
    have hd : -(2 * (3 * t.b / D)) + 12 * (2 * t.c / D) + 3 = 12 / D := by
      field_simp; linarith
    rw [hd]
    field_simp
    ring

/-- C10: XYZ → Yuv → XYZ. -/
theorem C10_xyz (t : Tristimulus ℝ) (hs : 1e-8 ≤ |t.a + t.b + t.c|)
    (hy : 1e-8 ≤ |t.b / (t.a + t.b + t.c)|) (hd : t.a + 15 * t.b + 3 * t.c ≠ 0) :
    fromYuv (toYuv t) = t := by
  have h0 := ne_zero_of_abs hs
  unfold fromYuv toYuv
  rw [C10_yxy, C09_xyz t hs hy]
  rw [toYxy_real t hs]
  have : -2 * (t.a / (t.a + t.b + t.c)) + 12 * (t.b / (t.a + t.b + t.c)) + 3
      = (t.a + 15 * t.b + 3 * t.c) / (t.a + t.b + t.c) := by field_simp; ring
  simp only [this]
  exact div_ne_zero hd h0

/-- C10: the CIE 1960 definition: `u = 4X/(X+15Y+3Z)`, `v = 6Y/(X+15Y+3Z)`. -/
theorem C10_cie (t : Tristimulus ℝ) (hs : 1e-8 ≤ |t.a + t.b + t.c|)
    (_hd : t.a + 15 * t.b + 3 * t.c ≠ 0) :
    toYuv t = ⟨t.b, 4 * t.a / (t.a + 15 * t.b + 3 * t.c), 6 * t.b / (t.a + 15 * t.b + 3 * t.c)⟩ := by
  have h0 := ne_zero_of_abs hs
  have : -(2 * (t.a / (t.a + t.b + t.c))) + 12 * (t.b / (t.a + t.b + t.c)) + 3
      = (t.a + 15 * t.b + 3 * t.c) / (t.a + t.b + t.c) := by field_simp; ring
  unfold toYuv
  rw [toYxy_real t hs]
  ext <;> simp [YxyToYuv, u_from_xy, v_from_xy]
  all_goals
    rw [this]
    field_simp

example : (0.4 : ℝ) + 15 * 0.3 + 3 * 0.2 ≠ 0 ∧ (-2 : ℝ) * 0.3127 + 12 * 0.3290 + 3 ≠ 0 ∧
    (2 : ℝ) * 0.2 - 8 * 0.3 + 4 ≠ 0 := by norm_num

end CS
