import Verif.Props.Yxy
import Mathlib.Topology.Algebra.Order.LiminfLimsup
import Mathlib.Topology.Instances.Real.Lemmas
import Mathlib.Tactic.Positivity

/-!
# C57, C58: colour temperature  (exact arithmetic unless stated otherwise)
-/

namespace CS
open Tristimulus

/-! ## C57 -/

/-- C57: the luminance is passed through, in any arithmetic. -/
theorem C57_luminance {α : Type} [Arith α] (usqrt : α → Option α) (T d Y : α) :
    (fromCT T Y).b = Y ∧ (fromPlanckianLocus T Y).b = Y ∧
      ∀ t, fromCCT usqrt T d Y = some t → t.b = Y := by
  refine ⟨rfl, rfl, ?_⟩
  intro t h
  simp only [fromCCT, Option.map_eq_some_iff] at h
  obtain ⟨l, -, rfl⟩ := h
  rfl

theorem fromYxy_scale (k Y x y : ℝ) : fromYxy ⟨k * Y, x, y⟩ = (fromYxy ⟨Y, x, y⟩).scale k := by
  simp only [fromYxy, fromYxy3, X_from_Yxy, Y_from_Yxy, Z_from_Yxy, scale]
  split <;> ext <;> simp <;> ring

/-- C57: scaling the luminance scales the colour. -/
theorem C57_linear (usqrt : ℝ → Option ℝ) (T d Y k : ℝ) :
    fromCT T (k * Y) = (fromCT T Y).scale k ∧
    fromPlanckianLocus T (k * Y) = (fromPlanckianLocus T Y).scale k ∧
    fromCCT usqrt T d (k * Y) = (fromCCT usqrt T d Y).map (·.scale k) := by
  refine ⟨fromYxy_scale _ _ _ _, fromYxy_scale _ _ _ _, ?_⟩
  simp only [fromCCT, Option.map_map, fromYxy_scale]
  rfl

/-- C57: so the chromaticity does not depend on the luminance. -/
theorem C57_chroma (T Y : ℝ) (h : 1e-8 ≤ |blackbody_y_approx T|)
    (hq : 1e-8 ≤ |Y / blackbody_y_approx T|) :
    toYxy (fromCT T Y) = ⟨Y, blackbody_x_approx T, blackbody_y_approx T⟩ :=
  C09_yxy ⟨Y, blackbody_x_approx T, blackbody_y_approx T⟩ h hq

/-- The hypotheses of `C57_chroma` hold at 5000 K. -/
example : 1e-8 ≤ |(blackbody_y_approx 5000 : ℝ)| ∧ 1e-8 ≤ |1 / (blackbody_y_approx 5000 : ℝ)| := by
  simp only [blackbody_y_approx, lit_real]
  norm_num

/-! ## C58

The claim is false of the code: at 4000 K the chromaticity jumps. -/

/-- Specification: the chromaticity `(x, y)` of the Planckian-locus colour of unit luminance. -/
noncomputable def Spec.locus (T : ℝ) : ℝ × ℝ :=
  ((fromPlanckianLocus T (1 : ℝ)).toYxy.b, (fromPlanckianLocus T (1 : ℝ)).toYxy.c)

theorem locus_eq (T : ℝ) (h : 1e-8 ≤ |planckianY T (planckianX T)|)
    (h' : 1e-8 ≤ |1 / planckianY T (planckianX T)|) :
    Spec.locus T = (planckianX T, planckianY T (planckianX T)) := by
  have := C09_yxy ⟨1, planckianX T, planckianY T (planckianX T)⟩ h h'
  unfold Spec.locus
  rw [show fromPlanckianLocus T (1 : ℝ) = fromYxy ⟨1, planckianX T, planckianY T (planckianX T)⟩ from rfl, this]

/-- The cubic below 4000 K. -/
noncomputable def xLow (T : ℝ) : ℝ :=
  -0.2661239e9 / (T * T * T) - 0.2343580e6 / (T * T) + 0.8776956e3 / T + 0.179910
/-- The cubic in `x` below 4000 K. -/
noncomputable def yLow (x : ℝ) : ℝ :=
  -1.1063814 * x * x * x - 1.34811020 * x * x + 2.18555832 * x - 0.20219683
/-- The cubic from 4000 K on. -/
noncomputable def xHigh (T : ℝ) : ℝ :=
  -3.0258469e9 / (T * T * T) + 2.1070379e6 / (T * T) + 0.2226347e3 / T + 0.240390
/-- The cubic in `x` from 4000 K on. -/
noncomputable def yHigh (x : ℝ) : ℝ :=
  3.0817580 * x * x * x - 5.87338670 * x * x + 3.75112997 * x - 0.37001483

theorem planckianX_low {T : ℝ} (h : T < 4000) : planckianX T = xLow T := by
  simp only [planckianX, lt_real, lit_real]
  rw [if_pos (by push_cast; exact h)]
  simp only [xLow]; push_cast; rfl

theorem planckianX_high {T : ℝ} (h : 4000 ≤ T) : planckianX T = xHigh T := by
  simp only [planckianX, lt_real, lit_real]
  rw [if_neg (by push_cast; exact not_lt.mpr h)]
  simp only [xHigh]; push_cast; rfl

theorem planckianY_low {T : ℝ} (h : T < 4000) (x : ℝ) : planckianY T x = yLow x := by
  simp only [planckianY, lt_real, lit_real, yLow]
  push_cast
  split_ifs <;> rfl

theorem planckianY_high {T : ℝ} (h : 4000 ≤ T) (x : ℝ) : planckianY T x = yHigh x := by
  simp only [planckianY, lt_real, lit_real, yHigh]
  push_cast
  rw [if_neg (by linarith), if_neg (by linarith)]

theorem locus_4000 : 0.3766 < (Spec.locus 4000).2 := by
  have e : planckianY 4000 (planckianX 4000) = yHigh (xHigh 4000) := by
    rw [planckianX_high le_rfl, planckianY_high le_rfl]
  have v : yHigh (xHigh 4000) ∈ Set.Ioo (0.3766 : ℝ) 0.3768 := by
    constructor <;> norm_num [xHigh, yHigh]
  rw [← e] at v
  obtain ⟨v1, v2⟩ := v
  have hp : 0 < planckianY (4000 : ℝ) (planckianX 4000) := by linarith
  rw [locus_eq]
  · exact v1
  · rw [abs_of_pos hp]; linarith
  · rw [abs_of_pos (by positivity), le_div_iff₀ hp]; linarith

theorem low_continuousAt : ContinuousAt (fun T => yLow (xLow T)) 4000 := by
  unfold yLow xLow
  fun_prop (disch := norm_num)

theorem locus_below : ∀ δ > 0, ∃ T : ℝ, 4000 - δ < T ∧ T < 4000 ∧ (Spec.locus T).2 < 0.3735 := by
  intro δ hδ
  have hv : yLow (xLow 4000) ∈ Set.Ioo (0.373 : ℝ) 0.3735 := by
    constructor <;> norm_num [xLow, yLow]
  have := low_continuousAt.eventually (IsOpen.mem_nhds isOpen_Ioo hv)
  rw [Metric.eventually_nhds_iff] at this
  obtain ⟨ε, hε, hh⟩ := this
  set m := min δ ε / 2 with hm
  have hm0 : 0 < m := by positivity
  have hm1 : m < δ := by have := min_le_left δ ε; linarith
  have hm2 : m < ε := by have := min_le_right δ ε; linarith
  refine ⟨4000 - m, by linarith, by linarith, ?_⟩
  have h4 : (4000 - m : ℝ) < 4000 := by linarith
  have := hh (y := 4000 - m) (by rw [Real.dist_eq, abs_lt]; constructor <;> linarith)
  obtain ⟨v1, v2⟩ := this
  have e : planckianY (4000 - m) (planckianX (4000 - m)) = yLow (xLow (4000 - m)) := by
    rw [planckianX_low h4, planckianY_low h4]
  rw [← e] at v1 v2
  have hp : 0 < planckianY (4000 - m) (planckianX (4000 - m)) := by linarith
  rw [locus_eq]
  · exact v2
  · rw [abs_of_pos hp]; linarith
  · rw [abs_of_pos (by positivity), le_div_iff₀ hp]; linarith

/-- C58, the negation: at 4000 K the `y` chromaticity jumps by more than 0.003, so the locus is not
continuous, nor within 0.001 across the boundary however close one gets. -/
theorem C58_false : ¬ ∃ δ > 0, ∀ T : ℝ, |T - 4000| < δ → |(Spec.locus T).2 - (Spec.locus 4000).2| ≤ 0.003 := by
  rintro ⟨δ, hδ, h⟩
  obtain ⟨T, h1, h2, h3⟩ := locus_below δ hδ
  have := h T (by rw [abs_lt]; constructor <;> linarith)
  have h4 := locus_4000
  rw [abs_le] at this
  linarith

/-- C58 (partial): below 4000 K (in particular at the 2222 K boundary) and above it the XYZ-generating
chromaticities are given by one smooth formula each, so there is no jump there. -/
theorem C58_continuous_partial (T : ℝ) (h0 : 0 < T) (h : T ≠ 4000) :
    ContinuousAt (fun T : ℝ => (planckianX T, planckianY T (planckianX T))) T := by
  have hT : T ≠ 0 := h0.ne'
  rcases lt_or_gt_of_ne h with h | h
  · have : (fun T : ℝ => (planckianX T, planckianY T (planckianX T))) =ᶠ[nhds T]
        fun T => (xLow T, yLow (xLow T)) := by
      filter_upwards [Iio_mem_nhds h] with S hS
      rw [planckianX_low hS, planckianY_low hS]
    refine ContinuousAt.congr ?_ this.symm
    unfold yLow xLow
    fun_prop (disch := simp [hT])
  · have : (fun T : ℝ => (planckianX T, planckianY T (planckianX T))) =ᶠ[nhds T]
        fun T => (xHigh T, yHigh (xHigh T)) := by
      filter_upwards [Ioi_mem_nhds h] with S hS
      rw [planckianX_high (le_of_lt hS), planckianY_high (le_of_lt hS)]
    refine ContinuousAt.congr ?_ this.symm
    unfold yHigh xHigh
    fun_prop (disch := simp [hT])

/-- 2222 K meets the hypotheses of the partial theorem. -/
example : (0 : ℝ) < 2222 ∧ (2222 : ℝ) ≠ 4000 := by norm_num

end CS
