import Verif.Props.DeltaBounds

/-!
# C128: CIEDE2000 of colours that differ in lightness only; it is not a metric
-/

namespace CS
open Spec Delta

/-- The weight of a lightness difference in CIEDE2000, from the standard. -/
noncomputable def Spec.lightnessWeight (L M : ℝ) : ℝ := 1 + 0.015 * ((L + M) / 2 - 50) ^ 2 / Real.sqrt (20 + ((L + M) / 2 - 50) ^ 2)

/-- **C128, formula.** The difference of two colours that differ in lightness only is their difference in lightness over its weight. -/
theorem C128_lightness (L M a b Kl Kc Kh : ℝ) (hK : 0 < Kl) :
    E00 ⟨L, a, b⟩ ⟨M, a, b⟩ Kl Kc Kh = |M - L| / (Kl * lightnessWeight L M) := by
  have hw : 0 < lightnessWeight L M := by
    have : 0 ≤ 0.015 * ((L + M) / 2 - 50) ^ 2 / Real.sqrt (20 + ((L + M) / 2 - 50) ^ 2) := by positivity
    unfold lightnessWeight
    linarith
  have d0 : ∀ h : ℝ, dh00 h h = 0 := by
    intro h
    rw [dh00_real]
    norm_num
  have e : radicand00 ⟨L, a, b⟩ ⟨M, a, b⟩ Kl Kc Kh = ((M - L) / (Kl * lightnessWeight L M)) * ((M - L) / (Kl * lightnessWeight L M)) := by
    simp only [radicand00, parts00, d0, lit_real, sqrtf_real, sinf_real, lightnessWeight]
    push_cast
    rw [mul_zero, zero_div, Real.sin_zero, sub_self, pow_two]
    ring
  simp only [E00, sqrtf_real, e]
  rw [Real.sqrt_mul_self_eq_abs, abs_div, abs_of_pos (mul_pos hK hw)]

/-- **C128, not a metric.** Between two colours at equal distances above and below lightness 50, of equal `a` and `b`, the way through
the middle is always shorter than the direct difference: the triangle inequality fails. -/
theorem C128_shortcut (d a b Kl Kc Kh : ℝ) (hK : 0 < Kl) (hd : 0 < d) :
    E00 ⟨50 - d, a, b⟩ ⟨50, a, b⟩ Kl Kc Kh + E00 ⟨50, a, b⟩ ⟨50 + d, a, b⟩ Kl Kc Kh < E00 ⟨50 - d, a, b⟩ ⟨50 + d, a, b⟩ Kl Kc Kh := by
  rw [C128_lightness _ _ _ _ _ _ _ hK, C128_lightness _ _ _ _ _ _ _ hK, C128_lightness _ _ _ _ _ _ _ hK]
  have w0 : lightnessWeight (50 - d) (50 + d) = 1 := by
    unfold lightnessWeight
    rw [show ((50 - d + (50 + d)) / 2 - 50 : ℝ) = 0 by ring]
    simp
  have p : 0 < 0.015 * (d / 2) ^ 2 / Real.sqrt (20 + (d / 2) ^ 2) := by positivity
  have w1 : lightnessWeight (50 - d) 50 = 1 + 0.015 * (d / 2) ^ 2 / Real.sqrt (20 + (d / 2) ^ 2) := by
    unfold lightnessWeight
    rw [show ((50 - d + 50) / 2 - 50 : ℝ) = -(d / 2) by ring, neg_sq]
  have w2 : lightnessWeight 50 (50 + d) = 1 + 0.015 * (d / 2) ^ 2 / Real.sqrt (20 + (d / 2) ^ 2) := by
    unfold lightnessWeight
    rw [show ((50 + (50 + d)) / 2 - 50 : ℝ) = d / 2 by ring]
  rw [w0, w1, w2]
  generalize 0.015 * (d / 2) ^ 2 / Real.sqrt (20 + (d / 2) ^ 2) = q at *
  rw [show (50 - (50 - d) : ℝ) = d by ring, show (50 + d - 50 : ℝ) = d by ring, show (50 + d - (50 - d) : ℝ) = d + d by ring,
    abs_of_pos hd, abs_of_pos (by linarith), mul_one, add_div]
  have : d / (Kl * (1 + q)) < d / Kl := div_lt_div_of_pos_left hd hK (by nlinarith)
  linarith

/-- **C128, how far.** From black to white directly it is 100, by way of the middle grey less than 73.1. -/
theorem C128_black_white : E00 ⟨0, 0, 0⟩ ⟨100, 0, 0⟩ 1 1 1 = (100 : ℝ) ∧
    E00 ⟨0, 0, 0⟩ ⟨50, 0, 0⟩ 1 1 1 + E00 ⟨50, 0, 0⟩ ⟨100, 0, 0⟩ 1 1 1 < (73.1 : ℝ) := by
  rw [C128_lightness _ _ _ _ _ _ _ one_pos, C128_lightness _ _ _ _ _ _ _ one_pos, C128_lightness _ _ _ _ _ _ _ one_pos]
  have s : Real.sqrt 645 < 25.4 := by rw [Real.sqrt_lt' (by norm_num)]; norm_num
  have s0 : 0 < Real.sqrt 645 := by positivity
  have r : (1.369 : ℝ) < 1 + 9.375 / Real.sqrt 645 := by
    have : (0.369 : ℝ) < 9.375 / Real.sqrt 645 := by rw [lt_div_iff₀ s0]; linarith
    linarith
  have w0 : lightnessWeight 0 100 = 1 := by unfold lightnessWeight; norm_num
  have w1 : lightnessWeight 0 50 = 1 + 9.375 / Real.sqrt 645 := by unfold lightnessWeight; norm_num
  have w2 : lightnessWeight 50 100 = 1 + 9.375 / Real.sqrt 645 := by unfold lightnessWeight; norm_num
  rw [w0, w1, w2]
  generalize 1 + 9.375 / Real.sqrt 645 = w at *
  have w0 : 0 < w := by linarith
  refine ⟨by norm_num, ?_⟩
  norm_num
  rw [← add_div, div_lt_iff₀ w0]
  linarith

/-- **C128, what is left of it.** For colours with `L` from 0 to 100 and `a`, `b` from -128 to 128, a detour is shorter than the direct
difference by a factor of at most 69. -/
theorem C128_relaxed (p q r : Tristimulus ℝ) (pL : 0 ≤ p.a ∧ p.a ≤ 100) (qL : 0 ≤ q.a ∧ q.a ≤ 100) (rL : 0 ≤ r.a ∧ r.a ≤ 100)
    (pa : |p.b| ≤ 128) (pb : |p.c| ≤ 128) (qa : |q.b| ≤ 128) (qb : |q.c| ≤ 128) (ra : |r.b| ≤ 128) (rb : |r.c| ≤ 128) :
    E00 p r 1 1 1 ≤ 69 * (E00 p q 1 1 1 + E00 q r 1 1 1) + 2e-14 := by
  have u := C101_upper p r 1 1 1 1 one_pos le_rfl le_rfl le_rfl
  have l1 := C101_lower p q 1 1 1 1 ⟨one_pos, le_rfl⟩ ⟨one_pos, le_rfl⟩ ⟨one_pos, le_rfl⟩ pL qL pa pb qa qb
  have l2 := C101_lower q r 1 1 1 1 ⟨one_pos, le_rfl⟩ ⟨one_pos, le_rfl⟩ ⟨one_pos, le_rfl⟩ qL rL qa qb ra rb
  have t : E76 p r ≤ E76 p q + E76 q r := (C45_E76 p q r).2.2.2
  have n1 := (C46_defined p q 1 1 1).2.1
  have n2 := (C46_defined q r 1 1 1).2.1
  rw [one_mul] at u l1 l2
  norm_num at *
  linarith

end CS
