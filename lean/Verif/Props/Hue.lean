import Verif.Props.HSV
import Mathlib.Analysis.Real.Pi.Bounds
import Mathlib.Analysis.SpecialFunctions.Complex.Arctan
import Mathlib.Analysis.Calculus.Deriv.MeanValue

/-!
# C87, C88: the two hues, and how hue behaves under scaling, shifting and rotating the channels
-/

namespace CS
open Tristimulus

/-! ## The arctangent and its Taylor polynomials -/

theorem arctan_taylor {x : ℝ} (hx : 0 ≤ x) : x - x ^ 3 / 3 ≤ Real.arctan x ∧ Real.arctan x ≤ x - x ^ 3 / 3 + x ^ 5 / 5 := by
  have h1 : MonotoneOn (fun x : ℝ => Real.arctan x - (x - x ^ 3 / 3)) (Set.Ici 0) := by
    refine monotoneOn_of_deriv_nonneg (convex_Ici 0) (by fun_prop)
      (fun y _ => DifferentiableAt.differentiableWithinAt (by
        have := Real.differentiableAt_arctan y; fun_prop)) ?_
    intro y hy
    have : HasDerivAt (fun x : ℝ => Real.arctan x - (x - x ^ 3 / 3)) (1 / (1 + y ^ 2) - (1 - y ^ 2)) y := by
      refine (Real.hasDerivAt_arctan y).sub ?_
      refine (hasDerivAt_id y).sub ?_
      exact ((hasDerivAt_pow 3 y).div_const 3).congr_deriv (by norm_num)
    rw [this.deriv, sub_nonneg, le_div_iff₀ (by positivity)]
    nlinarith [sq_nonneg (y ^ 2)]
  have h2 : MonotoneOn (fun x : ℝ => (x - x ^ 3 / 3 + x ^ 5 / 5) - Real.arctan x) (Set.Ici 0) := by
    refine monotoneOn_of_deriv_nonneg (convex_Ici 0) (by fun_prop)
      (fun y _ => DifferentiableAt.differentiableWithinAt (by
        have := Real.differentiableAt_arctan y; fun_prop)) ?_
    intro y hy
    have : HasDerivAt (fun x : ℝ => (x - x ^ 3 / 3 + x ^ 5 / 5) - Real.arctan x) ((1 - y ^ 2 + y ^ 4) - 1 / (1 + y ^ 2)) y := by
      refine HasDerivAt.sub ?_ (Real.hasDerivAt_arctan y)
      refine ((hasDerivAt_id y).sub ?_).add ?_
      · exact ((hasDerivAt_pow 3 y).div_const 3).congr_deriv (by norm_num)
      · exact ((hasDerivAt_pow 5 y).div_const 5).congr_deriv (by norm_num)
    rw [this.deriv, sub_nonneg, div_le_iff₀ (by positivity)]
    nlinarith [sq_nonneg (y ^ 3)]
  have a := h1 (Set.mem_Ici.2 le_rfl) (Set.mem_Ici.2 hx) hx
  have b := h2 (Set.mem_Ici.2 le_rfl) (Set.mem_Ici.2 hx) hx
  simp at a b
  exact ⟨by linarith, by linarith⟩

/-- The angle of `1 + t ω`, `ω` the third root of unity. -/
noncomputable def hexAngle (s : ℝ) : ℝ := Real.arctan (√3 * s / (2 - |s|))

theorem hexAngle_neg (s : ℝ) : hexAngle (-s) = -hexAngle s := by
  unfold hexAngle
  rw [abs_neg, ← Real.arctan_neg]; congr 1; ring

theorem sqrt3_bounds : 1.7320 ≤ √3 ∧ √3 ≤ 1.7321 := by
  constructor
  · exact Real.le_sqrt_of_sq_le (by norm_num)
  · exact Real.sqrt_le_iff.2 ⟨by norm_num, by norm_num⟩

theorem hexAngle_half {s : ℝ} (h0 : 0 ≤ s) (h1 : s ≤ 1 / 2) : |hexAngle s - Real.pi / 3 * s| ≤ 0.0209 := by
  unfold hexAngle
  rw [abs_of_nonneg h0]
  obtain ⟨r1, r2⟩ := sqrt3_bounds
  have p1 := Real.pi_gt_d4
  have p2 := Real.pi_lt_d4
  have r3 : √3 * √3 = 3 := Real.mul_self_sqrt (by norm_num)
  have u0 : 0 ≤ s / (2 - s) := div_nonneg h0 (by linarith)
  have e : s = 2 * (s / (2 - s)) / (1 + s / (2 - s)) := by
    have : 2 - s ≠ 0 := by linarith
    field_simp; ring
  have u1 : s / (2 - s) ≤ 1 / 3 := by rw [div_le_iff₀ (by linarith)]; linarith
  rw [mul_div_assoc]
  generalize s / (2 - s) = u at *
  obtain ⟨t1, t2⟩ := arctan_taylor (x := √3 * u) (by positivity)
  have c3 : (√3 * u) ^ 3 = 3 * √3 * u ^ 3 := by linear_combination (√3 * u ^ 3) * r3
  have c5 : (√3 * u) ^ 5 = 9 * √3 * u ^ 5 := by
    linear_combination (√3 * √3 * √3 * u ^ 5 + 3 * √3 * u ^ 5) * r3
  rw [c3] at t1 t2
  rw [c5] at t2
  generalize Real.arctan (√3 * u) = A at *
  have hs : Real.pi / 3 * s * (1 + u) = Real.pi * (2 / 3) * u := by
    rw [e]; field_simp
  rw [abs_le]
  have b1 : 0 ≤ u - u ^ 3 := by nlinarith [mul_nonneg u0 u0]
  have b2 : 0 ≤ u - u ^ 3 + 9 / 5 * u ^ 5 := by have : 0 ≤ u ^ 5 := by positivity
                                                linarith
  have k1 : Real.pi * (2 / 3) * u ≤ 3.1416 * (2 / 3) * u := by gcongr
  have k2 : 3.1415 * (2 / 3) * u ≤ Real.pi * (2 / 3) * u := by gcongr
  constructor
  · have a1 : 1.7320 * (u - u ^ 3) ≤ A := by
      have := mul_le_mul_of_nonneg_right r1 b1
      nlinarith
    have a2 : (Real.pi / 3 * s - 0.0209) * (1 + u) ≤ 1.7320 * (u - u ^ 3) * (1 + u) := by
      have q1 : 0 ≤ (u - 0.135) ^ 2 * (1.10846 - 2.3094 * u) := mul_nonneg (sq_nonneg _) (by linarith)
      have q2 : 0 ≤ u ^ 3 * (1 / 3 - u) := mul_nonneg (by positivity) (by linarith)
      rw [sub_mul, hs]
      linarith [sq_nonneg u]
    have := le_of_mul_le_mul_right a2 (by linarith)
    linarith
  · have a1 : A ≤ 1.7321 * (u - u ^ 3 + 9 / 5 * u ^ 5) := by
      have := mul_le_mul_of_nonneg_right r2 b2
      nlinarith
    have a2 : 1.7321 * (u - u ^ 3 + 9 / 5 * u ^ 5) * (1 + u) ≤ (Real.pi / 3 * s + 0.0209) * (1 + u) := by
      have q1 : u ^ 2 ≤ 1 / 9 := by nlinarith
      have q2 : 1 + 9 / 5 * u ^ 4 - u ^ 2 ≤ 1 - 4/5 * u ^ 2 := by nlinarith [sq_nonneg u]
      have q3 : u - u ^ 3 + 9 / 5 * u ^ 5 ≤ u - 4/5 * u ^ 3 := by nlinarith
      have q4 : 1.7321 * (u - 4/5 * u ^ 3) * (1 + u) ≤ 3.1415 * (2 / 3) * u + 0.0209 * (1 + u) := by
        have w1 : 0 ≤ u * ((1 / 3 - u) * (1 / 3 - u)) := by positivity
        have w2 : 0 ≤ u * (1 / 3 - u) := mul_nonneg u0 (by linarith)
        have w3 : 0 ≤ u ^ 4 := by positivity
        linarith
      have q5 : 1.7321 * (u - u ^ 3 + 9 / 5 * u ^ 5) * (1 + u) ≤ 1.7321 * (u - 4/5 * u ^ 3) * (1 + u) := by gcongr
      rw [add_mul, hs]
      linarith
    have := le_of_mul_le_mul_right a2 (by linarith)
    linarith


theorem hexAngle_add {s : ℝ} (h0 : 0 ≤ s) (h1 : s ≤ 1) : hexAngle s + hexAngle (1 - s) = Real.pi / 3 := by
  unfold hexAngle
  have r3 : √3 * √3 = 3 := Real.mul_self_sqrt (by norm_num)
  rw [abs_of_nonneg h0, abs_of_nonneg (by linarith : 0 ≤ 1 - s), show 2 - (1 - s) = 1 + s by ring]
  have d1 : 0 < 2 - s := by linarith
  have d2 : 0 < 1 + s := by linarith
  have e : √3 * s / (2 - s) * (√3 * (1 - s) / (1 + s)) = 3 * (s * (1 - s)) / ((2 - s) * (1 + s)) := by
    rw [div_mul_div_comm]; congr 1; linear_combination (s * (1 - s)) * r3
  have dd : 0 < (2 - s) * (1 + s) := by positivity
  rw [Real.arctan_add (by rw [e, div_lt_one dd]; nlinarith), e, ← Real.arctan_sqrt_three]
  congr 1
  rw [show √3 * s / (2 - s) + √3 * (1 - s) / (1 + s) = √3 * (2 * (1 - s + s ^ 2)) / ((2 - s) * (1 + s)) by field_simp; ring,
    show 1 - 3 * (s * (1 - s)) / ((2 - s) * (1 + s)) = 2 * (1 - s + s ^ 2) / ((2 - s) * (1 + s)) by field_simp; ring,
    div_div_div_cancel_right₀ dd.ne']
  have : 0 < 2 * (1 - s + s ^ 2) := by nlinarith [sq_nonneg (s - 1 / 2)]
  rw [mul_div_cancel_right₀ _ this.ne']

/-- The angle of `1 + s ω` differs from `60 s` degrees by less than 1.2 degrees. -/
theorem hexAngle_near {s : ℝ} (h : |s| ≤ 1) : |hexAngle s - Real.pi / 3 * s| ≤ 0.0209 := by
  wlog h0 : 0 ≤ s generalizing s
  · have := this (s := -s) (by rwa [abs_neg]) (by linarith)
    rw [hexAngle_neg] at this
    rw [← abs_neg]
    convert this using 2
    ring
  have h1 : s ≤ 1 := (le_abs_self s).trans h
  rcases le_or_gt s (1 / 2) with h2 | h2
  · exact hexAngle_half h0 h2
  · have a := hexAngle_half (s := 1 - s) (by linarith) (by linarith)
    have b := hexAngle_add h0 h1
    rw [← abs_neg]
    convert a using 2
    linear_combination -b

theorem hexAngle_polar {s : ℝ} (h : |s| ≤ 1) : ∃ ρ, 0 < ρ ∧ 2 - |s| = ρ * Real.cos (hexAngle s) ∧ √3 * s = ρ * Real.sin (hexAngle s) := by
  have d : 0 < 2 - |s| := by linarith
  unfold hexAngle
  have p : 0 < √(1 + (√3 * s / (2 - |s|)) ^ 2) := Real.sqrt_pos.2 (by positivity)
  refine ⟨(2 - |s|) * √(1 + (√3 * s / (2 - |s|)) ^ 2), by positivity, ?_, ?_⟩
  · rw [Real.cos_arctan]; field_simp
  · rw [Real.sin_arctan]; field_simp

/-! ## The hexagonal hue on the six orderings of the channels -/

theorem hue_order {a b c : ℝ} :
    (c ≤ b → b ≤ a → c < a → ∃ n : ℤ, rawHue (⟨a, b, c⟩ : Tristimulus ℝ) = 60 * ((b - c) / (a - c)) + 360 * n) ∧
    (c ≤ a → a ≤ b → c < b → ∃ n : ℤ, rawHue (⟨a, b, c⟩ : Tristimulus ℝ) = 120 - 60 * ((a - c) / (b - c)) + 360 * n) ∧
    (a ≤ c → c ≤ b → a < b → ∃ n : ℤ, rawHue (⟨a, b, c⟩ : Tristimulus ℝ) = 120 + 60 * ((c - a) / (b - a)) + 360 * n) ∧
    (a ≤ b → b ≤ c → a < c → ∃ n : ℤ, rawHue (⟨a, b, c⟩ : Tristimulus ℝ) = 240 - 60 * ((b - a) / (c - a)) + 360 * n) ∧
    (b ≤ a → a ≤ c → b < c → ∃ n : ℤ, rawHue (⟨a, b, c⟩ : Tristimulus ℝ) = 240 + 60 * ((a - b) / (c - b)) + 360 * n) ∧
    (b ≤ c → c ≤ a → b < a → ∃ n : ℤ, rawHue (⟨a, b, c⟩ : Tristimulus ℝ) = 360 - 60 * ((c - b) / (a - b)) + 360 * n) := by
  refine ⟨?_, ?_, ?_, ?_, ?_, ?_⟩ <;> intro h1 h2 h3 <;> rw [rawHue_real]
  · have hi : Spec.hi (⟨a, b, c⟩ : Tristimulus ℝ) = a := by simp [Spec.hi, h2, h3.le]
    have lo : Spec.lo (⟨a, b, c⟩ : Tristimulus ℝ) = c := by simp [Spec.lo, h1, h2, h3.le]
    rw [hi, lo, if_neg h3.ne', if_pos rfl]
    exact ⟨0, by push_cast; ring⟩
  · have hi : Spec.hi (⟨a, b, c⟩ : Tristimulus ℝ) = b := by simp [Spec.hi, h2, h3.le]
    have lo : Spec.lo (⟨a, b, c⟩ : Tristimulus ℝ) = c := by simp [Spec.lo, h1, h2, h3.le]
    rw [hi, lo, if_neg h3.ne']
    have d : b - c ≠ 0 := by linarith
    split_ifs with h
    · simp only at h
      subst h
      exact ⟨0, by field_simp; push_cast; ring⟩
    · exact ⟨0, by field_simp; push_cast; ring⟩
    · exact absurd rfl ‹_›
  · have hi : Spec.hi (⟨a, b, c⟩ : Tristimulus ℝ) = b := by simp [Spec.hi, h2, h3.le]
    have lo : Spec.lo (⟨a, b, c⟩ : Tristimulus ℝ) = a := by simp [Spec.lo, h1, h3.le]
    rw [hi, lo, if_neg h3.ne', if_neg h3.ne', if_pos rfl]
    exact ⟨0, by push_cast; ring⟩
  · have hi : Spec.hi (⟨a, b, c⟩ : Tristimulus ℝ) = c := by simp [Spec.hi, h1, h2, h3.le]
    have lo : Spec.lo (⟨a, b, c⟩ : Tristimulus ℝ) = a := by simp [Spec.lo, h1, h3.le]
    have d : c - a ≠ 0 := by linarith
    rw [hi, lo, if_neg h3.ne', if_neg h3.ne']
    split_ifs with h
    · simp only at h
      subst h
      exact ⟨0, by field_simp; push_cast; ring⟩
    · exact ⟨0, by field_simp; push_cast; ring⟩
  · have hi : Spec.hi (⟨a, b, c⟩ : Tristimulus ℝ) = c := by simp [Spec.hi, h1, h2, h3.le]
    have lo : Spec.lo (⟨a, b, c⟩ : Tristimulus ℝ) = b := by simp [Spec.lo, h1, h3.le]
    have d : c - b ≠ 0 := by linarith
    rw [hi, lo, if_neg h3.ne']
    split_ifs with h h'
    · simp only at h
      subst h
      exact ⟨-1, by field_simp; push_cast; ring⟩
    · exact absurd h' h3.ne'
    · exact ⟨0, by field_simp; push_cast; ring⟩
  · have hi : Spec.hi (⟨a, b, c⟩ : Tristimulus ℝ) = a := by simp [Spec.hi, h2, h3.le]
    have lo : Spec.lo (⟨a, b, c⟩ : Tristimulus ℝ) = b := by simp [Spec.lo, h1, h3.le]
    have d : a - b ≠ 0 := by linarith
    rw [hi, lo, if_neg h3.ne', if_pos rfl]
    exact ⟨-1, by field_simp; push_cast; ring⟩

theorem six_orders {a b c : ℝ} (hne : ¬ (a = b ∧ b = c)) : (c ≤ b ∧ b ≤ a ∧ c < a) ∨ (c ≤ a ∧ a ≤ b ∧ c < b) ∨
    (a ≤ c ∧ c ≤ b ∧ a < b) ∨ (a ≤ b ∧ b ≤ c ∧ a < c) ∨ (b ≤ a ∧ a ≤ c ∧ b < c) ∨ (b ≤ c ∧ c ≤ a ∧ b < a) := by
  grind

/-- The chroma vector and the hue: a non-grey colour has hue `120 k + 60 s` degrees and chroma `d ω^k (2 - |s| + i √3 s)`. -/
theorem hue_form (a b c : ℝ) (hne : ¬ (a = b ∧ b = c)) : ∃ (k : ℕ) (s d : ℝ) (n : ℤ), |s| ≤ 1 ∧ 0 < d ∧
    rawHue (⟨a, b, c⟩ : Tristimulus ℝ) = 120 * k + 60 * s + 360 * n ∧
    2 * a - b - c = d * ((2 - |s|) * Real.cos (2 * Real.pi / 3 * k) - √3 * s * Real.sin (2 * Real.pi / 3 * k)) ∧
    √3 * (b - c) = d * ((2 - |s|) * Real.sin (2 * Real.pi / 3 * k) + √3 * s * Real.cos (2 * Real.pi / 3 * k)) := by
  have r3 : √3 * √3 = 3 := Real.mul_self_sqrt (by norm_num)
  have c1 : Real.cos (2 * Real.pi / 3) = -1 / 2 := by
    rw [show 2 * Real.pi / 3 = Real.pi - Real.pi / 3 by ring, Real.cos_pi_sub, Real.cos_pi_div_three]; ring
  have s1 : Real.sin (2 * Real.pi / 3) = √3 / 2 := by
    rw [show 2 * Real.pi / 3 = Real.pi - Real.pi / 3 by ring, Real.sin_pi_sub, Real.sin_pi_div_three]
  have c2 : Real.cos (2 * Real.pi / 3 * 2) = -1 / 2 := by
    rw [show 2 * Real.pi / 3 * 2 = Real.pi / 3 + Real.pi by ring, Real.cos_add_pi, Real.cos_pi_div_three]; ring
  have s2 : Real.sin (2 * Real.pi / 3 * 2) = -(√3 / 2) := by
    rw [show 2 * Real.pi / 3 * 2 = Real.pi / 3 + Real.pi by ring, Real.sin_add_pi, Real.sin_pi_div_three]
  have key : ∀ {x d : ℝ}, 0 ≤ x → x ≤ d → 0 < d → ∃ u, x / d = u ∧ x = u * d ∧ |u| = u ∧ |u| ≤ 1 ∧ |-u| = u ∧ |-u| ≤ 1 := by
    intro x d h0 h1 h2
    have : 0 ≤ x / d := by positivity
    have h3 : x / d ≤ 1 := by rwa [div_le_one h2]
    refine ⟨x / d, rfl, by field_simp, ?_⟩
    rw [abs_neg, abs_of_nonneg this]; exact ⟨rfl, h3, rfl, h3⟩
  obtain ⟨o1, o2, o3, o4, o5, o6⟩ := hue_order (a := a) (b := b) (c := c)
  have order : (c ≤ b ∧ b ≤ a ∧ c < a) ∨ (c ≤ a ∧ a ≤ b ∧ c < b) ∨ (a ≤ c ∧ c ≤ b ∧ a < b) ∨ (a ≤ b ∧ b ≤ c ∧ a < c) ∨
      (b ≤ a ∧ a ≤ c ∧ b < c) ∨ (b ≤ c ∧ c ≤ a ∧ b < a) := six_orders hne
  rcases order with ⟨h1, h2, h3⟩ | ⟨h1, h2, h3⟩ | ⟨h1, h2, h3⟩ | ⟨h1, h2, h3⟩ | ⟨h1, h2, h3⟩ | ⟨h1, h2, h3⟩
  · obtain ⟨n, hn⟩ := o1 h1 h2 h3
    obtain ⟨u, e, x, k1, k2, k3, k4⟩ := key (x := b - c) (d := a - c) (by linarith) (by linarith) (by linarith)
    refine ⟨0, u, a - c, n, k2, by linarith, by rw [hn, e]; push_cast; ring, ?_, ?_⟩
    all_goals rw [k1]; simp only [Nat.cast_zero, mul_zero, Real.cos_zero, Real.sin_zero]
    · linear_combination -x
    · linear_combination √3 * x
  · obtain ⟨n, hn⟩ := o2 h1 h2 h3
    obtain ⟨u, e, x, k1, k2, k3, k4⟩ := key (x := a - c) (d := b - c) (by linarith) (by linarith) (by linarith)
    refine ⟨1, -u, b - c, n, k4, by linarith, by rw [hn, e]; push_cast; ring, ?_, ?_⟩
    all_goals rw [k3]; simp only [Nat.cast_one, mul_one, c1, s1]
    · linear_combination 2 * x - (b - c) * u / 2 * r3
    · linear_combination 0
  · obtain ⟨n, hn⟩ := o3 h1 h2 h3
    obtain ⟨u, e, x, k1, k2, k3, k4⟩ := key (x := c - a) (d := b - a) (by linarith) (by linarith) (by linarith)
    refine ⟨1, u, b - a, n, k2, by linarith, by rw [hn, e]; push_cast; ring, ?_, ?_⟩
    all_goals rw [k1]; simp only [Nat.cast_one, mul_one, c1, s1]
    · linear_combination -x + (b - a) * u / 2 * r3
    · linear_combination -√3 * x
  · obtain ⟨n, hn⟩ := o4 h1 h2 h3
    obtain ⟨u, e, x, k1, k2, k3, k4⟩ := key (x := b - a) (d := c - a) (by linarith) (by linarith) (by linarith)
    refine ⟨2, -u, c - a, n, k4, by linarith, by rw [hn, e]; push_cast; ring, ?_, ?_⟩
    all_goals rw [k3]; simp only [Nat.cast_ofNat, c2, s2]
    · linear_combination -x + (c - a) * u / 2 * r3
    · linear_combination √3 * x
  · obtain ⟨n, hn⟩ := o5 h1 h2 h3
    obtain ⟨u, e, x, k1, k2, k3, k4⟩ := key (x := a - b) (d := c - b) (by linarith) (by linarith) (by linarith)
    refine ⟨2, u, c - b, n, k2, by linarith, by rw [hn, e]; push_cast; ring, ?_, ?_⟩
    all_goals rw [k1]; simp only [Nat.cast_ofNat, c2, s2]
    · linear_combination 2 * x - (c - b) * u / 2 * r3
    · linear_combination 0
  · obtain ⟨n, hn⟩ := o6 h1 h2 h3
    obtain ⟨u, e, x, k1, k2, k3, k4⟩ := key (x := c - b) (d := a - b) (by linarith) (by linarith) (by linarith)
    refine ⟨0, -u, a - b, n + 1, k4, by linarith, by rw [hn, e]; push_cast; ring, ?_, ?_⟩
    all_goals rw [k3]; simp only [Nat.cast_zero, mul_zero, Real.cos_zero, Real.sin_zero]
    · linear_combination -x
    · linear_combination -√3 * x

/-! ## C87: the arctangent hue -/

theorem toHSV_atan_real (t : Tristimulus ℝ) : toHSV_atan t =
    (mod360 (180 / 3.14159265358979323846 * Complex.arg ⟨2 * t.a - t.b - t.c, √3 * (t.b - t.c)⟩)).map fun h =>
      ⟨h, if Spec.hi t = 0 then 0 else (Spec.hi t - Spec.lo t) / Spec.hi t, Spec.hi t⟩ := by
  simp [toHSV_atan, maxi_real, mini_real, Spec.hi, Spec.lo, PI]
  congr

theorem deg_near (z : ℂ) : |180 / 3.14159265358979323846 * z.arg - z.arg * 180 / Real.pi| ≤ 1e-15 := by
  have h := Complex.abs_arg_le_pi z
  have p1 := Real.pi_gt_d20
  have p2 := Real.pi_lt_d20
  have p0 := Real.pi_pos
  rw [show 180 / 3.14159265358979323846 * z.arg - z.arg * 180 / Real.pi =
    180 * (Real.pi - 3.14159265358979323846) / (3.14159265358979323846 * Real.pi) * z.arg by field_simp, abs_mul,
    abs_of_nonneg (div_nonneg (by linarith) (by positivity))]
  calc _ ≤ 180 * (Real.pi - 3.14159265358979323846) / (3.14159265358979323846 * Real.pi) * Real.pi := by
        gcongr
    _ = 180 * (Real.pi - 3.14159265358979323846) / 3.14159265358979323846 := by field_simp
    _ ≤ 1e-15 := by rw [div_le_iff₀ (by norm_num)]; linarith

/-- C87: `toHSV_atan` always returns.  Its hue lies in `[0, 360]` and is (to `1e-15`) the direction in degrees of the
chroma vector: `2r-g-b = c cos θ`, `√3 (g-b) = c sin θ`.  Saturation and value are those of `toHSV`. -/
theorem C87_direction (t : Tristimulus ℝ) : ∃ o, toHSV_atan t = some o ∧ 0 ≤ o.a ∧ o.a ≤ 360 ∧
    (∃ θ : ℝ, |o.a - θ * 180 / Real.pi| ≤ 1e-15 ∧
      2 * t.a - t.b - t.c = √((2 * t.a - t.b - t.c) ^ 2 + 3 * (t.b - t.c) ^ 2) * Real.cos θ ∧
      √3 * (t.b - t.c) = √((2 * t.a - t.b - t.c) ^ 2 + 3 * (t.b - t.c) ^ 2) * Real.sin θ) ∧
    ∃ o', toHSV t = some o' ∧ o.b = o'.b ∧ o.c = o'.c := by
  obtain ⟨k, x, e, hx, h0, h1⟩ := mod360_real (180 / 3.14159265358979323846 * Complex.arg ⟨2 * t.a - t.b - t.c, √3 * (t.b - t.c)⟩)
  obtain ⟨k', x', e', -, -, -⟩ := mod360_real (rawHue t)
  refine ⟨⟨x, if Spec.hi t = 0 then 0 else (Spec.hi t - Spec.lo t) / Spec.hi t, Spec.hi t⟩, by rw [toHSV_atan_real, e]; rfl, h0, h1, ?_,
    ⟨x', if Spec.hi t = 0 then 0 else (Spec.hi t - Spec.lo t) / Spec.hi t, Spec.hi t⟩, by rw [toHSV_real, e']; rfl, rfl, rfl⟩
  have hd := deg_near ⟨2 * t.a - t.b - t.c, √3 * (t.b - t.c)⟩
  generalize hz : (⟨2 * t.a - t.b - t.c, √3 * (t.b - t.c)⟩ : ℂ) = z at *
  have hre : z.re = 2 * t.a - t.b - t.c := by rw [← hz]
  have him : z.im = √3 * (t.b - t.c) := by rw [← hz]
  have hn : ‖z‖ = √((2 * t.a - t.b - t.c) ^ 2 + 3 * (t.b - t.c) ^ 2) := by
    rw [Complex.norm_eq_sqrt_sq_add_sq, hre, him, mul_pow, Real.sq_sqrt (by norm_num)]
  refine ⟨z.arg + k * (2 * Real.pi), ?_, ?_, ?_⟩
  · rw [hx, show 180 / 3.14159265358979323846 * z.arg + 360 * (k : ℝ) - (z.arg + k * (2 * Real.pi)) * 180 / Real.pi =
      180 / 3.14159265358979323846 * z.arg - z.arg * 180 / Real.pi by field_simp; ring]
    exact hd
  · rw [← hn, Real.cos_add_int_mul_two_pi, Complex.norm_mul_cos_arg, hre]
  · rw [← hn, Real.sin_add_int_mul_two_pi, Complex.norm_mul_sin_arg, him]

/-- C87: the two hues of a colour never differ by more than 1.2 degrees (modulo a turn). -/
theorem C87_near (t : Tristimulus ℝ) (hne : ¬ (t.a = t.b ∧ t.b = t.c)) : ∃ o o' : Tristimulus ℝ, toHSV_atan t = some o ∧ toHSV t = some o' ∧
    ∃ n : ℤ, |o.a - o'.a - 360 * n| ≤ 1.2 := by
  obtain ⟨j, x, e, hx, -, -⟩ := mod360_real (180 / 3.14159265358979323846 * Complex.arg ⟨2 * t.a - t.b - t.c, √3 * (t.b - t.c)⟩)
  obtain ⟨j', x', e', hx', -, -⟩ := mod360_real (rawHue t)
  refine ⟨_, _, by rw [toHSV_atan_real, e]; rfl, by rw [toHSV_real, e']; rfl, ?_⟩
  obtain ⟨k, s, d, n, hs, hd, hr, c1, c2⟩ := hue_form t.a t.b t.c hne
  obtain ⟨ρ, hρ, p1, p2⟩ := hexAngle_polar hs
  have near := hexAngle_near hs
  have hz : (⟨2 * t.a - t.b - t.c, √3 * (t.b - t.c)⟩ : ℂ) =
      ((d * ρ : ℝ) : ℂ) * (Complex.cos ((2 * Real.pi / 3 * k + hexAngle s : ℝ) : ℂ) + Complex.sin ((2 * Real.pi / 3 * k + hexAngle s : ℝ) : ℂ) * Complex.I) := by
    rw [c1, c2, p1, p2, ← Complex.ofReal_cos, ← Complex.ofReal_sin, Real.cos_add, Real.sin_add]
    generalize Real.cos (2 * Real.pi / 3 * k) = u1
    generalize Real.sin (2 * Real.pi / 3 * k) = u2
    generalize Real.cos (hexAngle s) = u3
    generalize Real.sin (hexAngle s) = u4
    apply Complex.ext <;> simp <;> ring
  have ha := Complex.arg_mul_cos_add_sin_mul_I_sub (mul_pos hd hρ) (2 * Real.pi / 3 * k + hexAngle s)
  rw [← hz] at ha
  have dn := deg_near ⟨2 * t.a - t.b - t.c, √3 * (t.b - t.c)⟩
  generalize (⟨2 * t.a - t.b - t.c, √3 * (t.b - t.c)⟩ : ℂ) = z at *
  generalize ⌊(Real.pi - (2 * Real.pi / 3 * k + hexAngle s)) / (2 * Real.pi)⌋ = w at *
  have p0 := Real.pi_pos
  have e1 : z.arg * 180 / Real.pi = 120 * k + hexAngle s * 180 / Real.pi + 360 * w := by
    have : z.arg = 2 * Real.pi / 3 * k + hexAngle s + 2 * Real.pi * w := by linarith
    rw [this]; field_simp; ring
  refine ⟨j - j' + w - n, ?_⟩
  simp only
  have e2 : |hexAngle s * 180 / Real.pi - 60 * s| ≤ 1.19999 := by
    rw [show hexAngle s * 180 / Real.pi - 60 * s = (hexAngle s - Real.pi / 3 * s) * (180 / Real.pi) by field_simp; ring, abs_mul,
      abs_of_pos (a := 180 / Real.pi) (by positivity)]
    have q : 180 / Real.pi ≤ 57.3 := by rw [div_le_iff₀ p0]; linarith [Real.pi_gt_d4]
    calc _ ≤ 0.0209 * (57.3 : ℝ) := by gcongr
      _ ≤ _ := by norm_num
  have hr' : rawHue t = 120 * k + 60 * s + 360 * n := hr
  rw [hx, hx', hr', show 180 / 3.14159265358979323846 * z.arg + 360 * (j : ℝ) - (120 * k + 60 * s + 360 * n + 360 * j') - 360 * ((j - j' + w - n : ℤ) : ℝ) =
    (180 / 3.14159265358979323846 * z.arg - z.arg * 180 / Real.pi) + (hexAngle s * 180 / Real.pi - 60 * s) by push_cast; rw [e1]; ring]
  refine (abs_add_le _ _).trans ?_
  linarith

/-- A colour that is not grey, for which the two hues differ. -/
example : ¬ ((⟨1, 1 / 4, 0⟩ : Tristimulus ℝ).a = (⟨1, 1 / 4, 0⟩ : Tristimulus ℝ).b ∧
    (⟨1, 1 / 4, 0⟩ : Tristimulus ℝ).b = (⟨1, 1 / 4, 0⟩ : Tristimulus ℝ).c) := by norm_num

/-! ## C88: scaling, adding grey, rotating the channels, complementing -/

theorem hi_lo_order (t : Tristimulus ℝ) : Spec.lo t ≤ Spec.hi t :=
  (min_le_left _ _).trans ((min_le_left _ _).trans ((le_max_left _ _).trans (le_max_left _ _)))

theorem hi_eq_lo {t : Tristimulus ℝ} : Spec.hi t = Spec.lo t ↔ t.a = t.b ∧ t.b = t.c := by
  constructor
  · intro h
    have a1 : t.a ≤ Spec.hi t := (le_max_left _ _).trans (le_max_left _ _)
    have a2 : t.b ≤ Spec.hi t := (le_max_right _ _).trans (le_max_left _ _)
    have a3 : t.c ≤ Spec.hi t := le_max_right _ _
    have b1 : Spec.lo t ≤ t.a := (min_le_left _ _).trans (min_le_left _ _)
    have b2 : Spec.lo t ≤ t.b := (min_le_left _ _).trans (min_le_right _ _)
    have b3 : Spec.lo t ≤ t.c := min_le_right _ _
    constructor <;> linarith
  · rintro ⟨h1, h2⟩
    simp [Spec.hi, Spec.lo, h1, h2]

/-- Two colours whose raw hues differ by `δ` up to turns have hues that differ by `δ` up to turns. -/
theorem hue_shift {t u : Tristimulus ℝ} {δ : ℝ} (h : ∃ n : ℤ, rawHue u = rawHue t + δ + 360 * n) :
    ∃ o o' : Tristimulus ℝ, toHSV t = some o ∧ toHSV u = some o' ∧ (∃ n : ℤ, o'.a = o.a + δ + 360 * n) ∧
      o.b = (if Spec.hi t = 0 then 0 else (Spec.hi t - Spec.lo t) / Spec.hi t) ∧ o.c = Spec.hi t ∧
      o'.b = (if Spec.hi u = 0 then 0 else (Spec.hi u - Spec.lo u) / Spec.hi u) ∧ o'.c = Spec.hi u := by
  obtain ⟨n, hn⟩ := h
  obtain ⟨j, x, e, hx, -, -⟩ := mod360_real (rawHue t)
  obtain ⟨j', x', e', hx', -, -⟩ := mod360_real (rawHue u)
  refine ⟨⟨x, if Spec.hi t = 0 then 0 else (Spec.hi t - Spec.lo t) / Spec.hi t, Spec.hi t⟩,
    ⟨x', if Spec.hi u = 0 then 0 else (Spec.hi u - Spec.lo u) / Spec.hi u, Spec.hi u⟩, by rw [toHSV_real, e]; rfl, by rw [toHSV_real, e']; rfl,
    ⟨j' - j + n, ?_⟩, rfl, rfl, rfl, rfl⟩
  show x' = x + δ + _
  rw [hx', hx, hn]; push_cast; ring

theorem rawHue_scale (t : Tristimulus ℝ) {k : ℝ} (hk : 0 < k) : rawHue (⟨k * t.a, k * t.b, k * t.c⟩ : Tristimulus ℝ) = rawHue t := by
  have hi : Spec.hi (⟨k * t.a, k * t.b, k * t.c⟩ : Tristimulus ℝ) = k * Spec.hi t := by
    simp only [Spec.hi, mul_max_of_nonneg _ _ hk.le]
  have lo : Spec.lo (⟨k * t.a, k * t.b, k * t.c⟩ : Tristimulus ℝ) = k * Spec.lo t := by
    simp only [Spec.lo, mul_min_of_nonneg _ _ hk.le]
  rw [rawHue_real, rawHue_real, hi, lo]
  simp only [mul_right_inj' hk.ne']
  have e : ∀ x y z : ℝ, 60 * (k * x - k * y) / (k * Spec.hi t - k * Spec.lo t) = 60 * (x - y) / (Spec.hi t - Spec.lo t) := by
    intro x y z
    rw [← mul_sub, ← mul_sub, mul_left_comm, mul_div_mul_left _ _ hk.ne']
  rw [e _ _ 0, e _ _ 0, e _ _ 0]

/-- C88: exposure (scaling by a positive factor) keeps hue and saturation and scales the value. -/
theorem C88_exposure (t : Tristimulus ℝ) (k : ℝ) (hk : 0 < k) :
    toHSV (⟨k * t.a, k * t.b, k * t.c⟩ : Tristimulus ℝ) = (toHSV t).map fun o => ⟨o.a, o.b, k * o.c⟩ := by
  have hi : Spec.hi (⟨k * t.a, k * t.b, k * t.c⟩ : Tristimulus ℝ) = k * Spec.hi t := by
    simp only [Spec.hi, mul_max_of_nonneg _ _ hk.le]
  have lo : Spec.lo (⟨k * t.a, k * t.b, k * t.c⟩ : Tristimulus ℝ) = k * Spec.lo t := by
    simp only [Spec.lo, mul_min_of_nonneg _ _ hk.le]
  rw [toHSV_real, toHSV_real, rawHue_scale t hk, hi, lo, Option.map_map]
  congr 1
  funext h
  simp only [Function.comp, mul_eq_zero, hk.ne', false_or, ← mul_sub, mul_div_mul_left _ _ hk.ne']

/-- C88: adding the same amount to the three components keeps the hue, and the difference saturation × value. -/
theorem C88_add_grey (t : Tristimulus ℝ) (w : ℝ) : ∃ o o' : Tristimulus ℝ, toHSV t = some o ∧
    toHSV (⟨t.a + w, t.b + w, t.c + w⟩ : Tristimulus ℝ) = some o' ∧ o'.a = o.a ∧ o'.c = o.c + w ∧
    (o.c ≠ 0 → o'.c ≠ 0 → o'.b * o'.c = o.b * o.c) := by
  have hi : Spec.hi (⟨t.a + w, t.b + w, t.c + w⟩ : Tristimulus ℝ) = Spec.hi t + w := by
    simp only [Spec.hi, max_add_add_right]
  have lo : Spec.lo (⟨t.a + w, t.b + w, t.c + w⟩ : Tristimulus ℝ) = Spec.lo t + w := by
    simp only [Spec.lo, min_add_add_right]
  have hr : rawHue (⟨t.a + w, t.b + w, t.c + w⟩ : Tristimulus ℝ) = rawHue t := by
    rw [rawHue_real, rawHue_real, hi, lo]
    simp only [add_left_inj, add_sub_add_right_eq_sub]
  obtain ⟨j, x, e, -, -, -⟩ := mod360_real (rawHue t)
  refine ⟨⟨x, if Spec.hi t = 0 then 0 else (Spec.hi t - Spec.lo t) / Spec.hi t, Spec.hi t⟩,
    ⟨x, if Spec.hi t + w = 0 then 0 else (Spec.hi t + w - (Spec.lo t + w)) / (Spec.hi t + w), Spec.hi t + w⟩,
    by rw [toHSV_real, e]; rfl, by rw [toHSV_real, hr, hi, lo, e]; rfl, rfl, rfl, ?_⟩
  intro h1 h2
  simp only at h1 h2
  simp only [if_neg h1, if_neg h2, div_mul_cancel₀ _ h1, div_mul_cancel₀ _ h2]
  ring

/-- C88: moving red to green, green to blue and blue to red adds 120 degrees to the hue (modulo a turn) and leaves
saturation and value alone. -/
theorem C88_rotate (t : Tristimulus ℝ) (hne : ¬ (t.a = t.b ∧ t.b = t.c)) : ∃ o o' : Tristimulus ℝ, toHSV t = some o ∧
    toHSV (⟨t.c, t.a, t.b⟩ : Tristimulus ℝ) = some o' ∧ (∃ n : ℤ, o'.a = o.a + 120 + 360 * n) ∧ o'.b = o.b ∧ o'.c = o.c := by
  have hi : Spec.hi (⟨t.c, t.a, t.b⟩ : Tristimulus ℝ) = Spec.hi t := by
    simp only [Spec.hi]; rw [max_assoc, max_comm]
  have lo : Spec.lo (⟨t.c, t.a, t.b⟩ : Tristimulus ℝ) = Spec.lo t := by
    simp only [Spec.lo]; rw [min_assoc, min_comm]
  have hr : ∃ n : ℤ, rawHue (⟨t.c, t.a, t.b⟩ : Tristimulus ℝ) = rawHue t + 120 + 360 * n := by
    obtain ⟨a, b, c⟩ := t
    obtain ⟨o1, o2, o3, o4, o5, o6⟩ := hue_order (a := a) (b := b) (c := c)
    obtain ⟨p1, p2, p3, p4, p5, p6⟩ := hue_order (a := c) (b := a) (c := b)
    rcases six_orders hne with ⟨h1, h2, h3⟩ | ⟨h1, h2, h3⟩ | ⟨h1, h2, h3⟩ | ⟨h1, h2, h3⟩ | ⟨h1, h2, h3⟩ | ⟨h1, h2, h3⟩
    · obtain ⟨n, hn⟩ := o1 h1 h2 h3
      obtain ⟨m, hm⟩ := p3 h1 h2 h3
      exact ⟨m - n, by simp only; rw [hn, hm]; push_cast; ring⟩
    · obtain ⟨n, hn⟩ := o2 h1 h2 h3
      obtain ⟨m, hm⟩ := p4 h1 h2 h3
      exact ⟨m - n, by simp only; rw [hn, hm]; push_cast; ring⟩
    · obtain ⟨n, hn⟩ := o3 h1 h2 h3
      obtain ⟨m, hm⟩ := p5 h1 h2 h3
      exact ⟨m - n, by simp only; rw [hn, hm]; push_cast; ring⟩
    · obtain ⟨n, hn⟩ := o4 h1 h2 h3
      obtain ⟨m, hm⟩ := p6 h1 h2 h3
      exact ⟨m - n, by simp only; rw [hn, hm]; push_cast; ring⟩
    · obtain ⟨n, hn⟩ := o5 h1 h2 h3
      obtain ⟨m, hm⟩ := p1 h1 h2 h3
      exact ⟨m - n - 1, by simp only; rw [hn, hm]; push_cast; ring⟩
    · obtain ⟨n, hn⟩ := o6 h1 h2 h3
      obtain ⟨m, hm⟩ := p2 h1 h2 h3
      exact ⟨m - n - 1, by simp only; rw [hn, hm]; push_cast; ring⟩
  obtain ⟨o, o', e, e', h, b1, c1, b2, c2⟩ := hue_shift hr
  exact ⟨o, o', e, e', h, by rw [b1, b2, hi, lo], by rw [c1, c2, hi]⟩

/-- C88: the complement `w - c` of a colour has the opposite hue. -/
theorem C88_complement (t : Tristimulus ℝ) (w : ℝ) (hne : ¬ (t.a = t.b ∧ t.b = t.c)) : ∃ o o' : Tristimulus ℝ, toHSV t = some o ∧
    toHSV (⟨w - t.a, w - t.b, w - t.c⟩ : Tristimulus ℝ) = some o' ∧ (∃ n : ℤ, o'.a = o.a + 180 + 360 * n) := by
  have hr : ∃ n : ℤ, rawHue (⟨w - t.a, w - t.b, w - t.c⟩ : Tristimulus ℝ) = rawHue t + 180 + 360 * n := by
    obtain ⟨a, b, c⟩ := t
    obtain ⟨o1, o2, o3, o4, o5, o6⟩ := hue_order (a := a) (b := b) (c := c)
    obtain ⟨p1, p2, p3, p4, p5, p6⟩ := hue_order (a := w - a) (b := w - b) (c := w - c)
    have key : ∀ {x y z : ℝ}, z < x → (w - y - (w - x)) / (w - z - (w - x)) = 1 - (y - z) / (x - z) := by
      intro x y z h
      have : x - z ≠ 0 := by linarith
      rw [show w - z - (w - x) = x - z by ring, show w - y - (w - x) = x - y by ring, eq_sub_iff_add_eq, ← add_div]
      rw [show x - y + (y - z) = x - z by ring, div_self this]
    rcases six_orders hne with ⟨h1, h2, h3⟩ | ⟨h1, h2, h3⟩ | ⟨h1, h2, h3⟩ | ⟨h1, h2, h3⟩ | ⟨h1, h2, h3⟩ | ⟨h1, h2, h3⟩
    · obtain ⟨n, hn⟩ := o1 h1 h2 h3
      obtain ⟨m, hm⟩ := p4 (by linarith) (by linarith) (by linarith)
      rw [key h3] at hm
      exact ⟨m - n, by simp only; rw [hn, hm]; push_cast; ring⟩
    · obtain ⟨n, hn⟩ := o2 h1 h2 h3
      obtain ⟨m, hm⟩ := p5 (by linarith) (by linarith) (by linarith)
      rw [key h3] at hm
      exact ⟨m - n, by simp only; rw [hn, hm]; push_cast; ring⟩
    · obtain ⟨n, hn⟩ := o3 h1 h2 h3
      obtain ⟨m, hm⟩ := p6 (by linarith) (by linarith) (by linarith)
      rw [key h3] at hm
      exact ⟨m - n, by simp only; rw [hn, hm]; push_cast; ring⟩
    · obtain ⟨n, hn⟩ := o4 h1 h2 h3
      obtain ⟨m, hm⟩ := p1 (by linarith) (by linarith) (by linarith)
      rw [key h3] at hm
      exact ⟨m - n - 1, by simp only; rw [hn, hm]; push_cast; ring⟩
    · obtain ⟨n, hn⟩ := o5 h1 h2 h3
      obtain ⟨m, hm⟩ := p2 (by linarith) (by linarith) (by linarith)
      rw [key h3] at hm
      exact ⟨m - n - 1, by simp only; rw [hn, hm]; push_cast; ring⟩
    · obtain ⟨n, hn⟩ := o6 h1 h2 h3
      obtain ⟨m, hm⟩ := p3 (by linarith) (by linarith) (by linarith)
      rw [key h3] at hm
      exact ⟨m - n - 1, by simp only; rw [hn, hm]; push_cast; ring⟩
  obtain ⟨o, o', e, e', h, -⟩ := hue_shift hr
  exact ⟨o, o', e, e', h⟩

end CS
