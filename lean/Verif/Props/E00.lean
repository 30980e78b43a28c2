import Verif.Props.Delta
import Verif.Lemmas.HSV

/-!
# C46: CIEDE2000  (exact arithmetic)
-/

namespace CS
open Spec Delta

theorem PI00_real : (PI00 : ℝ) = 3.14159265358979323846264338327950288 := by
  simp only [PI00, lit_real]; push_cast; rfl

theorem PI00_bounds : (PI00 : ℝ) < Real.pi + 1e-18 ∧ Real.pi - 1e-18 < (PI00 : ℝ) := by
  rw [PI00_real]
  have := Real.pi_gt_d20
  have := Real.pi_lt_d20
  constructor <;> linarith

theorem PI00_pos : 0 < (PI00 : ℝ) := by rw [PI00_real]; norm_num

theorem pow25_7_real : (pow25_7 : ℝ) = 6103515625 := by
  simp only [pow25_7, lit_real]; norm_num

theorem chroma_ratio {C : ℝ} (hC : 0 ≤ C) :
    0 ≤ Real.sqrt (C ^ (7 : ℝ) / (C ^ (7 : ℝ) + pow25_7)) ∧
      Real.sqrt (C ^ (7 : ℝ) / (C ^ (7 : ℝ) + pow25_7)) < 1 := by
  refine ⟨Real.sqrt_nonneg _, ?_⟩
  have h7 : 0 ≤ C ^ (7 : ℝ) := by positivity
  rw [pow25_7_real, Real.sqrt_lt' (by norm_num), one_pow, div_lt_one (by linarith)]
  linarith

theorem G00_real (a1 b1 a2 b2 : ℝ) : G00 a1 b1 a2 b2 =
    (1 - Real.sqrt (((Real.sqrt (a1 * a1 + b1 * b1) + Real.sqrt (a2 * a2 + b2 * b2)) / 2) ^ (7 : ℝ) /
      (((Real.sqrt (a1 * a1 + b1 * b1) + Real.sqrt (a2 * a2 + b2 * b2)) / 2) ^ (7 : ℝ) + pow25_7))) / 2 := by
  simp only [G00, lit_real, sqrtf_real, powf_real]; push_cast; rfl

theorem G00_comm (a1 b1 a2 b2 : ℝ) : G00 a1 b1 a2 b2 = G00 a2 b2 a1 b1 := by
  rw [G00_real, G00_real, add_comm (Real.sqrt (a1 * a1 + b1 * b1))]

theorem G00_nonneg (a1 b1 a2 b2 : ℝ) : 0 ≤ G00 a1 b1 a2 b2 := by
  rw [G00_real]
  have := (chroma_ratio (show 0 ≤ (Real.sqrt (a1 * a1 + b1 * b1) + Real.sqrt (a2 * a2 + b2 * b2)) / 2
    by positivity)).2
  linarith

theorem hBar00_comm (h1 h2 : ℝ) : hBar00 h1 h2 = hBar00 h2 h1 := by
  simp only [hBar00, fabs_real, abs_sub_comm h1 h2, add_comm h1 h2]

theorem dh00_real (h1 h2 : ℝ) : dh00 h1 h2 = if |h2 - h1| ≤ 180 then h2 - h1
    else if h2 ≤ h1 then h2 - h1 + 360 else h2 - h1 - 360 := by
  simp only [dh00, le_real, fabs_real, lit_real]; push_cast; rfl

theorem dh00_anti (h1 h2 : ℝ) : dh00 h2 h1 = - dh00 h1 h2 := by
  rw [dh00_real, dh00_real, abs_sub_comm]
  split_ifs with h k k' k'
  · ring
  · have : h1 = h2 := le_antisymm k k'
    rw [this] at h; norm_num at h
  · ring
  · ring
  · linarith

theorem dh00_bound (h1 h2 : ℝ) (a1 : 0 ≤ h1) (b1 : h1 < 360) (a2 : 0 ≤ h2) (b2 : h2 < 360) :
    |dh00 h1 h2| ≤ 180 ∧ (dh00 h1 h2 = 0 ↔ h1 = h2) := by
  rw [dh00_real]
  split_ifs with h k
  · exact ⟨h, by constructor <;> intro h <;> linarith⟩
  · rw [not_le, lt_abs] at h
    constructor
    · rw [abs_le]
      rcases h with h | h <;> constructor <;> linarith
    · constructor <;> intro h' <;> rcases h with h | h <;> linarith
  · rw [not_le, lt_abs] at h
    constructor
    · rw [abs_le]
      rcases h with h | h <;> constructor <;> linarith
    · constructor <;> intro h' <;> rcases h with h | h <;> linarith

theorem T00_pos (h : ℝ) : 0 < T00 h := by
  simp only [T00, lit_real, cosf_real]
  push_cast
  have h1 := Real.cos_le_one (PI00 * (1 * h - 30) / 180)
  have h2 := Real.neg_one_le_cos (PI00 * (2 * h) / 180)
  have h3 := Real.neg_one_le_cos (PI00 * (3 * h + 6) / 180)
  have h4 := Real.cos_le_one (PI00 * (4 * h - 63) / 180)
  linarith

theorem Rt00_bound (h C : ℝ) (hC : 0 ≤ C) : |Rt00 h C| < 2 := by
  simp only [Rt00, lit_real, sqrtf_real, powf_real, expf_real, sinf_real]
  push_cast
  obtain ⟨r0, r1⟩ := chroma_ratio hC
  rw [abs_mul, abs_neg, abs_of_nonneg (by linarith)]
  have := Real.abs_sin_le_one (2 * (30 * Real.exp (-((h - 275) * (h - 275) / (25 * 25)))) * PI00 / 180)
  have h0 := abs_nonneg (Real.sin (2 * (30 * Real.exp (-((h - 275) * (h - 275) / (25 * 25)))) * PI00 / 180))
  nlinarith

/-! ### Hue angles -/

theorem hue00_real (b ad : ℝ) : ∃ k : ℤ, hue00 b ad =
    360 + Complex.arg ⟨ad, b⟩ * 180 / PI00 - 360 * k ∧ 0 ≤ hue00 b ad ∧ hue00 b ad < 360 := by
  have hp := PI00_pos
  obtain ⟨p1, p2⟩ := PI00_bounds
  have hpi := Real.pi_gt_three
  set x : ℝ := 360 + Complex.arg ⟨ad, b⟩ * 180 / PI00 with hx
  have hx0 : 0 ≤ x := by
    have := (Complex.arg_mem_Ioc ⟨ad, b⟩).1
    have h2 : -360 ≤ Complex.arg ⟨ad, b⟩ * 180 / PI00 := by
      rw [le_div_iff₀ hp]; linarith
    linarith
  have e : hue00 b ad = x - 360 * (⌊x / 360⌋ : ℝ) := by
    simp only [hue00, fmodf_real, atan2f_real, lit_real]
    push_cast
    rw [← hx, rtrunc, if_pos (by positivity)]
  refine ⟨⌊x / 360⌋, e, ?_, ?_⟩
  · rw [e]
    have := Int.floor_le (x / 360)
    rw [le_div_iff₀ (by norm_num)] at this
    linarith
  · rw [e]
    have := Int.lt_floor_add_one (x / 360)
    rw [div_lt_iff₀ (by norm_num)] at this
    linarith

/-- Equal reported hues: equal hue angles, or angles a whole (decimal) turn apart. -/
theorem hue00_inj (b1 ad1 b2 ad2 : ℝ) (h : hue00 b1 ad1 = hue00 b2 ad2) :
    Complex.arg ⟨ad1, b1⟩ = Complex.arg ⟨ad2, b2⟩ ∨
      |Complex.arg ⟨ad1, b1⟩ - Complex.arg ⟨ad2, b2⟩| = 2 * PI00 := by
  obtain ⟨k1, e1, -, -⟩ := hue00_real b1 ad1
  obtain ⟨k2, e2, -, -⟩ := hue00_real b2 ad2
  have hp := PI00_pos
  obtain ⟨p1, p2⟩ := PI00_bounds
  have hpi := Real.pi_gt_three
  obtain ⟨l1, u1⟩ := Complex.arg_mem_Ioc ⟨ad1, b1⟩
  obtain ⟨l2, u2⟩ := Complex.arg_mem_Ioc ⟨ad2, b2⟩
  generalize Complex.arg ⟨ad1, b1⟩ = x at *
  generalize Complex.arg ⟨ad2, b2⟩ = y at *
  have e : x - y = 2 * PI00 * ((k1 - k2 : ℤ) : ℝ) := by
    have e3 : x * 180 / PI00 - y * 180 / PI00 = 360 * ((k1 : ℝ) - k2) := by linarith
    field_simp at e3
    push_cast
    linarith
  have hk1 : k1 - k2 < 2 := by
    by_contra hc
    have : (2 : ℝ) ≤ ((k1 - k2 : ℤ) : ℝ) := by exact_mod_cast not_lt.mp hc
    nlinarith
  have hk2 : -2 < k1 - k2 := by
    by_contra hc
    have : ((k1 - k2 : ℤ) : ℝ) ≤ -2 := by exact_mod_cast not_lt.mp hc
    nlinarith
  generalize k1 - k2 = k at *
  have : k = -1 ∨ k = 0 ∨ k = 1 := by omega
  rcases this with rfl | rfl | rfl
  · right; rw [e]; norm_num [abs_of_pos hp]
  · left; norm_num at e; linarith
  · right; rw [e]; norm_num [abs_of_pos hp]

/-! ### The quadratic form -/

theorem quad_nonneg {R : ℝ} (hR : |R| < 2) (x y z : ℝ) : 0 ≤ x * x + y * y + z * z + R * y * z := by
  rw [abs_lt] at hR
  nlinarith [sq_nonneg (y + R * z / 2), sq_nonneg x, mul_nonneg (sq_nonneg z)
    (show 0 ≤ 1 - R ^ 2 / 4 by nlinarith)]

theorem quad_zero {R : ℝ} (hR : |R| < 2) {x y z : ℝ} (h : x * x + y * y + z * z + R * y * z = 0) :
    x = 0 ∧ y = 0 ∧ z = 0 := by
  rw [abs_lt] at hR
  have hp : 0 < 1 - R ^ 2 / 4 := by nlinarith
  have e : x ^ 2 + (y + R * z / 2) ^ 2 + (1 - R ^ 2 / 4) * z ^ 2 = 0 := by rw [← h]; ring
  have h1 := sq_nonneg x
  have h2 := sq_nonneg (y + R * z / 2)
  have h3 := mul_nonneg hp.le (sq_nonneg z)
  have hz : z = 0 := by
    have : (1 - R ^ 2 / 4) * z ^ 2 = 0 := by linarith
    rcases mul_eq_zero.mp this with h | h
    · linarith
    · exact pow_eq_zero_iff (by norm_num) |>.mp h
  have hx : x = 0 := by
    have : x ^ 2 = 0 := by linarith
    exact pow_eq_zero_iff (by norm_num) |>.mp this
  have hy : (y + R * z / 2) ^ 2 = 0 := by linarith
  have hy := pow_eq_zero_iff (by norm_num) |>.mp hy
  rw [hz] at hy
  exact ⟨hx, by linarith, hz⟩

/-! ### The property -/

theorem SL_pos (x : ℝ) : 0 < 1 + 0.015 * x ^ 2 / Real.sqrt (20 + x ^ 2) := by positivity

/-- The pieces of `E00` on the reals. -/
theorem parts_real (p q : Tristimulus ℝ) (Kl Kc Kh : ℝ) :
    ∃ Sl Sc Sh R : ℝ, 0 < Sl ∧ 0 < Sc ∧ 0 < Sh ∧ |R| < 2 ∧
    let G := G00 p.b p.c q.b q.c
    let C1 := Real.sqrt (p.b * (1 + G) * (p.b * (1 + G)) + p.c * p.c)
    let C2 := Real.sqrt (q.b * (1 + G) * (q.b * (1 + G)) + q.c * q.c)
    let d := dh00 (hue00 p.c (p.b * (1 + G))) (hue00 q.c (q.b * (1 + G)))
    parts00 p q Kl Kc Kh = ((q.a - p.a) / (Kl * Sl), (C2 - C1) / (Kc * Sc),
      2 * Real.sqrt (C1 * C2) * Real.sin (PI00 * d / 360) / (Kh * Sh), R) := by
  set G := G00 p.b p.c q.b q.c with hG
  set C1 := Real.sqrt (p.b * (1 + G) * (p.b * (1 + G)) + p.c * p.c) with hC1
  set C2 := Real.sqrt (q.b * (1 + G) * (q.b * (1 + G)) + q.c * q.c) with hC2
  have c1 : 0 ≤ C1 := Real.sqrt_nonneg _
  have c2 : 0 ≤ C2 := Real.sqrt_nonneg _
  set H := hBar00 (hue00 p.c (p.b * (1 + G))) (hue00 q.c (q.b * (1 + G))) with hH
  have hT := T00_pos H
  refine ⟨1 + 0.015 * (((p.a + q.a) / 2 - 50) * ((p.a + q.a) / 2 - 50)) /
    Real.sqrt (20 + ((p.a + q.a) / 2 - 50) * ((p.a + q.a) / 2 - 50)),
    1 + 0.045 * ((C1 + C2) / 2), 1 + 0.015 * ((C1 + C2) / 2) * T00 H, Rt00 H ((C1 + C2) / 2),
    ?_, ?_, ?_, ?_, ?_⟩
  · have := SL_pos ((p.a + q.a) / 2 - 50)
    rwa [sq] at this
  · positivity
  · positivity
  · exact Rt00_bound _ _ (by positivity)
  · intro G' C1' C2' d
    simp only [parts00, lit_real, sqrtf_real, sinf_real]
    push_cast
    rw [show (180 : ℝ) * 2 = 360 by norm_num]

theorem E00_radicand (p q : Tristimulus ℝ) (Kl Kc Kh : ℝ) : 0 ≤ radicand00 p q Kl Kc Kh := by
  obtain ⟨Sl, Sc, Sh, R, -, -, -, hR, e⟩ := parts_real p q Kl Kc Kh
  simp only at e
  simp only [radicand00, e]
  exact quad_nonneg hR _ _ _

/-- C46: the square root is taken of a non-negative number; the difference is non-negative. -/
theorem C46_defined (p q : Tristimulus ℝ) (Kl Kc Kh : ℝ) :
    0 ≤ radicand00 p q Kl Kc Kh ∧ 0 ≤ E00 p q Kl Kc Kh ∧
      E00 p q Kl Kc Kh ^ 2 = radicand00 p q Kl Kc Kh := by
  have h := E00_radicand p q Kl Kc Kh
  refine ⟨h, ?_, ?_⟩
  · simp only [E00, sqrtf_real]; exact Real.sqrt_nonneg _
  · simp only [E00, sqrtf_real]; exact Real.sq_sqrt h

/-- C46: symmetry. -/
theorem C46_symm (p q : Tristimulus ℝ) (Kl Kc Kh : ℝ) : E00 p q Kl Kc Kh = E00 q p Kl Kc Kh := by
  simp only [E00]
  congr 1
  simp only [radicand00, parts00]
  rw [G00_comm q.b q.c p.b p.c]
  generalize G00 p.b p.c q.b q.c = G
  simp only [lit_real, sqrtf_real, sinf_real]
  push_cast
  generalize Real.sqrt (p.b * (1 + G) * (p.b * (1 + G)) + p.c * p.c) = C1
  generalize Real.sqrt (q.b * (1 + G) * (q.b * (1 + G)) + q.c * q.c) = C2
  generalize hue00 p.c (p.b * (1 + G)) = h1
  generalize hue00 q.c (q.b * (1 + G)) = h2
  rw [hBar00_comm h2 h1, dh00_anti h1 h2, add_comm C2 C1, add_comm q.a p.a, mul_comm C2 C1,
    show PI00 * -dh00 h1 h2 / (180 * 2) = -(PI00 * dh00 h1 h2 / (180 * 2)) by ring, Real.sin_neg]
  ring

/-- The two colours lie on different sides of the negative `a` axis. -/
def Spec.Straddle (p q : Tristimulus ℝ) : Prop :=
  p.b < 0 ∧ q.b < 0 ∧ ((p.c < 0 ∧ 0 ≤ q.c) ∨ (q.c < 0 ∧ 0 ≤ p.c))

theorem straddle_of {x1 y1 x2 y2 : ℝ} (h : |Complex.arg ⟨x1, y1⟩ - Complex.arg ⟨x2, y2⟩| = 2 * PI00) :
    x1 < 0 ∧ x2 < 0 ∧ ((y1 < 0 ∧ 0 ≤ y2) ∨ (y2 < 0 ∧ 0 ≤ y1)) := by
  obtain ⟨p1, p2⟩ := PI00_bounds
  have hpi := Real.pi_gt_three
  obtain ⟨l1, u1⟩ := Complex.arg_mem_Ioc ⟨x1, y1⟩
  obtain ⟨l2, u2⟩ := Complex.arg_mem_Ioc ⟨x2, y2⟩
  have r1 := Complex.abs_arg_le_pi_div_two_iff (z := ⟨x1, y1⟩)
  have r2 := Complex.abs_arg_le_pi_div_two_iff (z := ⟨x2, y2⟩)
  have i1 := Complex.arg_neg_iff (z := ⟨x1, y1⟩)
  have i2 := Complex.arg_neg_iff (z := ⟨x2, y2⟩)
  simp only at r1 r2 i1 i2
  generalize Complex.arg ⟨x1, y1⟩ = s at *
  generalize Complex.arg ⟨x2, y2⟩ = t at *
  have j1 : x1 < 0 ↔ s < -(Real.pi / 2) ∨ Real.pi / 2 < s := by
    rw [← not_le, ← r1, abs_le, not_and_or, not_le, not_le]
  have j2 : x2 < 0 ↔ t < -(Real.pi / 2) ∨ Real.pi / 2 < t := by
    rw [← not_le, ← r2, abs_le, not_and_or, not_le, not_le]
  have k1 : 0 ≤ y1 ↔ 0 ≤ s := by rw [← not_lt, ← i1, not_lt]
  have k2 : 0 ≤ y2 ↔ 0 ≤ t := by rw [← not_lt, ← i2, not_lt]
  rw [j1, j2, k1, k2, ← i1, ← i2]
  rcases abs_cases (s - t) with ⟨e, -⟩ | ⟨e, -⟩
  · refine ⟨Or.inr (by linarith), Or.inl (by linarith), Or.inr ⟨by linarith, by linarith⟩⟩
  · refine ⟨Or.inl (by linarith), Or.inr (by linarith), Or.inl ⟨by linarith, by linarith⟩⟩

theorem E00_self (p : Tristimulus ℝ) (Kl Kc Kh : ℝ) : E00 p p Kl Kc Kh = 0 := by
  simp only [E00, sqrtf_real]
  obtain ⟨Sl, Sc, Sh, R, -, -, -, hR, e⟩ := parts_real p p Kl Kc Kh
  simp only at e
  have hd : ∀ h : ℝ, dh00 h h = 0 := by intro h; rw [dh00_real]; norm_num
  simp only [radicand00, e, hd]
  simp

/-- What a zero difference means: equal lightness and equal adjusted chroma, and equal hue angle
unless the (common) chroma vanishes; with the 35-digit decimal for π, angles one decimal turn apart
also count as equal. -/
theorem E00_zero (p q : Tristimulus ℝ) (Kl Kc Kh : ℝ) (hl : 0 < Kl) (hc : 0 < Kc) (hh : 0 < Kh)
    (h : E00 p q Kl Kc Kh = 0) :
    p = q ∨ (p.a = q.a ∧
      |Complex.arg ⟨p.b * (1 + G00 p.b p.c q.b q.c), p.c⟩ -
        Complex.arg ⟨q.b * (1 + G00 p.b p.c q.b q.c), q.c⟩| = 2 * PI00) := by
  have hr := E00_radicand p q Kl Kc Kh
  simp only [E00, sqrtf_real] at h
  rw [Real.sqrt_eq_zero hr] at h
  obtain ⟨Sl, Sc, Sh, R, s1, s2, s3, hR, e⟩ := parts_real p q Kl Kc Kh
  have hG := G00_nonneg p.b p.c q.b q.c
  simp only at e
  simp only [radicand00, e] at h
  generalize G00 p.b p.c q.b q.c = G at *
  obtain ⟨z1, z2, z3⟩ := quad_zero hR h
  have hL : p.a = q.a := by
    rcases div_eq_zero_iff.mp z1 with h | h
    · linarith
    · exact absurd h (by positivity)
  have hC : Real.sqrt (p.b * (1 + G) * (p.b * (1 + G)) + p.c * p.c) =
      Real.sqrt (q.b * (1 + G) * (q.b * (1 + G)) + q.c * q.c) := by
    rcases div_eq_zero_iff.mp z2 with h | h
    · linarith
    · exact absurd h (by positivity)
  have hH : 2 * Real.sqrt (Real.sqrt (p.b * (1 + G) * (p.b * (1 + G)) + p.c * p.c) *
      Real.sqrt (q.b * (1 + G) * (q.b * (1 + G)) + q.c * q.c)) *
      Real.sin (PI00 * dh00 (hue00 p.c (p.b * (1 + G))) (hue00 q.c (q.b * (1 + G))) / 360) = 0 := by
    rcases div_eq_zero_iff.mp z3 with h | h
    · exact h
    · exact absurd h (by positivity)
  have norm_eq : ∀ x y : ℝ, Real.sqrt (x * x + y * y) = ‖(⟨x, y⟩ : ℂ)‖ := by
    intro x y; rw [Complex.norm_def, Complex.normSq_apply]
  rw [norm_eq, norm_eq] at hC
  rw [norm_eq, norm_eq] at hH
  have fin : (⟨p.b * (1 + G), p.c⟩ : ℂ) = ⟨q.b * (1 + G), q.c⟩ → p = q := by
    intro he
    rw [Complex.ext_iff] at he
    simp only at he
    ext
    · exact hL
    · exact mul_right_cancel₀ (by linarith : (1 + G) ≠ 0) he.1
    · exact he.2
  rcases mul_eq_zero.mp hH with h0 | h0
  · left
    apply fin
    rw [← hC, Real.sqrt_mul_self (norm_nonneg _)] at h0
    have n1 : ‖(⟨p.b * (1 + G), p.c⟩ : ℂ)‖ = 0 := by linarith
    have n2 := n1
    rw [hC] at n2
    rw [norm_eq_zero] at n1 n2
    rw [n1, n2]
  · obtain ⟨k1, e1, a1, b1⟩ := hue00_real p.c (p.b * (1 + G))
    obtain ⟨k2, e2, a2, b2⟩ := hue00_real q.c (q.b * (1 + G))
    obtain ⟨d1, d2⟩ := dh00_bound _ _ a1 b1 a2 b2
    have hz : dh00 (hue00 p.c (p.b * (1 + G))) (hue00 q.c (q.b * (1 + G))) = 0 := by
      generalize dh00 (hue00 p.c (p.b * (1 + G))) (hue00 q.c (q.b * (1 + G))) = d at *
      obtain ⟨p1, p2⟩ := PI00_bounds
      have hp := PI00_pos
      have hpi := Real.pi_gt_three
      rw [abs_le] at d1
      rw [Real.sin_eq_zero_iff_of_lt_of_lt] at h0
      · have : PI00 * d = 0 := by linarith
        rcases mul_eq_zero.mp this with h | h
        · exact absurd h hp.ne'
        · exact h
      · rw [lt_div_iff₀ (by norm_num)]; nlinarith
      · rw [div_lt_iff₀ (by norm_num)]; nlinarith
    rcases hue00_inj _ _ _ _ (d2.mp hz) with h | h
    · left; exact fin (Complex.ext_norm_arg hC h)
    · right; exact ⟨hL, h⟩

/-- C46: zero exactly for equal colours, for all pairs not straddling the negative `a` axis. -/
theorem C46_zero_iff (p q : Tristimulus ℝ) (Kl Kc Kh : ℝ) (hl : 0 < Kl) (hc : 0 < Kc) (hh : 0 < Kh)
    (hs : ¬ Straddle p q) : E00 p q Kl Kc Kh = 0 ↔ p = q := by
  constructor
  · intro h
    rcases E00_zero p q Kl Kc Kh hl hc hh h with h | ⟨-, h⟩
    · exact h
    · exfalso
      apply hs
      have hG := G00_nonneg p.b p.c q.b q.c
      obtain ⟨h1, h2, h3⟩ := straddle_of h
      refine ⟨?_, ?_, h3⟩
      · by_contra hn; rw [not_lt] at hn
        have := mul_nonneg hn (show 0 ≤ 1 + G00 p.b p.c q.b q.c by linarith)
        linarith
      · by_contra hn; rw [not_lt] at hn
        have := mul_nonneg hn (show 0 ≤ 1 + G00 p.b p.c q.b q.c by linarith)
        linarith
  · rintro rfl; exact E00_self p Kl Kc Kh

/-- C46: for straddling pairs a zero difference still means equal lightness and hue angles on the two
sides of the axis agreeing to `4e-18` radians. -/
theorem C46_zero_straddle (p q : Tristimulus ℝ) (Kl Kc Kh : ℝ) (hl : 0 < Kl) (hc : 0 < Kc)
    (hh : 0 < Kh) (h : E00 p q Kl Kc Kh = 0) : p = q ∨ (p.a = q.a ∧ ∃ G, 0 ≤ G ∧
      |(|Complex.arg ⟨p.b * (1 + G), p.c⟩ - Complex.arg ⟨q.b * (1 + G), q.c⟩| - 2 * Real.pi)| < 4e-18) := by
  rcases E00_zero p q Kl Kc Kh hl hc hh h with h | ⟨h1, h⟩
  · exact Or.inl h
  · refine Or.inr ⟨h1, _, G00_nonneg p.b p.c q.b q.c, ?_⟩
    rw [h, abs_lt]
    obtain ⟨p1, p2⟩ := PI00_bounds
    constructor <;> linarith

/-- Pairs meeting the hypothesis: different greens, a red against a blue. -/
example : ¬ Straddle ⟨50, -30, 40⟩ ⟨50, -31, 40⟩ ∧ ¬ Straddle ⟨50, 60, 20⟩ ⟨30, 10, -50⟩ := by
  constructor <;> norm_num [Straddle]

end CS
