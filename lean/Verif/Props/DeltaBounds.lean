import Verif.Props.E00

/-!
# C101: CIEDE2000 against the Euclidean difference  (exact arithmetic)
-/

namespace CS
open Delta

/-! ### The hue chord -/

/-- Difference of moduli and chord make up the distance. -/
theorem chord (z w : ℂ) : (‖w‖ - ‖z‖) ^ 2 + 4 * (‖z‖ * ‖w‖) * Real.sin ((w.arg - z.arg) / 2) ^ 2 =
    (w.re - z.re) ^ 2 + (w.im - z.im) ^ 2 := by
  have h := Real.cos_sub w.arg z.arg
  have h2 : Real.cos (w.arg - z.arg) = 1 - 2 * Real.sin ((w.arg - z.arg) / 2) ^ 2 := by
    have := Real.cos_two_mul ((w.arg - z.arg) / 2)
    rw [show 2 * ((w.arg - z.arg) / 2) = w.arg - z.arg by ring] at this
    linarith [Real.sin_sq_add_cos_sq ((w.arg - z.arg) / 2)]
  have hz := Real.sin_sq_add_cos_sq z.arg
  have hw := Real.sin_sq_add_cos_sq w.arg
  rw [← Complex.norm_mul_cos_arg z, ← Complex.norm_mul_sin_arg z, ← Complex.norm_mul_cos_arg w, ← Complex.norm_mul_sin_arg w]
  rw [h2] at h
  generalize Real.sin ((w.arg - z.arg) / 2) = s at *
  generalize Real.sin w.arg = sw at *
  generalize Real.cos w.arg = cw at *
  generalize Real.sin z.arg = sz at *
  generalize Real.cos z.arg = cz at *
  generalize ‖w‖ = W at *
  generalize ‖z‖ = Z at *
  linear_combination (-2 * Z * W) * h + (-Z ^ 2) * hz + (-W ^ 2) * hw

/-- The sine of half the code's hue difference is that of half the angle, but for the decimal of `π`. -/
theorem half_hue (b1 a1 b2 a2 : ℝ) :
    |(|Real.sin (PI00 * dh00 (hue00 b1 a1) (hue00 b2 a2) / 360)| -
      |Real.sin ((Complex.arg ⟨a2, b2⟩ - Complex.arg ⟨a1, b1⟩) / 2)|)| ≤ 1e-18 := by
  obtain ⟨k1, e1, u1, v1⟩ := hue00_real b1 a1
  obtain ⟨k2, e2, u2, v2⟩ := hue00_real b2 a2
  obtain ⟨d1, -⟩ := dh00_bound _ _ u1 v1 u2 v2
  have hd : ∃ m : ℤ, dh00 (hue00 b1 a1) (hue00 b2 a2) = hue00 b2 a2 - hue00 b1 a1 + 360 * m := by
    rw [dh00_real]
    split_ifs
    · exact ⟨0, by simp⟩
    · exact ⟨1, by norm_num⟩
    · exact ⟨-1, by norm_num; ring⟩
  obtain ⟨m, hm⟩ := hd
  have hp := PI00_pos
  obtain ⟨p1, p2⟩ := PI00_bounds
  have hpi := Real.pi_gt_three
  obtain ⟨l1, r1⟩ := Complex.arg_mem_Ioc ⟨a1, b1⟩
  obtain ⟨l2, r2⟩ := Complex.arg_mem_Ioc ⟨a2, b2⟩
  generalize dh00 (hue00 b1 a1) (hue00 b2 a2) = d at *
  generalize hue00 b1 a1 = h1 at *
  generalize hue00 b2 a2 = h2 at *
  generalize Complex.arg ⟨a1, b1⟩ = x at *
  generalize Complex.arg ⟨a2, b2⟩ = y at *
  have e : PI00 * d / 360 = (y - x) / 2 + ((k1 - k2 + m : ℤ) : ℝ) * PI00 := by
    rw [hm, e1, e2]; push_cast; field_simp; ring
  generalize k1 - k2 + m = n at *
  have hn : -2 < n ∧ n < 2 := by
    have b1 : |PI00 * d / 360| ≤ PI00 / 2 := by
      rw [abs_div, abs_mul, abs_of_pos hp, abs_of_pos (by norm_num : (0 : ℝ) < 360), div_le_iff₀ (by norm_num)]
      nlinarith
    rw [e, abs_le] at b1
    constructor
    · by_contra hc
      have : ((n : ℤ) : ℝ) ≤ -2 := by exact_mod_cast not_lt.mp hc
      nlinarith
    · by_contra hc
      have : (2 : ℝ) ≤ ((n : ℤ) : ℝ) := by exact_mod_cast not_lt.mp hc
      nlinarith
  have hs : |Real.sin ((y - x) / 2)| = |Real.sin ((y - x) / 2 + n * Real.pi)| := by
    rw [Real.sin_add_int_mul_pi, abs_mul]
    rcases Int.even_or_odd n with h | h
    · rw [h.neg_one_zpow]; simp
    · rw [h.neg_one_zpow]; simp
  rw [hs, e]
  refine (abs_abs_sub_abs_le_abs_sub _ _).trans ?_
  have lip : |Real.sin ((y - x) / 2 + n * PI00) - Real.sin ((y - x) / 2 + n * Real.pi)| ≤
      |((y - x) / 2 + n * PI00) - ((y - x) / 2 + n * Real.pi)| := Real.abs_sin_sub_sin_le _ _
  refine lip.trans ?_
  rw [show ((y - x) / 2 + n * PI00) - ((y - x) / 2 + n * Real.pi) = n * (PI00 - Real.pi) by ring, abs_mul]
  have h1 : |(n : ℝ)| ≤ 1 := by
    rw [abs_le]
    exact ⟨by exact_mod_cast (by omega : -1 ≤ n), by exact_mod_cast (by omega : n ≤ 1)⟩
  have h2 : |(PI00 : ℝ) - Real.pi| ≤ 1e-18 := by rw [abs_le]; constructor <;> linarith
  calc _ ≤ 1 * 1e-18 := mul_le_mul h1 h2 (abs_nonneg _) (by norm_num)
    _ = _ := by norm_num

/-! ### The weights -/

theorem T00_bounds (h : ℝ) : 0.07 ≤ T00 h ∧ T00 h ≤ 1.93 := by
  simp only [T00, lit_real, cosf_real]
  push_cast
  have h1 := Real.cos_le_one (PI00 * (1 * h - 30) / 180)
  have h2 := Real.neg_one_le_cos (PI00 * (2 * h) / 180)
  have h3 := Real.neg_one_le_cos (PI00 * (3 * h + 6) / 180)
  have h4 := Real.cos_le_one (PI00 * (4 * h - 63) / 180)
  have h5 := Real.neg_one_le_cos (PI00 * (1 * h - 30) / 180)
  have h6 := Real.cos_le_one (PI00 * (2 * h) / 180)
  have h7 := Real.cos_le_one (PI00 * (3 * h + 6) / 180)
  have h8 := Real.neg_one_le_cos (PI00 * (4 * h - 63) / 180)
  constructor <;> linarith

/-- The rotation term is at most `2 sin 60°`. -/
theorem Rt00_sqrt3 (h C : ℝ) (hC : 0 ≤ C) : |Rt00 h C| ≤ 1.7322 := by
  simp only [Rt00, lit_real, sqrtf_real, powf_real, expf_real, sinf_real]
  push_cast
  obtain ⟨r0, r1⟩ := chroma_ratio hC
  rw [abs_mul, abs_neg, abs_of_nonneg (by linarith)]
  have e0 := Real.exp_pos (-((h - 275) * (h - 275) / (25 * 25)))
  have e1 : Real.exp (-((h - 275) * (h - 275) / (25 * 25))) ≤ 1 := by
    rw [Real.exp_le_one_iff, neg_nonpos]; exact div_nonneg (mul_self_nonneg _) (by norm_num)
  generalize Real.exp (-((h - 275) * (h - 275) / (25 * 25))) = e at *
  have hp := PI00_pos
  obtain ⟨p1, p2⟩ := PI00_bounds
  have hpi := Real.pi_gt_three
  have s0 : 0 ≤ Real.sin (2 * (30 * e) * PI00 / 180) :=
    Real.sin_nonneg_of_nonneg_of_le_pi (by positivity) (by rw [div_le_iff₀ (by norm_num)]; nlinarith)
  have s1 : Real.sin (2 * (30 * e) * PI00 / 180) ≤ Real.sin (PI00 / 3) :=
    Real.sin_le_sin_of_le_of_le_pi_div_two (by have : 0 ≤ 2 * (30 * e) * PI00 / 180 := by positivity
                                               linarith) (by linarith) (by nlinarith)
  have s2 := (abs_le.1 (Real.abs_sin_sub_sin_le (PI00 / 3) (Real.pi / 3))).2
  have s3 : |(PI00 : ℝ) / 3 - Real.pi / 3| ≤ 1e-18 := by rw [abs_le]; constructor <;> linarith
  rw [Real.sin_pi_div_three] at s2
  have s4 : Real.sqrt 3 ≤ 1.7321 := by rw [Real.sqrt_le_left (by norm_num)]; norm_num
  rw [abs_of_nonneg s0]
  generalize Real.sqrt (C ^ (7 : ℝ) / (C ^ (7 : ℝ) + pow25_7)) = r at *
  generalize Real.sin (2 * (30 * e) * PI00 / 180) = s at *
  have : s ≤ 0.8661 := by linarith
  nlinarith

theorem G00_le (a1 b1 a2 b2 : ℝ) : G00 a1 b1 a2 b2 ≤ 1 / 2 := by
  rw [G00_real]
  have := (chroma_ratio (show 0 ≤ (Real.sqrt (a1 * a1 + b1 * b1) + Real.sqrt (a2 * a2 + b2 * b2)) / 2
    by positivity)).1
  linarith

theorem SL_bounds (x : ℝ) : 1 ≤ 1 + 0.015 * (x * x) / Real.sqrt (20 + x * x) ∧
    (|x| ≤ 50 → 1 + 0.015 * (x * x) / Real.sqrt (20 + x * x) ≤ 1.75) := by
  constructor
  · have : 0 ≤ 0.015 * (x * x) / Real.sqrt (20 + x * x) :=
      div_nonneg (mul_nonneg (by norm_num) (mul_self_nonneg x)) (Real.sqrt_nonneg _)
    linarith
  · intro h
    have h0 : 0 < Real.sqrt (20 + x * x) := Real.sqrt_pos.2 (by nlinarith)
    have h1 : |x| ≤ Real.sqrt (20 + x * x) := Real.abs_le_sqrt (by nlinarith)
    have h2 : 0.015 * (x * x) / Real.sqrt (20 + x * x) ≤ 0.75 := by
      rw [div_le_iff₀ h0]
      have h3 := abs_mul_abs_self x
      generalize Real.sqrt (20 + x * x) = r at *
      rw [← h3]
      nlinarith [abs_nonneg x]
    linarith

/-- The pieces of `E00` with the sizes of the weights; `D` is the distance in the (a', b) plane. -/
theorem parts_sized (p q : Tristimulus ℝ) (Kl Kc Kh : ℝ) : ∃ G Sl C T R c s s0 : ℝ,
    (0 ≤ G ∧ G ≤ 1 / 2) ∧ 0 ≤ C ∧ (0.07 ≤ T ∧ T ≤ 1.93) ∧ |R| ≤ 1.7322 ∧ 1 ≤ Sl ∧
    (0 ≤ p.a ∧ p.a ≤ 100 → 0 ≤ q.a ∧ q.a ≤ 100 → Sl ≤ 1.75) ∧
    (|p.b| ≤ 128 → |p.c| ≤ 128 → |q.b| ≤ 128 → |q.c| ≤ 128 → C ≤ 231) ∧
    (|s| - |s0|) ^ 2 ≤ (2e-18 * C) ^ 2 ∧
    c ^ 2 + s0 ^ 2 = (q.b * (1 + G) - p.b * (1 + G)) ^ 2 + (q.c - p.c) ^ 2 ∧
    parts00 p q Kl Kc Kh = ((q.a - p.a) / (Kl * Sl), c / (Kc * (1 + 0.045 * C)), s / (Kh * (1 + 0.015 * C * T)), R) := by
  set G := G00 p.b p.c q.b q.c with hG
  have G0 := G00_nonneg p.b p.c q.b q.c
  have G1 := G00_le p.b p.c q.b q.c
  set z : ℂ := ⟨p.b * (1 + G), p.c⟩ with hz
  set w : ℂ := ⟨q.b * (1 + G), q.c⟩ with hw
  have norm_eq : ∀ x y : ℝ, Real.sqrt (x * x + y * y) = ‖(⟨x, y⟩ : ℂ)‖ := by
    intro x y; rw [Complex.norm_def, Complex.normSq_apply]
  set H := hBar00 (hue00 p.c (p.b * (1 + G))) (hue00 q.c (q.b * (1 + G))) with hH
  set d := dh00 (hue00 p.c (p.b * (1 + G))) (hue00 q.c (q.b * (1 + G))) with hd
  have n1 := norm_nonneg z
  have n2 := norm_nonneg w
  have am : Real.sqrt (‖z‖ * ‖w‖) ≤ (‖z‖ + ‖w‖) / 2 := by
    rw [Real.sqrt_le_left (by positivity)]; nlinarith [sq_nonneg (‖z‖ - ‖w‖)]
  refine ⟨G, 1 + 0.015 * (((p.a + q.a) / 2 - 50) * ((p.a + q.a) / 2 - 50)) /
    Real.sqrt (20 + ((p.a + q.a) / 2 - 50) * ((p.a + q.a) / 2 - 50)),
    (‖z‖ + ‖w‖) / 2, T00 H, Rt00 H ((‖z‖ + ‖w‖) / 2), ‖w‖ - ‖z‖, 2 * Real.sqrt (‖z‖ * ‖w‖) * Real.sin (PI00 * d / 360),
    2 * Real.sqrt (‖z‖ * ‖w‖) * Real.sin ((w.arg - z.arg) / 2), ⟨G0, G1⟩, by positivity, T00_bounds H,
    Rt00_sqrt3 _ _ (by positivity), (SL_bounds _).1, ?_, ?_, ?_, ?_, ?_⟩
  · intro h1 h2
    exact (SL_bounds _).2 (by rw [abs_le]; constructor <;> linarith)
  · intro h1 h2 h3 h4
    have key : ∀ x y : ℝ, |x| ≤ 128 → |y| ≤ 128 → ‖(⟨x * (1 + G), y⟩ : ℂ)‖ ≤ 231 := by
      intro x y hx hy
      rw [← norm_eq, Real.sqrt_le_left (by norm_num)]
      have a1 : x * x ≤ 128 ^ 2 := by rw [← abs_mul_abs_self]; nlinarith [abs_nonneg x]
      have a2 : y * y ≤ 128 ^ 2 := by rw [← abs_mul_abs_self]; nlinarith [abs_nonneg y]
      have a3 : (1 + G) * (1 + G) ≤ 2.25 := by nlinarith
      have a4 : x * (1 + G) * (x * (1 + G)) = x * x * ((1 + G) * (1 + G)) := by ring
      rw [a4]
      have a5 : x * x * ((1 + G) * (1 + G)) ≤ 128 ^ 2 * 2.25 := mul_le_mul a1 a3 (by positivity) (by norm_num)
      linarith
    linarith [key _ _ h1 h2, key _ _ h3 h4]
  · have hh := half_hue p.c (p.b * (1 + G)) q.c (q.b * (1 + G))
    rw [abs_mul (2 * Real.sqrt (‖z‖ * ‖w‖)), abs_mul (2 * Real.sqrt (‖z‖ * ‖w‖)), ← mul_sub, abs_of_nonneg (by positivity : 0 ≤ 2 * Real.sqrt (‖z‖ * ‖w‖)), sq_le_sq, abs_mul,
      abs_of_nonneg (by positivity : 0 ≤ 2 * Real.sqrt (‖z‖ * ‖w‖)), abs_of_nonneg (by positivity : 0 ≤ 2e-18 * ((‖z‖ + ‖w‖) / 2))]
    calc _ ≤ 2 * ((‖z‖ + ‖w‖) / 2) * 1e-18 := by gcongr
      _ = _ := by ring
  · have := chord z w
    rw [mul_pow, mul_pow, Real.sq_sqrt (by positivity)]
    norm_num at this ⊢
    rw [this]
  · simp only [parts00, lit_real, sqrtf_real, sinf_real]
    push_cast
    rw [show (180 : ℝ) * 2 = 360 by norm_num, ← hG, norm_eq, norm_eq]

/-! ### The property -/

theorem E76_sq (p q : Tristimulus ℝ) : 0 ≤ E76 p q ∧
    E76 p q ^ 2 = (q.a - p.a) ^ 2 + ((q.b - p.b) ^ 2 + (q.c - p.c) ^ 2) := by
  simp only [E76, sqrtf_real]
  refine ⟨Real.sqrt_nonneg _, ?_⟩
  rw [Real.sq_sqrt (add_nonneg (add_nonneg (mul_self_nonneg _) (mul_self_nonneg _)) (mul_self_nonneg _))]; ring

theorem quad_le {R x y z : ℝ} (hR : |R| ≤ 1.7322) : x * x + y * y + z * z + R * y * z ≤ x ^ 2 + 2 * (y ^ 2 + z ^ 2) := by
  rw [abs_le] at hR
  nlinarith [sq_nonneg (y - z), sq_nonneg (y + z)]

theorem quad_ge {R x y z : ℝ} (hR : |R| ≤ 1.7322) :
    x ^ 2 + 0.1339 * (y ^ 2 + z ^ 2) ≤ x * x + y * y + z * z + R * y * z := by
  rw [abs_le] at hR
  nlinarith [sq_nonneg (y - z), sq_nonneg (y + z)]

theorem hue_weight {a C T : ℝ} (ha : 0 ≤ a) (C0 : 0 ≤ C) (T0 : 0.07 ≤ T) :
    a + 2e-18 * C ≤ (a + 2e-15) * (1 + 0.015 * C * T) := by
  have h1 : 0.07 * C ≤ T * C := by gcongr
  have h2 : 0 ≤ a * (0.015 * C * T) := by positivity
  have h3 : (a + 2e-15) * (1 + 0.015 * C * T) = a + a * (0.015 * C * T) + 2e-15 + 3e-17 * (T * C) := by ring
  rw [h3]
  linarith

theorem stretch_le {G x y D : ℝ} (G0 : 0 ≤ G) (G1 : G ≤ 1 / 2) (h : D = x ^ 2 * (1 + G) ^ 2 + y ^ 2) :
    D ≤ 2.25 * (x ^ 2 + y ^ 2) := by
  have h1 : (1 + G) ^ 2 ≤ 2.25 := by nlinarith
  have h2 : x ^ 2 * (1 + G) ^ 2 ≤ x ^ 2 * 2.25 := by gcongr
  have := sq_nonneg y
  rw [h]; linarith

theorem stretch_ge {G x y D : ℝ} (G0 : 0 ≤ G) (h : D = x ^ 2 * (1 + G) ^ 2 + y ^ 2) : x ^ 2 + y ^ 2 ≤ D := by
  have h1 : 1 ≤ (1 + G) ^ 2 := by nlinarith
  have h2 : x ^ 2 * 1 ≤ x ^ 2 * (1 + G) ^ 2 := by gcongr
  rw [h]; linarith

theorem upper_arith {l d e c s a : ℝ} (hl : 0 ≤ l) (he : e ^ 2 = l + d) (e0 : 0 ≤ e) (hd : c + s ≤ 2.25 * d) (ha : a ≤ 1.5 * e) :
    l + 2 * (c + (s + 4e-15 * a + 4e-30)) ≤ 4.5369 * e ^ 2 + 4.26e-14 * e + 1e-28 := by
  rw [he]
  have : 0 ≤ l + d := by rw [← he]; positivity
  linarith

theorem lower_arith {l d e c s X Y Z E : ℝ} (he : e = l + d) (hd : d ≤ c + s) (v1 : l ≤ 3.0625 * X) (v2 : c ≤ 129.96 * Y)
    (v3 : s ≤ 59.1361 * Z ^ 2 + 7.2286e-15 * Z + 2.209e-31) (er : X + 0.1339 * (Y + Z ^ 2) ≤ E ^ 2) (w : 0.36 * Z ≤ E)
    (X0 : 0 ≤ X) (Y0 : 0 ≤ Y) (Z0 : 0 ≤ Z) : e ≤ 1024 * E ^ 2 + 64e-15 * E + 1e-30 := by
  have := sq_nonneg Z
  linarith

/-- C101: colours close in CIELAB are close in CIEDE2000: with weighting factors at least `k` the difference is at most
`2.13 / k` times the Euclidean one (but for the decimal of `π`). -/
theorem C101_upper (p q : Tristimulus ℝ) (k Kl Kc Kh : ℝ) (hk : 0 < k) (hl : k ≤ Kl) (hc : k ≤ Kc) (hh : k ≤ Kh) :
    k * E00 p q Kl Kc Kh ≤ 2.13 * E76 p q + 1e-14 := by
  obtain ⟨G, Sl, C, T, R, c, s, s0, ⟨G0, G1⟩, C0, ⟨T0, T1⟩, hR, S0, -, -, hs, hD, e⟩ := parts_sized p q Kl Kc Kh
  obtain ⟨d0, d1⟩ := E76_sq p q
  obtain ⟨r0, E0, r1⟩ := C46_defined p q Kl Kc Kh
  have er : radicand00 p q Kl Kc Kh ≤ ((q.a - p.a) / (Kl * Sl)) ^ 2 +
      2 * ((c / (Kc * (1 + 0.045 * C))) ^ 2 + (s / (Kh * (1 + 0.015 * C * T))) ^ 2) := by
    simp only [radicand00, e]; exact quad_le hR
  have shrink : ∀ {x K S : ℝ}, k ≤ K → 1 ≤ S → (k * (x / (K * S))) ^ 2 ≤ (x / S) ^ 2 := by
    intro x K S hK hS
    have e : k * (x / (K * S)) = (k / K) * (x / S) := by field_simp
    have h1 : k / K ≤ 1 := (div_le_one (by linarith)).2 hK
    have h0 : 0 ≤ k / K := div_nonneg hk.le (by linarith)
    rw [e, mul_pow]
    have : (k / K) ^ 2 ≤ 1 := pow_le_one₀ h0 h1
    nlinarith [sq_nonneg (x / S)]
  have one : ∀ {x S : ℝ}, 1 ≤ S → (x / S) ^ 2 ≤ x ^ 2 := by
    intro x S hS
    rw [div_pow]
    exact div_le_self (sq_nonneg _) (one_le_pow₀ hS)
  have u1 := (shrink (x := q.a - p.a) hl S0).trans (one S0)
  have hS : 1 ≤ 1 + 0.045 * C := by linarith
  have u2 := (shrink (x := c) hc hS).trans (one hS)
  have hT : 0 ≤ 0.015 * C * T := by positivity
  have u3 := shrink (x := s) hh (by linarith : 1 ≤ 1 + 0.015 * C * T)
  have s1 : |s| ≤ |s0| + 2e-18 * C := by
    have := abs_le_of_sq_le_sq hs (by positivity)
    linarith [(abs_le.1 this).2]
  have u4 : |s / (1 + 0.015 * C * T)| ≤ |s0| + 2e-15 := by
    rw [abs_div, abs_of_pos (by linarith : 0 < 1 + 0.015 * C * T), div_le_iff₀ (by linarith)]
    exact s1.trans (hue_weight (abs_nonneg _) C0 T0)
  have u5 : (s / (1 + 0.015 * C * T)) ^ 2 ≤ (|s0| + 2e-15) ^ 2 := by
    rw [← sq_abs (s / _)]; exact pow_le_pow_left₀ (abs_nonneg _) u4 2
  have hd : c ^ 2 + s0 ^ 2 ≤ 2.25 * ((q.b - p.b) ^ 2 + (q.c - p.c) ^ 2) := by
    refine stretch_le G0 G1 ?_
    rw [hD, ← sub_mul, mul_pow]
  have ha : |s0| ≤ 1.5 * E76 p q := by
    refine abs_le_of_sq_le_sq ?_ (by positivity)
    have h1 := sq_nonneg c
    have h2 := sq_nonneg (q.a - p.a)
    rw [mul_pow, d1]
    linarith
  refine le_of_sq_le_sq ?_ (by positivity)
  rw [mul_pow, r1]
  have er' := mul_le_mul_of_nonneg_left er (sq_nonneg k)
  refine er'.trans ?_
  simp only [mul_pow] at u1 u2 u3
  have hs2 : |s0| ^ 2 = s0 ^ 2 := sq_abs s0
  generalize ((q.a - p.a) / (Kl * Sl)) ^ 2 = A at *
  generalize (c / (Kc * (1 + 0.045 * C))) ^ 2 = B at *
  generalize (s / (Kh * (1 + 0.015 * C * T))) ^ 2 = D at *
  generalize (s / (1 + 0.015 * C * T)) ^ 2 = F at *
  generalize E76 p q = e at *
  generalize |s0| = a at *
  have f1 : k ^ 2 * (A + 2 * (B + D)) ≤ (q.a - p.a) ^ 2 + 2 * (c ^ 2 + (a + 2e-15) ^ 2) := by linarith
  refine f1.trans ?_
  have f2 : (a + 2e-15) ^ 2 = s0 ^ 2 + 4e-15 * a + 4e-30 := by rw [← hs2]; ring
  rw [f2]
  have f3 : (2.13 * e + 1e-14) ^ 2 = 4.5369 * e ^ 2 + 4.26e-14 * e + 1e-28 := by ring
  rw [f3]
  exact upper_arith (sq_nonneg _) d1 d0 hd ha

/-- C101: and conversely, in the usual range, colours close in CIEDE2000 are close in CIELAB. -/
theorem C101_lower (p q : Tristimulus ℝ) (k Kl Kc Kh : ℝ) (hl : 0 < Kl ∧ Kl ≤ k) (hc : 0 < Kc ∧ Kc ≤ k) (hh : 0 < Kh ∧ Kh ≤ k)
    (pL : 0 ≤ p.a ∧ p.a ≤ 100) (qL : 0 ≤ q.a ∧ q.a ≤ 100) (pa : |p.b| ≤ 128) (pb : |p.c| ≤ 128) (qa : |q.b| ≤ 128)
    (qb : |q.c| ≤ 128) : E76 p q ≤ 32 * (k * E00 p q Kl Kc Kh) + 1e-15 := by
  obtain ⟨G, Sl, C, T, R, c, s, s0, ⟨G0, G1⟩, C0, ⟨T0, T1⟩, hR, S0, hSl, hC, hs, hD, e⟩ := parts_sized p q Kl Kc Kh
  replace hSl := hSl pL qL
  replace hC := hC pa pb qa qb
  obtain ⟨d0, d1⟩ := E76_sq p q
  obtain ⟨r0, E0, r1⟩ := C46_defined p q Kl Kc Kh
  have er : ((q.a - p.a) / (Kl * Sl)) ^ 2 +
      0.1339 * ((c / (Kc * (1 + 0.045 * C))) ^ 2 + (s / (Kh * (1 + 0.015 * C * T))) ^ 2) ≤ radicand00 p q Kl Kc Kh := by
    simp only [radicand00, e]; exact quad_ge hR
  have k0 : 0 < k := hl.1.trans_le hl.2
  have grow : ∀ {x K S M : ℝ}, 0 < K → K ≤ k → 1 ≤ S → S ≤ M → |x| ≤ k * M * |x / (K * S)| := by
    intro x K S M h1 h2 h3 h4
    rw [abs_div, abs_of_pos (by positivity : 0 < K * S), ← mul_div_assoc, le_div_iff₀ (by positivity), mul_comm]
    gcongr
  have hT : 0 ≤ 0.015 * C * T := by positivity
  have hT' : 0.015 * C * T ≤ 0.015 * 231 * 1.93 := by gcongr
  have u1 := grow (x := q.a - p.a) hl.1 hl.2 S0 hSl
  have u2 := grow (x := c) hc.1 hc.2 (by linarith : 1 ≤ 1 + 0.045 * C) (by linarith : _ ≤ (11.4 : ℝ))
  have u3 := grow (x := s) hh.1 hh.2 (by linarith : 1 ≤ 1 + 0.015 * C * T) (by linarith : _ ≤ (7.69 : ℝ))
  have s1 : |s0| ≤ |s| + 4.7e-16 := by
    have := abs_le_of_sq_le_sq hs (by positivity)
    linarith [(abs_le.1 this).1]
  have hd : (q.b - p.b) ^ 2 + (q.c - p.c) ^ 2 ≤ c ^ 2 + s0 ^ 2 := by
    refine stretch_ge G0 ?_
    rw [hD, ← sub_mul, mul_pow]
  rw [← r1] at er
  rw [← sq_abs ((q.a - p.a) / _), ← sq_abs (c / _), ← sq_abs (s / _)] at er
  rw [← sq_abs (q.a - p.a)] at d1
  rw [← sq_abs c, ← sq_abs s0] at hd
  have x0 := abs_nonneg ((q.a - p.a) / (Kl * Sl))
  have y0 := abs_nonneg (c / (Kc * (1 + 0.045 * C)))
  have z0 := abs_nonneg (s / (Kh * (1 + 0.015 * C * T)))
  have a0 := abs_nonneg s0
  have c0 := abs_nonneg c
  have l0 := abs_nonneg (q.a - p.a)
  generalize |(q.a - p.a) / (Kl * Sl)| = X at *
  generalize |c / (Kc * (1 + 0.045 * C))| = Y at *
  generalize |s / (Kh * (1 + 0.015 * C * T))| = Z at *
  generalize E76 p q = e at *
  generalize E00 p q Kl Kc Kh = E at *
  generalize |s0| = a at *
  generalize |s| = b at *
  generalize |c| = c at *
  generalize |q.a - p.a| = l at *
  have kE : 0 ≤ k * E := by positivity
  refine le_of_sq_le_sq ?_ (by positivity)
  have v1 : l ^ 2 ≤ (k * 1.75 * X) ^ 2 := pow_le_pow_left₀ l0 u1 2
  have v2 : c ^ 2 ≤ (k * 11.4 * Y) ^ 2 := pow_le_pow_left₀ c0 u2 2
  have v3 : a ^ 2 ≤ (k * 7.69 * Z + 4.7e-16) ^ 2 := pow_le_pow_left₀ a0 (by linarith) 2
  have kX : 0 ≤ k * X := by positivity
  have kY : 0 ≤ k * Y := by positivity
  have kZ : 0 ≤ k * Z := by positivity
  have er' : (k * X) ^ 2 + 0.1339 * ((k * Y) ^ 2 + (k * Z) ^ 2) ≤ (k * E) ^ 2 := by
    have := mul_le_mul_of_nonneg_left er (sq_nonneg k)
    simp only [mul_pow]
    linarith
  rw [show k * 1.75 * X = 1.75 * (k * X) by ring] at v1
  rw [show k * 11.4 * Y = 11.4 * (k * Y) by ring] at v2
  rw [show k * 7.69 * Z = 7.69 * (k * Z) by ring] at v3
  generalize k * X = X' at *
  generalize k * Y = Y' at *
  generalize k * Z = Z' at *
  generalize k * E = E' at *
  have w : 0.36 * Z' ≤ E' := by
    refine le_of_sq_le_sq ?_ kE
    have h1 := sq_nonneg X'
    have h2 := sq_nonneg Y'
    have h3 := sq_nonneg Z'
    rw [mul_pow]
    linarith
  rw [d1]
  have f1 : (7.69 * Z' + 4.7e-16) ^ 2 = 59.1361 * Z' ^ 2 + 7.2286e-15 * Z' + 2.209e-31 := by ring
  have f2 : (32 * E' + 1e-15) ^ 2 = 1024 * E' ^ 2 + 64e-15 * E' + 1e-30 := by ring
  rw [f1] at v3
  rw [f2]
  exact lower_arith rfl hd (v1.trans (by rw [mul_pow]; norm_num)) (v2.trans (by rw [mul_pow]; norm_num)) v3 er' w (sq_nonneg X') (sq_nonneg Y') kZ

/-- Both theorems apply to ordinary colours with the default factors. -/
example : let p : Tristimulus ℝ := ⟨50, 20, -30⟩
    let q : Tristimulus ℝ := ⟨60, 25, -20⟩
    1 * E00 p q 1 1 1 ≤ 2.13 * E76 p q + 1e-14 ∧ E76 p q ≤ 32 * (1 * E00 p q 1 1 1) + 1e-15 :=
  ⟨C101_upper _ _ 1 1 1 1 one_pos le_rfl le_rfl le_rfl,
   C101_lower _ _ 1 1 1 1 ⟨one_pos, le_rfl⟩ ⟨one_pos, le_rfl⟩ ⟨one_pos, le_rfl⟩ (by norm_num) (by norm_num) (by norm_num [abs_le])
     (by norm_num [abs_le]) (by norm_num [abs_le]) (by norm_num [abs_le])⟩

end CS
