import Verif.Props.SRGBinHLG
import Verif.Props.ICtCpFloat
import Verif.Props.ImageSpaces

/-!
# C147: sRGB images carried as PQ video, in single precision

An sRGB image of up to 256 levels per channel is decoded, encoded as PQ (ST 2084, where light 1 is 100 cd/m²) and rounded to
codes of 12 bits or more; the receiver decodes the codes and encodes sRGB again.  Every pixel arrives.
-/

namespace CS
open F32 B32 OTF Spec HLGImg

namespace SRGBinPQ

/-- A root between numbers whose ratio is at most `1 + e`. -/
theorem root_rel {s t e : ℝ} (s0 : 0 < s) (h : s ≤ t) (h1 : t ≤ s * (1 + e)) :
    0 ≤ t ^ ((1 : ℝ) / 2.4) - s ^ ((1 : ℝ) / 2.4) ∧ t ^ ((1 : ℝ) / 2.4) - s ^ ((1 : ℝ) / 2.4) ≤ 1 / 2.4 * s ^ ((1 : ℝ) / 2.4) * e := by
  have a := rpow_concave s0 h (p := 1 / 2.4) (by norm_num) (by norm_num)
  have b := Real.rpow_le_rpow s0.le h (show (0 : ℝ) ≤ 1 / 2.4 by norm_num)
  have p0 := Real.rpow_nonneg s0.le ((1 : ℝ) / 2.4)
  refine ⟨by linarith, a.trans ?_⟩
  have c : (t - s) / s ≤ e := by rw [div_le_iff₀ s0]; linarith
  have d := mul_le_mul_of_nonneg_left c (mul_nonneg (by norm_num : (0 : ℝ) ≤ 1 / 2.4) p0)
  refine le_trans (le_of_eq ?_) d
  field_simp

/-- Bright light: 0.402 % is less than half a level of 256. -/
theorem srgb_bright {s t : ℝ} (s0 : 0.04 ≤ s) (h : s ≤ t) (h1 : t ≤ s * (1 + 0.00402)) (t1 : t ≤ 1) :
    |srgb t - srgb s| ≤ 0.00177 := by
  obtain ⟨a, b⟩ := root_rel (by linarith) h h1
  have c := Real.rpow_le_one (by linarith : (0 : ℝ) ≤ s) (h.trans t1) (show (0 : ℝ) ≤ 1 / 2.4 by norm_num)
  unfold srgb
  rw [if_neg (by linarith), if_neg (by linarith)]
  generalize t ^ ((1 : ℝ) / 2.4) = T at *
  generalize s ^ ((1 : ℝ) / 2.4) = S at *
  norm_num at b
  rw [abs_le]; constructor <;> linarith

/-- Dim light: 1.502 % is less than half a level of 256. -/
theorem srgb_dim {s t : ℝ} (s0 : 0 < s) (h : s ≤ t) (h1 : t ≤ s * (1 + 0.01502)) (s1 : s ≤ 0.0502) :
    |srgb t - srgb s| ≤ 0.00191 := by
  obtain ⟨k1, k2⟩ := srgb_pow_knee (x := 0.0031308) le_rfl (by norm_num)
  unfold srgb
  split_ifs with h2 h3 h3
  · rw [abs_le]; constructor <;> linarith
  · linarith
  · obtain ⟨a, b⟩ := root_rel (s := 0.0031308) (t := t) (e := 0.01502) (by norm_num) (not_lt.1 h2) (by linarith)
    have := not_lt.1 h2
    generalize t ^ ((1 : ℝ) / 2.4) = T at *
    generalize (0.0031308 : ℝ) ^ ((1 : ℝ) / 2.4) = S at *
    norm_num at b
    rw [abs_le]; constructor <;> linarith
  · obtain ⟨a, b⟩ := root_rel s0 h h1
    have c : s ^ ((1 : ℝ) / 2.4) ≤ 0.2877 := by
      have d := Real.rpow_le_rpow s0.le s1 (show (0 : ℝ) ≤ 1 / 2.4 by norm_num)
      have e := rpow_le_of_pow (x := 0.0502) (r := 0.2877) (p := 5) (q := 12) (by norm_num) (by norm_num) (by norm_num) (by norm_num)
      rw [show ((5 : ℕ) : ℝ) / ((12 : ℕ) : ℝ) = 1 / 2.4 by norm_num] at e
      exact d.trans e
    generalize t ^ ((1 : ℝ) / 2.4) = T at *
    generalize s ^ ((1 : ℝ) / 2.4) = S at *
    norm_num at b
    rw [abs_le]; constructor <;> linarith

theorem pow_lo {x x0 a : ℝ} (hx0 : 0 < x0) (h : x0 ≤ x) (x1 : x ≤ 1) (a0 : 0 ≤ a) (ha : a ^ 69 ≤ x0 ^ 11) :
    a ≤ x ^ (0.1593017578125 : ℝ) := by
  have l := le_rpow_of_pow (x := x) (r := a) (p := 11) (q := 69) (by linarith) a0 (by norm_num)
    (ha.trans (pow_le_pow_left₀ hx0.le h 11))
  exact l.trans (Real.rpow_le_rpow_of_exponent_ge (by linarith) x1 (by norm_num))

theorem pow_hi {x x1 a : ℝ} (x0 : 0 < x) (h : x ≤ x1) (h1 : x1 ≤ 1) (a0 : 0 ≤ a) (ha : x1 ^ 7 ≤ a ^ 44) :
    x ^ (0.1593017578125 : ℝ) ≤ a := by
  have l := rpow_le_of_pow (x := x) (r := a) (p := 7) (q := 44) x0.le a0 (by norm_num)
    ((pow_le_pow_left₀ x0.le h 7).trans ha)
  exact le_trans (Real.rpow_le_rpow_of_exponent_ge x0 (h.trans h1) (by norm_num)) l

/-- The first root of light larger by `e`. -/
theorem root_step {x y e : ℝ} (x0 : 0 < x) (e0 : 0 < e) (h : x * (1 + e) ≤ y) {r : ℝ} (hr : r ≤ (1 - (1 + e)⁻¹) * 0.1593017578125) :
    x ^ (0.1593017578125 : ℝ) * (1 + r) ≤ y ^ (0.1593017578125 : ℝ) := by
  have s : (x * (1 + e)) ^ (0.1593017578125 : ℝ) ≤ y ^ (0.1593017578125 : ℝ) := Real.rpow_le_rpow (by positivity) h (by norm_num)
  rw [Real.mul_rpow x0.le (by positivity)] at s
  refine le_trans (mul_le_mul_of_nonneg_left ?_ (Real.rpow_nonneg x0.le _)) s
  rw [Real.rpow_def_of_pos (by positivity)]
  have a := Real.add_one_le_exp (Real.log (1 + e) * 0.1593017578125)
  have l := Real.one_sub_inv_le_log_of_pos (show (0 : ℝ) < 1 + e by positivity)
  have m := mul_le_mul_of_nonneg_right l (show (0 : ℝ) ≤ 0.1593017578125 by norm_num)
  linarith

theorem pqN_mono {A B : ℝ} (h0 : 0 ≤ A) (h : A ≤ B) : pqN A ≤ pqN B := by
  have := pqN_sub (h0.trans h) h0
  have : 0 ≤ 3.22998046875 * (B - A) / ((1 + 18.6875 * B) * (1 + 18.6875 * A)) := by
    have : 0 ≤ B - A := by linarith
    have := h0.trans h
    positivity
  linarith

/-- Bernoulli's inequality for the last power of PQ. -/
theorem last_step {a b d : ℝ} (a0 : 0 ≤ a) (d0 : 0 ≤ d) (h : a * (1 + d) ≤ b) :
    a ^ (78.84375 : ℝ) * (1 + 78.84375 * d) ≤ b ^ (78.84375 : ℝ) := by
  have s := Real.rpow_le_rpow (mul_nonneg a0 (by linarith)) h (show (0 : ℝ) ≤ 78.84375 by norm_num)
  rw [Real.mul_rpow a0 (by linarith)] at s
  refine le_trans (mul_le_mul_of_nonneg_left ?_ (Real.rpow_nonneg a0 _)) s
  exact one_add_mul_self_le_rpow_one_add (by linarith) (by norm_num)

theorem last_lo {a n : ℝ} (n0 : 0 < n) (n1 : n ≤ 1) (h : n ≤ a) : n ^ 79 ≤ a ^ (78.84375 : ℝ) := by
  have a := Real.rpow_le_rpow n0.le h (show (0 : ℝ) ≤ 78.84375 by norm_num)
  refine le_trans ?_ a
  rw [← Real.rpow_natCast]
  exact Real.rpow_le_rpow_of_exponent_ge n0 n1 (by norm_num)

/-- Dim light: the signal and how fast it grows. -/
theorem pq_dim {x y : ℝ} (x0 : 2.95e-6 ≤ x) (x1 : x ≤ 5.01e-4) (h : x * (1 + 0.015) ≤ y) :
    0.035 ≤ pq x ∧ pq x * (1 + 4.17e-3) ≤ pq y := by
  have xp : 0 < x := by linarith
  rw [pq_pow xp.le, pq_pow (by linarith)]
  have A1 := pow_lo (a := 0.131) (by norm_num) x0 (by linarith) (by norm_num) (by norm_num)
  have A2 := pow_hi (a := 0.299) xp x1 (by norm_num) (by norm_num) (by norm_num)
  have B := root_step xp (by norm_num) h (r := 0.002354) (by norm_num)
  generalize x ^ (0.1593017578125 : ℝ) = A at *
  generalize y ^ (0.1593017578125 : ℝ) = C at *
  have n0 := pqN_lo (show 0 ≤ A by linarith)
  have n1 : 0.9586 ≤ pqN A := by
    refine le_trans ?_ (pqN_mono (by norm_num) A1)
    unfold pqN; norm_num
  constructor
  · exact le_trans (by norm_num) (last_lo (by norm_num) (by norm_num) n1)
  · have g : pqN A * (1 + 5.29e-5) ≤ pqN C := by
      refine le_trans ?_ (pqN_mono (by nlinarith) B)
      unfold pqN
      rw [div_mul_eq_mul_div, div_le_div_iff₀ (by linarith) (by linarith)]
      have k : 0 ≤ (A - 0.131) * (0.299 - A) := mul_nonneg (by linarith) (by linarith)
      nlinarith
    refine le_trans (mul_le_mul_of_nonneg_left ?_ (Real.rpow_nonneg (by linarith) _)) (last_step (by linarith) (by norm_num) g)
    norm_num

/-- Bright light: the signal and how fast it grows. -/
theorem pq_bright {x y : ℝ} (x0 : 4.9e-4 ≤ x) (x1 : x ≤ 0.0101) (h : x * (1 + 0.0038) ≤ y) :
    0.24 ≤ pq x ∧ pq x * (1 + 7.42e-4) ≤ pq y := by
  have xp : 0 < x := by linarith
  rw [pq_pow xp.le, pq_pow (by linarith)]
  have A1 := pow_lo (a := 0.296) (by norm_num) x0 (by linarith) (by norm_num) (by norm_num)
  have A2 := pow_hi (a := 0.482) xp x1 (by norm_num) (by norm_num) (by norm_num)
  have B := root_step xp (by norm_num) h (r := 0.000603) (by norm_num)
  generalize x ^ (0.1593017578125 : ℝ) = A at *
  generalize y ^ (0.1593017578125 : ℝ) = C at *
  have n0 := pqN_lo (show 0 ≤ A by linarith)
  have n1 : 0.9823 ≤ pqN A := by
    refine le_trans ?_ (pqN_mono (by norm_num) A1)
    unfold pqN; norm_num
  constructor
  · exact le_trans (by norm_num) (last_lo (by norm_num) (by norm_num) n1)
  · have g : pqN A * (1 + 9.42e-6) ≤ pqN C := by
      refine le_trans ?_ (pqN_mono (by nlinarith) B)
      unfold pqN
      rw [div_mul_eq_mul_div, div_le_div_iff₀ (by linarith) (by linarith)]
      have k : 0 ≤ (A - 0.296) * (0.482 - A) := mul_nonneg (by linarith) (by linarith)
      nlinarith
    refine le_trans (mul_le_mul_of_nonneg_left ?_ (Real.rpow_nonneg (by linarith) _)) (last_step (by linarith) (by norm_num) g)
    norm_num

/-- Close signals are signals of close light: dim. -/
theorem inv_dim {a b : ℝ} (a0 : 0 ≤ a) (b0 : 3.02e-6 ≤ b) (b1 : b ≤ 5.005e-4) (h : |pq a - pq b| ≤ 1.2233e-4 + 1.29e-4 * pq b) :
    a ≤ b * (1 + 0.015) ∧ b ≤ a * (1 + 0.015) := by
  obtain ⟨h1, h2⟩ := abs_le.1 h
  constructor
  · by_contra hh
    push Not at hh
    obtain ⟨p, q⟩ := pq_dim (by linarith) (by linarith) hh.le
    linarith
  · by_contra hh
    push Not at hh
    have m : a ≤ b / (1 + 0.015) := by rw [le_div_iff₀ (by norm_num)]; exact hh.le
    obtain ⟨p, q⟩ := pq_dim (x := b / (1 + 0.015)) (y := b) (by rw [le_div_iff₀ (by norm_num)]; linarith)
      (by rw [div_le_iff₀ (by norm_num)]; linarith) (by rw [div_mul_cancel₀ _ (by norm_num)])
    have := pq_mono a0 m
    linarith

/-- Close signals are signals of close light: bright. -/
theorem inv_bright {a b : ℝ} (a0 : 0 ≤ a) (b0 : 4.99e-4 ≤ b) (b1 : b ≤ 0.01005) (h : |pq a - pq b| ≤ 1.2233e-4 + 1.29e-4 * pq b) :
    a ≤ b * (1 + 0.0038) ∧ b ≤ a * (1 + 0.0038) := by
  obtain ⟨h1, h2⟩ := abs_le.1 h
  constructor
  · by_contra hh
    push Not at hh
    obtain ⟨p, q⟩ := pq_bright (by linarith) (by linarith) hh.le
    linarith
  · by_contra hh
    push Not at hh
    have m : a ≤ b / (1 + 0.0038) := by rw [le_div_iff₀ (by norm_num)]; exact hh.le
    obtain ⟨p, q⟩ := pq_bright (x := b / (1 + 0.0038)) (y := b) (by rw [le_div_iff₀ (by norm_num)]; linarith)
      (by rw [div_le_iff₀ (by norm_num)]; linarith) (by rw [div_mul_cancel₀ _ (by norm_num)])
    have := pq_mono a0 m
    linarith

/-- The light of a level other than black. -/
theorem light_lo {v : ℝ} (h : 0.00392 ≤ v) (h1 : v ≤ 1) : 3.034e-4 ≤ srgbInv v := by
  unfold srgbInv
  split_ifs with k
  · rw [le_div_iff₀ (by norm_num)]; norm_num at h ⊢; linarith
  · have k := not_lt.1 k
    have b0 : (0.09 : ℝ) ≤ (v + 0.055) / 1.055 := by rw [le_div_iff₀ (by norm_num)]; linarith
    have b1 : (v + 0.055) / 1.055 ≤ 1 := by rw [div_le_one (by norm_num)]; linarith
    have a : ((v + 0.055) / 1.055) ^ ((3 : ℕ) : ℝ) ≤ ((v + 0.055) / 1.055) ^ (2.4 : ℝ) :=
      Real.rpow_le_rpow_of_exponent_ge (by linarith) b1 (by norm_num)
    rw [Real.rpow_natCast] at a
    have b := pow_le_pow_left₀ (by norm_num) b0 3
    norm_num at b ⊢
    norm_num at a
    linarith

/-- The receiver's signal is close to the sender's: what that says of the light. -/
theorem light {l x y : ℝ} (l0 : 3.034e-4 ≤ l) (l1 : l ≤ 1) (hx : |x - l| ≤ 2e-6 * l + 1 / 2 ^ 149) (y0 : 0 ≤ y)
    (h : |pq (min (y / 100) 1) - pq (x / 100)| ≤ 1.2233e-4 + 1.29e-4 * pq (x / 100)) :
    (l ≤ 0.05 → y ≤ l * (1 + 0.01502) ∧ l ≤ y * (1 + 0.01502)) ∧ (0.05 ≤ l → y ≤ l * (1 + 0.00382) ∧ l ≤ y * (1 + 0.00382)) := by
  have t : (1 : ℝ) / 2 ^ 149 ≤ 1e-30 := by norm_num
  obtain ⟨x1, x2⟩ := abs_le.1 hx
  generalize (1 : ℝ) / 2 ^ 149 = tiny at *
  have a0 : 0 ≤ min (y / 100) 1 := le_min (by positivity) (by norm_num)
  constructor
  · intro hl
    obtain ⟨g1, g2⟩ := inv_dim a0 (by linarith) (by linarith) h
    have m : min (y / 100) 1 = y / 100 := by
      rcases min_choice (y / 100) 1 with e | e
      · exact e
      · rw [e] at g1; linarith
    rw [m] at g1 g2
    constructor <;> linarith
  · intro hl
    obtain ⟨g1, g2⟩ := inv_bright a0 (by linarith) (by linarith) h
    have m : min (y / 100) 1 = y / 100 := by
      rcases min_choice (y / 100) 1 with e | e
      · exact e
      · rw [e] at g1; linarith
    rw [m] at g1 g2
    constructor <;> linarith

theorem clamp_min {y : ℝ} (y0 : 0 ≤ y) : clampTo 0 1 y = min 1 y := by
  unfold clampTo
  rw [max_eq_right (le_min (by norm_num) y0)]

/-- What it says of the sRGB signal. -/
theorem received {l x y : ℝ} (l0 : 3.034e-4 ≤ l) (l1 : l ≤ 1) (hx : |x - l| ≤ 2e-6 * l + 1 / 2 ^ 149) (y0 : 0 ≤ y)
    (h : |pq (min (y / 100) 1) - pq (x / 100)| ≤ 1.2233e-4 + 1.29e-4 * pq (x / 100)) :
    |srgb (clampTo 0 1 y) - srgb l| ≤ 0.00191 := by
  obtain ⟨dim, bright⟩ := light l0 l1 hx y0 h
  rw [clamp_min y0]
  rcases le_total l 0.05 with hl | hl
  · obtain ⟨g1, g2⟩ := dim hl
    rw [min_eq_right (by linarith)]
    rcases le_total l y with k | k
    · exact srgb_dim (by linarith) k g1 (by linarith)
    · rw [abs_sub_comm]
      exact srgb_dim (by linarith) k g2 (by linarith)
  · obtain ⟨g1, g2⟩ := bright hl
    rcases le_total l y with k | k
    · refine (srgb_bright (by linarith) (le_min l1 k) ?_ (min_le_left _ _)).trans (by norm_num)
      exact (min_le_right _ _).trans (by linarith)
    · rw [abs_sub_comm, min_eq_right (by linarith)]
      exact (srgb_bright (by linarith) k (by linarith) l1).trans (by norm_num)

/-- The light of a signal of at least 0.03 is not tiny. -/
theorem inv_lo {v : ℝ} (h : 0.03 ≤ v) (h1 : v ≤ 1) : 1e-20 ≤ pqInv v := by
  unfold pqInv
  have u1 : v ^ (1 / ((2523 : ℝ) / 4096 * 128)) ≤ 1 := Real.rpow_le_one (by linarith) h1 (by norm_num)
  have u0 : 0.9 ≤ v ^ (1 / ((2523 : ℝ) / 4096 * 128)) := by
    have a := le_rpow_of_pow (x := v) (r := 0.9) (p := 1) (q := 78) (by linarith) (by norm_num) (by norm_num)
      (by rw [pow_one]; exact le_trans (by norm_num) h)
    exact a.trans (Real.rpow_le_rpow_of_exponent_ge (by linarith) h1 (by norm_num))
  generalize v ^ (1 / ((2523 : ℝ) / 4096 * 128)) = u at *
  have m : max (u - 3424 / 4096) 0 = u - 3424 / 4096 := max_eq_left (by norm_num at *; linarith)
  rw [m]
  have d0 : (0 : ℝ) < 2413 / 4096 * 32 - 2392 / 4096 * 32 * u := by linarith
  have b0 : (0.003 : ℝ) ≤ (u - 3424 / 4096) / (2413 / 4096 * 32 - 2392 / 4096 * 32 * u) := by
    rw [le_div_iff₀ d0]; norm_num at *; linarith
  have b1 : (u - 3424 / 4096) / (2413 / 4096 * 32 - 2392 / 4096 * 32 * u) ≤ 1 := by
    rw [div_le_one d0]; norm_num at *; linarith
  generalize (u - 3424 / 4096) / (2413 / 4096 * 32 - 2392 / 4096 * 32 * u) = w at *
  have a : w ^ ((7 : ℕ) : ℝ) ≤ w ^ (1 / ((2610 : ℝ) / 4096 / 4)) := Real.rpow_le_rpow_of_exponent_ge (by linarith) b1 (by norm_num)
  rw [Real.rpow_natCast] at a
  exact le_trans (by norm_num) ((pow_le_pow_left₀ (by norm_num) b0 7).trans a)

theorem sign_pos {x : F32} (h : 0 < x.val) : x.sign = false := by
  cases x with
  | num q _ => simp only [F32.val] at h; simp [F32.sign, h.le]
  | _ => simp [F32.val] at h

theorem zero_code {M : ℕ} (hM : 0 < M) (hM' : M ≤ 65535) : (Arith.ofInt ((0 : ℕ) : ℤ) / Arith.ofInt M : F32) = F32.zero false := by
  have z : (Arith.ofInt ((0 : ℕ) : ℤ) : F32) = F32.zero false := by
    rw [ofInt_def]; simp [pack_zero]
  have m : (Arith.ofInt (M : ℤ) : F32).isFinite = true ∧ (Arith.ofInt (M : ℤ) : F32).val = M := by
    have hr : Rep ((M : ℤ) : ℚ) := rep_int (n := M) (by rw [abs_of_nonneg (by positivity)]; omega)
    have hv := rnd_of_rep hr
    rw [ofInt_def]
    obtain ⟨f, v⟩ := pack_finite (s := false) (q := ((M : ℤ) : ℚ)) (by
      rw [hv, abs_of_nonneg (by positivity)]
      have : ((M : ℤ) : ℚ) ≤ 65535 := by exact_mod_cast hM'
      exact this.trans_lt (by norm_num))
    exact ⟨f, by rw [v, hv]; simp⟩
  have M0 : (0 : ℚ) < M := by exact_mod_cast hM
  have s := sign_pos (x := (Arith.ofInt (M : ℤ) : F32)) (by rw [m.2]; exact M0)
  rw [z, div_def, div_finite (show (F32.zero false).isFinite = true from rfl) m.1 (by rw [m.2]; exact M0.ne'), s]
  simp [F32.val, F32.sign, pack_zero]

theorem enc_zero (o : F32.Oracle) {x : F32} (hx : x.isFinite = true) (h : x.val = 0) :
    (@Y_to_ST2084 F32 (F32.libm o) x).val = 0 := by
  have e : x = F32.zero x.sign := ext_finite hx rfl (by rw [h]; rfl) rfl
  rw [e]
  unfold Y_to_ST2084
  have g : ∀ s, @Arith.le F32 F32.instArith (F32.zero s) (Arith.lit 0) = true := by decide +kernel
  exact (congrArg F32.val (if_pos (g _))).trans (congrArg F32.val lit_zero_eq)

/-- From light to light through nearest PQ codes. -/
theorem trip {o : F32.Oracle} (hp : o.PowAccurate (2 ^ (-22 : ℤ))) {M q : ℕ} (hM : 4095 ≤ M) (hM' : M ≤ 65535) {x : F32}
    (df : x.isFinite = true) (xb : 3.03e-4 ≤ (x.val : ℝ) ∧ (x.val : ℝ) ≤ 1.00001)
    (hq : |(@Y_to_ST2084 F32 (F32.libm o) x).val * M - q| ≤ 1 / 2) :
    (@ST2084_to_Y F32 (F32.libm o) (Arith.ofInt q / Arith.ofInt M)).isFinite = true ∧
    0 ≤ ((@ST2084_to_Y F32 (F32.libm o) (Arith.ofInt q / Arith.ofInt M)).val : ℝ) ∧
    |pq (min (((@ST2084_to_Y F32 (F32.libm o) (Arith.ofInt q / Arith.ofInt M)).val : ℝ) / 100) 1) - pq ((x.val : ℝ) / 100)| ≤
      1.2233e-4 + 1.29e-4 * pq ((x.val : ℝ) / 100) := by
  have M0 : 0 < M := by omega
  have Mp : (0 : ℝ) < M := by exact_mod_cast M0
  have s := C86_encode o hp x df (le_trans (by rw [zpow_neg]; norm_num) xb.1)
  rw [min_eq_left (by linarith)] at s
  have P0 : 0.035 ≤ pq ((x.val : ℝ) / 100) :=
    (pq_dim (x := 3e-6) (y := 4e-6) (by norm_num) (by norm_num) (by norm_num)).1.trans (pq_mono (by norm_num) (by linarith))
  have P1 := pq_lt (x := (x.val : ℝ) / 100) (by linarith) (by linarith)
  have se := s.err
  generalize (@Y_to_ST2084 F32 (F32.libm o) x).val = e at *
  generalize hP : pq ((x.val : ℝ) / 100) = P at *
  have hq' : |(e : ℝ) * M - q| ≤ 1 / 2 := by
    have := (Rat.cast_le (K := ℝ)).2 hq
    push_cast at this; exact this
  obtain ⟨s1, s2⟩ := abs_le.1 se
  obtain ⟨q1, q2⟩ := abs_le.1 hq'
  have M1 : (4095 : ℝ) ≤ M := by exact_mod_cast hM
  have hqM : q ≤ M := by
    have : (q : ℝ) ≤ M := by
      have : (e : ℝ) * M ≤ 0.9993 * M := mul_le_mul_of_nonneg_right (by linarith) Mp.le
      linarith
    exact_mod_cast this
  obtain ⟨w, w0, w1⟩ := code_ap M0 hM' hqM
  have near : |(e : ℝ) - ((Arith.ofInt q / Arith.ofInt M : F32).val : ℝ)| ≤ 1.2217e-4 := by
    have a : |(e : ℝ) - q / M| ≤ 1 / 8190 := by
      rw [show (e : ℝ) - q / M = (e * M - q) / M by field_simp, abs_div, abs_of_pos Mp, div_le_iff₀ Mp]
      linarith
    have we := w.err
    rw [abs_le] at a we ⊢
    norm_num at a
    constructor <;> linarith
  have wf := w.fin
  obtain ⟨n1, n2⟩ := abs_le.1 near
  clear w
  generalize (Arith.ofInt q / Arith.ofInt M : F32) = v at *
  have vr : (1 / 4096 : ℝ) ≤ v.val ∧ (v.val : ℝ) ≤ 1 := ⟨by norm_num; linarith, w1⟩
  have D := C86_decode o hp v wf vr
  have T := C86_decode_encode o hp v wf vr
  have I0 : 0 ≤ pqInv v.val := Real.rpow_nonneg (div_nonneg (le_max_right _ _) (by
    have : (v.val : ℝ) ^ (1 / ((2523 : ℝ) / 4096 * 128)) ≤ 1 := Real.rpow_le_one w0 w1 (by norm_num)
    linarith)) _
  have y0 : 0 ≤ ((@ST2084_to_Y F32 (F32.libm o) v).val : ℝ) := by
    have := (abs_le.1 D.err).1
    linarith
  have yl := (mul_le_mul_of_nonneg_left (inv_lo (by linarith) w1) (by norm_num : (0 : ℝ) ≤ 99))
  have Y := C86_encode o hp _ D.fin (h := by
    have := (abs_le.1 D.err).1
    refine le_trans (b := 1e-20) (by rw [zpow_neg]; norm_num) ?_
    linarith)
  have Te := T.err
  have Ye := Y.err
  have Df := D.fin
  have m0' : (0 : ℝ) ≤ min (((@ST2084_to_Y F32 (F32.libm o) v).val : ℝ) / 100) 1 := le_min (by positivity) (by norm_num)
  have Q0 : 0 ≤ pq (min (((@ST2084_to_Y F32 (F32.libm o) v).val : ℝ) / 100) 1) := by
    rw [pq_pow m0']
    exact Real.rpow_nonneg (by linarith [pqN_lo (Real.rpow_nonneg m0' (0.1593017578125 : ℝ))]) _
  refine ⟨Df, y0, ?_⟩
  generalize pq (min (((@ST2084_to_Y F32 (F32.libm o) v).val : ℝ) / 100) 1) = Q at *
  generalize (@Y_to_ST2084 F32 (F32.libm o) (@ST2084_to_Y F32 (F32.libm o) v)).val = E at *
  obtain ⟨a1, a2⟩ := abs_le.1 Te
  obtain ⟨b1, b2⟩ := abs_le.1 Ye
  rw [abs_le]; constructor <;> linarith

/-- One channel. -/
theorem channel {o : F32.Oracle} (hp : o.PowAccurate (2 ^ (-22 : ℤ)))
    (hz : ∀ y : F32, y.isFinite = true → 0 < y.val → o.powf (F32.zero false) y = F32.zero false)
    {N M k q : ℕ} (hN : 0 < N) (hN' : N ≤ 255) (hM : 4095 ≤ M) (hM' : M ≤ 65535) (hk : k ≤ N)
    (hq : |(@Y_to_ST2084 F32 (F32.libm o) (@sRGB_to_Y F32 (F32.libm o) (Arith.ofInt k / Arith.ofInt N))).val * M - q| ≤ 1 / 2) :
    (@Y_to_sRGB F32 (F32.libm o) (@ST2084_to_Y F32 (F32.libm o) (Arith.ofInt q / Arith.ofInt M))).isFinite = true ∧
    |(@Y_to_sRGB F32 (F32.libm o) (@ST2084_to_Y F32 (F32.libm o) (Arith.ofInt q / Arith.ofInt M))).val * N - k| < 1 / 2 := by
  obtain ⟨c, c0, c1⟩ := code_ap hN (hN'.trans (by norm_num)) hk
  have M0 : 0 < M := by omega
  have Mp : (0 : ℝ) < M := by exact_mod_cast M0
  have N1 : (N : ℝ) ≤ 255 := by exact_mod_cast hN'
  rcases Nat.eq_zero_or_pos k with rfl | k0
  · obtain ⟨f, e, -⟩ := code_val hN (hN'.trans (by norm_num)) (Nat.zero_le N)
    have d := C83_decode o hp _ f
    have v0 := decode_zero o f (by rw [e]; simp [rnd_zero])
    rw [enc_zero o d.fin v0] at hq
    have q0 : q = 0 := by
      have : (q : ℚ) ≤ 1 / 2 := by have := (abs_le.1 hq).1; linarith
      by_contra hh
      have : (1 : ℚ) ≤ q := by exact_mod_cast Nat.one_le_iff_ne_zero.2 hh
      linarith
    rw [q0, zero_code M0 hM', (C86_black o).2 hz]
    have z := C83_encode o hp (F32.zero false) rfl
    refine to_code (E := 1e-6) hN ⟨z.fin, ?_⟩ c ?_
    · have ze := z.err
      have : srgb (clampTo 0 1 (((F32.zero false).val : ℚ) : ℝ)) = 0 := by
        rw [clampTo_of_mem (by simp [F32.val])]
        unfold srgb
        rw [if_pos (by simp [F32.val]; norm_num)]
        simp [F32.val]
      rw [this] at ze
      have v : ((Arith.ofInt ((0 : ℕ) : ℤ) / Arith.ofInt N : F32).val : ℝ) = 0 := by rw [e]; simp [rnd_zero]
      rw [v]
      exact ze.trans (by norm_num)
    · nlinarith
  · have d := C83_decode o hp _ c.fin
    rw [clampTo_of_mem ⟨c0, c1⟩] at d
    obtain ⟨m0, m1⟩ := srgbInv_mem ⟨c0, c1⟩
    have lo : 3.034e-4 ≤ srgbInv ((Arith.ofInt k / Arith.ofInt N : F32).val : ℝ) := by
      refine light_lo ?_ c1
      have : (1 / 255 : ℝ) ≤ k / N := by
        rw [div_le_div_iff₀ (by norm_num) (by exact_mod_cast hN)]
        have b : (1 : ℝ) ≤ k := by exact_mod_cast k0
        nlinarith
      have := (abs_le.1 c.err).1
      norm_num at *
      linarith
    have r := srgb_srgbInv ⟨c0, c1⟩
    have df := d.fin
    have de := d.err
    generalize (@sRGB_to_Y F32 (F32.libm o) (Arith.ofInt k / Arith.ofInt N)) = x at *
    generalize srgbInv ((Arith.ofInt k / Arith.ofInt N : F32).val : ℝ) = l at *
    have t : (1 : ℝ) / 2 ^ 149 ≤ 1e-30 := by norm_num
    have xb : 3.03e-4 ≤ (x.val : ℝ) ∧ (x.val : ℝ) ≤ 1.00001 := by
      obtain ⟨a1, a2⟩ := abs_le.1 de
      generalize (1 : ℝ) / 2 ^ 149 = tiny at *
      constructor <;> linarith
    obtain ⟨Df, y0, near⟩ := trip hp hM hM' df xb hq
    have R := received lo m1 de y0 near
    generalize (@ST2084_to_Y F32 (F32.libm o) (Arith.ofInt q / Arith.ofInt M)) = y at *
    have z := C83_encode o hp _ Df
    refine to_code (E := 0.00192) hN ⟨z.fin, ?_⟩ c ?_
    · have ze := z.err
      generalize srgb (clampTo 0 1 (y.val : ℝ)) = A at *
      generalize srgb l = B at *
      obtain ⟨z1, z2⟩ := abs_le.1 ze
      obtain ⟨r1, r2⟩ := abs_le.1 r
      obtain ⟨l1, l2⟩ := abs_le.1 R
      rw [abs_le]; constructor <;> linarith
    · linarith

set_option exponentiation.threshold 3000 in
/-- The PQ signals of the brightest levels of sRGB. -/
theorem bright_range {x : ℝ} (h0 : 0.0075293 ≤ x) (h1 : x ≤ 0.01000003) : 0.47981 ≤ pq x ∧ pq x ≤ 0.50811 := by
  have xp : 0 < x := by linarith
  rw [pq_pow xp.le]
  have A1 : 0.458902 ≤ x ^ (0.1593017578125 : ℝ) := by
    have l := le_rpow_of_pow (x := x) (r := 0.458902) (p := 47) (q := 295) xp.le (by norm_num) (by norm_num)
      (le_trans (by norm_num) (pow_le_pow_left₀ (by norm_num) h0 47))
    exact l.trans (Real.rpow_le_rpow_of_exponent_ge xp (by linarith) (by norm_num))
  have A2 : x ^ (0.1593017578125 : ℝ) ≤ 0.4801934 := by
    have l := rpow_le_of_pow (x := x) (r := 0.4801934) (p := 18) (q := 113) xp.le (by norm_num) (by norm_num)
      ((pow_le_pow_left₀ xp.le h1 18).trans (by norm_num))
    exact le_trans (Real.rpow_le_rpow_of_exponent_ge xp (by linarith) (by norm_num)) l
  generalize x ^ (0.1593017578125 : ℝ) = A at *
  have n1 : 0.9907292 ≤ pqN A := by
    refine le_trans ?_ (pqN_mono (by norm_num) A1)
    unfold pqN; norm_num
  have n2 : pqN A ≤ 0.9914494 := by
    refine le_trans (pqN_mono (by linarith) A2) ?_
    unfold pqN; norm_num
  have e : (78.84375 : ℝ) = ((2523 : ℕ) : ℝ) / ((32 : ℕ) : ℝ) := by norm_num
  rw [e]
  constructor
  · exact le_rpow_of_pow (by linarith) (by norm_num) (by norm_num) (le_trans (by norm_num) (pow_le_pow_left₀ (by norm_num) n1 2523))
  · exact rpow_le_of_pow (by linarith) (by norm_num) (by norm_num) ((pow_le_pow_left₀ (by linarith) n2 2523).trans (by norm_num))

/-- The light of the brightest 31 of 256 levels. -/
theorem light_bright {v : ℝ} (h : 0.88235288 ≤ v) : 0.752938 ≤ srgbInv v := by
  unfold srgbInv
  rw [if_neg (by linarith)]
  have a := le_rpow_of_pow (x := (v + 0.055) / 1.055) (r := 0.752938) (p := 12) (q := 5) (div_nonneg (by linarith) (by norm_num)) (by norm_num)
    (by norm_num) (le_trans (b := (0.8884861 : ℝ) ^ 12) (by norm_num)
      (pow_le_pow_left₀ (by norm_num) (by rw [le_div_iff₀ (by norm_num)]; linarith) 12))
  rwa [show (((12 : ℕ) : ℝ) / ((5 : ℕ) : ℝ)) = 2.4 by norm_num] at a

/-- The signals of the brightest levels. -/
theorem bright_sent {o : F32.Oracle} (hp : o.PowAccurate (2 ^ (-22 : ℤ))) {k : ℕ} (h0 : 225 ≤ k) (h1 : k ≤ 255) :
    0.47979 ≤ ((@Y_to_ST2084 F32 (F32.libm o) (@sRGB_to_Y F32 (F32.libm o) (Arith.ofInt k / Arith.ofInt ((255 : ℕ) : ℤ)))).val : ℝ) ∧
    ((@Y_to_ST2084 F32 (F32.libm o) (@sRGB_to_Y F32 (F32.libm o) (Arith.ofInt k / Arith.ofInt ((255 : ℕ) : ℤ)))).val : ℝ) ≤ 0.508127 := by
  obtain ⟨c, c0, c1⟩ := code_ap (k := k) (N := 255) (by norm_num) (by norm_num) h1
  have d := C83_decode o hp _ c.fin
  rw [clampTo_of_mem ⟨c0, c1⟩] at d
  obtain ⟨-, m1⟩ := srgbInv_mem ⟨c0, c1⟩
  have lo := light_bright (v := ((Arith.ofInt k / Arith.ofInt ((255 : ℕ) : ℤ) : F32).val : ℝ)) (by
    have a := (abs_le.1 c.err).1
    have b : (225 : ℝ) ≤ k := by exact_mod_cast h0
    push_cast at a ⊢
    linarith)
  have df := d.fin
  have de := d.err
  generalize (@sRGB_to_Y F32 (F32.libm o) (Arith.ofInt k / Arith.ofInt ((255 : ℕ) : ℤ))) = x at *
  generalize srgbInv ((Arith.ofInt k / Arith.ofInt ((255 : ℕ) : ℤ) : F32).val : ℝ) = l at *
  have t : (1 : ℝ) / 2 ^ 149 ≤ 1e-30 := by norm_num
  obtain ⟨a1, a2⟩ := abs_le.1 de
  generalize (1 : ℝ) / 2 ^ 149 = tiny at *
  have s := C86_encode o hp x df (le_trans (b := 0.5) (by rw [zpow_neg]; norm_num) (by linarith))
  rw [min_eq_left (by linarith)] at s
  obtain ⟨p1, p2⟩ := bright_range (x := (x.val : ℝ) / 100) (by linarith) (by linarith)
  obtain ⟨s1, s2⟩ := abs_le.1 s.err
  constructor <;> linarith

/-- A scale of ten bits has 30 codes for the signals of the 31 brightest levels. -/
theorem few_codes {f : ℕ → F32} {M : ℕ} (hM : M ≤ 1023) {q : ℕ → ℕ}
    (bs : ∀ k, 225 ≤ k → k ≤ 255 → 0.47979 ≤ ((f k).val : ℝ) ∧ ((f k).val : ℝ) ≤ 0.508127)
    (h : ∀ k : ℕ, k ≤ 255 → |(f k).val * M - q k| ≤ 1 / 2) : ∃ i j, i < j ∧ j ≤ 255 ∧ q i = q j := by
  have M0 : (0 : ℝ) ≤ M := Nat.cast_nonneg M
  have M1 : (M : ℝ) ≤ 1023 := by exact_mod_cast hM
  have rng : ∀ k, 225 ≤ k → k ≤ 255 → 0.47979 * M - 1 / 2 ≤ (q k : ℝ) ∧ (q k : ℝ) ≤ 0.508127 * M + 1 / 2 := by
    intro k h0 h1
    obtain ⟨b1, b2⟩ := bs k h0 h1
    have h' := h k h1
    generalize (f k).val = e at *
    have hq' : |(e : ℝ) * M - q k| ≤ 1 / 2 := by
      have := (Rat.cast_le (K := ℝ)).2 h'
      push_cast at this; exact this
    obtain ⟨c1, c2⟩ := abs_le.1 hq'
    have := mul_le_mul_of_nonneg_right b1 M0
    have := mul_le_mul_of_nonneg_right b2 M0
    constructor <;> linarith
  obtain ⟨m, hm, least⟩ := (Finset.Icc 225 255).exists_min_image q ⟨225, by simp⟩
  have top : ∀ k ∈ Finset.Icc 225 255, q k ∈ Finset.Ico (q m) (q m + 30) := by
    intro k hk
    have lk := least k hk
    simp only [Finset.mem_Icc] at hk hm
    have a := (rng k hk.1 hk.2).2
    have b := (rng m hm.1 hm.2).1
    have : (q k : ℝ) < q m + 30 := by linarith
    have : q k < q m + 30 := by exact_mod_cast this
    simp only [Finset.mem_Ico]; omega
  obtain ⟨i, hi, j, hj, ne, e⟩ := Finset.exists_ne_map_eq_of_card_lt_of_maps_to (by simp) top
  simp only [Finset.mem_Icc] at hi hj
  rcases lt_or_gt_of_ne ne with l | l
  · exact ⟨i, j, l, hj.2, e⟩
  · exact ⟨j, i, l, hi.2, e.symm⟩

end SRGBinPQ

open SRGBinPQ SRGBinHLG

/-- C147: an sRGB pixel of up to 256 levels per channel, decoded, encoded as PQ, rounded to codes of 12 bits or more, decoded and
encoded as sRGB, has the codes it had.  The hypothesis on `powf(0, y)` is what ISO C, annex F requires; it is needed for black. -/
theorem C147_pq (o : F32.Oracle) (hp : o.PowAccurate (2 ^ (-22 : ℤ)))
    (hz : ∀ y : F32, y.isFinite = true → 0 < y.val → o.powf (F32.zero false) y = F32.zero false)
    (x : F32) (N M i j k a b c : ℕ) (hN : 0 < N) (hN' : N ≤ 255) (hM : 4095 ≤ M) (hM' : M ≤ 65535) (hi : i ≤ N) (hj : j ≤ N) (hk : k ≤ N) :
    letI := F32.libm o
    Rounds M a b c (toScreen .ST2084 (toScene .SRGB (pixel N i j k) x) x) →
    HasCodes N i j k (toScreen .SRGB (toScene .ST2084 (pixel M a b c) x) x) := by
  rintro ⟨ra, rb, rc⟩
  obtain ⟨a1, a2⟩ := SRGBinPQ.channel hp hz hN hN' hM hM' hi ra
  obtain ⟨b1, b2⟩ := SRGBinPQ.channel hp hz hN hN' hM hM' hj rb
  obtain ⟨c1, c2⟩ := SRGBinPQ.channel hp hz hN hN' hM hM' hk rc
  exact ⟨⟨a1, b1, c1⟩, a2, b2, c2⟩

/-- C147: codes to round to always exist. -/
theorem C147_codes (o : F32.Oracle) (hp : o.PowAccurate (2 ^ (-22 : ℤ))) (N M k : ℕ) (hN : 0 < N) (hN' : N ≤ 255) (hk : k ≤ N) :
    letI := F32.libm o
    ∃ q : ℕ, |(Y_to_ST2084 (sRGB_to_Y (Arith.ofInt k / Arith.ofInt N : F32))).val * M - q| ≤ 1 / 2 := by
  obtain ⟨f, e, -⟩ := code_val hN (hN'.trans (by norm_num)) hk
  have d := (C83_decode o hp _ f).fin
  have e0 : 0 ≤ (@Y_to_ST2084 F32 (F32.libm o) (@sRGB_to_Y F32 (F32.libm o) (Arith.ofInt k / Arith.ofInt N))).val := by
    rcases Nat.eq_zero_or_pos k with rfl | k0
    · exact (enc_zero o d (decode_zero o f (by rw [e]; simp [rnd_zero]))).ge
    · have l := (Rat.cast_le (K := ℝ)).2 (decode_pos o hp hN (hN'.trans (by norm_num)) hk k0)
      push_cast at l
      have s := C86_encode o hp _ d (le_trans (by rw [zpow_neg]; norm_num) l)
      have m : (0 : ℝ) ≤ min (((@sRGB_to_Y F32 (F32.libm o) (Arith.ofInt k / Arith.ofInt N)).val : ℝ) / 100) 1 :=
        le_min (by norm_num at l; linarith) (by norm_num)
      have P : 0 ≤ pq (min (((@sRGB_to_Y F32 (F32.libm o) (Arith.ofInt k / Arith.ofInt N)).val : ℝ) / 100) 1) := by
        rw [pq_pow m]
        exact Real.rpow_nonneg (by linarith [pqN_lo (Real.rpow_nonneg m (0.1593017578125 : ℝ))]) _
      have := (abs_le.1 s.err).1
      rw [← Rat.cast_le (K := ℝ)]
      push_cast
      linarith
  generalize (@Y_to_ST2084 F32 (F32.libm o) (@sRGB_to_Y F32 (F32.libm o) (Arith.ofInt k / Arith.ofInt N))).val = e at *
  have r := abs_sub_round (e * M)
  have rn : 0 ≤ round (e * M) := by
    rw [round_eq]
    exact Int.floor_nonneg.2 (add_nonneg (mul_nonneg e0 (Nat.cast_nonneg M)) (by norm_num))
  obtain ⟨q, hq⟩ := Int.eq_ofNat_of_zero_le rn
  refine ⟨q, ?_⟩
  rw [hq] at r
  exact_mod_cast r

/-- C147: ten bits are not enough: however the codes of a scale `0..M` with `M ≤ 1023` are rounded, two of the 256 levels of sRGB
get the same PQ code. -/
theorem C147_ten_bits (o : F32.Oracle) (hp : o.PowAccurate (2 ^ (-22 : ℤ))) (M : ℕ) (hM : M ≤ 1023) (q : ℕ → ℕ) :
    letI := F32.libm o
    (∀ k : ℕ, k ≤ 255 → |(Y_to_ST2084 (sRGB_to_Y (Arith.ofInt k / Arith.ofInt ((255 : ℕ) : ℤ) : F32))).val * M - q k| ≤ 1 / 2) →
    ∃ i j, i < j ∧ j ≤ 255 ∧ q i = q j := by
  intro h
  exact few_codes hM (fun k h0 h1 => bright_sent hp h0 h1) h

/-- The hypotheses are met together: an accurate `powf` that treats zero as annex F says. -/
theorem exists_annexF : ∃ o : F32.Oracle, o.PowAccurate (2 ^ (-22 : ℤ)) ∧
    ∀ y : F32, y.isFinite = true → 0 < y.val → o.powf (F32.zero false) y = F32.zero false := by
  obtain ⟨o, ho⟩ := exists_powAccurate
  refine ⟨{ o with powf := fun x y => if x.val = 0 ∧ 0 < y.val then F32.zero false else o.powf x y }, ?_, ?_⟩
  · intro x y hx hy h0 h1 h2
    simp only [h0.ne', false_and, if_false]
    exact ⟨(ho x y hx hy h0 h1 h2).1, (ho x y hx hy h0 h1 h2).2.trans (by gcongr <;> norm_num)⟩
  · intro y _ h
    exact if_pos ⟨rfl, h⟩

example : ∃ o : F32.Oracle, ∀ x : F32,
    letI := F32.libm o
    ∃ a b c, Rounds 4095 a b c (toScreen .ST2084 (toScene .SRGB (pixel 255 0 128 255) x) x) ∧
      HasCodes 255 0 128 255 (toScreen .SRGB (toScene .ST2084 (pixel 4095 a b c) x) x) := by
  obtain ⟨o, hp, hz⟩ := exists_annexF
  refine ⟨o, fun x => ?_⟩
  obtain ⟨a, ra⟩ := C147_codes o hp 255 4095 0 (by norm_num) (by norm_num) (by norm_num)
  obtain ⟨b, rb⟩ := C147_codes o hp 255 4095 128 (by norm_num) (by norm_num) (by norm_num)
  obtain ⟨c, rc⟩ := C147_codes o hp 255 4095 255 (by norm_num) (by norm_num) (by norm_num)
  exact ⟨a, b, c, ⟨ra, rb, rc⟩, C147_pq o hp hz x 255 4095 0 128 255 a b c (by norm_num) (by norm_num) (by norm_num) (by norm_num)
    (by norm_num) (by norm_num) (by norm_num) ⟨ra, rb, rc⟩⟩

end CS
