import Verif.Props.Warm
import Verif.Lemmas.PlanckGrid
import Mathlib.Analysis.SpecialFunctions.Exponential
import Mathlib.Analysis.Complex.ExponentialBounds

/-!
# C125: the approximations of the Planckian locus agree with the black-body spectra

`fromCT` and `fromPlanckianLocus` give chromaticities by fitted polynomials; `blackbody` with the CIE 1931 observer gives them
by Planck's law and the tables.  The two are compared for every temperature in the range of the fits.

At 481 temperatures the black-body chromaticity is enclosed by fixed-point arithmetic in the kernel; between them it is bounded by
the monotonicity of `x` and `Z/Y` (C124), and so is the fitted `x`.
-/

namespace CS
open Spectrum Tristimulus Warm

namespace Planckian

/-! ## Powers in fixed point -/

/-- The power of `q / 2^64` whose exponent has the given bits, times `2^64`, rounded down at every step. -/
noncomputable def pw (q : ℕ) (bits : List Bool) : ℕ :=
  List.rec (motive := fun _ => ℕ) 18446744073709551616 (fun b _ ih =>
    Bool.rec (Nat.div (Nat.pow ih 2) 18446744073709551616)
      (Nat.div (Nat.mul (Nat.div (Nat.pow ih 2) 18446744073709551616) q) 18446744073709551616) b) bits

/-- The exponent. -/
def val : List Bool → ℕ
  | [] => 0
  | b :: bs => 2 * val bs + b.toNat

theorem pw_nil (q : ℕ) : pw q [] = 2 ^ 64 := rfl
theorem pw_false (q : ℕ) (bs : List Bool) : pw q (false :: bs) = pw q bs ^ 2 / 2 ^ 64 := rfl
theorem pw_true (q : ℕ) (bs : List Bool) : pw q (true :: bs) = pw q bs ^ 2 / 2 ^ 64 * q / 2 ^ 64 := rfl

theorem floor_real (a b : ℕ) (hb : 0 < b) : ((a / b : ℕ) : ℝ) * b ≤ a ∧ (a : ℝ) < b * (((a / b : ℕ) : ℝ) + 1) := by
  constructor
  · exact_mod_cast Nat.div_mul_le_self a b
  · exact_mod_cast Nat.lt_mul_div_succ a hb

theorem step1 {A D h n a : ℝ} (hD : 0 < D) (hA : 1 ≤ A) (ha : a ≤ 1) (h0 : 0 ≤ h) (h1 : h ≤ A * D) (h2 : A * D * (1 - a) ≤ h)
    (n1 : n * D ≤ h ^ 2) (n2 : h ^ 2 < D * (n + 1)) : n ≤ A ^ 2 * D ∧ A ^ 2 * D * (1 - (2 * a + 1 / D)) ≤ n := by
  have hAD : 0 < A * D := by positivity
  constructor
  · have : h ^ 2 ≤ (A * D) ^ 2 := pow_le_pow_left₀ h0 h1 2
    have : n * D ≤ (A ^ 2 * D) * D := by nlinarith
    exact le_of_mul_le_mul_right this hD
  · have l0 : 0 ≤ A * D * (1 - a) := mul_nonneg hAD.le (by linarith)
    have l1 : (A * D * (1 - a)) ^ 2 ≤ h ^ 2 := pow_le_pow_left₀ l0 h2 2
    have l2 : (A * D) ^ 2 * (1 - 2 * a) ≤ (A * D * (1 - a)) ^ 2 := by
      have : 0 ≤ (A * D) ^ 2 * a ^ 2 := by positivity
      linarith [show (A * D * (1 - a)) ^ 2 = (A * D) ^ 2 * (1 - 2 * a) + (A * D) ^ 2 * a ^ 2 by ring]
    have l3 : D * (A ^ 2 * D * (1 - 2 * a)) ≤ D * (n + 1) := by
      have : (A * D) ^ 2 * (1 - 2 * a) = D * (A ^ 2 * D * (1 - 2 * a)) := by ring
      linarith
    have l4 := le_of_mul_le_mul_left l3 hD
    have l5 : A ^ 2 * D * (1 - (2 * a + 1 / D)) = A ^ 2 * D * (1 - 2 * a) - A ^ 2 := by field_simp; ring
    have l6 : 1 ≤ A ^ 2 := one_le_pow₀ hA
    rw [l5]; linarith

theorem step2 {F E D n q n' c : ℝ} (hD : 0 < D) (hD1 : 1 ≤ D) (hF : 1 ≤ F) (hE : 1 ≤ E) (c0 : 0 ≤ c) (c1 : c ≤ 1) (q0 : 0 ≤ q)
    (h1 : n ≤ F * D) (h2 : F * D * (1 - c) ≤ n) (q1 : q ≤ E * D) (q2 : E * D ≤ q + 1) (n1 : n' * D ≤ n * q) (n2 : n * q < D * (n' + 1)) :
    n' ≤ F * E * D ∧ F * E * D * (1 - (c + 2 / D)) ≤ n' := by
  have l0 : 0 ≤ F * D * (1 - c) := mul_nonneg (by positivity) (by linarith)
  constructor
  · have : n * q ≤ (F * D) * (E * D) := mul_le_mul h1 q1 q0 (by positivity)
    have : n' * D ≤ (F * E * D) * D := by nlinarith
    exact le_of_mul_le_mul_right this hD
  · have l1 : F * D * (1 - c) * (E * D - 1) ≤ n * q := by
      refine mul_le_mul h2 (by linarith) ?_ (l0.trans h2) |>.trans le_rfl
      linarith [one_le_mul_of_one_le_of_one_le hE hD1]
    have l2 : D * (F * E * D * (1 - c) - F * (1 - c)) ≤ D * (n' + 1) := by
      have : F * D * (1 - c) * (E * D - 1) = D * (F * E * D * (1 - c) - F * (1 - c)) := by ring
      linarith
    have l3 := le_of_mul_le_mul_left l2 hD
    have l4 : F * E * D * (1 - (c + 2 / D)) = F * E * D * (1 - c) - 2 * (F * E) := by field_simp; ring
    have l5 : F * (1 - c) ≤ F * E := by nlinarith [mul_nonneg (by linarith : 0 ≤ F) c0]
    have l6 : 1 ≤ F * E := one_le_mul_of_one_le_of_one_le hF hE
    rw [l4]; linarith

/-- The computed power is below the true one, by a relative error of at most `3 (2^n - 1) / 2^64`. -/
theorem pw_bounds {E : ℝ} (hE : 1 ≤ E) {q : ℕ} (q1 : (q : ℝ) ≤ E * 2 ^ 64) (q2 : E * 2 ^ 64 ≤ q + 1) (bs : List Bool) (hl : bs.length ≤ 9) :
    (pw q bs : ℝ) ≤ E ^ val bs * 2 ^ 64 ∧ E ^ val bs * 2 ^ 64 * (1 - 3 * (2 ^ bs.length - 1) / 2 ^ 64) ≤ pw q bs := by
  induction bs with
  | nil => rw [pw_nil]; norm_num [val]
  | cons b bs ih =>
    rw [List.length_cons] at hl
    obtain ⟨i1, i2⟩ := ih (by omega)
    have A1 : 1 ≤ E ^ val bs := one_le_pow₀ hE
    have p0 : (1 : ℝ) ≤ 2 ^ bs.length := one_le_pow₀ (by norm_num)
    have p1 : (2 : ℝ) ^ bs.length ≤ 2 ^ 8 := pow_le_pow_right₀ (by norm_num) (by omega)
    have a1 : 3 * ((2 : ℝ) ^ bs.length - 1) / 2 ^ 64 ≤ 1 := by rw [div_le_one (by positivity)]; norm_num at p1 ⊢; linarith
    have f1 := floor_real (pw q bs ^ 2) (2 ^ 64) (by norm_num)
    rw [show ((2 ^ 64 : ℕ) : ℝ) = 2 ^ 64 by norm_num, Nat.cast_pow] at f1
    have s1 := step1 (by positivity : (0 : ℝ) < 2 ^ 64) A1 a1 (Nat.cast_nonneg _) i1 i2 f1.1 f1.2
    have ev : (1 : ℝ) - (2 * (3 * (2 ^ bs.length - 1) / 2 ^ 64) + 1 / 2 ^ 64) = 1 - (6 * 2 ^ bs.length - 5) / 2 ^ 64 := by ring
    rw [ev] at s1
    rw [List.length_cons]
    cases b with
    | false =>
      rw [pw_false]
      have e : E ^ val (false :: bs) = (E ^ val bs) ^ 2 := by simp only [val, Bool.toNat_false, add_zero]; rw [mul_comm, pow_mul]
      rw [e]
      refine ⟨s1.1, le_trans ?_ s1.2⟩
      refine mul_le_mul_of_nonneg_left ?_ (by positivity)
      rw [pow_succ, sub_le_sub_iff_left, div_le_div_iff_of_pos_right (by positivity)]
      linarith
    | true =>
      rw [pw_true]
      have e : E ^ val (true :: bs) = (E ^ val bs) ^ 2 * E := by simp only [val, Bool.toNat_true]; rw [pow_succ, mul_comm 2, pow_mul]
      rw [e]
      have f2 := floor_real (pw q bs ^ 2 / 2 ^ 64 * q) (2 ^ 64) (by norm_num)
      have c0 : (0 : ℝ) ≤ (6 * 2 ^ bs.length - 5) / 2 ^ 64 := div_nonneg (by linarith) (by positivity)
      have c1 : ((6 : ℝ) * 2 ^ bs.length - 5) / 2 ^ 64 ≤ 1 := by rw [div_le_one (by positivity)]; norm_num at p1 ⊢; linarith
      rw [Nat.cast_mul (pw q bs ^ 2 / 2 ^ 64) q, show ((2 ^ 64 : ℕ) : ℝ) = 2 ^ 64 by norm_num] at f2
      have s2 := step2 (by positivity : (0 : ℝ) < 2 ^ 64) (one_le_pow₀ (by norm_num)) (one_le_pow₀ (n := 2) A1) hE c0 c1 (Nat.cast_nonneg q) s1.1 s1.2 q1 q2 f2.1 f2.2
      refine ⟨s2.1, le_trans ?_ s2.2⟩
      refine mul_le_mul_of_nonneg_left ?_ (by positivity)
      rw [pow_succ, sub_le_sub_iff_left, ← add_div, div_le_div_iff_of_pos_right (by positivity)]
      linarith

/-! ## Black-body weights -/

/-- The black-body weight at wavelength `l`, times `2^192`. -/
noncomputable def gg (q l : ℕ) (bits : List Bool) : ℕ :=
  Nat.div 115792089237316195423570985008687907853269984665640564039457584007913129639936
    (Nat.mul (Nat.pow l 5) (Nat.sub (pw q bits) 18446744073709551616))

theorem gg_eq (q l : ℕ) (bits : List Bool) : gg q l bits = 2 ^ 256 / (l ^ 5 * (pw q bits - 2 ^ 64)) := rfl

theorem weight_close {D A p L g γ : ℝ} (hD : D = 2 ^ 64) (hA : 2 ≤ A) (hA' : A ≤ 2 ^ 60) (hL : 1 ≤ L) (hL' : L ≤ 2 ^ 50)
    (hγ : γ * (L * (A - 1)) = 1) (p1 : p ≤ A * D) (p2 : A * D * (1 - 1 / 2 ^ 53) ≤ p)
    (g1 : g * (L * (p - D)) ≤ 2 ^ 256) (g2 : 2 ^ 256 < L * (p - D) * (g + 1)) : |g - 2 ^ 192 * γ| ≤ 2 ^ 192 * γ / 2 ^ 50 := by
  subst hD
  have hM : 0 < L * (A - 1) := mul_pos (by linarith) (by linarith)
  have γ0 : 0 < γ := by
    by_contra hc
    push Not at hc
    have := mul_nonpos_of_nonpos_of_nonneg hc hM.le
    linarith
  have hM2 : L * (A - 1) ≤ 2 ^ 110 := by
    calc L * (A - 1) ≤ 2 ^ 50 * 2 ^ 60 := mul_le_mul hL' (by linarith) (by linarith) (by positivity)
      _ = 2 ^ 110 := by norm_num
  have γ1 : 1 ≤ γ * 2 ^ 110 := by rw [← hγ]; exact mul_le_mul_of_nonneg_left hM2 γ0.le
  -- the denominator
  have d1 : p - 2 ^ 64 ≤ (A - 1) * 2 ^ 64 := by linarith
  have d2 : (A - 1) * 2 ^ 64 * (1 - 1 / 2 ^ 52) ≤ p - 2 ^ 64 := by
    refine le_trans ?_ (sub_le_sub_right p2 _)
    norm_num
    linarith
  have m1 : L * (p - 2 ^ 64) ≤ L * (A - 1) * 2 ^ 64 := by
    rw [mul_assoc]; exact mul_le_mul_of_nonneg_left d1 (by linarith)
  have m2 : L * (A - 1) * 2 ^ 64 * (1 - 1 / 2 ^ 52) ≤ L * (p - 2 ^ 64) := by
    have := mul_le_mul_of_nonneg_left d2 (by linarith : 0 ≤ L)
    linarith
  generalize L * (p - 2 ^ 64) = M at *
  generalize L * (A - 1) = K at *
  have M0 : 0 < M := lt_of_lt_of_le (by norm_num; exact hM) m2
  have gp : -1 < g := by
    by_contra hc
    push Not at hc
    have : M * (g + 1) ≤ 0 := mul_nonpos_of_nonneg_of_nonpos M0.le (by linarith)
    have : (0 : ℝ) < 2 ^ 256 := by positivity
    linarith
  have lo : 2 ^ 192 * γ ≤ g + 1 := by
    have h1 : (2 : ℝ) ^ 256 < K * 2 ^ 64 * (g + 1) := g2.trans_le (mul_le_mul_of_nonneg_right m1 (by linarith))
    have h2 : (2 : ℝ) ^ 192 < K * (g + 1) := by
      rw [show (2 : ℝ) ^ 256 = 2 ^ 192 * 2 ^ 64 by norm_num] at h1
      nlinarith
    have h3 : γ * 2 ^ 192 ≤ γ * (K * (g + 1)) := mul_le_mul_of_nonneg_left h2.le γ0.le
    rw [← mul_assoc, hγ] at h3
    linarith
  have hi : g * (1 - 1 / 2 ^ 52) ≤ 2 ^ 192 * γ := by
    rcases le_total g 0 with hg | hg
    · have : g * (1 - 1 / 2 ^ 52) ≤ 0 := mul_nonpos_of_nonpos_of_nonneg hg (by norm_num)
      have : 0 ≤ 2 ^ 192 * γ := by positivity
      linarith
    · have h1 : g * (K * 2 ^ 64 * (1 - 1 / 2 ^ 52)) ≤ 2 ^ 256 := (mul_le_mul_of_nonneg_left m2 hg).trans g1
      have h2 : g * (1 - 1 / 2 ^ 52) * K ≤ 2 ^ 192 := by
        rw [show (2 : ℝ) ^ 256 = 2 ^ 192 * 2 ^ 64 by norm_num] at h1
        have : g * (1 - 1 / 2 ^ 52) * K * 2 ^ 64 ≤ 2 ^ 192 * 2 ^ 64 := by linarith
        exact le_of_mul_le_mul_right this (by positivity)
      have h3 := mul_le_mul_of_nonneg_left h2 γ0.le
      have h4 : γ * (g * (1 - 1 / 2 ^ 52) * K) = g * (1 - 1 / 2 ^ 52) := by
        calc γ * (g * (1 - 1 / 2 ^ 52) * K) = (γ * K) * (g * (1 - 1 / 2 ^ 52)) := by ring
          _ = _ := by rw [hγ, one_mul]
      linarith
  have big : 2 ^ 82 ≤ 2 ^ 192 * γ := by
    have : (2 : ℝ) ^ 82 * 1 ≤ 2 ^ 82 * (γ * 2 ^ 110) := mul_le_mul_of_nonneg_left γ1 (by positivity)
    linarith [show (2 : ℝ) ^ 82 * (γ * 2 ^ 110) = 2 ^ 192 * γ by ring]
  generalize 2 ^ 192 * γ = G at *
  rw [abs_le]
  norm_num at *
  constructor <;> linarith

/-! ## The base exponentials -/

/-- The numerator of the Taylor polynomial of degree 15 at `A / (10^8 l)`. -/
def tnum (L : ℕ) : ℕ := ((List.range 16).map fun m => 2877553654 ^ m * L ^ (15 - m) * (Nat.factorial 15 / Nat.factorial m)).sum

/-- The check of one base. -/
def baseOK (q l : ℕ) : Bool :=
  decide (q * ((10 ^ 8 * l) ^ 15 * Nat.factorial 15) ≤ tnum (10 ^ 8 * l) * 2 ^ 64) &&
  decide ((tnum (10 ^ 8 * l) * (10 ^ 8 * l * 256) + 2877553654 ^ 16 * 17) * 2 ^ 64 ≤
    (q + 1) * ((10 ^ 8 * l) ^ 15 * Nat.factorial 15 * (10 ^ 8 * l * 256)))

theorem base_ok : ((List.range 400).all fun i => baseOK (base.getD i 0) (380 + i)) = true := by decide +kernel

theorem tnum_eq {L : ℕ} (hL : 0 < L) :
    (tnum L : ℝ) = (∑ m ∈ Finset.range 16, (2877553654 / L : ℝ) ^ m / (Nat.factorial m : ℝ)) * ((L : ℝ) ^ 15 * Nat.factorial 15) := by
  have : tnum L = ∑ m ∈ Finset.range 16, 2877553654 ^ m * L ^ (15 - m) * (Nat.factorial 15 / Nat.factorial m) := rfl
  have L0 : (0 : ℝ) < L := by exact_mod_cast hL
  rw [this, Nat.cast_sum, Finset.sum_mul]
  refine Finset.sum_congr rfl fun m hm => ?_
  have hm' : m ≤ 15 := by have := Finset.mem_range.1 hm; omega
  have e : (L : ℝ) ^ 15 = L ^ m * L ^ (15 - m) := by rw [← pow_add, Nat.add_sub_cancel' hm']
  have f : ((Nat.factorial m : ℕ) : ℝ) ≠ 0 := by exact_mod_cast (Nat.factorial_pos m).ne'
  rw [Nat.cast_mul, Nat.cast_mul, Nat.cast_pow, Nat.cast_pow, Nat.cast_div (Nat.factorial_dvd_factorial hm') f, e, div_pow]
  push_cast
  field_simp

/-- The remainder of the Taylor polynomial. -/
theorem rem16 {a L F : ℝ} (hL : 0 < L) (hF : 0 < F) :
    (a / L) ^ 16 * ((16 : ℕ) + 1) / ((16 * F) * (16 : ℕ)) = a ^ 16 * 17 / (L ^ 15 * F * (L * 256)) := by
  rw [div_pow]
  push_cast
  field_simp
  ring

theorem base_of {q L A P F t : ℕ} (hL : 0 < L) (hA : A ≤ L) (hF : F = Nat.factorial 15)
    (ht : (t : ℝ) = (∑ m ∈ Finset.range 16, ((A : ℝ) / L) ^ m / (Nat.factorial m : ℝ)) * ((L : ℝ) ^ 15 * F))
    (hP : P = 2 ^ 64) (h1 : q * (L ^ 15 * F) ≤ t * P) (h2 : (t * (L * 256) + A ^ 16 * 17) * P ≤ (q + 1) * (L ^ 15 * F * (L * 256))) :
    (q : ℝ) ≤ Real.exp (A / L) * P ∧ Real.exp (A / L) * P ≤ q + 1 := by
  have L0 : (0 : ℝ) < L := Nat.cast_pos.2 hL
  have F1 : (0 : ℝ) < F := Nat.cast_pos.2 (by rw [hF]; exact Nat.factorial_pos _)
  have h1' : (q : ℝ) * ((L : ℝ) ^ 15 * F) ≤ t * P := by
    have := Nat.cast_le (α := ℝ).2 h1
    simpa only [Nat.cast_mul, Nat.cast_pow] using this
  have h2' : ((t : ℝ) * (L * 256) + (A : ℝ) ^ 16 * 17) * P ≤ ((q : ℝ) + 1) * ((L : ℝ) ^ 15 * F * (L * 256)) := by
    have := Nat.cast_le (α := ℝ).2 h2
    simpa only [Nat.cast_mul, Nat.cast_pow, Nat.cast_add, Nat.cast_one, Nat.cast_ofNat] using this
  have r0 : (0 : ℝ) ≤ (A : ℝ) / L := by positivity
  have r1 : ((A : ℝ) / L) ≤ 1 := (div_le_one L0).2 (Nat.cast_le.2 hA)
  have t1 := Real.sum_le_exp_of_nonneg r0 16
  have t2 := Real.exp_bound' r0 r1 (n := 16) (by norm_num)
  have F0 : (0 : ℝ) < (L : ℝ) ^ 15 * F := by positivity
  rw [show Nat.factorial 16 = 16 * Nat.factorial 15 from Nat.factorial_succ 15, ← hF, Nat.cast_mul, show ((16 : ℕ) : ℝ) * (F : ℝ) = 16 * F by norm_num,
    rem16 L0 F1] at t2
  rw [ht] at h1' h2'
  have P0 : (0 : ℝ) < P := Nat.cast_pos.2 (by rw [hP]; positivity)
  generalize (∑ m ∈ Finset.range 16, ((A : ℝ) / L) ^ m / (Nat.factorial m : ℝ)) = s at *
  generalize (L : ℝ) ^ 15 * F = G at *
  generalize Real.exp ((A : ℝ) / L) = E at *
  constructor
  · have : (q : ℝ) * G ≤ (s * P) * G := by linarith
    exact (le_of_mul_le_mul_right this F0).trans (mul_le_mul_of_nonneg_right t1 P0.le)
  · have G0 : (0 : ℝ) < G * (L * 256) := by positivity
    have k1 : E * P ≤ (s + (A : ℝ) ^ 16 * 17 / (G * (L * 256))) * P := mul_le_mul_of_nonneg_right t2 P0.le
    have k2 : (s + (A : ℝ) ^ 16 * 17 / (G * (L * 256))) * P * (G * (L * 256)) ≤ ((q : ℝ) + 1) * (G * (L * 256)) := by
      have : (s + (A : ℝ) ^ 16 * 17 / (G * (L * 256))) * P * (G * (L * 256)) = (s * G * (L * 256) + (A : ℝ) ^ 16 * 17) * P := by
        field_simp
      rw [this]; exact h2'
    exact k1.trans (le_of_mul_le_mul_right k2 G0)

theorem base_bounds (i : Fin 400) :
    ((base.getD i 0 : ℕ) : ℝ) ≤ Real.exp (28.77553654 / nm i) * 2 ^ 64 ∧ Real.exp (28.77553654 / nm i) * 2 ^ 64 ≤ ((base.getD i 0 : ℕ) : ℝ) + 1 := by
  have h := List.all_eq_true.1 base_ok i.val (List.mem_range.2 i.2)
  simp only [baseOK, Bool.and_eq_true, decide_eq_true_eq] at h
  obtain ⟨h1, h2⟩ := h
  generalize base.getD i 0 = q at *
  obtain ⟨L, hLdef⟩ : ∃ L : ℕ, L = 10 ^ 8 * (380 + i.val) := ⟨_, rfl⟩
  rw [← hLdef] at h1 h2
  have hA : 2877553654 ≤ L := by
    rw [hLdef]; exact le_trans (by norm_num) (Nat.mul_le_mul_left (10 ^ 8) (Nat.le_add_right 380 i))
  have hr : (28.77553654 : ℝ) / nm i = ((2877553654 : ℕ) : ℝ) / L := by
    rw [hLdef, nm]; push_cast
    rw [show (2877553654 : ℝ) = 100000000 * 28.77553654 by norm_num, mul_div_mul_left _ _ (by norm_num)]
  have hL : 0 < L := lt_of_lt_of_le (by norm_num) hA
  have ht := tnum_eq hL
  rw [show (2877553654 : ℝ) = ((2877553654 : ℕ) : ℝ) by norm_num] at ht
  have := base_of hL hA rfl ht rfl h1 h2
  rw [show ((2 ^ 64 : ℕ) : ℝ) = 2 ^ 64 by norm_num] at this
  rwa [hr]

/-! ## The grid -/

/-- The temperature number `k`. -/
noncomputable def temp (k : ℕ) : ℝ := 500000 / k

/-- The black-body weight at temperature `temp k`, up to a constant. -/
noncomputable def gam (k : ℕ) (i : Fin 400) : ℝ := 1 / (nm i ^ 5 * (Real.exp (28.77553654 / nm i) ^ k - 1))

theorem nm_hi (i : Fin 400) : nm i ≤ 779 := by
  unfold nm
  have : (i.val : ℝ) ≤ 399 := by exact_mod_cast Nat.le_of_lt_succ i.2
  linarith

theorem bb_gam {k : ℕ} (hk : 0 < k) (i : Fin 400) : blackbody (temp k) i = c1 * gam k i := by
  have k0 : (0 : ℝ) < k := by exact_mod_cast hk
  have n0 : 0 < nm i := by linarith [nm_lo i]
  rw [bb_eq, gam, ← Real.exp_nat_mul, mul_one_div]
  have : c2 / (nm i * temp k) = k * (28.77553654 / nm i) := by
    unfold c2 temp; field_simp; norm_num
  rw [this]

theorem pow_range {k : ℕ} (h1 : 20 ≤ k) (h2 : k ≤ 500) (i : Fin 400) :
    2 ≤ Real.exp (28.77553654 / nm i) ^ k ∧ Real.exp (28.77553654 / nm i) ^ k ≤ 2 ^ 60 := by
  have n0 : 0 < nm i := by linarith [nm_lo i]
  have k1 : (20 : ℝ) ≤ k := by exact_mod_cast h1
  have k2 : (k : ℝ) ≤ 500 := by exact_mod_cast h2
  rw [← Real.exp_nat_mul]
  constructor
  · have lo : (0.738 : ℝ) ≤ k * (28.77553654 / nm i) := by
      rw [← mul_div_assoc, le_div_iff₀ n0]
      linarith [nm_hi i]
    have := Real.quadratic_le_exp_of_nonneg (show (0 : ℝ) ≤ 0.738 by norm_num)
    have := Real.exp_le_exp.2 lo
    linarith
  · have hi : (k : ℝ) * (28.77553654 / nm i) ≤ (38 : ℕ) * 1 := by
      rw [← mul_div_assoc, div_le_iff₀ n0]
      push_cast
      linarith [nm_lo i]
    refine (Real.exp_le_exp.2 hi).trans ?_
    rw [Real.exp_nat_mul]
    calc Real.exp 1 ^ 38 ≤ (2.72 : ℝ) ^ 38 := pow_le_pow_left₀ (Real.exp_pos _).le (by linarith [Real.exp_one_lt_d9]) _
      _ ≤ 2 ^ 60 := by norm_num

theorem gam_pos {k : ℕ} (h1 : 20 ≤ k) (h2 : k ≤ 500) (i : Fin 400) : 0 < gam k i := by
  have n0 : 0 < nm i := by linarith [nm_lo i]
  have := (pow_range h1 h2 i).1
  exact div_pos one_pos (mul_pos (by positivity) (by linarith))

/-- The computed weight. -/
noncomputable def wgt (bits : List Bool) (i : ℕ) : ℕ := gg (base.getD i 0) (380 + i) bits

theorem wgt_close {bits : List Bool} (hl : bits.length ≤ 9) (h1 : 20 ≤ val bits) (h2 : val bits ≤ 500) (i : Fin 400) :
    |(wgt bits i : ℝ) - 2 ^ 192 * gam (val bits) i| ≤ 2 ^ 192 * gam (val bits) i / 2 ^ 50 := by
  have n0 : 0 < nm i := by linarith [nm_lo i]
  obtain ⟨b1, b2⟩ := base_bounds i
  have E1 : 1 ≤ Real.exp (28.77553654 / nm i) := Real.one_le_exp (by positivity)
  obtain ⟨p1, p2⟩ := pw_bounds E1 b1 b2 bits hl
  obtain ⟨r1, r2⟩ := pow_range h1 h2 i
  have r3 : 0 < Real.exp (28.77553654 / nm i) ^ val bits - 1 := by linarith
  have len : (2 : ℝ) ^ bits.length ≤ 2 ^ 9 := pow_le_pow_right₀ (by norm_num) hl
  have p3 : Real.exp (28.77553654 / nm i) ^ val bits * 2 ^ 64 * (1 - 1 / 2 ^ 53) ≤ pw (base.getD i 0) bits := by
    refine le_trans (mul_le_mul_of_nonneg_left ?_ (by positivity)) p2
    rw [sub_le_sub_iff_left, div_le_div_iff₀ (by positivity) (by positivity)]
    norm_num at len ⊢
    linarith
  have big : 2 ^ 64 ≤ pw (base.getD i 0) bits := by
    have : ((2 ^ 64 : ℕ) : ℝ) ≤ pw (base.getD i 0) bits := by
      refine le_trans ?_ p3
      push_cast
      norm_num
      linarith
    exact_mod_cast this
  have lam : ((380 + i.val : ℕ) : ℝ) = nm i := by rw [nm]; push_cast; rfl
  have pos : 0 < (380 + i.val) ^ 5 * (pw (base.getD i 0) bits - 2 ^ 64) := by
    have : (2 ^ 64 : ℝ) < pw (base.getD i 0) bits := by
      refine lt_of_lt_of_le ?_ p3
      norm_num
      linarith
    have : 2 ^ 64 < pw (base.getD i 0) bits := by exact_mod_cast this
    exact Nat.mul_pos (by positivity) (by omega)
  have f := floor_real (2 ^ 256) _ pos
  have cast : (((380 + i.val) ^ 5 * (pw (base.getD i 0) bits - 2 ^ 64) : ℕ) : ℝ) = nm i ^ 5 * ((pw (base.getD i 0) bits : ℝ) - 2 ^ 64) := by
    rw [Nat.cast_mul, Nat.cast_pow, lam, Nat.cast_sub big, show ((2 ^ 64 : ℕ) : ℝ) = 2 ^ 64 by norm_num]
  rw [cast, ← gg_eq, show ((2 ^ 256 : ℕ) : ℝ) = 2 ^ 256 by norm_num] at f
  have L1 : 1 ≤ nm i ^ 5 := one_le_pow₀ (by linarith [nm_lo i])
  have L2 : nm i ^ 5 ≤ 2 ^ 50 := (pow_le_pow_left₀ n0.le (nm_hi i) 5).trans (by norm_num)
  refine weight_close rfl r1 r2 L1 L2 ?_ p1 p3 f.1 f.2
  unfold gam
  field_simp

theorem wt_close {P : ℕ → ℕ} {G : ℕ → ℕ} {γ : Fin 400 → ℝ} {κ : ℝ} (h : ∀ i : Fin 400, |(G i : ℝ) - κ * γ i| ≤ κ * γ i / 2 ^ 50) :
    |(wn P G : ℝ) - κ * wt P γ| ≤ κ * wt P γ / 2 ^ 50 := by
  rw [← wt_wn]
  unfold wt
  rw [Finset.mul_sum, ← Finset.sum_sub_distrib, Finset.sum_div]
  refine (Finset.abs_sum_le_sum_abs _ _).trans (Finset.sum_le_sum fun i _ => ?_)
  have e : (G i : ℝ) * P i - κ * (γ i * P i) = ((G i : ℝ) - κ * γ i) * P i := by ring
  rw [e, abs_mul, abs_of_nonneg (Nat.cast_nonneg (α := ℝ) (P i))]
  have := mul_le_mul_of_nonneg_right (h i) (Nat.cast_nonneg (α := ℝ) (P i))
  linarith [show κ * γ i / 2 ^ 50 * (P i : ℝ) = κ * (γ i * P i) / 2 ^ 50 by ring]

theorem ratio_pure {p s a b x : ℝ} (hs : 0 < s) (_hp : 0 ≤ p) (h1 : |a - p| ≤ p / 2 ^ 50) (h2 : |b - s| ≤ s / 2 ^ 50)
    (x0 : 1 ≤ x) (x1 : x ≤ 10 ^ 8) (c1 : (x - 1) * b ≤ 10 ^ 6 * a) (c2 : 10 ^ 6 * a ≤ (x + 1) * b) : |p / s - x / 10 ^ 6| ≤ 2 / 10 ^ 6 := by
  rw [abs_le] at h1 h2
  have e1 : (x - 1) * (s * (1 - 1 / 2 ^ 50)) ≤ (x - 1) * b := mul_le_mul_of_nonneg_left (by linarith [h2.1]) (by linarith)
  have e2 : (x + 1) * b ≤ (x + 1) * (s * (1 + 1 / 2 ^ 50)) := mul_le_mul_of_nonneg_left (by linarith [h2.2]) (by linarith)
  have xs : x * s ≤ 10 ^ 8 * s := mul_le_mul_of_nonneg_right x1 hs.le
  have xs0 : 1 * s ≤ x * s := mul_le_mul_of_nonneg_right x0 hs.le
  have f1 : (x - 2) * s ≤ 10 ^ 6 * p := by
    have a1 : (x - 1) * (s * (1 - 1 / 2 ^ 50)) ≤ 10 ^ 6 * (p + p / 2 ^ 50) := by linarith [h1.2]
    by_contra hc
    push Not at hc
    have : 10 ^ 6 * (p + p / 2 ^ 50) ≤ (x - 2) * s * (1 + 1 / 2 ^ 50) := by norm_num at hc ⊢; linarith
    norm_num at *
    linarith
  have f2 : 10 ^ 6 * p ≤ (x + 2) * s := by
    have a1 : 10 ^ 6 * (p - p / 2 ^ 50) ≤ (x + 1) * (s * (1 + 1 / 2 ^ 50)) := by linarith [h1.1]
    by_contra hc
    push Not at hc
    have : (x + 2) * s * (1 - 1 / 2 ^ 50) ≤ 10 ^ 6 * (p - p / 2 ^ 50) := by norm_num at hc ⊢; linarith
    norm_num at *
    linarith
  rw [abs_le]
  constructor
  · rw [neg_le_sub_iff_le_add, ← sub_le_iff_le_add, ← sub_div, div_le_div_iff₀ (by positivity) hs]
    linarith
  · rw [sub_le_iff_le_add, ← add_div, div_le_div_iff₀ hs (by positivity)]
    linarith

theorem wt_bb (P : ℕ → ℕ) {k : ℕ} (hk : 0 < k) : wt P (blackbody (temp k)) = c1 * wt P (gam k) := by
  unfold wt
  rw [Finset.mul_sum]
  exact Finset.sum_congr rfl fun i _ => by rw [bb_gam hk]; ring

/-- A ratio of the black body, from the integer sums. -/
theorem ratio_near {P Q : ℕ → ℕ} {bits : List Bool} (hl : bits.length ≤ 9) (h1 : 20 ≤ val bits) (h2 : val bits ≤ 500)
    (hq : 0 < wt Q (gam (val bits))) {x : ℕ} (x0 : 1 ≤ x) (x1 : x ≤ 10 ^ 8)
    (a1 : (x - 1) * wn Q (wgt bits) ≤ 10 ^ 6 * wn P (wgt bits)) (a2 : 10 ^ 6 * wn P (wgt bits) ≤ (x + 1) * wn Q (wgt bits)) :
    |wt P (blackbody (temp (val bits))) / wt Q (blackbody (temp (val bits))) - x / 10 ^ 6| ≤ 2 / 10 ^ 6 := by
  rw [wt_bb _ (by omega), wt_bb _ (by omega), mul_div_mul_left _ _ c1_pos.ne', ← mul_div_mul_left _ _ (by positivity : (2 : ℝ) ^ 192 ≠ 0)]
  have p0 : 0 ≤ wt P (gam (val bits)) := Finset.sum_nonneg fun i _ => mul_nonneg (gam_pos h1 h2 i).le (Nat.cast_nonneg _)
  refine ratio_pure (mul_pos (by positivity) hq) (mul_nonneg (by positivity) p0) (wt_close (wgt_close hl h1 h2)) (wt_close (wgt_close hl h1 h2))
    (by exact_mod_cast x0) (by exact_mod_cast x1) ?_ ?_
  · have : (((x - 1 : ℕ) : ℝ)) * wn Q (wgt bits) ≤ 10 ^ 6 * wn P (wgt bits) := by exact_mod_cast a1
    rwa [Nat.cast_sub x0, Nat.cast_one] at this
  · exact_mod_cast a2

/-! ## The sums in the kernel -/

/-- A weighted sum. -/
noncomputable def sm (bits : List Bool) (rows : List (ℕ × ℕ × ℕ)) : ℕ :=
  List.rec (motive := fun _ => ℕ) 0 (fun r _ ih => Nat.add (Nat.mul (gg r.1 r.2.1 bits) r.2.2) ih) rows

theorem sm_map (bits : List Bool) (rows : List (ℕ × ℕ × ℕ)) : sm bits rows = (rows.map fun r => gg r.1 r.2.1 bits * r.2.2).sum := by
  induction rows with
  | nil => rfl
  | cons r rs ih => rw [List.map_cons, List.sum_cons, ← ih]; rfl

/-- Base, wavelength and table entry. -/
def rows (m : List ℕ) : List (ℕ × ℕ × ℕ) := base.zip ((List.range' 380 400).zip m)

theorem base_length : base.length = 400 := by decide +kernel

theorem sm_rows (t : Data.Table) (bits : List Bool) : sm bits (rows t.m) = wn (ent t 1) (wgt bits) := by
  have e : rows t.m = (List.range 400).map fun i => (base.getD i 0, 380 + i, t.m.getD i 0) := by
    refine List.ext_getElem (by simp [rows, base_length, t.len]) fun i h1 h2 => ?_
    have hi : i < 400 := by simpa using h2
    simp only [rows, List.getElem_zip, List.getElem_range', List.getElem_map, List.getElem_range, one_mul]
    rw [List.getD_eq_getElem _ _ (by rw [base_length]; exact hi), List.getD_eq_getElem _ _ (by rw [t.len]; exact hi)]
  rw [sm_map, e, List.map_map, wn]
  refine congrArg List.sum (List.map_congr_left fun i _ => ?_)
  simp only [Function.comp, wgt, ent, mul_one]

/-- The check at one temperature, given the three sums. -/
def chk (t : Tables) (X Y Z x z : ℕ) : Bool :=
  Nat.ble ((x - 1) * (t.b * t.c * X + t.a * t.c * Y + t.a * t.b * Z)) (10 ^ 6 * (t.b * t.c * X)) &&
  Nat.ble (10 ^ 6 * (t.b * t.c * X)) ((x + 1) * (t.b * t.c * X + t.a * t.c * Y + t.a * t.b * Z)) &&
  Nat.ble ((z - 1) * (t.c * Y)) (10 ^ 6 * (t.b * Z)) && Nat.ble (10 ^ 6 * (t.b * Z)) ((z + 1) * (t.c * Y)) &&
  Nat.ble 1 x && Nat.ble x (10 ^ 8) && Nat.ble 1 z && Nat.ble z (10 ^ 8)

/-- The check of an entry of the grid. -/
noncomputable def entry (e : List Bool × ℕ × ℕ) : Bool :=
  chk cie1931 (sm e.1 (rows cie1931.X.m)) (sm e.1 (rows cie1931.Y.m)) (sm e.1 (rows cie1931.Z.m)) e.2.1 e.2.2

theorem grid_ok : (grid.all entry) = true := by decide +kernel

theorem grid_vals : (grid.map fun e => val e.1) = List.range' 20 481 := by decide +kernel
theorem grid_bits : (grid.all fun e => decide (e.1.length ≤ 9)) = true := by decide +kernel

/-- `x` at temperature `k`, times 10^6. -/
def xh (k : ℕ) : ℕ := (grid.getD (k - 20) ([], 0, 0)).2.1
/-- `Z/Y` at temperature `k`, times 10^6. -/
def zh (k : ℕ) : ℕ := (grid.getD (k - 20) ([], 0, 0)).2.2

/-- `x` of the black body. -/
noncomputable def xb (T : ℝ) : ℝ := wt cie1931.P (blackbody T) / wt cie1931.S (blackbody T)
/-- `Z/Y` of the black body. -/
noncomputable def zb (T : ℝ) : ℝ := wt (ent cie1931.Z cie1931.b) (blackbody T) / wt (ent cie1931.Y cie1931.c) (blackbody T)

theorem S_pos {b : Fin 400 → ℝ} (hb : ∀ i, 0 < b i) : 0 < wt cie1931.S b := wt_pos (x_shape (t := cie1931) (by simp [three])) hb
theorem Z_pos {b : Fin 400 → ℝ} (hb : ∀ i, 0 < b i) : 0 < wt (ent cie1931.Z cie1931.b) b :=
  wt_pos (yz_shape (t := cie1931) (by simp [three])) hb

theorem Y_pos' {Y : Fin 400 → ℕ} {b : Fin 400 → ℝ} (hb : ∀ i, 0 < b i) (k : Fin 400) (h : 0 < Y k) : 0 < ∑ i, b i * (Y i : ℝ) :=
  Finset.sum_pos' (fun i _ => mul_nonneg (hb i).le (Nat.cast_nonneg _)) ⟨k, Finset.mem_univ _, mul_pos (hb _) (Nat.cast_pos.2 h)⟩
theorem y100 : Nat.ble 1 (ent cie1931.Y cie1931.c 100) = true := by decide +kernel
theorem Y_pos {b : Fin 400 → ℝ} (hb : ∀ i, 0 < b i) : 0 < wt (ent cie1931.Y cie1931.c) b := by
  have h := Nat.le_of_ble_eq_true y100
  unfold wt
  exact Y_pos' (Y := fun i => ent cie1931.Y cie1931.c i) hb 100 h

theorem at_grid {k : ℕ} (h1 : 20 ≤ k) (h2 : k ≤ 500) :
    |xb (temp k) - xh k / 10 ^ 6| ≤ 2 / 10 ^ 6 ∧ |zb (temp k) - zh k / 10 ^ 6| ≤ 2 / 10 ^ 6 := by
  have len : grid.length = 481 := by
    have := congrArg List.length grid_vals
    simpa using this
  have hi : k - 20 < grid.length := by rw [len]; omega
  have v : val grid[k - 20].1 = k := by
    have e : (grid.map fun e => val e.1)[k - 20]'(by simpa using hi) = (List.range' 20 481)[k - 20]'(by simp; omega) := by
      simp only [grid_vals]
    rw [List.getElem_map, List.getElem_range'] at e
    rw [e]; omega
  have g := List.all_eq_true.1 grid_ok _ (List.getElem_mem hi)
  have b := List.all_eq_true.1 grid_bits _ (List.getElem_mem hi)
  rw [decide_eq_true_eq] at b
  have ex : xh k = grid[k - 20].2.1 := by rw [xh, List.getD_eq_getElem _ _ hi]
  have ez : zh k = grid[k - 20].2.2 := by rw [zh, List.getD_eq_getElem _ _ hi]
  generalize grid[k - 20] = e at *
  obtain ⟨bits, x, z⟩ := e
  simp only at v b ex ez
  simp only [entry, sm_rows, chk, Bool.and_eq_true, Nat.ble_eq] at g
  obtain ⟨⟨⟨⟨⟨⟨⟨g1, g2⟩, g3⟩, g4⟩, g5⟩, g6⟩, g7⟩, g8⟩ := g
  subst v
  rw [ex, ez]
  have gp : ∀ i, 0 < gam (val bits) i := gam_pos h1 h2
  constructor
  · refine ratio_near b h1 h2 (S_pos gp) g5 g6 ?_ ?_
    · rw [wn_S, Tables.P, wn_ent cie1931.X (cie1931.b * cie1931.c)]; exact g1
    · rw [wn_S, Tables.P, wn_ent cie1931.X (cie1931.b * cie1931.c)]; exact g2
  · refine ratio_near b h1 h2 (Y_pos gp) g7 g8 ?_ ?_
    · rw [wn_ent cie1931.Y cie1931.c, wn_ent cie1931.Z cie1931.b]; exact g3
    · rw [wn_ent cie1931.Y cie1931.c, wn_ent cie1931.Z cie1931.b]; exact g4

/-! ## Between the grid temperatures -/

theorem obs_eq : (CIE1931 : Observer ℝ) = cie1931.obs := rfl

theorem xb_eq (T : ℝ) : (Spec.xy ((CIE1931 : Observer ℝ).fromSpectrum (blackbody T))).1 = xb T := by
  rw [obs_eq, Tables.x_eq]; rfl

theorem zb_eq (T : ℝ) : ((CIE1931 : Observer ℝ).fromSpectrum (blackbody T)).c / ((CIE1931 : Observer ℝ).fromSpectrum (blackbody T)).b = zb T := by
  rw [obs_eq, ← inv_div, Tables.yz_eq, inv_div]; rfl

theorem xb_anti {T U : ℝ} (hT : 1000 ≤ T) (h : T ≤ U) : xb U ≤ xb T := by
  rcases h.eq_or_lt with rfl | h
  · exact le_rfl
  · have := (C124_bluer CIE1931 (by simp [observers]) T U h).1 hT
    rw [xb_eq, xb_eq] at this
    exact this.le

theorem temp_500 : temp 500 = 1000 := by unfold temp; norm_num

theorem zh_500 : decide (8000 ≤ zh 500) = true := by decide +kernel

/-- From 1000 K on, Y/Z is at most 400. -/
theorem yz_hi {T : ℝ} (hT : 1000 ≤ T) : wt (ent cie1931.Y cie1931.c) (blackbody T) / wt (ent cie1931.Z cie1931.b) (blackbody T) * (1 : ℕ) ≤ (400 : ℕ) := by
  have sh := yz_shape (t := cie1931) (by simp [three])
  have base : wt (ent cie1931.Y cie1931.c) (blackbody 1000) < 400 * wt (ent cie1931.Z cie1931.b) (blackbody 1000) := by
    have g := (at_grid (k := 500) (by norm_num) (by norm_num)).2
    have z := zh_500
    rw [decide_eq_true_eq] at z
    have z' : (8000 : ℝ) ≤ zh 500 := by exact_mod_cast z
    rw [temp_500, abs_le] at g
    have : (1 / 400 : ℝ) < zb 1000 := by linarith [g.1]
    rw [zb, lt_div_iff₀ (Y_pos (bb_pos (by norm_num)))] at this
    linarith
  have T0 : 0 < T := by linarith
  refine upper_of sh (by norm_num) (bb_pos T0) (w := fun i => blackbody 1000 i / blackbody T i) ?_
    (fun i => (div_pos (bb_pos (by norm_num) i) (bb_pos T0 i)).le) ?_
  · rcases hT.eq_or_lt with rfl | h
    · intro i j _
      simp only [div_self (bb_pos T0 _).ne']; exact le_rfl
    · exact (ratio_mono (by norm_num) h).monotone
  · have e : (fun i : Fin 400 => blackbody T i * (blackbody 1000 i / blackbody T i)) = blackbody 1000 :=
      funext fun i => mul_div_cancel₀ _ (bb_pos T0 i).ne'
    rw [e]
    push_cast
    linarith

theorem zb_mono {T U : ℝ} (hT : 1000 ≤ T) (h : T ≤ U) : zb T ≤ zb U := by
  rcases h.eq_or_lt with rfl | h
  · exact le_rfl
  · have T0 : 0 < T := by linarith
    have U0 : 0 < U := by linarith
    have sh := yz_shape (t := cie1931) (by simp [three])
    have lo := lower sh (by norm_num) (yz_blue (t := cie1931) (by simp [three])) U0
    have := filter_raises sh (bb_pos U0) (ratio_mono T0 h) (div_pos (bb_pos T0 0) (bb_pos U0 0)) lo (yz_hi (by linarith))
    have e : (fun i : Fin 400 => blackbody U i * (blackbody T i / blackbody U i)) = blackbody T :=
      funext fun i => mul_div_cancel₀ _ (bb_pos U0 i).ne'
    rw [e] at this
    have p : 0 < wt (ent cie1931.Y cie1931.c) (blackbody U) / wt (ent cie1931.Z cie1931.b) (blackbody U) :=
      div_pos (Y_pos (bb_pos U0)) (Z_pos (bb_pos U0))
    have := (inv_lt_inv₀ (p.trans this) p).2 this
    rw [inv_div, inv_div] at this
    exact this.le

theorem yb_eq {T : ℝ} (hT : 0 < T) : (Spec.xy ((CIE1931 : Observer ℝ).fromSpectrum (blackbody T))).2 = (1 - xb T) / (1 + zb T) := by
  rw [← xb_eq, ← zb_eq]
  have hb : 0 < ((CIE1931 : Observer ℝ).fromSpectrum (blackbody T)).b := by
    have hy : ((CIE1931 : Observer ℝ).fromSpectrum (blackbody T)).b = wt (ent cie1931.Y 1) (blackbody T) / cie1931.b := by
      rw [← cie1931.sums.2.1]; exact comp_eq cie1931.Y _
    have := Y_pos (bb_pos hT)
    rw [wt_ent] at this
    rw [hy]
    have b0 : (0 : ℝ) < cie1931.b := by exact_mod_cast cie1931.pos.2.1
    exact div_pos (pos_of_mul_pos_right this (Nat.cast_nonneg _)) b0
  have hc : 0 ≤ ((CIE1931 : Observer ℝ).fromSpectrum (blackbody T)).c := by
    have hz : ((CIE1931 : Observer ℝ).fromSpectrum (blackbody T)).c = wt (ent cie1931.Z 1) (blackbody T) / cie1931.c := by
      rw [← cie1931.sums.2.2]; exact comp_eq cie1931.Z _
    rw [hz]
    exact div_nonneg (Finset.sum_nonneg fun i _ => mul_nonneg (bb_pos hT i).le (Nat.cast_nonneg _)) (Nat.cast_nonneg _)
  have ha : 0 ≤ ((CIE1931 : Observer ℝ).fromSpectrum (blackbody T)).a := by
    have hx : ((CIE1931 : Observer ℝ).fromSpectrum (blackbody T)).a = wt (ent cie1931.X 1) (blackbody T) / cie1931.a := by
      rw [← cie1931.sums.1]; exact comp_eq cie1931.X _
    rw [hx]
    exact div_nonneg (Finset.sum_nonneg fun i _ => mul_nonneg (bb_pos hT i).le (Nat.cast_nonneg _)) (Nat.cast_nonneg _)
  generalize (CIE1931 : Observer ℝ).fromSpectrum (blackbody T) = t at *
  simp only [Spec.xy]
  have s0 : 0 < t.a + t.b + t.c := by linarith
  have s1 : 0 < t.b + t.c := by linarith
  rw [one_sub_div s0.ne', one_add_div hb.ne', show t.a + t.b + t.c - t.a = t.b + t.c by ring]
  field_simp

/-- Lower bound of the black body's `y` between the temperatures `k` and `k + 1`. -/
def ylo (k : ℕ) : ℚ := (1 - ((xh (k + 1) : ℚ) + 2) / 10 ^ 6) / (1 + ((zh k : ℚ) + 2) / 10 ^ 6)
/-- Upper bound. -/
def yhi (k : ℕ) : ℚ := (1 - ((xh k : ℚ) - 2) / 10 ^ 6) / (1 + ((zh (k + 1) : ℚ) - 2) / 10 ^ 6)

theorem small : ((List.range 480).all fun j => decide (xh (20 + j + 1) ≤ 900000) && decide (2 ≤ zh (20 + j + 1))) = true := by decide +kernel

theorem cell {k : ℕ} (h1 : 20 ≤ k) (h2 : k < 500) {T : ℝ} (t1 : temp (k + 1) ≤ T) (t2 : T ≤ temp k) :
    ((xh k : ℝ) - 2) / 10 ^ 6 ≤ xb T ∧ xb T ≤ ((xh (k + 1) : ℝ) + 2) / 10 ^ 6 ∧
    ((ylo k : ℚ) : ℝ) ≤ (1 - xb T) / (1 + zb T) ∧ (1 - xb T) / (1 + zb T) ≤ ((yhi k : ℚ) : ℝ) := by
  have k0 : (0 : ℝ) < (k + 1 : ℕ) := by positivity
  have T1 : 1000 ≤ temp (k + 1) := by
    rw [temp, le_div_iff₀ k0]
    have : ((k + 1 : ℕ) : ℝ) ≤ 500 := by exact_mod_cast h2
    linarith
  obtain ⟨a1, a2⟩ := at_grid h1 h2.le
  obtain ⟨b1, b2⟩ := at_grid (k := k + 1) (by omega) h2
  rw [abs_le] at a1 a2 b1 b2
  have x1 := xb_anti (T1.trans t1) t2
  have x2 := xb_anti T1 t1
  have z1 := zb_mono (T1.trans t1) t2
  have z2 := zb_mono T1 t1
  have s := List.all_eq_true.1 small (k - 20) (List.mem_range.2 (by omega))
  rw [show 20 + (k - 20) + 1 = k + 1 by omega] at s
  simp only [Bool.and_eq_true, decide_eq_true_eq] at s
  have s1 : (xh (k + 1) : ℝ) ≤ 900000 := by exact_mod_cast s.1
  have s2 : (2 : ℝ) ≤ zh (k + 1) := by exact_mod_cast s.2
  refine ⟨by linarith [a1.1], by linarith [b1.2], ?_, ?_⟩
  · unfold ylo
    push_cast
    exact div_le_div₀ (by linarith [b1.2]) (by linarith [b1.2]) (by linarith [b2.1]) (by linarith [a2.2])
  · unfold yhi
    push_cast
    exact div_le_div₀ (by linarith [a1.1, b1.2]) (by linarith [a1.1]) (by linarith) (by linarith [b2.1])

theorem find {T : ℝ} {a b : ℕ} (hab : a < b) (h1 : temp b ≤ T) (h2 : T ≤ temp a) :
    ∃ k, a ≤ k ∧ k < b ∧ temp (k + 1) ≤ T ∧ T ≤ temp k := by
  induction b with
  | zero => omega
  | succ b ih =>
    rcases Nat.lt_succ_iff_lt_or_eq.1 hab with q | q
    · rcases le_total T (temp b) with r | r
      · exact ⟨b, q.le, Nat.lt_succ_self b, h1, r⟩
      · obtain ⟨k, k1, k2, k3⟩ := ih q r
        exact ⟨k, k1, by omega, k3⟩
    · subst q
      exact ⟨a, le_rfl, Nat.lt_succ_self a, h1, h2⟩

/-! ## The polynomials of `fromCT` -/

/-- The `x` polynomial. -/
def qX (T : ℚ) : ℚ := 101496651/125000000 + T * (-16747/100000000 + T * (331067/100000000000000 + T * (690001/100000000000000000 +
  T * (-139671/100000000000000000000 + T * (111951/1000000000000000000000000 + T * (-41459/12500000000000000000000000000))))))
/-- The `y` polynomial. -/
def qY (T : ℚ) : ℚ := 5479113/40000000 + T * (317653/1000000000 + T * (-63973/500000000000 + T * (44483/2000000000000000 +
  T * (-90719/50000000000000000000 + T * (141891/2500000000000000000000000)))))

/-- The check between the temperatures `k` and `k + 1`. -/
def ctOK (k : ℕ) : Bool :=
  decide (qX (500000 / ((k : ℚ) + 1)) - ((xh k : ℚ) - 2) / 10 ^ 6 ≤ 22 / 10000) &&
  decide (((xh (k + 1) : ℚ) + 2) / 10 ^ 6 - qX (500000 / (k : ℚ)) ≤ 22 / 10000) &&
  decide (qY (500000 / (k : ℚ)) + 13 / 100 / k - ylo k ≤ 7 / 1000) &&
  decide (yhi k - qY (500000 / (k : ℚ)) + 13 / 100 / k ≤ 7 / 1000)

theorem ct_ok : ((List.range 450).all fun j => ctOK (50 + j)) = true := by decide +kernel

theorem qX_cast (T : ℚ) : ((qX T : ℚ) : ℝ) = Locus.X T := by rw [Locus.X_eq, qX]; push_cast; ring
theorem qY_cast (T : ℚ) : ((qY T : ℚ) : ℝ) = Locus.Y T := by rw [Locus.Y_eq, qY]; push_cast; ring

theorem Y_vary {k : ℕ} (h1 : 50 ≤ k) (h2 : k < 500) {T : ℝ} (t1 : temp (k + 1) ≤ T) (t2 : T ≤ temp k) :
    |Locus.Y T - Locus.Y (temp k)| ≤ 0.13 / k := by
  have k0 : (50 : ℝ) ≤ k := by exact_mod_cast h1
  have k1 : ((k + 1 : ℕ) : ℝ) ≤ 500 := by exact_mod_cast h2
  have lo : 1000 ≤ temp (k + 1) := by rw [temp, le_div_iff₀ (by positivity)]; linarith
  have hi : temp k ≤ 10000 := by rw [temp, div_le_iff₀ (by linarith)]; linarith
  have key := Convex.norm_image_sub_le_of_norm_hasDerivWithin_le (f := Locus.Y) (f' := Locus.Y') (C := 0.13 / temp (k + 1))
    (s := Set.Icc (temp (k + 1)) (temp k)) (fun x _ => (Locus.hasY x).hasDerivWithinAt) (fun x hx => by
      have x0 : 0 < x := by linarith [hx.1]
      have a := Locus.TY_lo x (by linarith [hx.1]) (by linarith [hx.2])
      have b := Locus.TY_hi x (by linarith [hx.1]) (by linarith [hx.2])
      rw [Real.norm_eq_abs]
      have : |Locus.Y' x| ≤ 0.13 / x := by
        rw [le_div_iff₀ x0, ← abs_of_pos x0, ← abs_mul, abs_of_pos x0, _root_.abs_le]
        constructor <;> norm_num <;> linarith
      exact this.trans (div_le_div_of_nonneg_left (by norm_num) (by linarith) hx.1)) (convex_Icc _ _)
    (Set.right_mem_Icc.2 (t1.trans t2)) (⟨t1, t2⟩ : T ∈ Set.Icc (temp (k + 1)) (temp k))
  rw [Real.norm_eq_abs, Real.norm_eq_abs] at key
  refine key.trans ?_
  have : |T - temp k| ≤ temp k - temp (k + 1) := by rw [abs_sub_comm, abs_of_nonneg (by linarith)]; linarith
  refine (mul_le_mul_of_nonneg_left this (div_nonneg (by norm_num) (by linarith))).trans (le_of_eq ?_)
  have : (k : ℝ) ≠ 0 := by linarith
  have : (k : ℝ) + 1 ≠ 0 := by linarith
  simp only [temp]
  push_cast
  field_simp
  ring

theorem cast_temp (k : ℕ) : ((500000 / (k : ℚ) : ℚ) : ℝ) = temp k := by rw [temp]; push_cast; rfl
theorem cast_temp' (k : ℕ) : ((500000 / ((k : ℚ) + 1) : ℚ) : ℝ) = temp (k + 1) := by rw [temp]; push_cast; rfl

theorem ct_close {T : ℝ} (h1 : 1000 ≤ T) (h2 : T ≤ 10000) :
    |Locus.X T - xb T| ≤ 0.0022 ∧ |Locus.Y T - (1 - xb T) / (1 + zb T)| ≤ 0.007 := by
  obtain ⟨k, k1, k2, t1, t2⟩ := find (T := T) (a := 50) (b := 500) (by norm_num) (by rw [temp_500]; exact h1)
    (by rw [temp]; norm_num; exact h2)
  obtain ⟨c1, c2, c3, c4⟩ := cell (by omega) k2 t1 t2
  have v := Y_vary k1 k2 t1 t2
  have s := List.all_eq_true.1 ct_ok (k - 50) (List.mem_range.2 (by omega))
  rw [show 50 + (k - 50) = k by omega] at s
  simp only [ctOK, Bool.and_eq_true, decide_eq_true_eq] at s
  obtain ⟨⟨⟨s1, s2⟩, s3⟩, s4⟩ := s
  have s1' := (Rat.cast_le (K := ℝ)).2 s1
  have s2' := (Rat.cast_le (K := ℝ)).2 s2
  have s3' := (Rat.cast_le (K := ℝ)).2 s3
  have s4' := (Rat.cast_le (K := ℝ)).2 s4
  rw [Rat.cast_sub, qX_cast, cast_temp'] at s1'
  rw [Rat.cast_sub, qX_cast, cast_temp] at s2'
  rw [Rat.cast_sub, Rat.cast_add, qY_cast, cast_temp] at s3'
  rw [Rat.cast_add, Rat.cast_sub, qY_cast, cast_temp] at s4'
  push_cast at s1' s2' s3' s4'
  have lo : (999 : ℝ) ≤ temp (k + 1) := by
    have k1 : ((k + 1 : ℕ) : ℝ) ≤ 500 := by exact_mod_cast k2
    rw [temp, le_div_iff₀ (by positivity)]; linarith
  have hi : temp k ≤ 10000 := by
    have k0 : (50 : ℝ) ≤ k := by exact_mod_cast k1
    rw [temp, div_le_iff₀ (by linarith)]; linarith
  have m1 := Locus.X_antitone.antitoneOn ⟨lo, by linarith⟩ (⟨by linarith, h2⟩ : T ∈ Set.Icc (999 : ℝ) 10000) t1
  have m2 := Locus.X_antitone.antitoneOn (⟨by linarith, h2⟩ : T ∈ Set.Icc (999 : ℝ) 10000) ⟨by linarith, hi⟩ t2
  rw [_root_.abs_le] at v
  rw [show (0.13 : ℝ) / k = 13 / 100 / k by norm_num] at v
  constructor
  · rw [_root_.abs_le]; constructor <;> norm_num <;> linarith
  · rw [_root_.abs_le]; constructor <;> norm_num <;> linarith [v.1, v.2]

/-! ## The cubics of `fromPlanckianLocus` -/

/-- `x` below 4000 K, in the reciprocal temperature. -/
noncomputable def pL (w : ℝ) : ℝ := -266123900 * w * w * w - 234358 * w * w + 877.6956 * w + 0.179910
/-- `x` from 4000 K on. -/
noncomputable def pH (w : ℝ) : ℝ := -3025846900 * w * w * w + 2107037.9 * w * w + 222.6347 * w + 0.240390

theorem pL_eq {T : ℝ} (hT : 0 < T) : xLow T = pL (1 / T) := by
  unfold xLow pL; field_simp; norm_num
theorem pH_eq {T : ℝ} (hT : 0 < T) : xHigh T = pH (1 / T) := by
  unfold xHigh pH; field_simp; norm_num

theorem pL_mono {v w : ℝ} (h0 : 0 ≤ v) (h : v ≤ w) (h1 : w ≤ 0.00061) : pL v ≤ pL w := by
  have e : pL w - pL v = (w - v) * (877.6956 - 234358 * (w + v) - 266123900 * (w * w + w * v + v * v)) := by unfold pL; ring
  have w0 : 0 ≤ w := h0.trans h
  have b1 : w * w ≤ 0.00061 * 0.00061 := mul_le_mul h1 h1 w0 (by norm_num)
  have b2 : w * v ≤ 0.00061 * 0.00061 := mul_le_mul h1 (h.trans h1) h0 (by norm_num)
  have b3 : v * v ≤ 0.00061 * 0.00061 := mul_le_mul (h.trans h1) (h.trans h1) h0 (by norm_num)
  have : 0 ≤ pL w - pL v := by
    rw [e]
    refine mul_nonneg (by linarith) ?_
    norm_num at *
    linarith
  linarith

theorem pH_mono {v w : ℝ} (h0 : 0 ≤ v) (h : v ≤ w) (h1 : w ≤ 0.00025) : pH v ≤ pH w := by
  have e : pH w - pH v = (w - v) * (222.6347 + 2107037.9 * (w + v) - 3025846900 * (w * w + w * v + v * v)) := by unfold pH; ring
  have w0 : 0 ≤ w := h0.trans h
  have b1 : w * w ≤ 0.00025 * w := mul_le_mul_of_nonneg_right h1 w0
  have b2 : w * v ≤ 0.00025 * v := mul_le_mul_of_nonneg_right h1 h0
  have b3 : v * v ≤ 0.00025 * v := mul_le_mul_of_nonneg_right (h.trans h1) h0
  have : 0 ≤ pH w - pH v := by
    rw [e]
    refine mul_nonneg (by linarith) ?_
    norm_num at *
    linarith
  linarith

theorem yLow_lip {a b : ℝ} (a1 : 0.25 ≤ a) (a2 : a ≤ 0.6) (b1 : 0.25 ≤ b) (b2 : b ≤ 0.6) : |yLow a - yLow b| ≤ 1.4 * |a - b| := by
  have e : yLow a - yLow b = (-1.1063814 * (a * a + a * b + b * b) - 1.3481102 * (a + b) + 2.18555832) * (a - b) := by unfold yLow; ring
  rw [e, abs_mul]
  refine mul_le_mul_of_nonneg_right ?_ (abs_nonneg _)
  have c1 : a * a ≤ 0.6 * 0.6 := mul_le_mul a2 a2 (by linarith) (by norm_num)
  have c2 : a * b ≤ 0.6 * 0.6 := mul_le_mul a2 b2 (by linarith) (by norm_num)
  have c3 : b * b ≤ 0.6 * 0.6 := mul_le_mul b2 b2 (by linarith) (by norm_num)
  have d1 : 0.25 * 0.25 ≤ a * a := mul_le_mul a1 a1 (by norm_num) (by linarith)
  have d2 : 0.25 * 0.25 ≤ a * b := mul_le_mul a1 b1 (by norm_num) (by linarith)
  have d3 : 0.25 * 0.25 ≤ b * b := mul_le_mul b1 b1 (by norm_num) (by linarith)
  rw [_root_.abs_le]
  norm_num at *
  constructor <;> linarith

theorem yHigh_lip {a b : ℝ} (a1 : 0.25 ≤ a) (a2 : a ≤ 0.4) (b1 : 0.25 ≤ b) (b2 : b ≤ 0.4) : |yHigh a - yHigh b| ≤ 1.4 * |a - b| := by
  have e : yHigh a - yHigh b = (3.0817580 * (a * a + a * b + b * b) - 5.8733867 * (a + b) + 3.75112997) * (a - b) := by unfold yHigh; ring
  rw [e, abs_mul]
  refine mul_le_mul_of_nonneg_right ?_ (abs_nonneg _)
  have c1 := mul_nonneg (sub_nonneg.2 a1) (sub_nonneg.2 a2)
  have c2 := mul_nonneg (sub_nonneg.2 b1) (sub_nonneg.2 b2)
  have c3 := mul_nonneg (sub_nonneg.2 a1) (sub_nonneg.2 b2)
  have d1 : 0.25 * 0.25 ≤ a * a := mul_le_mul a1 a1 (by norm_num) (by linarith)
  have d2 : 0.25 * 0.25 ≤ a * b := mul_le_mul a1 b1 (by norm_num) (by linarith)
  have d3 : 0.25 * 0.25 ≤ b * b := mul_le_mul b1 b1 (by norm_num) (by linarith)
  rw [_root_.abs_le]
  norm_num at *
  constructor <;> linarith

/-- `pL` at temperature `k`, evaluated exactly. -/
def qL (k : ℚ) : ℚ := -266123900 * (k / 500000) * (k / 500000) * (k / 500000) - 234358 * (k / 500000) * (k / 500000) + 8776956 / 10000 * (k / 500000) + 17991 / 100000
/-- `pH` at temperature `k`, evaluated exactly. -/
def qH (k : ℚ) : ℚ := -3025846900 * (k / 500000) * (k / 500000) * (k / 500000) + 21070379 / 10 * (k / 500000) * (k / 500000) + 2226347 / 10000 * (k / 500000) + 24039 / 100000
/-- `yLow`, evaluated exactly. -/
def qyL (x : ℚ) : ℚ := -11063814 / 10000000 * x * x * x - 13481102 / 10000000 * x * x + 218555832 / 100000000 * x - 20219683 / 100000000
/-- `yHigh`, evaluated exactly. -/
def qyH (x : ℚ) : ℚ := 3081758 / 1000000 * x * x * x - 58733867 / 10000000 * x * x + 375112997 / 100000000 * x - 37001483 / 100000000

/-- The check between the temperatures `k` and `k + 1`, for fitted values `x₀`, `x₁`, `y₀` there. -/
def plOK (k : ℕ) (x₀ x₁ y₀ m : ℚ) : Bool :=
  decide (x₁ - ((xh k : ℚ) - 2) / 10 ^ 6 ≤ 18 / 10000) && decide (((xh (k + 1) : ℚ) + 2) / 10 ^ 6 - x₀ ≤ 18 / 10000) &&
  decide (y₀ + 14 / 10 * (x₁ - x₀) - ylo k ≤ 72 / 10000) && decide (yhi k - y₀ + 14 / 10 * (x₁ - x₀) ≤ 72 / 10000) &&
  decide (1 / 4 ≤ x₀) && decide (x₁ ≤ m) && decide (1 / 10 ≤ ylo k)

theorem low_ok : ((List.range 175).all fun j => plOK (125 + j) (qL (125 + j : ℕ)) (qL (125 + j + 1 : ℕ)) (qyL (qL (125 + j : ℕ))) (6 / 10)) = true := by
  decide +kernel
theorem high_ok : ((List.range 105).all fun j => plOK (20 + j) (qH (20 + j : ℕ)) (qH (20 + j + 1 : ℕ)) (qyH (qH (20 + j : ℕ))) (4 / 10)) = true := by
  decide +kernel

theorem qL_cast (k : ℕ) : ((qL (k : ℕ) : ℚ) : ℝ) = pL (k / 500000) := by rw [qL, pL]; push_cast; norm_num
theorem qH_cast (k : ℕ) : ((qH (k : ℕ) : ℚ) : ℝ) = pH (k / 500000) := by rw [qH, pH]; push_cast; norm_num
theorem qyL_cast (x : ℚ) : ((qyL x : ℚ) : ℝ) = yLow x := by rw [qyL, yLow]; push_cast; norm_num
theorem qyH_cast (x : ℚ) : ((qyH x : ℚ) : ℝ) = yHigh x := by rw [qyH, yHigh]; push_cast; norm_num

/-- From the check to the bound. -/
theorem pl_pure {k : ℕ} {x₀ x₁ y₀ m : ℚ} (s : plOK k x₀ x₁ y₀ m = true) {x y X Y : ℝ} {f : ℝ → ℝ}
    (c1 : ((xh k : ℝ) - 2) / 10 ^ 6 ≤ X) (c2 : X ≤ ((xh (k + 1) : ℝ) + 2) / 10 ^ 6) (c3 : ((ylo k : ℚ) : ℝ) ≤ Y) (c4 : Y ≤ ((yhi k : ℚ) : ℝ))
    (p0 : (x₀ : ℝ) ≤ x) (p1 : x ≤ x₁) (fy : f x = y) (f0 : f x₀ = y₀)
    (lip : ∀ a b : ℝ, 0.25 ≤ a → a ≤ m → 0.25 ≤ b → b ≤ m → |f a - f b| ≤ 1.4 * |a - b|) :
    |x - X| ≤ 0.0018 ∧ |y - Y| ≤ 0.0072 ∧ 0.05 ≤ y := by
  simp only [plOK, Bool.and_eq_true, decide_eq_true_eq] at s
  obtain ⟨⟨⟨⟨⟨⟨s1, s2⟩, s3⟩, s4⟩, s5⟩, s6⟩, s7⟩ := s
  have s1' := (Rat.cast_le (K := ℝ)).2 s1
  have s2' := (Rat.cast_le (K := ℝ)).2 s2
  have s3' := (Rat.cast_le (K := ℝ)).2 s3
  have s4' := (Rat.cast_le (K := ℝ)).2 s4
  have s5' := (Rat.cast_le (K := ℝ)).2 s5
  have s6' := (Rat.cast_le (K := ℝ)).2 s6
  have s7' := (Rat.cast_le (K := ℝ)).2 s7
  push_cast at s1' s2' s3' s4' s5' s6' s7'
  have l := lip x x₀ (by norm_num; linarith) (by linarith) (by norm_num; linarith) (by linarith)
  rw [fy, f0, abs_of_nonneg (by linarith : 0 ≤ x - x₀), _root_.abs_le] at l
  refine ⟨?_, ?_, ?_⟩
  · rw [_root_.abs_le]; constructor <;> norm_num <;> linarith
  · rw [_root_.abs_le]; constructor <;> norm_num <;> linarith [l.1, l.2]
  · norm_num; linarith [l.1, l.2]

theorem recip {k : ℕ} (hk : 0 < k) {T : ℝ} (t1 : temp (k + 1) ≤ T) (t2 : T ≤ temp k) :
    0 < T ∧ (k : ℝ) / 500000 ≤ 1 / T ∧ 1 / T ≤ ((k + 1 : ℕ) : ℝ) / 500000 := by
  have k0 : (0 : ℝ) < k := by exact_mod_cast hk
  have k1 : (0 : ℝ) < (k + 1 : ℕ) := by positivity
  have T0 : 0 < T := lt_of_lt_of_le (by unfold temp; positivity) t1
  unfold temp at t1 t2
  rw [div_le_iff₀ k1] at t1
  rw [le_div_iff₀ k0] at t2
  refine ⟨T0, ?_, ?_⟩
  · rw [div_le_div_iff₀ (by norm_num) T0]; linarith
  · rw [div_le_div_iff₀ T0 (by norm_num)]; linarith

theorem pl_close {T : ℝ} (h1 : 1667 ≤ T) (h2 : T ≤ 25000) :
    |planckianX T - xb T| ≤ 0.0018 ∧ |planckianY T (planckianX T) - (1 - xb T) / (1 + zb T)| ≤ 0.0072 ∧ 0.05 ≤ planckianY T (planckianX T) := by
  rcases lt_or_ge T 4000 with h | h
  · obtain ⟨k, k1, k2, t1, t2⟩ := find (T := T) (a := 125) (b := 300) (by norm_num) (by rw [temp]; norm_num; linarith)
      (by rw [temp]; norm_num; linarith)
    obtain ⟨c1, c2, c3, c4⟩ := cell (by omega) (by omega) t1 t2
    obtain ⟨T0, r1, r2⟩ := recip (by omega) t1 t2
    have s := List.all_eq_true.1 low_ok (k - 125) (List.mem_range.2 (by omega))
    rw [show 125 + (k - 125) = k by omega] at s
    rw [planckianX_low h, planckianY_low h, pL_eq T0]
    have k3 : ((k + 1 : ℕ) : ℝ) ≤ 300 := by exact_mod_cast k2
    refine pl_pure s c1 c2 c3 c4 (f := yLow) ?_ ?_ rfl (qyL_cast _).symm fun a b a1 a2 b1 b2 =>
      yLow_lip a1 (a2.trans (by norm_num)) b1 (b2.trans (by norm_num))
    · rw [qL_cast]; exact pL_mono (by positivity) r1 (by norm_num at *; linarith)
    · rw [qL_cast]; exact pL_mono (by positivity) r2 (by norm_num at *; linarith)
  · obtain ⟨k, k1, k2, t1, t2⟩ := find (T := T) (a := 20) (b := 125) (by norm_num) (by rw [temp]; norm_num; linarith)
      (by rw [temp]; norm_num; linarith)
    obtain ⟨c1, c2, c3, c4⟩ := cell (by omega) (by omega) t1 t2
    obtain ⟨T0, r1, r2⟩ := recip (by omega) t1 t2
    have s := List.all_eq_true.1 high_ok (k - 20) (List.mem_range.2 (by omega))
    rw [show 20 + (k - 20) = k by omega] at s
    rw [planckianX_high h, planckianY_high h, pH_eq T0]
    have k3 : ((k + 1 : ℕ) : ℝ) ≤ 125 := by exact_mod_cast k2
    refine pl_pure s c1 c2 c3 c4 (f := yHigh) ?_ ?_ rfl (qyH_cast _).symm fun a b a1 a2 b1 b2 =>
      yHigh_lip a1 (a2.trans (by norm_num)) b1 (b2.trans (by norm_num))
    · rw [qH_cast]; exact pH_mono (by positivity) r1 (by norm_num at *; linarith)
    · rw [qH_cast]; exact pH_mono (by positivity) r2 (by norm_num at *; linarith)

end Planckian

open Planckian

/-- **C125, `fromCT`.** At every temperature between 1000 K and 10000 K the chromaticity of `fromCT` is the one the CIE 1931 observer
sees in the black body of that temperature, up to 0.0022 in `x` and 0.007 in `y`. -/
theorem C125_fromCT {T L : ℝ} (hL : L ≠ 0) (h : T ∈ Set.Icc (1000 : ℝ) 10000) :
    |(Spec.xy (fromCT T L)).1 - (Spec.xy ((CIE1931 : Observer ℝ).fromSpectrum (blackbody T))).1| ≤ 0.0022 ∧
    |(Spec.xy (fromCT T L)).2 - (Spec.xy ((CIE1931 : Observer ℝ).fromSpectrum (blackbody T))).2| ≤ 0.007 := by
  rw [Locus.xy_fromCT hL ⟨by linarith [h.1], h.2⟩, xb_eq, yb_eq (by linarith [h.1])]
  exact ct_close h.1 h.2

/-- **C125, `fromPlanckianLocus`.** At every temperature between 1667 K and 25000 K the chromaticity of `fromPlanckianLocus` is the
one the CIE 1931 observer sees in the black body of that temperature, up to 0.0018 in `x` and 0.0072 in `y`. -/
theorem C125_planckian {T L : ℝ} (hL : L ≠ 0) (h : T ∈ Set.Icc (1667 : ℝ) 25000) :
    |(Spec.xy (fromPlanckianLocus T L)).1 - (Spec.xy ((CIE1931 : Observer ℝ).fromSpectrum (blackbody T))).1| ≤ 0.0018 ∧
    |(Spec.xy (fromPlanckianLocus T L)).2 - (Spec.xy ((CIE1931 : Observer ℝ).fromSpectrum (blackbody T))).2| ≤ 0.0072 := by
  obtain ⟨a, b, c⟩ := pl_close h.1 h.2
  have e : Spec.xy (fromPlanckianLocus T L) = (planckianX T, planckianY T (planckianX T)) :=
    Locus.xy_fromYxy hL (le_trans (by norm_num at c ⊢; linarith) (le_abs_self _))
  rw [e, xb_eq, yb_eq (by linarith [h.1])]
  exact ⟨a, b⟩

/-- **C125, agreement.** So the two ways to make a white of a given temperature agree. -/
theorem C125_agree {T L M : ℝ} (hL : L ≠ 0) (hM : M ≠ 0) (h : T ∈ Set.Icc (1667 : ℝ) 10000) :
    |(Spec.xy (fromCT T L)).1 - (Spec.xy (fromPlanckianLocus T M)).1| ≤ 0.004 ∧
    |(Spec.xy (fromCT T L)).2 - (Spec.xy (fromPlanckianLocus T M)).2| ≤ 0.0142 := by
  have a := C125_fromCT hL (T := T) ⟨by linarith [h.1], h.2⟩
  have b := C125_planckian hM (T := T) ⟨h.1, by linarith [h.2]⟩
  simp only [_root_.abs_le] at a b ⊢
  norm_num at a b ⊢
  refine ⟨⟨?_, ?_⟩, ?_, ?_⟩ <;> linarith [a.1.1, a.1.2, a.2.1, a.2.2, b.1.1, b.1.2, b.2.1, b.2.2]

example : (6504 : ℝ) ∈ Set.Icc (1667 : ℝ) 10000 ∧ (1 : ℝ) ≠ 0 := by
  refine ⟨⟨?_, ?_⟩, ?_⟩ <;> norm_num

end CS
