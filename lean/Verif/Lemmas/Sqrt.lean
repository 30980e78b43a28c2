import Verif.Lemmas.Float
import Mathlib.Algebra.Order.Ring.Nat

/-!
# The Newton iteration of `util::sqrtf` in binary32

`Ctx` fixes the argument `X` and the largest binary32 number `N * 2^e` whose square is at most `X`;
`F` is one step of the iteration on values.
-/

namespace CS.NewtonSqrt
open B32

/-- The argument `X = X' * 4^e` and its root, `N ≤ sqrt X' < N + 1`. -/
structure Ctx (X : ℚ) (N X' e : ℤ) : Prop where
  lo : 2 ^ 23 ≤ N
  hi : N < 2 ^ 24
  sq : N * N ≤ X'
  sq1 : X' < (N + 1) * (N + 1)
  val : X = X' * ((2 : ℚ) ^ e * 2 ^ e)
  d23 : (2 ^ 23 : ℤ) ∣ X'
  d24 : 2 ^ 47 ≤ X' → (2 ^ 24 : ℤ) ∣ X'
  he : -98 ≤ e
  he' : e ≤ 40

/-- One Newton step, on values. -/
def F (X y : ℚ) : ℚ := rnd (y + rnd (X / y)) / 2

theorem rep_double {y : ℚ} (h : Rep y) : Rep (2 * y) := by
  obtain ⟨m, e, h1, h2, h3⟩ := h
  refine ⟨m, e + 1, ?_, h2, by omega⟩
  rw [h1, zpow_add₀ (by norm_num)]; ring

theorem rep_half {y : ℚ} (h : Rep y) (hy : (2 : ℚ) ^ (-100 : ℤ) ≤ y) : Rep (y / 2) := by
  obtain ⟨m, e, h1, h2, h3⟩ := h
  have h4 := Rep.exp_le h1 h2 h3
  have h5 : -123 ≤ ex y := le_ex_of_le (hy.trans (le_abs_self y))
  refine ⟨m, e - 1, ?_, h2, by omega⟩
  rw [h1, zpow_sub₀ (by norm_num)]; ring

namespace Ctx
variable {X : ℚ} {N X' e : ℤ} (c : Ctx X N X' e)
include c

omit c in
theorem upos (_c : Ctx X N X' e) : (0 : ℚ) < 2 ^ e := by positivity

theorem repU {k : ℤ} (h : |k| ≤ 2 ^ 24) : Rep ((k : ℚ) * 2 ^ e) := rep_of_le rfl h (by have := c.he; omega)

theorem Npos : (0 : ℚ) < N := by
  have := c.lo
  have : (0 : ℤ) < N := by omega
  exact_mod_cast this

theorem mulU {y : ℚ} (hy : Rep y) (h : (N : ℚ) * 2 ^ e ≤ y) : ∃ k : ℤ, 0 ≤ k ∧ y = ((N + k : ℤ) : ℚ) * 2 ^ e := by
  obtain ⟨m, f, h1, h2, h3⟩ := hy
  have h4 := Rep.exp_le h1 h2 h3
  have hu := c.upos
  have hy0 : 0 < y := lt_of_lt_of_le (mul_pos c.Npos hu) h
  have h5 : e ≤ ex y := by
    refine le_ex_of_le ?_
    rw [abs_of_pos hy0, zpow_add₀ (by norm_num), mul_comm]
    refine le_trans (mul_le_mul_of_nonneg_right ?_ hu.le) h
    have := c.lo
    have : ((2 ^ 23 : ℤ) : ℚ) ≤ N := by exact_mod_cast this
    exact_mod_cast this
  have h6 : y = ((m * 2 ^ (f - e).toNat : ℤ) : ℚ) * 2 ^ e := by
    push_cast
    rw [← zpow_natCast, Int.toNat_of_nonneg (by omega), mul_assoc, ← zpow_add₀ (by norm_num), sub_add_cancel, h1]
  refine ⟨m * 2 ^ (f - e).toNat - N, ?_, by rw [add_sub_cancel]; exact h6⟩
  rw [h6] at h
  have := le_of_mul_le_mul_right h hu
  have : N ≤ m * 2 ^ (f - e).toNat := by exact_mod_cast this
  omega

/-- The quotient in units of `2^e`. -/
theorem quot (k : ℤ) (hk : 0 ≤ k) : X / (((N + k : ℤ) : ℚ) * 2 ^ e) = (X' : ℚ) / (N + k) * 2 ^ e := by
  have hu := c.upos
  have hn := c.Npos
  have hk' : (0 : ℚ) ≤ k := by exact_mod_cast hk
  rw [c.val]
  push_cast
  have : (N : ℚ) + k ≠ 0 := by positivity
  field_simp

theorem X_pos : 0 < X := by
  rw [c.val]
  have h1 := c.sq
  have h2 := c.lo
  have : (0 : ℤ) < X' := by nlinarith
  have : (0 : ℚ) < X' := by exact_mod_cast this
  have := c.upos
  positivity

/-- A step never goes below the root. -/
theorem F_sum_ge {k : ℤ} (hk : 0 ≤ k) :
    2 * ((N : ℚ) * 2 ^ e) ≤ ((N + k : ℤ) : ℚ) * 2 ^ e + rnd (X / (((N + k : ℤ) : ℚ) * 2 ^ e)) := by
  have hu := c.upos
  have hn := c.Npos
  have hk' : (0 : ℚ) ≤ k := by exact_mod_cast hk
  rw [c.quot k hk]
  rcases le_or_gt k N with h | h
  · have h1 : (((N - k : ℤ) : ℚ)) * 2 ^ e ≤ rnd ((X' : ℚ) / (N + k) * 2 ^ e) := by
      refine le_rnd (c.repU ?_) ?_
      · have := c.hi; rw [abs_of_nonneg (by omega)]; omega
      · refine mul_le_mul_of_nonneg_right ?_ hu.le
        rw [le_div_iff₀ (by positivity)]
        have h2 := c.sq
        have : ((N - k) * (N + k) : ℤ) ≤ X' := by nlinarith
        exact_mod_cast this
    push_cast at h1 ⊢
    linarith
  · have h1 : 0 ≤ rnd ((X' : ℚ) / (N + k) * 2 ^ e) := by
      refine rnd_nonneg ?_
      have h2 := c.sq
      have h3 := c.lo
      have : (0 : ℤ) ≤ X' := by nlinarith
      have : (0 : ℚ) ≤ X' := by exact_mod_cast this
      positivity
    have : (N : ℚ) ≤ k := by exact_mod_cast h.le
    push_cast
    nlinarith

theorem F_ge {y : ℚ} (hy : Rep y) (h : (N : ℚ) * 2 ^ e ≤ y) : (N : ℚ) * 2 ^ e ≤ F X y := by
  obtain ⟨k, hk, rfl⟩ := c.mulU hy h
  have h1 := le_rnd (rep_double (c.repU (k := N) (by have := c.lo; have := c.hi; rw [abs_of_nonneg (by omega)]; omega)))
    (c.F_sum_ge hk)
  unfold F
  linarith

theorem small : (2 : ℚ) ^ (-100 : ℤ) ≤ 2 * ((N : ℚ) * 2 ^ e) := by
  have h1 : (2 : ℚ) ^ (-100 : ℤ) ≤ 2 ^ e := zpow_le_zpow_right₀ (by norm_num) (by have := c.he; omega)
  have h2 := c.lo
  have h3 : (1 : ℚ) ≤ N := by
    have : (1 : ℤ) ≤ N := by omega
    exact_mod_cast this
  have := c.upos
  nlinarith

theorem F_rep {y : ℚ} (hy : Rep y) (h : (N : ℚ) * 2 ^ e ≤ y) : Rep (F X y) := by
  have h1 := c.F_ge hy h
  refine rep_half (rep_rnd _) ?_
  exact c.small.trans (by unfold F at h1; linarith)

omit c in
/-- Above the root a step does not increase. -/
theorem F_le {y : ℚ} (_c : Ctx X N X' e) (hy : Rep y) (h0 : 0 < y) (h : X ≤ y * y) : F X y ≤ y := by
  have h1 : rnd (X / y) ≤ y := rnd_le hy (by rwa [div_le_iff₀ h0])
  have h2 : rnd (y + rnd (X / y)) ≤ 2 * y := rnd_le (rep_double hy) (by linarith)
  unfold F; linarith

/-- The largest number below the root. -/
theorem root_cases {y : ℚ} (hy : Rep y) (h : (N : ℚ) * 2 ^ e ≤ y) (h2 : y * y < X) : y = (N : ℚ) * 2 ^ e := by
  obtain ⟨k, hk, rfl⟩ := c.mulU hy h
  have hu := c.upos
  rcases hk.lt_or_eq with hk | rfl
  · exfalso
    rw [c.val, show ((N + k : ℤ) : ℚ) * 2 ^ e * (((N + k : ℤ) : ℚ) * 2 ^ e) =
      (((N + k) * (N + k) : ℤ) : ℚ) * (2 ^ e * 2 ^ e) by push_cast; ring] at h2
    have h3 := lt_of_mul_lt_mul_right h2 (mul_pos hu hu).le
    have h4 : (N + k) * (N + k) < X' := by exact_mod_cast h3
    have := c.sq1
    have := c.lo
    nlinarith
  · simp

theorem X'_le : X' ≤ N * (N + 2) := by have := c.sq1; nlinarith

/-- For the largest significand the argument leaves more room. -/
theorem X'_top (h : N = 2 ^ 24 - 1) : X' ≤ N * (N + 1) := by
  have h1 := c.sq1
  have h2 := c.sq
  obtain ⟨d, hd⟩ := c.d24 (by rw [h] at h2; norm_num at h2 ⊢; omega)
  rw [h] at h1 h2 ⊢
  norm_num at h1 h2 hd ⊢
  omega

/-- The quotient at the lower neighbour is at most two units above it. -/
theorem q_low_le : rnd (X / (((N + 0 : ℤ) : ℚ) * 2 ^ e)) ≤ ((N + 2 : ℤ) : ℚ) * 2 ^ e ∧
    (N = 2 ^ 24 - 1 → rnd (X / (((N + 0 : ℤ) : ℚ) * 2 ^ e)) ≤ ((N + 1 : ℤ) : ℚ) * 2 ^ e) := by
  have hu := c.upos
  have hn := c.Npos
  have hhi := c.hi
  have hlo := c.lo
  rw [c.quot 0 le_rfl]
  have top : N = 2 ^ 24 - 1 → rnd ((X' : ℚ) / (N + (0 : ℤ)) * 2 ^ e) ≤ ((N + 1 : ℤ) : ℚ) * 2 ^ e := by
    intro h
    refine rnd_le (c.repU (by rw [abs_of_nonneg (by omega)]; omega)) ?_
    refine mul_le_mul_of_nonneg_right ?_ hu.le
    rw [div_le_iff₀ (by simpa using hn)]
    have := c.X'_top h
    have : (X' : ℚ) ≤ ((N * (N + 1) : ℤ) : ℚ) := by exact_mod_cast this
    push_cast at this ⊢
    linarith
  refine ⟨?_, top⟩
  rcases eq_or_ne N (2 ^ 24 - 1) with h | h
  · refine (top h).trans ?_
    push_cast
    nlinarith
  · refine rnd_le (c.repU (by rw [abs_of_nonneg (by omega)]; omega)) ?_
    refine mul_le_mul_of_nonneg_right ?_ hu.le
    rw [div_le_iff₀ (by simpa using hn)]
    have := c.X'_le
    have : (X' : ℚ) ≤ ((N * (N + 2) : ℤ) : ℚ) := by exact_mod_cast this
    push_cast at this ⊢
    linarith

/-- From the lower neighbour a step goes at most to the upper one. -/
theorem F_low_le : F X ((N : ℚ) * 2 ^ e) ≤ ((N + 1 : ℤ) : ℚ) * 2 ^ e := by
  have h1 := c.q_low_le.1
  rw [add_zero] at h1
  have hhi := c.hi
  have hlo := c.lo
  have h2 : rnd ((N : ℚ) * 2 ^ e + rnd (X / ((N : ℚ) * 2 ^ e))) ≤ 2 * (((N + 1 : ℤ) : ℚ) * 2 ^ e) := by
    refine rnd_le (rep_double (c.repU (by rw [abs_of_nonneg (by omega)]; omega))) ?_
    push_cast at h1 ⊢
    linarith
  unfold F; linarith

/-- Rounding error below `2^24` units. -/
theorem err {v : ℚ} (h0 : 0 ≤ v) (h : v < 2 ^ 24 * 2 ^ e) : |rnd v - v| ≤ 2 ^ e / 2 := by
  refine (rnd_err v).trans ?_
  have he := c.he
  have : ex v ≤ e := by
    refine ex_le_of_lt (by omega) ?_
    rw [abs_of_nonneg h0, zpow_add₀ (by norm_num), mul_comm]
    exact_mod_cast h
  have := zpow_le_zpow_right₀ (by norm_num : (1 : ℚ) ≤ 2) this
  linarith

/-- An odd sum is a tie. -/
theorem tie : rnd (((2 * N + 1 : ℤ) : ℚ) * 2 ^ e) =
    ((if N % 2 = 0 then N else N + 1 : ℤ) : ℚ) * (2 * 2 ^ e) := by
  have hu := c.upos
  have hlo := c.lo
  have hhi := c.hi
  have hv0 : (0 : ℚ) ≤ ((2 * N + 1 : ℤ) : ℚ) * 2 ^ e := by
    have : (0 : ℤ) ≤ 2 * N + 1 := by omega
    have : (0 : ℚ) ≤ ((2 * N + 1 : ℤ) : ℚ) := by exact_mod_cast this
    positivity
  have hex : ex (((2 * N + 1 : ℤ) : ℚ) * 2 ^ e) = e + 1 := by
    apply le_antisymm
    · refine ex_le_of_lt (by have := c.he; omega) ?_
      rw [abs_of_nonneg hv0, show e + 1 + 24 = e + 25 by ring, zpow_add₀ (by norm_num), mul_comm]
      refine mul_lt_mul_of_pos_left ?_ hu
      have : (2 * N + 1 : ℤ) < 2 ^ 25 := by omega
      exact_mod_cast this
    · refine le_ex_of_le ?_
      rw [abs_of_nonneg hv0, show e + 1 + 23 = e + 24 by ring, zpow_add₀ (by norm_num), mul_comm]
      refine mul_le_mul_of_nonneg_right ?_ hu.le
      have : (2 ^ 24 : ℤ) ≤ 2 * N + 1 := by omega
      exact_mod_cast this
  have h2 : (2 : ℚ) ^ (e + 1) = 2 * 2 ^ e := by rw [zpow_add₀ (by norm_num)]; ring
  unfold rnd
  rw [hex, h2]
  have h3 : ((2 * N + 1 : ℤ) : ℚ) * 2 ^ e / (2 * 2 ^ e) = (N : ℚ) + 1 / 2 := by
    push_cast; field_simp
  rw [h3]
  congr 2
  have h4 := rne_tie N
  have h5 := rne_err ((N : ℚ) + 1 / 2)
  rw [abs_le] at h5
  have h6 : N ≤ rne ((N : ℚ) + 1 / 2) := le_rne (by linarith)
  have h7 : rne ((N : ℚ) + 1 / 2) ≤ N + 1 := rne_le (by push_cast; linarith)
  split_ifs with h <;> omega

/-- The two neighbours of the root do not alternate. -/
theorem no_cycle (h1 : F X ((N : ℚ) * 2 ^ e) = ((N + 1 : ℤ) : ℚ) * 2 ^ e)
    (h2 : F X (((N + 1 : ℤ) : ℚ) * 2 ^ e) = (N : ℚ) * 2 ^ e) : False := by
  have hu := c.upos
  have hn := c.Npos
  have hlo := c.lo
  have hhi := c.hi
  have hsq := c.sq
  have hsq1 := c.sq1
  -- the first quotient is `N + j`
  have q1le := c.q_low_le
  rw [add_zero] at q1le
  have q1ge : (N : ℚ) * 2 ^ e ≤ rnd (X / ((N : ℚ) * 2 ^ e)) := by
    have := c.F_sum_ge (k := 0) le_rfl
    rw [add_zero] at this
    linarith
  obtain ⟨j, hj0, hj⟩ := c.mulU (rep_rnd _) q1ge
  have hj2 : j ≤ 2 := by
    have h3 := q1le.1
    rw [hj] at h3
    have := le_of_mul_le_mul_right h3 hu
    have : N + j ≤ N + 2 := by exact_mod_cast this
    omega
  have hjt : N = 2 ^ 24 - 1 → j ≤ 1 := by
    intro ht
    have h3 := q1le.2 ht
    rw [hj] at h3
    have := le_of_mul_le_mul_right h3 hu
    have : N + j ≤ N + 1 := by exact_mod_cast this
    omega
  unfold F at h1 h2
  rw [hj, show (N : ℚ) * 2 ^ e + ((N + j : ℤ) : ℚ) * 2 ^ e = ((2 * N + j : ℤ) : ℚ) * 2 ^ e by push_cast; ring] at h1
  have quot0 := c.quot 0 le_rfl
  rw [add_zero, Int.cast_zero, add_zero] at quot0
  have quot1 := c.quot 1 (by norm_num)
  -- the second quotient
  set q2 := rnd (X / (((N + 1 : ℤ) : ℚ) * 2 ^ e)) with hq2
  have hX0 : (0 : ℚ) ≤ X' := by
    have : (0 : ℤ) ≤ X' := by nlinarith
    exact_mod_cast this
  have hv1 : X / (((N + 1 : ℤ) : ℚ) * 2 ^ e) < 2 ^ 24 * 2 ^ e := by
    rw [quot1]
    refine mul_lt_mul_of_pos_right ?_ hu
    rw [div_lt_iff₀ (by push_cast; positivity)]
    have h3 : X' < 2 ^ 24 * (N + 1) := by nlinarith
    have : (X' : ℚ) < ((2 ^ 24 * (N + 1) : ℤ) : ℚ) := by exact_mod_cast h3
    push_cast at this ⊢
    linarith
  have hv1' : 0 ≤ X / (((N + 1 : ℤ) : ℚ) * 2 ^ e) := by
    rw [quot1]; push_cast; positivity
  have err2 := c.err hv1' hv1
  rw [← hq2, quot1, abs_le] at err2
  have q2lt : q2 < ((N + 1 : ℤ) : ℚ) * 2 ^ e := by
    by_contra hcon
    push Not at hcon
    have : 2 * (((N + 1 : ℤ) : ℚ) * 2 ^ e) ≤ rnd (((N + 1 : ℤ) : ℚ) * 2 ^ e + q2) :=
      le_rnd (rep_double (c.repU (by rw [abs_of_nonneg (by omega)]; omega))) (by linarith)
    push_cast at this h2
    nlinarith
  rcases (by omega : j = 0 ∨ j = 1 ∨ j = 2) with rfl | rfl | rfl
  · -- exact
    have h3 : Rep (((2 * N + 0 : ℤ) : ℚ) * 2 ^ e) := by
      have := rep_double (c.repU (k := N) (by rw [abs_of_nonneg (by omega)]; omega))
      convert this using 1; push_cast; ring
    rw [rnd_of_rep h3] at h1
    push_cast at h1
    nlinarith
  · -- a tie that went up: `N` odd
    rw [c.tie] at h1
    have hodd : N % 2 = 1 := by
      by_contra h3
      rw [if_pos (by omega)] at h1
      push_cast at h1
      nlinarith
    have ht := c.tie
    rw [if_neg (by omega)] at ht
    -- the second quotient is below `N`
    have q2lt' : q2 < (N : ℚ) * 2 ^ e := by
      by_contra hcon
      push Not at hcon
      have h3 : ((2 * N + 1 : ℤ) : ℚ) * 2 ^ e ≤ ((N + 1 : ℤ) : ℚ) * 2 ^ e + q2 := by push_cast; linarith
      have h4 := rnd_mono h3
      rw [ht] at h4
      push_cast at h4 h2
      nlinarith
    -- so `X'/(N+1) ≤ N - 1/2`
    have h5 : (X' : ℚ) / (N + (1 : ℤ)) ≤ N - 1 / 2 := by
      by_contra hcon
      push Not at hcon
      have h6 : ((N - 1 : ℤ) : ℚ) * 2 ^ e < q2 := by
        push_cast
        have := mul_lt_mul_of_pos_right hcon hu
        linarith [err2.1]
      have h7 : Rep q2 := rep_rnd _
      obtain ⟨m, f, g1, g2, g3⟩ := h7
      have hq0 : 0 < q2 := by
        refine lt_trans ?_ h6
        have : (0 : ℤ) < N - 1 := by omega
        have : (0 : ℚ) < ((N - 1 : ℤ) : ℚ) := by exact_mod_cast this
        positivity
      have g4 : e ≤ ex q2 := by
        refine le_ex_of_le ?_
        rw [abs_of_pos hq0, zpow_add₀ (by norm_num), mul_comm]
        refine le_trans (mul_le_mul_of_nonneg_right ?_ hu.le) h6.le
        have : (2 ^ 23 : ℤ) ≤ N - 1 := by omega
        have : ((2 ^ 23 : ℤ) : ℚ) ≤ ((N - 1 : ℤ) : ℚ) := by exact_mod_cast this
        exact_mod_cast this
      have g5 := Rep.exp_le g1 g2 g3
      have g6 : q2 = ((m * 2 ^ (f - e).toNat : ℤ) : ℚ) * 2 ^ e := by
        rw [g1]
        push_cast
        rw [← zpow_natCast, Int.toNat_of_nonneg (by omega), mul_assoc, ← zpow_add₀ (by norm_num), sub_add_cancel]
      rw [g6] at h6 q2lt'
      have a1 := lt_of_mul_lt_mul_right h6 hu.le
      have a2 := lt_of_mul_lt_mul_right q2lt' hu.le
      have a1' : N - 1 < m * 2 ^ (f - e).toNat := by exact_mod_cast a1
      have a2' : m * 2 ^ (f - e).toNat < N := by exact_mod_cast a2
      omega
    have h6 : (N : ℚ) + 1 / 2 ≤ X' / N := by
      by_contra hcon
      push Not at hcon
      have hv : X / ((N : ℚ) * 2 ^ e) < 2 ^ 24 * 2 ^ e := by
        rw [quot0]
        refine mul_lt_mul_of_pos_right (hcon.trans ?_) hu
        have : (N + 1 : ℤ) ≤ 2 ^ 24 := by omega
        have : ((N + 1 : ℤ) : ℚ) ≤ ((2 ^ 24 : ℤ) : ℚ) := by exact_mod_cast this
        push_cast at this
        linarith
      have hv' : 0 ≤ X / ((N : ℚ) * 2 ^ e) := by rw [quot0]; positivity
      have err1 := c.err hv' hv
      rw [hj, quot0, abs_le] at err1
      have := mul_lt_mul_of_pos_right hcon hu
      push_cast at err1
      linarith [err1.2]
    rw [div_le_iff₀ (by push_cast; positivity)] at h5
    rw [le_div_iff₀ hn] at h6
    push_cast at h5
    nlinarith
  · -- two units: `X' = N² + 3N/2` or half a unit more
    have hnt : N ≠ 2 ^ 24 - 1 := fun ht => by have := hjt ht; omega
    have h6 : (N : ℚ) + 3 / 2 ≤ X' / N := by
      by_contra hcon
      push Not at hcon
      have hv : X / ((N : ℚ) * 2 ^ e) < 2 ^ 24 * 2 ^ e := by
        rw [quot0]
        refine mul_lt_mul_of_pos_right (hcon.trans ?_) hu
        have : (N + 2 : ℤ) ≤ 2 ^ 24 := by omega
        have : ((N + 2 : ℤ) : ℚ) ≤ ((2 ^ 24 : ℤ) : ℚ) := by exact_mod_cast this
        push_cast at this
        linarith
      have hv' : 0 ≤ X / ((N : ℚ) * 2 ^ e) := by rw [quot0]; positivity
      have err1 := c.err hv' hv
      rw [hj, quot0, abs_le] at err1
      have := mul_lt_mul_of_pos_right hcon hu
      push_cast at err1
      linarith [err1.2]
    have h5 : (X' : ℚ) / (N + (1 : ℤ)) ≤ N + 1 / 2 := by
      by_contra hcon
      push Not at hcon
      have h7 : (N : ℚ) * 2 ^ e < q2 := by
        have := mul_lt_mul_of_pos_right hcon hu
        linarith [err2.1]
      obtain ⟨k, hk, hk'⟩ := c.mulU (rep_rnd _) h7.le
      rw [← hq2] at hk'
      rw [hk'] at h7 q2lt
      have a1 := lt_of_mul_lt_mul_right h7 hu.le
      have a2 := lt_of_mul_lt_mul_right q2lt hu.le
      have a1' : N < N + k := by exact_mod_cast a1
      have a2' : N + k < N + 1 := by exact_mod_cast a2
      omega
    rw [div_le_iff₀ (by push_cast; positivity)] at h5
    rw [le_div_iff₀ hn] at h6
    push_cast at h5
    have b1 : 2 * N * N + 3 * N ≤ 2 * X' := by
      have : ((2 * N * N + 3 * N : ℤ) : ℚ) ≤ ((2 * X' : ℤ) : ℚ) := by push_cast; nlinarith
      exact_mod_cast this
    have b2 : 2 * X' ≤ 2 * N * N + 3 * N + 1 := by
      have : ((2 * X' : ℤ) : ℚ) ≤ ((2 * N * N + 3 * N + 1 : ℤ) : ℚ) := by push_cast; nlinarith
      exact_mod_cast this
    obtain ⟨d, hd⟩ := c.d23
    have hdvd : (2 ^ 24 : ℤ) ∣ 2 * X' := ⟨d, by rw [hd]; ring⟩
    rcases (by omega : 2 * X' = 2 * N * N + 3 * N ∨ 2 * X' = 2 * N * N + 3 * N + 1) with h | h
    · rw [h, show 2 * N * N + 3 * N = N * (2 * N + 3) by ring] at hdvd
      have hcop : IsCoprime (2 ^ 24 : ℤ) (2 * N + 3) := by
        apply IsCoprime.pow_left
        exact ⟨-(N + 1), 1, by ring⟩
      have := Int.le_of_dvd (by omega) (hcop.dvd_of_dvd_mul_right hdvd)
      omega
    · rw [h, show 2 * N * N + 3 * N + 1 = (N + 1) * (2 * N + 1) by ring] at hdvd
      have hcop : IsCoprime (2 ^ 24 : ℤ) (2 * N + 1) := by
        apply IsCoprime.pow_left
        exact ⟨-N, 1, by ring⟩
      have := Int.le_of_dvd (by omega) (hcop.dvd_of_dvd_mul_right hdvd)
      omega

/-- A fixed point is one of the two neighbours of the root. -/
theorem fixed {y : ℚ} (hy : Rep y) (h : (N : ℚ) * 2 ^ e ≤ y) (hf : F X y = y) :
    y = (N : ℚ) * 2 ^ e ∨ y = ((N + 1 : ℤ) : ℚ) * 2 ^ e ∧ N * N < X' := by
  have hu := c.upos
  have hn := c.Npos
  have hlo := c.lo
  have hhi := c.hi
  have hsq := c.sq
  have hsq1 := c.sq1
  obtain ⟨k, hk, rfl⟩ := c.mulU hy h
  rcases (by omega : k = 0 ∨ 1 ≤ k) with rfl | hk1
  · left; rw [add_zero]
  right
  unfold F at hf
  -- enough: `X'/(N+k) ≤ N + k - 2` is impossible
  have hno : ∀ hb : N + k ≤ 2 ^ 24, X' ≤ (N + k - 2) * (N + k) → False := by
    intro hb hX
    have h1 : rnd (X / (((N + k : ℤ) : ℚ) * 2 ^ e)) ≤ ((N + k - 2 : ℤ) : ℚ) * 2 ^ e := by
      refine rnd_le (c.repU (by rw [abs_of_nonneg (by omega)]; omega)) ?_
      rw [c.quot k hk]
      refine mul_le_mul_of_nonneg_right ?_ hu.le
      have hk' : (0 : ℚ) ≤ k := by exact_mod_cast hk
      rw [div_le_iff₀ (by positivity)]
      exact_mod_cast hX
    have h2 : rnd (((N + k : ℤ) : ℚ) * 2 ^ e + rnd (X / (((N + k : ℤ) : ℚ) * 2 ^ e))) ≤
        2 * (((N + k - 1 : ℤ) : ℚ) * 2 ^ e) := by
      refine rnd_le (rep_double (c.repU (by rw [abs_of_nonneg (by omega)]; omega))) ?_
      push_cast at h1 ⊢
      linarith
    push_cast at h2 hf
    nlinarith
  rcases (by omega : k = 1 ∨ 2 ≤ k) with rfl | hk2
  · refine ⟨rfl, ?_⟩
    by_contra hcon
    have hXeq : X' = N * N := by omega
    have q1 := c.quot 1 (by norm_num)
    have hN3 : (3 : ℚ) ≤ N := by
      have : (3 : ℤ) ≤ N := by omega
      exact_mod_cast this
    have hN24 : (N : ℚ) + 1 ≤ 2 ^ 24 := by
      have : (N + 1 : ℤ) ≤ 2 ^ 24 := by omega
      exact_mod_cast this
    have hqv : (X' : ℚ) / (N + (1 : ℤ)) ≤ N - 3 / 4 := by
      rw [div_le_iff₀ (by push_cast; positivity), hXeq]
      push_cast
      nlinarith
    have hq0 : 0 ≤ X / (((N + 1 : ℤ) : ℚ) * 2 ^ e) := by
      rw [q1, hXeq]; push_cast; positivity
    have hqu : X / (((N + 1 : ℤ) : ℚ) * 2 ^ e) ≤ (N - 3 / 4) * 2 ^ e := by
      rw [q1]; exact mul_le_mul_of_nonneg_right hqv hu.le
    have e1 := (abs_le.1 (c.err hq0 (lt_of_le_of_lt hqu (mul_lt_mul_of_pos_right (by linarith) hu)))).2
    set q := rnd (X / (((N + 1 : ℤ) : ℚ) * 2 ^ e)) with hq
    have hqn : 0 ≤ q := rnd_nonneg hq0
    have hs : ((N + 1 : ℤ) : ℚ) * 2 ^ e + q ≤ (2 * N + 3 / 4) * 2 ^ e := by
      push_cast; linarith
    have hs0 : 0 ≤ ((N + 1 : ℤ) : ℚ) * 2 ^ e + q := by push_cast; positivity
    have hes : ex (((N + 1 : ℤ) : ℚ) * 2 ^ e + q) ≤ e + 1 := by
      refine ex_le_of_lt (by have := c.he; omega) ?_
      rw [abs_of_nonneg hs0, show e + 1 + 24 = 25 + e by ring, zpow_add₀ (by norm_num)]
      refine lt_of_le_of_lt hs (mul_lt_mul_of_pos_right ?_ hu)
      norm_num
      norm_num at hN24
      linarith
    have h4 := zpow_le_zpow_right₀ (by norm_num : (1 : ℚ) ≤ 2) hes
    rw [zpow_add₀ (by norm_num)] at h4
    simp only [zpow_one] at h4
    have e2 := (abs_le.1 (rnd_err (((N + 1 : ℤ) : ℚ) * 2 ^ e + q))).2
    have h5 : rnd (((N + 1 : ℤ) : ℚ) * 2 ^ e + q) = 2 * (((N + 1 : ℤ) : ℚ) * 2 ^ e) := by linarith
    rw [h5] at e2
    have e3 : 2 * (((N + 1 : ℤ) : ℚ) * 2 ^ e) - (((N + 1 : ℤ) : ℚ) * 2 ^ e + q) ≤ 2 ^ e := by linarith
    push_cast at e3 hs
    linarith
  · exfalso
    rcases le_or_gt (N + k) (2 ^ 24) with hb | hb
    · exact hno hb (by nlinarith)
    · -- far above
      have hk' : (0 : ℚ) ≤ k := by exact_mod_cast hk
      set y := ((N + k : ℤ) : ℚ) * 2 ^ e with hydef
      set c24 : ℚ := 2 ^ 24 * 2 ^ e with hc24
      have hyc : c24 < y := by
        rw [hydef, hc24]
        refine mul_lt_mul_of_pos_right ?_ hu
        exact_mod_cast hb
      -- the spacing at `y`
      obtain ⟨m, f, g1, g2, g3⟩ := hy
      have g4 := Rep.exp_le g1 g2 g3
      have hy0 : 0 < y := by
        have : 0 < c24 := by positivity
        linarith
      have hey : e + 1 ≤ ex y := by
        refine le_ex_of_le ?_
        rw [abs_of_pos hy0, show e + 1 + 23 = 24 + e by ring, zpow_add₀ (by norm_num)]
        have := hyc.le
        rw [hc24] at this
        exact_mod_cast this
      set v : ℚ := 2 ^ ex y with hv
      have hvpos : 0 < v := by positivity
      have hv2 : 2 * 2 ^ e ≤ v := by
        have := zpow_le_zpow_right₀ (by norm_num : (1 : ℚ) ≤ 2) hey
        rw [zpow_add₀ (by norm_num)] at this
        simp only [zpow_one] at this
        linarith
      -- both `y` and `c24` are multiples of `v` or `c24` is at least one step below
      have hstep : c24 + v ≤ y := by
        have hmul : y = ((m * 2 ^ (f - ex y).toNat : ℤ) : ℚ) * v := by
          rw [hv]
          conv_lhs => rw [g1]
          push_cast
          rw [← zpow_natCast, Int.toNat_of_nonneg (by omega), mul_assoc, ← zpow_add₀ (by norm_num), sub_add_cancel]
        rcases (by omega : ex y = e + 1 ∨ e + 2 ≤ ex y) with h3 | h3
        · have hcm : c24 = ((2 ^ 23 : ℤ) : ℚ) * v := by
            rw [hv, h3, hc24, zpow_add₀ (by norm_num)]; push_cast; ring
          rw [hcm, hmul] at hyc ⊢
          have := lt_of_mul_lt_mul_right hyc hvpos.le
          have : 2 ^ 23 < m * 2 ^ (f - ex y).toNat := by exact_mod_cast this
          have : 2 ^ 23 + 1 ≤ m * 2 ^ (f - ex y).toNat := by omega
          have : ((2 ^ 23 + 1 : ℤ) : ℚ) ≤ ((m * 2 ^ (f - ex y).toNat : ℤ) : ℚ) := by exact_mod_cast this
          have := mul_le_mul_of_nonneg_right this hvpos.le
          push_cast at this ⊢
          linarith
        · have h4 : (2 : ℚ) ^ (ex y + 23) ≤ y := by
            rcases ex_le y hy0.ne' with h5 | h5
            · have := c.he; omega
            · rwa [abs_of_pos hy0] at h5
          have h6 : 4 * 2 ^ e ≤ v := by
            have := zpow_le_zpow_right₀ (by norm_num : (1 : ℚ) ≤ 2) h3
            rw [zpow_add₀ (by norm_num)] at this
            norm_num at this
            linarith
          rw [zpow_add₀ (by norm_num), ← hv] at h4
          norm_num at h4
          rw [hc24]
          linarith
      -- the quotient
      have hX : X' ≤ (2 ^ 24 - 2) * (N + k) := by
        rcases le_or_gt X' (2 ^ 47) with h3 | h3
        · nlinarith
        · obtain ⟨d, hd⟩ := c.d24 h3.le
          have hd2 : d ≤ 2 ^ 24 - 1 := by
            have : (N + 1) * (N + 1) ≤ 2 ^ 24 * 2 ^ 24 := by nlinarith
            have : 2 ^ 24 * d < 2 ^ 24 * 2 ^ 24 := by rw [← hd]; linarith
            omega
          have hk2' : 2 ^ 24 + 2 ≤ N + k := by
            have h5 : c24 + 2 * 2 ^ e ≤ y := by linarith
            rw [hc24, hydef, show (2 : ℚ) ^ 24 * 2 ^ e + 2 * 2 ^ e = ((2 ^ 24 + 2 : ℤ) : ℚ) * 2 ^ e by push_cast; ring] at h5
            have := le_of_mul_le_mul_right h5 hu
            exact_mod_cast this
          have : (2 ^ 24 - 2) * (2 ^ 24 + 2) ≤ (2 ^ 24 - 2) * (N + k) := by
            apply mul_le_mul_of_nonneg_left hk2'; norm_num
          rw [hd]
          norm_num at this ⊢
          omega
      have hq : rnd (X / y) ≤ ((2 ^ 24 - 2 : ℤ) : ℚ) * 2 ^ e := by
        refine rnd_le (c.repU (by norm_num)) ?_
        rw [hydef, c.quot k hk]
        refine mul_le_mul_of_nonneg_right ?_ hu.le
        rw [div_le_iff₀ (by positivity)]
        exact_mod_cast hX
      have hsum : y + rnd (X / y) < 2 * y - v := by
        have : ((2 ^ 24 - 2 : ℤ) : ℚ) * 2 ^ e = c24 - 2 * 2 ^ e := by rw [hc24]; push_cast; ring
        rw [this] at hq
        linarith
      have hq0 : 0 ≤ rnd (X / y) := rnd_nonneg (div_nonneg c.X_pos.le hy0.le)
      have herr := rnd_err (y + rnd (X / y))
      have hexs : ex (y + rnd (X / y)) ≤ ex y + 1 := by
        refine ex_le_of_lt (by have := ex_ge y; omega) ?_
        have h3 := lt_ex y
        rw [abs_of_pos hy0] at h3
        rw [abs_of_nonneg (by linarith), show ex y + 1 + 24 = ex y + 24 + 1 by ring, zpow_add₀ (by norm_num)]
        simp only [zpow_one]
        linarith
      have h4 := zpow_le_zpow_right₀ (by norm_num : (1 : ℚ) ≤ 2) hexs
      rw [zpow_add₀ (by norm_num), ← hv] at h4
      simp only [zpow_one] at h4
      have h5 := (abs_le.1 herr).2
      linarith

end Ctx

/-- Every positive finite argument has a context. -/
theorem exists_ctx {X : ℚ} (hX : Rep X) (h0 : 0 < X) (h1 : X < 2 ^ 128) : ∃ N X' e, Ctx X N X' e := by
  obtain ⟨m, f, hm, hm24, hf⟩ := hX
  have hfp := two_zpow_pos f
  have hmpos : 0 < m := by
    have : (0 : ℚ) < m := by
      rw [hm] at h0
      exact pos_of_mul_pos_left h0 hfp.le
    exact_mod_cast this
  set E := Int.log 2 X with hE
  have lo : (2 : ℚ) ^ E ≤ X := by exact_mod_cast Int.zpow_log_le_self (by norm_num : 1 < 2) h0
  have hi : X < (2 : ℚ) ^ (E + 1) := by exact_mod_cast Int.lt_zpow_succ_log_self (b := 2) (by norm_num) X
  have hlt : ∀ {a b : ℤ}, (2 : ℚ) ^ a < 2 ^ b → a < b := fun h => (zpow_lt_zpow_iff_right₀ (by norm_num)).1 h
  have hE1 : E ≤ f + 23 := by
    have : (2 : ℚ) ^ E < 2 ^ (24 + f) := by
      refine lt_of_le_of_lt lo ?_
      rw [hm, zpow_add₀ (by norm_num)]
      refine mul_lt_mul_of_pos_right ?_ hfp
      rw [abs_of_pos hmpos] at hm24
      exact_mod_cast hm24
    have := hlt this
    omega
  have hE2 : f ≤ E := by
    have : (2 : ℚ) ^ f < 2 ^ (E + 1) := by
      refine lt_of_le_of_lt ?_ hi
      rw [hm]
      have : (1 : ℚ) ≤ m := by exact_mod_cast hmpos
      nlinarith
    have := hlt this
    omega
  have hE3 : E < 128 := hlt (lt_of_le_of_lt lo (by exact_mod_cast h1))
  set h := E / 2 with hh
  set e := h - 23 with he
  have hee : (2 : ℚ) ^ e * 2 ^ e = 2 ^ (2 * e) := by rw [← zpow_add₀ (by norm_num)]; ring_nf
  have hepos : (0 : ℚ) < 2 ^ (2 * e) := two_zpow_pos _
  set X' : ℤ := m * 2 ^ (f - 2 * e).toNat with hX'
  have hval : X = X' * (2 : ℚ) ^ (2 * e) := by
    rw [hX']
    push_cast
    rw [← zpow_natCast, Int.toNat_of_nonneg (by omega), mul_assoc, ← zpow_add₀ (by norm_num), sub_add_cancel, hm]
  have hb : ∀ k : ℕ, (2 : ℚ) ^ ((k : ℤ) + 2 * e) ≤ X ↔ (2 : ℤ) ^ k ≤ X' := by
    intro k
    rw [hval, zpow_add₀ (by norm_num), mul_le_mul_iff_left₀ hepos]
    exact_mod_cast Iff.rfl
  have hlow : (2 : ℤ) ^ 46 ≤ X' := by
    rw [← hb 46]
    refine le_trans (zpow_le_zpow_right₀ (by norm_num) ?_) lo
    push_cast; omega
  have hhigh : X' < (2 : ℤ) ^ 48 := by
    by_contra hcon
    have := (hb 48).2 (not_lt.1 hcon)
    have := hlt (lt_of_le_of_lt this hi)
    push_cast at this; omega
  have hdvd : ∀ k : ℕ, (k : ℤ) ≤ f - 2 * e → (2 : ℤ) ^ k ∣ X' := fun k hk =>
    (pow_dvd_pow 2 (by omega)).mul_left _
  have hX0 : 0 ≤ X' := by norm_num at hlow; omega
  set n := Nat.sqrt X'.toNat with hn
  have s1 : (n : ℤ) * n ≤ X' := by
    have := Nat.sqrt_le X'.toNat
    rw [← hn] at this
    have : ((n * n : ℕ) : ℤ) ≤ (X'.toNat : ℤ) := by exact_mod_cast this
    rw [Int.toNat_of_nonneg hX0] at this
    exact_mod_cast this
  have s2 : X' < ((n : ℤ) + 1) * (n + 1) := by
    have := Nat.lt_succ_sqrt X'.toNat
    rw [← hn] at this
    have : (X'.toNat : ℤ) < (((n + 1) * (n + 1) : ℕ) : ℤ) := by exact_mod_cast this
    rw [Int.toNat_of_nonneg hX0] at this
    exact_mod_cast this
  refine ⟨n, X', e, ?_, ?_, s1, s2, by rw [hee, hval], hdvd 23 (by push_cast; omega), ?_, by omega, by omega⟩
  · by_contra hcon
    norm_num at hcon hlow
    nlinarith
  · by_contra hcon
    norm_num at hcon hhigh
    nlinarith
  · intro h47
    refine hdvd 24 ?_
    have := (hb 47).2 h47
    have := hlt (lt_of_le_of_lt this hi)
    push_cast at this ⊢; omega

/-- A binary32 number below `2^128` leaves a gap. -/
theorem add_two_lt {X : ℚ} (hX : Rep X) (h1 : X < 2 ^ 128) : X + 2 < 2 ^ 128 := by
  rcases lt_or_ge X (2 ^ 127) with h | h
  · norm_num at h ⊢; linarith
  have h0 : 0 < X := lt_of_lt_of_le (by norm_num) h
  obtain ⟨m, f, hm, hm24, hf⟩ := hX
  have he := Rep.exp_le hm hm24 hf
  have hex : 104 ≤ ex X := le_ex_of_le (by rw [abs_of_pos h0]; exact_mod_cast h)
  have hk : X = ((m * 2 ^ (f - 104).toNat : ℤ) : ℚ) * 2 ^ 104 := by
    push_cast
    rw [← zpow_natCast, Int.toNat_of_nonneg (by omega)]
    have : (2 : ℚ) ^ 104 = 2 ^ (104 : ℤ) := by norm_num
    rw [this, mul_assoc, ← zpow_add₀ (by norm_num), sub_add_cancel, hm]
  generalize m * 2 ^ (f - 104).toNat = k at hk
  have hlt : k < 2 ^ 24 := by
    rw [hk, show (2 : ℚ) ^ 128 = ((2 ^ 24 : ℤ) : ℚ) * 2 ^ 104 by norm_num] at h1
    exact_mod_cast lt_of_mul_lt_mul_right h1 (by positivity)
  have : k ≤ 2 ^ 24 - 1 := by omega
  have : (k : ℚ) ≤ ((2 ^ 24 - 1 : ℤ) : ℚ) := by exact_mod_cast this
  rw [hk]
  norm_num at this ⊢
  linarith

open F32 Util

theorem isHalf : Is (lit 0.5) (1 / 2) := by
  have : Rep (1 / 2 : ℚ) := by
    have := rep_two_zpow (e := -1) (by norm_num)
    norm_num at this ⊢; exact this
  have h2 := Is.lit this (by norm_num)
  norm_num at h2 ⊢
  exact h2

/-- One step of the code, given that the sum does not overflow. -/
theorem half_step {s : F32} {S : ℚ} (hs : s.Is S) (h : Rep (S / 2)) : Is (lit 0.5 * s) (S / 2) := by
  have hS : |S| < 2 ^ 128 := hs.2 ▸ abs_val_lt s
  have h2 : 1 / 2 * S = S / 2 := by ring
  have h3 := isHalf.mul hs (by rwa [h2]) (by
    rw [h2, abs_div, abs_of_pos (by norm_num : (0 : ℚ) < 2)]
    have := abs_nonneg S
    linarith)
  rwa [h2] at h3

namespace Ctx
variable {X : ℚ} {N X' e : ℤ}

/-- One step of the code is `F`. -/
theorem step (c : Ctx X N X' e) {x y : F32} {Y : ℚ} (hx : x.Is X) (hy : y.Is Y) (ha : (N : ℚ) * 2 ^ e ≤ Y)
    (hY : Y < 2 ^ 127) : Is (lit 0.5 * (y + x / y)) (F X Y) ∧ F X Y < 2 ^ 127 := by
  have hu := c.upos
  have hn := c.Npos
  have hrep : Rep Y := hy.2 ▸ rep_val y
  have hY0 : 0 < Y := lt_of_lt_of_le (mul_pos hn hu) ha
  have hq0 : 0 ≤ X / Y := div_nonneg c.X_pos.le hY0.le
  have hu40 : (2 : ℚ) ^ e ≤ 2 ^ 40 := by
    have := zpow_le_zpow_right₀ (by norm_num : (1 : ℚ) ≤ 2) c.he'
    exact_mod_cast this
  have hq : X / Y ≤ 2 ^ 66 := by
    rw [div_le_iff₀ hY0]
    have h1 : X ≤ 2 ^ 26 * 2 ^ e * (N * 2 ^ e) := by
      rw [c.val]
      have h2 := c.sq1
      have h3 := c.hi
      have h4 := c.lo
      have : X' ≤ 2 ^ 26 * N := by nlinarith
      have : (X' : ℚ) ≤ 2 ^ 26 * N := by exact_mod_cast this
      nlinarith [mul_pos hu hu]
    refine h1.trans ?_
    have h5 : (2 : ℚ) ^ 26 * 2 ^ e ≤ 2 ^ 66 := by
      calc (2 : ℚ) ^ 26 * 2 ^ e ≤ 2 ^ 26 * 2 ^ 40 := by linarith
        _ = 2 ^ 66 := by norm_num
    exact mul_le_mul h5 ha (by positivity) (by positivity)
  have hr0 := rnd_nonneg hq0
  have hr : rnd (X / Y) ≤ 2 ^ 66 := rnd_le (by exact_mod_cast rep_two_zpow (e := 66) (by norm_num)) hq
  have h1 := hx.div_rnd hy hY0.ne' (by rw [abs_of_nonneg hr0]; exact hr.trans_lt (by norm_num))
  have hs0 : 0 ≤ rnd (Y + rnd (X / Y)) := rnd_nonneg (by linarith)
  have hs : rnd (Y + rnd (X / Y)) ≤ 2 ^ 127 + 2 ^ 126 := by
    refine rnd_le ⟨3, 126, by norm_num, by norm_num, by norm_num⟩ ?_
    have : (2 : ℚ) ^ 66 ≤ 2 ^ 126 := by norm_num
    linarith
  have h2 := hy.add_rnd h1 (by rw [abs_of_nonneg hs0]; exact hs.trans_lt (by norm_num))
  refine ⟨half_step h2 (c.F_rep hrep ha), ?_⟩
  unfold F
  norm_num at hs ⊢
  linarith

/-- What the iteration achieves from `y`. -/
def Good (X : ℚ) (N e : ℤ) (x y : F32) : Prop :=
  ∀ prev, (Arith.eq y prev = true → F X y.val = y.val) →
    ∃ r R, sqrtNewtonRaphsonF x y prev = some r ∧ r.Is R ∧ (N : ℚ) * 2 ^ e ≤ R ∧ F X R = R

theorem good_next (c : Ctx X N X' e) {x y : F32} {Y : ℚ} (hx : x.Is X) (hy : y.Is Y) (ha : (N : ℚ) * 2 ^ e ≤ Y)
    (hY : Y < 2 ^ 127) (h : ∀ z : F32, z.Is (F X Y) → Good X N e x z) : Good X N e x y := by
  intro prev hp
  rw [sqrtNewtonRaphsonF]
  by_cases he : Arith.eq y prev = true
  · rw [if_pos he]
    exact ⟨y, Y, rfl, hy, ha, by have := hp he; rwa [hy.2] at this⟩
  · rw [if_neg he]
    have hs := (c.step hx hy ha hY).1
    refine h _ hs y (fun h2 => ?_)
    rw [hs.eq hy, decide_eq_true_iff] at h2
    rw [hs.2, h2, h2]

theorem good_fixed (c : Ctx X N X' e) {x y : F32} {Y : ℚ} (hx : x.Is X) (hy : y.Is Y) (ha : (N : ℚ) * 2 ^ e ≤ Y)
    (hY : Y < 2 ^ 127) (hf : F X Y = Y) : Good X N e x y := by
  intro prev hp
  rw [sqrtNewtonRaphsonF]
  by_cases he : Arith.eq y prev = true
  · rw [if_pos he]
    exact ⟨y, Y, rfl, hy, ha, hf⟩
  · rw [if_neg he]
    have hs := (c.step hx hy ha hY).1
    rw [hf] at hs
    rw [sqrtNewtonRaphsonF, if_pos (by rw [hs.eq hy]; simp)]
    exact ⟨_, Y, rfl, hs, ha, hf⟩

/-- The iteration ends. -/
theorem good (c : Ctx X N X' e) {x : F32} (hx : x.Is X) (n : ℕ) : ∀ {y : F32} {Y : ℚ} {k : ℤ}, y.Is Y →
    Y = ((N + k : ℤ) : ℚ) * 2 ^ e → 0 ≤ k → k ≤ n → Y < 2 ^ 127 → Good X N e x y := by
  have hu := c.upos
  induction n using Nat.strong_induction_on with
  | _ n ih =>
  intro y Y k hy hYk hk hkn hY
  have hge : (N : ℚ) * 2 ^ e ≤ Y := by
    rw [hYk]
    refine mul_le_mul_of_nonneg_right ?_ hu.le
    have : N ≤ N + k := by omega
    exact_mod_cast this
  have hrep : Rep Y := hy.2 ▸ rep_val y
  have hY0 : 0 < Y := lt_of_lt_of_le (mul_pos c.Npos hu) hge
  rcases le_or_gt X (Y * Y) with hX | hX
  · have hle := c.F_le hrep hY0 hX
    rcases hle.lt_or_eq with hlt | heq
    · refine c.good_next hx hy hge hY (fun z hz => ?_)
      obtain ⟨j, hj, hj'⟩ := c.mulU (c.F_rep hrep hge) (c.F_ge hrep hge)
      have hjk : j < k := by
        rw [hj', hYk] at hlt
        have := lt_of_mul_lt_mul_right hlt hu.le
        have : N + j < N + k := by exact_mod_cast this
        omega
      exact ih j.toNat (by omega) hz hj' hj (by omega) (hlt.trans hY)
    · exact c.good_fixed hx hy hge hY heq
  · have hYa := c.root_cases hrep hge hX
    subst hYa
    by_cases h1 : F X ((N : ℚ) * 2 ^ e) = (N : ℚ) * 2 ^ e
    · exact c.good_fixed hx hy hge hY h1
    · refine c.good_next hx hy hge hY (fun z hz => ?_)
      have hFY := (c.step hx hy hge hY).2
      have hFge := c.F_ge hrep hge
      have hFb : F X ((N : ℚ) * 2 ^ e) = ((N + 1 : ℤ) : ℚ) * 2 ^ e := by
        obtain ⟨j, hj, hj'⟩ := c.mulU (c.F_rep hrep hge) hFge
        have h2 := c.F_low_le
        rw [hj'] at h2 h1 ⊢
        have := le_of_mul_le_mul_right h2 hu
        have : N + j ≤ N + 1 := by exact_mod_cast this
        have : j ≠ 0 := by rintro rfl; apply h1; rw [add_zero]
        congr 2
        omega
      rw [hFb] at hz hFge hFY
      refine c.good_fixed hx hz hFge hFY ?_
      have hrepb : Rep (((N + 1 : ℤ) : ℚ) * 2 ^ e) := hz.2 ▸ rep_val z
      have hbge := c.F_ge hrepb hFge
      obtain ⟨j, hj, hj'⟩ := c.mulU (c.F_rep hrepb hFge) hbge
      have hble : F X (((N + 1 : ℤ) : ℚ) * 2 ^ e) ≤ ((N + 1 : ℤ) : ℚ) * 2 ^ e := by
        refine c.F_le hrepb (lt_of_lt_of_le (mul_pos c.Npos hu) hFge) ?_
        rw [c.val, show ((N + 1 : ℤ) : ℚ) * 2 ^ e * (((N + 1 : ℤ) : ℚ) * 2 ^ e) =
          (((N + 1) * (N + 1) : ℤ) : ℚ) * (2 ^ e * 2 ^ e) by push_cast; ring]
        refine mul_le_mul_of_nonneg_right ?_ (mul_pos hu hu).le
        exact_mod_cast c.sq1.le
      have hjn : j ≠ 0 := by
        rintro rfl
        rw [add_zero] at hj'
        exact c.no_cycle hFb hj'
      rw [hj'] at hble ⊢
      have := le_of_mul_le_mul_right hble hu
      have : N + j ≤ N + 1 := by exact_mod_cast this
      congr 2
      omega

/-- `sqrtNewtonRaphsonF(x, x, 0)` on a positive argument. -/
theorem newton (c : Ctx X N X' e) {x : F32} (hx : x.Is X) :
    ∃ r R, sqrtNewtonRaphsonF x x (lit 0) = some r ∧ r.Is R ∧ (N : ℚ) * 2 ^ e ≤ R ∧ F X R = R := by
  have hu := c.upos
  have hX0 := c.X_pos
  have hrep : Rep X := hx.2 ▸ rep_val x
  have hlt : X < 2 ^ 128 := by
    have := abs_val_lt x
    rw [hx.2, abs_of_pos hX0] at this
    exact this
  have is0 : Is (lit 0) 0 := by
    have := Is.litInt (n := 0) (by norm_num); exact_mod_cast this
  rw [sqrtNewtonRaphsonF, if_neg (by rw [hx.eq is0]; simpa using hX0.ne')]
  have rep1 : Rep 1 := by exact_mod_cast rep_int (n := 1) (by norm_num)
  have hd : Is (x / x) 1 := by
    have := hx.div hx hX0.ne' (by rwa [div_self hX0.ne']) (by rw [div_self hX0.ne']; norm_num)
    rwa [div_self hX0.ne'] at this
  have hs0 : 1 ≤ rnd (X + 1) := le_rnd rep1 (by linarith)
  have hs1 : rnd (X + 1) ≤ X + 2 := by
    have := rnd_nearest (X + 1) hrep
    have h2 : |X - (X + 1)| = 1 := by norm_num
    rw [h2] at this
    linarith [(abs_le.1 this).2]
  have hs2 : rnd (X + 1) < 2 ^ 128 := hs1.trans_lt (add_two_lt hrep hlt)
  have hsum := hx.add_rnd hd (by rw [abs_of_nonneg (by linarith)]; exact hs2)
  have hrep1 : Rep (rnd (X + 1) / 2) := rep_half (rep_rnd _) (le_trans (by norm_num) hs0)
  have hy := half_step hsum hrep1
  have ha : (N : ℚ) * 2 ^ e ≤ rnd (X + 1) / 2 := by
    have h1 : 2 * ((N : ℚ) * 2 ^ e) ≤ rnd (X + 1) := by
      refine le_rnd (rep_double (c.repU (by have := c.lo; have := c.hi; rw [abs_of_nonneg (by omega)]; omega))) ?_
      have h2 : ((N : ℚ) * 2 ^ e) * (N * 2 ^ e) ≤ X := by
        rw [c.val, show (N : ℚ) * 2 ^ e * (N * 2 ^ e) = ((N * N : ℤ) : ℚ) * (2 ^ e * 2 ^ e) by push_cast; ring]
        refine mul_le_mul_of_nonneg_right ?_ (mul_pos hu hu).le
        exact_mod_cast c.sq
      nlinarith [sq_nonneg ((N : ℚ) * 2 ^ e - 1)]
    linarith
  obtain ⟨k, hk, hk'⟩ := c.mulU hrep1 ha
  refine c.good hx k.toNat hy hk' hk (by omega) (by norm_num at hs2 ⊢; linarith) x (fun h => ?_)
  -- the second iterate equals the argument only at a fixed point
  rw [hy.eq hx, decide_eq_true_iff] at h
  rw [hy.2, h]
  unfold F
  rw [div_self hX0.ne', rnd_of_rep rep1, h]

end Ctx
end CS.NewtonSqrt
