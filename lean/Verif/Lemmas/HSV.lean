import Verif.Model.Tristimulus
import Mathlib.Tactic.Linarith
import Mathlib.Tactic.IntervalCases
import Mathlib.Tactic.Positivity
import Mathlib.Tactic.FieldSimp
import Mathlib.Tactic.NormNum
import Mathlib.Tactic.Ring
import Mathlib.Tactic.LinearCombination
import Mathlib.Algebra.Order.Archimedean.Basic

/-! Helper lemmas for the HSV conversions in exact arithmetic. -/

namespace CS
namespace Tristimulus

theorem mod360_neg {r : ℝ} (h : r < 0) : mod360 r = mod360 (r + 360) := by
  rw [mod360]; simp [h]
theorem mod360_big {r : ℝ} (h : 360 < r) : mod360 r = mod360 (r - 360) := by
  rw [mod360]
  have : ¬ r < 0 := by linarith
  simp [h, this]
theorem mod360_mid {r : ℝ} (h0 : 0 ≤ r) (h1 : r ≤ 360) : mod360 r = some r := by
  rw [mod360]; simp [not_lt.mpr h0, not_lt.mpr h1]

theorem mod360_real_aux (n : ℕ) : ∀ r : ℝ, -360 * n ≤ r → r ≤ 360 * (n + 1) →
    ∃ (k : ℤ) (x : ℝ), mod360 r = some x ∧ x = r + 360 * k ∧ 0 ≤ x ∧ x ≤ 360 := by
  induction n with
  | zero =>
    intro r h0 h1
    norm_num at h0 h1
    exact ⟨0, r, mod360_mid h0 h1, by simp, h0, h1⟩
  | succ n ih =>
    intro r h0 h1
    push_cast at h0 h1
    rcases lt_or_ge r 0 with h | h
    · obtain ⟨k, x, e, hk, hx⟩ := ih (r + 360) (by linarith)
        (by nlinarith [(Nat.cast_nonneg n : (0 : ℝ) ≤ n)])
      exact ⟨k + 1, x, by rw [mod360_neg h, e], by rw [hk]; push_cast; ring, hx⟩
    · rcases lt_or_ge 360 r with h' | h'
      · obtain ⟨k, x, e, hk, hx⟩ := ih (r - 360)
          (by nlinarith [(Nat.cast_nonneg n : (0 : ℝ) ≤ n)]) (by linarith)
        exact ⟨k - 1, x, by rw [mod360_big h', e], by rw [hk]; push_cast; ring, hx⟩
      · exact ⟨0, r, mod360_mid h h', by simp, h, h'⟩

/-- On the reals the wrap always returns, with a value in `[0, 360]` congruent to the argument. -/
theorem mod360_real (r : ℝ) :
    ∃ (k : ℤ) (x : ℝ), mod360 r = some x ∧ x = r + 360 * k ∧ 0 ≤ x ∧ x ≤ 360 := by
  obtain ⟨n, hn⟩ := exists_nat_ge |r|
  have := abs_le.mp hn
  have h0 : (0 : ℝ) ≤ n := Nat.cast_nonneg n
  exact mod360_real_aux n r (by nlinarith [this.1]) (by nlinarith [this.2])

theorem maxi_real (a b : ℝ) : maxi a b = Max.max a b := by
  unfold maxi
  split
  · next h => simp at h; rw [max_eq_left h.le]
  · next h => simp at h; rw [max_eq_right h]
theorem mini_real (a b : ℝ) : mini a b = Min.min a b := by
  unfold mini
  split
  · next h => simp at h; rw [min_eq_left h.le]
  · next h => simp at h; rw [min_eq_right h]

theorem toInt_of {x : ℝ} {k : ℕ} (h0 : (k : ℝ) ≤ x) (h1 : x < k + 1) (hk : k ≤ 100) :
    (Arith.toInt x : Option ℤ) = some (k : ℤ) := by
  have hx : 0 ≤ x := le_trans (Nat.cast_nonneg k) h0
  have : rtrunc x = k := by
    rw [rtrunc, if_pos hx, Int.floor_eq_iff]
    exact ⟨by exact_mod_cast h0, by exact_mod_cast h1⟩
  rw [toInt_real, this, if_pos]
  unfold intMin intMax
  omega

/-- `fromHSVwrapped` in sector `k`. -/
theorem fromHSVwrapped_of {h s v : ℝ} {k : ℕ} (h0 : (k : ℝ) ≤ h / 60) (h1 : h / 60 < k + 1)
    (hk : k ≤ 100) :
    fromHSVwrapped h s v = .ok (
      let r := h / 60 - k
      let m := v * (1 - s)
      let n := v * (1 - s * r)
      let p := v * (1 - s * (1 - r))
      if k % 6 = 0 then ⟨v, p, m⟩ else if k % 6 = 1 then ⟨n, v, m⟩
      else if k % 6 = 2 then ⟨m, v, p⟩ else if k % 6 = 3 then ⟨m, n, v⟩
      else if k % 6 = 4 then ⟨p, m, v⟩ else ⟨v, m, n⟩) := by
  unfold fromHSVwrapped
  have e : (Arith.toInt (h / lit 60) : Option ℤ) = some (k : ℤ) := by
    simpa using toInt_of h0 h1 hk
  rw [e]
  have hm : Int.tmod (k : ℤ) 6 = ((k % 6 : ℕ) : ℤ) := by
    rw [Int.tmod_eq_emod_of_nonneg (by positivity)]; norm_cast
  have hlt : k % 6 < 6 := Nat.mod_lt _ (by norm_num)
  simp only [hm, lit_real, ofInt_real, Rat.cast_one, Int.cast_natCast, Rat.cast_ofNat]
  generalize k % 6 = j at hlt
  interval_cases j <;> simp

end Tristimulus
end CS
