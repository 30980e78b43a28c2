import Mathlib.Data.Rat.Defs
import Mathlib.Algebra.Order.Field.Rat
import Mathlib.Algebra.Order.Field.Basic
import Mathlib.Tactic.Positivity

/-! Sample tables with decimal entries. -/

namespace CS.Data

/-- A table of 400 decimal literals: entry `i` is `m[i] / 10^scale`. -/
structure Table where
  scale : ℕ
  m : List ℕ
  len : m.length = 400

namespace Table

/-- The literal at index `i`. -/
def q (t : Table) (i : Fin 400) : ℚ := (t.m[i.val]'(by rw [t.len]; exact i.2) : ℚ) / 10 ^ t.scale

theorem q_nonneg (t : Table) (i : Fin 400) : 0 ≤ t.q i := by
  unfold q; positivity

/-- Whether every entry is at most one; evaluated by the kernel. -/
def leOne (t : Table) : Bool := t.m.all (· ≤ 10 ^ t.scale)

theorem q_le_one {t : Table} (h : t.leOne = true) (i : Fin 400) : t.q i ≤ 1 := by
  unfold leOne at h
  rw [List.all_eq_true] at h
  have := h (t.m[i.val]'(by rw [t.len]; exact i.2)) (List.getElem_mem _)
  simp only [decide_eq_true_eq] at this
  unfold q
  rw [div_le_one (by positivity)]
  exact_mod_cast this

end Table
end CS.Data
