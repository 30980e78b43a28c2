import Verif.Lemmas.QR
import Verif.Lemmas.Norms

/-!
# The parts of `svdcmp` that do not depend on how `==` is read
-/

namespace CS.SOLVER
open Arith Libm Matrix
variable {m n : ℕ} {ε : ℝ} {E : ℝ → ℝ → Bool}

theorem truthy_read (hE : NearEq ε E) : @truthy ℝ (readEq E) = @truthy ℝ instLibmReal := by
  funext x
  have h1 : @truthy ℝ (readEq E) x = !(E x ((0 : ℚ) : ℝ)) := rfl
  rw [h1, Rat.cast_zero]
  by_cases hx : x = 0
  · rw [(hE.zero x).2 hx]
    have : ¬ (@truthy ℝ instLibmReal x = true) := by rw [truthy_real]; exact fun h => h hx
    simpa using this
  · rw [truthy_real.2 hx]
    have : ¬ E x 0 = true := by rw [hE.zero]; exact hx
    simpa using this

theorem leftStep_read (hE : NearEq ε E) : @leftStep ℝ (readEq E) m n = @leftStep ℝ instLibmReal m n := by
  funext i st
  unfold leftStep
  rw [truthy_read hE]
  rfl

theorem rightStep_read (hE : NearEq ε E) : @rightStep ℝ (readEq E) m n = @rightStep ℝ instLibmReal m n := by
  funext i st
  unfold rightStep
  rw [truthy_read hE]
  rfl

theorem householder_read (hE : NearEq ε E) : @householder ℝ (readEq E) m n = @householder ℝ instLibmReal m n := by
  funext a w
  unfold householder
  rw [leftStep_read hE, rightStep_read hE]
  rfl

theorem accRightStep_read (hE : NearEq ε E) :
    @accRightStep ℝ (readEq E) m n = @accRightStep ℝ instLibmReal m n := by
  funext a rv1 i st
  unfold accRightStep
  rw [truthy_read hE]
  rfl

theorem accRight_read (hE : NearEq ε E) : @accRight ℝ (readEq E) m n = @accRight ℝ instLibmReal m n := by
  funext a rv1 g v
  unfold accRight
  rw [accRightStep_read hE]

theorem accLeftStep_read (hE : NearEq ε E) :
    @accLeftStep ℝ (readEq E) m n = @accLeftStep ℝ instLibmReal m n := by
  funext w i a
  unfold accLeftStep
  rw [truthy_read hE]
  rfl

theorem accLeft_read (hE : NearEq ε E) : @accLeft ℝ (readEq E) m n = @accLeft ℝ instLibmReal m n := by
  funext a w
  unfold accLeft
  rw [accLeftStep_read hE]

theorem sweepStep_read (hE : NearEq ε E) : @sweepStep ℝ (readEq E) m n = @sweepStep ℝ instLibmReal m n := by
  funext j st
  unfold sweepStep
  rw [truthy_read hE]
  rfl

theorem qrStep_read (hE : NearEq ε E) : @qrStep ℝ (readEq E) m n = @qrStep ℝ instLibmReal m n := by
  funext d l k z
  unfold qrStep
  rw [sweepStep_read hE]
  rfl

theorem negCol_read : @negCol ℝ (readEq E) n = @negCol ℝ instLibmReal n := rfl

theorem rotCols_read : @rotCols ℝ (readEq E) m n = @rotCols ℝ instLibmReal m n := rfl

/-- The absorption test. -/
theorem negligible_read {anorm x : ℝ} (hE : NearEq ε E) (ha : 0 ≤ anorm)
    (h : @negligible ℝ (readEq E) anorm x = true) : |x| ≤ ε * anorm :=
  hE.absorb anorm x ha h

theorem negligible_zero_read {anorm : ℝ} (hE : NearEq ε E) : @negligible ℝ (readEq E) anorm 0 = true := by
  show E (|0| + anorm) anorm = true
  rw [abs_zero, zero_add]
  exact hE.refl _

/-- `svdcmp` finds the zero `rv1[0]` under every reading. -/
def splitsRead (hE : NearEq ε E) : @Splits ℝ (readEq E) := by
  letI := readEq E
  exact
  { Good := fun a => 0 ≤ a
    zero := by show (0 : ℝ) ≤ ((0 : ℚ) : ℝ); simp
    max := by
      intro a t ha
      show 0 ≤ if decide (a < t) = true then t else a
      split_ifs with h
      · exact ha.trans (by simpa using h : a < t).le
      · exact ha
    neg0 := by
      intro a _
      show @negligible ℝ (readEq E) a ((0 : ℚ) : ℝ) = true
      rw [Rat.cast_zero]; exact negligible_zero_read hE
    neg00 := by
      intro a _
      show @negligible ℝ (readEq E) a (((0 : ℚ) : ℝ) * ((0 : ℚ) : ℝ)) = true
      rw [Rat.cast_zero, mul_zero]; exact negligible_zero_read hE }

end CS.SOLVER
