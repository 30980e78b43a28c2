import Verif.Spec.LinAlg

/-! # Specification vocabulary: chromaticities, primaries, white -/

namespace CS.Spec
open Matrix

/-- The matrix whose columns are the primaries' chromaticities `(x, y, 1-x-y)`. -/
def primaries (xR yR xG yG xB yB : ℝ) : Matrix (Fin 3) (Fin 3) ℝ :=
  !![xR, xG, xB; yR, yG, yB; 1 - xR - yR, 1 - xG - yG, 1 - xB - yB]

/-- XYZ of the chromaticity `(x, y)` at luminance 1. -/
noncomputable def whiteXYZ (x y : ℝ) : Fin 3 → ℝ := ![x / y, 1, (1 - x - y) / y]

/-- The colour `t` (XYZ) has chromaticity `(x, y)`: it is not black and `X = x·(X+Y+Z)`,
`Y = y·(X+Y+Z)`. -/
def HasChroma (t : Tristimulus ℝ) (x y : ℝ) : Prop :=
  t.a + t.b + t.c ≠ 0 ∧ t.a = x * (t.a + t.b + t.c) ∧ t.b = y * (t.a + t.b + t.c)

/-- A set of primaries and a white which define a colour space: the white has a usable `y`, the
primaries are linearly independent, and every primary contributes to the white (no zero weight). -/
structure GoodPrimaries (xR yR xG yG xB yB xW yW : ℝ) : Prop where
  white : 1e-8 ≤ |yW|
  indep : (primaries xR yR xG yG xB yB).det ≠ 0
  weights : ∀ w : Fin 3 → ℝ, primaries xR yR xG yG xB yB *ᵥ w = whiteXYZ xW yW → ∀ i, w i ≠ 0

end CS.Spec
