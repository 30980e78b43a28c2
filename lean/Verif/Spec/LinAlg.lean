import Verif.Model.Tristimulus
import Mathlib.LinearAlgebra.Matrix.NonsingularInverse
import Mathlib.LinearAlgebra.Matrix.Determinant.Basic
import Mathlib.LinearAlgebra.Matrix.Notation

/-!
# Specification vocabulary: Mathlib matrices and vectors

The property theorems on `Matrix3` are stated about Mathlib's `Matrix (Fin 3) (Fin 3) ℝ`: the nine
constructor arguments `a00, a01, a02, a10, …` of the C++ class are the rows of the matrix.
-/

namespace CS.Spec
open Matrix

/-- The mathematical matrix denoted by the nine numbers, row by row. -/
def toM (m : Matrix3 ℝ) : Matrix (Fin 3) (Fin 3) ℝ :=
  !![m.m0, m.m1, m.m2; m.m3, m.m4, m.m5; m.m6, m.m7, m.m8]

/-- The mathematical vector denoted by the three numbers. -/
def toV (v : Vector3 ℝ) : Fin 3 → ℝ := ![v.x, v.y, v.z]

/-- The vector of a colour's three components. -/
def triV (t : Tristimulus ℝ) : Fin 3 → ℝ := ![t.a, t.b, t.c]

end CS.Spec
