import Mathlib.Data.Rat.Defs
import Mathlib.Data.Real.Basic
import Mathlib.Analysis.Real.Sqrt
import Mathlib.Algebra.Order.Floor.Ring
import Mathlib.Analysis.SpecialFunctions.Pow.Real
import Mathlib.Analysis.SpecialFunctions.Complex.Arg
import Mathlib.Analysis.SpecialFunctions.Log.Base

/-!
# Numeric interfaces

The header computes on `float`.  Every numeric function of the model is written once over a type `α`
carrying the operations the C++ text uses, and is then read in two ways: over `ℝ` (exact arithmetic)
and over `F32` (IEEE-754 binary32, `Verif/Float`).
-/

namespace CS

/-- The C++ built-in operations on `float` used by `include/colorsystem.hpp`.
`lt`, `le`, `eq` are the C++ comparison operators (they return `bool`; on NaN they are `false`).
`a > b` in the header is `lt b a`, `a >= b` is `le b a`. -/
class Arith (α : Type) extends Add α, Sub α, Mul α, Div α, Neg α where
  /-- a decimal literal such as `0.3127f` -/
  lit : ℚ → α
  /-- the operator `<` -/
  lt : α → α → Bool
  /-- the operator `<=` -/
  le : α → α → Bool
  /-- the operator `==` -/
  eq : α → α → Bool
  /-- the cast `(int)x`; `none` when the truncated value does not fit `int` (undefined behaviour) -/
  toInt : α → Option ℤ
  /-- conversion of an `int` to floating point -/
  ofInt : ℤ → α

export Arith (lit)

/-- The `<math.h>` functions used by the header. -/
class Libm (α : Type) extends Arith α where
  fabs : α → α
  sqrtf : α → α
  cbrtf : α → α
  powf : α → α → α
  expf : α → α
  logf : α → α
  log10f : α → α
  sinf : α → α
  cosf : α → α
  /-- `atan2f y x` -/
  atan2f : α → α → α
  fmodf : α → α → α

/-- Range of C++ `int` (32 bit). -/
def intMin : ℤ := -2147483648
/-- Range of C++ `int` (32 bit). -/
def intMax : ℤ := 2147483647

/-- Truncation toward zero of a real number. -/
noncomputable def rtrunc (x : ℝ) : ℤ := if 0 ≤ x then ⌊x⌋ else ⌈x⌉

open Classical in
/-- Exact arithmetic: the reading of the header in which no operation rounds. -/
noncomputable instance instArithReal : Arith ℝ where
  lit q := (q : ℝ)
  lt a b := decide (a < b)
  le a b := decide (a ≤ b)
  eq a b := decide (a = b)
  toInt x := if intMin ≤ rtrunc x ∧ rtrunc x ≤ intMax then some (rtrunc x) else none
  ofInt i := (i : ℝ)

/-- Exact arithmetic for the library functions.  Where the C function is undefined (square root or
power of a negative number, division by zero) the values below are arbitrary; the theorems carry the
corresponding guards. -/
noncomputable instance instLibmReal : Libm ℝ where
  toArith := instArithReal
  fabs x := |x|
  sqrtf x := Real.sqrt x
  cbrtf x := if 0 ≤ x then x ^ ((1 : ℝ) / 3) else -((-x) ^ ((1 : ℝ) / 3))
  powf x y := x ^ y
  expf x := Real.exp x
  logf x := Real.log x
  log10f x := Real.logb 10 x
  sinf x := Real.sin x
  cosf x := Real.cos x
  atan2f y x := Complex.arg ⟨x, y⟩
  fmodf x y := x - y * (rtrunc (x / y) : ℝ)

section simp_lemmas
variable (a b : ℝ)

@[simp] theorem lit_real (q : ℚ) : (lit q : ℝ) = (q : ℝ) := rfl
@[simp] theorem ofInt_real (i : ℤ) : (Arith.ofInt i : ℝ) = (i : ℝ) := rfl
@[simp] theorem lt_real : (Arith.lt a b = true) = (a < b) := by
  simp [Arith.lt]
@[simp] theorem le_real : (Arith.le a b = true) = (a ≤ b) := by
  simp [Arith.le]
@[simp] theorem eq_real : (Arith.eq a b = true) = (a = b) := by
  simp [Arith.eq]
@[simp] theorem lt_real_false : (Arith.lt a b = false) = (b ≤ a) := by
  simp [Arith.lt]
@[simp] theorem le_real_false : (Arith.le a b = false) = (b < a) := by
  simp [Arith.le]
@[simp] theorem eq_real_false : (Arith.eq a b = false) = (a ≠ b) := by
  simp [Arith.eq]
theorem toInt_real : (Arith.toInt a : Option ℤ) =
    if intMin ≤ rtrunc a ∧ rtrunc a ≤ intMax then some (rtrunc a) else none := rfl
@[simp] theorem fabs_real : (Libm.fabs a : ℝ) = |a| := rfl
@[simp] theorem sqrtf_real : (Libm.sqrtf a : ℝ) = Real.sqrt a := rfl
theorem cbrtf_real : (Libm.cbrtf a : ℝ) =
    if 0 ≤ a then a ^ ((1 : ℝ) / 3) else -((-a) ^ ((1 : ℝ) / 3)) := rfl
@[simp] theorem powf_real : (Libm.powf a b : ℝ) = a ^ b := rfl
@[simp] theorem expf_real : (Libm.expf a : ℝ) = Real.exp a := rfl
@[simp] theorem logf_real : (Libm.logf a : ℝ) = Real.log a := rfl
@[simp] theorem log10f_real : (Libm.log10f a : ℝ) = Real.logb 10 a := rfl
@[simp] theorem sinf_real : (Libm.sinf a : ℝ) = Real.sin a := rfl
@[simp] theorem cosf_real : (Libm.cosf a : ℝ) = Real.cos a := rfl
theorem atan2f_real : (Libm.atan2f a b : ℝ) = Complex.arg ⟨b, a⟩ := rfl
theorem fmodf_real : (Libm.fmodf a b : ℝ) = a - b * (rtrunc (a / b) : ℝ) := rfl
end simp_lemmas

end CS
