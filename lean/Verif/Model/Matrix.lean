import Verif.Arith

/-!
# `Vector3` and `Matrix3`  (`include/colorsystem.hpp` 49-178)
-/

namespace CS

/-- `class Vector3` (hpp:49-64).  The `std::array<float,3>` is three fields. -/
@[ext] structure Vector3 (α : Type) where
  x : α
  y : α
  z : α

/-- `class Matrix3` (hpp:66-178).  The `std::array<float,9> m_` is nine fields; element `m_[k]` is
`get k`. -/
@[ext] structure Matrix3 (α : Type) where
  m0 : α
  m1 : α
  m2 : α
  m3 : α
  m4 : α
  m5 : α
  m6 : α
  m7 : α
  m8 : α

namespace Vector3
variable {α : Type}

/-- `Vector3::operator[]` (hpp:55). -/
def get (v : Vector3 α) : Fin 3 → α
  | 0 => v.x
  | 1 => v.y
  | 2 => v.z

/-- `Vector3::dot` (hpp:62-63). -/
def dot [Arith α] (a b : Vector3 α) : α :=
  a.get 0 * b.get 0 + a.get 1 * b.get 1 + a.get 2 * b.get 2

end Vector3

namespace Matrix3
variable {α : Type}

/-- `Matrix3::operator[]` / `m_[i]` (hpp:90). -/
def get (m : Matrix3 α) : Fin 9 → α
  | 0 => m.m0
  | 1 => m.m1
  | 2 => m.m2
  | 3 => m.m3
  | 4 => m.m4
  | 5 => m.m5
  | 6 => m.m6
  | 7 => m.m7
  | 8 => m.m8

/-- `Matrix3::M(x, y) = x + y * 3` (hpp:73). -/
def M (x y : Fin 3) : Fin 9 := ⟨x.val + y.val * 3, by omega⟩

/-- `Matrix3::I(y, x) = (x - 1) + (y - 1) * 3` (hpp:74), one-based indices. -/
def I (y x : ℕ) (hy : 1 ≤ y ∧ y ≤ 3 := by decide) (hx : 1 ≤ x ∧ x ≤ 3 := by decide) : Fin 9 :=
  ⟨(x - 1) + (y - 1) * 3, by omega⟩

/-- `Matrix3::Matrix3(void)` (hpp:83). -/
def ident [Arith α] : Matrix3 α :=
  ⟨lit 1, lit 0, lit 0, lit 0, lit 1, lit 0, lit 0, lit 0, lit 1⟩

/-- `Matrix3::fromArray` (hpp:84-87); the array argument has nine elements. -/
def fromArray (p : Fin 9 → α) : Matrix3 α :=
  ⟨p 0, p 1, p 2, p 3, p 4, p 5, p 6, p 7, p 8⟩

/-- `Matrix3::diag` (hpp:88). -/
def diag [Arith α] (v : Vector3 α) : Matrix3 α :=
  ⟨v.get 0, lit 0, lit 0, lit 0, v.get 1, lit 0, lit 0, lit 0, v.get 2⟩

/-- `Matrix3::row` (hpp:92). -/
def row (m : Matrix3 α) (i : Fin 3) : Vector3 α := ⟨m.get (M 0 i), m.get (M 1 i), m.get (M 2 i)⟩

/-- `Matrix3::col` (hpp:93). -/
def col (m : Matrix3 α) (i : Fin 3) : Vector3 α := ⟨m.get (M i 0), m.get (M i 1), m.get (M i 2)⟩

/-- `Matrix3::transpose` (hpp:94-99). -/
def transpose (a : Matrix3 α) : Matrix3 α :=
  ⟨a.get (M 0 0), a.get (M 0 1), a.get (M 0 2), a.get (M 1 0), a.get (M 1 1), a.get (M 1 2),
   a.get (M 2 0), a.get (M 2 1), a.get (M 2 2)⟩

/-- `Matrix3::crosstalk` (hpp:101-105). -/
def crosstalk [Arith α] (r : α) : Matrix3 α :=
  let a := lit 1 - lit 2 * r
  ⟨a, r, r, r, a, r, r, r, a⟩

/-- `Matrix3::crosstalkInvert` (hpp:106-112). -/
def crosstalkInvert [Arith α] (r : α) : Matrix3 α :=
  let i := lit 1 / (lit 3 * r - lit 1)
  let a := (r - lit 1) * i
  let b := r * i
  ⟨a, b, b, b, a, b, b, b, a⟩

/-- `Matrix3::mul(a, b)` (hpp:114-128). -/
def mul [Arith α] (a b : Matrix3 α) : Matrix3 α :=
  ⟨a.get (M 0 0) * b.get (M 0 0) + a.get (M 1 0) * b.get (M 0 1) + a.get (M 2 0) * b.get (M 0 2),
   a.get (M 0 0) * b.get (M 1 0) + a.get (M 1 0) * b.get (M 1 1) + a.get (M 2 0) * b.get (M 1 2),
   a.get (M 0 0) * b.get (M 2 0) + a.get (M 1 0) * b.get (M 2 1) + a.get (M 2 0) * b.get (M 2 2),
   a.get (M 0 1) * b.get (M 0 0) + a.get (M 1 1) * b.get (M 0 1) + a.get (M 2 1) * b.get (M 0 2),
   a.get (M 0 1) * b.get (M 1 0) + a.get (M 1 1) * b.get (M 1 1) + a.get (M 2 1) * b.get (M 1 2),
   a.get (M 0 1) * b.get (M 2 0) + a.get (M 1 1) * b.get (M 2 1) + a.get (M 2 1) * b.get (M 2 2),
   a.get (M 0 2) * b.get (M 0 0) + a.get (M 1 2) * b.get (M 0 1) + a.get (M 2 2) * b.get (M 0 2),
   a.get (M 0 2) * b.get (M 1 0) + a.get (M 1 2) * b.get (M 1 1) + a.get (M 2 2) * b.get (M 1 2),
   a.get (M 0 2) * b.get (M 2 0) + a.get (M 1 2) * b.get (M 2 1) + a.get (M 2 2) * b.get (M 2 2)⟩

/-- `Matrix3::apply(m, v)` (hpp:130-136). -/
def apply [Arith α] (m : Matrix3 α) (v : Vector3 α) : Vector3 α :=
  ⟨m.get (M 0 0) * v.get 0 + m.get (M 1 0) * v.get 1 + m.get (M 2 0) * v.get 2,
   m.get (M 0 1) * v.get 0 + m.get (M 1 1) * v.get 1 + m.get (M 2 1) * v.get 2,
   m.get (M 0 2) * v.get 0 + m.get (M 1 2) * v.get 1 + m.get (M 2 2) * v.get 2⟩

/-- `Matrix3::det` (hpp:138-144). -/
def det [Arith α] (m : Matrix3 α) : α :=
  m.get (I 1 1) * m.get (I 2 2) * m.get (I 3 3) + m.get (I 2 1) * m.get (I 3 2) * m.get (I 1 3) +
    m.get (I 3 1) * m.get (I 1 2) * m.get (I 2 3) - m.get (I 1 1) * m.get (I 3 2) * m.get (I 2 3) -
    m.get (I 3 1) * m.get (I 2 2) * m.get (I 1 3) - m.get (I 2 1) * m.get (I 1 2) * m.get (I 3 3)

/-- `Matrix3::mul(m, float)` (hpp:146-150). -/
def smul [Arith α] (m : Matrix3 α) (a : α) : Matrix3 α :=
  ⟨m.get 0 * a, m.get 1 * a, m.get 2 * a, m.get 3 * a, m.get 4 * a, m.get 5 * a, m.get 6 * a,
   m.get 7 * a, m.get 8 * a⟩

/-- `Matrix3::div(m, float)` (hpp:151-152). -/
def sdiv [Arith α] (m : Matrix3 α) (a : α) : Matrix3 α := smul m (lit 1 / a)

/-- `Matrix3::add` (hpp:154-159). -/
def add [Arith α] (a b : Matrix3 α) : Matrix3 α :=
  ⟨a.get 0 + b.get 0, a.get 1 + b.get 1, a.get 2 + b.get 2, a.get 3 + b.get 3, a.get 4 + b.get 4,
   a.get 5 + b.get 5, a.get 6 + b.get 6, a.get 7 + b.get 7, a.get 8 + b.get 8⟩

/-- `Matrix3::invert` (hpp:161-174). -/
def invert [Arith α] (a : Matrix3 α) : Matrix3 α :=
  smul
    ⟨a.get (I 2 2) * a.get (I 3 3) - a.get (I 2 3) * a.get (I 3 2),
     a.get (I 1 3) * a.get (I 3 2) - a.get (I 1 2) * a.get (I 3 3),
     a.get (I 1 2) * a.get (I 2 3) - a.get (I 1 3) * a.get (I 2 2),
     a.get (I 2 3) * a.get (I 3 1) - a.get (I 2 1) * a.get (I 3 3),
     a.get (I 1 1) * a.get (I 3 3) - a.get (I 1 3) * a.get (I 3 1),
     a.get (I 1 3) * a.get (I 2 1) - a.get (I 1 1) * a.get (I 2 3),
     a.get (I 2 1) * a.get (I 3 2) - a.get (I 2 2) * a.get (I 3 1),
     a.get (I 1 2) * a.get (I 3 1) - a.get (I 1 1) * a.get (I 3 2),
     a.get (I 1 1) * a.get (I 2 2) - a.get (I 1 2) * a.get (I 2 1)⟩
    (lit 1 / det a)

end Matrix3
end CS
