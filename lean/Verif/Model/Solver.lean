import Verif.Model.Spectrum
import Verif.Model.Gamut

/-!
# `SOLVER` and `Corrector`  (`include/colorsystem.hpp` 7390-7865)

`std::vector<float>` of length `n` is `Vec α n`, a rectangular `std::vector<std::vector<float>>` is
`Mat α m n` (the constructor `Matrix(r, c)` makes rectangular ones and nothing resizes a row).  All element
accesses are checked: an index outside the array is `UB.outOfBounds`.  Loop counters are `ℕ`; the only place
where the C++ code can form a negative index, `w[nm]` with `nm = l - 1` in the splitting test, is explicit in
`splitTest`.

The C++ locals are parameters and results of the loop bodies; no local is read before it is written.  The
unqualified `fabs` is the `float` overload (`<math.h>` in C++).
-/

namespace CS

/-- `for (i = lo; i < hi; i++) s = f(i, s)`. -/
def forUp {σ : Type} (lo hi : ℕ) (s : σ) (f : ℕ → σ → Except UB σ) : Except UB σ :=
  if lo < hi then do
    let s ← f lo s
    forUp (lo + 1) hi s f
  else .ok s
termination_by hi - lo

/-- `for (i = n - 1; i >= 0; i--) s = f(i, s)`. -/
def forDown {σ : Type} : ℕ → σ → (ℕ → σ → Except UB σ) → Except UB σ
  | 0, s, _ => .ok s
  | i + 1, s, f => do
    let s ← f i s
    forDown i s f

namespace SOLVER

/-- `SOLVER::Vector` (hpp:7409-7419) of length `n`. -/
abbrev Vec (α : Type) (n : ℕ) := Fin n → α
/-- `SOLVER::Matrix` (hpp:7421-7436) with `m` rows and `n` columns.  (A matrix object without rows reports
`cols() == 0`, so `m = 0` goes with `n = 0`.) -/
abbrev Mat (α : Type) (m n : ℕ) := Fin m → Fin n → α

section access
variable {α : Type} {m n : ℕ}

/-- `w[i]` as a value. -/
def rd (w : Vec α n) (i : ℕ) : Except UB α := if h : i < n then .ok (w ⟨i, h⟩) else .error .outOfBounds
/-- `w[i] = x`. -/
def wr (w : Vec α n) (i : ℕ) (x : α) : Except UB (Vec α n) :=
  if h : i < n then .ok (Function.update w ⟨i, h⟩ x) else .error .outOfBounds
/-- `a[i][j]` as a value. -/
def rd2 (a : Mat α m n) (i j : ℕ) : Except UB α :=
  if hi : i < m then if hj : j < n then .ok (a ⟨i, hi⟩ ⟨j, hj⟩) else .error .outOfBounds
  else .error .outOfBounds
/-- `a[i][j] = x`. -/
def wr2 (a : Mat α m n) (i j : ℕ) (x : α) : Except UB (Mat α m n) :=
  if hi : i < m then
    if hj : j < n then .ok (Function.update a ⟨i, hi⟩ (Function.update (a ⟨i, hi⟩) ⟨j, hj⟩ x))
    else .error .outOfBounds
  else .error .outOfBounds
end access

section
variable {α : Type} [Libm α] {m n : ℕ}
open Arith Libm

/-- `Vector(int d)`, `Matrix(int r, int c)`: value-initialised floats. -/
def vzero : Vec α n := fun _ => lit 0
/-- See `vzero`. -/
def mzero : Mat α m n := fun _ _ => lit 0

/-- The condition `if (x)` on a float: not equal to zero (true for NaN). -/
def truthy (x : α) : Bool := !(eq x (lit 0))

/-- `DSIGN` (hpp:7438). -/
def DSIGN (a b : α) : α := if lt (lit 0) b then fabs a else -(fabs a)

/-- `PYTHAG` (hpp:7439-7454). -/
def PYTHAG (a b : α) : α :=
  let at' := fabs a
  let bt := fabs b
  if lt bt at' then
    let ct := bt / at'
    at' * sqrtf (lit 1 + ct * ct)
  else if lt (lit 0) bt then
    let ct := at' / bt
    bt * sqrtf (lit 1 + ct * ct)
  else lit 0

/-! ### `svdcmp`, Householder reduction (hpp:7472-7545) -/

/-- Variables carried by the Householder loop. -/
structure HH (α : Type) (m n : ℕ) where
  a : Mat α m n
  w : Vec α n
  rv1 : Vec α n
  g : α
  scale : α
  anorm : α

/-- `scale += fabs(a[k][i])` over `k = i .. m-1` (hpp:7481-7482). -/
def colScale (a : Mat α m n) (i : ℕ) : Except UB α :=
  forUp i m (lit 0) fun k scale => do
    let x ← rd2 a k i
    .ok (scale + fabs x)

/-- Normalise column `i` and sum its squares (hpp:7485-7489). -/
def colNorm (a : Mat α m n) (i : ℕ) (scale : α) : Except UB (Mat α m n × α) :=
  forUp i m (a, lit 0) fun k (a, s) => do
    let x ← rd2 a k i
    let a ← wr2 a k i (x / scale)
    let y ← rd2 a k i
    let y' ← rd2 a k i
    .ok (a, s + y * y')

/-- `s = sum over k = lo .. m-1 of a[k][i] * a[k][j]` (hpp:7498-7499 and 7588-7589). -/
def colDot (a : Mat α m n) (lo i j : ℕ) : Except UB α :=
  forUp lo m (lit 0) fun k s => do
    let x ← rd2 a k i
    let y ← rd2 a k j
    .ok (s + x * y)

/-- `a[k][j] += f * a[k][i]` for `k = i .. m-1` (hpp:7501-7502 and 7591-7592). -/
def colAxpy (a : Mat α m n) (i j : ℕ) (f : α) : Except UB (Mat α m n) :=
  forUp i m a fun k a => do
    let x ← rd2 a k j
    let y ← rd2 a k i
    wr2 a k j (x + f * y)

/-- `a[k][i] = a[k][i] * t` for `k = i .. m-1` (hpp:7505-7506 and 7595-7596). -/
def colMul (a : Mat α m n) (i : ℕ) (t : α) : Except UB (Mat α m n) :=
  forUp i m a fun k a => do
    let x ← rd2 a k i
    wr2 a k i (x * t)

/-- The body of `if (scale)` of the left-hand reduction (hpp:7484-7507); returns `a` and `g`. -/
def leftReflect (a : Mat α m n) (i : ℕ) (scale : α) : Except UB (Mat α m n × α) := do
  let (a, s) ← colNorm a i scale
  let f ← rd2 a i i
  let g := -(DSIGN (sqrtf s) f)
  let h := f * g - s
  let a ← wr2 a i i (f - g)
  let a ← (if i ≠ n - 1 then
      forUp (i + 1) n a fun j a => do
        let s ← colDot a i i j
        let f := s / h
        colAxpy a i j f
    else .ok a)
  let a ← colMul a i scale
  .ok (a, g)

/-- The left-hand reduction (hpp:7475-7509). -/
def leftStep (i : ℕ) (st : HH α m n) : Except UB (HH α m n) := do
  let rv1 ← wr st.rv1 i (st.scale * st.g)
  let (a, g, scale) ← (if i < m then do
      let scale ← colScale st.a i
      if truthy scale then do
        let (a, g) ← leftReflect st.a i scale
        .ok (a, g, scale)
      else .ok (st.a, lit 0, scale)
    else .ok (st.a, lit 0, lit 0))
  let w ← wr st.w i (scale * g)
  .ok ⟨a, w, rv1, g, scale, st.anorm⟩

/-- `scale += fabs(a[i][k])` over `k = l .. n-1` (hpp:7515-7516). -/
def rowScale (a : Mat α m n) (i : ℕ) : Except UB α :=
  forUp (i + 1) n (lit 0) fun k scale => do
    let x ← rd2 a i k
    .ok (scale + fabs x)

/-- Normalise row `i` right of the diagonal and sum its squares (hpp:7519-7523). -/
def rowNorm (a : Mat α m n) (i : ℕ) (scale : α) : Except UB (Mat α m n × α) :=
  forUp (i + 1) n (a, lit 0) fun k (a, s) => do
    let x ← rd2 a i k
    let a ← wr2 a i k (x / scale)
    let y ← rd2 a i k
    let y' ← rd2 a i k
    .ok (a, s + y * y')

/-- `rv1[k] = a[i][k] / h` for `k = l .. n-1` (hpp:7528-7529). -/
def rowToRv1 (a : Mat α m n) (rv1 : Vec α n) (i : ℕ) (h : α) : Except UB (Vec α n) :=
  forUp (i + 1) n rv1 fun k rv1 => do
    let x ← rd2 a i k
    wr rv1 k (x / h)

/-- `s = sum over k = l .. n-1 of a[j][k] * a[i][k]` (hpp:7534-7535). -/
def rowDot (a : Mat α m n) (i j : ℕ) : Except UB α :=
  forUp (i + 1) n (lit 0) fun k s => do
    let x ← rd2 a j k
    let y ← rd2 a i k
    .ok (s + x * y)

/-- `a[j][k] += s * rv1[k]` for `k = l .. n-1` (hpp:7536-7537). -/
def rowAxpy (a : Mat α m n) (rv1 : Vec α n) (i j : ℕ) (s : α) : Except UB (Mat α m n) :=
  forUp (i + 1) n a fun k a => do
    let x ← rd2 a j k
    let y ← rd rv1 k
    wr2 a j k (x + s * y)

/-- `a[i][k] = a[i][k] * scale` for `k = l .. n-1` (hpp:7540-7541). -/
def rowMul (a : Mat α m n) (i : ℕ) (scale : α) : Except UB (Mat α m n) :=
  forUp (i + 1) n a fun k a => do
    let x ← rd2 a i k
    wr2 a i k (x * scale)

/-- The body of `if (scale)` of the right-hand reduction (hpp:7518-7542); returns `a`, `rv1` and `g`. -/
def rightReflect (a : Mat α m n) (rv1 : Vec α n) (i : ℕ) (scale : α) :
    Except UB (Mat α m n × Vec α n × α) := do
  let (a, s) ← rowNorm a i scale
  let f ← rd2 a i (i + 1)
  let g := -(DSIGN (sqrtf s) f)
  let h := f * g - s
  let a ← wr2 a i (i + 1) (f - g)
  let rv1 ← rowToRv1 a rv1 i h
  let a ← (if i ≠ m - 1 then
      forUp (i + 1) m a fun j a => do
        let s ← rowDot a i j
        rowAxpy a rv1 i j s
    else .ok a)
  let a ← rowMul a i scale
  .ok (a, rv1, g)

/-- The right-hand reduction (hpp:7511-7544); `std::max(x, y)` is `x < y ? y : x`. -/
def rightStep (i : ℕ) (st : HH α m n) : Except UB (HH α m n) := do
  let (a, rv1, g, scale) ← (if i < m ∧ i ≠ n - 1 then do
      let scale ← rowScale st.a i
      if truthy scale then do
        let (a, rv1, g) ← rightReflect st.a st.rv1 i scale
        .ok (a, rv1, g, scale)
      else .ok (st.a, st.rv1, lit 0, scale)
    else .ok (st.a, st.rv1, lit 0, lit 0))
  let wi ← rd st.w i
  let ri ← rd rv1 i
  let t := fabs wi + fabs ri
  .ok ⟨a, st.w, rv1, g, scale, if lt st.anorm t then t else st.anorm⟩

/-- The Householder loop (hpp:7473-7545). -/
def householder (a : Mat α m n) (w : Vec α n) : Except UB (HH α m n) :=
  forUp 0 n ⟨a, w, vzero, lit 0, lit 0, lit 0⟩ fun i st => do
    let st ← leftStep i st
    rightStep i st

/-! ### `svdcmp`, accumulation (hpp:7547-7604) -/

/-- `v[j][i] = (a[i][j] / a[i][l]) / g` for `j = l .. n-1` (hpp:7554-7555). -/
def vInit (a : Mat α m n) (v : Mat α n n) (i l : ℕ) (g : α) : Except UB (Mat α n n) :=
  forUp l n v fun j v => do
    let x ← rd2 a i j
    let y ← rd2 a i l
    wr2 v j i ((x / y) / g)

/-- `s = sum over k = l .. n-1 of a[i][k] * v[k][j]` (hpp:7559-7560). -/
def vDot (a : Mat α m n) (v : Mat α n n) (i j l : ℕ) : Except UB α :=
  forUp l n (lit 0) fun k s => do
    let x ← rd2 a i k
    let y ← rd2 v k j
    .ok (s + x * y)

/-- `v[k][j] += s * v[k][i]` for `k = l .. n-1` (hpp:7561-7562). -/
def vAxpy (v : Mat α n n) (i j l : ℕ) (s : α) : Except UB (Mat α n n) :=
  forUp l n v fun k v => do
    let x ← rd2 v k j
    let y ← rd2 v k i
    wr2 v k j (x + s * y)

/-- `v[i][j] = v[j][i] = 0` for `j = l .. n-1` (hpp:7565-7566). -/
def vClear (v : Mat α n n) (i l : ℕ) : Except UB (Mat α n n) :=
  forUp l n v fun j v => do
    let v ← wr2 v j i (lit 0)
    let x ← rd2 v j i
    wr2 v i j x

/-- One step of the accumulation of the right-hand transformation (hpp:7549-7571); carries `v`, `g`, `l`. -/
def accRightStep (a : Mat α m n) (rv1 : Vec α n) (i : ℕ) (st : Mat α n n × α × ℕ) :
    Except UB (Mat α n n × α × ℕ) := do
  let (v, g, l) := st
  let v ← (if i < n - 1 then do
      let v ← (if truthy g then do
          let v ← vInit a v i l g
          forUp l n v fun j v => do
            let s ← vDot a v i j l
            vAxpy v i j l s
        else .ok v)
      vClear v i l
    else .ok v)
  let v ← wr2 v i i (lit 1)
  let g ← rd rv1 i
  .ok (v, g, i)

/-- Accumulate the right-hand transformation (hpp:7547-7571). -/
def accRight (a : Mat α m n) (rv1 : Vec α n) (g : α) (v : Mat α n n) : Except UB (Mat α n n) := do
  let (v, _, _) ← forDown n (v, g, n) (accRightStep a rv1)
  .ok v

/-- `a[i][j] = 0` for `j = l .. n-1` (hpp:7579-7580). -/
def rowClear (a : Mat α m n) (i : ℕ) : Except UB (Mat α m n) :=
  forUp (i + 1) n a fun j a => wr2 a i j (lit 0)

/-- `a[j][i] = 0` for `j = i .. m-1` (hpp:7600-7601). -/
def colClear (a : Mat α m n) (i : ℕ) : Except UB (Mat α m n) :=
  forUp i m a fun j a => wr2 a j i (lit 0)

/-- One step of the accumulation of the left-hand transformation (hpp:7575-7604). -/
def accLeftStep (w : Vec α n) (i : ℕ) (a : Mat α m n) : Except UB (Mat α m n) := do
  let g ← rd w i
  let a ← (if i < n - 1 then rowClear a i else .ok a)
  let a ← (if truthy g then do
      let g := lit 1 / g
      let a ← (if i ≠ n - 1 then
          forUp (i + 1) n a fun j a => do
            let s ← colDot a (i + 1) i j
            let d ← rd2 a i i
            let f := (s / d) * g
            colAxpy a i j f
        else .ok a)
      colMul a i g
    else colClear a i)
  let d ← rd2 a i i
  wr2 a i i (d + lit 1)

/-- Accumulate the left-hand transformation (hpp:7573-7604). -/
def accLeft (a : Mat α m n) (w : Vec α n) : Except UB (Mat α m n) := forDown n a (accLeftStep w)

/-! ### `svdcmp`, diagonalisation (hpp:7606-7720) -/

/-- Arrays of the diagonalisation. -/
structure Dg (α : Type) (m n : ℕ) where
  a : Mat α m n
  w : Vec α n
  v : Mat α n n
  rv1 : Vec α n

/-- `fabs(x) + anorm == anorm`. -/
def negligible (anorm x : α) : Bool := eq (fabs x + anorm) anorm

/-- The splitting test (hpp:7611-7622); returns `flag` and `l`.  At `l = 0` the second test reads
`w[-1]`. -/
def splitTest (w rv1 : Vec α n) (anorm : α) : ℕ → Except UB (Bool × ℕ)
  | 0 => do
    let r ← rd rv1 0
    if negligible anorm r then .ok (false, 0) else .error .outOfBounds
  | l + 1 => do
    let r ← rd rv1 (l + 1)
    if negligible anorm r then .ok (false, l + 1)
    else do
      let x ← rd w l
      if negligible anorm x then .ok (true, l + 1) else splitTest w rv1 anorm l

/-- Rotate columns `p` and `q` of `a` (hpp:7638-7644, 7708-7714, and of `v`, 7691-7697):
`a[j][p] = y*c + z*s; a[j][q] = z*c - y*s`. -/
def rotCols {r : ℕ} (a : Mat α r n) (p q : ℕ) (c s : α) : Except UB (Mat α r n) :=
  forUp 0 r a fun j a => do
    let y ← rd2 a j p
    let z ← rd2 a j q
    let a ← wr2 a j p (y * c + z * s)
    wr2 a j q (z * c - y * s)

/-- Body of the cancellation loop (hpp:7627-7646); carries `a`, `w`, `s`. -/
def cancelStep (rv1 : Vec α n) (anorm : α) (nm i : ℕ) (st : Mat α m n × Vec α n × α) :
    Except UB (Mat α m n × Vec α n × α) := do
  let (a, w, s) := st
  let r ← rd rv1 i
  let f := s * r
  if !(negligible anorm f) then do
    let g ← rd w i
    let h := PYTHAG f g
    let w ← wr w i h
    let h := lit 1 / h
    let c := g * h
    let s := (-f) * h
    let a ← rotCols a nm i c s
    .ok (a, w, s)
  else .ok (a, w, s)

/-- Variables carried by the QR sweep (hpp:7675-7715). -/
structure Sw (α : Type) (m n : ℕ) where
  d : Dg α m n
  c : α
  s : α
  f : α
  x : α

/-- Body of the QR sweep (hpp:7677-7715). -/
def sweepStep (j : ℕ) (st : Sw α m n) : Except UB (Sw α m n) := do
  let i := j + 1
  let g ← rd st.d.rv1 i
  let y ← rd st.d.w i
  let h := st.s * g
  let g := st.c * g
  let z := PYTHAG st.f h
  let rv1 ← wr st.d.rv1 j z
  let c := st.f / z
  let s := h / z
  let f := st.x * c + g * s
  let g := g * c - st.x * s
  let h := y * s
  let y := y * c
  let v ← rotCols st.d.v j i c s
  let z := PYTHAG f h
  let w ← wr st.d.w j z
  let (c, s) := if truthy z then
      let z := lit 1 / z
      (f * z, h * z)
    else (c, s)
  let f' := (c * g) + (s * y)
  let x := (c * y) - (s * g)
  let a ← rotCols st.d.a j i c s
  .ok ⟨⟨a, w, v, rv1⟩, c, s, f', x⟩

/-- The shift (hpp:7670-7672); returns the starting value of `f`. -/
def shift (x y z g h : α) : α :=
  let f := ((y - z) * (y + z) + (g - h) * (g + h)) / (lit 2 * h * y)
  let g := PYTHAG f (lit 1)
  ((x - z) * (x + z) + h * ((y / (f + DSIGN g f)) - h)) / x

/-- One implicit QR step on the block `l .. k`, `l < k` (hpp:7664-7718). -/
def qrStep (d : Dg α m n) (l k : ℕ) (z : α) : Except UB (Dg α m n) := do
  let x ← rd d.w l
  let nm := k - 1
  let y ← rd d.w nm
  let g ← rd d.rv1 nm
  let h ← rd d.rv1 k
  let st ← forUp l (nm + 1) ⟨d, lit 1, lit 1, shift x y z g h, x⟩ sweepStep
  let rv1 ← wr st.d.rv1 l (lit 0)
  let rv1 ← wr rv1 k st.f
  let w ← wr st.d.w k st.x
  .ok ⟨st.d.a, w, st.d.v, rv1⟩

/-- How an iteration ends. -/
inductive Ctl where
  /-- `break`: the singular value has converged -/
  | conv
  /-- next iteration -/
  | again
  /-- `return (-1)` -/
  | fail
  deriving DecidableEq

/-- `v[j][k] = -v[j][k]` (hpp:7654-7655). -/
def negCol (v : Mat α n n) (k : ℕ) : Except UB (Mat α n n) :=
  forUp 0 n v fun j v => do
    let x ← rd2 v j k
    wr2 v j k (-x)

/-- One iteration for singular value `k` (hpp:7610-7719). -/
def iter (anorm : α) (k its : ℕ) (d : Dg α m n) : Except UB (Ctl × Dg α m n) := do
  let (flag, l) ← splitTest d.w d.rv1 anorm k
  let (a, w) ← (if flag then do
      let (a, w, _) ← forUp l (k + 1) (d.a, d.w, lit 1) (cancelStep d.rv1 anorm (l - 1))
      .ok (a, w)
    else .ok (d.a, d.w))
  let z ← rd w k
  if l = k then
    if lt z (lit 0) then do
      let w ← wr w k (-z)
      let v ← negCol d.v k
      .ok (.conv, ⟨a, w, v, d.rv1⟩)
    else .ok (.conv, ⟨a, w, d.v, d.rv1⟩)
  else if 30 ≤ its then .ok (.fail, ⟨a, w, d.v, d.rv1⟩)
  else do
    let d ← qrStep ⟨a, w, d.v, d.rv1⟩ l k z
    .ok (.again, d)

/-- The iterations for singular value `k`, from `its` on (hpp:7609-7719). -/
def iters (anorm : α) (k its : ℕ) (d : Dg α m n) : Except UB (Ctl × Dg α m n) :=
  if its < 30 then do
    let (c, d) ← iter anorm k its d
    match c with
    | .again => iters anorm k (its + 1) d
    | .conv => .ok (.conv, d)
    | .fail => .ok (.fail, d)
  else .ok (.again, d)
termination_by 30 - its

/-- The loop over the singular values (hpp:7607-7720); `false` when `-1` is returned. -/
def diagonalize (anorm : α) : ℕ → Dg α m n → Except UB (Bool × Dg α m n)
  | 0, d => .ok (true, d)
  | k + 1, d => do
    let (c, d) ← iters anorm k 0 d
    if c = .fail then .ok (false, d) else diagonalize anorm k d

/-- `svdcmp` with the final contents of its local `rv1` (hpp:7456-7722). -/
def svdcmpFull (a : Mat α m n) (w : Vec α n) (v : Mat α n n) : Except UB (ℤ × Dg α m n) :=
  if m < n then .ok (-1, ⟨a, w, v, vzero⟩)
  else do
    let st ← householder a w
    let v ← accRight st.a st.rv1 st.g v
    let a ← accLeft st.a st.w
    let (ok, d) ← diagonalize st.anorm n ⟨a, st.w, v, st.rv1⟩
    .ok (if ok then 1 else -1, d)

/-- `svdcmp` (hpp:7456-7722): the status and the new `a`, `w`, `v`. -/
def svdcmp (a : Mat α m n) (w : Vec α n) (v : Mat α n n) :
    Except UB (ℤ × Mat α m n × Vec α n × Mat α n n) := do
  let (r, d) ← svdcmpFull a w v
  .ok (r, d.a, d.w, d.v)

/-! ### `svbksb` and `solve` -/

/-- One entry of `tmp` (hpp:7732-7738). -/
def tmpEntry {q : ℕ} (u : Mat α m n) (w : Vec α n) (b : Vec α q) (j : ℕ) : Except UB α := do
  let wj ← rd w j
  if truthy wj then do
    let s ← forUp 0 m (lit 0) fun i s => do
      let x ← rd2 u i j
      let y ← rd b i
      .ok (s + x * y)
    .ok (s / wj)
  else .ok (lit 0)

/-- `svbksb` (hpp:7724-7748). -/
def svbksb {p q : ℕ} (u : Mat α m n) (w : Vec α n) (v : Mat α n n) (b : Vec α q) (x : Vec α p) :
    Except UB (Vec α p) := do
  let tmp ← forUp 0 n (vzero : Vec α n) fun j tmp => do
    let s ← tmpEntry u w b j
    wr tmp j s
  forUp 0 n x fun j x => do
    let s ← forUp 0 n (lit 0) fun jj s => do
      let y ← rd2 v j jj
      let t ← rd tmp jj
      .ok (s + y * t)
    wr x j s

/-- `wmax` (hpp:7766-7771). -/
def wmax (w : Vec α n) : Except UB α :=
  forUp 0 n (lit 0) fun j mx => do
    let x ← rd w j
    if lt mx x then rd w j else .ok mx

/-- Zero the small singular values (hpp:7774-7778). -/
def clampW (w : Vec α n) (thresh : α) : Except UB (Vec α n) :=
  forUp 0 n w fun j w => do
    let x ← rd w j
    if lt x thresh then wr w j (lit 0) else .ok w

/-- `solve` (hpp:7751-7783): the status and the new `x`. -/
def solve {p q : ℕ} (A : Mat α m n) (b : Vec α q) (x : Vec α p) (TOL : α := lit 0.00001) :
    Except UB (ℤ × Vec α p) := do
  let (r, a, w, v) ← svdcmp A vzero mzero
  if r = 0 then .ok (r, x)
  else do
    let mx ← wmax w
    let w ← clampW w (TOL * mx)
    let x ← svbksb a w v b x
    .ok (0, x)

end
end SOLVER

/-! ### `Corrector` -/

namespace Corrector
open SOLVER
variable {α : Type} [Libm α]

/-- `t[i]` of a `std::vector<Tristimulus>`. -/
def at' (t : List (Tristimulus α)) (i : ℕ) : Except UB (Tristimulus α) :=
  match t[i]? with
  | some x => .ok x
  | none => .error .outOfBounds

/-- Store the nine coefficients of one block of three rows starting at row `i` (hpp:7813-7821 and
7836-7844). -/
def wrBlock {m : ℕ} (a : Mat α m 9) (i : ℕ) (p : Tristimulus α) : Except UB (Mat α m 9) := do
  let a ← wr2 a (i + 0) (3 * 0 + 0) p.a
  let a ← wr2 a (i + 0) (3 * 0 + 1) p.b
  let a ← wr2 a (i + 0) (3 * 0 + 2) p.c
  let a ← wr2 a (i + 1) (3 * 1 + 0) p.a
  let a ← wr2 a (i + 1) (3 * 1 + 1) p.b
  let a ← wr2 a (i + 1) (3 * 1 + 2) p.c
  let a ← wr2 a (i + 2) (3 * 2 + 0) p.a
  let a ← wr2 a (i + 2) (3 * 2 + 1) p.b
  wr2 a (i + 2) (3 * 2 + 2) p.c

/-- Clear three rows from row `i` on (hpp:7807-7812 and 7830-7835). -/
def clearRows {m : ℕ} (a : Mat α m 9) (i : ℕ) : Except UB (Mat α m 9) :=
  forUp 0 9 a fun c a => do
    let a ← wr2 a (i + 0) c (lit 0)
    let a ← wr2 a (i + 1) c (lit 0)
    wr2 a (i + 2) c (lit 0)

/-- Store three right-hand sides from row `i` on (hpp:7822-7824 and 7845-7847). -/
def wrRhs {m : ℕ} (b : Vec α m) (i : ℕ) (t : Tristimulus α) : Except UB (Vec α m) := do
  let b ← wr b (i + 0) t.a
  let b ← wr b (i + 1) t.b
  wr b (i + 2) t.c

/-- Matrix and right-hand side built by `Corrector::solve` (hpp:7800-7848). -/
def system (patch target : List (Tristimulus α)) :
    Except UB (Mat α ((patch.length + 1) * 3) 9 × Vec α ((patch.length + 1) * 3)) := do
  let (a, b) ← forUp 0 patch.length (mzero, vzero) fun r (a, b) => do
    let i := 3 * r
    let a ← clearRows a i
    let p ← at' patch (i / 3)
    let a ← wrBlock a i p
    let t ← at' target (i / 3)
    let b ← wrRhs b i t
    .ok (a, b)
  let i := patch.length * 3
  let a ← clearRows a i
  let a ← wrBlock a i ⟨lit 0, lit 0, lit 0⟩
  let b ← wrRhs b i ⟨lit 0, lit 0, lit 0⟩
  .ok (a, b)

/-- `Corrector::solve(patch, target)` (hpp:7794-7852).  The row count `(patch.size() + 1) * 3` is an `int`;
larger lists are reported as signed overflow. -/
def solve (patch target : List (Tristimulus α)) : Except UB (Matrix3 α) :=
  if intMax < ((patch.length + 1) * 3 : ℕ) then .error .signedOverflow
  else do
    let (a, b) ← system patch target
    let (_, x) ← SOLVER.solve a b (vzero : Vec α 9)
    .ok (Matrix3.fromArray x)

/-- `Corrector::solve(patch, light, observer)` (hpp:7854-7858). -/
def solveMacbeth (patch : List (Tristimulus α)) (light : Spectrum α := CIE_D65) (observer : Observer α := CIE1931) :
    Except UB (Matrix3 α) := solve patch (Macbeth.reference light observer)

/-- `Corrector::makeGamut` (hpp:7860-7864). -/
def makeGamut (name : String) (patch : List (Tristimulus α)) (light : Spectrum α := CIE_D65)
    (observer : Observer α := CIE1931) : Except UB (Gamut α) := do
  let m ← solveMacbeth patch light observer
  .ok (.ofFromXYZ name m)

end Corrector
end CS
