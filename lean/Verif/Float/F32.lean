import Verif.Float.Round
import Verif.Arith

/-!
# IEEE 754 binary32

`F32` has one element for each binary32 datum, except that all NaNs are one element (the C++ code cannot
tell them apart: it never inspects the bits of a NaN it computed).  The operations are the IEEE 754 ones in
the default rounding mode, round to nearest, ties to even.
-/

namespace CS
open B32

/-- A non-zero finite binary32 number. -/
def Finite32 (q : ℚ) : Prop := q ≠ 0 ∧ Rep q ∧ |q| < 2 ^ 128

/-- binary32 data; the `Bool` is the sign bit (`true`: negative). -/
inductive F32 where
  | nan
  | inf (s : Bool)
  | zero (s : Bool)
  | num (q : ℚ) (h : Finite32 q)

namespace F32

theorem num_ext {p q : ℚ} {hp : Finite32 p} {hq : Finite32 q} (h : p = q) : num p hp = num q hq := by
  subst h; rfl

/-- The value of a finite datum (0 for the others). -/
def val : F32 → ℚ
  | num q _ => q
  | _ => 0

/-- The sign bit (`false` for NaN). -/
def sign : F32 → Bool
  | nan => false
  | inf s => s
  | zero s => s
  | num q _ => decide (q < 0)

/-- Zero or a finite number. -/
def isFinite : F32 → Bool
  | zero _ => true
  | num _ _ => true
  | _ => false

/-- Not a number. -/
def isNaN : F32 → Bool
  | nan => true
  | _ => false

/-- Deliver the exact result `q`: round, overflow to infinity; `s` is the sign of an exact zero. -/
def pack (s : Bool) (q : ℚ) : F32 :=
  if q = 0 then zero s
  else if h0 : rnd q = 0 then zero (decide (q < 0))
  else if h : |rnd q| < 2 ^ 128 then num (rnd q) ⟨h0, rep_rnd q, h⟩
  else inf (decide (q < 0))

/-- Addition. -/
def add : F32 → F32 → F32
  | nan, _ => nan
  | _, nan => nan
  | inf s, inf t => if s = t then inf s else nan
  | inf s, _ => inf s
  | _, inf t => inf t
  | x, y => pack (x.sign && y.sign) (x.val + y.val)

/-- Change of sign. -/
def neg : F32 → F32
  | nan => nan
  | inf s => inf (!s)
  | zero s => zero (!s)
  | num q h => num (-q) ⟨neg_ne_zero.2 h.1, rep_neg h.2.1, by rw [abs_neg]; exact h.2.2⟩

/-- Multiplication. -/
def mul : F32 → F32 → F32
  | nan, _ => nan
  | _, nan => nan
  | inf _, zero _ => nan
  | zero _, inf _ => nan
  | inf s, y => inf (xor s y.sign)
  | x, inf t => inf (xor x.sign t)
  | x, y => pack (xor x.sign y.sign) (x.val * y.val)

/-- Division. -/
def div : F32 → F32 → F32
  | nan, _ => nan
  | _, nan => nan
  | inf _, inf _ => nan
  | inf s, y => inf (xor s y.sign)
  | x, inf t => zero (xor x.sign t)
  | zero _, zero _ => nan
  | x, zero t => inf (xor x.sign t)
  | x, y => pack (xor x.sign y.sign) (x.val / y.val)

/-- The operator `<`. -/
def lt : F32 → F32 → Bool
  | nan, _ => false
  | _, nan => false
  | inf s, inf t => s && !t
  | inf s, _ => s
  | _, inf t => !t
  | x, y => decide (x.val < y.val)

/-- The operator `==`. -/
def eq : F32 → F32 → Bool
  | nan, _ => false
  | _, nan => false
  | inf s, inf t => s == t
  | inf _, _ => false
  | _, inf _ => false
  | x, y => decide (x.val = y.val)

/-- The operator `<=`. -/
def le (x y : F32) : Bool := lt x y || eq x y

/-- Truncation toward zero. -/
def trunc (q : ℚ) : ℤ := if 0 ≤ q then ⌊q⌋ else ⌈q⌉

/-- The cast to `int`; `none` (undefined) for NaN, infinities and values outside the range of `int`. -/
def toInt : F32 → Option ℤ
  | nan => none
  | inf _ => none
  | x => if intMin ≤ trunc x.val ∧ trunc x.val ≤ intMax then some (trunc x.val) else none

instance : Add F32 := ⟨add⟩
instance : Neg F32 := ⟨neg⟩
instance : Sub F32 := ⟨fun x y => add x (neg y)⟩
instance : Mul F32 := ⟨mul⟩
instance : Div F32 := ⟨div⟩

/-- The binary32 reading of the header. -/
instance instArith : Arith F32 where
  lit q := pack false q
  lt := lt
  le := le
  eq := eq
  toInt := toInt
  ofInt i := pack false i

/-- The library functions are not specified by IEEE 754: theorems hold for any implementation. -/
structure Oracle where
  cbrtf : F32 → F32
  powf : F32 → F32 → F32
  expf : F32 → F32
  logf : F32 → F32
  log10f : F32 → F32
  sinf : F32 → F32
  cosf : F32 → F32
  atan2f : F32 → F32 → F32
  sqrtf : F32 → F32
  fmodf : F32 → F32 → F32

/-- Absolute value. -/
def fabs : F32 → F32
  | nan => nan
  | inf _ => inf false
  | zero _ => zero false
  | num q h => num |q| ⟨abs_ne_zero.2 h.1, by
      rcases abs_choice q with h' | h' <;> rw [h']
      · exact h.2.1
      · exact rep_neg h.2.1, by rw [abs_abs]; exact h.2.2⟩

/-- binary32 with a given implementation of the library functions. -/
@[reducible] def libm (o : Oracle) : Libm F32 where
  toArith := instArith
  fabs := fabs
  sqrtf := o.sqrtf
  cbrtf := o.cbrtf
  powf := o.powf
  expf := o.expf
  logf := o.logf
  log10f := o.log10f
  sinf := o.sinf
  cosf := o.cosf
  atan2f := o.atan2f
  fmodf := o.fmodf

/-! ## Basic facts -/

theorem add_def (x y : F32) : x + y = add x y := rfl
theorem sub_def (x y : F32) : x - y = add x (neg y) := rfl
theorem mul_def (x y : F32) : x * y = mul x y := rfl
theorem div_def (x y : F32) : x / y = div x y := rfl
theorem neg_def (x : F32) : -x = neg x := rfl
theorem lit_def (q : ℚ) : (lit q : F32) = pack false q := rfl
theorem ofInt_def (i : ℤ) : (Arith.ofInt i : F32) = pack false i := rfl
theorem alt_def (x y : F32) : Arith.lt x y = lt x y := rfl
theorem ale_def (x y : F32) : Arith.le x y = le x y := rfl
theorem aeq_def (x y : F32) : Arith.eq x y = eq x y := rfl

theorem rep_val (x : F32) : Rep x.val := by
  cases x with
  | num q h => exact h.2.1
  | _ => exact rep_zero

theorem abs_val_lt (x : F32) : |x.val| < 2 ^ 128 := by
  cases x with
  | num q h => exact h.2.2
  | _ => simp [val]

/-- The zero-or-finite data are determined by value and sign. -/
theorem ext_finite {x y : F32} (hx : x.isFinite = true) (hy : y.isFinite = true) (hv : x.val = y.val)
    (hs : x.sign = y.sign) : x = y := by
  cases x with
  | nan => cases hx
  | inf _ => cases hx
  | zero s =>
    cases y with
    | nan => cases hy
    | inf _ => cases hy
    | zero t => exact congrArg zero hs
    | num q h => exact absurd hv.symm h.1
  | num p h =>
    cases y with
    | nan => cases hy
    | inf _ => cases hy
    | zero t => exact absurd hv h.1
    | num q h => exact num_ext hv

theorem pack_finite {s : Bool} {q : ℚ} (h : |rnd q| < 2 ^ 128) :
    (pack s q).isFinite = true ∧ (pack s q).val = rnd q := by
  unfold pack
  split_ifs with h1 h2
  · rw [h1, rnd_zero]; exact ⟨rfl, rfl⟩
  · exact ⟨rfl, h2.symm⟩
  · exact ⟨rfl, rfl⟩

/-- No result is NaN once it is packed. -/
theorem pack_not_nan (s : Bool) (q : ℚ) : (pack s q).isNaN = false := by
  unfold pack
  split_ifs <;> rfl

theorem pack_of_rep {s : Bool} {q : ℚ} (h : Finite32 q) : pack s q = num q h := by
  unfold pack
  have := rnd_of_rep h.2.1
  rw [if_neg h.1, dif_neg (by rw [this]; exact h.1), dif_pos (by rw [this]; exact h.2.2)]
  exact num_ext this

theorem pack_zero (s : Bool) : pack s 0 = zero s := by unfold pack; rw [if_pos rfl]

theorem pack_val_of_rep {s : Bool} {q : ℚ} (h : Rep q) (hlt : |q| < 2 ^ 128) :
    (pack s q).isFinite = true ∧ (pack s q).val = q := by
  have := pack_finite (s := s) (q := q) (by rwa [rnd_of_rep h])
  rwa [rnd_of_rep h] at this

/-- The sign of a packed result. -/
theorem pack_sign (s : Bool) (q : ℚ) : (pack s q).sign = if q = 0 then s else decide (q < 0) := by
  unfold pack
  split_ifs with h1 h2 h3
  · rfl
  · rfl
  · show decide (rnd q < 0) = decide (q < 0)
    congr 1
    rw [eq_iff_iff]
    constructor
    · intro h
      by_contra hq
      exact absurd (rnd_nonneg (not_lt.1 hq)) (not_le.2 h)
    · intro h
      exact lt_of_le_of_ne (rnd_nonpos h.le) h2
  · rfl

theorem pack_neg (s : Bool) (q : ℚ) : pack (!s) (-q) = neg (pack s q) := by
  rcases eq_or_ne q 0 with rfl | h0
  · rw [neg_zero, pack_zero, pack_zero]; rfl
  · have hd : decide (-q < 0) = !decide (q < 0) := by
      rcases lt_or_gt_of_ne h0 with h | h
      · rw [decide_eq_true h, decide_eq_false (by linarith)]; rfl
      · rw [decide_eq_false (not_lt.2 h.le), decide_eq_true (neg_neg_iff_pos.2 h)]; rfl
    unfold pack
    rw [if_neg h0, if_neg (neg_ne_zero.2 h0)]
    by_cases h1 : rnd q = 0
    · rw [dif_pos h1, dif_pos (by rw [rnd_neg, h1, neg_zero]), hd]; rfl
    · rw [dif_neg h1, dif_neg (by rw [rnd_neg]; exact neg_ne_zero.2 h1)]
      by_cases h2 : |rnd q| < 2 ^ 128
      · rw [dif_pos h2, dif_pos (by rw [rnd_neg, abs_neg]; exact h2)]
        exact num_ext (rnd_neg q)
      · rw [dif_neg h2, dif_neg (by rw [rnd_neg, abs_neg]; exact h2), hd]; rfl

theorem neg_neg' (x : F32) : neg (neg x) = x := by
  cases x with
  | nan => rfl
  | inf s => simp [neg]
  | zero s => simp [neg]
  | num q h => exact num_ext (by ring)

theorem neg_isFinite (x : F32) : (neg x).isFinite = x.isFinite := by cases x <;> rfl
theorem neg_val (x : F32) : (neg x).val = -x.val := by cases x <;> simp [neg, val]
theorem neg_sign {x : F32} (h : x.isNaN = false) : (neg x).sign = !x.sign := by
  cases x with
  | nan => cases h
  | inf s => rfl
  | zero s => rfl
  | num q hq =>
    show decide (-q < 0) = !decide (q < 0)
    rcases lt_or_gt_of_ne hq.1 with h | h
    · rw [decide_eq_true h, decide_eq_false (by linarith)]; rfl
    · rw [decide_eq_false (not_lt.2 h.le), decide_eq_true (neg_neg_iff_pos.2 h)]; rfl

/-! The finite cases of the operations. -/

theorem add_finite {x y : F32} (hx : x.isFinite = true) (hy : y.isFinite = true) :
    add x y = pack (x.sign && y.sign) (x.val + y.val) := by
  cases x <;> cases y <;> first | rfl | exact absurd hx Bool.false_ne_true | exact absurd hy Bool.false_ne_true

theorem mul_finite {x y : F32} (hx : x.isFinite = true) (hy : y.isFinite = true) :
    mul x y = pack (xor x.sign y.sign) (x.val * y.val) := by
  cases x <;> cases y <;> first | rfl | exact absurd hx Bool.false_ne_true | exact absurd hy Bool.false_ne_true

theorem div_finite {x y : F32} (hx : x.isFinite = true) (hy : y.isFinite = true) (h0 : y.val ≠ 0) :
    div x y = pack (xor x.sign y.sign) (x.val / y.val) := by
  cases x <;> cases y <;> first | rfl | exact absurd hx Bool.false_ne_true | exact absurd hy Bool.false_ne_true | exact absurd rfl h0

theorem lt_finite {x y : F32} (hx : x.isFinite = true) (hy : y.isFinite = true) :
    lt x y = decide (x.val < y.val) := by
  cases x <;> cases y <;> first | rfl | exact absurd hx Bool.false_ne_true | exact absurd hy Bool.false_ne_true

theorem eq_finite {x y : F32} (hx : x.isFinite = true) (hy : y.isFinite = true) :
    eq x y = decide (x.val = y.val) := by
  cases x <;> cases y <;> first | rfl | exact absurd hx Bool.false_ne_true | exact absurd hy Bool.false_ne_true

theorem le_finite {x y : F32} (hx : x.isFinite = true) (hy : y.isFinite = true) :
    le x y = decide (x.val ≤ y.val) := by
  unfold le
  rw [lt_finite hx hy, eq_finite hx hy]
  simp [le_iff_lt_or_eq]

theorem toInt_finite {x : F32} (hx : x.isFinite = true) :
    toInt x = if intMin ≤ trunc x.val ∧ trunc x.val ≤ intMax then some (trunc x.val) else none := by
  cases x <;> first | rfl | exact absurd hx Bool.false_ne_true

theorem trunc_int (n : ℤ) : trunc n = n := by unfold trunc; split_ifs <;> simp

/-- Addition commutes, bit for bit. -/
theorem add_comm' (x y : F32) : x + y = y + x := by
  show add x y = add y x
  cases x <;> cases y <;> simp only [add]
  case inf.inf s t => cases s <;> cases t <;> rfl
  all_goals rw [Bool.and_comm, _root_.add_comm]

/-- Multiplication commutes, bit for bit. -/
theorem mul_comm' (x y : F32) : x * y = y * x := by
  show mul x y = mul y x
  cases x <;> cases y <;> simp only [mul]
  case inf.inf s t => simp [sign, Bool.xor_comm]
  all_goals first
    | rw [Bool.xor_comm, _root_.mul_comm]
    | rw [Bool.xor_comm]

theorem neg_add' (x y : F32) (h : ¬ (x.isFinite = true ∧ y.isFinite = true ∧ x.val + y.val = 0)) :
    neg (add x y) = add (neg x) (neg y) := by
  by_cases hx : x.isFinite = true
  · by_cases hy : y.isFinite = true
    · rw [add_finite hx hy, add_finite (by rw [neg_isFinite]; exact hx) (by rw [neg_isFinite]; exact hy)]
      have h0 : x.val + y.val ≠ 0 := fun h' => h ⟨hx, hy, h'⟩
      rw [neg_val, neg_val, ← neg_add, ← pack_neg]
      unfold pack
      rw [if_neg (neg_ne_zero.2 h0), if_neg (neg_ne_zero.2 h0)]
    · cases x <;> cases y <;> first | rfl | exact absurd hx Bool.false_ne_true | exact absurd rfl hy
  · cases x <;> cases y <;> first | rfl | exact absurd rfl hx | skip
    rename_i s t
    cases s <;> cases t <;> rfl

end F32
end CS
