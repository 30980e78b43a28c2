import Verif.Arith

/-!
# Exact arithmetic with undefined results

`PR` is exact arithmetic in which every operation that has no real result - division by zero, the root or
logarithm of a number outside the domain, a power of a negative number, a remainder by zero - yields `undef`,
as these operations yield a NaN or an infinity in C.  `undef` is propagated by every operation and makes every
comparison false, like NaN.  A model function that maps numbers to a number in this reading has evaluated no
such operation, so the totalised operations of `ℝ` (`x / 0 = 0` and so on) played no part in its result.
-/

namespace CS

/-- A real number or the result of an undefined operation. -/
inductive PR where
  | ok (x : ℝ)
  | undef

namespace PR
open Classical

/-- Apply a total unary operation. -/
def map (f : ℝ → ℝ) : PR → PR
  | ok a => ok (f a)
  | undef => undef
/-- Apply a partial unary operation, defined where `p` holds. -/
noncomputable def pmap (p : ℝ → Prop) (f : ℝ → ℝ) : PR → PR
  | ok a => if p a then ok (f a) else undef
  | undef => undef
/-- Apply a total binary operation. -/
def map₂ (f : ℝ → ℝ → ℝ) : PR → PR → PR
  | ok a, ok b => ok (f a b)
  | _, _ => undef
/-- Apply a partial binary operation, defined where `p` holds. -/
noncomputable def pmap₂ (p : ℝ → ℝ → Prop) (f : ℝ → ℝ → ℝ) : PR → PR → PR
  | ok a, ok b => if p a b then ok (f a b) else undef
  | _, _ => undef
/-- A comparison. -/
noncomputable def cmp (p : ℝ → ℝ → Prop) : PR → PR → Bool
  | ok a, ok b => decide (p a b)
  | _, _ => false

/-- Where `powf` is defined: a positive base, or a zero base with a non-negative exponent.  (For a negative base C
defines integer exponents only; the header never relies on those.) -/
def PowDefined (a b : ℝ) : Prop := 0 < a ∨ (a = 0 ∧ 0 ≤ b)

noncomputable instance : Libm PR where
  add := map₂ (· + ·)
  sub := map₂ (· - ·)
  mul := map₂ (· * ·)
  div := pmap₂ (fun _ b => b ≠ 0) (· / ·)
  neg := map (-·)
  lit q := ok (lit q)
  lt := cmp (· < ·)
  le := cmp (· ≤ ·)
  eq := cmp (· = ·)
  toInt | ok a => Arith.toInt a
        | undef => none
  ofInt i := ok (Arith.ofInt i)
  fabs := map Libm.fabs
  sqrtf := pmap (0 ≤ ·) Libm.sqrtf
  cbrtf := map Libm.cbrtf
  powf := pmap₂ PowDefined Libm.powf
  expf := map Libm.expf
  logf := pmap (0 < ·) Libm.logf
  log10f := pmap (0 < ·) Libm.log10f
  sinf := map Libm.sinf
  cosf := map Libm.cosf
  atan2f := map₂ Libm.atan2f
  fmodf := pmap₂ (fun _ b => b ≠ 0) Libm.fmodf

section
variable (a b : ℝ)
theorem add_ok : ok a + ok b = ok (a + b) := rfl
theorem sub_ok : ok a - ok b = ok (a - b) := rfl
theorem mul_ok : ok a * ok b = ok (a * b) := rfl
theorem neg_ok : -ok a = ok (-a) := rfl
theorem lit_ok (q : ℚ) : (lit q : PR) = ok (lit q) := rfl
theorem ofInt_ok (i : ℤ) : (Arith.ofInt i : PR) = ok (Arith.ofInt i) := rfl
theorem lt_ok : Arith.lt (ok a) (ok b) = Arith.lt a b := rfl
theorem le_ok : Arith.le (ok a) (ok b) = Arith.le a b := rfl
theorem eq_ok : Arith.eq (ok a) (ok b) = Arith.eq a b := rfl
theorem toInt_ok : Arith.toInt (ok a) = Arith.toInt a := rfl
theorem fabs_ok : Libm.fabs (ok a) = ok (Libm.fabs a) := rfl
theorem cbrtf_ok : Libm.cbrtf (ok a) = ok (Libm.cbrtf a) := rfl
theorem expf_ok : Libm.expf (ok a) = ok (Libm.expf a) := rfl
theorem sinf_ok : Libm.sinf (ok a) = ok (Libm.sinf a) := rfl
theorem cosf_ok : Libm.cosf (ok a) = ok (Libm.cosf a) := rfl
theorem atan2f_ok : Libm.atan2f (ok a) (ok b) = ok (Libm.atan2f a b) := rfl
theorem div_eq : ok a / ok b = if b = 0 then undef else ok (a / b) := by
  show @ite _ (b ≠ 0) (propDecidable _) _ _ = _
  by_cases h : b = 0 <;> simp [h]
theorem sqrtf_eq : Libm.sqrtf (ok a) = if 0 ≤ a then ok (Libm.sqrtf a) else undef := rfl
theorem logf_eq : Libm.logf (ok a) = if 0 < a then ok (Libm.logf a) else undef := rfl
theorem log10f_eq : Libm.log10f (ok a) = if 0 < a then ok (Libm.log10f a) else undef := rfl
theorem powf_eq : Libm.powf (ok a) (ok b) = if PowDefined a b then ok (Libm.powf a b) else undef := rfl
theorem fmodf_eq : Libm.fmodf (ok a) (ok b) = if b = 0 then undef else ok (Libm.fmodf a b) := by
  show @ite _ (b ≠ 0) (propDecidable _) _ _ = _
  by_cases h : b = 0 <;> simp [h]
variable {a b}
theorem div_ok (h : b ≠ 0) : ok a / ok b = ok (a / b) := by rw [div_eq, if_neg h]
theorem sqrtf_ok (h : 0 ≤ a) : Libm.sqrtf (ok a) = ok (Libm.sqrtf a) := if_pos h
theorem logf_ok (h : 0 < a) : Libm.logf (ok a) = ok (Libm.logf a) := if_pos h
theorem log10f_ok (h : 0 < a) : Libm.log10f (ok a) = ok (Libm.log10f a) := if_pos h
theorem powf_ok (h : PowDefined a b) : Libm.powf (ok a) (ok b) = ok (Libm.powf a b) := if_pos h
theorem fmodf_ok (h : b ≠ 0) : Libm.fmodf (ok a) (ok b) = ok (Libm.fmodf a b) := by rw [fmodf_eq, if_neg h]
end

/-- The value is a number. -/
def Defined (x : PR) : Prop := ∃ r, x = ok r

theorem ok_inj {a b : ℝ} : ok a = ok b ↔ a = b := ⟨fun h => by injection h, fun h => by rw [h]⟩
theorem defined_ok (a : ℝ) : Defined (ok a) := ⟨a, rfl⟩
theorem not_defined_undef : ¬ Defined undef := fun ⟨_, h⟩ => by cases h

/-- A conditional of which the chosen branch is a number. -/
theorem ite_ok {c : Prop} {d₁ d₂ : Decidable c} {x y : PR} {a b : ℝ} (hx : c → x = ok a) (hy : ¬c → y = ok b) :
    @ite PR c d₁ x y = ok (@ite ℝ c d₂ a b) := by
  by_cases h : c
  · rw [if_pos h, if_pos h, hx h]
  · rw [if_neg h, if_neg h, hy h]

theorem div_defined (a b : ℝ) : Defined (ok a / ok b) ↔ b ≠ 0 := by
  rw [div_eq]
  split_ifs with h
  · exact ⟨fun h' => absurd h' not_defined_undef, fun h' => absurd h h'⟩
  · exact ⟨fun _ => h, fun _ => defined_ok _⟩
theorem powf_defined (a b : ℝ) : Defined (Libm.powf (ok a) (ok b)) ↔ PowDefined a b := by
  rw [powf_eq]
  split_ifs with h
  · exact ⟨fun _ => h, fun _ => defined_ok _⟩
  · exact ⟨fun h' => absurd h' not_defined_undef, fun h' => absurd h' h⟩
theorem undef_powf (x : PR) : Libm.powf undef x = undef := rfl
theorem powf_undef (x : PR) : Libm.powf x undef = undef := by cases x <;> rfl
theorem undef_div (x : PR) : undef / x = undef := rfl
theorem undef_mul (x : PR) : undef * x = undef := rfl
theorem mul_undef (x : PR) : x * undef = undef := by cases x <;> rfl
theorem undef_add (x : PR) : undef + x = undef := rfl
theorem add_undef (x : PR) : x + undef = undef := by cases x <;> rfl
theorem undef_sub (x : PR) : undef - x = undef := rfl
theorem sub_undef (x : PR) : x - undef = undef := by cases x <;> rfl

end PR
end CS
