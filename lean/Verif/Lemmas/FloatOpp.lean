import Verif.Float.F32

/-!
# Opposite floats

`Opp x y`: `y` is `-x`, the signs of zeros aside.  Used to show that formulas built from differences do not depend on
the order of their arguments.
-/

namespace CS
namespace F32
open B32

/-- `y` is `-x`, or both are zeros. -/
def Opp (x y : F32) : Prop := y = neg x ∨ ∃ s t, x = zero s ∧ y = zero t

/-- Equal, or both are zeros. -/
def Same (x y : F32) : Prop := x = y ∨ ∃ s t, x = zero s ∧ y = zero t

theorem Opp.symm {x y : F32} (h : Opp x y) : Opp y x := by
  rcases h with rfl | ⟨s, t, rfl, rfl⟩
  · exact .inl (neg_neg' x).symm
  · exact .inr ⟨t, s, rfl, rfl⟩

/-- `x + c` and `-x - c`. -/
theorem Opp.add {x y c : F32} (h : Opp x y) : Opp (x + c) (y - c) := by
  rw [add_def, sub_def]
  rcases h with rfl | ⟨s, t, rfl, rfl⟩
  · by_cases hz : x.isFinite = true ∧ c.isFinite = true ∧ x.val + c.val = 0
    · obtain ⟨hx, hc, h0⟩ := hz
      right
      rw [add_finite hx hc, add_finite (by rw [neg_isFinite]; exact hx) (by rw [neg_isFinite]; exact hc), neg_val, neg_val, ← neg_add, h0,
        neg_zero, pack_zero, pack_zero]
      exact ⟨_, _, rfl, rfl⟩
    · left; exact (neg_add' x c hz).symm
  · cases c with
    | nan => left; rfl
    | inf u => left; rfl
    | zero u => right; simp only [F32.add, neg, val, add_zero, pack_zero]; exact ⟨_, _, rfl, rfl⟩
    | num q h =>
      left
      simp only [F32.add, neg, val, zero_add]
      rw [pack_of_rep h, pack_of_rep (h := ⟨neg_ne_zero.2 h.1, rep_neg h.2.1, by rw [abs_neg]; exact h.2.2⟩)]

theorem sub_opp (x y : F32) : Opp (x - y) (y - x) := by
  have h : Opp x (neg x) := .inl rfl
  have := h.add (c := neg y)
  rw [sub_def, neg_neg'] at this
  rw [show y - x = neg x + y from by rw [add_comm']; rfl]
  exact this

theorem finite_not_nan {x : F32} (h : x.isFinite = true) : x.isNaN = false := by cases x <;> first | rfl | cases h

theorem mul_neg' (c x : F32) : mul c (neg x) = neg (mul c x) := by
  by_cases hc : c.isFinite = true
  · by_cases hx : x.isFinite = true
    · rw [mul_finite hc hx, mul_finite hc (by rw [neg_isFinite]; exact hx), neg_val, mul_neg, ← pack_neg,
        neg_sign (finite_not_nan hx), Bool.xor_not]
    · cases c <;> cases x <;> first | rfl | exact absurd hc Bool.false_ne_true | exact absurd rfl hx | simp [mul, neg, sign]
  · cases c <;> cases x <;> first
      | rfl | exact absurd rfl hc
      | (rename_i s q h
         have := neg_sign (x := num q h) rfl
         simp only [neg] at this
         simp only [mul, neg, this, Bool.xor_not])
      | (simp only [mul, neg, sign, Bool.xor_not])

theorem mul_zero' (c : F32) (s t : Bool) : Opp (mul c (zero s)) (mul c (zero t)) := by
  cases c with
  | nan => exact .inl rfl
  | inf u => exact .inl rfl
  | zero u => right; simp only [mul, val, mul_zero, pack_zero]; exact ⟨_, _, rfl, rfl⟩
  | num q h => right; simp only [mul, val, mul_zero, pack_zero]; exact ⟨_, _, rfl, rfl⟩

theorem Opp.mul_left {x y c : F32} (h : Opp x y) : Opp (c * x) (c * y) := by
  rcases h with rfl | ⟨s, t, rfl, rfl⟩
  · left; exact mul_neg' c x
  · exact mul_zero' c s t

theorem Opp.mul_right {x y c : F32} (h : Opp x y) : Opp (x * c) (y * c) := by
  rw [mul_comm' x, mul_comm' y]; exact h.mul_left

theorem neg_div' (c x : F32) : div (neg x) c = neg (div x c) := by
  by_cases hc : c.isFinite = true
  · by_cases hx : x.isFinite = true
    · by_cases h0 : c.val = 0
      · cases c with
        | nan => cases hc
        | inf _ => cases hc
        | num q h => exact absurd h0 h.1
        | zero t =>
          cases x with
          | nan => rfl
          | inf s => cases hx
          | zero s => rfl
          | num q h =>
            have := neg_sign (x := num q h) rfl
            simp only [neg] at this
            simp only [div, neg, this, Bool.not_xor]
      · rw [div_finite hx hc h0, div_finite (by rw [neg_isFinite]; exact hx) hc h0, neg_val, neg_div, ← pack_neg,
          neg_sign (finite_not_nan hx), Bool.not_xor]
    · cases c <;> cases x <;> first | rfl | exact absurd hc Bool.false_ne_true | exact absurd rfl hx | simp [div, neg, sign]
  · cases c <;> cases x <;> first
      | rfl | exact absurd rfl hc
      | (rename_i s q h
         have := neg_sign (x := num q h) rfl
         simp only [neg] at this
         simp only [div, neg, this, Bool.not_xor])
      | (simp only [div, neg, sign, Bool.not_xor])

theorem Opp.div_right {x y c : F32} (h : Opp x y) : Opp (x / c) (y / c) := by
  rcases h with rfl | ⟨s, t, rfl, rfl⟩
  · left; exact neg_div' c x
  · cases c with
    | nan => exact .inl rfl
    | inf u => exact .inr ⟨_, _, rfl, rfl⟩
    | zero u => exact .inl rfl
    | num q h =>
      right
      rw [div_def, div_def]
      simp only [div, val, zero_div, pack_zero]
      exact ⟨_, _, rfl, rfl⟩

theorem Opp.mul_self {x y : F32} (h : Opp x y) : x * x = y * y := by
  rcases h with rfl | ⟨s, t, rfl, rfl⟩
  · show mul x x = mul (neg x) (neg x)
    rw [mul_neg', ← mul_def (neg x), mul_comm', mul_def, mul_neg', neg_neg']
  · show mul _ _ = mul _ _
    simp [mul, val, pack_zero]

theorem Opp.fabs {x y : F32} (h : Opp x y) : F32.fabs x = F32.fabs y := by
  rcases h with rfl | ⟨s, t, rfl, rfl⟩
  · cases x with
    | num q h => exact num_ext (abs_neg q).symm
    | _ => rfl
  · rfl

theorem Opp.mul_opp {x y u v : F32} (h : Opp x y) (h' : Opp u v) : Same (x * u) (y * v) := by
  have a : Opp (x * u) (y * u) := h.mul_right
  have b : Opp (y * u) (y * v) := h'.mul_left
  rcases a with a | ⟨s, t, a, a'⟩
  · rcases b with b | ⟨s', t', b, b'⟩
    · left; rw [b, a, neg_neg']
    · right
      rw [b'] 
      rw [a] at b
      have : x * u = neg (zero s') := by rw [← b, neg_neg']
      exact ⟨_, _, this, rfl⟩
  · right
    rcases b with b | ⟨s', t', b, b'⟩
    · rw [a, b, a']; exact ⟨_, _, rfl, rfl⟩
    · rw [a, b']; exact ⟨_, _, rfl, rfl⟩

theorem sq_sign (x : F32) : (x * x).sign = false := by
  show (mul x x).sign = false
  cases x with
  | nan => rfl
  | inf s => simp [mul, sign]
  | zero s => simp [mul, val, pack_zero, sign]
  | num q h =>
    have hq : 0 < q * q := mul_self_pos.2 h.1
    simp only [mul, val]
    rw [pack_sign, if_neg hq.ne', decide_eq_false (not_lt.2 hq.le)]

theorem add_sign {x y : F32} (hx : x.sign = false) (hy : y.sign = false) : (x + y).sign = false := by
  show (add x y).sign = false
  have hv : ∀ z : F32, z.sign = false → 0 ≤ z.val := by
    intro z hz
    cases z with
    | num q h => exact not_lt.1 (of_decide_eq_false hz)
    | _ => exact le_rfl
  have fin : ∀ q : ℚ, 0 ≤ q → (pack (x.sign && y.sign) q).sign = false := by
    intro q hq
    rw [pack_sign, hx]
    split_ifs
    · rfl
    · exact decide_eq_false (not_lt.2 hq)
  have h0 := fin _ (add_nonneg (hv x hx) (hv y hy))
  cases x <;> cases y <;> first | rfl | exact h0 | exact hx | exact hy | (simp only [add]; split_ifs <;> first | rfl | exact hx)

/-- Adding zeros of either sign to something that is not `-0`. -/
theorem add_same {p q q' : F32} (hp : p.sign = false) (h : Same q q') : p + q = p + q' := by
  rcases h with rfl | ⟨s, t, rfl, rfl⟩
  · rfl
  · show add _ _ = add _ _
    cases p with
    | nan => rfl
    | inf _ => rfl
    | zero u =>
      have : u = false := hp
      subst this; rfl
    | num q h =>
      simp only [add, val, add_zero]
      rw [pack_of_rep h, pack_of_rep h]

/-- `x < y` or equal, for opposite comparisons: if the difference is not zero and not NaN, exactly one of `x ≤ y`,
`y ≤ x` holds. -/
theorem le_total_of_sub {x y : F32} (h : (y - x).isNaN = false) (h0 : ∀ s, y - x ≠ zero s) : F32.le x y = !F32.le y x := by
  by_cases hx : x.isFinite = true
  · by_cases hy : y.isFinite = true
    · have hne : x.val ≠ y.val := by
        intro e
        apply h0 (y.sign && (neg x).sign)
        rw [sub_def, add_finite hy (by rw [neg_isFinite]; exact hx), neg_val, e, add_neg_cancel, pack_zero]
      rw [le_finite hx hy, le_finite hy hx]
      rcases lt_or_gt_of_ne hne with h | h
      · rw [decide_eq_true h.le, decide_eq_false (not_le.2 h)]; rfl
      · rw [decide_eq_false (not_le.2 h), decide_eq_true h.le]; rfl
    · cases y with
      | nan => cases x <;> exact absurd h (show ¬ (true = false) from Bool.noConfusion)
      | inf s => cases x <;> first | exact absurd hx Bool.false_ne_true | (cases s <;> rfl)
      | zero s => exact absurd rfl hy
      | num q h => exact absurd rfl hy
  · cases x with
    | nan => cases y <;> exact absurd h (show ¬ (true = false) from Bool.noConfusion)
    | inf s =>
      cases y with
      | nan => exact absurd h (show ¬ (true = false) from Bool.noConfusion)
      | inf t => cases s <;> cases t <;> first | rfl | exact absurd h (show ¬ (true = false) from Bool.noConfusion)
      | zero t => cases s <;> rfl
      | num q h => cases s <;> rfl
    | zero s => exact absurd rfl hx
    | num q h => exact absurd rfl hx

end F32
end CS
