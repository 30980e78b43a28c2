import Verif.Lemmas.Sqrt

/-!
# `util::sqrtf` in binary32 (C56, C61)
-/

namespace CS
open F32 B32 Util NewtonSqrt

/-- `x < std::numeric_limits<float>::infinity()`. -/
def ltInf (x : F32) : Bool := F32.lt x (F32.inf false)

theorem sqrtf_guard {x : F32} (hx : x.isFinite = true) (h0 : 0 ≤ x.val) :
    (Arith.le (lit 0) x && ltInf x) = true := by
  have is0 : Is (lit 0) 0 := by
    have := Is.litInt (n := 0) (by norm_num); exact_mod_cast this
  rw [is0.le (Is.of x hx), decide_eq_true h0, Bool.true_and]
  cases x <;> first | rfl | exact absurd hx Bool.false_ne_true

/-- The value, for every finite non-negative argument. -/
theorem sqrtf_value (x : F32) (hx : x.isFinite = true) (h0 : 0 ≤ x.val) :
    ∃ r, sqrtf ltInf x = some (.val r) ∧ r.isFinite = true ∧ 0 ≤ r.val ∧
      (x.val = 0 → r = x) ∧
      (∀ z, Rep z → z * z ≤ x.val → r.val * r.val ≤ x.val → z ≤ r.val) ∧
      (∀ z, Rep z → 0 ≤ z → x.val ≤ z * z → x.val ≤ r.val * r.val → r.val ≤ z) := by
  unfold Util.sqrtf
  rw [if_pos (sqrtf_guard hx h0)]
  have is0 : Is (lit 0) 0 := by
    have := Is.litInt (n := 0) (by norm_num); exact_mod_cast this
  rcases h0.eq_or_lt with h | hpos
  · refine ⟨x, ?_, hx, h0, fun _ => rfl, ?_, ?_⟩
    · rw [sqrtNewtonRaphsonF, if_pos (by rw [(Is.of x hx).eq is0]; simpa using h.symm)]; rfl
    · intro z _ hz _
      rw [← h] at hz ⊢
      nlinarith
    · intro z _ hz _ _
      rw [← h]; exact hz
  · have hrep := rep_val x
    have hlt : x.val < 2 ^ 128 := by
      have := abs_val_lt x
      rwa [abs_of_pos hpos] at this
    obtain ⟨N, X', e, c⟩ := exists_ctx hrep hpos hlt
    obtain ⟨r, R, h1, h2, h3, h4⟩ := c.newton (Is.of x hx)
    have hu := c.upos
    have hR0 : 0 < R := lt_of_lt_of_le (mul_pos c.Npos hu) h3
    have hRr : Rep R := h2.2 ▸ rep_val r
    have hval : ∀ k : ℤ, ((k : ℚ) * 2 ^ e) * (k * 2 ^ e) = ((k * k : ℤ) : ℚ) * (2 ^ e * 2 ^ e) := by
      intro k; push_cast; ring
    have hcmp : ∀ k : ℤ, ((k : ℚ) * 2 ^ e) * (k * 2 ^ e) ≤ x.val ↔ k * k ≤ X' := by
      intro k
      rw [hval, c.val, mul_le_mul_iff_left₀ (mul_pos hu hu)]
      exact_mod_cast Iff.rfl
    have hcmp' : ∀ k : ℤ, x.val ≤ ((k : ℚ) * 2 ^ e) * (k * 2 ^ e) ↔ X' ≤ k * k := by
      intro k
      rw [hval, c.val, mul_le_mul_iff_left₀ (mul_pos hu hu)]
      exact_mod_cast Iff.rfl
    refine ⟨r, by rw [h1]; rfl, h2.1, by rw [h2.2]; exact hR0.le, fun h => absurd h hpos.ne', ?_, ?_⟩
    · intro z hz hzz hrr
      rw [h2.2] at hrr ⊢
      rcases le_or_gt z ((N : ℚ) * 2 ^ e) with hzN | hzN
      · exact hzN.trans h3
      · obtain ⟨k, hk, rfl⟩ := c.mulU hz hzN.le
        have h5 := (hcmp _).1 hzz
        have h6 := c.sq1
        have h7 := c.lo
        have : k = 0 := by nlinarith
        subst this
        rw [add_zero]; exact h3
    · intro z hz hz0 hzz hrr
      rw [h2.2] at hrr ⊢
      have hzN : (N : ℚ) * 2 ^ e ≤ z := by
        by_contra hcon
        have h5 : z * z < (N : ℚ) * 2 ^ e * (N * 2 ^ e) :=
          mul_self_lt_mul_self hz0 (not_le.1 hcon)
        have := (hcmp N).2 c.sq
        linarith
      rcases c.fixed hRr h3 h4 with h5 | ⟨h5, h6⟩
      · rw [h5]; exact hzN
      · obtain ⟨k, hk, rfl⟩ := c.mulU hz hzN
        rw [h5]
        have h7 := (hcmp' _).1 hzz
        have : k ≠ 0 := by
          rintro rfl
          rw [add_zero] at h7
          omega
        refine mul_le_mul_of_nonneg_right ?_ hu.le
        have : N + 1 ≤ N + k := by omega
        exact_mod_cast this

/-- C56: NaN for negative, infinite and NaN arguments. -/
theorem C56_guard (x : F32) (h : x.isFinite = true → x.val < 0) :
    sqrtf ltInf x = some .quietNaN := by
  unfold Util.sqrtf
  rw [if_neg]
  intro hc
  rw [Bool.and_eq_true] at hc
  cases x with
  | nan => exact absurd hc.2 Bool.false_ne_true
  | inf s =>
    cases s
    · exact absurd hc.2 Bool.false_ne_true
    · rw [F32.lit_zero] at hc; exact absurd hc.1 Bool.false_ne_true
  | zero s => exact absurd (h rfl) (lt_irrefl _)
  | num q hq =>
    have is0 : Is (lit 0) 0 := by
      have := Is.litInt (n := 0) (by norm_num); exact_mod_cast this
    have h2 := hc.1
    rw [is0.le (Is.of (F32.num q hq) rfl), decide_eq_true_iff] at h2
    exact absurd (h rfl) (not_lt.2 h2)

/-- C56: on every finite `x ≥ 0` (either zero included) the iteration ends with a finite number. -/
theorem C56_terminates (x : F32) (hx : x.isFinite = true) (h0 : 0 ≤ x.val) :
    ∃ r, sqrtf ltInf x = some (.val r) ∧ r.isFinite = true ∧ 0 ≤ r.val := by
  obtain ⟨r, h1, h2, h3, _⟩ := sqrtf_value x hx h0
  exact ⟨r, h1, h2, h3⟩

/-- C56: `sqrtf` returns on every binary32 datum, and returns a number exactly for finite `x ≥ 0`. -/
theorem C56_total (x : F32) :
    (sqrtf ltInf x = some .quietNaN ∧ ¬ (x.isFinite = true ∧ 0 ≤ x.val)) ∨
    ((∃ r, sqrtf ltInf x = some (.val r) ∧ r.isFinite = true) ∧ x.isFinite = true ∧ 0 ≤ x.val) := by
  by_cases h : x.isFinite = true ∧ 0 ≤ x.val
  · obtain ⟨r, h1, h2, _⟩ := C56_terminates x h.1 h.2
    exact .inr ⟨⟨r, h1, h2⟩, h⟩
  · exact .inl ⟨C56_guard x (fun hf => not_le.1 fun h0 => h ⟨hf, h0⟩), h⟩

/-- Both cases occur. -/
example : (∃ r, sqrtf ltInf (lit 2 : F32) = some (.val r)) ∧
    sqrtf ltInf (F32.inf false) = some .quietNaN ∧ sqrtf ltInf (-(lit 2) : F32) = some .quietNaN := by
  have h2 : Is (lit 2) 2 := by
    have := Is.litInt (n := 2) (by norm_num); exact_mod_cast this
  refine ⟨?_, C56_guard _ (fun h => absurd h Bool.false_ne_true), C56_guard _ (fun _ => ?_)⟩
  · obtain ⟨r, h, _⟩ := C56_terminates _ h2.1 (by rw [h2.2]; norm_num)
    exact ⟨r, h⟩
  · rw [h2.neg.2]; norm_num

/-- C61: the result is faithfully rounded.  A result below the root is the greatest binary32 number below
it, a result above the root the least one above it. -/
theorem C61_faithful (x r : F32) (hx : x.isFinite = true) (h0 : 0 ≤ x.val) (hr : sqrtf ltInf x = some (.val r)) :
    (r.val * r.val ≤ x.val → ∀ z : F32, z.isFinite = true → z.val * z.val ≤ x.val → z.val ≤ r.val) ∧
    (x.val ≤ r.val * r.val → ∀ z : F32, z.isFinite = true → 0 ≤ z.val → x.val ≤ z.val * z.val → r.val ≤ z.val) := by
  obtain ⟨r', h1, _, _, _, h5, h6⟩ := sqrtf_value x hx h0
  rw [hr] at h1
  cases h1
  exact ⟨fun h z _ hz => h5 _ (rep_val z) hz h, fun h z _ hz0 hz => h6 _ (rep_val z) hz0 hz h⟩

/-- C61: squares of binary32 numbers get their exact root. -/
theorem C61_exact (x z : F32) (hx : x.isFinite = true) (hz : z.isFinite = true) (hz0 : 0 ≤ z.val)
    (h : x.val = z.val * z.val) : ∃ r, sqrtf ltInf x = some (.val r) ∧ r.isFinite = true ∧ r.val = z.val := by
  have h0 : 0 ≤ x.val := by rw [h]; exact mul_self_nonneg _
  obtain ⟨r, h1, h2, h3, _⟩ := sqrtf_value x hx h0
  obtain ⟨h4, h5⟩ := C61_faithful x r hx h0 h1
  refine ⟨r, h1, h2, ?_⟩
  rcases le_total (r.val * r.val) x.val with hc | hc
  · have := h4 hc z hz h.ge
    rw [h] at hc
    exact le_antisymm ((mul_self_le_mul_self_iff h3 hz0).2 hc) this
  · have := h5 hc z hz hz0 h.le
    rw [h] at hc
    exact le_antisymm this ((mul_self_le_mul_self_iff hz0 h3).2 hc)

/-- C61: the zeros are their own roots, sign included. -/
theorem C61_zero (s : Bool) : sqrtf ltInf (F32.zero s) = some (.val (F32.zero s)) := by
  obtain ⟨r, h1, _, _, h4, _⟩ := sqrtf_value (F32.zero s) rfl le_rfl
  rw [h1, h4 rfl]

/-- The root of 9 is 3; the root of 2 is one of the neighbours of √2. -/
example : (∃ r, sqrtf ltInf (lit 9 : F32) = some (.val r) ∧ r.isFinite = true ∧ r.val = 3) := by
  have h3 : Is (lit 3) 3 := by
    have := Is.litInt (n := 3) (by norm_num); exact_mod_cast this
  have h9 : Is (lit 9) 9 := by
    have := Is.litInt (n := 9) (by norm_num); exact_mod_cast this
  have := C61_exact _ _ h9.1 h3.1 (by rw [h3.2]; norm_num) (by rw [h9.2, h3.2]; norm_num)
  rwa [h3.2] at this

end CS
