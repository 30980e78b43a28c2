import Verif.Props.BradfordFloat
import Verif.Props.LabBack

/-!
# C122: crosstalk and its inverse in binary32
-/

namespace CS
open F32 B32 Matrix Spec Tristimulus

namespace CrosstalkFloat
open BradfordFloat

theorem three : Ap (lit 3 : F32) 3 0 := lab_3
theorem two : Ap (lit 2 : F32) 2 0 := Ap.ofEval (q := 2) (e := 0) (by decide +kernel) (by norm_num) (by norm_num)

theorem diag_ap {r : F32} (f : r.isFinite = true) (r0 : (0 : ℝ) ≤ r.val) (r1 : (r.val : ℝ) ≤ 1 / 4) :
    Bx (lit 1 - lit 2 * r : F32) (1 - 2 * r.val) (1.6 / 2 ^ 24) (1 - 2 * r.val) := by
  have a := two.mul (Ap.exact f) (R := 2) (S := 1 / 4) (E := 0.51 / 2 ^ 24) (by norm_num) (by rw [abs_of_nonneg r0]; exact r1) (by norm_num) (by norm_num)
  exact ⟨lab_1.sub a (B := 1) (by rw [_root_.abs_le]; constructor <;> linarith) (by norm_num) (by norm_num), le_of_eq (abs_of_nonneg (by linarith))⟩

theorem inv_ap {r : F32} (f : r.isFinite = true) (r0 : (0 : ℝ) ≤ r.val) (r1 : (r.val : ℝ) ≤ 1 / 4) :
    Bx ((r - lit 1) * (lit 1 / (lit 3 * r - lit 1)) : F32) ((1 - r.val) / (1 - 3 * r.val)) (41.1 / 2 ^ 24) 3 ∧
    Bx (r * (lit 1 / (lit 3 * r - lit 1)) : F32) (-r.val / (1 - 3 * r.val)) (9.2 / 2 ^ 24) 1 := by
  have a1 := three.mul (Ap.exact f) (R := 3) (S := 1 / 4) (E := 0.76 / 2 ^ 24) (by norm_num) (by rw [abs_of_nonneg r0]; exact r1) (by norm_num) (by norm_num)
  have a2 := a1.sub lab_1 (B := 1) (E := 1.77 / 2 ^ 24) (by rw [_root_.abs_le]; constructor <;> linarith) (by norm_num) (by norm_num)
  have p : 0 < 1 - 3 * (r.val : ℝ) := by linarith
  have n : |3 * (r.val : ℝ) - 1| = 1 - 3 * r.val := by rw [abs_of_nonpos (by linarith)]; ring
  have q : |1 / (3 * (r.val : ℝ) - 1)| ≤ 4 := by
    rw [abs_div, abs_one, n, div_le_iff₀ p]; linarith
  have a3 := div_abs lab_1 a2 (Q := 4) (S := 0.2499) (d := 28.4 / 2 ^ 24) (E := 32.5 / 2 ^ 24) q (by rw [n]; norm_num at *; linarith) (by norm_num)
    (by norm_num) (by norm_num) (by norm_num)
  have b1 := (Ap.exact f).sub lab_1 (B := 1) (E := 1.01 / 2 ^ 24) (by rw [_root_.abs_le]; constructor <;> linarith) (by norm_num) (by norm_num)
  have e0 : (3 * (r.val : ℝ) - 1) ≠ 0 := by intro h; linarith
  have e1 : ((r.val : ℝ) - 1) * (1 / (3 * r.val - 1)) = (1 - r.val) / (1 - 3 * r.val) := by
    rw [← neg_sub (1 : ℝ) (3 * r.val), one_div, inv_neg, div_eq_mul_inv]; ring
  have e2 : (r.val : ℝ) * (1 / (3 * r.val - 1)) = -r.val / (1 - 3 * r.val) := by
    rw [← neg_sub (1 : ℝ) (3 * r.val), one_div, inv_neg, div_eq_mul_inv]; ring
  refine ⟨⟨?_, ?_⟩, ?_, ?_⟩
  · rw [← e1]
    refine b1.mul a3 (R := 1) (S := 4) (by rw [_root_.abs_le]; constructor <;> linarith) q (by norm_num) ?_
    norm_num
  · rw [abs_of_nonneg (div_nonneg (by linarith) p.le), div_le_iff₀ p]; linarith
  · rw [← e2]
    exact (Ap.exact f).mul a3 (R := 1 / 4) (S := 4) (by rw [abs_of_nonneg r0]; exact r1) q (by norm_num) (by norm_num)
  · rw [abs_div, abs_neg, abs_of_nonneg r0, abs_of_pos p, div_le_iff₀ p]; linarith

end CrosstalkFloat

open CrosstalkFloat BradfordFloat

/-- One channel with the leak of the two others. -/
noncomputable def leak (r x y z : ℝ) : ℝ := (1 - 2 * r) * x + r * y + r * z

/-- **C122, forward.** For a leak `r` from 0 to 1/4 and a colour of components up to `C`, each channel becomes
`(1 - 2 r)` of itself and `r` of each of the others, within `4.7 C / 2 ^ 24`. -/
theorem C122_forward (r : F32) (t : Tristimulus F32) (C : ℝ) (f : r.isFinite = true) (r0 : 0 ≤ r.val) (r1 : r.val ≤ 1 / 4)
    (hC : 1 / 2 ^ 100 ≤ C) (hC' : C ≤ 2 ^ 80)
    (ht : ∀ x ∈ [t.a, t.b, t.c], x.isFinite = true ∧ |(x.val : ℝ)| ≤ C) :
    Bx (t.apply (Matrix3.crosstalk r)).a (leak r.val t.a.val t.b.val t.c.val) (4.7 / 2 ^ 24 * C) C ∧
    Bx (t.apply (Matrix3.crosstalk r)).b (leak r.val t.b.val t.a.val t.c.val) (4.7 / 2 ^ 24 * C) C ∧
    Bx (t.apply (Matrix3.crosstalk r)).c (leak r.val t.c.val t.a.val t.b.val) (4.7 / 2 ^ 24 * C) C := by
  have r0' : (0 : ℝ) ≤ r.val := by exact_mod_cast r0
  have r1' : (r.val : ℝ) ≤ 1 / 4 := by
    have := (Rat.cast_le (K := ℝ)).2 r1
    push_cast at this; exact this
  have d := diag_ap f r0' r1'
  have o : Bx r r.val 0 r.val := ⟨Ap.exact f, le_of_eq (abs_of_nonneg r0')⟩
  have w : ∀ x ∈ [t.a, t.b, t.c], Bx x x.val 0 C := fun x hx => ⟨Ap.exact (ht x hx).1, (ht x hx).2⟩
  have a := w t.a (by simp)
  have b := w t.b (by simp)
  have c := w t.c (by simp)
  have C0 : 0 < C := lt_of_lt_of_le (by norm_num) hC
  have hE : (1.6 / 2 ^ 24 * C + 3 * C / 2 ^ 24) * (1 + 1 / 2 ^ 20) + 1 / 2 ^ 140 ≤ 4.7 / 2 ^ 24 * C := by norm_num at *; linarith
  have hs : 1.6 / 2 ^ 24 * C + C ≤ 2 ^ 100 := by norm_num at *; linarith
  refine ⟨dot3 d o o a b c (le_of_eq (by ring)) (le_of_eq (by ring)) hs hE, ?_, ?_⟩
  · rw [show leak r.val t.b.val t.a.val t.c.val = r.val * t.a.val + (1 - 2 * r.val) * t.b.val + r.val * t.c.val by unfold leak; ring]
    exact dot3 o d o a b c (le_of_eq (by ring)) (le_of_eq (by ring)) hs hE
  · rw [show leak r.val t.c.val t.a.val t.b.val = r.val * t.a.val + r.val * t.b.val + (1 - 2 * r.val) * t.c.val by unfold leak; ring]
    exact dot3 o o d a b c (le_of_eq (by ring)) (le_of_eq (by ring)) hs hE

/-- **C122, round trip.** Applying `crosstalk(r)` and then `crosstalkInvert(r)` gives the colour back, within
`99 C / 2 ^ 24`. -/
theorem C122_roundtrip (r : F32) (t : Tristimulus F32) (C : ℝ) (f : r.isFinite = true) (r0 : 0 ≤ r.val) (r1 : r.val ≤ 1 / 4)
    (hC : 1 / 2 ^ 100 ≤ C) (hC' : C ≤ 2 ^ 80)
    (ht : ∀ x ∈ [t.a, t.b, t.c], x.isFinite = true ∧ |(x.val : ℝ)| ≤ C) :
    Ap ((t.apply (Matrix3.crosstalk r)).apply (Matrix3.crosstalkInvert r)).a t.a.val (99 / 2 ^ 24 * C) ∧
    Ap ((t.apply (Matrix3.crosstalk r)).apply (Matrix3.crosstalkInvert r)).b t.b.val (99 / 2 ^ 24 * C) ∧
    Ap ((t.apply (Matrix3.crosstalk r)).apply (Matrix3.crosstalkInvert r)).c t.c.val (99 / 2 ^ 24 * C) := by
  have r0' : (0 : ℝ) ≤ r.val := by exact_mod_cast r0
  have r1' : (r.val : ℝ) ≤ 1 / 4 := by
    have := (Rat.cast_le (K := ℝ)).2 r1
    push_cast at this; exact this
  obtain ⟨a, b, c⟩ := C122_forward r t C f r0 r1 hC hC' ht
  obtain ⟨d, o⟩ := inv_ap f r0' r1'
  generalize t.apply (Matrix3.crosstalk r) = s at *
  have C0 : 0 < C := lt_of_lt_of_le (by norm_num) hC
  have hE : (83.1 / 2 ^ 24 * C + 3 * (5 * C) / 2 ^ 24) * (1 + 1 / 2 ^ 20) + 1 / 2 ^ 140 ≤ 99 / 2 ^ 24 * C := by norm_num at *; linarith
  have hs : 83.1 / 2 ^ 24 * C + 5 * C ≤ 2 ^ 100 := by norm_num at *; linarith
  have p : (1 - 3 * (r.val : ℝ)) ≠ 0 := by intro h; linarith
  have u := inv_mul_cancel₀ p
  refine ⟨?_, ?_, ?_⟩
  · have h := (dot3 d o o a b c (N := 83.1 / 2 ^ 24 * C) (T := 5 * C) (by norm_num; linarith) (by linarith) hs hE).ap
    refine cast ?_ h
    congr 1
    unfold leak; linear_combination (t.a.val : ℝ) * u
  · have h := (dot3 o d o a b c (N := 83.1 / 2 ^ 24 * C) (T := 5 * C) (by norm_num; linarith) (by linarith) hs hE).ap
    refine cast ?_ h
    congr 1
    unfold leak; linear_combination (t.b.val : ℝ) * u
  · have h := (dot3 o o d a b c (N := 83.1 / 2 ^ 24 * C) (T := 5 * C) (by norm_num; linarith) (by linarith) hs hE).ap
    refine cast ?_ h
    congr 1
    unfold leak; linear_combination (t.c.val : ℝ) * u

/-- **C122, codes.** Codes of up to 16 bits survive: with each channel a binary32 number next to `i / M`, `M ≤ 65535`, the
nearest code of each channel after the round trip is the one it started from. -/
theorem C122_codes (r : F32) (t : Tristimulus F32) {M : ℕ} (M0 : 0 < M) (M1 : M ≤ 65535) (f : r.isFinite = true) (r0 : 0 ≤ r.val)
    (r1 : r.val ≤ 1 / 4) {i j k : ℤ} (h : ∀ p ∈ [(t.a, i), (t.b, j), (t.c, k)], p.1.isFinite = true ∧ |(p.1.val : ℝ)| ≤ 1 ∧
      |(p.1.val : ℝ) - p.2 / M| ≤ 1 / 2 ^ 24) :
    round ((((t.apply (Matrix3.crosstalk r)).apply (Matrix3.crosstalkInvert r)).a.val : ℝ) * M) = i ∧
    round ((((t.apply (Matrix3.crosstalk r)).apply (Matrix3.crosstalkInvert r)).b.val : ℝ) * M) = j ∧
    round ((((t.apply (Matrix3.crosstalk r)).apply (Matrix3.crosstalkInvert r)).c.val : ℝ) * M) = k := by
  obtain ⟨a1, a2, a3⟩ := h (t.a, i) (by simp)
  obtain ⟨b1, b2, b3⟩ := h (t.b, j) (by simp)
  obtain ⟨c1, c2, c3⟩ := h (t.c, k) (by simp)
  obtain ⟨A, B, C⟩ := C122_roundtrip r t 1 f r0 r1 (by norm_num) (by norm_num) (by
    intro x hx
    simp only [List.mem_cons, List.not_mem_nil, or_false] at hx
    rcases hx with rfl | rfl | rfl
    · exact ⟨a1, a2⟩
    · exact ⟨b1, b2⟩
    · exact ⟨c1, c2⟩)
  have m0 : (0 : ℝ) < M := by exact_mod_cast M0
  have m1 : (M : ℝ) ≤ 65535 := by exact_mod_cast M1
  exact ⟨code_back a3 A m0 (by norm_num; linarith), code_back b3 B m0 (by norm_num; linarith), code_back c3 C m0 (by norm_num; linarith)⟩

/-- **C122, one third.** The binary32 number next to 1/3 is not 1/3, so the crosstalk matrix has an inverse, but `3 r - 1`
evaluates to 0 and no entry of `crosstalkInvert` is a number. -/
theorem C122_third : (lit (1 / 3) : F32).val ≠ 1 / 3 ∧
    ∀ i, ((Matrix3.crosstalkInvert (lit (1 / 3)) : Matrix3 F32).get i).isFinite = false := by
  constructor
  · decide +kernel
  · decide +kernel

/-- Satisfiable: a leak of 0.1 and a colour. -/
example : ∃ (r : F32) (t : Tristimulus F32), r.isFinite = true ∧ 0 ≤ r.val ∧ r.val ≤ 1 / 4 ∧
    ∀ x ∈ [t.a, t.b, t.c], x.isFinite = true ∧ |(x.val : ℝ)| ≤ 1 := by
  refine ⟨lit 0.1, ⟨lit 0.5, lit 1, lit 0⟩, by decide +kernel, by decide +kernel, by decide +kernel, fun x hx => ?_⟩
  have : ∀ x ∈ [(lit 0.5 : F32), lit 1, lit 0], x.isFinite = true ∧ |x.val| ≤ 1 := by decide +kernel
  obtain ⟨a, b⟩ := this x hx
  exact ⟨a, by exact_mod_cast b⟩

end CS
