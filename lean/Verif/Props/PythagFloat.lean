import Verif.Props.Solver
import Verif.Lemmas.FloatLibm
import Verif.Lemmas.FloatOTF

/-!
# C133: the hypotenuse in single precision

`PYTHAG` (used by every plane rotation of the SVD) as executed: accurate without intermediate overflow, symmetric to the last bit,
never smaller than either side; and what it does with NaN.
-/

namespace CS
open F32 B32 SOLVER Arith

namespace PythagF

theorem fabs_finite {x : F32} (h : x.isFinite = true) : (F32.fabs x).isFinite = true ∧ (F32.fabs x).val = |x.val| := by
  cases x with
  | nan => cases h
  | inf s => cases h
  | zero s => exact ⟨rfl, by simp [F32.fabs, F32.val]⟩
  | num q hq => exact ⟨rfl, rfl⟩

/-- One branch of the function. -/
noncomputable def leg (o : F32.Oracle) (p q : F32) : F32 := p * o.sqrtf (lit 1 + q / p * (q / p))

theorem pythag_eq (o : F32.Oracle) (a b : F32) : @PYTHAG F32 (F32.libm o) a b =
    if F32.lt (F32.fabs b) (F32.fabs a) = true then leg o (F32.fabs a) (F32.fabs b)
    else if F32.lt (lit 0) (F32.fabs b) = true then leg o (F32.fabs b) (F32.fabs a) else lit 0 := rfl

/-- The root in a branch: between 1 and 1.5, and accurate. -/
theorem root {o : F32.Oracle} (ho : o.SqrtAccurate (2 ^ (-23 : ℤ))) {p q : F32} (hp : p.isFinite = true) (hq : q.isFinite = true)
    (q0 : 0 ≤ q.val) (qp : q.val ≤ p.val) (p0 : 0 < p.val) :
    (lit 1 + q / p * (q / p)).isFinite = true ∧ 1 ≤ (lit 1 + q / p * (q / p)).val ∧
    F32.Ap (o.sqrtf (lit 1 + q / p * (q / p))) √(1 + ((q.val : ℝ) / p.val) ^ 2) 4.1e-7 := by
  have p0' : (0 : ℝ) < p.val := by exact_mod_cast p0
  have q0' : (0 : ℝ) ≤ q.val := by exact_mod_cast q0
  have qp' : (q.val : ℝ) ≤ p.val := by exact_mod_cast qp
  have r0 : 0 ≤ (q.val : ℝ) / p.val := by positivity
  have r1 : (q.val : ℝ) / p.val ≤ 1 := (div_le_one p0').2 qp'
  have d : F32.Ap (q / p) ((q.val : ℝ) / p.val) 6e-8 :=
    (F32.Ap.exact hq).div (F32.Ap.exact hp) (Q := 1) (S := p.val) (d := 0) (by rw [abs_of_nonneg r0]; exact r1) (by simp) p0' (by simp)
      (by norm_num) (by norm_num)
  generalize (q.val : ℝ) / p.val = r at *
  have m := d.mul d (R := 1) (S := 1) (E := 1.9e-7) (by rw [abs_of_nonneg r0]; exact r1) (by rw [abs_of_nonneg r0]; exact r1) (by norm_num) (by norm_num)
  have one : F32.Ap (lit 1 : F32) 1 0 := F32.Ap.ofEval (q := 1) (e := 0) (by decide +kernel) (by norm_num) (by norm_num)
  have rr : r * r ≤ 1 := by nlinarith
  have rr0 : 0 ≤ r * r := mul_self_nonneg r
  have s := one.add m (B := 2) (E := 4e-7) (by rw [abs_of_nonneg (by linarith)]; linarith) (by norm_num) (by norm_num)
  have i1 : (lit 1 : F32).isFinite = true ∧ (lit 1 : F32).val = 1 := by decide +kernel
  have ge : 1 ≤ (lit 1 + q / p * (q / p)).val := by
    have hm0 : 0 ≤ (q / p * (q / p)).val := by
      rw [F32.mul_val m.fin]
      exact rnd_nonneg (mul_self_nonneg _)
    rw [F32.add_val s.fin, i1.2]
    exact le_rnd (by exact_mod_cast rep_int (n := 1) (by norm_num)) (by linarith)
  refine ⟨s.fin, ge, ?_⟩
  have ge' : (1 : ℝ) ≤ ((lit 1 + q / p * (q / p)).val : ℝ) := by exact_mod_cast ge
  obtain ⟨f, e⟩ := ho _ s.fin (by linarith)
  have es := s.err
  rw [show 1 + r ^ 2 = 1 + r * r by ring]
  generalize ((lit 1 + q / p * (q / p)).val : ℝ) = x at *
  have x2 : x ≤ 2.1 := by have := (_root_.abs_le.1 es).2; norm_num at *; linarith
  have sx1 : 1 ≤ √x := by rw [Real.one_le_sqrt]; exact ge'
  have sx2 : √x ≤ 1.45 := by rw [Real.sqrt_le_left (by norm_num)]; norm_num at *; linarith
  have sy1 : 1 ≤ √(1 + r * r) := by rw [Real.one_le_sqrt]; linarith
  have hx := Real.sq_sqrt (show 0 ≤ x by linarith)
  have hy := Real.sq_sqrt (show 0 ≤ 1 + r * r by linarith)
  have diff : |√x - √(1 + r * r)| ≤ 2e-7 := by
    have : |x - (1 + r * r)| = |√x - √(1 + r * r)| * (√x + √(1 + r * r)) := by
      have pos : 0 < √x + √(1 + r * r) := by linarith
      calc |x - (1 + r * r)| = |(√x - √(1 + r * r)) * (√x + √(1 + r * r))| := by congr 1; nlinarith
        _ = _ := by rw [abs_mul, abs_of_pos pos]
    rw [this] at es
    have n := abs_nonneg (√x - √(1 + r * r))
    norm_num at es ⊢
    nlinarith
  refine ⟨f, ?_⟩
  generalize √x = X at *
  generalize √(1 + r * r) = Y at *
  generalize ((o.sqrtf (lit 1 + q / p * (q / p))).val : ℝ) = v at *
  have e' : |v - X| ≤ 2e-7 := e.trans (by norm_num at *; linarith)
  calc |v - Y| = |(v - X) + (X - Y)| := by congr 1; ring
    _ ≤ |v - X| + |X - Y| := abs_add_le _ _
    _ ≤ _ := by norm_num at *; linarith

theorem leg_ap {o : F32.Oracle} (ho : o.SqrtAccurate (2 ^ (-23 : ℤ))) {p q : F32} (hp : p.isFinite = true) (hq : q.isFinite = true)
    (q0 : 0 ≤ q.val) (qp : q.val ≤ p.val) (p0 : 0 < p.val) (p1 : p.val ≤ 2 ^ 118) :
    F32.Ap (leg o p q) √((p.val : ℝ) ^ 2 + (q.val : ℝ) ^ 2) (5e-7 * √((p.val : ℝ) ^ 2 + (q.val : ℝ) ^ 2) + 1 / 2 ^ 150) := by
  obtain ⟨-, -, a⟩ := root ho hp hq q0 qp p0
  have p0' : (0 : ℝ) < p.val := by exact_mod_cast p0
  have p1' : (p.val : ℝ) ≤ 2 ^ 118 := by exact_mod_cast p1
  have q0' : (0 : ℝ) ≤ q.val := by exact_mod_cast q0
  have qp' : (q.val : ℝ) ≤ p.val := by exact_mod_cast qp
  have e : √((p.val : ℝ) ^ 2 + (q.val : ℝ) ^ 2) = p.val * √(1 + ((q.val : ℝ) / p.val) ^ 2) := by
    rw [show (p.val : ℝ) ^ 2 + (q.val : ℝ) ^ 2 = (p.val : ℝ) ^ 2 * (1 + ((q.val : ℝ) / p.val) ^ 2) by field_simp,
      Real.sqrt_mul (sq_nonneg _), Real.sqrt_sq p0'.le]
  rw [e]
  have r1 : (q.val : ℝ) / p.val ≤ 1 := (div_le_one p0').2 qp'
  have r0 : 0 ≤ (q.val : ℝ) / p.val := by positivity
  generalize (q.val : ℝ) / p.val = r at *
  have s1 : 1 ≤ √(1 + r ^ 2) := by rw [Real.one_le_sqrt]; nlinarith
  have s2 : √(1 + r ^ 2) ≤ 1.4143 := by rw [Real.sqrt_le_left (by norm_num)]; norm_num; nlinarith
  generalize √(1 + r ^ 2) = s at *
  refine (F32.Ap.exact hp).mul a (R := p.val) (S := s) (by rw [abs_of_pos p0']) (by rw [abs_of_pos (by linarith)]) ?_ ?_
  · have : (p.val : ℝ) * s ≤ 2 ^ 118 * 1.4143 := by gcongr
    have h2 : 4.1e-7 * (p.val : ℝ) ≤ 4.1e-7 * 2 ^ 118 := by gcongr
    norm_num at *
    linarith
  · have ps : (p.val : ℝ) ≤ p.val * s := by nlinarith
    norm_num at ps ⊢
    linarith

theorem leg_ge {o : F32.Oracle} (ho : o.SqrtAccurate (2 ^ (-23 : ℤ))) (h1 : ∀ x : F32, x.isFinite = true → 1 ≤ x.val → 1 ≤ (o.sqrtf x).val)
    {p q : F32} (hp : p.isFinite = true) (hq : q.isFinite = true) (q0 : 0 ≤ q.val) (qp : q.val ≤ p.val) (p0 : 0 < p.val) (p1 : p.val ≤ 2 ^ 118) :
    p.val ≤ (leg o p q).val := by
  obtain ⟨f, g, a⟩ := root ho hp hq q0 qp p0
  have s := h1 _ f g
  have l := leg_ap ho hp hq q0 qp p0 p1
  unfold leg at l ⊢
  rw [F32.mul_val l.fin]
  refine le_rnd p.rep_val ?_
  nlinarith

end PythagF

open PythagF

/-- **C133, accuracy.** For finite sides up to `2^118` the result has relative error at most `5e-7`, although the squares of the sides
may overflow or underflow. -/
theorem C133_accurate (o : F32.Oracle) (ho : o.SqrtAccurate (2 ^ (-23 : ℤ))) (a b : F32) (ha : a.isFinite = true) (hb : b.isFinite = true)
    (la : |a.val| ≤ 2 ^ 118) (lb : |b.val| ≤ 2 ^ 118) :
    F32.Ap (@PYTHAG F32 (F32.libm o) a b) √((a.val : ℝ) ^ 2 + (b.val : ℝ) ^ 2)
      (5e-7 * √((a.val : ℝ) ^ 2 + (b.val : ℝ) ^ 2) + 1 / 2 ^ 150) := by
  obtain ⟨fa, va⟩ := fabs_finite ha
  obtain ⟨fb, vb⟩ := fabs_finite hb
  have sa : ((F32.fabs a).val : ℝ) ^ 2 = (a.val : ℝ) ^ 2 := by rw [va]; push_cast; rw [sq_abs]
  have sb : ((F32.fabs b).val : ℝ) ^ 2 = (b.val : ℝ) ^ 2 := by rw [vb]; push_cast; rw [sq_abs]
  rw [pythag_eq, ← sa, ← sb, F32.lt_finite fb fa]
  have i0 : (lit 0 : F32).isFinite = true ∧ (lit 0 : F32).val = 0 := by decide +kernel
  have na : 0 ≤ (F32.fabs a).val := by rw [va]; exact abs_nonneg _
  have nb : 0 ≤ (F32.fabs b).val := by rw [vb]; exact abs_nonneg _
  rw [← va] at la
  rw [← vb] at lb
  generalize F32.fabs a = p at *
  generalize F32.fabs b = q at *
  split_ifs with h1 h2
  · rw [decide_eq_true_eq] at h1
    exact leg_ap ho fa fb nb h1.le (lt_of_le_of_lt nb h1) la
  · rw [decide_eq_true_eq, not_lt] at h1
    rw [F32.lt_finite i0.1 fb, decide_eq_true_eq, i0.2] at h2
    rw [add_comm]
    exact leg_ap ho fb fa na h1 h2 lb
  · rw [decide_eq_true_eq, not_lt] at h1
    rw [F32.lt_finite i0.1 fb, decide_eq_true_eq, i0.2, not_lt] at h2
    have q0 : q.val = 0 := le_antisymm h2 nb
    have p0 : p.val = 0 := le_antisymm (h1.trans h2) na
    rw [q0, p0]
    refine ⟨i0.1, ?_⟩
    rw [i0.2]
    norm_num

/-- **C133, lower bound.** With a `sqrtf` that is at least 1 from 1 on (every correctly rounded one is), the result is never smaller
than either side. -/
theorem C133_ge (o : F32.Oracle) (ho : o.SqrtAccurate (2 ^ (-23 : ℤ))) (h1 : ∀ x : F32, x.isFinite = true → 1 ≤ x.val → 1 ≤ (o.sqrtf x).val)
    (a b : F32) (ha : a.isFinite = true) (hb : b.isFinite = true) (la : |a.val| ≤ 2 ^ 118) (lb : |b.val| ≤ 2 ^ 118) :
    |a.val| ≤ (@PYTHAG F32 (F32.libm o) a b).val ∧ |b.val| ≤ (@PYTHAG F32 (F32.libm o) a b).val := by
  obtain ⟨fa, va⟩ := fabs_finite ha
  obtain ⟨fb, vb⟩ := fabs_finite hb
  rw [pythag_eq, F32.lt_finite fb fa]
  have i0 : (lit 0 : F32).isFinite = true ∧ (lit 0 : F32).val = 0 := by decide +kernel
  have na : 0 ≤ (F32.fabs a).val := by rw [va]; exact abs_nonneg _
  have nb : 0 ≤ (F32.fabs b).val := by rw [vb]; exact abs_nonneg _
  rw [← va, ← vb]
  rw [← va] at la
  rw [← vb] at lb
  generalize F32.fabs a = p at *
  generalize F32.fabs b = q at *
  split_ifs with h2 h3
  · rw [decide_eq_true_eq] at h2
    have := leg_ge ho h1 fa fb nb h2.le (lt_of_le_of_lt nb h2) la
    exact ⟨this, h2.le.trans this⟩
  · rw [decide_eq_true_eq, not_lt] at h2
    rw [F32.lt_finite i0.1 fb, decide_eq_true_eq, i0.2] at h3
    have := leg_ge ho h1 fb fa na h2 h3 lb
    exact ⟨h2.trans this, this⟩
  · rw [decide_eq_true_eq, not_lt] at h2
    rw [F32.lt_finite i0.1 fb, decide_eq_true_eq, i0.2, not_lt] at h3
    rw [i0.2]
    exact ⟨h2.trans h3, h3⟩

/-- **C133, symmetry.** For finite sides the order and the signs of the sides do not matter, to the last bit, whatever `sqrtf` does. -/
theorem C133_symmetric (o : F32.Oracle) (a b : F32) (ha : a.isFinite = true) (hb : b.isFinite = true) :
    @PYTHAG F32 (F32.libm o) a b = @PYTHAG F32 (F32.libm o) b a ∧
    @PYTHAG F32 (F32.libm o) (-a) b = @PYTHAG F32 (F32.libm o) a b ∧ @PYTHAG F32 (F32.libm o) a (-b) = @PYTHAG F32 (F32.libm o) a b := by
  have fn : ∀ x : F32, F32.fabs (-x) = F32.fabs x := by
    intro x
    cases x <;> simp [F32.fabs, F32.neg_def, F32.neg]
  refine ⟨?_, by rw [pythag_eq, pythag_eq, fn], by rw [pythag_eq, pythag_eq, fn]⟩
  obtain ⟨fa, va⟩ := fabs_finite ha
  obtain ⟨fb, vb⟩ := fabs_finite hb
  rw [pythag_eq, pythag_eq, F32.lt_finite fb fa, F32.lt_finite fa fb]
  have i0 : (lit 0 : F32).isFinite = true ∧ (lit 0 : F32).val = 0 := by decide +kernel
  rw [F32.lt_finite i0.1 fb, F32.lt_finite i0.1 fa, i0.2]
  have na : 0 ≤ (F32.fabs a).val := by rw [va]; exact abs_nonneg _
  have nb : 0 ≤ (F32.fabs b).val := by rw [vb]; exact abs_nonneg _
  rcases lt_trichotomy (F32.fabs a).val (F32.fabs b).val with h | h | h
  · rw [if_neg (by simpa using h.le), if_pos (by simpa using lt_of_le_of_lt na h), if_pos (by simpa using h)]
  · have e : F32.fabs a = F32.fabs b := by
      cases a with
      | nan => cases ha
      | inf s => cases ha
      | zero s =>
        cases b with
        | nan => cases hb
        | inf s => cases hb
        | zero s => rfl
        | num q hq => exact absurd (h.symm) (abs_ne_zero.2 hq.1)
      | num q hq =>
        cases b with
        | nan => cases hb
        | inf s => cases hb
        | zero s => exact absurd h (abs_ne_zero.2 hq.1)
        | num q' hq' =>
          have : |q| = |q'| := h
          simp only [F32.fabs, this]
    rw [e]
  · rw [if_pos (by simpa using h), if_neg (by simpa using h.le), if_pos (by simpa using lt_of_le_of_lt nb h)]

/-- **C133, NaN.** A NaN second side is silently turned into 0 (so a NaN can leave the SVD), while a NaN first side is passed on unless
the second is a zero. -/
theorem C133_nan (o : F32.Oracle) (x : F32) :
    @PYTHAG F32 (F32.libm o) x .nan = .zero false ∧
    (∀ y : F32, y.isFinite = true → y.val ≠ 0 → (o.sqrtf .nan = .nan) → @PYTHAG F32 (F32.libm o) .nan y = .nan) ∧
    ∀ s, @PYTHAG F32 (F32.libm o) .nan (.zero s) = .zero false := by
  have l0 : ∀ z : F32, F32.lt .nan z = false := fun z => rfl
  have l1 : ∀ z : F32, F32.lt z .nan = false := fun z => by cases z <;> rfl
  refine ⟨?_, fun y hy y0 hs => ?_, fun s => ?_⟩
  · rw [pythag_eq]
    show ite (F32.lt .nan (F32.fabs x) = true) _ (ite (F32.lt (lit 0) .nan = true) _ _) = _
    rw [l0, l1, if_neg Bool.false_ne_true, if_neg Bool.false_ne_true, F32.lit_zero]
  · rw [pythag_eq]
    obtain ⟨f, v⟩ := fabs_finite hy
    have i0 : (lit 0 : F32).isFinite = true ∧ (lit 0 : F32).val = 0 := by decide +kernel
    show ite (F32.lt (F32.fabs y) .nan = true) _ (ite (F32.lt (lit 0) (F32.fabs y) = true) (leg o (F32.fabs y) .nan) _) = _
    rw [l1, if_neg Bool.false_ne_true, F32.lt_finite i0.1 f, i0.2, v, if_pos (by simpa using y0)]
    have d : ∀ z : F32, (F32.nan / z : F32) = .nan := fun z => by cases z <;> rfl
    have m : ∀ z : F32, (z * F32.nan : F32) = .nan := fun z => by cases z <;> rfl
    have a : ∀ z : F32, (z + F32.nan : F32) = .nan := fun z => by cases z <;> rfl
    unfold leg
    rw [d, m, a, hs, m]
  · rw [pythag_eq]
    show ite (F32.lt (F32.zero false) .nan = true) _ (ite (F32.lt (lit 0) (F32.zero false) = true) _ _) = _
    rw [l1, if_neg Bool.false_ne_true, F32.lit_zero, if_neg (by decide)]

/-- The hypotheses can be met: sides far beyond the range where their squares are finite. -/
example : (∃ o : F32.Oracle, o.SqrtAccurate (2 ^ (-23 : ℤ))) ∧ (lit (2 ^ 100) : F32).isFinite = true ∧ |(lit (2 ^ 100) : F32).val| ≤ 2 ^ 118 ∧
    (lit (2 ^ 100) * lit (2 ^ 100) : F32).isFinite = false := by
  refine ⟨?_, by decide +kernel, by decide +kernel, by decide +kernel⟩
  obtain ⟨o, -, h, -⟩ := exists_accurate
  exact ⟨o, h⟩

end CS
