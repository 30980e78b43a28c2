import Verif.Props.GamutFloat
import Verif.Lemmas.RatModel

/-!
# Binary32 matrices close to exact ones
-/

namespace CS
open F32 B32

attribute [local instance] ratArith

/-- The components as real numbers. -/
noncomputable def Tristimulus.real (t : Tristimulus F32) : Tristimulus ℝ := ⟨t.a.val, t.b.val, t.c.val⟩

/-- Finite components that differ by at most `e` from those of `c`. -/
def NearReal (s : Tristimulus F32) (c : Tristimulus ℝ) (e : ℚ) : Prop :=
  (s.a.isFinite = true ∧ s.b.isFinite = true ∧ s.c.isFinite = true) ∧
    |(s.a.val : ℝ) - c.a| ≤ e ∧ |(s.b.val : ℝ) - c.b| ≤ e ∧ |(s.c.val : ℝ) - c.c| ≤ e

/-- The values of the entries. -/
def Matrix3.vals (m : Matrix3 F32) : Matrix3 ℚ :=
  ⟨m.m0.val, m.m1.val, m.m2.val, m.m3.val, m.m4.val, m.m5.val, m.m6.val, m.m7.val, m.m8.val⟩

deriving instance DecidableEq for Matrix3
deriving instance DecidableEq for Vector3

theorem small_bd {m : Matrix3 F32} (hm : small m = true) : (Bd m.m0 8 ∧ Bd m.m1 8 ∧ Bd m.m2 8) ∧
    (Bd m.m3 8 ∧ Bd m.m4 8 ∧ Bd m.m5 8) ∧ (Bd m.m6 8 ∧ Bd m.m7 8 ∧ Bd m.m8 8) := by
  simp only [small, List.all_cons, List.all_nil, Bool.and_true, Bool.and_eq_true, decide_eq_true_eq] at hm
  obtain ⟨h0, h1, h2, h3, h4, h5, h6, h7, h8⟩ := hm
  exact ⟨⟨⟨h0.1, h0.2⟩, ⟨h1.1, h1.2⟩, ⟨h2.1, h2.2⟩⟩, ⟨⟨h3.1, h3.2⟩, ⟨h4.1, h4.2⟩, ⟨h5.1, h5.2⟩⟩,
    ⟨h6.1, h6.2⟩, ⟨h7.1, h7.2⟩, ⟨h8.1, h8.2⟩⟩

/-- A row of a binary32 matrix is close to an exact one. -/
structure RowClose (a b c : F32) (p q r d : ℚ) : Prop where
  a8 : Bd a 8
  b8 : Bd b 8
  c8 : Bd c 8
  le : |a.val - p| + |b.val - q| + |c.val - r| + (|a.val| + |b.val| + |c.val|) / 2 ^ 22 ≤ d

theorem RowClose.error {a b c x y z : F32} {p q r d C : ℚ} (h : RowClose a b c p q r d) (hC : C ≤ 2 ^ 100)
    (hx : Bd x C) (hy : Bd y C) (hz : Bd z C) : (a * x + b * y + c * z).isFinite = true ∧
    |(a * x + b * y + c * z).val - (p * x.val + q * y.val + r * z.val)| ≤ d * C + 1 / 2 ^ 140 := by
  have up : ∀ {x : F32}, Bd x C → Bd x (2 ^ 100) := fun h => ⟨h.fin, h.le.trans hC⟩
  have w := row_bd (by norm_num) h.a8 h.b8 h.c8 (up hx) (up hy) (up hz)
  refine ⟨w.fin, ?_⟩
  have e := dot3_error _ _ _ _ _ _ w.fin
  have hC0 : 0 ≤ C := (abs_nonneg _).trans hx.le
  have m : ∀ {s t : ℚ}, |t| ≤ C → |s * t| ≤ |s| * C := fun h => by
    rw [abs_mul]; exact mul_le_mul_of_nonneg_left h (abs_nonneg _)
  have e1 : |(a.val - p) * x.val + (b.val - q) * y.val + (c.val - r) * z.val| ≤
      (|a.val - p| + |b.val - q| + |c.val - r|) * C := by
    refine (abs_add_three _ _ _).trans ?_
    have := m (s := a.val - p) hx.le
    have := m (s := b.val - q) hy.le
    have := m (s := c.val - r) hz.le
    linarith
  have e2 : |a.val * x.val| + |b.val * y.val| + |c.val * z.val| ≤ (|a.val| + |b.val| + |c.val|) * C := by
    have := m (s := a.val) hx.le
    have := m (s := b.val) hy.le
    have := m (s := c.val) hz.le
    linarith
  have e3 := mul_le_mul_of_nonneg_right h.le hC0
  calc |(a * x + b * y + c * z).val - (p * x.val + q * y.val + r * z.val)|
      = |((a * x + b * y + c * z).val - (a.val * x.val + b.val * y.val + c.val * z.val)) +
        ((a.val - p) * x.val + (b.val - q) * y.val + (c.val - r) * z.val)| := by congr 1; ring
    _ ≤ _ := abs_add_le _ _
    _ ≤ (|a.val| + |b.val| + |c.val|) * C / 2 ^ 22 + 1 / 2 ^ 148 + (|a.val - p| + |b.val - q| + |c.val - r|) * C := by
      refine add_le_add (e.trans ?_) e1
      gcongr
    _ = (|a.val - p| + |b.val - q| + |c.val - r| + (|a.val| + |b.val| + |c.val|) / 2 ^ 22) * C + 1 / 2 ^ 148 := by ring
    _ ≤ d * C + 1 / 2 ^ 140 := add_le_add e3 (by norm_num)

/-- A binary32 matrix is close to an exact one. -/
structure Close (m : Matrix3 F32) (e : Matrix3 ℚ) (d : ℚ) : Prop where
  r0 : RowClose m.m0 m.m1 m.m2 e.m0 e.m1 e.m2 d
  r1 : RowClose m.m3 m.m4 m.m5 e.m3 e.m4 e.m5 d
  r2 : RowClose m.m6 m.m7 m.m8 e.m6 e.m7 e.m8 d

theorem Close.error {m : Matrix3 F32} {e : Matrix3 ℚ} {d C : ℚ} (h : Close m e d) (hC : C ≤ 2 ^ 100)
    (t : Tristimulus F32) (ht : Within t C) :
    NearReal (t.apply m) (t.real.apply e.toReal) (d * C + 1 / 2 ^ 140) := by
  obtain ⟨r1, r2, r3⟩ := h
  obtain ⟨h1, h2, h3⟩ := ht
  have b1 : Bd t.a C := ⟨h1.1, h1.2⟩
  have b2 : Bd t.b C := ⟨h2.1, h2.2⟩
  have b3 : Bd t.c C := ⟨h3.1, h3.2⟩
  obtain ⟨f1, e1⟩ := r1.error hC b1 b2 b3
  obtain ⟨f2, e2⟩ := r2.error hC b1 b2 b3
  obtain ⟨f3, e3⟩ := r3.error hC b1 b2 b3
  have up : ∀ {x p q r u v w : ℚ}, |x - (p * u + q * v + r * w)| ≤ d * C + 1 / 2 ^ 140 →
      |(x : ℝ) - (p * u + q * v + r * w : ℝ)| ≤ ((d * C + 1 / 2 ^ 140 : ℚ) : ℝ) := by
    intro x p q r u v w h
    have := (Rat.cast_le (K := ℝ)).2 h
    rwa [Rat.cast_abs, Rat.cast_sub, Rat.cast_add, Rat.cast_add, Rat.cast_mul, Rat.cast_mul, Rat.cast_mul] at this
  exact ⟨⟨f1, f2, f3⟩, up e1, up e2, up e3⟩

/-- The check for one row, on fractions. -/
def rowCheck (a b c p q r d : ℚ) : Bool :=
  decide (|a - p| + |b - q| + |c - r| + (|a| + |b| + |c|) / 2 ^ 22 ≤ d)
/-- The check for a matrix, on fractions; evaluated by the kernel. -/
def check (m e : Matrix3 ℚ) (d : ℚ) : Bool :=
  rowCheck m.m0 m.m1 m.m2 e.m0 e.m1 e.m2 d && rowCheck m.m3 m.m4 m.m5 e.m3 e.m4 e.m5 d &&
  rowCheck m.m6 m.m7 m.m8 e.m6 e.m7 e.m8 d

theorem close_of_check {m : Matrix3 F32} {v e : Matrix3 ℚ} {d : ℚ} (hs : small m = true) (hv : m.vals = v)
    (h : check v e d = true) : Close m e d := by
  subst hv
  simp only [check, rowCheck, Bool.and_eq_true, decide_eq_true_eq] at h
  obtain ⟨⟨a0, a1, a2⟩, ⟨a3, a4, a5⟩, a6, a7, a8⟩ := small_bd hs
  exact ⟨⟨a0, a1, a2, h.1.1⟩, ⟨a3, a4, a5, h.1.2⟩, ⟨a6, a7, a8, h.2⟩⟩


theorem row_finish {x y z x' y' z' p q r k0 k1 k2 d η ε : ℚ} (e0 : |x - x'| ≤ k0 * ε + η) (e1 : |y - y'| ≤ k1 * ε + η)
    (e2 : |z - z'| ≤ k2 * ε + η) (n0 : |x'| ≤ k0) (n1 : |y'| ≤ k1) (n2 : |z'| ≤ k2) (hκ : k0 + k1 + k2 ≤ 7)
    (hd : |x' - p| + |y' - q| + |z' - r| + (k0 + k1 + k2) * (ε + 1.01 / 2 ^ 22) + 4 * η ≤ d) (ε0 : 0 ≤ ε) (ε1 : ε ≤ 1e-5)
    (η0 : 0 ≤ η) (η1 : η ≤ 1e-5) : |x| ≤ 8 ∧ |y| ≤ 8 ∧ |z| ≤ 8 ∧
      |x - p| + |y - q| + |z - r| + (|x| + |y| + |z|) / 2 ^ 22 ≤ d := by
  have p0 := (abs_nonneg _).trans n0
  have p1 := (abs_nonneg _).trans n1
  have p2 := (abs_nonneg _).trans n2
  have tri' : ∀ {u v : ℚ}, |u| ≤ |u - v| + |v| := fun {u v} => by
    have := abs_add_le (u - v) v; rwa [sub_add_cancel] at this
  have t0 := abs_sub_le x x' p
  have t1 := abs_sub_le y y' q
  have t2 := abs_sub_le z z' r
  have s0 := tri' (u := x) (v := x')
  have s1 := tri' (u := y) (v := y')
  have s2 := tri' (u := z) (v := z')
  have m0 : k0 * ε ≤ k0 * 1e-5 := mul_le_mul_of_nonneg_left ε1 p0
  have m1 : k1 * ε ≤ k1 * 1e-5 := mul_le_mul_of_nonneg_left ε1 p1
  have m2 : k2 * ε ≤ k2 * 1e-5 := mul_le_mul_of_nonneg_left ε1 p2
  clear tri'
  have q0 : 0 ≤ k0 * ε := mul_nonneg p0 ε0
  have q1 : 0 ≤ k1 * ε := mul_nonneg p1 ε0
  have q2 : 0 ≤ k2 * ε := mul_nonneg p2 ε0
  have hd' : |x' - p| + |y' - q| + |z' - r| + (k0 * ε + k1 * ε + k2 * ε) + (k0 + k1 + k2) * (1.01 / 2 ^ 22) + 4 * η ≤ d := by
    refine le_trans (le_of_eq ?_) hd; ring
  clear hd
  generalize |x - p| = X at *
  generalize |y - q| = Y at *
  generalize |z - r| = Z at *
  generalize |x' - p| = X' at *
  generalize |y' - q| = Y' at *
  generalize |z' - r| = Z' at *
  generalize |x - x'| = X'' at *
  generalize |y - y'| = Y'' at *
  generalize |z - z'| = Z'' at *
  generalize |x| = ax at *
  generalize |y| = ay at *
  generalize |z| = az at *
  generalize |x'| = ax' at *
  generalize |y'| = ay' at *
  generalize |z'| = az' at *
  generalize k0 * ε = l0 at *
  generalize k1 * ε = l1 at *
  generalize k2 * ε = l2 at *
  norm_num at *
  refine ⟨by linarith, by linarith, by linarith, by linarith⟩

/-- Sums of the magnitudes of the terms of `(a, b, c)` times `m`. -/
def rowMag (a b c : ℚ) (m : Matrix3 ℚ) : ℚ :=
  |a * m.m0| + |b * m.m3| + |c * m.m6| + (|a * m.m1| + |b * m.m4| + |c * m.m7|) +
    (|a * m.m2| + |b * m.m5| + |c * m.m8|)
/-- The check for one row of a product, on fractions: `a b c` times the matrix `m`, against `p q r`. -/
def mulRowCheck (a b c : ℚ) (m : Matrix3 ℚ) (p q r ε η d : ℚ) : Bool :=
  decide (rowMag a b c m ≤ 7) && decide (|a * m.m0 + b * m.m3 + c * m.m6 - p| + |a * m.m1 + b * m.m4 + c * m.m7 - q| +
    |a * m.m2 + b * m.m5 + c * m.m8 - r| + rowMag a b c m * (ε + 1.01 / 2 ^ 22) + 4 * η ≤ d)
/-- The check for a product, on fractions; evaluated by the kernel. -/
def mulCheck (n m e : Matrix3 ℚ) (d : ℚ) : Bool :=
  mulRowCheck n.m0 n.m1 n.m2 m e.m0 e.m1 e.m2 (1 / 2 ^ 22) (1 / 2 ^ 148) d &&
  mulRowCheck n.m3 n.m4 n.m5 m e.m3 e.m4 e.m5 (1 / 2 ^ 22) (1 / 2 ^ 148) d &&
  mulRowCheck n.m6 n.m7 n.m8 m e.m6 e.m7 e.m8 (1 / 2 ^ 22) (1 / 2 ^ 148) d

theorem rowClose_of_mulCheck {a b c : F32} {m : Matrix3 F32} {p q r d : ℚ} (ha : Bd a 8) (hb : Bd b 8) (hc : Bd c 8)
    (hm : small m = true) (h : mulRowCheck a.val b.val c.val m.vals p q r (1 / 2 ^ 22) (1 / 2 ^ 148) d = true) :
    RowClose (a * m.m0 + b * m.m3 + c * m.m6) (a * m.m1 + b * m.m4 + c * m.m7) (a * m.m2 + b * m.m5 + c * m.m8)
      p q r d := by
  simp only [mulRowCheck, Bool.and_eq_true, decide_eq_true_eq] at h
  simp only [rowMag, Matrix3.vals] at h
  obtain ⟨hκ, hd⟩ := h
  obtain ⟨⟨a0, a1, a2⟩, ⟨a3, a4, a5⟩, a6, a7, a8⟩ := small_bd hm
  have up : ∀ {x : F32}, Bd x 8 → Bd x (2 ^ 3) := fun h => ⟨h.fin, h.le.trans (by norm_num)⟩
  have w0 := row_bd (by norm_num) ha hb hc (up a0) (up a3) (up a6)
  have w1 := row_bd (by norm_num) ha hb hc (up a1) (up a4) (up a7)
  have w2 := row_bd (by norm_num) ha hb hc (up a2) (up a5) (up a8)
  have e0 := dot3_error _ _ _ _ _ _ w0.fin
  have e1 := dot3_error _ _ _ _ _ _ w1.fin
  have e2 := dot3_error _ _ _ _ _ _ w2.fin
  rw [div_eq_mul_one_div] at e0 e1 e2
  obtain ⟨b0, b1, b2, b3⟩ := row_finish e0 e1 e2 (abs_add_three _ _ _) (abs_add_three _ _ _) (abs_add_three _ _ _) hκ hd
    (by norm_num) (by norm_num) (by norm_num) (by norm_num)
  exact ⟨⟨w0.fin, b0⟩, ⟨w1.fin, b1⟩, ⟨w2.fin, b2⟩, b3⟩

theorem close_of_mulCheck {n m : Matrix3 F32} {u v e : Matrix3 ℚ} {d : ℚ} (hn : small n = true) (hu : n.vals = u)
    (hm : small m = true) (hv : m.vals = v) (h : mulCheck u v e d = true) : Close (n.mul m) e d := by
  subst hu hv
  simp only [mulCheck, Bool.and_eq_true] at h
  obtain ⟨⟨a0, a1, a2⟩, ⟨a3, a4, a5⟩, a6, a7, a8⟩ := small_bd hn
  exact ⟨rowClose_of_mulCheck a0 a1 a2 hm h.1.1, rowClose_of_mulCheck a3 a4 a5 hm h.1.2,
    rowClose_of_mulCheck a6 a7 a8 hm h.2⟩

/-! ### Products with a diagonal matrix between -/

theorem col_err {a b c x y z : F32} {g h i : ℚ} (hx : Bd x 8) (hy : Bd y 8) (hz : Bd z 8)
    (ha : |a.val - g| ≤ |g| * (1.3 / 2 ^ 22) + 1 / 2 ^ 140) (hb : |b.val - h| ≤ |h| * (1.3 / 2 ^ 22) + 1 / 2 ^ 140)
    (hc : |c.val - i| ≤ |i| * (1.3 / 2 ^ 22) + 1 / 2 ^ 140) (hf : (a * x + b * y + c * z).isFinite = true) :
    |(a * x + b * y + c * z).val - (g * x.val + h * y.val + i * z.val)| ≤
      (|g * x.val| + |h * y.val| + |i * z.val|) * (2.31 / 2 ^ 22) + 1 / 2 ^ 134 := by
  have e := dot3_error _ _ _ _ _ _ hf
  have m : ∀ {a g x : ℚ}, |x| ≤ 8 → |a - g| ≤ |g| * (1.3 / 2 ^ 22) + 1 / 2 ^ 140 →
      |a * x - g * x| ≤ |g * x| * (1.3 / 2 ^ 22) + 1 / 2 ^ 137 ∧
      |a * x| ≤ |g * x| * (1 + 1.3 / 2 ^ 22) + 1 / 2 ^ 137 := by
    intro a g x hx h
    have h1 : |a * x - g * x| ≤ |g * x| * (1.3 / 2 ^ 22) + 1 / 2 ^ 137 := by
      rw [← sub_mul, abs_mul, abs_mul]
      calc |a - g| * |x| ≤ (|g| * (1.3 / 2 ^ 22) + 1 / 2 ^ 140) * |x| := mul_le_mul_of_nonneg_right h (abs_nonneg _)
        _ = |g| * |x| * (1.3 / 2 ^ 22) + 1 / 2 ^ 140 * |x| := by ring
        _ ≤ _ := by
          have : (1 : ℚ) / 2 ^ 140 * |x| ≤ 1 / 2 ^ 140 * 8 := mul_le_mul_of_nonneg_left hx (by norm_num)
          refine add_le_add le_rfl (this.trans (by norm_num))
    refine ⟨h1, ?_⟩
    have := abs_add_le (a * x - g * x) (g * x)
    rw [sub_add_cancel] at this
    linarith
  obtain ⟨a1, a2⟩ := m hx.le ha
  obtain ⟨b1, b2⟩ := m hy.le hb
  obtain ⟨c1, c2⟩ := m hz.le hc
  have t : |(a * x + b * y + c * z).val - (g * x.val + h * y.val + i * z.val)| ≤
      |(a * x + b * y + c * z).val - (a.val * x.val + b.val * y.val + c.val * z.val)| +
      (|a.val * x.val - g * x.val| + |b.val * y.val - h * y.val| + |c.val * z.val - i * z.val|) := by
    refine le_trans (le_of_eq ?_) ((abs_add_le _ _).trans (add_le_add le_rfl (abs_add_three _ _ _)))
    congr 1; ring
  have n1 := abs_nonneg (g * x.val)
  have n2 := abs_nonneg (h * y.val)
  have n3 := abs_nonneg (i * z.val)
  generalize |(a * x + b * y + c * z).val - (g * x.val + h * y.val + i * z.val)| = A at *
  generalize |(a * x + b * y + c * z).val - (a.val * x.val + b.val * y.val + c.val * z.val)| = B at *
  generalize |a.val * x.val - g * x.val| = A1 at *
  generalize |b.val * y.val - h * y.val| = A2 at *
  generalize |c.val * z.val - i * z.val| = A3 at *
  generalize |a.val * x.val| = B1 at *
  generalize |b.val * y.val| = B2 at *
  generalize |c.val * z.val| = B3 at *
  generalize |g * x.val| = C1 at *
  generalize |h * y.val| = C2 at *
  generalize |i * z.val| = C3 at *
  norm_num at *
  linarith


/-- `a` is `g` with a small relative error. -/
structure Rel (a : F32) (g : ℚ) : Prop where
  bd : Bd a 8
  le : |a.val - g| ≤ |g| * (1.3 / 2 ^ 22) + 1 / 2 ^ 140

theorem rowClose_of_scaleCheck {a b c : F32} {m : Matrix3 F32} {g h i p q r d : ℚ}
    (ha : Rel a g) (hb : Rel b h) (hc : Rel c i) (hm : small m = true)
    (hh : mulRowCheck g h i m.vals p q r (2.31 / 2 ^ 22) (1 / 2 ^ 134) d = true) :
    RowClose (a * m.m0 + b * m.m3 + c * m.m6) (a * m.m1 + b * m.m4 + c * m.m7) (a * m.m2 + b * m.m5 + c * m.m8)
      p q r d := by
  simp only [mulRowCheck, Bool.and_eq_true, decide_eq_true_eq] at hh
  simp only [rowMag, Matrix3.vals] at hh
  obtain ⟨hκ, hd⟩ := hh
  obtain ⟨⟨a0, a1, a2⟩, ⟨a3, a4, a5⟩, a6, a7, a8⟩ := small_bd hm
  have up : ∀ {x : F32}, Bd x 8 → Bd x (2 ^ 3) := fun h => ⟨h.fin, h.le.trans (by norm_num)⟩
  have w0 := row_bd (by norm_num) ha.bd hb.bd hc.bd (up a0) (up a3) (up a6)
  have w1 := row_bd (by norm_num) ha.bd hb.bd hc.bd (up a1) (up a4) (up a7)
  have w2 := row_bd (by norm_num) ha.bd hb.bd hc.bd (up a2) (up a5) (up a8)
  have e0 := col_err a0 a3 a6 ha.le hb.le hc.le w0.fin
  have e1 := col_err a1 a4 a7 ha.le hb.le hc.le w1.fin
  have e2 := col_err a2 a5 a8 ha.le hb.le hc.le w2.fin
  obtain ⟨b0, b1, b2, b3⟩ := row_finish e0 e1 e2 (abs_add_three _ _ _) (abs_add_three _ _ _) (abs_add_three _ _ _) hκ hd
    (by norm_num) (by norm_num) (by norm_num) (by norm_num)
  exact ⟨⟨w0.fin, b0⟩, ⟨w1.fin, b1⟩, ⟨w2.fin, b2⟩, b3⟩

/-- A binary32 quotient. -/
theorem div_bd {a b : F32} {u v : ℚ} (ha : a.isFinite = true) (hb : b.isFinite = true) (hu : a.val = u) (hv : b.val = v)
    (h0 : u ≠ 0) (h7 : |v / u| ≤ 7) : Bd (b / a) 8 ∧ |(b / a).val - v / u| ≤ |v / u| / 2 ^ 24 + 1 / 2 ^ 150 := by
  subst hu hv
  rw [div_def, div_finite hb ha h0]
  have h8 : Bd (pack (b.sign ^^ a.sign) (b.val / a.val)) (2 ^ 3) :=
    pack_bd (rep_pow 3) (by norm_num) (h7.trans (by norm_num))
  have hr : |rnd (b.val / a.val)| < 2 ^ 128 := by
    have h := pack_bd (s := false) (rep_pow 3) (by norm_num) (h7.trans (by norm_num : (7 : ℚ) ≤ 2 ^ 3))
    have := rnd_rel' (b.val / a.val)
    have := abs_add_le (rnd (b.val / a.val) - b.val / a.val) (b.val / a.val)
    rw [sub_add_cancel] at this
    generalize |b.val / a.val| = x at *
    norm_num at *
    linarith
  refine ⟨⟨h8.fin, h8.le.trans (by norm_num)⟩, ?_⟩
  rw [(pack_finite hr).2]
  exact rnd_rel' _

/-- An entry of a matrix times a diagonal one: only one of the three products is not zero. -/
theorem scaled {n a s : F32} {ρ x w : ℚ} (hn : n.isFinite = true) (ha : Bd a 8) (hs : |s.val - ρ| ≤ |ρ| / 2 ^ 24 + 1 / 2 ^ 150)
    (hg : |a.val * ρ| ≤ 7) (hx : x = a.val * s.val) (hw : w = |a.val * s.val|)
    (h : |n.val - x| ≤ w / 2 ^ 22 + 1 / 2 ^ 148) : Rel n (a.val * ρ) := by
  subst hx hw
  have h1 : |a.val * s.val - a.val * ρ| ≤ |a.val * ρ| / 2 ^ 24 + 1 / 2 ^ 147 := by
    rw [← mul_sub, abs_mul, abs_mul]
    calc |a.val| * |s.val - ρ| ≤ |a.val| * (|ρ| / 2 ^ 24 + 1 / 2 ^ 150) := mul_le_mul_of_nonneg_left hs (abs_nonneg _)
      _ = |a.val| * |ρ| / 2 ^ 24 + |a.val| * (1 / 2 ^ 150) := by ring
      _ ≤ |a.val| * |ρ| / 2 ^ 24 + 8 * (1 / 2 ^ 150) :=
        add_le_add le_rfl (mul_le_mul_of_nonneg_right ha.le (by norm_num))
      _ ≤ _ := add_le_add le_rfl (by norm_num)
  have h2 := abs_add_le (a.val * s.val - a.val * ρ) (a.val * ρ)
  rw [sub_add_cancel] at h2
  have h3 := abs_sub_le n.val (a.val * s.val) (a.val * ρ)
  have h4 := abs_add_le (n.val - a.val * ρ) (a.val * ρ)
  rw [sub_add_cancel] at h4
  have h5 := abs_nonneg (a.val * ρ)
  have key : |n.val - a.val * ρ| ≤ |a.val * ρ| * (1.3 / 2 ^ 22) + 1 / 2 ^ 140 := by
    clear hs ha h4
    generalize |n.val - a.val * ρ| = A at *
    generalize |n.val - a.val * s.val| = B at *
    generalize |a.val * s.val - a.val * ρ| = C at *
    generalize |a.val * s.val| = D at *
    generalize |a.val * ρ| = E at *
    norm_num at *
    linarith
  refine ⟨⟨hn, ?_⟩, key⟩
  clear hs ha h h1 h2 h3
  generalize |n.val - a.val * ρ| = A at *
  generalize |n.val| = B at *
  generalize |a.val * ρ| = E at *
  norm_num at *
  linarith

theorem Bd.zero : Bd (lit 0 : F32) (2 ^ 3) := ⟨rfl, by
  have : (lit 0 : F32).val = 0 := rfl
  rw [this]; norm_num⟩

theorem scaled0 {a b c s : F32} {ρ : ℚ} (ha : Bd a 8) (hb : Bd b 8) (hc : Bd c 8) (s8 : Bd s 8)
    (hs : |s.val - ρ| ≤ |ρ| / 2 ^ 24 + 1 / 2 ^ 150) (hg : |a.val * ρ| ≤ 7) :
    Rel (a * s + b * lit 0 + c * lit 0) (a.val * ρ) := by
  have w := row_bd (by norm_num) ha hb hc ⟨s8.fin, s8.le.trans (by norm_num)⟩ Bd.zero Bd.zero
  have z : (lit 0 : F32).val = 0 := rfl
  exact scaled w.fin ha hs hg (by rw [z]; ring) (by rw [z]; simp) (dot3_error _ _ _ _ _ _ w.fin)
theorem scaled1 {a b c s : F32} {ρ : ℚ} (ha : Bd a 8) (hb : Bd b 8) (hc : Bd c 8) (s8 : Bd s 8)
    (hs : |s.val - ρ| ≤ |ρ| / 2 ^ 24 + 1 / 2 ^ 150) (hg : |b.val * ρ| ≤ 7) :
    Rel (a * lit 0 + b * s + c * lit 0) (b.val * ρ) := by
  have w := row_bd (by norm_num) ha hb hc Bd.zero ⟨s8.fin, s8.le.trans (by norm_num)⟩ Bd.zero
  have z : (lit 0 : F32).val = 0 := rfl
  exact scaled w.fin hb hs hg (by rw [z]; ring) (by rw [z]; simp) (dot3_error _ _ _ _ _ _ w.fin)
theorem scaled2 {a b c s : F32} {ρ : ℚ} (ha : Bd a 8) (hb : Bd b 8) (hc : Bd c 8) (s8 : Bd s 8)
    (hs : |s.val - ρ| ≤ |ρ| / 2 ^ 24 + 1 / 2 ^ 150) (hg : |c.val * ρ| ≤ 7) :
    Rel (a * lit 0 + b * lit 0 + c * s) (c.val * ρ) := by
  have w := row_bd (by norm_num) ha hb hc Bd.zero Bd.zero ⟨s8.fin, s8.le.trans (by norm_num)⟩
  have z : (lit 0 : F32).val = 0 := rfl
  exact scaled w.fin hc hs hg (by rw [z]; ring) (by rw [z]; simp) (dot3_error _ _ _ _ _ _ w.fin)

end CS
