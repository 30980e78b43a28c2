import Verif.Lemmas.FloatPow
import Verif.Lemmas.CloseMatrix
import Verif.Props.Matrix

/-!
# C109: inverting a matrix in single precision

`Matrix3::invert` (hpp:161-174) with every operation rounded to binary32, for all matrices whose entries are at most
`B` and whose determinant is at least `d * B ^ 3`: the result is within `2 ^ -17 / (d ^ 2 * B)` of the inverse, and
multiplies back to the identity within `3 * 2 ^ -17 / d ^ 2`.
-/

namespace CS
open F32 B32 Matrix Spec

/-- The nine numbers as reals. -/
noncomputable def Matrix3.real (m : Matrix3 F32) : Matrix3 ℝ :=
  ⟨m.m0.val, m.m1.val, m.m2.val, m.m3.val, m.m4.val, m.m5.val, m.m6.val, m.m7.val, m.m8.val⟩

/-- All nine entries are finite. -/
def Matrix3.AllFinite (m : Matrix3 F32) : Prop := ∀ i, (m.get i).isFinite = true

namespace InvertFloat

/-- A finite number of magnitude at most `B`. -/
structure Le (x : F32) (B : ℝ) : Prop where
  fin : x.isFinite = true
  le : |(x.val : ℝ)| ≤ B

/-- The scales at which nothing overflows or is lost to underflow. -/
structure Scale (B : ℝ) : Prop where
  lo : 1 / 2 ^ 16 ≤ B
  hi : B ≤ 2 ^ 16

theorem Scale.pos {B : ℝ} (h : Scale B) : 0 < B := lt_of_lt_of_le (by norm_num) h.lo

theorem Scale.two {B : ℝ} (h : Scale B) : 1 / 2 ^ 32 ≤ B * B ∧ B * B ≤ 2 ^ 32 := by
  have := h.pos; have := h.lo; have := h.hi
  constructor
  · calc (1 : ℝ) / 2 ^ 32 = 1 / 2 ^ 16 * (1 / 2 ^ 16) := by norm_num
      _ ≤ _ := by gcongr
  · calc B * B ≤ 2 ^ 16 * 2 ^ 16 := by gcongr
      _ = _ := by norm_num

theorem Scale.three {B : ℝ} (h : Scale B) : 1 / 2 ^ 48 ≤ B * B * B ∧ B * B * B ≤ 2 ^ 48 := by
  have := h.pos; have := h.lo; have := h.hi; obtain ⟨h1, h2⟩ := h.two
  constructor
  · calc (1 : ℝ) / 2 ^ 48 = 1 / 2 ^ 32 * (1 / 2 ^ 16) := by norm_num
      _ ≤ _ := by gcongr
  · calc B * B * B ≤ 2 ^ 32 * 2 ^ 16 := by gcongr
      _ = _ := by norm_num

theorem mul_le {r s R S : ℝ} (hr : |r| ≤ R) (hs : |s| ≤ S) : |r * s| ≤ R * S := by
  rw [abs_mul]
  exact mul_le_mul hr hs (abs_nonneg _) ((abs_nonneg _).trans hr)

theorem prod2 {a b : F32} {B : ℝ} (hB : Scale B) (ha : Le a B) (hb : Le b B) :
    Ap (a * b) (a.val * b.val) (B * B * (1 / 2 ^ 24 + 1 / 2 ^ 100)) := by
  obtain ⟨h1, h2⟩ := hB.two
  exact Ap.mul (Ap.exact ha.fin) (Ap.exact hb.fin) ha.le hb.le (by norm_num at *; linarith) (by norm_num at *; linarith)

theorem prod3 {a b c : F32} {B : ℝ} (hB : Scale B) (ha : Le a B) (hb : Le b B) (hc : Le c B) :
    Ap (a * b * c) (a.val * b.val * c.val) (B * B * B * (1 / 2 ^ 23 + 1 / 2 ^ 40)) := by
  obtain ⟨h1, h2⟩ := hB.three
  refine Ap.mul (prod2 hB ha hb) (Ap.exact hc.fin) (mul_le ha.le hb.le) hc.le ?_ ?_
  · rw [show B * B * B + (B * B * (1 / 2 ^ 24 + 1 / 2 ^ 100) * B + 0 * (B * B) + B * B * (1 / 2 ^ 24 + 1 / 2 ^ 100) * 0) =
      B * B * B * (1 + (1 / 2 ^ 24 + 1 / 2 ^ 100)) by ring]
    generalize B * B * B = P at *
    norm_num at *; linarith
  · rw [show B * B * (1 / 2 ^ 24 + 1 / 2 ^ 100) * B + 0 * (B * B) + B * B * (1 / 2 ^ 24 + 1 / 2 ^ 100) * 0 +
      (B * B * B + (B * B * (1 / 2 ^ 24 + 1 / 2 ^ 100) * B + 0 * (B * B) + B * B * (1 / 2 ^ 24 + 1 / 2 ^ 100) * 0)) / 2 ^ 24 +
      1 / 2 ^ 150 =
      B * B * B * ((1 / 2 ^ 24 + 1 / 2 ^ 100) + (1 + (1 / 2 ^ 24 + 1 / 2 ^ 100)) / 2 ^ 24) + 1 / 2 ^ 150 by ring]
    generalize B * B * B = P at *
    norm_num at *; linarith

theorem cof {a b c d : F32} {B : ℝ} (hB : Scale B) (ha : Le a B) (hb : Le b B) (hc : Le c B) (hd : Le d B) :
    Ap (a * b - c * d) (a.val * b.val - c.val * d.val) (B * B * (1 / 2 ^ 22 + 1 / 2 ^ 40)) ∧
      |(a.val : ℝ) * b.val - c.val * d.val| ≤ 2 * (B * B) := by
  obtain ⟨h1, h2⟩ := hB.two
  have hm : |(a.val : ℝ) * b.val - c.val * d.val| ≤ 2 * (B * B) := by
    refine (abs_sub _ _).trans ?_
    have := mul_le ha.le hb.le
    have := mul_le hc.le hd.le
    linarith
  refine ⟨Ap.sub (prod2 hB ha hb) (prod2 hB hc hd) hm ?_ ?_, hm⟩
  · generalize B * B = P at *
    norm_num at *; linarith
  · generalize B * B = P at *
    norm_num at *; linarith

/-- One more term of the determinant. -/
theorem step_bounds {P e n : ℝ} (h1 : 1 / 2 ^ 48 ≤ P) (h2 : P ≤ 2 ^ 48) (n5 : n ≤ 5) (e1 : e ≤ 1 / 2 ^ 18) :
    (n + 1) * P + P * e + P * (1 / 2 ^ 23 + 1 / 2 ^ 40) ≤ 2 ^ 120 ∧
      (P * e + P * (1 / 2 ^ 23 + 1 / 2 ^ 40)) + ((n + 1) * P + P * e + P * (1 / 2 ^ 23 + 1 / 2 ^ 40)) / 2 ^ 24 + 1 / 2 ^ 150 ≤
        P * (e + 1 / 2 ^ 23 + (n + 1) / 2 ^ 24 + 1 / 2 ^ 39) := by
  have P0 : 0 < P := lt_of_lt_of_le (by norm_num) h1
  have hPe : P * e ≤ P * (1 / 2 ^ 18) := by gcongr
  have hPn : n * P ≤ 5 * P := by gcongr
  constructor
  · norm_num at *; linarith
  · rw [show P * (e + 1 / 2 ^ 23 + (n + 1) / 2 ^ 24 + 1 / 2 ^ 39) =
        P * e + P * (1 / 2 ^ 23) + (n + 1) * P / 2 ^ 24 + P * (1 / 2 ^ 39) by ring]
    norm_num at *; linarith

theorem step_add {x y : F32} {r s e n P : ℝ} (h1 : 1 / 2 ^ 48 ≤ P) (h2 : P ≤ 2 ^ 48)
    (hx : Ap x r (P * e) ∧ |r| ≤ n * P) (hy : Ap y s (P * (1 / 2 ^ 23 + 1 / 2 ^ 40)) ∧ |s| ≤ P) (n5 : n ≤ 5)
    (e1 : e ≤ 1 / 2 ^ 18) :
    Ap (x + y) (r + s) (P * (e + 1 / 2 ^ 23 + (n + 1) / 2 ^ 24 + 1 / 2 ^ 39)) ∧ |r + s| ≤ (n + 1) * P := by
  have hm : |r + s| ≤ (n + 1) * P := (abs_add_le _ _).trans (by linarith [hx.2, hy.2])
  obtain ⟨b1, b2⟩ := step_bounds h1 h2 n5 e1
  exact ⟨Ap.add hx.1 hy.1 hm b1 b2, hm⟩

theorem step_sub {x y : F32} {r s e n P : ℝ} (h1 : 1 / 2 ^ 48 ≤ P) (h2 : P ≤ 2 ^ 48)
    (hx : Ap x r (P * e) ∧ |r| ≤ n * P) (hy : Ap y s (P * (1 / 2 ^ 23 + 1 / 2 ^ 40)) ∧ |s| ≤ P) (n5 : n ≤ 5)
    (e1 : e ≤ 1 / 2 ^ 18) :
    Ap (x - y) (r - s) (P * (e + 1 / 2 ^ 23 + (n + 1) / 2 ^ 24 + 1 / 2 ^ 39)) ∧ |r - s| ≤ (n + 1) * P := by
  have hm : |r - s| ≤ (n + 1) * P := (abs_sub _ _).trans (by linarith [hx.2, hy.2])
  obtain ⟨b1, b2⟩ := step_bounds h1 h2 n5 e1
  exact ⟨Ap.sub hx.1 hy.1 hm b1 b2, hm⟩

theorem det_ap {m : Matrix3 F32} {B : ℝ} (hB : Scale B) (h : ∀ i, Le (m.get i) B) :
    Ap m.det m.real.det (B * B * B * (1 / 2 ^ 19 + 1 / 2 ^ 36)) ∧ |m.real.det| ≤ 6 * (B * B * B) := by
  obtain ⟨h1, h2⟩ := hB.three
  have p : ∀ i j k, Ap (m.get i * m.get j * m.get k) ((m.get i).val * (m.get j).val * (m.get k).val)
      (B * B * B * (1 / 2 ^ 23 + 1 / 2 ^ 40)) ∧ |((m.get i).val : ℝ) * (m.get j).val * (m.get k).val| ≤ B * B * B :=
    fun i j k => ⟨prod3 hB (h i) (h j) (h k), mul_le (mul_le (h i).le (h j).le) (h k).le⟩
  generalize B * B * B = P at *
  have P0 : 0 < P := lt_of_lt_of_le (by norm_num) h1
  have s1 := p (Matrix3.I 1 1) (Matrix3.I 2 2) (Matrix3.I 3 3)
  have s2 := step_add (n := 1) h1 h2 ⟨s1.1, by linarith [s1.2]⟩ (p (Matrix3.I 2 1) (Matrix3.I 3 2) (Matrix3.I 1 3))
    (by norm_num) (by norm_num)
  have s3 := step_add h1 h2 s2 (p (Matrix3.I 3 1) (Matrix3.I 1 2) (Matrix3.I 2 3)) (by norm_num) (by norm_num)
  have s4 := step_sub h1 h2 s3 (p (Matrix3.I 1 1) (Matrix3.I 3 2) (Matrix3.I 2 3)) (by norm_num) (by norm_num)
  have s5 := step_sub h1 h2 s4 (p (Matrix3.I 3 1) (Matrix3.I 2 2) (Matrix3.I 1 3)) (by norm_num) (by norm_num)
  have s6 := step_sub h1 h2 s5 (p (Matrix3.I 2 1) (Matrix3.I 1 2) (Matrix3.I 3 3)) (by norm_num) (by norm_num)
  refine ⟨s6.1.weaken ?_, ?_⟩
  · refine mul_le_mul_of_nonneg_left ?_ P0.le
    norm_num
  · refine le_trans s6.2 ?_
    norm_num

/-- The reciprocal of an approximate number that is not small. -/
theorem recip {y : F32} {s f S Q d E : ℝ} (hy : Ap y s f) (hS : S ≤ |s| - f) (hS0 : 0 < S) (hQ : |1 / s| ≤ Q)
    (hd : Q * f / S ≤ d) (hB : Q + d ≤ 2 ^ 120) (hE : d + (Q + d) / 2 ^ 24 + 1 / 2 ^ 150 ≤ E) :
    Ap (lit 1 / y) (1 / s) E := by
  have f0 := hy.nonneg
  have hyv : S ≤ |(y.val : ℝ)| := by
    have := abs_sub_abs_le_abs_sub s (y.val : ℝ)
    rw [abs_sub_comm] at this
    linarith [hy.err]
  have hy0 : y.val ≠ 0 := by
    intro h; rw [h] at hyv; norm_num at hyv; linarith
  have hyr : (y.val : ℝ) ≠ 0 := by exact_mod_cast hy0
  have hs : s ≠ 0 := by
    intro h; rw [h] at hS; norm_num at hS; linarith
  have l1 : (lit 1 : F32).isFinite = true := by decide +kernel
  have l2 : (lit 1 : F32).val = 1 := by decide +kernel
  rw [div_def, div_finite l1 hy.fin hy0, l2]
  have h : |((1 / y.val : ℚ) : ℝ) - 1 / s| ≤ d := by
    push_cast
    rw [show 1 / (y.val : ℝ) - 1 / s = -(1 / s * (y.val - s)) / y.val by field_simp; ring, abs_div, abs_neg, abs_mul]
    refine le_trans ?_ hd
    have hQ0 : 0 ≤ Q := (abs_nonneg _).trans hQ
    have := hy.err
    gcongr
  refine (Ap.pack h ?_ hB).weaken hE
  have := abs_sub_abs_le_abs_sub ((1 / y.val : ℚ) : ℝ) (1 / s)
  linarith

/-- The reciprocal of the determinant. -/
theorem recip_det {y : F32} {s P d : ℝ} (h1 : 1 / 2 ^ 48 ≤ P) (h2 : P ≤ 2 ^ 48)
    (hy : Ap y s (P * (1 / 2 ^ 19 + 1 / 2 ^ 36))) (hs : |s| ≤ 6 * P) (hd : 1 / 2 ^ 12 ≤ d) (hsd : d * P ≤ |s|) :
    Ap (lit 1 / y) (1 / s) (1 / (d ^ 2 * P) * (40 / 2 ^ 24)) ∧ |1 / s| ≤ 6 * (1 / (d ^ 2 * P)) ∧ d ≤ 6 := by
  have P0 : 0 < P := lt_of_lt_of_le (by norm_num) h1
  have d0 : 0 < d := lt_of_lt_of_le (by norm_num) hd
  have d6 : d ≤ 6 := by
    have : d * P ≤ 6 * P := hsd.trans hs
    exact le_of_mul_le_mul_right this P0
  have hQ : |1 / s| ≤ 1 / (d * P) := by
    rw [abs_div, abs_one]
    exact one_div_le_one_div_of_le (by positivity) hsd
  have hg : 1 / (d * P) ≤ 6 * (1 / (d ^ 2 * P)) := by
    rw [show 6 * (1 / (d ^ 2 * P)) = 6 / d * (1 / (d * P)) by field_simp]
    have : 1 ≤ 6 / d := by rw [le_div_iff₀ d0]; linarith
    have h0 : 0 < 1 / (d * P) := by positivity
    nlinarith
  refine ⟨?_, hQ.trans hg, d6⟩
  have hη : P * (1 / 2 ^ 19 + 1 / 2 ^ 36) ≤ d * P * (1 / 2 ^ 6) := by
    have : (1 : ℝ) / 2 ^ 19 + 1 / 2 ^ 36 ≤ d * (1 / 2 ^ 6) := by
      calc (1 : ℝ) / 2 ^ 19 + 1 / 2 ^ 36 ≤ 1 / 2 ^ 12 * (1 / 2 ^ 6) := by norm_num
        _ ≤ _ := by gcongr
    calc _ ≤ P * (d * (1 / 2 ^ 6)) := by gcongr
      _ = _ := by ring
  have gpos : 0 < 1 / (d ^ 2 * P) := by positivity
  have glo : 1 / 2 ^ 60 ≤ 1 / (d ^ 2 * P) := by
    apply one_div_le_one_div_of_le (by positivity)
    calc d ^ 2 * P ≤ 6 ^ 2 * 2 ^ 48 := by gcongr
      _ ≤ _ := by norm_num
  have ghi : 1 / (d ^ 2 * P) ≤ 2 ^ 72 := by
    rw [div_le_iff₀ (by positivity)]
    calc (1 : ℝ) = 2 ^ 72 * ((1 / 2 ^ 12) ^ 2 * (1 / 2 ^ 48)) := by norm_num
      _ ≤ _ := by gcongr
  have hdd : 1 / (d * P) * (P * (1 / 2 ^ 19 + 1 / 2 ^ 36)) / (d * P * (63 / 64)) =
      1 / (d ^ 2 * P) * ((1 / 2 ^ 19 + 1 / 2 ^ 36) * (64 / 63)) := by
    field_simp
  refine recip (S := d * P * (63 / 64)) hy ?_ (by positivity) hQ (le_of_eq hdd) ?_ ?_
  · have : d * P * (63 / 64) = d * P - d * P * (1 / 2 ^ 6) := by ring
    linarith
  · generalize 1 / (d ^ 2 * P) = g at *
    norm_num at *; linarith
  · generalize 1 / (d ^ 2 * P) = g at *
    generalize 1 / (d * P) = k at *
    norm_num at *; linarith

/-- One entry of the inverse. -/
theorem entry {a b c e y : F32} {B s d : ℝ} (hB : Scale B) (ha : Le a B) (hb : Le b B) (hc : Le c B) (he : Le e B)
    (hy : Ap y s (B * B * B * (1 / 2 ^ 19 + 1 / 2 ^ 36))) (hs : |s| ≤ 6 * (B * B * B)) (hd : 1 / 2 ^ 12 ≤ d)
    (hsd : d * (B * B * B) ≤ |s|) :
    Ap ((a * b - c * e) * (lit 1 / y)) ((a.val * b.val - c.val * e.val) * (1 / s)) (1 / 2 ^ 17 / (d ^ 2 * B)) := by
  obtain ⟨h1, h2⟩ := hB.three
  obtain ⟨k1, k2⟩ := hB.two
  have B0 := hB.pos
  have d0 : 0 < d := lt_of_lt_of_le (by norm_num) hd
  obtain ⟨c1, c2⟩ := cof hB ha hb hc he
  obtain ⟨r1, r2, d6⟩ := recip_det h1 h2 hy hs hd hsd
  have hg : 1 / (d ^ 2 * (B * B * B)) * (B * B) = 1 / (d ^ 2 * B) := by field_simp
  have glo : 1 / 2 ^ 60 ≤ 1 / (d ^ 2 * B) := by
    have := hB.hi
    apply one_div_le_one_div_of_le (by positivity)
    calc d ^ 2 * B ≤ 6 ^ 2 * 2 ^ 16 := by gcongr
      _ ≤ _ := by norm_num
  have ghi : 1 / (d ^ 2 * B) ≤ 2 ^ 72 := by
    have := hB.lo
    rw [div_le_iff₀ (by positivity)]
    calc (1 : ℝ) ≤ 2 ^ 72 * ((1 / 2 ^ 12) ^ 2 * (1 / 2 ^ 16)) := by norm_num
      _ ≤ _ := by gcongr
  have e1 : B * B * (1 / 2 ^ 22 + 1 / 2 ^ 40) * (6 * (1 / (d ^ 2 * (B * B * B)))) +
      1 / (d ^ 2 * (B * B * B)) * (40 / 2 ^ 24) * (2 * (B * B)) +
      B * B * (1 / 2 ^ 22 + 1 / 2 ^ 40) * (1 / (d ^ 2 * (B * B * B)) * (40 / 2 ^ 24)) =
      1 / (d ^ 2 * B) * (6 * (1 / 2 ^ 22 + 1 / 2 ^ 40) + 80 / 2 ^ 24 + (1 / 2 ^ 22 + 1 / 2 ^ 40) * (40 / 2 ^ 24)) := by
    rw [← hg]; ring
  have e2 : 2 * (B * B) * (6 * (1 / (d ^ 2 * (B * B * B)))) = 12 * (1 / (d ^ 2 * B)) := by
    rw [← hg]; ring
  rw [show (1 : ℝ) / 2 ^ 17 / (d ^ 2 * B) = 1 / 2 ^ 17 * (1 / (d ^ 2 * B)) by ring]
  refine Ap.mul c1 r1 c2 r2 ?_ ?_ <;> rw [e1, e2] <;> generalize 1 / (d ^ 2 * B) = g at * <;> norm_num at * <;> linarith

/-- The nine entries. -/
theorem entries {m : Matrix3 F32} {B d : ℝ} (hB : Scale B) (h : ∀ i, Le (m.get i) B) (hd : 1 / 2 ^ 12 ≤ d)
    (hsd : d * (B * B * B) ≤ |m.real.det|) (i : Fin 9) :
    Ap (m.invert.get i) (m.real.invert.get i) (1 / 2 ^ 17 / (d ^ 2 * B)) := by
  obtain ⟨d1, d2⟩ := det_ap hB h
  have w : ∀ i j k l, Ap ((m.get i * m.get j - m.get k * m.get l) * (lit 1 / m.det))
      (((m.get i).val * (m.get j).val - (m.get k).val * (m.get l).val) * (1 / m.real.det)) (1 / 2 ^ 17 / (d ^ 2 * B)) :=
    fun i j k l => entry hB (h i) (h j) (h k) (h l) d1 d2 hd hsd
  have o : (lit 1 : ℝ) = 1 := by rw [lit_real, Rat.cast_one]
  have e : m.real.invert = Matrix3.smul (α := ℝ)
      ⟨m.m4.val * m.m8.val - m.m5.val * m.m7.val, m.m2.val * m.m7.val - m.m1.val * m.m8.val,
       m.m1.val * m.m5.val - m.m2.val * m.m4.val, m.m5.val * m.m6.val - m.m3.val * m.m8.val,
       m.m0.val * m.m8.val - m.m2.val * m.m6.val, m.m2.val * m.m3.val - m.m0.val * m.m5.val,
       m.m3.val * m.m7.val - m.m4.val * m.m6.val, m.m1.val * m.m6.val - m.m0.val * m.m7.val,
       m.m0.val * m.m4.val - m.m1.val * m.m3.val⟩ (1 / m.real.det) := by
    rw [← o]; rfl
  rw [e]
  fin_cases i
  · exact w 4 8 5 7
  · exact w 2 7 1 8
  · exact w 1 5 2 4
  · exact w 5 6 3 8
  · exact w 0 8 2 6
  · exact w 2 3 0 5
  · exact w 3 7 4 6
  · exact w 1 6 0 7
  · exact w 0 4 1 3

/-- Nine numbers as a matrix. -/
theorem toM_apply (m : Matrix3 ℝ) (i j : Fin 3) : toM m i j = m.get (Matrix3.M j i) := by
  fin_cases i <;> fin_cases j <;> rfl

theorem real_get (m : Matrix3 F32) (i : Fin 9) : m.real.get i = ((m.get i).val : ℝ) := by
  fin_cases i <;> rfl

/-- Three products of a bounded row with small errors. -/
theorem residual {A X Y : Matrix (Fin 3) (Fin 3) ℝ} {B η : ℝ} (hA : ∀ i j, |A i j| ≤ B) (hX : ∀ i j, |X i j - Y i j| ≤ η) :
    (A * Y = 1 → ∀ i j, |(A * X) i j - (1 : Matrix (Fin 3) (Fin 3) ℝ) i j| ≤ 3 * (B * η)) ∧
    (Y * A = 1 → ∀ i j, |(X * A) i j - (1 : Matrix (Fin 3) (Fin 3) ℝ) i j| ≤ 3 * (B * η)) := by
  constructor
  · intro h i j
    rw [← h, Matrix.mul_apply, Matrix.mul_apply, Fin.sum_univ_three, Fin.sum_univ_three,
      show A i 0 * X 0 j + A i 1 * X 1 j + A i 2 * X 2 j - (A i 0 * Y 0 j + A i 1 * Y 1 j + A i 2 * Y 2 j) =
        A i 0 * (X 0 j - Y 0 j) + A i 1 * (X 1 j - Y 1 j) + A i 2 * (X 2 j - Y 2 j) by ring]
    refine (abs_add_three _ _ _).trans ?_
    have h0 := mul_le (hA i 0) (hX 0 j)
    have h1 := mul_le (hA i 1) (hX 1 j)
    have h2 := mul_le (hA i 2) (hX 2 j)
    linarith
  · intro h i j
    rw [← h, Matrix.mul_apply, Matrix.mul_apply, Fin.sum_univ_three, Fin.sum_univ_three,
      show X i 0 * A 0 j + X i 1 * A 1 j + X i 2 * A 2 j - (Y i 0 * A 0 j + Y i 1 * A 1 j + Y i 2 * A 2 j) =
        A 0 j * (X i 0 - Y i 0) + A 1 j * (X i 1 - Y i 1) + A 2 j * (X i 2 - Y i 2) by ring]
    refine (abs_add_three _ _ _).trans ?_
    have h0 := mul_le (hA 0 j) (hX i 0)
    have h1 := mul_le (hA 1 j) (hX i 1)
    have h2 := mul_le (hA 2 j) (hX i 2)
    linarith

theorem times_inf (x : F32) (s : Bool) : (x * F32.inf s).isFinite = false := by
  cases x <;> rfl

theorem times_nan (x : F32) : x * F32.nan = F32.nan := by
  cases x <;> rfl

theorem invert_get (m : Matrix3 F32) (i : Fin 9) : ∃ x, m.invert.get i = x * (lit 1 / m.det) := by
  fin_cases i <;> exact ⟨_, rfl⟩

end InvertFloat

open InvertFloat

/-- **C109.** For every matrix of finite entries of magnitude at most `B` whose determinant is at least `d * B ^ 3`,
`Matrix3::invert` delivers nine finite numbers, each within `2 ^ -17 / (d ^ 2 * B)` of the entry of the inverse matrix,
and both products with the matrix are within `3 * 2 ^ -17 / d ^ 2` of the identity. -/
theorem C109_invert (m : Matrix3 F32) (B d : ℝ) (hB : 1 / 2 ^ 16 ≤ B) (hB' : B ≤ 2 ^ 16) (hf : m.AllFinite)
    (hm : ∀ i j, |toM m.real i j| ≤ B) (hd : 1 / 2 ^ 12 ≤ d) (hdet : d * B ^ 3 ≤ |(toM m.real).det|) :
    m.invert.AllFinite ∧
      (∀ i j, |toM m.invert.real i j - (toM m.real)⁻¹ i j| ≤ 1 / 2 ^ 17 / (d ^ 2 * B)) ∧
      (∀ i j, |(toM m.real * toM m.invert.real) i j - (1 : Matrix (Fin 3) (Fin 3) ℝ) i j| ≤ 3 / 2 ^ 17 / d ^ 2) ∧
      (∀ i j, |(toM m.invert.real * toM m.real) i j - (1 : Matrix (Fin 3) (Fin 3) ℝ) i j| ≤ 3 / 2 ^ 17 / d ^ 2) := by
  have sc : Scale B := ⟨hB, hB'⟩
  have B0 := sc.pos
  have d0 : 0 < d := lt_of_lt_of_le (by norm_num) hd
  have hle : ∀ i, Le (m.get i) B := by
    intro i
    refine ⟨hf i, ?_⟩
    have := hm (i.divNat (n := 3) (m := 3)) (i.modNat (n := 3) (m := 3))
    rw [toM_apply, real_get] at this
    revert this
    fin_cases i <;> exact id
  have hsd : d * (B * B * B) ≤ |m.real.det| := by
    rw [← toM_det, show B * B * B = B ^ 3 by ring]; exact hdet
  have hne : (toM m.real).det ≠ 0 := by
    intro h
    rw [h, abs_zero] at hdet
    have : 0 < d * B ^ 3 := by positivity
    linarith
  have E := InvertFloat.entries sc hle hd hsd
  have hX : ∀ i j, |toM m.invert.real i j - (toM m.real)⁻¹ i j| ≤ 1 / 2 ^ 17 / (d ^ 2 * B) := by
    intro i j
    rw [← toM_invert _ hne, toM_apply, toM_apply, real_get]
    exact (E _).err
  have hη : 3 * (B * (1 / 2 ^ 17 / (d ^ 2 * B))) = 3 / 2 ^ 17 / d ^ 2 := by
    field_simp
  have R := residual hm hX
  rw [hη] at R
  have hu : IsUnit (toM m.real).det := isUnit_iff_ne_zero.2 hne
  exact ⟨fun i => (E i).fin, hX, R.1 (Matrix.mul_nonsing_inv _ hu), R.2 (Matrix.nonsing_inv_mul _ hu)⟩

/-- Satisfiable: the identity matrix, with `B = 1` and `d = 1`. -/
example : (Matrix3.ident : Matrix3 F32).AllFinite ∧ (∀ i j, |toM (Matrix3.ident : Matrix3 F32).real i j| ≤ 1) ∧
    1 * 1 ^ 3 ≤ |(toM (Matrix3.ident : Matrix3 F32).real).det| := by
  have e : (Matrix3.ident : Matrix3 F32).real = Matrix3.ident := by
    have h1 : (lit 1 : F32).val = 1 := by decide +kernel
    have h0 : (lit 0 : F32).val = 0 := by decide +kernel
    simp only [Matrix3.real, Matrix3.ident, h1, h0, lit_real]
  rw [e, toM_ident]
  refine ⟨by unfold Matrix3.AllFinite; decide +kernel, fun i j => ?_, by simp⟩
  rw [Matrix.one_apply]; split <;> simp

/-- **C109, singular.** When the determinant evaluates to zero or to NaN, no entry of the result is a finite number: a
failed inversion cannot be mistaken for a matrix. -/
theorem C109_singular (m : Matrix3 F32) (h : (∃ s, m.det = F32.zero s) ∨ m.det = F32.nan) (i : Fin 9) :
    (m.invert.get i).isFinite = false := by
  obtain ⟨x, hx⟩ := invert_get m i
  rw [hx]
  have h1 : ∃ q h, (lit 1 : F32) = F32.num q h := by
    have hf : (lit 1 : F32).isFinite = true := by decide +kernel
    have hv : (lit 1 : F32).val ≠ 0 := by decide +kernel
    revert hf hv
    generalize (lit 1 : F32) = x
    intro hf hv
    cases x with
    | nan => exact absurd hf Bool.false_ne_true
    | inf s => exact absurd hf Bool.false_ne_true
    | zero s => exact absurd rfl hv
    | num q h => exact ⟨q, h, rfl⟩
  rcases h with ⟨s, h⟩ | h
  · rw [h]
    have : ∃ t, (lit 1 : F32) / F32.zero s = F32.inf t := by
      obtain ⟨q, w, h1⟩ := h1
      rw [h1]; exact ⟨_, rfl⟩
    obtain ⟨t, ht⟩ := this
    rw [ht]; exact times_inf _ _
  · rw [h, show (lit 1 : F32) / F32.nan = F32.nan by obtain ⟨q, w, h1⟩ := h1; rw [h1]; rfl, times_nan]; rfl

/-- Satisfiable: the zero matrix. -/
example : ∃ m : Matrix3 F32, ∃ s, m.det = F32.zero s :=
  ⟨⟨lit 0, lit 0, lit 0, lit 0, lit 0, lit 0, lit 0, lit 0, lit 0⟩, by
    have hf : (Matrix3.det ⟨lit 0, lit 0, lit 0, lit 0, lit 0, lit 0, lit 0, lit 0, lit 0⟩ : F32).isFinite = true := by
      decide +kernel
    have hv : (Matrix3.det ⟨lit 0, lit 0, lit 0, lit 0, lit 0, lit 0, lit 0, lit 0, lit 0⟩ : F32).val = 0 := by
      decide +kernel
    revert hf hv
    generalize (Matrix3.det ⟨lit 0, lit 0, lit 0, lit 0, lit 0, lit 0, lit 0, lit 0, lit 0⟩ : F32) = x
    intro hf hv
    cases x with
    | nan => exact absurd hf Bool.false_ne_true
    | inf s => exact absurd hf Bool.false_ne_true
    | zero s => exact ⟨s, rfl⟩
    | num q h => exact absurd hv h.1⟩

/-- The matrix with rows `(0.5, 0.3, 0.2)`, `(1, 0.6, 0.4)` and `(0.9, 1, 1)`. -/
def proportional : Matrix3 F32 :=
  ⟨lit (5 / 10), lit (3 / 10), lit (2 / 10), lit 1, lit (6 / 10), lit (4 / 10), lit (9 / 10), lit 1, lit 1⟩

/-- **C109, singular but not noticed.** The second row of this matrix is exactly twice the first, so it has no inverse;
the determinant evaluates to `-2 ^ -25` and `invert` returns nine finite numbers. -/
theorem C109_singular_missed : (toM proportional.real).det = 0 ∧ proportional.invert.AllFinite := by
  constructor
  · have hv : proportional.vals = ⟨1 / 2, 10066330 / 2 ^ 25, 13421773 / 2 ^ 26, 1, 10066330 / 2 ^ 24, 13421773 / 2 ^ 25,
        15099494 / 2 ^ 24, 1, 1⟩ := by decide +kernel
    simp only [Matrix3.vals, Matrix3.mk.injEq] at hv
    obtain ⟨h0, h1, h2, h3, h4, h5, h6, h7, h8⟩ := hv
    rw [toM_det]
    simp only [Matrix3.real, Matrix3.det_eq, h0, h1, h2, h3, h4, h5, h6, h7, h8]
    norm_num
  · have : ∀ i : Fin 9, (proportional.invert.get i).isFinite = true := by decide +kernel
    exact this

end CS
