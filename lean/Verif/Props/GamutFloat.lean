import Verif.Props.Float
import Verif.Props.Gamut
import Verif.Lemmas.FloatSpectrum

/-!
# C79: gamut conversion in binary32

The matrices of the predefined gamuts are binary32 constants; the kernel evaluates them.  The theorems are
about every colour.
-/

namespace CS
open F32 B32

/-- Rounding errors of two matrix applications, the second nearly undoing the first (one row). -/
theorem row_error {a0 a1 a2 a3 a4 a5 a6 a7 a8 b0 b1 b2 d0 d1 d2 x y z p q r w C e κ η : ℚ}
    (hη : 0 ≤ η) (hC : 0 ≤ C)
    (hx : |x| ≤ C) (hy : |y| ≤ C) (hz : |z| ≤ C)
    (hp : |p - (a0 * x + a1 * y + a2 * z)| ≤ (|a0 * x| + |a1 * y| + |a2 * z|) / 2 ^ 22 + η)
    (hq : |q - (a3 * x + a4 * y + a5 * z)| ≤ (|a3 * x| + |a4 * y| + |a5 * z|) / 2 ^ 22 + η)
    (hr : |r - (a6 * x + a7 * y + a8 * z)| ≤ (|a6 * x| + |a7 * y| + |a8 * z|) / 2 ^ 22 + η)
    (hw : |w - (b0 * p + b1 * q + b2 * r)| ≤ (|b0 * p| + |b1 * q| + |b2 * r|) / 2 ^ 22 + η)
    (hE : |b0 * a0 + b1 * a3 + b2 * a6 - d0| + |b0 * a1 + b1 * a4 + b2 * a7 - d1| +
      |b0 * a2 + b1 * a5 + b2 * a8 - d2| ≤ e)
    (hκ : |b0| * (|a0| + |a1| + |a2|) + |b1| * (|a3| + |a4| + |a5|) + |b2| * (|a6| + |a7| + |a8|) ≤ κ)
    (hb : |b0| + |b1| + |b2| ≤ 8) :
    |w - (d0 * x + d1 * y + d2 * z)| ≤ (e + κ * (2 / 2 ^ 22 + 1 / 2 ^ 44)) * C + 10 * η := by
  have row : ∀ {s t v p : ℚ}, |p - (s * x + t * y + v * z)| ≤ (|s * x| + |t * y| + |v * z|) / 2 ^ 22 + η →
      |p - (s * x + t * y + v * z)| ≤ (|s| + |t| + |v|) * C / 2 ^ 22 + η ∧
      |p| ≤ (|s| + |t| + |v|) * C * (1 + 1 / 2 ^ 22) + η := by
    intro s t v p h
    have h1 : |s * x| ≤ |s| * C := by rw [abs_mul]; exact mul_le_mul_of_nonneg_left hx (abs_nonneg _)
    have h2 : |t * y| ≤ |t| * C := by rw [abs_mul]; exact mul_le_mul_of_nonneg_left hy (abs_nonneg _)
    have h3 : |v * z| ≤ |v| * C := by rw [abs_mul]; exact mul_le_mul_of_nonneg_left hz (abs_nonneg _)
    have h4 : |p - (s * x + t * y + v * z)| ≤ (|s| + |t| + |v|) * C / 2 ^ 22 + η := by
      refine h.trans ?_
      have : |s * x| + |t * y| + |v * z| ≤ (|s| + |t| + |v|) * C := by linarith
      gcongr
    refine ⟨h4, ?_⟩
    have h5 : |s * x + t * y + v * z| ≤ |s| * C + |t| * C + |v| * C :=
      (abs_add_three _ _ _).trans (by linarith)
    calc |p| = |(p - (s * x + t * y + v * z)) + (s * x + t * y + v * z)| := by congr 1; ring
      _ ≤ _ := abs_add_le _ _
      _ ≤ _ := by linarith
  obtain ⟨p1, p2⟩ := row hp
  obtain ⟨q1, q2⟩ := row hq
  obtain ⟨r1, r2⟩ := row hr
  set α := |a0| + |a1| + |a2|
  set β := |a3| + |a4| + |a5|
  set γ := |a6| + |a7| + |a8|
  set P := a0 * x + a1 * y + a2 * z
  set Q := a3 * x + a4 * y + a5 * z
  set R := a6 * x + a7 * y + a8 * z
  have B0 := abs_nonneg b0
  have B1 := abs_nonneg b1
  have B2 := abs_nonneg b2
  have hκC : (|b0| * α + |b1| * β + |b2| * γ) * C ≤ κ * C := mul_le_mul_of_nonneg_right hκ hC
  have hbη : (|b0| + |b1| + |b2|) * η ≤ 8 * η := mul_le_mul_of_nonneg_right hb hη
  have m : ∀ {b s t : ℚ}, |s| ≤ t → |b * s| ≤ |b| * t := fun h => by
    rw [abs_mul]; exact mul_le_mul_of_nonneg_left h (abs_nonneg _)
  -- the last application
  have s1 : |b0 * p| + |b1 * q| + |b2 * r| ≤ κ * C * (1 + 1 / 2 ^ 22) + 8 * η := by
    have := m (b := b0) p2
    have := m (b := b1) q2
    have := m (b := b2) r2
    nlinarith
  have s2 : |w - (b0 * p + b1 * q + b2 * r)| ≤ (κ * C * (1 + 1 / 2 ^ 22) + 8 * η) / 2 ^ 22 + η :=
    hw.trans (by gcongr)
  -- the first, carried through
  have s3 : |b0 * (p - P) + b1 * (q - Q) + b2 * (r - R)| ≤ κ * C / 2 ^ 22 + 8 * η := by
    refine (abs_add_three _ _ _).trans ?_
    have := m (b := b0) p1
    have := m (b := b1) q1
    have := m (b := b2) r1
    have e1 : |b0| * (α * C / 2 ^ 22 + η) + |b1| * (β * C / 2 ^ 22 + η) + |b2| * (γ * C / 2 ^ 22 + η) =
      (|b0| * α + |b1| * β + |b2| * γ) * C / 2 ^ 22 + (|b0| + |b1| + |b2|) * η := by ring
    have e2 : (|b0| * α + |b1| * β + |b2| * γ) * C / 2 ^ 22 ≤ κ * C / 2 ^ 22 := by gcongr
    linarith
  -- the product of the matrices
  have s4 : |(b0 * a0 + b1 * a3 + b2 * a6 - d0) * x + (b0 * a1 + b1 * a4 + b2 * a7 - d1) * y +
      (b0 * a2 + b1 * a5 + b2 * a8 - d2) * z| ≤ e * C := by
    refine (abs_add_three _ _ _).trans ?_
    have := m (b := b0 * a0 + b1 * a3 + b2 * a6 - d0) hx
    have := m (b := b0 * a1 + b1 * a4 + b2 * a7 - d1) hy
    have := m (b := b0 * a2 + b1 * a5 + b2 * a8 - d2) hz
    have := mul_le_mul_of_nonneg_right hE hC
    linarith
  have key : w - (d0 * x + d1 * y + d2 * z) = (w - (b0 * p + b1 * q + b2 * r)) +
      (b0 * (p - P) + b1 * (q - Q) + b2 * (r - R)) + ((b0 * a0 + b1 * a3 + b2 * a6 - d0) * x +
      (b0 * a1 + b1 * a4 + b2 * a7 - d1) * y + (b0 * a2 + b1 * a5 + b2 * a8 - d2) * z) := by
    simp only [P, Q, R]; ring
  rw [key]
  refine (abs_add_three _ _ _).trans ?_
  have h8 : 8 * η / 2 ^ 22 ≤ η := by
    rw [div_le_iff₀ (by norm_num)]; nlinarith
  have e3 : (κ * C * (1 + 1 / 2 ^ 22) + 8 * η) / 2 ^ 22 = κ * C / 2 ^ 22 + κ * C / 2 ^ 44 + 8 * η / 2 ^ 22 := by
    ring
  rw [e3] at s2
  have e4 : (e + κ * (2 / 2 ^ 22 + 1 / 2 ^ 44)) * C + 10 * η =
    e * C + 2 * (κ * C / 2 ^ 22) + κ * C / 2 ^ 44 + 10 * η := by ring
  rw [e4]
  linarith

/-- A finite float of magnitude at most `B`. -/
structure Bd (x : F32) (B : ℚ) : Prop where
  fin : x.isFinite = true
  le : |x.val| ≤ B

theorem pack_bd {s : Bool} {q B : ℚ} (hB : Rep B) (hlt : B < 2 ^ 128) (h : |q| ≤ B) : Bd (pack s q) B := by
  obtain ⟨h1, h2⟩ := abs_le.mp h
  have h3 : -B ≤ rnd q := by
    have := rnd_le hB (show -q ≤ B by linarith)
    rw [rnd_neg] at this; linarith
  have h4 : |rnd q| ≤ B := abs_le.2 ⟨h3, rnd_le hB h2⟩
  obtain ⟨f, v⟩ := pack_finite (s := s) (q := q) (h4.trans_lt hlt)
  exact ⟨f, by rw [v]; exact h4⟩

theorem rep_pow (k : ℕ) : Rep (2 ^ k) := by
  have := Spectrum.rep_mul_pow (n := 1) (by norm_num) (k := k); simpa using this

theorem row_bd {a b c x y z : F32} {k : ℕ} (hk : k ≤ 120) (ha : Bd a 8) (hb : Bd b 8) (hc : Bd c 8)
    (hx : Bd x (2 ^ k)) (hy : Bd y (2 ^ k)) (hz : Bd z (2 ^ k)) : Bd (a * x + b * y + c * z) (2 ^ (k + 5)) := by
  have lt : ∀ {n : ℕ}, n ≤ 5 → (2 : ℚ) ^ (k + n) < 2 ^ 128 := fun h =>
    pow_lt_pow_right₀ (by norm_num) (by omega)
  have mul : ∀ {s t : F32}, Bd s 8 → Bd t (2 ^ k) → Bd (s * t) (2 ^ (k + 3)) := by
    intro s t hs ht
    rw [mul_def, mul_finite hs.fin ht.fin]
    refine pack_bd (rep_pow _) (lt (by norm_num)) ?_
    rw [abs_mul, pow_add, mul_comm ((2 : ℚ) ^ k)]
    exact mul_le_mul (hs.le.trans (by norm_num)) ht.le (abs_nonneg _) (by norm_num)
  have h1 : Bd (a * x + b * y) (2 ^ (k + 4)) := by
    rw [add_def, add_finite (mul ha hx).fin (mul hb hy).fin]
    refine pack_bd (rep_pow _) (lt (by norm_num)) ((abs_add_le _ _).trans ?_)
    rw [show (2 : ℚ) ^ (k + 4) = 2 ^ (k + 3) + 2 ^ (k + 3) by ring]
    exact add_le_add (mul ha hx).le (mul hb hy).le
  rw [add_def, add_finite h1.fin (mul hc hz).fin]
  refine pack_bd (rep_pow _) (lt (by norm_num)) ((abs_add_le _ _).trans ?_)
  have : (2 : ℚ) ^ (k + 3) ≤ 2 ^ (k + 4) := pow_le_pow_right₀ (by norm_num) (by omega)
  rw [show (2 : ℚ) ^ (k + 5) = 2 ^ (k + 4) + 2 ^ (k + 4) by ring]
  exact add_le_add h1.le ((mul hc hz).le.trans this)

/-- Whether the entries of a matrix are finite and at most 8. -/
def small (m : Matrix3 F32) : Bool :=
  [m.m0, m.m1, m.m2, m.m3, m.m4, m.m5, m.m6, m.m7, m.m8].all fun x => x.isFinite && decide (|x.val| ≤ 8)

/-- One row of the product of `b` and `a` against the row `d` of the unit matrix. -/
def rowOK (a : Matrix3 F32) (b0 b1 b2 : F32) (d0 d1 d2 : ℚ) : Bool :=
  decide (|b0.val * a.m0.val + b1.val * a.m3.val + b2.val * a.m6.val - d0| +
    |b0.val * a.m1.val + b1.val * a.m4.val + b2.val * a.m7.val - d1| +
    |b0.val * a.m2.val + b1.val * a.m5.val + b2.val * a.m8.val - d2| ≤ 1e-6) &&
  decide (|b0.val| * (|a.m0.val| + |a.m1.val| + |a.m2.val|) + |b1.val| * (|a.m3.val| + |a.m4.val| + |a.m5.val|) +
    |b2.val| * (|a.m6.val| + |a.m7.val| + |a.m8.val|) ≤ 5.2) &&
  decide (|b0.val| + |b1.val| + |b2.val| ≤ 8)

/-- Whether `b` nearly undoes `a`; evaluated by the kernel. -/
def undoes (a b : Matrix3 F32) : Bool := small a && small b &&
  rowOK a b.m0 b.m1 b.m2 1 0 0 && rowOK a b.m3 b.m4 b.m5 0 1 0 && rowOK a b.m6 b.m7 b.m8 0 0 1

theorem undoes_error {a b : Matrix3 F32} (h : undoes a b = true) (v : Vector3 F32) {C : ℚ} (hC : C ≤ 2 ^ 100)
    (hx : Bd v.x C) (hy : Bd v.y C) (hz : Bd v.z C) :
    let w := b.apply (a.apply v)
    (w.x.isFinite = true ∧ w.y.isFinite = true ∧ w.z.isFinite = true) ∧
    |w.x.val - v.x.val| ≤ 4e-6 * C + 1 / 2 ^ 140 ∧ |w.y.val - v.y.val| ≤ 4e-6 * C + 1 / 2 ^ 140 ∧
    |w.z.val - v.z.val| ≤ 4e-6 * C + 1 / 2 ^ 140 := by
  intro w
  have hC0 : 0 ≤ C := (abs_nonneg _).trans hx.le
  simp only [undoes, Bool.and_eq_true] at h
  obtain ⟨⟨⟨⟨ha, hb⟩, r1⟩, r2⟩, r3⟩ := h
  have bd : ∀ {m : Matrix3 F32}, small m = true → (Bd m.m0 8 ∧ Bd m.m1 8 ∧ Bd m.m2 8) ∧
      (Bd m.m3 8 ∧ Bd m.m4 8 ∧ Bd m.m5 8) ∧ (Bd m.m6 8 ∧ Bd m.m7 8 ∧ Bd m.m8 8) := by
    intro m hm
    simp only [small, List.all_cons, List.all_nil, Bool.and_true, Bool.and_eq_true, decide_eq_true_eq] at hm
    obtain ⟨h0, h1, h2, h3, h4, h5, h6, h7, h8⟩ := hm
    exact ⟨⟨⟨h0.1, h0.2⟩, ⟨h1.1, h1.2⟩, ⟨h2.1, h2.2⟩⟩, ⟨⟨h3.1, h3.2⟩, ⟨h4.1, h4.2⟩, ⟨h5.1, h5.2⟩⟩,
      ⟨h6.1, h6.2⟩, ⟨h7.1, h7.2⟩, ⟨h8.1, h8.2⟩⟩
  obtain ⟨⟨a0, a1, a2⟩, ⟨a3, a4, a5⟩, a6, a7, a8⟩ := bd ha
  obtain ⟨⟨b0, b1, b2⟩, ⟨b3, b4, b5⟩, b6, b7, b8⟩ := bd hb
  have up : ∀ {x : F32}, Bd x C → Bd x (2 ^ 100) := fun h => ⟨h.fin, h.le.trans hC⟩
  have p := row_bd (by norm_num) a0 a1 a2 (up hx) (up hy) (up hz)
  have q := row_bd (by norm_num) a3 a4 a5 (up hx) (up hy) (up hz)
  have r := row_bd (by norm_num) a6 a7 a8 (up hx) (up hy) (up hz)
  have w0 := row_bd (by norm_num) b0 b1 b2 p q r
  have w1 := row_bd (by norm_num) b3 b4 b5 p q r
  have w2 := row_bd (by norm_num) b6 b7 b8 p q r
  have ep := dot3_error _ _ _ _ _ _ p.fin
  have eq := dot3_error _ _ _ _ _ _ q.fin
  have er := dot3_error _ _ _ _ _ _ r.fin
  refine ⟨⟨w0.fin, w1.fin, w2.fin⟩, ?_, ?_, ?_⟩
  · have e0 := dot3_error _ _ _ _ _ _ w0.fin
    simp only [rowOK, Bool.and_eq_true, decide_eq_true_eq] at r1
    have := row_error (by norm_num) hC0 hx.le hy.le hz.le ep eq er e0 r1.1.1 r1.1.2 r1.2
    rw [one_mul, zero_mul, zero_mul, add_zero, add_zero] at this
    refine this.trans ?_
    norm_num; linarith
  · have e0 := dot3_error _ _ _ _ _ _ w1.fin
    simp only [rowOK, Bool.and_eq_true, decide_eq_true_eq] at r2
    have := row_error (by norm_num) hC0 hx.le hy.le hz.le ep eq er e0 r2.1.1 r2.1.2 r2.2
    rw [one_mul, zero_mul, zero_mul, zero_add, add_zero] at this
    refine this.trans ?_
    norm_num; linarith
  · have e0 := dot3_error _ _ _ _ _ _ w2.fin
    simp only [rowOK, Bool.and_eq_true, decide_eq_true_eq] at r3
    have := row_error (by norm_num) hC0 hx.le hy.le hz.le ep eq er e0 r3.1.1 r3.1.2 r3.2
    rw [one_mul, zero_mul, zero_mul, zero_add, zero_add] at this
    refine this.trans ?_
    norm_num; linarith

/-- The predefined gamuts. -/
def predefinedF32 : List (Gamut F32) :=
  [AdobeRGB, Rec709, Rec2020, DCI_P3, S_Gamut, S_Gamut3_Cine, ACEScg, ACES2065, LMS, XYZ]

set_option maxRecDepth 100000 in
theorem predefined_undo : (predefinedF32.all fun g => undoes g.toXYZ_ g.fromXYZ_ && undoes g.fromXYZ_ g.toXYZ_) = true := by
  decide +kernel

/-- Finite components of magnitude at most `C`. -/
def Within (t : Tristimulus F32) (C : ℚ) : Prop :=
  (t.a.isFinite = true ∧ |t.a.val| ≤ C) ∧ (t.b.isFinite = true ∧ |t.b.val| ≤ C) ∧ t.c.isFinite = true ∧ |t.c.val| ≤ C

/-- Finite components that differ by at most `e` from those of `t`. -/
def Near (s t : Tristimulus F32) (e : ℚ) : Prop :=
  (s.a.isFinite = true ∧ s.b.isFinite = true ∧ s.c.isFinite = true) ∧
    |s.a.val - t.a.val| ≤ e ∧ |s.b.val - t.b.val| ≤ e ∧ |s.c.val - t.c.val| ≤ e

/-- C79: in binary32, converting a colour to XYZ and back (or back and forth) by any predefined gamut changes
no component by more than 4e-6 of the largest, and never overflows. -/
theorem C79_roundtrip (g : Gamut F32) (hg : g ∈ predefinedF32) (t : Tristimulus F32) (C : ℚ) (hC : C ≤ 2 ^ 100)
    (ht : Within t C) :
    Near (g.fromXYZ (g.toXYZ t)) t (4e-6 * C + 1 / 2 ^ 140) ∧
    Near (g.toXYZ (g.fromXYZ t)) t (4e-6 * C + 1 / 2 ^ 140) := by
  have h := List.all_eq_true.1 predefined_undo g hg
  rw [Bool.and_eq_true] at h
  obtain ⟨h1, h2, h3⟩ := ht
  exact ⟨undoes_error h.1 t.vec3 hC ⟨h1.1, h1.2⟩ ⟨h2.1, h2.2⟩ ⟨h3.1, h3.2⟩,
    undoes_error h.2 t.vec3 hC ⟨h1.1, h1.2⟩ ⟨h2.1, h2.2⟩ ⟨h3.1, h3.2⟩⟩

/-- C79: so the 16-bit code values of a colour survive the trip: scaled by 65535 and rounded to the nearest
integer, the result is the code value it came from. -/
theorem C79_codes (g : Gamut F32) (hg : g ∈ predefinedF32) (i j k : ℕ) (hi : i ≤ 65535) (hj : j ≤ 65535)
    (hk : k ≤ 65535) :
    let t := g.fromXYZ (g.toXYZ ⟨lit ((i : ℚ) / 65535), lit ((j : ℚ) / 65535), lit ((k : ℚ) / 65535)⟩)
    |65535 * t.a.val - i| < 1 / 2 ∧ |65535 * t.b.val - j| < 1 / 2 ∧ |65535 * t.c.val - k| < 1 / 2 := by
  have one : Rep 1 := by exact_mod_cast rep_int (n := 1) (by norm_num)
  have hl : ∀ n : ℕ, n ≤ 65535 → Spectrum.NN (lit ((n : ℚ) / 65535)) 1 ∧
      |(lit ((n : ℚ) / 65535) : F32).val - n / 65535| ≤ 1 / 2 ^ 23 := by
    intro n hn
    have hq : (n : ℚ) / 65535 ≤ 1 := by
      rw [div_le_one (by norm_num)]; exact_mod_cast hn
    obtain ⟨h1, h2⟩ := Spectrum.pack_nn (s := false) (q := (n : ℚ) / 65535) (by positivity) one (by norm_num) hq
    refine ⟨h1, ?_⟩
    rw [lit_def, h2]
    refine (rnd_rel' _).trans ?_
    rw [abs_of_nonneg (by positivity)]
    have : (n : ℚ) / 65535 / 2 ^ 24 ≤ 1 / 2 ^ 24 := by gcongr
    refine (add_le_add_left this _).trans (by norm_num)
  obtain ⟨n1, e1⟩ := hl i hi
  obtain ⟨n2, e2⟩ := hl j hj
  obtain ⟨n3, e3⟩ := hl k hk
  intro t
  have := (C79_roundtrip g hg ⟨lit ((i : ℚ) / 65535), lit ((j : ℚ) / 65535), lit ((k : ℚ) / 65535)⟩ 1 (by norm_num)
    ⟨⟨n1.fin, abs_le.2 ⟨by linarith [n1.nonneg], n1.le⟩⟩, ⟨n2.fin, abs_le.2 ⟨by linarith [n2.nonneg], n2.le⟩⟩,
      n3.fin, abs_le.2 ⟨by linarith [n3.nonneg], n3.le⟩⟩).1
  obtain ⟨-, d1, d2, d3⟩ := this
  have fin : ∀ {x y : ℚ} {n : ℕ}, |y - n / 65535| ≤ 1 / 2 ^ 23 → |x - y| ≤ 4e-6 * 1 + 1 / 2 ^ 140 →
      |65535 * x - n| < 1 / 2 := by
    intro x y n h1 h2
    obtain ⟨h3, h4⟩ := abs_le.mp h1
    obtain ⟨h5, h6⟩ := abs_le.mp h2
    rw [abs_lt]
    norm_num at *
    constructor <;> linarith
  exact ⟨fin e1 d1, fin e2 d2, fin e3 d3⟩

/-- The RGB spaces among them. -/
def rgbF32 : List (Gamut F32) := [AdobeRGB, Rec709, Rec2020, DCI_P3, S_Gamut, S_Gamut3_Cine, ACEScg, ACES2065]

set_option maxRecDepth 100000 in
theorem convert_undo : (rgbF32.all fun a => rgbF32.all fun b => undoes (GamutConvert a b) (GamutConvert b a)) = true := by
  decide +kernel

/-- C79: the same for the conversion matrices between any two of the RGB spaces. -/
theorem C79_convert (a b : Gamut F32) (ha : a ∈ rgbF32) (hb : b ∈ rgbF32) (t : Tristimulus F32) (C : ℚ)
    (hC : C ≤ 2 ^ 100) (ht : Within t C) :
    Near (.ofVec3 ((GamutConvert b a).apply ((GamutConvert a b).apply t.vec3))) t (4e-6 * C + 1 / 2 ^ 140) := by
  have h := List.all_eq_true.1 (List.all_eq_true.1 convert_undo a ha) b hb
  obtain ⟨h1, h2, h3⟩ := ht
  exact undoes_error h t.vec3 hC ⟨h1.1, h1.2⟩ ⟨h2.1, h2.2⟩ ⟨h3.1, h3.2⟩

/-- A colour with negative components meets the hypothesis. -/
example : Within ⟨lit 1, lit (-0.5), lit 0.25⟩ 1 := by
  have h : ∀ q : ℚ, |q| ≤ 1 → (lit q : F32).isFinite = true ∧ |(lit q : F32).val| ≤ 1 := fun q hq => by
    have := pack_bd (s := false) (by have := rep_pow 0; simpa using this : Rep 1) (by norm_num) hq
    exact ⟨this.fin, this.le⟩
  exact ⟨h _ (by norm_num), h _ (by norm_num [abs_le]), h _ (by norm_num [abs_le])⟩

end CS
