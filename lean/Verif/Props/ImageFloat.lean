import Verif.Props.OTFFloat
import Verif.Props.OklabFloat
import Verif.Props.HSVRound
import Verif.Props.LabFloat
import Verif.Props.YxyFloat
import Verif.Lemmas.CloseMatrix

/-!
# C111: sRGB images survive trips through the other colour spaces (binary32)

Decode the codes of a pixel, convert to another space and back, encode: the codes come back.
-/

namespace CS
open F32 B32 OTF Spec

/-! ## Linear steps, with the error of every component tracked -/

/-- Three components of an exact vector. -/
abbrev Q3 := Vector3 ℚ

/-- A row of an exact matrix times an exact vector. -/
def qrow (a b c : ℚ) (t : Q3) : ℚ := a * t.x + b * t.y + c * t.z

/-- `y` is finite and its components are within `η` of those of `A t`. -/
structure Tracks (y : Tristimulus F32) (A : Matrix3 ℚ) (t η : Q3) : Prop where
  fa : y.a.isFinite = true
  fb : y.b.isFinite = true
  fc : y.c.isFinite = true
  ea : |y.a.val - qrow A.m0 A.m1 A.m2 t| ≤ η.x
  eb : |y.b.val - qrow A.m3 A.m4 A.m5 t| ≤ η.y
  ec : |y.c.val - qrow A.m6 A.m7 A.m8 t| ≤ η.z

/-- The largest value a decoded signal can have. -/
def top : ℚ := 1 + 1 / 2 ^ 22

/-- Components of magnitude at most `top`. -/
def Unit3 (t : Q3) : Prop := |t.x| ≤ top ∧ |t.y| ≤ top ∧ |t.z| ≤ top

/-- A row of a binary32 matrix, applied to what tracks `A` within `η`, tracks the row `(p,q,r)` within `ρ`. -/
def stepRow (a b c : F32) (A : Matrix3 ℚ) (η : Q3) (p q r ρ : ℚ) : Bool :=
  decide ((|a.val * A.m0 + b.val * A.m3 + c.val * A.m6 - p| + |a.val * A.m1 + b.val * A.m4 + c.val * A.m7 - q| +
    |a.val * A.m2 + b.val * A.m5 + c.val * A.m8 - r|) * top + (|a.val| * η.x + |b.val| * η.y + |c.val| * η.z) +
    (|a.val| * ((|A.m0| + |A.m1| + |A.m2|) * top + η.x) + |b.val| * ((|A.m3| + |A.m4| + |A.m5|) * top + η.y) +
      |c.val| * ((|A.m6| + |A.m7| + |A.m8|) * top + η.z)) / 2 ^ 22 + 1 / 2 ^ 148 ≤ ρ)

/-- The three rows. -/
def step (m : Matrix3 F32) (A : Matrix3 ℚ) (η : Q3) (T : Matrix3 ℚ) (ρ : Q3) : Bool :=
  small m && decide ((|A.m0| + |A.m1| + |A.m2|) * top + η.x ≤ 2 ^ 100) &&
    decide ((|A.m3| + |A.m4| + |A.m5|) * top + η.y ≤ 2 ^ 100) && decide ((|A.m6| + |A.m7| + |A.m8|) * top + η.z ≤ 2 ^ 100) &&
    stepRow m.m0 m.m1 m.m2 A η T.m0 T.m1 T.m2 ρ.x && stepRow m.m3 m.m4 m.m5 A η T.m3 T.m4 T.m5 ρ.y &&
    stepRow m.m6 m.m7 m.m8 A η T.m6 T.m7 T.m8 ρ.z

theorem mul_unit_le {s t : ℚ} (h : |t| ≤ top) : |s * t| ≤ |s| * top := by
  rw [abs_mul]; exact mul_le_mul_of_nonneg_left h (abs_nonneg _)

theorem qrow_le {a b c : ℚ} {t : Q3} (h : Unit3 t) : |qrow a b c t| ≤ (|a| + |b| + |c|) * top := by
  refine (abs_add_three _ _ _).trans ?_
  have := mul_unit_le (s := a) h.1
  have := mul_unit_le (s := b) h.2.1
  have := mul_unit_le (s := c) h.2.2
  linarith

theorem near_bd {y q e B : ℚ} (h : |y - q| ≤ e) (hq : |q| ≤ B) : |y| ≤ B + e := by
  have := abs_sub_abs_le_abs_sub y q; linarith

theorem stepRow_ok {a b c : F32} {A : Matrix3 ℚ} {η : Q3} {p q r ρ : ℚ} (h : stepRow a b c A η p q r ρ = true)
    {y : Tristimulus F32} {t : Q3} (ht : Unit3 t) (hy : Tracks y A t η)
    (hf : (a * y.a + b * y.b + c * y.c).isFinite = true) :
    |(a * y.a + b * y.b + c * y.c).val - qrow p q r t| ≤ ρ := by
  have e := dot3_error _ _ _ _ _ _ hf
  rw [stepRow, decide_eq_true_eq] at h
  have mu : ∀ {s t e : ℚ}, |t| ≤ e → |s * t| ≤ |s| * e := fun h => by
    rw [abs_mul]; exact mul_le_mul_of_nonneg_left h (abs_nonneg _)
  have k1 := mu (s := a.val) (near_bd hy.ea (qrow_le ht))
  have k2 := mu (s := b.val) (near_bd hy.eb (qrow_le ht))
  have k3 := mu (s := c.val) (near_bd hy.ec (qrow_le ht))
  have l1 := mu (s := a.val) hy.ea
  have l2 := mu (s := b.val) hy.eb
  have l3 := mu (s := c.val) hy.ec
  have m1 := mul_unit_le (s := a.val * A.m0 + b.val * A.m3 + c.val * A.m6 - p) ht.1
  have m2 := mul_unit_le (s := a.val * A.m1 + b.val * A.m4 + c.val * A.m7 - q) ht.2.1
  have m3 := mul_unit_le (s := a.val * A.m2 + b.val * A.m5 + c.val * A.m8 - r) ht.2.2
  have split : (a * y.a + b * y.b + c * y.c).val - qrow p q r t =
      ((a * y.a + b * y.b + c * y.c).val - (a.val * y.a.val + b.val * y.b.val + c.val * y.c.val)) +
      (a.val * (y.a.val - qrow A.m0 A.m1 A.m2 t) + b.val * (y.b.val - qrow A.m3 A.m4 A.m5 t) +
        c.val * (y.c.val - qrow A.m6 A.m7 A.m8 t)) +
      ((a.val * A.m0 + b.val * A.m3 + c.val * A.m6 - p) * t.x + (a.val * A.m1 + b.val * A.m4 + c.val * A.m7 - q) * t.y +
        (a.val * A.m2 + b.val * A.m5 + c.val * A.m8 - r) * t.z) := by
    simp only [qrow]; ring
  rw [split]
  refine (abs_add_three _ _ _).trans ?_
  have n1 := abs_add_three (a.val * (y.a.val - qrow A.m0 A.m1 A.m2 t)) (b.val * (y.b.val - qrow A.m3 A.m4 A.m5 t))
    (c.val * (y.c.val - qrow A.m6 A.m7 A.m8 t))
  have n2 := abs_add_three ((a.val * A.m0 + b.val * A.m3 + c.val * A.m6 - p) * t.x)
    ((a.val * A.m1 + b.val * A.m4 + c.val * A.m7 - q) * t.y) ((a.val * A.m2 + b.val * A.m5 + c.val * A.m8 - r) * t.z)
  have e2 : (|a.val * y.a.val| + |b.val * y.b.val| + |c.val * y.c.val|) / 2 ^ 22 ≤
      (|a.val| * ((|A.m0| + |A.m1| + |A.m2|) * top + η.x) + |b.val| * ((|A.m3| + |A.m4| + |A.m5|) * top + η.y) +
      |c.val| * ((|A.m6| + |A.m7| + |A.m8|) * top + η.z)) / 2 ^ 22 := by gcongr
  linarith

theorem step_ok {m : Matrix3 F32} {A T : Matrix3 ℚ} {η ρ : Q3} (h : step m A η T ρ = true) {y : Tristimulus F32} {t : Q3}
    (ht : Unit3 t) (hy : Tracks y A t η) : Tracks (.ofVec3 (m.apply y.vec3)) T t ρ := by
  simp only [step, Bool.and_eq_true, decide_eq_true_eq] at h
  obtain ⟨⟨⟨⟨⟨⟨hs, b1⟩, b2⟩, b3⟩, r1⟩, r2⟩, r3⟩ := h
  obtain ⟨⟨s0, s1, s2⟩, ⟨s3, s4, s5⟩, s6, s7, s8⟩ := small_bd hs
  have g1 : Bd y.a (2 ^ 100) := ⟨hy.fa, (near_bd hy.ea (qrow_le ht)).trans b1⟩
  have g2 : Bd y.b (2 ^ 100) := ⟨hy.fb, (near_bd hy.eb (qrow_le ht)).trans b2⟩
  have g3 : Bd y.c (2 ^ 100) := ⟨hy.fc, (near_bd hy.ec (qrow_le ht)).trans b3⟩
  have p := (row_bd (by norm_num) s0 s1 s2 g1 g2 g3).fin
  have q := (row_bd (by norm_num) s3 s4 s5 g1 g2 g3).fin
  have r := (row_bd (by norm_num) s6 s7 s8 g1 g2 g3).fin
  exact ⟨p, q, r, stepRow_ok r1 ht hy p, stepRow_ok r2 ht hy q, stepRow_ok r3 ht hy r⟩

/-- The unit matrix. -/
def qident : Matrix3 ℚ := ⟨1, 0, 0, 0, 1, 0, 0, 0, 1⟩

/-- The exact product. -/
def qmul (a b : Matrix3 ℚ) : Matrix3 ℚ :=
  ⟨a.m0 * b.m0 + a.m1 * b.m3 + a.m2 * b.m6, a.m0 * b.m1 + a.m1 * b.m4 + a.m2 * b.m7, a.m0 * b.m2 + a.m1 * b.m5 + a.m2 * b.m8,
   a.m3 * b.m0 + a.m4 * b.m3 + a.m5 * b.m6, a.m3 * b.m1 + a.m4 * b.m4 + a.m5 * b.m7, a.m3 * b.m2 + a.m4 * b.m5 + a.m5 * b.m8,
   a.m6 * b.m0 + a.m7 * b.m3 + a.m8 * b.m6, a.m6 * b.m1 + a.m7 * b.m4 + a.m8 * b.m7, a.m6 * b.m2 + a.m7 * b.m5 + a.m8 * b.m8⟩

/-- The values of a colour. -/
def Tristimulus.vals (t : Tristimulus F32) : Q3 := ⟨t.a.val, t.b.val, t.c.val⟩

theorem tracks_self {t : Tristimulus F32} (ha : t.a.isFinite = true) (hb : t.b.isFinite = true) (hc : t.c.isFinite = true) :
    Tracks t qident t.vals ⟨0, 0, 0⟩ :=
  ⟨ha, hb, hc, by simp [qrow, qident, Tristimulus.vals], by simp [qrow, qident, Tristimulus.vals],
    by simp [qrow, qident, Tristimulus.vals]⟩

theorem tracks_weaken {y : Tristimulus F32} {A : Matrix3 ℚ} {t η ρ : Q3} (h : Tracks y A t η) (hx : η.x ≤ ρ.x)
    (hy : η.y ≤ ρ.y) (hz : η.z ≤ ρ.z) : Tracks y A t ρ :=
  ⟨h.fa, h.fb, h.fc, h.ea.trans hx, h.eb.trans hy, h.ec.trans hz⟩

theorem tracks_move {y z : Tristimulus F32} {A : Matrix3 ℚ} {t η ρ : Q3} (h : Tracks y A t η)
    (fa : z.a.isFinite = true) (fb : z.b.isFinite = true) (fc : z.c.isFinite = true)
    (ha : |z.a.val - y.a.val| ≤ ρ.x) (hb : |z.b.val - y.b.val| ≤ ρ.y) (hc : |z.c.val - y.c.val| ≤ ρ.z) :
    Tracks z A t ⟨ρ.x + η.x, ρ.y + η.y, ρ.z + η.z⟩ :=
  ⟨fa, fb, fc, (abs_sub_le _ _ _).trans (add_le_add ha h.ea), (abs_sub_le _ _ _).trans (add_le_add hb h.eb),
    (abs_sub_le _ _ _).trans (add_le_add hc h.ec)⟩

/-- What a colour that tracks the unit matrix is near to. -/
theorem tracks_near {y t : Tristimulus F32} {e : ℚ} (h : Tracks y qident t.vals ⟨e, e, e⟩) : Near y t e := by
  obtain ⟨fa, fb, fc, a, b, c⟩ := h
  simp only [qrow, qident, Tristimulus.vals, one_mul, zero_mul, zero_add, add_zero] at a b c
  exact ⟨⟨fa, fb, fc⟩, a, b, c⟩

/-! ## The sRGB curve stretches differences by at most 12.92 -/

theorem rpow_concave {x y p : ℝ} (hx : 0 < x) (hxy : x ≤ y) (hp0 : 0 ≤ p) (hp1 : p ≤ 1) :
    y ^ p - x ^ p ≤ p * (x ^ p / x) * (y - x) := by
  have hs : -1 ≤ (y - x) / x := le_trans (by norm_num) (div_nonneg (by linarith) hx.le)
  have h := rpow_one_add_le_one_add_mul_self hs hp0 hp1
  have e : x * (1 + (y - x) / x) = y := by field_simp; ring
  have h2 : y ^ p = x ^ p * (1 + (y - x) / x) ^ p := by
    rw [← Real.mul_rpow hx.le (by linarith), e]
  rw [h2]
  have := mul_le_mul_of_nonneg_left h (Real.rpow_nonneg hx.le p)
  have e2 : x ^ p * (1 + p * ((y - x) / x)) = x ^ p + p * (x ^ p / x) * (y - x) := by field_simp
  linarith

theorem srgb_slope {x : ℝ} (hx : 0.0031308 ≤ x) : (1 / 2.4 : ℝ) * (x ^ ((1 : ℝ) / 2.4) / x) ≤ 12.1 := by
  have k0 : (0 : ℝ) < 0.0031308 := by norm_num
  have x0 : 0 < x := k0.trans_le hx
  have h1 : x ^ ((1 : ℝ) / 2.4) / x ≤ (0.0031308 : ℝ) ^ ((1 : ℝ) / 2.4) / 0.0031308 := by
    rw [← Real.rpow_sub_one x0.ne', ← Real.rpow_sub_one k0.ne']
    exact Real.rpow_le_rpow_of_nonpos k0 hx (by norm_num)
  have h2 := (srgb_pow_knee (x := 0.0031308) (by norm_num) (by norm_num)).2
  have h3 : (0.0031308 : ℝ) ^ ((1 : ℝ) / 2.4) / 0.0031308 ≤ 28.9 := by
    rw [div_le_iff₀ k0]
    linarith
  linarith

theorem srgb_pow_lip {x y : ℝ} (hx : 0.0031308 ≤ x) (hy : x ≤ y) :
    |(1.055 * y ^ ((1 : ℝ) / 2.4) - 0.055) - (1.055 * x ^ ((1 : ℝ) / 2.4) - 0.055)| ≤ 12.8 * (y - x) := by
  have x0 : 0 < x := lt_of_lt_of_le (by norm_num) hx
  have h1 := rpow_concave x0 hy (p := 1 / 2.4) (by norm_num) (by norm_num)
  have h2 := Real.rpow_le_rpow x0.le hy (show (0 : ℝ) ≤ 1 / 2.4 by norm_num)
  have h3 := mul_le_mul_of_nonneg_right (srgb_slope hx) (sub_nonneg.2 hy)
  rw [abs_of_nonneg (by linarith)]
  linarith

theorem srgb_lip_le {c y : ℝ} (h : c ≤ y) : |srgb y - srgb c| ≤ 12.92 * (y - c) + 1.1e-7 := by
  unfold srgb
  split_ifs with h1 h2 h2
  · rw [abs_le]; constructor <;> linarith
  · exact absurd (h.trans_lt h1) h2
  · have g := srgb_pow_lip (x := 0.0031308) (y := y) le_rfl (not_lt.1 h1)
    obtain ⟨k1, k2⟩ := srgb_pow_knee (x := 0.0031308) le_rfl (by norm_num)
    obtain ⟨g1, g2⟩ := abs_le.1 g
    have := not_lt.1 h1
    rw [abs_le]; constructor <;> linarith
  · have g := srgb_pow_lip (not_lt.1 h2) h
    refine g.trans ?_
    linarith

theorem srgb_lip (c y : ℝ) : |srgb c - srgb y| ≤ 12.92 * |c - y| + 1.1e-7 := by
  rcases le_total c y with h | h
  · rw [abs_sub_comm, abs_sub_comm c y, abs_of_nonneg (sub_nonneg.2 h)]; exact srgb_lip_le h
  · rw [abs_of_nonneg (sub_nonneg.2 h)]; exact srgb_lip_le h

/-- Encoding a value that differs by `δ` from a decoded signal. -/
theorem srgb_trip (o : F32.Oracle) (ho : o.PowAccurate (2 ^ (-22 : ℤ))) (v z : F32) (hv : v.isFinite = true)
    (h : (0 : ℝ) ≤ v.val ∧ (v.val : ℝ) ≤ 1) (hz : z.isFinite = true) {δ : ℚ}
    (hd : |z.val - (@sRGB_to_Y F32 (F32.libm o) v).val| ≤ δ) :
    Ap (@Y_to_sRGB F32 (F32.libm o) z) v.val (12.92 * δ + 3.4e-6) := by
  have d := C83_decode o ho v hv
  rw [clampTo_of_mem h] at d
  have e := C83_encode o ho z hz
  have hm := srgbInv_mem h
  have s := srgb_sens (clamp01_mem _) hm ((clampTo_near hm).trans d.err)
  have t := srgb_srgbInv h
  have hd' : |(z.val : ℝ) - (@sRGB_to_Y F32 (F32.libm o) v).val| ≤ δ := by
    have := (Rat.cast_le (K := ℝ)).2 hd
    push_cast at this; exact this
  have l := srgb_lip (clampTo 0 1 (z.val : ℝ)) (clampTo 0 1 ((@sRGB_to_Y F32 (F32.libm o) v).val : ℝ))
  have cl : |clampTo 0 1 (z.val : ℝ) - clampTo 0 1 ((@sRGB_to_Y F32 (F32.libm o) v).val : ℝ)| ≤ δ := by
    refine le_trans ?_ hd'
    unfold clampTo
    refine (abs_max_sub_max_le_max _ _ _ _).trans (max_le (by simp) ?_)
    exact (abs_min_sub_min_le_max _ _ _ _).trans (max_le (by simp) le_rfl)
  refine ⟨e.fin, ?_⟩
  have e1 := e.err
  generalize (@Y_to_sRGB F32 (F32.libm o) z).val = w at *
  generalize srgb (clampTo 0 1 ((@sRGB_to_Y F32 (F32.libm o) v).val : ℝ)) = r at *
  generalize srgb (clampTo 0 1 (z.val : ℝ)) = q at *
  rw [show (w : ℝ) - v.val = (w - q) + (q - r) + ((r - srgb (srgbInv v.val)) + (srgb (srgbInv v.val) - v.val)) by ring]
  refine (abs_add_three _ _ _).trans ?_
  have := abs_add_le (r - srgb (srgbInv v.val)) (srgb (srgbInv v.val) - v.val)
  linarith

/-! ## Pixels -/

/-- The pixel with the codes `i`, `j`, `k` of a scale of `0..N`, as floats. -/
def pixel (N i j k : ℕ) : Tristimulus F32 :=
  ⟨Arith.ofInt i / Arith.ofInt N, Arith.ofInt j / Arith.ofInt N, Arith.ofInt k / Arith.ofInt N⟩

/-- The components are finite and round to the codes `i`, `j`, `k` of the scale `0..N`. -/
def HasCodes (N i j k : ℕ) (t : Tristimulus F32) : Prop :=
  (t.a.isFinite = true ∧ t.b.isFinite = true ∧ t.c.isFinite = true) ∧
  |t.a.val * N - i| < 1 / 2 ∧ |t.b.val * N - j| < 1 / 2 ∧ |t.c.val * N - k| < 1 / 2

/-- Encoding the decoded pixel, changed by at most `δ`, gives the codes of the pixel. -/
theorem pixel_trip (o : F32.Oracle) (ho : o.PowAccurate (2 ^ (-22 : ℤ))) (g : F32) {N i j k : ℕ} (hN : 0 < N) (hN' : N ≤ 65535)
    (hi : i ≤ N) (hj : j ≤ N) (hk : k ≤ N) {z : Tristimulus F32} {δ : ℚ} (hd : (12.92 * δ + 3.5e-6) * N < 1 / 2)
    (hz : Near z (@toScene F32 (F32.libm o) .SRGB (pixel N i j k) g) δ) :
    HasCodes N i j k (@toScreen F32 (F32.libm o) .SRGB z g) := by
  have key : ∀ {n : ℕ} {x : F32}, n ≤ N → x.isFinite = true →
      |x.val - (@sRGB_to_Y F32 (F32.libm o) (Arith.ofInt n / Arith.ofInt N)).val| ≤ δ →
      (@Y_to_sRGB F32 (F32.libm o) x).isFinite = true ∧ |(@Y_to_sRGB F32 (F32.libm o) x).val * N - n| < 1 / 2 := by
    intro n x hn hx h
    obtain ⟨h1, h2⟩ := code_ap hN hN' hn
    have h3 := srgb_trip o ho _ x h1.fin h2 hx h
    refine ⟨h3.fin, ?_⟩
    have hN0 : (0 : ℝ) < N := by exact_mod_cast hN
    have e1 := h3.err
    have e2 := h1.err
    generalize ((Arith.ofInt n : F32) / Arith.ofInt N).val = v at *
    generalize (@Y_to_sRGB F32 (F32.libm o) x).val = w at *
    have h4 : |(w : ℝ) - n / N| ≤ 12.92 * δ + 3.5e-6 := by
      have := _root_.abs_sub_le (w : ℝ) v (n / N)
      linarith
    have h5 : |(w : ℝ) * N - n| < 1 / 2 := by
      rw [show (w : ℝ) * N - n = (w - n / N) * N by field_simp, abs_mul, abs_of_pos hN0]
      have hd' : (12.92 * (δ : ℝ) + 3.5e-6) * N < 1 / 2 := by
        have := (Rat.cast_lt (K := ℝ)).2 hd
        push_cast at this; exact this
      exact (mul_le_mul_of_nonneg_right h4 hN0.le).trans_lt hd'
    have : ((|w * N - n| : ℚ) : ℝ) < ((1 / 2 : ℚ) : ℝ) := by push_cast; exact h5
    exact_mod_cast this
  obtain ⟨⟨fa, fb, fc⟩, da, db, dc⟩ := hz
  obtain ⟨a1, a2⟩ := key hi fa da
  obtain ⟨b1, b2⟩ := key hj fb db
  obtain ⟨c1, c2⟩ := key hk fc dc
  exact ⟨⟨a1, b1, c1⟩, a2, b2, c2⟩

theorem lit_12_92_pos : 0 < (lit 12.92 : F32).val := by decide +kernel
theorem lit_12_92_fin : (lit 12.92 : F32).isFinite = true := by decide +kernel

theorem power_consts : ((lit 0.055 : F32).isFinite = true ∧ (lit 1.055 : F32).isFinite = true ∧ (lit 2.4 : F32).isFinite = true) ∧
    (1 / 32 ≤ (lit 0.055 : F32).val ∧ (lit 0.055 : F32).val ≤ 1) ∧ (1 ≤ (lit 1.055 : F32).val ∧ (lit 1.055 : F32).val ≤ 2) ∧
    (2 ≤ (lit 2.4 : F32).val ∧ (lit 2.4 : F32).val ≤ 3) := by decide +kernel

theorem base_top : ((lit 1 + lit 0.055 : F32) / lit 1.055).val ≤ 1 := by decide +kernel

theorem div_pos_val {x y : F32} (hx : x.isFinite = true) (hy : y.isFinite = true) (x0 : 0 ≤ x.val) (y1 : 1 ≤ y.val) :
    (x / y).isFinite = true ∧ (x / y).val = rnd (x.val / y.val) ∧ 0 ≤ (x / y).val ∧ (x / y).val ≤ x.val := by
  have q0 : 0 ≤ x.val / y.val := div_nonneg x0 (by linarith)
  have q1 : x.val / y.val ≤ x.val := div_le_self x0 y1
  have n0 := rnd_nonneg q0
  have n1 := rnd_le x.rep_val q1
  have lt : x.val < 2 ^ 128 := (le_abs_self _).trans_lt x.abs_val_lt
  rw [div_def, div_finite hx hy (by linarith)]
  obtain ⟨f, v⟩ := pack_finite (s := xor x.sign y.sign) (q := x.val / y.val) (by rw [abs_of_nonneg n0]; linarith)
  exact ⟨f, v, by rw [v]; exact n0, by rw [v]; exact n1⟩

/-- The power segment of a decoder, `((v + b) / a) ^ Y`, returns values in `[0, 1 + 2^-22]`. -/
theorem power_range (o : F32.Oracle) (ho : o.PowAccurate (2 ^ (-22 : ℤ))) (v : F32) (hv : v.isFinite = true)
    (h0 : 1 / 32 ≤ v.val) (h1 : v.val ≤ 1) {b a Y : F32} (bf : b.isFinite = true) (af : a.isFinite = true) (yf : Y.isFinite = true)
    (b0 : 1 / 32 ≤ b.val ∧ b.val ≤ 1) (a0 : 1 ≤ a.val ∧ a.val ≤ 2) (y0 : 2 ≤ Y.val ∧ Y.val ≤ 3)
    (bt : ((lit 1 + b) / a).val ≤ 1) :
    0 ≤ (o.powf ((v + b) / a) Y).val ∧ (o.powf ((v + b) / a) Y).val ≤ top := by
  have of : (lit 1 : F32).isFinite = true := by decide +kernel
  have o1 : (lit 1 : F32).val = 1 := by decide +kernel
  have rp : ∀ n : ℤ, |n| ≤ 2 ^ 24 → Rep (n : ℚ) := fun n h => rep_int h
  have r2 : Rep 2 := by exact_mod_cast rp 2 (by norm_num)
  have r32 : Rep (1 / 32) := by
    have := F32.rep_val (lit (1 / 32) : F32)
    rwa [show (lit (1 / 32) : F32).val = 1 / 32 by decide +kernel] at this
  have r16 : Rep (1 / 16) := by
    have := F32.rep_val (lit (1 / 16) : F32)
    rwa [show (lit (1 / 16) : F32).val = 1 / 16 by decide +kernel] at this
  have sum : ∀ {x : F32}, x.isFinite = true → 1 / 32 ≤ x.val → x.val ≤ 1 → (x + b).isFinite = true ∧
      (x + b).val = rnd (x.val + b.val) ∧ 1 / 16 ≤ (x + b).val := by
    intro x hx x0 x1
    have l : 1 / 16 ≤ rnd (x.val + b.val) := le_rnd r16 (by linarith)
    have u : rnd (x.val + b.val) ≤ 2 := rnd_le r2 (by linarith)
    rw [add_def, add_finite hx bf]
    obtain ⟨f, e⟩ := pack_finite (s := x.sign && b.sign) (q := x.val + b.val)
      (by rw [abs_of_nonneg (by linarith)]; linarith)
    exact ⟨f, e, by rw [e]; exact l⟩
  obtain ⟨f1, e1, l1⟩ := sum hv h0 h1
  obtain ⟨f2, e2, l2⟩ := sum of (by rw [o1]; norm_num) (by rw [o1])
  obtain ⟨g1, k1, -, -⟩ := div_pos_val f1 af (by linarith) a0.1
  obtain ⟨g2, k2, -, -⟩ := div_pos_val f2 af (by linarith) a0.1
  have ms : (v + b : F32).val ≤ (lit 1 + b : F32).val := by
    rw [e1, e2]; exact rnd_mono (by rw [o1]; linarith)
  have mb : ((v + b : F32) / a).val ≤ 1 := by
    refine le_trans ?_ bt
    rw [k1, k2]
    exact rnd_mono (div_le_div_of_nonneg_right ms (by linarith))
  have lb : 1 / 32 ≤ ((v + b : F32) / a).val := by
    rw [k1]
    refine le_rnd r32 ?_
    rw [le_div_iff₀ (by linarith)]
    linarith
  generalize ((v + b : F32) / a) = B at *
  have lbR : (1 / 32 : ℝ) ≤ B.val := by
    have := (Rat.cast_le (K := ℝ)).2 lb
    push_cast at this; exact this
  have mbR : (B.val : ℝ) ≤ 1 := by exact_mod_cast mb
  have y0R : (2 : ℝ) ≤ Y.val := by exact_mod_cast y0.1
  have y1R : (Y.val : ℝ) ≤ 3 := by exact_mod_cast y0.2
  have p1 : (B.val : ℝ) ^ (Y.val : ℝ) ≤ 1 := Real.rpow_le_one (by linarith) mbR (by linarith)
  have p0 : (1 / 32 : ℝ) ^ (3 : ℕ) ≤ (B.val : ℝ) ^ (Y.val : ℝ) := by
    rw [← Real.rpow_natCast]
    refine (Real.rpow_le_rpow (by norm_num) lbR (by norm_num)).trans ?_
    exact Real.rpow_le_rpow_of_exponent_ge (by linarith) mbR (by push_cast; exact y1R)
  obtain ⟨-, h⟩ := ho B Y g1 yf (by linarith) (le_trans (by norm_num) p0) (p1.trans (by norm_num))
  obtain ⟨q1, q2⟩ := abs_le.1 h
  have p2 : 0 < (B.val : ℝ) ^ (Y.val : ℝ) := lt_of_lt_of_le (by norm_num) p0
  generalize (B.val : ℝ) ^ (Y.val : ℝ) = z at *
  norm_num at q1 q2
  constructor
  · have : (0 : ℝ) ≤ (o.powf B Y).val := by linarith
    exact_mod_cast this
  · have : ((o.powf B Y).val : ℝ) ≤ (top : ℚ) := by rw [top]; push_cast; norm_num; linarith
    exact_mod_cast this

/-- The sRGB decoder returns values in `[0, 1 + 2^-22]`. -/
theorem decode_range (o : F32.Oracle) (ho : o.PowAccurate (2 ^ (-22 : ℤ))) (v : F32) (hv : v.isFinite = true)
    (h0 : 0 ≤ v.val) (h1 : v.val ≤ 1) :
    0 ≤ (@sRGB_to_Y F32 (F32.libm o) v).val ∧ (@sRGB_to_Y F32 (F32.libm o) v).val ≤ top := by
  have tp : (1 : ℚ) ≤ top := by norm_num [top]
  unfold sRGB_to_Y
  rw [lt_lit hv (c := 0) (by decide +kernel), lit_lt hv (c := 1) (by decide +kernel),
    lt_lit hv (c := 5429107/134217728) (by decide +kernel)]
  simp only [decide_eq_true_eq]
  rw [if_neg (not_lt.2 h0), if_neg (not_lt.2 h1)]
  split_ifs with h
  · obtain ⟨-, -, a, b⟩ := div_pos_val hv lit_12_92_fin h0 (by decide +kernel)
    exact ⟨a, (b.trans h1).trans tp⟩
  · exact power_range o ho v hv (le_trans (by norm_num) (not_lt.1 h)) h1 power_consts.1.1 power_consts.1.2.1
      power_consts.1.2.2 power_consts.2.1 power_consts.2.2.1 power_consts.2.2.2 base_top

theorem code_range {k N : ℕ} (hN : 0 < N) (hN' : N ≤ 65535) (hk : k ≤ N) :
    0 ≤ ((Arith.ofInt k : F32) / (Arith.ofInt N : F32)).val ∧ ((Arith.ofInt k : F32) / (Arith.ofInt N : F32)).val ≤ 1 := by
  obtain ⟨-, v3, r0, r1⟩ := code_val hN hN' hk
  rw [v3]; exact ⟨r0, r1⟩

/-- The components of a decoded pixel are finite and in `[0, 1 + 2^-22]`. -/
theorem scene_range (o : F32.Oracle) (ho : o.PowAccurate (2 ^ (-22 : ℤ))) (g : F32) {N i j k : ℕ} (hN : 0 < N) (hN' : N ≤ 65535)
    (hi : i ≤ N) (hj : j ≤ N) (hk : k ≤ N) :
    let t := @toScene F32 (F32.libm o) .SRGB (pixel N i j k) g
    Spectrum.NN t.a top ∧ Spectrum.NN t.b top ∧ Spectrum.NN t.c top := by
  have key : ∀ {n : ℕ}, n ≤ N → Spectrum.NN (@sRGB_to_Y F32 (F32.libm o) (Arith.ofInt n / Arith.ofInt N)) top := by
    intro n hn
    obtain ⟨f, -⟩ := code_val hN hN' hn
    obtain ⟨a, b⟩ := code_range hN hN' hn
    obtain ⟨c, d⟩ := decode_range o ho _ f a b
    exact ⟨(C83_decode o ho _ f).fin, c, d⟩
  exact ⟨key hi, key hj, key hk⟩

theorem scene_within {t : Tristimulus F32} (h : Spectrum.NN t.a top ∧ Spectrum.NN t.b top ∧ Spectrum.NN t.c top) : Within t top := by
  obtain ⟨a, b, c⟩ := h
  exact ⟨⟨a.fin, by rw [abs_of_nonneg a.nonneg]; exact a.le⟩, ⟨b.fin, by rw [abs_of_nonneg b.nonneg]; exact b.le⟩,
    c.fin, by rw [abs_of_nonneg c.nonneg]; exact c.le⟩

theorem scene_unit {t : Tristimulus F32} (h : Within t top) : Unit3 t.vals := ⟨h.1.2, h.2.1.2, h.2.2.2⟩

theorem budget {N M : ℕ} {δ : ℚ} (hN : N ≤ M) (h0 : 0 ≤ δ) (h : (12.92 * δ + 3.5e-6) * M < 1 / 2) :
    (12.92 * δ + 3.5e-6) * N < 1 / 2 := by
  refine lt_of_le_of_lt ?_ h
  have : (N : ℚ) ≤ M := by exact_mod_cast hN
  exact mul_le_mul_of_nonneg_left this (by linarith)

theorem near_weaken {s t : Tristimulus F32} {d e : ℚ} (h : Near s t d) (hde : d ≤ e) : Near s t e :=
  ⟨h.1, h.2.1.trans hde, h.2.2.1.trans hde, h.2.2.2.trans hde⟩

/-- C111: an sRGB pixel of up to 13 bits per channel, decoded, taken to XYZ by any predefined gamut and back, and encoded
again, has the codes it had. -/
theorem C111_xyz (o : F32.Oracle) (ho : o.PowAccurate (2 ^ (-22 : ℤ))) (x : F32) (g : Gamut F32) (hg : g ∈ predefinedF32)
    (N i j k : ℕ) (hN : 0 < N) (hN' : N ≤ 8191) (hi : i ≤ N) (hj : j ≤ N) (hk : k ≤ N) :
    letI := F32.libm o
    HasCodes N i j k (toScreen .SRGB (g.fromXYZ (g.toXYZ (toScene .SRGB (pixel N i j k) x))) x) := by
  have r := scene_range o ho x (hN) (hN'.trans (by norm_num)) hi hj hk
  have n := (C79_roundtrip g hg _ top (by norm_num [top]) (scene_within r)).1
  refine pixel_trip o ho x hN (hN'.trans (by norm_num)) hi hj hk (δ := 4.00001e-6) (budget hN' (by norm_num) (by norm_num))
    (near_weaken n (by norm_num [top]))

/-- C111: the same for the conversion to another RGB space and back. -/
theorem C111_convert (o : F32.Oracle) (ho : o.PowAccurate (2 ^ (-22 : ℤ))) (x : F32) (a b : Gamut F32) (ha : a ∈ rgbF32)
    (hb : b ∈ rgbF32) (N i j k : ℕ) (hN : 0 < N) (hN' : N ≤ 8191) (hi : i ≤ N) (hj : j ≤ N) (hk : k ≤ N) :
    letI := F32.libm o
    HasCodes N i j k (toScreen .SRGB (((toScene .SRGB (pixel N i j k) x).apply (GamutConvert a b)).apply (GamutConvert b a)) x) := by
  have r := scene_range o ho x (hN) (hN'.trans (by norm_num)) hi hj hk
  have n := C79_convert a b ha hb _ top (by norm_num [top]) (scene_within r)
  refine pixel_trip o ho x hN (hN'.trans (by norm_num)) hi hj hk (δ := 4.00001e-6) (budget hN' (by norm_num) (by norm_num))
    (near_weaken n (by norm_num [top]))

/-- C111: the same for the trip through HSV, which is always defined. -/
theorem C111_hsv (o : F32.Oracle) (ho : o.PowAccurate (2 ^ (-22 : ℤ))) (x : F32)
    (N i j k : ℕ) (hN : 0 < N) (hN' : N ≤ 8191) (hi : i ≤ N) (hj : j ≤ N) (hk : k ≤ N) :
    letI := F32.libm o
    ∃ h z, Tristimulus.toHSV (toScene .SRGB (pixel N i j k) x) = some h ∧ Tristimulus.fromHSV h = some (.ok z) ∧
      HasCodes N i j k (toScreen .SRGB z x) := by
  obtain ⟨ra, rb, rc⟩ := scene_range o ho x (hN) (hN'.trans (by norm_num)) hi hj hk
  have tp : top ≤ 2 ^ 120 := by norm_num [top]
  obtain ⟨h, z, e1, e2, f1, f2, f3, d1, d2, d3⟩ := C89_roundtrip _ ra.fin rb.fin rc.fin ra.nonneg rb.nonneg rc.nonneg
    (ra.le.trans tp) (rb.le.trans tp) (rc.le.trans tp)
  refine ⟨h, z, e1, e2, ?_⟩
  have m := max_le (max_le ra.le rb.le) rc.le
  have m2 : ∀ {d : ℚ}, d ≤ 3.1e-6 * max (max (@toScene F32 (F32.libm o) .SRGB (pixel N i j k) x).a.val
      (@toScene F32 (F32.libm o) .SRGB (pixel N i j k) x).b.val) (@toScene F32 (F32.libm o) .SRGB (pixel N i j k) x).c.val +
      1 / 2 ^ 150 → d ≤ 3.2e-6 := by
    intro d h
    refine h.trans ?_
    have := mul_le_mul_of_nonneg_left m (show (0 : ℚ) ≤ 3.1e-6 by norm_num)
    norm_num [top] at this ⊢
    linarith
  exact pixel_trip o ho x hN (hN'.trans (by norm_num)) hi hj hk (δ := 3.2e-6) (budget hN' (by norm_num) (by norm_num))
    ⟨⟨f1, f2, f3⟩, m2 d1, m2 d2, m2 d3⟩

end CS
