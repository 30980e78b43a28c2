import Verif.Props.Pipeline
import Verif.Props.Greys

/-!
# C144: conversions between RGB spaces with chromatic adaptation, in single precision

`GamutConvert` keeps the XYZ colour, so between spaces of different whites it tints the greys.  A client that wants white
to stay white goes to XYZ, adapts the colour from the one white to the other with `Bradford`, and goes from XYZ to the other space.
-/

namespace CS
open F32 B32 OTF Spec Tristimulus

attribute [local instance] ratArith

namespace Adapted
open Pipeline (NearR.trans NearR.mono right_inv start last)

/-- To the space `d`, with the white of `s` adapted to the white of `d`. -/
def move (s d : RGBSpace) (t : Tristimulus F32) : Tristimulus F32 :=
  d.gamut.fromXYZ ((s.gamut.toXYZ t).apply (Bradford s.gamut.primaryWhite d.gamut.primaryWhite))

/-- The same from space to space of a list. -/
def run (s : RGBSpace) : List RGBSpace → Tristimulus F32 → Tristimulus F32
  | [], t => t
  | d :: ds, t => run d ds (move s d t)

/-- The binary32 cone responses of the whites the header computes for the spaces, as fractions. -/
def coneVal : RGBSpace → Vector3 ℚ
  | .adobe => ⟨15793719 / 16777216, 8727811 / 8388608, 1142703 / 1048576⟩
  | .rec709 => ⟨15793723 / 16777216, 8727815 / 8388608, 9141625 / 8388608⟩
  | .rec2020 => ⟨15793723 / 16777216, 8727815 / 8388608, 1142703 / 1048576⟩
  | .dciP3 => ⟨3829827 / 4194304, 70609 / 65536, 15921005 / 16777216⟩
  | .sGamut => ⟨15793719 / 16777216, 8727811 / 8388608, 9141623 / 8388608⟩
  | .sGamut3Cine => ⟨15793725 / 16777216, 4363907 / 4194304, 1142703 / 1048576⟩
  | .acesCg => ⟨8021935 / 8388608, 8689331 / 8388608, 8449377 / 8388608⟩
  | .aces2065 => ⟨8021935 / 8388608, 4344665 / 4194304, 4224689 / 4194304⟩

/-- How much the largest component of a colour may grow when it is converted, exactly, to another space. -/
def amp : RGBSpace → RGBSpace → ℚ
  | .adobe, .adobe => 1.000
  | .adobe, .rec709 => 1.797
  | .adobe, .rec2020 => 1.000
  | .adobe, .dciP3 => 1.435
  | .adobe, .sGamut => 1.000
  | .adobe, .sGamut3Cine => 1.005
  | .adobe, .acesCg => 1.000
  | .adobe, .aces2065 => 1.000
  | .rec709, .adobe => 1.000
  | .rec709, .rec709 => 1.000
  | .rec709, .rec2020 => 1.000
  | .rec709, .dciP3 => 1.000
  | .rec709, .sGamut => 1.000
  | .rec709, .sGamut3Cine => 1.000
  | .rec709, .acesCg => 1.000
  | .rec709, .aces2065 => 1.000
  | .rec2020, .adobe => 1.304
  | .rec2020, .rec709 => 2.321
  | .rec2020, .rec2020 => 1.000
  | .rec2020, .dciP3 => 1.853
  | .rec2020, .sGamut => 1.000
  | .rec2020, .sGamut3Cine => 1.191
  | .rec2020, .acesCg => 1.000
  | .rec2020, .aces2065 => 1.002
  | .dciP3, .adobe => 1.103
  | .dciP3, .rec709 => 1.316
  | .dciP3, .rec2020 => 1.002
  | .dciP3, .dciP3 => 1.000
  | .dciP3, .sGamut => 1.000
  | .dciP3, .sGamut3Cine => 1.000
  | .dciP3, .acesCg => 1.000
  | .dciP3, .aces2065 => 1.001
  | .sGamut, .adobe => 1.702
  | .sGamut, .rec709 => 2.756
  | .sGamut, .rec2020 => 1.372
  | .sGamut, .dciP3 => 2.217
  | .sGamut, .sGamut => 1.000
  | .sGamut, .sGamut3Cine => 1.354
  | .sGamut, .acesCg => 1.361
  | .sGamut, .aces2065 => 1.072
  | .sGamut3Cine, .adobe => 1.836
  | .sGamut3Cine, .rec709 => 2.254
  | .sGamut3Cine, .rec2020 => 1.529
  | .sGamut3Cine, .dciP3 => 1.781
  | .sGamut3Cine, .sGamut => 1.135
  | .sGamut3Cine, .sGamut3Cine => 1.000
  | .sGamut3Cine, .acesCg => 1.518
  | .sGamut3Cine, .aces2065 => 1.172
  | .acesCg, .adobe => 1.365
  | .acesCg, .rec709 => 2.411
  | .acesCg, .rec2020 => 1.061
  | .acesCg, .dciP3 => 1.929
  | .acesCg, .sGamut => 1.005
  | .acesCg, .sGamut3Cine => 1.237
  | .acesCg, .acesCg => 1.000
  | .acesCg, .aces2065 => 1.012
  | .aces2065, .adobe => 2.450
  | .aces2065, .rec709 => 4.044
  | .aces2065, .rec2020 => 1.981
  | .aces2065, .dciP3 => 3.310
  | .aces2065, .sGamut => 1.663
  | .aces2065, .sGamut3Cine => 2.111
  | .aces2065, .acesCg => 1.903
  | .aces2065, .aces2065 => 1.000

/-- The largest sum of the magnitudes in a row of the matrix from XYZ. -/
def fromAbs : RGBSpace → ℚ
  | .adobe => 2.952
  | .rec709 => 5.277
  | .rec2020 => 2.326
  | .dciP3 => 4.184
  | .sGamut => 2.000
  | .sGamut3Cine => 2.584
  | .acesCg => 2.296
  | .aces2065 => 1.968

/-- What one conversion adds to the error, seen from the space. -/
def kap : RGBSpace → ℚ
  | .adobe => 4.5e-5
  | .rec709 => 4.12e-5
  | .rec2020 => 5.4e-5
  | .dciP3 => 4.45e-5
  | .sGamut => 6.4e-5
  | .sGamut3Cine => 5.22e-5
  | .acesCg => 5.6e-5
  | .aces2065 => 9.4e-5

set_option maxRecDepth 100000 in
theorem cone_ok : (RGBSpace.all.all fun s =>
    let c := ((LMS : Gamut F32).fromXYZ s.gamut.primaryWhite).vec3
    c.x.isFinite && c.y.isFinite && c.z.isFinite && decide (c.vals = coneVal s)) = true := by
  decide +kernel

/-- The exact white. -/
def white (s : RGBSpace) : Tristimulus ℚ := s.rat.toXYZ ⟨1, 1, 1⟩

set_option maxRecDepth 100000 in
theorem adapt_ok : (RGBSpace.all.all fun s => RGBSpace.all.all fun d =>
    adaptCheck (coneVal s) (coneVal d) (Bradford (white s) (white d)) 2.5e-6) = true := by
  decide +kernel

def rowsLe (m : Matrix3 ℚ) (k : ℚ) : Bool :=
  decide (rowAbs m.m0 m.m1 m.m2 ≤ k) && decide (rowAbs m.m3 m.m4 m.m5 ≤ k) && decide (rowAbs m.m6 m.m7 m.m8 ≤ k)

set_option maxRecDepth 100000 in
theorem rows_ok : (RGBSpace.all.all fun s => rowsLe s.rat.toXYZ_ 1.2091 && rowsLe s.rat.fromXYZ_ (fromAbs s) &&
    RGBSpace.all.all fun d =>
      let b := Bradford (white s) (white d)
      rowsLe b 1.17 && rowsLe (b.mul s.rat.toXYZ_) 1.2201 && rowsLe ((d.rat.fromXYZ_.mul b).mul s.rat.toXYZ_) (amp s d)) = true := by
  decide +kernel

/-- The error of one conversion, per unit of the largest component. -/
def err (d : RGBSpace) : ℚ := fromAbs d * 3.73e-6 + 2.33e-6

set_option maxRecDepth 100000 in
theorem kap_ok : (RGBSpace.all.all fun r => decide (1 ≤ amp r r) && decide (kap r ≤ 9.4e-5) && RGBSpace.all.all fun s => RGBSpace.all.all fun d =>
    decide (0 ≤ amp r s) && decide (amp r s ≤ 4.1) && decide (err d ≤ 2.21e-5) && decide (amp r s * 1.051 * err d * amp d r ≤ kap r)) = true := by
  decide +kernel

theorem adapt_close (s d : RGBSpace) : Close (Bradford s.gamut.primaryWhite d.gamut.primaryWhite) (Bradford (white s) (white d)) 2.5e-6 := by
  have hl := lms_ok
  simp only [Bool.and_eq_true, decide_eq_true_eq] at hl
  obtain ⟨⟨⟨st, sf⟩, vt⟩, vf⟩ := hl
  have hs := List.all_eq_true.1 cone_ok s s.mem_all
  have hd := List.all_eq_true.1 cone_ok d d.mem_all
  simp only [Bool.and_eq_true, decide_eq_true_eq] at hs hd
  obtain ⟨⟨⟨s1, s2⟩, s3⟩, vs⟩ := hs
  obtain ⟨⟨⟨d1, d2⟩, d3⟩, vd⟩ := hd
  have h := List.all_eq_true.1 (List.all_eq_true.1 adapt_ok s s.mem_all) d d.mem_all
  rw [← vs, ← vd] at h
  simp only [adaptCheck, Bool.and_eq_true, decide_eq_true_eq] at h
  obtain ⟨⟨⟨⟨⟨⟨⟨⟨a1, a2⟩, a3⟩, r1⟩, r2⟩, r3⟩, c1⟩, c2⟩, c3⟩ := h
  rw [← vt, ← vf] at c1 c2 c3
  obtain ⟨B0, R0⟩ := div_bd s1 d1 rfl rfl a1 (r1.trans (by norm_num))
  obtain ⟨B1, R1⟩ := div_bd s2 d2 rfl rfl a2 (r2.trans (by norm_num))
  obtain ⟨B2, R2⟩ := div_bd s3 d3 rfl rfl a3 (r3.trans (by norm_num))
  have t1 : ∀ i, |(valLMS.get i)| ≤ 1 := by decide +kernel
  rw [← vt] at t1
  have g : ∀ {x y : ℚ}, |x| ≤ 1 → |y| ≤ 6 → |x * y| ≤ 7 := fun hx hy => by
    rw [abs_mul]
    exact (mul_le_mul hx hy (abs_nonneg _) (by norm_num)).trans (by norm_num)
  obtain ⟨⟨t0, t1', t2⟩, ⟨t3, t4, t5⟩, t6, t7, t8⟩ := small_bd st
  exact ⟨rowClose_of_scaleCheck (scaled0 t0 t1' t2 B0 R0 (g (t1 0) r1)) (scaled1 t0 t1' t2 B1 R1 (g (t1 1) r2))
      (scaled2 t0 t1' t2 B2 R2 (g (t1 2) r3)) sf c1,
    rowClose_of_scaleCheck (scaled0 t3 t4 t5 B0 R0 (g (t1 3) r1)) (scaled1 t3 t4 t5 B1 R1 (g (t1 4) r2))
      (scaled2 t3 t4 t5 B2 R2 (g (t1 5) r3)) sf c2,
    rowClose_of_scaleCheck (scaled0 t6 t7 t8 B0 R0 (g (t1 6) r1)) (scaled1 t6 t7 t8 B1 R1 (g (t1 7) r2))
      (scaled2 t6 t7 t8 B2 R2 (g (t1 8) r3)) sf c3⟩

theorem toReal_white (s : RGBSpace) : (white s).toReal = s.whiteXYZ := by
  have e : (white s).toReal = s.rat.toReal.toXYZ ⟨1, 1, 1⟩ := by
    have := congrArg Tristimulus.ofVec3 (Matrix3.toReal_apply s.rat.toXYZ_ ⟨1, 1, 1⟩)
    refine this.trans ?_
    simp [Gamut.toXYZ, Gamut.toReal, Vector3.toReal, Tristimulus.vec3]
  rw [e, s.grey_exact, one_mul, one_mul]
  rfl

theorem coneOK (s : RGBSpace) : ConeOK s.whiteXYZ := by
  obtain ⟨⟨a1, a2⟩, ⟨c1, c2⟩, hb, -⟩ := s.white_bounds
  intro i
  fin_cases i <;> simp only [bradfordCone, triV, Matrix.mulVec, dotProduct, Fin.sum_univ_three] <;> simp [hb]
  · apply ne_of_gt; norm_num at *; linarith
  · apply ne_of_gt; norm_num at *; linarith
  · apply ne_of_gt; norm_num at *; linarith

/-- The exact components. -/
noncomputable def comp (s d : RGBSpace) (x : Tristimulus ℝ) : Tristimulus ℝ :=
  d.rat.toReal.fromXYZ ((s.rat.toReal.toXYZ x).apply (Bradford s.whiteXYZ d.whiteXYZ))

theorem comp_eq (s d : RGBSpace) (x : Tristimulus ℝ) : comp s d x =
    Tristimulus.ofVec3 (((d.rat.fromXYZ_.mul (Bradford (white s) (white d))).mul s.rat.toXYZ_).toReal.apply x.vec3) := by
  rw [Matrix3.toReal_mul, Matrix3.toReal_mul, toReal_Bradford, toReal_white, toReal_white, Matrix3.apply_mul, Matrix3.apply_mul]; rfl

theorem comp_self (s : RGBSpace) (x : Tristimulus ℝ) : comp s s x = x := by
  rw [comp, C07_id _ _ (coneOK s)]; exact s.left_inv x

theorem comp_comp (r s d : RGBSpace) (x : Tristimulus ℝ) : comp s d (comp r s x) = comp r d x := by
  unfold comp; rw [right_inv, C07_compose _ _ _ _ (coneOK r) (coneOK s)]

theorem comp_grey (s d : RGBSpace) (y : ℝ) : comp s d ⟨y, y, y⟩ = ⟨y, y, y⟩ := by
  have h : (⟨y * s.whiteXYZ.a, y, y * s.whiteXYZ.c⟩ : Tristimulus ℝ).apply (Bradford s.whiteXYZ d.whiteXYZ) =
      ⟨y * d.whiteXYZ.a, y, y * d.whiteXYZ.c⟩ := by
    have e := C07_white s.whiteXYZ d.whiteXYZ (coneOK s)
    have l : ∀ (m : Matrix3 ℝ), (⟨y * s.whiteXYZ.a, y * s.whiteXYZ.b, y * s.whiteXYZ.c⟩ : Tristimulus ℝ).apply m =
        ⟨y * (s.whiteXYZ.apply m).a, y * (s.whiteXYZ.apply m).b, y * (s.whiteXYZ.apply m).c⟩ := by
      intro m
      simp only [Tristimulus.apply, Matrix3.apply, Tristimulus.ofVec3, Tristimulus.vec3]
      ext <;> simp <;> ring
    have := l (Bradford s.whiteXYZ d.whiteXYZ)
    rw [e] at this
    rw [show s.whiteXYZ.b = 1 from rfl, show d.whiteXYZ.b = 1 from rfl, mul_one] at this
    exact this
  rw [comp, s.grey_exact, h, ← d.grey_exact]
  exact d.left_inv _

theorem lip {m : Matrix3 ℚ} {k : ℚ} (h : rowsLe m k = true) {x y : Tristimulus ℝ} {e : ℝ} (e0 : 0 ≤ e) (hx : NearR x y e) :
    NearR (Tristimulus.ofVec3 (m.toReal.apply x.vec3)) (Tristimulus.ofVec3 (m.toReal.apply y.vec3)) (k * e) := by
  simp only [rowsLe, Bool.and_eq_true, decide_eq_true_eq] at h
  exact ⟨Pipeline.row_lip h.1.1 e0 hx, Pipeline.row_lip h.1.2 e0 hx, Pipeline.row_lip h.2 e0 hx⟩

theorem map_zero (m : Matrix3 ℝ) : Tristimulus.ofVec3 (m.apply (⟨0, 0, 0⟩ : Tristimulus ℝ).vec3) = ⟨0, 0, 0⟩ := by
  simp only [Tristimulus.ofVec3, Matrix3.apply, Tristimulus.vec3, Vector3.get]
  norm_num

theorem rows (s d : RGBSpace) : rowsLe s.rat.toXYZ_ 1.2091 = true ∧ rowsLe d.rat.fromXYZ_ (fromAbs d) = true ∧
    rowsLe (Bradford (white s) (white d)) 1.17 = true ∧ rowsLe ((Bradford (white s) (white d)).mul s.rat.toXYZ_) 1.2201 = true ∧
    rowsLe ((d.rat.fromXYZ_.mul (Bradford (white s) (white d))).mul s.rat.toXYZ_) (amp s d) = true := by
  have h := List.all_eq_true.1 rows_ok s s.mem_all
  have h' := List.all_eq_true.1 rows_ok d d.mem_all
  simp only [Bool.and_eq_true] at h h'
  have k := List.all_eq_true.1 h.2 d d.mem_all
  simp only [Bool.and_eq_true] at k
  exact ⟨h.1.1, h'.1.2, k.1.1, k.1.2, k.2⟩

theorem kaps (r s d : RGBSpace) : 1 ≤ amp r r ∧ kap r ≤ 9.4e-5 ∧ 0 ≤ amp r s ∧ amp r s ≤ 4.1 ∧ err d ≤ 2.21e-5 ∧
    amp r s * 1.051 * err d * amp d r ≤ kap r := by
  have h := List.all_eq_true.1 kap_ok r r.mem_all
  simp only [Bool.and_eq_true, decide_eq_true_eq] at h
  have k := List.all_eq_true.1 (List.all_eq_true.1 h.2 s s.mem_all) d d.mem_all
  simp only [Bool.and_eq_true, decide_eq_true_eq] at k
  exact ⟨h.1.1, h.1.2, k.1.1.1, k.1.1.2, k.1.2, k.2⟩

theorem comp_lip (s d : RGBSpace) {x y : Tristimulus ℝ} {e : ℝ} (e0 : 0 ≤ e) (h : NearR x y e) :
    NearR (comp s d x) (comp s d y) (amp s d * e) := by
  rw [comp_eq, comp_eq]
  exact lip (rows s d).2.2.2.2 e0 h

theorem comp_zero (s d : RGBSpace) : comp s d ⟨0, 0, 0⟩ = ⟨0, 0, 0⟩ := comp_grey s d 0

/-- A binary32 colour near a bounded one is bounded. -/
theorem within_of {v : Tristimulus F32} {x : Tristimulus ℝ} {e k : ℚ} (h : NearReal v x e) (hx : NearR x ⟨0, 0, 0⟩ k) : Within v (k + e) := by
  obtain ⟨⟨f1, f2, f3⟩, a, b, c⟩ := h
  obtain ⟨p, q, r⟩ := hx
  have key : ∀ {u : ℚ} {w : ℝ}, |(u : ℝ) - w| ≤ e → |w - 0| ≤ k → |u| ≤ k + e := by
    intro u w h1 h2
    rw [← Rat.cast_le (K := ℝ)]
    push_cast
    rw [sub_zero] at h2
    have := abs_add_le ((u : ℝ) - w) w
    rw [sub_add_cancel] at this
    linarith
  exact ⟨⟨f1, key a p⟩, ⟨f2, key b q⟩, f3, key c r⟩

/-- One conversion. -/
theorem move_error (s d : RGBSpace) (t : Tristimulus F32) (C : ℚ) (C1 : 1 / 2 ^ 60 ≤ C) (C2 : C ≤ 2 ^ 80) (ht : Within t C) :
    NearReal (move s d t) (comp s d t.real) (err d * C) := by
  obtain ⟨r1, r2, r3, r4, -⟩ := rows s d
  have C0 : 0 < C := lt_of_lt_of_le (by norm_num) C1
  have tiny : (1 : ℚ) / 2 ^ 140 ≤ 1e-12 * C := by
    have : (1e-12 : ℚ) * (1 / 2 ^ 60) ≤ 1e-12 * C := mul_le_mul_of_nonneg_left C1 (by norm_num)
    exact le_trans (by norm_num) this
  -- to XYZ
  have n1 := C99_toXYZ s _ s.realises t C (C2.trans (by norm_num)) ht
  set x := s.gamut.toXYZ t
  set X := s.rat.toReal.toXYZ t.real with hX
  have X0 : NearR X ⟨0, 0, 0⟩ ((1.2091 * C : ℚ) : ℝ) := by
    have := lip r1 (by exact_mod_cast C0.le) (start ht)
    rw [map_zero] at this
    push_cast at this ⊢
    exact this
  have w1 := within_of n1 X0
  replace w1 : Within x (1.2092 * C) := by
    have l : 1.2091 * C + (6e-7 * C + 1 / 2 ^ 140) ≤ 1.2092 * C := by linarith
    exact ⟨⟨w1.1.1, w1.1.2.trans l⟩, ⟨w1.2.1.1, w1.2.1.2.trans l⟩, w1.2.2.1, w1.2.2.2.trans l⟩
  -- adaptation
  have n2 := (adapt_close s d).error (C := 1.2092 * C) (by linarith) x w1
  set y := x.apply (Bradford s.gamut.primaryWhite d.gamut.primaryWhite)
  rw [toReal_Bradford, toReal_white, toReal_white] at n2
  set Y := X.apply (Bradford s.whiteXYZ d.whiteXYZ) with hY
  have a1 : NearR x.real X ((6e-7 * C + 1 / 2 ^ 140 : ℚ) : ℝ) := n1.2
  have a2 : NearR (x.real.apply (Bradford s.whiteXYZ d.whiteXYZ)) Y (((1.17 : ℚ) : ℝ) * ((6e-7 * C + 1 / 2 ^ 140 : ℚ) : ℝ)) := by
    have := lip r3 (by
      have : (0 : ℚ) ≤ 6e-7 * C + 1 / 2 ^ 140 := by positivity
      exact_mod_cast this) a1
    rwa [toReal_Bradford, toReal_white, toReal_white] at this
  have a3 := NearR.trans (show NearR y.real _ _ from n2.2) a2
  replace a3 : NearR y.real Y ((3.7299e-6 * C : ℚ) : ℝ) := by
    refine NearR.mono a3 ?_
    have : (2.5e-6 * (1.2092 * C) + 1 / 2 ^ 140) + 1.17 * (6e-7 * C + 1 / 2 ^ 140) ≤ 3.7299e-6 * C := by linarith
    have := (Rat.cast_le (K := ℝ)).2 this
    push_cast at this ⊢
    exact this
  have Y0 : NearR Y ⟨0, 0, 0⟩ ((1.2201 * C : ℚ) : ℝ) := by
    have := lip r4 (by exact_mod_cast C0.le) (start ht)
    rw [map_zero, Matrix3.toReal_mul, toReal_Bradford, toReal_white, toReal_white, Matrix3.apply_mul] at this
    push_cast at this ⊢
    exact this
  have w2 := within_of (v := y) ⟨n2.1, a3⟩ Y0
  replace w2 : Within y (1.2202 * C) := by
    have l : 1.2201 * C + 3.7299e-6 * C ≤ 1.2202 * C := by linarith
    exact ⟨⟨w2.1.1, w2.1.2.trans l⟩, ⟨w2.2.1.1, w2.2.1.2.trans l⟩, w2.2.2.1, w2.2.2.2.trans l⟩
  -- from XYZ
  have n3 := C99_fromXYZ d _ d.realises y (1.2202 * C) (by linarith) w2 (d.rat.toReal.fromXYZ y.real) (right_inv d _)
  have a4 := lip r2 (by
      have : (0 : ℚ) ≤ 3.7299e-6 * C := by positivity
      exact_mod_cast this) a3
  have a5 : NearR (move s d t).real (comp s d t.real) _ := NearR.trans (show NearR (move s d t).real _ _ from n3.2) a4
  refine ⟨n3.1, ?_⟩
  have f0 : (0 : ℚ) ≤ fromAbs d := by cases d <;> norm_num [fromAbs]
  have l : (1.9e-6 * (1.2202 * C) + 1 / 2 ^ 140) + fromAbs d * (3.7299e-6 * C) ≤ err d * C := by
    unfold err
    have := mul_nonneg f0 C0.le
    nlinarith
  have l' := (Rat.cast_le (K := ℝ)).2 l
  exact NearR.mono a5 (by push_cast at l' ⊢; exact l')

/-- One conversion of a chain, seen from the space `r`. -/
theorem step (r s d : RGBSpace) {t0 : Tristimulus ℝ} {C : ℚ} (C1 : 1 / 2 ^ 60 ≤ C) (C2 : C ≤ 2 ^ 60) (h0 : NearR t0 ⟨0, 0, 0⟩ C)
    {v : Tristimulus F32} (hf : v.a.isFinite = true ∧ v.b.isFinite = true ∧ v.c.isFinite = true) {k : ℕ} (hk : k ≤ 500)
    (h : NearR (comp s r v.real) t0 (kap r * k * C)) :
    let w := move s d v
    (w.a.isFinite = true ∧ w.b.isFinite = true ∧ w.c.isFinite = true) ∧ NearR (comp d r w.real) t0 (kap r * (k + 1 : ℕ) * C) := by
  intro w
  obtain ⟨-, k1, m0, m1, e1, tot⟩ := kaps r s d
  obtain ⟨-, -, b0, b1, -, -⟩ := kaps d r d
  have C0 : (0 : ℚ) < C := lt_of_lt_of_le (by norm_num) C1
  have kq : (k : ℚ) ≤ 500 := by exact_mod_cast hk
  have k0 : (0 : ℚ) ≤ k := Nat.cast_nonneg k
  have q1 : kap r * k * C + C ≤ 1.051 * C := by
    have : kap r * k ≤ 9.4e-5 * 500 := mul_le_mul k1 kq k0 (by norm_num)
    have : kap r * k * C ≤ 9.4e-5 * 500 * C := mul_le_mul_of_nonneg_right this C0.le
    linarith
  have n1 : NearR (comp s r v.real) ⟨0, 0, 0⟩ ((1.051 * C : ℚ) : ℝ) := by
    refine NearR.mono (NearR.trans h h0) ?_
    have := (Rat.cast_le (K := ℝ)).2 q1
    push_cast at this ⊢; exact this
  have c0 : (0 : ℚ) ≤ 1.051 * C := by positivity
  have n2 := comp_lip r s (by exact_mod_cast c0) n1
  rw [comp_comp, comp_self, comp_zero] at n2
  -- the size of the colour; at least `C / 2` is allowed for, so that it is not too small
  set K : ℚ := amp r s * (1.051 * C)
  have a1 : 1 / 2 ^ 60 ≤ K ∨ K < 1 / 2 ^ 60 := le_or_gt _ _
  have am : 1 ≤ amp r s := by cases r <;> cases s <;> norm_num [amp]
  have K1 : 1 / 2 ^ 60 ≤ K := by
    have : 1 * (1.051 * C) ≤ K := mul_le_mul_of_nonneg_right am c0
    linarith
  have K2 : K ≤ 2 ^ 80 := by
    have : K ≤ 4.1 * (1.051 * 2 ^ 60) := mul_le_mul m1 (by linarith) c0 (by norm_num)
    exact this.trans (by norm_num)
  have wt : Within v K := by
    obtain ⟨p, q, s⟩ := n2
    simp only [sub_zero, Tristimulus.real] at p q s
    refine ⟨⟨hf.1, ?_⟩, ⟨hf.2.1, ?_⟩, hf.2.2, ?_⟩ <;> rw [← Rat.cast_le (K := ℝ)] <;> push_cast [K] <;> (push_cast at p q s; assumption)
  obtain ⟨f, nn⟩ := move_error s d v K K1 K2 wt
  refine ⟨f, ?_⟩
  have er0 : 0 ≤ err d := by cases d <;> norm_num [err, fromAbs]
  have ek : (0 : ℚ) ≤ err d * K := mul_nonneg er0 (le_trans (by norm_num) K1)
  have nb := comp_lip d r (by exact_mod_cast ek) (show NearR w.real (comp s d v.real) ((err d * K : ℚ) : ℝ) from nn)
  rw [comp_comp] at nb
  refine NearR.mono (NearR.trans nb h) ?_
  have l : amp d r * (err d * K) + kap r * k * C ≤ kap r * (k + 1) * C := by
    have := mul_le_mul_of_nonneg_right tot C0.le
    have e : amp d r * (err d * K) = amp r s * 1.051 * err d * amp d r * C := by simp only [K]; ring
    rw [e]; linarith
  have l' := (Rat.cast_le (K := ℝ)).2 l
  push_cast at l' ⊢; exact l'

theorem chain (r : RGBSpace) {t0 : Tristimulus ℝ} {C : ℚ} (C1 : 1 / 2 ^ 60 ≤ C) (C2 : C ≤ 2 ^ 60) (h0 : NearR t0 ⟨0, 0, 0⟩ C)
    (ds : List RGBSpace) : ∀ (s : RGBSpace) {v : Tristimulus F32} {k : ℕ},
    (v.a.isFinite = true ∧ v.b.isFinite = true ∧ v.c.isFinite = true) → k + ds.length ≤ 500 →
    NearR (comp s r v.real) t0 (kap r * k * C) →
    ((run s ds v).a.isFinite = true ∧ (run s ds v).b.isFinite = true ∧ (run s ds v).c.isFinite = true) ∧
      NearR (comp (last s ds) r (run s ds v).real) t0 (kap r * (k + ds.length : ℕ) * C) := by
  induction ds with
  | nil => intro s v k hf _ h; exact ⟨hf, h⟩
  | cons d ds ih =>
    intro s v k hf hk h
    rw [List.length_cons] at hk
    obtain ⟨f, n⟩ := step r s d C1 C2 h0 hf (by omega) h
    have := ih d (k := k + 1) f (by omega) n
    rw [List.length_cons, show k + (ds.length + 1) = k + 1 + ds.length by omega]
    exact this

set_option maxRecDepth 100000 in
theorem tint_rows : (let m := GamutConvert RGBSpace.rec709.rat RGBSpace.dciP3.rat
    decide (1.091 ≤ m.m0 + m.m1 + m.m2) && decide (m.m3 + m.m4 + m.m5 ≤ 0.959) && decide (1.1501 ≤ m.m6 + m.m7 + m.m8)) = true := by
  decide +kernel

end Adapted

open Adapted
open Pipeline (last)

/-- C144: the adapted conversion of a colour with components up to `C`, in binary32, gives within `2.3e-5 C` the components of the
colour whose Bradford cone responses are those of the given one times white over white, by the published definitions of the spaces. -/
theorem C144_accuracy (s d : RGBSpace) (G H : Gamut ℝ) (hG : Realises G s.published) (hH : Realises H d.published) (t : Tristimulus F32)
    (C : ℚ) (C1 : 1 / 2 ^ 60 ≤ C) (C2 : C ≤ 2 ^ 80) (ht : Within t C) (c : Tristimulus ℝ)
    (hc : ∀ i, (bradfordCone.mulVec (triV (H.toXYZ c))) i * (bradfordCone.mulVec (triV s.whiteXYZ)) i =
      (bradfordCone.mulVec (triV (G.toXYZ t.real))) i * (bradfordCone.mulVec (triV d.whiteXYZ)) i) :
    NearReal (d.gamut.fromXYZ ((s.gamut.toXYZ t).apply (Bradford s.gamut.primaryWhite d.gamut.primaryWhite))) c (2.3e-5 * C) := by
  have e : c = comp s d t.real := by
    have : H.toXYZ c = (G.toXYZ t.real).apply (Bradford s.whiteXYZ d.whiteXYZ) := by
      apply bradfordCone_injective
      ext i
      have hs := coneOK s i
      rw [C07_vonKries _ _ _ (coneOK s), div_mul_eq_mul_div, eq_div_iff hs, hc i, mul_comm]
    rw [comp, ← s.determined hG, ← this, d.determined hH, d.left_inv]
  rw [e]
  obtain ⟨f, n⟩ := move_error s d t C C1 C2 ht
  refine ⟨f, Pipeline.NearR.mono (show NearR (move s d _).real _ _ from n) ?_⟩
  have C0 : (0 : ℚ) < C := lt_of_lt_of_le (by norm_num) C1
  have := mul_le_mul_of_nonneg_right (show err d ≤ 2.3e-5 from (kaps d d d).2.2.2.2.1.trans (by norm_num)) C0.le
  exact_mod_cast this

/-- C144: every grey stays the grey it is, whatever the whites. -/
theorem C144_grey (s d : RGBSpace) (y : F32) (hy : y.isFinite = true) (h0 : 1 / 2 ^ 60 ≤ |y.val|) (h1 : |y.val| ≤ 2 ^ 80) :
    NearReal (d.gamut.fromXYZ ((s.gamut.toXYZ ⟨y, y, y⟩).apply (Bradford s.gamut.primaryWhite d.gamut.primaryWhite)))
      ⟨y.val, y.val, y.val⟩ (2.3e-5 * |y.val|) := by
  obtain ⟨f, n⟩ := move_error s d ⟨y, y, y⟩ |y.val| h0 h1 (grey_within hy)
  rw [show Tristimulus.real (⟨y, y, y⟩ : Tristimulus F32) = ⟨(y.val : ℝ), y.val, y.val⟩ from rfl, comp_grey] at n
  refine ⟨f, Pipeline.NearR.mono (show NearR (move s d _).real _ _ from n) ?_⟩
  have := mul_le_mul_of_nonneg_right (show err d ≤ 2.3e-5 from (kaps d d d).2.2.2.2.1.trans (by norm_num)) (abs_nonneg y.val)
  have := (Rat.cast_le (K := ℝ)).2 this
  push_cast at this ⊢; exact this

/-- C144: a closed chain of `n ≤ 500` adapted conversions changes no component by more than `9.4e-5 n C`. -/
theorem C144_closed (s : RGBSpace) (ds : List RGBSpace) (hn : ds.length ≤ 500) (hs : last s ds = s) (t : Tristimulus F32) (C : ℚ)
    (C1 : 1 / 2 ^ 60 ≤ C) (C2 : C ≤ 2 ^ 60) (ht : Within t C) : Near (Adapted.run s ds t) t (kap s * ds.length * C) ∧ kap s ≤ 9.4e-5 := by
  obtain ⟨f, n⟩ := Adapted.chain s C1 C2 (Pipeline.start ht) ds s (v := t) (k := 0) ⟨ht.1.1, ht.2.1.1, ht.2.2.1⟩ (by omega)
    (by rw [Adapted.comp_self]; simp [NearR])
  rw [hs, Adapted.comp_self, zero_add] at n
  obtain ⟨p, q, r⟩ := n
  refine ⟨⟨f, ?_, ?_, ?_⟩, (kaps s s s).2.1⟩ <;> rw [← Rat.cast_le (K := ℝ)] <;> push_cast <;> assumption

/-- C144: an sRGB-coded image with `N + 1` levels, in any of the spaces but ACES 2065, survives a closed chain of `n` adapted conversions
with `n N ≤ 580`: there and back with 8 bits. -/
theorem C144_codes (o : F32.Oracle) (ho : o.PowAccurate (2 ^ (-22 : ℤ))) (x : F32) (s : RGBSpace) (h : s ≠ .aces2065) (ds : List RGBSpace)
    (hs : last s ds = s) (N i j k : ℕ) (hN : 0 < N) (h500 : ds.length ≤ 500) (hn : ds.length * N ≤ 580)
    (hN' : N ≤ 2200) (hi : i ≤ N) (hj : j ≤ N) (hk : k ≤ N) :
    letI := F32.libm o
    HasCodes N i j k (toScreen .SRGB (Adapted.run s ds (toScene .SRGB (pixel N i j k) x)) x) := by
  have r := scene_range o ho x hN (hN'.trans (by norm_num)) hi hj hk
  have kb : 0 ≤ kap s ∧ kap s ≤ 6.4e-5 := by cases s <;> first | exact absurd rfl h | norm_num [kap]
  have hl : (ds.length : ℚ) * N ≤ 580 := by exact_mod_cast hn
  refine pixel_trip o ho x hN (hN'.trans (by norm_num)) hi hj hk ?_
    (C144_closed s ds h500 hs _ top (by norm_num [top]) (by norm_num [top]) (scene_within r)).1
  have b : (N : ℚ) ≤ 2200 := by exact_mod_cast hN'
  have e : (12.92 * (kap s * ds.length * top) + 3.5e-6 : ℚ) * N = 12.92 * top * (kap s * (ds.length * N)) + 3.5e-6 * N := by ring
  rw [e]
  have m : kap s * (ds.length * N) ≤ 6.4e-5 * 580 := mul_le_mul kb.2 hl (by positivity) (by norm_num)
  have : (12.92 * top : ℚ) * (kap s * (ds.length * N)) ≤ 12.92 * top * (6.4e-5 * 580) := mul_le_mul_of_nonneg_left m (by norm_num [top])
  have t : (12.92 * top * (6.4e-5 * 580) : ℚ) ≤ 0.4797 := by norm_num [top]
  linarith


/-- C144: without the adaptation the greys of Rec.709 are tinted in DCI-P3: there is 9 % more red, 15 % more blue and 4 % less green. -/
theorem C144_tint (y : F32) (hy : y.isFinite = true) (h0 : 1 / 2 ^ 60 ≤ y.val) (h1 : y.val ≤ 2 ^ 80) :
    let t := Tristimulus.apply ⟨y, y, y⟩ (GamutConvert (Rec709 : Gamut F32) DCI_P3)
    1.09 * y.val ≤ t.a.val ∧ t.b.val ≤ 0.96 * y.val ∧ 1.15 * y.val ≤ t.c.val := by
  intro t
  have y0 : 0 < y.val := lt_of_lt_of_le (by norm_num) h0
  have h := List.all_eq_true.1 (List.all_eq_true.1 convert_close RGBSpace.rec709 RGBSpace.rec709.mem_all) RGBSpace.dciP3 RGBSpace.dciP3.mem_all
  have c := close_of_mulCheck RGBSpace.dciP3.spec.2.1 RGBSpace.dciP3.spec.2.2.2 RGBSpace.rec709.spec.1 RGBSpace.rec709.spec.2.2.1 h
  have b : Bd y y.val := ⟨hy, le_of_eq (abs_of_pos y0)⟩
  have e1 := (c.r0.error (h1.trans (by norm_num)) b b b).2
  have e2 := (c.r1.error (h1.trans (by norm_num)) b b b).2
  have e3 := (c.r2.error (h1.trans (by norm_num)) b b b).2
  have tiny : (1 : ℚ) / 2 ^ 140 ≤ 1e-12 * y.val := by
    have : (1e-12 : ℚ) * (1 / 2 ^ 60) ≤ 1e-12 * y.val := mul_le_mul_of_nonneg_left h0 (by norm_num)
    exact le_trans (by norm_num) this
  have m := Adapted.tint_rows
  simp only [Bool.and_eq_true, decide_eq_true_eq] at m
  obtain ⟨⟨m1, m2⟩, m3⟩ := m
  have f1 := mul_le_mul_of_nonneg_right m1 y0.le
  have f2 := mul_le_mul_of_nonneg_right m2 y0.le
  have f3 := mul_le_mul_of_nonneg_right m3 y0.le
  obtain ⟨p1, -⟩ := abs_le.1 e1
  obtain ⟨-, p2⟩ := abs_le.1 e2
  obtain ⟨p3, -⟩ := abs_le.1 e3
  replace p1 : -(3.2e-6 * y.val + 1 / 2 ^ 140) ≤ t.a.val - _ := p1
  replace p2 : t.b.val - _ ≤ 3.2e-6 * y.val + 1 / 2 ^ 140 := p2
  replace p3 : -(3.2e-6 * y.val + 1 / 2 ^ 140) ≤ t.c.val - _ := p3
  rw [← add_mul, ← add_mul] at p1 p2 p3
  exact ⟨by linarith, by linarith, by linarith⟩

/-- The hypotheses are met: an 8-bit pixel of Rec.709 taken to ACEScg and back. -/
example : ∃ o : F32.Oracle, o.PowAccurate (2 ^ (-22 : ℤ)) ∧ ∀ x : F32,
    letI := F32.libm o
    HasCodes 255 0 255 77 (toScreen .SRGB (Adapted.run .rec709 [.acesCg, .rec709] (toScene .SRGB (pixel 255 0 255 77) x)) x) := by
  obtain ⟨o, h1, -⟩ := exists_accurate
  have d : (2 : ℝ) ^ (-23 : ℤ) ≤ 2 ^ (-22 : ℤ) := zpow_le_zpow_right₀ (by norm_num) (by norm_num)
  have hp : o.PowAccurate (2 ^ (-22 : ℤ)) := fun x y hx hy h0 ha hb => ⟨(h1 x y hx hy h0 ha hb).1, (h1 x y hx hy h0 ha hb).2.trans (by gcongr)⟩
  exact ⟨o, hp, fun x => C144_codes o hp x _ (by simp) _ rfl 255 0 255 77 (by norm_num) (by norm_num) (by norm_num) (by norm_num) (by norm_num)
    (by norm_num) (by norm_num)⟩

end CS
