import Verif.Props.PublishedFloat
import Verif.Props.LabFloat
import Verif.Props.LabLaws
import Verif.Props.YxyFloat
import Verif.Props.OklabFloat
import Verif.Props.OklabPublished
import Verif.Props.HSVFloat

/-!
# C116: greys in single precision

A colour with three equal channels is neutral: it has no saturation, the chromaticity of the white of its space, no chroma in
CIELAB, and equal channels in every space with the same white.  In the header's OKLAB it is not neutral.
-/

namespace CS
open F32 B32 Spec Tristimulus

attribute [local instance] ratArith

/-- The published white of the space, at luminance 1. -/
noncomputable def RGBSpace.whiteXYZ (s : RGBSpace) : Tristimulus ℝ :=
  ⟨s.published.white.1 / s.published.white.2, 1, (1 - s.published.white.1 - s.published.white.2) / s.published.white.2⟩

/-- Equal drive in the exact space. -/
theorem RGBSpace.grey_exact (s : RGBSpace) (y : ℝ) :
    s.rat.toReal.toXYZ ⟨y, y, y⟩ = ⟨y * s.whiteXYZ.a, y, y * s.whiteXYZ.c⟩ := by
  obtain ⟨-, -, -, -, ⟨h0, h1, h2⟩, h3⟩ := s.realises
  have e : s.rat.toReal.toXYZ ⟨y, y, y⟩ = ⟨y * (s.rat.toReal.toXYZ ⟨1, 1, 1⟩).a, y * (s.rat.toReal.toXYZ ⟨1, 1, 1⟩).b,
      y * (s.rat.toReal.toXYZ ⟨1, 1, 1⟩).c⟩ := by
    simp only [Gamut.toXYZ, Matrix3.apply, Tristimulus.ofVec3, Tristimulus.vec3]
    ext <;> simp <;> ring
  rw [e]
  generalize s.rat.toReal.toXYZ ⟨1, 1, 1⟩ = t at *
  unfold RGBSpace.whiteXYZ
  generalize s.published.white = w at *
  rw [h3] at h2
  have hw : w.2 ≠ 0 := by
    intro hh
    rw [hh, zero_mul] at h2
    exact one_ne_zero h2
  have hs : t.a + t.b + t.c = 1 / w.2 := by rw [eq_div_iff hw, mul_comm, h3, ← h2]
  rw [hs] at h1
  ext
  · show y * t.a = _
    rw [h1]; simp only; ring
  · show y * t.b = _
    rw [h3, mul_one]
  · show y * t.c = _
    have : t.c = 1 / w.2 - w.1 * (1 / w.2) - 1 := by linarith
    rw [this]; simp only; field_simp

theorem grey_within {y : F32} (hy : y.isFinite = true) : Within ⟨y, y, y⟩ |y.val| := ⟨⟨hy, le_rfl⟩, ⟨hy, le_rfl⟩, hy, le_rfl⟩

/-- C116: a grey has the chromaticity of the white, and its own value as luminance. -/
theorem C116_xyz (s : RGBSpace) (y : F32) (hy : y.isFinite = true) (hb : |y.val| ≤ 2 ^ 100) :
    NearReal (s.gamut.toXYZ ⟨y, y, y⟩) ⟨y.val * s.whiteXYZ.a, y.val, y.val * s.whiteXYZ.c⟩ (6e-7 * |y.val| + 1 / 2 ^ 140) := by
  have := C99_toXYZ s _ s.realises ⟨y, y, y⟩ _ hb (grey_within hy)
  rwa [show Tristimulus.real (⟨y, y, y⟩ : Tristimulus F32) = ⟨(y.val : ℝ), y.val, y.val⟩ from rfl, s.grey_exact] at this

/-- C116: in another space with the same white it is the same grey. -/
theorem C116_convert (s d : RGBSpace) (h : s.published.white = d.published.white) (y : F32) (hy : y.isFinite = true)
    (hb : |y.val| ≤ 2 ^ 100) :
    NearReal (Tristimulus.apply ⟨y, y, y⟩ (GamutConvert s.gamut d.gamut)) ⟨y.val, y.val, y.val⟩ (3.2e-6 * |y.val| + 1 / 2 ^ 140) := by
  refine C99_convert s d _ _ s.realises d.realises ⟨y, y, y⟩ _ hb (grey_within hy) _ ?_
  rw [show Tristimulus.real (⟨y, y, y⟩ : Tristimulus F32) = ⟨(y.val : ℝ), y.val, y.val⟩ from rfl, s.grey_exact, d.grey_exact]
  unfold RGBSpace.whiteXYZ
  rw [h]

/-- C116: its hue is 0, its saturation is zero and its value is itself, exactly. -/
theorem C116_hsv (y : F32) (hy : y.isFinite = true) :
    ∃ o, toHSV (⟨y, y, y⟩ : Tristimulus F32) = some o ∧ o.a = zero false ∧ o.b.Is 0 ∧ o.c = y := by
  obtain ⟨o, h1, h2, h3, h4, h5⟩ := C63_grey y hy
  refine ⟨o, h1, h2, ?_, h5⟩
  by_cases h : y.val = 0
  · rw [h4 h]; exact ⟨rfl, rfl⟩
  · exact h3 h

/-! ## Chromaticity -/

theorem RGBSpace.white_bounds (s : RGBSpace) : (0.89 ≤ s.whiteXYZ.a ∧ s.whiteXYZ.a ≤ 0.96) ∧
    (0.95 ≤ s.whiteXYZ.c ∧ s.whiteXYZ.c ≤ 1.09) ∧ s.whiteXYZ.b = 1 ∧
    s.published.white.1 = s.whiteXYZ.a / (s.whiteXYZ.a + 1 + s.whiteXYZ.c) ∧
    s.published.white.2 = 1 / (s.whiteXYZ.a + 1 + s.whiteXYZ.c) := by
  cases s <;> norm_num [RGBSpace.whiteXYZ, RGBSpace.published, adobeRGB, bt709Primaries, bt2020Primaries, Spec.dciP3, Spec.sGamut,
      Spec.sGamut3Cine, ap1, ap0, d65, acesWhite]

theorem chroma_x {r A B X Y Z : ℝ} (r0 : 0 < r) (hA : 0.89 ≤ A ∧ A ≤ 0.96) (hB : 0.95 ≤ B ∧ B ≤ 1.09)
    (ea : |X - r * A| ≤ 6.1e-7 * r) (eb : |Y - r| ≤ 6.1e-7 * r) (ec : |Z - r * B| ≤ 6.1e-7 * r) :
    |X / (X + Y + Z) - A / (A + 1 + B)| ≤ 5e-7 := by
  obtain ⟨a1, a2⟩ := hA
  obtain ⟨c1, c2⟩ := hB
  obtain ⟨p1, p2⟩ := abs_le.1 ea
  obtain ⟨p3, p4⟩ := abs_le.1 eb
  obtain ⟨p5, p6⟩ := abs_le.1 ec
  have rA1 : r * 0.89 ≤ r * A := mul_le_mul_of_nonneg_left a1 r0.le
  have rC1 : r * 0.95 ≤ r * B := mul_le_mul_of_nonneg_left c1 r0.le
  have Sp : 2.8 * r ≤ X + Y + Z := by linarith
  rw [div_sub_div _ _ (by linarith) (by linarith), abs_div, div_le_iff₀ (abs_pos.2 (mul_ne_zero (by linarith) (by linarith))),
    abs_of_pos (mul_pos (show 0 < X + Y + Z by linarith) (show 0 < A + 1 + B by linarith)),
    show X * (A + 1 + B) - (X + Y + Z) * A = (X - r * A) * (1 + B) - A * ((Y - r) + (Z - r * B)) by ring]
  have t1 : |(X - r * A) * (1 + B)| ≤ 6.1e-7 * r * (1 + B) := by
    rw [abs_mul, abs_of_pos (show 0 < 1 + B by linarith)]
    exact mul_le_mul_of_nonneg_right ea (by linarith)
  have t2 : |A * ((Y - r) + (Z - r * B))| ≤ A * (2 * (6.1e-7 * r)) := by
    rw [abs_mul, abs_of_pos (show 0 < A by linarith)]
    exact mul_le_mul_of_nonneg_left ((abs_add_le _ _).trans (by linarith)) (by linarith)
  have t3 := abs_sub ((X - r * A) * (1 + B)) (A * ((Y - r) + (Z - r * B)))
  have t4 : 2.8 * r * (A + 1 + B) ≤ (X + Y + Z) * (A + 1 + B) := mul_le_mul_of_nonneg_right Sp (by linarith)
  have s1 : 0 ≤ r * (A + 1 + B) := mul_nonneg r0.le (by linarith)
  nlinarith

theorem chroma_y {r A B X Y Z : ℝ} (r0 : 0 < r) (hA : 0.89 ≤ A ∧ A ≤ 0.96) (hB : 0.95 ≤ B ∧ B ≤ 1.09)
    (ea : |X - r * A| ≤ 6.1e-7 * r) (eb : |Y - r| ≤ 6.1e-7 * r) (ec : |Z - r * B| ≤ 6.1e-7 * r) :
    |Y / (X + Y + Z) - 1 / (A + 1 + B)| ≤ 5e-7 := by
  obtain ⟨a1, a2⟩ := hA
  obtain ⟨c1, c2⟩ := hB
  obtain ⟨p1, p2⟩ := abs_le.1 ea
  obtain ⟨p3, p4⟩ := abs_le.1 eb
  obtain ⟨p5, p6⟩ := abs_le.1 ec
  have rA1 : r * 0.89 ≤ r * A := mul_le_mul_of_nonneg_left a1 r0.le
  have rC1 : r * 0.95 ≤ r * B := mul_le_mul_of_nonneg_left c1 r0.le
  have Sp : 2.8 * r ≤ X + Y + Z := by linarith
  rw [div_sub_div _ _ (by linarith) (by linarith), abs_div, div_le_iff₀ (abs_pos.2 (mul_ne_zero (by linarith) (by linarith))),
    abs_of_pos (mul_pos (show 0 < X + Y + Z by linarith) (show 0 < A + 1 + B by linarith)),
    show Y * (A + 1 + B) - (X + Y + Z) * 1 = (Y - r) * (A + B) - ((X - r * A) + (Z - r * B)) by ring]
  have t1 : |(Y - r) * (A + B)| ≤ 6.1e-7 * r * (A + B) := by
    rw [abs_mul, abs_of_pos (show 0 < A + B by linarith)]
    exact mul_le_mul_of_nonneg_right eb (by linarith)
  have t2 : |(X - r * A) + (Z - r * B)| ≤ 2 * (6.1e-7 * r) := (abs_add_le _ _).trans (by linarith)
  have t3 := abs_sub ((Y - r) * (A + B)) ((X - r * A) + (Z - r * B))
  have t4 : 2.8 * r * (A + 1 + B) ≤ (X + Y + Z) * (A + 1 + B) := mul_le_mul_of_nonneg_right Sp (by linarith)
  have s1 : 0 ≤ r * (A + 1 + B) := mul_nonneg r0.le (by linarith)
  nlinarith

/-- C116: `toYxy` gives its own luminance and the chromaticity of the white. -/
theorem C116_chromaticity (s : RGBSpace) (y : F32) (hy : y.isFinite = true) (h0 : 1 / 2 ^ 24 ≤ y.val) (h1 : y.val ≤ 2 ^ 50) :
    let c := toYxy (s.gamut.toXYZ ⟨y, y, y⟩)
    Ap c.a y.val (6.1e-7 * y.val) ∧ Ap c.b s.published.white.1 1e-6 ∧ Ap c.c s.published.white.2 1e-6 := by
  intro c
  obtain ⟨⟨fa, fb, fc⟩, ea, eb, ec⟩ := C116_xyz s y hy (by rw [abs_of_nonneg (le_trans (by positivity) h0)]; exact h1.trans (by norm_num))
  obtain ⟨⟨a1, a2⟩, ⟨c1, c2⟩, -, wx, wy⟩ := s.white_bounds
  rw [abs_of_nonneg (le_trans (by positivity) h0)] at ea eb ec
  have h0' : (1 / 2 ^ 24 : ℝ) ≤ y.val := by have := (Rat.cast_le (K := ℝ)).2 h0; push_cast at this; exact this
  have h1' : (y.val : ℝ) ≤ 2 ^ 50 := by exact_mod_cast h1
  have ty : (((6e-7 * y.val + 1 / 2 ^ 140 : ℚ)) : ℝ) ≤ 6.1e-7 * y.val := by
    push_cast
    have : (1 / 2 ^ 140 : ℝ) ≤ 1e-9 * (1 / 2 ^ 24) := by norm_num
    norm_num at this h0' ⊢
    linarith
  replace ea : |((s.gamut.toXYZ ⟨y, y, y⟩).a.val : ℝ) - y.val * s.whiteXYZ.a| ≤ 6.1e-7 * y.val := ea.trans ty
  replace eb : |((s.gamut.toXYZ ⟨y, y, y⟩).b.val : ℝ) - y.val| ≤ 6.1e-7 * y.val := eb.trans ty
  replace ec : |((s.gamut.toXYZ ⟨y, y, y⟩).c.val : ℝ) - y.val * s.whiteXYZ.c| ≤ 6.1e-7 * y.val := ec.trans ty
  generalize hA : s.whiteXYZ.a = A at *
  generalize hC : s.whiteXYZ.c = B at *
  generalize hr : (y.val : ℝ) = r at *
  have r0 : 0 < r := lt_of_lt_of_le (by norm_num) h0'
  obtain ⟨p1, p2⟩ := abs_le.1 ea
  obtain ⟨p3, p4⟩ := abs_le.1 eb
  obtain ⟨p5, p6⟩ := abs_le.1 ec
  have rA1 : r * 0.89 ≤ r * A := mul_le_mul_of_nonneg_left a1 r0.le
  have rA2 : r * A ≤ r * 0.96 := mul_le_mul_of_nonneg_left a2 r0.le
  have rC1 : r * 0.95 ≤ r * B := mul_le_mul_of_nonneg_left c1 r0.le
  have rC2 : r * B ≤ r * 1.09 := mul_le_mul_of_nonneg_left c2 r0.le
  have ok : YxyOK (s.gamut.toXYZ ⟨y, y, y⟩) := by
    refine ⟨fa, fb, fc, ?_, ?_, ?_, ?_, ?_⟩
    · have : (0 : ℝ) ≤ (s.gamut.toXYZ ⟨y, y, y⟩).a.val := by linarith
      exact_mod_cast this
    · have : (0 : ℝ) ≤ (s.gamut.toXYZ ⟨y, y, y⟩).b.val := by linarith
      exact_mod_cast this
    · have : (0 : ℝ) ≤ (s.gamut.toXYZ ⟨y, y, y⟩).c.val := by linarith
      exact_mod_cast this
    · have : ((3e-8 : ℚ) : ℝ) ≤ (((s.gamut.toXYZ ⟨y, y, y⟩).a.val + (s.gamut.toXYZ ⟨y, y, y⟩).b.val + (s.gamut.toXYZ ⟨y, y, y⟩).c.val : ℚ) : ℝ) := by
        push_cast; norm_num at h0' ⊢; linarith
      exact_mod_cast this
    · have : (((s.gamut.toXYZ ⟨y, y, y⟩).a.val + (s.gamut.toXYZ ⟨y, y, y⟩).b.val + (s.gamut.toXYZ ⟨y, y, y⟩).c.val : ℚ) : ℝ) ≤ ((2 ^ 60 : ℚ) : ℝ) := by
        push_cast; norm_num at h1' ⊢; linarith
      exact_mod_cast this
  obtain ⟨q1, q2, -, -, q3, -, -⟩ := C93_toYxy _ ok
  have S : sum3 (s.gamut.toXYZ ⟨y, y, y⟩) = ((s.gamut.toXYZ ⟨y, y, y⟩).a.val : ℝ) + (s.gamut.toXYZ ⟨y, y, y⟩).b.val +
      (s.gamut.toXYZ ⟨y, y, y⟩).c.val := rfl
  generalize ((s.gamut.toXYZ ⟨y, y, y⟩).a.val : ℝ) = X at *
  have hY : ((s.gamut.toXYZ ⟨y, y, y⟩).b.val : ℝ) = ((s.gamut.toXYZ ⟨y, y, y⟩).b.val : ℝ) := rfl
  refine ⟨?_, ?_, ?_⟩
  · show Ap (toYxy (s.gamut.toXYZ ⟨y, y, y⟩)).a _ _
    rw [q1]; exact ⟨fb, eb⟩
  · show Ap (toYxy (s.gamut.toXYZ ⟨y, y, y⟩)).b _ _
    generalize ((s.gamut.toXYZ ⟨y, y, y⟩).b.val : ℝ) = Y at *
    generalize ((s.gamut.toXYZ ⟨y, y, y⟩).c.val : ℝ) = Z at *
    rw [S] at q2
    refine ⟨q2.fin, ?_⟩
    have Sp : 2.8 * r ≤ X + Y + Z := by linarith
    have d := chroma_x r0 ⟨a1, a2⟩ ⟨c1, c2⟩ ea eb ec
    have b : X / (X + Y + Z) ≤ 1 := by rw [div_le_one (by linarith)]; linarith
    rw [wx]
    have := q2.err
    refine (abs_sub_le _ (X / (X + Y + Z)) _).trans ?_
    have : (1 / 2 ^ 150 : ℝ) ≤ 1e-20 := by norm_num
    linarith
  · show Ap (toYxy (s.gamut.toXYZ ⟨y, y, y⟩)).c _ _
    generalize ((s.gamut.toXYZ ⟨y, y, y⟩).b.val : ℝ) = Y at *
    generalize ((s.gamut.toXYZ ⟨y, y, y⟩).c.val : ℝ) = Z at *
    rw [S] at q3
    refine ⟨q3.fin, ?_⟩
    have Sp : 2.8 * r ≤ X + Y + Z := by linarith
    have d := chroma_y r0 ⟨a1, a2⟩ ⟨c1, c2⟩ ea eb ec
    have b : Y / (X + Y + Z) ≤ 1 := by rw [div_le_one (by linarith)]; linarith
    rw [wy]
    have := q3.err
    refine (abs_sub_le _ (Y / (X + Y + Z)) _).trans ?_
    have : (1 / 2 ^ 150 : ℝ) ≤ 1e-20 := by norm_num
    linarith

/-! ## CIELAB -/

/-- The CIE function is steepest at 0. -/
theorem labF_lip {x y : ℝ} (hx : 0 ≤ x) (h : x ≤ y) : labF y - labF x ≤ 841 / 108 * (y - x) := by
  have cube : ∀ {t : ℝ}, 0 ≤ t → ∃ u, 0 ≤ u ∧ t = u ^ 3 ∧ t ^ ((1 : ℝ) / 3) = u := by
    intro t ht
    refine ⟨t ^ ((1 : ℝ) / 3), by positivity, ?_, rfl⟩
    rw [← Real.rpow_natCast, ← Real.rpow_mul ht]; norm_num
  unfold labF
  split_ifs with c1 c2 c2
  · obtain ⟨u, u0, rfl, eu⟩ := cube (hx.trans h)
    obtain ⟨v, v0, rfl, ev⟩ := cube hx
    rw [eu, ev]
    have d1 : 6 / 29 < u := lt_of_pow_lt_pow_left₀ 3 u0 c1
    have d2 : 6 / 29 < v := lt_of_pow_lt_pow_left₀ 3 v0 c2
    have d3 : v ≤ u := le_of_pow_le_pow_left₀ (by norm_num) u0 h
    have f : u ^ 3 - v ^ 3 = (u - v) * (u ^ 2 + u * v + v ^ 2) := by ring
    rw [f]
    have g : 108 / 841 ≤ u ^ 2 + u * v + v ^ 2 := by nlinarith
    nlinarith
  · obtain ⟨u, u0, rfl, eu⟩ := cube (hx.trans h)
    rw [eu]
    have g : 0 ≤ (u - 6 / 29) ^ 2 * (u + 12 / 29) := by positivity
    have f : (u - 6 / 29) ^ 2 * (u + 12 / 29) = u ^ 3 - 108 / 841 * u + 432 / 24389 := by ring
    have e : x / (3 * (6 / 29) ^ 2) = 841 / 108 * x := by ring
    rw [f] at g
    rw [e]
    linarith
  · exact absurd (lt_of_lt_of_le c2 h) c1
  · norm_num; linarith

theorem labF_close {x y e : ℝ} (hx : 0 ≤ x) (hy : 0 ≤ y) (h : |x - y| ≤ e) : |labF x - labF y| ≤ 7.79 * e := by
  obtain ⟨h1, h2⟩ := abs_le.1 h
  have e0 := (abs_nonneg _).trans h
  rcases le_total x y with o | o
  · have := labF_lip hx o
    have := labF_mono.monotone o
    rw [abs_le]; constructor <;> linarith
  · have := labF_lip hy o
    have := labF_mono.monotone o
    rw [abs_le]; constructor <;> linarith

/-- The white the header computes for a space, against the published one. -/
def whiteCheck (s : RGBSpace) (x y : ℚ) : Bool :=
  let w := s.gamut.primaryWhite
  w.a.isFinite && w.b.isFinite && w.c.isFinite && decide (|w.a.val - x / y| ≤ 4e-7) && decide (|w.b.val - 1| ≤ 4e-7) &&
    decide (|w.c.val - (1 - x - y) / y| ≤ 4e-7)

theorem white_check : (whiteCheck .adobe 0.3127 0.3290 && whiteCheck .rec709 0.3127 0.3290 && whiteCheck .rec2020 0.3127 0.3290 &&
    whiteCheck .dciP3 0.314 0.351 && whiteCheck .sGamut 0.3127 0.3290 && whiteCheck .sGamut3Cine 0.3127 0.3290 &&
    whiteCheck .acesCg 0.32168 0.33767 && whiteCheck .aces2065 0.32168 0.33767) = true := by decide +kernel

/-- C116: `primaryWhite` is the published white. -/
theorem C116_white (s : RGBSpace) : NearReal s.gamut.primaryWhite s.whiteXYZ 4e-7 := by
  have key : ∀ {x y : ℚ}, whiteCheck s x y = true → s.published.white = ((x : ℝ), (y : ℝ)) → NearReal s.gamut.primaryWhite s.whiteXYZ 4e-7 := by
    intro x y h e
    simp only [whiteCheck, Bool.and_eq_true, decide_eq_true_eq] at h
    obtain ⟨⟨⟨⟨⟨f1, f2⟩, f3⟩, e1⟩, e2⟩, e3⟩ := h
    refine ⟨⟨f1, f2, f3⟩, ?_, ?_, ?_⟩
    · have := (Rat.cast_le (K := ℝ)).2 e1
      unfold RGBSpace.whiteXYZ; rw [e]
      push_cast at this ⊢; exact this
    · have := (Rat.cast_le (K := ℝ)).2 e2
      unfold RGBSpace.whiteXYZ
      push_cast at this ⊢; exact this
    · have := (Rat.cast_le (K := ℝ)).2 e3
      unfold RGBSpace.whiteXYZ; rw [e]
      push_cast at this ⊢; exact this
  have W := white_check
  simp only [Bool.and_eq_true] at W
  obtain ⟨⟨⟨⟨⟨⟨⟨w1, w2⟩, w3⟩, w4⟩, w5⟩, w6⟩, w7⟩, w8⟩ := W
  cases s
  · exact key w1 (by norm_num [RGBSpace.published, adobeRGB, d65])
  · exact key w2 (by norm_num [RGBSpace.published, bt709Primaries, d65])
  · exact key w3 (by norm_num [RGBSpace.published, bt2020Primaries, d65])
  · exact key w4 (by norm_num [RGBSpace.published, Spec.dciP3])
  · exact key w5 (by norm_num [RGBSpace.published, Spec.sGamut, d65])
  · exact key w6 (by norm_num [RGBSpace.published, Spec.sGamut3Cine, d65])
  · exact key w7 (by norm_num [RGBSpace.published, ap1, acesWhite])
  · exact key w8 (by norm_num [RGBSpace.published, ap0, acesWhite])

/-- One component of a grey over that of the white. -/
theorem grey_rel {x w : F32} {r A : ℝ} (hr : 0 ≤ r) (hA : 0.89 ≤ A) (_ : 0 ≤ x.val) (h1 : |(x.val : ℝ) - r * A| ≤ 6e-7 * r + 1 / 2 ^ 140)
    (h2 : |(w.val : ℝ) - A| ≤ 4e-7) : |rel x w - min r 1| ≤ 1.2e-6 := by
  obtain ⟨a1, a2⟩ := abs_le.1 h1
  obtain ⟨b1, b2⟩ := abs_le.1 h2
  have w0 : (0.88 : ℝ) < w.val := by linarith
  have t : (1 / 2 ^ 140 : ℝ) ≤ 1e-20 := by norm_num
  have lo : r * (1 - 1.15e-6) - 1e-18 ≤ x.val / w.val := by
    rw [le_div_iff₀ (by linarith)]
    have : r * (w.val - A) ≤ r * 4e-7 := mul_le_mul_of_nonneg_left (by linarith) hr
    have : r * 0.88 ≤ r * w.val := mul_le_mul_of_nonneg_left w0.le hr
    nlinarith
  have hi : x.val / w.val ≤ r * (1 + 1.15e-6) + 1e-18 := by
    rw [div_le_iff₀ (by linarith)]
    have : r * (A - w.val) ≤ r * 4e-7 := mul_le_mul_of_nonneg_left (by linarith) hr
    have : r * 0.88 ≤ r * w.val := mul_le_mul_of_nonneg_left w0.le hr
    nlinarith
  unfold rel
  generalize (x.val : ℝ) / w.val = q at *
  rcases le_total r 1 with o | o
  · rw [min_eq_left o]
    rcases le_total q 1 with p | p
    · rw [min_eq_left p, abs_le]; constructor <;> nlinarith
    · rw [min_eq_right p, abs_le]; constructor <;> nlinarith
  · rw [min_eq_right o]
    rcases le_total q 1 with p | p
    · rw [min_eq_left p, abs_le]; constructor <;> nlinarith
    · rw [min_eq_right p]; norm_num

/-- C116: in CIELAB with the white of its space a grey has the lightness of its value and no chroma (up to 0.01). -/
theorem C116_cielab (o : F32.Oracle) (ho : o.PowAccurate (2 ^ (-22 : ℤ))) (s : RGBSpace) (y : F32) (hy : y.isFinite = true)
    (hlo : 1 / 2 ^ 100 ≤ y.val) (h1 : y.val ≤ 2 ^ 90) :
    letI := F32.libm o
    let c := toCIELAB (s.gamut.toXYZ ⟨y, y, y⟩) s.gamut.primaryWhite
    Ap c.a (116 * labF (min y.val 1) - 16) 1.2e-3 ∧ Ap c.b 0 0.01 ∧ Ap c.c 0 4e-3 := by
  intro c
  have h0 : 0 ≤ y.val := le_trans (by positivity) hlo
  obtain ⟨⟨fa, fb, fc⟩, ea, eb, ec⟩ := C116_xyz s y hy (by rw [abs_of_nonneg h0]; exact h1.trans (by norm_num))
  obtain ⟨⟨ga, gb, gc⟩, wa, wb, wc⟩ := C116_white s
  obtain ⟨⟨a1, a2⟩, ⟨c1, c2⟩, b1, -, -⟩ := s.white_bounds
  rw [b1] at wb
  rw [abs_of_nonneg h0] at ea eb ec
  push_cast at ea eb ec wa wb wc
  have r0 : (0 : ℝ) ≤ y.val := by exact_mod_cast h0
  have pos : ∀ {x : F32} {A : ℝ}, 0.88 ≤ A → |(x.val : ℝ) - y.val * A| ≤ 6e-7 * y.val + 1 / 2 ^ 140 → 0 ≤ x.val := by
    intro x A hA hx
    have := (abs_le.1 hx).1
    have : (y.val : ℝ) * 0.88 ≤ y.val * A := mul_le_mul_of_nonneg_left hA r0
    have l : (1 / 2 ^ 100 : ℝ) ≤ y.val := by have := (Rat.cast_le (K := ℝ)).2 hlo; push_cast at this; exact this
    have : (1 / 2 ^ 140 : ℝ) ≤ 0.1 * (1 / 2 ^ 100) := by norm_num
    have : (0 : ℝ) ≤ x.val := by linarith
    exact_mod_cast this
  have ea : |((s.gamut.toXYZ ⟨y, y, y⟩).a.val : ℝ) - y.val * s.whiteXYZ.a| ≤ 6e-7 * y.val + 1 / 2 ^ 140 := by norm_num at ea ⊢; exact ea
  have eb : |((s.gamut.toXYZ ⟨y, y, y⟩).b.val : ℝ) - y.val * 1| ≤ 6e-7 * y.val + 1 / 2 ^ 140 := by norm_num at eb ⊢; exact eb
  have ec : |((s.gamut.toXYZ ⟨y, y, y⟩).c.val : ℝ) - y.val * s.whiteXYZ.c| ≤ 6e-7 * y.val + 1 / 2 ^ 140 := by norm_num at ec ⊢; exact ec
  have wa : |(s.gamut.primaryWhite.a.val : ℝ) - s.whiteXYZ.a| ≤ 4e-7 := by norm_num at wa ⊢; exact wa
  have wb : |(s.gamut.primaryWhite.b.val : ℝ) - 1| ≤ 4e-7 := by norm_num at wb ⊢; exact wb
  have wc : |(s.gamut.primaryWhite.c.val : ℝ) - s.whiteXYZ.c| ≤ 4e-7 := by norm_num at wc ⊢; exact wc
  have pa := pos (by linarith) ea
  have pb := pos (by norm_num) eb
  have pc := pos (by linarith) ec
  have ra := grey_rel r0 a1 pa ea wa
  have rb := grey_rel r0 (by norm_num) pb eb wb
  have rc := grey_rel r0 (by linarith) pc ec wc
  have big : ∀ {x w : F32} {A : ℝ}, 0.88 ≤ A → A ≤ 1.1 → |(x.val : ℝ) - y.val * A| ≤ 6e-7 * y.val + 1 / 2 ^ 140 → |(w.val : ℝ) - A| ≤ 4e-7 →
      0 < w.val ∧ x.val / w.val ≤ 2 ^ 100 ∧ w.val ≤ 2 ^ 100 := by
    intro x w A hA hA' hx hw
    obtain ⟨e1, e2⟩ := abs_le.1 hx
    obtain ⟨e3, e4⟩ := abs_le.1 hw
    have w1 : ((0.8 : ℚ) : ℝ) ≤ w.val := by push_cast; norm_num at e3 hA ⊢; linarith
    have w2 : (w.val : ℝ) ≤ ((2 : ℚ) : ℝ) := by push_cast; linarith
    have x1 : (x.val : ℝ) ≤ ((2 * 2 ^ 90 : ℚ) : ℝ) := by
      have h1' : (y.val : ℝ) ≤ 2 ^ 90 := by exact_mod_cast h1
      have : (y.val : ℝ) * A ≤ y.val * 1.1 := mul_le_mul_of_nonneg_left hA' r0
      push_cast; norm_num at h1' ⊢; linarith
    have w1' : 0.8 ≤ w.val := by exact_mod_cast w1
    have w2' : w.val ≤ 2 := by exact_mod_cast w2
    have x1' : x.val ≤ 2 * 2 ^ 90 := by exact_mod_cast x1
    refine ⟨by linarith, ?_, w2'.trans (by norm_num)⟩
    rw [div_le_iff₀ (by linarith)]
    have : (2 : ℚ) ^ 100 * 0.8 ≤ 2 ^ 100 * w.val := mul_le_mul_of_nonneg_left w1' (by norm_num)
    norm_num at this x1' ⊢
    linarith
  obtain ⟨wa1, wa2, wa3⟩ := big (by linarith) (by linarith) ea wa
  obtain ⟨wb1, wb2, wb3⟩ := big (by norm_num) (by norm_num) eb wb
  obtain ⟨wc1, wc2, wc3⟩ := big (by linarith) (by linarith) ec wc
  have ok : LabOK (s.gamut.toXYZ ⟨y, y, y⟩) s.gamut.primaryWhite := by
    intro p hp
    simp only [List.mem_cons, List.not_mem_nil, or_false] at hp
    rcases hp with rfl | rfl | rfl
    · exact ⟨fa, ga, pa, wa1, wa2, wa3⟩
    · exact ⟨fb, gb, pb, wb1, wb2, wb3⟩
    · exact ⟨fc, gc, pc, wc1, wc2, wc3⟩
  obtain ⟨L, A, B⟩ := C92_encode o ho _ _ ok
  have m0 : 0 ≤ min (y.val : ℝ) 1 := le_min r0 zero_le_one
  have la := labF_close (rel_range pa wa1).1 m0 ra
  have lb := labF_close (rel_range pb wb1).1 m0 rb
  have lc := labF_close (rel_range pc wc1).1 m0 rc
  obtain ⟨a3, a4⟩ := abs_le.1 la
  obtain ⟨b3, b4⟩ := abs_le.1 lb
  obtain ⟨c3, c4⟩ := abs_le.1 lc
  obtain ⟨L1, L2⟩ := abs_le.1 L.err
  obtain ⟨A1, A2⟩ := abs_le.1 A.err
  obtain ⟨B1, B2⟩ := abs_le.1 B.err
  refine ⟨⟨L.fin, abs_le.2 ⟨?_, ?_⟩⟩, ⟨A.fin, abs_le.2 ⟨?_, ?_⟩⟩, ⟨B.fin, abs_le.2 ⟨?_, ?_⟩⟩⟩ <;>
  · show _ ≤ _
    linarith

/-! ## OKLAB -/

/-- C116: in the header's OKLAB the greys of the spaces with white D65 are not neutral: with `r` the cube root of the value,
the second component is above `0.05 r` and the third below `-0.015 r`. -/
theorem C116_oklab (o : F32.Oracle) (ho : o.CbrtAccurate (2 ^ (-22 : ℤ))) (s : RGBSpace) (hs : s.published.white = d65) (y : F32)
    (hy : y.isFinite = true) (h0 : 1 / 2 ^ 50 ≤ y.val) (h1 : y.val ≤ 2 ^ 50) (r : ℝ) (hr : r ^ 3 = y.val) :
    letI := F32.libm o
    let c := XYZ_to_OKLAB (s.gamut.toXYZ ⟨y, y, y⟩)
    0.05 * r ≤ c.b.val ∧ (c.c.val : ℝ) ≤ -0.015 * r := by
  intro c
  have y0 : 0 < y.val := lt_of_lt_of_le (by positivity) h0
  obtain ⟨⟨fa, fb, fc⟩, ea, eb, ec⟩ := C116_xyz s y hy (by rw [abs_of_pos y0]; exact h1.trans (by norm_num))
  rw [abs_of_pos y0] at ea eb ec
  have wA : s.whiteXYZ.a = 3127 / 3290 := by unfold RGBSpace.whiteXYZ; rw [hs]; norm_num [d65]
  have wC : s.whiteXYZ.c = 3583 / 3290 := by unfold RGBSpace.whiteXYZ; rw [hs]; norm_num [d65]
  rw [wA] at ea
  rw [wC] at ec
  have y0' : (0 : ℝ) < y.val := by exact_mod_cast y0
  have h0' : (1 / 2 ^ 50 : ℝ) ≤ y.val := by have := (Rat.cast_le (K := ℝ)).2 h0; push_cast at this; exact this
  have ty : (((6e-7 * y.val + 1 / 2 ^ 140 : ℚ)) : ℝ) ≤ 1e-6 * y.val := by
    push_cast
    have : (1 / 2 ^ 140 : ℝ) ≤ 1e-9 * (1 / 2 ^ 50) := by norm_num
    norm_num at this h0' ⊢
    linarith
  replace ea : |((s.gamut.toXYZ ⟨y, y, y⟩).a.val : ℝ) - y.val * (3127 / 3290)| ≤ 1e-6 * y.val := ea.trans ty
  replace eb : |((s.gamut.toXYZ ⟨y, y, y⟩).b.val : ℝ) - y.val| ≤ 1e-6 * y.val := eb.trans ty
  replace ec : |((s.gamut.toXYZ ⟨y, y, y⟩).c.val : ℝ) - y.val * (3583 / 3290)| ≤ 1e-6 * y.val := ec.trans ty
  have r0 : 0 < r := by
    by_contra hh
    push Not at hh
    have := Odd.pow_nonpos (by decide : Odd 3) hh
    linarith
  have wi : Within (s.gamut.toXYZ ⟨y, y, y⟩) (1.1 * y.val) := by
    have b : ∀ {x : F32} {A : ℝ}, 0 ≤ A → A ≤ 1.0999 → |(x.val : ℝ) - y.val * A| ≤ 1e-6 * y.val → |x.val| ≤ 1.1 * y.val := by
      intro x A hA hA' hx
      obtain ⟨e1, e2⟩ := abs_le.1 hx
      have m1 : (y.val : ℝ) * A ≤ y.val * 1.0999 := mul_le_mul_of_nonneg_left hA' y0'.le
      have m2 : 0 ≤ (y.val : ℝ) * A := mul_nonneg y0'.le hA
      have : ((|x.val| : ℚ) : ℝ) ≤ ((1.1 * y.val : ℚ) : ℝ) := by
        push_cast
        rw [abs_le]; norm_num at e1 e2 m1 ⊢; constructor <;> linarith
      exact_mod_cast this
    exact ⟨⟨fa, b (by norm_num) (by norm_num) ea⟩, ⟨fb, b (A := 1) (by norm_num) (by norm_num) (by rw [mul_one]; exact eb)⟩,
      fc, b (by norm_num) (by norm_num) ec⟩
  obtain ⟨S, hS⟩ := exists_root ((1.1 * y.val : ℚ) : ℝ)
  obtain ⟨u, hu⟩ := exists_roots (oklabHeader1.mulVec ![((s.gamut.toXYZ ⟨y, y, y⟩).a.val : ℝ), (s.gamut.toXYZ ⟨y, y, y⟩).b.val,
    (s.gamut.toXYZ ⟨y, y, y⟩).c.val])
  have hS' : S ^ 3 = 1.1 * y.val := by rw [hS]; push_cast; norm_num
  have ⟨S1, S2⟩ := root_between (lo := r) (hi := 1.04 * r) hS' (by rw [hr]; linarith) (by rw [mul_pow, hr]; norm_num; linarith)
  have k0 := hu 0
  have k1 := hu 1
  have k2 := hu 2
  simp [Matrix.mulVec, dotProduct, Fin.sum_univ_three, oklabHeader1] at k0 k1 k2
  obtain ⟨e1, e2⟩ := abs_le.1 ea
  obtain ⟨e3, e4⟩ := abs_le.1 eb
  obtain ⟨e5, e6⟩ := abs_le.1 ec
  have acc := C97_accurate o ho (s.gamut.toXYZ ⟨y, y, y⟩) (1.1 * y.val) S 0.8
    (by linarith) (by
      have : (1.1 : ℚ) * 2 ^ 50 ≤ 2 ^ 60 := by norm_num
      linarith) wi (by linarith) hS (by norm_num) (by norm_num) u hu (by
      intro i
      rw [hS', ← hu i]
      fin_cases i
      · show _ ≤ u 0 ^ 3
        rw [k0]; linarith
      · show _ ≤ u 1 ^ 3
        rw [k1]; linarith
      · show _ ≤ u 2 ^ 3
        rw [k2]; linarith)
  have ⟨u0l, u0h⟩ := root_between (lo := 0.9999 * r) (hi := 1 * r) k0 (by rw [mul_pow, hr]; norm_num; linarith) (by rw [mul_pow, hr]; norm_num; linarith)
  have ⟨u1l, u1h⟩ := root_between (lo := 0.9786 * r) (hi := 0.9787 * r) k1 (by rw [mul_pow, hr]; norm_num; linarith) (by rw [mul_pow, hr]; norm_num; linarith)
  have ⟨u2l, u2h⟩ := root_between (lo := 1.0001 * r) (hi := 1.0002 * r) k2 (by rw [mul_pow, hr]; norm_num; linarith) (by rw [mul_pow, hr]; norm_num; linarith)
  obtain ⟨-, B, C⟩ := acc
  simp [Matrix.mulVec, dotProduct, Fin.sum_univ_three, oklab2] at B C
  obtain ⟨B1, B2⟩ := abs_le.1 B
  obtain ⟨C1, C2⟩ := abs_le.1 C
  constructor
  · show _ ≤ ((@XYZ_to_OKLAB F32 (F32.libm o) (s.gamut.toXYZ ⟨y, y, y⟩)).b.val : ℝ)
    norm_num at B1 ⊢
    linarith
  · show ((@XYZ_to_OKLAB F32 (F32.libm o) (s.gamut.toXYZ ⟨y, y, y⟩)).c.val : ℝ) ≤ _
    norm_num at C2 ⊢
    linarith

/-- Every non-zero code of a grey scale of up to 16 bits is in the ranges of the theorems; the spaces with white D65 are five. -/
example : (1 / 2 ^ 24 ≤ (Arith.lit 0.5 : F32).val ∧ (Arith.lit 0.5 : F32).isFinite = true ∧ (Arith.lit 0.5 : F32).val ≤ 2 ^ 50) ∧
    RGBSpace.rec709.published.white = d65 ∧ RGBSpace.rec2020.published.white = d65 ∧ RGBSpace.adobe.published.white = d65 ∧
    RGBSpace.acesCg.published.white = RGBSpace.aces2065.published.white ∧ (∃ r : ℝ, r ^ 3 = (Arith.lit 0.5 : F32).val) ∧
    ∃ o : F32.Oracle, o.PowAccurate (2 ^ (-22 : ℤ)) ∧ o.CbrtAccurate (2 ^ (-22 : ℤ)) := by
  obtain ⟨o, p, -, -, -, -, h⟩ := exists_accurate
  refine ⟨by decide +kernel, rfl, rfl, rfl, rfl, exists_root _,
    o, fun x y a b c d e => ?_, fun x hx r hr => ⟨(h x hx r hr).1, (h x hx r hr).2.trans ?_⟩⟩
  · obtain ⟨f, g⟩ := p x y a b c d e
    refine ⟨f, g.trans ?_⟩
    have : (0 : ℝ) < (x.val : ℝ) ^ (y.val : ℝ) := lt_of_lt_of_le (by positivity) d
    gcongr <;> norm_num
  · gcongr <;> norm_num

end CS
