import Verif.Props.Gamut

/-!
# C65, C66: the predefined gamuts and illuminants against their published definitions  (exact arithmetic)
-/

namespace CS
open Matrix Spec

/-- Published chromaticities of an RGB colour space. -/
structure Spec.ColourSpace where
  name : String
  red : ℝ × ℝ
  green : ℝ × ℝ
  blue : ℝ × ℝ
  white : ℝ × ℝ

/-- CIE D65, as rounded in ITU-R BT.709. -/
noncomputable def Spec.d65 : ℝ × ℝ := (0.3127, 0.3290)
/-- The ACES white point (SMPTE ST 2065-1). -/
noncomputable def Spec.acesWhite : ℝ × ℝ := (0.32168, 0.33767)

/-- Adobe RGB (1998). -/
noncomputable def Spec.adobeRGB : ColourSpace := ⟨"AdobeRGB", (0.64, 0.33), (0.21, 0.71), (0.15, 0.06), d65⟩
/-- ITU-R BT.709. -/
noncomputable def Spec.bt709Primaries : ColourSpace := ⟨"Rec.709", (0.64, 0.33), (0.30, 0.60), (0.15, 0.06), d65⟩
/-- ITU-R BT.2020. -/
noncomputable def Spec.bt2020Primaries : ColourSpace :=
  ⟨"Rec.2020", (0.708, 0.292), (0.17, 0.797), (0.131, 0.046), d65⟩
/-- SMPTE RP 431-2 (theatrical white). -/
noncomputable def Spec.dciP3 : ColourSpace := ⟨"DCI P3", (0.68, 0.32), (0.265, 0.69), (0.15, 0.06), (0.314, 0.351)⟩
/-- Sony S-Gamut. -/
noncomputable def Spec.sGamut : ColourSpace := ⟨"S-Gamut", (0.73, 0.28), (0.14, 0.855), (0.10, -0.05), d65⟩
/-- Sony S-Gamut3.Cine. -/
noncomputable def Spec.sGamut3Cine : ColourSpace :=
  ⟨"S-Gamut3.Cine", (0.766, 0.275), (0.225, 0.800), (0.089, -0.087), d65⟩
/-- ACES AP1 (S-2014-004). -/
noncomputable def Spec.ap1 : ColourSpace := ⟨"ACES cg", (0.713, 0.293), (0.165, 0.830), (0.128, 0.044), acesWhite⟩
/-- ACES AP0 (SMPTE ST 2065-1). -/
noncomputable def Spec.ap0 : ColourSpace :=
  ⟨"ACES 2065", (0.73470, 0.26530), (0, 1), (0.0001, -0.077), acesWhite⟩

/-- `g` realises the colour space: pure red, green and blue have the published chromaticities, and full
equal drive is the published white at luminance 1. -/
def Spec.Realises (g : Gamut ℝ) (s : ColourSpace) : Prop :=
  g.name_ = s.name ∧
  HasChroma (g.toXYZ ⟨1, 0, 0⟩) s.red.1 s.red.2 ∧ HasChroma (g.toXYZ ⟨0, 1, 0⟩) s.green.1 s.green.2 ∧
  HasChroma (g.toXYZ ⟨0, 0, 1⟩) s.blue.1 s.blue.2 ∧ HasChroma (g.toXYZ ⟨1, 1, 1⟩) s.white.1 s.white.2 ∧
  (g.toXYZ ⟨1, 1, 1⟩).b = 1

theorem realises {n : String} {xR yR xG yG xB yB xW yW : ℝ} (h : GoodPrimaries xR yR xG yG xB yB xW yW) :
    Realises (.ofPrimaries n xR yR xG yG xB yB xW yW) ⟨n, (xR, yR), (xG, yG), (xB, yB), (xW, yW)⟩ := by
  obtain ⟨h1, h2, h3, -, -, -⟩ := C05_primaries n _ _ _ _ _ _ _ _ h
  have hw := (C05_white n _ _ _ _ _ _ _ _ h).1
  have hy : yW ≠ 0 := by have := h.white; rintro rfl; norm_num at this
  have w0 := congrFun hw 0
  have w1 := congrFun hw 1
  have w2 := congrFun hw 2
  simp only [triV, whiteXYZ, cons_val_zero, cons_val_one, cons_val_two, head_cons, tail_cons] at w0 w1 w2
  have hs : xW / yW + 1 + (1 - xW - yW) / yW = 1 / yW := by field_simp; ring
  refine ⟨rfl, h1, h2, h3, ?_, w1⟩
  simp only [HasChroma]
  rw [w0, w1, w2, hs]
  exact ⟨one_div_ne_zero hy, by ring, by field_simp⟩

/-- C65: each predefined RGB gamut realises the colour space it is named after. -/
theorem C65_published :
    Realises AdobeRGB adobeRGB ∧ Realises Rec709 bt709Primaries ∧ Realises Rec2020 bt2020Primaries ∧ Realises DCI_P3 dciP3 ∧
    Realises S_Gamut sGamut ∧ Realises S_Gamut3_Cine sGamut3Cine ∧ Realises ACEScg ap1 ∧ Realises ACES2065 ap0 :=
  ⟨by rw [AdobeRGB_eq]; exact realises good_AdobeRGB, by rw [Rec709_eq]; exact realises good_Rec709,
   by rw [Rec2020_eq]; exact realises good_Rec2020, by rw [DCI_P3_eq]; exact realises good_DCI_P3,
   by rw [S_Gamut_eq]; exact realises good_S_Gamut, by rw [S_Gamut3_Cine_eq]; exact realises good_S_Gamut3_Cine,
   by rw [ACEScg_eq]; exact realises good_ACEScg, by rw [ACES2065_eq]; exact realises good_ACES2065⟩

/-- C65: every colour in such a gamut is the published mixture: the tristimulus value of `(r, g, b)` is the
sum of the three primaries' contributions, so it is fixed by the published numbers alone. -/
theorem C65_determined (g g' : Gamut ℝ) (s : ColourSpace)
    (hs : (primaries s.red.1 s.red.2 s.green.1 s.green.2 s.blue.1 s.blue.2).det ≠ 0) (hy : s.white.2 ≠ 0)
    (h : Realises g s) (h' : Realises g' s) (c : Tristimulus ℝ) : g.toXYZ c = g'.toXYZ c := by
  have key : ∀ g : Gamut ℝ, Realises g s → ∃ w : Fin 3 → ℝ,
      primaries s.red.1 s.red.2 s.green.1 s.green.2 s.blue.1 s.blue.2 *ᵥ w = whiteXYZ s.white.1 s.white.2 ∧
      ∀ c, triV (g.toXYZ c) =
        primaries s.red.1 s.red.2 s.green.1 s.green.2 s.blue.1 s.blue.2 *ᵥ ![w 0 * c.a, w 1 * c.b, w 2 * c.c] := by
    rintro g ⟨-, ⟨-, r1, r2⟩, ⟨-, g1, g2⟩, ⟨-, b1, b2⟩, ⟨-, w1, w2⟩, wy⟩
    have hap : ∀ c, g.toXYZ c = ⟨g.toXYZ_.m0 * c.a + g.toXYZ_.m1 * c.b + g.toXYZ_.m2 * c.c,
        g.toXYZ_.m3 * c.a + g.toXYZ_.m4 * c.b + g.toXYZ_.m5 * c.c,
        g.toXYZ_.m6 * c.a + g.toXYZ_.m7 * c.b + g.toXYZ_.m8 * c.c⟩ := fun c => by
      simp [Gamut.toXYZ, Tristimulus.ofVec3, Tristimulus.vec3, Matrix3.apply]
    simp only [hap, mul_one, mul_zero, add_zero, zero_add] at r1 r2 g1 g2 b1 b2 w1 w2 wy
    set m := g.toXYZ_
    have W : ∀ c, triV (g.toXYZ c) = primaries s.red.1 s.red.2 s.green.1 s.green.2 s.blue.1 s.blue.2 *ᵥ
        ![(m.m0 + m.m3 + m.m6) * c.a, (m.m1 + m.m4 + m.m7) * c.b, (m.m2 + m.m5 + m.m8) * c.c] := by
      intro c
      ext i
      fin_cases i <;>
        simp [triV, hap, primaries, mulVec, vecHead,
          dotProduct, Fin.sum_univ_three]
      · linear_combination c.a * r1 + c.b * g1 + c.c * b1
      · linear_combination c.a * r2 + c.b * g2 + c.c * b2
      · linear_combination -c.a * r1 - c.b * g1 - c.c * b1 - c.a * r2 - c.b * g2 - c.c * b2
    refine ⟨![m.m0 + m.m3 + m.m6, m.m1 + m.m4 + m.m7, m.m2 + m.m5 + m.m8], ?_, fun c => by simpa using W c⟩
    have := W ⟨1, 1, 1⟩
    simp only [mul_one] at this
    rw [← this]
    have hs : s.white.2 * (m.m0 + m.m1 + m.m2 + (m.m3 + m.m4 + m.m5) + (m.m6 + m.m7 + m.m8)) = 1 := by
      rw [← w2]; exact wy
    ext i
    fin_cases i <;>
      simp [triV, hap, whiteXYZ]
    · rw [eq_div_iff hy]; linear_combination s.white.2 * w1 + s.white.1 * hs
    · exact wy
    · rw [eq_div_iff hy]; linear_combination -s.white.2 * w1 - s.white.1 * hs + hs - s.white.2 * wy
  obtain ⟨w, e, f⟩ := key g h
  obtain ⟨w', e', f'⟩ := key g' h'
  have hu : IsUnit (primaries s.red.1 s.red.2 s.green.1 s.green.2 s.blue.1 s.blue.2).det := isUnit_iff_ne_zero.mpr hs
  have : w = w' := by
    have := congrArg ((primaries s.red.1 s.red.2 s.green.1 s.green.2 s.blue.1 s.blue.2)⁻¹ *ᵥ ·) (e.trans e'.symm)
    simpa [Matrix.mulVec_mulVec, Matrix.nonsing_inv_mul _ hu] using this
  subst this
  have := (f c).trans (f' c).symm
  have h0 := congrFun this 0
  have h1 := congrFun this 1
  have h2 := congrFun this 2
  simp [triV] at h0 h1 h2
  exact Tristimulus.ext h0 h1 h2

/-- The hypotheses of `C65_determined` hold for BT.709. -/
example : (primaries bt709Primaries.red.1 bt709Primaries.red.2 bt709Primaries.green.1 bt709Primaries.green.2 bt709Primaries.blue.1 bt709Primaries.blue.2).det ≠ 0 ∧
    bt709Primaries.white.2 ≠ 0 ∧ Realises Rec709 bt709Primaries :=
  ⟨good_Rec709.indep, by norm_num [bt709Primaries, d65], C65_published.2.1⟩

/-! ## C66: the illuminant constants -/

/-- The constant has luminance 1 and its chromaticity is within 0.0005 of the published one. -/
def Spec.NearChroma (t : Tristimulus ℝ) (x y : ℝ) : Prop :=
  t.b = 1 ∧ 0 < t.a + t.b + t.c ∧ |t.a / (t.a + t.b + t.c) - x| ≤ 0.0005 ∧
    |t.b / (t.a + t.b + t.c) - y| ≤ 0.0005

/-- C66: apart from `Illuminant_B`, every illuminant constant has the chromaticity published by the CIE (by the
Academy for D60), 2 degree observer. -/
theorem C66_whites_partial :
    NearChroma Illuminant_A 0.44757 0.40745 ∧ NearChroma Illuminant_C 0.31006 0.31616 ∧
    NearChroma Illuminant_D50 0.34567 0.35850 ∧ NearChroma Illuminant_D55 0.33242 0.34743 ∧
    NearChroma Illuminant_D60 0.32168 0.33767 ∧ NearChroma Illuminant_D65 0.31271 0.32902 ∧
    NearChroma Illuminant_D75 0.29902 0.31485 ∧ NearChroma Illuminant_E (1 / 3) (1 / 3) ∧
    NearChroma Illuminant_F2 0.37208 0.37529 ∧ NearChroma Illuminant_F7 0.31292 0.32933 ∧
    NearChroma Illuminant_F11 0.38052 0.37713 := by
  refine ⟨?_, ?_, ?_, ?_, ?_, ?_, ?_, ?_, ?_, ?_, ?_⟩ <;>
    simp only [NearChroma, Illuminant_A, Illuminant_C, Illuminant_D50, Illuminant_D55, Illuminant_D60,
      Illuminant_D65, Illuminant_D75, Illuminant_E, Illuminant_F2, Illuminant_F7, Illuminant_F11, lit_real] <;>
    norm_num [abs_le]

/-- C66 fails for illuminant B: its constant is more than 0.15 away in `x` from the published
`(0.34842, 0.35161)`; the leading digit of `X` is wrong (`1.99072` for `0.99072`). -/
theorem C66_illuminant_B_false : ¬ NearChroma Illuminant_B 0.34842 0.35161 ∧
    0.15 < (Illuminant_B (α := ℝ)).a / ((Illuminant_B (α := ℝ)).a + (Illuminant_B (α := ℝ)).b + (Illuminant_B (α := ℝ)).c) - 0.34842 ∧
    NearChroma ⟨0.99072, 1, 0.85223⟩ 0.34842 0.35161 := by
  refine ⟨fun h => ?_, ?_, ?_⟩
  · have := (abs_le.1 h.2.2.1).2
    simp only [Illuminant_B, lit_real] at this
    norm_num at this
  · simp only [Illuminant_B, lit_real]; norm_num
  · norm_num [NearChroma, abs_le]

/-- C66: the constants agree with the whites built into the gamuts: D65 with the white of the D65 gamuts and D60
with the ACES white, to the digits given. -/
theorem C66_gamut_whites :
    NearChroma Illuminant_D65 d65.1 d65.2 ∧ NearChroma Illuminant_D60 acesWhite.1 acesWhite.2 := by
  constructor <;> simp only [NearChroma, Illuminant_D65, Illuminant_D60, d65, acesWhite, lit_real] <;>
    norm_num [abs_le]

end CS
