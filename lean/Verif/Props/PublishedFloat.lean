import Verif.Props.Published
import Verif.Lemmas.GamutValues

/-!
# C99: the predefined RGB spaces in binary32 against their published definitions

The matrices the header computes in binary32 and the exact ones are both evaluated by the kernel
(`Lemmas/GamutValues.lean`); the theorems are about every colour.
-/

namespace CS
open F32 B32 Spec

attribute [local instance] ratArith

/-- What the standard says. -/
noncomputable def RGBSpace.published : RGBSpace → ColourSpace
  | adobe => adobeRGB
  | rec709 => bt709Primaries
  | rec2020 => bt2020Primaries
  | dciP3 => Spec.dciP3
  | sGamut => Spec.sGamut
  | sGamut3Cine => Spec.sGamut3Cine
  | acesCg => ap1
  | aces2065 => ap0

theorem RGBSpace.realises (s : RGBSpace) : Realises s.rat.toReal s.published := by
  obtain ⟨h1, h2, h3, h4, h5, h6, h7, h8⟩ := C65_published
  cases s
  · exact toReal_AdobeRGB ▸ h1
  · exact toReal_Rec709 ▸ h2
  · exact toReal_Rec2020 ▸ h3
  · exact toReal_DCI_P3 ▸ h4
  · exact toReal_S_Gamut ▸ h5
  · exact toReal_S_Gamut3_Cine ▸ h6
  · exact toReal_ACEScg ▸ h7
  · exact toReal_ACES2065 ▸ h8

theorem RGBSpace.determined (s : RGBSpace) {G : Gamut ℝ} (hG : Realises G s.published) (c : Tristimulus ℝ) :
    G.toXYZ c = s.rat.toReal.toXYZ c := by
  refine C65_determined G _ s.published ?_ ?_ hG s.realises c
  · cases s
    · exact good_AdobeRGB.indep
    · exact good_Rec709.indep
    · exact good_Rec2020.indep
    · exact good_DCI_P3.indep
    · exact good_S_Gamut.indep
    · exact good_S_Gamut3_Cine.indep
    · exact good_ACEScg.indep
    · exact good_ACES2065.indep
  · cases s <;> norm_num [RGBSpace.published, adobeRGB, bt709Primaries, bt2020Primaries, Spec.dciP3, Spec.sGamut,
      Spec.sGamut3Cine, ap1, ap0, d65, acesWhite]

theorem RGBSpace.left_inv (s : RGBSpace) (c : Tristimulus ℝ) : s.rat.toReal.fromXYZ (s.rat.toReal.toXYZ c) = c := by
  refine (C08_roundtrip s.rat.toReal ?_ c).1
  cases s <;> simp only [RGBSpace.rat, toReal_AdobeRGB, toReal_Rec709, toReal_Rec2020, toReal_DCI_P3, toReal_S_Gamut,
    toReal_S_Gamut3_Cine, toReal_ACEScg, toReal_ACES2065] <;> simp [allGamuts]

/-- C99: in binary32, the XYZ value of a colour in a predefined RGB space is within 6e-7 (of the largest component)
of the one fixed by the published primaries and white. -/
theorem C99_toXYZ (s : RGBSpace) (G : Gamut ℝ) (hG : Realises G s.published) (t : Tristimulus F32) (C : ℚ)
    (hC : C ≤ 2 ^ 100) (ht : Within t C) :
    NearReal (s.gamut.toXYZ t) (G.toXYZ t.real) (6e-7 * C + 1 / 2 ^ 140) := by
  rw [s.determined hG]
  have h := List.all_eq_true.1 to_close s s.mem_all
  rw [Bool.and_eq_true] at h
  exact (close_of_check s.spec.1 s.spec.2.2.1 h.1).error hC t ht

/-- C99: the components of an XYZ colour in a predefined RGB space are within 1.9e-6 of the published ones, that is of
the `c` whose published XYZ value is the given colour. -/
theorem C99_fromXYZ (s : RGBSpace) (G : Gamut ℝ) (hG : Realises G s.published) (t : Tristimulus F32) (C : ℚ)
    (hC : C ≤ 2 ^ 100) (ht : Within t C) (c : Tristimulus ℝ) (hc : G.toXYZ c = t.real) :
    NearReal (s.gamut.fromXYZ t) c (1.9e-6 * C + 1 / 2 ^ 140) := by
  have h := List.all_eq_true.1 to_close s s.mem_all
  rw [Bool.and_eq_true] at h
  rw [← s.left_inv c, ← s.determined hG, hc]
  exact (close_of_check s.spec.2.1 s.spec.2.2.2 h.2).error hC t ht

/-- C99: the conversion matrix between two of the spaces, in binary32, gives the components of the same colour in the
other space, within 3.2e-6. -/
theorem C99_convert (s d : RGBSpace) (G H : Gamut ℝ) (hG : Realises G s.published) (hH : Realises H d.published)
    (t : Tristimulus F32) (C : ℚ) (hC : C ≤ 2 ^ 100) (ht : Within t C) (c : Tristimulus ℝ)
    (hc : H.toXYZ c = G.toXYZ t.real) :
    NearReal (t.apply (GamutConvert s.gamut d.gamut)) c (3.2e-6 * C + 1 / 2 ^ 140) := by
  have h := List.all_eq_true.1 (List.all_eq_true.1 convert_close s s.mem_all) d d.mem_all
  have := (close_of_mulCheck d.spec.2.1 d.spec.2.2.2 s.spec.1 s.spec.2.2.1 h).error hC t ht
  rw [toReal_GamutConvert] at this
  rw [← d.left_inv c, ← d.determined hH, hc, s.determined hG]
  have e : t.real.apply (GamutConvert s.rat.toReal d.rat.toReal) =
      d.rat.toReal.fromXYZ (s.rat.toReal.toXYZ t.real) := congrArg Tristimulus.ofVec3 (Matrix3.apply_mul _ _ _)
  rw [e] at this
  exact this

/-- Each published space is realised (by the exact reading of the header), so the theorems above apply; every XYZ colour has
components in it. -/
example (s : RGBSpace) : ∃ G : Gamut ℝ, Realises G s.published ∧ ∀ x : Tristimulus ℝ, ∃ c, G.toXYZ c = x := by
  refine ⟨s.rat.toReal, s.realises, fun x => ⟨s.rat.toReal.fromXYZ x, (C08_roundtrip s.rat.toReal ?_ x).2⟩⟩
  cases s <;> simp only [RGBSpace.rat, toReal_AdobeRGB, toReal_Rec709, toReal_Rec2020, toReal_DCI_P3, toReal_S_Gamut,
    toReal_S_Gamut3_Cine, toReal_ACEScg, toReal_ACES2065] <;> simp [allGamuts]

/-! ### Chromatic adaptation -/

theorem adapt_close (s d : Illuminant) :
    Close (Bradford s.white d.white) (@Bradford ℚ ratArith s.white d.white) 6e-6 := by
  have hl := lms_ok
  simp only [Bool.and_eq_true, decide_eq_true_eq] at hl
  obtain ⟨⟨⟨st, sf⟩, vt⟩, vf⟩ := hl
  have hs := List.all_eq_true.1 cone_ok s s.mem_all
  have hd := List.all_eq_true.1 cone_ok d d.mem_all
  simp only [Bool.and_eq_true, decide_eq_true_eq] at hs hd
  obtain ⟨⟨⟨s1, s2⟩, s3⟩, vs⟩ := hs
  obtain ⟨⟨⟨d1, d2⟩, d3⟩, vd⟩ := hd
  have h := List.all_eq_true.1 (List.all_eq_true.1 adapt_ok s s.mem_all) d d.mem_all
  rw [← vs, ← vd] at h
  simp only [adaptCheck, Bool.and_eq_true, decide_eq_true_eq] at h
  obtain ⟨⟨⟨⟨⟨⟨⟨⟨a1, a2⟩, a3⟩, r1⟩, r2⟩, r3⟩, c1⟩, c2⟩, c3⟩ := h
  rw [← vt, ← vf] at c1 c2 c3
  obtain ⟨B0, R0⟩ := div_bd s1 d1 rfl rfl a1 (r1.trans (by norm_num))
  obtain ⟨B1, R1⟩ := div_bd s2 d2 rfl rfl a2 (r2.trans (by norm_num))
  obtain ⟨B2, R2⟩ := div_bd s3 d3 rfl rfl a3 (r3.trans (by norm_num))
  have t1 : ∀ i, |(valLMS.get i)| ≤ 1 := by decide +kernel
  rw [← vt] at t1
  have g : ∀ {x y : ℚ}, |x| ≤ 1 → |y| ≤ 6 → |x * y| ≤ 7 := fun hx hy => by
    rw [abs_mul]
    exact (mul_le_mul hx hy (abs_nonneg _) (by norm_num)).trans (by norm_num)
  obtain ⟨⟨t0, t1', t2⟩, ⟨t3, t4, t5⟩, t6, t7, t8⟩ := small_bd st
  exact ⟨rowClose_of_scaleCheck (scaled0 t0 t1' t2 B0 R0 (g (t1 0) r1)) (scaled1 t0 t1' t2 B1 R1 (g (t1 1) r2))
      (scaled2 t0 t1' t2 B2 R2 (g (t1 2) r3)) sf c1,
    rowClose_of_scaleCheck (scaled0 t3 t4 t5 B0 R0 (g (t1 3) r1)) (scaled1 t3 t4 t5 B1 R1 (g (t1 4) r2))
      (scaled2 t3 t4 t5 B2 R2 (g (t1 5) r3)) sf c2,
    rowClose_of_scaleCheck (scaled0 t6 t7 t8 B0 R0 (g (t1 6) r1)) (scaled1 t6 t7 t8 B1 R1 (g (t1 7) r2))
      (scaled2 t6 t7 t8 B2 R2 (g (t1 8) r3)) sf c3⟩

/-- C99: chromatic adaptation between any two of the header's illuminants, in binary32, is within 6e-6 of exact
Bradford adaptation (which C07 describes). -/
theorem C99_bradford (s d : Illuminant) (t : Tristimulus F32) (C : ℚ) (hC : C ≤ 2 ^ 100) (ht : Within t C) :
    NearReal (t.apply (Bradford s.white d.white)) (t.real.apply (Bradford s.white d.white))
      (6e-6 * C + 1 / 2 ^ 140) := by
  have := (adapt_close s d).error hC t ht
  rwa [toReal_Bradford, s.toReal_white, d.toReal_white] at this

end CS
