import Verif.Spec.Gamut
import Verif.Lemmas.Gamut

/-!
# C04 - C08: gamuts  (exact arithmetic)
-/

namespace CS
open Matrix Spec

theorem toM_primMat (xR yR xG yG xB yB : ℝ) :
    toM (Gamut.primMat xR yR xG yG xB yB) = primaries xR yR xG yG xB yB := by
  simp [toM, primaries, Gamut.primMat, Tristimulus.z_from_xy]

theorem toV_white (xW yW : ℝ) (h : 1e-8 ≤ |yW|) :
    toV (Tristimulus.fromYxy3 1 xW yW).vec3 = whiteXYZ xW yW := by
  have hy : yW ≠ 0 := by rintro rfl; norm_num at h
  rw [Tristimulus.fromYxy3_real _ _ _ h]
  simp [toV, whiteXYZ, Tristimulus.vec3]

/-- The channel weights of a good set of primaries. -/
theorem weights_ne (xR yR xG yG xB yB xW yW : ℝ) (h : GoodPrimaries xR yR xG yG xB yB xW yW) :
    let w := (Gamut.primMat xR yR xG yG xB yB).invert.apply
      (Tristimulus.fromYxy3 1 xW yW).vec3
    w.x ≠ 0 ∧ w.y ≠ 0 ∧ w.z ≠ 0 := by
  intro w
  have hd : (Gamut.primMat xR yR xG yG xB yB).det ≠ 0 := by
    rw [← toM_det, toM_primMat]; exact h.indep
  have hw : primaries xR yR xG yG xB yB *ᵥ toV w = whiteXYZ xW yW := by
    rw [← toM_primMat, ← toV_apply, ← toV_white _ _ h.white]
    simp only [w]
    rw [Matrix3.apply_invert _ hd]
  have := h.weights _ hw
  exact ⟨by simpa [toV] using this 0, by simpa [toV] using this 1, by simpa [toV] using this 2⟩

theorem good_det (xR yR xG yG xB yB xW yW : ℝ) (h : GoodPrimaries xR yR xG yG xB yB xW yW) :
    (Gamut.fromPrimaries xR yR xG yG xB yB xW yW).det ≠ 0 := by
  have hd : (Gamut.primMat xR yR xG yG xB yB).det ≠ 0 := by
    rw [← toM_det, toM_primMat]; exact h.indep
  obtain ⟨h1, h2, h3⟩ := weights_ne _ _ _ _ _ _ _ _ h
  rw [Gamut.det_fromPrimaries]
  exact mul_ne_zero hd (mul_ne_zero (mul_ne_zero h1 h2) h3)

/-! ## C04 -/

/-- C04: a gamut built from a non-degenerate `fromXYZ` matrix converts every colour to XYZ and back
(and from XYZ and back) without change. -/
theorem C04_matrix (n : String) (m : Matrix3 ℝ) (h : (toM m).det ≠ 0) (c : Tristimulus ℝ) :
    (Gamut.ofFromXYZ n m).fromXYZ ((Gamut.ofFromXYZ n m).toXYZ c) = c ∧
    (Gamut.ofFromXYZ n m).toXYZ ((Gamut.ofFromXYZ n m).fromXYZ c) = c ∧
    triV ((Gamut.ofFromXYZ n m).fromXYZ c) = toM m *ᵥ triV c := by
  rw [toM_det] at h
  have := Gamut.ofFromXYZ_consistent n m h
  exact ⟨this.from_to c, this.to_from c, toV_apply m c.vec3⟩

/-- C04: so does a gamut built from non-degenerate primaries. -/
theorem C04_primaries (n : String) (xR yR xG yG xB yB xW yW : ℝ)
    (h : GoodPrimaries xR yR xG yG xB yB xW yW) (c : Tristimulus ℝ) :
    let g := Gamut.ofPrimaries n xR yR xG yG xB yB xW yW
    g.fromXYZ (g.toXYZ c) = c ∧ g.toXYZ (g.fromXYZ c) = c := by
  have := Gamut.ofPrimaries_consistent n _ _ _ _ _ _ _ _ (good_det _ _ _ _ _ _ _ _ h)
  exact ⟨this.from_to c, this.to_from c⟩

/-! ## C05 -/

/-- C05: equal RGB is the requested white at luminance 1. -/
theorem C05_white (n : String) (xR yR xG yG xB yB xW yW : ℝ)
    (h : GoodPrimaries xR yR xG yG xB yB xW yW) :
    let g := Gamut.ofPrimaries n xR yR xG yG xB yB xW yW
    triV (g.toXYZ ⟨1, 1, 1⟩) = whiteXYZ xW yW ∧ triV g.primaryWhite = whiteXYZ xW yW := by
  intro g
  have hd : (Gamut.primMat xR yR xG yG xB yB).det ≠ 0 := by
    rw [← toM_det, toM_primMat]; exact h.indep
  obtain ⟨w1, w2, w3⟩ := weights_ne _ _ _ _ _ _ _ _ h
  have key : triV (g.toXYZ ⟨1, 1, 1⟩) = whiteXYZ xW yW := by
    rw [← toV_white _ _ h.white]
    have : (Gamut.diag ((Gamut.primMat xR yR xG yG xB yB).invert.apply
        (Tristimulus.fromYxy3 1 xW yW).vec3)).apply ⟨1, 1, 1⟩ =
        (Gamut.primMat xR yR xG yG xB yB).invert.apply (Tristimulus.fromYxy3 1 xW yW).vec3 := by
      simp [Gamut.diag, Matrix3.apply]
    simp only [g, Gamut.ofPrimaries, Gamut.toXYZ, triV_ofVec3, Tristimulus.vec3]
    simp only [Gamut.fromPrimaries, Gamut.mulDiag, Matrix3.apply_mul]
    congr 1
    simp only [lit_real, Rat.cast_one]
    rw [this, Matrix3.apply_invert _ hd]
    rfl
  refine ⟨key, ?_⟩
  rw [← key]
  congr 1
  simp only [Gamut.primaryWhite, Gamut.toXYZ]
  congr 1
  -- the column sums of `toXYZ_` are the weights
  have hcol : g.primaryVector = (Gamut.primMat xR yR xG yG xB yB).invert.apply
        (Tristimulus.fromYxy3 1 xW yW).vec3 := by
    simp only [g, Gamut.ofPrimaries, Gamut.primaryVector, Gamut.fromPrimaries, Gamut.mulDiag,
      lit_real, Rat.cast_one]
    generalize (Gamut.primMat xR yR xG yG xB yB).invert.apply _ = w
    ext <;> simp [Gamut.primMat, Gamut.diag, Matrix3.mul, Tristimulus.z_from_xy] <;> ring
  have h1 : g.primaryVector.x ≠ 0 := by rw [hcol]; exact w1
  have h2 : g.primaryVector.y ≠ 0 := by rw [hcol]; exact w2
  have h3 : g.primaryVector.z ≠ 0 := by rw [hcol]; exact w3
  ext <;> simp [Gamut.primaryMatrix, Matrix3.apply, h1, h2, h3, Tristimulus.vec3]

/-- C05: pure red, green and blue have the requested chromaticities, and `primaryRed` etc. report
`(x, y, 1-x-y)` of the request. -/
theorem C05_primaries (n : String) (xR yR xG yG xB yB xW yW : ℝ)
    (h : GoodPrimaries xR yR xG yG xB yB xW yW) :
    let g := Gamut.ofPrimaries n xR yR xG yG xB yB xW yW
    HasChroma (g.toXYZ ⟨1, 0, 0⟩) xR yR ∧ HasChroma (g.toXYZ ⟨0, 1, 0⟩) xG yG ∧
    HasChroma (g.toXYZ ⟨0, 0, 1⟩) xB yB ∧
    g.primaryRed = ⟨xR, yR, 1 - xR - yR⟩ ∧ g.primaryGreen = ⟨xG, yG, 1 - xG - yG⟩ ∧
    g.primaryBlue = ⟨xB, yB, 1 - xB - yB⟩ := by
  intro g
  obtain ⟨w1, w2, w3⟩ := weights_ne _ _ _ _ _ _ _ _ h
  have hm : g.toXYZ_ = (Gamut.primMat xR yR xG yG xB yB).mul (Gamut.diag
      ((Gamut.primMat xR yR xG yG xB yB).invert.apply (Tristimulus.fromYxy3 1 xW yW).vec3)) := by
    simp [g, Gamut.ofPrimaries, Gamut.fromPrimaries, Gamut.mulDiag]
  generalize (Gamut.primMat xR yR xG yG xB yB).invert.apply _ = w at hm w1 w2 w3
  have e : g.toXYZ_ = ⟨xR * w.x, xG * w.y, xB * w.z, yR * w.x, yG * w.y, yB * w.z,
      (1 - xR - yR) * w.x, (1 - xG - yG) * w.y, (1 - xB - yB) * w.z⟩ := by
    rw [hm]; ext <;> simp [Gamut.primMat, Gamut.diag, Matrix3.mul, Tristimulus.z_from_xy]
  have s1 : xR * w.x + yR * w.x + (1 - xR - yR) * w.x = w.x := by ring
  have s2 : xG * w.y + yG * w.y + (1 - xG - yG) * w.y = w.y := by ring
  have s3 : xB * w.z + yB * w.z + (1 - xB - yB) * w.z = w.z := by ring
  refine ⟨?_, ?_, ?_, ?_, ?_, ?_⟩
  all_goals
    simp [HasChroma, Gamut.toXYZ, Gamut.primaryRed, Gamut.primaryGreen, Gamut.primaryBlue,
      Gamut.primaryMatrix, Gamut.primaryVector, Tristimulus.ofVec3, Tristimulus.vec3, Matrix3.apply,
      e, s1, s2, s3, w1, w2, w3]

/-! ## C06 -/

/-- C06: converting RGB between gamuts keeps XYZ: the converted RGB, read in the destination gamut,
is the same XYZ as the original RGB in the source gamut. -/
theorem C06_same_xyz (src dst : Gamut ℝ) (hd : toM dst.toXYZ_ * toM dst.fromXYZ_ = 1)
    (c : Tristimulus ℝ) :
    dst.toXYZ (c.apply (GamutConvert src dst)) = src.toXYZ c := by
  have hd' : dst.toXYZ_.mul dst.fromXYZ_ = .ident := by
    apply toM_injective; rw [toM_mul, hd, toM_ident]
  simp [GamutConvert, Gamut.toXYZ, Tristimulus.apply, ← Matrix3.apply_mul, ← Matrix3.mul_assoc, hd']

/-- C06: conversion of a gamut to itself is the identity, conversions compose, and a there-and-back
conversion is the identity. -/
theorem C06_compose (a b c : Gamut ℝ) (ha : toM a.toXYZ_ * toM a.fromXYZ_ = 1)
    (hb : toM b.toXYZ_ * toM b.fromXYZ_ = 1) (t : Tristimulus ℝ) :
    toM (GamutConvert a a) = 1 ∧
    toM (GamutConvert b c) * toM (GamutConvert a b) = toM (GamutConvert a c) ∧
    toM (GamutConvert b a) * toM (GamutConvert a b) = 1 ∧
    (t.apply (GamutConvert a b)).apply (GamutConvert b c) = t.apply (GamutConvert a c) ∧
    (t.apply (GamutConvert a b)).apply (GamutConvert b a) = t := by
  have ha' : toM a.fromXYZ_ * toM a.toXYZ_ = 1 := mul_eq_one_comm.mp ha
  have comp : ∀ c : Gamut ℝ,
      toM (GamutConvert b c) * toM (GamutConvert a b) = toM (GamutConvert a c) := by
    intro c
    simp only [GamutConvert, toM_mul]
    rw [Matrix.mul_assoc, ← Matrix.mul_assoc (toM b.toXYZ_), hb, Matrix.one_mul]
  have self : toM (GamutConvert a a) = 1 := by simp only [GamutConvert, toM_mul, ha']
  have app : ∀ (m₁ m₂ : Matrix3 ℝ), triV ((t.apply m₁).apply m₂) = (toM m₂ * toM m₁) *ᵥ triV t := by
    intro m₁ m₂
    simp only [Tristimulus.apply, triV_ofVec3, toV_apply, Tristimulus.vec3_ofVec3, toV_vec3,
      Matrix.mulVec_mulVec]
  refine ⟨self, comp c, by rw [comp a, self], ?_, ?_⟩
  · apply triV_injective
    rw [app, comp c]
    simp only [Tristimulus.apply, triV_ofVec3, toV_apply, toV_vec3]
  · apply triV_injective
    rw [app, comp a, self, Matrix.one_mulVec]

/-- The hypothesis of the C06 theorems holds of every gamut the constructors build from
non-degenerate data. -/
theorem C06_constructors (n : String) (m : Matrix3 ℝ) (h : (toM m).det ≠ 0)
    (xR yR xG yG xB yB xW yW : ℝ) (hp : GoodPrimaries xR yR xG yG xB yB xW yW) :
    toM (Gamut.ofFromXYZ n m).toXYZ_ * toM (Gamut.ofFromXYZ n m).fromXYZ_ = 1 ∧
    toM (Gamut.ofPrimaries n xR yR xG yG xB yB xW yW).toXYZ_ *
      toM (Gamut.ofPrimaries n xR yR xG yG xB yB xW yW).fromXYZ_ = 1 := by
  rw [toM_det] at h
  constructor
  · rw [← toM_mul, (Gamut.ofFromXYZ_consistent n m h).1, toM_ident]
  · rw [← toM_mul, (Gamut.ofPrimaries_consistent n _ _ _ _ _ _ _ _
      (good_det _ _ _ _ _ _ _ _ hp)).1, toM_ident]

/-! ## C07 -/

/-- The cone response matrix published by Bradford (Lam 1985), as in hpp:1378. -/
noncomputable def bradfordCone : Matrix (Fin 3) (Fin 3) ℝ :=
  !![0.8951, 0.2664, -0.1614; -0.7502, 1.7135, 0.0367; 0.0389, -0.0685, 1.0296]

theorem LMS_fromXYZ : toM (LMS : Gamut ℝ).fromXYZ_ = bradfordCone := by
  simp only [LMS, Gamut.ofFromXYZ, toM, bradfordCone, lit_real]
  norm_num

theorem LMS_det : (LMS : Gamut ℝ).fromXYZ_.det ≠ 0 := by
  norm_num [LMS, Gamut.ofFromXYZ, Matrix3.det_eq]

theorem LMS_consistent : (LMS : Gamut ℝ).Consistent := Gamut.ofFromXYZ_consistent _ _ LMS_det

/-- The cone responses of a white are all non-zero. -/
def ConeOK (w : Tristimulus ℝ) : Prop := ∀ i, (bradfordCone *ᵥ triV w) i ≠ 0

theorem coneOK_iff (w : Tristimulus ℝ) (h : ConeOK w) :
    ((LMS : Gamut ℝ).fromXYZ w).a ≠ 0 ∧ ((LMS : Gamut ℝ).fromXYZ w).b ≠ 0 ∧
    ((LMS : Gamut ℝ).fromXYZ w).c ≠ 0 := by
  have e : triV ((LMS : Gamut ℝ).fromXYZ w) = bradfordCone *ᵥ triV w := by
    rw [← LMS_fromXYZ]; exact toV_apply _ _
  refine ⟨?_, ?_, ?_⟩
  · have := h 0; rw [← e] at this; simpa [triV] using this
  · have := h 1; rw [← e] at this; simpa [triV] using this
  · have := h 2; rw [← e] at this; simpa [triV] using this

/-- C07: the adaptation matrix acts as a von Kries scaling of Bradford cone responses: the cone
responses of the adapted colour are those of the colour times `dst/src`. -/
theorem C07_vonKries (s d c : Tristimulus ℝ) (_hs : ConeOK s) (i : Fin 3) :
    (bradfordCone *ᵥ triV (c.apply (Bradford s d))) i =
      (bradfordCone *ᵥ triV d) i / (bradfordCone *ᵥ triV s) i * (bradfordCone *ᵥ triV c) i := by
  have e : ∀ w, triV ((LMS : Gamut ℝ).fromXYZ w) = bradfordCone *ᵥ triV w := by
    intro w; rw [← LMS_fromXYZ]; exact toV_apply _ _
  rw [← e, ← e, ← e, ← e]
  have : (LMS : Gamut ℝ).fromXYZ (c.apply (Bradford s d)) =
      .ofVec3 ((Matrix3.diag ⟨((LMS : Gamut ℝ).fromXYZ d).a / ((LMS : Gamut ℝ).fromXYZ s).a,
        ((LMS : Gamut ℝ).fromXYZ d).b / ((LMS : Gamut ℝ).fromXYZ s).b,
        ((LMS : Gamut ℝ).fromXYZ d).c / ((LMS : Gamut ℝ).fromXYZ s).c⟩).apply
          ((LMS : Gamut ℝ).fromXYZ c).vec3) := by
    conv_lhs => simp only [Gamut.fromXYZ, Bradford, Tristimulus.apply, Tristimulus.vec3_ofVec3,
      Matrix3.apply_mul]
    rw [← Matrix3.apply_mul, LMS_consistent.2, Matrix3.ident_apply]
    rfl
  rw [this]
  fin_cases i <;> simp [triV, Tristimulus.ofVec3, Matrix3.diag, Matrix3.apply, Tristimulus.vec3]

theorem bradfordCone_injective (a b : Tristimulus ℝ)
    (h : bradfordCone *ᵥ triV a = bradfordCone *ᵥ triV b) : a = b := by
  have e : ∀ w, bradfordCone *ᵥ triV w = triV ((LMS : Gamut ℝ).fromXYZ w) := by
    intro w; rw [← LMS_fromXYZ]; exact (toV_apply _ w.vec3).symm
  rw [e, e] at h
  have := triV_injective h
  rw [← LMS_consistent.to_from a, this, LMS_consistent.to_from b]

/-- C07: the source white goes to the destination white. -/
theorem C07_white (s d : Tristimulus ℝ) (hs : ConeOK s) : s.apply (Bradford s d) = d := by
  apply bradfordCone_injective
  ext i
  rw [C07_vonKries _ _ _ hs, div_mul_cancel₀ _ (hs i)]

/-- C07: adapting to the same white changes nothing. -/
theorem C07_id (w c : Tristimulus ℝ) (hw : ConeOK w) : c.apply (Bradford w w) = c := by
  apply bradfordCone_injective
  ext i
  rw [C07_vonKries _ _ _ hw, div_self (hw i), one_mul]

/-- C07: adapting a→b and then b→c is adapting a→c. -/
theorem C07_compose (a b c t : Tristimulus ℝ) (ha : ConeOK a) (hb : ConeOK b) :
    (t.apply (Bradford a b)).apply (Bradford b c) = t.apply (Bradford a c) := by
  apply bradfordCone_injective
  ext i
  rw [C07_vonKries _ _ _ hb, C07_vonKries _ _ _ ha, C07_vonKries _ _ _ ha]
  have := hb i
  have := ha i
  field_simp

/-- C07: adapting a→b and then b→a is the identity. -/
theorem C07_inverse (a b t : Tristimulus ℝ) (ha : ConeOK a) (hb : ConeOK b) :
    (t.apply (Bradford a b)).apply (Bradford b a) = t := by
  rw [C07_compose _ _ _ _ ha hb, C07_id _ _ ha]

/-- D65 and D50 meet the hypotheses. -/
example : ConeOK Illuminant_D65 ∧ ConeOK Illuminant_D50 := by
  constructor <;>
    (intro i; fin_cases i <;>
      simp [bradfordCone, triV, Illuminant_D65, Illuminant_D50, Matrix.mulVec, dotProduct,
        Fin.sum_univ_three] <;> norm_num)

/-! ## C08 -/

/-- Solving `P w = white` for concrete primaries: it suffices to exhibit one solution. -/
theorem goodPrimaries_of {xR yR xG yG xB yB xW yW : ℝ} (hy : 1e-8 ≤ |yW|)
    (hd : (primaries xR yR xG yG xB yB).det ≠ 0) (w : Fin 3 → ℝ)
    (hw : primaries xR yR xG yG xB yB *ᵥ w = whiteXYZ xW yW) (h0 : ∀ i, w i ≠ 0) :
    GoodPrimaries xR yR xG yG xB yB xW yW := by
  refine ⟨hy, hd, fun v hv i => ?_⟩
  have : v = w := by
    have hu : IsUnit (primaries xR yR xG yG xB yB).det := isUnit_iff_ne_zero.mpr hd
    have := congrArg ((primaries xR yR xG yG xB yB)⁻¹ *ᵥ ·) (hv.trans hw.symm)
    simpa [Matrix.mulVec_mulVec, Matrix.nonsing_inv_mul _ hu] using this
  rw [this]; exact h0 i

theorem good_AdobeRGB : GoodPrimaries 0.64 0.33 0.21 0.71 0.15 0.06 0.3127 0.3290 := by
  refine goodPrimaries_of (by norm_num [abs_of_pos]) ?_ ![896150/994567, 878810/994567, 1248040/994567] ?_ ?_
  · rw [← toM_primMat, toM_det]
    norm_num [Gamut.primMat, Matrix3.det_eq, Tristimulus.z_from_xy]
  · ext i
    fin_cases i <;>
      simp [primaries, whiteXYZ, Matrix.mulVec, dotProduct, Fin.sum_univ_three] <;> norm_num
  · intro i; fin_cases i <;> simp

theorem AdobeRGB_eq : (AdobeRGB : Gamut ℝ) = .ofPrimaries "AdobeRGB" 0.64 0.33 0.21 0.71 0.15 0.06 0.3127 0.3290 := by
  simp only [AdobeRGB, lit_real]; norm_num

theorem good_Rec709 : GoodPrimaries 0.64 0.33 0.30 0.60 0.15 0.06 0.3127 0.3290 := by
  refine goodPrimaries_of (by norm_num [abs_of_pos]) ?_ ![158360/245763, 878810/737289, 126730/105327] ?_ ?_
  · rw [← toM_primMat, toM_det]
    norm_num [Gamut.primMat, Matrix3.det_eq, Tristimulus.z_from_xy]
  · ext i
    fin_cases i <;>
      simp [primaries, whiteXYZ, Matrix.mulVec, dotProduct, Fin.sum_univ_three] <;> norm_num
  · intro i; fin_cases i <;> simp

theorem Rec709_eq : (Rec709 : Gamut ℝ) = .ofPrimaries "Rec.709" 0.64 0.33 0.30 0.60 0.15 0.06 0.3127 0.3290 := by
  simp only [Rec709, lit_real]; norm_num

theorem good_Rec2020 : GoodPrimaries 0.708 0.292 0.17 0.797 0.131 0.046 0.3127 0.3290 := by
  refine goodPrimaries_of (by norm_num [abs_of_pos]) ?_ ![17917100/19915451, 118592800/139408157, 179720500/139408157] ?_ ?_
  · rw [← toM_primMat, toM_det]
    norm_num [Gamut.primMat, Matrix3.det_eq, Tristimulus.z_from_xy]
  · ext i
    fin_cases i <;>
      simp [primaries, whiteXYZ, Matrix.mulVec, dotProduct, Fin.sum_univ_three] <;> norm_num
  · intro i; fin_cases i <;> simp

theorem Rec2020_eq : (Rec2020 : Gamut ℝ) = .ofPrimaries "Rec.2020" 0.708 0.292 0.17 0.797 0.131 0.046 0.3127 0.3290 := by
  simp only [Rec2020, lit_real]; norm_num

theorem good_DCI_P3 : GoodPrimaries 0.68 0.32 0.265 0.69 0.15 0.06 0.314 0.351 := by
  refine goodPrimaries_of (by norm_num [abs_of_pos]) ?_ ![23285/35568, 55795/53352, 122555/106704] ?_ ?_
  · rw [← toM_primMat, toM_det]
    norm_num [Gamut.primMat, Matrix3.det_eq, Tristimulus.z_from_xy]
  · ext i
    fin_cases i <;>
      simp [primaries, whiteXYZ, Matrix.mulVec, dotProduct, Fin.sum_univ_three] <;> norm_num
  · intro i; fin_cases i <;> simp

theorem DCI_P3_eq : (DCI_P3 : Gamut ℝ) = .ofPrimaries "DCI P3" 0.68 0.32 0.265 0.69 0.15 0.06 0.314 0.351 := by
  simp only [DCI_P3, lit_real]; norm_num

theorem good_S_Gamut : GoodPrimaries 0.73 0.28 0.14 0.855 0.10 (-0.05) 0.3127 0.3290 := by
  refine goodPrimaries_of (by norm_num [abs_of_pos]) ?_ ![3546670/3664731, 1123860/1221577, 4220750/3664731] ?_ ?_
  · rw [← toM_primMat, toM_det]
    norm_num [Gamut.primMat, Matrix3.det_eq, Tristimulus.z_from_xy]
  · ext i
    fin_cases i <;>
      simp [primaries, whiteXYZ, Matrix.mulVec, dotProduct, Fin.sum_univ_three] <;> norm_num
  · intro i; fin_cases i <;> simp

theorem S_Gamut_eq : (S_Gamut : Gamut ℝ) = .ofPrimaries "S-Gamut" 0.73 0.28 0.14 0.855 0.10 (-0.05) 0.3127 0.3290 := by
  simp only [S_Gamut, lit_real]; norm_num

theorem good_S_Gamut3_Cine : GoodPrimaries 0.766 0.275 0.225 0.800 0.089 (-0.087) 0.3127 0.3290 := by
  refine goodPrimaries_of (by norm_num [abs_of_pos]) ?_ ![20263700/25909549, 200652600/181366843, 208768500/181366843] ?_ ?_
  · rw [← toM_primMat, toM_det]
    norm_num [Gamut.primMat, Matrix3.det_eq, Tristimulus.z_from_xy]
  · ext i
    fin_cases i <;>
      simp [primaries, whiteXYZ, Matrix.mulVec, dotProduct, Fin.sum_univ_three] <;> norm_num
  · intro i; fin_cases i <;> simp

theorem S_Gamut3_Cine_eq : (S_Gamut3_Cine : Gamut ℝ) = .ofPrimaries "S-Gamut3.Cine" 0.766 0.275 0.225 0.800 0.089 (-0.087) 0.3127 0.3290 := by
  simp only [S_Gamut3_Cine, lit_real]; norm_num

theorem good_ACEScg : GoodPrimaries 0.713 0.293 0.165 0.830 0.128 0.044 0.32168 0.33767 := by
  refine goodPrimaries_of (by norm_num [abs_of_pos]) ?_ ![4712223000/5071769633, 4119021000/5071769633, 6188656000/5071769633] ?_ ?_
  · rw [← toM_primMat, toM_det]
    norm_num [Gamut.primMat, Matrix3.det_eq, Tristimulus.z_from_xy]
  · ext i
    fin_cases i <;>
      simp [primaries, whiteXYZ, Matrix.mulVec, dotProduct, Fin.sum_univ_three] <;> norm_num
  · intro i; fin_cases i <;> simp

theorem ACEScg_eq : (ACEScg : Gamut ℝ) = .ofPrimaries "ACES cg" 0.713 0.293 0.165 0.830 0.128 0.044 0.32168 0.33767 := by
  simp only [ACEScg, lit_real]; norm_num

theorem good_ACES2065 : GoodPrimaries 0.73470 0.26530 0 1 0.0001 (-0.077) 0.32168 0.33767 := by
  refine goodPrimaries_of (by norm_num [abs_of_pos]) ?_ ![3463831270000/2671639738581, 1945397480000/2671639738581, 340650000/363636823] ?_ ?_
  · rw [← toM_primMat, toM_det]
    norm_num [Gamut.primMat, Matrix3.det_eq, Tristimulus.z_from_xy]
  · ext i
    fin_cases i <;>
      simp [primaries, whiteXYZ, Matrix.mulVec, dotProduct, Fin.sum_univ_three] <;> norm_num
  · intro i; fin_cases i <;> simp

theorem ACES2065_eq : (ACES2065 : Gamut ℝ) = .ofPrimaries "ACES 2065" 0.73470 0.26530 0 1 0.0001 (-0.077) 0.32168 0.33767 := by
  simp only [ACES2065, lit_real]; norm_num

/-- The predefined RGB gamuts with the white they are specified for. -/
noncomputable def rgbGamuts : List (Gamut ℝ × ℝ × ℝ) :=
  [(AdobeRGB, 0.3127, 0.3290), (Rec709, 0.3127, 0.3290), (Rec2020, 0.3127, 0.3290), (DCI_P3, 0.314, 0.351), (S_Gamut, 0.3127, 0.3290), (S_Gamut3_Cine, 0.3127, 0.3290), (ACEScg, 0.32168, 0.33767), (ACES2065, 0.32168, 0.33767)]

/-- All ten predefined gamuts. -/
noncomputable def allGamuts : List (Gamut ℝ) := [AdobeRGB, Rec709, Rec2020, DCI_P3, S_Gamut, S_Gamut3_Cine, ACEScg, ACES2065, LMS, XYZ]

theorem good_to_from {n : String} {xR yR xG yG xB yB xW yW : ℝ}
    (h : GoodPrimaries xR yR xG yG xB yB xW yW) :
    (Gamut.ofPrimaries n xR yR xG yG xB yB xW yW).Consistent :=
  Gamut.ofPrimaries_consistent n _ _ _ _ _ _ _ _ (good_det _ _ _ _ _ _ _ _ h)

theorem XYZ_consistent : (XYZ : Gamut ℝ).Consistent :=
  Gamut.ofFromXYZ_consistent _ _ (by norm_num [Matrix3.det_eq])

/-- C08: every predefined gamut round-trips every colour in both directions. -/
theorem C08_roundtrip (g : Gamut ℝ) (hg : g ∈ allGamuts) (c : Tristimulus ℝ) :
    g.fromXYZ (g.toXYZ c) = c ∧ g.toXYZ (g.fromXYZ c) = c := by
  have : g.Consistent := by
    simp only [allGamuts, List.mem_cons, List.not_mem_nil, or_false] at hg
    rcases hg with h | h | h | h | h | h | h | h | h | h <;> subst h
    · rw [AdobeRGB_eq]; exact good_to_from good_AdobeRGB
    · rw [Rec709_eq]; exact good_to_from good_Rec709
    · rw [Rec2020_eq]; exact good_to_from good_Rec2020
    · rw [DCI_P3_eq]; exact good_to_from good_DCI_P3
    · rw [S_Gamut_eq]; exact good_to_from good_S_Gamut
    · rw [S_Gamut3_Cine_eq]; exact good_to_from good_S_Gamut3_Cine
    · rw [ACEScg_eq]; exact good_to_from good_ACEScg
    · rw [ACES2065_eq]; exact good_to_from good_ACES2065
    · exact LMS_consistent
    · exact XYZ_consistent
  exact ⟨this.from_to c, this.to_from c⟩

theorem good_grey {n : String} {xR yR xG yG xB yB xW yW : ℝ}
    (h : GoodPrimaries xR yR xG yG xB yB xW yW) (k : ℝ) :
    triV ((Gamut.ofPrimaries n xR yR xG yG xB yB xW yW).toXYZ ⟨k, k, k⟩) = k • whiteXYZ xW yW := by
  rw [← (C05_white n _ _ _ _ _ _ _ _ h).1]
  ext i
  fin_cases i <;>
    simp [triV, Gamut.toXYZ, Tristimulus.ofVec3, Tristimulus.vec3, Matrix3.apply] <;> ring

/-- C08: in every predefined RGB gamut equal RGB `(k, k, k)` is the gamut's white scaled to
luminance `k`. -/
theorem C08_white (g : Gamut ℝ) (xW yW : ℝ) (hg : (g, xW, yW) ∈ rgbGamuts) (k : ℝ) :
    triV (g.toXYZ ⟨k, k, k⟩) = k • whiteXYZ xW yW ∧ (g.toXYZ ⟨k, k, k⟩).b = k := by
  have : triV (g.toXYZ ⟨k, k, k⟩) = k • whiteXYZ xW yW := by
    simp only [rgbGamuts, List.mem_cons, List.not_mem_nil, or_false, Prod.mk.injEq] at hg
    rcases hg with h | h | h | h | h | h | h | h <;> obtain ⟨rfl, rfl, rfl⟩ := h
    · rw [AdobeRGB_eq]; exact good_grey good_AdobeRGB k
    · rw [Rec709_eq]; exact good_grey good_Rec709 k
    · rw [Rec2020_eq]; exact good_grey good_Rec2020 k
    · rw [DCI_P3_eq]; exact good_grey good_DCI_P3 k
    · rw [S_Gamut_eq]; exact good_grey good_S_Gamut k
    · rw [S_Gamut3_Cine_eq]; exact good_grey good_S_Gamut3_Cine k
    · rw [ACEScg_eq]; exact good_grey good_ACEScg k
    · rw [ACES2065_eq]; exact good_grey good_ACES2065 k
  refine ⟨this, ?_⟩
  have := congrFun this 1
  simpa [triV, whiteXYZ] using this

end CS
