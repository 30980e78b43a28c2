import Verif.Model.Gamut

/-!
# The matrices of the model over the rationals

Exact arithmetic on rational numbers, which the kernel can evaluate, and its embedding in the reals.
-/

namespace CS

/-- Exact arithmetic on rationals. -/
@[reducible] def ratArith : Arith ℚ where
  lit q := q
  lt a b := decide (a < b)
  le a b := decide (a ≤ b)
  eq a b := decide (a = b)
  toInt _ := none
  ofInt i := (i : ℚ)

attribute [local instance] ratArith

theorem lit_rat (q : ℚ) : (lit q : ℚ) = q := rfl

/-- The entries read as reals. -/
noncomputable def Matrix3.toReal (m : Matrix3 ℚ) : Matrix3 ℝ :=
  ⟨m.m0, m.m1, m.m2, m.m3, m.m4, m.m5, m.m6, m.m7, m.m8⟩
/-- The components read as reals. -/
noncomputable def Vector3.toReal (v : Vector3 ℚ) : Vector3 ℝ := ⟨v.x, v.y, v.z⟩
/-- The components read as reals. -/
noncomputable def Tristimulus.toReal (t : Tristimulus ℚ) : Tristimulus ℝ := ⟨t.a, t.b, t.c⟩
/-- The matrices read as real matrices. -/
noncomputable def Gamut.toReal (g : Gamut ℚ) : Gamut ℝ := ⟨g.name_, g.toXYZ_.toReal, g.fromXYZ_.toReal⟩

theorem Matrix3.toReal_mul (a b : Matrix3 ℚ) : (a.mul b).toReal = a.toReal.mul b.toReal := by
  simp [Matrix3.toReal, Matrix3.mul, Matrix3.get, Matrix3.M]

theorem Matrix3.toReal_apply (a : Matrix3 ℚ) (v : Vector3 ℚ) : (a.apply v).toReal = a.toReal.apply v.toReal := by
  simp [Matrix3.toReal, Vector3.toReal, Vector3.get, Matrix3.apply, Matrix3.get, Matrix3.M]

theorem Matrix3.toReal_det (a : Matrix3 ℚ) : ((a.det : ℚ) : ℝ) = a.toReal.det := by
  simp [Matrix3.toReal, Matrix3.det, Matrix3.get, Matrix3.I]

theorem Matrix3.toReal_invert (a : Matrix3 ℚ) : a.invert.toReal = a.toReal.invert := by
  simp only [Matrix3.invert, ← Matrix3.toReal_det]
  simp [Matrix3.toReal, Matrix3.smul, Matrix3.get, Matrix3.I, lit_rat]

theorem Matrix3.toReal_diag (v : Vector3 ℚ) : (Matrix3.diag v).toReal = Matrix3.diag v.toReal := by
  simp [Matrix3.toReal, Matrix3.diag, Vector3.toReal, Vector3.get, lit_rat]

theorem Gamut.toReal_diag (v : Vector3 ℚ) : (Gamut.diag v).toReal = Gamut.diag v.toReal := by
  simp [Matrix3.toReal, Gamut.diag, Vector3.toReal, Vector3.get, lit_rat]

theorem lt_cast (a b : ℚ) : Arith.lt (a : ℝ) (b : ℝ) = Arith.lt a b := by
  simp [Arith.lt]

theorem cast_abs_f (y : ℚ) : ((Tristimulus.abs_f y : ℚ) : ℝ) = Tristimulus.abs_f (y : ℝ) := by
  unfold Tristimulus.abs_f
  simp only [show (lit 0 : ℝ) = ((0 : ℚ) : ℝ) from rfl, lt_cast, lit_rat]
  split <;> simp_all

theorem toReal_fromYxy3 (Y x y : ℚ) : (Tristimulus.fromYxy3 Y x y).toReal = Tristimulus.fromYxy3 (Y : ℝ) x y := by
  simp only [Tristimulus.fromYxy3, Tristimulus.toReal, Tristimulus.X_from_Yxy, Tristimulus.Y_from_Yxy,
    Tristimulus.Z_from_Yxy, ← cast_abs_f, lit_real, lt_cast, Tristimulus.z_from_xy, lit_rat]
  split <;> simp_all

theorem Gamut.toReal_ofPrimaries (n : String) (a b c d e f g h : ℚ) :
    (Gamut.ofPrimaries n a b c d e f g h).toReal = Gamut.ofPrimaries n (a : ℝ) b c d e f g h := by
  have p : (Gamut.primMat a b c d e f).toReal = Gamut.primMat (a : ℝ) b c d e f := by
    simp [Gamut.primMat, Matrix3.toReal, Tristimulus.z_from_xy, lit_rat]
  have v : (Tristimulus.fromYxy3 (lit 1) g h).vec3.toReal = (Tristimulus.fromYxy3 (lit 1 : ℝ) g h).vec3 := by
    have := congrArg Tristimulus.vec3 (toReal_fromYxy3 (lit 1) g h)
    exact this
  have q : (Gamut.fromPrimaries a b c d e f g h).toReal = Gamut.fromPrimaries (a : ℝ) b c d e f g h := by
    simp only [Gamut.fromPrimaries, Gamut.mulDiag, Matrix3.toReal_mul, Gamut.toReal_diag, Matrix3.toReal_apply,
      Matrix3.toReal_invert, p, v]
  simp only [Gamut.ofPrimaries, Gamut.toReal, Matrix3.toReal_invert, q]

theorem Gamut.toReal_ofFromXYZ (n : String) (m : Matrix3 ℚ) :
    (Gamut.ofFromXYZ n m).toReal = Gamut.ofFromXYZ n m.toReal := by
  simp only [Gamut.ofFromXYZ, Gamut.toReal, Matrix3.toReal_invert]

theorem toReal_GamutConvert (a b : Gamut ℚ) : (GamutConvert a b).toReal = GamutConvert a.toReal b.toReal := by
  simp only [GamutConvert, Matrix3.toReal_mul, Gamut.toReal]

theorem toReal_AdobeRGB : (AdobeRGB : Gamut ℚ).toReal = AdobeRGB := Gamut.toReal_ofPrimaries ..
theorem toReal_Rec709 : (Rec709 : Gamut ℚ).toReal = Rec709 := Gamut.toReal_ofPrimaries ..
theorem toReal_Rec2020 : (Rec2020 : Gamut ℚ).toReal = Rec2020 := Gamut.toReal_ofPrimaries ..
theorem toReal_DCI_P3 : (DCI_P3 : Gamut ℚ).toReal = DCI_P3 := Gamut.toReal_ofPrimaries ..
theorem toReal_S_Gamut : (S_Gamut : Gamut ℚ).toReal = S_Gamut := Gamut.toReal_ofPrimaries ..
theorem toReal_S_Gamut3_Cine : (S_Gamut3_Cine : Gamut ℚ).toReal = S_Gamut3_Cine := Gamut.toReal_ofPrimaries ..
theorem toReal_ACEScg : (ACEScg : Gamut ℚ).toReal = ACEScg := Gamut.toReal_ofPrimaries ..
theorem toReal_ACES2065 : (ACES2065 : Gamut ℚ).toReal = ACES2065 := Gamut.toReal_ofPrimaries ..
theorem toReal_LMS : (LMS : Gamut ℚ).toReal = LMS := Gamut.toReal_ofFromXYZ ..

theorem toReal_Bradford (s d : Tristimulus ℚ) : (Bradford s d).toReal = Bradford s.toReal d.toReal := by
  have h : ∀ t : Tristimulus ℚ, ((LMS : Gamut ℚ).fromXYZ t).toReal = (LMS : Gamut ℝ).fromXYZ t.toReal := fun t => by
    have := Matrix3.toReal_apply (LMS : Gamut ℚ).fromXYZ_ t.vec3
    rw [← toReal_LMS]
    exact congrArg Tristimulus.ofVec3 this
  have h1 : (LMS : Gamut ℚ).toXYZ_.toReal = (LMS : Gamut ℝ).toXYZ_ := by rw [← toReal_LMS]; rfl
  have h2 : (LMS : Gamut ℚ).fromXYZ_.toReal = (LMS : Gamut ℝ).fromXYZ_ := by rw [← toReal_LMS]; rfl
  simp only [Bradford, Matrix3.toReal_mul, Matrix3.toReal_diag, h1, h2, ← h]
  simp [Vector3.toReal, Tristimulus.toReal]

end CS
