import Verif.Lemmas.Defined
import Verif.Props.E00
import Verif.Props.HSV
import Verif.Props.Gamut

/-!
# C67-C69: no undefined operation

The reading over `PR` (`Verif/Partial.lean`) returns `undef` as soon as a division by zero, a root, logarithm or
power outside its domain, or a remainder by zero takes part in the result.  `f x.lift = (f x).lift` says that this
does not happen, and that the value is the one of the exact reading.
-/

namespace CS
open PR Arith Libm Tristimulus Spec Matrix

/-! ### C67: colour conversions -/

/-- C67: `toYxy` and `fromYxy` are defined on every colour; their guards cover every zero divisor. -/
theorem C67_Yxy (t : Tristimulus ℝ) : toYxy t.lift = (toYxy t).lift ∧ fromYxy t.lift = (fromYxy t).lift :=
  ⟨toYxy_ok t, fromYxy_ok t⟩

theorem YxyToYuv_lift (t : Tristimulus ℝ) (h : -2 * t.b + 12 * t.c + 3 ≠ 0) :
    YxyToYuv t.lift = (YxyToYuv t).lift := by
  have h' : (-lit 2 * t.b + lit 12 * t.c + lit 3 : ℝ) ≠ 0 := by simpa using h
  simp only [YxyToYuv, lift, u_from_xy, v_from_xy, lit_ok, neg_ok, mul_ok, add_ok, div_ok h']

theorem YuvToYxy_lift (t : Tristimulus ℝ) (h : 2 * t.b - 8 * t.c + 4 ≠ 0) :
    YuvToYxy t.lift = (YuvToYxy t).lift := by
  have h' : (lit 2 * t.b - lit 8 * t.c + lit 4 : ℝ) ≠ 0 := by simpa using h
  simp only [YuvToYxy, lift, x_from_uv, y_from_uv, lit_ok, mul_ok, add_ok, sub_ok, div_ok h']

/-- C67: `YxyToYuv` divides by `-2x + 12y + 3` and nothing else. -/
theorem C67_YxyToYuv (t : Tristimulus ℝ) :
    YxyToYuv t.lift = (YxyToYuv t).lift ↔ -2 * t.b + 12 * t.c + 3 ≠ 0 := by
  refine ⟨fun h e => ?_, YxyToYuv_lift t⟩
  have h' : (-lit 2 * t.b + lit 12 * t.c + lit 3 : ℝ) = 0 := by simpa using e
  simp only [YxyToYuv, lift, u_from_xy, v_from_xy, lit_ok, neg_ok, mul_ok, add_ok, div_eq, h', if_true, mk.injEq] at h
  exact absurd h.2.1 (by simp)

theorem X_from_Yxy_undef (Y x : PR) : X_from_Yxy Y x undef = undef := by
  have : abs_f undef = undef := if_neg Bool.false_ne_true
  simp only [X_from_Yxy]
  rw [this, if_neg (by exact Bool.false_ne_true)]
  cases x * Y <;> rfl

/-- C67: `YuvToYxy`, and `fromYuv` built on it, divide by `2u - 8v + 4` and nothing else unguarded. -/
theorem C67_fromYuv (t : Tristimulus ℝ) :
    (YuvToYxy t.lift = (YuvToYxy t).lift ↔ 2 * t.b - 8 * t.c + 4 ≠ 0) ∧
    (fromYuv t.lift = (fromYuv t).lift ↔ 2 * t.b - 8 * t.c + 4 ≠ 0) := by
  have key : 2 * t.b - 8 * t.c + 4 = 0 → YuvToYxy t.lift = ⟨ok t.a, undef, undef⟩ := by
    intro e
    have h' : (lit 2 * t.b - lit 8 * t.c + lit 4 : ℝ) = 0 := by simpa using e
    simp only [YuvToYxy, lift, x_from_uv, y_from_uv, lit_ok, mul_ok, add_ok, sub_ok, div_eq, h', if_true]
  refine ⟨⟨fun h e => ?_, YuvToYxy_lift t⟩, ⟨fun h e => ?_, fun h => ?_⟩⟩
  · rw [key e] at h
    simp only [lift, mk.injEq] at h
    exact absurd h.2.1 (by simp)
  · rw [fromYuv, key e] at h
    simp only [lift, mk.injEq, fromYxy, fromYxy3] at h
    rw [X_from_Yxy_undef] at h
    exact absurd h.1 (by simp)
  · rw [fromYuv, YuvToYxy_lift t h, fromYxy_ok]; rfl

/-- C67: `toYuv` is defined exactly for the colours handled by the black guard of `toYxy` and those with
`X + 15Y + 3Z ≠ 0`, the denominator of the CIE 1960 coordinates. -/
theorem C67_toYuv (t : Tristimulus ℝ) :
    toYuv t.lift = (toYuv t).lift ↔ |t.a + t.b + t.c| < 1e-8 ∨ t.a + 15 * t.b + 3 * t.c ≠ 0 := by
  rw [toYuv, toYxy_ok]
  show _ = (YxyToYuv (toYxy t)).lift ↔ _
  rw [C67_YxyToYuv]
  have habs : ∀ x : ℝ, abs_f x = |x| := by
    intro x
    simp only [abs_f, lt_real, lit_real]
    push_cast
    split_ifs with h
    · rw [abs_of_neg h]
    · rw [abs_of_nonneg (not_lt.mp h)]
  simp only [toYxy, toYxy3, x_from_XYZ, y_from_XYZ, habs, lt_real, lit_real]
  push_cast
  by_cases h : |t.a + t.b + t.c| < 1e-8
  · simp only [h, true_or, iff_true, if_true]; norm_num
  · have hs : t.a + t.b + t.c ≠ 0 := by
      intro e; rw [e] at h; norm_num at h
    simp only [h, false_or, if_false]
    rw [show -2 * (t.a / (t.a + t.b + t.c)) + 12 * (t.b / (t.a + t.b + t.c)) + 3 =
      (t.a + 15 * t.b + 3 * t.c) / (t.a + t.b + t.c) by field_simp; ring]
    rw [ne_eq, div_eq_zero_iff, not_or]
    exact ⟨fun h => h.1, fun h => ⟨h, hs⟩⟩

/-- C67: in particular `toYuv` is defined on every colour without negative components. -/
theorem C67_toYuv_nonneg (t : Tristimulus ℝ) (ha : 0 ≤ t.a) (hb : 0 ≤ t.b) (hc : 0 ≤ t.c) :
    toYuv t.lift = (toYuv t).lift := by
  rw [C67_toYuv]
  by_cases h : t.a + 15 * t.b + 3 * t.c = 0
  · left
    have : t.a + t.b + t.c = 0 := by linarith
    rw [this]; norm_num
  · exact Or.inr h

theorem CIELAB_curve_ok (f : ℝ) : CIELAB_curve (ok f) = ok (CIELAB_curve f) := by
  simp (disch := norm_num) only [CIELAB_curve, lit_ok, div_ok, lt_ok, mul_ok, add_ok]
  refine ite_ok (fun _ => rfl) (fun _ => ite_ok (fun h => ?_) (fun _ => rfl))
  rw [lt_real] at h
  refine powf_ok (Or.inl (lt_trans ?_ h))
  norm_num
theorem CIELAB_decurve_ok (f : ℝ) : CIELAB_decurve (ok f) = ok (CIELAB_decurve f) := by
  simp (disch := norm_num) only [CIELAB_decurve, lit_ok, div_ok, lt_ok, mul_ok, sub_ok]
  refine ite_ok (fun _ => rfl) (fun _ => ite_ok (fun h => ?_) (fun _ => rfl))
  rw [lt_real] at h
  refine powf_ok (Or.inl (lt_trans ?_ h))
  norm_num

/-- C67: `toCIELAB` is defined exactly when no component of the white is zero; `fromCIELAB` always. -/
theorem C67_CIELAB (t w : Tristimulus ℝ) :
    (toCIELAB t.lift w.lift = (toCIELAB t w).lift ↔ w.a ≠ 0 ∧ w.b ≠ 0 ∧ w.c ≠ 0) ∧
    fromCIELAB t.lift w.lift = (fromCIELAB t w).lift := by
  have hu : CIELAB_curve undef = undef := by
    simp only [CIELAB_curve]
    rw [if_neg (by exact Bool.false_ne_true), if_neg (by
      simp (disch := norm_num) only [lit_ok, div_ok]; exact Bool.false_ne_true)]
    simp only [mul_undef, undef_add, undef_div]
  refine ⟨⟨fun h => ?_, fun ⟨ha, hb, hc⟩ => ?_⟩, ?_⟩
  · simp only [toCIELAB, lift, mk.injEq] at h
    obtain ⟨h1, h2, h3⟩ := h
    have hb : w.b ≠ 0 := by
      intro e
      rw [div_eq, if_pos e, hu] at h1
      cases h1
    refine ⟨fun e => ?_, hb, fun e => ?_⟩
    · rw [div_eq, if_pos e, hu] at h2
      cases h2
    · rw [div_ok hb, CIELAB_curve_ok, div_eq, if_pos e, hu] at h3
      cases h3
  · simp only [toCIELAB, lift, div_ok ha, div_ok hb, div_ok hc, CIELAB_curve_ok, lit_ok, mul_ok, sub_ok]
  · simp (disch := norm_num) only [fromCIELAB, lift, lit_ok, add_ok, sub_ok, div_ok, CIELAB_decurve_ok, mul_ok]

theorem mod360_lift (x : ℝ) : mod360 (ok x) = (mod360 x).map ok := by
  obtain ⟨k, y, hy, -⟩ := mod360_real x
  rw [mod360_ok x y hy, hy]; rfl

theorem rawHue_ok (t : Tristimulus ℝ) : rawHue t.lift = ok (rawHue t) := by
  simp only [rawHue, lift, maxi_ok, mini_ok, eq_ok, sub_ok, lit_ok, mul_ok]
  refine ite_ok (fun _ => rfl) (fun h => ?_)
  rw [eq_real] at h
  have hd : maxi (maxi t.a t.b) t.c - mini (mini t.a t.b) t.c ≠ 0 := sub_ne_zero.mpr h
  simp only [div_ok hd, add_ok]
  exact ite_ok (fun _ => rfl) (fun _ => ite_ok (fun _ => rfl) (fun _ => rfl))

/-- C67: `toHSV` and `toHSV_atan` are defined on every colour. -/
theorem C67_toHSV (t : Tristimulus ℝ) :
    toHSV t.lift = (toHSV t).map lift ∧ toHSV_atan t.lift = (toHSV_atan t).map lift := by
  have hs : (if Arith.eq (maxi (maxi t.a t.b) t.c) (lit 0) = true then (ok (lit 0) : PR) else
      ok (maxi (maxi t.a t.b) t.c - mini (mini t.a t.b) t.c) / ok (maxi (maxi t.a t.b) t.c)) =
      ok (if Arith.eq (maxi (maxi t.a t.b) t.c) (lit 0) = true then lit 0 else
        (maxi (maxi t.a t.b) t.c - mini (mini t.a t.b) t.c) / maxi (maxi t.a t.b) t.c) := by
    refine ite_ok (fun _ => rfl) (fun h => div_ok ?_)
    rw [eq_real] at h
    simpa using h
  constructor
  · rw [toHSV, toHSV, rawHue_ok, mod360_lift, Option.map_map, Option.map_map]
    congr 1
    funext h
    simp only [Function.comp, lift, maxi_ok, mini_ok, eq_ok, sub_ok, lit_ok]
    rw [hs]
  · have h3 : Libm.sqrtf (ok (lit 3)) = ok (Libm.sqrtf (lit 3)) := sqrtf_ok (by norm_num)
    have hpi : (PI : PR) = ok PI := rfl
    have hpi0 : (PI : ℝ) ≠ 0 := by simp only [PI, lit_real]; norm_num
    rw [toHSV_atan, toHSV_atan]
    simp only [lift, maxi_ok, mini_ok, eq_ok, sub_ok, lit_ok, mul_ok, h3, hpi, div_ok hpi0, atan2f_ok]
    rw [mod360_lift, Option.map_map, Option.map_map]
    congr 1
    funext h
    simp only [Function.comp, lift]
    rw [hs]

/-- C67: `fromHSV` is defined on every colour: the hue is reduced to `[0, 360]` before the cast. -/
theorem C67_fromHSV (t : Tristimulus ℝ) :
    fromHSV t.lift = (fromHSV t).map (fun r => r.map lift) ∧ ∃ o, fromHSV t = some (.ok o) := by
  constructor
  · rw [fromHSV, fromHSV]
    simp only [lift]
    rw [mod360_lift, Option.map_map, Option.map_map]
    congr 1
    funext h
    simp (disch := norm_num) only [Function.comp, fromHSVwrapped, lit_ok, div_ok, toInt_ok]
    cases Arith.toInt (h / lit 60) with
    | none => rfl
    | some d =>
      simp only [ofInt_ok, sub_ok, mul_ok, Except.map]
      congr 1
      split_ifs <;> rfl
  · obtain ⟨k, h, hh, -, h0, h1⟩ := mod360_real t.a
    rw [fromHSV, hh]
    obtain ⟨o, ho⟩ : ∃ o, fromHSVwrapped h t.b t.c = .ok o := by
      rw [fromHSVwrapped]
      have : (Arith.toInt (h / lit 60) : Option ℤ) = some ⌊h / 60⌋ := by
        rw [toInt_real, rtrunc, lit_real]
        push_cast
        have hp : 0 ≤ h / 60 := by positivity
        rw [if_pos hp, if_pos]
        constructor
        · exact le_trans (by decide) (Int.floor_nonneg.mpr hp)
        · have : ⌊h / 60⌋ ≤ 6 := by
            rw [Int.floor_le_iff]; push_cast; linarith
          exact le_trans this (by decide)
      rw [this]
      exact ⟨_, rfl⟩
    exact ⟨o, by rw [Option.map_some, ho]⟩

/-- C67: `Matrix3::invert` is defined exactly for a non-zero determinant. -/
theorem C67_invert (m : Matrix3 ℝ) : m.lift.invert = m.invert.lift ↔ (toM m).det ≠ 0 := by
  rw [toM_det]
  refine ⟨fun h e => ?_, Matrix3.invert_lift m⟩
  rw [Matrix3.invert_undef m e] at h
  simp [Matrix3.lift] at h

/-- C67: `crosstalkInvert` is defined exactly for a ratio other than one third. -/
theorem C67_crosstalkInvert (r : ℝ) :
    Matrix3.crosstalkInvert (ok r) = (Matrix3.crosstalkInvert r).lift ↔ r ≠ 1 / 3 := by
  have e : (lit 3 * r - lit 1 : ℝ) = 3 * r - 1 := by simp
  constructor
  · rintro h rfl
    have e' : (lit 3 * (1 / 3) - lit 1 : ℝ) = 0 := by rw [e]; norm_num
    simp only [Matrix3.crosstalkInvert, lit_ok, mul_ok, sub_ok, div_eq, e', if_true, mul_undef, Matrix3.lift,
      Matrix3.mk.injEq] at h
    exact absurd h.1 (by simp)
  · intro h
    have e' : (lit 3 * r - lit 1 : ℝ) ≠ 0 := by
      rw [e]; intro h'; apply h; linarith
    simp only [Matrix3.crosstalkInvert, lit_ok, mul_ok, sub_ok, div_ok e', Matrix3.lift]


/-- A gamut from good primaries is built without an undefined operation, and so are its conversions. -/
theorem ofPrimaries_lift (n : String) {xR yR xG yG xB yB xW yW : ℝ} (h : GoodPrimaries xR yR xG yG xB yB xW yW) :
    Gamut.ofPrimaries n (ok xR) (ok yR) (ok xG) (ok yG) (ok xB) (ok yB) (ok xW) (ok yW) =
      (Gamut.ofPrimaries n xR yR xG yG xB yB xW yW).lift := by
  have hd : (Gamut.primMat xR yR xG yG xB yB).det ≠ 0 := by
    rw [← toM_det, toM_primMat]; exact h.indep
  have hp : Gamut.primMat (ok xR) (ok yR) (ok xG) (ok yG) (ok xB) (ok yB) =
      (Gamut.primMat xR yR xG yG xB yB).lift := rfl
  have hw : (fromYxy3 (lit 1 : PR) (ok xW) (ok yW)).vec3 = (fromYxy3 (lit 1 : ℝ) xW yW).vec3.lift := by
    have := fromYxy_ok ⟨lit 1, xW, yW⟩
    simp only [fromYxy, lift] at this
    rw [lit_ok, this]; rfl
  have hm : Gamut.fromPrimaries (ok xR) (ok yR) (ok xG) (ok yG) (ok xB) (ok yB) (ok xW) (ok yW) =
      (Gamut.fromPrimaries xR yR xG yG xB yB xW yW).lift := by
    rw [Gamut.fromPrimaries, Gamut.fromPrimaries, Gamut.mulDiag, Gamut.mulDiag, hp, hw, Matrix3.invert_lift _ hd,
      Matrix3.apply_lift]
    rfl
  rw [Gamut.ofPrimaries, hm, Matrix3.invert_lift _ (good_det _ _ _ _ _ _ _ _ h)]
  rfl

/-- A gamut from an invertible matrix is built without an undefined operation. -/
theorem ofFromXYZ_lift (n : String) (m : Matrix3 ℝ) (h : m.det ≠ 0) :
    Gamut.ofFromXYZ n m.lift = (Gamut.ofFromXYZ n m).lift := by
  rw [Gamut.ofFromXYZ, Matrix3.invert_lift _ h]; rfl

theorem LMS_lift : (LMS : Gamut PR) = (LMS : Gamut ℝ).lift := ofFromXYZ_lift "LMS" _ LMS_det
theorem HPE_lift : (HPE_LMS : Gamut PR) = (HPE_LMS : Gamut ℝ).lift := ofFromXYZ_lift "HPE_LMS" _ HPE_det

/-- C67: no undefined operation in the construction of a gamut from good primaries or an invertible matrix, nor in
the conversions of any gamut whose matrices are numbers. -/
theorem C67_gamut (n : String) (xR yR xG yG xB yB xW yW : ℝ) (h : GoodPrimaries xR yR xG yG xB yB xW yW)
    (m : Matrix3 ℝ) (hm : (toM m).det ≠ 0) (g : Gamut ℝ) (t : Tristimulus ℝ) :
    Gamut.ofPrimaries n (ok xR) (ok yR) (ok xG) (ok yG) (ok xB) (ok yB) (ok xW) (ok yW) =
      (Gamut.ofPrimaries n xR yR xG yG xB yB xW yW).lift ∧
    Gamut.ofFromXYZ n m.lift = (Gamut.ofFromXYZ n m).lift ∧
    g.lift.toXYZ t.lift = (g.toXYZ t).lift ∧ g.lift.fromXYZ t.lift = (g.fromXYZ t).lift :=
  ⟨ofPrimaries_lift n h, ofFromXYZ_lift n m (by rwa [toM_det] at hm), g.toXYZ_lift t, g.fromXYZ_lift t⟩

/-- C67: the predefined gamuts are built without an undefined operation. -/
theorem C67_predefined :
    (AdobeRGB : Gamut PR) = (AdobeRGB : Gamut ℝ).lift ∧ (Rec709 : Gamut PR) = (Rec709 : Gamut ℝ).lift ∧
    (Rec2020 : Gamut PR) = (Rec2020 : Gamut ℝ).lift ∧ (DCI_P3 : Gamut PR) = (DCI_P3 : Gamut ℝ).lift ∧
    (S_Gamut : Gamut PR) = (S_Gamut : Gamut ℝ).lift ∧ (S_Gamut3_Cine : Gamut PR) = (S_Gamut3_Cine : Gamut ℝ).lift ∧
    (ACEScg : Gamut PR) = (ACEScg : Gamut ℝ).lift ∧ (ACES2065 : Gamut PR) = (ACES2065 : Gamut ℝ).lift ∧
    (LMS : Gamut PR) = (LMS : Gamut ℝ).lift ∧ (XYZ : Gamut PR) = (XYZ : Gamut ℝ).lift ∧
    (HPE_LMS : Gamut PR) = (HPE_LMS : Gamut ℝ).lift := by
  refine ⟨ofPrimaries_lift _ ?_, ofPrimaries_lift _ ?_, ofPrimaries_lift _ ?_, ofPrimaries_lift _ ?_,
    ofPrimaries_lift _ ?_, ofPrimaries_lift _ ?_, ofPrimaries_lift _ ?_, ofPrimaries_lift _ ?_, LMS_lift,
    ofFromXYZ_lift "XYZ" Matrix3.ident (by rw [Matrix3.det_ident]; norm_num), HPE_lift⟩
  · have := good_AdobeRGB; simp only [lit_real]; push_cast; exact this
  · have := good_Rec709; simp only [lit_real]; push_cast; exact this
  · have := good_Rec2020; simp only [lit_real]; push_cast; exact this
  · have := good_DCI_P3; simp only [lit_real]; push_cast; exact this
  · have := good_S_Gamut; simp only [lit_real]; push_cast; exact this
  · have := good_S_Gamut3_Cine; simp only [lit_real]; push_cast; exact this
  · have := good_ACEScg; simp only [lit_real]; push_cast; exact this
  · have := good_ACES2065; simp only [lit_real]; push_cast; exact this

/-- C67: `primaryMatrix` is defined exactly when no column of the `toXYZ` matrix sums to zero. -/
theorem C67_primaryMatrix (g : Gamut ℝ) :
    g.lift.primaryMatrix = g.primaryMatrix.lift ↔ ∀ j, ∑ i, toM g.toXYZ_ i j ≠ 0 := by
  have e : ∀ j, ∑ i, toM g.toXYZ_ i j = toV g.primaryVector j := by
    intro j
    fin_cases j <;> simp [Fin.sum_univ_three, toM, toV, Gamut.primaryVector]
  simp only [e]
  have hv : g.lift.primaryVector = g.primaryVector.lift := rfl
  have hR : g.primaryMatrix = ⟨g.toXYZ_.m0 / g.primaryVector.x, g.toXYZ_.m1 / g.primaryVector.y,
    g.toXYZ_.m2 / g.primaryVector.z, g.toXYZ_.m3 / g.primaryVector.x, g.toXYZ_.m4 / g.primaryVector.y,
    g.toXYZ_.m5 / g.primaryVector.z, g.toXYZ_.m6 / g.primaryVector.x, g.toXYZ_.m7 / g.primaryVector.y,
    g.toXYZ_.m8 / g.primaryVector.z⟩ := rfl
  have hL : g.lift.primaryMatrix = ⟨ok g.toXYZ_.m0 / ok g.primaryVector.x, ok g.toXYZ_.m1 / ok g.primaryVector.y,
    ok g.toXYZ_.m2 / ok g.primaryVector.z, ok g.toXYZ_.m3 / ok g.primaryVector.x,
    ok g.toXYZ_.m4 / ok g.primaryVector.y, ok g.toXYZ_.m5 / ok g.primaryVector.z,
    ok g.toXYZ_.m6 / ok g.primaryVector.x, ok g.toXYZ_.m7 / ok g.primaryVector.y,
    ok g.toXYZ_.m8 / ok g.primaryVector.z⟩ := rfl
  rw [hL, hR, Matrix3.lift]
  have hu : ∀ q : ℝ, (undef : PR) = ok q ↔ False := fun q => ⟨nofun, False.elim⟩
  constructor
  · intro h j hj
    simp only [Matrix3.mk.injEq] at h
    fin_cases j
    · have hj' : g.primaryVector.x = 0 := hj
      have := h.1
      rw [div_eq, if_pos hj', hu] at this; exact this
    · have hj' : g.primaryVector.y = 0 := hj
      have := h.2.1
      rw [div_eq, if_pos hj', hu] at this; exact this
    · have hj' : g.primaryVector.z = 0 := hj
      have := h.2.2.1
      rw [div_eq, if_pos hj', hu] at this; exact this
  · intro h
    have h0 : g.primaryVector.x ≠ 0 := h 0
    have h1 : g.primaryVector.y ≠ 0 := h 1
    have h2 : g.primaryVector.z ≠ 0 := h 2
    simp only [div_ok h0, div_ok h1, div_ok h2]

/-- C67: `Bradford` is defined exactly when no cone response of the source white is zero. -/
theorem C67_Bradford (s d : Tristimulus ℝ) :
    Bradford s.lift d.lift = (Bradford s d).lift ↔ ∀ i, (bradfordCone *ᵥ triV s) i ≠ 0 := by
  have hl : triV ((LMS : Gamut ℝ).fromXYZ s) = bradfordCone *ᵥ triV s := by
    rw [← LMS_fromXYZ]; exact toV_apply _ _
  rw [← hl]
  have key : ∀ q : Tristimulus ℝ, (LMS : Gamut PR).fromXYZ q.lift = ((LMS : Gamut ℝ).fromXYZ q).lift := by
    intro q; rw [LMS_lift, Gamut.fromXYZ_lift]
  have hB : Bradford s.lift d.lift =
      ((LMS : Gamut ℝ).toXYZ_.lift.mul (Matrix3.diag
        ⟨ok ((LMS : Gamut ℝ).fromXYZ d).a / ok ((LMS : Gamut ℝ).fromXYZ s).a,
         ok ((LMS : Gamut ℝ).fromXYZ d).b / ok ((LMS : Gamut ℝ).fromXYZ s).b,
         ok ((LMS : Gamut ℝ).fromXYZ d).c / ok ((LMS : Gamut ℝ).fromXYZ s).c⟩)).mul
        (LMS : Gamut ℝ).fromXYZ_.lift := by
    rw [Bradford, key, key, LMS_lift]; rfl
  rw [hB]
  have hR : Bradford s d = ((LMS : Gamut ℝ).toXYZ_.mul (Matrix3.diag
        ⟨((LMS : Gamut ℝ).fromXYZ d).a / ((LMS : Gamut ℝ).fromXYZ s).a,
         ((LMS : Gamut ℝ).fromXYZ d).b / ((LMS : Gamut ℝ).fromXYZ s).b,
         ((LMS : Gamut ℝ).fromXYZ d).c / ((LMS : Gamut ℝ).fromXYZ s).c⟩)).mul (LMS : Gamut ℝ).fromXYZ_ := rfl
  rw [hR]
  clear hR hB hl
  generalize (LMS : Gamut ℝ).fromXYZ d = e
  generalize (LMS : Gamut ℝ).fromXYZ s = w
  constructor
  · intro h i hi
    have h0 := congrArg Matrix3.m0 h
    have hw : w.a = 0 ∨ w.b = 0 ∨ w.c = 0 := by
      fin_cases i
      · exact Or.inl hi
      · exact Or.inr (Or.inl hi)
      · exact Or.inr (Or.inr hi)
    have hu : ∀ q : ℝ, (undef : PR) = ok q ↔ False := fun q => ⟨nofun, False.elim⟩
    rcases hw with e0 | e0 | e0 <;>
      (rw [div_eq _ w.a, div_eq _ w.b, div_eq _ w.c, if_pos e0] at h0
       simp [Matrix3.lift, Matrix3.mul, Matrix3.diag, mul_undef, undef_mul, add_undef, undef_add, hu] at h0)
  · intro h
    have h0 : w.a ≠ 0 := h 0
    have h1 : w.b ≠ 0 := h 1
    have h2 : w.c ≠ 0 := h 2
    rw [div_ok h0, div_ok h1, div_ok h2]
    rfl

/-- C67: `fromPlanckianLocus` is defined exactly for a non-zero temperature. -/
theorem C67_planckian (T Y : ℝ) :
    fromPlanckianLocus (ok T) (ok Y) = (fromPlanckianLocus T Y).lift ↔ T ≠ 0 := by
  constructor
  · rintro h rfl
    have hx : planckianX (ok 0) = undef := by
      simp only [planckianX, lit_ok, mul_ok, div_eq, mul_zero, if_true, undef_add, undef_sub, ite_self]
    have hy : planckianY (ok 0) undef = undef := by
      simp only [planckianY, mul_undef, undef_add, undef_sub, ite_self]
    have h0 := congrArg Tristimulus.a h
    simp only [fromPlanckianLocus, hx, hy, fromYxy, fromYxy3, X_from_Yxy_undef, lift] at h0
    cases h0
  · intro h
    have h2 : T * T ≠ 0 := mul_ne_zero h h
    have h3 : T * T * T ≠ 0 := mul_ne_zero h2 h
    have hx : planckianX (ok T) = ok (planckianX T) := by
      simp only [planckianX, lit_ok, mul_ok, div_ok h, div_ok h2, div_ok h3, sub_ok, add_ok, lt_ok]
      exact ite_ok (fun _ => rfl) (fun _ => rfl)
    have hy : planckianY (ok T) (ok (planckianX T)) = ok (planckianY T (planckianX T)) := by
      simp only [planckianY, lit_ok, mul_ok, sub_ok, add_ok, lt_ok]
      exact ite_ok (fun _ => rfl) (fun _ => ite_ok (fun _ => rfl) (fun _ => rfl))
    rw [fromPlanckianLocus, hx, hy]
    exact fromYxy_ok ⟨Y, planckianX T, planckianY T (planckianX T)⟩

/-- C67: `fromCT` is a pair of polynomials followed by the guarded `fromYxy`: defined for every temperature. -/
theorem C67_fromCT (T Y : ℝ) : fromCT (ok T) (ok Y) = (fromCT T Y).lift :=
  fromYxy_ok ⟨Y, blackbody_x_approx T, blackbody_y_approx T⟩

/-- C67: both OKLAB conversions are defined on every colour. -/
theorem C67_OKLAB (t : Tristimulus ℝ) :
    XYZ_to_OKLAB t.lift = (XYZ_to_OKLAB t).lift ∧ OKLAB_to_XYZ t.lift = (OKLAB_to_XYZ t).lift := by
  constructor
  · rfl
  · have h1 : (oklabM1 : Matrix3 PR) = (oklabM1 : Matrix3 ℝ).lift := rfl
    have h2 : (oklabM2 : Matrix3 PR) = (oklabM2 : Matrix3 ℝ).lift := rfl
    rw [OKLAB_to_XYZ, h1, h2, Matrix3.invert_lift _ oklab_det.1, Matrix3.invert_lift _ oklab_det.2]
    rfl

/-! ### C68: transfer functions -/

namespace OTF

theorem Y_to_sRGB_ok (x : ℝ) : Y_to_sRGB (ok x) = ok (Y_to_sRGB x) := by
  simp (disch := norm_num) only [Y_to_sRGB, lit_ok, div_ok, lt_ok, mul_ok]
  refine ite_ok (fun _ => rfl) (fun h => ite_ok (fun _ => rfl) (fun _ => ite_ok (fun _ => rfl) (fun h => ?_)))
  rw [lt_real, lit_real, not_lt] at h
  rw [powf_ok (Or.inl (lt_of_lt_of_le (by norm_num) h))]; rfl
theorem sRGB_to_Y_ok (x : ℝ) : sRGB_to_Y (ok x) = ok (sRGB_to_Y x) := by
  simp (disch := norm_num) only [sRGB_to_Y, lit_ok, div_ok, lt_ok, add_ok]
  refine ite_ok (fun _ => rfl) (fun h => ite_ok (fun _ => rfl) (fun _ => ite_ok (fun _ => rfl) (fun h => ?_)))
  rw [lt_real, lit_real, not_lt] at h
  have h0 : 0 < x := lt_of_lt_of_le (by norm_num) h
  refine powf_ok (Or.inl ?_)
  simp only [lit_real]; positivity
theorem Y_to_BT709_ok (x : ℝ) : Y_to_BT709 (ok x) = ok (Y_to_BT709 x) := by
  simp only [Y_to_BT709, lit_ok, lt_ok, mul_ok]
  refine ite_ok (fun _ => rfl) (fun h => ite_ok (fun _ => rfl) (fun _ => ite_ok (fun _ => rfl) (fun h => ?_)))
  rw [lt_real, lit_real, not_lt] at h
  rw [powf_ok (Or.inl (lt_of_lt_of_le (by norm_num) h))]; rfl
theorem BT709_to_Y_ok (x : ℝ) : BT709_to_Y (ok x) = ok (BT709_to_Y x) := by
  simp (disch := norm_num) only [BT709_to_Y, lit_ok, div_ok, lt_ok, add_ok]
  refine ite_ok (fun _ => rfl) (fun h => ite_ok (fun _ => rfl) (fun _ => ite_ok (fun _ => rfl) (fun h => ?_)))
  rw [lt_real, lit_real, not_lt] at h
  have h0 : 0 < x := lt_of_lt_of_le (by norm_num) h
  refine powf_ok (Or.inl ?_)
  simp only [lit_real]; positivity
theorem Y_to_HLG_ok (x : ℝ) : Y_to_HLG (ok x) = ok (Y_to_HLG x) := by
  simp only [Y_to_HLG, lit_ok, lt_ok, sub_ok]
  refine ite_ok (fun _ => rfl) (fun h => ite_ok (fun _ => ?_) (fun h => ?_))
  · rw [lt_real, lit_real, not_lt] at h
    rw [sqrtf_ok (by simpa using h)]; rfl
  · rw [lt_real, lit_real, not_lt] at h
    rw [logf_ok (by rw [lit_real]; push_cast at h ⊢; linarith)]; rfl
theorem HLG_to_Y_ok (x : ℝ) : HLG_to_Y (ok x) = ok (HLG_to_Y x) := by
  simp (disch := norm_num) only [HLG_to_Y, lit_ok, lt_ok, le_ok, sub_ok, div_ok]
  exact ite_ok (fun _ => rfl) (fun h => ite_ok (fun _ => rfl) (fun _ => rfl))
theorem Y_to_SLog_ok (x : ℝ) : Y_to_SLog (ok x) = ok (Y_to_SLog x) := by
  simp only [Y_to_SLog]
  have hc : (if Arith.lt (ok x) (lit 0) = true then (lit 0 : PR) else if Arith.lt (lit 10) (ok x) = true then lit 10
      else ok x) = ok (if Arith.lt x (lit 0) = true then lit 0 else if Arith.lt (lit 10) x = true then lit 10 else x) :=
    ite_ok (fun _ => rfl) (fun _ => ite_ok (fun _ => rfl) (fun _ => rfl))
  have hp : 0 ≤ (if Arith.lt x (lit 0) = true then lit 0 else if Arith.lt (lit 10) x = true then lit 10 else x : ℝ) := by
    simp only [lt_real, lit_real]; push_cast
    split_ifs <;> linarith
  rw [hc]
  generalize (if Arith.lt x (lit 0) = true then lit 0 else if Arith.lt (lit 10) x = true then lit 10 else x : ℝ) = y at *
  rw [lit_ok 0.037584, add_ok, log10f_ok (by rw [lit_real]; push_cast; linarith)]
  rfl
theorem pow10_ok (y : ℝ) : Libm.powf (ok (lit 10)) (ok y) = ok (Libm.powf (lit 10) y) :=
  powf_ok (Or.inl (by norm_num))
theorem SLog_to_Y_ok (x : ℝ) : SLog_to_Y (ok x) = ok (SLog_to_Y x) := by
  simp (disch := norm_num) only [SLog_to_Y, lit_ok, sub_ok, div_ok, pow10_ok]
theorem Y_to_SLog3_ok (x : ℝ) : Y_to_SLog3 (ok x) = ok (Y_to_SLog3 x) := by
  simp (disch := norm_num) only [Y_to_SLog3, lit_ok, lt_ok, add_ok, sub_ok, mul_ok, div_ok]
  have key : (if Arith.lt (lit 0.01125) x = true then
      (ok (lit 420) + Libm.log10f (ok ((x + lit 0.01) / lit 0.19 * lit 261.5)) : PR) else
      ok (x * (lit 171.2102946929 - lit 95) / lit 0.01125 + lit 95)) =
      ok (if Arith.lt (lit 0.01125) x = true then lit 420 + Libm.log10f ((x + lit 0.01) / lit 0.19 * lit 261.5) else
        x * (lit 171.2102946929 - lit 95) / lit 0.01125 + lit 95) := by
    refine ite_ok (fun h => ?_) (fun _ => rfl)
    rw [lt_real, lit_real] at h
    have : 0 < x := lt_trans (by norm_num) h
    rw [log10f_ok (by simp only [lit_real]; positivity)]; rfl
  rw [key, div_ok (by norm_num)]
theorem SLog3_to_Y_ok (x : ℝ) : SLog3_to_Y (ok x) = ok (SLog3_to_Y x) := by
  simp (disch := norm_num) only [SLog3_to_Y, lit_ok, lt_ok, sub_ok, mul_ok, div_ok, pow10_ok]
  exact ite_ok (fun _ => rfl) (fun _ => rfl)
theorem Y_to_SLog2_ok (x : ℝ) : Y_to_SLog2 (ok x) = ok (Y_to_SLog2 x) := by
  simp (disch := norm_num) only [Y_to_SLog2, lit_ok, lt_ok, add_ok, mul_ok, div_ok]
  have key : (if Arith.lt x (lit 0) = true then (ok (x * lit 3.53881278538813 + lit 0.030001222851889303) : PR) else
      ok (lit 0.432699) * Libm.log10f (ok (lit 155 * x / lit 219 + lit 0.037584)) + ok (lit 0.616596) +
        ok (lit 0.03)) =
      ok (if Arith.lt x (lit 0) = true then x * lit 3.53881278538813 + lit 0.030001222851889303 else
        lit 0.432699 * Libm.log10f (lit 155 * x / lit 219 + lit 0.037584) + lit 0.616596 + lit 0.03) := by
    refine ite_ok (fun _ => rfl) (fun h => ?_)
    rw [lt_real, lit_real, not_lt] at h
    push_cast at h
    rw [log10f_ok (by simp only [lit_real]; positivity)]; rfl
  rw [key]
  simp (disch := norm_num) only [IRE_to_CV_SLog2, lit_ok, div_ok, mul_ok, add_ok]
theorem SLog2_to_Y_ok (x : ℝ) : SLog2_to_Y (ok x) = ok (SLog2_to_Y x) := by
  have hcv : ∀ x : ℝ, CV_to_IRE_SLog2 (ok x) = ok (CV_to_IRE_SLog2 x) := by
    intro x
    simp (disch := norm_num) only [CV_to_IRE_SLog2, lit_ok, div_ok, sub_ok]
  simp (disch := norm_num) only [SLog2_to_Y, hcv, lit_ok, le_ok, sub_ok, div_ok, pow10_ok, mul_ok]
  generalize CV_to_IRE_SLog2 x = y
  by_cases h : Arith.le (lit 0.030001222851889303) y = true
  · simp only [h, if_true, lt_ok]
    exact ite_ok (fun _ => rfl) (fun _ => rfl)
  · simp only [h, if_false, lt_ok, Bool.false_eq_true]
    exact ite_ok (fun _ => rfl) (fun _ => rfl)
theorem Y_to_ST2084_ok (x : ℝ) : Y_to_ST2084 (ok x) = ok (Y_to_ST2084 x) := by
  simp (disch := norm_num) only [Y_to_ST2084, pq_c1, pq_c2, pq_c3, pq_m1, pq_m2, pq_C, lit_ok, le_ok, div_ok]
  refine ite_ok (fun _ => rfl) (fun h => ite_ok (fun _ => rfl) (fun _ => ?_))
  rw [le_real, lit_real, not_le] at h
  push_cast at h
  have hp : PowDefined (x / lit 100 : ℝ) (lit 0.1593017578125) := Or.inl (by rw [lit_real]; positivity)
  have hL : 0 < (Libm.powf (x / lit 100 : ℝ) (lit 0.1593017578125)) := by
    simp only [lit_real, powf_real]; positivity
  rw [powf_ok hp]
  generalize Libm.powf (x / lit 100 : ℝ) (lit 0.1593017578125) = y at *
  rw [mul_ok, add_ok, mul_ok, add_ok, div_ok (by simp only [lit_real]; positivity),
    powf_ok (Or.inl (by simp only [lit_real]; positivity))]

/-- C68: every encoder other than `GAMMA` is defined on every scene colour, whatever `g`. -/
theorem C68_toScreen (type : TYPE) (h : type ≠ .GAMMA) (t : Tristimulus ℝ) (g : ℝ) (g' : PR) :
    toScreen type t.lift g' = (toScreen type t g).lift := by
  cases type <;> first
    | exact absurd rfl h
    | rfl
    | simp only [toScreen, lift, Y_to_sRGB_ok, Y_to_BT709_ok, Y_to_ST2084_ok, Y_to_SLog_ok, Y_to_SLog2_ok,
        Y_to_SLog3_ok, Y_to_HLG_ok]

/-- C68: every decoder other than `GAMMA` and `ST2084` is defined on every screen colour, whatever `g`. -/
theorem C68_toScene (type : TYPE) (h : type ≠ .GAMMA) (h' : type ≠ .ST2084) (t : Tristimulus ℝ) (g : ℝ) (g' : PR) :
    toScene type t.lift g' = (toScene type t g).lift := by
  cases type <;> first
    | exact absurd rfl h
    | exact absurd rfl h'
    | rfl
    | simp only [toScene, lift, sRGB_to_Y_ok, BT709_to_Y_ok, SLog_to_Y_ok, SLog2_to_Y_ok,
        SLog3_to_Y_ok, HLG_to_Y_ok]

/-- C68: `gamma` is defined exactly when `g` is not zero and the value is positive, or zero with a positive `g`. -/
theorem C68_gamma (v g : ℝ) :
    gamma (ok v) (ok g) = ok (gamma v g) ↔ (0 < v ∧ g ≠ 0) ∨ (v = 0 ∧ 0 < g) := by
  rw [gamma, lit_ok, div_eq]
  by_cases hg : g = 0
  · rw [if_pos hg, powf_undef]
    simp [hg]
  · rw [if_neg hg, powf_eq]
    have : PowDefined v (lit 1 / g : ℝ) ↔ (0 < v ∧ g ≠ 0) ∨ (v = 0 ∧ 0 < g) := by
      rw [PowDefined, lit_real]
      push_cast
      rw [one_div, inv_nonneg]
      have : 0 ≤ g ↔ 0 < g := ⟨fun h => lt_of_le_of_ne h (Ne.symm hg), le_of_lt⟩
      rw [this]
      simp [hg]
    rw [← this]
    split_ifs with h
    · simp only [gamma, h]
    · simp only [h]

/-- C68: `degamma` is defined exactly for a positive value, or zero with a non-negative `g`. -/
theorem C68_degamma (v g : ℝ) :
    degamma (ok v) (ok g) = ok (degamma v g) ↔ 0 < v ∨ (v = 0 ∧ 0 ≤ g) := by
  rw [degamma, powf_eq, ← PowDefined]
  split_ifs with h
  · simp only [degamma, h]
  · simp [h]

/-- The PQ decoder after its first power. -/
def pqTail {α : Type} [Libm α] (Np : α) : α :=
  let L := Np - pq_c1
  let L := if Arith.lt L (lit 0) then lit 0 else L
  Libm.powf (L / (pq_c2 - pq_c3 * Np)) (lit 1 / pq_m1) * pq_C
theorem ST2084_to_Y_tail {α : Type} [Libm α] (p : α) : ST2084_to_Y p = pqTail (Libm.powf p (lit 1 / pq_m2)) := rfl

theorem pqTail_undef : pqTail (undef : PR) = undef := by
  have : (if Arith.lt (undef - pq_c1 : PR) (lit 0) = true then lit 0 else (undef - pq_c1 : PR)) = undef :=
    if_neg Bool.false_ne_true
  simp only [pqTail]
  rw [this]; rfl

theorem pqTail_ok (N : ℝ) : pqTail (ok N) = ok (pqTail N) ↔ N < 18.8515625 / 18.6875 := by
  have hL : (if Arith.lt (ok N - pq_c1) (lit 0) = true then (lit 0 : PR) else ok N - pq_c1) =
      ok (if Arith.lt (N - pq_c1) (lit 0) = true then lit 0 else N - pq_c1) :=
    ite_ok (fun _ => rfl) (fun _ => rfl)
  have hL' : (if Arith.lt (N - pq_c1) (lit 0) = true then lit 0 else N - pq_c1 : ℝ) = max 0 (N - 0.8359375) := by
    simp only [lt_real, pq_c1, lit_real]; push_cast
    split_ifs with h
    · rw [max_eq_left h.le]
    · rw [max_eq_right (not_lt.mp h)]
  have hD : (pq_c2 - pq_c3 * ok N : PR) = ok (pq_c2 - pq_c3 * N) := rfl
  have hD' : (pq_c2 - pq_c3 * N : ℝ) = 18.8515625 - 18.6875 * N := by
    simp only [pq_c2, pq_c3, lit_real]; push_cast; rfl
  have he : (lit 1 / pq_m1 : PR) = ok (lit 1 / pq_m1) := div_ok (by simp only [pq_m1, lit_real]; norm_num)
  have he' : 0 ≤ (lit 1 / pq_m1 : ℝ) := by simp only [pq_m1, lit_real]; norm_num
  have hu : ∀ q : ℝ, (undef : PR) = ok q ↔ False := fun q => ⟨nofun, False.elim⟩
  simp only [pqTail]
  rw [hL, hD, he, div_eq]
  by_cases h0 : (pq_c2 - pq_c3 * N : ℝ) = 0
  · rw [if_pos h0, undef_powf, undef_mul, hu, false_iff, not_lt]
    rw [hD'] at h0
    rw [div_le_iff₀ (by norm_num)]; linarith
  rw [if_neg h0, powf_eq]
  have hP : PowDefined ((if Arith.lt (N - pq_c1) (lit 0) = true then lit 0 else N - pq_c1 : ℝ) /
      (pq_c2 - pq_c3 * N)) (lit 1 / pq_m1) ↔ N < 18.8515625 / 18.6875 := by
    rw [hL', hD'] at *
    rw [lt_div_iff₀ (by norm_num)]
    constructor
    · intro h
      by_contra hc
      have hneg : 18.8515625 - 18.6875 * N < 0 := lt_of_le_of_ne (by linarith) h0
      have hpos : 0 < max 0 (N - 0.8359375) := lt_max_of_lt_right (by nlinarith)
      have := div_neg_of_pos_of_neg hpos hneg
      rcases h with h | h
      · linarith
      · linarith [h.1]
    · intro h
      have hp : 0 < 18.8515625 - 18.6875 * N := by linarith
      have := div_nonneg (le_max_left 0 (N - 0.8359375)) hp.le
      rcases this.lt_or_eq with h | h
      · exact Or.inl h
      · exact Or.inr ⟨h.symm, he'⟩
  rw [← hP]
  by_cases h : PowDefined ((if Arith.lt (N - pq_c1) (lit 0) = true then lit 0 else N - pq_c1 : ℝ) /
      (pq_c2 - pq_c3 * N)) (lit 1 / pq_m1)
  · rw [if_pos h]; exact ⟨fun _ => h, fun _ => rfl⟩
  · rw [if_neg h, undef_mul, hu]; exact ⟨False.elim, fun h' => h h'⟩

/-- C68: the PQ decoder is defined exactly for signals from 0 up to (not including) `(c2 / c3) ^ m2`. -/
theorem C68_ST2084 (p : ℝ) : ST2084_to_Y (ok p) = ok (ST2084_to_Y p) ↔
    0 ≤ p ∧ p < (18.8515625 / 18.6875 : ℝ) ^ (78.84375 : ℝ) := by
  have e1 : (lit 1 / lit 78.84375 : ℝ) = (78.84375 : ℝ)⁻¹ := by simp only [lit_real]; push_cast; rw [one_div]
  have hm : (lit 78.84375 : ℝ) ≠ 0 := by norm_num
  have hm' : (lit 0.1593017578125 : ℝ) ≠ 0 := by norm_num
  have hd : PowDefined p (lit 1 / lit 78.84375 : ℝ) ↔ 0 ≤ p := by
    rw [PowDefined, e1]
    constructor
    · rintro (h | h)
      · exact h.le
      · exact h.1.ge
    · intro h
      rcases h.lt_or_eq with h | h
      · exact Or.inl h
      · exact Or.inr ⟨h.symm, by norm_num⟩
  have e2 : (lit 1 / pq_m2 : PR) = ok (lit 1 / lit 78.84375) := div_ok hm
  rw [ST2084_to_Y_tail, e2, powf_eq]
  by_cases hp : 0 ≤ p
  swap
  · rw [if_neg (by rw [hd]; exact hp), pqTail_undef]
    simp only [hp, false_and, iff_false]
    exact nofun
  · rw [if_pos (hd.mpr hp)]
    have hT : ST2084_to_Y p = pqTail (Libm.powf p (lit 1 / lit 78.84375) : ℝ) := rfl
    rw [hT, pqTail_ok, powf_real, e1, Real.rpow_inv_lt_iff_of_pos hp (by norm_num) (by norm_num)]
    simp only [hp, true_and]

/-- C68: in particular the PQ decoder is defined on every signal in `[0, 1]`. -/
theorem C68_ST2084_unit (p : ℝ) (h0 : 0 ≤ p) (h1 : p ≤ 1) : ST2084_to_Y (ok p) = ok (ST2084_to_Y p) := by
  rw [C68_ST2084]
  refine ⟨h0, lt_of_le_of_lt h1 (Real.one_lt_rpow (by norm_num) (by norm_num))⟩

example : ¬ ∃ q, ST2084_to_Y (ok (-0.5)) = ok q := by
  rintro ⟨q, h⟩
  have e2 : (lit 1 / pq_m2 : PR) = ok (lit 1 / lit 78.84375) := div_ok (by norm_num)
  rw [ST2084_to_Y_tail, e2, powf_eq, if_neg (by simp only [PowDefined]; norm_num), pqTail_undef] at h
  cases h

end OTF

/-! ### C69: colour differences -/

open Delta OTF

theorem XYZ_to_ICtCp_lift (t : Tristimulus ℝ) : XYZ_to_ICtCp t.lift = (XYZ_to_ICtCp t).lift := by
  have h := Gamut.fromXYZ_lift HPE_LMS t
  rw [XYZ_to_ICtCp, HPE_lift, h]
  simp (disch := norm_num) only [lift, Y_to_ST2084_ok, pqToICtCp, lit_ok, add_ok, sub_ok, mul_ok, div_ok]
  rfl

/-- C69: `XYZ_to_ICtCp` and the three distances built on plain square roots are defined on every pair of colours. -/
theorem C69_distances (p q : Tristimulus ℝ) :
    XYZ_to_ICtCp p.lift = (XYZ_to_ICtCp p).lift ∧
    UV p.lift q.lift = ok (UV p q) ∧ E76 p.lift q.lift = ok (E76 p q) ∧
    Delta.ICtCp p.lift q.lift = ok (Delta.ICtCp p q) := by
  refine ⟨XYZ_to_ICtCp_lift p, sqrtf_ok ?_, sqrtf_ok ?_, ?_⟩
  · exact add_nonneg (mul_self_nonneg _) (mul_self_nonneg _)
  · exact add_nonneg (add_nonneg (mul_self_nonneg _) (mul_self_nonneg _)) (mul_self_nonneg _)
  · rw [Delta.ICtCp, XYZ_to_ICtCp_lift, XYZ_to_ICtCp_lift]
    refine sqrtf_ok ?_
    exact add_nonneg (add_nonneg (mul_self_nonneg _) (mul_nonneg (mul_self_nonneg _) (by norm_num)))
      (mul_self_nonneg _)

theorem hue00_ok (b ad : ℝ) : hue00 (ok b) (ok ad) = ok (hue00 b ad) := by
  have hp : (PI00 : PR) = ok PI00 := rfl
  simp only [hue00, atan2f_ok, lit_ok, mul_ok, hp, div_ok PI00_pos.ne', add_ok]
  exact fmodf_ok (by norm_num)

theorem T00_ok (h : ℝ) : T00 (ok h) = ok (T00 h) := by
  have hp : (PI00 : PR) = ok PI00 := rfl
  simp (disch := norm_num) only [T00, hp, lit_ok, mul_ok, sub_ok, add_ok, div_ok, cosf_ok]

theorem hBar00_ok (a b : ℝ) : hBar00 (ok a) (ok b) = ok (hBar00 a b) := by
  have : (if Arith.lt (lit 180) (Libm.fabs (ok a - ok b)) = true then ok a + ok b + lit 360 else ok a + ok b) =
      ok (if Arith.lt (lit 180) (Libm.fabs (a - b)) = true then a + b + lit 360 else a + b) :=
    ite_ok (fun _ => rfl) (fun _ => rfl)
  rw [hBar00, this]
  exact div_ok (by norm_num)

theorem dh00_ok (a b : ℝ) : dh00 (ok a) (ok b) = ok (dh00 a b) :=
  ite_ok (fun _ => rfl) (fun _ => ite_ok (fun _ => rfl) (fun _ => rfl))

theorem ratio_ok {C : ℝ} (hC : 0 ≤ C) :
    Libm.sqrtf (Libm.powf (ok C) (lit 7) / (Libm.powf (ok C) (lit 7) + pow25_7)) =
      ok (Libm.sqrtf (Libm.powf C (lit 7) / (Libm.powf C (lit 7) + pow25_7))) := by
  have hp : (pow25_7 : PR) = ok pow25_7 := rfl
  have h7 : Libm.powf (ok C) (lit 7) = ok (Libm.powf C (lit 7)) := by
    refine powf_ok ?_
    rcases hC.lt_or_eq with h | h
    · exact Or.inl h
    · exact Or.inr ⟨h.symm, by norm_num⟩
  have hn : 0 ≤ Libm.powf C (lit 7) := by rw [powf_real]; positivity
  have h25 : 0 < (pow25_7 : ℝ) := by rw [pow25_7_real]; norm_num
  rw [h7, hp, add_ok, div_ok (by positivity)]
  exact sqrtf_ok (by positivity)

theorem hyp_ok (x y : ℝ) : Libm.sqrtf (ok x * ok x + ok y * ok y) = ok (Libm.sqrtf (x * x + y * y)) :=
  sqrtf_ok (add_nonneg (mul_self_nonneg _) (mul_self_nonneg _))

theorem G00_ok (a1 b1 a2 b2 : ℝ) : G00 (ok a1) (ok b1) (ok a2) (ok b2) = ok (G00 a1 b1 a2 b2) := by
  simp only [G00, hyp_ok]
  rw [add_ok, lit_ok 2, div_ok (by norm_num), ratio_ok (by simp only [sqrtf_real, lit_real]; positivity), lit_ok 1,
    sub_ok, div_ok (by norm_num)]

theorem Rt00_ok (h C : ℝ) (hC : 0 ≤ C) : Rt00 (ok h) (ok C) = ok (Rt00 h C) := by
  have hp : (PI00 : PR) = ok PI00 := rfl
  simp only [Rt00, ratio_ok hC]
  simp (disch := norm_num) only [lit_ok, sub_ok, mul_ok, div_ok, neg_ok, expf_ok, hp, sinf_ok]

theorem parts00_lift (p q : Tristimulus ℝ) (Kl Kc Kh : ℝ) : ∃ dL dC dH Sl Sc Sh R : ℝ,
    0 < Sl ∧ 0 < Sc ∧ 0 < Sh ∧
    parts00 p.lift q.lift (ok Kl) (ok Kc) (ok Kh) =
      (ok dL / ok (Kl * Sl), ok dC / ok (Kc * Sc), ok dH / ok (Kh * Sh), ok R) ∧
    parts00 p q Kl Kc Kh = (dL / (Kl * Sl), dC / (Kc * Sc), dH / (Kh * Sh), R) := by
  refine ⟨_, _, _, _, _, _, _, ?_, ?_, ?_, ?_, rfl⟩
  · have := SL_pos ((p.a + q.a) / 2 - 50)
    simp only [lit_real, sqrtf_real]
    push_cast
    rwa [sq] at this
  · simp only [lit_real, sqrtf_real]
    positivity
  · have := T00_pos (hBar00 (hue00 p.c (p.b * (lit 1 + G00 p.b p.c q.b q.c)))
      (hue00 q.c (q.b * (lit 1 + G00 p.b p.c q.b q.c))))
    generalize T00 (hBar00 (hue00 p.c (p.b * (lit 1 + G00 p.b p.c q.b q.c)))
      (hue00 q.c (q.b * (lit 1 + G00 p.b p.c q.b q.c)))) = T at *
    simp only [lit_real, sqrtf_real]
    positivity
  · have hp : (PI00 : PR) = ok PI00 := rfl
    have h20 : ∀ x : ℝ, Libm.sqrtf (ok (lit 20 + x * x)) = ok (Libm.sqrtf (lit 20 + x * x)) :=
      fun x => sqrtf_ok (by have := mul_self_nonneg x; rw [lit_real]; push_cast; linarith)
    have h20' : ∀ x y : ℝ, ok y / ok (Libm.sqrtf (lit 20 + x * x)) = ok (y / Libm.sqrtf (lit 20 + x * x)) := by
      intro x y
      refine div_ok (Real.sqrt_pos.mpr ?_).ne'
      have := mul_self_nonneg x
      rw [lit_real]; push_cast; linarith
    have hyp' : ∀ x y : ℝ, Libm.sqrtf (ok (x * x + y * y)) = ok (Libm.sqrtf (x * x + y * y)) := hyp_ok
    have hyp2 : ∀ x y z w : ℝ, Libm.sqrtf (ok (Libm.sqrtf (x * x + y * y) * Libm.sqrtf (z * z + w * w))) =
        ok (Libm.sqrtf (Libm.sqrtf (x * x + y * y) * Libm.sqrtf (z * z + w * w))) :=
      fun x y z w => sqrtf_ok (mul_nonneg (Real.sqrt_nonneg _) (Real.sqrt_nonneg _))
    have hd2 : ∀ x : ℝ, ok x / ok (lit 2) = ok (x / lit 2) := fun x => div_ok (by norm_num)
    have hd360 : ∀ x : ℝ, ok x / ok (lit 180 * lit 2) = ok (x / (lit 180 * lit 2)) := fun x => div_ok (by norm_num)
    simp only [parts00, lift, G00_ok, lit_ok, add_ok, sub_ok, mul_ok, hd2, hyp', h20, h20', hyp2, hue00_ok, hBar00_ok,
      dh00_ok, T00_ok, hp, hd360, sinf_ok]
    rw [Rt00_ok]
    exact div_nonneg (add_nonneg (Real.sqrt_nonneg _) (Real.sqrt_nonneg _)) (by norm_num)

/-- C69: `Delta::E00` is defined on every pair of colours exactly when no weighting factor is zero. -/
theorem C69_E00 (p q : Tristimulus ℝ) (Kl Kc Kh : ℝ) :
    E00 p.lift q.lift (ok Kl) (ok Kc) (ok Kh) = ok (E00 p q Kl Kc Kh) ↔ Kl ≠ 0 ∧ Kc ≠ 0 ∧ Kh ≠ 0 := by
  obtain ⟨dL, dC, dH, Sl, Sc, Sh, R, h1, h2, h3, e, e'⟩ := parts00_lift p q Kl Kc Kh
  have hr := E00_radicand p q Kl Kc Kh
  have hu : ∀ q : ℝ, (undef : PR) = ok q ↔ False := fun q => ⟨nofun, False.elim⟩
  have hs : Libm.sqrtf (undef : PR) = undef := rfl
  constructor
  · intro h
    simp only [E00, radicand00, e, div_eq, mul_eq_zero, h1.ne', h2.ne', h3.ne', or_false] at h
    refine ⟨fun h0 => ?_, fun h0 => ?_, fun h0 => ?_⟩ <;>
      simp only [h0, if_true, undef_mul, undef_add, add_undef, mul_undef, hs, hu] at h
  · rintro ⟨k1, k2, k3⟩
    simp only [radicand00, e'] at hr
    simp only [E00, radicand00, e, e', div_ok (mul_ne_zero k1 h1.ne'), div_ok (mul_ne_zero k2 h2.ne'),
      div_ok (mul_ne_zero k3 h3.ne'), mul_ok, add_ok]
    exact sqrtf_ok hr

/-! ### C70: the ICtCp round trip -/

/-- The PQ signals recovered from the ICtCp coordinates of a colour. -/
theorem recovered (q : Tristimulus ℝ) : ICtCpToPq (pqToICtCp q) =
    ⟨(q.a + q.b) * 0.5 + 0.00860904 * ((6610 * q.a - 13613 * q.b + 7003 * q.c) / 4096)
        + 0.11103 * ((17933 * q.a - 17390 * q.b - 543 * q.c) / 4096),
     (q.a + q.b) * 0.5 - 0.00860904 * ((6610 * q.a - 13613 * q.b + 7003 * q.c) / 4096)
        - 0.11103 * ((17933 * q.a - 17390 * q.b - 543 * q.c) / 4096),
     (q.a + q.b) * 0.5 + 0.560031 * ((6610 * q.a - 13613 * q.b + 7003 * q.c) / 4096)
        - 0.320627 * ((17933 * q.a - 17390 * q.b - 543 * q.c) / 4096)⟩ := by
  simp only [ICtCpToPq, pqToICtCp, lit_real]; push_cast; rfl

theorem ICtCpToPq_lift (q : Tristimulus ℝ) : ICtCpToPq q.lift = (ICtCpToPq q).lift := rfl

/-- C70: the round trip through ICtCp is undefined for the non-negative colour `(0, 0, 1)`: the decimal inverse
matrix turns the clipped first cone signal into a negative number, which is then raised to a fractional power. -/
theorem C70_undefined :
    ICtCp_to_XYZ (XYZ_to_ICtCp (Tristimulus.lift ⟨0, 0, 1⟩)) = ⟨undef, undef, undef⟩ := by
  have hl : (HPE_LMS : Gamut ℝ).fromXYZ ⟨0, 0, 1⟩ = ⟨-0.0358, 0.0755, 0.8434⟩ := by
    simp [Gamut.fromXYZ, HPE_LMS, Gamut.ofFromXYZ, Matrix3.apply, ofVec3, vec3]
  have h1 : Y_to_ST2084 (-0.0358 : ℝ) = 0 := by
    rw [Y_to_ST2084, if_pos (by rw [le_real, lit_real]; norm_num)]; simp
  have h2 : 0 < Y_to_ST2084 (0.0755 : ℝ) := by
    rw [Y_to_ST2084_real, if_neg (by norm_num), if_neg (by norm_num), pq_eq]; positivity
  have h3 := (ST2084_enc_range 0.8434).1
  rw [XYZ_to_ICtCp_lift, ICtCp_to_XYZ, ICtCpToPq_lift]
  have hq : ICtCpToPq (XYZ_to_ICtCp (⟨0, 0, 1⟩ : Tristimulus ℝ)) =
      ICtCpToPq (pqToICtCp ⟨0, Y_to_ST2084 0.0755, Y_to_ST2084 0.8434⟩) := by
    rw [XYZ_to_ICtCp, hl, h1]
  have hneg : (ICtCpToPq (XYZ_to_ICtCp (⟨0, 0, 1⟩ : Tristimulus ℝ))).a < 0 := by
    rw [hq, recovered]
    simp only
    linarith
  generalize ICtCpToPq (XYZ_to_ICtCp (⟨0, 0, 1⟩ : Tristimulus ℝ)) = r at *
  have hu : ST2084_to_Y (ok r.a) = undef := by
    have e2 : (lit 1 / pq_m2 : PR) = ok (lit 1 / lit 78.84375) := div_ok (by norm_num)
    rw [ST2084_to_Y_tail, e2, powf_eq, if_neg, pqTail_undef]
    rintro (h | h)
    · linarith
    · linarith [h.1]
  simp only [lift, hu, HPE_lift]
  simp [Gamut.toXYZ, Gamut.lift, Matrix3.lift, ofVec3, vec3, Matrix3.apply, mul_undef, undef_add]

theorem pq_floor {x : ℝ} (h : 1e-6 ≤ x) : 1e-5 ≤ Y_to_ST2084 x := by
  have hx : 0 < x := lt_of_lt_of_le (by norm_num) h
  rw [Y_to_ST2084_real, if_neg (not_le.mpr hx)]
  split_ifs with h1
  · norm_num
  have h8 : (1e-8 : ℝ) ≤ x / 100 := by rw [le_div_iff₀ (by norm_num)]; linarith
  refine le_trans ?_ (pq_mono (by norm_num) h8)
  rw [pq_eq]
  have hu : (0.05 : ℝ) ≤ (1e-8 : ℝ) ^ (0.1593017578125 : ℝ) := by
    have e : (0.05 : ℝ) ≤ (1e-8 : ℝ) ^ (0.16 : ℝ) := by
      have : ((1e-8 : ℝ) ^ (0.16 : ℝ)) = ((1e-8 : ℝ) ^ (4 : ℕ)) ^ ((25 : ℝ)⁻¹) := by
        rw [← Real.rpow_natCast, ← Real.rpow_mul (by norm_num)]; norm_num
      rw [this, Real.le_rpow_inv_iff_of_pos (by norm_num) (by norm_num) (by norm_num),
        show (25 : ℝ) = ((25 : ℕ) : ℝ) by norm_num, Real.rpow_natCast]
      norm_num
    exact le_trans e (Real.rpow_le_rpow_of_exponent_ge (by norm_num) (by norm_num) (by norm_num))
  have hr := pq_rat_mono (by norm_num) hu
  have hr' : (0.919 : ℝ) ≤ (0.8359375 + 18.8515625 * 0.05) / (1 + 18.6875 * 0.05) := by norm_num
  refine le_trans ?_ (Real.rpow_le_rpow (by norm_num) (le_trans hr' hr) (by norm_num))
  have : (0.919 : ℝ) ^ (79 : ℝ) ≤ (0.919 : ℝ) ^ (78.84375 : ℝ) :=
    Real.rpow_le_rpow_of_exponent_ge (by norm_num) (by norm_num) (by norm_num)
  refine le_trans ?_ this
  rw [show (79 : ℝ) = ((79 : ℕ) : ℝ) by norm_num, Real.rpow_natCast]
  norm_num

/-- C70: the part that holds: for every colour whose three cone responses are at least `1e-6`, the round trip
evaluates no undefined operation.  Missing: colours with a smaller or negative cone response, see `C70_undefined`. -/
theorem C70_partial (c : Tristimulus ℝ) (h : ∀ i, 1e-6 ≤ (hpe *ᵥ triV c) i) :
    ICtCp_to_XYZ (XYZ_to_ICtCp c.lift) = (ICtCp_to_XYZ (XYZ_to_ICtCp c)).lift := by
  rw [← HPE_fromXYZ] at h
  set L := (HPE_LMS : Gamut ℝ).fromXYZ c with hL
  have la : 1e-5 ≤ Y_to_ST2084 L.a := pq_floor (h 0)
  have lb : 1e-5 ≤ Y_to_ST2084 L.b := pq_floor (h 1)
  have lc : 1e-5 ≤ Y_to_ST2084 L.c := pq_floor (h 2)
  have ua := (ST2084_enc_range L.a).2
  have ub := (ST2084_enc_range L.b).2
  have uc := (ST2084_enc_range L.c).2
  have hq : ICtCpToPq (XYZ_to_ICtCp c) =
      ICtCpToPq (pqToICtCp ⟨Y_to_ST2084 L.a, Y_to_ST2084 L.b, Y_to_ST2084 L.c⟩) := rfl
  have big : (1.00001 : ℝ) < (18.8515625 / 18.6875 : ℝ) ^ (78.84375 : ℝ) := by
    refine lt_of_lt_of_le ?_ (Real.self_le_rpow_of_one_le (by norm_num) (by norm_num))
    norm_num
  have key : ∀ x, x = (ICtCpToPq (XYZ_to_ICtCp c)).a ∨ x = (ICtCpToPq (XYZ_to_ICtCp c)).b ∨
      x = (ICtCpToPq (XYZ_to_ICtCp c)).c → ST2084_to_Y (ok x) = ok (ST2084_to_Y x) := by
    rw [hq, recovered]
    intro x hx
    rw [C68_ST2084]
    simp only at hx
    rcases hx with rfl | rfl | rfl <;> constructor <;> linarith
  rw [XYZ_to_ICtCp_lift, ICtCp_to_XYZ, ICtCpToPq_lift]
  simp only [lift]
  rw [key _ (Or.inl rfl), key _ (Or.inr (Or.inl rfl)), key _ (Or.inr (Or.inr rfl)), HPE_lift]
  exact Gamut.toXYZ_lift _ ⟨_, _, _⟩

/-- The hypothesis of `C70_partial` is met by equal-energy white. -/
example : ∀ i, (1e-6 : ℝ) ≤ (hpe *ᵥ triV ⟨1, 1, 1⟩) i := by
  have e : hpe *ᵥ triV ⟨1, 1, 1⟩ = ![0.3592 + 0.6976 - 0.0358, -0.1922 + 1.1004 + 0.0755, 0.0070 + 0.0749 + 0.8434] := by
    ext i
    fin_cases i <;> simp [hpe, triV, mulVec, dotProduct, Fin.sum_univ_three] <;> ring
  rw [e]
  intro i
  fin_cases i <;> simp <;> norm_num

/-- The definedness conditions separate colours: `(0.3, -0.2)` has no CIE 1960 coordinates. -/
example : YxyToYuv (Tristimulus.lift ⟨1, 0.3, -0.2⟩) ≠ (YxyToYuv ⟨1, 0.3, -0.2⟩).lift := by
  rw [Ne, C67_YxyToYuv]; norm_num

/-- Good primaries exist (`C67_gamut`), and so do matrices with a non-zero determinant. -/
example : GoodPrimaries 0.64 0.33 0.30 0.60 0.15 0.06 0.3127 0.3290 ∧
    (toM (⟨2, 0, 0, 0, 3, 0, 0, 0, 5⟩ : Matrix3 ℝ)).det ≠ 0 := by
  refine ⟨good_Rec709, ?_⟩
  rw [toM_det, Matrix3.det_eq]; norm_num

end CS
