import Verif.Props.ImageFloat

/-!
# C111, continued: CIELAB, OKLAB and Yxy
-/

namespace CS
open F32 B32 OTF Spec Tristimulus

/-! ## Rec.709 to XYZ and back -/

/-- The matrix of the library from linear Rec.709 to XYZ, as exact numbers. -/
def rgbToXYZ : Matrix3 ℚ := (Rec709 : Gamut F32).toXYZ_.vals

/-- The rounding errors of one application. -/
def fwd : Q3 := ⟨2.4e-7, 2.5e-7, 2.7e-7⟩

set_option maxRecDepth 100000 in
theorem rec709_forward : step (Rec709 : Gamut F32).toXYZ_ qident ⟨0, 0, 0⟩ rgbToXYZ fwd = true := by decide +kernel

/-- Finite, between 0 and 1. -/
def frac (x : F32) : Bool := x.isFinite && decide (0 ≤ x.val) && decide (x.val ≤ 1)

set_option maxRecDepth 100000 in
theorem rec709_frac : (let m := (Rec709 : Gamut F32).toXYZ_
    [m.m0, m.m1, m.m2, m.m3, m.m4, m.m5, m.m6, m.m7, m.m8].all frac) = true := by decide +kernel

theorem frac_nn {x : F32} (h : frac x = true) : Spectrum.NN x 1 := by
  simp only [frac, Bool.and_eq_true, decide_eq_true_eq] at h
  exact ⟨h.1.1, h.1.2, h.2⟩

theorem dot_nn {a b c x y z : F32} (ha : Spectrum.NN a 1) (hb : Spectrum.NN b 1) (hc : Spectrum.NN c 1) (hx : Spectrum.NN x top)
    (hy : Spectrum.NN y top) (hz : Spectrum.NN z top) : Spectrum.NN (a * x + b * y + c * z) 8 := by
  have r : ∀ k : ℕ, Rep ((2 : ℚ) ^ k) := CS.rep_pow
  have t2 : (1 : ℚ) * top ≤ 2 ^ 1 := by norm_num [top]
  have p := (Spectrum.mul_nn ha hx (r 1) (by norm_num) t2).1
  have q := (Spectrum.mul_nn hb hy (r 1) (by norm_num) t2).1
  have s := (Spectrum.mul_nn hc hz (r 1) (by norm_num) t2).1
  have u := (Spectrum.add_nn p q (r 2) (by norm_num) (by norm_num)).1
  have v := (Spectrum.add_nn u s (r 3) (by norm_num) (by norm_num)).1
  norm_num at v; exact v

/-- The XYZ colour of a decoded pixel. -/
theorem xyz_ok {t : Tristimulus F32} (h : Spectrum.NN t.a top ∧ Spectrum.NN t.b top ∧ Spectrum.NN t.c top) :
    let x := (Rec709 : Gamut F32).toXYZ t
    (Spectrum.NN x.a 8 ∧ Spectrum.NN x.b 8 ∧ Spectrum.NN x.c 8) ∧ Tracks x rgbToXYZ t.vals fwd := by
  obtain ⟨a, b, c⟩ := h
  have m := rec709_frac
  simp only [List.all_cons, List.all_nil, Bool.and_true, Bool.and_eq_true] at m
  obtain ⟨m0, m1, m2, m3, m4, m5, m6, m7, m8⟩ := m
  exact ⟨⟨dot_nn (frac_nn m0) (frac_nn m1) (frac_nn m2) a b c, dot_nn (frac_nn m3) (frac_nn m4) (frac_nn m5) a b c,
    dot_nn (frac_nn m6) (frac_nn m7) (frac_nn m8) a b c⟩,
    step_ok rec709_forward (scene_unit (scene_within ⟨a, b, c⟩)) (tracks_self a.fin b.fin c.fin)⟩

/-! ## CIELAB, relative to the white of the gamut -/

/-- The largest components a decoded pixel can have, in XYZ. -/
def rowTop (a b c e : ℚ) : ℚ := (|a| + |b| + |c|) * top + e

set_option maxRecDepth 100000 in
theorem white_facts : (let w := (Rec709 : Gamut F32).primaryWhite
    let m := rgbToXYZ
    (w.a.isFinite && w.b.isFinite && w.c.isFinite) && decide (1 / 2 ≤ w.a.val ∧ 1 / 2 ≤ w.b.val ∧ 1 / 2 ≤ w.c.val) &&
    decide (w.a.val ≤ 0.9505 ∧ w.b.val ≤ 1.000001 ∧ w.c.val ≤ 1.0891) &&
    decide (rowTop m.m0 m.m1 m.m2 fwd.x ≤ w.a.val + 8e-7 ∧ rowTop m.m3 m.m4 m.m5 fwd.y ≤ w.b.val + 8e-7 ∧
      rowTop m.m6 m.m7 m.m8 fwd.z ≤ w.c.val + 8e-7)) = true := by decide +kernel

/-- The errors of a trip through CIELAB. -/
def labErr : Q3 := ⟨5.6e-6, 5.9e-6, 6.3e-6⟩

set_option maxRecDepth 100000 in
theorem rec709_lab : step (Rec709 : Gamut F32).fromXYZ_ rgbToXYZ ⟨labErr.x + fwd.x, labErr.y + fwd.y, labErr.z + fwd.z⟩
    qident ⟨3.7e-5, 3.7e-5, 3.7e-5⟩ = true := by decide +kernel

theorem ap_rat {y : F32} {q : ℚ} {e : ℝ} {E : ℚ} (h : Ap y (q : ℝ) e) (he : e ≤ E) : |y.val - q| ≤ E := by
  have := h.err.trans he
  have h2 : ((|y.val - q| : ℚ) : ℝ) ≤ (E : ℝ) := by push_cast; exact this
  exact_mod_cast h2

theorem min_move {y x w e s E : ℚ} (h : |y - min x w| ≤ e) (hx : x ≤ w + s) (hs : 0 ≤ s) (hE : e + s ≤ E) : |y - x| ≤ E := by
  obtain ⟨h1, h2⟩ := abs_le.1 h
  rcases le_total x w with h3 | h3
  · rw [min_eq_left h3] at h1 h2; rw [abs_le]; constructor <;> linarith
  · rw [min_eq_right h3] at h1 h2; rw [abs_le]; constructor <;> linarith

theorem tracks_le {y q e B : ℚ} (h : |y - q| ≤ e) (hq : |q| ≤ B) : y ≤ B + e := by
  have h1 := (abs_le.1 h).2
  have h2 := (abs_le.1 hq).2
  linarith

/-- The trip of a linear colour through CIELAB. -/
theorem lab_near (o : F32.Oracle) (ho : o.PowAccurate (2 ^ (-22 : ℤ))) {t : Tristimulus F32} (r : Spectrum.NN t.a top ∧ Spectrum.NN t.b top ∧ Spectrum.NN t.c top) :
    letI := F32.libm o
    let w : Tristimulus F32 := (Rec709 : Gamut F32).primaryWhite
    Near ((Rec709 : Gamut F32).fromXYZ (fromCIELAB (toCIELAB ((Rec709 : Gamut F32).toXYZ t) w) w)) t 3.7e-5 := by
  intro w
  obtain ⟨⟨na, nb, nc⟩, tr⟩ := xyz_ok r
  have W := white_facts
  simp only [Bool.and_eq_true, decide_eq_true_eq] at W
  obtain ⟨⟨⟨⟨⟨fa, fb⟩, fc⟩, la, lb, lc⟩, ua, ub, uc⟩, ta, tb, tc⟩ := W
  have un := scene_unit (scene_within r)
  have ok : LabOK ((Rec709 : Gamut F32).toXYZ t) w := by
    intro p hp
    have big : ∀ {x w : ℚ}, x ≤ 8 → 1 / 2 ≤ w → x / w ≤ 2 ^ 100 := by
      intro x w h1 h2
      rw [div_le_iff₀ (by linarith)]
      have : (2 : ℚ) ^ 100 * (1 / 2) ≤ 2 ^ 100 * w := by gcongr
      refine h1.trans (le_trans (by norm_num) this)
    simp only [List.mem_cons, List.not_mem_nil, or_false] at hp
    rcases hp with rfl | rfl | rfl
    · exact ⟨na.fin, fa, na.nonneg, by linarith, big na.le la, ua.trans (by norm_num)⟩
    · exact ⟨nb.fin, fb, nb.nonneg, by linarith, big nb.le lb, ub.trans (by norm_num)⟩
    · exact ⟨nc.fin, fc, nc.nonneg, by linarith, big nc.le lc, uc.trans (by norm_num)⟩
  obtain ⟨A, B, C⟩ := C92_roundtrip o ho _ w ok
  have err : ∀ {W E : ℚ}, 5e-6 * W + 1 / 2 ^ 149 ≤ E → 5e-6 * (W : ℝ) + 1 / 2 ^ 149 ≤ (E : ℝ) := by
    intro W E h
    have := (Rat.cast_le (K := ℝ)).2 h
    push_cast at this
    exact this
  have sm : ∀ {W U E : ℚ}, W ≤ U → 5e-6 * U + 1 / 2 ^ 149 ≤ E → 5e-6 * W + 1 / 2 ^ 149 ≤ E := by
    intro W U E h1 h2; linarith
  have da := min_move (ap_rat (q := min _ _) (by push_cast; exact A) (err (sm ua (E := 4.7526e-6) (by norm_num))))
    ((tracks_le tr.ea (qrow_le un)).trans ta) (by norm_num) (E := labErr.x) (by norm_num [labErr])
  have db := min_move (ap_rat (q := min _ _) (by push_cast; exact B) (err (sm ub (E := 5.0001e-6) (by norm_num))))
    ((tracks_le tr.eb (qrow_le un)).trans tb) (by norm_num) (E := labErr.y) (by norm_num [labErr])
  have dc := min_move (ap_rat (q := min _ _) (by push_cast; exact C) (err (sm uc (E := 5.4456e-6) (by norm_num))))
    ((tracks_le tr.ec (qrow_le un)).trans tc) (by norm_num) (E := labErr.z) (by norm_num [labErr])
  have back := step_ok rec709_lab un (tracks_move tr A.fin B.fin C.fin da db dc)
  exact tracks_near back

/-- C111: an sRGB pixel of up to 10 bits per channel survives the trip through CIELAB relative to the white of the gamut. -/
theorem C111_cielab (o : F32.Oracle) (ho : o.PowAccurate (2 ^ (-22 : ℤ))) (g : F32)
    (N i j k : ℕ) (hN : 0 < N) (hN' : N ≤ 1023) (hi : i ≤ N) (hj : j ≤ N) (hk : k ≤ N) :
    letI := F32.libm o
    let w : Tristimulus F32 := (Rec709 : Gamut F32).primaryWhite
    let lab := toCIELAB ((Rec709 : Gamut F32).toXYZ (toScene .SRGB (pixel N i j k) g)) w
    HasCodes N i j k (toScreen .SRGB ((Rec709 : Gamut F32).fromXYZ (fromCIELAB lab w)) g) := by
  intro w lab
  have r := scene_range o ho g hN (hN'.trans (by norm_num)) hi hj hk
  exact pixel_trip o ho g hN (hN'.trans (by norm_num)) hi hj hk (δ := 3.7e-5) (budget hN' (by norm_num) (by norm_num))
    (lab_near o ho r)

/-! ## OKLAB -/

/-- From linear Rec.709 to the cone responses of OKLAB. -/
def rgbToCones : Matrix3 ℚ := qmul okM1.vals rgbToXYZ

set_option maxRecDepth 100000 in
theorem ok_forward : step okM1 rgbToXYZ fwd rgbToCones ⟨7e-7, 7e-7, 7e-7⟩ = true := by decide +kernel

set_option maxRecDepth 100000 in
theorem ok_cones : (decide (rowTop rgbToCones.m0 rgbToCones.m1 rgbToCones.m2 7e-7 ≤ 1.0006) &&
    decide (rowTop rgbToCones.m3 rgbToCones.m4 rgbToCones.m5 7e-7 ≤ 1.0006) &&
    decide (rowTop rgbToCones.m6 rgbToCones.m7 rgbToCones.m8 7e-7 ≤ 1.0006)) = true := by decide +kernel

set_option maxRecDepth 100000 in
theorem ok_back : (step okM1.invert rgbToCones ⟨1.31e-5 * 1.0006 + 7e-7, 1.31e-5 * 1.0006 + 7e-7, 1.31e-5 * 1.0006 + 7e-7⟩ rgbToXYZ
      ⟨2.9e-5, 1.7e-5, 3e-5⟩ && step (Rec709 : Gamut F32).fromXYZ_ rgbToXYZ ⟨2.9e-5, 1.7e-5, 3e-5⟩ qident
      ⟨1.45e-4, 1.45e-4, 1.45e-4⟩) = true := by decide +kernel

/-- The trip of a linear colour through OKLAB. -/
theorem oklab_near (o : F32.Oracle) (hc : o.CbrtAccurate (2 ^ (-22 : ℤ))) {t : Tristimulus F32} (r : Spectrum.NN t.a top ∧ Spectrum.NN t.b top ∧ Spectrum.NN t.c top) :
    letI := F32.libm o
    Near ((Rec709 : Gamut F32).fromXYZ (OKLAB_to_XYZ (XYZ_to_OKLAB ((Rec709 : Gamut F32).toXYZ t)))) t 1.45e-4 := by
  obtain ⟨-, tr⟩ := xyz_ok r
  have un := scene_unit (scene_within r)
  have tl := step_ok ok_forward un tr
  have B := ok_back
  rw [Bool.and_eq_true] at B
  have L := ok_cones
  simp only [Bool.and_eq_true, decide_eq_true_eq] at L
  have hl : Within _ 1.0006 := ⟨⟨tl.fa, (near_bd tl.ea (qrow_le un)).trans L.1.1⟩, ⟨tl.fb, (near_bd tl.eb (qrow_le un)).trans L.1.2⟩,
    tl.fc, (near_bd tl.ec (qrow_le un)).trans L.2⟩
  obtain ⟨⟨f1, f2, f3⟩, n1, n2, n3⟩ := cones_error hc _ (Λ := 1.0006) (by norm_num) (by norm_num) hl
  have t2 := tracks_move tl f1 f2 f3 (ρ := ⟨1.31e-5 * 1.0006, 1.31e-5 * 1.0006, 1.31e-5 * 1.0006⟩) n1 n2 n3
  have t3 := step_ok B.1 un t2
  have t4 := step_ok B.2 un t3
  exact tracks_near t4

/-- C111: an sRGB pixel of up to 8 bits per channel survives the trip through OKLAB. -/
theorem C111_oklab (o : F32.Oracle) (ho : o.PowAccurate (2 ^ (-22 : ℤ))) (hc : o.CbrtAccurate (2 ^ (-22 : ℤ))) (g : F32)
    (N i j k : ℕ) (hN : 0 < N) (hN' : N ≤ 255) (hi : i ≤ N) (hj : j ≤ N) (hk : k ≤ N) :
    letI := F32.libm o
    let lab := XYZ_to_OKLAB ((Rec709 : Gamut F32).toXYZ (toScene .SRGB (pixel N i j k) g))
    HasCodes N i j k (toScreen .SRGB ((Rec709 : Gamut F32).fromXYZ (OKLAB_to_XYZ lab)) g) := by
  intro lab
  have r := scene_range o ho g hN (hN'.trans (by norm_num)) hi hj hk
  exact pixel_trip o ho g hN (hN'.trans (by norm_num)) hi hj hk (δ := 1.45e-4) (budget hN' (by norm_num) (by norm_num))
    (oklab_near o hc r)

/-! ## Yxy -/

theorem decode_zero (o : F32.Oracle) {v : F32} (hv : v.isFinite = true) (h : v.val = 0) :
    (@sRGB_to_Y F32 (F32.libm o) v).val = 0 := by
  unfold sRGB_to_Y
  rw [lt_lit hv (c := 0) (by decide +kernel), lit_lt hv (c := 1) (by decide +kernel),
    lt_lit hv (c := 5429107/134217728) (by decide +kernel), h]
  simp only [decide_eq_true_eq]
  rw [if_neg (by norm_num), if_neg (by norm_num), if_pos (by norm_num)]
  obtain ⟨-, e, -⟩ := div_pos_val hv lit_12_92_fin h.ge (by decide +kernel)
  show (v / lit 12.92).val = 0
  rw [e, h, zero_div, rnd_zero]

/-- The decoded value of a code other than zero. -/
theorem decode_pos (o : F32.Oracle) (ho : o.PowAccurate (2 ^ (-22 : ℤ))) {N n : ℕ} (hN : 0 < N) (hN' : N ≤ 1023) (hn : n ≤ N) (h0 : 0 < n) :
    7.5e-5 ≤ (@sRGB_to_Y F32 (F32.libm o) (Arith.ofInt n / Arith.ofInt N)).val := by
  obtain ⟨h1, h2⟩ := code_ap hN (hN'.trans (by norm_num)) hn
  have d := C83_decode o ho _ h1.fin
  rw [clampTo_of_mem h2] at d
  have e := (abs_le.1 h1.err).1
  have q : (1 / 1023 : ℝ) ≤ n / N := by
    rw [div_le_div_iff₀ (by norm_num) (by exact_mod_cast hN)]
    have a : (N : ℝ) ≤ 1023 := by exact_mod_cast hN'
    have b : (1 : ℝ) ≤ n := by exact_mod_cast h0
    nlinarith
  have dd := (abs_le.1 d.err).1
  generalize ((Arith.ofInt n : F32) / Arith.ofInt N).val = v at *
  generalize (@sRGB_to_Y F32 (F32.libm o) (Arith.ofInt n / Arith.ofInt N)).val = y at *
  have lo : (7.56e-5 : ℝ) ≤ srgbInv v := by
    unfold srgbInv
    split_ifs with h
    · rw [le_div_iff₀ (by norm_num)]
      norm_num at q e ⊢
      linarith
    · have h := not_lt.1 h
      have k := lt_srgbKnee
      have m : srgbKnee ≤ (((v : ℝ) + 0.055) / 1.055) ^ (2.4 : ℝ) := by
        unfold srgbKnee
        refine Real.rpow_le_rpow (by norm_num) ?_ (by norm_num)
        gcongr
      linarith
  have tiny : (1 : ℝ) / 2 ^ 149 ≤ 1e-20 := by norm_num
  have : ((7.5e-5 : ℚ) : ℝ) ≤ (y : ℝ) := by
    push_cast
    linarith
  exact_mod_cast this

/-- The errors of a trip through Yxy. -/
def yxyErr : Q3 := ⟨1.7e-6, 0, 3.1e-6⟩

set_option maxRecDepth 100000 in
theorem rec709_yxy : (step (Rec709 : Gamut F32).fromXYZ_ rgbToXYZ ⟨yxyErr.x + fwd.x, yxyErr.y + fwd.y, yxyErr.z + fwd.z⟩
    qident ⟨2e-5, 2e-5, 2e-5⟩ && decide (0.072 ≤ rgbToXYZ.m3 ∧ 0.072 ≤ rgbToXYZ.m4 ∧ 0.072 ≤ rgbToXYZ.m5) &&
    decide (rowTop rgbToXYZ.m0 rgbToXYZ.m1 rgbToXYZ.m2 fwd.x + rowTop rgbToXYZ.m3 rgbToXYZ.m4 rgbToXYZ.m5 fwd.y +
      rowTop rgbToXYZ.m6 rgbToXYZ.m7 rgbToXYZ.m8 fwd.z ≤ 3.04)) = true := by decide +kernel

theorem yxy_black {x : Tristimulus F32} (fa : x.a.isFinite = true) (fb : x.b.isFinite = true) (fc : x.c.isFinite = true)
    (ha : x.a.val = 0) (hb : x.b.val = 0) (hc : x.c.val = 0) :
    ((fromYxy (toYxy x)).a.isFinite = true ∧ (fromYxy (toYxy x)).a.val = 0) ∧ (fromYxy (toYxy x)).b = x.b ∧
    ((fromYxy (toYxy x)).c.isFinite = true ∧ (fromYxy (toYxy x)).c.val = 0) := by
  have add0 : ∀ {p q : F32}, p.isFinite = true → q.isFinite = true → p.val = 0 → q.val = 0 →
      (p + q).isFinite = true ∧ (p + q).val = 0 := by
    intro p q hp hq p0 q0
    have := pack_finite (s := p.sign && q.sign) (q := p.val + q.val) (by rw [p0, q0, add_zero, rnd_zero]; norm_num)
    rw [add_def, add_finite hp hq]
    exact ⟨this.1, by rw [this.2, p0, q0, add_zero, rnd_zero]⟩
  obtain ⟨s1, s2⟩ := add0 fa fb ha hb
  obtain ⟨s3, s4⟩ := add0 s1 fc s2 hc
  have lt : Arith.lt (abs_f (x.a + x.b + x.c)) (lit 1e-8 : F32) = true := by
    unfold abs_f
    rw [lt_lit s3 (q := 0) (c := 0) (by decide +kernel), s4, if_neg (by simp), lt_lit s3 (c := (lit 1e-8 : F32).val) (by decide +kernel), s4]
    decide +kernel
  have ex : toYxy x = ⟨x.b, lit 0.3127, lit 0.3290⟩ := by
    unfold toYxy toYxy3 x_from_XYZ y_from_XYZ Y_from_XYZ
    rw [if_pos lt, if_pos lt]
  have ly : Arith.lt (abs_f (lit 0.3290 : F32)) (lit 1e-8 : F32) = false := by decide +kernel
  have quot : ∀ {p : F32}, p.isFinite = true → (p * x.b / lit 0.3290).isFinite = true ∧ (p * x.b / lit 0.3290).val = 0 := by
    intro p hp
    have m := pack_finite (s := xor p.sign x.b.sign) (q := p.val * x.b.val) (by rw [hb, mul_zero, rnd_zero]; norm_num)
    rw [hb, mul_zero, rnd_zero] at m
    have m1 : (p * x.b).isFinite = true ∧ (p * x.b).val = 0 := by
      rw [mul_def, mul_finite hp fb, hb, mul_zero]; exact m
    have f : (lit 0.3290 : F32).isFinite = true := by decide +kernel
    have n : (lit 0.3290 : F32).val ≠ 0 := by decide +kernel
    have d := pack_finite (s := xor (p * x.b).sign (lit 0.3290 : F32).sign) (q := (p * x.b).val / (lit 0.3290 : F32).val)
      (by rw [m1.2, zero_div, rnd_zero]; norm_num)
    rw [div_def, div_finite m1.1 f n]
    exact ⟨d.1, by rw [d.2, m1.2, zero_div, rnd_zero]⟩
  rw [ex]
  unfold fromYxy fromYxy3 X_from_Yxy Z_from_Yxy Y_from_Yxy
  rw [ly]
  have f1 : (lit 0.3127 : F32).isFinite = true := by decide +kernel
  have f2 : (z_from_xy (lit 0.3127) (lit 0.3290) : F32).isFinite = true := by decide +kernel
  exact ⟨quot f1, rfl, quot f2⟩

theorem dot_zero {a b c x y z : F32} (h : (a * x + b * y + c * z).isFinite = true) (hx : x.val = 0) (hy : y.val = 0) (hz : z.val = 0) :
    (a * x + b * y + c * z).val = 0 := by
  obtain ⟨h1, h2⟩ := add_isFinite h
  obtain ⟨h3, h4⟩ := add_isFinite h1
  rw [add_val h, add_val h1, mul_val h2, mul_val h3, mul_val h4, hx, hy, hz]
  simp [rnd_zero]

theorem row_pos {a b c x y z : ℚ} (ha : 0.072 ≤ a) (hb : 0.072 ≤ b) (hc : 0.072 ≤ c) (x0 : 0 ≤ x) (y0 : 0 ≤ y) (z0 : 0 ≤ z)
    (h : (7.5e-5 ≤ x ∨ 7.5e-5 ≤ y) ∨ 7.5e-5 ≤ z) : 5.4e-6 ≤ qrow a b c ⟨x, y, z⟩ := by
  have p1 := mul_le_mul_of_nonneg_right ha x0
  have p2 := mul_le_mul_of_nonneg_right hb y0
  have p3 := mul_le_mul_of_nonneg_right hc z0
  unfold qrow
  simp only
  rcases h with (h | h) | h <;> norm_num at * <;> linarith

/-- The trip of a linear colour through Yxy: black, or with a component that is not too small. -/
theorem yxy_near {t : Tristimulus F32} (r : Spectrum.NN t.a top ∧ Spectrum.NN t.b top ∧ Spectrum.NN t.c top)
    (hb : (t.a.val = 0 ∧ t.b.val = 0 ∧ t.c.val = 0) ∨ (7.5e-5 ≤ t.a.val ∨ 7.5e-5 ≤ t.b.val) ∨ 7.5e-5 ≤ t.c.val) :
    Near ((Rec709 : Gamut F32).fromXYZ (fromYxy (toYxy ((Rec709 : Gamut F32).toXYZ t)))) t 2e-5 := by
  obtain ⟨⟨na, nb, nc⟩, tr⟩ := xyz_ok r
  have un := scene_unit (scene_within r)
  have F := rec709_yxy
  simp only [Bool.and_eq_true, decide_eq_true_eq] at F
  obtain ⟨⟨F1, F2, F3, F4⟩, F5⟩ := F
  suffices h : Tracks (fromYxy (toYxy ((Rec709 : Gamut F32).toXYZ t))) rgbToXYZ
      t.vals ⟨yxyErr.x + fwd.x, yxyErr.y + fwd.y, yxyErr.z + fwd.z⟩ by
    exact tracks_near (step_ok F1 un h)
  rcases hb with ⟨za, zb, zc⟩ | some
  · obtain ⟨⟨f1, v1⟩, e2, f3, v3⟩ := yxy_black na.fin nb.fin nc.fin (dot_zero na.fin za zb zc) (dot_zero nb.fin za zb zc)
      (dot_zero nc.fin za zb zc)
    refine tracks_move tr f1 (by rw [e2]; exact nb.fin) f3 ?_ ?_ ?_
    · have : ((Rec709 : Gamut F32).toXYZ t).a.val = 0 := dot_zero na.fin za zb zc
      rw [v1, this]; norm_num [yxyErr]
    · rw [e2, sub_self]; norm_num [yxyErr]
    · have : ((Rec709 : Gamut F32).toXYZ t).c.val = 0 := dot_zero nc.fin za zb zc
      rw [v3, this]; norm_num [yxyErr]
  · obtain ⟨ra, rb, rc⟩ := r
    have pos : 5.4e-6 ≤ qrow rgbToXYZ.m3 rgbToXYZ.m4 rgbToXYZ.m5 t.vals := by
      exact row_pos F2 F3 F4 ra.nonneg rb.nonneg rc.nonneg some
    have yb : 5.1e-6 ≤ ((Rec709 : Gamut F32).toXYZ t).b.val := by
      have := (abs_le.1 tr.eb).1
      norm_num [fwd] at this pos ⊢
      linarith
    have sum : ((Rec709 : Gamut F32).toXYZ t).a.val +
        ((Rec709 : Gamut F32).toXYZ t).b.val +
        ((Rec709 : Gamut F32).toXYZ t).c.val ≤ 3.04 :=
      (add_le_add_three (tracks_le tr.ea (qrow_le un)) (tracks_le tr.eb (qrow_le un)) (tracks_le tr.ec (qrow_le un))).trans F5
    generalize (Rec709 : Gamut F32).toXYZ t = x at *
    have hs : sum3 x ≤ 3.04 := by
      have := (Rat.cast_le (K := ℝ)).2 sum
      push_cast at this
      exact this
    have hy : (5.1e-6 : ℝ) ≤ x.b.val := by
      have := (Rat.cast_le (K := ℝ)).2 yb
      push_cast at this
      exact this
    obtain ⟨A, B, C⟩ := C93_roundtrip x ⟨na.fin, nb.fin, nc.fin, na.nonneg, nb.nonneg, nc.nonneg,
      by linarith [na.nonneg, nc.nonneg], by linarith⟩ (by
        rw [div_le_iff₀ (by norm_num)]
        have : (5.1e-6 : ℝ) * 2 ^ 20 ≤ x.b.val * 2 ^ 20 := by gcongr
        norm_num at this hs ⊢; linarith)
    refine tracks_move tr A.fin (by rw [B]; exact nb.fin) C.fin ?_ ?_ ?_
    · exact ap_rat A (by push_cast [yxyErr]; norm_num; linarith)
    · rw [B, sub_self]; norm_num [yxyErr]
    · exact ap_rat C (by push_cast [yxyErr]; norm_num; linarith)

/-- C111: an sRGB pixel of up to 10 bits per channel, black included, survives the trip through Yxy. -/
theorem C111_yxy (o : F32.Oracle) (ho : o.PowAccurate (2 ^ (-22 : ℤ))) (g : F32)
    (N i j k : ℕ) (hN : 0 < N) (hN' : N ≤ 1023) (hi : i ≤ N) (hj : j ≤ N) (hk : k ≤ N) :
    letI := F32.libm o
    HasCodes N i j k (toScreen .SRGB ((Rec709 : Gamut F32).fromXYZ (fromYxy (toYxy
      ((Rec709 : Gamut F32).toXYZ (toScene .SRGB (pixel N i j k) g))))) g) := by
  have r := scene_range o ho g hN (hN'.trans (by norm_num)) hi hj hk
  refine pixel_trip o ho g hN (hN'.trans (by norm_num)) hi hj hk (δ := 2e-5) (budget hN' (by norm_num) (by norm_num))
    (yxy_near r ?_)
  have zero : ∀ {n : ℕ}, n = 0 → (@sRGB_to_Y F32 (F32.libm o) (Arith.ofInt (n : ℤ) / Arith.ofInt N)).val = 0 := by
    rintro _ rfl
    obtain ⟨f, e, -⟩ := code_val hN (hN'.trans (by norm_num)) (Nat.zero_le N)
    refine decode_zero o f ?_
    rw [e]; simp [rnd_zero]
  by_cases hb : i = 0 ∧ j = 0 ∧ k = 0
  · exact .inl ⟨zero hb.1, zero hb.2.1, zero hb.2.2⟩
  · right
    by_contra hn
    simp only [not_or] at hn
    refine hb ⟨?_, ?_, ?_⟩
    · by_contra h; exact hn.1.1 (decode_pos o ho hN hN' hi (Nat.pos_of_ne_zero h))
    · by_contra h; exact hn.1.2 (decode_pos o ho hN hN' hj (Nat.pos_of_ne_zero h))
    · by_contra h; exact hn.2 (decode_pos o ho hN hN' hk (Nat.pos_of_ne_zero h))

/-! ## The white used by default is not the white of sRGB -/

theorem srgb_073 {x : ℝ} (h0 : 0 ≤ x) (hx : x ≤ 0.73) : srgb x ≤ 0.872 := by
  unfold srgb
  split_ifs with h
  · linarith
  · have a := rpow_le_of_pow (x := 0.73) (r := 0.878) (p := 5) (q := 12) (by norm_num) (by norm_num) (by norm_num) (by norm_num)
    rw [show (((5 : ℕ) : ℝ) / ((12 : ℕ) : ℝ)) = 1 / 2.4 by norm_num] at a
    have b := Real.rpow_le_rpow h0 hx (show (0 : ℝ) ≤ 1 / 2.4 by norm_num)
    linarith

/-- The white used when none is given. -/
def white50 : Tristimulus F32 := ⟨lit 0.9642, lit 1.0, lit 0.8249⟩

set_option maxRecDepth 100000 in
theorem default_facts : (let w : Tristimulus F32 := white50
    let m := rgbToXYZ
    let b := (Rec709 : Gamut F32).fromXYZ_
    (w.a.isFinite && w.b.isFinite && w.c.isFinite) && decide (1 / 2 ≤ w.a.val ∧ 1 / 2 ≤ w.b.val ∧ 1 / 2 ≤ w.c.val) &&
    decide (w.a.val ≤ 1.1 ∧ w.b.val = 1 ∧ w.c.val ≤ 0.82491) && decide (rowTop m.m0 m.m1 m.m2 fwd.x ≤ 0.951) &&
    decide (0 ≤ m.m3 ∧ 0 ≤ m.m4 ∧ 0 ≤ m.m5) && decide (0.9999 ≤ (m.m3 + m.m4 + m.m5) * 0.99999 - fwd.y) && small b &&
    decide (0 ≤ b.m6.val ∧ b.m6.val ≤ 0.0557 ∧ b.m7.val ≤ -0.2039 ∧ -1 ≤ b.m7.val ∧ 0 ≤ b.m8.val ∧ b.m8.val ≤ 1.058)) = true := by
  decide +kernel

theorem white_code (o : F32.Oracle) (ho : o.PowAccurate (2 ^ (-22 : ℤ))) {N : ℕ} (hN : 0 < N) (hN' : N ≤ 65535) :
    0.99999 ≤ (@sRGB_to_Y F32 (F32.libm o) (Arith.ofInt (N : ℤ) / Arith.ofInt N)).val := by
  obtain ⟨f, e, -⟩ := code_val hN hN' le_rfl
  have one : ((Arith.ofInt (N : ℤ) : F32) / Arith.ofInt N).val = 1 := by
    have : (N : ℚ) ≠ 0 := by positivity
    rw [e, div_self this]
    exact rnd_of_rep (by exact_mod_cast rep_int (n := 1) (by norm_num))
  have d := C83_decode o ho _ f
  rw [one, show clampTo 0 1 (((1 : ℚ)) : ℝ) = 1 by simp [clampTo], srgbInv_one] at d
  have := (abs_le.1 d.err).1
  have tiny : (1 : ℝ) / 2 ^ 149 ≤ 1e-20 := by norm_num
  have h : ((0.99999 : ℚ) : ℝ) ≤ (@sRGB_to_Y F32 (F32.libm o) (Arith.ofInt (N : ℤ) / Arith.ofInt N)).val := by
    push_cast
    linarith
  exact_mod_cast h

theorem row_white {a b c x y z : ℚ} (ha : 0 ≤ a) (hb : 0 ≤ b) (hc : 0 ≤ c) (hx : 0.99999 ≤ x) (hy : 0.99999 ≤ y) (hz : 0.99999 ≤ z) :
    (a + b + c) * 0.99999 ≤ qrow a b c ⟨x, y, z⟩ := by
  have := mul_le_mul_of_nonneg_left hx ha
  have := mul_le_mul_of_nonneg_left hy hb
  have := mul_le_mul_of_nonneg_left hz hc
  unfold qrow
  simp only
  linarith

theorem blue_low {p q r a b c v : ℚ} (p0 : 0 ≤ p) (p1 : p ≤ 0.0557) (q1 : q ≤ -0.2039) (q0 : -1 ≤ q) (r0 : 0 ≤ r) (r1 : r ≤ 1.058)
    (a0 : -0.01 ≤ a) (a1 : a ≤ 0.952) (b0 : 0.9998 ≤ b) (b1 : b ≤ 1.1) (c0 : -0.01 ≤ c) (c1 : c ≤ 0.825)
    (h : |v - (p * a + q * b + r * c)| ≤ (|p * a| + |q * b| + |r * c|) / 2 ^ 22 + 1 / 2 ^ 148) : v ≤ 0.73 := by
  have h1 := (abs_le.1 h).2
  have m1 : p * a ≤ 0.0557 * 0.952 := by nlinarith
  have m2 : q * b ≤ -0.2039 * 0.9998 := by nlinarith
  have m3 : r * c ≤ 1.058 * 0.825 := by nlinarith
  have n1 : |p * a| ≤ 1 := by rw [abs_le]; constructor <;> nlinarith
  have n2 : |q * b| ≤ 2 := by rw [abs_le]; constructor <;> nlinarith
  have n3 : |r * c| ≤ 1 := by rw [abs_le]; constructor <;> nlinarith
  generalize |p * a| = P at *
  generalize |q * b| = Q at *
  generalize |r * c| = R at *
  norm_num at *
  linarith

/-- C111: with the white that `toCIELAB` and `fromCIELAB` use when none is given, sRGB white does not survive: its blue channel
comes back at most 0.873 instead of 1. -/
theorem C111_default_white (o : F32.Oracle) (ho : o.PowAccurate (2 ^ (-22 : ℤ))) (g : F32) (N : ℕ) (hN : 0 < N) (hN' : N ≤ 65535) :
    letI := F32.libm o
    let lab := toCIELAB0 ((Rec709 : Gamut F32).toXYZ (toScene .SRGB (pixel N N N N) g))
    let back := toScreen .SRGB ((Rec709 : Gamut F32).fromXYZ (fromCIELAB0 lab)) g
    back.c.isFinite = true ∧ back.c.val ≤ 0.873 ∧ (4 ≤ N → ¬ HasCodes N N N N back) := by
  have r := scene_range o ho g hN hN' le_rfl le_rfl le_rfl
  obtain ⟨⟨na, nb, nc⟩, tr⟩ := xyz_ok r
  have un := scene_unit (scene_within r)
  have W := default_facts
  simp only [Bool.and_eq_true, decide_eq_true_eq] at W
  obtain ⟨⟨⟨⟨⟨⟨⟨⟨⟨fa, fb⟩, fc⟩, la, lb, lc⟩, ua, ub, uc⟩, xt⟩, m3, m4, m5⟩, yt⟩, hs⟩, p0, p1, q1, q0, r0, r1⟩ := W
  have wc := white_code o ho hN hN'
  have xa : ((Rec709 : Gamut F32).toXYZ (@toScene F32 (F32.libm o) .SRGB (pixel N N N N) g)).a.val ≤ 0.951 :=
    (tracks_le tr.ea (qrow_le un)).trans xt
  have xb : 0.9999 ≤ ((Rec709 : Gamut F32).toXYZ (@toScene F32 (F32.libm o) .SRGB (pixel N N N N) g)).b.val := by
    have h1 := (abs_le.1 tr.eb).1
    have h2 : _ ≤ qrow _ _ _ (@toScene F32 (F32.libm o) .SRGB (pixel N N N N) g).vals := row_white m3 m4 m5 wc wc wc
    linarith
  have ok : LabOK ((Rec709 : Gamut F32).toXYZ (@toScene F32 (F32.libm o) .SRGB (pixel N N N N) g)) white50 := by
    intro p hp
    have big : ∀ {x w : ℚ}, x ≤ 8 → 1 / 2 ≤ w → x / w ≤ 2 ^ 100 := by
      intro x w h1 h2
      rw [div_le_iff₀ (by linarith)]
      have : (2 : ℚ) ^ 100 * (1 / 2) ≤ 2 ^ 100 * w := by gcongr
      refine h1.trans (le_trans (by norm_num) this)
    simp only [List.mem_cons, List.not_mem_nil, or_false] at hp
    rcases hp with rfl | rfl | rfl
    · exact ⟨na.fin, fa, na.nonneg, by linarith, big na.le la, ua.trans (by norm_num)⟩
    · exact ⟨nb.fin, fb, nb.nonneg, by linarith, big nb.le lb, ub.le.trans (by norm_num)⟩
    · exact ⟨nc.fin, fc, nc.nonneg, by linarith, big nc.le lc, uc.trans (by norm_num)⟩
  obtain ⟨A, B, C⟩ := C92_roundtrip o ho _ white50 ok
  have err : ∀ {W : ℚ}, W ≤ 1.1 → 5e-6 * (W : ℝ) + 1 / 2 ^ 149 ≤ ((6e-6 : ℚ) : ℝ) := by
    intro W h
    have := (Rat.cast_le (K := ℝ)).2 h
    push_cast at this ⊢
    norm_num at this ⊢
    linarith
  have da := ap_rat (q := min _ _) (by push_cast; exact A) (err ua)
  have db := ap_rat (q := min _ _) (by push_cast; exact B) (err (ub.le.trans (by norm_num)))
  have dc := ap_rat (q := min _ _) (by push_cast; exact C) (err (uc.trans (by norm_num)))
  have Af := A.fin
  have Bf := B.fin
  have Cf := C.fin
  have ma : min ((Rec709 : Gamut F32).toXYZ (@toScene F32 (F32.libm o) .SRGB (pixel N N N N) g)).a.val white50.a.val ≤ 0.951 :=
    (min_le_left _ _).trans xa
  have ma0 := le_min na.nonneg (show 0 ≤ white50.a.val by linarith)
  have mb : min ((Rec709 : Gamut F32).toXYZ (@toScene F32 (F32.libm o) .SRGB (pixel N N N N) g)).b.val white50.b.val ≤ 1 :=
    (min_le_right _ _).trans ub.le
  have mb0 : 0.9999 ≤ min ((Rec709 : Gamut F32).toXYZ (@toScene F32 (F32.libm o) .SRGB (pixel N N N N) g)).b.val white50.b.val :=
    le_min xb (by rw [ub]; norm_num)
  have mc : min ((Rec709 : Gamut F32).toXYZ (@toScene F32 (F32.libm o) .SRGB (pixel N N N N) g)).c.val white50.c.val ≤ 0.82491 :=
    (min_le_right _ _).trans uc
  have mc0 := le_min nc.nonneg (show 0 ≤ white50.c.val by linarith)
  have A1 := A.fin
  have B1 := B.fin
  have C1 := C.fin
  intro lab back
  set y : Tristimulus F32 := @fromCIELAB F32 (F32.libm o) lab white50 with hy
  change y.a.isFinite = true at A1
  change y.b.isFinite = true at B1
  change y.c.isFinite = true at C1
  change |y.a.val - _| ≤ _ at da
  change |y.b.val - _| ≤ _ at db
  change |y.c.val - _| ≤ _ at dc
  obtain ⟨a1, a2⟩ := abs_le.1 da
  obtain ⟨b1, b2⟩ := abs_le.1 db
  obtain ⟨c1, c2⟩ := abs_le.1 dc
  obtain ⟨-, -, s6, s7, s8⟩ := small_bd hs
  have ga : -0.01 ≤ y.a.val ∧ y.a.val ≤ 0.952 := by constructor <;> linarith
  have gb : 0.9998 ≤ y.b.val ∧ y.b.val ≤ 1.1 := by constructor <;> linarith
  have gc : -0.01 ≤ y.c.val ∧ y.c.val ≤ 0.825 := by constructor <;> linarith
  have bd : ∀ {y : F32}, y.isFinite = true → -2 ≤ y.val → y.val ≤ 2 → Bd y (2 ^ 1) := fun f l u =>
    ⟨f, by rw [abs_le]; constructor <;> norm_num <;> assumption⟩
  have fin := (row_bd (by norm_num) s6 s7 s8 (bd A1 (by linarith) (by linarith)) (bd B1 (by linarith) (by linarith))
    (bd C1 (by linarith) (by linarith))).fin
  have low := blue_low p0 p1 q1 q0 r0 r1 ga.1 ga.2 gb.1 gb.2 gc.1 gc.2 (dot3_error _ _ _ _ _ _ fin)
  have enc : Ap back.c (srgb (clampTo 0 1 ((((Rec709 : Gamut F32).fromXYZ y).c.val : ℚ) : ℝ))) 6e-7 := C83_encode o ho _ fin
  have lowR : (((Rec709 : Gamut F32).fromXYZ y).c.val : ℝ) ≤ 0.73 := by
    have := (Rat.cast_le (K := ℝ)).2 low
    push_cast at this; exact this
  have cl : clampTo 0 1 ((((Rec709 : Gamut F32).fromXYZ y).c.val : ℚ) : ℝ) ≤ 0.73 := by
    unfold clampTo
    exact max_le (by norm_num) ((min_le_right _ _).trans lowR)
  have up := srgb_073 (clamp01_mem _).1 cl
  have e2 := (abs_le.1 enc.err).2
  have val : back.c.val ≤ 0.873 := by
    have : (back.c.val : ℝ) ≤ ((0.873 : ℚ) : ℝ) := by
      push_cast
      linarith
    exact_mod_cast this
  refine ⟨enc.fin, val, fun h4 h => ?_⟩
  have h5 := (abs_lt.1 h.2.2.2).1
  have h6 : (4 : ℚ) ≤ N := by exact_mod_cast h4
  nlinarith

/-- The hypotheses can be met: an accurate `powf` and `cbrtf`, and the pixel `(12, 200, 0)` of 8 bits. -/
example : (∃ o : F32.Oracle, o.PowAccurate (2 ^ (-22 : ℤ)) ∧ o.CbrtAccurate (2 ^ (-22 : ℤ))) ∧ 0 < 255 ∧ 255 ≤ 1023 ∧ 12 ≤ 255 := by
  obtain ⟨o, p, -, -, -, -, h⟩ := exists_accurate
  refine ⟨⟨o, fun x y a b c d e => ?_, fun x hx r hr => ⟨(h x hx r hr).1, (h x hx r hr).2.trans ?_⟩⟩, by norm_num, by norm_num, by norm_num⟩
  · obtain ⟨f, g⟩ := p x y a b c d e
    refine ⟨f, g.trans ?_⟩
    have : (0 : ℝ) < (x.val : ℝ) ^ (y.val : ℝ) := lt_of_lt_of_le (by positivity) d
    gcongr <;> norm_num
  · gcongr <;> norm_num

end CS
