import Verif.Props.ImageSpaces

/-!
# C113: BT.709 video survives the trips through the other colour spaces, in single precision

A pixel of BT.709 video (8 or 10 bits per channel) is decoded with `OTF::toScene`, converted to another space and back, and
encoded with `OTF::toScreen`.  It must have the codes it had.  The two segments of the published BT.709 curve do not meet (the
encoder jumps by `2.5e-4` at 0.018 and skips those codes), so the margin is the half step of the code less that jump; with 11
bits and more nothing is left (see `C84_lost_code`).
-/

namespace CS
open F32 B32 OTF Spec Tristimulus Real

/-! ## The published curve near a decoded signal -/

/-- The power segment. -/
private noncomputable def P (x : ℝ) : ℝ := 1.099 * x ^ (0.45 : ℝ) - 0.099

theorem rpow_tangent {x y p : ℝ} (hx : 0 < x) (hy : 0 ≤ y) (hp0 : 0 ≤ p) (hp1 : p ≤ 1) :
    y ^ p - x ^ p ≤ p * (x ^ p / x) * (y - x) := by
  have hs : -1 ≤ (y - x) / x := by
    rw [le_div_iff₀ hx]; linarith
  have h := rpow_one_add_le_one_add_mul_self hs hp0 hp1
  have e : x * (1 + (y - x) / x) = y := by field_simp; ring
  have n : 0 ≤ 1 + (y - x) / x := by linarith
  have h2 : y ^ p = x ^ p * (1 + (y - x) / x) ^ p := by
    rw [← Real.mul_rpow hx.le n, e]
  rw [h2]
  have := mul_le_mul_of_nonneg_left h (Real.rpow_nonneg hx.le p)
  have e2 : x ^ p * (1 + p * ((y - x) / x)) = x ^ p + p * (x ^ p / x) * (y - x) := by field_simp
  linarith

/-- The tangent at the knee. -/
private theorem P_tangent : ∃ s : ℝ, 4.5 ≤ s ∧ s ≤ 4.51 ∧ ∀ y, 0 ≤ y → P y ≤ 0.0812512 + s * (y - 0.018) := by
  have l := bt709_pow_lo (x := 0.018) (by norm_num)
  have u := bt709_pow_hi (x := 0.018) (by norm_num) (by norm_num)
  refine ⟨1.099 * (0.45 * ((0.018 : ℝ) ^ (0.45 : ℝ) / 0.018)), ?_, ?_, ?_⟩
  · have : (9.11 : ℝ) ≤ (0.018 : ℝ) ^ (0.45 : ℝ) / 0.018 := by
      rw [le_div_iff₀ (by norm_num)]; linarith
    linarith
  · have : (0.018 : ℝ) ^ (0.45 : ℝ) / 0.018 ≤ 9.1125 := by
      rw [div_le_iff₀ (by norm_num)]; linarith
    linarith
  · intro y hy
    have := rpow_tangent (x := 0.018) (p := 0.45) (by norm_num) hy (by norm_num) (by norm_num)
    unfold P
    linarith

private theorem P_slope {x y : ℝ} (hx : 0.0179 ≤ x) (hy : x ≤ y) : 0 ≤ P y - P x ∧ P y - P x ≤ 4.55 * (y - x) := by
  have k0 : (0 : ℝ) < 0.0179 := by norm_num
  have x0 : 0 < x := k0.trans_le hx
  have h1 : x ^ (0.45 : ℝ) / x ≤ (0.0179 : ℝ) ^ (0.45 : ℝ) / 0.0179 := by
    rw [← Real.rpow_sub_one x0.ne', ← Real.rpow_sub_one k0.ne']
    exact Real.rpow_le_rpow_of_nonpos k0 hx (by norm_num)
  have h2 := bt709_pow_hi (x := 0.0179) (by norm_num) (by norm_num)
  have h3 : (0.0179 : ℝ) ^ (0.45 : ℝ) / 0.0179 ≤ 9.17 := by
    rw [div_le_iff₀ k0]
    linarith
  have t := rpow_tangent x0 (x0.le.trans hy) (p := 0.45) (by norm_num) (by norm_num)
  have m := Real.rpow_le_rpow x0.le hy (show (0 : ℝ) ≤ 0.45 by norm_num)
  have h4 := mul_le_mul_of_nonneg_right (h1.trans h3) (sub_nonneg.2 hy)
  unfold P
  constructor <;> linarith

private theorem P_inv {v : ℝ} (h : 0 ≤ v) : P (((v + 0.099) / 1.099) ^ ((1 : ℝ) / 0.45)) = v := by
  have b : 0 ≤ (v + 0.099) / 1.099 := div_nonneg (by linarith) (by norm_num)
  unfold P
  rw [← Real.rpow_mul b, show (1 : ℝ) / 0.45 * 0.45 = 1 by norm_num, Real.rpow_one]
  ring

/-- The linear segment of the encoder near a decoded signal. -/
private theorem lin_near {v x d : ℝ} (hv : 0 ≤ v) (hx : x < 0.018) (h : |x - bt709Inv v| ≤ d) :
    |4.5 * x - v| ≤ 2.52e-4 + 4.6 * d := by
  have d0 : 0 ≤ d := (abs_nonneg _).trans h
  obtain ⟨h1, h2⟩ := abs_le.1 h
  unfold bt709Inv at h1 h2
  split_ifs at h1 h2 with c
  · rw [show v / 4.5 = v * (2 / 9) by norm_num; ring] at h1 h2
    rw [abs_le]; constructor <;> linarith
  · have c := not_lt.1 c
    have e := P_inv hv
    obtain ⟨s, s0, s1, t⟩ := P_tangent
    have g := bt709Inv_pow_lo (a := 0.081) (r := 0.0179450) (by norm_num) (by norm_num) (by norm_num) c
    generalize ((v + 0.099) / 1.099) ^ ((1 : ℝ) / 0.45) = Y at *
    have t := t Y (by linarith)
    rw [e] at t
    have q : (s - 4.5) * (Y - 0.018) ≤ (s - 4.5) * d := mul_le_mul_of_nonneg_left (by linarith) (by linarith)
    have q2 : (s - 4.5) * d ≤ 0.01 * d := mul_le_mul_of_nonneg_right (by linarith) d0
    rw [abs_le]; constructor <;> linarith

/-- The power segment of the encoder near a decoded signal. -/
private theorem pow_near {v x d : ℝ} (hv : 0 ≤ v) (hx : 2415919/134217728 ≤ x) (h : |x - bt709Inv v| ≤ d) :
    |P x - v| ≤ 2.52e-4 + 4.6 * d := by
  have d0 : 0 ≤ d := (abs_nonneg _).trans h
  obtain ⟨h1, h2⟩ := abs_le.1 h
  unfold bt709Inv at h1 h2
  split_ifs at h1 h2 with c
  · rw [show v / 4.5 = v * (2 / 9) by norm_num; ring] at h1 h2
    have l : 0.0812479 ≤ P x := bt709_pow_lo hx
    obtain ⟨s, s0, s1, t⟩ := P_tangent
    have t := t x (by linarith)
    have q : (s - 4.5) * (x - 0.018) ≤ (s - 4.5) * d := mul_le_mul_of_nonneg_left (by linarith) (by linarith)
    have q2 : (s - 4.5) * d ≤ 0.01 * d := mul_le_mul_of_nonneg_right (by linarith) d0
    rw [abs_le]; constructor <;> linarith
  · have c := not_lt.1 c
    have e := P_inv hv
    have g := bt709Inv_pow_lo (a := 0.081) (r := 0.0179450) (by norm_num) (by norm_num) (by norm_num) c
    generalize ((v + 0.099) / 1.099) ^ ((1 : ℝ) / 0.45) = Y at *
    rw [abs_le]
    rcases le_total x Y with o | o
    · have := P_slope (le_trans (by norm_num) hx) o
      constructor <;> linarith
    · have := P_slope (le_trans (by norm_num) g) o
      constructor <;> linarith

/-! ## Decoding and encoding -/

theorem bt709Inv_mem {v : ℝ} (h : 0 ≤ v ∧ v ≤ 1) : 0 ≤ bt709Inv v ∧ bt709Inv v ≤ 1 := by
  unfold bt709Inv
  split_ifs
  · exact ⟨div_nonneg h.1 (by norm_num), by rw [div_le_one (by norm_num)]; linarith⟩
  · have b : 0 ≤ (v + 0.099) / 1.099 := div_nonneg (by linarith) (by norm_num)
    exact ⟨Real.rpow_nonneg b _, Real.rpow_le_one b (by rw [div_le_one (by norm_num)]; linarith) (by norm_num)⟩

/-- Encoding a value that differs by `δ` from a decoded signal. -/
theorem bt709_trip (o : F32.Oracle) (ho : o.PowAccurate (2 ^ (-22 : ℤ))) (v z : F32) (hv : v.isFinite = true)
    (h : (0 : ℝ) ≤ v.val ∧ (v.val : ℝ) ≤ 1) (hz : z.isFinite = true) {δ : ℚ}
    (hd : |z.val - (@BT709_to_Y F32 (F32.libm o) v).val| ≤ δ) :
    Ap (@Y_to_BT709 F32 (F32.libm o) z) v.val (4.6 * δ + 2.59e-4) := by
  have d := C84_decode o ho v hv
  rw [clampTo_of_mem h] at d
  have hm := bt709Inv_mem h
  have near : |(z.val : ℝ) - bt709Inv v.val| ≤ δ + 1.21e-6 := by
    have hd' : |(z.val : ℝ) - (@BT709_to_Y F32 (F32.libm o) v).val| ≤ δ := by
      have := (Rat.cast_le (K := ℝ)).2 hd
      push_cast at this; exact this
    have e := d.err
    have := _root_.abs_sub_le (z.val : ℝ) (@BT709_to_Y F32 (F32.libm o) v).val (bt709Inv v.val)
    norm_num at e this ⊢
    linarith
  clear d hd
  obtain ⟨n1, n2⟩ := abs_le.1 near
  rcases lt_or_ge z.val 0 with z0 | z0
  · have z0' : (z.val : ℝ) < 0 := by exact_mod_cast z0
    rw [(bt709_enc_out o z hz).1 z0]
    have := lin_near h.1 (x := 0) (by norm_num) (d := δ + 1.21e-6) (by rw [abs_le]; constructor <;> linarith)
    refine ⟨lit_ap0.fin, ?_⟩
    have e := lit_ap0.err
    generalize (lit 0 : F32).val = w at *
    obtain ⟨a1, a2⟩ := abs_le.1 e
    obtain ⟨b1, b2⟩ := abs_le.1 this
    rw [abs_le]; constructor <;> linarith
  rcases lt_or_ge 1 z.val with z1 | z1
  · have z1' : (1 : ℝ) < z.val := by exact_mod_cast z1
    rw [(bt709_enc_out o z hz).2 z1]
    have := pow_near h.1 (x := 1) (by norm_num) (d := δ + 1.21e-6) (by rw [abs_le]; constructor <;> linarith)
    rw [show P 1 = 1 by unfold P; norm_num] at this
    refine ⟨lit_ap1.fin, ?_⟩
    have e := lit_ap1.err
    generalize (lit 1 : F32).val = w at *
    obtain ⟨a1, a2⟩ := abs_le.1 e
    obtain ⟨b1, b2⟩ := abs_le.1 this
    rw [abs_le]; constructor <;> linarith
  obtain ⟨s1, s2⟩ := bt709_enc_segments o ho z hz z0 z1
  rcases lt_or_ge z.val (2415919/134217728) with k | k
  · have k' : (z.val : ℝ) < 2415919/134217728 := by
      have := (Rat.cast_lt (K := ℝ)).2 k
      push_cast at this; exact this
    have e := (s1 k).2
    refine ⟨e.fin, ?_⟩
    obtain ⟨a1, a2⟩ := abs_le.1 e.err
    obtain ⟨b1, b2⟩ := abs_le.1 (lin_near h.1 (k'.trans (by norm_num)) near)
    rw [abs_le]; constructor <;> linarith
  · have k' : (2415919/134217728 : ℝ) ≤ z.val := by
      have := (Rat.cast_le (K := ℝ)).2 k
      push_cast at this; exact this
    have e := s2 k
    refine ⟨e.fin, ?_⟩
    obtain ⟨a1, a2⟩ := abs_le.1 e.err
    obtain ⟨b1, b2⟩ := abs_le.1 (pow_near h.1 k' near)
    unfold P at b1 b2
    rw [abs_le]; constructor <;> linarith

/-- Encoding the decoded pixel, changed by at most `δ`, gives the codes of the pixel. -/
theorem video_trip (o : F32.Oracle) (ho : o.PowAccurate (2 ^ (-22 : ℤ))) (g : F32) {N i j k : ℕ} (hN : 0 < N) (hN' : N ≤ 65535)
    (hi : i ≤ N) (hj : j ≤ N) (hk : k ≤ N) {z : Tristimulus F32} {δ : ℚ} (hd : (4.6 * δ + 2.6e-4) * N < 1 / 2)
    (hz : Near z (@toScene F32 (F32.libm o) .BT709 (pixel N i j k) g) δ) :
    HasCodes N i j k (@toScreen F32 (F32.libm o) .BT709 z g) := by
  have key : ∀ {n : ℕ} {x : F32}, n ≤ N → x.isFinite = true →
      |x.val - (@BT709_to_Y F32 (F32.libm o) (Arith.ofInt n / Arith.ofInt N)).val| ≤ δ →
      (@Y_to_BT709 F32 (F32.libm o) x).isFinite = true ∧ |(@Y_to_BT709 F32 (F32.libm o) x).val * N - n| < 1 / 2 := by
    intro n x hn hx h
    obtain ⟨h1, h2⟩ := code_ap hN hN' hn
    have h3 := bt709_trip o ho _ x h1.fin h2 hx h
    refine ⟨h3.fin, ?_⟩
    have hN0 : (0 : ℝ) < N := by exact_mod_cast hN
    have e1 := h3.err
    have e2 := h1.err
    generalize ((Arith.ofInt n : F32) / Arith.ofInt N).val = v at *
    generalize (@Y_to_BT709 F32 (F32.libm o) x).val = w at *
    have h4 : |(w : ℝ) - n / N| ≤ 4.6 * δ + 2.6e-4 := by
      have := _root_.abs_sub_le (w : ℝ) v (n / N)
      linarith
    have h5 : |(w : ℝ) * N - n| < 1 / 2 := by
      rw [show (w : ℝ) * N - n = (w - n / N) * N by field_simp, abs_mul, abs_of_pos hN0]
      have hd' : (4.6 * (δ : ℝ) + 2.6e-4) * N < 1 / 2 := by
        have := (Rat.cast_lt (K := ℝ)).2 hd
        push_cast at this; exact this
      exact (mul_le_mul_of_nonneg_right h4 hN0.le).trans_lt hd'
    have : ((|w * N - n| : ℚ) : ℝ) < ((1 / 2 : ℚ) : ℝ) := by push_cast; exact h5
    exact_mod_cast this
  obtain ⟨⟨fa, fb, fc⟩, da, db, dc⟩ := hz
  obtain ⟨a1, a2⟩ := key hi fa da
  obtain ⟨b1, b2⟩ := key hj fb db
  obtain ⟨c1, c2⟩ := key hk fc dc
  exact ⟨⟨a1, b1, c1⟩, a2, b2, c2⟩

theorem lit_4_5_fin : (lit 4.50 : F32).isFinite = true := by decide +kernel
theorem video_consts : ((lit 0.099 : F32).isFinite = true ∧ (lit 1.099 : F32).isFinite = true ∧
    ((lit 1 / lit 0.45 : F32)).isFinite = true) ∧
    (1 / 32 ≤ (lit 0.099 : F32).val ∧ (lit 0.099 : F32).val ≤ 1) ∧ (1 ≤ (lit 1.099 : F32).val ∧ (lit 1.099 : F32).val ≤ 2) ∧
    (2 ≤ (lit 1 / lit 0.45 : F32).val ∧ (lit 1 / lit 0.45 : F32).val ≤ 3) := by decide +kernel
theorem bt_base_top : ((lit 1 + lit 0.099 : F32) / lit 1.099).val ≤ 1 := by decide +kernel

/-- The BT.709 decoder returns values in `[0, 1 + 2^-22]`. -/
theorem video_decode_range (o : F32.Oracle) (ho : o.PowAccurate (2 ^ (-22 : ℤ))) (v : F32) (hv : v.isFinite = true)
    (h0 : 0 ≤ v.val) (h1 : v.val ≤ 1) :
    0 ≤ (@BT709_to_Y F32 (F32.libm o) v).val ∧ (@BT709_to_Y F32 (F32.libm o) v).val ≤ top := by
  have tp : (1 : ℚ) ≤ top := by norm_num [top]
  unfold BT709_to_Y
  rw [lt_lit hv (c := 0) (by decide +kernel), lit_lt hv (c := 1) (by decide +kernel),
    lt_lit hv (c := 2717909/33554432) (by decide +kernel)]
  simp only [decide_eq_true_eq]
  rw [if_neg (not_lt.2 h0), if_neg (not_lt.2 h1)]
  split_ifs with h
  · obtain ⟨-, -, a, b⟩ := div_pos_val hv lit_4_5_fin h0 (by decide +kernel)
    exact ⟨a, (b.trans h1).trans tp⟩
  · exact power_range o ho v hv (le_trans (by norm_num) (not_lt.1 h)) h1 video_consts.1.1 video_consts.1.2.1
      video_consts.1.2.2 video_consts.2.1 video_consts.2.2.1 video_consts.2.2.2 bt_base_top

/-- The components of a decoded pixel are finite and in `[0, 1 + 2^-22]`. -/
theorem video_range (o : F32.Oracle) (ho : o.PowAccurate (2 ^ (-22 : ℤ))) (g : F32) {N i j k : ℕ} (hN : 0 < N) (hN' : N ≤ 65535)
    (hi : i ≤ N) (hj : j ≤ N) (hk : k ≤ N) :
    let t := @toScene F32 (F32.libm o) .BT709 (pixel N i j k) g
    Spectrum.NN t.a top ∧ Spectrum.NN t.b top ∧ Spectrum.NN t.c top := by
  have key : ∀ {n : ℕ}, n ≤ N → Spectrum.NN (@BT709_to_Y F32 (F32.libm o) (Arith.ofInt n / Arith.ofInt N)) top := by
    intro n hn
    obtain ⟨f, -⟩ := code_val hN hN' hn
    obtain ⟨a, b⟩ := code_range hN hN' hn
    obtain ⟨c, d⟩ := video_decode_range o ho _ f a b
    exact ⟨(C84_decode o ho _ f).fin, c, d⟩
  exact ⟨key hi, key hj, key hk⟩

theorem video_budget {N M : ℕ} {δ : ℚ} (hN : N ≤ M) (h0 : 0 ≤ δ) (h : (4.6 * δ + 2.6e-4) * M < 1 / 2) :
    (4.6 * δ + 2.6e-4) * N < 1 / 2 := by
  refine lt_of_le_of_lt ?_ h
  have : (N : ℚ) ≤ M := by exact_mod_cast hN
  exact mul_le_mul_of_nonneg_left this (by linarith)

/-- C113: a pixel of BT.709 video of up to 10 bits per channel, decoded and encoded again, has the codes it had. -/
theorem C113_direct (o : F32.Oracle) (ho : o.PowAccurate (2 ^ (-22 : ℤ))) (x : F32)
    (N i j k : ℕ) (hN : 0 < N) (hN' : N ≤ 1023) (hi : i ≤ N) (hj : j ≤ N) (hk : k ≤ N) :
    letI := F32.libm o
    HasCodes N i j k (toScreen .BT709 (toScene .BT709 (pixel N i j k) x) x) := by
  obtain ⟨ra, rb, rc⟩ := video_range o ho x hN (hN'.trans (by norm_num)) hi hj hk
  refine video_trip o ho x hN (hN'.trans (by norm_num)) hi hj hk (δ := 0) (video_budget hN' le_rfl (by norm_num))
    ⟨⟨ra.fin, rb.fin, rc.fin⟩, ?_, ?_, ?_⟩ <;> simp

/-- C113: … decoded, taken to XYZ by any predefined gamut and back, and encoded again, … -/
theorem C113_xyz (o : F32.Oracle) (ho : o.PowAccurate (2 ^ (-22 : ℤ))) (x : F32) (g : Gamut F32) (hg : g ∈ predefinedF32)
    (N i j k : ℕ) (hN : 0 < N) (hN' : N ≤ 1023) (hi : i ≤ N) (hj : j ≤ N) (hk : k ≤ N) :
    letI := F32.libm o
    HasCodes N i j k (toScreen .BT709 (g.fromXYZ (g.toXYZ (toScene .BT709 (pixel N i j k) x))) x) := by
  have r := video_range o ho x hN (hN'.trans (by norm_num)) hi hj hk
  have n := (C79_roundtrip g hg _ top (by norm_num [top]) (scene_within r)).1
  exact video_trip o ho x hN (hN'.trans (by norm_num)) hi hj hk (δ := 4.00001e-6) (video_budget hN' (by norm_num) (by norm_num))
    (near_weaken n (by norm_num [top]))

/-- C113: … converted to another RGB space and back, … -/
theorem C113_convert (o : F32.Oracle) (ho : o.PowAccurate (2 ^ (-22 : ℤ))) (x : F32) (a b : Gamut F32) (ha : a ∈ rgbF32)
    (hb : b ∈ rgbF32) (N i j k : ℕ) (hN : 0 < N) (hN' : N ≤ 1023) (hi : i ≤ N) (hj : j ≤ N) (hk : k ≤ N) :
    letI := F32.libm o
    HasCodes N i j k (toScreen .BT709 (((toScene .BT709 (pixel N i j k) x).apply (GamutConvert a b)).apply (GamutConvert b a)) x) := by
  have r := video_range o ho x hN (hN'.trans (by norm_num)) hi hj hk
  have n := C79_convert a b ha hb _ top (by norm_num [top]) (scene_within r)
  exact video_trip o ho x hN (hN'.trans (by norm_num)) hi hj hk (δ := 4.00001e-6) (video_budget hN' (by norm_num) (by norm_num))
    (near_weaken n (by norm_num [top]))

/-- C113: … taken to HSV, which is always defined, and back, … -/
theorem C113_hsv (o : F32.Oracle) (ho : o.PowAccurate (2 ^ (-22 : ℤ))) (x : F32)
    (N i j k : ℕ) (hN : 0 < N) (hN' : N ≤ 1023) (hi : i ≤ N) (hj : j ≤ N) (hk : k ≤ N) :
    letI := F32.libm o
    ∃ h z, Tristimulus.toHSV (toScene .BT709 (pixel N i j k) x) = some h ∧ Tristimulus.fromHSV h = some (.ok z) ∧
      HasCodes N i j k (toScreen .BT709 z x) := by
  have r := video_range o ho x hN (hN'.trans (by norm_num)) hi hj hk
  have goal : ∀ z, Near z (@toScene F32 (F32.libm o) .BT709 (pixel N i j k) x) 3.2e-6 →
      HasCodes N i j k (@toScreen F32 (F32.libm o) .BT709 z x) := fun z =>
    video_trip o ho x hN (hN'.trans (by norm_num)) hi hj hk (δ := 3.2e-6) (video_budget hN' (by norm_num) (by norm_num))
  generalize @toScene F32 (F32.libm o) .BT709 (pixel N i j k) x = t at *
  obtain ⟨ra, rb, rc⟩ := r
  have tp : top ≤ 2 ^ 120 := by norm_num [top]
  obtain ⟨h, z, e1, e2, f1, f2, f3, d1, d2, d3⟩ := C89_roundtrip t ra.fin rb.fin rc.fin ra.nonneg rb.nonneg rc.nonneg
    (ra.le.trans tp) (rb.le.trans tp) (rc.le.trans tp)
  refine ⟨h, z, e1, e2, goal z ?_⟩
  have m := max_le (max_le ra.le rb.le) rc.le
  have m2 : ∀ {d : ℚ}, d ≤ 3.1e-6 * max (max t.a.val t.b.val) t.c.val + 1 / 2 ^ 150 → d ≤ 3.2e-6 := by
    intro d h
    refine h.trans ?_
    have := mul_le_mul_of_nonneg_left m (show (0 : ℚ) ≤ 3.1e-6 by norm_num)
    norm_num [top] at this ⊢
    linarith
  exact ⟨⟨f1, f2, f3⟩, m2 d1, m2 d2, m2 d3⟩

/-- C113: … taken to CIELAB with the white of BT.709 and back, … -/
theorem C113_cielab (o : F32.Oracle) (ho : o.PowAccurate (2 ^ (-22 : ℤ))) (g : F32)
    (N i j k : ℕ) (hN : 0 < N) (hN' : N ≤ 1023) (hi : i ≤ N) (hj : j ≤ N) (hk : k ≤ N) :
    letI := F32.libm o
    let w : Tristimulus F32 := (Rec709 : Gamut F32).primaryWhite
    HasCodes N i j k (toScreen .BT709 ((Rec709 : Gamut F32).fromXYZ (fromCIELAB (toCIELAB
      ((Rec709 : Gamut F32).toXYZ (toScene .BT709 (pixel N i j k) g)) w) w)) g) := by
  have r := video_range o ho g hN (hN'.trans (by norm_num)) hi hj hk
  exact video_trip o ho g hN (hN'.trans (by norm_num)) hi hj hk (δ := 3.7e-5) (video_budget hN' (by norm_num) (by norm_num))
    (lab_near o ho r)

/-- C113: … of up to 9 bits per channel, taken to OKLAB and back, has the codes it had. -/
theorem C113_oklab (o : F32.Oracle) (ho : o.PowAccurate (2 ^ (-22 : ℤ))) (hc : o.CbrtAccurate (2 ^ (-22 : ℤ))) (g : F32)
    (N i j k : ℕ) (hN : 0 < N) (hN' : N ≤ 511) (hi : i ≤ N) (hj : j ≤ N) (hk : k ≤ N) :
    letI := F32.libm o
    HasCodes N i j k (toScreen .BT709 ((Rec709 : Gamut F32).fromXYZ (OKLAB_to_XYZ (XYZ_to_OKLAB
      ((Rec709 : Gamut F32).toXYZ (toScene .BT709 (pixel N i j k) g))))) g) := by
  have r := video_range o ho g hN (hN'.trans (by norm_num)) hi hj hk
  exact video_trip o ho g hN (hN'.trans (by norm_num)) hi hj hk (δ := 1.45e-4) (video_budget hN' (by norm_num) (by norm_num))
    (oklab_near o hc r)

theorem video_zero (o : F32.Oracle) {v : F32} (hv : v.isFinite = true) (h : v.val = 0) :
    (@BT709_to_Y F32 (F32.libm o) v).val = 0 := by
  unfold BT709_to_Y
  rw [lt_lit hv (c := 0) (by decide +kernel), lit_lt hv (c := 1) (by decide +kernel),
    lt_lit hv (c := 2717909/33554432) (by decide +kernel), h]
  simp only [decide_eq_true_eq]
  rw [if_neg (by norm_num), if_neg (by norm_num), if_pos (by norm_num)]
  obtain ⟨-, e, -⟩ := div_pos_val hv lit_4_5_fin h.ge (by decide +kernel)
  show (v / lit 4.50).val = 0
  rw [e, h, zero_div, rnd_zero]

/-- The decoded value of a code other than zero. -/
theorem video_pos (o : F32.Oracle) (ho : o.PowAccurate (2 ^ (-22 : ℤ))) {N n : ℕ} (hN : 0 < N) (hN' : N ≤ 1023) (hn : n ≤ N)
    (h0 : 0 < n) : 7.5e-5 ≤ (@BT709_to_Y F32 (F32.libm o) (Arith.ofInt n / Arith.ofInt N)).val := by
  obtain ⟨h1, h2⟩ := code_ap hN (hN'.trans (by norm_num)) hn
  have d := C84_decode o ho _ h1.fin
  rw [clampTo_of_mem h2] at d
  have e := (abs_le.1 h1.err).1
  have q : (1 / 1023 : ℝ) ≤ n / N := by
    rw [div_le_div_iff₀ (by norm_num) (by exact_mod_cast hN)]
    have a : (N : ℝ) ≤ 1023 := by exact_mod_cast hN'
    have b : (1 : ℝ) ≤ n := by exact_mod_cast h0
    nlinarith
  have dd := (abs_le.1 d.err).1
  have up := (bt709Inv_mem h2).2
  generalize ((Arith.ofInt n : F32) / Arith.ofInt N).val = v at *
  generalize (@BT709_to_Y F32 (F32.libm o) (Arith.ofInt n / Arith.ofInt N)).val = y at *
  have lo : (2.1e-4 : ℝ) ≤ bt709Inv v := by
    unfold bt709Inv
    split_ifs with h
    · rw [le_div_iff₀ (by norm_num)]
      norm_num at q e ⊢
      linarith
    · have g := bt709Inv_pow_lo (a := 0.081) (r := 0.0179450) (by norm_num) (by norm_num) (by norm_num) (not_lt.1 h)
      linarith
  have : (7.5e-5 : ℝ) ≤ y := by
    norm_num at dd ⊢
    linarith
  have h : ((7.5e-5 : ℚ) : ℝ) ≤ y := by push_cast; norm_num at this ⊢; exact this
  exact_mod_cast h

/-- C113: … of up to 10 bits per channel, black included, taken to Yxy and back, has the codes it had. -/
theorem C113_yxy (o : F32.Oracle) (ho : o.PowAccurate (2 ^ (-22 : ℤ))) (g : F32)
    (N i j k : ℕ) (hN : 0 < N) (hN' : N ≤ 1023) (hi : i ≤ N) (hj : j ≤ N) (hk : k ≤ N) :
    letI := F32.libm o
    HasCodes N i j k (toScreen .BT709 ((Rec709 : Gamut F32).fromXYZ (fromYxy (toYxy
      ((Rec709 : Gamut F32).toXYZ (toScene .BT709 (pixel N i j k) g))))) g) := by
  have r := video_range o ho g hN (hN'.trans (by norm_num)) hi hj hk
  refine video_trip o ho g hN (hN'.trans (by norm_num)) hi hj hk (δ := 2e-5) (video_budget hN' (by norm_num) (by norm_num))
    (yxy_near r ?_)
  have zero : ∀ {n : ℕ}, n = 0 → (@BT709_to_Y F32 (F32.libm o) (Arith.ofInt (n : ℤ) / Arith.ofInt N)).val = 0 := by
    rintro _ rfl
    obtain ⟨f, e, -⟩ := code_val hN (hN'.trans (by norm_num)) (Nat.zero_le N)
    refine video_zero o f ?_
    rw [e]; simp [rnd_zero]
  by_cases hb : i = 0 ∧ j = 0 ∧ k = 0
  · exact .inl ⟨zero hb.1, zero hb.2.1, zero hb.2.2⟩
  · right
    by_contra hn
    simp only [not_or] at hn
    refine hb ⟨?_, ?_, ?_⟩
    · by_contra h; exact hn.1.1 (video_pos o ho hN hN' hi (Nat.pos_of_ne_zero h))
    · by_contra h; exact hn.1.2 (video_pos o ho hN hN' hj (Nat.pos_of_ne_zero h))
    · by_contra h; exact hn.2 (video_pos o ho hN hN' hk (Nat.pos_of_ne_zero h))

/-- The hypotheses are met: there are such library functions, 10-bit video has such codes, and there is another RGB space. -/
example : (∃ o : F32.Oracle, o.PowAccurate (2 ^ (-22 : ℤ)) ∧ o.CbrtAccurate (2 ^ (-22 : ℤ))) ∧
    (0 < 1023 ∧ 1023 ≤ 1023 ∧ 64 ≤ 1023 ∧ 940 ≤ 1023) ∧ (Rec2020 : Gamut F32) ∈ rgbF32 := by
  obtain ⟨o, p, -, -, -, -, h⟩ := exists_accurate
  refine ⟨⟨o, fun x y a b c d e => ?_, fun x hx r hr => ⟨(h x hx r hr).1, (h x hx r hr).2.trans ?_⟩⟩, by norm_num, by simp [rgbF32]⟩
  · obtain ⟨f, g⟩ := p x y a b c d e
    refine ⟨f, g.trans ?_⟩
    have : (0 : ℝ) < (x.val : ℝ) ^ (y.val : ℝ) := lt_of_lt_of_le (by positivity) d
    gcongr <;> norm_num
  · gcongr <;> norm_num

end CS
