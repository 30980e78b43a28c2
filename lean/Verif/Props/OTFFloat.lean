import Verif.Lemmas.FloatOTF

/-!
# C83, C84, C85: transfer functions in binary32

The library's `powf` is a parameter; all that is assumed is a relative error of at most `2^-22` (four units of
rounding) where the result is far from overflow and underflow.
-/

namespace CS
open F32 B32 OTF Spec

/-! ## C83: sRGB -/

theorem srgb_zero : srgb 0 = 0 := by unfold srgb; norm_num
theorem srgb_one : srgb 1 = 1 := by unfold srgb; norm_num
theorem srgbInv_zero : srgbInv 0 = 0 := by unfold srgbInv; norm_num
theorem srgbInv_one : srgbInv 1 = 1 := by unfold srgbInv; norm_num

theorem lit_ap0 : Ap (Arith.lit 0 : F32) 0 0 := Ap.ofEval (q := 0) (e := 0) (by decide +kernel) (by norm_num) (by norm_num)
theorem lit_ap1 : Ap (Arith.lit 1 : F32) 1 0 := Ap.ofEval (q := 1) (e := 0) (by decide +kernel) (by norm_num) (by norm_num)

theorem ap_12_92 : Ap (Arith.lit 12.92 : F32) (12.92 : ℝ) 8e-8 :=
  Ap.ofEval (q := 12.92) (e := 8e-8) (by decide +kernel) (by norm_num) (by norm_num)
theorem ap_1_055 : Ap (Arith.lit 1.055 : F32) (1.055 : ℝ) 7e-8 :=
  Ap.ofEval (q := 1.055) (e := 7e-8) (by decide +kernel) (by norm_num) (by norm_num)
theorem ap_0_055 : Ap (Arith.lit 0.055 : F32) (0.055 : ℝ) 1e-9 :=
  Ap.ofEval (q := 0.055) (e := 1e-9) (by decide +kernel) (by norm_num) (by norm_num)
theorem ap_2_4 : Ap (Arith.lit 2.4 : F32) (2.4 : ℝ) 1.2e-7 :=
  Ap.ofEval (q := 2.4) (e := 1.2e-7) (by decide +kernel) (by norm_num) (by norm_num)
theorem ap_inv_2_4 : Ap (Arith.lit 1.0 / Arith.lit 2.4 : F32) (1 / 2.4 : ℝ) 2e-8 :=
  Ap.ofEval (q := 1 / 2.4) (e := 2e-8) (by decide +kernel) (by norm_num) (by norm_num)
theorem ap_1_099 : Ap (Arith.lit 1.099 : F32) (1.099 : ℝ) 7e-8 :=
  Ap.ofEval (q := 1.099) (e := 7e-8) (by decide +kernel) (by norm_num) (by norm_num)
theorem ap_0_099 : Ap (Arith.lit 0.099 : F32) (0.099 : ℝ) 1e-9 :=
  Ap.ofEval (q := 0.099) (e := 1e-9) (by decide +kernel) (by norm_num) (by norm_num)
theorem ap_0_45 : Ap (Arith.lit 0.45 : F32) (0.45 : ℝ) 2e-8 :=
  Ap.ofEval (q := 0.45) (e := 2e-8) (by decide +kernel) (by norm_num) (by norm_num)
theorem ap_inv_0_45 : Ap (Arith.lit 1 / Arith.lit 0.45 : F32) (1 / 0.45 : ℝ) 1.2e-7 :=
  Ap.ofEval (q := 1 / 0.45) (e := 1.2e-7) (by decide +kernel) (by norm_num) (by norm_num)

/-- C83: the sRGB encoder is within `6e-7` of the published curve, for every finite float. -/
theorem C83_encode (o : F32.Oracle) (ho : o.PowAccurate (2 ^ (-22 : ℤ))) (x : F32) (hx : x.isFinite = true) :
    Ap (@Y_to_sRGB F32 (F32.libm o) x) (srgb (clampTo 0 1 x.val)) 6e-7 := by
  unfold Y_to_sRGB
  rw [lt_lit hx (c := 0) (by decide +kernel), lit_lt hx (c := 1) (by decide +kernel),
    lt_lit hx (c := 3361671/1073741824) (by decide +kernel), clampTo_rat]
  simp only [decide_eq_true_eq]
  have c0 : x.val < 0 ↔ (x.val : ℝ) < 0 := by exact_mod_cast Iff.rfl
  have c1 : 1 < x.val ↔ (1 : ℝ) < x.val := by exact_mod_cast Iff.rfl
  split_ifs with h0 h1 h2
  · rw [srgb_zero]; exact lit_ap0.weaken (by norm_num)
  · rw [srgb_one]; exact lit_ap1.weaken (by norm_num)
  · rw [c0] at h0
    rw [c1] at h1
    have h3 : x.val < 0.0031308 := lt_of_lt_rnd (h2.trans_le (by decide +kernel))
    have h4 : (x.val : ℝ) < 0.0031308 := by
      have := (Rat.cast_lt (K := ℝ)).2 h3
      norm_num at this ⊢; exact this
    rw [srgb, if_pos h4, mul_comm (12.92 : ℝ)]
    exact (Ap.exact hx).mul ap_12_92
      (R := 0.0032) (S := 13) (by rw [abs_le]; constructor <;> linarith) (by norm_num [abs_le]) (by norm_num) (by norm_num)
  · rw [c1] at h1
    have h4 : (0.0031308 : ℝ) ≤ x.val := by
      have := (Rat.cast_le (K := ℝ)).2 (not_lt.1 h2)
      push_cast at this
      linarith
    rw [srgb, if_neg (not_lt.2 h4)]
    exact enc_pow_ap ho ap_inv_2_4
      ap_1_055
      ap_0_055 (by norm_num) (by norm_num)
      (by norm_num) (by norm_num) hx (by linarith) (by linarith)

/-- C83: the sRGB decoder has relative error at most `2e-6` (and `2^-149` near zero). -/
theorem C83_decode (o : F32.Oracle) (ho : o.PowAccurate (2 ^ (-22 : ℤ))) (v : F32) (hv : v.isFinite = true) :
    Ap (@sRGB_to_Y F32 (F32.libm o) v) (srgbInv (clampTo 0 1 v.val)) (2e-6 * srgbInv (clampTo 0 1 v.val) + 1 / 2 ^ 149) := by
  unfold sRGB_to_Y
  rw [lt_lit hv (c := 0) (by decide +kernel), lit_lt hv (c := 1) (by decide +kernel),
    lt_lit hv (c := 5429107/134217728) (by decide +kernel), clampTo_rat]
  simp only [decide_eq_true_eq]
  have c0 : v.val < 0 ↔ (v.val : ℝ) < 0 := by exact_mod_cast Iff.rfl
  have c1 : 1 < v.val ↔ (1 : ℝ) < v.val := by exact_mod_cast Iff.rfl
  split_ifs with h0 h1 h2
  · rw [srgbInv_zero]; exact lit_ap0.weaken (by norm_num)
  · rw [srgbInv_one]; exact lit_ap1.weaken (by norm_num)
  · rw [c0] at h0
    rw [c1] at h1
    have h4 : (v.val : ℝ) < 5429107/134217728 := by
      have := (Rat.cast_lt (K := ℝ)).2 h2
      push_cast at this; exact this
    rw [srgbInv, if_pos (by linarith)]
    have hq : 0 ≤ (v.val : ℝ) / 12.92 := div_nonneg (by linarith) (by norm_num)
    have hq1 : (v.val : ℝ) / 12.92 ≤ 1 := by rw [div_le_one (by norm_num)]; linarith
    refine (Ap.exact hv).div ap_12_92
      (Q := (v.val : ℝ) / 12.92) (S := 12) (d := 1e-8 * ((v.val : ℝ) / 12.92)) (by rw [abs_of_nonneg hq]) (by norm_num)
      (by norm_num) ?_ (by linarith) ?_
    · rw [div_le_iff₀ (by norm_num)]; linarith
    · generalize (v.val : ℝ) / 12.92 = z at *
      norm_num
      linarith
  · rw [c1] at h1
    have h4 : (5429107/134217728 : ℝ) ≤ v.val := by
      have := (Rat.cast_le (K := ℝ)).2 (not_lt.1 h2)
      push_cast at this; exact this
    have key := dec_pow_ap ho (y := Arith.lit 2.4) (a := Arith.lit 1.055) (b := Arith.lit 0.055) (s := 2.4) (A := 1.055)
      (B := 0.055) ap_2_4
      ap_1_055
      ap_0_055 (by norm_num) (by norm_num)
      (by norm_num) hv (by norm_num at h4 ⊢; linarith) (by linarith)
    have hpos : 0 < (((v.val : ℝ) + 0.055) / 1.055) ^ (2.4 : ℝ) :=
      Real.rpow_pos_of_pos (div_pos (by norm_num at h4 ⊢; linarith) (by norm_num)) _
    unfold srgbInv
    split_ifs with h5
    · -- the one float below the decimal knee that the code decodes with the power law
      have lo : 0.00313080711 ≤ (((v.val : ℝ) + 0.055) / 1.055) ^ (2.4 : ℝ) := by
        have a1 := le_rpow_of_pow (x := (5429107/134217728 + 0.055) / 1.055) (r := 0.00313080711) (p := 12) (q := 5)
          (by norm_num) (by norm_num) (by norm_num) (by norm_num)
        rw [show (((12 : ℕ) : ℝ) / ((5 : ℕ) : ℝ)) = 2.4 by norm_num] at a1
        refine a1.trans (Real.rpow_le_rpow (by norm_num) ?_ (by norm_num))
        gcongr
      have hi : (((v.val : ℝ) + 0.055) / 1.055) ^ (2.4 : ℝ) ≤ 0.0031308073 := by
        have a1 := rpow_le_of_pow (x := (0.04045 + 0.055) / 1.055) (r := 0.0031308073) (p := 12) (q := 5)
          (by norm_num) (by norm_num) (by norm_num) (by norm_num)
        rw [show (((12 : ℕ) : ℝ) / ((5 : ℕ) : ℝ)) = 2.4 by norm_num] at a1
        refine le_trans (Real.rpow_le_rpow ?_ ?_ (by norm_num)) a1
        · exact div_nonneg (by norm_num at h4 ⊢; linarith) (by norm_num)
        · gcongr
      refine ⟨key.fin, ?_⟩
      have k2 := key.err
      show |((o.powf _ _).val : ℝ) - _| ≤ _
      have q1 : 0.0031308048 ≤ (v.val : ℝ) / 12.92 := by rw [le_div_iff₀ (by norm_num)]; norm_num at h4 ⊢; linarith
      have q2 : (v.val : ℝ) / 12.92 ≤ 0.003130805 := by rw [div_le_iff₀ (by norm_num)]; linarith
      generalize (v.val : ℝ) / 12.92 = z at *
      generalize (((v.val : ℝ) + 0.055) / 1.055) ^ (2.4 : ℝ) = w at *
      have : (0 : ℝ) < 1 / 2 ^ 149 := by positivity
      obtain ⟨k3, k4⟩ := abs_le.1 k2
      rw [abs_le]
      constructor <;> linarith
    · refine key.weaken ?_
      have : (0 : ℝ) < 1 / 2 ^ 149 := by positivity
      linarith

theorem clamp01_mem (x : ℝ) : 0 ≤ clampTo 0 1 x ∧ clampTo 0 1 x ≤ 1 := by
  unfold clampTo
  exact ⟨le_max_left _ _, max_le (by norm_num) (min_le_left _ _)⟩

theorem clampTo_of_mem {x : ℝ} (h : 0 ≤ x ∧ x ≤ 1) : clampTo 0 1 x = x := by
  unfold clampTo; rw [min_eq_right h.2, max_eq_right h.1]

theorem clampTo_near {x y : ℝ} (h : 0 ≤ y ∧ y ≤ 1) : |clampTo 0 1 x - y| ≤ |x - y| := by
  unfold clampTo
  rcases lt_or_ge x 0 with h1 | h1
  · rw [min_eq_right (by linarith), max_eq_left h1.le, abs_of_nonpos (by linarith), abs_of_nonpos (by linarith)]; linarith
  · rcases le_or_gt x 1 with h2 | h2
    · rw [min_eq_right h2, max_eq_right h1]
    · rw [min_eq_left h2.le, max_eq_right (by norm_num), abs_of_nonneg (by linarith), abs_of_nonneg (by linarith)]; linarith

/-- The power segment near the knee. -/
theorem srgb_pow_knee {x : ℝ} (h0 : 0.0031308 ≤ x) (h1 : x ≤ 0.00313081) :
    0.0404499074 ≤ 1.055 * x ^ ((1 : ℝ) / 2.4) - 0.055 ∧ 1.055 * x ^ ((1 : ℝ) / 2.4) - 0.055 ≤ 0.040450035 := by
  refine ⟨srgb_mono_high h0, ?_⟩
  have a1 := rpow_le_of_pow (x := 0.00313081) (r := 0.095450035 / 1.055) (p := 5) (q := 12)
      (by norm_num) (by norm_num) (by norm_num) (by norm_num)
  rw [show (((5 : ℕ) : ℝ) / ((12 : ℕ) : ℝ)) = 1 / 2.4 by norm_num] at a1
  have a2 := Real.rpow_le_rpow (by linarith) h1 (show (0 : ℝ) ≤ 1 / 2.4 by norm_num)
  linarith

theorem srgb_pow_sens {c y : ℝ} {e : ℝ} (hy : 0 < y) (hy1 : y ≤ 1) (he : e < 1) (h : |c - y| ≤ e * y) :
    |(1.055 * c ^ ((1 : ℝ) / 2.4) - 0.055) - (1.055 * y ^ ((1 : ℝ) / 2.4) - 0.055)| ≤ 1.055 * e := by
  have := rpow_sens hy he (show 0 ≤ (1 : ℝ) / 2.4 ∧ (1 : ℝ) / 2.4 ≤ 1 by norm_num) h
  have h1 := Real.rpow_le_one hy.le hy1 (show (0 : ℝ) ≤ 1 / 2.4 by norm_num)
  have e0 : 0 ≤ e := nonneg_of_mul_nonneg_left ((abs_nonneg _).trans h) hy
  rw [show (1.055 * c ^ ((1 : ℝ) / 2.4) - 0.055) - (1.055 * y ^ ((1 : ℝ) / 2.4) - 0.055) =
    1.055 * (c ^ ((1 : ℝ) / 2.4) - y ^ ((1 : ℝ) / 2.4)) by ring, abs_mul, abs_of_pos (by norm_num)]
  have h2 : e * y ^ ((1 : ℝ) / 2.4) ≤ e := mul_le_of_le_one_right e0 h1
  nlinarith

theorem srgb_sens {c y : ℝ} (hc : 0 ≤ c ∧ c ≤ 1) (hy : 0 ≤ y ∧ y ≤ 1) (h : |c - y| ≤ 2e-6 * y + 1 / 2 ^ 149) :
    |srgb c - srgb y| ≤ 2.4e-6 := by
  obtain ⟨a1, a2⟩ := abs_le.1 h
  have tiny : (1 : ℝ) / 2 ^ 149 ≤ 1e-20 := by norm_num
  unfold srgb
  split_ifs with h1 h2 h2
  · rw [abs_le]; constructor <;> linarith
  · have g := srgb_pow_sens (c := 0.0031308) (y := y) (e := 2.01e-6) (by linarith) hy.2 (by norm_num)
      (by rw [abs_le]; constructor <;> linarith)
    have k1 := srgb_at_knee
    have k2 := srgb_at_knee'
    obtain ⟨g1, g2⟩ := abs_le.1 g
    rw [abs_le]; constructor <;> linarith
  · have g := srgb_pow_sens (c := c) (y := 0.0031308) (e := 2.01e-6) (by norm_num) (by norm_num) (by norm_num)
      (by rw [abs_le]; constructor <;> linarith)
    have k1 := srgb_at_knee
    have k2 := srgb_at_knee'
    obtain ⟨g1, g2⟩ := abs_le.1 g
    rw [abs_le]; constructor <;> linarith
  · have g := srgb_pow_sens (c := c) (y := y) (e := 2.01e-6) (by linarith) hy.2 (by norm_num)
      (by rw [abs_le]; constructor <;> linarith)
    linarith

theorem srgbInv_mem {v : ℝ} (hv : 0 ≤ v ∧ v ≤ 1) : 0 ≤ srgbInv v ∧ srgbInv v ≤ 1 := by
  unfold srgbInv
  split_ifs with h
  · exact ⟨div_nonneg hv.1 (by norm_num), by rw [div_le_one (by norm_num)]; linarith⟩
  · have h0 : 0 ≤ (v + 0.055) / 1.055 := div_nonneg (by linarith) (by norm_num)
    exact ⟨Real.rpow_nonneg h0 _, Real.rpow_le_one h0 (by rw [div_le_one (by norm_num)]; linarith) (by norm_num)⟩

theorem srgb_mem {x : ℝ} (hx : 0 ≤ x ∧ x ≤ 1) : 0 ≤ srgb x ∧ srgb x ≤ 1 := by
  have := sRGB_enc_range x
  rwa [Y_to_sRGB_real, if_neg (not_lt.2 hx.1), if_neg (not_lt.2 hx.2)] at this

theorem srgb_srgbInv {v : ℝ} (hv : 0 ≤ v ∧ v ≤ 1) : |srgb (srgbInv v) - v| ≤ 2e-7 := by
  unfold srgbInv
  split_ifs with h
  · unfold srgb
    split_ifs with h1
    · rw [mul_div_cancel₀ _ (by norm_num : (12.92 : ℝ) ≠ 0)]; norm_num
    · have h1' := not_lt.1 h1
      have h2 := (le_div_iff₀ (by norm_num)).1 h1'
      obtain ⟨g1, g2⟩ := srgb_pow_knee h1' (by rw [div_le_iff₀ (by norm_num)]; linarith)
      rw [abs_le]; constructor <;> linarith
  · have hk : srgbKnee ≤ ((v + 0.055) / 1.055) ^ (2.4 : ℝ) := by
      unfold srgbKnee
      refine Real.rpow_le_rpow (by norm_num) ?_ (by norm_num)
      gcongr; linarith
    have := lt_srgbKnee
    unfold srgb
    rw [if_neg (by linarith), rpow_inv_rpow' (div_nonneg (by linarith) (by norm_num)) (by norm_num),
      mul_div_cancel₀ _ (by norm_num : (1.055 : ℝ) ≠ 0)]
    norm_num

theorem srgbInv_pow_sens {c w : ℝ} (hc : 0 ≤ c ∧ c ≤ 1) (hw : 0 ≤ w ∧ w ≤ 1) :
    |((c + 0.055) / 1.055) ^ (2.4 : ℝ) - ((w + 0.055) / 1.055) ^ (2.4 : ℝ)| ≤ 2.844 * |c - w| := by
  have mem : ∀ {z : ℝ}, 0 ≤ z ∧ z ≤ 1 → 0 ≤ (z + 0.055) / 1.055 ∧ (z + 0.055) / 1.055 ≤ 1 := fun h =>
    ⟨div_nonneg (by linarith [h.1]) (by norm_num), by rw [div_le_one (by norm_num)]; linarith [h.2]⟩
  have := rpow_lip (mem hc).1 (mem hw).1 (mem hc).2 (mem hw).2 (show (1 : ℝ) ≤ 2.4 ∧ (2.4 : ℝ) ≤ 3 by norm_num)
  rw [show (c + 0.055) / 1.055 - (w + 0.055) / 1.055 = (c - w) / 1.055 by ring, abs_div, abs_of_pos (by norm_num : (0 : ℝ) < 1.055)] at this
  refine this.trans ?_
  rw [← mul_div_assoc, div_le_iff₀ (by norm_num)]
  nlinarith [abs_nonneg (c - w)]

theorem srgbInv_sens {c w : ℝ} (hc : 0 ≤ c ∧ c ≤ 1) (hw : 0 ≤ w ∧ w ≤ 1) (h : |c - w| ≤ 6e-7) :
    |srgbInv c - srgbInv w| ≤ 1.8e-6 := by
  have hk := srgbKnee_lt
  have hk' := lt_srgbKnee
  unfold srgbKnee at hk hk'
  have cross : ∀ {c w : ℝ}, 0 ≤ c ∧ c ≤ 1 → 0 ≤ w ∧ w ≤ 1 → |c - w| ≤ 6e-7 → c < 0.04045 → 0.04045 ≤ w →
      |c / 12.92 - ((w + 0.055) / 1.055) ^ (2.4 : ℝ)| ≤ 1.8e-6 := by
    intro c w hc hw h h1 h2
    obtain ⟨a1, a2⟩ := abs_le.1 h
    have g := srgbInv_pow_sens (c := 0.04045) (w := w) (by norm_num) hw
    rw [abs_of_nonpos (by linarith : 0.04045 - w ≤ 0)] at g
    rw [show c / 12.92 = 25 / 323 * c by ring]
    generalize (((0.04045 : ℝ) + 0.055) / 1.055) ^ (2.4 : ℝ) = K at *
    generalize ((w + 0.055) / 1.055) ^ (2.4 : ℝ) = W at *
    obtain ⟨g1, g2⟩ := abs_le.1 g
    rw [abs_le]; constructor <;> linarith
  unfold srgbInv
  split_ifs with h1 h2 h2
  · rw [← sub_div, abs_div, abs_of_pos (by norm_num : (0 : ℝ) < 12.92), div_le_iff₀ (by norm_num)]; linarith
  · exact cross hc hw h h1 (not_lt.1 h2)
  · rw [abs_sub_comm]
    exact cross hw hc (by rwa [abs_sub_comm]) h2 (not_lt.1 h1)
  · have := srgbInv_pow_sens hc hw
    linarith

theorem srgbInv_srgb {x : ℝ} (hx : 0 ≤ x ∧ x ≤ 1) : |srgbInv (srgb x) - x| ≤ 1e-8 := by
  have h1 : Y_to_sRGB x = srgb x := by rw [Y_to_sRGB_real, if_neg (not_lt.2 hx.1), if_neg (not_lt.2 hx.2)]
  have hm := srgb_mem hx
  have h2 : sRGB_to_Y (srgb x) = srgbInv (srgb x) := by
    rw [sRGB_to_Y_real, if_neg (not_lt.2 hm.1), if_neg (not_lt.2 hm.2)]; rfl
  by_cases h : x < 0.0031308 ∨ srgbKnee ≤ x
  · have := sRGB_scalar x h
    rw [h1, h2, clampTo_of_mem hx] at this
    rw [this]; norm_num
  · rw [not_or, not_lt, not_le] at h
    have := sRGB_window x h.1 h.2
    rw [h1, h2] at this
    exact this.le

/-- C83: decoding and encoding again returns every signal in `[0,1]` within `4e-6`. -/
theorem C83_decode_encode (o : F32.Oracle) (ho : o.PowAccurate (2 ^ (-22 : ℤ))) (v : F32) (hv : v.isFinite = true)
    (h : (0 : ℝ) ≤ v.val ∧ (v.val : ℝ) ≤ 1) :
    Ap (@Y_to_sRGB F32 (F32.libm o) (@sRGB_to_Y F32 (F32.libm o) v)) v.val 4e-6 := by
  have d := C83_decode o ho v hv
  rw [clampTo_of_mem h] at d
  have e := C83_encode o ho _ d.fin
  have hm := srgbInv_mem h
  have s := srgb_sens (clamp01_mem _) hm ((clampTo_near hm).trans d.err)
  have t := srgb_srgbInv h
  refine ⟨e.fin, ?_⟩
  have e1 := e.err
  generalize (@Y_to_sRGB F32 (F32.libm o) (@sRGB_to_Y F32 (F32.libm o) v)).val = w at *
  generalize srgb (clampTo 0 1 ((@sRGB_to_Y F32 (F32.libm o) v).val : ℝ)) = z at *
  rw [show (w : ℝ) - v.val = (w - z) + (z - srgb (srgbInv v.val)) + (srgb (srgbInv v.val) - v.val) by ring]
  refine (abs_add_three _ _ _).trans ?_
  linarith

/-- C83: encoding and decoding again returns every linear value in `[0,1]` within `4e-6`. -/
theorem C83_encode_decode (o : F32.Oracle) (ho : o.PowAccurate (2 ^ (-22 : ℤ))) (x : F32) (hx : x.isFinite = true)
    (h : (0 : ℝ) ≤ x.val ∧ (x.val : ℝ) ≤ 1) :
    Ap (@sRGB_to_Y F32 (F32.libm o) (@Y_to_sRGB F32 (F32.libm o) x)) x.val 4e-6 := by
  have e := C83_encode o ho x hx
  rw [clampTo_of_mem h] at e
  have d := C83_decode o ho _ e.fin
  have hm := srgb_mem h
  have s := srgbInv_sens (clamp01_mem _) hm ((clampTo_near hm).trans e.err)
  have t := srgbInv_srgb h
  have r := srgbInv_mem (clamp01_mem ((@Y_to_sRGB F32 (F32.libm o) x).val : ℝ))
  refine ⟨d.fin, ?_⟩
  have d1 := d.err
  generalize (@sRGB_to_Y F32 (F32.libm o) (@Y_to_sRGB F32 (F32.libm o) x)).val = w at *
  generalize srgbInv (clampTo 0 1 ((@Y_to_sRGB F32 (F32.libm o) x).val : ℝ)) = z at *
  rw [show (w : ℝ) - x.val = (w - z) + (z - srgbInv (srgb x.val)) + (srgbInv (srgb x.val) - x.val) by ring]
  refine (abs_add_three _ _ _).trans ?_
  have : (1 : ℝ) / 2 ^ 149 ≤ 1e-20 := by norm_num
  linarith

/-- The float of code `k` of `N`. -/
theorem code_val {k N : ℕ} (hN : 0 < N) (hN' : N ≤ 65535) (hk : k ≤ N) :
    ((Arith.ofInt k : F32) / (Arith.ofInt N : F32)).isFinite = true ∧
    ((Arith.ofInt k : F32) / (Arith.ofInt N : F32)).val = rnd (k / N) ∧ 0 ≤ rnd (k / N : ℚ) ∧ rnd (k / N : ℚ) ≤ 1 := by
  have int : ∀ n : ℕ, n ≤ 65535 → (Arith.ofInt (n : ℤ) : F32).isFinite = true ∧ (Arith.ofInt (n : ℤ) : F32).val = n := by
    intro n hn
    have hr : Rep ((n : ℤ) : ℚ) := rep_int (n := n) (by rw [abs_of_nonneg (by positivity)]; omega)
    have hv := rnd_of_rep hr
    rw [ofInt_def]
    obtain ⟨f, v⟩ := pack_finite (s := false) (q := ((n : ℤ) : ℚ)) (by
      rw [hv, abs_of_nonneg (by positivity)]
      have : ((n : ℤ) : ℚ) ≤ 65535 := by exact_mod_cast hn
      exact this.trans_lt (by norm_num))
    exact ⟨f, by rw [v, hv]; simp⟩
  obtain ⟨f1, v1⟩ := int k (hk.trans hN')
  obtain ⟨f2, v2⟩ := int N hN'
  have hN0 : (N : ℚ) ≠ 0 := by positivity
  have q0 : (0 : ℚ) ≤ k / N := by positivity
  have q1 : (k / N : ℚ) ≤ 1 := by rw [div_le_one (by positivity)]; exact_mod_cast hk
  rw [div_def, div_finite f1 f2 (by rw [v2]; exact hN0), v1, v2]
  have r1 : rnd (k / N : ℚ) ≤ 1 := rnd_le (by exact_mod_cast rep_int (n := 1) (by norm_num)) q1
  have r0 : 0 ≤ rnd (k / N : ℚ) := rnd_nonneg q0
  obtain ⟨f3, v3⟩ := pack_finite (s := (xor (Arith.ofInt (k : ℤ) : F32).sign (Arith.ofInt (N : ℤ) : F32).sign)) (q := (k / N : ℚ))
    (by rw [abs_of_nonneg r0]; exact r1.trans_lt (by norm_num))
  exact ⟨f3, v3, r0, r1⟩

theorem code_ap {k N : ℕ} (hN : 0 < N) (hN' : N ≤ 65535) (hk : k ≤ N) :
    Ap ((Arith.ofInt k : F32) / (Arith.ofInt N : F32)) (k / N) 6e-8 ∧
    (0 : ℝ) ≤ ((Arith.ofInt k : F32) / (Arith.ofInt N : F32)).val ∧ (((Arith.ofInt k : F32) / (Arith.ofInt N : F32)).val : ℝ) ≤ 1 := by
  obtain ⟨f3, v3, r0, r1⟩ := code_val hN hN' hk
  have q0 : (0 : ℚ) ≤ k / N := by positivity
  have q1 : (k / N : ℚ) ≤ 1 := by rw [div_le_one (by positivity)]; exact_mod_cast hk
  refine ⟨⟨f3, ?_⟩, ?_, ?_⟩
  · rw [v3]
    have h1 := rnd_rel' (k / N : ℚ)
    rw [abs_of_nonneg q0] at h1
    have h2 : |rnd (k / N : ℚ) - k / N| ≤ 6e-8 := by
      refine h1.trans ?_
      have : (k / N : ℚ) / 2 ^ 24 ≤ 1 / 2 ^ 24 := by gcongr
      norm_num at this ⊢; linarith
    have h3 := (Rat.cast_le (K := ℝ)).2 h2
    push_cast at h3
    norm_num at h3 ⊢; exact h3
  · rw [v3]; exact_mod_cast r0
  · rw [v3]; exact_mod_cast r1

/-- C83: every code of a scale with up to 16 bits survives decoding to linear light and encoding again: the result
rounds back to the same code. -/
theorem C83_codes (o : F32.Oracle) (ho : o.PowAccurate (2 ^ (-22 : ℤ))) (N k : ℕ) (hN : 0 < N) (hN' : N ≤ 65535) (hk : k ≤ N) :
    let v := (Arith.ofInt k : F32) / (Arith.ofInt N : F32)
    let w := @Y_to_sRGB F32 (F32.libm o) (@sRGB_to_Y F32 (F32.libm o) v)
    w.isFinite = true ∧ |(w.val : ℝ) * N - k| < 1 / 2 := by
  obtain ⟨h1, h2⟩ := code_ap hN hN' hk
  intro v w
  have h3 := C83_decode_encode o ho v h1.fin h2
  refine ⟨h3.fin, ?_⟩
  have hN0 : (0 : ℝ) < N := by exact_mod_cast hN
  have h4 : |(w.val : ℝ) - k / N| ≤ 4.1e-6 := by
    rw [show (w.val : ℝ) - k / N = (w.val - v.val) + (v.val - k / N) by ring]
    refine (abs_add_le _ _).trans ?_
    have := h3.err
    have := h1.err
    linarith
  rw [show (w.val : ℝ) * N - k = (w.val - k / N) * N by field_simp, abs_mul, abs_of_pos hN0]
  have h5 : (N : ℝ) ≤ 65535 := by exact_mod_cast hN'
  calc _ ≤ 4.1e-6 * (65535 : ℝ) := by gcongr
    _ < _ := by norm_num

/-- An implementation of `powf` as accurate as required, and the code 128 of 8 bits. -/
example : (∃ o : F32.Oracle, o.PowAccurate (2 ^ (-22 : ℤ))) ∧ 0 < 255 ∧ 255 ≤ 65535 ∧ 128 ≤ 255 := by
  obtain ⟨o, h⟩ := exists_powAccurate
  refine ⟨⟨o, fun x y a b c d e => ?_⟩, by norm_num, by norm_num, by norm_num⟩
  obtain ⟨f, g⟩ := h x y a b c d e
  refine ⟨f, g.trans ?_⟩
  have : (0 : ℝ) < (x.val : ℝ) ^ (y.val : ℝ) := lt_of_lt_of_le (by positivity) d
  gcongr <;> norm_num

/-! ## C84: BT.709 -/

theorem bt709_zero : bt709 0 = 0 := by unfold bt709; norm_num
theorem bt709_one : bt709 1 = 1 := by unfold bt709; norm_num
theorem bt709Inv_zero : bt709Inv 0 = 0 := by unfold bt709Inv; norm_num
theorem bt709Inv_one : bt709Inv 1 = 1 := by unfold bt709Inv; norm_num

theorem ap_4_5 : Ap (Arith.lit 4.50 : F32) (4.5 : ℝ) 0 :=
  Ap.ofEval (q := 4.5) (e := 0) (by decide +kernel) (by norm_num) (by norm_num)

/-- The two segments of the encoder, split where the code splits them. -/
theorem bt709_enc_segments (o : F32.Oracle) (ho : o.PowAccurate (2 ^ (-22 : ℤ))) (x : F32) (hx : x.isFinite = true)
    (h0 : 0 ≤ x.val) (h1 : x.val ≤ 1) :
    (x.val < 2415919/134217728 → @Y_to_BT709 F32 (F32.libm o) x = x * Arith.lit 4.50 ∧
      Ap (@Y_to_BT709 F32 (F32.libm o) x) (4.5 * x.val) 1e-8) ∧
    (2415919/134217728 ≤ x.val → Ap (@Y_to_BT709 F32 (F32.libm o) x) (1.099 * (x.val : ℝ) ^ (0.45 : ℝ) - 0.099) 6e-7) := by
  unfold Y_to_BT709
  rw [lt_lit hx (c := 0) (by decide +kernel), lit_lt hx (c := 1) (by decide +kernel),
    lt_lit hx (c := 2415919/134217728) (by decide +kernel)]
  simp only [decide_eq_true_eq]
  rw [if_neg (not_lt.2 h0), if_neg (not_lt.2 h1)]
  have h0' : (0 : ℝ) ≤ x.val := by exact_mod_cast h0
  have h1' : (x.val : ℝ) ≤ 1 := by exact_mod_cast h1
  constructor
  · intro h
    rw [if_pos h]
    have h2 : (x.val : ℝ) < 2415919/134217728 := by
      have := (Rat.cast_lt (K := ℝ)).2 h
      push_cast at this; exact this
    refine ⟨rfl, ?_⟩
    rw [mul_comm (4.5 : ℝ)]
    exact (Ap.exact hx).mul ap_4_5 (R := 0.019) (S := 4.5) (by rw [abs_le]; constructor <;> linarith) (by norm_num [abs_le])
      (by norm_num) (by norm_num)
  · intro h
    rw [if_neg (not_lt.2 h)]
    have h2 : (2415919/134217728 : ℝ) ≤ x.val := by
      have := (Rat.cast_le (K := ℝ)).2 h
      push_cast at this; exact this
    exact enc_pow_ap ho ap_0_45 ap_1_099 ap_0_099 (by norm_num) (by norm_num) (by norm_num) (by norm_num) hx
      (by norm_num at h2 ⊢; linarith) h1'

theorem bt709_enc_out (o : F32.Oracle) (x : F32) (hx : x.isFinite = true) :
    (x.val < 0 → @Y_to_BT709 F32 (F32.libm o) x = Arith.lit 0) ∧ (1 < x.val → @Y_to_BT709 F32 (F32.libm o) x = Arith.lit 1) := by
  unfold Y_to_BT709
  rw [lt_lit hx (c := 0) (by decide +kernel), lit_lt hx (c := 1) (by decide +kernel)]
  simp only [decide_eq_true_eq]
  refine ⟨fun h => by rw [if_pos h], fun h => by rw [if_neg (by linarith), if_pos h]⟩

/-- C84: the BT.709 encoder is within `6e-7` of the published curve for every finite float except the one nearest to
0.018. -/
theorem C84_encode (o : F32.Oracle) (ho : o.PowAccurate (2 ^ (-22 : ℤ))) (x : F32) (hx : x.isFinite = true)
    (hk : x ≠ Arith.lit 0.018) : Ap (@Y_to_BT709 F32 (F32.libm o) x) (bt709 (clampTo 0 1 x.val)) 6e-7 := by
  have hk' : x.val ≠ 2415919/134217728 := by
    intro h
    refine hk (ext_finite hx (by decide +kernel) (h.trans (by decide +kernel)) ?_)
    have : x.sign = false := by
      cases x with
      | num q hq =>
        change q = _ at h
        show decide (q < 0) = false
        rw [h]; decide +kernel
      | nan => cases hx
      | inf _ => cases hx
      | zero _ => exact absurd h (by norm_num [F32.val])
    rw [this]; decide +kernel
  rw [clampTo_rat]
  split_ifs with h0 h1
  · rw [(bt709_enc_out o x hx).1 h0, bt709_zero]; exact lit_ap0.weaken (by norm_num)
  · rw [(bt709_enc_out o x hx).2 h1, bt709_one]; exact lit_ap1.weaken (by norm_num)
  · obtain ⟨s1, s2⟩ := bt709_enc_segments o ho x hx (not_lt.1 h0) (not_lt.1 h1)
    rcases lt_or_ge x.val (2415919/134217728) with h2 | h2
    · have h3 : (x.val : ℝ) < 0.018 := by
        have := (Rat.cast_lt (K := ℝ)).2 h2
        push_cast at this; linarith
      rw [bt709, if_pos h3]
      exact (s1 h2).2.weaken (by norm_num)
    · have h3 : (0.018 : ℚ) ≤ x.val := by
        by_contra hc
        have h4 := rnd_mono (not_le.1 hc).le
        rw [rnd_of_rep x.rep_val, show rnd 0.018 = 2415919/134217728 by decide +kernel] at h4
        exact hk' (le_antisymm h4 h2)
      have h4 : (0.018 : ℝ) ≤ x.val := by
        have := (Rat.cast_le (K := ℝ)).2 h3
        norm_num at this ⊢; exact this
      rw [bt709, if_neg (not_lt.2 h4)]
      exact s2 h2

/-- Powers around the knee. -/
theorem bt709_pow_lo {x : ℝ} (h : 2415919/134217728 ≤ x) : 0.0812479 ≤ 1.099 * x ^ (0.45 : ℝ) - 0.099 := by
  have a1 := le_rpow_of_pow (x := 2415919/134217728) (r := 0.1802479 / 1.099) (p := 9) (q := 20)
      (by norm_num) (by norm_num) (by norm_num) (by norm_num)
  rw [show (((9 : ℕ) : ℝ) / ((20 : ℕ) : ℝ)) = 0.45 by norm_num] at a1
  have a2 := Real.rpow_le_rpow (by norm_num) h (show (0 : ℝ) ≤ 0.45 by norm_num)
  linarith

theorem bt709_pow_hi {x : ℝ} (h0 : 0 ≤ x) (h : x ≤ 0.0180007) : 1.099 * x ^ (0.45 : ℝ) - 0.099 ≤ 0.0812512 := by
  have a1 := rpow_le_of_pow (x := 0.0180007) (r := 0.1802512 / 1.099) (p := 9) (q := 20)
      (by norm_num) (by norm_num) (by norm_num) (by norm_num)
  rw [show (((9 : ℕ) : ℝ) / ((20 : ℕ) : ℝ)) = 0.45 by norm_num] at a1
  have a2 := Real.rpow_le_rpow h0 h (show (0 : ℝ) ≤ 0.45 by norm_num)
  linarith

theorem bt709Inv_pow_lo {v a r : ℝ} (hr : 0 ≤ r) (ha : 0 ≤ a) (h : r ^ 9 ≤ ((a + 0.099) / 1.099) ^ 20) (hv : a ≤ v) :
    r ≤ ((v + 0.099) / 1.099) ^ ((1 : ℝ) / 0.45) := by
  have a1 := le_rpow_of_pow (x := (a + 0.099) / 1.099) (r := r) (p := 20) (q := 9)
      (div_nonneg (by linarith) (by norm_num)) hr (by norm_num) h
  rw [show (((20 : ℕ) : ℝ) / ((9 : ℕ) : ℝ)) = 1 / 0.45 by norm_num] at a1
  refine a1.trans (Real.rpow_le_rpow (div_nonneg (by linarith) (by norm_num)) ?_ (by norm_num))
  gcongr

theorem bt709Inv_pow_hi {v a r : ℝ} (hr : 0 ≤ r) (h0 : 0 ≤ v) (h : ((a + 0.099) / 1.099) ^ 20 ≤ r ^ 9) (hv : v ≤ a) :
    ((v + 0.099) / 1.099) ^ ((1 : ℝ) / 0.45) ≤ r := by
  have a1 := rpow_le_of_pow (x := (a + 0.099) / 1.099) (r := r) (p := 20) (q := 9)
      (div_nonneg (by linarith) (by norm_num)) hr (by norm_num) h
  rw [show (((20 : ℕ) : ℝ) / ((9 : ℕ) : ℝ)) = 1 / 0.45 by norm_num] at a1
  refine le_trans (Real.rpow_le_rpow (div_nonneg (by linarith) (by norm_num)) ?_ (by norm_num)) a1
  gcongr

/-- C84: at that float the encoder is off by 2.4e-4: the segments of the published curve do not meet, and the float is
below 0.018 while the code takes it to be at the knee. -/
theorem C84_encode_knee (o : F32.Oracle) (ho : o.PowAccurate (2 ^ (-22 : ℤ))) :
    bt709 (Arith.lit 0.018 : F32).val + 2.4e-4 < (@Y_to_BT709 F32 (F32.libm o) (Arith.lit 0.018)).val := by
  have hv : (Arith.lit 0.018 : F32).val = 2415919/134217728 := by decide +kernel
  obtain ⟨-, s2⟩ := bt709_enc_segments o ho (Arith.lit 0.018) (by decide +kernel) (by decide +kernel) (by decide +kernel)
  have h := (abs_le.1 (s2 (by rw [hv])).err).1
  rw [hv] at h ⊢
  push_cast at h ⊢
  have := bt709_pow_lo (le_refl (2415919/134217728 : ℝ))
  rw [bt709, if_pos (by norm_num)]
  linarith

/-- C84: the BT.709 decoder has relative error at most `1.2e-6` (and `2^-149` near zero). -/
theorem C84_decode (o : F32.Oracle) (ho : o.PowAccurate (2 ^ (-22 : ℤ))) (v : F32) (hv : v.isFinite = true) :
    Ap (@BT709_to_Y F32 (F32.libm o) v) (bt709Inv (clampTo 0 1 v.val)) (1.2e-6 * bt709Inv (clampTo 0 1 v.val) + 1 / 2 ^ 149) := by
  unfold BT709_to_Y
  rw [lt_lit hv (c := 0) (by decide +kernel), lit_lt hv (c := 1) (by decide +kernel),
    lt_lit hv (c := 2717909/33554432) (by decide +kernel), clampTo_rat]
  simp only [decide_eq_true_eq]
  have c0 : v.val < 0 ↔ (v.val : ℝ) < 0 := by exact_mod_cast Iff.rfl
  have c1 : 1 < v.val ↔ (1 : ℝ) < v.val := by exact_mod_cast Iff.rfl
  split_ifs with h0 h1 h2
  · rw [bt709Inv_zero]; exact lit_ap0.weaken (by norm_num)
  · rw [bt709Inv_one]; exact lit_ap1.weaken (by norm_num)
  · rw [c0] at h0
    rw [c1] at h1
    have h3 : v.val < 0.081 := lt_of_lt_rnd (h2.trans_le (by decide +kernel))
    have h4 : (v.val : ℝ) < 0.081 := by
      have := (Rat.cast_lt (K := ℝ)).2 h3
      norm_num at this ⊢; exact this
    rw [bt709Inv, if_pos h4]
    have hq : 0 ≤ (v.val : ℝ) / 4.5 := div_nonneg (by linarith) (by norm_num)
    have hq1 : (v.val : ℝ) / 4.5 ≤ 1 := by rw [div_le_one (by norm_num)]; linarith
    refine (Ap.exact hv).div ap_4_5
      (Q := (v.val : ℝ) / 4.5) (S := 4) (d := 0) (by rw [abs_of_nonneg hq]) (by norm_num)
      (by norm_num) (by norm_num) (by linarith) ?_
    generalize (v.val : ℝ) / 4.5 = z at *
    norm_num
    linarith
  · rw [c1] at h1
    have h4 : (2717909/33554432 : ℝ) ≤ v.val := by
      have := (Rat.cast_le (K := ℝ)).2 (not_lt.1 h2)
      push_cast at this; exact this
    have key := dec_pow_ap ho ap_inv_0_45 ap_1_099 ap_0_099 (by norm_num) (by norm_num)
      (by norm_num) hv (by norm_num at h4 ⊢; linarith) (by linarith)
    rw [bt709Inv, if_neg (by norm_num at h4 ⊢; linarith)]
    refine key.weaken ?_
    have : (0 : ℝ) < 1 / 2 ^ 149 := by positivity
    linarith

theorem bt709Inv_pow_sens {c w : ℝ} (hc : 0 ≤ c ∧ c ≤ 1) (hw : 0 ≤ w ∧ w ≤ 1) :
    |((c + 0.099) / 1.099) ^ ((1 : ℝ) / 0.45) - ((w + 0.099) / 1.099) ^ ((1 : ℝ) / 0.45)| ≤ 2.73 * |c - w| := by
  have mem : ∀ {z : ℝ}, 0 ≤ z ∧ z ≤ 1 → 0 ≤ (z + 0.099) / 1.099 ∧ (z + 0.099) / 1.099 ≤ 1 := fun h =>
    ⟨div_nonneg (by linarith [h.1]) (by norm_num), by rw [div_le_one (by norm_num)]; linarith [h.2]⟩
  have := rpow_lip (mem hc).1 (mem hw).1 (mem hc).2 (mem hw).2 (show (1 : ℝ) ≤ 1 / 0.45 ∧ (1 : ℝ) / 0.45 ≤ 3 by norm_num)
  rw [show (c + 0.099) / 1.099 - (w + 0.099) / 1.099 = (c - w) / 1.099 by ring, abs_div, abs_of_pos (by norm_num : (0 : ℝ) < 1.099)] at this
  refine this.trans ?_
  rw [← mul_div_assoc, div_le_iff₀ (by norm_num)]
  nlinarith [abs_nonneg (c - w)]

/-- Floats of `[2^-6, 2^-5)` are multiples of `2^-29`. -/
theorem rep_grid {q : ℚ} (h : Rep q) (h0 : 1 / 64 ≤ q) : ∃ n : ℤ, q = n / 2 ^ 29 := by
  obtain ⟨m, e, h1, h2, h3⟩ := h
  have he : -29 ≤ e := by
    by_contra hc
    have h4 : q < 1 / 64 := by
      have hm : (m : ℚ) < 2 ^ 24 := by exact_mod_cast (abs_lt.1 h2).2
      have he' : (2 : ℚ) ^ e ≤ 2 ^ (-30 : ℤ) := zpow_le_zpow_right₀ (by norm_num) (by omega)
      have hp : (0 : ℚ) < 2 ^ e := by positivity
      rw [h1]
      calc (m : ℚ) * 2 ^ e < 2 ^ 24 * 2 ^ e := by gcongr
        _ ≤ 2 ^ 24 * 2 ^ (-30 : ℤ) := by gcongr
        _ = _ := by norm_num
    linarith
  obtain ⟨k, rfl⟩ : ∃ k : ℕ, e = k - 29 := ⟨(e + 29).toNat, by omega⟩
  refine ⟨m * 2 ^ k, ?_⟩
  rw [h1, zpow_sub₀ (by norm_num)]
  push_cast
  rw [mul_div_assoc, zpow_natCast]
  norm_num

/-- C84: encoding and decoding again returns every linear value in `[0,1]` within `4e-6`. -/
theorem C84_encode_decode (o : F32.Oracle) (ho : o.PowAccurate (2 ^ (-22 : ℤ))) (x : F32) (hx : x.isFinite = true)
    (h : (0 : ℝ) ≤ x.val ∧ (x.val : ℝ) ≤ 1) :
    Ap (@BT709_to_Y F32 (F32.libm o) (@Y_to_BT709 F32 (F32.libm o) x)) x.val 4e-6 := by
  have h0 : 0 ≤ x.val := by exact_mod_cast h.1
  have h1 : x.val ≤ 1 := by exact_mod_cast h.2
  obtain ⟨s1, s2⟩ := bt709_enc_segments o ho x hx h0 h1
  rcases lt_or_ge x.val (2415919/134217728) with h2 | h2
  · -- the linear segment
    obtain ⟨e1, e2⟩ := s1 h2
    have hle : x.val ≤ 9663675 / 2 ^ 29 := by
      rcases lt_or_ge x.val (1 / 64) with h3 | h3
      · exact h3.le.trans (by norm_num)
      · obtain ⟨n, hn⟩ := rep_grid x.rep_val h3
        rw [hn] at h2 ⊢
        have h4 : (n : ℚ) < 9663676 := by
          rw [div_lt_iff₀ (by norm_num)] at h2
          refine h2.trans_le (by norm_num)
        have h5 : n < 9663676 := by exact_mod_cast h4
        have h6 : (n : ℚ) ≤ 9663675 := by exact_mod_cast (by omega : n ≤ 9663675)
        gcongr
    have hlit : (Arith.lit 4.50 : F32).isFinite = true ∧ (Arith.lit 4.50 : F32).val = 4.5 := by decide +kernel
    have f := e2.fin
    have hr0 : 0 ≤ rnd (x.val * 4.5) := rnd_nonneg (by linarith)
    have hr1 : rnd (x.val * 4.5) < 2717909/33554432 :=
      (rnd_mono (show x.val * 4.5 ≤ 9663675 / 2 ^ 29 * 4.5 by gcongr)).trans_lt (by decide +kernel)
    have hval : (@Y_to_BT709 F32 (F32.libm o) x).val = rnd (x.val * 4.5) := by
      rw [e1, mul_def, mul_finite hx hlit.1, hlit.2]
      exact (pack_finite (by rw [abs_of_nonneg hr0]; exact hr1.trans (by norm_num))).2
    have d := C84_decode o ho _ f
    have hlt : ((@Y_to_BT709 F32 (F32.libm o) x).val : ℝ) < 0.081 := by
      have : (@Y_to_BT709 F32 (F32.libm o) x).val < 0.081 :=
        lt_of_lt_rnd (by rw [hval]; exact hr1.trans_le (by decide +kernel))
      have := (Rat.cast_lt (K := ℝ)).2 this
      norm_num at this ⊢; exact this
    have hge : (0 : ℝ) ≤ (@Y_to_BT709 F32 (F32.libm o) x).val := by rw [hval]; exact_mod_cast hr0
    rw [clampTo_of_mem ⟨hge, by linarith⟩, bt709Inv, if_pos hlt] at d
    obtain ⟨a1, a2⟩ := abs_le.1 e2.err
    obtain ⟨b1, b2⟩ := abs_le.1 d.err
    refine ⟨d.fin, ?_⟩
    generalize ((@Y_to_BT709 F32 (F32.libm o) x).val : ℝ) = z at *
    rw [show z / 4.5 = 2 / 9 * z by ring] at b1 b2
    have tiny : (1 : ℝ) / 2 ^ 149 ≤ 1e-20 := by norm_num
    rw [abs_le]; constructor <;> linarith
  · -- the power segment
    have e := s2 h2
    have h2' : (2415919/134217728 : ℝ) ≤ x.val := by
      have := (Rat.cast_le (K := ℝ)).2 h2
      push_cast at this; exact this
    have lo := bt709_pow_lo h2'
    have hi : 1.099 * (x.val : ℝ) ^ (0.45 : ℝ) - 0.099 ≤ 1 := by
      have := Real.rpow_le_one h.1 h.2 (show (0 : ℝ) ≤ 0.45 by norm_num)
      linarith
    have inv : ((1.099 * (x.val : ℝ) ^ (0.45 : ℝ) - 0.099 + 0.099) / 1.099) ^ ((1 : ℝ) / 0.45) = x.val := by
      rw [show (1.099 * (x.val : ℝ) ^ (0.45 : ℝ) - 0.099 + 0.099) / 1.099 = (x.val : ℝ) ^ (0.45 : ℝ) by ring]
      exact rpow_inv_rpow' h.1 (by norm_num)
    generalize 1.099 * (x.val : ℝ) ^ (0.45 : ℝ) - 0.099 = w at *
    have hw : 0 ≤ w ∧ w ≤ 1 := ⟨by linarith, hi⟩
    have d := C84_decode o ho _ e.fin
    have hc := (clampTo_near hw).trans e.err
    have hm := clamp01_mem ((@Y_to_BT709 F32 (F32.libm o) x).val : ℝ)
    obtain ⟨f1, d1⟩ := d
    refine ⟨f1, ?_⟩
    generalize clampTo 0 1 ((@Y_to_BT709 F32 (F32.libm o) x).val : ℝ) = c at *
    obtain ⟨g1, g2⟩ := abs_le.1 hc
    rw [bt709Inv, if_neg (by linarith)] at d1
    have t := bt709Inv_pow_sens hm hw
    rw [inv] at t
    have t1 : ((c + 0.099) / 1.099) ^ ((1 : ℝ) / 0.45) ≤ 1 :=
      Real.rpow_le_one (div_nonneg (by linarith) (by norm_num)) (by rw [div_le_one (by norm_num)]; linarith) (by norm_num)
    generalize ((c + 0.099) / 1.099) ^ ((1 : ℝ) / 0.45) = T at *
    obtain ⟨a1, a2⟩ := abs_le.1 (t.trans (mul_le_mul_of_nonneg_left hc (by norm_num)))
    obtain ⟨b1, b2⟩ := abs_le.1 d1
    have tiny : (1 : ℝ) / 2 ^ 149 ≤ 1e-20 := by norm_num
    rw [abs_le]; constructor <;> linarith

/-- C84: decoding and encoding again returns every signal in `[0,1]` outside the gap `(0.08099, 0.08125)` within
`4e-6`, and within `4e-4` in the gap (the published segments do not meet there). -/
theorem C84_decode_encode (o : F32.Oracle) (ho : o.PowAccurate (2 ^ (-22 : ℤ))) (v : F32) (hv : v.isFinite = true)
    (h : (0 : ℝ) ≤ v.val ∧ (v.val : ℝ) ≤ 1) :
    ((v.val : ℝ) ≤ 0.08099 ∨ 0.08125 ≤ (v.val : ℝ) →
      Ap (@Y_to_BT709 F32 (F32.libm o) (@BT709_to_Y F32 (F32.libm o) v)) v.val 4e-6) ∧
    Ap (@Y_to_BT709 F32 (F32.libm o) (@BT709_to_Y F32 (F32.libm o) v)) v.val 4e-4 := by
  have d := C84_decode o ho v hv
  rw [clampTo_of_mem h] at d
  have tiny : (1 : ℝ) / 2 ^ 149 ≤ 1e-20 := by norm_num
  generalize @BT709_to_Y F32 (F32.libm o) v = y at *
  have kv : (Arith.lit 0.018 : F32).val = 2415919/134217728 := by decide +kernel
  rcases le_or_gt (v.val : ℝ) 0.08099 with h1 | h1
  · rw [bt709Inv, if_pos (by linarith)] at d
    obtain ⟨b1, b2⟩ := abs_le.1 d.err
    rw [show (v.val : ℝ) / 4.5 = 2 / 9 * v.val by ring] at b1 b2
    have ne : y ≠ Arith.lit 0.018 := by
      rintro rfl
      rw [kv] at b2
      norm_num at b2 tiny h1
      linarith
    have e := C84_encode o ho y d.fin ne
    have c1 := clampTo_near (x := (y.val : ℝ)) (y := 2 / 9 * v.val) ⟨by linarith, by linarith⟩
    have c2 := c1.trans (abs_le.2 ⟨b1, b2⟩)
    obtain ⟨f1, e1⟩ := e
    generalize clampTo 0 1 (y.val : ℝ) = c at *
    obtain ⟨g1, g2⟩ := abs_le.1 c2
    rw [bt709, if_pos (by linarith)] at e1
    have : Ap (@Y_to_BT709 F32 (F32.libm o) y) v.val 4e-6 := by
      refine ⟨f1, ?_⟩
      obtain ⟨p1, p2⟩ := abs_le.1 e1
      rw [abs_le]; constructor <;> linarith
    exact ⟨fun _ => this, this.weaken (by norm_num)⟩
  rcases le_or_gt 0.08125 (v.val : ℝ) with h2 | h2
  · rw [bt709Inv, if_neg (by linarith)] at d
    have lo := bt709Inv_pow_lo (a := 0.08125) (r := 0.0180004) (by norm_num) (by norm_num) (by norm_num) h2
    have hi : (((v.val : ℝ) + 0.099) / 1.099) ^ ((1 : ℝ) / 0.45) ≤ 1 :=
      Real.rpow_le_one (div_nonneg (by linarith) (by norm_num)) (by rw [div_le_one (by norm_num)]; linarith) (by norm_num)
    have inv : 1.099 * ((((v.val : ℝ) + 0.099) / 1.099) ^ ((1 : ℝ) / 0.45)) ^ (0.45 : ℝ) - 0.099 = (v.val : ℝ) := by
      rw [rpow_inv_rpow' (div_nonneg (by linarith) (by norm_num)) (by norm_num), mul_div_cancel₀ _ (by norm_num : (1.099 : ℝ) ≠ 0)]
      ring
    generalize (((v.val : ℝ) + 0.099) / 1.099) ^ ((1 : ℝ) / 0.45) = T at *
    obtain ⟨b1, b2⟩ := abs_le.1 d.err
    have ne : y ≠ Arith.lit 0.018 := by
      rintro rfl
      rw [kv] at b1
      norm_num at b1 tiny lo
      linarith
    have e := C84_encode o ho y d.fin ne
    have c1 := clampTo_near (x := (y.val : ℝ)) (y := T) ⟨by linarith, by linarith⟩
    have c2 := c1.trans (abs_le.2 ⟨b1, b2⟩)
    obtain ⟨f1, e1⟩ := e
    generalize clampTo 0 1 (y.val : ℝ) = c at *
    obtain ⟨g1, g2⟩ := abs_le.1 c2
    rw [bt709, if_neg (by linarith)] at e1
    have s := rpow_sens (t := c) (t0 := T) (e := 1.3e-6) (p := 0.45) (by linarith) (by norm_num) (by norm_num)
      (by rw [abs_le]; constructor <;> linarith)
    have p1 : T ^ (0.45 : ℝ) ≤ 1 := Real.rpow_le_one (by linarith) hi (by norm_num)
    have : Ap (@Y_to_BT709 F32 (F32.libm o) y) v.val 4e-6 := by
      refine ⟨f1, ?_⟩
      generalize c ^ (0.45 : ℝ) = C at *
      generalize T ^ (0.45 : ℝ) = D at *
      obtain ⟨p1, p2⟩ := abs_le.1 e1
      obtain ⟨q1, q2⟩ := abs_le.1 s
      rw [abs_le]; constructor <;> linarith
    exact ⟨fun _ => this, this.weaken (by norm_num)⟩
  refine ⟨fun hc => absurd hc (by rw [not_or]; exact ⟨not_le.2 h1, not_le.2 h2⟩), ?_⟩
  -- the gap: bounds on the decoded value
  have hT : 0.0179449 ≤ bt709Inv v.val ∧ bt709Inv v.val ≤ 0.0180006 ∧ (v.val : ℝ) - 3.8e-4 ≤ 4.5 * bt709Inv v.val := by
    unfold bt709Inv
    split_ifs with h3
    · refine ⟨?_, ?_, ?_⟩
      · rw [le_div_iff₀ (by norm_num)]; linarith
      · rw [div_le_iff₀ (by norm_num)]; linarith
      · rw [mul_div_cancel₀ _ (by norm_num : (4.5 : ℝ) ≠ 0)]; linarith
    · have l1 := bt709Inv_pow_lo (a := 0.081) (r := 0.0179450) (by norm_num) (by norm_num) (by norm_num) (not_lt.1 h3)
      have u1 := bt709Inv_pow_hi (a := 0.08125) (r := 0.0180005) (by norm_num) h.1 (by norm_num) h2.le
      refine ⟨by linarith, by linarith, ?_⟩
      rcases le_or_gt (v.val : ℝ) 0.081125 with h4 | h4
      · linarith
      · have l2 := bt709Inv_pow_lo (a := 0.081125) (r := 0.0179727) (by norm_num) (by norm_num) (by norm_num) h4.le
        linarith
  obtain ⟨t1, t2, t3⟩ := hT
  obtain ⟨fy, dy⟩ := d
  generalize bt709Inv v.val = Y at *
  obtain ⟨b1, b2⟩ := abs_le.1 dy
  obtain ⟨s1, s2⟩ := bt709_enc_segments o ho y fy (by
      have : (0 : ℝ) ≤ y.val := by linarith
      exact_mod_cast this) (by
      have : (y.val : ℝ) ≤ 1 := by linarith
      exact_mod_cast this)
  rcases lt_or_ge y.val (2415919/134217728) with h5 | h5
  · obtain ⟨-, e⟩ := s1 h5
    have h5' : (y.val : ℝ) < 2415919/134217728 := by
      have := (Rat.cast_lt (K := ℝ)).2 h5
      push_cast at this; exact this
    refine ⟨e.fin, ?_⟩
    obtain ⟨p1, p2⟩ := abs_le.1 e.err
    rw [abs_le]; constructor <;> linarith
  · have e := s2 h5
    have h5' : (2415919/134217728 : ℝ) ≤ y.val := by
      have := (Rat.cast_le (K := ℝ)).2 h5
      push_cast at this; exact this
    refine ⟨e.fin, ?_⟩
    have q1 := bt709_pow_lo h5'
    have q2 := bt709_pow_hi (x := y.val) (by linarith) (by linarith)
    obtain ⟨p1, p2⟩ := abs_le.1 e.err
    rw [abs_le]; constructor <;> linarith

/-- C84: every code of a scale with up to 10 bits survives decoding and encoding again. -/
theorem C84_codes (o : F32.Oracle) (ho : o.PowAccurate (2 ^ (-22 : ℤ))) (N k : ℕ) (hN : 0 < N) (hN' : N ≤ 1023) (hk : k ≤ N) :
    let v := (Arith.ofInt k : F32) / (Arith.ofInt N : F32)
    let w := @Y_to_BT709 F32 (F32.libm o) (@BT709_to_Y F32 (F32.libm o) v)
    w.isFinite = true ∧ |(w.val : ℝ) * N - k| < 1 / 2 := by
  obtain ⟨h1, h2⟩ := code_ap hN (hN'.trans (by norm_num)) hk
  intro v w
  have h3 := (C84_decode_encode o ho v h1.fin h2).2
  refine ⟨h3.fin, ?_⟩
  have hN0 : (0 : ℝ) < N := by exact_mod_cast hN
  have h4 : |(w.val : ℝ) - k / N| ≤ 4.1e-4 := by
    rw [show (w.val : ℝ) - k / N = (w.val - v.val) + (v.val - k / N) by ring]
    refine (abs_add_le _ _).trans ?_
    have := h3.err
    have := h1.err
    linarith
  rw [show (w.val : ℝ) * N - k = (w.val - k / N) * N by field_simp, abs_mul, abs_of_pos hN0]
  have h5 : (N : ℝ) ≤ 1023 := by exact_mod_cast hN'
  calc _ ≤ 4.1e-4 * (1023 : ℝ) := by gcongr
    _ < _ := by norm_num

/-- C84: 12-bit codes do not all survive: 332 of 4095 comes back as 331. -/
theorem C84_12bit (o : F32.Oracle) (ho : o.PowAccurate (2 ^ (-22 : ℤ))) :
    let v := (Arith.ofInt 332 : F32) / (Arith.ofInt 4095 : F32)
    let w := @Y_to_BT709 F32 (F32.libm o) (@BT709_to_Y F32 (F32.libm o) v)
    |(w.val : ℝ) * 4095 - 331| < 1 / 2 := by
  intro v w
  have hv : v.isFinite = true ∧ v.val = 10881633/134217728 := by decide +kernel
  have d := C84_decode o ho v hv.1
  have hv' : (v.val : ℝ) = 10881633/134217728 := by rw [hv.2]; push_cast; ring
  rw [hv', clampTo_of_mem (by norm_num), bt709Inv, if_neg (by norm_num)] at d
  have lo := bt709Inv_pow_lo (v := 10881633/134217728) (a := 10881633/134217728) (r := 0.0179615) (by norm_num) (by norm_num)
    (by norm_num) le_rfl
  have hi := bt709Inv_pow_hi (v := 10881633/134217728) (a := 10881633/134217728) (r := 0.0179616) (by norm_num) (by norm_num)
    (by norm_num) le_rfl
  generalize ((10881633/134217728 + 0.099 : ℝ) / 1.099) ^ ((1 : ℝ) / 0.45) = T at *
  have tiny : (1 : ℝ) / 2 ^ 149 ≤ 1e-20 := by norm_num
  obtain ⟨fy, dy⟩ := d
  obtain ⟨b1, b2⟩ := abs_le.1 dy
  have hw : w = @Y_to_BT709 F32 (F32.libm o) (@BT709_to_Y F32 (F32.libm o) v) := rfl
  generalize @BT709_to_Y F32 (F32.libm o) v = y at *
  have ylt : (y.val : ℝ) < ((2415919/134217728 : ℚ) : ℝ) := by push_cast; norm_num; linarith
  obtain ⟨s1, -⟩ := bt709_enc_segments o ho y fy (by
      have : (0 : ℝ) ≤ y.val := by linarith
      exact_mod_cast this) (by
      have : (y.val : ℝ) ≤ 1 := by linarith
      exact_mod_cast this)
  have e := (s1 (by exact_mod_cast ylt)).2
  rw [← hw] at e
  obtain ⟨p1, p2⟩ := abs_le.1 e.err
  rw [abs_lt]; constructor <;> linarith

/-! ## C85: pure gamma -/

theorem inv_gamma_ap {g : F32} (hg : g.isFinite = true) (h : (1 : ℝ) ≤ g.val) :
    Ap ((Arith.lit 1 : F32) / g) (1 / g.val) 6e-8 := by
  have h0 : (0 : ℝ) < g.val := by linarith
  have h1 : (1 : ℝ) / g.val ≤ 1 := by rw [div_le_one h0]; exact h
  exact lit_ap1.div (Ap.exact hg) (Q := 1) (S := 1) (d := 0) (by rw [abs_of_pos (by positivity)]; exact h1) (by linarith) (by norm_num)
    (by norm_num) (by norm_num) (by norm_num)

/-- C85: for every gamma between 1 and 4, encoding then decoding returns every value in `[2^-16, 1]` with relative error
at most `5e-6`. -/
theorem C85_encode_decode (o : F32.Oracle) (ho : o.PowAccurate (2 ^ (-22 : ℤ))) (g x : F32) (hg : g.isFinite = true)
    (hg1 : (1 : ℝ) ≤ g.val ∧ (g.val : ℝ) ≤ 4) (hx : x.isFinite = true) (h : (1 / 65536 : ℝ) ≤ x.val ∧ (x.val : ℝ) ≤ 1) :
    Ap (@degamma F32 (F32.libm o) (@gamma F32 (F32.libm o) x g) g) x.val (5e-6 * x.val) := by
  have x0 : (0 : ℝ) < x.val := by linarith
  have g0 : (0 : ℝ) < g.val := by linarith
  have i1 : (1 : ℝ) / g.val ≤ 1 := by rw [div_le_one g0]; exact hg1.1
  have i0 : (0 : ℝ) < 1 / g.val := by positivity
  have plo : (x.val : ℝ) ≤ (x.val : ℝ) ^ (1 / (g.val : ℝ)) := by
    have := Real.rpow_le_rpow_of_exponent_ge x0 h.2 i1
    rwa [Real.rpow_one] at this
  have phi : (x.val : ℝ) ^ (1 / (g.val : ℝ)) ≤ 1 := Real.rpow_le_one x0.le h.2 i0.le
  have p0 : 0 < (x.val : ℝ) ^ (1 / (g.val : ℝ)) := Real.rpow_pos_of_pos x0 _
  have lx := log_bound (n := 12) h.2 (le_trans (by norm_num) h.1)
  have hp : Ap (@gamma F32 (F32.libm o) x g) ((x.val : ℝ) ^ (1 / (g.val : ℝ))) (9.7e-7 * (x.val : ℝ) ^ (1 / (g.val : ℝ))) :=
    Ap.pow ho (e := 0) (f := 6e-8) (L := 12) (S := 1) (θ := 7.2e-7) x0 (by rw [zero_mul]; exact Ap.exact hx) (by norm_num)
      (inv_gamma_ap hg hg1.1) (by rw [abs_of_pos i0]; exact i1) (by exact_mod_cast lx)
      (by norm_num) (by norm_num) (le_trans (by norm_num) (h.1.trans plo)) (phi.trans (by norm_num)) (by positivity) (by norm_num)
  have e1 : ((x.val : ℝ) ^ (1 / (g.val : ℝ))) ^ (g.val : ℝ) = x.val :=
    rpow_inv_rpow' x0.le (by rw [one_div, inv_mul_cancel₀ g0.ne'])
  have := Ap.pow ho (x := @gamma F32 (F32.libm o) x g) (e := 9.7e-7) (f := 0) (L := 12) (S := 4) (θ := 3.9e-6) (E := 5e-6) p0 hp (by norm_num)
    (Ap.exact hg) (by rw [abs_of_pos g0]; exact hg1.2)
    (by exact_mod_cast log_bound (n := 12) phi (le_trans (by norm_num) (h.1.trans plo)))
    (by norm_num) (by norm_num) (by rw [e1]; exact le_trans (by norm_num) h.1) (by rw [e1]; exact h.2.trans (by norm_num))
    (by positivity) (by norm_num)
  rw [e1] at this
  exact this

/-- C85: the same for decoding then encoding. -/
theorem C85_decode_encode (o : F32.Oracle) (ho : o.PowAccurate (2 ^ (-22 : ℤ))) (g x : F32) (hg : g.isFinite = true)
    (hg1 : (1 : ℝ) ≤ g.val ∧ (g.val : ℝ) ≤ 4) (hx : x.isFinite = true) (h : (1 / 65536 : ℝ) ≤ x.val ∧ (x.val : ℝ) ≤ 1) :
    Ap (@gamma F32 (F32.libm o) (@degamma F32 (F32.libm o) x g) g) x.val (5e-6 * x.val) := by
  have x0 : (0 : ℝ) < x.val := by linarith
  have g0 : (0 : ℝ) < g.val := by linarith
  have i1 : (1 : ℝ) / g.val ≤ 1 := by rw [div_le_one g0]; exact hg1.1
  have i0 : (0 : ℝ) < 1 / g.val := by positivity
  have lx := log_bound (n := 12) h.2 (le_trans (by norm_num) h.1)
  push_cast at lx
  have p0 : 0 < (x.val : ℝ) ^ (g.val : ℝ) := Real.rpow_pos_of_pos x0 _
  have phi : (x.val : ℝ) ^ (g.val : ℝ) ≤ 1 := Real.rpow_le_one x0.le h.2 g0.le
  have plo : (2 : ℝ) ^ (-100 : ℤ) ≤ (x.val : ℝ) ^ (g.val : ℝ) := by
    have a1 := Real.rpow_le_rpow_of_exponent_ge x0 h.2 hg1.2
    have a2 := Real.rpow_le_rpow (by norm_num) h.1 (show (0 : ℝ) ≤ 4 by norm_num)
    refine le_trans ?_ (a2.trans a1)
    rw [show (4 : ℝ) = ((4 : ℕ) : ℝ) by norm_num, Real.rpow_natCast]
    norm_num
  have hp : Ap (@degamma F32 (F32.libm o) x g) ((x.val : ℝ) ^ (g.val : ℝ)) (2.4e-7 * (x.val : ℝ) ^ (g.val : ℝ)) :=
    Ap.pow ho (e := 0) (f := 0) (L := 12) (S := 4) (θ := 0) x0 (by rw [zero_mul]; exact Ap.exact hx) (by norm_num)
      (Ap.exact hg) (by rw [abs_of_pos g0]; exact hg1.2) lx
      (by norm_num) (by norm_num) plo (phi.trans (by norm_num)) (by positivity) (by norm_num)
  have e1 : ((x.val : ℝ) ^ (g.val : ℝ)) ^ (1 / (g.val : ℝ)) = x.val :=
    rpow_inv_rpow' x0.le (by rw [one_div, mul_inv_cancel₀ g0.ne'])
  have := Ap.pow ho (x := @degamma F32 (F32.libm o) x g) (e := 2.4e-7) (f := 6e-8) (L := 48) (S := 1) (θ := 3.2e-6) (E := 5e-6) p0 hp (by norm_num)
    (inv_gamma_ap hg hg1.1) (by rw [abs_of_pos i0]; exact i1)
    (by rw [Real.log_rpow x0, abs_mul, abs_of_pos g0]; nlinarith [abs_nonneg (Real.log (x.val : ℝ))])
    (by norm_num) (by norm_num) (by rw [e1]; exact le_trans (by norm_num) h.1) (by rw [e1]; exact h.2.trans (by norm_num))
    (by positivity) (by norm_num)
  rw [e1] at this
  exact this

/-- C85: every non-zero code of a scale with up to 16 bits survives, in either direction. -/
theorem C85_codes (o : F32.Oracle) (ho : o.PowAccurate (2 ^ (-22 : ℤ))) (g : F32) (hg : g.isFinite = true)
    (hg1 : (1 : ℝ) ≤ g.val ∧ (g.val : ℝ) ≤ 4) (N k : ℕ) (hN' : N ≤ 65535) (h0 : 0 < k) (hk : k ≤ N) :
    let v := (Arith.ofInt k : F32) / (Arith.ofInt N : F32)
    let w := @gamma F32 (F32.libm o) (@degamma F32 (F32.libm o) v g) g
    let w' := @degamma F32 (F32.libm o) (@gamma F32 (F32.libm o) v g) g
    w.isFinite = true ∧ |(w.val : ℝ) * N - k| < 1 / 2 ∧ w'.isFinite = true ∧ |(w'.val : ℝ) * N - k| < 1 / 2 := by
  have hN : 0 < N := h0.trans_le hk
  obtain ⟨h1, h2⟩ := code_ap hN hN' hk
  intro v w w'
  have hN0 : (0 : ℝ) < N := by exact_mod_cast hN
  have h5 : (N : ℝ) ≤ 65535 := by exact_mod_cast hN'
  have hv : (1 / 65536 : ℝ) ≤ v.val := by
    have b : (1 / 65536 : ℚ) ≤ k / N := by
      have c1 : (1 : ℚ) ≤ k := by exact_mod_cast h0
      have c2 : (N : ℚ) ≤ 65535 := by exact_mod_cast hN'
      rw [div_le_div_iff₀ (by norm_num) (by exact_mod_cast hN)]; linarith
    have c := le_rnd (by have := rep_two_zpow (e := -16) (by norm_num); norm_num at this ⊢; exact this) b
    have d : v.val = rnd (k / N) := (code_val hN hN' hk).2.1
    rw [← d] at c
    have := (Rat.cast_le (K := ℝ)).2 c
    push_cast at this; exact this
  have key : ∀ z : F32, Ap z v.val (5e-6 * v.val) → z.isFinite = true ∧ |(z.val : ℝ) * N - k| < 1 / 2 := by
    intro z h3
    refine ⟨h3.fin, ?_⟩
    have h4 : |(z.val : ℝ) - k / N| ≤ 5.1e-6 := by
      rw [show (z.val : ℝ) - k / N = (z.val - v.val) + (v.val - k / N) by ring]
      refine (abs_add_le _ _).trans ?_
      have := h3.err
      have := h1.err
      have := h2.2
      linarith
    rw [show (z.val : ℝ) * N - k = (z.val - k / N) * N by field_simp, abs_mul, abs_of_pos hN0]
    calc _ ≤ 5.1e-6 * (65535 : ℝ) := by gcongr
      _ < _ := by norm_num
  obtain ⟨a1, a2⟩ := key w (C85_decode_encode o ho g v hg hg1 h1.fin ⟨hv, h2.2⟩)
  obtain ⟨b1, b2⟩ := key w' (C85_encode_decode o ho g v hg hg1 h1.fin ⟨hv, h2.2⟩)
  exact ⟨a1, a2, b1, b2⟩

/-- Gamma 2.2 is in the range. -/
example : (Arith.lit 2.2 : F32).isFinite = true ∧ (1 : ℝ) ≤ (Arith.lit 2.2 : F32).val ∧ ((Arith.lit 2.2 : F32).val : ℝ) ≤ 4 := by
  refine ⟨by decide +kernel, ?_, ?_⟩
  · exact_mod_cast (by decide +kernel : (1 : ℚ) ≤ (Arith.lit 2.2 : F32).val)
  · exact_mod_cast (by decide +kernel : (Arith.lit 2.2 : F32).val ≤ (4 : ℚ))

end CS
