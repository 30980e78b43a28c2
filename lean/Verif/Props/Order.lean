import Verif.Props.SLogFloat
import Verif.Props.HLGFloat
import Verif.Props.PQFloat
import Verif.Props.OTFFloat

/-!
# C143: decoding keeps the codes of an image in order, as executed

For each transfer function, how far apart two signals have to be so that the binary32 decoder gives the larger one more
light, whatever library within its error bound is used; and the codes this covers.  At twelve bits the BT.709 decoder
exchanges two neighbours.
-/

namespace CS.Order
open F32 B32 OTF Spec

/-- Bernoulli's inequality between two powers. -/
theorem rpow_step {a b p : ℝ} (ha : 0 < a) (h : a ≤ b) (hp : 1 ≤ p) : a ^ p * (1 + p * ((b - a) / a)) ≤ b ^ p := by
  have e : b = a * (1 + (b - a) / a) := by field_simp; ring
  have s0 : 0 ≤ (b - a) / a := div_nonneg (by linarith) ha.le
  have h1 := one_add_mul_self_le_rpow_one_add (s := (b - a) / a) (by linarith) hp
  have h2 : b ^ p = a ^ p * (1 + (b - a) / a) ^ p := by
    conv_lhs => rw [e]
    exact Real.mul_rpow ha.le (by linarith)
  rw [h2]
  exact mul_le_mul_of_nonneg_left h1 (Real.rpow_nonneg ha.le p)

/-- The sRGB curve dips by less than 1e-7 anywhere. -/
theorem srgb_nearly_mono {x y : ℝ} (hx : 0 ≤ x) (h : x ≤ y) : srgb x ≤ srgb y + 1e-7 := by
  unfold srgb
  split_ifs with h1 h2 h2
  · linarith
  · have := srgb_mono_high (not_lt.1 h2)
    linarith
  · linarith
  · have := Real.rpow_le_rpow hx h (show (0 : ℝ) ≤ 1 / 2.4 by norm_num)
    linarith

/-- C143, sRGB: signals at least 1e-5 apart decode in order. -/
theorem C143_srgb (o : Oracle) (ho : o.PowAccurate (2 ^ (-22 : ℤ))) (v w : F32) (hv : v.isFinite = true) (hw : w.isFinite = true)
    (v0 : (0 : ℝ) ≤ v.val) (w1 : (w.val : ℝ) ≤ 1) (h : (v.val : ℝ) + 1e-5 ≤ w.val) :
    ((@sRGB_to_Y F32 (libm o) v).val : ℝ) < (@sRGB_to_Y F32 (libm o) w).val := by
  by_contra hc
  rw [not_lt] at hc
  have a1 := C83_decode_encode o ho v hv ⟨v0, by linarith⟩
  have a2 := C83_decode_encode o ho w hw ⟨by linarith, w1⟩
  have dv := (C83_decode o ho v hv).fin
  have dw := (C83_decode o ho w hw).fin
  have b1 := C83_encode o ho _ dv
  have b2 := C83_encode o ho _ dw
  have m : clampTo 0 1 ((@sRGB_to_Y F32 (libm o) w).val : ℝ) ≤ clampTo 0 1 ((@sRGB_to_Y F32 (libm o) v).val : ℝ) := by
    unfold clampTo; exact max_le_max le_rfl (min_le_min le_rfl hc)
  have m' := srgb_nearly_mono (clamp01_mem _).1 m
  have c1 := abs_le.1 a1.err
  have c2 := abs_le.1 a2.err
  have c3 := abs_le.1 b1.err
  have c4 := abs_le.1 b2.err
  linarith [c1.1, c1.2, c2.1, c2.2, c3.1, c3.2, c4.1, c4.2]

theorem bt709Inv_knee : 0.017945 ≤ ((0.081 + 0.099 : ℝ) / 1.099) ^ ((1 : ℝ) / 0.45) :=
  bt709Inv_pow_lo (v := 0.081) (a := 0.081) (r := 0.017945) (by norm_num) (by norm_num) (by norm_num) le_rfl

/-- C143, BT.709: signals at least 2.498e-4 apart decode in order. -/
theorem C143_bt709 (o : Oracle) (ho : o.PowAccurate (2 ^ (-22 : ℤ))) (v w : F32) (hv : v.isFinite = true) (hw : w.isFinite = true)
    (v0 : (0 : ℝ) ≤ v.val) (w1 : (w.val : ℝ) ≤ 1) (h : (v.val : ℝ) + 2.498e-4 ≤ w.val) :
    ((@BT709_to_Y F32 (libm o) v).val : ℝ) < (@BT709_to_Y F32 (libm o) w).val := by
  have dv := C84_decode o ho v hv
  have dw := C84_decode o ho w hw
  rw [clampTo_of_mem ⟨v0, by linarith⟩] at dv
  rw [clampTo_of_mem ⟨by linarith, w1⟩] at dw
  have tiny : (1 : ℝ) / 2 ^ 149 ≤ 1e-20 := by norm_num
  have e1 := (abs_le.1 dv.err).2
  have e2 := (abs_le.1 dw.err).1
  generalize ((@BT709_to_Y F32 (libm o) v).val : ℝ) = p at *
  generalize ((@BT709_to_Y F32 (libm o) w).val : ℝ) = q at *
  generalize (v.val : ℝ) = x at *
  generalize (w.val : ℝ) = y at *
  generalize (1 : ℝ) / 2 ^ 149 = t at *
  clear dv dw
  rcases lt_or_ge y 0.081 with hy | hy
  · rw [bt709Inv, if_pos (by linarith)] at e1
    rw [bt709Inv, if_pos hy] at e2
    norm_num at *
    linarith
  rcases lt_or_ge x 0.081 with hx | hx
  · rw [bt709Inv, if_pos hx] at e1
    rw [bt709Inv, if_neg (by linarith)] at e2
    have s := rpow_step (a := (0.081 + 0.099 : ℝ) / 1.099) (b := (y + 0.099) / 1.099) (p := 1 / 0.45) (by norm_num)
      (by gcongr) (by norm_num)
    have k := bt709Inv_knee
    have e : ((y + 0.099) / 1.099 - (0.081 + 0.099 : ℝ) / 1.099) / ((0.081 + 0.099 : ℝ) / 1.099) = (y - 0.081) / 0.18 := by
      field_simp; norm_num; ring
    rw [e] at s
    have s2 : 0.017945 * (1 + 1 / 0.45 * ((y - 0.081) / 0.18)) ≤
        ((0.081 + 0.099 : ℝ) / 1.099) ^ ((1 : ℝ) / 0.45) * (1 + 1 / 0.45 * ((y - 0.081) / 0.18)) :=
      mul_le_mul_of_nonneg_right k (by
        have : 0 ≤ (y - 0.081) / 0.18 := div_nonneg (by linarith) (by norm_num)
        have := mul_nonneg (show (0 : ℝ) ≤ 1 / 0.45 by norm_num) this
        linarith)
    have s3 := s2.trans s
    generalize ((y + 0.099) / 1.099) ^ ((1 : ℝ) / 0.45) = T at *
    have e3 : 0.017945 * (1 + 1 / 0.45 * ((y - 0.081) / 0.18)) = 0.017945 + 0.017945 / 0.081 * (y - 0.081) := by ring
    rw [e3] at s3
    norm_num at *
    linarith
  · rw [bt709Inv, if_neg (by linarith)] at e1 e2
    have s := rpow_step (a := (x + 0.099) / 1.099) (b := (y + 0.099) / 1.099) (p := 1 / 0.45) (div_pos (by linarith) (by norm_num))
      (by gcongr; linarith) (by norm_num)
    have k := bt709Inv_pow_lo (v := x) (a := 0.081) (r := 0.017945) (by norm_num) (by norm_num) (by norm_num) hx
    have e : ((y + 0.099) / 1.099 - (x + 0.099) / 1.099) / ((x + 0.099) / 1.099) = (y - x) / (x + 0.099) := by
      have : x + 0.099 ≠ 0 := by linarith
      field_simp; ring
    rw [e] at s
    have s1 : 2.2e-4 ≤ (y - x) / (x + 0.099) := by rw [le_div_iff₀ (by linarith)]; linarith
    generalize (y - x) / (x + 0.099) = r at *
    generalize ((x + 0.099) / 1.099) ^ ((1 : ℝ) / 0.45) = S at *
    generalize ((y + 0.099) / 1.099) ^ ((1 : ℝ) / 0.45) = T at *
    have s2 : S * (1 + 4e-4) ≤ S * (1 + 1 / 0.45 * r) := mul_le_mul_of_nonneg_left (by norm_num; linarith) (by linarith)
    linarith

/-- C143, HLG: signals at least 3e-6 apart decode in order. -/
theorem C143_hlg (o : Oracle) (he : o.ExpAccurate (2 ^ (-22 : ℤ))) (v w : F32) (hv : v.isFinite = true) (hw : w.isFinite = true)
    (v0 : (0 : ℝ) ≤ v.val) (w1 : (w.val : ℝ) ≤ 1) (h : (v.val : ℝ) + 3e-6 ≤ w.val) :
    ((@HLG_to_Y F32 (libm o) v).val : ℝ) < (@HLG_to_Y F32 (libm o) w).val := by
  by_contra hc
  rw [not_lt] at hc
  have pos : ∀ z : ℝ, 0 ≤ hlgInv z := by
    intro z; unfold hlgInv; split_ifs <;> positivity
  have near : ∀ u : F32, u.isFinite = true → (0 : ℝ) ≤ u.val → (u.val : ℝ) ≤ 1 →
      |hlg (max 0 ((@HLG_to_Y F32 (libm o) u).val : ℝ)) - u.val| ≤ 1.1e-6 := by
    intro u hu u0 u1
    obtain ⟨-, d⟩ := C90_decode o he u hu (by exact_mod_cast u0) (by exact_mod_cast u1)
    refine hlg_back u0 u1 (le_max_left _ _) (le_trans ?_ d)
    have hp := pos u.val
    rcases le_total 0 ((@HLG_to_Y F32 (libm o) u).val : ℝ) with hz | hz
    · rw [max_eq_right hz]
    · rw [max_eq_left hz, abs_of_nonpos (by linarith), abs_of_nonpos (by linarith)]; linarith
  have a1 := abs_le.1 (near v hv v0 (by linarith))
  have a2 := abs_le.1 (near w hw (by linarith) w1)
  have m := HLG_mono (max_le_max (le_refl (0 : ℝ)) hc)
  rw [Y_to_HLG_real, Y_to_HLG_real, if_neg (by simp), if_neg (by simp)] at m
  linarith [a1.1, a1.2, a2.1, a2.2]

/-- C143, PQ: signals of at least 1/4096 that are at least 1.95e-4 apart decode in order. -/
theorem C143_pq (o : Oracle) (ho : o.PowAccurate (2 ^ (-22 : ℤ))) (v w : F32) (hv : v.isFinite = true) (hw : w.isFinite = true)
    (v0 : (1 / 4096 : ℝ) ≤ v.val) (w1 : (w.val : ℝ) ≤ 1) (h : (v.val : ℝ) + 1.95e-4 ≤ w.val) :
    ((@ST2084_to_Y F32 (libm o) v).val : ℝ) < (@ST2084_to_Y F32 (libm o) w).val := by
  by_contra hc
  rw [not_lt] at hc
  have key : ∀ u : F32, u.isFinite = true → (1 / 4096 : ℝ) ≤ u.val → (u.val : ℝ) ≤ 1 →
      0 < ((@ST2084_to_Y F32 (libm o) u).val : ℝ) ∧
      |pq (min (((@ST2084_to_Y F32 (libm o) u).val : ℝ) / 100) 1) - u.val| ≤ 9.6e-5 := by
    intro u hu u0 u1
    obtain ⟨q, q1, q2, -, hy⟩ := pq_dec o ho u hu ⟨u0, u1⟩
    have l1 : (0.024 : ℝ) ^ (7 : ℝ) ≤ q ^ (1 / 0.1593017578125 : ℝ) := by
      rcases le_total q 1 with h1 | h1
      · calc (0.024 : ℝ) ^ (7 : ℝ) ≤ q ^ (7 : ℝ) := Real.rpow_le_rpow (by norm_num) q1 (by norm_num)
          _ ≤ q ^ (1 / 0.1593017578125 : ℝ) := Real.rpow_le_rpow_of_exponent_ge (by linarith) h1 (by norm_num)
      · calc (0.024 : ℝ) ^ (7 : ℝ) ≤ 1 := Real.rpow_le_one (by norm_num) (by norm_num) (by norm_num)
          _ ≤ q ^ (1 / 0.1593017578125 : ℝ) := Real.one_le_rpow h1 (by norm_num)
    have l2 : (1e-12 : ℝ) ≤ (0.024 : ℝ) ^ (7 : ℝ) := by
      rw [show (7 : ℝ) = ((7 : ℕ) : ℝ) by norm_num, Real.rpow_natCast]; norm_num
    have big : (1e-12 : ℝ) ≤ ((@ST2084_to_Y F32 (libm o) u).val : ℝ) := by
      have := (abs_le.1 hy.err).1
      generalize q ^ (1 / 0.1593017578125 : ℝ) = Q at *
      linarith
    have e := C86_encode o ho _ hy.fin (le_trans (by norm_num) big)
    have r := C86_decode_encode o ho u hu ⟨u0, u1⟩
    have e1 := abs_le.1 e.err
    have r1 := abs_le.1 r.err
    have p1 : pq (min (((@ST2084_to_Y F32 (libm o) u).val : ℝ) / 100) 1) ≤ 1 := by
      have := pq_mono (le_min (by linarith : (0 : ℝ) ≤ ((@ST2084_to_Y F32 (libm o) u).val : ℝ) / 100) zero_le_one)
        (min_le_right _ _)
      rwa [pq_one] at this
    refine ⟨by linarith, ?_⟩
    generalize pq (min (((@ST2084_to_Y F32 (libm o) u).val : ℝ) / 100) 1) = P at *
    rw [abs_le]
    constructor <;> linarith [e1.1, e1.2, r1.1, r1.2]
  obtain ⟨-, a1⟩ := key v hv v0 (by linarith)
  obtain ⟨p2, a2⟩ := key w hw (by linarith) w1
  have m := pq_mono (le_min (by linarith : (0 : ℝ) ≤ ((@ST2084_to_Y F32 (libm o) w).val : ℝ) / 100) zero_le_one)
    (min_le_min (div_le_div_of_nonneg_right hc (by norm_num : (0 : ℝ) ≤ 100)) (le_refl 1))
  linarith [(abs_le.1 a1).1, (abs_le.1 a1).2, (abs_le.1 a2).1, (abs_le.1 a2).2]

/-- C143, gamma: for every exponent in [1, 4], signals of at least 2^-16 that are at least 1e-5 apart decode in order. -/
theorem C143_gamma (o : Oracle) (ho : o.PowAccurate (2 ^ (-22 : ℤ))) (g v w : F32) (hg : g.isFinite = true)
    (hg1 : (1 : ℝ) ≤ g.val ∧ (g.val : ℝ) ≤ 4) (hv : v.isFinite = true) (hw : w.isFinite = true)
    (v0 : (1 / 65536 : ℝ) ≤ v.val) (w1 : (w.val : ℝ) ≤ 1) (h : (v.val : ℝ) + 1e-5 ≤ w.val) :
    ((@degamma F32 (libm o) v g).val : ℝ) < (@degamma F32 (libm o) w g).val := by
  have key : ∀ u : F32, u.isFinite = true → (1 / 65536 : ℝ) ≤ u.val → (u.val : ℝ) ≤ 1 →
      0 < (u.val : ℝ) ^ (g.val : ℝ) ∧
      |((@degamma F32 (libm o) u g).val : ℝ) - (u.val : ℝ) ^ (g.val : ℝ)| ≤ 2.4e-7 * (u.val : ℝ) ^ (g.val : ℝ) := by
    intro u hu u0 u1
    have up : (0 : ℝ) < u.val := by linarith
    have l1 : ((1 : ℝ) / 65536) ^ (4 : ℝ) ≤ (u.val : ℝ) ^ (g.val : ℝ) :=
      (Real.rpow_le_rpow (by norm_num) u0 (by norm_num)).trans (Real.rpow_le_rpow_of_exponent_ge up u1 hg1.2)
    have l2 : (2 : ℝ) ^ (-120 : ℤ) ≤ ((1 : ℝ) / 65536) ^ (4 : ℝ) := by
      rw [show (4 : ℝ) = ((4 : ℕ) : ℝ) by norm_num, Real.rpow_natCast]; norm_num
    have l3 : (u.val : ℝ) ^ (g.val : ℝ) ≤ 1 := Real.rpow_le_one up.le u1 (by linarith)
    have p0 := Real.rpow_pos_of_pos up (g.val : ℝ)
    refine ⟨p0, ?_⟩
    have := (ho u g hu hg (by exact_mod_cast up) (l2.trans l1) (l3.trans (by norm_num))).2
    refine le_trans this (mul_le_mul_of_nonneg_right ?_ p0.le)
    rw [zpow_neg]; norm_num
  obtain ⟨p1, a1⟩ := key v hv v0 (by linarith)
  obtain ⟨p2, a2⟩ := key w hw (by linarith) w1
  have s := rpow_step (a := (v.val : ℝ)) (b := w.val) (by linarith) (by linarith) hg1.1
  have s1 : (1e-5 : ℝ) ≤ ((w.val : ℝ) - v.val) / v.val := by rw [le_div_iff₀ (by linarith)]; linarith
  have s2 : (1e-5 : ℝ) ≤ g.val * (((w.val : ℝ) - v.val) / v.val) := by
    have := mul_le_mul hg1.1 s1 (by norm_num) (by linarith)
    linarith
  generalize g.val * (((w.val : ℝ) - v.val) / v.val) = r at *
  have e1 := (abs_le.1 a1).2
  have e2 := (abs_le.1 a2).1
  generalize (v.val : ℝ) ^ (g.val : ℝ) = S at *
  generalize (w.val : ℝ) ^ (g.val : ℝ) = T at *
  have s3 : S * (1 + 1e-5) ≤ S * (1 + r) := mul_le_mul_of_nonneg_left (by linarith) p1.le
  linarith

/-- A step of the exponent of ten. -/
theorem ten_step {a b d : ℝ} (hd : 0 ≤ d) (h : a + d ≤ b) : (10 : ℝ) ^ a * (1 + 2.3 * d) ≤ (10 : ℝ) ^ b := by
  have h1 : (10 : ℝ) ^ (a + d) ≤ (10 : ℝ) ^ b := Real.rpow_le_rpow_of_exponent_le (by norm_num) h
  rw [Real.rpow_add (by norm_num)] at h1
  refine le_trans (mul_le_mul_of_nonneg_left ?_ (Real.rpow_nonneg (by norm_num) a)) h1
  rw [Real.rpow_def_of_pos (by norm_num)]
  have := Real.add_one_le_exp (Real.log 10 * d)
  have l := log_ten_gt
  nlinarith

/-- C143, S-Log: signals at least 1e-5 apart decode in order. -/
theorem C143_slog (o : Oracle) (ho : o.PowAccurate (2 ^ (-22 : ℤ))) (v w : F32) (hv : v.isFinite = true) (hw : w.isFinite = true)
    (v0 : (0 : ℝ) ≤ v.val) (w1 : (w.val : ℝ) ≤ 1) (h : (v.val : ℝ) + 1e-5 ≤ w.val) :
    ((@SLog_to_Y F32 (libm o) v).val : ℝ) < (@SLog_to_Y F32 (libm o) w).val := by
  have v1 : (v.val : ℝ) ≤ 3 / 2 := by linarith
  have w0 : (0 : ℝ) ≤ w.val := by linarith
  have w2 : (w.val : ℝ) ≤ 3 / 2 := by linarith
  obtain ⟨-, d1⟩ := C96_slog_decode ho v hv (by exact_mod_cast v0) (by
    have : ((v.val : ℚ) : ℝ) ≤ ((3 / 2 : ℚ) : ℝ) := by push_cast; exact v1
    exact_mod_cast this)
  obtain ⟨-, d2⟩ := C96_slog_decode ho w hw (by exact_mod_cast w0) (by
    have : ((w.val : ℚ) : ℝ) ≤ ((3 / 2 : ℚ) : ℝ) := by push_cast; exact w2
    exact_mod_cast this)
  unfold slogInv at d1 d2
  have s := ten_step (a := ((v.val : ℝ) - 0.616596 - 0.03) / 0.432699) (b := ((w.val : ℝ) - 0.616596 - 0.03) / 0.432699) (d := 2e-5)
    (by norm_num) (by rw [← sub_nonneg]; ring_nf; norm_num at h ⊢; linarith)
  have p := Real.rpow_pos_of_pos (show (0 : ℝ) < 10 by norm_num) (((v.val : ℝ) - 0.616596 - 0.03) / 0.432699)
  have e1 := (abs_le.1 d1).2
  have e2 := (abs_le.1 d2).1
  generalize (10 : ℝ) ^ (((v.val : ℝ) - 0.616596 - 0.03) / 0.432699) = S at *
  generalize (10 : ℝ) ^ (((w.val : ℝ) - 0.616596 - 0.03) / 0.432699) = T at *
  linarith

/-- The S-Log2 black is nearly zero light. -/
theorem slog2_black {y : ℝ} (hy : 0.030001222851889303 ≤ y) : 0.03758374 ≤ (10 : ℝ) ^ ((y - 0.616596 - 0.03) / 0.432699) := by
  have l := le_rpow_of_pow (x := 1 / 10) (r := 0.03758374) (p := 57) (q := 40) (by norm_num) (by norm_num) (by norm_num) (by norm_num)
  have e : (1 / 10 : ℝ) ^ (((57 : ℕ) : ℝ) / ((40 : ℕ) : ℝ)) = (10 : ℝ) ^ (-1.425 : ℝ) := by
    rw [one_div, Real.inv_rpow (by norm_num), ← Real.rpow_neg (by norm_num)]; norm_num
  rw [e] at l
  refine l.trans (Real.rpow_le_rpow_of_exponent_le (by norm_num) ?_)
  rw [le_div_iff₀ (by norm_num)]; linarith

/-- C143, S-Log2: signals from black (0.0882) upwards at least 1e-5 apart decode in order. -/
theorem C143_slog2 (o : Oracle) (ho : o.PowAccurate (2 ^ (-22 : ℤ))) (v w : F32) (hv : v.isFinite = true) (hw : w.isFinite = true)
    (v0 : (0.0882 : ℝ) ≤ v.val) (w1 : (w.val : ℝ) ≤ 1) (h : (v.val : ℝ) + 1e-5 ≤ w.val) :
    ((@SLog2_to_Y F32 (libm o) v).val : ℝ) < (@SLog2_to_Y F32 (libm o) w).val := by
  have cv : ∀ u : F32, u.isFinite = true → (0.0882 : ℝ) ≤ u.val → (u.val : ℝ) ≤ 1 →
      |((@SLog2_to_Y F32 (libm o) u).val : ℝ) - max 0 (slog2H ((1024 * (u.val : ℝ) - 64) / 876))| ≤
        5.4e-6 * (max 0 (slog2H ((1024 * (u.val : ℝ) - 64) / 876)) + 0.054) := by
    intro u hu u0 u1
    have u2 : (0 : ℝ) ≤ u.val := by linarith
    have u3 : ((u.val : ℚ) : ℝ) ≤ ((13 / 10 : ℚ) : ℝ) := by push_cast; linarith
    obtain ⟨-, d⟩ := C96_slog2_decode ho u hu (by exact_mod_cast u2) (by exact_mod_cast u3)
    rw [slog2Inv_eq, if_pos (by rw [le_div_iff₀ (by norm_num)]; linarith)] at d
    exact d
  have d1 := cv v hv v0 (by linarith)
  have d2 := cv w hw (by linarith) w1
  have k := slog2_black (y := (1024 * (v.val : ℝ) - 64) / 876) (by rw [le_div_iff₀ (by norm_num)]; linarith)
  have s := ten_step (a := ((1024 * (v.val : ℝ) - 64) / 876 - 0.616596 - 0.03) / 0.432699)
    (b := ((1024 * (w.val : ℝ) - 64) / 876 - 0.616596 - 0.03) / 0.432699) (d := 2.5e-5)
    (by norm_num) (by rw [← sub_nonneg]; ring_nf; norm_num at h ⊢; linarith)
  unfold slog2H at d1 d2
  have e1 := (abs_le.1 d1).2
  have e2 := (abs_le.1 d2).1
  generalize (10 : ℝ) ^ (((1024 * (v.val : ℝ) - 64) / 876 - 0.616596 - 0.03) / 0.432699) = S at *
  generalize (10 : ℝ) ^ (((1024 * (w.val : ℝ) - 64) / 876 - 0.616596 - 0.03) / 0.432699) = T at *
  have t0 := le_max_right 0 (219 * (T - 0.037584) / 155)
  rcases le_total 0 (219 * (S - 0.037584) / 155) with h0 | h0
  · rw [max_eq_right h0] at e1
    linarith
  · rw [max_eq_left h0] at e1
    linarith

theorem slog3_step {z : ℝ} (h : 171.2102946929 ≤ z) : slog3T * (1 + 2.3 * ((z - 171.2102946929) / 261.5)) ≤ (10 : ℝ) ^ ((z - 420) / 261.5) := by
  unfold slog3T
  exact ten_step (div_nonneg (sub_nonneg.2 h) (by norm_num)) (le_of_eq (by rw [← add_div]; congr 1; abel))

/-- C143, S-Log3: signals at least 1e-5 apart decode in order. -/
theorem C143_slog3 (o : Oracle) (ho : o.PowAccurate (2 ^ (-22 : ℤ))) (v w : F32) (hv : v.isFinite = true) (hw : w.isFinite = true)
    (v0 : (0 : ℝ) ≤ v.val) (w1 : (w.val : ℝ) ≤ 1) (h : (v.val : ℝ) + 1e-5 ≤ w.val) :
    ((Mixed.SLog3_to_Y o v).val : ℝ) < (Mixed.SLog3_to_Y o w).val := by
  have v1 : (v.val : ℝ) ≤ 1 := by linarith
  have w0 : (0 : ℝ) ≤ w.val := by linarith
  obtain ⟨-, d1⟩ := C96_slog3_decode ho v hv (by exact_mod_cast v0) (by exact_mod_cast v1)
  obtain ⟨-, d2⟩ := C96_slog3_decode ho w hw (by exact_mod_cast w0) (by exact_mod_cast w1)
  rw [slog3Inv_eq] at d1 d2
  have e1 := (abs_le.1 d1).2
  have e2 := (abs_le.1 d2).1
  clear d1 d2
  generalize ((Mixed.SLog3_to_Y o v).val : ℝ) = p at *
  generalize ((Mixed.SLog3_to_Y o w).val : ℝ) = q at *
  generalize (v.val : ℝ) = x at *
  generalize (w.val : ℝ) = y at *
  obtain ⟨k1, k2⟩ := slog3_ten
  have lowabs : ∀ z : ℝ, 0 ≤ z → z ≤ 171.2102946929 / 1023 →
      |(z * 1023 - 95) * 0.01125 / (171.2102946929 - 95)| ≤ 0.0141 := by
    intro z h0 h1
    rw [le_div_iff₀ (by norm_num)] at h1
    rw [abs_le]
    constructor
    · rw [le_div_iff₀ (by norm_num)]; linarith
    · rw [div_le_iff₀ (by norm_num)]; linarith
  split_ifs at e1 e2 with hx hy
  · have s := ten_step (a := (x * 1023 - 420) / 261.5) (b := (y * 1023 - 420) / 261.5) (d := 3.5e-5)
      (by norm_num) (by rw [← sub_nonneg]; ring_nf; norm_num at h ⊢; linarith)
    have hx' := hx
    rw [div_lt_iff₀ (by norm_num)] at hx'
    have s0 : slog3T ≤ (10 : ℝ) ^ ((x * 1023 - 420) / 261.5) := by
      refine le_trans ?_ (slog3_step hx'.le)
      have : 0 ≤ (x * 1023 - 171.2102946929) / 261.5 := div_nonneg (by linarith) (by norm_num)
      exact le_mul_of_one_le_right (by linarith) (by linarith)
    generalize (10 : ℝ) ^ ((x * 1023 - 420) / 261.5) = S at *
    generalize (10 : ℝ) ^ ((y * 1023 - 420) / 261.5) = T at *
    generalize slog3T = K at *
    rw [abs_of_pos (by linarith)] at e1 e2
    linarith
  · exfalso; linarith
  · rename_i hy
    have a := lowabs x v0 (not_lt.1 hx)
    have hx' := not_lt.1 hx
    rw [le_div_iff₀ (by norm_num)] at hx'
    have hy' := hy
    rw [div_lt_iff₀ (by norm_num)] at hy'
    have s := slog3_step hy'.le
    generalize (10 : ℝ) ^ ((y * 1023 - 420) / 261.5) = T at *
    generalize slog3T = K at *
    have s2 : 0.111842 * (1 + 2.3 * ((y * 1023 - 171.2102946929) / 261.5)) ≤ T := by
      refine le_trans (mul_le_mul_of_nonneg_right k1 ?_) s
      have : 0 ≤ (y * 1023 - 171.2102946929) / 261.5 := div_nonneg (by linarith) (by norm_num)
      linarith
    have s3 : 0.111842 * (1 + 2.3 * ((y * 1023 - 171.2102946929) / 261.5)) =
        0.111842 + 0.2572366 / 261.5 * (y * 1023 - 171.2102946929) := by ring
    rw [s3] at s2
    have t0 : 0.111842 ≤ T := by
      have : 0 ≤ 0.2572366 / 261.5 * (y * 1023 - 171.2102946929) := mul_nonneg (by norm_num) (by linarith)
      linarith
    rw [abs_of_pos (by linarith)] at e2
    norm_num at *
    linarith
  · rename_i hy
    have a := lowabs x v0 (not_lt.1 hx)
    have b := lowabs y w0 (not_lt.1 hy)
    norm_num at *
    linarith

/-- The signal of code `k` of `N`. -/
noncomputable def code (N k : ℕ) : F32 := (Arith.ofInt k : F32) / (Arith.ofInt N : F32)

/-- Codes are apart. -/
theorem code_gap {N i j : ℕ} (hN : N ≤ 65535) (hij : i < j) (hj : j ≤ N) {d : ℝ} (hd : (d + 1.2e-7) * N ≤ 1) :
    (code N i).isFinite = true ∧ (code N j).isFinite = true ∧ (0 : ℝ) ≤ (code N i).val ∧ ((code N j).val : ℝ) ≤ 1 ∧
      ((code N i).val : ℝ) + d ≤ (code N j).val := by
  have N0 : 0 < N := by omega
  obtain ⟨a1, a2, -⟩ := code_ap N0 hN (show i ≤ N by omega)
  obtain ⟨b1, -, b2⟩ := code_ap N0 hN hj
  refine ⟨a1.fin, b1.fin, a2, b2, ?_⟩
  have e1 := (abs_le.1 a1.err).2
  have e2 := (abs_le.1 b1.err).1
  have Np : (0 : ℝ) < N := by exact_mod_cast N0
  have g : d + 1.2e-7 ≤ (j : ℝ) / N - i / N := by
    rw [← sub_div, le_div_iff₀ Np]
    have : (i : ℝ) + 1 ≤ j := by exact_mod_cast hij
    linarith
  change ((code N i).val : ℝ) - _ ≤ _ at e1
  change _ ≤ ((code N j).val : ℝ) - _ at e2
  linarith

theorem code_pos {N k : ℕ} (hN : N ≤ 65535) (h0 : 0 < k) (hk : k ≤ N) : (1 / (N + 1) : ℝ) ≤ (code N k).val := by
  have N0 : 0 < N := by omega
  obtain ⟨-, v3, -, -⟩ := code_val N0 hN hk
  have Np : (0 : ℚ) < N := by exact_mod_cast N0
  have hk1 : (1 : ℚ) ≤ k := by exact_mod_cast h0
  have q0 : (0 : ℚ) ≤ k / N := by positivity
  have r := (abs_le.1 (rnd_rel' (k / N : ℚ))).1
  rw [abs_of_nonneg q0] at r
  have hN' : (N : ℚ) ≤ 65535 := by exact_mod_cast hN
  have l : (1 : ℚ) / N ≤ k / N := div_le_div_of_nonneg_right hk1 Np.le
  have m : (1 / (N + 1) : ℚ) ≤ rnd (k / N) := by
    have t : (1 : ℚ) / N - 1 / (N + 1) = 1 / N * (1 / (N + 1)) := by field_simp; ring
    have t2 : (1 / 65536 : ℚ) ≤ 1 / (N + 1) := by
      apply one_div_le_one_div_of_le <;> linarith
    have t3 : (1 : ℚ) / N * (1 / 65536) ≤ 1 / N * (1 / (N + 1)) := mul_le_mul_of_nonneg_left t2 (by positivity)
    have t4 : (1 / 65535 : ℚ) ≤ 1 / N := by apply one_div_le_one_div_of_le <;> linarith
    have t5 : (k : ℚ) / N * (1 - 1 / 2 ^ 24) ≥ 1 / N * (1 - 1 / 2 ^ 24) := mul_le_mul_of_nonneg_right l (by norm_num)
    have t6 : (1 : ℚ) / 2 ^ 150 ≤ 1 / 2 ^ 40 * (1 / 65535) := by norm_num
    have t7 : (1 : ℚ) / 2 ^ 40 * (1 / 65535) ≤ 1 / 2 ^ 40 * (1 / N) := mul_le_mul_of_nonneg_left t4 (by norm_num)
    linarith
  have m' := (Rat.cast_le (K := ℝ)).2 m
  rw [← v3] at m'
  push_cast at m'
  exact m'

/-- C143: of two codes of an image, the larger decodes to more light, as executed: with sRGB, HLG, S-Log and S-Log3 for all
scales of up to 16 bits, with BT.709 for scales of up to 4000 codes, with PQ for up to 12 bits and with a gamma from 1 to 4
for up to 16 bits, code 0 aside. -/
theorem C143_codes (o : Oracle) (ho : o.PowAccurate (2 ^ (-22 : ℤ))) (he : o.ExpAccurate (2 ^ (-22 : ℤ))) (g : F32)
    (hg : g.isFinite = true) (hg1 : (1 : ℝ) ≤ g.val ∧ (g.val : ℝ) ≤ 4) (N i j : ℕ) (hij : i < j) (hj : j ≤ N) :
    (N ≤ 65535 →
      (@sRGB_to_Y F32 (libm o) (code N i)).val < (@sRGB_to_Y F32 (libm o) (code N j)).val ∧
      (@HLG_to_Y F32 (libm o) (code N i)).val < (@HLG_to_Y F32 (libm o) (code N j)).val ∧
      (@SLog_to_Y F32 (libm o) (code N i)).val < (@SLog_to_Y F32 (libm o) (code N j)).val ∧
      (Mixed.SLog3_to_Y o (code N i)).val < (Mixed.SLog3_to_Y o (code N j)).val ∧
      (0 < i → (@degamma F32 (libm o) (code N i) g).val < (@degamma F32 (libm o) (code N j) g).val)) ∧
    (N ≤ 4000 → (@BT709_to_Y F32 (libm o) (code N i)).val < (@BT709_to_Y F32 (libm o) (code N j)).val) ∧
    (N ≤ 4095 → 0 < i → (@ST2084_to_Y F32 (libm o) (code N i)).val < (@ST2084_to_Y F32 (libm o) (code N j)).val) := by
  refine ⟨fun hN => ?_, fun hN => ?_, fun hN h0 => ?_⟩
  · have hNr : (N : ℝ) ≤ 65535 := by exact_mod_cast hN
    obtain ⟨a, b, c, d, e⟩ := code_gap hN hij hj (d := 1e-5) (by linarith)
    refine ⟨?_, ?_, ?_, ?_, fun h0 => ?_⟩
    · exact_mod_cast C143_srgb o ho _ _ a b c d e
    · exact_mod_cast C143_hlg o he _ _ a b c d (by linarith)
    · exact_mod_cast C143_slog o ho _ _ a b c d e
    · exact_mod_cast C143_slog3 o ho _ _ a b c d e
    · have p := code_pos hN h0 (show i ≤ N by omega)
      have p2 : (1 / 65536 : ℝ) ≤ 1 / (N + 1) := by apply one_div_le_one_div_of_le <;> linarith [(Nat.cast_nonneg N : (0 : ℝ) ≤ N)]
      exact_mod_cast C143_gamma o ho g _ _ hg hg1 a b (p2.trans p) d e
  · have hNr : (N : ℝ) ≤ 4000 := by exact_mod_cast hN
    obtain ⟨a, b, c, d, e⟩ := code_gap (by omega) hij hj (d := 2.498e-4) (by linarith)
    exact_mod_cast C143_bt709 o ho _ _ a b c d e
  · have hNr : (N : ℝ) ≤ 4095 := by exact_mod_cast hN
    obtain ⟨a, b, c, d, e⟩ := code_gap (by omega) hij hj (d := 1.95e-4) (by linarith)
    have p := code_pos (show N ≤ 65535 by omega) h0 (show i ≤ N by omega)
    have p2 : (1 / 4096 : ℝ) ≤ 1 / (N + 1) := by apply one_div_le_one_div_of_le <;> linarith [(Nat.cast_nonneg N : (0 : ℝ) ≤ N)]
    exact_mod_cast C143_pq o ho _ _ a b (p2.trans p) d e

/-- C143: the bound for BT.709 is nearly sharp: in 12 bits, code 332 decodes to less light than code 331. -/
theorem C143_bt709_12bit (o : Oracle) (ho : o.PowAccurate (2 ^ (-22 : ℤ))) :
    (@BT709_to_Y F32 (libm o) (code 4095 332)).val < (@BT709_to_Y F32 (libm o) (code 4095 331)).val := by
  have hv : (code 4095 332).isFinite = true ∧ (code 4095 332).val = 10881633/134217728 := by unfold code; decide +kernel
  have hw : (code 4095 331).isFinite = true ∧ (0.0808302 : ℚ) ≤ (code 4095 331).val ∧ (code 4095 331).val ≤ 0.0809 := by
    unfold code; decide +kernel
  have d := C84_decode o ho _ hv.1
  have d' := C84_decode o ho _ hw.1
  have hv' : ((code 4095 332).val : ℝ) = 10881633/134217728 := by rw [hv.2]; push_cast; ring
  have w1 : (0.0808302 : ℝ) ≤ (code 4095 331).val := by
    have := (Rat.cast_le (K := ℝ)).2 hw.2.1
    push_cast at this; norm_num at this ⊢; exact this
  have w2 : ((code 4095 331).val : ℝ) ≤ 0.0809 := by
    have := (Rat.cast_le (K := ℝ)).2 hw.2.2
    push_cast at this; norm_num at this ⊢; exact this
  rw [hv', clampTo_of_mem (by norm_num), bt709Inv, if_neg (by norm_num)] at d
  rw [clampTo_of_mem ⟨by linarith, by linarith⟩, bt709Inv, if_pos (by linarith)] at d'
  have hi := bt709Inv_pow_hi (v := 10881633/134217728) (a := 10881633/134217728) (r := 0.0179616) (by norm_num) (by norm_num)
    (by norm_num) le_rfl
  generalize ((10881633/134217728 + 0.099 : ℝ) / 1.099) ^ ((1 : ℝ) / 0.45) = T at *
  have tiny : (1 : ℝ) / 2 ^ 149 ≤ 1e-20 := by norm_num
  have e1 := (abs_le.1 d.err).2
  have e2 := (abs_le.1 d'.err).1
  have : ((@BT709_to_Y F32 (libm o) (code 4095 332)).val : ℝ) < (@BT709_to_Y F32 (libm o) (code 4095 331)).val := by
    generalize ((code 4095 331).val : ℝ) = c at *
    generalize (1 : ℝ) / 2 ^ 149 = t at *
    have e3 : c / 4.5 = 2 / 9 * c := by ring
    rw [e3] at e2
    linarith
  exact_mod_cast this

/-- C143 applies: libraries within the bounds exist. -/
example : ∃ o : Oracle, o.PowAccurate (2 ^ (-22 : ℤ)) ∧ o.ExpAccurate (2 ^ (-22 : ℤ)) := by
  obtain ⟨o, h1, -, -, -, h2, -⟩ := exists_accurate
  have d : (2 : ℝ) ^ (-23 : ℤ) ≤ 2 ^ (-22 : ℤ) := by rw [zpow_neg, zpow_neg]; norm_num
  refine ⟨o, fun x y hx hy hp h h' => ⟨(h1 x y hx hy hp h h').1, (h1 x y hx hy hp h h').2.trans ?_⟩, fun x hx h h' => ?_⟩
  · exact mul_le_mul_of_nonneg_right d (Real.rpow_nonneg (by exact_mod_cast hp.le) _)
  · obtain ⟨a, b⟩ := h2 x hx h h'
    exact ⟨a, b.trans (mul_le_mul_of_nonneg_right d (Real.exp_pos _).le)⟩

end CS.Order
