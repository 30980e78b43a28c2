import Verif.Props.SRGBinPQ

/-!
# C148: BT.709 video carried as PQ video, in single precision

Video with the BT.709 curve and up to 256 levels per channel is decoded, encoded as PQ and rounded to codes of 12 bits or more; the
receiver decodes the codes and encodes BT.709 again.  Every pixel arrives, although the segments of BT.709 do not meet.
-/

namespace CS
open F32 B32 OTF Spec HLGImg SRGBinPQ

namespace BT709inPQ

/-- A root between numbers whose ratio is at most `1 + e`. -/
theorem root_rel {s t e : ℝ} (s0 : 0 < s) (h : s ≤ t) (h1 : t ≤ s * (1 + e)) :
    0 ≤ t ^ (0.45 : ℝ) - s ^ (0.45 : ℝ) ∧ t ^ (0.45 : ℝ) - s ^ (0.45 : ℝ) ≤ 0.45 * s ^ (0.45 : ℝ) * e := by
  have a := rpow_concave s0 h (p := 0.45) (by norm_num) (by norm_num)
  have b := Real.rpow_le_rpow s0.le h (show (0 : ℝ) ≤ 0.45 by norm_num)
  have p0 := Real.rpow_nonneg s0.le (0.45 : ℝ)
  refine ⟨by linarith, a.trans ?_⟩
  have c : (t - s) / s ≤ e := by rw [div_le_iff₀ s0]; linarith
  have d := mul_le_mul_of_nonneg_left c (mul_nonneg (by norm_num : (0 : ℝ) ≤ 0.45) p0)
  refine le_trans (le_of_eq ?_) d
  field_simp

/-- Both on the power segment, dim. -/
theorem pow_dim {s t : ℝ} (s0 : 0 < s) (h : s ≤ t) (h1 : t ≤ s * (1 + 0.01502)) (s1 : s ≤ 0.05) :
    |1.099 * t ^ (0.45 : ℝ) - 1.099 * s ^ (0.45 : ℝ)| ≤ 0.00194 := by
  obtain ⟨a, b⟩ := root_rel s0 h h1
  have c : s ^ (0.45 : ℝ) ≤ 0.26 := by
    have d := Real.rpow_le_rpow s0.le s1 (show (0 : ℝ) ≤ 0.45 by norm_num)
    have e := rpow_le_of_pow (x := 0.05) (r := 0.26) (p := 9) (q := 20) (by norm_num) (by norm_num) (by norm_num) (by norm_num)
    rw [show ((9 : ℕ) : ℝ) / ((20 : ℕ) : ℝ) = 0.45 by norm_num] at e
    exact d.trans e
  rw [abs_le]; constructor <;> linarith

/-- Both on the power segment, bright. -/
theorem pow_bright {s t : ℝ} (s0 : 0 < s) (h : s ≤ t) (h1 : t ≤ s * (1 + 0.00382)) (s1 : s ≤ 1) :
    |1.099 * t ^ (0.45 : ℝ) - 1.099 * s ^ (0.45 : ℝ)| ≤ 0.00194 := by
  obtain ⟨a, b⟩ := root_rel s0 h h1
  have c := Real.rpow_le_one s0.le s1 (show (0 : ℝ) ≤ 0.45 by norm_num)
  rw [abs_le]; constructor <;> linarith

/-- One on the linear segment, one on the power segment. -/
theorem across {s t : ℝ} (s1 : s ≤ 0.018) (t0 : 0.0179 ≤ t) (h : t ≤ s * (1 + 0.01502)) :
    |1.099 * t ^ (0.45 : ℝ) - 0.099 - 4.5 * s| ≤ 0.00194 := by
  have k1 := bt709_pow_hi (x := 0.018) (by norm_num) (by norm_num)
  have lo : 0.1634 ≤ t ^ (0.45 : ℝ) := by
    have e := le_rpow_of_pow (x := t) (r := 0.1634) (p := 9) (q := 20) (by linarith) (by norm_num) (by norm_num)
      (le_trans (b := (0.0179 : ℝ) ^ 9) (by norm_num) (pow_le_pow_left₀ (by norm_num) t0 9))
    rwa [show ((9 : ℕ) : ℝ) / ((20 : ℕ) : ℝ) = 0.45 by norm_num] at e
  rcases le_total t 0.018 with ht | ht
  · have m := Real.rpow_le_rpow (by linarith) ht (show (0 : ℝ) ≤ 0.45 by norm_num)
    rw [abs_le]; constructor <;> linarith
  · have a := rpow_concave (x := 0.018) (y := t) (by norm_num) ht (p := 0.45) (by norm_num) (by norm_num)
    have b : (0.018 : ℝ) ^ (0.45 : ℝ) / 0.018 ≤ 9.113 := by rw [div_le_iff₀ (by norm_num)]; linarith
    have c : 0.45 * ((0.018 : ℝ) ^ (0.45 : ℝ) / 0.018) * (t - 0.018) ≤ 0.45 * 9.113 * (t - 0.018) :=
      mul_le_mul_of_nonneg_right (by linarith) (by linarith)
    rw [abs_le]; constructor <;> linarith

/-- What the sender has: a signal on one of the segments. -/
theorem sender {v : ℝ} (h0 : 0 ≤ v) (h1 : v ≤ 1) :
    (0 ≤ bt709Inv v ∧ bt709Inv v ≤ 1) ∧
    (bt709Inv v ≤ 0.018 ∧ v = 4.5 * bt709Inv v ∨ 0.0179 ≤ bt709Inv v ∧ v = 1.099 * bt709Inv v ^ (0.45 : ℝ) - 0.099) := by
  unfold bt709Inv
  split_ifs with h
  · refine ⟨⟨by positivity, by rw [div_le_one (by norm_num)]; linarith⟩, .inl ⟨by rw [div_le_iff₀ (by norm_num)]; linarith, by ring⟩⟩
  · have b0 : 0 ≤ (v + 0.099) / 1.099 := div_nonneg (by linarith) (by norm_num)
    have b1 : (v + 0.099) / 1.099 ≤ 1 := by rw [div_le_one (by norm_num)]; linarith
    refine ⟨⟨Real.rpow_nonneg b0 _, Real.rpow_le_one b0 b1 (by norm_num)⟩, .inr ⟨?_, ?_⟩⟩
    · exact bt709Inv_pow_lo (a := 0.081) (by norm_num) (by norm_num) (by norm_num) (not_lt.1 h)
    · rw [← Real.rpow_mul b0]
      norm_num
      ring

/-- What the receiver gets. -/
theorem receiver {o : F32.Oracle} (hp : o.PowAccurate (2 ^ (-22 : ℤ))) {y : F32} (hy : y.isFinite = true) (y0 : 0 ≤ (y.val : ℝ)) :
    ((y.val : ℝ) ≤ 0.018 ∧ Ap (@Y_to_BT709 F32 (F32.libm o) y) (4.5 * y.val) 6e-7) ∨
    (0.0179 ≤ (y.val : ℝ) ∧ Ap (@Y_to_BT709 F32 (F32.libm o) y) (1.099 * (min 1 (y.val : ℝ)) ^ (0.45 : ℝ) - 0.099) 6e-7) := by
  rcases le_or_gt y.val 1 with h1 | h1
  · obtain ⟨s1, s2⟩ := bt709_enc_segments o hp y hy (by exact_mod_cast y0) h1
    rcases lt_or_ge y.val (2415919/134217728) with h | h
    · obtain ⟨-, a⟩ := s1 h
      have h' := (Rat.cast_lt (K := ℝ)).2 h
      push_cast at h'
      exact .inl ⟨by norm_num at h' ⊢; linarith, a.fin, a.err.trans (by norm_num)⟩
    · have a := s2 h
      have h' := (Rat.cast_le (K := ℝ)).2 h
      push_cast at h'
      have h2 : (y.val : ℝ) ≤ 1 := by exact_mod_cast h1
      refine .inr ⟨by norm_num at h' ⊢; linarith, ?_⟩
      rw [min_eq_right h2]
      exact a
  · have h2 : (1 : ℝ) < y.val := by exact_mod_cast h1
    refine .inr ⟨by linarith, ?_⟩
    rw [(bt709_enc_out o y hy).2 h1, min_eq_left h2.le, Real.one_rpow]
    have l : (Arith.lit 1 : F32).val = 1 := by decide +kernel
    refine ⟨by decide +kernel, ?_⟩
    rw [l]; norm_num

/-- The signal received is within half a level of 256. -/
theorem signal {v w l y : ℝ} (l1 : l ≤ 1)
    (hd : l ≤ 0.05 → y ≤ l * (1 + 0.01502) ∧ l ≤ y * (1 + 0.01502)) (hb : 0.05 ≤ l → y ≤ l * (1 + 0.00382) ∧ l ≤ y * (1 + 0.00382))
    (hv : l ≤ 0.018 ∧ v = 4.5 * l ∨ 0.0179 ≤ l ∧ v = 1.099 * l ^ (0.45 : ℝ) - 0.099)
    (hw : y ≤ 0.018 ∧ |w - 4.5 * y| ≤ 6e-7 ∨ 0.0179 ≤ y ∧ |w - (1.099 * (min 1 y) ^ (0.45 : ℝ) - 0.099)| ≤ 6e-7) :
    |w - v| ≤ 0.001941 := by
  rcases hv with ⟨l2, rfl⟩ | ⟨l2, rfl⟩ <;> rcases hw with ⟨y2, e⟩ | ⟨y2, e⟩
  · obtain ⟨a, b⟩ := hd (by linarith)
    obtain ⟨e1, e2⟩ := abs_le.1 e
    rw [abs_le]; constructor <;> linarith
  · obtain ⟨a, b⟩ := hd (by linarith)
    rw [min_eq_right (by linarith)] at e
    have c := across l2 y2 a
    obtain ⟨e1, e2⟩ := abs_le.1 e
    obtain ⟨c1, c2⟩ := abs_le.1 c
    rw [abs_le]; constructor <;> linarith
  · have hl : l ≤ 0.05 := by
      by_contra hh
      obtain ⟨a, b⟩ := hb (not_le.1 hh).le
      linarith
    obtain ⟨a, b⟩ := hd hl
    have c := across y2 l2 b
    obtain ⟨e1, e2⟩ := abs_le.1 e
    obtain ⟨c1, c2⟩ := abs_le.1 c
    rw [abs_le]; constructor <;> linarith
  · have c : |1.099 * (min 1 y) ^ (0.45 : ℝ) - 1.099 * l ^ (0.45 : ℝ)| ≤ 0.00194 := by
      rcases le_total l 0.05 with hl | hl
      · obtain ⟨a, b⟩ := hd hl
        rw [min_eq_right (by linarith)]
        rcases le_total l y with k | k
        · exact pow_dim (by linarith) k a hl
        · rw [abs_sub_comm]; exact pow_dim (by linarith) k b (by linarith)
      · obtain ⟨a, b⟩ := hb hl
        rcases le_total l y with k | k
        · exact pow_bright (by linarith) (le_min l1 k) ((min_le_right _ _).trans a) l1
        · rw [abs_sub_comm, min_eq_right (by linarith)]; exact pow_bright (by linarith) k b (by linarith)
    obtain ⟨e1, e2⟩ := abs_le.1 e
    obtain ⟨c1, c2⟩ := abs_le.1 c
    rw [abs_le]; constructor <;> linarith

theorem decode_zero (o : F32.Oracle) {v : F32} (hv : v.isFinite = true) (h : v.val = 0) :
    (@BT709_to_Y F32 (F32.libm o) v).val = 0 := by
  unfold BT709_to_Y
  rw [lt_lit hv (c := 0) (by decide +kernel), lit_lt hv (c := 1) (by decide +kernel),
    lt_lit hv (c := 2717909/33554432) (by decide +kernel), h]
  simp only [decide_eq_true_eq]
  rw [if_neg (by norm_num), if_neg (by norm_num), if_pos (by norm_num)]
  obtain ⟨-, e, -⟩ := div_pos_val hv (y := lit 4.50) (by decide +kernel) h.ge (by decide +kernel)
  show (v / lit 4.50).val = 0
  rw [e, h, zero_div, rnd_zero]

/-- The light of a level other than black. -/
theorem light_lo {v : ℝ} (h : 0.00392 ≤ v) (h1 : v ≤ 1) : 3.034e-4 ≤ bt709Inv v := by
  rcases (sender (v := v) (by linarith) h1).2 with ⟨-, e⟩ | ⟨e, -⟩ <;> linarith

/-- The light of the level and the light sent. -/
theorem sent {o : F32.Oracle} (hp : o.PowAccurate (2 ^ (-22 : ℤ))) {N k : ℕ} (hN : 0 < N) (hN' : N ≤ 255) (k0 : 0 < k) (hk : k ≤ N) :
    (@BT709_to_Y F32 (F32.libm o) (Arith.ofInt k / Arith.ofInt N)).isFinite = true ∧
    3.034e-4 ≤ bt709Inv ((Arith.ofInt k / Arith.ofInt N : F32).val : ℝ) ∧
    |((@BT709_to_Y F32 (F32.libm o) (Arith.ofInt k / Arith.ofInt N)).val : ℝ) - bt709Inv ((Arith.ofInt k / Arith.ofInt N : F32).val : ℝ)| ≤
      2e-6 * bt709Inv ((Arith.ofInt k / Arith.ofInt N : F32).val : ℝ) + 1 / 2 ^ 149 ∧
    3.03e-4 ≤ ((@BT709_to_Y F32 (F32.libm o) (Arith.ofInt k / Arith.ofInt N)).val : ℝ) ∧
    ((@BT709_to_Y F32 (F32.libm o) (Arith.ofInt k / Arith.ofInt N)).val : ℝ) ≤ 1.00001 := by
  obtain ⟨c, c0, c1⟩ := code_ap hN (hN'.trans (by norm_num)) hk
  have N1 : (N : ℝ) ≤ 255 := by exact_mod_cast hN'
  have d := C84_decode o hp _ c.fin
  rw [clampTo_of_mem ⟨c0, c1⟩] at d
  obtain ⟨⟨m0, m1⟩, -⟩ := sender c0 c1
  have lo : 3.034e-4 ≤ bt709Inv ((Arith.ofInt k / Arith.ofInt N : F32).val : ℝ) := by
    refine light_lo ?_ c1
    have : (1 / 255 : ℝ) ≤ k / N := by
      rw [div_le_div_iff₀ (by norm_num) (by exact_mod_cast hN)]
      have b : (1 : ℝ) ≤ k := by exact_mod_cast k0
      nlinarith
    have := (abs_le.1 c.err).1
    norm_num at *
    linarith
  have de := d.err
  refine ⟨d.fin, lo, de.trans ?_, ?_⟩
  · gcongr; norm_num
  · have t : (1 : ℝ) / 2 ^ 149 ≤ 1e-30 := by norm_num
    obtain ⟨a1, a2⟩ := abs_le.1 de
    generalize (1 : ℝ) / 2 ^ 149 = tiny at *
    constructor <;> linarith

/-- One channel. -/
theorem channel {o : F32.Oracle} (hp : o.PowAccurate (2 ^ (-22 : ℤ)))
    (hz : ∀ y : F32, y.isFinite = true → 0 < y.val → o.powf (F32.zero false) y = F32.zero false)
    {N M k q : ℕ} (hN : 0 < N) (hN' : N ≤ 255) (hM : 4095 ≤ M) (hM' : M ≤ 65535) (hk : k ≤ N)
    (hq : |(@Y_to_ST2084 F32 (F32.libm o) (@BT709_to_Y F32 (F32.libm o) (Arith.ofInt k / Arith.ofInt N))).val * M - q| ≤ 1 / 2) :
    (@Y_to_BT709 F32 (F32.libm o) (@ST2084_to_Y F32 (F32.libm o) (Arith.ofInt q / Arith.ofInt M))).isFinite = true ∧
    |(@Y_to_BT709 F32 (F32.libm o) (@ST2084_to_Y F32 (F32.libm o) (Arith.ofInt q / Arith.ofInt M))).val * N - k| < 1 / 2 := by
  obtain ⟨c, c0, c1⟩ := code_ap hN (hN'.trans (by norm_num)) hk
  have N1 : (N : ℝ) ≤ 255 := by exact_mod_cast hN'
  have N0 : (0 : ℝ) < N := by exact_mod_cast hN
  rcases Nat.eq_zero_or_pos k with rfl | k0
  · obtain ⟨f, e, -⟩ := code_val hN (hN'.trans (by norm_num)) (Nat.zero_le N)
    have d := C84_decode o hp _ f
    have v0 := decode_zero o f (by rw [e]; simp [rnd_zero])
    rw [enc_zero o d.fin v0] at hq
    have q0 : q = 0 := by
      have : (q : ℚ) ≤ 1 / 2 := by have := (abs_le.1 hq).1; linarith
      by_contra hh
      have : (1 : ℚ) ≤ q := by exact_mod_cast Nat.one_le_iff_ne_zero.2 hh
      linarith
    rw [q0, zero_code (by omega) hM', (C86_black o).2 hz]
    have z := ((bt709_enc_segments o hp (F32.zero false) rfl le_rfl (by norm_num [F32.val])).1 (by norm_num [F32.val])).2
    refine to_code (E := 1e-6) hN ⟨z.fin, ?_⟩ c ?_
    · have ze := z.err
      have v : ((Arith.ofInt ((0 : ℕ) : ℤ) / Arith.ofInt N : F32).val : ℝ) = 0 := by rw [e]; simp [rnd_zero]
      have w : (((F32.zero false).val : ℚ) : ℝ) = 0 := by simp [F32.val]
      rw [w, mul_zero] at ze
      rw [v]
      exact ze.trans (by norm_num)
    · nlinarith
  · obtain ⟨df, lo, de, xb⟩ := sent hp hN hN' k0 hk
    obtain ⟨⟨m0, m1⟩, seg⟩ := sender c0 c1
    obtain ⟨yf, y0, near⟩ := trip hp hM hM' df xb hq
    obtain ⟨hd, hb⟩ := light lo m1 de y0 near
    have r := receiver hp yf y0
    refine to_code (E := 0.001941) hN ?_ c (by linarith)
    have fin : (@Y_to_BT709 F32 (F32.libm o) (@ST2084_to_Y F32 (F32.libm o) (Arith.ofInt q / Arith.ofInt M))).isFinite = true := by
      rcases r with ⟨-, a⟩ | ⟨-, a⟩ <;> exact a.fin
    refine ⟨fin, signal m1 hd hb seg ?_⟩
    rcases r with ⟨a, b⟩ | ⟨a, b⟩
    · exact .inl ⟨a, b.err⟩
    · exact .inr ⟨a, b.err⟩

/-- The signals of the brightest levels. -/
theorem bright_sent {o : F32.Oracle} (hp : o.PowAccurate (2 ^ (-22 : ℤ))) {k : ℕ} (h0 : 225 ≤ k) (h1 : k ≤ 255) :
    0.47979 ≤ ((@Y_to_ST2084 F32 (F32.libm o) (@BT709_to_Y F32 (F32.libm o) (Arith.ofInt k / Arith.ofInt ((255 : ℕ) : ℤ)))).val : ℝ) ∧
    ((@Y_to_ST2084 F32 (F32.libm o) (@BT709_to_Y F32 (F32.libm o) (Arith.ofInt k / Arith.ofInt ((255 : ℕ) : ℤ)))).val : ℝ) ≤ 0.508127 := by
  obtain ⟨c, c0, c1⟩ := code_ap (k := k) (N := 255) (by norm_num) (by norm_num) h1
  obtain ⟨df, -, de, -⟩ := sent hp (N := 255) (by norm_num) le_rfl (by omega) h1
  obtain ⟨⟨-, m1⟩, -⟩ := sender c0 c1
  have lo : 0.752938 ≤ bt709Inv ((Arith.ofInt k / Arith.ofInt ((255 : ℕ) : ℤ) : F32).val : ℝ) := by
    have a := (abs_le.1 c.err).1
    have b : (225 : ℝ) ≤ k := by exact_mod_cast h0
    have v : 0.88 ≤ ((Arith.ofInt k / Arith.ofInt ((255 : ℕ) : ℤ) : F32).val : ℝ) := by push_cast at a ⊢; linarith
    unfold bt709Inv
    rw [if_neg (by linarith)]
    exact bt709Inv_pow_lo (a := 0.88) (by norm_num) (by norm_num) (by norm_num) v
  generalize (@BT709_to_Y F32 (F32.libm o) (Arith.ofInt k / Arith.ofInt ((255 : ℕ) : ℤ))) = x at *
  generalize bt709Inv ((Arith.ofInt k / Arith.ofInt ((255 : ℕ) : ℤ) : F32).val : ℝ) = l at *
  have t : (1 : ℝ) / 2 ^ 149 ≤ 1e-30 := by norm_num
  obtain ⟨a1, a2⟩ := abs_le.1 de
  generalize (1 : ℝ) / 2 ^ 149 = tiny at *
  have s := C86_encode o hp x df (le_trans (b := 0.5) (by rw [zpow_neg]; norm_num) (by linarith))
  rw [min_eq_left (by linarith)] at s
  obtain ⟨p1, p2⟩ := bright_range (x := (x.val : ℝ) / 100) (by linarith) (by linarith)
  obtain ⟨s1, s2⟩ := abs_le.1 s.err
  constructor <;> linarith

end BT709inPQ

open BT709inPQ SRGBinHLG

/-- C148: a BT.709 pixel of up to 256 levels per channel, decoded, encoded as PQ, rounded to codes of 12 bits or more, decoded and
encoded as BT.709, has the codes it had.  The hypothesis on `powf(0, y)` is what ISO C, annex F requires; it is needed for black. -/
theorem C148_pq (o : F32.Oracle) (hp : o.PowAccurate (2 ^ (-22 : ℤ)))
    (hz : ∀ y : F32, y.isFinite = true → 0 < y.val → o.powf (F32.zero false) y = F32.zero false)
    (x : F32) (N M i j k a b c : ℕ) (hN : 0 < N) (hN' : N ≤ 255) (hM : 4095 ≤ M) (hM' : M ≤ 65535) (hi : i ≤ N) (hj : j ≤ N) (hk : k ≤ N) :
    letI := F32.libm o
    Rounds M a b c (toScreen .ST2084 (toScene .BT709 (pixel N i j k) x) x) →
    HasCodes N i j k (toScreen .BT709 (toScene .ST2084 (pixel M a b c) x) x) := by
  rintro ⟨ra, rb, rc⟩
  obtain ⟨a1, a2⟩ := BT709inPQ.channel hp hz hN hN' hM hM' hi ra
  obtain ⟨b1, b2⟩ := BT709inPQ.channel hp hz hN hN' hM hM' hj rb
  obtain ⟨c1, c2⟩ := BT709inPQ.channel hp hz hN hN' hM hM' hk rc
  exact ⟨⟨a1, b1, c1⟩, a2, b2, c2⟩

/-- C148: codes to round to always exist. -/
theorem C148_codes (o : F32.Oracle) (hp : o.PowAccurate (2 ^ (-22 : ℤ))) (N M k : ℕ) (hN : 0 < N) (hN' : N ≤ 255) (hk : k ≤ N) :
    letI := F32.libm o
    ∃ q : ℕ, |(Y_to_ST2084 (BT709_to_Y (Arith.ofInt k / Arith.ofInt N : F32))).val * M - q| ≤ 1 / 2 := by
  obtain ⟨f, e, -⟩ := code_val hN (hN'.trans (by norm_num)) hk
  have d := (C84_decode o hp _ f).fin
  have e0 : 0 ≤ (@Y_to_ST2084 F32 (F32.libm o) (@BT709_to_Y F32 (F32.libm o) (Arith.ofInt k / Arith.ofInt N))).val := by
    rcases Nat.eq_zero_or_pos k with rfl | k0
    · exact (enc_zero o d (BT709inPQ.decode_zero o f (by rw [e]; simp [rnd_zero]))).ge
    · have l := (BT709inPQ.sent hp hN hN' k0 hk).2.2.2.1
      have s := C86_encode o hp _ d (le_trans (by rw [zpow_neg]; norm_num) l)
      have m : (0 : ℝ) ≤ min (((@BT709_to_Y F32 (F32.libm o) (Arith.ofInt k / Arith.ofInt N)).val : ℝ) / 100) 1 :=
        le_min (by linarith) (by norm_num)
      have P : 0 ≤ pq (min (((@BT709_to_Y F32 (F32.libm o) (Arith.ofInt k / Arith.ofInt N)).val : ℝ) / 100) 1) := by
        rw [pq_pow m]
        exact Real.rpow_nonneg (by linarith [pqN_lo (Real.rpow_nonneg m (0.1593017578125 : ℝ))]) _
      have := (abs_le.1 s.err).1
      rw [← Rat.cast_le (K := ℝ)]
      push_cast
      linarith
  generalize (@Y_to_ST2084 F32 (F32.libm o) (@BT709_to_Y F32 (F32.libm o) (Arith.ofInt k / Arith.ofInt N))).val = e at *
  have r := abs_sub_round (e * M)
  have rn : 0 ≤ round (e * M) := by
    rw [round_eq]
    exact Int.floor_nonneg.2 (add_nonneg (mul_nonneg e0 (Nat.cast_nonneg M)) (by norm_num))
  obtain ⟨q, hq⟩ := Int.eq_ofNat_of_zero_le rn
  refine ⟨q, ?_⟩
  rw [hq] at r
  exact_mod_cast r

/-- C148: ten bits are not enough: however the codes of a scale `0..M` with `M ≤ 1023` are rounded, two of the 256 levels of BT.709
get the same PQ code. -/
theorem C148_ten_bits (o : F32.Oracle) (hp : o.PowAccurate (2 ^ (-22 : ℤ))) (M : ℕ) (hM : M ≤ 1023) (q : ℕ → ℕ) :
    letI := F32.libm o
    (∀ k : ℕ, k ≤ 255 → |(Y_to_ST2084 (BT709_to_Y (Arith.ofInt k / Arith.ofInt ((255 : ℕ) : ℤ) : F32))).val * M - q k| ≤ 1 / 2) →
    ∃ i j, i < j ∧ j ≤ 255 ∧ q i = q j := by
  intro h
  refine few_codes hM (fun k h0 h1 => BT709inPQ.bright_sent hp h0 h1) h

/-- The hypotheses are met together, and then black, grey and white arrive. -/
example : ∃ o : F32.Oracle, ∀ x : F32,
    letI := F32.libm o
    ∃ a b c, Rounds 4095 a b c (toScreen .ST2084 (toScene .BT709 (pixel 255 0 128 255) x) x) ∧
      HasCodes 255 0 128 255 (toScreen .BT709 (toScene .ST2084 (pixel 4095 a b c) x) x) := by
  obtain ⟨o, hp, hz⟩ := exists_annexF
  refine ⟨o, fun x => ?_⟩
  obtain ⟨a, ra⟩ := C148_codes o hp 255 4095 0 (by norm_num) (by norm_num) (by norm_num)
  obtain ⟨b, rb⟩ := C148_codes o hp 255 4095 128 (by norm_num) (by norm_num) (by norm_num)
  obtain ⟨c, rc⟩ := C148_codes o hp 255 4095 255 (by norm_num) (by norm_num) (by norm_num)
  exact ⟨a, b, c, ⟨ra, rb, rc⟩, C148_pq o hp hz x 255 4095 0 128 255 a b c (by norm_num) (by norm_num) (by norm_num) (by norm_num)
    (by norm_num) (by norm_num) (by norm_num) ⟨ra, rb, rc⟩⟩

end CS
