import Verif.Props.HLGImages

/-!
# C139: sRGB images carried as HLG video, in single precision

An sRGB image of `N + 1` levels per channel is decoded, encoded as HLG and rounded to codes of a scale of `M + 1` levels; the
receiver decodes the codes and encodes sRGB again.  With `M ≥ 3 N` (8 bits in 10, 10 bits in 12) every pixel arrives.  With
`M ≤ 2 N - 2` (any depth in the same depth) two levels of every channel become one.
-/

namespace CS
open F32 B32 OTF Spec HLGImg

namespace SRGBinHLG

/-- The sRGB curve after a square: the slope is at most 1.446. -/
theorem srgb_sq_up {s t : ℝ} (s0 : 0 ≤ s) (h : s ≤ t) : |srgb (t ^ 2) - srgb (s ^ 2)| ≤ 1.446 * (t - s) + 1.1e-7 := by
  have pow : ∀ {x : ℝ}, 0 ≤ x → (x ^ 2 : ℝ) ^ ((1 : ℝ) / 2.4) = x ^ ((5 : ℝ) / 6) := by
    intro x hx
    rw [← Real.rpow_natCast, ← Real.rpow_mul hx]; norm_num
  have k0 : (0 : ℝ) < 0.05595 := by norm_num
  have lip : ∀ {x y : ℝ}, 0.05595 ≤ x → x ≤ y →
      0 ≤ 1.055 * y ^ ((5 : ℝ) / 6) - 1.055 * x ^ ((5 : ℝ) / 6) ∧ 1.055 * y ^ ((5 : ℝ) / 6) - 1.055 * x ^ ((5 : ℝ) / 6) ≤ 1.44 * (y - x) := by
    intro x y hx hy
    have x0 : 0 < x := k0.trans_le hx
    have h1 := rpow_concave x0 hy (p := 5 / 6) (by norm_num) (by norm_num)
    have h2 := Real.rpow_le_rpow x0.le hy (show (0 : ℝ) ≤ 5 / 6 by norm_num)
    have h3 : x ^ ((5 : ℝ) / 6) / x ≤ 1.63 := by
      have a : x ^ ((5 : ℝ) / 6) / x ≤ (0.05595 : ℝ) ^ ((5 : ℝ) / 6) / 0.05595 := by
        rw [← Real.rpow_sub_one x0.ne', ← Real.rpow_sub_one k0.ne']
        exact Real.rpow_le_rpow_of_nonpos k0 hx (by norm_num)
      have b := rpow_le_of_pow (x := 0.05595) (r := 0.0911) (p := 5) (q := 6) (by norm_num) (by norm_num) (by norm_num) (by norm_num)
      push_cast at b
      have c : (0.05595 : ℝ) ^ ((5 : ℝ) / 6) / 0.05595 ≤ 1.63 := by
        rw [div_le_iff₀ k0]; linarith
      linarith
    have h4 : 5 / 6 * (x ^ ((5 : ℝ) / 6) / x) * (y - x) ≤ 5 / 6 * 1.63 * (y - x) :=
      mul_le_mul_of_nonneg_right (by linarith) (by linarith)
    constructor <;> linarith
  obtain ⟨k1, k2⟩ := srgb_pow_knee (x := 0.0031308) le_rfl (by norm_num)
  unfold srgb
  split_ifs with h1 h2 h2
  · have ht : t ≤ 0.055955 := by
      by_contra hh
      push Not at hh
      nlinarith
    rw [show 12.92 * t ^ 2 - 12.92 * s ^ 2 = 12.92 * (t + s) * (t - s) by ring, abs_of_nonneg (mul_nonneg (by linarith) (by linarith))]
    have : 12.92 * (t + s) * (t - s) ≤ 1.446 * (t - s) := mul_le_mul_of_nonneg_right (by linarith) (by linarith)
    linarith
  · exact absurd (lt_of_le_of_lt (by gcongr) h1) h2
  · -- across the knee
    have hk : √0.0031308 ^ 2 = (0.0031308 : ℝ) := Real.sq_sqrt (by norm_num)
    have kl : 0.05595 ≤ √0.0031308 := Real.le_sqrt_of_sq_le (by norm_num)
    have ku : √0.0031308 ≤ 0.055955 := by rw [Real.sqrt_le_left (by norm_num)]; norm_num
    have hs : s ≤ √0.0031308 := Real.le_sqrt_of_sq_le h2.le
    have ht : √0.0031308 ≤ t := by rw [Real.sqrt_le_left (by linarith)]; exact not_lt.1 h1
    obtain ⟨a, b⟩ := lip kl ht
    rw [← pow (Real.sqrt_nonneg _), hk, ← pow (by linarith)] at a b
    have c : 12.92 * (0.0031308 - s ^ 2) ≤ 1.446 * (√0.0031308 - s) := by
      have : 12.92 * (√0.0031308 + s) * (√0.0031308 - s) ≤ 1.446 * (√0.0031308 - s) :=
        mul_le_mul_of_nonneg_right (by linarith) (by linarith)
      have e : 12.92 * (√0.0031308 + s) * (√0.0031308 - s) = 12.92 * (√0.0031308 ^ 2 - s ^ 2) := by ring
      rw [e, hk] at this
      exact this
    generalize √0.0031308 = k at *
    generalize (0.0031308 : ℝ) ^ ((1 : ℝ) / 2.4) = p at *
    generalize (t ^ 2 : ℝ) ^ ((1 : ℝ) / 2.4) = r at *
    have := h2.le
    rw [abs_le]; constructor <;> linarith
  · have s1 : 0.05595 ≤ s := by
      by_contra hh
      push Not at hh
      have := not_lt.1 h2
      nlinarith
    obtain ⟨a, b⟩ := lip s1 h
    rw [pow s0, pow (s0.trans h), abs_le]
    constructor <;> linarith

theorem srgb_sq {s t : ℝ} (s0 : 0 ≤ s) (t0 : 0 ≤ t) : |srgb (t ^ 2) - srgb (s ^ 2)| ≤ 1.446 * |t - s| + 1.1e-7 := by
  rcases le_total s t with h | h
  · rw [abs_of_nonneg (a := t - s) (by linarith)]; exact srgb_sq_up s0 h
  · rw [abs_sub_comm, abs_sub_comm t s, abs_of_nonneg (a := s - t) (by linarith)]; exact srgb_sq_up t0 h

/-- HLG of display light is half its square root. -/
theorem hlg_disp {c : ℝ} (h1 : c ≤ 1) : |hlg c - √c / 2| ≤ 1e-9 := by
  rcases lt_or_eq_of_le h1 with h | h
  · rw [hlg_lo h, sub_self, abs_zero]; norm_num
  · obtain ⟨a, b⟩ := hlg_above (y := 1) (e := 0) le_rfl (by norm_num)
    rw [h, hlg_hi le_rfl, Real.sqrt_one, abs_le]
    constructor <;> linarith

/-- The signal of the sRGB level. -/
theorem sent {o : F32.Oracle} (ho : Lib o) (hp : o.PowAccurate (2 ^ (-22 : ℤ))) {v : F32} (hv : v.isFinite = true)
    (h : (0 : ℝ) ≤ v.val ∧ (v.val : ℝ) ≤ 1) :
    Ap (@Y_to_HLG F32 (F32.libm o) (@sRGB_to_Y F32 (F32.libm o) v)) (√(srgbInv v.val) / 2) 1.4e-6 := by
  have d := C83_decode o hp v hv
  rw [clampTo_of_mem h] at d
  obtain ⟨m0, m1⟩ := srgbInv_mem h
  have t : (1 : ℝ) / 2 ^ 149 ≤ 1e-30 := by norm_num
  have t0 : (0 : ℝ) ≤ 1 / 2 ^ 149 := by positivity
  have df := d.fin
  have de := d.err
  have bd : (@sRGB_to_Y F32 (F32.libm o) v).val ≤ 2 ^ 60 := by
    have := (abs_le.1 de).2
    have : ((@sRGB_to_Y F32 (F32.libm o) v).val : ℝ) ≤ ((2 ^ 60 : ℚ) : ℝ) := by push_cast; norm_num; linarith
    exact_mod_cast this
  have e := enc ho df bd
  have e1 := e.err
  have mc := max_close de
  rw [max_eq_left m0] at mc
  have q1 := hlg_mixed (le_max_right _ 0) m0 mc (by norm_num) (by norm_num) t0 t
  have q2 := hlg_disp m1
  have s1 : √(srgbInv (v.val : ℝ)) ≤ 1 := by rw [Real.sqrt_le_left (by norm_num)]; linarith
  refine ⟨e.fin, ?_⟩
  obtain ⟨a1, a2⟩ := abs_le.1 q1
  obtain ⟨b1, b2⟩ := abs_le.1 q2
  obtain ⟨c1, c2⟩ := abs_le.1 e1
  rw [abs_le]; constructor <;> linarith

/-- Half the square root of the received light, clamped, is no further from a signal of display light than the HLG signal is. -/
theorem clamp_sig {y S w : ℝ} (S1 : S ≤ 1) (h : |hlg (max y 0) - w| ≤ 1.1e-6) {d : ℝ} (hw : |w - S / 2| ≤ d) :
    |√(clampTo 0 1 y) - S| ≤ 2 * d + 2.3e-6 := by
  have c : clampTo 0 1 y = min 1 (max y 0) := by
    unfold clampTo
    rcases le_total y 0 with a | a
    · rw [max_eq_right a, min_eq_right (by linarith), min_eq_right (by norm_num), max_eq_left a]
    · rw [max_eq_left a]
      rw [max_eq_right (le_min (by norm_num) a)]
  rw [c]
  obtain ⟨a1, a2⟩ := abs_le.1 h
  obtain ⟨b1, b2⟩ := abs_le.1 hw
  have z0 : 0 ≤ max y 0 := le_max_right _ _
  generalize max y 0 = z at *
  rcases lt_or_ge z 1 with hz | hz
  · rw [min_eq_right hz.le]
    rw [hlg_lo hz] at a1 a2
    rw [abs_le]; constructor <;> linarith
  · rw [min_eq_left hz, Real.sqrt_one]
    have := (hlg_above (y := z) (e := z - 1) hz (by linarith)).1
    rw [hlg_hi hz] at a1 a2
    rw [abs_le]; constructor <;> linarith

/-- One channel. -/
theorem channel {o : F32.Oracle} (ho : Lib o) (hp : o.PowAccurate (2 ^ (-22 : ℤ))) {N M k q : ℕ} (hN : 0 < N) (hN' : N ≤ 1023)
    (hM : 3 * N ≤ M) (hM' : M ≤ 65535) (hk : k ≤ N)
    (hq : |(@Y_to_HLG F32 (F32.libm o) (@sRGB_to_Y F32 (F32.libm o) (Arith.ofInt k / Arith.ofInt N))).val * M - q| ≤ 1 / 2) :
    (@Y_to_sRGB F32 (F32.libm o) (@HLG_to_Y F32 (F32.libm o) (Arith.ofInt q / Arith.ofInt M))).isFinite = true ∧
    |(@Y_to_sRGB F32 (F32.libm o) (@HLG_to_Y F32 (F32.libm o) (Arith.ofInt q / Arith.ofInt M))).val * N - k| < 1 / 2 := by
  obtain ⟨c, c0, c1⟩ := code_ap hN (hN'.trans (by norm_num)) hk
  have s := sent ho hp c.fin ⟨c0, c1⟩
  obtain ⟨m0, m1⟩ := srgbInv_mem ⟨c0, c1⟩
  have hS : √(srgbInv ((Arith.ofInt k / Arith.ofInt N : F32).val : ℝ)) ≤ 1 := by rw [Real.sqrt_le_left (by norm_num)]; linarith
  have hS0 := Real.sqrt_nonneg (srgbInv ((Arith.ofInt k / Arith.ofInt N : F32).val : ℝ))
  have M0 : 0 < M := by omega
  have Mp : (0 : ℝ) < M := by exact_mod_cast M0
  have M3 : (3 : ℝ) ≤ M := by exact_mod_cast (show 3 ≤ M by omega)
  have se := s.err
  generalize (@Y_to_HLG F32 (F32.libm o) (@sRGB_to_Y F32 (F32.libm o) (Arith.ofInt k / Arith.ofInt N))).val = e at *
  have hq' : |(e : ℝ) * M - q| ≤ 1 / 2 := by
    have := (Rat.cast_le (K := ℝ)).2 hq
    push_cast at this; exact this
  obtain ⟨s1, s2⟩ := abs_le.1 se
  obtain ⟨q1, q2⟩ := abs_le.1 hq'
  have hqM : q ≤ M := by
    have : (q : ℝ) ≤ M := by
      have : (e : ℝ) * M ≤ 0.51 * M := mul_le_mul_of_nonneg_right (by linarith) Mp.le
      linarith
    exact_mod_cast this
  obtain ⟨w, w0, w1⟩ := code_ap M0 hM' hqM
  obtain ⟨f, -, b⟩ := dec ho w.fin w0 w1
  have near : |((Arith.ofInt q / Arith.ofInt M : F32).val : ℝ) - √(srgbInv ((Arith.ofInt k / Arith.ofInt N : F32).val : ℝ)) / 2| ≤
      1 / (2 * M) + 1.5e-6 := by
    have a : |(e : ℝ) - q / M| ≤ 1 / (2 * M) := by
      rw [show (e : ℝ) - q / M = (e * M - q) / M by field_simp, abs_div, abs_of_pos Mp, div_le_iff₀ Mp]
      refine hq'.trans (le_of_eq ?_)
      field_simp
    have we := w.err
    rw [abs_le] at a we ⊢
    constructor <;> linarith
  have g := clamp_sig hS b near
  have l := srgb_sq hS0 (Real.sqrt_nonneg (clampTo 0 1 ((@HLG_to_Y F32 (F32.libm o) (Arith.ofInt q / Arith.ofInt M)).val : ℝ)))
  rw [Real.sq_sqrt (clamp01_mem _).1, Real.sq_sqrt m0] at l
  have r := srgb_srgbInv ⟨c0, c1⟩
  have z := C83_encode o hp _ f
  refine to_code (E := 1.446 / M + 8.6e-6) hN ⟨z.fin, ?_⟩ c ?_
  · have ze := z.err
    have x : 1.446 * (2 * (1 / (2 * (M : ℝ)) + 1.5e-6) + 2.3e-6) = 1.446 / M + 1.446 * 5.3e-6 := by field_simp; ring
    have y := (mul_le_mul_of_nonneg_left g (by norm_num : (0 : ℝ) ≤ 1.446)).trans_eq x
    generalize srgb (clampTo 0 1 ((@HLG_to_Y F32 (F32.libm o) (Arith.ofInt q / Arith.ofInt M)).val : ℝ)) = A at *
    generalize srgb (srgbInv ((Arith.ofInt k / Arith.ofInt N : F32).val : ℝ)) = B at *
    generalize (1.446 : ℝ) / M = u at *
    obtain ⟨z1, z2⟩ := abs_le.1 ze
    obtain ⟨r1, r2⟩ := abs_le.1 r
    obtain ⟨l1, l2⟩ := abs_le.1 l
    rw [abs_le]; constructor <;> linarith
  · have N3 : (N : ℝ) ≤ 1023 := by exact_mod_cast hN'
    have h3 : 3 * (N : ℝ) ≤ M := by exact_mod_cast hM
    have : 1.446 / (M : ℝ) * N ≤ 0.482 := by
      rw [div_mul_eq_mul_div, div_le_iff₀ Mp]; linarith
    linarith

/-- `a`, `b`, `c` are codes to which the components of `t` may be rounded, on a scale of `0..M`. -/
def Rounds (M a b c : ℕ) (t : Tristimulus F32) : Prop :=
  |t.a.val * M - a| ≤ 1 / 2 ∧ |t.b.val * M - b| ≤ 1 / 2 ∧ |t.c.val * M - c| ≤ 1 / 2

end SRGBinHLG

open SRGBinHLG

/-- C139: an sRGB pixel of `N + 1` levels per channel, decoded, encoded as HLG, rounded to codes of a scale `0..M` with `M ≥ 3 N`,
decoded and encoded as sRGB, has the codes it had. -/
theorem C139_hlg (o : F32.Oracle) (hs : o.SqrtAccurate (2 ^ (-23 : ℤ))) (hl : o.LogAccurate (2 ^ (-22 : ℤ)))
    (he : o.ExpAccurate (2 ^ (-22 : ℤ))) (hp : o.PowAccurate (2 ^ (-22 : ℤ))) (x : F32) (N M i j k a b c : ℕ) (hN : 0 < N) (hN' : N ≤ 1023)
    (hM : 3 * N ≤ M) (hM' : M ≤ 65535) (hi : i ≤ N) (hj : j ≤ N) (hk : k ≤ N) :
    letI := F32.libm o
    Rounds M a b c (toScreen .HLG (toScene .SRGB (pixel N i j k) x) x) →
    HasCodes N i j k (toScreen .SRGB (toScene .HLG (pixel M a b c) x) x) := by
  rintro ⟨ra, rb, rc⟩
  obtain ⟨a1, a2⟩ := channel ⟨hs, hl, he⟩ hp hN hN' hM hM' hi ra
  obtain ⟨b1, b2⟩ := channel ⟨hs, hl, he⟩ hp hN hN' hM hM' hj rb
  obtain ⟨c1, c2⟩ := channel ⟨hs, hl, he⟩ hp hN hN' hM hM' hk rc
  exact ⟨⟨a1, b1, c1⟩, a2, b2, c2⟩

/-- C139: codes to round to always exist. -/
theorem C139_codes (o : F32.Oracle) (hs : o.SqrtAccurate (2 ^ (-23 : ℤ))) (hl : o.LogAccurate (2 ^ (-22 : ℤ)))
    (he : o.ExpAccurate (2 ^ (-22 : ℤ))) (hp : o.PowAccurate (2 ^ (-22 : ℤ))) (N M k : ℕ) (hN : 0 < N) (hN' : N ≤ 65535) (hM : M ≤ 65535)
    (hk : k ≤ N) :
    letI := F32.libm o
    ∃ q : ℕ, |(Y_to_HLG (sRGB_to_Y (Arith.ofInt k / Arith.ofInt N : F32))).val * M - q| ≤ 1 / 2 := by
  obtain ⟨c, c0, c1⟩ := code_ap hN hN' hk
  have s := (sent ⟨hs, hl, he⟩ hp c.fin ⟨c0, c1⟩).err
  have S0 := Real.sqrt_nonneg (srgbInv ((Arith.ofInt k / Arith.ofInt N : F32).val : ℝ))
  generalize (@Y_to_HLG F32 (F32.libm o) (@sRGB_to_Y F32 (F32.libm o) (Arith.ofInt k / Arith.ofInt N))).val = e at *
  have e0 : -1.4e-6 ≤ (e : ℝ) := by have := (abs_le.1 s).1; linarith
  have e0 : (-1.4e-6 : ℚ) ≤ e := by
    rw [← Rat.cast_le (K := ℝ)]; push_cast; norm_num at e0 ⊢; linarith
  have M0 : (0 : ℚ) ≤ M := Nat.cast_nonneg M
  have M1 : (M : ℚ) ≤ 65535 := by exact_mod_cast hM
  have em : (-1.4e-6 : ℚ) * M ≤ e * M := mul_le_mul_of_nonneg_right e0 M0
  have r := abs_sub_round (e * M)
  have rn : 0 ≤ round (e * M) := by
    by_contra hh
    push Not at hh
    have h1 : round (e * M) ≤ -1 := by omega
    have : ((round (e * M) : ℤ) : ℚ) ≤ -1 := by exact_mod_cast h1
    have := (abs_le.1 r).2
    linarith
  obtain ⟨q, hq⟩ := Int.eq_ofNat_of_zero_le rn
  refine ⟨q, ?_⟩
  rw [hq] at r
  exact_mod_cast r

/-- C139: the receiver cannot do with twice the levels: on a scale `0..M` with `M ≤ 2 N - 2`, however the codes are rounded,
two of the `N + 1` levels of sRGB get the same HLG code. -/
theorem C139_too_few (o : F32.Oracle) (hs : o.SqrtAccurate (2 ^ (-23 : ℤ))) (hl : o.LogAccurate (2 ^ (-22 : ℤ)))
    (he : o.ExpAccurate (2 ^ (-22 : ℤ))) (hp : o.PowAccurate (2 ^ (-22 : ℤ))) (N M : ℕ) (hN : 0 < N)
    (hN' : N ≤ 65535) (hM : M + 2 ≤ 2 * N) (q : ℕ → ℕ) :
    letI := F32.libm o
    (∀ k ≤ N, |(Y_to_HLG (sRGB_to_Y (Arith.ofInt k / Arith.ofInt N : F32))).val * M - q k| ≤ 1 / 2) →
    ∃ i j, i < j ∧ j ≤ N ∧ q i = q j := by
  intro h
  have top : ∀ k ∈ Finset.range (N + 1), q k ∈ Finset.range N := by
    intro k hk
    have hk : k ≤ N := by simpa [Nat.lt_succ_iff] using hk
    obtain ⟨c, c0, c1⟩ := code_ap hN hN' hk
    have s := (sent ⟨hs, hl, he⟩ hp c.fin ⟨c0, c1⟩).err
    obtain ⟨m0, m1⟩ := srgbInv_mem ⟨c0, c1⟩
    have hS : √(srgbInv ((Arith.ofInt k / Arith.ofInt N : F32).val : ℝ)) ≤ 1 := by rw [Real.sqrt_le_left (by norm_num)]; linarith
    have h' := h k hk
    generalize (@Y_to_HLG F32 (F32.libm o) (@sRGB_to_Y F32 (F32.libm o) (Arith.ofInt k / Arith.ofInt N))).val = e at *
    have hq' : |(e : ℝ) * M - q k| ≤ 1 / 2 := by
      have := (Rat.cast_le (K := ℝ)).2 h'
      push_cast at this; exact this
    have e1 : (e : ℝ) ≤ 0.5 + 1.4e-6 := by have := (abs_le.1 s).2; linarith
    have M0 : (0 : ℝ) ≤ M := Nat.cast_nonneg M
    have M1 : (M : ℝ) + 2 ≤ 2 * N := by exact_mod_cast hM
    have N1 : (N : ℝ) ≤ 65535 := by exact_mod_cast hN'
    have : (e : ℝ) * M ≤ (0.5 + 1.4e-6) * M := mul_le_mul_of_nonneg_right e1 M0
    have := (abs_le.1 hq').1
    have : (q k : ℝ) < N := by linarith
    have : q k < N := by exact_mod_cast this
    simpa using this
  obtain ⟨i, hi, j, hj, ne, e⟩ := Finset.exists_ne_map_eq_of_card_lt_of_maps_to (by simp) top
  simp only [Finset.mem_range, Nat.lt_succ_iff] at hi hj
  rcases lt_or_gt_of_ne ne with l | l
  · exact ⟨i, j, l, hj, e⟩
  · exact ⟨j, i, l, hi, e.symm⟩

example : ∃ o : F32.Oracle, o.SqrtAccurate (2 ^ (-23 : ℤ)) ∧ o.PowAccurate (2 ^ (-22 : ℤ)) ∧ ∀ x : F32,
    letI := F32.libm o
    ∃ a b c, Rounds 1023 a b c (toScreen .HLG (toScene .SRGB (pixel 255 0 200 255) x) x) ∧
      HasCodes 255 0 200 255 (toScreen .SRGB (toScene .HLG (pixel 1023 a b c) x) x) := by
  obtain ⟨o, h1, h2, h3, -, h5, -⟩ := exists_accurate
  have w : (2 : ℝ) ^ (-23 : ℤ) ≤ 2 ^ (-22 : ℤ) := zpow_le_zpow_right₀ (by norm_num) (by norm_num)
  have hl : o.LogAccurate (2 ^ (-22 : ℤ)) := fun x a b => ⟨(h3 x a b).1, (h3 x a b).2.trans (by gcongr)⟩
  have he : o.ExpAccurate (2 ^ (-22 : ℤ)) := fun x a b c => ⟨(h5 x a b c).1, (h5 x a b c).2.trans (by gcongr)⟩
  have hp : o.PowAccurate (2 ^ (-22 : ℤ)) := fun x y hx hy h0 ha hb => ⟨(h1 x y hx hy h0 ha hb).1, (h1 x y hx hy h0 ha hb).2.trans (by gcongr)⟩
  refine ⟨o, h2, hp, fun x => ?_⟩
  obtain ⟨a, ra⟩ := C139_codes o h2 hl he hp 255 1023 0 (by norm_num) (by norm_num) (by norm_num) (by norm_num)
  obtain ⟨b, rb⟩ := C139_codes o h2 hl he hp 255 1023 200 (by norm_num) (by norm_num) (by norm_num) (by norm_num)
  obtain ⟨c, rc⟩ := C139_codes o h2 hl he hp 255 1023 255 (by norm_num) (by norm_num) (by norm_num) (by norm_num)
  exact ⟨a, b, c, ⟨ra, rb, rc⟩, C139_hlg o h2 hl he hp x 255 1023 0 200 255 a b c (by norm_num) (by norm_num) (by norm_num) (by norm_num)
    (by norm_num) (by norm_num) (by norm_num) ⟨ra, rb, rc⟩⟩

end CS
