import Verif.Lemmas.Double
import Verif.Model.Mixed
import Verif.Props.CCT
import Verif.Props.YxyFloat

/-!
# C94: white points by colour temperature, in the precision of the code

The chromaticity polynomials are evaluated in `double` and converted to `float` once; the rest is in `float`.
-/

namespace CS
open Tristimulus

namespace Locus

theorem x_double {T : F32} (hf : T.isFinite = true) (h : |(T.val : ℝ)| ≤ 10000) :
    F64.Ap (blackbody_x_approx (F64.ofF32 T)) (X T.val) 1.4e-13 := by
  have hT := F64.Ap.ofF32 hf
  have a6 := F64.Ap.lit (q := -3.31672e-24) (B := 3.32e-24) (E := 3.7e-40) (by norm_num [abs_of_nonneg, abs_of_neg]) (by norm_num) (by norm_num)
  have b6 : |((-3.31672e-24 : ℚ) : ℝ)| ≤ 3.32e-24 := by norm_num [abs_of_neg]
  obtain ⟨a5, b5⟩ := a6.horner (c := 1.11951e-19) (C := 1.12e-19) (R' := 1.46e-19) (E := 1e-34) b6 hT h (by norm_num [abs_of_pos])
    (by norm_num) (by norm_num) (by norm_num)
  obtain ⟨a4, b4⟩ := a5.horner (c := -1.39671e-15) (C := 1.4e-15) (R' := 2.87e-15) (E := 3e-30) b5 hT h (by norm_num [abs_of_neg])
    (by norm_num) (by norm_num) (by norm_num)
  obtain ⟨a3, b3⟩ := a4.horner (c := 0.00000000000690001) (C := 7e-12) (R' := 3.6e-11) (E := 6e-26) b4 hT h (by norm_num [abs_of_pos])
    (by norm_num) (by norm_num) (by norm_num)
  obtain ⟨a2, b2⟩ := a3.horner (c := 0.00000000331067) (C := 4e-9) (R' := 3.7e-7) (E := 1e-21) b3 hT h (by norm_num [abs_of_pos])
    (by norm_num) (by norm_num) (by norm_num)
  obtain ⟨a1, b1⟩ := a2.horner (c := -0.00016747) (C := 1.7e-4) (R' := 4e-3) (E := 1.2e-17) b2 hT h (by norm_num [abs_of_neg])
    (by norm_num) (by norm_num) (by norm_num)
  obtain ⟨a0, b0⟩ := a1.horner (c := 0.811973208) (C := 0.82) (R' := 41) (E := 1.4e-13) b1 hT h (by norm_num [abs_of_pos])
    (by norm_num) (by norm_num) (by norm_num)
  exact a0

theorem y_double {T : F32} (hf : T.isFinite = true) (h : |(T.val : ℝ)| ≤ 10000) :
    F64.Ap (blackbody_y_approx (F64.ofF32 T)) (Y T.val) 1.4e-13 := by
  have hT := F64.Ap.ofF32 hf
  have a6 := F64.Ap.lit (q := 5.67564e-20) (B := 5.7e-20) (E := 6.4e-36) (by norm_num [abs_of_pos]) (by norm_num) (by norm_num)
  have b6 : |((5.67564e-20 : ℚ) : ℝ)| ≤ 5.7e-20 := by norm_num [abs_of_pos]
  obtain ⟨a5, b5⟩ := a6.horner (c := -1.81438e-15) (C := 1.82e-15) (R' := 2.39e-15) (E := 1.2e-30) b6 hT h (by norm_num [abs_of_neg])
    (by norm_num) (by norm_num) (by norm_num)
  obtain ⟨a4, b4⟩ := a5.horner (c := 0.0000000000222415) (C := 2.3e-11) (R' := 4.7e-11) (E := 3.4e-26) b5 hT h (by norm_num [abs_of_pos])
    (by norm_num) (by norm_num) (by norm_num)
  obtain ⟨a3, b3⟩ := a4.horner (c := -0.000000127946) (C := 1.28e-7) (R' := 6e-7) (E := 7e-22) b4 hT h (by norm_num [abs_of_neg])
    (by norm_num) (by norm_num) (by norm_num)
  obtain ⟨a2, b2⟩ := a3.horner (c := 0.000317653) (C := 3.2e-4) (R' := 6.4e-3) (E := 1e-17) b3 hT h (by norm_num [abs_of_pos])
    (by norm_num) (by norm_num) (by norm_num)
  obtain ⟨a1, b1⟩ := a2.horner (c := 0.136977825) (C := 0.14) (R' := 65) (E := 1.4e-13) b2 hT h (by norm_num [abs_of_pos])
    (by norm_num) (by norm_num) (by norm_num)
  exact a1

/-- A temperature the polynomials are meant for. -/
structure TempOK (T : F32) : Prop where
  fin : T.isFinite = true
  lo : 999 ≤ T.val
  hi : T.val ≤ 10000

theorem TempOK.mem {T : F32} (h : TempOK T) : (T.val : ℝ) ∈ Set.Icc (999 : ℝ) 10000 :=
  ⟨by exact_mod_cast h.lo, by exact_mod_cast h.hi⟩

theorem TempOK.abs {T : F32} (h : TempOK T) : |(T.val : ℝ)| ≤ 10000 := by
  rw [abs_of_nonneg (by linarith [h.mem.1])]; exact h.mem.2

/-- Floats from 999 on are multiples of `2^-14`: two different ones are at least that far apart. -/
theorem temp_gap {T T' : F32} (h : 999 ≤ T.val) (hlt : T.val < T'.val) : T.val + 1 / 2 ^ 14 ≤ T'.val := by
  have key : ∀ z : F32, 999 ≤ z.val → ∃ n : ℤ, z.val = n / 2 ^ 14 := by
    intro z hz
    obtain ⟨m, e, hv, hm, -⟩ := z.rep_val
    have e14 : -14 ≤ e := by
      by_contra hc
      rw [not_le] at hc
      have h1 : (2 : ℚ) ^ e ≤ 2 ^ (-15 : ℤ) := zpow_le_zpow_right₀ (by norm_num) (by omega)
      have h2 : (m : ℚ) ≤ 2 ^ 24 := by
        have := (abs_lt.1 hm).2
        exact_mod_cast this.le
      have h3 : (0 : ℚ) < 2 ^ e := by positivity
      have h4 : (m : ℚ) * 2 ^ e ≤ 2 ^ 24 * 2 ^ (-15 : ℤ) := by
        calc (m : ℚ) * 2 ^ e ≤ 2 ^ 24 * 2 ^ e := by gcongr
          _ ≤ _ := by gcongr
      rw [← hv] at h4
      norm_num at h4
      linarith
    obtain ⟨k, rfl⟩ : ∃ k : ℕ, e = (k : ℤ) - 14 := ⟨(e + 14).toNat, by omega⟩
    refine ⟨m * 2 ^ k, ?_⟩
    rw [hv, zpow_sub₀ (by norm_num)]
    push_cast
    norm_num
    ring
  obtain ⟨m, hm⟩ := key T h
  obtain ⟨n, hn⟩ := key T' (by linarith)
  rw [hm, hn] at hlt ⊢
  have h1 : (m : ℚ) < n := by
    rwa [div_lt_div_iff_of_pos_right (by norm_num)] at hlt
  have h2 : m + 1 ≤ n := by
    have : m < n := by exact_mod_cast h1
    omega
  have h3 : (m : ℚ) + 1 ≤ n := by exact_mod_cast h2
  rw [← add_div]
  gcongr

/-- The locus falls by at least `1e-6` per kelvin. -/
theorem X_drop {s t : ℝ} (hs : s ∈ Set.Icc (999 : ℝ) 10000) (ht : t ∈ Set.Icc (999 : ℝ) 10000) (h : s ≤ t) :
    X t ≤ X s - 1e-6 * (t - s) := by
  have key : AntitoneOn (fun T => X T + 1e-6 * T) (Set.Icc 999 10000) := by
    refine antitoneOn_of_deriv_nonpos (convex_Icc _ _) ?_ ?_ ?_
    · exact fun T _ => ((hasX T).continuousAt.add (by fun_prop)).continuousWithinAt
    · exact fun T _ => ((hasX T).add ((hasDerivAt_id' T).const_mul _)).differentiableAt.differentiableWithinAt
    · intro T hT
      rw [interior_Icc] at hT
      rw [show deriv (fun T => X T + 1e-6 * T) T = _ from ((hasX T).add ((hasDerivAt_id' T).const_mul _)).deriv]
      have := X'_neg T hT.1.le hT.2.le
      norm_num at this ⊢
      linarith
  have := key hs ht h
  simp only at this
  linarith

end Locus

open Locus

/-- C94: the chromaticity computed in the code's precision differs from the exact polynomial by one rounding to
`float`. -/
theorem C94_chroma (T : F32) (h : TempOK T) :
    F32.Ap (Mixed.blackbody_x_approx T) (blackbody_x_approx (T.val : ℝ)) 4e-8 ∧
    F32.Ap (Mixed.blackbody_y_approx T) (blackbody_y_approx (T.val : ℝ)) 2.6e-8 := by
  obtain ⟨⟨x0, x1⟩, y0, y1⟩ := box h.mem
  constructor
  · exact (x_double h.fin h.abs).toF32 (B := 0.66) (by rw [_root_.abs_le]; constructor <;> linarith) (by norm_num) (by norm_num)
  · exact (y_double h.fin h.abs).toF32 (B := 0.43) (by rw [_root_.abs_le]; constructor <;> linarith) (by norm_num) (by norm_num)

/-- C94: hotter is never redder, for every pair of `float` temperatures however close: no rounding step of the
computation disturbs the order of `x`. -/
theorem C94_monotone (T T' : F32) (h : TempOK T) (h' : TempOK T') (hlt : T.val ≤ T'.val) :
    (Mixed.blackbody_x_approx T').val ≤ (Mixed.blackbody_x_approx T).val := by
  rcases hlt.eq_or_lt with e | hlt
  · have : T = T' := by
      refine F32.ext_finite h.fin h'.fin e ?_
      have p : ∀ z : F32, 999 ≤ z.val → z.sign = false := by
        intro z hz
        cases z <;> simp_all [F32.val, F32.sign] <;> linarith
      rw [p T h.lo, p T' h'.lo]
    rw [this]
  have gap := temp_gap h.lo hlt
  have gap' : (T.val : ℝ) + 1 / 2 ^ 14 ≤ T'.val := by
    have := (Rat.cast_le (K := ℝ)).2 gap
    push_cast at this; exact this
  have drop := X_drop h.mem h'.mem (by linarith [show (0 : ℝ) < 1 / 2 ^ 14 by positivity])
  have a := x_double h.fin h.abs
  have a' := x_double h'.fin h'.abs
  obtain ⟨⟨x0, x1⟩, -, -⟩ := box h.mem
  obtain ⟨⟨x0', x1'⟩, -, -⟩ := box h'.mem
  have e1 := _root_.abs_le.1 a.err
  have e2 := _root_.abs_le.1 a'.err
  have bnd : ∀ z : F64, |(z.val : ℝ)| ≤ 2 → |z.val| ≤ 2 ^ 100 := by
    intro z hz
    have : |z.val| ≤ 2 := by exact_mod_cast hz
    exact this.trans (by norm_num)
  refine F64.toF32_mono a'.fin a.fin (bnd _ ?_) (bnd _ ?_) ?_
  · rw [_root_.abs_le]; norm_num at *; constructor <;> linarith
  · rw [_root_.abs_le]; norm_num at *; constructor <;> linarith
  · have : ((blackbody_x_approx (F64.ofF32 T')).val : ℝ) ≤ (blackbody_x_approx (F64.ofF32 T)).val := by
      generalize ((blackbody_x_approx (F64.ofF32 T')).val : ℝ) = w' at *
      generalize ((blackbody_x_approx (F64.ofF32 T)).val : ℝ) = w at *
      norm_num at *; linarith
    exact_mod_cast this

/-- C94: the XYZ colour of a temperature, computed in the code's precision: `X` and `Z` are within `1.4e-6` and `1.8e-6`
of the luminance of their exact values, `Y` is exact. -/
theorem C94_fromCT (T L : F32) (h : TempOK T) (hL : L.isFinite = true) (L0 : 0 < L.val) (L1 : L.val ≤ 2 ^ 58) :
    F32.Ap (Mixed.fromCT T L).a (fromCT (T.val : ℝ) L.val).a (1.4e-6 * L.val + 1 / 2 ^ 120) ∧
    (Mixed.fromCT T L).b = L ∧
    F32.Ap (Mixed.fromCT T L).c (fromCT (T.val : ℝ) L.val).c (1.8e-6 * L.val + 1 / 2 ^ 120) := by
  obtain ⟨ax, ay⟩ := C94_chroma T h
  obtain ⟨⟨x0, x1⟩, y0, y1⟩ := box h.mem
  have hY := Locus.abs_Y h.mem
  have er : fromCT (T.val : ℝ) L.val = _ := fromYxy_real ⟨L.val, X T.val, Y T.val⟩ hY
  rw [er]
  show F32.Ap (X_from_Yxy L _ _) _ _ ∧ _ ∧ F32.Ap (Z_from_Yxy L _ _) _ _
  refine (fun (p : F32.Ap _ _ _ ∧ F32.Ap _ _ _) => ⟨p.1, rfl, p.2⟩) ?_
  change F32.Ap _ (X T.val) _ at ax
  change F32.Ap _ (Y T.val) _ at ay
  simp only
  generalize Mixed.blackbody_x_approx T = x at *
  generalize Mixed.blackbody_y_approx T = y at *
  generalize X (T.val : ℝ) = a at *
  generalize Y (T.val : ℝ) = b at *
  have hlo : (2e-8 : ℚ) ≤ y.val := by
    have := (_root_.abs_le.1 ay.err).1
    have h2 : (((2e-8 : ℚ)) : ℝ) ≤ (y.val : ℝ) := by push_cast; norm_num at *; linarith
    exact_mod_cast h2
  have bp : 0 < b := by linarith
  have l0 : (0 : ℝ) < L.val := by exact_mod_cast L0
  have l1 : (L.val : ℝ) ≤ 2 ^ 58 := by exact_mod_cast L1
  have S0 : 0 < (L.val : ℝ) / b := by positivity
  have Sb : (L.val : ℝ) / b ≤ L.val / 0.28 := by gcongr
  have S1 : (L.val : ℝ) / b ≤ 2 ^ 60 := by
    refine Sb.trans ?_
    rw [div_le_iff₀ (by norm_num)]
    refine l1.trans (by norm_num)
  have ay' : F32.Ap y b (2e-7 * b) := ay.weaken (by norm_num at *; linarith)
  have hb : (1 : ℝ) / 2 ^ 20 ≤ b := le_trans (by norm_num) y0
  have eL : (L.val : ℝ) = b * (L.val / b) := by field_simp
  have e1 : a * L.val / b = a * (L.val / b) := by ring
  have e2 : (1 - a - b) * L.val / b = (1 - a - b) * (L.val / b) := by ring
  unfold X_from_Yxy Z_from_Yxy z_from_xy
  rw [abs_f_lt ay.fin hlo, if_neg (by simp), if_neg (by simp), e1, e2]
  constructor
  · refine (chan_ap ax ?_ (by norm_num) ay' hb (by linarith) S1 S0 hL eL).weaken ?_
    · rw [_root_.abs_le]; constructor <;> linarith
    · generalize (L.val : ℝ) / b = S at *
      norm_num at *
      linarith
  · have z1 := lab_1.sub ax (B := 0.73) (E := 8.4e-8) (by rw [_root_.abs_le]; constructor <;> linarith) (by norm_num) (by norm_num)
    have z2 := z1.sub ay (B := 0.45) (E := 1.4e-7) (by rw [_root_.abs_le]; constructor <;> linarith) (by norm_num) (by norm_num)
    refine (chan_ap z2 ?_ (by norm_num) ay' hb (by linarith) S1 S0 hL eL).weaken ?_
    · rw [_root_.abs_le]; constructor <;> linarith
    · generalize (L.val : ℝ) / b = S at *
      norm_num at *
      linarith

/-- C94: between 999 K and 1020 K the white point returned is not a colour: its `Z` is negative, for every positive
luminance (not too small), in exact arithmetic and in the code's precision. -/
theorem C94_negative (T L : F32) (h : TempOK T) (hT : T.val ≤ 1020) (hL : L.isFinite = true) (L0 : 1 / 2 ^ 100 ≤ L.val)
    (L1 : L.val ≤ 2 ^ 58) : (fromCT (T.val : ℝ) L.val).c < 0 ∧ (Mixed.fromCT T L).c.val < 0 := by
  have l0 : ((1 / 2 ^ 100 : ℚ) : ℝ) ≤ L.val := by exact_mod_cast L0
  push_cast at l0
  have lp : (0 : ℝ) < L.val := lt_of_lt_of_le (by positivity) l0
  obtain ⟨-, -, az⟩ := C94_fromCT T L h hL (by exact_mod_cast lp) L1
  have hz := Z_neg T.val h.mem.1 (by exact_mod_cast hT)
  obtain ⟨-, y0, y1⟩ := box h.mem
  have er : fromCT (T.val : ℝ) L.val = _ := fromYxy_real ⟨L.val, X T.val, Y T.val⟩ (Locus.abs_Y h.mem)
  have ez : (fromCT (T.val : ℝ) L.val).c = (1 - X T.val - Y T.val) * L.val / Y T.val := by rw [er]
  have key : (fromCT (T.val : ℝ) L.val).c ≤ -(2e-4 * L.val) := by
    rw [ez, div_le_iff₀ (by linarith)]
    norm_num at *
    nlinarith
  refine ⟨by nlinarith, ?_⟩
  have := (_root_.abs_le.1 az.err).2
  have h4 : (1 : ℝ) / 2 ^ 120 ≤ 1e-5 * L.val :=
    le_trans (b := (1e-5 : ℝ) * (1 / 2 ^ 100)) (by norm_num) (by gcongr)
  have h5 : ((Mixed.fromCT T L).c.val : ℝ) < 0 := by
    generalize ((Mixed.fromCT T L).c.val : ℝ) = w at *
    generalize (1 : ℝ) / 2 ^ 120 = t at *
    norm_num at this h4 key ⊢
    linarith
  exact_mod_cast h5

/-- C94: from 1030 K on it is one: `X` and `Z` are positive, in exact arithmetic and in the code's precision. -/
theorem C94_positive (T L : F32) (h : TempOK T) (hT : 1030 ≤ T.val) (hL : L.isFinite = true) (L0 : 1 / 2 ^ 100 ≤ L.val)
    (L1 : L.val ≤ 2 ^ 58) : 0 < (fromCT (T.val : ℝ) L.val).c ∧ 0 < (Mixed.fromCT T L).c.val ∧
      0 < (fromCT (T.val : ℝ) L.val).a ∧ 0 < (Mixed.fromCT T L).a.val := by
  have l0 : ((1 / 2 ^ 100 : ℚ) : ℝ) ≤ L.val := by exact_mod_cast L0
  push_cast at l0
  have lp : (0 : ℝ) < L.val := lt_of_lt_of_le (by positivity) l0
  obtain ⟨ax, -, az⟩ := C94_fromCT T L h hL (by exact_mod_cast lp) L1
  have hz := Z_pos T.val (by exact_mod_cast hT) h.mem.2
  obtain ⟨⟨x0, x1⟩, y0, y1⟩ := box h.mem
  have er : fromCT (T.val : ℝ) L.val = _ := fromYxy_real ⟨L.val, X T.val, Y T.val⟩ (Locus.abs_Y h.mem)
  have ez : (fromCT (T.val : ℝ) L.val).c = (1 - X T.val - Y T.val) * L.val / Y T.val := by rw [er]
  have ex : (fromCT (T.val : ℝ) L.val).a = X T.val * L.val / Y T.val := by rw [er]
  have key : 2e-4 * L.val ≤ (fromCT (T.val : ℝ) L.val).c := by
    rw [ez, le_div_iff₀ (by linarith)]
    norm_num at *
    nlinarith
  have key' : 2e-4 * L.val ≤ (fromCT (T.val : ℝ) L.val).a := by
    rw [ex, le_div_iff₀ (by linarith)]
    norm_num at *
    nlinarith
  have h4 : (1 : ℝ) / 2 ^ 120 ≤ 1e-5 * L.val :=
    le_trans (b := (1e-5 : ℝ) * (1 / 2 ^ 100)) (by norm_num) (by gcongr)
  refine ⟨by nlinarith, ?_, by nlinarith, ?_⟩
  · have := (_root_.abs_le.1 az.err).1
    have h5 : 0 < ((Mixed.fromCT T L).c.val : ℝ) := by
      generalize ((Mixed.fromCT T L).c.val : ℝ) = w at *
      generalize (1 : ℝ) / 2 ^ 120 = t at *
      norm_num at this h4 key ⊢
      linarith
    exact_mod_cast h5
  · have := (_root_.abs_le.1 ax.err).1
    have h5 : 0 < ((Mixed.fromCT T L).a.val : ℝ) := by
      generalize ((Mixed.fromCT T L).a.val : ℝ) = w at *
      generalize (1 : ℝ) / 2 ^ 120 = t at *
      norm_num at this h4 key' ⊢
      linarith
    exact_mod_cast h5

/-- The hypotheses can be met, at 1000 K and at 6504 K. -/
example : TempOK (Arith.lit 1000 : F32) ∧ (Arith.lit 1000 : F32).val ≤ 1020 ∧ TempOK (Arith.lit 6504 : F32) ∧
    1030 ≤ (Arith.lit 6504 : F32).val ∧ (Arith.lit 1 : F32).isFinite = true ∧ 1 / 2 ^ 100 ≤ (Arith.lit 1 : F32).val ∧
    (Arith.lit 1 : F32).val ≤ 2 ^ 58 := by
  refine ⟨⟨?_, ?_, ?_⟩, ?_, ⟨?_, ?_, ?_⟩, ?_, ?_, ?_, ?_⟩ <;> decide +kernel

end CS
