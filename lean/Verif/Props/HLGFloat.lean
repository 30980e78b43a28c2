import Verif.Props.OTFFloat
import Verif.Lemmas.FloatLibm

/-!
# C90: HLG in binary32
-/

namespace CS
open B32 F32 OTF Spec

theorem hlgA : Ap (Arith.lit 0.17883277 : F32) 0.17883277 5e-9 :=
  .ofEval (q := 0.17883277) (e := 5e-9) (by decide +kernel) (by norm_num) (by norm_num)
theorem hlgB : Ap (Arith.lit 0.28466892 : F32) 0.28466892 1.2e-8 :=
  .ofEval (q := 0.28466892) (e := 1.2e-8) (by decide +kernel) (by norm_num) (by norm_num)
theorem hlgC : Ap (Arith.lit 0.55991073 : F32) 0.55991073 3e-8 :=
  .ofEval (q := 0.55991073) (e := 3e-8) (by decide +kernel) (by norm_num) (by norm_num)

/-- The logarithm of an approximate argument. -/
theorem F32.Ap.logf {o : F32.Oracle} {δ : ℝ} (ho : o.LogAccurate δ) {x : F32} {r e M E : ℝ} (hr : 0 < r) (hx : Ap x r (e * r))
    (he : e ≤ 1 / 2) (hδ : 0 ≤ δ) (hM : max 1 (|Real.log r| + (e + 2 * e ^ 2)) ≤ M) (hE : e + 2 * e ^ 2 + δ * M ≤ E) :
    Ap (o.logf x) (Real.log r) E := by
  have hx' : |(x.val : ℝ) / r - 1| ≤ e := by
    rw [show (x.val : ℝ) / r - 1 = (x.val - r) / r by field_simp, abs_div, abs_of_pos hr, div_le_iff₀ hr]; exact hx.err
  have x0 : 0 < (x.val : ℝ) := by
    have := (_root_.abs_le.1 hx').1
    exact (div_pos_iff_of_pos_right hr).1 (by linarith)
  have hl := abs_log_one_add hx' he
  rw [Real.log_div x0.ne' hr.ne'] at hl
  obtain ⟨h1, h2⟩ := ho x hx.fin (by exact_mod_cast x0)
  refine ⟨h1, ?_⟩
  have h3 : max 1 |Real.log (x.val : ℝ)| ≤ M := by
    refine (max_le_max le_rfl ?_).trans hM
    have := abs_sub_abs_le_abs_sub (Real.log (x.val : ℝ)) (Real.log r)
    linarith
  have h4 : δ * max 1 |Real.log (x.val : ℝ)| ≤ δ * M := by gcongr
  have := abs_add_le ((o.logf x).val - Real.log (x.val : ℝ)) (Real.log (x.val : ℝ) - Real.log r)
  rw [sub_add_sub_cancel] at this
  linarith

/-- The exponential of an approximate argument. -/
theorem F32.Ap.expf {o : F32.Oracle} {δ : ℝ} (ho : o.ExpAccurate δ) {x : F32} {r e E : ℝ} (hx : Ap x r e) (hr : |r| ≤ 60)
    (he : e ≤ 1) (hδ : 0 ≤ δ) (hE : δ + (1 + δ) * (e + e ^ 2) ≤ E) : Ap (o.expf x) (Real.exp r) (E * Real.exp r) := by
  have e0 := hx.nonneg
  have hp := Real.exp_pos r
  have h1 : |Real.exp ((x.val : ℝ) - r) - 1| ≤ e + e ^ 2 := by
    have h2 := Real.abs_exp_sub_one_sub_id_le (x := (x.val : ℝ) - r) (hx.err.trans he)
    have h3 : ((x.val : ℝ) - r) ^ 2 ≤ e ^ 2 := by rw [← sq_abs]; gcongr; exact hx.err
    have := abs_add_le (Real.exp ((x.val : ℝ) - r) - 1 - (x.val - r)) (x.val - r)
    rw [sub_add_cancel] at this
    linarith [hx.err]
  have h4 : |Real.exp (x.val : ℝ) - Real.exp r| ≤ (e + e ^ 2) * Real.exp r := by
    have : Real.exp (x.val : ℝ) - Real.exp r = (Real.exp ((x.val : ℝ) - r) - 1) * Real.exp r := by
      rw [Real.exp_sub]; field_simp
    rw [this, abs_mul, abs_of_pos hp]; gcongr
  have hv : |(x.val : ℝ)| ≤ 61 := by linarith [hx.abs_le hr]
  obtain ⟨v1, v2⟩ := _root_.abs_le.1 hv
  have big : Real.exp 61 ≤ 2 ^ (100 : ℤ) := by
    have : Real.exp 61 = Real.exp 1 ^ 61 := by rw [← Real.exp_nat_mul]; norm_num
    rw [this]
    have := Real.exp_one_lt_d9
    calc Real.exp 1 ^ 61 ≤ 2.7182818286 ^ 61 := by gcongr
      _ ≤ _ := by norm_num
  obtain ⟨h5, h6⟩ := ho x hx.fin (by
    have : Real.exp (-61) ≤ Real.exp (x.val : ℝ) := Real.exp_le_exp.2 v1
    refine le_trans ?_ this
    rw [Real.exp_neg, zpow_neg]
    exact inv_anti₀ (Real.exp_pos _) big) ((Real.exp_le_exp.2 v2).trans big)
  refine ⟨h5, ?_⟩
  have h7 : Real.exp (x.val : ℝ) ≤ (1 + (e + e ^ 2)) * Real.exp r := by linarith [(_root_.abs_le.1 h4).2]
  have h8 : δ * Real.exp (x.val : ℝ) ≤ δ * ((1 + (e + e ^ 2)) * Real.exp r) := by gcongr
  have h9 : (δ + (1 + δ) * (e + e ^ 2)) * Real.exp r ≤ E * Real.exp r := by gcongr
  have := abs_add_le ((o.expf x).val - Real.exp (x.val : ℝ)) (Real.exp (x.val : ℝ) - Real.exp r)
  rw [sub_add_sub_cancel] at this
  nlinarith

/-- The square-root segment of the encoder. -/
theorem hlg_low {o : F32.Oracle} (hs : o.SqrtAccurate (2 ^ (-23 : ℤ))) {C : F32} (hC : C.isFinite = true) (h0 : 0 ≤ C.val) (h1 : C.val ≤ 1) :
    Ap (Arith.lit 0.5 * o.sqrtf C) (√(C.val : ℝ) / 2) (2e-7 * (√(C.val : ℝ) / 2) + 1 / 2 ^ 150) := by
  obtain ⟨a, b⟩ := hs C hC h0
  have h1' : (C.val : ℝ) ≤ 1 := by exact_mod_cast h1
  have s0 := Real.sqrt_nonneg (C.val : ℝ)
  have s1 : √(C.val : ℝ) ≤ 1 := by rw [Real.sqrt_le_left (by norm_num)]; linarith
  have hh : Ap (Arith.lit 0.5 : F32) 0.5 0 := .ofEval (q := 0.5) (e := 0) (by decide +kernel) (by norm_num) (by norm_num)
  have := hh.mul (E := 2e-7 * (√(C.val : ℝ) / 2) + 1 / 2 ^ 150) (⟨a, b⟩ : Ap (o.sqrtf C) (√(C.val : ℝ)) _)
    (R := 0.5) (S := √(C.val : ℝ)) (by norm_num) (by rw [abs_of_nonneg s0])
    (by generalize √(C.val : ℝ) = s at *; rw [zpow_neg]; norm_num at *; linarith)
    (by generalize √(C.val : ℝ) = s at *; rw [zpow_neg]; norm_num at *; linarith)
  rwa [show (0.5 : ℝ) * √(C.val : ℝ) = √(C.val : ℝ) / 2 by ring] at this

theorem hlg_log_lower : (-0.336 : ℝ) ≤ Real.log (1 - 0.28466892) := by
  have := hlg_knee
  linarith

/-- The logarithmic segment of the encoder. -/
theorem hlg_high_ap {o : F32.Oracle} (hl : o.LogAccurate (2 ^ (-22 : ℤ))) {C : F32} (hC : C.isFinite = true) (h1 : 1 ≤ C.val) (h2 : C.val ≤ 2 ^ 60) :
    Ap (Arith.lit 0.17883277 * o.logf (C - Arith.lit 0.28466892) + Arith.lit 0.55991073)
      (0.17883277 * Real.log ((C.val : ℝ) - 0.28466892) + 0.55991073)
      (5e-7 * (0.17883277 * Real.log ((C.val : ℝ) - 0.28466892) + 0.55991073)) := by
  have h1' : (1 : ℝ) ≤ C.val := by exact_mod_cast h1
  have h2' : (C.val : ℝ) ≤ 2 ^ 60 := by exact_mod_cast h2
  have U0 : (0.715 : ℝ) ≤ (C.val : ℝ) - 0.28466892 := by linarith
  have a1 := (Ap.exact hC).sub hlgB (B := (C.val : ℝ) - 0.28466892) (E := 8e-8 * ((C.val : ℝ) - 0.28466892)) (by rw [abs_of_nonneg (by linarith)])
    (by generalize (C.val : ℝ) = c at *; norm_num at *; linarith) (by generalize (C.val : ℝ) = c at *; norm_num at *; linarith)
  have L0 : (-0.336 : ℝ) ≤ Real.log ((C.val : ℝ) - 0.28466892) :=
    hlg_log_lower.trans (Real.log_le_log (by norm_num) (by linarith))
  have L1 : Real.log ((C.val : ℝ) - 0.28466892) ≤ 42 := by
    have h3 := Real.log_le_log (by linarith : 0 < (C.val : ℝ) - 0.28466892) (by linarith : (C.val : ℝ) - 0.28466892 ≤ 2 ^ 60)
    rw [Real.log_pow] at h3
    have := Real.log_two_lt_d9
    push_cast at h3
    linarith
  have a2 := Ap.logf hl (by linarith) a1 (by norm_num) (by positivity) (M := 1.4 + Real.log ((C.val : ℝ) - 0.28466892))
    (E := 4.2e-7 + 2.4e-7 * Real.log ((C.val : ℝ) - 0.28466892))
    (by
      generalize Real.log ((C.val : ℝ) - 0.28466892) = L at *
      refine max_le (by linarith) ?_
      rcases abs_cases L with ⟨h, -⟩ | ⟨h, -⟩ <;> rw [h] <;> norm_num <;> linarith)
    (by generalize Real.log ((C.val : ℝ) - 0.28466892) = L at *; rw [zpow_neg]; norm_num; linarith)
  generalize Real.log ((C.val : ℝ) - 0.28466892) = L at *
  have a3 := hlgA.mul a2 (R := 0.17883277) (S := 0.7 + L) (E := 9.5e-8 + 6.5e-8 * L) (by rw [abs_of_nonneg] <;> norm_num)
    (by rcases abs_cases L with ⟨h, -⟩ | ⟨h, -⟩ <;> rw [h] <;> linarith) (by norm_num; linarith) (by norm_num; linarith)
  exact a3.add hlgC (B := 0.17883277 * L + 0.55991073) (by rw [abs_of_nonneg (by linarith)]) (by norm_num; linarith) (by norm_num; linarith)

/-- C90: in binary32 the HLG encoder is within `5e-7` (relative, plus `2^-149`) of the published curve on `[0, 2^60]`. -/
theorem C90_encode (o : F32.Oracle) (hs : o.SqrtAccurate (2 ^ (-23 : ℤ))) (hl : o.LogAccurate (2 ^ (-22 : ℤ))) (C : F32) (hC : C.isFinite = true)
    (h0 : 0 ≤ C.val) (h1 : C.val ≤ 2 ^ 60) :
    letI := F32.libm o
    (Y_to_HLG C).isFinite = true ∧ |((Y_to_HLG C).val : ℝ) - hlg C.val| ≤ 5e-7 * hlg C.val + 1 / 2 ^ 149 := by
  unfold Y_to_HLG
  simp only
  rw [lt_lit hC (q := 0) (c := 0) (by decide +kernel), if_neg (by simpa using h0), lt_lit hC (q := 1) (c := 1) (by decide +kernel)]
  unfold hlg
  by_cases h : C.val < 1
  · have h' : (C.val : ℝ) < 1 := by exact_mod_cast h
    rw [if_pos (by simpa using h), if_pos h']
    have a := hlg_low hs hC h0 h.le
    have s0 := Real.sqrt_nonneg (C.val : ℝ)
    exact ⟨a.fin, a.err.trans (by generalize √(C.val : ℝ) = s at *; norm_num; linarith)⟩
  · have h' : ¬ (C.val : ℝ) < 1 := by exact_mod_cast h
    rw [if_neg (by simpa using h), if_neg h']
    have a := hlg_high_ap hl hC (not_lt.1 h) h1
    exact ⟨a.fin, a.err.trans (by linarith [show (0 : ℝ) ≤ 1 / 2 ^ 149 by positivity])⟩

/-- C90: in binary32 the HLG decoder is within `1e-6` (relative, plus `2^-148`) of the published curve on `[0, 1]`. -/
theorem C90_decode (o : F32.Oracle) (he : o.ExpAccurate (2 ^ (-22 : ℤ))) (C : F32) (hC : C.isFinite = true)
    (h0 : 0 ≤ C.val) (h1 : C.val ≤ 1) :
    letI := F32.libm o
    (HLG_to_Y C).isFinite = true ∧ |((HLG_to_Y C).val : ℝ) - hlgInv C.val| ≤ 1e-6 * hlgInv C.val + 1 / 2 ^ 148 := by
  have h0' : (0 : ℝ) ≤ C.val := by exact_mod_cast h0
  have h1' : (C.val : ℝ) ≤ 1 := by exact_mod_cast h1
  unfold HLG_to_Y
  simp only
  rw [lt_lit hC (q := 0) (c := 0) (by decide +kernel), if_neg (by simpa using h0)]
  have hle : Arith.le C (Arith.lit 0.5 : F32) = decide (C.val ≤ 1 / 2) := by
    have e : ((Arith.lit 0.5 : F32).isFinite && decide ((Arith.lit 0.5 : F32).val = 1 / 2)) = true := by decide +kernel
    rw [Bool.and_eq_true, decide_eq_true_eq] at e
    rw [ale_def, le_finite hC e.1, e.2]
  rw [hle]
  unfold hlgInv
  by_cases h : C.val ≤ 1 / 2
  · have h' : (C.val : ℝ) ≤ 1 / 2 := by
      have := (Rat.cast_le (K := ℝ)).2 h
      push_cast at this; exact this
    rw [if_pos (by simpa using h), if_pos h']
    have h4 : Ap (Arith.lit 4 : F32) 4 0 := .ofEval (q := 4) (e := 0) (by decide +kernel) (by norm_num) (by norm_num)
    have a1 := h4.mul (Ap.exact hC) (R := 4) (S := C.val) (E := C.val * 4 / 2 ^ 24 + 1 / 2 ^ 150) (by norm_num) (by rw [abs_of_nonneg h0'])
      (by norm_num; linarith) (by generalize (C.val : ℝ) = c at *; norm_num; linarith)
    have sq : 0 ≤ (C.val : ℝ) * C.val := mul_self_nonneg _
    have a2 := a1.mul (Ap.exact hC) (R := 4 * C.val) (S := C.val) (E := 1e-6 * (2 * C.val) ^ 2 + 1 / 2 ^ 148) (by rw [abs_of_nonneg (by linarith)]) (by rw [abs_of_nonneg h0'])
      (by generalize (C.val : ℝ) = c at *; norm_num; nlinarith) (by generalize (C.val : ℝ) = c at *; norm_num at *; nlinarith)
    rw [show (4 : ℝ) * C.val * C.val = (2 * C.val) ^ 2 by ring] at a2
    exact ⟨a2.fin, a2.err⟩
  · have h' : ¬ (C.val : ℝ) ≤ 1 / 2 := by
      rw [not_le] at h ⊢
      have := (Rat.cast_lt (K := ℝ)).2 h
      push_cast at this; exact this
    rw [if_neg (by simpa using h), if_neg h']
    rw [not_le] at h'
    have a1 := (Ap.exact hC).sub hlgC (B := 0.45) (E := 6e-8) (by rw [abs_le]; constructor <;> linarith) (by norm_num) (by norm_num)
    have hX : |((C.val : ℝ) - 0.55991073) / 0.17883277| ≤ 2.5 := by
      rw [abs_le, le_div_iff₀ (by norm_num), div_le_iff₀ (by norm_num)]; constructor <;> linarith
    have a2 := a1.div hlgA hX (S := 0.178) (d := 4.9e-7) (E := 6.5e-7) (by norm_num) (by norm_num) (by norm_num) (by norm_num) (by norm_num)
    have a3 := Ap.expf he a2 (by linarith) (by norm_num) (by positivity) (E := 8.9e-7) (by rw [zpow_neg]; norm_num)
    have ep := Real.exp_pos (((C.val : ℝ) - 0.55991073) / 0.17883277)
    have eu : Real.exp (((C.val : ℝ) - 0.55991073) / 0.17883277) ≤ 30 := by
      have h3 := Real.exp_le_exp.2 ((le_abs_self _).trans (hX.trans (by norm_num : (2.5 : ℝ) ≤ 3)))
      have : Real.exp 3 = Real.exp 1 ^ 3 := by rw [← Real.exp_nat_mul]; norm_num
      rw [this] at h3
      refine h3.trans ?_
      have := Real.exp_one_lt_d9
      calc Real.exp 1 ^ 3 ≤ 2.7182818286 ^ 3 := by gcongr
        _ ≤ _ := by norm_num
    generalize Real.exp (((C.val : ℝ) - 0.55991073) / 0.17883277) = X at *
    have a4 := a3.add hlgB (B := X + 0.28466892) (E := 1e-6 * (X + 0.28466892) + 1 / 2 ^ 148) (by rw [abs_of_nonneg (by linarith)]) (by norm_num; linarith) (by norm_num; linarith)
    exact ⟨a4.fin, a4.err⟩

/-- The two segments of the published encoder meet at 1 up to `1e-9`; just above 1 it grows slowly. -/
theorem hlg_above {y e : ℝ} (h1 : 1 ≤ y) (h : y ≤ 1 + e) :
    0.5 ≤ 0.17883277 * Real.log (y - 0.28466892) + 0.55991073 ∧
    0.17883277 * Real.log (y - 0.28466892) + 0.55991073 ≤ 0.5 + 1e-9 + 0.26 * e := by
  refine ⟨(hlg_high h1).le, ?_⟩
  have h2 : hlg 1 < 0.5 + 1e-9 := C24_gap.2.1
  unfold hlg at h2
  rw [if_neg (by norm_num)] at h2
  have h3 : Real.log (y - 0.28466892) - Real.log (1 - 0.28466892) ≤ (y - 1) / (1 - 0.28466892) := by
    rw [← Real.log_div (by linarith) (by norm_num)]
    refine (Real.log_le_sub_one_of_pos (div_pos (by linarith) (by norm_num))).trans (le_of_eq ?_)
    field_simp; ring
  rw [le_div_iff₀ (by norm_num)] at h3
  linarith

/-- The published encoder applied to something close to the published decoder. -/
theorem hlg_back {y v : ℝ} (v0 : 0 ≤ v) (v1 : v ≤ 1) (y0 : 0 ≤ y) (h : |y - hlgInv v| ≤ 1e-6 * hlgInv v + 1 / 2 ^ 148) :
    |hlg y - v| ≤ 1.1e-6 := by
  have t : (1 : ℝ) / 2 ^ 148 ≤ 1e-20 := by norm_num
  obtain ⟨l, u⟩ := abs_le.1 h
  unfold hlgInv at l u
  unfold hlg
  by_cases hv : v ≤ 1 / 2
  · rw [if_pos hv] at l u
    by_cases hy : y < 1
    · rw [if_pos hy, abs_le]
      constructor
      · by_cases hs : v ≤ 1.1e-6
        · linarith [Real.sqrt_nonneg y]
        · have : 2 * (v - 1.1e-6) ≤ √y := Real.le_sqrt_of_sq_le (by nlinarith)
          linarith
      · have : √y ≤ 2 * (v + 1.1e-6) := by
          rw [Real.sqrt_le_left (by linarith)]; nlinarith
        linarith
    · rw [if_neg hy]
      obtain ⟨a, b⟩ := hlg_above (y := y) (e := 1.1e-6) (not_lt.1 hy) (by nlinarith)
      have : 0.5 - 6e-7 ≤ v := by
        by_contra hc
        rw [not_le] at hc
        have : (2 * v) ^ 2 ≤ (2 * (0.5 - 6e-7)) ^ 2 := by gcongr
        norm_num at this
        linarith [not_lt.1 hy]
      rw [abs_le]; constructor <;> linarith
  · rw [if_neg hv] at l u
    rw [not_le] at hv
    have h2 : hlg 1 < 0.5 + 1e-9 := C24_gap.2.1
    unfold hlg at h2
    rw [if_neg (by norm_num)] at h2
    have hX : (v - 0.55991073) / 0.17883277 * 0.17883277 = v - 0.55991073 := div_mul_cancel₀ _ (by norm_num)
    generalize (v - 0.55991073) / 0.17883277 = X at *
    have hl : Real.log (1 - 0.28466892) - 6e-9 ≤ X := by linarith
    have el : (1 - 0.28466892) * (1 - 6e-9) ≤ Real.exp X := by
      have h3 := Real.exp_le_exp.2 hl
      rw [sub_eq_add_neg _ (6e-9 : ℝ), Real.exp_add, Real.exp_log (by norm_num)] at h3
      refine le_trans ?_ h3
      exact mul_le_mul_of_nonneg_left (by linarith [Real.add_one_le_exp (-6e-9 : ℝ)]) (by norm_num)
    have ep := Real.exp_pos X
    by_cases hy : y < 1
    · rw [if_pos hy]
      have s1 : √y ≤ 1 := by rw [Real.sqrt_le_left (by norm_num)]; linarith
      have s2 : 1 - 1.1e-6 ≤ √y := Real.le_sqrt_of_sq_le (by norm_num at *; linarith)
      have h4 : Real.exp X + 0.28466892 ≤ 1 + 1.1e-6 := by norm_num at *; linarith
      have h5 : v ≤ 0.5 + 1e-9 + 0.26 * 1.1e-6 := by
        by_cases h6 : 1 ≤ Real.exp X + 0.28466892
        · obtain ⟨-, b⟩ := hlg_above h6 h4
          rw [add_sub_cancel_right, Real.log_exp] at b
          linarith
        · have h7 : X ≤ Real.log (1 - 0.28466892) := by
            rw [Real.le_log_iff_exp_le (by norm_num)]; linarith
          linarith
      rw [abs_le]; constructor <;> linarith
    · rw [if_neg hy]
      have d : |(y - 0.28466892) / Real.exp X - 1| ≤ 1.5e-6 := by
        rw [show (y - 0.28466892) / Real.exp X - 1 = (y - 0.28466892 - Real.exp X) / Real.exp X by field_simp, abs_div,
          abs_of_pos ep, div_le_iff₀ ep, abs_le]
        constructor <;> norm_num at * <;> linarith
      have d2 := abs_log_one_add d (by norm_num)
      rw [Real.log_div (by linarith) ep.ne', Real.log_exp] at d2
      obtain ⟨d3, d4⟩ := abs_le.1 d2
      rw [abs_le]; norm_num at *; constructor <;> linarith

/-- C90: decoding then encoding returns every signal of `[0, 1]` up to `2e-6`. -/
theorem C90_roundtrip (o : F32.Oracle) (hs : o.SqrtAccurate (2 ^ (-23 : ℤ))) (hl : o.LogAccurate (2 ^ (-22 : ℤ)))
    (he : o.ExpAccurate (2 ^ (-22 : ℤ))) (C : F32) (hC : C.isFinite = true) (h0 : 0 ≤ C.val) (h1 : C.val ≤ 1) :
    letI := F32.libm o
    (Y_to_HLG (HLG_to_Y C)).isFinite = true ∧ |((Y_to_HLG (HLG_to_Y C)).val : ℝ) - C.val| ≤ 2e-6 := by
  have h0' : (0 : ℝ) ≤ C.val := by exact_mod_cast h0
  have h1' : (C.val : ℝ) ≤ 1 := by exact_mod_cast h1
  obtain ⟨f, d⟩ := C90_decode o he C hC h0 h1
  generalize (@HLG_to_Y F32 (F32.libm o) C) = Y at *
  have t : (1 : ℝ) / 2 ^ 148 ≤ 1e-20 := by norm_num
  have t' : (1 : ℝ) / 2 ^ 149 ≤ 1e-20 := by norm_num
  by_cases hY : Y.val < 0
  · have hY' : (Y.val : ℝ) < 0 := by exact_mod_cast hY
    unfold Y_to_HLG
    simp only
    rw [lt_lit f (q := 0) (c := 0) (by decide +kernel), if_pos (by simpa using hY)]
    refine ⟨lit_ap0.fin, ?_⟩
    have z := lit_ap0.err
    have z' : ((Arith.lit 0 : F32).val : ℝ) = 0 := by
      have := abs_nonpos_iff.1 z
      linarith
    rw [z', zero_sub, abs_neg, abs_of_nonneg h0']
    unfold hlgInv at d
    split_ifs at d with h
    · by_contra hc
      have : (2 * 2e-6 : ℝ) ^ 2 ≤ (2 * (C.val : ℝ)) ^ 2 := by gcongr; linarith
      have := (abs_le.1 d).1
      have e : (2 * 2e-6 : ℝ) ^ 2 = 1.6e-11 := by norm_num
      linarith
    · have := (abs_le.1 d).1
      have := Real.exp_pos (((C.val : ℝ) - 0.55991073) / 0.17883277)
      linarith
  · have hY0 : (0 : ℝ) ≤ Y.val := by exact_mod_cast not_lt.1 hY
    have b := hlg_back h0' h1' hY0 d
    have hY1 : (Y.val : ℝ) ≤ 2 ^ 60 := by
      have := (abs_le.1 d).2
      have : hlgInv C.val ≤ 1000 := by
        unfold hlgInv
        split_ifs with h
        · nlinarith
        · have hX : ((C.val : ℝ) - 0.55991073) / 0.17883277 ≤ 3 := by
            rw [div_le_iff₀ (by norm_num)]; linarith
          have h3 := Real.exp_le_exp.2 hX
          have : Real.exp 3 = Real.exp 1 ^ 3 := by rw [← Real.exp_nat_mul]; norm_num
          rw [this] at h3
          have h4 := Real.exp_one_lt_d9
          have : Real.exp 1 ^ 3 ≤ 2.7182818286 ^ 3 := by gcongr
          have e : (2.7182818286 : ℝ) ^ 3 ≤ 30 := by norm_num
          linarith
      have e : (2000 : ℝ) ≤ 2 ^ 60 := by norm_num
      linarith
    obtain ⟨f2, e2⟩ := C90_encode o hs hl Y f (not_lt.1 hY) (by
      have : ((Y.val : ℝ)) ≤ ((2 ^ 60 : ℚ) : ℝ) := by push_cast; exact hY1
      exact_mod_cast this)
    refine ⟨f2, ?_⟩
    have := abs_add_le (((@Y_to_HLG F32 (F32.libm o) Y).val : ℝ) - hlg Y.val) (hlg Y.val - C.val)
    rw [sub_add_sub_cancel] at this
    have := (abs_le.1 b).2
    linarith

/-- C90: every HLG code of up to 16 bits survives decoding and encoding: the result times `N` is within `1/4` of `k`. -/
theorem C90_codes (o : F32.Oracle) (hs : o.SqrtAccurate (2 ^ (-23 : ℤ))) (hl : o.LogAccurate (2 ^ (-22 : ℤ)))
    (he : o.ExpAccurate (2 ^ (-22 : ℤ))) (k N : ℕ) (hN : 0 < N) (hN' : N ≤ 65535) (hk : k ≤ N) :
    letI := F32.libm o
    |((Y_to_HLG (HLG_to_Y ((Arith.ofInt k : F32) / (Arith.ofInt N : F32)))).val : ℝ) * N - k| < 1 / 4 := by
  obtain ⟨⟨f, v⟩, c0, c1⟩ := code_ap hN hN' hk
  have r := (C90_roundtrip o hs hl he _ f (by exact_mod_cast c0) (by exact_mod_cast c1)).2
  generalize ((@Y_to_HLG F32 (F32.libm o) (@HLG_to_Y F32 (F32.libm o) ((Arith.ofInt k : F32) / (Arith.ofInt N : F32)))).val : ℝ) = z at *
  have Np : (0 : ℝ) < N := by exact_mod_cast hN
  have N1 : (N : ℝ) ≤ 65535 := by exact_mod_cast hN'
  have h : |z - k / N| ≤ 2.1e-6 := by
    rw [abs_le] at r v ⊢; constructor <;> linarith
  rw [show z * N - k = (z - k / N) * N by field_simp, abs_mul, abs_of_pos Np]
  have : |z - k / N| * N ≤ 2.1e-6 * 65535 := mul_le_mul h N1 Np.le (by norm_num)
  exact this.trans_lt (by norm_num)

/-- The hypotheses on the library can be met, and C90 applies to the 10-bit code 512. -/
example : (∃ o : F32.Oracle, o.SqrtAccurate (2 ^ (-23 : ℤ)) ∧ o.LogAccurate (2 ^ (-22 : ℤ)) ∧ o.ExpAccurate (2 ^ (-22 : ℤ))) ∧
    0 < 1023 ∧ 1023 ≤ 65535 ∧ 512 ≤ 1023 := by
  obtain ⟨o, -, h2, h3, -, h5, -⟩ := exists_accurate
  have w : (2 : ℝ) ^ (-23 : ℤ) ≤ 2 ^ (-22 : ℤ) := zpow_le_zpow_right₀ (by norm_num) (by norm_num)
  refine ⟨⟨o, h2, fun x a b => ⟨(h3 x a b).1, (h3 x a b).2.trans (by gcongr)⟩, fun x a b c => ⟨(h5 x a b c).1, (h5 x a b c).2.trans (by gcongr)⟩⟩, by norm_num⟩

end CS
