import Verif.Props.HLGFloat
import Verif.Lemmas.Double
import Verif.Model.Mixed

/-!
# C96: S-Log, S-Log2 and the S-Log3 decoder in the precision of the header
-/

namespace CS
open B32 F32 OTF Spec

theorem log_ten_gt : 2.3 < Real.log 10 := by
  rw [Real.lt_log_iff_exp_lt (by norm_num)]
  by_contra h
  have h1 := pow_le_pow_left₀ (by norm_num) (not_lt.1 h) 10
  have h2 : Real.exp 2.3 ^ 10 = Real.exp 1 ^ 23 := by rw [← Real.exp_nat_mul, ← Real.exp_nat_mul]; norm_num
  rw [h2] at h1
  have h3 : Real.exp 1 ^ 23 ≤ 2.7182818286 ^ 23 := by
    have := Real.exp_one_lt_d9
    gcongr
  norm_num at h1 h3
  linarith

/-- The decimal logarithm of an approximate argument. -/
theorem F32.Ap.log10f {o : F32.Oracle} {δ : ℝ} (ho : o.Log10Accurate δ) {x : F32} {r e M E : ℝ} (hr : 0 < r) (hx : Ap x r (e * r))
    (he : e ≤ 1 / 2) (hδ : 0 ≤ δ) (hM : max 1 (|Real.logb 10 r| + (e + 2 * e ^ 2) / 2.3) ≤ M) (hE : (e + 2 * e ^ 2) / 2.3 + δ * M ≤ E) :
    Ap (o.log10f x) (Real.logb 10 r) E := by
  have hx' : |(x.val : ℝ) / r - 1| ≤ e := by
    rw [show (x.val : ℝ) / r - 1 = (x.val - r) / r by field_simp, abs_div, abs_of_pos hr, div_le_iff₀ hr]; exact hx.err
  have x0 : 0 < (x.val : ℝ) := by
    have := (_root_.abs_le.1 hx').1
    exact (div_pos_iff_of_pos_right hr).1 (by linarith)
  have hl := abs_log_one_add hx' he
  rw [Real.log_div x0.ne' hr.ne'] at hl
  have l10 := log_ten_gt
  have hl' : |Real.logb 10 (x.val : ℝ) - Real.logb 10 r| ≤ (e + 2 * e ^ 2) / 2.3 := by
    rw [Real.logb, Real.logb, ← sub_div, abs_div, abs_of_pos (by linarith : 0 < Real.log 10)]
    exact div_le_div₀ ((abs_nonneg _).trans hl) hl (by norm_num) l10.le
  obtain ⟨h1, h2⟩ := ho x hx.fin (by exact_mod_cast x0)
  refine ⟨h1, ?_⟩
  have h3 : max 1 |Real.logb 10 (x.val : ℝ)| ≤ M := by
    refine (max_le_max le_rfl ?_).trans hM
    have := abs_sub_abs_le_abs_sub (Real.logb 10 (x.val : ℝ)) (Real.logb 10 r)
    linarith
  have h4 : δ * max 1 |Real.logb 10 (x.val : ℝ)| ≤ δ * M := by gcongr
  have := abs_add_le ((o.log10f x).val - Real.logb 10 (x.val : ℝ)) (Real.logb 10 (x.val : ℝ) - Real.logb 10 r)
  rw [sub_add_sub_cancel] at this
  linarith

theorem slogA : Ap (Arith.lit 0.432699 : F32) 0.432699 1.5e-8 :=
  .ofEval (q := 0.432699) (e := 1.5e-8) (by decide +kernel) (by norm_num) (by norm_num)
theorem slogB : Ap (Arith.lit 0.616596 : F32) 0.616596 3e-8 :=
  .ofEval (q := 0.616596) (e := 3e-8) (by decide +kernel) (by norm_num) (by norm_num)
theorem slogC : Ap (Arith.lit 0.03 : F32) 0.03 1e-9 :=
  .ofEval (q := 0.03) (e := 1e-9) (by decide +kernel) (by norm_num) (by norm_num)
theorem slogD : Ap (Arith.lit 0.037584 : F32) 0.037584 1.9e-9 :=
  .ofEval (q := 0.037584) (e := 1.9e-9) (by decide +kernel) (by norm_num) (by norm_num)
theorem slogTen : Ap (Arith.lit 10 : F32) 10 0 := .ofEval (q := 10) (e := 0) (by decide +kernel) (by norm_num) (by norm_num)

theorem logb10_bound {r : ℝ} (h0 : 0.037 ≤ r) (h1 : r ≤ 75) : |Real.logb 10 r| ≤ 1.9 := by
  have r0 : 0 < r := by linarith
  rw [_root_.abs_le]
  constructor
  · rw [Real.le_logb_iff_rpow_le (by norm_num) r0]
    refine le_trans ?_ h0
    have := rpow_le_of_pow (x := 1 / 10) (r := 0.037) (p := 19) (q := 10) (by norm_num) (by norm_num) (by norm_num) (by norm_num)
    rw [one_div, Real.inv_rpow (by norm_num), ← Real.rpow_neg (by norm_num)] at this
    norm_num at this ⊢; exact this
  · rw [Real.logb_le_iff_le_rpow (by norm_num) r0]
    refine h1.trans ?_
    have := le_rpow_of_pow (x := 10) (r := 75) (p := 19) (q := 10) (by norm_num) (by norm_num) (by norm_num) (by norm_num)
    norm_num at this ⊢; exact this

/-- The scaled logarithm of the S-Log and S-Log2 encoders. -/
theorem slog_core {o : F32.Oracle} (ho : o.Log10Accurate (2 ^ (-22 : ℤ))) {x : F32} {r : ℝ} (hx : Ap x r (2e-7 * r)) (h0 : 0.037 ≤ r) (h1 : r ≤ 75) :
    Ap (Arith.lit 0.432699 * o.log10f x) (0.432699 * Real.logb 10 r) 3.2e-7 := by
  have hb := logb10_bound h0 h1
  have a := Ap.log10f ho (M := 1.901) (E := 5.45e-7) (by linarith) hx (by norm_num) (by positivity)
    (max_le (by norm_num) (by norm_num at hb ⊢; linarith)) (by rw [zpow_neg]; norm_num)
  exact slogA.mul a (R := 0.4327) (S := 1.9) (by norm_num) hb (by norm_num) (by norm_num)

/-- The power of ten of the S-Log and S-Log2 decoders. -/
theorem slog_pow {o : F32.Oracle} (ho : o.PowAccurate (2 ^ (-22 : ℤ))) {x : F32} {v e : ℝ} (hx : Ap x v e) (h0 : -0.2 ≤ v) (h1 : v ≤ 1.5)
    (he : e ≤ 1e-5) :
    Ap (o.powf (Arith.lit 10) ((x - Arith.lit 0.616596 - Arith.lit 0.03) / Arith.lit 0.432699))
      ((10 : ℝ) ^ ((v - 0.616596 - 0.03) / 0.432699)) ((5.5 * e + 1.5e-6) * (10 : ℝ) ^ ((v - 0.616596 - 0.03) / 0.432699)) := by
  have e0 := hx.nonneg
  have a1 := hx.sub slogB (B := 0.9) (E := e * (1 + 1e-7) + 8.4e-8) (by rw [_root_.abs_le]; constructor <;> linarith)
    (by norm_num at *; linarith) (by norm_num at *; linarith)
  have a2 := a1.sub slogC (B := 0.9) (E := e * (1 + 2e-7) + 1.4e-7) (by rw [_root_.abs_le]; constructor <;> linarith)
    (by norm_num at *; linarith) (by norm_num at *; linarith)
  have hs : |(v - 0.616596 - 0.03) / 0.432699| ≤ 2 := by
    rw [abs_div, abs_of_pos (by norm_num : (0:ℝ) < 0.432699), div_le_iff₀ (by norm_num), _root_.abs_le]
    constructor <;> linarith
  have a3 := a2.div slogA (Q := 2) (S := 0.43269) (d := 2.312 * e + 3.94e-7) (E := 2.32 * e + 5.2e-7) hs (by norm_num) (by norm_num)
    (by rw [div_le_iff₀ (by norm_num)]; norm_num at *; linarith) (by norm_num at *; linarith) (by norm_num at *; linarith)
  have hl := log_ten_lt
  obtain ⟨s1, s2⟩ := _root_.abs_le.1 hs
  have lo : (10 : ℝ) ^ (-2 : ℝ) ≤ (10 : ℝ) ^ ((v - 0.616596 - 0.03) / 0.432699) := Real.rpow_le_rpow_of_exponent_le (by norm_num) s1
  have hi : (10 : ℝ) ^ ((v - 0.616596 - 0.03) / 0.432699) ≤ (10 : ℝ) ^ (2 : ℝ) := Real.rpow_le_rpow_of_exponent_le (by norm_num) s2
  have hl0 := log_ten_gt
  refine Ap.pow ho (e := 0) (L := 7 / 3) (S := 2) (θ := 5.42 * e + 1.22e-6) (by norm_num) (slogTen.weaken (by norm_num)) (by norm_num) a3 hs
    (by rw [abs_of_pos (by linarith)]; exact hl.le) (by norm_num at *; linarith) (by norm_num at *; linarith)
    (le_trans ?_ lo) (hi.trans ?_) (by positivity) ?_
  · rw [zpow_neg, Real.rpow_neg (by norm_num)]; norm_num
  · norm_num
  · rw [zpow_neg]
    have : (5.42 * e + 1.22e-6) ^ 2 ≤ 6e-5 * (5.42 * e + 1.22e-6) := by
      rw [sq]; gcongr; norm_num at *; linarith
    norm_num at *; nlinarith

/-! ## S-Log -/

/-- The clamp of the S-Log encoder. -/
theorem slog_clamp {x : F32} (hx : x.isFinite = true) :
    Ap (if Arith.lt x (Arith.lit 0 : F32) then (Arith.lit 0 : F32) else if Arith.lt (Arith.lit 10 : F32) x then (Arith.lit 10 : F32) else x)
      (max 0 (min 10 (x.val : ℝ))) 0 := by
  rw [lt_lit hx (q := 0) (c := 0) (by decide +kernel), lit_lt hx (q := 10) (c := 10) (by decide +kernel)]
  simp only [decide_eq_true_eq]
  split_ifs with h1 h2
  · have h1' : (x.val : ℝ) < 0 := by exact_mod_cast h1
    rw [max_eq_left ((min_le_right _ _).trans h1'.le)]
    exact .ofEval (q := 0) (e := 0) (by decide +kernel) (by norm_num) (by norm_num)
  · have h2' : (10 : ℝ) < x.val := by exact_mod_cast h2
    rw [min_eq_left h2'.le, max_eq_right (by norm_num)]
    exact slogTen
  · have h1' : (0 : ℝ) ≤ x.val := by exact_mod_cast not_lt.1 h1
    have h2' : (x.val : ℝ) ≤ 10 := by exact_mod_cast not_lt.1 h2
    rw [min_eq_right h2', max_eq_right h1']
    exact .exact hx

theorem slog_enc {o : F32.Oracle} (ho : o.Log10Accurate (2 ^ (-22 : ℤ))) {x : F32} (hx : x.isFinite = true) :
    Ap (Mixed.Y_to_SLog o x) (slog (max 0 (min 10 (x.val : ℝ)))) 4e-7 := by
  unfold Mixed.Y_to_SLog slog
  have hc := slog_clamp hx
  have c0 : 0 ≤ max 0 (min 10 (x.val : ℝ)) := le_max_left _ _
  have c1 : max 0 (min 10 (x.val : ℝ)) ≤ 10 := max_le (by norm_num) (min_le_left _ _)
  generalize max 0 (min 10 (x.val : ℝ)) = c at *
  simp only
  have d1 : F64.Ap (Arith.lit 0.037584 : F64) 0.037584 1e-16 := by
    have := F64.Ap.lit (q := 0.037584) (B := 0.04) (E := 1e-16) (by norm_num) (by norm_num) (by norm_num)
    norm_num at this ⊢; exact this
  have d2 : F64.Ap (Arith.lit 0.616596 : F64) 0.616596 1e-16 := by
    have := F64.Ap.lit (q := 0.616596) (B := 0.7) (E := 1e-16) (by norm_num) (by norm_num) (by norm_num)
    norm_num at this ⊢; exact this
  have d3 : F64.Ap (Arith.lit 0.03 : F64) 0.03 1e-16 := by
    have := F64.Ap.lit (q := 0.03) (B := 0.04) (E := 1e-16) (by norm_num) (by norm_num) (by norm_num)
    norm_num at this ⊢; exact this
  have a1 := (F64.Ap.ofF32' hc).add d1 (B := c + 0.037584) (E := 1e-13 * (c + 0.037584)) (by rw [abs_of_nonneg (by linarith)])
    (by norm_num at *; linarith) (by norm_num at *; linarith)
  have a2 := a1.toF32 (B := c + 0.037584) (E := 2e-7 * (c + 0.037584)) (by rw [abs_of_nonneg (by linarith)])
    (by norm_num at *; linarith) (by norm_num at *; linarith)
  have a3 := slog_core ho a2 (by linarith) (by linarith)
  have hb := logb10_bound (r := c + 0.037584) (by linarith) (by linarith)
  obtain ⟨b1, b2⟩ := _root_.abs_le.1 hb
  have a4 := (F64.Ap.ofF32' a3).add d2 (B := 1.5) (E := 3.201e-7) (by rw [_root_.abs_le]; constructor <;> linarith) (by norm_num) (by norm_num)
  have u : Real.logb 10 (c + 0.037584) ≤ 1.1 := by
    rw [Real.logb_le_iff_le_rpow (by norm_num) (by linarith)]
    have := le_rpow_of_pow (x := 10) (r := 11) (p := 11) (q := 10) (by norm_num) (by norm_num) (by norm_num) (by norm_num)
    norm_num at this ⊢; linarith
  have a5 := a4.add d3 (B := 1.2) (E := 3.202e-7) (by rw [_root_.abs_le]; constructor <;> linarith) (by norm_num) (by norm_num)
  exact a5.toF32 (B := 1.2) (by rw [_root_.abs_le]; constructor <;> linarith) (by norm_num) (by norm_num)

theorem slog_dec {o : F32.Oracle} (ho : o.PowAccurate (2 ^ (-22 : ℤ))) {x : F32} {v e : ℝ} (hx : Ap x v e) (h0 : 0 ≤ v) (h1 : v ≤ 1.5)
    (he : e ≤ 1e-5) : letI := F32.libm o
    Ap (SLog_to_Y x) (slogInv v) ((5.6 * e + 1.8e-6) * (slogInv v + 0.037584)) := by
  letI := F32.libm o
  have e0 := hx.nonneg
  have a := slog_pow ho hx (by linarith) h1 he
  have lo : 0.03 ≤ (10 : ℝ) ^ ((v - 0.616596 - 0.03) / 0.432699) := by
    have := le_rpow_of_pow (x := 1 / 10) (r := 0.03) (p := 3) (q := 2) (by norm_num) (by norm_num) (by norm_num) (by norm_num)
    rw [one_div, Real.inv_rpow (by norm_num), ← Real.rpow_neg (by norm_num)] at this
    refine this.trans (Real.rpow_le_rpow_of_exponent_le (by norm_num) ?_)
    rw [le_div_iff₀ (by norm_num)]; norm_num; linarith
  have hi : (10 : ℝ) ^ ((v - 0.616596 - 0.03) / 0.432699) ≤ 100 := by
    have : (10 : ℝ) ^ ((v - 0.616596 - 0.03) / 0.432699) ≤ (10 : ℝ) ^ (2 : ℝ) := by
      refine Real.rpow_le_rpow_of_exponent_le (by norm_num) ?_
      rw [div_le_iff₀ (by norm_num)]; norm_num; linarith
    norm_num at this ⊢; exact this
  show Ap (o.powf (Arith.lit 10) ((x - Arith.lit 0.616596 - Arith.lit 0.03) / Arith.lit 0.432699) - Arith.lit 0.037584) _ _
  unfold slogInv
  rw [sub_add_cancel]
  generalize (10 : ℝ) ^ ((v - 0.616596 - 0.03) / 0.432699) = p at *
  have ep : e * p ≤ 1e-5 * p := by gcongr
  have ep0 : 0 ≤ e * p := by positivity
  refine a.sub slogD (B := p) (by rw [_root_.abs_le]; constructor <;> linarith) ?_ ?_
  · norm_num at *; nlinarith
  · norm_num at *; nlinarith

theorem slogInv_slog {c : ℝ} (h : 0 ≤ c) : slogInv (slog c) = c := by
  unfold slogInv slog
  rw [show (0.432699 * Real.logb 10 (c + 0.037584) + 0.616596 + 0.03 - 0.616596 - 0.03) / 0.432699 = Real.logb 10 (c + 0.037584) by ring,
    Real.rpow_logb (by norm_num) (by norm_num) (by linarith)]
  ring

theorem slog_range {c : ℝ} (h0 : 0 ≤ c) (h1 : c ≤ 10) : 0 ≤ slog c ∧ slog c ≤ 1.5 := by
  unfold slog
  have l1 : -1.45 ≤ Real.logb 10 (c + 0.037584) := by
    rw [Real.le_logb_iff_rpow_le (by norm_num) (by linarith)]
    have := rpow_le_of_pow (x := 1 / 10) (r := 0.037) (p := 29) (q := 20) (by norm_num) (by norm_num) (by norm_num) (by norm_num)
    rw [one_div, Real.inv_rpow (by norm_num), ← Real.rpow_neg (by norm_num)] at this
    norm_num at this ⊢; linarith
  have l2 := (_root_.abs_le.1 (logb10_bound (r := c + 0.037584) (by linarith) (by linarith))).2
  constructor <;> linarith

/-- C96: the S-Log encoder, with its mixture of `float` and `double` operations, is within `4e-7` of the published curve
for every finite input (which is clamped to `[0, 10]`). -/
theorem C96_slog_encode {o : F32.Oracle} (ho : o.Log10Accurate (2 ^ (-22 : ℤ))) (x : F32) (hx : x.isFinite = true) :
    (Mixed.Y_to_SLog o x).isFinite = true ∧ |((Mixed.Y_to_SLog o x).val : ℝ) - slog (max 0 (min 10 (x.val : ℝ)))| ≤ 4e-7 :=
  ⟨(slog_enc ho hx).fin, (slog_enc ho hx).err⟩

/-- C96: the S-Log decoder follows the published curve to a relative `1.8e-6` (of the offset light value). -/
theorem C96_slog_decode {o : F32.Oracle} (ho : o.PowAccurate (2 ^ (-22 : ℤ))) (v : F32) (hv : v.isFinite = true)
    (h0 : 0 ≤ v.val) (h1 : v.val ≤ 3 / 2) : letI := F32.libm o
    (SLog_to_Y v).isFinite = true ∧
      |((SLog_to_Y v).val : ℝ) - slogInv v.val| ≤ 1.8e-6 * (slogInv v.val + 0.037584) := by
  have h1' : (v.val : ℝ) ≤ 3 / 2 := by have := (Rat.cast_le (K := ℝ)).2 h1; push_cast at this; exact this
  have := slog_dec ho (.exact hv) (by exact_mod_cast h0) (by norm_num at *; linarith) (by norm_num)
  exact ⟨this.fin, this.err.trans (by norm_num)⟩

/-- C96: encoding to S-Log and decoding recovers every finite value, clamped to `[0, 10]`, to `4.1e-6` of the value plus the
offset of the curve. -/
theorem C96_slog_roundtrip {o : F32.Oracle} (hl : o.Log10Accurate (2 ^ (-22 : ℤ))) (hp : o.PowAccurate (2 ^ (-22 : ℤ)))
    (x : F32) (hx : x.isFinite = true) : letI := F32.libm o
    (SLog_to_Y (Mixed.Y_to_SLog o x)).isFinite = true ∧
      |((SLog_to_Y (Mixed.Y_to_SLog o x)).val : ℝ) - max 0 (min 10 (x.val : ℝ))| ≤ 4.1e-6 * (max 0 (min 10 (x.val : ℝ)) + 0.037584) := by
  have a := slog_enc hl hx
  have c0 : 0 ≤ max 0 (min 10 (x.val : ℝ)) := le_max_left _ _
  have c1 : max 0 (min 10 (x.val : ℝ)) ≤ 10 := max_le (by norm_num) (min_le_left _ _)
  generalize max 0 (min 10 (x.val : ℝ)) = c at *
  obtain ⟨r0, r1⟩ := slog_range c0 c1
  have := slog_dec hp a r0 r1 (by norm_num)
  rw [slogInv_slog c0] at this
  exact ⟨this.fin, this.err.trans (by norm_num; linarith)⟩

/-! ## S-Log2 -/

theorem slog2K : Ap (Arith.lit 0.030001222851889303 : F32) 0.030001222851889303 1e-9 :=
  .ofEval (q := 0.030001222851889303) (e := 1e-9) (by decide +kernel) (by norm_num) (by norm_num)
theorem slog2S : Ap (Arith.lit 3.53881278538813 : F32) 3.53881278538813 1.2e-7 :=
  .ofEval (q := 3.53881278538813) (e := 1.2e-7) (by decide +kernel) (by norm_num) (by norm_num)
theorem slog2B : Ap (Arith.lit 64 / Arith.lit 1024 : F32) (64 / 1024) 0 :=
  .ofEval (q := 64 / 1024) (e := 0) (by decide +kernel) (by norm_num) (by norm_num)
theorem slog2W : Ap (Arith.lit 876 / Arith.lit 1024 : F32) (876 / 1024) 0 :=
  .ofEval (q := 876 / 1024) (e := 0) (by decide +kernel) (by norm_num) (by norm_num)

/-- Video range. -/
theorem ire_cv (o : F32.Oracle) {y : F32} {r e : ℝ} (hy : Ap y r e) (hr : |r| ≤ 3.6) (he : e ≤ 1e-5) : letI := F32.libm o
    Ap (IRE_to_CV_SLog2 y) (r * (876 / 1024) + 64 / 1024) (0.8555 * e + 3.8e-7) := by
  have e0 := hy.nonneg
  obtain ⟨r0, r1⟩ := _root_.abs_le.1 hr
  have a1 := hy.mul slog2W (R := 3.6) (S := 876 / 1024) (E := 0.85548 * e + 1.85e-7) hr (by norm_num) (by norm_num at *; linarith) (by norm_num at *; linarith)
  exact a1.add slog2B (B := 3.15) (by rw [_root_.abs_le]; constructor <;> linarith) (by norm_num at *; linarith) (by norm_num at *; linarith)

theorem slog2_arg {x : F32} (hx : x.isFinite = true) (h0 : (0 : ℝ) ≤ x.val) (h1 : (x.val : ℝ) ≤ 100) :
    Ap (Arith.lit 155 * x / Arith.lit 219 + Arith.lit 0.037584) (155 * (x.val : ℝ) / 219 + 0.037584) (2e-7 * (155 * (x.val : ℝ) / 219 + 0.037584)) := by
  have l1 : Ap (Arith.lit 155 : F32) 155 0 := .ofEval (q := 155) (e := 0) (by decide +kernel) (by norm_num) (by norm_num)
  have l2 : Ap (Arith.lit 219 : F32) 219 0 := .ofEval (q := 219) (e := 0) (by decide +kernel) (by norm_num) (by norm_num)
  have ex := Ap.exact hx
  generalize (x.val : ℝ) = c at *
  have a1 := l1.mul ex (R := 155) (S := c) (E := 155 * c / 2 ^ 24 + 1 / 2 ^ 150) (by norm_num) (by rw [abs_of_nonneg h0])
    (by norm_num at *; linarith) (by linarith)
  have a2 := a1.div l2 (Q := 155 * c / 219) (S := 219) (d := 155 * c / 219 / 2 ^ 24 + 1 / 2 ^ 150) (E := 1.2e-7 * (155 * c / 219) + 1 / 2 ^ 140)
    (by rw [abs_of_nonneg (by positivity)]) (by norm_num) (by norm_num)
    (by rw [div_le_iff₀ (by norm_num)]; norm_num at *; linarith) (by norm_num at *; linarith) (by norm_num at *; linarith)
  exact a2.add slogD (B := 155 * c / 219 + 0.037584) (by rw [abs_of_nonneg (by positivity)]) (by norm_num at *; linarith) (by norm_num at *; linarith)

theorem slog2_eq (x : ℝ) : slog2 x = (if x < 0 then x * 3.53881278538813 + 0.030001222851889303
    else 0.432699 * Real.logb 10 (155 * x / 219 + 0.037584) + 0.616596 + 0.03) * (876 / 1024) + 64 / 1024 := by
  unfold slog2
  by_cases h : x < 0
  · simp only [if_pos h, if_neg (not_le.2 h)]; ring
  · simp only [if_neg h, if_pos (not_lt.1 h)]; ring

theorem slog2_enc_high {o : F32.Oracle} (ho : o.Log10Accurate (2 ^ (-22 : ℤ))) {x : F32} (hx : x.isFinite = true)
    (h0 : (0 : ℝ) ≤ x.val) (h1 : (x.val : ℝ) ≤ 100) : letI := F32.libm o
    Ap (Y_to_SLog2 x) (slog2 x.val) 8.5e-7 := by
  letI := F32.libm o
  have h0q : ¬ x.val < 0 := not_lt.2 (by exact_mod_cast h0)
  have a0 := slog2_arg hx h0 h1
  have r1 : 155 * (x.val : ℝ) / 219 + 0.037584 ≤ 75 := by linarith
  have a1 := slog_core ho a0 (by linarith) r1
  obtain ⟨b1, b2⟩ := _root_.abs_le.1 (logb10_bound (r := 155 * (x.val : ℝ) / 219 + 0.037584) (by linarith) r1)
  have a2 := a1.add slogB (B := 1.5) (E := 4.4e-7) (by rw [_root_.abs_le]; constructor <;> linarith) (by norm_num) (by norm_num)
  have a3 := a2.add slogC (B := 1.6) (E := 5.4e-7) (by rw [_root_.abs_le]; constructor <;> linarith) (by norm_num) (by norm_num)
  have a4 := ire_cv o a3 (by rw [_root_.abs_le]; constructor <;> linarith) (by norm_num)
  rw [slog2_eq, if_neg (not_lt.2 h0)]
  unfold Y_to_SLog2
  rw [lt_lit hx (q := 0) (c := 0) (by decide +kernel)]
  simp only [decide_eq_true_eq, if_neg h0q]
  exact a4.weaken (by norm_num)

theorem slog2_enc_low {o : F32.Oracle} {x : F32} (hx : x.isFinite = true)
    (h0 : (x.val : ℝ) < 0) (h1 : -1 ≤ (x.val : ℝ)) : letI := F32.libm o
    Ap (Y_to_SLog2 x) (slog2 x.val) 8.5e-7 := by
  letI := F32.libm o
  have h0q : x.val < 0 := by exact_mod_cast h0
  have a1 := (Ap.exact hx).mul slog2S (R := 1) (S := 3.54) (E := 3.32e-7) (by rw [_root_.abs_le]; constructor <;> linarith) (by norm_num)
    (by norm_num) (by norm_num)
  have a2 := a1.add slog2K (B := 3.51) (E := 5.45e-7) (by rw [_root_.abs_le]; constructor <;> linarith) (by norm_num) (by norm_num)
  have a4 := ire_cv o a2 (by rw [_root_.abs_le]; constructor <;> linarith) (by norm_num)
  rw [slog2_eq, if_pos h0]
  unfold Y_to_SLog2
  rw [lt_lit hx (q := 0) (c := 0) (by decide +kernel)]
  simp only [decide_eq_true_eq, if_pos h0q]
  exact a4.weaken (by norm_num)

/-- C96: the S-Log2 encoder in binary32 is within `8.5e-7` of the published curve on `[-1, 100]`. -/
theorem C96_slog2_encode {o : F32.Oracle} (ho : o.Log10Accurate (2 ^ (-22 : ℤ))) (x : F32) (hx : x.isFinite = true)
    (h0 : -1 ≤ x.val) (h1 : x.val ≤ 100) : letI := F32.libm o
    (Y_to_SLog2 x).isFinite = true ∧ |((Y_to_SLog2 x).val : ℝ) - slog2 x.val| ≤ 8.5e-7 := by
  have h0' : (-1 : ℝ) ≤ x.val := by have := (Rat.cast_le (K := ℝ)).2 h0; push_cast at this; exact this
  have h1' : (x.val : ℝ) ≤ 100 := by exact_mod_cast h1
  rcases lt_or_ge (x.val : ℝ) 0 with h | h
  · have := slog2_enc_low (o := o) hx h h0'
    exact ⟨this.fin, this.err⟩
  · have := slog2_enc_high ho hx h h1'
    exact ⟨this.fin, this.err⟩

/-- The logarithmic segment as a function of the IRE level. -/
noncomputable def slog2H (y : ℝ) : ℝ := 219 * ((10 : ℝ) ^ ((y - 0.616596 - 0.03) / 0.432699) - 0.037584) / 155

theorem slog2_knee {y d : ℝ} (hy : y ≤ 0.030001222851889303 + d) (h0 : 0 ≤ d) (h1 : d ≤ 1e-5) : slog2H y ≤ 1e-7 + 0.29 * d := by
  unfold slog2H
  have h2 : (10 : ℝ) ^ ((y - 0.616596 - 0.03) / 0.432699) ≤ (10 : ℝ) ^ (-1.424997 + d / 0.432699) := by
    refine Real.rpow_le_rpow_of_exponent_le (by norm_num) ?_
    rw [div_le_iff₀ (by norm_num), add_mul, div_mul_cancel₀ _ (by norm_num)]; linarith
  rw [Real.rpow_add (by norm_num)] at h2
  have h3 := ten_rpow_bound
  have h4 : (10 : ℝ) ^ (d / 0.432699) ≤ 1 + 5.42 * d := by
    rw [Real.rpow_def_of_pos (by norm_num)]
    have l := log_ten_lt
    have l0 := log_ten_gt
    have b : Real.log 10 * (d / 0.432699) ≤ 5.4 * d := by
      rw [mul_div_assoc', div_le_iff₀ (by norm_num)]
      have : Real.log 10 * d ≤ 7 / 3 * d := by gcongr
      norm_num at *; linarith
    have b0 : 0 ≤ Real.log 10 * (d / 0.432699) := by positivity
    have e := Real.abs_exp_sub_one_sub_id_le (x := Real.log 10 * (d / 0.432699)) (by rw [abs_of_nonneg b0]; linarith)
    have e2 := (_root_.abs_le.1 e).2
    generalize Real.log 10 * (d / 0.432699) = z at *
    have : z ^ 2 ≤ 5.4e-5 * z := by rw [sq]; gcongr; linarith
    norm_num at *; nlinarith
  have h5 := h2.trans (mul_le_mul h3 h4 (by positivity) (by norm_num))
  generalize (10 : ℝ) ^ ((y - 0.616596 - 0.03) / 0.432699) = p at *
  rw [div_le_iff₀ (by norm_num)]
  norm_num at *
  linarith

theorem slog2Inv_eq (v : ℝ) : slog2Inv v =
    if 0.030001222851889303 ≤ (1024 * v - 64) / 876 then slog2H ((1024 * v - 64) / 876)
    else ((1024 * v - 64) / 876 - 0.030001222851889303) / 3.53881278538813 := by
  unfold slog2Inv slog2H
  norm_num

theorem cv_ire_ap (o : F32.Oracle) {C : F32} {v e : ℝ} (hC : Ap C v e) (h0 : 0 ≤ v) (h1 : v ≤ 1.32) (he : e ≤ 1e-5) : letI := F32.libm o
    Ap (CV_to_IRE_SLog2 C) ((1024 * v - 64) / 876) (1.17 * e + 1.8e-7) := by
  have e0 := hC.nonneg
  have a1 := hC.sub slog2B (B := 1.26) (E := 1.0000001 * e + 7.6e-8) (by rw [_root_.abs_le]; constructor <;> linarith) (by norm_num at *; linarith) (by norm_num at *; linarith)
  have a2 := a1.div slog2W (Q := 1.48) (S := 876 / 1024) (d := 1.16896 * e + 8.9e-8) (E := 1.17 * e + 1.8e-7)
    (by rw [_root_.abs_le]; constructor
        · rw [le_div_iff₀ (by norm_num)]; linarith
        · rw [div_le_iff₀ (by norm_num)]; linarith) (by norm_num) (by norm_num)
    (by rw [div_le_iff₀ (by norm_num)]; norm_num at *; linarith) (by norm_num at *; linarith) (by norm_num at *; linarith)
  rwa [show (v - 64 / 1024) / (876 / 1024) = (1024 * v - 64) / 876 by ring] at a2

/-- The logarithmic segment of the decoder. -/
theorem slog2_dec_high {o : F32.Oracle} (ho : o.PowAccurate (2 ^ (-22 : ℤ))) {x : F32} {y e : ℝ} (hx : Ap x y e) (h0 : 0.02 ≤ y) (h1 : y ≤ 1.5)
    (he : e ≤ 1e-5) :
    Ap (Arith.lit 219 * (o.powf (Arith.lit 10) ((x - Arith.lit 0.616596 - Arith.lit 0.03) / Arith.lit 0.432699) - Arith.lit 0.037584) / Arith.lit 155)
      (slog2H y) ((5.51 * e + 1.8e-6) * (slog2H y + 0.0532)) := by
  have e0 := hx.nonneg
  have a := slog_pow ho hx (by linarith) h1 he
  have lo : 0.03 ≤ (10 : ℝ) ^ ((y - 0.616596 - 0.03) / 0.432699) := by
    have := le_rpow_of_pow (x := 1 / 10) (r := 0.03) (p := 3) (q := 2) (by norm_num) (by norm_num) (by norm_num) (by norm_num)
    rw [one_div, Real.inv_rpow (by norm_num), ← Real.rpow_neg (by norm_num)] at this
    refine this.trans (Real.rpow_le_rpow_of_exponent_le (by norm_num) ?_)
    rw [le_div_iff₀ (by norm_num)]; norm_num; linarith
  have hi : (10 : ℝ) ^ ((y - 0.616596 - 0.03) / 0.432699) ≤ 100 := by
    have : (10 : ℝ) ^ ((y - 0.616596 - 0.03) / 0.432699) ≤ (10 : ℝ) ^ (2 : ℝ) := by
      refine Real.rpow_le_rpow_of_exponent_le (by norm_num) ?_
      rw [div_le_iff₀ (by norm_num)]; norm_num; linarith
    norm_num at this ⊢; exact this
  unfold slog2H
  generalize (10 : ℝ) ^ ((y - 0.616596 - 0.03) / 0.432699) = p at *
  have ep : e * p ≤ 1e-5 * p := by gcongr
  have ep0 : 0 ≤ e * p := by positivity
  have l1 : Ap (Arith.lit 155 : F32) 155 0 := .ofEval (q := 155) (e := 0) (by decide +kernel) (by norm_num) (by norm_num)
  have l2 : Ap (Arith.lit 219 : F32) 219 0 := .ofEval (q := 219) (e := 0) (by decide +kernel) (by norm_num) (by norm_num)
  have a1 := a.sub slogD (B := p) (E := 5.501 * (e * p) + 1.57e-6 * p + 2e-9) (by rw [_root_.abs_le]; constructor <;> linarith)
    (by norm_num at *; nlinarith) (by norm_num at *; nlinarith)
  have a2 := l2.mul a1 (R := 219) (S := p) (E := 219 * (5.502 * (e * p) + 1.631e-6 * p + 2.1e-9)) (by norm_num) (by rw [_root_.abs_le]; constructor <;> linarith)
    (by norm_num at *; nlinarith) (by norm_num at *; nlinarith)
  have a3 := a2.div l1 (Q := 219 / 155 * p) (S := 155) (d := 219 / 155 * (5.502 * (e * p) + 1.631e-6 * p + 2.1e-9))
    (E := 219 / 155 * (5.503 * (e * p) + 1.692e-6 * p + 2.2e-9))
    (by rw [abs_div, abs_mul, abs_of_pos (by norm_num : (0:ℝ) < 219), abs_of_pos (by norm_num : (0:ℝ) < 155), div_le_iff₀ (by norm_num)]
        have : |p - 0.037584| ≤ p := by rw [_root_.abs_le]; constructor <;> linarith
        linarith)
    (by norm_num) (by norm_num)
    (by rw [div_le_iff₀ (by norm_num)]; norm_num at *; nlinarith) (by norm_num at *; nlinarith) (by norm_num at *; nlinarith)
  refine a3.weaken ?_
  have : 219 / 155 * p ≤ 219 * (p - 0.037584) / 155 + 0.0532 := by norm_num; linarith
  have h6 : (5.51 * e + 1.8e-6) * (219 / 155 * p) ≤ (5.51 * e + 1.8e-6) * (219 * (p - 0.037584) / 155 + 0.0532) :=
    mul_le_mul_of_nonneg_left this (by positivity)
  refine le_trans ?_ h6
  norm_num at *; nlinarith

theorem slog2_max {y : F32} {r e : ℝ} (hy : Ap y r e) :
    Ap (if Arith.lt (Arith.lit 0 : F32) y then y else (Arith.lit 0 : F32)) (max 0 r) e := by
  rw [lit_lt hy.fin (q := 0) (c := 0) (by decide +kernel)]
  simp only [decide_eq_true_eq]
  have hz : Ap (Arith.lit 0 : F32) 0 0 := .ofEval (q := 0) (e := 0) (by decide +kernel) (by norm_num) (by norm_num)
  obtain ⟨b1, b2⟩ := _root_.abs_le.1 hy.err
  split_ifs with h
  · have h' : (0 : ℝ) < y.val := by exact_mod_cast h
    refine ⟨hy.fin, ?_⟩
    rw [_root_.abs_le]
    rcases max_cases 0 r with ⟨m, hm⟩ | ⟨m, hm⟩ <;> rw [m] <;> constructor <;> linarith
  · have h' : (y.val : ℝ) ≤ 0 := by exact_mod_cast not_lt.1 h
    refine ⟨hz.fin, ?_⟩
    have := hz.err
    have e0 := hy.nonneg
    rw [_root_.abs_le] at this ⊢
    rcases max_cases 0 r with ⟨m, hm⟩ | ⟨m, hm⟩ <;> rw [m] <;> constructor <;> linarith

theorem F32.pack_nonpos {s : Bool} {q : ℚ} (h : q ≤ 0) : (F32.pack s q).val ≤ 0 := by
  unfold F32.pack
  split_ifs
  · exact le_rfl
  · exact le_rfl
  · exact rnd_nonpos h
  · exact le_rfl

theorem slog2_dec {o : F32.Oracle} (ho : o.PowAccurate (2 ^ (-22 : ℤ))) {C : F32} {v e : ℝ} (hC : Ap C v e) (h0 : 0 ≤ v) (h1 : v ≤ 1.32)
    (he : e ≤ 1e-6) : letI := F32.libm o
    Ap (SLog2_to_Y C) (max 0 (slog2Inv v)) ((6.6 * e + 5.4e-6) * (max 0 (slog2Inv v) + 0.054)) := by
  letI := F32.libm o
  have e0 := hC.nonneg
  have he' : e ≤ 1e-5 := by norm_num at *; linarith
  have ai := cv_ire_ap o hC h0 h1 he'
  have y1 : (1024 * v - 64) / 876 ≤ 1.5 := by rw [div_le_iff₀ (by norm_num)]; linarith
  have y0 : -0.1 ≤ (1024 * v - 64) / 876 := by rw [le_div_iff₀ (by norm_num)]; linarith
  rw [slog2Inv_eq]
  unfold SLog2_to_Y
  simp only
  generalize (1024 * v - 64) / 876 = y at *
  generalize CV_to_IRE_SLog2 C = x at *
  obtain ⟨x1, x2⟩ := _root_.abs_le.1 ai.err
  have kf := slog2K
  obtain ⟨k1, k2⟩ := _root_.abs_le.1 kf.err
  have hle : Arith.le (Arith.lit 0.030001222851889303 : F32) x = decide ((Arith.lit 0.030001222851889303 : F32).val ≤ x.val) := by
    rw [ale_def, le_finite kf.fin ai.fin]
  rw [hle]
  simp only [decide_eq_true_eq]
  by_cases hb : (Arith.lit 0.030001222851889303 : F32).val ≤ x.val
  · rw [if_pos hb]
    have hb' : ((Arith.lit 0.030001222851889303 : F32).val : ℝ) ≤ x.val := by exact_mod_cast hb
    have a := slog2_dec_high ho ai (by linarith) y1 (by norm_num at he ⊢; linarith)
    have m := slog2_max a
    by_cases hy : 0.030001222851889303 ≤ y
    · rw [if_pos hy]
      refine m.weaken (mul_le_mul (by norm_num; linarith) ?_ ?_ (by positivity))
      · linarith [le_max_right 0 (slog2H y)]
      · have := a.nonneg
        by_contra hc
        have : (5.51 * (1.17 * e + 1.8e-7) + 1.8e-6) * (slog2H y + 0.0532) < 0 := mul_neg_of_pos_of_neg (by positivity) (not_le.1 hc)
        linarith
    · rw [if_neg hy]
      have hH := slog2_knee (y := y) (d := 0) (by linarith) le_rfl (by norm_num)
      have hneg : (y - 0.030001222851889303) / 3.53881278538813 ≤ 0 := div_nonpos_of_nonpos_of_nonneg (by linarith) (by norm_num)
      rw [max_eq_left hneg]
      have mm : max 0 (slog2H y) ≤ 1e-7 := max_le (by norm_num) (by linarith)
      have mm0 : 0 ≤ max 0 (slog2H y) := le_max_left _ _
      refine ⟨m.fin, ?_⟩
      have b : (5.51 * (1.17 * e + 1.8e-7) + 1.8e-6) * (slog2H y + 0.0532) ≤ (5.51 * (1.17 * e + 1.8e-7) + 1.8e-6) * 0.0533 :=
        mul_le_mul_of_nonneg_left (by linarith) (by positivity)
      have m1 := m.err.trans b
      obtain ⟨m2, m3⟩ := _root_.abs_le.1 m1
      generalize max 0 (slog2H y) = mx at *
      generalize ((if Arith.lt (Arith.lit 0 : F32) _ then _ else (Arith.lit 0 : F32)).val : ℝ) = w at *
      clear m1 hle kf hb hb' k1 k2 x1 x2 ai hC m a
      rw [_root_.abs_le]
      norm_num at *
      constructor <;> linarith
  · rw [if_neg hb]
    have hbv : x.val ≤ (Arith.lit 0.030001222851889303 : F32).val := (not_le.1 hb).le
    have hb' : (x.val : ℝ) ≤ (Arith.lit 0.030001222851889303 : F32).val := by exact_mod_cast hbv
    -- the linear segment never exceeds zero here
    have hab : |y - 0.030001222851889303| ≤ 2 := by rw [_root_.abs_le]; constructor <;> linarith
    have s1 := ai.sub kf (B := 2) (E := 1) hab (by norm_num at he ⊢; linarith) (by norm_num at he ⊢; linarith)
    have s1' : (x - Arith.lit 0.030001222851889303).val ≤ 0 := by
      show (F32.add x (F32.neg (Arith.lit 0.030001222851889303 : F32))).val ≤ 0
      rw [add_finite ai.fin kf.neg.fin]
      refine F32.pack_nonpos ?_
      have : (F32.neg (Arith.lit 0.030001222851889303 : F32)).val = -(Arith.lit 0.030001222851889303 : F32).val := by
        rw [neg_val]
      rw [this]; linarith
    have sv : (Arith.lit 3.53881278538813 : F32).val ≠ 0 ∧ 0 ≤ (Arith.lit 3.53881278538813 : F32).val := by decide +kernel
    have s2 := s1.div slog2S (Q := 1) (S := 3.5) (d := 1) (E := 3) (by
      rw [abs_div, abs_of_pos (by norm_num : (0:ℝ) < 3.53881278538813), div_le_iff₀ (by norm_num)]; linarith) (by norm_num) (by norm_num)
      (by norm_num) (by norm_num) (by norm_num)
    have s2' : ((x - Arith.lit 0.030001222851889303) / Arith.lit 3.53881278538813).val ≤ 0 := by
      rw [div_def, div_finite s1.fin slog2S.fin sv.1]
      exact F32.pack_nonpos (div_nonpos_of_nonpos_of_nonneg s1' sv.2)
    rw [lit_lt s2.fin (q := 0) (c := 0) (by decide +kernel)]
    simp only [decide_eq_true_eq, if_neg (not_lt.2 s2')]
    have hz : Ap (Arith.lit 0 : F32) 0 0 := .ofEval (q := 0) (e := 0) (by decide +kernel) (by norm_num) (by norm_num)
    have hz0 : ((Arith.lit 0 : F32).val : ℝ) = 0 := by
      have := hz.err
      rw [sub_zero] at this
      exact abs_eq_zero.1 (le_antisymm this (abs_nonneg _))
    refine ⟨hz.fin, ?_⟩
    rw [hz0, zero_sub, abs_neg, abs_of_nonneg (le_max_left _ _)]
    have d0 : 0 ≤ 1.17 * e + 1.9e-7 := by positivity
    have hH := slog2_knee (y := y) (d := 1.17 * e + 1.9e-7) (by norm_num at he ⊢; linarith) d0 (by norm_num at he ⊢; linarith)
    have hm : max 0 (if 0.030001222851889303 ≤ y then slog2H y else (y - 0.030001222851889303) / 3.53881278538813) ≤ 0.3394 * e + 1.6e-7 := by
      refine max_le (by positivity) ?_
      split_ifs with hy
      · norm_num at hH ⊢; linarith
      · have : (y - 0.030001222851889303) / 3.53881278538813 ≤ 0 := div_nonpos_of_nonpos_of_nonneg (by linarith) (by norm_num)
        linarith
    refine hm.trans ?_
    have : (6.6 * e + 5.4e-6) * 0.054 ≤ (6.6 * e + 5.4e-6) * (max 0 (if 0.030001222851889303 ≤ y then slog2H y else (y - 0.030001222851889303) / 3.53881278538813) + 0.054) :=
      mul_le_mul_of_nonneg_left (by linarith [le_max_left 0 (if 0.030001222851889303 ≤ y then slog2H y else (y - 0.030001222851889303) / 3.53881278538813)]) (by positivity)
    refine le_trans ?_ this
    norm_num; linarith

/-- C96: the S-Log2 decoder in binary32 follows the published curve, with negative light clamped to zero. -/
theorem C96_slog2_decode {o : F32.Oracle} (ho : o.PowAccurate (2 ^ (-22 : ℤ))) (v : F32) (hv : v.isFinite = true)
    (h0 : 0 ≤ v.val) (h1 : v.val ≤ 13 / 10) : letI := F32.libm o
    (SLog2_to_Y v).isFinite = true ∧
      |((SLog2_to_Y v).val : ℝ) - max 0 (slog2Inv v.val)| ≤ 5.4e-6 * (max 0 (slog2Inv v.val) + 0.054) := by
  have h1' : (v.val : ℝ) ≤ 13 / 10 := by have := (Rat.cast_le (K := ℝ)).2 h1; push_cast at this; exact this
  have := slog2_dec ho (.exact hv) (by exact_mod_cast h0) (by norm_num at *; linarith) (by norm_num)
  exact ⟨this.fin, this.err.trans (by norm_num)⟩

theorem slog2_inv {x : ℝ} (h : 0 ≤ x) : |max 0 (slog2Inv (slog2 x)) - x| ≤ 1e-7 := by
  have e : (1024 * slog2 x - 64) / 876 = 0.432699 * Real.logb 10 (155 * x / 219 + 0.037584) + 0.616596 + 0.03 := by
    rw [slog2_eq, if_neg (not_lt.2 h)]; ring
  have hH : slog2H (0.432699 * Real.logb 10 (155 * x / 219 + 0.037584) + 0.616596 + 0.03) = x := by
    unfold slog2H
    rw [show (0.432699 * Real.logb 10 (155 * x / 219 + 0.037584) + 0.616596 + 0.03 - 0.616596 - 0.03) / 0.432699 = Real.logb 10 (155 * x / 219 + 0.037584) by ring,
      Real.rpow_logb (by norm_num) (by norm_num) (by positivity)]
    ring
  rw [slog2Inv_eq, e]
  split_ifs with hk
  · rw [hH, max_eq_right h, sub_self, abs_zero]; norm_num
  · have hk' := not_le.1 hk
    have := slog2_knee (y := 0.432699 * Real.logb 10 (155 * x / 219 + 0.037584) + 0.616596 + 0.03) (d := 0) (by linarith) le_rfl (by norm_num)
    rw [hH] at this
    rw [max_eq_left (div_nonpos_of_nonpos_of_nonneg (by linarith) (by norm_num)), zero_sub, abs_neg, abs_of_nonneg h]
    linarith

theorem slog2_range {x : ℝ} (h0 : 0 ≤ x) (h1 : x ≤ 100) : 0 ≤ slog2 x ∧ slog2 x ≤ 1.32 := by
  have r1 : 155 * x / 219 + 0.037584 ≤ 75 := by linarith
  obtain ⟨b1, b2⟩ := _root_.abs_le.1 (logb10_bound (r := 155 * x / 219 + 0.037584) (by linarith) r1)
  have l1 : -1.45 ≤ Real.logb 10 (155 * x / 219 + 0.037584) := by
    rw [Real.le_logb_iff_rpow_le (by norm_num) (by linarith)]
    have := rpow_le_of_pow (x := 1 / 10) (r := 0.037) (p := 29) (q := 20) (by norm_num) (by norm_num) (by norm_num) (by norm_num)
    rw [one_div, Real.inv_rpow (by norm_num), ← Real.rpow_neg (by norm_num)] at this
    norm_num at this ⊢; linarith
  rw [slog2_eq, if_neg (not_lt.2 h0)]
  constructor <;> linarith

/-- C96: encoding to S-Log2 and decoding recovers every value in `[0, 100]` to `1.3e-5` of the value plus `0.054`. -/
theorem C96_slog2_roundtrip {o : F32.Oracle} (hl : o.Log10Accurate (2 ^ (-22 : ℤ))) (hp : o.PowAccurate (2 ^ (-22 : ℤ)))
    (x : F32) (hx : x.isFinite = true) (h0 : 0 ≤ x.val) (h1 : x.val ≤ 100) : letI := F32.libm o
    (SLog2_to_Y (Y_to_SLog2 x)).isFinite = true ∧
      |((SLog2_to_Y (Y_to_SLog2 x)).val : ℝ) - x.val| ≤ 1.3e-5 * (x.val + 0.054) := by
  have h0' : (0 : ℝ) ≤ x.val := by exact_mod_cast h0
  have h1' : (x.val : ℝ) ≤ 100 := by exact_mod_cast h1
  have a := slog2_enc_high hl hx h0' h1'
  obtain ⟨r0, r1⟩ := slog2_range h0' h1'
  have b := slog2_dec hp a r0 r1 (by norm_num)
  have c := slog2_inv h0'
  refine ⟨b.fin, ?_⟩
  have b' := b.err
  generalize max 0 (slog2Inv (slog2 (x.val : ℝ))) = m at *
  have := abs_add_le (((@SLog2_to_Y F32 (F32.libm o) (@Y_to_SLog2 F32 (F32.libm o) x)).val : ℝ) - m) (m - x.val)
  rw [sub_add_sub_cancel] at this
  obtain ⟨c1, c2⟩ := _root_.abs_le.1 c
  have b2 := b'.trans (mul_le_mul_of_nonneg_left (show m + 0.054 ≤ x.val + 0.0540001 by linarith) (by norm_num))
  refine this.trans ((add_le_add b2 c).trans ?_)
  generalize (x.val : ℝ) = z at *
  norm_num; linarith

/-! ## The S-Log3 decoder -/

/-- The power of ten at the knee. -/
noncomputable def slog3T : ℝ := (10 : ℝ) ^ (((171.2102946929 : ℝ) - 420) / 261.5)

theorem slog3T_eq : slog3T = (1 / 10) ^ (((137 : ℕ) : ℝ) / (144 : ℕ)) * Real.exp (Real.log 10 * ((171.2102946929 - 420) / 261.5 + 137 / 144)) := by
  unfold slog3T
  rw [one_div, Real.inv_rpow (by norm_num), ← Real.rpow_neg (by norm_num), ← Real.rpow_def_of_pos (by norm_num), ← Real.rpow_add (by norm_num)]
  congr 1; push_cast; ring

theorem slog3_ten : 0.111842 ≤ slog3T ∧ slog3T ≤ 0.1118422 := by
  have e := slog3T_eq
  have u := rpow_le_of_pow (x := 1 / 10) (r := 0.1118436) (p := 137) (q := 144) (by norm_num) (by norm_num) (by norm_num) (by norm_num)
  have l := le_rpow_of_pow (x := 1 / 10) (r := 0.11184358) (p := 137) (q := 144) (by norm_num) (by norm_num) (by norm_num) (by norm_num)
  generalize (1 / 10 : ℝ) ^ (((137 : ℕ) : ℝ) / (144 : ℕ)) = p at *
  rw [e]
  clear e
  have l1 := log_ten_lt
  have l0 := log_ten_gt
  have z0 : -1.3483e-5 ≤ Real.log 10 * ((171.2102946929 - 420) / 261.5 + 137 / 144) := by norm_num at *; linarith
  have z1 : Real.log 10 * ((171.2102946929 - 420) / 261.5 + 137 / 144) ≤ -1.3287e-5 := by norm_num at *; linarith
  generalize Real.log 10 * ((171.2102946929 - 420) / 261.5 + 137 / 144) = z at *
  have x0 := Real.add_one_le_exp z
  have x1 := (_root_.abs_le.1 (Real.abs_exp_sub_one_sub_id_le (x := z) (by rw [_root_.abs_le]; constructor <;> linarith))).2
  have zz : z ^ 2 ≤ 1e-9 := by nlinarith
  generalize Real.exp z = w at *
  constructor
  · calc (0.111842 : ℝ) ≤ 0.11184358 * (1 - 1.3483e-5) := by norm_num
      _ ≤ p * w := mul_le_mul l (by linarith) (by norm_num) (by linarith)
  · calc p * w ≤ 0.1118436 * (1 - 1.3287e-5 + 1e-9) := mul_le_mul u (by linarith) (by linarith) (by norm_num)
      _ ≤ 0.1118422 := by norm_num

/-- The two segments nearly meet at the knee. -/
theorem slog3_knee {v : ℝ} (h : |v - 171.2102946929 / 1023| ≤ 1.5e-8) :
    |((10 : ℝ) ^ ((v * 1023 - 420) / 261.5) * 0.19 - 0.01) - (v * 1023 - 95) * 0.01125 / (171.2102946929 - 95)| ≤ 3.5e-8 ∧
    |((10 : ℝ) ^ ((v * 1023 - 420) / 261.5) * 0.19 - 0.01) - 0.01125| ≤ 3.5e-8 := by
  obtain ⟨h1, h2⟩ := _root_.abs_le.1 h
  have e : (10 : ℝ) ^ ((v * 1023 - 420) / 261.5) = slog3T *
      Real.exp (Real.log 10 * ((v - 171.2102946929 / 1023) * (1023 / 261.5))) := by
    unfold slog3T
    rw [← Real.rpow_def_of_pos (by norm_num), ← Real.rpow_add (by norm_num)]
    congr 1; ring
  obtain ⟨t0, t1⟩ := slog3_ten
  have l1 := log_ten_lt
  have l0 := log_ten_gt
  have zb : |Real.log 10 * ((v - 171.2102946929 / 1023) * (1023 / 261.5))| ≤ 1.4e-7 := by
    rw [abs_mul, abs_mul, abs_of_pos (by linarith), abs_of_pos (by norm_num : (0 : ℝ) < 1023 / 261.5)]
    exact (mul_le_mul l1.le (mul_le_mul_of_nonneg_right h (by norm_num)) (by positivity) (by norm_num)).trans (by norm_num)
  have x1 := _root_.abs_le.1 (Real.abs_exp_sub_one_sub_id_le (zb.trans (by norm_num)))
  rw [e]
  generalize Real.log 10 * ((v - 171.2102946929 / 1023) * (1023 / 261.5)) = z at *
  have zz : z ^ 2 ≤ 1e-12 := by rw [← sq_abs]; have := abs_nonneg z; nlinarith
  obtain ⟨z1, z2⟩ := _root_.abs_le.1 zb
  generalize Real.exp z = w at *
  generalize slog3T = p at *
  have w1 : |p * w - p| ≤ 1.7e-8 := by
    rw [show p * w - p = p * (w - 1) by ring, abs_mul, abs_of_pos (by linarith)]
    have : |w - 1| ≤ 1.41e-7 := by rw [_root_.abs_le]; constructor <;> linarith
    calc p * |w - 1| ≤ 0.1118422 * 1.41e-7 := by gcongr
      _ ≤ _ := by norm_num
  obtain ⟨w2, w3⟩ := _root_.abs_le.1 w1
  have lin : |(v * 1023 - 95) * 0.01125 / (171.2102946929 - 95) - 0.01125| ≤ 3e-9 := by
    rw [show (v * 1023 - 95) * 0.01125 / (171.2102946929 - 95) - 0.01125 = (v - 171.2102946929 / 1023) * (1023 * 0.01125 / (171.2102946929 - 95)) by ring,
      abs_mul, abs_of_pos (by norm_num : (0:ℝ) < 1023 * 0.01125 / (171.2102946929 - 95))]
    exact (mul_le_mul_of_nonneg_right h (by norm_num)).trans (by norm_num)
  generalize (v * 1023 - 95) * 0.01125 / (171.2102946929 - 95) = L at *
  obtain ⟨q1, q2⟩ := _root_.abs_le.1 lin
  constructor <;> rw [_root_.abs_le] <;> constructor <;> linarith

theorem slog3_high {o : F32.Oracle} (ho : o.PowAccurate (2 ^ (-22 : ℤ))) {x : F32} (hx : x.isFinite = true) (h0 : 0.167 ≤ (x.val : ℝ)) (h1 : (x.val : ℝ) ≤ 1) :
    Ap (o.powf (Arith.lit 10) ((x * Arith.lit 1023 - Arith.lit 420) / Arith.lit 261.5) * Arith.lit 0.19 - Arith.lit 0.01)
      ((10 : ℝ) ^ (((x.val : ℝ) * 1023 - 420) / 261.5) * 0.19 - 0.01)
      (1.7e-6 * ((10 : ℝ) ^ (((x.val : ℝ) * 1023 - 420) / 261.5) * 0.19)) := by
  have c1 : Ap (Arith.lit 1023 : F32) 1023 0 := .ofEval (q := 1023) (e := 0) (by decide +kernel) (by norm_num) (by norm_num)
  have c2 : Ap (Arith.lit 420 : F32) 420 0 := .ofEval (q := 420) (e := 0) (by decide +kernel) (by norm_num) (by norm_num)
  have c3 : Ap (Arith.lit 261.5 : F32) 261.5 0 := .ofEval (q := 261.5) (e := 0) (by decide +kernel) (by norm_num) (by norm_num)
  have c4 : Ap (Arith.lit 0.19 : F32) 0.19 7e-9 := .ofEval (q := 0.19) (e := 7e-9) (by decide +kernel) (by norm_num) (by norm_num)
  have c5 : Ap (Arith.lit 0.01 : F32) 0.01 3e-10 := .ofEval (q := 0.01) (e := 3e-10) (by decide +kernel) (by norm_num) (by norm_num)
  have ex := Ap.exact hx
  generalize (x.val : ℝ) = v at *
  have a1 := ex.mul c1 (R := 1) (S := 1023) (E := 6.1e-5) (by rw [_root_.abs_le]; constructor <;> linarith) (by norm_num) (by norm_num) (by norm_num)
  have a2 := a1.sub c2 (B := 603) (E := 9.71e-5) (by rw [_root_.abs_le]; constructor <;> linarith) (by norm_num) (by norm_num)
  have hs : |(v * 1023 - 420) / 261.5| ≤ 2.31 := by
    rw [abs_div, abs_of_pos (by norm_num : (0:ℝ) < 261.5), div_le_iff₀ (by norm_num), _root_.abs_le]
    constructor <;> (norm_num; linarith)
  have a3 := a2.div c3 (Q := 2.31) (S := 261.5) (d := 3.714e-7) (E := 5.1e-7) hs (by norm_num) (by norm_num) (by norm_num) (by norm_num) (by norm_num)
  have hl := log_ten_lt
  have hl0 := log_ten_gt
  obtain ⟨s1, s2⟩ := _root_.abs_le.1 hs
  have lo : 0.111 ≤ (10 : ℝ) ^ ((v * 1023 - 420) / 261.5) := by
    have := le_rpow_of_pow (x := 1 / 10) (r := 0.111) (p := 61) (q := 64) (by norm_num) (by norm_num) (by norm_num) (by norm_num)
    rw [one_div, Real.inv_rpow (by norm_num), ← Real.rpow_neg (by norm_num)] at this
    refine this.trans (Real.rpow_le_rpow_of_exponent_le (by norm_num) ?_)
    rw [le_div_iff₀ (by norm_num)]; norm_num; linarith
  have hi : (10 : ℝ) ^ ((v * 1023 - 420) / 261.5) ≤ 1000 := by
    have : (10 : ℝ) ^ ((v * 1023 - 420) / 261.5) ≤ (10 : ℝ) ^ (3 : ℝ) := Real.rpow_le_rpow_of_exponent_le (by norm_num) (by linarith)
    norm_num at this ⊢; exact this
  have a4 := Ap.pow ho (e := 0) (L := 7 / 3) (S := 2.31) (θ := 1.191e-6) (E := 1.44e-6) (by norm_num) (slogTen.weaken (by norm_num)) (by norm_num) a3 hs
    (by rw [abs_of_pos (by linarith)]; exact hl.le) (by norm_num) (by norm_num)
    (le_trans (by rw [zpow_neg]; norm_num) lo) (hi.trans (by norm_num)) (by positivity) (by rw [zpow_neg]; norm_num)
  generalize (10 : ℝ) ^ ((v * 1023 - 420) / 261.5) = p at *
  have a5 := a4.mul c4 (R := p) (S := 0.19) (E := 1.55e-6 * (p * 0.19)) (by rw [abs_of_nonneg (by linarith)]) (by norm_num)
    (by norm_num at *; linarith) (by norm_num at *; linarith)
  exact a5.sub c5 (B := p * 0.19) (by rw [_root_.abs_le]; constructor <;> linarith) (by norm_num at *; linarith) (by norm_num at *; linarith)

theorem slog3_low {x : F32} (hx : x.isFinite = true) (h0 : 0 ≤ (x.val : ℝ)) (h1 : (x.val : ℝ) ≤ 0.1674) :
    Ap (F64.toF32 (F64.ofF32 (x * Arith.lit 1023 - Arith.lit 95) * Arith.lit 0.01125 / F64.ofF32 (Arith.lit 171.2102946929 - Arith.lit 95)))
      (((x.val : ℝ) * 1023 - 95) * 0.01125 / (171.2102946929 - 95)) 5e-9 := by
  have c1 : Ap (Arith.lit 1023 : F32) 1023 0 := .ofEval (q := 1023) (e := 0) (by decide +kernel) (by norm_num) (by norm_num)
  have c2 : Ap (Arith.lit 95 : F32) 95 0 := .ofEval (q := 95) (e := 0) (by decide +kernel) (by norm_num) (by norm_num)
  have c3 : Ap (Arith.lit 171.2102946929 - Arith.lit 95 : F32) (171.2102946929 - 95) 8e-6 :=
    .ofEval (q := 171.2102946929 - 95) (e := 8e-6) (by decide +kernel) (by norm_num) (by norm_num)
  have c4 : F64.Ap (Arith.lit 0.01125 : F64) 0.01125 1e-17 := by
    have := F64.Ap.lit (q := 0.01125) (B := 0.012) (E := 1e-17) (by norm_num) (by norm_num) (by norm_num)
    norm_num at this ⊢; exact this
  have ex := Ap.exact hx
  generalize (x.val : ℝ) = v at *
  have a1 := ex.mul c1 (R := 0.1674) (S := 1023) (E := 1.03e-5) (by rw [_root_.abs_le]; constructor <;> linarith) (by norm_num) (by norm_num) (by norm_num)
  have a2 := a1.sub c2 (B := 95) (E := 1.6e-5) (by rw [_root_.abs_le]; constructor <;> linarith) (by norm_num) (by norm_num)
  have a3 := (F64.Ap.ofF32' a2).mul c4 (R := 95) (S := 0.01125) (E := 1.801e-7) (by rw [_root_.abs_le]; constructor <;> linarith) (by norm_num)
    (by norm_num) (by norm_num)
  have hq : |(v * 1023 - 95) * 0.01125 / (171.2102946929 - 95)| ≤ 0.0141 := by
    rw [abs_div, abs_of_pos (by norm_num : (0:ℝ) < 171.2102946929 - 95), div_le_iff₀ (by norm_num), _root_.abs_le]
    constructor <;> (norm_num; linarith)
  have a4 := a3.div (F64.Ap.ofF32' c3) (Q := 0.0141) (S := 76.2) (d := 3.9e-9) (E := 3.91e-9) hq (by norm_num) (by norm_num) (by norm_num)
    (by norm_num) (by norm_num)
  exact a4.toF32 (B := 0.0141) hq (by norm_num) (by norm_num)

theorem slog3Inv_eq (v : ℝ) : slog3Inv v = if 171.2102946929 / 1023 < v then (10 : ℝ) ^ ((v * 1023 - 420) / 261.5) * 0.19 - 0.01
    else (v * 1023 - 95) * 0.01125 / (171.2102946929 - 95) := by
  unfold slog3Inv
  rw [show (0.18 : ℝ) + 0.01 = 0.19 by norm_num]

/-- C96: the S-Log3 decoder, with its mixture of `float` and `double` operations, follows the published curve for every
code value in `[0, 1]`. -/
theorem C96_slog3_decode {o : F32.Oracle} (ho : o.PowAccurate (2 ^ (-22 : ℤ))) (v : F32) (hv : v.isFinite = true)
    (h0 : 0 ≤ v.val) (h1 : v.val ≤ 1) :
    (Mixed.SLog3_to_Y o v).isFinite = true ∧
      |((Mixed.SLog3_to_Y o v).val : ℝ) - slog3Inv v.val| ≤ 4e-6 * (|slog3Inv v.val| + 0.01) := by
  have h0' : (0 : ℝ) ≤ v.val := by exact_mod_cast h0
  have h1' : (v.val : ℝ) ≤ 1 := by exact_mod_cast h1
  have kf : Ap (Arith.lit 171.2102946929 / Arith.lit 1023 : F32) (171.2102946929 / 1023) 1.5e-8 :=
    .ofEval (q := 171.2102946929 / 1023) (e := 1.5e-8) (by decide +kernel) (by norm_num) (by norm_num)
  obtain ⟨k1, k2⟩ := _root_.abs_le.1 kf.err
  have hlt : Arith.lt (Arith.lit 171.2102946929 / Arith.lit 1023 : F32) v = decide ((Arith.lit 171.2102946929 / Arith.lit 1023 : F32).val < v.val) := by
    rw [alt_def, lt_finite kf.fin hv]
  unfold Mixed.SLog3_to_Y
  rw [hlt, slog3Inv_eq]
  simp only [decide_eq_true_eq]
  by_cases hb : (Arith.lit 171.2102946929 / Arith.lit 1023 : F32).val < v.val
  · have hb' : ((Arith.lit 171.2102946929 / Arith.lit 1023 : F32).val : ℝ) < v.val := by exact_mod_cast hb
    rw [if_pos hb, F64.toF32_ofF32]
    have a := slog3_high ho hv (by linarith) h1'
    refine ⟨a.fin, ?_⟩
    have ae := a.err
    by_cases hs : 171.2102946929 / 1023 < (v.val : ℝ)
    · rw [if_pos hs]
      refine ae.trans ?_
      generalize (10 : ℝ) ^ (((v.val : ℝ) * 1023 - 420) / 261.5) * 0.19 = p at *
      have := le_abs_self (p - 0.01)
      have := abs_nonneg (p - 0.01)
      linarith
    · rw [if_neg hs]
      obtain ⟨m1, m2⟩ := slog3_knee (v := (v.val : ℝ)) (by rw [_root_.abs_le]; constructor <;> linarith)
      generalize (10 : ℝ) ^ (((v.val : ℝ) * 1023 - 420) / 261.5) * 0.19 = p at *
      generalize ((v.val : ℝ) * 1023 - 95) * 0.01125 / (171.2102946929 - 95) = L at *
      generalize ((o.powf (Arith.lit 10) ((v * Arith.lit 1023 - Arith.lit 420) / Arith.lit 261.5) * Arith.lit 0.19 - Arith.lit 0.01 : F32).val : ℝ) = w at *
      have := le_abs_self L
      obtain ⟨q1, q2⟩ := _root_.abs_le.1 m1
      obtain ⟨q3, q4⟩ := _root_.abs_le.1 m2
      obtain ⟨q5, q6⟩ := _root_.abs_le.1 ae
      rw [_root_.abs_le]; constructor <;> linarith
  · have hb' : (v.val : ℝ) ≤ (Arith.lit 171.2102946929 / Arith.lit 1023 : F32).val := by exact_mod_cast not_lt.1 hb
    rw [if_neg hb]
    have a := slog3_low hv h0' (by linarith)
    refine ⟨a.fin, ?_⟩
    have ae := a.err
    by_cases hs : 171.2102946929 / 1023 < (v.val : ℝ)
    · rw [if_pos hs]
      obtain ⟨m1, m2⟩ := slog3_knee (v := (v.val : ℝ)) (by rw [_root_.abs_le]; constructor <;> linarith)
      generalize (10 : ℝ) ^ (((v.val : ℝ) * 1023 - 420) / 261.5) * 0.19 = p at *
      generalize ((v.val : ℝ) * 1023 - 95) * 0.01125 / (171.2102946929 - 95) = L at *
      generalize ((F64.toF32 _ : F32).val : ℝ) = w at *
      have := le_abs_self (p - 0.01)
      obtain ⟨q1, q2⟩ := _root_.abs_le.1 m1
      obtain ⟨q3, q4⟩ := _root_.abs_le.1 m2
      obtain ⟨q5, q6⟩ := _root_.abs_le.1 ae
      rw [_root_.abs_le]; constructor <;> linarith
    · rw [if_neg hs]
      refine ae.trans ?_
      have := abs_nonneg (((v.val : ℝ) * 1023 - 95) * 0.01125 / (171.2102946929 - 95))
      linarith

/-- Library functions and inputs meeting the hypotheses of C96 exist. -/
example : ∃ o : F32.Oracle, o.Log10Accurate (2 ^ (-22 : ℤ)) ∧ o.PowAccurate (2 ^ (-22 : ℤ)) := by
  obtain ⟨o, h1, -, -, h4, -, -⟩ := exists_accurate
  have d : (2 : ℝ) ^ (-23 : ℤ) ≤ 2 ^ (-22 : ℤ) := zpow_le_zpow_right₀ (by norm_num) (by norm_num)
  refine ⟨o, fun x hx h0 => ⟨(h4 x hx h0).1, (h4 x hx h0).2.trans (by gcongr)⟩, fun x y hx hy h0 ha hb => ?_⟩
  obtain ⟨a, b⟩ := h1 x y hx hy h0 ha hb
  exact ⟨a, b.trans (by gcongr)⟩

example : (Arith.lit 0.18 : F32).isFinite = true ∧ 0 ≤ (Arith.lit 0.18 : F32).val ∧ (Arith.lit 0.18 : F32).val ≤ 1 := by decide +kernel

end CS
