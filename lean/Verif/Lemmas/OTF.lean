import Verif.Model.OTF
import Verif.Spec.OTF
import Mathlib.Tactic.NormNum
import Mathlib.Tactic.Linarith
import Mathlib.Tactic.FieldSimp
import Mathlib.Tactic.Positivity

/-! Real-number readings of the transfer curves. -/

namespace CS
open OTF

theorem le_rpow_of_pow {x r : ℝ} {p q : ℕ} (hx : 0 ≤ x) (hr : 0 ≤ r) (hq : q ≠ 0)
    (h : r ^ q ≤ x ^ p) : r ≤ x ^ ((p : ℝ) / q) := by
  have hq' : (q : ℝ) ≠ 0 := Nat.cast_ne_zero.mpr hq
  have : (r ^ q) ^ ((1 : ℝ) / q) ≤ (x ^ p) ^ ((1 : ℝ) / q) :=
    Real.rpow_le_rpow (by positivity) h (by positivity)
  rwa [← Real.rpow_natCast, ← Real.rpow_mul hr, ← Real.rpow_natCast x, ← Real.rpow_mul hx,
    mul_one_div_cancel hq', Real.rpow_one, mul_one_div] at this

theorem rpow_le_of_pow {x r : ℝ} {p q : ℕ} (hx : 0 ≤ x) (hr : 0 ≤ r) (hq : q ≠ 0)
    (h : x ^ p ≤ r ^ q) : x ^ ((p : ℝ) / q) ≤ r := by
  have hq' : (q : ℝ) ≠ 0 := Nat.cast_ne_zero.mpr hq
  have : (x ^ p) ^ ((1 : ℝ) / q) ≤ (r ^ q) ^ ((1 : ℝ) / q) :=
    Real.rpow_le_rpow (by positivity) h (by positivity)
  rwa [← Real.rpow_natCast, ← Real.rpow_mul hx, ← Real.rpow_natCast r, ← Real.rpow_mul hr,
    mul_one_div_cancel hq', Real.rpow_one, mul_one_div] at this

theorem Y_to_sRGB_real (x : ℝ) : Y_to_sRGB x =
    if x < 0 then 0 else if 1 < x then 1 else Spec.srgb x := by
  unfold Y_to_sRGB Spec.srgb
  simp only [lt_real, lit_real, powf_real]
  push_cast
  rw [mul_comm x]
  norm_num

theorem sRGB_to_Y_real (x : ℝ) : sRGB_to_Y x =
    if x < 0 then 0 else if 1 < x then 1 else if x < 0.04045 then x / 12.92
      else ((x + 0.055) / 1.055) ^ (2.4 : ℝ) := by
  unfold sRGB_to_Y
  simp only [lt_real, lit_real, powf_real]
  push_cast
  rfl

theorem Y_to_BT709_real (x : ℝ) : Y_to_BT709 x =
    if x < 0 then 0 else if 1 < x then 1 else Spec.bt709 x := by
  unfold Y_to_BT709 Spec.bt709
  simp only [lt_real, lit_real, powf_real]
  push_cast
  rw [mul_comm x]
  norm_num

theorem BT709_to_Y_real (x : ℝ) : BT709_to_Y x =
    if x < 0 then 0 else if 1 < x then 1 else if x < 0.081 then x / 4.5
      else ((x + 0.099) / 1.099) ^ ((1 : ℝ) / 0.45) := by
  unfold BT709_to_Y
  simp only [lt_real, lit_real, powf_real]
  push_cast
  norm_num

theorem Y_to_ST2084_real (x : ℝ) : Y_to_ST2084 x =
    if x ≤ 0 then 0 else if 100 ≤ x then 1 else Spec.pq (x / 100) := by
  unfold Y_to_ST2084 Spec.pq pq_m1 pq_m2 pq_c1 pq_c2 pq_c3 pq_C
  simp only [le_real, lit_real, powf_real]
  push_cast
  norm_num

theorem ST2084_to_Y_real (x : ℝ) : ST2084_to_Y x =
    100 * (max 0 (x ^ ((1 : ℝ) / 78.84375) - 0.8359375) /
      (18.8515625 - 18.6875 * x ^ ((1 : ℝ) / 78.84375))) ^ ((1 : ℝ) / 0.1593017578125) := by
  unfold ST2084_to_Y pq_m1 pq_m2 pq_c1 pq_c2 pq_c3 pq_C
  simp only [lt_real, lit_real, powf_real]
  push_cast
  generalize x ^ ((1 : ℝ) / 78.84375) = N
  have : (if N - 0.8359375 < 0 then (0 : ℝ) else N - 0.8359375) = max 0 (N - 0.8359375) := by
    rw [max_def]
    split_ifs <;> linarith
  rw [this, mul_comm]

theorem Y_to_HLG_real (x : ℝ) : Y_to_HLG x = if x < 0 then 0 else Spec.hlg x := by
  unfold Y_to_HLG Spec.hlg
  simp only [lt_real, lit_real, logf_real, sqrtf_real]
  push_cast
  rw [show (0.5 : ℝ) * Real.sqrt x = Real.sqrt x / 2 by ring]

theorem HLG_to_Y_real (x : ℝ) : HLG_to_Y x =
    if x < 0 then 0 else if x ≤ 0.5 then 4 * x * x
      else Real.exp ((x - 0.55991073) / 0.17883277) + 0.28466892 := by
  unfold HLG_to_Y
  simp only [lt_real, le_real, lit_real, expf_real]
  push_cast
  rfl

theorem Y_to_SLog_real (x : ℝ) : Y_to_SLog x = Spec.slog (Spec.clampTo 0 10 x) := by
  unfold Y_to_SLog Spec.slog Spec.clampTo
  simp only [lt_real, lit_real, log10f_real]
  push_cast
  have : (if x < 0 then (0 : ℝ) else if 10 < x then 10 else x) = max 0 (min 10 x) := by
    rw [max_def, min_def]
    split_ifs <;> linarith
  rw [this]

theorem SLog_to_Y_real (x : ℝ) : SLog_to_Y x =
    10 ^ ((x - 0.616596 - 0.03) / 0.432699) - 0.037584 := by
  unfold SLog_to_Y
  simp only [lit_real, powf_real]
  push_cast
  rfl

theorem Y_to_SLog3_real (x : ℝ) : Y_to_SLog3 x =
    (if 0.01125 < x then 420 + Real.logb 10 ((x + 0.01) / 0.19 * 261.5)
      else x * (171.2102946929 - 95) / 0.01125 + 95) / 1023 := by
  unfold Y_to_SLog3
  simp only [lt_real, lit_real, log10f_real]
  push_cast
  rfl

theorem SLog3_to_Y_real (x : ℝ) : SLog3_to_Y x =
    if 171.2102946929 / 1023 < x then 10 ^ ((x * 1023 - 420) / 261.5) * 0.19 - 0.01
      else (x * 1023 - 95) * 0.01125 / (171.2102946929 - 95) := by
  unfold SLog3_to_Y
  simp only [lt_real, lit_real, powf_real]
  push_cast
  rfl

/-- The S-Log2 encoder before code-value scaling. -/
noncomputable def slog2Ire (x : ℝ) : ℝ :=
  if x < 0 then x * 3.53881278538813 + 0.030001222851889303
  else 0.432699 * Real.logb 10 (155 * x / 219 + 0.037584) + 0.616596 + 0.03

theorem Y_to_SLog2_real (x : ℝ) : Y_to_SLog2 x = slog2Ire x * (876 / 1024) + 64 / 1024 := by
  unfold Y_to_SLog2 slog2Ire IRE_to_CV_SLog2
  simp only [lt_real, lit_real, log10f_real]
  push_cast
  rfl

theorem SLog2_to_Y_real (x : ℝ) : SLog2_to_Y x = max 0 (
    if 0.030001222851889303 ≤ (x - 64 / 1024) / (876 / 1024)
    then 219 * (10 ^ (((x - 64 / 1024) / (876 / 1024) - 0.616596 - 0.03) / 0.432699) - 0.037584) / 155
    else ((x - 64 / 1024) / (876 / 1024) - 0.030001222851889303) / 3.53881278538813) := by
  unfold SLog2_to_Y CV_to_IRE_SLog2
  simp only [lt_real, le_real, lit_real, powf_real]
  push_cast
  generalize (if 0.030001222851889303 ≤ (x - 64 / 1024) / (876 / 1024)
    then 219 * ((10 : ℝ) ^ (((x - 64 / 1024) / (876 / 1024) - 0.616596 - 0.03) / 0.432699) - 0.037584) / 155
    else ((x - 64 / 1024) / (876 / 1024) - 0.030001222851889303) / 3.53881278538813) = y
  rw [max_def]
  split_ifs <;> linarith

end CS
