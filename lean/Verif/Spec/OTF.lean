import Mathlib.Analysis.SpecialFunctions.Pow.Real
import Mathlib.Analysis.SpecialFunctions.Log.Base
import Mathlib.Analysis.Real.Sqrt

/-!
# Specification: the published transfer curves

Written from the standards (IEC 61966-2-1, ITU-R BT.709, SMPTE ST 2084, ARIB STD-B67, Sony S-Log),
on real numbers, independently of the model.
-/

namespace CS.Spec

/-- Clamp to an interval. -/
noncomputable def clampTo (lo hi x : ℝ) : ℝ := max lo (min hi x)

/-- sRGB opto-electronic transfer function on `[0,1]`. -/
noncomputable def srgb (x : ℝ) : ℝ :=
  if x < 0.0031308 then 12.92 * x else 1.055 * x ^ ((1 : ℝ) / 2.4) - 0.055

/-- The scene value at which the sRGB decoder (threshold 0.04045) switches segments. -/
noncomputable def srgbKnee : ℝ := ((0.04045 + 0.055) / 1.055) ^ (2.4 : ℝ)

/-- ITU-R BT.709 opto-electronic transfer function on `[0,1]`. -/
noncomputable def bt709 (x : ℝ) : ℝ :=
  if x < 0.018 then 4.5 * x else 1.099 * x ^ (0.45 : ℝ) - 0.099

/-- SMPTE ST 2084 inverse EOTF, `x = 1` meaning 10000 cd/m². -/
noncomputable def pq (x : ℝ) : ℝ :=
  ((3424 / 4096 + 2413 / 4096 * 32 * x ^ ((2610 : ℝ) / 4096 / 4)) /
    (1 + 2392 / 4096 * 32 * x ^ ((2610 : ℝ) / 4096 / 4))) ^ ((2523 : ℝ) / 4096 * 128)

/-- The limit of the PQ signal for vanishing luminance. -/
noncomputable def pqBlack : ℝ := ((3424 : ℝ) / 4096) ^ ((2523 : ℝ) / 4096 * 128)

/-- ARIB STD-B67 (hybrid log-gamma) OETF, scene value 1 = reference white (signal 1/2). -/
noncomputable def hlg (x : ℝ) : ℝ :=
  if x < 1 then Real.sqrt x / 2 else 0.17883277 * Real.log (x - 0.28466892) + 0.55991073

/-- Sony S-Log. -/
noncomputable def slog (x : ℝ) : ℝ := 0.432699 * Real.logb 10 (x + 0.037584) + 0.616596 + 0.03

/-- Sony S-Log3 (10-bit code value over 1023). -/
noncomputable def slog3 (x : ℝ) : ℝ :=
  if 0.01125 < x then (420 + Real.logb 10 ((x + 0.01) / (0.18 + 0.01)) * 261.5) / 1023
  else (x * (171.2102946929 - 95) / 0.01125 + 95) / 1023

/-- Sony S-Log2: the curve gives IRE levels, which video range maps to code values (black 64, white
940 of 1024). -/
noncomputable def slog2 (x : ℝ) : ℝ :=
  let ire := if 0 ≤ x then 0.432699 * Real.logb 10 (155 * x / 219 + 0.037584) + 0.616596 + 0.03
    else 3.53881278538813 * x + 0.030001222851889303
  (64 + (940 - 64) * ire) / 1024

/-- sRGB electro-optical transfer function on `[0,1]`. -/
noncomputable def srgbInv (v : ℝ) : ℝ :=
  if v < 0.04045 then v / 12.92 else ((v + 0.055) / 1.055) ^ (2.4 : ℝ)

/-- Inverse of the BT.709 OETF on `[0,1]`. -/
noncomputable def bt709Inv (v : ℝ) : ℝ :=
  if v < 0.081 then v / 4.5 else ((v + 0.099) / 1.099) ^ ((1 : ℝ) / 0.45)

/-- SMPTE ST 2084 EOTF, result 1 meaning 10000 cd/m². -/
noncomputable def pqInv (v : ℝ) : ℝ :=
  (max (v ^ (1 / ((2523 : ℝ) / 4096 * 128)) - 3424 / 4096) 0 /
    (2413 / 4096 * 32 - 2392 / 4096 * 32 * v ^ (1 / ((2523 : ℝ) / 4096 * 128)))) ^
      (1 / ((2610 : ℝ) / 4096 / 4))

/-- Inverse of the ARIB STD-B67 OETF. -/
noncomputable def hlgInv (v : ℝ) : ℝ :=
  if v ≤ 1 / 2 then (2 * v) ^ 2 else Real.exp ((v - 0.55991073) / 0.17883277) + 0.28466892

/-- Sony S-Log to scene reflection. -/
noncomputable def slogInv (v : ℝ) : ℝ := (10 : ℝ) ^ ((v - 0.616596 - 0.03) / 0.432699) - 0.037584

/-- Sony S-Log2 code value to scene reflection. -/
noncomputable def slog2Inv (v : ℝ) : ℝ :=
  let ire := (1024 * v - 64) / (940 - 64)
  if 0.030001222851889303 ≤ ire then
    219 * ((10 : ℝ) ^ ((ire - 0.616596 - 0.03) / 0.432699) - 0.037584) / 155
  else (ire - 0.030001222851889303) / 3.53881278538813

/-- Sony S-Log3 code value (over 1023) to scene reflection. -/
noncomputable def slog3Inv (v : ℝ) : ℝ :=
  if 171.2102946929 / 1023 < v then (10 : ℝ) ^ ((v * 1023 - 420) / 261.5) * (0.18 + 0.01) - 0.01
  else (v * 1023 - 95) * 0.01125 / (171.2102946929 - 95)

end CS.Spec
