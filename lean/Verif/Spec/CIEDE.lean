import Mathlib.Analysis.SpecialFunctions.Pow.Real
import Mathlib.Analysis.SpecialFunctions.Complex.Arg

/-!
# CIEDE2000 as published (CIE 142-2001; Sharma, Wu, Dalal 2005, equations 2-22)

Written from the publication, not from the code.  The formulae are in degrees; `π` is a parameter because
the program has a decimal of it.
-/

namespace CS.Spec.CIEDE2000
variable (π : ℝ)

/-- Cosine of an angle in degrees. -/
noncomputable def cosd (x : ℝ) : ℝ := Real.cos (π * x / 180)
/-- Sine of an angle in degrees. -/
noncomputable def sind (x : ℝ) : ℝ := Real.sin (π * x / 180)

/-- Chroma (eq. 2). -/
noncomputable def chroma (a b : ℝ) : ℝ := Real.sqrt (a ^ 2 + b ^ 2)
/-- The ratio under the roots of `G` and `R_C` (eqs. 4, 18). -/
noncomputable def root7 (C : ℝ) : ℝ := Real.sqrt (C ^ 7 / (C ^ 7 + 25 ^ 7))
/-- `G` from the mean chroma (eq. 4). -/
noncomputable def G (C : ℝ) : ℝ := 0.5 * (1 - root7 C)
/-- Hue in `[0, 360)` (eq. 7). -/
noncomputable def hue (a b : ℝ) : ℝ :=
  if a = 0 ∧ b = 0 then 0
  else if Complex.arg ⟨a, b⟩ < 0 then Complex.arg ⟨a, b⟩ * 180 / π + 360
  else Complex.arg ⟨a, b⟩ * 180 / π
/-- Hue difference (eq. 10); `CC` is the product of the chromas. -/
noncomputable def diffHue (CC h₁ h₂ : ℝ) : ℝ :=
  if CC = 0 then 0
  else if |h₂ - h₁| ≤ 180 then h₂ - h₁
  else if h₂ - h₁ > 180 then h₂ - h₁ - 360
  else h₂ - h₁ + 360
/-- Mean hue (eq. 14). -/
noncomputable def meanHue (CC h₁ h₂ : ℝ) : ℝ :=
  if CC = 0 then h₁ + h₂
  else if |h₁ - h₂| ≤ 180 then (h₁ + h₂) / 2
  else if h₁ + h₂ < 360 then (h₁ + h₂ + 360) / 2
  else (h₁ + h₂ - 360) / 2
/-- `T` (eq. 15). -/
noncomputable def T (h : ℝ) : ℝ :=
  1 - 0.17 * cosd π (h - 30) + 0.24 * cosd π (2 * h) + 0.32 * cosd π (3 * h + 6)
    - 0.20 * cosd π (4 * h - 63)
/-- `Δθ` (eq. 16). -/
noncomputable def Δθ (h : ℝ) : ℝ := 30 * Real.exp (-((h - 275) / 25) ^ 2)
/-- `S_L` from the mean lightness (eq. 18). -/
noncomputable def SL (L : ℝ) : ℝ := 1 + 0.015 * (L - 50) ^ 2 / Real.sqrt (20 + (L - 50) ^ 2)
/-- `S_C` from the mean chroma (eq. 19). -/
noncomputable def SC (C : ℝ) : ℝ := 1 + 0.045 * C
/-- `S_H` from the mean chroma and mean hue (eq. 20). -/
noncomputable def SH (C h : ℝ) : ℝ := 1 + 0.015 * C * T π h
/-- `R_T` from the mean chroma and mean hue (eqs. 17, 21). -/
noncomputable def RT (C h : ℝ) : ℝ := -sind π (2 * Δθ h) * (2 * root7 C)

/-- The colour difference (eq. 22) of `(L₁, a₁, b₁)` and `(L₂, a₂, b₂)`. -/
noncomputable def ΔE (L₁ a₁ b₁ L₂ a₂ b₂ kL kC kH : ℝ) : ℝ :=
  let g := G ((chroma a₁ b₁ + chroma a₂ b₂) / 2)
  let a₁' := (1 + g) * a₁
  let a₂' := (1 + g) * a₂
  let C₁ := chroma a₁' b₁
  let C₂ := chroma a₂' b₂
  let h₁ := hue π a₁' b₁
  let h₂ := hue π a₂' b₂
  let dH := 2 * Real.sqrt (C₁ * C₂) * sind π (diffHue (C₁ * C₂) h₁ h₂ / 2)
  let C := (C₁ + C₂) / 2
  let h := meanHue (C₁ * C₂) h₁ h₂
  let l := (L₂ - L₁) / (kL * SL ((L₁ + L₂) / 2))
  let c := (C₂ - C₁) / (kC * SC C)
  let d := dH / (kH * SH π C h)
  Real.sqrt (l ^ 2 + c ^ 2 + d ^ 2 + RT π C h * c * d)

/-- The mean hue is taken across 0 with the sum of the hues at least a turn (the last case of eq. 14). -/
def Wraps (a₁ b₁ a₂ b₂ : ℝ) : Prop :=
  let g := G ((chroma a₁ b₁ + chroma a₂ b₂) / 2)
  let h₁ := hue π ((1 + g) * a₁) b₁
  let h₂ := hue π ((1 + g) * a₂) b₂
  180 < |h₁ - h₂| ∧ 360 ≤ h₁ + h₂

end CS.Spec.CIEDE2000
