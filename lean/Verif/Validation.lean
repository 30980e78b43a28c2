import Verif.Model.Spectrum
import Verif.Model.Gamut
import Verif.Float.F32

/-!
# The repository's own test values in the model

The expectations written in `/repo/test/*.cpp`, evaluated by the kernel in the binary32 semantics of the
model.  These are checks of the model, not properties: nothing else depends on this file.  Expectations that
need a library function (`powf`, `cbrtf`, ...) are not here; those of `test/spectrum.cpp` about the
daylight table and equal energy are `C76_D65` and `C40_standard_observers`.
-/

namespace CS.Validation
open CS

/-- `value == Approx(expected).margin(e)` without the relative tolerance. -/
def near (x : F32) (q e : ℚ) : Bool := x.isFinite && decide (|x.val - q| ≤ e)
def near3 (t : Tristimulus F32) (l : List ℚ) (e : ℚ) : Bool :=
  (List.zipWith (fun x q => near x q e) [t.a, t.b, t.c] l).all id
def near9 (m : Matrix3 F32) (l : List ℚ) (e : ℚ) : Bool :=
  (List.zipWith (fun x q => near x q e) [m.m0, m.m1, m.m2, m.m3, m.m4, m.m5, m.m6, m.m7, m.m8] l).all id
def okNear (x : Except UB F32) (q e : ℚ) : Bool := match x with
  | .ok v => near v q e
  | .error _ => false
def okNear3 (x : Except UB (Tristimulus F32)) (l : List ℚ) (e : ℚ) : Bool := match x with
  | .ok v => near3 v l e
  | .error _ => false

set_option maxRecDepth 100000

/-- test/aces2065.cpp:11-22 -/
example : near9 (ACES2065 : Gamut F32).toXYZ_ [0.9525523959, 0, 0.0000936786, 0.3439664498, 0.7281660966,
    -0.0721325464, 0, 0, 1.0088251844] 1e-5 = true ∧
    near9 (ACES2065 : Gamut F32).fromXYZ_ [1.0498110175, 0, -0.0000974845, -0.4959030231, 1.3733130458,
    0.0982400361, 0, 0, 0.9912520182] 1e-5 = true := by decide +kernel

/-- test/colorsystem.cpp:19-48 -/
example : near9 (AdobeRGB : Gamut F32).toXYZ_ [0.576669, 0.185558, 0.188229, 0.297345, 0.627363, 0.075291,
      0.027031, 0.070689, 0.991337] 1e-6 = true ∧
    near3 ((AdobeRGB : Gamut F32).toXYZ ⟨lit 1, lit 1, lit 1⟩) [0.950456, 1, 1.089058] 1e-6 = true ∧
    near9 (AdobeRGB : Gamut F32).fromXYZ_ [2.041588, -0.565007, -0.344731, -0.969244, 1.875968, 0.041555,
      0.013444, -0.118362, 1.015175] 1e-6 = true ∧
    near3 ((AdobeRGB : Gamut F32).fromXYZ ⟨lit 1, lit 1, lit 1⟩) [1.131850, 0.948279, 0.910257] 1e-6 = true := by
  decide +kernel

/-- test/colorsystem.cpp:61-105 -/
example : near3 (Tristimulus.toYxy (⟨lit 1, lit 0, lit 0⟩ : Tristimulus F32)) [0, 1, 0] 1e-6 = true ∧
    near3 (Tristimulus.toYxy (⟨lit 0, lit 1, lit 0⟩ : Tristimulus F32)) [1, 0, 1] 1e-6 = true ∧
    near3 (Tristimulus.toYxy (⟨lit 0, lit 0, lit 1⟩ : Tristimulus F32)) [0, 0, 0] 1e-6 = true ∧
    near3 (Tristimulus.toYxy (⟨lit 19.58, lit 11.39, lit 4.90⟩ : Tristimulus F32)) [11.39, 0.54586, 0.31754] 1e-5 = true ∧
    near3 (Tristimulus.fromYxy (⟨lit 1, lit 0.3127, lit 0.3290⟩ : Tristimulus F32)) [0.95046, 1, 1.08906] 1e-5 = true ∧
    near3 (Tristimulus.fromYxy (⟨lit 11.39, lit 0.54586, lit 0.31754⟩ : Tristimulus F32)) [19.58, 11.39, 4.90] 1e-3 = true := by
  decide +kernel

/-- test/colorsystem.cpp:107-122 -/
example : near3 (Tristimulus.fromPlanckianLocus (lit 6504 : F32) (lit 1)).toYxy [1, 0.3127, 0.3290] 1e-2 = true ∧
    near3 (Tristimulus.fromCT (lit 6504 : F32) (lit 1)).toYxy [1, 0.3127, 0.3290] 1e-2 = true := by
  decide +kernel

/-- test/matrices.cpp:9-31 -/
example : near9 (GamutConvert ACES2065 ACEScg : Matrix3 F32) [1.4514393161, -0.2365107469, -0.2149285693,
      -0.0765537734, 1.1762296998, -0.0996759264, 0.0083161484, -0.0060324498, 0.9977163014] 1e-6 = true ∧
    near9 (Bradford Illuminant_D65 Illuminant_D50 : Matrix3 F32) [1.047886, 0.022919, -0.050216, 0.029582,
      0.990484, -0.017079, -0.009252, 0.015073, 0.751678] 1e-2 = true := by
  decide +kernel

/-- test/units.cpp:9-18 -/
example : okNear ((CIE1931 : Observer F32).lumensFromMonochromaticFlux (lit 555) (lit 1)) 683 1e-3 = true ∧
    okNear3 ((CIE1931 : Observer F32).candellasFromMonochromaticRadiance (lit 555) (lit 1))
      [349.730225, 683, 3.927249] 1e-3 = true := by
  decide +kernel

/-- test/illuminants.cpp:9-24 -/
example : near (Illuminant_D65 : Tristimulus F32).toYxy.b 0.3127 1e-4 = true ∧
    near (Illuminant_D65 : Tristimulus F32).toYxy.c 0.3290 1e-4 = true ∧
    near (Illuminant_E : Tristimulus F32).toYxy.b (1 / 3) 1e-4 = true ∧
    near (Illuminant_E : Tristimulus F32).toYxy.c (1 / 3) 1e-4 = true ∧
    near (Illuminant_D50 : Tristimulus F32).toYxy.b 0.345703 1e-4 = true ∧
    near (Illuminant_D50 : Tristimulus F32).toYxy.c 0.358539 1e-4 = true ∧
    near (Illuminant_D60 : Tristimulus F32).toYxy.b 0.32168 1e-4 = true ∧
    near (Illuminant_D60 : Tristimulus F32).toYxy.c 0.33767 1e-4 = true := by
  decide +kernel

end CS.Validation
