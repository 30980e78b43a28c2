import Verif.Float.Convert
import Verif.Model.Tristimulus
import Verif.Model.OTF
import Verif.Model.Spectrum

/-!
# The expressions the header evaluates partly in `double`

The rest of the model has a single number type.  Here the functions in which C++ promotes to `double` (a `double`
literal or a `double` variable in the expression) are written with both types, every conversion explicit.  The
polymorphic text is reused where the whole expression is in one type.
-/

namespace CS.Mixed
open CS Arith F64

/-- `Tristimulus::blackbody_x_approx` (hpp:338-344): `double` polynomial in the promoted `T`, one conversion. -/
def blackbody_x_approx (T : F32) : F32 := toF32 (Tristimulus.blackbody_x_approx (ofF32 T))
/-- `Tristimulus::blackbody_y_approx` (hpp:345-350). -/
def blackbody_y_approx (T : F32) : F32 := toF32 (Tristimulus.blackbody_y_approx (ofF32 T))

/-- `Tristimulus::fromCT` (hpp:365-368). -/
def fromCT (T Y : F32) : Tristimulus F32 :=
  Tristimulus.fromYxy ⟨Y, blackbody_x_approx T, blackbody_y_approx T⟩

/-- `(u1, v1, du, dv)` of `CCT_x_approx` and `CCT_y_approx` (hpp:371-380, 386-395). -/
def cctFrame (T : F32) : F32 × F32 × F32 × F32 :=
  let x1 := blackbody_x_approx T
  let y1 := blackbody_y_approx T
  let u1 := Tristimulus.u_from_xy x1 y1
  let v1 := Tristimulus.v_from_xy x1 y1
  let x2 := blackbody_x_approx (T - lit 1)
  let y2 := blackbody_y_approx (T - lit 1)
  let u2 := Tristimulus.u_from_xy x2 y2
  let v2 := Tristimulus.v_from_xy x2 y2
  (u1, v1, u2 - u1, v2 - v1)

/-- `Tristimulus::CCT_x_approx` (hpp:369-383), given the value `l` returned by `util::sqrtf`. -/
def CCT_x_approx (T dUV l : F32) : F32 :=
  let (u1, v1, du, dv) := cctFrame T
  Tristimulus.x_from_uv (u1 - dUV * dv / l) (v1 + dUV * du / l)
/-- `Tristimulus::CCT_y_approx` (hpp:384-398), given the value `l` returned by `util::sqrtf`. -/
def CCT_y_approx (T dUV l : F32) : F32 :=
  let (u1, v1, du, dv) := cctFrame T
  Tristimulus.y_from_uv (u1 - dUV * dv / l) (v1 + dUV * du / l)
/-- The argument of `util::sqrtf` in `CCT_x_approx`/`CCT_y_approx` (hpp:381, 396). -/
def cctNormSq (T : F32) : F32 :=
  let (_, _, du, dv) := cctFrame T
  du * du + dv * dv
/-- `Tristimulus::fromCCT` (hpp:399-402); `usqrt` is `util::sqrtf` (`none`: does not return). -/
def fromCCT (usqrt : F32 → Option F32) (T dUV Y : F32) : Option (Tristimulus F32) :=
  (usqrt (cctNormSq T)).map fun l =>
    Tristimulus.fromYxy ⟨Y, CCT_x_approx T dUV l, CCT_y_approx T dUV l⟩

/-- `Spectrum::planck` (hpp:1269-1281): `double` throughout, converted to `float`, divided by `1e9f`, returned as
`double`.  `o` is the `double` library (`pow`, `exp`). -/
def planck (o : F64.Oracle) (T l : F64) : F64 :=
  let hcc : F64 := lit 5.950379064e-17
  let hc_k : F64 := lit 1.438776827e-2
  let arg1 := lit 2 * hcc
  ofF32 (toF32 (arg1 * o.powf l (lit (-5)) / (o.expf (hc_k / (l * T)) - lit 1)) / lit 1e9)
/-- `Spectrum::blackbody` (hpp:1283-1291). -/
def blackbody (o : F64.Oracle) (temp : F32) : Spectrum F32 :=
  fun i => toF32 (planck o (ofF32 temp) (ofF32 (lit 380 + Arith.ofInt i.val) * lit 1e-9))

/-- `OTF::Y_to_SLog` (hpp:656-661).  The clamp is in `float` (`0` and `10` converted); the argument of `log10f` is a
`double` sum converted back to `float`; the product is in `float`, the two last additions in `double`. -/
def Y_to_SLog (o : F32.Oracle) (x : F32) : F32 :=
  let xc : F32 := if lt x (lit 0) then lit 0 else if lt (lit 10) x then lit 10 else x
  toF32 (ofF32 (lit 0.432699 * o.log10f (toF32 (ofF32 xc + lit 0.037584))) + lit 0.616596 + lit 0.03)
/-- `OTF::SLog3_to_Y` (hpp:676-681).  The linear branch multiplies by the `double` `0.01125`. -/
def SLog3_to_Y (o : F32.Oracle) (x : F32) : F32 :=
  toF32 (if lt (lit 171.2102946929 / lit 1023) x
    then ofF32 (o.powf (lit 10) ((x * lit 1023 - lit 420) / lit 261.5) * lit 0.19 - lit 0.01)
    else ofF32 (x * lit 1023 - lit 95) * lit 0.01125 / ofF32 (lit 171.2102946929 - lit 95))

end CS.Mixed
