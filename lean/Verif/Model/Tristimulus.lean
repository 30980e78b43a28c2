import Verif.Model.Matrix
import Verif.Model.Outcome

/-!
# `util::sqrtf` and `Tristimulus`  (`include/colorsystem.hpp` 23-47, 180-491)
-/

namespace CS

namespace Util
variable {α : Type} [Arith α]

/-- `util::Detail::sqrtNewtonRaphsonF` (hpp:27-30).  `none` means the recursion never returns. -/
def sqrtNewtonRaphsonF (x curr prev : α) : Option α :=
  if Arith.eq curr prev then some curr
  else sqrtNewtonRaphsonF x (lit 0.5 * (curr + x / curr)) curr
partial_fixpoint

/-- Result of `util::sqrtf`: the recursion may diverge (`none`), the guard may fail (`quiet_NaN`). -/
inductive SqrtRes (α : Type) where
  | val (v : α)
  | quietNaN

/-- `util::sqrtf` (hpp:40-44).  `ltInf x` is the comparison `x < infinity`; it is a parameter because the
exact-arithmetic reading has no infinity. -/
def sqrtf (ltInf : α → Bool) (x : α) : Option (SqrtRes α) :=
  if Arith.le (lit 0) x && ltInf x then (sqrtNewtonRaphsonF x x (lit 0)).map .val
  else some .quietNaN

end Util

/-- `static const float PI` (hpp:47). -/
def PI {α : Type} [Arith α] : α := lit 3.14159265358979323846

/-- `class Tristimulus` (hpp:180-491).  The wrapped `Vector3 v_` is three fields; `t[0]`, `t[1]`,
`t[2]` are `a`, `b`, `c`. -/
@[ext] structure Tristimulus (α : Type) where
  a : α
  b : α
  c : α

namespace Tristimulus
variable {α : Type}

/-- `Tristimulus(const Vector3 &v)` (hpp:187). -/
def ofVec3 (v : Vector3 α) : Tristimulus α := ⟨v.x, v.y, v.z⟩
/-- `Tristimulus::vec3` (hpp:195). -/
def vec3 (t : Tristimulus α) : Vector3 α := ⟨t.a, t.b, t.c⟩
/-- `Tristimulus(const float &v)` (hpp:188). -/
def splat (v : α) : Tristimulus α := ⟨v, v, v⟩

variable [Arith α]

/-- `Tristimulus()` (hpp:186). -/
def zero : Tristimulus α := ⟨lit 0, lit 0, lit 0⟩

/-- `Tristimulus::scale`, `operator*(float)` (hpp:200-205). -/
def scale (t : Tristimulus α) (s : α) : Tristimulus α := ⟨t.a * s, t.b * s, t.c * s⟩
/-- `operator/(float)` (hpp:206). -/
def sdiv (t : Tristimulus α) (s : α) : Tristimulus α := t.scale (lit 1 / s)
/-- `Tristimulus::apply(t, m)` (hpp:209-213). -/
def apply (t : Tristimulus α) (m : Matrix3 α) : Tristimulus α := ofVec3 (m.apply t.vec3)
/-- `Tristimulus::add`, `operator+` (hpp:215-220). -/
def add (a b : Tristimulus α) : Tristimulus α := ⟨a.a + b.a, a.b + b.b, a.c + b.c⟩
/-- `Tristimulus::mul`, `operator*(Tristimulus)` (hpp:222-227). -/
def mul (a b : Tristimulus α) : Tristimulus α := ⟨a.a * b.a, a.b * b.b, a.c * b.c⟩
/-- `Tristimulus::dot` (hpp:228-232). -/
def dot (a b : Tristimulus α) : α := a.a * b.a + a.b * b.b + a.c * b.c

/-- `Tristimulus::mini` (hpp:233). -/
def mini (a b : α) : α := if Arith.lt a b then a else b
/-- `Tristimulus::maxi` (hpp:234): `(a > b) ? a : b`. -/
def maxi (a b : α) : α := if Arith.lt b a then a else b
/-- `Tristimulus::min` (hpp:235-238, 243). -/
def min (a b : Tristimulus α) : Tristimulus α := ⟨mini a.a b.a, mini a.b b.b, mini a.c b.c⟩
/-- `Tristimulus::max` (hpp:239-242, 244). -/
def max (a b : Tristimulus α) : Tristimulus α := ⟨maxi a.a b.a, maxi a.b b.b, maxi a.c b.c⟩
/-- `Tristimulus::min3` (hpp:246). -/
def min3 (t : Tristimulus α) : α := mini (mini t.a t.b) t.c
/-- `Tristimulus::max3` (hpp:247). -/
def max3 (t : Tristimulus α) : α := maxi (maxi t.a t.b) t.c
/-- `Tristimulus::clip` (hpp:249-253). -/
def clip (t : Tristimulus α) (l h : α) : Tristimulus α := max (min t (splat h)) (splat l)
/-- `Tristimulus::positive` (hpp:254-255). -/
def positive (t : Tristimulus α) : Tristimulus α := max t (splat (lit 0))
/-- `Tristimulus::isNegative` (hpp:256). -/
def isNegative (a : α) : Bool := Arith.lt a (lit 0)
/-- `Tristimulus::hasNegative` (hpp:257-258). -/
def hasNegative (t : Tristimulus α) : Bool := isNegative t.a || isNegative t.b || isNegative t.c
/-- `Tristimulus::abs_f` (hpp:259). -/
def abs_f (f : α) : α := if Arith.lt f (lit 0) then -f else f

/-- `Tristimulus::z_from_xy` (hpp:261). -/
def z_from_xy (x y : α) : α := lit 1 - x - y
/-- `Tristimulus::X_from_Yxy` (hpp:262-265). -/
def X_from_Yxy (Y x y : α) : α := if Arith.lt (abs_f y) (lit 1e-8) then lit 0 else x * Y / y
/-- `Tristimulus::Y_from_Yxy` (hpp:266-271). -/
def Y_from_Yxy (Y _x _y : α) : α := Y
/-- `Tristimulus::Z_from_Yxy` (hpp:272-275). -/
def Z_from_Yxy (Y x y : α) : α :=
  if Arith.lt (abs_f y) (lit 1e-8) then lit 0 else z_from_xy x y * Y / y
/-- `Tristimulus::Y_from_XYZ` (hpp:276-281). -/
def Y_from_XYZ (_x y _z : α) : α := y
/-- `Tristimulus::x_from_XYZ` (hpp:282-285). -/
def x_from_XYZ (x y z : α) : α :=
  if Arith.lt (abs_f (x + y + z)) (lit 1e-8) then lit 0.3127 else x / (x + y + z)
/-- `Tristimulus::y_from_XYZ` (hpp:286-289). -/
def y_from_XYZ (x y z : α) : α :=
  if Arith.lt (abs_f (x + y + z)) (lit 1e-8) then lit 0.3290 else y / (x + y + z)
/-- `Tristimulus::fromYxy(Y, x, y)` (hpp:290-293). -/
def fromYxy3 (Y x y : α) : Tristimulus α := ⟨X_from_Yxy Y x y, Y_from_Yxy Y x y, Z_from_Yxy Y x y⟩
/-- `Tristimulus::toYxy(X, Y, Z)` (hpp:294-297). -/
def toYxy3 (X Y Z : α) : Tristimulus α := ⟨Y_from_XYZ X Y Z, x_from_XYZ X Y Z, y_from_XYZ X Y Z⟩
/-- `Tristimulus::fromYxy` (hpp:298, 301). -/
def fromYxy (t : Tristimulus α) : Tristimulus α := fromYxy3 t.a t.b t.c
/-- `Tristimulus::toYxy` (hpp:299, 302). -/
def toYxy (t : Tristimulus α) : Tristimulus α := toYxy3 t.a t.b t.c

/-- `Tristimulus::u_from_xy` (hpp:312). -/
def u_from_xy (x y : α) : α := lit 4 * x / (-(lit 2) * x + lit 12 * y + lit 3)
/-- `Tristimulus::v_from_xy` (hpp:313). -/
def v_from_xy (x y : α) : α := lit 6 * y / (-(lit 2) * x + lit 12 * y + lit 3)
/-- `Tristimulus::x_from_uv` (hpp:314). -/
def x_from_uv (u v : α) : α := lit 3 * u / (lit 2 * u - lit 8 * v + lit 4)
/-- `Tristimulus::y_from_uv` (hpp:315). -/
def y_from_uv (u v : α) : α := lit 2 * v / (lit 2 * u - lit 8 * v + lit 4)
/-- `Tristimulus::YxyToYuv` (hpp:316-319). -/
def YxyToYuv (t : Tristimulus α) : Tristimulus α := ⟨t.a, u_from_xy t.b t.c, v_from_xy t.b t.c⟩
/-- `Tristimulus::YuvToYxy` (hpp:320-323). -/
def YuvToYxy (t : Tristimulus α) : Tristimulus α := ⟨t.a, x_from_uv t.b t.c, y_from_uv t.b t.c⟩
/-- `Tristimulus::toYuv` (hpp:324-328, 334). -/
def toYuv (t : Tristimulus α) : Tristimulus α := YxyToYuv (toYxy t)
/-- `Tristimulus::fromYuv` (hpp:329-333, 335). -/
def fromYuv (t : Tristimulus α) : Tristimulus α := fromYxy (YuvToYxy t)

/-- `Tristimulus::blackbody_x_approx` (hpp:338-344).  The C++ text evaluates in
`double` and rounds once at the end: see `Mixed.blackbody_x_approx`; this one is for exact arithmetic. -/
def blackbody_x_approx (T : α) : α :=
  lit 0.811973208 + T * (lit (-0.00016747) + T * (lit 0.00000000331067 +
    T * (lit 0.00000000000690001 + T * (lit (-1.39671e-15) + T * (lit 1.11951e-19 +
      T * lit (-3.31672e-24))))))
/-- `Tristimulus::blackbody_y_approx` (hpp:345-350).  As above. -/
def blackbody_y_approx (T : α) : α :=
  lit 0.136977825 + T * (lit 0.000317653 + T * (lit (-0.000000127946) +
    T * (lit 0.0000000000222415 + T * (lit (-1.81438e-15) + T * lit 5.67564e-20))))

/-- The `x` computed in `fromPlanckianLocus` (hpp:355-357). -/
def planckianX (T : α) : α :=
  if Arith.lt T (lit 4000) then
    (lit (-0.2661239e9) / (T * T * T)) - (lit 0.2343580e6 / (T * T)) + (lit 0.8776956e3 / T)
      + lit 0.179910
  else
    (lit (-3.0258469e9) / (T * T * T)) + (lit 2.1070379e6 / (T * T)) + (lit 0.2226347e3 / T)
      + lit 0.240390
/-- The `y` computed in `fromPlanckianLocus` from `T` and `x` (hpp:358-362). -/
def planckianY (T x : α) : α :=
  if Arith.lt T (lit 2222) then
    (lit (-1.1063814) * x * x * x) - (lit 1.34811020 * x * x) + (lit 2.18555832 * x) - lit 0.20219683
  else if Arith.lt T (lit 4000) then
    lit (-1.1063814) * x * x * x - lit 1.34811020 * x * x + lit 2.18555832 * x - lit 0.20219683
  else
    lit 3.0817580 * x * x * x - lit 5.87338670 * x * x + lit 3.75112997 * x - lit 0.37001483
/-- `Tristimulus::fromPlanckianLocus` (hpp:353-364). -/
def fromPlanckianLocus (T Y : α) : Tristimulus α :=
  let x := planckianX T
  let y := planckianY T x
  fromYxy ⟨Y, x, y⟩
/-- `Tristimulus::fromCT` (hpp:365-368). -/
def fromCT (T Y : α) : Tristimulus α := fromYxy ⟨Y, blackbody_x_approx T, blackbody_y_approx T⟩

/-- The common part of `CCT_x_approx` and `CCT_y_approx` (hpp:371-381, 386-396): `(u1, v1, du, dv)`. -/
def cctFrame (T : α) : α × α × α × α :=
  let x1 := blackbody_x_approx T
  let y1 := blackbody_y_approx T
  let u1 := u_from_xy x1 y1
  let v1 := v_from_xy x1 y1
  let x2 := blackbody_x_approx (T - lit 1)
  let y2 := blackbody_y_approx (T - lit 1)
  let u2 := u_from_xy x2 y2
  let v2 := v_from_xy x2 y2
  (u1, v1, u2 - u1, v2 - v1)

/-- `Tristimulus::CCT_x_approx` (hpp:369-383), given the value `l` returned by `util::sqrtf`. -/
def CCT_x_approx (T dUV l : α) : α :=
  let (u1, v1, du, dv) := cctFrame T
  x_from_uv (u1 - dUV * dv / l) (v1 + dUV * du / l)
/-- `Tristimulus::CCT_y_approx` (hpp:384-398), given the value `l` returned by `util::sqrtf`. -/
def CCT_y_approx (T dUV l : α) : α :=
  let (u1, v1, du, dv) := cctFrame T
  y_from_uv (u1 - dUV * dv / l) (v1 + dUV * du / l)
/-- The argument of `util::sqrtf` in `CCT_x_approx`/`CCT_y_approx` (hpp:381, 396). -/
def cctNormSq (T : α) : α :=
  let (_, _, du, dv) := cctFrame T
  du * du + dv * dv
/-- `Tristimulus::fromCCT` (hpp:399-402).  `usqrt` is `util::sqrtf` (`none`: does not return), a
parameter because its NaN result has no exact-arithmetic reading. -/
def fromCCT (usqrt : α → Option α) (T dUV Y : α) : Option (Tristimulus α) :=
  (usqrt (cctNormSq T)).map fun l => fromYxy ⟨Y, CCT_x_approx T dUV l, CCT_y_approx T dUV l⟩

/-- `Tristimulus::mod360` (hpp:442-445).  `none` means the recursion never returns. -/
def mod360 (r : α) : Option α :=
  if Arith.lt r (lit 0) then mod360 (r + lit 360)
  else if Arith.lt (lit 360) r then mod360 (r - lit 360) else some r
partial_fixpoint

/-- The hue, before wrapping, computed by `toHSV` (hpp:456-463). -/
def rawHue (t : Tristimulus α) : α :=
  let max := maxi (maxi t.a t.b) t.c
  let min := mini (mini t.a t.b) t.c
  let d := max - min
  if Arith.eq max min then lit 0
  else if Arith.eq max t.a then lit 60 * (t.b - t.c) / d
  else if Arith.eq max t.b then lit 60 * (t.c - t.a) / d + lit 120
  else lit 60 * (t.a - t.b) / d + lit 240
/-- `Tristimulus::toHSV` (hpp:454-465, 489).  `none`: the hue wrap never returns. -/
def toHSV (t : Tristimulus α) : Option (Tristimulus α) :=
  let max := maxi (maxi t.a t.b) t.c
  let min := mini (mini t.a t.b) t.c
  let d := max - min
  (mod360 (rawHue t)).map fun h => ⟨h, if Arith.eq max (lit 0) then lit 0 else d / max, max⟩

/-- The part of `fromHSV` after the wrap (hpp:470-486). -/
def fromHSVwrapped (h s v : α) : Except UB (Tristimulus α) :=
  match Arith.toInt (h / lit 60) with
  | none => .error .badCast
  | some d =>
    let i := Int.tmod d 6
    let r := (h / lit 60) - Arith.ofInt d
    let m := v * (lit 1 - s)
    let n := v * (lit 1 - s * r)
    let p := v * (lit 1 - s * (lit 1 - r))
    .ok (if i = 0 then ⟨v, p, m⟩
      else if i = 1 then ⟨n, v, m⟩
      else if i = 2 then ⟨m, v, p⟩
      else if i = 3 then ⟨m, n, v⟩
      else if i = 4 then ⟨p, m, v⟩
      else if i = 5 then ⟨v, m, n⟩
      else ⟨lit 0, lit 0, lit 0⟩)
/-- `Tristimulus::fromHSV` (hpp:467-487, 490).  `none`: the hue wrap never returns. -/
def fromHSV (t : Tristimulus α) : Option (Except UB (Tristimulus α)) :=
  (mod360 t.a).map fun h => fromHSVwrapped h t.b t.c

end Tristimulus

namespace Tristimulus
variable {α : Type} [Libm α]

/-- `Tristimulus::CIELAB_curve` (hpp:405-410). -/
def CIELAB_curve (f : α) : α :=
  let threshold := lit 216 / lit 24389
  let K := lit 24389 / lit 27
  if Arith.lt (lit 1) f then lit 1
  else if Arith.lt threshold f then Libm.powf f (lit 1 / lit 3) else (K * f + lit 16) / lit 116
/-- `Tristimulus::CIELAB_decurve` (hpp:411-415). -/
def CIELAB_decurve (f : α) : α :=
  let K := (lit 3 / lit 29) * (lit 3 / lit 29) * (lit 3 / lit 29)
  if Arith.lt (lit 1) f then lit 1
  else if Arith.lt (lit 6 / lit 29) f then Libm.powf f (lit 3) else (lit 116 * f - lit 16) * K
/-- `Tristimulus::toCIELAB(t, white)` (hpp:416-425). -/
def toCIELAB (t white : Tristimulus α) : Tristimulus α :=
  let x1 := CIELAB_curve (t.a / white.a)
  let y1 := CIELAB_curve (t.b / white.b)
  let z1 := CIELAB_curve (t.c / white.c)
  ⟨lit 116 * y1 - lit 16, lit 500 * (x1 - y1), lit 200 * (y1 - z1)⟩
/-- `Tristimulus::fromCIELAB(t, white)` (hpp:426-435). -/
def fromCIELAB (t white : Tristimulus α) : Tristimulus α :=
  let fy := (t.a + lit 16) / lit 116
  let fx := fy + (t.b / lit 500)
  let fz := fy - (t.c / lit 200)
  ⟨CIELAB_decurve fx * white.a, CIELAB_decurve fy * white.b, CIELAB_decurve fz * white.c⟩
/-- The default white of `toCIELAB()`/`fromCIELAB()` (hpp:439-440). -/
def labWhiteD50 : Tristimulus α := ⟨lit 0.9642, lit 1.0, lit 0.8249⟩
/-- `Tristimulus::toCIELAB()` (hpp:439). -/
def toCIELAB0 (t : Tristimulus α) : Tristimulus α := toCIELAB t labWhiteD50
/-- `Tristimulus::fromCIELAB()` (hpp:440). -/
def fromCIELAB0 (t : Tristimulus α) : Tristimulus α := fromCIELAB t labWhiteD50

/-- `Tristimulus::toHSV_atan` (hpp:446-453). -/
def toHSV_atan (t : Tristimulus α) : Option (Tristimulus α) :=
  let max := maxi (maxi t.a t.b) t.c
  let min := mini (mini t.a t.b) t.c
  (mod360 ((lit 180 / PI) *
      Libm.atan2f (Libm.sqrtf (lit 3) * (t.b - t.c)) (lit 2 * t.a - t.b - t.c))).map fun h =>
    ⟨h, if Arith.eq max (lit 0) then lit 0 else (max - min) / max, max⟩

end Tristimulus
end CS
