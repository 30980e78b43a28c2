import Verif.Model.Tristimulus
import Verif.Data.CIE
import Verif.Data.Macbeth
import Verif.Data.TM30

/-!
# `Spectrum`, `Observer`, the sample tables and the colour checker
(`include/colorsystem.hpp` 1236-1351, 1542-7387)
-/

namespace CS

/-- `class Spectrum` (hpp:1236-1351): `std::array<float, 400>`. -/
abbrev Spectrum (α : Type) := Fin 400 → α

namespace Spectrum
variable {α : Type}

/-- `Spectrum::s_[i]` in a loop `for (int i = 0; i < n; i++)`: run the body for each index in order and
stop at the first failure. -/
def build : (n : ℕ) → (Fin n → Except UB α) → Except UB (Fin n → α)
  | 0, _ => .ok fun i => i.elim0
  | n + 1, f => do
    let a ← build n fun i => f i.castSucc
    let x ← f (Fin.last n)
    return Fin.snoc (α := fun _ => α) a x

variable [Arith α]

/-- `Spectrum()` (hpp:1242). -/
def zero : Spectrum α := fun _ => lit 0
/-- A table of the header used as a constructor argument (hpp:1243). -/
def ofTable (t : Data.Table) : Spectrum α := fun i => lit (t.q i)

/-- `Spectrum::lerp` (hpp:1244). -/
def lerp (a b r : α) : α := a * (lit 1 - r) + b * r

/-- Result of a 32-bit signed operation. -/
def int32 (i : ℤ) : Except UB ℤ := if intMin ≤ i ∧ i ≤ intMax then .ok i else .error .signedOverflow
/-- `sample[i]` for a C array holding the elements of `l`. -/
def at' (l : List α) (i : ℤ) : Except UB α :=
  if i < 0 then .error .outOfBounds
  else match l[i.toNat]? with
    | some x => .ok x
    | none => .error .outOfBounds

/-- `Spectrum::fetch(sample, samples, lo, hi, t)` (hpp:1245-1255).  `sample` points to an array with the
elements of the list. -/
def fetchFrom (sample : List α) (samples : ℤ) (lo hi t : α) : Except UB α := do
  let count ← int32 (samples - 1)
  match Arith.toInt (Arith.ofInt count * (t - lo) / (hi - lo)) with
  | none => .error .badCast
  | some index =>
    let l := Arith.ofInt index * (hi - lo) / Arith.ofInt count
    let i1 ← int32 (index + 1)
    let h := Arith.ofInt i1 * (hi - lo) / Arith.ofInt count
    if index ≥ count then at' sample count
    else if index ≤ 0 then at' sample 0
    else do
      let x ← at' sample index
      let y ← at' sample (index + 1)
      return lerp x y ((t - l - lo) / (h - l))

/-- `Spectrum::fetch(lambda)` (hpp:1256). -/
def fetch (s : Spectrum α) (lambda : α) : Except UB α :=
  fetchFrom (List.ofFn s) 400 (lit 380) (lit 779) lambda

/-- `Spectrum(const float *sample, int samples, lo, hi)` (hpp:1258-1264). -/
def ofSamples (sample : List α) (samples : ℤ) (lo hi : α) : Except UB (Spectrum α) :=
  build 400 fun i => fetchFrom sample samples lo hi (lit 380 + Arith.ofInt i.val)

/-- `Spectrum::E` (hpp:1292-1300). -/
def E (e : α) : Spectrum α := fun _ => e
/-- `Spectrum::mul(a, float)`, `operator*(float)` (hpp:1301-1309, 1328). -/
def scale (a : Spectrum α) (b : α) : Spectrum α := fun i => a i * b
/-- `Spectrum::mul(a, b)`, `operator*` (hpp:1310-1318, 1329). -/
def mul (a b : Spectrum α) : Spectrum α := fun i => a i * b i
/-- `Spectrum::add`, `operator+` (hpp:1319-1327, 1330). -/
def add (a b : Spectrum α) : Spectrum α := fun i => a i + b i

/-- `Spectrum::sumHelper` (hpp:1331-1334). -/
def sumHelper (a : Spectrum α) : (i : ℕ) → i < 400 → α
  | 0, _ => a 0
  | i + 1, h => sumHelper a i (by omega) + a ⟨i + 1, h⟩
/-- `Spectrum::sum` (hpp:1335-1336). -/
def sum (a : Spectrum α) : α := sumHelper a 399 (by decide)
/-- `Spectrum::dotHelper` (hpp:1337-1340). -/
def dotHelper (a b : Spectrum α) : (i : ℕ) → i < 400 → α
  | 0, _ => a 0 * b 0
  | i + 1, h => a ⟨i + 1, h⟩ * b ⟨i + 1, h⟩ + dotHelper a b i (by omega)
/-- `Spectrum::dot` (hpp:1341-1342). -/
def dot (a b : Spectrum α) : α := dotHelper a b 399 (by decide)
/-- `Spectrum::dotHelper3` (hpp:1343-1346). -/
def dotHelper3 (a b c : Spectrum α) : (i : ℕ) → i < 400 → α
  | 0, _ => a 0 * b 0 * c 0
  | i + 1, h => a ⟨i + 1, h⟩ * b ⟨i + 1, h⟩ * c ⟨i + 1, h⟩ + dotHelper3 a b c i (by omega)
/-- `Spectrum::dot3` (hpp:1347-1350). -/
def dot3 (a b c : Spectrum α) : α := dotHelper3 a b c 399 (by decide)

end Spectrum

namespace Spectrum
variable {α : Type} [Libm α]

/-- `Spectrum::planck` (hpp:1269-1281).  The C++ text evaluates in `double`, rounds to
`float` once and divides by `1e9f`: see `Mixed.planck`; this one is for exact arithmetic. -/
def planck (T l : α) : α :=
  let hcc : α := lit 5.950379064e-17
  let hc_k : α := lit 1.438776827e-2
  let arg1 := lit 2 * hcc
  (arg1 * Libm.powf l (lit (-5)) / (Libm.expf (hc_k / (l * T)) - lit 1)) / lit 1e9
/-- `Spectrum::blackbody` (hpp:1283-1291). -/
def blackbody (temp : α) : Spectrum α :=
  fun i => planck temp ((lit 380 + Arith.ofInt i.val) * lit 1e-9)

end Spectrum

/-- `class Observer` (hpp:1542-1583). -/
structure Observer (α : Type) where
  X : Spectrum α
  Y : Spectrum α
  Z : Spectrum α
  normalize : Tristimulus α

namespace Observer
variable {α : Type} [Arith α]

/-- The constructor (hpp:1547-1551). -/
def mk3 (X Y Z : Spectrum α) : Observer α :=
  ⟨X, Y, Z, ⟨lit 1 / X.sum, lit 1 / Y.sum, lit 1 / Z.sum⟩⟩
/-- `Observer::SpectrumIntegrate` (hpp:1552-1556). -/
def SpectrumIntegrate (s x y z : Spectrum α) : Tristimulus α := ⟨s.dot x, s.dot y, s.dot z⟩
/-- `Observer::SpectrumIntegrate3` (hpp:1557-1561). -/
def SpectrumIntegrate3 (r l x y z : Spectrum α) : Tristimulus α :=
  ⟨Spectrum.dot3 r l x, Spectrum.dot3 r l y, Spectrum.dot3 r l z⟩
/-- `Observer::fromSpectrum` (hpp:1562-1565). -/
def fromSpectrum (o : Observer α) (s : Spectrum α) : Tristimulus α :=
  (SpectrumIntegrate s o.X o.Y o.Z).mul o.normalize
/-- `Observer::fromReflectanceAndLight` (hpp:1566-1569). -/
def fromReflectanceAndLight (o : Observer α) (r l : Spectrum α) : Tristimulus α :=
  (SpectrumIntegrate3 r l o.X o.Y o.Z).mul o.normalize
/-- `Observer::lumensFromMonochromaticFlux` (hpp:1570-1573). -/
def lumensFromMonochromaticFlux (o : Observer α) (lambda watt : α) : Except UB α := do
  let y ← o.Y.fetch lambda
  return y * watt * lit 683
/-- The three lookups of hpp:1577 and 1581. -/
def fetch3 (o : Observer α) (lambda : α) : Except UB (Tristimulus α) := do
  let x ← o.X.fetch lambda
  let y ← o.Y.fetch lambda
  let z ← o.Z.fetch lambda
  return ⟨x, y, z⟩
/-- `Observer::candellasFromMonochromaticRadiance` (hpp:1574-1578). -/
def candellasFromMonochromaticRadiance (o : Observer α) (lambda watt_per_sr_m2 : α) :
    Except UB (Tristimulus α) := do
  let t ← o.fetch3 lambda
  return (t.scale (lit 683)).scale watt_per_sr_m2
/-- `Observer::xyz` (hpp:1579-1582). -/
def xyz (o : Observer α) (lambda : α) : Except UB (Tristimulus α) := do
  let t ← o.fetch3 lambda
  return t.mul o.normalize

end Observer

section tables
variable {α : Type} [Arith α]

/-- `CIE1931` (hpp:2116). -/
def CIE1931 : Observer α :=
  .mk3 (.ofTable Data.CIE.CIE1931_X) (.ofTable Data.CIE.CIE1931_Y) (.ofTable Data.CIE.CIE1931_Z)
/-- `CIE31JV` (hpp:2117). -/
def CIE31JV : Observer α :=
  .mk3 (.ofTable Data.CIE.CIE1931_JuddVos_X) (.ofTable Data.CIE.CIE1931_JuddVos_Y)
    (.ofTable Data.CIE.CIE1931_JuddVos_Z)
/-- `CIE2012` (hpp:2118). -/
def CIE2012 : Observer α :=
  .mk3 (.ofTable Data.CIE.CIE2012_X) (.ofTable Data.CIE.CIE2012_Y) (.ofTable Data.CIE.CIE2012_Z)
/-- `CIE_D65`, the daylight table (hpp:2070). -/
def CIE_D65 : Spectrum α := .ofTable Data.CIE.CIE_D65

/-- `Macbeth::Patch` (hpp:7350-7375). -/
def Macbeth.Patch : List (Spectrum α) := Data.Macbeth.Patch.map .ofTable
/-- `Macbeth::reference` (hpp:7377-7385): one entry per patch, in order. -/
def Macbeth.reference (light : Spectrum α) (obs : Observer α) : List (Tristimulus α) :=
  Macbeth.Patch.map fun p => obs.fromReflectanceAndLight p light
/-- `TM_30_15::sample`. -/
def TM_30_15.sample : List (Spectrum α) := Data.TM30.sample.map .ofTable
end tables

end CS
