import Verif.Model.Gamut
import Verif.Model.OTF

/-!
# ICtCp, OKLAB and colour differences  (`include/colorsystem.hpp` 1397-1540)
-/

namespace CS
variable {α : Type} [Libm α]
open Libm

/-- `HPE_LMS` (hpp:1400-1401, 1411-1412). -/
def HPE_LMS : Gamut α := .ofFromXYZ "HPE_LMS"
  ⟨lit 0.3592, lit 0.6976, lit (-0.0358), lit (-0.1922), lit 1.1004, lit 0.0755, lit 0.0070,
   lit 0.0749, lit 0.8434⟩

/-- The linear part of `XYZ_to_ICtCp` (hpp:1404-1405). -/
def pqToICtCp (pq : Tristimulus α) : Tristimulus α :=
  ⟨(pq.a + pq.b) * lit 0.5, (lit 6610 * pq.a - lit 13613 * pq.b + lit 7003 * pq.c) / lit 4096,
   (lit 17933 * pq.a - lit 17390 * pq.b - lit 543 * pq.c) / lit 4096⟩
/-- `XYZ_to_ICtCp` (hpp:1397-1406). -/
def XYZ_to_ICtCp (xyz : Tristimulus α) : Tristimulus α :=
  let lms := (HPE_LMS : Gamut α).fromXYZ xyz
  pqToICtCp ⟨OTF.Y_to_ST2084 lms.a, OTF.Y_to_ST2084 lms.b, OTF.Y_to_ST2084 lms.c⟩

/-- The linear part of `ICtCp_to_XYZ` (hpp:1413-1415). -/
def ICtCpToPq (icc : Tristimulus α) : Tristimulus α :=
  ⟨icc.a + lit 0.00860904 * icc.b + lit 0.11103 * icc.c,
   icc.a - lit 0.00860904 * icc.b - lit 0.11103 * icc.c,
   icc.a + lit 0.560031 * icc.b - lit 0.320627 * icc.c⟩
/-- `ICtCp_to_XYZ` (hpp:1408-1417). -/
def ICtCp_to_XYZ (icc : Tristimulus α) : Tristimulus α :=
  let pq := ICtCpToPq icc
  (HPE_LMS : Gamut α).toXYZ ⟨OTF.ST2084_to_Y pq.a, OTF.ST2084_to_Y pq.b, OTF.ST2084_to_Y pq.c⟩

/-- `m1` (hpp:1422-1423, 1457-1458). -/
def oklabM1 : Matrix3 α :=
  ⟨lit 0.8189330101, lit 0.3618667424, lit (-0.1288597137), lit (-0.0329845436), lit 0.9293118715,
   lit 0.0361456387, lit 0.0482003018, lit 0.2643662691, lit 0.6338517070⟩
/-- `m2` (hpp:1424-1425, 1459-1460). -/
def oklabM2 : Matrix3 α :=
  ⟨lit 0.2104542553, lit 0.7936177850, lit (-0.0040720468), lit 1.9779984951, lit (-2.4285922050),
   lit 0.4505937099, lit 0.0259040371, lit 0.7827717662, lit (-0.8086757660)⟩

/-- `XYZ_to_OKLAB` (hpp:1419-1453).  The debugging `printf`s of hpp:1428-1448 are not modelled. -/
def XYZ_to_OKLAB (xyz : Tristimulus α) : Tristimulus α :=
  let lms := xyz.apply oklabM1
  let dash : Tristimulus α := ⟨cbrtf lms.a, cbrtf lms.b, cbrtf lms.c⟩
  dash.apply oklabM2
/-- `OKLAB_to_XYZ` (hpp:1455-1466). -/
def OKLAB_to_XYZ (lab : Tristimulus α) : Tristimulus α :=
  let m1i := (oklabM1 : Matrix3 α).invert
  let m2i := (oklabM2 : Matrix3 α).invert
  let dash := lab.apply m2i
  let lms : Tristimulus α :=
    ⟨dash.a * dash.a * dash.a, dash.b * dash.b * dash.b, dash.c * dash.c * dash.c⟩
  lms.apply m1i

namespace Delta

/-- `Delta::UV` (hpp:1472-1475). -/
def UV (a b : Tristimulus α) : α :=
  sqrtf ((a.b - b.b) * (a.b - b.b) + (a.c - b.c) * (a.c - b.c))
/-- `Delta::E76` (hpp:1476-1480). -/
def E76 (a b : Tristimulus α) : α :=
  sqrtf ((a.a - b.a) * (a.a - b.a) + (a.b - b.b) * (a.b - b.b) + (a.c - b.c) * (a.c - b.c))

/-- The local `PI` of `Delta::E00` (hpp:1484). -/
def PI00 : α := lit 3.14159265358979323846264338327950288
/-- `pow25_7` (hpp:1496). -/
def pow25_7 : α := lit 25 * lit 25 * lit 25 * lit 25 * lit 25 * lit 25 * lit 25
/-- `G` (hpp:1492-1497) as a function of the two (a,b) pairs. -/
def G00 (a1 b1 a2 b2 : α) : α :=
  let C1 := sqrtf (a1 * a1 + b1 * b1)
  let C2 := sqrtf (a2 * a2 + b2 * b2)
  let Cbar := (C1 + C2) / lit 2
  let C7 := powf Cbar (lit 7)
  (lit 1 - sqrtf (C7 / (C7 + pow25_7))) / lit 2
/-- `h1`, `h2` (hpp:1503-1504). -/
def hue00 (b ad : α) : α := fmodf (lit 360 + atan2f b ad * lit 180 / PI00) (lit 360)
/-- `HdBar` (hpp:1505). -/
def hBar00 (h1 h2 : α) : α :=
  (if Arith.lt (lit 180) (fabs (h1 - h2)) then h1 + h2 + lit 360 else h1 + h2) / lit 2
/-- `T` (hpp:1506-1509). -/
def T00 (HdBar : α) : α :=
  let T1 := lit 1 - lit 0.17 * cosf (PI00 * (lit 1 * HdBar - lit 30) / lit 180)
  let T2 := lit 0.24 * cosf (PI00 * (lit 2 * HdBar) / lit 180)
    + lit 0.32 * cosf (PI00 * (lit 3 * HdBar + lit 6) / lit 180)
  let T3 := lit 0.20 * cosf (PI00 * (lit 4 * HdBar - lit 63) / lit 180)
  T1 + T2 - T3
/-- `deltah` (hpp:1510). -/
def dh00 (h1 h2 : α) : α :=
  if Arith.le (fabs (h2 - h1)) (lit 180) then h2 - h1
  else if Arith.le h2 h1 then h2 - h1 + lit 360 else h2 - h1 - lit 360
/-- `Rt` (hpp:1518-1522). -/
def Rt00 (HdBar CdBar : α) : α :=
  let HdBar2 := (HdBar - lit 275) * (HdBar - lit 275) / (lit 25 * lit 25)
  let deltaTheta := lit 30 * expf (-HdBar2)
  let CdBar7 := powf CdBar (lit 7)
  let Rc := lit 2 * sqrtf (CdBar7 / (CdBar7 + pow25_7))
  (-Rc) * sinf (lit 2 * deltaTheta * PI00 / lit 180)

/-- Everything `Delta::E00` computes before its final line: `dl`, `dc`, `dh`, `Rt`
(hpp:1485-1525). -/
def parts00 (lab1 lab2 : Tristimulus α) (Kl Kc Kh : α) : α × α × α × α :=
  let L1 := lab1.a
  let a1 := lab1.b
  let b1 := lab1.c
  let L2 := lab2.a
  let a2 := lab2.b
  let b2 := lab2.c
  let Lbar := (L1 + L2) / lit 2
  let G := G00 a1 b1 a2 b2
  let ad1 := a1 * (lit 1 + G)
  let ad2 := a2 * (lit 1 + G)
  let Cd1 := sqrtf (ad1 * ad1 + b1 * b1)
  let Cd2 := sqrtf (ad2 * ad2 + b2 * b2)
  let CdBar := (Cd1 + Cd2) / lit 2
  let h1 := hue00 b1 ad1
  let h2 := hue00 b2 ad2
  let HdBar := hBar00 h1 h2
  let T := T00 HdBar
  let deltah := dh00 h1 h2
  let deltaL := L2 - L1
  let deltaC := Cd2 - Cd1
  let deltaH := lit 2 * sqrtf (Cd1 * Cd2) * sinf (PI00 * deltah / (lit 180 * lit 2))
  let Lbar2 := (Lbar - lit 50) * (Lbar - lit 50)
  let Sl := lit 1 + lit 0.015 * Lbar2 / sqrtf (lit 20 + Lbar2)
  let Sc := lit 1 + lit 0.045 * CdBar
  let Sh := lit 1 + lit 0.015 * CdBar * T
  let Rt := Rt00 HdBar CdBar
  (deltaL / (Kl * Sl), deltaC / (Kc * Sc), deltaH / (Kh * Sh), Rt)

/-- The argument of the final `sqrtf` of `Delta::E00` (hpp:1527). -/
def radicand00 (lab1 lab2 : Tristimulus α) (Kl Kc Kh : α) : α :=
  let (dl, dc, dh, Rt) := parts00 lab1 lab2 Kl Kc Kh
  dl * dl + dc * dc + dh * dh + Rt * dc * dh
/-- `Delta::E00` (hpp:1481-1528). -/
def E00 (lab1 lab2 : Tristimulus α) (Kl Kc Kh : α) : α := sqrtf (radicand00 lab1 lab2 Kl Kc Kh)

/-- `Delta::ICtCp` (hpp:1531-1539). -/
def ICtCp (a_xyz b_xyz : Tristimulus α) : α :=
  let a := XYZ_to_ICtCp a_xyz
  let b := XYZ_to_ICtCp b_xyz
  let dI := a.a - b.a
  let dT := a.b - b.b
  let dP := a.c - b.c
  sqrtf (dI * dI + dT * dT * lit 0.25 + dP * dP)

end Delta
end CS
