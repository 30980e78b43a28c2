import Verif.Model.Tristimulus

/-!
# `OTF`: transfer functions  (`include/colorsystem.hpp` 560-786)
-/

namespace CS
namespace OTF

/-- `OTF::TYPE` (hpp:563-574); `unknown` stands for any value outside the enumerators, which the
`switch` sends to `default`. -/
inductive TYPE where
  | LINEAR | GAMMA | SRGB | BT709 | ST2084 | SLOG | SLOG2 | SLOG3 | HLG | unknown
  deriving DecidableEq, Repr

variable {α : Type} [Libm α]
open Arith Libm

/-- `OTF::gamma` (hpp:576). -/
def gamma (v g : α) : α := powf v (lit 1 / g)
/-- `OTF::degamma` (hpp:577). -/
def degamma (v g : α) : α := powf v g

/-- hpp:580, 604 -/
def pq_m1 : α := lit 0.1593017578125
/-- hpp:581, 605 -/
def pq_m2 : α := lit 78.84375
/-- hpp:582, 606 -/
def pq_c1 : α := lit 0.8359375
/-- hpp:583, 607 -/
def pq_c2 : α := lit 18.8515625
/-- hpp:584, 608 -/
def pq_c3 : α := lit 18.6875
/-- hpp:585, 609 -/
def pq_C : α := lit 100

/-- `OTF::ST2084_to_Y` (hpp:578-596). -/
def ST2084_to_Y (pixel : α) : α :=
  let Np := powf pixel (lit 1 / pq_m2)
  let L := Np - pq_c1
  let L := if lt L (lit 0) then lit 0 else L
  let L := L / (pq_c2 - pq_c3 * Np)
  let L := powf L (lit 1 / pq_m1)
  L * pq_C
/-- `OTF::Y_to_ST2084` (hpp:598-618). -/
def Y_to_ST2084 (C : α) : α :=
  if le C (lit 0) then lit 0
  else if le (lit 100) C then lit 1
  else
    let L := C / pq_C
    let Lm := powf L pq_m1
    let N := (pq_c1 + pq_c2 * Lm) / (lit 1 + pq_c3 * Lm)
    powf N pq_m2
/-- `OTF::Y_to_sRGB` (hpp:619-624). -/
def Y_to_sRGB (C : α) : α :=
  if lt C (lit 0) then lit 0
  else if lt (lit 1) C then lit 1
  else if lt C (lit 0.0031308) then C * lit 12.92
  else lit 1.055 * powf C (lit 1.0 / lit 2.4) - lit 0.055
/-- `OTF::sRGB_to_Y` (hpp:625-628). -/
def sRGB_to_Y (C : α) : α :=
  if lt C (lit 0) then lit 0
  else if lt (lit 1) C then lit 1
  else if lt C (lit 0.04045) then C / lit 12.92
  else powf ((C + lit 0.055) / lit 1.055) (lit 2.4)
/-- `OTF::Y_to_BT709` (hpp:629-632). -/
def Y_to_BT709 (C : α) : α :=
  if lt C (lit 0) then lit 0
  else if lt (lit 1) C then lit 1
  else if lt C (lit 0.018) then C * lit 4.50
  else lit 1.099 * powf C (lit 0.45) - lit 0.099
/-- `OTF::BT709_to_Y` (hpp:633-637). -/
def BT709_to_Y (C : α) : α :=
  if lt C (lit 0) then lit 0
  else if lt (lit 1) C then lit 1
  else if lt C (lit 0.081) then C / lit 4.50
  else powf ((C + lit 0.099) / lit 1.099) (lit 1 / lit 0.45)
/-- `OTF::Y_to_HLG` (hpp:639-645). -/
def Y_to_HLG (C : α) : α :=
  let a := lit 0.17883277
  let b := lit 0.28466892
  let c := lit 0.55991073
  if lt C (lit 0) then lit 0
  else if lt C (lit 1) then lit 0.5 * sqrtf C
  else a * logf (C - b) + c
/-- `OTF::HLG_to_Y` (hpp:647-653). -/
def HLG_to_Y (C : α) : α :=
  let a := lit 0.17883277
  let b := lit 0.28466892
  let c := lit 0.55991073
  if lt C (lit 0) then lit 0
  else if le C (lit 0.5) then lit 4 * C * C
  else expf ((C - c) / a) + b
/-- `OTF::Y_to_SLog` (hpp:656-661).  Three additions are in `double` in the header: see
`Mixed.Y_to_SLog`; this one is for exact arithmetic. -/
def Y_to_SLog (x : α) : α :=
  let xc := if lt x (lit 0) then lit 0 else if lt (lit 10) x then lit 10 else x
  (lit 0.432699 * log10f (xc + lit 0.037584) + lit 0.616596) + lit 0.03
/-- `OTF::SLog_to_Y` (hpp:664-668). -/
def SLog_to_Y (x : α) : α :=
  powf (lit 10) ((x - lit 0.616596 - lit 0.03) / lit 0.432699) - lit 0.037584
/-- `OTF::Y_to_SLog3` (hpp:670-675).  The factor `261.5f` stands inside the logarithm, as in the
header. -/
def Y_to_SLog3 (x : α) : α :=
  let y := if lt (lit 0.01125) x
    then lit 420 + log10f ((x + lit 0.01) / lit 0.19 * lit 261.5)
    else x * (lit 171.2102946929 - lit 95) / lit 0.01125 + lit 95
  y / lit 1023
/-- `OTF::SLog3_to_Y` (hpp:676-681).  One factor is a `double` in the header: see `Mixed.SLog3_to_Y`. -/
def SLog3_to_Y (x : α) : α :=
  if lt (lit 171.2102946929 / lit 1023) x
    then powf (lit 10) ((x * lit 1023 - lit 420) / lit 261.5) * lit 0.19 - lit 0.01
    else (x * lit 1023 - lit 95) * lit 0.01125 / (lit 171.2102946929 - lit 95)
/-- `OTF::CV_to_IRE_SLog2` (hpp:683-688). -/
def CV_to_IRE_SLog2 (cv : α) : α :=
  let BLACK := lit 64 / lit 1024
  let WV := lit 876 / lit 1024
  (cv - BLACK) / WV
/-- `OTF::IRE_to_CV_SLog2` (hpp:689-694). -/
def IRE_to_CV_SLog2 (ire : α) : α :=
  let BLACK := lit 64 / lit 1024
  let WV := lit 876 / lit 1024
  (ire * WV) + BLACK
/-- `OTF::Y_to_SLog2` (hpp:695-700). -/
def Y_to_SLog2 (x : α) : α :=
  let y := if lt x (lit 0) then x * lit 3.53881278538813 + lit 0.030001222851889303
    else (lit 0.432699 * log10f (lit 155 * x / lit 219 + lit 0.037584) + lit 0.616596) + lit 0.03
  IRE_to_CV_SLog2 y
/-- `OTF::SLog2_to_Y` (hpp:701-708). -/
def SLog2_to_Y (C : α) : α :=
  let x := CV_to_IRE_SLog2 C
  let y := if le (lit 0.030001222851889303) x
    then lit 219 * (powf (lit 10) ((x - lit 0.616596 - lit 0.03) / lit 0.432699) - lit 0.037584)
      / lit 155
    else (x - lit 0.030001222851889303) / lit 3.53881278538813
  if lt (lit 0) y then y else lit 0

/-- `OTF::toScreen` (hpp:709-748). -/
def toScreen (type : TYPE) (scene : Tristimulus α) (g : α) : Tristimulus α :=
  match type with
  | .GAMMA => ⟨gamma scene.a g, gamma scene.b g, gamma scene.c g⟩
  | .SRGB => ⟨Y_to_sRGB scene.a, Y_to_sRGB scene.b, Y_to_sRGB scene.c⟩
  | .BT709 => ⟨Y_to_BT709 scene.a, Y_to_BT709 scene.b, Y_to_BT709 scene.c⟩
  | .ST2084 => ⟨Y_to_ST2084 scene.a, Y_to_ST2084 scene.b, Y_to_ST2084 scene.c⟩
  | .SLOG => ⟨Y_to_SLog scene.a, Y_to_SLog scene.b, Y_to_SLog scene.c⟩
  | .SLOG2 => ⟨Y_to_SLog2 scene.a, Y_to_SLog2 scene.b, Y_to_SLog2 scene.c⟩
  | .SLOG3 => ⟨Y_to_SLog3 scene.a, Y_to_SLog3 scene.b, Y_to_SLog3 scene.c⟩
  | .HLG => ⟨Y_to_HLG scene.a, Y_to_HLG scene.b, Y_to_HLG scene.c⟩
  | .LINEAR => scene
  | .unknown => scene
/-- `OTF::toScene` (hpp:749-785). -/
def toScene (type : TYPE) (screen : Tristimulus α) (g : α) : Tristimulus α :=
  match type with
  | .GAMMA => ⟨degamma screen.a g, degamma screen.b g, degamma screen.c g⟩
  | .SRGB => ⟨sRGB_to_Y screen.a, sRGB_to_Y screen.b, sRGB_to_Y screen.c⟩
  | .BT709 => ⟨BT709_to_Y screen.a, BT709_to_Y screen.b, BT709_to_Y screen.c⟩
  | .ST2084 => ⟨ST2084_to_Y screen.a, ST2084_to_Y screen.b, ST2084_to_Y screen.c⟩
  | .SLOG => ⟨SLog_to_Y screen.a, SLog_to_Y screen.b, SLog_to_Y screen.c⟩
  | .SLOG2 => ⟨SLog2_to_Y screen.a, SLog2_to_Y screen.b, SLog2_to_Y screen.c⟩
  | .SLOG3 => ⟨SLog3_to_Y screen.a, SLog3_to_Y screen.b, SLog3_to_Y screen.c⟩
  | .HLG => ⟨HLG_to_Y screen.a, HLG_to_Y screen.b, HLG_to_Y screen.c⟩
  | .LINEAR => screen
  | .unknown => screen

end OTF
end CS
