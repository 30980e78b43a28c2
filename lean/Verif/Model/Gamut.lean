import Verif.Model.Tristimulus

/-!
# `Gamut`, predefined gamuts, `GamutConvert`, `Bradford`
(`include/colorsystem.hpp` 493-559, 1353-1395)
-/

namespace CS

/-- `class Gamut` (hpp:493-559). -/
structure Gamut (α : Type) where
  name_ : String
  toXYZ_ : Matrix3 α
  fromXYZ_ : Matrix3 α

namespace Gamut
variable {α : Type} [Arith α]

/-- `Gamut::primMat` (hpp:500-505). -/
def primMat (xR yR xG yG xB yB : α) : Matrix3 α :=
  ⟨xR, xG, xB, yR, yG, yB, Tristimulus.z_from_xy xR yR, Tristimulus.z_from_xy xG yG,
   Tristimulus.z_from_xy xB yB⟩
/-- `Gamut::diag` (hpp:506). -/
def diag (v : Vector3 α) : Matrix3 α :=
  ⟨v.get 0, lit 0, lit 0, lit 0, v.get 1, lit 0, lit 0, lit 0, v.get 2⟩
/-- `Gamut::mulDiag` (hpp:507). -/
def mulDiag (m : Matrix3 α) (v : Vector3 α) : Matrix3 α := m.mul (diag (m.invert.apply v))
/-- `Gamut::fromPrimaries` (hpp:508-512). -/
def fromPrimaries (xR yR xG yG xB yB xW yW : α) : Matrix3 α :=
  mulDiag (primMat xR yR xG yG xB yB) (Tristimulus.fromYxy3 (lit 1) xW yW).vec3
/-- `Gamut(name, fromXYZ)` (hpp:513-516). -/
def ofFromXYZ (name : String) (fromXYZ : Matrix3 α) : Gamut α := ⟨name, fromXYZ.invert, fromXYZ⟩
/-- `Gamut(name, xR, yR, xG, yG, xB, yB, xW, yW)` (hpp:517-524). -/
def ofPrimaries (name : String) (xR yR xG yG xB yB xW yW : α) : Gamut α :=
  ⟨name, fromPrimaries xR yR xG yG xB yB xW yW, (fromPrimaries xR yR xG yG xB yB xW yW).invert⟩
/-- `Gamut::toXYZ(tri)` (hpp:529). -/
def toXYZ (g : Gamut α) (t : Tristimulus α) : Tristimulus α := .ofVec3 (g.toXYZ_.apply t.vec3)
/-- `Gamut::fromXYZ(tri)` (hpp:530). -/
def fromXYZ (g : Gamut α) (t : Tristimulus α) : Tristimulus α := .ofVec3 (g.fromXYZ_.apply t.vec3)
/-- `Gamut::primaryVector` (hpp:532-536). -/
def primaryVector (g : Gamut α) : Vector3 α :=
  ⟨g.toXYZ_.get 0 + g.toXYZ_.get 3 + g.toXYZ_.get 6, g.toXYZ_.get 1 + g.toXYZ_.get 4 + g.toXYZ_.get 7,
   g.toXYZ_.get 2 + g.toXYZ_.get 5 + g.toXYZ_.get 8⟩
/-- `Gamut::primaryMatrix` (hpp:537-542). -/
def primaryMatrix (g : Gamut α) : Matrix3 α :=
  let t := g.primaryVector
  ⟨g.toXYZ_.get 0 / t.get 0, g.toXYZ_.get 1 / t.get 1, g.toXYZ_.get 2 / t.get 2,
   g.toXYZ_.get 3 / t.get 0, g.toXYZ_.get 4 / t.get 1, g.toXYZ_.get 5 / t.get 2,
   g.toXYZ_.get 6 / t.get 0, g.toXYZ_.get 7 / t.get 1, g.toXYZ_.get 8 / t.get 2⟩
/-- `Gamut::primaryWhite` (hpp:543). -/
def primaryWhite (g : Gamut α) : Tristimulus α := .ofVec3 (g.primaryMatrix.apply g.primaryVector)
/-- `Gamut::primaryRed` (hpp:544-548). -/
def primaryRed (g : Gamut α) : Tristimulus α :=
  let n := g.primaryMatrix
  ⟨n.get 0, n.get 3, n.get 6⟩
/-- `Gamut::primaryGreen` (hpp:549-553). -/
def primaryGreen (g : Gamut α) : Tristimulus α :=
  let n := g.primaryMatrix
  ⟨n.get 1, n.get 4, n.get 7⟩
/-- `Gamut::primaryBlue` (hpp:554-558). -/
def primaryBlue (g : Gamut α) : Tristimulus α :=
  let n := g.primaryMatrix
  ⟨n.get 2, n.get 5, n.get 8⟩

end Gamut

section predefined
variable {α : Type} [Arith α]

/-- hpp:1354 -/
def Illuminant_A : Tristimulus α := ⟨lit 1.09850, lit 1, lit 0.35585⟩
/-- hpp:1355 -/
def Illuminant_B : Tristimulus α := ⟨lit 1.99072, lit 1, lit 0.85223⟩
/-- hpp:1356 -/
def Illuminant_C : Tristimulus α := ⟨lit 0.98074, lit 1, lit 1.18232⟩
/-- hpp:1357 -/
def Illuminant_D50 : Tristimulus α := ⟨lit 0.96422, lit 1, lit 0.82521⟩
/-- hpp:1358 -/
def Illuminant_D55 : Tristimulus α := ⟨lit 0.95682, lit 1, lit 0.92149⟩
/-- hpp:1359 -/
def Illuminant_D60 : Tristimulus α := ⟨lit 0.95265, lit 1, lit 1.00883⟩
/-- hpp:1360 -/
def Illuminant_D65 : Tristimulus α := ⟨lit 0.95047, lit 1, lit 1.08883⟩
/-- hpp:1361 -/
def Illuminant_D75 : Tristimulus α := ⟨lit 0.94972, lit 1, lit 1.22638⟩
/-- hpp:1362 -/
def Illuminant_E : Tristimulus α := ⟨lit 1, lit 1, lit 1⟩
/-- hpp:1363 -/
def Illuminant_F2 : Tristimulus α := ⟨lit 0.99186, lit 1, lit 0.67393⟩
/-- hpp:1364 -/
def Illuminant_F7 : Tristimulus α := ⟨lit 0.95041, lit 1, lit 1.08747⟩
/-- hpp:1365 -/
def Illuminant_F11 : Tristimulus α := ⟨lit 1.00962, lit 1, lit 0.64350⟩

/-- hpp:1368 -/
def AdobeRGB : Gamut α := .ofPrimaries "AdobeRGB" (lit 0.64) (lit 0.33) (lit 0.21) (lit 0.71)
  (lit 0.15) (lit 0.06) (lit 0.3127) (lit 0.3290)
/-- hpp:1369 -/
def Rec709 : Gamut α := .ofPrimaries "Rec.709" (lit 0.64) (lit 0.33) (lit 0.30) (lit 0.60)
  (lit 0.15) (lit 0.06) (lit 0.3127) (lit 0.3290)
/-- hpp:1370 -/
def Rec2020 : Gamut α := .ofPrimaries "Rec.2020" (lit 0.708) (lit 0.292) (lit 0.17) (lit 0.797)
  (lit 0.131) (lit 0.046) (lit 0.3127) (lit 0.3290)
/-- hpp:1371 -/
def DCI_P3 : Gamut α := .ofPrimaries "DCI P3" (lit 0.68) (lit 0.32) (lit 0.265) (lit 0.69)
  (lit 0.15) (lit 0.06) (lit 0.314) (lit 0.351)
/-- hpp:1372 -/
def S_Gamut : Gamut α := .ofPrimaries "S-Gamut" (lit 0.73) (lit 0.28) (lit 0.14) (lit 0.855)
  (lit 0.10) (lit (-0.05)) (lit 0.3127) (lit 0.3290)
/-- hpp:1373-1374 -/
def S_Gamut3_Cine : Gamut α := .ofPrimaries "S-Gamut3.Cine" (lit 0.766) (lit 0.275) (lit 0.225)
  (lit 0.800) (lit 0.089) (lit (-0.087)) (lit 0.3127) (lit 0.3290)
/-- hpp:1375 -/
def ACEScg : Gamut α := .ofPrimaries "ACES cg" (lit 0.713) (lit 0.293) (lit 0.165) (lit 0.830)
  (lit 0.128) (lit 0.044) (lit 0.32168) (lit 0.33767)
/-- hpp:1376 -/
def ACES2065 : Gamut α := .ofPrimaries "ACES 2065" (lit 0.73470) (lit 0.26530) (lit 0) (lit 1)
  (lit 0.0001) (lit (-0.077)) (lit 0.32168) (lit 0.33767)
/-- hpp:1377-1378 -/
def LMS : Gamut α := .ofFromXYZ "LMS"
  ⟨lit 0.8951, lit 0.2664, lit (-0.1614), lit (-0.7502), lit 1.7135, lit 0.0367, lit 0.0389,
   lit (-0.0685), lit 1.0296⟩
/-- hpp:1380 -/
def XYZ : Gamut α := .ofFromXYZ "XYZ" ⟨lit 1, lit 0, lit 0, lit 0, lit 1, lit 0, lit 0, lit 0, lit 1⟩

/-- `GamutConvert` (hpp:1383). -/
def GamutConvert (src dst : Gamut α) : Matrix3 α := dst.fromXYZ_.mul src.toXYZ_

/-- `Bradford` (hpp:1386-1395). -/
def Bradford (white_src white_dst : Tristimulus α) : Matrix3 α :=
  let lms_src := (LMS : Gamut α).fromXYZ white_src
  let lms_dst := (LMS : Gamut α).fromXYZ white_dst
  let scale := Matrix3.diag ⟨lms_dst.a / lms_src.a, lms_dst.b / lms_src.b, lms_dst.c / lms_src.c⟩
  ((LMS : Gamut α).toXYZ_.mul scale).mul (LMS : Gamut α).fromXYZ_

end predefined
end CS
