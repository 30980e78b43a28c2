import Verif.Props.GamutFloat
import Verif.Lemmas.CloseMatrix

/-!
# The matrices of the predefined gamuts in binary32, as fractions
-/

namespace CS
open F32 B32

attribute [local instance] ratArith

/-- The RGB spaces predefined by the header. -/
inductive RGBSpace
  | adobe | rec709 | rec2020 | dciP3 | sGamut | sGamut3Cine | acesCg | aces2065

/-- The object of the header, in binary32. -/
def RGBSpace.gamut : RGBSpace → Gamut F32
  | adobe => AdobeRGB
  | rec709 => Rec709
  | rec2020 => Rec2020
  | dciP3 => DCI_P3
  | sGamut => S_Gamut
  | sGamut3Cine => S_Gamut3_Cine
  | acesCg => ACEScg
  | aces2065 => ACES2065

/-- The exact matrices, for evaluation. -/
def RGBSpace.rat : RGBSpace → Gamut ℚ
  | adobe => AdobeRGB
  | rec709 => Rec709
  | rec2020 => Rec2020
  | dciP3 => DCI_P3
  | sGamut => S_Gamut
  | sGamut3Cine => S_Gamut3_Cine
  | acesCg => ACEScg
  | aces2065 => ACES2065

/-! ### The matrices -/

/-- The binary32 entries of `toXYZ_`, as fractions. -/
def RGBSpace.valTo : RGBSpace → Matrix3 ℚ
  | adobe => ⟨2418725 / 4194304, 12452601 / 67108864, 12631809 / 67108864,
      9977241 / 33554432, 2631353 / 4194304, 5052723 / 67108864,
      7256175 / 268435456, 9487701 / 134217728, 8315941 / 8388608⟩
  | rec709 => ⟨13837541 / 33554432, 11998541 / 33554432, 6055931 / 33554432,
      14269965 / 67108864, 11998541 / 16777216, 9689489 / 134217728,
      2594539 / 134217728, 15998049 / 134217728, 15947285 / 16777216⟩
  | rec2020 => ⟨667899 / 1048576, 9705077 / 67108864, 11333409 / 67108864,
      8814757 / 33554432, 11374921 / 16777216, 7959341 / 134217728,
      0, 7535705 / 268435456, 8900187 / 8388608⟩
  | dciP3 => ⟨14937419 / 33554432, 4649543 / 16777216, 11561691 / 67108864,
      14058747 / 67108864, 6053179 / 8388608, 1156169 / 16777216,
      0, 6316363 / 134217728, 15222893 / 16777216⟩
  | sGamut => ⟨2963203 / 4194304, 4321845 / 33554432, 483067 / 4194304,
      1136571 / 4194304, 6598531 / 8388608, -483067 / 8388608,
      -10391527 / 1073741824, 9878493 / 2147483648, 9178273 / 8388608⟩
  | sGamut3Cine => ⟨10050963 / 16777216, 4176277 / 16777216, 1718767 / 16777216,
      14433499 / 67108864, 7424493 / 8388608, -13441143 / 134217728,
      -8607609 / 268435456, -14849007 / 536870912, 4818341 / 4194304⟩
  | acesCg => ⟨5557069 / 8388608, 1124109 / 8388608, 5240789 / 33554432,
      9134481 / 33554432, 11309217 / 16777216, 7206085 / 134217728,
      -5985747 / 1073741824, 272511 / 67108864, 4237669 / 4194304⟩
  | aces2065 => ⟨15981177 / 16777216, 0, 12875093 / 137438953472,
      11541599 / 33554432, 1527075 / 2097152, -9681467 / 134217728,
      -2718997 / 70368744177664, 0, 8462639 / 8388608⟩

/-- The binary32 entries of `fromXYZ_`, as fractions. -/
def RGBSpace.valFrom : RGBSpace → Matrix3 ℚ
  | adobe => ⟨8563041 / 4194304, -4739623 / 8388608, -5783633 / 16777216,
      -16261213 / 16777216, 7868379 / 4194304, 5577431 / 134217728,
      14435735 / 1073741824, -15886345 / 134217728, 4257953 / 4194304⟩
  | rec709 => ⟨13593613 / 4194304, -12896505 / 8388608, -16730599 / 33554432,
      -8130605 / 8388608, 3934189 / 2097152, 5577427 / 134217728,
      14933077 / 268435456, -855541 / 4194304, 1108315 / 1048576⟩
  | rec2020 => ⟨7200155 / 4194304, -11934329 / 33554432, -1062695 / 4194304,
      -11185105 / 16777216, 13560025 / 8388608, 2116417 / 134217728,
      9470323 / 536870912, -5740573 / 134217728, 3951467 / 4194304⟩
  | dciP3 => ⟨11431133 / 4194304, -2134907 / 2097152, -14769429 / 33554432,
      -3335177 / 4194304, 14174503 / 8388608, 12158623 / 536870912,
      5535397 / 134217728, -11762719 / 134217728, 2308817 / 2097152⟩
  | sGamut => ⟨3161247 / 2097152, -8248423 / 33554432, -5758333 / 33554432,
      -4346573 / 8388608, 1421231 / 1048576, 8447577 / 67108864,
      4163897 / 268435456, -2113331 / 268435456, 15299419 / 16777216⟩
  | sGamut3Cine => ⟨7745951 / 4194304, -8824581 / 16777216, -14129447 / 67108864,
      -931457 / 2097152, 5282487 / 4194304, 10026063 / 67108864,
      10967033 / 268435456, 4198583 / 268435456, 14566101 / 16777216⟩
  | acesCg => ⟨13765899 / 8388608, -2724647 / 8388608, -15866191 / 67108864,
      -5567207 / 8388608, 13550381 / 8388608, 8995993 / 536870912,
      6293153 / 536870912, -8895349 / 1073741824, 16582515 / 16777216⟩
  | aces2065 => ⟨4403227 / 4194304, 0, -13398173 / 137438953472,
      -16639745 / 33554432, 11520185 / 8388608, 13185555 / 134217728,
      11317851 / 281474976710656, 0, 16630449 / 16777216⟩

/-- The binary32 matrices are finite and have those entries; evaluated by the kernel. -/
def RGBSpace.ok (s : RGBSpace) : Bool := small s.gamut.toXYZ_ && small s.gamut.fromXYZ_ &&
  decide (s.gamut.toXYZ_.vals = s.valTo) && decide (s.gamut.fromXYZ_.vals = s.valFrom)

set_option maxRecDepth 100000 in
theorem ok_adobe : RGBSpace.adobe.ok = true := by decide +kernel
set_option maxRecDepth 100000 in
theorem ok_rec709 : RGBSpace.rec709.ok = true := by decide +kernel
set_option maxRecDepth 100000 in
theorem ok_rec2020 : RGBSpace.rec2020.ok = true := by decide +kernel
set_option maxRecDepth 100000 in
theorem ok_dciP3 : RGBSpace.dciP3.ok = true := by decide +kernel
set_option maxRecDepth 100000 in
theorem ok_sGamut : RGBSpace.sGamut.ok = true := by decide +kernel
set_option maxRecDepth 100000 in
theorem ok_sGamut3Cine : RGBSpace.sGamut3Cine.ok = true := by decide +kernel
set_option maxRecDepth 100000 in
theorem ok_acesCg : RGBSpace.acesCg.ok = true := by decide +kernel
set_option maxRecDepth 100000 in
theorem ok_aces2065 : RGBSpace.aces2065.ok = true := by decide +kernel

theorem RGBSpace.spec (s : RGBSpace) : small s.gamut.toXYZ_ = true ∧ small s.gamut.fromXYZ_ = true ∧
    s.gamut.toXYZ_.vals = s.valTo ∧ s.gamut.fromXYZ_.vals = s.valFrom := by
  have : s.ok = true := by
    cases s
    · exact ok_adobe
    · exact ok_rec709
    · exact ok_rec2020
    · exact ok_dciP3
    · exact ok_sGamut
    · exact ok_sGamut3Cine
    · exact ok_acesCg
    · exact ok_aces2065
  simp only [RGBSpace.ok, Bool.and_eq_true, decide_eq_true_eq] at this
  exact ⟨this.1.1.1, this.1.1.2, this.1.2, this.2⟩

/-- All eight. -/
def RGBSpace.all : List RGBSpace := [adobe, rec709, rec2020, dciP3, sGamut, sGamut3Cine, acesCg, aces2065]
theorem RGBSpace.mem_all (s : RGBSpace) : s ∈ RGBSpace.all := by cases s <;> simp [RGBSpace.all]

set_option maxRecDepth 100000 in
theorem to_close : (RGBSpace.all.all fun s => check s.valTo s.rat.toXYZ_ 6e-7 &&
    check s.valFrom s.rat.fromXYZ_ 1.9e-6) = true := by
  decide +kernel

set_option maxRecDepth 100000 in
theorem convert_close : (RGBSpace.all.all fun s => RGBSpace.all.all fun d =>
    mulCheck d.valFrom s.valTo (GamutConvert s.rat d.rat) 3.2e-6) = true := by
  decide +kernel

/-! ### Illuminants -/

/-- The illuminant constants of the header. -/
inductive Illuminant
  | A | B | C | D50 | D55 | D60 | D65 | D75 | E | F2 | F7 | F11

/-- The constant, in any arithmetic. -/
def Illuminant.white {α : Type} [Arith α] : Illuminant → Tristimulus α
  | A => Illuminant_A
  | B => Illuminant_B
  | C => Illuminant_C
  | D50 => Illuminant_D50
  | D55 => Illuminant_D55
  | D60 => Illuminant_D60
  | D65 => Illuminant_D65
  | D75 => Illuminant_D75
  | E => Illuminant_E
  | F2 => Illuminant_F2
  | F7 => Illuminant_F7
  | F11 => Illuminant_F11

/-- All twelve. -/
def Illuminant.all : List Illuminant := [A, B, C, D50, D55, D60, D65, D75, E, F2, F7, F11]
theorem Illuminant.mem_all (s : Illuminant) : s ∈ Illuminant.all := by cases s <;> simp [Illuminant.all]


theorem Illuminant.toReal_white (s : Illuminant) : (s.white : Tristimulus ℚ).toReal = s.white := by
  cases s <;> rfl

/-- The binary32 entries of the inverse of the Bradford matrix, as fractions. -/
def valLMS : Matrix3 ℚ :=
    ⟨8279497 / 8388608, -9868645 / 67108864, 167733 / 1048576,
      7252879 / 16777216, 4348321 / 8388608, 13231513 / 268435456,
      -9157587 / 1073741824, 10748913 / 268435456, 16248511 / 16777216⟩

/-- The binary32 entries of the Bradford matrix, as fractions. -/
def valCones : Matrix3 ℚ :=
    ⟨7508643 / 8388608, 8938901 / 33554432, -10831371 / 67108864,
      -12586267 / 16777216, 1796735 / 1048576, 9851581 / 268435456,
      10442139 / 268435456, -4596957 / 67108864, 8636911 / 8388608⟩

/-- The binary32 cone responses of the illuminants, as fractions. -/
def Illuminant.valCone : Illuminant → Vector3 ℚ
  | A => ⟨10001177 / 8388608, 15140851 / 16777216, 5714569 / 16777216⟩
  | B => ⟨250445 / 131072, 8433529 / 33554432, 7435621 / 8388608⟩
  | C => ⟨15995967 / 16777216, 8565943 / 8388608, 9957005 / 8388608⟩
  | D50 => ⟨16714879 / 16777216, 4279983 / 4194304, 13734573 / 16777216⟩
  | D55 => ⟨1995 / 2048, 539761 / 524288, 3848217 / 4194304⟩
  | D60 => ⟨16043915 / 16777216, 8689307 / 8388608, 8449421 / 8388608⟩
  | D65 => ⟨7897275 / 8388608, 8727655 / 8388608, 9139663 / 8388608⟩
  | D75 => ⟨1926353 / 2097152, 8774721 / 8388608, 10327425 / 8388608⟩
  | E => ⟨8389447 / 8388608, 1, 1⟩
  | F2 => ⟨1096225 / 1048576, 16678901 / 16777216, 11139429 / 16777216⟩
  | F7 => ⟨3949333 / 4194304, 4363807 / 4194304, 9127897 / 8388608⟩
  | F11 => ⟨8944353 / 8388608, 2054579 / 2097152, 10625377 / 16777216⟩

/-- The values of the components. -/
def Vector3.vals (v : Vector3 F32) : Vector3 ℚ := ⟨v.x.val, v.y.val, v.z.val⟩

set_option maxRecDepth 100000 in
theorem lms_ok : (small (LMS : Gamut F32).toXYZ_ && small (LMS : Gamut F32).fromXYZ_ &&
    decide ((LMS : Gamut F32).toXYZ_.vals = valLMS) && decide ((LMS : Gamut F32).fromXYZ_.vals = valCones)) = true := by
  decide +kernel

set_option maxRecDepth 100000 in
theorem cone_ok : (Illuminant.all.all fun s =>
    let c := ((LMS : Gamut F32).fromXYZ s.white).vec3
    c.x.isFinite && c.y.isFinite && c.z.isFinite && decide (c.vals = s.valCone)) = true := by
  decide +kernel


/-- The check for one adaptation, on fractions; evaluated by the kernel. -/
def adaptCheck (a b : Vector3 ℚ) (x : Matrix3 ℚ) (e : ℚ) : Bool :=
  decide (a.x ≠ 0) && decide (a.y ≠ 0) && decide (a.z ≠ 0) &&
  decide (|b.x / a.x| ≤ 6) && decide (|b.y / a.y| ≤ 6) && decide (|b.z / a.z| ≤ 6) &&
  mulRowCheck (valLMS.m0 * (b.x / a.x)) (valLMS.m1 * (b.y / a.y)) (valLMS.m2 * (b.z / a.z)) valCones x.m0 x.m1 x.m2
    (2.31 / 2 ^ 22) (1 / 2 ^ 134) e &&
  mulRowCheck (valLMS.m3 * (b.x / a.x)) (valLMS.m4 * (b.y / a.y)) (valLMS.m5 * (b.z / a.z)) valCones x.m3 x.m4 x.m5
    (2.31 / 2 ^ 22) (1 / 2 ^ 134) e &&
  mulRowCheck (valLMS.m6 * (b.x / a.x)) (valLMS.m7 * (b.y / a.y)) (valLMS.m8 * (b.z / a.z)) valCones x.m6 x.m7 x.m8
    (2.31 / 2 ^ 22) (1 / 2 ^ 134) e

set_option maxRecDepth 100000 in
theorem adapt_ok : (Illuminant.all.all fun s => Illuminant.all.all fun d =>
    adaptCheck s.valCone d.valCone (Bradford s.white d.white) 6e-6) = true := by
  decide +kernel

end CS
