import Verif.Arith
import Verif.Model.Tristimulus
import Verif.Props.Yxy
import Mathlib.Analysis.Calculus.Deriv.Mul
import Mathlib.Analysis.Calculus.Deriv.MeanValue
import Mathlib.Tactic.Positivity

/-!
# The polynomials of `fromCT` between 999 K and 10000 K

Bounds and signs of derivatives on an interval `[a, b]` are read off the Bernstein form: a polynomial is
a combination of the products `(T - a)^i (b - T)^(n-i)`, which are nonnegative there.
-/

namespace CS.Locus
open Tristimulus

/-- The `x` polynomial of `fromCT`. -/
noncomputable def X (T : ℝ) : ℝ := blackbody_x_approx T
/-- The `y` polynomial of `fromCT`. -/
noncomputable def Y (T : ℝ) : ℝ := blackbody_y_approx T

theorem X_eq (T : ℝ) : X T = ((101496651/125000000) + T * ((-16747/100000000) + T * ((331067/100000000000000) + T * ((690001/100000000000000000) + T * ((-139671/100000000000000000000) + T * ((111951/1000000000000000000000000) + T * (-41459/12500000000000000000000000000))))))) := by
  simp only [X, blackbody_x_approx, lit_real]; push_cast; ring

theorem Y_eq (T : ℝ) : Y T = ((5479113/40000000) + T * ((317653/1000000000) + T * ((-63973/500000000000) + T * ((44483/2000000000000000) + T * ((-90719/50000000000000000000) + T * (141891/2500000000000000000000000)))))) := by
  simp only [Y, blackbody_y_approx, lit_real]; push_cast; ring

/-- Derivative of `X`. -/
noncomputable def X' (T : ℝ) : ℝ := ((-16747/100000000) + T * ((331067/50000000000000) + T * ((2070003/100000000000000000) + T * ((-139671/25000000000000000000) + T * ((111951/200000000000000000000000) + T * (-124377/6250000000000000000000000000))))))

/-- Derivative of `Y`. -/
noncomputable def Y' (T : ℝ) : ℝ := ((317653/1000000000) + T * ((-63973/250000000000) + T * ((133449/2000000000000000) + T * ((-90719/12500000000000000000) + T * (141891/500000000000000000000000)))))

theorem horner {f : ℝ → ℝ} {f' c T : ℝ} (h : HasDerivAt f f' T) :
    HasDerivAt (fun T => c + T * f T) (1 * f T + T * f') T :=
  ((hasDerivAt_id' T).mul h).const_add c

theorem hasX (T : ℝ) : HasDerivAt X (X' T) T := by
  have h : X = fun T => ((101496651/125000000) + T * ((-16747/100000000) + T * ((331067/100000000000000) + T * ((690001/100000000000000000) + T * ((-139671/100000000000000000000) + T * ((111951/1000000000000000000000000) + T * (-41459/12500000000000000000000000000))))))) := funext X_eq
  rw [h]
  refine HasDerivAt.congr_deriv (horner (horner (horner (horner (horner (horner (hasDerivAt_const T _))))))) ?_
  simp only [X']; ring

theorem hasY (T : ℝ) : HasDerivAt Y (Y' T) T := by
  have h : Y = fun T => ((5479113/40000000) + T * ((317653/1000000000) + T * ((-63973/500000000000) + T * ((44483/2000000000000000) + T * ((-90719/50000000000000000000) + T * (141891/2500000000000000000000000)))))) := funext Y_eq
  rw [h]
  refine HasDerivAt.congr_deriv (horner (horner (horner (horner (horner (hasDerivAt_const T _)))))) ?_
  simp only [Y']; ring

theorem X_lower_0 (T : ℝ) (h₁ : 999 ≤ T) (h₂ : T ≤ 4000) : (27/100) ≤ X T := by
  have key : ∀ s t : ℝ, 0 ≤ s → 0 ≤ t → 0 ≤ (4794637807414399595026825041/9130740194251687725012500000000000000000000000000) * s ^ 0 * t ^ 6 + (46639847317571206002906257/18261480388503375450025000000000000000000000000) * s ^ 1 * t ^ 5 + (9311855308643776468743/1826148038850337545002500000000000000000000) * s ^ 2 * t ^ 4 + (9946252968495414479/1826148038850337545002500000000000000000) * s ^ 3 * t ^ 3 + (6043670158421663/1826148038850337545002500000000000000) * s ^ 4 * t ^ 2 + (620522036631/570671262140730482813281250000000) * s ^ 5 * t ^ 1 + (344247959/2282685048562921931253125000000) * s ^ 6 * t ^ 0 := by
    intro s t hs ht; positivity
  have h := key (T - 999) (4000 - T) (by linarith) (by linarith)
  have e : X T = (27/100) + ((4794637807414399595026825041/9130740194251687725012500000000000000000000000000) * (T - 999) ^ 0 * (4000 - T) ^ 6 + (46639847317571206002906257/18261480388503375450025000000000000000000000000) * (T - 999) ^ 1 * (4000 - T) ^ 5 + (9311855308643776468743/1826148038850337545002500000000000000000000) * (T - 999) ^ 2 * (4000 - T) ^ 4 + (9946252968495414479/1826148038850337545002500000000000000000) * (T - 999) ^ 3 * (4000 - T) ^ 3 + (6043670158421663/1826148038850337545002500000000000000) * (T - 999) ^ 4 * (4000 - T) ^ 2 + (620522036631/570671262140730482813281250000000) * (T - 999) ^ 5 * (4000 - T) ^ 1 + (344247959/2282685048562921931253125000000) * (T - 999) ^ 6 * (4000 - T) ^ 0) := by
    simp only [X_eq]; ring
  linarith

theorem X_lower_1 (T : ℝ) (h₁ : 4000 ≤ T) (h₂ : T ≤ 10000) : (27/100) ≤ X T := by
  have key : ∀ s t : ℝ, 0 ≤ s → 0 ≤ t → 0 ≤ (344247959/145800000000000000000000000000000) * s ^ 0 * t ^ 6 + (41085487/4860000000000000000000000000000) * s ^ 1 * t ^ 5 + (1486499/97200000000000000000000000000) * s ^ 2 * t ^ 4 + (9105631/583200000000000000000000000000) * s ^ 3 * t ^ 3 + (2133767/388800000000000000000000000000) * s ^ 4 * t ^ 2 + (1262863/486000000000000000000000000000) * s ^ 5 * t ^ 1 + (18809/91125000000000000000000000000) * s ^ 6 * t ^ 0 := by
    intro s t hs ht; positivity
  have h := key (T - 4000) (10000 - T) (by linarith) (by linarith)
  have e : X T = (27/100) + ((344247959/145800000000000000000000000000000) * (T - 4000) ^ 0 * (10000 - T) ^ 6 + (41085487/4860000000000000000000000000000) * (T - 4000) ^ 1 * (10000 - T) ^ 5 + (1486499/97200000000000000000000000000) * (T - 4000) ^ 2 * (10000 - T) ^ 4 + (9105631/583200000000000000000000000000) * (T - 4000) ^ 3 * (10000 - T) ^ 3 + (2133767/388800000000000000000000000000) * (T - 4000) ^ 4 * (10000 - T) ^ 2 + (1262863/486000000000000000000000000000) * (T - 4000) ^ 5 * (10000 - T) ^ 1 + (18809/91125000000000000000000000000) * (T - 4000) ^ 6 * (10000 - T) ^ 0) := by
    simp only [X_eq]; ring
  linarith

theorem X_lower (T : ℝ) (h₁ : 999 ≤ T) (h₂ : T ≤ 10000) : (27/100) ≤ X T := by
  rcases le_total T 4000 with h | h
  · exact X_lower_0 T (by linarith) h
  exact X_lower_1 T (by linarith) h₂

theorem X_upper_0 (T : ℝ) (h₁ : 999 ≤ T) (h₂ : T ≤ 4000) : (-33/50) ≤ -X T := by
  have key : ∀ s t : ℝ, 0 ≤ s → 0 ≤ t → 0 ≤ (80362192585600404973174959/9130740194251687725012500000000000000000000000000) * s ^ 0 * t ^ 6 + (11860152682428793997093743/18261480388503375450025000000000000000000000000) * s ^ 1 * t ^ 5 + (5313144691356223531257/1826148038850337545002500000000000000000000) * s ^ 2 * t ^ 4 + (9553747031504585521/1826148038850337545002500000000000000000) * s ^ 3 * t ^ 3 + (8581329841578337/1826148038850337545002500000000000000) * s ^ 4 * t ^ 2 + (1207602963369/570671262140730482813281250000000) * s ^ 5 * t ^ 1 + (874502041/2282685048562921931253125000000) * s ^ 6 * t ^ 0 := by
    intro s t hs ht; positivity
  have h := key (T - 999) (4000 - T) (by linarith) (by linarith)
  have e : -X T = (-33/50) + ((80362192585600404973174959/9130740194251687725012500000000000000000000000000) * (T - 999) ^ 0 * (4000 - T) ^ 6 + (11860152682428793997093743/18261480388503375450025000000000000000000000000) * (T - 999) ^ 1 * (4000 - T) ^ 5 + (5313144691356223531257/1826148038850337545002500000000000000000000) * (T - 999) ^ 2 * (4000 - T) ^ 4 + (9553747031504585521/1826148038850337545002500000000000000000) * (T - 999) ^ 3 * (4000 - T) ^ 3 + (8581329841578337/1826148038850337545002500000000000000) * (T - 999) ^ 4 * (4000 - T) ^ 2 + (1207602963369/570671262140730482813281250000000) * (T - 999) ^ 5 * (4000 - T) ^ 1 + (874502041/2282685048562921931253125000000) * (T - 999) ^ 6 * (4000 - T) ^ 0) := by
    simp only [X_eq]; ring
  linarith

theorem X_upper_1 (T : ℝ) (h₁ : 4000 ≤ T) (h₂ : T ≤ 10000) : (-33/50) ≤ -X T := by
  have key : ∀ s t : ℝ, 0 ≤ s → 0 ≤ t → 0 ≤ (874502041/145800000000000000000000000000000) * s ^ 0 * t ^ 6 + (202664513/4860000000000000000000000000000) * s ^ 1 * t ^ 5 + (10701001/97200000000000000000000000000) * s ^ 2 * t ^ 4 + (88394369/583200000000000000000000000000) * s ^ 3 * t ^ 3 + (46616233/388800000000000000000000000000) * s ^ 4 * t ^ 2 + (23112137/486000000000000000000000000000) * s ^ 5 * t ^ 1 + (2971639/364500000000000000000000000000) * s ^ 6 * t ^ 0 := by
    intro s t hs ht; positivity
  have h := key (T - 4000) (10000 - T) (by linarith) (by linarith)
  have e : -X T = (-33/50) + ((874502041/145800000000000000000000000000000) * (T - 4000) ^ 0 * (10000 - T) ^ 6 + (202664513/4860000000000000000000000000000) * (T - 4000) ^ 1 * (10000 - T) ^ 5 + (10701001/97200000000000000000000000000) * (T - 4000) ^ 2 * (10000 - T) ^ 4 + (88394369/583200000000000000000000000000) * (T - 4000) ^ 3 * (10000 - T) ^ 3 + (46616233/388800000000000000000000000000) * (T - 4000) ^ 4 * (10000 - T) ^ 2 + (23112137/486000000000000000000000000000) * (T - 4000) ^ 5 * (10000 - T) ^ 1 + (2971639/364500000000000000000000000000) * (T - 4000) ^ 6 * (10000 - T) ^ 0) := by
    simp only [X_eq]; ring
  linarith

theorem X_upper (T : ℝ) (h₁ : 999 ≤ T) (h₂ : T ≤ 10000) : (-33/50) ≤ -X T := by
  rcases le_total T 4000 with h | h
  · exact X_upper_0 T (by linarith) h
  exact X_upper_1 T (by linarith) h₂

theorem Y_lower_0 (T : ℝ) (h₁ : 999 ≤ T) (h₂ : T ≤ 2000) : (7/25) ≤ Y T := by
  have key : ∀ s t : ℝ, 0 ≤ s → 0 ≤ t → 0 ≤ (23945399315082473337587/358932146430357500000000000000000000000) * s ^ 0 * t ^ 5 + (2040232742825902041/4486651830379468750000000000000000) * s ^ 1 * t ^ 4 + (38780258270965403/35893214643035750000000000000000) * s ^ 2 * t ^ 3 + (3065164428251/2563801045931125000000000000) * s ^ 3 * t ^ 2 + (5685920979/8973303660758937500000000) * s ^ 4 * t ^ 1 + (93727107/717864292860715000000000) * s ^ 5 * t ^ 0 := by
    intro s t hs ht; positivity
  have h := key (T - 999) (2000 - T) (by linarith) (by linarith)
  have e : Y T = (7/25) + ((23945399315082473337587/358932146430357500000000000000000000000) * (T - 999) ^ 0 * (2000 - T) ^ 5 + (2040232742825902041/4486651830379468750000000000000000) * (T - 999) ^ 1 * (2000 - T) ^ 4 + (38780258270965403/35893214643035750000000000000000) * (T - 999) ^ 2 * (2000 - T) ^ 3 + (3065164428251/2563801045931125000000000000) * (T - 999) ^ 3 * (2000 - T) ^ 2 + (5685920979/8973303660758937500000000) * (T - 999) ^ 4 * (2000 - T) ^ 1 + (93727107/717864292860715000000000) * (T - 999) ^ 5 * (2000 - T) ^ 0) := by
    simp only [Y_eq]; ring
  linarith

theorem Y_lower_1 (T : ℝ) (h₁ : 2000 ≤ T) (h₂ : T ≤ 5000) : (7/25) ≤ Y T := by
  have key : ∀ s t : ℝ, 0 ≤ s → 0 ≤ t → 0 ≤ (72898861/135000000000000000000000000) * s ^ 0 * t ^ 5 + (5287643/1800000000000000000000000) * s ^ 1 * t ^ 4 + (551837/108000000000000000000000) * s ^ 2 * t ^ 3 + (455111/108000000000000000000000) * s ^ 3 * t ^ 2 + (124843/72000000000000000000000) * s ^ 4 * t ^ 1 + (311807/1080000000000000000000000) * s ^ 5 * t ^ 0 := by
    intro s t hs ht; positivity
  have h := key (T - 2000) (5000 - T) (by linarith) (by linarith)
  have e : Y T = (7/25) + ((72898861/135000000000000000000000000) * (T - 2000) ^ 0 * (5000 - T) ^ 5 + (5287643/1800000000000000000000000) * (T - 2000) ^ 1 * (5000 - T) ^ 4 + (551837/108000000000000000000000) * (T - 2000) ^ 2 * (5000 - T) ^ 3 + (455111/108000000000000000000000) * (T - 2000) ^ 3 * (5000 - T) ^ 2 + (124843/72000000000000000000000) * (T - 2000) ^ 4 * (5000 - T) ^ 1 + (311807/1080000000000000000000000) * (T - 2000) ^ 5 * (5000 - T) ^ 0) := by
    simp only [Y_eq]; ring
  linarith

theorem Y_lower_2 (T : ℝ) (h₁ : 5000 ≤ T) (h₂ : T ≤ 10000) : (7/25) ≤ Y T := by
  have key : ∀ s t : ℝ, 0 ≤ s → 0 ≤ t → 0 ≤ (2806263/125000000000000000000000000) * s ^ 0 * t ^ 5 + (1865433/25000000000000000000000000) * s ^ 1 * t ^ 4 + (1371103/12500000000000000000000000) * s ^ 2 * t ^ 3 + (1394773/12500000000000000000000000) * s ^ 3 * t ^ 2 + (30593/25000000000000000000000000) * s ^ 4 * t ^ 1 + (489913/125000000000000000000000000) * s ^ 5 * t ^ 0 := by
    intro s t hs ht; positivity
  have h := key (T - 5000) (10000 - T) (by linarith) (by linarith)
  have e : Y T = (7/25) + ((2806263/125000000000000000000000000) * (T - 5000) ^ 0 * (10000 - T) ^ 5 + (1865433/25000000000000000000000000) * (T - 5000) ^ 1 * (10000 - T) ^ 4 + (1371103/12500000000000000000000000) * (T - 5000) ^ 2 * (10000 - T) ^ 3 + (1394773/12500000000000000000000000) * (T - 5000) ^ 3 * (10000 - T) ^ 2 + (30593/25000000000000000000000000) * (T - 5000) ^ 4 * (10000 - T) ^ 1 + (489913/125000000000000000000000000) * (T - 5000) ^ 5 * (10000 - T) ^ 0) := by
    simp only [Y_eq]; ring
  linarith

theorem Y_lower (T : ℝ) (h₁ : 999 ≤ T) (h₂ : T ≤ 10000) : (7/25) ≤ Y T := by
  rcases le_total T 2000 with h | h
  · exact Y_lower_0 T (by linarith) h
  rcases le_total T 5000 with h | h
  · exact Y_lower_1 T (by linarith) h
  exact Y_lower_2 T (by linarith) h₂

theorem Y_upper_0 (T : ℝ) (h₁ : 999 ≤ T) (h₂ : T ≤ 2000) : (-43/100) ≤ -Y T := by
  have key : ∀ s t : ℝ, 0 ≤ s → 0 ≤ t → 0 ≤ (207382204794422686636891/2512525025012502500000000000000000000000) * s ^ 0 * t ^ 5 + (9155870800218685713/31406562812656281250000000000000000) * s ^ 1 * t ^ 4 + (103538192103242179/251252502501250250000000000000000) * s ^ 2 * t ^ 3 + (37306943015701/125626251250625125000000000000) * s ^ 3 * t ^ 2 + (7073553147/62813125625312562500000000) * s ^ 4 * t ^ 1 + (93910251/5025050050025005000000000) * s ^ 5 * t ^ 0 := by
    intro s t hs ht; positivity
  have h := key (T - 999) (2000 - T) (by linarith) (by linarith)
  have e : -Y T = (-43/100) + ((207382204794422686636891/2512525025012502500000000000000000000000) * (T - 999) ^ 0 * (2000 - T) ^ 5 + (9155870800218685713/31406562812656281250000000000000000) * (T - 999) ^ 1 * (2000 - T) ^ 4 + (103538192103242179/251252502501250250000000000000000) * (T - 999) ^ 2 * (2000 - T) ^ 3 + (37306943015701/125626251250625125000000000000) * (T - 999) ^ 3 * (2000 - T) ^ 2 + (7073553147/62813125625312562500000000) * (T - 999) ^ 4 * (2000 - T) ^ 1 + (93910251/5025050050025005000000000) * (T - 999) ^ 5 * (2000 - T) ^ 0) := by
    simp only [Y_eq]; ring
  linarith

theorem Y_upper_1 (T : ℝ) (h₁ : 2000 ≤ T) (h₂ : T ≤ 5000) : (-43/100) ≤ -Y T := by
  have key : ∀ s t : ℝ, 0 ≤ s → 0 ≤ t → 0 ≤ (31303417/405000000000000000000000000) * s ^ 0 * t ^ 5 + (2411213/16200000000000000000000000) * s ^ 1 * t ^ 4 + (344489/324000000000000000000000) * s ^ 2 * t ^ 3 + (634667/324000000000000000000000) * s ^ 3 * t ^ 2 + (876413/648000000000000000000000) * s ^ 4 * t ^ 1 + (1064579/3240000000000000000000000) * s ^ 5 * t ^ 0 := by
    intro s t hs ht; positivity
  have h := key (T - 2000) (5000 - T) (by linarith) (by linarith)
  have e : -Y T = (-43/100) + ((31303417/405000000000000000000000000) * (T - 2000) ^ 0 * (5000 - T) ^ 5 + (2411213/16200000000000000000000000) * (T - 2000) ^ 1 * (5000 - T) ^ 4 + (344489/324000000000000000000000) * (T - 2000) ^ 2 * (5000 - T) ^ 3 + (634667/324000000000000000000000) * (T - 2000) ^ 3 * (5000 - T) ^ 2 + (876413/648000000000000000000000) * (T - 2000) ^ 4 * (5000 - T) ^ 1 + (1064579/3240000000000000000000000) * (T - 2000) ^ 5 * (5000 - T) ^ 0) := by
    simp only [Y_eq]; ring
  linarith

theorem Y_upper_2 (T : ℝ) (h₁ : 5000 ≤ T) (h₂ : T ≤ 10000) : (-43/100) ≤ -Y T := by
  have key : ∀ s t : ℝ, 0 ≤ s → 0 ≤ t → 0 ≤ (3193737/125000000000000000000000000) * s ^ 0 * t ^ 5 + (4134567/25000000000000000000000000) * s ^ 1 * t ^ 4 + (4628897/12500000000000000000000000) * s ^ 2 * t ^ 3 + (4605227/12500000000000000000000000) * s ^ 3 * t ^ 2 + (5969407/25000000000000000000000000) * s ^ 4 * t ^ 1 + (5510087/125000000000000000000000000) * s ^ 5 * t ^ 0 := by
    intro s t hs ht; positivity
  have h := key (T - 5000) (10000 - T) (by linarith) (by linarith)
  have e : -Y T = (-43/100) + ((3193737/125000000000000000000000000) * (T - 5000) ^ 0 * (10000 - T) ^ 5 + (4134567/25000000000000000000000000) * (T - 5000) ^ 1 * (10000 - T) ^ 4 + (4628897/12500000000000000000000000) * (T - 5000) ^ 2 * (10000 - T) ^ 3 + (4605227/12500000000000000000000000) * (T - 5000) ^ 3 * (10000 - T) ^ 2 + (5969407/25000000000000000000000000) * (T - 5000) ^ 4 * (10000 - T) ^ 1 + (5510087/125000000000000000000000000) * (T - 5000) ^ 5 * (10000 - T) ^ 0) := by
    simp only [Y_eq]; ring
  linarith

theorem Y_upper (T : ℝ) (h₁ : 999 ≤ T) (h₂ : T ≤ 10000) : (-43/100) ≤ -Y T := by
  rcases le_total T 2000 with h | h
  · exact Y_upper_0 T (by linarith) h
  rcases le_total T 5000 with h | h
  · exact Y_upper_1 T (by linarith) h
  exact Y_upper_2 T (by linarith) h₂

theorem X'_neg_0 (T : ℝ) (h₁ : 999 ≤ T) (h₂ : T ≤ 4000) : (1/1000000) ≤ -X' T := by
  have key : ∀ s t : ℝ, 0 ≤ s → 0 ≤ t → 0 ≤ (901431303848849478291873/1521282938062593756250000000000000000000000000) * s ^ 0 * t ^ 5 + (3104765439185638163257/1217026350450075005000000000000000000000000) * s ^ 1 * t ^ 4 + (610932799824130493/152128293806259375625000000000000000000) * s ^ 2 * t ^ 3 + (1862396958280437/608513175225037502500000000000000000) * s ^ 3 * t ^ 2 + (353461384663/304256587612518751250000000000000) * s ^ 4 * t ^ 1 + (33923881/190160367257824219531250000000) * s ^ 5 * t ^ 0 := by
    intro s t hs ht; positivity
  have h := key (T - 999) (4000 - T) (by linarith) (by linarith)
  have e : -X' T = (1/1000000) + ((901431303848849478291873/1521282938062593756250000000000000000000000000) * (T - 999) ^ 0 * (4000 - T) ^ 5 + (3104765439185638163257/1217026350450075005000000000000000000000000) * (T - 999) ^ 1 * (4000 - T) ^ 4 + (610932799824130493/152128293806259375625000000000000000000) * (T - 999) ^ 2 * (4000 - T) ^ 3 + (1862396958280437/608513175225037502500000000000000000) * (T - 999) ^ 3 * (4000 - T) ^ 2 + (353461384663/304256587612518751250000000000000) * (T - 999) ^ 4 * (4000 - T) ^ 1 + (33923881/190160367257824219531250000000) * (T - 999) ^ 5 * (4000 - T) ^ 0) := by
    simp only [X']; ring
  linarith

theorem X'_neg_1 (T : ℝ) (h₁ : 4000 ≤ T) (h₂ : T ≤ 7000) : (1/1000000) ≤ -X' T := by
  have key : ∀ s t : ℝ, 0 ≤ s → 0 ≤ t → 0 ≤ (33923881/189843750000000000000000000000) * s ^ 0 * t ^ 5 + (189348059/303750000000000000000000000000) * s ^ 1 * t ^ 4 + (549410213/607500000000000000000000000000) * s ^ 2 * t ^ 3 + (449117879/607500000000000000000000000000) * s ^ 3 * t ^ 2 + (378506807/1215000000000000000000000000000) * s ^ 4 * t ^ 1 + (314954831/6075000000000000000000000000000) * s ^ 5 * t ^ 0 := by
    intro s t hs ht; positivity
  have h := key (T - 4000) (7000 - T) (by linarith) (by linarith)
  have e : -X' T = (1/1000000) + ((33923881/189843750000000000000000000000) * (T - 4000) ^ 0 * (7000 - T) ^ 5 + (189348059/303750000000000000000000000000) * (T - 4000) ^ 1 * (7000 - T) ^ 4 + (549410213/607500000000000000000000000000) * (T - 4000) ^ 2 * (7000 - T) ^ 3 + (449117879/607500000000000000000000000000) * (T - 4000) ^ 3 * (7000 - T) ^ 2 + (378506807/1215000000000000000000000000000) * (T - 4000) ^ 4 * (7000 - T) ^ 1 + (314954831/6075000000000000000000000000000) * (T - 4000) ^ 5 * (7000 - T) ^ 0) := by
    simp only [X']; ring
  linarith

theorem X'_neg_2 (T : ℝ) (h₁ : 7000 ≤ T) (h₂ : T ≤ 10000) : (1/1000000) ≤ -X' T := by
  have key : ∀ s t : ℝ, 0 ≤ s → 0 ≤ t → 0 ≤ (314954831/6075000000000000000000000000000) * s ^ 0 * t ^ 5 + (50280571/243000000000000000000000000000) * s ^ 1 * t ^ 4 + (7796399/24300000000000000000000000000) * s ^ 2 * t ^ 3 + (4914161/24300000000000000000000000000) * s ^ 3 * t ^ 2 + (679991/12150000000000000000000000000) * s ^ 4 * t ^ 1 + (23939/607500000000000000000000000) * s ^ 5 * t ^ 0 := by
    intro s t hs ht; positivity
  have h := key (T - 7000) (10000 - T) (by linarith) (by linarith)
  have e : -X' T = (1/1000000) + ((314954831/6075000000000000000000000000000) * (T - 7000) ^ 0 * (10000 - T) ^ 5 + (50280571/243000000000000000000000000000) * (T - 7000) ^ 1 * (10000 - T) ^ 4 + (7796399/24300000000000000000000000000) * (T - 7000) ^ 2 * (10000 - T) ^ 3 + (4914161/24300000000000000000000000000) * (T - 7000) ^ 3 * (10000 - T) ^ 2 + (679991/12150000000000000000000000000) * (T - 7000) ^ 4 * (10000 - T) ^ 1 + (23939/607500000000000000000000000) * (T - 7000) ^ 5 * (10000 - T) ^ 0) := by
    simp only [X']; ring
  linarith

theorem X'_neg (T : ℝ) (h₁ : 999 ≤ T) (h₂ : T ≤ 10000) : (1/1000000) ≤ -X' T := by
  rcases le_total T 4000 with h | h
  · exact X'_neg_0 T (by linarith) h
  rcases le_total T 7000 with h | h
  · exact X'_neg_1 T (by linarith) h
  exact X'_neg_2 T (by linarith) h₂

theorem U'_neg_0 (T : ℝ) (h₁ : 999 ≤ T) (h₂ : T ≤ 2000) : (1/1000000) ≤ -(X' T * (12 * Y T + 3) - 12 * X T * Y' T) := by
  have key : ∀ s t : ℝ, 0 ≤ s → 0 ≤ t → 0 ≤ (2225026851345495346584779548259892441038992886701/1127282500234656484508978805804687500000000000000000000000000000000000000000000000) * s ^ 0 * t ^ 10 + (64776751920053656063262623232714610104589209/3522757813233301514090558768139648437500000000000000000000000000000000000000) * s ^ 1 * t ^ 9 + (8689549284391635957793105983768648918704073/112728250023465648450897880580468750000000000000000000000000000000000000000) * s ^ 2 * t ^ 8 + (10792261730072992650339363763543122594807/56364125011732824225448940290234375000000000000000000000000000000000000) * s ^ 3 * t ^ 7 + (10051548266327141433288675627576414741/32208071435275899557399394451562500000000000000000000000000000000000) * s ^ 4 * t ^ 6 + (56161093308117428323620873270655773/161040357176379497786996972257812500000000000000000000000000000000) * s ^ 5 * t ^ 5 + (4979879274194106546878502107313/18404612248729085461371082543750000000000000000000000000000000) * s ^ 6 * t ^ 4 + (507019212433841387028860847/3522757813233301514090558768139648437500000000000000000000) * s ^ 7 * t ^ 3 + (22649842615624189378544553/450913000093862593803591522321875000000000000000000000000) * s ^ 8 * t ^ 2 + (2341716970271555657321/225456500046931296901795761160937500000000000000000000) * s ^ 9 * t ^ 1 + (272315026317800881/281820625058664121127244701451171875000000000000000) * s ^ 10 * t ^ 0 := by
    intro s t hs ht; positivity
  have h := key (T - 999) (2000 - T) (by linarith) (by linarith)
  have e : -(X' T * (12 * Y T + 3) - 12 * X T * Y' T) = (1/1000000) + ((2225026851345495346584779548259892441038992886701/1127282500234656484508978805804687500000000000000000000000000000000000000000000000) * (T - 999) ^ 0 * (2000 - T) ^ 10 + (64776751920053656063262623232714610104589209/3522757813233301514090558768139648437500000000000000000000000000000000000000) * (T - 999) ^ 1 * (2000 - T) ^ 9 + (8689549284391635957793105983768648918704073/112728250023465648450897880580468750000000000000000000000000000000000000000) * (T - 999) ^ 2 * (2000 - T) ^ 8 + (10792261730072992650339363763543122594807/56364125011732824225448940290234375000000000000000000000000000000000000) * (T - 999) ^ 3 * (2000 - T) ^ 7 + (10051548266327141433288675627576414741/32208071435275899557399394451562500000000000000000000000000000000000) * (T - 999) ^ 4 * (2000 - T) ^ 6 + (56161093308117428323620873270655773/161040357176379497786996972257812500000000000000000000000000000000) * (T - 999) ^ 5 * (2000 - T) ^ 5 + (4979879274194106546878502107313/18404612248729085461371082543750000000000000000000000000000000) * (T - 999) ^ 6 * (2000 - T) ^ 4 + (507019212433841387028860847/3522757813233301514090558768139648437500000000000000000000) * (T - 999) ^ 7 * (2000 - T) ^ 3 + (22649842615624189378544553/450913000093862593803591522321875000000000000000000000000) * (T - 999) ^ 8 * (2000 - T) ^ 2 + (2341716970271555657321/225456500046931296901795761160937500000000000000000000) * (T - 999) ^ 9 * (2000 - T) ^ 1 + (272315026317800881/281820625058664121127244701451171875000000000000000) * (T - 999) ^ 10 * (2000 - T) ^ 0) := by
    simp only [X', Y', X_eq, Y_eq]; ring
  linarith

theorem U'_neg_1 (T : ℝ) (h₁ : 2000 ≤ T) (h₂ : T ≤ 4000) : (1/1000000) ≤ -(X' T * (12 * Y T + 3) - 12 * X T * Y' T) := by
  have key : ∀ s t : ℝ, 0 ≤ s → 0 ≤ t → 0 ≤ (1906205184224606167/2000000000000000000000000000000000000000000000000000000) * s ^ 0 * t ^ 10 + (6483584654876406421/800000000000000000000000000000000000000000000000000000) * s ^ 1 * t ^ 9 + (12389212722788685327/400000000000000000000000000000000000000000000000000000) * s ^ 2 * t ^ 8 + (14013256035178550067/200000000000000000000000000000000000000000000000000000) * s ^ 3 * t ^ 7 + (41576873877754726809/400000000000000000000000000000000000000000000000000000) * s ^ 4 * t ^ 6 + (211463779980250470213/2000000000000000000000000000000000000000000000000000000) * s ^ 5 * t ^ 5 + (29903728989397706331/400000000000000000000000000000000000000000000000000000) * s ^ 6 * t ^ 4 + (7265019030732940977/200000000000000000000000000000000000000000000000000000) * s ^ 7 * t ^ 3 + (1162465322710593327/100000000000000000000000000000000000000000000000000000) * s ^ 8 * t ^ 2 + (1772729005682153881/800000000000000000000000000000000000000000000000000000) * s ^ 9 * t ^ 1 + (191364860250902279/1000000000000000000000000000000000000000000000000000000) * s ^ 10 * t ^ 0 := by
    intro s t hs ht; positivity
  have h := key (T - 2000) (4000 - T) (by linarith) (by linarith)
  have e : -(X' T * (12 * Y T + 3) - 12 * X T * Y' T) = (1/1000000) + ((1906205184224606167/2000000000000000000000000000000000000000000000000000000) * (T - 2000) ^ 0 * (4000 - T) ^ 10 + (6483584654876406421/800000000000000000000000000000000000000000000000000000) * (T - 2000) ^ 1 * (4000 - T) ^ 9 + (12389212722788685327/400000000000000000000000000000000000000000000000000000) * (T - 2000) ^ 2 * (4000 - T) ^ 8 + (14013256035178550067/200000000000000000000000000000000000000000000000000000) * (T - 2000) ^ 3 * (4000 - T) ^ 7 + (41576873877754726809/400000000000000000000000000000000000000000000000000000) * (T - 2000) ^ 4 * (4000 - T) ^ 6 + (211463779980250470213/2000000000000000000000000000000000000000000000000000000) * (T - 2000) ^ 5 * (4000 - T) ^ 5 + (29903728989397706331/400000000000000000000000000000000000000000000000000000) * (T - 2000) ^ 6 * (4000 - T) ^ 4 + (7265019030732940977/200000000000000000000000000000000000000000000000000000) * (T - 2000) ^ 7 * (4000 - T) ^ 3 + (1162465322710593327/100000000000000000000000000000000000000000000000000000) * (T - 2000) ^ 8 * (4000 - T) ^ 2 + (1772729005682153881/800000000000000000000000000000000000000000000000000000) * (T - 2000) ^ 9 * (4000 - T) ^ 1 + (191364860250902279/1000000000000000000000000000000000000000000000000000000) * (T - 2000) ^ 10 * (4000 - T) ^ 0) := by
    simp only [X', Y', X_eq, Y_eq]; ring
  linarith

theorem U'_neg_2 (T : ℝ) (h₁ : 4000 ≤ T) (h₂ : T ≤ 7000) : (1/1000000) ≤ -(X' T * (12 * Y T + 3) - 12 * X T * Y' T) := by
  have key : ∀ s t : ℝ, 0 ≤ s → 0 ≤ t → 0 ≤ (191364860250902279/57665039062500000000000000000000000000000000000000000000) * s ^ 0 * t ^ 10 + (2336407392989629517/92264062500000000000000000000000000000000000000000000000) * s ^ 1 * t ^ 9 + (1845273521542666301/20503125000000000000000000000000000000000000000000000000) * s ^ 2 * t ^ 8 + (3053670073181792731/15377343750000000000000000000000000000000000000000000000) * s ^ 3 * t ^ 7 + (37205178680451209477/123018750000000000000000000000000000000000000000000000000) * s ^ 4 * t ^ 6 + (33779266918984156931/102515625000000000000000000000000000000000000000000000000) * s ^ 5 * t ^ 5 + (31438649220707814143/123018750000000000000000000000000000000000000000000000000) * s ^ 6 * t ^ 4 + (4196165212289394497/30754687500000000000000000000000000000000000000000000000) * s ^ 7 * t ^ 3 + (1930178554539774433/41006250000000000000000000000000000000000000000000000000) * s ^ 8 * t ^ 2 + (1722158434504679149/184528125000000000000000000000000000000000000000000000000) * s ^ 9 * t ^ 1 + (1477280708742486097/1845281250000000000000000000000000000000000000000000000000) * s ^ 10 * t ^ 0 := by
    intro s t hs ht; positivity
  have h := key (T - 4000) (7000 - T) (by linarith) (by linarith)
  have e : -(X' T * (12 * Y T + 3) - 12 * X T * Y' T) = (1/1000000) + ((191364860250902279/57665039062500000000000000000000000000000000000000000000) * (T - 4000) ^ 0 * (7000 - T) ^ 10 + (2336407392989629517/92264062500000000000000000000000000000000000000000000000) * (T - 4000) ^ 1 * (7000 - T) ^ 9 + (1845273521542666301/20503125000000000000000000000000000000000000000000000000) * (T - 4000) ^ 2 * (7000 - T) ^ 8 + (3053670073181792731/15377343750000000000000000000000000000000000000000000000) * (T - 4000) ^ 3 * (7000 - T) ^ 7 + (37205178680451209477/123018750000000000000000000000000000000000000000000000000) * (T - 4000) ^ 4 * (7000 - T) ^ 6 + (33779266918984156931/102515625000000000000000000000000000000000000000000000000) * (T - 4000) ^ 5 * (7000 - T) ^ 5 + (31438649220707814143/123018750000000000000000000000000000000000000000000000000) * (T - 4000) ^ 6 * (7000 - T) ^ 4 + (4196165212289394497/30754687500000000000000000000000000000000000000000000000) * (T - 4000) ^ 7 * (7000 - T) ^ 3 + (1930178554539774433/41006250000000000000000000000000000000000000000000000000) * (T - 4000) ^ 8 * (7000 - T) ^ 2 + (1722158434504679149/184528125000000000000000000000000000000000000000000000000) * (T - 4000) ^ 9 * (7000 - T) ^ 1 + (1477280708742486097/1845281250000000000000000000000000000000000000000000000000) * (T - 4000) ^ 10 * (7000 - T) ^ 0) := by
    simp only [X', Y', X_eq, Y_eq]; ring
  linarith

theorem U'_neg_3 (T : ℝ) (h₁ : 7000 ≤ T) (h₂ : T ≤ 8000) : (1/1000000) ≤ -(X' T * (12 * Y T + 3) - 12 * X T * Y' T) := by
  have key : ∀ s t : ℝ, 0 ≤ s → 0 ≤ t → 0 ≤ (1477280708742486097/31250000000000000000000000000000000000000000000000000) * s ^ 0 * t ^ 10 + (1395654800155088413/3125000000000000000000000000000000000000000000000000) * s ^ 1 * t ^ 9 + (11789402418382118793/6250000000000000000000000000000000000000000000000000) * s ^ 2 * t ^ 8 + (7321426789250468223/1562500000000000000000000000000000000000000000000000) * s ^ 3 * t ^ 7 + (47332827911631576669/6250000000000000000000000000000000000000000000000000) * s ^ 4 * t ^ 6 + (129885393430217020203/15625000000000000000000000000000000000000000000000000) * s ^ 5 * t ^ 5 + (39179186976603484479/6250000000000000000000000000000000000000000000000000) * s ^ 6 * t ^ 4 + (2502905542154876319/781250000000000000000000000000000000000000000000000) * s ^ 7 * t ^ 3 + (3315984081459642789/3125000000000000000000000000000000000000000000000000) * s ^ 8 * t ^ 2 + (321294044561564909/1562500000000000000000000000000000000000000000000000) * s ^ 9 * t ^ 1 + (34610327411733367/1953125000000000000000000000000000000000000000000000) * s ^ 10 * t ^ 0 := by
    intro s t hs ht; positivity
  have h := key (T - 7000) (8000 - T) (by linarith) (by linarith)
  have e : -(X' T * (12 * Y T + 3) - 12 * X T * Y' T) = (1/1000000) + ((1477280708742486097/31250000000000000000000000000000000000000000000000000) * (T - 7000) ^ 0 * (8000 - T) ^ 10 + (1395654800155088413/3125000000000000000000000000000000000000000000000000) * (T - 7000) ^ 1 * (8000 - T) ^ 9 + (11789402418382118793/6250000000000000000000000000000000000000000000000000) * (T - 7000) ^ 2 * (8000 - T) ^ 8 + (7321426789250468223/1562500000000000000000000000000000000000000000000000) * (T - 7000) ^ 3 * (8000 - T) ^ 7 + (47332827911631576669/6250000000000000000000000000000000000000000000000000) * (T - 7000) ^ 4 * (8000 - T) ^ 6 + (129885393430217020203/15625000000000000000000000000000000000000000000000000) * (T - 7000) ^ 5 * (8000 - T) ^ 5 + (39179186976603484479/6250000000000000000000000000000000000000000000000000) * (T - 7000) ^ 6 * (8000 - T) ^ 4 + (2502905542154876319/781250000000000000000000000000000000000000000000000) * (T - 7000) ^ 7 * (8000 - T) ^ 3 + (3315984081459642789/3125000000000000000000000000000000000000000000000000) * (T - 7000) ^ 8 * (8000 - T) ^ 2 + (321294044561564909/1562500000000000000000000000000000000000000000000000) * (T - 7000) ^ 9 * (8000 - T) ^ 1 + (34610327411733367/1953125000000000000000000000000000000000000000000000) * (T - 7000) ^ 10 * (8000 - T) ^ 0) := by
    simp only [X', Y', X_eq, Y_eq]; ring
  linarith

theorem U'_neg_4 (T : ℝ) (h₁ : 8000 ≤ T) (h₂ : T ≤ 9000) : (1/1000000) ≤ -(X' T * (12 * Y T + 3) - 12 * X T * Y' T) := by
  have key : ∀ s t : ℝ, 0 ≤ s → 0 ≤ t → 0 ≤ (34610327411733367/1953125000000000000000000000000000000000000000000000) * s ^ 0 * t ^ 10 + (232471194026168963/1562500000000000000000000000000000000000000000000000) * s ^ 1 * t ^ 9 + (1717172771822515761/3125000000000000000000000000000000000000000000000000) * s ^ 2 * t ^ 8 + (918225301356634317/781250000000000000000000000000000000000000000000000) * s ^ 3 * t ^ 7 + (10126049051688008079/6250000000000000000000000000000000000000000000000000) * s ^ 4 * t ^ 6 + (23906751141889552071/15625000000000000000000000000000000000000000000000000) * s ^ 5 * t ^ 5 + (6529011464559252981/6250000000000000000000000000000000000000000000000000) * s ^ 6 * t ^ 4 + (852583824069108039/1562500000000000000000000000000000000000000000000000) * s ^ 7 * t ^ 3 + (1385347647539453193/6250000000000000000000000000000000000000000000000000) * s ^ 8 * t ^ 2 + (195621241529819341/3125000000000000000000000000000000000000000000000000) * s ^ 9 * t ^ 1 + (272293410093655153/31250000000000000000000000000000000000000000000000000) * s ^ 10 * t ^ 0 := by
    intro s t hs ht; positivity
  have h := key (T - 8000) (9000 - T) (by linarith) (by linarith)
  have e : -(X' T * (12 * Y T + 3) - 12 * X T * Y' T) = (1/1000000) + ((34610327411733367/1953125000000000000000000000000000000000000000000000) * (T - 8000) ^ 0 * (9000 - T) ^ 10 + (232471194026168963/1562500000000000000000000000000000000000000000000000) * (T - 8000) ^ 1 * (9000 - T) ^ 9 + (1717172771822515761/3125000000000000000000000000000000000000000000000000) * (T - 8000) ^ 2 * (9000 - T) ^ 8 + (918225301356634317/781250000000000000000000000000000000000000000000000) * (T - 8000) ^ 3 * (9000 - T) ^ 7 + (10126049051688008079/6250000000000000000000000000000000000000000000000000) * (T - 8000) ^ 4 * (9000 - T) ^ 6 + (23906751141889552071/15625000000000000000000000000000000000000000000000000) * (T - 8000) ^ 5 * (9000 - T) ^ 5 + (6529011464559252981/6250000000000000000000000000000000000000000000000000) * (T - 8000) ^ 6 * (9000 - T) ^ 4 + (852583824069108039/1562500000000000000000000000000000000000000000000000) * (T - 8000) ^ 7 * (9000 - T) ^ 3 + (1385347647539453193/6250000000000000000000000000000000000000000000000000) * (T - 8000) ^ 8 * (9000 - T) ^ 2 + (195621241529819341/3125000000000000000000000000000000000000000000000000) * (T - 8000) ^ 9 * (9000 - T) ^ 1 + (272293410093655153/31250000000000000000000000000000000000000000000000000) * (T - 8000) ^ 10 * (9000 - T) ^ 0) := by
    simp only [X', Y', X_eq, Y_eq]; ring
  linarith

theorem U'_neg_5 (T : ℝ) (h₁ : 9000 ≤ T) (h₂ : T ≤ 10000) : (1/1000000) ≤ -(X' T * (12 * Y T + 3) - 12 * X T * Y' T) := by
  have key : ∀ s t : ℝ, 0 ≤ s → 0 ≤ t → 0 ≤ (272293410093655153/31250000000000000000000000000000000000000000000000000) * s ^ 0 * t ^ 10 + (69793115731498193/625000000000000000000000000000000000000000000000000) * s ^ 1 * t ^ 9 + (165821828633501697/250000000000000000000000000000000000000000000000000) * s ^ 2 * t ^ 8 + (146966442417486381/62500000000000000000000000000000000000000000000000) * s ^ 3 * t ^ 7 + (1360379072318681157/250000000000000000000000000000000000000000000000000) * s ^ 4 * t ^ 6 + (1067259685584507843/125000000000000000000000000000000000000000000000000) * s ^ 5 * t ^ 5 + (2294808371190137463/250000000000000000000000000000000000000000000000000) * s ^ 6 * t ^ 4 + (2607336963555489/390625000000000000000000000000000000000000000000) * s ^ 7 * t ^ 3 + (15718194786158373/5000000000000000000000000000000000000000000000000) * s ^ 8 * t ^ 2 + (433372167377563/500000000000000000000000000000000000000000000000) * s ^ 9 * t ^ 1 + (13293384664801/125000000000000000000000000000000000000000000000) * s ^ 10 * t ^ 0 := by
    intro s t hs ht; positivity
  have h := key (T - 9000) (10000 - T) (by linarith) (by linarith)
  have e : -(X' T * (12 * Y T + 3) - 12 * X T * Y' T) = (1/1000000) + ((272293410093655153/31250000000000000000000000000000000000000000000000000) * (T - 9000) ^ 0 * (10000 - T) ^ 10 + (69793115731498193/625000000000000000000000000000000000000000000000000) * (T - 9000) ^ 1 * (10000 - T) ^ 9 + (165821828633501697/250000000000000000000000000000000000000000000000000) * (T - 9000) ^ 2 * (10000 - T) ^ 8 + (146966442417486381/62500000000000000000000000000000000000000000000000) * (T - 9000) ^ 3 * (10000 - T) ^ 7 + (1360379072318681157/250000000000000000000000000000000000000000000000000) * (T - 9000) ^ 4 * (10000 - T) ^ 6 + (1067259685584507843/125000000000000000000000000000000000000000000000000) * (T - 9000) ^ 5 * (10000 - T) ^ 5 + (2294808371190137463/250000000000000000000000000000000000000000000000000) * (T - 9000) ^ 6 * (10000 - T) ^ 4 + (2607336963555489/390625000000000000000000000000000000000000000000) * (T - 9000) ^ 7 * (10000 - T) ^ 3 + (15718194786158373/5000000000000000000000000000000000000000000000000) * (T - 9000) ^ 8 * (10000 - T) ^ 2 + (433372167377563/500000000000000000000000000000000000000000000000) * (T - 9000) ^ 9 * (10000 - T) ^ 1 + (13293384664801/125000000000000000000000000000000000000000000000) * (T - 9000) ^ 10 * (10000 - T) ^ 0) := by
    simp only [X', Y', X_eq, Y_eq]; ring
  linarith

theorem U'_neg (T : ℝ) (h₁ : 999 ≤ T) (h₂ : T ≤ 10000) : (1/1000000) ≤ -(X' T * (12 * Y T + 3) - 12 * X T * Y' T) := by
  rcases le_total T 2000 with h | h
  · exact U'_neg_0 T (by linarith) h
  rcases le_total T 4000 with h | h
  · exact U'_neg_1 T (by linarith) h
  rcases le_total T 7000 with h | h
  · exact U'_neg_2 T (by linarith) h
  rcases le_total T 8000 with h | h
  · exact U'_neg_3 T (by linarith) h
  rcases le_total T 9000 with h | h
  · exact U'_neg_4 T (by linarith) h
  exact U'_neg_5 T (by linarith) h₂

theorem Z_pos_0 (T : ℝ) (h₁ : 1030 ≤ T) (h₂ : T ≤ 1300) : (1/10000) ≤ 1 - X T - Y T := by
  have key : ∀ s t : ℝ, 0 ≤ s → 0 ≤ t → 0 ≤ (270317108763682687/1614252037500000000000000000000000000) * s ^ 0 * t ^ 6 + (1063793540229185429/53808401250000000000000000000000000) * s ^ 1 * t ^ 5 + (28614341998290073/269042006250000000000000000000000) * s ^ 2 * t ^ 4 + (37156667735052839/161425203750000000000000000000000) * s ^ 3 * t ^ 3 + (2664800396952097/10761680250000000000000000000000) * s ^ 4 * t ^ 2 + (711787601686649/5380840125000000000000000000000) * s ^ 5 * t ^ 1 + (22670170388051/807126018750000000000000000000) * s ^ 6 * t ^ 0 := by
    intro s t hs ht; positivity
  have h := key (T - 1030) (1300 - T) (by linarith) (by linarith)
  have e : 1 - X T - Y T = (1/10000) + ((270317108763682687/1614252037500000000000000000000000000) * (T - 1030) ^ 0 * (1300 - T) ^ 6 + (1063793540229185429/53808401250000000000000000000000000) * (T - 1030) ^ 1 * (1300 - T) ^ 5 + (28614341998290073/269042006250000000000000000000000) * (T - 1030) ^ 2 * (1300 - T) ^ 4 + (37156667735052839/161425203750000000000000000000000) * (T - 1030) ^ 3 * (1300 - T) ^ 3 + (2664800396952097/10761680250000000000000000000000) * (T - 1030) ^ 4 * (1300 - T) ^ 2 + (711787601686649/5380840125000000000000000000000) * (T - 1030) ^ 5 * (1300 - T) ^ 1 + (22670170388051/807126018750000000000000000000) * (T - 1030) ^ 6 * (1300 - T) ^ 0) := by
    simp only [X_eq, Y_eq]; ring
  linarith

theorem Z_pos_1 (T : ℝ) (h₁ : 1300 ≤ T) (h₂ : T ≤ 2000) : (1/10000) ≤ 1 - X T - Y T := by
  have key : ∀ s t : ℝ, 0 ≤ s → 0 ≤ t → 0 ≤ (68010511164153/735306250000000000000000000000000) * s ^ 0 * t ^ 6 + (254234193250483/294122500000000000000000000000000) * s ^ 1 * t ^ 5 + (4560413843689/1470612500000000000000000000000) * s ^ 2 * t ^ 4 + (1637082740981/294122500000000000000000000000) * s ^ 3 * t ^ 3 + (157435016813/29412250000000000000000000000) * s ^ 4 * t ^ 2 + (19444435807/7353062500000000000000000000) * s ^ 5 * t ^ 1 + (1554582007/2941225000000000000000000000) * s ^ 6 * t ^ 0 := by
    intro s t hs ht; positivity
  have h := key (T - 1300) (2000 - T) (by linarith) (by linarith)
  have e : 1 - X T - Y T = (1/10000) + ((68010511164153/735306250000000000000000000000000) * (T - 1300) ^ 0 * (2000 - T) ^ 6 + (254234193250483/294122500000000000000000000000000) * (T - 1300) ^ 1 * (2000 - T) ^ 5 + (4560413843689/1470612500000000000000000000000) * (T - 1300) ^ 2 * (2000 - T) ^ 4 + (1637082740981/294122500000000000000000000000) * (T - 1300) ^ 3 * (2000 - T) ^ 3 + (157435016813/29412250000000000000000000000) * (T - 1300) ^ 4 * (2000 - T) ^ 2 + (19444435807/7353062500000000000000000000) * (T - 1300) ^ 5 * (2000 - T) ^ 1 + (1554582007/2941225000000000000000000000) * (T - 1300) ^ 6 * (2000 - T) ^ 0) := by
    simp only [X_eq, Y_eq]; ring
  linarith

theorem Z_pos_2 (T : ℝ) (h₁ : 2000 ≤ T) (h₂ : T ≤ 4000) : (1/10000) ≤ 1 - X T - Y T := by
  have key : ∀ s t : ℝ, 0 ≤ s → 0 ≤ t → 0 ≤ (1554582007/1600000000000000000000000000000) * s ^ 0 * t ^ 6 + (6877628477/800000000000000000000000000000) * s ^ 1 * t ^ 5 + (9374547949/320000000000000000000000000000) * s ^ 2 * t ^ 4 + (3954797371/80000000000000000000000000000) * s ^ 3 * t ^ 3 + (14194890181/320000000000000000000000000000) * s ^ 4 * t ^ 2 + (16300050197/800000000000000000000000000000) * s ^ 5 * t ^ 1 + (6054838863/1600000000000000000000000000000) * s ^ 6 * t ^ 0 := by
    intro s t hs ht; positivity
  have h := key (T - 2000) (4000 - T) (by linarith) (by linarith)
  have e : 1 - X T - Y T = (1/10000) + ((1554582007/1600000000000000000000000000000) * (T - 2000) ^ 0 * (4000 - T) ^ 6 + (6877628477/800000000000000000000000000000) * (T - 2000) ^ 1 * (4000 - T) ^ 5 + (9374547949/320000000000000000000000000000) * (T - 2000) ^ 2 * (4000 - T) ^ 4 + (3954797371/80000000000000000000000000000) * (T - 2000) ^ 3 * (4000 - T) ^ 3 + (14194890181/320000000000000000000000000000) * (T - 2000) ^ 4 * (4000 - T) ^ 2 + (16300050197/800000000000000000000000000000) * (T - 2000) ^ 5 * (4000 - T) ^ 1 + (6054838863/1600000000000000000000000000000) * (T - 2000) ^ 6 * (4000 - T) ^ 0) := by
    simp only [X_eq, Y_eq]; ring
  linarith

theorem Z_pos_3 (T : ℝ) (h₁ : 4000 ≤ T) (h₂ : T ≤ 10000) : (1/10000) ≤ 1 - X T - Y T := by
  have key : ∀ s t : ℝ, 0 ≤ s → 0 ≤ t → 0 ≤ (2018279621/388800000000000000000000000000000) * s ^ 0 * t ^ 6 + (1583861051/38880000000000000000000000000000) * s ^ 1 * t ^ 5 + (362467631/3110400000000000000000000000000) * s ^ 2 * t ^ 4 + (41527979/259200000000000000000000000000) * s ^ 3 * t ^ 3 + (399784039/3110400000000000000000000000000) * s ^ 4 * t ^ 2 + (428929367/7776000000000000000000000000000) * s ^ 5 * t ^ 1 + (142673989/15552000000000000000000000000000) * s ^ 6 * t ^ 0 := by
    intro s t hs ht; positivity
  have h := key (T - 4000) (10000 - T) (by linarith) (by linarith)
  have e : 1 - X T - Y T = (1/10000) + ((2018279621/388800000000000000000000000000000) * (T - 4000) ^ 0 * (10000 - T) ^ 6 + (1583861051/38880000000000000000000000000000) * (T - 4000) ^ 1 * (10000 - T) ^ 5 + (362467631/3110400000000000000000000000000) * (T - 4000) ^ 2 * (10000 - T) ^ 4 + (41527979/259200000000000000000000000000) * (T - 4000) ^ 3 * (10000 - T) ^ 3 + (399784039/3110400000000000000000000000000) * (T - 4000) ^ 4 * (10000 - T) ^ 2 + (428929367/7776000000000000000000000000000) * (T - 4000) ^ 5 * (10000 - T) ^ 1 + (142673989/15552000000000000000000000000000) * (T - 4000) ^ 6 * (10000 - T) ^ 0) := by
    simp only [X_eq, Y_eq]; ring
  linarith

theorem Z_pos (T : ℝ) (h₁ : 1030 ≤ T) (h₂ : T ≤ 10000) : (1/10000) ≤ 1 - X T - Y T := by
  rcases le_total T 1300 with h | h
  · exact Z_pos_0 T (by linarith) h
  rcases le_total T 2000 with h | h
  · exact Z_pos_1 T (by linarith) h
  rcases le_total T 4000 with h | h
  · exact Z_pos_2 T (by linarith) h
  exact Z_pos_3 T (by linarith) h₂

theorem Z_neg (T : ℝ) (h₁ : 999 ≤ T) (h₂ : T ≤ 1020) : (9/100000) ≤ -(1 - X T - Y T) := by
  have key : ∀ s t : ℝ, 0 ≤ s → 0 ≤ t → 0 ≤ (6601783442286161842370041/1072076512500000000000000000000000000) * s ^ 0 * t ^ 6 + (557041571315223255978943/17867941875000000000000000000000000) * s ^ 1 * t ^ 5 + (5648593147550396892383/89339709375000000000000000000000) * s ^ 2 * t ^ 4 + (861815905977599364493/13400956406250000000000000000000) * s ^ 3 * t ^ 3 + (14723040036471734491/446698546875000000000000000000) * s ^ 4 * t ^ 2 + (777653655167430043/111674636718750000000000000000) * s ^ 5 * t ^ 1 + (27598766187019/261737429809570312500000000) * s ^ 6 * t ^ 0 := by
    intro s t hs ht; positivity
  have h := key (T - 999) (1020 - T) (by linarith) (by linarith)
  have e : -(1 - X T - Y T) = (9/100000) + ((6601783442286161842370041/1072076512500000000000000000000000000) * (T - 999) ^ 0 * (1020 - T) ^ 6 + (557041571315223255978943/17867941875000000000000000000000000) * (T - 999) ^ 1 * (1020 - T) ^ 5 + (5648593147550396892383/89339709375000000000000000000000) * (T - 999) ^ 2 * (1020 - T) ^ 4 + (861815905977599364493/13400956406250000000000000000000) * (T - 999) ^ 3 * (1020 - T) ^ 3 + (14723040036471734491/446698546875000000000000000000) * (T - 999) ^ 4 * (1020 - T) ^ 2 + (777653655167430043/111674636718750000000000000000) * (T - 999) ^ 5 * (1020 - T) ^ 1 + (27598766187019/261737429809570312500000000) * (T - 999) ^ 6 * (1020 - T) ^ 0) := by
    simp only [X_eq, Y_eq]; ring
  linarith

end CS.Locus
