import Verif.Props.Warm
import Verif.Props.Gamut

/-!
# C126: no set of primaries reproduces the spectrum

At each of 28 wavelengths the colour of monochromatic light is an extreme point of all colours of lights: a line through it has all
other wavelengths strictly on one side.  The kernel checks the lines against every entry of the tables.  So a mixture of lights can
match such a wavelength only if one of the lights is that wavelength, and 27 lights cannot match all 28.
-/

namespace CS
open Spectrum Tristimulus Warm Spec

namespace Reproduce

/-- For `CIE1931`: index, and coefficients of a line through its point with every other point on one side. -/
def side1931 : List (ℕ × (ℕ × ℕ × ℕ) × (ℕ × ℕ × ℕ)) := [
  (35, (72665215702496542, 455583326675699193, 0), (0, 0, 17867418117796474)),
  (40, (159719856704403680, 335355103496822149, 0), (0, 0, 35323071186377099)),
  (45, (32314526543572807399, 47694984454011469785, 0), (0, 0, 7014449305454487300)),
  (50, (30861474539379724, 40007358130523807, 0), (0, 0, 6658240456151833)),
  (55, (191102073459371960, 221726995082704646, 0), (0, 0, 40981240282321459)),
  (80, (32635277188059633, 30101606761409487, 0), (0, 0, 6767574294256117)),
  (85, (133615601824079549, 90410367433511464, 0), (0, 0, 26328253236936635)),
  (90, (616640421761285009, 300236929395506680, 0), (0, 0, 114769988996682176)),
  (95, (13464228140858475, 4721349538957431, 0), (0, 0, 2346569514255299)),
  (100, (90347594725754407396, 23913237491938083661, 0), (0, 0, 14718323099659356600)),
  (105, (107884885490554390000, 20303603835638965221, 0), (0, 0, 15724327040571500516)),
  (110, (218743260096123586, 26228770295699659, 0), (0, 0, 26781204163094628)),
  (115, (60330489589467243, 4521791706961489, 0), (0, 0, 5819964710969175)),
  (120, (8635986341571680, 280601919240992, 0), (0, 0, 488789533046109)),
  (125, (67219160231252706, 0, 777521927216033), (0, 801359905973411, 0)),
  (130, (80668648440025678, 0, 10752141976353833), (0, 4873175529128062, 0)),
  (135, (100577649357635999, 0, 37024263620444559), (0, 11612002372099416, 0)),
  (140, (852525495736741750667, 0, 745427055956666109000), (0, 158125278576904526799, 0)),
  (145, (457307510625213605113, 0, 831834975729858760000), (0, 123226757240806331857, 0)),
  (150, (155569462539117796, 0, 442645501567196100), (0, 51518190714961697, 0)),
  (155, (22914640558074016817, 0, 94105736227683506244), (0, 8723935192831294783, 0)),
  (160, (1102879622486944, 0, 7087377466864428), (0, 486530403508969, 0)),
  (165, (9726334912606835, 0, 104360858524376874), (0, 4995407704061337, 0)),
  (170, (64740508122187311647, 0, 1218337286226128055500), (0, 38918752616490628298, 0)),
  (175, (5008592332370921519, 0, 171842127309821101900), (0, 3552742264839107627, 0)),
  (180, (1885480892760107, 0, 120525255429078215), (0, 1598961695396270, 0)),
  (185, (102904581132109038807, 0, 12538522353814841400000), (0, 106572033286829380709, 0)),
  (190, (453613048164178, 0, 129574409807255742), (0, 648954584665081, 0))]

/-- For `CIE1931_JuddVos`: index, and coefficients of a line through its point with every other point on one side. -/
def sideJudd : List (ℕ × (ℕ × ℕ × ℕ) × (ℕ × ℕ × ℕ)) := [
  (35, (1587804977975334073673, 8916800660294367249120, 0), (0, 0, 48695467114838069)),
  (40, (41295190686804774875, 94556861421525242382, 0), (0, 0, 1044395330614060)),
  (45, (3937017587174471666687, 6211316981601145312180, 0), (0, 0, 94894047612334647)),
  (50, (97105386616248438750, 128784881500782636875, 0), (0, 0, 2297624538801378)),
  (55, (340927161161080935092, 416621407473682030640, 0), (0, 0, 7997380519138715)),
  (80, (254043969153666017000, 233413361047014737768, 0), (0, 0, 5662001697222899)),
  (85, (5404538385580455523093, 3722229386889796165415, 0), (0, 0, 113823718964596582)),
  (90, (267885656138005338029, 132265706948064431502, 0), (0, 0, 5283644396194354)),
  (95, (979222413888281302488, 350870108163195118366, 0), (0, 0, 18011193498033419)),
  (100, (2118267236761154578715, 563811065997955042502, 0), (0, 0, 36131935183317015)),
  (105, (60434436251307267050, 11416745291729600725, 0), (0, 0, 918011403902942)),
  (110, (2116956759267691218740, 258941783957492281853, 0), (0, 0, 27096694536963141)),
  (115, (2940576467185041086560, 218682583009804282209, 0), (0, 0, 29138306055265944)),
  (120, (14853198097736950420000, 452239535607145749186, 0), (0, 0, 82497262509681251)),
  (125, (6614754308543126838000, 0, 12443089473755182), (0, 101088925973197559855, 0)),
  (130, (40162183506949722810000, 0, 615399015199477921), (0, 2631384587548321826873, 0)),
  (135, (4948848639495913053010, 0, 201190381131577661), (0, 599483725948624151298, 0)),
  (140, (4371214492652767710000, 0, 368759593354248023), (0, 790505180663610638596, 0)),
  (145, (496492993172424518670, 0, 84305502671870602), (0, 128812531204564261477, 0)),
  (150, (19730662863015790850, 0, 5563314719668078), (0, 6490444329504052151, 0)),
  (155, (56763037355200588570, 0, 23622389086643525), (0, 21701205632079715752, 0)),
  (160, (154426238759624298800, 0, 99682465416303281), (0, 68320100148102662048, 0)),
  (165, (98315104505002110308, 0, 104861160755119062), (0, 50583409173766850325, 0)),
  (170, (11895947726590561311, 0, 22044099483262656), (0, 7162948629997856843, 0)),
  (175, (34596375196902515460, 0, 115746057091430395), (0, 24598764680728672448, 0)),
  (180, (1629766532015947075, 0, 10095294754869663), (0, 1389489123676206354, 0)),
  (185, (3552257754171369525, 0, 42008986155744963), (0, 3726395967541741219, 0)),
  (190, (197101805876051328, 0, 5207429875783208), (0, 282787227775453421, 0))]

/-- For `CIE2012`: index, and coefficients of a line through its point with every other point on one side. -/
def side2012 : List (ℕ × (ℕ × ℕ × ℕ) × (ℕ × ℕ × ℕ)) := [
  (35, (0, 33629564195581856260, 694204743952073784), (6865751400067175175, 0, 0)),
  (40, (9296125355272678233, 67918520676670527570, 0), (0, 0, 3108321882519742339)),
  (45, (9041348028180208198, 25319615989505215710, 0), (0, 0, 2230894722754140001)),
  (50, (24560439974897774103, 38343116488736855590, 0), (0, 0, 5435227886539763583)),
  (55, (3044047919840017362, 4026462233513706649, 0), (0, 0, 657651309138945721)),
  (80, (38263715015746817701, 18692353412936133710, 0), (0, 0, 7293022059456229647)),
  (85, (5015037596332981105, 1987973575005621611, 0), (0, 0, 926873051461731389)),
  (90, (4563485400219314984, 1550329013259460540, 0), (0, 0, 820367285657379233)),
  (95, (11536790440064179649, 3219687666437616779, 0), (0, 0, 1986335317198495846)),
  (100, (18720252334910173002, 4290878436140378917, 0), (0, 0, 3044190781340741805)),
  (105, (15441033771610465426, 2739957471726527596, 0), (0, 0, 2271860601464116549)),
  (110, (66072605254878961250, 7784531069040771877, 0), (0, 0, 7876941901090703265)),
  (115, (210830515428570548300, 10909053304458091163, 0), (0, 0, 14830427424680918067)),
  (120, (163179174167422425725, 950113816036320809, 0), (0, 0, 3082589840872935129)),
  (125, (89093915327109756600, 0, 4076574868249807209), (0, 2399240159293438058, 0)),
  (130, (15098427436640927480, 0, 4017438595842077356), (0, 1359952409628214209, 0)),
  (135, (7139357596850148396, 0, 4211039753411451633), (0, 1058446489926444785, 0)),
  (140, (37838974743884991468, 0, 40786058816562610192), (0, 7405300004458633027, 0)),
  (145, (1693342262513661863, 0, 3635963459991400325), (0, 441975077010068538, 0)),
  (150, (6283740895073236855, 0, 23000175760291964340), (0, 1986033532006529794, 0)),
  (155, (1902752709917077531, 0, 12143611870538105325), (0, 714122139348658460, 0)),
  (160, (1278368705142432241, 0, 14874824413756406490), (0, 568398708297868412, 0)),
  (165, (52550635350545782747, 0, 1105360148233000455800), (0, 27276017141336257181, 0)),
  (170, (15912156040568934377, 0, 579498566924234415800), (0, 9451469589752570130, 0)),
  (175, (869929932822799369, 0, 61270343597390904350), (0, 602255495896297871, 0)),
  (180, (2479707203148975297, 0, 322283168399735036375), (0, 1988966589036176584, 0)),
  (185, (56532988506569395954, 0, 13533218825325279183000), (0, 52115515561842796981, 0)),
  (190, (3900414046390652659, 0, 1768944960803974471875), (0, 4184133921055314550, 0))]

/-- The value of a linear form. -/
def lin (p : ℕ × ℕ × ℕ) (v : ℕ × ℕ × ℕ) : ℕ := Nat.add (Nat.add (Nat.mul p.1 v.1) (Nat.mul p.2.1 v.2.1)) (Nat.mul p.2.2 v.2.2)

/-- `p - n` is at least the sum of the components. -/
def apart (p n v : ℕ × ℕ × ℕ) : Bool := Nat.ble (Nat.add (lin n v) (lin (1, 1, 1) v)) (lin p v)

/-- All points but that at `w` are on one side. -/
def oneSided (L : List (ℕ × ℕ × ℕ)) (e : ℕ × (ℕ × ℕ × ℕ) × (ℕ × ℕ × ℕ)) : Bool :=
  (L.take e.1).all (apart e.2.1 e.2.2) && (L.drop (e.1 + 1)).all (apart e.2.1 e.2.2) &&
  Nat.beq (lin e.2.2 (L.getD e.1 (0, 0, 0))) (lin e.2.1 (L.getD e.1 (0, 0, 0)))

/-- The entries of the three tables. -/
def rows (t : Tables) : List (ℕ × ℕ × ℕ) := t.X.m.zip (t.Y.m.zip t.Z.m)

theorem sides1931 : (side1931.all (oneSided (rows cie1931))) = true := by decide +kernel
theorem sidesJudd : (sideJudd.all (oneSided (rows judd))) = true := by decide +kernel
theorem sides2012 : (side2012.all (oneSided (rows cie2012))) = true := by decide +kernel

/-- The wavelengths of the statement, in nm. -/
def wavelengths : List ℕ :=
  [415, 420, 425, 430, 435, 460, 465, 470, 475, 480, 485, 490, 495, 500, 505, 510, 515, 520, 525, 530, 535, 540, 545, 550, 555, 560, 565, 570]

theorem same1931 : side1931.map (fun e => e.1 + 380) = wavelengths := by decide
theorem sameJudd : sideJudd.map (fun e => e.1 + 380) = wavelengths := by decide
theorem same2012 : side2012.map (fun e => e.1 + 380) = wavelengths := by decide

/-- The row at an index. -/
def row (t : Tables) (i : ℕ) : ℕ × ℕ × ℕ := (ent t.X 1 i, ent t.Y 1 i, ent t.Z 1 i)

theorem rows_eq (t : Tables) : rows t = (List.range 400).map (row t) := by
  refine List.ext_getElem (by simp [rows, t.X.len, t.Y.len, t.Z.len]) fun i h1 h2 => ?_
  have hi : i < 400 := by simpa using h2
  simp only [rows, List.getElem_map, List.getElem_zip, List.getElem_range, row, ent, mul_one]
  rw [List.getD_eq_getElem _ _ (by rw [t.X.len]; exact hi), List.getD_eq_getElem _ _ (by rw [t.Y.len]; exact hi),
    List.getD_eq_getElem _ _ (by rw [t.Z.len]; exact hi)]

theorem oneSided_spec {t : Tables} {e : ℕ × (ℕ × ℕ × ℕ) × (ℕ × ℕ × ℕ)} (he : e.1 < 400) (h : oneSided (rows t) e = true) :
    (∀ i, i < 400 → i ≠ e.1 → lin e.2.2 (row t i) + lin (1, 1, 1) (row t i) ≤ lin e.2.1 (row t i)) ∧
    lin e.2.2 (row t e.1) = lin e.2.1 (row t e.1) := by
  have len : (rows t).length = 400 := by rw [rows_eq]; simp
  have get : ∀ i (hi : i < (rows t).length), (rows t)[i] = row t i := by
    intro i hi
    simp only [rows_eq, List.getElem_map, List.getElem_range]
  simp only [oneSided, Bool.and_eq_true, List.all_eq_true, Nat.beq_eq] at h
  obtain ⟨⟨a1, a2⟩, a3⟩ := h
  refine ⟨fun i hi hne => ?_, ?_⟩
  · rcases lt_or_gt_of_ne hne with q | q
    · have m : row t i ∈ (rows t).take e.1 := by
        have e' : ((rows t).take e.1)[i]'(by rw [List.length_take]; omega) = row t i := by rw [List.getElem_take, get]
        rw [← e']
        exact List.getElem_mem _
      exact Nat.le_of_ble_eq_true (a1 _ m)
    · have m : row t i ∈ (rows t).drop (e.1 + 1) := by
        have e' : ((rows t).drop (e.1 + 1))[i - (e.1 + 1)]'(by rw [List.length_drop]; omega) = row t i := by
          rw [List.getElem_drop, get]; congr 1; omega
        rw [← e']
        exact List.getElem_mem _
      exact Nat.le_of_ble_eq_true (a2 _ m)
  · rwa [List.getD_eq_getElem _ _ (by rw [len]; exact he), get] at a3

/-- The line at a wavelength. -/
structure Side (t : Tables) (w : Fin 400) (p n : ℕ × ℕ × ℕ) : Prop where
  off : ∀ i : Fin 400, i ≠ w → lin n (row t i) + lin (1, 1, 1) (row t i) ≤ lin p (row t i)
  on : lin n (row t w) = lin p (row t w)

theorem side_of {t : Tables} (ht : t ∈ three) {l : ℕ} (hl : l ∈ wavelengths) :
    ∃ w : Fin 400, l = 380 + w.val ∧ ∃ p n, Side t w p n := by
  have key : ∀ {L : List (ℕ × (ℕ × ℕ × ℕ) × (ℕ × ℕ × ℕ))}, L.map (fun e => e.1 + 380) = wavelengths → L.all (oneSided (rows t)) = true →
      ∃ w : Fin 400, l = 380 + w.val ∧ ∃ p n, Side t w p n := by
    intro L h1 h2
    rw [← h1, List.mem_map] at hl
    obtain ⟨e, he, rfl⟩ := hl
    have hw : e.1 + 380 ∈ wavelengths := by rw [← h1]; exact List.mem_map.2 ⟨e, he, rfl⟩
    have h4 : e.1 < 400 := by
      have : ∀ x ∈ wavelengths, x < 780 := by decide
      have := this _ hw
      omega
    obtain ⟨s1, s2⟩ := oneSided_spec h4 (List.all_eq_true.1 h2 e he)
    exact ⟨⟨e.1, h4⟩, Nat.add_comm _ _, e.2.1, e.2.2, fun i hi => s1 i i.2 fun q => hi (Fin.ext q), s2⟩
  simp only [three, List.mem_cons, List.not_mem_nil, or_false] at ht
  rcases ht with rfl | rfl | rfl
  · exact key same1931 sides1931
  · exact key sameJudd sidesJudd
  · exact key same2012 sides2012

/-! ## Lights -/

/-- The integral of a linear form of the tables. -/
noncomputable def tot (t : Tables) (p : ℕ × ℕ × ℕ) (b : Fin 400 → ℝ) : ℝ :=
  p.1 * wt (ent t.X 1) b + p.2.1 * wt (ent t.Y 1) b + p.2.2 * wt (ent t.Z 1) b

theorem tot_eq (t : Tables) (p : ℕ × ℕ × ℕ) (b : Fin 400 → ℝ) : tot t p b = ∑ i, b i * (lin p (row t i) : ℝ) := by
  simp only [tot, wt, Finset.mul_sum, ← Finset.sum_add_distrib]
  refine Finset.sum_congr rfl fun i _ => ?_
  have : ((lin p (row t i) : ℕ) : ℝ) = p.1 * (ent t.X 1 i : ℕ) + p.2.1 * (ent t.Y 1 i : ℕ) + p.2.2 * (ent t.Z 1 i : ℕ) := by
    have e : lin p (row t i) = p.1 * ent t.X 1 i + p.2.1 * ent t.Y 1 i + p.2.2 * ent t.Z 1 i := rfl
    rw [e]; push_cast; ring
  rw [this]
  ring

/-- The light at other wavelengths. -/
noncomputable def away (t : Tables) (w : Fin 400) (b : Fin 400 → ℝ) : ℝ :=
  ∑ i, if i = w then 0 else b i * (lin (1, 1, 1) (row t i) : ℝ)

theorem away_nonneg (t : Tables) (w : Fin 400) {b : Fin 400 → ℝ} (hb : ∀ i, 0 ≤ b i) (i : Fin 400) :
    0 ≤ if i = w then 0 else b i * (lin (1, 1, 1) (row t i) : ℝ) := by
  split
  · exact le_rfl
  · exact mul_nonneg (hb i) (Nat.cast_nonneg _)

theorem away_le {t : Tables} {w : Fin 400} {p n : ℕ × ℕ × ℕ} (s : Side t w p n) {b : Fin 400 → ℝ} (hb : ∀ i, 0 ≤ b i) :
    away t w b ≤ tot t p b - tot t n b := by
  rw [tot_eq, tot_eq, ← Finset.sum_sub_distrib, away]
  refine Finset.sum_le_sum fun i _ => ?_
  split
  · next h => rw [h, s.on, sub_self]
  · next h =>
    have : ((lin n (row t i) : ℕ) : ℝ) + (lin (1, 1, 1) (row t i) : ℕ) ≤ (lin p (row t i) : ℕ) := by exact_mod_cast s.off i h
    have := mul_le_mul_of_nonneg_left this (hb i)
    linarith

/-- The light of a single wavelength. -/
def line (w : Fin 400) : Spectrum ℝ := fun i => if i = w then 1 else 0

theorem tot_line (t : Tables) (w : Fin 400) (p : ℕ × ℕ × ℕ) : tot t p (line w) = lin p (row t w) := by
  rw [tot_eq, Finset.sum_eq_single w]
  · simp [line]
  · intro i _ hi; simp [line, hi]
  · simp

/-- A light seen as one wavelength twice has no visible power. -/
theorem dark {t : Tables} {w w' : Fin 400} (hne : w ≠ w') {b : Fin 400 → ℝ} (hb : ∀ i, 0 ≤ b i) (h : away t w b = 0) (h' : away t w' b = 0) :
    tot t (1, 1, 1) b = 0 := by
  rw [tot_eq]
  refine Finset.sum_eq_zero fun i _ => ?_
  have z := (Finset.sum_eq_zero_iff_of_nonneg fun i _ => away_nonneg t w hb i).1 h i (Finset.mem_univ _)
  have z' := (Finset.sum_eq_zero_iff_of_nonneg fun i _ => away_nonneg t w' hb i).1 h' i (Finset.mem_univ _)
  by_cases q : i = w
  · have q' : i ≠ w' := by rw [q]; exact hne
    rwa [if_neg q'] at z'
  · rwa [if_neg q] at z

theorem fromSpectrum_eq (t : Tables) (l : Spectrum ℝ) :
    t.obs.fromSpectrum l = ⟨wt (ent t.X 1) l / t.a, wt (ent t.Y 1) l / t.b, wt (ent t.Z 1) l / t.c⟩ := by
  have hx : (t.obs.fromSpectrum l).a = wt (ent t.X 1) l / t.a := by rw [← t.sums.1]; exact comp_eq t.X l
  have hy : (t.obs.fromSpectrum l).b = wt (ent t.Y 1) l / t.b := by rw [← t.sums.2.1]; exact comp_eq t.Y l
  have hz : (t.obs.fromSpectrum l).c = wt (ent t.Z 1) l / t.c := by rw [← t.sums.2.2]; exact comp_eq t.Z l
  rw [← hx, ← hy, ← hz]

/-- A mixture that matches in X, Y and Z matches in every linear form. -/
theorem tot_mix {t : Tables} {n : ℕ} {lights : Fin n → Spectrum ℝ} {a : Fin n → ℝ} {l : Spectrum ℝ}
    (h : triV (t.obs.fromSpectrum l) = ∑ j, a j • triV (t.obs.fromSpectrum (lights j))) (p : ℕ × ℕ × ℕ) :
    tot t p l = ∑ j, a j * tot t p (lights j) := by
  have a0 : (t.a : ℝ) ≠ 0 := by exact_mod_cast t.pos.1.ne'
  have b0 : (t.b : ℝ) ≠ 0 := by exact_mod_cast t.pos.2.1.ne'
  have c0 : (t.c : ℝ) ≠ 0 := by exact_mod_cast t.pos.2.2.ne'
  have h0 := congrFun h 0
  have h1 := congrFun h 1
  have h2 := congrFun h 2
  simp only [fromSpectrum_eq, triV, Finset.sum_apply, Pi.smul_apply, smul_eq_mul, Matrix.cons_val_zero, Matrix.cons_val_one,
    Matrix.cons_val, mul_div_assoc', ← Finset.sum_div] at h0 h1 h2
  rw [div_left_inj' a0] at h0
  rw [div_left_inj' b0] at h1
  rw [div_left_inj' c0] at h2
  simp only [tot]
  rw [h0, h1, h2, Finset.mul_sum, Finset.mul_sum, Finset.mul_sum, ← Finset.sum_add_distrib, ← Finset.sum_add_distrib]
  exact Finset.sum_congr rfl fun j _ => by ring

theorem visible : (three.all fun t => wavelengths.all fun l => Nat.blt 0 (lin (1, 1, 1) ((rows t).getD (l - 380) (0, 0, 0)))) = true := by
  decide +kernel

theorem line_pos {t : Tables} (ht : t ∈ three) {w : Fin 400} (hw : 380 + w.val ∈ wavelengths) : 0 < tot t (1, 1, 1) (line w) := by
  have := List.all_eq_true.1 (List.all_eq_true.1 visible t ht) _ hw
  rw [Nat.add_sub_cancel_left, List.getD_eq_getElem _ _ (by rw [rows_eq]; simp)] at this
  simp only [rows_eq, List.getElem_map, List.getElem_range] at this
  rw [tot_line]
  exact Nat.cast_pos.2 (by simpa using this)

/-- One of the lights of a mixture that matches a wavelength is that wavelength. -/
theorem carrier {t : Tables} (ht : t ∈ three) {w : Fin 400} (hw : 380 + w.val ∈ wavelengths) {p q : ℕ × ℕ × ℕ} (s : Side t w p q) {n : ℕ}
    {lights : Fin n → Spectrum ℝ} (hl : ∀ j i, 0 ≤ lights j i) {a : Fin n → ℝ} (ha : ∀ j, 0 ≤ a j)
    (h : triV (t.obs.fromSpectrum (line w)) = ∑ j, a j • triV (t.obs.fromSpectrum (lights j))) :
    ∃ j, tot t (1, 1, 1) (lights j) ≠ 0 ∧ away t w (lights j) = 0 := by
  have h1 := tot_mix h (1, 1, 1)
  have pos := line_pos ht hw
  rw [h1] at pos
  obtain ⟨j, -, hj⟩ := Finset.exists_ne_zero_of_sum_ne_zero pos.ne'
  have aj : a j ≠ 0 := left_ne_zero_of_mul hj
  refine ⟨j, right_ne_zero_of_mul hj, ?_⟩
  have z : ∑ k, a k * (tot t p (lights k) - tot t q (lights k)) = 0 := by
    simp only [mul_sub, Finset.sum_sub_distrib]
    rw [← tot_mix h p, ← tot_mix h q, tot_line, tot_line, s.on, sub_self]
  have nn : ∀ k, 0 ≤ away t w (lights k) := fun k => Finset.sum_nonneg fun i _ => away_nonneg t w (hl k) i
  have nn' : ∀ k ∈ Finset.univ, 0 ≤ a k * (tot t p (lights k) - tot t q (lights k)) :=
    fun k _ => mul_nonneg (ha k) ((nn k).trans (away_le s (hl k)))
  have zj := (Finset.sum_eq_zero_iff_of_nonneg nn').1 z j (Finset.mem_univ _)
  rcases mul_eq_zero.1 zj with r | r
  · exact absurd r aj
  · exact le_antisymm ((away_le s (hl j)).trans r.le) (nn j)

theorem xyz_eq (t : Tables) (w : Fin 400) : (t.obs : Observer ℝ).xyz (380 + (w.val : ℝ)) = .ok (t.obs.fromSpectrum (line w)) := by
  have dot : ∀ s : Spectrum ℝ, (line w).dot s = s w := by
    intro s
    rw [dot_eq, Finset.sum_eq_single w]
    · simp [line]
    · intro i _ hi; simp [line, hi]
    · simp
  unfold Observer.xyz Observer.fetch3 Observer.fromSpectrum Observer.SpectrumIntegrate
  rw [C38_spectrum_at, C38_spectrum_at, C38_spectrum_at, dot, dot, dot]
  rfl

end Reproduce

open Reproduce

/-- **C126.** However 27 lights (or fewer) are chosen, one of 28 wavelengths cannot be matched by mixing them, for each observer. -/
theorem C126_lights (o : Observer ℝ) (ho : o ∈ observers) {n : ℕ} (hn : n < 28) (lights : Fin n → Spectrum ℝ) (hl : ∀ j i, 0 ≤ lights j i) :
    ∃ w ∈ wavelengths, ∃ m, o.xyz (w : ℝ) = .ok m ∧
      ∀ a : Fin n → ℝ, (∀ j, 0 ≤ a j) → triV m ≠ ∑ j, a j • triV (o.fromSpectrum (lights j)) := by
  obtain ⟨t, ht, rfl⟩ := observers_tables ho
  by_contra hc
  push Not at hc
  have key : ∀ k : Fin 28, ∃ (w : Fin 400) (j : Fin n), wavelengths.getD k 0 = 380 + w.val ∧ tot t (1, 1, 1) (lights j) ≠ 0 ∧ away t w (lights j) = 0 := by
    intro k
    have hk : wavelengths.getD k 0 ∈ wavelengths := by
      rw [List.getD_eq_getElem _ _ (by exact k.2)]; exact List.getElem_mem _
    obtain ⟨w, hw, p, q, s⟩ := side_of ht hk
    obtain ⟨a, ha, e⟩ := hc _ hk _ (by rw [hw]; push_cast; exact xyz_eq t w)
    obtain ⟨j, h1, h2⟩ := carrier ht (by rw [← hw]; exact hk) s hl ha e
    exact ⟨w, j, hw, h1, h2⟩
  choose w j hw h1 h2 using key
  have inj : Function.Injective j := by
    intro x y hxy
    by_contra hne
    have nw : w x ≠ w y := by
      intro e
      have : wavelengths.getD x 0 = wavelengths.getD y 0 := by rw [hw, hw, e]
      have inj : ∀ x y : Fin 28, wavelengths.getD x 0 = wavelengths.getD y 0 → x = y := by decide
      exact hne (inj x y this)
    have h2y := h2 y
    rw [← hxy] at h2y
    exact h1 x (dark nw (hl (j x)) (h2 x) h2y)
  have := Fintype.card_le_of_injective j inj
  simp only [Fintype.card_fin] at this
  omega

/-- **C126, RGB spaces.** Every RGB space whose primaries are colours of lights gives some monochromatic light a negative component. -/
theorem C126_space (o : Observer ℝ) (ho : o ∈ observers) (g : Gamut ℝ) (hg : ∀ t, g.toXYZ (g.fromXYZ t) = t) (r u b : Spectrum ℝ)
    (hr : ∀ i, 0 ≤ r i) (hu : ∀ i, 0 ≤ u i) (hb : ∀ i, 0 ≤ b i) (er : g.toXYZ ⟨1, 0, 0⟩ = o.fromSpectrum r)
    (eu : g.toXYZ ⟨0, 1, 0⟩ = o.fromSpectrum u) (eb : g.toXYZ ⟨0, 0, 1⟩ = o.fromSpectrum b) :
    ∃ w ∈ wavelengths, ∃ m, o.xyz (w : ℝ) = .ok m ∧ ((g.fromXYZ m).a < 0 ∨ (g.fromXYZ m).b < 0 ∨ (g.fromXYZ m).c < 0) := by
  obtain ⟨w, hw, m, hm, h⟩ := C126_lights o ho (n := 3) (by norm_num) ![r, u, b] (by
    intro j; fin_cases j <;> simpa)
  refine ⟨w, hw, m, hm, ?_⟩
  by_contra hc
  push Not at hc
  refine h ![(g.fromXYZ m).a, (g.fromXYZ m).b, (g.fromXYZ m).c] (by intro j; fin_cases j <;> simp [hc]) ?_
  have e := congrArg triV (hg m)
  rw [← e]
  generalize g.fromXYZ m = c
  rw [Fin.sum_univ_three]
  simp only [Matrix.cons_val_zero, Matrix.cons_val_one, Matrix.cons_val, ← er, ← eu, ← eb]
  ext i
  fin_cases i <;> simp [Gamut.toXYZ, Tristimulus.apply, Matrix3.apply, Tristimulus.vec3, Tristimulus.ofVec3, triV] <;> ring

theorem Reproduce.wt_line (P : ℕ → ℕ) (w : Fin 400) : wt P (line w) = P w := by
  unfold wt
  rw [Finset.sum_eq_single w]
  · simp [line]
  · intro i _ hi; simp [line, hi]
  · simp

theorem Reproduce.entries :
    [240, 160, 70].map (ent cie1931.X 1) = [85444990000, 29040000000, 33620000000] ∧
    [240, 160, 70].map (ent cie1931.Y 1) = [38100000000, 95400000000, 3800000000] ∧
    [240, 160, 70].map (ent cie1931.Z 1) = [19000000, 2030000000, 177211000000] := by decide +kernel

/-- The hypotheses of `C126_space` are met, by the space with monochromatic primaries at 620 nm, 540 nm and 450 nm. -/
example : ∃ (g : Gamut ℝ) (r u b : Spectrum ℝ), (∀ t, g.toXYZ (g.fromXYZ t) = t) ∧ (∀ i, 0 ≤ r i) ∧ (∀ i, 0 ≤ u i) ∧ (∀ i, 0 ≤ b i) ∧
    g.toXYZ ⟨1, 0, 0⟩ = (CIE1931 : Observer ℝ).fromSpectrum r ∧ g.toXYZ ⟨0, 1, 0⟩ = (CIE1931 : Observer ℝ).fromSpectrum u ∧
    g.toXYZ ⟨0, 0, 1⟩ = (CIE1931 : Observer ℝ).fromSpectrum b := by
  have nn : ∀ w i, 0 ≤ line w i := by
    intro w i
    unfold line
    split <;> norm_num
  have e := Reproduce.entries
  simp only [List.map_cons, List.map_nil, List.cons.injEq, and_true] at e
  obtain ⟨⟨x1, x2, x3⟩, ⟨y1, y2, y3⟩, z1, z2, z3⟩ := e
  have er : (CIE1931 : Observer ℝ).fromSpectrum (line 240) = _ := fromSpectrum_eq cie1931 (line 240)
  have eu : (CIE1931 : Observer ℝ).fromSpectrum (line 160) = _ := fromSpectrum_eq cie1931 (line 160)
  have eb : (CIE1931 : Observer ℝ).fromSpectrum (line 70) = _ := fromSpectrum_eq cie1931 (line 70)
  simp only [Reproduce.wt_line] at er eu eb
  rw [show ((240 : Fin 400) : ℕ) = 240 from rfl, x1, y1, z1] at er
  rw [show ((160 : Fin 400) : ℕ) = 160 from rfl, x2, y2, z2] at eu
  rw [show ((70 : Fin 400) : ℕ) = 70 from rfl, x3, y3, z3] at eb
  have ca : cie1931.a = 10685504379336 := rfl
  have cb : cie1931.b = 10685641128788 := rfl
  have cc : cie1931.c = 10684608243163 := rfl
  rw [ca, cb, cc] at er eu eb
  push_cast at er eu eb
  let M : Matrix3 ℝ := ⟨85444990000 / 10685504379336, 29040000000 / 10685504379336, 33620000000 / 10685504379336,
    38100000000 / 10685641128788, 95400000000 / 10685641128788, 3800000000 / 10685641128788,
    19000000 / 10684608243163, 2030000000 / 10684608243163, 177211000000 / 10684608243163⟩
  have hd : M.det ≠ 0 := by
    simp only [M, Matrix3.det, Matrix3.get, Matrix3.I]
    norm_num
  refine ⟨⟨"", M, M.invert⟩, line 240, line 160, line 70, fun t => ?_, nn _, nn _, nn _, ?_, ?_, ?_⟩
  · have := Matrix3.apply_invert M hd t.vec3
    simp only [Gamut.toXYZ, Gamut.fromXYZ, Tristimulus.apply]
    show Tristimulus.ofVec3 (M.apply (Tristimulus.ofVec3 (M.invert.apply t.vec3)).vec3) = t
    rw [show (Tristimulus.ofVec3 (M.invert.apply t.vec3)).vec3 = M.invert.apply t.vec3 from rfl, this]
    rfl
  · rw [er]; simp [Gamut.toXYZ, Tristimulus.apply, Matrix3.apply, Tristimulus.vec3, Tristimulus.ofVec3, M, Matrix3.get, Matrix3.M, Vector3.get]
  · rw [eu]; simp [Gamut.toXYZ, Tristimulus.apply, Matrix3.apply, Tristimulus.vec3, Tristimulus.ofVec3, M, Matrix3.get, Matrix3.M, Vector3.get]
  · rw [eb]; simp [Gamut.toXYZ, Tristimulus.apply, Matrix3.apply, Tristimulus.vec3, Tristimulus.ofVec3, M, Matrix3.get, Matrix3.M, Vector3.get]

end CS
