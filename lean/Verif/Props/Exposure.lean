import Verif.Lemmas.FloatScale
import Verif.Props.GamutFloat
import Verif.Props.SpectrumFloat

/-!
# C98: changing the exposure by whole stops, bit for bit
-/

namespace CS
open B32 F32 Tristimulus

/-- A finite float of magnitude at most `2^30` that is a multiple of `2^-53`; every float between `2^-30` and `2^30` is. -/
def Moderate (x : F32) : Prop := x.isFinite = true ∧ (∃ m : ℤ, x.val = m * 2 ^ (-53 : ℤ)) ∧ |x.val| ≤ 2 ^ 30

/-- The same for the components of a colour. -/
def ModerateT (t : Tristimulus F32) : Prop := Moderate t.a ∧ Moderate t.b ∧ Moderate t.c

/-- The same for the entries of a matrix. -/
def ModerateM (m : Matrix3 F32) : Prop := (Moderate m.m0 ∧ Moderate m.m1 ∧ Moderate m.m2) ∧
  (Moderate m.m3 ∧ Moderate m.m4 ∧ Moderate m.m5) ∧ Moderate m.m6 ∧ Moderate m.m7 ∧ Moderate m.m8

theorem Moderate.md {x : F32} (h : Moderate x) : Md (-53) (2 ^ 30) x :=
  ⟨h.1, h.2.1, h.2.2⟩

/-- Zero and the floats of magnitude between `2^-30` and `2^30` are moderate. -/
theorem moderate_of_le {x : F32} (hx : x.isFinite = true) (h : x.val = 0 ∨ 2 ^ (-30 : ℤ) ≤ |x.val|) (h' : |x.val| ≤ 2 ^ 30) :
    Moderate x :=
  ⟨hx, by have := Mult.of_rep (e := -30) (rep_val x) h; norm_num at this; exact this, h'⟩

section
variable {k : ℤ} (h1 : -20 ≤ k) (h2 : k ≤ 20)
include h1 h2

theorem Moderate.sc {x : F32} (h : Moderate x) : Sc k (-53) (2 ^ 30) x (x * lit (2 ^ k)) :=
  h.md.scale (by norm_num) (by omega) h2 (by norm_num) (by omega)

/-- One row of a matrix application. -/
theorem row_sc {a b c x y z x' y' z' : F32} (ha : Moderate a) (hb : Moderate b) (hc : Moderate c)
    (hx : Sc k (-53) (2 ^ 30) x x') (hy : Sc k (-53) (2 ^ 30) y y') (hz : Sc k (-53) (2 ^ 30) z z') :
    Sc k (-106) (2 ^ 62) (a * x + b * y + c * z) (a * x' + b * y' + c * z') := by
  have one : ∀ {a x x' : F32}, Moderate a → Sc k (-53) (2 ^ 30) x x' → Sc k (-106) (2 ^ 60) (a * x) (a * x') := by
    intro a x x' ha hx
    exact hx.mul_left ha.md (CS.rep_pow 60) (by norm_num) (by norm_num) h2 (by norm_num) (by omega)
  refine Sc.add (A := 2 ^ 61) (B := 2 ^ 60) ?_ (one hc hz) (CS.rep_pow 62) (by norm_num) (by norm_num) h2 (by norm_num) (by omega)
  exact (one ha hx).add (one hb hy) (CS.rep_pow 61) (by norm_num) (by norm_num) h2 (by norm_num) (by omega)

/-- C98: applying a matrix to a colour exposed by `k` stops gives the result exposed by `k` stops, bit for bit. -/
theorem C98_apply (m : Matrix3 F32) (hm : ModerateM m) (t : Tristimulus F32) (ht : ModerateT t) :
    (t.scale (lit (2 ^ k))).apply m = (t.apply m).scale (lit (2 ^ k)) := by
  obtain ⟨⟨m0, m1, m2⟩, ⟨m3, m4, m5⟩, m6, m7, m8⟩ := hm
  obtain ⟨ta, tb, tc⟩ := ht
  have fin : ∀ {x y : F32}, Sc k (-106) (2 ^ 62) x y → y = x * lit (2 ^ k) := fun h =>
    h.eq_mul (by norm_num) (by omega) h2 (by norm_num) (by omega)
  exact Tristimulus.ext (fin (row_sc h1 h2 m0 m1 m2 (ta.sc h1 h2) (tb.sc h1 h2) (tc.sc h1 h2)))
    (fin (row_sc h1 h2 m3 m4 m5 (ta.sc h1 h2) (tb.sc h1 h2) (tc.sc h1 h2)))
    (fin (row_sc h1 h2 m6 m7 m8 (ta.sc h1 h2) (tb.sc h1 h2) (tc.sc h1 h2)))

end

/-- Whether a float is moderate; evaluated by the kernel. -/
def moderate (x : F32) : Bool := x.isFinite && decide ((x.val * 2 ^ 53).den = 1) && decide (|x.val| ≤ 2 ^ 30)

theorem moderate_iff {x : F32} (h : moderate x = true) : Moderate x := by
  simp only [moderate, Bool.and_eq_true, decide_eq_true_eq] at h
  obtain ⟨⟨h1, h2⟩, h3⟩ := h
  refine ⟨h1, ⟨(x.val * 2 ^ 53).num, ?_⟩, h3⟩
  have := Rat.num_div_den (x.val * 2 ^ 53)
  rw [h2] at this
  rw [show (2 : ℚ) ^ (-53 : ℤ) = 1 / 2 ^ 53 by norm_num]
  field_simp
  rw [← this]
  simp

/-- The same for a matrix. -/
def moderateM (m : Matrix3 F32) : Bool :=
  (moderate m.m0 && moderate m.m1 && moderate m.m2) && (moderate m.m3 && moderate m.m4 && moderate m.m5) &&
  (moderate m.m6 && moderate m.m7 && moderate m.m8)

theorem moderateM_iff {m : Matrix3 F32} (h : moderateM m = true) : ModerateM m := by
  simp only [moderateM, Bool.and_eq_true] at h
  obtain ⟨⟨⟨⟨a, b⟩, c⟩, ⟨d, e⟩, f⟩, ⟨g, i⟩, j⟩ := h
  exact ⟨⟨moderate_iff a, moderate_iff b, moderate_iff c⟩, ⟨moderate_iff d, moderate_iff e, moderate_iff f⟩,
    moderate_iff g, moderate_iff i, moderate_iff j⟩

set_option maxRecDepth 100000 in
theorem predefined_moderate : (predefinedF32.all fun g => moderateM g.toXYZ_ && moderateM g.fromXYZ_) = true := by
  decide +kernel

set_option maxRecDepth 100000 in
theorem convert_moderate : (rgbF32.all fun a => rgbF32.all fun b => moderateM (GamutConvert a b)) = true := by
  decide +kernel

/-- C98: so conversion between any predefined gamut and XYZ, and between any two RGB spaces, commutes with exposure by
whole stops, bit for bit. -/
theorem C98_gamut (t : Tristimulus F32) (ht : ModerateT t) (k : ℤ) (h1 : -20 ≤ k) (h2 : k ≤ 20) :
    (∀ g ∈ predefinedF32, g.toXYZ (t.scale (lit (2 ^ k))) = (g.toXYZ t).scale (lit (2 ^ k)) ∧
      g.fromXYZ (t.scale (lit (2 ^ k))) = (g.fromXYZ t).scale (lit (2 ^ k))) ∧
    ∀ a ∈ rgbF32, ∀ b ∈ rgbF32, (t.scale (lit (2 ^ k))).apply (GamutConvert a b) =
      (t.apply (GamutConvert a b)).scale (lit (2 ^ k)) := by
  refine ⟨fun g hg => ?_, fun a ha b hb => ?_⟩
  · have h := List.all_eq_true.1 predefined_moderate g hg
    rw [Bool.and_eq_true] at h
    exact ⟨C98_apply h1 h2 _ (moderateM_iff h.1) t ht, C98_apply h1 h2 _ (moderateM_iff h.2) t ht⟩
  · have h := List.all_eq_true.1 (List.all_eq_true.1 convert_moderate a ha) b hb
    exact C98_apply h1 h2 _ (moderateM_iff h) t ht

/-- The code does not take the colour for black (hpp:284, 288). -/
def NotBlack (t : Tristimulus F32) : Prop := Arith.lt (abs_f (t.a + t.b + t.c)) (lit 1e-8) = false

/-- C98: exposure by whole stops leaves the chromaticity coordinates alone, bit for bit, and scales the luminance. -/
theorem C98_chromaticity (t : Tristimulus F32) (ht : ModerateT t) (k : ℤ) (h1 : -20 ≤ k) (h2 : k ≤ 20)
    (hb : NotBlack t) (hb' : NotBlack (t.scale (lit (2 ^ k)))) :
    (t.scale (lit (2 ^ k))).toYxy = ⟨t.toYxy.a * lit (2 ^ k), t.toYxy.b, t.toYxy.c⟩ ∧
    (t.scale (lit (2 ^ k))).toYuv = ⟨t.toYuv.a * lit (2 ^ k), t.toYuv.b, t.toYuv.c⟩ := by
  obtain ⟨ta, tb, tc⟩ := ht
  have sa := ta.sc h1 h2
  have sb := tb.sc h1 h2
  have sc := tc.sc h1 h2
  have sum : Sc k (-53) (2 ^ 32) (t.a + t.b + t.c) (t.a * lit (2 ^ k) + t.b * lit (2 ^ k) + t.c * lit (2 ^ k)) := by
    refine Sc.add (A := 2 ^ 31) (B := 2 ^ 30) ?_ sc (CS.rep_pow 32) (by norm_num) (by norm_num) h2 (by norm_num) (by omega)
    exact sa.add sb (CS.rep_pow 31) (by norm_num) (by norm_num) h2 (by norm_num) (by omega)
  have hx : x_from_XYZ (t.a * lit (2 ^ k)) (t.b * lit (2 ^ k)) (t.c * lit (2 ^ k)) = x_from_XYZ t.a t.b t.c := by
    unfold x_from_XYZ
    unfold NotBlack at hb hb'
    simp only [scale] at hb'
    rw [hb, hb', if_neg Bool.false_ne_true, if_neg Bool.false_ne_true]
    exact sa.div sum
  have hy : y_from_XYZ (t.a * lit (2 ^ k)) (t.b * lit (2 ^ k)) (t.c * lit (2 ^ k)) = y_from_XYZ t.a t.b t.c := by
    unfold y_from_XYZ
    unfold NotBlack at hb hb'
    simp only [scale] at hb'
    rw [hb, hb', if_neg Bool.false_ne_true, if_neg Bool.false_ne_true]
    exact sb.div sum
  have key : (t.scale (lit (2 ^ k))).toYxy = ⟨t.toYxy.a * lit (2 ^ k), t.toYxy.b, t.toYxy.c⟩ := by
    simp only [toYxy, toYxy3, scale, hx, hy, Y_from_XYZ]
  refine ⟨key, ?_⟩
  simp only [toYuv, key, YxyToYuv]

/-- C98: exposure by whole stops leaves hue and saturation alone, bit for bit, and scales the value. -/
theorem C98_hsv (t : Tristimulus F32) (ht : ModerateT t) (k : ℤ) (h1 : -20 ≤ k) (h2 : k ≤ 20) :
    (t.scale (lit (2 ^ k))).toHSV = t.toHSV.map fun h => ⟨h.a, h.b, h.c * lit (2 ^ k)⟩ := by
  obtain ⟨ta, tb, tc⟩ := ht
  have sa := ta.sc h1 h2
  have sb := tb.sc h1 h2
  have sc := tc.sc h1 h2
  have smax := (sa.maxi sb).maxi sc
  have smin := (sa.mini sb).mini sc
  have sub : ∀ {x y u v : F32}, Sc k (-53) (2 ^ 30) x y → Sc k (-53) (2 ^ 30) u v → Sc k (-53) (2 ^ 31) (x - u) (y - v) :=
    fun h h' => h.sub h' (CS.rep_pow 31) (by norm_num) (by norm_num) h2 (by norm_num) (by omega)
  have sd := sub smax smin
  have m60 : Md 0 64 (lit 60) := by
    have r : Rep 60 := by exact_mod_cast rep_int (n := 60) (by norm_num)
    have : (lit 60 : F32).isFinite = true ∧ (lit 60 : F32).val = 60 := pack_val_of_rep r (by norm_num)
    exact ⟨this.1, ⟨60, by rw [this.2]; norm_num⟩, by rw [this.2]; norm_num⟩
  have s60 : ∀ {x y : F32}, Sc k (-53) (2 ^ 31) x y → Sc k (-53) (2 ^ 37) (lit 60 * x) (lit 60 * y) := fun h => by
    have := h.mul_left m60 (CS.rep_pow 37) (by norm_num) (by norm_num) h2 (by norm_num) (by omega)
    simpa using this
  have hue : (t.scale (lit (2 ^ k))).rawHue = t.rawHue := by
    simp only [rawHue, scale, smax.eq smin, smax.eq sa, smax.eq sb, (s60 (sub sb sc)).div sd, (s60 (sub sc sa)).div sd,
      (s60 (sub sa sb)).div sd]
  simp only [toHSV, hue, Option.map_map]
  congr 1
  funext h
  have e0 := smax.eq (Sc.zero (k := k) (n := 0))
  simp only [Function.comp, scale, e0, sd.div smax]
  rw [smax.eq_mul (by norm_num) (by omega) h2 (by norm_num) (by omega)]

/-- C98: CIELAB relative to a white exposed by the same number of stops is the same, bit for bit, whatever the library. -/
theorem C98_lab (o : F32.Oracle) (t w : Tristimulus F32) (ht : ModerateT t) (hw : ModerateT w) (k : ℤ) (h1 : -20 ≤ k) (h2 : k ≤ 20) :
    letI := F32.libm o
    (t.scale (lit (2 ^ k))).toCIELAB (w.scale (lit (2 ^ k))) = t.toCIELAB w := by
  obtain ⟨ta, tb, tc⟩ := ht
  obtain ⟨wa, wb, wc⟩ := hw
  have ea := (ta.sc h1 h2).div (wa.sc h1 h2)
  have eb := (tb.sc h1 h2).div (wb.sc h1 h2)
  have ec := (tc.sc h1 h2).div (wc.sc h1 h2)
  let := F32.libm o
  let F : F32 → F32 → F32 → Tristimulus F32 := fun x y z =>
    ⟨lit 116 * CIELAB_curve y - lit 16, lit 500 * (CIELAB_curve x - CIELAB_curve y), lit 200 * (CIELAB_curve y - CIELAB_curve z)⟩
  show F (t.a * lit (2 ^ k) / (w.a * lit (2 ^ k))) (t.b * lit (2 ^ k) / (w.b * lit (2 ^ k))) (t.c * lit (2 ^ k) / (w.c * lit (2 ^ k))) =
    F (t.a / w.a) (t.b / w.b) (t.c / w.c)
  exact congr (congr (congrArg F ea) eb) ec

/-! ## Spectra -/

section
open Spectrum Data.Table

/-- No non-zero entry is below `2^-29`; evaluated by the kernel. -/
def _root_.CS.Data.Table.notTiny (t : Data.Table) : Bool := t.m.all fun m => m == 0 || decide (10 ^ t.scale ≤ m * 2 ^ 29)

theorem curves_notTiny :
    [Data.CIE.CIE1931_X, Data.CIE.CIE1931_Y, Data.CIE.CIE1931_Z, Data.CIE.CIE1931_JuddVos_X,
      Data.CIE.CIE1931_JuddVos_Y, Data.CIE.CIE1931_JuddVos_Z, Data.CIE.CIE2012_X, Data.CIE.CIE2012_Y,
      Data.CIE.CIE2012_Z].all Data.Table.notTiny = true := by decide +kernel

theorem curve_md {t : Data.Table} (h : t.curve = true) (h' : t.notTiny = true) (i : Fin 400) :
    Md (-52) 2 ((ofTable t : Spectrum F32) i) := by
  obtain ⟨n, v⟩ := curve_nn h i
  refine ⟨n.fin, ?_, abs_le.2 ⟨by linarith [n.nonneg], n.le⟩⟩
  have := (List.all_eq_true.1 h') (t.m[i.val]'(by rw [t.len]; exact i.2)) (List.getElem_mem _)
  simp only [Bool.or_eq_true, beq_iff_eq, decide_eq_true_eq] at this
  refine Mult.of_rep (e := -29) (rep_val _) ?_
  rw [v]
  have hq : t.q i = (t.m[i.val]'(by rw [t.len]; exact i.2) : ℚ) / 10 ^ t.scale := rfl
  rcases this with e | e
  · left
    rw [hq, e]; simp [rnd_of_rep rep_zero]
  · right
    refine le_trans ?_ (le_abs_self _)
    refine le_rnd (rep_two_zpow (by norm_num)) ?_
    rw [hq, le_div_iff₀ (by positivity), show (2 : ℚ) ^ (-29 : ℤ) = 1 / 2 ^ 29 by norm_num, div_mul_eq_mul_div,
      div_le_iff₀ (by norm_num), one_mul]
    exact_mod_cast e

theorem normalize_md {t : Data.Table} (h : t.curve = true) : Md (-33) 1 (lit 1 / (ofTable t : Spectrum F32).sum) := by
  obtain ⟨n, l, -⟩ := curve_normalize h
  refine ⟨n.fin, ?_, abs_le.2 ⟨by linarith [n.nonneg], n.le⟩⟩
  refine Mult.of_rep (e := -10) (rep_val _) (Or.inr ?_)
  have hT : 100 ≤ ∑ i, t.q i := Data.Table.sum_ge h
  have hT8 : ∑ i, t.q i ≤ 800 := by
    calc ∑ i, t.q i ≤ ∑ _i : Fin 400, (2 : ℚ) := Finset.sum_le_sum fun i _ => Data.Table.q_le_two h i
      _ = 800 := by simp; norm_num
  refine le_trans ?_ ((le_abs_self _).trans' l)
  rw [le_div_iff₀ (by linarith)]
  norm_num
  linarith

/-- A spectrum whose samples are zero or between `2^-10` and `2^30`. -/
def ModerateS (s : Spectrum F32) : Prop :=
  ∀ i, (s i).isFinite = true ∧ ((s i).val = 0 ∨ 2 ^ (-10 : ℤ) ≤ |(s i).val|) ∧ |(s i).val| ≤ 2 ^ 30

theorem dot_sc {k : ℤ} (h1 : -8 ≤ k) (h2 : k ≤ 20) {s x : Spectrum F32} (hs : ModerateS s) (hx : ∀ i, Md (-52) 2 (x i)) :
    ∀ (i : ℕ) (hi : i < 400), Sc k (-85) (((i + 1 : ℕ) : ℚ) * 2 ^ 31) (dotHelper s x i hi) (dotHelper (s.scale (lit (2 ^ k))) x i hi) := by
  have sc : ∀ i, Sc k (-33) (2 ^ 30) (s i) (s i * lit (2 ^ k)) := fun i => by
    have m := Mult.of_rep (rep_val (s i)) (hs i).2.1
    exact Md.scale ⟨(hs i).1, by norm_num at m; exact m, (hs i).2.2⟩ (by norm_num) (by omega) h2 (by norm_num) (by omega)
  have term : ∀ i, Sc k (-85) (2 ^ 31) (s i * x i) (s i * lit (2 ^ k) * x i) := fun i =>
    (sc i).mul (hx i) (CS.rep_pow 31) (by norm_num) (by norm_num) h2 (by norm_num) (by omega)
  intro i
  induction i with
  | zero =>
    intro hi
    have := term 0
    rw [show (((0 + 1 : ℕ) : ℚ) * 2 ^ 31) = 2 ^ 31 by norm_num]
    exact this
  | succ i ih =>
    intro hi
    refine (term ⟨i + 1, hi⟩).add (ih (by omega)) (rep_mul_pow (by omega)) (le_of_eq ?_) ?_ h2 (by norm_num) (by omega)
    · push_cast; ring
    · have : ((i + 1 + 1 : ℕ) : ℚ) ≤ 400 := by exact_mod_cast (by omega : i + 1 + 1 ≤ 400)
      nlinarith

/-- C98: a light `k` stops brighter gives a colour `k` stops brighter, bit for bit, for each of the three observers. -/
theorem C98_observer (ob : Observer F32) (ho : Standard ob) (s : Spectrum F32) (hs : ModerateS s) (k : ℤ) (h1 : -8 ≤ k)
    (h2 : k ≤ 20) : ob.fromSpectrum (s.scale (lit (2 ^ k))) = (ob.fromSpectrum s).scale (lit (2 ^ k)) := by
  have comp : ∀ {t : Data.Table}, t.curve = true → t.notTiny = true →
      (s.scale (lit (2 ^ k))).dot (ofTable t) * (lit 1 / (ofTable t : Spectrum F32).sum) =
      s.dot (ofTable t) * (lit 1 / (ofTable t : Spectrum F32).sum) * lit (2 ^ k) := by
    intro t h h'
    have d := dot_sc h1 h2 hs (curve_md h h') 399 (by norm_num)
    have := d.mul (C := 2 ^ 40) (normalize_md h) (CS.rep_pow 40) (by norm_num) (by norm_num) h2 (by norm_num) (by omega)
    exact this.eq_mul (by norm_num) (by omega) h2 (by norm_num) (by omega)
  have h := curves
  have h' := curves_notTiny
  simp only [List.all_cons, List.all_nil, Bool.and_true, Bool.and_eq_true] at h h'
  obtain ⟨a1, a2, a3, a4, a5, a6, a7, a8, a9⟩ := h
  obtain ⟨b1, b2, b3, b4, b5, b6, b7, b8, b9⟩ := h'
  rcases ho with rfl | rfl | rfl
  · exact Tristimulus.ext (comp a1 b1) (comp a2 b2) (comp a3 b3)
  · exact Tristimulus.ext (comp a4 b4) (comp a5 b5) (comp a6 b6)
  · exact Tristimulus.ext (comp a7 b7) (comp a8 b8) (comp a9 b9)

end

/-- A colour and a light that meet the hypotheses. -/
example : ModerateT ⟨lit 1, lit (-0.5), lit 0.25⟩ ∧ NotBlack ⟨lit 1, lit (-0.5), lit 0.25⟩ ∧
    NotBlack ((⟨lit 1, lit (-0.5), lit 0.25⟩ : Tristimulus F32).scale (lit (2 ^ (3 : ℤ)))) :=
  ⟨⟨moderate_iff (by decide +kernel), moderate_iff (by decide +kernel), moderate_iff (by decide +kernel)⟩,
    by unfold NotBlack; decide +kernel, by unfold NotBlack; decide +kernel⟩

example : ModerateS (Spectrum.E (lit 1)) := fun _ => by
  have r : Rep 1 := by exact_mod_cast rep_int (n := 1) (by norm_num)
  have : (lit 1 : F32).isFinite = true ∧ (lit 1 : F32).val = 1 := pack_val_of_rep r (by norm_num)
  exact ⟨this.1, Or.inr (by show _ ≤ |(lit 1 : F32).val|; rw [this.2]; norm_num), by
    show |(lit 1 : F32).val| ≤ _; rw [this.2]; norm_num⟩

end CS
