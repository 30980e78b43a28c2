import Verif.Props.Greys
import Verif.Props.ImageSpaces
import Verif.Props.DeltaFloat
import Mathlib.Analysis.InnerProductSpace.PiL2

/-!
# C117: the CIELAB colour of an sRGB image (binary32)

What a program that decodes an sRGB-coded pixel, takes it to XYZ and to CIELAB gets, against the value fixed by the standards:
IEC 61966-2-1 for the curve, the published primaries and white for the space, and CIE 15 for CIELAB.
-/

namespace CS
open F32 B32 OTF Spec Tristimulus

/-- The CIELAB coordinates of an XYZ colour. -/
noncomputable def cieLab (t w : Tristimulus ℝ) : Tristimulus ℝ :=
  ⟨116 * labF (t.b / w.b) - 16, 500 * (labF (t.a / w.a) - labF (t.b / w.b)), 200 * (labF (t.b / w.b) - labF (t.c / w.c))⟩

/-- The linear components of the pixel with codes `i`, `j`, `k` of a scale `0..N`. -/
noncomputable def srgbPixel (N i j k : ℕ) : Tristimulus ℝ := ⟨srgbInv (i / N), srgbInv (j / N), srgbInv (k / N)⟩

/-- The spaces whose primaries have no negative XYZ component. -/
def displays : List RGBSpace := [.adobe, .rec709, .rec2020, .dciP3]

/-! ## The matrices -/

def Matrix3.entries {α : Type} (m : Matrix3 α) : List α := [m.m0, m.m1, m.m2, m.m3, m.m4, m.m5, m.m6, m.m7, m.m8]

/-- Finite, between 0 and 2. -/
def upTo2 (x : F32) : Bool := x.isFinite && decide (0 ≤ x.val) && decide (x.val ≤ 2)

theorem upTo2_nn {x : F32} (h : upTo2 x = true) : Spectrum.NN x 2 := by
  simp only [upTo2, Bool.and_eq_true, decide_eq_true_eq] at h
  exact ⟨h.1.1, h.1.2, h.2⟩

set_option maxRecDepth 100000 in
theorem display_f32 : (displays.all fun s => s.gamut.toXYZ_.entries.all upTo2) = true := by decide +kernel

set_option maxRecDepth 100000 in
theorem display_rat : (displays.all fun s => s.rat.toXYZ_.entries.all fun x => decide (0 ≤ x)) = true := by decide +kernel

theorem dot_nn2 {a b c x y z : F32} (ha : Spectrum.NN a 2) (hb : Spectrum.NN b 2) (hc : Spectrum.NN c 2) (hx : Spectrum.NN x top)
    (hy : Spectrum.NN y top) (hz : Spectrum.NN z top) : Spectrum.NN (a * x + b * y + c * z) 16 := by
  have r : ∀ k : ℕ, Rep ((2 : ℚ) ^ k) := CS.rep_pow
  have t2 : (2 : ℚ) * top ≤ 2 ^ 2 := by norm_num [top]
  have p := (Spectrum.mul_nn ha hx (r 2) (by norm_num) t2).1
  have q := (Spectrum.mul_nn hb hy (r 2) (by norm_num) t2).1
  have s := (Spectrum.mul_nn hc hz (r 2) (by norm_num) t2).1
  have u := (Spectrum.add_nn p q (r 3) (by norm_num) (by norm_num)).1
  have v := (Spectrum.add_nn u s (r 4) (by norm_num) (by norm_num)).1
  norm_num at v; exact v

/-- A colour without negative components has an XYZ colour without negative components. -/
theorem display_nn {s : RGBSpace} (hs : s ∈ displays) {t : Tristimulus F32}
    (h : Spectrum.NN t.a top ∧ Spectrum.NN t.b top ∧ Spectrum.NN t.c top) :
    Spectrum.NN (s.gamut.toXYZ t).a 16 ∧ Spectrum.NN (s.gamut.toXYZ t).b 16 ∧ Spectrum.NN (s.gamut.toXYZ t).c 16 := by
  obtain ⟨a, b, c⟩ := h
  have m := List.all_eq_true.1 display_f32 s hs
  simp only [Matrix3.entries, List.all_cons, List.all_nil, Bool.and_true, Bool.and_eq_true] at m
  obtain ⟨m0, m1, m2, m3, m4, m5, m6, m7, m8⟩ := m
  exact ⟨dot_nn2 (upTo2_nn m0) (upTo2_nn m1) (upTo2_nn m2) a b c, dot_nn2 (upTo2_nn m3) (upTo2_nn m4) (upTo2_nn m5) a b c,
    dot_nn2 (upTo2_nn m6) (upTo2_nn m7) (upTo2_nn m8) a b c⟩

/-- Between 0 and 1. -/
def Unit3R (l : Tristimulus ℝ) : Prop := (0 ≤ l.a ∧ l.a ≤ 1) ∧ (0 ≤ l.b ∧ l.b ≤ 1) ∧ (0 ≤ l.c ∧ l.c ≤ 1)

/-- Components within `e`. -/
def NearR (x y : Tristimulus ℝ) (e : ℝ) : Prop := |x.a - y.a| ≤ e ∧ |x.b - y.b| ≤ e ∧ |x.c - y.c| ≤ e

theorem row_range {p q r w : ℝ} (hp : 0 ≤ p) (hq : 0 ≤ q) (hr : 0 ≤ r) (h : p + q + r = w) {l : Tristimulus ℝ} (hl : Unit3R l) :
    0 ≤ p * l.a + q * l.b + r * l.c ∧ p * l.a + q * l.b + r * l.c ≤ w := by
  obtain ⟨⟨a1, a2⟩, ⟨b1, b2⟩, c1, c2⟩ := hl
  have := mul_nonneg hp a1
  have := mul_nonneg hq b1
  have := mul_nonneg hr c1
  have := mul_le_of_le_one_right hp a2
  have := mul_le_of_le_one_right hq b2
  have := mul_le_of_le_one_right hr c2
  constructor <;> linarith

theorem row_lip {p q r w e : ℝ} (hp : 0 ≤ p) (hq : 0 ≤ q) (hr : 0 ≤ r) (h : p + q + r = w) {x y : Tristimulus ℝ} (hl : NearR x y e) :
    |(p * x.a + q * x.b + r * x.c) - (p * y.a + q * y.b + r * y.c)| ≤ w * e := by
  obtain ⟨a, b, c⟩ := hl
  have k : ∀ {p u : ℝ}, 0 ≤ p → |u| ≤ e → |p * u| ≤ p * e := fun hp hu => by
    rw [abs_mul, abs_of_nonneg hp]; exact mul_le_mul_of_nonneg_left hu hp
  rw [show (p * x.a + q * x.b + r * x.c) - (p * y.a + q * y.b + r * y.c) = p * (x.a - y.a) + q * (x.b - y.b) + r * (x.c - y.c) by ring]
  refine (abs_add_three _ _ _).trans ?_
  have := k hp a
  have := k hq b
  have := k hr c
  rw [← h]; linarith

/-- The exact matrix of such a space: no negative entries, and rows that add up to the white. -/
theorem display_exact {s : RGBSpace} (hs : s ∈ displays) :
    (∀ l, Unit3R l → (0 ≤ (s.rat.toReal.toXYZ l).a ∧ (s.rat.toReal.toXYZ l).a ≤ s.whiteXYZ.a) ∧
      (0 ≤ (s.rat.toReal.toXYZ l).b ∧ (s.rat.toReal.toXYZ l).b ≤ 1) ∧
      (0 ≤ (s.rat.toReal.toXYZ l).c ∧ (s.rat.toReal.toXYZ l).c ≤ s.whiteXYZ.c)) ∧
    ∀ x y e, NearR x y e → |(s.rat.toReal.toXYZ x).a - (s.rat.toReal.toXYZ y).a| ≤ s.whiteXYZ.a * e ∧
      |(s.rat.toReal.toXYZ x).b - (s.rat.toReal.toXYZ y).b| ≤ 1 * e ∧
      |(s.rat.toReal.toXYZ x).c - (s.rat.toReal.toXYZ y).c| ≤ s.whiteXYZ.c * e := by
  have m := List.all_eq_true.1 display_rat s hs
  simp only [Matrix3.entries, List.all_cons, List.all_nil, Bool.and_true, Bool.and_eq_true, decide_eq_true_eq] at m
  obtain ⟨m0, m1, m2, m3, m4, m5, m6, m7, m8⟩ := m
  have k : ∀ {q : ℚ}, 0 ≤ q → (0 : ℝ) ≤ q := fun h => by exact_mod_cast h
  have g := s.grey_exact 1
  have e : ∀ c, s.rat.toReal.toXYZ c = ⟨(s.rat.toXYZ_.m0 : ℝ) * c.a + s.rat.toXYZ_.m1 * c.b + s.rat.toXYZ_.m2 * c.c,
      (s.rat.toXYZ_.m3 : ℝ) * c.a + s.rat.toXYZ_.m4 * c.b + s.rat.toXYZ_.m5 * c.c,
      (s.rat.toXYZ_.m6 : ℝ) * c.a + s.rat.toXYZ_.m7 * c.b + s.rat.toXYZ_.m8 * c.c⟩ := fun c => rfl
  rw [e] at g
  simp only [mul_one, one_mul, Tristimulus.mk.injEq] at g
  obtain ⟨g1, g2, g3⟩ := g
  constructor
  · intro l hl
    rw [e]
    exact ⟨row_range (k m0) (k m1) (k m2) g1 hl, row_range (k m3) (k m4) (k m5) g2 hl, row_range (k m6) (k m7) (k m8) g3 hl⟩
  · intro x y d h
    rw [e, e]
    exact ⟨row_lip (k m0) (k m1) (k m2) g1 h, row_lip (k m3) (k m4) (k m5) g2 h, row_lip (k m6) (k m7) (k m8) g3 h⟩

/-! ## Decoding -/

theorem srgbInv_lip {c w : ℝ} (hc : 0 ≤ c ∧ c ≤ 1) (hw : 0 ≤ w ∧ w ≤ 1) : |srgbInv c - srgbInv w| ≤ 2.844 * |c - w| + 6e-9 := by
  have hk := srgbKnee_lt
  have hk' := lt_srgbKnee
  unfold srgbKnee at hk hk'
  have cross : ∀ {c w : ℝ}, 0 ≤ c ∧ c ≤ 1 → 0 ≤ w ∧ w ≤ 1 → c < 0.04045 → 0.04045 ≤ w →
      |c / 12.92 - ((w + 0.055) / 1.055) ^ (2.4 : ℝ)| ≤ 2.844 * |c - w| + 6e-9 := by
    intro c w hc hw h1 h2
    have g := srgbInv_pow_sens (c := 0.04045) (w := w) (by norm_num) hw
    rw [abs_of_nonpos (by linarith : 0.04045 - w ≤ 0)] at g
    rw [show c / 12.92 = 25 / 323 * c by ring, abs_of_nonpos (show c - w ≤ 0 by linarith)]
    generalize (((0.04045 : ℝ) + 0.055) / 1.055) ^ (2.4 : ℝ) = K at *
    generalize ((w + 0.055) / 1.055) ^ (2.4 : ℝ) = W at *
    obtain ⟨g1, g2⟩ := abs_le.1 g
    rw [abs_le]; constructor <;> linarith
  unfold srgbInv
  split_ifs with h1 h2 h2
  · rw [← sub_div, abs_div, abs_of_pos (by norm_num : (0 : ℝ) < 12.92), div_le_iff₀ (by norm_num)]
    linarith [abs_nonneg (c - w)]
  · exact cross hc hw h1 (not_lt.1 h2)
  · rw [abs_sub_comm, abs_sub_comm c w]
    exact cross hw hc h2 (not_lt.1 h1)
  · have := srgbInv_pow_sens hc hw
    linarith

/-- A decoded pixel, against the exact one. -/
theorem scene_exact (o : F32.Oracle) (ho : o.PowAccurate (2 ^ (-22 : ℤ))) (x : F32) {N i j k : ℕ} (hN : 0 < N) (hN' : N ≤ 65535)
    (hi : i ≤ N) (hj : j ≤ N) (hk : k ≤ N) :
    NearR (@toScene F32 (F32.libm o) .SRGB (pixel N i j k) x).real (srgbPixel N i j k) 2.19e-6 ∧ Unit3R (srgbPixel N i j k) := by
  have hN0 : (0 : ℝ) < N := by exact_mod_cast hN
  have mem : ∀ {n : ℕ}, n ≤ N → (0 : ℝ) ≤ (n : ℝ) / N ∧ (n : ℝ) / N ≤ 1 := by
    intro n hn
    refine ⟨by positivity, ?_⟩
    rw [div_le_one hN0]; exact_mod_cast hn
  have key : ∀ {n : ℕ}, n ≤ N → |((@sRGB_to_Y F32 (F32.libm o) (Arith.ofInt n / Arith.ofInt N)).val : ℝ) - srgbInv (n / N)| ≤ 2.19e-6 := by
    intro n hn
    obtain ⟨h1, h2⟩ := code_ap hN hN' hn
    have d := (C83_decode o ho _ h1.fin).err
    rw [clampTo_of_mem h2] at d
    have s := srgbInv_lip h2 (mem hn)
    have c := h1.err
    have r := (srgbInv_mem h2).2
    have t : (1 : ℝ) / 2 ^ 149 ≤ 1e-20 := by norm_num
    refine (abs_sub_le _ (srgbInv ((Arith.ofInt n / Arith.ofInt N : F32).val : ℝ)) _).trans ?_
    linarith
  exact ⟨⟨key hi, key hj, key hk⟩, srgbInv_mem (mem hi), srgbInv_mem (mem hj), srgbInv_mem (mem hk)⟩

/-! ## CIELAB -/

/-- One component over that of the white. -/
theorem comp_rel {X W : F32} {T w : ℝ} (w1 : 0.89 ≤ w) (hT : 0 ≤ T ∧ T ≤ w) (h1 : |(X.val : ℝ) - T| ≤ 3.01e-6)
    (h2 : |(W.val : ℝ) - w| ≤ 4e-7) : |rel X W - T / w| ≤ 3.9e-6 := by
  obtain ⟨b1, b2⟩ := abs_le.1 h2
  have w0 : (0.8899 : ℝ) < W.val := by linarith
  have q1 : T / w ≤ 1 := by rw [div_le_one (by linarith)]; exact hT.2
  have d : |(X.val : ℝ) / W.val - T / w| ≤ 3.9e-6 := by
    rw [div_sub_div _ _ (by linarith) (by linarith), abs_div, abs_of_pos (mul_pos (show (0 : ℝ) < W.val by linarith) (show 0 < w by linarith)),
      div_le_iff₀ (mul_pos (by linarith) (by linarith)),
      show (X.val : ℝ) * w - W.val * T = (X.val - T) * w - T * (W.val - w) by ring]
    refine (abs_sub _ _).trans ?_
    rw [abs_mul, abs_mul, abs_of_nonneg (show 0 ≤ w by linarith), abs_of_nonneg hT.1]
    have p1 := mul_le_mul_of_nonneg_right h1 (show 0 ≤ w by linarith)
    have p2 := mul_le_mul hT.2 h2 (abs_nonneg _) (show 0 ≤ w by linarith)
    have p3 : 0.8899 * w ≤ W.val * w := mul_le_mul_of_nonneg_right w0.le (by linarith)
    linarith
  unfold rel
  generalize (X.val : ℝ) / W.val = q at *
  refine le_trans ?_ d
  rcases le_total q 1 with p | p
  · rw [min_eq_left p]
  · rw [min_eq_right p, abs_of_nonneg (by linarith), abs_of_nonneg (by linarith)]; linarith

/-- C117: a linear colour near an exact one has the exact CIELAB colour, up to 0.0036, 0.031 and 0.0124. -/
theorem C117_linear (o : F32.Oracle) (ho : o.PowAccurate (2 ^ (-22 : ℤ))) (s : RGBSpace) (hs : s ∈ displays) (G : Gamut ℝ)
    (hG : Realises G s.published) (t : Tristimulus F32) (ht : Spectrum.NN t.a top ∧ Spectrum.NN t.b top ∧ Spectrum.NN t.c top)
    (l : Tristimulus ℝ) (hl : Unit3R l) (h : NearR t.real l 2.19e-6) :
    letI := F32.libm o
    let c := toCIELAB (s.gamut.toXYZ t) s.gamut.primaryWhite
    let e := cieLab (G.toXYZ l) s.whiteXYZ
    Ap c.a e.a 0.0036 ∧ Ap c.b e.b 0.031 ∧ Ap c.c e.c 0.0124 := by
  intro c e
  obtain ⟨na, nb, nc⟩ := display_nn hs ht
  obtain ⟨-, ea, eb, ec⟩ := C99_toXYZ s G hG t top (by norm_num [top]) (scene_within ht)
  obtain ⟨⟨ga, gb, gc⟩, wa, wb, wc⟩ := C116_white s
  obtain ⟨⟨a1, a2⟩, ⟨c1, c2⟩, b1, -, -⟩ := s.white_bounds
  rw [b1] at wb
  obtain ⟨D, L⟩ := display_exact hs
  obtain ⟨Da, Db, Dc⟩ := D l hl
  obtain ⟨La, Lb, Lc⟩ := L _ _ _ h
  rw [← s.determined hG] at Da Db Dc
  rw [← s.determined hG, ← s.determined hG] at La Lb Lc
  have hE : e = cieLab (G.toXYZ l) s.whiteXYZ := rfl
  simp only [cieLab, b1, div_one] at hE
  have ty : ((6e-7 * top + 1 / 2 ^ 140 : ℚ) : ℝ) ≤ 6.1e-7 := by
    have : (6e-7 * top + 1 / 2 ^ 140 : ℚ) ≤ 6.1e-7 := by norm_num [top]
    have := (Rat.cast_le (K := ℝ)).2 this
    refine this.trans ?_
    push_cast; norm_num
  have xa : |((s.gamut.toXYZ t).a.val : ℝ) - (G.toXYZ l).a| ≤ 3.01e-6 :=
    (abs_sub_le _ (G.toXYZ t.real).a _).trans (by linarith [ea.trans ty])
  have xb : |((s.gamut.toXYZ t).b.val : ℝ) - (G.toXYZ l).b| ≤ 3.01e-6 :=
    (abs_sub_le _ (G.toXYZ t.real).b _).trans (by linarith [eb.trans ty])
  have xc : |((s.gamut.toXYZ t).c.val : ℝ) - (G.toXYZ l).c| ≤ 3.01e-6 :=
    (abs_sub_le _ (G.toXYZ t.real).c _).trans (by linarith [ec.trans ty])
  have cw : (((4e-7 : ℚ)) : ℝ) = 4e-7 := by push_cast; norm_num
  rw [cw] at wa wb wc
  have ra := comp_rel a1 Da xa wa
  have rb := comp_rel (by norm_num) Db xb wb
  have rc := comp_rel (by linarith) Dc xc wc
  rw [div_one] at rb
  have big : ∀ {x w : F32} {A : ℝ}, 0.89 ≤ A → A ≤ 1.09 → x.val ≤ 16 → |(w.val : ℝ) - A| ≤ 4e-7 →
      0 < w.val ∧ x.val / w.val ≤ 2 ^ 100 ∧ w.val ≤ 2 ^ 100 := by
    intro x w A hA hA' hx hw
    obtain ⟨h3, h4⟩ := abs_le.1 hw
    have w1 : ((1 / 2 : ℚ) : ℝ) ≤ w.val := by push_cast; linarith
    have w2 : (w.val : ℝ) ≤ ((2 : ℚ) : ℝ) := by push_cast; linarith
    have w1' : 1 / 2 ≤ w.val := by exact_mod_cast w1
    have w2' : w.val ≤ 2 := by exact_mod_cast w2
    refine ⟨by linarith, ?_, w2'.trans (by norm_num)⟩
    rw [div_le_iff₀ (by linarith)]
    have : (2 : ℚ) ^ 100 * (1 / 2) ≤ 2 ^ 100 * w.val := mul_le_mul_of_nonneg_left w1' (by norm_num)
    exact hx.trans (le_trans (by norm_num) this)
  obtain ⟨wa1, wa2, wa3⟩ := big a1 (by linarith) na.le wa
  obtain ⟨wb1, wb2, wb3⟩ := big (by norm_num) (by norm_num) nb.le wb
  obtain ⟨wc1, wc2, wc3⟩ := big (by linarith) c2 nc.le wc
  have ok : LabOK (s.gamut.toXYZ t) s.gamut.primaryWhite := by
    intro p hp
    simp only [List.mem_cons, List.not_mem_nil, or_false] at hp
    rcases hp with rfl | rfl | rfl
    · exact ⟨na.fin, ga, na.nonneg, wa1, wa2, wa3⟩
    · exact ⟨nb.fin, gb, nb.nonneg, wb1, wb2, wb3⟩
    · exact ⟨nc.fin, gc, nc.nonneg, wc1, wc2, wc3⟩
  obtain ⟨L, A, B⟩ := C92_encode o ho _ _ ok
  have la := labF_close (rel_range na.nonneg wa1).1 (div_nonneg Da.1 (by linarith)) ra
  have lb := labF_close (rel_range nb.nonneg wb1).1 Db.1 rb
  have lc := labF_close (rel_range nc.nonneg wc1).1 (div_nonneg Dc.1 (by linarith)) rc
  obtain ⟨a3, a4⟩ := abs_le.1 la
  obtain ⟨b3, b4⟩ := abs_le.1 lb
  obtain ⟨c3, c4⟩ := abs_le.1 lc
  obtain ⟨L1, L2⟩ := abs_le.1 L.err
  obtain ⟨A1, A2⟩ := abs_le.1 A.err
  obtain ⟨B1, B2⟩ := abs_le.1 B.err
  rw [hE]
  refine ⟨⟨L.fin, abs_le.2 ⟨?_, ?_⟩⟩, ⟨A.fin, abs_le.2 ⟨?_, ?_⟩⟩, ⟨B.fin, abs_le.2 ⟨?_, ?_⟩⟩⟩ <;>
  · show _ ≤ _
    linarith

/-- C117: the CIELAB colour of an sRGB-coded pixel of up to 16 bits, in a space with the primaries of sRGB, Adobe RGB, BT.2020 or
DCI-P3, is the one fixed by the standards, up to 0.0036 in L*, 0.031 in a* and 0.0124 in b*. -/
theorem C117_pixel (o : F32.Oracle) (ho : o.PowAccurate (2 ^ (-22 : ℤ))) (x : F32) (s : RGBSpace) (hs : s ∈ displays) (G : Gamut ℝ)
    (hG : Realises G s.published) (N i j k : ℕ) (hN : 0 < N) (hN' : N ≤ 65535) (hi : i ≤ N) (hj : j ≤ N) (hk : k ≤ N) :
    letI := F32.libm o
    let c := toCIELAB (s.gamut.toXYZ (toScene .SRGB (pixel N i j k) x)) s.gamut.primaryWhite
    let e := cieLab (G.toXYZ (srgbPixel N i j k)) s.whiteXYZ
    Ap c.a e.a 0.0036 ∧ Ap c.b e.b 0.031 ∧ Ap c.c e.c 0.0124 := by
  obtain ⟨h1, h2⟩ := scene_exact o ho x hN hN' hi hj hk
  exact C117_linear o ho s hs G hG _ (scene_range o ho x hN hN' hi hj hk) _ h2 h1

/-! ## Colour differences -/

/-- The Euclidean distance of two CIELAB colours. -/
noncomputable def labDist (a b : Tristimulus ℝ) : ℝ := √((a.a - b.a) ^ 2 + (a.b - b.b) ^ 2 + (a.c - b.c) ^ 2)

theorem euclid3 (a b c a' b' c' : ℝ) :
    |√(a ^ 2 + b ^ 2 + c ^ 2) - √(a' ^ 2 + b' ^ 2 + c' ^ 2)| ≤ √((a - a') ^ 2 + (b - b') ^ 2 + (c - c') ^ 2) := by
  have h := abs_norm_sub_norm_le (!₂[a, b, c] : EuclideanSpace ℝ (Fin 3)) !₂[a', b', c']
  simpa [EuclideanSpace.norm_eq, Fin.sum_univ_three, sq_abs] using h

/-- The coordinates of a colour between black and white. -/
theorem cieLab_range {u v w : ℝ} (hu : 0 ≤ u ∧ u ≤ 1) (hv : 0 ≤ v ∧ v ≤ 1) (hw : 0 ≤ w ∧ w ≤ 1) :
    (0 ≤ 116 * labF v - 16 ∧ 116 * labF v - 16 ≤ 100) ∧ |500 * (labF u - labF v)| ≤ 432 ∧ |200 * (labF v - labF w)| ≤ 173 := by
  obtain ⟨a1, a2⟩ := labF_range hu.1 hu.2
  obtain ⟨b1, b2⟩ := labF_range hv.1 hv.2
  obtain ⟨c1, c2⟩ := labF_range hw.1 hw.2
  refine ⟨⟨by linarith, by linarith⟩, ?_, ?_⟩ <;> rw [abs_le] <;> constructor <;> linarith

/-- C117: the CIE76 difference of two such pixels is the exact one, up to 0.068. -/
theorem C117_difference (o : F32.Oracle) (ho : o.PowAccurate (2 ^ (-22 : ℤ))) (hq : o.SqrtAccurate (2 ^ (-23 : ℤ))) (x : F32)
    (s : RGBSpace) (hs : s ∈ displays) (G : Gamut ℝ) (hG : Realises G s.published) (N i j k i' j' k' : ℕ) (hN : 0 < N) (hN' : N ≤ 65535)
    (hi : i ≤ N) (hj : j ≤ N) (hk : k ≤ N) (hi' : i' ≤ N) (hj' : j' ≤ N) (hk' : k' ≤ N) :
    letI := F32.libm o
    let lab := fun p : Tristimulus F32 => toCIELAB (s.gamut.toXYZ (toScene .SRGB p x)) s.gamut.primaryWhite
    let exact := fun p : Tristimulus ℝ => cieLab (G.toXYZ p) s.whiteXYZ
    Ap (Delta.E76 (lab (pixel N i j k)) (lab (pixel N i' j' k')))
      (labDist (exact (srgbPixel N i j k)) (exact (srgbPixel N i' j' k'))) 0.068 := by
  intro lab exact
  have rng : ∀ {i j k : ℕ}, i ≤ N → j ≤ N → k ≤ N → (0 ≤ (exact (srgbPixel N i j k)).a ∧ (exact (srgbPixel N i j k)).a ≤ 100) ∧
      |(exact (srgbPixel N i j k)).b| ≤ 432 ∧ |(exact (srgbPixel N i j k)).c| ≤ 173 := by
    intro i j k hi hj hk
    have u := (scene_exact o ho x hN hN' hi hj hk).2
    obtain ⟨Da, Db, Dc⟩ := (display_exact hs).1 _ u
    obtain ⟨⟨a1, a2⟩, ⟨c1, c2⟩, b1, -, -⟩ := s.white_bounds
    rw [← s.determined hG] at Da Db Dc
    have d : ∀ {t w : ℝ}, 0.89 ≤ w → 0 ≤ t ∧ t ≤ w → 0 ≤ t / w ∧ t / w ≤ 1 := fun hw ht =>
      ⟨div_nonneg ht.1 (by linarith), by rw [div_le_one (by linarith)]; exact ht.2⟩
    have := cieLab_range (d a1 Da) (d (by norm_num) Db) (d (by linarith) Dc)
    rw [← b1] at this
    exact this
  obtain ⟨p1, p2, p3⟩ := C117_pixel o ho x s hs G hG N i j k hN hN' hi hj hk
  obtain ⟨q1, q2, q3⟩ := C117_pixel o ho x s hs G hG N i' j' k' hN hN' hi' hj' hk'
  obtain ⟨r1, r2, r3⟩ := rng hi hj hk
  obtain ⟨s1, s2, s3⟩ := rng hi' hj' hk'
  change Ap (lab (pixel N i j k)).a (exact (srgbPixel N i j k)).a _ at p1
  change Ap (lab (pixel N i j k)).b (exact (srgbPixel N i j k)).b _ at p2
  change Ap (lab (pixel N i j k)).c (exact (srgbPixel N i j k)).c _ at p3
  change Ap (lab (pixel N i' j' k')).a (exact (srgbPixel N i' j' k')).a _ at q1
  change Ap (lab (pixel N i' j' k')).b (exact (srgbPixel N i' j' k')).b _ at q2
  change Ap (lab (pixel N i' j' k')).c (exact (srgbPixel N i' j' k')).c _ at q3
  generalize lab (pixel N i j k) = c at *
  generalize lab (pixel N i' j' k') = d at *
  generalize exact (srgbPixel N i j k) = e at *
  generalize exact (srgbPixel N i' j' k') = f at *
  have bd : ∀ {u : F32} {v η : ℝ}, Ap u v η → η ≤ 1 → |v| ≤ 432 → u.isFinite = true ∧ |u.val| ≤ 2 ^ 50 := by
    intro u v η hu hη hv
    refine ⟨hu.fin, ?_⟩
    have h1 := abs_sub_abs_le_abs_sub (u.val : ℝ) v
    have h2 := hu.err
    have : ((|u.val| : ℚ) : ℝ) ≤ ((2 ^ 50 : ℚ) : ℝ) := by
      push_cast
      have : (433 : ℝ) ≤ 2 ^ 50 := by norm_num
      linarith
    exact_mod_cast this
  have ea : ∀ {t : ℝ}, 0 ≤ t ∧ t ≤ 100 → |t| ≤ 432 := fun h => by rw [abs_of_nonneg h.1]; linarith [h.2]
  obtain ⟨F, E⟩ := C91_E76_accurate o hq c d (by
    intro y hy
    simp only [List.mem_cons, List.not_mem_nil, or_false] at hy
    rcases hy with rfl | rfl | rfl | rfl | rfl | rfl
    · exact bd p1 (by norm_num) (ea r1)
    · exact bd p2 (by norm_num) r2
    · exact bd p3 (by norm_num) (r3.trans (by norm_num))
    · exact bd q1 (by norm_num) (ea s1)
    · exact bd q2 (by norm_num) s2
    · exact bd q3 (by norm_num) (s3.trans (by norm_num)))
  refine ⟨F, ?_⟩
  have T : |dist76 c d - labDist e f| ≤ 0.0673 := by
    refine (euclid3 _ _ _ _ _ _).trans ?_
    have k : ∀ {u v u' v' η : ℝ}, |u - u'| ≤ η → |v - v'| ≤ η → (u - v - (u' - v')) ^ 2 ≤ (2 * η) ^ 2 := by
      intro u v u' v' η h1 h2
      rw [show u - v - (u' - v') = (u - u') - (v - v') by ring]
      refine sq_le_sq' ?_ ?_ <;> linarith [(abs_le.1 h1).1, (abs_le.1 h1).2, (abs_le.1 h2).1, (abs_le.1 h2).2]
    have k1 := k p1.err q1.err
    have k2 := k p2.err q2.err
    have k3 := k p3.err q3.err
    rw [Real.sqrt_le_left (by norm_num)]
    norm_num at k1 k2 k3 ⊢
    linarith
  have M : labDist e f ≤ 1000 := by
    unfold labDist
    rw [Real.sqrt_le_left (by norm_num)]
    have k : ∀ {u v η : ℝ}, |u| ≤ η → |v| ≤ η → (u - v) ^ 2 ≤ (2 * η) ^ 2 := by
      intro u v η h1 h2
      refine sq_le_sq' ?_ ?_ <;> linarith [(abs_le.1 h1).1, (abs_le.1 h1).2, (abs_le.1 h2).1, (abs_le.1 h2).2]
    have k1 : (e.a - f.a) ^ 2 ≤ 100 ^ 2 := sq_le_sq' (by linarith [r1.1, s1.2]) (by linarith [r1.2, s1.1])
    have k2 := k r2 s2
    have k3 := k r3 s3
    norm_num at k1 k2 k3 ⊢
    linarith
  have t : (1 / 2 ^ 72 : ℝ) ≤ 1e-6 := by norm_num
  obtain ⟨T1, T2⟩ := abs_le.1 T
  refine (abs_sub_le _ (dist76 c d) _).trans ?_
  show _ ≤ _
  linarith

/-- The hypotheses are met. -/
example : (∃ o : F32.Oracle, o.PowAccurate (2 ^ (-22 : ℤ)) ∧ o.SqrtAccurate (2 ^ (-23 : ℤ))) ∧ RGBSpace.rec709 ∈ displays ∧
    (∃ G, Realises G RGBSpace.rec709.published) ∧ (0 < 255 ∧ 255 ≤ 65535 ∧ 200 ≤ 255) := by
  obtain ⟨o, p, q, -⟩ := exists_accurate
  refine ⟨⟨o, fun x y a b c d e => ?_, ?_⟩, by simp [displays], ⟨_, RGBSpace.realises _⟩, by norm_num⟩
  · obtain ⟨f, g⟩ := p x y a b c d e
    refine ⟨f, g.trans ?_⟩
    have : (0 : ℝ) < (x.val : ℝ) ^ (y.val : ℝ) := lt_of_lt_of_le (by positivity) d
    gcongr <;> norm_num
  · exact q

end CS
