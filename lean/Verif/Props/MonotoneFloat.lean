import Verif.Props.Greys

/-!
# C129, C130: order and sign of colours in single precision, exactly

Rounding is monotone, so the sign of the entries of a matrix decides how each result moves, without any margin of error.
-/

namespace CS
open F32 B32 Spectrum

namespace MonotoneFloat

/-- One product. -/
theorem term {m x y : F32} (hx : (m * x).isFinite = true) (hy : (m * y).isFinite = true)
    (h : 0 ≤ m.val ∧ x.val ≤ y.val ∨ m.val ≤ 0 ∧ y.val ≤ x.val) : (m * x).val ≤ (m * y).val := by
  rw [mul_val hx, mul_val hy]
  refine rnd_mono ?_
  rcases h with ⟨h1, h2⟩ | ⟨h1, h2⟩
  · exact mul_le_mul_of_nonneg_left h2 h1
  · exact mul_le_mul_of_nonpos_left h2 h1

/-- One row. -/
theorem row {m n p x y z x' y' z' : F32} (h : (m * x + n * y + p * z).isFinite = true) (h' : (m * x' + n * y' + p * z').isFinite = true)
    (hx : 0 ≤ m.val ∧ x.val ≤ x'.val ∨ m.val ≤ 0 ∧ x'.val ≤ x.val) (hy : 0 ≤ n.val ∧ y.val ≤ y'.val ∨ n.val ≤ 0 ∧ y'.val ≤ y.val)
    (hz : 0 ≤ p.val ∧ z.val ≤ z'.val ∨ p.val ≤ 0 ∧ z'.val ≤ z.val) :
    (m * x + n * y + p * z).val ≤ (m * x' + n * y' + p * z').val := by
  obtain ⟨a, b⟩ := add_isFinite h
  obtain ⟨a', b'⟩ := add_isFinite h'
  obtain ⟨c, d⟩ := add_isFinite a
  obtain ⟨c', d'⟩ := add_isFinite a'
  rw [add_val h, add_val h']
  refine rnd_mono (add_le_add ?_ (term b b' hz))
  rw [add_val a, add_val a']
  exact rnd_mono (add_le_add (term c c' hx) (term d d' hy))

end MonotoneFloat

open MonotoneFloat

/-- **C129.** A component of the product of a matrix and a vector in binary32 never falls when the components of the vector with a
positive coefficient rise and those with a negative one fall: exactly, whenever the results are finite. -/
theorem C129_apply (m : Matrix3 F32) (v w : Vector3 F32) (i : Fin 3)
    (hv : (![(m.apply v).x, (m.apply v).y, (m.apply v).z] i).isFinite = true)
    (hw : (![(m.apply w).x, (m.apply w).y, (m.apply w).z] i).isFinite = true)
    (h : ∀ j, 0 ≤ entries m i j ∧ entriesV v j ≤ entriesV w j ∨ entries m i j ≤ 0 ∧ entriesV w j ≤ entriesV v j) :
    (![(m.apply v).x, (m.apply v).y, (m.apply v).z] i).val ≤ (![(m.apply w).x, (m.apply w).y, (m.apply w).z] i).val := by
  fin_cases i
  · exact row hv hw (h 0) (h 1) (h 2)
  · exact row hv hw (h 0) (h 1) (h 2)
  · exact row hv hw (h 0) (h 1) (h 2)

/-- Whether more blue means less luminance in a space. -/
def RGBSpace.blueDarkens : RGBSpace → Bool
  | sGamut | sGamut3Cine | aces2065 => true
  | _ => false

namespace MonotoneFloat

theorem signs (s : RGBSpace) : 0 ≤ s.gamut.toXYZ_.m3.val ∧ 0 ≤ s.gamut.toXYZ_.m4.val ∧
    (if s.blueDarkens then s.gamut.toXYZ_.m5.val < 0 else 0 ≤ s.gamut.toXYZ_.m5.val) := by
  have h := s.spec.2.2.1
  have h3 := congrArg Matrix3.m3 h
  have h4 := congrArg Matrix3.m4 h
  have h5 := congrArg Matrix3.m5 h
  simp only [Matrix3.vals] at h3 h4 h5
  rw [h3, h4, h5]
  cases s <;> simp only [RGBSpace.valTo, RGBSpace.blueDarkens] <;> norm_num

theorem finite_Y (s : RGBSpace) {t : Tristimulus F32} {C : ℚ} (hC : C ≤ 2 ^ 100) (ht : Within t C) : (s.gamut.toXYZ t).b.isFinite = true :=
  (C99_toXYZ s _ s.realises t C hC ht).1.2.1

end MonotoneFloat

/-- **C129, luminance.** In binary32, in each RGB space of the header, raising red or green never lowers the luminance; raising blue
never lowers it, except in S-Gamut, S-Gamut3.Cine and ACES 2065-1, where raising blue never raises it. -/
theorem C129_luminance (s : RGBSpace) (c d : Tristimulus F32) (hc : Within c (2 ^ 100)) (hd : Within d (2 ^ 100)) (ha : c.a.val ≤ d.a.val)
    (hb : c.b.val ≤ d.b.val) (hz : if s.blueDarkens then d.c.val ≤ c.c.val else c.c.val ≤ d.c.val) :
    (s.gamut.toXYZ c).b.val ≤ (s.gamut.toXYZ d).b.val := by
  obtain ⟨h3, h4, h5⟩ := signs s
  have f := finite_Y s le_rfl hc
  have g := finite_Y s le_rfl hd
  refine row (m := s.gamut.toXYZ_.m3) (n := s.gamut.toXYZ_.m4) (p := s.gamut.toXYZ_.m5) f g (.inl ⟨h3, ha⟩) (.inl ⟨h4, hb⟩) ?_
  split at h5
  · next q => rw [if_pos q] at hz; exact .inr ⟨h5.le, hz⟩
  · next q => rw [if_neg q] at hz; exact .inl ⟨h5, hz⟩

/-- **C129, between greys.** In the other five spaces the luminance of a colour lies, in binary32, between those of the greys of its
smallest and its largest component. -/
theorem C129_between (s : RGBSpace) (hs : s.blueDarkens = false) (c : Tristimulus F32) (lo hi : F32) (hc : Within c (2 ^ 100))
    (fl : lo.isFinite = true) (fh : hi.isFinite = true) (bl : |lo.val| ≤ 2 ^ 100) (bh : |hi.val| ≤ 2 ^ 100)
    (hl : lo.val ≤ c.a.val ∧ lo.val ≤ c.b.val ∧ lo.val ≤ c.c.val) (hh : c.a.val ≤ hi.val ∧ c.b.val ≤ hi.val ∧ c.c.val ≤ hi.val) :
    (s.gamut.toXYZ ⟨lo, lo, lo⟩).b.val ≤ (s.gamut.toXYZ c).b.val ∧ (s.gamut.toXYZ c).b.val ≤ (s.gamut.toXYZ ⟨hi, hi, hi⟩).b.val :=
  ⟨C129_luminance s ⟨lo, lo, lo⟩ c ⟨⟨fl, bl⟩, ⟨fl, bl⟩, fl, bl⟩ hc hl.1 hl.2.1 (by rw [hs]; exact hl.2.2),
   C129_luminance s c ⟨hi, hi, hi⟩ hc ⟨⟨fh, bh⟩, ⟨fh, bh⟩, fh, bh⟩ hh.1 hh.2.1 (by rw [hs]; exact hh.2.2)⟩

/-- The exception is real: pure blue has negative luminance in S-Gamut, S-Gamut3.Cine and ACES 2065-1. -/
theorem C129_blue (s : RGBSpace) : (s.gamut.toXYZ ⟨lit 0, lit 0, lit 1⟩).b.val < 0 ↔ s.blueDarkens = true := by
  have key : ([RGBSpace.adobe, .rec709, .rec2020, .dciP3, .sGamut, .sGamut3Cine, .acesCg, .aces2065].all fun s =>
      decide ((s.gamut.toXYZ ⟨lit 0, lit 0, lit 1⟩).b.val < 0) == s.blueDarkens) = true := by decide +kernel
  have := List.all_eq_true.1 key s (by cases s <;> simp)
  rw [beq_iff_eq] at this
  rw [← this, decide_eq_true_eq]

/-- The hypotheses are met. -/
example : Within ⟨lit 0, lit 0, lit 0⟩ (2 ^ 100) ∧ Within ⟨lit 1, lit 1, lit 1⟩ (2 ^ 100) ∧ (lit 0 : F32).val ≤ (lit 1 : F32).val := by
  refine ⟨⟨⟨?_, ?_⟩, ⟨?_, ?_⟩, ?_, ?_⟩, ⟨⟨?_, ?_⟩, ⟨?_, ?_⟩, ?_, ?_⟩, ?_⟩ <;> decide +kernel

/-! ## Wider spaces -/

/-- Pairs of spaces of which the second contains the first. -/
def widening : List (RGBSpace × RGBSpace) :=
  [(.adobe, .rec2020), (.adobe, .sGamut), (.adobe, .acesCg), (.adobe, .aces2065), (.rec709, .rec2020), (.rec709, .dciP3),
   (.rec709, .sGamut), (.rec709, .sGamut3Cine), (.rec709, .acesCg), (.rec709, .aces2065), (.rec2020, .sGamut), (.rec2020, .acesCg),
   (.rec2020, .aces2065), (.dciP3, .sGamut), (.dciP3, .sGamut3Cine), (.dciP3, .acesCg), (.dciP3, .aces2065), (.acesCg, .sGamut)]

namespace MonotoneFloat

/-- Finite entries from 0 to 2. -/
def positive (m : Matrix3 F32) : Bool :=
  [m.m0, m.m1, m.m2, m.m3, m.m4, m.m5, m.m6, m.m7, m.m8].all fun x => x.isFinite && decide (0 ≤ x.val) && decide (x.val ≤ 2)

set_option maxRecDepth 100000 in
theorem widening_positive : (widening.all fun p => positive (GamutConvert p.1.gamut p.2.gamut)) = true := by decide +kernel

theorem rep_pow {k : ℕ} : Rep (2 ^ k) := by
  have := rep_mul_pow (n := 1) (by norm_num) (k := k)
  simpa using this

theorem row_nn {m n p x y z : F32} (hm : NN m 2) (hn : NN n 2) (hp : NN p 2) (hx : NN x (2 ^ 100)) (hy : NN y (2 ^ 100)) (hz : NN z (2 ^ 100)) :
    NN (m * x + n * y + p * z) (2 ^ 103) := by
  have a := (mul_nn hm hx (rep_pow (k := 101)) (by norm_num) (by norm_num)).1
  have b := (mul_nn hn hy (rep_pow (k := 101)) (by norm_num) (by norm_num)).1
  have c := (mul_nn hp hz (rep_pow (k := 101)) (by norm_num) (by norm_num)).1
  have d := (add_nn a b (rep_pow (k := 102)) (by norm_num) (by norm_num)).1
  exact (add_nn d c (rep_pow (k := 103)) (by norm_num) (by norm_num)).1

end MonotoneFloat

/-- A colour with finite components from 0 to 2^100. -/
def Spec.Displayable (t : Tristimulus F32) : Prop := NN t.a (2 ^ 100) ∧ NN t.b (2 ^ 100) ∧ NN t.c (2 ^ 100)

/-- **C130.** For 18 pairs of spaces, converting a colour without negative components to the wider one gives, in binary32, finite
components none of which is negative. -/
theorem C130_nonneg (p : RGBSpace × RGBSpace) (hp : p ∈ widening) (t : Tristimulus F32) (ht : Spec.Displayable t) :
    ∀ x ∈ [(t.apply (GamutConvert p.1.gamut p.2.gamut)).a, (t.apply (GamutConvert p.1.gamut p.2.gamut)).b,
      (t.apply (GamutConvert p.1.gamut p.2.gamut)).c], x.isFinite = true ∧ 0 ≤ x.val := by
  have h := List.all_eq_true.1 widening_positive p hp
  simp only [positive, List.all_cons, List.all_nil, Bool.and_true, Bool.and_eq_true, decide_eq_true_eq] at h
  obtain ⟨h0, h1, h2, h3, h4, h5, h6, h7, h8⟩ := h
  obtain ⟨ta, tb, tc⟩ := ht
  have nn : ∀ {x : F32}, (x.isFinite = true ∧ 0 ≤ x.val) ∧ x.val ≤ 2 → NN x 2 := fun h => ⟨h.1.1, h.1.2, h.2⟩
  have r0 := row_nn (nn h0) (nn h1) (nn h2) ta tb tc
  have r1 := row_nn (nn h3) (nn h4) (nn h5) ta tb tc
  have r2 := row_nn (nn h6) (nn h7) (nn h8) ta tb tc
  intro x hx
  simp only [List.mem_cons, List.not_mem_nil, or_false] at hx
  rcases hx with rfl | rfl | rfl
  · exact ⟨r0.fin, r0.nonneg⟩
  · exact ⟨r1.fin, r1.nonneg⟩
  · exact ⟨r2.fin, r2.nonneg⟩

/-- **C130, order.** And raising a component of the colour lowers none of the result. -/
theorem C130_monotone (p : RGBSpace × RGBSpace) (hp : p ∈ widening) (s t : Tristimulus F32) (hs : Spec.Displayable s) (ht : Spec.Displayable t)
    (ha : s.a.val ≤ t.a.val) (hb : s.b.val ≤ t.b.val) (hc : s.c.val ≤ t.c.val) :
    (s.apply (GamutConvert p.1.gamut p.2.gamut)).a.val ≤ (t.apply (GamutConvert p.1.gamut p.2.gamut)).a.val ∧
    (s.apply (GamutConvert p.1.gamut p.2.gamut)).b.val ≤ (t.apply (GamutConvert p.1.gamut p.2.gamut)).b.val ∧
    (s.apply (GamutConvert p.1.gamut p.2.gamut)).c.val ≤ (t.apply (GamutConvert p.1.gamut p.2.gamut)).c.val := by
  have h := List.all_eq_true.1 widening_positive p hp
  simp only [positive, List.all_cons, List.all_nil, Bool.and_true, Bool.and_eq_true, decide_eq_true_eq] at h
  obtain ⟨h0, h1, h2, h3, h4, h5, h6, h7, h8⟩ := h
  have fs := C130_nonneg p hp s hs
  have ft := C130_nonneg p hp t ht
  refine ⟨?_, ?_, ?_⟩
  · exact row (fs _ List.mem_cons_self).1 (ft _ List.mem_cons_self).1 (.inl ⟨h0.1.2, ha⟩) (.inl ⟨h1.1.2, hb⟩) (.inl ⟨h2.1.2, hc⟩)
  · exact row (fs _ (List.mem_cons_of_mem _ List.mem_cons_self)).1 (ft _ (List.mem_cons_of_mem _ List.mem_cons_self)).1 (.inl ⟨h3.1.2, ha⟩) (.inl ⟨h4.1.2, hb⟩) (.inl ⟨h5.1.2, hc⟩)
  · exact row (fs _ (List.mem_cons_of_mem _ (List.mem_cons_of_mem _ List.mem_cons_self))).1 (ft _ (List.mem_cons_of_mem _ (List.mem_cons_of_mem _ List.mem_cons_self))).1 (.inl ⟨h6.1.2, ha⟩) (.inl ⟨h7.1.2, hb⟩) (.inl ⟨h8.1.2, hc⟩)

set_option maxRecDepth 100000 in
/-- **C130, the pair that fails.** Adobe RGB contains BT.709 too (C81), but in binary32 pure BT.709 blue gets a negative red component. -/
theorem C130_adobe : ((⟨lit 0, lit 0, lit 1⟩ : Tristimulus F32).apply (GamutConvert Rec709 AdobeRGB)).a.val < 0 ∧
    ((⟨lit 0, lit 0, lit 1⟩ : Tristimulus F32).apply (GamutConvert Rec709 AdobeRGB)).hasNegative = true := by decide +kernel

/-- The hypotheses are met. -/
example : Spec.Displayable ⟨lit 0, lit 0.5, lit 1⟩ := by
  refine ⟨⟨?_, ?_, ?_⟩, ⟨?_, ?_, ?_⟩, ?_, ?_, ?_⟩ <;> decide +kernel

end CS
