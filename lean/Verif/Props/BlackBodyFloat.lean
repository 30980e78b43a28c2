import Verif.Props.MixedPlanck
import Verif.Props.MixedCT
import Verif.Props.SpectrumFloat
import Verif.Props.Planckian
import Verif.Lemmas.CloseMatrix

/-!
# C131: the colour of a black body, in the precision of the code

`blackbody` (evaluated in `double`, stored in `float`) seen by an observer (`float`), and `fromCT` (`double`, returned in `float`):
the two ways the library offers to get the colour of a temperature agree as executed.
-/

namespace CS
open Spectrum Planck Tristimulus Locus

namespace BBF

theorem comp_real (t : Data.Table) (b : Spectrum ℝ) :
    b.dot (ofTable t) * (lit 1 / (ofTable t : Spectrum ℝ).sum) = (∑ i, b i * (t.q i : ℝ)) / ∑ i, (t.q i : ℝ) := by
  rw [dot_eq, sum_eq]
  simp only [ofTable, lit_real]
  push_cast
  rw [mul_one_div]

theorem component {t : Data.Table} (ht : t.curve = true) {s : Spectrum F32} {b : Spectrum ℝ} {c : F32} (lo : ∀ i, 1.4e-36 ≤ b i)
    (hs : ∀ i, F32.Ap (s i) (b i) (1.2e-7 * b i)) (hc : MeanOf c s t) :
    0 < (∑ i, b i * (t.q i : ℝ)) / ∑ i, (t.q i : ℝ) ∧
    F32.Ap c ((∑ i, b i * (t.q i : ℝ)) / ∑ i, (t.q i : ℝ)) (5.1e-5 * ((∑ i, b i * (t.q i : ℝ)) / ∑ i, (t.q i : ℝ))) := by
  obtain ⟨hf, -, he⟩ := hc
  have q0 : ∀ i, (0 : ℝ) ≤ t.q i := fun i => by exact_mod_cast t.q_nonneg i
  have Q0 : (0 : ℝ) < ∑ i, (t.q i : ℝ) := by
    have := Data.Table.sum_ge ht
    have h2 : ((100 : ℚ) : ℝ) ≤ ((∑ i, t.q i : ℚ) : ℝ) := by exact_mod_cast this
    push_cast at h2
    linarith
  have he' : |(c.val : ℝ) - ((Spec.mean (fun i => (s i).val) t.q : ℚ) : ℝ)| ≤
      5e-5 * ((Spec.mean (fun i => (s i).val) t.q : ℚ) : ℝ) + 1 / 2 ^ 140 := by
    have := (Rat.cast_le (K := ℝ)).2 he
    push_cast at this
    exact this
  have eM : ((Spec.mean (fun i => (s i).val) t.q : ℚ) : ℝ) = (∑ i, ((s i).val : ℝ) * (t.q i : ℝ)) / ∑ i, (t.q i : ℝ) := by
    unfold Spec.mean; push_cast; rfl
  rw [eM] at he'
  have d : |(∑ i, ((s i).val : ℝ) * (t.q i : ℝ)) - ∑ i, b i * (t.q i : ℝ)| ≤ 1.2e-7 * ∑ i, b i * (t.q i : ℝ) := by
    rw [← Finset.sum_sub_distrib, Finset.mul_sum]
    refine (Finset.abs_sum_le_sum_abs _ _).trans (Finset.sum_le_sum fun i _ => ?_)
    rw [← sub_mul, abs_mul, abs_of_nonneg (q0 i), ← mul_assoc]
    exact mul_le_mul_of_nonneg_right (hs i).err (q0 i)
  have l : 1.4e-36 * ∑ i, (t.q i : ℝ) ≤ ∑ i, b i * (t.q i : ℝ) := by
    rw [Finset.mul_sum]
    exact Finset.sum_le_sum fun i _ => mul_le_mul_of_nonneg_right (lo i) (q0 i)
  generalize ∑ i, ((s i).val : ℝ) * (t.q i : ℝ) = A at *
  generalize ∑ i, b i * (t.q i : ℝ) = B at *
  generalize ∑ i, (t.q i : ℝ) = Q at *
  have l' : 1.4e-36 ≤ B / Q := by rwa [le_div_iff₀ Q0]
  have d' : |A / Q - B / Q| ≤ 1.2e-7 * (B / Q) := by
    rw [← sub_div, abs_div, abs_of_pos Q0, ← mul_div_assoc]
    exact div_le_div_of_nonneg_right d Q0.le
  generalize A / Q = M at *
  generalize B / Q = R at *
  refine ⟨lt_of_lt_of_le (by norm_num) l', hf, ?_⟩
  have h2 : (1 : ℝ) / 2 ^ 140 ≤ 7.2e-43 := by norm_num
  generalize (1 : ℝ) / 2 ^ 140 = η at *
  rw [_root_.abs_le] at he' d' ⊢
  norm_num at he' d' l' h2 ⊢
  constructor <;> linarith [he'.1, he'.2, d'.1, d'.2]

/-- Two colours with components that agree relatively have nearly the same chromaticity. -/
theorem ratio {p₁ p₂ p₃ q₁ q₂ q₃ : ℝ} (h₁ : 0 < q₁) (h₂ : 0 < q₂) (h₃ : 0 < q₃) (a₁ : |p₁ - q₁| ≤ 5.1e-5 * q₁)
    (a₂ : |p₂ - q₂| ≤ 5.1e-5 * q₂) (a₃ : |p₃ - q₃| ≤ 5.1e-5 * q₃) {p q : ℝ} (hp : |p - q| ≤ 5.1e-5 * q) (hq : 0 ≤ q) (hqS : q ≤ q₁ + q₂ + q₃) :
    |p / (p₁ + p₂ + p₃) - q / (q₁ + q₂ + q₃)| ≤ 1.03e-4 := by
  have S0 : 0 < q₁ + q₂ + q₃ := by positivity
  have hσ : |(p₁ + p₂ + p₃) - (q₁ + q₂ + q₃)| ≤ 5.1e-5 * (q₁ + q₂ + q₃) := by
    rw [_root_.abs_le] at *
    constructor <;> linarith [a₁.1, a₁.2, a₂.1, a₂.2, a₃.1, a₃.2]
  generalize p₁ + p₂ + p₃ = σ at *
  generalize q₁ + q₂ + q₃ = S at *
  have s1 : (1 - 5.1e-5) * S ≤ σ := by linarith [(_root_.abs_le.1 hσ).1]
  have σ0 : 0 < σ := lt_of_lt_of_le (by positivity) s1
  rw [div_sub_div _ _ σ0.ne' S0.ne', abs_div, abs_of_pos (mul_pos σ0 S0), div_le_iff₀ (mul_pos σ0 S0)]
  have e : p * S - σ * q = (p - q) * S - (σ - S) * q := by ring
  rw [e]
  have b1 : |(p - q) * S| ≤ 5.1e-5 * q * S := by rw [abs_mul, abs_of_pos S0]; gcongr
  have b2 : |(σ - S) * q| ≤ 5.1e-5 * S * q := by rw [abs_mul, abs_of_nonneg hq]; gcongr
  have b3 : q * S ≤ S * S := by gcongr
  have b4 : (1 - 5.1e-5) * S * S ≤ σ * S := by gcongr
  have SS : 0 < S * S := by positivity
  refine (abs_sub _ _).trans ?_
  norm_num at *
  nlinarith

/-- Two colours that differ by little have nearly the same chromaticity. -/
theorem ratio_abs {p q σ S d : ℝ} (S0 : 0 < S) (hp : |p - q| ≤ d) (hσ : |σ - S| ≤ 3 * d) (hq : |q| ≤ S) (hd : d ≤ 1e-6 * S) :
    |p / σ - q / S| ≤ 4.1e-6 := by
  have s1 : (1 - 3e-6) * S ≤ σ := by linarith [(_root_.abs_le.1 hσ).1]
  have σ0 : 0 < σ := lt_of_lt_of_le (by positivity) s1
  rw [div_sub_div _ _ σ0.ne' S0.ne', abs_div, abs_of_pos (mul_pos σ0 S0), div_le_iff₀ (mul_pos σ0 S0)]
  have e : p * S - σ * q = (p - q) * S - (σ - S) * q := by ring
  rw [e]
  have d0 : 0 ≤ d := (abs_nonneg _).trans hp
  have b1 : |(p - q) * S| ≤ d * S := by rw [abs_mul, abs_of_pos S0]; gcongr
  have b2 : |(σ - S) * q| ≤ 3 * d * S := by rw [abs_mul]; gcongr
  have b3 : d * S ≤ 1e-6 * S * S := by gcongr
  have b4 : (1 - 3e-6) * S * S ≤ σ * S := by gcongr
  have SS : 0 < S * S := by positivity
  refine (abs_sub _ _).trans ?_
  norm_num at *
  nlinarith

/-- The samples of a black body. -/
theorem samples {T : F32} (h : Warm T) (i : Fin 400) : 1.4e-36 ≤ blackbody (T.val : ℝ) i ∧ blackbody (T.val : ℝ) i ≤ 1e11 := by
  have t0 : (400 : ℝ) ≤ T.val := by exact_mod_cast h.lo
  have t1 : (T.val : ℝ) ≤ 1e8 := by
    have := (Rat.cast_le (K := ℝ)).2 h.hi
    push_cast at this; exact this
  obtain ⟨v0, v1⟩ := V_bounds t0 t1 i
  have eV : blackbody (T.val : ℝ) i = V T.val i / 1e9 := by rw [bb_eq]; rfl
  rw [eV]
  norm_num at v0 v1 ⊢
  constructor <;> linarith

/-- The black-body spectra the code computes are lights. -/
theorem light {o : F64.Oracle} (hp : o.PowAccurate (2 ^ (-50 : ℤ))) (he : o.ExpAccurate (2 ^ (-50 : ℤ))) {T : F32} (h : Warm T) :
    Light (Mixed.blackbody o T) := fun i => by
  have a := C95_accurate o hp he T h i
  obtain ⟨l, u⟩ := samples h i
  have e := _root_.abs_le.1 a.err
  have k : (0 : ℝ) ≤ (Mixed.blackbody o T i).val ∧ ((Mixed.blackbody o T i).val : ℝ) ≤ 2 ^ 100 := by
    generalize blackbody (T.val : ℝ) i = B at *
    norm_num at e l u
    refine ⟨by linarith [e.1, e.2], le_trans (b := (3e11 : ℝ)) ?_ (by norm_num)⟩
    norm_num
    linarith [e.1, e.2]
  exact ⟨a.fin, by exact_mod_cast k.1, by exact_mod_cast k.2⟩

/-- Each component has relative error at most `e` and is positive. -/
def CloseTo (s : Tristimulus F32) (t : Tristimulus ℝ) : Prop :=
  (0 < t.a ∧ F32.Ap s.a t.a (5.1e-5 * t.a)) ∧ (0 < t.b ∧ F32.Ap s.b t.b (5.1e-5 * t.b)) ∧ (0 < t.c ∧ F32.Ap s.c t.c (5.1e-5 * t.c))

theorem bbrel {o : F64.Oracle} (hp : o.PowAccurate (2 ^ (-50 : ℤ))) (he : o.ExpAccurate (2 ^ (-50 : ℤ))) {T : F32} (h : Warm T)
    {t : Data.Table} (ht : t.curve = true) {c : F32} (hc : MeanOf c (Mixed.blackbody o T) t) {r : ℝ}
    (hr : r = (blackbody (T.val : ℝ)).dot (ofTable t) * (lit 1 / (ofTable t : Spectrum ℝ).sum)) :
    0 < r ∧ F32.Ap c r (5.1e-5 * r) := by
  rw [hr, comp_real]
  exact component ht (fun i => (samples h i).1) (fun i => C95_accurate o hp he T h i) hc

end BBF

open BBF

/-- **C131, components.** What the three observers see in a black body between 400 K and 100 million K, computed by the code, is
within 0.0051 % of the exact value, component by component, and every component is positive. -/
theorem C131_components (o : F64.Oracle) (hp : o.PowAccurate (2 ^ (-50 : ℤ))) (he : o.ExpAccurate (2 ^ (-50 : ℤ))) (T : F32) (h : Warm T) :
    CloseTo ((CIE1931 : Observer F32).fromSpectrum (Mixed.blackbody o T)) ((CIE1931 : Observer ℝ).fromSpectrum (blackbody T.val)) ∧
    CloseTo ((CIE31JV : Observer F32).fromSpectrum (Mixed.blackbody o T)) ((CIE31JV : Observer ℝ).fromSpectrum (blackbody T.val)) ∧
    CloseTo ((CIE2012 : Observer F32).fromSpectrum (Mixed.blackbody o T)) ((CIE2012 : Observer ℝ).fromSpectrum (blackbody T.val)) := by
  have hc := curves
  simp only [List.all_cons, List.all_nil, Bool.and_true, Bool.and_eq_true] at hc
  obtain ⟨h1, h2, h3, h4, h5, h6, h7, h8, h9⟩ := hc
  obtain ⟨⟨m1, m2, m3⟩, ⟨m4, m5, m6⟩, m7, m8, m9⟩ := C77_accurate _ (light hp he h)
  exact ⟨⟨bbrel hp he h h1 m1 rfl, bbrel hp he h h2 m2 rfl, bbrel hp he h h3 m3 rfl⟩,
    ⟨bbrel hp he h h4 m4 rfl, bbrel hp he h h5 m5 rfl, bbrel hp he h h6 m6 rfl⟩,
    bbrel hp he h h7 m7 rfl, bbrel hp he h h8 m8 rfl, bbrel hp he h h9 m9 rfl⟩

theorem BBF.CloseTo.xy {s : Tristimulus F32} {t : Tristimulus ℝ} (h : CloseTo s t) :
    |(Spec.xy s.real).1 - (Spec.xy t).1| ≤ 1.03e-4 ∧ |(Spec.xy s.real).2 - (Spec.xy t).2| ≤ 1.03e-4 := by
  obtain ⟨⟨p1, a1⟩, ⟨p2, a2⟩, p3, a3⟩ := h
  exact ⟨ratio p1 p2 p3 a1.err a2.err a3.err a1.err p1.le (by linarith), ratio p1 p2 p3 a1.err a2.err a3.err a2.err p2.le (by linarith)⟩

/-- **C131, chromaticity.** So the chromaticity is right to 0.0001. -/
theorem C131_chromaticity (o : F64.Oracle) (hp : o.PowAccurate (2 ^ (-50 : ℤ))) (he : o.ExpAccurate (2 ^ (-50 : ℤ))) (T : F32) (h : Warm T) :
    (|(Spec.xy ((CIE1931 : Observer F32).fromSpectrum (Mixed.blackbody o T)).real).1 -
        (Spec.xy ((CIE1931 : Observer ℝ).fromSpectrum (blackbody T.val))).1| ≤ 1.03e-4 ∧
      |(Spec.xy ((CIE1931 : Observer F32).fromSpectrum (Mixed.blackbody o T)).real).2 -
        (Spec.xy ((CIE1931 : Observer ℝ).fromSpectrum (blackbody T.val))).2| ≤ 1.03e-4) ∧
    (|(Spec.xy ((CIE31JV : Observer F32).fromSpectrum (Mixed.blackbody o T)).real).1 -
        (Spec.xy ((CIE31JV : Observer ℝ).fromSpectrum (blackbody T.val))).1| ≤ 1.03e-4 ∧
      |(Spec.xy ((CIE31JV : Observer F32).fromSpectrum (Mixed.blackbody o T)).real).2 -
        (Spec.xy ((CIE31JV : Observer ℝ).fromSpectrum (blackbody T.val))).2| ≤ 1.03e-4) ∧
    (|(Spec.xy ((CIE2012 : Observer F32).fromSpectrum (Mixed.blackbody o T)).real).1 -
        (Spec.xy ((CIE2012 : Observer ℝ).fromSpectrum (blackbody T.val))).1| ≤ 1.03e-4 ∧
      |(Spec.xy ((CIE2012 : Observer F32).fromSpectrum (Mixed.blackbody o T)).real).2 -
        (Spec.xy ((CIE2012 : Observer ℝ).fromSpectrum (blackbody T.val))).2| ≤ 1.03e-4) := by
  obtain ⟨a, b, c⟩ := C131_components o hp he T h
  exact ⟨a.xy, b.xy, c.xy⟩

/-- The chromaticity of `fromCT` in the precision of the code. -/
theorem BBF.ct (T L : F32) (h : TempOK T) (hL : L.isFinite = true) (L0 : 1 / 2 ^ 90 ≤ L.val) (L1 : L.val ≤ 2 ^ 58) :
    |(Spec.xy (Mixed.fromCT T L).real).1 - (Spec.xy (fromCT (T.val : ℝ) L.val)).1| ≤ 4.1e-6 ∧
    |(Spec.xy (Mixed.fromCT T L).real).2 - (Spec.xy (fromCT (T.val : ℝ) L.val)).2| ≤ 4.1e-6 := by
  obtain ⟨ax, ey, az⟩ := C94_fromCT T L h hL (lt_of_lt_of_le (by norm_num) L0) L1
  obtain ⟨⟨x0, x1⟩, y0, y1⟩ := Locus.box h.mem
  have l0 : (1 : ℝ) / 2 ^ 90 ≤ L.val := by
    have := (Rat.cast_le (K := ℝ)).2 L0
    push_cast at this; exact this
  have er : fromCT (T.val : ℝ) L.val = _ := fromYxy_real ⟨L.val, Locus.X T.val, Locus.Y T.val⟩ (Locus.abs_Y h.mem)
  rw [er] at ax az ⊢
  simp only at ax az
  generalize hM : Mixed.fromCT T L = m at *
  obtain ⟨a, b, c⟩ := m
  simp only at ax ey az
  subst ey
  simp only [Spec.xy, Tristimulus.real]
  generalize Locus.X (T.val : ℝ) = x at *
  generalize Locus.Y (T.val : ℝ) = y at *
  have ex := ax.err
  have ez := az.err
  have k : (1 : ℝ) / 2 ^ 120 ≤ 1e-9 * b.val := by
    have : (1 : ℝ) / 2 ^ 120 ≤ 1e-9 * (1 / 2 ^ 90) := by norm_num
    exact this.trans (by gcongr)
  have bp : (0 : ℝ) < b.val := lt_of_lt_of_le (by positivity) l0
  have yp : 0 < y := by linarith
  generalize (1 : ℝ) / 2 ^ 120 = η at *
  generalize (a.val : ℝ) = p at *
  generalize (c.val : ℝ) = r at *
  generalize (b.val : ℝ) = l at *
  have hS : x * l / y + l + (1 - x - y) * l / y = l / y := by field_simp; ring
  have S2 : 2 * l ≤ l / y := by
    rw [le_div_iff₀ yp]
    nlinarith
  have S0 : 0 < l / y := by positivity
  have ex' : |p - x * l / y| ≤ 2e-6 * l := ex.trans (by norm_num at *; linarith)
  have ez' : |r - (1 - x - y) * l / y| ≤ 2e-6 * l := ez.trans (by norm_num at *; linarith)
  have hσ : |(p + l + r) - (x * l / y + l + (1 - x - y) * l / y)| ≤ 3 * (2e-6 * l) := by
    rw [_root_.abs_le] at *
    constructor <;> linarith [ex'.1, ex'.2, ez'.1, ez'.2]
  rw [hS] at hσ ⊢
  have hd : 2e-6 * l ≤ 1e-6 * (l / y) := by norm_num at *; linarith
  refine ⟨ratio_abs S0 ex' hσ ?_ hd, ratio_abs S0 ?_ hσ ?_ hd⟩
  · rw [abs_of_nonneg (by have : 0 ≤ x := by linarith
                          positivity), mul_div_assoc]
    nlinarith
  · rw [sub_self, abs_zero]; positivity
  · rw [abs_of_pos bp]; linarith

/-- **C131, agreement.** Between 1000 K and 10000 K the chromaticity `fromCT` returns is, as executed, the one the CIE 1931 observer
computes for the black body of that temperature, up to 0.0024 in `x` and 0.0072 in `y`. -/
theorem C131_fromCT (o : F64.Oracle) (hp : o.PowAccurate (2 ^ (-50 : ℤ))) (he : o.ExpAccurate (2 ^ (-50 : ℤ))) (T L : F32)
    (hT : T.isFinite = true) (h0 : 1000 ≤ T.val) (h1 : T.val ≤ 10000) (hL : L.isFinite = true) (L0 : 1 / 2 ^ 90 ≤ L.val)
    (L1 : L.val ≤ 2 ^ 58) :
    |(Spec.xy (Mixed.fromCT T L).real).1 - (Spec.xy ((CIE1931 : Observer F32).fromSpectrum (Mixed.blackbody o T)).real).1| ≤ 0.0024 ∧
    |(Spec.xy (Mixed.fromCT T L).real).2 - (Spec.xy ((CIE1931 : Observer F32).fromSpectrum (Mixed.blackbody o T)).real).2| ≤ 0.0072 := by
  have w : Warm T := ⟨hT, by linarith, by linarith⟩
  have k : TempOK T := ⟨hT, by linarith, h1⟩
  have a := (C131_components o hp he T w).1.xy
  have b := BBF.ct T L k hL L0 L1
  have l0 : (L.val : ℝ) ≠ 0 := by
    have : L.val ≠ 0 := ne_of_gt (lt_of_lt_of_le (by norm_num) L0)
    exact_mod_cast this
  have c := C125_fromCT (T := T.val) l0 ⟨by exact_mod_cast h0, by exact_mod_cast h1⟩
  simp only [_root_.abs_le] at a b c ⊢
  norm_num at a b c ⊢
  refine ⟨⟨?_, ?_⟩, ?_, ?_⟩ <;>
    linarith [a.1.1, a.1.2, a.2.1, a.2.2, b.1.1, b.1.2, b.2.1, b.2.2, c.1.1, c.1.2, c.2.1, c.2.2]

/-- The hypotheses can be met: 6504 K at unit luminance, with an accurate library. -/
example : (∃ o : F64.Oracle, o.PowAccurate (2 ^ (-50 : ℤ)) ∧ o.ExpAccurate (2 ^ (-50 : ℤ))) ∧
    (Arith.lit 6504 : F32).isFinite = true ∧ 1000 ≤ (Arith.lit 6504 : F32).val ∧ (Arith.lit 6504 : F32).val ≤ 10000 ∧
    (Arith.lit 1 : F32).isFinite = true ∧ 1 / 2 ^ 90 ≤ (Arith.lit 1 : F32).val ∧ (Arith.lit 1 : F32).val ≤ 2 ^ 58 := by
  refine ⟨exists_accurate64, ?_, ?_, ?_, ?_, ?_, ?_⟩ <;> decide +kernel

end CS
