import Verif.Lemmas.Spectrum
import Mathlib.Algebra.Order.BigOperators.Group.Finset
import Mathlib.Analysis.SpecialFunctions.Exp

/-!
# Spectra, observers and the colour checker (C38 - C44)
-/

namespace CS
open Spectrum

/-! ## C38 -/

/-- C38: whatever the arithmetic (rounding, NaN, infinities), the wavelength and the range arguments, a
lookup in a non-empty array never reads outside it. -/
theorem C38_in_bounds {α : Type} [Arith α] (sample : List α) (hs : sample ≠ []) (lo hi t : α) :
    fetchFrom sample sample.length lo hi t ≠ .error .outOfBounds :=
  fetch_in_bounds sample hs lo hi t

/-- C38: at the `k`-th sample position the result is the `k`-th sample. -/
theorem C38_at_samples (sample : List ℝ) (lo hi : ℝ) (hlh : lo < hi) (h2 : 2 ≤ sample.length)
    (hmax : (sample.length : ℤ) ≤ 2147483647) (k : ℕ) (hk : k < sample.length) :
    fetchFrom sample sample.length lo hi (lo + k * ((hi - lo) / (sample.length - 1))) = .ok sample[k] := by
  obtain ⟨n, hn⟩ : ∃ n, sample.length = n + 1 := ⟨sample.length - 1, by omega⟩
  have hc : ((sample.length : ℕ) : ℤ) = (n : ℤ) + 1 := by omega
  have hr : ((sample.length : ℕ) : ℝ) - 1 = (n : ℝ) := by rw [hn]; push_cast; ring
  have hnpos : (0 : ℝ) < n := by have : 0 < n := by omega
                                 exact_mod_cast this
  rw [hc, hr]
  have hd : (0 : ℝ) < hi - lo := by linarith
  have hx : (n : ℝ) * (lo + k * ((hi - lo) / n) - lo) / (hi - lo) = k := by field_simp; ring
  have hkb : (k : ℝ) < 2147483647 := by
    have : (k : ℤ) < 2147483647 := by omega
    exact_mod_cast this
  rcases Nat.eq_zero_or_pos k with rfl | hk0
  · rw [fetch_first hn (by omega) (by unfold intMax; omega) (by rw [hx]; norm_num) (by rw [hx]; norm_num)]
  rcases Nat.lt_or_ge k n with hkn | hkn
  · rw [fetch_mid hn (by unfold intMax; omega) hlh.ne hk0 hkn le_rfl one_pos (by ring)]
    congr 1; ring
  · have : k = n := by omega
    subst this
    rw [fetch_last hn (by unfold intMax; omega) (by rw [hx]) (by rw [hx]; exact hkb)]

/-- C38, the part that holds: between two samples - except the first two - the result is the linear
interpolation.  Missing: the first interval, see `C38_first_interval`. -/
theorem C38_interpolates_partial (sample : List ℝ) (lo hi : ℝ) (hlh : lo < hi)
    (hmax : (sample.length : ℤ) ≤ 2147483647) (k : ℕ) (hk1 : 1 ≤ k) (hk : k + 1 < sample.length) (r : ℝ)
    (hr0 : 0 ≤ r) (hr1 : r ≤ 1) :
    fetchFrom sample sample.length lo hi (lo + (k + r) * ((hi - lo) / (sample.length - 1))) =
      .ok ((1 - r) * sample[k] + r * sample[k + 1]) := by
  rcases hr1.lt_or_eq with h | rfl
  · obtain ⟨n, hn⟩ : ∃ n, sample.length = n + 1 := ⟨sample.length - 1, by omega⟩
    have hc : ((sample.length : ℕ) : ℤ) = (n : ℤ) + 1 := by omega
    have hr : ((sample.length : ℕ) : ℝ) - 1 = (n : ℝ) := by rw [hn]; push_cast; ring
    rw [hc, hr, fetch_mid hn (by unfold intMax; omega) hlh.ne hk1 (by omega) hr0 h rfl]
  · have := C38_at_samples sample lo hi hlh (by omega) hmax (k + 1) hk
    push_cast at this
    rw [this]
    congr 1; ring

/-- C38 is false on the first interval: between the first and the second sample the result stays at the
first sample. -/
theorem C38_first_interval (sample : List ℝ) (lo hi : ℝ) (hlh : lo < hi) (h2 : 2 ≤ sample.length)
    (hmax : (sample.length : ℤ) ≤ 2147483647) (r : ℝ) (hr0 : 0 ≤ r) (hr1 : r < 1) :
    fetchFrom sample sample.length lo hi (lo + r * ((hi - lo) / (sample.length - 1))) =
      .ok (sample[0]) := by
  obtain ⟨n, hn⟩ : ∃ n, sample.length = n + 1 := ⟨sample.length - 1, by omega⟩
  have hc : ((sample.length : ℕ) : ℤ) = (n : ℤ) + 1 := by omega
  have hr : ((sample.length : ℕ) : ℝ) - 1 = (n : ℝ) := by rw [hn]; push_cast; ring
  have hnpos : (0 : ℝ) < n := by have : 0 < n := by omega
                                 exact_mod_cast this
  have hd : (0 : ℝ) < hi - lo := by linarith
  rw [hc, hr]
  have hx : (n : ℝ) * (lo + r * ((hi - lo) / n) - lo) / (hi - lo) = r := by field_simp; ring
  exact fetch_first hn (by omega) (by unfold intMax; omega) (by rw [hx]; exact hr1) (by rw [hx]; linarith)

/-- C38 is false: a spectrum with samples 0 and 1 at 380 nm and 381 nm has value 0, not 1/2, half way. -/
theorem C38_interpolates_false : ∃ s : Spectrum ℝ, s 0 = 0 ∧ s 1 = 1 ∧ s.fetch (380 + 1 / 2) = .ok 0 := by
  obtain ⟨s, hs0, hs1⟩ : ∃ s : Spectrum ℝ, s 0 = 0 ∧ s 1 = 1 :=
    ⟨fun i => (i.val : ℝ), by simp, by norm_num⟩
  refine ⟨s, hs0, hs1, ?_⟩
  have h := C38_first_interval (List.ofFn s) 380 779 (by norm_num)
    (by rw [List.length_ofFn]; norm_num) (by rw [List.length_ofFn]; norm_num) (1 / 2) (by norm_num) (by norm_num)
  simp only [List.length_ofFn] at h
  unfold fetch
  rw [lit_real, lit_real]
  push_cast
  rw [show (380 : ℝ) + 1 / 2 * ((779 - 380) / ((400 : ℕ) - 1)) = 380 + 1 / 2 by norm_num] at h
  simp only [List.getElem_ofFn] at h
  refine Eq.trans h (congrArg _ hs0)

/-- C38: below the range the first sample, above it the last one - as long as the scaled position fits
an `int`. -/
theorem C38_clamped (sample : List ℝ) (lo hi t : ℝ) (hlh : lo < hi) (h2 : 2 ≤ sample.length)
    (hmax : (sample.length : ℤ) ≤ 2147483647) :
    (t ≤ lo → -2147483648 * ((hi - lo) / (sample.length - 1)) ≤ t - lo →
      fetchFrom sample sample.length lo hi t = .ok sample[0]) ∧
    (hi ≤ t → t - lo < 2147483647 * ((hi - lo) / (sample.length - 1)) →
      fetchFrom sample sample.length lo hi t = .ok (sample[sample.length - 1])) := by
  obtain ⟨n, hn⟩ : ∃ n, sample.length = n + 1 := ⟨sample.length - 1, by omega⟩
  have hc : ((sample.length : ℕ) : ℤ) = (n : ℤ) + 1 := by omega
  have hr : ((sample.length : ℕ) : ℝ) - 1 = (n : ℝ) := by rw [hn]; push_cast; ring
  have hnpos : (0 : ℝ) < n := by have : 0 < n := by omega
                                 exact_mod_cast this
  have hd : (0 : ℝ) < hi - lo := by linarith
  rw [hc, hr]
  refine ⟨fun h1 h3 => ?_, fun h1 h3 => ?_⟩
  · refine fetch_first hn (by omega) (by unfold intMax; omega) ?_ ?_
    · rw [div_lt_one hd]; nlinarith
    · rw [lt_div_iff₀ hd]
      rw [mul_div_assoc', div_le_iff₀ hnpos] at h3
      nlinarith
  · have : fetchFrom sample (n + 1) lo hi t = .ok (sample[n]'(by omega)) := by
      refine fetch_last hn (by unfold intMax; omega) ?_ ?_
      · rw [le_div_iff₀ hd]; nlinarith
      · rw [div_lt_iff₀ hd]
        rw [mul_div_assoc', lt_div_iff₀ hnpos] at h3
        linarith
    rw [this]
    congr 2; omega

/-- C38: far outside the range the conversion to `int` is undefined. -/
theorem C38_far_undefined (s : Spectrum ℝ) (t : ℝ) (h : 380 + 2147483648 ≤ t) : s.fetch t = .error .badCast := by
  unfold fetch
  rw [show (400 : ℤ) = ((399 : ℕ) : ℤ) + 1 by norm_num]
  refine fetch_huge (by decide) ?_
  simp only [lit_real]
  push_cast
  rw [le_div_iff₀ (by norm_num)]
  linarith

/-- C38: inside the range the result always lies between two neighbouring samples, and those are the
samples on either side of `t`. -/
theorem C38_between (sample : List ℝ) (lo hi t : ℝ) (hlh : lo < hi) (h2 : 2 ≤ sample.length)
    (hmax : (sample.length : ℤ) ≤ 2147483647) (h0 : lo ≤ t) (h1 : t ≤ hi) :
    ∃ (v : ℝ) (k : ℕ) (hk : k + 1 < sample.length), fetchFrom sample sample.length lo hi t = .ok v ∧
      lo + k * ((hi - lo) / (sample.length - 1)) ≤ t ∧ t ≤ lo + (k + 1) * ((hi - lo) / (sample.length - 1)) ∧
      min sample[k] sample[k + 1] ≤ v ∧ v ≤ max sample[k] sample[k + 1] := by
  have hn1 : (0 : ℝ) < (sample.length : ℝ) - 1 := by
    have : (2 : ℝ) ≤ sample.length := by exact_mod_cast h2
    linarith
  have hd : (0 : ℝ) < hi - lo := by linarith
  set st := (hi - lo) / ((sample.length : ℝ) - 1) with hst
  have hsp : 0 < st := div_pos hd hn1
  set x := (t - lo) / st with hx
  have hx0 : 0 ≤ x := div_nonneg (by linarith) hsp.le
  have htx : t = lo + x * st := by rw [hx]; field_simp; ring
  have hhi : hi = lo + ((sample.length : ℝ) - 1) * st := by rw [hst]; field_simp; ring
  have hxn : x ≤ (sample.length : ℝ) - 1 := by
    rw [hx, div_le_iff₀ hsp]; linarith
  rcases hxn.lt_or_eq with hlt | heq
  · have hk : ⌊x⌋₊ + 1 < sample.length := by
      have : ⌊x⌋₊ < sample.length - 1 := by
        rw [Nat.floor_lt hx0, Nat.cast_sub (by omega)]; simpa using hlt
      omega
    have hf1 := Nat.floor_le hx0
    have hf2 := Nat.lt_floor_add_one x
    have hb1 : lo + ⌊x⌋₊ * st ≤ t := by rw [htx]; nlinarith
    have hb2 : t ≤ lo + (⌊x⌋₊ + 1) * st := by rw [htx]; nlinarith
    rcases Nat.eq_zero_or_pos ⌊x⌋₊ with h0' | h0'
    · have hx1 : x < 1 := by rw [h0'] at hf2; simpa using hf2
      refine ⟨sample[0], ⌊x⌋₊, hk, ?_, hb1, hb2, ?_, ?_⟩
      · rw [htx]; exact C38_first_interval sample lo hi hlh h2 hmax x hx0 hx1
      · simp [h0']
      · simp [h0']
    · have he := C38_interpolates_partial sample lo hi hlh hmax ⌊x⌋₊ h0' hk (x - ⌊x⌋₊) (by linarith) (by linarith)
      rw [show ((⌊x⌋₊ : ℝ) + (x - ⌊x⌋₊)) = x by ring, ← hst, ← htx] at he
      refine ⟨_, ⌊x⌋₊, hk, he, hb1, hb2, ?_, ?_⟩
      · have a := min_le_left sample[⌊x⌋₊] sample[⌊x⌋₊ + 1]
        have b := min_le_right sample[⌊x⌋₊] sample[⌊x⌋₊ + 1]
        have c : 0 ≤ x - ⌊x⌋₊ := by linarith
        have d : 0 ≤ 1 - (x - ⌊x⌋₊) := by linarith
        nlinarith
      · have a := le_max_left sample[⌊x⌋₊] sample[⌊x⌋₊ + 1]
        have b := le_max_right sample[⌊x⌋₊] sample[⌊x⌋₊ + 1]
        have c : 0 ≤ x - ⌊x⌋₊ := by linarith
        have d : 0 ≤ 1 - (x - ⌊x⌋₊) := by linarith
        nlinarith
  · have he := C38_at_samples sample lo hi hlh h2 hmax (sample.length - 1) (by omega)
    have hcast : ((sample.length - 1 : ℕ) : ℝ) = (sample.length : ℝ) - 1 := by
      rw [Nat.cast_sub (by omega)]; simp
    have hcast2 : ((sample.length - 2 : ℕ) : ℝ) = (sample.length : ℝ) - 2 := by
      rw [Nat.cast_sub (by omega)]; simp
    rw [hcast, ← hst, ← heq, ← htx] at he
    refine ⟨_, sample.length - 2, by omega, he, ?_, ?_, ?_, ?_⟩
    · rw [hcast2, htx, heq]; nlinarith
    · rw [hcast2, htx, heq]; nlinarith
    · simp only [show sample.length - 2 + 1 = sample.length - 1 by omega]; exact min_le_right _ _
    · simp only [show sample.length - 2 + 1 = sample.length - 1 by omega]; exact le_max_right _ _

/-- C38: a spectrum looked up at its `i`-th wavelength, `380 + i` nm, gives its `i`-th sample. -/
theorem C38_spectrum_at (s : Spectrum ℝ) (i : Fin 400) : s.fetch (380 + (i.val : ℝ)) = .ok (s i) := by
  have h := C38_at_samples (List.ofFn s) 380 779 (by norm_num) (by rw [List.length_ofFn]; norm_num)
    (by rw [List.length_ofFn]; norm_num) i.val (by rw [List.length_ofFn]; exact i.isLt)
  simp only [List.length_ofFn, List.getElem_ofFn] at h
  unfold fetch
  rw [lit_real, lit_real]
  push_cast
  rw [show (380 : ℝ) + (i.val : ℝ) = 380 + (i.val : ℝ) * ((779 - 380) / (((400 : ℕ) : ℝ) - 1)) by
    push_cast; ring]
  exact h

/-- C38: rebuilding a spectrum from its own 400 samples is the identity. -/
theorem C38_identity (s : Spectrum ℝ) : ofSamples (List.ofFn s) 400 380 779 = .ok s := by
  unfold ofSamples
  refine build_ok fun i => ?_
  have h := C38_spectrum_at s i
  unfold fetch at h
  rw [lit_real, lit_real] at h
  rw [lit_real, ofInt_real]
  push_cast at h ⊢
  exact h

example : ∃ (s : List ℝ) (k : ℕ), 2 ≤ s.length ∧ (s.length : ℤ) ≤ 2147483647 ∧ 1 ≤ k ∧ k + 1 < s.length :=
  ⟨[1, 2, 3], 1, by simp, by simp, by simp, by simp⟩

/-! ## C39 -/

/-- C39: the operators act sample by sample (in any arithmetic). -/
theorem C39_elementwise {α : Type} [Arith α] (a b : Spectrum α) (c : α) (i : Fin 400) :
    a.add b i = a i + b i ∧ a.mul b i = a i * b i ∧ a.scale c i = a i * c := ⟨rfl, rfl, rfl⟩

/-- C39: commutativity and distributivity. -/
theorem C39_algebra (a b : Spectrum ℝ) (c : ℝ) :
    a.add b = b.add a ∧ a.mul b = b.mul a ∧ (a.add b).scale c = (a.scale c).add (b.scale c) :=
  ⟨funext fun _ => add_comm _ _, funext fun _ => mul_comm _ _, funext fun _ => add_mul _ _ _⟩

/-- C39: `sum` and the dot products are sums over all 400 samples. -/
theorem C39_sums (a b c : Spectrum ℝ) :
    a.sum = ∑ i : Fin 400, a i ∧ a.dot b = ∑ i : Fin 400, a i * b i ∧
    dot3 a b c = ∑ i : Fin 400, a i * b i * c i ∧
    (a.add b).sum = a.sum + b.sum ∧ (a.scale (b 0)).sum = a.sum * b 0 ∧
    a.dot b = (a.mul b).sum ∧ dot3 a b c = ((a.mul b).mul c).sum := by
  refine ⟨sum_eq a, dot_eq a b, ?_, ?_, ?_, ?_, ?_⟩
  · rw [dot3_eq', dot_eq]; rfl
  · rw [sum_eq, sum_eq, sum_eq, ← Finset.sum_add_distrib]; rfl
  · rw [sum_eq, sum_eq, Finset.sum_mul]; rfl
  · rw [dot_eq, sum_eq]; rfl
  · rw [dot3_eq', dot_eq, sum_eq]; rfl

example : (E (2 : ℝ)).sum = 800 := by
  rw [(C39_sums (E 2) (E 2) (E 2)).1]; simp [E]; norm_num

/-! ## C40 -/

/-- C40: `fromSpectrum` is linear in the spectrum, for every observer. -/
theorem C40_linear (o : Observer ℝ) (a b : Spectrum ℝ) (c : ℝ) :
    o.fromSpectrum (a.add b) = (o.fromSpectrum a).add (o.fromSpectrum b) ∧
    o.fromSpectrum (a.scale c) = (o.fromSpectrum a).scale c := by
  have h1 : ∀ x : Spectrum ℝ, (a.add b).dot x = a.dot x + b.dot x := by
    intro x
    rw [dot_eq, dot_eq, dot_eq, ← Finset.sum_add_distrib]
    exact Finset.sum_congr rfl fun i _ => add_mul _ _ _
  have h2 : ∀ x : Spectrum ℝ, (a.scale c).dot x = a.dot x * c := by
    intro x
    rw [dot_eq, dot_eq, Finset.sum_mul]
    exact Finset.sum_congr rfl fun i _ => by simp only [scale]; ring
  constructor <;>
  · simp only [Observer.fromSpectrum, Observer.SpectrumIntegrate, Tristimulus.mul, Tristimulus.add,
      Tristimulus.scale, h1, h2]
    ext <;> simp only <;> ring

/-- C40: an observer built from curves with non-zero sums maps the flat spectrum `E(e)` to `(e,e,e)`. -/
theorem C40_equal_energy (X Y Z : Spectrum ℝ) (e : ℝ) (hX : ∑ i, X i ≠ 0) (hY : ∑ i, Y i ≠ 0)
    (hZ : ∑ i, Z i ≠ 0) : (Observer.mk3 X Y Z).fromSpectrum (E e) = ⟨e, e, e⟩ := by
  have h : ∀ x : Spectrum ℝ, (E e).dot x = e * ∑ i, x i := by
    intro x; rw [dot_eq, Finset.mul_sum]; rfl
  simp only [Observer.fromSpectrum, Observer.SpectrumIntegrate, Observer.mk3, Tristimulus.mul, h, sum_eq, lit_real]
  push_cast
  ext <;> simp only <;> field_simp

/-- Component-wise order of colours. -/
def TLe (a b : Tristimulus ℝ) : Prop := a.a ≤ b.a ∧ a.b ≤ b.b ∧ a.c ≤ b.c

/-- With non-negative curves, brighter spectra give no smaller tristimulus values. -/
theorem C40_monotone_general (X Y Z : Spectrum ℝ) (hX : ∀ i, 0 ≤ X i) (hY : ∀ i, 0 ≤ Y i) (hZ : ∀ i, 0 ≤ Z i)
    (a b : Spectrum ℝ) (h : ∀ i, a i ≤ b i) :
    TLe ((Observer.mk3 X Y Z).fromSpectrum a) ((Observer.mk3 X Y Z).fromSpectrum b) := by
  have h1 : ∀ x : Spectrum ℝ, (∀ i, 0 ≤ x i) → a.dot x * (1 / x.sum) ≤ b.dot x * (1 / x.sum) := by
    intro x hx
    have hs : 0 ≤ 1 / x.sum := by
      rw [sum_eq]; exact div_nonneg zero_le_one (Finset.sum_nonneg fun i _ => hx i)
    rw [dot_eq, dot_eq]
    exact mul_le_mul_of_nonneg_right (Finset.sum_le_sum fun i _ => mul_le_mul_of_nonneg_right (h i) (hx i)) hs
  simp only [TLe, Observer.fromSpectrum, Observer.SpectrumIntegrate, Observer.mk3, Tristimulus.mul, lit_real]
  push_cast
  exact ⟨h1 X hX, h1 Y hY, h1 Z hZ⟩

theorem ofTable_nonneg (t : Data.Table) (i : Fin 400) : (0 : ℝ) ≤ (ofTable t : Spectrum ℝ) i := by
  simp only [ofTable, lit_real]
  exact_mod_cast t.q_nonneg i

/-- C40: the three observers of the header are monotone. -/
theorem C40_monotone (a b : Spectrum ℝ) (h : ∀ i, a i ≤ b i) :
    TLe (CIE1931.fromSpectrum a) (CIE1931.fromSpectrum b) ∧
    TLe (CIE31JV.fromSpectrum a) (CIE31JV.fromSpectrum b) ∧
    TLe (CIE2012.fromSpectrum a) (CIE2012.fromSpectrum b) :=
  ⟨C40_monotone_general _ _ _ (ofTable_nonneg _) (ofTable_nonneg _) (ofTable_nonneg _) a b h,
   C40_monotone_general _ _ _ (ofTable_nonneg _) (ofTable_nonneg _) (ofTable_nonneg _) a b h,
   C40_monotone_general _ _ _ (ofTable_nonneg _) (ofTable_nonneg _) (ofTable_nonneg _) a b h⟩

theorem ofTable_sum_pos (t : Data.Table) (h : t.m.any (0 < ·) = true) : 0 < ∑ i, (ofTable t : Spectrum ℝ) i := by
  rw [List.any_eq_true] at h
  obtain ⟨x, hx, hpos⟩ := h
  obtain ⟨i, hi, rfl⟩ := List.getElem_of_mem hx
  refine Finset.sum_pos' (fun i _ => ofTable_nonneg t i) ⟨⟨i, by rw [← t.len]; exact hi⟩, Finset.mem_univ _, ?_⟩
  simp only [decide_eq_true_eq] at hpos
  simp only [ofTable, lit_real, Data.Table.q]
  have : (0 : ℚ) < (t.m[i] : ℚ) / 10 ^ t.scale := by positivity
  exact_mod_cast this

/-- C40: the three observers of the header map equal energy to equal values. -/
theorem C40_standard_observers (e : ℝ) :
    CIE1931.fromSpectrum (E e) = ⟨e, e, e⟩ ∧ CIE31JV.fromSpectrum (E e) = ⟨e, e, e⟩ ∧
    CIE2012.fromSpectrum (E e) = ⟨e, e, e⟩ := by
  refine ⟨C40_equal_energy _ _ _ e ?_ ?_ ?_, C40_equal_energy _ _ _ e ?_ ?_ ?_, C40_equal_energy _ _ _ e ?_ ?_ ?_⟩ <;>
  · refine (ofTable_sum_pos _ ?_).ne'
    decide +kernel

/-! ## C41 -/

/-- C41: in any arithmetic - in particular for `float`s, with rounding, NaN and infinities -
`fromReflectanceAndLight(r, l)` performs exactly the operations of `fromSpectrum(r * l)`, so the results
are identical. -/
theorem C41_reflectance_bitwise {α : Type} [Arith α] (o : Observer α) (r l : Spectrum α) :
    o.fromReflectanceAndLight r l = o.fromSpectrum (r.mul l) := by
  simp only [Observer.fromReflectanceAndLight, Observer.fromSpectrum, Observer.SpectrumIntegrate3,
    Observer.SpectrumIntegrate, dot3_eq']

/-! ## C42 -/

section
open Data.Macbeth
/-- The 24 reflectances in chart order: row by row, each row left to right (specification). -/
def chartOrder : List Data.Table :=
    [Macbeth01, Macbeth02, Macbeth03, Macbeth04, Macbeth05, Macbeth06, Macbeth11, Macbeth12,
     Macbeth13, Macbeth14, Macbeth15, Macbeth16, Macbeth21, Macbeth22, Macbeth23, Macbeth24,
     Macbeth25, Macbeth26, Macbeth31, Macbeth32, Macbeth33, Macbeth34, Macbeth35, Macbeth36]
end

/-- C42: `reference` has 24 entries, in chart order, each the colour of the patch under the light (any
arithmetic). -/
theorem C42_entries {α : Type} [Arith α] (light : Spectrum α) (o : Observer α) :
    (Macbeth.reference light o).length = 24 ∧
    Macbeth.reference light o = chartOrder.map fun t => o.fromSpectrum ((ofTable t).mul light) := by
  have h : Macbeth.reference light o = chartOrder.map fun t => o.fromSpectrum ((ofTable t).mul light) := by
    rw [Macbeth.reference, Macbeth.Patch, show Data.Macbeth.Patch = chartOrder from rfl, List.map_map]
    exact List.map_congr_left fun t _ => C41_reflectance_bitwise _ _ _
  refine ⟨?_, h⟩
  rw [h, List.length_map]
  rfl

/-- Every colour checker reflectance is at most one. -/
theorem macbeth_leOne : Data.Macbeth.Patch.all Data.Table.leOne = true := by decide +kernel

/-- C42: for a non-negative light and an observer with non-negative curves of positive sum, every
component of every entry is non-negative and at most that of the light itself. -/
theorem C42_plausible (X Y Z : Spectrum ℝ) (hX : ∀ i, 0 ≤ X i) (hY : ∀ i, 0 ≤ Y i) (hZ : ∀ i, 0 ≤ Z i)
    (light : Spectrum ℝ) (hl : ∀ i, 0 ≤ light i) (t : Tristimulus ℝ)
    (ht : t ∈ Macbeth.reference light (Observer.mk3 X Y Z)) :
    TLe ⟨0, 0, 0⟩ t ∧ TLe t ((Observer.mk3 X Y Z).fromSpectrum light) := by
  simp only [Macbeth.reference, Macbeth.Patch, List.mem_map, exists_exists_and_eq_and] at ht
  obtain ⟨tab, htab, rfl⟩ := ht
  have h1 : tab.leOne = true := List.all_eq_true.1 macbeth_leOne tab htab
  rw [C41_reflectance_bitwise]
  constructor
  · have := C40_monotone_general X Y Z hX hY hZ (E 0) ((ofTable tab).mul light)
      (fun i => mul_nonneg (ofTable_nonneg tab i) (hl i))
    have h0 : (Observer.mk3 X Y Z).fromSpectrum (E 0) = ⟨0, 0, 0⟩ := by
      have h : ∀ x : Spectrum ℝ, (E (0 : ℝ)).dot x = 0 := by intro x; rw [dot_eq]; simp [E]
      simp [Observer.fromSpectrum, Observer.SpectrumIntegrate, Tristimulus.mul, h]
    rwa [h0] at this
  · refine C40_monotone_general X Y Z hX hY hZ _ _ fun i => ?_
    have : (ofTable tab : Spectrum ℝ) i ≤ 1 := by
      simp only [ofTable, lit_real]; exact_mod_cast Data.Table.q_le_one h1 i
    simp only [Spectrum.mul]
    nlinarith [hl i]

/-- C42 for the three observers of the header. -/
theorem C42_standard_observers (light : Spectrum ℝ) (hl : ∀ i, 0 ≤ light i) (t : Tristimulus ℝ) :
    (t ∈ Macbeth.reference light CIE1931 → TLe ⟨0, 0, 0⟩ t ∧ TLe t (CIE1931.fromSpectrum light)) ∧
    (t ∈ Macbeth.reference light CIE31JV → TLe ⟨0, 0, 0⟩ t ∧ TLe t (CIE31JV.fromSpectrum light)) ∧
    (t ∈ Macbeth.reference light CIE2012 → TLe ⟨0, 0, 0⟩ t ∧ TLe t (CIE2012.fromSpectrum light)) :=
  ⟨C42_plausible _ _ _ (ofTable_nonneg _) (ofTable_nonneg _) (ofTable_nonneg _) light hl t,
   C42_plausible _ _ _ (ofTable_nonneg _) (ofTable_nonneg _) (ofTable_nonneg _) light hl t,
   C42_plausible _ _ _ (ofTable_nonneg _) (ofTable_nonneg _) (ofTable_nonneg _) light hl t⟩

example : ∀ i, (0 : ℝ) ≤ (CIE_D65 : Spectrum ℝ) i := ofTable_nonneg _

/-! ## C43 -/

/-- C43: the luminous flux is proportional to the power. -/
theorem C43_proportional (o : Observer ℝ) (lambda w c : ℝ) :
    o.lumensFromMonochromaticFlux lambda (w * c) = (o.lumensFromMonochromaticFlux lambda w).map (· * c) ∧
    o.candellasFromMonochromaticRadiance lambda (w * c) =
      (o.candellasFromMonochromaticRadiance lambda w).map (·.scale c) := by
  constructor
  · unfold Observer.lumensFromMonochromaticFlux
    cases o.Y.fetch lambda with
    | error e => rfl
    | ok y =>
      show Except.ok _ = Except.ok _
      congr 1; ring
  · unfold Observer.candellasFromMonochromaticRadiance
    cases o.fetch3 lambda with
    | error e => rfl
    | ok y =>
      show Except.ok _ = Except.ok _
      congr 1
      simp only [Tristimulus.scale]
      ext <;> simp only <;> ring

/-- C43: the `Y` component of the luminance is the luminous flux for the same arguments. -/
theorem C43_same_Y (o : Observer ℝ) (lambda w : ℝ) (t : Tristimulus ℝ)
    (h : o.candellasFromMonochromaticRadiance lambda w = .ok t) :
    o.lumensFromMonochromaticFlux lambda w = .ok t.b := by
  unfold Observer.candellasFromMonochromaticRadiance Observer.fetch3 at h
  unfold Observer.lumensFromMonochromaticFlux
  cases hx : o.X.fetch lambda with
  | error e => rw [hx] at h; cases h
  | ok x =>
  cases hy : o.Y.fetch lambda with
  | error e => rw [hx, hy] at h; cases h
  | ok y =>
  cases hz : o.Z.fetch lambda with
  | error e => rw [hx, hy, hz] at h; cases h
  | ok z =>
    rw [hx, hy, hz] at h
    cases h
    show Except.ok _ = Except.ok _
    congr 1
    simp only [Tristimulus.scale]
    ring

/-- C43: the flux lies between 0 and `683 * M` lumens per watt, `M` bounding the luminosity curve. -/
theorem C43_bounded (o : Observer ℝ) (lambda w v M : ℝ) (hw : 0 ≤ w) (hY : ∀ i, 0 ≤ o.Y i) (hM : ∀ i, o.Y i ≤ M)
    (h : o.lumensFromMonochromaticFlux lambda w = .ok v) : 0 ≤ v ∧ v ≤ 683 * M * w := by
  unfold Observer.lumensFromMonochromaticFlux at h
  cases hy : o.Y.fetch lambda with
  | error e => rw [hy] at h; cases h
  | ok y =>
    rw [hy] at h
    obtain rfl : y * w * lit 683 = v := Except.ok.inj h
    have hf : fetchFrom (List.ofFn o.Y) ((399 : ℕ) + 1) (lit 380) (lit 779) lambda = .ok y := hy
    have hne : (lit 380 : ℝ) ≠ lit 779 := by simp only [lit_real]; norm_num
    have h1 := fetch_le (by rw [List.length_ofFn]) (by norm_num) (by decide) hne hf (M := M) (by
      intro x hx; rw [List.mem_ofFn] at hx; obtain ⟨i, rfl⟩ := hx; exact hM i)
    have h2 := le_fetch (by rw [List.length_ofFn]) (by norm_num) (by decide) hne hf (M := 0) (by
      intro x hx; rw [List.mem_ofFn] at hx; obtain ⟨i, rfl⟩ := hx; exact hY i)
    simp only [lit_real]
    push_cast
    exact ⟨by positivity, by nlinarith [mul_le_mul_of_nonneg_right h1 hw]⟩

/-- C43 for the CIE 1931 observer: at most 683 lm/W at any wavelength. -/
theorem C43_CIE1931 (lambda w v : ℝ) (hw : 0 ≤ w)
    (h : CIE1931.lumensFromMonochromaticFlux lambda w = .ok v) : 0 ≤ v ∧ v ≤ 683 * w := by
  have := C43_bounded CIE1931 lambda w v 1 hw (ofTable_nonneg _) (fun i => ?_) h
  · simpa using this
  · have hq := Data.Table.q_le_one (t := Data.CIE.CIE1931_Y) (by decide +kernel) i
    show ((Data.CIE.CIE1931_Y.q i : ℚ) : ℝ) ≤ 1
    exact_mod_cast hq

/-- The peak is attained: one watt at 555 nm is 683 lumens. -/
theorem C43_peak : CIE1931.lumensFromMonochromaticFlux 555 (1 : ℝ) = .ok 683 := by
  unfold Observer.lumensFromMonochromaticFlux
  have h := C38_spectrum_at (CIE1931 : Observer ℝ).Y ⟨175, by norm_num⟩
  rw [show (380 : ℝ) + ((175 : ℕ) : ℝ) = 555 by norm_num] at h
  rw [h]
  show Except.ok _ = _
  have : (CIE1931 : Observer ℝ).Y ⟨175, by norm_num⟩ = 1 := by
    show ((Data.CIE.CIE1931_Y.q ⟨175, by norm_num⟩ : ℚ) : ℝ) = 1
    rw [show Data.CIE.CIE1931_Y.q ⟨175, by norm_num⟩ = 1 by decide +kernel]
    simp
  rw [this, lit_real]
  norm_num

/-! ## C44 -/

/-- C44: the spectral radiance is positive. -/
theorem C44_positive (T l : ℝ) (hT : 0 < T) (hl : 0 < l) : 0 < planck T l := by
  simp only [planck, lit_real, powf_real, expf_real]
  push_cast
  have h1 : 0 < l ^ (-5 : ℝ) := Real.rpow_pos_of_pos hl _
  have h2 : 0 < Real.exp (1.438776827e-2 / (l * T)) - 1 := by
    have : 0 < (1.438776827e-2 : ℝ) / (l * T) := by positivity
    have := Real.add_one_lt_exp this.ne'
    linarith
  positivity

/-- C44: it strictly increases with the temperature. -/
theorem C44_strictMono (T T' l : ℝ) (hT : 0 < T) (hTT : T < T') (hl : 0 < l) : planck T l < planck T' l := by
  simp only [planck, lit_real, powf_real, expf_real]
  push_cast
  have h1 : 0 < l ^ (-5 : ℝ) := Real.rpow_pos_of_pos hl _
  have hpos : ∀ T : ℝ, 0 < T → 0 < Real.exp (1.438776827e-2 / (l * T)) - 1 := by
    intro T hT
    have : 0 < (1.438776827e-2 : ℝ) / (l * T) := by positivity
    have := Real.add_one_lt_exp this.ne'
    linarith
  have h3 : Real.exp ((1.438776827e-2 : ℝ) / (l * T')) < Real.exp (1.438776827e-2 / (l * T)) := by
    apply Real.exp_lt_exp.2
    apply div_lt_div_of_pos_left (by norm_num) (by positivity)
    exact mul_lt_mul_of_pos_left hTT hl
  refine div_lt_div_of_pos_right ?_ (by norm_num)
  exact div_lt_div_of_pos_left (by positivity) (hpos T' (hT.trans hTT)) (by linarith)

/-- C44: the spectrum of a hotter black body dominates sample by sample. -/
theorem C44_blackbody (T T' : ℝ) (hT : 0 < T) (hTT : T < T') (i : Fin 400) :
    0 < blackbody T i ∧ blackbody T i < blackbody T' i := by
  have hl : (0 : ℝ) < (lit 380 + Arith.ofInt (i.val : ℤ)) * lit 1e-9 := by
    simp only [lit_real, ofInt_real]; push_cast; positivity
  exact ⟨C44_positive T _ hT hl, C44_strictMono T T' _ hT hTT hl⟩

/-- Planck's law with the constants of the header: `2hc²/(λ⁵(exp(hc/(kλT)) - 1))`, per nanometre. -/
theorem C44_planck_law (T l : ℝ) (hl : 0 < l) :
    planck T l = 2 * 5.950379064e-17 / (l ^ 5 * (Real.exp (1.438776827e-2 / (l * T)) - 1)) / 1e9 := by
  simp only [planck, lit_real, powf_real, expf_real]
  push_cast
  rw [show l ^ (-5 : ℝ) = (l ^ 5)⁻¹ by rw [Real.rpow_neg hl.le]; norm_cast]
  congr 1
  rw [div_mul_eq_div_div (2 * (5.950379064e-17 : ℝ)), div_eq_mul_inv (2 * (5.950379064e-17 : ℝ)) (l ^ 5)]

example : (0 : ℝ) < 2856 ∧ (2856 : ℝ) < 6504 ∧ (0 : ℝ) < 555e-9 := by norm_num

end CS
