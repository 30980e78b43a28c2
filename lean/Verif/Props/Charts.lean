import Verif.Props.Spectrum

/-!
# C74, C75, C76: the charts and the daylight table of the header

The tables are compared entry by entry by the kernel; the theorems are about every light.
-/

namespace CS
open Spectrum

namespace Data.Table

/-- Whether every entry of `s` is at most that of `t`; evaluated by the kernel. -/
def le (s t : Table) : Bool := (List.zipWith (fun a b => decide (a * 10 ^ t.scale ≤ b * 10 ^ s.scale)) s.m t.m).all id

theorem q_le {s t : Table} (h : s.le t = true) (i : Fin 400) : s.q i ≤ t.q i := by
  unfold le at h
  rw [List.all_eq_true] at h
  have hs : i.val < s.m.length := by rw [s.len]; exact i.2
  have ht : i.val < t.m.length := by rw [t.len]; exact i.2
  have hl : i.val < (List.zipWith (fun a b => decide (a * 10 ^ t.scale ≤ b * 10 ^ s.scale)) s.m t.m).length := by
    rw [List.length_zipWith, s.len, t.len]; simp
  have := h _ (List.getElem_mem hl)
  rw [List.getElem_zipWith] at this
  simp only [id, decide_eq_true_eq] at this
  unfold q
  rw [div_le_div_iff₀ (by positivity) (by positivity)]
  exact_mod_cast this

/-- The sum of the mantissas. -/
def sumNat (t : Table) : ℕ := t.m.sum
/-- The sum of the products of the mantissas. -/
def dotNat (s t : Table) : ℕ := (List.zipWith (· * ·) s.m t.m).sum

end Data.Table

theorem ofTable_sum (t : Data.Table) : (ofTable t : Spectrum ℝ).sum = (t.sumNat : ℝ) / 10 ^ t.scale := by
  have e : t.m = List.ofFn fun i : Fin 400 => t.m[i.val]'(by rw [t.len]; exact i.2) := by
    refine List.ext_getElem (by rw [List.length_ofFn, t.len]) fun i h1 h2 => by rw [List.getElem_ofFn]
  rw [sum_eq, Data.Table.sumNat, e, List.sum_ofFn]
  push_cast
  rw [Finset.sum_div]
  refine Finset.sum_congr rfl fun i _ => ?_
  simp only [ofTable, lit_real, Data.Table.q]
  push_cast
  rfl

theorem ofTable_dot (s t : Data.Table) :
    (ofTable s : Spectrum ℝ).dot (ofTable t) = (s.dotNat t : ℝ) / (10 ^ s.scale * 10 ^ t.scale) := by
  have e : List.zipWith (· * ·) s.m t.m = List.ofFn fun i : Fin 400 =>
      s.m[i.val]'(by rw [s.len]; exact i.2) * t.m[i.val]'(by rw [t.len]; exact i.2) := by
    refine List.ext_getElem (by rw [List.length_ofFn, List.length_zipWith, s.len, t.len]; rfl) fun i h1 h2 => ?_
    rw [List.getElem_ofFn, List.getElem_zipWith]
  rw [dot_eq, Data.Table.dotNat, e, List.sum_ofFn]
  push_cast
  rw [Finset.sum_div]
  refine Finset.sum_congr rfl fun i _ => ?_
  simp only [ofTable, lit_real, Data.Table.q]
  push_cast
  rw [div_mul_div_comm]

theorem ofTable_le {s t : Data.Table} (h : s.le t = true) (i : Fin 400) :
    (ofTable s : Spectrum ℝ) i ≤ (ofTable t : Spectrum ℝ) i := by
  simp only [ofTable, lit_real]
  exact_mod_cast Data.Table.q_le h i

theorem ofTable_le_one {t : Data.Table} (h : t.leOne = true) (i : Fin 400) : (ofTable t : Spectrum ℝ) i ≤ 1 := by
  simp only [ofTable, lit_real]
  exact_mod_cast Data.Table.q_le_one h i

/-! ## C74 -/

theorem macbeth_order :
    (Data.Macbeth.Patch.all fun t => t.le Data.Macbeth.Macbeth31 && Data.Macbeth.Macbeth36.le t) = true ∧
    Data.Macbeth.Macbeth32.le Data.Macbeth.Macbeth31 = true ∧
    Data.Macbeth.Macbeth33.le Data.Macbeth.Macbeth32 = true ∧
    Data.Macbeth.Macbeth34.le Data.Macbeth.Macbeth33 = true ∧
    Data.Macbeth.Macbeth35.le Data.Macbeth.Macbeth34 = true ∧
    Data.Macbeth.Macbeth36.le Data.Macbeth.Macbeth35 = true := by
  decide +kernel

theorem patch_mono (X Y Z : Spectrum ℝ) (hX : ∀ i, 0 ≤ X i) (hY : ∀ i, 0 ≤ Y i) (hZ : ∀ i, 0 ≤ Z i)
    (light : Spectrum ℝ) (hl : ∀ i, 0 ≤ light i) {s t : Data.Table} (h : s.le t = true) :
    TLe ((Observer.mk3 X Y Z).fromReflectanceAndLight (ofTable s) light)
      ((Observer.mk3 X Y Z).fromReflectanceAndLight (ofTable t) light) := by
  rw [C41_reflectance_bitwise, C41_reflectance_bitwise]
  exact C40_monotone_general X Y Z hX hY hZ _ _
    fun i => mul_le_mul_of_nonneg_right (ofTable_le h i) (hl i)

/-- C74: under every non-negative light and for every observer with non-negative curves, the bottom row of
the chart (entries 18 to 23) gets darker from left to right, its first patch is the lightest of the chart
and its last the darkest, in all three components. -/
theorem C74_greyscale (X Y Z : Spectrum ℝ) (hX : ∀ i, 0 ≤ X i) (hY : ∀ i, 0 ≤ Y i) (hZ : ∀ i, 0 ≤ Z i)
    (light : Spectrum ℝ) (hl : ∀ i, 0 ≤ light i) :
    ∃ g : Fin 6 → Tristimulus ℝ,
      (∀ k : Fin 6, (Macbeth.reference light (Observer.mk3 X Y Z))[18 + k.val]? = some (g k)) ∧
      (∀ j k, j ≤ k → TLe (g k) (g j)) ∧
      ∀ t ∈ Macbeth.reference light (Observer.mk3 X Y Z), TLe t (g 0) ∧ TLe (g 5) t := by
  obtain ⟨hall, h1, h2, h3, h4, h5⟩ := macbeth_order
  have m := fun {s t : Data.Table} => @patch_mono X Y Z hX hY hZ light hl s t
  let T : Fin 6 → Data.Table := ![Data.Macbeth.Macbeth31, Data.Macbeth.Macbeth32, Data.Macbeth.Macbeth33,
    Data.Macbeth.Macbeth34, Data.Macbeth.Macbeth35, Data.Macbeth.Macbeth36]
  let g : Fin 6 → Tristimulus ℝ := fun k => (Observer.mk3 X Y Z).fromReflectanceAndLight (ofTable (T k)) light
  have trans : ∀ {a b c : Tristimulus ℝ}, TLe a b → TLe b c → TLe a c := fun h k =>
    ⟨h.1.trans k.1, h.2.1.trans k.2.1, h.2.2.trans k.2.2⟩
  have step : ∀ k : Fin 5, TLe (g k.succ) (g k.castSucc) := by
    intro k; fin_cases k
    · exact m h1
    · exact m h2
    · exact m h3
    · exact m h4
    · exact m h5
  refine ⟨g, ?_, ?_, ?_⟩
  · intro k; fin_cases k <;> rfl
  · intro j k hjk
    induction k using Fin.induction with
    | zero =>
      obtain rfl : j = 0 := Fin.le_zero_iff.mp hjk
      exact ⟨le_rfl, le_rfl, le_rfl⟩
    | succ i ih =>
      rcases hjk.eq_or_lt with rfl | hlt
      · exact ⟨le_rfl, le_rfl, le_rfl⟩
      · exact trans (step i) (ih (by
          rw [Fin.lt_def] at hlt; rw [Fin.le_def]; simp only [Fin.val_succ, Fin.val_castSucc] at hlt ⊢; omega))
  · intro t ht
    simp only [Macbeth.reference, Macbeth.Patch, List.mem_map, exists_exists_and_eq_and] at ht
    obtain ⟨tab, htab, rfl⟩ := ht
    have := List.all_eq_true.1 hall tab htab
    rw [Bool.and_eq_true] at this
    exact ⟨m this.1, m this.2⟩

/-- The observer of the header and its daylight table meet the hypotheses. -/
example : (∀ i, (0 : ℝ) ≤ (ofTable Data.CIE.CIE1931_X : Spectrum ℝ) i) ∧ ∀ i, (0 : ℝ) ≤ (CIE_D65 : Spectrum ℝ) i :=
  ⟨ofTable_nonneg _, ofTable_nonneg _⟩

/-! ## C75 -/

theorem tm30_leOne : Data.TM30.sample.all Data.Table.leOne = true := by decide +kernel

/-- C75: there are 99 colour evaluation samples, each a reflectance between 0 and 1 at every wavelength. -/
theorem C75_reflectance : (TM_30_15.sample : List (Spectrum ℝ)).length = 99 ∧
    ∀ s ∈ (TM_30_15.sample : List (Spectrum ℝ)), ∀ i, 0 ≤ s i ∧ s i ≤ 1 := by
  refine ⟨by rw [TM_30_15.sample, List.length_map]; rfl, ?_⟩
  intro s hs i
  simp only [TM_30_15.sample, List.mem_map] at hs
  obtain ⟨t, ht, rfl⟩ := hs
  exact ⟨ofTable_nonneg t i, ofTable_le_one (List.all_eq_true.1 tm30_leOne t ht) i⟩

/-- C75: so under every non-negative light no sample is lighter than the light itself. -/
theorem C75_colour (X Y Z : Spectrum ℝ) (hX : ∀ i, 0 ≤ X i) (hY : ∀ i, 0 ≤ Y i) (hZ : ∀ i, 0 ≤ Z i)
    (light : Spectrum ℝ) (hl : ∀ i, 0 ≤ light i) (s : Spectrum ℝ)
    (hs : s ∈ (TM_30_15.sample : List (Spectrum ℝ))) :
    TLe ⟨0, 0, 0⟩ ((Observer.mk3 X Y Z).fromReflectanceAndLight s light) ∧
    TLe ((Observer.mk3 X Y Z).fromReflectanceAndLight s light) ((Observer.mk3 X Y Z).fromSpectrum light) := by
  have hr := C75_reflectance.2 s hs
  rw [C41_reflectance_bitwise]
  constructor
  · have := C40_monotone_general X Y Z hX hY hZ (E 0) (s.mul light)
      (fun i => mul_nonneg (hr i).1 (hl i))
    have h0 : (Observer.mk3 X Y Z).fromSpectrum (E 0) = ⟨0, 0, 0⟩ := by
      have h : ∀ x : Spectrum ℝ, (E (0 : ℝ)).dot x = 0 := by intro x; rw [dot_eq]; simp [E]
      simp [Observer.fromSpectrum, Observer.SpectrumIntegrate, Tristimulus.mul, h]
    rwa [h0] at this
  · refine C40_monotone_general X Y Z hX hY hZ _ _ fun i => ?_
    simp only [Spectrum.mul]
    nlinarith [hl i, (hr i).1, (hr i).2]

/-! ## C76 -/

/-- C76: the daylight table seen by the 1931 observer has the chromaticity of D65, (0.3127, 0.3290), to
within 0.0001, whatever factor it is scaled by. -/
theorem C76_D65 (k : ℝ) (hk : k ≠ 0) :
    let c := CIE1931.fromSpectrum (scale (CIE_D65 : Spectrum ℝ) k)
    |c.a / (c.a + c.b + c.c) - 0.3127| ≤ 1e-4 ∧ |c.b / (c.a + c.b + c.c) - 0.3290| ≤ 1e-4 := by
  intro c
  have e : c = (CIE1931.fromSpectrum (CIE_D65 : Spectrum ℝ)).scale k := (C40_linear CIE1931 CIE_D65 CIE_D65 k).2
  have hs : ∀ t : Data.Table, t.scale = 11 → ∀ n m : ℕ, t.sumNat = n → Data.CIE.CIE_D65.dotNat t = m →
      (CIE_D65 : Spectrum ℝ).dot (ofTable t) * (lit 1 / (ofTable t : Spectrum ℝ).sum) =
        (m : ℝ) / (10 ^ 5 * 10 ^ 11) * (1 / ((n : ℝ) / 10 ^ 11)) := by
    intro t ht n m hn hm
    rw [CIE_D65, ofTable_dot, ofTable_sum, hn, hm, ht, lit_real, Rat.cast_one]
    rfl
  have ea : c.a = _ * k := (congrArg Tristimulus.a e).trans (congrArg (· * k)
    (hs Data.CIE.CIE1931_X rfl 10685504379336 100431630922105216484 (by decide +kernel) (by decide +kernel)))
  have eb : c.b = _ * k := (congrArg Tristimulus.b e).trans (congrArg (· * k)
    (hs Data.CIE.CIE1931_Y rfl 10685641128788 105670493531203648360 (by decide +kernel) (by decide +kernel)))
  have ec : c.c = _ * k := (congrArg Tristimulus.c e).trans (congrArg (· * k)
    (hs Data.CIE.CIE1931_Z rfl 10684608243163 115033976070947065630 (by decide +kernel) (by decide +kernel)))
  push_cast at ea eb ec
  rw [ea, eb, ec, ← add_mul, ← add_mul, mul_div_mul_right _ _ hk, mul_div_mul_right _ _ hk, abs_le, abs_le]
  refine ⟨⟨?_, ?_⟩, ?_, ?_⟩ <;> norm_num

end CS
