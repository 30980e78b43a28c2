import Verif.Props.Svd
import Verif.Props.Spectrum
import Verif.Lemmas.LinAlg

/-!
# C114: what `Corrector` makes of patches that a matrix explains exactly

If the targets are the images of the patches under one matrix, `Corrector::solve` must return that matrix.
`Corrector::makeGamut` hands the matrix to the constructor `Gamut(name, fromXYZ)`; but the matrix takes the patches to the
XYZ colours of the chart, so the gamut has its two directions exchanged.
-/

namespace CS
open Arith Libm Matrix Spec

namespace Corrector

/-- A matrix that explains the targets leaves no error. -/
theorem totalError_zero {patch target : List (Tristimulus ℝ)} (h : patch.length ≤ target.length) {K : Matrix (Fin 3) (Fin 3) ℝ}
    (hK : ∀ k : Fin patch.length, triV (target[k.val]'(k.2.trans_le h)) = K *ᵥ triV patch[k]) :
    totalError patch target h K = 0 := by
  unfold totalError
  refine Finset.sum_eq_zero fun i _ => Finset.sum_eq_zero fun k _ => ?_
  rw [hK i, sub_self]; ring

/-- A matrix that leaves no error explains the targets. -/
theorem explains {patch target : List (Tristimulus ℝ)} (h : patch.length ≤ target.length) {M : Matrix (Fin 3) (Fin 3) ℝ}
    (hM : totalError patch target h M = 0) (k : Fin patch.length) :
    M *ᵥ triV patch[k] = triV (target[k.val]'(k.2.trans_le h)) := by
  have h1 := (Finset.sum_eq_zero_iff_of_nonneg (fun i _ => Finset.sum_nonneg fun j _ => sq_nonneg _)).1 hM k (Finset.mem_univ _)
  have h2 := (Finset.sum_eq_zero_iff_of_nonneg (fun j _ => sq_nonneg _)).1 h1
  funext j
  have := h2 j (Finset.mem_univ _)
  exact sub_eq_zero.1 (pow_eq_zero_iff (two_ne_zero)|>.1 this)

/-- Two matrices that agree on uncorrelated patches are equal. -/
theorem agree_unique {patch : List (Tristimulus ℝ)} {M K : Matrix (Fin 3) (Fin 3) ℝ}
    (hcor : ∀ a b : Fin 3, a ≠ b → ∑ k : Fin patch.length, triV patch[k] a * triV patch[k] b = 0)
    (hpos : ∀ a : Fin 3, 0 < ∑ k : Fin patch.length, triV patch[k] a ^ 2)
    (h : ∀ k : Fin patch.length, M *ᵥ triV patch[k] = K *ᵥ triV patch[k]) : M = K := by
  ext r a
  have h1 : ∑ k : Fin patch.length, ((M - K) *ᵥ triV patch[k]) r * triV patch[k] a = 0 := by
    refine Finset.sum_eq_zero fun k _ => ?_
    rw [Matrix.sub_mulVec, h k, sub_self]; simp
  have h2 : ∑ k : Fin patch.length, ((M - K) *ᵥ triV patch[k]) r * triV patch[k] a =
      ∑ b, (M - K) r b * ∑ k : Fin patch.length, triV patch[k] b * triV patch[k] a := by
    simp only [Matrix.mulVec, dotProduct, Finset.sum_mul, Finset.mul_sum]
    rw [Finset.sum_comm]
    simp only [mul_assoc]
  rw [h2, Finset.sum_eq_single a (fun b _ hb => by rw [hcor b a hb, mul_zero]) (by simp)] at h1
  have h3 : ∑ k : Fin patch.length, triV patch[k] a * triV patch[k] a = ∑ k : Fin patch.length, triV patch[k] a ^ 2 :=
    Finset.sum_congr rfl fun k _ => (sq _).symm
  rw [h3] at h1
  have := (mul_eq_zero.1 h1).resolve_right (hpos a).ne'
  exact sub_eq_zero.1 this

/-- C114: `solve` returns the matrix that explains the targets, for uncorrelated patches none of whose components is below
the threshold of the solver. -/
theorem C114_recovers (patch target : List (Tristimulus ℝ)) (h : patch.length ≤ target.length)
    (hs : ((patch.length + 1) * 3 : ℕ) ≤ intMax) (h2 : 2 ≤ patch.length)
    (hcor : ∀ a b : Fin 3, a ≠ b → ∑ k : Fin patch.length, triV patch[k] a * triV patch[k] b = 0)
    (hlarge : ∀ a : Fin 3, 0.0000000001 * (3 * ∑ b : Fin 3, ∑ k : Fin patch.length, triV patch[k] b ^ 2) ≤
      ∑ k : Fin patch.length, triV patch[k] a ^ 2)
    (hpos : ∀ a : Fin 3, 0 < ∑ k : Fin patch.length, triV patch[k] a ^ 2) (K : Matrix (Fin 3) (Fin 3) ℝ)
    (hK : ∀ k : Fin patch.length, triV (target[k.val]'(k.2.trans_le h)) = K *ᵥ triV patch[k]) :
    ∃ M, solve patch target = .ok M ∧ toM M = K := by
  obtain ⟨M, h3, h4⟩ := C62_uncorrelated_patches patch target h hs h2 hcor hlarge hpos
  refine ⟨M, h3, agree_unique hcor hpos fun k => ?_⟩
  have h5 := h4 K
  rw [totalError_zero h hK] at h5
  have h6 : 0 ≤ totalError patch target h (toM M) := Finset.sum_nonneg fun i _ => Finset.sum_nonneg fun j _ => sq_nonneg _
  rw [explains h (le_antisymm h5 h6), hK]

theorem reference_length (light : Spectrum ℝ) (obs : Observer ℝ) : (Macbeth.reference light obs).length = 24 := by
  simp only [Macbeth.reference, Macbeth.Patch, List.length_map]; rfl

theorem triV_fromXYZ (g : Gamut ℝ) (t : Tristimulus ℝ) : triV (g.fromXYZ t) = toM g.fromXYZ_ *ᵥ triV t := by
  rw [Gamut.fromXYZ, triV_ofVec3, toV_apply]; rfl

theorem triV_toXYZ (g : Gamut ℝ) (t : Tristimulus ℝ) : triV (g.toXYZ t) = toM g.toXYZ_ *ᵥ triV t := by
  rw [Gamut.toXYZ, triV_ofVec3, toV_apply]; rfl

/-- C114: the gamut made from patches that a matrix `K` takes to the colours of the chart has `K` as its matrix *from* XYZ:
its `fromXYZ` takes the patches to the XYZ colours of the chart. -/
theorem C114_gamut (name : String) (patch : List (Tristimulus ℝ)) (light : Spectrum ℝ) (obs : Observer ℝ)
    (h : patch.length ≤ 24) (h2 : 2 ≤ patch.length)
    (hcor : ∀ a b : Fin 3, a ≠ b → ∑ k : Fin patch.length, triV patch[k] a * triV patch[k] b = 0)
    (hlarge : ∀ a : Fin 3, 0.0000000001 * (3 * ∑ b : Fin 3, ∑ k : Fin patch.length, triV patch[k] b ^ 2) ≤
      ∑ k : Fin patch.length, triV patch[k] a ^ 2)
    (hpos : ∀ a : Fin 3, 0 < ∑ k : Fin patch.length, triV patch[k] a ^ 2) (K : Matrix (Fin 3) (Fin 3) ℝ)
    (hK : ∀ k : Fin patch.length, triV ((Macbeth.reference light obs)[k.val]'(by rw [reference_length]; exact k.2.trans_le h)) =
      K *ᵥ triV patch[k]) :
    ∃ g, makeGamut name patch light obs = .ok g ∧ g.toXYZ_ = g.fromXYZ_.invert ∧ toM g.fromXYZ_ = K ∧
      ∀ k : Fin patch.length, g.fromXYZ patch[k] =
        (Macbeth.reference light obs)[k.val]'(by rw [reference_length]; exact k.2.trans_le h) := by
  obtain ⟨M, h3, h4⟩ := C114_recovers patch (Macbeth.reference light obs) (by rw [reference_length]; exact h)
    (by unfold intMax; omega) h2 hcor hlarge hpos K hK
  refine ⟨.ofFromXYZ name M, ?_, rfl, h4, fun k => triV_injective ?_⟩
  · unfold makeGamut solveMacbeth
    rw [h3]; rfl
  · rw [triV_fromXYZ, hK k, ← h4]; rfl

/-! ## The directions are exchanged -/

/-- The entry for 440 nm is positive. -/
def _root_.CS.Data.Table.pos440 (t : Data.Table) : Bool := (t.m[60]?).any (0 < ·)

theorem pos440 {t : Data.Table} (h : t.pos440 = true) : 0 < (Spectrum.ofTable t : Spectrum ℝ) 60 := by
  have e : t.m[60]? = some (t.m[60]'(by rw [t.len]; norm_num)) := List.getElem?_eq_getElem _
  rw [Data.Table.pos440, e] at h
  simp only [Option.any_some, decide_eq_true_eq] at h
  simp only [Spectrum.ofTable, lit_real, Data.Table.q]
  have : (0 : ℚ) < (t.m[(60 : Fin 400).val]'(by rw [t.len]; exact (60 : Fin 400).2) : ℚ) / 10 ^ t.scale :=
    div_pos (by exact_mod_cast h) (by positivity)
  exact_mod_cast this

theorem macbeth_pos440 : Data.Macbeth.Patch.all Data.Table.pos440 = true := by decide +kernel

theorem curves_pos440 : [Data.CIE.CIE1931_X, Data.CIE.CIE1931_Y, Data.CIE.CIE1931_Z, Data.CIE.CIE_D65].all
    Data.Table.pos440 = true := by decide +kernel

/-- A curve that is positive where the light is has a positive integral. -/
theorem integral_pos (a x : Spectrum ℝ) (ha : ∀ i, 0 ≤ a i) (hx : ∀ i, 0 ≤ x i) (ha' : 0 < a 60) (hx' : 0 < x 60) :
    0 < a.dot x * (1 / x.sum) := by
  rw [Spectrum.dot_eq, Spectrum.sum_eq]
  exact mul_pos (Finset.sum_pos' (fun i _ => mul_nonneg (ha i) (hx i)) ⟨60, Finset.mem_univ _, mul_pos ha' hx'⟩)
    (div_pos one_pos (Finset.sum_pos' (fun i _ => hx i) ⟨60, Finset.mem_univ _, hx'⟩))

/-- The colours of the chart in daylight have positive components. -/
theorem reference_pos (t : Tristimulus ℝ) (ht : t ∈ Macbeth.reference (CIE_D65 : Spectrum ℝ) CIE1931) :
    0 < t.a ∧ 0 < t.b ∧ 0 < t.c := by
  simp only [Macbeth.reference, Macbeth.Patch, List.mem_map, exists_exists_and_eq_and] at ht
  obtain ⟨tab, htab, rfl⟩ := ht
  have h1 := pos440 (List.all_eq_true.1 macbeth_pos440 tab htab)
  have h2 := fun c hc => pos440 (List.all_eq_true.1 curves_pos440 c hc)
  have nn := fun i => mul_nonneg (ofTable_nonneg tab i) (ofTable_nonneg Data.CIE.CIE_D65 i)
  have np := mul_pos h1 (h2 Data.CIE.CIE_D65 (by simp))
  rw [C41_reflectance_bitwise]
  simp only [CIE1931, Observer.fromSpectrum, Observer.SpectrumIntegrate, Observer.mk3, Tristimulus.mul, lit_real, Rat.cast_one]
  exact ⟨integral_pos _ _ nn (ofTable_nonneg _) np (h2 _ (by simp)), integral_pos _ _ nn (ofTable_nonneg _) np (h2 _ (by simp)),
    integral_pos _ _ nn (ofTable_nonneg _) np (h2 _ (by simp))⟩

/-- C114: so `makeGamut` does not do what its name says.  With the default light and observer, for a camera that sees the first
three patches in its red, green and blue channel alone, the gamut's `fromXYZ` takes the camera's values to the XYZ colours of
the patches, and its `toXYZ` does not. -/
theorem C114_reversed (name : String) (c : ℝ) (hc : 0 < c) :
    let patch : List (Tristimulus ℝ) := [⟨c, 0, 0⟩, ⟨0, c, 0⟩, ⟨0, 0, c⟩]
    ∃ g, makeGamut name patch = .ok g ∧
      (∀ k : Fin 3, some (g.fromXYZ patch[k]) = (Macbeth.reference CIE_D65 CIE1931)[k.val]?) ∧
      ¬ ∀ k : Fin 3, some (g.toXYZ patch[k]) = (Macbeth.reference CIE_D65 CIE1931)[k.val]? := by
  intro patch
  let R : Fin 3 → Tristimulus ℝ := fun k =>
    (Macbeth.reference CIE_D65 CIE1931)[k.val]'(by rw [reference_length]; have := k.2; omega)
  have hR : ∀ k, (Macbeth.reference CIE_D65 CIE1931)[k.val]? = some (R k) := fun k => List.getElem?_eq_getElem _
  have pos : ∀ k, 0 < (R k).a ∧ 0 < (R k).b ∧ 0 < (R k).c := fun k => reference_pos _ (List.getElem_mem _)
  let K : Matrix (Fin 3) (Fin 3) ℝ := of fun r k => triV (R k) r / c
  have hKp : ∀ r k, 0 < K r k := by
    intro r k
    obtain ⟨p1, p2, p3⟩ := pos k
    fin_cases r <;> simp [K, triV] <;> positivity
  have pv : ∀ k : Fin 3, triV patch[k] = fun j => if j = k then c else 0 := by
    intro k; funext j
    fin_cases k <;> fin_cases j <;> simp [patch, triV]
  have img : ∀ (L : Matrix (Fin 3) (Fin 3) ℝ) (k : Fin 3), L *ᵥ triV patch[k] = fun r => L r k * c := by
    intro L k; rw [pv k]; funext r
    simp [mulVec, dotProduct]
  have sums : ∀ a b : Fin 3, ∑ k : Fin patch.length, triV patch[k] a * triV patch[k] b = if a = b then c ^ 2 else 0 := by
    intro a b
    fin_cases a <;> fin_cases b <;> simp [patch, Fin.sum_univ_succ, triV] <;> ring
  have sq1 : ∀ a : Fin 3, ∑ k : Fin patch.length, triV patch[k] a ^ 2 = c ^ 2 := by
    intro a
    have := sums a a
    rw [if_pos rfl] at this
    rw [← this]
    exact Finset.sum_congr rfl fun k _ => sq _
  have c2 : 0 < c ^ 2 := by positivity
  obtain ⟨g, g1, g2, g3, g4⟩ := C114_gamut name patch CIE_D65 CIE1931 (by norm_num [patch]) (by norm_num [patch])
    (fun a b hab => by rw [sums, if_neg hab])
    (fun a => by simp only [sq1, Finset.sum_const, Finset.card_univ, Fintype.card_fin]; norm_num; linarith)
    (fun a => by rw [sq1]; exact c2) K (fun k => by
      have := img K k
      rw [show triV patch[k] = triV patch[(k : Fin 3)] from rfl, this]
      funext r
      show triV (R k) r = triV (R k) r / c * c
      field_simp)
  refine ⟨g, g1, fun k => by rw [hR]; exact congrArg some (g4 k), fun hall => ?_⟩
  have same : toM g.toXYZ_ = K := by
    ext r k
    have h1 := hall k
    rw [hR, Option.some.injEq] at h1
    have h2 := congrFun (congrArg triV h1) r
    rw [triV_toXYZ, img] at h2
    show _ = triV (R k) r / c
    rw [← h2]; field_simp
  rw [g2] at same
  by_cases hd : (toM g.fromXYZ_).det = 0
  · have h0 : toM g.fromXYZ_.invert 0 0 = 0 := by
      have : g.fromXYZ_.det = 0 := by rw [← toM_det]; exact hd
      simp [toM, Matrix3.invert, Matrix3.smul, this]
    have := hKp 0 0
    rw [← same, h0] at this
    exact lt_irrefl _ this
  · have h1 : toM g.fromXYZ_ * toM g.fromXYZ_.invert = 1 := by
      rw [← toM_mul, Matrix3.mul_invert _ (by rw [← toM_det]; exact hd), toM_ident]
    rw [same, g3] at h1
    have h2 : (K * K) 0 1 = 0 := by rw [h1]; simp
    rw [Matrix.mul_apply, Fin.sum_univ_three] at h2
    have := mul_pos (hKp 0 0) (hKp 0 1)
    have := mul_pos (hKp 0 1) (hKp 1 1)
    have := mul_pos (hKp 0 2) (hKp 2 1)
    linarith

/-- The hypotheses of `C114_recovers` are met by a scaling. -/
example : ∃ M, solve [⟨1, 0, 0⟩, ⟨0, 1, 0⟩, ⟨0, 0, 1⟩] [⟨2, 0, 0⟩, ⟨0, 3, 0⟩, ⟨0, 0, 4⟩] = .ok M ∧
    toM M = diagonal ![2, 3, (4 : ℝ)] := by
  refine C114_recovers _ _ (by decide) (by unfold intMax; decide) (by decide) ?_ ?_ ?_ _ ?_
  · intro a b hab
    fin_cases a <;> fin_cases b <;> simp_all [Fin.sum_univ_succ, triV]
  · intro a
    fin_cases a <;> simp [Fin.sum_univ_succ, triV] <;> norm_num
  · intro a
    fin_cases a <;> simp [Fin.sum_univ_succ, triV]
  · intro k; funext j
    fin_cases k <;> fin_cases j <;> simp [triV, mulVec_diagonal]

end Corrector
end CS
