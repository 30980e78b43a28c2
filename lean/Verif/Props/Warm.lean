import Verif.Props.Charts
import Verif.Props.CCT
import Mathlib.Analysis.Convex.SpecificFunctions.Basic
import Mathlib.Analysis.Calculus.Deriv.MeanValue
import Mathlib.Analysis.Calculus.Deriv.Pow
import Mathlib.Analysis.SpecialFunctions.ExpDeriv
import Mathlib.Data.List.GetD

/-!
# C123, C124: warm filters and hot bodies

A filter that transmits more the longer the wavelength moves every light, except very saturated ones, towards red; a hotter
black body is bluer.  Both come from the shape of the colour matching functions, which the kernel checks entry by entry.
-/

namespace CS
open Spectrum

namespace Warm

/-! ## Sums with one change of sign -/

theorem sum_nonneg_of_crossing {n : ℕ} {f b w : Fin n → ℝ} (k : Fin n) (hb : ∀ i, 0 ≤ b i) (hw : Monotone w) (w0 : ∀ i, 0 ≤ w i)
    (neg : ∀ i, i < k → f i ≤ 0) (pos : ∀ i, k ≤ i → 0 ≤ f i) (h : 0 ≤ ∑ i, f i * b i) : 0 ≤ ∑ i, f i * (b i * w i) := by
  have e : ∑ i, f i * (b i * w i) = w k * ∑ i, f i * b i + ∑ i, f i * b i * (w i - w k) := by
    rw [Finset.mul_sum, ← Finset.sum_add_distrib]
    exact Finset.sum_congr rfl fun i _ => by ring
  rw [e]
  refine add_nonneg (mul_nonneg (w0 k) h) (Finset.sum_nonneg fun i _ => ?_)
  rcases lt_or_ge i k with q | q
  · exact mul_nonneg_of_nonpos_of_nonpos (mul_nonpos_of_nonpos_of_nonneg (neg i q) (hb i)) (sub_nonpos.2 (hw q.le))
  · exact mul_nonneg (mul_nonneg (pos i q) (hb i)) (sub_nonneg.2 (hw q))

theorem sum_pos_of_crossing {n : ℕ} {f b w : Fin n → ℝ} (k : Fin n) (hb : ∀ i, 0 < b i) (hw : StrictMono w)
    (neg : ∀ i, i < k → f i ≤ 0) (pos : ∀ i, k ≤ i → 0 ≤ f i) (h : ∑ i, f i * b i = 0) (hf : ∃ j, f j ≠ 0) :
    0 < ∑ i, f i * (b i * w i) := by
  have e : ∑ i, f i * (b i * w i) = w k * ∑ i, f i * b i + ∑ i, f i * b i * (w i - w k) := by
    rw [Finset.mul_sum, ← Finset.sum_add_distrib]
    exact Finset.sum_congr rfl fun i _ => by ring
  rw [e, h, mul_zero, zero_add]
  have nn : ∀ i, 0 ≤ f i * b i * (w i - w k) := by
    intro i
    rcases lt_or_ge i k with q | q
    · exact mul_nonneg_of_nonpos_of_nonpos (mul_nonpos_of_nonpos_of_nonneg (neg i q) (hb i).le) (sub_nonpos.2 (hw.monotone q.le))
    · exact mul_nonneg (mul_nonneg (pos i q) (hb i).le) (sub_nonneg.2 (hw.monotone q))
  obtain ⟨j, hj⟩ : ∃ j, j ≠ k ∧ f j ≠ 0 := by
    by_contra hc
    push Not at hc
    have z : ∑ i, f i * b i = f k * b k := by
      refine Finset.sum_eq_single k (fun i _ hi => by rw [hc i hi, zero_mul]) (by simp)
    rw [h] at z
    have fk : f k = 0 := by
      rcases mul_eq_zero.1 z.symm with q | q
      · exact q
      · exact absurd q (hb k).ne'
    obtain ⟨j, hj⟩ := hf
    rcases eq_or_ne j k with rfl | q
    · exact hj fk
    · exact hj (hc j q)
  refine Finset.sum_pos' (fun i _ => nn i) ⟨j, Finset.mem_univ _, lt_of_le_of_ne (nn j) (Ne.symm ?_)⟩
  exact mul_ne_zero (mul_ne_zero hj.2 (hb j).ne') (sub_ne_zero.2 fun q => hj.1 (hw.injective q))

/-! ## The shape of two tables -/

/-- The ratio `P / Q` is at most `l₁ / l₂` below `u`, does not fall from `u` to `v`, and is at least `h₁ / h₂` from `v`;
and it is below `l₁ / l₂` at `j`. Evaluated by the kernel. -/
def rises (P Q : ℕ → ℕ) (u v j l₁ l₂ h₁ h₂ : ℕ) : Bool :=
  ((List.range u).all fun i => decide (P i * l₂ ≤ l₁ * Q i)) &&
  ((List.range (v - u)).all fun i => decide (0 < Q (u + i)) && decide (P (u + i) * Q (u + i + 1) ≤ P (u + i + 1) * Q (u + i))) &&
  ((List.range (400 - v)).all fun i => decide (h₁ * Q (v + i) ≤ P (v + i) * h₂)) &&
  decide (P j * l₂ < l₁ * Q j) && decide (u ≤ v) && decide (v < 400) && decide (j < 400) && decide (0 < l₂) && decide (0 < h₂)

theorem pattern {P Q : ℕ → ℕ} {u v j l₁ l₂ h₁ h₂ : ℕ} (h : rises P Q u v j l₁ l₂ h₁ h₂ = true) {c : ℝ} (hlo : (l₁ : ℝ) ≤ c * l₂)
    (hhi : c * h₂ ≤ h₁) : ∃ k : Fin 400, (∀ i : Fin 400, i < k → (P i : ℝ) - c * Q i ≤ 0) ∧ ∀ i : Fin 400, k ≤ i → 0 ≤ (P i : ℝ) - c * Q i := by
  simp only [rises, Bool.and_eq_true, List.all_eq_true, List.mem_range, decide_eq_true_eq] at h
  obtain ⟨⟨⟨⟨⟨⟨⟨⟨a1, a2⟩, a3⟩, -⟩, uv⟩, v4⟩, -⟩, l0⟩, h0⟩ := h
  have l0' : (0 : ℝ) < l₂ := by exact_mod_cast l0
  have h0' : (0 : ℝ) < h₂ := by exact_mod_cast h0
  have low : ∀ i, i < u → (P i : ℝ) - c * Q i ≤ 0 := by
    intro i hi
    have e : (P i : ℝ) * l₂ ≤ l₁ * Q i := by exact_mod_cast a1 i hi
    have q : (0 : ℝ) ≤ Q i := by positivity
    have := mul_le_mul_of_nonneg_right hlo q
    have : ((P i : ℝ) - c * Q i) * l₂ ≤ 0 := by linarith
    exact nonpos_of_mul_nonpos_left this l0'
  have high : ∀ i, v ≤ i → i < 400 → 0 ≤ (P i : ℝ) - c * Q i := by
    intro i hi h4
    have e' := a3 (i - v) (by omega)
    rw [show v + (i - v) = i by omega] at e'
    have e : (h₁ : ℝ) * Q i ≤ P i * h₂ := by exact_mod_cast e'
    have q : (0 : ℝ) ≤ Q i := by positivity
    have := mul_le_mul_of_nonneg_right hhi q
    have : 0 ≤ ((P i : ℝ) - c * Q i) * h₂ := by linarith
    exact nonneg_of_mul_nonneg_left this h0'
  have step : ∀ i, u ≤ i → i < v → 0 ≤ (P i : ℝ) - c * Q i → 0 ≤ (P (i + 1) : ℝ) - c * Q (i + 1) := by
    intro i hi hv hp
    obtain ⟨q0, e'⟩ := a2 (i - u) (by omega)
    rw [show u + (i - u) = i by omega] at q0 e'
    have q0' : (0 : ℝ) < Q i := by exact_mod_cast q0
    have e : (P i : ℝ) * Q (i + 1) ≤ P (i + 1) * Q i := by exact_mod_cast e'
    have q1 : (0 : ℝ) ≤ Q (i + 1) := by positivity
    have := mul_nonneg hp q1
    have : 0 ≤ ((P (i + 1) : ℝ) - c * Q (i + 1)) * Q i := by linarith
    exact nonneg_of_mul_nonneg_left this q0'
  have ex : ∃ i, u ≤ i ∧ (v ≤ i ∨ 0 ≤ (P i : ℝ) - c * Q i) := ⟨v, uv, .inl le_rfl⟩
  classical
  obtain ⟨k1, k2⟩ := Nat.find_spec ex
  have k3 : Nat.find ex ≤ v := Nat.find_min' ex ⟨uv, .inl le_rfl⟩
  have k4 : ∀ i, i < Nat.find ex → ¬ (u ≤ i ∧ (v ≤ i ∨ 0 ≤ (P i : ℝ) - c * Q i)) := fun i hi => Nat.find_min ex hi
  generalize Nat.find ex = k at *
  refine ⟨⟨k, by omega⟩, fun i hi => ?_, fun i hi => ?_⟩
  · rw [Fin.lt_def] at hi
    rcases lt_or_ge i.val u with q | q
    · exact low _ q
    · have := k4 i.val hi
      push Not at this
      exact (this q).2.le
  · rw [Fin.le_def] at hi
    simp only at hi
    have up : ∀ d, k + d ≤ v → k + d < v ∨ d = 0 ∨ True → 0 ≤ (P (k + d) : ℝ) - c * Q (k + d) ∨ v ≤ k + d := by
      intro d
      induction d with
      | zero => intro _ _; rcases k2 with q | q
                · exact .inr (by omega)
                · exact .inl q
      | succ d ih =>
        intro hd _
        rcases ih (by omega) (.inr (.inr trivial)) with q | q
        · exact .inl (step (k + d) (by omega) (by omega) q)
        · exact .inr (by omega)
    rcases lt_or_ge i.val v with q | q
    · have := up (i.val - k) (by omega) (.inr (.inr trivial))
      rw [show k + (i.val - k) = i.val by omega] at this
      rcases this with r | r
      · exact r
      · omega
    · exact high _ q i.2

/-- Where the ratio is below `l₁ / l₂`. -/
theorem below {P Q : ℕ → ℕ} {u v j l₁ l₂ h₁ h₂ : ℕ} (h : rises P Q u v j l₁ l₂ h₁ h₂ = true) {c : ℝ} (hlo : (l₁ : ℝ) ≤ c * l₂) :
    ∃ j : Fin 400, (P j : ℝ) - c * Q j ≠ 0 ∧ 0 < Q j := by
  simp only [rises, Bool.and_eq_true, List.all_eq_true, List.mem_range, decide_eq_true_eq] at h
  obtain ⟨⟨⟨⟨⟨⟨⟨⟨-, -⟩, -⟩, a4⟩, -⟩, -⟩, j4⟩, l0⟩, -⟩ := h
  have l0' : (0 : ℝ) < l₂ := by exact_mod_cast l0
  have e : (P j : ℝ) * l₂ < l₁ * Q j := by exact_mod_cast a4
  have q : (0 : ℝ) ≤ Q j := by positivity
  have := mul_le_mul_of_nonneg_right hlo q
  refine ⟨⟨j, j4⟩, fun z => ?_, ?_⟩
  · have z' : (P j : ℝ) = c * Q j := by simp only at z; linarith
    rw [z'] at e
    linarith
  · rcases Nat.eq_zero_or_pos (Q j) with z | z
    · rw [z] at a4; simp at a4
    · exact z

/-- The weighted sum of a table. -/
noncomputable def wt (P : ℕ → ℕ) (b : Fin 400 → ℝ) : ℝ := ∑ i, b i * P i

theorem wt_sub (P Q : ℕ → ℕ) (b : Fin 400 → ℝ) (c : ℝ) : ∑ i : Fin 400, ((P i : ℝ) - c * Q i) * b i = wt P b - c * wt Q b := by
  unfold wt
  rw [Finset.mul_sum, ← Finset.sum_sub_distrib]
  exact Finset.sum_congr rfl fun i _ => by ring

theorem wt_pos {P Q : ℕ → ℕ} {u v j l₁ l₂ h₁ h₂ : ℕ} (h : rises P Q u v j l₁ l₂ h₁ h₂ = true) {b : Fin 400 → ℝ} (hb : ∀ i, 0 < b i) :
    0 < wt Q b := by
  have l0 : (0 : ℝ) < l₂ := by
    have h' := h
    simp only [rises, Bool.and_eq_true, decide_eq_true_eq] at h'
    exact_mod_cast h'.1.2
  obtain ⟨j, -, hj⟩ := below h (c := l₁ / l₂) (le_of_eq (by field_simp))
  exact Finset.sum_pos' (fun i _ => mul_nonneg (hb i).le (by positivity)) ⟨j, Finset.mem_univ _, mul_pos (hb j) (by exact_mod_cast hj)⟩

/-- A filter that favours the later entries raises the ratio. -/
theorem filter_raises {P Q : ℕ → ℕ} {u v j l₁ l₂ h₁ h₂ : ℕ} (h : rises P Q u v j l₁ l₂ h₁ h₂ = true) {b w : Fin 400 → ℝ}
    (hb : ∀ i, 0 < b i) (hw : StrictMono w) (w0 : 0 < w 0) (hlo : (l₁ : ℝ) ≤ wt P b / wt Q b * l₂) (hhi : wt P b / wt Q b * h₂ ≤ h₁) :
    wt P b / wt Q b < wt P (fun i => b i * w i) / wt Q (fun i => b i * w i) := by
  obtain ⟨k, neg, pos⟩ := pattern h hlo hhi
  obtain ⟨j, hj, -⟩ := below h hlo
  have Q0 := wt_pos h hb
  have wp : ∀ i, 0 < w i := fun i => w0.trans_le (hw.monotone (Fin.zero_le i))
  have Q1 := wt_pos h (b := fun i => b i * w i) fun i => mul_pos (hb i) (wp i)
  have z : ∑ i : Fin 400, ((P i : ℝ) - wt P b / wt Q b * Q i) * b i = 0 := by
    rw [wt_sub, div_mul_cancel₀ _ Q0.ne', sub_self]
  have := sum_pos_of_crossing k hb hw neg pos z ⟨j, hj⟩
  rw [wt_sub P Q (fun i => b i * w i)] at this
  rw [lt_div_iff₀ Q1]
  linarith

/-- A bound of the ratio is kept. -/
theorem keep {P Q : ℕ → ℕ} {u v j l₁ l₂ h₁ h₂ : ℕ} (h : rises P Q u v j l₁ l₂ h₁ h₂ = true) {b w : Fin 400 → ℝ}
    (hb : ∀ i, 0 ≤ b i) (hw : Monotone w) (w0 : ∀ i, 0 ≤ w i) {c : ℝ} (hlo : (l₁ : ℝ) ≤ c * l₂) (hhi : c * h₂ ≤ h₁)
    (hc : c * wt Q b ≤ wt P b) : c * wt Q (fun i => b i * w i) ≤ wt P (fun i => b i * w i) := by
  obtain ⟨k, neg, pos⟩ := pattern h hlo hhi
  have := sum_nonneg_of_crossing k hb hw w0 neg pos (by rw [wt_sub]; linarith)
  rw [wt_sub P Q (fun i => b i * w i)] at this
  linarith

/-! ## The observers of the header -/

/-- Entry `i` of a table, times a factor. -/
def ent (t : Data.Table) (n : ℕ) (i : ℕ) : ℕ := t.m.getD i 0 * n

theorem comp_eq (t : Data.Table) (b : Spectrum ℝ) :
    b.dot (ofTable t) * (lit 1 / (ofTable t : Spectrum ℝ).sum) = wt (ent t 1) b / t.sumNat := by
  have e : b.dot (ofTable t) = wt (ent t 1) b / 10 ^ t.scale := by
    rw [dot_eq, wt, Finset.sum_div]
    refine Finset.sum_congr rfl fun i _ => ?_
    simp only [ofTable, lit_real, Data.Table.q, ent, mul_one]
    rw [List.getD_eq_getElem _ _ (by rw [t.len]; exact i.2)]
    push_cast
    ring
  rw [e, ofTable_sum, lit_real, Rat.cast_one, one_div_div, div_mul_div_comm, mul_comm ((10 : ℝ) ^ t.scale),
    mul_div_mul_right _ _ (by positivity)]

theorem wt_ent (t : Data.Table) (n : ℕ) (b : Fin 400 → ℝ) : wt (ent t n) b = n * wt (ent t 1) b := by
  unfold wt
  rw [Finset.mul_sum]
  refine Finset.sum_congr rfl fun i _ => ?_
  simp only [ent, mul_one]
  push_cast
  ring

/-- The tables of an observer with the sums of their entries. -/
structure Tables where
  X : Data.Table
  Y : Data.Table
  Z : Data.Table
  a : ℕ
  b : ℕ
  c : ℕ
  sums : X.sumNat = a ∧ Y.sumNat = b ∧ Z.sumNat = c
  pos : 0 < a ∧ 0 < b ∧ 0 < c

namespace Tables

/-- The observer. -/
def obs (t : Tables) {α : Type} [Arith α] : Observer α := .mk3 (.ofTable t.X) (.ofTable t.Y) (.ofTable t.Z)

/-- The entries for the share of X. -/
def P (t : Tables) : ℕ → ℕ := ent t.X (t.b * t.c)
/-- The entries for the sum. -/
def S (t : Tables) (i : ℕ) : ℕ := ent t.X (t.b * t.c) i + ent t.Y (t.a * t.c) i + ent t.Z (t.a * t.b) i

theorem x_eq (t : Tables) (l : Spectrum ℝ) : (Spec.xy (t.obs.fromSpectrum l)).1 = wt t.P l / wt t.S l := by
  have a0 : (0 : ℝ) < t.a := by exact_mod_cast t.pos.1
  have b0 : (0 : ℝ) < t.b := by exact_mod_cast t.pos.2.1
  have c0 : (0 : ℝ) < t.c := by exact_mod_cast t.pos.2.2
  have hx : (t.obs.fromSpectrum l).a = wt (ent t.X 1) l / t.a := by rw [← t.sums.1]; exact comp_eq t.X l
  have hy : (t.obs.fromSpectrum l).b = wt (ent t.Y 1) l / t.b := by rw [← t.sums.2.1]; exact comp_eq t.Y l
  have hz : (t.obs.fromSpectrum l).c = wt (ent t.Z 1) l / t.c := by rw [← t.sums.2.2]; exact comp_eq t.Z l
  have hP : wt t.P l = t.b * t.c * wt (ent t.X 1) l := by rw [P, wt_ent]; push_cast; ring
  have hS : wt t.S l = t.b * t.c * wt (ent t.X 1) l + t.a * t.c * wt (ent t.Y 1) l + t.a * t.b * wt (ent t.Z 1) l := by
    have : wt t.S l = wt (ent t.X (t.b * t.c)) l + wt (ent t.Y (t.a * t.c)) l + wt (ent t.Z (t.a * t.b)) l := by
      unfold wt S
      rw [← Finset.sum_add_distrib, ← Finset.sum_add_distrib]
      exact Finset.sum_congr rfl fun i _ => by push_cast; ring
    rw [this, wt_ent t.X, wt_ent t.Y, wt_ent t.Z]
    push_cast
    ring
  have e : (Spec.xy (t.obs.fromSpectrum l)).1 = (t.obs.fromSpectrum l).a /
      ((t.obs.fromSpectrum l).a + (t.obs.fromSpectrum l).b + (t.obs.fromSpectrum l).c) := rfl
  rw [e, hx, hy, hz, hP, hS]
  generalize wt (ent t.X 1) l = A
  generalize wt (ent t.Y 1) l = B
  generalize wt (ent t.Z 1) l = C
  rw [show (t.b : ℝ) * t.c * A + t.a * t.c * B + t.a * t.b * C = (t.a * t.b * t.c) * (A / t.a + B / t.b + C / t.c) by field_simp,
    show (t.b : ℝ) * t.c * A = (t.a * t.b * t.c) * (A / t.a) by field_simp, mul_div_mul_left _ _ (by positivity)]

theorem yz_eq (t : Tables) (l : Spectrum ℝ) : (t.obs.fromSpectrum l).b / (t.obs.fromSpectrum l).c = wt (ent t.Y t.c) l / wt (ent t.Z t.b) l := by
  have b0 : (0 : ℝ) < t.b := by exact_mod_cast t.pos.2.1
  have c0 : (0 : ℝ) < t.c := by exact_mod_cast t.pos.2.2
  have hy : (t.obs.fromSpectrum l).b = wt (ent t.Y 1) l / t.b := by rw [← t.sums.2.1]; exact comp_eq t.Y l
  have hz : (t.obs.fromSpectrum l).c = wt (ent t.Z 1) l / t.c := by rw [← t.sums.2.2]; exact comp_eq t.Z l
  rw [hy, hz, wt_ent t.Y t.c, wt_ent t.Z t.b, div_div_div_eq, mul_comm (wt (ent t.Y 1) l)]

end Tables

open Data.CIE

/-- `CIE1931`. -/
def cie1931 : Tables := ⟨CIE1931_X, CIE1931_Y, CIE1931_Z, 10685504379336, 10685641128788, 10684608243163, by decide +kernel, by decide⟩
/-- `CIE31JV`. -/
def judd : Tables := ⟨CIE1931_JuddVos_X, CIE1931_JuddVos_Y, CIE1931_JuddVos_Z, 1070150833824, 1074796446080, 10504532091946974, by decide +kernel, by decide⟩
/-- `CIE2012`. -/
def cie2012 : Tables := ⟨CIE2012_X, CIE2012_Y, CIE2012_Z, 1130417221236, 1130420801375, 1130423148920, by decide +kernel, by decide⟩

/-- The three. -/
def three : List Tables := [cie1931, judd, cie2012]

/-- `rises` for a list of pairs, faster to evaluate. -/
def risesL (L : List (ℕ × ℕ)) (u v j l₁ l₂ h₁ h₂ : ℕ) : Bool :=
  ((L.take u).all fun e => Nat.ble (Nat.mul e.1 l₂) (Nat.mul l₁ e.2)) &&
  ((((L.drop u).zip (L.drop (u + 1))).take (v - u)).all fun e =>
    Nat.blt 0 e.1.2 && Nat.ble (Nat.mul e.1.1 e.2.2) (Nat.mul e.2.1 e.1.2)) &&
  ((L.drop v).all fun e => Nat.ble (Nat.mul h₁ e.2) (Nat.mul e.1 h₂)) &&
  Nat.blt (Nat.mul (L.getD j (0, 0)).1 l₂) (Nat.mul l₁ (L.getD j (0, 0)).2) &&
  decide (u ≤ v) && decide (v < 400) && decide (j < 400) && decide (0 < l₂) && decide (0 < h₂)

theorem rises_of {P Q : ℕ → ℕ} {L : List (ℕ × ℕ)} (hL : L = (List.range 400).map fun i => (P i, Q i)) {u v j l₁ l₂ h₁ h₂ : ℕ}
    (h : risesL L u v j l₁ l₂ h₁ h₂ = true) : rises P Q u v j l₁ l₂ h₁ h₂ = true := by
  have len : L.length = 400 := by rw [hL]; simp
  have get : ∀ i (hi : i < L.length), L[i] = (P i, Q i) := by
    intro i hi
    simp only [hL, List.getElem_map, List.getElem_range]
  simp only [risesL, Bool.and_eq_true, List.all_eq_true, decide_eq_true_eq, Nat.ble_eq, Nat.blt_eq] at h
  obtain ⟨⟨⟨⟨⟨⟨⟨⟨a1, a2⟩, a3⟩, a4⟩, uv⟩, v4⟩, j4⟩, l0⟩, h0⟩ := h
  simp only [rises, Bool.and_eq_true, List.all_eq_true, List.mem_range, decide_eq_true_eq]
  refine ⟨⟨⟨⟨⟨⟨⟨⟨fun i hi => ?_, fun i hi => ?_⟩, fun i hi => ?_⟩, ?_⟩, uv⟩, v4⟩, j4⟩, l0⟩, h0⟩
  · have m : (P i, Q i) ∈ L.take u := by
      have e : (L.take u)[i]'(by rw [List.length_take]; omega) = (P i, Q i) := by rw [List.getElem_take, get]
      rw [← e]
      exact List.getElem_mem _
    exact a1 _ m
  · have m : ((P (u + i), Q (u + i)), (P (u + i + 1), Q (u + i + 1))) ∈ ((L.drop u).zip (L.drop (u + 1))).take (v - u) := by
      have e : (((L.drop u).zip (L.drop (u + 1))).take (v - u))[i]'(by simp; omega) =
          ((P (u + i), Q (u + i)), (P (u + i + 1), Q (u + i + 1))) := by
        rw [List.getElem_take, List.getElem_zip, List.getElem_drop, List.getElem_drop, get, get, show u + 1 + i = u + i + 1 by omega]
      rw [← e]
      exact List.getElem_mem _
    exact a2 _ m
  · have m : (P (v + i), Q (v + i)) ∈ L.drop v := by
      have e : (L.drop v)[i]'(by rw [List.length_drop]; omega) = (P (v + i), Q (v + i)) := by rw [List.getElem_drop, get]
      rw [← e]
      exact List.getElem_mem _
    exact a3 _ m
  · rw [List.getD_eq_getElem _ _ (by omega), get] at a4
    exact a4

/-- The pairs for the share of X. -/
def Tables.PS (t : Tables) : List (ℕ × ℕ) :=
  (t.X.m.zip (t.Y.m.zip t.Z.m)).map fun e => (e.1 * (t.b * t.c), e.1 * (t.b * t.c) + e.2.1 * (t.a * t.c) + e.2.2 * (t.a * t.b))
/-- The pairs for Y and Z. -/
def Tables.YZ (t : Tables) : List (ℕ × ℕ) := (t.Y.m.zip t.Z.m).map fun e => (e.1 * t.c, e.2 * t.b)

theorem Tables.PS_eq (t : Tables) : t.PS = (List.range 400).map fun i => (t.P i, t.S i) := by
  refine List.ext_getElem (by simp [Tables.PS, t.X.len, t.Y.len, t.Z.len]) fun i h1 h2 => ?_
  have hi : i < 400 := by simpa using h2
  simp only [Tables.PS, List.getElem_map, List.getElem_zip, List.getElem_range, Tables.P, Tables.S, ent]
  rw [List.getD_eq_getElem _ _ (by rw [t.X.len]; exact hi), List.getD_eq_getElem _ _ (by rw [t.Y.len]; exact hi),
    List.getD_eq_getElem _ _ (by rw [t.Z.len]; exact hi)]

theorem Tables.YZ_eq (t : Tables) : t.YZ = (List.range 400).map fun i => (ent t.Y t.c i, ent t.Z t.b i) := by
  refine List.ext_getElem (by simp [Tables.YZ, t.Y.len, t.Z.len]) fun i h1 h2 => ?_
  have hi : i < 400 := by simpa using h2
  simp only [Tables.YZ, List.getElem_map, List.getElem_zip, List.getElem_range, ent]
  rw [List.getD_eq_getElem _ _ (by rw [t.Y.len]; exact hi), List.getD_eq_getElem _ _ (by rw [t.Z.len]; exact hi)]

theorem x_shapeL : (three.all fun t => risesL t.PS 130 300 60 18 100 718 1000) = true := by decide +kernel
theorem yz_shapeL : (three.all fun t => risesL t.YZ 38 200 20 1 43 400 1) = true := by decide +kernel

/-- The share of X: at most 0.18 below 510 nm, rising to 680 nm, at least 0.718 from there. -/
theorem x_shape {t : Tables} (ht : t ∈ three) : rises t.P t.S 130 300 60 18 100 718 1000 = true :=
  rises_of t.PS_eq (List.all_eq_true.1 x_shapeL t ht)
/-- Y over Z: at most 1/43 below 418 nm, rising to 580 nm, at least 400 from there. -/
theorem yz_shape {t : Tables} (ht : t ∈ three) : rises (ent t.Y t.c) (ent t.Z t.b) 38 200 20 1 43 400 1 = true :=
  rises_of t.YZ_eq (List.all_eq_true.1 yz_shapeL t ht)

/-! ## Black bodies -/

/-- The wavelength of an entry, in nanometres. -/
def nm (i : Fin 400) : ℝ := 380 + (i.val : ℝ)

theorem nm_lo (i : Fin 400) : 380 ≤ nm i := by unfold nm; linarith [Nat.cast_nonneg (α := ℝ) i.val]
theorem nm_lt {i j : Fin 400} (h : i < j) : nm i < nm j := by
  unfold nm
  have : (i.val : ℝ) < j.val := by exact_mod_cast h
  linarith

/-- The second radiation constant of the header, in nanometres times kelvin. -/
noncomputable def c2 : ℝ := 14387768.27
/-- The constant factor. -/
noncomputable def c1 : ℝ := 2 * 5.950379064e-17 / 1e9 / (1e-9) ^ 5

theorem c1_pos : 0 < c1 := by unfold c1; positivity
theorem c2_pos : 0 < c2 := by unfold c2; positivity

theorem expm_pos {v : ℝ} (hv : 0 < v) : 0 < Real.exp v - 1 := by linarith [Real.add_one_lt_exp hv.ne']

theorem arg_pos {T : ℝ} (hT : 0 < T) (i : Fin 400) : 0 < c2 / (nm i * T) :=
  div_pos c2_pos (mul_pos (by linarith [nm_lo i]) hT)

theorem bb_eq (T : ℝ) (i : Fin 400) : blackbody T i = c1 / (nm i ^ 5 * (Real.exp (c2 / (nm i * T)) - 1)) := by
  have hn : 0 < nm i := by linarith [nm_lo i]
  have hl : (lit 380 + Arith.ofInt (i.val : ℤ) : ℝ) * lit 1e-9 = nm i * 1e-9 := by
    simp only [lit_real, ofInt_real, nm]; push_cast; ring
  show planck T _ = _
  rw [hl, C44_planck_law T _ (by positivity)]
  have e : (1.438776827e-2 : ℝ) / (nm i * 1e-9 * T) = c2 / (nm i * T) := by
    rw [show nm i * 1e-9 * T = 1e-9 * (nm i * T) by ring, div_mul_eq_div_div]
    congr 1
    unfold c2; norm_num
  rw [e, mul_pow, c1]
  generalize Real.exp (c2 / (nm i * T)) - 1 = E
  rw [show nm i ^ 5 * (1e-9 : ℝ) ^ 5 * E = (1e-9 : ℝ) ^ 5 * (nm i ^ 5 * E) by ring, div_mul_eq_div_div, div_right_comm,
    div_right_comm (2 * (5.950379064e-17 : ℝ)) ((1e-9 : ℝ) ^ 5) 1e9]

theorem bb_pos {T : ℝ} (hT : 0 < T) (i : Fin 400) : 0 < blackbody T i := by
  rw [bb_eq]
  have := nm_lo i
  exact div_pos c1_pos (mul_pos (by positivity) (expm_pos (arg_pos hT i)))

/-- The slopes of a power above one. -/
theorem slope_lt {E F r : ℝ} (hE : 1 < E) (hF : E < F) (hr : 1 < r) : (E ^ r - 1) / (E - 1) < (F ^ r - 1) / (F - 1) := by
  have := (strictConvexOn_rpow hr).secant_strict_mono (a := 1) (x := E) (y := F) (by simp) (by simp only [Set.mem_Ici]; linarith)
    (by simp only [Set.mem_Ici]; linarith) hE.ne' (hE.trans hF).ne' hF
  simpa using this

/-- Against a hotter body, a colder one is stronger the longer the wavelength. -/
theorem ratio_mono {T U : ℝ} (hT : 0 < T) (hTU : T < U) : StrictMono fun i => blackbody T i / blackbody U i := by
  intro i j hij
  have hU : 0 < U := hT.trans hTU
  have r1 : 1 < U / T := by rw [lt_div_iff₀ hT]; linarith
  have form : ∀ i : Fin 400, blackbody T i / blackbody U i =
      ((Real.exp (c2 / (nm i * U)) ^ (U / T) - 1) / (Real.exp (c2 / (nm i * U)) - 1))⁻¹ := by
    intro i
    have hn : 0 < nm i := by linarith [nm_lo i]
    have p1 := expm_pos (arg_pos hT i)
    have p2 := expm_pos (arg_pos hU i)
    have e : Real.exp (c2 / (nm i * U)) ^ (U / T) = Real.exp (c2 / (nm i * T)) := by
      rw [← Real.exp_mul]; congr 1; field_simp
    rw [e, bb_eq, bb_eq, inv_div]
    have := c1_pos
    field_simp
  simp only [form]
  have v : c2 / (nm j * U) < c2 / (nm i * U) :=
    div_lt_div_of_pos_left c2_pos (mul_pos (by linarith [nm_lo i]) hU) (mul_lt_mul_of_pos_right (nm_lt hij) hU)
  have E1 : 1 < Real.exp (c2 / (nm j * U)) := by linarith [expm_pos (arg_pos hU j)]
  have sl := slope_lt E1 (Real.exp_lt_exp.2 v) r1
  refine (inv_lt_inv₀ ?_ ?_).2 sl
  · have F1 : 1 < Real.exp (c2 / (nm i * U)) := by linarith [expm_pos (arg_pos hU i)]
    exact div_pos (by linarith [Real.one_lt_rpow F1 (by linarith : (0 : ℝ) < U / T)]) (by linarith)
  · exact div_pos (by linarith [Real.one_lt_rpow E1 (by linarith : (0 : ℝ) < U / T)]) (by linarith)

/-! ### Bounds for all temperatures -/

/-- A bluer light than any black body. -/
def blue (i : ℕ) : ℕ := 10 ^ 24 / (380 + i) ^ 6

theorem blue_shape : ((List.range 399).all fun i => decide (blue (i + 1) * (380 + (i + 1)) ^ 5 ≤ blue i * (380 + i) ^ 5)) = true := by
  decide +kernel
theorem blue_pos' : ((List.range 400).all fun i => decide (0 < blue i)) = true := by decide +kernel

theorem blue_pos (i : Fin 400) : (0 : ℝ) < blue i := by
  have := List.all_eq_true.1 blue_pos' i.val (List.mem_range.2 i.2)
  rw [decide_eq_true_eq] at this
  exact_mod_cast this

theorem blue_anti : Antitone fun i : Fin 400 => (blue i : ℝ) * nm i ^ 5 := by
  have key : ∀ d i : ℕ, i + d < 400 → blue (i + d) * (380 + (i + d)) ^ 5 ≤ blue i * (380 + i) ^ 5 := by
    intro d
    induction d with
    | zero => intro i _; exact le_rfl
    | succ d ih =>
      intro i hi
      have := List.all_eq_true.1 blue_shape (i + d) (List.mem_range.2 (by omega))
      rw [decide_eq_true_eq] at this
      exact this.trans (ih i (by omega))
  intro i j hij
  have := key (j.val - i.val) i.val (by omega)
  rw [Fin.le_def] at hij
  rw [show i.val + (j.val - i.val) = j.val by omega] at this
  have h : ((blue j : ℝ) * (380 + (j.val : ℝ)) ^ 5) ≤ blue i * (380 + (i.val : ℝ)) ^ 5 := by exact_mod_cast this
  exact h

theorem bb_blue {T : ℝ} (hT : 0 < T) : Monotone fun i : Fin 400 => blackbody T i / blue i := by
  intro i j hij
  have ni := nm_lo i
  have nj := nm_lo j
  have form : ∀ i : Fin 400, blackbody T i / blue i = c1 / ((blue i : ℝ) * nm i ^ 5 * (Real.exp (c2 / (nm i * T)) - 1)) := by
    intro i
    rw [bb_eq, div_div]; congr 1; ring
  simp only [form]
  have e : Real.exp (c2 / (nm j * T)) ≤ Real.exp (c2 / (nm i * T)) := by
    refine Real.exp_le_exp.2 (div_le_div_of_nonneg_left c2_pos.le (mul_pos (by linarith) hT) (mul_le_mul_of_nonneg_right ?_ hT.le))
    rcases hij.eq_or_lt with rfl | h
    · exact le_rfl
    · exact (nm_lt h).le
  have bj := blue_pos j
  have bi := blue_pos i
  refine div_le_div_of_nonneg_left c1_pos.le (mul_pos (by positivity) (expm_pos (arg_pos hT j))) ?_
  exact mul_le_mul (blue_anti hij) (by linarith) (expm_pos (arg_pos hT j)).le (by positivity)

/-- `(exp v - 1) / v ^ (n + 1)` falls up to `v = n`. -/
theorem quot_anti (n : ℕ) : AntitoneOn (fun v : ℝ => (Real.exp v - 1) / v ^ (n + 1)) (Set.Ioc 0 (n : ℝ)) := by
  have der : ∀ v : ℝ, 0 < v → HasDerivAt (fun v : ℝ => (Real.exp v - 1) / v ^ (n + 1))
      ((Real.exp v * v ^ (n + 1) - (Real.exp v - 1) * ((n + 1 : ℕ) * v ^ n)) / (v ^ (n + 1)) ^ 2) v := by
    intro v hv
    have h1 : HasDerivAt (fun v : ℝ => Real.exp v - 1) (Real.exp v) v := (Real.hasDerivAt_exp v).sub_const 1
    have h2 : HasDerivAt (fun v : ℝ => v ^ (n + 1)) ((n + 1 : ℕ) * v ^ n) v := by simpa using hasDerivAt_pow (n + 1) v
    exact h1.div h2 (by positivity)
  refine antitoneOn_of_deriv_nonpos (convex_Ioc 0 (n : ℝ)) (fun v hv => (der v hv.1).continuousAt.continuousWithinAt)
    (fun v hv => (der v (interior_subset hv).1).differentiableAt.differentiableWithinAt) (fun v hv => ?_)
  obtain ⟨v0, v1⟩ := interior_subset hv
  rw [(der v v0).deriv]
  refine div_nonpos_of_nonpos_of_nonneg ?_ (by positivity)
  have e := Real.add_one_le_exp v
  have : 0 ≤ (n + 1 : ℝ) * (Real.exp v - 1) - v * Real.exp v := by
    have : (n + 1 - v) * (v + 1) ≤ (n + 1 - v) * Real.exp v := mul_le_mul_of_nonneg_left e (by linarith)
    nlinarith [mul_nonneg v0.le (sub_nonneg.2 v1)]
  have := mul_nonneg this (pow_nonneg v0.le n)
  push_cast
  rw [pow_succ]
  linarith

/-- A redder light than the black bodies hot enough. -/
theorem red_bb {T : ℝ} {n : ℕ} (hT : 0 < T) (hn : c2 ≤ n * (380 * T)) :
    Monotone fun i : Fin 400 => nm i ^ n / (blackbody T i * nm i ^ 4) := by
  intro i j hij
  have form : ∀ i : Fin 400, nm i ^ n / (blackbody T i * nm i ^ 4) =
      ((c2 / T) ^ (n + 1) / c1) * ((Real.exp (c2 / (nm i * T)) - 1) / (c2 / (nm i * T)) ^ (n + 1)) := by
    intro i
    have := nm_lo i
    have n0 : 0 < nm i := by linarith
    have p := expm_pos (arg_pos hT i)
    have q := c1_pos
    have r := c2_pos
    rw [bb_eq]
    generalize Real.exp (c2 / (nm i * T)) - 1 = E at *
    rw [div_pow, div_pow, mul_pow]
    field_simp
    rw [pow_succ]
  simp only [form]
  have mem : ∀ i : Fin 400, c2 / (nm i * T) ∈ Set.Ioc 0 (n : ℝ) := by
    intro i
    refine ⟨arg_pos hT i, ?_⟩
    rw [div_le_iff₀ (mul_pos (by linarith [nm_lo i]) hT)]
    refine hn.trans (mul_le_mul_of_nonneg_left (mul_le_mul_of_nonneg_right (nm_lo i) hT.le) (by positivity))
  have v : c2 / (nm j * T) ≤ c2 / (nm i * T) := by
    refine div_le_div_of_nonneg_left c2_pos.le (mul_pos (by linarith [nm_lo i]) hT) (mul_le_mul_of_nonneg_right ?_ hT.le)
    rcases hij.eq_or_lt with rfl | h
    · exact le_rfl
    · exact (nm_lt h).le
  refine mul_le_mul_of_nonneg_left (quot_anti n (mem j) (mem i) v) ?_
  have := c1_pos
  have := c2_pos
  positivity

/-- The weighted sum of a table, for weights that are whole numbers. -/
def wn (P W : ℕ → ℕ) : ℕ := ((List.range 400).map fun i => W i * P i).sum

theorem wt_wn (P W : ℕ → ℕ) : wt P (fun i => (W i : ℝ)) = (wn P W : ℝ) := by
  have : (wn P W : ℕ) = ∑ i : Fin 400, W i * P i := by
    rw [← Finset.sum_range fun i => W i * P i]; rfl
  rw [this, wt]
  push_cast
  rfl

/-- The wavelength to a power. -/
def red (n i : ℕ) : ℕ := (380 + i) ^ n

/-- `wn` for a table, faster to evaluate. -/
noncomputable def fsum (W : ℕ → ℕ) (m : List ℕ) : ℕ :=
  List.rec (motive := fun _ => ℕ) 0 (fun r _ ih => Nat.add (Nat.mul (W r.1) r.2) ih) ((List.range' 0 400).zip m)

theorem fsum_eq (W : ℕ → ℕ) (t : Data.Table) : fsum W t.m = wn (ent t 1) W := by
  have g : ∀ L : List (ℕ × ℕ), List.rec (motive := fun _ => ℕ) 0 (fun r _ ih => Nat.add (Nat.mul (W r.1) r.2) ih) L =
      (L.map fun r => W r.1 * r.2).sum := by
    intro L
    induction L with
    | nil => rfl
    | cons r rs ih => rw [List.map_cons, List.sum_cons, ← ih]; rfl
  have e : (List.range' 0 400).zip t.m = (List.range 400).map fun i => (i, t.m.getD i 0) := by
    refine List.ext_getElem (by simp [t.len]) fun i h1 h2 => ?_
    have hi : i < 400 := by simpa using h2
    simp only [List.getElem_zip, List.getElem_range', List.getElem_map, List.getElem_range, one_mul, zero_add]
    rw [List.getD_eq_getElem _ _ (by rw [t.len]; exact hi)]
  rw [fsum, g, e, List.map_map, wn]
  refine congrArg List.sum (List.map_congr_left fun i _ => ?_)
  simp only [Function.comp, ent, mul_one]

theorem wn_ent (t : Data.Table) (n : ℕ) (W : ℕ → ℕ) : wn (ent t n) W = n * wn (ent t 1) W := by
  unfold wn
  rw [← List.sum_map_mul_left]
  refine congrArg List.sum (List.map_congr_left fun i _ => ?_)
  simp only [ent, mul_one]
  ring

theorem wn_S (t : Tables) (W : ℕ → ℕ) : wn t.S W = t.b * t.c * wn (ent t.X 1) W + t.a * t.c * wn (ent t.Y 1) W + t.a * t.b * wn (ent t.Z 1) W := by
  rw [← wn_ent t.X, ← wn_ent t.Y, ← wn_ent t.Z]
  unfold wn
  rw [← List.sum_map_add, ← List.sum_map_add]
  refine congrArg List.sum (List.map_congr_left fun i _ => ?_)
  simp only [Tables.S]
  ring

/-- `wn t.P`. -/
noncomputable def sP (t : Tables) (W : ℕ → ℕ) : ℕ := t.b * t.c * fsum W t.X.m
/-- `wn t.S`. -/
noncomputable def sS (t : Tables) (W : ℕ → ℕ) : ℕ := t.b * t.c * fsum W t.X.m + t.a * t.c * fsum W t.Y.m + t.a * t.b * fsum W t.Z.m

theorem x_blue' : (three.all fun t => decide (18 * sS t blue ≤ 100 * sP t blue)) = true := by decide +kernel
theorem x_red' : (three.all fun t => decide (1000 * sP t (red 34) < 718 * sS t (red 34))) = true := by decide +kernel
theorem yz_blue' : (three.all fun t => decide (t.b * fsum blue t.Z.m ≤ 43 * (t.c * fsum blue t.Y.m))) = true := by decide +kernel
theorem yz_red' : (three.all fun t => decide (t.c * fsum (red 22) t.Y.m < 400 * (t.b * fsum (red 22) t.Z.m))) = true := by decide +kernel

theorem x_blue {t : Tables} (ht : t ∈ three) : 18 * wn t.S blue ≤ 100 * wn t.P blue := by
  have := List.all_eq_true.1 x_blue' t ht
  simp only [decide_eq_true_eq, sS, sP, fsum_eq] at this
  rw [wn_S, Tables.P, wn_ent t.X (t.b * t.c)]; exact this
theorem x_red {t : Tables} (ht : t ∈ three) : 1000 * wn t.P (red 34) < 718 * wn t.S (red 34) := by
  have := List.all_eq_true.1 x_red' t ht
  simp only [decide_eq_true_eq, sS, sP, fsum_eq] at this
  rw [wn_S, Tables.P, wn_ent t.X (t.b * t.c)]; exact this
theorem yz_blue {t : Tables} (ht : t ∈ three) : 1 * wn (ent t.Z t.b) blue ≤ 43 * wn (ent t.Y t.c) blue := by
  have := List.all_eq_true.1 yz_blue' t ht
  simp only [decide_eq_true_eq, fsum_eq] at this
  rw [wn_ent t.Z t.b, wn_ent t.Y t.c, one_mul]; exact this
theorem yz_red {t : Tables} (ht : t ∈ three) : 1 * wn (ent t.Y t.c) (red 22) < 400 * wn (ent t.Z t.b) (red 22) := by
  have := List.all_eq_true.1 yz_red' t ht
  simp only [decide_eq_true_eq, fsum_eq] at this
  rw [wn_ent t.Z t.b, wn_ent t.Y t.c, one_mul]; exact this

theorem facts {P Q : ℕ → ℕ} {u v j l₁ l₂ h₁ h₂ : ℕ} (h : rises P Q u v j l₁ l₂ h₁ h₂ = true) : (0 : ℝ) < l₂ ∧ (0 : ℝ) < h₂ := by
  simp only [rises, Bool.and_eq_true, decide_eq_true_eq] at h
  exact ⟨by exact_mod_cast h.1.2, by exact_mod_cast h.2⟩

/-- A lower bound of a ratio for all black bodies. -/
theorem lower {P Q : ℕ → ℕ} {u v j l₁ l₂ h₁ h₂ : ℕ} (h : rises P Q u v j l₁ l₂ h₁ h₂ = true) (lh : l₁ * h₂ ≤ h₁ * l₂)
    (hb : l₁ * wn Q blue ≤ l₂ * wn P blue) {T : ℝ} (hT : 0 < T) : (l₁ : ℝ) ≤ wt P (blackbody T) / wt Q (blackbody T) * l₂ := by
  obtain ⟨l0', h0'⟩ := facts h
  have lh' : (l₁ : ℝ) * h₂ ≤ h₁ * l₂ := by exact_mod_cast lh
  have Q0 := wt_pos h (bb_pos hT)
  have k := keep h (b := fun i => (blue i : ℝ)) (w := fun i => blackbody T i / blue i) (fun i => (blue_pos i).le) (bb_blue hT)
    (fun i => (div_pos (bb_pos hT i) (blue_pos i)).le) (c := l₁ / l₂) (le_of_eq (by field_simp))
    (by rw [div_mul_eq_mul_div, div_le_iff₀ l0']; exact lh') (by
      rw [wt_wn, wt_wn, div_mul_eq_mul_div, div_le_iff₀ l0', mul_comm _ (l₂ : ℝ)]
      exact_mod_cast hb)
  have e : (fun i : Fin 400 => (blue i : ℝ) * (blackbody T i / blue i)) = blackbody T :=
    funext fun i => mul_div_cancel₀ _ (blue_pos i).ne'
  rw [e, div_mul_eq_mul_div, div_le_iff₀ l0'] at k
  rw [div_mul_eq_mul_div, le_div_iff₀ Q0]
  exact k

/-- An upper bound of a ratio, from a redder light. -/
theorem upper_of {P Q : ℕ → ℕ} {u v j l₁ l₂ h₁ h₂ : ℕ} (h : rises P Q u v j l₁ l₂ h₁ h₂ = true) (lh : l₁ * h₂ ≤ h₁ * l₂)
    {b w : Fin 400 → ℝ} (hb : ∀ i, 0 < b i) (hw : Monotone w) (w0 : ∀ i, 0 ≤ w i)
    (hr : h₂ * wt P (fun i => b i * w i) < h₁ * wt Q (fun i => b i * w i)) : wt P b / wt Q b * h₂ ≤ h₁ := by
  obtain ⟨l0', h0'⟩ := facts h
  have lh' : (l₁ : ℝ) * h₂ ≤ h₁ * l₂ := by exact_mod_cast lh
  have Q0 := wt_pos h hb
  by_contra hc
  push Not at hc
  have k := keep h (b := b) (w := w) (fun i => (hb i).le) hw w0 (c := h₁ / h₂) (by rw [div_mul_eq_mul_div, le_div_iff₀ h0']; exact lh')
    (le_of_eq (by field_simp)) (by
      rw [div_mul_eq_mul_div, lt_div_iff₀ Q0] at hc
      rw [div_mul_eq_mul_div, div_le_iff₀ h0']
      exact hc.le)
  rw [div_mul_eq_mul_div, div_le_iff₀ h0', mul_comm _ (h₂ : ℝ)] at k
  linarith

/-- Bounds of a ratio for all black bodies hot enough. -/
theorem bounds {P Q : ℕ → ℕ} {u v j l₁ l₂ h₁ h₂ n : ℕ} (h : rises P Q u v j l₁ l₂ h₁ h₂ = true) (lh : l₁ * h₂ ≤ h₁ * l₂)
    (hb : l₁ * wn Q blue ≤ l₂ * wn P blue) (hr : h₂ * wn P (red n) < h₁ * wn Q (red n)) {T : ℝ} (hT : 0 < T)
    (hn : c2 ≤ (n + 4 : ℕ) * (380 * T)) :
    (l₁ : ℝ) ≤ wt P (blackbody T) / wt Q (blackbody T) * l₂ ∧ wt P (blackbody T) / wt Q (blackbody T) * h₂ ≤ h₁ := by
  refine ⟨lower h lh hb hT, upper_of h lh (bb_pos hT) (red_bb hT hn) (fun i => ?_) ?_⟩
  · have := bb_pos hT i
    have := nm_lo i
    positivity
  · have e : (fun i : Fin 400 => blackbody T i * (nm i ^ (n + 4) / (blackbody T i * nm i ^ 4))) = fun i : Fin 400 => ((red n i : ℕ) : ℝ) := by
      funext i
      have := bb_pos hT i
      have := nm_lo i
      have n0 : 0 < nm i := by linarith
      rw [pow_add]
      field_simp
      simp only [red, nm]
      push_cast
      rfl
    rw [e, wt_wn, wt_wn]
    exact_mod_cast hr

end Warm

open Warm

/-- The observers of the header. -/
noncomputable def observers : List (Observer ℝ) := [CIE1931, CIE31JV, CIE2012]

theorem observers_tables {o : Observer ℝ} (ho : o ∈ observers) : ∃ t ∈ three, o = t.obs := by
  simp only [observers, List.mem_cons, List.not_mem_nil, or_false] at ho
  rcases ho with rfl | rfl | rfl
  · exact ⟨cie1931, by simp [three], rfl⟩
  · exact ⟨judd, by simp [three], rfl⟩
  · exact ⟨cie2012, by simp [three], rfl⟩

/-- **C123.** A filter whose transmittance rises with the wavelength moves every light with `x` between 0.18 and 0.718 to a larger
`x`, and raises the ratio of Y to Z of every light for which it is between 1/43 and 400. -/
theorem C123_filter (o : Observer ℝ) (ho : o ∈ observers) (light filter : Spectrum ℝ) (hl : ∀ i, 0 < light i) (hf : StrictMono filter)
    (f0 : 0 < filter 0) :
    (0.18 ≤ (Spec.xy (o.fromSpectrum light)).1 → (Spec.xy (o.fromSpectrum light)).1 ≤ 0.718 →
      (Spec.xy (o.fromSpectrum light)).1 < (Spec.xy (o.fromReflectanceAndLight filter light)).1) ∧
    (1 / 43 ≤ (o.fromSpectrum light).b / (o.fromSpectrum light).c → (o.fromSpectrum light).b / (o.fromSpectrum light).c ≤ 400 →
      (o.fromSpectrum light).b / (o.fromSpectrum light).c <
        (o.fromReflectanceAndLight filter light).b / (o.fromReflectanceAndLight filter light).c) := by
  obtain ⟨t, ht, rfl⟩ := observers_tables ho
  have e : t.obs.fromReflectanceAndLight filter light = t.obs.fromSpectrum fun i => light i * filter i := by
    rw [C41_reflectance_bitwise]
    congr 1
    funext i
    exact mul_comm _ _
  rw [e, t.x_eq, t.x_eq, t.yz_eq, t.yz_eq]
  constructor
  · intro h1 h2
    exact filter_raises (x_shape ht) hl hf f0 (by push_cast; linarith) (by push_cast; linarith)
  · intro h1 h2
    exact filter_raises (yz_shape ht) hl hf f0 (by push_cast; linarith) (by push_cast; linarith)

/-- **C124, hotter is bluer.** From 1000 K on, the `x` of black bodies falls as the temperature rises; from 1500 K on, the ratio
of Z to Y rises. -/
theorem C124_bluer (o : Observer ℝ) (ho : o ∈ observers) (T U : ℝ) (hTU : T < U) :
    (1000 ≤ T → (Spec.xy (o.fromSpectrum (blackbody U))).1 < (Spec.xy (o.fromSpectrum (blackbody T))).1) ∧
    (1500 ≤ T → (o.fromSpectrum (blackbody T)).c / (o.fromSpectrum (blackbody T)).b <
      (o.fromSpectrum (blackbody U)).c / (o.fromSpectrum (blackbody U)).b) := by
  obtain ⟨t, ht, rfl⟩ := observers_tables ho
  have key : ∀ {P Q : ℕ → ℕ} {u v j l₁ l₂ h₁ h₂ n : ℕ}, rises P Q u v j l₁ l₂ h₁ h₂ = true → l₁ * h₂ ≤ h₁ * l₂ →
      l₁ * wn Q blue ≤ l₂ * wn P blue → h₂ * wn P (red n) < h₁ * wn Q (red n) → 0 < T → c2 ≤ (n + 4 : ℕ) * (380 * T) →
      wt P (blackbody U) / wt Q (blackbody U) < wt P (blackbody T) / wt Q (blackbody T) := by
    intro P Q u v j l₁ l₂ h₁ h₂ n h lh hb hr hT hn
    have hU := hT.trans hTU
    obtain ⟨b1, b2⟩ := bounds h lh hb hr hU (hn.trans (mul_le_mul_of_nonneg_left (mul_le_mul_of_nonneg_left hTU.le (by norm_num)) (Nat.cast_nonneg _)))
    have := filter_raises h (bb_pos hU) (ratio_mono hT hTU) (div_pos (bb_pos hT 0) (bb_pos hU 0)) b1 b2
    have e : (fun i : Fin 400 => blackbody U i * (blackbody T i / blackbody U i)) = blackbody T :=
      funext fun i => mul_div_cancel₀ _ (bb_pos hU i).ne'
    rwa [e] at this
  rw [t.x_eq, t.x_eq]
  constructor
  · intro hT
    refine key (n := 34) (x_shape ht) (by norm_num) (x_blue ht) (x_red ht) (by linarith) (by unfold c2; push_cast; linarith)
  · intro hT
    have k := key (n := 22) (yz_shape ht) (by norm_num) (yz_blue ht) (yz_red ht) (by linarith) (by unfold c2; push_cast; linarith)
    rw [← t.yz_eq, ← t.yz_eq] at k
    have hU : 0 < U := by linarith
    have p : 0 < (t.obs.fromSpectrum (blackbody U)).b / (t.obs.fromSpectrum (blackbody U)).c := by
      obtain ⟨b1, -⟩ := bounds (n := 22) (yz_shape ht) (by norm_num) (yz_blue ht) (yz_red ht) hU (by unfold c2; push_cast; linarith)
      rw [t.yz_eq]
      push_cast at b1
      linarith
    have := (inv_lt_inv₀ (p.trans k) p).2 k
    rwa [inv_div, inv_div] at this

/-- **C124, distinct colours.** So black bodies of different temperatures, from 1000 K on, have different chromaticities: the
temperature can be recovered from the colour. -/
theorem C124_injective (o : Observer ℝ) (ho : o ∈ observers) (T U : ℝ) (hT : 1000 ≤ T) (hU : 1000 ≤ U)
    (h : (Spec.xy (o.fromSpectrum (blackbody T))).1 = (Spec.xy (o.fromSpectrum (blackbody U))).1) : T = U := by
  rcases lt_trichotomy T U with q | q | q
  · exact absurd h ((C124_bluer o ho T U q).1 hT).ne'
  · exact q
  · exact absurd h ((C124_bluer o ho U T q).1 hU).ne

/-- **C124, range.** At every temperature from 1000 K on, `x` is between 0.18 and 0.718, so C123 applies to every such light. -/
theorem C124_range (o : Observer ℝ) (ho : o ∈ observers) (T : ℝ) (hT : 1000 ≤ T) :
    0.18 ≤ (Spec.xy (o.fromSpectrum (blackbody T))).1 ∧ (Spec.xy (o.fromSpectrum (blackbody T))).1 ≤ 0.718 := by
  obtain ⟨t, ht, rfl⟩ := observers_tables ho
  obtain ⟨b1, b2⟩ := bounds (n := 34) (x_shape ht) (by norm_num) (x_blue ht) (x_red ht) (by linarith : 0 < T) (by unfold c2; push_cast; linarith)
  rw [t.x_eq]
  push_cast at b1 b2
  constructor <;> linarith

/-- The hypotheses of C123 are met: a black body and a filter. -/
example : ∃ light filter : Spectrum ℝ, (∀ i, 0 < light i) ∧ StrictMono filter ∧ 0 < filter 0 ∧
    0.18 ≤ (Spec.xy ((CIE1931 : Observer ℝ).fromSpectrum light)).1 ∧ (Spec.xy ((CIE1931 : Observer ℝ).fromSpectrum light)).1 ≤ 0.718 :=
  ⟨blackbody 2856, fun i => 1 + (i.val : ℝ), bb_pos (by norm_num), fun i j h => by
    have : (i.val : ℝ) < j.val := by exact_mod_cast h
    simpa using this, by simp, C124_range _ (by simp [observers]) 2856 (by norm_num)⟩

end CS
