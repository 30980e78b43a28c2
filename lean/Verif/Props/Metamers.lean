import Verif.Props.Warm
import Mathlib.LinearAlgebra.Dimension.Finrank
import Mathlib.LinearAlgebra.FiniteDimensional.Lemmas

/-!
# C127: metamers

Surfaces that look alike under given lights, but are not.
-/

namespace CS
open Spectrum Tristimulus Warm

namespace Metamer

/-- The colour of a surface is linear in its reflectance. -/
noncomputable def part (l : Spectrum ℝ) (c : Spectrum ℝ) : (Fin 400 → ℝ) →ₗ[ℝ] ℝ where
  toFun r := ∑ i, r i * (l i * c i)
  map_add' r s := by simp only [Pi.add_apply, add_mul, Finset.sum_add_distrib]
  map_smul' k r := by simp only [Pi.smul_apply, smul_eq_mul, mul_assoc, Finset.mul_sum, RingHom.id_apply]

theorem colour (o : Observer ℝ) (r l : Spectrum ℝ) : o.fromReflectanceAndLight r l =
    ⟨part l o.X r * o.normalize.a, part l o.Y r * o.normalize.b, part l o.Z r * o.normalize.c⟩ := by
  rw [C41_reflectance_bitwise]
  simp only [Observer.fromSpectrum, Observer.SpectrumIntegrate, Tristimulus.mul, dot_eq, part, LinearMap.coe_mk, AddHom.coe_mk,
    Spectrum.mul, mul_assoc]

/-- The observers, by number. -/
noncomputable def obs : Fin 3 → Observer ℝ := ![CIE1931, CIE31JV, CIE2012]

/-- All the integrals at once. -/
noncomputable def parts {n : ℕ} (lights : Fin n → Spectrum ℝ) : (Fin 400 → ℝ) →ₗ[ℝ] (Fin n × Fin 3 × Fin 3 → ℝ) :=
  LinearMap.pi fun k => part (lights k.1) (![(obs k.2.1).X, (obs k.2.1).Y, (obs k.2.1).Z] k.2.2)

theorem exists_ker {n : ℕ} (hn : n ≤ 44) (lights : Fin n → Spectrum ℝ) : ∃ d : Fin 400 → ℝ, d ≠ 0 ∧ parts lights d = 0 := by
  have : LinearMap.ker (parts lights) ≠ ⊥ := by
    apply LinearMap.ker_ne_bot_of_finrank_lt
    simp only [Module.finrank_fintype_fun_eq_card, Fintype.card_prod, Fintype.card_fin]
    omega
  obtain ⟨d, hd, h0⟩ := Submodule.exists_mem_ne_zero_of_ne_bot this
  exact ⟨d, h0, LinearMap.mem_ker.1 hd⟩

/-- A small step keeps the reflectance between 0 and 1. -/
theorem exists_step (r d : Fin 400 → ℝ) (hr : ∀ i, 0 < r i ∧ r i < 1) : ∃ e : ℝ, 0 < e ∧ ∀ i, 0 < r i + e * d i ∧ r i + e * d i < 1 := by
  have key : ∀ i, ∃ e : ℝ, 0 < e ∧ ∀ x, 0 < x → x ≤ e → 0 < r i + x * d i ∧ r i + x * d i < 1 := by
    intro i
    obtain ⟨h0, h1⟩ := hr i
    have p : 0 < |d i| + 1 := by positivity
    refine ⟨min (r i) (1 - r i) / (|d i| + 1), div_pos (lt_min h0 (by linarith)) p, fun x hx hxe => ?_⟩
    have b : x * (|d i| + 1) ≤ min (r i) (1 - r i) := (le_div_iff₀ p).1 hxe
    have b1 := b.trans (min_le_left _ _)
    have b2 := b.trans (min_le_right _ _)
    have c : |x * d i| ≤ x * |d i| := by rw [abs_mul, abs_of_pos hx]
    have := _root_.abs_le.1 c
    constructor <;> linarith [this.1, this.2]
  choose e he h using key
  refine ⟨Finset.univ.inf' Finset.univ_nonempty e, ?_, fun i => h i _ ?_ ?_⟩
  · exact (Finset.lt_inf'_iff _).2 fun i _ => he i
  · exact (Finset.lt_inf'_iff _).2 fun i _ => he i
  · exact Finset.inf'_le _ (Finset.mem_univ _)

theorem y_pos : (Data.CIE.CIE1931_Y.m.all fun e => Nat.blt 0 e) = true := by decide +kernel

theorem Y_pos (i : Fin 400) : 0 < (CIE1931 : Observer ℝ).Y i := by
  have h := List.all_eq_true.1 y_pos (Data.CIE.CIE1931_Y.m[i.val]'(by rw [Data.CIE.CIE1931_Y.len]; exact i.2)) (List.getElem_mem _)
  have h' : 0 < Data.CIE.CIE1931_Y.m[i.val]'(by rw [Data.CIE.CIE1931_Y.len]; exact i.2) := by simpa using h
  have e : (CIE1931 : Observer ℝ).Y i = ((Data.CIE.CIE1931_Y.q i : ℚ) : ℝ) := rfl
  rw [e]
  refine Rat.cast_pos.2 ?_
  unfold Data.Table.q
  exact div_pos (Nat.cast_pos.2 h') (by positivity)

end Metamer

open Metamer

/-- **C127.** Given up to 44 lights and a surface, there is a different surface that looks the same under all those lights to all three
observers; and a light under which the two look different to the CIE 1931 observer. -/
theorem C127_metamer {n : ℕ} (hn : n ≤ 44) (lights : Fin n → Spectrum ℝ) (r : Spectrum ℝ) (hr : ∀ i, 0 < r i ∧ r i < 1) :
    ∃ s : Spectrum ℝ, (∀ i, 0 < s i ∧ s i < 1) ∧
      (∀ o ∈ observers, ∀ j, o.fromReflectanceAndLight s (lights j) = o.fromReflectanceAndLight r (lights j)) ∧
      ∃ light : Spectrum ℝ, (∀ i, 0 ≤ light i) ∧
        (CIE1931.fromReflectanceAndLight s light).b ≠ (CIE1931.fromReflectanceAndLight r light).b := by
  obtain ⟨d, d0, hd⟩ := exists_ker hn lights
  obtain ⟨e, e0, he⟩ := exists_step r d hr
  refine ⟨fun i => r i + e * d i, he, fun o ho j => ?_, ?_⟩
  · obtain ⟨k, rfl⟩ : ∃ k, o = obs k := by
      simp only [observers, List.mem_cons, List.not_mem_nil, or_false] at ho
      rcases ho with rfl | rfl | rfl
      · exact ⟨0, rfl⟩
      · exact ⟨1, rfl⟩
      · exact ⟨2, rfl⟩
    have z : ∀ m : Fin 3, part (lights j) (![(obs k).X, (obs k).Y, (obs k).Z] m) d = 0 := fun m => congrFun hd (j, k, m)
    have add : ∀ c, part (lights j) c d = 0 → part (lights j) c (fun i => r i + e * d i) = part (lights j) c r := by
      intro c hc
      have : (fun i => r i + e * d i) = r + e • d := rfl
      rw [this, map_add, map_smul, hc, smul_zero, add_zero]
    rw [colour, colour, add (obs k).X (z 0), add (obs k).Y (z 1), add (obs k).Z (z 2)]
  · obtain ⟨i, hi⟩ : ∃ i, d i ≠ 0 := by
      by_contra hc
      push Not at hc
      exact d0 (funext hc)
    refine ⟨fun k => if k = i then 1 else 0, fun k => by simp only; split <;> norm_num, ?_⟩
    have one : ∀ r : Spectrum ℝ, part (fun k => if k = i then 1 else 0) (CIE1931 : Observer ℝ).Y r = r i * (CIE1931 : Observer ℝ).Y i := by
      intro r
      show ∑ k, r k * ((if k = i then 1 else 0) * (CIE1931 : Observer ℝ).Y k) = _
      rw [Finset.sum_eq_single i]
      · simp
      · intro k _ hk; simp [hk]
      · simp
    have n0 : (CIE1931 : Observer ℝ).normalize.b ≠ 0 := by
      have e : (CIE1931 : Observer ℝ).normalize.b = lit 1 / (CIE1931 : Observer ℝ).Y.sum := rfl
      rw [e, sum_eq, lit_real]
      have : 0 < ∑ i, (CIE1931 : Observer ℝ).Y i := Finset.sum_pos (fun i _ => Y_pos i) Finset.univ_nonempty
      have := this.ne'
      simpa using this
    rw [colour, colour]
    simp only [one]
    intro h
    have h1 := mul_right_cancel₀ n0 h
    have h2 := mul_right_cancel₀ (Y_pos i).ne' h1
    have : e * d i = 0 := by linarith
    rcases mul_eq_zero.1 this with q | q
    · exact e0.ne' q
    · exact hi q

/-- The hypotheses are met: a grey surface under 44 lights. -/
example : ∃ (lights : Fin 44 → Spectrum ℝ) (r : Spectrum ℝ), (∀ i, 0 < r i ∧ r i < 1) ∧ ∀ j i, 0 ≤ lights j i :=
  ⟨fun _ _ => 1, fun _ => 1 / 2, fun _ => by norm_num, fun _ _ => by norm_num⟩

end CS
