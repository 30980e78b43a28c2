import Verif.Float.F32
import Verif.Lemmas.Spectrum
import Mathlib.Algebra.Order.BigOperators.Ring.Finset
import Mathlib.Tactic.GCongr
import Mathlib.Tactic.Positivity

/-! Binary32 sums and dot products of spectra with non-negative samples. -/

namespace CS.Spectrum
open B32 F32

/-- A finite non-negative float of value at most `B`. -/
structure NN (x : F32) (B : ℚ) : Prop where
  fin : x.isFinite = true
  nonneg : 0 ≤ x.val
  le : x.val ≤ B

theorem pack_nn {s : Bool} {q B : ℚ} (hq : 0 ≤ q) (hB : Rep B) (hlt : B < 2 ^ 128) (h : q ≤ B) :
    NN (pack s q) B ∧ (pack s q).val = rnd q := by
  have h0 := rnd_nonneg hq
  have h1 := rnd_le hB h
  obtain ⟨f, v⟩ := pack_finite (s := s) (q := q) (by rw [abs_of_nonneg h0]; linarith)
  exact ⟨⟨f, by rw [v]; exact h0, by rw [v]; exact h1⟩, v⟩

theorem add_nn {x y : F32} {A B C : ℚ} (hx : NN x A) (hy : NN y B) (hC : Rep C) (hlt : C < 2 ^ 128)
    (h : A + B ≤ C) : NN (x + y) C ∧ (x + y).val = rnd (x.val + y.val) := by
  rw [add_def, add_finite hx.fin hy.fin]
  exact pack_nn (add_nonneg hx.nonneg hy.nonneg) hC hlt (by linarith [hx.le, hy.le])

theorem mul_nn {x y : F32} {A B C : ℚ} (hx : NN x A) (hy : NN y B) (hC : Rep C) (hlt : C < 2 ^ 128)
    (h : A * B ≤ C) : NN (x * y) C ∧ (x * y).val = rnd (x.val * y.val) := by
  rw [mul_def, mul_finite hx.fin hy.fin]
  exact pack_nn (mul_nonneg hx.nonneg hy.nonneg) hC hlt
    (le_trans (mul_le_mul hx.le hy.le hy.nonneg (hx.nonneg.trans hx.le)) h)

/-- The unit roundoff. -/
def u : ℚ := 1 / 2 ^ 24

theorem rep_mul_pow {n : ℕ} (hn : n ≤ 400) {k : ℕ} : Rep ((n : ℚ) * 2 ^ k) :=
  ⟨n, k, by push_cast; rw [zpow_natCast], by rw [Nat.abs_cast]; norm_cast; omega, by omega⟩

theorem sum_nn (a : Spectrum F32) {k : ℕ} (hk : k ≤ 118) (ha : ∀ i, NN (a i) (2 ^ k)) :
    ∀ (i : ℕ) (h : i < 400),
      NN (sumHelper a i h) (((i + 1 : ℕ) : ℚ) * 2 ^ k) ∧
      |(sumHelper a i h).val - ∑ j : Fin (i + 1), (a ⟨j, by omega⟩).val|
        ≤ ((1 + u) ^ i - 1) * ∑ j : Fin (i + 1), (a ⟨j, by omega⟩).val
  | 0, h => by
    refine ⟨?_, ?_⟩
    · have := ha 0
      simpa [sumHelper] using this
    · simp [sumHelper]
  | i + 1, h => by
    obtain ⟨hn, he⟩ := sum_nn a hk ha i (by omega)
    have hlt : (((i + 1 + 1 : ℕ) : ℚ) * 2 ^ k) < 2 ^ 128 := by
      have h1 : ((i + 1 + 1 : ℕ) : ℚ) ≤ 2 ^ 9 := by
        have : (i + 1 + 1 : ℕ) ≤ 2 ^ 9 := by omega
        exact_mod_cast this
      calc ((i + 1 + 1 : ℕ) : ℚ) * 2 ^ k ≤ 2 ^ 9 * 2 ^ 118 := by
            gcongr
            norm_num
        _ < 2 ^ 128 := by norm_num
    obtain ⟨h1, h2⟩ := add_nn hn (ha ⟨i + 1, h⟩) (rep_mul_pow (n := i + 1 + 1) (by omega) (k := k)) hlt
      (by push_cast; linarith)
    rw [sumHelper]
    refine ⟨h1, ?_⟩
    rw [h2, Fin.sum_univ_castSucc (n := i + 1)]
    simp only [Fin.val_castSucc, Fin.val_last]
    set S := (sumHelper a i (by omega)).val
    set p := (a ⟨i + 1, h⟩).val
    set R := ∑ j : Fin (i + 1), (a ⟨j, by omega⟩).val with hR
    have hp : 0 ≤ p := (ha _).nonneg
    have hS : 0 ≤ S := hn.nonneg
    have hR0 : 0 ≤ R := Finset.sum_nonneg fun j _ => (ha _).nonneg
    have hr := rnd_add_rel (rep_val (sumHelper a i (by omega))) (rep_val (a ⟨i + 1, h⟩))
    rw [show (sumHelper a i (by omega)).val = S from rfl, show (a ⟨i + 1, h⟩).val = p from rfl,
      abs_of_nonneg (add_nonneg hS hp)] at hr
    have hu : (0 : ℚ) ≤ u := by norm_num [u]
    have hpow : (1 : ℚ) ≤ (1 + u) ^ i := one_le_pow₀ (by linarith)
    have hSle : S ≤ (1 + u) ^ i * R := by
      have := (abs_le.mp he).2; linarith
    have e1 : |rnd (S + p) - (R + p)| ≤ (S + p) * u + ((1 + u) ^ i - 1) * R := by
      calc |rnd (S + p) - (R + p)| = |(rnd (S + p) - (S + p)) + (S - R)| := by congr 1; ring
        _ ≤ _ := (abs_add_le _ _).trans (add_le_add (hr.trans (le_of_eq (by rw [u]; ring))) he)
    refine e1.trans ?_
    rw [pow_succ]
    have h3 : S * u ≤ (1 + u) ^ i * R * u := mul_le_mul_of_nonneg_right hSle hu
    have h4 : p * u ≤ (1 + u) ^ i * p * u := by
      have : 1 * p ≤ (1 + u) ^ i * p := mul_le_mul_of_nonneg_right hpow hp
      exact mul_le_mul_of_nonneg_right (by linarith) hu
    have h5 : 0 ≤ ((1 + u) ^ i - 1) * p := mul_nonneg (by linarith) hp
    nlinarith

theorem sum_mono (a b : Spectrum F32) {k : ℕ} (hk : k ≤ 118) (ha : ∀ i, NN (a i) (2 ^ k))
    (hb : ∀ i, NN (b i) (2 ^ k)) (h : ∀ i, (a i).val ≤ (b i).val) :
    ∀ (i : ℕ) (hi : i < 400), (sumHelper a i hi).val ≤ (sumHelper b i hi).val
  | 0, _ => h 0
  | i + 1, hi => by
    have ih := sum_mono a b hk ha hb h i (by omega)
    have va : ∀ (c : Spectrum F32), (∀ i, NN (c i) (2 ^ k)) → (sumHelper c (i + 1) hi).val =
        rnd ((sumHelper c i (by omega)).val + (c ⟨i + 1, hi⟩).val) := by
      intro c hc
      have hlt : (((i + 1 + 1 : ℕ) : ℚ) * 2 ^ k) < 2 ^ 128 := by
        have h1 : ((i + 1 + 1 : ℕ) : ℚ) ≤ 2 ^ 9 := by
          have : (i + 1 + 1 : ℕ) ≤ 2 ^ 9 := by omega
          exact_mod_cast this
        calc ((i + 1 + 1 : ℕ) : ℚ) * 2 ^ k ≤ 2 ^ 9 * 2 ^ 118 := by
              gcongr
              norm_num
          _ < 2 ^ 128 := by norm_num
      exact (add_nn (sum_nn c hk hc i (by omega)).1 (hc ⟨i + 1, hi⟩)
        (rep_mul_pow (n := i + 1 + 1) (by omega) (k := k)) hlt (by push_cast; linarith)).2
    rw [va a ha, va b hb]
    exact rnd_mono (add_le_add ih (h _))

theorem dotHelper_comm (a b : Spectrum F32) : ∀ (i : ℕ) (h : i < 400),
    dotHelper a b i h = sumHelper (a.mul b) i h
  | 0, _ => rfl
  | i + 1, h => by
    rw [dotHelper, sumHelper, dotHelper_comm a b i (by omega), F32.add_comm']; rfl

theorem roundoff399 : (1 + u) ^ 399 - 1 ≤ 2.379e-5 := by
  rw [u, show (399 : ℕ) = 133 * 3 from rfl, pow_mul]; norm_num

/-- The sum of 400 floats. -/
theorem sum_close (a : Spectrum F32) {k : ℕ} (hk : k ≤ 118) (ha : ∀ i, NN (a i) (2 ^ k)) :
    NN a.sum (400 * 2 ^ k) ∧ |a.sum.val - ∑ i, (a i).val| ≤ 2.379e-5 * ∑ i, (a i).val := by
  obtain ⟨h1, h2⟩ := sum_nn a hk ha 399 (by decide)
  refine ⟨by simpa [Spectrum.sum] using h1, h2.trans ?_⟩
  exact mul_le_mul_of_nonneg_right roundoff399 (Finset.sum_nonneg fun j _ => (ha _).nonneg)

/-- The dot product of 400 floats. -/
theorem dot_close (a b : Spectrum F32) {k : ℕ} (hk : k ≤ 116) (ha : ∀ i, NN (a i) (2 ^ k))
    (hb : ∀ i, NN (b i) 2) :
    NN (a.dot b) (400 * 2 ^ (k + 1)) ∧
    |(a.dot b).val - ∑ i, (a i).val * (b i).val| ≤ 2.386e-5 * ∑ i, (a i).val * (b i).val + 401 / 2 ^ 150 := by
  have hm : ∀ i, NN ((a.mul b) i) (2 ^ (k + 1)) ∧ ((a.mul b) i).val = rnd ((a i).val * (b i).val) := by
    intro i
    refine mul_nn (ha i) (hb i) ?_ ?_ (by rw [pow_succ])
    · have := rep_mul_pow (n := 1) (by norm_num) (k := k + 1); simpa using this
    · calc (2 : ℚ) ^ (k + 1) ≤ 2 ^ 117 := by gcongr <;> [norm_num; omega]
        _ < 2 ^ 128 := by norm_num
  have e : a.dot b = (a.mul b).sum := dotHelper_comm a b 399 (by decide)
  rw [e]
  obtain ⟨h1, h2⟩ := sum_close (a.mul b) (k := k + 1) (by omega) (fun i => (hm i).1)
  refine ⟨h1, ?_⟩
  set R := ∑ i, (a i).val * (b i).val with hR
  have hR0 : 0 ≤ R := Finset.sum_nonneg fun i _ => mul_nonneg (ha i).nonneg (hb i).nonneg
  have h3 : |∑ i, ((a.mul b) i).val - R| ≤ u * R + 400 / 2 ^ 150 := by
    rw [hR, ← Finset.sum_sub_distrib]
    refine (Finset.abs_sum_le_sum_abs _ _).trans ?_
    have : ∀ i ∈ Finset.univ, |((a.mul b) i).val - (a i).val * (b i).val|
        ≤ u * ((a i).val * (b i).val) + 1 / 2 ^ 150 := by
      intro i _
      rw [(hm i).2]
      refine (rnd_rel' _).trans ?_
      rw [abs_of_nonneg (mul_nonneg (ha i).nonneg (hb i).nonneg), u]
      apply le_of_eq; ring
    refine (Finset.sum_le_sum this).trans ?_
    rw [Finset.sum_add_distrib, ← Finset.mul_sum]
    simp
    norm_num
  set P := ∑ i, ((a.mul b) i).val
  have hP : P ≤ (1 + u) * R + 400 / 2 ^ 150 := by have := (abs_le.mp h3).2; linarith
  calc |(a.mul b).sum.val - R| = |((a.mul b).sum.val - P) + (P - R)| := by congr 1; ring
    _ ≤ 2.379e-5 * P + (u * R + 400 / 2 ^ 150) := (abs_add_le _ _).trans (add_le_add h2 h3)
    _ ≤ 2.379e-5 * ((1 + u) * R + 400 / 2 ^ 150) + (u * R + 400 / 2 ^ 150) := by gcongr
    _ ≤ 2.386e-5 * R + 401 / 2 ^ 150 := by
      rw [u]
      have : (2.379e-5 * (1 + 1 / 2 ^ 24) + 1 / 2 ^ 24 : ℚ) ≤ 2.386e-5 := by norm_num
      nlinarith

theorem dot_mono (a b c : Spectrum F32) {k : ℕ} (hk : k ≤ 116) (ha : ∀ i, NN (a i) (2 ^ k))
    (hb : ∀ i, NN (b i) (2 ^ k)) (hc : ∀ i, NN (c i) 2) (h : ∀ i, (a i).val ≤ (b i).val) :
    (a.dot c).val ≤ (b.dot c).val := by
  have hm : ∀ a : Spectrum F32, (∀ i, NN (a i) (2 ^ k)) → ∀ i,
      NN ((a.mul c) i) (2 ^ (k + 1)) ∧ ((a.mul c) i).val = rnd ((a i).val * (c i).val) := by
    intro a ha i
    refine mul_nn (ha i) (hc i) ?_ ?_ (by rw [pow_succ])
    · have := rep_mul_pow (n := 1) (by norm_num) (k := k + 1); simpa using this
    · calc (2 : ℚ) ^ (k + 1) ≤ 2 ^ 117 := by gcongr <;> [norm_num; omega]
        _ < 2 ^ 128 := by norm_num
  have e : ∀ a : Spectrum F32, a.dot c = (a.mul c).sum := fun a => dotHelper_comm a c 399 (by decide)
  rw [e, e]
  refine sum_mono _ _ (k := k + 1) (by omega) (fun i => (hm a ha i).1) (fun i => (hm b hb i).1) ?_ 399 (by decide)
  intro i
  rw [(hm a ha i).2, (hm b hb i).2]
  exact rnd_mono (mul_le_mul_of_nonneg_right (h i) (hc i).nonneg)

end CS.Spectrum
