import Verif.Spec.LinAlg

/-!
# Vocabulary for the statements about the singular value decomposition

Nothing here refers to the model of `svdcmp`.
-/

namespace CS

/-- The Euclidean length of a vector. -/
noncomputable def euclid {ι : Type} [Fintype ι] (x : ι → ℝ) : ℝ := Real.sqrt (∑ i, x i ^ 2)

/-- The Frobenius norm of a matrix. -/
noncomputable def frob {m n : ℕ} (A : Matrix (Fin m) (Fin n) ℝ) : ℝ := Real.sqrt (∑ i, ∑ j, A i j ^ 2)

/-- The upper bidiagonal matrix with diagonal `w` and superdiagonal `e 1, e 2, ...`. -/
def bidiag {n : ℕ} (w e : Fin n → ℝ) : Matrix (Fin n) (Fin n) ℝ := Matrix.of fun r c =>
  if c.val = r.val then w c else if c.val = r.val + 1 then e c else 0

/-- `x` is the shortest of the vectors minimising `|A y - b|`, and the only one of that length. -/
def MinNormLsq {m n : ℕ} (A : Matrix (Fin m) (Fin n) ℝ) (b : Fin m → ℝ) (x : Fin n → ℝ) : Prop :=
  ∀ y : Fin n → ℝ, euclid (A.mulVec x - b) ≤ euclid (A.mulVec y - b) ∧
    (euclid (A.mulVec y - b) ≤ euclid (A.mulVec x - b) → euclid x ≤ euclid y ∧ (euclid y ≤ euclid x → y = x))

/-- Exact arithmetic, except that the C++ operator `==` is read as `E`. -/
noncomputable def readEq (E : ℝ → ℝ → Bool) : Libm ℝ :=
  { instLibmReal with eq := E }

/-- A reading of `==` that never separates equal numbers, is exact against zero, and forgives at most a relative
amount `ε`: whatever is absorbed when added to `a ≥ 0` is at most `ε a`. -/
structure NearEq (ε : ℝ) (E : ℝ → ℝ → Bool) : Prop where
  nonneg : 0 ≤ ε
  refl : ∀ a, E a a = true
  zero : ∀ x, E x 0 = true ↔ x = 0
  absorb : ∀ a x, 0 ≤ a → E (|x| + a) a = true → |x| ≤ ε * a

open Classical in
/-- Equality is such a reading, with `ε = 0`. -/
theorem NearEq.exact : NearEq 0 (fun x y => decide (x = y)) :=
  ⟨le_rfl, by simp, by simp, fun a x _ h => by simp at h; simp [h]⟩

open Classical in
/-- So is equality up to a relative error `ε`. -/
theorem NearEq.relative {ε : ℝ} (h : 0 ≤ ε) : NearEq ε (fun x y => decide (|x - y| ≤ ε * |y|)) := by
  refine ⟨h, fun a => by simp [mul_nonneg h (abs_nonneg a)], fun x => by simp, fun a x ha hx => ?_⟩
  simpa [abs_of_nonneg ha] using hx

end CS
