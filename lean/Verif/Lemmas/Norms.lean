import Verif.Spec.Svd
import Mathlib.Analysis.InnerProductSpace.PiL2
import Mathlib.LinearAlgebra.Matrix.ToLinearEquiv
import Mathlib.LinearAlgebra.Matrix.Block

/-!
# Euclidean length and Frobenius norm
-/

namespace CS
open Matrix
variable {ι : Type} [Fintype ι] {m n : ℕ}

theorem euclid_eq (x : ι → ℝ) : euclid x = ‖(WithLp.toLp 2 x : EuclideanSpace ℝ ι)‖ := by
  rw [EuclideanSpace.norm_eq]
  unfold euclid
  congr 1
  exact Finset.sum_congr rfl fun i _ => by simp

theorem euclid_nonneg (x : ι → ℝ) : 0 ≤ euclid x := Real.sqrt_nonneg _

theorem euclid_sq (x : ι → ℝ) : euclid x ^ 2 = ∑ i, x i ^ 2 :=
  Real.sq_sqrt (Finset.sum_nonneg fun i _ => sq_nonneg _)

theorem euclid_dot (x : ι → ℝ) : euclid x ^ 2 = x ⬝ᵥ x := by
  rw [euclid_sq]
  exact Finset.sum_congr rfl fun i _ => by ring

theorem euclid_add_le (x y : ι → ℝ) : euclid (x + y) ≤ euclid x + euclid y := by
  rw [euclid_eq, euclid_eq, euclid_eq, WithLp.toLp_add]
  exact norm_add_le _ _

theorem euclid_smul (c : ℝ) (x : ι → ℝ) : euclid (c • x) = |c| * euclid x := by
  rw [euclid_eq, euclid_eq, WithLp.toLp_smul, norm_smul, Real.norm_eq_abs]

theorem euclid_pos {x : ι → ℝ} (h : x ≠ 0) : 0 < euclid x := by
  rw [euclid_eq, norm_pos_iff]
  intro h0
  exact h (by simpa using h0)

theorem euclid_of_dot {x : ι → ℝ} (h : x ⬝ᵥ x = 1) : euclid x = 1 := by
  have := euclid_dot x
  rw [h] at this
  nlinarith [euclid_nonneg x]

theorem frob_eq (A : Matrix (Fin m) (Fin n) ℝ) : frob A = euclid (fun p : Fin m × Fin n => A p.1 p.2) := by
  unfold frob euclid
  rw [Fintype.sum_prod_type]

theorem frob_nonneg (A : Matrix (Fin m) (Fin n) ℝ) : 0 ≤ frob A := Real.sqrt_nonneg _

theorem frob_sq (A : Matrix (Fin m) (Fin n) ℝ) : frob A ^ 2 = ∑ i, ∑ j, A i j ^ 2 :=
  Real.sq_sqrt (Finset.sum_nonneg fun i _ => Finset.sum_nonneg fun j _ => sq_nonneg _)

theorem frob_add_le (A B : Matrix (Fin m) (Fin n) ℝ) : frob (A + B) ≤ frob A + frob B := by
  rw [frob_eq, frob_eq, frob_eq]
  exact euclid_add_le _ _

theorem frob_zero : frob (0 : Matrix (Fin m) (Fin n) ℝ) = 0 := by simp [frob]

theorem frob_rank_one (x : Fin m → ℝ) (y : Fin n → ℝ) : frob (vecMulVec x y) = euclid x * euclid y := by
  have : frob (vecMulVec x y) ^ 2 = (euclid x * euclid y) ^ 2 := by
    rw [frob_sq, mul_pow, euclid_sq, euclid_sq, Finset.sum_mul_sum]
    exact Finset.sum_congr rfl fun i _ => Finset.sum_congr rfl fun j _ => by
      rw [vecMulVec_apply]; ring
  exact (pow_left_inj₀ (frob_nonneg _) (mul_nonneg (euclid_nonneg _) (euclid_nonneg _)) two_ne_zero).1 this

theorem le_of_sq_le_sq' {a b : ℝ} (h : a ^ 2 ≤ b ^ 2) (hb : 0 ≤ b) : a ≤ b := by
  by_contra hc
  push Not at hc
  nlinarith

theorem euclid_mulVec_le (A : Matrix (Fin m) (Fin n) ℝ) (x : Fin n → ℝ) : euclid (A *ᵥ x) ≤ frob A * euclid x := by
  refine le_of_sq_le_sq' ?_ (mul_nonneg (frob_nonneg _) (euclid_nonneg _))
  rw [mul_pow, euclid_sq, euclid_sq, frob_sq, Finset.sum_mul]
  refine Finset.sum_le_sum fun i _ => ?_
  exact Finset.sum_mul_sq_le_sq_mul_sq Finset.univ (fun j => A i j) x

/-- Orthonormal columns preserve lengths. -/
theorem euclid_orth {U : Matrix (Fin m) (Fin n) ℝ} (h : Uᵀ * U = 1) (x : Fin n → ℝ) : euclid (U *ᵥ x) = euclid x := by
  have : euclid (U *ᵥ x) ^ 2 = euclid x ^ 2 := by
    rw [euclid_dot, euclid_dot, dotProduct_mulVec, ← mulVec_transpose, mulVec_mulVec, h, one_mulVec]
  exact (pow_left_inj₀ (euclid_nonneg _) (euclid_nonneg _) two_ne_zero).1 this

/-- A diagonal entry of an upper triangular matrix is an eigenvalue. -/
theorem triangular_eigen (B : Matrix (Fin n) (Fin n) ℝ) (h : ∀ i j, j < i → B i j = 0) (t : Fin n) :
    ∃ y : Fin n → ℝ, y ≠ 0 ∧ B *ᵥ y = B t t • y := by
  have hdet : (B - B t t • (1 : Matrix (Fin n) (Fin n) ℝ)).det = 0 := by
    rw [Matrix.det_of_isUpperTriangular (fun i j hij => ?_)]
    · exact Finset.prod_eq_zero (Finset.mem_univ t) (by simp)
    · have : j < i := hij
      simp [h i j this, this.ne']
  obtain ⟨y, hy, h0⟩ := Matrix.exists_mulVec_eq_zero_iff.2 hdet
  refine ⟨y, hy, ?_⟩
  rw [sub_mulVec, smul_mulVec, one_mulVec, sub_eq_zero] at h0
  exact h0

end CS
