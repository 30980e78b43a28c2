import Verif.Spec.LinAlg
import Verif.Lemmas.Matrix

/-! The C++ matrix operations denote Mathlib's. -/

namespace CS.Spec
open Matrix

theorem toM_injective : Function.Injective toM := by
  intro a b h
  have e := fun i j => congrFun (congrFun h i) j
  ext
  · simpa [toM] using e 0 0
  · simpa [toM] using e 0 1
  · simpa [toM] using e 0 2
  · simpa [toM] using e 1 0
  · simpa [toM] using e 1 1
  · simpa [toM] using e 1 2
  · simpa [toM] using e 2 0
  · simpa [toM] using e 2 1
  · simpa [toM] using e 2 2

theorem toV_injective : Function.Injective toV := by
  intro a b h
  have e := fun i => congrFun h i
  ext
  · simpa [toV] using e 0
  · simpa [toV] using e 1
  · simpa [toV] using e 2

theorem triV_injective : Function.Injective triV := by
  intro a b h
  have e := fun i => congrFun h i
  ext
  · simpa [triV] using e 0
  · simpa [triV] using e 1
  · simpa [triV] using e 2

theorem toM_mul (a b : Matrix3 ℝ) : toM (a.mul b) = toM a * toM b := by
  ext i j
  fin_cases i <;> fin_cases j <;>
    simp [toM, Matrix3.mul, Matrix.mul_apply, Fin.sum_univ_three]

theorem toM_ident : toM Matrix3.ident = 1 := by
  ext i j
  fin_cases i <;> fin_cases j <;> simp [toM, Matrix3.ident]

theorem toV_apply (a : Matrix3 ℝ) (v : Vector3 ℝ) : toV (a.apply v) = toM a *ᵥ toV v := by
  ext i
  fin_cases i <;> simp [toM, toV, Matrix3.apply, Matrix.mulVec, dotProduct, Fin.sum_univ_three]

theorem toM_det (a : Matrix3 ℝ) : (toM a).det = a.det := by
  simp [toM, Matrix.det_fin_three, Matrix3.det_eq]; ring

theorem toM_invert (a : Matrix3 ℝ) (h : (toM a).det ≠ 0) : toM a.invert = (toM a)⁻¹ := by
  rw [toM_det] at h
  symm
  apply Matrix.inv_eq_right_inv
  rw [← toM_mul, Matrix3.mul_invert a h, toM_ident]

theorem triV_ofVec3 (v : Vector3 ℝ) : triV (.ofVec3 v) = toV v := rfl
theorem toV_vec3 (t : Tristimulus ℝ) : toV t.vec3 = triV t := rfl

end CS.Spec
