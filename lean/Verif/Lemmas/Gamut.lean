import Verif.Model.Gamut
import Verif.Lemmas.LinAlg
import Mathlib.Tactic.Linarith

/-! Helper lemmas on gamuts. -/

namespace CS
open Matrix Spec

namespace Tristimulus
@[simp] theorem vec3_ofVec3 {α : Type} (v : Vector3 α) : (ofVec3 v).vec3 = v := rfl
@[simp] theorem ofVec3_vec3 {α : Type} (t : Tristimulus α) : ofVec3 t.vec3 = t := rfl

theorem abs_f_real (x : ℝ) : abs_f x = |x| := by
  unfold abs_f
  split
  · next h => simp at h; rw [abs_of_neg h]
  · next h => simp at h; rw [abs_of_nonneg h]

theorem fromYxy3_real (Y x y : ℝ) (h : 1e-8 ≤ |y|) :
    fromYxy3 Y x y = ⟨x * Y / y, Y, (1 - x - y) * Y / y⟩ := by
  simp [fromYxy3, X_from_Yxy, Y_from_Yxy, Z_from_Yxy, abs_f_real, z_from_xy, not_lt.mpr h]

end Tristimulus

namespace Gamut

/-- The two stored matrices are inverse to each other. -/
def Consistent (g : Gamut ℝ) : Prop :=
  g.toXYZ_.mul g.fromXYZ_ = .ident ∧ g.fromXYZ_.mul g.toXYZ_ = .ident

theorem ofFromXYZ_consistent (n : String) (m : Matrix3 ℝ) (h : m.det ≠ 0) :
    (ofFromXYZ n m).Consistent :=
  ⟨Matrix3.invert_mul m h, Matrix3.mul_invert m h⟩

theorem ofPrimaries_consistent (n : String) (xR yR xG yG xB yB xW yW : ℝ)
    (h : (fromPrimaries xR yR xG yG xB yB xW yW).det ≠ 0) :
    (ofPrimaries n xR yR xG yG xB yB xW yW).Consistent :=
  ⟨Matrix3.mul_invert _ h, Matrix3.invert_mul _ h⟩

theorem Consistent.from_to {g : Gamut ℝ} (h : g.Consistent) (t : Tristimulus ℝ) :
    g.fromXYZ (g.toXYZ t) = t := by
  simp [fromXYZ, toXYZ, ← Matrix3.apply_mul, h.2]

theorem Consistent.to_from {g : Gamut ℝ} (h : g.Consistent) (t : Tristimulus ℝ) :
    g.toXYZ (g.fromXYZ t) = t := by
  simp [fromXYZ, toXYZ, ← Matrix3.apply_mul, h.1]

theorem det_diag (v : Vector3 ℝ) : (diag v).det = v.x * v.y * v.z := by
  simp [diag, Matrix3.det_eq]

theorem det_fromPrimaries (xR yR xG yG xB yB xW yW : ℝ) :
    (fromPrimaries xR yR xG yG xB yB xW yW).det =
      (primMat xR yR xG yG xB yB).det *
      (let w := (primMat xR yR xG yG xB yB).invert.apply
          (Tristimulus.fromYxy3 1 xW yW).vec3
       w.x * w.y * w.z) := by
  simp [fromPrimaries, mulDiag, Matrix3.det_mul, det_diag]

end Gamut
end CS
