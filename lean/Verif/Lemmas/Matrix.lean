import Verif.Model.Matrix
import Mathlib.Tactic.Ring
import Mathlib.Tactic.FieldSimp
import Mathlib.Tactic.NormNum
import Mathlib.Tactic.LinearCombination

/-! Simplification lemmas for `Vector3` and `Matrix3`. -/

namespace CS
namespace Vector3
variable {α : Type} (v : Vector3 α)
@[simp] theorem get_0 : v.get 0 = v.x := rfl
@[simp] theorem get_1 : v.get 1 = v.y := rfl
@[simp] theorem get_2 : v.get 2 = v.z := rfl
end Vector3

namespace Matrix3
variable {α : Type} (m : Matrix3 α)
@[simp] theorem get_0 : m.get 0 = m.m0 := rfl
@[simp] theorem get_1 : m.get 1 = m.m1 := rfl
@[simp] theorem get_2 : m.get 2 = m.m2 := rfl
@[simp] theorem get_3 : m.get 3 = m.m3 := rfl
@[simp] theorem get_4 : m.get 4 = m.m4 := rfl
@[simp] theorem get_5 : m.get 5 = m.m5 := rfl
@[simp] theorem get_6 : m.get 6 = m.m6 := rfl
@[simp] theorem get_7 : m.get 7 = m.m7 := rfl
@[simp] theorem get_8 : m.get 8 = m.m8 := rfl

@[simp] theorem M00 : M 0 0 = 0 := rfl
@[simp] theorem M10 : M 1 0 = 1 := rfl
@[simp] theorem M20 : M 2 0 = 2 := rfl
@[simp] theorem M01 : M 0 1 = 3 := rfl
@[simp] theorem M11 : M 1 1 = 4 := rfl
@[simp] theorem M21 : M 2 1 = 5 := rfl
@[simp] theorem M02 : M 0 2 = 6 := rfl
@[simp] theorem M12 : M 1 2 = 7 := rfl
@[simp] theorem M22 : M 2 2 = 8 := rfl

@[simp] theorem I11 : I 1 1 = 0 := rfl
@[simp] theorem I12 : I 1 2 = 1 := rfl
@[simp] theorem I13 : I 1 3 = 2 := rfl
@[simp] theorem I21 : I 2 1 = 3 := rfl
@[simp] theorem I22 : I 2 2 = 4 := rfl
@[simp] theorem I23 : I 2 3 = 5 := rfl
@[simp] theorem I31 : I 3 1 = 6 := rfl
@[simp] theorem I32 : I 3 2 = 7 := rfl
@[simp] theorem I33 : I 3 3 = 8 := rfl

theorem det_eq (m : Matrix3 ℝ) : m.det =
    m.m0 * m.m4 * m.m8 + m.m3 * m.m7 * m.m2 + m.m6 * m.m1 * m.m5 - m.m0 * m.m7 * m.m5
      - m.m6 * m.m4 * m.m2 - m.m3 * m.m1 * m.m8 := by
  simp [det]

theorem inv_det (m : Matrix3 ℝ) (h : m.det ≠ 0) :
    (m.m0 * m.m4 * m.m8 + m.m3 * m.m7 * m.m2 + m.m6 * m.m1 * m.m5 - m.m0 * m.m7 * m.m5
      - m.m6 * m.m4 * m.m2 - m.m3 * m.m1 * m.m8) * (1 / m.det) = 1 := by
  rw [← det_eq]; field_simp

theorem mul_invert (m : Matrix3 ℝ) (h : m.det ≠ 0) : m.mul m.invert = ident := by
  have h' := inv_det m h
  generalize hd : 1 / m.det = t at h'
  have : m.invert = smul
    ⟨m.m4 * m.m8 - m.m5 * m.m7, m.m2 * m.m7 - m.m1 * m.m8, m.m1 * m.m5 - m.m2 * m.m4,
     m.m5 * m.m6 - m.m3 * m.m8, m.m0 * m.m8 - m.m2 * m.m6, m.m2 * m.m3 - m.m0 * m.m5,
     m.m3 * m.m7 - m.m4 * m.m6, m.m1 * m.m6 - m.m0 * m.m7, m.m0 * m.m4 - m.m1 * m.m3⟩ t := by
    rw [← hd]; simp [invert]
  rw [this]
  ext <;> simp [mul, smul, ident] <;> first | ring1 | linear_combination h'

theorem invert_mul (m : Matrix3 ℝ) (h : m.det ≠ 0) : m.invert.mul m = ident := by
  have h' := inv_det m h
  generalize hd : 1 / m.det = t at h'
  have : m.invert = smul
    ⟨m.m4 * m.m8 - m.m5 * m.m7, m.m2 * m.m7 - m.m1 * m.m8, m.m1 * m.m5 - m.m2 * m.m4,
     m.m5 * m.m6 - m.m3 * m.m8, m.m0 * m.m8 - m.m2 * m.m6, m.m2 * m.m3 - m.m0 * m.m5,
     m.m3 * m.m7 - m.m4 * m.m6, m.m1 * m.m6 - m.m0 * m.m7, m.m0 * m.m4 - m.m1 * m.m3⟩ t := by
    rw [← hd]; simp [invert]
  rw [this]
  ext <;> simp [mul, smul, ident] <;> first | ring1 | linear_combination h'

theorem mul_assoc (a b c : Matrix3 ℝ) : (a.mul b).mul c = a.mul (b.mul c) := by
  ext <;> simp [mul] <;> ring

theorem apply_mul (a b : Matrix3 ℝ) (v : Vector3 ℝ) : (a.mul b).apply v = a.apply (b.apply v) := by
  ext <;> simp [mul, apply] <;> ring

@[simp] theorem ident_apply (v : Vector3 ℝ) : (ident : Matrix3 ℝ).apply v = v := by
  ext <;> simp [ident, apply]

@[simp] theorem ident_mul (m : Matrix3 ℝ) : ident.mul m = m := by
  ext <;> simp [ident, mul]

@[simp] theorem mul_ident (m : Matrix3 ℝ) : m.mul ident = m := by
  ext <;> simp [ident, mul]

theorem det_mul (a b : Matrix3 ℝ) : (a.mul b).det = a.det * b.det := by
  simp [mul, det]; ring

theorem det_ident : (ident : Matrix3 ℝ).det = 1 := by simp [ident, det]

theorem det_invert_ne (m : Matrix3 ℝ) (h : m.det ≠ 0) : m.invert.det ≠ 0 := by
  intro h0
  have := congrArg det (mul_invert m h)
  rw [det_mul, h0, det_ident] at this
  simp at this

theorem apply_invert (m : Matrix3 ℝ) (h : m.det ≠ 0) (v : Vector3 ℝ) :
    m.apply (m.invert.apply v) = v := by rw [← apply_mul, mul_invert m h, ident_apply]

theorem invert_apply (m : Matrix3 ℝ) (h : m.det ≠ 0) (v : Vector3 ℝ) :
    m.invert.apply (m.apply v) = v := by rw [← apply_mul, invert_mul m h, ident_apply]

theorem invert_invert (m : Matrix3 ℝ) (h : m.det ≠ 0) : m.invert.invert = m := by
  have h2 := det_invert_ne m h
  calc m.invert.invert = (m.mul m.invert).mul m.invert.invert := by rw [mul_invert m h, ident_mul]
    _ = m := by rw [mul_assoc, mul_invert _ h2, mul_ident]

theorem eq_invert_of_mul {a b : Matrix3 ℝ} (h : a.mul b = ident) : b = a.invert := by
  have hd : a.det ≠ 0 := by
    intro h0
    have := congrArg det h
    rw [det_mul, h0, det_ident] at this; simp at this
  calc b = (a.invert.mul a).mul b := by rw [invert_mul a hd, ident_mul]
    _ = a.invert := by rw [mul_assoc, h, mul_ident]

end Matrix3
end CS
