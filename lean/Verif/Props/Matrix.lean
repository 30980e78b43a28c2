import Verif.Lemmas.LinAlg

/-!
# C01, C02, C03: `Matrix3`  (exact arithmetic)
-/

namespace CS
open Matrix Spec

/-! ## C01 -/

/-- C01: for a matrix with non-zero determinant `invert()` is Mathlib's inverse matrix, hence a
left and a right inverse. -/
theorem C01_invert (m : Matrix3 ℝ) (h : (toM m).det ≠ 0) :
    toM m.invert = (toM m)⁻¹ ∧ toM (m.mul m.invert) = 1 ∧ toM (m.invert.mul m) = 1 := by
  have h' := h
  rw [toM_det] at h'
  exact ⟨toM_invert m h, by rw [Matrix3.mul_invert m h', toM_ident],
    by rw [Matrix3.invert_mul m h', toM_ident]⟩

/-- C01: `invert()` is involutive, and its result is again invertible. -/
theorem C01_invert_invert (m : Matrix3 ℝ) (h : (toM m).det ≠ 0) :
    m.invert.invert = m ∧ (toM m.invert).det ≠ 0 := by
  rw [toM_det] at h
  exact ⟨Matrix3.invert_invert m h, by rw [toM_det]; exact Matrix3.det_invert_ne m h⟩

/-- C01: applying a matrix and then its inverse, or the reverse, returns the original vector. -/
theorem C01_apply (m : Matrix3 ℝ) (h : (toM m).det ≠ 0) (v : Vector3 ℝ) :
    m.invert.apply (m.apply v) = v ∧ m.apply (m.invert.apply v) = v := by
  rw [toM_det] at h
  exact ⟨Matrix3.invert_apply m h v, Matrix3.apply_invert m h v⟩

/-- A matrix meeting the hypothesis. -/
example : (toM ⟨2, 1, 0, 0, 3, 1, 1, 0, 1⟩).det ≠ 0 := by
  rw [toM_det]; norm_num [Matrix3.det_eq]

/-! ## C02 -/

/-- C02: the product is the matrix product, `apply` is matrix times column vector, `add`, scalar
`mul`, `det`, `transpose`, `diag`, and the default constructor mean what they say. -/
theorem C02_ops (a b : Matrix3 ℝ) (v : Vector3 ℝ) (s : ℝ) :
    toM (a.mul b) = toM a * toM b ∧ toV (a.apply v) = toM a *ᵥ toV v ∧
    toM (a.add b) = toM a + toM b ∧ toM (a.smul s) = s • toM a ∧
    a.det = (toM a).det ∧ toM a.transpose = (toM a)ᵀ ∧
    toM (.diag v) = Matrix.diagonal (toV v) ∧ toM .ident = 1 := by
  refine ⟨toM_mul a b, toV_apply a v, ?_, ?_, (toM_det a).symm, ?_, ?_, toM_ident⟩
  all_goals
    ext i j
    fin_cases i <;> fin_cases j <;>
      simp [toM, toV, Matrix3.add, Matrix3.smul, Matrix3.transpose, Matrix3.diag,
        mul_comm]

/-- C02: scalar `div` undoes scalar multiplication, for a non-zero divisor. -/
theorem C02_sdiv (a : Matrix3 ℝ) (s : ℝ) (h : s ≠ 0) : s • toM (a.sdiv s) = toM a := by
  ext i j
  fin_cases i <;> fin_cases j <;> simp [toM, Matrix3.smul, Matrix3.sdiv] <;> field_simp

/-- C02: `row(i)` is the `i`-th row, `col(j)` the `j`-th column, `m[k]` the entry at row `k/3`,
column `k%3`, and `fromArray` fills row by row. -/
theorem C02_row_col (m : Matrix3 ℝ) (i j : Fin 3) (p : Fin 9 → ℝ) :
    toV (m.row i) = (toM m) i ∧ toV (m.col j) = (fun k => toM m k j) ∧
    m.get ⟨j.val + i.val * 3, by omega⟩ = toM m i j ∧
    toM (.fromArray p) i j = p ⟨j.val + i.val * 3, by omega⟩ := by
  refine ⟨?_, ?_, ?_, ?_⟩
  · ext k; fin_cases i <;> fin_cases k <;> rfl
  · ext k; fin_cases j <;> fin_cases k <;> rfl
  · fin_cases i <;> fin_cases j <;> rfl
  · fin_cases i <;> fin_cases j <;> rfl

/-- C02: composition law, multiplicative determinant, transpose of a product. -/
theorem C02_laws (a b : Matrix3 ℝ) (v : Vector3 ℝ) :
    (a.mul b).apply v = a.apply (b.apply v) ∧ (a.mul b).det = a.det * b.det ∧
    (a.mul b).transpose = b.transpose.mul a.transpose ∧ (Matrix3.ident : Matrix3 ℝ).apply v = v ∧
    (Matrix3.ident : Matrix3 ℝ).mul a = a ∧ a.mul .ident = a := by
  refine ⟨Matrix3.apply_mul a b v, Matrix3.det_mul a b, ?_, Matrix3.ident_apply v,
    Matrix3.ident_mul a, Matrix3.mul_ident a⟩
  apply toM_injective
  rw [(C02_ops (a.mul b) a v 0).2.2.2.2.2.1, toM_mul, toM_mul, Matrix.transpose_mul,
    (C02_ops a a v 0).2.2.2.2.2.1, (C02_ops b a v 0).2.2.2.2.2.1]

/-- C02: `Vector3::dot` is the dot product. -/
theorem C02_dot (a b : Vector3 ℝ) : a.dot b = toV a ⬝ᵥ toV b := by
  simp [Vector3.dot, toV, dotProduct, Fin.sum_univ_three]

/-- C02: the arithmetic of `Tristimulus` is that of three-component vectors: addition, componentwise product, scaling,
division by a scalar, dot product and matrix application. -/
theorem C02_tristimulus (t u : Tristimulus ℝ) (m : Matrix3 ℝ) (s : ℝ) :
    triV (t.add u) = triV t + triV u ∧ triV (t.mul u) = triV t * triV u ∧ triV (t.scale s) = s • triV t ∧
    (s ≠ 0 → s • triV (t.sdiv s) = triV t) ∧ t.dot u = triV t ⬝ᵥ triV u ∧
    triV (t.apply m) = toM m *ᵥ triV t ∧ triV .zero = 0 ∧ triV (.splat s) = fun _ => s := by
  refine ⟨?_, ?_, ?_, ?_, ?_, ?_, ?_, ?_⟩
  · ext i; fin_cases i <;> rfl
  · ext i; fin_cases i <;> rfl
  · ext i; fin_cases i <;> simp [triV, Tristimulus.scale, mul_comm]
  · intro h
    ext i; fin_cases i <;> simp [triV, Tristimulus.sdiv, Tristimulus.scale] <;> field_simp
  · simp [Tristimulus.dot, triV, dotProduct, Fin.sum_univ_three]
  · exact toV_apply m t.vec3
  · ext i; fin_cases i <;> simp [triV, Tristimulus.zero]
  · ext i; fin_cases i <;> rfl

/-! ## C03 -/

/-- C03: `crosstalkInvert(r)` is the inverse of `crosstalk(r)` on both sides and equals
`crosstalk(r).invert()`. -/
theorem C03_crosstalk (r : ℝ) (h : r ≠ 1 / 3) :
    toM (Matrix3.crosstalk r) * toM (Matrix3.crosstalkInvert r) = 1 ∧
    toM (Matrix3.crosstalkInvert r) * toM (Matrix3.crosstalk r) = 1 ∧
    Matrix3.crosstalkInvert r = (Matrix3.crosstalk r).invert := by
  have h3 : 3 * r - 1 ≠ 0 := by
    intro h0; apply h; linarith
  have key : (Matrix3.crosstalk r).mul (Matrix3.crosstalkInvert r) = .ident := by
    have ht : (3 * r - 1) * (1 / (3 * r - 1)) = 1 := by field_simp
    generalize hq : 1 / (3 * r - 1) = t at ht
    have hci : Matrix3.crosstalkInvert r = ⟨(r - 1) * t, r * t, r * t, r * t, (r - 1) * t, r * t,
        r * t, r * t, (r - 1) * t⟩ := by
      rw [← hq]; simp [Matrix3.crosstalkInvert]
    rw [hci]
    ext <;> simp [Matrix3.mul, Matrix3.crosstalk, Matrix3.ident] <;>
      first
      | linear_combination ht
      | (linear_combination (0 : ℝ) * ht)
  have hinv := Matrix3.eq_invert_of_mul key
  have hm : toM (Matrix3.crosstalk r) * toM (Matrix3.crosstalkInvert r) = 1 := by
    rw [← toM_mul, key, toM_ident]
  exact ⟨hm, mul_eq_one_comm.mp hm, hinv⟩

/-- C03: at `r = 1/3` the crosstalk matrix is singular, so the hypothesis is necessary. -/
theorem C03_singular : (toM (Matrix3.crosstalk (1 / 3))).det = 0 := by
  norm_num [toM, Matrix3.crosstalk, Matrix.det_fin_three]

/-- C03: crosstalk leaves grey vectors alone and keeps the sum of the components; off the diagonal
every channel leaks the fraction `r`. -/
theorem C03_neutral (r k : ℝ) (v : Vector3 ℝ) :
    (Matrix3.crosstalk r).apply ⟨k, k, k⟩ = ⟨k, k, k⟩ ∧
    (∑ i, toV ((Matrix3.crosstalk r).apply v) i) = ∑ i, toV v i ∧
    ∀ i j, i ≠ j → toM (Matrix3.crosstalk r) i j = r := by
  refine ⟨?_, ?_, ?_⟩
  · ext <;> simp [Matrix3.crosstalk, Matrix3.apply] <;> ring
  · simp [Matrix3.crosstalk, Matrix3.apply, toV, Fin.sum_univ_three]; ring
  · intro i j hij
    fin_cases i <;> fin_cases j <;> first | exact absurd rfl hij | simp [toM, Matrix3.crosstalk]

example : (0.1 : ℝ) ≠ 1 / 3 := by norm_num

end CS
