import Verif.Lemmas.SvdSolve
import Verif.Props.Solver

/-!
# The singular value decomposition and the least-squares solver (C51, C62)

Both are statements about exact arithmetic.  The convergence test of the code, `fabs(x) + anorm == anorm`, only
absorbs nonzero values because of rounding; the theorems with a reading `E` of `==` cover every such test that
forgives at most a relative error `ε` (`NearEq ε E`), plain equality being the case `ε = 0`.
-/

namespace CS
open SOLVER Arith Libm Matrix

/-! ## C51: `svdcmp` -/

/-- The claim of C51 in full, for one matrix: the results of `svdcmp` factorise the input through an upper
bidiagonal matrix with diagonal `w`. -/
def SvdFactorises {m n : ℕ} (A : Mat ℝ m n) : Prop :=
  ∀ r u w v, svdcmp A vzero mzero = .ok (r, u, w, v) → ∃ e, of A = of u * bidiag w e * (of v)ᵀ

/-- The part of C51 that always holds: for every matrix with `m ≥ n` and every reading of the convergence test,
`u` has orthonormal columns and `v` is orthogonal (degenerate parts and unfinished iterations included). -/
theorem C51_orthogonal {ε : ℝ} {E : ℝ → ℝ → Bool} (hE : NearEq ε E) {m n : ℕ} (hmn : n ≤ m) (A : Mat ℝ m n) (w : Vec ℝ n)
    (v : Mat ℝ n n) :
    ∃ u w' v', @svdcmp ℝ (readEq E) m n A w v = .ok (1, u, w', v') ∧ (of u)ᵀ * of u = 1 ∧ (of v')ᵀ * of v' = 1 := by
  obtain ⟨⟨r, d⟩, h1, h2, h3, h4, -⟩ := svdcmpFull_read hE hmn A w v
  simp only at h2 h3 h4
  subst h2
  refine ⟨d.a, d.w, d.v, ?_, (orthC_iff _).1 h3, (orthC_iff _).1 h4⟩
  unfold svdcmp
  rw [h1]
  rfl

/-- C51 in exact arithmetic. -/
theorem C51_orthogonal_exact {m n : ℕ} (hmn : n ≤ m) (A : Mat ℝ m n) (w : Vec ℝ n) (v : Mat ℝ n n) :
    ∃ u w' v', svdcmp A w v = .ok (1, u, w', v') ∧ (of u)ᵀ * of u = 1 ∧ (of v')ᵀ * of v' = 1 :=
  C51_orthogonal NearEq.exact hmn A w v

/-- C51 for matrices of full column rank: whatever the tolerance of the convergence test, if the iteration leaves a
residual superdiagonal of at most `η`, the results are an exact singular value factorisation of a matrix close to
`A`.  `σ` is a lower bound of `|Ax|/|x|`.  Missing: rank-deficient matrices, for which the claim is false
(`C51_rank_deficient_false`), and a bound on `η` from the 30 rounds the code allows itself. -/
theorem C51_backward_error_partial {ε : ℝ} {E : ℝ → ℝ → Bool} (hE : NearEq ε E) {m n : ℕ} (hmn : n ≤ m) (A : Mat ℝ m n)
    {σ η : ℝ} (hσ : ∀ x : Fin n → ℝ, σ * euclid x ≤ euclid (of A *ᵥ x)) (hη : 0 ≤ η)
    (hgap : n * (60 * ε * frob (of A) + η) + 2 * ε * frob (of A) < σ) {r : ℤ} {d : Dg ℝ m n} (w : Vec ℝ n) (v : Mat ℝ n n)
    (hrun : @svdcmpFull ℝ (readEq E) m n A w v = .ok (r, d)) (hres : ∀ t, |d.rv1 t| ≤ η) :
    r = 1 ∧ (of d.a)ᵀ * of d.a = 1 ∧ (of d.v)ᵀ * of d.v = 1 ∧ ∃ D : Matrix (Fin m) (Fin n) ℝ,
      frob D ≤ n * (60 * ε * frob (of A) + η) ∧ of A + D = of d.a * diagonal d.w * (of d.v)ᵀ := by
  obtain ⟨⟨r', d'⟩, h1, h2, h3, h4, h5, h6⟩ := svdcmpFull_read hE hmn A w v
  rw [hrun] at h1
  cases h1
  refine ⟨h2, (orthC_iff _).1 h3, (orthC_iff _).1 h4, ?_⟩
  obtain ⟨D, h7, h8⟩ := (h6 σ η hσ hη hres hgap).matrix h4 h5
  refine ⟨D, h7, h8.trans ?_⟩
  have : bidiag d.w (fun t : Fin n => if t.val < 0 then d.rv1 t else 0) = diagonal d.w := by
    ext i j
    simp only [bidiag, of_apply, Nat.not_lt_zero, if_false, ite_self, diagonal_apply, Fin.ext_iff]
    by_cases h : i.val = j.val
    · rw [if_pos h.symm, if_pos h, Fin.ext h]
    · rw [if_neg (fun h' => h h'.symm), if_neg h]
  rw [this]

/-- An injective matrix stretches every vector by a positive factor. -/
theorem exists_lower_bound {m n : ℕ} (A : Matrix (Fin m) (Fin n) ℝ) (h : ∀ x, A *ᵥ x = 0 → x = 0) :
    ∃ σ, 0 < σ ∧ ∀ x : Fin n → ℝ, σ * euclid x ≤ euclid (A *ᵥ x) := by
  obtain ⟨g, hg⟩ := LinearMap.exists_leftInverse_of_injective (Matrix.toLin' A)
    (LinearMap.ker_eq_bot'.2 fun x hx => h x (by simpa using hx))
  set L := LinearMap.toMatrix' g with hL
  have hLA : ∀ x, L *ᵥ (A *ᵥ x) = x := by
    intro x
    have := LinearMap.congr_fun hg x
    simp only [LinearMap.comp_apply, Matrix.toLin'_apply, LinearMap.id_apply] at this
    rw [hL, LinearMap.toMatrix'_mulVec]
    exact this
  have hpos : 0 < frob L + 1 := by linarith [frob_nonneg L]
  refine ⟨(frob L + 1)⁻¹, inv_pos.2 hpos, fun x => ?_⟩
  rw [inv_mul_le_iff₀ hpos]
  calc euclid x = euclid (L *ᵥ (A *ᵥ x)) := by rw [hLA]
    _ ≤ frob L * euclid (A *ᵥ x) := euclid_mulVec_le _ _
    _ ≤ (frob L + 1) * euclid (A *ᵥ x) := by nlinarith [euclid_nonneg (A *ᵥ x)]

/-- C51 in exact arithmetic for matrices of full column rank: once the residual superdiagonal is zero, the result
is the singular value factorisation of `A`.  Missing: rank-deficient matrices, for which the claim is false
(`C51_rank_deficient_false`). -/
theorem C51_full_rank_partial {m n : ℕ} (hmn : n ≤ m) (A : Mat ℝ m n) (hA : ∀ x, of A *ᵥ x = 0 → x = 0) {r : ℤ} {d : Dg ℝ m n}
    (w : Vec ℝ n) (v : Mat ℝ n n) (hrun : svdcmpFull A w v = .ok (r, d)) (hres : ∀ t, d.rv1 t = 0) :
    r = 1 ∧ (of d.a)ᵀ * of d.a = 1 ∧ (of d.v)ᵀ * of d.v = 1 ∧ of A = of d.a * diagonal d.w * (of d.v)ᵀ := by
  obtain ⟨σ, hσ, hb⟩ := exists_lower_bound (of A) hA
  obtain ⟨h1, h2, h3, D, h4, h5⟩ := C51_backward_error_partial NearEq.exact hmn A (σ := σ) (η := 0) hb le_rfl
    (by simpa using hσ) w v hrun (fun t => by rw [hres t, abs_zero])
  refine ⟨h1, h2, h3, ?_⟩
  have hD : D = 0 := by
    have h0 : frob D = 0 := le_antisymm (by simpa using h4) (frob_nonneg D)
    have h6 := frob_sq D
    rw [h0] at h6
    have h7 : ∑ i, ∑ j, D i j ^ 2 = 0 := by rw [← h6]; ring
    ext i j
    have h8 := (Finset.sum_eq_zero_iff_of_nonneg fun i _ => Finset.sum_nonneg fun j _ => sq_nonneg _).1 h7 i (Finset.mem_univ _)
    exact pow_eq_zero_iff two_ne_zero |>.1
      ((Finset.sum_eq_zero_iff_of_nonneg fun j _ => sq_nonneg _).1 h8 j (Finset.mem_univ _))
  rw [← h5, hD, add_zero]

/-- C51 for matrices with one or two columns, of any rank, in exact arithmetic and without any assumption on
convergence: the singular value decomposition with `w ≥ 0`. -/
theorem C51_two_columns {m n : ℕ} (hn : n = 1 ∨ n = 2) (hmn : n ≤ m) (A : Mat ℝ m n) (w : Vec ℝ n) (v : Mat ℝ n n) :
    ∃ u w' v', svdcmp A w v = .ok (1, u, w', v') ∧ (of u)ᵀ * of u = 1 ∧ (of v')ᵀ * of v' = 1 ∧ (∀ t, 0 ≤ w' t) ∧
      of A = of u * diagonal w' * (of v')ᵀ := by
  have key : ∃ d, svdcmpFull A w v = .ok (1, d) ∧ OrthC d.a ∧ OrthC d.v ∧ (∀ t, 0 ≤ d.w t) ∧
      of A = of d.a * diagonal d.w * (of d.v)ᵀ := by
    rcases hn with rfl | rfl
    · exact svdcmp_one hmn A w v
    · exact svdcmp_two hmn A w v
  obtain ⟨d, h1, h2, h3, h4, h5⟩ := key
  refine ⟨d.a, d.w, d.v, ?_, (orthC_iff _).1 h2, (orthC_iff _).1 h3, h4, h5⟩
  unfold svdcmp
  rw [h1]
  rfl

/-- C51 for diagonal matrices of any size and rank: the singular value decomposition, with nothing left on the
superdiagonal. -/
theorem C51_diagonal {m n : ℕ} (hmn : n ≤ m) (A : Mat ℝ m n) (hA : ∀ r c, r.val ≠ c.val → A r c = 0) (w : Vec ℝ n)
    (v : Mat ℝ n n) :
    ∃ d, svdcmpFull A w v = .ok (1, d) ∧ (of d.a)ᵀ * of d.a = 1 ∧ (of d.v)ᵀ * of d.v = 1 ∧ (∀ t, 0 ≤ d.w t) ∧
      (∀ t, d.rv1 t = 0) ∧ of A = of d.a * diagonal d.w * (of d.v)ᵀ := by
  obtain ⟨d, h1, h2, h3, h4, h5, h6⟩ := svdcmp_diagonal hmn A hA w v
  exact ⟨d, h1, (orthC_iff _).1 h2, (orthC_iff _).1 h3, h4, h5, h6⟩

/-- C51 for matrices of any size with orthogonal nonzero columns: the singular value decomposition, with nothing
left on the superdiagonal. -/
theorem C51_orthogonal_columns {m n : ℕ} (hmn : n ≤ m) (A : Mat ℝ m n) (hA : ∀ c c', c ≠ c' → ∑ k, A k c * A k c' = 0)
    (hA' : ∀ c, ∃ k, A k c ≠ 0) (w : Vec ℝ n) (v : Mat ℝ n n) :
    ∃ d, svdcmpFull A w v = .ok (1, d) ∧ (of d.a)ᵀ * of d.a = 1 ∧ (of d.v)ᵀ * of d.v = 1 ∧ (∀ t, 0 ≤ d.w t) ∧
      (∀ t, d.rv1 t = 0) ∧ of A = of d.a * diagonal d.w * (of d.v)ᵀ := by
  obtain ⟨d, h1, h2, h3, h4, h5, h6⟩ := svdcmp_orthogonal hmn A hA hA' w v
  exact ⟨d, h1, (orthC_iff _).1 h2, (orthC_iff _).1 h3, h4, h5, h6⟩

/-- The hypotheses are met by a 3x2 matrix that is not diagonal. -/
example : (∀ c c' : Fin 2, c ≠ c' → ∑ k, (![![1, 1], ![2, -1], ![1, 1]] : Mat ℝ 3 2) k c * ![![1, 1], ![2, -1], ![1, 1]] k c' = 0) ∧
    ∀ c, ∃ k, (![![1, 1], ![2, -1], ![1, 1]] : Mat ℝ 3 2) k c ≠ 0 := by
  refine ⟨fun c c' h => ?_, fun c => ⟨0, ?_⟩⟩
  · fin_cases c <;> fin_cases c' <;> simp at h ⊢ <;> simp [Fin.sum_univ_three] <;> norm_num
  · fin_cases c <;> simp

/-- C51 is false for rank-deficient matrices: the cancellation of `rv1[l]` (hpp:7627-7651) omits the update
`rv1[i] = c * rv1[i]`.  For this 3x3 matrix of rank 2 the sum of the squares of the returned values is 9/2, while
the sum of the squares of the entries is 4. -/
theorem C51_rank_deficient_false :
    ∃ u w v, svdcmp (![![0, 1, 0], ![0, 1, 1], ![0, 0, 1]] : Mat ℝ 3 3) vzero mzero = .ok (1, u, w, v) ∧
      ∑ t, w t ^ 2 = 9 / 2 ∧ ¬ SvdFactorises ![![0, 1, 0], ![0, 1, 1], ![0, 0, 1]] := by
  obtain ⟨d, h1, h2⟩ := badA_run vzero mzero
  have h3 : svdcmp badA vzero mzero = .ok (1, d.a, d.w, d.v) := by
    unfold svdcmp
    rw [h1]
    rfl
  refine ⟨d.a, d.w, d.v, h3, by rw [Fin.sum_univ_three, h2], fun hf => ?_⟩
  obtain ⟨e, he⟩ := hf _ _ _ _ h3
  obtain ⟨⟨r', d'⟩, g1, -, g3, g4, -⟩ := svdcmpFull_read NearEq.exact (le_refl 3) badA vzero mzero
  have g1' : svdcmpFull badA vzero mzero = .ok (r', d') := g1
  rw [h1] at g1'
  cases g1'
  exact badA_not d.w e ((orthC_iff _).1 g3) ((orthC_iff _).1 g4) h2 he

/-- C51 as stated is false. -/
theorem C51_false : ¬ ∀ (m n : ℕ) (A : Mat ℝ m n), n ≤ m → SvdFactorises A := fun h => by
  obtain ⟨_, _, _, _, _, h1⟩ := C51_rank_deficient_false
  exact h1 (h 3 3 _ le_rfl)

/-- The hypotheses of `C51_full_rank_partial` are met by a 4x3 matrix. -/
example : ∃ r d, svdcmpFull (fun i j => if i.val = j.val then 2 else 0 : Mat ℝ 4 3) vzero mzero = .ok (r, d) ∧
    (∀ t, d.rv1 t = 0) ∧ ∀ x, of (fun i j => if i.val = j.val then 2 else 0 : Mat ℝ 4 3) *ᵥ x = 0 → x = 0 := by
  obtain ⟨d, h1, -, -, -, h5, -⟩ := C51_diagonal (by decide : 3 ≤ 4) (fun i j => if i.val = j.val then 2 else 0 : Mat ℝ 4 3)
    (fun r c h => if_neg h) vzero mzero
  refine ⟨1, d, h1, h5, fun x hx => funext fun j => ?_⟩
  have := congrFun hx j.castSucc
  have h2 : (of (fun i j => if i.val = j.val then 2 else 0 : Mat ℝ 4 3) *ᵥ x) j.castSucc = 2 * x j := by
    fin_cases j <;> simp [mulVec, dotProduct, Fin.sum_univ_three]
  rw [h2] at this
  simpa using this

/-- The hypothesis `NearEq` is met with the relative error of binary32. -/
example : NearEq (2⁻¹ ^ 24 : ℝ) (fun x y => @decide (|x - y| ≤ (2⁻¹ ^ 24 : ℝ) * |y|) (Classical.propDecidable _)) := by
  have := NearEq.relative (ε := (2⁻¹ ^ 24 : ℝ)) (by positivity)
  convert this

/-! ## C62: `solve` -/

/-- What `solve` computes once `svdcmp` has produced an exact factorisation with `w ≥ 0`. -/
theorem solve_lsq {ε : ℝ} {E : ℝ → ℝ → Bool} (hE : NearEq ε E) {m n : ℕ} (A : Mat ℝ m n) (b : Vec ℝ m) (x0 : Vec ℝ n) {TOL : ℝ}
    (hT : 0 ≤ TOL) {d : Dg ℝ m n} (hrun : @svdcmpFull ℝ (readEq E) m n A vzero mzero = .ok (1, d))
    (hu : (of d.a)ᵀ * of d.a = 1) (hv : (of d.v)ᵀ * of d.v = 1) (hw : ∀ t, 0 ≤ d.w t) :
    ∃ (x : Vec ℝ n) (A' : Matrix (Fin m) (Fin n) ℝ), @SOLVER.solve ℝ (readEq E) m n n m A b x0 TOL = .ok (0, x) ∧
      MinNormLsq A' b x ∧
      frob (A' - of d.a * diagonal d.w * (of d.v)ᵀ) ^ 2 ≤ n * (TOL * frob (of d.a * diagonal d.w * (of d.v)ᵀ)) ^ 2 ∧
      ((∀ t, TOL * frob (of d.a * diagonal d.w * (of d.v)ᵀ) ≤ d.w t) → A' = of d.a * diagonal d.w * (of d.v)ᵀ) := by
  obtain ⟨mx, h1, h2, h3, h4⟩ := solve_after hE A b x0 TOL hrun
  have hmx : mx ≤ frob (of d.a * diagonal d.w * (of d.v)ᵀ) := by
    rcases h3 with h | ⟨j, h⟩
    · rw [h]; exact frob_nonneg _
    · rw [h]; exact sv_le hu hv d.w j
  obtain ⟨x, h5, h6⟩ := svbksb_lsq d.a (fun j => if d.w j < TOL * mx then 0 else d.w j) d.v b x0
    (C50_least_squares _ _ _ b x0 hu hv)
  refine ⟨x, _, ?_, h6, ?_, fun hc => ?_⟩
  · rw [h4, h5]
    rfl
  · refine (clamp_close hu hv d.w hw (TOL * mx) (mul_nonneg hT h1)).trans ?_
    have : TOL * mx ≤ TOL * frob (of d.a * diagonal d.w * (of d.v)ᵀ) := mul_le_mul_of_nonneg_left hmx hT
    have h7 : (TOL * mx) ^ 2 ≤ (TOL * frob (of d.a * diagonal d.w * (of d.v)ᵀ)) ^ 2 :=
      pow_le_pow_left₀ (mul_nonneg hT h1) this 2
    exact mul_le_mul_of_nonneg_left h7 (Nat.cast_nonneg n)
  · have : (fun j => if d.w j < TOL * mx then 0 else d.w j) = d.w := funext fun j => if_neg (not_lt.2
      ((mul_le_mul_of_nonneg_left hmx hT).trans (hc j)))
    rw [this]

/-- A bound below for `|Ax|/|x|` is a bound below for the singular values. -/
theorem sv_ge {m n : ℕ} {A U : Matrix (Fin m) (Fin n) ℝ} {V : Matrix (Fin n) (Fin n) ℝ} {w : Fin n → ℝ} (hU : Uᵀ * U = 1)
    (hV : Vᵀ * V = 1) (hA : A = U * diagonal w * Vᵀ) {σ : ℝ} (hσ : ∀ x : Fin n → ℝ, σ * euclid x ≤ euclid (A *ᵥ x)) (t : Fin n)
    (hw : 0 ≤ w t) : σ ≤ w t := by
  have h1 : A *ᵥ (V *ᵥ Pi.single t 1) = U *ᵥ (w t • Pi.single t 1) := by
    rw [hA, mulVec_mulVec, Matrix.mul_assoc, hV, Matrix.mul_one, ← mulVec_mulVec, diagonal_mulVec_single, mul_one]
    congr 1
    ext i
    by_cases h : i = t
    · subst h; simp
    · simp [Pi.single_eq_of_ne h]
  have h2 := hσ (V *ᵥ Pi.single t 1)
  have h3 : euclid (Pi.single t (1 : ℝ) : Fin n → ℝ) = 1 := euclid_of_dot (by simp)
  rw [h1, euclid_orth hU, euclid_smul, euclid_orth hV, h3, mul_one, mul_one, abs_of_nonneg hw] at h2
  exact h2

/-- C62 for systems with one or two unknowns, of any rank: `solve` returns status 0 and the shortest least-squares
solution of `A'x = b`, where `A'` is `A` without the singular values below `TOL * wmax`; if `|Ax| ≥ TOL |A| |x|`
for all `x`, that is the least-squares solution of `Ax = b` itself. -/
theorem C62_two_columns {m n : ℕ} (hn : n = 1 ∨ n = 2) (hmn : n ≤ m) (A : Mat ℝ m n) (b : Vec ℝ m) (x0 : Vec ℝ n) {TOL : ℝ}
    (hT : 0 ≤ TOL) :
    ∃ (x : Vec ℝ n) (A' : Matrix (Fin m) (Fin n) ℝ), SOLVER.solve A b x0 TOL = .ok (0, x) ∧ MinNormLsq A' b x ∧
      frob (A' - of A) ^ 2 ≤ n * (TOL * frob (of A)) ^ 2 ∧
      ((∀ y : Fin n → ℝ, TOL * frob (of A) * euclid y ≤ euclid (of A *ᵥ y)) → A' = of A) := by
  have key : ∃ d, svdcmpFull A vzero mzero = .ok (1, d) ∧ OrthC d.a ∧ OrthC d.v ∧ (∀ t, 0 ≤ d.w t) ∧
      of A = of d.a * diagonal d.w * (of d.v)ᵀ := by
    rcases hn with rfl | rfl
    · exact svdcmp_one hmn A _ _
    · exact svdcmp_two hmn A _ _
  obtain ⟨d, h1, h2, h3, h4, h5⟩ := key
  have hu := (orthC_iff _).1 h2
  have hv := (orthC_iff _).1 h3
  obtain ⟨x, A', g1, g2, g3, g4⟩ := solve_lsq NearEq.exact A b x0 hT h1 hu hv h4
  rw [← h5] at g3 g4
  exact ⟨x, A', g1, g2, g3, fun hc => g4 fun t => sv_ge hu hv h5 hc t (h4 t)⟩

/-- C62 for any number of unknowns and full column rank: if the decomposition has converged (`w ≥ 0`, residual
superdiagonal at most `η`), `solve` returns the least-squares solution of a system within
`κ = n (60 ε |A| + η)` of the given one, provided the smallest singular value `σ` of `A` is above both `κ` and the
clamping threshold.  Missing: rank-deficient matrices (see `C51_rank_deficient_false`) and unfinished iterations. -/
theorem C62_solve_partial {ε : ℝ} {E : ℝ → ℝ → Bool} (hE : NearEq ε E) {m n : ℕ} (hmn : n ≤ m) (A : Mat ℝ m n) (b : Vec ℝ m)
    (x0 : Vec ℝ n) {σ η κ TOL : ℝ} (hT : 0 ≤ TOL) (hσ : ∀ x : Fin n → ℝ, σ * euclid x ≤ euclid (of A *ᵥ x)) (hη : 0 ≤ η)
    (hκ : κ = n * (60 * ε * frob (of A) + η)) (hgap : κ + 2 * ε * frob (of A) < σ)
    (hclamp : TOL * (frob (of A) + κ) ≤ σ - κ) {r : ℤ} {d : Dg ℝ m n}
    (hrun : @svdcmpFull ℝ (readEq E) m n A vzero mzero = .ok (r, d)) (hres : ∀ t, |d.rv1 t| ≤ η) (hw : ∀ t, 0 ≤ d.w t) :
    ∃ (x : Vec ℝ n) (D : Matrix (Fin m) (Fin n) ℝ), @SOLVER.solve ℝ (readEq E) m n n m A b x0 TOL = .ok (0, x) ∧
      frob D ≤ κ ∧ MinNormLsq (of A + D) b x := by
  subst hκ
  obtain ⟨h1, hu, hv, D, h2, h3⟩ := C51_backward_error_partial hE hmn A hσ hη hgap vzero mzero hrun hres
  subst h1
  obtain ⟨x, A', g1, g2, -, g4⟩ := solve_lsq hE A b x0 hT hrun hu hv hw
  rw [← h3] at g4
  have hA' := g4 fun t => by
    refine (mul_le_mul_of_nonneg_left ((frob_add_le _ _).trans (add_le_add le_rfl h2)) hT).trans (hclamp.trans ?_)
    refine sv_ge hu hv h3 (fun y => ?_) t (hw t)
    have e1 := euclid_add_le ((of A + D) *ᵥ y) (-(D *ᵥ y))
    have e2 : (of A + D) *ᵥ y + -(D *ᵥ y) = of A *ᵥ y := by rw [Matrix.add_mulVec]; abel
    have e3 : euclid (-(D *ᵥ y)) = euclid (D *ᵥ y) := by
      have := euclid_smul (-1) (D *ᵥ y)
      simpa using this
    have e4 := euclid_mulVec_le D y
    have e5 : frob D * euclid y ≤ n * (60 * ε * frob (of A) + η) * euclid y :=
      mul_le_mul_of_nonneg_right h2 (euclid_nonneg _)
    rw [e2, e3] at e1
    have e6 := hσ y
    rw [sub_mul]
    linarith
  exact ⟨x, D, g1, h2, hA' ▸ g2⟩

/-- C62 for diagonal systems of any size and rank, unconditionally. -/
theorem C62_diagonal {m n : ℕ} (hmn : n ≤ m) (A : Mat ℝ m n) (hA : ∀ r c, r.val ≠ c.val → A r c = 0) (b : Vec ℝ m)
    (x0 : Vec ℝ n) {TOL : ℝ} (hT : 0 ≤ TOL) :
    ∃ (x : Vec ℝ n) (A' : Matrix (Fin m) (Fin n) ℝ), SOLVER.solve A b x0 TOL = .ok (0, x) ∧ MinNormLsq A' b x ∧
      frob (A' - of A) ^ 2 ≤ n * (TOL * frob (of A)) ^ 2 := by
  obtain ⟨d, h1, h2, h3, h4, -, h6⟩ := C51_diagonal hmn A hA vzero mzero
  obtain ⟨x, A', g1, g2, g3, -⟩ := solve_lsq NearEq.exact A b x0 hT h1 h2 h3 h4
  rw [← h6] at g3
  exact ⟨x, A', g1, g2, g3⟩

/-- The hypotheses of `C62_solve_partial` are met: the 4x3 matrix with 2 on the diagonal, the default tolerance. -/
example (b : Vec ℝ 4) : ∃ (x : Vec ℝ 3) (D : Matrix (Fin 4) (Fin 3) ℝ),
    SOLVER.solve (fun i j => if i.val = j.val then 2 else 0 : Mat ℝ 4 3) b vzero 0.00001 = .ok (0, x) ∧ frob D ≤ 0 ∧
      MinNormLsq (of (fun i j => if i.val = j.val then 2 else 0 : Mat ℝ 4 3) + D) b x := by
  obtain ⟨d, h1, h2, h3, h4, h5, h6⟩ := C51_diagonal (by decide : 3 ≤ 4) (fun i j => if i.val = j.val then 2 else 0 : Mat ℝ 4 3)
    (fun r c h => if_neg h) vzero mzero
  have hf : frob (of (fun i j => if i.val = j.val then 2 else 0 : Mat ℝ 4 3)) ≤ 4 := by
    refine le_of_sq_le_sq' ?_ (by norm_num)
    rw [frob_sq]
    simp [Fin.sum_univ_four, Fin.sum_univ_three]
    norm_num
  refine C62_solve_partial NearEq.exact (by decide) _ b vzero (σ := 2) (η := 0) (κ := 0) (by norm_num) (fun x => ?_) le_rfl
    (by simp) (by norm_num) (by norm_num at hf ⊢; linarith) h1 (fun t => by rw [h5, abs_zero]) h4
  refine le_of_sq_le_sq' ?_ (euclid_nonneg _)
  rw [mul_pow, euclid_sq, euclid_sq]
  simp [Fin.sum_univ_four, Fin.sum_univ_three, mulVec, dotProduct]
  nlinarith

/-- C62 for the colour corrector: if the decomposition of its system has converged with nothing left on the
superdiagonal and all values above the threshold, the returned matrix has the least total squared error of all
3x3 matrices.  Missing: as in `C62_solve_partial`. -/
theorem C62_corrector_partial (patch target : List (Tristimulus ℝ)) (h : patch.length ≤ target.length)
    (hs : ((patch.length + 1) * 3 : ℕ) ≤ intMax) (h2 : 2 ≤ patch.length) {A b} (hsys : Corrector.system patch target = .ok (A, b))
    {σ : ℝ} (hpos : 0 < σ) (hσ : ∀ x : Fin 9 → ℝ, σ * euclid x ≤ euclid (of A *ᵥ x)) (hclamp : 0.00001 * frob (of A) ≤ σ)
    {r : ℤ} {d} (hrun : svdcmpFull A vzero mzero = .ok (r, d)) (hres : ∀ t, d.rv1 t = 0) (hw : ∀ t, 0 ≤ d.w t) :
    ∃ M, Corrector.solve patch target = .ok M ∧
      ∀ N, Corrector.totalError patch target h (Spec.toM M) ≤ Corrector.totalError patch target h N := by
  obtain ⟨x, D, h3, h4, h5⟩ := C62_solve_partial NearEq.exact (by omega) A b (vzero : Vec ℝ 9) (σ := σ) (η := 0) (κ := 0)
    (TOL := lit 0.00001) (by norm_num) hσ le_rfl (by simp) (by simpa using hpos) (by simpa using hclamp) hrun
    (fun t => by rw [hres, abs_zero]) hw
  have hD : of A + D = of A := by
    have h0 : frob D = 0 := le_antisymm h4 (frob_nonneg D)
    have h6 := frob_sq D
    rw [h0] at h6
    have h7 : ∑ i, ∑ j, D i j ^ 2 = 0 := by rw [← h6]; ring
    have : D = 0 := by
      ext i j
      have h8 := (Finset.sum_eq_zero_iff_of_nonneg fun i _ => Finset.sum_nonneg fun j _ => sq_nonneg _).1 h7 i (Finset.mem_univ _)
      exact pow_eq_zero_iff two_ne_zero |>.1
        ((Finset.sum_eq_zero_iff_of_nonneg fun j _ => sq_nonneg _).1 h8 j (Finset.mem_univ _))
    rw [this, add_zero]
  rw [hD] at h5
  have h3' : SOLVER.solve A b (vzero : Vec ℝ 9) = .ok (0, x) := h3
  refine ⟨Matrix3.fromArray x, ?_, fun N => Corrector.C53_minimiser patch target h x A b hsys (fun y => ?_) N⟩
  · unfold Corrector.solve
    rw [if_neg (not_lt.2 hs), hsys]
    simp only [bind, Except.bind]
    rw [h3']
  · have := (h5 y).1
    have := pow_le_pow_left₀ (euclid_nonneg _) this 2
    rwa [euclid_sq, euclid_sq] at this

/-- C62 for the colour corrector, without assumptions on the decomposition: when the three components of the patches
are uncorrelated and none of them is smaller than the threshold, the returned matrix has the least total squared
error of all 3x3 matrices. -/
theorem C62_uncorrelated_patches (patch target : List (Tristimulus ℝ)) (h : patch.length ≤ target.length)
    (hs : ((patch.length + 1) * 3 : ℕ) ≤ intMax) (h2 : 2 ≤ patch.length)
    (hcor : ∀ a b : Fin 3, a ≠ b → ∑ k : Fin patch.length, Spec.triV patch[k] a * Spec.triV patch[k] b = 0)
    (hlarge : ∀ a : Fin 3, 0.0000000001 * (3 * ∑ b : Fin 3, ∑ k : Fin patch.length, Spec.triV patch[k] b ^ 2) ≤
      ∑ k : Fin patch.length, Spec.triV patch[k] a ^ 2)
    (hpos : ∀ a : Fin 3, 0 < ∑ k : Fin patch.length, Spec.triV patch[k] a ^ 2) :
    ∃ M, Corrector.solve patch target = .ok M ∧
      ∀ N, Corrector.totalError patch target h (Spec.toM M) ≤ Corrector.totalError patch target h N := by
  obtain ⟨⟨A, b⟩, hsys, e1, e2⟩ := Corrector.system_ok patch target h
  dsimp only at e1 e2
  -- the inner products of the columns
  have hdot : ∀ c c' : Fin 9, ∑ r, A r c * A r c' = if c.val / 3 = c'.val / 3 then
      ∑ k : Fin patch.length, Spec.triV patch[k] ⟨c.val % 3, by omega⟩ * Spec.triV patch[k] ⟨c'.val % 3, by omega⟩ else 0 := by
    intro c c'
    rw [← Equiv.sum_comp finProdFinEquiv, Fintype.sum_prod_type, Fin.sum_univ_castSucc]
    have hz : ∑ j : Fin 3, A (finProdFinEquiv (Fin.last patch.length, j)) c * A (finProdFinEquiv (Fin.last patch.length, j)) c' = 0 := by
      refine Finset.sum_eq_zero fun j _ => ?_
      rw [(e2 (finProdFinEquiv (Fin.last patch.length, j)) (by simp [finProdFinEquiv])).1 c]
      simp
    rw [hz, add_zero]
    have hidx : ∀ (i : Fin patch.length) (k : Fin 3), finProdFinEquiv (i.castSucc, k) =
        ⟨3 * i.val + k.val, by have := i.2; have := k.2; omega⟩ := by
      intro i k
      apply Fin.ext; simp [finProdFinEquiv]; omega
    have hcomp : ∀ (p : Tristimulus ℝ) (j : ℕ) (hj : j % 3 < 3), Corrector.comp p (j % 3) = Spec.triV p ⟨j % 3, hj⟩ := by
      intro p j hj
      generalize j % 3 = q at hj
      interval_cases q <;> rfl
    have hin : ∀ i : Fin patch.length, ∑ k : Fin 3, A (finProdFinEquiv (i.castSucc, k)) c * A (finProdFinEquiv (i.castSucc, k)) c' =
        if c.val / 3 = c'.val / 3 then Spec.triV patch[i] ⟨c.val % 3, by omega⟩ * Spec.triV patch[i] ⟨c'.val % 3, by omega⟩ else 0 := by
      intro i
      have hterm : ∀ k : Fin 3, A (finProdFinEquiv (i.castSucc, k)) c * A (finProdFinEquiv (i.castSucc, k)) c' =
          if k = ⟨c.val / 3, by omega⟩ then (if c.val / 3 = c'.val / 3 then
            Spec.triV patch[i] ⟨c.val % 3, by omega⟩ * Spec.triV patch[i] ⟨c'.val % 3, by omega⟩ else 0) else 0 := by
        intro k
        rw [hidx, (e1 i.val i.2 k c).1, (e1 i.val i.2 k c').1, hcomp, hcomp]
        by_cases hk : c.val / 3 = k.val
        · rw [if_pos hk, if_pos (Fin.ext hk.symm)]
          by_cases hk' : c'.val / 3 = k.val
          · rw [if_pos hk', if_pos (hk.trans hk'.symm)]; rfl
          · rw [if_neg hk', if_neg (fun h5 => hk' (by omega))]; simp
        · rw [if_neg hk, lit_real, Rat.cast_zero, zero_mul, if_neg (fun h5 : k = _ => hk (by rw [h5]))]
      rw [Finset.sum_congr rfl fun k _ => hterm k, Finset.sum_ite_eq' Finset.univ]
      simp
    rw [Finset.sum_congr rfl fun i _ => hin i]
    split_ifs
    · rfl
    · simp
  have hself : ∀ c : Fin 9, ∑ r, A r c * A r c = ∑ k : Fin patch.length, Spec.triV patch[k] ⟨c.val % 3, by omega⟩ ^ 2 := by
    intro c
    rw [hdot, if_pos rfl]
    exact Finset.sum_congr rfl fun k _ => (sq _).symm
  have hoff : ∀ c c' : Fin 9, c ≠ c' → ∑ r, A r c * A r c' = 0 := by
    intro c c' hc
    rw [hdot]
    split_ifs with h3
    · refine hcor _ _ fun h4 => hc (Fin.ext ?_)
      have := congrArg Fin.val h4
      simp only at this
      omega
    · rfl
  have hne : ∀ c : Fin 9, ∃ k, A k c ≠ 0 := by
    intro c
    by_contra hc
    push Not at hc
    have h3 := hself c
    rw [Finset.sum_eq_zero fun r _ => by rw [hc r, mul_zero]] at h3
    exact absurd h3 (hpos _).ne
  obtain ⟨d, g1, g2, g3, g4, g5, g6⟩ := C51_orthogonal_columns (by omega) A hoff hne vzero mzero
  -- the norm and the stretching
  have hfrob : frob (of A) ^ 2 = 3 * ∑ b : Fin 3, ∑ k : Fin patch.length, Spec.triV patch[k] b ^ 2 := by
    rw [frob_sq, Finset.sum_comm]
    have : ∀ c : Fin 9, ∑ r, (of A) r c ^ 2 = ∑ k : Fin patch.length, Spec.triV patch[k] ⟨c.val % 3, by omega⟩ ^ 2 := fun c => by
      rw [← hself]
      exact Finset.sum_congr rfl fun r _ => sq _
    rw [Finset.sum_congr rfl fun c _ => this c]
    rw [Fin.sum_univ_three]
    simp only [Fin.sum_univ_succ (n := 8), Fin.sum_univ_eight]
    simp [Fin.succ]
    ring
  have hstretch : ∀ x : Fin 9 → ℝ, euclid (of A *ᵥ x) ^ 2 = ∑ c, x c ^ 2 * ∑ r, A r c * A r c := by
    intro x
    rw [euclid_sq]
    have h3 : ∀ r, (of A *ᵥ x) r ^ 2 = ∑ c, ∑ c', x c * x c' * (A r c * A r c') := fun r => by
      show (∑ c, A r c * x c) ^ 2 = _
      rw [sq, Finset.sum_mul_sum]
      exact Finset.sum_congr rfl fun c _ => Finset.sum_congr rfl fun c' _ => by ring
    rw [Finset.sum_congr rfl fun r _ => h3 r, Finset.sum_comm]
    refine Finset.sum_congr rfl fun c _ => ?_
    rw [Finset.sum_comm, Finset.sum_eq_single c]
    · rw [← Finset.mul_sum, sq]
    · intro c' _ hc'
      rw [← Finset.mul_sum, hoff c c' (Ne.symm hc'), mul_zero]
    · intro h; exact absurd (Finset.mem_univ _) h
  obtain ⟨x, A', k1, k2, -, k4⟩ := solve_lsq NearEq.exact A b (vzero : Vec ℝ 9) (TOL := lit 0.00001) (by norm_num) g1 g2 g3 g4
  rw [← g6] at k4
  have hA' : A' = of A := k4 fun t => by
    refine sv_ge g2 g3 g6 (fun y => ?_) t (g4 t)
    refine le_of_sq_le_sq' ?_ (euclid_nonneg _)
    rw [hstretch, mul_pow, mul_pow, hfrob, euclid_sq, Finset.mul_sum]
    refine Finset.sum_le_sum fun c _ => ?_
    rw [hself, mul_comm (y c ^ 2)]
    refine mul_le_mul_of_nonneg_right (le_trans (le_of_eq ?_) (hlarge _)) (sq_nonneg _)
    rw [lit_real]
    norm_num
  rw [hA'] at k2
  have k1' : SOLVER.solve A b (vzero : Vec ℝ 9) = .ok (0, x) := k1
  refine ⟨Matrix3.fromArray x, ?_, fun N => Corrector.C53_minimiser patch target h x A b hsys (fun y => ?_) N⟩
  · unfold Corrector.solve
    rw [if_neg (not_lt.2 hs), hsys]
    simp only [bind, Except.bind]
    rw [k1']
  · have := pow_le_pow_left₀ (euclid_nonneg _) (k2 y).1 2
    rwa [euclid_sq, euclid_sq] at this

/-- The hypotheses are met by four patches. -/
example : let patch : List (Tristimulus ℝ) := [⟨1, 1, 1⟩, ⟨1, -1, 1⟩, ⟨1, 1, -1⟩, ⟨1, -1, -1⟩]
    (∀ a b : Fin 3, a ≠ b → ∑ k : Fin patch.length, Spec.triV patch[k] a * Spec.triV patch[k] b = 0) ∧
    (∀ a : Fin 3, 0.0000000001 * (3 * ∑ b : Fin 3, ∑ k : Fin patch.length, Spec.triV patch[k] b ^ 2) ≤
      ∑ k : Fin patch.length, Spec.triV patch[k] a ^ 2) ∧
    ∀ a : Fin 3, 0 < ∑ k : Fin patch.length, Spec.triV patch[k] a ^ 2 := by
  refine ⟨fun a b h => ?_, fun a => ?_, fun a => ?_⟩
  · fin_cases a <;> fin_cases b <;> simp at h ⊢ <;> simp [Fin.sum_univ_four, Spec.triV]
  · fin_cases a <;> simp [Fin.sum_univ_four, Fin.sum_univ_three, Spec.triV] <;> norm_num
  · fin_cases a <;> simp [Fin.sum_univ_four, Spec.triV] <;> norm_num

end CS
