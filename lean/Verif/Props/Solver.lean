import Verif.Lemmas.Corrector

/-!
# The solver and the colour corrector (C48 - C50, C52 - C55)
-/

namespace CS
open SOLVER Arith Libm Matrix

/-! ## C48: memory safety and termination of `svdcmp` -/

/-- C48: for every matrix of floats (NaN and infinities included, any library `sqrtf`) with at least as many
rows as columns, no access is out of bounds and the status is 1. -/
theorem C48_in_bounds (o : F32.Oracle) {m n : ℕ} (h : n ≤ m) (a : Mat F32 m n) (w : Vec F32 n) (v : Mat F32 n n) :
    letI := F32.libm o
    ∃ u w' v', svdcmp a w v = .ok (1, u, w', v') := by
  let := F32.libm o
  obtain ⟨⟨r, u, w', v'⟩, h1, h2⟩ := svdcmp_safe (splitsF32 o) h a w v
  exact ⟨u, w', v', by rw [h1, show r = 1 from h2]⟩

/-- C48 in exact arithmetic. -/
theorem C48_in_bounds_real {m n : ℕ} (h : n ≤ m) (a : Mat ℝ m n) (w : Vec ℝ n) (v : Mat ℝ n n) :
    ∃ u w' v', svdcmp a w v = .ok (1, u, w', v') := by
  obtain ⟨⟨r, u, w', v'⟩, h1, h2⟩ := svdcmp_safe splitsReal h a w v
  exact ⟨u, w', v', by rw [h1, show r = 1 from h2]⟩

/-- C48: with fewer rows than columns the status is -1 and nothing is changed. -/
theorem C48_short (o : F32.Oracle) {m n : ℕ} (h : m < n) (a : Mat F32 m n) (w : Vec F32 n) (v : Mat F32 n n) :
    letI := F32.libm o
    svdcmp a w v = .ok (-1, a, w, v) := by
  let := F32.libm o
  exact svdcmp_short h a w v

/-- C48: there is always a result, and its status is never 0. -/
theorem C48_never_zero (o : F32.Oracle) {m n : ℕ} (a : Mat F32 m n) (w : Vec F32 n) (v : Mat F32 n n) :
    letI := F32.libm o
    ∃ r u w' v', svdcmp a w v = .ok (r, u, w', v') ∧ r ≠ 0 ∧ (r = 1 ∨ r = -1) := by
  let := F32.libm o
  rcases lt_or_ge m n with h | h
  · exact ⟨-1, a, w, v, C48_short o h a w v, by decide, .inr rfl⟩
  · obtain ⟨u, w', v', h1⟩ := C48_in_bounds o h a w v
    exact ⟨1, u, w', v', h1, by decide, .inl rfl⟩

/-- The hypotheses are met by a 3x2 matrix holding a NaN and infinities. -/
example (o : F32.Oracle) : letI := F32.libm o
    ∃ u w' v', svdcmp (m := 3) (n := 2) ![![F32.nan, F32.inf false], ![F32.inf true, F32.zero true], ![F32.nan, F32.nan]]
      vzero mzero = .ok (1, u, w', v') := C48_in_bounds o (by decide) _ _ _

/-! ## C49: the status of `solve` -/

/-- What an all-zero computation needs. -/
structure Zeros (α : Type) [Libm α] : Prop where
  falsy : truthy (lit 0 : α) = false
  acc : (lit 0 : α) + lit 0 * lit 0 = lit 0

theorem zerosReal : Zeros ℝ := ⟨by simp [truthy], by simp⟩

theorem F32.zero_mul_zero : (F32.zero false) * (F32.zero false) = F32.zero false := by
  rw [F32.mul_def, F32.mul_finite rfl rfl]; simp [F32.val, F32.sign, F32.pack_zero]
theorem F32.zero_add_zero : (F32.zero false) + (F32.zero false) = F32.zero false := by
  rw [F32.add_def, F32.add_finite rfl rfl]; simp [F32.val, F32.sign, F32.pack_zero]
theorem F32.zero_sub_zero : (F32.zero false) - (F32.zero false) = F32.zero false := by
  rw [F32.sub_def, show F32.neg (F32.zero false) = F32.zero true from rfl, F32.add_finite rfl rfl]
  simp [F32.val, F32.sign, F32.pack_zero]

theorem zerosF32 (o : F32.Oracle) : @Zeros F32 (F32.libm o) :=
  letI := F32.libm o
  ⟨by show (!(F32.eq (F32.pack false 0) (F32.pack false 0))) = false
      rw [F32.pack_zero]; simp [F32.eq],
   by rw [show (lit 0 : F32) = F32.zero false from F32.lit_zero, F32.zero_mul_zero, F32.zero_add_zero]⟩

section
variable {α : Type} [Libm α] {m n p q : ℕ}

/-- A system with fewer rows than columns: the answer is the zero vector, the status 0, whatever the data. -/
theorem solve_short (Z : Zeros α) (h : m < n) (hp : n ≤ p) (A : Mat α m n) (b : Vec α q) (x : Vec α p) (TOL : α) :
    Ok (solve A b x TOL) (fun r => r.1 = 0 ∧ ∀ j : Fin p, j.val < n → r.2 j = lit 0) := by
  unfold solve
  rw [svdcmp_short h]
  refine (Ok.ok (P := fun p => p = (-1, A, vzero, mzero)) rfl).bind ?_
  rintro _ rfl
  dsimp only
  rw [if_neg (by decide)]
  refine (wmax_safe _).bind fun mx _ => ?_
  have hc : Ok (clampW (vzero : Vec α n) (TOL * mx)) (fun w => w = vzero) := by
    refine forUp_ok' (fun w => w = vzero) rfl ?_
    rintro j w - hj rfl
    refine (rd_ok _ hj).bind fun y _ => Ok.ite (fun _ => (wr_ok _ hj _).mono ?_) fun _ => Ok.ok rfl
    rintro w rfl
    exact Function.update_eq_self _ _
  refine hc.bind ?_
  rintro w rfl
  refine Ok.bind (P := fun x => ∀ j : Fin p, j.val < n → x j = lit 0) ?_ fun x hx => Ok.ok ⟨rfl, hx⟩
  refine Ok.bind (P := fun t => t = vzero) ?_ ?_
  · refine forUp_ok' (fun t => t = vzero) rfl ?_
    rintro j t - hj rfl
    refine Ok.bind (P := fun s => s = lit 0) ?_ ?_
    · refine (rd_ok _ hj).bind ?_
      rintro wj rfl
      show Ok (if truthy (lit 0 : α) = true then _ else _) _
      rw [Z.falsy, if_neg Bool.false_ne_true]
      exact Ok.ok rfl
    · rintro s rfl
      refine (wr_ok _ hj _).mono ?_
      rintro w rfl
      exact Function.update_eq_self _ _
  · rintro t rfl
    refine Ok.mono (forUp_ok (fun k x => ∀ j : Fin p, j.val < k → x j = lit 0) (Nat.zero_le n)
      (fun j hj => absurd hj (Nat.not_lt_zero _)) ?_) fun x hx => hx
    intro k x _ hk hx
    refine Ok.bind (P := fun s => s = lit 0) ?_ ?_
    · refine forUp_ok' (fun s => s = lit 0) rfl ?_
      rintro jj s - hjj rfl
      refine (rd2_ok _ hk hjj).bind fun y hy => (rd_ok _ hjj).bind fun t ht => Ok.ok ?_
      rw [hy, ht]
      exact Z.acc
    · rintro s rfl
      refine (wr_ok x (by omega : k < p) _).mono ?_
      rintro x' rfl j hj
      rcases eq_or_ne j ⟨k, by omega⟩ with he | hne
      · rw [he, Function.update_self]
      · rw [Function.update_of_ne hne]
        exact hx j (lt_of_le_of_ne (Nat.lt_succ_iff.1 hj) (fun h => hne (Fin.ext h)))

end

/-- C49, what holds instead: `solve` always answers status 0, for every system of floats.  (So the status tells
nothing; the claim is false.) -/
theorem C49_always_zero (o : F32.Oracle) {m n p q : ℕ} (hp : n ≤ p) (hq : m ≤ q) (A : Mat F32 m n) (b : Vec F32 q)
    (x : Vec F32 p) (TOL : F32) :
    letI := F32.libm o
    ∃ x', solve A b x TOL = .ok (0, x') := by
  let := F32.libm o
  obtain ⟨⟨r, x'⟩, h1, h2⟩ := solve_safe (splitsF32 o) hp hq A b x TOL
  exact ⟨x', by rw [h1, show r = 0 from h2]⟩

/-- C49 is false: the system `(1 0) x = 1` has solutions; `solve` answers `x = 0`, which is not one, with
the same status 0 it gives for every other system - for every oracle, in floats. -/
theorem C49_reports_failure_false (o : F32.Oracle) :
    letI := F32.libm o
    ∃ x : Vec F32 2, solve (m := 1) (n := 2) ![![lit 1, lit 0]] ![lit 1] (vzero : Vec F32 2) = .ok (0, x) ∧
      x 0 = F32.zero false ∧ x 1 = F32.zero false := by
  let := F32.libm o
  obtain ⟨⟨r, x⟩, h1, h2, h3⟩ := solve_short (zerosF32 o) (by decide : 1 < 2) (le_refl 2)
    (![![lit 1, lit 0]] : Mat F32 1 2) ![lit 1] (vzero : Vec F32 2) (lit 0.00001)
  refine ⟨x, by rw [h1, show r = 0 from h2], ?_, ?_⟩
  · rw [show x 0 = lit 0 from h3 0 (by decide)]; exact F32.lit_zero
  · rw [show x 1 = lit 0 from h3 1 (by decide)]; exact F32.lit_zero

/-- C49, the part that holds: the status `solve` receives from `svdcmp` (and then ignores) does distinguish the
under-determined shapes.  Missing: `solve` passing it on, which it does not (`C49_reports_failure_false`). -/
theorem C49_svdcmp_reports_partial (o : F32.Oracle) {m n : ℕ} (A : Mat F32 m n) :
    letI := F32.libm o
    ∃ r u w v, svdcmp A vzero mzero = .ok (r, u, w, v) ∧ (r = -1 ↔ m < n) := by
  let := F32.libm o
  rcases lt_or_ge m n with h | h
  · exact ⟨_, _, _, _, C48_short o h A _ _, by simpa using h⟩
  · obtain ⟨u, w', v', h1⟩ := C48_in_bounds o h A vzero mzero
    exact ⟨_, _, _, _, h1, by simpa using h⟩

/-! ## C50: back-substitution -/

/-- C50: with `A = u diag(w) v^T`, `u` with orthonormal columns and `v` orthogonal, the vector `x` of `svbksb`
minimises `|Ay - b|`, and any other minimiser is longer. -/
theorem C50_least_squares {m n : ℕ} (u : Mat ℝ m n) (w : Vec ℝ n) (v : Mat ℝ n n) (b : Vec ℝ m) (x0 : Vec ℝ n)
    (hu : (of u)ᵀ * of u = 1) (hv : (of v)ᵀ * of v = 1) :
    ∃ x, svbksb u w v b x0 = .ok x ∧
      let A : Matrix (Fin m) (Fin n) ℝ := of u * diagonal w * (of v)ᵀ
      ∀ y : Fin n → ℝ,
        (∑ i, ((A *ᵥ x) i - b i) ^ 2 ≤ ∑ i, ((A *ᵥ y) i - b i) ^ 2) ∧
        (∑ i, ((A *ᵥ y) i - b i) ^ 2 ≤ ∑ i, ((A *ᵥ x) i - b i) ^ 2 → ∑ j, x j ^ 2 ≤ ∑ j, y j ^ 2 ∧
          (∑ j, y j ^ 2 ≤ ∑ j, x j ^ 2 → y = x)) := by
  have sqd : ∀ {k : ℕ} (z : Fin k → ℝ), ∑ i, z i ^ 2 = z ⬝ᵥ z := fun z =>
    Finset.sum_congr rfl fun i _ => sq (z i)
  set t : Vec ℝ n := fun j => if w j = 0 then 0 else (∑ i, u i j * b i) / w j with ht
  refine ⟨_, svbksb_real u w v b x0, ?_⟩
  intro A y
  have hx : (fun j => ∑ jj, v j jj * (if w jj = 0 then 0 else (∑ i, u i jj * b i) / w jj)) = of v *ᵥ t := rfl
  rw [hx]
  set x := of v *ᵥ t with hxd
  have hvt : (of v)ᵀ *ᵥ x = t := by rw [hxd, mulVec_mulVec, hv, one_mulVec]
  have hub : ∀ j, ((of u)ᵀ *ᵥ b) j = ∑ i, u i j * b i := fun j => rfl
  -- the normal equations, column by column
  have hn : diagonal w *ᵥ ((of u)ᵀ *ᵥ (A *ᵥ x - b)) = 0 := by
    have h1 : (of u)ᵀ *ᵥ (A *ᵥ x - b) = diagonal w *ᵥ t - (of u)ᵀ *ᵥ b := by
      rw [mulVec_sub, mulVec_mulVec, show (of u)ᵀ * A = diagonal w * (of v)ᵀ by
        show (of u)ᵀ * (of u * diagonal w * (of v)ᵀ) = _
        rw [← Matrix.mul_assoc, ← Matrix.mul_assoc, hu, Matrix.one_mul], ← mulVec_mulVec, hvt]
    rw [h1]
    funext j
    rw [mulVec_diagonal, Pi.sub_apply, mulVec_diagonal, hub]
    show w j * (w j * (if w j = 0 then 0 else (∑ i, u i j * b i) / w j) - ∑ i, u i j * b i) = 0
    split_ifs with h
    · rw [h]; simp
    · field_simp; ring
  -- residual is orthogonal to the range
  have horth : ∀ z, (A *ᵥ x - b) ⬝ᵥ (A *ᵥ z) = 0 := by
    intro z
    have : A *ᵥ z = of u *ᵥ (diagonal w *ᵥ ((of v)ᵀ *ᵥ z)) := by rw [mulVec_mulVec, mulVec_mulVec]
    rw [this, dotProduct_mulVec, ← mulVec_transpose, dotProduct_mulVec, ← mulVec_transpose, diagonal_transpose, hn,
      zero_dotProduct]
  have hsplit : ∑ i, ((A *ᵥ y) i - b i) ^ 2 = ∑ i, ((A *ᵥ x) i - b i) ^ 2 + ∑ i, (A *ᵥ (y - x)) i ^ 2 := by
    have h1 := sqd (A *ᵥ y - b)
    have h2 := sqd (A *ᵥ x - b)
    have h3 := sqd (A *ᵥ (y - x))
    simp only [Pi.sub_apply] at h1 h2
    rw [h1, h2, h3]
    have h4 : A *ᵥ y - b = (A *ᵥ x - b) + A *ᵥ (y - x) := by rw [mulVec_sub]; abel
    rw [h4, add_dotProduct, dotProduct_add, dotProduct_add, horth, dotProduct_comm (A *ᵥ (y - x)), horth]; ring
  refine ⟨by rw [hsplit]; exact le_add_of_nonneg_right (Finset.sum_nonneg fun i _ => sq_nonneg _), fun hle => ?_⟩
  have hz : A *ᵥ (y - x) = 0 := by
    have h0 : ∑ i, (A *ᵥ (y - x)) i ^ 2 = 0 :=
      le_antisymm (by linarith) (Finset.sum_nonneg fun i _ => sq_nonneg _)
    funext i
    exact pow_eq_zero_iff (two_ne_zero) |>.1 ((Finset.sum_eq_zero_iff_of_nonneg fun i _ => sq_nonneg _).1 h0 i (Finset.mem_univ i))
  have hw : ∀ j, w j * ((of v)ᵀ *ᵥ (y - x)) j = 0 := by
    intro j
    have : diagonal w *ᵥ ((of v)ᵀ *ᵥ (y - x)) = 0 := by
      have := congrArg (fun z => (of u)ᵀ *ᵥ z) hz
      simp only [mulVec_mulVec, mulVec_zero] at this
      rw [show (of u)ᵀ * A = diagonal w * (of v)ᵀ by
        show (of u)ᵀ * (of u * diagonal w * (of v)ᵀ) = _
        rw [← Matrix.mul_assoc, ← Matrix.mul_assoc, hu, Matrix.one_mul], ← mulVec_mulVec] at this
      exact this
    rw [← mulVec_diagonal, this]; rfl
  have hxo : x ⬝ᵥ (y - x) = 0 := by
    rw [hxd, dotProduct_comm, dotProduct_mulVec, ← mulVec_transpose, ← hxd]
    refine Finset.sum_eq_zero fun j _ => ?_
    show ((of v)ᵀ *ᵥ (y - x)) j * (if w j = 0 then 0 else (∑ i, u i j * b i) / w j) = 0
    split_ifs with h
    · rw [mul_zero]
    · rw [(mul_eq_zero.1 (hw j)).resolve_left h, zero_mul]
  have hns : ∑ j, y j ^ 2 = ∑ j, x j ^ 2 + ∑ j, (y - x) j ^ 2 := by
    rw [sqd, sqd, sqd]
    have : y = x + (y - x) := by abel
    conv_lhs => rw [this]
    rw [add_dotProduct, dotProduct_add, dotProduct_add, hxo, dotProduct_comm (y - x) x, hxo]; ring
  refine ⟨by rw [hns]; exact le_add_of_nonneg_right (Finset.sum_nonneg fun i _ => sq_nonneg _), fun hle2 => ?_⟩
  have h0 : ∑ j, (y - x) j ^ 2 = 0 := le_antisymm (by
    have hle3 : ∑ j, y j ^ 2 ≤ ∑ j, x j ^ 2 := hle2
    linarith) (Finset.sum_nonneg fun i _ => sq_nonneg _)
  funext j
  have := pow_eq_zero_iff (two_ne_zero) |>.1 ((Finset.sum_eq_zero_iff_of_nonneg fun i _ => sq_nonneg _).1 h0 j (Finset.mem_univ j))
  rw [Pi.sub_apply] at this
  linarith

/-- The hypotheses of `C50_least_squares` are met with a zero singular value: a 3x2 matrix of rank one. -/
example : (of ![![(1 : ℝ), 0], ![0, 1], ![0, 0]])ᵀ * of ![![(1 : ℝ), 0], ![0, 1], ![0, 0]] = 1 ∧
    (of ![![(3 / 5 : ℝ), -4 / 5], ![4 / 5, 3 / 5]])ᵀ * of ![![(3 / 5 : ℝ), -4 / 5], ![4 / 5, 3 / 5]] = 1 := by
  constructor <;> ext i j <;> fin_cases i <;> fin_cases j <;> simp [Matrix.mul_apply, Fin.sum_univ_succ] <;> norm_num

/-- C50: in binary32 too, NaN and infinities included, a zero singular value is skipped: the result does not
depend on the matching column of `u`, so nothing is ever divided by that zero. -/
theorem C50_zero_skipped (o : F32.Oracle) {m n p q : ℕ} (u u' : Mat F32 m n) (w : Vec F32 n) (v : Mat F32 n n)
    (b : Vec F32 q) (x : Vec F32 p) (h : ∀ i j, Arith.eq (w j) (lit 0) = false → u i j = u' i j) :
    letI := F32.libm o
    svbksb u w v b x = svbksb u' w v b x := by
  let := F32.libm o
  have key : ∀ j, tmpEntry u w b j = tmpEntry u' w b j := by
    intro j
    unfold tmpEntry
    by_cases hj : j < n
    · have hw : rd w j = .ok (w ⟨j, hj⟩) := by unfold rd; rw [dif_pos hj]
      simp only [hw, bind, Except.bind]
      cases ht : Arith.eq (w ⟨j, hj⟩) (lit 0 : F32)
      · have hr : ∀ i, rd2 u i j = rd2 u' i j := by
          intro i
          unfold rd2
          by_cases hi : i < m
          · rw [dif_pos hi, dif_pos hi, dif_pos hj, dif_pos hj, h _ _ ht]
          · rw [dif_neg hi, dif_neg hi]
        simp only [hr]
      · have : truthy (w ⟨j, hj⟩) = false := by
          unfold truthy; exact congrArg not ht
        simp only [this]
        rfl
    · have hw : rd w j = .error .outOfBounds := by unfold rd; rw [dif_neg hj]
      simp only [hw, bind, Except.bind]
  unfold svbksb
  simp only [key]

/-! ## C52: `PYTHAG` and `DSIGN` -/

/-- C52: the hypotenuse, symmetric, zero only at the origin. -/
theorem C52_pythag (a b : ℝ) :
    PYTHAG a b = Real.sqrt (a ^ 2 + b ^ 2) ∧ PYTHAG a b = PYTHAG b a ∧ (PYTHAG a b = 0 ↔ a = 0 ∧ b = 0) := by
  refine ⟨PYTHAG_real a b, by rw [PYTHAG_real, PYTHAG_real, add_comm], ?_⟩
  rw [PYTHAG_real, Real.sqrt_eq_zero (by positivity)]
  constructor
  · intro h
    exact ⟨pow_eq_zero_iff two_ne_zero |>.1 (by nlinarith [sq_nonneg a, sq_nonneg b]),
      pow_eq_zero_iff two_ne_zero |>.1 (by nlinarith [sq_nonneg a, sq_nonneg b])⟩
  · rintro ⟨rfl, rfl⟩; simp

/-- C52 in binary32: for finite arguments no division by zero happens - the result is not NaN, for any library
`sqrtf` that is not NaN on numbers from 1 on. -/
theorem C52_no_division_by_zero (o : F32.Oracle)
    (hs : ∀ x : F32, x.isFinite = true → 1 ≤ x.val → (o.sqrtf x).isNaN = false) (a b : F32)
    (ha : a.isFinite = true) (hb : b.isFinite = true) :
    letI := F32.libm o
    (PYTHAG a b).isNaN = false := by
  let := F32.libm o
  have main : ∀ p q : F32, p.isFinite = true → q.isFinite = true → 0 ≤ q.val → q.val ≤ p.val → 0 < p.val →
      (p * o.sqrtf (lit 1 + (q / p) * (q / p))).isNaN = false := by
    intro p q hp hq h0 h1 h2
    have h01 : 0 ≤ q.val / p.val := div_nonneg h0 h2.le
    have h11 : q.val / p.val ≤ 1 := (div_le_one h2).2 h1
    have rep1 : B32.Rep 1 := by exact_mod_cast B32.rep_int (n := 1) (by norm_num)
    have rep2 : B32.Rep 2 := by exact_mod_cast B32.rep_int (n := 2) (by norm_num)
    have hr0 := B32.rnd_nonneg h01
    have hr1 : B32.rnd (q.val / p.val) ≤ 1 := B32.rnd_le rep1 h11
    have hc : (q / p).Is (B32.rnd (q.val / p.val)) :=
      (F32.Is.of q hq).div_rnd (F32.Is.of p hp) h2.ne' (by rw [abs_of_nonneg hr0]; linarith)
    set c := B32.rnd (q.val / p.val)
    have hm0 : 0 ≤ B32.rnd (c * c) := B32.rnd_nonneg (by positivity)
    have hm1 : B32.rnd (c * c) ≤ 1 := B32.rnd_le rep1 (by nlinarith)
    have hm : ((q / p) * (q / p)).Is (B32.rnd (c * c)) :=
      hc.mul_rnd hc (by rw [abs_of_nonneg hm0]; linarith)
    set d := B32.rnd (c * c)
    have hs0 : 1 ≤ B32.rnd (1 + d) := B32.le_rnd rep1 (by linarith)
    have hs1 : B32.rnd (1 + d) ≤ 2 := B32.rnd_le rep2 (by linarith)
    have h1' : (lit 1 : F32).Is 1 := by
      have := F32.Is.litInt (n := 1) (by norm_num); exact_mod_cast this
    have hsum : (lit 1 + (q / p) * (q / p)).Is (B32.rnd (1 + d)) :=
      h1'.add_rnd hm (by rw [abs_of_nonneg (by linarith)]; linarith)
    have hq := hs _ hsum.1 (by rw [hsum.2]; exact hs0)
    generalize o.sqrtf (lit 1 + (q / p) * (q / p)) = r at hq
    show (F32.mul p r).isNaN = false
    cases p with
    | nan => exact absurd hp Bool.false_ne_true
    | inf _ => exact absurd hp Bool.false_ne_true
    | zero _ => exact absurd h2 (lt_irrefl 0)
    | num _ _ =>
      cases r with
      | nan => exact hq
      | inf _ => rfl
      | zero _ => exact F32.pack_not_nan _ _
      | num _ _ => exact F32.pack_not_nan _ _
  have hfin : ∀ x : F32, x.isFinite = true → (F32.fabs x).isFinite = true ∧ 0 ≤ (F32.fabs x).val := by
    intro x hx
    cases x with
    | nan => exact absurd hx Bool.false_ne_true
    | inf _ => exact absurd hx Bool.false_ne_true
    | zero _ => exact ⟨rfl, le_rfl⟩
    | num q _ => exact ⟨rfl, abs_nonneg q⟩
  obtain ⟨ha1, ha2⟩ := hfin a ha
  obtain ⟨hb1, hb2⟩ := hfin b hb
  show (if F32.lt (F32.fabs b) (F32.fabs a) = true then F32.fabs a * o.sqrtf
      (lit 1 + (F32.fabs b / F32.fabs a) * (F32.fabs b / F32.fabs a))
    else if F32.lt (lit 0) (F32.fabs b) = true then F32.fabs b * o.sqrtf
      (lit 1 + (F32.fabs a / F32.fabs b) * (F32.fabs a / F32.fabs b)) else lit 0 : F32).isNaN = false
  rw [F32.lt_finite hb1 ha1, F32.lit_zero, F32.lt_finite rfl hb1]
  simp only [decide_eq_true_eq]
  split_ifs with h1 h2
  · exact main _ _ ha1 hb1 hb2 h1.le (hb2.trans_lt h1)
  · exact main _ _ hb1 ha1 ha2 (not_lt.1 h1) h2
  · rfl

/-- The hypothesis on `sqrtf` holds for a library returning its argument, say. -/
example : ∀ x : F32, x.isFinite = true → 1 ≤ x.val → (id x).isNaN = false := by
  intro x hx _
  cases x <;> first | rfl | exact absurd hx Bool.false_ne_true

/-- C52 in binary32: both zero gives zero (no 0/0). -/
theorem C52_origin (o : F32.Oracle) (s t : Bool) :
    letI := F32.libm o
    PYTHAG (F32.zero s) (F32.zero t) = F32.zero false := by
  let := F32.libm o
  have h : F32.lt (F32.zero false) (F32.zero false) = false := by
    rw [F32.lt_finite rfl rfl]; exact decide_eq_false (lt_irrefl _)
  unfold PYTHAG
  show ite (F32.lt (F32.zero false) (F32.zero false) = true) _ (ite (F32.lt (lit 0) (F32.zero false) = true) _ _) = _
  rw [F32.lit_zero, h, if_neg Bool.false_ne_true, if_neg Bool.false_ne_true]

/-- C52: `DSIGN(a, b)` has the magnitude of `a` and the sign of `b`, negative for `b = 0`. -/
theorem C52_dsign (a b : ℝ) :
    |DSIGN a b| = |a| ∧ (0 < b → DSIGN a b = |a|) ∧ (b ≤ 0 → DSIGN a b = -|a|) := by
  rw [DSIGN_real]
  refine ⟨?_, fun h => if_pos h, fun h => if_neg (not_lt.2 h)⟩
  split_ifs <;> simp

example : PYTHAG (3 : ℝ) (-4) = 5 := by
  rw [(C52_pythag 3 (-4)).1]
  rw [show (3 : ℝ) ^ 2 + (-4) ^ 2 = 5 ^ 2 by norm_num]
  exact Real.sqrt_sq (by norm_num)

/-! ## C53: the system of `Corrector::solve` -/

namespace Corrector
open Spec

/-- The total squared error of mapping the patches to the targets by `M`. -/
def totalError (patch target : List (Tristimulus ℝ)) (h : patch.length ≤ target.length)
    (M : Matrix (Fin 3) (Fin 3) ℝ) : ℝ :=
  ∑ i : Fin patch.length, ∑ k, ((M *ᵥ triV patch[i]) k - triV (target[i.val]'(i.2.trans_le h)) k) ^ 2

/-- C53: the squared residual of the linear system at `x` is the total squared error of the matrix whose entries
are `x`, for every `x`. -/
theorem C53_system (patch target : List (Tristimulus ℝ)) (h : patch.length ≤ target.length) :
    ∃ A b, system patch target = .ok (A, b) ∧ ∀ x : Fin 9 → ℝ,
      ∑ r, ((of A *ᵥ x) r - b r) ^ 2 = totalError patch target h (toM (Matrix3.fromArray x)) := by
  obtain ⟨⟨A, b⟩, h1, h2, h3⟩ := system_ok patch target h
  refine ⟨A, b, h1, fun x => ?_⟩
  dsimp only at h2 h3
  rw [← Equiv.sum_comp finProdFinEquiv, Fintype.sum_prod_type, Fin.sum_univ_castSucc]
  have hz : ∑ j : Fin 3, ((of A *ᵥ x) (finProdFinEquiv (Fin.last patch.length, j)) -
      b (finProdFinEquiv (Fin.last patch.length, j))) ^ 2 = 0 := by
    refine Finset.sum_eq_zero fun j _ => ?_
    have := h3 (finProdFinEquiv (Fin.last patch.length, j)) (by simp [finProdFinEquiv])
    rw [this.2]
    have h0 : (of A *ᵥ x) (finProdFinEquiv (Fin.last patch.length, j)) = 0 := by
      show ∑ c, A (finProdFinEquiv (Fin.last patch.length, j)) c * x c = 0
      refine Finset.sum_eq_zero fun c _ => ?_
      rw [this.1 c]; simp
    rw [h0]; simp
  rw [hz, add_zero]
  refine Finset.sum_congr rfl fun i _ => Finset.sum_congr rfl fun k _ => ?_
  have hidx : finProdFinEquiv (i.castSucc, k) = ⟨3 * i.val + k.val, by have := i.2; have := k.2; omega⟩ := by
    apply Fin.ext; simp [finProdFinEquiv]; omega
  rw [hidx]
  congr 1
  have hb := (h2 i.val i.2 k 0).2
  rw [hb]
  have hrow : (of A *ᵥ x) ⟨3 * i.val + k.val, by have := i.2; have := k.2; omega⟩ =
      (toM (Matrix3.fromArray x) *ᵥ triV patch[i]) k := by
    show ∑ c, A _ c * x c = _
    rw [Finset.sum_congr rfl fun c _ => by rw [(h2 i.val i.2 k c).1]]
    fin_cases k <;>
      simp [Fin.sum_univ_succ, comp, toM, Matrix3.fromArray, triV, mulVec, dotProduct] <;> ring
  rw [hrow]
  congr 1
  fin_cases k <;> simp [comp, triV]

/-- C53: a least-squares solution of the system gives a matrix with the least total squared error. -/
theorem C53_minimiser (patch target : List (Tristimulus ℝ)) (h : patch.length ≤ target.length) (x : Fin 9 → ℝ)
    (A b) (hs : system patch target = .ok (A, b))
    (hx : ∀ y, ∑ r, ((of A *ᵥ x) r - b r) ^ 2 ≤ ∑ r, ((of A *ᵥ y) r - b r) ^ 2) (M : Matrix (Fin 3) (Fin 3) ℝ) :
    totalError patch target h (toM (Matrix3.fromArray x)) ≤ totalError patch target h M := by
  obtain ⟨A', b', h1, h2⟩ := C53_system patch target h
  rw [hs] at h1
  cases h1
  have := hx ![M 0 0, M 0 1, M 0 2, M 1 0, M 1 1, M 1 2, M 2 0, M 2 1, M 2 2]
  rw [h2, h2] at this
  have hM : toM (Matrix3.fromArray ![M 0 0, M 0 1, M 0 2, M 1 0, M 1 1, M 1 2, M 2 0, M 2 1, M 2 2]) = M := by
    ext i j; fin_cases i <;> fin_cases j <;> rfl
  rwa [hM] at this

/-- Two patches mapped to two targets by a scaling: the error of that scaling is zero. -/
example : totalError [⟨1, 2, 3⟩, ⟨4, 5, 6⟩] [⟨2, 4, 6⟩, ⟨8, 10, 12⟩] (by decide) (diagonal fun _ => 2) = 0 := by
  simp [totalError, Fin.sum_univ_succ, triV]
  norm_num

/-! ## C54: too few patches -/

/-- C54: with no or one patch `Corrector::solve` returns the zero matrix, whatever the float data. -/
theorem C54_zero_matrix (o : F32.Oracle) (patch target : List (Tristimulus F32)) (h1 : patch.length < 2)
    (h : patch.length ≤ target.length) :
    letI := F32.libm o
    Corrector.solve patch target = .ok ⟨F32.zero false, F32.zero false, F32.zero false, F32.zero false,
      F32.zero false, F32.zero false, F32.zero false, F32.zero false, F32.zero false⟩ := by
  let := F32.libm o
  unfold Corrector.solve
  rw [if_neg (by unfold intMax; push_cast; omega)]
  obtain ⟨⟨A, b⟩, h2, -⟩ := system_ok patch target h
  rw [h2]
  obtain ⟨⟨r, x⟩, h3, -, h4⟩ := solve_short (zerosF32 o) (by omega : (patch.length + 1) * 3 < 9) (le_refl 9) A b
    (vzero : Vec F32 9) (lit 0.00001)
  show (SOLVER.solve A b (vzero : Vec F32 9) >>= _) = _
  rw [h3]
  have : x = fun _ => F32.zero false := funext fun j => by rw [← F32.lit_zero]; exact h4 j j.2
  show Except.ok (Matrix3.fromArray x) = _
  rw [this]
  rfl

theorem C54_zero_matrix_real (patch target : List (Tristimulus ℝ)) (h1 : patch.length < 2)
    (h : patch.length ≤ target.length) :
    Corrector.solve patch target = .ok ⟨0, 0, 0, 0, 0, 0, 0, 0, 0⟩ := by
  unfold Corrector.solve
  rw [if_neg (by unfold intMax; push_cast; omega)]
  obtain ⟨⟨A, b⟩, h2, -⟩ := system_ok patch target h
  rw [h2]
  obtain ⟨⟨r, x⟩, h3, -, h4⟩ := solve_short zerosReal (by omega : (patch.length + 1) * 3 < 9) (le_refl 9) A b
    (vzero : Vec ℝ 9) (lit 0.00001)
  show (SOLVER.solve A b (vzero : Vec ℝ 9) >>= _) = _
  rw [h3]
  have : x = fun _ => 0 := funext fun j => by rw [show x j = lit 0 from h4 j j.2]; simp
  show Except.ok (Matrix3.fromArray x) = _
  rw [this]
  rfl

/-- C54: `makeGamut` with no or one patch inverts the zero matrix: every entry of `toXYZ_` is NaN. -/
theorem C54_makeGamut (o : F32.Oracle) (name : String) (patch : List (Tristimulus F32)) (h1 : patch.length < 2)
    (light : Spectrum F32) (obs : Observer F32) :
    letI := F32.libm o
    ∃ g, makeGamut name patch light obs = .ok g ∧ (∀ k, g.fromXYZ_.get k = F32.zero false) ∧
      ∀ k, g.toXYZ_.get k = F32.nan := by
  let := F32.libm o
  have hlen : (Macbeth.reference light obs).length = 24 := by
    simp only [Macbeth.reference, Macbeth.Patch, List.length_map]; rfl
  unfold makeGamut solveMacbeth
  rw [C54_zero_matrix o patch _ h1 (by omega)]
  refine ⟨_, rfl, fun k => by fin_cases k <;> rfl, ?_⟩
  set Z : Matrix3 F32 := ⟨F32.zero false, F32.zero false, F32.zero false, F32.zero false,
      F32.zero false, F32.zero false, F32.zero false, F32.zero false, F32.zero false⟩ with hZ
  have hg : ∀ k, Z.get k = F32.zero false := fun k => by fin_cases k <;> rfl
  have hd : Z.det = F32.zero false := by
    unfold Matrix3.det
    simp only [hg, F32.zero_mul_zero, F32.zero_add_zero, F32.zero_sub_zero]
  have hi : (lit 1 : F32) / F32.zero false = F32.inf false := by
    have h1 : (lit 1 : F32) = F32.num 1 ⟨one_ne_zero, by exact_mod_cast B32.rep_int (n := 1) (by norm_num), by norm_num⟩ :=
      F32.pack_of_rep _
    rw [h1]
    simp [F32.div_def, F32.div, F32.sign]
  have hn : F32.zero false * F32.inf false = F32.nan := rfl
  intro k
  show Matrix3.get (Matrix3.invert Z) k = _
  unfold Matrix3.invert
  rw [hd, hi]
  simp only [hg, F32.zero_mul_zero, F32.zero_sub_zero]
  fin_cases k <;> exact hn

example : ([⟨F32.nan, F32.nan, F32.nan⟩] : List (Tristimulus F32)).length < 2 := by decide

/-! ## C55: bounds -/

/-- C55: `solve(patch, target)` is defined exactly when there are at least as many targets as patches. -/
theorem C55_safe_iff (o : F32.Oracle) (patch target : List (Tristimulus F32))
    (hs : ((patch.length + 1) * 3 : ℕ) ≤ intMax) :
    letI := F32.libm o
    (∃ M, Corrector.solve patch target = .ok M) ↔ patch.length ≤ target.length := by
  let := F32.libm o
  unfold Corrector.solve
  rw [if_neg (not_lt.2 hs)]
  constructor
  · rintro ⟨M, hM⟩
    by_contra hl
    rw [system_short patch target (not_le.1 hl)] at hM
    cases hM
  · intro hl
    obtain ⟨⟨A, b⟩, h2, -⟩ := system_ok patch target hl
    obtain ⟨⟨r, x⟩, h3, -⟩ := solve_safe (splitsF32 o) (le_refl 9) le_rfl A b (vzero : Vec F32 9) (lit 0.00001)
    rw [h2]
    show ∃ M, (SOLVER.solve A b (vzero : Vec F32 9) >>= _) = Except.ok M
    rw [h3]
    exact ⟨_, rfl⟩

/-- C55: with too few targets the behaviour is undefined: `target` is read out of bounds. -/
theorem C55_out_of_bounds (o : F32.Oracle) (patch target : List (Tristimulus F32))
    (hs : ((patch.length + 1) * 3 : ℕ) ≤ intMax) (hl : target.length < patch.length) :
    letI := F32.libm o
    Corrector.solve patch target = .error .outOfBounds := by
  let := F32.libm o
  unfold Corrector.solve
  rw [if_neg (not_lt.2 hs), system_short patch target hl]
  rfl

/-- C55, the part that holds: `solve(patch, light, observer)` is safe up to 24 patches (and only so). Missing:
any number of patches, for which the claim is false (`C55_any_number_false`). -/
theorem C55_macbeth_partial (o : F32.Oracle) (patch : List (Tristimulus F32)) (light : Spectrum F32)
    (obs : Observer F32) (hs : ((patch.length + 1) * 3 : ℕ) ≤ intMax) :
    letI := F32.libm o
    ((∃ M, solveMacbeth patch light obs = .ok M) ↔ patch.length ≤ 24) ∧
    ∀ name, ((∃ g, makeGamut name patch light obs = .ok g) ↔ patch.length ≤ 24) := by
  let := F32.libm o
  have hlen : (Macbeth.reference light obs).length = 24 := by
    simp only [Macbeth.reference, Macbeth.Patch, List.length_map]; rfl
  have h1 := C55_safe_iff o patch (Macbeth.reference light obs) hs
  rw [hlen] at h1
  refine ⟨h1, fun name => ?_⟩
  rw [← h1]
  unfold makeGamut solveMacbeth
  cases hc : Corrector.solve patch (Macbeth.reference light obs) with
  | error e => exact ⟨fun ⟨g, hg⟩ => (by cases hg), fun ⟨g, hg⟩ => by cases hg⟩
  | ok M => exact ⟨fun _ => ⟨M, rfl⟩, fun _ => ⟨_, rfl⟩⟩

/-- C55 is false: 25 patches make `solve(patch, light, observer)` read behind the 24 references. -/
theorem C55_any_number_false (o : F32.Oracle) (light : Spectrum F32) (obs : Observer F32) (p : Tristimulus F32) :
    letI := F32.libm o
    solveMacbeth (List.replicate 25 p) light obs = .error .outOfBounds := by
  let := F32.libm o
  have hlen : (Macbeth.reference light obs).length = 24 := by
    simp only [Macbeth.reference, Macbeth.Patch, List.length_map]; rfl
  exact C55_out_of_bounds o _ _ (by rw [List.length_replicate]; decide) (by rw [hlen, List.length_replicate]; decide)

end Corrector
end CS
