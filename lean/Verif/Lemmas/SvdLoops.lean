import Verif.Lemmas.Solver

/-!
# What the inner loops of `svdcmp` compute, in exact arithmetic
-/

namespace CS

/-- A loop whose states are known. -/
theorem forUp_states {σ : Type} {lo hi : ℕ} {f : ℕ → σ → Except UB σ} (S : ℕ → σ) (hlo : lo ≤ hi)
    (h : ∀ k, lo ≤ k → k < hi → f k (S k) = .ok (S (k + 1))) : forUp lo hi (S lo) f = .ok (S hi) := by
  obtain ⟨s, h1, h2⟩ := forUp_ok (f := f) (s := S lo) (fun k s => s = S k) hlo rfl
    (fun k s h1 h2 h3 => by rw [h3]; exact Ok.of_eq (h k h1 h2) rfl)
  rw [h1, h2]

/-- The same with the initial state given separately. -/
theorem forUp_states' {σ : Type} {lo hi : ℕ} {f : ℕ → σ → Except UB σ} (S : ℕ → σ) {s0 s1 : σ} (hlo : lo ≤ hi)
    (h : ∀ k, lo ≤ k → k < hi → f k (S k) = .ok (S (k + 1))) (h0 : S lo = s0) (h1 : S hi = s1) :
    forUp lo hi s0 f = .ok s1 := by
  rw [← h0, ← h1]; exact forUp_states S hlo h

/-- A summation loop from `lo` on. -/
theorem forUp_sum_from {m lo : ℕ} {f : ℕ → ℝ → Except UB ℝ} (g : Fin m → ℝ)
    (hf : ∀ (k : Fin m) s, lo ≤ k.val → f k s = .ok (s + g k)) :
    forUp lo m (lit 0) f = .ok (∑ k : Fin m, if lo ≤ k.val then g k else 0) := by
  rw [forUp_sum (fun k => if h : k < m then g ⟨k, h⟩ else 0)
    (fun k s hl hk => by rw [dif_pos hk]; exact hf ⟨k, hk⟩ s hl)]
  simp only [lit_real, Rat.cast_zero, zero_add]
  congr 1
  have h1 : (∑ k : Fin m, if lo ≤ k.val then g k else 0) =
      ∑ k ∈ Finset.range m, if lo ≤ k then (if h : k < m then g ⟨k, h⟩ else 0) else 0 := by
    rw [Finset.sum_range]
    exact Finset.sum_congr rfl fun i _ => by rw [dif_pos i.2]
  rw [h1, ← Finset.sum_filter]
  refine Finset.sum_congr ?_ fun _ _ => rfl
  ext k; simp; omega

namespace SOLVER
open Arith Libm
variable {m n : ℕ}

theorem upd2_apply {α : Type} (a : Mat α m n) {i j : ℕ} (hi : i < m) (hj : j < n) (x : α) (r : Fin m) (c : Fin n) :
    Function.update a ⟨i, hi⟩ (Function.update (a ⟨i, hi⟩) ⟨j, hj⟩ x) r c =
      if r.val = i ∧ c.val = j then x else a r c := by
  by_cases hr : r.val = i
  · obtain rfl : r = ⟨i, hi⟩ := Fin.ext hr
    rw [Function.update_self]
    by_cases hc : c.val = j
    · obtain rfl : c = ⟨j, hj⟩ := Fin.ext hc
      rw [Function.update_self, if_pos ⟨rfl, rfl⟩]
    · rw [Function.update_of_ne (fun h => hc (by rw [h])), if_neg (fun h => hc h.2)]
  · rw [Function.update_of_ne (fun h => hr (by rw [h])), if_neg (fun h => hr h.1)]

theorem upd_apply {α : Type} (w : Vec α n) {i : ℕ} (hi : i < n) (x : α) (c : Fin n) :
    Function.update w ⟨i, hi⟩ x c = if c.val = i then x else w c := by
  by_cases hc : c.val = i
  · obtain rfl : c = ⟨i, hi⟩ := Fin.ext hc
    rw [Function.update_self, if_pos rfl]
  · rw [Function.update_of_ne (fun h => hc (by rw [h])), if_neg hc]

/-- `a[i][j] = x` as a function. -/
theorem wr2_fun {α : Type} (a : Mat α m n) {i j : ℕ} (hi : i < m) (hj : j < n) (x : α) :
    wr2 a i j x = .ok (fun r c => if r.val = i ∧ c.val = j then x else a r c) := by
  rw [wr2_eq a hi hj]
  exact congrArg _ (funext fun r => funext fun c => upd2_apply a hi hj x r c)

/-- `w[i] = x` as a function. -/
theorem wr_fun {α : Type} (w : Vec α n) {i : ℕ} (hi : i < n) (x : α) :
    wr w i x = .ok (fun c => if c.val = i then x else w c) := by
  rw [wr_eq w hi]
  exact congrArg _ (funext fun c => upd_apply w hi x c)

theorem colScale_real (a : Mat ℝ m n) {i : ℕ} (hi : i < n) :
    colScale a i = .ok (∑ k : Fin m, if i ≤ k.val then |a k ⟨i, hi⟩| else 0) := by
  unfold colScale
  refine forUp_sum_from (fun k => |a k ⟨i, hi⟩|) fun k s _ => ?_
  rw [rd2_eq a k.2 hi]
  show Except.ok (s + fabs (a k ⟨i, hi⟩)) = _
  rw [fabs_real]

theorem colNorm_real (a : Mat ℝ m n) {i : ℕ} (hi : i < n) (him : i ≤ m) (sc : ℝ) :
    colNorm a i sc = .ok (fun r c => if i ≤ r.val ∧ c.val = i then a r c / sc else a r c,
      ∑ k : Fin m, if i ≤ k.val then (a k ⟨i, hi⟩ / sc) * (a k ⟨i, hi⟩ / sc) else 0) := by
  unfold colNorm
  refine forUp_states' (fun t => (fun r c => if i ≤ r.val ∧ r.val < t ∧ c.val = i then a r c / sc else a r c,
      ∑ k : Fin m, if i ≤ k.val ∧ k.val < t then (a k ⟨i, hi⟩ / sc) * (a k ⟨i, hi⟩ / sc) else 0)) him ?_ ?_ ?_
  · intro k h1 h2
    simp only []
    rw [rd2_eq _ h2 hi]
    simp only [bind, Except.bind]
    rw [wr2_fun _ h2 hi]
    simp only []
    rw [rd2_eq _ h2 hi]
    refine congrArg _ (Prod.ext ?_ ?_)
    · funext r c
      simp only []
      by_cases hr : r.val = k
      · obtain rfl : r = ⟨k, h2⟩ := Fin.ext hr
        by_cases hc : c.val = i
        · obtain rfl : c = ⟨i, hi⟩ := Fin.ext hc
          simp [h1]
        · simp [hc]
      · have : r.val < k ↔ r.val < k + 1 := by omega
        simp [hr, this]
    · simp only []
      have hg : ∀ j : Fin m, (if i ≤ j.val ∧ j.val < k + 1 then (a j ⟨i, hi⟩ / sc) * (a j ⟨i, hi⟩ / sc) else 0) =
          (if i ≤ j.val ∧ j.val < k then (a j ⟨i, hi⟩ / sc) * (a j ⟨i, hi⟩ / sc) else 0) +
          (if j = ⟨k, h2⟩ then (a ⟨k, h2⟩ ⟨i, hi⟩ / sc) * (a ⟨k, h2⟩ ⟨i, hi⟩ / sc) else 0) := by
        intro j
        by_cases hj : j = ⟨k, h2⟩
        · subst hj; simp [h1]
        · have : j.val ≠ k := fun h => hj (Fin.ext h)
          have h3 : j.val < k + 1 ↔ j.val < k := by omega
          simp [hj, h3]
      rw [Finset.sum_congr rfl fun j _ => hg j, Finset.sum_add_distrib, Finset.sum_ite_eq' Finset.univ]
      simp
  · refine Prod.ext ?_ ?_
    · funext r c
      exact if_neg (by omega)
    · simp only [lit_real, Rat.cast_zero]
      exact Finset.sum_eq_zero fun j _ => if_neg (by omega)
  · refine Prod.ext ?_ ?_
    · funext r c
      have := r.2
      simp [this]
    · show (∑ k : Fin m, _) = (∑ k : Fin m, _)
      refine Finset.sum_congr rfl fun j _ => ?_
      have := j.2
      simp [this]

theorem colDot_real (a : Mat ℝ m n) {lo i j : ℕ} (hi : i < n) (hj : j < n) :
    colDot a lo i j = .ok (∑ k : Fin m, if lo ≤ k.val then a k ⟨i, hi⟩ * a k ⟨j, hj⟩ else 0) := by
  unfold colDot
  refine forUp_sum_from (fun k => a k ⟨i, hi⟩ * a k ⟨j, hj⟩) fun k s _ => ?_
  rw [rd2_eq a k.2 hi, rd2_eq a k.2 hj]; rfl

theorem colAxpy_real (a : Mat ℝ m n) {i j : ℕ} (hi : i < n) (hj : j < n) (hij : i ≠ j) (him : i ≤ m) (f : ℝ) :
    colAxpy a i j f = .ok (fun r c => if i ≤ r.val ∧ c.val = j then a r c + f * a r ⟨i, hi⟩ else a r c) := by
  unfold colAxpy
  refine forUp_states' (fun t => fun r c => if i ≤ r.val ∧ r.val < t ∧ c.val = j then a r c + f * a r ⟨i, hi⟩ else a r c)
    him ?_ ?_ ?_
  · intro k h1 h2
    rw [rd2_eq _ h2 hj, rd2_eq _ h2 hi]
    simp only [bind, Except.bind]
    rw [wr2_fun _ h2 hj]
    refine congrArg _ (funext fun r => funext fun c => ?_)
    by_cases hr : r.val = k
    · obtain rfl : r = ⟨k, h2⟩ := Fin.ext hr
      by_cases hc : c.val = j
      · obtain rfl : c = ⟨j, hj⟩ := Fin.ext hc
        simp [h1]
      · simp [hc]
    · have : r.val < k ↔ r.val < k + 1 := by omega
      simp [hr, this]
  · funext r c; exact if_neg (by omega)
  · funext r c; simp [r.2]

theorem colMul_real (a : Mat ℝ m n) {i : ℕ} (hi : i < n) (him : i ≤ m) (t : ℝ) :
    colMul a i t = .ok (fun r c => if i ≤ r.val ∧ c.val = i then a r c * t else a r c) := by
  unfold colMul
  refine forUp_states' (fun q => fun r c => if i ≤ r.val ∧ r.val < q ∧ c.val = i then a r c * t else a r c)
    him ?_ ?_ ?_
  · intro k h1 h2
    rw [rd2_eq _ h2 hi]
    simp only [bind, Except.bind]
    rw [wr2_fun _ h2 hi]
    refine congrArg _ (funext fun r => funext fun c => ?_)
    by_cases hr : r.val = k
    · obtain rfl : r = ⟨k, h2⟩ := Fin.ext hr
      by_cases hc : c.val = i
      · obtain rfl : c = ⟨i, hi⟩ := Fin.ext hc
        simp [h1]
      · simp [hc]
    · have : r.val < k ↔ r.val < k + 1 := by omega
      simp [hr, this]
  · funext r c; exact if_neg (by omega)
  · funext r c; simp [r.2]

theorem rowScale_real (a : Mat ℝ m n) {i : ℕ} (hi : i < m) :
    rowScale a i = .ok (∑ k : Fin n, if i + 1 ≤ k.val then |a ⟨i, hi⟩ k| else 0) := by
  unfold rowScale
  refine forUp_sum_from (fun k => |a ⟨i, hi⟩ k|) fun k s _ => ?_
  rw [rd2_eq a hi k.2]
  show Except.ok (s + fabs (a ⟨i, hi⟩ k)) = _
  rw [fabs_real]

theorem rowNorm_real (a : Mat ℝ m n) {i : ℕ} (hi : i < m) (hin : i + 1 ≤ n) (sc : ℝ) :
    rowNorm a i sc = .ok (fun r c => if r.val = i ∧ i + 1 ≤ c.val then a r c / sc else a r c,
      ∑ k : Fin n, if i + 1 ≤ k.val then (a ⟨i, hi⟩ k / sc) * (a ⟨i, hi⟩ k / sc) else 0) := by
  unfold rowNorm
  refine forUp_states' (fun t => (fun r c => if r.val = i ∧ i + 1 ≤ c.val ∧ c.val < t then a r c / sc else a r c,
      ∑ k : Fin n, if i + 1 ≤ k.val ∧ k.val < t then (a ⟨i, hi⟩ k / sc) * (a ⟨i, hi⟩ k / sc) else 0)) hin ?_ ?_ ?_
  · intro k h1 h2
    simp only []
    rw [rd2_eq _ hi h2]
    simp only [bind, Except.bind]
    rw [wr2_fun _ hi h2]
    simp only []
    rw [rd2_eq _ hi h2]
    refine congrArg _ (Prod.ext ?_ ?_)
    · funext r c
      simp only []
      by_cases hc : c.val = k
      · obtain rfl : c = ⟨k, h2⟩ := Fin.ext hc
        by_cases hr : r.val = i
        · obtain rfl : r = ⟨i, hi⟩ := Fin.ext hr
          simp [h1]
        · simp [hr]
      · have : c.val < k ↔ c.val < k + 1 := by omega
        simp [hc, this]
    · simp only []
      have hg : ∀ j : Fin n, (if i + 1 ≤ j.val ∧ j.val < k + 1 then (a ⟨i, hi⟩ j / sc) * (a ⟨i, hi⟩ j / sc) else 0) =
          (if i + 1 ≤ j.val ∧ j.val < k then (a ⟨i, hi⟩ j / sc) * (a ⟨i, hi⟩ j / sc) else 0) +
          (if j = ⟨k, h2⟩ then (a ⟨i, hi⟩ ⟨k, h2⟩ / sc) * (a ⟨i, hi⟩ ⟨k, h2⟩ / sc) else 0) := by
        intro j
        by_cases hj : j = ⟨k, h2⟩
        · subst hj; simp [h1]
        · have : j.val ≠ k := fun h => hj (Fin.ext h)
          have h3 : j.val < k + 1 ↔ j.val < k := by omega
          simp [hj, h3]
      rw [Finset.sum_congr rfl fun j _ => hg j, Finset.sum_add_distrib, Finset.sum_ite_eq' Finset.univ]
      simp
  · refine Prod.ext ?_ ?_
    · funext r c
      exact if_neg (by omega)
    · simp only [lit_real, Rat.cast_zero]
      exact Finset.sum_eq_zero fun j _ => if_neg (by omega)
  · refine Prod.ext ?_ ?_
    · funext r c
      have := c.2
      simp [this]
    · show (∑ k : Fin n, _) = (∑ k : Fin n, _)
      refine Finset.sum_congr rfl fun j _ => ?_
      have := j.2
      simp [this]

theorem rowToRv1_real (a : Mat ℝ m n) (rv1 : Vec ℝ n) {i : ℕ} (hi : i < m) (hin : i + 1 ≤ n) (h : ℝ) :
    rowToRv1 a rv1 i h = .ok (fun c => if i + 1 ≤ c.val then a ⟨i, hi⟩ c / h else rv1 c) := by
  unfold rowToRv1
  refine forUp_states' (fun t => fun c => if i + 1 ≤ c.val ∧ c.val < t then a ⟨i, hi⟩ c / h else rv1 c) hin ?_ ?_ ?_
  · intro k h1 h2
    rw [rd2_eq _ hi h2]
    simp only [bind, Except.bind]
    rw [wr_fun _ h2]
    refine congrArg _ (funext fun c => ?_)
    by_cases hc : c.val = k
    · obtain rfl : c = ⟨k, h2⟩ := Fin.ext hc
      simp [h1]
    · have : c.val < k ↔ c.val < k + 1 := by omega
      simp [hc, this]
  · funext c; exact if_neg (by omega)
  · funext c; simp [c.2]

theorem rowDot_real (a : Mat ℝ m n) {i j : ℕ} (hi : i < m) (hj : j < m) :
    rowDot a i j = .ok (∑ k : Fin n, if i + 1 ≤ k.val then a ⟨j, hj⟩ k * a ⟨i, hi⟩ k else 0) := by
  unfold rowDot
  refine forUp_sum_from (fun k => a ⟨j, hj⟩ k * a ⟨i, hi⟩ k) fun k s _ => ?_
  rw [rd2_eq a hj k.2, rd2_eq a hi k.2]; rfl

theorem rowAxpy_real (a : Mat ℝ m n) (rv1 : Vec ℝ n) {i j : ℕ} (hj : j < m) (hin : i + 1 ≤ n) (s : ℝ) :
    rowAxpy a rv1 i j s = .ok (fun r c => if r.val = j ∧ i + 1 ≤ c.val then a r c + s * rv1 c else a r c) := by
  unfold rowAxpy
  refine forUp_states' (fun t => fun r c => if r.val = j ∧ i + 1 ≤ c.val ∧ c.val < t then a r c + s * rv1 c else a r c)
    hin ?_ ?_ ?_
  · intro k h1 h2
    rw [rd2_eq _ hj h2, rd_eq _ h2]
    simp only [bind, Except.bind]
    rw [wr2_fun _ hj h2]
    refine congrArg _ (funext fun r => funext fun c => ?_)
    by_cases hc : c.val = k
    · obtain rfl : c = ⟨k, h2⟩ := Fin.ext hc
      by_cases hr : r.val = j
      · obtain rfl : r = ⟨j, hj⟩ := Fin.ext hr
        simp [h1]
      · simp [hr]
    · have : c.val < k ↔ c.val < k + 1 := by omega
      simp [hc, this]
  · funext r c; exact if_neg (by omega)
  · funext r c; simp [c.2]

theorem rowMul_real (a : Mat ℝ m n) {i : ℕ} (hi : i < m) (hin : i + 1 ≤ n) (t : ℝ) :
    rowMul a i t = .ok (fun r c => if r.val = i ∧ i + 1 ≤ c.val then a r c * t else a r c) := by
  unfold rowMul
  refine forUp_states' (fun q => fun r c => if r.val = i ∧ i + 1 ≤ c.val ∧ c.val < q then a r c * t else a r c)
    hin ?_ ?_ ?_
  · intro k h1 h2
    rw [rd2_eq _ hi h2]
    simp only [bind, Except.bind]
    rw [wr2_fun _ hi h2]
    refine congrArg _ (funext fun r => funext fun c => ?_)
    by_cases hc : c.val = k
    · obtain rfl : c = ⟨k, h2⟩ := Fin.ext hc
      by_cases hr : r.val = i
      · obtain rfl : r = ⟨i, hi⟩ := Fin.ext hr
        simp [h1]
      · simp [hr]
    · have : c.val < k ↔ c.val < k + 1 := by omega
      simp [hc, this]
  · funext r c; exact if_neg (by omega)
  · funext r c; simp [c.2]

theorem rowClear_real (a : Mat ℝ m n) {i : ℕ} (hi : i < m) (hin : i + 1 ≤ n) :
    rowClear a i = .ok (fun r c => if r.val = i ∧ i + 1 ≤ c.val then 0 else a r c) := by
  unfold rowClear
  refine forUp_states' (fun q => fun r c => if r.val = i ∧ i + 1 ≤ c.val ∧ c.val < q then 0 else a r c)
    hin ?_ ?_ ?_
  · intro k h1 h2
    rw [wr2_fun _ hi h2]
    refine congrArg _ (funext fun r => funext fun c => ?_)
    by_cases hc : c.val = k
    · obtain rfl : c = ⟨k, h2⟩ := Fin.ext hc
      by_cases hr : r.val = i
      · obtain rfl : r = ⟨i, hi⟩ := Fin.ext hr
        simp [h1]
      · simp [hr]
    · have : c.val < k ↔ c.val < k + 1 := by omega
      simp [hc, this]
  · funext r c; exact if_neg (by omega)
  · funext r c; simp [c.2]

theorem colClear_real (a : Mat ℝ m n) {i : ℕ} (hi : i < n) (him : i ≤ m) :
    colClear a i = .ok (fun r c => if i ≤ r.val ∧ c.val = i then 0 else a r c) := by
  unfold colClear
  refine forUp_states' (fun q => fun r c => if i ≤ r.val ∧ r.val < q ∧ c.val = i then 0 else a r c)
    him ?_ ?_ ?_
  · intro k h1 h2
    rw [wr2_fun _ h2 hi]
    refine congrArg _ (funext fun r => funext fun c => ?_)
    by_cases hr : r.val = k
    · obtain rfl : r = ⟨k, h2⟩ := Fin.ext hr
      by_cases hc : c.val = i
      · obtain rfl : c = ⟨i, hi⟩ := Fin.ext hc
        simp [h1]
      · simp [hc]
    · have : r.val < k ↔ r.val < k + 1 := by omega
      simp [hr, this]
  · funext r c; exact if_neg (by omega)
  · funext r c; simp [r.2]

theorem vInit_real (a : Mat ℝ m n) (v : Mat ℝ n n) {i l : ℕ} (him : i < m) (hi : i < n) (hl : l < n) (g : ℝ) :
    vInit a v i l g =
      .ok (fun r c => if l ≤ r.val ∧ c.val = i then a ⟨i, him⟩ r / a ⟨i, him⟩ ⟨l, hl⟩ / g else v r c) := by
  unfold vInit
  refine forUp_states' (fun q => fun r c => if l ≤ r.val ∧ r.val < q ∧ c.val = i then
    a ⟨i, him⟩ r / a ⟨i, him⟩ ⟨l, hl⟩ / g else v r c) hl.le ?_ ?_ ?_
  · intro k h1 h2
    rw [rd2_eq _ him h2, rd2_eq _ him hl]
    simp only [bind, Except.bind]
    rw [wr2_fun _ h2 hi]
    refine congrArg _ (funext fun r => funext fun c => ?_)
    by_cases hr : r.val = k
    · obtain rfl : r = ⟨k, h2⟩ := Fin.ext hr
      by_cases hc : c.val = i
      · obtain rfl : c = ⟨i, hi⟩ := Fin.ext hc
        simp [h1]
      · simp [hc]
    · have : r.val < k ↔ r.val < k + 1 := by omega
      simp [hr, this]
  · funext r c; exact if_neg (by omega)
  · funext r c; simp [r.2]

theorem vDot_real (a : Mat ℝ m n) (v : Mat ℝ n n) {i j l : ℕ} (him : i < m) (hj : j < n) :
    vDot a v i j l = .ok (∑ k : Fin n, if l ≤ k.val then a ⟨i, him⟩ k * v k ⟨j, hj⟩ else 0) := by
  unfold vDot
  refine forUp_sum_from (fun k => a ⟨i, him⟩ k * v k ⟨j, hj⟩) fun k s _ => ?_
  rw [rd2_eq a him k.2, rd2_eq v k.2 hj]; rfl

theorem vAxpy_real (v : Mat ℝ n n) {i j l : ℕ} (hi : i < n) (hj : j < n) (hl : l ≤ n) (hij : i ≠ j) (s : ℝ) :
    vAxpy v i j l s = .ok (fun r c => if l ≤ r.val ∧ c.val = j then v r c + s * v r ⟨i, hi⟩ else v r c) := by
  unfold vAxpy
  refine forUp_states' (fun t => fun r c => if l ≤ r.val ∧ r.val < t ∧ c.val = j then v r c + s * v r ⟨i, hi⟩ else v r c)
    hl ?_ ?_ ?_
  · intro k h1 h2
    rw [rd2_eq _ h2 hj, rd2_eq _ h2 hi]
    simp only [bind, Except.bind]
    rw [wr2_fun _ h2 hj]
    refine congrArg _ (funext fun r => funext fun c => ?_)
    by_cases hr : r.val = k
    · obtain rfl : r = ⟨k, h2⟩ := Fin.ext hr
      by_cases hc : c.val = j
      · obtain rfl : c = ⟨j, hj⟩ := Fin.ext hc
        simp [h1]
      · simp [hc]
    · have : r.val < k ↔ r.val < k + 1 := by omega
      simp [hr, this]
  · funext r c; exact if_neg (by omega)
  · funext r c; simp [r.2]

theorem vClear_real (v : Mat ℝ n n) {i l : ℕ} (hi : i < n) (hl : l ≤ n) (hil : i < l) :
    vClear v i l = .ok (fun r c => if (l ≤ r.val ∧ c.val = i) ∨ (r.val = i ∧ l ≤ c.val) then 0 else v r c) := by
  unfold vClear
  refine forUp_states' (fun t => fun r c => if (l ≤ r.val ∧ r.val < t ∧ c.val = i) ∨ (r.val = i ∧ l ≤ c.val ∧ c.val < t)
    then 0 else v r c) hl ?_ ?_ ?_
  · intro k h1 h2
    rw [wr2_fun _ h2 hi]
    simp only [bind, Except.bind]
    rw [rd2_eq _ h2 hi]
    simp only []
    rw [wr2_fun _ hi h2]
    refine congrArg _ (funext fun r => funext fun c => ?_)
    simp only [true_and, lit_real, Rat.cast_zero, if_true, and_self]
    split_ifs <;> first | rfl | omega
  · funext r c; exact if_neg (by omega)
  · funext r c; simp [r.2, c.2]

theorem negCol_real (v : Mat ℝ n n) {k : ℕ} (hk : k < n) :
    negCol v k = .ok (fun r c => if c.val = k then -(v r c) else v r c) := by
  unfold negCol
  refine forUp_states' (fun q => fun r c => if r.val < q ∧ c.val = k then -(v r c) else v r c) (Nat.zero_le _) ?_ ?_ ?_
  · intro t h1 h2
    rw [rd2_eq _ h2 hk]
    simp only [bind, Except.bind]
    rw [wr2_fun _ h2 hk]
    refine congrArg _ (funext fun r => funext fun c => ?_)
    by_cases hr : r.val = t
    · obtain rfl : r = ⟨t, h2⟩ := Fin.ext hr
      by_cases hc : c.val = k
      · obtain rfl : c = ⟨k, hk⟩ := Fin.ext hc
        simp
      · simp [hc]
    · have : r.val < t ↔ r.val < t + 1 := by omega
      simp [hr, this]
  · funext r c; exact if_neg (by omega)
  · funext r c; simp [r.2]

theorem rotCols_real {r : ℕ} (a : Mat ℝ r n) {p q : ℕ} (hp : p < n) (hq : q < n) (hpq : p ≠ q) (c s : ℝ) :
    rotCols a p q c s = .ok (fun i j => if j.val = p then a i ⟨p, hp⟩ * c + a i ⟨q, hq⟩ * s
      else if j.val = q then a i ⟨q, hq⟩ * c - a i ⟨p, hp⟩ * s else a i j) := by
  unfold rotCols
  refine forUp_states' (fun t => fun i j => if i.val < t then (if j.val = p then a i ⟨p, hp⟩ * c + a i ⟨q, hq⟩ * s
      else if j.val = q then a i ⟨q, hq⟩ * c - a i ⟨p, hp⟩ * s else a i j) else a i j) (Nat.zero_le _) ?_ ?_ ?_
  · intro t h1 h2
    rw [rd2_eq _ h2 hp, rd2_eq _ h2 hq]
    simp only [bind, Except.bind]
    rw [wr2_fun _ h2 hp]
    simp only []
    rw [wr2_fun _ h2 hq]
    refine congrArg _ (funext fun i => funext fun j => ?_)
    by_cases hi : i.val = t
    · obtain rfl : i = ⟨t, h2⟩ := Fin.ext hi
      by_cases hjp : j.val = p
      · have : j.val ≠ q := by omega
        simp [hjp, hpq]
      · by_cases hjq : j.val = q
        · simp [hjq, hpq.symm]
        · simp [hjp, hjq]
    · have : i.val < t ↔ i.val < t + 1 := by omega
      simp [hi, this]
  · funext i j; simp
  · funext i j; simp [i.2]

end SOLVER
end CS
