import Verif.Lemmas.SvdWitness
import Verif.Lemmas.Solver

/-!
# Diagonal matrices, and the steps of `solve` around `svdcmp`
-/

namespace CS.SOLVER
open Arith Libm Matrix
variable {m n : ℕ}

/-- Householder reduction leaves the superdiagonal of a diagonal matrix at zero. -/
theorem householder_diagonal (hmn : n ≤ m) (A : Mat ℝ m n) (hA : ∀ r c, r.val ≠ c.val → A r c = 0) (w : Vec ℝ n) :
    Ok (householder A w) (fun st => ∀ c, st.rv1 c = 0) := by
  refine Ok.mono (forUp_ok (fun i st => (∀ r c, i ≤ r.val → i ≤ c.val → st.a r c = A r c) ∧
    (∀ c : Fin n, c.val < i → st.rv1 c = 0) ∧ st.scale * st.g = 0) (Nat.zero_le n)
    ⟨fun _ _ _ _ => rfl, fun c hc => absurd hc (Nat.not_lt_zero _), by simp⟩ ?_) fun st h c => h.2.1 c c.2
  rintro i st - hi ⟨h1, h2, h3⟩
  have him : i < m := by omega
  obtain ⟨st1, q1, L, -, lr⟩ := leftStep_real hi him st
  obtain ⟨st2, q2, -, tr, T, T'⟩ := rightStep_real hi him st1
  simp only [bind, Except.bind]
  rw [q1]
  simp only []
  refine Ok.of_eq q2 ?_
  have hr : ∀ c : Fin n, c.val < i + 1 → st2.rv1 c = 0 := by
    intro c hc
    rw [tr c (by omega), lr c]
    split_ifs with h
    · exact h3
    · exact h2 c (by omega)
  -- the reflection of a column that is already on the axis
  have hl : ∀ r c, i ≤ r.val → i < c.val → st1.a r c = A r c := by
    intro r c hr hc
    rw [L.refl r c hc hr, h1 r c hr (by omega)]
    have hs : (∑ k : Fin m, if i ≤ k.val then st1.a k ⟨i, hi⟩ * st.a k c else 0) = st1.a ⟨c.val, by omega⟩ ⟨i, hi⟩ * A ⟨c.val, by omega⟩ c := by
      rw [Finset.sum_eq_single (⟨c.val, by omega⟩ : Fin m)]
      · rw [if_pos (by simp; omega), h1 _ _ (by simp; omega) (by omega)]
      · intro k _ hk
        split_ifs with h
        · rw [h1 _ _ h (by omega), hA _ _ (fun h' => hk (Fin.ext h')), mul_zero]
        · rfl
      · intro h; exact absurd (Finset.mem_univ _) h
    rw [hs]
    have hcol := L.col ⟨c.val, by omega⟩ (by simp; omega)
    rw [if_neg (by simp; omega), h1 _ _ (by simp; omega) le_rfl, hA _ _ (by simp; omega), zero_add] at hcol
    rcases mul_eq_zero.1 hcol with h | h
    · rw [h]; simp
    · rcases mul_eq_zero.1 h with h | h
      · rw [h]; simp
      · -- the column is zero
        have hcol' := L.col ⟨i, him⟩ le_rfl
        rw [if_pos rfl, h, h1 _ _ le_rfl le_rfl, mul_zero, mul_zero, add_zero] at hcol'
        have hs' : (∑ k : Fin m, if i ≤ k.val then st1.a k ⟨i, hi⟩ * st.a k ⟨i, hi⟩ else 0) = st1.a ⟨i, him⟩ ⟨i, hi⟩ * A ⟨i, him⟩ ⟨i, hi⟩ := by
          rw [Finset.sum_eq_single (⟨i, him⟩ : Fin m)]
          · rw [if_pos le_rfl, h1 _ _ le_rfl le_rfl]
          · intro k _ hk
            split_ifs with h
            · rw [h1 _ _ h le_rfl, hA _ _ (fun h' => hk (Fin.ext h')), mul_zero]
            · rfl
          · intro h; exact absurd (Finset.mem_univ _) h
        rw [hs', hcol'] at h
        rw [h, _root_.inv_zero]
        ring
  by_cases hin : i + 1 < n
  · have R := T hin
    have hrow : ∀ k : Fin n, i + 1 ≤ k.val → st1.a ⟨i, him⟩ k = 0 := fun k hk => by
      rw [hl _ _ le_rfl (by omega), hA _ _ (by simp; omega)]
    have hs : (∑ k : Fin n, if i + 1 ≤ k.val then st2.a ⟨i, him⟩ k * st1.a ⟨i, him⟩ k else 0) = 0 :=
      Finset.sum_eq_zero fun k _ => by
        split_ifs with h
        · rw [hrow k h, mul_zero]
        · rfl
    have he := R.row ⟨i + 1, hin⟩ le_rfl
    rw [if_pos rfl, hs, hrow _ le_rfl] at he
    have he0 : st2.scale * st2.g = 0 := by rw [← he]; ring
    refine ⟨fun r c h4 h5 => ?_, hr, he0⟩
    rw [R.refl r c (by omega) h5, he0, hl r c (by omega) (by omega)]
    simp
  · obtain ⟨-, h5⟩ := T' (by omega)
    refine ⟨fun r c h4 h5 => ?_, hr, by rw [h5, mul_zero]⟩
    exact absurd c.2 (by omega)

/-- The inner product of the columns `c` and `c'` below row `i`. -/
def dotFrom (i : ℕ) (a : Mat ℝ m n) (c c' : Fin n) : ℝ := ∑ k : Fin m, if i ≤ k.val then a k c * a k c' else 0

theorem sum_reflect (i : ℕ) (p f g : Fin m → ℝ) (H : ℝ) {s1 s2 : ℝ} (h1 : s1 = ∑ k : Fin m, if i ≤ k.val then p k * f k else 0)
    (h2 : s2 = ∑ k : Fin m, if i ≤ k.val then p k * g k else 0) :
    (∑ k : Fin m, if i ≤ k.val then (f k + p k * (H⁻¹ * s1)) * (g k + p k * (H⁻¹ * s2)) else 0) =
      (∑ k : Fin m, if i ≤ k.val then f k * g k else 0) + H⁻¹ * s2 * s1 + H⁻¹ * s1 * s2 +
        H⁻¹ * s1 * (H⁻¹ * s2) * ∑ k : Fin m, if i ≤ k.val then p k * p k else 0 := by
  have e1 : H⁻¹ * s2 * s1 = ∑ k : Fin m, H⁻¹ * s2 * (if i ≤ k.val then p k * f k else 0) := by
    rw [← Finset.mul_sum, ← h1]
  have e2 : H⁻¹ * s1 * s2 = ∑ k : Fin m, H⁻¹ * s1 * (if i ≤ k.val then p k * g k else 0) := by
    rw [← Finset.mul_sum, ← h2]
  rw [e1, e2, Finset.mul_sum, ← Finset.sum_add_distrib, ← Finset.sum_add_distrib, ← Finset.sum_add_distrib]
  refine Finset.sum_congr rfl fun k _ => ?_
  split_ifs
  · ring
  · ring

/-- Householder reduction leaves the superdiagonal at zero when the columns are orthogonal and not zero. -/
theorem householder_orthogonal (hmn : n ≤ m) (A : Mat ℝ m n) (hA : ∀ c c', c ≠ c' → dotFrom 0 A c c' = 0)
    (hA' : ∀ c, dotFrom 0 A c c ≠ 0) (w : Vec ℝ n) :
    Ok (householder A w) (fun st => ∀ c, st.rv1 c = 0) := by
  refine Ok.mono (forUp_ok (fun i st => (∀ c c' : Fin n, i ≤ c.val → i ≤ c'.val → dotFrom i st.a c c' = dotFrom 0 A c c') ∧
    (∀ c : Fin n, c.val < i → st.rv1 c = 0) ∧ st.scale * st.g = 0) (Nat.zero_le n)
    ⟨fun _ _ _ _ => rfl, fun c hc => absurd hc (Nat.not_lt_zero _), by simp⟩ ?_) fun st h c => h.2.1 c c.2
  rintro i st - hi ⟨h1, h2, h3⟩
  have him : i < m := by omega
  obtain ⟨st1, q1, L, -, lr⟩ := leftStep_real hi him st
  obtain ⟨st2, q2, -, tr, T, T'⟩ := rightStep_real hi him st1
  simp only [bind, Except.bind]
  rw [q1]
  simp only []
  refine Ok.of_eq q2 ?_
  have hr : ∀ c : Fin n, c.val < i + 1 → st2.rv1 c = 0 := by
    intro c hc
    rw [tr c (by omega), lr c]
    split_ifs with h
    · exact h3
    · exact h2 c (by omega)
  set p : Fin m → ℝ := fun k => st1.a k ⟨i, hi⟩ with hp
  set wi := st1.w ⟨i, hi⟩ with hwi
  set H := st1.a ⟨i, him⟩ ⟨i, hi⟩ * wi with hH
  -- the diagonal entry
  have hwi0 : wi ≠ 0 := by
    intro h0
    refine hA' ⟨i, hi⟩ ?_
    rw [← h1 _ _ le_rfl le_rfl]
    refine Finset.sum_eq_zero fun k _ => ?_
    split_ifs with h
    · have := L.col k h
      rw [h0, mul_zero, _root_.inv_zero, zero_mul, mul_zero, add_zero, ite_self] at this
      rw [this, mul_zero]
    · rfl
  obtain ⟨hpi, hnorm⟩ := L.norm.resolve_left hwi0
  have hH0 : H ≠ 0 := mul_ne_zero hpi hwi0
  -- the reflection, as a function on columns
  let b : Mat ℝ m n := fun k c => st.a k c + p k * (H⁻¹ * ∑ k : Fin m, if i ≤ k.val then p k * st.a k c else 0)
  have hb : ∀ c c' : Fin n, dotFrom i b c c' = dotFrom i st.a c c' := by
    intro c c'
    set s1 := ∑ k : Fin m, if i ≤ k.val then p k * st.a k c else 0 with hs1
    set s2 := ∑ k : Fin m, if i ≤ k.val then p k * st.a k c' else 0 with hs2
    have hsum : dotFrom i b c c' = dotFrom i st.a c c' + H⁻¹ * s2 * s1 + H⁻¹ * s1 * s2 +
        H⁻¹ * s1 * (H⁻¹ * s2) * ∑ k : Fin m, if i ≤ k.val then p k * p k else 0 := by
      exact sum_reflect i p (fun k => st.a k c) (fun k => st.a k c') H hs1 hs2
    rw [hsum, hnorm]
    field_simp
    ring
  have hcol : ∀ k : Fin m, i ≤ k.val → b k ⟨i, hi⟩ = if k.val = i then wi else 0 := fun k hk => L.col k hk
  have hrest : ∀ (k : Fin m) (c : Fin n), i ≤ k.val → i < c.val → st1.a k c = b k c := fun k c hk hc => L.refl k c hc hk
  -- the row is cleared
  have hrow : ∀ c : Fin n, i < c.val → st1.a ⟨i, him⟩ c = 0 := by
    intro c hc
    have h4 : dotFrom i b ⟨i, hi⟩ c = 0 := by
      rw [hb, h1 _ _ le_rfl (by omega), hA _ _ (fun h => by rw [← h] at hc; exact absurd hc (lt_irrefl _))]
    unfold dotFrom at h4
    rw [Finset.sum_eq_single (⟨i, him⟩ : Fin m)] at h4
    · rw [if_pos le_rfl, hcol _ le_rfl, if_pos rfl, ← hrest _ _ le_rfl hc] at h4
      exact (mul_eq_zero.1 h4).resolve_left hwi0
    · intro k _ hk
      split_ifs with h
      · rw [hcol k h, if_neg (fun h' => hk (Fin.ext h')), zero_mul]
      · rfl
    · intro h; exact absurd (Finset.mem_univ _) h
  have hdot : ∀ c c' : Fin n, i + 1 ≤ c.val → i + 1 ≤ c'.val → dotFrom (i + 1) st1.a c c' = dotFrom 0 A c c' := by
    intro c c' hc hc'
    rw [← h1 c c' (by omega) (by omega), ← hb]
    refine Finset.sum_congr rfl fun k _ => ?_
    by_cases hk : k.val = i
    · have : k = ⟨i, him⟩ := Fin.ext hk
      subst this
      rw [if_neg (by simp), if_pos le_rfl, ← hrest _ c le_rfl (by omega), hrow c (by omega), zero_mul]
    · by_cases hk' : i ≤ k.val
      · rw [if_pos (by omega), if_pos hk', hrest _ _ hk' (by omega), hrest _ _ hk' (by omega)]
      · rw [if_neg (by omega), if_neg hk']
  by_cases hin : i + 1 < n
  · have R := T hin
    have hs : (∑ k : Fin n, if i + 1 ≤ k.val then st2.a ⟨i, him⟩ k * st1.a ⟨i, him⟩ k else 0) = 0 :=
      Finset.sum_eq_zero fun k _ => by
        split_ifs with h
        · rw [hrow k (by omega), mul_zero]
        · rfl
    have he := R.row ⟨i + 1, hin⟩ le_rfl
    rw [if_pos rfl, hs, hrow _ (by simp)] at he
    have he0 : st2.scale * st2.g = 0 := by rw [← he]; ring
    refine ⟨fun c c' h4 h5 => ?_, hr, he0⟩
    rw [← hdot c c' h4 h5]
    refine Finset.sum_congr rfl fun k _ => ?_
    split_ifs with h
    · rw [R.refl k c (by omega) h4, R.refl k c' (by omega) h5, he0]
      simp
    · rfl
  · obtain ⟨-, h5⟩ := T' (by omega)
    refine ⟨fun c c' h4 h5 => ?_, hr, by rw [h5, mul_zero]⟩
    exact absurd c.2 (by omega)

/-- Nothing to diagonalise. -/
theorem diagonalize_zero {anorm : ℝ} (ha : 0 ≤ anorm) : ∀ (K : ℕ) (d : Dg ℝ m n), K ≤ n → OrthC d.a → OrthC d.v →
    (∀ t, d.rv1 t = 0) → Ok (diagonalize anorm K d) (fun p => p.1 = true ∧ OrthC p.2.a ∧ OrthC p.2.v ∧ (∀ t, p.2.rv1 t = 0) ∧
      (∀ t, t < K → 0 ≤ ent p.2.w t) ∧ (∀ t, K ≤ t → ent p.2.w t = ent d.w t) ∧
      ∀ A : Mat ℝ m n, Near (of A) 0 K d → Near (of A) 0 0 p.2) := by
  intro K
  induction K with
  | zero =>
    intro d _ oa ov hr
    unfold diagonalize
    exact Ok.ok ⟨rfl, oa, ov, hr, fun t h => absurd h (Nat.not_lt_zero _), fun _ _ => rfl, fun A h => h⟩
  | succ k ih =>
    intro d hK oa ov hr
    have he : ∀ t, ent d.rv1 t = 0 := fun t => by
      unfold ent
      split_ifs
      · exact hr _
      · rfl
    unfold diagonalize
    refine (iters_zero anorm ha d (k := k) (by omega) oa ov (he 0) (he k)).bind fun p hp => ?_
    obtain ⟨c, d1⟩ := p
    obtain ⟨h1, k1, k2, k3, k4, k5, k6⟩ := hp
    simp only at h1 k1 k2 k3 k4 k5 k6
    subst h1
    simp only [reduceCtorEq, if_false]
    refine (ih d1 (by omega) k1 k2 (by rw [k4]; exact hr)).mono ?_
    rintro ⟨b, d2⟩ ⟨g1, g2, g3, g4, g5, g6, g7⟩
    refine ⟨g1, g2, g3, g4, fun t ht => ?_, fun t ht => (g6 t (by omega)).trans (k5 t (by omega)), fun A h => g7 A (k6 A h)⟩
    rcases Nat.lt_succ_iff_lt_or_eq.1 ht with h | rfl
    · exact g5 t h
    · rw [g6 t le_rfl]; exact k3

/-- `svdcmp` when the Householder reduction already diagonalises. -/
theorem svdcmp_reduced (hmn : n ≤ m) (A : Mat ℝ m n) (w : Vec ℝ n) (v : Mat ℝ n n)
    (hz : Ok (householder A w) (fun st => ∀ c, st.rv1 c = 0)) :
    ∃ d, svdcmpFull A w v = .ok (1, d) ∧ OrthC d.a ∧ OrthC d.v ∧ (∀ t, 0 ≤ d.w t) ∧ (∀ t, d.rv1 t = 0) ∧
      of A = of d.a * diagonal d.w * (of d.v)ᵀ := by
  obtain ⟨st, u, v', e1, e2, e3, e4, e5, e6, e7⟩ := reduce_real hmn A w v
  have oa : OrthC u := (orthC_iff u).2 e4
  have ov : OrthC v' := (orthC_iff v').2 e5
  have hfact := (fact_iff A u st.w st.rv1 v' e7 ov).1 e6
  obtain ⟨st', f1, f2, _⟩ := householder_anorm A w
  rw [e1] at f1
  cases f1
  obtain ⟨st', f1, f3⟩ := hz
  rw [e1] at f1
  cases f1
  have hN : Near (of A) 0 n ⟨u, st.w, v', st.rv1⟩ := ⟨0, by rw [frob_zero], fun t ht => by
    rw [add_zero, if_pos ht]
    exact hfact t ht⟩
  obtain ⟨⟨b, d⟩, h1, h2, h3, h4, h5, h6, h7, h8⟩ := diagonalize_zero f2 n ⟨u, st.w, v', st.rv1⟩ le_rfl oa ov f3
  simp only at h2 h3 h4 h5 h6 h8
  subst h2
  refine ⟨d, ?_, h3, h4, fun t => ?_, h5, (h8 A hN).exact h4⟩
  · unfold svdcmpFull
    rw [if_neg (by omega), e1]
    simp only [bind, Except.bind]
    rw [e2]
    simp only []
    rw [e3]
    simp only []
    rw [h1]
    rfl
  · have := h6 t t.2
    rwa [ent_eq d.w t.2] at this

/-- `svdcmp` on a diagonal matrix. -/
theorem svdcmp_diagonal (hmn : n ≤ m) (A : Mat ℝ m n) (hA : ∀ r c, r.val ≠ c.val → A r c = 0) (w : Vec ℝ n) (v : Mat ℝ n n) :
    ∃ d, svdcmpFull A w v = .ok (1, d) ∧ OrthC d.a ∧ OrthC d.v ∧ (∀ t, 0 ≤ d.w t) ∧ (∀ t, d.rv1 t = 0) ∧
      of A = of d.a * diagonal d.w * (of d.v)ᵀ :=
  svdcmp_reduced hmn A w v (householder_diagonal hmn A hA w)

/-- `svdcmp` on a matrix with orthogonal nonzero columns. -/
theorem svdcmp_orthogonal (hmn : n ≤ m) (A : Mat ℝ m n) (hA : ∀ c c', c ≠ c' → ∑ k, A k c * A k c' = 0)
    (hA' : ∀ c, ∃ k, A k c ≠ 0) (w : Vec ℝ n) (v : Mat ℝ n n) :
    ∃ d, svdcmpFull A w v = .ok (1, d) ∧ OrthC d.a ∧ OrthC d.v ∧ (∀ t, 0 ≤ d.w t) ∧ (∀ t, d.rv1 t = 0) ∧
      of A = of d.a * diagonal d.w * (of d.v)ᵀ := by
  have hd : ∀ c c', dotFrom 0 A c c' = ∑ k, A k c * A k c' := fun c c' => by simp [dotFrom]
  refine svdcmp_reduced hmn A w v (householder_orthogonal hmn A (fun c c' h => by rw [hd, hA c c' h]) (fun c => ?_) w)
  obtain ⟨k, hk⟩ := hA' c
  rw [hd]
  exact (Finset.sum_pos' (f := fun k => A k c * A k c) (fun k _ => mul_self_nonneg _) ⟨k, Finset.mem_univ k, mul_self_pos.2 hk⟩).ne'

/-! ### `solve` -/

theorem wmax_real (w : Vec ℝ n) : Ok (wmax w) (fun mx => 0 ≤ mx ∧ (∀ j, w j ≤ mx) ∧ (mx = 0 ∨ ∃ j, mx = w j)) := by
  refine Ok.mono (forUp_ok (fun k mx => 0 ≤ mx ∧ (∀ j : Fin n, j.val < k → w j ≤ mx) ∧ (mx = 0 ∨ ∃ j, mx = w j))
    (Nat.zero_le n) ⟨by simp, fun j hj => absurd hj (Nat.not_lt_zero _), .inl (by simp)⟩ ?_)
    fun mx h => ⟨h.1, fun j => h.2.1 j j.2, h.2.2⟩
  rintro k mx - hk ⟨h1, h2, h3⟩
  refine (rd_ok w hk).bind ?_
  rintro x rfl
  refine Ok.ite (fun h => (rd_ok w hk).mono ?_) fun h => Ok.ok ?_
  · rintro y rfl
    have h' : mx < w ⟨k, hk⟩ := by simpa using h
    refine ⟨by linarith, fun j hj => ?_, .inr ⟨_, rfl⟩⟩
    rcases Nat.lt_succ_iff_lt_or_eq.1 hj with h4 | h4
    · linarith [h2 j h4]
    · rw [show j = ⟨k, hk⟩ from Fin.ext h4]
  · have h' : w ⟨k, hk⟩ ≤ mx := by simpa using h
    refine ⟨h1, fun j hj => ?_, h3⟩
    rcases Nat.lt_succ_iff_lt_or_eq.1 hj with h4 | h4
    · exact h2 j h4
    · rw [show j = ⟨k, hk⟩ from Fin.ext h4]; exact h'

theorem clampW_real (w : Vec ℝ n) (th : ℝ) : clampW w th = .ok (fun j => if w j < th then 0 else w j) := by
  obtain ⟨w', h1, h2⟩ := forUp_ok (f := fun j (w : Vec ℝ n) => do
      let x ← rd w j
      if lt x th then wr w j (lit 0) else .ok w) (s := w)
    (fun k w' => ∀ j : Fin n, w' j = if j.val < k then (if w j < th then 0 else w j) else w j)
    (Nat.zero_le n) (fun j => by rw [if_neg (Nat.not_lt_zero _)]) (fun k w' _ hk hI => by
      refine (rd_ok w' hk).bind ?_
      rintro x rfl
      have hk' : w' ⟨k, hk⟩ = w ⟨k, hk⟩ := by rw [hI]; simp
      refine Ok.ite (fun h => (wr_ok w' hk _).mono ?_) fun h => Ok.ok fun j => ?_
      · rintro w2 rfl j
        have h' : w ⟨k, hk⟩ < th := by simpa [hk'] using h
        by_cases hj : j = ⟨k, hk⟩
        · subst hj
          rw [Function.update_self, if_pos (by simp), if_pos h']
          simp
        · have hj' : j.val ≠ k := fun h => hj (Fin.ext h)
          rw [Function.update_of_ne hj, hI]
          simp only [show j.val < k + 1 ↔ j.val < k by omega]
      · have h' : ¬ w ⟨k, hk⟩ < th := by simpa [hk'] using h
        by_cases hj : j = ⟨k, hk⟩
        · subst hj
          rw [hk', if_pos (by simp), if_neg h']
        · have hj' : j.val ≠ k := fun h => hj (Fin.ext h)
          rw [hI]
          simp only [show j.val < k + 1 ↔ j.val < k by omega])
  refine h1.trans (congrArg _ (funext fun j => ?_))
  rw [h2 j, if_pos j.2]

theorem tmpEntry_read {ε : ℝ} {E : ℝ → ℝ → Bool} (hE : NearEq ε E) {q : ℕ} :
    @tmpEntry ℝ (readEq E) m n q = @tmpEntry ℝ instLibmReal m n q := by
  funext u w b j
  unfold tmpEntry
  rw [truthy_read hE]
  rfl

theorem svbksb_read {ε : ℝ} {E : ℝ → ℝ → Bool} (hE : NearEq ε E) {p q : ℕ} :
    @svbksb ℝ (readEq E) m n p q = @svbksb ℝ instLibmReal m n p q := by
  funext u w v b x
  unfold svbksb
  rw [tmpEntry_read hE]
  rfl

/-- `solve`, given what `svdcmp` did. -/
theorem solve_after {ε : ℝ} {E : ℝ → ℝ → Bool} (hE : NearEq ε E) (A : Mat ℝ m n) (b : Vec ℝ m) (x0 : Vec ℝ n) (TOL : ℝ)
    {d : Dg ℝ m n} (h : @svdcmpFull ℝ (readEq E) m n A vzero mzero = .ok (1, d)) :
    ∃ mx, 0 ≤ mx ∧ (∀ j, d.w j ≤ mx) ∧ (mx = 0 ∨ ∃ j, mx = d.w j) ∧
      @solve ℝ (readEq E) m n n m A b x0 TOL =
        (svbksb d.a (fun j => if d.w j < TOL * mx then 0 else d.w j) d.v b x0 >>= fun x => .ok (0, x)) := by
  obtain ⟨mx, h1, h2, h3, h4⟩ := wmax_real d.w
  refine ⟨mx, h2, h3, h4, ?_⟩
  have h1' : @wmax ℝ (readEq E) n d.w = .ok mx := h1
  have h5 : @clampW ℝ (readEq E) n d.w (TOL * mx) = _ := clampW_real d.w (TOL * mx)
  have h6 : @svdcmpFull ℝ (readEq E) m n A (@vzero ℝ (readEq E) n) (@mzero ℝ (readEq E) n n) = .ok (1, d) := h
  unfold solve svdcmp
  rw [h6]
  simp only [bind, Except.bind]
  rw [if_neg (by decide), h1']
  simp only []
  erw [h5]
  simp only []
  rw [svbksb_read hE]

/-- A minimum-norm least-squares solution from the factors. -/
theorem svbksb_lsq (u : Mat ℝ m n) (w : Vec ℝ n) (v : Mat ℝ n n) (b : Vec ℝ m) (x0 : Vec ℝ n)
    (H : ∃ x, svbksb u w v b x0 = .ok x ∧ ∀ y : Fin n → ℝ,
        (∑ i, (((of u * diagonal w * (of v)ᵀ) *ᵥ x) i - b i) ^ 2 ≤ ∑ i, (((of u * diagonal w * (of v)ᵀ) *ᵥ y) i - b i) ^ 2) ∧
        (∑ i, (((of u * diagonal w * (of v)ᵀ) *ᵥ y) i - b i) ^ 2 ≤ ∑ i, (((of u * diagonal w * (of v)ᵀ) *ᵥ x) i - b i) ^ 2 →
          ∑ j, x j ^ 2 ≤ ∑ j, y j ^ 2 ∧ (∑ j, y j ^ 2 ≤ ∑ j, x j ^ 2 → y = x))) :
    ∃ x, svbksb u w v b x0 = .ok x ∧ MinNormLsq (of u * diagonal w * (of v)ᵀ) b x := by
  obtain ⟨x, h1, h2⟩ := H
  have hsq : ∀ {k : ℕ} (y z : Fin k → ℝ), euclid y ≤ euclid z ↔ ∑ i, y i ^ 2 ≤ ∑ i, z i ^ 2 := fun y z => by
    rw [← euclid_sq, ← euclid_sq]
    exact (pow_le_pow_iff_left₀ (euclid_nonneg _) (euclid_nonneg _) two_ne_zero).symm
  refine ⟨x, h1, fun y => ?_⟩
  rw [hsq, hsq, hsq, hsq]
  exact h2 y

/-- The singular values are bounded by the norm. -/
theorem frob_diagonal {U : Matrix (Fin m) (Fin n) ℝ} {V : Matrix (Fin n) (Fin n) ℝ} (hU : Uᵀ * U = 1) (hV : Vᵀ * V = 1)
    (w : Vec ℝ n) : frob (U * diagonal w * Vᵀ) ^ 2 = ∑ j, w j ^ 2 := by
  rw [frob_orth hU hV, frob_sq]
  refine Finset.sum_congr rfl fun i _ => ?_
  rw [Finset.sum_eq_single i]
  · simp
  · intro j _ hj
    rw [diagonal_apply_ne' _ hj]; simp
  · intro h; exact absurd (Finset.mem_univ _) h

theorem sv_le {U : Matrix (Fin m) (Fin n) ℝ} {V : Matrix (Fin n) (Fin n) ℝ} (hU : Uᵀ * U = 1) (hV : Vᵀ * V = 1)
    (w : Vec ℝ n) (j : Fin n) : w j ≤ frob (U * diagonal w * Vᵀ) := by
  refine le_of_sq_le_sq' ?_ (frob_nonneg _)
  rw [frob_diagonal hU hV]
  exact Finset.single_le_sum (f := fun j => w j ^ 2) (fun j _ => sq_nonneg _) (Finset.mem_univ j)

/-- Removing the singular values below a threshold. -/
theorem clamp_close {U : Matrix (Fin m) (Fin n) ℝ} {V : Matrix (Fin n) (Fin n) ℝ} (hU : Uᵀ * U = 1) (hV : Vᵀ * V = 1)
    (w : Vec ℝ n) (hw : ∀ j, 0 ≤ w j) (th : ℝ) (hth : 0 ≤ th) :
    frob (U * diagonal (fun j => if w j < th then 0 else w j) * Vᵀ - U * diagonal w * Vᵀ) ^ 2 ≤ n * th ^ 2 := by
  rw [← Matrix.sub_mul, ← Matrix.mul_sub, diagonal_sub, frob_diagonal hU hV]
  refine (Finset.sum_le_sum (g := fun _ => th ^ 2) fun j _ => ?_).trans (by simp)
  show ((if w j < th then 0 else w j) - w j) ^ 2 ≤ th ^ 2
  split_ifs with h
  · have := hw j
    nlinarith
  · rw [sub_self, zero_pow two_ne_zero]; exact sq_nonneg _

end CS.SOLVER
