import Verif.Lemmas.SvdRead
import Verif.Lemmas.SvdSafe

/-!
# The diagonalisation loop of `svdcmp`, in exact arithmetic with any near-exact reading of `==`
-/

namespace CS.SOLVER
open Arith Libm Matrix
variable {m n : ℕ} {ε : ℝ} {E : ℝ → ℝ → Bool}

/-! ### The factorisation up to a small perturbation -/

/-- `A` plus a matrix of norm at most `κ` is `u B v^T`, `B` being bidiagonal with the entries `K ..` of `rv1`
replaced by zero. -/
def Near (A : Matrix (Fin m) (Fin n) ℝ) (κ : ℝ) (K : ℕ) (d : Dg ℝ m n) : Prop :=
  ∃ D : Matrix (Fin m) (Fin n) ℝ, frob D ≤ κ ∧
    ∀ t, t < n → FactC (A + D) d.a d.v t (ent d.w t) (if t < K then ent d.rv1 t else 0)

/-- Changing one superdiagonal entry is a perturbation of the matrix. -/
theorem change_entry {A D : Matrix (Fin m) (Fin n) ℝ} {a : Mat ℝ m n} {v : Mat ℝ n n} {w e : ℕ → ℝ} (e' : ℕ → ℝ) {l : ℕ}
    (hl : l < n) (oa : OrthC a) (ov : OrthC v) (h : ∀ t, t < n → FactC (A + D) a v t (w t) (e t))
    (he : ∀ t, t ≠ l → e' t = e t) :
    ∃ D' : Matrix (Fin m) (Fin n) ℝ, frob D' ≤ frob D + |e' l - e l| ∧
      ∀ t, t < n → FactC (A + D') a v t (w t) (e' t) := by
  refine ⟨D + vecMulVec ((e' l - e l) • col a (l - 1)) (col v l), ?_, ?_⟩
  · refine (frob_add_le _ _).trans (le_of_eq ?_)
    have h1 := ov l l hl hl
    have h2 := oa (l - 1) (l - 1) (by omega) (by omega)
    rw [if_pos rfl] at h1 h2
    rw [frob_rank_one, euclid_smul, euclid_of_dot h1, euclid_of_dot h2]
    ring
  · intro t ht
    have h0 : (A + D) *ᵥ col v t = w t • col a t + e t • col a (t - 1) := h t ht
    show (A + (D + _)) *ᵥ col v t = w t • col a t + e' t • col a (t - 1)
    rw [← add_assoc, add_mulVec, h0, vecMulVec_mulVec, ov l t hl ht]
    by_cases hlt : l = t
    · subst hlt
      funext i
      simp only [if_true, Pi.add_apply, Pi.smul_apply, smul_eq_mul, MulOpposite.op_one, one_smul]
      ring
    · rw [if_neg hlt, he t (fun h => hlt h.symm)]
      simp

theorem Near.shrink {A : Matrix (Fin m) (Fin n) ℝ} {κ η : ℝ} {k : ℕ} {d : Dg ℝ m n} (hk : k < n) (oa : OrthC d.a)
    (ov : OrthC d.v) (h : Near A κ (k + 1) d) (hη : |ent d.rv1 k| ≤ η) : Near A (κ + η) k d := by
  obtain ⟨D, h1, h2⟩ := h
  obtain ⟨D', h3, h4⟩ := change_entry (fun t => if t < k then ent d.rv1 t else 0) hk oa ov h2 (fun t ht => by
    split_ifs <;> first | rfl | omega)
  refine ⟨D', h3.trans (add_le_add h1 ?_), h4⟩
  simpa using hη

theorem Near.mono {A : Matrix (Fin m) (Fin n) ℝ} {κ κ' : ℝ} {k : ℕ} {d : Dg ℝ m n} (h : Near A κ k d) (hκ : κ ≤ κ') :
    Near A κ' k d := by
  obtain ⟨D, h1, h2⟩ := h
  exact ⟨D, h1.trans hκ, h2⟩

/-- The matrix form. -/
theorem Near.matrix {A : Mat ℝ m n} {κ : ℝ} {K : ℕ} {d : Dg ℝ m n} (h : Near (of A) κ K d) (ov : OrthC d.v)
    (h0 : ent d.rv1 0 = 0) :
    ∃ D : Matrix (Fin m) (Fin n) ℝ, frob D ≤ κ ∧
      of A + D = of d.a * bidiag d.w (fun t => if t.val < K then d.rv1 t else 0) * (of d.v)ᵀ := by
  obtain ⟨D, h1, h2⟩ := h
  refine ⟨D, h1, ?_⟩
  have := (fact_iff (fun i j => A i j + D i j) d.a d.w (fun t => if t.val < K then d.rv1 t else 0) d.v ?_ ov).2 ?_
  · exact this
  · intro hn
    rw [ent_eq _ hn] at h0
    simp [h0]
  · intro t ht
    have := h2 t ht
    rw [ent_eq (fun t : Fin n => if t.val < K then d.rv1 t else 0) ht, ← ent_eq d.rv1 ht]
    exact this

/-- Diagonal entries are no smaller than the smallest singular value. -/
theorem Near.lower {A : Mat ℝ m n} {κ σ : ℝ} {K : ℕ} {d : Dg ℝ m n} (h : Near (of A) κ K d) (oa : OrthC d.a) (ov : OrthC d.v)
    (h0 : ent d.rv1 0 = 0) (hσ : ∀ x : Fin n → ℝ, σ * euclid x ≤ euclid (of A *ᵥ x)) {t : ℕ} (ht : t < n) :
    σ - κ ≤ |ent d.w t| := by
  obtain ⟨D, h1, h2⟩ := h.matrix ov h0
  have huu := (orthC_iff _).1 oa
  have hvv := (orthC_iff _).1 ov
  set B := bidiag d.w (fun t => if t.val < K then d.rv1 t else 0) with hB
  obtain ⟨y, hy, hBy⟩ := triangular_eigen B (fun i j hij => by
    rw [hB]; unfold bidiag
    have : j.val < i.val := hij
    simp only [of_apply]
    rw [if_neg (by omega), if_neg (by omega)]) ⟨t, ht⟩
  have hBt : B ⟨t, ht⟩ ⟨t, ht⟩ = ent d.w t := by
    rw [hB, ent_eq d.w ht]; unfold bidiag; simp
  rw [hBt] at hBy
  have hx : (of A + D) *ᵥ (of d.v *ᵥ y) = ent d.w t • (of d.a *ᵥ y) := by
    rw [h2, mulVec_mulVec, Matrix.mul_assoc, hvv, Matrix.mul_one, ← mulVec_mulVec, hBy, mulVec_smul]
  have hlen : euclid (of d.v *ᵥ y) = euclid y := euclid_orth hvv y
  have hpos := euclid_pos hy
  have e1 := hσ (of d.v *ᵥ y)
  have e2 : of A *ᵥ (of d.v *ᵥ y) = (of A + D) *ᵥ (of d.v *ᵥ y) + (-1 : ℝ) • (D *ᵥ (of d.v *ᵥ y)) := by
    rw [add_mulVec]; simp
  have e3 := euclid_add_le ((of A + D) *ᵥ (of d.v *ᵥ y)) ((-1 : ℝ) • (D *ᵥ (of d.v *ᵥ y)))
  rw [← e2, euclid_smul, hx, euclid_smul, euclid_orth huu] at e3
  have e4 := euclid_mulVec_le D (of d.v *ᵥ y)
  rw [hlen] at e1 e4
  simp only [abs_neg, abs_one, one_mul] at e3
  have e5 : frob D * euclid y ≤ κ * euclid y := mul_le_mul_of_nonneg_right h1 hpos.le
  have : (σ - κ) * euclid y ≤ |ent d.w t| * euclid y := by linarith
  exact le_of_mul_le_mul_right this hpos

/-! ### The splitting test -/

theorem splitTest_read (hE : NearEq ε E) {w rv1 : Vec ℝ n} {anorm : ℝ} (h0 : ent rv1 0 = 0) :
    ∀ k : ℕ, k < n → Ok (@splitTest ℝ (readEq E) n w rv1 anorm k) (fun p => p.2 ≤ k ∧
      (∀ t, p.2 < t → t ≤ k → @negligible ℝ (readEq E) anorm (ent rv1 t) = false) ∧
      (∀ t, p.2 ≤ t → t < k → @negligible ℝ (readEq E) anorm (ent w t) = false) ∧
      (p.1 = false → @negligible ℝ (readEq E) anorm (ent rv1 p.2) = true) ∧
      (p.1 = true → 0 < p.2 ∧ @negligible ℝ (readEq E) anorm (ent w (p.2 - 1)) = true ∧
        @negligible ℝ (readEq E) anorm (ent rv1 p.2) = false)) := by
  intro k
  induction k with
  | zero =>
    intro hk
    unfold splitTest
    rw [rd_eq rv1 hk, ← ent_eq rv1 hk]
    simp only [bind, Except.bind]
    have hn : @negligible ℝ (readEq E) anorm (ent rv1 0) = true := by rw [h0]; exact negligible_zero_read hE
    rw [if_pos hn]
    exact Ok.ok ⟨le_rfl, by omega, by omega, fun _ => hn, by simp⟩
  | succ l ih =>
    intro hk
    unfold splitTest
    rw [rd_eq rv1 hk, ← ent_eq rv1 hk]
    simp only [bind, Except.bind]
    by_cases hr : @negligible ℝ (readEq E) anorm (ent rv1 (l + 1)) = true
    · rw [if_pos hr]
      exact Ok.ok ⟨le_rfl, by omega, by omega, fun _ => hr, by simp⟩
    · rw [if_neg hr, rd_eq w (by omega : l < n), ← ent_eq w (by omega : l < n)]
      simp only []
      by_cases hw : @negligible ℝ (readEq E) anorm (ent w l) = true
      · rw [if_pos hw]
        exact Ok.ok ⟨le_rfl, by omega, by omega, by simp, fun _ => ⟨by omega, hw, by simpa using hr⟩⟩
      · rw [if_neg hw]
        refine (ih (by omega)).mono ?_
        rintro ⟨fl, p⟩ ⟨h1, h2, h3, h4, h5⟩
        refine ⟨by omega, fun t ht1 ht2 => ?_, fun t ht1 ht2 => ?_, h4, h5⟩
        · by_cases ht : t = l + 1
          · subst ht; simpa using hr
          · exact h2 t ht1 (by omega)
        · by_cases ht : t = l
          · subst ht; simpa using hw
          · exact h3 t ht1 (by omega)

theorem not_negligible (hE : NearEq ε E) {anorm x : ℝ} (h : @negligible ℝ (readEq E) anorm x = false) : x ≠ 0 := by
  rintro rfl
  rw [negligible_zero_read hE] at h
  cases h

/-! ### Cancellation -/

theorem cancelStep_read (hE : NearEq ε E) (rv1 : Vec ℝ n) (anorm : ℝ) {nm i : ℕ} (hi : i < n) (hnm : nm < i)
    (st : Mat ℝ m n × Vec ℝ n × ℝ) (oa : OrthC st.1) :
    Ok (@cancelStep ℝ (readEq E) m n rv1 anorm nm i st) (fun st' => OrthC st'.1 ∧
      (ent st'.2.1 i ≠ 0 ∨ ent st'.2.1 i = ent st.2.1 i) ∧ ∀ t, t ≠ i → ent st'.2.1 t = ent st.2.1 t) := by
  obtain ⟨a, w, s⟩ := st
  refine (rd_ok rv1 hi).bind fun r hr => Ok.ite (fun hn => ?_) fun hn => Ok.ok ⟨oa, .inr rfl, fun _ _ => rfl⟩
  have hn' : (!(@negligible ℝ (readEq E) anorm (s * r))) = true := hn
  have hf0 : s * r ≠ 0 := not_negligible hE (by simpa using hn')
  refine (rd_ok w hi).bind fun g hg => ?_
  refine Ok.bind (P := fun w' => w' = fun c : Fin n => if c.val = i then PYTHAG (s * r) g else w c)
    (Ok.of_eq (wr_fun w hi _) rfl) fun w' hw => ?_
  have hz : PYTHAG (s * r) g ≠ 0 := by
    rw [PYTHAG_real]
    exact (Real.sqrt_pos.2 (by positivity)).ne'
  obtain ⟨z1, _, _⟩ := pythag_rot hz
  obtain ⟨a', e1, e2⟩ := rotCols_spec a (by omega : nm < n) hi (by omega) (g * (lit 1 / PYTHAG (s * r) g))
    (-(s * r) * (lit 1 / PYTHAG (s * r) g))
  refine Ok.bind (P := fun b => b = a') (Ok.of_eq e1 rfl) fun b hb => Ok.ok ?_
  subst hb hw
  refine ⟨e2.orth (by omega) hi (by omega) ?_ oa, .inl ?_, fun t ht => ?_⟩
  · rw [← z1, lit_real, Rat.cast_one]; ring
  · show ent (fun c : Fin n => if c.val = i then PYTHAG (s * r) g else w c) i ≠ 0
    rw [ent_upd _ hi, if_pos rfl]; exact hz
  · show ent (fun c : Fin n => if c.val = i then PYTHAG (s * r) g else w c) t = ent w t
    rw [ent_upd _ hi, if_neg ht]

/-! ### One iteration -/

theorem negCol_spec (v : Mat ℝ n n) {k : ℕ} (hk : k < n) :
    ∃ v', negCol v k = .ok v' ∧ col v' k = -col v k ∧ ∀ t, t ≠ k → col v' t = col v t := by
  refine ⟨_, negCol_real v hk, ?_, ?_⟩
  · funext i
    simp [col, hk]
  · intro t ht
    funext i
    simp only [col]
    split_ifs <;> first | rfl | omega

theorem neg_orth {v v' : Mat ℝ n n} {k : ℕ} (h1 : col v' k = -col v k) (h2 : ∀ t, t ≠ k → col v' t = col v t)
    (ov : OrthC v) : OrthC v' := by
  intro s t hs ht
  by_cases hsk : s = k
  · by_cases htk : t = k
    · rw [hsk, htk, h1, neg_dotProduct, dotProduct_neg, neg_neg, ← hsk]
      simpa using ov s s hs hs
    · rw [hsk, h1, h2 t htk, neg_dotProduct, ← hsk, ov s t hs ht, if_neg (by omega), neg_zero]
  · by_cases htk : t = k
    · rw [htk, h1, h2 s hsk, dotProduct_neg, ← htk, ov s t hs ht, if_neg (by omega), neg_zero]
    · rw [h2 s hsk, h2 t htk, ov s t hs ht]

/-- What the iterations for singular value `k` guarantee; the factorisation is kept under the condition `C`. -/
structure IterOk (k K : ℕ) (d d' : Dg ℝ m n) (cost : ℝ) (C : Mat ℝ m n → ℝ → Prop) : Prop where
  oa : OrthC d'.a
  ov : OrthC d'.v
  first : ent d'.rv1 0 = 0
  keep : ∀ t, k < t → ent d'.w t = ent d.w t ∧ ent d'.rv1 t = ent d.rv1 t
  near : ∀ (A : Mat ℝ m n) (κ : ℝ), C A κ → Near (of A) κ (k + 1) d → Near (of A) (κ + cost) K d'

/-- The smallest singular value of `A` is larger than `κ`. -/
def Above (A : Mat ℝ m n) (κ : ℝ) : Prop := ∃ σ, (∀ x : Fin n → ℝ, σ * euclid x ≤ euclid (of A *ᵥ x)) ∧ κ < σ

theorem iter_read (hE : NearEq ε E) {anorm : ℝ} (ha : 0 ≤ anorm) {k its : ℕ} (hk : k < n) (hits : its < 30) (d : Dg ℝ m n)
    (oa : OrthC d.a) (ov : OrthC d.v) (h0 : ent d.rv1 0 = 0) :
    Ok (@iter ℝ (readEq E) m n anorm k its d) (fun p => p.1 ≠ .fail ∧ IterOk k (if p.1 = .conv then k else k + 1) d p.2 (ε * anorm)
        (fun _ _ => ∃ q, q ≤ k ∧ @negligible ℝ (readEq E) anorm (ent d.rv1 q) = true ∧
          ∀ t, q ≤ t → t < k → ε * anorm < |ent d.w t|) ∧
      (p.1 = .conv → 0 ≤ ent p.2.w k)) := by
  have hea : 0 ≤ ε * anorm := mul_nonneg hE.nonneg ha
  refine (splitTest_read hE h0 k hk).bind fun p hp => ?_
  obtain ⟨flag, l⟩ := p
  obtain ⟨p1, p2, p3, p4, p5⟩ := hp
  simp only at p1 p2 p3 p4 p5
  refine Ok.bind (P := fun q => OrthC q.1 ∧ (∀ t, l ≤ t → t < k → ent q.2 t ≠ 0) ∧
    (∀ t, k < t → ent q.2 t = ent d.w t) ∧ (flag = false → q = (d.a, d.w))) ?_ fun q hq => ?_
  · refine Ok.ite (fun hfl => ?_) fun hfl => Ok.ok ⟨oa, fun t h1 h2 => not_negligible hE (p3 t h1 h2), fun _ _ => rfl, fun _ => rfl⟩
    obtain ⟨hl0, _, _⟩ := p5 hfl
    refine Ok.bind (P := fun st : Mat ℝ m n × Vec ℝ n × ℝ => OrthC st.1 ∧ (∀ t, l ≤ t → t < k → ent st.2.1 t ≠ 0) ∧
      (∀ t, k < t → ent st.2.1 t = ent d.w t)) ?_ fun st hst => Ok.ok ⟨hst.1, hst.2.1, hst.2.2, fun h => by rw [h] at hfl; cases hfl⟩
    refine forUp_ok' _ ⟨oa, fun t h1 h2 => not_negligible hE (p3 t h1 h2), fun _ _ => rfl⟩ fun i st h1 h2 hst => ?_
    refine (cancelStep_read hE d.rv1 anorm (by omega) (by omega) st hst.1).mono ?_
    rintro st' ⟨q1, q2, q3⟩
    refine ⟨q1, fun t h3 h4 => ?_, fun t h3 => ?_⟩
    · by_cases hti : t = i
      · subst hti
        rcases q2 with q2 | q2
        · exact q2
        · rw [q2]; exact hst.2.1 t h3 h4
      · rw [q3 t hti]; exact hst.2.1 t h3 h4
    · rw [q3 t (by omega)]; exact hst.2.2 t h3
  obtain ⟨a, w⟩ := q
  obtain ⟨q1, q2, q3, q4⟩ := hq
  simp only at q1 q2 q3
  have hnf : (∃ q, q ≤ k ∧ @negligible ℝ (readEq E) anorm (ent d.rv1 q) = true ∧
      ∀ t, q ≤ t → t < k → ε * anorm < |ent d.w t|) → flag = false := by
    rintro ⟨q, hq, hq1, hw⟩
    by_contra hc
    obtain ⟨hl0, hw0, hr0⟩ := p5 (by simpa using hc)
    have hql : q < l := by
      by_contra hql
      push Not at hql
      rcases Nat.lt_or_eq_of_le hql with hlt | heq
      · rw [p2 q hlt hq] at hq1; cases hq1
      · rw [← heq, hr0] at hq1; cases hq1
    have h1 := negligible_read hE ha hw0
    have h2 := hw (l - 1) (by omega) (by omega)
    linarith
  refine (rd_ok w hk).bind fun z hz => Ok.ite (fun hlk => ?_) fun hlk => ?_
  · -- converged
    subst hlk
    refine Ok.ite (fun hneg => ?_) fun hneg => ?_
    · have hneg' : z < 0 := by
        have : decide (z < ((0 : ℚ) : ℝ)) = true := hneg
        simpa using this
      refine Ok.bind (P := fun w' => w' = fun c : Fin n => if c.val = l then -z else w c)
        (Ok.of_eq (wr_fun w hk _) rfl) fun w' hw' => ?_
      obtain ⟨v', e1, e2, e3⟩ := negCol_spec d.v hk
      refine Ok.bind (P := fun b => b = v') (Ok.of_eq e1 rfl) fun b hb => Ok.ok ?_
      subst hb hw'
      refine ⟨by simp, ⟨q1, neg_orth e2 e3 ov, h0, fun t ht => ⟨?_, rfl⟩, ?_⟩, fun _ => ?_⟩
      · show ent (fun c : Fin n => if c.val = l then -z else w c) t = _
        rw [ent_upd _ hk, if_neg (by omega), q3 t ht]
      · intro A κ hw hN
        have hff := hnf hw
        have hq := q4 hff
        simp only [Prod.mk.injEq] at hq
        obtain ⟨rfl, rfl⟩ := hq
        rw [if_pos rfl]
        obtain ⟨D, g1, g2⟩ := hN.shrink hk oa ov (negligible_read hE ha (p4 hff))
        refine ⟨D, g1, fun t ht => ?_⟩
        have g3 : (of A + D) *ᵥ col d.v t = _ := g2 t ht
        show (of A + D) *ᵥ col b t = ent (fun c : Fin n => if c.val = l then -z else d.w c) t • col d.a t + _
        rw [ent_upd _ hk]
        by_cases htl : t = l
        · subst htl
          rw [if_pos rfl, e2, mulVec_neg, g3, if_neg (lt_irrefl _), hz, ← ent_eq d.w hk]
          simp
        · rw [if_neg htl, e3 t htl, g3]
      · show 0 ≤ ent (fun c : Fin n => if c.val = l then -z else w c) l
        rw [ent_upd _ hk, if_pos rfl]; linarith
    · have hneg' : 0 ≤ z := by
        have : ¬ decide (z < ((0 : ℚ) : ℝ)) = true := hneg
        simpa using this
      refine Ok.ok ⟨by simp, ⟨q1, ov, h0, fun t ht => ⟨q3 t ht, rfl⟩, ?_⟩, fun _ => ?_⟩
      · intro A κ hw hN
        have hq := q4 (hnf hw)
        simp only [Prod.mk.injEq] at hq
        obtain ⟨rfl, rfl⟩ := hq
        rw [if_pos rfl]
        exact hN.shrink hk oa ov (negligible_read hE ha (p4 (hnf hw)))
      · show 0 ≤ ent w l
        rw [ent_eq w hk, ← hz]; exact hneg'
  · refine Ok.ite (fun h => by omega) fun _ => ?_
    have hlk' : l < k := by omega
    have hr : ∀ t, l < t → t ≤ k → ent d.rv1 t ≠ 0 := fun t h1 h2 => not_negligible hE (p2 t h1 h2)
    -- for the orthogonality, factorise the matrix that the current arrays represent
    have hA : ∃ A : Mat ℝ m n, ∀ t, t < n → FactC (of A) a d.v t (ent w t) (if t = l ∨ k < t then 0 else ent d.rv1 t) := by
      let e : Vec ℝ n := fun t => if t.val = l ∨ k < t.val then 0 else d.rv1 t
      refine ⟨of a * bidiag w e * (of d.v)ᵀ, fun t ht => ?_⟩
      have := (fact_iff (of a * bidiag w e * (of d.v)ᵀ) a w e d.v (fun hn => ?_) ov).1 rfl t ht
      · rw [ent_eq e ht] at this
        rw [ent_eq d.rv1 ht]
        exact this
      · rw [ent_eq d.rv1 hn] at h0
        simp [e, h0]
    obtain ⟨A0, hA0⟩ := hA
    have key := qrStep_real (A := of A0) ⟨a, w, d.v, d.rv1⟩ hlk' hk z q2 hr q1 ov hA0
    rw [← qrStep_read hE] at key
    obtain ⟨d', k1, k2, k3, k4, k5, k6⟩ := key
    refine Ok.bind (P := fun x => x = d') (Ok.of_eq k1 rfl) fun x hx => Ok.ok ?_
    subst hx
    refine ⟨by simp, ⟨k2, k3, ?_, fun t ht => ⟨?_, (k6 t (.inr ht)).2⟩, ?_⟩, by simp⟩
    · rcases Nat.eq_zero_or_pos l with hl | hl
      · subst hl; exact k5
      · exact (k6 0 (.inl hl)).2.trans h0
    · exact (k6 t (.inr ht)).1.trans (q3 t ht)
    · intro A κ hw hN
      have hff := hnf hw
      have hq := q4 hff
      simp only [Prod.mk.injEq] at hq
      obtain ⟨rfl, rfl⟩ := hq
      rw [if_neg (by simp)]
      obtain ⟨D, g1, g2⟩ := hN
      obtain ⟨D', g3, g4⟩ := change_entry (fun t => if t = l ∨ k < t then 0 else ent d.rv1 t) (by omega : l < n) oa ov g2
        (fun t ht => by split_ifs <;> first | rfl | omega)
      have g5 := negligible_read hE ha (p4 hff)
      rw [if_pos (.inl rfl), if_pos (by omega), zero_sub, abs_neg] at g3
      have key := qrStep_real (A := of A + D') ⟨d.a, d.w, d.v, d.rv1⟩ hlk' hk z q2 hr q1 ov g4
      rw [← qrStep_read hE, k1] at key
      obtain ⟨d'', k1', _, _, k4', _, _⟩ := key
      cases k1'
      refine ⟨D', by linarith, fun t ht => ?_⟩
      have := k4' t ht
      rwa [show (if k < t then (0 : ℝ) else ent x.rv1 t) = if t < k + 1 then ent x.rv1 t else 0 by
        split_ifs <;> first | rfl | omega] at this

/-! ### All the iterations -/

theorem iters_read (hE : NearEq ε E) {anorm : ℝ} (ha : 0 ≤ anorm) {k : ℕ} (hk : k < n) (its : ℕ) (d : Dg ℝ m n)
    (oa : OrthC d.a) (ov : OrthC d.v) (h0 : ent d.rv1 0 = 0) :
    Ok (@iters ℝ (readEq E) m n anorm k its d) (fun p => p.1 ≠ .fail ∧
      IterOk k (if p.1 = .conv then k else k + 1) d p.2 ((30 - its : ℕ) * (ε * anorm))
        (fun A κ => Above A (κ + (30 - its : ℕ) * (ε * anorm) + ε * anorm)) ∧
      (p.1 = .conv → 0 ≤ ent p.2.w k)) := by
  have hea : 0 ≤ ε * anorm := mul_nonneg hE.nonneg ha
  induction hr : 30 - its generalizing its d with
  | zero =>
    unfold iters
    rw [if_neg (by omega)]
    refine Ok.ok ⟨by simp, ⟨oa, ov, h0, fun t _ => ⟨rfl, rfl⟩, fun A κ _ hN => ?_⟩, by simp⟩
    simpa using hN
  | succ r ih =>
    unfold iters
    rw [if_pos (by omega)]
    refine (iter_read hE ha hk (by omega) d oa ov h0).bind fun p hp => ?_
    obtain ⟨c, d'⟩ := p
    obtain ⟨h1, h2, h3⟩ := hp
    simp only at h1 h2 h3
    cases c with
    | fail => exact absurd rfl h1
    | conv =>
      refine Ok.ok ⟨by simp, ⟨h2.oa, h2.ov, h2.first, h2.keep, fun A κ hA hN => ?_⟩, h3⟩
      obtain ⟨σ, hσ, hlt⟩ := hA
      have hr' : (1 : ℝ) ≤ ((r + 1 : ℕ) : ℝ) := by push_cast; linarith [Nat.cast_nonneg (α := ℝ) r]
      have hle : ε * anorm ≤ ((r + 1 : ℕ) : ℝ) * (ε * anorm) := by nlinarith
      exact (h2.near A κ (.intro 0 ⟨by omega, by rw [h0]; exact negligible_zero_read hE, fun t _ ht => by have := hN.lower oa ov h0 hσ (by omega : t < n); linarith⟩) hN).mono (by linarith)
    | again =>
      refine (ih (its + 1) d' h2.oa h2.ov h2.first (by omega)).mono ?_
      rintro ⟨c, d''⟩ ⟨g1, g2, g3⟩
      refine ⟨g1, ⟨g2.oa, g2.ov, g2.first, fun t ht => ?_, fun A κ hA hN => ?_⟩, g3⟩
      · exact ⟨(g2.keep t ht).1.trans (h2.keep t ht).1, (g2.keep t ht).2.trans (h2.keep t ht).2⟩
      · obtain ⟨σ, hσ, hlt⟩ := hA
        push_cast at hlt ⊢
        have hr' : (0 : ℝ) ≤ r * (ε * anorm) := mul_nonneg (Nat.cast_nonneg _) hea
        have e1 := h2.near A κ (.intro 0 ⟨by omega, by rw [h0]; exact negligible_zero_read hE, fun t _ ht => by have := hN.lower oa ov h0 hσ (by omega : t < n); nlinarith⟩) hN
        rw [if_neg (by simp)] at e1
        have e2 := g2.near A (κ + ε * anorm) ⟨σ, hσ, by nlinarith⟩ e1
        exact e2.mono (le_of_eq (by ring))

theorem diagonalize_read (hE : NearEq ε E) {anorm : ℝ} (ha : 0 ≤ anorm) :
    ∀ (K : ℕ) (d : Dg ℝ m n), K ≤ n → OrthC d.a → OrthC d.v → ent d.rv1 0 = 0 →
    Ok (@diagonalize ℝ (readEq E) m n anorm K d) (fun p => p.1 = true ∧ OrthC p.2.a ∧ OrthC p.2.v ∧ ent p.2.rv1 0 = 0 ∧
      (∀ t, K ≤ t → ent p.2.w t = ent d.w t ∧ ent p.2.rv1 t = ent d.rv1 t) ∧
      ∀ (A : Mat ℝ m n) (κ σ η : ℝ), (∀ x : Fin n → ℝ, σ * euclid x ≤ euclid (of A *ᵥ x)) → 0 ≤ η →
        (∀ t, t < K → |ent p.2.rv1 t| ≤ η) →
        κ + K * (30 * (ε * anorm) + η) + ε * anorm < σ → Near (of A) κ K d →
        Near (of A) (κ + K * (30 * (ε * anorm) + η)) 0 p.2) := by
  have hea : 0 ≤ ε * anorm := mul_nonneg hE.nonneg ha
  intro K
  induction K with
  | zero =>
    intro d _ oa ov h0
    refine Ok.ok ⟨rfl, oa, ov, h0, fun _ _ => ⟨rfl, rfl⟩, fun A κ σ η _ _ _ _ hN => ?_⟩
    simpa using hN
  | succ k ih =>
    intro d hk oa ov h0
    unfold diagonalize
    refine (iters_read hE ha (by omega) 0 d oa ov h0).bind fun p hp => ?_
    obtain ⟨c, d'⟩ := p
    obtain ⟨h1, h2, h3⟩ := hp
    simp only at h1 h2 h3
    refine Ok.ite (fun h => absurd h h1) fun _ => ?_
    refine (ih d' (by omega) h2.oa h2.ov h2.first).mono ?_
    rintro ⟨b, df⟩ ⟨g1, g2, g3, g4, g5, g6⟩
    refine ⟨g1, g2, g3, g4, fun t ht => ?_, fun A κ σ η hσ hη hrv hlt hN => ?_⟩
    · have e1 := g5 t (by omega)
      have e2 := h2.keep t (by omega)
      exact ⟨e1.1.trans e2.1, e1.2.trans e2.2⟩
    · have hkη : 0 ≤ (k : ℝ) * (30 * (ε * anorm) + η) := mul_nonneg (Nat.cast_nonneg _) (by linarith)
      push_cast at hlt ⊢
      have e1 := h2.near A κ ⟨σ, hσ, by push_cast; nlinarith⟩ hN
      have e2 : Near (of A) (κ + 30 * (ε * anorm) + η) k d' := by
        by_cases hc : c = .conv
        · rw [if_pos hc] at e1
          exact e1.mono (by push_cast; linarith)
        · rw [if_neg hc] at e1
          have hrk : |ent d'.rv1 k| ≤ η := by rw [← (g5 k le_rfl).2]; exact hrv k (by omega)
          exact (e1.shrink (by omega) h2.oa h2.ov hrk).mono (by push_cast; linarith)
      have e3 := g6 A _ σ η hσ hη (fun t ht => hrv t (by omega)) (by nlinarith) e2
      exact e3.mono (le_of_eq (by ring))

end CS.SOLVER
