import Verif.Lemmas.SvdDiag

/-!
# `svdcmp` as a whole, in exact arithmetic
-/

namespace CS.SOLVER
open Arith Libm Matrix

section anorm
variable {α : Type} [Libm α] {m n : ℕ}

theorem leftStep_frame {i : ℕ} (hi : i < n) (st : HH α m n) :
    Ok (leftStep i st) (fun st' => (∀ c : Fin n, c.val ≠ i → st'.rv1 c = st.rv1 c) ∧
      (∀ c : Fin n, c.val ≠ i → st'.w c = st.w c) ∧ st'.anorm = st.anorm) := by
  refine (wr_ok st.rv1 hi _).bind fun rv1 hr => ?_
  subst hr
  refine Ok.bind (P := fun _ => True) ?_ fun p _ => ?_
  · refine Ok.ite (fun him => ?_) fun _ => Ok.ok trivial
    refine (colScale_safe st.a hi).bind fun sc _ => Ok.ite (fun _ => ?_) fun _ => Ok.ok trivial
    exact (leftReflect_safe st.a him hi sc).bind fun _ _ => Ok.ok trivial
  · obtain ⟨a, g, sc⟩ := p
    refine (wr_ok st.w hi _).bind fun w hw => Ok.ok ⟨fun c hc => ?_, fun c hc => ?_, rfl⟩
    · exact Function.update_of_ne (fun h => hc (by rw [h])) _ _
    · show w c = _
      rw [hw]
      exact Function.update_of_ne (fun h => hc (by rw [h])) _ _

theorem rightStep_frame {i : ℕ} (hi : i < n) (st : HH α m n) :
    Ok (rightStep i st) (fun st' => (∀ k : Fin n, k.val ≤ i → st'.rv1 k = st.rv1 k) ∧ st'.w = st.w ∧
      st'.anorm = if lt st.anorm (fabs (st'.w ⟨i, hi⟩) + fabs (st'.rv1 ⟨i, hi⟩)) then
        fabs (st'.w ⟨i, hi⟩) + fabs (st'.rv1 ⟨i, hi⟩) else st.anorm) := by
  refine Ok.bind (P := fun p => ∀ k : Fin n, k.val ≤ i → p.2.1 k = st.rv1 k) ?_ fun p hp => ?_
  · refine Ok.ite (fun h => ?_) fun _ => Ok.ok fun _ _ => rfl
    refine (rowScale_safe st.a h.1).bind fun sc _ => Ok.ite (fun _ => ?_) fun _ => Ok.ok fun _ _ => rfl
    refine (rightReflect_safe st.a st.rv1 h.1 (by omega) sc).bind fun p hp => ?_
    obtain ⟨a, r, g⟩ := p
    exact Ok.ok hp
  · obtain ⟨a, r, g, sc⟩ := p
    refine (rd_ok st.w hi).bind fun wi hw => (rd_ok r hi).bind fun ri hr => Ok.ok ⟨hp, rfl, ?_⟩
    subst hw hr
    rfl
end anorm

variable {m n : ℕ} {ε : ℝ} {E : ℝ → ℝ → Bool}

/-- `anorm` is bounded by whatever bounds the column sums of the bidiagonal matrix. -/
theorem householder_anorm (A : Mat ℝ m n) (w : Vec ℝ n) :
    Ok (householder A w) (fun st => 0 ≤ st.anorm ∧
      ∀ B : ℝ, 0 ≤ B → (∀ c, |st.w c| + |st.rv1 c| ≤ B) → st.anorm ≤ B) := by
  refine Ok.mono (forUp_ok (fun i st => 0 ≤ st.anorm ∧
      ∀ B : ℝ, 0 ≤ B → (∀ c : Fin n, c.val < i → |st.w c| + |st.rv1 c| ≤ B) → st.anorm ≤ B) (Nat.zero_le _)
      ⟨by simp, fun B hB _ => by simpa using hB⟩ ?_) ?_
  · rintro i st - hi ⟨h0, h1⟩
    refine (leftStep_frame hi st).bind fun st1 g1 => (rightStep_frame hi st1).mono fun st2 g2 => ?_
    obtain ⟨a1, a2, a3⟩ := g1
    obtain ⟨b1, b2, b3⟩ := g2
    rw [b3, a3]
    simp only [lt_real, fabs_real]
    refine ⟨by split_ifs <;> first | positivity | exact h0, fun B hB hc => ?_⟩
    split_ifs
    · exact hc ⟨i, hi⟩ (Nat.lt_succ_self i)
    · refine h1 B hB fun c hci => ?_
      have := hc c (by omega)
      rwa [b2, a2 c (by omega), b1 c (by omega), a1 c (by omega)] at this
  · rintro st ⟨h0, h1⟩
    exact ⟨h0, fun B hB hc => h1 B hB fun c _ => hc c⟩

theorem dot_le (x y : Fin m → ℝ) : |x ⬝ᵥ y| ≤ euclid x * euclid y := by
  refine le_of_sq_le_sq' ?_ (mul_nonneg (euclid_nonneg _) (euclid_nonneg _))
  rw [sq_abs, mul_pow, euclid_sq, euclid_sq]
  exact Finset.sum_mul_sq_le_sq_mul_sq Finset.univ x y

/-- The entries of the bidiagonal matrix are at most the norm of the matrix. -/
theorem entries_le {A : Mat ℝ m n} {a : Mat ℝ m n} {v : Mat ℝ n n} {w e : ℕ → ℝ} (oa : OrthC a) (ov : OrthC v)
    (h : ∀ t, t < n → FactC (of A) a v t (w t) (e t)) (h0 : e 0 = 0) {t : ℕ} (ht : t < n) :
    |w t| ≤ frob (of A) ∧ |e t| ≤ frob (of A) := by
  have hv : euclid (col v t) = 1 := euclid_of_dot (by rw [ov t t ht ht, if_pos rfl])
  have hA : euclid (of A *ᵥ col v t) ≤ frob (of A) := by
    have := euclid_mulVec_le (of A) (col v t)
    rwa [hv, mul_one] at this
  have hu : ∀ s, s < n → |col a s ⬝ᵥ (of A *ᵥ col v t)| ≤ frob (of A) := by
    intro s hs
    have h1 : euclid (col a s) = 1 := euclid_of_dot (by rw [oa s s hs hs, if_pos rfl])
    have := dot_le (col a s) (of A *ᵥ col v t)
    rw [h1, one_mul] at this
    exact this.trans hA
  have hf : of A *ᵥ col v t = w t • col a t + e t • col a (t - 1) := h t ht
  have hd : ∀ s, s < n → col a s ⬝ᵥ (of A *ᵥ col v t) =
      w t * (if s = t then 1 else 0) + e t * (if s = t - 1 then 1 else 0) := by
    intro s hs
    rw [hf, dotProduct_add, dotProduct_smul, dotProduct_smul, oa s t hs ht, oa s (t - 1) hs (by omega)]
    rfl
  rcases Nat.eq_zero_or_pos t with hz | hp
  · subst hz
    have := hu 0 ht
    rw [hd 0 ht, h0] at this
    refine ⟨by simpa using this, ?_⟩
    rw [h0, abs_zero]; exact frob_nonneg _
  · have h1 := hu t ht
    have h2 := hu (t - 1) (by omega)
    rw [hd t ht, if_pos rfl, if_neg (by omega)] at h1
    rw [hd (t - 1) (by omega), if_neg (by omega), if_pos rfl] at h2
    exact ⟨by simpa using h1, by simpa using h2⟩

/-- `svdcmp`, whole. -/
theorem svdcmpFull_read (hE : NearEq ε E) (hmn : n ≤ m) (A : Mat ℝ m n) (w : Vec ℝ n) (v : Mat ℝ n n) :
    Ok (@svdcmpFull ℝ (readEq E) m n A w v) (fun p => p.1 = 1 ∧ OrthC p.2.a ∧ OrthC p.2.v ∧ ent p.2.rv1 0 = 0 ∧
      ∀ σ η : ℝ, (∀ x : Fin n → ℝ, σ * euclid x ≤ euclid (of A *ᵥ x)) → 0 ≤ η → (∀ t, |p.2.rv1 t| ≤ η) →
        n * (60 * ε * frob (of A) + η) + 2 * ε * frob (of A) < σ →
        Near (of A) (n * (60 * ε * frob (of A) + η)) 0 p.2) := by
  obtain ⟨st, u, v', e1, e2, e3, e4, e5, e6, e7⟩ := reduce_real hmn A w v
  have oa : OrthC u := (orthC_iff u).2 e4
  have ov : OrthC v' := (orthC_iff v').2 e5
  have hfact := (fact_iff A u st.w st.rv1 v' e7 ov).1 e6
  have h0 : ent st.rv1 0 = 0 := by
    unfold ent
    split_ifs with h
    · exact e7 h
    · rfl
  obtain ⟨st', f1, f2, f3⟩ := householder_anorm A w
  rw [e1] at f1
  cases f1
  have hF := frob_nonneg (of A)
  have han : st.anorm ≤ 2 * frob (of A) := f3 _ (by linarith) fun c => by
    have := entries_le oa ov hfact h0 c.2
    rw [ent_eq _ c.2, ent_eq _ c.2] at this
    linarith [this.1, this.2]
  have hmain : Ok (@diagonalize ℝ (readEq E) m n st.anorm n ⟨u, st.w, v', st.rv1⟩) _ :=
    diagonalize_read hE f2 n ⟨u, st.w, v', st.rv1⟩ le_rfl oa ov h0
  have hfull : @svdcmpFull ℝ (readEq E) m n A w v =
      (@diagonalize ℝ (readEq E) m n st.anorm n ⟨u, st.w, v', st.rv1⟩ >>= fun p =>
        .ok (if p.1 then 1 else -1, p.2)) := by
    unfold svdcmpFull
    rw [if_neg (by omega), householder_read hE, e1]
    simp only [bind, Except.bind]
    rw [accRight_read hE, e2]
    simp only []
    rw [accLeft_read hE, e3]
  rw [hfull]
  refine hmain.bind fun p hp => Ok.ok ?_
  obtain ⟨b, d⟩ := p
  obtain ⟨p1, p2, p3, p4, p5, p6⟩ := hp
  simp only at p1
  subst p1
  refine ⟨rfl, p2, p3, p4, fun σ η hσ hη hrv hbig => ?_⟩
  have hea : ε * st.anorm ≤ ε * (2 * frob (of A)) := mul_le_mul_of_nonneg_left han hE.nonneg
  have hn0 : (0 : ℝ) ≤ n := Nat.cast_nonneg _
  have hle : (n : ℝ) * (30 * (ε * st.anorm) + η) ≤ n * (60 * ε * frob (of A) + η) :=
    mul_le_mul_of_nonneg_left (by nlinarith) hn0
  have hnear : Near (of A) 0 n ⟨u, st.w, v', st.rv1⟩ := by
    refine ⟨0, by rw [frob_zero], fun t ht => ?_⟩
    rw [add_zero, if_pos ht]
    exact hfact t ht
  have := p6 A 0 σ η hσ hη (fun t ht => by rw [ent_eq _ ht]; exact hrv _) (by nlinarith) hnear
  exact this.mono (by linarith)

end CS.SOLVER
