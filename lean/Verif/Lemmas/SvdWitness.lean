import Verif.Lemmas.SvdTwo

/-!
# A singular matrix on which `svdcmp` goes wrong
-/

namespace CS.SOLVER
open Arith Libm Matrix
variable {m n : ℕ}

theorem frob_trace (A : Matrix (Fin m) (Fin n) ℝ) : frob A ^ 2 = trace (Aᵀ * A) := by
  rw [frob_sq, Finset.sum_comm]
  unfold trace
  exact Finset.sum_congr rfl fun j _ => by
    rw [diag_apply, Matrix.mul_apply]
    exact Finset.sum_congr rfl fun i _ => by rw [transpose_apply]; ring

/-- Orthogonal factors do not change the norm. -/
theorem frob_orth {U : Matrix (Fin m) (Fin n) ℝ} {B V : Matrix (Fin n) (Fin n) ℝ} (hU : Uᵀ * U = 1) (hV : Vᵀ * V = 1) :
    frob (U * B * Vᵀ) ^ 2 = frob B ^ 2 := by
  rw [frob_trace, frob_trace]
  have : (U * B * Vᵀ)ᵀ * (U * B * Vᵀ) = V * (Bᵀ * B * Vᵀ) := by
    rw [transpose_mul, transpose_mul, transpose_transpose]
    calc V * (Bᵀ * Uᵀ) * (U * B * Vᵀ) = V * (Bᵀ * ((Uᵀ * U) * B) * Vᵀ) := by simp only [Matrix.mul_assoc]
      _ = _ := by rw [hU, Matrix.one_mul]
  rw [this, trace_mul_comm, Matrix.mul_assoc, hV, Matrix.mul_one]

theorem frob_bidiag3 (w e : Vec ℝ 3) :
    frob (bidiag w e) ^ 2 = w 0 ^ 2 + w 1 ^ 2 + w 2 ^ 2 + e 1 ^ 2 + e 2 ^ 2 := by
  rw [frob_sq]
  simp [Fin.sum_univ_three, bidiag]
  ring

/-- A step of the cancellation. -/
theorem cancelStep_exact (rv1 : Vec ℝ n) (anorm : ℝ) {nm i : ℕ} (hi : i < n) (hnm : nm < i) (a : Mat ℝ m n) (w : Vec ℝ n) (s : ℝ)
    (oa : OrthC a) (hf : s * ent rv1 i ≠ 0) :
    ∃ a', cancelStep rv1 anorm nm i (a, w, s) =
      .ok (a', (fun c => if c.val = i then PYTHAG (s * ent rv1 i) (ent w i) else w c),
        -(s * ent rv1 i) * (1 / PYTHAG (s * ent rv1 i) (ent w i))) ∧ OrthC a' := by
  have hz : PYTHAG (s * ent rv1 i) (ent w i) ≠ 0 := by
    rw [PYTHAG_real]; exact (Real.sqrt_pos.2 (by positivity)).ne'
  obtain ⟨z1, _, _⟩ := pythag_rot hz
  obtain ⟨a', e1, e2⟩ := rotCols_spec a (by omega : nm < n) hi (by omega)
    (ent w i * (1 / PYTHAG (s * ent rv1 i) (ent w i))) (-(s * ent rv1 i) * (1 / PYTHAG (s * ent rv1 i) (ent w i)))
  refine ⟨a', ?_, e2.orth (by omega) hi (by omega) (by linear_combination z1) oa⟩
  have hnn : negligible anorm (s * ent rv1 i) = false := by rw [← Bool.not_eq_true, negligible_real]; exact hf
  unfold cancelStep
  simp only [bind, Except.bind]
  rw [rd_eq rv1 hi, ← ent_eq rv1 hi]
  simp only []
  rw [if_pos (by rw [hnn]; rfl), rd_eq w hi, ← ent_eq w hi]
  simp only []
  rw [wr_fun _ hi]
  simp only [lit_real, Rat.cast_one]
  rw [e1]

/-- The first iteration on a 3x3 block with a zero in the first place: the result represents another matrix. -/
theorem iter_corrupts (anorm : ℝ) (d : Dg ℝ m 3) (oa : OrthC d.a) (ov : OrthC d.v) (h0 : d.rv1 0 = 0)
    (hw0 : d.w 0 = 0) (hw1 : d.w 1 ≠ 0) (he1 : d.rv1 1 ≠ 0) (he2 : d.rv1 2 ≠ 0) :
    Ok (iter anorm 2 0 d) (fun p => p.1 = .again ∧ OrthC p.2.a ∧ OrthC p.2.v ∧ ent p.2.rv1 0 = 0 ∧ ent p.2.rv1 1 = 0 ∧
      ∃ A0 : Mat ℝ m 3, Near (of A0) 0 3 p.2 ∧ frob (of A0) ^ 2 = d.w 1 ^ 2 + d.w 2 ^ 2 + d.rv1 1 ^ 2 + d.rv1 2 ^ 2 +
        d.rv1 2 ^ 2 * (d.rv1 1 ^ 2 / (d.rv1 1 ^ 2 + d.w 1 ^ 2))) := by
  have n1 : negligible anorm (d.rv1 2) = false := by rw [← Bool.not_eq_true, negligible_real]; exact he2
  have n2 : negligible anorm (d.w 1) = false := by rw [← Bool.not_eq_true, negligible_real]; exact hw1
  have n3 : negligible anorm (d.rv1 1) = false := by rw [← Bool.not_eq_true, negligible_real]; exact he1
  have n4 : negligible anorm (d.w 0) = true := negligible_real.2 hw0
  have hsplit : splitTest d.w d.rv1 anorm 2 = .ok (true, 1) := by
    have r2 : rd d.rv1 (1 + 1) = .ok (d.rv1 2) := rfl
    have r1 : rd d.rv1 (0 + 1) = .ok (d.rv1 1) := rfl
    have w1 : rd d.w 1 = .ok (d.w 1) := rfl
    have w0 : rd d.w 0 = .ok (d.w 0) := rfl
    unfold splitTest
    rw [r2, w1]
    simp only [bind, Except.bind, n1, n2]
    unfold splitTest
    rw [r1, w0]
    simp [bind, Except.bind, n3, n4]
  have E1 : ent d.rv1 1 = d.rv1 1 := rfl
  have E2 : ent d.rv1 2 = d.rv1 2 := rfl
  have W1 : ent d.w 1 = d.w 1 := rfl
  obtain ⟨a1, c1, o1⟩ := cancelStep_exact d.rv1 anorm (nm := 0) (i := 1) (by omega) (by omega) d.a d.w 1 oa
    (by rw [E1, one_mul]; exact he1)
  rw [one_mul, E1, W1] at c1
  set h1 := PYTHAG (d.rv1 1) (d.w 1) with hh1
  have hpos : 0 < d.rv1 1 ^ 2 + d.w 1 ^ 2 := by positivity
  have hh1s : h1 ^ 2 = d.rv1 1 ^ 2 + d.w 1 ^ 2 := by rw [hh1, PYTHAG_real]; exact Real.sq_sqrt hpos.le
  have hh10 : h1 ≠ 0 := by rintro h; rw [h] at hh1s; simp at hh1s; linarith
  set s1 := -(d.rv1 1) * (1 / h1) with hs1
  have hs10 : s1 ≠ 0 := by rw [hs1]; exact mul_ne_zero (neg_ne_zero.2 he1) (one_div_ne_zero hh10)
  obtain ⟨a2, c2, o2⟩ := cancelStep_exact d.rv1 anorm (nm := 0) (i := 2) (by omega) (by omega) a1
    (fun c => if c.val = 1 then h1 else d.w c) s1 o1 (by rw [E2]; exact mul_ne_zero hs10 he2)
  have W2 : ent (fun c : Fin 3 => if c.val = 1 then h1 else d.w c) 2 = d.w 2 := rfl
  rw [E2, W2] at c2
  set h2 := PYTHAG (s1 * d.rv1 2) (d.w 2) with hh2
  have hh2s : h2 ^ 2 = (s1 * d.rv1 2) ^ 2 + d.w 2 ^ 2 := by
    rw [hh2, PYTHAG_real]; exact Real.sq_sqrt (by positivity)
  set w' : Vec ℝ 3 := fun c => if c.val = 2 then h2 else (fun c : Fin 3 => if c.val = 1 then h1 else d.w c) c with hw'
  have hcancel : forUp 1 (2 + 1) (d.a, d.w, lit 1) (cancelStep d.rv1 anorm (1 - 1)) =
      .ok (a2, w', -(s1 * d.rv1 2) * (1 / h2)) := by
    rw [forUp_step (by omega), lit_real, Rat.cast_one, Nat.sub_self, c1]
    simp only [bind, Except.bind]
    rw [forUp_step (by omega), c2]
    simp only [bind, Except.bind]
    rw [forUp_self (by omega)]
  unfold iter
  rw [hsplit]
  refine Ok.bind (P := fun q => q = (true, 1)) (Ok.ok rfl) fun q hq => ?_
  subst hq
  refine Ok.bind (P := fun q => q = (a2, w')) (Ok.ite (fun _ => ?_) fun h => absurd rfl h) fun q hq => ?_
  · rw [hcancel]; exact Ok.ok rfl
  subst hq
  refine (rd_ok w' (by omega : 2 < 3)).bind fun z hz => ?_
  rw [if_neg (by omega), if_neg (by omega)]
  -- the matrix represented after the cancellation
  let e : Vec ℝ 3 := fun t => if t.val = 1 ∨ 2 < t.val then 0 else d.rv1 t
  have hA0 : ∀ t, t < 3 → FactC (of a2 * bidiag w' e * (of d.v)ᵀ) a2 d.v t (ent w' t)
      (if t = 1 ∨ 2 < t then 0 else ent d.rv1 t) := by
    intro t ht
    have := (fact_iff (of a2 * bidiag w' e * (of d.v)ᵀ) a2 w' e d.v (fun hn => ?_) ov).1 rfl t ht
    · rw [ent_eq e ht] at this
      rw [ent_eq d.rv1 ht]
      exact this
    · show (if (0 : ℕ) = 1 ∨ 2 < 0 then 0 else d.rv1 0) = 0
      simp [h0]
  refine (qrStep_real ⟨a2, w', d.v, d.rv1⟩ (by omega : 1 < 2) (by omega : 2 < 3) z (fun t t1 t2 => ?_)
    (fun t t1 t2 => ?_) o2 ov hA0).bind fun d' hd => Ok.ok ?_
  · have : t = 1 := by omega
    subst this
    exact hh10
  · have : t = 2 := by omega
    subst this
    exact he2
  · obtain ⟨k1, k2, k3, k4, k5⟩ := hd
    refine ⟨rfl, k1, k2, ?_, k4, of a2 * bidiag w' e * (of d.v)ᵀ, ⟨0, by rw [frob_zero], fun t ht => ?_⟩, ?_⟩
    · rw [(k5 0 (.inl (by omega))).2]; exact h0
    · have := k3 t ht
      rw [if_neg (by omega)] at this
      rw [add_zero, if_pos ht]
      exact this
    · have : frob (of a2 * bidiag w' e * (of d.v)ᵀ) ^ 2 = _ := frob_orth ((orthC_iff a2).1 o2) ((orthC_iff d.v).1 ov)
      show frob (of a2 * bidiag w' e * (of d.v)ᵀ) ^ 2 = _
      rw [this, frob_bidiag3]
      have v0 : w' 0 = 0 := hw0
      have v1 : w' 1 = h1 := rfl
      have v2 : w' 2 = h2 := rfl
      have x1 : e 1 = 0 := rfl
      have x2 : e 2 = d.rv1 2 := rfl
      have hs1s : s1 ^ 2 = d.rv1 1 ^ 2 / (d.rv1 1 ^ 2 + d.w 1 ^ 2) := by
        rw [hs1, ← hh1s]; field_simp
      rw [v0, v1, v2, x1, x2, hh1s, hh2s, mul_pow, hs1s]
      ring

/-- The witness. -/
def badA : Mat ℝ 3 3 := ![![0, 1, 0], ![0, 1, 1], ![0, 0, 1]]

/-- The reflection of a two-entry row or column whose second entry is zero. -/
theorem reflect_axis {x y e s : ℝ} (hs : s ≠ 0) (h1 : s + x * ((x * e)⁻¹ * (x * s)) = e) (h2 : y * ((x * e)⁻¹ * (x * s)) = 0)
    (h3 : e = 0 ∨ x ≠ 0 ∧ x * x + y * y = -2 * (x * e)) : e = -s ∧ x = 2 * s ∧ y = 0 := by
  have he : e ≠ 0 := by
    rintro rfl
    simp at h1
    exact hs h1
  obtain ⟨hx, h4⟩ := h3.resolve_left he
  have hy : y = 0 := by
    rcases mul_eq_zero.1 h2 with h | h
    · exact h
    · exact absurd h (mul_ne_zero (inv_ne_zero (mul_ne_zero hx he)) (mul_ne_zero hx hs))
  subst hy
  have hxe : x = -2 * e := by
    have : x * (x + 2 * e) = 0 := by linear_combination h4
    rcases mul_eq_zero.1 this with h | h
    · exact absurd h hx
    · linarith
  have : s + x * ((x * e)⁻¹ * (x * s)) = s + x * s / e := by field_simp
  rw [this, hxe] at h1
  have h5 : s + -2 * e * s / e = -s := by field_simp; ring
  rw [h5] at h1
  exact ⟨h1.symm, by rw [hxe, ← h1]; ring, rfl⟩

theorem badA_householder (w : Vec ℝ 3) : Ok (householder badA w) (fun st => st.w 0 = 0 ∧ st.w 1 = 1 ∧
    st.rv1 1 = -1 ∧ st.rv1 2 = 1) := by
  unfold householder
  set s0 : HH ℝ 3 3 := ⟨badA, w, vzero, lit 0, lit 0, lit 0⟩ with hs0
  obtain ⟨l0, q1, L0, lw0, lr0⟩ := leftStep_real (i := 0) (by omega) (by omega) s0
  obtain ⟨t0, q2, tw0, tr0, T0, _⟩ := rightStep_real (i := 0) (by omega) (by omega) l0
  obtain ⟨l1, q3, L1, lw1, lr1⟩ := leftStep_real (i := 1) (by omega) (by omega) t0
  obtain ⟨t1, q4, tw1, tr1, T1, _⟩ := rightStep_real (i := 1) (by omega) (by omega) l1
  obtain ⟨l2, q5, L2, lw2, lr2⟩ := leftStep_real (i := 2) (by omega) (by omega) t1
  obtain ⟨t2, q6, tw2, tr2, _, _⟩ := rightStep_real (i := 2) (by omega) (by omega) l2
  have hrun : forUp 0 3 s0 (fun i st => do
      let st ← leftStep i st
      rightStep i st) = .ok t2 := by
    rw [forUp_step (by omega), q1]
    simp only [bind, Except.bind]
    rw [q2]
    simp only []
    rw [forUp_step (by omega), q3]
    simp only [bind, Except.bind]
    rw [q4]
    simp only []
    rw [forUp_step (by omega), q5]
    simp only [bind, Except.bind]
    rw [q6]
    simp only []
    rw [forUp_self (by omega)]
  rw [hrun]
  have R0 := T0 (by omega)
  have R1 := T1 (by omega)
  -- the first column is zero
  have w0 : l0.w 0 = 0 := by
    have := L0.col 0 (by simp)
    simpa [hs0, badA, Fin.sum_univ_three] using this.symm
  have a0 : ∀ r c, l0.a r c = badA r c ∨ c = 0 := by
    intro r c
    by_cases hc : c = 0
    · exact .inr hc
    · left
      have := L0.refl r c (by have : c.val ≠ 0 := fun h => hc (Fin.ext h); omega) (by omega)
      rw [this]
      have hz : l0.w ⟨0, by omega⟩ = 0 := w0
      rw [hz]
      simp [hs0]
  have b01 : l0.a 0 1 = 1 := (a0 0 1).resolve_right (by decide)
  have b02 : l0.a 0 2 = 0 := (a0 0 2).resolve_right (by decide)
  have b11 : l0.a 1 1 = 1 := (a0 1 1).resolve_right (by decide)
  have b12 : l0.a 1 2 = 1 := (a0 1 2).resolve_right (by decide)
  have b21 : l0.a 2 1 = 0 := (a0 2 1).resolve_right (by decide)
  have b22 : l0.a 2 2 = 1 := (a0 2 2).resolve_right (by decide)
  -- the first row
  have r1 := R0.row 1 (by simp)
  have r2 := R0.row 2 (by simp)
  have r3 := R0.norm
  simp [Fin.sum_univ_three, b01, b02] at r1 r2 r3
  obtain ⟨e1, x1, y1⟩ := reflect_axis (x := t0.a 0 1) (y := t0.a 0 2) (e := t0.scale * t0.g) (s := 1) one_ne_zero
    (by simpa using r1) (by simpa using r2) (by simpa using r3)
  have hpe : (t0.a 0 1 * (t0.scale * t0.g))⁻¹ = -(1 / 2) := by rw [e1, x1]; norm_num
  have key : ∀ r c, 0 < r.val → 1 ≤ c.val → t0.a r c = l0.a r c + t0.a 0 c * (-(1 / 2) * (2 * l0.a r 1)) := by
    intro r c hr hc
    rw [R0.refl r c hr hc]
    show _ + t0.a 0 c * ((t0.a 0 1 * (t0.scale * t0.g))⁻¹ * _) = _
    rw [hpe]
    simp [Fin.sum_univ_three, x1, y1]
  have d11 : t0.a 1 1 = -1 := by rw [key 1 1 (by simp) (by simp), b11, x1]; norm_num
  have d12 : t0.a 1 2 = 1 := by rw [key 1 2 (by simp) (by simp), b12, y1]; norm_num
  have d21 : t0.a 2 1 = 0 := by rw [key 2 1 (by simp) (by simp), b21, x1]; norm_num
  have d22 : t0.a 2 2 = 1 := by rw [key 2 2 (by simp) (by simp), b22, y1]; norm_num
  -- the second column
  have m1 := L1.col 1 (by simp)
  have m2 := L1.col 2 (by simp)
  have m3 := L1.norm
  simp [Fin.sum_univ_three, d11, d21] at m1 m2 m3
  obtain ⟨f1, x2, y2⟩ := reflect_axis (x := l1.a 1 1) (y := l1.a 2 1) (e := l1.w 1) (s := -1) (by norm_num)
    (by simpa using m1) (by simpa using m2) (by simpa using m3)
  have g12 : l1.a 1 2 = -1 := by
    rw [L1.refl 1 2 (by simp) (by simp)]
    show t0.a 1 2 + l1.a 1 1 * ((l1.a 1 1 * l1.w 1)⁻¹ * _) = _
    rw [f1, x2, d12]
    simp [Fin.sum_univ_three, x2, y2, d12, d22]
    norm_num
  -- the second row
  have k1 := R1.row 2 (by simp)
  have k3 := R1.norm
  simp [Fin.sum_univ_three, g12] at k1 k3
  obtain ⟨e2, -, -⟩ := reflect_axis (x := t1.a 1 2) (y := 0) (e := t1.scale * t1.g) (s := -1) (by norm_num)
    (by simpa using k1) (by simp) (by simpa using k3)
  refine Ok.ok ⟨?_, ?_, ?_, ?_⟩
  · rw [tw2, lw2 0 (by simp), tw1, lw1 0 (by simp), tw0]; exact w0
  · rw [tw2, lw2 1 (by simp), tw1, f1]; norm_num
  · rw [tr2 1 (by simp), lr2 1, if_neg (by simp), tr1 1 (by simp), lr1 1, if_pos (by simp), e1]
  · rw [tr2 2 (by simp), lr2 2, if_pos (by simp), e2]; norm_num

/-- What `svdcmp` returns on the witness. -/
theorem badA_run (w : Vec ℝ 3) (v : Mat ℝ 3 3) :
    ∃ d : Dg ℝ 3 3, svdcmpFull badA w v = .ok (1, d) ∧ d.w 0 ^ 2 + d.w 1 ^ 2 + d.w 2 ^ 2 = 9 / 2 := by
  obtain ⟨st, u, v', e1, e2, e3, e4, e5, e6, e7⟩ := reduce_real le_rfl badA w v
  have oa : OrthC u := (orthC_iff u).2 e4
  have ov : OrthC v' := (orthC_iff v').2 e5
  obtain ⟨st', f1, f2, _⟩ := householder_anorm badA w
  rw [e1] at f1
  cases f1
  obtain ⟨st', f1, w0, w1, r1, r2⟩ := badA_householder w
  rw [e1] at f1
  cases f1
  have hn : frob (of badA) ^ 2 = 4 := by
    rw [frob_sq]
    simp [Fin.sum_univ_three, badA]
    norm_num
  have hw2 : st.w 2 ^ 2 = 1 := by
    rw [e6, frob_orth e4 e5, frob_bidiag3, w0, w1, r1, r2] at hn
    linarith
  have heq : svdcmpFull badA w v = (diagonalize st.anorm 3 ⟨u, st.w, v', st.rv1⟩ >>= fun p => .ok (if p.1 then 1 else -1, p.2)) := by
    unfold svdcmpFull
    rw [if_neg (by omega), e1]
    simp only [bind, Except.bind]
    rw [e2]
    simp only []
    rw [e3]
  have key : Ok (diagonalize st.anorm 3 ⟨u, st.w, v', st.rv1⟩) (fun p => p.1 = true ∧ p.2.w 0 ^ 2 + p.2.w 1 ^ 2 + p.2.w 2 ^ 2 = 9 / 2) := by
    unfold diagonalize
    refine Ok.bind (P := fun p => p.1 = .conv ∧ OrthC p.2.a ∧ OrthC p.2.v ∧ ent p.2.rv1 0 = 0 ∧
      ∃ A0 : Mat ℝ 3 3, Near (of A0) 0 2 p.2 ∧ frob (of A0) ^ 2 = 9 / 2) ?_ fun p hp => ?_
    · unfold iters
      rw [if_pos (by omega)]
      refine (iter_corrupts st.anorm ⟨u, st.w, v', st.rv1⟩ oa ov (e7 (by omega)) w0 (fun h => by simp [w1] at h)
        (fun h => by simp [r1] at h) (fun h => by simp [r2] at h)).bind fun p hp => ?_
      obtain ⟨c, d1⟩ := p
      obtain ⟨h1, g1, g2, g3, g4, A0, g5, g6⟩ := hp
      simp only at h1
      subst h1
      simp only []
      refine (two_iters st.anorm f2 (l := 1) (its := 1) (by omega) (by omega) d1 g1 g2 g3 g4).mono ?_
      rintro ⟨c, d2⟩ ⟨h1, j1, j2, j3, _, j5⟩
      refine ⟨h1, j1, j2, j3, A0, j5 A0 g5, ?_⟩
      rw [g6]
      simp only [w1, hw2, r1, r2]
      norm_num
    · obtain ⟨c, d1⟩ := p
      obtain ⟨h1, g1, g2, g3, A0, g5, g6⟩ := hp
      simp only at h1
      subst h1
      simp only [reduceCtorEq, if_false]
      unfold diagonalize
      refine (two_iters st.anorm f2 (l := 0) (its := 0) (by omega) (by omega) d1 g1 g2 g3 g3).bind fun p hp => ?_
      obtain ⟨c, d2⟩ := p
      obtain ⟨h1, j1, j2, j3, _, j5⟩ := hp
      simp only at h1
      subst h1
      simp only [reduceCtorEq, if_false]
      unfold diagonalize
      refine (iters_zero st.anorm f2 d2 (k := 0) (by omega) j1 j2 j3 j3).bind fun p hp => ?_
      obtain ⟨c, d3⟩ := p
      obtain ⟨h1, k1, k2, _, _, _, k5⟩ := hp
      simp only at h1
      subst h1
      simp only [reduceCtorEq, if_false]
      unfold diagonalize
      refine Ok.ok ⟨rfl, ?_⟩
      have hA := (k5 A0 (j5 A0 g5)).exact k2
      have hB : diagonal d3.w = bidiag d3.w (fun _ => 0) := by
        ext i j
        fin_cases i <;> fin_cases j <;> simp [bidiag, diagonal]
      rw [hA, hB, frob_orth ((orthC_iff d3.a).1 k1) ((orthC_iff d3.v).1 k2), frob_bidiag3] at g6
      linarith
  obtain ⟨⟨b, d⟩, h1, h2, h3⟩ := key
  simp only at h2 h3
  subst h2
  refine ⟨d, ?_, h3⟩
  rw [heq, h1]
  rfl

/-- Whatever the superdiagonal, the returned values do not factorise the witness. -/
theorem badA_not (w : Vec ℝ 3) (e : Vec ℝ 3) {U V : Matrix (Fin 3) (Fin 3) ℝ} (hU : Uᵀ * U = 1) (hV : Vᵀ * V = 1)
    (hw : w 0 ^ 2 + w 1 ^ 2 + w 2 ^ 2 = 9 / 2) : of badA ≠ U * bidiag w e * Vᵀ := by
  intro h
  have hn : frob (of badA) ^ 2 = 4 := by
    rw [frob_sq]
    simp [Fin.sum_univ_three, badA]
    norm_num
  rw [h, frob_orth hU hV, frob_bidiag3] at hn
  nlinarith [sq_nonneg (e 1), sq_nonneg (e 2)]

end CS.SOLVER
