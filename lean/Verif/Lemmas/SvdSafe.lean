import Verif.Lemmas.Ok

/-!
# Memory safety of `svdcmp`, `svbksb` and `solve`, for any arithmetic

`T` stands for "defined, nothing said about the result".
-/

namespace CS.SOLVER
open Arith Libm
variable {α : Type} [Libm α] {m n : ℕ}

/-- No statement about the result. -/
abbrev T {σ : Type} : σ → Prop := fun _ => True

theorem colScale_safe (a : Mat α m n) {i : ℕ} (hi : i < n) : Ok (colScale a i) T :=
  forUp_ok' _ trivial fun _ _ _ hk _ => (rd2_ok a hk hi).bind fun _ _ => Ok.ok trivial

theorem colNorm_safe (a : Mat α m n) {i : ℕ} (hi : i < n) (sc : α) : Ok (colNorm a i sc) T :=
  forUp_ok' _ trivial fun _ st _ hk _ =>
    (rd2_ok st.1 hk hi).bind fun _ _ => (wr2_ok st.1 hk hi _).bind fun a' _ =>
      (rd2_ok a' hk hi).bind fun _ _ => (rd2_ok a' hk hi).bind fun _ _ => Ok.ok trivial

theorem colDot_safe (a : Mat α m n) {lo i j : ℕ} (hi : i < n) (hj : j < n) : Ok (colDot a lo i j) T :=
  forUp_ok' _ trivial fun _ _ _ hk _ =>
    (rd2_ok a hk hi).bind fun _ _ => (rd2_ok a hk hj).bind fun _ _ => Ok.ok trivial

theorem colAxpy_safe (a : Mat α m n) {i j : ℕ} (hi : i < n) (hj : j < n) (f : α) : Ok (colAxpy a i j f) T :=
  forUp_ok' _ trivial fun _ a _ hk _ =>
    (rd2_ok a hk hj).bind fun _ _ => (rd2_ok a hk hi).bind fun _ _ => (wr2_ok a hk hj _).mono fun _ _ => trivial

theorem colMul_safe (a : Mat α m n) {i : ℕ} (hi : i < n) (t : α) : Ok (colMul a i t) T :=
  forUp_ok' _ trivial fun _ a _ hk _ =>
    (rd2_ok a hk hi).bind fun _ _ => (wr2_ok a hk hi _).mono fun _ _ => trivial

theorem leftReflect_safe (a : Mat α m n) {i : ℕ} (him : i < m) (hi : i < n) (sc : α) :
    Ok (leftReflect a i sc) T := by
  refine (colNorm_safe a hi sc).bind fun st _ => ?_
  obtain ⟨a, s⟩ := st
  refine (rd2_ok a him hi).bind fun f _ => (wr2_ok a him hi _).bind fun a _ => ?_
  refine Ok.bind (P := T) ?_ fun a _ => (colMul_safe a hi sc).bind fun _ _ => Ok.ok trivial
  refine Ok.ite (fun _ => ?_) fun _ => Ok.ok trivial
  exact forUp_ok' _ trivial fun j a _ hj _ =>
    (colDot_safe a hi hj).bind fun _ _ => colAxpy_safe a hi hj _

theorem leftStep_safe {i : ℕ} (hi : i < n) (st : HH α m n) :
    Ok (leftStep i st) (fun st' => st'.rv1 = Function.update st.rv1 ⟨i, hi⟩ (st.scale * st.g) ∧
      st'.anorm = st.anorm) := by
  refine (wr_ok st.rv1 hi _).bind fun rv1 hr => ?_
  subst hr
  refine Ok.bind (P := T) ?_ fun p _ => ?_
  · refine Ok.ite (fun him => ?_) fun _ => Ok.ok trivial
    refine (colScale_safe st.a hi).bind fun sc _ => Ok.ite (fun _ => ?_) fun _ => Ok.ok trivial
    exact (leftReflect_safe st.a him hi sc).bind fun _ _ => Ok.ok trivial
  · obtain ⟨a, g, sc⟩ := p
    exact (wr_ok st.w hi _).bind fun _ _ => Ok.ok ⟨rfl, rfl⟩

theorem rowScale_safe (a : Mat α m n) {i : ℕ} (hi : i < m) : Ok (rowScale a i) T :=
  forUp_ok' _ trivial fun _ _ _ hk _ => (rd2_ok a hi hk).bind fun _ _ => Ok.ok trivial

theorem rowNorm_safe (a : Mat α m n) {i : ℕ} (hi : i < m) (sc : α) : Ok (rowNorm a i sc) T :=
  forUp_ok' _ trivial fun _ st _ hk _ =>
    (rd2_ok st.1 hi hk).bind fun _ _ => (wr2_ok st.1 hi hk _).bind fun a' _ =>
      (rd2_ok a' hi hk).bind fun _ _ => (rd2_ok a' hi hk).bind fun _ _ => Ok.ok trivial

theorem rowToRv1_safe (a : Mat α m n) (rv1 : Vec α n) {i : ℕ} (hi : i < m) (h : α) :
    Ok (rowToRv1 a rv1 i h) (fun r => ∀ k : Fin n, k.val ≤ i → r k = rv1 k) := by
  refine forUp_ok' _ (fun _ _ => rfl) fun k r h1 hk hr => ?_
  refine (rd2_ok a hi hk).bind fun _ _ => (wr_ok r hk _).mono ?_
  rintro _ rfl j hj
  rw [Function.update_of_ne (fun h => by rw [h] at hj; simp at hj; omega), hr j hj]

theorem rowDot_safe (a : Mat α m n) {i j : ℕ} (hi : i < m) (hj : j < m) : Ok (rowDot a i j) T :=
  forUp_ok' _ trivial fun _ _ _ hk _ =>
    (rd2_ok a hj hk).bind fun _ _ => (rd2_ok a hi hk).bind fun _ _ => Ok.ok trivial

theorem rowAxpy_safe (a : Mat α m n) (rv1 : Vec α n) {i j : ℕ} (hj : j < m) (s : α) : Ok (rowAxpy a rv1 i j s) T :=
  forUp_ok' _ trivial fun _ a _ hk _ =>
    (rd2_ok a hj hk).bind fun _ _ => (rd_ok rv1 hk).bind fun _ _ => (wr2_ok a hj hk _).mono fun _ _ => trivial

theorem rowMul_safe (a : Mat α m n) {i : ℕ} (hi : i < m) (t : α) : Ok (rowMul a i t) T :=
  forUp_ok' _ trivial fun _ a _ hk _ =>
    (rd2_ok a hi hk).bind fun _ _ => (wr2_ok a hi hk _).mono fun _ _ => trivial

theorem rightReflect_safe (a : Mat α m n) (rv1 : Vec α n) {i : ℕ} (hi : i < m) (hin : i + 1 < n) (sc : α) :
    Ok (rightReflect a rv1 i sc) (fun p => ∀ k : Fin n, k.val ≤ i → p.2.1 k = rv1 k) := by
  refine (rowNorm_safe a hi sc).bind fun st _ => ?_
  obtain ⟨a, s⟩ := st
  refine (rd2_ok a hi hin).bind fun f _ => (wr2_ok a hi hin _).bind fun a _ => ?_
  refine (rowToRv1_safe a rv1 hi _).bind fun rv1 hr => ?_
  refine Ok.bind (P := T) ?_ fun a _ => (rowMul_safe a hi sc).bind fun _ _ => Ok.ok hr
  refine Ok.ite (fun _ => ?_) fun _ => Ok.ok trivial
  exact forUp_ok' _ trivial fun j a _ hj _ =>
    (rowDot_safe a hi hj).bind fun _ _ => rowAxpy_safe a rv1 hj _

theorem rightStep_safe {i : ℕ} (hi : i < n) (st : HH α m n) :
    Ok (rightStep i st) (fun st' => (∀ k : Fin n, k.val ≤ i → st'.rv1 k = st.rv1 k) ∧
      ∃ t, st'.anorm = if lt st.anorm t then t else st.anorm) := by
  refine Ok.bind (P := fun p => ∀ k : Fin n, k.val ≤ i → p.2.1 k = st.rv1 k) ?_ fun p hp => ?_
  · refine Ok.ite (fun h => ?_) fun _ => Ok.ok fun _ _ => rfl
    refine (rowScale_safe st.a h.1).bind fun sc _ => Ok.ite (fun _ => ?_) fun _ => Ok.ok fun _ _ => rfl
    refine (rightReflect_safe st.a st.rv1 h.1 (by omega) sc).bind fun p hp => ?_
    obtain ⟨a, r, g⟩ := p
    exact Ok.ok hp
  · obtain ⟨a, r, g, sc⟩ := p
    refine (rd_ok st.w hi).bind fun wi _ => (rd_ok r hi).bind fun ri _ => Ok.ok ⟨hp, _, rfl⟩

/-- What the splitting test needs: `anorm` stays in a class in which zeros are negligible. -/
structure Splits (α : Type) [Libm α] where
  Good : α → Prop
  zero : Good (lit 0)
  max : ∀ a t, Good a → Good (if lt a t then t else a)
  neg0 : ∀ a, Good a → negligible a (lit 0) = true
  neg00 : ∀ a, Good a → negligible a (lit 0 * lit 0) = true

/-- The first off-diagonal entry. -/
def First0 (rv1 : Vec α n) : Prop := ∀ h : 0 < n, rv1 ⟨0, h⟩ = lit 0 ∨ rv1 ⟨0, h⟩ = lit 0 * lit 0

theorem householder_safe (S : Splits α) (a : Mat α m n) (w : Vec α n) :
    Ok (householder a w) (fun st => First0 st.rv1 ∧ S.Good st.anorm) := by
  refine Ok.mono (forUp_ok (fun i st => (i = 0 → st.g = lit 0 ∧ st.scale = lit 0) ∧ (0 < i → First0 st.rv1) ∧
      S.Good st.anorm) (Nat.zero_le _) ⟨fun _ => ⟨rfl, rfl⟩, fun h => absurd h (lt_irrefl _), S.zero⟩ ?_) ?_
  · rintro i st - hi ⟨h0, hf, hg⟩
    refine (leftStep_safe hi st).bind fun st1 h1 => (rightStep_safe hi st1).mono fun st2 h2 => ⟨by simp, fun _ => ?_, ?_⟩
    · intro hn
      rw [h2.1 _ (Nat.zero_le _), h1.1]
      rcases Nat.eq_zero_or_pos i with rfl | hpos
      · rw [Function.update_self, (h0 rfl).1, (h0 rfl).2]
        exact .inr rfl
      · rw [Function.update_of_ne (by simp; omega)]
        exact hf hpos hn
    · obtain ⟨t, ht⟩ := h2.2
      rw [ht]
      refine S.max _ _ ?_
      rw [h1.2]; exact hg
  · rintro st ⟨_, hf, hg⟩
    exact ⟨fun hn => hf hn hn, hg⟩

theorem vInit_safe (a : Mat α m n) (v : Mat α n n) {i l : ℕ} (hi : i < n) (him : i < m) (g : α) :
    Ok (vInit a v i l g) T :=
  forUp_ok' _ trivial fun j v hl hj _ =>
    (rd2_ok a him hj).bind fun _ _ => (rd2_ok a him (by omega : l < n)).bind fun _ _ =>
      (wr2_ok v hj hi _).mono fun _ _ => trivial

theorem vDot_safe (a : Mat α m n) (v : Mat α n n) {i j l : ℕ} (him : i < m) (hj : j < n) : Ok (vDot a v i j l) T :=
  forUp_ok' _ trivial fun _ _ _ hk _ =>
    (rd2_ok a him hk).bind fun _ _ => (rd2_ok v hk hj).bind fun _ _ => Ok.ok trivial

theorem vAxpy_safe (v : Mat α n n) {i j l : ℕ} (hi : i < n) (hj : j < n) (s : α) : Ok (vAxpy v i j l s) T :=
  forUp_ok' _ trivial fun _ v _ hk _ =>
    (rd2_ok v hk hj).bind fun _ _ => (rd2_ok v hk hi).bind fun _ _ => (wr2_ok v hk hj _).mono fun _ _ => trivial

theorem vClear_safe (v : Mat α n n) {i l : ℕ} (hi : i < n) : Ok (vClear v i l) T :=
  forUp_ok' _ trivial fun j v _ hj _ =>
    (wr2_ok v hj hi _).bind fun v _ => (rd2_ok v hj hi).bind fun _ _ => (wr2_ok v hi hj _).mono fun _ _ => trivial

theorem accRight_safe (hmn : n ≤ m) (a : Mat α m n) (rv1 : Vec α n) (g : α) (v : Mat α n n) :
    Ok (accRight a rv1 g v) T := by
  refine (forDown_ok (fun _ => T) trivial ?_).bind fun _ _ => Ok.ok trivial
  rintro i ⟨v, g, l⟩ hi -
  refine Ok.bind (P := T) ?_ fun v _ => (wr2_ok v hi hi _).bind fun v _ => (rd_ok rv1 hi).bind fun _ _ => Ok.ok trivial
  refine Ok.ite (fun _ => ?_) fun _ => Ok.ok trivial
  refine Ok.bind (P := T) ?_ fun v _ => vClear_safe v hi
  refine Ok.ite (fun _ => ?_) fun _ => Ok.ok trivial
  refine (vInit_safe a v hi (by omega) g).bind fun v _ => ?_
  exact forUp_ok' _ trivial fun j v _ hj _ =>
    (vDot_safe a v (by omega) hj).bind fun _ _ => vAxpy_safe v hi hj _

theorem rowClear_safe (a : Mat α m n) {i : ℕ} (hi : i < m) : Ok (rowClear a i) T :=
  forUp_ok' _ trivial fun _ a _ hj _ => (wr2_ok a hi hj _).mono fun _ _ => trivial

theorem colClear_safe (a : Mat α m n) {i : ℕ} (hi : i < n) : Ok (colClear a i) T :=
  forUp_ok' _ trivial fun _ a _ hj _ => (wr2_ok a hj hi _).mono fun _ _ => trivial

theorem accLeft_safe (hmn : n ≤ m) (a : Mat α m n) (w : Vec α n) : Ok (accLeft a w) T := by
  refine forDown_ok (fun _ => T) trivial ?_
  rintro i a hi -
  have him : i < m := by omega
  refine (rd_ok w hi).bind fun g _ => ?_
  refine Ok.bind (P := T) (Ok.ite (fun _ => rowClear_safe a him) fun _ => Ok.ok trivial) fun a _ => ?_
  refine Ok.bind (P := T) ?_ fun a _ => (rd2_ok a him hi).bind fun _ _ => (wr2_ok a him hi _).mono fun _ _ => trivial
  refine Ok.ite (fun _ => ?_) fun _ => colClear_safe a hi
  refine Ok.bind (P := T) ?_ fun a _ => colMul_safe a hi _
  refine Ok.ite (fun _ => ?_) fun _ => Ok.ok trivial
  exact forUp_ok' _ trivial fun j a _ hj _ =>
    (colDot_safe a hi hj).bind fun _ _ => (rd2_ok a him hi).bind fun _ _ => colAxpy_safe a hi hj _

theorem splitTest_safe (S : Splits α) {w rv1 : Vec α n} {anorm : α} (hf : First0 rv1) (hg : S.Good anorm) :
    ∀ l : ℕ, l < n → Ok (splitTest w rv1 anorm l) (fun p => p.2 ≤ l ∧ (p.1 = true → 0 < p.2)) := by
  intro l
  induction l with
  | zero =>
    intro hl
    refine (rd_ok rv1 hl).bind fun r hr => ?_
    have : negligible anorm r = true := by
      rw [hr]
      rcases hf hl with h | h <;> rw [h]
      · exact S.neg0 _ hg
      · exact S.neg00 _ hg
    rw [if_pos this]
    exact Ok.ok ⟨le_rfl, fun h => absurd h Bool.false_ne_true⟩
  | succ l ih =>
    intro hl
    refine (rd_ok rv1 hl).bind fun r _ => Ok.ite (fun _ => Ok.ok ⟨le_rfl, fun _ => Nat.succ_pos _⟩) fun _ => ?_
    refine (rd_ok w (by omega : l < n)).bind fun x _ => Ok.ite (fun _ => Ok.ok ⟨le_rfl, fun _ => Nat.succ_pos _⟩) fun _ => ?_
    exact (ih (by omega)).mono fun p hp => ⟨by omega, hp.2⟩

theorem rotCols_safe {r : ℕ} (a : Mat α r n) {p q : ℕ} (hp : p < n) (hq : q < n) (c s : α) :
    Ok (rotCols a p q c s) T :=
  forUp_ok' _ trivial fun j a _ hj _ =>
    (rd2_ok a hj hp).bind fun _ _ => (rd2_ok a hj hq).bind fun _ _ => (wr2_ok a hj hp _).bind fun a _ =>
      (wr2_ok a hj hq _).mono fun _ _ => trivial

theorem cancelStep_safe (rv1 : Vec α n) (anorm : α) {nm i : ℕ} (hnm : nm < n) (hi : i < n)
    (st : Mat α m n × Vec α n × α) : Ok (cancelStep rv1 anorm nm i st) T := by
  obtain ⟨a, w, s⟩ := st
  refine (rd_ok rv1 hi).bind fun r _ => Ok.ite (fun _ => ?_) fun _ => Ok.ok trivial
  exact (rd_ok w hi).bind fun g _ => (wr_ok w hi _).bind fun w _ =>
    (rotCols_safe a hnm hi _ _).bind fun _ _ => Ok.ok trivial

theorem sweepStep_safe {j : ℕ} (hj : j + 1 < n) (st : Sw α m n) :
    Ok (sweepStep j st) (fun st' => ∀ k : Fin n, k.val ≠ j → st'.d.rv1 k = st.d.rv1 k) := by
  refine (rd_ok st.d.rv1 hj).bind fun g _ => (rd_ok st.d.w hj).bind fun y _ => ?_
  refine (wr_ok st.d.rv1 (by omega : j < n) _).bind fun rv1 hr => ?_
  refine (rotCols_safe st.d.v (by omega : j < n) hj _ _).bind fun v _ => ?_
  refine (wr_ok st.d.w (by omega : j < n) _).bind fun w _ => ?_
  refine (rotCols_safe st.d.a (by omega : j < n) hj _ _).bind fun a _ => Ok.ok ?_
  intro k hk
  subst hr
  exact Function.update_of_ne (fun h => hk (by rw [h])) _ _

theorem qrStep_safe (d : Dg α m n) {l k : ℕ} (hlk : l < k) (hk : k < n) (z : α) (hf : First0 d.rv1) :
    Ok (qrStep d l k z) (fun d' => First0 d'.rv1) := by
  refine (rd_ok d.w (by omega : l < n)).bind fun x _ => (rd_ok d.w (by omega : k - 1 < n)).bind fun y _ => ?_
  refine (rd_ok d.rv1 (by omega : k - 1 < n)).bind fun g _ => (rd_ok d.rv1 hk).bind fun h _ => ?_
  refine (forUp_ok' (fun st => ∀ k : Fin n, k.val < l → st.d.rv1 k = d.rv1 k) (fun _ _ => rfl) ?_).bind
    fun st hst => ?_
  · intro j st h1 h2 hst
    exact (sweepStep_safe (by omega) st).mono fun st' h' k hk => by rw [h' k (by omega), hst k hk]
  refine (wr_ok st.d.rv1 (by omega : l < n) _).bind fun rv1 h1 => (wr_ok rv1 hk _).bind fun rv1' h2 => ?_
  refine (wr_ok st.d.w hk _).bind fun w _ => Ok.ok ?_
  intro hn
  show rv1' ⟨0, hn⟩ = _ ∨ rv1' ⟨0, hn⟩ = _
  rw [h2, Function.update_of_ne (by simp; omega), h1]
  rcases Nat.eq_zero_or_pos l with rfl | hpos
  · rw [Function.update_self]; exact .inl rfl
  · rw [Function.update_of_ne (by simp; omega), hst _ hpos]
    exact hf hn

theorem iter_safe (S : Splits α) {anorm : α} (hg : S.Good anorm) {k its : ℕ} (hk : k < n) (hits : its < 30)
    (d : Dg α m n) (hf : First0 d.rv1) :
    Ok (iter anorm k its d) (fun p => p.1 ≠ .fail ∧ First0 p.2.rv1) := by
  refine (splitTest_safe S hf hg k hk).bind fun p hp => ?_
  obtain ⟨flag, l⟩ := p
  refine Ok.bind (P := T) ?_ fun p _ => ?_
  · refine Ok.ite (fun hfl => ?_) fun _ => Ok.ok trivial
    have hp2 := hp.2 hfl
    have hp1 := hp.1
    dsimp only at hp1 hp2
    refine (forUp_ok' T trivial fun i st _ h2 _ => ?_).bind fun _ _ => Ok.ok trivial
    exact cancelStep_safe d.rv1 anorm (by omega) (by omega) st
  obtain ⟨a, w⟩ := p
  refine (rd_ok w hk).bind fun z _ => Ok.ite (fun _ => ?_) fun hlk => ?_
  · refine Ok.ite (fun _ => ?_) fun _ => Ok.ok ⟨by simp, hf⟩
    refine (wr_ok w hk _).bind fun w _ => ?_
    refine Ok.bind (P := T) ?_ fun v _ => Ok.ok ⟨by simp, hf⟩
    exact forUp_ok' _ trivial fun j v _ hj _ => (rd2_ok v hj hk).bind fun _ _ => (wr2_ok v hj hk _).mono fun _ _ => trivial
  · rw [if_neg (by omega)]
    have hp1 := hp.1
    dsimp only at hp1
    exact (qrStep_safe ⟨a, w, d.v, d.rv1⟩ (by omega) hk z hf).bind fun d hd => Ok.ok ⟨by simp, hd⟩

theorem iters_safe (S : Splits α) {anorm : α} (hg : S.Good anorm) {k : ℕ} (hk : k < n) (its : ℕ)
    (d : Dg α m n) (hf : First0 d.rv1) :
    Ok (iters anorm k its d) (fun p => p.1 ≠ .fail ∧ First0 p.2.rv1) := by
  induction hr : 30 - its generalizing its d with
  | zero => rw [iters, if_neg (by omega)]; exact Ok.ok ⟨by simp, hf⟩
  | succ r ih =>
    rw [iters, if_pos (by omega)]
    refine (iter_safe S hg hk (by omega) d hf).bind fun p hp => ?_
    obtain ⟨c, d⟩ := p
    cases c with
    | again => exact ih _ _ hp.2 (by omega)
    | conv => exact Ok.ok ⟨by simp, hp.2⟩
    | fail => exact absurd rfl hp.1

theorem diagonalize_safe (S : Splits α) {anorm : α} (hg : S.Good anorm) :
    ∀ (k : ℕ) (d : Dg α m n), k ≤ n → First0 d.rv1 → Ok (diagonalize anorm k d) (fun p => p.1 = true) := by
  intro k
  induction k with
  | zero => intro d _ _; exact Ok.ok rfl
  | succ k ih =>
    intro d hk hf
    refine (iters_safe S hg (by omega) 0 d hf).bind fun p hp => ?_
    obtain ⟨c, d⟩ := p
    have hp1 : c ≠ .fail := hp.1
    dsimp only
    rw [if_neg hp1]
    exact ih d (by omega) hp.2

theorem svdcmpFull_safe (S : Splits α) (hmn : n ≤ m) (a : Mat α m n) (w : Vec α n) (v : Mat α n n) :
    Ok (svdcmpFull a w v) (fun p => p.1 = 1) := by
  unfold svdcmpFull
  rw [if_neg (by omega)]
  refine (householder_safe S a w).bind fun st hst => ?_
  refine (accRight_safe hmn st.a st.rv1 st.g v).bind fun v _ => ?_
  refine (accLeft_safe hmn st.a st.w).bind fun a _ => ?_
  refine (diagonalize_safe S hst.2 n ⟨a, st.w, v, st.rv1⟩ le_rfl hst.1).bind fun p hp => ?_
  obtain ⟨ok, d⟩ := p
  dsimp only at hp
  subst hp
  exact Ok.ok rfl

theorem svdcmp_safe (S : Splits α) (hmn : n ≤ m) (a : Mat α m n) (w : Vec α n) (v : Mat α n n) :
    Ok (svdcmp a w v) (fun p => p.1 = 1) :=
  (svdcmpFull_safe S hmn a w v).bind fun p hp => Ok.ok (by obtain ⟨r, d⟩ := p; exact hp)

theorem svdcmp_short (hmn : m < n) (a : Mat α m n) (w : Vec α n) (v : Mat α n n) :
    svdcmp a w v = .ok (-1, a, w, v) := by
  unfold svdcmp svdcmpFull
  rw [if_pos hmn]; rfl

theorem tmpEntry_safe {q : ℕ} (hq : m ≤ q) (u : Mat α m n) (w : Vec α n) (b : Vec α q) {j : ℕ} (hj : j < n) :
    Ok (tmpEntry u w b j) T := by
  refine (rd_ok w hj).bind fun wj _ => Ok.ite (fun _ => ?_) fun _ => Ok.ok trivial
  refine Ok.bind (P := T) ?_ fun _ _ => Ok.ok trivial
  exact forUp_ok' _ trivial fun i _ _ hi _ =>
    (rd2_ok u hi hj).bind fun _ _ => (rd_ok b (by omega)).bind fun _ _ => Ok.ok trivial

theorem svbksb_safe {p q : ℕ} (hp : n ≤ p) (hq : m ≤ q) (u : Mat α m n) (w : Vec α n) (v : Mat α n n) (b : Vec α q)
    (x : Vec α p) : Ok (svbksb u w v b x) T := by
  refine Ok.bind (P := T) ?_ fun tmp _ => ?_
  · exact forUp_ok' _ trivial fun j tmp _ hj _ =>
      (tmpEntry_safe hq u w b hj).bind fun _ _ => (wr_ok tmp hj _).mono fun _ _ => trivial
  · refine forUp_ok' _ trivial fun j x _ hj _ => ?_
    refine Ok.bind (P := T) ?_ fun s _ => (wr_ok x (by omega : j < p) _).mono fun _ _ => trivial
    exact forUp_ok' _ trivial fun jj _ _ hjj _ =>
      (rd2_ok v hj hjj).bind fun _ _ => (rd_ok tmp hjj).bind fun _ _ => Ok.ok trivial

theorem wmax_safe (w : Vec α n) : Ok (wmax w) T :=
  forUp_ok' _ trivial fun j mx _ hj _ => (rd_ok w hj).bind fun _ _ =>
    Ok.ite (fun _ => (rd_ok w hj).mono fun _ _ => trivial) fun _ => Ok.ok trivial

theorem clampW_safe (w : Vec α n) (t : α) : Ok (clampW w t) T :=
  forUp_ok' _ trivial fun j w _ hj _ => (rd_ok w hj).bind fun _ _ =>
    Ok.ite (fun _ => (wr_ok w hj _).mono fun _ _ => trivial) fun _ => Ok.ok trivial

theorem solve_safe (S : Splits α) {p q : ℕ} (hp : n ≤ p) (hq : m ≤ q) (A : Mat α m n) (b : Vec α q) (x : Vec α p)
    (TOL : α) : Ok (solve A b x TOL) (fun r => r.1 = 0) := by
  have h : Ok (svdcmp A vzero mzero) (fun p => p.1 ≠ 0) := by
    rcases lt_or_ge m n with h | h
    · rw [svdcmp_short h]; exact Ok.ok (show (-1 : ℤ) ≠ 0 by decide)
    · exact (svdcmp_safe S h A vzero mzero).mono fun p hp => by rw [hp]; decide
  refine h.bind fun r hr => ?_
  obtain ⟨r, a, w, v⟩ := r
  have hr' : r ≠ 0 := hr
  dsimp only
  rw [if_neg hr']
  exact (wmax_safe w).bind fun mx _ => (clampW_safe w _).bind fun w _ =>
    (svbksb_safe hp hq a w v b x).bind fun x _ => Ok.ok rfl

end CS.SOLVER
