import Verif.Model.Solver

/-!
# Reasoning about checked loops

`Ok x P`: the computation `x` has a defined result, and it satisfies `P`.
-/

namespace CS

/-- The computation is defined and its result satisfies `P`. -/
def Ok {σ : Type} (x : Except UB σ) (P : σ → Prop) : Prop := ∃ s, x = .ok s ∧ P s

namespace Ok
variable {σ τ : Type} {P : σ → Prop} {Q : τ → Prop}

theorem ok {s : σ} (h : P s) : Ok (.ok s) P := ⟨s, rfl, h⟩

theorem mono {x : Except UB σ} {P' : σ → Prop} (h : Ok x P) (hi : ∀ s, P s → P' s) : Ok x P' := by
  obtain ⟨s, h1, h2⟩ := h
  exact ⟨s, h1, hi s h2⟩

theorem bind {x : Except UB σ} {f : σ → Except UB τ} (h : Ok x P) (hf : ∀ s, P s → Ok (f s) Q) :
    Ok (x >>= f) Q := by
  obtain ⟨s, rfl, hs⟩ := h
  exact hf s hs

theorem ite {c : Prop} [Decidable c] {x y : Except UB σ} (hx : c → Ok x P) (hy : ¬ c → Ok y P) :
    Ok (if c then x else y) P := by
  split_ifs with h
  · exact hx h
  · exact hy h

theorem and {x : Except UB σ} {P' : σ → Prop} (h : Ok x P) (h' : Ok x P') : Ok x (fun s => P s ∧ P' s) := by
  obtain ⟨s, h1, h2⟩ := h
  obtain ⟨t, h3, h4⟩ := h'
  rw [h1] at h3
  cases h3
  exact ⟨s, h1, h2, h4⟩

theorem of_eq {x : Except UB σ} {s : σ} (h : x = .ok s) (hs : P s) : Ok x P := ⟨s, h, hs⟩

theorem exists_eq {x : Except UB σ} (h : Ok x P) : ∃ s, x = .ok s := by
  obtain ⟨s, h1, _⟩ := h
  exact ⟨s, h1⟩

end Ok

theorem forUp_self {σ : Type} {lo hi : ℕ} (h : hi ≤ lo) (s : σ) (f : ℕ → σ → Except UB σ) :
    forUp lo hi s f = .ok s := by
  rw [forUp, if_neg (by omega)]

theorem forUp_step {σ : Type} {lo hi : ℕ} (h : lo < hi) (s : σ) (f : ℕ → σ → Except UB σ) :
    forUp lo hi s f = (f lo s >>= fun s => forUp (lo + 1) hi s f) := by
  rw [forUp, if_pos h]

/-- The loop rule. -/
theorem forUp_ok {σ : Type} {lo hi : ℕ} {s : σ} {f : ℕ → σ → Except UB σ} (Inv : ℕ → σ → Prop) (hlo : lo ≤ hi)
    (h0 : Inv lo s) (hs : ∀ i s, lo ≤ i → i < hi → Inv i s → Ok (f i s) (Inv (i + 1))) :
    Ok (forUp lo hi s f) (Inv hi) := by
  obtain ⟨d, rfl⟩ := Nat.exists_eq_add_of_le hlo
  clear hlo
  induction d generalizing lo s with
  | zero => rw [forUp_self (by omega)]; exact Ok.ok h0
  | succ d ih =>
    rw [forUp_step (by omega)]
    refine (hs lo s le_rfl (by omega) h0).bind fun t ht => ?_
    have := ih (lo := lo + 1) (s := t) ht (fun i s h1 h2 h3 => hs i s (by omega) (by omega) h3)
    rwa [show lo + 1 + d = lo + (d + 1) by omega] at this

/-- The loop rule for an invariant that does not mention the counter. -/
theorem forUp_ok' {σ : Type} {lo hi : ℕ} {s : σ} {f : ℕ → σ → Except UB σ} (Inv : σ → Prop)
    (h0 : Inv s) (hs : ∀ i s, lo ≤ i → i < hi → Inv s → Ok (f i s) Inv) :
    Ok (forUp lo hi s f) Inv := by
  rcases le_or_gt lo hi with h | h
  · exact forUp_ok (fun _ => Inv) h h0 hs
  · rw [forUp_self h.le]; exact Ok.ok h0

/-- The rule for descending loops. -/
theorem forDown_ok {σ : Type} {n : ℕ} {s : σ} {f : ℕ → σ → Except UB σ} (Inv : ℕ → σ → Prop)
    (h0 : Inv n s) (hs : ∀ i s, i < n → Inv (i + 1) s → Ok (f i s) (Inv i)) :
    Ok (forDown n s f) (Inv 0) := by
  induction n generalizing s with
  | zero => exact Ok.ok h0
  | succ n ih =>
    rw [forDown]
    exact (hs n s (by omega) h0).bind fun t ht => ih ht (fun i s h1 h2 => hs i s (by omega) h2)

namespace SOLVER
variable {α : Type} {m n : ℕ}

theorem rd_eq (w : Vec α n) {i : ℕ} (h : i < n) : rd w i = .ok (w ⟨i, h⟩) := by rw [rd, dif_pos h]
theorem wr_eq (w : Vec α n) {i : ℕ} (h : i < n) (x : α) : wr w i x = .ok (Function.update w ⟨i, h⟩ x) := by
  rw [wr, dif_pos h]
theorem rd2_eq (a : Mat α m n) {i j : ℕ} (hi : i < m) (hj : j < n) : rd2 a i j = .ok (a ⟨i, hi⟩ ⟨j, hj⟩) := by
  rw [rd2, dif_pos hi, dif_pos hj]
theorem wr2_eq (a : Mat α m n) {i j : ℕ} (hi : i < m) (hj : j < n) (x : α) :
    wr2 a i j x = .ok (Function.update a ⟨i, hi⟩ (Function.update (a ⟨i, hi⟩) ⟨j, hj⟩ x)) := by
  rw [wr2, dif_pos hi, dif_pos hj]

theorem rd_ok (w : Vec α n) {i : ℕ} (h : i < n) : Ok (rd w i) (fun x => x = w ⟨i, h⟩) := ⟨_, rd_eq w h, rfl⟩
theorem wr_ok (w : Vec α n) {i : ℕ} (h : i < n) (x : α) :
    Ok (wr w i x) (fun w' => w' = Function.update w ⟨i, h⟩ x) := ⟨_, wr_eq w h x, rfl⟩
theorem rd2_ok (a : Mat α m n) {i j : ℕ} (hi : i < m) (hj : j < n) :
    Ok (rd2 a i j) (fun x => x = a ⟨i, hi⟩ ⟨j, hj⟩) := ⟨_, rd2_eq a hi hj, rfl⟩
theorem wr2_ok (a : Mat α m n) {i j : ℕ} (hi : i < m) (hj : j < n) (x : α) :
    Ok (wr2 a i j x) (fun a' => a' = Function.update a ⟨i, hi⟩ (Function.update (a ⟨i, hi⟩) ⟨j, hj⟩ x)) :=
  ⟨_, wr2_eq a hi hj x, rfl⟩

end SOLVER
end CS
