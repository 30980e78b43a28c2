import Verif.Lemmas.Solver
import Mathlib.Tactic.IntervalCases

/-!
# The linear system built by `Corrector::solve`
-/

namespace CS.Corrector
open SOLVER Arith Libm
variable {α : Type} {m n : ℕ}

theorem wr2_at (a : Mat α m n) {i j : ℕ} (hi : i < m) (hj : j < n) (x : α) :
    Ok (wr2 a i j x) (fun a' => ∀ r c, a' r c = if r.val = i ∧ c.val = j then x else a r c) := by
  refine Ok.of_eq (wr2_eq a hi hj x) fun r c => ?_
  split_ifs with h
  · obtain ⟨h1, h2⟩ := h
    have : r = ⟨i, hi⟩ := Fin.ext h1
    subst this
    have : c = ⟨j, hj⟩ := Fin.ext h2
    subst this
    rw [Function.update_self, Function.update_self]
  · by_cases h1 : r = ⟨i, hi⟩
    · subst h1
      rw [Function.update_self, Function.update_of_ne]
      rintro rfl
      exact h ⟨rfl, rfl⟩
    · rw [Function.update_of_ne h1]

theorem wr_at (b : Vec α n) {i : ℕ} (hi : i < n) (x : α) :
    Ok (wr b i x) (fun b' => ∀ r, b' r = if r.val = i then x else b r) := by
  refine Ok.of_eq (wr_eq b hi x) fun r => ?_
  split_ifs with h
  · have : r = ⟨i, hi⟩ := Fin.ext h
    subst this
    rw [Function.update_self]
  · rw [Function.update_of_ne]
    rintro rfl
    exact h rfl

variable [Libm α]

/-- Component `k` of a colour. -/
def comp (t : Tristimulus α) (k : ℕ) : α := if k = 0 then t.a else if k = 1 then t.b else t.c

theorem clearRows_at (a : Mat α m 9) {i : ℕ} (hi : i + 2 < m) :
    Ok (clearRows a i) (fun a' => ∀ r c, a' r c = if i ≤ r.val ∧ r.val < i + 3 then lit 0 else a r c) := by
  refine Ok.mono (forUp_ok (fun k a' => ∀ r c, a' r c =
    if i ≤ r.val ∧ r.val < i + 3 ∧ c.val < k then lit 0 else a r c) (Nat.zero_le 9) (fun r c => by simp) ?_)
    fun a' h r c => ?_
  · intro k a1 _ hk h
    refine (wr2_at a1 (by omega) hk _).bind fun a2 h2 => (wr2_at a2 (by omega) hk _).bind fun a3 h3 =>
      (wr2_at a3 hi hk _).mono fun a4 h4 r c => ?_
    rw [h4, h3, h2, h]
    split_ifs <;> first | rfl | (exfalso; omega)
  · rw [h]
    split_ifs <;> first | rfl | (exfalso; omega)

theorem wrBlock_at (a : Mat α m 9) {i : ℕ} (hi : i + 2 < m) (p : Tristimulus α) :
    Ok (wrBlock a i p) (fun a' => ∀ r c, a' r c =
      if i ≤ r.val ∧ r.val < i + 3 ∧ c.val / 3 = r.val - i then comp p (c.val % 3) else a r c) := by
  refine (wr2_at a (by omega) (by omega) _).bind fun a1 h1 => (wr2_at a1 (by omega) (by omega) _).bind fun a2 h2 =>
    (wr2_at a2 (by omega) (by omega) _).bind fun a3 h3 => (wr2_at a3 (by omega) (by omega) _).bind fun a4 h4 =>
    (wr2_at a4 (by omega) (by omega) _).bind fun a5 h5 => (wr2_at a5 (by omega) (by omega) _).bind fun a6 h6 =>
    (wr2_at a6 (by omega) (by omega) _).bind fun a7 h7 => (wr2_at a7 (by omega) (by omega) _).bind fun a8 h8 =>
    (wr2_at a8 (by omega) (by omega) _).mono fun a9 h9 r c => ?_
  rw [h9, h8, h7, h6, h5, h4, h3, h2, h1]
  by_cases hr : i ≤ r.val ∧ r.val < i + 3
  · obtain ⟨ρ, hρ⟩ := Nat.exists_eq_add_of_le hr.1
    have h3 : ρ < 3 := by omega
    obtain ⟨c, hc⟩ := c
    clear h1 h2 h3 h4 h5 h6 h7 h8 h9
    have h3 : ρ < 3 := by omega
    rw [hρ]
    interval_cases ρ <;> interval_cases c <;> simp [comp]
  · have e : ∀ k j : ℕ, k < 3 → ¬ (r.val = i + k ∧ c.val = j) := fun k j hk h => hr (by omega)
    rw [if_neg (e 2 _ (by omega)), if_neg (e 2 _ (by omega)), if_neg (e 2 _ (by omega)), if_neg (e 1 _ (by omega)),
      if_neg (e 1 _ (by omega)), if_neg (e 1 _ (by omega)), if_neg (e 0 _ (by omega)), if_neg (e 0 _ (by omega)),
      if_neg (e 0 _ (by omega)), if_neg (fun h => hr ⟨h.1, h.2.1⟩)]

omit [Libm α] in
theorem wrRhs_at (b : Vec α m) {i : ℕ} (hi : i + 2 < m) (t : Tristimulus α) :
    Ok (wrRhs b i t) (fun b' => ∀ r, b' r =
      if i ≤ r.val ∧ r.val < i + 3 then comp t (r.val - i) else b r) := by
  refine (wr_at b (by omega) _).bind fun b1 h1 => (wr_at b1 (by omega) _).bind fun b2 h2 =>
    (wr_at b2 hi _).mono fun b3 h3 r => ?_
  rw [h3, h2, h1]
  unfold comp
  split_ifs <;> first | rfl | (exfalso; omega)

omit [Libm α] in
theorem at'_ok {t : List (Tristimulus α)} {i : ℕ} (h : i < t.length) : at' t i = .ok t[i] := by
  unfold at'; rw [List.getElem?_eq_getElem h]

/-- The entries of the matrix and of the right-hand side. -/
theorem system_ok (patch target : List (Tristimulus α)) (hl : patch.length ≤ target.length) :
    Ok (system patch target) (fun ab =>
      (∀ (k : ℕ) (hk : k < patch.length) (ρ : Fin 3) (c : Fin 9),
        ab.1 ⟨3 * k + ρ, by have := ρ.2; omega⟩ c = (if c.val / 3 = ρ.val then comp patch[k] (c.val % 3) else lit 0) ∧
        ab.2 ⟨3 * k + ρ, by have := ρ.2; omega⟩ = comp target[k] ρ.val) ∧
      (∀ r, 3 * patch.length ≤ r.val → (∀ c, ab.1 r c = lit 0) ∧ ab.2 r = lit 0)) := by
  have hloop : Ok (forUp 0 patch.length
      ((mzero, vzero) : Mat α ((patch.length + 1) * 3) 9 × Vec α ((patch.length + 1) * 3)) fun r (a, b) => do
        let i := 3 * r
        let a ← clearRows a i
        let p ← at' patch (i / 3)
        let a ← wrBlock a i p
        let t ← at' target (i / 3)
        let b ← wrRhs b i t
        .ok (a, b)) (fun ab => ∀ (k : ℕ) (hk : k < patch.length) (ρ : Fin 3) (c : Fin 9), 
        ab.1 ⟨3 * k + ρ, by have := ρ.2; omega⟩ c = (if c.val / 3 = ρ.val then comp patch[k] (c.val % 3) else lit 0) ∧
        ab.2 ⟨3 * k + ρ, by have := ρ.2; omega⟩ = comp target[k] ρ.val) := by
    refine Ok.mono (forUp_ok (fun j ab => ∀ (k : ℕ) (hk : k < patch.length) (ρ : Fin 3) (c : Fin 9), k < j → 
        ab.1 ⟨3 * k + ρ, by have := ρ.2; omega⟩ c = (if c.val / 3 = ρ.val then comp patch[k] (c.val % 3) else lit 0) ∧
        ab.2 ⟨3 * k + ρ, by have := ρ.2; omega⟩ = comp target[k] ρ.val) (Nat.zero_le _)
        (fun k hk ρ c h => absurd h (Nat.not_lt_zero _)) ?_) (fun ab h k hk ρ c => h k hk ρ c hk)
    rintro j ⟨a, b⟩ - hj hinv
    have hd : 3 * j / 3 = j := by omega
    dsimp only
    rw [hd, at'_ok hj, at'_ok (by omega : j < target.length)]
    refine (clearRows_at a (by omega)).bind fun a1 h1 => ?_
    refine (wrBlock_at a1 (by omega) patch[j]).bind fun a2 h2 => ?_
    refine (wrRhs_at b (by omega) target[j]).bind fun b1 h3 => Ok.ok ?_
    intro k hk ρ c hkj
    have hρ := ρ.2
    have hc := c.2
    dsimp only
    rw [h2, h3, h1]
    dsimp only
    rcases Nat.lt_succ_iff_lt_or_eq.1 hkj with hlt | rfl
    · have := hinv k hk ρ c hlt
      dsimp only at this
      refine ⟨Eq.trans ?_ this.1, Eq.trans ?_ this.2⟩ <;>
        · rw [if_neg (by omega)]
          try rw [if_neg (by omega)]
    · rw [if_pos (by omega : 3 * k ≤ 3 * k + ρ.val ∧ 3 * k + ρ.val < 3 * k + 3),
        if_pos (by omega : 3 * k ≤ 3 * k + ρ.val ∧ 3 * k + ρ.val < 3 * k + 3), show 3 * k + ρ.val - 3 * k = ρ.val by omega]
      refine ⟨?_, rfl⟩
      split_ifs <;> first | rfl | (exfalso; omega)
  refine hloop.bind fun ab hab => ?_
  obtain ⟨a, b⟩ := ab
  refine (clearRows_at a (by omega)).bind fun a1 h1 => (wrBlock_at a1 (by omega) _).bind fun a2 h2 =>
    (wrRhs_at b (by omega) _).bind fun b1 h3 => Ok.ok ⟨?_, ?_⟩
  · intro k hk ρ c
    have hρ := ρ.2
    have := hab k hk ρ c
    dsimp only at this ⊢
    rw [h2, h3, h1]
    dsimp only
    refine ⟨Eq.trans ?_ this.1, Eq.trans ?_ this.2⟩ <;>
      · rw [if_neg (by omega)]
        try rw [if_neg (by omega)]
  · intro r hr
    have := r.2
    have hz : ∀ k, comp (⟨lit 0, lit 0, lit 0⟩ : Tristimulus α) k = lit 0 := fun k => by
      unfold comp; split_ifs <;> rfl
    dsimp only
    refine ⟨fun c => ?_, ?_⟩
    · rw [h2, h1, hz]
      split_ifs <;> first | rfl | (exfalso; omega)
    · rw [h3, hz, if_pos (by omega)]

/-- Without enough targets the loop reads behind the end of `target`. -/
theorem system_short (patch target : List (Tristimulus α)) (hl : target.length < patch.length) :
    system patch target = .error .outOfBounds := by
  unfold system
  suffices h : ∀ d j (ab : Mat α ((patch.length + 1) * 3) 9 × Vec α ((patch.length + 1) * 3)),
      j + d = target.length → forUp j patch.length ab (fun r (a, b) => do
        let i := 3 * r
        let a ← clearRows a i
        let p ← at' patch (i / 3)
        let a ← wrBlock a i p
        let t ← at' target (i / 3)
        let b ← wrRhs b i t
        .ok (a, b)) = .error .outOfBounds by
    rw [h target.length 0 _ (by omega)]; rfl
  intro d
  induction d with
  | zero =>
    rintro j ⟨a, b⟩ hj
    have hd : 3 * j / 3 = j := by omega
    rw [forUp_step (by omega)]
    dsimp only
    obtain ⟨a1, h1, -⟩ := clearRows_at a (by omega : 3 * j + 2 < (patch.length + 1) * 3)
    obtain ⟨a2, h2, -⟩ := wrBlock_at a1 (by omega : 3 * j + 2 < (patch.length + 1) * 3)
      (patch[j]'(by omega))
    have h3 : at' target j = .error .outOfBounds := by
      unfold at'; rw [List.getElem?_eq_none (by omega)]
    rw [h1, hd, at'_ok (by omega : j < patch.length), h3]
    show (wrBlock a1 (3 * j) patch[j] >>= fun _ => _) >>= _ = _
    rw [h2]; rfl
  | succ d ih =>
    rintro j ⟨a, b⟩ hj
    have hd : 3 * j / 3 = j := by omega
    rw [forUp_step (by omega)]
    dsimp only
    obtain ⟨a1, h1, -⟩ := clearRows_at a (by omega : 3 * j + 2 < (patch.length + 1) * 3)
    obtain ⟨a2, h2, -⟩ := wrBlock_at a1 (by omega : 3 * j + 2 < (patch.length + 1) * 3)
      (patch[j]'(by omega))
    obtain ⟨b1, h4, -⟩ := wrRhs_at b (by omega : 3 * j + 2 < (patch.length + 1) * 3) (target[j]'(by omega))
    rw [h1, hd, at'_ok (by omega : j < patch.length), at'_ok (by omega : j < target.length)]
    show (wrBlock a1 (3 * j) patch[j] >>= fun a => wrRhs b (3 * j) target[j] >>= fun b => _) >>= _ = _
    rw [h2]
    show (wrRhs b (3 * j) target[j] >>= fun b => .ok (a2, b)) >>= _ = _
    rw [h4]
    exact ih (j + 1) (a2, b1) (by omega)

end CS.Corrector
