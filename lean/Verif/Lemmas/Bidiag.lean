import Verif.Lemmas.Reflect

/-!
# The Householder reduction of `svdcmp` bidiagonalises its input, in exact arithmetic
-/

namespace CS.SOLVER
open Arith Libm Matrix
variable {m n : ℕ}

/-- `1 + rho u u^T`. -/
def refl {q : ℕ} (ρ : ℝ) (u : Fin q → ℝ) : Matrix (Fin q) (Fin q) ℝ := 1 + ρ • vecMulVec u u

theorem refl_transpose {q : ℕ} (ρ : ℝ) (u : Fin q → ℝ) : (refl ρ u)ᵀ = refl ρ u := by
  unfold refl
  rw [transpose_add, transpose_one, transpose_smul, transpose_vecMulVec]

theorem refl_mul {q p : ℕ} (ρ : ℝ) (u : Fin q → ℝ) (M : Matrix (Fin q) (Fin p) ℝ) (r : Fin q) (c : Fin p) :
    (refl ρ u * M) r c = M r c + u r * (ρ * ∑ k, u k * M k c) := by
  unfold refl
  rw [Matrix.add_mul, Matrix.one_mul, Matrix.smul_mul]
  simp only [Matrix.add_apply, Matrix.smul_apply, Matrix.mul_apply, vecMulVec_apply, smul_eq_mul]
  congr 1
  rw [Finset.mul_sum, Finset.mul_sum, Finset.mul_sum]
  exact Finset.sum_congr rfl fun k _ => by ring

theorem mul_refl {q p : ℕ} (ρ : ℝ) (u : Fin q → ℝ) (M : Matrix (Fin p) (Fin q) ℝ) (r : Fin p) (c : Fin q) :
    (M * refl ρ u) r c = M r c + u c * (ρ * ∑ k, u k * M r k) := by
  have h := refl_mul ρ u Mᵀ c r
  rw [← refl_transpose, ← transpose_mul] at h
  exact h

theorem refl_sq {q : ℕ} {ρ : ℝ} {u : Fin q → ℝ} (h : ρ = 0 ∨ ρ * ∑ k, u k * u k = -2) : refl ρ u * refl ρ u = 1 := by
  ext r c
  rw [refl_mul]
  have h1 : ∀ k, refl ρ u k c = (if k = c then 1 else 0) + ρ * (u k * u c) := by
    intro k
    unfold refl
    simp [Matrix.one_apply, vecMulVec_apply]
  rw [Matrix.one_apply, h1]
  rcases h with h | h
  · rw [h]; simp
  · have h2 : ∑ k, u k * refl ρ u k c = u c + ρ * (∑ k, u k * u k) * u c := by
      rw [Finset.sum_congr rfl fun k _ => show u k * refl ρ u k c = (if k = c then u k else 0) + ρ * (u k * u k) * u c by
        rw [h1]; split_ifs <;> ring]
      rw [Finset.sum_add_distrib, Finset.sum_ite_eq' Finset.univ]
      simp only [Finset.mem_univ, if_true]
      rw [Finset.mul_sum, Finset.sum_mul]
    rw [h2, h]; ring

/-- Products `H 0 * H 1 * ... * H (i - 1)`. -/
def prods {q : ℕ} (H : ℕ → Matrix (Fin q) (Fin q) ℝ) : ℕ → Matrix (Fin q) (Fin q) ℝ
  | 0 => 1
  | i + 1 => prods H i * H i

theorem prods_congr {q : ℕ} {H H' : ℕ → Matrix (Fin q) (Fin q) ℝ} {i : ℕ} (h : ∀ j < i, H j = H' j) :
    prods H i = prods H' i := by
  induction i with
  | zero => rfl
  | succ i ih => rw [prods, prods, ih fun j hj => h j (by omega), h i (by omega)]

/-- Reflector stored in column `i`. -/
def uL (a : Mat ℝ m n) (i : ℕ) (r : Fin m) : ℝ := if h : i < n then (if i ≤ r.val then a r ⟨i, h⟩ else 0) else 0
/-- Its factor. -/
noncomputable def rL (a : Mat ℝ m n) (w : Vec ℝ n) (i : ℕ) : ℝ :=
  if h : i < n ∧ i < m then (a ⟨i, h.2⟩ ⟨i, h.1⟩ * w ⟨i, h.1⟩)⁻¹ else 0
/-- Left reflection number `i`. -/
noncomputable def HL (a : Mat ℝ m n) (w : Vec ℝ n) (i : ℕ) : Matrix (Fin m) (Fin m) ℝ := refl (rL a w i) (uL a i)
/-- Reflector stored in row `i`. -/
def uR (a : Mat ℝ m n) (i : ℕ) (c : Fin n) : ℝ := if h : i < m then (if i + 1 ≤ c.val then a ⟨i, h⟩ c else 0) else 0
/-- Its factor. -/
noncomputable def rR (a : Mat ℝ m n) (e : Vec ℝ n) (i : ℕ) : ℝ :=
  if h : i < m ∧ i + 1 < n then (a ⟨i, h.1⟩ ⟨i + 1, h.2⟩ * e ⟨i + 1, h.2⟩)⁻¹ else 0
/-- Right reflection number `i`. -/
noncomputable def KR (a : Mat ℝ m n) (e : Vec ℝ n) (i : ℕ) : Matrix (Fin n) (Fin n) ℝ := refl (rR a e i) (uR a i)

/-- The partly reduced matrix before step `i`. -/
def Tm (i : ℕ) (a : Mat ℝ m n) (w e : Vec ℝ n) : Matrix (Fin m) (Fin n) ℝ := of fun r c =>
  if r.val < i then (if c.val = r.val then w c else if c.val = r.val + 1 then e c else 0)
  else if c.val < i then 0 else a r c

/-- The off-diagonal before step `i`: the last entry is pending in `scale * g`. -/
def pend (i : ℕ) (st : HH ℝ m n) : Vec ℝ n := fun c => if c.val = i then st.scale * st.g else st.rv1 c

/-- What is known of column `j` once it has been reduced. -/
def LOk (a : Mat ℝ m n) (w : Vec ℝ n) (j : ℕ) : Prop :=
  ∀ (h : j < n) (hm : j < m), w ⟨j, h⟩ = 0 ∨ a ⟨j, hm⟩ ⟨j, h⟩ ≠ 0 ∧
    (∑ k : Fin m, uL a j k * uL a j k) = -2 * (a ⟨j, hm⟩ ⟨j, h⟩ * w ⟨j, h⟩)
/-- What is known of row `j` once it has been reduced. -/
def ROk (a : Mat ℝ m n) (e : Vec ℝ n) (j : ℕ) : Prop :=
  ∀ (hm : j < m) (h : j + 1 < n), e ⟨j + 1, h⟩ = 0 ∨ a ⟨j, hm⟩ ⟨j + 1, h⟩ ≠ 0 ∧
    (∑ k : Fin n, uR a j k * uR a j k) = -2 * (a ⟨j, hm⟩ ⟨j + 1, h⟩ * e ⟨j + 1, h⟩)

theorem HL_sq {a : Mat ℝ m n} {w : Vec ℝ n} {j : ℕ} (h : LOk a w j) : HL a w j * HL a w j = 1 := by
  refine refl_sq ?_
  unfold rL
  split_ifs with hj
  · rcases h hj.1 hj.2 with h0 | ⟨h1, h2⟩
    · left; rw [h0]; simp
    · by_cases hw : w ⟨j, hj.1⟩ = 0
      · left; rw [hw]; simp
      · right; rw [h2]; field_simp
  · left; rfl

theorem KR_sq {a : Mat ℝ m n} {e : Vec ℝ n} {j : ℕ} (h : ROk a e j) : KR a e j * KR a e j = 1 := by
  refine refl_sq ?_
  unfold rR
  split_ifs with hj
  · rcases h hj.1 hj.2 with h0 | ⟨h1, h2⟩
    · left; rw [h0]; simp
    · by_cases hw : e ⟨j + 1, hj.2⟩ = 0
      · left; rw [hw]; simp
      · right; rw [h2]; field_simp
  · left; rfl

theorem uL_congr {a a' : Mat ℝ m n} {j : ℕ} (h : ∀ r c, c.val = j → a r c = a' r c) : uL a j = uL a' j := by
  funext r
  unfold uL
  split_ifs
  · exact h _ _ rfl
  · rfl
  · rfl

theorem HL_congr {a a' : Mat ℝ m n} {w w' : Vec ℝ n} {j : ℕ} (h : ∀ r c, c.val = j → a r c = a' r c)
    (hw : ∀ c, c.val = j → w c = w' c) : HL a w j = HL a' w' j := by
  unfold HL
  rw [uL_congr h]
  congr 1
  unfold rL
  split_ifs
  · rw [h _ _ rfl, hw _ rfl]
  · rfl

theorem LOk_congr {a a' : Mat ℝ m n} {w w' : Vec ℝ n} {j : ℕ} (h : ∀ r c, c.val = j → a r c = a' r c)
    (hw : ∀ c, c.val = j → w c = w' c) (hok : LOk a w j) : LOk a' w' j := by
  intro h1 h2
  have := hok h1 h2
  rwa [uL_congr h, h _ _ rfl, hw _ rfl] at this

theorem uR_congr {a a' : Mat ℝ m n} {j : ℕ} (h : ∀ r c, r.val = j → j < c.val → a r c = a' r c) : uR a j = uR a' j := by
  funext c
  unfold uR
  split_ifs with h1 h2
  · exact h _ _ rfl h2
  · rfl
  · rfl

theorem KR_congr {a a' : Mat ℝ m n} {e e' : Vec ℝ n} {j : ℕ} (h : ∀ r c, r.val = j → j < c.val → a r c = a' r c)
    (he : ∀ c, c.val = j + 1 → e c = e' c) : KR a e j = KR a' e' j := by
  unfold KR
  rw [uR_congr h]
  congr 1
  unfold rR
  split_ifs
  · rw [h _ _ rfl (Nat.lt_succ_self _), he _ rfl]
  · rfl

theorem ROk_congr {a a' : Mat ℝ m n} {e e' : Vec ℝ n} {j : ℕ} (h : ∀ r c, r.val = j → j < c.val → a r c = a' r c)
    (he : ∀ c, c.val = j + 1 → e c = e' c) (hok : ROk a e j) : ROk a' e' j := by
  intro h1 h2
  have := hok h1 h2
  rwa [uR_congr h, h _ _ rfl (Nat.lt_succ_self _), he _ rfl] at this

/-- The matrix between the two halves of step `i`. -/
def Tm' (i : ℕ) (a : Mat ℝ m n) (w e : Vec ℝ n) : Matrix (Fin m) (Fin n) ℝ := of fun r c =>
  if r.val < i then (if c.val = r.val then w c else if c.val = r.val + 1 then e c else 0)
  else if c.val < i then 0 else if c.val = i then (if r.val = i then w c else 0) else a r c

theorem HL_Tm {i : ℕ} (hi : i < n) (him : i < m) {a a' : Mat ℝ m n} {w w' e : Vec ℝ n}
    (hs : LeftSpec i hi him a a' (w' ⟨i, hi⟩)) (hw : ∀ c : Fin n, c.val ≠ i → w' c = w c) :
    HL a' w' i * Tm i a w e = Tm' i a' w' e := by
  have hu : ∀ r : Fin m, uL a' i r = if i ≤ r.val then a' r ⟨i, hi⟩ else 0 := fun r => by unfold uL; rw [dif_pos hi]
  have hr : rL a' w' i = (a' ⟨i, him⟩ ⟨i, hi⟩ * w' ⟨i, hi⟩)⁻¹ := by unfold rL; rw [dif_pos ⟨hi, him⟩]
  ext r c
  unfold HL
  rw [refl_mul, hu r]
  by_cases hri : r.val < i
  · rw [if_neg (by omega), zero_mul, add_zero]
    show (if r.val < i then _ else _) = (if r.val < i then _ else _)
    rw [if_pos hri, if_pos hri]
    by_cases hc : c.val = r.val
    · rw [if_pos hc, if_pos hc, hw c (by omega)]
    · rw [if_neg hc, if_neg hc]
  · rw [if_pos (by omega)]
    have hT : ∀ k : Fin m, uL a' i k * Tm i a w e k c =
        if i ≤ k.val then a' k ⟨i, hi⟩ * (if c.val < i then 0 else a k c) else 0 := by
      intro k
      rw [hu k]
      by_cases hk : i ≤ k.val
      · rw [if_pos hk, if_pos hk]
        show _ * (if k.val < i then _ else _) = _
        rw [if_neg (by omega)]
      · rw [if_neg hk, if_neg hk, zero_mul]
    rw [Finset.sum_congr rfl fun k _ => hT k]
    show (if r.val < i then _ else if c.val < i then 0 else a r c) + _ = (if r.val < i then _ else _)
    rw [if_neg hri, if_neg hri]
    by_cases hc : c.val < i
    · simp only [hc, if_true, mul_zero, ite_self, Finset.sum_const_zero, add_zero]
    · simp only [hc, if_false]
      rw [hr]
      by_cases hci : c.val = i
      · obtain rfl : c = ⟨i, hi⟩ := Fin.ext hci
        simp only [if_true]
        exact hs.col r (by omega)
      · rw [if_neg hci]
        exact (hs.refl r c (by omega) (by omega)).symm

theorem Tm_KR {i : ℕ} (hi : i < n) (him : i < m) {a a' : Mat ℝ m n} {w e e' : Vec ℝ n}
    (hs : ∀ hin : i + 1 < n, RightSpec i him hin a a' (e' ⟨i + 1, hin⟩)) (hl : i + 1 = n → a' = a)
    (he : ∀ c : Fin n, c.val ≤ i → e' c = e c) :
    Tm' i a w e * KR a' e' i = Tm (i + 1) a' w e' := by
  have hu : ∀ c : Fin n, uR a' i c = if i + 1 ≤ c.val then a' ⟨i, him⟩ c else 0 := fun r => by unfold uR; rw [dif_pos him]
  ext r c
  unfold KR
  rw [mul_refl, hu c]
  by_cases hc : i + 1 ≤ c.val
  · have hin : i + 1 < n := by omega
    have hs := hs hin
    have hr : rR a' e' i = (a' ⟨i, him⟩ ⟨i + 1, hin⟩ * e' ⟨i + 1, hin⟩)⁻¹ := by unfold rR; rw [dif_pos ⟨him, hin⟩]
    rw [if_pos hc, hr]
    have hT : ∀ k : Fin n, uR a' i k * Tm' i a w e r k =
        if i + 1 ≤ k.val then a' ⟨i, him⟩ k * (if r.val < i then 0 else a r k) else 0 := by
      intro k
      rw [hu k]
      by_cases hk : i + 1 ≤ k.val
      · rw [if_pos hk, if_pos hk]
        show _ * (if r.val < i then _ else _) = _
        by_cases hri : r.val < i
        · rw [if_pos hri, if_pos hri, if_neg (by omega), if_neg (by omega)]
        · rw [if_neg hri, if_neg hri, if_neg (by omega), if_neg (by omega)]
      · rw [if_neg hk, if_neg hk, zero_mul]
    rw [Finset.sum_congr rfl fun k _ => hT k]
    show (if r.val < i then _ else _) + _ = (if r.val < i + 1 then _ else _)
    by_cases hri : r.val < i
    · simp only [hri, if_true, mul_zero, ite_self, Finset.sum_const_zero, add_zero]
      split_ifs <;> first | rfl | omega
    · rw [if_neg hri, if_neg (by omega), if_neg (by omega)]
      simp only [hri, if_false]
      by_cases hrr : r.val = i
      · obtain rfl : r = ⟨i, him⟩ := Fin.ext hrr
        rw [if_pos (by simp), if_neg (by simp; omega)]
        rw [hs.row c hc]
        split_ifs with h1
        · obtain rfl : c = ⟨i + 1, hin⟩ := Fin.ext h1
          rfl
        · rfl
      · rw [if_neg (by omega), if_neg (by omega)]
        exact (hs.refl r c (by omega) hc).symm
  · rw [if_neg hc, zero_mul, add_zero]
    show (if r.val < i then _ else _) = (if r.val < i + 1 then _ else _)
    split_ifs <;> first | rfl | omega | exact (he c (by omega)).symm

/-- The invariant of the Householder loop. -/
structure HInv (A : Mat ℝ m n) (i : ℕ) (a : Mat ℝ m n) (w e : Vec ℝ n) : Prop where
  fact : of A * prods (KR a e) i = prods (HL a w) i * Tm i a w e
  left : ∀ j < i, LOk a w j
  right : ∀ j < i, ROk a e j
  first : ∀ h : 0 < n, e ⟨0, h⟩ = 0

theorem hstep {A : Mat ℝ m n} {i : ℕ} (hi : i < n) (him : i < m) {a a1 a2 : Mat ℝ m n} {w w1 e e2 : Vec ℝ n}
    (hI : HInv A i a w e)
    (h1 : LeftSpec i hi him a a1 (w1 ⟨i, hi⟩)) (hw : ∀ c : Fin n, c.val ≠ i → w1 c = w c)
    (h2 : ∀ hin : i + 1 < n, RightSpec i him hin a1 a2 (e2 ⟨i + 1, hin⟩)) (hl : i + 1 = n → a2 = a1)
    (he : ∀ c : Fin n, c.val ≤ i → e2 c = e c) : HInv A (i + 1) a2 w1 e2 := by
  have keep2 : ∀ r c, r.val < i ∨ c.val ≤ i → a2 r c = a1 r c := by
    intro r c hrc
    by_cases hin : i + 1 < n
    · exact (h2 hin).keep r c hrc
    · rw [hl (by omega)]
  have hHj : ∀ j < i, HL a2 w1 j = HL a w j := fun j hj => HL_congr
    (fun r c hc => by rw [keep2 r c (.inr (by omega)), h1.keep r c (.inr (by omega))]) fun c hc => hw c (by omega)
  have hKj : ∀ j < i, KR a2 e2 j = KR a e j := fun j hj => KR_congr
    (fun r c hr _ => by rw [keep2 r c (.inl (by omega)), h1.keep r c (.inl (by omega))]) fun c hc => he c (by omega)
  have hHi : HL a2 w1 i = HL a1 w1 i := HL_congr (fun r c hc => keep2 r c (.inr (by omega))) fun _ _ => rfl
  have hL1 : LOk a1 w1 i := by
    intro _ _
    have := h1.norm
    rw [show (∑ k : Fin m, uL a1 i k * uL a1 i k) =
        ∑ k : Fin m, if i ≤ k.val then a1 k ⟨i, hi⟩ * a1 k ⟨i, hi⟩ else 0 from
      Finset.sum_congr rfl fun k _ => by unfold uL; rw [dif_pos hi]; split_ifs <;> simp]
    exact this
  have hR2 : ROk a2 e2 i := by
    intro _ hin
    have := (h2 hin).norm
    rw [show (∑ k : Fin n, uR a2 i k * uR a2 i k) =
        ∑ k : Fin n, if i + 1 ≤ k.val then a2 ⟨i, him⟩ k * a2 ⟨i, him⟩ k else 0 from
      Finset.sum_congr rfl fun k _ => by unfold uR; rw [dif_pos him]; split_ifs <;> simp]
    exact this
  refine ⟨?_, ?_, ?_, ?_⟩
  · rw [prods, prods, prods_congr hHj, prods_congr hKj, hHi, ← Matrix.mul_assoc, hI.fact]
    have hsq := HL_sq hL1
    calc prods (HL a w) i * Tm i a w e * KR a2 e2 i
        = prods (HL a w) i * (HL a1 w1 i * HL a1 w1 i) * Tm i a w e * KR a2 e2 i := by rw [hsq, Matrix.mul_one]
      _ = prods (HL a w) i * HL a1 w1 i * ((HL a1 w1 i * Tm i a w e) * KR a2 e2 i) := by
          simp only [Matrix.mul_assoc]
      _ = prods (HL a w) i * HL a1 w1 i * Tm (i + 1) a2 w1 e2 := by
          rw [HL_Tm hi him h1 hw, Tm_KR hi him h2 hl he]
  · intro j hj
    rcases Nat.lt_succ_iff_lt_or_eq.1 hj with hj | rfl
    · exact LOk_congr (fun r c hc => by rw [keep2 r c (.inr (by omega)), h1.keep r c (.inr (by omega))])
        (fun c hc => (hw c (by omega)).symm) (hI.left j hj)
    · exact LOk_congr (fun r c hc => (keep2 r c (.inr (by omega))).symm) (fun _ _ => rfl) hL1
  · intro j hj
    rcases Nat.lt_succ_iff_lt_or_eq.1 hj with hj | rfl
    · exact ROk_congr (fun r c hr _ => by rw [keep2 r c (.inl (by omega)), h1.keep r c (.inl (by omega))])
        (fun c hc => (he c (by omega)).symm) (hI.right j hj)
    · exact hR2
  · intro h
    rw [he _ (Nat.zero_le _)]
    exact hI.first h

/-- The Householder loop. -/
theorem householder_real (hmn : n ≤ m) (A : Mat ℝ m n) (w : Vec ℝ n) :
    ∃ st, householder A w = .ok st ∧ HInv A n st.a st.w st.rv1 ∧ (0 < n → st.g = 0) := by
  have key : Ok (householder A w) (fun st => HInv A n st.a st.w (pend n st) ∧ (0 < n → n = n → st.g = 0)) := by
    refine forUp_ok (fun i st => HInv A i st.a st.w (pend i st) ∧ (0 < i → i = n → st.g = 0)) (Nat.zero_le _) ?_ ?_
    · refine ⟨⟨?_, fun j hj => absurd hj (Nat.not_lt_zero _), fun j hj => absurd hj (Nat.not_lt_zero _), fun h => ?_⟩,
        fun h => absurd h (lt_irrefl _)⟩
      · rw [prods, prods, Matrix.mul_one, Matrix.one_mul]
        ext r c
        simp [Tm]
      · simp [pend]
    · intro i st _ hi hI
      obtain ⟨st1, e1, l1, l2, l3⟩ := leftStep_real hi (by omega) st
      obtain ⟨st2, e2, r1, r2, r3, r4⟩ := rightStep_real hi (by omega) st1
      refine ⟨st2, ?_, ?_, fun _ hn => (r4 hn).2⟩
      · show (leftStep i st >>= fun st => rightStep i st) = _
        rw [e1]; exact e2
      · rw [r1]
        refine hstep hi (by omega) hI.1 l1 l2 (fun hin => ?_) (fun hn => (r4 hn).1) fun c hc => ?_
        · have := r3 hin
          unfold pend
          simpa using this
        · unfold pend
          rw [if_neg (by omega), r2 c hc, l3 c]
  obtain ⟨st, h1, h2, h3⟩ := key
  refine ⟨st, h1, ?_, fun h => h3 h rfl⟩
  have : pend n st = st.rv1 := funext fun c => if_neg (by omega)
  rwa [this] at h2

end CS.SOLVER
