import Verif.Lemmas.Bidiag
import Verif.Spec.Svd

/-!
# The accumulation phases of `svdcmp`, in exact arithmetic
-/

namespace CS.SOLVER
open Arith Libm Matrix
variable {m n : ℕ}

/-- The `m x n` identity. -/
def Em (m n : ℕ) : Matrix (Fin m) (Fin n) ℝ := of fun r c => if r.val = c.val then 1 else 0

/-- `H i * ... * H (n - 1) * E`, with `d = n - i` factors. -/
def tail {q p : ℕ} (H : ℕ → Matrix (Fin q) (Fin q) ℝ) (E : Matrix (Fin q) (Fin p) ℝ) (n : ℕ) :
    ℕ → Matrix (Fin q) (Fin p) ℝ
  | 0 => E
  | d + 1 => H (n - (d + 1)) * tail H E n d

theorem tail_step {q p : ℕ} (H : ℕ → Matrix (Fin q) (Fin q) ℝ) (E : Matrix (Fin q) (Fin p) ℝ) {n i : ℕ} (hi : i < n) :
    tail H E n (n - i) = H i * tail H E n (n - (i + 1)) := by
  rw [show n - i = (n - (i + 1)) + 1 by omega, tail, show n - (n - (i + 1) + 1) = i by omega]

theorem prods_tail {q p : ℕ} (H : ℕ → Matrix (Fin q) (Fin q) ℝ) (E : Matrix (Fin q) (Fin p) ℝ) (n i : ℕ) (hi : i ≤ n) :
    prods H i * tail H E n (n - i) = tail H E n n := by
  induction i with
  | zero => rw [prods, Matrix.one_mul]; rfl
  | succ i ih => rw [prods, Matrix.mul_assoc, ← tail_step H E (by omega), ih (by omega)]

theorem prods_eq_tail {q p : ℕ} (H : ℕ → Matrix (Fin q) (Fin q) ℝ) (E : Matrix (Fin q) (Fin p) ℝ) (n : ℕ) :
    prods H n * E = tail H E n n := by
  have := prods_tail H E n n le_rfl
  rwa [Nat.sub_self] at this

theorem tail_orth {q p : ℕ} (H : ℕ → Matrix (Fin q) (Fin q) ℝ) (E : Matrix (Fin q) (Fin p) ℝ) (n : ℕ)
    (hH : ∀ j < n, (H j)ᵀ * H j = 1) (hE : Eᵀ * E = 1) (d : ℕ) (hd : d ≤ n) : (tail H E n d)ᵀ * tail H E n d = 1 := by
  induction d with
  | zero => exact hE
  | succ d ih =>
    rw [tail, transpose_mul, Matrix.mul_assoc, ← Matrix.mul_assoc (H _)ᵀ, hH _ (by omega), Matrix.one_mul, ih (by omega)]

theorem Em_orth (hmn : n ≤ m) : (Em m n)ᵀ * Em m n = 1 := by
  ext i j
  rw [Matrix.mul_apply, Matrix.one_apply]
  have : ∀ k : Fin m, (Em m n)ᵀ i k * Em m n k j = if k = ⟨i.val, by omega⟩ then (if i = j then 1 else 0) else 0 := by
    intro k
    show (if k.val = i.val then (1 : ℝ) else 0) * (if k.val = j.val then 1 else 0) = _
    by_cases hk : k.val = i.val
    · simp [Fin.ext_iff, hk]
    · have : k ≠ ⟨i.val, by omega⟩ := fun h => hk (by rw [h])
      simp [hk, this]
  rw [Finset.sum_congr rfl fun k _ => this k, Finset.sum_ite_eq' Finset.univ]
  simp

/-! ### Left -/

/-- Rows above and columns left of `i` of the partial product are those of the identity. -/
theorem tailL_id (a : Mat ℝ m n) (w : Vec ℝ n) : ∀ (d : ℕ), d ≤ n → ∀ (r : Fin m) (c : Fin n),
    r.val < n - d ∨ c.val < n - d → tail (HL a w) (Em m n) n d r c = if r.val = c.val then 1 else 0 := by
  intro d
  induction d with
  | zero => intro _ r c _; rfl
  | succ d ih =>
    intro hd r c hrc
    rw [tail]
    unfold HL
    rw [refl_mul]
    by_cases hr : r.val < n - (d + 1)
    · have : uL a (n - (d + 1)) r = 0 := by
        unfold uL; split_ifs <;> first | rfl | omega
      rw [this, zero_mul, add_zero]
      exact ih (by omega) r c (.inl (by omega))
    · have hc : c.val < n - (d + 1) := by omega
      have hs : ∑ k, uL a (n - (d + 1)) k * tail (fun i => refl (rL a w i) (uL a i)) (Em m n) n d k c = 0 := by
        refine Finset.sum_eq_zero fun k _ => ?_
        have h1 := ih (by omega) k c (.inr (by omega))
        unfold HL at h1
        rw [h1]
        unfold uL
        split_ifs <;> first | omega | simp
      rw [hs, mul_zero, mul_zero, add_zero]
      exact ih (by omega) r c (.inr (by omega))

/-- State of `a` during the accumulation: reflectors before `i`, product from `i` on. -/
noncomputable def accL (a : Mat ℝ m n) (w : Vec ℝ n) (i : ℕ) : Mat ℝ m n := fun r c =>
  if i ≤ r.val ∧ i ≤ c.val then tail (HL a w) (Em m n) n (n - i) r c else a r c

theorem accLeftStep_real (hmn : n ≤ m) (a : Mat ℝ m n) (w : Vec ℝ n) {i : ℕ} (hi : i < n)
    (hok : ∀ hm : i < m, w ⟨i, hi⟩ = 0 ∨ a ⟨i, hm⟩ ⟨i, hi⟩ ≠ 0) :
    accLeftStep w i (accL a w (i + 1)) = .ok (accL a w i) := by
  have him : i < m := by omega
  set X := tail (HL a w) (Em m n) n (n - (i + 1)) with hX
  have hXid : ∀ (r : Fin m) (c : Fin n), r.val < i + 1 ∨ c.val < i + 1 → X r c = if r.val = c.val then 1 else 0 := by
    intro r c h
    exact tailL_id a w (n - (i + 1)) (by omega) r c (by omega)
  have hu : ∀ r : Fin m, uL a i r = if i ≤ r.val then a r ⟨i, hi⟩ else 0 := fun r => by unfold uL; rw [dif_pos hi]
  have hr : rL a w i = (a ⟨i, him⟩ ⟨i, hi⟩ * w ⟨i, hi⟩)⁻¹ := by unfold rL; rw [dif_pos ⟨hi, him⟩]
  have hnew : ∀ (r : Fin m) (c : Fin n), tail (HL a w) (Em m n) n (n - i) r c =
      X r c + (if i ≤ r.val then a r ⟨i, hi⟩ else 0) * ((a ⟨i, him⟩ ⟨i, hi⟩ * w ⟨i, hi⟩)⁻¹ *
        ∑ k : Fin m, if i ≤ k.val then a k ⟨i, hi⟩ * X k c else 0) := by
    intro r c
    rw [tail_step _ _ hi]
    show (refl (rL a w i) (uL a i) * X) r c = _
    rw [refl_mul, hu, hr]
    congr 3
    exact Finset.sum_congr rfl fun k _ => by rw [hu]; split_ifs <;> simp
  -- the state after clearing the row
  set b : Mat ℝ m n := fun r c => if i + 1 ≤ r.val ∧ i + 1 ≤ c.val then X r c
    else if r.val = i ∧ i + 1 ≤ c.val then 0 else a r c with hb
  have hclear : (if i < n - 1 then rowClear (accL a w (i + 1)) i else .ok (accL a w (i + 1))) = .ok b := by
    have hacc : ∀ r c, accL a w (i + 1) r c = if i + 1 ≤ r.val ∧ i + 1 ≤ c.val then X r c else a r c := fun r c => rfl
    by_cases h : i < n - 1
    · rw [if_pos h, rowClear_real _ him (by omega)]
      refine congrArg _ (funext fun r => funext fun c => ?_)
      rw [hacc, hb]
      simp only []
      split_ifs <;> first | rfl | omega
    · rw [if_neg h]
      refine congrArg _ (funext fun r => funext fun c => ?_)
      rw [hacc, hb]
      simp only []
      have := c.2
      split_ifs <;> first | rfl | omega
  unfold accLeftStep
  rw [rd_eq _ hi]
  simp only [bind, Except.bind]
  rw [hclear]
  simp only []
  by_cases hw : w ⟨i, hi⟩ = 0
  · rw [if_neg (by rw [truthy_real]; exact fun h => h hw), colClear_real _ hi him.le]
    simp only []
    rw [rd2_eq _ him hi]
    simp only []
    rw [wr2_fun _ him hi]
    refine congrArg _ (funext fun r => funext fun c => ?_)
    unfold accL
    simp only [le_refl, true_and, and_self, if_true, zero_add, lit_real, Rat.cast_one]
    rw [hnew, hw]
    simp only [mul_zero, _root_.inv_zero, zero_mul, add_zero]
    by_cases hd : r.val = i ∧ c.val = i
    · rw [if_pos hd, if_pos (by omega), hXid r c (by omega), if_pos (by omega)]
    · rw [if_neg hd]
      by_cases hc : i ≤ r.val ∧ c.val = i
      · rw [if_pos hc, if_pos (by omega), hXid r c (by omega), if_neg (by omega)]
      · rw [if_neg hc, hb]
        simp only []
        by_cases h1 : i + 1 ≤ r.val ∧ i + 1 ≤ c.val
        · rw [if_pos h1, if_pos (by omega)]
        · rw [if_neg h1]
          by_cases h2 : r.val = i ∧ i + 1 ≤ c.val
          · rw [if_pos h2, if_pos (by omega), hXid r c (by omega), if_neg (by omega)]
          · rw [if_neg h2, if_neg (by omega)]
  · have hd0 : a ⟨i, him⟩ ⟨i, hi⟩ ≠ 0 := (hok him).resolve_left hw
    rw [if_pos (truthy_real.2 hw)]
    simp only [lit_real, Rat.cast_one]
    set S : Fin n → ℝ := fun c => ∑ k : Fin m, if i + 1 ≤ k.val then a k ⟨i, hi⟩ * X k c else 0 with hS
    set b' : Mat ℝ m n := fun r c => if i ≤ r.val ∧ i + 1 ≤ c.val then
      b r c + S c / a ⟨i, him⟩ ⟨i, hi⟩ * (1 / w ⟨i, hi⟩) * a r ⟨i, hi⟩ else b r c with hb'
    have hbi : ∀ r : Fin m, b r ⟨i, hi⟩ = a r ⟨i, hi⟩ := by
      intro r; rw [hb]; simp only []; split_ifs <;> first | rfl | omega
    have hloop : (if i ≠ n - 1 then forUp (i + 1) n b fun j a => do
          let s ← colDot a (i + 1) i j
          let d ← rd2 a i i
          let f := (s / d) * (1 / w ⟨i, hi⟩)
          colAxpy a i j f
        else (.ok b : Except UB (Mat ℝ m n))) = .ok b' := by
      have key : forUp (i + 1) n b (fun j a => do
          let s ← colDot a (i + 1) i j
          let d ← rd2 a i i
          let f := (s / d) * (1 / w ⟨i, hi⟩)
          colAxpy a i j f) = .ok b' := by
        refine forUp_states' (fun t => fun r c => if i ≤ r.val ∧ i + 1 ≤ c.val ∧ c.val < t then
          b r c + S c / a ⟨i, him⟩ ⟨i, hi⟩ * (1 / w ⟨i, hi⟩) * a r ⟨i, hi⟩ else b r c) (by omega) ?_ ?_ ?_
        · intro j h1 h2
          rw [colDot_real _ hi h2]
          simp only [bind, Except.bind]
          rw [rd2_eq _ him hi]
          simp only []
          rw [colAxpy_real _ hi h2 (by omega) him.le]
          refine congrArg _ (funext fun r => funext fun c => ?_)
          have hii : ¬ (i + 1 ≤ i ∧ i < j) := by omega
          have hjj : ¬ (i + 1 ≤ j ∧ j < j) := by omega
          simp only [hii, hjj, and_false, if_false, hbi]
          have hsum : (∑ k : Fin m, if i + 1 ≤ k.val then a k ⟨i, hi⟩ * b k ⟨j, h2⟩ else 0) = S ⟨j, h2⟩ := by
            refine Finset.sum_congr rfl fun k _ => ?_
            by_cases hk : i + 1 ≤ k.val
            · rw [if_pos hk, if_pos hk, hb]
              simp only []
              rw [if_pos ⟨hk, h1⟩]
            · rw [if_neg hk, if_neg hk]
          rw [hsum]
          by_cases hc : c.val = j
          · obtain rfl : c = ⟨j, h2⟩ := Fin.ext hc
            simp only [lt_irrefl, and_false, if_false, and_true]
            by_cases hr : i ≤ r.val
            · rw [if_pos hr, if_pos ⟨hr, h1, Nat.lt_succ_self _⟩]
            · rw [if_neg hr, if_neg (by omega)]
          · rw [if_neg (by omega)]
            have : c.val < j + 1 ↔ c.val < j := by omega
            simp only [this]
        · funext r c
          exact if_neg (by omega)
        · funext r c
          simp [hb', c.2]
      by_cases hin : i = n - 1
      · rw [if_neg (by omega)]
        rw [forUp_self (by omega)] at key
        exact key
      · rw [if_pos hin]; exact key
    simp only [bind, Except.bind] at hloop
    rw [hloop]
    simp only []
    rw [colMul_real _ hi him.le]
    simp only []
    rw [rd2_eq _ him hi]
    simp only []
    rw [wr2_fun _ him hi]
    refine congrArg _ (funext fun r => funext fun c => ?_)
    have hb'i : ∀ r : Fin m, b' r ⟨i, hi⟩ = a r ⟨i, hi⟩ := by
      intro r
      simp only [hb']
      rw [if_neg (by omega), hbi]
    unfold accL
    simp only [le_refl, and_self, if_true]
    rw [hnew, hb'i]
    -- sums against the product
    have hsumS : ∀ c : Fin n, i + 1 ≤ c.val → (∑ k : Fin m, if i ≤ k.val then a k ⟨i, hi⟩ * X k c else 0) = S c := by
      intro c hc
      refine Finset.sum_congr rfl fun k _ => ?_
      by_cases hk : i + 1 ≤ k.val
      · rw [if_pos hk, if_pos (by omega)]
      · rw [if_neg hk]
        by_cases hki : i ≤ k.val
        · rw [if_pos hki, hXid k c (by omega), if_neg (by omega), mul_zero]
        · rw [if_neg hki]
    have hsumI : (∑ k : Fin m, if i ≤ k.val then a k ⟨i, hi⟩ * X k ⟨i, hi⟩ else 0) = a ⟨i, him⟩ ⟨i, hi⟩ := by
      rw [Finset.sum_eq_single ⟨i, him⟩]
      · rw [if_pos le_rfl, hXid _ _ (.inl (Nat.lt_succ_self _)), if_pos rfl, mul_one]
      · intro k _ hk
        have : k.val ≠ i := fun h => hk (Fin.ext h)
        rw [hXid k ⟨i, hi⟩ (.inr (Nat.lt_succ_self _)), if_neg this, mul_zero, ite_self]
      · intro h; exact absurd (Finset.mem_univ _) h
    by_cases hd : r.val = i ∧ c.val = i
    · obtain rfl : c = ⟨i, hi⟩ := Fin.ext hd.2
      obtain rfl : r = ⟨i, him⟩ := Fin.ext hd.1
      simp only [and_self, if_true, le_refl]
      rw [hsumI, hXid _ _ (.inl (Nat.lt_succ_self _)), if_pos rfl]
      field_simp
      ring
    · rw [if_neg hd]
      by_cases hc : i ≤ r.val ∧ c.val = i
      · obtain rfl : c = ⟨i, hi⟩ := Fin.ext hc.2
        rw [if_pos hc, if_pos ⟨hc.1, le_rfl⟩, if_pos hc.1, hsumI, hb'i, hXid r ⟨i, hi⟩ (.inr (Nat.lt_succ_self _)),
          if_neg (fun h => hd ⟨h, rfl⟩)]
        field_simp
        ring
      · rw [if_neg hc]
        by_cases h1 : i ≤ r.val ∧ i + 1 ≤ c.val
        · rw [if_pos (by omega), if_pos h1.1, hsumS c h1.2]
          simp only [hb']
          rw [if_pos h1, hb]
          simp only []
          have hX2 : X r c = if i + 1 ≤ r.val ∧ i + 1 ≤ c.val then X r c else if r.val = i ∧ i + 1 ≤ c.val then 0 else a r c := by
            by_cases h2 : i + 1 ≤ r.val
            · rw [if_pos ⟨h2, h1.2⟩]
            · rw [if_neg (fun h => h2 h.1), if_pos ⟨by omega, h1.2⟩, hXid r c (by omega), if_neg (by omega)]
          rw [← hX2]
          field_simp
        · rw [if_neg (by omega)]
          simp only [hb']
          rw [if_neg h1, hb]
          simp only []
          rw [if_neg (by omega), if_neg (by omega)]

theorem accLeft_real (hmn : n ≤ m) (a : Mat ℝ m n) (w : Vec ℝ n) (hok : ∀ j < n, LOk a w j) :
    accLeft a w = .ok (tail (HL a w) (Em m n) n n) := by
  unfold accLeft
  obtain ⟨s, h1, h2⟩ := forDown_ok (f := accLeftStep w) (s := a) (n := n) (fun i s => s = accL a w i)
    (funext fun r => funext fun c => (if_neg (by omega)).symm) (fun i s hi hs => by
      subst hs
      exact Ok.of_eq (accLeftStep_real hmn a w hi fun hm => (hok i hi hi hm).imp id fun h => h.1) rfl)
  rw [h1, h2]
  refine congrArg _ (funext fun r => funext fun c => ?_)
  unfold accL
  rw [if_pos ⟨Nat.zero_le _, Nat.zero_le _⟩]; rfl

/-! ### Right -/

/-- The partial products of the right-hand side: rows and columns up to `i` are those of the identity. -/
theorem tailR_id (a : Mat ℝ m n) (e : Vec ℝ n) : ∀ (d : ℕ), d ≤ n → ∀ (r c : Fin n),
    r.val ≤ n - d ∨ c.val ≤ n - d → tail (KR a e) 1 n d r c = if r.val = c.val then 1 else 0 := by
  intro d
  induction d with
  | zero => intro _ r c _; rw [tail, Matrix.one_apply]; simp [Fin.ext_iff]
  | succ d ih =>
    intro hd r c hrc
    rw [tail]
    unfold KR
    rw [refl_mul]
    by_cases hr : r.val ≤ n - (d + 1)
    · have : uR a (n - (d + 1)) r = 0 := by
        unfold uR; split_ifs <;> first | rfl | omega
      rw [this, zero_mul, add_zero]
      exact ih (by omega) r c (.inl (by omega))
    · have hc : c.val ≤ n - (d + 1) := by omega
      have hs : ∑ k, uR a (n - (d + 1)) k * tail (fun i => refl (rR a e i) (uR a i)) 1 n d k c = 0 := by
        refine Finset.sum_eq_zero fun k _ => ?_
        have h1 := ih (by omega) k c (.inr (by omega))
        unfold KR at h1
        rw [h1]
        unfold uR
        split_ifs <;> first | omega | simp
      rw [hs, mul_zero, mul_zero, add_zero]
      exact ih (by omega) r c (.inr (by omega))

/-- One step of the right-hand accumulation, on the rows and columns that matter. -/
theorem accRightStep_real (hmn : n ≤ m) (a : Mat ℝ m n) (e : Vec ℝ n) {i : ℕ} (hi : i < n)
    (v : Mat ℝ n n) (g : ℝ) (hg : ∀ h : i + 1 < n, g = e ⟨i + 1, h⟩)
    (hv : ∀ r c : Fin n, i + 1 ≤ r.val → i + 1 ≤ c.val → v r c = tail (KR a e) 1 n (n - (i + 1)) r c) :
    ∃ v', accRightStep a e i (v, g, i + 1) = .ok (v', e ⟨i, hi⟩, i) ∧
      ∀ r c : Fin n, i ≤ r.val → i ≤ c.val → v' r c = tail (KR a e) 1 n (n - i) r c := by
  have him : i < m := by omega
  set Y : Matrix (Fin n) (Fin n) ℝ := tail (KR a e) 1 n (n - (i + 1)) with hY
  have hYid : ∀ r c : Fin n, r.val ≤ i + 1 ∨ c.val ≤ i + 1 → Y r c = if r.val = c.val then 1 else 0 := by
    intro r c h
    exact tailR_id a e (n - (i + 1)) (by omega) r c (by omega)
  have hu : ∀ c : Fin n, uR a i c = if i + 1 ≤ c.val then a ⟨i, him⟩ c else 0 := fun r => by unfold uR; rw [dif_pos him]
  have hnew : ∀ r c : Fin n, tail (KR a e) 1 n (n - i) r c =
      Y r c + (if i + 1 ≤ r.val then a ⟨i, him⟩ r else 0) * (rR a e i *
        ∑ k : Fin n, if i + 1 ≤ k.val then a ⟨i, him⟩ k * Y k c else 0) := by
    intro r c
    rw [tail_step _ _ hi]
    show (refl (rR a e i) (uR a i) * Y) r c = _
    rw [refl_mul, hu]
    congr 3
    exact Finset.sum_congr rfl fun k _ => by rw [hu]; split_ifs <;> simp
  have hid : ∀ r c : Fin n, r.val = i ∨ c.val = i → tail (KR a e) 1 n (n - i) r c = if r.val = c.val then 1 else 0 := by
    intro r c h
    exact tailR_id a e (n - i) (by omega) r c (by omega)
  unfold accRightStep
  simp only [bind, Except.bind]
  by_cases hin : i + 1 < n
  · have hr : rR a e i = (a ⟨i, him⟩ ⟨i + 1, hin⟩ * e ⟨i + 1, hin⟩)⁻¹ := by unfold rR; rw [dif_pos ⟨him, hin⟩]
    rw [if_pos (by omega)]
    have hmid : ∃ v1 : Mat ℝ n n, (if truthy g then do
          let v ← vInit a v i (i + 1) g
          forUp (i + 1) n v fun j v => do
            let s ← vDot a v i j (i + 1)
            vAxpy v i j (i + 1) s
        else (.ok v : Except UB (Mat ℝ n n))) = .ok v1 ∧
        ∀ r c : Fin n, i + 1 ≤ r.val → i + 1 ≤ c.val → v1 r c = tail (KR a e) 1 n (n - i) r c := by
      by_cases h0 : g = 0
      · rw [if_neg (by rw [truthy_real]; exact fun h => h h0)]
        refine ⟨v, rfl, fun r c h1 h2 => ?_⟩
        rw [hnew, hv r c h1 h2, hr, ← hg hin, h0]
        simp
      · rw [if_pos (truthy_real.2 h0), vInit_real _ _ him hi hin]
        simp only [bind, Except.bind]
        set v0 : Mat ℝ n n := fun r c => if i + 1 ≤ r.val ∧ c.val = i then
          a ⟨i, him⟩ r / a ⟨i, him⟩ ⟨i + 1, hin⟩ / g else v r c with hv0
        set S : Fin n → ℝ := fun c => ∑ k : Fin n, if i + 1 ≤ k.val then a ⟨i, him⟩ k * v k c else 0 with hS
        refine ⟨fun r c => if i + 1 ≤ r.val ∧ i + 1 ≤ c.val then v0 r c + S c * v0 r ⟨i, hi⟩ else v0 r c, ?_, ?_⟩
        · refine forUp_states' (fun t => fun r c => if i + 1 ≤ r.val ∧ i + 1 ≤ c.val ∧ c.val < t then
            v0 r c + S c * v0 r ⟨i, hi⟩ else v0 r c) (by omega) ?_ ?_ ?_
          · intro j h1 h2
            rw [vDot_real _ _ him h2]
            simp only []
            rw [vAxpy_real _ hi h2 (by omega) (by omega)]
            refine congrArg _ (funext fun r => funext fun c => ?_)
            have hii : ¬ (i + 1 ≤ i ∧ i < j) := by omega
            have hjj : ¬ (i + 1 ≤ j ∧ j < j) := by omega
            simp only [hii, hjj, and_false, if_false]
            have hsum : (∑ k : Fin n, if i + 1 ≤ k.val then a ⟨i, him⟩ k * v0 k ⟨j, h2⟩ else 0) = S ⟨j, h2⟩ := by
              refine Finset.sum_congr rfl fun k _ => ?_
              by_cases hk : i + 1 ≤ k.val
              · rw [if_pos hk, if_pos hk, hv0]
                simp only []
                rw [if_neg (by omega)]
              · rw [if_neg hk, if_neg hk]
            rw [hsum]
            by_cases hc : c.val = j
            · obtain rfl : c = ⟨j, h2⟩ := Fin.ext hc
              simp only [lt_irrefl, and_false, if_false, and_true]
              by_cases hr : i + 1 ≤ r.val
              · rw [if_pos hr, if_pos ⟨hr, h1, Nat.lt_succ_self _⟩]
              · rw [if_neg hr, if_neg (by omega)]
            · rw [if_neg (by omega)]
              have : c.val < j + 1 ↔ c.val < j := by omega
              simp only [this]
          · funext r c
            exact if_neg (by omega)
          · funext r c
            simp [c.2]
        · intro r c h1 h2
          simp only []
          rw [if_pos ⟨h1, h2⟩, hnew, if_pos h1, hr, ← hg hin]
          have hs2 : (∑ k : Fin n, if i + 1 ≤ k.val then a ⟨i, him⟩ k * Y k c else 0) = S c := by
            refine Finset.sum_congr rfl fun k _ => ?_
            by_cases hk : i + 1 ≤ k.val
            · rw [if_pos hk, if_pos hk, hv k c hk h2]
            · rw [if_neg hk, if_neg hk]
          rw [hs2]
          have h3 : v0 r c = Y r c := by
            rw [hv0]; simp only []; rw [if_neg (by omega), hv r c h1 h2]
          have h4 : v0 r ⟨i, hi⟩ = a ⟨i, him⟩ r / a ⟨i, him⟩ ⟨i + 1, hin⟩ / g := by
            rw [hv0]; simp only []; rw [if_pos ⟨h1, trivial⟩]
          rw [h3, h4, mul_inv]
          ring
    obtain ⟨v1, h1, h2⟩ := hmid
    simp only [bind, Except.bind] at h1
    rw [h1]
    simp only []
    rw [vClear_real _ hi (by omega) (by omega)]
    simp only []
    rw [wr2_fun _ hi hi]
    simp only []
    rw [rd_eq _ hi]
    refine ⟨_, rfl, fun r c hr hc => ?_⟩
    simp only [lit_real, Rat.cast_one]
    by_cases hri : r.val = i
    · rw [hid r c (.inl hri)]
      by_cases hci : c.val = i
      · rw [if_pos ⟨hri, hci⟩, if_pos (by omega)]
      · rw [if_neg (by omega), if_pos (by omega), if_neg (by omega)]
    · by_cases hci : c.val = i
      · rw [hid r c (.inr hci), if_neg (by omega), if_pos (by omega), if_neg (by omega)]
      · rw [if_neg (by omega), if_neg (by omega)]
        exact h2 r c (by omega) (by omega)
  · rw [if_neg (by omega)]
    simp only []
    rw [wr2_fun _ hi hi]
    simp only []
    rw [rd_eq _ hi]
    refine ⟨_, rfl, fun r c hr hc => ?_⟩
    have h1 : r.val = i := by omega
    have h2 : c.val = i := by omega
    rw [hid r c (.inl h1)]
    simp [h1, h2]

theorem accRight_real (hmn : n ≤ m) (a : Mat ℝ m n) (e : Vec ℝ n) (g : ℝ) (v : Mat ℝ n n) :
    accRight a e g v = .ok (tail (KR a e) 1 n n) := by
  unfold accRight
  obtain ⟨⟨s, g', l⟩, h1, h2⟩ := forDown_ok (f := accRightStep a e) (s := (v, g, n)) (n := n)
    (fun i st => st.2.2 = i ∧ (∀ h : i < n, st.2.1 = e ⟨i, h⟩) ∧
      ∀ r c : Fin n, i ≤ r.val → i ≤ c.val → st.1 r c = tail (KR a e) 1 n (n - i) r c)
    ⟨rfl, fun h => absurd h (lt_irrefl _), fun r c h => by omega⟩ (fun i st hi hs => by
      obtain ⟨v, g, l⟩ := st
      obtain ⟨rfl, h2, h3⟩ := hs
      obtain ⟨v', h4, h5⟩ := accRightStep_real hmn a e hi v g h2 h3
      exact Ok.of_eq h4 ⟨rfl, fun _ => rfl, h5⟩)
  rw [h1]
  refine congrArg _ (funext fun r => funext fun c => ?_)
  exact h2.2.2 r c (Nat.zero_le _) (Nat.zero_le _)

/-! ### Together -/

/-- Householder reduction and accumulation. -/
theorem reduce_real (hmn : n ≤ m) (A : Mat ℝ m n) (w : Vec ℝ n) (v : Mat ℝ n n) :
    ∃ st u v', householder A w = .ok st ∧ accRight st.a st.rv1 st.g v = .ok v' ∧ accLeft st.a st.w = .ok u ∧
      (of u)ᵀ * of u = 1 ∧ (of v')ᵀ * of v' = 1 ∧ of A = of u * bidiag st.w st.rv1 * (of v')ᵀ ∧
      (∀ h : 0 < n, st.rv1 ⟨0, h⟩ = 0) := by
  obtain ⟨st, h1, hI, _⟩ := householder_real hmn A w
  refine ⟨st, _, _, h1, accRight_real hmn _ _ _ _, accLeft_real hmn _ _ hI.left, ?_, ?_, ?_, hI.first⟩
  · exact tail_orth _ _ n (fun j hj => by
      unfold HL; rw [refl_transpose]; exact HL_sq (hI.left j hj)) (Em_orth hmn) n le_rfl
  · exact tail_orth _ _ n (fun j hj => by
      unfold KR; rw [refl_transpose]; exact KR_sq (hI.right j hj)) (by rw [transpose_one, Matrix.one_mul]) n le_rfl
  · have hV : (tail (KR st.a st.rv1) 1 n n)ᵀ * tail (KR st.a st.rv1) 1 n n = 1 :=
      tail_orth _ _ n (fun j hj => by
        unfold KR; rw [refl_transpose]; exact KR_sq (hI.right j hj)) (by rw [transpose_one, Matrix.one_mul]) n le_rfl
    have hV' := mul_eq_one_comm.1 hV
    have hf := hI.fact
    have hT : Tm n st.a st.w st.rv1 = Em m n * bidiag st.w st.rv1 := by
      ext r c
      rw [Matrix.mul_apply]
      by_cases hr : r.val < n
      · rw [Finset.sum_eq_single ⟨r.val, hr⟩]
        · show (if r.val < n then _ else _) = (if r.val = r.val then (1 : ℝ) else 0) * _
          rw [if_pos hr, if_pos rfl, one_mul]; rfl
        · intro k _ hk
          have : r.val ≠ k.val := fun h => hk (Fin.ext h.symm)
          show (if r.val = k.val then (1 : ℝ) else 0) * _ = 0
          rw [if_neg this, zero_mul]
        · intro h; exact absurd (Finset.mem_univ _) h
      · rw [Finset.sum_eq_zero]
        · show (if r.val < n then _ else if c.val < n then 0 else st.a r c) = 0
          rw [if_neg hr, if_pos c.2]
        · intro k _
          show (if r.val = k.val then (1 : ℝ) else 0) * _ = 0
          rw [if_neg (by omega), zero_mul]
    have hK : prods (KR st.a st.rv1) n = tail (KR st.a st.rv1) 1 n n := by
      rw [← prods_eq_tail, Matrix.mul_one]
    rw [hT, hK, ← Matrix.mul_assoc, prods_eq_tail] at hf
    show of A = tail (HL st.a st.w) (Em m n) n n * bidiag st.w st.rv1 * (tail (KR st.a st.rv1) 1 n n)ᵀ
    rw [← hf, Matrix.mul_assoc, hV', Matrix.mul_one]

end CS.SOLVER
