import Verif.Model.Spectrum
import Mathlib.Algebra.BigOperators.Fin
import Mathlib.Tactic.Linarith
import Mathlib.Tactic.FieldSimp
import Mathlib.Tactic.Ring
import Mathlib.Algebra.Order.Archimedean.Real.Basic

/-! Lemmas about the spectrum model. -/

namespace CS.Spectrum

theorem build_ok {α : Type} : ∀ {n : ℕ} {f : Fin n → Except UB α} {g : Fin n → α},
    (∀ i, f i = .ok (g i)) → build n f = .ok g
  | 0, f, g, _ => by
    unfold build; congr; funext i; exact i.elim0
  | n + 1, f, g, h => by
    unfold build
    rw [build_ok (g := fun i => g i.castSucc) (fun i => h i.castSucc)]
    show (do let x ← f (Fin.last n); return _ : Except UB _) = _
    rw [h]
    show Except.ok _ = _
    congr 1
    funext i
    refine Fin.lastCases ?_ (fun j => ?_) i
    · exact Fin.snoc_last (α := fun _ => α) _ _
    · exact Fin.snoc_castSucc (α := fun _ => α) _ _ _

theorem sumHelper_eq (a : Spectrum ℝ) : ∀ (i : ℕ) (h : i < 400),
    sumHelper a i h = ∑ j : Fin (i + 1), a ⟨j, by omega⟩
  | 0, _ => by simp [sumHelper]
  | i + 1, h => by
    rw [sumHelper, sumHelper_eq a i (by omega), Fin.sum_univ_castSucc (n := i + 1)]
    rfl
theorem sum_eq (a : Spectrum ℝ) : a.sum = ∑ i : Fin 400, a i := sumHelper_eq a 399 (by decide)

theorem dotHelper_eq_sumHelper (a b : Spectrum ℝ) : ∀ (i : ℕ) (h : i < 400),
    dotHelper a b i h = sumHelper (a.mul b) i h
  | 0, _ => rfl
  | i + 1, h => by
    rw [dotHelper, sumHelper, dotHelper_eq_sumHelper a b i (by omega), add_comm]; rfl
theorem dot_eq (a b : Spectrum ℝ) : a.dot b = ∑ i : Fin 400, a i * b i :=
  (dotHelper_eq_sumHelper a b 399 (by decide)).trans (sum_eq _)
/-- In any arithmetic: the same operations in the same order. -/
theorem dotHelper3_eq {α : Type} [Arith α] (a b c : Spectrum α) : ∀ (i : ℕ) (h : i < 400),
    dotHelper3 a b c i h = dotHelper (a.mul b) c i h
  | 0, _ => rfl
  | i + 1, h => by rw [dotHelper3, dotHelper, dotHelper3_eq a b c i (by omega)]; rfl
theorem dot3_eq' {α : Type} [Arith α] (a b c : Spectrum α) : dot3 a b c = dot (a.mul b) c :=
  dotHelper3_eq a b c 399 (by decide)

theorem at_ok {α : Type} {l : List α} {i : ℕ} (h : i < l.length) : at' l (i : ℤ) = .ok l[i] := by
  unfold at'
  rw [if_neg (by omega)]
  simp [h]

theorem int32_ok {i : ℤ} (h : intMin ≤ i) (h' : i ≤ intMax) : int32 i = .ok i := by
  simp [int32, h, h']

theorem rtrunc_of_nonneg {x : ℝ} (h : 0 ≤ x) : rtrunc x = ⌊x⌋ := by simp [rtrunc, h]
theorem rtrunc_of_nonpos {x : ℝ} (h : x ≤ 0) : rtrunc x = ⌈x⌉ := by
  unfold rtrunc
  split_ifs with h0
  · have : x = 0 := le_antisymm h h0
    simp [this]
  · rfl

/-- The index computed by `fetch` at position `x` (in units of the sample spacing). -/
theorem fetchFrom_eq {l : List ℝ} {n : ℕ} {lo hi t : ℝ} {i : ℤ} (h : intMin ≤ i ∧ i < intMax) (hn : (n : ℤ) < intMax)
    (hr : rtrunc ((n : ℝ) * (t - lo) / (hi - lo)) = i) :
    fetchFrom l (n + 1) lo hi t =
      if i ≥ n then at' l n else if i ≤ 0 then at' l 0
      else do
        let x ← at' l i
        let y ← at' l (i + 1)
        return lerp x y ((t - (i : ℝ) * (hi - lo) / (n : ℝ) - lo) /
          (((i : ℝ) + 1) * (hi - lo) / (n : ℝ) - (i : ℝ) * (hi - lo) / (n : ℝ))) := by
  unfold fetchFrom
  have h1 : int32 ((n : ℤ) + 1 - 1) = .ok (n : ℤ) := by
    rw [add_sub_cancel_right]
    exact int32_ok (by unfold intMin; omega) hn.le
  rw [h1]
  have h2 : Arith.toInt (Arith.ofInt (n : ℤ) * (t - lo) / (hi - lo)) = some i := by
    rw [toInt_real, ofInt_real, Int.cast_natCast, hr, if_pos ⟨h.1, by omega⟩]
  show (match Arith.toInt (Arith.ofInt (n : ℤ) * (t - lo) / (hi - lo)) with
    | none => _
    | some _ => _) = _
  rw [h2]
  simp only
  rw [int32_ok (by omega) (by omega)]
  show (if i ≥ (n : ℤ) then _ else _) = _
  simp only [ofInt_real, Int.cast_natCast, Int.cast_add, Int.cast_one]

variable {l : List ℝ} {n : ℕ} {lo hi t : ℝ}

theorem fetch_last (hl : l.length = n + 1) (hn : (n : ℤ) < intMax)
    (h : (n : ℝ) ≤ n * (t - lo) / (hi - lo)) (hb : n * (t - lo) / (hi - lo) < (2147483647 : ℝ)) :
    fetchFrom l (n + 1) lo hi t = .ok (l[n]'(by omega)) := by
  have h0 : (0 : ℝ) ≤ n * (t - lo) / (hi - lo) := le_trans (by positivity) h
  have hf : (n : ℤ) ≤ ⌊n * (t - lo) / (hi - lo)⌋ := Int.le_floor.2 (by exact_mod_cast h)
  have hu : ⌊n * (t - lo) / (hi - lo)⌋ < 2147483647 := Int.floor_lt.2 (by exact_mod_cast hb)
  rw [fetchFrom_eq ⟨by unfold intMin; omega, by unfold intMax; omega⟩ hn (rtrunc_of_nonneg h0), if_pos hf,
    at_ok (by omega)]

theorem fetch_first (hl : l.length = n + 1) (hn1 : 1 ≤ n) (hn : (n : ℤ) < intMax)
    (h : n * (t - lo) / (hi - lo) < (1 : ℝ)) (hb : (-2147483649 : ℝ) < n * (t - lo) / (hi - lo)) :
    fetchFrom l (n + 1) lo hi t = .ok (l[0]'(by omega)) := by
  obtain ⟨i, hi1, hi2, hi3⟩ : ∃ i, rtrunc ((n : ℝ) * (t - lo) / (hi - lo)) = i ∧ i ≤ 0 ∧ intMin ≤ i := by
    rcases le_total 0 (n * (t - lo) / (hi - lo)) with h0 | h0
    · refine ⟨0, ?_, le_rfl, by decide⟩
      rw [rtrunc_of_nonneg h0, Int.floor_eq_iff]
      exact ⟨by simpa using h0, by simpa using h⟩
    · refine ⟨_, rtrunc_of_nonpos h0, Int.ceil_le.2 (by simpa using h0), ?_⟩
      have : (-2147483649 : ℤ) < ⌈n * (t - lo) / (hi - lo)⌉ := Int.lt_ceil.2 (by exact_mod_cast hb)
      unfold intMin; omega
  rw [fetchFrom_eq ⟨hi3, by unfold intMax; omega⟩ hn hi1, if_neg (by omega), if_pos hi2]
  exact at_ok (i := 0) (by omega)

theorem fetch_mid (hl : l.length = n + 1) (hn : (n : ℤ) < intMax) (hlh : lo ≠ hi) {k : ℕ} (hk : 1 ≤ k)
    (hk' : k < n) {r : ℝ} (hr0 : 0 ≤ r) (hr1 : r < 1) (ht : t = lo + (k + r) * ((hi - lo) / n)) :
    fetchFrom l (n + 1) lo hi t =
      .ok ((1 - r) * l[k]'(by omega) + r * l[k + 1]'(by omega)) := by
  have hd : hi - lo ≠ 0 := sub_ne_zero.2 hlh.symm
  have hn0 : (n : ℝ) ≠ 0 := by have : n ≠ 0 := by omega
                               exact_mod_cast this
  have hx : (n : ℝ) * (t - lo) / (hi - lo) = k + r := by rw [ht]; field_simp; ring
  have hi : rtrunc ((n : ℝ) * (t - lo) / (hi - lo)) = (k : ℤ) := by
    rw [hx, rtrunc_of_nonneg (by positivity), Int.floor_eq_iff]
    push_cast
    exact ⟨by linarith, by linarith⟩
  rw [fetchFrom_eq ⟨by unfold intMin; omega, by omega⟩ hn hi, if_neg (by omega), if_neg (by omega),
    at_ok (by omega)]
  have h2 := at_ok (l := l) (i := k + 1) (by omega)
  push_cast at h2
  rw [h2]
  show Except.ok (lerp _ _ _) = _
  unfold lerp
  push_cast
  rw [lit_real, show (t - (k : ℝ) * (_ - lo) / n - lo) / (((k : ℝ) + 1) * (_ - lo) / n - k * (_ - lo) / n) = r by
    rw [ht]; field_simp; ring]
  push_cast
  congr 1; ring

end CS.Spectrum

namespace CS.Spectrum
variable {l : List ℝ} {n : ℕ} {lo hi t : ℝ}

/-- Beyond the range of `int` the lookup is undefined. -/
theorem fetch_huge (hn : (n : ℤ) < intMax) (h : (2147483648 : ℝ) ≤ n * (t - lo) / (hi - lo)) :
    fetchFrom l (n + 1) lo hi t = .error .badCast := by
  unfold fetchFrom
  rw [show int32 ((n : ℤ) + 1 - 1) = .ok (n : ℤ) by
    rw [add_sub_cancel_right]; exact int32_ok (by unfold intMin; omega) hn.le]
  show (match Arith.toInt (Arith.ofInt (n : ℤ) * (t - lo) / (hi - lo)) with
    | none => _
    | some _ => _) = _
  have : (2147483648 : ℤ) ≤ ⌊n * (t - lo) / (hi - lo)⌋ := Int.le_floor.2 (by exact_mod_cast h)
  rw [toInt_real, ofInt_real, Int.cast_natCast, rtrunc_of_nonneg (le_trans (by norm_num) h),
    if_neg (by unfold intMax; omega)]
theorem fetch_huge_neg (hn : (n : ℤ) < intMax) (h : n * (t - lo) / (hi - lo) ≤ (-2147483649 : ℝ)) :
    fetchFrom l (n + 1) lo hi t = .error .badCast := by
  unfold fetchFrom
  rw [show int32 ((n : ℤ) + 1 - 1) = .ok (n : ℤ) by
    rw [add_sub_cancel_right]; exact int32_ok (by unfold intMin; omega) hn.le]
  show (match Arith.toInt (Arith.ofInt (n : ℤ) * (t - lo) / (hi - lo)) with
    | none => _
    | some _ => _) = _
  have : ⌈n * (t - lo) / (hi - lo)⌉ ≤ (-2147483649 : ℤ) := Int.ceil_le.2 (by exact_mod_cast h)
  rw [toInt_real, ofInt_real, Int.cast_natCast, rtrunc_of_nonpos (le_trans h (by norm_num)),
    if_neg (by unfold intMin; omega)]
theorem fetch_intMax (hn : (n : ℤ) < intMax) (h : (2147483647 : ℝ) ≤ n * (t - lo) / (hi - lo))
    (h' : n * (t - lo) / (hi - lo) < (2147483648 : ℝ)) :
    fetchFrom l (n + 1) lo hi t = .error .signedOverflow := by
  unfold fetchFrom
  rw [show int32 ((n : ℤ) + 1 - 1) = .ok (n : ℤ) by
    rw [add_sub_cancel_right]; exact int32_ok (by unfold intMin; omega) hn.le]
  show (match Arith.toInt (Arith.ofInt (n : ℤ) * (t - lo) / (hi - lo)) with
    | none => _
    | some _ => _) = _
  have : ⌊n * (t - lo) / (hi - lo)⌋ = (2147483647 : ℤ) := Int.floor_eq_iff.2 ⟨by exact_mod_cast h, by
    push_cast; linarith⟩
  rw [toInt_real, ofInt_real, Int.cast_natCast, rtrunc_of_nonneg (le_trans (by norm_num) h), this,
    if_pos (by decide)]
  simp only
  rw [show int32 (2147483647 + 1) = .error .signedOverflow by decide]
  rfl

/-- A defined result is the first sample, the last sample or an interpolation between neighbours. -/
theorem fetch_cases (hl : l.length = n + 1) (hn1 : 1 ≤ n) (hn : (n : ℤ) < intMax) (hlh : lo ≠ hi) {v : ℝ}
    (h : fetchFrom l (n + 1) lo hi t = .ok v) :
    (n * (t - lo) / (hi - lo) < 1 ∧ v = l[0]'(by omega)) ∨
    (n ≤ n * (t - lo) / (hi - lo) ∧ v = l[n]'(by omega)) ∨
    ∃ (k : ℕ) (r : ℝ) (_ : 1 ≤ k) (hk : k < n), 0 ≤ r ∧ r < 1 ∧ n * (t - lo) / (hi - lo) = k + r ∧
      v = (1 - r) * l[k]'(by omega) + r * l[k + 1]'(by omega) := by
  rcases lt_or_ge (n * (t - lo) / (hi - lo)) 1 with h1 | h1
  · rcases lt_or_ge (-2147483649 : ℝ) (n * (t - lo) / (hi - lo)) with h2 | h2
    · rw [fetch_first hl hn1 hn h1 h2] at h
      exact Or.inl ⟨h1, (Except.ok.inj h).symm⟩
    · rw [fetch_huge_neg hn h2] at h; cases h
  rcases le_or_gt (n : ℝ) (n * (t - lo) / (hi - lo)) with h2 | h2
  · rcases lt_or_ge (n * (t - lo) / (hi - lo)) (2147483647 : ℝ) with h3 | h3
    · rw [fetch_last hl hn h2 h3] at h
      exact Or.inr (Or.inl ⟨h2, (Except.ok.inj h).symm⟩)
    · rcases lt_or_ge (n * (t - lo) / (hi - lo)) (2147483648 : ℝ) with h4 | h4
      · rw [fetch_intMax hn h3 h4] at h; cases h
      · rw [fetch_huge hn h4] at h; cases h
  · right; right
    set x := n * (t - lo) / (hi - lo) with hx
    have h0 : 0 ≤ x := by linarith
    have hd : hi - lo ≠ 0 := sub_ne_zero.2 hlh.symm
    have hn0 : (n : ℝ) ≠ 0 := by have : n ≠ 0 := by omega
                                 exact_mod_cast this
    have hk1 : 1 ≤ ⌊x⌋₊ := Nat.le_floor (by simpa using h1)
    have hk2 : ⌊x⌋₊ < n := (Nat.floor_lt h0).2 h2
    have hf1 := Nat.floor_le h0
    have hf2 := Nat.lt_floor_add_one x
    refine ⟨⌊x⌋₊, x - ⌊x⌋₊, hk1, hk2, by linarith, by linarith, by ring, ?_⟩
    have := fetch_mid (t := t) hl hn hlh hk1 hk2 (r := x - ⌊x⌋₊) (by linarith) (by linarith) (by
      rw [show ((⌊x⌋₊ : ℝ) + (x - ⌊x⌋₊)) = x by ring, hx]; field_simp; ring)
    rw [this] at h
    exact (Except.ok.inj h).symm

/-- A defined result lies between any bounds of the samples. -/
theorem fetch_le (hl : l.length = n + 1) (hn1 : 1 ≤ n) (hn : (n : ℤ) < intMax) (hlh : lo ≠ hi) {v M : ℝ}
    (h : fetchFrom l (n + 1) lo hi t = .ok v) (hM : ∀ x ∈ l, x ≤ M) : v ≤ M := by
  rcases fetch_cases hl hn1 hn hlh h with ⟨_, rfl⟩ | ⟨_, rfl⟩ | ⟨k, r, _, hk, h0, h1, _, rfl⟩
  · exact hM _ (List.getElem_mem _)
  · exact hM _ (List.getElem_mem _)
  · have a := hM _ (List.getElem_mem (l := l) (n := k) (by omega))
    have b := hM _ (List.getElem_mem (l := l) (n := k + 1) (by omega))
    nlinarith
theorem le_fetch (hl : l.length = n + 1) (hn1 : 1 ≤ n) (hn : (n : ℤ) < intMax) (hlh : lo ≠ hi) {v M : ℝ}
    (h : fetchFrom l (n + 1) lo hi t = .ok v) (hM : ∀ x ∈ l, M ≤ x) : M ≤ v := by
  rcases fetch_cases hl hn1 hn hlh h with ⟨_, rfl⟩ | ⟨_, rfl⟩ | ⟨k, r, _, hk, h0, h1, _, rfl⟩
  · exact hM _ (List.getElem_mem _)
  · exact hM _ (List.getElem_mem _)
  · have a := hM _ (List.getElem_mem (l := l) (n := k) (by omega))
    have b := hM _ (List.getElem_mem (l := l) (n := k + 1) (by omega))
    nlinarith

theorem int32_cases (i : ℤ) : int32 i = .ok i ∨ int32 i = .error .signedOverflow := by
  unfold int32; split_ifs <;> simp

/-- The index arithmetic alone keeps every access inside the array, in any arithmetic. -/
theorem fetch_in_bounds {α : Type} [Arith α] (l : List α) (hl : l ≠ []) (lo hi t : α) :
    fetchFrom l l.length lo hi t ≠ .error .outOfBounds := by
  have hpos := List.length_pos_of_ne_nil hl
  unfold fetchFrom
  rcases int32_cases ((l.length : ℤ) - 1) with h0 | h0 <;> rw [h0]
  · show (match Arith.toInt (Arith.ofInt ((l.length : ℤ) - 1) * (t - lo) / (hi - lo)) with
      | none => _
      | some _ => _) ≠ _
    split
    · simp
    · rename_i index _
      rcases int32_cases (index + 1) with h1 | h1 <;> rw [h1]
      · show (if index ≥ (l.length : ℤ) - 1 then _ else _) ≠ _
        split_ifs with h2 h3
        · rw [show (l.length : ℤ) - 1 = ((l.length - 1 : ℕ) : ℤ) by omega, at_ok (by omega)]; simp
        · have := at_ok (l := l) (i := 0) hpos
          rw [show ((0 : ℕ) : ℤ) = 0 from rfl] at this
          rw [this]; simp
        · obtain ⟨k, rfl⟩ := Int.eq_ofNat_of_zero_le (show 0 ≤ index by omega)
          have a := at_ok (l := l) (i := k) (by omega)
          have b := at_ok (l := l) (i := k + 1) (by omega)
          push_cast at b
          rw [a, b]
          show Except.ok _ ≠ _
          simp
      · show Except.error _ ≠ _
        simp
  · show Except.error _ ≠ _
    simp

end CS.Spectrum
