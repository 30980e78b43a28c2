import Verif.Lemmas.SvdSafe
import Verif.Spec.LinAlg
import Verif.Lemmas.Float
import Mathlib.Data.Matrix.Mul

/-!
# What the loops of `svbksb`, `solve` and `Corrector` compute
-/

namespace CS

/-- A summation loop. -/
theorem forUp_sum {lo hi : ℕ} {s0 : ℝ} {f : ℕ → ℝ → Except UB ℝ} (g : ℕ → ℝ)
    (hf : ∀ k s, lo ≤ k → k < hi → f k s = .ok (s + g k)) :
    forUp lo hi s0 f = .ok (s0 + ∑ k ∈ Finset.Ico lo hi, g k) := by
  rcases le_or_gt hi lo with h | h
  · rw [forUp_self h, Finset.Ico_eq_empty_of_le h, Finset.sum_empty, add_zero]
  obtain ⟨s, h1, h2⟩ := forUp_ok (lo := lo) (hi := hi) (s := s0) (f := f)
    (fun k s => s = s0 + ∑ k ∈ Finset.Ico lo k, g k) h.le (by simp)
    (fun k s hl hh hs => Ok.of_eq (hf k s hl hh) (by rw [hs, Finset.sum_Ico_succ_top hl, add_assoc]))
  rw [h1, h2]

/-- A summation loop over all indices. -/
theorem forUp_sum_fin {m : ℕ} {f : ℕ → ℝ → Except UB ℝ} (g : Fin m → ℝ)
    (hf : ∀ (k : Fin m) s, f k s = .ok (s + g k)) : forUp 0 m (lit 0) f = .ok (∑ k, g k) := by
  rw [forUp_sum (fun k => if h : k < m then g ⟨k, h⟩ else 0) (fun k s _ hk => by rw [dif_pos hk]; exact hf ⟨k, hk⟩ s)]
  simp only [lit_real, Rat.cast_zero, zero_add]
  congr 1
  rw [← Finset.range_eq_Ico, Finset.sum_range]
  exact Finset.sum_congr rfl fun i _ => by rw [dif_pos i.2]

namespace SOLVER
open Arith Libm
variable {m n : ℕ}

theorem truthy_real {x : ℝ} : truthy x = true ↔ x ≠ 0 := by
  unfold truthy; simp

theorem tmpEntry_real (u : Mat ℝ m n) (w : Vec ℝ n) (b : Vec ℝ m) (j : Fin n) :
    tmpEntry u w b j = .ok (if w j = 0 then 0 else (∑ i, u i j * b i) / w j) := by
  unfold tmpEntry
  rw [rd_eq w j.2]
  show (if truthy (w j) = true then _ else _) = _
  by_cases h : w j = 0
  · rw [if_neg (by rw [truthy_real]; simpa using h), if_pos h]; simp
  · rw [if_pos (truthy_real.2 h), if_neg h, forUp_sum_fin (fun i => u i j * b i)]
    · rfl
    · intro k s
      rw [rd2_eq u k.2 j.2, rd_eq b k.2]; rfl

/-- The vector `svbksb` computes. -/
theorem svbksb_real (u : Mat ℝ m n) (w : Vec ℝ n) (v : Mat ℝ n n) (b : Vec ℝ m) (x : Vec ℝ n) :
    svbksb u w v b x =
      .ok (fun j => ∑ jj, v j jj * (if w jj = 0 then 0 else (∑ i, u i jj * b i) / w jj)) := by
  set t : Vec ℝ n := fun j => if w j = 0 then 0 else (∑ i, u i j * b i) / w j with ht
  have h1 : forUp 0 n (vzero : Vec ℝ n) (fun j tmp => do let s ← tmpEntry u w b j; wr tmp j s) = .ok t := by
    obtain ⟨s, hs1, hs2⟩ := forUp_ok (f := fun j tmp => do let s ← tmpEntry u w b j; wr tmp j s)
      (s := (vzero : Vec ℝ n)) (fun k s => ∀ j : Fin n, j.val < k → s j = t j) (Nat.zero_le n)
      (fun j hj => absurd hj (Nat.not_lt_zero _)) (fun k s _ hk hs => by
        have := tmpEntry_real u w b ⟨k, hk⟩
        show Ok (tmpEntry u w b k >>= fun s' => wr s k s') _
        rw [show tmpEntry u w b k = .ok (t ⟨k, hk⟩) from this]
        refine Ok.of_eq (wr_eq s hk _) fun j hj => ?_
        rcases eq_or_ne j ⟨k, hk⟩ with rfl | hne
        · rw [Function.update_self]
        · rw [Function.update_of_ne hne]
          exact hs j (lt_of_le_of_ne (Nat.lt_succ_iff.1 hj) (fun h => hne (Fin.ext h))))
    rw [hs1]
    exact congrArg _ (funext fun j => hs2 j j.2)
  unfold svbksb
  rw [h1]
  show forUp 0 n x _ = _
  obtain ⟨s, hs1, hs2⟩ := forUp_ok (f := fun j x => do
      let s ← forUp 0 n (lit 0) fun jj s => do
        let y ← rd2 v j jj
        let t ← rd t jj
        .ok (s + y * t)
      wr x j s) (s := x) (fun k s => ∀ j : Fin n, j.val < k → s j = ∑ jj, v j jj * t jj) (Nat.zero_le n)
      (fun j hj => absurd hj (Nat.not_lt_zero _)) (fun k s _ hk hs => by
        rw [forUp_sum_fin (fun jj => v ⟨k, hk⟩ jj * t jj) (fun jj s => by rw [rd2_eq v hk jj.2, rd_eq t jj.2]; rfl)]
        refine Ok.of_eq (wr_eq s hk _) fun j hj => ?_
        rcases eq_or_ne j ⟨k, hk⟩ with rfl | hne
        · rw [Function.update_self]
        · rw [Function.update_of_ne hne]
          exact hs j (lt_of_le_of_ne (Nat.lt_succ_iff.1 hj) (fun h => hne (Fin.ext h))))
  rw [hs1]
  exact congrArg _ (funext fun j => hs2 j j.2)

/-! ### Instances of the safety argument -/

/-- Exact arithmetic. -/
theorem negligible_real {anorm x : ℝ} : negligible anorm x = true ↔ x = 0 := by
  unfold negligible; simp

/-- Exact arithmetic: the splitting test finds the zero `rv1[0]`. -/
def splitsReal : Splits ℝ where
  Good _ := True
  zero := trivial
  max _ _ _ := trivial
  neg0 _ _ := negligible_real.2 (by simp)
  neg00 _ _ := negligible_real.2 (by simp)

theorem F32.zero_add_self {a : F32} (h : a.isNaN = false) : F32.eq (F32.add (F32.zero false) a) a = true := by
  cases a with
  | nan => cases h
  | inf s => cases s <;> rfl
  | zero s => rw [F32.add_finite rfl rfl]; simp [F32.val, F32.pack_zero, F32.eq]
  | num q hq =>
    rw [F32.add_finite rfl rfl]
    simp only [F32.val, zero_add]
    rw [F32.pack_of_rep hq]
    simp [F32.eq, F32.val]

/-- binary32: `anorm` is never NaN, so zeros are negligible. -/
def splitsF32 (o : F32.Oracle) : @Splits F32 (F32.libm o) :=
  letI := F32.libm o
  { Good := fun a => a.isNaN = false
    zero := by show (F32.pack false 0).isNaN = false; exact F32.pack_not_nan _ _
    max := fun a t ha => by
      show (if F32.lt a t = true then t else a).isNaN = false
      split_ifs with h
      · cases t with
        | nan => cases a <;> exact absurd h Bool.false_ne_true
        | _ => rfl
      · exact ha
    neg0 := fun a ha => by
      show F32.eq (F32.add (F32.fabs (F32.pack false 0)) a) a = true
      rw [F32.pack_zero]
      exact F32.zero_add_self ha
    neg00 := fun a ha => by
      show F32.eq (F32.add (F32.fabs (F32.mul (F32.pack false 0) (F32.pack false 0))) a) a = true
      rw [F32.pack_zero, F32.mul_finite rfl rfl]
      simp only [F32.val, mul_zero, F32.pack_zero]
      exact F32.zero_add_self ha }

/-! ### Hypotenuse and sign transfer -/

theorem DSIGN_real (a b : ℝ) : DSIGN a b = if 0 < b then |a| else -|a| := by
  unfold DSIGN
  simp only [lit_real, Rat.cast_zero, fabs_real, lt_real]

theorem PYTHAG_real (a b : ℝ) : PYTHAG a b = Real.sqrt (a ^ 2 + b ^ 2) := by
  unfold PYTHAG
  simp only [fabs_real, lt_real, lit_real, sqrtf_real, Rat.cast_zero, Rat.cast_one]
  split_ifs with h1 h2
  · have ha : 0 < |a| := (abs_nonneg b).trans_lt h1
    rw [← Real.sqrt_sq ha.le, ← Real.sqrt_mul (sq_nonneg _), Real.sqrt_sq ha.le]
    congr 1
    have : |a| ^ 2 = a ^ 2 := sq_abs a
    have hb : |b| ^ 2 = b ^ 2 := sq_abs b
    field_simp
    rw [this, hb]
  · rw [← Real.sqrt_sq h2.le, ← Real.sqrt_mul (sq_nonneg _), Real.sqrt_sq h2.le]
    congr 1
    have : |a| ^ 2 = a ^ 2 := sq_abs a
    have hb : |b| ^ 2 = b ^ 2 := sq_abs b
    field_simp
    rw [this, hb]; ring
  · have hb : b = 0 := by
      have := le_antisymm (not_lt.1 h2) (abs_nonneg b); exact abs_eq_zero.1 this
    have ha : a = 0 := by
      rw [hb, abs_zero] at h1
      exact abs_eq_zero.1 (le_antisymm (not_lt.1 h1) (abs_nonneg a))
    rw [ha, hb]; simp

end SOLVER
end CS
