import Verif.Lemmas.FloatPow
import Verif.Lemmas.FloatHSV

/-!
# Accuracy hypotheses on the library functions

Each says: the result is finite and within the given error of the mathematical function.  `exists_accurate` shows
that they can be met together.
-/

namespace CS
open F32 B32

/-- Square roots with relative error `δ` (IEEE-754 requires `2^-24`). -/
def F32.Oracle.SqrtAccurate (o : F32.Oracle) (δ : ℝ) : Prop :=
  ∀ x : F32, x.isFinite = true → 0 ≤ x.val →
    (o.sqrtf x).isFinite = true ∧ |((o.sqrtf x).val : ℝ) - √(x.val : ℝ)| ≤ δ * √(x.val : ℝ)

/-- Natural logarithms with error `δ * max 1 |log x|`. -/
def F32.Oracle.LogAccurate (o : F32.Oracle) (δ : ℝ) : Prop :=
  ∀ x : F32, x.isFinite = true → 0 < x.val →
    (o.logf x).isFinite = true ∧ |((o.logf x).val : ℝ) - Real.log x.val| ≤ δ * max 1 |Real.log x.val|

/-- Decimal logarithms with error `δ * max 1 |log10 x|`. -/
def F32.Oracle.Log10Accurate (o : F32.Oracle) (δ : ℝ) : Prop :=
  ∀ x : F32, x.isFinite = true → 0 < x.val →
    (o.log10f x).isFinite = true ∧ |((o.log10f x).val : ℝ) - Real.logb 10 x.val| ≤ δ * max 1 |Real.logb 10 x.val|

/-- Exponentials with relative error `δ` where the result is far from overflow and underflow. -/
def F32.Oracle.ExpAccurate (o : F32.Oracle) (δ : ℝ) : Prop :=
  ∀ x : F32, x.isFinite = true → (2 : ℝ) ^ (-100 : ℤ) ≤ Real.exp x.val → Real.exp x.val ≤ 2 ^ (100 : ℤ) →
    (o.expf x).isFinite = true ∧ |((o.expf x).val : ℝ) - Real.exp x.val| ≤ δ * Real.exp x.val

/-- Cube roots with relative error `δ`: the result is close to the real number with the given cube. -/
def F32.Oracle.CbrtAccurate (o : F32.Oracle) (δ : ℝ) : Prop :=
  ∀ x : F32, x.isFinite = true → ∀ r : ℝ, r ^ 3 = x.val →
    (o.cbrtf x).isFinite = true ∧ |((o.cbrtf x).val : ℝ) - r| ≤ δ * |r|

/-- Every real number of moderate size has a float close to it. -/
theorem exists_near {z : ℝ} (hz : |z| ≤ 2 ^ (119 : ℤ)) :
    ∃ w : F32, w.isFinite = true ∧ |(w.val : ℝ) - z| ≤ |z| / 2 ^ 24 + 1 / 2 ^ 148 := by
  obtain ⟨q, hq1, hq2⟩ := exists_rat_btwn (show z - 1 / 2 ^ 150 < z by linarith [show (0 : ℝ) < 1 / 2 ^ 150 by positivity])
  have h : |(q : ℝ) - z| ≤ 1 / 2 ^ 150 := by rw [_root_.abs_le]; constructor <;> linarith
  have hB : |(q : ℝ)| ≤ |z| + 1 / 2 ^ 150 := by
    have := abs_sub_abs_le_abs_sub (q : ℝ) z
    linarith
  have hB' : |z| + 1 / 2 ^ 150 ≤ 2 ^ 120 := by
    have h1 : (2 : ℝ) ^ (119 : ℤ) + 1 / 2 ^ 150 ≤ 2 ^ 120 := by norm_num
    linarith
  have := F32.Ap.pack (s := false) h hB hB'
  refine ⟨_, this.fin, this.err.trans ?_⟩
  have h2 : (|z| + 1 / 2 ^ 150) / 2 ^ 24 = |z| / 2 ^ 24 + 1 / 2 ^ 174 := by rw [add_div, div_div]; norm_num
  rw [h2]
  have h3 : (1 : ℝ) / 2 ^ 150 + (1 / 2 ^ 174) + 1 / 2 ^ 150 ≤ 1 / 2 ^ 148 := by norm_num
  linarith

/-- A nonzero float has magnitude at least `2^-149`. -/
theorem F32.val_lower {x : F32} (h : x.val ≠ 0) : (1 : ℚ) / 2 ^ 149 ≤ |x.val| := by
  obtain ⟨m, e, hx, -, he⟩ := x.rep_val
  have m0 : m ≠ 0 := by
    rintro rfl
    simp at hx; exact h hx
  have m1 : (1 : ℚ) ≤ |(m : ℚ)| := by
    have := Int.one_le_abs m0
    exact_mod_cast this
  rw [hx, abs_mul, abs_of_pos (by positivity : (0 : ℚ) < 2 ^ e)]
  have h2 : (1 : ℚ) / 2 ^ 149 ≤ 2 ^ e := by
    rw [show (1 : ℚ) / 2 ^ 149 = 2 ^ (-149 : ℤ) by rw [zpow_neg]; norm_num]
    exact zpow_le_zpow_right₀ (by norm_num) he
  nlinarith [show (0 : ℚ) < 2 ^ e by positivity]

/-- A finite float is smaller than `2^128`. -/
theorem F32.val_upper {x : F32} (_ : x.isFinite = true) : |x.val| < 2 ^ 128 := abs_val_lt x

/-- The float chosen near a real number. -/
noncomputable def F32.near (z : ℝ) : F32 :=
  open Classical in if h : |z| ≤ 2 ^ (119 : ℤ) then (exists_near h).choose else .nan

theorem F32.near_spec {z : ℝ} (h : |z| ≤ 2 ^ (119 : ℤ)) :
    (F32.near z).isFinite = true ∧ |((F32.near z).val : ℝ) - z| ≤ |z| / 2 ^ 24 + 1 / 2 ^ 148 := by
  unfold F32.near
  rw [dif_pos h]
  exact (exists_near h).choose_spec

theorem F32.near_rel {z δ : ℝ} (h : |z| ≤ 2 ^ (119 : ℤ)) (hz : 1 / 2 ^ 110 ≤ |z|) (hδ : 1 / 2 ^ 23 ≤ δ) :
    (F32.near z).isFinite = true ∧ |((F32.near z).val : ℝ) - z| ≤ δ * |z| := by
  obtain ⟨h1, h2⟩ := F32.near_spec h
  refine ⟨h1, h2.trans ?_⟩
  have h3 : 1 / 2 ^ 23 * |z| ≤ δ * |z| := by gcongr
  have h4 : (1 : ℝ) / 2 ^ 148 ≤ 1 / 2 ^ 24 * (1 / 2 ^ 110) := by norm_num
  have h5 : (1 : ℝ) / 2 ^ 24 * (1 / 2 ^ 110) ≤ 1 / 2 ^ 24 * |z| := by gcongr
  have h6 : (1 : ℝ) / 2 ^ 23 * |z| = |z| / 2 ^ 24 + 1 / 2 ^ 24 * |z| := by ring
  linarith

theorem F32.abs_log_le {x : F32} (hx : x.isFinite = true) (h0 : 0 < x.val) : |Real.log (x.val : ℝ)| ≤ 2 ^ 8 := by
  have h1 := F32.val_lower h0.ne'
  have h2 := F32.val_upper hx
  rw [abs_of_pos h0] at h1 h2
  have h1' : (1 : ℝ) / 2 ^ 149 ≤ x.val := by have := (Rat.cast_le (K := ℝ)).2 h1; push_cast at this; exact this
  have h2' : (x.val : ℝ) < 2 ^ 128 := by exact_mod_cast h2
  have l2 := Real.log_two_lt_d9
  have a1 := Real.log_le_log (by positivity) h1'
  have a2 := Real.log_le_log (by positivity) h2'.le
  rw [one_div, Real.log_inv, Real.log_pow] at a1
  rw [Real.log_pow] at a2
  rw [abs_le]
  push_cast at a1 a2
  constructor <;> linarith

/-- Library functions accurate in all these senses at once exist. -/
theorem exists_accurate : ∃ o : F32.Oracle, o.PowAccurate (2 ^ (-23 : ℤ)) ∧ o.SqrtAccurate (2 ^ (-23 : ℤ)) ∧
    o.LogAccurate (2 ^ (-23 : ℤ)) ∧ o.Log10Accurate (2 ^ (-23 : ℤ)) ∧ o.ExpAccurate (2 ^ (-23 : ℤ)) ∧ o.CbrtAccurate (2 ^ (-23 : ℤ)) := by
  classical
  obtain ⟨o, ho⟩ := exists_powAccurate
  have δ : (1 : ℝ) / 2 ^ 23 ≤ 2 ^ (-23 : ℤ) := by rw [zpow_neg]; norm_num
  refine ⟨{ o with
    sqrtf := fun x => if x.val = 0 then .zero false else F32.near √(x.val : ℝ)
    logf := fun x => F32.near (Real.log x.val)
    log10f := fun x => F32.near (Real.logb 10 x.val)
    expf := fun x => F32.near (Real.exp x.val)
    cbrtf := fun x => if x.val = 0 then .zero false else if h : ∃ r : ℝ, r ^ 3 = x.val then F32.near h.choose else .nan },
    ho, ?_, ?_, ?_, ?_, ?_⟩
  · intro x hx h0
    simp only
    rcases h0.eq_or_lt with e | pos
    · rw [if_pos e.symm, ← e]
      exact ⟨rfl, by simp [F32.val]⟩
    · rw [if_neg pos.ne']
      have h1 := F32.val_lower pos.ne'
      have h2 := F32.val_upper hx
      rw [abs_of_pos pos] at h1 h2
      have h1' : (1 : ℝ) / 2 ^ 149 ≤ x.val := by have := (Rat.cast_le (K := ℝ)).2 h1; push_cast at this; exact this
      have h2' : (x.val : ℝ) < 2 ^ 128 := by exact_mod_cast h2
      have s0 : 0 ≤ √(x.val : ℝ) := Real.sqrt_nonneg _
      have := F32.near_rel (z := √(x.val : ℝ)) (by
        rw [abs_of_nonneg s0, Real.sqrt_le_left (by positivity)]
        exact h2'.le.trans (by norm_num)) (by
        rw [abs_of_nonneg s0, Real.le_sqrt' (by positivity)]
        exact le_trans (by norm_num) h1') δ
      rwa [abs_of_nonneg s0] at this
  · intro x hx h0
    have h := F32.abs_log_le hx h0
    obtain ⟨h1, h2⟩ := F32.near_spec (z := Real.log x.val) (h.trans (by norm_num))
    refine ⟨h1, h2.trans ?_⟩
    have m1 := le_max_left 1 |Real.log (x.val : ℝ)|
    have m2 := le_max_right 1 |Real.log (x.val : ℝ)|
    generalize max 1 |Real.log (x.val : ℝ)| = M at *
    have h3 : 1 / 2 ^ 23 * M ≤ 2 ^ (-23 : ℤ) * M := mul_le_mul_of_nonneg_right δ (by linarith)
    refine le_trans ?_ h3
    norm_num
    linarith
  · intro x hx h0
    have h := F32.abs_log_le hx h0
    have h10 : |Real.logb 10 (x.val : ℝ)| ≤ |Real.log (x.val : ℝ)| := by
      rw [Real.logb, abs_div]
      refine div_le_self (abs_nonneg _) ?_
      have : (1 : ℝ) ≤ Real.log 10 := by
        rw [Real.le_log_iff_exp_le (by norm_num)]
        exact Real.exp_one_lt_d9.le.trans (by norm_num)
      exact this.trans (le_abs_self _)
    obtain ⟨h1, h2⟩ := F32.near_spec (z := Real.logb 10 x.val) ((h10.trans h).trans (by norm_num))
    refine ⟨h1, h2.trans ?_⟩
    have m1 := le_max_left 1 |Real.logb 10 (x.val : ℝ)|
    have m2 := le_max_right 1 |Real.logb 10 (x.val : ℝ)|
    generalize max 1 |Real.logb 10 (x.val : ℝ)| = M at *
    have h3 : 1 / 2 ^ 23 * M ≤ 2 ^ (-23 : ℤ) * M := mul_le_mul_of_nonneg_right δ (by linarith)
    refine le_trans ?_ h3
    norm_num
    linarith
  · intro x hx h1 h2
    have e0 := Real.exp_pos (x.val : ℝ)
    have := F32.near_rel (z := Real.exp (x.val : ℝ)) (by
      rw [abs_of_pos e0]; exact h2.trans (zpow_le_zpow_right₀ (by norm_num) (by norm_num))) (by
      rw [abs_of_pos e0]; refine le_trans ?_ h1; rw [zpow_neg]; norm_num) δ
    rwa [abs_of_pos e0] at this
  · intro x hx r hr
    simp only
    by_cases e : x.val = 0
    · rw [if_pos e]
      rw [e] at hr
      have : r = 0 := by simpa using hr
      rw [this]
      exact ⟨rfl, by simp [F32.val]⟩
    · rw [if_neg e]
      have hex : ∃ r : ℝ, r ^ 3 = x.val := ⟨r, hr⟩
      rw [dif_pos hex]
      have hc : hex.choose = r := (Odd.strictMono_pow (R := ℝ) (n := 3) (by decide)).injective (hex.choose_spec.trans hr.symm)
      rw [hc]
      have h1 := F32.val_lower e
      have h2 := F32.val_upper hx
      have h1' : (1 : ℝ) / 2 ^ 149 ≤ |(x.val : ℝ)| := by have := (Rat.cast_le (K := ℝ)).2 h1; push_cast at this; exact this
      have h2' : |(x.val : ℝ)| < 2 ^ 128 := by exact_mod_cast h2
      rw [← hr, abs_pow] at h1' h2'
      refine F32.near_rel ?_ ?_ δ
      · by_contra hc
        have h3 : ((2 : ℝ) ^ (119 : ℤ)) ^ 3 ≤ |r| ^ 3 := pow_le_pow_left₀ (by positivity) (not_le.1 hc).le 3
        have h4 : (2 : ℝ) ^ 128 ≤ ((2 : ℝ) ^ (119 : ℤ)) ^ 3 := by
          rw [show (119 : ℤ) = ((119 : ℕ) : ℤ) from rfl, zpow_natCast, ← pow_mul]
          exact pow_le_pow_right₀ (by norm_num) (by norm_num)
        linarith
      · by_contra hc
        have h3 : |r| ^ 3 < (1 / 2 ^ 110) ^ 3 := pow_lt_pow_left₀ (not_le.1 hc) (abs_nonneg _) (by norm_num)
        have h4 : ((1 : ℝ) / 2 ^ 110) ^ 3 ≤ 1 / 2 ^ 149 := by
          rw [div_pow, one_pow, ← pow_mul]
          exact one_div_le_one_div_of_le (by positivity) (pow_le_pow_right₀ (by norm_num) (by norm_num))
        linarith

end CS
