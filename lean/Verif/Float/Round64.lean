import Verif.Float.Round

/-!
# Rounding a rational number to binary64 precision

`rnd q` is `q` rounded to the nearest number with 53 significant bits and exponent at least -1074, ties to
even (IEEE 754 `roundTiesToEven`), before the overflow check.  `rnd_nearest` and `rnd_tie` state that.
-/

namespace CS.B64
open CS.B32 (rne rne_cases rne_err rne_int rne_eq_of_lt rne_tie rne_mono rne_neg rne_le le_rne two_zpow_pos)

/-- The exponent of the last bit at the magnitude of `q`. -/
def ex (q : ℚ) : ℤ := if q = 0 then -1074 else max (Int.log 2 |q| - 52) (-1074)

/-- Rounding to binary64 precision, exponent unbounded above. -/
def rnd (q : ℚ) : ℚ := rne (q / 2 ^ ex q) * 2 ^ ex q

/-- Numbers with 53 significant bits and exponent at least -1074. -/
def Rep (q : ℚ) : Prop := ∃ m e : ℤ, q = m * 2 ^ e ∧ |m| < 2 ^ 53 ∧ -1074 ≤ e

theorem ex_ge (q : ℚ) : -1074 ≤ ex q := by
  unfold ex
  split_ifs
  · exact le_rfl
  · exact le_max_right _ _

theorem ex_neg (q : ℚ) : ex (-q) = ex q := by unfold ex; rw [abs_neg]; simp only [neg_eq_zero]

theorem lt_ex (q : ℚ) : |q| < 2 ^ (ex q + 53) := by
  rcases eq_or_ne q 0 with rfl | hq
  · simpa using two_zpow_pos _
  have h := Int.lt_zpow_succ_log_self (b := 2) (by norm_num) |q|
  refine lt_of_lt_of_le h ?_
  have : Int.log 2 |q| + 1 ≤ ex q + 53 := by
    have := le_max_left (Int.log 2 |q| - 52) (-1074); unfold ex; rw [if_neg hq]; omega
  exact_mod_cast zpow_le_zpow_right₀ (by norm_num : (1 : ℚ) ≤ 2) this

/-- Either the number is in the normal range of its exponent or the exponent is the smallest one. -/
theorem ex_le (q : ℚ) (hq : q ≠ 0) : ex q = -1074 ∨ 2 ^ (ex q + 52) ≤ |q| := by
  rcases max_choice (Int.log 2 |q| - 52) (-1074) with h | h
  · right
    have h2 := Int.zpow_log_le_self (b := 2) (by norm_num) (abs_pos.2 hq)
    unfold ex
    rw [if_neg hq, h, sub_add_cancel]
    exact_mod_cast h2
  · left; unfold ex; rw [if_neg hq]; exact h

theorem ex_le_of_lt {q : ℚ} {e : ℤ} (he : -1074 ≤ e) (h : |q| < 2 ^ (e + 53)) : ex q ≤ e := by
  rcases eq_or_ne q 0 with rfl | hq
  · unfold ex; simpa using he
  rcases ex_le q hq with h1 | h1
  · omega
  · have : (2 : ℚ) ^ (ex q + 52) < 2 ^ (e + 53) := h1.trans_lt h
    have := (zpow_lt_zpow_iff_right₀ (by norm_num : (1 : ℚ) < 2)).1 this
    omega

theorem le_ex_of_le {q : ℚ} {e : ℤ} (h : 2 ^ (e + 52) ≤ |q|) : e ≤ ex q := by
  have : (2 : ℚ) ^ (e + 52) < 2 ^ (ex q + 53) := h.trans_lt (lt_ex q)
  have := (zpow_lt_zpow_iff_right₀ (by norm_num : (1 : ℚ) < 2)).1 this
  omega

theorem ex_mono {p q : ℚ} (h : |p| ≤ |q|) : ex p ≤ ex q :=
  ex_le_of_lt (ex_ge q) (h.trans_lt (lt_ex q))

theorem rnd_neg (q : ℚ) : rnd (-q) = -rnd q := by
  unfold rnd
  rw [ex_neg, neg_div, rne_neg]
  push_cast
  ring

@[simp] theorem rnd_zero : rnd 0 = 0 := by
  unfold rnd
  rw [zero_div]
  have := rne_int 0
  simp only [Int.cast_zero] at this
  rw [this]; simp

theorem rnd_err (q : ℚ) : |rnd q - q| ≤ 2 ^ ex q / 2 := by
  have h := rne_err (q / 2 ^ ex q)
  have hp := two_zpow_pos (ex q)
  unfold rnd
  set e := (2 : ℚ) ^ ex q
  rw [show (rne (q / e) : ℚ) * e - q = ((rne (q / e) : ℚ) - q / e) * e by field_simp, abs_mul, abs_of_pos hp]
  calc _ ≤ 1 / 2 * e := mul_le_mul_of_nonneg_right h hp.le
    _ = _ := by ring

/-- A number that is a multiple of the last bit at its magnitude is left alone. -/
theorem rnd_of_mul {q : ℚ} {m e : ℤ} (h : q = m * 2 ^ e) (he : ex q ≤ e) : rnd q = q := by
  have : q / 2 ^ ex q = ((m * 2 ^ (e - ex q).toNat : ℤ) : ℚ) := by
    push_cast
    rw [div_eq_iff (two_zpow_pos _).ne', mul_assoc, ← zpow_natCast, ← zpow_add₀ (by norm_num)]
    rw [Int.toNat_of_nonneg (by omega), sub_add_cancel, h]
  unfold rnd
  rw [this, rne_int, ← this]
  field_simp

theorem Rep.exp_le {q : ℚ} {m e : ℤ} (h : q = m * 2 ^ e) (hm : |m| < 2 ^ 53) (he : -1074 ≤ e) : ex q ≤ e := by
  refine ex_le_of_lt he ?_
  rw [h, abs_mul, abs_of_pos (two_zpow_pos e), zpow_add₀ (by norm_num), mul_comm]
  refine mul_lt_mul_of_pos_left ?_ (two_zpow_pos e)
  exact_mod_cast hm

theorem rnd_of_rep {q : ℚ} (h : Rep q) : rnd q = q := by
  obtain ⟨m, e, h1, h2, h3⟩ := h
  exact rnd_of_mul h1 (Rep.exp_le h1 h2 h3)

/-- Representability also holds with the bound attained. -/
theorem rep_of_le {q : ℚ} {m e : ℤ} (h : q = m * 2 ^ e) (hm : |m| ≤ 2 ^ 53) (he : -1074 ≤ e) : Rep q := by
  rcases hm.lt_or_eq with h1 | h1
  · exact ⟨m, e, h, h1, he⟩
  · rcases abs_choice m with h2 | h2 <;> rw [h2] at h1
    · refine ⟨2 ^ 52, e + 1, ?_, by norm_num, by omega⟩
      rw [h, h1, zpow_add₀ (by norm_num)]; push_cast; ring
    · refine ⟨-2 ^ 52, e + 1, ?_, by norm_num, by omega⟩
      rw [h, show m = -2 ^ 53 by omega, zpow_add₀ (by norm_num)]; push_cast; ring

theorem rne_ex_le (q : ℚ) : |rne (q / 2 ^ ex q)| ≤ 2 ^ 53 := by
  have h := lt_ex q
  have hp := two_zpow_pos (ex q)
  rw [zpow_add₀ (by norm_num), ← div_lt_iff₀' hp, ← abs_of_pos hp, ← abs_div, abs_lt] at h
  rw [abs_le]
  constructor
  · apply le_rne; push_cast; exact_mod_cast h.1.le
  · apply rne_le; push_cast; exact_mod_cast h.2.le

theorem rep_rnd (q : ℚ) : Rep (rnd q) := rep_of_le rfl (rne_ex_le q) (ex_ge q)

theorem rep_neg {q : ℚ} (h : Rep q) : Rep (-q) := by
  obtain ⟨m, e, h1, h2, h3⟩ := h
  exact ⟨-m, e, by rw [h1]; push_cast; ring, by rwa [abs_neg], h3⟩

theorem rep_int {n : ℤ} (h : |n| ≤ 2 ^ 53) : Rep n := rep_of_le (m := n) (e := 0) (by simp) h (by norm_num)

theorem rep_zero : Rep 0 := by simpa using rep_int (n := 0) (by norm_num)

theorem rep_two_zpow {e : ℤ} (he : -1074 ≤ e) : Rep (2 ^ e) := ⟨1, e, by simp, by norm_num, he⟩

theorem rnd_nonneg {q : ℚ} (h : 0 ≤ q) : 0 ≤ rnd q := by
  unfold rnd
  have : (0 : ℤ) ≤ rne (q / 2 ^ ex q) := le_rne (by push_cast; positivity)
  have : (0 : ℚ) ≤ rne (q / 2 ^ ex q) := by exact_mod_cast this
  positivity

private theorem rnd_mono_pos {p q : ℚ} (hp : 0 < p) (h : p ≤ q) : rnd p ≤ rnd q := by
  have hq : 0 < q := hp.trans_le h
  have hex : ex p ≤ ex q := ex_mono (by rw [abs_of_pos hp, abs_of_pos hq]; exact h)
  rcases hex.lt_or_eq with hlt | heq
  · have h1 : rnd p ≤ 2 ^ (ex p + 53) := by
      unfold rnd
      rw [zpow_add₀ (by norm_num), mul_comm]
      refine mul_le_mul_of_nonneg_left ?_ (two_zpow_pos _).le
      have := (abs_le.1 (rne_ex_le p)).2
      exact_mod_cast this
    have h2 : (2 : ℚ) ^ (ex q + 52) ≤ q := by
      rcases ex_le q hq.ne' with h3 | h3
      · have := ex_ge p; omega
      · rwa [abs_of_pos hq] at h3
    have h3 : (2 : ℚ) ^ (ex q + 52) ≤ rnd q := by
      unfold rnd
      rw [zpow_add₀ (by norm_num), mul_comm]
      refine mul_le_mul_of_nonneg_right ?_ (two_zpow_pos _).le
      have : (2 ^ 52 : ℤ) ≤ rne (q / 2 ^ ex q) := by
        apply le_rne
        rw [le_div_iff₀ (two_zpow_pos _)]
        rw [zpow_add₀ (by norm_num), mul_comm] at h2
        exact_mod_cast h2
      exact_mod_cast this
    refine h1.trans (le_trans ?_ h3)
    exact zpow_le_zpow_right₀ (by norm_num) (by omega)
  · unfold rnd
    rw [heq]
    refine mul_le_mul_of_nonneg_right ?_ (two_zpow_pos _).le
    have := rne_mono (div_le_div_of_nonneg_right h (two_zpow_pos (ex q)).le)
    exact_mod_cast this

theorem rnd_nonpos {q : ℚ} (h : q ≤ 0) : rnd q ≤ 0 := by
  have := rnd_nonneg (q := -q) (by linarith)
  rw [rnd_neg] at this; linarith

/-- Rounding is monotone. -/
theorem rnd_mono {p q : ℚ} (h : p ≤ q) : rnd p ≤ rnd q := by
  rcases lt_trichotomy p 0 with hp | rfl | hp
  · rcases lt_or_ge q 0 with hq | hq
    · have := rnd_mono_pos (p := -q) (q := -p) (by linarith) (by linarith)
      rw [rnd_neg, rnd_neg] at this; linarith
    · exact (rnd_nonpos hp.le).trans (rnd_nonneg hq)
  · rw [rnd_zero]; exact rnd_nonneg h
  · exact rnd_mono_pos hp h

theorem rnd_le {q r : ℚ} (hr : Rep r) (h : q ≤ r) : rnd q ≤ r := by
  have := rnd_mono h; rwa [rnd_of_rep hr] at this

theorem le_rnd {q r : ℚ} (hr : Rep r) (h : r ≤ q) : r ≤ rnd q := by
  have := rnd_mono h; rwa [rnd_of_rep hr] at this

/-- Rounding picks a nearest representable number. -/
theorem rnd_nearest (q : ℚ) {r : ℚ} (hr : Rep r) : |rnd q - q| ≤ |r - q| := by
  wlog hq : 0 ≤ q generalizing q r
  · have := this (-q) (rep_neg hr) (by linarith)
    rw [rnd_neg] at this
    rwa [show -rnd q - -q = -(rnd q - q) by ring, show -r - -q = -(r - q) by ring, abs_neg, abs_neg] at this
  rcases hq.lt_or_eq with hpos | rfl
  swap
  · simp
  -- a candidate below or above
  rcases le_total r q with h | h
  · -- `r ≤ q`
    have h1 : r ≤ rnd q := le_rnd hr h
    rcases le_total (rnd q) q with h2 | h2
    · rw [abs_of_nonpos (by linarith), abs_of_nonpos (by linarith)]; linarith
    · rw [abs_of_nonneg (by linarith), abs_of_nonpos (by linarith)]
      -- `r ≤ ⌊q/u⌋ u`
      by_contra hcon
      push Not at hcon
      have herr := rnd_err q
      rw [abs_of_nonneg (by linarith)] at herr
      have hk : ((rne (q / 2 ^ ex q) - 1 : ℤ) : ℚ) * 2 ^ ex q < r := by
        push_cast
        have : rnd q = rne (q / 2 ^ ex q) * 2 ^ ex q := rfl
        rw [sub_mul, ← this]; linarith
      -- `r` is a multiple of the last bit of `q` or too small
      obtain ⟨m, e, h3, h4, h5⟩ := hr
      have hrq : ex r ≤ ex q := by
        rcases le_or_gt 0 r with h0 | h0
        · exact ex_mono (by rw [abs_of_nonneg h0, abs_of_nonneg hq]; exact h)
        · exfalso
          have : (0 : ℤ) ≤ rne (q / 2 ^ ex q) - 1 ∨ rne (q / 2 ^ ex q) ≤ 0 := by omega
          rcases this with h6 | h6
          · have : (0 : ℚ) ≤ ((rne (q / 2 ^ ex q) - 1 : ℤ) : ℚ) := by exact_mod_cast h6
            have := mul_nonneg this (two_zpow_pos (ex q)).le
            linarith
          · have h7 : rnd q ≤ 0 := by
              unfold rnd
              have : ((rne (q / 2 ^ ex q) : ℤ) : ℚ) ≤ 0 := by exact_mod_cast h6
              have := two_zpow_pos (ex q)
              nlinarith
            linarith
      -- `q/u < rne`, so `q < rnd q`; compare with `⌊q/u⌋ u`, representable and `≥ r`
      have hfl : (⌊q / 2 ^ ex q⌋ : ℚ) * 2 ^ ex q ≤ q := by
        rw [← le_div_iff₀ (two_zpow_pos _)]; exact Int.floor_le _
      rcases rne_cases (q / 2 ^ ex q) with ⟨h6, h7⟩ | ⟨h6, h7⟩
      · have : rnd q ≤ q := by
          show ((rne (q / 2 ^ ex q) : ℤ) : ℚ) * 2 ^ ex q ≤ q
          rw [h6]; exact hfl
        have : rnd q = q := le_antisymm this h2
        rw [this] at hcon; linarith
      · -- `r` in `(⌊q/u⌋ u, q]`: impossible unless `r` has finer bits
        rw [h6] at hk
        push_cast at hk
        rw [add_sub_cancel_right] at hk
        rcases le_or_gt (ex q) e with he | he
        · have hrm : r = ((m * 2 ^ (e - ex q).toNat : ℤ) : ℚ) * 2 ^ ex q := by
            push_cast
            rw [mul_assoc, ← zpow_natCast, ← zpow_add₀ (by norm_num), Int.toNat_of_nonneg (by omega),
              sub_add_cancel, h3]
          rw [hrm] at hk h
          have h8 : ((⌊q / 2 ^ ex q⌋ : ℤ) : ℚ) < ((m * 2 ^ (e - ex q).toNat : ℤ) : ℚ) :=
            lt_of_mul_lt_mul_right hk (two_zpow_pos _).le
          have h9 : m * 2 ^ (e - ex q).toNat ≤ ⌊q / 2 ^ ex q⌋ := by
            rw [Int.le_floor, le_div_iff₀ (two_zpow_pos _)]; exact h
          have : ⌊q / 2 ^ ex q⌋ < m * 2 ^ (e - ex q).toNat := by exact_mod_cast h8
          omega
        · -- `r < 2^(e+53) ≤ 2^(ex q + 52) ≤ ⌊q/u⌋ u`
          have h8 : r < 2 ^ (e + 53) := by
            refine lt_of_le_of_lt (le_abs_self r) ?_
            rw [h3, abs_mul, abs_of_pos (two_zpow_pos e), zpow_add₀ (by norm_num), mul_comm]
            refine mul_lt_mul_of_pos_left ?_ (two_zpow_pos e)
            exact_mod_cast h4
          have h9 : (2 : ℚ) ^ (ex q + 52) ≤ q := by
            rcases ex_le q hpos.ne' with h10 | h10
            · omega
            · rwa [abs_of_pos hpos] at h10
          have h11 : (2 ^ 52 : ℤ) ≤ ⌊q / 2 ^ ex q⌋ := by
            rw [Int.le_floor, le_div_iff₀ (two_zpow_pos _)]
            rw [zpow_add₀ (by norm_num), mul_comm] at h9
            exact_mod_cast h9
          have h12 : (2 : ℚ) ^ (e + 53) ≤ 2 ^ (ex q + 52) := zpow_le_zpow_right₀ (by norm_num) (by omega)
          have h13 : (2 : ℚ) ^ (ex q + 52) ≤ ⌊q / 2 ^ ex q⌋ * 2 ^ ex q := by
            rw [zpow_add₀ (by norm_num), mul_comm]
            refine mul_le_mul_of_nonneg_right ?_ (two_zpow_pos _).le
            exact_mod_cast h11
          linarith
  · -- `q ≤ r`
    have h1 : rnd q ≤ r := rnd_le hr h
    rcases le_total q (rnd q) with h2 | h2
    · rw [abs_of_nonneg (by linarith), abs_of_nonneg (by linarith)]; linarith
    · rw [abs_of_nonpos (by linarith), abs_of_nonneg (by linarith)]
      rcases rne_cases (q / 2 ^ ex q) with ⟨h6, h7⟩ | ⟨h6, h7⟩
      · by_contra hcon
        push Not at hcon
        have herr := rnd_err q
        rw [abs_of_nonpos (by linarith)] at herr
        have hrn : rnd q = ⌊q / 2 ^ ex q⌋ * 2 ^ ex q := by
          show ((rne (q / 2 ^ ex q) : ℤ) : ℚ) * 2 ^ ex q = _
          rw [h6]
        have hk : r < ((⌊q / 2 ^ ex q⌋ + 1 : ℤ) : ℚ) * 2 ^ ex q := by
          push_cast; rw [add_mul, ← hrn]; linarith
        have hrex : ex q ≤ ex r := ex_mono (by rw [abs_of_pos hpos, abs_of_pos (hpos.trans_le h)]; exact h)
        obtain ⟨m, e, h3, h4, h5⟩ := hr
        have he : ex q ≤ e := hrex.trans (Rep.exp_le h3 h4 h5)
        have hrm : r = ((m * 2 ^ (e - ex q).toNat : ℤ) : ℚ) * 2 ^ ex q := by
          push_cast
          rw [mul_assoc, ← zpow_natCast, ← zpow_add₀ (by norm_num), Int.toNat_of_nonneg (by omega),
            sub_add_cancel, h3]
        rw [hrm] at hk h
        have h8 := lt_of_mul_lt_mul_right hk (two_zpow_pos _).le
        have h8' : m * 2 ^ (e - ex q).toNat < ⌊q / 2 ^ ex q⌋ + 1 := by exact_mod_cast h8
        have h9 : q / 2 ^ ex q ≤ ((m * 2 ^ (e - ex q).toNat : ℤ) : ℚ) := by
          rw [div_le_iff₀ (two_zpow_pos _)]; exact h
        have h10 : ((m * 2 ^ (e - ex q).toNat : ℤ) : ℚ) ≤ ⌊q / 2 ^ ex q⌋ := by
          exact_mod_cast (by omega : m * 2 ^ (e - ex q).toNat ≤ ⌊q / 2 ^ ex q⌋)
        have h11 : rnd q = q := by
          rw [hrn]
          have := Int.floor_le (q / 2 ^ ex q)
          have h12 : (⌊q / 2 ^ ex q⌋ : ℚ) = q / 2 ^ ex q := le_antisymm this (h9.trans h10)
          rw [h12]; field_simp
        rw [h11] at hcon; linarith
      · have : q ≤ rnd q := by
          show q ≤ ((rne (q / 2 ^ ex q) : ℤ) : ℚ) * 2 ^ ex q
          rw [h6, ← div_le_iff₀ (two_zpow_pos _)]
          push_cast
          exact (Int.lt_floor_add_one _).le
        linarith

/-- Exactly half way between two neighbours the one with the even significand is taken. -/
theorem rnd_tie (q : ℚ) (n : ℤ) (h : q = (n + 1 / 2) * 2 ^ ex q) : ∃ m : ℤ, rnd q = m * 2 ^ ex q ∧ m % 2 = 0 := by
  refine ⟨rne (q / 2 ^ ex q), rfl, ?_⟩
  have : q / 2 ^ ex q = n + 1 / 2 := by
    rw [div_eq_iff (two_zpow_pos _).ne']; exact h
  rw [this]; exact rne_tie n

/-- The error is at most half a unit in the last place: `2^-53 |q|`, or `2^-1075` near zero. -/
theorem rnd_rel (q : ℚ) : |rnd q - q| ≤ max (|q| / 2 ^ 53) (1 / 2 ^ 1075) := by
  rcases eq_or_ne q 0 with rfl | hq
  · simp
  refine (rnd_err q).trans ?_
  rcases ex_le q hq with h | h
  · refine le_max_of_le_right ?_
    have e : (2 : ℚ) ^ 1075 = 2 ^ 1074 * 2 := pow_succ 2 1074
    rw [h, e, zpow_neg, one_div, mul_inv, div_eq_mul_inv]
    exact le_of_eq rfl
  · refine le_max_of_le_left ?_
    rw [zpow_add₀ (by norm_num)] at h
    rw [le_div_iff₀ (by norm_num)]
    have : (2 : ℚ) ^ (52 : ℤ) = 2 ^ 52 := by norm_cast
    rw [this] at h
    linarith

theorem rnd_rel' (q : ℚ) : |rnd q - q| ≤ |q| / 2 ^ 53 + 1 / 2 ^ 1075 :=
  (rnd_rel q).trans (max_le (by simp) (by have := abs_nonneg q; linarith [div_nonneg this (by norm_num : (0 : ℚ) ≤ 2 ^ 53)]))

/-- A sum of representable numbers has no underflow error. -/
theorem rnd_add_rel {p q : ℚ} (hp : Rep p) (hq : Rep q) : |rnd (p + q) - (p + q)| ≤ |p + q| / 2 ^ 53 := by
  rcases eq_or_ne (p + q) 0 with h0 | h0
  · rw [h0]; simp
  rcases ex_le _ h0 with h | h
  · obtain ⟨m, e, h1, h2, h3⟩ := hp
    obtain ⟨m', e', h1', h2', h3'⟩ := hq
    have key : p + q = ((m * 2 ^ (e + 1074).toNat + m' * 2 ^ (e' + 1074).toNat : ℤ) : ℚ) * 2 ^ (-1074 : ℤ) := by
      push_cast
      rw [add_mul, mul_assoc, mul_assoc, ← zpow_natCast, ← zpow_natCast, ← zpow_add₀ (by norm_num),
        ← zpow_add₀ (by norm_num), Int.toNat_of_nonneg (by omega), Int.toNat_of_nonneg (by omega), h1, h1']
      congr 3 <;> ring
    rw [rnd_of_mul key h.le, sub_self, abs_zero]; positivity
  · refine (rnd_err _).trans ?_
    rw [zpow_add₀ (by norm_num)] at h
    rw [le_div_iff₀ (by norm_num)]
    have : (2 : ℚ) ^ (52 : ℤ) = 2 ^ 52 := by norm_cast
    rw [this] at h
    linarith

end CS.B64
