import Verif.Props.SLogFloat
import Verif.Props.HLGImages

/-!
# C138: S-Log and S-Log2 footage through XYZ and the RGB spaces, in the precision of the code

The logarithmic curves have a bounded slope, so every pixel of up to 11 bits keeps its codes, however different its channels
are - if no code is below black.  Codes below black do not survive even without a conversion: no encoder ever emits them.
-/

namespace CS
open F32 B32 OTF Spec HLGImg

namespace SLogImg

/-- The slope of the decimal logarithm. -/
theorem logb_step {a b : ℝ} (ha : 0 < a) (h : a ≤ b) :
    0 ≤ Real.logb 10 b - Real.logb 10 a ∧ Real.logb 10 b - Real.logb 10 a ≤ 0.4348 * ((b - a) / a) := by
  have l10 := log_ten_gt
  have hb : 0 < b := ha.trans_le h
  have l0 := Real.log_le_log ha h
  have l1 : Real.log b - Real.log a ≤ (b - a) / a := by
    rw [← Real.log_div hb.ne' ha.ne']
    refine (Real.log_le_sub_one_of_pos (div_pos hb ha)).trans (le_of_eq ?_)
    field_simp
  have l2 : 0 ≤ (b - a) / a := div_nonneg (by linarith) ha.le
  rw [Real.logb, Real.logb, ← sub_div]
  refine ⟨div_nonneg (by linarith) (by linarith), ?_⟩
  refine (div_le_div₀ l2 l1 (by norm_num) l10.le).trans ?_
  rw [div_le_iff₀ (by norm_num)]
  nlinarith

set_option exponentiation.threshold 700 in
/-- The logarithm of the offset. -/
theorem logb_off : -1.425 ≤ Real.logb 10 0.037584 ∧ Real.logb 10 0.037584 ≤ -1.42494 := by
  constructor
  · rw [Real.le_logb_iff_rpow_le (by norm_num) (by norm_num)]
    have := rpow_le_of_pow (x := 1 / 10) (r := 0.037584) (p := 57) (q := 40) (by norm_num) (by norm_num) (by norm_num) (by norm_num)
    rw [one_div, Real.inv_rpow (by norm_num), ← Real.rpow_neg (by norm_num)] at this
    norm_num at this ⊢; exact this
  · rw [Real.logb_le_iff_le_rpow (by norm_num) (by norm_num)]
    have := le_rpow_of_pow (x := 1 / 10) (r := 0.037584) (p := 617) (q := 433) (by norm_num) (by norm_num) (by norm_num) (by norm_num)
    rw [one_div, Real.inv_rpow (by norm_num), ← Real.rpow_neg (by norm_num)] at this
    refine this.trans (Real.rpow_le_rpow_of_exponent_le (by norm_num) ?_)
    norm_num

theorem slog_step {x y : ℝ} (x0 : 0 ≤ x) (h : x ≤ y) : 0 ≤ slog y - slog x ∧ slog y - slog x ≤ 5.02 * (y - x) := by
  obtain ⟨a, b⟩ := logb_step (a := x + 0.037584) (b := y + 0.037584) (by linarith) (by linarith)
  have c : (y + 0.037584 - (x + 0.037584)) / (x + 0.037584) ≤ (y - x) / 0.037584 :=
    div_le_div₀ (by linarith) (by linarith) (by norm_num) (by linarith)
  have d : (y - x) / 0.037584 ≤ 26.61 * (y - x) := by rw [div_le_iff₀ (by norm_num)]; nlinarith
  unfold slog
  constructor <;> linarith

theorem slog_lip {x y : ℝ} (x0 : 0 ≤ x) (y0 : 0 ≤ y) : |slog x - slog y| ≤ 5.02 * |x - y| := by
  rcases le_total x y with h | h
  · obtain ⟨a, b⟩ := slog_step x0 h
    rw [abs_sub_comm, abs_of_nonneg a, abs_sub_comm x y, abs_of_nonneg (by linarith)]; exact b
  · obtain ⟨a, b⟩ := slog_step y0 h
    rw [abs_of_nonneg a, abs_of_nonneg (by linarith)]; exact b

theorem slog_zero : 0.029998 ≤ slog 0 ∧ slog 0 ≤ 0.030027 := by
  obtain ⟨a, b⟩ := logb_off
  unfold slog
  rw [zero_add]
  constructor <;> linarith

/-- The power of ten of both curves, for a level between black and white. -/
theorem ten_pow {y : ℝ} (h0 : 0.030026 ≤ y) : 0.037584 ≤ (10 : ℝ) ^ ((y - 0.616596 - 0.03) / 0.432699) := by
  rw [← Real.logb_le_iff_le_rpow (by norm_num) (by norm_num)]
  refine logb_off.2.trans ?_
  rw [le_div_iff₀ (by norm_num)]
  linarith

theorem slogInv_bounds {v : ℝ} (h0 : 0.030026 ≤ v) (h1 : v ≤ 1) : 0 ≤ slogInv v ∧ slogInv v ≤ 6.6 ∧ slog (slogInv v) = v := by
  have a := ten_pow h0
  refine ⟨by unfold slogInv; linarith, ?_, ?_⟩
  · have := rpow_le_of_pow (x := 10) (r := 6.6) (p := 9) (q := 11) (by norm_num) (by norm_num) (by norm_num) (by norm_num)
    have b : (10 : ℝ) ^ ((v - 0.616596 - 0.03) / 0.432699) ≤ 10 ^ (((9 : ℕ) : ℝ) / (11 : ℕ)) := by
      refine Real.rpow_le_rpow_of_exponent_le (by norm_num) ?_
      rw [div_le_div_iff₀ (by norm_num) (by norm_num)]
      push_cast
      linarith
    unfold slogInv
    linarith
  · unfold slog slogInv
    rw [sub_add_cancel, Real.logb_rpow (by norm_num) (by norm_num)]
    ring

/-- A curve whose code `n` of `N` survives a change of the light by `4e-6` of at most `M`. -/
structure Firm (enc dec : F32 → F32) (N : ℕ) (M : ℚ) (E : ℝ) (n : ℕ) : Prop where
  code : Ap (Arith.ofInt n / Arith.ofInt N) (n / N) 6e-8
  fin : (dec (Arith.ofInt n / Arith.ofInt N)).isFinite = true
  le : |(dec (Arith.ofInt n / Arith.ofInt N)).val| ≤ M
  back : ∀ x : F32, x.isFinite = true → |x.val - (dec (Arith.ofInt n / Arith.ofInt N)).val| ≤ 4e-6 * M + 1 / 2 ^ 140 →
    Ap (enc x) ((Arith.ofInt n / Arith.ofInt N : F32).val) E

theorem firm_trip {enc dec : F32 → F32} {N i j k : ℕ} (hN : 0 < N) {M : ℚ} (hM : M ≤ 2 ^ 100) {E : ℝ} (hE : (E + 6e-8) * N < 1 / 2)
    (hi : Firm enc dec N M E i) (hj : Firm enc dec N M E j) (hk : Firm enc dec N M E k) {f : Tristimulus F32 → Tristimulus F32}
    (hf : Gentle f) {p t : Tristimulus F32} (hp : p = pixel N i j k) (ht : t = f ⟨dec p.a, dec p.b, dec p.c⟩) :
    HasCodes N i j k ⟨enc t.a, enc t.b, enc t.c⟩ := by
  subst hp ht
  obtain ⟨⟨fa, fb, fc⟩, da, db, dc⟩ := hf M hM ⟨dec (pixel N i j k).a, dec (pixel N i j k).b, dec (pixel N i j k).c⟩
    ⟨⟨hi.fin, hi.le⟩, ⟨hj.fin, hj.le⟩, hk.fin, hk.le⟩
  obtain ⟨a1, a2⟩ := to_code hN (hi.back _ fa da) hi.code hE
  obtain ⟨b1, b2⟩ := to_code hN (hj.back _ fb db) hj.code hE
  obtain ⟨c1, c2⟩ := to_code hN (hk.back _ fc dc) hk.code hE
  exact ⟨⟨a1, b1, c1⟩, a2, b2, c2⟩

/-- A code at or above a level. -/
theorem code_ge {N n : ℕ} {b : ℚ} (hN : 0 < N) (hN' : N ≤ 65535) (hn : n ≤ N) (h : b * N ≤ n) :
    (b : ℝ) - 6e-8 ≤ (Arith.ofInt n / Arith.ofInt N : F32).val := by
  obtain ⟨c, -⟩ := code_ap hN hN' hn
  have Np : (0 : ℝ) < N := by exact_mod_cast hN
  have h' : (b : ℝ) * N ≤ n := by exact_mod_cast h
  have : (b : ℝ) ≤ n / N := by rw [le_div_iff₀ Np]; exact h'
  have := (abs_le.1 c.err).1
  linarith

theorem clamp_close {x y d : ℝ} (y0 : 0 ≤ y) (y1 : y ≤ 10) (h : |x - y| ≤ d) : |max 0 (min 10 x) - y| ≤ d := by
  obtain ⟨a, b⟩ := abs_le.1 h
  have d0 := (abs_nonneg _).trans h
  rw [abs_le]
  constructor
  · have : y - d ≤ max 0 (min 10 x) := le_max_of_le_right (le_min (by linarith) (by linarith))
    linarith
  · have : max 0 (min 10 x) ≤ y + d := max_le (by linarith) ((min_le_right _ _).trans (by linarith))
    linarith

theorem slog_firm {o : F32.Oracle} (hl : o.Log10Accurate (2 ^ (-22 : ℤ))) (hp : o.PowAccurate (2 ^ (-22 : ℤ))) {N n : ℕ} (hN : 0 < N)
    (hN' : N ≤ 2047) (hn : n ≤ N) (h : 0.03003 * (N : ℚ) ≤ n) :
    Firm (Mixed.Y_to_SLog o) (@SLog_to_Y F32 (F32.libm o)) N 6.7 1.97e-4 n := by
  obtain ⟨c, c0, c1⟩ := code_ap hN (hN'.trans (by norm_num)) hn
  have g := code_ge hN (hN'.trans (by norm_num)) hn h
  have g' : (0.030026 : ℝ) ≤ (Arith.ofInt n / Arith.ofInt N : F32).val := by
    refine le_trans ?_ g; push_cast; norm_num
  obtain ⟨f, d⟩ := C96_slog_decode hp _ c.fin (by exact_mod_cast c0) (le_trans (by exact_mod_cast c1) (by norm_num : (1 : ℚ) ≤ 3 / 2))
  obtain ⟨s0, s1, s2⟩ := slogInv_bounds g' c1
  refine ⟨c, f, ?_, ?_⟩
  · have : |((@SLog_to_Y F32 (F32.libm o) (Arith.ofInt n / Arith.ofInt N)).val : ℝ)| ≤ 6.7 := by
      obtain ⟨a, b⟩ := abs_le.1 d
      rw [abs_le]; constructor <;> linarith
    have : ((|(@SLog_to_Y F32 (F32.libm o) (Arith.ofInt n / Arith.ofInt N)).val| : ℚ) : ℝ) ≤ ((6.7 : ℚ) : ℝ) := by
      push_cast; norm_num at this ⊢; exact this
    exact_mod_cast this
  · intro x hx hd
    obtain ⟨e, r⟩ := C96_slog_encode hl x hx
    refine ⟨e, ?_⟩
    have hd' : |(x.val : ℝ) - (@SLog_to_Y F32 (F32.libm o) (Arith.ofInt n / Arith.ofInt N)).val| ≤ 2.681e-5 := by
      have : |x.val - (@SLog_to_Y F32 (F32.libm o) (Arith.ofInt n / Arith.ofInt N)).val| ≤ 2.681e-5 := hd.trans (by norm_num)
      have := (Rat.cast_le (K := ℝ)).2 this
      push_cast at this
      norm_num at this ⊢; exact this
    generalize ((@SLog_to_Y F32 (F32.libm o) (Arith.ofInt n / Arith.ofInt N)).val : ℝ) = Y at *
    have m := clamp_close (x := (x.val : ℝ)) (d := 3.9e-5) s0 (by linarith)
      ((abs_sub_le _ Y _).trans ((add_le_add hd' d).trans (by linarith)))
    have l := slog_lip (x := max 0 (min 10 (x.val : ℝ))) (le_max_left _ _) s0
    rw [s2] at l
    have := abs_sub_le ((Mixed.Y_to_SLog o x).val : ℝ) (slog (max 0 (min 10 (x.val : ℝ)))) (Arith.ofInt n / Arith.ofInt N : F32).val
    linarith

/-! ## S-Log2 -/

theorem slog2_hi {x : ℝ} (h : 0 ≤ x) :
    slog2 x = (64 + 876 * (0.432699 * Real.logb 10 (155 * x / 219 + 0.037584) + 0.616596 + 0.03)) / 1024 := by
  rw [slog2_eq, if_neg (not_lt.2 h)]; ring
theorem slog2_lo {x : ℝ} (h : x < 0) : slog2 x = (64 + 876 * (x * 3.53881278538813 + 0.030001222851889303)) / 1024 := by
  rw [slog2_eq, if_pos h]; ring

theorem slog2_step {x y : ℝ} (x0 : 0 ≤ x) (h : x ≤ y) :
    0 ≤ slog2 y - slog2 x ∧ slog2 y - slog2 x ≤ 0.161 * ((155 * y / 219 - 155 * x / 219) / (155 * x / 219 + 0.037584)) := by
  obtain ⟨a, b⟩ := logb_step (a := 155 * x / 219 + 0.037584) (b := 155 * y / 219 + 0.037584) (by positivity) (by linarith)
  rw [slog2_hi x0, slog2_hi (x0.trans h)]
  rw [show 155 * y / 219 + 0.037584 - (155 * x / 219 + 0.037584) = 155 * y / 219 - 155 * x / 219 by ring] at b
  have : 0 ≤ (155 * y / 219 - 155 * x / 219) / (155 * x / 219 + 0.037584) := div_nonneg (by linarith) (by positivity)
  generalize (155 * y / 219 - 155 * x / 219) / (155 * x / 219 + 0.037584) = q at *
  constructor <;> linarith

theorem slog2_up {x y : ℝ} (x0 : 0 ≤ x) (h : x ≤ y) : 0 ≤ slog2 y - slog2 x ∧ slog2 y - slog2 x ≤ 3.04 * (y - x) := by
  obtain ⟨a, b⟩ := slog2_step x0 h
  refine ⟨a, b.trans ?_⟩
  have c : (155 * y / 219 - 155 * x / 219) / (155 * x / 219 + 0.037584) ≤ (155 * y / 219 - 155 * x / 219) / 0.037584 :=
    div_le_div_of_nonneg_left (by linarith) (by norm_num) (by linarith)
  have d : (155 * y / 219 - 155 * x / 219) / 0.037584 ≤ 18.832 * (y - x) := by rw [div_le_iff₀ (by norm_num)]; linarith
  linarith

theorem slog2_zero : 0.08816 ≤ slog2 0 ∧ slog2 0 ≤ 0.08819 := by
  obtain ⟨a, b⟩ := logb_off
  rw [slog2_hi le_rfl, mul_zero, zero_div, zero_add]
  constructor <;> linarith

/-- The published S-Log2 curve, from a light that is not negative. -/
theorem slog2_lip {x y : ℝ} (y0 : 0 ≤ y) : |slog2 x - slog2 y| ≤ 3.04 * |x - y| + 2.3e-5 := by
  rcases lt_or_ge x 0 with x0 | x0
  · obtain ⟨a, b⟩ := slog2_up le_rfl y0
    obtain ⟨c, d⟩ := logb_off
    have z := slog2_hi (x := 0) le_rfl
    rw [mul_zero, zero_div, zero_add] at z
    rw [abs_of_neg (a := x - y) (by linarith), slog2_lo x0, abs_le]
    constructor <;> linarith
  · rcases le_total x y with h | h
    · obtain ⟨a, b⟩ := slog2_up x0 h
      rw [abs_sub_comm, abs_of_nonneg a, abs_sub_comm x y, abs_of_nonneg (by linarith)]; linarith
    · obtain ⟨a, b⟩ := slog2_up y0 h
      rw [abs_of_nonneg a, abs_of_nonneg (by linarith)]; linarith

/-- … and for a relative change of the offset light. -/
theorem slog2_rel {x y : ℝ} (x0 : 0 ≤ x) (y0 : 0 ≤ y) (h : |x - y| ≤ 5.4e-6 * (y + 0.054)) : |slog2 x - slog2 y| ≤ 1e-6 := by
  obtain ⟨h1, h2⟩ := abs_le.1 h
  have key : ∀ {u w : ℝ}, 0 ≤ u → u ≤ w → w - u ≤ 5.5e-6 * (u + 0.054) → |slog2 w - slog2 u| ≤ 1e-6 := by
    intro u w u0 uw d
    obtain ⟨a, b⟩ := slog2_step u0 uw
    have c : (155 * w / 219 - 155 * u / 219) / (155 * u / 219 + 0.037584) ≤ 6e-6 := by
      rw [div_le_iff₀ (by positivity)]; linarith
    rw [abs_of_nonneg a]; linarith
  rcases le_total x y with c | c
  · rw [abs_sub_comm]; exact key x0 c (by linarith)
  · exact key y0 c (by linarith)

theorem slog2Inv_bounds {v : ℝ} (h0 : 0.08819 ≤ v) (h1 : v ≤ 1) : 0 ≤ slog2Inv v ∧ slog2Inv v ≤ 15.5 ∧ slog2 (slog2Inv v) = v := by
  have hy : 0.030026 ≤ (1024 * v - 64) / 876 := by rw [le_div_iff₀ (by norm_num)]; linarith
  have hy1 : (1024 * v - 64) / 876 ≤ 1.096 := by rw [div_le_iff₀ (by norm_num)]; linarith
  have e : slog2Inv v = 219 * ((10 : ℝ) ^ (((1024 * v - 64) / 876 - 0.616596 - 0.03) / 0.432699) - 0.037584) / 155 := by
    rw [slog2Inv_eq, if_pos (by linarith)]; rfl
  have a := ten_pow hy
  have p0 : 0 ≤ slog2Inv v := by rw [e]; linarith
  have ev : 0.432699 * (((1024 * v - 64) / 876 - 0.616596 - 0.03) / 0.432699) + 0.616596 + 0.03 = (1024 * v - 64) / 876 := by ring
  have hs : ((1024 * v - 64) / 876 - 0.616596 - 0.03) / 0.432699 ≤ 1.04 := by rw [div_le_iff₀ (by norm_num)]; linarith
  generalize ((1024 * v - 64) / 876 - 0.616596 - 0.03) / 0.432699 = s at *
  refine ⟨p0, ?_, ?_⟩
  · have t := rpow_le_of_pow (x := 10) (r := 10.97) (p := 26) (q := 25) (by norm_num) (by norm_num) (by norm_num) (by norm_num)
    have b : (10 : ℝ) ^ s ≤ 10 ^ (((26 : ℕ) : ℝ) / (25 : ℕ)) := by
      refine Real.rpow_le_rpow_of_exponent_le (by norm_num) (hs.trans ?_)
      norm_num
    rw [e]
    linarith
  · rw [slog2_hi p0, e, show 155 * (219 * ((10 : ℝ) ^ s - 0.037584) / 155) / 219 + 0.037584 = (10 : ℝ) ^ s by ring,
      Real.logb_rpow (by norm_num) (by norm_num), ev]
    ring

/-- The S-Log2 decoder never yields a negative light. -/
theorem slog2_dec_nonneg (o : F32.Oracle) {v : F32} (h : (@SLog2_to_Y F32 (F32.libm o) v).isFinite = true) :
    0 ≤ (@SLog2_to_Y F32 (F32.libm o) v).val := by
  let _ := F32.libm o
  have z : (Arith.lit 0 : F32).isFinite = true ∧ (Arith.lit 0 : F32).val = 0 := by decide +kernel
  have key : ∀ y : F32, (if Arith.lt (Arith.lit 0) y then y else Arith.lit 0 : F32).isFinite = true →
      0 ≤ (if Arith.lt (Arith.lit 0) y then y else Arith.lit 0 : F32).val := by
    intro y
    by_cases c : Arith.lt (Arith.lit 0) y = true
    · rw [if_pos c]
      intro hf
      rw [alt_def, lt_finite z.1 hf, z.2] at c
      exact (of_decide_eq_true c).le
    · rw [if_neg c]
      intro _
      rw [z.2]
  exact key _ h

theorem slog2_firm {o : F32.Oracle} (hl : o.Log10Accurate (2 ^ (-22 : ℤ))) (hp : o.PowAccurate (2 ^ (-22 : ℤ))) {N n : ℕ} (hN : 0 < N)
    (hN' : N ≤ 2047) (hn : n ≤ N) (h : 0.0882 * (N : ℚ) ≤ n) :
    Firm (@Y_to_SLog2 F32 (F32.libm o)) (@SLog2_to_Y F32 (F32.libm o)) N 15.6 2.2e-4 n := by
  obtain ⟨c, c0, c1⟩ := code_ap hN (hN'.trans (by norm_num)) hn
  have g := code_ge hN (hN'.trans (by norm_num)) hn h
  have g' : (0.08819 : ℝ) ≤ (Arith.ofInt n / Arith.ofInt N : F32).val := by
    refine le_trans ?_ g; push_cast; norm_num
  obtain ⟨f, d⟩ := C96_slog2_decode hp _ c.fin (by exact_mod_cast c0) (le_trans (by exact_mod_cast c1) (by norm_num : (1 : ℚ) ≤ 13 / 10))
  obtain ⟨s0, s1, s2⟩ := slog2Inv_bounds g' c1
  have n0 := slog2_dec_nonneg o f
  have n0' : (0 : ℝ) ≤ (@SLog2_to_Y F32 (F32.libm o) (Arith.ofInt n / Arith.ofInt N)).val := by exact_mod_cast n0
  rw [max_eq_right s0] at d
  have b : |((@SLog2_to_Y F32 (F32.libm o) (Arith.ofInt n / Arith.ofInt N)).val : ℝ)| ≤ 15.6 := by
    obtain ⟨a, b⟩ := abs_le.1 d
    rw [abs_le]; constructor <;> linarith
  refine ⟨c, f, ?_, ?_⟩
  · have : ((|(@SLog2_to_Y F32 (F32.libm o) (Arith.ofInt n / Arith.ofInt N)).val| : ℚ) : ℝ) ≤ ((15.6 : ℚ) : ℝ) := by
      push_cast; norm_num at b ⊢; exact b
    exact_mod_cast this
  · intro x hx hd
    have hd' : |(x.val : ℝ) - (@SLog2_to_Y F32 (F32.libm o) (Arith.ofInt n / Arith.ofInt N)).val| ≤ 6.241e-5 := by
      have : |x.val - (@SLog2_to_Y F32 (F32.libm o) (Arith.ofInt n / Arith.ofInt N)).val| ≤ 6.241e-5 := hd.trans (by norm_num)
      have := (Rat.cast_le (K := ℝ)).2 this
      push_cast at this
      norm_num at this ⊢; exact this
    generalize ((@SLog2_to_Y F32 (F32.libm o) (Arith.ofInt n / Arith.ofInt N)).val : ℝ) = Y at *
    obtain ⟨b1, b2⟩ := abs_le.1 b
    obtain ⟨e1, e2⟩ := abs_le.1 hd'
    have x0 : -1 ≤ x.val := by
      have : ((-1 : ℚ) : ℝ) ≤ x.val := by push_cast; linarith
      exact_mod_cast this
    have x1 : x.val ≤ 100 := by
      have : (x.val : ℝ) ≤ ((100 : ℚ) : ℝ) := by push_cast; linarith
      exact_mod_cast this
    obtain ⟨e, r⟩ := C96_slog2_encode hl x hx x0 x1
    refine ⟨e, ?_⟩
    have l := slog2_lip (x := (x.val : ℝ)) n0'
    have q := slog2_rel n0' s0 d
    rw [s2] at q
    have t1 := abs_sub_le ((@Y_to_SLog2 F32 (F32.libm o) x).val : ℝ) (slog2 x.val) (Arith.ofInt n / Arith.ofInt N : F32).val
    have t2 := abs_sub_le (slog2 x.val) (slog2 Y) (Arith.ofInt n / Arith.ofInt N : F32).val
    linarith

/-- `toScreen` for S-Log in the header's own precisions: each channel by `Mixed.Y_to_SLog`. -/
def slogScreen (o : F32.Oracle) (t : Tristimulus F32) : Tristimulus F32 :=
  ⟨Mixed.Y_to_SLog o t.a, Mixed.Y_to_SLog o t.b, Mixed.Y_to_SLog o t.c⟩

end SLogImg

open SLogImg

/-- C138: S-Log footage of up to 11 bits per channel, no code below black, decoded, taken to XYZ by any predefined gamut and back, and
encoded again, has the codes it had, however different its channels are. -/
theorem C138_slog_xyz (o : F32.Oracle) (hl : o.Log10Accurate (2 ^ (-22 : ℤ))) (hp : o.PowAccurate (2 ^ (-22 : ℤ))) (x : F32)
    (g : Gamut F32) (hg : g ∈ predefinedF32) (N i j k : ℕ) (hN : 0 < N) (hN' : N ≤ 2047) (hi : i ≤ N) (hj : j ≤ N) (hk : k ≤ N)
    (bi : 0.03003 * (N : ℚ) ≤ i) (bj : 0.03003 * (N : ℚ) ≤ j) (bk : 0.03003 * (N : ℚ) ≤ k) :
    letI := F32.libm o
    HasCodes N i j k (slogScreen o (g.fromXYZ (g.toXYZ (toScene .SLOG (pixel N i j k) x)))) := by
  have N' : (N : ℝ) ≤ 2047 := by exact_mod_cast hN'
  exact firm_trip hN (by norm_num) (by linarith) (slog_firm hl hp hN hN' hi bi) (slog_firm hl hp hN hN' hj bj)
    (slog_firm hl hp hN hN' hk bk) (xyz_gentle hg) rfl rfl

/-- C138: … converted to another RGB space and back, … -/
theorem C138_slog_convert (o : F32.Oracle) (hl : o.Log10Accurate (2 ^ (-22 : ℤ))) (hp : o.PowAccurate (2 ^ (-22 : ℤ))) (x : F32)
    (a b : Gamut F32) (ha : a ∈ rgbF32) (hb : b ∈ rgbF32) (N i j k : ℕ) (hN : 0 < N) (hN' : N ≤ 2047) (hi : i ≤ N) (hj : j ≤ N) (hk : k ≤ N)
    (bi : 0.03003 * (N : ℚ) ≤ i) (bj : 0.03003 * (N : ℚ) ≤ j) (bk : 0.03003 * (N : ℚ) ≤ k) :
    letI := F32.libm o
    HasCodes N i j k (slogScreen o (((toScene .SLOG (pixel N i j k) x).apply (GamutConvert a b)).apply (GamutConvert b a))) := by
  have N' : (N : ℝ) ≤ 2047 := by exact_mod_cast hN'
  exact firm_trip hN (by norm_num) (by linarith) (slog_firm hl hp hN hN' hi bi) (slog_firm hl hp hN hN' hj bj)
    (slog_firm hl hp hN hN' hk bk) (convert_gentle ha hb) rfl rfl

/-- C138: the same of S-Log2. -/
theorem C138_slog2_xyz (o : F32.Oracle) (hl : o.Log10Accurate (2 ^ (-22 : ℤ))) (hp : o.PowAccurate (2 ^ (-22 : ℤ))) (x : F32)
    (g : Gamut F32) (hg : g ∈ predefinedF32) (N i j k : ℕ) (hN : 0 < N) (hN' : N ≤ 2047) (hi : i ≤ N) (hj : j ≤ N) (hk : k ≤ N)
    (bi : 0.0882 * (N : ℚ) ≤ i) (bj : 0.0882 * (N : ℚ) ≤ j) (bk : 0.0882 * (N : ℚ) ≤ k) :
    letI := F32.libm o
    HasCodes N i j k (toScreen .SLOG2 (g.fromXYZ (g.toXYZ (toScene .SLOG2 (pixel N i j k) x))) x) := by
  have N' : (N : ℝ) ≤ 2047 := by exact_mod_cast hN'
  exact firm_trip hN (by norm_num) (by linarith) (slog2_firm hl hp hN hN' hi bi) (slog2_firm hl hp hN hN' hj bj)
    (slog2_firm hl hp hN hN' hk bk) (xyz_gentle hg) rfl rfl

/-- C138: the same of S-Log2 and another RGB space. -/
theorem C138_slog2_convert (o : F32.Oracle) (hl : o.Log10Accurate (2 ^ (-22 : ℤ))) (hp : o.PowAccurate (2 ^ (-22 : ℤ))) (x : F32)
    (a b : Gamut F32) (ha : a ∈ rgbF32) (hb : b ∈ rgbF32) (N i j k : ℕ) (hN : 0 < N) (hN' : N ≤ 2047) (hi : i ≤ N) (hj : j ≤ N) (hk : k ≤ N)
    (bi : 0.0882 * (N : ℚ) ≤ i) (bj : 0.0882 * (N : ℚ) ≤ j) (bk : 0.0882 * (N : ℚ) ≤ k) :
    letI := F32.libm o
    HasCodes N i j k (toScreen .SLOG2 (((toScene .SLOG2 (pixel N i j k) x).apply (GamutConvert a b)).apply (GamutConvert b a)) x) := by
  have N' : (N : ℝ) ≤ 2047 := by exact_mod_cast hN'
  exact firm_trip hN (by norm_num) (by linarith) (slog2_firm hl hp hN hN' hi bi) (slog2_firm hl hp hN hN' hj bj)
    (slog2_firm hl hp hN hN' hk bk) (convert_gentle ha hb) rfl rfl

/-- C138: codes below black are lost.  The S-Log encoder emits nothing below 0.02999, though the decoder accepts it. -/
theorem C138_slog_black (o : F32.Oracle) (hl : o.Log10Accurate (2 ^ (-22 : ℤ))) (y : F32) (hy : y.isFinite = true) :
    0.02999 ≤ (Mixed.Y_to_SLog o y).val := by
  obtain ⟨-, d⟩ := C96_slog_encode hl y hy
  have m := (slog_step le_rfl (le_max_left (0 : ℝ) (min 10 (y.val : ℝ)))).1
  have z := slog_zero.1
  have := (abs_le.1 d).1
  have : ((0.02999 : ℚ) : ℝ) ≤ (Mixed.Y_to_SLog o y).val := by push_cast; norm_num at *; linarith
  exact_mod_cast this

/-- C138: the S-Log2 decoder sends every code below black to black, and the encoder returns black. -/
theorem C138_slog2_black (o : F32.Oracle) (hl : o.Log10Accurate (2 ^ (-22 : ℤ))) (hp : o.PowAccurate (2 ^ (-22 : ℤ))) (v : F32)
    (hv : v.isFinite = true) (h0 : 0 ≤ v.val) (h1 : v.val ≤ 1) : letI := F32.libm o
    0.08815 ≤ (Y_to_SLog2 (SLog2_to_Y v)).val := by
  obtain ⟨f, d⟩ := C96_slog2_decode hp v hv h0 (h1.trans (by norm_num))
  have n0 := slog2_dec_nonneg o f
  have n0' : (0 : ℝ) ≤ (@SLog2_to_Y F32 (F32.libm o) v).val := by exact_mod_cast n0
  have h1' : (v.val : ℝ) ≤ 1 := by exact_mod_cast h1
  have top : max 0 (slog2Inv v.val) ≤ 15.5 := by
    rcases le_or_gt 0.08819 (v.val : ℝ) with c | c
    · obtain ⟨s0, s1, -⟩ := slog2Inv_bounds c h1'
      exact max_le (by norm_num) s1
    · refine max_le (by norm_num) ?_
      have m : slog2Inv 0.08819 ≤ 15.5 := (slog2Inv_bounds le_rfl (by norm_num)).2.1
      rw [slog2Inv_eq] at m ⊢
      rw [if_pos (by norm_num)] at m
      split_ifs with q
      · refine le_trans ?_ m
        unfold slog2H
        gcongr; norm_num
      · rw [div_le_iff₀ (by norm_num)]; linarith
  have u : ((@SLog2_to_Y F32 (F32.libm o) v).val : ℝ) ≤ 100 := by have := (abs_le.1 d).2; linarith
  obtain ⟨-, e⟩ := C96_slog2_encode hl _ f (le_trans (by norm_num) n0) (by exact_mod_cast u)
  have m := (slog2_up le_rfl n0').1
  have z := slog2_zero.1
  have := (abs_le.1 e).1
  have : ((0.08815 : ℚ) : ℝ) ≤ (@Y_to_SLog2 F32 (F32.libm o) (@SLog2_to_Y F32 (F32.libm o) v)).val := by push_cast; norm_num at *; linarith
  exact_mod_cast this

/-- The hypotheses are met: a saturated 10-bit pixel of footage. -/
example : ∃ o : F32.Oracle, o.Log10Accurate (2 ^ (-22 : ℤ)) ∧ o.PowAccurate (2 ^ (-22 : ℤ)) ∧ ∀ x : F32,
    letI := F32.libm o
    HasCodes 1023 91 1023 394 (toScreen .SLOG2 ((S_Gamut : Gamut F32).fromXYZ ((S_Gamut : Gamut F32).toXYZ
      (toScene .SLOG2 (pixel 1023 91 1023 394) x))) x) ∧
    HasCodes 1023 31 1023 394 (slogScreen o ((S_Gamut : Gamut F32).fromXYZ ((S_Gamut : Gamut F32).toXYZ
      (toScene .SLOG (pixel 1023 31 1023 394) x)))) := by
  obtain ⟨o, h1, -, -, h4, -, -⟩ := exists_accurate
  have d : (2 : ℝ) ^ (-23 : ℤ) ≤ 2 ^ (-22 : ℤ) := zpow_le_zpow_right₀ (by norm_num) (by norm_num)
  have hl : o.Log10Accurate (2 ^ (-22 : ℤ)) := fun x hx h0 => ⟨(h4 x hx h0).1, (h4 x hx h0).2.trans (by gcongr)⟩
  have hp : o.PowAccurate (2 ^ (-22 : ℤ)) := fun x y hx hy h0 ha hb => ⟨(h1 x y hx hy h0 ha hb).1, (h1 x y hx hy h0 ha hb).2.trans (by gcongr)⟩
  have hg : (S_Gamut : Gamut F32) ∈ predefinedF32 := by simp [predefinedF32]
  refine ⟨o, hl, hp, fun x => ⟨C138_slog2_xyz o hl hp x _ hg 1023 91 1023 394 ?_ ?_ ?_ ?_ ?_ ?_ ?_ ?_,
    C138_slog_xyz o hl hp x _ hg 1023 31 1023 394 ?_ ?_ ?_ ?_ ?_ ?_ ?_ ?_⟩⟩ <;> norm_num

end CS
