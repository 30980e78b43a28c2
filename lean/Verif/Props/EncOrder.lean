import Verif.Props.Order
import Verif.Props.ICtCpFloat

/-!
# C146: encoding keeps amounts of light in order, as executed

How far apart two amounts of light have to be so that the encoders, in the precision of the code, give the larger one the
larger signal, whatever library within its error bound is used.
-/

namespace CS.EncOrder
open F32 B32 OTF Spec CS.Order

/-- A root grows on the unit interval at least as fast as at 1. -/
theorem rpow_gap {x y p : ℝ} (hx : 0 ≤ x) (h : x ≤ y) (hy : y ≤ 1) (p0 : 0 < p) (p1 : p ≤ 1) : p * (y - x) ≤ y ^ p - x ^ p := by
  rcases eq_or_lt_of_le (hx.trans h) with y0 | y0
  · have : x = 0 := by linarith
    rw [← y0, this]; simp
  have Y0 := Real.rpow_pos_of_pos y0 p
  have Y1 : y ^ p ≤ 1 := Real.rpow_le_one y0.le hy p0.le
  have XY : x ^ p ≤ y ^ p := Real.rpow_le_rpow hx h p0.le
  have X0 := Real.rpow_nonneg hx p
  have ex : (x ^ p) ^ (1 / p) = x := by rw [← Real.rpow_mul hx, mul_one_div_cancel p0.ne', Real.rpow_one]
  have ey : (y ^ p) ^ (1 / p) = y := by rw [← Real.rpow_mul y0.le, mul_one_div_cancel p0.ne', Real.rpow_one]
  have q1 : 1 ≤ 1 / p := by rw [le_div_iff₀ p0]; linarith
  generalize x ^ p = X at *
  generalize y ^ p = Y at *
  have b := one_add_mul_self_le_rpow_one_add (s := (X - Y) / Y) (p := 1 / p) (by rw [le_div_iff₀ Y0]; linarith) q1
  have e : 1 + (X - Y) / Y = X / Y := by field_simp; ring
  rw [e, Real.div_rpow X0 Y0.le, ex, ey, le_div_iff₀ y0] at b
  have c : y ≤ Y := by
    rw [← ey]
    calc Y ^ (1 / p) ≤ Y ^ (1 : ℝ) := Real.rpow_le_rpow_of_exponent_ge Y0 Y1 q1
      _ = Y := Real.rpow_one Y
  -- y - x ≤ (1/p) ((Y - X) / Y) y ≤ (1/p) (Y - X)
  have d : (1 + 1 / p * ((X - Y) / Y)) * y = y - 1 / p * ((Y - X) * (y / Y)) := by field_simp; ring
  rw [d] at b
  have f : (Y - X) * (y / Y) ≤ Y - X := mul_le_of_le_one_right (by linarith) (by rw [div_le_one Y0]; exact c)
  have g : y - x ≤ 1 / p * (Y - X) := by
    have := mul_le_mul_of_nonneg_left f (show 0 ≤ 1 / p by positivity)
    linarith
  calc p * (y - x) ≤ p * (1 / p * (Y - X)) := mul_le_mul_of_nonneg_left g p0.le
    _ = Y - X := by field_simp

/-- The logarithm between two amounts. -/
theorem log_gap {a b : ℝ} (ha : 0 < a) (h : a ≤ b) : (b - a) / b ≤ Real.log b - Real.log a := by
  have b0 : 0 < b := by linarith
  rw [← Real.log_div b0.ne' ha.ne']
  have := Real.one_sub_inv_le_log_of_pos (div_pos b0 ha)
  rw [inv_div] at this
  rwa [sub_div, div_self b0.ne']

/-- C146, sRGB: amounts of light at least 4e-6 apart are encoded in order. -/
theorem C146_srgb (o : Oracle) (ho : o.PowAccurate (2 ^ (-22 : ℤ))) (x y : F32) (hx : x.isFinite = true) (hy : y.isFinite = true)
    (x0 : (0 : ℝ) ≤ x.val) (y1 : (y.val : ℝ) ≤ 1) (h : (x.val : ℝ) + 4e-6 ≤ y.val) :
    ((@Y_to_sRGB F32 (libm o) x).val : ℝ) < (@Y_to_sRGB F32 (libm o) y).val := by
  have a := C83_encode o ho x hx
  have b := C83_encode o ho y hy
  rw [clampTo_of_mem ⟨x0, by linarith⟩] at a
  rw [clampTo_of_mem ⟨by linarith, y1⟩] at b
  have a1 := (abs_le.1 a.err).2
  have b1 := (abs_le.1 b.err).1
  have g : srgb x.val + 1.6e-6 ≤ srgb y.val := by
    clear a b a1 b1
    generalize (x.val : ℝ) = x at *
    generalize (y.val : ℝ) = y at *
    unfold srgb
    split_ifs with h1 h2 h2
    · linarith
    · have := rpow_gap (x := 0.0031308) (y := y) (p := 1 / 2.4) (by norm_num) (not_lt.1 h2) y1 (by norm_num) (by norm_num)
      have k := srgb_mono_high (x := 0.0031308) le_rfl
      norm_num at this k ⊢
      linarith
    · linarith
    · have := rpow_gap (x := x) (y := y) (p := 1 / 2.4) x0 (by linarith) y1 (by norm_num) (by norm_num)
      norm_num at this ⊢
      linarith
  linarith

/-- C146, BT.709: amounts of light at least 3e-6 apart are encoded in order. -/
theorem C146_bt709 (o : Oracle) (ho : o.PowAccurate (2 ^ (-22 : ℤ))) (x y : F32) (hx : x.isFinite = true) (hy : y.isFinite = true)
    (x0 : (0 : ℝ) ≤ x.val) (y1 : (y.val : ℝ) ≤ 1) (h : (x.val : ℝ) + 3e-6 ≤ y.val) :
    ((@Y_to_BT709 F32 (libm o) x).val : ℝ) < (@Y_to_BT709 F32 (libm o) y).val := by
  by_cases hk : x = Arith.lit 0.018
  · have hv : (Arith.lit 0.018 : F32).val = 2415919/134217728 := by decide +kernel
    obtain ⟨-, s2⟩ := bt709_enc_segments o ho (Arith.lit 0.018) (by decide +kernel) (by decide +kernel) (by decide +kernel)
    have a1 := (abs_le.1 (s2 (by rw [hv])).err).2
    rw [← hk] at a1 hv
    have hv' : (x.val : ℝ) = 2415919/134217728 := by rw [hv]; push_cast; ring
    have y0 : (0.018 : ℝ) ≤ y.val := by rw [hv'] at h; norm_num at h ⊢; linarith
    have k : y ≠ Arith.lit 0.018 := by
      rintro k
      rw [k, ← hk] at h
      linarith
    have b := C84_encode o ho y hy k
    rw [clampTo_of_mem ⟨by linarith, y1⟩, bt709, if_neg (by linarith)] at b
    have b1 := (abs_le.1 b.err).1
    have g := rpow_gap (x := (x.val : ℝ)) (y := y.val) (p := 0.45) x0 (by linarith) y1 (by norm_num) (by norm_num)
    linarith
  have a := C84_encode o ho x hx hk
  rw [clampTo_of_mem ⟨x0, by linarith⟩] at a
  have a1 := (abs_le.1 a.err).2
  have g : bt709 x.val + 1.3e-6 ≤ bt709 y.val := by
    clear a a1
    generalize (x.val : ℝ) = x at *
    generalize (y.val : ℝ) = y at *
    unfold bt709
    split_ifs with h1 h2 h2
    · linarith
    · have := rpow_gap (x := 0.018) (y := y) (p := 0.45) (by norm_num) (not_lt.1 h2) y1 (by norm_num) (by norm_num)
      have k := bt709_knee
      linarith
    · linarith
    · have := rpow_gap (x := x) (y := y) (p := 0.45) x0 (by linarith) y1 (by norm_num) (by norm_num)
      linarith
  by_cases k : y = Arith.lit 0.018
  · have := C84_encode_knee o ho
    rw [← k] at this
    linarith
  · have b := C84_encode o ho y hy k
    rw [clampTo_of_mem ⟨by linarith, y1⟩] at b
    have b1 := (abs_le.1 b.err).1
    linarith

/-- C146, HLG: amounts of light up to 12 whose distance is at least 6e-6 of one plus the larger are encoded in order. -/
theorem C146_hlg (o : Oracle) (hs : o.SqrtAccurate (2 ^ (-23 : ℤ))) (hl : o.LogAccurate (2 ^ (-22 : ℤ))) (x y : F32)
    (hx : x.isFinite = true) (hy : y.isFinite = true) (x0 : (0 : ℝ) ≤ x.val) (y1 : (y.val : ℝ) ≤ 12)
    (h : (x.val : ℝ) + 6e-6 * (1 + y.val) ≤ y.val) :
    ((@Y_to_HLG F32 (libm o) x).val : ℝ) < (@Y_to_HLG F32 (libm o) y).val := by
  have y0 : (0 : ℝ) ≤ y.val := by
    rcases le_total (0 : ℝ) y.val with k | k
    · exact k
    · linarith
  have q60 : ∀ u : F32, (u.val : ℝ) ≤ 12 → u.val ≤ 2 ^ 60 := by
    intro u hu
    have : u.val ≤ 12 := by exact_mod_cast hu
    exact this.trans (by norm_num)
  obtain ⟨-, a⟩ := C90_encode o hs hl x hx (by exact_mod_cast x0) (q60 x (by linarith))
  obtain ⟨-, b⟩ := C90_encode o hs hl y hy (by exact_mod_cast y0) (q60 y y1)
  have a1 := (abs_le.1 a).2
  have b1 := (abs_le.1 b).1
  clear a b
  generalize ((@Y_to_HLG F32 (libm o) x).val : ℝ) = X at *
  generalize ((@Y_to_HLG F32 (libm o) y).val : ℝ) = Y at *
  generalize (x.val : ℝ) = x at *
  generalize (y.val : ℝ) = y at *
  have tiny : (1 : ℝ) / 2 ^ 149 ≤ 1e-20 := by norm_num
  generalize (1 : ℝ) / 2 ^ 149 = t at *
  have root : ∀ {u v : ℝ}, 0 ≤ u → u ≤ v → v ≤ 1 → √u + (v - u) / 2 ≤ √v := by
    intro u v u0 uv v1
    have := rpow_gap u0 uv v1 (p := 1 / 2) (by norm_num) (by norm_num)
    rw [← Real.sqrt_eq_rpow, ← Real.sqrt_eq_rpow] at this
    linarith
  have r1 : ∀ {u : ℝ}, u ≤ 1 → √u ≤ 1 := fun hu => by rw [Real.sqrt_le_left (by norm_num)]; simpa using hu
  have top : ∀ {u : ℝ}, 1 ≤ u → u ≤ 12 → 0.17883277 * Real.log (u - 0.28466892) + 0.55991073 ≤ 1.017 := by
    intro u u1 u2
    have l8 : Real.log 8 ≤ 2.08 := by
      rw [show (8 : ℝ) = 2 ^ 3 by norm_num, Real.log_pow]
      have := Real.log_two_lt_d9
      push_cast; linarith
    have e : Real.log (u - 0.28466892) = Real.log 8 + Real.log ((u - 0.28466892) / 8) := by
      rw [← Real.log_mul (by norm_num) (by apply ne_of_gt; apply div_pos <;> linarith)]; congr 1; ring
    have := Real.log_le_sub_one_of_pos (show 0 < (u - 0.28466892) / 8 by apply div_pos <;> linarith)
    rw [e]
    linarith
  have lg : ∀ {u v : ℝ}, 1 ≤ u → u ≤ v → 0.17883277 * Real.log (u - 0.28466892) + 0.17883277 * ((v - u) / v) ≤ 0.17883277 * Real.log (v - 0.28466892) := by
    intro u v u1 uv
    have g := log_gap (a := u - 0.28466892) (b := v - 0.28466892) (by linarith) (by linarith)
    have c : (v - u) / v ≤ (v - 0.28466892 - (u - 0.28466892)) / (v - 0.28466892) := by
      rw [show v - 0.28466892 - (u - 0.28466892) = v - u by ring]
      exact div_le_div_of_nonneg_left (by linarith) (by linarith) (by linarith)
    linarith
  unfold hlg at a1 b1
  split_ifs at a1 b1 with h1 h2 h2
  · have := root x0 (by linarith) h2.le
    have := r1 h1.le
    have := r1 h2.le
    linarith
  · have h2 := not_lt.1 h2
    have k := hlg_knee
    have g := lg le_rfl h2
    have r := root x0 h1.le le_rfl
    rw [Real.sqrt_one] at r
    have u := top h2 y1
    have s := r1 h1.le
    have y0' : 0 < y := by linarith
    have e : 6e-6 ≤ (1 - x) + (y - 1) / y := by
      have e1 : (1 - x) / y ≤ 1 - x := div_le_self (by linarith) h2
      have e2 : (1 - x) / y + (y - 1) / y = (y - x) / y := by rw [← add_div]; congr 1; ring
      have e3 : 6e-6 ≤ (y - x) / y := by rw [le_div_iff₀ y0']; linarith
      linarith
    generalize (y - 1) / y = z at *
    linarith
  · linarith
  · have h1 := not_lt.1 h1
    have g := lg h1 (show x ≤ y by linarith)
    have u := top h1 (by linarith)
    have v := top (not_lt.1 h2) y1
    have y0' : 0 < y := by linarith
    have e3 : 6e-6 ≤ (y - x) / y := by rw [le_div_iff₀ y0']; linarith
    generalize (y - x) / y = z at *
    linarith

/-- C146, S-Log: amounts of light up to 10 whose distance is at least 4.5e-6 of the larger plus 0.037584 are encoded in order. -/
theorem C146_slog (o : Oracle) (ho : o.Log10Accurate (2 ^ (-22 : ℤ))) (x y : F32) (hx : x.isFinite = true) (hy : y.isFinite = true)
    (x0 : (0 : ℝ) ≤ x.val) (y1 : (y.val : ℝ) ≤ 10) (h : (x.val : ℝ) + 4.5e-6 * (y.val + 0.037584) ≤ y.val) :
    ((Mixed.Y_to_SLog o x).val : ℝ) < (Mixed.Y_to_SLog o y).val := by
  have xy : (x.val : ℝ) ≤ y.val := by
    by_contra hc
    linarith
  obtain ⟨-, a⟩ := C96_slog_encode ho x hx
  obtain ⟨-, b⟩ := C96_slog_encode ho y hy
  rw [min_eq_right (by linarith), max_eq_right x0] at a
  rw [min_eq_right y1, max_eq_right (by linarith)] at b
  have a1 := (abs_le.1 a).2
  have b1 := (abs_le.1 b).1
  clear a b
  generalize (x.val : ℝ) = x at *
  generalize (y.val : ℝ) = y at *
  have g := log_gap (a := x + 0.037584) (b := y + 0.037584) (by linarith) (by linarith)
  have s : 4.5e-6 ≤ (y + 0.037584 - (x + 0.037584)) / (y + 0.037584) := by rw [le_div_iff₀ (by linarith)]; linarith
  have l0 := log_ten_gt
  have l1 := log_ten_lt
  have d : 1.928e-6 ≤ Real.logb 10 (y + 0.037584) - Real.logb 10 (x + 0.037584) := by
    rw [Real.logb, Real.logb, ← sub_div, le_div_iff₀ (by linarith)]
    linarith
  unfold slog at a1 b1
  linarith

/-- C146, S-Log2: the same for amounts of light up to 100 whose distance is at least 1.1e-5 of the larger plus 0.0532. -/
theorem C146_slog2 (o : Oracle) (ho : o.Log10Accurate (2 ^ (-22 : ℤ))) (x y : F32) (hx : x.isFinite = true) (hy : y.isFinite = true)
    (x0 : (0 : ℝ) ≤ x.val) (y1 : (y.val : ℝ) ≤ 100) (h : (x.val : ℝ) + 1.1e-5 * (y.val + 0.0532) ≤ y.val) :
    ((@Y_to_SLog2 F32 (libm o) x).val : ℝ) < (@Y_to_SLog2 F32 (libm o) y).val := by
  have xy : (x.val : ℝ) ≤ y.val := by
    by_contra hc
    linarith
  have xq : 0 ≤ x.val := by exact_mod_cast x0
  have yq : 0 ≤ y.val := by exact_mod_cast x0.trans xy
  have xq' : x.val ≤ 100 := by exact_mod_cast xy.trans y1
  have yq' : y.val ≤ 100 := by exact_mod_cast y1
  obtain ⟨-, a⟩ := C96_slog2_encode ho x hx (by linarith) xq'
  obtain ⟨-, b⟩ := C96_slog2_encode ho y hy (by linarith) yq'
  have a1 := (abs_le.1 a).2
  have b1 := (abs_le.1 b).1
  clear a b xq yq xq' yq'
  generalize (x.val : ℝ) = x at *
  generalize (y.val : ℝ) = y at *
  have g := log_gap (a := 155 * x / 219 + 0.037584) (b := 155 * y / 219 + 0.037584) (by linarith) (by linarith)
  have s : 1.1e-5 ≤ (155 * y / 219 + 0.037584 - (155 * x / 219 + 0.037584)) / (155 * y / 219 + 0.037584) := by
    rw [le_div_iff₀ (by linarith)]; linarith
  have l0 := log_ten_gt
  have l1 := log_ten_lt
  have d : 4.714e-6 ≤ Real.logb 10 (155 * y / 219 + 0.037584) - Real.logb 10 (155 * x / 219 + 0.037584) := by
    rw [Real.logb, Real.logb, ← sub_div, le_div_iff₀ (by linarith)]
    linarith
  unfold slog2 at a1 b1
  rw [if_pos (by linarith)] at a1 b1
  linarith

/-- Light larger by 0.07 % has a PQ signal larger by 6.7e-5 of itself. -/
theorem pq_gap {x y : ℝ} (x0 : 1e-14 ≤ x) (h : x * (1 + 7e-4) ≤ y) (y1 : y ≤ 1) : pq x * (1 + 6.7e-5) ≤ pq y := by
  have xp : 0 < x := by linarith
  have x1 : x ≤ 1 := by linarith
  rw [pq_pow xp.le, pq_pow (by linarith)]
  have A1 : (0.0024 : ℝ) ≤ x ^ (0.1593017578125 : ℝ) := by
    have l := le_rpow_of_pow (x := x) (r := 0.0024) (p := 4) (q := 25) xp.le (by norm_num) (by norm_num)
      (le_trans (by norm_num) (pow_le_pow_left₀ (by norm_num) x0 4))
    refine l.trans (Real.rpow_le_rpow_of_exponent_ge xp x1 (by norm_num))
  have A2 : x ^ (0.1593017578125 : ℝ) ≤ 1 := Real.rpow_le_one xp.le x1 (by norm_num)
  have B1 : x ^ (0.1593017578125 : ℝ) * (1 + 1.114e-4) ≤ y ^ (0.1593017578125 : ℝ) := by
    have s : (x * (1 + 7e-4)) ^ (0.1593017578125 : ℝ) ≤ y ^ (0.1593017578125 : ℝ) := Real.rpow_le_rpow (by positivity) h (by norm_num)
    rw [Real.mul_rpow xp.le (by norm_num)] at s
    refine le_trans (mul_le_mul_of_nonneg_left ?_ (by linarith)) s
    rw [Real.rpow_def_of_pos (by norm_num)]
    have e := Real.add_one_le_exp (Real.log (1 + 7e-4) * 0.1593017578125)
    have l := Real.one_sub_inv_le_log_of_pos (show (0 : ℝ) < 1 + 7e-4 by norm_num)
    norm_num at e l ⊢
    linarith
  have B2 : y ^ (0.1593017578125 : ℝ) ≤ 1 := Real.rpow_le_one (by linarith) y1 (by norm_num)
  generalize x ^ (0.1593017578125 : ℝ) = A at *
  generalize y ^ (0.1593017578125 : ℝ) = B at *
  have N0 := pqN_lo (show 0 ≤ A by linarith)
  have N1 : pqN A * (1 + 9.2e-7) ≤ pqN B := by
    unfold pqN
    rw [div_mul_eq_mul_div, div_le_div_iff₀ (by linarith) (by linarith)]
    have k : 0 ≤ (A - 0.0024) * (1 - A) := mul_nonneg (by linarith) (by linarith)
    have k2 : 0 ≤ (B - A * (1 + 1.114e-4)) * A := mul_nonneg (by linarith) (by linarith)
    nlinarith
  have P : pqN A ^ (78.84375 : ℝ) * (1 + 78.84375 * 9.2e-7) ≤ pqN B ^ (78.84375 : ℝ) := by
    have s := Real.rpow_le_rpow (mul_nonneg (by linarith : 0 ≤ pqN A) (by norm_num)) N1 (show (0 : ℝ) ≤ 78.84375 by norm_num)
    rw [Real.mul_rpow (by linarith) (by norm_num)] at s
    refine le_trans (mul_le_mul_of_nonneg_left ?_ (Real.rpow_nonneg (by linarith) _)) s
    exact one_add_mul_self_le_rpow_one_add (by norm_num) (by norm_num)
  refine le_trans (mul_le_mul_of_nonneg_left ?_ (Real.rpow_nonneg (by linarith) _)) P
  norm_num

/-- C146, PQ: amounts of light from 1e-12 to 100 of which one is at least 0.07 % larger are encoded in order. -/
theorem C146_pq (o : Oracle) (ho : o.PowAccurate (2 ^ (-22 : ℤ))) (x y : F32) (hx : x.isFinite = true) (hy : y.isFinite = true)
    (x0 : (1e-12 : ℝ) ≤ x.val) (y1 : (y.val : ℝ) ≤ 100) (h : (x.val : ℝ) * (1 + 7e-4) ≤ y.val) :
    ((@Y_to_ST2084 F32 (libm o) x).val : ℝ) < (@Y_to_ST2084 F32 (libm o) y).val := by
  have z : (2 : ℝ) ^ (-90 : ℤ) ≤ 1e-12 := by rw [zpow_neg]; norm_num
  have a := C86_encode o ho x hx (z.trans x0)
  have b := C86_encode o ho y hy (z.trans (by linarith))
  rw [min_eq_left (by rw [div_le_one (by norm_num)]; linarith)] at a
  rw [min_eq_left (by rw [div_le_one (by norm_num)]; linarith)] at b
  have g := pq_gap (x := (x.val : ℝ) / 100) (y := y.val / 100) (by linarith) (by linarith) (by linarith)
  have p0 : 0 < pq ((x.val : ℝ) / 100) := by
    have xp : (0 : ℝ) ≤ x.val / 100 := by linarith
    rw [pq_pow xp]
    exact Real.rpow_pos_of_pos (by linarith [pqN_lo (Real.rpow_nonneg xp (0.1593017578125 : ℝ))]) _
  have a1 := (abs_le.1 a.err).2
  have b1 := (abs_le.1 b.err).1
  linarith

/-- C146: an image stored as 16-bit linear light keeps the order of its codes when it is encoded as sRGB, BT.709, HLG or S-Log. -/
theorem C146_codes (o : Oracle) (hp : o.PowAccurate (2 ^ (-22 : ℤ))) (hs : o.SqrtAccurate (2 ^ (-23 : ℤ))) (hl : o.LogAccurate (2 ^ (-22 : ℤ)))
    (ht : o.Log10Accurate (2 ^ (-22 : ℤ))) (N i j : ℕ) (hN : N ≤ 65535) (hij : i < j) (hj : j ≤ N) :
    (@Y_to_sRGB F32 (libm o) (code N i)).val < (@Y_to_sRGB F32 (libm o) (code N j)).val ∧
    (@Y_to_BT709 F32 (libm o) (code N i)).val < (@Y_to_BT709 F32 (libm o) (code N j)).val ∧
    (@Y_to_HLG F32 (libm o) (code N i)).val < (@Y_to_HLG F32 (libm o) (code N j)).val ∧
    (Mixed.Y_to_SLog o (code N i)).val < (Mixed.Y_to_SLog o (code N j)).val := by
  have hNr : (N : ℝ) ≤ 65535 := by exact_mod_cast hN
  obtain ⟨a, b, c, d, e⟩ := code_gap hN hij hj (d := 1.2e-5) (by linarith)
  refine ⟨?_, ?_, ?_, ?_⟩
  · exact_mod_cast C146_srgb o hp _ _ a b c d (by linarith)
  · exact_mod_cast C146_bt709 o hp _ _ a b c d (by linarith)
  · exact_mod_cast C146_hlg o hs hl _ _ a b c (by linarith) (by linarith)
  · exact_mod_cast C146_slog o ht _ _ a b c (by linarith) (by linarith)

/-- The hypotheses are met. -/
example : ∃ o : Oracle, o.PowAccurate (2 ^ (-22 : ℤ)) ∧ o.SqrtAccurate (2 ^ (-23 : ℤ)) ∧ o.LogAccurate (2 ^ (-22 : ℤ)) ∧
    o.Log10Accurate (2 ^ (-22 : ℤ)) := by
  obtain ⟨o, h1, h2, h3, h4, -⟩ := exists_accurate
  have d : (2 : ℝ) ^ (-23 : ℤ) ≤ 2 ^ (-22 : ℤ) := by rw [zpow_neg, zpow_neg]; norm_num
  refine ⟨o, fun x y hx hy hp h h' => ⟨(h1 x y hx hy hp h h').1, (h1 x y hx hy hp h h').2.trans ?_⟩, h2, fun x hx h => ?_, fun x hx h => ?_⟩
  · exact mul_le_mul_of_nonneg_right d (Real.rpow_nonneg (by exact_mod_cast hp.le) _)
  · obtain ⟨a, b⟩ := h3 x hx h
    exact ⟨a, b.trans (mul_le_mul_of_nonneg_right d (zero_le_one.trans (le_max_left _ _)))⟩
  · obtain ⟨a, b⟩ := h4 x hx h
    exact ⟨a, b.trans (mul_le_mul_of_nonneg_right d (zero_le_one.trans (le_max_left _ _)))⟩

end CS.EncOrder
