import Verif.Lemmas.FloatPow
import Verif.Props.OTF

/-! Binary32 transfer curves: forward errors of the power segments, and sensitivities of the exact curves. -/

namespace CS
open F32 B32 OTF Spec

/-- A constant evaluated by the kernel. -/
theorem F32.Ap.ofEval {x : F32} {q e : ℚ} {r E : ℝ} (h : (x.isFinite && decide (|x.val - q| ≤ e)) = true)
    (hr : (q : ℝ) = r) (hE : (e : ℝ) ≤ E) : Ap x r E := by
  rw [Bool.and_eq_true, decide_eq_true_eq] at h
  refine ⟨h.1, le_trans ?_ hE⟩
  rw [← hr]
  exact_mod_cast h.2

theorem log_bound {r : ℝ} {n : ℕ} (h1 : r ≤ 1) (h : (0.37 : ℝ) ^ n ≤ r) : |Real.log r| ≤ n := by
  have h0 : 0 < r := lt_of_lt_of_le (by positivity) h
  rw [abs_of_nonpos (Real.log_nonpos h0.le h1), neg_le, Real.le_log_iff_exp_le h0]
  refine le_trans ?_ h
  rw [show (-(n : ℝ)) = n * (-1) by ring, Real.exp_nat_mul]
  gcongr
  rw [Real.exp_neg, inv_le_comm₀ (Real.exp_pos _) (by norm_num)]
  have := Real.exp_one_gt_d9
  norm_num; linarith

/-- Forward error of the power segment of an encoder. -/
theorem enc_pow_ap {o : F32.Oracle} (ho : o.PowAccurate (2 ^ (-22 : ℤ))) {y a b x : F32} {s A B : ℝ} (hy : Ap y s 2e-8)
    (ha : Ap a A 7e-8) (hb : Ap b B 1e-9) (hs : 0.4 ≤ s ∧ s ≤ 0.5) (hA : 1 ≤ A ∧ A ≤ 1.1) (hB : 0 ≤ B ∧ B ≤ 0.1)
    (hAB : A - B ≤ 1) (hx : x.isFinite = true) (h0 : (0.003 : ℝ) ≤ x.val) (h1 : (x.val : ℝ) ≤ 1) :
    Ap (a * o.powf x y - b) (A * (x.val : ℝ) ^ s - B) 6e-7 := by
  have x0 : (0 : ℝ) < x.val := by linarith
  have p0 : 0 < (x.val : ℝ) ^ s := Real.rpow_pos_of_pos x0 s
  have p1 : (x.val : ℝ) ^ s ≤ 1 := Real.rpow_le_one x0.le h1 (by linarith)
  have plo : (x.val : ℝ) ≤ (x.val : ℝ) ^ s := by
    have := Real.rpow_le_rpow_of_exponent_ge x0 h1 (show s ≤ 1 by linarith)
    rwa [Real.rpow_one] at this
  have hp : Ap (o.powf x y) ((x.val : ℝ) ^ s) (3.6e-7 * (x.val : ℝ) ^ s) :=
    Ap.pow ho (e := 0) (f := 2e-8) (L := 6) (S := 0.5) (θ := 1.2e-7) x0 (by rw [zero_mul]; exact Ap.exact hx) (by norm_num) hy
      (by rw [abs_le]; constructor <;> linarith) (by exact_mod_cast log_bound (n := 6) h1 (le_trans (by norm_num) h0))
      (by norm_num) (by norm_num) (le_trans (by norm_num) (h0.trans plo)) (p1.trans (by norm_num)) (by positivity) (by norm_num)
  have hp' : Ap (o.powf x y) ((x.val : ℝ) ^ s) 3.6e-7 := hp.weaken (by linarith)
  have hm : Ap (a * o.powf x y) (A * (x.val : ℝ) ^ s) 5.33e-7 :=
    ha.mul hp' (R := 1.1) (S := 1) (by rw [abs_le]; constructor <;> linarith) (by rw [abs_le]; constructor <;> linarith)
      (by norm_num) (by norm_num)
  refine hm.sub hb (B := 1) ?_ (by norm_num) (by norm_num)
  have h3 : A * (x.val : ℝ) ^ s ≤ A := mul_le_of_le_one_right (by linarith) p1
  have h4 : 0 ≤ A * (x.val : ℝ) ^ s := by nlinarith
  rw [abs_le]; constructor <;> linarith

/-- Forward error of the power segment of a decoder. -/
theorem dec_pow_ap {o : F32.Oracle} (ho : o.PowAccurate (2 ^ (-22 : ℤ))) {y a b v : F32} {s A B : ℝ} (hy : Ap y s 1.2e-7)
    (ha : Ap a A 7e-8) (hb : Ap b B 1e-9) (hs : 2.2 ≤ s ∧ s ≤ 2.4) (hA : A = 1 + B) (hB : 0.05 ≤ B ∧ B ≤ 0.1)
    (hv : v.isFinite = true) (h0 : (0.04 : ℝ) ≤ v.val) (h1 : (v.val : ℝ) ≤ 1) :
    Ap (o.powf ((v + b) / a) y) ((((v.val : ℝ) + B) / A) ^ s) (1.2e-6 * ((((v.val : ℝ) + B) / A) ^ s)) := by
  have r0 : 0.09 ≤ (v.val : ℝ) + B := by linarith
  have A0 : 1.05 ≤ A := by linarith
  have t0 : 0 < ((v.val : ℝ) + B) / A := by apply div_pos <;> linarith
  have t1 : ((v.val : ℝ) + B) / A ≤ 1 := by rw [div_le_one (by linarith)]; linarith
  have tl : 0.0818 ≤ ((v.val : ℝ) + B) / A := by rw [le_div_iff₀ (by linarith)]; linarith
  have h2 : Ap (v + b) ((v.val : ℝ) + B) (7.3e-8 * ((v.val : ℝ) + B)) :=
    (Ap.exact hv).add hb (B := (v.val : ℝ) + B) (by rw [abs_of_pos (by linarith)]) (by linarith) (by linarith)
  have h3 : Ap ((v + b) / a) (((v.val : ℝ) + B) / A) (2.1e-7 * (((v.val : ℝ) + B) / A)) := by
    have e1 : (v.val : ℝ) + B = ((v.val : ℝ) + B) / A * A := by field_simp
    refine h2.div ha (Q := ((v.val : ℝ) + B) / A) (S := 1.0499) (d := 1.48e-7 * (((v.val : ℝ) + B) / A))
      (by rw [abs_of_pos t0]) (by linarith) (by norm_num) ?_ (by linarith) (by linarith)
    rw [div_le_iff₀ (by norm_num)]
    generalize ((v.val : ℝ) + B) / A = t at *
    rw [e1]
    nlinarith
  refine Ap.pow ho (e := 2.1e-7) (f := 1.2e-7) (L := 3) (S := 2.4) (θ := 8.65e-7) t0 h3 (by norm_num) hy
      (by rw [abs_le]; constructor <;> linarith) (by exact_mod_cast log_bound (n := 3) t1 (le_trans (by norm_num) tl))
      (by norm_num) (by norm_num) ?_ ((Real.rpow_le_one t0.le t1 (by linarith)).trans (by norm_num)) (by positivity) (by norm_num)
  have : (0.0818 : ℝ) ^ (3 : ℝ) ≤ (((v.val : ℝ) + B) / A) ^ s :=
    (Real.rpow_le_rpow (by norm_num) tl (by norm_num)).trans (Real.rpow_le_rpow_of_exponent_ge t0 t1 (by linarith))
  refine le_trans ?_ this
  norm_num

/-- Relative changes do not grow under powers with exponent at most one. -/
theorem rpow_sens {t t0 p e : ℝ} (h0 : 0 < t0) (he : e < 1) (hp : 0 ≤ p ∧ p ≤ 1) (h : |t - t0| ≤ e * t0) :
    |t ^ p - t0 ^ p| ≤ e * t0 ^ p := by
  have hx : |t / t0 - 1| ≤ e := by
    rw [show t / t0 - 1 = (t - t0) / t0 by field_simp, abs_div, abs_of_pos h0, div_le_iff₀ h0]; exact h
  obtain ⟨h1, h2⟩ := abs_le.1 hx
  have ht : 0 < t / t0 := by linarith
  have t1 : 0 < t := (div_pos_iff_of_pos_right h0).1 ht
  have e1 : t ^ p = (t / t0) ^ p * t0 ^ p := by rw [← Real.mul_rpow ht.le h0.le]; congr 1; field_simp
  have q0 : 0 < t0 ^ p := Real.rpow_pos_of_pos h0 p
  rw [e1, show (t / t0) ^ p * t0 ^ p - t0 ^ p = ((t / t0) ^ p - 1) * t0 ^ p by ring, abs_mul, abs_of_pos q0]
  gcongr
  refine le_trans ?_ hx
  generalize t / t0 = u at ht
  rcases le_total u 1 with hu | hu
  · have a1 := Real.rpow_le_one ht.le hu hp.1
    have a2 := Real.rpow_le_rpow_of_exponent_ge ht hu hp.2
    rw [Real.rpow_one] at a2
    rw [abs_of_nonpos (by linarith), abs_of_nonpos (by linarith)]; linarith
  · have a1 := Real.one_le_rpow hu hp.1
    have a2 := Real.rpow_le_rpow_of_exponent_le hu hp.2
    rw [Real.rpow_one] at a2
    rw [abs_of_nonneg (by linarith), abs_of_nonneg (by linarith)]; linarith

/-- Powers with exponent between 1 and 3 have slope at most 3 on `[0,1]`. -/
theorem rpow_lip {t u s : ℝ} (ht : 0 ≤ t) (hu : 0 ≤ u) (ht1 : t ≤ 1) (hu1 : u ≤ 1) (hs : 1 ≤ s ∧ s ≤ 3) :
    |t ^ s - u ^ s| ≤ 3 * |t - u| := by
  wlog h : u ≤ t generalizing t u
  · rw [abs_sub_comm, abs_sub_comm t]; exact this hu ht hu1 ht1 (le_of_not_ge h)
  rcases ht.eq_or_lt with rfl | ht0
  · have : u = 0 := le_antisymm h hu
    simp [this]
  have m := Real.rpow_le_rpow hu h (by linarith : (0 : ℝ) ≤ s)
  rw [abs_of_nonneg (by linarith), abs_of_nonneg (by linarith)]
  have w0 : 0 ≤ u / t := div_nonneg hu ht
  have w1 : u / t ≤ 1 := (div_le_one ht0).2 h
  have e1 : u ^ s = (u / t) ^ s * t ^ s := by rw [← Real.mul_rpow w0 ht]; congr 1; field_simp
  have e2 : u = u / t * t := by field_simp
  have h3 : (u / t) ^ (3 : ℕ) ≤ (u / t) ^ s := by
    rcases w0.eq_or_lt with hw | hw
    · rw [← hw]; simp [Real.zero_rpow (by linarith : s ≠ 0)]
    · rw [← Real.rpow_natCast]
      exact Real.rpow_le_rpow_of_exponent_ge hw w1 (by push_cast; linarith)
  have h4 : t ^ s ≤ t := by
    have := Real.rpow_le_rpow_of_exponent_ge ht0 ht1 hs.1
    rwa [Real.rpow_one] at this
  have h5 : 0 < t ^ s := Real.rpow_pos_of_pos ht0 s
  generalize u / t = w at *
  rw [e1, e2]
  have h6 : 1 - w ^ s ≤ 3 * (1 - w) := by nlinarith [mul_nonneg w0 (sub_nonneg.2 w1), mul_nonneg (sub_nonneg.2 w1) (sub_nonneg.2 w1)]
  nlinarith

/-- Comparison of a finite float with a literal whose value the kernel knows. -/
theorem lt_lit {x : F32} (hx : x.isFinite = true) {q c : ℚ}
    (h : ((Arith.lit q : F32).isFinite && decide ((Arith.lit q : F32).val = c)) = true) :
    Arith.lt x (Arith.lit q : F32) = decide (x.val < c) := by
  rw [Bool.and_eq_true, decide_eq_true_eq] at h
  rw [alt_def, lt_finite hx h.1, h.2]

theorem lit_lt {x : F32} (hx : x.isFinite = true) {q c : ℚ}
    (h : ((Arith.lit q : F32).isFinite && decide ((Arith.lit q : F32).val = c)) = true) :
    Arith.lt (Arith.lit q : F32) x = decide (c < x.val) := by
  rw [Bool.and_eq_true, decide_eq_true_eq] at h
  rw [alt_def, lt_finite h.1 hx, h.2]

/-- No float lies between a number and its rounding. -/
theorem lt_of_lt_rnd {x : F32} {q : ℚ} (h : x.val < rnd q) : x.val < q := by
  by_contra hc
  have := rnd_mono (not_lt.1 hc)
  rw [rnd_of_rep x.rep_val] at this
  exact absurd h (not_lt.2 this)

theorem clampTo_rat (q : ℚ) : clampTo 0 1 (q : ℝ) = if q < 0 then 0 else if 1 < q then 1 else (q : ℝ) := by
  have c0 : q < 0 ↔ (q : ℝ) < 0 := by exact_mod_cast Iff.rfl
  have c1 : 1 < q ↔ (1 : ℝ) < q := by exact_mod_cast Iff.rfl
  unfold clampTo
  split_ifs with h0 h1
  · rw [c0] at h0
    rw [min_eq_right (by linarith), max_eq_left h0.le]
  · rw [c1] at h1
    rw [min_eq_left h1.le, max_eq_right (by norm_num)]
  · rw [c0] at h0
    rw [c1] at h1
    rw [min_eq_right (by linarith), max_eq_right (by linarith)]

end CS
