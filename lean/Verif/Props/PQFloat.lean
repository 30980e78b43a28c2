import Verif.Props.OTFFloat
import Mathlib.Analysis.Convex.SpecificFunctions.Basic

/-!
# C86: ST 2084 (PQ) in binary32

PQ signals are 79th powers: a relative error in the last step but one is magnified 79 times.  The constants of the
curve are exact in binary32.
-/

namespace CS
open F32 B32 OTF Spec

theorem ap_pq_c1 : Ap (Arith.lit 0.8359375 : F32) (0.8359375 : ℝ) 0 :=
  Ap.ofEval (q := 0.8359375) (e := 0) (by decide +kernel) (by norm_num) (by norm_num)
theorem ap_pq_c2 : Ap (Arith.lit 18.8515625 : F32) (18.8515625 : ℝ) 0 :=
  Ap.ofEval (q := 18.8515625) (e := 0) (by decide +kernel) (by norm_num) (by norm_num)
theorem ap_pq_c3 : Ap (Arith.lit 18.6875 : F32) (18.6875 : ℝ) 0 :=
  Ap.ofEval (q := 18.6875) (e := 0) (by decide +kernel) (by norm_num) (by norm_num)
theorem ap_pq_m1 : Ap (Arith.lit 0.1593017578125 : F32) (0.1593017578125 : ℝ) 0 :=
  Ap.ofEval (q := 0.1593017578125) (e := 0) (by decide +kernel) (by norm_num) (by norm_num)
theorem ap_pq_m2 : Ap (Arith.lit 78.84375 : F32) (78.84375 : ℝ) 0 :=
  Ap.ofEval (q := 78.84375) (e := 0) (by decide +kernel) (by norm_num) (by norm_num)
theorem ap_pq_100 : Ap (Arith.lit 100 : F32) (100 : ℝ) 0 :=
  Ap.ofEval (q := 100) (e := 0) (by decide +kernel) (by norm_num) (by norm_num)
theorem ap_pq_inv_m2 : Ap (Arith.lit 1 / Arith.lit 78.84375 : F32) (1 / 78.84375 : ℝ) 1e-9 :=
  Ap.ofEval (q := 1 / 78.84375) (e := 1e-9) (by decide +kernel) (by norm_num) (by norm_num)
theorem ap_pq_inv_m1 : Ap (Arith.lit 1 / Arith.lit 0.1593017578125 : F32) (1 / 0.1593017578125 : ℝ) 3e-7 :=
  Ap.ofEval (q := 1 / 0.1593017578125) (e := 3e-7) (by decide +kernel) (by norm_num) (by norm_num)

theorem log_bound' {r : ℝ} {n : ℕ} (h1 : r ≤ 2) (h : (0.37 : ℝ) ^ n ≤ r) : |Real.log r| ≤ n + 1 := by
  have h0 : 0 < r := lt_of_lt_of_le (by positivity) h
  rcases le_or_gt r 1 with h2 | h2
  · exact (log_bound h2 h).trans (by linarith)
  · rw [abs_of_nonneg (Real.log_nonneg h2.le)]
    have := Real.log_le_sub_one_of_pos h0
    have : (0 : ℝ) ≤ n := by positivity
    linarith

/-- The rational part of the curve. -/
noncomputable def pqN (t : ℝ) : ℝ := (0.8359375 + 18.8515625 * t) / (1 + 18.6875 * t)

theorem pqN_sub {s t : ℝ} (hs : 0 ≤ s) (ht : 0 ≤ t) :
    pqN s - pqN t = 3.22998046875 * (s - t) / ((1 + 18.6875 * s) * (1 + 18.6875 * t)) := by
  unfold pqN
  have h1 : (1 + 18.6875 * s) ≠ 0 := by positivity
  have h2 : (1 + 18.6875 * t) ≠ 0 := by positivity
  field_simp
  ring

theorem pqN_lip {s t e : ℝ} (ht : 0 < t) (he : e ≤ 1e-3) (h : |s - t| ≤ e * t) : |pqN s - pqN t| ≤ 0.05 * e := by
  obtain ⟨a1, a2⟩ := abs_le.1 h
  have e0 : 0 ≤ e := nonneg_of_mul_nonneg_left ((abs_nonneg _).trans h) ht
  have hs : 0.999 * t ≤ s := by nlinarith
  have hs0 : 0 < s := by nlinarith
  rw [pqN_sub hs0.le ht.le, abs_div, abs_of_pos (by positivity : 0 < (1 + 18.6875 * s) * (1 + 18.6875 * t)), abs_mul,
    abs_of_pos (by norm_num : (0 : ℝ) < 3.22998046875), div_le_iff₀ (by positivity)]
  have h1 : 0.999 * (1 + 18.6875 * t) ≤ 1 + 18.6875 * s := by nlinarith
  have h2 : 0.999 * (1 + 18.6875 * t) * (1 + 18.6875 * t) ≤ (1 + 18.6875 * s) * (1 + 18.6875 * t) := by gcongr
  have h3 : 4 * 18.6875 * t ≤ (1 + 18.6875 * t) * (1 + 18.6875 * t) := by nlinarith [sq_nonneg (1 - 18.6875 * t)]
  have h4 : 3.22998046875 * |s - t| ≤ 3.22998046875 * (e * t) := by gcongr
  have h5 : 3.22998046875 * t ≤ 0.05 * ((1 + 18.6875 * s) * (1 + 18.6875 * t)) := by nlinarith
  calc _ ≤ _ := h4
    _ = e * (3.22998046875 * t) := by ring
    _ ≤ e * (0.05 * ((1 + 18.6875 * s) * (1 + 18.6875 * t))) := by gcongr
    _ = _ := by ring

/-- The rational part computed in binary32. -/
theorem pqN_ap {x : F32} (hx : x.isFinite = true) (h0 : (0 : ℝ) ≤ x.val) (h1 : (x.val : ℝ) ≤ 1.001) :
    Ap ((Arith.lit 0.8359375 + Arith.lit 18.8515625 * x) / (Arith.lit 1 + Arith.lit 18.6875 * x) : F32) (pqN x.val) 3.1e-7 := by
  have a1 : Ap (Arith.lit 18.8515625 * x : F32) (18.8515625 * x.val) (6e-8 * (18.8515625 * x.val) + 1e-40) :=
    ap_pq_c2.mul (Ap.exact hx) (R := 18.8515625) (S := x.val) (by norm_num [abs_le]) (by rw [abs_of_nonneg h0])
      (by linarith) (by norm_num; linarith)
  have a2 : Ap (Arith.lit 0.8359375 + Arith.lit 18.8515625 * x : F32) (0.8359375 + 18.8515625 * x.val)
      (1.2e-7 * (0.8359375 + 18.8515625 * x.val)) :=
    ap_pq_c1.add a1 (B := 0.8359375 + 18.8515625 * x.val) (by rw [abs_of_nonneg (by positivity)]) (by linarith) (by norm_num; linarith)
  have b1 : Ap (Arith.lit 18.6875 * x : F32) (18.6875 * x.val) (6e-8 * (18.6875 * x.val) + 1e-40) :=
    ap_pq_c3.mul (Ap.exact hx) (R := 18.6875) (S := x.val) (by norm_num [abs_le]) (by rw [abs_of_nonneg h0])
      (by linarith) (by norm_num; linarith)
  have b2 : Ap (Arith.lit 1 + Arith.lit 18.6875 * x : F32) (1 + 18.6875 * x.val) (1.2e-7 * (1 + 18.6875 * x.val)) :=
    lit_ap1.add b1 (B := 1 + 18.6875 * x.val) (by rw [abs_of_nonneg (by positivity)]) (by linarith) (by norm_num; linarith)
  have d0 : 0 < 1 + 18.6875 * (x.val : ℝ) := by positivity
  have q1 : pqN x.val ≤ 1.001 := by
    unfold pqN; rw [div_le_iff₀ d0]; linarith
  have q0 : 0 ≤ pqN x.val := by unfold pqN; positivity
  refine a2.div b2 (Q := pqN x.val) (S := (1 - 1.2e-7) * (1 + 18.6875 * x.val)) (d := 2.45e-7) ?_ (by linarith) (by positivity) ?_
    (by linarith) (by norm_num; linarith)
  · rw [show (0.8359375 + 18.8515625 * (x.val : ℝ)) / (1 + 18.6875 * x.val) = pqN x.val from rfl, abs_of_nonneg q0]
  · rw [div_le_iff₀ (by positivity)]
    have e : 0.8359375 + 18.8515625 * (x.val : ℝ) = pqN x.val * (1 + 18.6875 * x.val) := by unfold pqN; field_simp
    rw [e]
    nlinarith


/-- The signal raised to `1/m2`. -/
theorem pq_root {v : ℝ} (h : 1 / 4096 ≤ v ∧ v ≤ 1) :
    0.89 ≤ v ^ (1 / 78.84375 : ℝ) ∧ v ^ (1 / 78.84375 : ℝ) ≤ 1 ∧ (v ^ (1 / 78.84375 : ℝ)) ^ (78.84375 : ℝ) = v := by
  have v0 : 0 < v := lt_of_lt_of_le (by norm_num) h.1
  have e := rpow_inv_rpow' (p := (1 / 78.84375 : ℝ)) (q := 78.84375) v0.le (by norm_num)
  refine ⟨?_, Real.rpow_le_one v0.le h.2 (by norm_num), e⟩
  by_contra hc
  push Not at hc
  have p0 : 0 < v ^ (1 / 78.84375 : ℝ) := Real.rpow_pos_of_pos v0 _
  have h1 := Real.rpow_le_rpow p0.le hc.le (by norm_num : (0 : ℝ) ≤ 78.84375)
  have h2 := Real.rpow_le_rpow_of_exponent_ge (by norm_num : (0 : ℝ) < 0.89) (by norm_num) (by norm_num : (78 : ℝ) ≤ 78.84375)
  rw [show (78 : ℝ) = ((78 : ℕ) : ℝ) by norm_num, Real.rpow_natCast] at h2
  rw [e] at h1
  have h3 : (0.89 : ℝ) ^ 78 < 1 / 4096 := by norm_num
  linarith [h.1]

/-- Decoding: the float result is nearly `100 q^(1/m1)` with `pqN q` near the root of the signal. -/
theorem pq_dec (o : F32.Oracle) (ho : o.PowAccurate (2 ^ (-22 : ℤ))) (v : F32) (hv : v.isFinite = true)
    (h : (1 / 4096 : ℝ) ≤ v.val ∧ (v.val : ℝ) ≤ 1) :
    ∃ q : ℝ, 0.024 ≤ q ∧ q ≤ 1.0001 ∧ |pqN q - (v.val : ℝ) ^ (1 / 78.84375 : ℝ)| ≤ 3.3e-7 ∧
      Ap (@ST2084_to_Y F32 (F32.libm o) v) (q ^ (1 / 0.1593017578125 : ℝ) * 100) (1.9e-6 * (q ^ (1 / 0.1593017578125 : ℝ) * 100)) := by
  obtain ⟨N1, N2, N3⟩ := pq_root h
  have v0 : (0 : ℝ) < v.val := lt_of_lt_of_le (by norm_num) h.1
  have hn : Ap (o.powf v (Arith.lit 1 / Arith.lit 78.84375)) ((v.val : ℝ) ^ (1 / 78.84375 : ℝ)) (2.5e-7 * (v.val : ℝ) ^ (1 / 78.84375 : ℝ)) :=
    Ap.pow ho (e := 0) (f := 1e-9) (L := 9) (S := 0.0127) (θ := 9e-9) v0 (by rw [zero_mul]; exact Ap.exact hv) (by norm_num)
      ap_pq_inv_m2 (by norm_num [abs_le]) (by exact_mod_cast log_bound (n := 9) h.2 (le_trans (by norm_num) h.1))
      (by norm_num) (by norm_num) (le_trans (by norm_num) N1) (N2.trans (by norm_num)) (by positivity) (by norm_num)
  unfold ST2084_to_Y pq_m1 pq_m2 pq_c1 pq_c2 pq_c3 pq_C
  change ∃ q : ℝ, _ ∧ _ ∧ _ ∧ Ap (o.powf ((if Arith.lt (o.powf v (Arith.lit 1 / Arith.lit 78.84375) - Arith.lit 0.8359375) (Arith.lit 0 : F32) = true then
    (Arith.lit 0 : F32) else (o.powf v (Arith.lit 1 / Arith.lit 78.84375) - Arith.lit 0.8359375)) /
    (Arith.lit 18.8515625 - Arith.lit 18.6875 * (o.powf v (Arith.lit 1 / Arith.lit 78.84375)))) (Arith.lit 1 / Arith.lit 0.1593017578125) *
      (Arith.lit 100 : F32)) _ _
  generalize o.powf v (Arith.lit 1 / Arith.lit 78.84375) = n at *
  generalize (v.val : ℝ) ^ (1 / 78.84375 : ℝ) = N0 at *
  have hn' : |(n.val : ℝ) - N0| ≤ 2.5e-7 := hn.err.trans (by linarith)
  obtain ⟨n1, n2⟩ := abs_le.1 hn'
  have hl : Ap (n - Arith.lit 0.8359375 : F32) (n.val - 0.8359375) 1e-8 :=
    (Ap.exact hn.fin).sub ap_pq_c1 (B := 0.16407) (by rw [abs_le]; constructor <;> linarith) (by norm_num) (by norm_num)
  have hm : Ap (Arith.lit 18.6875 * n : F32) (18.6875 * n.val) 1.114e-6 :=
    ap_pq_c3.mul (Ap.exact hn.fin) (R := 18.6875) (S := 1.000001) (by norm_num [abs_le]) (by rw [abs_le]; constructor <;> linarith)
      (by norm_num) (by norm_num)
  have hd : Ap (Arith.lit 18.8515625 - Arith.lit 18.6875 * n : F32) (18.8515625 - 18.6875 * n.val) 1.25e-6 :=
    ap_pq_c2.sub hm (B := 2.24) (by rw [abs_le]; constructor <;> linarith) (by norm_num) (by norm_num)
  generalize (n - Arith.lit 0.8359375 : F32) = l at *
  generalize (Arith.lit 18.8515625 - Arith.lit 18.6875 * n : F32) = d at *
  obtain ⟨l1, l2⟩ := abs_le.1 hl.err
  obtain ⟨d1, d2⟩ := abs_le.1 hd.err
  have lpos : ¬ (Arith.lt l (Arith.lit 0 : F32) = true) := by
    rw [lt_lit hl.fin (c := 0) (by decide +kernel), decide_eq_true_eq, not_lt]
    have : (0 : ℝ) ≤ l.val := by linarith
    exact_mod_cast this
  rw [if_neg lpos]
  have dd0 : (0.164 : ℝ) ≤ d.val := by linarith
  have dpos : (0 : ℝ) < d.val := by linarith
  have q1 : (0.0241 : ℝ) ≤ l.val / d.val := by rw [le_div_iff₀ dpos]; linarith
  have q2 : (l.val : ℝ) / d.val ≤ 1.00005 := by rw [div_le_iff₀ dpos]; linarith
  have q0 : (0 : ℝ) < l.val / d.val := by linarith
  have hq : Ap (l / d) (l.val / d.val) (6e-8 * (l.val / d.val)) :=
    (Ap.exact hl.fin).div (Ap.exact hd.fin) (Q := l.val / d.val) (S := d.val) (d := 0) (by rw [abs_of_pos q0]) (by linarith) dpos
      (by simp) (by linarith) (by norm_num; linarith)
  have hN : |pqN (l.val / d.val) - n.val| ≤ 7.2e-8 := by
    have e1 : pqN (l.val / d.val) - n.val = ((0.8359375 - n.val) * (d.val - (18.8515625 - 18.6875 * n.val)) +
        (18.8515625 - 18.6875 * n.val) * (l.val - (n.val - 0.8359375))) / (d.val + 18.6875 * l.val) := by
      have : (d.val : ℝ) + 18.6875 * l.val ≠ 0 := by
        have : (0 : ℝ) < d.val + 18.6875 * l.val := by linarith
        exact this.ne'
      have h5 : (1 : ℝ) + 18.6875 * (l.val / d.val) = (d.val + 18.6875 * l.val) / d.val := by field_simp
      have h6 : (0.8359375 : ℝ) + 18.8515625 * (l.val / d.val) = (0.8359375 * d.val + 18.8515625 * l.val) / d.val := by field_simp
      rw [pqN, h5, h6, div_div_div_cancel_right₀ dpos.ne', eq_div_iff this, sub_mul, div_mul_cancel₀ _ this]
      ring
    have den : (3.2299 : ℝ) ≤ d.val + 18.6875 * l.val := by linarith
    rw [e1, abs_div, abs_of_pos (by linarith : (0 : ℝ) < d.val + 18.6875 * l.val), div_le_iff₀ (by linarith)]
    have t1 : |(0.8359375 - (n.val : ℝ)) * (d.val - (18.8515625 - 18.6875 * n.val))| ≤ 0.1641 * 1.25e-6 := by
      rw [abs_mul]
      exact mul_le_mul (by rw [abs_le]; constructor <;> linarith) hd.err (abs_nonneg _) (by norm_num)
    have t2 : |(18.8515625 - 18.6875 * (n.val : ℝ)) * (l.val - (n.val - 0.8359375))| ≤ 2.24 * 1e-8 := by
      rw [abs_mul]
      exact mul_le_mul (by rw [abs_le]; constructor <;> linarith) hl.err (abs_nonneg _) (by norm_num)
    have t3 := abs_add_le ((0.8359375 - (n.val : ℝ)) * (d.val - (18.8515625 - 18.6875 * n.val)))
      ((18.8515625 - 18.6875 * (n.val : ℝ)) * (l.val - (n.val - 0.8359375)))
    linarith
  have hN' := pqN_lip q0 (by norm_num) hq.err
  generalize (l.val : ℝ) / d.val = z at *
  obtain ⟨c1, c2⟩ := abs_le.1 hq.err
  have w1 : (0.024 : ℝ) ≤ (l / d).val := by linarith
  have w2 : ((l / d).val : ℝ) ≤ 1.0001 := by linarith
  have w0 : (0 : ℝ) < (l / d).val := by linarith
  refine ⟨(l / d).val, w1, w2, ?_, ?_⟩
  · obtain ⟨a1, a2⟩ := abs_le.1 hN
    obtain ⟨a3, a4⟩ := abs_le.1 hN'
    rw [abs_le]; constructor <;> linarith
  · have plo : (0.024 : ℝ) ^ 7 ≤ ((l / d).val : ℝ) ^ (1 / 0.1593017578125 : ℝ) := by
      have h1 := Real.rpow_le_rpow (by norm_num) w1 (by norm_num : (0 : ℝ) ≤ 1 / 0.1593017578125)
      have h2 := Real.rpow_le_rpow_of_exponent_ge (by norm_num : (0 : ℝ) < 0.024) (by norm_num) (by norm_num : (1 / 0.1593017578125 : ℝ) ≤ 7)
      rw [show (7 : ℝ) = ((7 : ℕ) : ℝ) by norm_num, Real.rpow_natCast] at h2
      exact h2.trans h1
    have phi : ((l / d).val : ℝ) ^ (1 / 0.1593017578125 : ℝ) ≤ 2 := by
      have h1 := Real.rpow_le_rpow w0.le w2 (by norm_num : (0 : ℝ) ≤ 1 / 0.1593017578125)
      have h2 := Real.rpow_le_rpow_of_exponent_le (by norm_num : (1 : ℝ) ≤ 1.0001) (by norm_num : (1 / 0.1593017578125 : ℝ) ≤ 7)
      rw [show (7 : ℝ) = ((7 : ℕ) : ℝ) by norm_num, Real.rpow_natCast] at h2
      exact (h1.trans h2).trans (by norm_num)
    have hp : Ap (o.powf (l / d) (Arith.lit 1 / Arith.lit 0.1593017578125)) (((l / d).val : ℝ) ^ (1 / 0.1593017578125 : ℝ))
        (1.8e-6 * ((l / d).val : ℝ) ^ (1 / 0.1593017578125 : ℝ)) :=
      Ap.pow ho (e := 0) (f := 3e-7) (L := 5) (S := 6.2775) (θ := 1.5e-6) w0 (by rw [zero_mul]; exact Ap.exact hq.fin) (by norm_num)
        ap_pq_inv_m1 (by norm_num [abs_le]) (by
          have := log_bound' (n := 4) (r := (l / d).val) (by linarith) (le_trans (by norm_num) w1)
          norm_num at this ⊢; linarith)
        (by norm_num) (by norm_num) (le_trans (by norm_num) plo) (phi.trans (by norm_num)) (by positivity) (by norm_num)
    have p0 := Real.rpow_pos_of_pos w0 (1 / 0.1593017578125 : ℝ)
    generalize ((l / d).val : ℝ) ^ (1 / 0.1593017578125 : ℝ) = p at *
    have plo' : (1e-13 : ℝ) ≤ p := le_trans (by norm_num) plo
    exact hp.mul ap_pq_100 (R := p) (S := 100) (by rw [abs_of_pos p0]) (by norm_num) (by linarith) (by norm_num; linarith)

/-- Encoding, up to the last power. -/
theorem pq_enc (o : F32.Oracle) (ho : o.PowAccurate (2 ^ (-22 : ℤ))) {x : F32} {q e f E : ℝ} (q0 : 0 < q) (q2 : q ≤ 1.0001)
    (hlo : (2 : ℝ) ^ (-105 : ℤ) ≤ q ^ (1 / 0.1593017578125 : ℝ)) (he : e ≤ 2e-6) (he0 : 0 ≤ e) (hf : f = 0.16 * e + 2.5e-7) (hE : 3.1e-7 + 0.05 * f = E)
    (hx : Ap x (q ^ (1 / 0.1593017578125 : ℝ) * 100) (e * (q ^ (1 / 0.1593017578125 : ℝ) * 100)))
    (h1 : x.val < 100) :
    ∃ n : F32, @Y_to_ST2084 F32 (F32.libm o) x = o.powf n (Arith.lit 78.84375) ∧ Ap n (pqN q) E := by
  have z1 : ((q ^ (1 / 0.1593017578125 : ℝ)) ^ (0.1593017578125 : ℝ)) = q := rpow_inv_rpow' q0.le (by norm_num)
  have z0 := Real.rpow_pos_of_pos q0 (1 / 0.1593017578125 : ℝ)
  have z2 : q ^ (1 / 0.1593017578125 : ℝ) ≤ 2 := by
    have h1 := Real.rpow_le_rpow q0.le q2 (by norm_num : (0 : ℝ) ≤ 1 / 0.1593017578125)
    have h2 := Real.rpow_le_rpow_of_exponent_le (by norm_num : (1 : ℝ) ≤ 1.0001) (by norm_num : (1 / 0.1593017578125 : ℝ) ≤ 7)
    rw [show (7 : ℝ) = ((7 : ℕ) : ℝ) by norm_num, Real.rpow_natCast] at h2
    exact (h1.trans h2).trans (by norm_num)
  have hloq : (2 : ℝ) ^ (-100 : ℤ) ≤ q := by
    rcases le_or_gt q 1 with h | h
    · have a := Real.rpow_le_rpow (by positivity) hlo (by norm_num : (0 : ℝ) ≤ 0.1593017578125)
      rw [z1] at a
      refine le_trans ?_ a
      rw [← Real.rpow_intCast, ← Real.rpow_intCast, ← Real.rpow_mul (by norm_num)]
      exact Real.rpow_le_rpow_of_exponent_le (by norm_num) (by norm_num)
    · exact le_trans (by norm_num) h.le
  generalize q ^ (1 / 0.1593017578125 : ℝ) = z at *
  obtain ⟨x1, x2⟩ := abs_le.1 hx.err
  have xpos : (0 : ℝ) < x.val := by nlinarith
  have hL : Ap (x / Arith.lit 100 : F32) (z * 100 / 100) ((e + 7e-8) * z) := by
    refine hx.div ap_pq_100 (Q := z) (S := 100) (d := e * z) ?_ (by norm_num) (by norm_num) ?_ (by nlinarith) ?_
    · rw [mul_div_cancel_right₀ _ (by norm_num), abs_of_pos z0]
    · rw [div_le_iff₀ (by norm_num)]; linarith
    · have t1 : (1 : ℝ) / 2 ^ 150 ≤ 1e-9 * z := by
        refine le_trans ?_ (mul_le_mul_of_nonneg_left hlo (by norm_num))
        norm_num
      nlinarith
  rw [mul_div_cancel_right₀ _ (by norm_num)] at hL
  have hLm := Ap.pow ho (y := Arith.lit 0.1593017578125) (e := e + 7e-8) (f := 0) (L := |Real.log z|) (S := 0.1593017578125)
    (θ := 0.1594 * (e + 7e-8)) (E := f) z0 hL (by linarith) ap_pq_m1 (by norm_num [abs_le]) le_rfl (by nlinarith) (by linarith)
    (by rw [z1]; exact hloq) (by rw [z1]; exact q2.trans (by norm_num)) (by positivity) (by rw [hf]; nlinarith)
  rw [z1] at hLm
  have f1 : f ≤ 6e-7 := by rw [hf]; linarith
  have f0 : 0 ≤ f := by rw [hf]; positivity
  obtain ⟨m1, m2⟩ := abs_le.1 hLm.err
  have hN := pqN_ap hLm.fin (by nlinarith) (by nlinarith)
  have hs := pqN_lip q0 (by linarith) hLm.err
  refine ⟨_, ?_, ⟨hN.fin, ?_⟩⟩
  rotate_left
  · have := hN.err
    refine (abs_sub_le _ (pqN (o.powf (x / Arith.lit 100 : F32) (Arith.lit 0.1593017578125)).val) _).trans ?_
    linarith
  · unfold Y_to_ST2084 pq_m1 pq_m2 pq_c1 pq_c2 pq_c3 pq_C
    have g1 : ¬ (@Arith.le F32 F32.instArith x (Arith.lit 0) = true) := by
      rw [ale_def, le_finite hx.fin (by decide +kernel), decide_eq_true_eq, not_le]
      have : (Arith.lit 0 : F32).val = 0 := by decide +kernel
      rw [this]; exact_mod_cast xpos
    have g2 : ¬ (@Arith.le F32 F32.instArith (Arith.lit 100) x = true) := by
      rw [ale_def, le_finite (by decide +kernel) hx.fin, decide_eq_true_eq, not_le]
      have : (Arith.lit 100 : F32).val = 100 := by decide +kernel
      rw [this]; exact h1
    exact (if_neg g1).trans (if_neg g2)

/-- C86: encoding after decoding returns every signal in `[1/4096, 1]` with relative error at most `6.1e-5`. -/
theorem C86_decode_encode (o : F32.Oracle) (ho : o.PowAccurate (2 ^ (-22 : ℤ))) (v : F32) (hv : v.isFinite = true)
    (h : (1 / 4096 : ℝ) ≤ v.val ∧ (v.val : ℝ) ≤ 1) :
    Ap (@Y_to_ST2084 F32 (F32.libm o) (@ST2084_to_Y F32 (F32.libm o) v)) v.val (6.1e-5 * v.val) := by
  obtain ⟨q, q1, q2, hq, hy⟩ := pq_dec o ho v hv h
  obtain ⟨N1, N2, N3⟩ := pq_root h
  have q0 : 0 < q := by linarith
  have z0 := Real.rpow_pos_of_pos q0 (1 / 0.1593017578125 : ℝ)
  have plo : (0.024 : ℝ) ^ 7 ≤ q ^ (1 / 0.1593017578125 : ℝ) := by
    have h1 := Real.rpow_le_rpow (by norm_num) q1 (by norm_num : (0 : ℝ) ≤ 1 / 0.1593017578125)
    have h2 := Real.rpow_le_rpow_of_exponent_ge (by norm_num : (0 : ℝ) < 0.024) (by norm_num) (by norm_num : (1 / 0.1593017578125 : ℝ) ≤ 7)
    rw [show (7 : ℝ) = ((7 : ℕ) : ℝ) by norm_num, Real.rpow_natCast] at h2
    exact h2.trans h1
  generalize @ST2084_to_Y F32 (F32.libm o) v = y at *
  rcases lt_or_ge y.val 100 with h1 | h1
  · obtain ⟨n, e, hn⟩ := pq_enc o ho (e := 1.9e-6) (f := 0.16 * 1.9e-6 + 2.5e-7) (E := 3.1e-7 + 0.05 * (0.16 * 1.9e-6 + 2.5e-7)) q0 q2
      (le_trans (by norm_num) plo) (by norm_num) (by norm_num) rfl rfl hy h1
    rw [e]
    generalize (v.val : ℝ) ^ (1 / 78.84375 : ℝ) = N0 at *
    have hn' : Ap n N0 (7.6e-7 * N0) := by
      refine ⟨hn.fin, ?_⟩
      have := hn.err
      refine (abs_sub_le _ (pqN q) _).trans ?_
      linarith
    have := Ap.pow ho (y := Arith.lit 78.84375) (e := 7.6e-7) (f := 0) (L := |Real.log N0|) (S := 78.84375)
      (θ := 6e-5) (E := 6.1e-5) (by linarith) hn' (by norm_num) ap_pq_m2 (by norm_num [abs_le]) le_rfl (by norm_num) (by norm_num)
      (by rw [N3]; exact le_trans (by norm_num) h.1) (by rw [N3]; exact h.2.trans (by norm_num)) (by positivity) (by norm_num)
    rwa [N3] at this
  · have e : @Y_to_ST2084 F32 (F32.libm o) y = Arith.lit 1 := by
      have g1 : ¬ (@Arith.le F32 F32.instArith y (Arith.lit 0) = true) := by
        rw [ale_def, le_finite hy.fin (by decide +kernel), decide_eq_true_eq, not_le]
        have : (Arith.lit 0 : F32).val = 0 := by decide +kernel
        rw [this]; linarith
      have g2 : (@Arith.le F32 F32.instArith (Arith.lit 100) y = true) := by
        rw [ale_def, le_finite (by decide +kernel) hy.fin, decide_eq_true_eq]
        have : (Arith.lit 100 : F32).val = 100 := by decide +kernel
        rw [this]; exact h1
      unfold Y_to_ST2084
      exact (if_neg g1).trans (if_pos g2)
    rw [e]
    refine ⟨lit_ap1.fin, ?_⟩
    have hv1 : ((Arith.lit 1 : F32).val : ℝ) = 1 := by
      have : (Arith.lit 1 : F32).val = 1 := by decide +kernel
      rw [this]; norm_num
    have h1' : (100 : ℝ) ≤ y.val := by exact_mod_cast h1
    obtain ⟨y1, y2⟩ := abs_le.1 hy.err
    have hz : 1 - 1.9e-6 ≤ q ^ (1 / 0.1593017578125 : ℝ) := by
      generalize q ^ (1 / 0.1593017578125 : ℝ) = z at *
      nlinarith
    have hq' : 1 - 1.9e-6 ≤ q := by
      by_contra hc
      push Not at hc
      have := Real.rpow_le_rpow_of_exponent_ge q0 (by linarith) (by norm_num : (1 : ℝ) ≤ 1 / 0.1593017578125)
      rw [Real.rpow_one] at this
      linarith
    have hp : 1 - 1e-7 ≤ pqN q := by
      unfold pqN
      rw [le_div_iff₀ (by positivity)]
      nlinarith
    obtain ⟨b1, b2⟩ := abs_le.1 hq
    have hN : 1 + (-5e-7) ≤ (v.val : ℝ) ^ (1 / 78.84375 : ℝ) := by linarith
    have hb := one_add_mul_self_le_rpow_one_add (s := -5e-7) (p := 78.84375) (by norm_num) (by norm_num)
    have hb2 := Real.rpow_le_rpow (by norm_num) hN (by norm_num : (0 : ℝ) ≤ 78.84375)
    rw [N3] at hb2
    rw [hv1, abs_of_nonneg (by linarith [h.2])]
    have := hb.trans hb2
    norm_num at this ⊢
    linarith

/-- C86: every non-zero code of a scale with up to 12 bits survives decoding and encoding. -/
theorem C86_codes (o : F32.Oracle) (ho : o.PowAccurate (2 ^ (-22 : ℤ))) (N k : ℕ) (hN' : N ≤ 4095) (h0 : 0 < k) (hk : k ≤ N) :
    let v := (Arith.ofInt k : F32) / (Arith.ofInt N : F32)
    let w := @Y_to_ST2084 F32 (F32.libm o) (@ST2084_to_Y F32 (F32.libm o) v)
    w.isFinite = true ∧ |(w.val : ℝ) * N - k| < 1 / 2 := by
  have hN : 0 < N := h0.trans_le hk
  obtain ⟨h1, h2⟩ := code_ap hN (hN'.trans (by norm_num)) hk
  intro v w
  have hN0 : (0 : ℝ) < N := by exact_mod_cast hN
  have h5 : (N : ℝ) ≤ 4095 := by exact_mod_cast hN'
  have hv : (1 / 4096 : ℝ) ≤ v.val := by
    have b : (1 / 4096 : ℚ) ≤ k / N := by
      have c1 : (1 : ℚ) ≤ k := by exact_mod_cast h0
      have c2 : (N : ℚ) ≤ 4095 := by exact_mod_cast hN'
      rw [div_le_div_iff₀ (by norm_num) (by exact_mod_cast hN)]; linarith
    obtain ⟨f3, v3, -, -⟩ := code_val hN (hN'.trans (by norm_num)) hk
    have c := le_rnd (by have := rep_two_zpow (e := -12) (by norm_num); norm_num at this ⊢; exact this) b
    rw [← v3] at c
    have := (Rat.cast_le (K := ℝ)).2 c
    push_cast at this
    exact this
  have h3 := C86_decode_encode o ho v h1.fin ⟨hv, h2.2⟩
  refine ⟨h3.fin, ?_⟩
  have h4 : |(w.val : ℝ) - k / N| ≤ 6.2e-5 := by
    rw [show (w.val : ℝ) - k / N = (w.val - v.val) + (v.val - k / N) by ring]
    refine (abs_add_le _ _).trans ?_
    have := h3.err
    have := h1.err
    have := h2.2
    linarith
  rw [show (w.val : ℝ) * N - k = (w.val - k / N) * N by field_simp, abs_mul, abs_of_pos hN0]
  nlinarith


theorem pq_eq_pqN {q : ℝ} (q0 : 0 ≤ q) : pq (q ^ (1 / 0.1593017578125 : ℝ)) = pqN q ^ (78.84375 : ℝ) := by
  rw [pq_eq, rpow_inv_rpow' q0 (by norm_num)]; rfl

/-- C86: the encoder, for every float from `2^-90` upwards, has relative error at most `3.3e-5`. -/
theorem C86_encode (o : F32.Oracle) (ho : o.PowAccurate (2 ^ (-22 : ℤ))) (x : F32) (hx : x.isFinite = true)
    (h : (2 : ℝ) ^ (-90 : ℤ) ≤ x.val) :
    Ap (@Y_to_ST2084 F32 (F32.libm o) x) (pq (min (x.val / 100) 1)) (3.3e-5 * pq (min (x.val / 100) 1)) := by
  have x0 : (0 : ℝ) < x.val := lt_of_lt_of_le (by positivity) h
  rcases lt_or_ge x.val 100 with h1 | h1
  · have h1' : (x.val : ℝ) < 100 := by exact_mod_cast h1
    rw [min_eq_left (by linarith)]
    have c0 : (0 : ℝ) < x.val / 100 := by positivity
    have q0 := Real.rpow_pos_of_pos c0 (0.1593017578125 : ℝ)
    have e1 : (((x.val : ℝ) / 100) ^ (0.1593017578125 : ℝ)) ^ (1 / 0.1593017578125 : ℝ) = x.val / 100 := rpow_inv_rpow' c0.le (by norm_num)
    have e2 : pq ((x.val : ℝ) / 100) = pqN (((x.val : ℝ) / 100) ^ (0.1593017578125 : ℝ)) ^ (78.84375 : ℝ) := by
      rw [← pq_eq_pqN q0.le, e1]
    have q1 : ((x.val : ℝ) / 100) ^ (0.1593017578125 : ℝ) ≤ 1 := Real.rpow_le_one c0.le (by linarith) (by norm_num)
    rw [e2]
    generalize ((x.val : ℝ) / 100) ^ (0.1593017578125 : ℝ) = q at *
    obtain ⟨n, e, hn⟩ := pq_enc o ho (x := x) (e := 0) (f := 0.16 * 0 + 2.5e-7) (E := 3.1e-7 + 0.05 * (0.16 * 0 + 2.5e-7)) q0 (by linarith)
      (by
        rw [e1, le_div_iff₀ (by norm_num)]
        refine le_trans ?_ h
        norm_num) (by norm_num) (by norm_num) rfl rfl
      (by rw [e1, zero_mul, div_mul_cancel₀ _ (by norm_num)]; exact Ap.exact hx) h1
    rw [e]
    have N1 : 0.8359375 ≤ pqN q := by
      unfold pqN; rw [le_div_iff₀ (by positivity)]; nlinarith
    have N2 : pqN q ≤ 1 := by
      unfold pqN; rw [div_le_one (by positivity)]; nlinarith
    have hn' : Ap n (pqN q) (3.9e-7 * pqN q) := hn.weaken (by linarith)
    generalize pqN q = N0 at *
    refine Ap.pow ho (y := Arith.lit 78.84375) (e := 3.9e-7) (f := 0) (L := |Real.log N0|) (S := 78.84375)
      (θ := 3.1e-5) (by linarith) hn' (by norm_num) ap_pq_m2 (by norm_num [abs_le]) le_rfl (by norm_num) (by norm_num)
      ?_ ((Real.rpow_le_one (by linarith) N2 (by norm_num)).trans (by norm_num)) (by positivity) (by norm_num)
    have a1 := Real.rpow_le_rpow (by norm_num) N1 (by norm_num : (0 : ℝ) ≤ 78.84375)
    have a2 := Real.rpow_le_rpow_of_exponent_ge (by norm_num : (0 : ℝ) < 0.8359375) (by norm_num) (by norm_num : (78.84375 : ℝ) ≤ 79)
    rw [show (79 : ℝ) = ((79 : ℕ) : ℝ) by norm_num, Real.rpow_natCast] at a2
    exact le_trans (by norm_num) (a2.trans a1)
  · have h1' : (100 : ℝ) ≤ x.val := by exact_mod_cast h1
    rw [min_eq_right (by linarith), pq_one]
    have e : @Y_to_ST2084 F32 (F32.libm o) x = Arith.lit 1 := by
      have g1 : ¬ (@Arith.le F32 F32.instArith x (Arith.lit 0) = true) := by
        rw [ale_def, le_finite hx (by decide +kernel), decide_eq_true_eq, not_le]
        have : (Arith.lit 0 : F32).val = 0 := by decide +kernel
        rw [this]; linarith
      have g2 : (@Arith.le F32 F32.instArith (Arith.lit 100) x = true) := by
        rw [ale_def, le_finite (by decide +kernel) hx, decide_eq_true_eq]
        have : (Arith.lit 100 : F32).val = 100 := by decide +kernel
        rw [this]; exact h1
      unfold Y_to_ST2084
      exact (if_neg g1).trans (if_pos g2)
    rw [e]
    exact lit_ap1.weaken (by norm_num)

/-- C86: the decoder has relative error at most `3e-4` on signals in `[1/4096, 1]`. -/
theorem C86_decode (o : F32.Oracle) (ho : o.PowAccurate (2 ^ (-22 : ℤ))) (v : F32) (hv : v.isFinite = true)
    (h : (1 / 4096 : ℝ) ≤ v.val ∧ (v.val : ℝ) ≤ 1) :
    Ap (@ST2084_to_Y F32 (F32.libm o) v) (100 * pqInv v.val) (3e-4 * (100 * pqInv v.val)) := by
  obtain ⟨q, q1, q2, hq, hy⟩ := pq_dec o ho v hv h
  obtain ⟨N1, N2, N3⟩ := pq_root h
  have e0 : pqInv v.val = (((v.val : ℝ) ^ (1 / 78.84375 : ℝ) - 0.8359375) / (18.8515625 - 18.6875 * (v.val : ℝ) ^ (1 / 78.84375 : ℝ))) ^
      (1 / 0.1593017578125 : ℝ) := by
    have e1 : (1 : ℝ) / ((2523 : ℝ) / 4096 * 128) = 1 / 78.84375 := by norm_num
    have e2 : (1 : ℝ) / ((2610 : ℝ) / 4096 / 4) = 1 / 0.1593017578125 := by norm_num
    rw [pqInv, e1, e2, max_eq_left (by norm_num at N1 ⊢; linarith)]
    norm_num
  rw [e0]
  generalize (v.val : ℝ) ^ (1 / 78.84375 : ℝ) = N0 at *
  have d0 : 0 < 18.8515625 - 18.6875 * N0 := by linarith
  have t1 : 0.024 ≤ (N0 - 0.8359375) / (18.8515625 - 18.6875 * N0) := by rw [le_div_iff₀ d0]; linarith
  have t2 : (N0 - 0.8359375) / (18.8515625 - 18.6875 * N0) ≤ 1 := by rw [div_le_one d0]; linarith
  have hN : pqN ((N0 - 0.8359375) / (18.8515625 - 18.6875 * N0)) = N0 := by
    have h5 : (1 : ℝ) + 18.6875 * ((N0 - 0.8359375) / (18.8515625 - 18.6875 * N0)) = 3.22998046875 / (18.8515625 - 18.6875 * N0) := by
      field_simp; ring
    have h6 : (0.8359375 : ℝ) + 18.8515625 * ((N0 - 0.8359375) / (18.8515625 - 18.6875 * N0)) = 3.22998046875 * N0 / (18.8515625 - 18.6875 * N0) := by
      rw [eq_div_iff d0.ne', add_mul, mul_assoc, div_mul_cancel₀ _ d0.ne']; ring
    rw [pqN, h5, h6, div_div_div_cancel_right₀ d0.ne']
    field_simp
  generalize (N0 - 0.8359375) / (18.8515625 - 18.6875 * N0) = t at *
  rw [← hN, pqN_sub (by linarith) (by linarith), abs_div, abs_mul, abs_of_pos (by norm_num : (0 : ℝ) < 3.22998046875),
    abs_of_pos (by nlinarith : 0 < (1 + 18.6875 * q) * (1 + 18.6875 * t)), div_le_iff₀ (by nlinarith)] at hq
  have c1 : |q - t| ≤ 1.3e-4 * t := by
    have : (1 + 18.6875 * q) * (1 + 18.6875 * t) ≤ 19.69 * (1 + 18.6875 * t) :=
      mul_le_mul_of_nonneg_right (by linarith) (by linarith)
    linarith
  have c2 : |q - t| ≤ 4e-5 * t := by
    have a1 : q ≤ 1.00013 * t := by linarith [(abs_le.1 c1).2]
    have a2 : (1 + 18.6875 * q) * (1 + 18.6875 * t) ≤ 1.00013 * (1 + 18.6875 * t) * (1 + 18.6875 * t) :=
      mul_le_mul_of_nonneg_right (by linarith) (by linarith)
    have a3 : (1 + 18.6875 * t) * (1 + 18.6875 * t) ≤ 390 * t := by nlinarith
    linarith
  have t0 : 0 < t := by linarith
  obtain ⟨-, hp⟩ := rpow_perturb (y := (1 / 0.1593017578125 : ℝ)) (s := 1 / 0.1593017578125) (f := 0) (L := |Real.log t|) (S := 6.2775) (θ := 2.53e-4) t0 c2
    (by norm_num) (by simp) (by norm_num [abs_le]) le_rfl (by norm_num) (by norm_num)
  have p0 := Real.rpow_pos_of_pos t0 (1 / 0.1593017578125 : ℝ)
  refine ⟨hy.fin, ?_⟩
  have hy' := hy.err
  generalize t ^ (1 / 0.1593017578125 : ℝ) = P at *
  generalize q ^ (1 / 0.1593017578125 : ℝ) = Q at *
  obtain ⟨u1, u2⟩ := abs_le.1 hp
  obtain ⟨u3, u4⟩ := abs_le.1 hy'
  rw [abs_le]; constructor <;> linarith

theorem lit_zero_eq : (Arith.lit 0 : F32) = F32.zero false :=
  ext_finite (by decide +kernel) rfl (by decide +kernel) (by decide +kernel)

theorem pq_black_quot : (if Arith.lt (F32.zero false - Arith.lit 0.8359375 : F32) (Arith.lit 0 : F32) = true then
    (Arith.lit 0 : F32) else (F32.zero false - Arith.lit 0.8359375)) / (Arith.lit 18.8515625 - Arith.lit 18.6875 * F32.zero false) =
      F32.zero false :=
  ext_finite (by decide +kernel) rfl (by decide +kernel) (by decide +kernel)

/-- C86: black.  With `powf(0, y) = 0` for positive `y` (ISO C, annex F) code 0 decodes to 0; 0 always encodes to code 0. -/
theorem C86_black (o : F32.Oracle) :
    @Y_to_ST2084 F32 (F32.libm o) (F32.zero false) = F32.zero false ∧
    ((∀ y : F32, y.isFinite = true → 0 < y.val → o.powf (F32.zero false) y = F32.zero false) →
      @ST2084_to_Y F32 (F32.libm o) (F32.zero false) = F32.zero false) := by
  constructor
  · unfold Y_to_ST2084
    have g1 : @Arith.le F32 F32.instArith (F32.zero false) (Arith.lit 0) = true := by decide +kernel
    exact (if_pos g1).trans lit_zero_eq
  · intro hz
    have h1 := hz (Arith.lit 1 / Arith.lit 78.84375) (by decide +kernel) (by decide +kernel)
    have h2 := hz (Arith.lit 1 / Arith.lit 0.1593017578125) (by decide +kernel) (by decide +kernel)
    unfold ST2084_to_Y pq_m1 pq_m2 pq_c1 pq_c2 pq_c3 pq_C
    change (o.powf ((if Arith.lt (o.powf (F32.zero false) (Arith.lit 1 / Arith.lit 78.84375) - Arith.lit 0.8359375) (Arith.lit 0 : F32) = true then
      (Arith.lit 0 : F32) else (o.powf (F32.zero false) (Arith.lit 1 / Arith.lit 78.84375) - Arith.lit 0.8359375)) /
      (Arith.lit 18.8515625 - Arith.lit 18.6875 * (o.powf (F32.zero false) (Arith.lit 1 / Arith.lit 78.84375)))) (Arith.lit 1 / Arith.lit 0.1593017578125) *
        (Arith.lit 100 : F32)) = _
    rw [h1]
    rw [pq_black_quot, h2]
    exact ext_finite (by decide +kernel) rfl (by decide +kernel) (by decide +kernel)

/-- The hypotheses of C86 are met: an accurate `powf` exists (`exists_powAccurate`), 1/2 is a signal in the range. -/
example : ∃ o : F32.Oracle, o.PowAccurate (2 ^ (-22 : ℤ)) := by
  obtain ⟨o, ho⟩ := exists_powAccurate
  refine ⟨o, fun x y hx hy h0 h1 h2 => ⟨(ho x y hx hy h0 h1 h2).1, (ho x y hx hy h0 h1 h2).2.trans ?_⟩⟩
  gcongr <;> norm_num

example : (Arith.lit 0.5 : F32).isFinite = true ∧ (1 / 4096 : ℝ) ≤ (Arith.lit 0.5 : F32).val ∧ ((Arith.lit 0.5 : F32).val : ℝ) ≤ 1 := by
  have h : (Arith.lit 0.5 : F32).val = 1 / 2 := by decide +kernel
  refine ⟨by decide +kernel, ?_, ?_⟩ <;> rw [h] <;> norm_num

end CS
