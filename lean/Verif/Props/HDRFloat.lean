import Verif.Props.PQFloat
import Verif.Props.ImageFloat

/-!
# C115: HDR (PQ) pixels through XYZ and the RGB spaces, in single precision

The PQ curve is steep near black: a channel that is dark beside a bright one is changed by the conversions by several codes.
A pixel whose channels are within a ratio `R` of each other keeps its codes, with `R` up to 20 for 12 bits, 128 for 10 bits and
240 for 8 bits.
-/

namespace CS
open F32 B32 OTF Spec

/-- `pq_enc` for a larger error of the argument. -/
theorem pq_enc_wide (o : F32.Oracle) (ho : o.PowAccurate (2 ^ (-22 : ℤ))) {x : F32} {q e f E : ℝ} (q0 : 0 < q) (q2 : q ≤ 1.0001)
    (hlo : (2 : ℝ) ^ (-105 : ℤ) ≤ q ^ (1 / 0.1593017578125 : ℝ)) (he : e ≤ 1.1e-3) (he0 : 0 ≤ e) (hf : f = 0.161 * e + 2.7e-7)
    (hE : 3.1e-7 + 0.05 * f = E)
    (hx : Ap x (q ^ (1 / 0.1593017578125 : ℝ) * 100) (e * (q ^ (1 / 0.1593017578125 : ℝ) * 100)))
    (h1 : x.val < 100) :
    ∃ n : F32, @Y_to_ST2084 F32 (F32.libm o) x = o.powf n (Arith.lit 78.84375) ∧ Ap n (pqN q) E := by
  have z1 : ((q ^ (1 / 0.1593017578125 : ℝ)) ^ (0.1593017578125 : ℝ)) = q := rpow_inv_rpow' q0.le (by norm_num)
  have z0 := Real.rpow_pos_of_pos q0 (1 / 0.1593017578125 : ℝ)
  have z2 : q ^ (1 / 0.1593017578125 : ℝ) ≤ 2 := by
    have h1 := Real.rpow_le_rpow q0.le q2 (by norm_num : (0 : ℝ) ≤ 1 / 0.1593017578125)
    have h2 := Real.rpow_le_rpow_of_exponent_le (by norm_num : (1 : ℝ) ≤ 1.0001) (by norm_num : (1 / 0.1593017578125 : ℝ) ≤ 7)
    rw [show (7 : ℝ) = ((7 : ℕ) : ℝ) by norm_num, Real.rpow_natCast] at h2
    exact (h1.trans h2).trans (by norm_num)
  have hloq : (2 : ℝ) ^ (-100 : ℤ) ≤ q := by
    rcases le_or_gt q 1 with h | h
    · have a := Real.rpow_le_rpow (by positivity) hlo (by norm_num : (0 : ℝ) ≤ 0.1593017578125)
      rw [z1] at a
      refine le_trans ?_ a
      rw [← Real.rpow_intCast, ← Real.rpow_intCast, ← Real.rpow_mul (by norm_num)]
      exact Real.rpow_le_rpow_of_exponent_le (by norm_num) (by norm_num)
    · exact le_trans (by norm_num) h.le
  generalize q ^ (1 / 0.1593017578125 : ℝ) = z at *
  obtain ⟨x1, x2⟩ := abs_le.1 hx.err
  have xpos : (0 : ℝ) < x.val := by nlinarith
  have hL : Ap (x / Arith.lit 100 : F32) (z * 100 / 100) ((e + 7e-8) * z) := by
    refine hx.div ap_pq_100 (Q := z) (S := 100) (d := e * z) ?_ (by norm_num) (by norm_num) ?_ (by nlinarith) ?_
    · rw [mul_div_cancel_right₀ _ (by norm_num), abs_of_pos z0]
    · rw [div_le_iff₀ (by norm_num)]; linarith
    · have t1 : (1 : ℝ) / 2 ^ 150 ≤ 1e-9 * z := by
        refine le_trans ?_ (mul_le_mul_of_nonneg_left hlo (by norm_num))
        norm_num
      nlinarith
  rw [mul_div_cancel_right₀ _ (by norm_num)] at hL
  have hLm := Ap.pow ho (y := Arith.lit 0.1593017578125) (e := e + 7e-8) (f := 0) (L := |Real.log z|) (S := 0.1593017578125)
    (θ := 0.1598 * (e + 7e-8)) (E := f) z0 hL (by linarith) ap_pq_m1 (by norm_num [abs_le]) le_rfl (by nlinarith) (by linarith)
    (by rw [z1]; exact hloq) (by rw [z1]; exact q2.trans (by norm_num)) (by positivity) (by rw [hf]; norm_num; nlinarith)
  rw [z1] at hLm
  have f1 : f ≤ 2e-4 := by rw [hf]; linarith
  have f0 : 0 ≤ f := by rw [hf]; positivity
  obtain ⟨m1, m2⟩ := abs_le.1 hLm.err
  have hN := pqN_ap hLm.fin (by nlinarith) (by nlinarith)
  have hs := pqN_lip q0 (by linarith) hLm.err
  refine ⟨_, ?_, ⟨hN.fin, ?_⟩⟩
  rotate_left
  · have := hN.err
    refine (abs_sub_le _ (pqN (o.powf (x / Arith.lit 100 : F32) (Arith.lit 0.1593017578125)).val) _).trans ?_
    linarith
  · unfold Y_to_ST2084 pq_m1 pq_m2 pq_c1 pq_c2 pq_c3 pq_C
    have g1 : ¬ (@Arith.le F32 F32.instArith x (Arith.lit 0) = true) := by
      rw [ale_def, le_finite hx.fin (by decide +kernel), decide_eq_true_eq, not_le]
      have : (Arith.lit 0 : F32).val = 0 := by decide +kernel
      rw [this]; exact_mod_cast xpos
    have g2 : ¬ (@Arith.le F32 F32.instArith (Arith.lit 100) x = true) := by
      rw [ale_def, le_finite (by decide +kernel) hx.fin, decide_eq_true_eq, not_le]
      have : (Arith.lit 100 : F32).val = 100 := by decide +kernel
      rw [this]; exact h1
    exact (if_neg g1).trans (if_neg g2)

/-- Encoding a decoded signal whose linear value was changed by a factor within `1 ± ρ`. -/
theorem pq_trip (o : F32.Oracle) (ho : o.PowAccurate (2 ^ (-22 : ℤ))) (v x : F32) (hv : v.isFinite = true)
    (h : (1 / 4096 : ℝ) ≤ v.val ∧ (v.val : ℝ) ≤ 1) (hx : x.isFinite = true) {ρ : ℝ} (hρ : ρ ≤ 1.001e-3)
    (hd : |(x.val : ℝ) - (@ST2084_to_Y F32 (F32.libm o) v).val| ≤ ρ * (@ST2084_to_Y F32 (F32.libm o) v).val) :
    Ap (@Y_to_ST2084 F32 (F32.libm o) x) v.val ((6.1e-5 + 0.716 * ρ) * v.val) := by
  obtain ⟨q, q1, q2, hq, hy⟩ := pq_dec o ho v hv h
  obtain ⟨N1, N2, N3⟩ := pq_root h
  have q0 : 0 < q := by linarith
  have z0 := Real.rpow_pos_of_pos q0 (1 / 0.1593017578125 : ℝ)
  have plo : (0.024 : ℝ) ^ 7 ≤ q ^ (1 / 0.1593017578125 : ℝ) := by
    have h1 := Real.rpow_le_rpow (by norm_num) q1 (by norm_num : (0 : ℝ) ≤ 1 / 0.1593017578125)
    have h2 := Real.rpow_le_rpow_of_exponent_ge (by norm_num : (0 : ℝ) < 0.024) (by norm_num) (by norm_num : (1 / 0.1593017578125 : ℝ) ≤ 7)
    rw [show (7 : ℝ) = ((7 : ℕ) : ℝ) by norm_num, Real.rpow_natCast] at h2
    exact h2.trans h1
  generalize @ST2084_to_Y F32 (F32.libm o) v = y at *
  obtain ⟨y1, y2⟩ := abs_le.1 hy.err
  obtain ⟨d1, d2⟩ := abs_le.1 hd
  obtain ⟨e, he⟩ : ∃ e, e = 1.000002 * ρ + 1.9e-6 := ⟨_, rfl⟩
  have y0 : (0 : ℝ) < y.val := by nlinarith
  have ρ0 : 0 ≤ ρ := nonneg_of_mul_nonneg_left ((abs_nonneg _).trans hd) y0
  have hx' : Ap x (q ^ (1 / 0.1593017578125 : ℝ) * 100) (e * (q ^ (1 / 0.1593017578125 : ℝ) * 100)) := by
    refine ⟨hx, ?_⟩
    generalize q ^ (1 / 0.1593017578125 : ℝ) * 100 = z at *
    have p1 : ρ * y.val ≤ ρ * (z + 1.9e-6 * z) := mul_le_mul_of_nonneg_left (by linarith) ρ0
    have p2 : 0 ≤ z := by nlinarith
    have p3 : 0 ≤ ρ * z := mul_nonneg ρ0 p2
    rw [he, abs_le]; constructor <;> nlinarith
  rcases lt_or_ge x.val 100 with h1 | h1
  · obtain ⟨n, e1, hn⟩ := pq_enc_wide o ho (e := e) (f := 0.161 * e + 2.7e-7) (E := 3.1e-7 + 0.05 * (0.161 * e + 2.7e-7)) q0 q2
      (le_trans (by norm_num) plo) (by linarith) (by linarith) rfl rfl hx' h1
    rw [e1]
    generalize (v.val : ℝ) ^ (1 / 78.84375 : ℝ) = N0 at *
    have hn' : Ap n N0 ((7.4e-7 + 0.00905 * e) * N0) := by
      refine ⟨hn.fin, ?_⟩
      have := hn.err
      refine (abs_sub_le _ (pqN q) _).trans ?_
      have a : e * 0.89 ≤ e * N0 := mul_le_mul_of_nonneg_left N1 (by linarith)
      linarith
    have := Ap.pow ho (y := Arith.lit 78.84375) (e := 7.4e-7 + 0.00905 * e) (f := 0) (L := |Real.log N0|) (S := 78.84375)
      (θ := 78.85 * (7.4e-7 + 0.00905 * e)) (E := 6.1e-5 + 0.716 * ρ) (by linarith) hn' (by linarith) ap_pq_m2 (by norm_num [abs_le])
      le_rfl (by nlinarith) (by linarith)
      (by rw [N3]; exact le_trans (by norm_num) h.1) (by rw [N3]; exact h.2.trans (by norm_num)) (by positivity) (by
        rw [he]; norm_num; nlinarith)
    rwa [N3] at this
  · have e1 : @Y_to_ST2084 F32 (F32.libm o) x = Arith.lit 1 := by
      have g1 : ¬ (@Arith.le F32 F32.instArith x (Arith.lit 0) = true) := by
        rw [ale_def, le_finite hx (by decide +kernel), decide_eq_true_eq, not_le]
        have : (Arith.lit 0 : F32).val = 0 := by decide +kernel
        rw [this]; linarith
      have g2 : (@Arith.le F32 F32.instArith (Arith.lit 100) x = true) := by
        rw [ale_def, le_finite (by decide +kernel) hx, decide_eq_true_eq]
        have : (Arith.lit 100 : F32).val = 100 := by decide +kernel
        rw [this]; exact h1
      unfold Y_to_ST2084
      exact (if_neg g1).trans (if_pos g2)
    rw [e1]
    refine ⟨lit_ap1.fin, ?_⟩
    have hv1 : ((Arith.lit 1 : F32).val : ℝ) = 1 := by
      have : (Arith.lit 1 : F32).val = 1 := by decide +kernel
      rw [this]; norm_num
    have h1' : (100 : ℝ) ≤ x.val := by exact_mod_cast h1
    obtain ⟨x1, x2⟩ := abs_le.1 hx'.err
    have hz : 1 - e ≤ q ^ (1 / 0.1593017578125 : ℝ) := by
      generalize q ^ (1 / 0.1593017578125 : ℝ) = z at *
      nlinarith
    have hq' : 1 - e ≤ q := by
      by_contra hc
      push Not at hc
      have := Real.rpow_le_rpow_of_exponent_ge q0 (by linarith) (by norm_num : (1 : ℝ) ≤ 1 / 0.1593017578125)
      rw [Real.rpow_one] at this
      linarith
    have hp : 1 - 0.009 * e ≤ pqN q := by
      unfold pqN
      rw [le_div_iff₀ (by positivity)]
      nlinarith
    obtain ⟨b1, b2⟩ := abs_le.1 hq
    have hN : 1 + (-(0.009 * e + 3.3e-7)) ≤ (v.val : ℝ) ^ (1 / 78.84375 : ℝ) := by linarith
    have hb := one_add_mul_self_le_rpow_one_add (s := -(0.009 * e + 3.3e-7)) (p := 78.84375) (by linarith) (by norm_num)
    have hb2 := Real.rpow_le_rpow (by linarith) hN (by norm_num : (0 : ℝ) ≤ 78.84375)
    rw [N3] at hb2
    rw [hv1, abs_of_nonneg (by linarith [h.2])]
    have := hb.trans hb2
    have v1 : 0.999 ≤ (v.val : ℝ) := by linarith
    have : (6.1e-5 + 0.716 * ρ) * 0.999 ≤ (6.1e-5 + 0.716 * ρ) * v.val := mul_le_mul_of_nonneg_left v1 (by linarith)
    linarith

/-! ## Pixels -/

/-- No channel is more than `R` times another. -/
def Comparable (R : ℚ) (t : Tristimulus F32) : Prop :=
  ∀ x ∈ [t.a, t.b, t.c], ∀ y ∈ [t.a, t.b, t.c], x.val ≤ R * y.val

/-- The decoded value of a non-zero code. -/
theorem pq_code (o : F32.Oracle) (ho : o.PowAccurate (2 ^ (-22 : ℤ))) {N k : ℕ} (hN' : N ≤ 4095) (h0 : 0 < k) (hk : k ≤ N) :
    (1 / 4096 : ℝ) ≤ (Arith.ofInt k / Arith.ofInt N : F32).val ∧
    Spectrum.NN (@ST2084_to_Y F32 (F32.libm o) (Arith.ofInt k / Arith.ofInt N)) 201 ∧
    1 / 2 ^ 40 ≤ (@ST2084_to_Y F32 (F32.libm o) (Arith.ofInt k / Arith.ofInt N)).val := by
  have hN : 0 < N := h0.trans_le hk
  obtain ⟨h1, h2⟩ := code_ap hN (hN'.trans (by norm_num)) hk
  have hv : (1 / 4096 : ℝ) ≤ (Arith.ofInt k / Arith.ofInt N : F32).val := by
    have b : (1 / 4096 : ℚ) ≤ k / N := by
      have c1 : (1 : ℚ) ≤ k := by exact_mod_cast h0
      have c2 : (N : ℚ) ≤ 4095 := by exact_mod_cast hN'
      rw [div_le_div_iff₀ (by norm_num) (by exact_mod_cast hN)]; linarith
    obtain ⟨f3, v3, -, -⟩ := code_val hN (hN'.trans (by norm_num)) hk
    have c := le_rnd (by have := rep_two_zpow (e := -12) (by norm_num); norm_num at this ⊢; exact this) b
    rw [← v3] at c
    have := (Rat.cast_le (K := ℝ)).2 c
    push_cast at this
    exact this
  obtain ⟨q, q1, q2, hq, hy⟩ := pq_dec o ho _ h1.fin ⟨hv, h2.2⟩
  have q0 : 0 < q := by linarith
  have plo : (0.024 : ℝ) ^ 7 ≤ q ^ (1 / 0.1593017578125 : ℝ) := by
    have h1 := Real.rpow_le_rpow (by norm_num) q1 (by norm_num : (0 : ℝ) ≤ 1 / 0.1593017578125)
    have h2 := Real.rpow_le_rpow_of_exponent_ge (by norm_num : (0 : ℝ) < 0.024) (by norm_num) (by norm_num : (1 / 0.1593017578125 : ℝ) ≤ 7)
    rw [show (7 : ℝ) = ((7 : ℕ) : ℝ) by norm_num, Real.rpow_natCast] at h2
    exact h2.trans h1
  have phi : q ^ (1 / 0.1593017578125 : ℝ) ≤ 2 := by
    have h1 := Real.rpow_le_rpow q0.le q2 (by norm_num : (0 : ℝ) ≤ 1 / 0.1593017578125)
    have h2 := Real.rpow_le_rpow_of_exponent_le (by norm_num : (1 : ℝ) ≤ 1.0001) (by norm_num : (1 / 0.1593017578125 : ℝ) ≤ 7)
    rw [show (7 : ℝ) = ((7 : ℕ) : ℝ) by norm_num, Real.rpow_natCast] at h2
    exact (h1.trans h2).trans (by norm_num)
  generalize @ST2084_to_Y F32 (F32.libm o) (Arith.ofInt k / Arith.ofInt N) = y at *
  generalize q ^ (1 / 0.1593017578125 : ℝ) = z at *
  obtain ⟨y1, y2⟩ := abs_le.1 hy.err
  have lo : ((1 / 2 ^ 40 : ℚ) : ℝ) ≤ y.val := by
    push_cast
    refine le_trans ?_ (show 99 * z ≤ y.val by nlinarith)
    refine le_trans ?_ (mul_le_mul_of_nonneg_left plo (by norm_num))
    norm_num
  have hi : (y.val : ℝ) ≤ ((201 : ℚ) : ℝ) := by push_cast; nlinarith
  have lo' : 1 / 2 ^ 40 ≤ y.val := by exact_mod_cast lo
  exact ⟨hv, ⟨hy.fin, le_trans (by positivity) lo', by exact_mod_cast hi⟩, lo'⟩

/-- Encoding the decoded pixel, each channel changed by at most `4e-6` of `R` times itself, gives the codes of the pixel. -/
theorem hdr_trip (o : F32.Oracle) (ho : o.PowAccurate (2 ^ (-22 : ℤ))) (g : F32) {N i j k : ℕ} (hN' : N ≤ 4095)
    (i0 : 0 < i) (j0 : 0 < j) (k0 : 0 < k) (hi : i ≤ N) (hj : j ≤ N) (hk : k ≤ N) {R : ℚ} (hR : R ≤ 250)
    (hd : (6.2e-5 + 2.865e-6 * R) * N < 1 / 2)
    (hc : Comparable R (@toScene F32 (F32.libm o) .ST2084 (pixel N i j k) g)) {f : Tristimulus F32 → Tristimulus F32}
    (hf : ∀ C ≤ 2 ^ 100, ∀ t, Within t C → Near (f t) t (4e-6 * C + 1 / 2 ^ 140)) :
    HasCodes N i j k (@toScreen F32 (F32.libm o) .ST2084 (f (@toScene F32 (F32.libm o) .ST2084 (pixel N i j k) g)) g) := by
  have R1 : 1 ≤ R := by
    obtain ⟨-, n, l⟩ := pq_code o ho hN' i0 hi
    have := hc _ (List.mem_cons_self) _ (List.mem_cons_self)
    change _ ≤ R * (@ST2084_to_Y F32 (F32.libm o) (Arith.ofInt i / Arith.ofInt N)).val at this
    change (@ST2084_to_Y F32 (F32.libm o) (Arith.ofInt i / Arith.ofInt N)).val ≤ _ at this
    have p : 0 < (@ST2084_to_Y F32 (F32.libm o) (Arith.ofInt i / Arith.ofInt N)).val := lt_of_lt_of_le (by positivity) l
    by_contra hh
    push Not at hh
    nlinarith
  have key : ∀ {n : ℕ} {x : F32}, 0 < n → n ≤ N → x.isFinite = true →
      (∃ C, |x.val - (@ST2084_to_Y F32 (F32.libm o) (Arith.ofInt n / Arith.ofInt N)).val| ≤ 4e-6 * C + 1 / 2 ^ 140 ∧
        C ≤ R * (@ST2084_to_Y F32 (F32.libm o) (Arith.ofInt n / Arith.ofInt N)).val) →
      (@Y_to_ST2084 F32 (F32.libm o) x).isFinite = true ∧ |(@Y_to_ST2084 F32 (F32.libm o) x).val * N - n| < 1 / 2 := by
    rintro n x n0 hn hx ⟨C, h, hC⟩
    have hN : 0 < N := n0.trans_le hn
    obtain ⟨hv, nn, lo⟩ := pq_code o ho hN' n0 hn
    obtain ⟨h1, h2⟩ := code_ap hN (hN'.trans (by norm_num)) hn
    have hρ : |(x.val : ℝ) - (@ST2084_to_Y F32 (F32.libm o) (Arith.ofInt n / Arith.ofInt N)).val| ≤
        (4.0001e-6 * R : ℝ) * (@ST2084_to_Y F32 (F32.libm o) (Arith.ofInt n / Arith.ofInt N)).val := by
      generalize (@ST2084_to_Y F32 (F32.libm o) (Arith.ofInt n / Arith.ofInt N)).val = y at *
      have : |x.val - y| ≤ 4.0001e-6 * R * y := by
        refine h.trans ?_
        have t1 : (1 : ℚ) / 2 ^ 140 ≤ 1e-10 * (1 / 2 ^ 40) := by norm_num
        have t2 : y ≤ R * y := le_mul_of_one_le_left (le_trans (by positivity) lo) R1
        nlinarith
      have := (Rat.cast_le (K := ℝ)).2 this
      push_cast at this
      norm_num at this ⊢
      exact this
    have hRr : (R : ℝ) ≤ 250 := by exact_mod_cast hR
    have h3 := pq_trip o ho _ x h1.fin ⟨hv, h2.2⟩ hx (by linarith) hρ
    refine ⟨h3.fin, ?_⟩
    have hN0 : (0 : ℝ) < N := by exact_mod_cast hN
    have e1 := h3.err
    have e2 := h1.err
    generalize ((Arith.ofInt n : F32) / Arith.ofInt N).val = v at *
    generalize (@Y_to_ST2084 F32 (F32.libm o) x).val = w at *
    have R1' : (1 : ℝ) ≤ R := by exact_mod_cast R1
    have h4 : |(w : ℝ) - n / N| ≤ 6.2e-5 + 2.865e-6 * R := by
      have := _root_.abs_sub_le (w : ℝ) v (n / N)
      have t : (6.1e-5 + 0.716 * (4.0001e-6 * R)) * v ≤ (6.1e-5 + 0.716 * (4.0001e-6 * (R : ℝ))) * 1 :=
        mul_le_mul_of_nonneg_left h2.2 (by linarith)
      linarith
    have h5 : |(w : ℝ) * N - n| < 1 / 2 := by
      rw [show (w : ℝ) * N - n = (w - n / N) * N by field_simp, abs_mul, abs_of_pos hN0]
      have hd' : (6.2e-5 + 2.865e-6 * (R : ℝ)) * N < 1 / 2 := by
        have := (Rat.cast_lt (K := ℝ)).2 hd
        push_cast at this; exact this
      exact (mul_le_mul_of_nonneg_right h4 hN0.le).trans_lt hd'
    have : ((|w * N - n| : ℚ) : ℝ) < ((1 / 2 : ℚ) : ℝ) := by push_cast; exact h5
    exact_mod_cast this
  obtain ⟨va, na, la⟩ := pq_code o ho hN' i0 hi
  obtain ⟨vb, nb, lb⟩ := pq_code o ho hN' j0 hj
  obtain ⟨vc, nc, lc⟩ := pq_code o ho hN' k0 hk
  have hc' : ∀ x ∈ [@ST2084_to_Y F32 (F32.libm o) (Arith.ofInt i / Arith.ofInt N), @ST2084_to_Y F32 (F32.libm o) (Arith.ofInt j / Arith.ofInt N),
      @ST2084_to_Y F32 (F32.libm o) (Arith.ofInt k / Arith.ofInt N)], ∀ y ∈ [@ST2084_to_Y F32 (F32.libm o) (Arith.ofInt i / Arith.ofInt N),
      @ST2084_to_Y F32 (F32.libm o) (Arith.ofInt j / Arith.ofInt N), @ST2084_to_Y F32 (F32.libm o) (Arith.ofInt k / Arith.ofInt N)],
      x.val ≤ R * y.val := hc
  have key' := fun {n : ℕ} {x : F32} => @key n x
  obtain ⟨C, hC1, hC2, hC3⟩ : ∃ C : ℚ, C ≤ 2 ^ 100 ∧ Within (@toScene F32 (F32.libm o) .ST2084 (pixel N i j k) g) C ∧
      ∀ y ∈ [@ST2084_to_Y F32 (F32.libm o) (Arith.ofInt i / Arith.ofInt N), @ST2084_to_Y F32 (F32.libm o) (Arith.ofInt j / Arith.ofInt N),
        @ST2084_to_Y F32 (F32.libm o) (Arith.ofInt k / Arith.ofInt N)], C ≤ R * y.val := by
    refine ⟨max (@ST2084_to_Y F32 (F32.libm o) (Arith.ofInt i / Arith.ofInt N)).val (max
      (@ST2084_to_Y F32 (F32.libm o) (Arith.ofInt j / Arith.ofInt N)).val (@ST2084_to_Y F32 (F32.libm o) (Arith.ofInt k / Arith.ofInt N)).val),
      ?_, ⟨⟨na.fin, ?_⟩, ⟨nb.fin, ?_⟩, nc.fin, ?_⟩, ?_⟩
    · exact (max_le na.le (max_le nb.le nc.le)).trans (by norm_num)
    · exact (abs_of_nonneg na.nonneg).trans_le (le_max_left _ _)
    · exact (abs_of_nonneg nb.nonneg).trans_le ((le_max_left _ _).trans (le_max_right _ _))
    · exact (abs_of_nonneg nc.nonneg).trans_le ((le_max_right _ _).trans (le_max_right _ _))
    · intro y hy
      exact max_le (hc' _ (by simp) y hy) (max_le (hc' _ (by simp) y hy) (hc' _ (by simp) y hy))
  obtain ⟨⟨fa, fb, fc⟩, da, db, dc⟩ := hf C hC1 _ hC2
  obtain ⟨a1, a2⟩ := key i0 hi fa ⟨C, da, hC3 _ (by simp)⟩
  obtain ⟨b1, b2⟩ := key j0 hj fb ⟨C, db, hC3 _ (by simp)⟩
  obtain ⟨c1, c2⟩ := key k0 hk fc ⟨C, dc, hC3 _ (by simp)⟩
  exact ⟨⟨a1, b1, c1⟩, a2, b2, c2⟩

/-- The ratios allowed for 12, 10 and 8 bits. -/
def RatioFor (N : ℕ) (R : ℚ) : Prop := (N ≤ 4095 ∧ R ≤ 20) ∨ (N ≤ 1023 ∧ R ≤ 128) ∨ (N ≤ 255 ∧ R ≤ 240)

theorem RatioFor.budget {N : ℕ} {R : ℚ} (h : RatioFor N R) : N ≤ 4095 ∧ R ≤ 250 ∧ (6.2e-5 + 2.865e-6 * R) * N < 1 / 2 := by
  have key : ∀ {M : ℕ} {S : ℚ}, N ≤ M → R ≤ S → 0 ≤ S → (6.2e-5 + 2.865e-6 * S) * M < 1 / 2 →
      (6.2e-5 + 2.865e-6 * R) * N < 1 / 2 := by
    intro M S h1 h2 s0 h3
    refine lt_of_le_of_lt ?_ h3
    have n1 : (N : ℚ) ≤ M := by exact_mod_cast h1
    exact (mul_le_mul_of_nonneg_right (by linarith) (by positivity)).trans (mul_le_mul_of_nonneg_left n1 (by linarith))
  rcases h with ⟨h1, h2⟩ | ⟨h1, h2⟩ | ⟨h1, h2⟩
  · exact ⟨h1, by linarith, key h1 h2 (by norm_num) (by norm_num)⟩
  · exact ⟨by omega, by linarith, key h1 h2 (by norm_num) (by norm_num)⟩
  · exact ⟨by omega, by linarith, key h1 h2 (by norm_num) (by norm_num)⟩

/-- C115: a PQ pixel whose channels are comparable, decoded, taken to XYZ by any predefined gamut and back, and encoded again,
has the codes it had. -/
theorem C115_xyz (o : F32.Oracle) (ho : o.PowAccurate (2 ^ (-22 : ℤ))) (x : F32) (g : Gamut F32) (hg : g ∈ predefinedF32)
    (N i j k : ℕ) (i0 : 0 < i) (j0 : 0 < j) (k0 : 0 < k) (hi : i ≤ N) (hj : j ≤ N) (hk : k ≤ N) (R : ℚ) (hR : RatioFor N R) :
    letI := F32.libm o
    Comparable R (toScene .ST2084 (pixel N i j k) x) →
    HasCodes N i j k (toScreen .ST2084 (g.fromXYZ (g.toXYZ (toScene .ST2084 (pixel N i j k) x))) x) := by
  intro hc
  obtain ⟨b1, b2, b3⟩ := hR.budget
  exact hdr_trip o ho x b1 i0 j0 k0 hi hj hk b2 b3 hc (f := fun t => g.fromXYZ (g.toXYZ t))
    fun C hC t ht => (C79_roundtrip g hg t C hC ht).1

/-- C115: … converted to another RGB space and back, … -/
theorem C115_convert (o : F32.Oracle) (ho : o.PowAccurate (2 ^ (-22 : ℤ))) (x : F32) (a b : Gamut F32) (ha : a ∈ rgbF32)
    (hb : b ∈ rgbF32) (N i j k : ℕ) (i0 : 0 < i) (j0 : 0 < j) (k0 : 0 < k) (hi : i ≤ N) (hj : j ≤ N) (hk : k ≤ N) (R : ℚ)
    (hR : RatioFor N R) :
    letI := F32.libm o
    Comparable R (toScene .ST2084 (pixel N i j k) x) →
    HasCodes N i j k (toScreen .ST2084 (((toScene .ST2084 (pixel N i j k) x).apply (GamutConvert a b)).apply (GamutConvert b a)) x) := by
  intro hc
  obtain ⟨b1, b2, b3⟩ := hR.budget
  exact hdr_trip o ho x b1 i0 j0 k0 hi hj hk b2 b3 hc (f := fun t => (t.apply (GamutConvert a b)).apply (GamutConvert b a))
    fun C hC t ht => C79_convert a b ha hb t C hC ht

/-- C115: in particular every grey but black, with 12 bits. -/
theorem C115_grey (o : F32.Oracle) (ho : o.PowAccurate (2 ^ (-22 : ℤ))) (x : F32) (g : Gamut F32) (hg : g ∈ predefinedF32)
    (N k : ℕ) (k0 : 0 < k) (hk : k ≤ N) (hN : N ≤ 4095) :
    letI := F32.libm o
    HasCodes N k k k (toScreen .ST2084 (g.fromXYZ (g.toXYZ (toScene .ST2084 (pixel N k k k) x))) x) := by
  refine C115_xyz o ho x g hg N k k k k0 k0 k0 hk hk hk 1 (.inl ⟨hN, by norm_num⟩) ?_
  have e : ∀ y ∈ [@ST2084_to_Y F32 (F32.libm o) (Arith.ofInt k / Arith.ofInt N), @ST2084_to_Y F32 (F32.libm o) (Arith.ofInt k / Arith.ofInt N),
      @ST2084_to_Y F32 (F32.libm o) (Arith.ofInt k / Arith.ofInt N)], y = @ST2084_to_Y F32 (F32.libm o) (Arith.ofInt k / Arith.ofInt N) := by
    simp
  intro u hu v hv
  rw [e u hu, e v hv, one_mul]

/-! ## A dark channel beside bright ones -/

/-- A cyan of 9300 cd/m² without red. -/
def cyan : Tristimulus F32 := ⟨Arith.lit 0, Arith.lit 91.25, Arith.lit 93⟩

theorem cyan_red : ((Rec709 : Gamut F32).fromXYZ ((Rec709 : Gamut F32).toXYZ cyan)).a.isFinite = true ∧
    3.05e-5 ≤ ((Rec709 : Gamut F32).fromXYZ ((Rec709 : Gamut F32).toXYZ cyan)).a.val := by decide +kernel

/-- C115: without the hypothesis it fails.  The bright cyan has code 0 in red; after Rec.709 → XYZ → Rec.709 its red code is
more than 11 codes of 10 bits, whatever the library's `powf`. -/
theorem C115_dark (o : F32.Oracle) (ho : o.PowAccurate (2 ^ (-22 : ℤ))) (g : F32) :
    letI := F32.libm o
    (toScreen .ST2084 cyan g).a.val = 0 ∧
      11 / 1023 < (toScreen .ST2084 ((Rec709 : Gamut F32).fromXYZ ((Rec709 : Gamut F32).toXYZ cyan)) g).a.val := by
  constructor
  · show (@Y_to_ST2084 F32 (F32.libm o) (Arith.lit 0)).val = 0
    rw [lit_zero_eq, (C86_black o).1]; rfl
  · obtain ⟨f, l⟩ := cyan_red
    show 11 / 1023 < (@Y_to_ST2084 F32 (F32.libm o) ((Rec709 : Gamut F32).fromXYZ ((Rec709 : Gamut F32).toXYZ cyan)).a).val
    generalize ((Rec709 : Gamut F32).fromXYZ ((Rec709 : Gamut F32).toXYZ cyan)).a = x at *
    have l' : (3.05e-5 : ℝ) ≤ x.val := by
      have := (Rat.cast_le (K := ℝ)).2 l
      push_cast at this; norm_num at this ⊢; exact this
    have h := C86_encode o ho x f (le_trans (by norm_num) l')
    have m : (3.05e-7 : ℝ) ≤ min ((x.val : ℝ) / 100) 1 := by
      refine le_min ?_ (by norm_num)
      rw [le_div_iff₀ (by norm_num)]
      exact le_trans (by norm_num) l'
    generalize min ((x.val : ℝ) / 100) 1 = z at *
    have z0 : 0 < z := lt_of_lt_of_le (by norm_num) m
    have hq : (0.09 : ℝ) ≤ z ^ (0.1593017578125 : ℝ) := by
      have a1 : (0.09 : ℝ) ^ (1 / 0.1593017578125 : ℝ) ≤ (0.09 : ℝ) ^ (6.25 : ℝ) :=
        Real.rpow_le_rpow_of_exponent_ge (by norm_num) (by norm_num) (by norm_num)
      have a2 : (0.09 : ℝ) ^ (6.25 : ℝ) ≤ 3.05e-7 := by
        have e : ((0.09 : ℝ) ^ (6.25 : ℝ)) ^ 4 = (0.09 : ℝ) ^ 25 := by
          rw [← Real.rpow_natCast, ← Real.rpow_mul (by norm_num), ← Real.rpow_natCast]; norm_num
        by_contra hh
        push Not at hh
        have := pow_lt_pow_left₀ hh (by norm_num) (n := 4) (by norm_num)
        rw [e] at this
        norm_num at this
      have a3 := Real.rpow_le_rpow (by positivity) ((a1.trans a2).trans m) (by norm_num : (0 : ℝ) ≤ 0.1593017578125)
      rwa [rpow_inv_rpow' (by norm_num) (by norm_num)] at a3
    have hp : (0.01082 : ℝ) ≤ pq z := by
      rw [pq_eq]
      generalize z ^ (0.1593017578125 : ℝ) = q at *
      have b1 : (0.94433 : ℝ) ≤ (0.8359375 + 18.8515625 * q) / (1 + 18.6875 * q) := by
        rw [le_div_iff₀ (by linarith)]; linarith
      have b2 : (0.8359375 + 18.8515625 * q) / (1 + 18.6875 * q) ≤ 2 := by
        rw [div_le_iff₀ (by linarith)]; linarith
      have b3 := Real.rpow_le_rpow (by norm_num) b1 (by norm_num : (0 : ℝ) ≤ 78.84375)
      have b4 : (0.94433 : ℝ) ^ (79 : ℝ) ≤ (0.94433 : ℝ) ^ (78.84375 : ℝ) :=
        Real.rpow_le_rpow_of_exponent_ge (by norm_num) (by norm_num) (by norm_num)
      rw [show (79 : ℝ) = ((79 : ℕ) : ℝ) by norm_num, Real.rpow_natCast] at b4
      exact le_trans (by norm_num) (b4.trans b3)
    have := (abs_le.1 h.err).1
    have : ((11 / 1023 : ℚ) : ℝ) < (@Y_to_ST2084 F32 (F32.libm o) x).val := by
      push_cast
      have : (11 / 1023 : ℝ) < 0.01075 + 0.00001 := by norm_num
      nlinarith
    exact_mod_cast this

/-- The hypotheses are met. -/
example : ∃ o : F32.Oracle, o.PowAccurate (2 ^ (-22 : ℤ)) ∧ ∀ x : F32,
    letI := F32.libm o
    HasCodes 4095 2048 2048 2048 (toScreen .ST2084 ((Rec2020 : Gamut F32).fromXYZ ((Rec2020 : Gamut F32).toXYZ
      (toScene .ST2084 (pixel 4095 2048 2048 2048) x))) x) := by
  obtain ⟨o, p⟩ := exists_powAccurate
  have ho : o.PowAccurate (2 ^ (-22 : ℤ)) := by
    intro x y a b c d e
    obtain ⟨f, g⟩ := p x y a b c d e
    refine ⟨f, g.trans ?_⟩
    have : (0 : ℝ) < (x.val : ℝ) ^ (y.val : ℝ) := lt_of_lt_of_le (by positivity) d
    gcongr <;> norm_num
  refine ⟨o, ho, fun x => C115_grey o ho x _ ?_ 4095 2048 (by norm_num) (by norm_num) le_rfl⟩
  simp [predefinedF32]

end CS
