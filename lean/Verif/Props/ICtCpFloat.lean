import Verif.Props.PQFloat
import Verif.Props.Delta
import Verif.Lemmas.CloseMatrix

/-!
# C100: ICtCp in binary32
-/

namespace CS
open F32 B32 OTF Spec

theorem pqN_lo {q : ℝ} (h : 0 ≤ q) : 0.8359375 ≤ pqN q := by
  unfold pqN; rw [le_div_iff₀ (by positivity)]; nlinarith

theorem pqN_hi {q : ℝ} (h : 0 ≤ q) (h1 : q ≤ 1) : pqN q ≤ 1 := by
  unfold pqN; rw [div_le_one (by positivity)]; nlinarith

theorem pq_pow {x : ℝ} (h : 0 ≤ x) : pq x = pqN (x ^ (0.1593017578125 : ℝ)) ^ (78.84375 : ℝ) := by
  rw [← pq_eq_pqN (Real.rpow_nonneg h _)]
  congr 1
  exact (rpow_inv_rpow' (p := 0.1593017578125) (q := 1 / 0.1593017578125) h (by norm_num)).symm

/-- A relative change of the luminance is damped by the PQ curve. -/
theorem pq_sens {a b e : ℝ} (hb : 0 < b) (he : e ≤ 1e-5) (h : |a - b| ≤ e * b) : |pq a - pq b| ≤ 0.8 * e * pq b := by
  have e0 : 0 ≤ e := nonneg_of_mul_nonneg_left ((abs_nonneg _).trans h) hb
  obtain ⟨a0, h1⟩ := rpow_perturb (y := (0.1593017578125 : ℝ)) (s := 0.1593017578125) (f := 0) (L := |Real.log b|) (S := 0.1593017578125)
    (θ := 0.1594 * e) hb h (by linarith) (by simp) (by norm_num [abs_le]) le_rfl (by nlinarith) (by linarith)
  rw [pq_pow a0.le, pq_pow hb.le]
  have q0 := Real.rpow_pos_of_pos hb (0.1593017578125 : ℝ)
  generalize a ^ (0.1593017578125 : ℝ) = s at *
  generalize b ^ (0.1593017578125 : ℝ) = q at *
  have h2 : |s - q| ≤ (0.16 * e) * q := h1.trans (by gcongr; nlinarith)
  have h3 := pqN_lip q0 (by linarith) h2
  have N0 := pqN_lo q0.le
  have h4 : |pqN s - pqN q| ≤ (0.0096 * e) * pqN q := h3.trans (by nlinarith)
  generalize pqN q = N at *
  obtain ⟨-, h5⟩ := rpow_perturb (y := (78.84375 : ℝ)) (s := 78.84375) (f := 0) (L := |Real.log N|) (S := 78.84375)
    (θ := 0.758 * e) (by linarith) h4 (by linarith) (by simp) (by norm_num [abs_le]) le_rfl (by nlinarith) (by linarith)
  refine h5.trans ?_
  have := Real.rpow_nonneg (by linarith : 0 ≤ N) (78.84375 : ℝ)
  gcongr
  nlinarith

theorem min_one_close {a b e : ℝ} (hb : 0 < b) (he : e ≤ 1e-5) (h : |a - b| ≤ e * b) :
    |min a 1 - min b 1| ≤ e * min b 1 := by
  have e0 : 0 ≤ e := nonneg_of_mul_nonneg_left ((abs_nonneg _).trans h) hb
  rw [abs_le] at h ⊢
  rcases le_total b 1 with h1 | h1
  · rw [min_eq_left h1]
    rcases le_total a 1 with h2 | h2
    · rw [min_eq_left h2]; exact h
    · rw [min_eq_right h2]; constructor <;> nlinarith
  · rw [min_eq_right h1]
    rcases le_total a 1 with h2 | h2
    · rw [min_eq_left h2]; constructor <;> nlinarith
    · rw [min_eq_right h2]; constructor <;> linarith

theorem pq_unit {x : ℝ} (h : 0 ≤ x) : 0 ≤ pq (min x 1) ∧ pq (min x 1) ≤ 1 := by
  have h0 : 0 ≤ min x 1 := le_min h zero_le_one
  have q0 := Real.rpow_nonneg h0 (0.1593017578125 : ℝ)
  have q1 := Real.rpow_le_one h0 (min_le_right x 1) (by norm_num : (0 : ℝ) ≤ 0.1593017578125)
  rw [pq_pow h0]
  have := pqN_lo q0
  exact ⟨Real.rpow_nonneg (by linarith) _, Real.rpow_le_one (by linarith) (pqN_hi q0 q1) (by norm_num)⟩

/-- The PQ signal of a float close to `l`. -/
theorem pq_channel (o : F32.Oracle) (ho : o.PowAccurate (2 ^ (-22 : ℤ))) (x : F32) (hx : x.isFinite = true) {l : ℝ}
    (hl : (2 : ℝ) ^ (-80 : ℤ) ≤ l) (h : |(x.val : ℝ) - l| ≤ 6.8e-6 * l) :
    Ap (@Y_to_ST2084 F32 (F32.libm o) x) (pq (min (l / 100) 1)) (3.9e-5 * pq (min (l / 100) 1)) := by
  have l0 : 0 < l := lt_of_lt_of_le (by positivity) hl
  have hx1 : (2 : ℝ) ^ (-90 : ℤ) ≤ x.val := by
    have h1 := (abs_le.1 h).1
    have h2 : (2 : ℝ) ^ (-90 : ℤ) ≤ 0.5 * 2 ^ (-80 : ℤ) := by norm_num
    generalize (2 : ℝ) ^ (-80 : ℤ) = z at *
    generalize (2 : ℝ) ^ (-90 : ℤ) = z' at *
    linarith
  have h1 := C86_encode o ho x hx hx1
  have h2 : |(x.val : ℝ) / 100 - l / 100| ≤ 6.8e-6 * (l / 100) := by
    rw [← sub_div, abs_div, abs_of_pos (by norm_num : (0 : ℝ) < 100), ← mul_div_assoc]; gcongr
  have h3 := min_one_close (by positivity) (by norm_num) h2
  have m0 : 0 < min (l / 100) 1 := lt_min (by positivity) one_pos
  have h4 := pq_sens m0 (by norm_num) h3
  refine ⟨h1.fin, ?_⟩
  have h5 := h1.err
  obtain ⟨p0, p1⟩ := pq_unit (x := l / 100) (by positivity)
  generalize pq (min (l / 100) 1) = P at *
  generalize pq (min (x.val / 100) 1) = Q at *
  rw [abs_le] at *
  constructor <;> linarith

/-! ### The cone matrix -/

/-- The binary32 cone matrix. -/
def hpeF : Matrix3 F32 :=
  ⟨Arith.lit 0.3592, Arith.lit 0.6976, Arith.lit (-0.0358), Arith.lit (-0.1922), Arith.lit 1.1004, Arith.lit 0.0755,
   Arith.lit 0.0070, Arith.lit 0.0749, Arith.lit 0.8434⟩
/-- The cone matrix, exactly. -/
def hpeQ : Matrix3 ℚ := ⟨0.3592, 0.6976, -0.0358, -0.1922, 1.1004, 0.0755, 0.0070, 0.0749, 0.8434⟩

theorem hpeF_close : Close hpeF hpeQ 4.1e-7 :=
  close_of_check (v := hpeF.vals) (by decide +kernel) rfl (by decide +kernel)

theorem hpeQ_apply (c : Tristimulus ℝ) : triV (c.apply hpeQ.toReal) = hpe.mulVec (triV c) := by
  rw [← HPE_fromXYZ]
  have : (HPE_LMS : Gamut ℝ).fromXYZ_ = hpeQ.toReal := by
    simp only [HPE_LMS, Gamut.ofFromXYZ, hpeQ, Matrix3.toReal, lit_real]
  rw [← this]; rfl

/-- The cone responses in binary32. -/
theorem cones (o : F32.Oracle) (t : Tristimulus F32) (C : ℚ) (hC : 2 ^ (-60 : ℤ) ≤ C ∧ C ≤ 2 ^ 100) (ht : Within t C)
    (hl : ∀ i, (C : ℝ) / 16 ≤ hpe.mulVec (triV t.real) i) :
    let u := (@HPE_LMS F32 (F32.libm o)).fromXYZ t
    let l := hpe.mulVec (triV t.real)
    (∀ i, (2 : ℝ) ^ (-80 : ℤ) ≤ l i) ∧ (u.a.isFinite = true ∧ |(u.a.val : ℝ) - l 0| ≤ 6.8e-6 * l 0) ∧
      (u.b.isFinite = true ∧ |(u.b.val : ℝ) - l 1| ≤ 6.8e-6 * l 1) ∧
      (u.c.isFinite = true ∧ |(u.c.val : ℝ) - l 2| ≤ 6.8e-6 * l 2) := by
  intro u l
  have h := hpeF_close.error hC.2 t ht
  have hu : u = t.apply hpeF := rfl
  have e0 : (t.real.apply hpeQ.toReal).a = l 0 := congrFun (hpeQ_apply t.real) 0
  have e1 : (t.real.apply hpeQ.toReal).b = l 1 := congrFun (hpeQ_apply t.real) 1
  have e2 : (t.real.apply hpeQ.toReal).c = l 2 := congrFun (hpeQ_apply t.real) 2
  obtain ⟨⟨f0, f1, f2⟩, g0, g1, g2⟩ := h
  rw [e0] at g0
  rw [e1] at g1
  rw [e2] at g2
  have hC' : (2 : ℝ) ^ (-60 : ℤ) ≤ C := by
    have := (Rat.cast_le (K := ℝ)).2 hC.1
    push_cast at this; exact this
  push_cast at g0 g1 g2
  have k : ∀ i, 4.1e-7 * (C : ℝ) + 1 / 2 ^ 140 ≤ 6.8e-6 * l i ∧ (2 : ℝ) ^ (-80 : ℤ) ≤ l i := by
    intro i
    have h1 : (C : ℝ) / 16 ≤ l i := hl i
    have h2 : (1 : ℝ) / 2 ^ 140 ≤ 1e-9 * 2 ^ (-60 : ℤ) := by norm_num
    have h3 : (2 : ℝ) ^ (-80 : ℤ) ≤ 2 ^ (-60 : ℤ) / 16 := by norm_num
    have h4 : (0 : ℝ) < 2 ^ (-60 : ℤ) := by positivity
    generalize (2 : ℝ) ^ (-60 : ℤ) = z at *
    generalize (1 : ℝ) / 2 ^ 140 = z' at *
    generalize (2 : ℝ) ^ (-80 : ℤ) = z'' at *
    constructor <;> linarith
  exact ⟨fun i => (k i).2, ⟨f0, g0.trans (by norm_num at *; exact (k 0).1)⟩, ⟨f1, g1.trans (by norm_num at *; exact (k 1).1)⟩,
    ⟨f2, g2.trans (by norm_num at *; exact (k 2).1)⟩⟩

/-! ### The linear part -/

/-- The literals of the linear part. -/
theorem ap_ictcp : Ap (Arith.lit 6610 : F32) (6610 : ℝ) 0 ∧ Ap (Arith.lit 13613 : F32) (13613 : ℝ) 0 ∧
    Ap (Arith.lit 7003 : F32) (7003 : ℝ) 0 ∧ Ap (Arith.lit 17933 : F32) (17933 : ℝ) 0 ∧
    Ap (Arith.lit 17390 : F32) (17390 : ℝ) 0 ∧ Ap (Arith.lit 543 : F32) (543 : ℝ) 0 ∧
    Ap (Arith.lit 4096 : F32) (4096 : ℝ) 0 ∧ Ap (Arith.lit 0.5 : F32) (0.5 : ℝ) 0 :=
  ⟨Ap.ofEval (q := 6610) (e := 0) (by decide +kernel) (by norm_num) (by norm_num),
   Ap.ofEval (q := 13613) (e := 0) (by decide +kernel) (by norm_num) (by norm_num),
   Ap.ofEval (q := 7003) (e := 0) (by decide +kernel) (by norm_num) (by norm_num),
   Ap.ofEval (q := 17933) (e := 0) (by decide +kernel) (by norm_num) (by norm_num),
   Ap.ofEval (q := 17390) (e := 0) (by decide +kernel) (by norm_num) (by norm_num),
   Ap.ofEval (q := 543) (e := 0) (by decide +kernel) (by norm_num) (by norm_num),
   Ap.ofEval (q := 4096) (e := 0) (by decide +kernel) (by norm_num) (by norm_num),
   Ap.ofEval (q := 0.5) (e := 0) (by decide +kernel) (by norm_num) (by norm_num)⟩

theorem scaled_ap {k p : F32} {K v e E : ℝ} (hk : Ap k K 0) (hp : Ap p v e) (hv : |v| ≤ 1.01) (K0 : 1 ≤ K) (K1 : K ≤ 20000)
    (he : e ≤ 1e-4) (hE : K * (e + 7e-8) ≤ E) : Ap (k * p) (K * v) E := by
  have e0 := hp.nonneg
  refine hk.mul hp (R := K) (S := 1.01) (by rw [abs_of_pos (by linarith)]) hv ?_ ?_
  · have : K * 1.01 + (0 * 1.01 + e * K + 0 * e) ≤ 30000 := by nlinarith
    exact this.trans (by norm_num)
  · have h1 : e * K ≤ 1e-4 * K := by gcongr
    norm_num at h1 ⊢
    generalize hz : e * K = z at *
    have : K * (e + 7e-8) = z + 7e-8 * K := by rw [← hz]; ring
    norm_num at this hE
    linarith

/-- The opponent signals from perturbed PQ signals. -/
theorem ictcp_ap (o : F32.Oracle) {p : Tristimulus F32} {v0 v1 v2 e : ℝ} (h0 : Ap p.a v0 e) (h1 : Ap p.b v1 e) (h2 : Ap p.c v2 e)
    (b0 : 0 ≤ v0 ∧ v0 ≤ 1.01) (b1 : 0 ≤ v1 ∧ v1 ≤ 1.01) (b2 : 0 ≤ v2 ∧ v2 ≤ 1.01) (he : e ≤ 1e-4) :
    Ap (@pqToICtCp F32 (F32.libm o) p).a ((v0 + v1) * 0.5) (e + 2e-7) ∧
    Ap (@pqToICtCp F32 (F32.libm o) p).b ((6610 * v0 - 13613 * v1 + 7003 * v2) / 4096) (6.65 * e + 2e-6) ∧
    Ap (@pqToICtCp F32 (F32.libm o) p).c ((17933 * v0 - 17390 * v1 - 543 * v2) / 4096) (8.76 * e + 2e-6) := by
  obtain ⟨k1, k2, k3, k4, k5, k6, k7, k8⟩ := ap_ictcp
  have e0 := h0.nonneg
  have a0 : |v0| ≤ 1.01 := abs_le.2 ⟨by linarith, b0.2⟩
  have a1 : |v1| ≤ 1.01 := abs_le.2 ⟨by linarith, b1.2⟩
  have a2 : |v2| ≤ 1.01 := abs_le.2 ⟨by linarith, b2.2⟩
  refine ⟨?_, ?_, ?_⟩
  · have s := h0.add h1 (B := 2.02) (E := 2 * e + 1.3e-7) (by rw [abs_le]; constructor <;> linarith)
      (by norm_num; linarith) (by norm_num; linarith)
    exact s.mul k8 (R := 2.02) (S := 0.5) (by rw [abs_le]; constructor <;> linarith) (by norm_num [abs_le])
      (by norm_num; linarith) (by norm_num; linarith)
  · have m1 := scaled_ap k1 h0 a0 (by norm_num) (by norm_num) he le_rfl
    have m2 := scaled_ap k2 h1 a1 (by norm_num) (by norm_num) he le_rfl
    have m3 := scaled_ap k3 h2 a2 (by norm_num) (by norm_num) he le_rfl
    have s1 := m1.sub m2 (B := 14000) (E := 20223.01 * e + 2.4e-3) (by rw [abs_le]; constructor <;> linarith)
      (by norm_num; linarith) (by norm_num; linarith)
    have s2 := s1.add m3 (B := 14000) (E := 27226.1 * e + 3.8e-3) (by rw [abs_le]; constructor <;> linarith)
      (by norm_num; linarith) (by norm_num; linarith)
    exact s2.div k7 (Q := 3.5) (S := 4096) (d := 6.648 * e + 9.5e-7)
      (by rw [abs_div, abs_of_pos (by norm_num : (0 : ℝ) < 4096), div_le_iff₀ (by norm_num), abs_le]; constructor <;> linarith)
      (by norm_num) (by norm_num) (by rw [div_le_iff₀ (by norm_num)]; linarith) (by norm_num; linarith) (by norm_num; linarith)
  · have m1 := scaled_ap k4 h0 a0 (by norm_num) (by norm_num) he le_rfl
    have m2 := scaled_ap k5 h1 a1 (by norm_num) (by norm_num) he le_rfl
    have m3 := scaled_ap k6 h2 a2 (by norm_num) (by norm_num) he le_rfl
    have s1 := m1.sub m2 (B := 18200) (E := 35323.01 * e + 3.7e-3) (by rw [abs_le]; constructor <;> linarith)
      (by norm_num; linarith) (by norm_num; linarith)
    have s2 := s1.sub m3 (B := 18200) (E := 35866.1 * e + 4.9e-3) (by rw [abs_le]; constructor <;> linarith)
      (by norm_num; linarith) (by norm_num; linarith)
    exact s2.div k7 (Q := 4.5) (S := 4096) (d := 8.757 * e + 1.3e-6)
      (by rw [abs_div, abs_of_pos (by norm_num : (0 : ℝ) < 4096), div_le_iff₀ (by norm_num), abs_le]; constructor <;> linarith)
      (by norm_num) (by norm_num) (by rw [div_le_iff₀ (by norm_num)]; linarith) (by norm_num; linarith) (by norm_num; linarith)

theorem ap_ictcp_dec : Ap (Arith.lit 0.00860904 : F32) (0.00860904 : ℝ) 1e-9 ∧ Ap (Arith.lit 0.11103 : F32) (0.11103 : ℝ) 4e-9 ∧
    Ap (Arith.lit 0.560031 : F32) (0.560031 : ℝ) 3e-8 ∧ Ap (Arith.lit 0.320627 : F32) (0.320627 : ℝ) 2e-8 :=
  ⟨Ap.ofEval (q := 0.00860904) (e := 1e-9) (by decide +kernel) (by norm_num) (by norm_num),
   Ap.ofEval (q := 0.11103) (e := 4e-9) (by decide +kernel) (by norm_num) (by norm_num),
   Ap.ofEval (q := 0.560031) (e := 3e-8) (by decide +kernel) (by norm_num) (by norm_num),
   Ap.ofEval (q := 0.320627) (e := 2e-8) (by decide +kernel) (by norm_num) (by norm_num)⟩

/-- The linear parts of the encoder and of the decoder undo each other up to `4.3e-6`. -/
theorem pq_linear (o : F32.Oracle) {p : Tristimulus F32} (h0 : p.a.isFinite = true) (h1 : p.b.isFinite = true) (h2 : p.c.isFinite = true)
    (b0 : (0 : ℝ) ≤ p.a.val ∧ (p.a.val : ℝ) ≤ 1.01) (b1 : (0 : ℝ) ≤ p.b.val ∧ (p.b.val : ℝ) ≤ 1.01)
    (b2 : (0 : ℝ) ≤ p.c.val ∧ (p.c.val : ℝ) ≤ 1.01) :
    Ap (@ICtCpToPq F32 (F32.libm o) (@pqToICtCp F32 (F32.libm o) p)).a p.a.val 4.3e-6 ∧ Ap (@ICtCpToPq F32 (F32.libm o) (@pqToICtCp F32 (F32.libm o) p)).b p.b.val 4.3e-6 ∧
      Ap (@ICtCpToPq F32 (F32.libm o) (@pqToICtCp F32 (F32.libm o) p)).c p.c.val 4.3e-6 := by
  obtain ⟨i0, i1, i2⟩ := ictcp_ap o (Ap.exact h0) (Ap.exact h1) (Ap.exact h2) b0 b1 b2 (by norm_num)
  obtain ⟨k0, k1, k2, k3⟩ := ap_ictcp_dec
  generalize (p.a.val : ℝ) = x at *
  generalize (p.b.val : ℝ) = y at *
  generalize (p.c.val : ℝ) = z at *
  have n0 : |(x + y) * 0.5| ≤ 1.01 := by rw [abs_le]; constructor <;> linarith
  have n1 : |(6610 * x - 13613 * y + 7003 * z) / 4096| ≤ 3.5 := by
    rw [abs_div, abs_of_pos (by norm_num : (0 : ℝ) < 4096), div_le_iff₀ (by norm_num), abs_le]; constructor <;> linarith
  have n2 : |(17933 * x - 17390 * y - 543 * z) / 4096| ≤ 4.5 := by
    rw [abs_div, abs_of_pos (by norm_num : (0 : ℝ) < 4096), div_le_iff₀ (by norm_num), abs_le]; constructor <;> linarith
  have q0 := k0.mul i1 (R := 0.009) (S := 3.5) (E := 3e-8) (by norm_num [abs_le]) n1 (by norm_num) (by norm_num)
  have q1 := k1.mul i2 (R := 0.1111) (S := 4.5) (E := 2.9e-7) (by norm_num [abs_le]) n2 (by norm_num) (by norm_num)
  have q2 := k2.mul i1 (R := 0.5601) (S := 3.5) (E := 1.4e-6) (by norm_num [abs_le]) n1 (by norm_num) (by norm_num)
  have q3 := k3.mul i2 (R := 0.3207) (S := 4.5) (E := 9e-7) (by norm_num [abs_le]) n2 (by norm_num) (by norm_num)
  have shift : ∀ {w : F32} {r s e f : ℝ}, Ap w r e → |r - s| ≤ f → e + f ≤ 4.3e-6 → Ap w s 4.3e-6 := by
    intro w r s e f h1 h2 h3
    refine ⟨h1.fin, ?_⟩
    have := abs_sub_le (w.val : ℝ) r s
    linarith [h1.err]
  refine ⟨?_, ?_, ?_⟩
  · have s1 := i0.add q0 (B := 1.1) (E := 3.1e-7) (by rw [abs_le] at *; constructor <;> linarith) (by norm_num) (by norm_num)
    have s2 := s1.add q1 (B := 1.7) (E := 8e-7) (by rw [abs_le] at *; constructor <;> linarith) (by norm_num) (by norm_num)
    exact shift s2 (f := 3.4e-6) (by rw [abs_le] at *; constructor <;> linarith) (by norm_num)
  · have s1 := i0.sub q0 (B := 1.1) (E := 3.1e-7) (by rw [abs_le] at *; constructor <;> linarith) (by norm_num) (by norm_num)
    have s2 := s1.sub q1 (B := 1.7) (E := 8e-7) (by rw [abs_le] at *; constructor <;> linarith) (by norm_num) (by norm_num)
    exact shift s2 (f := 3.4e-6) (by rw [abs_le] at *; constructor <;> linarith) (by norm_num)
  · have s1 := i0.add q2 (B := 3.1) (E := 1.8e-6) (by rw [abs_le] at *; constructor <;> linarith) (by norm_num) (by norm_num)
    have s2 := s1.sub q3 (B := 3.1) (E := 2.9e-6) (by rw [abs_le] at *; constructor <;> linarith) (by norm_num) (by norm_num)
    exact shift s2 (f := 1.3e-6) (by rw [abs_le] at *; constructor <;> linarith) (by norm_num)

/-! ### Encoding -/

/-- Specification: ICtCp (ITU-R BT.2100) of cone responses with 100 for the peak of the PQ curve. -/
noncomputable def Spec.ictcp (l : Fin 3 → ℝ) : Fin 3 → ℝ :=
  let v := fun i => pq (min (l i / 100) 1)
  ![(v 0 + v 1) / 2, (6610 * v 0 - 13613 * v 1 + 7003 * v 2) / 4096, (17933 * v 0 - 17390 * v 1 - 543 * v 2) / 4096]

/-- C100: in binary32, for a colour none of whose cone responses is small compared with its components, `I` is within
4e-5, `Ct` within 2.7e-4 and `Cp` within 3.5e-4 of the value the standard prescribes. -/
theorem C100_encode (o : F32.Oracle) (ho : o.PowAccurate (2 ^ (-22 : ℤ))) (t : Tristimulus F32) (C : ℚ)
    (hC : 2 ^ (-60 : ℤ) ≤ C ∧ C ≤ 2 ^ 100) (ht : Within t C) (hl : ∀ i, (C : ℝ) / 16 ≤ hpe.mulVec (triV t.real) i) :
    let s := @XYZ_to_ICtCp F32 (F32.libm o) t
    let r := ictcp (hpe.mulVec (triV t.real))
    Ap s.a (r 0) 4e-5 ∧ Ap s.b (r 1) 2.7e-4 ∧ Ap s.c (r 2) 3.5e-4 := by
  intro s r
  obtain ⟨hp, ⟨f0, g0⟩, ⟨f1, g1⟩, f2, g2⟩ := cones o t C hC ht hl
  have c0 := pq_channel o ho _ f0 (hp 0) g0
  have c1 := pq_channel o ho _ f1 (hp 1) g1
  have c2 := pq_channel o ho _ f2 (hp 2) g2
  have u : ∀ i, 0 ≤ pq (min (hpe.mulVec (triV t.real) i / 100) 1) ∧ pq (min (hpe.mulVec (triV t.real) i / 100) 1) ≤ 1 :=
    fun i => pq_unit (div_nonneg (le_trans (by positivity) (hp i)) (by norm_num))
  have w : ∀ i, 3.9e-5 * pq (min (hpe.mulVec (triV t.real) i / 100) 1) ≤ 3.9e-5 := fun i => by linarith [(u i).2]
  have h := ictcp_ap o (p := ⟨@Y_to_ST2084 F32 (F32.libm o) ((@HPE_LMS F32 (F32.libm o)).fromXYZ t).a,
    @Y_to_ST2084 F32 (F32.libm o) ((@HPE_LMS F32 (F32.libm o)).fromXYZ t).b,
    @Y_to_ST2084 F32 (F32.libm o) ((@HPE_LMS F32 (F32.libm o)).fromXYZ t).c⟩) (c0.weaken (w 0)) (c1.weaken (w 1)) (c2.weaken (w 2))
    ⟨(u 0).1, (u 0).2.trans (by norm_num)⟩ ⟨(u 1).1, (u 1).2.trans (by norm_num)⟩ ⟨(u 2).1, (u 2).2.trans (by norm_num)⟩ (by norm_num)
  have e0 : r 0 = (pq (min (hpe.mulVec (triV t.real) 0 / 100) 1) + pq (min (hpe.mulVec (triV t.real) 1 / 100) 1)) * 0.5 := by
    simp only [r, ictcp, Matrix.cons_val]; ring
  rw [e0]
  exact ⟨h.1.weaken (by norm_num), h.2.1.weaken (by norm_num), h.2.2.weaken (by norm_num)⟩

/-! ### Decoding -/

theorem pq_ge {x : ℝ} (h : 1e-4 ≤ x) : 0.146 ≤ pq x := by
  have x0 : 0 < x := lt_of_lt_of_le (by norm_num) h
  rw [pq_pow x0.le]
  have h1 : (0.229 : ℝ) ≤ x ^ (0.1593017578125 : ℝ) := by
    have a1 : ((0.229 : ℝ) ^ (25 / 4 : ℝ)) ≤ 1e-4 := by
      have : ((0.229 : ℝ) ^ (25 / 4 : ℝ)) ^ (4 : ℕ) ≤ (1e-4) ^ (4 : ℕ) := by
        rw [← Real.rpow_natCast, ← Real.rpow_mul (by norm_num), show (25 / 4 : ℝ) * ((4 : ℕ) : ℝ) = ((25 : ℕ) : ℝ) by norm_num,
          Real.rpow_natCast]
        norm_num
      exact le_of_pow_le_pow_left₀ (by norm_num) (by norm_num) this
    have a2 : (0.229 : ℝ) ^ (1 / 0.1593017578125 : ℝ) ≤ x :=
      ((Real.rpow_le_rpow_of_exponent_ge (by norm_num) (by norm_num) (by norm_num)).trans a1).trans h
    have a3 := Real.rpow_le_rpow (by positivity) a2 (by norm_num : (0 : ℝ) ≤ 0.1593017578125)
    rwa [rpow_inv_rpow' (by norm_num) (by norm_num)] at a3
  generalize x ^ (0.1593017578125 : ℝ) = q at *
  have h2 : 0.976 ≤ pqN q := by unfold pqN; rw [le_div_iff₀ (by linarith)]; linarith
  have a1 := Real.rpow_le_rpow (by norm_num) h2 (by norm_num : (0 : ℝ) ≤ 78.84375)
  have a2 := Real.rpow_le_rpow_of_exponent_ge (by norm_num : (0 : ℝ) < 0.976) (by norm_num) (by norm_num : (78.84375 : ℝ) ≤ 79)
  rw [show (79 : ℝ) = ((79 : ℕ) : ℝ) by norm_num, Real.rpow_natCast] at a2
  exact le_trans (by norm_num) (a2.trans a1)

theorem pq_lt {x : ℝ} (h0 : 0 < x) (h : x ≤ 0.99) : pq x ≤ 0.9991 := by
  rw [pq_pow h0.le]
  have q0 := Real.rpow_pos_of_pos h0 (0.1593017578125 : ℝ)
  have h1 : x ^ (0.1593017578125 : ℝ) ≤ 0.9985 := by
    have a1 := rpow_one_add_le_one_add_mul_self (s := x - 1) (p := 0.1593017578125) (by linarith) (by norm_num) (by norm_num)
    rw [show 1 + (x - 1) = x by ring] at a1
    linarith
  generalize x ^ (0.1593017578125 : ℝ) = q at *
  have h2 : pqN q ≤ 0.99999 - 2e-6 := by unfold pqN; rw [div_le_iff₀ (by linarith)]; linarith
  have h3 := pqN_lo q0.le
  have a1 := Real.rpow_le_rpow_of_exponent_ge (by linarith) (by linarith) (by norm_num : ((77 : ℕ) : ℝ) ≤ 78.84375) (x := pqN q)
  rw [Real.rpow_natCast] at a1
  refine a1.trans ((pow_le_pow_left₀ (by linarith) h2 77).trans ?_)
  norm_num

/-- Decoding a float close to the PQ signal of `x`. -/
theorem pq_undo (o : F32.Oracle) (ho : o.PowAccurate (2 ^ (-22 : ℤ))) (w : F32) (hw : w.isFinite = true) {x : ℝ}
    (hx : 1e-4 ≤ x ∧ x ≤ 0.99) (h : |(w.val : ℝ) - pq x| ≤ 7e-5 * pq x) :
    Ap (@ST2084_to_Y F32 (F32.libm o) w) (x * 100) (9.5e-4 * (x * 100)) := by
  have x0 : 0 < x := by linarith
  have p1 := pq_ge hx.1
  have p2 := pq_lt x0 hx.2
  obtain ⟨w1, w2⟩ := abs_le.1 h
  obtain ⟨q, q1, q2, hq, hy⟩ := pq_dec o ho w hw ⟨by linarith, by linarith⟩
  obtain ⟨-, hr⟩ := rpow_perturb (y := (1 / 78.84375 : ℝ)) (s := 1 / 78.84375) (f := 0) (L := |Real.log (pq x)|) (S := 0.0127) (θ := 8.9e-7)
    (by linarith) h (by norm_num) (by simp) (by norm_num [abs_le]) le_rfl (by norm_num) (by norm_num)
  have t0 := Real.rpow_pos_of_pos x0 (0.1593017578125 : ℝ)
  have ex : (x ^ (0.1593017578125 : ℝ)) ^ (1 / 0.1593017578125 : ℝ) = x := rpow_inv_rpow' x0.le (by norm_num)
  have t1 : x ^ (0.1593017578125 : ℝ) ≤ 1 := Real.rpow_le_one x0.le (by linarith) (by norm_num)
  have t2 : 0.1 ≤ x ^ (0.1593017578125 : ℝ) := by
    have a1 := Real.rpow_le_rpow (by norm_num) hx.1 (by norm_num : (0 : ℝ) ≤ 0.1593017578125)
    have a2 := Real.rpow_le_rpow_of_exponent_ge (by norm_num : (0 : ℝ) < 1e-4) (by norm_num) (by norm_num : (0.1593017578125 : ℝ) ≤ 1 / 4)
    have a3 : (1e-4 : ℝ) ^ (1 / 4 : ℝ) = 0.1 := by
      rw [show (1e-4 : ℝ) = 0.1 ^ ((4 : ℕ) : ℝ) by rw [Real.rpow_natCast]; norm_num]
      exact rpow_inv_rpow' (by norm_num) (by norm_num)
    linarith
  have eN : (pq x) ^ (1 / 78.84375 : ℝ) = pqN (x ^ (0.1593017578125 : ℝ)) := by
    rw [pq_pow x0.le]
    exact rpow_inv_rpow' (by have := pqN_lo t0.le; linarith) (by norm_num)
  rw [eN] at hr
  have N1 := pqN_hi t0.le t1
  have N0 := pqN_lo t0.le
  have hq' : |pqN q - pqN (x ^ (0.1593017578125 : ℝ))| ≤ 1.23e-6 := by
    refine (abs_sub_le _ ((w.val : ℝ) ^ (1 / 78.84375 : ℝ)) _).trans ?_
    generalize |pqN q - (w.val : ℝ) ^ (1 / 78.84375 : ℝ)| = A at *
    generalize |(w.val : ℝ) ^ (1 / 78.84375 : ℝ) - pqN (x ^ (0.1593017578125 : ℝ))| = B at *
    generalize pqN (x ^ (0.1593017578125 : ℝ)) = N at *
    norm_num at *
    linarith
  rw [show x * 100 = (x ^ (0.1593017578125 : ℝ)) ^ (1 / 0.1593017578125 : ℝ) * 100 by rw [ex]]
  clear ex eN hr hq N0 N1 p1 p2 w1 w2 h
  generalize x ^ (0.1593017578125 : ℝ) = t at *
  rw [pqN_sub (by linarith) (by linarith), abs_div, abs_mul, abs_of_pos (by norm_num : (0 : ℝ) < 3.22998046875),
    abs_of_pos (by nlinarith : 0 < (1 + 18.6875 * q) * (1 + 18.6875 * t)), div_le_iff₀ (by nlinarith)] at hq'
  have c1 : |q - t| ≤ 3e-4 * t := by
    have : (1 + 18.6875 * q) * (1 + 18.6875 * t) ≤ 19.69 * (1 + 18.6875 * t) :=
      mul_le_mul_of_nonneg_right (by linarith) (by linarith)
    linarith
  have c2 : |q - t| ≤ 1.487e-4 * t := by
    have a1 : q ≤ 1.0003 * t := by linarith [(abs_le.1 c1).2]
    have a2 : (1 + 18.6875 * q) * (1 + 18.6875 * t) ≤ 1.0003 * (1 + 18.6875 * t) * (1 + 18.6875 * t) :=
      mul_le_mul_of_nonneg_right (by linarith) (by linarith)
    have a3 : (1 + 18.6875 * t) * (1 + 18.6875 * t) ≤ 390 * t := by nlinarith
    linarith
  obtain ⟨-, hp⟩ := rpow_perturb (y := (1 / 0.1593017578125 : ℝ)) (s := 1 / 0.1593017578125) (f := 0) (L := |Real.log t|) (S := 6.2775) (θ := 9.4e-4) t0 c2
    (by norm_num) (by simp) (by norm_num [abs_le]) le_rfl (by norm_num) (by norm_num)
  have p0 := Real.rpow_pos_of_pos t0 (1 / 0.1593017578125 : ℝ)
  refine ⟨hy.fin, ?_⟩
  have hy' := hy.err
  generalize t ^ (1 / 0.1593017578125 : ℝ) = P at *
  generalize q ^ (1 / 0.1593017578125 : ℝ) = Q at *
  obtain ⟨u1, u2⟩ := abs_le.1 hp
  obtain ⟨u3, u4⟩ := abs_le.1 hy'
  rw [abs_le]; constructor <;> linarith

/-- The inverse of the cone matrix. -/
def hpeInvQ : Matrix3 ℚ :=
  ⟨230605602500 / 111393983221, -147759315000 / 111393983221, 23015780000 / 111393983221,
   40657495000 / 111393983221, 75799970000 / 111393983221, -5059710000 / 111393983221,
   -5524645000 / 111393983221, -5505220000 / 111393983221, 132335600000 / 111393983221⟩

theorem hpeF_inv_close : Close hpeF.invert hpeInvQ 2e-6 :=
  close_of_check (v := hpeF.invert.vals) (by decide +kernel) rfl (by decide +kernel)

/-- One channel of the round trip. -/
theorem pq_channel_undo (o : F32.Oracle) (ho : o.PowAccurate (2 ^ (-22 : ℤ))) (w : F32) {p l : ℝ} (hw : Ap w p 4.3e-6)
    (hl : 0.01 ≤ l ∧ l ≤ 99) (h : |p - pq (min (l / 100) 1)| ≤ 3.9e-5 * pq (min (l / 100) 1)) :
    Ap (@ST2084_to_Y F32 (F32.libm o) w) l (9.5e-4 * l) := by
  rw [min_eq_left (by linarith)] at h
  have p1 := pq_ge (x := l / 100) (by linarith)
  have := pq_undo o ho w hw.fin (x := l / 100) ⟨by linarith, by linarith⟩ (by
    have h1 := hw.err
    have h2 := abs_sub_le (w.val : ℝ) p (pq (l / 100))
    linarith)
  rwa [div_mul_cancel₀ _ (by norm_num)] at this

/-- Undoing the cone matrix. -/
theorem hpe_undo {x y z : F32} {a b c : ℝ} (l : Fin 3 → ℝ) (C : ℚ) (l0 : l 0 = 0.3592 * a + 0.6976 * b - 0.0358 * c)
    (l1 : l 1 = -0.1922 * a + 1.1004 * b + 0.0755 * c) (l2 : l 2 = 0.0070 * a + 0.0749 * b + 0.8434 * c)
    (q : ∀ i, 0 ≤ l i) (m0 : l 0 ≤ 1.0926 * C) (m1 : l 1 ≤ 1.3681 * C) (m2 : l 2 ≤ 0.9253 * C) (C1 : (0.01 : ℝ) ≤ C)
    (C2' : C ≤ 2000) (d0 : Ap x (l 0) (9.5e-4 * l 0)) (d1 : Ap y (l 1) (9.5e-4 * l 1)) (d2 : Ap z (l 2) (9.5e-4 * l 2)) :
    let s := (⟨x, y, z⟩ : Tristimulus F32).apply hpeF.invert
    Ap s.a a (4.4e-3 * C) ∧ Ap s.b b (1.4e-3 * C) ∧ Ap s.c c (1.3e-3 * C) := by
  intro s
  have bd : ∀ {x : F32} {i}, Ap x (l i) (9.5e-4 * l i) → l i ≤ 1.3681 * C → 0 ≤ l i → x.isFinite = true ∧ |x.val| ≤ 1.37 * C := by
    intro x i h h1 h2
    refine ⟨h.fin, ?_⟩
    have e1 : |(x.val : ℝ)| ≤ (1.37 : ℝ) * C := by
      obtain ⟨h3, h4⟩ := abs_le.1 h.err
      rw [abs_le]; constructor <;> linarith
    have e2 : ((|x.val| : ℚ) : ℝ) ≤ ((1.37 * C : ℚ) : ℝ) := by
      rw [Rat.cast_abs, Rat.cast_mul]; norm_num at e1 ⊢; exact e1
    exact_mod_cast e2
  have W := hpeF_inv_close.error (C := 1.37 * C) (by norm_num at C2' ⊢; linarith) ⟨x, y, z⟩
    ⟨bd d0 (by linarith) (q 0), bd d1 m1 (q 1), bd d2 (by linarith) (q 2)⟩
  obtain ⟨⟨F0, F1, F2⟩, G0, G1, G2⟩ := W
  have hE : ((2e-6 * (1.37 * C) + 1 / 2 ^ 140 : ℚ) : ℝ) ≤ 3e-6 * C := by
    push_cast
    have : (1 : ℝ) / 2 ^ 140 ≤ 1e-10 := by norm_num
    generalize (1 : ℝ) / 2 ^ 140 = z at *
    norm_num
    linarith
  have E0 : ((⟨x, y, z⟩ : Tristimulus F32).real.apply hpeInvQ.toReal).a =
      230605602500 / 111393983221 * x.val - 147759315000 / 111393983221 * y.val + 23015780000 / 111393983221 * z.val := by
    simp [Tristimulus.apply, Tristimulus.ofVec3, Matrix3.apply, Tristimulus.vec3, hpeInvQ, Matrix3.toReal, Tristimulus.real]; ring
  have E1 : ((⟨x, y, z⟩ : Tristimulus F32).real.apply hpeInvQ.toReal).b =
      40657495000 / 111393983221 * x.val + 75799970000 / 111393983221 * y.val - 5059710000 / 111393983221 * z.val := by
    simp [Tristimulus.apply, Tristimulus.ofVec3, Matrix3.apply, Tristimulus.vec3, hpeInvQ, Matrix3.toReal, Tristimulus.real]; ring
  have E2 : ((⟨x, y, z⟩ : Tristimulus F32).real.apply hpeInvQ.toReal).c =
      -5524645000 / 111393983221 * x.val - 5505220000 / 111393983221 * y.val + 132335600000 / 111393983221 * z.val := by
    simp [Tristimulus.apply, Tristimulus.ofVec3, Matrix3.apply, Tristimulus.vec3, hpeInvQ, Matrix3.toReal, Tristimulus.real]; ring
  rw [E0] at G0
  rw [E1] at G1
  rw [E2] at G2
  obtain ⟨x1, x2⟩ := abs_le.1 d0.err
  obtain ⟨y1, y2⟩ := abs_le.1 d1.err
  obtain ⟨z1, z2⟩ := abs_le.1 d2.err
  have g0 := abs_le.1 (G0.trans hE)
  have g1 := abs_le.1 (G1.trans hE)
  have g2 := abs_le.1 (G2.trans hE)
  clear bd hE G0 G1 G2 E0 E1 E2
  refine ⟨⟨F0, ?_⟩, ⟨F1, ?_⟩, ⟨F2, ?_⟩⟩
  · rw [abs_le]; constructor <;> linarith [g0.1, g0.2]
  · rw [abs_le]; constructor <;> linarith [g1.1, g1.2]
  · rw [abs_le]; constructor <;> linarith [g2.1, g2.2]

/-- C100: round trip.  For a colour whose cone responses lie between 0.01 and 99 and are not small compared with its
components, encoding and decoding in binary32 gives back X within 4.4e-3, Y within 1.4e-3 and Z within 1.3e-3 (of the
bound on the components). -/
theorem C100_roundtrip (o : F32.Oracle) (ho : o.PowAccurate (2 ^ (-22 : ℤ))) (t : Tristimulus F32) (C : ℚ) (ht : Within t C)
    (hl : ∀ i, (C : ℝ) / 16 ≤ hpe.mulVec (triV t.real) i)
    (hr : ∀ i, 0.01 ≤ hpe.mulVec (triV t.real) i ∧ hpe.mulVec (triV t.real) i ≤ 99) :
    let s := @ICtCp_to_XYZ F32 (F32.libm o) (@XYZ_to_ICtCp F32 (F32.libm o) t)
    Ap s.a t.a.val (4.4e-3 * C) ∧ Ap s.b t.b.val (1.4e-3 * C) ∧ Ap s.c t.c.val (1.3e-3 * C) := by
  intro s
  have l0 : hpe.mulVec (triV t.real) 0 = 0.3592 * t.a.val + 0.6976 * t.b.val - 0.0358 * t.c.val := by
    rw [← hpeQ_apply]; simp [triV, Tristimulus.apply, Tristimulus.ofVec3, Matrix3.apply, Tristimulus.vec3, hpeQ, Matrix3.toReal, Tristimulus.real]; ring
  have l1 : hpe.mulVec (triV t.real) 1 = -0.1922 * t.a.val + 1.1004 * t.b.val + 0.0755 * t.c.val := by
    rw [← hpeQ_apply]; simp [triV, Tristimulus.apply, Tristimulus.ofVec3, Matrix3.apply, Tristimulus.vec3, hpeQ, Matrix3.toReal, Tristimulus.real]
  have l2 : hpe.mulVec (triV t.real) 2 = 0.0070 * t.a.val + 0.0749 * t.b.val + 0.8434 * t.c.val := by
    rw [← hpeQ_apply]; simp [triV, Tristimulus.apply, Tristimulus.ofVec3, Matrix3.apply, Tristimulus.vec3, hpeQ, Matrix3.toReal, Tristimulus.real]
  set l := hpe.mulVec (triV t.real) with hL
  have hc : ∀ {x : F32}, |x.val| ≤ C → -(C : ℝ) ≤ x.val ∧ (x.val : ℝ) ≤ C := by
    intro x h
    have := (Rat.cast_le (K := ℝ)).2 h
    rw [Rat.cast_abs] at this
    exact abs_le.1 this
  obtain ⟨ta1, ta2⟩ := hc ht.1.2
  obtain ⟨tb1, tb2⟩ := hc ht.2.1.2
  obtain ⟨tc1, tc2⟩ := hc ht.2.2.2
  have m0 : l 0 ≤ 1.0926 * C := by rw [l0]; linarith
  have m1 : l 1 ≤ 1.3681 * C := by rw [l1]; linarith
  have m2 : l 2 ≤ 0.9253 * C := by rw [l2]; linarith
  have C1 : (0.01 : ℝ) ≤ C := by linarith [(hr 2).1]
  have C2 : (C : ℝ) ≤ 2000 := by linarith [hl 0, (hr 0).2]
  have C1' : (0.01 : ℚ) ≤ C := by
    have : (((0.01 : ℚ)) : ℝ) ≤ C := by norm_num at C1 ⊢; exact C1
    exact_mod_cast this
  have C2' : C ≤ 2000 := by exact_mod_cast C2
  have hC : 2 ^ (-60 : ℤ) ≤ C ∧ C ≤ 2 ^ 100 := ⟨le_trans (by norm_num) C1', le_trans C2' (by norm_num)⟩
  obtain ⟨hp, ⟨f0, g0⟩, ⟨f1, g1⟩, f2, g2⟩ := cones o t C hC ht hl
  have c0 := pq_channel o ho _ f0 (hp 0) g0
  have c1 := pq_channel o ho _ f1 (hp 1) g1
  have c2 := pq_channel o ho _ f2 (hp 2) g2
  have u : ∀ i, 0 ≤ pq (min (l i / 100) 1) ∧ pq (min (l i / 100) 1) ≤ 1 :=
    fun i => pq_unit (div_nonneg (le_trans (by norm_num) (hr i).1) (by norm_num))
  have rg : ∀ {x : F32} {i}, Ap x (pq (min (l i / 100) 1)) (3.9e-5 * pq (min (l i / 100) 1)) → (0 : ℝ) ≤ x.val ∧ (x.val : ℝ) ≤ 1.01 := by
    intro x i h
    obtain ⟨h1, h2⟩ := abs_le.1 h.err
    obtain ⟨u1, u2⟩ := u i
    constructor <;> linarith
  obtain ⟨w0, w1, w2⟩ := pq_linear o (p := ⟨@Y_to_ST2084 F32 (F32.libm o) ((@HPE_LMS F32 (F32.libm o)).fromXYZ t).a,
    @Y_to_ST2084 F32 (F32.libm o) ((@HPE_LMS F32 (F32.libm o)).fromXYZ t).b,
    @Y_to_ST2084 F32 (F32.libm o) ((@HPE_LMS F32 (F32.libm o)).fromXYZ t).c⟩) c0.fin c1.fin c2.fin (rg c0) (rg c1) (rg c2)
  have d0 := pq_channel_undo o ho _ w0 (hr 0) c0.err
  have d1 := pq_channel_undo o ho _ w1 (hr 1) c1.err
  have d2 := pq_channel_undo o ho _ w2 (hr 2) c2.err
  exact hpe_undo l C l0 l1 l2 (fun i => by linarith [(hr i).1]) m0 m1 m2 C1 C2' d0 d1 d2

/-- The hypotheses of the round trip are met, for instance by `X = Y = Z = 1`. -/
example : let t : Tristimulus F32 := ⟨Arith.lit 1, Arith.lit 1, Arith.lit 1⟩
    Within t 1 ∧ (∀ i, ((1 : ℚ) : ℝ) / 16 ≤ hpe.mulVec (triV t.real) i) ∧
      ∀ i, 0.01 ≤ hpe.mulVec (triV t.real) i ∧ hpe.mulVec (triV t.real) i ≤ 99 := by
  intro t
  have e : (Arith.lit 1 : F32).val = 1 := by decide +kernel
  refine ⟨⟨by decide +kernel, by decide +kernel, by decide +kernel⟩, ?_, ?_⟩ <;> intro i <;> fin_cases i <;>
    norm_num [t, Tristimulus.real, e, hpe, triV, Matrix.mulVec, dotProduct, Fin.sum_univ_three] <;>
    simp only [Matrix.cons_val] <;> norm_num

end CS
