import Verif.Props.E00
import Verif.Spec.CIEDE

/-!
# C73: `Delta::E00` is CIEDE2000  (exact arithmetic)

Against the published formulae of `Spec/CIEDE.lean` with `π` read as the decimal of the code.
-/

namespace CS
open Delta Spec

namespace CIEDE

theorem root7_eq {C : ℝ} (hC : 0 ≤ C) :
    Real.sqrt (C ^ (7 : ℝ) / (C ^ (7 : ℝ) + pow25_7)) = CIEDE2000.root7 C := by
  rw [CIEDE2000.root7, pow25_7_real, show (7 : ℝ) = ((7 : ℕ) : ℝ) by norm_num, Real.rpow_natCast]
  norm_num

theorem chroma_eq (a b : ℝ) : Real.sqrt (a * a + b * b) = CIEDE2000.chroma a b := by
  rw [CIEDE2000.chroma, sq, sq]

theorem chroma_nonneg (a b : ℝ) : 0 ≤ CIEDE2000.chroma a b := Real.sqrt_nonneg _

theorem G_eq (a1 b1 a2 b2 : ℝ) : G00 a1 b1 a2 b2 =
    CIEDE2000.G ((CIEDE2000.chroma a1 b1 + CIEDE2000.chroma a2 b2) / 2) := by
  have := chroma_nonneg a1 b1
  have := chroma_nonneg a2 b2
  rw [G00_real, chroma_eq, chroma_eq, root7_eq (by positivity), CIEDE2000.G]
  ring

theorem hue_eq (b a : ℝ) : hue00 b a = CIEDE2000.hue PI00 a b := by
  have hp := PI00_pos
  obtain ⟨p1, p2⟩ := PI00_bounds
  have hpi := Real.pi_gt_three
  obtain ⟨l, u⟩ := Complex.arg_mem_Ioc ⟨a, b⟩
  set A := Complex.arg ⟨a, b⟩ with hA
  have hl : -200 < A * 180 / PI00 := by rw [lt_div_iff₀ hp]; linarith
  have hu : A * 180 / PI00 < 200 := by rw [div_lt_iff₀ hp]; linarith
  have e : hue00 b a = (360 + A * 180 / PI00) - 360 * (⌊(360 + A * 180 / PI00) / 360⌋ : ℝ) := by
    simp only [hue00, fmodf_real, atan2f_real, lit_real]
    push_cast
    rw [← hA, rtrunc, if_pos (div_nonneg (by linarith) (by norm_num))]
  rw [e, CIEDE2000.hue, ← hA]
  split_ifs with h0 hn
  · have : A = 0 := by rw [hA, h0.1, h0.2]; exact Complex.arg_zero
    rw [this]; norm_num
  · have : A * 180 / PI00 < 0 := by
      rw [div_lt_iff₀ hp]; linarith
    have : ⌊(360 + A * 180 / PI00) / 360⌋ = 0 := by
      rw [Int.floor_eq_iff]; push_cast
      constructor
      · exact div_nonneg (by linarith) (by norm_num)
      · rw [div_lt_iff₀ (by norm_num)]; linarith
    rw [this]; push_cast; ring
  · have : 0 ≤ A * 180 / PI00 := div_nonneg (by linarith) hp.le
    have : ⌊(360 + A * 180 / PI00) / 360⌋ = 1 := by
      rw [Int.floor_eq_iff]; push_cast
      constructor
      · rw [le_div_iff₀ (by norm_num)]; linarith
      · rw [div_lt_iff₀ (by norm_num)]; linarith
    rw [this]; push_cast; ring

theorem T_eq (h : ℝ) : T00 h = CIEDE2000.T PI00 h := by
  simp only [T00, CIEDE2000.T, CIEDE2000.cosd, lit_real, cosf_real]
  push_cast
  rw [one_mul]
  ring

theorem RT_eq (h : ℝ) {C : ℝ} (hC : 0 ≤ C) : Rt00 h C = CIEDE2000.RT PI00 C h := by
  simp only [Rt00, CIEDE2000.RT, CIEDE2000.sind, CIEDE2000.Δθ, lit_real, sqrtf_real, powf_real,
    expf_real, sinf_real]
  push_cast
  rw [root7_eq hC, show -((h - 275) * (h - 275) / (25 * 25)) = -((h - 275) / 25) ^ 2 by ring,
    show ∀ e : ℝ, 2 * (30 * e) * PI00 / 180 = PI00 * (2 * (30 * e)) / 180 by intro e; ring]
  ring

theorem diffHue_eq {CC : ℝ} (h : CC ≠ 0) (h1 h2 : ℝ) : dh00 h1 h2 = CIEDE2000.diffHue CC h1 h2 := by
  rw [dh00_real, CIEDE2000.diffHue, if_neg h]
  split_ifs with a b c c
  · rfl
  · linarith
  · rfl
  · rfl
  · rw [not_le, lt_abs] at a
    rcases a with a | a <;> linarith

theorem hBar_real (h1 h2 : ℝ) : hBar00 h1 h2 = (if 180 < |h1 - h2| then h1 + h2 + 360 else h1 + h2) / 2 := by
  simp only [hBar00, lt_real, fabs_real, lit_real]; push_cast; rfl

theorem meanHue_eq {CC : ℝ} (h : CC ≠ 0) {h1 h2 : ℝ} (hw : ¬ (180 < |h1 - h2| ∧ 360 ≤ h1 + h2)) :
    hBar00 h1 h2 = CIEDE2000.meanHue CC h1 h2 := by
  rw [hBar_real, CIEDE2000.meanHue, if_neg h]
  split_ifs with a b c c
  · linarith
  · rfl
  · exact absurd ⟨a, not_lt.mp c⟩ hw
  · rfl
  · linarith
  · linarith

theorem meanHue_wrap {CC : ℝ} (h : CC ≠ 0) {h1 h2 : ℝ} (hw : 180 < |h1 - h2| ∧ 360 ≤ h1 + h2) :
    hBar00 h1 h2 = CIEDE2000.meanHue CC h1 h2 + 360 := by
  rw [hBar_real, CIEDE2000.meanHue, if_neg h, if_neg (not_le.mpr hw.1), if_neg (not_lt.mpr hw.2),
    if_pos hw.1]
  ring

/-- The final line as a function of the mean hue. -/
noncomputable def final (l c dH C kH h : ℝ) : ℝ :=
  Real.sqrt (l ^ 2 + c ^ 2 + (dH / (kH * CIEDE2000.SH PI00 C h)) ^ 2
    + CIEDE2000.RT PI00 C h * c * (dH / (kH * CIEDE2000.SH PI00 C h)))

/-- Both sides with everything but the mean hue in common. -/
theorem common (p q : Tristimulus ℝ) (Kl Kc Kh : ℝ) : ∃ l c dH C CC h1 h2 : ℝ, 0 ≤ C ∧
    (∃ g, h1 = CIEDE2000.hue PI00 ((1 + g) * p.b) p.c ∧ h2 = CIEDE2000.hue PI00 ((1 + g) * q.b) q.c ∧
      g = CIEDE2000.G ((CIEDE2000.chroma p.b p.c + CIEDE2000.chroma q.b q.c) / 2)) ∧
    (CC = 0 → dH = 0) ∧
    (0 ≤ h1 ∧ h1 < 360 ∧ 0 ≤ h2 ∧ h2 < 360) ∧
    E00 p q Kl Kc Kh = final l c dH C Kh (hBar00 h1 h2) ∧
    CIEDE2000.ΔE PI00 p.a p.b p.c q.a q.b q.c Kl Kc Kh
      = final l c dH C Kh (CIEDE2000.meanHue CC h1 h2) := by
  set g := CIEDE2000.G ((CIEDE2000.chroma p.b p.c + CIEDE2000.chroma q.b q.c) / 2) with hg
  set C1 := CIEDE2000.chroma ((1 + g) * p.b) p.c with hC1
  set C2 := CIEDE2000.chroma ((1 + g) * q.b) q.c with hC2
  set h1 := CIEDE2000.hue PI00 ((1 + g) * p.b) p.c with hh1
  set h2 := CIEDE2000.hue PI00 ((1 + g) * q.b) q.c with hh2
  have n1 : 0 ≤ C1 := chroma_nonneg _ _
  have n2 : 0 ≤ C2 := chroma_nonneg _ _
  have r1 := hue00_real p.c ((1 + g) * p.b)
  have r2 := hue00_real q.c ((1 + g) * q.b)
  rw [hue_eq] at r1 r2
  obtain ⟨-, -, a1, b1⟩ := r1
  obtain ⟨-, -, a2, b2⟩ := r2
  have hE : C1 * C2 = 0 ∨ dh00 h1 h2 = CIEDE2000.diffHue (C1 * C2) h1 h2 := by
    by_cases h : C1 * C2 = 0
    · exact Or.inl h
    · exact Or.inr (diffHue_eq h _ _)
  refine ⟨(q.a - p.a) / (Kl * CIEDE2000.SL ((p.a + q.a) / 2)),
    (C2 - C1) / (Kc * CIEDE2000.SC ((C1 + C2) / 2)),
    2 * Real.sqrt (C1 * C2) * CIEDE2000.sind PI00 (CIEDE2000.diffHue (C1 * C2) h1 h2 / 2),
    (C1 + C2) / 2, C1 * C2, h1, h2, by positivity, ⟨g, rfl, rfl, rfl⟩, ?_, ⟨a1, b1, a2, b2⟩, ?_, ?_⟩
  · intro h; rw [h, Real.sqrt_zero]; ring
  · have hCb : 0 ≤ (C1 + C2) / 2 := by positivity
    have m1 : p.b * (1 + g) = (1 + g) * p.b := mul_comm _ _
    have m2 : q.b * (1 + g) = (1 + g) * q.b := mul_comm _ _
    simp only [E00, radicand00, parts00, sqrtf_real, lit_real, sinf_real, G_eq, ← hg, m1, m2]
    push_cast
    simp only [m1, m2, chroma_eq, hue_eq, ← hC1, ← hC2, ← hh1, ← hh2, T_eq, RT_eq _ hCb]
    have s : 2 * Real.sqrt (C1 * C2) * Real.sin (PI00 * dh00 h1 h2 / (180 * 2))
        = 2 * Real.sqrt (C1 * C2) * CIEDE2000.sind PI00 (CIEDE2000.diffHue (C1 * C2) h1 h2 / 2) := by
      rcases hE with h | h
      · rw [h, Real.sqrt_zero]; ring
      · rw [h, CIEDE2000.sind]; congr 2; ring
    rw [s]
    rw [final, CIEDE2000.SL, CIEDE2000.SC, CIEDE2000.SH]
    congr 1
    simp only [sq]
  · rfl

theorem exp_small {x : ℝ} (h : 11 ≤ x) : Real.exp (-x) ≤ 1.7e-5 := by
  have h1 : Real.exp (-x) ≤ Real.exp (-11) := Real.exp_le_exp.mpr (by linarith)
  have h2 : Real.exp (-11) = (Real.exp 1 ^ 11)⁻¹ := by
    rw [← Real.exp_nat_mul, Real.exp_neg]; norm_num
  have h3 : (2.7182818 : ℝ) ^ 11 ≤ Real.exp 1 ^ 11 :=
    pow_le_pow_left₀ (by norm_num) (by have := Real.exp_one_gt_d9; norm_num at this ⊢; linarith) 11
  rw [h2] at h1
  refine h1.trans ?_
  rw [inv_le_comm₀ (by positivity) (by norm_num)]
  refine le_trans ?_ h3
  norm_num

theorem RT_small {C h : ℝ} (hC : 0 ≤ C) (hh : 11 ≤ ((h - 275) / 25) ^ 2) :
    |CIEDE2000.RT PI00 C h| ≤ 3.6e-5 ∧ CIEDE2000.RT PI00 C h ≤ 0 := by
  have hp := PI00_pos
  obtain ⟨p1, p2⟩ := PI00_bounds
  have hpi := Real.pi_lt_d2
  have he := exp_small hh
  have he0 := (Real.exp_pos (-((h - 275) / 25) ^ 2)).le
  obtain ⟨r0, r1⟩ := chroma_ratio hC
  rw [root7_eq hC] at r0 r1
  have hx0 : 0 ≤ PI00 * (2 * CIEDE2000.Δθ h) / 180 := by
    rw [CIEDE2000.Δθ]; positivity
  have hx : PI00 * (2 * CIEDE2000.Δθ h) / 180 ≤ 1.79e-5 := by
    rw [CIEDE2000.Δθ]
    have : (PI00 : ℝ) ≤ 3.15 := by rw [PI00_real]; norm_num
    calc PI00 * (2 * (30 * Real.exp (-((h - 275) / 25) ^ 2))) / 180
        ≤ 3.15 * (2 * (30 * 1.7e-5)) / 180 := by gcongr
      _ ≤ 1.79e-5 := by norm_num
  have hs := Real.sin_le hx0
  have hs0 : 0 ≤ Real.sin (PI00 * (2 * CIEDE2000.Δθ h) / 180) :=
    Real.sin_nonneg_of_nonneg_of_le_pi hx0 (by norm_num at hx; linarith [Real.pi_gt_three])
  rw [CIEDE2000.RT, CIEDE2000.sind]
  set S := Real.sin (PI00 * (2 * CIEDE2000.Δθ h) / 180)
  set R := CIEDE2000.root7 C
  have hSR : 0 ≤ S * (2 * R) := by positivity
  have hb : S * (2 * R) ≤ 1.79e-5 * (2 * 1) := by
    have : S ≤ 1.79e-5 := hs.trans hx
    gcongr
  rw [neg_mul, abs_neg, abs_of_nonneg hSR]
  constructor
  · norm_num at hb ⊢; linarith
  · linarith

theorem cos_turn (k : ℕ) (x : ℝ) :
    |Real.cos (x + k * (2 * PI00)) - Real.cos x| ≤ k * (2 * 1e-18) := by
  obtain ⟨p1, p2⟩ := PI00_bounds
  have hper : Real.cos (x + k * (2 * Real.pi)) = Real.cos x := Real.cos_add_nat_mul_two_pi x k
  rw [← hper]
  refine (abs_cos_sub_le _ _).trans ?_
  rw [show x + k * (2 * PI00) - (x + k * (2 * Real.pi)) = k * (2 * (PI00 - Real.pi)) by ring, abs_mul,
    abs_mul, Nat.abs_cast, abs_of_pos (show (0:ℝ) < 2 by norm_num)]
  gcongr
  rw [abs_le]; constructor <;> linarith
where
  abs_cos_sub_le (a b : ℝ) : |Real.cos a - Real.cos b| ≤ |a - b| := by
    have := Real.lipschitzWith_cos.dist_le_mul a b
    simpa [Real.dist_eq] using this

theorem T_turn (h : ℝ) : |CIEDE2000.T PI00 (h + 360) - CIEDE2000.T PI00 h| ≤ 1e-17 := by
  simp only [CIEDE2000.T, CIEDE2000.cosd]
  have c1 := cos_turn 1 (PI00 * (h - 30) / 180)
  have c2 := cos_turn 2 (PI00 * (2 * h) / 180)
  have c3 := cos_turn 3 (PI00 * (3 * h + 6) / 180)
  have c4 := cos_turn 4 (PI00 * (4 * h - 63) / 180)
  push_cast at c1 c2 c3 c4
  rw [show PI00 * (h - 30) / 180 + 1 * (2 * PI00) = PI00 * (h + 360 - 30) / 180 by ring] at c1
  rw [show PI00 * (2 * h) / 180 + 2 * (2 * PI00) = PI00 * (2 * (h + 360)) / 180 by ring] at c2
  rw [show PI00 * (3 * h + 6) / 180 + 3 * (2 * PI00) = PI00 * (3 * (h + 360) + 6) / 180 by ring] at c3
  rw [show PI00 * (4 * h - 63) / 180 + 4 * (2 * PI00) = PI00 * (4 * (h + 360) - 63) / 180 by ring] at c4
  rw [abs_le] at c1 c2 c3 c4 ⊢
  norm_num at c1 c2 c3 c4 ⊢
  constructor <;> linarith

theorem T_lower (h : ℝ) : 0.07 ≤ CIEDE2000.T PI00 h := by
  simp only [CIEDE2000.T, CIEDE2000.cosd]
  have h1 := Real.cos_le_one (PI00 * (h - 30) / 180)
  have h2 := Real.neg_one_le_cos (PI00 * (2 * h) / 180)
  have h3 := Real.neg_one_le_cos (PI00 * (3 * h + 6) / 180)
  have h4 := Real.cos_le_one (PI00 * (4 * h - 63) / 180)
  norm_num
  linarith

theorem sqrt_close {A1 A2 : ℝ} (hA2n : 0 ≤ A2) (hε : |A1 - A2| ≤ 4e-5 * A2) :
    |Real.sqrt A1 - Real.sqrt A2| ≤ 4e-5 * Real.sqrt A2 := by
  have hA1n : 0 ≤ A1 := by
    have := (abs_le.mp hε).1
    norm_num at this
    linarith
  set s1 := Real.sqrt A1 with hs1
  set s2 := Real.sqrt A2 with hs2
  have n1 : 0 ≤ s1 := Real.sqrt_nonneg _
  have n2 : 0 ≤ s2 := Real.sqrt_nonneg _
  have q1 : s1 ^ 2 = A1 := Real.sq_sqrt hA1n
  have q2 : s2 ^ 2 = A2 := Real.sq_sqrt hA2n
  rw [← q1, ← q2, show s1 ^ 2 - s2 ^ 2 = (s1 - s2) * (s1 + s2) by ring, abs_mul,
    abs_of_nonneg (add_nonneg n1 n2)] at hε
  rcases n2.eq_or_lt with h2 | h2
  · rw [← h2] at hε ⊢
    have : |s1 - 0| * s1 ≤ 0 := by simpa using hε
    rw [sub_zero, abs_of_nonneg n1] at this
    have : s1 = 0 := by nlinarith
    rw [this]; norm_num
  · have : |s1 - s2| * s2 ≤ 4e-5 * s2 * s2 := by
      nlinarith [mul_nonneg (abs_nonneg (s1 - s2)) n1]
    exact le_of_mul_le_mul_right this h2

/-- A turn more in the mean hue hardly matters. -/
theorem final_wrap (l c dH C kH h : ℝ) (hC : 0 ≤ C) (h0 : 0 ≤ h) (h1 : h < 180) :
    |final l c dH C kH (h + 360) - final l c dH C kH h| ≤ 4e-5 * final l c dH C kH h := by
  obtain ⟨rs1, -⟩ := RT_small (C := C) (h := h + 360) hC (by nlinarith)
  obtain ⟨rs2, -⟩ := RT_small (C := C) (h := h) hC (by nlinarith)
  have ht := T_turn h
  have hT1 := T_lower (h + 360)
  have hT2 := T_lower h
  set S1 := CIEDE2000.SH PI00 C (h + 360) with hS1
  set S2 := CIEDE2000.SH PI00 C h with hS2
  have p1 : 0 < S1 := by
    rw [hS1, CIEDE2000.SH]; have : 0 ≤ CIEDE2000.T PI00 (h + 360) := le_trans (by norm_num) hT1
    positivity
  have p2 : 0 < S2 := by
    rw [hS2, CIEDE2000.SH]; have : 0 ≤ CIEDE2000.T PI00 h := le_trans (by norm_num) hT2
    positivity
  have hδ : |S2 / S1 - 1| ≤ 1e-15 := by
    rw [div_sub_one p1.ne', abs_div, abs_of_pos p1, div_le_iff₀ p1]
    have e : S2 - S1 = -(0.015 * C * (CIEDE2000.T PI00 (h + 360) - CIEDE2000.T PI00 h)) := by
      rw [hS1, hS2, CIEDE2000.SH, CIEDE2000.SH]; ring
    rw [e, abs_neg, abs_mul, abs_of_nonneg (by positivity)]
    have : 0.015 * C * |CIEDE2000.T PI00 (h + 360) - CIEDE2000.T PI00 h| ≤ 0.015 * C * 1e-17 := by
      gcongr
    refine this.trans ?_
    rw [hS1, CIEDE2000.SH]
    have : 0.015 * C * 0.07 ≤ 0.015 * C * CIEDE2000.T PI00 (h + 360) := by gcongr
    norm_num at this ⊢
    nlinarith
  set R1 := CIEDE2000.RT PI00 C (h + 360)
  set R2 := CIEDE2000.RT PI00 C h
  set δ := S2 / S1 - 1 with hδd
  set d := dH / (kH * S2) with hd
  have hd1 : dH / (kH * S1) = d * (1 + δ) := by
    rw [hd, hδd]
    by_cases hk : kH = 0
    · simp [hk]
    · field_simp; ring
  have f1 : final l c dH C kH (h + 360) = Real.sqrt (l ^ 2 + c ^ 2 + (d * (1 + δ)) ^ 2 + R1 * c * (d * (1 + δ))) := by
    rw [← hd1, final]
  have f2 : final l c dH C kH h = Real.sqrt (l ^ 2 + c ^ 2 + d ^ 2 + R2 * c * d) := rfl
  rw [f1, f2]
  set A1 := l ^ 2 + c ^ 2 + (d * (1 + δ)) ^ 2 + R1 * c * (d * (1 + δ)) with hA1
  set A2 := l ^ 2 + c ^ 2 + d ^ 2 + R2 * c * d with hA2
  have hcd : |c * d| ≤ (c ^ 2 + d ^ 2) / 2 := by
    rw [abs_mul]; nlinarith [sq_nonneg (|c| - |d|), sq_abs c, sq_abs d]
  have hlow : 0.9999 * (c ^ 2 + d ^ 2) ≤ A2 := by
    have h1 : |R2 * (c * d)| ≤ 3.6e-5 * ((c ^ 2 + d ^ 2) / 2) := by
      rw [abs_mul]; exact mul_le_mul rs2 hcd (abs_nonneg _) (by norm_num)
    have h2 := (abs_le.mp h1).1
    rw [hA2]
    norm_num at h2 ⊢
    nlinarith [sq_nonneg l, sq_nonneg c, sq_nonneg d]
  have hsq : 0 ≤ c ^ 2 + d ^ 2 := by positivity
  have hA2n : 0 ≤ A2 := le_trans (by positivity) hlow
  have hdiff : |A1 - A2| ≤ 3.7e-5 * (c ^ 2 + d ^ 2) := by
    have e : A1 - A2 = d ^ 2 * (δ * (2 + δ)) + (R1 * (1 + δ) - R2) * (c * d) := by
      rw [hA1, hA2]; ring
    rw [e]
    have t1 : |δ * (2 + δ)| ≤ 1e-15 * 3 := by
      rw [abs_mul]
      refine mul_le_mul hδ ?_ (abs_nonneg _) (by norm_num)
      refine (abs_add_le _ _).trans ?_
      norm_num at hδ ⊢; linarith
    have t2 : |R1 * (1 + δ) - R2| ≤ 7.21e-5 := by
      refine (abs_sub _ _).trans ?_
      rw [abs_mul]
      have : |1 + δ| ≤ 1 + 1e-15 := (abs_add_le _ _).trans (by norm_num at hδ ⊢; linarith)
      have : |R1| * |1 + δ| ≤ 3.6e-5 * (1 + 1e-15) := mul_le_mul rs1 this (abs_nonneg _) (by norm_num)
      norm_num at this rs2 ⊢; linarith
    refine (abs_add_le _ _).trans ?_
    rw [abs_mul, abs_mul, abs_of_nonneg (sq_nonneg d)]
    have u1 : d ^ 2 * |δ * (2 + δ)| ≤ d ^ 2 * (1e-15 * 3) := by gcongr
    have u2 : |R1 * (1 + δ) - R2| * |c * d| ≤ 7.21e-5 * ((c ^ 2 + d ^ 2) / 2) :=
      mul_le_mul t2 hcd (abs_nonneg _) (by norm_num)
    norm_num at u1 u2 ⊢
    nlinarith [sq_nonneg c, sq_nonneg d]
  have hε : |A1 - A2| ≤ 4e-5 * A2 := by
    refine hdiff.trans ?_
    norm_num at hlow ⊢
    linarith
  exact sqrt_close hA2n hε

end CIEDE

/-! ## C73 -/

/-- C73: `Delta::E00` is the published CIEDE2000 formula exactly, except when the mean hue is taken
across 0 with the sum of the hues at least 360°. -/
theorem C73_exact (p q : Tristimulus ℝ) (Kl Kc Kh : ℝ)
    (h : ¬ CIEDE2000.Wraps PI00 p.b p.c q.b q.c) :
    E00 p q Kl Kc Kh = CIEDE2000.ΔE PI00 p.a p.b p.c q.a q.b q.c Kl Kc Kh := by
  obtain ⟨l, c, dH, C, CC, h1, h2, hC, ⟨g, e1, e2, e3⟩, h0, -, E, D⟩ := CIEDE.common p q Kl Kc Kh
  rw [E, D]
  by_cases hz : CC = 0
  · simp [CIEDE.final, h0 hz]
  · rw [CIEDE.meanHue_eq hz]
    rw [e1, e2, e3]
    exact h

/-- C73: in that case the code's mean hue is a turn more than the published one; the difference is still
the published one to within 0.004 %. -/
theorem C73_close (p q : Tristimulus ℝ) (Kl Kc Kh : ℝ) :
    |E00 p q Kl Kc Kh - CIEDE2000.ΔE PI00 p.a p.b p.c q.a q.b q.c Kl Kc Kh|
      ≤ 4e-5 * CIEDE2000.ΔE PI00 p.a p.b p.c q.a q.b q.c Kl Kc Kh := by
  by_cases h : CIEDE2000.Wraps PI00 p.b p.c q.b q.c
  · obtain ⟨l, c, dH, C, CC, h1, h2, hC, ⟨g, e1, e2, e3⟩, h0, ⟨a1, b1, a2, b2⟩, E, D⟩ :=
      CIEDE.common p q Kl Kc Kh
    rw [E, D]
    by_cases hz : CC = 0
    · simp only [CIEDE.final, h0 hz]
      norm_num
    · have hw : 180 < |h1 - h2| ∧ 360 ≤ h1 + h2 := by rw [e1, e2, e3]; exact h
      rw [CIEDE.meanHue_wrap hz hw]
      have hm : CIEDE2000.meanHue CC h1 h2 = (h1 + h2 - 360) / 2 := by
        rw [CIEDE2000.meanHue, if_neg hz, if_neg (not_le.mpr hw.1), if_neg (not_lt.mpr hw.2)]
      refine CIEDE.final_wrap _ _ _ _ _ _ hC ?_ ?_
      · rw [hm]; linarith
      · rw [hm]; linarith
  · rw [C73_exact p q Kl Kc Kh h, sub_self, abs_zero]
    have : 0 ≤ CIEDE2000.ΔE PI00 p.a p.b p.c q.a q.b q.c Kl Kc Kh := Real.sqrt_nonneg _
    positivity

/-- The decimal of the code is `π` to 18 places. -/
theorem C73_pi : |(PI00 : ℝ) - Real.pi| ≤ 1e-18 := by
  obtain ⟨p1, p2⟩ := PI00_bounds
  rw [abs_le]; constructor <;> linarith

/-- Two colours of hue below 90° do not wrap; `C73_exact` applies to them. -/
example : ¬ CIEDE2000.Wraps PI00 20 0 30 0 := by
  intro h
  have n : ∀ x : ℝ, 0 < x → CIEDE2000.hue PI00 x 0 = 0 := by
    intro x hx
    have : Complex.arg ⟨x, 0⟩ = 0 := Complex.arg_ofReal_of_nonneg hx.le
    simp [CIEDE2000.hue, this]
  simp only [CIEDE2000.Wraps] at h
  have g : ∀ C, 0 ≤ C → 0 < 1 + CIEDE2000.G C := by
    intro C hC
    have := (chroma_ratio hC).2
    rw [CIEDE.root7_eq hC] at this
    rw [CIEDE2000.G]
    norm_num
    linarith
  have hg := g ((CIEDE2000.chroma 20 0 + CIEDE2000.chroma 30 0) / 2)
    (by have := CIEDE.chroma_nonneg 20 0; have := CIEDE.chroma_nonneg 30 0; positivity)
  rw [n _ (by positivity), n _ (by positivity)] at h
  norm_num at h

end CS
