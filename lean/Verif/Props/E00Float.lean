import Verif.Lemmas.FloatInterval
import Verif.Lemmas.FloatScale
import Verif.Props.DeltaFloat
import Mathlib.Analysis.Real.Pi.Bounds
import Mathlib.Analysis.SpecialFunctions.Trigonometric.Bounds

/-!
# C107: `Delta::E00` in single precision is always a number
-/

namespace CS
open B32 F32 Tristimulus Delta

/-- What `Delta::E00` needs of the library functions: rough accuracy of `sqrtf`, of the seventh power and of `sinf` near zero,
and the ranges of the others. -/
structure F32.Oracle.Sane00 (o : F32.Oracle) : Prop where
  sqrt : o.SqrtAccurate (2 ^ (-22 : ℤ))
  pow7 : ∀ x : F32, x.isFinite = true → 0 ≤ x.val → x.val ≤ 2 ^ 16 → (o.powf x (lit 7)).isFinite = true ∧
    0 ≤ (o.powf x (lit 7)).val ∧ |(o.powf x (lit 7)).val - x.val ^ 7| ≤ x.val ^ 7 / 2 ^ 20 + 1 / 2 ^ 100
  exp : ∀ x : F32, x.isFinite = true → x.val ≤ 0 → In (o.expf x) 0 1
  cos : ∀ x : F32, x.isFinite = true → In (o.cosf x) (-1) 1
  sin : ∀ x : F32, x.isFinite = true → In (o.sinf x) (-1) 1
  sinAcc : ∀ x : F32, x.isFinite = true → |x.val| ≤ 2 → |((o.sinf x).val : ℝ) - Real.sin x.val| ≤ 1 / 2 ^ 20
  atan2 : ∀ y x : F32, y.isFinite = true → x.isFinite = true → In (o.atan2f y x) (-4) 4
  fmod : ∀ x : F32, x.isFinite = true → 0 ≤ x.val → In (o.fmodf x (lit 360)) 0 360

/-- A colour with finite components of magnitude at most 4096. -/
def Box00 (t : Tristimulus F32) : Prop := In t.a (-4096) 4096 ∧ In t.b (-4096) 4096 ∧ In t.c (-4096) 4096

theorem abs_rnd_le_rnd {q Q : ℚ} (h : |q| ≤ Q) : |rnd q| ≤ rnd Q := by
  obtain ⟨h1, h2⟩ := _root_.abs_le.1 h
  rw [_root_.abs_le]
  refine ⟨?_, rnd_mono h2⟩
  rw [← rnd_neg]
  exact rnd_mono h1

theorem rep_abs {q : ℚ} (h : Rep q) : Rep |q| := by
  rcases abs_choice q with e | e <;> rw [e]
  · exact h
  · exact rep_neg h

theorem le_abs_rnd {q r : ℚ} (hr : Rep r) (h : r ≤ |q|) : r ≤ |rnd q| := by
  rcases le_total 0 q with h0 | h0
  · rw [abs_of_nonneg h0] at h
    exact (le_rnd hr h).trans (le_abs_self _)
  · rw [abs_of_nonpos h0] at h
    have := le_rnd hr h
    rw [rnd_neg] at this
    exact this.trans (neg_le_abs _)

/-! ### The quadratic form -/

theorem cross_small {D H x p2 p3 s2 : ℚ} (hD : 1 / 2 ^ 50 ≤ D)
    (hx : |x| ≤ 7 / 4 * (D * H) * (1 + 1 / 2 ^ 22) + 1 / 2 ^ 110) (h2 : D ^ 2 * (1 - 1 / 2 ^ 24) - 1 / 2 ^ 150 ≤ p2)
    (h3 : H ^ 2 * (1 - 1 / 2 ^ 24) - 1 / 2 ^ 150 ≤ p3) (hs : (p2 + p3) * (1 - 1 / 2 ^ 24) ≤ s2) : |x| ≤ s2 := by
  have h4 : D * H ≤ (D ^ 2 + H ^ 2) / 2 := by nlinarith [sq_nonneg (D - H)]
  have h5 : 1 / 2 ^ 100 ≤ D ^ 2 := by
    calc (1 : ℚ) / 2 ^ 100 = (1 / 2 ^ 50) ^ 2 := by norm_num
      _ ≤ _ := by gcongr
  have h6 := sq_nonneg H
  generalize D * H = P at *
  generalize D ^ 2 = E at *
  generalize H ^ 2 = F at *
  norm_num at *
  linarith

theorem form_nonneg {dl dc dh R : F32} (hl : In dl (-2 ^ 30) (2 ^ 30)) (hc : In dc (-2 ^ 30) (2 ^ 30)) (hh : In dh (-2 ^ 30) (2 ^ 30))
    (hR : In R (-(7 / 4)) (7 / 4)) (h : |R.val| ≤ 1 ∨ dc.val = 0 ∨ 1 / 2 ^ 50 ≤ |dc.val|) :
    In (dl * dl + dc * dc + dh * dh + R * dc * dh) 0 (2 ^ 63) := by
  have p1 := hl.sq (2 ^ 60)
  have p2 := hc.sq (2 ^ 60)
  have p3 := hh.sq (2 ^ 60)
  have s1 := p1.add p2 0 (2 ^ 61)
  have s2 := s1.add p3 0 (2 ^ 62)
  have w := hR.mul_abs hc (2 ^ 31)
  have x := w.mul_abs hh (2 ^ 61)
  have e1 := add_val s1.fin
  have e2 := add_val s2.fin
  have ew := mul_val w.fin
  have ex := mul_val x.fin
  have q2 := mul_val p2.fin
  have q3 := mul_val p3.fin
  have l1 : (dc * dc).val ≤ (dl * dl + dc * dc).val := by
    rw [e1]; exact le_rnd (rep_val _) (by linarith [p1.lo])
  have l2 : (dc * dc).val ≤ (dl * dl + dc * dc + dh * dh).val := by
    rw [e2]; exact le_rnd (rep_val _) (by linarith [p3.lo])
  have l3 : (dh * dh).val ≤ (dl * dl + dc * dc + dh * dh).val := by
    rw [e2]; exact le_rnd (rep_val _) (by linarith [s1.lo])
  have key : |(R * dc * dh).val| ≤ (dl * dl + dc * dc + dh * dh).val := by
    rcases h with h | h | h
    · have hw : |(R * dc).val| ≤ |dc.val| := by
        rw [ew]
        refine abs_rnd_le (rep_abs (rep_val _)) ?_
        rw [_root_.abs_mul]
        nlinarith [abs_nonneg dc.val, abs_nonneg R.val]
      rcases le_total |dc.val| |dh.val| with h1 | h1
      · refine le_trans ?_ l3
        rw [ex, q3]
        refine abs_rnd_le_rnd ?_
        rw [_root_.abs_mul, ← abs_mul_abs_self dh.val]
        exact mul_le_mul_of_nonneg_right (hw.trans h1) (abs_nonneg _)
      · refine le_trans ?_ l2
        rw [ex, q2]
        refine abs_rnd_le_rnd ?_
        rw [_root_.abs_mul, ← abs_mul_abs_self dc.val]
        exact mul_le_mul hw h1 (abs_nonneg _) (abs_nonneg _)
    · have hw : (R * dc).val = 0 := by rw [ew, h, mul_zero, rnd_of_rep rep_zero]
      rw [ex, hw, zero_mul, rnd_of_rep rep_zero, abs_zero]
      exact s2.lo
    · have r1 := rnd_rel' (R.val * dc.val)
      have r2 := rnd_rel' ((R * dc).val * dh.val)
      rw [← ew] at r1
      rw [← ex] at r2
      have r3 := rnd_rel' (dc.val * dc.val)
      have r4 := rnd_rel' (dh.val * dh.val)
      rw [← q2] at r3
      rw [← q3] at r4
      obtain ⟨-, a3, -⟩ := add_rel s1.fin p3.fin s1.lo p3.lo (s1.hi.trans (by norm_num)) (p3.hi.trans (by norm_num))
      have b1 := hR.abs
      have b2 := hh.abs
      have b3 := hc.abs
      have D0 := abs_nonneg dc.val
      have H0 := abs_nonneg dh.val
      have R0 := abs_nonneg R.val
      have t1 := abs_sub_abs_le_abs_sub (R * dc).val (R.val * dc.val)
      have t2 := abs_sub_abs_le_abs_sub (R * dc * dh).val ((R * dc).val * dh.val)
      rw [_root_.abs_mul] at r1 r2 t1 t2
      rw [abs_mul_self, ← pow_two, ← sq_abs] at r3 r4
      have r3' := (_root_.abs_le.1 r3).1
      have r4' := (_root_.abs_le.1 r4).1
      refine cross_small (D := |dc.val|) (H := |dh.val|) (p2 := (dc * dc).val) (p3 := (dh * dh).val) h ?_ (by linarith) (by linarith) ?_
      · have w1 : |(R * dc).val| ≤ 7 / 4 * |dc.val| * (1 + 1 / 2 ^ 24) + 1 / 2 ^ 150 := by
          have : |R.val| * |dc.val| ≤ 7 / 4 * |dc.val| := by gcongr
          linarith
        generalize |(R * dc).val| = W at *
        generalize |(R * dc * dh).val| = X at *
        generalize |dc.val| = D at *
        generalize |dh.val| = H at *
        have w2 : W * H ≤ (7 / 4 * D * (1 + 1 / 2 ^ 24) + 1 / 2 ^ 150) * H := by gcongr
        have w3 : (7 / 4 * D * (1 + 1 / 2 ^ 24) + 1 / 2 ^ 150) * H = 7 / 4 * (D * H) * (1 + 1 / 2 ^ 24) + H / 2 ^ 150 := by ring
        have w4 : 0 ≤ D * H := by positivity
        generalize D * H = P at *
        generalize W * H = V at *
        rw [w3] at w2
        norm_num at *
        linarith
      · refine le_trans ?_ a3
        gcongr
  obtain ⟨k1, k2⟩ := _root_.abs_le.1 key
  exact .of_add s2.fin x.fin (by linarith) (by have := s2.hi; have := x.hi; norm_num at *; linarith)

/-! ### The pieces -/

theorem pow25_7_in' : In (CS.lit 25 * CS.lit 25 * CS.lit 25 * CS.lit 25 * CS.lit 25 * CS.lit 25 * CS.lit 25 : F32) 6000000000 6200000000 := by
  refine ⟨?_, ?_, ?_⟩ <;> decide +kernel

theorem pi00_in' : In (CS.lit 3.14159265358979323846264338327950288 : F32) 3.1415 3.14160 := by
  refine ⟨?_, ?_, ?_⟩ <;> decide +kernel

theorem pow25_7_in (o : F32.Oracle) : In (@pow25_7 F32 (F32.libm o)) 6000000000 6200000000 := pow25_7_in'

theorem pi00_in (o : F32.Oracle) : In (@PI00 F32 (F32.libm o)) 3.1415 3.14160 := pi00_in'

section
variable {o : F32.Oracle} (ho : o.Sane00)
include ho

/-- `C^7 / (C^7 + 25^7)` and its square root. -/
theorem ratio_in {c : F32} (hc : In c 0 (2 ^ 14)) :
    In (o.sqrtf (o.powf c (lit 7) / (o.powf c (lit 7) + @pow25_7 F32 (F32.libm o)))) 0 (1 + 1 / 2 ^ 20) ∧
    (c.val ≤ 20 → In (o.sqrtf (o.powf c (lit 7) / (o.powf c (lit 7) + @pow25_7 F32 (F32.libm o)))) 0 (1 / 2 + 1 / 2 ^ 20)) := by
  obtain ⟨f, p0, e⟩ := ho.pow7 c hc.fin hc.lo (hc.hi.trans (by norm_num))
  have hp := pow25_7_in o
  generalize @pow25_7 F32 (F32.libm o) = p at *
  generalize o.powf c (lit 7) = q at *
  have b : c.val ^ 7 ≤ (2 ^ 14) ^ 7 := by have := hc.lo; have := hc.hi; gcongr
  have e2 := (_root_.abs_le.1 e).2
  have hq : In q 0 (2 ^ 100) := ⟨f, p0, by norm_num at *; linarith⟩
  have hs := hq.add hp 6000000000 (2 ^ 101)
  have sp : 0 < (q + p).val := lt_of_lt_of_le (by norm_num) hs.lo
  have hr : In (q / (q + p)) 0 1 := by
    refine .of_div hq.fin hs.fin sp.ne' (div_nonneg p0 sp.le) ?_
    rw [div_le_one sp, add_val hs.fin]
    exact le_rnd (rep_val _) (by linarith [hp.lo])
  refine ⟨hr.sqrt ho.sqrt 0 _, fun h => ?_⟩
  have b' : c.val ^ 7 ≤ 20 ^ 7 := by have := hc.lo; gcongr
  have : In (q / (q + p)) 0 (1 / 4) := by
    refine .of_div hq.fin hs.fin sp.ne' (div_nonneg p0 sp.le) ?_
    rw [div_le_iff₀ sp]
    have := hs.lo
    norm_num at *
    linarith
  exact this.sqrt ho.sqrt 0 _

theorem G00_in {a1 b1 a2 b2 : F32} (h1 : In a1 (-4096) 4096) (h2 : In b1 (-4096) 4096) (h3 : In a2 (-4096) 4096) (h4 : In b2 (-4096) 4096) :
    In (@G00 F32 (F32.libm o) a1 b1 a2 b2) (-(1 / 2)) (1 / 2) := by
  have c1 := (((h1.sq (2 ^ 24)).add (h2.sq (2 ^ 24)) 0 (2 ^ 25)).sqrt ho.sqrt 0 (2 ^ 13))
  have c2 := (((h3.sq (2 ^ 24)).add (h4.sq (2 ^ 24)) 0 (2 ^ 25)).sqrt ho.sqrt 0 (2 ^ 13))
  have cb := (c1.add c2 0 (2 ^ 14)).div (In.lit (q := 2) (A := 2) (B := 2)) 0 (2 ^ 13)
  have r := (ratio_in ho (cb.weaken)).1
  exact ((In.lit (q := 1) (A := 1) (B := 1)).sub r (-1) 1).div_abs (In.lit (q := 2) (A := 2) (B := 2)) (1 / 2)

theorem hue00_in {b ad : F32} (hb : b.isFinite = true) (ha : ad.isFinite = true) : In (@hue00 F32 (F32.libm o) b ad) 0 360 := by
  have h1 := (ho.atan2 b ad hb ha).mul_abs ((In.lit (q := 180) (A := 180) (B := 180)).weaken (c := -180) (d := 180)) 720
  have h2 := h1.div_abs (pi00_in o) 240
  have h3 := (In.lit (q := 360) (A := 360) (B := 360)).add h2 120 600
  exact ho.fmod _ h3.fin (le_trans (by norm_num) h3.lo)

omit ho in
theorem hBar00_in {h1 h2 : F32} (i1 : In h1 0 360) (i2 : In h2 0 360) : In (@hBar00 F32 (F32.libm o) h1 h2) 0 540 := by
  have s := i1.add i2 0 720
  have s' := s.add (In.lit (q := 360) (A := 360) (B := 360)) 0 1080
  have : ∀ c : Bool, In (if c = true then h1 + h2 + lit 360 else h1 + h2 : F32) 0 1080 := by
    intro c; cases c
    · exact s.weaken
    · exact s'
  exact (this _).div (In.lit (q := 2) (A := 2) (B := 2)) 0 540

theorem T00_in {H : F32} (h : In H 0 540) : In (@T00 F32 (F32.libm o) H) (3 / 64) 2 := by
  have pi := (pi00_in o).weaken (c := -4) (d := 4)
  have d180 := In.lit (q := 180) (A := 180) (B := 180)
  have k1 := ((In.lit (q := 1) (A := 1) (B := 1)).mul h 0 540).sub (In.lit (q := 30) (A := 30) (B := 30)) (-30) 540
  have k2 := (In.lit (q := 2) (A := 2) (B := 2)).mul h 0 1080
  have k3 := ((In.lit (q := 3) (A := 3) (B := 3)).mul h 0 1620).add (In.lit (q := 6) (A := 6) (B := 6)) 0 1626
  have k4 := ((In.lit (q := 4) (A := 4) (B := 4)).mul h 0 2160).sub (In.lit (q := 63) (A := 63) (B := 63)) (-63) 2160
  have arg : ∀ {k : F32}, In k (-4096) 4096 → In (o.cosf (@PI00 F32 (F32.libm o) * k / lit 180)) (-1) 1 := by
    intro k hk
    exact ho.cos _ ((pi.mul_abs hk (2 ^ 14)).div_abs d180 (2 ^ 14)).fin
  have c1 := arg (k1.weaken)
  have c2 := arg (k2.weaken)
  have c3 := arg (k3.weaken)
  have c4 := arg (k4.weaken)
  have t1 := (In.lit (q := 1) (A := 1) (B := 1)).sub ((In.lit (q := 0.17) (A := -(11 / 64)) (B := 11 / 64)).mul_abs c1 (11 / 64)) (53 / 64) (75 / 64)
  have t2 := ((In.lit (q := 0.24) (A := -(1 / 4)) (B := 1 / 4)).mul_abs c2 (1 / 4)).add
    ((In.lit (q := 0.32) (A := -(21 / 64)) (B := 21 / 64)).mul_abs c3 (21 / 64)) (-(37 / 64)) (37 / 64)
  have t3 := (In.lit (q := 0.20) (A := -(13 / 64)) (B := 13 / 64)).mul_abs c4 (13 / 64)
  exact (t1.add t2 (16 / 64) (112 / 64)).sub t3 (3 / 64) 2

omit ho in
theorem dh00_in {h1 h2 : F32} (i1 : In h1 0 360) (i2 : In h2 0 360) : In (@dh00 F32 (F32.libm o) h1 h2) (-720) 720 := by
  have s := i2.sub i1 (-360) 360
  have s1 := s.add (In.lit (q := 360) (A := 360) (B := 360)) (-720) 720
  have s2 := s.sub (In.lit (q := 360) (A := 360) (B := 360)) (-720) 720
  have : ∀ c d : Bool, In (if c = true then h2 - h1 else if d = true then h2 - h1 + lit 360 else h2 - h1 - lit 360 : F32) (-720) 720 := by
    intro c d; cases c
    · cases d
      · exact s2
      · exact s1
    · exact s.weaken
  exact this _ _

theorem sin60_in {x : F32} (h : In x 0 (1073 / 1024)) : In (o.sinf x) (-(223 / 256)) (223 / 256) := by
  have i := ho.sin x h.fin
  have e := ho.sinAcc x h.fin (by rw [abs_of_nonneg h.lo]; exact h.hi.trans (by norm_num))
  have x0 : (0 : ℝ) ≤ x.val := by exact_mod_cast h.lo
  have x1 : (x.val : ℝ) ≤ 1073 / 1024 := by
    have := (Rat.cast_le (K := ℝ)).2 h.hi; push_cast at this; exact this
  have s0 : 0 ≤ Real.sin (x.val : ℝ) := Real.sin_nonneg_of_nonneg_of_le_pi x0 (by linarith [Real.pi_gt_three])
  have s1 : Real.sin (x.val : ℝ) ≤ 0.87 := by
    have h3 : Real.sin (1073 / 1024) ≤ 0.87 := by
      have e1 := Real.sin_sq_add_cos_sq (1073 / 1024 : ℝ)
      have e2 : (0.4976 : ℝ) ≤ Real.cos (1073 / 1024) := by
        have h4 : (1073 / 1024 : ℝ) = Real.pi / 3 - (Real.pi / 3 - 1073 / 1024) := by ring
        rw [h4, Real.cos_sub, Real.cos_pi_div_three, Real.sin_pi_div_three]
        have p1 := Real.pi_gt_d6
        have p2 := Real.pi_lt_d6
        have d : |Real.pi / 3 - 1073 / 1024| ≤ 0.001 := by
          rw [abs_le]; constructor <;> norm_num at * <;> linarith
        have d1 : 1 - (Real.pi / 3 - 1073 / 1024) ^ 2 / 2 ≤ Real.cos (Real.pi / 3 - 1073 / 1024) := Real.one_sub_sq_div_two_le_cos
        have d2 : |Real.sin (Real.pi / 3 - 1073 / 1024)| ≤ 0.001 := (Real.abs_sin_le_abs).trans d
        have d3 := (abs_le.1 d2).1
        have d4 : (Real.pi / 3 - 1073 / 1024) ^ 2 ≤ 0.001 ^ 2 := sq_le_sq' (abs_le.1 d).1 (abs_le.1 d).2
        have r3 : √3 ≤ 2 := by rw [Real.sqrt_le_left (by norm_num)]; norm_num
        have r0 := Real.sqrt_nonneg 3
        generalize Real.sin (Real.pi / 3 - 1073 / 1024) = S at *
        have : -(0.001 : ℝ) ≤ √3 / 2 * S := by nlinarith
        norm_num at *
        linarith
      have e3 := Real.sin_nonneg_of_nonneg_of_le_pi (x := 1073 / 1024) (by norm_num) (by linarith [Real.pi_gt_three])
      refine abs_le_of_sq_le_sq' ?_ (by norm_num) |>.2
      generalize Real.cos (1073 / 1024) = c at *
      generalize Real.sin (1073 / 1024) = s at *
      nlinarith
    refine (Real.sin_le_sin_of_le_of_le_pi_div_two ?_ ?_ x1).trans h3
    · linarith [Real.pi_gt_three]
    · linarith [Real.pi_gt_three]
  obtain ⟨e1, e2⟩ := _root_.abs_le.1 e
  refine ⟨i.fin, ?_, ?_⟩
  · have : -(223 / 256 : ℝ) ≤ (o.sinf x).val := by norm_num at *; linarith
    have : ((-(223 / 256) : ℚ) : ℝ) ≤ ((o.sinf x).val : ℝ) := by push_cast; exact this
    exact_mod_cast this
  · have : ((o.sinf x).val : ℝ) ≤ (223 / 256 : ℝ) := by norm_num at *; linarith
    have : ((o.sinf x).val : ℝ) ≤ ((223 / 256 : ℚ) : ℝ) := by push_cast; exact this
    exact_mod_cast this

theorem Rt00_in {H C : F32} (h : In H 0 540) (hc : In C 0 (2 ^ 14)) :
    In (@Rt00 F32 (F32.libm o) H C) (-(7 / 4)) (7 / 4) ∧ (C.val ≤ 20 → |(@Rt00 F32 (F32.libm o) H C).val| ≤ 1) := by
  have l275 := In.lit (q := 275) (A := 275) (B := 275)
  have h2 : In ((H - lit 275) * (H - lit 275) / (lit 25 * lit 25) : F32) 0 (2 ^ 9) := by
    have d := (h.sub l275 (-512) 512)
    have e := (d.sq (2 ^ 18))
    have l25 := In.lit (q := 25) (A := 25) (B := 25)
    exact e.div (l25.mul l25 625 625) 0 (2 ^ 9)
  have hn := h2.neg
  have ex := ho.exp _ hn.fin (by have := hn.hi; norm_num at this ⊢; exact this)
  have th := (In.lit (q := 30) (A := 30) (B := 30)).mul ex 0 30
  have a1 := (((In.lit (q := 2) (A := 2) (B := 2)).mul th 0 60).mul (pi00_in o) 0 (377 / 2)).div (In.lit (q := 180) (A := 180) (B := 180)) 0 (1073 / 1024)
  have sn := sin60_in ho a1
  obtain ⟨r1, r2⟩ := ratio_in ho hc
  constructor
  · have rc := (In.lit (q := 2) (A := 2) (B := 2)).mul r1 0 (2 + 1 / 2 ^ 18)
    have rn := rc.neg.weaken (c := -(2 + 1 / 2 ^ 18)) (d := 2 + 1 / 2 ^ 18)
    exact rn.mul_abs sn (7 / 4)
  · intro h20
    have rc := (In.lit (q := 2) (A := 2) (B := 2)).mul (r2 h20) 0 (1 + 1 / 2 ^ 18)
    have rn := rc.neg.weaken (c := -(1 + 1 / 2 ^ 18)) (d := 1 + 1 / 2 ^ 18)
    exact (rn.mul_abs sn 1).abs

/-! ### All together -/

omit ho in
theorem chroma_gap {x y : F32} (hx : In x 0 (2 ^ 14)) (hy : In y 0 (2 ^ 14)) (h : 20 < ((x + y) / lit 2 : F32).val) (hne : x.val ≠ y.val) :
    1 / 2 ^ 20 ≤ |y.val - x.val| := by
  have s := hx.add hy 0 (2 ^ 15)
  have h2 := (In.lit (q := 2) (A := 2) (B := 2))
  have v2 : (lit 2 : F32).val = 2 := le_antisymm h2.hi h2.lo
  have hs : 40 < x.val + y.val := by
    by_contra hc
    have h1 : (x + y).val ≤ 40 := by
      rw [add_val s.fin]
      refine rnd_le (rep_of (by decide +kernel)) (not_lt.1 hc)
    have s' : In (x + y) 0 40 := ⟨s.fin, s.lo, h1⟩
    have := (s'.div h2 0 20).hi
    linarith
  have mult : ∀ z : F32, 16 ≤ z.val → Mult (-19) z.val := by
    intro z hz
    have := Mult.of_rep (e := 4) (rep_val z) (.inr (by rw [abs_of_nonneg (by linarith)]; norm_num; exact hz))
    norm_num at this
    exact this
  rcases le_total 16 x.val with h1 | h1
  · rcases le_total 16 y.val with h3 | h3
    · obtain ⟨m, hm⟩ := mult x h1
      obtain ⟨n, hn⟩ := mult y h3
      have mn : n - m ≠ 0 := by
        intro h0
        apply hne
        rw [hm, hn, show n = m by omega]
      have : (1 : ℚ) ≤ |((n - m : ℤ) : ℚ)| := by
        have := Int.one_le_abs mn
        exact_mod_cast this
      rw [hm, hn, ← sub_mul, _root_.abs_mul, abs_of_pos (by positivity : (0 : ℚ) < 2 ^ (-19 : ℤ))]
      push_cast at this
      calc (1 : ℚ) / 2 ^ 20 ≤ 1 * 2 ^ (-19 : ℤ) := by norm_num
        _ ≤ _ := by gcongr
    · rw [abs_sub_comm]
      refine le_trans ?_ (le_abs_self _)
      norm_num
      linarith
  · refine le_trans ?_ (le_abs_self _)
    norm_num
    linarith

omit ho in
theorem dc_gap {x y k : F32} (hx : In x 0 (2 ^ 14)) (hy : In y 0 (2 ^ 14)) (h : 20 < ((x + y) / lit 2 : F32).val)
    (hk : In k (1 / 2 ^ 10) (2 ^ 21)) : ((y - x) / k).val = 0 ∨ 1 / 2 ^ 50 ≤ |((y - x) / k).val| := by
  have d := hy.sub hx (-2 ^ 14) (2 ^ 14)
  have n := d.div_abs hk (2 ^ 24)
  have kp : 0 < k.val := lt_of_lt_of_le (by norm_num) hk.lo
  have vn : ((y - x) / k).val = rnd ((y - x).val / k.val) := ((Is.of _ d.fin).div_rnd (Is.of k hk.fin) kp.ne' (by
    refine lt_of_le_of_lt (b := (2 : ℚ) ^ 24) ?_ (by norm_num)
    refine abs_rnd_le (rep_of (by decide +kernel)) ?_
    rw [abs_div, abs_of_pos kp, div_le_iff₀ kp]
    have := d.abs
    have := hk.lo
    norm_num at *
    linarith)).2
  have vd : (y - x).val = rnd (y.val - x.val) := ((Is.of y hy.fin).sub_rnd (Is.of x hx.fin) (by
    refine lt_of_le_of_lt (b := (2 : ℚ) ^ 14) ?_ (by norm_num)
    refine abs_rnd_le (rep_of (by decide +kernel)) ?_
    rw [_root_.abs_le]
    constructor <;> linarith [hx.lo, hx.hi, hy.lo, hy.hi])).2
  by_cases e : x.val = y.val
  · left
    rw [vn, vd, e, sub_self, rnd_of_rep rep_zero, zero_div, rnd_of_rep rep_zero]
  · right
    have g := le_abs_rnd (rep_of (by decide +kernel)) (chroma_gap hx hy h e)
    rw [← vd] at g
    rw [vn]
    refine le_abs_rnd (rep_of (by decide +kernel)) ?_
    rw [abs_div, abs_of_pos kp, le_div_iff₀ kp]
    have := hk.hi
    norm_num at *
    linarith

theorem parts00_in {a b : Tristimulus F32} {kl kc kh : F32} (ha : Box00 a) (hb : Box00 b) (hl : In kl (1 / 2 ^ 10) (2 ^ 10))
    (hc : In kc (1 / 2 ^ 10) (2 ^ 10)) (hh : In kh (1 / 2 ^ 10) (2 ^ 10)) :
    let p := @parts00 F32 (F32.libm o) a b kl kc kh
    In p.1 (-2 ^ 30) (2 ^ 30) ∧ In p.2.1 (-2 ^ 30) (2 ^ 30) ∧ In p.2.2.1 (-2 ^ 30) (2 ^ 30) ∧
      In p.2.2.2 (-(7 / 4)) (7 / 4) ∧ (|p.2.2.2.val| ≤ 1 ∨ p.2.1.val = 0 ∨ 1 / 2 ^ 50 ≤ |p.2.1.val|) := by
  obtain ⟨iL1, ia1, ib1⟩ := ha
  obtain ⟨iL2, ia2, ib2⟩ := hb
  obtain ⟨L1, a1, b1⟩ := a
  obtain ⟨L2, a2, b2⟩ := b
  simp only at iL1 ia1 ib1 iL2 ia2 ib2
  unfold parts00
  simp only
  have l1 := In.lit (q := 1) (A := 1) (B := 1)
  have l2 := In.lit (q := 2) (A := 2) (B := 2)
  have iG := G00_in ho ia1 ib1 ia2 ib2
  generalize @G00 F32 (F32.libm o) a1 b1 a2 b2 = G at *
  have iG1 := (l1.add iG (1 / 2) (3 / 2)).weaken (c := -2) (d := 2)
  have iad1 := ia1.mul_abs iG1 (2 ^ 13)
  have iad2 := ia2.mul_abs iG1 (2 ^ 13)
  have ih1 := hue00_in ho ib1.fin iad1.fin
  have ih2 := hue00_in ho ib2.fin iad2.fin
  have iC1 := ((iad1.sq (2 ^ 26)).add (ib1.sq (2 ^ 24)) 0 (2 ^ 27)).sqrt ho.sqrt 0 (2 ^ 14)
  have iC2 := ((iad2.sq (2 ^ 26)).add (ib2.sq (2 ^ 24)) 0 (2 ^ 27)).sqrt ho.sqrt 0 (2 ^ 14)
  have iCB := (iC1.add iC2 0 (2 ^ 15)).div l2 0 (2 ^ 14)
  have iH := hBar00_in (o := o) ih1 ih2
  have iT := T00_in ho iH
  have idh := dh00_in (o := o) ih1 ih2
  obtain ⟨iR, iR'⟩ := Rt00_in ho iH iCB
  have idL := iL2.sub iL1 (-8192) 8192
  have idC := iC2.sub iC1 (-2 ^ 14) (2 ^ 14)
  have iarg := ((pi00_in o).weaken (c := -4) (d := 4)).mul_abs idh (2 ^ 12) |>.div_abs
    ((In.lit (q := 180) (A := 180) (B := 180)).mul l2 360 360) (2 ^ 12)
  have isin := ho.sin _ iarg.fin
  have idH := ((l2.mul ((iC1.mul iC2 0 (2 ^ 28)).sqrt ho.sqrt 0 (2 ^ 15)) 0 (2 ^ 16)).weaken (c := -2 ^ 16) (d := 2 ^ 16)).mul_abs isin (2 ^ 16)
  have iLb := ((iL1.add iL2 (-8192) 8192).div_abs l2 4096).sub (In.lit (q := 50) (A := 50) (B := 50)) (-8192) 8192
  have iLb2 := iLb.sq (2 ^ 26)
  have iq := ((In.lit (q := 20) (A := 20) (B := 20)).add iLb2 20 (2 ^ 27)).sqrt ho.sqrt 4 (2 ^ 14)
  have iSl := l1.add (((In.lit (q := 0.015) (A := 0) (B := 1 / 64)).mul iLb2 0 (2 ^ 20)).div iq 0 (2 ^ 18)) 1 (2 ^ 19)
  have iSc := l1.add ((In.lit (q := 0.045) (A := 0) (B := 1 / 16)).mul iCB 0 (2 ^ 10)) 1 (2 ^ 11)
  have iSh := l1.add (((In.lit (q := 0.015) (A := 0) (B := 1 / 64)).mul iCB 0 (2 ^ 8)).mul iT 0 (2 ^ 9)) 1 (2 ^ 10)
  have n1 := idL.div_abs (hl.mul iSl (1 / 2 ^ 10) (2 ^ 29)) (2 ^ 23)
  have n2 := idC.div_abs (hc.mul iSc (1 / 2 ^ 10) (2 ^ 21)) (2 ^ 24)
  have n3 := idH.div_abs (hh.mul iSh (1 / 2 ^ 10) (2 ^ 20)) (2 ^ 26)
  refine ⟨n1.weaken, n2.weaken, n3.weaken, iR, ?_⟩
  rcases le_or_gt ((o.sqrtf (a1 * (lit 1 + G) * (a1 * (lit 1 + G)) + b1 * b1) + o.sqrtf (a2 * (lit 1 + G) * (a2 * (lit 1 + G)) + b2 * b2)) / lit 2 : F32).val 20 with h | h
  · exact .inl (iR' h)
  · right
    exact dc_gap iC1 iC2 h (hc.mul iSc (1 / 2 ^ 10) (2 ^ 21))

end

/-- C107: for colours with components of magnitude at most 4096 and weights between 1/1024 and 1024, `E00` is finite and not
negative: the argument of the last square root is never negative, although it is evaluated in single precision. -/
theorem C107_defined {o : F32.Oracle} (ho : o.Sane00) {a b : Tristimulus F32} {kl kc kh : F32} (ha : Box00 a) (hb : Box00 b)
    (hl : In kl (1 / 2 ^ 10) (2 ^ 10)) (hc : In kc (1 / 2 ^ 10) (2 ^ 10)) (hh : In kh (1 / 2 ^ 10) (2 ^ 10)) :
    letI := F32.libm o
    In (radicand00 a b kl kc kh) 0 (2 ^ 63) ∧ In (E00 a b kl kc kh) 0 (2 ^ 32) := by
  have h : In (@radicand00 F32 (F32.libm o) a b kl kc kh) 0 (2 ^ 63) := by
    obtain ⟨h1, h2, h3, h4, h5⟩ := parts00_in ho ha hb hl hc hh
    exact form_nonneg h1 h2 h3 h4 h5
  exact ⟨h, h.sqrt ho.sqrt 0 (2 ^ 32)⟩

/-- C107: the distance of such a colour from itself is exactly `+0`. -/
theorem C107_self {o : F32.Oracle} (ho : o.Sane00) (h0 : o.sqrtf (.zero false) = .zero false) (hn : o.sqrtf .nan = .nan)
    (hs : ∀ x, F32.Zn x → F32.Zn (o.sinf x)) {a : Tristimulus F32} {kl kc kh : F32} (ha : Box00 a)
    (hl : In kl (1 / 2 ^ 10) (2 ^ 10)) (hc : In kc (1 / 2 ^ 10) (2 ^ 10)) (hh : In kh (1 / 2 ^ 10) (2 ^ 10)) :
    @E00 F32 (F32.libm o) a a kl kc kh = .zero false := by
  rcases (C91_self_or_nan o h0 hn hs a kl kc kh).1 with h | h
  · exact h
  · have := (C107_defined ho ha ha hl hc hh).2.fin
    rw [h] at this
    cases this

/-- Such library functions exist; the colours and weights do. -/
theorem exists_sane00 : ∃ o : F32.Oracle, o.Sane00 ∧ o.sqrtf (.zero false) = .zero false ∧ o.sqrtf .nan = .nan ∧
    (∀ x, F32.Zn x → F32.Zn (o.sinf x)) := by
  classical
  obtain ⟨o, -, hs, -⟩ := exists_accurate
  refine ⟨{ o with
    sqrtf := fun x => if x.isFinite = false ∨ x.val = 0 then x else o.sqrtf x
    powf := fun x _ => pack false (x.val ^ 7)
    expf := fun _ => .zero false
    cosf := fun _ => .zero false
    atan2f := fun _ _ => .zero false
    fmodf := fun _ _ => .zero false
    sinf := fun x => if x.isFinite = false ∨ x.val = 0 then x else F32.near (Real.sin x.val * (1 - 1 / 2 ^ 21)) }, ?_, ?_, ?_, ?_⟩
  · have snear : ∀ x : ℝ, (F32.near (Real.sin x * (1 - 1 / 2 ^ 21))).isFinite = true ∧
        |((F32.near (Real.sin x * (1 - 1 / 2 ^ 21))).val : ℝ) - Real.sin x * (1 - 1 / 2 ^ 21)| ≤
          |Real.sin x * (1 - 1 / 2 ^ 21)| / 2 ^ 24 + 1 / 2 ^ 148 := by
      intro x
      refine F32.near_spec ?_
      rw [_root_.abs_mul]
      have := Real.abs_sin_le_one x
      norm_num
      linarith
    refine ⟨?_, ?_, ?_, ?_, ?_, ?_, ?_, ?_⟩
    · intro x hx h0
      simp only
      by_cases e : x.val = 0
      · rw [if_pos (.inr e), e]
        exact ⟨hx, by simp⟩
      · rw [if_neg (by rw [hx]; simp [e])]
        obtain ⟨h1, h2⟩ := hs x hx h0
        refine ⟨h1, h2.trans ?_⟩
        gcongr
        · norm_num
        · norm_num
    · intro x hx h0 h1
      simp only
      have p0 : 0 ≤ x.val ^ 7 := by positivity
      have p1 : x.val ^ 7 ≤ (2 ^ 16) ^ 7 := by gcongr
      have r := rnd_rel' (x.val ^ 7)
      rw [abs_of_nonneg p0] at r
      have r0 := rnd_nonneg p0
      have r1 := (_root_.abs_le.1 r).2
      obtain ⟨f, v⟩ := pack_finite (s := false) (q := x.val ^ 7) (by
        rw [abs_of_nonneg r0]
        generalize rnd (x.val ^ 7) = z at *
        generalize x.val ^ 7 = y at *
        norm_num at *
        linarith)
      rw [v]
      refine ⟨f, r0, r.trans ?_⟩
      generalize rnd (x.val ^ 7) = z at *
      generalize x.val ^ 7 = y at *
      norm_num
      linarith
    · exact fun _ _ _ => ⟨rfl, le_refl _, by show (0 : ℚ) ≤ 1; norm_num⟩
    · exact fun _ _ => ⟨rfl, by show (-1 : ℚ) ≤ 0; norm_num, by show (0 : ℚ) ≤ 1; norm_num⟩
    · intro x hx
      simp only
      by_cases e : x.val = 0
      · rw [if_pos (.inr e)]
        exact ⟨hx, by rw [e]; norm_num, by rw [e]; norm_num⟩
      · rw [if_neg (by rw [hx]; simp [e])]
        obtain ⟨f, d⟩ := snear x.val
        have s1 := Real.abs_sin_le_one (x.val : ℝ)
        rw [_root_.abs_mul] at d
        have : |((F32.near (Real.sin x.val * (1 - 1 / 2 ^ 21))).val : ℝ)| ≤ 1 := by
          have t := abs_sub_abs_le_abs_sub ((F32.near (Real.sin x.val * (1 - 1 / 2 ^ 21))).val : ℝ) (Real.sin x.val * (1 - 1 / 2 ^ 21))
          rw [_root_.abs_mul] at t
          generalize |((F32.near (Real.sin x.val * (1 - 1 / 2 ^ 21))).val : ℝ) - Real.sin x.val * (1 - 1 / 2 ^ 21)| = u at *
          generalize |((F32.near (Real.sin x.val * (1 - 1 / 2 ^ 21))).val : ℝ)| = w at *
          generalize |Real.sin (x.val : ℝ)| = z at *
          norm_num at d t ⊢
          linarith
        obtain ⟨h1, h2⟩ := _root_.abs_le.1 this
        exact ⟨f, by exact_mod_cast h1, by exact_mod_cast h2⟩
    · intro x hx _
      simp only
      by_cases e : x.val = 0
      · rw [if_pos (.inr e), e]
        simp
      · rw [if_neg (by rw [hx]; simp [e])]
        obtain ⟨-, d⟩ := snear x.val
        have s1 := Real.abs_sin_le_one (x.val : ℝ)
        rw [_root_.abs_mul] at d
        obtain ⟨d1, d2⟩ := _root_.abs_le.1 d
        obtain ⟨z1, z2⟩ := _root_.abs_le.1 s1
        generalize ((F32.near (Real.sin x.val * (1 - 1 / 2 ^ 21))).val : ℝ) = w at *
        generalize |Real.sin (x.val : ℝ)| = z at *
        generalize Real.sin (x.val : ℝ) = y at *
        rw [_root_.abs_le]
        norm_num at d1 d2 ⊢
        constructor <;> linarith
    · exact fun _ _ _ _ => ⟨rfl, by show (-4 : ℚ) ≤ 0; norm_num, by show (0 : ℚ) ≤ 4; norm_num⟩
    · exact fun _ _ _ => ⟨rfl, le_refl _, by show (0 : ℚ) ≤ 360; norm_num⟩
  · exact if_pos (c := (F32.zero false).isFinite = false ∨ (F32.zero false).val = 0) (e := o.sqrtf (.zero false)) (Or.inr rfl)
  · exact if_pos (c := F32.nan.isFinite = false ∨ F32.nan.val = 0) (e := o.sqrtf .nan) (Or.inl rfl)
  · intro x hx
    have : x.isFinite = false ∨ x.val = 0 := by
      rcases hx with rfl | ⟨s, rfl⟩
      · exact .inl rfl
      · exact .inr rfl
    show F32.Zn (if _ then _ else _)
    rw [if_pos this]
    exact hx

example : ∃ (o : F32.Oracle) (a b : Tristimulus F32), o.Sane00 ∧ Box00 a ∧ Box00 b ∧ a ≠ b ∧ In (lit 1) (1 / 2 ^ 10) (2 ^ 10) := by
  obtain ⟨o, ho, -⟩ := exists_sane00
  refine ⟨o, ⟨lit 50, lit 2, lit (-80)⟩, ⟨lit 50, lit 0, lit (-82)⟩, ho, ⟨.lit, .lit, .lit⟩, ⟨.lit, .lit, .lit⟩, ?_, .lit⟩
  intro h
  have : (lit 2 : F32).val = (lit 0 : F32).val := congrArg (fun t => t.b.val) h
  revert this
  decide +kernel

end CS
