import Verif.Lemmas.FloatOTF
import Verif.Lemmas.FloatLibm
import Verif.Props.Lab

/-!
# C92: CIELAB in binary32
-/

namespace CS
open B32 F32 Tristimulus Spec

/-- Near the knee the two branches of the CIE function agree to second order. -/
theorem labF_branches {x : ℝ} (h1 : (6 / 29) ^ 3 - 1e-8 ≤ x) (h2 : x ≤ (6 / 29) ^ 3 + 1e-8) :
    |x ^ ((1 : ℝ) / 3) - (x / (3 * (6 / 29) ^ 2) + 4 / 29)| ≤ 1e-11 := by
  have x0 : 0 ≤ x := le_trans (by norm_num) h1
  have hu := cube_third x0
  have u0 : 0 ≤ x ^ ((1 : ℝ) / 3) := by positivity
  generalize x ^ ((1 : ℝ) / 3) = u at *
  have hx : x = u ^ 3 := by rw [← hu, ← Real.rpow_natCast]; norm_num
  subst hx
  have f : u ^ 3 - (6 / 29) ^ 3 = (u - 6 / 29) * (u ^ 2 + u * (6 / 29) + (6 / 29) ^ 2) := by ring
  have g : (0.04 : ℝ) ≤ u ^ 2 + u * (6 / 29) + (6 / 29) ^ 2 := by nlinarith [sq_nonneg u]
  have d1 : u - 6 / 29 ≤ 2.5e-7 := by
    by_contra hc
    rw [not_le] at hc
    nlinarith
  have d2 : -2.5e-7 ≤ u - 6 / 29 := by
    by_contra hc
    rw [not_le] at hc
    nlinarith
  have e : u - (u ^ 3 / (3 * (6 / 29) ^ 2) + 4 / 29) = -((841 / 108) * (u - 6 / 29) ^ 2 * (u + 12 / 29)) := by ring
  rw [e, abs_neg, abs_of_nonneg (by positivity)]
  have s1 : (u - 6 / 29) ^ 2 ≤ 6.25e-14 := by nlinarith
  have s2 : u + 12 / 29 ≤ 1 := by linarith
  have s3 : 0 ≤ (u - 6 / 29) ^ 2 := sq_nonneg _
  nlinarith

theorem lab_third : Ap ((Arith.lit 1 : F32) / Arith.lit 3) (1 / 3) 1e-8 :=
  Ap.ofEval (q := 1 / 3) (e := 1e-8) (by decide +kernel) (by norm_num) (by norm_num)
theorem lab_K : Ap ((Arith.lit 24389 : F32) / Arith.lit 27) (24389 / 27) 3e-5 :=
  Ap.ofEval (q := 24389 / 27) (e := 3e-5) (by decide +kernel) (by norm_num) (by norm_num)
theorem lab_16 : Ap (Arith.lit 16 : F32) 16 0 := Ap.ofEval (q := 16) (e := 0) (by decide +kernel) (by norm_num) (by norm_num)
theorem lab_116 : Ap (Arith.lit 116 : F32) 116 0 := Ap.ofEval (q := 116) (e := 0) (by decide +kernel) (by norm_num) (by norm_num)
theorem lab_500 : Ap (Arith.lit 500 : F32) 500 0 := Ap.ofEval (q := 500) (e := 0) (by decide +kernel) (by norm_num) (by norm_num)
theorem lab_200 : Ap (Arith.lit 200 : F32) 200 0 := Ap.ofEval (q := 200) (e := 0) (by decide +kernel) (by norm_num) (by norm_num)
theorem lab_3 : Ap (Arith.lit 3 : F32) 3 0 := Ap.ofEval (q := 3) (e := 0) (by decide +kernel) (by norm_num) (by norm_num)
theorem lab_1 : Ap (Arith.lit 1 : F32) 1 0 := Ap.ofEval (q := 1) (e := 0) (by decide +kernel) (by norm_num) (by norm_num)
theorem lab_k3 : Ap ((Arith.lit 3 : F32) / Arith.lit 29 * (Arith.lit 3 / Arith.lit 29) * (Arith.lit 3 / Arith.lit 29)) ((3 / 29) ^ 3) 3e-10 :=
  Ap.ofEval (q := (3 / 29) ^ 3) (e := 3e-10) (by decide +kernel) (by norm_num) (by norm_num)

/-- The encoding curve in binary32, arguments up to the white. -/
theorem lab_curve_le {o : F32.Oracle} (ho : o.PowAccurate (2 ^ (-22 : ℤ))) {f : F32} {x : ℝ} (hf : Ap f x (x / 2 ^ 24 + 1 / 2 ^ 150))
    (x0 : 0 ≤ x) (x1 : x ≤ 1) (f1 : f.val ≤ 1) :
    letI := F32.libm o
    Ap (CIELAB_curve f) (labF x) 3.4e-7 := by
  unfold CIELAB_curve
  simp only
  have ht := Ap.ofEval (x := (Arith.lit 216 : F32) / Arith.lit 24389) (q := (6 / 29) ^ 3) (e := 1e-9) (r := (6 / 29) ^ 3) (E := 1e-9)
    (by decide +kernel) (by norm_num) (by norm_num)
  have hthr : Arith.lt ((Arith.lit 216 : F32) / Arith.lit 24389) f = decide (((Arith.lit 216 : F32) / Arith.lit 24389).val < f.val) := by
    rw [alt_def, lt_finite ht.fin hf.fin]
  show Ap (if Arith.lt (Arith.lit 1 : F32) f then _ else if Arith.lt ((Arith.lit 216 : F32) / Arith.lit 24389) f then _ else _) _ _
  rw [lit_lt hf.fin (q := 1) (c := 1) (by decide +kernel), if_neg (by simpa using f1), hthr]
  obtain ⟨t1, t2⟩ := _root_.abs_le.1 ht.err
  obtain ⟨e1, e2⟩ := _root_.abs_le.1 hf.err
  have e3 : x / 2 ^ 24 + 1 / 2 ^ 150 ≤ 6e-8 := by norm_num; linarith
  by_cases hc : ((Arith.lit 216 : F32) / Arith.lit 24389).val < f.val
  · rw [if_pos (by simpa using hc)]
    have hc' : (((Arith.lit 216 : F32) / Arith.lit 24389).val : ℝ) < f.val := by exact_mod_cast hc
    generalize (((Arith.lit 216 : F32) / Arith.lit 24389).val : ℝ) = T at *
    have xlo : (6 / 29 : ℝ) ^ 3 - 1e-8 ≤ x := by norm_num at *; linarith
    have xpos : 0 < x := lt_of_lt_of_le (by norm_num) xlo
    have p0 : 0 < x ^ ((1 : ℝ) / 3) := Real.rpow_pos_of_pos xpos _
    have p1 : x ^ ((1 : ℝ) / 3) ≤ 1 := Real.rpow_le_one x0 x1 (by norm_num)
    have plo : x ≤ x ^ ((1 : ℝ) / 3) := by
      have := Real.rpow_le_rpow_of_exponent_ge xpos x1 (show (1 : ℝ) / 3 ≤ 1 by norm_num)
      rwa [Real.rpow_one] at this
    have hp : Ap (o.powf f (Arith.lit 1 / Arith.lit 3)) (x ^ ((1 : ℝ) / 3)) (3.3e-7 * x ^ ((1 : ℝ) / 3)) := by
      refine Ap.pow ho (e := 6e-8) (f := 1e-8) (L := 5) (S := 1 / 3) (θ := 8e-8) xpos (hf.weaken ?_) (by norm_num) lab_third
        (by norm_num) (by exact_mod_cast log_bound (n := 5) x1 (le_trans (by norm_num) xlo)) (by norm_num) (by norm_num)
        ?_ ?_ (by positivity) (by rw [zpow_neg]; norm_num)
      · norm_num at *; linarith
      · refine le_trans ?_ plo; refine le_trans ?_ xlo; rw [zpow_neg]; norm_num
      · refine p1.trans ?_; norm_num
    refine ⟨hp.fin, ?_⟩
    have hb : |x ^ ((1 : ℝ) / 3) - labF x| ≤ 1e-11 := by
      unfold labF
      split_ifs with h
      · rw [sub_self, abs_zero]; norm_num
      · exact labF_branches xlo ((not_lt.1 h).trans (by norm_num))
    have h3 := hp.err
    have h4 := abs_add_le ((o.powf f (Arith.lit 1 / Arith.lit 3)).val - x ^ ((1 : ℝ) / 3)) (x ^ ((1 : ℝ) / 3) - labF x)
    rw [sub_add_sub_cancel] at h4
    refine h4.trans ?_
    linarith
  · rw [if_neg (by simpa using hc)]
    have hc' : (f.val : ℝ) ≤ ((Arith.lit 216 : F32) / Arith.lit 24389).val := by exact_mod_cast not_lt.1 hc
    generalize (((Arith.lit 216 : F32) / Arith.lit 24389).val : ℝ) = T at *
    have xhi : x ≤ (6 / 29) ^ 3 + 1e-8 := by norm_num at *; linarith
    have xhi' : x ≤ 0.00886 := xhi.trans (by norm_num)
    have a1 := lab_K.mul hf (R := 904) (S := 0.00886) (E := 1.3e-6) (by norm_num) (by rw [abs_of_nonneg x0]; exact xhi')
      (by norm_num; linarith) (by norm_num; linarith)
    have a2 := a1.add lab_16 (B := 24.1) (E := 2.9e-6) (by rw [abs_of_nonneg (by positivity)]; norm_num; linarith) (by norm_num) (by norm_num)
    have a3 := a2.div lab_116 (Q := 0.21) (S := 116) (d := 2.6e-8) (E := 4e-8)
      (by rw [abs_of_nonneg (by positivity)]; norm_num; linarith) (by norm_num) (by norm_num) (by norm_num) (by norm_num) (by norm_num)
    refine ⟨a3.fin, ?_⟩
    have hb : |(24389 / 27 * x + 16) / 116 - labF x| ≤ 1e-11 := by
      have e : (24389 / 27 * x + 16) / 116 = x / (3 * (6 / 29) ^ 2) + 4 / 29 := by ring
      rw [e]
      unfold labF
      split_ifs with h
      · rw [abs_sub_comm]
        exact labF_branches (le_trans (by norm_num) h.le) xhi
      · rw [sub_self, abs_zero]; norm_num
    have h3 := a3.err
    have h4 := abs_add_le (((((Arith.lit 24389 : F32) / Arith.lit 27) * f + Arith.lit 16) / Arith.lit 116).val - (24389 / 27 * x + 16) / 116)
      ((24389 / 27 * x + 16) / 116 - labF x)
    rw [sub_add_sub_cancel] at h4
    refine h4.trans ?_
    norm_num at *; linarith

/-- The encoding curve in binary32 clamps at the white. -/
theorem lab_curve {o : F32.Oracle} (ho : o.PowAccurate (2 ^ (-22 : ℤ))) {t w : F32} (ht : t.isFinite = true) (hw : w.isFinite = true)
    (t0 : 0 ≤ t.val) (w0 : 0 < w.val) (hq : t.val / w.val ≤ 2 ^ 100) :
    letI := F32.libm o
    Ap (CIELAB_curve (t / w)) (labF (min ((t.val : ℝ) / w.val) 1)) 3.4e-7 := by
  have q0 : 0 ≤ t.val / w.val := by positivity
  have hr := rnd_rel' (t.val / w.val)
  rw [abs_of_nonneg q0] at hr
  have n0 := rnd_nonneg q0
  have hfin : |rnd (t.val / w.val)| < 2 ^ 128 := by
    rw [abs_of_nonneg n0]
    obtain ⟨-, h⟩ := _root_.abs_le.1 hr
    have : (2 : ℚ) ^ 100 + (2 ^ 100 / 2 ^ 24 + 1 / 2 ^ 150) < 2 ^ 128 := by norm_num
    have h' : t.val / w.val / 2 ^ 24 ≤ 2 ^ 100 / 2 ^ 24 := by gcongr
    linarith
  have hd : (t / w).isFinite = true ∧ (t / w).val = rnd (t.val / w.val) := by
    rw [div_def, div_finite ht hw w0.ne']
    exact pack_finite hfin
  have e : ((t.val / w.val : ℚ) : ℝ) = (t.val : ℝ) / w.val := by push_cast; rfl
  have hap : Ap (t / w) ((t.val : ℝ) / w.val) ((t.val : ℝ) / w.val / 2 ^ 24 + 1 / 2 ^ 150) := by
    refine ⟨hd.1, ?_⟩
    rw [hd.2, ← e]
    have := (Rat.cast_le (K := ℝ)).2 hr
    push_cast at this ⊢; exact this
  have rep1 : Rep 1 := by simpa using rep_int (n := 1) (by norm_num)
  rcases le_or_gt (t.val / w.val) 1 with h | h
  · have h' : (t.val : ℝ) / w.val ≤ 1 := by rw [← e]; exact_mod_cast h
    rw [min_eq_left h']
    exact lab_curve_le ho hap (by rw [← e]; exact_mod_cast q0) h' (by rw [hd.2]; exact rnd_le rep1 h)
  · have h' : 1 < (t.val : ℝ) / w.val := by rw [← e]; exact_mod_cast h
    rw [min_eq_right h'.le]
    have hge : 1 ≤ (t / w).val := by rw [hd.2]; exact le_rnd rep1 h.le
    rcases hge.lt_or_eq with h2 | h2
    · unfold CIELAB_curve
      simp only
      rw [show @Arith.lt F32 (F32.libm o).toArith (lit 1) (t / w) = true by
        show Arith.lt (Arith.lit 1 : F32) (t / w) = true
        rw [lit_lt hd.1 (q := 1) (c := 1) (by decide +kernel)]; simpa using h2, if_pos rfl]
      have : labF 1 = 1 := by rw [labF, if_pos (by norm_num), Real.one_rpow]
      rw [this]
      exact lab_1.weaken (by norm_num)
    · refine lab_curve_le ho ⟨hd.1, ?_⟩ zero_le_one le_rfl h2.ge
      rw [← h2]; norm_num

theorem labF_range {x : ℝ} (h0 : 0 ≤ x) (h1 : x ≤ 1) : 4 / 29 ≤ labF x ∧ labF x ≤ 1 := by
  unfold labF
  split_ifs with h
  · refine ⟨?_, Real.rpow_le_one h0 h1 (by norm_num)⟩
    rw [← knee_cube] at h
    have := Real.rpow_lt_rpow (by positivity) h (show (0 : ℝ) < 1 / 3 by norm_num)
    rw [third_cube (by norm_num)] at this
    linarith
  · rw [not_lt] at h
    norm_num at h ⊢
    constructor <;> linarith

/-- The colour relative to the white, clamped: what `toCIELAB` looks at. -/
noncomputable def rel (t w : F32) : ℝ := min ((t.val : ℝ) / w.val) 1

theorem rel_range {t w : F32} (h0 : 0 ≤ t.val) (h1 : 0 < w.val) : 0 ≤ rel t w ∧ rel t w ≤ 1 := by
  refine ⟨le_min ?_ zero_le_one, min_le_right _ _⟩
  have a : (0 : ℝ) ≤ t.val := by exact_mod_cast h0
  have b : (0 : ℝ) ≤ w.val := by exact_mod_cast h1.le
  positivity

/-- Every component is finite and non-negative, at most `2^100` times that of the white, which is at most `2^100`. -/
def LabOK (t w : Tristimulus F32) : Prop :=
  ∀ p ∈ [(t.a, w.a), (t.b, w.b), (t.c, w.c)], p.1.isFinite = true ∧ p.2.isFinite = true ∧ 0 ≤ p.1.val ∧ 0 < p.2.val ∧
    p.1.val / p.2.val ≤ 2 ^ 100 ∧ p.2.val ≤ 2 ^ 100

/-- C92: in binary32 `toCIELAB` is within `5.3e-5` (L), `4e-4` (a) and `1.6e-4` (b) of the CIE definition of the colour
clamped to the white. -/
theorem C92_encode (o : F32.Oracle) (ho : o.PowAccurate (2 ^ (-22 : ℤ))) (t w : Tristimulus F32) (h : LabOK t w) :
    letI := F32.libm o
    Ap (toCIELAB t w).a (116 * labF (rel t.b w.b) - 16) 5.3e-5 ∧
    Ap (toCIELAB t w).b (500 * (labF (rel t.a w.a) - labF (rel t.b w.b))) 4e-4 ∧
    Ap (toCIELAB t w).c (200 * (labF (rel t.b w.b) - labF (rel t.c w.c))) 1.6e-4 := by
  obtain ⟨ha1, ha2, ha3, ha4, ha5, -⟩ := h (t.a, w.a) (by simp)
  obtain ⟨hb1, hb2, hb3, hb4, hb5, -⟩ := h (t.b, w.b) (by simp)
  obtain ⟨hc1, hc2, hc3, hc4, hc5, -⟩ := h (t.c, w.c) (by simp)
  have x1 := lab_curve ho ha1 ha2 ha3 ha4 ha5
  have y1 := lab_curve ho hb1 hb2 hb3 hb4 hb5
  have z1 := lab_curve ho hc1 hc2 hc3 hc4 hc5
  obtain ⟨ra, ra'⟩ := labF_range (rel_range ha3 ha4).1 (rel_range ha3 ha4).2
  obtain ⟨rb, rb'⟩ := labF_range (rel_range hb3 hb4).1 (rel_range hb3 hb4).2
  obtain ⟨rc, rc'⟩ := labF_range (rel_range hc3 hc4).1 (rel_range hc3 hc4).2
  unfold toCIELAB
  simp only
  unfold rel at *
  generalize @CIELAB_curve F32 (F32.libm o) (t.a / w.a) = X at *
  generalize @CIELAB_curve F32 (F32.libm o) (t.b / w.b) = Y at *
  generalize @CIELAB_curve F32 (F32.libm o) (t.c / w.c) = Z at *
  generalize labF (min ((t.a.val : ℝ) / w.a.val) 1) = p at *
  generalize labF (min ((t.b.val : ℝ) / w.b.val) 1) = q at *
  generalize labF (min ((t.c.val : ℝ) / w.c.val) 1) = r at *
  refine ⟨?_, ?_, ?_⟩
  · have a1 := lab_116.mul y1 (R := 116) (S := 1) (E := 4.7e-5) (by norm_num) (by rw [_root_.abs_le]; constructor <;> linarith)
      (by norm_num) (by norm_num)
    exact a1.sub lab_16 (B := 100) (by rw [_root_.abs_le]; constructor <;> linarith) (by norm_num) (by norm_num)
  · have a1 := x1.sub y1 (B := 0.87) (E := 7.4e-7) (by rw [_root_.abs_le]; constructor <;> linarith) (by norm_num) (by norm_num)
    exact lab_500.mul a1 (R := 500) (S := 0.87) (by norm_num) (by rw [_root_.abs_le]; constructor <;> linarith) (by norm_num) (by norm_num)
  · have a1 := y1.sub z1 (B := 0.87) (E := 7.4e-7) (by rw [_root_.abs_le]; constructor <;> linarith) (by norm_num) (by norm_num)
    exact lab_200.mul a1 (R := 200) (S := 0.87) (by norm_num) (by rw [_root_.abs_le]; constructor <;> linarith) (by norm_num) (by norm_num)

/-- The decoding curve, exactly. -/
noncomputable def labInv (u : ℝ) : ℝ := if 6 / 29 < u then u ^ 3 else 3 * (6 / 29) ^ 2 * (u - 4 / 29)

theorem labInv_labF {x : ℝ} (h0 : 0 ≤ x) (h1 : x ≤ 1) : labInv (labF x) = x := by
  have := decurve_curve x h1
  rw [curve_real, if_neg (not_lt.2 h1), decurve_real, if_neg (not_lt.2 (labF_range h0 h1).2)] at this
  have c3 : labF x ^ (3 : ℝ) = labF x ^ 3 := by rw [← Real.rpow_natCast]; norm_num
  rw [c3] at this
  exact this

/-- The decoding curve in binary32. -/
theorem lab_decurve {o : F32.Oracle} (ho : o.PowAccurate (2 ^ (-22 : ℤ))) {v : F32} {u e : ℝ} (hv : Ap v u e) (he : e ≤ 2e-6)
    (u0 : 4 / 29 ≤ u) (u1 : u ≤ 1) :
    letI := F32.libm o
    Ap (CIELAB_decurve v) (labInv u) (3 * e + 2.5e-7) := by
  have e0 := hv.nonneg
  obtain ⟨e1, e2⟩ := _root_.abs_le.1 hv.err
  unfold CIELAB_decurve
  simp only
  have ht := Ap.ofEval (x := (Arith.lit 6 : F32) / Arith.lit 29) (q := 6 / 29) (e := 1e-8) (r := 6 / 29) (E := 1e-8)
    (by decide +kernel) (by norm_num) (by norm_num)
  have hthr : Arith.lt ((Arith.lit 6 : F32) / Arith.lit 29) v = decide (((Arith.lit 6 : F32) / Arith.lit 29).val < v.val) := by
    rw [alt_def, lt_finite ht.fin hv.fin]
  show Ap (if Arith.lt (Arith.lit 1 : F32) v then _ else if Arith.lt ((Arith.lit 6 : F32) / Arith.lit 29) v then _ else _) _ _
  rw [lit_lt hv.fin (q := 1) (c := 1) (by decide +kernel), hthr]
  obtain ⟨t1, t2⟩ := _root_.abs_le.1 ht.err
  -- the branches of the exact curve near the knee
  have br : |u - 6 / 29| ≤ 1e-5 → |u ^ 3 - 3 * (6 / 29) ^ 2 * (u - 4 / 29)| ≤ 1e-9 := by
    intro h
    have e : u ^ 3 - 3 * (6 / 29) ^ 2 * (u - 4 / 29) = (u - 6 / 29) ^ 2 * (u + 12 / 29) := by ring
    rw [e, abs_of_nonneg (by positivity), ← sq_abs]
    have : |u - 6 / 29| ^ 2 ≤ (1e-5) ^ 2 := by gcongr
    nlinarith [sq_nonneg |u - 6 / 29|]
  by_cases h1 : 1 < v.val
  · rw [if_pos (by simpa using h1)]
    have h1' : (1 : ℝ) < v.val := by exact_mod_cast h1
    refine ⟨lab_1.fin, ?_⟩
    rw [show ((Arith.lit 1 : F32).val : ℝ) = 1 by
      have := lab_1.err
      rw [abs_le] at this; linarith [this.1, this.2]]
    rw [labInv, if_pos (by linarith), abs_of_nonneg (by
      have : u ^ 3 ≤ 1 := pow_le_one₀ (by linarith) u1
      linarith)]
    have : (1 - u) * (1 + u + u ^ 2) ≤ (1 - u) * 3 := mul_le_mul_of_nonneg_left (by nlinarith) (by linarith)
    nlinarith
  rw [if_neg (by simpa using h1)]
  have h1' : (v.val : ℝ) ≤ 1 := by exact_mod_cast not_lt.1 h1
  by_cases hc : ((Arith.lit 6 : F32) / Arith.lit 29).val < v.val
  · rw [if_pos (by simpa using hc)]
    have hc' : (((Arith.lit 6 : F32) / Arith.lit 29).val : ℝ) < v.val := by exact_mod_cast hc
    generalize (((Arith.lit 6 : F32) / Arith.lit 29).val : ℝ) = T at *
    have v0 : (0.2 : ℝ) ≤ v.val := by norm_num at *; linarith
    have hp : Ap (o.powf v (Arith.lit 3)) ((v.val : ℝ) ^ (3 : ℝ)) (2.4e-7 * (v.val : ℝ) ^ (3 : ℝ)) := by
      have c3 : (v.val : ℝ) ^ (3 : ℝ) = (v.val : ℝ) ^ 3 := by rw [← Real.rpow_natCast]; norm_num
      refine Ap.pow ho (e := 0) (f := 0) (L := 2) (S := 3) (θ := 0) (by linarith) (by rw [zero_mul]; exact Ap.exact hv.fin) (by norm_num) lab_3
        (by norm_num) (by exact_mod_cast log_bound (n := 2) h1' (le_trans (by norm_num) v0)) (by norm_num) (by norm_num)
        ?_ ?_ (by positivity) (by rw [zpow_neg]; norm_num)
      · rw [c3]
        have : (0.2 : ℝ) ^ 3 ≤ (v.val : ℝ) ^ 3 := by gcongr
        refine le_trans ?_ this; rw [zpow_neg]; norm_num
      · rw [c3]
        have : (v.val : ℝ) ^ 3 ≤ 1 := pow_le_one₀ (by linarith) h1'
        refine this.trans ?_; norm_num
    have c3 : (v.val : ℝ) ^ (3 : ℝ) = (v.val : ℝ) ^ 3 := by rw [← Real.rpow_natCast]; norm_num
    rw [c3] at hp
    have v3 : (v.val : ℝ) ^ 3 ≤ 1 := pow_le_one₀ (by linarith) h1'
    refine ⟨hp.fin, ?_⟩
    have hb : |u ^ 3 - labInv u| ≤ 1e-9 := by
      unfold labInv
      split_ifs with h
      · rw [sub_self, abs_zero]; norm_num
      · exact br (by rw [_root_.abs_le]; constructor <;> norm_num at * <;> linarith)
    have hvu : |(v.val : ℝ) ^ 3 - u ^ 3| ≤ 3 * e := by
      rw [show (v.val : ℝ) ^ 3 - u ^ 3 = (v.val - u) * ((v.val : ℝ) ^ 2 + v.val * u + u ^ 2) by ring, abs_mul,
        abs_of_nonneg (show (0 : ℝ) ≤ (v.val : ℝ) ^ 2 + v.val * u + u ^ 2 by nlinarith)]
      have : (v.val : ℝ) ^ 2 + v.val * u + u ^ 2 ≤ 3 := by nlinarith
      calc |(v.val : ℝ) - u| * ((v.val : ℝ) ^ 2 + v.val * u + u ^ 2) ≤ e * 3 := by
            have := hv.err
            gcongr
        _ = _ := by ring
    have h3 := hp.err
    have h4 := abs_add_three ((o.powf v (Arith.lit 3)).val - (v.val : ℝ) ^ 3) ((v.val : ℝ) ^ 3 - u ^ 3) (u ^ 3 - labInv u)
    rw [sub_add_sub_cancel, sub_add_sub_cancel] at h4
    refine h4.trans ?_
    norm_num at *; linarith
  · rw [if_neg (by simpa using hc)]
    have hc' : (v.val : ℝ) ≤ ((Arith.lit 6 : F32) / Arith.lit 29).val := by exact_mod_cast not_lt.1 hc
    generalize (((Arith.lit 6 : F32) / Arith.lit 29).val : ℝ) = T at *
    have uhi : u ≤ 0.21 := by norm_num at *; linarith
    have a1 := lab_116.mul hv (R := 116) (S := 0.21) (E := 117 * e + 1.5e-6) (by norm_num) (by rw [abs_of_nonneg (by linarith)]; exact uhi)
      (by norm_num; linarith) (by norm_num; linarith)
    have a2 := a1.sub lab_16 (B := 8.4) (E := 118 * e + 2.1e-6) (by rw [_root_.abs_le]; constructor <;> norm_num <;> linarith) (by norm_num; linarith) (by norm_num; linarith)
    have a3 := a2.mul lab_k3 (R := 8.4) (S := 0.00111) (E := e + 6e-9) (by rw [_root_.abs_le]; constructor <;> norm_num <;> linarith)
      (by rw [abs_of_nonneg (by positivity)]; norm_num) (by norm_num; linarith) (by norm_num; linarith)
    refine ⟨a3.fin, ?_⟩
    have hb : |(116 * u - 16) * (3 / 29) ^ 3 - labInv u| ≤ 1e-9 := by
      have e : (116 * u - 16) * (3 / 29) ^ 3 = 3 * (6 / 29) ^ 2 * (u - 4 / 29) := by ring
      rw [e]
      unfold labInv
      split_ifs with h
      · rw [abs_sub_comm]
        exact br (by rw [_root_.abs_le]; constructor <;> norm_num at * <;> linarith)
      · rw [sub_self, abs_zero]; norm_num
    have h3 := a3.err
    have h4 := abs_add_le ((((Arith.lit 116 : F32) * v - Arith.lit 16) * (Arith.lit 3 / Arith.lit 29 * (Arith.lit 3 / Arith.lit 29) * (Arith.lit 3 / Arith.lit 29))).val - (116 * u - 16) * (3 / 29) ^ 3)
      ((116 * u - 16) * (3 / 29) ^ 3 - labInv u)
    rw [sub_add_sub_cancel] at h4
    refine h4.trans ?_
    norm_num at *; linarith

theorem rel_mul {t w : F32} (hw : 0 < w.val) : rel t w * w.val = min (t.val : ℝ) w.val := by
  have b : (0 : ℝ) < w.val := by exact_mod_cast hw
  unfold rel
  rw [min_mul_of_nonneg _ _ b.le, one_mul, div_mul_cancel₀ _ b.ne']

/-- C92: in binary32, decoding what `toCIELAB` computed gives back the colour clamped to the white, up to `5e-6` of the
white. -/
theorem C92_roundtrip (o : F32.Oracle) (ho : o.PowAccurate (2 ^ (-22 : ℤ))) (t w : Tristimulus F32) (h : LabOK t w) :
    letI := F32.libm o
    Ap (fromCIELAB (toCIELAB t w) w).a (min t.a.val w.a.val) (5e-6 * w.a.val + 1 / 2 ^ 149) ∧
    Ap (fromCIELAB (toCIELAB t w) w).b (min t.b.val w.b.val) (5e-6 * w.b.val + 1 / 2 ^ 149) ∧
    Ap (fromCIELAB (toCIELAB t w) w).c (min t.c.val w.c.val) (5e-6 * w.c.val + 1 / 2 ^ 149) := by
  obtain ⟨L, A, B⟩ := C92_encode o ho t w h
  obtain ⟨ha1, ha2, ha3, ha4, ha5, ha6⟩ := h (t.a, w.a) (by simp)
  obtain ⟨hb1, hb2, hb3, hb4, hb5, hb6⟩ := h (t.b, w.b) (by simp)
  obtain ⟨hc1, hc2, hc3, hc4, hc5, hc6⟩ := h (t.c, w.c) (by simp)
  simp only at ha1 ha2 ha3 ha4 ha5 ha6 hb1 hb2 hb3 hb4 hb5 hb6 hc1 hc2 hc3 hc4 hc5 hc6
  obtain ⟨ra, ra'⟩ := labF_range (rel_range ha3 ha4).1 (rel_range ha3 ha4).2
  obtain ⟨rb, rb'⟩ := labF_range (rel_range hb3 hb4).1 (rel_range hb3 hb4).2
  obtain ⟨rc, rc'⟩ := labF_range (rel_range hc3 hc4).1 (rel_range hc3 hc4).2
  have ia := labInv_labF (rel_range ha3 ha4).1 (rel_range ha3 ha4).2
  have ib := labInv_labF (rel_range hb3 hb4).1 (rel_range hb3 hb4).2
  have ic := labInv_labF (rel_range hc3 hc4).1 (rel_range hc3 hc4).2
  have ga := rel_range ha3 ha4
  have gb := rel_range hb3 hb4
  have gc := rel_range hc3 hc4
  -- the last multiplication
  have last : ∀ {v t w : F32}, 0 < w.val → w.val ≤ 2 ^ 100 → w.isFinite = true → 0 ≤ rel t w → rel t w ≤ 1 →
      Ap v (rel t w) 4.8e-6 → Ap (v * w) (min (t.val : ℝ) w.val) (5e-6 * w.val + 1 / 2 ^ 149) := by
    intro v t w w0 w1 wf r0 r1 hv
    have b0 : (0 : ℝ) < w.val := by exact_mod_cast w0
    have b1 : (w.val : ℝ) ≤ 2 ^ 100 := by exact_mod_cast w1
    rw [← rel_mul w0]
    exact hv.mul (Ap.exact wf) (R := 1) (S := w.val) (by rw [abs_of_nonneg r0]; exact r1) (by rw [abs_of_pos b0])
      (by have : (2 : ℝ) ^ 100 * 2 ≤ 2 ^ 120 := by norm_num
          linarith)
      (by have : (0 : ℝ) < 1 / 2 ^ 150 := by positivity
          have h2 : (1 : ℝ) / 2 ^ 149 = 1 / 2 ^ 150 + 1 / 2 ^ 150 := by norm_num
          have h3 : (w.val : ℝ) / 2 ^ 24 ≤ w.val * 6e-8 := by rw [div_eq_mul_one_div]; gcongr; norm_num
          rw [h2, add_div, show ((4.8e-6 : ℝ) * w.val + 0 * 1 + 4.8e-6 * 0) / 2 ^ 24 = 4.8e-6 * (w.val / 2 ^ 24) by ring, one_mul]
          linarith)
  unfold fromCIELAB
  simp only
  generalize @toCIELAB F32 (F32.libm o) t w = lab at *
  have y1 := L.add lab_16 (B := 116) (E := 6.1e-5) (by rw [_root_.abs_le]; constructor <;> linarith) (by norm_num) (by norm_num)
  have y2 := y1.div lab_116 (Q := 1) (S := 116) (d := 5.3e-7) (E := 5.9e-7) (by rw [_root_.abs_le]; constructor <;> linarith)
    (by norm_num) (by norm_num) (by norm_num) (by norm_num) (by norm_num)
  have x1 := A.div lab_500 (Q := 1) (S := 500) (d := 8e-7) (E := 8.6e-7) (by rw [_root_.abs_le]; constructor <;> linarith)
    (by norm_num) (by norm_num) (by norm_num) (by norm_num) (by norm_num)
  have z1 := B.div lab_200 (Q := 1) (S := 200) (d := 8e-7) (E := 8.6e-7) (by rw [_root_.abs_le]; constructor <;> linarith)
    (by norm_num) (by norm_num) (by norm_num) (by norm_num) (by norm_num)
  have x2 := y2.add x1 (B := 1) (E := 1.516e-6) (by rw [_root_.abs_le]; constructor <;> linarith) (by norm_num) (by norm_num)
  have z2 := y2.sub z1 (B := 1) (E := 1.516e-6) (by rw [_root_.abs_le]; constructor <;> linarith) (by norm_num) (by norm_num)
  rw [show (116 * labF (rel t.b w.b) - 16 + 16) / 116 = labF (rel t.b w.b) by ring] at y2
  rw [show (116 * labF (rel t.b w.b) - 16 + 16) / 116 + 500 * (labF (rel t.a w.a) - labF (rel t.b w.b)) / 500 = labF (rel t.a w.a) by ring] at x2
  rw [show (116 * labF (rel t.b w.b) - 16 + 16) / 116 - 200 * (labF (rel t.b w.b) - labF (rel t.c w.c)) / 200 = labF (rel t.c w.c) by ring] at z2
  refine ⟨last ha4 ha6 ha2 ga.1 ga.2 ?_, last hb4 hb6 hb2 gb.1 gb.2 ?_, last hc4 hc6 hc2 gc.1 gc.2 ?_⟩
  · rw [← ia]; exact (lab_decurve ho x2 (by norm_num) ra ra').weaken (by norm_num)
  · rw [← ib]; exact (lab_decurve ho y2 (by norm_num) rb rb').weaken (by norm_num)
  · rw [← ic]; exact (lab_decurve ho z2 (by norm_num) rc rc').weaken (by norm_num)

/-- C92: the white itself is `(100, 0, 0)` exactly, provided `powf(1, y)` is 1 (C11 F.10.4.4). -/
theorem C92_white (o : F32.Oracle) (ho : ∀ y, o.powf (lit 1) y = lit 1) (w : Tristimulus F32)
    (hw : ∀ x ∈ [w.a, w.b, w.c], x.isFinite = true ∧ x.val ≠ 0) :
    letI := F32.libm o
    toCIELAB w w = ⟨lit 100, lit 0, lit 0⟩ := by
  have one : ∀ x : F32, x.isFinite = true → x.val ≠ 0 → x / x = lit 1 := by
    intro x hx h0
    rw [div_def, div_finite hx hx h0, div_self h0, Bool.xor_self]; rfl
  obtain ⟨a1, a2⟩ := hw w.a (by simp)
  obtain ⟨b1, b2⟩ := hw w.b (by simp)
  obtain ⟨c1, c2⟩ := hw w.c (by simp)
  have hc : @CIELAB_curve F32 (F32.libm o) (lit 1) = lit 1 := by
    unfold CIELAB_curve
    simp only
    rw [show @Arith.lt F32 (F32.libm o).toArith (lit 1) (lit 1) = false by
      show @Arith.lt F32 F32.instArith (lit 1) (lit 1) = false
      decide +kernel]
    rw [show @Arith.lt F32 (F32.libm o).toArith (lit 216 / lit 24389) (lit 1) = true by
      show @Arith.lt F32 F32.instArith (lit 216 / lit 24389) (lit 1) = true
      decide +kernel]
    exact ho _
  unfold toCIELAB
  simp only
  rw [one w.a a1 a2, one w.b b1 b2, one w.c c1 c2, hc]
  show (⟨(lit 116 : F32) * lit 1 - lit 16, (lit 500 : F32) * (lit 1 - lit 1), (lit 200 : F32) * (lit 1 - lit 1)⟩ : Tristimulus F32) = _
  congr 1 <;> exact ext_finite (by decide +kernel) (by decide +kernel) (by decide +kernel) (by decide +kernel)

/-- The hypotheses can be met (D50 white, a mid grey). -/
example : (∃ o : F32.Oracle, o.PowAccurate (2 ^ (-22 : ℤ))) ∧ (∃ o : F32.Oracle, ∀ y, o.powf (lit 1) y = lit 1) ∧
    LabOK ⟨lit 0.18, lit 0.18, lit 0.18⟩ ⟨lit 0.9642, lit 1.0, lit 0.8249⟩ := by
  refine ⟨?_, ⟨⟨id, fun x _ => x, id, id, id, id, id, fun x _ => x, id, fun x _ => x⟩, fun _ => rfl⟩, ?_⟩
  · obtain ⟨o, h⟩ := exists_powAccurate
    refine ⟨o, fun x y hx hy h0 h1 h2 => ?_⟩
    obtain ⟨a, b⟩ := h x y hx hy h0 h1 h2
    refine ⟨a, b.trans ?_⟩
    have : 0 < (x.val : ℝ) ^ (y.val : ℝ) := Real.rpow_pos_of_pos (by exact_mod_cast h0) _
    gcongr <;> norm_num
  · unfold LabOK
    decide +kernel

end CS
