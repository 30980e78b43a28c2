import Verif.Props.Greys

/-!
# C120: CIELAB codes survive decoding and encoding in binary32
-/

namespace CS
open B32 F32 Tristimulus Spec

theorem labInv_range {u : ℝ} (h0 : 4 / 29 ≤ u) (h1 : u ≤ 1) : 0 ≤ labInv u ∧ labInv u ≤ 1 := by
  unfold labInv
  split_ifs with h
  · exact ⟨by positivity, pow_le_one₀ (by linarith) h1⟩
  · rw [not_lt] at h
    constructor <;> norm_num <;> linarith

theorem labF_labInv {u : ℝ} (h0 : 4 / 29 ≤ u) : labF (labInv u) = u := by
  unfold labInv
  split_ifs with h
  · unfold labF
    rw [if_pos (by
      have : (6 / 29 : ℝ) ^ 3 < u ^ 3 := by gcongr
      exact this)]
    rw [show u ^ 3 = u ^ (3 : ℝ) by rw [← Real.rpow_natCast]; norm_num, ← Real.rpow_mul (by linarith)]
    norm_num
  · rw [not_lt] at h
    unfold labF
    rw [if_neg (by rw [not_lt]; norm_num; linarith)]
    ring

/-- The encoding curve in binary32 a little below black. -/
theorem lab_curve_neg {o : F32.Oracle} {t w : F32} (ht : t.isFinite = true) (hw : w.isFinite = true)
    (t0 : (t.val : ℝ) / w.val ≤ 0) (t1 : -1e-5 ≤ (t.val : ℝ) / w.val) (w0 : (1 : ℝ) / 2 ^ 100 ≤ w.val) :
    letI := F32.libm o
    Ap (CIELAB_curve (t / w)) (841 / 108 * ((t.val : ℝ) / w.val) + 4 / 29) 4e-8 := by
  have wp : (0 : ℝ) < w.val := lt_of_lt_of_le (by positivity) w0
  have hf : Ap (t / w) ((t.val : ℝ) / w.val) 1e-12 := by
    refine (Ap.exact ht).div (Ap.exact hw) (Q := 1e-5) (S := w.val) (d := 0) (by rw [_root_.abs_le]; constructor <;> linarith)
      (by linarith) wp (by norm_num) (by norm_num) (by norm_num)
  obtain ⟨e1, e2⟩ := _root_.abs_le.1 hf.err
  generalize hx : (t.val : ℝ) / w.val = x at *
  generalize t / w = f at *
  have f1 : f.val ≤ 1e-4 := by
    have : (f.val : ℝ) ≤ ((1e-4 : ℚ) : ℝ) := by push_cast; norm_num at *; linarith
    exact_mod_cast this
  unfold CIELAB_curve
  simp only
  have hthr : Arith.lt ((Arith.lit 216 : F32) / Arith.lit 24389) f = decide (((Arith.lit 216 : F32) / Arith.lit 24389).val < f.val) := by
    rw [alt_def, lt_finite (by decide +kernel) hf.fin]
  show Ap (if Arith.lt (Arith.lit 1 : F32) f then _ else if Arith.lt ((Arith.lit 216 : F32) / Arith.lit 24389) f then _ else _) _ _
  have thr : (1e-4 : ℚ) < ((Arith.lit 216 : F32) / Arith.lit 24389).val := by decide +kernel
  rw [lit_lt hf.fin (q := 1) (c := 1) (by decide +kernel), if_neg (by
    have : f.val ≤ 1 := f1.trans (by norm_num)
    simpa using this), hthr, if_neg (by
    have := f1.trans thr.le
    simpa using this)]
  have a1 := lab_K.mul hf (R := 904) (S := 1e-5) (E := 2.1e-9) (by norm_num) (by rw [_root_.abs_le]; constructor <;> linarith)
    (by norm_num) (by norm_num)
  have a2 := a1.add lab_16 (B := 16.1) (E := 1e-6) (by rw [_root_.abs_le]; constructor <;> norm_num <;> linarith) (by norm_num) (by norm_num)
  have a3 := a2.div lab_116 (Q := 0.14) (S := 116) (d := 1e-8) (E := 4e-8)
    (by rw [_root_.abs_le]; constructor <;> norm_num <;> linarith) (by norm_num) (by norm_num) (by norm_num) (by norm_num) (by norm_num)
  rw [show (24389 / 27 * x + 16) / 116 = 841 / 108 * x + 4 / 29 by ring] at a3
  exact a3

/-- One channel: decoded, multiplied by the white, divided by it and encoded again. -/
theorem lab_channel {o : F32.Oracle} (ho : o.PowAccurate (2 ^ (-22 : ℤ))) {v w : F32} {u e : ℝ} (hv : Ap v u e) (he : e ≤ 3e-7)
    (u0 : 4 / 29 ≤ u) (u1 : u ≤ 1) (hw : w.isFinite = true) (w0 : (1 : ℝ) / 2 ^ 100 ≤ w.val) (w1 : (w.val : ℝ) ≤ 2 ^ 100) :
    letI := F32.libm o
    Ap (CIELAB_curve (CIELAB_decurve v * w / w)) u (7.79 * (3 * e + 3.12e-7) + 3.4e-7) := by
  have e0 := hv.nonneg
  have wp : (0 : ℝ) < w.val := lt_of_lt_of_le (by positivity) w0
  have wq : 0 < w.val := by exact_mod_cast wp
  have hd := lab_decurve ho hv (he.trans (by norm_num)) u0 u1
  obtain ⟨x0, x1⟩ := labInv_range u0 u1
  have ux := labF_labInv u0
  generalize @CIELAB_decurve F32 (F32.libm o) v = d at *
  generalize labInv u = x at *
  have ht : Ap (d * w) (x * w.val) ((3 * e + 3.12e-7) * w.val) := by
    refine hd.mul (Ap.exact hw) (R := 1) (S := w.val) (by rw [abs_of_nonneg x0]; exact x1) (by rw [abs_of_pos wp]) ?_ ?_
    · have : (2 : ℝ) ^ 100 * 2 ≤ 2 ^ 120 := by norm_num
      have h2 : (3 * e + 2.5e-7) * (w.val : ℝ) ≤ 1 * w.val := by gcongr; linarith
      linarith
    · have h3 : (1 : ℝ) / 2 ^ 150 ≤ 1e-12 * w.val := by
        refine le_trans ?_ (mul_le_mul_of_nonneg_left w0 (by norm_num)); norm_num
      have h4 : (1 * (w.val : ℝ) + ((3 * e + 2.5e-7) * w.val + 0 * 1 + (3 * e + 2.5e-7) * 0)) / 2 ^ 24 ≤ 6e-8 * w.val := by
        rw [div_le_iff₀ (by positivity)]
        have : (3 * e + 2.5e-7) * (w.val : ℝ) ≤ 2e-6 * w.val := by gcongr; linarith
        norm_num at *; linarith
      linarith
  generalize d * w = t at *
  have hE : |(t.val : ℝ) / w.val - x| ≤ 3 * e + 3.12e-7 := by
    rw [show (t.val : ℝ) / w.val - x = (t.val - x * w.val) / w.val by field_simp, abs_div, abs_of_pos wp, div_le_iff₀ wp]
    exact ht.err
  have hs : 3 * e + 3.12e-7 ≤ 1.3e-6 := by linarith
  generalize 3 * e + 3.12e-7 = E at *
  obtain ⟨E1, E2⟩ := abs_le.1 hE
  rcases le_total (0 : ℝ) t.val with h | h
  · have hc := lab_curve ho ht.fin hw (by exact_mod_cast h) wq (by
      have : (t.val : ℝ) / w.val ≤ 2 ^ 100 := by
        refine le_trans (show _ ≤ (2 : ℝ) by linarith) (by norm_num)
      have e : ((t.val / w.val : ℚ) : ℝ) ≤ ((2 ^ 100 : ℚ) : ℝ) := by push_cast; exact this
      exact_mod_cast e)
    have q0 : 0 ≤ (t.val : ℝ) / w.val := by positivity
    have m : |min ((t.val : ℝ) / w.val) 1 - x| ≤ E := by
      rcases le_total ((t.val : ℝ) / w.val) 1 with h1 | h1
      · rw [min_eq_left h1]; exact hE
      · rw [min_eq_right h1, abs_le]; constructor <;> linarith
    have l := labF_close (le_min q0 zero_le_one) x0 m
    rw [ux] at l
    refine ⟨hc.fin, ?_⟩
    have h4 := abs_add_le ((@CIELAB_curve F32 (F32.libm o) (t / w)).val - labF (min ((t.val : ℝ) / w.val) 1)) (labF (min ((t.val : ℝ) / w.val) 1) - u)
    rw [sub_add_sub_cancel] at h4
    linarith [hc.err]
  · have q0 : (t.val : ℝ) / w.val ≤ 0 := div_nonpos_of_nonpos_of_nonneg h wp.le
    have hc := lab_curve_neg (o := o) ht.fin hw q0 (by norm_num at *; linarith) w0
    refine ⟨hc.fin, ?_⟩
    have hu : u = 841 / 108 * x + 4 / 29 := by
      rw [← ux, labF, if_neg (by rw [not_lt]; norm_num at *; linarith)]; ring
    have h4 := abs_add_le ((@CIELAB_curve F32 (F32.libm o) (t / w)).val - (841 / 108 * ((t.val : ℝ) / w.val) + 4 / 29))
      (841 / 108 * ((t.val : ℝ) / w.val) + 4 / 29 - u)
    rw [sub_add_sub_cancel] at h4
    have h5 : |841 / 108 * ((t.val : ℝ) / w.val) + 4 / 29 - u| ≤ 7.79 * E := by
      rw [hu, show 841 / 108 * ((t.val : ℝ) / w.val) + 4 / 29 - (841 / 108 * x + 4 / 29) = 841 / 108 * ((t.val : ℝ) / w.val - x) by ring,
        abs_mul, abs_of_pos (by norm_num)]
      gcongr
      norm_num
    linarith [hc.err]

/-- A CIELAB colour whose XYZ lies between black and the white, component by component; `w` is a white of ordinary size. -/
structure LabColor (v w : Tristimulus F32) : Prop where
  fin : v.a.isFinite = true ∧ v.b.isFinite = true ∧ v.c.isFinite = true
  light : 0 ≤ v.a.val ∧ v.a.val ≤ 100
  x : 4 / 29 ≤ (v.a.val + 16) / 116 + v.b.val / 500 ∧ (v.a.val + 16) / 116 + v.b.val / 500 ≤ 1
  z : 4 / 29 ≤ (v.a.val + 16) / 116 - v.c.val / 200 ∧ (v.a.val + 16) / 116 - v.c.val / 200 ≤ 1
  white : ∀ p ∈ [w.a, w.b, w.c], p.isFinite = true ∧ 1 / 2 ^ 100 ≤ p.val ∧ p.val ≤ 2 ^ 100

/-- C120: in binary32, CIELAB to XYZ and back gives the colour again, within `7e-4` (L), `7.4e-3` (a) and `3e-3` (b). -/
theorem C120_roundtrip (o : F32.Oracle) (ho : o.PowAccurate (2 ^ (-22 : ℤ))) (v w : Tristimulus F32) (h : LabColor v w) :
    letI := F32.libm o
    Ap (toCIELAB (fromCIELAB v w) w).a v.a.val 7e-4 ∧
    Ap (toCIELAB (fromCIELAB v w) w).b v.b.val 7.4e-3 ∧
    Ap (toCIELAB (fromCIELAB v w) w).c v.c.val 3e-3 := by
  obtain ⟨⟨fa, fb, fc⟩, ⟨l0, l1⟩, ⟨x0, x1⟩, ⟨z0, z1⟩, hw⟩ := h
  have cast : ∀ p ∈ [w.a, w.b, w.c], p.isFinite = true ∧ (1 : ℝ) / 2 ^ 100 ≤ p.val ∧ (p.val : ℝ) ≤ 2 ^ 100 := by
    intro p hp
    obtain ⟨a, b, c⟩ := hw p hp
    refine ⟨a, ?_, ?_⟩
    · have := (Rat.cast_le (K := ℝ)).2 b
      push_cast at this; exact this
    · exact_mod_cast c
  obtain ⟨wa, wa0, wa1⟩ := cast w.a (by simp)
  obtain ⟨wb, wb0, wb1⟩ := cast w.b (by simp)
  obtain ⟨wc, wc0, wc1⟩ := cast w.c (by simp)
  have l0' : (0 : ℝ) ≤ v.a.val := by exact_mod_cast l0
  have l1' : (v.a.val : ℝ) ≤ 100 := by exact_mod_cast l1
  have x0' : (4 / 29 : ℝ) ≤ (v.a.val + 16) / 116 + v.b.val / 500 := by
    have := (Rat.cast_le (K := ℝ)).2 x0; push_cast at this; exact this
  have x1' : ((v.a.val : ℝ) + 16) / 116 + v.b.val / 500 ≤ 1 := by
    have := (Rat.cast_le (K := ℝ)).2 x1; push_cast at this; exact this
  have z0' : (4 / 29 : ℝ) ≤ (v.a.val + 16) / 116 - v.c.val / 200 := by
    have := (Rat.cast_le (K := ℝ)).2 z0; push_cast at this; exact this
  have z1' : ((v.a.val : ℝ) + 16) / 116 - v.c.val / 200 ≤ 1 := by
    have := (Rat.cast_le (K := ℝ)).2 z1; push_cast at this; exact this
  have y1 := (Ap.exact fa).add lab_16 (B := 116) (E := 6.93e-6) (by rw [_root_.abs_le]; constructor <;> linarith) (by norm_num) (by norm_num)
  have y2 := y1.div lab_116 (Q := 1) (S := 116) (d := 5.98e-8) (E := 1.2e-7) (by rw [_root_.abs_le]; constructor <;> linarith)
    (by norm_num) (by norm_num) (by norm_num) (by norm_num) (by norm_num)
  have a1 := (Ap.exact fb).div lab_500 (Q := 1) (S := 500) (d := 0) (E := 5.97e-8) (by rw [_root_.abs_le]; constructor <;> linarith)
    (by norm_num) (by norm_num) (by norm_num) (by norm_num) (by norm_num)
  have c1 := (Ap.exact fc).div lab_200 (Q := 1) (S := 200) (d := 0) (E := 5.97e-8) (by rw [_root_.abs_le]; constructor <;> linarith)
    (by norm_num) (by norm_num) (by norm_num) (by norm_num) (by norm_num)
  have x2 := y2.add a1 (B := 1) (E := 2.4e-7) (by rw [_root_.abs_le]; constructor <;> linarith) (by norm_num) (by norm_num)
  have z2 := y2.sub c1 (B := 1) (E := 2.4e-7) (by rw [_root_.abs_le]; constructor <;> linarith) (by norm_num) (by norm_num)
  have Y := (lab_channel ho y2 (by norm_num) (by linarith) (by linarith) wb wb0 wb1).weaken (e' := 5.6e-6) (by norm_num)
  have X := (lab_channel ho x2 (by norm_num) x0' x1' wa wa0 wa1).weaken (e' := 8.4e-6) (by norm_num)
  have Z := (lab_channel ho z2 (by norm_num) z0' z1' wc wc0 wc1).weaken (e' := 8.4e-6) (by norm_num)
  unfold fromCIELAB toCIELAB
  simp only
  refine ⟨?_, ?_, ?_⟩
  · have a1 := lab_116.mul Y (R := 116) (S := 1) (E := 6.6e-4) (by norm_num) (by rw [_root_.abs_le]; constructor <;> linarith)
      (by norm_num) (by norm_num)
    have a2 := a1.sub lab_16 (B := 100) (E := 7e-4) (by rw [_root_.abs_le]; constructor <;> linarith) (by norm_num) (by norm_num)
    rw [show 116 * (((v.a.val : ℝ) + 16) / 116) - 16 = v.a.val by ring] at a2
    exact a2
  · have a1 := X.sub Y (B := 1) (E := 1.41e-5) (by rw [_root_.abs_le]; constructor <;> linarith) (by norm_num) (by norm_num)
    have a2 := lab_500.mul a1 (R := 500) (S := 1) (E := 7.4e-3) (by norm_num) (by rw [_root_.abs_le]; constructor <;> linarith) (by norm_num) (by norm_num)
    rw [show 500 * (((v.a.val : ℝ) + 16) / 116 + v.b.val / 500 - ((v.a.val : ℝ) + 16) / 116) = v.b.val by ring] at a2
    exact a2
  · have a1 := Y.sub Z (B := 1) (E := 1.41e-5) (by rw [_root_.abs_le]; constructor <;> linarith) (by norm_num) (by norm_num)
    have a2 := lab_200.mul a1 (R := 200) (S := 1) (E := 3e-3) (by norm_num) (by rw [_root_.abs_le]; constructor <;> linarith) (by norm_num) (by norm_num)
    rw [show 200 * (((v.a.val : ℝ) + 16) / 116 - (((v.a.val : ℝ) + 16) / 116 - v.c.val / 200)) = v.c.val by ring] at a2
    exact a2

/-- The code of `x` on a scale with `n` steps to the unit. -/
theorem code_back {x r e n : ℝ} {y : F32} {k : ℤ} (hx : |x - k / n| ≤ r) (hy : Ap y x e) (hn : 0 < n) (h : n * (r + e) < 1 / 2) :
    round ((y.val : ℝ) * n) = k := by
  rw [round_eq, Int.floor_eq_iff]
  have h1 := abs_add_le ((y.val : ℝ) - x) (x - k / n)
  rw [sub_add_sub_cancel] at h1
  have h2 : |(y.val : ℝ) * n - k| < 1 / 2 := by
    rw [show (y.val : ℝ) * n - k = (y.val - k / n) * n by field_simp, abs_mul, abs_of_pos hn]
    calc |(y.val : ℝ) - k / n| * n ≤ (r + e) * n := by gcongr; linarith [hy.err]
      _ < 1 / 2 := by linarith
  obtain ⟨h3, h4⟩ := abs_lt.1 h2
  constructor <;> linarith

/-- C120: CIELAB codes come back: lightness in `M ≤ 65535` steps from 0 to 100, `a` and `b` in `N ≤ 64` steps to the unit,
each stored as a binary32 number next to it. -/
theorem C120_codes (o : F32.Oracle) (ho : o.PowAccurate (2 ^ (-22 : ℤ))) (v w : Tristimulus F32) (h : LabColor v w)
    {M N : ℕ} (M0 : 0 < M) (M1 : M ≤ 65535) (N0 : 0 < N) (N1 : N ≤ 64) {i j k : ℤ}
    (hi : |(v.a.val : ℝ) - 100 * i / M| ≤ 4e-6) (hj : |(v.b.val : ℝ) - j / N| ≤ 1.6e-5) (hk : |(v.c.val : ℝ) - k / N| ≤ 1.6e-5) :
    letI := F32.libm o
    round (((toCIELAB (fromCIELAB v w) w).a.val : ℝ) * (M / 100)) = i ∧
    round (((toCIELAB (fromCIELAB v w) w).b.val : ℝ) * N) = j ∧
    round (((toCIELAB (fromCIELAB v w) w).c.val : ℝ) * N) = k := by
  obtain ⟨L, A, B⟩ := C120_roundtrip o ho v w h
  have m0 : (0 : ℝ) < M := by exact_mod_cast M0
  have m1 : (M : ℝ) ≤ 65535 := by exact_mod_cast M1
  have n0 : (0 : ℝ) < N := by exact_mod_cast N0
  have n1 : (N : ℝ) ≤ 64 := by exact_mod_cast N1
  refine ⟨code_back (r := 4e-6) ?_ L (by positivity) (by norm_num; linarith), code_back hj A n0 (by norm_num; linarith),
    code_back hk B n0 (by norm_num; linarith)⟩
  rw [show (i : ℝ) / (M / 100) = 100 * i / M by field_simp]
  exact hi

/-- The hypotheses can be met: L = 50, a = 20, b = -30, with the D50 white. -/
example : (∃ o : F32.Oracle, o.PowAccurate (2 ^ (-22 : ℤ))) ∧
    LabColor ⟨lit 50, lit 20, lit (-30)⟩ ⟨lit 0.9642, lit 1.0, lit 0.8249⟩ := by
  refine ⟨?_, ⟨by decide +kernel, by decide +kernel, by decide +kernel, by decide +kernel, by decide +kernel⟩⟩
  obtain ⟨o, h⟩ := exists_powAccurate
  refine ⟨o, fun x y hx hy h0 h1 h2 => ?_⟩
  obtain ⟨a, b⟩ := h x y hx hy h0 h1 h2
  refine ⟨a, b.trans ?_⟩
  have : 0 < (x.val : ℝ) ^ (y.val : ℝ) := Real.rpow_pos_of_pos (by exact_mod_cast h0) _
  gcongr <;> norm_num

end CS
