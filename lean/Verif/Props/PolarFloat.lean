import Verif.Props.HSVFloat
import Verif.Lemmas.FloatLibm
import Verif.Lemmas.FloatOTF
import Mathlib.Analysis.Complex.Angle
import Mathlib.Analysis.Real.Pi.Bounds

/-!
# C132: the polar hue in single precision

`toHSV_atan` with an `atan2f` that is accurate up to full turns (at `-0` and negative `x` it returns `-π`).
-/

namespace CS
open B32 F32 Tristimulus

/-- An `atan2f` whose result is bounded for finite arguments, and the angle of the point up to `1e-6` and full turns. -/
structure F32.Oracle.Polar (o : F32.Oracle) : Prop where
  sqrt : o.SqrtAccurate (2 ^ (-22 : ℤ))
  range : ∀ y x : F32, y.isFinite = true → x.isFinite = true → (o.atan2f y x).isFinite = true ∧ |((o.atan2f y x).val : ℝ)| ≤ 4
  acc : ∀ y x : F32, y.isFinite = true → x.isFinite = true → ¬ (x.val = 0 ∧ y.val = 0) →
    ∃ n : ℤ, |((o.atan2f y x).val : ℝ) - (Complex.arg ⟨x.val, y.val⟩ + 2 * Real.pi * n)| ≤ 1e-6

namespace PolarF

/-- Close points have close angles. -/
theorem arg_close {z w : ℂ} (hz : z ≠ 0) (hw : w ≠ 0) : ∃ n : ℤ, |w.arg - (z.arg + 2 * Real.pi * n)| ≤ Real.pi * (‖w - z‖ / ‖z‖) := by
  have z0 : 0 < ‖z‖ := norm_pos_iff.2 hz
  have w0 : 0 < ‖w‖ := norm_pos_iff.2 hw
  have h := Complex.arg_div_coe_angle hw hz
  rw [← Real.Angle.coe_sub] at h
  obtain ⟨k, hk⟩ := Real.Angle.angle_eq_iff_two_pi_dvd_sub.1 h
  have a := Complex.angle_eq_abs_arg hw hz
  have nw : ‖(‖w‖⁻¹ : ℝ) • w‖ = 1 := by rw [norm_smul, norm_inv, norm_norm, inv_mul_cancel₀ w0.ne']
  have nz : ‖(‖z‖⁻¹ : ℝ) • z‖ = 1 := by rw [norm_smul, norm_inv, norm_norm, inv_mul_cancel₀ z0.ne']
  have b := Complex.angle_le_mul_norm_sub nw nz
  rw [InnerProductGeometry.angle_smul_left_of_pos _ _ (inv_pos.2 w0), InnerProductGeometry.angle_smul_right_of_pos _ _ (inv_pos.2 z0), a] at b
  have c : ‖(‖w‖⁻¹ : ℝ) • w - (‖z‖⁻¹ : ℝ) • z‖ ≤ 2 * (‖w - z‖ / ‖z‖) := by
    have e : (‖w‖⁻¹ : ℝ) • w - (‖z‖⁻¹ : ℝ) • z = (‖z‖⁻¹ : ℝ) • (w - z) + (‖w‖⁻¹ - ‖z‖⁻¹) • w := by
      rw [smul_sub, sub_smul]; abel
    rw [e]
    refine (norm_add_le _ _).trans ?_
    rw [norm_smul, norm_smul, norm_inv, norm_norm, Real.norm_eq_abs]
    have e2 : |‖w‖⁻¹ - ‖z‖⁻¹| * ‖w‖ = |‖z‖ - ‖w‖| / ‖z‖ := by
      rw [inv_sub_inv w0.ne' z0.ne', abs_div, abs_of_pos (mul_pos w0 z0)]
      field_simp
    rw [e2]
    have e3 : |‖z‖ - ‖w‖| ≤ ‖w - z‖ := by
      rw [abs_sub_comm]; exact abs_norm_sub_norm_le w z
    have e4 : |‖z‖ - ‖w‖| / ‖z‖ ≤ ‖w - z‖ / ‖z‖ := by gcongr
    have e5 : ‖z‖⁻¹ * ‖w - z‖ = ‖w - z‖ / ‖z‖ := by rw [div_eq_inv_mul]
    linarith
  refine ⟨-k, ?_⟩
  have e : w.arg - (z.arg + 2 * Real.pi * ((-k : ℤ) : ℝ)) = (w / z).arg := by push_cast; linarith
  rw [e]
  have pi0 := Real.pi_pos
  calc _ ≤ Real.pi / 2 * ‖(‖w‖⁻¹ : ℝ) • w - (‖z‖⁻¹ : ℝ) • z‖ := b
    _ ≤ Real.pi / 2 * (2 * (‖w - z‖ / ‖z‖)) := by gcongr
    _ = _ := by ring

/-- Any two angles agree up to half a turn. -/
theorem half_turn (x e : ℝ) : ∃ n : ℤ, |x - (e + 360 * n)| ≤ 180 := by
  refine ⟨round ((x - e) / 360), ?_⟩
  have := abs_sub_round ((x - e) / 360)
  rw [show x - (e + 360 * (round ((x - e) / 360) : ℝ)) = 360 * ((x - e) / 360 - round ((x - e) / 360)) by ring, abs_mul]
  norm_num
  linarith

theorem wrap {x : F32} (hf : x.isFinite = true) (hb : |(x.val : ℝ)| ≤ 300) :
    ∃ y, mod360 x = some y ∧ y.isFinite = true ∧ 0 ≤ y.val ∧ y.val ≤ 360 ∧ ∃ n : ℤ, |(y.val : ℝ) - (x.val + 360 * n)| ≤ 3e-5 := by
  have hx := Is.of x hf
  have hb' : |x.val| ≤ 300 := by exact_mod_cast hb
  obtain ⟨b0, b1⟩ := _root_.abs_le.1 hb'
  rcases le_or_gt 0 x.val with h0 | h0
  · refine ⟨x, mod360_here hx h0 (by linarith), hf, h0, by linarith, 0, ?_⟩
    norm_num
  · have r360 : Rep 360 := by exact_mod_cast rep_int (n := 360) (by norm_num)
    have g0 : 0 ≤ rnd (x.val + 360) := rnd_nonneg (by linarith)
    have g1 : rnd (x.val + 360) ≤ 360 := rnd_le r360 (by linarith)
    have i := hx.add_rnd is360 (by rw [abs_of_nonneg g0]; exact g1.trans_lt (by norm_num))
    refine ⟨_, ?_, i.1, by rw [i.2]; exact g0, by rw [i.2]; exact g1, 1, ?_⟩
    · rw [mod360, hx.lt is0, if_pos (by simpa using h0)]
      exact mod360_here i g0 g1
    · rw [i.2]
      have := rnd_rel' (x.val + 360)
      rw [abs_of_pos (by linarith : 0 < x.val + 360)] at this
      have h2 : |rnd (x.val + 360) - (x.val + 360)| ≤ 3e-5 := by norm_num at this ⊢; linarith
      have h3 := (Rat.cast_le (K := ℝ)).2 h2
      push_cast at h3 ⊢
      rw [mul_one]
      exact h3

theorem factor : F32.Ap ((lit 180 / CS.PI : F32)) (180 / Real.pi) 5e-6 := by
  have h : F32.Ap ((lit 180 / CS.PI : F32)) 57.2957795 4e-6 :=
    F32.Ap.ofEval (q := 57.2957795) (e := 4e-6) (by decide +kernel) (by norm_num) (by norm_num)
  refine ⟨h.fin, ?_⟩
  have p0 := Real.pi_gt_d20
  have p1 := Real.pi_lt_d20
  have q0 : 57.2957795 ≤ 180 / Real.pi := by rw [le_div_iff₀ Real.pi_pos]; norm_num at *; linarith
  have q1 : 180 / Real.pi ≤ 57.2957796 := by rw [div_le_iff₀ Real.pi_pos]; norm_num at *; linarith
  have := _root_.abs_le.1 h.err
  rw [_root_.abs_le]
  norm_num at *
  constructor <;> linarith [this.1, this.2]

/-- The point whose angle is taken. -/
theorem point {o : F32.Oracle} (ho : o.SqrtAccurate (2 ^ (-22 : ℤ))) {t : Tristimulus F32} (ha : t.a.isFinite = true) (hb : t.b.isFinite = true)
    (hc : t.c.isFinite = true) {M : ℝ} (la : |(t.a.val : ℝ)| ≤ M) (lb : |(t.b.val : ℝ)| ≤ M) (lc : |(t.c.val : ℝ)| ≤ M)
    (M0 : 1 / 2 ^ 100 ≤ M) (M1 : M ≤ 2 ^ 116) :
    F32.Ap (o.sqrtf (lit 3) * (t.b - t.c)) (√3 * ((t.b.val : ℝ) - t.c.val)) (1.4e-6 * M) ∧
    F32.Ap (lit 2 * t.a - t.b - t.c) (2 * (t.a.val : ℝ) - t.b.val - t.c.val) (6e-7 * M) := by
  have hM : (0 : ℝ) < M := lt_of_lt_of_le (by positivity) M0
  have tiny : (1 : ℝ) / 2 ^ 150 ≤ 1e-12 * M := by
    have : (1 : ℝ) / 2 ^ 150 ≤ 1e-12 * (1 / 2 ^ 100) := by norm_num
    exact this.trans (by gcongr)
  have top : 10 * M ≤ 2 ^ 120 := by
    have : 10 * (2 : ℝ) ^ 116 ≤ 2 ^ 120 := by norm_num
    linarith
  have A := _root_.abs_le.1 la
  have B := _root_.abs_le.1 lb
  have C := _root_.abs_le.1 lc
  have s3 : (√3 : ℝ) ≤ 1.7321 := by
    rw [Real.sqrt_le_left (by norm_num)]; norm_num
  have is3 : (lit 3 : F32).isFinite = true ∧ (lit 3 : F32).val = 3 := by decide +kernel
  have hs : F32.Ap (o.sqrtf (lit 3)) √3 4.2e-7 := by
    obtain ⟨f, e⟩ := ho (lit 3) is3.1 (by rw [is3.2]; norm_num)
    rw [is3.2] at e
    push_cast at e
    refine ⟨f, e.trans ?_⟩
    norm_num at s3 ⊢
    linarith
  have is2 : F32.Ap (lit 2 : F32) 2 0 := F32.Ap.ofEval (q := 2) (e := 0) (by decide +kernel) (by norm_num) (by norm_num)
  constructor
  · have d := (F32.Ap.exact hb).sub (F32.Ap.exact hc) (B := 2 * M) (E := 1.2e-7 * M) (by rw [_root_.abs_le]; constructor <;> linarith)
      (by linarith) (by norm_num at *; linarith)
    exact hs.mul d (R := 1.7321) (S := 2 * M) (by rw [abs_of_nonneg (Real.sqrt_nonneg _)]; exact s3)
      (by rw [_root_.abs_le]; constructor <;> linarith) (by norm_num at *; linarith) (by norm_num at *; linarith)
  · have d := is2.mul (F32.Ap.exact ha) (R := 2) (S := M) (E := 1.2e-7 * M) (by norm_num) la (by norm_num at *; linarith) (by norm_num at *; linarith)
    have d' := d.sub (F32.Ap.exact hb) (B := 3 * M) (E := 3.1e-7 * M) (by rw [_root_.abs_le]; constructor <;> linarith)
      (by norm_num at *; linarith) (by norm_num at *; linarith)
    exact d'.sub (F32.Ap.exact hc) (B := 4 * M) (E := 6e-7 * M) (by rw [_root_.abs_le]; constructor <;> linarith)
      (by norm_num at *; linarith) (by norm_num at *; linarith)

/-- The length of the point is at least the spread of the components. -/
theorem length (a b c : ℝ) : √3 * (max (max a b) c - min (min a b) c) ≤ ‖(⟨2 * a - b - c, √3 * (b - c)⟩ : ℂ)‖ := by
  have h3 : (√3 : ℝ) ^ 2 = 3 := Real.sq_sqrt (by norm_num)
  have e : ‖(⟨2 * a - b - c, √3 * (b - c)⟩ : ℂ)‖ ^ 2 = (2 * a - b - c) ^ 2 + 3 * (b - c) ^ 2 := by
    rw [← Complex.normSq_eq_norm_sq, Complex.normSq_mk]
    nlinarith
  refine (le_abs_self _).trans (abs_le_of_sq_le_sq ?_ (norm_nonneg _))
  rw [e, mul_pow, h3]
  rcases max_cases (max a b) c with ⟨m1, m2⟩ | ⟨m1, m2⟩ <;> rcases max_cases a b with ⟨n1, n2⟩ | ⟨n1, n2⟩ <;>
    rcases min_cases (min a b) c with ⟨p1, p2⟩ | ⟨p1, p2⟩ <;> rcases min_cases a b with ⟨q1, q2⟩ | ⟨q1, q2⟩ <;>
    rw [m1, p1] <;> (try rw [n1]) <;> (try rw [q1]) <;> rw [n1] at m2 <;> rw [q1] at p2 <;>
    nlinarith [sq_nonneg (2 * a - b - c), sq_nonneg (2 * b - a - c), sq_nonneg (2 * c - a - b), sq_nonneg (a - b), sq_nonneg (b - c), sq_nonneg (a - c)]

end PolarF

open PolarF

/-- **C132, range.** For finite components of magnitude at most `2^116`, `toHSV_atan` returns a finite hue in `[0, 360]`, and its
saturation and value are those of `toHSV`, bit for bit. -/
theorem C132_range (o : F32.Oracle) (ho : o.Polar) (t : Tristimulus F32) (ha : t.a.isFinite = true) (hb : t.b.isFinite = true)
    (hc : t.c.isFinite = true) (la : |t.a.val| ≤ 2 ^ 116) (lb : |t.b.val| ≤ 2 ^ 116) (lc : |t.c.val| ≤ 2 ^ 116) :
    ∃ r, @toHSV_atan F32 (F32.libm o) t = some r ∧ r.a.isFinite = true ∧ 0 ≤ r.a.val ∧ r.a.val ≤ 360 ∧
      ∃ r', toHSV t = some r' ∧ r.b = r'.b ∧ r.c = r'.c := by
  obtain ⟨p1, p2⟩ := point ho.sqrt ha hb hc (M := 2 ^ 116) (by exact_mod_cast la) (by exact_mod_cast lb) (by exact_mod_cast lc) (by norm_num) le_rfl
  obtain ⟨f, b⟩ := ho.range _ _ p1.fin p2.fin
  have k := factor.mul (F32.Ap.exact f) (R := 57.3) (S := 4) (E := 1e-4) (by
    have p0 := Real.pi_gt_d6
    rw [abs_of_pos (by have := Real.pi_pos; positivity), div_le_iff₀ Real.pi_pos]; norm_num at *; linarith) b (by norm_num) (by norm_num)
  have kb : |(((lit 180 / CS.PI : F32) * o.atan2f (o.sqrtf (lit 3) * (t.b - t.c)) (lit 2 * t.a - t.b - t.c)).val : ℝ)| ≤ 300 := by
    refine (k.abs_le (R := 57.3 * 4) ?_).trans (by norm_num)
    rw [abs_mul]
    gcongr
    have p0 := Real.pi_gt_d6
    rw [abs_of_pos (by have := Real.pi_pos; positivity), div_le_iff₀ Real.pi_pos]; norm_num at *; linarith
  obtain ⟨y, e, fy, y0, y1, -⟩ := wrap k.fin kb
  obtain ⟨r', e', -⟩ := C63_hue t ha hb hc (la.trans (by norm_num)) (lb.trans (by norm_num)) (lc.trans (by norm_num))
  refine ⟨⟨y, _, _⟩, by unfold toHSV_atan; simp only; erw [e]; rfl, fy, y0, y1, r', e', ?_⟩
  unfold toHSV at e'
  simp only [Option.map_eq_some_iff] at e'
  obtain ⟨q, -, rfl⟩ := e'
  exact ⟨rfl, rfl⟩

/-- **C132, accuracy.** The hue is the angle of the colour in the chromatic plane, up to `2e-4` degrees plus `3e-4` degrees times the
ratio of the largest magnitude `M` to the spread of the components (for a non-negative colour, the inverse of its saturation). -/
theorem C132_accurate (o : F32.Oracle) (ho : o.Polar) (t : Tristimulus F32) (ha : t.a.isFinite = true) (hb : t.b.isFinite = true)
    (hc : t.c.isFinite = true) {M : ℝ} (la : |(t.a.val : ℝ)| ≤ M) (lb : |(t.b.val : ℝ)| ≤ M) (lc : |(t.c.val : ℝ)| ≤ M)
    (M0 : 1 / 2 ^ 100 ≤ M) (M1 : M ≤ 2 ^ 116) (hne : ¬ (t.a.val = t.b.val ∧ t.b.val = t.c.val)) :
    ∃ r, @toHSV_atan F32 (F32.libm o) t = some r ∧
      ∃ n : ℤ, |(r.a.val : ℝ) - (180 / Real.pi * Complex.arg ⟨2 * (t.a.val : ℝ) - t.b.val - t.c.val, √3 * ((t.b.val : ℝ) - t.c.val)⟩ + 360 * n)| ≤
        2e-4 + 3e-4 * (M / (max (max (t.a.val : ℝ) t.b.val) t.c.val - min (min (t.a.val : ℝ) t.b.val) t.c.val)) := by
  obtain ⟨p1, p2⟩ := point ho.sqrt ha hb hc la lb lc M0 M1
  obtain ⟨f, b⟩ := ho.range _ _ p1.fin p2.fin
  have pi0 := Real.pi_pos
  have f0 : 180 / Real.pi ≤ 57.3 := by
    have p0 := Real.pi_gt_d6
    rw [div_le_iff₀ pi0]; norm_num at *; linarith
  have f1 : 0 < 180 / Real.pi := by positivity
  have k := factor.mul (F32.Ap.exact f) (R := 57.3) (S := 4) (E := 4e-5) (by rw [abs_of_pos f1]; exact f0) b (by norm_num) (by norm_num)
  have kb : |(((lit 180 / CS.PI : F32) * o.atan2f (o.sqrtf (lit 3) * (t.b - t.c)) (lit 2 * t.a - t.b - t.c)).val : ℝ)| ≤ 300 := by
    refine (k.abs_le (R := 57.3 * 4) ?_).trans (by norm_num)
    rw [abs_mul, abs_of_pos f1]
    gcongr
  obtain ⟨y, e, fy, y0, y1, n₁, h₁⟩ := wrap k.fin kb
  refine ⟨⟨y, _, _⟩, by unfold toHSV_atan; simp only; erw [e]; rfl, ?_⟩
  simp only
  have hlen := length (t.a.val : ℝ) t.b.val t.c.val
  have D0 : 0 < max (max (t.a.val : ℝ) t.b.val) t.c.val - min (min (t.a.val : ℝ) t.b.val) t.c.val := by
    rw [sub_pos]
    by_contra hc
    rw [not_lt] at hc
    have q1 : (t.a.val : ℝ) ≤ max (max (t.a.val : ℝ) t.b.val) t.c.val := (le_max_left _ _).trans (le_max_left _ _)
    have q2 : (t.b.val : ℝ) ≤ max (max (t.a.val : ℝ) t.b.val) t.c.val := (le_max_right _ _).trans (le_max_left _ _)
    have q3 : (t.c.val : ℝ) ≤ max (max (t.a.val : ℝ) t.b.val) t.c.val := le_max_right _ _
    have q4 : min (min (t.a.val : ℝ) t.b.val) t.c.val ≤ (t.a.val : ℝ) := (min_le_left _ _).trans (min_le_left _ _)
    have q5 : min (min (t.a.val : ℝ) t.b.val) t.c.val ≤ (t.b.val : ℝ) := (min_le_left _ _).trans (min_le_right _ _)
    have q6 : min (min (t.a.val : ℝ) t.b.val) t.c.val ≤ (t.c.val : ℝ) := min_le_right _ _
    refine hne ⟨?_, ?_⟩
    · have : (t.a.val : ℝ) = t.b.val := by linarith
      exact_mod_cast this
    · have : (t.b.val : ℝ) = t.c.val := by linarith
      exact_mod_cast this
  generalize max (max (t.a.val : ℝ) t.b.val) t.c.val - min (min (t.a.val : ℝ) t.b.val) t.c.val = D at *
  have hM : (0 : ℝ) < M := lt_of_lt_of_le (by positivity) M0
  have acc := ho.acc _ _ p1.fin p2.fin
  generalize ((lit 180 / CS.PI : F32) * o.atan2f (o.sqrtf (lit 3) * (t.b - t.c)) (lit 2 * t.a - t.b - t.c)) = h at *
  generalize o.atan2f (o.sqrtf (lit 3) * (t.b - t.c)) (lit 2 * t.a - t.b - t.c) = at' at *
  generalize o.sqrtf (lit 3) * (t.b - t.c) = v at *
  generalize (lit 2 * t.a - t.b - t.c : F32) = u at *
  generalize hz : (⟨2 * (t.a.val : ℝ) - t.b.val - t.c.val, √3 * ((t.b.val : ℝ) - t.c.val)⟩ : ℂ) = z at *
  have s0 : (1.732 : ℝ) ≤ √3 := by
    exact Real.le_sqrt_of_sq_le (by norm_num)
  have zlen : 1.732 * D ≤ ‖z‖ := le_trans (by gcongr) hlen
  have z0 : 0 < ‖z‖ := lt_of_lt_of_le (by positivity) zlen
  have hwz : ‖(⟨u.val, v.val⟩ : ℂ) - z‖ ≤ 2e-6 * M := by
    have e1 := p2.err
    have e2 := p1.err
    have : ‖(⟨u.val, v.val⟩ : ℂ) - z‖ ≤ |((⟨u.val, v.val⟩ : ℂ) - z).re| + |((⟨u.val, v.val⟩ : ℂ) - z).im| := Complex.norm_le_abs_re_add_abs_im _
    refine this.trans ?_
    rw [← hz]
    simp only [Complex.sub_re, Complex.sub_im]
    norm_num at *
    linarith
  have ratio : ‖(⟨u.val, v.val⟩ : ℂ) - z‖ / ‖z‖ ≤ 1.16e-6 * (M / D) := by
    rw [div_le_iff₀ z0]
    refine hwz.trans ?_
    have : 1.16e-6 * (M / D) * (1.732 * D) ≤ 1.16e-6 * (M / D) * ‖z‖ := by gcongr
    refine le_trans ?_ this
    rw [show 1.16e-6 * (M / D) * (1.732 * D) = 1.16e-6 * 1.732 * M * (D / D) by ring, div_self D0.ne']
    norm_num
    linarith
  by_cases hw : (⟨u.val, v.val⟩ : ℂ) = 0
  · obtain ⟨n, hn⟩ := half_turn y.val (180 / Real.pi * Complex.arg z)
    refine ⟨n, hn.trans ?_⟩
    have : 1 ≤ 1.16e-6 * (M / D) := by
      refine le_trans ?_ ratio
      rw [hw, zero_sub, norm_neg, div_self z0.ne']
    norm_num at this ⊢
    linarith
  · obtain ⟨m, hm⟩ := acc (by
      rintro ⟨h1, h2⟩
      apply hw
      rw [h1, h2]
      simp [Complex.ext_iff])
    obtain ⟨j, hj⟩ := arg_close (norm_pos_iff.1 z0) hw
    refine ⟨n₁ + m + j, ?_⟩
    have kerr := k.err
    have hj' : |180 / Real.pi * (Complex.arg ⟨u.val, v.val⟩) - (180 / Real.pi * z.arg + 360 * j)| ≤ 180 * (1.16e-6 * (M / D)) := by
      have e1 : 180 / Real.pi * (Complex.arg ⟨u.val, v.val⟩) - (180 / Real.pi * z.arg + 360 * j) =
          180 / Real.pi * (Complex.arg ⟨u.val, v.val⟩ - (z.arg + 2 * Real.pi * j)) := by
        field_simp; ring
      rw [e1, abs_mul, abs_of_pos f1]
      calc _ ≤ 180 / Real.pi * (Real.pi * (‖(⟨u.val, v.val⟩ : ℂ) - z‖ / ‖z‖)) := by gcongr
        _ = 180 * (‖(⟨u.val, v.val⟩ : ℂ) - z‖ / ‖z‖) := by field_simp
        _ ≤ _ := by gcongr
    have hm' : |180 / Real.pi * (at'.val : ℝ) - (180 / Real.pi * (Complex.arg ⟨u.val, v.val⟩) + 360 * m)| ≤ 57.3 * 1e-6 := by
      have e1 : 180 / Real.pi * (at'.val : ℝ) - (180 / Real.pi * (Complex.arg ⟨u.val, v.val⟩) + 360 * m) =
          180 / Real.pi * (at'.val - (Complex.arg ⟨u.val, v.val⟩ + 2 * Real.pi * m)) := by
        field_simp; ring
      rw [e1, abs_mul, abs_of_pos f1]
      gcongr
    generalize 180 / Real.pi * (Complex.arg ⟨u.val, v.val⟩) = A at *
    generalize 180 / Real.pi * (at'.val : ℝ) = B at *
    generalize 180 / Real.pi * z.arg = C at *
    have MD : 0 < M / D := by positivity
    generalize M / D = Q at *
    rw [_root_.abs_le] at *
    push_cast
    norm_num at h₁ kerr hj' hm' ⊢
    constructor <;> linarith [h₁.1, h₁.2, kerr.1, kerr.2, hj'.1, hj'.2, hm'.1, hm'.2]

/-- Such an `atan2f` exists, and so do such colours. -/
theorem exists_polar : ∃ o : F32.Oracle, o.Polar := by
  obtain ⟨o, -, hs, -⟩ := exists_accurate
  refine ⟨{ o with atan2f := fun y x => F32.near (Complex.arg ⟨x.val, y.val⟩) }, fun x hx h0 => ?_, fun y x _ _ => ?_, fun y x _ _ _ => ⟨0, ?_⟩⟩
  · obtain ⟨h1, h2⟩ := hs x hx h0
    exact ⟨h1, h2.trans (by gcongr <;> norm_num)⟩
  all_goals
    have b := Complex.abs_arg_le_pi ⟨x.val, y.val⟩
    have p := Real.pi_lt_d6
    obtain ⟨h1, h2⟩ := F32.near_spec (z := Complex.arg ⟨x.val, y.val⟩) (by norm_num at *; linarith)
    simp only
  · refine ⟨h1, ?_⟩
    have := abs_sub_abs_le_abs_sub ((F32.near (Complex.arg ⟨x.val, y.val⟩)).val : ℝ) (Complex.arg ⟨x.val, y.val⟩)
    norm_num at *
    linarith
  · push_cast
    rw [mul_zero, add_zero]
    norm_num at *
    linarith

example : (∃ o : F32.Oracle, o.Polar) ∧ ((1 : ℝ) / 2 ^ 100 ≤ 1 ∧ (1 : ℝ) ≤ 2 ^ 116) ∧
    |(((lit 0.5 : F32)).val : ℝ)| ≤ 1 ∧ ¬ ((lit 0.5 : F32).val = (lit 0.25 : F32).val ∧ (lit 0.25 : F32).val = (lit 0.25 : F32).val) := by
  refine ⟨exists_polar, by norm_num, ?_, by decide +kernel⟩
  have : |(lit 0.5 : F32).val| ≤ 1 := by decide +kernel
  exact_mod_cast this

end CS
