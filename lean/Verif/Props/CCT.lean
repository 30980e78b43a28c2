import Verif.Lemmas.Locus
import Verif.Props.CT
import Mathlib.Analysis.Calculus.Deriv.Inv

/-!
# C71, C72: colour temperature with an offset from the locus  (exact arithmetic)
-/

namespace CS
open Tristimulus

/-- Specification: the CIE 1960 `(u, v)` chromaticity of the colour `XYZ`. -/
noncomputable def Spec.uv (t : Tristimulus ℝ) : ℝ × ℝ :=
  (4 * t.a / (t.a + 15 * t.b + 3 * t.c), 6 * t.b / (t.a + 15 * t.b + 3 * t.c))

/-- Specification: the `(x, y)` chromaticity of the colour `XYZ`. -/
noncomputable def Spec.xy (t : Tristimulus ℝ) : ℝ × ℝ :=
  (t.a / (t.a + t.b + t.c), t.b / (t.a + t.b + t.c))

namespace Locus

theorem uv_fromYxy {L x y : ℝ} (hL : L ≠ 0) (hy : 1e-8 ≤ |y|) :
    Spec.uv (fromYxy ⟨L, x, y⟩) = (u_from_xy x y, v_from_xy x y) := by
  have hy0 := ne_zero_of_abs hy
  rw [fromYxy_real _ hy]
  have : x * L / y + 15 * L + 3 * ((1 - x - y) * L / y) = L / y * (-2 * x + 12 * y + 3) := by
    field_simp; ring
  simp only [Spec.uv, u_from_xy, v_from_xy, this, lit_real]
  push_cast
  by_cases h : -2 * x + 12 * y + 3 = 0
  · rw [h]; simp only [mul_zero, div_zero]
  · refine Prod.ext ?_ ?_ <;> field_simp

theorem xy_fromYxy {L x y : ℝ} (hL : L ≠ 0) (hy : 1e-8 ≤ |y|) :
    Spec.xy (fromYxy ⟨L, x, y⟩) = (x, y) := by
  have hy0 := ne_zero_of_abs hy
  rw [fromYxy_real _ hy]
  have : x * L / y + L + (1 - x - y) * L / y = L / y := by field_simp; ring
  simp only [Spec.xy, this]
  refine Prod.ext ?_ ?_ <;> field_simp

/-- `u` along the locus. -/
noncomputable def U (T : ℝ) : ℝ := 4 * X T / (-2 * X T + 12 * Y T + 3)
/-- `v` along the locus. -/
noncomputable def V (T : ℝ) : ℝ := 6 * Y T / (-2 * X T + 12 * Y T + 3)

theorem box {T : ℝ} (h : T ∈ Set.Icc (999 : ℝ) 10000) :
    (0.27 ≤ X T ∧ X T ≤ 0.66) ∧ 0.28 ≤ Y T ∧ Y T ≤ 0.43 := by
  have h1 := X_lower T h.1 h.2
  have h2 := X_upper T h.1 h.2
  have h3 := Y_lower T h.1 h.2
  have h4 := Y_upper T h.1 h.2
  norm_num at h1 h2 h3 h4 ⊢
  refine ⟨⟨?_, ?_⟩, ?_, ?_⟩ <;> linarith

theorem abs_Y {T : ℝ} (h : T ∈ Set.Icc (999 : ℝ) 10000) : 1e-8 ≤ |Y T| :=
  le_trans (by have := (box h).2.1; norm_num at this ⊢; linarith) (le_abs_self _)

theorem X_antitone : StrictAntiOn X (Set.Icc 999 10000) := by
  refine strictAntiOn_of_deriv_neg (convex_Icc _ _) (fun T _ => (hasX T).continuousAt.continuousWithinAt) ?_
  intro T hT
  rw [interior_Icc] at hT
  rw [(hasX T).deriv]
  have := X'_neg T hT.1.le hT.2.le
  norm_num at this
  linarith

theorem U_antitone : StrictAntiOn U (Set.Icc 999 10000) := by
  have hd : ∀ T ∈ Set.Icc (999 : ℝ) 10000, HasDerivAt U
      ((4 * X' T * (-2 * X T + 12 * Y T + 3) - 4 * X T * (-2 * X' T + 12 * Y' T))
        / (-2 * X T + 12 * Y T + 3) ^ 2) T := by
    intro T hT
    obtain ⟨⟨-, h2⟩, h3, -⟩ := box hT
    norm_num at h2 h3
    exact ((hasX T).const_mul 4).div
      ((((hasX T).const_mul (-2)).add ((hasY T).const_mul 12)).add_const 3) (by linarith)
  refine strictAntiOn_of_deriv_neg (convex_Icc _ _)
    (fun T hT => (hd T hT).continuousAt.continuousWithinAt) ?_
  intro T hT
  rw [interior_Icc] at hT
  have hT' : T ∈ Set.Icc (999 : ℝ) 10000 := ⟨hT.1.le, hT.2.le⟩
  rw [(hd T hT').deriv]
  obtain ⟨⟨-, h2⟩, h3, -⟩ := box hT'
  norm_num at h2 h3
  have := U'_neg T hT.1.le hT.2.le
  norm_num at this
  have hD : (0 : ℝ) < -2 * X T + 12 * Y T + 3 := by linarith
  refine div_neg_of_neg_of_pos ?_ (pow_pos hD 2)
  nlinarith

theorem uv_fromCT {T L : ℝ} (hL : L ≠ 0) (h : T ∈ Set.Icc (999 : ℝ) 10000) :
    Spec.uv (fromCT T L) = (U T, V T) := by
  have := uv_fromYxy (x := X T) hL (abs_Y h)
  refine this.trans ?_
  simp only [u_from_xy, v_from_xy, U, V, lit_real]
  push_cast
  rfl

theorem xy_fromCT {T L : ℝ} (hL : L ≠ 0) (h : T ∈ Set.Icc (999 : ℝ) 10000) :
    Spec.xy (fromCT T L) = (X T, Y T) := xy_fromYxy hL (abs_Y h)

theorem cctFrame_eq (T : ℝ) : cctFrame T = (U T, V T, U (T - 1) - U T, V (T - 1) - V T) := by
  simp only [cctFrame, u_from_xy, v_from_xy, U, V, X, Y, lit_real]
  push_cast
  rfl

theorem cctNormSq_eq (T : ℝ) :
    cctNormSq T = (U (T - 1) - U T) * (U (T - 1) - U T) + (V (T - 1) - V T) * (V (T - 1) - V T) := by
  simp only [cctNormSq, cctFrame_eq]

theorem UV_box {T : ℝ} (h : T ∈ Set.Icc (999 : ℝ) 10000) :
    1.5 ≤ 2 * U T - 8 * V T + 4 ∧ 0.25 ≤ V T ∧ V T ≤ 1 := by
  obtain ⟨⟨h1, h2⟩, h3, h4⟩ := box h
  norm_num at h1 h2 h3 h4 ⊢
  have hD : (0 : ℝ) < -2 * X T + 12 * Y T + 3 := by linarith
  have e : 2 * U T - 8 * V T + 4 = 12 / (-2 * X T + 12 * Y T + 3) := by
    simp only [U, V]
    generalize hE : -2 * X T + 12 * Y T + 3 = D at hD
    field_simp
    linarith
  rw [e]
  refine ⟨?_, ?_, ?_⟩
  · rw [div_le_div_iff₀ (by norm_num) hD]; linarith
  · rw [V, div_le_div_iff₀ (by norm_num) hD]; linarith
  · rw [V, div_le_one hD]; linarith

/-- Where `fromCCT` ends up, when the computed length `l` is at least half the chord. -/
theorem uv_fromCCT {T d L l : ℝ} {usqrt : ℝ → Option ℝ} (hL : L ≠ 0) (h : T ∈ Set.Icc (1000 : ℝ) 10000)
    (hd : |d| ≤ 0.05) (hl : usqrt (cctNormSq T) = some l) (hl0 : 0 < l)
    (hln : cctNormSq T ≤ 4 * l ^ 2) :
    ∃ t, fromCCT usqrt T d L = some t ∧
      Spec.uv t = (U T - d * (V (T - 1) - V T) / l, V T + d * (U (T - 1) - U T) / l) := by
  have hT : T ∈ Set.Icc (999 : ℝ) 10000 := ⟨by linarith [h.1], h.2⟩
  obtain ⟨hD, hV, -⟩ := UV_box hT
  set du := U (T - 1) - U T with hdu
  set dv := V (T - 1) - V T with hdv
  rw [cctNormSq_eq, ← hdu, ← hdv] at hln
  have hu : |du| ≤ 2 * l := by
    refine abs_le_of_sq_le_sq ?_ (by linarith); nlinarith [mul_self_nonneg dv]
  have hv : |dv| ≤ 2 * l := by
    refine abs_le_of_sq_le_sq ?_ (by linarith); nlinarith [mul_self_nonneg du]
  have b : ∀ z : ℝ, |z| ≤ 2 * l → |d * z / l| ≤ 0.1 := by
    intro z hz
    rw [abs_div, abs_mul, abs_of_pos hl0, div_le_iff₀ hl0]
    calc |d| * |z| ≤ 0.05 * (2 * l) := mul_le_mul hd hz (abs_nonneg _) (by norm_num)
      _ = 0.1 * l := by ring
  have bu := abs_le.mp (b du hu)
  have bv := abs_le.mp (b dv hv)
  norm_num at bu bv hD hV
  set u := U T - d * dv / l with hu'
  set v := V T + d * du / l with hv'
  have hDp : 0 < 2 * u - 8 * v + 4 := by rw [hu', hv']; linarith
  have hDu : 2 * u - 8 * v + 4 ≤ 20 := by
    have := (box hT).1
    have h2 := UV_box hT
    have hUle : U T ≤ 2 := by
      obtain ⟨⟨h1, h2⟩, h3, h4⟩ := box hT
      norm_num at h1 h2 h3 h4
      rw [U, div_le_iff₀ (by linarith)]; linarith
    rw [hu', hv']; linarith
  have hvp : 0.1 ≤ v := by rw [hv']; norm_num; linarith
  refine ⟨_, by simp only [fromCCT, hl, Option.map_some]; rfl, ?_⟩
  have ex : CCT_x_approx T d l = x_from_uv u v := by simp only [CCT_x_approx, cctFrame_eq]; rfl
  have ey : CCT_y_approx T d l = y_from_uv u v := by simp only [CCT_y_approx, cctFrame_eq]; rfl
  rw [ex, ey, uv_fromYxy hL]
  · have := C10_yuv ⟨0, u, v⟩ hDp.ne'
    simp only [YuvToYxy, YxyToYuv, Tristimulus.mk.injEq] at this
    rw [this.2.1, this.2.2]
  · refine le_trans ?_ (le_abs_self _)
    simp only [y_from_uv, lit_real]
    push_cast
    rw [le_div_iff₀ hDp]
    norm_num at hvp ⊢
    linarith

end Locus

/-! ## C72 -/

/-- C72: between 999 K and 10000 K the colour of temperature `T` has a definite chromaticity, inside the
box `0.27 ≤ x ≤ 0.66`, `0.28 ≤ y ≤ 0.43`, whatever the luminance. -/
theorem C72_box {T L : ℝ} (hL : L ≠ 0) (h : T ∈ Set.Icc (999 : ℝ) 10000) :
    (0.27 ≤ (Spec.xy (fromCT T L)).1 ∧ (Spec.xy (fromCT T L)).1 ≤ 0.66) ∧
    (0.28 ≤ (Spec.xy (fromCT T L)).2 ∧ (Spec.xy (fromCT T L)).2 ≤ 0.43) := by
  rw [Locus.xy_fromCT hL h]; exact Locus.box h

/-- C72: hotter is bluer: both `x` and `u` strictly decrease with the temperature. -/
theorem C72_monotone {L : ℝ} (hL : L ≠ 0) :
    StrictAntiOn (fun T => (Spec.xy (fromCT T L)).1) (Set.Icc 999 10000) ∧
    StrictAntiOn (fun T => (Spec.uv (fromCT T L)).1) (Set.Icc 999 10000) := by
  refine ⟨Locus.X_antitone.congr fun T hT => ?_, Locus.U_antitone.congr fun T hT => ?_⟩
  · exact (congrArg Prod.fst (Locus.xy_fromCT hL hT)).symm
  · exact (congrArg Prod.fst (Locus.uv_fromCT hL hT)).symm

/-- C72: so the temperature is determined by the chromaticity. -/
theorem C72_injective {T T' L L' : ℝ} (hL : L ≠ 0) (hL' : L' ≠ 0) (h : T ∈ Set.Icc (999 : ℝ) 10000)
    (h' : T' ∈ Set.Icc (999 : ℝ) 10000) (e : (Spec.xy (fromCT T L)).1 = (Spec.xy (fromCT T' L')).1) :
    T = T' := by
  rw [Locus.xy_fromCT hL h, Locus.xy_fromCT hL' h'] at e
  exact Locus.X_antitone.injOn h h' e

example : (6504 : ℝ) ∈ Set.Icc (999 : ℝ) 10000 ∧ (1 : ℝ) ≠ 0 := by
  refine ⟨⟨?_, ?_⟩, ?_⟩ <;> norm_num

/-! ## C71 -/

/-- C71: a temperature and a signed offset `d` give the point that is displaced from the locus point at
`T`, at right angles to the chord from there to the point one kelvin cooler, by `d` times the length of
the chord divided by the value `l` the square root returned for it. -/
theorem C71_position {T d L l : ℝ} {usqrt : ℝ → Option ℝ} (hL : L ≠ 0)
    (h : T ∈ Set.Icc (1000 : ℝ) 10000) (hd : |d| ≤ 0.05) (hl : usqrt (cctNormSq T) = some l)
    (hl0 : 0 < l) (hln : cctNormSq T ≤ 4 * l ^ 2) :
    ∃ t, fromCCT usqrt T d L = some t ∧
      let P := Spec.uv t
      let A := Spec.uv (fromCT T L)
      let B := Spec.uv (fromCT (T - 1) L)
      (P.1 - A.1) * (B.1 - A.1) + (P.2 - A.2) * (B.2 - A.2) = 0 ∧
      (B.1 - A.1) * (P.2 - A.2) - (B.2 - A.2) * (P.1 - A.1)
        = d * ((B.1 - A.1) ^ 2 + (B.2 - A.2) ^ 2) / l := by
  obtain ⟨t, ht, hu⟩ := Locus.uv_fromCCT hL h hd hl hl0 hln
  refine ⟨t, ht, ?_⟩
  simp only
  rw [hu, Locus.uv_fromCT hL ⟨by linarith [h.1], h.2⟩,
    Locus.uv_fromCT hL (T := T - 1) ⟨by linarith [h.1], by linarith [h.2]⟩]
  constructor <;> field_simp <;> ring

theorem cctNormSq_pos {T : ℝ} (h : T ∈ Set.Icc (1000 : ℝ) 10000) : 0 < cctNormSq (α := ℝ) T := by
  have hlt := Locus.U_antitone (show T - 1 ∈ Set.Icc (999 : ℝ) 10000 from
    ⟨by linarith [h.1], by linarith [h.2]⟩) (show T ∈ Set.Icc (999 : ℝ) 10000 from
    ⟨by linarith [h.1], h.2⟩) (by linarith)
  rw [Locus.cctNormSq_eq]
  have : 0 < Locus.U (T - 1) - Locus.U T := by linarith
  nlinarith [mul_pos this this, mul_self_nonneg (Locus.V (T - 1) - Locus.V T)]

/-- C71: with the exact square root, the distance of the point from the locus point at `T` is `|d|`, and
a positive offset is on the side of greater `v` (the green side), a negative one on the other side. -/
theorem C71_distance {T d L : ℝ} (hL : L ≠ 0) (h : T ∈ Set.Icc (1000 : ℝ) 10000) (hd : |d| ≤ 0.05) :
    ∃ t, fromCCT (fun x => some (Real.sqrt x)) T d L = some t ∧
      let P := Spec.uv t
      let A := Spec.uv (fromCT T L)
      let B := Spec.uv (fromCT (T - 1) L)
      Real.sqrt ((P.1 - A.1) ^ 2 + (P.2 - A.2) ^ 2) = |d| ∧
      (P.1 - A.1) * (B.1 - A.1) + (P.2 - A.2) * (B.2 - A.2) = 0 ∧
      (0 < d → A.2 < P.2) ∧ (d < 0 → P.2 < A.2) := by
  have hn := cctNormSq_pos h
  have hl0 := Real.sqrt_pos.mpr hn
  have hsq := Real.sq_sqrt hn.le
  have hlt := Locus.U_antitone (show T - 1 ∈ Set.Icc (999 : ℝ) 10000 from
    ⟨by linarith [h.1], by linarith [h.2]⟩) (show T ∈ Set.Icc (999 : ℝ) 10000 from
    ⟨by linarith [h.1], h.2⟩) (by linarith)
  obtain ⟨t, ht, hu⟩ := Locus.uv_fromCCT (usqrt := fun x => some (Real.sqrt x)) hL h hd rfl hl0
    (by nlinarith)
  refine ⟨t, ht, ?_⟩
  simp only
  rw [hu, Locus.uv_fromCT hL ⟨by linarith [h.1], h.2⟩,
    Locus.uv_fromCT hL (T := T - 1) ⟨by linarith [h.1], by linarith [h.2]⟩]
  have e := Locus.cctNormSq_eq T
  generalize Real.sqrt (cctNormSq T) = l at *
  rw [e] at hsq
  dsimp only
  refine ⟨?_, ?_, fun hd => ?_, fun hd => ?_⟩
  · rw [← Real.sqrt_sq_eq_abs]
    congr 1
    field_simp
    rw [hsq]; ring
  · field_simp; ring
  · have : 0 < d * (Locus.U (T - 1) - Locus.U T) / l := div_pos (mul_pos hd (by linarith)) hl0
    linarith
  · have : d * (Locus.U (T - 1) - Locus.U T) / l < 0 :=
      div_neg_of_neg_of_pos (mul_neg_of_neg_of_pos hd (by linarith)) hl0
    linarith

/-- C71: without offset the colour is that of `fromCT`, whatever the square root returns. -/
theorem C71_zero {T L l : ℝ} {usqrt : ℝ → Option ℝ}
    (h : T ∈ Set.Icc (999 : ℝ) 10000) (hl : usqrt (cctNormSq T) = some l) :
    fromCCT usqrt T 0 L = some (fromCT T L) := by
  have hx : CCT_x_approx T 0 l = Locus.X T ∧ CCT_y_approx T 0 l = Locus.Y T := by
    obtain ⟨⟨h1, h2⟩, h3, h4⟩ := Locus.box h
    norm_num at h1 h2 h3 h4
    have := C10_yxy ⟨0, Locus.X T, Locus.Y T⟩ (by dsimp only; linarith)
    simp only [YuvToYxy, YxyToYuv, Tristimulus.mk.injEq] at this
    obtain ⟨-, e1, e2⟩ := this
    simp only [CCT_x_approx, CCT_y_approx, Locus.cctFrame_eq, zero_mul, zero_div, sub_zero, add_zero]
    refine ⟨?_, ?_⟩
    · refine Eq.trans ?_ e1
      simp only [u_from_xy, v_from_xy, Locus.U, Locus.V, lit_real]; push_cast; rfl
    · refine Eq.trans ?_ e2
      simp only [u_from_xy, v_from_xy, Locus.U, Locus.V, lit_real]; push_cast; rfl
  simp only [fromCCT, hl, Option.map_some, hx.1, hx.2]
  rfl

/-- Daylight with a small offset meets the hypotheses. -/
example : (6504 : ℝ) ∈ Set.Icc (1000 : ℝ) 10000 ∧ |(0.0032 : ℝ)| ≤ 0.05 ∧
    cctNormSq (6504 : ℝ) ≤ 4 * Real.sqrt (cctNormSq 6504) ^ 2 := by
  have h : (6504 : ℝ) ∈ Set.Icc (1000 : ℝ) 10000 := ⟨by norm_num, by norm_num⟩
  refine ⟨h, ?_, ?_⟩
  · rw [abs_of_pos] <;> norm_num
  · rw [Real.sq_sqrt (cctNormSq_pos h).le]; linarith [cctNormSq_pos h]

end CS
