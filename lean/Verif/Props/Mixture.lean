import Verif.Props.Yxy
import Verif.Props.Delta
import Mathlib.Analysis.Convex.Hull
import Mathlib.Analysis.Convex.Combination

/-!
# C104: additive mixtures of lights  (exact arithmetic)
-/

namespace CS
open Tristimulus

/-- The weight of a light in the `(x, y)` diagram. -/
def Spec.sumXYZ (t : Tristimulus ℝ) : ℝ := t.a + t.b + t.c
/-- The weight of a light in the `(u, v)` diagram. -/
def Spec.sumUV (t : Tristimulus ℝ) : ℝ := t.a + 15 * t.b + 3 * t.c

theorem le_abs_of {x : ℝ} (h : 1e-8 ≤ x) : 1e-8 ≤ |x| := h.trans (le_abs_self _)

/-- C104: the chromaticity of the sum of two lights divides the segment between theirs in the ratio of their `X+Y+Z`;
luminances add. -/
theorem C104_mixture (s t : Tristimulus ℝ) (hs : 1e-8 ≤ Spec.sumXYZ s) (ht : 1e-8 ≤ Spec.sumXYZ t) :
    let w := Spec.sumXYZ s / (Spec.sumXYZ s + Spec.sumXYZ t)
    0 < w ∧ w < 1 ∧
    toYxy (s.add t) = ⟨(toYxy s).a + (toYxy t).a, w * (toYxy s).b + (1 - w) * (toYxy t).b,
      w * (toYxy s).c + (1 - w) * (toYxy t).c⟩ := by
  simp only [Spec.sumXYZ] at *
  have s0 : 0 < s.a + s.b + s.c := lt_of_lt_of_le (by norm_num) hs
  have t0 : 0 < t.a + t.b + t.c := lt_of_lt_of_le (by norm_num) ht
  have e : (s.add t).a + (s.add t).b + (s.add t).c = (s.a + s.b + s.c) + (t.a + t.b + t.c) := by
    simp only [Tristimulus.add]; ring
  refine ⟨by positivity, by rw [div_lt_one (by positivity)]; linarith, ?_⟩
  rw [toYxy_real s (le_abs_of hs), toYxy_real t (le_abs_of ht), toYxy_real _ (le_abs_of (by rw [e]; linarith)), e]
  simp only [Tristimulus.add]
  have e1 : (1 : ℝ) - (s.a + s.b + s.c) / (s.a + s.b + s.c + (t.a + t.b + t.c)) =
      (t.a + t.b + t.c) / (s.a + s.b + s.c + (t.a + t.b + t.c)) := by
    rw [eq_div_iff (by positivity), sub_mul, div_mul_cancel₀ _ (by positivity)]; ring
  rw [e1]
  ext
  · rfl
  · simp only
    rw [div_mul_div_comm, div_mul_div_comm, mul_comm (s.a + s.b + s.c) s.a, mul_comm (t.a + t.b + t.c) t.a,
      mul_div_mul_right _ _ s0.ne', mul_div_mul_right _ _ t0.ne', add_div]
  · simp only
    rw [div_mul_div_comm, div_mul_div_comm, mul_comm (s.a + s.b + s.c) s.b, mul_comm (t.a + t.b + t.c) t.b,
      mul_div_mul_right _ _ s0.ne', mul_div_mul_right _ _ t0.ne', add_div]

theorem toYuv_real (t : Tristimulus ℝ) (h : 1e-8 ≤ |Spec.sumXYZ t|) (hD : Spec.sumUV t ≠ 0) :
    toYuv t = ⟨t.b, 4 * t.a / Spec.sumUV t, 6 * t.b / Spec.sumUV t⟩ := by
  have h0 := ne_zero_of_abs h
  simp only [toYuv, toYxy_real t h, YxyToYuv, u_from_xy, v_from_xy, lit_real]
  simp only [Spec.sumXYZ, Spec.sumUV] at *
  push_cast
  have e : -2 * (t.a / (t.a + t.b + t.c)) + 12 * (t.b / (t.a + t.b + t.c)) + 3 = (t.a + 15 * t.b + 3 * t.c) / (t.a + t.b + t.c) := by
    field_simp; ring
  rw [e, ← mul_div_assoc, ← mul_div_assoc, div_div_div_cancel_right₀ h0, div_div_div_cancel_right₀ h0]

/-- C104: the same in the `(u, v)` diagram, with weights `X+15Y+3Z`. -/
theorem C104_mixture_uv (s t : Tristimulus ℝ) (hs : 1e-8 ≤ Spec.sumXYZ s) (ht : 1e-8 ≤ Spec.sumXYZ t)
    (us : 0 < Spec.sumUV s) (ut : 0 < Spec.sumUV t) :
    let w := Spec.sumUV s / (Spec.sumUV s + Spec.sumUV t)
    0 < w ∧ w < 1 ∧
    toYuv (s.add t) = ⟨(toYuv s).a + (toYuv t).a, w * (toYuv s).b + (1 - w) * (toYuv t).b,
      w * (toYuv s).c + (1 - w) * (toYuv t).c⟩ := by
  have e : Spec.sumXYZ (s.add t) = Spec.sumXYZ s + Spec.sumXYZ t := by
    simp only [Tristimulus.add, Spec.sumXYZ]; ring
  have e' : Spec.sumUV (s.add t) = Spec.sumUV s + Spec.sumUV t := by
    simp only [Tristimulus.add, Spec.sumUV]; ring
  refine ⟨by positivity, by rw [div_lt_one (by positivity)]; linarith, ?_⟩
  rw [toYuv_real s (le_abs_of hs) us.ne', toYuv_real t (le_abs_of ht) ut.ne',
    toYuv_real _ (le_abs_of (by rw [e]; linarith)) (by rw [e']; positivity), e']
  simp only [Tristimulus.add]
  generalize Spec.sumUV s = S at *
  generalize Spec.sumUV t = R at *
  have e1 : (1 : ℝ) - S / (S + R) = R / (S + R) := by
    rw [eq_div_iff (by positivity), sub_mul, div_mul_cancel₀ _ (by positivity)]; ring
  rw [e1]
  ext
  · rfl
  · simp only
    rw [div_mul_div_comm, div_mul_div_comm, mul_comm S, mul_comm R, mul_div_mul_right _ _ us.ne', mul_div_mul_right _ _ ut.ne', mul_add, add_div]
  · simp only
    rw [div_mul_div_comm, div_mul_div_comm, mul_comm S, mul_comm R, mul_div_mul_right _ _ us.ne', mul_div_mul_right _ _ ut.ne', mul_add, add_div]

/-- C104: changing the exposure scales the luminance and keeps both chromaticities. -/
theorem C104_exposure (t : Tristimulus ℝ) (k : ℝ) (h : 1e-8 ≤ |Spec.sumXYZ t|) (hk : 1e-8 ≤ |Spec.sumXYZ t * k|) :
    toYxy (t.scale k) = ⟨(toYxy t).a * k, (toYxy t).b, (toYxy t).c⟩ ∧
    toYuv (t.scale k) = ⟨(toYuv t).a * k, (toYuv t).b, (toYuv t).c⟩ := by
  have hk0 : k ≠ 0 := by rintro rfl; norm_num at hk
  have e : (t.scale k).a + (t.scale k).b + (t.scale k).c = Spec.sumXYZ t * k := by
    simp only [Tristimulus.scale, Spec.sumXYZ]; ring
  have h1 : toYxy (t.scale k) = ⟨(toYxy t).a * k, (toYxy t).b, (toYxy t).c⟩ := by
    rw [toYxy_real t h, toYxy_real _ (by rw [e]; exact hk), e]
    simp only [Tristimulus.scale, Spec.sumXYZ]
    rw [mul_div_mul_right _ _ hk0, mul_div_mul_right _ _ hk0]
  refine ⟨h1, ?_⟩
  simp only [toYuv, h1, YxyToYuv]

/-- C104: every point strictly between two chromaticities is the chromaticity of a mixture of the two lights. -/
theorem C104_reach (s t : Tristimulus ℝ) (hs : 1e-8 ≤ Spec.sumXYZ s) (ht : 1e-8 ≤ Spec.sumXYZ t) (w : ℝ) (w0 : 0 < w) (w1 : w < 1) :
    ∃ k l : ℝ, 0 < k ∧ 0 < l ∧ (toYxy ((s.scale k).add (t.scale l))).b = w * (toYxy s).b + (1 - w) * (toYxy t).b ∧
      (toYxy ((s.scale k).add (t.scale l))).c = w * (toYxy s).c + (1 - w) * (toYxy t).c := by
  have s0 : 0 < Spec.sumXYZ s := lt_of_lt_of_le (by norm_num) hs
  have t0 : 0 < Spec.sumXYZ t := lt_of_lt_of_le (by norm_num) ht
  have w2 : 0 < 1 - w := by linarith
  obtain ⟨n, hn1, hn2, hn⟩ : ∃ n : ℝ, 1e-8 ≤ n * w ∧ 1e-8 ≤ n * (1 - w) ∧ 0 < n := by
    refine ⟨1 / w + 1 / (1 - w), ?_, ?_, by positivity⟩
    · rw [add_mul, one_div_mul_cancel w0.ne']
      have : 0 ≤ 1 / (1 - w) * w := by positivity
      norm_num at this ⊢; linarith
    · rw [add_mul, one_div_mul_cancel w2.ne']
      have : 0 ≤ 1 / w * (1 - w) := by positivity
      norm_num at this ⊢; linarith
  refine ⟨n * w / Spec.sumXYZ s, n * (1 - w) / Spec.sumXYZ t, by positivity, by positivity, ?_⟩
  have e1 : Spec.sumXYZ s * (n * w / Spec.sumXYZ s) = n * w := by field_simp
  have e2 : Spec.sumXYZ t * (n * (1 - w) / Spec.sumXYZ t) = n * (1 - w) := by field_simp
  have sc : ∀ (r : Tristimulus ℝ) (k : ℝ), Spec.sumXYZ (r.scale k) = Spec.sumXYZ r * k := by
    intro r k; simp only [Tristimulus.scale, Spec.sumXYZ]; ring
  obtain ⟨-, -, h⟩ := C104_mixture (s.scale (n * w / Spec.sumXYZ s)) (t.scale (n * (1 - w) / Spec.sumXYZ t))
    (by rw [sc, e1]; exact hn1) (by rw [sc, e2]; exact hn2)
  obtain ⟨x1, -⟩ := C104_exposure s _ (le_abs_of hs) (by rw [e1]; exact le_abs_of hn1)
  obtain ⟨x2, -⟩ := C104_exposure t _ (le_abs_of ht) (by rw [e2]; exact le_abs_of hn2)
  rw [sc, sc, e1, e2, x1, x2] at h
  rw [h]
  have e3 : n * w / (n * w + n * (1 - w)) = w := by
    rw [← mul_add, add_sub_cancel, mul_one, mul_div_cancel_left₀ _ hn.ne']
  simp only [e3, and_self]

/-- The sum of a list of lights, added one by one to the first. -/
noncomputable def Spec.mix (t : Tristimulus ℝ) (l : List (Tristimulus ℝ)) : Tristimulus ℝ := l.foldl Tristimulus.add t

theorem mix_hull (l : List (Tristimulus ℝ)) : ∀ (t : Tristimulus ℝ) (S : Set (ℝ × ℝ)), Convex ℝ S → 1e-8 ≤ Spec.sumXYZ t →
    ((toYxy t).b, (toYxy t).c) ∈ S → (∀ s ∈ l, 1e-8 ≤ Spec.sumXYZ s ∧ ((toYxy s).b, (toYxy s).c) ∈ S) →
    ((toYxy (Spec.mix t l)).b, (toYxy (Spec.mix t l)).c) ∈ S ∧
      (toYxy (Spec.mix t l)).a = (toYxy t).a + (l.map fun s => (toYxy s).a).sum := by
  induction l with
  | nil => intro t S _ _ h _; simpa [Spec.mix] using h
  | cons s l ih =>
    intro t S hc ht h hl
    obtain ⟨hs, hS⟩ := hl s (by simp)
    obtain ⟨w0, w1, e⟩ := C104_mixture t s ht hs
    have e' : Spec.sumXYZ (t.add s) = Spec.sumXYZ t + Spec.sumXYZ s := by
      simp only [Tristimulus.add, Spec.sumXYZ]; ring
    generalize Spec.sumXYZ t / (Spec.sumXYZ t + Spec.sumXYZ s) = w at *
    have := ih (t.add s) S hc (by rw [e']; linarith [show (0:ℝ) ≤ 1e-8 by norm_num])
      (by
        rw [e]
        have := hc h hS w0.le (sub_nonneg.2 w1.le) (by ring)
        simpa using this)
      (fun r hr => hl r (by simp [hr]))
    rw [show Spec.mix t (s :: l) = Spec.mix (t.add s) l from rfl]
    refine ⟨this.1, ?_⟩
    rw [this.2, e]
    simp [add_assoc]

/-- C104: the chromaticity of a sum of any number of lights lies in the convex hull of their chromaticities, and the
luminances add. -/
theorem C104_hull (t : Tristimulus ℝ) (l : List (Tristimulus ℝ)) (h : ∀ s ∈ t :: l, 1e-8 ≤ Spec.sumXYZ s) :
    ((toYxy (Spec.mix t l)).b, (toYxy (Spec.mix t l)).c) ∈
        convexHull ℝ {p | ∃ s ∈ t :: l, p = ((toYxy s).b, (toYxy s).c)} ∧
      (toYxy (Spec.mix t l)).a = ((t :: l).map fun s => (toYxy s).a).sum := by
  have := mix_hull l t _ (convex_convexHull ℝ {p | ∃ s ∈ t :: l, p = ((toYxy s).b, (toYxy s).c)}) (h t (by simp))
    (subset_convexHull ℝ _ ⟨t, by simp, rfl⟩)
    (fun s hs => ⟨h s (by simp [hs]), subset_convexHull ℝ _ ⟨s, by simp [hs], rfl⟩⟩)
  simpa using this

/-- Red and green light meet the hypotheses. -/
example : 1e-8 ≤ Spec.sumXYZ ⟨0.41, 0.21, 0.02⟩ ∧ 1e-8 ≤ Spec.sumXYZ ⟨0.36, 0.72, 0.12⟩ ∧ 0 < Spec.sumUV ⟨0.41, 0.21, 0.02⟩ := by
  norm_num [Spec.sumXYZ, Spec.sumUV]

/-! ## OKLAB and exposure -/

theorem cbrt_unique {x y : ℝ} (h : y * y * y = x) : (Libm.cbrtf x : ℝ) = y := by rw [← h, cube_cbrt]

theorem cbrt_mul (x k : ℝ) : (Libm.cbrtf (x * k) : ℝ) = Libm.cbrtf x * Libm.cbrtf k := by
  refine cbrt_unique ?_
  have h1 := cbrt_cube x
  have h2 := cbrt_cube k
  generalize (Libm.cbrtf x : ℝ) = p at *
  generalize (Libm.cbrtf k : ℝ) = q at *
  rw [← h1, ← h2]; ring

theorem apply_scale (t : Tristimulus ℝ) (m : Matrix3 ℝ) (k : ℝ) : (t.scale k).apply m = (t.apply m).scale k := by
  simp only [Tristimulus.apply, Tristimulus.scale, Tristimulus.ofVec3, Tristimulus.vec3, Matrix3.apply, Vector3.get]
  ext <;> simp only <;> ring

/-- C106: OKLAB is homogeneous of degree one third, and its inverse of degree three, for every factor (negative ones included). -/
theorem C106_homogeneous (t : Tristimulus ℝ) (k : ℝ) :
    (∃ c : ℝ, c ^ 3 = k ∧ XYZ_to_OKLAB (t.scale k) = (XYZ_to_OKLAB t).scale c) ∧
    OKLAB_to_XYZ (t.scale k) = (OKLAB_to_XYZ t).scale (k ^ 3) := by
  constructor
  · refine ⟨Libm.cbrtf k, by rw [← cbrt_cube k]; simp only [cube_cbrt]; ring, ?_⟩
    simp only [XYZ_to_OKLAB, apply_scale]
    simp only [Tristimulus.scale, cbrt_mul]
    rw [show (⟨Libm.cbrtf (t.apply oklabM1).a * Libm.cbrtf k, Libm.cbrtf (t.apply oklabM1).b * Libm.cbrtf k,
        Libm.cbrtf (t.apply oklabM1).c * Libm.cbrtf k⟩ : Tristimulus ℝ) =
      Tristimulus.scale ⟨Libm.cbrtf (t.apply oklabM1).a, Libm.cbrtf (t.apply oklabM1).b, Libm.cbrtf (t.apply oklabM1).c⟩
        (Libm.cbrtf k) from rfl, apply_scale]
    rfl
  · simp only [OKLAB_to_XYZ, apply_scale]
    generalize t.apply oklabM2.invert = u
    rw [← apply_scale]
    congr 1
    simp only [Tristimulus.scale]
    ext <;> simp only <;> ring

/-- C106: hence hue and the ratio of chroma to lightness do not depend on the exposure, and a brighter copy of a colour with
positive lightness has greater lightness. -/
theorem C106_exposure (t : Tristimulus ℝ) (k : ℝ) (hk : 0 < k) :
    (XYZ_to_OKLAB (t.scale k)).b * (XYZ_to_OKLAB t).a = (XYZ_to_OKLAB t).b * (XYZ_to_OKLAB (t.scale k)).a ∧
    (XYZ_to_OKLAB (t.scale k)).c * (XYZ_to_OKLAB t).a = (XYZ_to_OKLAB t).c * (XYZ_to_OKLAB (t.scale k)).a ∧
    (XYZ_to_OKLAB (t.scale k)).b * (XYZ_to_OKLAB t).c = (XYZ_to_OKLAB t).b * (XYZ_to_OKLAB (t.scale k)).c ∧
    (1 < k → 0 < (XYZ_to_OKLAB t).a → (XYZ_to_OKLAB t).a < (XYZ_to_OKLAB (t.scale k)).a) ∧
    (0 < (XYZ_to_OKLAB t).a ↔ 0 < (XYZ_to_OKLAB (t.scale k)).a) := by
  obtain ⟨⟨c, hc, e⟩, -⟩ := C106_homogeneous t k
  have c0 : 0 < c := by
    by_contra h
    have : c ^ 3 ≤ 0 := by
      have h' : c ≤ 0 := not_lt.1 h
      nlinarith [sq_nonneg c]
    linarith
  rw [e]
  simp only [Tristimulus.scale]
  refine ⟨by ring, by ring, by ring, fun h1 h2 => ?_, ?_⟩
  · have : 1 < c := by
      by_contra h
      have h' : c ≤ 1 := not_lt.1 h
      have : c ^ 3 ≤ 1 := pow_le_one₀ c0.le h'
      linarith
    nlinarith
  · exact ⟨fun h => mul_pos h c0, fun h => pos_of_mul_pos_left h c0.le⟩

end CS
