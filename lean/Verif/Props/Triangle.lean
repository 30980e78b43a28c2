import Verif.Props.Published
import Verif.Props.Charts
import Mathlib.Analysis.Convex.Combination

/-!
# C80, C81, C82: colours inside a gamut  (exact arithmetic)
-/

namespace CS
open Matrix Spec

/-- The triangle spanned by the primaries in the chromaticity diagram. -/
def Spec.ColourSpace.triangle (s : ColourSpace) : Set (ℝ × ℝ) := convexHull ℝ {s.red, s.green, s.blue}
/-- The chromaticity of a colour. -/
noncomputable def Spec.chroma (t : Tristimulus ℝ) : ℝ × ℝ := (t.a / (t.a + t.b + t.c), t.b / (t.a + t.b + t.c))
/-- No component is negative. -/
def Spec.NonNeg (t : Tristimulus ℝ) : Prop := 0 ≤ t.a ∧ 0 ≤ t.b ∧ 0 ≤ t.c

/-- The eight predefined RGB gamuts with the colour spaces they realise. -/
noncomputable def rgbSpaces : List (Gamut ℝ × ColourSpace) :=
  [(AdobeRGB, adobeRGB), (Rec709, bt709Primaries), (Rec2020, bt2020Primaries), (DCI_P3, dciP3), (S_Gamut, sGamut),
   (S_Gamut3_Cine, sGamut3Cine), (ACEScg, ap1), (ACES2065, ap0)]

/-- Twice the signed area of the triangle `p q r`. -/
def area (p q r : ℝ × ℝ) : ℝ := (q.1 - p.1) * (r.2 - p.2) - (q.2 - p.2) * (r.1 - p.1)

theorem mix_mem (a b c : ℝ × ℝ) {u v w : ℝ} (hu : 0 ≤ u) (hv : 0 ≤ v) (hw : 0 ≤ w) (h : u + v + w = 1) :
    (u * a.1 + v * b.1 + w * c.1, u * a.2 + v * b.2 + w * c.2) ∈ convexHull ℝ {a, b, c} := by
  have := (convex_convexHull ℝ ({a, b, c} : Set (ℝ × ℝ))).sum_mem (t := Finset.univ) (w := ![u, v, w]) (z := ![a, b, c])
    (by intro i _; fin_cases i <;> simpa) (by simpa [Fin.sum_univ_three] using h)
    (by intro i _; apply subset_convexHull; fin_cases i <;> simp)
  simpa [Fin.sum_univ_three, Prod.ext_iff, Prod.smul_def, smul_eq_mul] using this

theorem mem_area {a b c p : ℝ × ℝ} (h : p ∈ convexHull ℝ {a, b, c}) (hd : 0 ≤ area a b c) :
    0 ≤ area b c p ∧ 0 ≤ area c a p ∧ 0 ≤ area a b p := by
  have aff : ∀ q r : ℝ × ℝ, Convex ℝ {x : ℝ × ℝ | 0 ≤ area q r x} := by
    intro q r x hx y hy s t hs ht hst
    simp only [Set.mem_setOf_eq, area, Prod.fst_add, Prod.snd_add, Prod.smul_fst, Prod.smul_snd, smul_eq_mul] at hx hy ⊢
    have e : (r.1 - q.1) * (s * x.2 + t * y.2 - q.2) - (r.2 - q.2) * (s * x.1 + t * y.1 - q.1) =
        s * ((r.1 - q.1) * (x.2 - q.2) - (r.2 - q.2) * (x.1 - q.1)) +
        t * ((r.1 - q.1) * (y.2 - q.2) - (r.2 - q.2) * (y.1 - q.1)) := by
      obtain rfl : t = 1 - s := by linarith
      ring
    rw [e]
    positivity
  have self : ∀ q r : ℝ × ℝ, area q r q = 0 ∧ area q r r = 0 := by
    intro q r; constructor <;> (unfold area; ring)
  have rot : area b c a = area a b c ∧ area c a b = area a b c := by constructor <;> (unfold area; ring)
  refine ⟨convexHull_min ?_ (aff b c) h, convexHull_min ?_ (aff c a) h, convexHull_min ?_ (aff a b) h⟩ <;>
    rintro x (rfl | rfl | rfl) <;> simp only [Set.mem_setOf_eq, self, rot, le_refl] <;> linarith [rot.1, rot.2]

/-- How a gamut mixes its primaries. -/
structure Mixes (g : Gamut ℝ) (s : ColourSpace) (w : Fin 3 → ℝ) : Prop where
  toXYZ : ∀ c, g.toXYZ c =
    ⟨s.red.1 * (w 0 * c.a) + s.green.1 * (w 1 * c.b) + s.blue.1 * (w 2 * c.c),
     s.red.2 * (w 0 * c.a) + s.green.2 * (w 1 * c.b) + s.blue.2 * (w 2 * c.c),
     (1 - s.red.1 - s.red.2) * (w 0 * c.a) + (1 - s.green.1 - s.green.2) * (w 1 * c.b) +
       (1 - s.blue.1 - s.blue.2) * (w 2 * c.c)⟩
  to_from : ∀ t, g.toXYZ (g.fromXYZ t) = t
  from_to : ∀ c, g.fromXYZ (g.toXYZ c) = c
  pos : ∀ i, 0 < w i
  ccw : 0 < area s.red s.green s.blue

theorem mixes {n : String} {xR yR xG yG xB yB xW yW : ℝ} (h : GoodPrimaries xR yR xG yG xB yB xW yW) (w : Fin 3 → ℝ)
    (hw : primaries xR yR xG yG xB yB *ᵥ w = whiteXYZ xW yW) (hpos : ∀ i, 0 < w i)
    (hccw : 0 < area (xR, yR) (xG, yG) (xB, yB)) :
    Mixes (.ofPrimaries n xR yR xG yG xB yB xW yW) ⟨n, (xR, yR), (xG, yG), (xB, yB), (xW, yW)⟩ w := by
  refine ⟨fun c => ?_, (good_to_from h).to_from, (good_to_from h).from_to, hpos, hccw⟩
  have hd : (Gamut.primMat xR yR xG yG xB yB).det ≠ 0 := by
    rw [← toM_det, toM_primMat]; exact h.indep
  have hx := Matrix3.apply_invert _ hd (Tristimulus.fromYxy3 1 xW yW).vec3
  generalize e : (Gamut.primMat xR yR xG yG xB yB).invert.apply (Tristimulus.fromYxy3 1 xW yW).vec3 = x at hx
  have hX : x = ⟨w 0, w 1, w 2⟩ := by
    have h1 : primaries xR yR xG yG xB yB *ᵥ toV x = whiteXYZ xW yW := by
      rw [← toV_white _ _ h.white, ← hx, ← toM_primMat]
      ext i
      fin_cases i <;> simp [toV, toM, Matrix3.apply, mulVec, dotProduct, Fin.sum_univ_three]
    have hu : IsUnit (primaries xR yR xG yG xB yB).det := isUnit_iff_ne_zero.mpr h.indep
    have h2 : toV x = w := by
      have := congrArg ((primaries xR yR xG yG xB yB)⁻¹ *ᵥ ·) (h1.trans hw.symm)
      simpa [Matrix.mulVec_mulVec, Matrix.nonsing_inv_mul _ hu] using this
    rw [← h2]
    rfl
  have hm : (Gamut.ofPrimaries n xR yR xG yG xB yB xW yW).toXYZ_ =
      (Gamut.primMat xR yR xG yG xB yB).mul (Gamut.diag x) := by
    simp only [Gamut.ofPrimaries, Gamut.fromPrimaries, Gamut.mulDiag, lit_real, Rat.cast_one, e]
  rw [Gamut.toXYZ, hm, hX]
  simp only [Gamut.primMat, Gamut.diag, Matrix3.mul, Matrix3.apply, Tristimulus.vec3, Tristimulus.ofVec3]
  ext <;> simp [Tristimulus.z_from_xy] <;> ring

/-- The eight gamuts mix their primaries with positive weights. -/
theorem mixes_all (p : Gamut ℝ × ColourSpace) (hp : p ∈ rgbSpaces) : ∃ w, Mixes p.1 p.2 w := by
  simp only [rgbSpaces, List.mem_cons, List.not_mem_nil, or_false] at hp
  rcases hp with rfl | rfl | rfl | rfl | rfl | rfl | rfl | rfl
  · refine ⟨_, AdobeRGB_eq ▸ mixes good_AdobeRGB ![896150/994567, 878810/994567, 1248040/994567] ?_ ?_ ?_⟩
    · ext i
      fin_cases i <;> simp [primaries, whiteXYZ, Matrix.mulVec, dotProduct, Fin.sum_univ_three] <;> norm_num
    · intro i; fin_cases i <;> norm_num
    · norm_num [area]
  · refine ⟨_, Rec709_eq ▸ mixes good_Rec709 ![158360/245763, 878810/737289, 126730/105327] ?_ ?_ ?_⟩
    · ext i
      fin_cases i <;> simp [primaries, whiteXYZ, Matrix.mulVec, dotProduct, Fin.sum_univ_three] <;> norm_num
    · intro i; fin_cases i <;> norm_num
    · norm_num [area]
  · refine ⟨_, Rec2020_eq ▸ mixes good_Rec2020 ![17917100/19915451, 118592800/139408157, 179720500/139408157] ?_ ?_ ?_⟩
    · ext i
      fin_cases i <;> simp [primaries, whiteXYZ, Matrix.mulVec, dotProduct, Fin.sum_univ_three] <;> norm_num
    · intro i; fin_cases i <;> norm_num
    · norm_num [area]
  · refine ⟨_, DCI_P3_eq ▸ mixes good_DCI_P3 ![23285/35568, 55795/53352, 122555/106704] ?_ ?_ ?_⟩
    · ext i
      fin_cases i <;> simp [primaries, whiteXYZ, Matrix.mulVec, dotProduct, Fin.sum_univ_three] <;> norm_num
    · intro i; fin_cases i <;> norm_num
    · norm_num [area]
  · refine ⟨_, S_Gamut_eq ▸ mixes good_S_Gamut ![3546670/3664731, 1123860/1221577, 4220750/3664731] ?_ ?_ ?_⟩
    · ext i
      fin_cases i <;> simp [primaries, whiteXYZ, Matrix.mulVec, dotProduct, Fin.sum_univ_three] <;> norm_num
    · intro i; fin_cases i <;> norm_num
    · norm_num [area]
  · refine ⟨_, S_Gamut3_Cine_eq ▸ mixes good_S_Gamut3_Cine ![20263700/25909549, 200652600/181366843, 208768500/181366843] ?_ ?_ ?_⟩
    · ext i
      fin_cases i <;> simp [primaries, whiteXYZ, Matrix.mulVec, dotProduct, Fin.sum_univ_three] <;> norm_num
    · intro i; fin_cases i <;> norm_num
    · norm_num [area]
  · refine ⟨_, ACEScg_eq ▸ mixes good_ACEScg ![4712223000/5071769633, 4119021000/5071769633, 6188656000/5071769633] ?_ ?_ ?_⟩
    · ext i
      fin_cases i <;> simp [primaries, whiteXYZ, Matrix.mulVec, dotProduct, Fin.sum_univ_three] <;> norm_num
    · intro i; fin_cases i <;> norm_num
    · norm_num [area]
  · refine ⟨_, ACES2065_eq ▸ mixes good_ACES2065 ![3463831270000/2671639738581, 1945397480000/2671639738581, 340650000/363636823] ?_ ?_ ?_⟩
    · ext i
      fin_cases i <;> simp [primaries, whiteXYZ, Matrix.mulVec, dotProduct, Fin.sum_univ_three] <;> norm_num
    · intro i; fin_cases i <;> norm_num
    · norm_num [area]

/-! ## C80 -/

theorem Mixes.nonneg_iff {g : Gamut ℝ} {s : ColourSpace} {w : Fin 3 → ℝ} (h : Mixes g s w) (t : Tristimulus ℝ)
    (ht : 0 < t.a + t.b + t.c) : NonNeg (g.fromXYZ t) ↔ chroma t ∈ s.triangle := by
  have e := h.toXYZ (g.fromXYZ t)
  rw [h.to_from] at e
  generalize g.fromXYZ t = c at e ⊢
  have ea := congrArg Tristimulus.a e
  have eb := congrArg Tristimulus.b e
  have ec := congrArg Tristimulus.c e
  dsimp only at ea eb ec
  obtain ⟨p0, p1, p2⟩ : 0 < w 0 ∧ 0 < w 1 ∧ 0 < w 2 := ⟨h.pos 0, h.pos 1, h.pos 2⟩
  have hS : w 0 * c.a + w 1 * c.b + w 2 * c.c = t.a + t.b + t.c := by rw [ea, eb, ec]; ring
  have hx : (chroma t).1 * (t.a + t.b + t.c) = t.a := by
    show t.a / _ * _ = _
    rw [div_mul_cancel₀ _ ht.ne']
  have hy : (chroma t).2 * (t.a + t.b + t.c) = t.b := by
    show t.b / _ * _ = _
    rw [div_mul_cancel₀ _ ht.ne']
  constructor
  · rintro ⟨h0, h1, h2⟩
    have := mix_mem s.red s.green s.blue (u := w 0 * c.a / (t.a + t.b + t.c)) (v := w 1 * c.b / (t.a + t.b + t.c))
      (w := w 2 * c.c / (t.a + t.b + t.c)) (by positivity) (by positivity) (by positivity)
      (by rw [← add_div, ← add_div, hS, div_self ht.ne'])
    unfold ColourSpace.triangle
    convert this using 1
    ext
    · show t.a / _ = _
      dsimp only
      rw [div_mul_eq_mul_div, div_mul_eq_mul_div, div_mul_eq_mul_div, ← add_div, ← add_div]
      congr 1
      rw [ea]; ring
    · show t.b / _ = _
      dsimp only
      rw [div_mul_eq_mul_div, div_mul_eq_mul_div, div_mul_eq_mul_div, ← add_div, ← add_div]
      congr 1
      rw [eb]; ring
  · intro hm
    have hd := h.ccw
    obtain ⟨g0, g1, g2⟩ := mem_area hm hd.le
    generalize chroma t = p at hx hy g0 g1 g2
    have k0 : (t.a + t.b + t.c) * area s.green s.blue p = area s.red s.green s.blue * (w 0 * c.a) := by
      have : (t.a + t.b + t.c) * area s.green s.blue p =
          (s.blue.1 - s.green.1) * (p.2 * (t.a + t.b + t.c) - s.green.2 * (t.a + t.b + t.c)) -
          (s.blue.2 - s.green.2) * (p.1 * (t.a + t.b + t.c) - s.green.1 * (t.a + t.b + t.c)) := by unfold area; ring
      rw [this, hx, hy, ← hS, ea, eb]; unfold area; ring
    have k1 : (t.a + t.b + t.c) * area s.blue s.red p = area s.red s.green s.blue * (w 1 * c.b) := by
      have : (t.a + t.b + t.c) * area s.blue s.red p =
          (s.red.1 - s.blue.1) * (p.2 * (t.a + t.b + t.c) - s.blue.2 * (t.a + t.b + t.c)) -
          (s.red.2 - s.blue.2) * (p.1 * (t.a + t.b + t.c) - s.blue.1 * (t.a + t.b + t.c)) := by unfold area; ring
      rw [this, hx, hy, ← hS, ea, eb]; unfold area; ring
    have k2 : (t.a + t.b + t.c) * area s.red s.green p = area s.red s.green s.blue * (w 2 * c.c) := by
      have : (t.a + t.b + t.c) * area s.red s.green p =
          (s.green.1 - s.red.1) * (p.2 * (t.a + t.b + t.c) - s.red.2 * (t.a + t.b + t.c)) -
          (s.green.2 - s.red.2) * (p.1 * (t.a + t.b + t.c) - s.red.1 * (t.a + t.b + t.c)) := by unfold area; ring
      rw [this, hx, hy, ← hS, ea, eb]; unfold area; ring
    have cancel : ∀ {x y z : ℝ}, 0 ≤ x → x = area s.red s.green s.blue * (y * z) → 0 < y → 0 ≤ z := by
      intro x y z hx e hy
      rw [e, ← mul_assoc] at hx
      exact nonneg_of_mul_nonneg_right hx (mul_pos hd hy)
    exact ⟨cancel (mul_nonneg ht.le g0) k0 p0, cancel (mul_nonneg ht.le g1) k1 p1, cancel (mul_nonneg ht.le g2) k2 p2⟩

/-- C80: for every predefined RGB gamut, a colour with `X + Y + Z > 0` has no negative component there exactly when
its chromaticity lies in the triangle of the published primaries. -/
theorem C80_triangle (g : Gamut ℝ) (s : ColourSpace) (hg : (g, s) ∈ rgbSpaces) (t : Tristimulus ℝ)
    (ht : 0 < t.a + t.b + t.c) : NonNeg (g.fromXYZ t) ↔ chroma t ∈ s.triangle := by
  obtain ⟨w, h⟩ := mixes_all (g, s) hg
  exact h.nonneg_iff t ht

/-- C80: conversely every mixture of a gamut's primaries, black excepted, is a colour with `X + Y + Z > 0` and a
chromaticity in the triangle. -/
theorem C80_mixtures (g : Gamut ℝ) (s : ColourSpace) (hg : (g, s) ∈ rgbSpaces) (c : Tristimulus ℝ) (hc : NonNeg c)
    (h0 : c ≠ ⟨0, 0, 0⟩) : 0 < (g.toXYZ c).a + (g.toXYZ c).b + (g.toXYZ c).c ∧ chroma (g.toXYZ c) ∈ s.triangle := by
  obtain ⟨w, h⟩ := mixes_all (g, s) hg
  have hpos : 0 < (g.toXYZ c).a + (g.toXYZ c).b + (g.toXYZ c).c := by
    have e : (g.toXYZ c).a + (g.toXYZ c).b + (g.toXYZ c).c = w 0 * c.a + w 1 * c.b + w 2 * c.c := by
      rw [h.toXYZ c]; ring
    rw [e]
    obtain ⟨a0, a1, a2⟩ := hc
    have p0 := h.pos 0
    have p1 := h.pos 1
    have p2 := h.pos 2
    by_contra hn
    have b0 := mul_nonneg p0.le a0
    have b1 := mul_nonneg p1.le a1
    have b2 := mul_nonneg p2.le a2
    have z0 : w 0 * c.a = 0 := by linarith
    have z1 : w 1 * c.b = 0 := by linarith
    have z2 : w 2 * c.c = 0 := by linarith
    exact h0 (Tristimulus.ext ((mul_eq_zero.1 z0).resolve_left p0.ne') ((mul_eq_zero.1 z1).resolve_left p1.ne')
      ((mul_eq_zero.1 z2).resolve_left p2.ne'))
  exact ⟨hpos, (h.nonneg_iff _ hpos).1 (by rw [h.from_to]; exact hc)⟩

/-- D65 white meets the hypotheses, inside Rec.709. -/
example : (Rec709, bt709Primaries) ∈ rgbSpaces ∧ (0 : ℝ) < 0.95047 + 1 + 1.08883 := by
  refine ⟨by simp [rgbSpaces], by norm_num⟩

/-! ## C81 -/

theorem mem_tri {a b c p : ℝ × ℝ} (hd : 0 < area a b c) (h0 : 0 ≤ area b c p) (h1 : 0 ≤ area c a p) (h2 : 0 ≤ area a b p) :
    p ∈ convexHull ℝ {a, b, c} := by
  have hs : area b c p + area c a p + area a b p = area a b c := by unfold area; ring
  have hx : area b c p * a.1 + area c a p * b.1 + area a b p * c.1 = area a b c * p.1 := by unfold area; ring
  have hy : area b c p * a.2 + area c a p * b.2 + area a b p * c.2 = area a b c * p.2 := by unfold area; ring
  generalize area b c p = u at *
  generalize area c a p = v at *
  generalize area a b p = w at *
  generalize area a b c = D at *
  have := mix_mem a b c (u := u / D) (v := v / D) (w := w / D) (by positivity) (by positivity) (by positivity)
    (by rw [← add_div, ← add_div, hs, div_self hd.ne'])
  convert this using 1
  ext
  · dsimp only
    rw [div_mul_eq_mul_div, div_mul_eq_mul_div, div_mul_eq_mul_div, ← add_div, ← add_div, hx, mul_div_cancel_left₀ _ hd.ne']
  · dsimp only
    rw [div_mul_eq_mul_div, div_mul_eq_mul_div, div_mul_eq_mul_div, ← add_div, ← add_div, hy, mul_div_cancel_left₀ _ hd.ne']

theorem triangle_sub {s d : ColourSpace} (hd : 0 < area d.red d.green d.blue)
    (h : ∀ p ∈ [s.red, s.green, s.blue], 0 ≤ area d.green d.blue p ∧ 0 ≤ area d.blue d.red p ∧ 0 ≤ area d.red d.green p) :
    s.triangle ⊆ d.triangle := by
  refine convexHull_min ?_ (convex_convexHull ℝ _)
  rintro p (rfl | rfl | rfl)
  · obtain ⟨a, b, c⟩ := h s.red (by simp); exact mem_tri hd a b c
  · obtain ⟨a, b, c⟩ := h s.green (by simp); exact mem_tri hd a b c
  · obtain ⟨a, b, c⟩ := h s.blue (by simp); exact mem_tri hd a b c

/-- Converting to a gamut with a larger triangle. -/
theorem convert_nonneg {s d : Gamut ℝ × ColourSpace} (hs : s ∈ rgbSpaces) (hd : d ∈ rgbSpaces)
    (h : s.2.triangle ⊆ d.2.triangle) (c : Tristimulus ℝ) (hc : NonNeg c) : NonNeg (c.apply (GamutConvert s.1 d.1)) := by
  have e : c.apply (GamutConvert s.1 d.1) = d.1.fromXYZ (s.1.toXYZ c) := by
    simp [Tristimulus.apply, GamutConvert, Gamut.fromXYZ, Gamut.toXYZ, Matrix3.apply_mul]
  rw [e]
  by_cases h0 : c = ⟨0, 0, 0⟩
  · subst h0
    simp [NonNeg, Gamut.fromXYZ, Gamut.toXYZ, Tristimulus.ofVec3, Tristimulus.vec3, Matrix3.apply]
  · obtain ⟨h1, h2⟩ := C80_mixtures s.1 s.2 hs c hc h0
    exact (C80_triangle d.1 d.2 hd _ h1).2 (h h2)

/-- The pairs of predefined gamuts of which the second contains the first. -/
noncomputable def nestedGamuts : List ((Gamut ℝ × ColourSpace) × (Gamut ℝ × ColourSpace)) :=
  [((AdobeRGB, adobeRGB), (Rec2020, bt2020Primaries)), ((AdobeRGB, adobeRGB), (S_Gamut, sGamut)),
   ((AdobeRGB, adobeRGB), (ACEScg, ap1)), ((AdobeRGB, adobeRGB), (ACES2065, ap0)),
   ((Rec709, bt709Primaries), (AdobeRGB, adobeRGB)), ((Rec709, bt709Primaries), (Rec2020, bt2020Primaries)),
   ((Rec709, bt709Primaries), (DCI_P3, dciP3)), ((Rec709, bt709Primaries), (S_Gamut, sGamut)),
   ((Rec709, bt709Primaries), (S_Gamut3_Cine, sGamut3Cine)), ((Rec709, bt709Primaries), (ACEScg, ap1)),
   ((Rec709, bt709Primaries), (ACES2065, ap0)), ((Rec2020, bt2020Primaries), (S_Gamut, sGamut)),
   ((Rec2020, bt2020Primaries), (ACEScg, ap1)), ((Rec2020, bt2020Primaries), (ACES2065, ap0)),
   ((DCI_P3, dciP3), (S_Gamut, sGamut)), ((DCI_P3, dciP3), (S_Gamut3_Cine, sGamut3Cine)),
   ((DCI_P3, dciP3), (ACEScg, ap1)), ((DCI_P3, dciP3), (ACES2065, ap0)),
   ((ACEScg, ap1), (S_Gamut, sGamut))]

/-- C81: for these pairs of gamuts the triangle of the first lies in that of the second, and converting a colour
without negative components from the first to the second gives one without negative components. -/
theorem C81_nested (s d : Gamut ℝ × ColourSpace) (h : (s, d) ∈ nestedGamuts) :
    s.2.triangle ⊆ d.2.triangle ∧ ∀ c, NonNeg c → NonNeg (c.apply (GamutConvert s.1 d.1)) := by
  have key : s ∈ rgbSpaces ∧ d ∈ rgbSpaces ∧ s.2.triangle ⊆ d.2.triangle := by
    simp only [nestedGamuts, List.mem_cons, List.not_mem_nil, or_false, Prod.mk.injEq] at h
    rcases h with ⟨rfl, rfl⟩ | ⟨rfl, rfl⟩ | ⟨rfl, rfl⟩ | ⟨rfl, rfl⟩ | ⟨rfl, rfl⟩ | ⟨rfl, rfl⟩ | ⟨rfl, rfl⟩ | ⟨rfl, rfl⟩ |
      ⟨rfl, rfl⟩ | ⟨rfl, rfl⟩ | ⟨rfl, rfl⟩ | ⟨rfl, rfl⟩ | ⟨rfl, rfl⟩ | ⟨rfl, rfl⟩ | ⟨rfl, rfl⟩ | ⟨rfl, rfl⟩ | ⟨rfl, rfl⟩ |
      ⟨rfl, rfl⟩ | ⟨rfl, rfl⟩ <;>
    refine ⟨by simp [rgbSpaces], by simp [rgbSpaces], triangle_sub ?_ ?_⟩ <;>
    simp only [List.mem_cons, List.not_mem_nil, or_false, forall_eq_or_imp, forall_eq, area, adobeRGB, bt709Primaries, bt2020Primaries, dciP3, sGamut, sGamut3Cine, ap1, ap0] <;>
    norm_num
  exact ⟨key.2.2, fun c hc => convert_nonneg key.1 key.2.1 key.2.2 c hc⟩

/-- C81: not every pair is nested: pure ACEScg red has a negative component in ACES 2065-1, although AP0 is the
larger encoding. -/
theorem C81_ap1_not_in_ap0 : ¬ NonNeg ((⟨1, 0, 0⟩ : Tristimulus ℝ).apply (GamutConvert ACEScg ACES2065)) ∧
    ¬ ap1.triangle ⊆ ap0.triangle := by
  have h2 : ¬ ap1.triangle ⊆ ap0.triangle := by
    intro h
    have := h (subset_convexHull ℝ _ (by simp : ap1.red ∈ ({ap1.red, ap1.green, ap1.blue} : Set (ℝ × ℝ))))
    have := (mem_area this (by norm_num [area, ap0])).2.2
    norm_num [area, ap0, ap1] at this
  refine ⟨fun h => ?_, h2⟩
  have e : (⟨1, 0, 0⟩ : Tristimulus ℝ).apply (GamutConvert ACEScg ACES2065) =
      (ACES2065 : Gamut ℝ).fromXYZ ((ACEScg : Gamut ℝ).toXYZ ⟨1, 0, 0⟩) := by
    simp [Tristimulus.apply, GamutConvert, Gamut.fromXYZ, Gamut.toXYZ, Matrix3.apply_mul]
  rw [e] at h
  obtain ⟨h3, -⟩ := C80_mixtures ACEScg ap1 (by simp [rgbSpaces]) ⟨1, 0, 0⟩ (by norm_num [NonNeg])
    (by simp [Tristimulus.ext_iff])
  have h4 := (C80_triangle ACES2065 ap0 (by simp [rgbSpaces]) _ h3).1 h
  have h5 := C65_published.2.2.2.2.2.2.1.2.1
  have h6 : chroma ((ACEScg : Gamut ℝ).toXYZ ⟨1, 0, 0⟩) = ap1.red := by
    ext
    · show _ / _ = _
      rw [div_eq_iff h3.ne']; exact h5.2.1
    · show _ / _ = _
      rw [div_eq_iff h3.ne']; exact h5.2.2
  rw [h6] at h4
  have := (mem_area h4 (by norm_num [area, ap0])).2.2
  norm_num [area, ap0, ap1] at this

/-- The first pair of the list, and a colour to convert. -/
example : ((AdobeRGB, adobeRGB), (Rec2020, bt2020Primaries)) ∈ nestedGamuts ∧ NonNeg ⟨1, 0, 0⟩ := by
  refine ⟨by simp [nestedGamuts], by norm_num [NonNeg]⟩

/-! ## C82 -/

/-- Whether `a X/∑X + b Y/∑Y + c Z/∑Z ≥ 0` at every wavelength; evaluated by the kernel. -/
def Data.Table.formNonneg (a b c : ℤ) (x y z : Data.Table) : Bool :=
  (List.zip x.m (List.zip y.m z.m)).all fun p =>
    decide (0 ≤ a * (p.1 * (y.sumNat * z.sumNat)) + b * (p.2.1 * (x.sumNat * z.sumNat)) +
      c * (p.2.2 * (x.sumNat * y.sumNat)))

theorem dot_table (s : Spectrum ℝ) (u : Data.Table) (hu : u.sumNat ≠ 0) :
    s.dot (.ofTable u) * (lit 1 / (Spectrum.ofTable u : Spectrum ℝ).sum) =
      ∑ i : Fin 400, s i * ((u.m[i.val]'(by rw [u.len]; exact i.2) : ℝ) / u.sumNat) := by
  rw [Spectrum.dot_eq, ofTable_sum, Finset.sum_mul]
  refine Finset.sum_congr rfl fun i _ => ?_
  have hu' : (u.sumNat : ℝ) ≠ 0 := Nat.cast_ne_zero.2 hu
  simp only [Spectrum.ofTable, lit_real, Data.Table.q]
  push_cast
  field_simp

theorem fromSpectrum_form {a b c : ℤ} {x y z : Data.Table} (hx : x.sumNat ≠ 0) (hy : y.sumNat ≠ 0) (hz : z.sumNat ≠ 0)
    (h : Data.Table.formNonneg a b c x y z = true) (s : Spectrum ℝ) (hs : ∀ i, 0 ≤ s i) :
    let t := (Observer.mk3 (.ofTable x) (.ofTable y) (.ofTable z)).fromSpectrum s
    0 ≤ a * t.a + b * t.b + c * t.c := by
  intro t
  have ea : t.a = _ := dot_table s x hx
  have eb : t.b = _ := dot_table s y hy
  have ec : t.c = _ := dot_table s z hz
  rw [ea, eb, ec, Finset.mul_sum, Finset.mul_sum, Finset.mul_sum, ← Finset.sum_add_distrib, ← Finset.sum_add_distrib]
  refine Finset.sum_nonneg fun i _ => ?_
  have hxl : i.val < x.m.length := by rw [x.len]; exact i.2
  have hyl : i.val < y.m.length := by rw [y.len]; exact i.2
  have hzl : i.val < z.m.length := by rw [z.len]; exact i.2
  have hl : i.val < (List.zip x.m (List.zip y.m z.m)).length := by
    simp only [List.length_zip, x.len, y.len, z.len]; exact i.2
  have hi := List.all_eq_true.1 h _ (List.getElem_mem hl)
  rw [List.getElem_zip, List.getElem_zip, decide_eq_true_eq] at hi
  have hi' : (0 : ℝ) ≤ a * (x.m[i.val] * (y.sumNat * z.sumNat)) + b * (y.m[i.val] * (x.sumNat * z.sumNat)) +
      c * (z.m[i.val] * (x.sumNat * y.sumNat)) := by exact_mod_cast hi
  have px : (0 : ℝ) < x.sumNat := by exact_mod_cast Nat.pos_of_ne_zero hx
  have py : (0 : ℝ) < y.sumNat := by exact_mod_cast Nat.pos_of_ne_zero hy
  have pz : (0 : ℝ) < z.sumNat := by exact_mod_cast Nat.pos_of_ne_zero hz
  have e : a * (s i * ((x.m[i.val] : ℝ) / x.sumNat)) + b * (s i * ((y.m[i.val] : ℝ) / y.sumNat)) +
      c * (s i * ((z.m[i.val] : ℝ) / z.sumNat)) =
      s i * ((a * (x.m[i.val] * (y.sumNat * z.sumNat)) + b * (y.m[i.val] * (x.sumNat * z.sumNat)) +
      c * (z.m[i.val] * (x.sumNat * y.sumNat))) / (x.sumNat * y.sumNat * z.sumNat)) := by
    generalize (x.m[i.val] : ℝ) = p
    generalize (y.m[i.val] : ℝ) = q
    generalize (z.m[i.val] : ℝ) = r
    generalize (x.sumNat : ℝ) = X at *
    generalize (y.sumNat : ℝ) = Y at *
    generalize (z.sumNat : ℝ) = Z at *
    field_simp
  rw [e]
  exact mul_nonneg (hs i) (div_nonneg hi' (by positivity))

/-- The components in a gamut as linear forms of the tristimulus values. -/
theorem Mixes.forms {g : Gamut ℝ} {s : ColourSpace} {w : Fin 3 → ℝ} (h : Mixes g s w) (t : Tristimulus ℝ) :
    let f := fun p q : ℝ × ℝ => (q.1 - p.1) * (t.b - p.2 * (t.a + t.b + t.c)) - (q.2 - p.2) * (t.a - p.1 * (t.a + t.b + t.c))
    f s.green s.blue = area s.red s.green s.blue * w 0 * (g.fromXYZ t).a ∧
    f s.blue s.red = area s.red s.green s.blue * w 1 * (g.fromXYZ t).b ∧
    f s.red s.green = area s.red s.green s.blue * w 2 * (g.fromXYZ t).c := by
  intro f
  have e := h.toXYZ (g.fromXYZ t)
  rw [h.to_from] at e
  generalize g.fromXYZ t = c at e ⊢
  have ea := congrArg Tristimulus.a e
  have eb := congrArg Tristimulus.b e
  have ec := congrArg Tristimulus.c e
  dsimp only at ea eb ec
  have hS : t.a + t.b + t.c = w 0 * c.a + w 1 * c.b + w 2 * c.c := by rw [ea, eb, ec]; ring
  refine ⟨?_, ?_, ?_⟩ <;> (simp only [f]; rw [hS, ea, eb]; unfold area; ring)

theorem Mixes.nonneg_of_forms {g : Gamut ℝ} {s : ColourSpace} {w : Fin 3 → ℝ} (h : Mixes g s w) (t : Tristimulus ℝ)
    (hf : let f := fun p q : ℝ × ℝ => (q.1 - p.1) * (t.b - p.2 * (t.a + t.b + t.c)) - (q.2 - p.2) * (t.a - p.1 * (t.a + t.b + t.c))
      0 ≤ f s.green s.blue ∧ 0 ≤ f s.blue s.red ∧ 0 ≤ f s.red s.green) : NonNeg (g.fromXYZ t) := by
  obtain ⟨e0, e1, e2⟩ := h.forms t
  simp only at hf e0 e1 e2
  rw [e0, e1, e2] at hf
  exact ⟨nonneg_of_mul_nonneg_right hf.1 (mul_pos h.ccw (h.pos 0)),
    nonneg_of_mul_nonneg_right hf.2.1 (mul_pos h.ccw (h.pos 1)), nonneg_of_mul_nonneg_right hf.2.2 (mul_pos h.ccw (h.pos 2))⟩

theorem aces_nonneg {x y z : Data.Table} (h0 : (x.sumNat != 0 && y.sumNat != 0 && z.sumNat != 0) = true)
    (h1 : (Data.Table.formNonneg 10769 0 (-1) x y z && Data.Table.formNonneg (-28570157) 79119843 5659843 x y z) = true)
    (s : Spectrum ℝ) (hs : ∀ i, 0 ≤ s i) :
    NonNeg ((ACES2065 : Gamut ℝ).fromXYZ ((Observer.mk3 (.ofTable x) (.ofTable y) (.ofTable z)).fromSpectrum s)) := by
  simp only [Bool.and_eq_true, bne_iff_ne] at h0 h1
  obtain ⟨⟨hx, hy⟩, hz⟩ := h0
  obtain ⟨w, h⟩ := mixes_all (ACES2065, ap0) (by simp [rgbSpaces])
  have f1 := fromSpectrum_form hx hy hz h1.1 s hs
  have f2 := fromSpectrum_form hx hy hz h1.2 s hs
  have f3 := fromSpectrum_form (a := 0) (b := 0) (c := 1) hx hy hz
    (by simp only [Data.Table.formNonneg, List.all_eq_true, decide_eq_true_eq]; intro p _; positivity) s hs
  simp only at f1 f2 f3
  refine h.nonneg_of_forms _ ?_
  generalize (Observer.mk3 (Spectrum.ofTable x) (Spectrum.ofTable y) (Spectrum.ofTable z)).fromSpectrum s = t at *
  push_cast at f1 f2 f3
  simp only [ap0]
  refine ⟨?_, ?_, ?_⟩ <;> norm_num <;> linarith

/-- C82: every light with no negative sample, seen by any of the three observers of the header, has no negative
component in ACES 2065-1: the gamut contains every real colour. -/
theorem C82_real_colours (s : Spectrum ℝ) (hs : ∀ i, 0 ≤ s i) :
    NonNeg ((ACES2065 : Gamut ℝ).fromXYZ (CIE1931.fromSpectrum s)) ∧
    NonNeg ((ACES2065 : Gamut ℝ).fromXYZ (CIE31JV.fromSpectrum s)) ∧
    NonNeg ((ACES2065 : Gamut ℝ).fromXYZ (CIE2012.fromSpectrum s)) :=
  ⟨aces_nonneg (by decide +kernel) (by decide +kernel) s hs, aces_nonneg (by decide +kernel) (by decide +kernel) s hs,
   aces_nonneg (by decide +kernel) (by decide +kernel) s hs⟩

/-- C82: the same for every surface under every light. -/
theorem C82_surfaces (r l : Spectrum ℝ) (hr : ∀ i, 0 ≤ r i) (hl : ∀ i, 0 ≤ l i) :
    NonNeg ((ACES2065 : Gamut ℝ).fromXYZ (CIE1931.fromReflectanceAndLight r l)) ∧
    NonNeg ((ACES2065 : Gamut ℝ).fromXYZ (CIE31JV.fromReflectanceAndLight r l)) ∧
    NonNeg ((ACES2065 : Gamut ℝ).fromXYZ (CIE2012.fromReflectanceAndLight r l)) := by
  simp only [C41_reflectance_bitwise]
  exact C82_real_colours _ fun i => mul_nonneg (hr i) (hl i)

/-- Light in the sample at 500 nm only. -/
noncomputable def mono500 : Spectrum ℝ := fun i => if i = 120 then 1 else 0

theorem mono_table (u : Data.Table) (hu : u.sumNat ≠ 0) :
    mono500.dot (.ofTable u) * (lit 1 / (Spectrum.ofTable u : Spectrum ℝ).sum) =
      (u.m[120]'(by rw [u.len]; decide) : ℝ) / u.sumNat := by
  rw [dot_table _ u hu, Finset.sum_eq_single (120 : Fin 400)]
  · simp [mono500]
  · intro i _ hi; simp [mono500, hi]
  · simp

/-- C82: ACES 2065-1 is the only gamut of the header with that property: monochromatic light of 500 nm has a negative
first component in each of the seven others. -/
theorem C82_only_aces : (∀ i, 0 ≤ mono500 i) ∧ ∀ g ∈ [AdobeRGB, Rec709, Rec2020, DCI_P3, S_Gamut, S_Gamut3_Cine, ACEScg],
    ((g : Gamut ℝ).fromXYZ (CIE1931.fromSpectrum mono500)).a < 0 := by
  refine ⟨fun i => by unfold mono500; split <;> norm_num, ?_⟩
  have ea : ((CIE1931 : Observer ℝ).fromSpectrum mono500).a = _ := mono_table Data.CIE.CIE1931_X (by decide +kernel)
  have eb : ((CIE1931 : Observer ℝ).fromSpectrum mono500).b = _ := mono_table Data.CIE.CIE1931_Y (by decide +kernel)
  have ec : ((CIE1931 : Observer ℝ).fromSpectrum mono500).c = _ := mono_table Data.CIE.CIE1931_Z (by decide +kernel)
  rw [show Data.CIE.CIE1931_X.m[120]'_ = 490000000 by decide +kernel, show Data.CIE.CIE1931_X.sumNat = 10685504379336 by decide +kernel] at ea
  rw [show Data.CIE.CIE1931_Y.m[120]'_ = 32300000000 by decide +kernel, show Data.CIE.CIE1931_Y.sumNat = 10685641128788 by decide +kernel] at eb
  rw [show Data.CIE.CIE1931_Z.m[120]'_ = 27200000000 by decide +kernel, show Data.CIE.CIE1931_Z.sumNat = 10684608243163 by decide +kernel] at ec
  generalize (CIE1931 : Observer ℝ).fromSpectrum mono500 = t at *
  have key : ∀ g s, (g, s) ∈ rgbSpaces → (s.blue.1 - s.green.1) * (t.b - s.green.2 * (t.a + t.b + t.c)) -
      (s.blue.2 - s.green.2) * (t.a - s.green.1 * (t.a + t.b + t.c)) < 0 → (g.fromXYZ t).a < 0 := by
    intro g s hg hn
    obtain ⟨w, h⟩ := mixes_all (g, s) hg
    have e := (h.forms t).1
    simp only at e
    rw [e] at hn
    by_contra hc
    exact absurd (mul_nonneg (mul_pos h.ccw (h.pos 0)).le (not_lt.1 hc)) (not_le.2 hn)
  intro g hg
  simp only [List.mem_cons, List.not_mem_nil, or_false] at hg
  rcases hg with rfl | rfl | rfl | rfl | rfl | rfl | rfl
  · refine key _ adobeRGB (by simp [rgbSpaces]) ?_; rw [ea, eb, ec]; norm_num [adobeRGB]
  · refine key _ bt709Primaries (by simp [rgbSpaces]) ?_; rw [ea, eb, ec]; norm_num [bt709Primaries]
  · refine key _ bt2020Primaries (by simp [rgbSpaces]) ?_; rw [ea, eb, ec]; norm_num [bt2020Primaries]
  · refine key _ dciP3 (by simp [rgbSpaces]) ?_; rw [ea, eb, ec]; norm_num [dciP3]
  · refine key _ sGamut (by simp [rgbSpaces]) ?_; rw [ea, eb, ec]; norm_num [sGamut]
  · refine key _ sGamut3Cine (by simp [rgbSpaces]) ?_; rw [ea, eb, ec]; norm_num [sGamut3Cine]
  · refine key _ ap1 (by simp [rgbSpaces]) ?_; rw [ea, eb, ec]; norm_num [ap1]

/-- The daylight table meets the hypothesis. -/
example : ∀ i, (0 : ℝ) ≤ (CIE_D65 : Spectrum ℝ) i := ofTable_nonneg _

end CS
