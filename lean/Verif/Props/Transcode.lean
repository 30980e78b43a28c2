import Verif.Props.Colorimetry

/-!
# C118: converting sRGB-coded images between RGB spaces (binary32)

Decode, convert with `GamutConvert`, encode: the result is the published conversion, up to a fifth of a code of 10 bits.
-/

namespace CS
open F32 B32 OTF Spec Tristimulus

attribute [local instance] ratArith

/-! ## The exact conversion -/

/-- The sum of the magnitudes of a row. -/
def rowAbs (a b c : ℚ) : ℚ := |a| + |b| + |c|

set_option maxRecDepth 100000 in
/-- No exact conversion matrix between two of the spaces enlarges a component more than six times. -/
theorem convert_rows : (RGBSpace.all.all fun s => RGBSpace.all.all fun d =>
    let m := d.rat.fromXYZ_.mul s.rat.toXYZ_
    decide (rowAbs m.m0 m.m1 m.m2 ≤ 6 ∧ rowAbs m.m3 m.m4 m.m5 ≤ 6 ∧ rowAbs m.m6 m.m7 m.m8 ≤ 6)) = true := by decide +kernel

theorem rowAbs_lip {p q r : ℚ} (h : rowAbs p q r ≤ 6) {x y : Tristimulus ℝ} {e : ℝ} (e0 : 0 ≤ e) (hl : NearR x y e) :
    |((p : ℝ) * x.a + q * x.b + r * x.c) - ((p : ℝ) * y.a + q * y.b + r * y.c)| ≤ 6 * e := by
  obtain ⟨a, b, c⟩ := hl
  have k : ∀ {p u : ℝ}, |u| ≤ e → |p * u| ≤ |p| * e := fun hu => by
    rw [abs_mul]; exact mul_le_mul_of_nonneg_left hu (abs_nonneg _)
  rw [show ((p : ℝ) * x.a + q * x.b + r * x.c) - ((p : ℝ) * y.a + q * y.b + r * y.c) =
    (p : ℝ) * (x.a - y.a) + q * (x.b - y.b) + r * (x.c - y.c) by ring]
  refine (abs_add_three _ _ _).trans ?_
  have := k (p := (p : ℝ)) a
  have := k (p := (q : ℝ)) b
  have := k (p := (r : ℝ)) c
  have h' := (Rat.cast_le (K := ℝ)).2 h
  rw [rowAbs] at h'
  push_cast at h'
  have := mul_le_mul_of_nonneg_right h' e0
  linarith

/-- The components of the same colour in another space move at most six times as much. -/
theorem convert_lip (s d : RGBSpace) {G H : Gamut ℝ} (hG : Realises G s.published) (hH : Realises H d.published)
    {x y c c' : Tristimulus ℝ} {e : ℝ} (e0 : 0 ≤ e) (hxy : NearR x y e) (h : H.toXYZ c = G.toXYZ x) (h' : H.toXYZ c' = G.toXYZ y) :
    NearR c c' (6 * e) := by
  have m := List.all_eq_true.1 (List.all_eq_true.1 convert_rows s s.mem_all) d d.mem_all
  rw [decide_eq_true_eq] at m
  obtain ⟨m1, m2, m3⟩ := m
  have key : ∀ {c x}, H.toXYZ c = G.toXYZ x → c = Tristimulus.ofVec3 ((d.rat.fromXYZ_.mul s.rat.toXYZ_).toReal.apply x.vec3) := by
    intro c x h
    rw [d.determined hH, s.determined hG] at h
    rw [← d.left_inv c, h, Matrix3.toReal_mul, Matrix3.apply_mul]
    rfl
  rw [key h, key h']
  exact ⟨rowAbs_lip m1 e0 hxy, rowAbs_lip m2 e0 hxy, rowAbs_lip m3 e0 hxy⟩

/-- Every colour has components in each of the spaces. -/
theorem exists_components (d : RGBSpace) (v : Tristimulus ℝ) {H : Gamut ℝ} (hH : Realises H d.published) : ∃ c, H.toXYZ c = v := by
  refine ⟨d.rat.toReal.fromXYZ v, ?_⟩
  rw [d.determined hH]
  refine (C08_roundtrip d.rat.toReal ?_ v).2
  cases d <;> simp only [RGBSpace.rat, toReal_AdobeRGB, toReal_Rec709, toReal_Rec2020, toReal_DCI_P3, toReal_S_Gamut,
    toReal_S_Gamut3_Cine, toReal_ACEScg, toReal_ACES2065] <;> simp [allGamuts]

/-! ## Encoding -/

/-- The encoded value of a float near an exact linear value. -/
theorem encode_near (o : F32.Oracle) (ho : o.PowAccurate (2 ^ (-22 : ℤ))) {z : F32} (hz : z.isFinite = true) {c δ : ℝ}
    (h : |(z.val : ℝ) - c| ≤ δ) : Ap (@Y_to_sRGB F32 (F32.libm o) z) (srgb (clampTo 0 1 c)) (12.92 * δ + 7.1e-7) := by
  have e := C83_encode o ho z hz
  refine ⟨e.fin, ?_⟩
  have l := srgb_lip (clampTo 0 1 (z.val : ℝ)) (clampTo 0 1 c)
  have cl : |clampTo 0 1 (z.val : ℝ) - clampTo 0 1 c| ≤ δ := by
    refine le_trans ?_ h
    unfold clampTo
    refine (abs_max_sub_max_le_max _ _ _ _).trans (max_le (by simp) ?_)
    exact (abs_min_sub_min_le_max _ _ _ _).trans (max_le (by simp) le_rfl)
  have := e.err
  refine (abs_sub_le _ (srgb (clampTo 0 1 (z.val : ℝ))) _).trans ?_
  linarith

/-- C118: decoding an sRGB-coded pixel, converting it with `GamutConvert` to another RGB space and encoding it gives the encoded
components, in the other space, of the same colour, up to `2.2e-4`. -/
theorem C118_convert (o : F32.Oracle) (ho : o.PowAccurate (2 ^ (-22 : ℤ))) (x : F32) (s d : RGBSpace) (G H : Gamut ℝ)
    (hG : Realises G s.published) (hH : Realises H d.published) (N i j k : ℕ) (hN : 0 < N) (hN' : N ≤ 65535) (hi : i ≤ N) (hj : j ≤ N)
    (hk : k ≤ N) (c : Tristimulus ℝ) (hc : H.toXYZ c = G.toXYZ (srgbPixel N i j k)) :
    letI := F32.libm o
    let y := toScreen .SRGB ((toScene .SRGB (pixel N i j k) x).apply (GamutConvert s.gamut d.gamut)) x
    Ap y.a (srgb (clampTo 0 1 c.a)) 2.2e-4 ∧ Ap y.b (srgb (clampTo 0 1 c.b)) 2.2e-4 ∧ Ap y.c (srgb (clampTo 0 1 c.c)) 2.2e-4 := by
  intro y
  obtain ⟨h1, h2⟩ := scene_exact o ho x hN hN' hi hj hk
  have r := scene_range o ho x hN hN' hi hj hk
  obtain ⟨c', hc'⟩ := exists_components d (G.toXYZ (@toScene F32 (F32.libm o) .SRGB (pixel N i j k) x).real) hH
  obtain ⟨⟨fa, fb, fc⟩, ea, eb, ec⟩ := C99_convert s d G H hG hH _ top (by norm_num [top]) (scene_within r) c' hc'
  obtain ⟨la, lb, lc⟩ := convert_lip s d hG hH (by norm_num) h1 hc' hc
  have ty : ((3.2e-6 * top + 1 / 2 ^ 140 : ℚ) : ℝ) ≤ 3.21e-6 := by
    have : (3.2e-6 * top + 1 / 2 ^ 140 : ℚ) ≤ 3.21e-6 := by norm_num [top]
    have := (Rat.cast_le (K := ℝ)).2 this
    refine this.trans ?_
    push_cast; norm_num
  have w : (12.92 * (3.21e-6 + 6 * 2.19e-6) + 7.1e-7 : ℝ) ≤ 2.2e-4 := by norm_num
  exact ⟨(encode_near o ho fa ((abs_sub_le _ _ _).trans (add_le_add (ea.trans ty) la))).weaken w,
    (encode_near o ho fb ((abs_sub_le _ _ _).trans (add_le_add (eb.trans ty) lb))).weaken w,
    (encode_near o ho fc ((abs_sub_le _ _ _).trans (add_le_add (ec.trans ty) lc))).weaken w⟩

/-- C118: so with up to 10 bits the codes obtained are within 0.73 of the exact values: the nearest code, or one of the two nearest. -/
theorem C118_codes (o : F32.Oracle) (ho : o.PowAccurate (2 ^ (-22 : ℤ))) (x : F32) (s d : RGBSpace) (G H : Gamut ℝ)
    (hG : Realises G s.published) (hH : Realises H d.published) (N M i j k : ℕ) (hN : 0 < N) (hN' : N ≤ 65535) (hM : M ≤ 1023)
    (hi : i ≤ N) (hj : j ≤ N) (hk : k ≤ N) (c : Tristimulus ℝ) (hc : H.toXYZ c = G.toXYZ (srgbPixel N i j k)) (p q r : ℕ) :
    letI := F32.libm o
    HasCodes M p q r (toScreen .SRGB ((toScene .SRGB (pixel N i j k) x).apply (GamutConvert s.gamut d.gamut)) x) →
    |srgb (clampTo 0 1 c.a) * M - p| < 0.73 ∧ |srgb (clampTo 0 1 c.b) * M - q| < 0.73 ∧ |srgb (clampTo 0 1 c.c) * M - r| < 0.73 := by
  intro h
  obtain ⟨A, B, C⟩ := C118_convert o ho x s d G H hG hH N i j k hN hN' hi hj hk c hc
  obtain ⟨-, ha, hb, hc⟩ := h
  have M1 : (M : ℝ) ≤ 1023 := by exact_mod_cast hM
  have M0 : (0 : ℝ) ≤ M := by positivity
  have key : ∀ {y : F32} {z : ℝ} {n : ℕ}, Ap y z 2.2e-4 → |y.val * M - n| < 1 / 2 → |z * M - n| < 0.73 := by
    intro y z n h1 h2
    have h3 : |(y.val : ℝ) * M - n| < 1 / 2 := by
      have := (Rat.cast_lt (K := ℝ)).2 h2
      push_cast at this; exact this
    have h4 := h1.err
    rw [abs_sub_comm] at h4
    have h5 : |z * M - y.val * M| ≤ 2.2e-4 * 1023 := by
      rw [← sub_mul, abs_mul, abs_of_nonneg M0]
      exact mul_le_mul h4 M1 M0 (by norm_num)
    have := abs_sub_le (z * M) (y.val * M) n
    linarith
  exact ⟨key A ha, key B hb, key C hc⟩

/-- The hypotheses are met: such functions, spaces and components exist. -/
example : (∃ o : F32.Oracle, o.PowAccurate (2 ^ (-22 : ℤ))) ∧ ∃ G H : Gamut ℝ, Realises G RGBSpace.rec709.published ∧
    Realises H RGBSpace.rec2020.published ∧ ∃ c, H.toXYZ c = G.toXYZ (srgbPixel 255 200 100 50) := by
  obtain ⟨o, p⟩ := exists_powAccurate
  refine ⟨⟨o, fun x y a b c d e => ?_⟩, _, _, RGBSpace.realises _, RGBSpace.realises _, exists_components _ _ (RGBSpace.realises _)⟩
  obtain ⟨f, g⟩ := p x y a b c d e
  refine ⟨f, g.trans ?_⟩
  have : (0 : ℝ) < (x.val : ℝ) ^ (y.val : ℝ) := lt_of_lt_of_le (by positivity) d
  gcongr <;> norm_num

end CS
