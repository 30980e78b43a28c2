import Verif.Props.Float
import Verif.Lemmas.FloatHSV

/-!
# C63, C64: HSV in binary32
-/

namespace CS
open B32 F32 Tristimulus

/-- Specification: the largest of three numbers. -/
def Spec.hiQ (r g b : ℚ) : ℚ := max (max r g) b
/-- Specification: the smallest of three numbers. -/
def Spec.loQ (r g b : ℚ) : ℚ := min (min r g) b
/-- Specification: the hexagonal hue in degrees, between -60 and 300 (0 for greys). -/
def Spec.hexHue (r g b : ℚ) : ℚ :=
  if hiQ r g b = loQ r g b then 0
  else if hiQ r g b = r then 60 * (g - b) / (hiQ r g b - loQ r g b)
  else if hiQ r g b = g then 60 * (b - r) / (hiQ r g b - loQ r g b) + 120
  else 60 * (r - g) / (hiQ r g b - loQ r g b) + 240

namespace F32

theorem plus {x l : F32} {h n e : ℚ} (hx : x.Is h) (hh : |h| ≤ 64) (hl : l.Is n) (hn : n = 120 ∨ n = 240)
    (he : |h - e| ≤ 1 / 50000) : ∃ r, Is (x + l) r ∧ -64 ≤ r ∧ r ≤ 304 ∧ |r - (e + n)| ≤ 1 / 25000 := by
  have hb := abs_le.1 hh
  have r64 : Rep (-64) := by exact_mod_cast rep_int (n := -64) (by norm_num)
  have r304 : Rep 304 := by exact_mod_cast rep_int (n := 304) (by norm_num)
  have h1 : -64 ≤ rnd (h + n) := le_rnd r64 (by rcases hn with rfl | rfl <;> linarith)
  have h2 : rnd (h + n) ≤ 304 := rnd_le r304 (by rcases hn with rfl | rfl <;> linarith)
  refine ⟨_, hx.add_rnd hl ?_, h1, h2, ?_⟩
  · exact lt_of_le_of_lt (abs_le.2 ⟨by linarith, h2⟩ : |rnd (h + n)| ≤ 304) (by norm_num)
  · have := rnd_rel' (h + n)
    have h3 : |h + n| ≤ 304 := abs_le.2 ⟨by rcases hn with rfl | rfl <;> linarith, by
      rcases hn with rfl | rfl <;> linarith⟩
    have t := abs_add_le (rnd (h + n) - (h + n)) (h - e)
    rw [show rnd (h + n) - (h + n) + (h - e) = rnd (h + n) - (e + n) by ring] at t
    norm_num at this ⊢
    linarith

/-- The unwrapped hue. -/
theorem rawHue_near (t : Tristimulus F32) {a b c : ℚ} (ha : t.a.Is a) (hb : t.b.Is b) (hc : t.c.Is c)
    (la : |a| ≤ 2 ^ 120) (lb : |b| ≤ 2 ^ 120) (lc : |c| ≤ 2 ^ 120) :
    ∃ h, Is (rawHue t) h ∧ -64 ≤ h ∧ h ≤ 304 ∧ |h - Spec.hexHue a b c| ≤ 1 / 25000 := by
  have iM : Is (maxi (maxi t.a t.b) t.c) (Spec.hiQ a b c) := (ha.maxi hb).maxi hc
  have im : Is (mini (mini t.a t.b) t.c) (Spec.loQ a b c) := (ha.mini hb).mini hc
  have hA : a ≤ Spec.hiQ a b c := (le_max_left _ _).trans (le_max_left _ _)
  have hB : b ≤ Spec.hiQ a b c := (le_max_right _ _).trans (le_max_left _ _)
  have hC : c ≤ Spec.hiQ a b c := le_max_right _ _
  have lA : Spec.loQ a b c ≤ a := (min_le_left _ _).trans (min_le_left _ _)
  have lB : Spec.loQ a b c ≤ b := (min_le_left _ _).trans (min_le_right _ _)
  have lC : Spec.loQ a b c ≤ c := min_le_right _ _
  have hM : Spec.hiQ a b c ≤ 2 ^ 120 :=
    max_le (max_le (abs_le.1 la).2 (abs_le.1 lb).2) (abs_le.1 lc).2
  have hm : -2 ^ 120 ≤ Spec.loQ a b c :=
    le_min (le_min (abs_le.1 la).1 (abs_le.1 lb).1) (abs_le.1 lc).1
  unfold rawHue Spec.hexHue
  simp only
  generalize maxi (maxi t.a t.b) t.c = fM at *
  generalize mini (mini t.a t.b) t.c = fm at *
  generalize Spec.hiQ a b c = M at *
  generalize Spec.loQ a b c = m at *
  rw [iM.eq im, iM.eq ha, iM.eq hb]
  by_cases e0 : M = m
  · rw [if_pos (by simpa using e0), if_pos e0]
    exact ⟨0, is0, by norm_num, by norm_num, by norm_num⟩
  have hlt : m < M := lt_of_le_of_ne (lA.trans hA) (Ne.symm e0)
  have hb121 : M - m ≤ 2 ^ 121 := by norm_num at hM hm ⊢; linarith
  have r121 : Rep (2 ^ 121) := by exact_mod_cast rep_two_zpow (e := 121) (by norm_num)
  have hd : Is (fM - fm) (rnd (M - m)) := iM.sub_rnd im (by
    rw [abs_of_nonneg (rnd_nonneg (by linarith))]
    exact (rnd_le r121 hb121).trans_lt (by norm_num))
  rw [if_neg (by simpa using e0), if_neg e0]
  by_cases e1 : M = a
  · rw [if_pos (by simpa using e1), if_pos e1]
    obtain ⟨h, i, h1, h2⟩ := sector hb hc iM.rep im.rep rfl hd hlt
      (abs_le.2 ⟨by linarith, by linarith⟩) hb121
    have := abs_le.1 h1
    exact ⟨h, i, by linarith, by linarith, h2.trans (by norm_num)⟩
  rw [if_neg (by simpa using e1), if_neg e1]
  by_cases e2 : M = b
  · rw [if_pos (by simpa using e2), if_pos e2]
    obtain ⟨h, i, h1, h2⟩ := sector hc ha iM.rep im.rep rfl hd hlt
      (abs_le.2 ⟨by linarith, by linarith⟩) hb121
    exact plus i h1 is120 (.inl rfl) h2
  rw [if_neg (by simpa using e2), if_neg e2]
  obtain ⟨h, i, h1, h2⟩ := sector ha hb iM.rep im.rep rfl hd hlt
    (abs_le.2 ⟨by linarith, by linarith⟩) hb121
  exact plus i h1 is240 (.inr rfl) h2

/-- The wrap of such a hue. -/
theorem wrap_near {x : F32} {h e : ℚ} (hx : x.Is h) (h1 : -64 ≤ h) (h2 : h ≤ 304) (he : |h - e| ≤ 1 / 25000) :
    ∃ y r, mod360 x = some y ∧ y.Is r ∧ 0 ≤ r ∧ r ≤ 360 ∧ ∃ n : ℤ, |r - (e + 360 * n)| ≤ 1 / 10000 := by
  rcases le_or_gt 0 h with h0 | h0
  · refine ⟨x, h, mod360_here hx h0 (by linarith), hx, h0, by linarith, 0, ?_⟩
    rw [Int.cast_zero, mul_zero, add_zero]; exact he.trans (by norm_num)
  · have r360 : Rep 360 := by exact_mod_cast rep_int (n := 360) (by norm_num)
    have g0 : 0 ≤ rnd (h + 360) := rnd_nonneg (by linarith)
    have g1 : rnd (h + 360) ≤ 360 := rnd_le r360 (by linarith)
    have i := hx.add_rnd is360 (by rw [abs_of_nonneg g0]; exact g1.trans_lt (by norm_num))
    refine ⟨_, _, ?_, i, g0, g1, 1, ?_⟩
    · rw [mod360, hx.lt is0, if_pos (by simpa using h0)]
      exact mod360_here i g0 g1
    · have := rnd_rel' (h + 360)
      rw [abs_of_pos (by linarith : 0 < h + 360)] at this
      have t := abs_add_le (rnd (h + 360) - (h + 360)) (h - e)
      rw [show rnd (h + 360) - (h + 360) + (h - e) = rnd (h + 360) - (e + 360 * ((1 : ℤ) : ℚ)) by push_cast; ring] at t
      norm_num at this t ⊢
      linarith

end F32

/-- C63: in binary32, with any libm, `toHSV` of finite components of magnitude at most `2^120` returns a
finite hue in `[0, 360]`, within `1e-4` degrees (modulo a full turn) of the exact hexagonal hue, and its value
is exactly the largest component. -/
theorem C63_hue (t : Tristimulus F32) (ha : t.a.isFinite = true) (hb : t.b.isFinite = true)
    (hc : t.c.isFinite = true) (la : |t.a.val| ≤ 2 ^ 120) (lb : |t.b.val| ≤ 2 ^ 120) (lc : |t.c.val| ≤ 2 ^ 120) :
    ∃ o, toHSV t = some o ∧ o.a.isFinite = true ∧ 0 ≤ o.a.val ∧ o.a.val ≤ 360 ∧
      (∃ n : ℤ, |o.a.val - (Spec.hexHue t.a.val t.b.val t.c.val + 360 * n)| ≤ 1 / 10000) ∧
      o.c ∈ [t.a, t.b, t.c] ∧ o.c.val = Spec.hiQ t.a.val t.b.val t.c.val := by
  obtain ⟨h, ih, h1, h2, h3⟩ := rawHue_near t (.of _ ha) (.of _ hb) (.of _ hc) la lb lc
  obtain ⟨y, r, e, iy, g0, g1, n, hn⟩ := wrap_near ih h1 h2 h3
  refine ⟨_, by rw [toHSV, e]; rfl, iy.1, by rw [iy.2]; exact g0, by rw [iy.2]; exact g1, ⟨n, by rw [iy.2]; exact hn⟩,
    ?_, (((Is.of _ ha).maxi (.of _ hb)).maxi (.of _ hc)).2⟩
  simp only [maxi]
  split_ifs <;> simp

/-- C63: for non-negative components the saturation is finite, in `[0, 1]` and within `2^-22` of the exact
`(max - min) / max`. -/
theorem C63_saturation (t : Tristimulus F32) (ha : t.a.isFinite = true) (hb : t.b.isFinite = true)
    (hc : t.c.isFinite = true) (na : 0 ≤ t.a.val) (nb : 0 ≤ t.b.val) (nc : 0 ≤ t.c.val) (o : Tristimulus F32)
    (ho : toHSV t = some o) :
    o.b.isFinite = true ∧ 0 ≤ o.b.val ∧ o.b.val ≤ 1 ∧
    (Spec.hiQ t.a.val t.b.val t.c.val ≠ 0 →
      |o.b.val - (Spec.hiQ t.a.val t.b.val t.c.val - Spec.loQ t.a.val t.b.val t.c.val) /
        Spec.hiQ t.a.val t.b.val t.c.val| ≤ 1 / 2 ^ 22) := by
  have iM : Is (maxi (maxi t.a t.b) t.c) (Spec.hiQ t.a.val t.b.val t.c.val) :=
    ((Is.of _ ha).maxi (.of _ hb)).maxi (.of _ hc)
  have im : Is (mini (mini t.a t.b) t.c) (Spec.loQ t.a.val t.b.val t.c.val) :=
    ((Is.of _ ha).mini (.of _ hb)).mini (.of _ hc)
  have hmn : 0 ≤ Spec.loQ t.a.val t.b.val t.c.val := le_min (le_min na nb) nc
  have hle : Spec.loQ t.a.val t.b.val t.c.val ≤ Spec.hiQ t.a.val t.b.val t.c.val :=
    ((min_le_left _ _).trans (min_le_left _ _)).trans ((le_max_left _ _).trans (le_max_left _ _))
  obtain ⟨hue, -, rfl⟩ := Option.map_eq_some_iff.1 ho
  simp only
  generalize maxi (maxi t.a t.b) t.c = fM at *
  generalize mini (mini t.a t.b) t.c = fm at *
  generalize Spec.hiQ t.a.val t.b.val t.c.val = M at *
  generalize Spec.loQ t.a.val t.b.val t.c.val = m at *
  rw [iM.eq is0]
  by_cases e0 : M = 0
  · rw [if_pos (by simpa using e0)]
    exact ⟨is0.1, by rw [is0.2], by rw [is0.2]; norm_num, fun h => absurd e0 h⟩
  rw [if_neg (by simpa using e0)]
  have hpos : 0 < M := lt_of_le_of_ne (hmn.trans hle) (Ne.symm e0)
  have d0 : 0 ≤ rnd (M - m) := rnd_nonneg (by linarith)
  have d1 : rnd (M - m) ≤ M := rnd_le iM.rep (by linarith)
  have id := iM.sub_rnd im (by
    rw [abs_of_nonneg d0]; exact d1.trans_lt ((le_abs_self _).trans_lt iM.abs_lt))
  have q0 : 0 ≤ rnd (M - m) / M := by positivity
  have q1 : rnd (M - m) / M ≤ 1 := (div_le_one hpos).2 d1
  have s0 := rnd_nonneg q0
  have s1 := rnd_le rep_one q1
  have is := id.div_rnd iM e0 (by rw [abs_of_nonneg s0]; exact s1.trans_lt (by norm_num))
  refine ⟨is.1, by rw [is.2]; exact s0, by rw [is.2]; exact s1, fun _ => ?_⟩
  rw [is.2]
  have e1 := rnd_rel' (rnd (M - m) / M)
  rw [abs_of_nonneg q0] at e1
  have e2 := rnd_sub_rel iM.rep im.rep
  rw [abs_of_nonneg (by linarith : 0 ≤ M - m)] at e2
  have e3 : |rnd (M - m) / M - (M - m) / M| ≤ 1 / 2 ^ 24 := by
    rw [← sub_div, abs_div, abs_of_pos hpos, div_le_iff₀ hpos]
    refine e2.trans ?_
    rw [div_mul_eq_mul_div, one_mul]
    gcongr; linarith
  have t := abs_add_le (rnd (rnd (M - m) / M) - rnd (M - m) / M) (rnd (M - m) / M - (M - m) / M)
  rw [sub_add_sub_cancel] at t
  norm_num at e1 e3 ⊢
  linarith

/-- C63: a grey has hue and saturation exactly `+0` (no `0/0`), black included. -/
theorem C63_grey (x : F32) (hx : x.isFinite = true) :
    ∃ o, toHSV ⟨x, x, x⟩ = some o ∧ o.a = zero false ∧ (x.val ≠ 0 → o.b.Is 0) ∧ (x.val = 0 → o.b = zero false) ∧
      o.c = x := by
  have ix := Is.of x hx
  have hM : maxi (maxi x x) x = x := by simp [maxi]
  have hm : mini (mini x x) x = x := by simp [mini]
  have hr : rawHue (⟨x, x, x⟩ : Tristimulus F32) = lit 0 := by
    unfold rawHue; simp only [hM, hm]; rw [ix.eq ix]; simp
  have hw : mod360 (lit 0 : F32) = some (lit 0) := mod360_here is0 le_rfl (by norm_num)
  refine ⟨_, by rw [toHSV, hr, hw]; rfl, lit_zero, ?_, ?_, hM⟩
  · intro h0
    simp only [hM, hm]
    rw [ix.eq is0, if_neg (by simpa using h0)]
    have h1 : Is (x - x) 0 := by
      have := ix.sub ix (by rw [sub_self]; exact rep_zero) (by rw [sub_self]; norm_num)
      rwa [sub_self] at this
    have := h1.div ix h0 (by rw [zero_div]; exact rep_zero) (by rw [zero_div]; norm_num)
    rwa [zero_div] at this
  · intro h0
    simp only [hM, hm]
    rw [ix.eq is0, if_pos (by simpa using h0), lit_zero]

/-- C63 applies to `(0.25, 0.5, 1)`. -/
example : ((lit (1/4) : F32).isFinite = true ∧ (lit (1/2) : F32).isFinite = true ∧ (lit 1 : F32).isFinite = true) ∧
    |(lit (1/4) : F32).val| ≤ 2 ^ 120 ∧ Spec.hexHue (1/4) (1/2) 1 = 220 := by
  have r4 : Rep (1 / 4) := ⟨1, -2, by norm_num, by norm_num, by norm_num⟩
  have r2 : Rep (1 / 2) := ⟨1, -1, by norm_num, by norm_num, by norm_num⟩
  have i4 : Is (lit (1/4)) (1/4) := Is.lit r4 (by norm_num)
  have i2 : Is (lit (1/2)) (1/2) := Is.lit r2 (by norm_num)
  refine ⟨⟨i4.1, i2.1, is1.1⟩, by rw [i4.2]; norm_num, ?_⟩
  norm_num [Spec.hexHue, Spec.hiQ, Spec.loQ]

/-! ## C64: `fromHSV` in binary32 -/

namespace F32
/-- A factor in `[0, 1]` keeps a product inside `[0, v]`. -/
theorem scaled {v y : F32} {q k : ℚ} (hv : v.Is q) (hq : 0 ≤ q) (hy : y.Is k) (k0 : 0 ≤ k) (k1 : k ≤ 1) :
    ∃ r, Is (v * y) r ∧ 0 ≤ r ∧ r ≤ q := by
  have h0 : 0 ≤ rnd (q * k) := rnd_nonneg (by positivity)
  have h1 : rnd (q * k) ≤ q := rnd_le hv.rep (by nlinarith)
  exact ⟨_, hv.mul_rnd hy (by rw [abs_of_nonneg h0]; exact h1.trans_lt ((le_abs_self _).trans_lt hv.abs_lt)), h0, h1⟩

/-- `1 - y` for `y` in `[0, 1]`. -/
theorem compl {y : F32} {k : ℚ} (hy : y.Is k) (k0 : 0 ≤ k) (k1 : k ≤ 1) :
    ∃ r, Is (lit 1 - y) r ∧ 0 ≤ r ∧ r ≤ 1 := by
  have h0 : 0 ≤ rnd (1 - k) := rnd_nonneg (by linarith)
  have h1 : rnd (1 - k) ≤ 1 := rnd_le rep_one (by linarith)
  exact ⟨_, is1.sub_rnd hy (by rw [abs_of_nonneg h0]; exact h1.trans_lt (by norm_num)), h0, h1⟩

/-- `fromHSV` after the wrap. -/
theorem fromHSVwrapped_ok {h s v : F32} {x k q : ℚ} (hh : h.Is x) (h0 : 0 ≤ x) (h1 : x ≤ 360) (hs : s.Is k)
    (k0 : 0 ≤ k) (k1 : k ≤ 1) (hv : v.Is q) (q0 : 0 ≤ q) :
    ∃ o, fromHSVwrapped h s v = .ok o ∧ (o.a = v ∨ o.b = v ∨ o.c = v) ∧
      ∀ z ∈ [o.a, o.b, o.c], z.isFinite = true ∧ 0 ≤ z.val ∧ z.val ≤ q := by
  have y0 : 0 ≤ rnd (x / 60) := rnd_nonneg (by positivity)
  have r6 : Rep 6 := by exact_mod_cast rep_int (n := 6) (by norm_num)
  have y1 : rnd (x / 60) ≤ 6 := rnd_le r6 (by linarith)
  have iy := hh.div_rnd is60 (by norm_num) (by rw [abs_of_nonneg y0]; exact y1.trans_lt (by norm_num))
  set y := rnd (x / 60)
  have f0 : (0 : ℤ) ≤ ⌊y⌋ := Int.floor_nonneg.2 y0
  have f1 : ⌊y⌋ ≤ 6 := by
    have := Int.floor_le_floor y1
    simpa using this
  have ti : Arith.toInt (h / lit 60) = some ⌊y⌋ := by
    show F32.toInt _ = _
    rw [toInt_finite iy.1, iy.2]
    unfold trunc
    rw [if_pos y0, if_pos ⟨by unfold intMin; omega, by unfold intMax; omega⟩]
  have ifl : Is (Arith.ofInt ⌊y⌋) ⌊y⌋ := Is.ofInt (by rw [abs_of_nonneg f0]; omega)
  have g0 : (0 : ℚ) ≤ y - ⌊y⌋ := by linarith [Int.floor_le y]
  have g1 : y - ⌊y⌋ ≤ 1 := by linarith [Int.lt_floor_add_one y]
  have r0 := rnd_nonneg g0
  have r1 := rnd_le rep_one g1
  have ir := iy.sub_rnd ifl (by rw [abs_of_nonneg r0]; exact r1.trans_lt (by norm_num))
  unfold fromHSVwrapped
  rw [ti]
  simp only
  obtain ⟨c1, i1, a1, b1⟩ := compl hs k0 k1
  obtain ⟨m, im, m0, m1⟩ := scaled hv q0 i1 a1 b1
  obtain ⟨c2, i2, a2, b2⟩ := scaled hs k0 ir r0 r1
  obtain ⟨c3, i3, a3, b3⟩ := compl i2 a2 (b2.trans k1)
  obtain ⟨n, hn, n0, n1⟩ := scaled hv q0 i3 a3 b3
  obtain ⟨c4, i4, a4, b4⟩ := compl ir r0 r1
  obtain ⟨c5, i5, a5, b5⟩ := scaled hs k0 i4 a4 b4
  obtain ⟨c6, i6, a6, b6⟩ := compl i5 a5 (b5.trans k1)
  obtain ⟨p, ip, p0, p1⟩ := scaled hv q0 i6 a6 b6
  have V : v.isFinite = true ∧ 0 ≤ v.val ∧ v.val ≤ q := ⟨hv.1, by rw [hv.2]; exact q0, by rw [hv.2]⟩
  have M := And.intro im.1 (And.intro (im.2.symm ▸ m0) (im.2.symm ▸ m1))
  have N := And.intro hn.1 (And.intro (hn.2.symm ▸ n0) (hn.2.symm ▸ n1))
  have P := And.intro ip.1 (And.intro (ip.2.symm ▸ p0) (ip.2.symm ▸ p1))
  refine ⟨_, rfl, ?_, ?_⟩
  · have hd : (⌊y⌋.tmod 6 = 0 ∨ ⌊y⌋.tmod 6 = 1 ∨ ⌊y⌋.tmod 6 = 2 ∨ ⌊y⌋.tmod 6 = 3 ∨ ⌊y⌋.tmod 6 = 4 ∨
        ⌊y⌋.tmod 6 = 5) := by
      rw [Int.tmod_eq_emod_of_nonneg f0]; omega
    rcases hd with e | e | e | e | e | e <;> simp [e]
  · have hd : (⌊y⌋.tmod 6 = 0 ∨ ⌊y⌋.tmod 6 = 1 ∨ ⌊y⌋.tmod 6 = 2 ∨ ⌊y⌋.tmod 6 = 3 ∨ ⌊y⌋.tmod 6 = 4 ∨
        ⌊y⌋.tmod 6 = 5) := by
      rw [Int.tmod_eq_emod_of_nonneg f0]; omega
    intro z hz
    simp only [List.mem_cons, List.not_mem_nil, or_false] at hz
    rcases hd with e | e | e | e | e | e <;> simp only [e] at hz <;> rcases hz with rfl | rfl | rfl <;>
      first | exact V | exact M | exact N | exact P
end F32

/-- C64: in binary32, for every finite hue of magnitude at most `2^33`, every saturation in `[0, 1]` and every
finite value `v ≥ 0`, `fromHSV` returns without undefined behaviour; every component is finite and in `[0, v]`,
and one of them is `v` itself, bit for bit. -/
theorem C64_range (t : Tristimulus F32) (ha : t.a.isFinite = true) (la : |t.a.val| ≤ 2 ^ 33)
    (hb : t.b.isFinite = true) (b0 : 0 ≤ t.b.val) (b1 : t.b.val ≤ 1) (hc : t.c.isFinite = true)
    (c0 : 0 ≤ t.c.val) :
    ∃ o, fromHSV t = some (.ok o) ∧ t.c ∈ [o.a, o.b, o.c] ∧
      ∀ z ∈ [o.a, o.b, o.c], z.isFinite = true ∧ 0 ≤ z.val ∧ z.val ≤ t.c.val := by
  obtain ⟨y, e, hy, y0, y1⟩ := C14_returns t.a ha la
  obtain ⟨o, ho, hv, hz⟩ := fromHSVwrapped_ok (.of y hy) y0 y1 (.of _ hb) b0 b1 (.of _ hc) c0
  refine ⟨o, by rw [fromHSV, e, Option.map_some, ho], ?_, hz⟩
  rcases hv with h | h | h <;> rw [h] <;> simp

/-- C64: the value survives `fromHSV` followed by `toHSV` exactly (its number, the sign of zero aside). -/
theorem C64_value_roundtrip (t : Tristimulus F32) (ha : t.a.isFinite = true) (la : |t.a.val| ≤ 2 ^ 33)
    (hb : t.b.isFinite = true) (b0 : 0 ≤ t.b.val) (b1 : t.b.val ≤ 1) (hc : t.c.isFinite = true)
    (c0 : 0 ≤ t.c.val) (c1 : t.c.val ≤ 2 ^ 120) :
    ∃ o t', fromHSV t = some (.ok o) ∧ toHSV o = some t' ∧ t'.c.isFinite = true ∧ t'.c.val = t.c.val ∧
      0 ≤ t'.b.val ∧ t'.b.val ≤ 1 := by
  obtain ⟨o, ho, hv, hz⟩ := C64_range t ha la hb b0 b1 hc c0
  have za := hz o.a (by simp)
  have zb := hz o.b (by simp)
  have zc := hz o.c (by simp)
  have small : ∀ z : F32, 0 ≤ z.val → z.val ≤ t.c.val → |z.val| ≤ 2 ^ 120 := fun z z0 z1 => by
    rw [abs_of_nonneg z0]; exact z1.trans c1
  obtain ⟨t', e, -, -, -, -, hm, hval⟩ := C63_hue o za.1 zb.1 zc.1 (small _ za.2.1 za.2.2) (small _ zb.2.1 zb.2.2)
    (small _ zc.2.1 zc.2.2)
  have hs := C63_saturation o za.1 zb.1 zc.1 za.2.1 zb.2.1 zc.2.1 t' e
  refine ⟨o, t', ho, e, (hz _ hm).1, ?_, hs.2.1, hs.2.2.1⟩
  refine le_antisymm (hz _ hm).2.2 ?_
  rw [hval]
  simp only [List.mem_cons, List.not_mem_nil, or_false] at hv
  rcases hv with h | h | h <;> rw [h] <;> unfold Spec.hiQ
  · exact (le_max_left _ _).trans (le_max_left _ _)
  · exact (le_max_right _ _).trans (le_max_left _ _)
  · exact le_max_right _ _

/-- C64: a NaN hue is undefined behaviour: the cast to `int` of a NaN. -/
theorem C64_nan (s v : F32) : fromHSV ⟨nan, s, v⟩ = some (.error .badCast) := by
  rw [fromHSV, C14_nan]
  rfl

/-- C64 applies to hue 725, saturation one half, value 1. -/
example : (lit 725 : F32).Is 725 ∧ (lit (1/2) : F32).Is (1/2) ∧ (lit 1 : F32).Is 1 :=
  ⟨by exact_mod_cast isInt 725, Is.lit ⟨1, -1, by norm_num, by norm_num, by norm_num⟩ (by norm_num), is1⟩

end CS
