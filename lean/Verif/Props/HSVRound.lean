import Verif.Props.HSVFloat
import Verif.Props.OTFFloat

/-!
# C89: RGB → HSV → RGB in binary32
-/

namespace CS
open B32 F32 Tristimulus

/-- How far each channel stays below the largest one, as a fraction of the range of the colour; `y` is the hue in
sixths of a turn. -/
def dip (i : Fin 3) (y : ℚ) : ℚ :=
  match i with
  | 0 => max 0 (min 1 (2 - |y - 3|))
  | 1 => max 0 (min 1 (|y - 2| - 1))
  | 2 => max 0 (min 1 (|y - 4| - 1))

theorem clip_lip {x y : ℚ} : |max 0 (min 1 x) - max 0 (min 1 y)| ≤ |x - y| := by
  rcases abs_cases (x - y) with ⟨h, h'⟩ | ⟨h, h'⟩ <;> rw [h, abs_le] <;> constructor <;>
    simp only [max_def, min_def] <;> split_ifs <;> linarith

theorem dip_mem (i : Fin 3) (y : ℚ) : 0 ≤ dip i y ∧ dip i y ≤ 1 := by
  fin_cases i <;> simp only [dip] <;> exact ⟨le_max_left _ _, max_le (by norm_num) (min_le_left _ _)⟩

theorem dip_lip (i : Fin 3) (x y : ℚ) : |dip i x - dip i y| ≤ |x - y| := by
  fin_cases i <;> simp only [dip] <;> refine clip_lip.trans ?_
  · rw [sub_sub_sub_cancel_left, abs_sub_comm x y]
    refine (abs_abs_sub_abs_le_abs_sub _ _).trans (le_of_eq ?_)
    congr 1; ring
  · rw [sub_sub_sub_cancel_right]
    refine (abs_abs_sub_abs_le_abs_sub _ _).trans (le_of_eq ?_)
    congr 1; ring
  · rw [sub_sub_sub_cancel_right]
    refine (abs_abs_sub_abs_le_abs_sub _ _).trans (le_of_eq ?_)
    congr 1; ring

theorem dip_ends (i : Fin 3) : dip i 0 = dip i 6 := by
  fin_cases i <;> norm_num [dip, abs_of_nonneg, abs_of_neg]

theorem dip_periodic (i : Fin 3) {x y δ : ℚ} (hx : 0 ≤ x ∧ x ≤ 6) (hy : 0 ≤ y ∧ y ≤ 6) (n : ℤ) (h : |x - y - 6 * n| ≤ δ) (hδ : δ < 1) :
    |dip i x - dip i y| ≤ δ := by
  obtain ⟨h1, h2⟩ := abs_le.1 h
  have n1 : n < 2 := by
    have : (n : ℚ) < 2 := by linarith [hx.1, hx.2, hy.1, hy.2]
    exact_mod_cast this
  have n2 : -2 < n := by
    have : (-2 : ℚ) < n := by linarith [hx.1, hx.2, hy.1, hy.2]
    exact_mod_cast this
  obtain rfl | rfl | rfl : n = -1 ∨ n = 0 ∨ n = 1 := by omega
  · have a := dip_lip i x 0
    have b := dip_lip i y 6
    rw [← dip_ends] at b
    rw [abs_of_nonneg (by linarith : 0 ≤ x - 0)] at a
    rw [abs_of_nonpos (by linarith : y - 6 ≤ 0)] at b
    push_cast at h2
    rw [show dip i x - dip i y = (dip i x - dip i 0) - (dip i y - dip i 0) by ring]
    refine (abs_sub _ _).trans ?_
    linarith
  · refine (dip_lip i x y).trans ?_
    simpa using h
  · have a := dip_lip i x 6
    have b := dip_lip i y 0
    rw [dip_ends] at b
    rw [abs_of_nonpos (by linarith : x - 6 ≤ 0)] at a
    rw [abs_of_nonneg (by linarith : 0 ≤ y - 0)] at b
    push_cast at h1
    rw [show dip i x - dip i y = (dip i x - dip i 6) - (dip i y - dip i 6) by ring]
    refine (abs_sub _ _).trans ?_
    linarith

theorem dip_vals {u : ℚ} (h0 : 0 ≤ u) (h1 : u ≤ 1) :
    (dip 0 u = 0 ∧ dip 1 u = 1 - u ∧ dip 2 u = 1) ∧ (dip 0 (6 - u) = 0 ∧ dip 1 (6 - u) = 1 ∧ dip 2 (6 - u) = 1 - u) ∧
    (dip 0 (2 + u) = 1 ∧ dip 1 (2 + u) = 0 ∧ dip 2 (2 + u) = 1 - u) ∧ (dip 0 (2 - u) = 1 - u ∧ dip 1 (2 - u) = 0 ∧ dip 2 (2 - u) = 1) ∧
    (dip 0 (4 + u) = 1 - u ∧ dip 1 (4 + u) = 1 ∧ dip 2 (4 + u) = 0) ∧ (dip 0 (4 - u) = 1 ∧ dip 1 (4 - u) = 1 - u ∧ dip 2 (4 - u) = 0) := by
  refine ⟨⟨?_, ?_, ?_⟩, ⟨?_, ?_, ?_⟩, ⟨?_, ?_, ?_⟩, ⟨?_, ?_, ?_⟩, ⟨?_, ?_, ?_⟩, ⟨?_, ?_, ?_⟩⟩ <;> simp only [dip, abs_eq_max_neg, max_def, min_def] <;>
    split_ifs <;> linarith

/-- The exact colour from its exact hue. -/
theorem colour_of_hue (a b c : ℚ) : ∃ (y : ℚ) (n : ℤ), 0 ≤ y ∧ y ≤ 6 ∧ Spec.hexHue a b c = 60 * (y + 6 * n) ∧
    a = Spec.hiQ a b c - (Spec.hiQ a b c - Spec.loQ a b c) * dip 0 y ∧
    b = Spec.hiQ a b c - (Spec.hiQ a b c - Spec.loQ a b c) * dip 1 y ∧
    c = Spec.hiQ a b c - (Spec.hiQ a b c - Spec.loQ a b c) * dip 2 y := by
  have hA : a ≤ Spec.hiQ a b c := (le_max_left _ _).trans (le_max_left _ _)
  have hB : b ≤ Spec.hiQ a b c := (le_max_right _ _).trans (le_max_left _ _)
  have hC : c ≤ Spec.hiQ a b c := le_max_right _ _
  have lA : Spec.loQ a b c ≤ a := (min_le_left _ _).trans (min_le_left _ _)
  have lB : Spec.loQ a b c ≤ b := (min_le_left _ _).trans (min_le_right _ _)
  have lC : Spec.loQ a b c ≤ c := min_le_right _ _
  have hcases : Spec.hiQ a b c = a ∨ Spec.hiQ a b c = b ∨ Spec.hiQ a b c = c := by unfold Spec.hiQ; grind
  have lcases : Spec.loQ a b c = a ∨ Spec.loQ a b c = b ∨ Spec.loQ a b c = c := by unfold Spec.loQ; grind
  unfold Spec.hexHue
  generalize Spec.hiQ a b c = M at *
  generalize Spec.loQ a b c = m at *
  by_cases e0 : M = m
  · subst e0
    refine ⟨0, 0, le_rfl, by norm_num, by simp, ?_, ?_, ?_⟩ <;> rw [sub_self, zero_mul] <;> linarith
  have hd : 0 < M - m := by
    have : m ≤ M := lA.trans hA
    exact sub_pos.2 (lt_of_le_of_ne this (Ne.symm e0))
  rw [if_neg e0]
  have mk : ∀ {x : ℚ}, m ≤ x → x ≤ M → ∃ u, 0 ≤ u ∧ u ≤ 1 ∧ x = m + (M - m) * u := fun {x} h1 h2 =>
    ⟨(x - m) / (M - m), div_nonneg (by linarith) hd.le, by rw [div_le_one hd]; linarith, by field_simp; ring⟩
  by_cases e1 : M = a
  · rw [if_pos e1]
    rcases lcases with l | l | l
    · exact absurd (e1.trans l.symm) e0
    · obtain ⟨u, u0, u1, hu⟩ := mk lC hC
      obtain ⟨-, ⟨d1, d2, d3⟩, -⟩ := dip_vals u0 u1
      refine ⟨6 - u, -1, by linarith, by linarith, ?_, ?_, ?_, ?_⟩
      · rw [div_eq_iff hd.ne']; push_cast; rw [← l, hu]; ring
      all_goals simp only [d1, d2, d3]; linarith
    · obtain ⟨u, u0, u1, hu⟩ := mk lB hB
      obtain ⟨⟨d1, d2, d3⟩, -⟩ := dip_vals u0 u1
      refine ⟨u, 0, by linarith, by linarith, ?_, ?_, ?_, ?_⟩
      · rw [div_eq_iff hd.ne']; push_cast; rw [← l, hu]; ring
      all_goals simp only [d1, d2, d3]; linarith
  rw [if_neg e1]
  by_cases e2 : M = b
  · rw [if_pos e2]
    rcases lcases with l | l | l
    · obtain ⟨u, u0, u1, hu⟩ := mk lC hC
      obtain ⟨-, -, ⟨d1, d2, d3⟩, -⟩ := dip_vals u0 u1
      refine ⟨2 + u, 0, by linarith, by linarith, ?_, ?_, ?_, ?_⟩
      · rw [← eq_sub_iff_add_eq, div_eq_iff hd.ne']; push_cast; rw [← l, hu]; ring
      all_goals simp only [d1, d2, d3]; linarith
    · exact absurd (e2.trans l.symm) e0
    · obtain ⟨u, u0, u1, hu⟩ := mk lA hA
      obtain ⟨-, -, -, ⟨d1, d2, d3⟩, -⟩ := dip_vals u0 u1
      refine ⟨2 - u, 0, by linarith, by linarith, ?_, ?_, ?_, ?_⟩
      · rw [← eq_sub_iff_add_eq, div_eq_iff hd.ne']; push_cast; rw [← l, hu]; ring
      all_goals simp only [d1, d2, d3]; linarith
  rw [if_neg e2]
  have e3 : M = c := by tauto
  rcases lcases with l | l | l
  · obtain ⟨u, u0, u1, hu⟩ := mk lB hB
    obtain ⟨-, -, -, -, -, ⟨d1, d2, d3⟩⟩ := dip_vals u0 u1
    refine ⟨4 - u, 0, by linarith, by linarith, ?_, ?_, ?_, ?_⟩
    · rw [← eq_sub_iff_add_eq, div_eq_iff hd.ne']; push_cast; rw [← l, hu]; ring
    all_goals simp only [d1, d2, d3]; linarith
  · obtain ⟨u, u0, u1, hu⟩ := mk lA hA
    obtain ⟨-, -, -, -, ⟨d1, d2, d3⟩, -⟩ := dip_vals u0 u1
    refine ⟨4 + u, 0, by linarith, by linarith, ?_, ?_, ?_, ?_⟩
    · rw [← eq_sub_iff_add_eq, div_eq_iff hd.ne']; push_cast; rw [← l, hu]; ring
    all_goals simp only [d1, d2, d3]; linarith
  · exact absurd (e3.trans l.symm) e0

namespace F32

theorem compl_near {y : F32} {k κ e : ℚ} (hy : y.Is k) (k0 : 0 ≤ k) (k1 : k ≤ 1) (h : |k - κ| ≤ e) :
    ∃ r, Is (lit 1 - y) r ∧ 0 ≤ r ∧ r ≤ 1 ∧ |r - (1 - κ)| ≤ e + 1 / 2 ^ 24 := by
  have h0 : 0 ≤ rnd (1 - k) := rnd_nonneg (by linarith)
  have h1 : rnd (1 - k) ≤ 1 := rnd_le rep_one (by linarith)
  refine ⟨_, is1.sub_rnd hy (by rw [abs_of_nonneg h0]; exact h1.trans_lt (by norm_num)), h0, h1, ?_⟩
  have h2 := rnd_sub_rel rep_one hy.rep
  rw [abs_of_nonneg (by linarith : 0 ≤ 1 - k)] at h2
  have h3 : (1 - k) / 2 ^ 24 ≤ 1 / 2 ^ 24 := by gcongr; linarith
  obtain ⟨a1, a2⟩ := abs_le.1 h
  obtain ⟨a3, a4⟩ := abs_le.1 h2
  rw [abs_le]; constructor <;> linarith

theorem scaled_near {v y : F32} {q k κ e : ℚ} (hv : v.Is q) (hq : 0 ≤ q) (hy : y.Is k) (k0 : 0 ≤ k) (k1 : k ≤ 1) (h : |k - κ| ≤ e) :
    ∃ r, Is (v * y) r ∧ 0 ≤ r ∧ r ≤ q ∧ |r - q * κ| ≤ q * (e + 1 / 2 ^ 24) + 1 / 2 ^ 150 := by
  have h0 : 0 ≤ rnd (q * k) := rnd_nonneg (by positivity)
  have h1 : rnd (q * k) ≤ q := rnd_le hv.rep (by nlinarith)
  refine ⟨_, hv.mul_rnd hy (by rw [abs_of_nonneg h0]; exact h1.trans_lt ((le_abs_self _).trans_lt hv.abs_lt)), h0, h1, ?_⟩
  have h2 := rnd_rel' (q * k)
  rw [abs_of_nonneg (by positivity : 0 ≤ q * k)] at h2
  have h3 : q * k / 2 ^ 24 ≤ q * (1 / 2 ^ 24) := by
    rw [mul_one_div]; gcongr; nlinarith
  have h4 : |q * k - q * κ| ≤ q * e := by
    rw [← mul_sub, abs_mul, abs_of_nonneg hq]; gcongr
  have := abs_add_le (rnd (q * k) - q * k) (q * k - q * κ)
  rw [sub_add_sub_cancel] at this
  linarith

/-- `fromHSV` after the wrap, compared with the exact colour of that hue, saturation and value. -/
theorem fromHSVwrapped_near {h s v : F32} {x k q : ℚ} (hh : h.Is x) (h0 : 0 ≤ x) (h1 : x ≤ 360) (hs : s.Is k)
    (k0 : 0 ≤ k) (k1 : k ≤ 1) (hv : v.Is q) (q0 : 0 ≤ q) :
    ∃ o, fromHSVwrapped h s v = .ok o ∧ ∃ y, 0 ≤ y ∧ y ≤ 6 ∧ |y - x / 60| ≤ 4e-7 ∧
      (∃ r, Is o.a r ∧ |r - q * (1 - k * dip 0 y)| ≤ q * 4e-7 + 1 / 2 ^ 150) ∧
      (∃ r, Is o.b r ∧ |r - q * (1 - k * dip 1 y)| ≤ q * 4e-7 + 1 / 2 ^ 150) ∧
      (∃ r, Is o.c r ∧ |r - q * (1 - k * dip 2 y)| ≤ q * 4e-7 + 1 / 2 ^ 150) := by
  have y0 : 0 ≤ rnd (x / 60) := rnd_nonneg (by positivity)
  have r6 : Rep 6 := by exact_mod_cast rep_int (n := 6) (by norm_num)
  have y1 : rnd (x / 60) ≤ 6 := rnd_le r6 (by linarith)
  have iy := hh.div_rnd is60 (by norm_num) (by rw [abs_of_nonneg y0]; exact y1.trans_lt (by norm_num))
  have hy : |rnd (x / 60) - x / 60| ≤ 4e-7 := by
    have := rnd_rel' (x / 60)
    rw [abs_of_nonneg (by positivity : 0 ≤ x / 60)] at this
    refine this.trans ?_
    have : x / 60 / 2 ^ 24 ≤ 6 / 2 ^ 24 := by gcongr; linarith
    norm_num at this ⊢
    linarith
  generalize rnd (x / 60) = y at *
  have f0 : (0 : ℤ) ≤ ⌊y⌋ := Int.floor_nonneg.2 y0
  have f1 : ⌊y⌋ ≤ 6 := by
    have := Int.floor_le_floor y1
    simpa using this
  have ti : Arith.toInt (h / lit 60) = some ⌊y⌋ := by
    show F32.toInt _ = _
    rw [toInt_finite iy.1, iy.2]
    unfold trunc
    rw [if_pos y0, if_pos ⟨by unfold intMin; omega, by unfold intMax; omega⟩]
  have ifl : Is (Arith.ofInt ⌊y⌋) ⌊y⌋ := Is.ofInt (by rw [abs_of_nonneg f0]; omega)
  have g0 : (0 : ℚ) ≤ y - ⌊y⌋ := by linarith [Int.floor_le y]
  have g1 : y - ⌊y⌋ ≤ 1 := by linarith [Int.lt_floor_add_one y]
  have r0 := rnd_nonneg g0
  have r1 := rnd_le rep_one g1
  have ir := iy.sub_rnd ifl (by rw [abs_of_nonneg r0]; exact r1.trans_lt (by norm_num))
  have rr : |rnd (y - ⌊y⌋) - (y - ⌊y⌋)| ≤ 1 / 2 ^ 24 := by
    refine (rnd_sub_rel iy.rep ifl.rep).trans ?_
    rw [abs_of_nonneg g0]; gcongr
  unfold fromHSVwrapped
  rw [ti]
  simp only
  have rest : ∃ u, u = y - ⌊y⌋ := ⟨_, rfl⟩
  obtain ⟨u, hu⟩ := rest
  rw [← hu] at rr g0 g1 r0 r1 ir
  obtain ⟨c1, i1, a1, b1, e1⟩ := compl_near hs k0 k1 (κ := k) (e := 0) (by simp)
  obtain ⟨m, im, m0, m1, em⟩ := scaled_near hv q0 i1 a1 b1 e1
  obtain ⟨c2, i2, a2, b2, e2⟩ := scaled_near hs k0 ir r0 r1 rr
  have e2' : |c2 - k * u| ≤ 3 / 2 ^ 24 := e2.trans (by norm_num; linarith)
  obtain ⟨c3, i3, a3, b3, e3⟩ := compl_near i2 a2 (b2.trans k1) e2'
  obtain ⟨n, hn, n0, n1, en⟩ := scaled_near hv q0 i3 a3 b3 e3
  obtain ⟨c4, i4, a4, b4, e4⟩ := compl_near ir r0 r1 rr
  obtain ⟨c5, i5, a5, b5, e5⟩ := scaled_near hs k0 i4 a4 b4 e4
  have e5' : |c5 - k * (1 - u)| ≤ 4 / 2 ^ 24 := e5.trans (by norm_num; linarith)
  obtain ⟨c6, i6, a6, b6, e6⟩ := compl_near i5 a5 (b5.trans k1) e5'
  obtain ⟨p, ip, p0, p1, ep⟩ := scaled_near hv q0 i6 a6 b6 e6
  have V : ∃ r, Is v r ∧ |r - q * (1 - k * 0)| ≤ q * 4e-7 + 1 / 2 ^ 150 := ⟨q, hv, by
    rw [show q - q * (1 - k * 0) = 0 by ring, abs_zero]; positivity⟩
  have M : ∃ r, Is (v * (lit 1 - s)) r ∧ |r - q * (1 - k * 1)| ≤ q * 4e-7 + 1 / 2 ^ 150 := ⟨m, im, by
    rw [mul_one]; refine em.trans ?_; gcongr; norm_num⟩
  have N : ∃ r, Is (v * (lit 1 - s * (h / lit 60 - Arith.ofInt ⌊y⌋))) r ∧ |r - q * (1 - k * u)| ≤ q * 4e-7 + 1 / 2 ^ 150 := ⟨n, hn, by
    refine en.trans ?_; gcongr; norm_num⟩
  have P : ∃ r, Is (v * (lit 1 - s * (lit 1 - (h / lit 60 - Arith.ofInt ⌊y⌋)))) r ∧ |r - q * (1 - k * (1 - u))| ≤ q * 4e-7 + 1 / 2 ^ 150 :=
    ⟨p, ip, by refine ep.trans ?_; gcongr; norm_num⟩
  have hw0 : 0 ≤ 1 - u := by linarith
  have hw1 : 1 - u ≤ 1 := by linarith
  obtain ⟨d0, -, d2, -, d4, -⟩ := dip_vals g0 g1
  obtain ⟨-, d5, -, d1, -, d3⟩ := dip_vals hw0 hw1
  refine ⟨_, rfl, y, y0, y1, hy, ?_⟩
  generalize hj : ⌊y⌋ = j at *
  have hyu : y = j + u := by rw [hu]; ring
  obtain rfl | rfl | rfl | rfl | rfl | rfl | rfl : j = 0 ∨ j = 1 ∨ j = 2 ∨ j = 3 ∨ j = 4 ∨ j = 5 ∨ j = 6 := by omega
  · rw [if_pos (by decide), show y = u by rw [hyu]; push_cast; ring, d0.1, d0.2.1, d0.2.2]
    exact ⟨V, P, M⟩
  · rw [if_neg (by decide), if_pos (by decide), show y = 2 - (1 - u) by rw [hyu]; push_cast; ring, d1.1, d1.2.1, d1.2.2, sub_sub_cancel]
    exact ⟨N, V, M⟩
  · rw [if_neg (by decide), if_neg (by decide), if_pos (by decide), show y = 2 + u by rw [hyu]; push_cast; ring, d2.1, d2.2.1, d2.2.2]
    exact ⟨M, V, P⟩
  · rw [if_neg (by decide), if_neg (by decide), if_neg (by decide), if_pos (by decide),
      show y = 4 - (1 - u) by rw [hyu]; push_cast; ring, d3.1, d3.2.1, d3.2.2, sub_sub_cancel]
    exact ⟨M, N, V⟩
  · rw [if_neg (by decide), if_neg (by decide), if_neg (by decide), if_neg (by decide), if_pos (by decide),
      show y = 4 + u by rw [hyu]; push_cast; ring, d4.1, d4.2.1, d4.2.2]
    exact ⟨P, M, V⟩
  · rw [if_neg (by decide), if_neg (by decide), if_neg (by decide), if_neg (by decide), if_neg (by decide), if_pos (by decide),
      show y = 6 - (1 - u) by rw [hyu]; push_cast; ring, d5.1, d5.2.1, d5.2.2, sub_sub_cancel]
    exact ⟨V, M, N⟩
  · push_cast at hyu
    have u0 : u = 0 := by linarith
    obtain ⟨-, d6, -⟩ := dip_vals (le_refl (0 : ℚ)) (by norm_num)
    rw [u0, sub_zero] at P
    rw [if_pos (by decide), show y = 6 - 0 by rw [hyu, u0]; ring, d6.1, d6.2.1, d6.2.2, sub_zero]
    exact ⟨V, P, M⟩

end F32

/-- C89: in binary32, every colour with finite components in `[0, 2^120]` comes back from `toHSV` followed by
`fromHSV` without undefined behaviour, each component within `3.1e-6` of the largest one (plus `2^-150`). -/
theorem C89_roundtrip (t : Tristimulus F32) (ha : t.a.isFinite = true) (hb : t.b.isFinite = true) (hc : t.c.isFinite = true)
    (na : 0 ≤ t.a.val) (nb : 0 ≤ t.b.val) (nc : 0 ≤ t.c.val) (la : t.a.val ≤ 2 ^ 120) (lb : t.b.val ≤ 2 ^ 120) (lc : t.c.val ≤ 2 ^ 120) :
    ∃ h o, toHSV t = some h ∧ fromHSV h = some (.ok o) ∧ o.a.isFinite = true ∧ o.b.isFinite = true ∧ o.c.isFinite = true ∧
      |o.a.val - t.a.val| ≤ 3.1e-6 * max (max t.a.val t.b.val) t.c.val + 1 / 2 ^ 150 ∧
      |o.b.val - t.b.val| ≤ 3.1e-6 * max (max t.a.val t.b.val) t.c.val + 1 / 2 ^ 150 ∧
      |o.c.val - t.c.val| ≤ 3.1e-6 * max (max t.a.val t.b.val) t.c.val + 1 / 2 ^ 150 := by
  obtain ⟨h, e, fh, h0, h1, ⟨n, hn⟩, -, hv⟩ := C63_hue t ha hb hc (by rwa [abs_of_nonneg na]) (by rwa [abs_of_nonneg nb])
    (by rwa [abs_of_nonneg nc])
  obtain ⟨fs, s0, s1, hs⟩ := C63_saturation t ha hb hc na nb nc h e
  obtain ⟨y, m, y0, y6, hy, eA, eB, eC⟩ := colour_of_hue t.a.val t.b.val t.c.val
  have fv : h.c.isFinite = true := by
    have : h.c = maxi (maxi t.a t.b) t.c := by
      obtain ⟨hue, -, rfl⟩ := Option.map_eq_some_iff.1 e; rfl
    rw [this]; exact (((Is.of _ ha).maxi (.of _ hb)).maxi (.of _ hc)).1
  have hM : 0 ≤ Spec.hiQ t.a.val t.b.val t.c.val := na.trans ((le_max_left _ _).trans (le_max_left _ _))
  have hm0 : 0 ≤ Spec.loQ t.a.val t.b.val t.c.val := le_min (le_min na nb) nc
  have hmM : Spec.loQ t.a.val t.b.val t.c.val ≤ Spec.hiQ t.a.val t.b.val t.c.val :=
    ((min_le_left _ _).trans (min_le_left _ _)).trans ((le_max_left _ _).trans (le_max_left _ _))
  obtain ⟨o, ho, z, z0, z6, hz, ⟨r1, i1, e1⟩, ⟨r2, i2, e2⟩, ⟨r3, i3, e3⟩⟩ :=
    fromHSVwrapped_near (.of _ fh) h0 h1 (.of _ fs) s0 s1 (.of _ fv) (hv ▸ hM)
  refine ⟨h, o, e, by rw [fromHSV, mod360_here (.of _ fh) h0 h1]; exact congrArg some ho, i1.1, i2.1, i3.1, ?_⟩
  have hd : ∀ i, |dip i z - dip i y| ≤ 2.1e-6 := by
    intro i
    refine dip_periodic i ⟨z0, z6⟩ ⟨y0, y6⟩ (m + n) ?_ (by norm_num)
    rw [hy] at hn
    rw [abs_le] at hn hz ⊢
    push_cast
    constructor <;> linarith
  rw [hv] at e1 e2 e3
  have key : ∀ i (r x : ℚ), x = Spec.hiQ t.a.val t.b.val t.c.val - (Spec.hiQ t.a.val t.b.val t.c.val - Spec.loQ t.a.val t.b.val t.c.val) * dip i y →
      |r - Spec.hiQ t.a.val t.b.val t.c.val * (1 - h.b.val * dip i z)| ≤ Spec.hiQ t.a.val t.b.val t.c.val * 4e-7 + 1 / 2 ^ 150 →
      |r - x| ≤ 3.1e-6 * max (max t.a.val t.b.val) t.c.val + 1 / 2 ^ 150 := by
    intro i r x hx hr
    show _ ≤ 3.1e-6 * Spec.hiQ t.a.val t.b.val t.c.val + _
    generalize Spec.hiQ t.a.val t.b.val t.c.val = M at *
    generalize Spec.loQ t.a.val t.b.val t.c.val = l at *
    have hdl := dip_mem i z
    have hdi := hd i
    generalize dip i z = d at *
    generalize dip i y = d' at *
    have k1 : |M * h.b.val * d - (M - l) * d'| ≤ M * 2.5e-6 := by
      rcases hM.eq_or_lt with z | pos
      · have : l = 0 := by linarith
        rw [← z, this]; simp
      have hs := hs pos.ne'
      have hs' : |M * h.b.val - (M - l)| ≤ M / 2 ^ 22 := by
        have : M * h.b.val - (M - l) = M * (h.b.val - (M - l) / M) := by field_simp
        rw [this, abs_mul, abs_of_pos pos, div_eq_mul_one_div M (2 ^ 22)]
        exact mul_le_mul_of_nonneg_left hs hM
      have a1 : |(M * h.b.val - (M - l)) * d| ≤ M / 2 ^ 22 := by
        rw [abs_mul, abs_of_nonneg hdl.1]
        exact (mul_le_of_le_one_right (abs_nonneg _) hdl.2).trans hs'
      have a2 : |(M - l) * (d - d')| ≤ M * 2.1e-6 := by
        rw [abs_mul, abs_of_nonneg (by linarith : 0 ≤ M - l)]
        exact mul_le_mul (by linarith) hdi (abs_nonneg _) hM
      have := abs_add_le ((M * h.b.val - (M - l)) * d) ((M - l) * (d - d'))
      rw [show (M * h.b.val - (M - l)) * d + (M - l) * (d - d') = M * h.b.val * d - (M - l) * d' by ring] at this
      have a3 : M / 2 ^ 22 ≤ M * 3e-7 := by
        rw [div_eq_mul_one_div]; exact mul_le_mul_of_nonneg_left (by norm_num) hM
      linarith
    obtain ⟨b1, b2⟩ := abs_le.1 hr
    obtain ⟨b3, b4⟩ := abs_le.1 k1
    rw [hx, abs_le]
    constructor <;> linarith
  rw [i1.2, i2.2, i3.2]
  exact ⟨key 0 _ _ eA e1, key 1 _ _ eB e2, key 2 _ _ eC e3⟩

/-- C89: a colour whose channels are codes of up to 16 bits, each divided by `N` in binary32, has the same codes after
the round trip: each channel times `N` is within `0.3` of its code. -/
theorem C89_codes (N i j k : ℕ) (hN : N ≤ 65535) (N0 : 0 < N) (hi : i ≤ N) (hj : j ≤ N) (hk : k ≤ N) :
    ∃ h o, toHSV (⟨Arith.ofInt i / Arith.ofInt N, Arith.ofInt j / Arith.ofInt N, Arith.ofInt k / Arith.ofInt N⟩ : Tristimulus F32) = some h ∧
      fromHSV h = some (.ok o) ∧ |o.a.val * N - i| < 3 / 10 ∧ |o.b.val * N - j| < 3 / 10 ∧ |o.c.val * N - k| < 3 / 10 := by
  have big : (1 : ℚ) ≤ 2 ^ 120 := by norm_num
  have near : ∀ {l : ℕ}, l ≤ N → |rnd (l / N : ℚ) - l / N| ≤ 6e-8 := by
    intro l hl
    have q0 : (0 : ℚ) ≤ l / N := by positivity
    have q1 : (l / N : ℚ) ≤ 1 := by rw [div_le_one (by positivity)]; exact_mod_cast hl
    have h1 := rnd_rel' (l / N : ℚ)
    rw [abs_of_nonneg q0] at h1
    have h3 : (l / N : ℚ) / 2 ^ 24 ≤ 1 / 2 ^ 24 := div_le_div_of_nonneg_right q1 (by positivity)
    refine h1.trans ((add_le_add_left h3 _).trans (by norm_num))
  obtain ⟨fa, va, a0, a1⟩ := code_val N0 hN hi
  obtain ⟨fb, vb, b0, b1⟩ := code_val N0 hN hj
  obtain ⟨fc, vc, c0, c1⟩ := code_val N0 hN hk
  obtain ⟨h, o, e, e', -, -, -, h1, h2, h3⟩ := C89_roundtrip ⟨Arith.ofInt i / Arith.ofInt N, Arith.ofInt j / Arith.ofInt N, Arith.ofInt k / Arith.ofInt N⟩
    fa fb fc (va ▸ a0) (vb ▸ b0) (vc ▸ c0) (va ▸ a1.trans big) (vb ▸ b1.trans big) (vc ▸ c1.trans big)
  refine ⟨h, o, e, e', ?_⟩
  simp only [va, vb, vc] at h1 h2 h3
  have top : (3.1e-6 : ℚ) * max (max (rnd (i / N : ℚ)) (rnd (j / N : ℚ))) (rnd (k / N : ℚ)) + 1 / 2 ^ 150 ≤ 3.2e-6 := by
    have := max_le (max_le a1 b1) c1
    have s : (1 : ℚ) / 2 ^ 150 ≤ 1e-7 := by norm_num
    linarith
  have fin : ∀ {l : ℕ} {x : ℚ}, l ≤ N → |x - rnd (l / N : ℚ)| ≤ 3.2e-6 → |x * N - l| < 3 / 10 := by
    intro l x hl hx
    have hn := near hl
    have hN' : (N : ℚ) ≤ 65535 := by exact_mod_cast hN
    have Np : (0 : ℚ) < N := by exact_mod_cast N0
    have h4 : |x - l / N| ≤ 3.3e-6 := by
      rw [abs_le] at hn hx ⊢; constructor <;> linarith
    have h5 : x * N - l = (x - l / N) * N := by field_simp
    rw [h5, abs_mul, abs_of_pos Np]
    have : |x - l / N| * N ≤ 3.3e-6 * 65535 := mul_le_mul h4 hN' Np.le (by norm_num)
    exact this.trans_lt (by norm_num)
  exact ⟨fin hi (h1.trans top), fin hj (h2.trans top), fin hk (h3.trans top)⟩

/-- C89 applies to the 8-bit colour (64, 128, 255). -/
example : (64 : ℕ) ≤ 255 ∧ (128 : ℕ) ≤ 255 ∧ (255 : ℕ) ≤ 255 ∧ (255 : ℕ) ≤ 65535 := by norm_num

end CS
