import Verif.Lemmas.HSV

/-!
# C12, C13: HSV  (exact arithmetic)
-/

namespace CS
open Tristimulus

/-- Specification: the largest / smallest of the three components. -/
noncomputable def Spec.hi (t : Tristimulus ℝ) : ℝ := max (max t.a t.b) t.c
/-- Specification: the smallest of the three components. -/
noncomputable def Spec.lo (t : Tristimulus ℝ) : ℝ := min (min t.a t.b) t.c

theorem rawHue_real (t : Tristimulus ℝ) : rawHue t =
    if Spec.hi t = Spec.lo t then 0
    else if Spec.hi t = t.a then 60 * (t.b - t.c) / (Spec.hi t - Spec.lo t)
    else if Spec.hi t = t.b then 60 * (t.c - t.a) / (Spec.hi t - Spec.lo t) + 120
    else 60 * (t.a - t.b) / (Spec.hi t - Spec.lo t) + 240 := by
  simp only [rawHue, maxi_real, mini_real, Spec.hi, Spec.lo, eq_real, lit_real]
  norm_num
  congr

theorem toHSV_real (t : Tristimulus ℝ) : toHSV t =
    (mod360 (rawHue t)).map fun h =>
      ⟨h, if Spec.hi t = 0 then 0 else (Spec.hi t - Spec.lo t) / Spec.hi t, Spec.hi t⟩ := by
  simp [toHSV, maxi_real, mini_real, Spec.hi, Spec.lo]
  congr

/-- C13: `toHSV` always returns, with a hue in `[0, 360]`, and the value is the largest component. -/
theorem C13_range (t : Tristimulus ℝ) : ∃ o, toHSV t = some o ∧ 0 ≤ o.a ∧ o.a ≤ 360 ∧
    o.c = Spec.hi t ∧ (0 ≤ t.a → 0 ≤ t.b → 0 ≤ t.c → 0 ≤ o.b ∧ o.b ≤ 1) := by
  obtain ⟨k, x, e, -, h0, h1⟩ := mod360_real (rawHue t)
  refine ⟨_, by rw [toHSV_real, e]; rfl, h0, h1, rfl, ?_⟩
  intro ha hb hc
  have hlo : 0 ≤ Spec.lo t := le_min (le_min ha hb) hc
  have hle : Spec.lo t ≤ Spec.hi t :=
    (min_le_left _ _).trans ((min_le_left _ _).trans ((le_max_left _ _).trans (le_max_left _ _)))
  simp only
  split
  · norm_num
  · next h =>
    have hpos : 0 < Spec.hi t := lt_of_le_of_ne (hlo.trans hle) (Ne.symm h)
    constructor
    · apply div_nonneg <;> linarith
    · rw [div_le_one hpos]; linarith

/-- The wrapped hue as an explicit function of the components: `toHSV` succeeds with hue `60 * x`
where `x` lies in the sector of the colour. -/
theorem hsv_core (a b c : ℝ) (hne : Spec.hi ⟨a, b, c⟩ ≠ Spec.lo ⟨a, b, c⟩) (s : ℝ)
    (hs : Spec.hi ⟨a, b, c⟩ * s = Spec.hi ⟨a, b, c⟩ - Spec.lo ⟨a, b, c⟩) :
    ∃ h, mod360 (rawHue (⟨a, b, c⟩ : Tristimulus ℝ)) = some h ∧ 0 ≤ h ∧ h ≤ 360 ∧
      fromHSVwrapped h s (Spec.hi ⟨a, b, c⟩) = .ok ⟨a, b, c⟩ := by
  have hA : a ≤ Spec.hi ⟨a, b, c⟩ := (le_max_left _ _).trans (le_max_left _ _)
  have hB : b ≤ Spec.hi ⟨a, b, c⟩ := (le_max_right _ _).trans (le_max_left _ _)
  have hC : c ≤ Spec.hi ⟨a, b, c⟩ := le_max_right _ _
  have lA : Spec.lo ⟨a, b, c⟩ ≤ a := (min_le_left _ _).trans (min_le_left _ _)
  have lB : Spec.lo ⟨a, b, c⟩ ≤ b := (min_le_left _ _).trans (min_le_right _ _)
  have lC : Spec.lo ⟨a, b, c⟩ ≤ c := min_le_right _ _
  have hcases : Spec.hi ⟨a, b, c⟩ = a ∨ Spec.hi ⟨a, b, c⟩ = b ∨ Spec.hi ⟨a, b, c⟩ = c := by
    unfold Spec.hi
    rcases max_choice (max a b) c with h | h
    · rcases max_choice a b with h' | h'
      · left; exact h.trans h'
      · right; left; exact h.trans h'
    · right; right; exact h
  have lcases : Spec.lo ⟨a, b, c⟩ = a ∨ Spec.lo ⟨a, b, c⟩ = b ∨ Spec.lo ⟨a, b, c⟩ = c := by
    unfold Spec.lo
    rcases min_choice (min a b) c with h | h
    · rcases min_choice a b with h' | h'
      · left; exact h.trans h'
      · right; left; exact h.trans h'
    · right; right; exact h
  rw [rawHue_real, if_neg hne]
  generalize Spec.hi ⟨a, b, c⟩ = M at *
  generalize Spec.lo ⟨a, b, c⟩ = L at *
  simp only
  have hLM : L < M := lt_of_le_of_ne (lA.trans hA) (Ne.symm hne)
  have hd : 0 < M - L := by linarith
  -- a helper: for sector `k` and fraction `r`
  have m_eq : M * (1 - s) = L := by linear_combination -hs
  have n_eq : ∀ r, M * (1 - s * r) = M - (M - L) * r := by intro r; linear_combination -r * hs
  have p_eq : ∀ r, M * (1 - s * (1 - r)) = L + (M - L) * r := by
    intro r; linear_combination (r - 1) * hs
  have sector : ∀ (k : ℕ) (x : ℝ), k ≤ 5 → (k : ℝ) ≤ x → x < k + 1 →
      fromHSVwrapped (60 * x) s M = .ok (
        if k % 6 = 0 then ⟨M, L + (M - L) * (x - k), L⟩
        else if k % 6 = 1 then ⟨M - (M - L) * (x - k), M, L⟩
        else if k % 6 = 2 then ⟨L, M, L + (M - L) * (x - k)⟩
        else if k % 6 = 3 then ⟨L, M - (M - L) * (x - k), M⟩
        else if k % 6 = 4 then ⟨L + (M - L) * (x - k), L, M⟩
        else ⟨M, L, M - (M - L) * (x - k)⟩) := by
    intro k x hk h0 h1
    have e : 60 * x / 60 = x := by ring
    rw [fromHSVwrapped_of (k := k) (by rw [e]; exact h0) (by rw [e]; exact h1) (by omega)]
    simp only [e, m_eq, p_eq]
    simp only [n_eq]
  by_cases hMa : M = a
  · rw [if_pos hMa]
    have hx : 60 * (b - c) / (M - L) = 60 * ((b - c) / (M - L)) := by ring
    rw [hx]
    have hq : (M - L) * ((b - c) / (M - L)) = b - c := by field_simp
    have hle : (b - c) / (M - L) ≤ 1 := by rw [div_le_one hd]; linarith
    have hge : -1 ≤ (b - c) / (M - L) := by rw [le_div_iff₀ hd]; linarith
    generalize (b - c) / (M - L) = x at *
    rcases le_or_gt 0 x with h0 | h0
    · have hbc : c ≤ b := by nlinarith
      have hLc : L = c := by
        rcases lcases with h | h | h
        · exact absurd (hMa.trans h.symm) hne
        · exact le_antisymm lC (by rw [h]; exact hbc)
        · exact h
      refine ⟨60 * x, mod360_mid (by linarith) (by linarith), by linarith, by linarith, ?_⟩
      rcases hle.lt_or_eq with h1 | h1
      · rw [sector 0 x (by norm_num) (by simpa using h0) (by simpa using h1)]
        simp only [Nat.zero_mod, if_true, Nat.cast_zero, sub_zero, hq]
        congr 1; ext <;> simp only <;> linarith
      · rw [sector 1 x (by norm_num) (by rw [h1]; norm_num) (by rw [h1]; norm_num)]
        subst h1
        simp only [Nat.cast_one, sub_self, mul_zero]
        norm_num
        refine ⟨hMa, ?_, hLc⟩
        linarith
    · have hbc : b < c := by nlinarith
      have hLb : L = b := by
        rcases lcases with h | h | h
        · exact absurd (hMa.trans h.symm) hne
        · exact h
        · exfalso; linarith
      refine ⟨60 * (6 + x), ?_, by linarith, by linarith, ?_⟩
      · rw [mod360_neg (by linarith), show 60 * x + 360 = 60 * (6 + x) by ring]
        exact mod360_mid (by linarith) (by linarith)
      · rw [sector 5 (6 + x) (by norm_num) (by norm_num; linarith) (by norm_num; linarith)]
        norm_num
        refine ⟨hMa, hLb, ?_⟩
        linear_combination hLb - hq
  · rw [if_neg hMa]
    have haM : a < M := lt_of_le_of_ne hA (Ne.symm hMa)
    by_cases hMb : M = b
    · rw [if_pos hMb]
      have hx : 60 * (c - a) / (M - L) + 120 = 60 * (2 + (c - a) / (M - L)) := by ring
      rw [hx]
      have hq : (M - L) * ((c - a) / (M - L)) = c - a := by field_simp
      have hle : (c - a) / (M - L) ≤ 1 := by rw [div_le_one hd]; linarith
      have hge : -1 < (c - a) / (M - L) := by rw [lt_div_iff₀ hd]; linarith
      generalize (c - a) / (M - L) = x at *
      refine ⟨60 * (2 + x), mod360_mid (by linarith) (by linarith), by linarith, by linarith, ?_⟩
      rcases le_or_gt 0 x with h0 | h0
      · have hca : a ≤ c := by nlinarith
        have hLa : L = a := by
          rcases lcases with h | h | h
          · exact h
          · exfalso; exact hne (hMb.trans h.symm)
          · exact le_antisymm lA (by rw [h]; exact hca)
        rcases hle.lt_or_eq with h1 | h1
        · rw [sector 2 (2 + x) (by norm_num) (by norm_num; linarith) (by norm_num; linarith)]
          norm_num
          refine ⟨hLa, hMb, ?_⟩
          linear_combination hq + hLa
        · rw [sector 3 (2 + x) (by norm_num) (by rw [h1]; norm_num) (by rw [h1]; norm_num)]
          subst h1
          norm_num
          refine ⟨hLa, hMb, ?_⟩
          linarith
      · have hca : c < a := by nlinarith
        have hLc : L = c := by
          rcases lcases with h | h | h
          · exfalso; linarith
          · exfalso; exact hne (hMb.trans h.symm)
          · exact h
        rw [sector 1 (2 + x) (by norm_num) (by norm_num; linarith) (by norm_num; linarith)]
        norm_num
        refine ⟨?_, hMb, hLc⟩
        linear_combination hLc - hq
    · rw [if_neg hMb]
      have hbM : b < M := lt_of_le_of_ne hB (Ne.symm hMb)
      have hMc : M = c := by
        rcases hcases with h | h | h
        · exact absurd h hMa
        · exact absurd h hMb
        · exact h
      have hx : 60 * (a - b) / (M - L) + 240 = 60 * (4 + (a - b) / (M - L)) := by ring
      rw [hx]
      have hq : (M - L) * ((a - b) / (M - L)) = a - b := by field_simp
      have hle : (a - b) / (M - L) < 1 := by rw [div_lt_one hd]; linarith
      have hge : -1 < (a - b) / (M - L) := by rw [lt_div_iff₀ hd]; linarith
      generalize (a - b) / (M - L) = x at *
      refine ⟨60 * (4 + x), mod360_mid (by linarith) (by linarith), by linarith, by linarith, ?_⟩
      rcases le_or_gt 0 x with h0 | h0
      · have hab : b ≤ a := by nlinarith
        have hLb : L = b := by
          rcases lcases with h | h | h
          · exact le_antisymm lB (by rw [h]; exact hab)
          · exact h
          · exfalso; exact hne (hMc.trans h.symm)
        rw [sector 4 (4 + x) (by norm_num) (by norm_num; linarith) (by norm_num; linarith)]
        norm_num
        refine ⟨?_, hLb, hMc⟩
        linear_combination hq + hLb
      · have hab : a < b := by nlinarith
        have hLa : L = a := by
          rcases lcases with h | h | h
          · exact h
          · exfalso; linarith
          · exfalso; exact hne (hMc.trans h.symm)
        rw [sector 3 (4 + x) (by norm_num) (by norm_num; linarith) (by norm_num; linarith)]
        norm_num
        refine ⟨hLa, ?_, hMc⟩
        linear_combination hLa - hq

/-! ## C12 -/

/-- C12: RGB → HSV → RGB returns the colour, for every colour whose largest component is not zero
(negative components and components above 1 included). -/
theorem C12_roundtrip (t : Tristimulus ℝ) (h : Spec.hi t ≠ 0) :
    (toHSV t).bind fromHSV = some (.ok t) := by
  obtain ⟨a, b, c⟩ := t
  rw [toHSV_real]
  by_cases hne : Spec.hi ⟨a, b, c⟩ = Spec.lo ⟨a, b, c⟩
  · have e : rawHue (⟨a, b, c⟩ : Tristimulus ℝ) = 0 := by rw [rawHue_real, if_pos hne]
    have hA : a ≤ Spec.hi ⟨a, b, c⟩ := (le_max_left _ _).trans (le_max_left _ _)
    have hB : b ≤ Spec.hi ⟨a, b, c⟩ := (le_max_right _ _).trans (le_max_left _ _)
    have hC : c ≤ Spec.hi ⟨a, b, c⟩ := le_max_right _ _
    have lA : Spec.lo ⟨a, b, c⟩ ≤ a := (min_le_left _ _).trans (min_le_left _ _)
    have lB : Spec.lo ⟨a, b, c⟩ ≤ b := (min_le_left _ _).trans (min_le_right _ _)
    have lC : Spec.lo ⟨a, b, c⟩ ≤ c := min_le_right _ _
    rw [e, mod360_mid le_rfl (by norm_num)]
    simp only [Option.map_some, Option.bind_some, fromHSV, hne, sub_self, zero_div]
    rw [mod360_mid le_rfl (by norm_num), Option.map_some,
      fromHSVwrapped_of (k := 0) (by norm_num) (by norm_num) (by norm_num)]
    rw [hne] at hA hB hC
    simp only [Nat.zero_mod, if_true]
    congr 2
    ext <;> simp <;> linarith
  · obtain ⟨hh, e, h0, h1, hr⟩ := hsv_core a b c hne
      ((Spec.hi ⟨a, b, c⟩ - Spec.lo ⟨a, b, c⟩) / Spec.hi ⟨a, b, c⟩) (mul_div_cancel₀ _ h)
    rw [e]
    simp only [Option.map_some, Option.bind_some, fromHSV, if_neg h]
    rw [mod360_mid h0 h1, Option.map_some, hr]

/-- C12: when the largest component is zero the result is black: the round trip keeps black and
loses every colour with a negative component. -/
theorem C12_zero_max (t : Tristimulus ℝ) (h : Spec.hi t = 0) :
    (toHSV t).bind fromHSV = some (.ok ⟨0, 0, 0⟩) := by
  rw [toHSV_real]
  obtain ⟨k, x, e, -, h0, h1⟩ := mod360_real (rawHue t)
  rw [e]
  simp only [Option.map_some, Option.bind_some, fromHSV, h, if_true]
  rw [mod360_mid h0 h1, Option.map_some]
  have hfl : ∃ k : ℕ, (k : ℝ) ≤ x / 60 ∧ x / 60 < k + 1 ∧ k ≤ 100 := by
    refine ⟨⌊x / 60⌋₊, Nat.floor_le (by linarith), Nat.lt_floor_add_one _, ?_⟩
    apply Nat.floor_le_of_le
    norm_num
    linarith
  obtain ⟨k, hk0, hk1, hk2⟩ := hfl
  rw [fromHSVwrapped_of hk0 hk1 hk2]
  simp

/-- Colours meeting the hypotheses of the two theorems, one of them out of gamut. -/
example : Spec.hi ⟨0.25, -0.5, 3⟩ ≠ 0 ∧ Spec.hi ⟨0, -1, -2⟩ = 0 := by
  constructor
  · norm_num [Spec.hi, max_def]
  · norm_num [Spec.hi, max_def]

/-! ## C13 -/

/-- C13: HSV → RGB → HSV. -/
theorem C13_roundtrip (h s v : ℝ) (h0 : 0 ≤ h) (h1 : h < 360) (s0 : 0 < s) (v0 : 0 < v) :
    ∃ t, fromHSV ⟨h, s, v⟩ = some (.ok t) ∧ toHSV t = some ⟨h, s, v⟩ := by
  have hvs : 0 < v * s := mul_pos v0 s0
  obtain ⟨x, rfl⟩ : ∃ x, h = 60 * x := ⟨h / 60, by ring⟩
  have e60 : 60 * x / 60 = x := by ring
  have hx0 : 0 ≤ x := by linarith
  have hx6 : x < 6 := by linarith
  have hfl0 := Nat.floor_le hx0
  have hfl1 := Nat.lt_floor_add_one x
  have hk6 : ⌊x⌋₊ < 6 := by
    rw [Nat.floor_lt hx0]; exact_mod_cast hx6
  generalize ⌊x⌋₊ = k at *
  simp only [fromHSV]
  rw [mod360_mid h0 h1.le, Option.map_some]
  rw [fromHSVwrapped_of (k := k) (by rw [e60]; exact hfl0) (by rw [e60]; exact hfl1) (by omega)]
  refine ⟨_, rfl, ?_⟩
  simp only [e60]
  obtain ⟨r, rfl⟩ : ∃ r, x = k + r := ⟨x - k, by ring⟩
  simp only [add_sub_cancel_left]
  have hr0 : 0 ≤ r := by linarith
  have hr1 : r < 1 := by linarith
  have hm : v * (1 - s) = v - v * s := by ring
  have hn : v * (1 - s * r) = v - (v * s) * r := by ring
  have hp : v * (1 - s * (1 - r)) = v - v * s + (v * s) * r := by ring
  rw [hm, hn, hp]
  have hsv : (v * s) / v = s := by field_simp
  generalize hD : v * s = D at *
  have hDr0 : 0 ≤ D * r := mul_nonneg hvs.le hr0
  have hDr1 : D * r < D := by nlinarith
  have fin : ∀ t : Tristimulus ℝ, Spec.hi t = v → Spec.lo t = v - D →
      mod360 (rawHue t) = some (60 * (k + r)) → toHSV t = some ⟨60 * (k + r), s, v⟩ := by
    intro t ht hl hh
    rw [toHSV_real, hh, ht, hl, if_neg v0.ne']
    simp only [Option.map_some, sub_sub_cancel, hsv]
  have hne : ∀ t : Tristimulus ℝ, Spec.hi t = v → Spec.lo t = v - D → Spec.hi t ≠ Spec.lo t := by
    intro t ht hl; rw [ht, hl]; intro h; linarith
  have q : ∀ y : ℝ, 60 * (D * y) / (v - (v - D)) = 60 * y := by
    intro y; rw [sub_sub_cancel]; field_simp
  interval_cases k <;> norm_num at hfl0 hfl1 h0 h1 ⊢
  · have ht : Spec.hi ⟨v, v - D + D * r, v - D⟩ = v := by
      simp only [Spec.hi]; rw [max_eq_left (by linarith : v - D + D * r ≤ v), max_eq_left (by linarith)]
    have hl : Spec.lo ⟨v, v - D + D * r, v - D⟩ = v - D := by
      simp only [Spec.lo]; rw [min_eq_right]; apply le_min <;> linarith
    have := fin _ ht hl
    norm_num at this
    apply this
    rw [rawHue_real, if_neg (hne _ ht hl), ht, hl, if_pos rfl]
    simp only
    rw [show v - D + D * r - (v - D) = D * r by ring, q]
    exact mod360_mid (by linarith) (by linarith)
  · have ht : Spec.hi ⟨v - D * r, v, v - D⟩ = v := by
      simp only [Spec.hi]; rw [max_eq_right (by linarith : v - D * r ≤ v), max_eq_left (by linarith)]
    have hl : Spec.lo ⟨v - D * r, v, v - D⟩ = v - D := by
      simp only [Spec.lo]; rw [min_eq_right]; apply le_min <;> linarith
    have := fin _ ht hl
    norm_num at this
    apply this
    rw [rawHue_real, if_neg (hne _ ht hl), ht, hl]
    by_cases hz : v = v - D * r
    · have hr : r = 0 := by
        have : D * r = 0 := by linarith
        rcases mul_eq_zero.mp this with h | h
        · linarith
        · exact h
      subst hr
      simp only [mul_zero, sub_zero, if_true]
      rw [show v - (v - D) = D * 1 by ring, show (60 : ℝ) * (D * 1) / (D * 1) = 60 by field_simp]
      rw [mod360_mid (by norm_num) (by norm_num)]
      norm_num
    · rw [if_neg (by simpa using hz), if_pos rfl]
      simp only
      rw [show v - D - (v - D * r) = D * (r - 1) by ring, q]
      rw [mod360_mid (by linarith) (by linarith)]
      congr 1; ring
  · have ht : Spec.hi ⟨v - D, v, v - D + D * r⟩ = v := by
      simp only [Spec.hi]; rw [max_eq_right (by linarith : v - D ≤ v), max_eq_left (by linarith)]
    have hl : Spec.lo ⟨v - D, v, v - D + D * r⟩ = v - D := by
      simp only [Spec.lo]; rw [min_eq_left (by linarith : v - D ≤ v), min_eq_left (by linarith)]
    have := fin _ ht hl
    norm_num at this
    apply this
    rw [rawHue_real, if_neg (hne _ ht hl), ht, hl]
    rw [if_neg (by simp only; intro h; linarith), if_pos rfl]
    simp only
    rw [show v - D + D * r - (v - D) = D * r by ring, q]
    rw [mod360_mid (by linarith) (by linarith)]
    congr 1; ring
  · have ht : Spec.hi ⟨v - D, v - D * r, v⟩ = v := by
      simp only [Spec.hi]; rw [max_eq_right]; apply max_le <;> linarith
    have hl : Spec.lo ⟨v - D, v - D * r, v⟩ = v - D := by
      simp only [Spec.lo]; rw [min_eq_left (by linarith : v - D ≤ v - D * r), min_eq_left (by linarith)]
    have := fin _ ht hl
    norm_num at this
    apply this
    rw [rawHue_real, if_neg (hne _ ht hl), ht, hl]
    rw [if_neg (by simp only; intro h; linarith)]
    by_cases hz : v = v - D * r
    · have hr : r = 0 := by
        have : D * r = 0 := by linarith
        rcases mul_eq_zero.mp this with h | h
        · linarith
        · exact h
      subst hr
      simp only [mul_zero, sub_zero, if_true]
      rw [show v - (v - D) = D * 1 by ring, show (60 : ℝ) * (D * 1) / (D * 1) = 60 by field_simp]
      rw [mod360_mid (by norm_num) (by norm_num)]
      norm_num
    · rw [if_neg (by simpa using hz)]
      simp only
      rw [show v - D - (v - D * r) = D * (r - 1) by ring, q]
      rw [mod360_mid (by linarith) (by linarith)]
      congr 1; ring
  · have ht : Spec.hi ⟨v - D + D * r, v - D, v⟩ = v := by
      simp only [Spec.hi]; rw [max_eq_right]; apply max_le <;> linarith
    have hl : Spec.lo ⟨v - D + D * r, v - D, v⟩ = v - D := by
      simp only [Spec.lo]
      rw [min_eq_right (by linarith : v - D ≤ v - D + D * r), min_eq_left (by linarith)]
    have := fin _ ht hl
    norm_num at this
    apply this
    rw [rawHue_real, if_neg (hne _ ht hl), ht, hl]
    rw [if_neg (by simp only; intro h; linarith), if_neg (by simp only; intro h; linarith)]
    simp only
    rw [show v - D + D * r - (v - D) = D * r by ring, q]
    rw [mod360_mid (by linarith) (by linarith)]
    congr 1; ring
  · have ht : Spec.hi ⟨v, v - D, v - D * r⟩ = v := by
      simp only [Spec.hi]; rw [max_eq_left (by linarith : v - D ≤ v), max_eq_left (by linarith)]
    have hl : Spec.lo ⟨v, v - D, v - D * r⟩ = v - D := by
      simp only [Spec.lo]; rw [min_eq_right (by linarith : v - D ≤ v), min_eq_left (by linarith)]
    have := fin _ ht hl
    norm_num at this
    apply this
    rw [rawHue_real, if_neg (hne _ ht hl), ht, hl, if_pos rfl]
    simp only
    rw [show v - D - (v - D * r) = D * (r - 1) by ring, q]
    rw [mod360_neg (by linarith), mod360_mid (by linarith) (by linarith)]
    congr 1; ring

theorem fromHSVwrapped_0_360 (s v : ℝ) : fromHSVwrapped 0 s v = fromHSVwrapped 360 s v := by
  rw [fromHSVwrapped_of (k := 0) (by norm_num) (by norm_num) (by norm_num),
    fromHSVwrapped_of (k := 6) (by norm_num) (by norm_num) (by norm_num)]
  norm_num

/-- C13: `fromHSV` is 360-periodic in the hue, for every hue. -/
theorem C13_periodic (h s v : ℝ) (n : ℤ) : fromHSV ⟨h + 360 * n, s, v⟩ = fromHSV ⟨h, s, v⟩ := by
  obtain ⟨k, x, e, hk, x0, x1⟩ := mod360_real h
  obtain ⟨k', y, e', hk', y0, y1⟩ := mod360_real (h + 360 * n)
  simp only [fromHSV]
  rw [e, e', Option.map_some, Option.map_some]
  have hd : y - x = 360 * ((n + k' - k : ℤ) : ℝ) := by rw [hk, hk']; push_cast; ring
  have hlo : -1 ≤ n + k' - k := by
    by_contra hlt
    have : n + k' - k ≤ -2 := by omega
    have : ((n + k' - k : ℤ) : ℝ) ≤ -2 := by exact_mod_cast this
    linarith
  have hhi : n + k' - k ≤ 1 := by
    by_contra hlt
    have : 2 ≤ n + k' - k := by omega
    have : (2 : ℝ) ≤ ((n + k' - k : ℤ) : ℝ) := by exact_mod_cast this
    linarith
  generalize n + k' - k = j at *
  congr 1
  interval_cases j
  · have : x = 360 ∧ y = 0 := by norm_num at hd; constructor <;> linarith
    rw [this.1, this.2, fromHSVwrapped_0_360]
  · have : y = x := by norm_num at hd; linarith
    rw [this]
  · have : x = 0 ∧ y = 360 := by norm_num at hd; constructor <;> linarith
    rw [this.1, this.2, fromHSVwrapped_0_360]

/-- C13: hue 0 is red, 60 yellow, 120 green, 180 cyan, 240 blue, 300 magenta; zero saturation is grey. -/
theorem C13_anchors (s v : ℝ) :
    fromHSV ⟨0, s, v⟩ = some (.ok ⟨v, v * (1 - s), v * (1 - s)⟩) ∧
    fromHSV ⟨60, s, v⟩ = some (.ok ⟨v, v, v * (1 - s)⟩) ∧
    fromHSV ⟨120, s, v⟩ = some (.ok ⟨v * (1 - s), v, v * (1 - s)⟩) ∧
    fromHSV ⟨180, s, v⟩ = some (.ok ⟨v * (1 - s), v, v⟩) ∧
    fromHSV ⟨240, s, v⟩ = some (.ok ⟨v * (1 - s), v * (1 - s), v⟩) ∧
    fromHSV ⟨300, s, v⟩ = some (.ok ⟨v, v * (1 - s), v⟩) := by
  have key : ∀ k : ℕ, k ≤ 5 → fromHSV ⟨60 * (k : ℝ), s, v⟩ =
      some (fromHSVwrapped (60 * (k : ℝ)) s v) := by
    intro k hk
    have : (k : ℝ) ≤ 5 := by exact_mod_cast hk
    have h0 : (0 : ℝ) ≤ k := Nat.cast_nonneg k
    simp only [fromHSV]
    rw [mod360_mid (by linarith) (by linarith), Option.map_some]
  refine ⟨?_, ?_, ?_, ?_, ?_, ?_⟩
  · have := key 0 (by norm_num)
    rw [fromHSVwrapped_of (k := 0) (by norm_num) (by norm_num) (by norm_num)] at this
    norm_num at this; exact this
  · have := key 1 (by norm_num)
    rw [fromHSVwrapped_of (k := 1) (by norm_num) (by norm_num) (by norm_num)] at this
    norm_num at this; exact this
  · have := key 2 (by norm_num)
    rw [fromHSVwrapped_of (k := 2) (by norm_num) (by norm_num) (by norm_num)] at this
    norm_num at this; exact this
  · have := key 3 (by norm_num)
    rw [fromHSVwrapped_of (k := 3) (by norm_num) (by norm_num) (by norm_num)] at this
    norm_num at this; exact this
  · have := key 4 (by norm_num)
    rw [fromHSVwrapped_of (k := 4) (by norm_num) (by norm_num) (by norm_num)] at this
    norm_num at this; exact this
  · have := key 5 (by norm_num)
    rw [fromHSVwrapped_of (k := 5) (by norm_num) (by norm_num) (by norm_num)] at this
    norm_num at this; exact this

/-- A triple meeting the hypotheses of the round trip. -/
example : (0 : ℝ) ≤ 200 ∧ (200 : ℝ) < 360 ∧ (0 : ℝ) < 0.5 ∧ (0.5 : ℝ) ≤ 1 ∧ (0 : ℝ) < 4 := by norm_num

end CS
