import Verif.Lemmas.Float
import Verif.Lemmas.Spectrum
import Verif.Model.Delta

/-!
# Properties in binary32 arithmetic (C14, C15, C60 and clauses of C38, C39, C45)
-/

namespace CS
open F32 B32 Tristimulus

/-! ## C14: the hue wrap -/

namespace F32
theorem is360 : Is (lit 360) 360 := by
  have := Is.litInt (n := 360) (by norm_num); exact_mod_cast this
theorem is0 : Is (lit 0) 0 := by
  have := Is.litInt (n := 0) (by norm_num); exact_mod_cast this

/-- Rounding a number of magnitude at most `2^33` moves it by at most 256. -/
theorem rnd_near {q : ℚ} (h : |q| ≤ 2 ^ 33) : |rnd q - q| ≤ 256 := by
  rcases h.lt_or_eq with h | h
  · have he : ex q ≤ 9 := ex_le_of_lt (by norm_num) (by norm_num; norm_num at h; exact h)
    refine (rnd_err q).trans ?_
    have : (2 : ℚ) ^ ex q ≤ 2 ^ (9 : ℤ) := zpow_le_zpow_right₀ (by norm_num) he
    norm_num at this
    linarith
  · have hr : Rep q := by
      rcases abs_choice q with h' | h'
      · rw [← h', h]; exact_mod_cast rep_two_zpow (e := 33) (by norm_num)
      · have : q = -(2 ^ 33) := by rw [← h, h', neg_neg]
        rw [this]; exact rep_neg (by exact_mod_cast rep_two_zpow (e := 33) (by norm_num))
    rw [rnd_of_rep hr]; norm_num

theorem lt_2_128 {q : ℚ} (h : |q| ≤ 2 ^ 34) : |q| < 2 ^ 128 := h.trans_lt (by norm_num)

/-- One step of the wrap from above. -/
theorem sub360 {x : F32} {r : ℚ} (hx : x.Is r) (h0 : 360 < r) (h1 : r ≤ 2 ^ 33) :
    ∃ r', Is (x - lit 360) r' ∧ 0 ≤ r' ∧ r' ≤ r - 104 := by
  have hn := rnd_near (q := r - 360) (by rw [abs_of_pos (by linarith)]; linarith)
  have h2 := rnd_nonneg (q := r - 360) (by linarith)
  have h3 := (abs_le.1 hn).2
  refine ⟨_, hx.sub_rnd is360 (lt_2_128 ?_), h2, by linarith⟩
  rw [abs_of_nonneg h2]; linarith

/-- One step of the wrap from below. -/
theorem add360 {x : F32} {r : ℚ} (hx : x.Is r) (h0 : r < 0) (h1 : -2 ^ 33 ≤ r) :
    ∃ r', Is (x + lit 360) r' ∧ r' ≤ 360 ∧ r + 104 ≤ r' := by
  have hn := rnd_near (q := r + 360) (by rw [abs_le]; constructor <;> linarith)
  have h2 : rnd (r + 360) ≤ 360 := rnd_le (by exact_mod_cast rep_int (n := 360) (by norm_num)) (by linarith)
  have h3 := (abs_le.1 hn).1
  refine ⟨_, hx.add_rnd is360 (lt_2_128 ?_), h2, by linarith⟩
  rw [abs_le]; constructor <;> linarith

theorem mod360_here {x : F32} {r : ℚ} (hx : x.Is r) (h0 : 0 ≤ r) (h1 : r ≤ 360) : mod360 x = some x := by
  rw [mod360, hx.lt is0, is360.lt hx, if_neg (by simp; linarith), if_neg (by simp; linarith)]

theorem mod360_high (n : ℕ) : ∀ {x : F32} {r : ℚ}, x.Is r → 0 ≤ r → r ≤ 2 ^ 33 → r ≤ 104 * n →
    ∃ y s, mod360 x = some y ∧ y.Is s ∧ 0 ≤ s ∧ s ≤ 360 := by
  induction n with
  | zero =>
    intro x r hx h0 _ h2
    have : r ≤ 360 := by norm_num at h2; linarith
    exact ⟨x, r, mod360_here hx h0 this, hx, h0, this⟩
  | succ n ih =>
    intro x r hx h0 h1 h2
    rcases le_or_gt r 360 with h | h
    · exact ⟨x, r, mod360_here hx h0 h, hx, h0, h⟩
    · obtain ⟨r', hr', h3, h4⟩ := sub360 hx h h1
      obtain ⟨y, s, h5, h6⟩ := ih hr' h3 (by linarith) (by push_cast at h2; linarith)
      refine ⟨y, s, ?_, h6⟩
      rw [mod360, hx.lt is0, is360.lt hx, if_neg (by simp; linarith), if_pos (by simpa using h)]
      exact h5

theorem mod360_low (n : ℕ) : ∀ {x : F32} {r : ℚ}, x.Is r → r ≤ 360 → -2 ^ 33 ≤ r → -r ≤ 104 * n →
    ∃ y s, mod360 x = some y ∧ y.Is s ∧ 0 ≤ s ∧ s ≤ 360 := by
  induction n with
  | zero =>
    intro x r hx h0 _ h2
    have : 0 ≤ r := by norm_num at h2; linarith
    exact ⟨x, r, mod360_here hx this h0, hx, this, h0⟩
  | succ n ih =>
    intro x r hx h0 h1 h2
    rcases le_or_gt 0 r with h | h
    · exact ⟨x, r, mod360_here hx h h0, hx, h, h0⟩
    · obtain ⟨r', hr', h3, h4⟩ := add360 hx h h1
      obtain ⟨y, s, h5, h6⟩ := ih hr' h3 (by linarith) (by push_cast at h2; linarith)
      refine ⟨y, s, ?_, h6⟩
      rw [mod360, hx.lt is0, if_pos (by simpa using h)]
      exact h5

/-- Beyond `2^33`, subtracting 360 changes nothing. -/
theorem stuck {r : ℚ} (hr : Rep r) (h : 2 ^ 33 < r) : rnd (r - 360) = r := by
  have hpos : 0 < r := by linarith
  obtain ⟨m, e, h1, h2, h3⟩ := hr
  have he := Rep.exp_le h1 h2 h3
  have hex : 10 ≤ ex r := le_ex_of_le (by rw [abs_of_pos hpos]; norm_num; norm_num at h; exact h.le)
  have hk : ∃ k : ℤ, r = k * 1024 := by
    refine ⟨m * 2 ^ (e - 10).toNat, ?_⟩
    push_cast
    rw [h1, ← zpow_natCast, Int.toNat_of_nonneg (by omega), mul_assoc,
      show (1024 : ℚ) = 2 ^ (10 : ℤ) by norm_num, ← zpow_add₀ (by norm_num), sub_add_cancel]
  have hr2 : 2 ^ 33 + 1024 ≤ r := by
    obtain ⟨k, hk⟩ := hk
    have : (2 ^ 23 : ℚ) < k := by rw [hk] at h; norm_num at h ⊢; linarith
    have : (2 ^ 23 : ℤ) < k := by exact_mod_cast this
    have : (2 ^ 23 + 1 : ℤ) ≤ k := by omega
    have : (2 ^ 23 + 1 : ℚ) ≤ k := by exact_mod_cast this
    rw [hk]; norm_num at this ⊢; linarith
  have hp2 : 0 < r - 360 := by linarith
  have h10 : 10 ≤ ex (r - 360) := le_ex_of_le (by rw [abs_of_pos hp2]; norm_num; norm_num at hr2; linarith)
  have hle : ex (r - 360) ≤ e := (ex_mono (by rw [abs_of_pos hp2, abs_of_pos hpos]; linarith)).trans he
  set d := ex (r - 360) with hd
  have hmul : r = ((m * 2 ^ (e - d).toNat : ℤ) : ℚ) * 2 ^ d := by
    push_cast
    rw [← zpow_natCast, Int.toNat_of_nonneg (by omega), mul_assoc, ← zpow_add₀ (by norm_num), sub_add_cancel, h1]
  have hd2 : (1024 : ℚ) ≤ 2 ^ d := by
    have := zpow_le_zpow_right₀ (by norm_num : (1 : ℚ) ≤ 2) h10
    norm_num at this ⊢; exact this
  have hrne : rne ((r - 360) / 2 ^ d) = m * 2 ^ (e - d).toNat := by
    apply rne_eq_of_lt
    have hdp := two_zpow_pos d
    rw [show (r - 360) / 2 ^ d - ((m * 2 ^ (e - d).toNat : ℤ) : ℚ) = -(360 / 2 ^ d) by
      rw [eq_comm, neg_eq_iff_eq_neg, neg_sub, eq_sub_iff_add_eq, ← add_div]
      rw [div_eq_iff hdp.ne', ← hmul]; ring]
    rw [abs_neg, abs_of_pos (by positivity), div_lt_iff₀ hdp]
    linarith
  unfold rnd
  rw [← hd, hrne, ← hmul]

/-- The data on which the wrap loops: infinities and finite numbers beyond `2^33`. -/
def Stuck (x : F32) : Prop := x = inf true ∨ x = inf false ∨ (x.isFinite = true ∧ 2 ^ 33 < |x.val|)

theorem stuck_sub {x : F32} {r : ℚ} (hx : x.Is r) (h : 2 ^ 33 < r) : Is (x - lit 360) r := by
  have hrep : Rep r := hx.2 ▸ rep_val x
  have := hx.sub_rnd is360 (by rw [stuck hrep h, ← hx.2]; exact abs_val_lt x)
  rwa [stuck hrep h] at this

theorem stuck_add {x : F32} {r : ℚ} (hx : x.Is r) (h : r < -2 ^ 33) : Is (x + lit 360) r := by
  have hrep : Rep r := hx.2 ▸ rep_val x
  have h2 : rnd (r + 360) = r := by
    have := stuck (rep_neg hrep) (by linarith)
    rw [show -r - 360 = -(r + 360) by ring, rnd_neg] at this
    linarith
  have := hx.add_rnd is360 (by rw [h2, ← hx.2]; exact abs_val_lt x)
  rwa [h2] at this

theorem mod360_stuck (x : F32) (h : Stuck x) : mod360 x = none := by
  by_contra hne
  obtain ⟨y, hy⟩ := Option.ne_none_iff_exists'.1 hne
  refine mod360.partial_correctness (motive := fun x _ => ¬ Stuck x) ?_ x y hy h
  intro f ih x y hxy hst
  have hinf : (lit 360 : F32) = num 360 ⟨by norm_num, by exact_mod_cast rep_int (n := 360) (by norm_num), by norm_num⟩ :=
    pack_of_rep _
  rcases hst with rfl | rfl | ⟨hf, hv⟩
  · have h1 : Arith.lt (inf true) (lit 0 : F32) = true := by rw [lit_zero]; rfl
    rw [if_pos h1] at hxy
    refine ih _ _ hxy (.inl ?_)
    rw [hinf]; rfl
  · have h1 : Arith.lt (inf false) (lit 0 : F32) = false := by rw [lit_zero]; rfl
    have h2 : Arith.lt (lit 360 : F32) (inf false) = true := by rw [hinf]; rfl
    rw [h1, if_neg Bool.false_ne_true, if_pos h2] at hxy
    refine ih _ _ hxy (.inr (.inl ?_))
    rw [hinf]; rfl
  · have hx := Is.of x hf
    rcases lt_abs.1 hv with h1 | h1
    · rw [hx.lt is0, is360.lt hx, if_neg (by simp; linarith), if_pos (by simp; linarith)] at hxy
      have h2 := stuck_sub hx h1
      exact ih _ _ hxy (.inr (.inr ⟨h2.1, by rw [h2.2]; exact hv⟩))
    · rw [hx.lt is0, if_pos (by simp; linarith)] at hxy
      have h2 := stuck_add hx (by linarith)
      exact ih _ _ hxy (.inr (.inr ⟨h2.1, by rw [h2.2]; exact hv⟩))
end F32

/-- C14: for finite hues up to `2^33` in magnitude the wrap returns a value in `[0, 360]`. -/
theorem C14_returns (x : F32) (hx : x.isFinite = true) (h : |x.val| ≤ 2 ^ 33) :
    ∃ y, mod360 x = some y ∧ y.isFinite = true ∧ 0 ≤ y.val ∧ y.val ≤ 360 := by
  obtain ⟨hl, hh⟩ := abs_le.1 h
  have hcase : ∃ y s, mod360 x = some y ∧ y.Is s ∧ 0 ≤ s ∧ s ≤ 360 := by
    rcases le_or_gt 0 x.val with h0 | h0
    · obtain ⟨n, hn⟩ := exists_nat_ge (x.val / 104)
      exact mod360_high n (Is.of x hx) h0 hh (by rw [div_le_iff₀ (by norm_num)] at hn; linarith)
    · obtain ⟨n, hn⟩ := exists_nat_ge (-x.val / 104)
      exact mod360_low n (Is.of x hx) (by linarith) hl (by rw [div_le_iff₀ (by norm_num)] at hn; linarith)
  obtain ⟨y, s, h1, h2, h3, h4⟩ := hcase
  exact ⟨y, h1, h2.1, h2.2.symm ▸ h3, h2.2.symm ▸ h4⟩

/-- C14: for larger finite hues and for infinities it recurses for ever. -/
theorem C14_diverges (x : F32) (hx : x.isNaN = false) (h : x.isFinite = true → 2 ^ 33 < |x.val|) :
    mod360 x = none := by
  apply mod360_stuck
  rcases nan_or hx with h1 | h1 | h1
  · exact .inl h1
  · exact .inr (.inl h1)
  · exact .inr (.inr ⟨h1, h h1⟩)

/-- C14: NaN is returned. -/
theorem C14_nan : mod360 nan = some nan := by
  rw [mod360]
  rw [lt_nan_left, lt_nan_right, if_neg Bool.false_ne_true, if_neg Bool.false_ne_true]

/-- C14: exactly which data the wrap returns on. -/
theorem C14_iff (x : F32) :
    (∃ y, mod360 x = some y) ↔ x = nan ∨ (x.isFinite = true ∧ |x.val| ≤ 2 ^ 33) := by
  constructor
  · rintro ⟨y, hy⟩
    by_cases hn : x.isNaN = true
    · exact .inl (isNaN_iff.1 hn)
    · right
      by_contra hcon
      have := C14_diverges x (by simpa using hn) (fun hf => by
        by_contra h'; exact hcon ⟨hf, not_lt.1 h'⟩)
      rw [this] at hy; cases hy
  · rintro (rfl | ⟨h1, h2⟩)
    · exact ⟨nan, C14_nan⟩
    · obtain ⟨y, hy, _⟩ := C14_returns x h1 h2; exact ⟨y, hy⟩

/-- Both sides occur: 720 degrees is wrapped, `2^34` is not. -/
example : (∃ y, mod360 (lit 720 : F32) = some y) ∧ mod360 (lit (2 ^ 34) : F32) = none := by
  have h1 : Is (lit 720) 720 := by
    have := Is.litInt (n := 720) (by norm_num); exact_mod_cast this
  have h2 : Is (lit (2 ^ 34)) (2 ^ 34) :=
    Is.lit (by exact_mod_cast rep_two_zpow (e := 34) (by norm_num)) (by norm_num)
  exact ⟨(C14_iff _).2 (.inr ⟨h1.1, by rw [h1.2]; norm_num⟩),
    mod360_stuck _ (.inr (.inr ⟨h2.1, by rw [h2.2]; norm_num⟩))⟩

/-! ## C15: minimum, maximum, clipping -/

namespace F32
theorem mini_cases (x y : F32) (hy : y.isNaN = false) :
    (mini x y).isNaN = false ∧ Arith.le (mini x y) y = true ∧ (mini x y = x ∨ mini x y = y) := by
  unfold mini
  by_cases hx : x.isNaN = true
  · obtain rfl := isNaN_iff.1 hx
    rw [lt_nan_left, if_neg Bool.false_ne_true]
    exact ⟨hy, (le_iff hy hy).2 le_rfl, .inr rfl⟩
  · have hx : x.isNaN = false := by simpa using hx
    by_cases h : Arith.lt x y = true
    · rw [if_pos h]; exact ⟨hx, (le_iff hx hy).2 ((lt_iff hx hy).1 h).le, .inl rfl⟩
    · rw [if_neg h]; exact ⟨hy, (le_iff hy hy).2 le_rfl, .inr rfl⟩

theorem maxi_cases (x y : F32) (hy : y.isNaN = false) :
    (maxi x y).isNaN = false ∧ Arith.le y (maxi x y) = true ∧ (maxi x y = x ∨ maxi x y = y) := by
  unfold maxi
  by_cases hx : x.isNaN = true
  · obtain rfl := isNaN_iff.1 hx
    rw [lt_nan_right, if_neg Bool.false_ne_true]
    exact ⟨hy, (le_iff hy hy).2 le_rfl, .inr rfl⟩
  · have hx : x.isNaN = false := by simpa using hx
    by_cases h : Arith.lt y x = true
    · rw [if_pos h]; exact ⟨hx, (le_iff hy hx).2 ((lt_iff hy hx).1 h).le, .inl rfl⟩
    · rw [if_neg h]; exact ⟨hy, (le_iff hy hy).2 le_rfl, .inr rfl⟩

/-- One component of `clip`. -/
def clip1 (x l h : F32) : F32 := maxi (mini x h) l

theorem clip1_spec (x l h : F32) (hl : l.isNaN = false) (hh : h.isNaN = false) (hlh : Arith.le l h = true) :
    (clip1 x l h).isNaN = false ∧ Arith.le l (clip1 x l h) = true ∧ Arith.le (clip1 x l h) h = true ∧
    clip1 (clip1 x l h) l h = clip1 x l h ∧
    (Arith.le l x = true → Arith.le x h = true → x.isNaN = false → Arith.eq (clip1 x l h) x = true) ∧
    (Arith.lt l x = true → Arith.lt x h = true → clip1 x l h = x) := by
  obtain ⟨h1, h2, h3⟩ := mini_cases x h hh
  obtain ⟨h4, h5, h6⟩ := maxi_cases (mini x h) l hl
  rw [le_iff hl hh] at hlh
  rw [le_iff h1 hh] at h2
  refine ⟨h4, h5, ?_, ?_, ?_, ?_⟩
  · unfold clip1
    rw [le_iff h4 hh]
    rcases h6 with h6 | h6 <;> rw [h6]
    · exact h2
    · exact hlh
  · -- the result is `l`, or `h > l`, or `x` strictly between
    have key : clip1 x l h = l ∨ (clip1 x l h = h ∧ Arith.lt l h = true) ∨
        (clip1 x l h = x ∧ Arith.lt x h = true ∧ Arith.lt l x = true) := by
      unfold clip1 maxi
      by_cases hc : Arith.lt l (mini x h) = true
      · rw [if_pos hc]
        unfold mini at hc ⊢
        by_cases hd : Arith.lt x h = true
        · rw [if_pos hd] at hc ⊢; exact .inr (.inr ⟨rfl, hd, hc⟩)
        · rw [if_neg hd] at hc ⊢; exact .inr (.inl ⟨rfl, hc⟩)
      · rw [if_neg hc]; exact .inl rfl
    rcases key with k | ⟨k, k'⟩ | ⟨k, k', k''⟩ <;> rw [k]
    · unfold clip1 maxi mini
      have hll : Arith.lt l l = false := by
        by_contra hc; exact lt_irrefl _ ((lt_iff hl hl).1 (by simpa using hc))
      by_cases hc : Arith.lt l h = true
      · rw [if_pos hc, hll, if_neg Bool.false_ne_true]
      · rw [if_neg hc, if_neg hc]
    · unfold clip1 maxi mini
      have hll : Arith.lt h h = false := by
        by_contra hc; exact lt_irrefl _ ((lt_iff hh hh).1 (by simpa using hc))
      rw [hll, if_neg Bool.false_ne_true, if_pos k']
    · unfold clip1 maxi mini
      rw [if_pos k', if_pos k'']
  · intro ha hb hx
    rw [le_iff hl hx] at ha
    rw [le_iff hx hh] at hb
    unfold clip1
    rw [eq_iff h4 hx]
    unfold maxi mini
    by_cases hc : Arith.lt x h = true
    · rw [if_pos hc]
      by_cases hd : Arith.lt l x = true
      · rw [if_pos hd]
      · rw [if_neg hd]
        have : ¬ l.key < x.key := fun h' => hd ((lt_iff hl hx).2 h')
        exact le_antisymm ha (not_lt.1 this)
    · rw [if_neg hc]
      have hxh : x.key = h.key := by
        have : ¬ x.key < h.key := fun h' => hc ((lt_iff hx hh).2 h')
        exact le_antisymm hb (not_lt.1 this)
      by_cases hd : Arith.lt l h = true
      · rw [if_pos hd, hxh]
      · rw [if_neg hd]
        have : ¬ l.key < h.key := fun h' => hd ((lt_iff hl hh).2 h')
        rw [hxh]; exact le_antisymm hlh (not_lt.1 this)
  · intro ha hb
    unfold clip1 maxi mini
    rw [if_pos hb, if_pos ha]
end F32

/-- A statement about the three components. -/
def Comp (P : F32 → F32 → Prop) (s t : Tristimulus F32) : Prop := P s.a t.a ∧ P s.b t.b ∧ P s.c t.c

/-- C15: every component of `clip(l, h)` is a number in `[l, h]`; a NaN becomes `h`;
in-range components keep their value, and their bits when strictly inside; clipping twice is clipping once. -/
theorem C15_clip (t : Tristimulus F32) (l h : F32) (hl : l.isNaN = false) (hh : h.isNaN = false)
    (hlh : Arith.le l h = true) :
    Comp (fun x y => y.isNaN = false ∧ Arith.le l y = true ∧ Arith.le y h = true ∧
      (x.isNaN = true → Arith.eq y h = true) ∧
      (Arith.le l x = true → Arith.le x h = true → x.isNaN = false → Arith.eq y x = true) ∧
      (Arith.lt l x = true → Arith.lt x h = true → y = x)) t (t.clip l h) ∧
    (t.clip l h).clip l h = t.clip l h := by
  have hnan : ∀ x : F32, x.isNaN = true → Arith.eq (clip1 x l h) h = true := by
    intro x hx
    obtain rfl := isNaN_iff.1 hx
    rw [eq_iff (clip1_spec nan l h hl hh hlh).1 hh]
    unfold clip1 maxi mini
    rw [lt_nan_left, if_neg Bool.false_ne_true]
    by_cases hc : Arith.lt l h = true
    · rw [if_pos hc]
    · rw [if_neg hc]
      rw [le_iff hl hh] at hlh
      exact le_antisymm hlh (not_lt.1 fun h' => hc ((lt_iff hl hh).2 h'))
  have key := fun x => clip1_spec x l h hl hh hlh
  refine ⟨⟨?_, ?_, ?_⟩, ?_⟩
  · exact ⟨(key t.a).1, (key t.a).2.1, (key t.a).2.2.1, hnan t.a, (key t.a).2.2.2.2.1, (key t.a).2.2.2.2.2⟩
  · exact ⟨(key t.b).1, (key t.b).2.1, (key t.b).2.2.1, hnan t.b, (key t.b).2.2.2.2.1, (key t.b).2.2.2.2.2⟩
  · exact ⟨(key t.c).1, (key t.c).2.1, (key t.c).2.2.1, hnan t.c, (key t.c).2.2.2.2.1, (key t.c).2.2.2.2.2⟩
  · exact Tristimulus.ext (key t.a).2.2.2.1 (key t.b).2.2.2.1 (key t.c).2.2.2.1

/-- C15: `positive()` never yields NaN or a negative component, and keeps positive ones. -/
theorem C15_positive (t : Tristimulus F32) :
    Comp (fun x y => y.isNaN = false ∧ Arith.le (lit 0) y = true ∧ (Arith.lt (lit 0) x = true → y = x)) t t.positive ∧
    t.positive.hasNegative = false := by
  have h0 : (lit 0 : F32).isNaN = false := by rw [lit_zero]; rfl
  have key := fun x : F32 => maxi_cases x (lit 0) h0
  have keep : ∀ x : F32, Arith.lt (lit 0) x = true → maxi x (lit 0) = x := fun x hx => by
    unfold maxi; rw [if_pos hx]
  have neg : ∀ x : F32, Tristimulus.isNegative (maxi x (lit 0)) = false := by
    intro x
    unfold isNegative
    by_contra hc
    rw [Bool.not_eq_false, lt_iff (key x).1 h0] at hc
    have := (le_iff h0 (key x).1).1 (key x).2.1
    exact absurd hc (not_lt.2 this)
  refine ⟨⟨⟨(key t.a).1, (key t.a).2.1, keep t.a⟩, ⟨(key t.b).1, (key t.b).2.1, keep t.b⟩,
    ⟨(key t.c).1, (key t.c).2.1, keep t.c⟩⟩, ?_⟩
  simp only [hasNegative, positive, splat, Tristimulus.max, neg, Bool.or_self]

/-- C15: `hasNegative()` says whether some component is a negative number or minus infinity; NaN and the zeros of
either sign do not count. -/
theorem C15_hasNegative (t : Tristimulus F32) :
    t.hasNegative = true ↔ ∃ x ∈ [t.a, t.b, t.c], x = .inf true ∨ x.isFinite = true ∧ x.val < 0 := by
  have one : ∀ x : F32, Tristimulus.isNegative x = true ↔ x = .inf true ∨ x.isFinite = true ∧ x.val < 0 := by
    intro x
    unfold isNegative
    rw [lit_zero]
    show F32.lt x (.zero false) = true ↔ _
    cases x with
    | nan => simp [F32.lt, F32.isFinite]
    | inf s => cases s <;> simp [F32.lt, F32.isFinite]
    | zero s => simp [F32.lt, F32.val]
    | num q h => simp [F32.lt, F32.val, F32.isFinite]; exact decide_eq_true_iff
  simp only [hasNegative, Bool.or_eq_true, one, List.mem_cons, List.not_mem_nil, or_false, exists_eq_or_imp, exists_eq_left]
  tauto

/-- C15: `min3`/`max3` of a NaN-free colour are its least/greatest component. -/
theorem C15_min3_max3 (t : Tristimulus F32) (ha : t.a.isNaN = false) (hb : t.b.isNaN = false)
    (hc : t.c.isNaN = false) :
    (t.min3 ∈ [t.a, t.b, t.c] ∧ ∀ x ∈ [t.a, t.b, t.c], Arith.le t.min3 x = true) ∧
    (t.max3 ∈ [t.a, t.b, t.c] ∧ ∀ x ∈ [t.a, t.b, t.c], Arith.le x t.max3 = true) := by
  have hmin : ∀ x y : F32, x.isNaN = false → y.isNaN = false →
      (mini x y).isNaN = false ∧ (mini x y).key ≤ x.key ∧ (mini x y).key ≤ y.key := by
    intro x y hx hy
    refine ⟨(mini_cases x y hy).1, ?_, (le_iff (mini_cases x y hy).1 hy).1 (mini_cases x y hy).2.1⟩
    unfold mini
    by_cases h : Arith.lt x y = true
    · rw [if_pos h]
    · rw [if_neg h]; exact not_lt.1 fun h' => h ((lt_iff hx hy).2 h')
  have hmax : ∀ x y : F32, x.isNaN = false → y.isNaN = false →
      (maxi x y).isNaN = false ∧ x.key ≤ (maxi x y).key ∧ y.key ≤ (maxi x y).key := by
    intro x y hx hy
    refine ⟨(maxi_cases x y hy).1, ?_, (le_iff hy (maxi_cases x y hy).1).1 (maxi_cases x y hy).2.1⟩
    unfold maxi
    by_cases h : Arith.lt y x = true
    · rw [if_pos h]
    · rw [if_neg h]; exact not_lt.1 fun h' => h ((lt_iff hy hx).2 h')
  obtain ⟨a1, a2, a3⟩ := hmin t.a t.b ha hb
  obtain ⟨b1, b2, b3⟩ := hmin _ t.c a1 hc
  obtain ⟨c1, c2, c3⟩ := hmax t.a t.b ha hb
  obtain ⟨d1, d2, d3⟩ := hmax _ t.c c1 hc
  constructor
  · constructor
    · unfold min3
      rcases (mini_cases (mini t.a t.b) t.c hc).2.2 with h | h <;> rw [h]
      · rcases (mini_cases t.a t.b hb).2.2 with h | h <;> rw [h] <;> simp
      · simp
    · intro x hx
      simp only [List.mem_cons, List.not_mem_nil, or_false] at hx
      rcases hx with rfl | rfl | rfl
      · exact (le_iff b1 ha).2 (b2.trans a2)
      · exact (le_iff b1 hb).2 (b2.trans a3)
      · exact (le_iff b1 hc).2 b3
  · constructor
    · unfold max3
      rcases (maxi_cases (maxi t.a t.b) t.c hc).2.2 with h | h <;> rw [h]
      · rcases (maxi_cases t.a t.b hb).2.2 with h | h <;> rw [h] <;> simp
      · simp
    · intro x hx
      simp only [List.mem_cons, List.not_mem_nil, or_false] at hx
      rcases hx with rfl | rfl | rfl
      · exact (le_iff ha d1).2 (c2.trans d2)
      · exact (le_iff hb d1).2 (c3.trans d2)
      · exact (le_iff hc d1).2 d3

example : (F32.zero true).isNaN = false ∧ (F32.inf false).isNaN = false ∧
    Arith.le (F32.zero true) (F32.inf false) = true := ⟨rfl, rfl, rfl⟩

/-! ## C39, C45: bit-for-bit commutativity and symmetry -/

/-- C39: `+` and `*` of spectra commute bit for bit in binary32. -/
theorem C39_commute_bitwise (a b : Spectrum F32) : a.add b = b.add a ∧ a.mul b = b.mul a :=
  ⟨funext fun _ => F32.add_comm' _ _, funext fun _ => F32.mul_comm' _ _⟩

namespace F32
theorem mul_neg_neg (x y : F32) : mul (neg x) (neg y) = mul x y := by
  by_cases hx : x.isFinite = true
  · by_cases hy : y.isFinite = true
    · have nx : x.isNaN = false := by cases x <;> first | rfl | exact absurd hx Bool.false_ne_true
      have ny : y.isNaN = false := by cases y <;> first | rfl | exact absurd hy Bool.false_ne_true
      rw [mul_finite hx hy, mul_finite (by rw [neg_isFinite]; exact hx) (by rw [neg_isFinite]; exact hy),
        neg_val, neg_val, neg_sign nx, neg_sign ny, _root_.neg_mul_neg, Bool.not_xor_not]
    · cases y with
      | zero _ => exact absurd rfl hy
      | num _ _ => exact absurd rfl hy
      | nan => cases x <;> rfl
      | inf t =>
        cases x with
        | nan => rfl
        | inf _ => exact absurd hx Bool.false_ne_true
        | zero _ => rfl
        | num q h =>
          have := neg_sign (x := num q h) rfl
          show inf (xor (neg (num q h)).sign (!t)) = inf (xor (num q h).sign t)
          rw [this, Bool.not_xor_not]
  · cases x with
    | zero _ => exact absurd rfl hx
    | num _ _ => exact absurd rfl hx
    | nan => rfl
    | inf s =>
      cases y with
      | nan => rfl
      | inf t => show inf (xor (!s) (!t)) = inf (xor s t); rw [Bool.not_xor_not]
      | zero _ => rfl
      | num q h =>
        have := neg_sign (x := num q h) rfl
        show inf (xor (!s) (neg (num q h)).sign) = inf (xor s (num q h).sign)
        rw [this, Bool.not_xor_not]

/-- The square of a difference does not depend on the order, bit for bit. -/
theorem sq_sub_comm (x y : F32) : (x - y) * (x - y) = (y - x) * (y - x) := by
  show mul (add x (neg y)) (add x (neg y)) = mul (add y (neg x)) (add y (neg x))
  by_cases h : x.isFinite = true ∧ (neg y).isFinite = true ∧ x.val + (neg y).val = 0
  · obtain ⟨hx, hy, h0⟩ := h
    have hy' : y.isFinite = true := by rwa [neg_isFinite] at hy
    rw [neg_val] at h0
    rw [add_finite hx hy, add_finite hy' (by rw [neg_isFinite]; exact hx), neg_val, neg_val,
      h0, show y.val + -x.val = 0 by linarith, pack_zero, pack_zero]
    show mul (zero _) (zero _) = mul (zero _) (zero _)
    rw [mul_finite rfl rfl, mul_finite rfl rfl]
    simp [sign, val]
  · have h1 := neg_add' x (neg y) h
    rw [neg_neg'] at h1
    have h2 : add y (neg x) = neg (add x (neg y)) := by
      rw [h1]; exact add_comm' y (neg x)
    rw [h2, mul_neg_neg]
end F32

/-- C45: `Delta::UV` and `Delta::E76` are symmetric bit for bit in binary32, whatever the
implementation of `sqrtf`. -/
theorem C45_symmetric_bitwise (o : F32.Oracle) (a b : Tristimulus F32) :
    @Delta.UV F32 (F32.libm o) a b = @Delta.UV F32 (F32.libm o) b a ∧
    @Delta.E76 F32 (F32.libm o) a b = @Delta.E76 F32 (F32.libm o) b a := by
  let _ := F32.libm o
  have key : ∀ x y : F32, (x - y) * (x - y) = (y - x) * (y - x) := F32.sq_sub_comm
  constructor
  · unfold Delta.UV
    show o.sqrtf (_ + _) = o.sqrtf (_ + _)
    congr 2 <;> exact key _ _
  · unfold Delta.E76
    show o.sqrtf (_ + _ + _) = o.sqrtf (_ + _ + _)
    congr 2
    · congr 1 <;> exact key _ _
    · exact key _ _

/-! ## C60: rounding error of the dot product -/

namespace F32
/-- Three products summed from the left. -/
theorem dot3_error (a b c x y z : F32) (h : (a * x + b * y + c * z).isFinite = true) :
    |(a * x + b * y + c * z).val - (a.val * x.val + b.val * y.val + c.val * z.val)| ≤
      (|a.val * x.val| + |b.val * y.val| + |c.val * z.val|) / 2 ^ 22 + 1 / 2 ^ 148 := by
  obtain ⟨h1, h2⟩ := add_isFinite h
  obtain ⟨h3, h4⟩ := add_isFinite h1
  have v0 := add_val h
  have v1 := add_val h1
  have e3 := rnd_rel' (a.val * x.val)
  have e4 := rnd_rel' (b.val * y.val)
  have e5 := rnd_rel' (c.val * z.val)
  have e1 := rnd_add_rel (rep_val (a * x)) (rep_val (b * y))
  have e0 := rnd_add_rel (rep_val (a * x + b * y)) (rep_val (c * z))
  rw [← v0] at e0
  rw [← v1] at e1
  rw [← mul_val h3] at e3
  rw [← mul_val h4] at e4
  rw [← mul_val h2] at e5
  generalize (a * x + b * y + c * z).val = r at *
  generalize (a * x + b * y).val = s at *
  generalize (a * x).val = p1 at *
  generalize (b * y).val = p2 at *
  generalize (c * z).val = p3 at *
  generalize a.val * x.val = q1 at *
  generalize b.val * y.val = q2 at *
  generalize c.val * z.val = q3 at *
  have b1 : |p1| ≤ |q1| + |p1 - q1| := by
    have := abs_add_le q1 (p1 - q1); rwa [add_sub_cancel] at this
  have b2 : |p2| ≤ |q2| + |p2 - q2| := by
    have := abs_add_le q2 (p2 - q2); rwa [add_sub_cancel] at this
  have b3 : |p3| ≤ |q3| + |p3 - q3| := by
    have := abs_add_le q3 (p3 - q3); rwa [add_sub_cancel] at this
  have b4 : |p1 + p2| ≤ |p1| + |p2| := abs_add_le _ _
  have b5 : |s| ≤ |p1 + p2| + |s - (p1 + p2)| := by
    have := abs_add_le (p1 + p2) (s - (p1 + p2)); rwa [add_sub_cancel] at this
  have b6 : |s + p3| ≤ |s| + |p3| := abs_add_le _ _
  have b7 : |r - (q1 + q2 + q3)| ≤ |r - (s + p3)| + |s - (p1 + p2)| + (|p1 - q1| + |p2 - q2| + |p3 - q3|) := by
    have t1 := abs_add_le (r - (s + p3)) (s - (p1 + p2))
    have t2 := abs_add_le (r - (s + p3) + (s - (p1 + p2))) (p1 - q1)
    have t3 := abs_add_le (r - (s + p3) + (s - (p1 + p2)) + (p1 - q1)) (p2 - q2)
    have t4 := abs_add_le (r - (s + p3) + (s - (p1 + p2)) + (p1 - q1) + (p2 - q2)) (p3 - q3)
    rw [show r - (s + p3) + (s - (p1 + p2)) + (p1 - q1) + (p2 - q2) + (p3 - q3) = r - (q1 + q2 + q3) by ring] at t4
    linarith
  have n1 := abs_nonneg q1
  have n2 := abs_nonneg q2
  have n3 := abs_nonneg q3
  norm_num at e0 e1 e3 e4 e5 ⊢
  linarith
end F32

/-- C60: the binary32 dot product is within `2^-22 Σ|aᵢbᵢ| + 2^-148` of the exact one, provided it did
not overflow (a finite result means no operand and no intermediate value was infinite or NaN). -/
theorem C60_dot (a b : Vector3 F32) (h : (a.dot b).isFinite = true) :
    |(a.dot b).val - (a.x.val * b.x.val + a.y.val * b.y.val + a.z.val * b.z.val)| ≤
      (|a.x.val * b.x.val| + |a.y.val * b.y.val| + |a.z.val * b.z.val|) / 2 ^ 22 + 1 / 2 ^ 148 :=
  F32.dot3_error a.x a.y a.z b.x b.y b.z h

/-- The entries of a matrix, row by row (specification). -/
def entries (m : Matrix3 F32) : Fin 3 → Fin 3 → ℚ :=
  ![![m.m0.val, m.m1.val, m.m2.val], ![m.m3.val, m.m4.val, m.m5.val], ![m.m6.val, m.m7.val, m.m8.val]]
/-- The entries of a vector (specification). -/
def entriesV (v : Vector3 F32) : Fin 3 → ℚ := ![v.x.val, v.y.val, v.z.val]

/-- C60: each component of a binary32 matrix-vector product that did not overflow is within
`2^-22 Σⱼ|mᵢⱼvⱼ| + 2^-148` of the exact value. -/
theorem C60_apply (m : Matrix3 F32) (v : Vector3 F32) (i : Fin 3)
    (h : (![(m.apply v).x, (m.apply v).y, (m.apply v).z] i).isFinite = true) :
    |(![(m.apply v).x, (m.apply v).y, (m.apply v).z] i).val - ∑ j, entries m i j * entriesV v j| ≤
      (∑ j, |entries m i j * entriesV v j|) / 2 ^ 22 + 1 / 2 ^ 148 := by
  rw [Fin.sum_univ_three, Fin.sum_univ_three]
  fin_cases i
  · exact F32.dot3_error m.m0 m.m1 m.m2 v.x v.y v.z h
  · exact F32.dot3_error m.m3 m.m4 m.m5 v.x v.y v.z h
  · exact F32.dot3_error m.m6 m.m7 m.m8 v.x v.y v.z h

example : ((Vector3.mk (lit 1) (lit 2) (lit 3) : Vector3 F32).dot ⟨lit 1, lit 1, lit 1⟩).isFinite = true := by
  have h1 : Is (lit 1) 1 := by have := Is.litInt (n := 1) (by norm_num); exact_mod_cast this
  have h2 : Is (lit 2) 2 := by have := Is.litInt (n := 2) (by norm_num); exact_mod_cast this
  have h3 : Is (lit 3) 3 := by have := Is.litInt (n := 3) (by norm_num); exact_mod_cast this
  have r : ∀ n : ℤ, |n| ≤ 2 ^ 24 → Rep (n : ℚ) := fun n hn => rep_int hn
  have a := h1.mul h1 (by have := r 1 (by norm_num); norm_num at this ⊢; exact this) (by norm_num)
  have b := h2.mul h1 (by have := r 2 (by norm_num); norm_num at this ⊢; exact this) (by norm_num)
  have c := h3.mul h1 (by have := r 3 (by norm_num); norm_num at this ⊢; exact this) (by norm_num)
  have d := a.add b (by have := r 3 (by norm_num); norm_num at this ⊢; exact this) (by norm_num)
  exact (d.add c (by have := r 6 (by norm_num); norm_num at this ⊢; exact this) (by norm_num)).1

/-! ## C38: table lookup in binary32 -/

namespace F32
/-- Multiplying by one changes nothing. -/
theorem mul_one' {x y : F32} (hx : x.isFinite = true) (hy : y.Is 1) : x * y = x := by
  have hs : y.sign = false := by
    cases y with
    | nan => exact absurd hy.1 Bool.false_ne_true
    | inf _ => exact absurd hy.1 Bool.false_ne_true
    | zero s => have := hy.2; simp [val] at this
    | num q h => have : q = 1 := hy.2
                 subst this; rfl
  rw [mul_def, mul_finite hx hy.1, hy.2, mul_one, hs, Bool.xor_false]
  cases x with
  | nan => exact absurd hx Bool.false_ne_true
  | inf _ => exact absurd hx Bool.false_ne_true
  | zero s => exact pack_zero s
  | num q h => exact pack_of_rep h

theorem Is.mul_zero {x y : F32} (hx : x.isFinite = true) (hy : y.Is 0) : Is (x * y) 0 := by
  have := (Is.of x hx).mul hy (by rw [MulZeroClass.mul_zero]; exact rep_zero) (by simp)
  rwa [MulZeroClass.mul_zero] at this

theorem add_zero' {x y : F32} (hx : x.isFinite = true) (hn : x ≠ zero true) (hy : y.Is 0) : x + y = x := by
  rw [add_def, add_finite hx hy.1, hy.2, _root_.add_zero]
  cases x with
  | nan => exact absurd hx Bool.false_ne_true
  | inf _ => exact absurd hx Bool.false_ne_true
  | zero s =>
    cases s with
    | true => exact absurd rfl hn
    | false => exact pack_zero _
  | num q h => exact pack_of_rep h

theorem isNat {n : ℕ} (h : n ≤ 2 ^ 24) : Rep (n : ℚ) ∧ |(n : ℚ)| < 2 ^ 128 := by
  have h1 : |(n : ℤ)| ≤ 2 ^ 24 := by rw [abs_of_nonneg (by omega)]; exact_mod_cast h
  refine ⟨by exact_mod_cast rep_int h1, ?_⟩
  rw [abs_of_nonneg (by positivity)]
  have : (n : ℚ) ≤ 2 ^ 24 := by exact_mod_cast h
  exact this.trans_lt (by norm_num)

theorem Is.cast {x : F32} {p q : ℚ} (h : x.Is p) (e : p = q) : x.Is q := e ▸ h
end F32

/-- C38 in binary32: looking up the `k`-th wavelength `380 + k` of a 400-sample spectrum gives the `k`-th
sample, bit for bit, provided that sample is not a negative zero and it and its successor are finite. -/
theorem C38_binary32_at (s : Spectrum F32) (t : F32) (k : Fin 400) (ht : t.Is (380 + k.val))
    (hf : ∀ i, (s i).isFinite = true) (hn : s k ≠ F32.zero true) : s.fetch t = .ok (s k) := by
  obtain ⟨k, hk⟩ := k
  have i399 : Is (Arith.ofInt 399) 399 := by
    have := Is.ofInt (n := 399) (by norm_num); exact_mod_cast this
  have i380 : Is (lit 380) 380 := by
    have := Is.litInt (n := 380) (by norm_num); exact_mod_cast this
  have i779 : Is (lit 779) 779 := by
    have := Is.litInt (n := 779) (by norm_num); exact_mod_cast this
  have nat := fun (n : ℕ) (h : n ≤ 2 ^ 24) => isNat h
  have hd : Is (lit 779 - lit 380) 399 := by
    have e : (779 : ℚ) - 380 = ((399 : ℕ) : ℚ) := by norm_num
    exact (i779.sub i380 (by rw [e]; exact (nat 399 (by norm_num)).1) (by rw [e]; exact (nat 399 (by norm_num)).2)).cast
      (by norm_num)
  have htl : Is (t - lit 380) k := by
    have e : (380 : ℚ) + k - 380 = ((k : ℕ) : ℚ) := by ring
    exact (ht.sub i380 (by rw [e]; exact (nat k (by omega)).1) (by rw [e]; exact (nat k (by omega)).2)).cast e
  have hm : Is (Arith.ofInt 399 * (t - lit 380)) (399 * k) := by
    have e : (399 : ℚ) * k = ((399 * k : ℕ) : ℚ) := by push_cast; ring
    exact i399.mul htl (by rw [e]; exact (nat _ (by omega)).1) (by rw [e]; exact (nat _ (by omega)).2)
  have hq : Is (Arith.ofInt 399 * (t - lit 380) / (lit 779 - lit 380)) ((k : ℤ) : ℚ) := by
    have e : (399 : ℚ) * k / 399 = ((k : ℕ) : ℚ) := by field_simp
    exact (hm.div hd (by norm_num) (by rw [e]; exact (nat k (by omega)).1) (by rw [e]; exact (nat k (by omega)).2)).cast
      (by rw [e]; norm_cast)
  have hi := hq.toInt (by unfold intMin; omega) (by unfold intMax; omega)
  -- the bracketing positions
  have pos : ∀ j : ℕ, j ≤ 400 → Is (Arith.ofInt (j : ℤ) * (lit 779 - lit 380) / Arith.ofInt 399) j := by
    intro j hj
    have ij : Is (Arith.ofInt (j : ℤ)) j := by
      have := Is.ofInt (n := (j : ℤ)) (by rw [abs_of_nonneg (by omega)]; omega); exact_mod_cast this
    have e : (j : ℚ) * 399 = ((j * 399 : ℕ) : ℚ) := by push_cast; ring
    have e' : (j : ℚ) * 399 / 399 = ((j : ℕ) : ℚ) := by field_simp
    have a := ij.mul hd (by rw [e]; exact (nat _ (by omega)).1) (by rw [e]; exact (nat _ (by omega)).2)
    exact (a.div i399 (by norm_num) (by rw [e']; exact (nat j (by omega)).1) (by rw [e']; exact (nat j (by omega)).2)).cast e'
  have hlen : (List.ofFn s).length = 400 := List.length_ofFn
  have get : ∀ j : ℕ, ∀ hj : j < 400, Spectrum.at' (List.ofFn s) (j : ℤ) = .ok (s ⟨j, hj⟩) := by
    intro j hj
    unfold Spectrum.at'
    rw [if_neg (by omega), Int.toNat_natCast, List.getElem?_ofFn, dif_pos hj]
  unfold Spectrum.fetch Spectrum.fetchFrom
  rw [show Spectrum.int32 (400 - 1) = .ok 399 from rfl]
  show (match Arith.toInt (Arith.ofInt 399 * (t - lit 380) / (lit 779 - lit 380)) with
    | none => _ | some index => _) = _
  rw [hi]
  have h1 : Spectrum.int32 ((k : ℤ) + 1) = .ok ((k : ℤ) + 1) := by
    unfold Spectrum.int32; rw [if_pos (by unfold intMin intMax; omega)]
  show (Spectrum.int32 ((k : ℤ) + 1) >>= fun i1 => _) = _
  rw [h1]
  show (if (k : ℤ) ≥ 399 then _ else if (k : ℤ) ≤ 0 then _ else _) = _
  by_cases hk1 : (k : ℤ) ≥ 399
  · rw [if_pos hk1]
    have : k = 399 := by omega
    subst this
    exact get 399 hk
  rw [if_neg hk1]
  by_cases hk0 : (k : ℤ) ≤ 0
  · rw [if_pos hk0]
    have : k = 0 := by omega
    subst this
    exact get 0 hk
  rw [if_neg hk0, get k hk, show ((k : ℤ) + 1) = ((k + 1 : ℕ) : ℤ) by push_cast; rfl, get (k + 1) (by omega)]
  refine congrArg Except.ok (?_ : Spectrum.lerp _ _ _ = _)
  have pl := pos k (by omega)
  have ph := pos (k + 1) (by omega)
  have r0 : Is ((t - Arith.ofInt (k : ℤ) * (lit 779 - lit 380) / Arith.ofInt 399 - lit 380) /
      (Arith.ofInt ((k + 1 : ℕ) : ℤ) * (lit 779 - lit 380) / Arith.ofInt 399 -
        Arith.ofInt (k : ℤ) * (lit 779 - lit 380) / Arith.ofInt 399)) 0 := by
    have e1 : (380 : ℚ) + k - k = ((380 : ℕ) : ℚ) := by push_cast; ring
    have a := (ht.sub pl (by rw [e1]; exact (nat _ (by norm_num)).1) (by rw [e1]; exact (nat _ (by norm_num)).2)).cast e1
    have b := (a.sub i380 (by norm_num; exact rep_zero) (by norm_num)).cast (q := 0) (by norm_num)
    have e2 : ((k + 1 : ℕ) : ℚ) - k = ((1 : ℕ) : ℚ) := by push_cast; ring
    have c := (ph.sub pl (by rw [e2]; exact (nat _ (by norm_num)).1) (by rw [e2]; exact (nat _ (by norm_num)).2)).cast e2
    exact (b.div c (by norm_num) (by norm_num; exact rep_zero) (by norm_num)).cast (by norm_num)
  have i1 : Is (lit 1) 1 := by have := Is.litInt (n := 1) (by norm_num); exact_mod_cast this
  have m1 := (i1.sub r0 (by have := (nat 1 (by norm_num)).1; norm_num at this ⊢; exact this) (by norm_num)).cast
    (q := 1) (by norm_num)
  unfold Spectrum.lerp
  rw [mul_one' (hf _) m1]
  exact add_zero' (hf _) hn (Is.mul_zero (hf _) r0)

/-- C38 in binary32: rebuilding a spectrum from its own 400 samples is the identity, bit for bit (finite
samples, no negative zeros). -/
theorem C38_binary32_identity (s : Spectrum F32) (hf : ∀ i, (s i).isFinite = true) (hn : ∀ i, s i ≠ F32.zero true) :
    Spectrum.ofSamples (List.ofFn s) 400 (lit 380) (lit 779) = .ok s := by
  unfold Spectrum.ofSamples
  refine Spectrum.build_ok fun i => ?_
  have i380 : Is (lit 380) 380 := by
    have := Is.litInt (n := 380) (by norm_num); exact_mod_cast this
  have hi : Is (Arith.ofInt (i.val : ℤ)) i.val := by
    have := Is.ofInt (n := (i.val : ℤ)) (by rw [abs_of_nonneg (by omega)]; omega); exact_mod_cast this
  have e : (380 : ℚ) + i.val = ((380 + i.val : ℕ) : ℚ) := by push_cast; ring
  have ht := i380.add hi (by rw [e]; exact (isNat (by omega)).1) (by rw [e]; exact (isNat (by omega)).2)
  exact C38_binary32_at s _ i ht hf (hn i)

/-- The flat spectrum of height one meets the hypotheses. -/
example : ∀ i, ((Spectrum.E (lit 1) : Spectrum F32) i).isFinite = true ∧
    (Spectrum.E (lit 1) : Spectrum F32) i ≠ F32.zero true := by
  intro i
  have i1 : Is (lit 1) 1 := by have := Is.litInt (n := 1) (by norm_num); exact_mod_cast this
  refine ⟨i1.1, fun h => ?_⟩
  have h2 : (lit 1 : F32) = F32.zero true := h
  have := i1.2
  rw [h2] at this
  simp [F32.val] at this

end CS
