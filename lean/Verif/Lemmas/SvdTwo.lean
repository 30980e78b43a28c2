import Verif.Lemmas.SvdFull

/-!
# `svdcmp` on two columns, in exact arithmetic: one QR step diagonalises
-/

namespace CS.SOLVER
open Arith Libm Matrix
variable {m n : ℕ}

/-- The shift makes the first rotation diagonalise a 2x2 block. -/
theorem shift_two {x y h : ℝ} (hx : x ≠ 0) (hh : h ≠ 0) :
    x * (shift x x y 0 h ^ 2 - h ^ 2) + shift x x y 0 h * (h ^ 2 + y ^ 2 - x ^ 2) = 0 := by
  set t : ℝ := ((x - y) * (x + y) + (0 - h) * (0 + h)) / (2 * h * x) with ht
  obtain ⟨r, hr, hr2, hne⟩ : ∃ r : ℝ, DSIGN (PYTHAG t 1) t = r ∧ r ^ 2 = t ^ 2 + 1 ∧ t + r ≠ 0 := by
    rw [DSIGN_real, PYTHAG_real]
    have h1 : 0 ≤ t ^ 2 + 1 ^ 2 := by positivity
    have h2 : Real.sqrt (t ^ 2 + 1 ^ 2) ^ 2 = t ^ 2 + 1 ^ 2 := Real.sq_sqrt h1
    have h3 := Real.sqrt_nonneg (t ^ 2 + 1 ^ 2)
    refine ⟨_, rfl, ?_, ?_⟩
    · split_ifs <;> rw [abs_of_nonneg h3] <;> nlinarith
    · split_ifs with hp
      · rw [abs_of_nonneg h3]; positivity
      · rw [abs_of_nonneg h3]
        intro hc
        nlinarith
  have hs : shift x x y 0 h = h * (t + r) := by
    have hdef : shift x x y 0 h = ((x - y) * (x + y) + h * (x / (t + DSIGN (PYTHAG t 1) t) - h)) / x := by
      unfold shift
      simp only [lit_real, Rat.cast_one, Rat.cast_ofNat]
      rw [ht]
    rw [hdef, hr]
    have hinv : x / (t + r) = x * (r - t) := by
      rw [div_eq_iff hne]
      have : (r - t) * (t + r) = 1 := by nlinarith
      linear_combination (-x) * this
    rw [hinv]
    have ht2 : 2 * h * x * t = (x - y) * (x + y) - h * h := by
      rw [ht]; field_simp; ring
    rw [div_eq_iff hx]
    linear_combination (-1) * ht2
  rw [hs]
  have ht2 : 2 * h * x * t = (x - y) * (x + y) - h * h := by
    rw [ht]; field_simp; ring
  clear_value t
  linear_combination (h ^ 2 * x) * hr2 + (h * (t + r)) * ht2

/-- A QR step on a 2x2 block clears its off-diagonal entry or its first diagonal entry. -/
theorem qrStep_two (d : Dg ℝ m n) {l : ℕ} (hl : l + 1 < n) (hw : d.w ⟨l, by omega⟩ ≠ 0) (hr : d.rv1 ⟨l + 1, hl⟩ ≠ 0)
    (h0 : d.rv1 ⟨l, by omega⟩ = 0) :
    Ok (qrStep d l (l + 1) (d.w ⟨l + 1, hl⟩)) (fun d' => d'.rv1 ⟨l + 1, hl⟩ = 0 ∨
      d'.w ⟨l, by omega⟩ = 0) := by
  have hl' : l < n := by omega
  unfold qrStep
  simp only [bind, Except.bind, Nat.add_sub_cancel]
  rw [rd_eq d.w hl', rd_eq d.rv1 hl', rd_eq d.rv1 hl]
  simp only []
  rw [forUp_step (by omega), h0]
  set x := d.w ⟨l, hl'⟩
  set y := d.w ⟨l + 1, hl⟩
  set h := d.rv1 ⟨l + 1, hl⟩
  have hs := shift_two (y := y) hw hr
  set f := shift x x y 0 h
  unfold sweepStep
  simp only [bind, Except.bind]
  rw [rd_eq d.rv1 hl, rd_eq d.w hl]
  simp only []
  rw [wr_fun _ hl']
  simp only [lit_real, Rat.cast_one, one_mul]
  have hz := pythag_ne (f := f) hr
  set z := PYTHAG f h
  obtain ⟨v', ev, _⟩ := rotCols_spec d.v hl' hl (by omega) (f / z) (h / z)
  rw [ev]
  simp only []
  rw [wr_fun _ hl']
  simp only []
  set F := x * (f / z) + h * (h / z) with hF
  set H := y * (h / z) with hH
  set Z := PYTHAG F H with hZ
  set G := h * (f / z) - x * (h / z) with hG
  set Y := y * (f / z) with hY
  have horth : F * G + H * Y = 0 := by
    have e : (F * G + H * Y) * (z * z) = h * (x * (f ^ 2 - h ^ 2) + f * (h ^ 2 + y ^ 2 - x ^ 2)) := by
      rw [hF, hG, hH, hY]; field_simp; ring
    rw [hs, mul_zero] at e
    exact (mul_eq_zero.1 e).resolve_right (mul_ne_zero hz hz)
  obtain ⟨c, s, hcs, hf⟩ : ∃ c s : ℝ, (if truthy Z = true then (F * (1 / Z), H * (1 / Z)) else (f / z, h / z)) = (c, s) ∧
      (c * G + s * Y = 0 ∨ Z = 0) := by
    by_cases hZ0 : Z = 0
    · exact ⟨_, _, rfl, .inr hZ0⟩
    · refine ⟨_, _, if_pos (truthy_real.2 hZ0), .inl ?_⟩
      have : F * (1 / Z) * G + H * (1 / Z) * Y = (F * G + H * Y) / Z := by ring
      rw [this, horth, zero_div]
  rw [hcs]
  simp only []
  obtain ⟨a', ea, _⟩ := rotCols_spec d.a hl' hl (by omega) c s
  rw [ea]
  simp only []
  rw [forUp_self (by omega)]
  simp only []
  rw [wr_fun _ hl']
  simp only []
  rw [wr_fun _ hl]
  simp only []
  rw [wr_fun _ hl]
  refine Ok.ok (hf.imp (fun h => ?_) fun h => ?_)
  · simp [h]
  · simp [h]

open Classical in
/-- Plain equality. -/
theorem readEq_exact : readEq (fun x y => decide (x = y)) = instLibmReal := rfl

/-- A zero just above the last diagonal entry: one rotation clears the off-diagonal entry. -/
theorem iter_last (anorm : ℝ) {k its : ℕ} (hk : k < n) (hk0 : 0 < k) (d : Dg ℝ m n) (oa : OrthC d.a)
    (h0 : ent d.rv1 0 = 0) (hw : ent d.w (k - 1) = 0) (hr : ent d.rv1 k ≠ 0) :
    Ok (iter anorm k its d) (fun p => p.1 = .conv ∧ OrthC p.2.a ∧ p.2.v = d.v ∧ p.2.rv1 = d.rv1 ∧ 0 ≤ ent p.2.w k ∧
      ∀ (A : Mat ℝ m n) (κ : ℝ), Near (of A) κ (k + 1) d → Near (of A) κ k p.2) := by
  have hk1 : k - 1 < n := by omega
  have hsplit : splitTest d.w d.rv1 anorm k = .ok (true, k) := by
    obtain ⟨l, rfl⟩ : ∃ l, k = l + 1 := ⟨k - 1, by omega⟩
    rw [Nat.add_sub_cancel] at hw hk1
    unfold splitTest
    rw [rd_eq d.rv1 hk, ← ent_eq d.rv1 hk, rd_eq d.w hk1, ← ent_eq d.w hk1]
    simp only [bind, Except.bind]
    rw [if_neg (by rw [negligible_real]; exact hr), if_pos (negligible_real.2 hw)]
  unfold iter
  rw [hsplit]
  simp only [bind, Except.bind, if_true]
  rw [forUp_step (by omega)]
  unfold cancelStep
  simp only [bind, Except.bind]
  rw [rd_eq d.rv1 hk, ← ent_eq d.rv1 hk]
  simp only [lit_real, Rat.cast_one, one_mul]
  have hnn : negligible anorm (ent d.rv1 k) = false := by rw [← Bool.not_eq_true, negligible_real]; exact hr
  rw [if_pos (by rw [hnn]; rfl), rd_eq d.w hk, ← ent_eq d.w hk]
  simp only []
  rw [wr_fun _ hk]
  simp only []
  set f := ent d.rv1 k with hf
  set g := ent d.w k with hg
  set h := PYTHAG f g with hh
  have hh0 : h ≠ 0 := by
    rw [hh, PYTHAG_real]; exact (Real.sqrt_pos.2 (by positivity)).ne'
  have hhp : 0 ≤ h := by rw [hh, PYTHAG_real]; exact Real.sqrt_nonneg _
  obtain ⟨z1, z2, z3⟩ := pythag_rot hh0
  rw [← hh] at z1 z2 z3
  obtain ⟨a', ea, eb⟩ := rotCols_spec d.a hk1 hk (by omega) (g * (1 / h)) (-f * (1 / h))
  rw [ea]
  simp only []
  rw [forUp_self le_rfl]
  simp only []
  rw [rd_eq _ hk]
  simp only [if_true]
  rw [if_neg (by simpa using hhp)]
  refine Ok.ok ⟨rfl, eb.orth hk1 hk (by omega) (by linear_combination z1) oa, rfl, rfl, ?_, ?_⟩
  · show 0 ≤ ent (fun c : Fin n => if c.val = k then h else d.w c) k
    rw [ent_upd _ hk, if_pos rfl]; exact hhp
  · rintro A κ ⟨D, h1, h2⟩
    refine ⟨D, h1, fun t ht => ?_⟩
    have h3 : (of A + D) *ᵥ col d.v t = _ := h2 t ht
    show (of A + D) *ᵥ col d.v t = ent (fun c : Fin n => if c.val = k then h else d.w c) t • col a' t +
      (if t < k then ent d.rv1 t else 0) • col a' (t - 1)
    rw [ent_upd _ hk, h3]
    by_cases htk : t = k
    · subst htk
      rw [if_pos rfl, if_pos (by omega), if_neg (lt_irrefl _), eb.2.1]
      funext i
      simp only [Pi.add_apply, Pi.sub_apply, Pi.smul_apply, smul_eq_mul]
      have e1 : h * (g * (1 / h)) = g := by field_simp
      have e2 : h * (-f * (1 / h)) = -f := by field_simp
      rw [← hf, ← hg]
      linear_combination (-(col d.a t i)) * e1 + (col d.a (t - 1) i) * e2
    · rw [if_neg htk]
      by_cases htk1 : t = k - 1
      · subst htk1
        rw [hw, zero_smul, zero_smul, if_pos (by omega), if_pos (by omega)]
        by_cases hk2 : k - 1 = 0
        · rw [hk2, h0, zero_smul, zero_smul]
        · rw [eb.2.2 (k - 1 - 1) (by omega) (by omega)]
      · rw [eb.2.2 t htk1 htk]
        by_cases ht2 : t < k
        · rw [if_pos ht2, if_pos (by omega), eb.2.2 (t - 1) (by omega) (by omega)]
        · rw [if_neg ht2, if_neg (by omega), zero_smul, zero_smul]

theorem iter_zero (anorm : ℝ) {k its : ℕ} (hk : k < n) (d : Dg ℝ m n) (hr : ent d.rv1 k = 0) :
    Ok (iter anorm k its d) (fun p => p.1 = .conv ∧ p.2.rv1 = d.rv1) := by
  have hsplit : splitTest d.w d.rv1 anorm k = .ok (false, k) := by
    cases k with
    | zero =>
      unfold splitTest
      rw [rd_eq d.rv1 hk, ← ent_eq d.rv1 hk]
      simp only [bind, Except.bind]
      rw [if_pos (negligible_real.2 hr)]
    | succ l =>
      unfold splitTest
      rw [rd_eq d.rv1 hk, ← ent_eq d.rv1 hk]
      simp only [bind, Except.bind]
      rw [if_pos (negligible_real.2 hr)]
  unfold iter
  rw [hsplit]
  refine Ok.bind (P := fun q => q = (false, k)) (Ok.ok rfl) fun q hq => ?_
  subst hq
  refine Ok.bind (P := fun q => q = (d.a, d.w)) (Ok.ite (fun h => by cases h) fun _ => Ok.ok rfl) fun q hq => ?_
  subst hq
  refine (rd_ok d.w hk).bind fun z _ => ?_
  simp only [if_true]
  refine Ok.ite (fun _ => ?_) fun _ => Ok.ok ⟨rfl, rfl⟩
  obtain ⟨v', ev, _⟩ := negCol_spec d.v hk
  exact (wr_ok d.w hk _).bind fun _ _ => Ok.bind (P := fun _ => True) (Ok.of_eq ev trivial) fun _ _ => Ok.ok ⟨rfl, rfl⟩

theorem iter_two (anorm : ℝ) {l its : ℕ} (hl : l + 1 < n) (hits : its < 30) (d : Dg ℝ m n) (h0 : ent d.rv1 l = 0)
    (hw : ent d.w l ≠ 0) (hr : ent d.rv1 (l + 1) ≠ 0) :
    Ok (iter anorm (l + 1) its d) (fun p => p.1 = .again ∧ (ent p.2.rv1 (l + 1) = 0 ∨ ent p.2.w l = 0)) := by
  have hl' : l < n := by omega
  have hsplit : splitTest d.w d.rv1 anorm (l + 1) = .ok (false, l) := by
    unfold splitTest
    rw [rd_eq d.rv1 hl, ← ent_eq d.rv1 hl, rd_eq d.w hl', ← ent_eq d.w hl']
    simp only [bind, Except.bind]
    rw [if_neg (by rw [negligible_real]; exact hr), if_neg (by rw [negligible_real]; exact hw)]
    cases l with
    | zero =>
      unfold splitTest
      rw [rd_eq d.rv1 hl', ← ent_eq d.rv1 hl']
      simp only [bind, Except.bind]
      rw [if_pos (negligible_real.2 h0)]
    | succ l =>
      unfold splitTest
      rw [rd_eq d.rv1 hl', ← ent_eq d.rv1 hl']
      simp only [bind, Except.bind]
      rw [if_pos (negligible_real.2 h0)]
  unfold iter
  rw [hsplit]
  refine Ok.bind (P := fun q => q = (false, l)) (Ok.ok rfl) fun q hq => ?_
  subst hq
  refine Ok.bind (P := fun q => q = (d.a, d.w)) (Ok.ite (fun h => by cases h) fun _ => Ok.ok rfl) fun q hq => ?_
  subst hq
  refine (rd_ok d.w hl).bind fun z hz => ?_
  rw [if_neg (by omega), if_neg (by omega)]
  subst hz
  rw [ent_eq _ hl'] at h0 hw
  rw [ent_eq _ hl] at hr
  refine (qrStep_two d hl hw hr h0).bind fun d' hd => Ok.ok ⟨rfl, ?_⟩
  rw [ent_eq _ hl, ent_eq _ hl']
  exact hd

/-- A split block of two columns converges at once when one of its entries is zero. -/
theorem two_conv (anorm : ℝ) (ha : 0 ≤ anorm) {l its : ℕ} (hl : l + 1 < n) (hits : its < 30) (d : Dg ℝ m n)
    (oa : OrthC d.a) (ov : OrthC d.v) (h0 : ent d.rv1 0 = 0) (hd : ent d.rv1 (l + 1) = 0 ∨ ent d.w l = 0) :
    Ok (iter anorm (l + 1) its d) (fun p => p.1 = .conv ∧ OrthC p.2.a ∧ OrthC p.2.v ∧ ent p.2.rv1 0 = 0 ∧
      0 ≤ ent p.2.w (l + 1) ∧ p.2.rv1 = d.rv1 ∧
      ∀ (A : Mat ℝ m n), Near (of A) 0 (l + 2) d → Near (of A) 0 (l + 1) p.2) := by
  by_cases hr : ent d.rv1 (l + 1) = 0
  · refine ((iter_zero anorm hl d hr).and (iter_read NearEq.exact ha hl hits d oa ov h0)).mono ?_
    rintro ⟨c, d'⟩ ⟨⟨h1, h1'⟩, h2, h3, h4⟩
    simp only at h1 h1' h3 h4
    subst h1
    refine ⟨rfl, h3.oa, h3.ov, h3.first, h4 rfl, h1', fun A hN => ?_⟩
    have := h3.near A 0 ⟨l + 1, le_rfl, negligible_real.2 hr, fun t h1 h2 => by omega⟩ hN
    simpa using this
  · refine (iter_last anorm hl (by omega) d oa h0 (hd.resolve_left hr) hr).mono ?_
    rintro ⟨c, d'⟩ ⟨h1, h2, h3, h4, h5, h6⟩
    simp only at h1 h2 h3 h4 h5 h6
    exact ⟨h1, h2, by rw [h3]; exact ov, by rw [h4]; exact h0, h5, h4, fun A hN => h6 A 0 hN⟩

/-- A split block of two columns: the loop for its second singular value converges. -/
theorem two_iters (anorm : ℝ) (ha : 0 ≤ anorm) {l its : ℕ} (hl : l + 1 < n) (hits : its + 1 < 30) (d : Dg ℝ m n)
    (oa : OrthC d.a) (ov : OrthC d.v) (h0 : ent d.rv1 0 = 0) (hl0 : ent d.rv1 l = 0) :
    Ok (iters anorm (l + 1) its d) (fun p => p.1 = .conv ∧ OrthC p.2.a ∧ OrthC p.2.v ∧ ent p.2.rv1 0 = 0 ∧
      0 ≤ ent p.2.w (l + 1) ∧ ∀ (A : Mat ℝ m n), Near (of A) 0 (l + 2) d → Near (of A) 0 (l + 1) p.2) := by
  unfold iters
  rw [if_pos (by omega)]
  by_cases hd : ent d.rv1 (l + 1) = 0 ∨ ent d.w l = 0
  · refine (two_conv anorm ha hl (by omega) d oa ov h0 hd).bind fun p hp => ?_
    obtain ⟨c, d'⟩ := p
    obtain ⟨h1, g1, g2, g3, g4, _, g5⟩ := hp
    simp only at h1
    subst h1
    exact Ok.ok ⟨rfl, g1, g2, g3, g4, g5⟩
  · push Not at hd
    refine ((iter_two anorm hl (by omega) d hl0 hd.2 hd.1).and (iter_read NearEq.exact ha hl (by omega) d oa ov h0)).bind
      fun p hp => ?_
    obtain ⟨c, d'⟩ := p
    obtain ⟨⟨h1, h2⟩, h3, h4, _⟩ := hp
    simp only at h1 h2 h4
    subst h1
    show Ok (iters anorm (l + 1) (its + 1) d') _
    unfold iters
    rw [if_pos (by omega)]
    refine (two_conv anorm ha hl (by omega) d' h4.oa h4.ov h4.first h2).bind fun p hp => ?_
    obtain ⟨c, d''⟩ := p
    obtain ⟨h1, g1, g2, g3, g4, _, g5⟩ := hp
    simp only at h1
    subst h1
    refine Ok.ok ⟨rfl, g1, g2, g3, g4, fun A hN => g5 A ?_⟩
    have := h4.near A 0 ⟨l, by omega, negligible_real.2 hl0, fun t h1 ht => ?_⟩ hN
    · simpa using this
    · have : t = l := by omega
      subst this
      simpa using hd.2

/-- A singular value whose off-diagonal entry is already zero. -/
theorem iters_zero (anorm : ℝ) (ha : 0 ≤ anorm) (d : Dg ℝ m n) {k : ℕ} (hk : k < n) (oa : OrthC d.a) (ov : OrthC d.v)
    (h0 : ent d.rv1 0 = 0) (hk0 : ent d.rv1 k = 0) :
    Ok (iters anorm k 0 d) (fun p => p.1 = .conv ∧ OrthC p.2.a ∧ OrthC p.2.v ∧ 0 ≤ ent p.2.w k ∧ p.2.rv1 = d.rv1 ∧
      (∀ t, k < t → ent p.2.w t = ent d.w t) ∧ ∀ (A : Mat ℝ m n), Near (of A) 0 (k + 1) d → Near (of A) 0 k p.2) := by
  unfold iters
  rw [if_pos (by omega)]
  refine ((iter_zero anorm hk d hk0).and (iter_read NearEq.exact ha hk (by omega) d oa ov h0)).bind fun p hp => ?_
  obtain ⟨c, d'⟩ := p
  obtain ⟨⟨h1, h1'⟩, h2, h3, h4⟩ := hp
  simp only at h1 h1' h3 h4
  subst h1
  refine Ok.ok ⟨rfl, h3.oa, h3.ov, h4 rfl, h1', fun t ht => (h3.keep t ht).1, fun A hN => ?_⟩
  have := h3.near A 0 ⟨k, le_rfl, negligible_real.2 hk0, fun t h1 h2 => by omega⟩ hN
  simpa using this

/-- Householder and accumulation, ready for the diagonalisation. -/
theorem svdcmpFull_start (hmn : n ≤ m) (A : Mat ℝ m n) (w : Vec ℝ n) (v : Mat ℝ n n) :
    ∃ (anorm : ℝ) (d : Dg ℝ m n), 0 ≤ anorm ∧ OrthC d.a ∧ OrthC d.v ∧ ent d.rv1 0 = 0 ∧ Near (of A) 0 n d ∧
      svdcmpFull A w v = (diagonalize anorm n d >>= fun p => .ok (if p.1 then 1 else -1, p.2)) := by
  obtain ⟨st, u, v', e1, e2, e3, e4, e5, e6, e7⟩ := reduce_real hmn A w v
  have oa : OrthC u := (orthC_iff u).2 e4
  have ov : OrthC v' := (orthC_iff v').2 e5
  have hfact := (fact_iff A u st.w st.rv1 v' e7 ov).1 e6
  obtain ⟨st', f1, f2, f3⟩ := householder_anorm A w
  rw [e1] at f1
  cases f1
  refine ⟨st.anorm, ⟨u, st.w, v', st.rv1⟩, f2, oa, ov, ?_, ⟨0, by rw [frob_zero], fun t ht => ?_⟩, ?_⟩
  · unfold ent
    split_ifs with h
    · exact e7 h
    · rfl
  · rw [add_zero, if_pos ht]
    exact hfact t ht
  · unfold svdcmpFull
    rw [if_neg (by omega), e1]
    simp only [bind, Except.bind]
    rw [e2]
    simp only []
    rw [e3]

/-- The conclusion in matrix form. -/
theorem Near.exact {A : Mat ℝ m n} {d : Dg ℝ m n} (h : Near (of A) 0 0 d) (ov : OrthC d.v) :
    of A = of d.a * diagonal d.w * (of d.v)ᵀ := by
  obtain ⟨D, h1, h2⟩ := h
  have hD : D = 0 := by
    have h3 := frob_sq D
    rw [le_antisymm h1 (frob_nonneg D)] at h3
    ext i j
    have h4 : ∑ i, ∑ j, D i j ^ 2 = 0 := by rw [← h3]; ring
    have h5 := (Finset.sum_eq_zero_iff_of_nonneg fun i _ => Finset.sum_nonneg fun j _ => sq_nonneg _).1 h4 i (Finset.mem_univ _)
    have h6 := (Finset.sum_eq_zero_iff_of_nonneg fun j _ => sq_nonneg _).1 h5 j (Finset.mem_univ _)
    exact pow_eq_zero_iff two_ne_zero |>.1 h6
  subst hD
  have := (fact_iff A d.a d.w (fun _ => 0) d.v (fun _ => rfl) ov).2 fun t ht => by
    have := h2 t ht
    rw [add_zero, if_neg (Nat.not_lt_zero t)] at this
    rw [ent_eq (fun _ => (0 : ℝ)) ht]
    exact this
  rw [this]
  congr 2
  ext r c
  unfold bidiag
  rw [diagonal_apply]
  simp only [of_apply]
  by_cases hrc : r = c
  · subst hrc; simp
  · rw [if_neg (fun h => hrc (Fin.ext h.symm)), if_neg hrc]
    simp

theorem svdcmp_two (hmn : 2 ≤ m) (A : Mat ℝ m 2) (w : Vec ℝ 2) (v : Mat ℝ 2 2) :
    ∃ d, svdcmpFull A w v = .ok (1, d) ∧ OrthC d.a ∧ OrthC d.v ∧ (∀ t, 0 ≤ d.w t) ∧
      of A = of d.a * diagonal d.w * (of d.v)ᵀ := by
  obtain ⟨anorm, d, ha, oa, ov, h0, hN, heq⟩ := svdcmpFull_start hmn A w v
  rw [heq]
  have key : Ok (diagonalize anorm 2 d) (fun p => p.1 = true ∧ OrthC p.2.a ∧ OrthC p.2.v ∧ (∀ t, 0 ≤ p.2.w t) ∧
      Near (of A) 0 0 p.2) := by
    unfold diagonalize
    refine (two_iters anorm ha (l := 0) (by omega) (by omega) d oa ov h0 h0).bind fun p hp => ?_
    obtain ⟨c, d1⟩ := p
    obtain ⟨h1, g1, g2, g3, g4, g5⟩ := hp
    simp only at h1
    subst h1
    simp only [reduceCtorEq, if_false]
    unfold diagonalize
    refine (iters_zero anorm ha d1 (k := 0) (by omega) g1 g2 g3 g3).bind fun p hp => ?_
    obtain ⟨c, d2⟩ := p
    obtain ⟨h1, k1, k2, k3, _, k4, k5⟩ := hp
    simp only at h1
    subst h1
    simp only [reduceCtorEq, if_false]
    unfold diagonalize
    refine Ok.ok ⟨rfl, k1, k2, fun t => ?_, k5 A (g5 A hN)⟩
    have hw1 : 0 ≤ ent d2.w 1 := by rw [k4 1 (by omega)]; exact g4
    fin_cases t
    · simpa [ent] using k3
    · simpa [ent] using hw1
  obtain ⟨p, e1, e2, e3, e4, e5, e6⟩ := key
  refine ⟨p.2, ?_, e3, e4, e5, e6.exact e4⟩
  rw [e1]
  simp only [bind, Except.bind, e2, if_true]

theorem svdcmp_one (hmn : 1 ≤ m) (A : Mat ℝ m 1) (w : Vec ℝ 1) (v : Mat ℝ 1 1) :
    ∃ d, svdcmpFull A w v = .ok (1, d) ∧ OrthC d.a ∧ OrthC d.v ∧ (∀ t, 0 ≤ d.w t) ∧
      of A = of d.a * diagonal d.w * (of d.v)ᵀ := by
  obtain ⟨anorm, d, ha, oa, ov, h0, hN, heq⟩ := svdcmpFull_start hmn A w v
  rw [heq]
  have key : Ok (diagonalize anorm 1 d) (fun p => p.1 = true ∧ OrthC p.2.a ∧ OrthC p.2.v ∧ (∀ t, 0 ≤ p.2.w t) ∧
      Near (of A) 0 0 p.2) := by
    unfold diagonalize
    refine (iters_zero anorm ha d (k := 0) (by omega) oa ov h0 h0).bind fun p hp => ?_
    obtain ⟨c, d2⟩ := p
    obtain ⟨h1, k1, k2, k3, _, k4, k5⟩ := hp
    simp only at h1
    subst h1
    simp only [reduceCtorEq, if_false]
    unfold diagonalize
    refine Ok.ok ⟨rfl, k1, k2, fun t => ?_, k5 A hN⟩
    fin_cases t
    simpa [ent] using k3
  obtain ⟨p, e1, e2, e3, e4, e5, e6⟩ := key
  refine ⟨p.2, ?_, e3, e4, e5, e6.exact e4⟩
  rw [e1]
  simp only [bind, Except.bind, e2, if_true]

end CS.SOLVER
