import Verif.Lemmas.FloatInterval
import Verif.Lemmas.FloatScale
import Verif.Lemmas.Spectrum
import Verif.Props.DeltaFloat

/-!
# C108: table lookup in single precision
-/

namespace CS
open B32 F32 Spectrum

theorem rep_mult15 {q : ℚ} (h : Mult (-15) q) (hq : |q| ≤ 512) : Rep q := by
  obtain ⟨m, rfl⟩ := h
  refine rep_of_le rfl ?_ (by norm_num)
  rw [_root_.abs_mul, abs_of_pos (by positivity : (0 : ℚ) < 2 ^ (-15 : ℤ))] at hq
  have : |(m : ℚ)| ≤ 2 ^ 24 := by
    have h1 : (2 : ℚ) ^ (-15 : ℤ) = 1 / 32768 := by norm_num
    rw [h1] at hq
    linarith
  exact_mod_cast this

theorem rnd_close {q : ℚ} {e : ℤ} (he : -149 ≤ e) (h : |q| < 2 ^ (e + 24)) : |rnd q - q| ≤ 2 ^ e / 2 := by
  refine (rnd_err q).trans ?_
  have := zpow_le_zpow_right₀ (a := (2 : ℚ)) (by norm_num) (ex_le_of_lt he h)
  linarith

theorem mult_gap {d : ℚ} {n e : ℤ} (hm : Mult e d) (he : e ≤ 0) (hd' : d < n + 1) : d ≤ n + 1 - 2 ^ e := by
  obtain ⟨k, hk'⟩ := Int.eq_ofNat_of_zero_le (neg_nonneg.2 he)
  have hk : e = -(k : ℤ) := by omega
  subst hk
  obtain ⟨m, rfl⟩ := hm
  have p : (0 : ℚ) < 2 ^ k := by positivity
  rw [zpow_neg, zpow_natCast] at hd' ⊢
  have h2 : (m : ℚ) < (n + 1) * 2 ^ k := by
    rwa [← div_eq_mul_inv, div_lt_iff₀ p] at hd'
  have h3 : m < (n + 1) * 2 ^ k := by exact_mod_cast h2
  have h4 : m + 1 ≤ (n + 1) * 2 ^ k := h3
  have h5 : (m : ℚ) + 1 ≤ (n + 1) * 2 ^ k := by exact_mod_cast h4
  have h6 : ((m : ℚ) + 1) / 2 ^ k ≤ n + 1 := by rw [div_le_iff₀ p]; exact h5
  rw [add_div, one_div, div_eq_mul_inv] at h6
  linarith

/-- The cell of `d`: the two roundings do not move the offset of a wavelength across an integer. -/
theorem cell {d : ℚ} {n : ℤ} (hm : Mult (-15) d ∧ n ≤ 131 ∨ Mult (-14) d) (h0 : 0 ≤ n) (h1 : n ≤ 398) (hd : n ≤ d)
    (hd' : d < n + 1) : n ≤ rnd (rnd (399 * d) / 399) ∧ rnd (rnd (399 * d) / 399) < n + 1 := by
  have n0 : (0 : ℚ) ≤ n := by exact_mod_cast h0
  have n1 : (n : ℚ) ≤ 398 := by exact_mod_cast h1
  constructor
  · refine le_rnd (rep_int (by rw [abs_of_nonneg h0]; omega)) ?_
    rw [le_div_iff₀ (by norm_num)]
    have : ((399 * n : ℤ) : ℚ) ≤ rnd (399 * d) := le_rnd (rep_int (by rw [abs_of_nonneg (by omega)]; omega)) (by push_cast; linarith)
    push_cast at this
    linarith
  · have p0 : 0 ≤ rnd (399 * d) := rnd_nonneg (by linarith)
    rcases hm with ⟨hm, hn⟩ | hm
    · have g := mult_gap hm (by norm_num) hd'
      have n2 : (n : ℚ) ≤ 131 := by exact_mod_cast hn
      have p := rnd_close (q := 399 * d) (e := -8) (by norm_num) (by rw [abs_of_nonneg (by linarith)]; norm_num; linarith)
      have p2 := (_root_.abs_le.1 p).2
      have q := rnd_close (q := rnd (399 * d) / 399) (e := -16) (by norm_num) (by
        rw [abs_of_nonneg (by positivity), div_lt_iff₀ (by norm_num)]
        norm_num at p2 ⊢
        linarith)
      have q2 := (_root_.abs_le.1 q).2
      generalize rnd (399 * d) = P at *
      norm_num at g p2 q2
      linarith
    · have g := mult_gap hm (by norm_num) hd'
      have p := rnd_close (q := 399 * d) (e := -6) (by norm_num) (by rw [abs_of_nonneg (by linarith)]; norm_num; linarith)
      have p2 := (_root_.abs_le.1 p).2
      have q := rnd_close (q := rnd (399 * d) / 399) (e := -15) (by norm_num) (by
        rw [abs_of_nonneg (by positivity), div_lt_iff₀ (by norm_num)]
        norm_num at p2 ⊢
        linarith)
      have q2 := (_root_.abs_le.1 q).2
      generalize rnd (399 * d) = P at *
      norm_num at g p2 q2
      linarith

theorem lit380_is : Is (lit 380 : F32) 380 := by
  have := Is.litInt (n := 380) (by norm_num); exact_mod_cast this
theorem lit1_is : Is (lit 1 : F32) 1 := by
  have := Is.litInt (n := 1) (by norm_num); exact_mod_cast this
theorem span_is : Is ((lit 779 : F32) - lit 380) 399 := by
  have h : Is (lit 779 : F32) 779 := by have := Is.litInt (n := 779) (by norm_num); exact_mod_cast this
  have e : (779 : ℚ) - 380 = ((399 : ℤ) : ℚ) := by norm_num
  have := h.sub_rnd lit380_is (by rw [e, rnd_of_rep (rep_int (by norm_num))]; norm_num)
  rw [e, rnd_of_rep (rep_int (by norm_num))] at this
  exact_mod_cast this

theorem trunc_floor {q : ℚ} (h : 0 ≤ q) : F32.trunc q = ⌊q⌋ := if_pos h

section
variable (s : Spectrum F32) {t : F32}

/-- The index computed by `fetch`. -/
theorem fetch_index {n : ℤ} (h1 : intMin ≤ n) (h2 : n < intMax)
    (hi : Arith.toInt (Arith.ofInt 399 * (t - lit 380) / (lit 779 - lit 380)) = some n) :
    s.fetch t = (if n ≥ 399 then .ok (s ⟨399, by decide⟩) else if n ≤ 0 then .ok (s ⟨0, by decide⟩) else do
      let x ← at' (List.ofFn s) n
      let y ← at' (List.ofFn s) (n + 1)
      return lerp x y ((t - Arith.ofInt n * (lit 779 - lit 380) / Arith.ofInt 399 - lit 380) /
        (Arith.ofInt (n + 1) * (lit 779 - lit 380) / Arith.ofInt 399 - Arith.ofInt n * (lit 779 - lit 380) / Arith.ofInt 399))) := by
  unfold fetch fetchFrom
  have e : int32 ((400 : ℤ) - 1) = .ok 399 := rfl
  rw [e]
  show (match Arith.toInt (Arith.ofInt 399 * (t - lit 380) / (lit 779 - lit 380)) with
    | none => _ | some index => _) = _
  rw [hi]
  simp only
  rw [int32_ok (i := n + 1) (by omega) (by omega)]
  have a399 : at' (List.ofFn s) 399 = .ok (s ⟨399, by decide⟩) := by
    have := at_ok (l := List.ofFn s) (i := 399) (by rw [List.length_ofFn]; norm_num)
    rw [List.getElem_ofFn] at this
    exact this
  have a0 : at' (List.ofFn s) 0 = .ok (s ⟨0, by decide⟩) := by
    have := at_ok (l := List.ofFn s) (i := 0) (by rw [List.length_ofFn]; norm_num)
    rw [List.getElem_ofFn] at this
    exact this
  show (if n ≥ 399 then at' (List.ofFn s) 399 else if n ≤ 0 then at' (List.ofFn s) 0 else _) = _
  rw [a399, a0]

theorem index_in {n : ℤ} (ht : t.isFinite = true) (h0 : 0 ≤ n) (h1 : n ≤ 398) (hd : 380 + n ≤ t.val) (hd' : t.val < 380 + n + 1) :
    Arith.toInt (Arith.ofInt 399 * (t - lit 380) / (lit 779 - lit 380)) = some n ∧ Mult (-15) t.val ∧ Is (t - lit 380) (t.val - 380) := by
  have n0 : (0 : ℚ) ≤ n := by exact_mod_cast h0
  have n1 : (n : ℚ) ≤ 398 := by exact_mod_cast h1
  have hm : Mult (-15) t.val := by
    have := Mult.of_rep (e := 8) (rep_val t) (.inr (by rw [abs_of_nonneg (by linarith)]; norm_num; linarith))
    norm_num at this
    exact this
  have hm' : Mult (-15) (t.val - 380) := by
    rw [sub_eq_add_neg]
    exact hm.add ⟨-(380 * 2 ^ 15), by norm_num⟩
  have hs : Is (t - lit 380) (t.val - 380) := by
    have hr := rep_mult15 hm' (by rw [abs_of_nonneg (by linarith)]; linarith)
    have := (Is.of t ht).sub_rnd lit380_is (by rw [rnd_of_rep hr, abs_of_nonneg (by linarith)]; linarith)
    rwa [rnd_of_rep hr] at this
  have hc : Mult (-15) (t.val - 380) ∧ n ≤ 131 ∨ Mult (-14) (t.val - 380) := by
    rcases le_or_gt n 131 with h | h
    · exact .inl ⟨hm', h⟩
    · right
      have h' : (132 : ℚ) ≤ n := by exact_mod_cast h
      have := Mult.of_rep (e := 9) (rep_val t) (.inr (by rw [abs_of_nonneg (by linarith)]; norm_num; linarith))
      norm_num at this
      rw [sub_eq_add_neg]
      exact this.add ⟨-(380 * 2 ^ 14), by norm_num⟩
  obtain ⟨c1, c2⟩ := cell (d := t.val - 380) (n := n) hc h0 h1 (by linarith) (by linarith)
  have p0 : 0 ≤ rnd (399 * (t.val - 380)) := rnd_nonneg (by linarith)
  have p1 : rnd (399 * (t.val - 380)) ≤ ((399 * 399 : ℤ) : ℚ) := rnd_le (rep_int (by norm_num)) (by push_cast; linarith)
  have i1 : Is (Arith.ofInt 399 * (t - lit 380)) (rnd (399 * (t.val - 380))) :=
    (Is.ofInt (n := 399) (by norm_num)).mul_rnd hs (by
      push_cast at p1 ⊢
      rw [abs_of_nonneg p0]; linarith)
  have i2 := i1.div_rnd span_is (by norm_num) (by
    rw [abs_of_nonneg (le_trans n0 c1)]; linarith)
  refine ⟨?_, hm, hs⟩
  show F32.toInt _ = _
  rw [toInt_finite i2.1, i2.2, trunc_floor (le_trans n0 c1), Int.floor_eq_iff.2 ⟨c1, c2⟩, if_pos]
  unfold intMin intMax
  omega

/-- C108: for every binary32 wavelength from 381 to 779 the index is the integer part and the two weights are computed without
error: what is returned is `s[k]*w + s[k+1]*r` with `r` exactly the fractional part and `w` exactly `1 - r`. -/
theorem C108_weights (ht : t.isFinite = true) (h1 : 381 ≤ t.val) (h2 : t.val < 779) :
    ∃ (k : ℕ) (hk : k + 1 < 400) (w r : F32), (k : ℤ) = ⌊t.val⌋ - 380 ∧ Is r (t.val - ⌊t.val⌋) ∧ Is w (1 - (t.val - ⌊t.val⌋)) ∧
      s.fetch t = .ok (s ⟨k, by omega⟩ * w + s ⟨k + 1, hk⟩ * r) := by
  have f1 : 381 ≤ ⌊t.val⌋ := Int.le_floor.2 (by exact_mod_cast h1)
  have f2 : ⌊t.val⌋ < 779 := Int.floor_lt.2 (by exact_mod_cast h2)
  have fl := Int.floor_le t.val
  have fu := Int.lt_floor_add_one t.val
  obtain ⟨k, hk⟩ : ∃ k : ℕ, (k : ℤ) = ⌊t.val⌋ - 380 := ⟨(⌊t.val⌋ - 380).toNat, Int.toNat_of_nonneg (by omega)⟩
  have hkq : (k : ℚ) = ⌊t.val⌋ - 380 := by exact_mod_cast hk
  obtain ⟨hi, hm, hs⟩ := index_in (n := k) ht (by omega) (by omega) (by push_cast; linarith) (by push_cast; linarith)
  have hr0 : 0 ≤ t.val - ⌊t.val⌋ := by linarith
  have hr1 : t.val - ⌊t.val⌋ < 1 := by linarith
  have il : Is (Arith.ofInt (k : ℤ) * (lit 779 - lit 380) / Arith.ofInt 399) (k : ℤ) := by
    have a : Is (Arith.ofInt (k : ℤ) * (lit 779 - lit 380)) ((k : ℤ) * 399) := by
      refine (Is.ofInt (by rw [abs_of_nonneg (by omega)]; omega)).mul span_is ?_ ?_
      · have := rep_int (n := (k : ℤ) * 399) (by rw [abs_of_nonneg (by omega)]; omega)
        push_cast at this ⊢; exact this
      · rw [abs_of_nonneg (by positivity)]
        have : ((k : ℤ) : ℚ) ≤ 399 := by exact_mod_cast (by omega : (k : ℤ) ≤ 399)
        linarith
    have e : ((k : ℤ) : ℚ) * 399 / ((399 : ℤ) : ℚ) = (k : ℤ) := by push_cast; field_simp
    have := a.div (Is.ofInt (n := 399) (by norm_num)) (by norm_num) (by rw [e]; exact rep_int (by rw [abs_of_nonneg (by omega)]; omega))
      (by rw [e, abs_of_nonneg (by positivity)]; exact lt_of_le_of_lt (by exact_mod_cast (by omega : (k : ℤ) ≤ 399)) (by norm_num : ((399 : ℤ) : ℚ) < 2 ^ 128))
    rwa [e] at this
  have ih : Is (Arith.ofInt ((k : ℤ) + 1) * (lit 779 - lit 380) / Arith.ofInt 399) ((k : ℤ) + 1 : ℤ) := by
    have a : Is (Arith.ofInt ((k : ℤ) + 1) * (lit 779 - lit 380)) (((k : ℤ) + 1 : ℤ) * 399) := by
      refine (Is.ofInt (by rw [abs_of_nonneg (by omega)]; omega)).mul span_is ?_ ?_
      · have := rep_int (n := ((k : ℤ) + 1) * 399) (by rw [abs_of_nonneg (by omega)]; omega)
        push_cast at this ⊢; exact this
      · rw [abs_of_nonneg (by positivity)]
        have : (((k : ℤ) + 1 : ℤ) : ℚ) ≤ 399 := by exact_mod_cast (by omega : (k : ℤ) + 1 ≤ 399)
        linarith
    have e : (((k : ℤ) + 1 : ℤ) : ℚ) * 399 / ((399 : ℤ) : ℚ) = ((k : ℤ) + 1 : ℤ) := by push_cast; field_simp
    have := a.div (Is.ofInt (n := 399) (by norm_num)) (by norm_num) (by rw [e]; exact rep_int (by rw [abs_of_nonneg (by omega)]; omega))
      (by rw [e, abs_of_nonneg (by positivity)]; exact lt_of_le_of_lt (by exact_mod_cast (by omega : (k : ℤ) + 1 ≤ 399)) (by norm_num : ((399 : ℤ) : ℚ) < 2 ^ 128))
    rwa [e] at this
  have mk : Mult (-15) (t.val - (k : ℤ)) := by
    rw [sub_eq_add_neg]
    exact hm.add ⟨-((k : ℤ) * 2 ^ 15), by push_cast; norm_num; ring⟩
  have mr : Mult (-15) (t.val - ⌊t.val⌋) := by
    rw [sub_eq_add_neg]
    exact hm.add ⟨-(⌊t.val⌋ * 2 ^ 15), by push_cast; norm_num; ring⟩
  have i1 : Is (t - Arith.ofInt (k : ℤ) * (lit 779 - lit 380) / Arith.ofInt 399) (t.val - (k : ℤ)) := by
    have b : |t.val - ((k : ℤ) : ℚ)| ≤ 512 := by
      push_cast; rw [abs_of_nonneg (by linarith)]; linarith
    have hr := rep_mult15 mk b
    have := (Is.of t ht).sub_rnd il (by rw [rnd_of_rep hr]; exact lt_of_le_of_lt b (by norm_num))
    rwa [rnd_of_rep hr] at this
  have rr := rep_mult15 mr (by rw [abs_of_nonneg hr0]; linarith)
  have i2 : Is (t - Arith.ofInt (k : ℤ) * (lit 779 - lit 380) / Arith.ofInt 399 - lit 380) (t.val - ⌊t.val⌋) := by
    have e : t.val - ((k : ℤ) : ℚ) - 380 = t.val - ⌊t.val⌋ := by push_cast; linarith
    have := i1.sub_rnd lit380_is (by rw [e, rnd_of_rep rr, abs_of_nonneg hr0]; exact lt_trans hr1 (by norm_num))
    rwa [e, rnd_of_rep rr] at this
  have i3 : Is (Arith.ofInt ((k : ℤ) + 1) * (lit 779 - lit 380) / Arith.ofInt 399 -
      Arith.ofInt (k : ℤ) * (lit 779 - lit 380) / Arith.ofInt 399) 1 := by
    have e : ((((k : ℤ) + 1 : ℤ) : ℚ)) - ((k : ℤ) : ℚ) = ((1 : ℤ) : ℚ) := by push_cast; ring
    have := ih.sub_rnd il (by rw [e, rnd_of_rep (rep_int (by norm_num))]; norm_num)
    rw [e, rnd_of_rep (rep_int (by norm_num))] at this
    simpa using this
  have i4 := i2.div i3 (by norm_num) (by rw [div_one]; exact rr) (by rw [div_one, abs_of_nonneg hr0]; exact lt_trans hr1 (by norm_num))
  rw [div_one] at i4
  have rw' : Rep (1 - (t.val - ⌊t.val⌋)) := by
    refine rep_mult15 ?_ (by rw [abs_of_nonneg (by linarith)]; linarith)
    rw [sub_eq_add_neg]
    exact Mult.add ⟨2 ^ 15, by norm_num⟩ mr.neg
  have i5 : Is (lit 1 - (t - Arith.ofInt (k : ℤ) * (lit 779 - lit 380) / Arith.ofInt 399 - lit 380) /
      (Arith.ofInt ((k : ℤ) + 1) * (lit 779 - lit 380) / Arith.ofInt 399 - Arith.ofInt (k : ℤ) * (lit 779 - lit 380) / Arith.ofInt 399))
      (1 - (t.val - ⌊t.val⌋)) := by
    have := lit1_is.sub_rnd i4 (by rw [rnd_of_rep rw', abs_of_nonneg (by linarith)]; exact lt_of_le_of_lt (b := (1 : ℚ)) (by linarith) (by norm_num))
    rwa [rnd_of_rep rw'] at this
  refine ⟨k, by omega, _, _, hk, i4, i5, ?_⟩
  rw [fetch_index s (by unfold intMin; omega) (by unfold intMax; omega) hi, if_neg (by omega), if_neg (by omega)]
  have a1 := at_ok (l := List.ofFn s) (i := k) (by rw [List.length_ofFn]; omega)
  have a2 := at_ok (l := List.ofFn s) (i := k + 1) (by rw [List.length_ofFn]; omega)
  rw [List.getElem_ofFn] at a1 a2
  push_cast at a2
  rw [a1, a2]
  rfl

/-- C108: the value is the linear interpolation up to two roundings, and a blend of non-negative samples is non-negative. -/
theorem C108_interpolates (ht : t.isFinite = true) (h1 : 381 ≤ t.val) (h2 : t.val < 779)
    (hs : ∀ i, (s i).isFinite = true ∧ |(s i).val| ≤ 2 ^ 100) :
    ∃ (k : ℕ) (hk : k + 1 < 400) (v : F32), (k : ℤ) = ⌊t.val⌋ - 380 ∧ s.fetch t = .ok v ∧ v.isFinite = true ∧
      |v.val - ((1 - Int.fract t.val) * (s ⟨k, by omega⟩).val + Int.fract t.val * (s ⟨k + 1, hk⟩).val)| ≤
        ((1 - Int.fract t.val) * |(s ⟨k, by omega⟩).val| + Int.fract t.val * |(s ⟨k + 1, hk⟩).val|) * (1 / 2 ^ 23 + 1 / 2 ^ 48) + 1 / 2 ^ 148 ∧
      (0 ≤ (s ⟨k, by omega⟩).val → 0 ≤ (s ⟨k + 1, hk⟩).val → 0 ≤ v.val) := by
  obtain ⟨k, hk, w, r, e, ir, iw, hf⟩ := C108_weights s ht h1 h2
  refine ⟨k, hk, _, e, hf, ?_⟩
  have r0 := Int.fract_nonneg t.val
  have r1 := (Int.fract_lt_one t.val).le
  change Is r (Int.fract t.val) at ir
  change Is w (1 - Int.fract t.val) at iw
  have r0' : 0 ≤ 1 - Int.fract t.val := by linarith
  obtain ⟨fa, ba⟩ := hs ⟨k, by omega⟩
  obtain ⟨fb, bb⟩ := hs ⟨k + 1, hk⟩
  generalize s ⟨k, by omega⟩ = a at *
  generalize s ⟨k + 1, hk⟩ = b at *
  generalize Int.fract t.val = ρ at *
  have i1 := (In.of_abs fa ba).mul_abs (In.of_abs (b := 1) iw.1 (by rw [iw.2, abs_of_nonneg r0']; linarith)) (2 ^ 100)
  have i2 := (In.of_abs fb bb).mul_abs (In.of_abs (b := 1) ir.1 (by rw [ir.2, abs_of_nonneg r0]; linarith)) (2 ^ 100)
  have i3 := i1.add i2 (-2 ^ 101) (2 ^ 101)
  have e1 := mul_val i1.fin
  have e2 := mul_val i2.fin
  have e3 := add_val i3.fin
  rw [iw.2] at e1
  rw [ir.2] at e2
  refine ⟨i3.fin, ?_, fun ha hb => ?_⟩
  · have q1 := rnd_rel' (a.val * (1 - ρ))
    have q2 := rnd_rel' (b.val * ρ)
    have q3 := rnd_add_rel (rep_val (a * w)) (rep_val (b * r))
    rw [← e1, _root_.abs_mul, abs_of_nonneg r0'] at q1
    rw [← e2, _root_.abs_mul, abs_of_nonneg r0] at q2
    rw [← e3] at q3
    have t1 := abs_add_le (a * w).val (b * r).val
    have t2 := abs_sub_abs_le_abs_sub (a * w).val (a.val * (1 - ρ))
    have t3 := abs_sub_abs_le_abs_sub (b * r).val (b.val * ρ)
    rw [_root_.abs_mul, abs_of_nonneg r0'] at t2
    rw [_root_.abs_mul, abs_of_nonneg r0] at t3
    have P0 : 0 ≤ |a.val| * (1 - ρ) := by positivity
    have Q0 : 0 ≤ |b.val| * ρ := by positivity
    have tri : |(a * w + b * r).val - ((1 - ρ) * a.val + ρ * b.val)| ≤
        |(a * w + b * r).val - ((a * w).val + (b * r).val)| + |(a * w).val - a.val * (1 - ρ)| + |(b * r).val - b.val * ρ| := by
      refine le_trans (le_of_eq ?_) (abs_add_three _ _ _)
      congr 1; ring
    refine tri.trans ?_
    rw [show (1 - ρ) * |a.val| + ρ * |b.val| = |a.val| * (1 - ρ) + |b.val| * ρ by ring]
    generalize |(a * w + b * r).val - ((a * w).val + (b * r).val)| = E3 at *
    generalize |(a * w).val - a.val * (1 - ρ)| = E1 at *
    generalize |(b * r).val - b.val * ρ| = E2 at *
    generalize |(a * w).val + (b * r).val| = S at *
    generalize |(a * w).val| = A at *
    generalize |(b * r).val| = B at *
    generalize |a.val| * (1 - ρ) = P at *
    generalize |b.val| * ρ = Q at *
    norm_num at q1 q2 q3 ⊢
    linarith
  · rw [e3, e1, e2]
    exact rnd_nonneg (add_nonneg (rnd_nonneg (mul_nonneg ha r0')) (rnd_nonneg (mul_nonneg hb r0)))

/-- C108: below 381 the first sample (the whole first nanometre included), from 779 on the last. -/
theorem C108_ends (ht : t.isFinite = true) :
    (-2 ^ 30 ≤ t.val → t.val < 381 → s.fetch t = .ok (s ⟨0, by decide⟩)) ∧
    (779 ≤ t.val → t.val ≤ 2 ^ 30 → s.fetch t = .ok (s ⟨399, by decide⟩)) := by
  constructor
  · intro h1 h2
    rcases le_or_gt 380 t.val with h | h
    · obtain ⟨hi, -, -⟩ := index_in (n := 0) ht (by norm_num) (by norm_num) (by push_cast; linarith) (by push_cast; linarith)
      rw [fetch_index s (by unfold intMin; omega) (by unfold intMax; omega) hi, if_neg (by omega), if_pos (by omega)]
    · have i1 : In (t - lit 380) (-(3 * 2 ^ 29)) 0 := .of_sub ht lit380_is.1 (by rw [lit380_is.2]; norm_num at h1 ⊢; linarith) (by rw [lit380_is.2]; linarith)
      have i399 : In (Arith.ofInt 399 : F32) 399 399 := by
        have := Is.ofInt (n := 399) (by norm_num)
        exact ⟨this.1, by rw [this.2]; norm_num, by rw [this.2]; norm_num⟩
      have i2 : In (Arith.ofInt 399 * (t - lit 380)) (-(399 * (3 * 2 ^ 29))) 0 := by
        have v : (Arith.ofInt 399 : F32).val = 399 := le_antisymm i399.hi i399.lo
        exact .of_mul i399.fin i1.fin (by rw [v]; linarith [i1.lo]) (by rw [v]; linarith [i1.hi])
      have i3 : In (Arith.ofInt 399 * (t - lit 380) / (lit 779 - lit 380)) (-(3 * 2 ^ 29)) 0 := by
        refine .of_div i2.fin span_is.1 (by rw [span_is.2]; norm_num) ?_ ?_ <;> rw [span_is.2]
        · rw [le_div_iff₀ (by norm_num)]; linarith [i2.lo]
        · rw [div_le_iff₀ (by norm_num)]; linarith [i2.hi]
      obtain ⟨n, hn, n0, n1⟩ : ∃ n : ℤ, Arith.toInt (Arith.ofInt 399 * (t - lit 380) / (lit 779 - lit 380)) = some n ∧ n ≤ 0 ∧ -(3 * 2 ^ 29) ≤ n := by
        have tr : F32.trunc (Arith.ofInt 399 * (t - lit 380) / (lit 779 - lit 380) : F32).val ≤ 0 ∧
            -(3 * 2 ^ 29) ≤ F32.trunc (Arith.ofInt 399 * (t - lit 380) / (lit 779 - lit 380) : F32).val := by
          have a := i3.lo
          have b := i3.hi
          generalize (Arith.ofInt 399 * (t - lit 380) / (lit 779 - lit 380) : F32).val = q at *
          unfold F32.trunc
          split_ifs with hq
          · have : q = 0 := le_antisymm b hq
            subst this; norm_num
          · refine ⟨Int.ceil_le.2 (by exact_mod_cast b), ?_⟩
            have : ((-(3 * 2 ^ 29) : ℤ) : ℚ) ≤ ⌈q⌉ := le_trans (by push_cast; norm_num at a ⊢; exact a) (Int.le_ceil q)
            exact_mod_cast this
        refine ⟨_, ?_, tr⟩
        show F32.toInt _ = _
        rw [toInt_finite i3.fin, if_pos]
        unfold intMin intMax
        omega
      rw [fetch_index s (by unfold intMin; omega) (by unfold intMax; omega) hn, if_neg (by omega), if_pos n0]
  · intro h1 h2
    have i1 : In (t - lit 380) 399 (2 ^ 30) := .of_sub ht lit380_is.1 (by rw [lit380_is.2]; linarith) (by rw [lit380_is.2]; linarith)
    have i399 : In (Arith.ofInt 399 : F32) 399 399 := by
      have := Is.ofInt (n := 399) (by norm_num)
      exact ⟨this.1, by rw [this.2]; norm_num, by rw [this.2]; norm_num⟩
    have i2 := i399.mul i1 (399 * 399) (399 * 2 ^ 30)
    have isp : In (lit 779 - lit 380 : F32) 399 399 := ⟨span_is.1, by rw [span_is.2], by rw [span_is.2]⟩
    have i3 := i2.div isp 399 (2 ^ 30)
    obtain ⟨n, hn, n0, n1⟩ : ∃ n : ℤ, Arith.toInt (Arith.ofInt 399 * (t - lit 380) / (lit 779 - lit 380)) = some n ∧ 399 ≤ n ∧ n ≤ 2 ^ 30 := by
      have a := i3.lo
      have b := i3.hi
      have tr : F32.trunc (Arith.ofInt 399 * (t - lit 380) / (lit 779 - lit 380) : F32).val = ⌊(Arith.ofInt 399 * (t - lit 380) / (lit 779 - lit 380) : F32).val⌋ :=
        trunc_floor (le_trans (by norm_num) a)
      have l : 399 ≤ ⌊(Arith.ofInt 399 * (t - lit 380) / (lit 779 - lit 380) : F32).val⌋ := Int.le_floor.2 (by exact_mod_cast a)
      have u : ⌊(Arith.ofInt 399 * (t - lit 380) / (lit 779 - lit 380) : F32).val⌋ ≤ 2 ^ 30 := by
        have := (Int.floor_le (Arith.ofInt 399 * (t - lit 380) / (lit 779 - lit 380) : F32).val).trans b
        exact_mod_cast this
      refine ⟨_, ?_, l, u⟩
      show F32.toInt _ = _
      rw [toInt_finite i3.fin, tr, if_pos]
      unfold intMin intMax
      omega
    rw [fetch_index s (by unfold intMin; omega) (by unfold intMax; omega) hn, if_pos (by omega)]

/-- C108: a NaN or an infinite wavelength is converted to `int`, which is undefined. -/
theorem C108_undefined : s.fetch .nan = .error .badCast ∧ ∀ b, s.fetch (.inf b) = .error .badCast := by
  have key : ∀ t : F32, Arith.toInt (Arith.ofInt 399 * (t - lit 380) / (lit 779 - lit 380)) = none → s.fetch t = .error .badCast := by
    intro t h
    unfold fetch fetchFrom
    have e : int32 ((400 : ℤ) - 1) = .ok 399 := rfl
    rw [e]
    show (match Arith.toInt (Arith.ofInt 399 * (t - lit 380) / (lit 779 - lit 380)) with
      | none => _ | some index => _) = _
    rw [h]
  exact ⟨key _ (by decide +kernel), fun b => key _ (by cases b <;> decide +kernel)⟩

end

/-- A flat spectrum at 555.5 nm meets the hypotheses. -/
example : (lit 555.5 : F32).isFinite = true ∧ 381 ≤ (lit 555.5 : F32).val ∧ (lit 555.5 : F32).val < 779 ∧
    ∀ i, ((Spectrum.E (lit 1) : Spectrum F32) i).isFinite = true ∧ |((Spectrum.E (lit 1) : Spectrum F32) i).val| ≤ 2 ^ 100 := by
  refine ⟨?_, ?_, ?_, fun i => ⟨?_, ?_⟩⟩
  · decide +kernel
  · decide +kernel
  · decide +kernel
  · exact lit1_is.1
  · show |(lit 1 : F32).val| ≤ 2 ^ 100
    rw [lit1_is.2]; norm_num

end CS
