import Verif.Lemmas.OTF
import Mathlib.Analysis.Complex.ExponentialBounds
import Mathlib.Tactic.IntervalCases

/-!
# C18-C27: transfer functions  (exact arithmetic unless stated otherwise)
-/

namespace CS
open OTF Spec

/-- Apply a scalar function to each channel (specification). -/
def Spec.map3 {α : Type} (f : α → α) (t : Tristimulus α) : Tristimulus α := ⟨f t.a, f t.b, f t.c⟩

theorem rpow_inv_rpow' {x p q : ℝ} (hx : 0 ≤ x) (h : p * q = 1) : (x ^ p) ^ q = x := by
  rw [← Real.rpow_mul hx, h, Real.rpow_one]

/-! ## C18: sRGB -/

theorem srgb_high {x : ℝ} (h0 : srgbKnee ≤ x) : 0.04045 ≤ 1.055 * x ^ ((1 : ℝ) / 2.4) - 0.055 := by
  have := Real.rpow_le_rpow (by unfold srgbKnee; positivity) h0 (show (0 : ℝ) ≤ 1 / 2.4 by norm_num)
  rw [srgbKnee, rpow_inv_rpow' (by norm_num) (by norm_num)] at this
  linarith

theorem srgb_low {x : ℝ} (h : 0 ≤ x) (h0 : x < srgbKnee) : 1.055 * x ^ ((1 : ℝ) / 2.4) - 0.055 < 0.04045 := by
  have := Real.rpow_lt_rpow h h0 (show (0 : ℝ) < 1 / 2.4 by norm_num)
  rw [srgbKnee, rpow_inv_rpow' (by norm_num) (by norm_num)] at this
  linarith

theorem srgb_le_one {x : ℝ} (h : 0 ≤ x) (h1 : x ≤ 1) : 1.055 * x ^ ((1 : ℝ) / 2.4) - 0.055 ≤ 1 := by
  have := Real.rpow_le_one h h1 (show (0 : ℝ) ≤ 1 / 2.4 by norm_num)
  linarith

theorem srgbKnee_lt : srgbKnee < 0.0031308074 := by
  have : srgbKnee ≤ 0.0031308073 := by
    have := rpow_le_of_pow (x := (0.04045 + 0.055) / 1.055) (r := 0.0031308073) (p := 12) (q := 5)
      (by norm_num) (by norm_num) (by norm_num) (by norm_num)
    rwa [show (((12 : ℕ) : ℝ) / ((5 : ℕ) : ℝ)) = 2.4 by norm_num] at this
  linarith

theorem lt_srgbKnee : 0.0031308 < srgbKnee := by
  have : 0.0031308072 ≤ srgbKnee := by
    have := le_rpow_of_pow (x := (0.04045 + 0.055) / 1.055) (r := 0.0031308072) (p := 12) (q := 5)
      (by norm_num) (by norm_num) (by norm_num) (by norm_num)
    rwa [show (((12 : ℕ) : ℝ) / ((5 : ℕ) : ℝ)) = 2.4 by norm_num] at this
  linarith

theorem srgb_at_knee : 0.0404499074 ≤ 1.055 * (0.0031308 : ℝ) ^ ((1 : ℝ) / 2.4) - 0.055 := by
  have := le_rpow_of_pow (x := 0.0031308) (r := 0.0954499074 / 1.055) (p := 5) (q := 12)
      (by norm_num) (by norm_num) (by norm_num) (by norm_num)
  rw [show (((5 : ℕ) : ℝ) / ((12 : ℕ) : ℝ)) = 1 / 2.4 by norm_num] at this
  linarith

theorem srgb_at_knee' : 1.055 * (0.0031308 : ℝ) ^ ((1 : ℝ) / 2.4) - 0.055 ≤ 0.0404499075 := by
  have := rpow_le_of_pow (x := 0.0031308) (r := 0.0954499075 / 1.055) (p := 5) (q := 12)
      (by norm_num) (by norm_num) (by norm_num) (by norm_num)
  rw [show (((5 : ℕ) : ℝ) / ((12 : ℕ) : ℝ)) = 1 / 2.4 by norm_num] at this
  linarith

theorem srgb_mono_high {x : ℝ} (h : 0.0031308 ≤ x) : 0.0404499074 ≤ 1.055 * x ^ ((1 : ℝ) / 2.4) - 0.055 := by
  have := Real.rpow_le_rpow (by norm_num) h (show (0 : ℝ) ≤ 1 / 2.4 by norm_num)
  have := srgb_at_knee
  linarith

/-- Scalar round trip of the sRGB curves. -/
theorem sRGB_scalar (x : ℝ) (h : x < 0.0031308 ∨ srgbKnee ≤ x) :
    sRGB_to_Y (Y_to_sRGB x) = clampTo 0 1 x := by
  unfold clampTo
  rw [Y_to_sRGB_real]
  split_ifs with h0 h1
  · rw [min_eq_right (by linarith), max_eq_left h0.le, sRGB_to_Y_real]; norm_num
  · rw [min_eq_left h1.le, max_eq_right (by norm_num), sRGB_to_Y_real]; norm_num
  · rw [min_eq_right (by linarith), max_eq_right (by linarith)]
    unfold srgb
    split_ifs with h2
    · rw [sRGB_to_Y_real, if_neg (by linarith), if_neg (by linarith), if_pos (by linarith)]
      ring
    · have hk : srgbKnee ≤ x := by tauto
      have h3 := srgb_high hk
      have h4 := srgb_le_one (not_lt.mp h0) (not_lt.mp h1)
      rw [sRGB_to_Y_real, if_neg (by linarith), if_neg (by linarith), if_neg (by linarith)]
      rw [show (1.055 * x ^ ((1 : ℝ) / 2.4) - 0.055 + 0.055) / 1.055 = x ^ ((1 : ℝ) / 2.4) by ring]
      exact rpow_inv_rpow' (not_lt.mp h0) (by norm_num)

/-- Inside the window between the two knees. -/
theorem sRGB_window (x : ℝ) (h0 : 0.0031308 ≤ x) (h1 : x < srgbKnee) :
    |sRGB_to_Y (Y_to_sRGB x) - x| < 1e-8 := by
  have hk := srgbKnee_lt
  have h2 := srgb_mono_high h0
  have h3 := srgb_low (by linarith) h1
  rw [Y_to_sRGB_real, if_neg (by linarith), if_neg (by linarith)]
  unfold srgb
  rw [if_neg (by linarith), sRGB_to_Y_real, if_neg (by linarith), if_neg (by linarith), if_pos h3,
    abs_lt]
  constructor
  · rw [lt_sub_iff_add_lt, lt_div_iff₀ (by norm_num)]; linarith
  · rw [sub_lt_iff_lt_add, div_lt_iff₀ (by norm_num)]; linarith

/-- C18: outside the knee window the sRGB pair is the clamp to `[0,1]`. -/
theorem C18_roundtrip (c : Tristimulus ℝ) (g : ℝ)
    (h : ∀ x ∈ [c.a, c.b, c.c], x < 0.0031308 ∨ srgbKnee ≤ x) :
    toScene .SRGB (toScreen .SRGB c g) g = map3 (clampTo 0 1) c := by
  simp only [List.mem_cons, List.not_mem_nil, or_false, forall_eq_or_imp, forall_eq] at h
  simp only [toScene, toScreen, map3, sRGB_scalar _ h.1, sRGB_scalar _ h.2.1, sRGB_scalar _ h.2.2]

/-- C18: for every colour whatever, each channel comes back as its clamp to `[0,1]` up to `1e-8`. -/
theorem C18_window (c : Tristimulus ℝ) (g : ℝ) :
    let r := toScene .SRGB (toScreen .SRGB c g) g
    |r.a - clampTo 0 1 c.a| < 1e-8 ∧ |r.b - clampTo 0 1 c.b| < 1e-8 ∧
      |r.c - clampTo 0 1 c.c| < 1e-8 := by
  have key : ∀ x : ℝ, |sRGB_to_Y (Y_to_sRGB x) - clampTo 0 1 x| < 1e-8 := by
    intro x
    by_cases h : x < 0.0031308 ∨ srgbKnee ≤ x
    · rw [sRGB_scalar x h]; norm_num
    · rw [not_or, not_lt, not_le] at h
      have hk := srgbKnee_lt
      have : clampTo 0 1 x = x := by
        unfold clampTo
        rw [min_eq_right (by linarith), max_eq_right (by linarith)]
      rw [this]
      exact sRGB_window x h.1 h.2
  exact ⟨key _, key _, key _⟩

/-- C18: the window is real: the knee of the encoder lies strictly below that of the decoder, and at
the encoder's knee the round trip is not exact. -/
theorem C18_window_nonempty : 0.0031308 < srgbKnee ∧ srgbKnee < 0.0031308074 ∧
    sRGB_to_Y (Y_to_sRGB (0.0031308 : ℝ)) ≠ 0.0031308 := by
  refine ⟨lt_srgbKnee, srgbKnee_lt, ?_⟩
  have h1 := srgb_at_knee
  have h2 := srgb_at_knee'
  rw [Y_to_sRGB_real, if_neg (by norm_num), if_neg (by norm_num)]
  unfold srgb
  rw [if_neg (by norm_num), sRGB_to_Y_real, if_neg (by linarith), if_neg (by linarith),
    if_pos (by linarith)]
  intro h
  rw [div_eq_iff (by norm_num)] at h
  linarith

/-- Colours meeting the hypothesis of `C18_roundtrip`: mid grey, one below 0, one above 1. -/
example : ∀ x ∈ [(0.18 : ℝ), -1, 3], x < 0.0031308 ∨ srgbKnee ≤ x := by
  have := srgbKnee_lt
  simp only [List.mem_cons, List.not_mem_nil, or_false, forall_eq_or_imp, forall_eq]
  exact ⟨Or.inr (by linarith), Or.inl (by norm_num), Or.inr (by linarith)⟩

/-! ## C19: BT.709 -/

theorem bt709_knee : 0.081 < 1.099 * (0.018 : ℝ) ^ (0.45 : ℝ) - 0.099 := by
  have := le_rpow_of_pow (x := 0.018) (r := 0.1801 / 1.099) (p := 9) (q := 20)
      (by norm_num) (by norm_num) (by norm_num) (by norm_num)
  rw [show (((9 : ℕ) : ℝ) / ((20 : ℕ) : ℝ)) = 0.45 by norm_num] at this
  linarith

theorem bt709_high {x : ℝ} (h : 0.018 ≤ x) : 0.081 < 1.099 * x ^ (0.45 : ℝ) - 0.099 := by
  have := Real.rpow_le_rpow (by norm_num) h (show (0 : ℝ) ≤ 0.45 by norm_num)
  have := bt709_knee
  linarith

theorem bt709_le_one {x : ℝ} (h : 0 ≤ x) (h1 : x ≤ 1) : 1.099 * x ^ (0.45 : ℝ) - 0.099 ≤ 1 := by
  have := Real.rpow_le_one h h1 (show (0 : ℝ) ≤ 0.45 by norm_num)
  linarith

theorem BT709_scalar (x : ℝ) : BT709_to_Y (Y_to_BT709 x) = clampTo 0 1 x := by
  unfold clampTo
  rw [Y_to_BT709_real]
  split_ifs with h0 h1
  · rw [min_eq_right (by linarith), max_eq_left h0.le, BT709_to_Y_real]; norm_num
  · rw [min_eq_left h1.le, max_eq_right (by norm_num), BT709_to_Y_real]; norm_num
  · rw [min_eq_right (by linarith), max_eq_right (by linarith)]
    unfold bt709
    split_ifs with h2
    · rw [BT709_to_Y_real, if_neg (by linarith), if_neg (by linarith), if_pos (by linarith)]
      ring
    · have h3 := bt709_high (not_lt.mp h2)
      have h4 := bt709_le_one (not_lt.mp h0) (not_lt.mp h1)
      rw [BT709_to_Y_real, if_neg (by linarith), if_neg (by linarith), if_neg (by linarith)]
      rw [show (1.099 * x ^ (0.45 : ℝ) - 0.099 + 0.099) / 1.099 = x ^ (0.45 : ℝ) by ring]
      exact rpow_inv_rpow' (not_lt.mp h0) (by norm_num)

/-- C19: the BT.709 pair is the clamp to `[0,1]`. -/
theorem C19_roundtrip (c : Tristimulus ℝ) (g : ℝ) :
    toScene .BT709 (toScreen .BT709 c g) g = map3 (clampTo 0 1) c := by
  simp only [toScene, toScreen, map3, BT709_scalar]

/-- C19: on `[0,1]` the pair is the identity. -/
theorem C19_identity (c : Tristimulus ℝ) (g : ℝ) (h : ∀ x ∈ [c.a, c.b, c.c], 0 ≤ x ∧ x ≤ 1) :
    toScene .BT709 (toScreen .BT709 c g) g = c := by
  simp only [List.mem_cons, List.not_mem_nil, or_false, forall_eq_or_imp, forall_eq] at h
  rw [C19_roundtrip]
  simp only [map3, clampTo]
  rw [min_eq_right h.1.2, min_eq_right h.2.1.2, min_eq_right h.2.2.2, max_eq_right h.1.1,
    max_eq_right h.2.1.1, max_eq_right h.2.2.1]

/-- A colour meeting the hypothesis. -/
example : ∀ x ∈ [(0.01 : ℝ), 0.018, 0.5], 0 ≤ x ∧ x ≤ 1 := by
  simp only [List.mem_cons, List.not_mem_nil, or_false, forall_eq_or_imp, forall_eq]; norm_num

/-! ## C20: ST 2084 -/

/-- The rational function inside PQ and its inverse. -/
theorem pq_core {t : ℝ} (ht : 0 ≤ t) :
    0.8359375 ≤ (0.8359375 + 18.8515625 * t) / (1 + 18.6875 * t) ∧
    ((0.8359375 + 18.8515625 * t) / (1 + 18.6875 * t) - 0.8359375) /
      (18.8515625 - 18.6875 * ((0.8359375 + 18.8515625 * t) / (1 + 18.6875 * t))) = t := by
  have hd : 0 < 1 + 18.6875 * t := by linarith
  generalize hD : 1 + 18.6875 * t = D at *
  constructor
  · rw [le_div_iff₀ hd, ← hD]; linarith
  · rw [show (0.8359375 + 18.8515625 * t) / D - 0.8359375 = (6615 / 2048) * t / D by
      field_simp; rw [← hD]; ring]
    rw [show 18.8515625 - 18.6875 * ((0.8359375 + 18.8515625 * t) / D) = (6615 / 2048) / D by
      field_simp; rw [← hD]; ring]
    field_simp

theorem pq_inv {N : ℝ} (h1 : N ≤ 1) :
    (0.8359375 + 18.8515625 * ((N - 0.8359375) / (18.8515625 - 18.6875 * N))) /
      (1 + 18.6875 * ((N - 0.8359375) / (18.8515625 - 18.6875 * N))) = N := by
  have hd : 0 < 18.8515625 - 18.6875 * N := by linarith
  generalize hD : 18.8515625 - 18.6875 * N = D at *
  rw [show 0.8359375 + 18.8515625 * ((N - 0.8359375) / D) = (6615 / 2048) * N / D by
      field_simp; rw [← hD]; ring]
  rw [show 1 + 18.6875 * ((N - 0.8359375) / D) = (6615 / 2048) / D by
      field_simp; rw [← hD]; ring]
  field_simp

theorem pq_eq (x : ℝ) : Spec.pq x = ((0.8359375 + 18.8515625 * x ^ (0.1593017578125 : ℝ)) /
    (1 + 18.6875 * x ^ (0.1593017578125 : ℝ))) ^ (78.84375 : ℝ) := by
  unfold Spec.pq; norm_num

theorem pqBlack_eq : pqBlack = (0.8359375 : ℝ) ^ (78.84375 : ℝ) := by
  unfold pqBlack; norm_num

theorem ST2084_scalar (x : ℝ) : ST2084_to_Y (Y_to_ST2084 x) = clampTo 0 100 x := by
  unfold clampTo
  rw [Y_to_ST2084_real]
  split_ifs with h0 h1
  · rw [min_eq_right (by linarith), max_eq_left h0, ST2084_to_Y_real,
      Real.zero_rpow (by norm_num), max_eq_left (by norm_num), zero_div, Real.zero_rpow (by norm_num)]
    norm_num
  · rw [min_eq_left h1, max_eq_right (by norm_num), ST2084_to_Y_real, Real.one_rpow]
    norm_num
  · rw [not_le] at h0 h1
    rw [min_eq_right h1.le, max_eq_right h0.le, ST2084_to_Y_real, pq_eq]
    have ht : 0 ≤ (x / 100) ^ (0.1593017578125 : ℝ) := by positivity
    obtain ⟨c1, c2⟩ := pq_core ht
    rw [rpow_inv_rpow' (by linarith) (by norm_num), max_eq_right (by linarith), c2,
      rpow_inv_rpow' (by positivity) (by norm_num)]
    ring

theorem ST2084_scalar' (s : ℝ) (h0 : pqBlack < s) (h1 : s ≤ 1) :
    Y_to_ST2084 (ST2084_to_Y s) = s := by
  have hb : 0 < pqBlack := by rw [pqBlack_eq]; positivity
  have hs : 0 < s := hb.trans h0
  rw [ST2084_to_Y_real]
  have hN : (s ^ ((1 : ℝ) / 78.84375)) ^ (78.84375 : ℝ) = s := rpow_inv_rpow' hs.le (by norm_num)
  have hN0 : 0.8359375 < s ^ ((1 : ℝ) / 78.84375) := by
    have := Real.rpow_lt_rpow hb.le h0 (show (0 : ℝ) < 1 / 78.84375 by norm_num)
    rwa [pqBlack_eq, rpow_inv_rpow' (by norm_num) (by norm_num)] at this
  have hN1 : s ^ ((1 : ℝ) / 78.84375) ≤ 1 := Real.rpow_le_one hs.le h1 (by norm_num)
  generalize s ^ ((1 : ℝ) / 78.84375) = N at *
  rw [max_eq_right (by linarith)]
  have hinv := pq_inv hN1
  have hq0 : 0 < (N - 0.8359375) / (18.8515625 - 18.6875 * N) := div_pos (by linarith) (by linarith)
  have hq1 : (N - 0.8359375) / (18.8515625 - 18.6875 * N) ≤ 1 := by
    rw [div_le_one (by linarith)]; linarith
  generalize hq : (N - 0.8359375) / (18.8515625 - 18.6875 * N) = q at *
  have hY0 : 0 < q ^ ((1 : ℝ) / 0.1593017578125) := by positivity
  have hY1 : q ^ ((1 : ℝ) / 0.1593017578125) ≤ 1 := Real.rpow_le_one hq0.le hq1 (by norm_num)
  have hY2 : (q ^ ((1 : ℝ) / 0.1593017578125)) ^ (0.1593017578125 : ℝ) = q :=
    rpow_inv_rpow' hq0.le (by norm_num)
  generalize q ^ ((1 : ℝ) / 0.1593017578125) = y at *
  rw [Y_to_ST2084_real, if_neg (by linarith)]
  split_ifs with h
  · have hy : y = 1 := by linarith
    rw [hy, Real.one_rpow] at hY2
    rw [← hY2] at hinv
    norm_num at hinv
    rw [← hN, ← hinv, Real.one_rpow]
  · rw [show 100 * y / 100 = y by ring, pq_eq, hY2, hinv, hN]

theorem ST2084_black (s : ℝ) (hs : 0 ≤ s) (h0 : s ≤ pqBlack) : ST2084_to_Y s = 0 := by
  rw [ST2084_to_Y_real]
  have hN0 : s ^ ((1 : ℝ) / 78.84375) ≤ 0.8359375 := by
    have := Real.rpow_le_rpow hs h0 (show (0 : ℝ) ≤ 1 / 78.84375 by norm_num)
    rwa [pqBlack_eq, rpow_inv_rpow' (by norm_num) (by norm_num)] at this
  rw [max_eq_left (by linarith), zero_div, Real.zero_rpow (by norm_num), mul_zero]

/-- C20: scene → signal → scene is the clamp to `[0,100]`. -/
theorem C20_roundtrip (c : Tristimulus ℝ) (g : ℝ) :
    toScene .ST2084 (toScreen .ST2084 c g) g = map3 (clampTo 0 100) c := by
  simp only [toScene, toScreen, map3, ST2084_scalar]

/-- C20: signal → scene → signal is the identity above the black limit. -/
theorem C20_signal (s : Tristimulus ℝ) (g : ℝ) (h : ∀ x ∈ [s.a, s.b, s.c], pqBlack < x ∧ x ≤ 1) :
    toScreen .ST2084 (toScene .ST2084 s g) g = s := by
  simp only [List.mem_cons, List.not_mem_nil, or_false, forall_eq_or_imp, forall_eq] at h
  simp only [toScene, toScreen]
  rw [ST2084_scalar' _ h.1.1 h.1.2, ST2084_scalar' _ h.2.1.1 h.2.1.2, ST2084_scalar' _ h.2.2.1 h.2.2.2]

/-- C20: signals in `[0, pqBlack]` all decode to black. -/
theorem C20_black (s : ℝ) (hs : 0 ≤ s) (h0 : s ≤ pqBlack) (g : ℝ) :
    toScene .ST2084 ⟨s, s, s⟩ g = ⟨0, 0, 0⟩ ∧
    toScreen .ST2084 (⟨0, 0, 0⟩ : Tristimulus ℝ) g = ⟨0, 0, 0⟩ := by
  have : Y_to_ST2084 (0 : ℝ) = 0 := by rw [Y_to_ST2084_real, if_pos le_rfl]
  simp only [toScene, toScreen, ST2084_black s hs h0, this, and_self]

theorem pqBlack_lt : pqBlack < 1e-6 := by
  have : pqBlack ≤ (0.8359375 : ℝ) ^ ((78 : ℕ) : ℝ) := by
    rw [pqBlack_eq]
    exact Real.rpow_le_rpow_of_exponent_ge (by norm_num) (by norm_num) (by norm_num)
  rw [Real.rpow_natCast] at this
  exact this.trans_lt (by norm_num)

/-- Signals meeting the hypotheses. -/
example : (∀ x ∈ [(0.5 : ℝ), 1e-6, 1], pqBlack < x ∧ x ≤ 1) ∧ 0 < pqBlack := by
  have := pqBlack_lt
  simp only [List.mem_cons, List.not_mem_nil, or_false, forall_eq_or_imp, forall_eq]
  refine ⟨⟨⟨?_, ?_⟩, ⟨?_, ?_⟩, ?_, ?_⟩, by unfold pqBlack; positivity⟩ <;> linarith

/-! ## C21: S-Log -/

theorem SLog_scalar (x : ℝ) : SLog_to_Y (Y_to_SLog x) = clampTo 0 10 x := by
  rw [Y_to_SLog_real, SLog_to_Y_real]
  have h0 : 0 ≤ clampTo 0 10 x := le_max_left _ _
  generalize clampTo 0 10 x = c at *
  unfold slog
  rw [show (0.432699 * Real.logb 10 (c + 0.037584) + 0.616596 + 0.03 - 0.616596 - 0.03) / 0.432699 =
    Real.logb 10 (c + 0.037584) by ring]
  rw [Real.rpow_logb (by norm_num) (by norm_num) (by linarith)]
  ring

/-- C21: the S-Log pair is the clamp to `[0,10]`. -/
theorem C21_roundtrip (c : Tristimulus ℝ) (g : ℝ) :
    toScene .SLOG (toScreen .SLOG c g) g = map3 (clampTo 0 10) c := by
  simp only [toScene, toScreen, map3, SLog_scalar]

/-- C21: on `[0,10]` the pair is the identity. -/
theorem C21_identity (c : Tristimulus ℝ) (g : ℝ) (h : ∀ x ∈ [c.a, c.b, c.c], 0 ≤ x ∧ x ≤ 10) :
    toScene .SLOG (toScreen .SLOG c g) g = c := by
  simp only [List.mem_cons, List.not_mem_nil, or_false, forall_eq_or_imp, forall_eq] at h
  rw [C21_roundtrip]
  simp only [map3, clampTo]
  rw [min_eq_right h.1.2, min_eq_right h.2.1.2, min_eq_right h.2.2.2, max_eq_right h.1.1,
    max_eq_right h.2.1.1, max_eq_right h.2.2.1]

/-- A colour meeting the hypothesis. -/
example : ∀ x ∈ [(0 : ℝ), 0.18, 10], 0 ≤ x ∧ x ≤ 10 := by
  simp only [List.mem_cons, List.not_mem_nil, or_false, forall_eq_or_imp, forall_eq]; norm_num

/-! ## C22: S-Log2 -/

theorem cv_ire (y : ℝ) : (y * (876 / 1024) + 64 / 1024 - 64 / 1024) / (876 / 1024) = y := by ring

theorem SLog2_exact (x : ℝ) (hx : 0 ≤ x) (h : 0.030001222851889303 ≤ slog2Ire x) :
    SLog2_to_Y (Y_to_SLog2 x) = x := by
  rw [Y_to_SLog2_real, SLog2_to_Y_real, cv_ire, if_pos h]
  have e : (slog2Ire x - 0.616596 - 0.03) / 0.432699 = Real.logb 10 (155 * x / 219 + 0.037584) := by
    unfold slog2Ire
    rw [if_neg (not_lt.mpr hx)]; ring
  rw [e, Real.rpow_logb (by norm_num) (by norm_num) (by positivity), max_eq_right] <;> ring_nf
  exact hx

theorem SLog2_low (x : ℝ) (h : slog2Ire x < 0.030001222851889303) : SLog2_to_Y (Y_to_SLog2 x) = 0 := by
  rw [Y_to_SLog2_real, SLog2_to_Y_real, cv_ire, if_neg (not_le.mpr h), max_eq_left]
  exact div_nonpos_of_nonpos_of_nonneg (by linarith) (by norm_num)

theorem log_ten_lt : Real.log 10 < 7 / 3 := by
  rw [Real.log_lt_iff_lt_exp (by norm_num)]
  have h1 : (1000 : ℝ) < Real.exp 7 := by
    have h := Real.exp_one_gt_d9
    have : Real.exp 7 = Real.exp 1 ^ 7 := by rw [← Real.exp_nat_mul]; norm_num
    rw [this]
    calc (1000 : ℝ) < 2.7 ^ 7 := by norm_num
      _ ≤ _ := pow_le_pow_left₀ (by norm_num) (by linarith) 7
  have h2 : Real.exp (7 / 3) ^ 3 = Real.exp 7 := by rw [← Real.exp_nat_mul]; norm_num
  by_contra h
  have := pow_le_pow_left₀ (Real.exp_pos _).le (not_lt.mp h) 3
  rw [h2] at this
  linarith

theorem ten_rpow_bound : (10 : ℝ) ^ (-1.424997 : ℝ) ≤ 0.037584 + 7e-8 := by
  have e : (10 : ℝ) ^ (-1.424997 : ℝ) = (1 / 10) ^ (((57 : ℕ) : ℝ) / (40 : ℕ)) * 10 ^ (3e-6 : ℝ) := by
    rw [one_div, Real.inv_rpow (by norm_num), ← Real.rpow_neg (by norm_num), ← Real.rpow_add (by norm_num)]
    norm_num
  have h1 := rpow_le_of_pow (x := 1 / 10) (r := 0.037583741) (p := 57) (q := 40)
      (by norm_num) (by norm_num) (by norm_num) (by norm_num)
  have h2 : (10 : ℝ) ^ (3e-6 : ℝ) ≤ 1.000008 := by
    rw [Real.rpow_def_of_pos (by norm_num), ← Real.le_log_iff_exp_le (by norm_num)]
    have := Real.one_sub_inv_le_log_of_pos (show (0 : ℝ) < 1.000008 by norm_num)
    have := log_ten_lt
    have : (1 : ℝ) - 1.000008⁻¹ ≥ 7.5e-6 := by norm_num
    linarith
  rw [e]
  calc _ ≤ 0.037583741 * 1.000008 := mul_le_mul h1 h2 (by positivity) (by norm_num)
    _ ≤ _ := by norm_num

theorem slog2Ire_high (x : ℝ) (h : 1e-6 ≤ x) : 0.030001222851889303 ≤ slog2Ire x := by
  have hl : -1.424997 ≤ Real.logb 10 (155 * x / 219 + 0.037584) := by
    rw [Real.le_logb_iff_rpow_le (by norm_num) (by linarith)]
    have := ten_rpow_bound
    linarith
  unfold slog2Ire
  rw [if_neg (by linarith)]
  linarith

/-- C22: exact from `1e-6` on. -/
theorem C22_roundtrip (c : Tristimulus ℝ) (g : ℝ) (h : ∀ x ∈ [c.a, c.b, c.c], 1e-6 ≤ x) :
    toScene .SLOG2 (toScreen .SLOG2 c g) g = c := by
  simp only [List.mem_cons, List.not_mem_nil, or_false, forall_eq_or_imp, forall_eq] at h
  simp only [toScene, toScreen]
  rw [SLog2_exact _ (by linarith) (slog2Ire_high _ h.1),
    SLog2_exact _ (by linarith) (slog2Ire_high _ h.2.1),
    SLog2_exact _ (by linarith) (slog2Ire_high _ h.2.2)]

/-- C22: below: every non-negative value comes back as itself or as zero, and a value that comes back
as zero is below `1e-6`; negative values come back as zero. -/
theorem C22_low (c : Tristimulus ℝ) (g : ℝ) :
    let r := toScene .SLOG2 (toScreen .SLOG2 c g) g
    ∀ p ∈ [(c.a, r.a), (c.b, r.b), (c.c, r.c)],
      0 ≤ p.2 ∧ (p.1 < 0 → p.2 = 0) ∧ (0 ≤ p.1 → |p.2 - p.1| ≤ 1e-6) := by
  have key : ∀ x : ℝ, 0 ≤ SLog2_to_Y (Y_to_SLog2 x) ∧ (x < 0 → SLog2_to_Y (Y_to_SLog2 x) = 0) ∧
      (0 ≤ x → |SLog2_to_Y (Y_to_SLog2 x) - x| ≤ 1e-6) := by
    intro x
    refine ⟨?_, ?_, ?_⟩
    · rw [SLog2_to_Y_real]; exact le_max_left _ _
    · intro hx
      apply SLog2_low
      unfold slog2Ire
      rw [if_pos hx]
      linarith
    · intro hx
      by_cases h : 0.030001222851889303 ≤ slog2Ire x
      · rw [SLog2_exact x hx h]; norm_num
      · rw [SLog2_low x (not_le.mp h)]
        have : x < 1e-6 := by
          by_contra hh
          exact h (slog2Ire_high x (not_lt.mp hh))
        rw [abs_le]; constructor <;> linarith
  intro r
  simp only [List.mem_cons, List.not_mem_nil, or_false, forall_eq_or_imp, forall_eq]
  exact ⟨key _, key _, key _⟩

/-- A colour meeting the hypothesis of `C22_roundtrip`. -/
example : ∀ x ∈ [(1e-6 : ℝ), 0.18, 40], 1e-6 ≤ x := by
  simp only [List.mem_cons, List.not_mem_nil, or_false, forall_eq_or_imp, forall_eq]; norm_num

/-! ## C23: S-Log3

The claim is false of the code: the encoder multiplies by 261.5 inside the logarithm. -/

theorem SLog3_low (x : ℝ) (h : x ≤ 0.01125) : SLog3_to_Y (Y_to_SLog3 x) = x := by
  rw [Y_to_SLog3_real, if_neg (not_lt.mpr h), SLog3_to_Y_real, if_neg]
  · ring
  · rw [not_lt, div_le_div_iff_of_pos_right (by norm_num),
      show x * (171.2102946929 - 95) / 0.01125 = x * (76.2102946929 / 0.01125) by ring]
    linarith

theorem SLog3_high (x : ℝ) (h : 0.01125 < x) : SLog3_to_Y (Y_to_SLog3 x) =
    0.19 * ((x + 0.01) / 0.19 * 261.5) ^ ((1 : ℝ) / 261.5) - 0.01 := by
  have hu : 0 < (x + 0.01) / 0.19 * 261.5 := by
    have : 0 < x + 0.01 := by linarith
    positivity
  have hl : 0 < Real.logb 10 ((x + 0.01) / 0.19 * 261.5) :=
    Real.logb_pos (by norm_num) (by rw [div_mul_eq_mul_div, lt_div_iff₀ (by norm_num)]; linarith)
  rw [Y_to_SLog3_real, if_pos h, SLog3_to_Y_real, if_pos]
  · rw [show (((420 + Real.logb 10 ((x + 0.01) / 0.19 * 261.5)) / 1023 * 1023 - 420) / 261.5) =
      Real.logb 10 ((x + 0.01) / 0.19 * 261.5) * (1 / 261.5) by ring]
    rw [Real.rpow_mul (by norm_num), Real.rpow_logb (by norm_num) (by norm_num) hu]
    ring
  · rw [div_lt_div_iff_of_pos_right (by norm_num)]
    linarith

/-- C23 (partial): up to the linear knee the S-Log3 pair is the identity. -/
theorem C23_roundtrip_partial (c : Tristimulus ℝ) (g : ℝ) (h : ∀ x ∈ [c.a, c.b, c.c], x ≤ 0.01125) :
    toScene .SLOG3 (toScreen .SLOG3 c g) g = c := by
  simp only [List.mem_cons, List.not_mem_nil, or_false, forall_eq_or_imp, forall_eq] at h
  simp only [toScene, toScreen]
  rw [SLog3_low _ h.1, SLog3_low _ h.2.1, SLog3_low _ h.2.2]

/-- C23 (partial): above the knee the pair fixes a value exactly when it solves
`((x+0.01)/0.19)^261.5 = 261.5 (x+0.01)/0.19`, an equation with the single solution
`(x+0.01)/0.19 = 261.5^(1/260.5)`. -/
theorem C23_fixpoint_partial (x : ℝ) (h : 0.01125 < x) :
    SLog3_to_Y (Y_to_SLog3 x) = x ↔ (x + 0.01) / 0.19 = (261.5 : ℝ) ^ ((1 : ℝ) / 260.5) := by
  have hu : 0 < (x + 0.01) / 0.19 := by
    have : 0 < x + 0.01 := by linarith
    positivity
  rw [SLog3_high x h]
  have e : (0.19 * ((x + 0.01) / 0.19 * 261.5) ^ ((1 : ℝ) / 261.5) - 0.01 = x) ↔
      ((x + 0.01) / 0.19 * 261.5) ^ ((1 : ℝ) / 261.5) = (x + 0.01) / 0.19 := by
    rw [eq_div_iff (by norm_num)]
    constructor <;> intro h <;> linarith
  rw [e]
  generalize (x + 0.01) / 0.19 = u at *
  constructor
  · intro h1
    have h2 : u * 261.5 = u ^ (261.5 : ℝ) := by
      have : ((u * 261.5) ^ ((1 : ℝ) / 261.5)) ^ (261.5 : ℝ) = u ^ (261.5 : ℝ) := by rw [h1]
      rwa [rpow_inv_rpow' (by positivity) (by norm_num)] at this
    have h3 : u ^ (261.5 : ℝ) = u * u ^ (260.5 : ℝ) := by
      rw [show (261.5 : ℝ) = 1 + 260.5 by norm_num, Real.rpow_add hu, Real.rpow_one]
    rw [h3] at h2
    have h4 : (261.5 : ℝ) = u ^ (260.5 : ℝ) := mul_left_cancel₀ hu.ne' h2
    rw [h4, rpow_inv_rpow' hu.le (by norm_num)]
  · intro h1
    have h4 : u ^ (260.5 : ℝ) = 261.5 := by rw [h1, rpow_inv_rpow' (by norm_num) (by norm_num)]
    have h3 : u * 261.5 = u ^ (261.5 : ℝ) := by
      rw [show u ^ (261.5 : ℝ) = u ^ ((1 : ℝ) + 260.5) by norm_num, Real.rpow_add hu, Real.rpow_one,
        h4]
    rw [h3, rpow_inv_rpow' hu.le (by norm_num)]

/-- C23, the negation: mid grey does not survive the S-Log3 pair. -/
theorem C23_false : ¬ ∀ (c : Tristimulus ℝ) (g : ℝ), toScene .SLOG3 (toScreen .SLOG3 c g) g = c := by
  intro h
  have := congrArg Tristimulus.a (h ⟨0.18, 0.18, 0.18⟩ 1)
  simp only [toScene, toScreen] at this
  rw [SLog3_high _ (by norm_num)] at this
  have h1 : (1 : ℝ) < (((0.18 : ℝ) + 0.01) / 0.19 * 261.5) ^ ((1 : ℝ) / 261.5) :=
    Real.one_lt_rpow (by norm_num) (by norm_num)
  linarith

/-- C23: the encoder is not Sony's S-Log3: it differs at every scene value above the knee except one. -/
theorem C23_encoder_wrong : Y_to_SLog3 (0.18 : ℝ) ≠ slog3 0.18 := by
  rw [Y_to_SLog3_real, if_pos (by norm_num), slog3, if_pos (by norm_num)]
  have : (0 : ℝ) < Real.logb 10 ((0.18 + 0.01) / 0.19 * 261.5) :=
    Real.logb_pos (by norm_num) (by norm_num)
  have e : Real.logb 10 ((0.18 + 0.01) / (0.18 + 0.01)) = 0 := by norm_num
  rw [e]
  intro h
  rw [div_left_inj' (by norm_num)] at h
  linarith

/-- A colour meeting the hypothesis of the partial round trip, and one of the second. -/
example : (∀ x ∈ [(0.001 : ℝ), 0.01125, -3], x ≤ 0.01125) ∧ (0.01125 : ℝ) < 0.5 := by
  simp only [List.mem_cons, List.not_mem_nil, or_false, forall_eq_or_imp, forall_eq]; norm_num

/-! ## C24: HLG -/

/-- The logarithmic segment of the encoder starts above 1/2. -/
theorem hlg_knee : 0.5 < 0.17883277 * Real.log (1 - 0.28466892) + 0.55991073 := by
  have h : -0.335009796 < Real.log (1 - 0.28466892) := by
    rw [Real.lt_log_iff_exp_lt (by norm_num), Real.exp_neg, inv_lt_comm₀ (Real.exp_pos _) (by norm_num)]
    refine lt_of_lt_of_le ?_ (Real.sum_le_exp_of_nonneg (by norm_num) 10)
    norm_num [Finset.sum_range_succ, Nat.factorial]
  linarith

theorem hlg_high {x : ℝ} (h : 1 ≤ x) : 0.5 < 0.17883277 * Real.log (x - 0.28466892) + 0.55991073 := by
  have := Real.log_le_log (show (0 : ℝ) < 1 - 0.28466892 by norm_num)
    (show 1 - 0.28466892 ≤ x - 0.28466892 by linarith)
  have := hlg_knee
  linarith

theorem HLG_scalar (x : ℝ) : HLG_to_Y (Y_to_HLG x) = max 0 x := by
  rw [Y_to_HLG_real]
  split_ifs with h0
  · rw [max_eq_left h0.le, HLG_to_Y_real]; norm_num
  · rw [not_lt] at h0
    rw [max_eq_right h0]
    unfold hlg
    split_ifs with h1
    · have hs : Real.sqrt x < 1 := by rw [Real.sqrt_lt' (by norm_num)]; linarith
      have hs0 := Real.sqrt_nonneg x
      rw [HLG_to_Y_real, if_neg (by linarith), if_pos (by linarith)]
      have := Real.mul_self_sqrt h0
      linarith
    · have h2 := hlg_high (not_lt.mp h1)
      rw [HLG_to_Y_real, if_neg (by linarith), if_neg (by linarith)]
      rw [show (0.17883277 * Real.log (x - 0.28466892) + 0.55991073 - 0.55991073) / 0.17883277 =
        Real.log (x - 0.28466892) by ring, Real.exp_log (by linarith)]
      ring

theorem HLG_scalar_low (s : ℝ) (h0 : 0 ≤ s) (h1 : s < 0.5) : Y_to_HLG (HLG_to_Y s) = s := by
  rw [HLG_to_Y_real, if_neg (not_lt.mpr h0), if_pos h1.le, Y_to_HLG_real]
  have e : 4 * s * s = (2 * s) ^ 2 := by ring
  rw [if_neg (by rw [e]; exact not_lt.mpr (sq_nonneg _)), hlg, if_pos (by nlinarith), e,
    Real.sqrt_sq (by linarith)]
  ring

theorem HLG_scalar_high (s : ℝ) (h1 : hlg 1 ≤ s) : Y_to_HLG (HLG_to_Y s) = s := by
  unfold hlg at h1
  rw [if_neg (by norm_num)] at h1
  have hk := hlg_knee
  have he : Real.log (1 - 0.28466892) ≤ (s - 0.55991073) / 0.17883277 := by
    rw [le_div_iff₀ (by norm_num)]; linarith
  rw [Real.log_le_iff_le_exp (by norm_num)] at he
  rw [HLG_to_Y_real, if_neg (by linarith), if_neg (by linarith), Y_to_HLG_real, if_neg (by linarith),
    hlg, if_neg (by linarith), add_sub_cancel_right, Real.log_exp]
  ring

/-- C24: scene → signal → scene is the identity on `c ≥ 0` and 0 below. -/
theorem C24_roundtrip (c : Tristimulus ℝ) (g : ℝ) :
    toScene .HLG (toScreen .HLG c g) g = map3 (max 0) c := by
  simp only [toScene, toScreen, map3, HLG_scalar]

/-- C24: signal → scene → signal. -/
theorem C24_signal (s : Tristimulus ℝ) (g : ℝ)
    (h : ∀ x ∈ [s.a, s.b, s.c], (0 ≤ x ∧ x < 1 / 2) ∨ (toScreen .HLG (⟨1, 1, 1⟩ : Tristimulus ℝ) g).a ≤ x) :
    toScreen .HLG (toScene .HLG s g) g = s := by
  have h1 : (toScreen .HLG (⟨1, 1, 1⟩ : Tristimulus ℝ) g).a = hlg 1 := by
    simp only [toScreen]; rw [Y_to_HLG_real, if_neg (by norm_num)]
  rw [h1] at h
  have key : ∀ x : ℝ, ((0 ≤ x ∧ x < 1 / 2) ∨ hlg 1 ≤ x) → Y_to_HLG (HLG_to_Y x) = x := by
    rintro x (h | h)
    · exact HLG_scalar_low x h.1 (by linarith)
    · exact HLG_scalar_high x h
  simp only [List.mem_cons, List.not_mem_nil, or_false, forall_eq_or_imp, forall_eq] at h
  simp only [toScene, toScreen]
  rw [key _ h.1, key _ h.2.1, key _ h.2.2]

/-- C24: the excluded signals form an interval shorter than `1e-9`: the code of 1 lies strictly
between 1/2 and `1/2 + 1e-9`, and the signal 1/2 itself does not survive. -/
theorem C24_gap : 0.5 < hlg 1 ∧ hlg 1 < 0.5 + 1e-9 ∧ Y_to_HLG (HLG_to_Y (0.5 : ℝ)) = hlg 1 := by
  have e : hlg 1 = 0.17883277 * Real.log (1 - 0.28466892) + 0.55991073 := by
    unfold hlg; rw [if_neg (by norm_num)]
  refine ⟨by rw [e]; exact hlg_knee, ?_, ?_⟩
  · rw [e]
    have h : Real.log (1 - 0.28466892) < -0.335009792 := by
      rw [Real.log_lt_iff_lt_exp (by norm_num), Real.exp_neg, lt_inv_comm₀ (by norm_num) (Real.exp_pos _)]
      refine lt_of_le_of_lt (Real.exp_bound' (by norm_num) (by norm_num) (n := 12) (by norm_num)) ?_
      norm_num [Finset.sum_range_succ, Nat.factorial]
    linarith
  · rw [HLG_to_Y_real, if_neg (by norm_num), if_pos le_rfl, Y_to_HLG_real]
    norm_num

/-- Signals meeting the hypothesis of `C24_signal`. -/
example : ((0 : ℝ) ≤ 0.3 ∧ (0.3 : ℝ) < 1 / 2) ∧ (toScreen .HLG (⟨1, 1, 1⟩ : Tristimulus ℝ) 1).a ≤ 0.75 := by
  have h1 : (toScreen .HLG (⟨1, 1, 1⟩ : Tristimulus ℝ) 1).a = hlg 1 := by
    simp only [toScreen]; rw [Y_to_HLG_real, if_neg (by norm_num)]
  rw [h1]
  have := C24_gap.2.1
  refine ⟨by norm_num, by linarith⟩

/-! ## C25: pure gamma -/

/-- C25: the gamma pair is the identity on positive values for every non-zero exponent, and also at 0
for a positive exponent. -/
theorem C25_roundtrip (c : Tristimulus ℝ) (g : ℝ) (hg : g ≠ 0)
    (h : ∀ x ∈ [c.a, c.b, c.c], 0 < x ∨ (x = 0 ∧ 0 < g)) :
    toScene .GAMMA (toScreen .GAMMA c g) g = c := by
  have key : ∀ x : ℝ, 0 < x ∨ (x = 0 ∧ 0 < g) → degamma (gamma x g) g = x := by
    intro x hx
    have : 0 ≤ x := by rcases hx with h | h; exacts [h.le, h.1.ge]
    unfold degamma gamma
    simp only [powf_real, lit_real]
    push_cast
    exact rpow_inv_rpow' this (one_div_mul_cancel hg)
  simp only [List.mem_cons, List.not_mem_nil, or_false, forall_eq_or_imp, forall_eq] at h
  simp only [toScene, toScreen]
  rw [key _ h.1, key _ h.2.1, key _ h.2.2]

/-- A colour and exponent meeting the hypotheses. -/
example : (2.2 : ℝ) ≠ 0 ∧ ∀ x ∈ [(0 : ℝ), 0.5, 7], 0 < x ∨ (x = 0 ∧ (0 : ℝ) < 2.2) := by
  simp only [List.mem_cons, List.not_mem_nil, or_false, forall_eq_or_imp, forall_eq]; norm_num

/-! ## C26: ranges and monotonicity -/

theorem clampTo_mem {l u : ℝ} (h : l ≤ u) (x : ℝ) : l ≤ clampTo l u x ∧ clampTo l u x ≤ u :=
  ⟨le_max_left _ _, max_le h (min_le_left _ _)⟩

theorem sRGB_enc_range (x : ℝ) : 0 ≤ Y_to_sRGB x ∧ Y_to_sRGB x ≤ 1 := by
  rw [Y_to_sRGB_real]
  split_ifs with h0 h1
  · norm_num
  · norm_num
  · rw [not_lt] at h0 h1
    unfold srgb
    split_ifs with h2
    · constructor <;> linarith
    · have := srgb_mono_high (not_lt.mp h2)
      have := srgb_le_one h0 h1
      constructor <;> linarith

theorem sRGB_dec_range (x : ℝ) : 0 ≤ sRGB_to_Y x ∧ sRGB_to_Y x ≤ 1 := by
  rw [sRGB_to_Y_real]
  split_ifs with h0 h1 h2
  · norm_num
  · norm_num
  · rw [not_lt] at h0 h1
    constructor
    · positivity
    · rw [div_le_one (by norm_num)]; linarith
  · rw [not_lt] at h0 h1
    refine ⟨by positivity, Real.rpow_le_one (by positivity) ?_ (by norm_num)⟩
    rw [div_le_one (by norm_num)]; linarith

theorem BT709_enc_range (x : ℝ) : 0 ≤ Y_to_BT709 x ∧ Y_to_BT709 x ≤ 1 := by
  rw [Y_to_BT709_real]
  split_ifs with h0 h1
  · norm_num
  · norm_num
  · rw [not_lt] at h0 h1
    unfold bt709
    split_ifs with h2
    · constructor <;> linarith
    · have := bt709_high (not_lt.mp h2)
      have := bt709_le_one h0 h1
      constructor <;> linarith

theorem BT709_dec_range (x : ℝ) : 0 ≤ BT709_to_Y x ∧ BT709_to_Y x ≤ 1 := by
  rw [BT709_to_Y_real]
  split_ifs with h0 h1 h2
  · norm_num
  · norm_num
  · rw [not_lt] at h0 h1
    constructor
    · positivity
    · rw [div_le_one (by norm_num)]; linarith
  · rw [not_lt] at h0 h1
    refine ⟨by positivity, Real.rpow_le_one (by positivity) ?_ (by norm_num)⟩
    rw [div_le_one (by norm_num)]; linarith

theorem pq_rat_mono {s t : ℝ} (hs : 0 ≤ s) (h : s ≤ t) :
    (0.8359375 + 18.8515625 * s) / (1 + 18.6875 * s) ≤
      (0.8359375 + 18.8515625 * t) / (1 + 18.6875 * t) := by
  rw [div_le_div_iff₀ (by linarith) (by linarith)]
  nlinarith

theorem pq_mono {x y : ℝ} (hx : 0 ≤ x) (h : x ≤ y) : Spec.pq x ≤ Spec.pq y := by
  rw [pq_eq, pq_eq]
  have h1 : x ^ (0.1593017578125 : ℝ) ≤ y ^ (0.1593017578125 : ℝ) :=
    Real.rpow_le_rpow hx h (by norm_num)
  have h0 : 0 ≤ x ^ (0.1593017578125 : ℝ) := by positivity
  exact Real.rpow_le_rpow (by positivity) (pq_rat_mono h0 h1) (by norm_num)

theorem pq_one : Spec.pq 1 = 1 := by
  rw [pq_eq, Real.one_rpow]; norm_num

theorem ST2084_enc_range (x : ℝ) : 0 ≤ Y_to_ST2084 x ∧ Y_to_ST2084 x ≤ 1 := by
  rw [Y_to_ST2084_real]
  split_ifs with h0 h1
  · norm_num
  · norm_num
  · rw [not_le] at h0 h1
    constructor
    · rw [pq_eq]; positivity
    · rw [← pq_one]; exact pq_mono (by positivity) (by linarith)

theorem ST2084_dec_range (s : ℝ) (hs : 0 ≤ s) (h1 : s ≤ 1) :
    0 ≤ ST2084_to_Y s ∧ ST2084_to_Y s ≤ 100 := by
  rw [ST2084_to_Y_real]
  have hN0 : 0 ≤ s ^ ((1 : ℝ) / 78.84375) := by positivity
  have hN1 : s ^ ((1 : ℝ) / 78.84375) ≤ 1 := Real.rpow_le_one hs h1 (by norm_num)
  generalize s ^ ((1 : ℝ) / 78.84375) = N at *
  have hq0 : 0 ≤ max 0 (N - 0.8359375) / (18.8515625 - 18.6875 * N) :=
    div_nonneg (le_max_left _ _) (by linarith)
  have hq1 : max 0 (N - 0.8359375) / (18.8515625 - 18.6875 * N) ≤ 1 := by
    rw [div_le_one (by linarith)]; exact max_le (by linarith) (by linarith)
  have := Real.rpow_le_one hq0 hq1 (show (0 : ℝ) ≤ 1 / 0.1593017578125 by norm_num)
  constructor
  · positivity
  · linarith

/-- All three channels satisfy a predicate (specification). -/
def Spec.all3 (p : ℝ → Prop) (t : Tristimulus ℝ) : Prop := p t.a ∧ p t.b ∧ p t.c

/-- C26: signals and decoded values stay in range, for every input (the PQ decoder for signals in
`[0,1]`, outside which the standard defines nothing). -/
theorem C26_range (c : Tristimulus ℝ) (g : ℝ) :
    all3 (fun v => 0 ≤ v ∧ v ≤ 1) (toScreen .SRGB c g) ∧
    all3 (fun v => 0 ≤ v ∧ v ≤ 1) (toScreen .BT709 c g) ∧
    all3 (fun v => 0 ≤ v ∧ v ≤ 1) (toScreen .ST2084 c g) ∧
    all3 (fun v => 0 ≤ v ∧ v ≤ 1) (toScene .SRGB c g) ∧
    all3 (fun v => 0 ≤ v ∧ v ≤ 1) (toScene .BT709 c g) ∧
    (all3 (fun v => 0 ≤ v ∧ v ≤ 1) c → all3 (fun v => 0 ≤ v ∧ v ≤ 100) (toScene .ST2084 c g)) :=
  ⟨⟨sRGB_enc_range _, sRGB_enc_range _, sRGB_enc_range _⟩,
   ⟨BT709_enc_range _, BT709_enc_range _, BT709_enc_range _⟩,
   ⟨ST2084_enc_range _, ST2084_enc_range _, ST2084_enc_range _⟩,
   ⟨sRGB_dec_range _, sRGB_dec_range _, sRGB_dec_range _⟩,
   ⟨BT709_dec_range _, BT709_dec_range _, BT709_dec_range _⟩,
   fun h => ⟨ST2084_dec_range _ h.1.1 h.1.2, ST2084_dec_range _ h.2.1.1 h.2.1.2,
    ST2084_dec_range _ h.2.2.1 h.2.2.2⟩⟩

theorem BT709_mono {x y : ℝ} (h : x ≤ y) : Y_to_BT709 x ≤ Y_to_BT709 y := by
  by_cases hx0 : x < 0
  · have : Y_to_BT709 x = 0 := by rw [Y_to_BT709_real, if_pos hx0]
    rw [this]; exact (BT709_enc_range y).1
  by_cases hy1 : 1 < y
  · have : Y_to_BT709 y = 1 := by rw [Y_to_BT709_real, if_neg (by linarith), if_pos hy1]
    rw [this]; exact (BT709_enc_range x).2
  rw [not_lt] at hx0 hy1
  rw [Y_to_BT709_real, Y_to_BT709_real, if_neg (by linarith), if_neg (by linarith),
    if_neg (by linarith), if_neg (by linarith)]
  unfold bt709
  split_ifs with h1 h2 h2
  · linarith
  · have := bt709_high (not_lt.mp h2); linarith
  · linarith
  · have := Real.rpow_le_rpow hx0 h (show (0 : ℝ) ≤ 0.45 by norm_num)
    linarith

theorem ST2084_mono {x y : ℝ} (h : x ≤ y) : Y_to_ST2084 x ≤ Y_to_ST2084 y := by
  by_cases hx0 : x ≤ 0
  · have : Y_to_ST2084 x = 0 := by rw [Y_to_ST2084_real, if_pos hx0]
    rw [this]; exact (ST2084_enc_range y).1
  by_cases hy1 : 100 ≤ y
  · have : Y_to_ST2084 y = 1 := by rw [Y_to_ST2084_real, if_neg (by linarith), if_pos hy1]
    rw [this]; exact (ST2084_enc_range x).2
  rw [not_le] at hx0 hy1
  rw [Y_to_ST2084_real, Y_to_ST2084_real, if_neg (by linarith), if_neg (by linarith),
    if_neg (by linarith), if_neg (by linarith)]
  exact pq_mono (by positivity) (by linarith)

theorem HLG_mono {x y : ℝ} (h : x ≤ y) : Y_to_HLG x ≤ Y_to_HLG y := by
  have hp : ∀ z : ℝ, 0 ≤ z → 0 ≤ hlg z := by
    intro z hz
    unfold hlg
    split_ifs with h1
    · positivity
    · have := hlg_high (not_lt.mp h1); linarith
  rw [Y_to_HLG_real, Y_to_HLG_real]
  split_ifs with h0 h1 h1
  · exact le_rfl
  · exact hp _ (not_lt.mp h1)
  · linarith
  · rw [not_lt] at h0 h1
    unfold hlg
    split_ifs with h2 h3 h3
    · have := Real.sqrt_le_sqrt h; linarith
    · have hs : Real.sqrt x < 1 := by rw [Real.sqrt_lt' (by norm_num)]; linarith
      have := hlg_high (not_lt.mp h3)
      linarith
    · linarith
    · have := Real.log_le_log (show (0 : ℝ) < x - 0.28466892 by linarith)
        (show x - 0.28466892 ≤ y - 0.28466892 by linarith)
      linarith

theorem SLog_mono {x y : ℝ} (h : x ≤ y) : Y_to_SLog x ≤ Y_to_SLog y := by
  rw [Y_to_SLog_real, Y_to_SLog_real]
  have h1 : clampTo 0 10 x ≤ clampTo 0 10 y := by
    unfold clampTo; exact max_le_max le_rfl (min_le_min le_rfl h)
  have h0 := (clampTo_mem (show (0 : ℝ) ≤ 10 by norm_num) x).1
  unfold slog
  have := Real.logb_le_logb_of_le (show (1 : ℝ) < 10 by norm_num)
    (show 0 < clampTo 0 10 x + 0.037584 by linarith)
    (show clampTo 0 10 x + 0.037584 ≤ clampTo 0 10 y + 0.037584 by linarith)
  linarith

/-- C26: the BT.709, ST 2084, S-Log and HLG encoders are monotone in every channel. -/
theorem C26_monotone (ty : TYPE) (hty : ty = .BT709 ∨ ty = .ST2084 ∨ ty = .SLOG ∨ ty = .HLG)
    (c d : Tristimulus ℝ) (g : ℝ) :
    (c.a ≤ d.a → (toScreen ty c g).a ≤ (toScreen ty d g).a) ∧
    (c.b ≤ d.b → (toScreen ty c g).b ≤ (toScreen ty d g).b) ∧
    (c.c ≤ d.c → (toScreen ty c g).c ≤ (toScreen ty d g).c) := by
  rcases hty with rfl | rfl | rfl | rfl
  · exact ⟨BT709_mono, BT709_mono, BT709_mono⟩
  · exact ⟨ST2084_mono, ST2084_mono, ST2084_mono⟩
  · exact ⟨SLog_mono, SLog_mono, SLog_mono⟩
  · exact ⟨HLG_mono, HLG_mono, HLG_mono⟩

/-- C26: sRGB is left out for a reason: its encoder dips at the knee. -/
theorem C26_sRGB_not_monotone : ∃ x y : ℝ, x < y ∧ Y_to_sRGB y < Y_to_sRGB x := by
  refine ⟨0.003130799999, 0.0031308, by norm_num, ?_⟩
  have := srgb_at_knee'
  rw [Y_to_sRGB_real, Y_to_sRGB_real, if_neg (by norm_num), if_neg (by norm_num), if_neg (by norm_num),
    if_neg (by norm_num), srgb, srgb, if_neg (by norm_num), if_pos (by norm_num)]
  linarith

/-! ## C27: channel-wise application, in any arithmetic -/

/-- C27: each output channel depends on that input channel alone, in the same way for all three, for
every curve and in every arithmetic (binary32 included). -/
theorem C27_channelwise {α : Type} [Libm α] (ty : TYPE) (c : Tristimulus α) (g : α) :
    toScreen ty c g = ⟨(toScreen ty ⟨c.a, c.a, c.a⟩ g).a, (toScreen ty ⟨c.b, c.b, c.b⟩ g).a,
      (toScreen ty ⟨c.c, c.c, c.c⟩ g).a⟩ ∧
    toScene ty c g = ⟨(toScene ty ⟨c.a, c.a, c.a⟩ g).a, (toScene ty ⟨c.b, c.b, c.b⟩ g).a,
      (toScene ty ⟨c.c, c.c, c.c⟩ g).a⟩ := by
  cases ty <;> exact ⟨rfl, rfl⟩

/-- C27: `LINEAR` and unknown types return the colour itself. -/
theorem C27_linear {α : Type} [Libm α] (ty : TYPE) (h : ty = .LINEAR ∨ ty = .unknown)
    (c : Tristimulus α) (g : α) : toScreen ty c g = c ∧ toScene ty c g = c := by
  rcases h with rfl | rfl <;> exact ⟨rfl, rfl⟩

/-- C27: the type selects the published curve (real arithmetic, on the range the standard defines;
S-Log3 is excepted, see `C23_encoder_wrong`). -/
theorem C27_named (x g : ℝ) :
    (0 ≤ x ∧ x ≤ 1 → toScreen .SRGB ⟨x, x, x⟩ g = ⟨srgb x, srgb x, srgb x⟩) ∧
    (0 ≤ x ∧ x ≤ 1 → toScreen .BT709 ⟨x, x, x⟩ g = ⟨bt709 x, bt709 x, bt709 x⟩) ∧
    (0 < x ∧ x < 100 → toScreen .ST2084 ⟨x, x, x⟩ g =
      ⟨Spec.pq (x / 100), Spec.pq (x / 100), Spec.pq (x / 100)⟩) ∧
    (0 ≤ x → toScreen .HLG ⟨x, x, x⟩ g = ⟨hlg x, hlg x, hlg x⟩) ∧
    (0 ≤ x ∧ x ≤ 10 → toScreen .SLOG ⟨x, x, x⟩ g = ⟨slog x, slog x, slog x⟩) ∧
    (0 < x → toScreen .GAMMA ⟨x, x, x⟩ g = ⟨x ^ (1 / g), x ^ (1 / g), x ^ (1 / g)⟩) := by
  refine ⟨?_, ?_, ?_, ?_, ?_, ?_⟩
  · intro h; simp only [toScreen, Y_to_sRGB_real, if_neg (not_lt.mpr h.1), if_neg (not_lt.mpr h.2)]
  · intro h; simp only [toScreen, Y_to_BT709_real, if_neg (not_lt.mpr h.1), if_neg (not_lt.mpr h.2)]
  · intro h; simp only [toScreen, Y_to_ST2084_real, if_neg (not_le.mpr h.1), if_neg (not_le.mpr h.2)]
  · intro h; simp only [toScreen, Y_to_HLG_real, if_neg (not_lt.mpr h)]
  · intro h; simp only [toScreen, Y_to_SLog_real, clampTo, min_eq_right h.2, max_eq_right h.1]
  · intro h; simp [toScreen, gamma]

/-- The hypotheses are met by mid grey. -/
example : (0 : ℝ) ≤ 0.18 ∧ (0.18 : ℝ) ≤ 1 := by norm_num

/-- C27: `SLOG2` is Sony's S-Log2 curve, for every scene value. -/
theorem C27_slog2 (x g : ℝ) : toScreen .SLOG2 ⟨x, x, x⟩ g = ⟨slog2 x, slog2 x, slog2 x⟩ := by
  have : Y_to_SLog2 x = slog2 x := by
    simp only [Y_to_SLog2, slog2, IRE_to_CV_SLog2, lt_real, lit_real, log10f_real]
    push_cast
    by_cases h : x < 0
    · rw [if_pos h, if_neg (not_le.mpr h)]; ring
    · rw [if_neg h, if_pos (not_lt.mp h)]; ring
  simp only [toScreen, this]

/-- C27: the decoders are the published inverse curves: sRGB, BT.709 on `[0,1]`, HLG on the
non-negative numbers, S-Log2 up to the clip at zero, the others everywhere. -/
theorem C27_decoders (v g : ℝ) :
    (0 ≤ v ∧ v ≤ 1 → toScene .SRGB ⟨v, v, v⟩ g = ⟨srgbInv v, srgbInv v, srgbInv v⟩) ∧
    (0 ≤ v ∧ v ≤ 1 → toScene .BT709 ⟨v, v, v⟩ g = ⟨bt709Inv v, bt709Inv v, bt709Inv v⟩) ∧
    toScene .ST2084 ⟨v, v, v⟩ g = ⟨100 * pqInv v, 100 * pqInv v, 100 * pqInv v⟩ ∧
    (0 ≤ v → toScene .HLG ⟨v, v, v⟩ g = ⟨hlgInv v, hlgInv v, hlgInv v⟩) ∧
    toScene .SLOG ⟨v, v, v⟩ g = ⟨slogInv v, slogInv v, slogInv v⟩ ∧
    toScene .SLOG2 ⟨v, v, v⟩ g = ⟨max 0 (slog2Inv v), max 0 (slog2Inv v), max 0 (slog2Inv v)⟩ ∧
    toScene .SLOG3 ⟨v, v, v⟩ g = ⟨slog3Inv v, slog3Inv v, slog3Inv v⟩ ∧
    (0 < v → toScene .GAMMA ⟨v, v, v⟩ g = ⟨v ^ g, v ^ g, v ^ g⟩) := by
  refine ⟨?_, ?_, ?_, ?_, ?_, ?_, ?_, ?_⟩
  · intro h
    simp only [toScene, sRGB_to_Y_real, if_neg (not_lt.mpr h.1), if_neg (not_lt.mpr h.2), srgbInv]
  · intro h
    simp only [toScene, BT709_to_Y_real, if_neg (not_lt.mpr h.1), if_neg (not_lt.mpr h.2), bt709Inv]
  · have : ST2084_to_Y v = 100 * pqInv v := by
      rw [ST2084_to_Y_real, pqInv, max_comm]
      norm_num
    simp only [toScene, this]
  · intro h
    have : HLG_to_Y v = hlgInv v := by
      rw [HLG_to_Y_real, if_neg (not_lt.mpr h), hlgInv,
        show (4 : ℝ) * v * v = (2 * v) ^ 2 by ring]
      norm_num
    simp only [toScene, this]
  · simp only [toScene, SLog_to_Y_real, slogInv]
  · have : SLog2_to_Y v = max 0 (slog2Inv v) := by
      have e : (1024 * v - 64) / (940 - 64) = (v - 64 / 1024) / (876 / 1024) := by ring
      rw [SLog2_to_Y_real, ← e, slog2Inv]
    simp only [toScene, this]
  · have : SLog3_to_Y v = slog3Inv v := by
      rw [SLog3_to_Y_real, slog3Inv]
      norm_num
    simp only [toScene, this]
  · intro h; simp [toScene, degamma]

/-- The guarded clauses hold at the code value of mid grey. -/
example : (0 : ℝ) ≤ 0.46 ∧ (0.46 : ℝ) ≤ 1 := by norm_num

end CS
