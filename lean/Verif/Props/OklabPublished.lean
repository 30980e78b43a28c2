import Verif.Props.Delta

/-!
# C102: OKLAB is the published OKLAB  (false of the code)

The header cites https://bottosson.github.io/posts/oklab/ (hpp:1421).  The first matrix given there has
`+0.0329845436` at row 2, column 1; the header has `-0.0329845436` in both directions (hpp:1422, 1457).  The
specification below is the published one; `C102_reference` checks it against the four reference pairs of the
publication, which are also the pairs of the repository's own test (test/oklab.cpp).
-/

namespace CS
open Spec

/-- Specification: the published first OKLAB matrix. -/
noncomputable def Spec.oklab1 : Matrix (Fin 3) (Fin 3) ℝ :=
  !![0.8189330101, 0.3618667424, -0.1288597137; 0.0329845436, 0.9293118715, 0.0361456387;
     0.0482003018, 0.2643662691, 0.6338517070]

/-- Specification: `lab` is the OKLAB colour of `xyz`. -/
def Spec.IsOKLAB (xyz lab : Fin 3 → ℝ) : Prop :=
  ∃ r : Fin 3 → ℝ, (∀ i, r i ^ 3 = (oklab1.mulVec xyz) i) ∧ lab = oklab2.mulVec r

/-- Bounds for a cube root. -/
theorem root_between {r x lo hi : ℝ} (h : r ^ 3 = x) (h1 : lo ^ 3 ≤ x) (h2 : x ≤ hi ^ 3) : lo ≤ r ∧ r ≤ hi := by
  have m : StrictMono fun y : ℝ => y ^ 3 := Odd.strictMono_pow (by decide)
  exact ⟨m.le_iff_le.1 (by simpa [h] using h1), m.le_iff_le.1 (by simpa [h] using h2)⟩

/-- Every real has a cube root. -/
theorem exists_root (x : ℝ) : ∃ r : ℝ, r ^ 3 = x := by
  refine ⟨Libm.cbrtf x, ?_⟩
  have := cbrt_cube x
  linarith [this, show (Libm.cbrtf x : ℝ) ^ 3 = Libm.cbrtf x * Libm.cbrtf x * Libm.cbrtf x by ring]

theorem exists_roots (v : Fin 3 → ℝ) : ∃ r : Fin 3 → ℝ, ∀ i, r i ^ 3 = v i := by
  choose f hf using exists_root
  exact ⟨fun i => f (v i), fun i => hf _⟩

/-- The second matrix loses nothing. -/
theorem oklab2_injective {r s : Fin 3 → ℝ} (h : oklab2.mulVec r = oklab2.mulVec s) : r = s := by
  have e0 := congrFun h 0
  have e1 := congrFun h 1
  have e2 := congrFun h 2
  simp [Matrix.mulVec, dotProduct, Fin.sum_univ_three, oklab2] at e0 e1 e2
  ext i
  fin_cases i <;> simp <;> linarith

/-- C102: every colour has exactly one published OKLAB colour. -/
theorem C102_spec (xyz : Fin 3 → ℝ) : ∃! lab, IsOKLAB xyz lab := by
  obtain ⟨r, hr⟩ := exists_roots (oklab1.mulVec xyz)
  refine ⟨_, ⟨r, hr, rfl⟩, ?_⟩
  rintro lab ⟨s, hs, rfl⟩
  have : s = r := by
    ext i
    exact (Odd.strictMono_pow (by decide : Odd 3)).injective ((hs i).trans (hr i).symm)
  rw [this]

/-- C102: the header's OKLAB is the published one exactly for the colours with `X = 0`.  Missing: all others. -/
theorem C102_published_partial (c : Tristimulus ℝ) : IsOKLAB (triV c) (triV (XYZ_to_OKLAB c)) ↔ c.a = 0 := by
  obtain ⟨r, hr⟩ := exists_roots (oklabHeader1.mulVec (triV c))
  rw [C16_formula c r hr]
  have h1 := hr 1
  simp [Matrix.mulVec, dotProduct, Fin.sum_univ_three, oklabHeader1, triV] at h1
  constructor
  · rintro ⟨s, hs, e⟩
    rw [← oklab2_injective e] at hs
    have s1 := hs 1
    simp [Matrix.mulVec, dotProduct, Fin.sum_univ_three, oklab1, triV] at s1
    linarith
  · intro h
    refine ⟨r, fun i => ?_, rfl⟩
    rw [hr i]
    fin_cases i <;> simp [Matrix.mulVec, dotProduct, Fin.sum_univ_three, oklab1, oklabHeader1, triV, h]

/-- C102: the specification gives the four reference pairs of the publication (and of test/oklab.cpp) to the three
decimals printed. -/
theorem C102_reference :
    (∀ l, IsOKLAB ![0.950, 1, 1.089] l → |l 0 - 1| ≤ 5e-4 ∧ |l 1| ≤ 5e-4 ∧ |l 2| ≤ 5e-4) ∧
    (∀ l, IsOKLAB ![1, 0, 0] l → |l 0 - 0.450| ≤ 5e-4 ∧ |l 1 - 1.236| ≤ 5e-4 ∧ |l 2 + 0.019| ≤ 5e-4) ∧
    (∀ l, IsOKLAB ![0, 1, 0] l → |l 0 - 0.922| ≤ 5e-4 ∧ |l 1 + 0.671| ≤ 5e-4 ∧ |l 2 - 0.263| ≤ 5e-4) ∧
    (∀ l, IsOKLAB ![0, 0, 1] l → |l 0 - 0.153| ≤ 5e-4 ∧ |l 1 + 1.415| ≤ 5e-4 ∧ |l 2 + 0.449| ≤ 5e-4) := by
  refine ⟨?_, ?_, ?_, ?_⟩ <;> rintro l ⟨r, hr, rfl⟩ <;> have h0 := hr 0 <;> have h1 := hr 1 <;> have h2 := hr 2 <;>
    simp [Matrix.mulVec, dotProduct, Fin.sum_univ_three, oklab1] at h0 h1 h2 <;>
    simp only [Matrix.mulVec, dotProduct, Fin.sum_univ_three, oklab2, Matrix.of_apply, Matrix.cons_val, Matrix.cons_val_zero,
      Matrix.cons_val_one]
  · have ⟨a0, b0⟩ := root_between (lo := 0.99984) (hi := 0.99985) h0 (by norm_num) (by norm_num)
    have ⟨a1, b1⟩ := root_between (lo := 1) (hi := 1.00001) h1 (by norm_num) (by norm_num)
    have ⟨a2, b2⟩ := root_between (lo := 1.00014) (hi := 1.00015) h2 (by norm_num) (by norm_num)
    refine ⟨abs_le.2 ⟨?_, ?_⟩, abs_le.2 ⟨?_, ?_⟩, abs_le.2 ⟨?_, ?_⟩⟩ <;> linarith
  · have ⟨a0, b0⟩ := root_between (lo := 0.93558) (hi := 0.93559) h0 (by norm_num) (by norm_num)
    have ⟨a1, b1⟩ := root_between (lo := 0.3207) (hi := 0.32071) h1 (by norm_num) (by norm_num)
    have ⟨a2, b2⟩ := root_between (lo := 0.36392) (hi := 0.36393) h2 (by norm_num) (by norm_num)
    refine ⟨abs_le.2 ⟨?_, ?_⟩, abs_le.2 ⟨?_, ?_⟩, abs_le.2 ⟨?_, ?_⟩⟩ <;> linarith
  · have ⟨a0, b0⟩ := root_between (lo := 0.7126) (hi := 0.71261) h0 (by norm_num) (by norm_num)
    have ⟨a1, b1⟩ := root_between (lo := 0.97585) (hi := 0.97586) h1 (by norm_num) (by norm_num)
    have ⟨a2, b2⟩ := root_between (lo := 0.6418) (hi := 0.64181) h2 (by norm_num) (by norm_num)
    refine ⟨abs_le.2 ⟨?_, ?_⟩, abs_le.2 ⟨?_, ?_⟩, abs_le.2 ⟨?_, ?_⟩⟩ <;> linarith
  · have ⟨a0, b0⟩ := root_between (lo := -0.5051) (hi := -0.50509) h0 (by norm_num) (by norm_num)
    have ⟨a1, b1⟩ := root_between (lo := 0.33063) (hi := 0.33064) h1 (by norm_num) (by norm_num)
    have ⟨a2, b2⟩ := root_between (lo := 0.859) (hi := 0.85901) h2 (by norm_num) (by norm_num)
    refine ⟨abs_le.2 ⟨?_, ?_⟩, abs_le.2 ⟨?_, ?_⟩, abs_le.2 ⟨?_, ?_⟩⟩ <;> linarith

/-- C102 is false: the D65 white, neutral in OKLAB (third line), comes out of the header with `a > 0.05`; and the stimulus
`(1, 0, 0)` comes out with negative lightness. -/
theorem C102_false :
    (0.051 ≤ (XYZ_to_OKLAB (⟨0.95047, 1, 1.08883⟩ : Tristimulus ℝ)).b ∧
      (XYZ_to_OKLAB (⟨0.95047, 1, 1.08883⟩ : Tristimulus ℝ)).a ≤ 0.984) ∧
    (∀ l, IsOKLAB ![0.95047, 1, 1.08883] l → |l 0 - 1| ≤ 2e-4 ∧ |l 1| ≤ 2e-4 ∧ |l 2| ≤ 2e-4) ∧
    (XYZ_to_OKLAB (⟨1, 0, 0⟩ : Tristimulus ℝ)).a ≤ -0.059 := by
  refine ⟨?_, ?_, ?_⟩
  · obtain ⟨r, hr⟩ := exists_roots (oklabHeader1.mulVec (triV ⟨0.95047, 1, 1.08883⟩))
    have e := C16_formula _ r hr
    have ea := congrFun e 0
    have eb := congrFun e 1
    have h0 := hr 0
    have h1 := hr 1
    have h2 := hr 2
    simp [Matrix.mulVec, dotProduct, Fin.sum_univ_three, oklabHeader1, triV] at h0 h1 h2
    simp only [Matrix.mulVec, dotProduct, Fin.sum_univ_three, oklab2, triV, Matrix.of_apply, Matrix.cons_val,
      Matrix.cons_val_zero, Matrix.cons_val_one] at ea eb
    have ⟨a0, b0⟩ := root_between (lo := 0.99997) (hi := 0.99998) h0 (by norm_num) (by norm_num)
    have ⟨a1, b1⟩ := root_between (lo := 0.97865) (hi := 0.97866) h1 (by norm_num) (by norm_num)
    have ⟨a2, b2⟩ := root_between (lo := 1.00011) (hi := 1.00012) h2 (by norm_num) (by norm_num)
    rw [ea, eb]
    constructor <;> linarith
  · rintro l ⟨r, hr, rfl⟩
    have h0 := hr 0
    have h1 := hr 1
    have h2 := hr 2
    simp [Matrix.mulVec, dotProduct, Fin.sum_univ_three, oklab1] at h0 h1 h2
    simp only [Matrix.mulVec, dotProduct, Fin.sum_univ_three, oklab2, Matrix.of_apply, Matrix.cons_val, Matrix.cons_val_zero,
      Matrix.cons_val_one]
    have ⟨a0, b0⟩ := root_between (lo := 0.99997) (hi := 0.99998) h0 (by norm_num) (by norm_num)
    have ⟨a1, b1⟩ := root_between (lo := 1) (hi := 1.00001) h1 (by norm_num) (by norm_num)
    have ⟨a2, b2⟩ := root_between (lo := 1.00011) (hi := 1.00012) h2 (by norm_num) (by norm_num)
    refine ⟨abs_le.2 ⟨?_, ?_⟩, abs_le.2 ⟨?_, ?_⟩, abs_le.2 ⟨?_, ?_⟩⟩ <;> linarith
  · obtain ⟨r, hr⟩ := exists_roots (oklabHeader1.mulVec (triV ⟨1, 0, 0⟩))
    have ea := congrFun (C16_formula _ r hr) 0
    have h0 := hr 0
    have h1 := hr 1
    have h2 := hr 2
    simp [Matrix.mulVec, dotProduct, Fin.sum_univ_three, oklabHeader1, triV] at h0 h1 h2
    simp only [Matrix.mulVec, dotProduct, Fin.sum_univ_three, oklab2, triV, Matrix.of_apply, Matrix.cons_val,
      Matrix.cons_val_zero, Matrix.cons_val_one] at ea
    have ⟨a0, b0⟩ := root_between (lo := 0.93558) (hi := 0.93559) h0 (by norm_num) (by norm_num)
    have ⟨a1, b1⟩ := root_between (lo := -0.32071) (hi := -0.3207) h1 (by norm_num) (by norm_num)
    have ⟨a2, b2⟩ := root_between (lo := 0.36392) (hi := 0.36393) h2 (by norm_num) (by norm_num)
    rw [ea]
    linarith

/-- The colours of the partial theorem exist beyond black. -/
example : IsOKLAB (triV ⟨0, 1, 2⟩) (triV (XYZ_to_OKLAB (⟨0, 1, 2⟩ : Tristimulus ℝ))) := (C102_published_partial _).2 rfl

end CS
