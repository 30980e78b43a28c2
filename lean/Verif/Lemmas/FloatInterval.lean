import Verif.Lemmas.FloatLibm

/-!
# Intervals with representable ends

Rounding is monotone and keeps representable numbers, so an operation whose exact result lies between two representable
numbers has its rounded result between them.
-/

namespace CS
open B32

/-- A finite float between `a` and `b`. -/
structure F32.In (x : F32) (a b : ℚ) : Prop where
  fin : x.isFinite = true
  lo : a ≤ x.val
  hi : x.val ≤ b

namespace F32

/-- Both ends are representable and of moderate size. -/
def okB (A B : ℚ) : Bool := decide (rnd A = A) && decide (rnd B = B) && decide (-2 ^ 127 ≤ A) && decide (B ≤ 2 ^ 127)

theorem rep_of {q : ℚ} (h : rnd q = q) : Rep q := by rw [← h]; exact rep_rnd q

theorem okB_iff {A B : ℚ} (h : okB A B = true) : Rep A ∧ Rep B ∧ -2 ^ 127 ≤ A ∧ B ≤ 2 ^ 127 := by
  simp only [okB, Bool.and_eq_true, decide_eq_true_eq] at h
  exact ⟨rep_of h.1.1.1, rep_of h.1.1.2, h.1.2, h.2⟩

theorem rnd_between {A B q : ℚ} (hk : okB A B = true) (h1 : A ≤ q) (h2 : q ≤ B) : A ≤ rnd q ∧ rnd q ≤ B ∧ |rnd q| < 2 ^ 128 := by
  obtain ⟨rA, rB, bA, bB⟩ := okB_iff hk
  have l := le_rnd rA h1
  have r := rnd_le rB h2
  refine ⟨l, r, ?_⟩
  rw [abs_lt]
  constructor <;> norm_num at * <;> linarith

theorem In.weaken {x : F32} {a b c d : ℚ} (h : In x a b) (h1 : c ≤ a := by norm_num) (h2 : b ≤ d := by norm_num) : In x c d :=
  ⟨h.fin, h1.trans h.lo, h.hi.trans h2⟩

theorem In.abs {x : F32} {b : ℚ} (h : In x (-b) b) : |x.val| ≤ b := _root_.abs_le.2 ⟨h.lo, h.hi⟩

theorem In.of_abs {x : F32} {b : ℚ} (hf : x.isFinite = true) (h : |x.val| ≤ b) : In x (-b) b :=
  ⟨hf, (_root_.abs_le.1 h).1, (_root_.abs_le.1 h).2⟩

theorem In.neg {x : F32} {a b : ℚ} (h : In x a b) : In (-x) (-b) (-a) := by
  refine ⟨by rw [neg_def, neg_isFinite]; exact h.fin, ?_, ?_⟩ <;> rw [neg_def, neg_val]
  · linarith [h.hi]
  · linarith [h.lo]

theorem In.lit {q A B : ℚ} (h1 : A ≤ q := by norm_num) (h2 : q ≤ B := by norm_num) (hk : okB A B = true := by decide +kernel) :
    In (CS.lit q) A B := by
  obtain ⟨l, r, f⟩ := rnd_between hk h1 h2
  obtain ⟨f, v⟩ := pack_finite (s := false) f
  exact ⟨f, by rw [lit_def, v]; exact l, by rw [lit_def, v]; exact r⟩

theorem In.of_add {x y : F32} {A B : ℚ} (hx : x.isFinite = true) (hy : y.isFinite = true) (h1 : A ≤ x.val + y.val)
    (h2 : x.val + y.val ≤ B) (hk : okB A B = true := by decide +kernel) : In (x + y) A B := by
  obtain ⟨l, r, f⟩ := rnd_between hk h1 h2
  obtain ⟨f, v⟩ := (Is.of x hx).add_rnd (Is.of y hy) f
  exact ⟨f, by rw [v]; exact l, by rw [v]; exact r⟩

theorem In.of_sub {x y : F32} {A B : ℚ} (hx : x.isFinite = true) (hy : y.isFinite = true) (h1 : A ≤ x.val - y.val)
    (h2 : x.val - y.val ≤ B) (hk : okB A B = true := by decide +kernel) : In (x - y) A B := by
  obtain ⟨l, r, f⟩ := rnd_between hk h1 h2
  obtain ⟨f, v⟩ := (Is.of x hx).sub_rnd (Is.of y hy) f
  exact ⟨f, by rw [v]; exact l, by rw [v]; exact r⟩

theorem In.of_mul {x y : F32} {A B : ℚ} (hx : x.isFinite = true) (hy : y.isFinite = true) (h1 : A ≤ x.val * y.val)
    (h2 : x.val * y.val ≤ B) (hk : okB A B = true := by decide +kernel) : In (x * y) A B := by
  obtain ⟨l, r, f⟩ := rnd_between hk h1 h2
  obtain ⟨f, v⟩ := (Is.of x hx).mul_rnd (Is.of y hy) f
  exact ⟨f, by rw [v]; exact l, by rw [v]; exact r⟩

theorem In.of_div {x y : F32} {A B : ℚ} (hx : x.isFinite = true) (hy : y.isFinite = true) (h0 : y.val ≠ 0) (h1 : A ≤ x.val / y.val)
    (h2 : x.val / y.val ≤ B) (hk : okB A B = true := by decide +kernel) : In (x / y) A B := by
  obtain ⟨l, r, f⟩ := rnd_between hk h1 h2
  obtain ⟨f, v⟩ := (Is.of x hx).div_rnd (Is.of y hy) h0 f
  exact ⟨f, by rw [v]; exact l, by rw [v]; exact r⟩

section
variable {x y : F32} {a b c d A B : ℚ}

theorem In.add (hx : In x a b) (hy : In y c d) (A B : ℚ) (h1 : A ≤ a + c := by norm_num) (h2 : b + d ≤ B := by norm_num)
    (hk : okB A B = true := by decide +kernel) : In (x + y) A B :=
  .of_add hx.fin hy.fin (h1.trans (add_le_add hx.lo hy.lo)) ((add_le_add hx.hi hy.hi).trans h2) hk

theorem In.sub (hx : In x a b) (hy : In y c d) (A B : ℚ) (h1 : A ≤ a - d := by norm_num) (h2 : b - c ≤ B := by norm_num)
    (hk : okB A B = true := by decide +kernel) : In (x - y) A B :=
  .of_sub hx.fin hy.fin (h1.trans (sub_le_sub hx.lo hy.hi)) ((sub_le_sub hx.hi hy.lo).trans h2) hk

/-- The product of non-negative floats. -/
theorem In.mul (hx : In x a b) (hy : In y c d) (A B : ℚ) (ha : 0 ≤ a := by norm_num) (hc : 0 ≤ c := by norm_num)
    (h1 : A ≤ a * c := by norm_num) (h2 : b * d ≤ B := by norm_num) (hk : okB A B = true := by decide +kernel) : In (x * y) A B :=
  .of_mul hx.fin hy.fin (h1.trans (mul_le_mul hx.lo hy.lo hc (ha.trans hx.lo)))
    ((mul_le_mul hx.hi hy.hi (hc.trans hy.lo) ((ha.trans hx.lo).trans hx.hi)).trans h2) hk

/-- The product of floats of bounded magnitude. -/
theorem In.mul_abs (hx : In x (-b) b) (hy : In y (-d) d) (B : ℚ) (h : b * d ≤ B := by norm_num)
    (hk : okB (-B) B = true := by decide +kernel) : In (x * y) (-B) B := by
  have : |x.val * y.val| ≤ B := by
    rw [_root_.abs_mul]
    exact (mul_le_mul hx.abs hy.abs (abs_nonneg _) ((abs_nonneg _).trans hx.abs)).trans h
  exact .of_mul hx.fin hy.fin (_root_.abs_le.1 this).1 (_root_.abs_le.1 this).2 hk

/-- A square. -/
theorem In.sq (hx : In x (-b) b) (B : ℚ) (h : b * b ≤ B := by norm_num) (hk : okB 0 B = true := by decide +kernel) : In (x * x) 0 B := by
  refine .of_mul hx.fin hx.fin (mul_self_nonneg _) ?_ hk
  rw [← abs_mul_abs_self]
  exact (mul_le_mul hx.abs hx.abs (abs_nonneg _) ((abs_nonneg _).trans hx.abs)).trans h

/-- The quotient of a non-negative and a positive float. -/
theorem In.div (hx : In x a b) (hy : In y c d) (A B : ℚ) (ha : 0 ≤ a := by norm_num) (hc : 0 < c := by norm_num)
    (h1 : A * d ≤ a := by norm_num) (h2 : b ≤ B * c := by norm_num) (hA : 0 ≤ A := by norm_num) (hk : okB A B = true := by decide +kernel) :
    In (x / y) A B := by
  have yp : 0 < y.val := lt_of_lt_of_le hc hy.lo
  have hB : 0 ≤ B := by
    by_contra h
    have : B * c < 0 := mul_neg_of_neg_of_pos (not_le.1 h) hc
    have := (ha.trans hx.lo).trans hx.hi
    linarith
  refine .of_div hx.fin hy.fin yp.ne' ?_ ?_ hk
  · rw [le_div_iff₀ yp]
    exact ((mul_le_mul_of_nonneg_left hy.hi hA).trans h1).trans hx.lo
  · rw [div_le_iff₀ yp]
    exact (hx.hi.trans h2).trans (mul_le_mul_of_nonneg_left hy.lo hB)

/-- The quotient of a float of bounded magnitude and a positive one. -/
theorem In.div_abs (hx : In x (-b) b) (hy : In y c d) (B : ℚ) (hc : 0 < c := by norm_num) (h2 : b ≤ B * c := by norm_num)
    (hk : okB (-B) B = true := by decide +kernel) : In (x / y) (-B) B := by
  have yp : 0 < y.val := lt_of_lt_of_le hc hy.lo
  have hB : 0 ≤ B := by
    by_contra h
    have : B * c < 0 := mul_neg_of_neg_of_pos (not_le.1 h) hc
    have := (abs_nonneg _).trans hx.abs
    linarith
  have : |x.val / y.val| ≤ B := by
    rw [abs_div, abs_of_pos yp, div_le_iff₀ yp]
    exact (hx.abs.trans h2).trans (mul_le_mul_of_nonneg_left hy.lo hB)
  exact .of_div hx.fin hy.fin yp.ne' (_root_.abs_le.1 this).1 (_root_.abs_le.1 this).2 hk

/-- A square root. -/
theorem In.sqrt {o : F32.Oracle} (hs : o.SqrtAccurate (2 ^ (-22 : ℤ))) (hx : In x a b) (A B : ℚ) (ha : 0 ≤ a := by norm_num)
    (hA : A * A ≤ a * (1 - 1 / 2 ^ 20) := by norm_num) (hB0 : 0 ≤ B := by norm_num) (hB : b * (1 + 1 / 2 ^ 20) ≤ B * B := by norm_num) :
    In (o.sqrtf x) A B := by
  obtain ⟨f, e⟩ := hs x hx.fin (ha.trans hx.lo)
  have x0 : (0 : ℝ) ≤ x.val := by exact_mod_cast ha.trans hx.lo
  have lo : (a : ℝ) ≤ x.val := by exact_mod_cast hx.lo
  have hi : (x.val : ℝ) ≤ b := by exact_mod_cast hx.hi
  have hA' : (A : ℝ) * A ≤ a * (1 - 1 / 2 ^ 20) := by
    have := (Rat.cast_le (K := ℝ)).2 hA; push_cast at this; exact this
  have hB' : (b : ℝ) * (1 + 1 / 2 ^ 20) ≤ B * B := by
    have := (Rat.cast_le (K := ℝ)).2 hB; push_cast at this; exact this
  have hB0' : (0 : ℝ) ≤ B := by exact_mod_cast hB0
  have r0 := Real.sqrt_nonneg (x.val : ℝ)
  have rr := Real.mul_self_sqrt x0
  generalize √(x.val : ℝ) = r at *
  rw [zpow_neg] at e
  obtain ⟨e1, e2⟩ := _root_.abs_le.1 e
  norm_num at e1 e2 hA' hB'
  have v0 : (0 : ℝ) ≤ (o.sqrtf x).val := by linarith
  refine ⟨f, ?_, ?_⟩
  · have : (A : ℝ) ≤ (o.sqrtf x).val := by
      refine le_of_not_gt fun h => ?_
      have h1 : r * (4194303 / 4194304) < A := by linarith
      have h2 : 0 ≤ r * (4194303 / 4194304) := by positivity
      have h3 : (r * (4194303 / 4194304)) * (r * (4194303 / 4194304)) < A * A := mul_self_lt_mul_self h2 h1
      have h4 : (r * (4194303 / 4194304)) * (r * (4194303 / 4194304)) = r * r * (4194303 / 4194304) ^ 2 := by ring
      rw [h4, rr] at h3
      have h5 : (a : ℝ) * (1048575 / 1048576) ≤ x.val * (1048575 / 1048576) := by gcongr
      norm_num at h3
      linarith
    exact_mod_cast this
  · have : ((o.sqrtf x).val : ℝ) ≤ B := by
      refine le_of_not_gt fun h => ?_
      have h1 : B < r * (4194305 / 4194304) := by linarith
      have h3 : (B : ℝ) * B < (r * (4194305 / 4194304)) * (r * (4194305 / 4194304)) := mul_self_lt_mul_self hB0' h1
      have h4 : (r * (4194305 / 4194304)) * (r * (4194305 / 4194304)) = r * r * (4194305 / 4194304) ^ 2 := by ring
      rw [h4, rr] at h3
      have h5 : (x.val : ℝ) * (1048577 / 1048576) ≤ b * (1048577 / 1048576) := by gcongr
      norm_num at h3
      linarith
    exact_mod_cast this

end

end F32
end CS
