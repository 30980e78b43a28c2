import Verif.Float.F64
import Verif.Float.Convert
import Verif.Lemmas.FloatPow
import Mathlib.Analysis.SpecialFunctions.Pow.Real

/-!
# Error propagation through binary64 expressions

The same calculus as for binary32; the term `2^-200` stands for the (much smaller) underflow error.
-/

namespace CS
open F64 B64

theorem tiny64 {a : ℚ} : a + 1 / 2 ^ 1075 ≤ a + 1 / 2 ^ 200 := by
  gcongr <;> norm_num

/-- The double `x` is finite and approximates `r` up to `e`. -/
structure F64.Ap (x : F64) (r e : ℝ) : Prop where
  fin : x.isFinite = true
  err : |(x.val : ℝ) - r| ≤ e

namespace F64.Ap

theorem weaken {x : F64} {r e e' : ℝ} (h : Ap x r e) (he : e ≤ e') : Ap x r e' := ⟨h.fin, h.err.trans he⟩

theorem nonneg {x : F64} {r e : ℝ} (h : Ap x r e) : 0 ≤ e := (abs_nonneg _).trans h.err

theorem exact {x : F64} (h : x.isFinite = true) : Ap x x.val 0 := ⟨h, by simp⟩

theorem abs_le {x : F64} {r e R : ℝ} (h : Ap x r e) (hr : |r| ≤ R) : |(x.val : ℝ)| ≤ R + e := by
  have := abs_sub_abs_le_abs_sub (x.val : ℝ) r
  linarith [h.err]

/-- Delivering an exact rational. -/
theorem pack {s : Bool} {q : ℚ} {r e B : ℝ} (h : |(q : ℝ) - r| ≤ e) (hB : |(q : ℝ)| ≤ B) (hB' : B ≤ 2 ^ 200) :
    Ap (F64.pack s q) r (e + B / 2 ^ 53 + 1 / 2 ^ 200) := by
  have h1 : |rnd q - q| ≤ |q| / 2 ^ 53 + 1 / 2 ^ 200 := (rnd_rel' q).trans tiny64
  have h2 : |q| ≤ 2 ^ 200 := by
    have : |(q : ℝ)| ≤ 2 ^ 200 := hB.trans hB'
    exact_mod_cast this
  have h3 : |rnd q| < 2 ^ 1024 := by
    have h4 := abs_sub_abs_le_abs_sub (rnd q) q
    have h5 : |q| / 2 ^ 53 + 1 / 2 ^ 200 ≤ 2 ^ 200 / 2 ^ 53 + 1 / 2 ^ 200 := by gcongr
    have h6 : (2 : ℚ) ^ 200 + (2 ^ 200 / 2 ^ 53 + 1 / 2 ^ 200) < 2 ^ 1024 :=
      lt_of_lt_of_le (b := (2 : ℚ) ^ 210) (by norm_num) (pow_le_pow_right₀ (by norm_num) (by norm_num))
    exact lt_of_le_of_lt (by linarith) h6
  obtain ⟨f, v⟩ := pack_finite (s := s) h3
  refine ⟨f, ?_⟩
  rw [v]
  have h1' : |((rnd q : ℚ) : ℝ) - q| ≤ |(q : ℝ)| / 2 ^ 53 + 1 / 2 ^ 200 := by
    have := (Rat.cast_le (K := ℝ)).2 h1
    push_cast at this
    exact this
  have h7 : |(q : ℝ)| / 2 ^ 53 ≤ B / 2 ^ 53 := by gcongr
  calc |((rnd q : ℚ) : ℝ) - r| = |(((rnd q : ℚ) : ℝ) - q) + (q - r)| := by congr 1; ring
    _ ≤ _ := abs_add_le _ _
    _ ≤ _ := by linarith

theorem lit {q : ℚ} {B E : ℝ} (hB : |(q : ℝ)| ≤ B) (hB' : B ≤ 2 ^ 200) (hE : B / 2 ^ 53 + 1 / 2 ^ 200 ≤ E) :
    Ap (Arith.lit q : F64) q E :=
  (pack (s := false) (e := 0) (by simp) hB hB').weaken (by linarith)

theorem add {x y : F64} {r s e f B E : ℝ} (hx : Ap x r e) (hy : Ap y s f) (hB : |r + s| ≤ B)
    (hB' : B + e + f ≤ 2 ^ 200) (hE : (e + f) + (B + e + f) / 2 ^ 53 + 1 / 2 ^ 200 ≤ E) : Ap (x + y) (r + s) E := by
  rw [add_def, add_finite hx.fin hy.fin]
  have h : |((x.val + y.val : ℚ) : ℝ) - (r + s)| ≤ e + f := by
    push_cast
    rw [show (x.val : ℝ) + y.val - (r + s) = (x.val - r) + (y.val - s) by ring]
    exact (abs_add_le _ _).trans (add_le_add hx.err hy.err)
  refine (pack h ?_ hB').weaken hE
  have := abs_sub_abs_le_abs_sub ((x.val + y.val : ℚ) : ℝ) (r + s)
  linarith

theorem neg {x : F64} {r e : ℝ} (hx : Ap x r e) : Ap (F64.neg x) (-r) e := by
  obtain ⟨h1, h2⟩ := hx
  have hv : (F64.neg x).val = -x.val := by cases x <;> simp [F64.neg, F64.val]
  refine ⟨by cases x <;> first | rfl | exact h1, ?_⟩
  rw [hv]; push_cast
  rw [show -(x.val : ℝ) - -r = -(x.val - r) by ring, abs_neg]; exact h2

theorem sub {x y : F64} {r s e f B E : ℝ} (hx : Ap x r e) (hy : Ap y s f) (hB : |r - s| ≤ B)
    (hB' : B + e + f ≤ 2 ^ 200) (hE : (e + f) + (B + e + f) / 2 ^ 53 + 1 / 2 ^ 200 ≤ E) : Ap (x - y) (r - s) E := by
  rw [sub_eq_add_neg]
  exact add hx hy.neg (by rwa [← sub_eq_add_neg]) hB' hE

theorem mul {x y : F64} {r s e f R S E : ℝ} (hx : Ap x r e) (hy : Ap y s f) (hR : |r| ≤ R) (hS : |s| ≤ S)
    (hB' : R * S + (e * S + f * R + e * f) ≤ 2 ^ 200)
    (hE : (e * S + f * R + e * f) + (R * S + (e * S + f * R + e * f)) / 2 ^ 53 + 1 / 2 ^ 200 ≤ E) :
    Ap (x * y) (r * s) E := by
  rw [mul_def, mul_finite hx.fin hy.fin]
  have e0 := hx.nonneg
  have f0 := hy.nonneg
  have h : |((x.val * y.val : ℚ) : ℝ) - r * s| ≤ e * S + f * R + e * f := by
    push_cast
    rw [show (x.val : ℝ) * y.val - r * s = (x.val - r) * s + (y.val - s) * r + (x.val - r) * (y.val - s) by ring]
    refine (abs_add_three _ _ _).trans ?_
    rw [abs_mul, abs_mul, abs_mul]
    have := hx.err
    have := hy.err
    gcongr
  refine (pack h ?_ hB').weaken hE
  have h1 := abs_sub_abs_le_abs_sub ((x.val * y.val : ℚ) : ℝ) (r * s)
  have h2 : |r * s| ≤ R * S := by rw [abs_mul]; gcongr; exact (abs_nonneg _).trans hR
  linarith

theorem div {x y : F64} {r s e f Q S d E : ℝ} (hx : Ap x r e) (hy : Ap y s f) (hQ : |r / s| ≤ Q) (hS : S ≤ s - f)
    (hS0 : 0 < S) (hd : (e + Q * f) / S ≤ d) (hB' : Q + d ≤ 2 ^ 200) (hE : d + (Q + d) / 2 ^ 53 + 1 / 2 ^ 200 ≤ E) :
    Ap (x / y) (r / s) E := by
  have f0 := hy.nonneg
  have hyv : S ≤ y.val := by linarith [(_root_.abs_le.1 hy.err).1]
  have hy0 : y.val ≠ 0 := by
    intro h; rw [h] at hyv; norm_num at hyv; linarith
  rw [div_def, div_finite hx.fin hy.fin hy0]
  have hs0 : 0 < s := by linarith
  have hyr : (y.val : ℝ) ≠ 0 := by linarith
  have h : |((x.val / y.val : ℚ) : ℝ) - r / s| ≤ d := by
    push_cast
    have e1 : (x.val : ℝ) / y.val - r / s = ((x.val - r) - r / s * (y.val - s)) / y.val := by
      field_simp; ring
    rw [e1, abs_div]
    refine le_trans ?_ hd
    have h2 : |(x.val : ℝ) - r - r / s * (y.val - s)| ≤ e + Q * f := by
      refine (abs_sub _ _).trans ?_
      rw [abs_mul]
      have := hx.err
      have := hy.err
      have hQ0 : 0 ≤ Q := (abs_nonneg _).trans hQ
      gcongr
    have h3 : S ≤ |(y.val : ℝ)| := hyv.trans (le_abs_self _)
    have h4 : 0 ≤ e + Q * f := (abs_nonneg _).trans h2
    exact div_le_div₀ h4 h2 hS0 h3
  refine (pack h ?_ hB').weaken hE
  have := abs_sub_abs_le_abs_sub ((x.val / y.val : ℚ) : ℝ) (r / s)
  linarith

end F64.Ap

/-- One Horner step `c + T p`. -/
theorem F64.Ap.horner {p T : F64} {c : ℚ} {r e R t E C R' : ℝ} (hp : F64.Ap p r e) (hr : |r| ≤ R) (hT : F64.Ap T t 0)
    (ht : |t| ≤ 10000) (hc : |(c : ℝ)| ≤ C) (hR : C + 10000 * R ≤ R') (hR' : R' + 20000 * e ≤ 2 ^ 60)
    (hE : 10000 * e + 4 * (R' + 10000 * e) / 2 ^ 53 + 1 / 2 ^ 190 ≤ E) :
    F64.Ap (Arith.lit c + T * p) (c + t * r) E ∧ |(c : ℝ) + t * r| ≤ R' := by
  have e0 := hp.nonneg
  have R0 : 0 ≤ R := (abs_nonneg _).trans hr
  have C0 : 0 ≤ C := (abs_nonneg _).trans hc
  have h60 : (2 : ℝ) ^ 60 * 2 ≤ 2 ^ 200 := by norm_num
  have m := hT.mul hp (R := 10000) (S := R) (E := 10000 * e + (10000 * R + 10000 * e) / 2 ^ 53 + 1 / 2 ^ 200) ht hr
    (by linarith) (by linarith)
  have l := F64.Ap.lit (q := c) (B := C) (E := C / 2 ^ 53 + 1 / 2 ^ 200) hc (by linarith) le_rfl
  have b : |(c : ℝ) + t * r| ≤ C + 10000 * R := by
    refine (abs_add_le _ _).trans (add_le_add hc ?_)
    rw [abs_mul]; gcongr
  refine ⟨l.add m (B := C + 10000 * R) b ?_ ?_, b.trans hR⟩
  · norm_num at *
    linarith
  · norm_num at *
    linarith

theorem F64.Ap.ofF32 {x : F32} (h : x.isFinite = true) : F64.Ap (F64.ofF32 x) x.val 0 :=
  ⟨by rw [F64.ofF32_isFinite]; exact h, by rw [F64.ofF32_val]; simp⟩

theorem F64.Ap.ofF32' {x : F32} {r e : ℝ} (h : F32.Ap x r e) : F64.Ap (F64.ofF32 x) r e :=
  ⟨by rw [F64.ofF32_isFinite]; exact h.fin, by rw [F64.ofF32_val]; exact h.err⟩

/-- Conversion to `float` adds one binary32 rounding. -/
theorem F64.Ap.toF32 {x : F64} {r e B E : ℝ} (h : F64.Ap x r e) (hB : |r| ≤ B) (hB' : B + e ≤ 2 ^ 120)
    (hE : e + (B + e) / 2 ^ 24 + 1 / 2 ^ 150 ≤ E) : F32.Ap (F64.toF32 x) r E := by
  rw [F64.toF32_finite h.fin]
  exact (F32.Ap.pack h.err (h.abs_le hB) hB').weaken hE

/-- Conversion to `float` is monotone. -/
theorem F64.toF32_mono {x y : F64} (fx : x.isFinite = true) (fy : y.isFinite = true) (bx : |x.val| ≤ 2 ^ 100) (by' : |y.val| ≤ 2 ^ 100)
    (h : x.val ≤ y.val) : (toF32 x).val ≤ (toF32 y).val := by
  have key : ∀ z : F64, z.isFinite = true → |z.val| ≤ 2 ^ 100 → (toF32 z).val = B32.rnd z.val := by
    intro z fz hz
    rw [toF32_finite fz]
    refine (F32.pack_finite ?_).2
    have h1 := B32.rnd_rel' z.val
    have h4 := abs_sub_abs_le_abs_sub (B32.rnd z.val) z.val
    have h5 : |z.val| / 2 ^ 24 + 1 / 2 ^ 150 ≤ 2 ^ 100 / 2 ^ 24 + 1 / 2 ^ 150 := by gcongr
    have h6 : (2 : ℚ) ^ 100 + (2 ^ 100 / 2 ^ 24 + 1 / 2 ^ 150) < 2 ^ 128 := by norm_num
    linarith
  rw [key x fx bx, key y fy by']
  exact B32.rnd_mono h

/-! ### Relative errors of positive quantities -/

/-- The double `x` is finite and within `ε r` of the positive number `r`. -/
structure F64.Re (x : F64) (r ε : ℝ) : Prop where
  fin : x.isFinite = true
  pos : 0 < r
  err : |(x.val : ℝ) - r| ≤ ε * r

/-- The unit of the calculus: twice the unit roundoff. -/
noncomputable def u64 : ℝ := 1 / 2 ^ 52

namespace F64.Re

theorem nonneg {x : F64} {r ε : ℝ} (h : Re x r ε) : 0 ≤ ε :=
  nonneg_of_mul_nonneg_left ((abs_nonneg _).trans h.err) h.pos

theorem weaken {x : F64} {r ε ε' : ℝ} (h : Re x r ε) (he : ε ≤ ε') : Re x r ε' :=
  ⟨h.fin, h.pos, h.err.trans (by have := h.pos; gcongr)⟩

theorem pack {s : Bool} {q : ℚ} {r ε : ℝ} (h : |(q : ℝ) - r| ≤ ε * r) (hε : ε ≤ 1 / 4) (r0 : 1 / 2 ^ 140 ≤ r) (r1 : r ≤ 2 ^ 190) :
    Re (F64.pack s q) r (ε + u64) := by
  have rp : 0 < r := lt_of_lt_of_le (by positivity) r0
  have hq : |(q : ℝ)| ≤ 5 / 4 * r := by
    have := abs_sub_abs_le_abs_sub (q : ℝ) r
    rw [abs_of_pos rp] at this
    nlinarith
  have a := F64.Ap.pack (s := s) h hq (le_trans (b := (5 / 4 : ℝ) * 2 ^ 190) (by gcongr) (by norm_num))
  refine ⟨a.fin, rp, a.err.trans ?_⟩
  have h2 : (1 : ℝ) / 2 ^ 200 ≤ 1 / 2 ^ 60 * r :=
    le_trans (b := (1 : ℝ) / 2 ^ 60 * (1 / 2 ^ 140)) (by norm_num) (by gcongr)
  unfold u64
  norm_num at *
  linarith

theorem lit {q : ℚ} (q0 : 1 / 2 ^ 140 ≤ (q : ℝ)) (q1 : (q : ℝ) ≤ 2 ^ 190) : Re (Arith.lit q : F64) q u64 :=
  (pack (s := false) (ε := 0) (by simp) (by norm_num) q0 q1).weaken (by linarith)

theorem mul {x y : F64} {r s ε δ E : ℝ} (hx : Re x r ε) (hy : Re y s δ) (r0 : 1 / 2 ^ 140 ≤ r * s) (r1 : r * s ≤ 2 ^ 190)
    (hd : ε + δ + ε * δ ≤ 1 / 4) (hE : ε + δ + ε * δ + u64 ≤ E) : Re (x * y) (r * s) E := by
  rw [mul_def, mul_finite hx.fin hy.fin]
  have := hx.pos
  have := hy.pos
  have := hx.nonneg
  have := hy.nonneg
  refine (pack ?_ hd r0 r1).weaken hE
  push_cast
  rw [show (x.val : ℝ) * y.val - r * s = (x.val - r) * s + (y.val - s) * r + (x.val - r) * (y.val - s) by ring]
  refine (abs_add_three _ _ _).trans ?_
  rw [abs_mul, abs_mul, abs_mul, abs_of_pos hx.pos, abs_of_pos hy.pos]
  calc _ ≤ (ε * r) * s + (δ * s) * r + (ε * r) * (δ * s) := by
        have := hx.err
        have := hy.err
        gcongr
    _ = _ := by ring

theorem div {x y : F64} {r s ε δ d E : ℝ} (hx : Re x r ε) (hy : Re y s δ) (r0 : 1 / 2 ^ 140 ≤ r / s) (r1 : r / s ≤ 2 ^ 190)
    (hδ : δ < 1) (hd : ε + δ ≤ d * (1 - δ)) (hd' : d ≤ 1 / 4) (hE : d + u64 ≤ E) : Re (x / y) (r / s) E := by
  have r0' := hx.pos
  have s0 := hy.pos
  have ε0 := hx.nonneg
  have δ0 := hy.nonneg
  have hyv : (1 - δ) * s ≤ y.val := by linarith [(_root_.abs_le.1 hy.err).1]
  have hyp : 0 < (y.val : ℝ) := lt_of_lt_of_le (by nlinarith) hyv
  have hy0 : y.val ≠ 0 := by
    intro h; rw [h] at hyp; norm_num at hyp
  rw [div_def, div_finite hx.fin hy.fin hy0]
  refine (pack ?_ hd' r0 r1).weaken hE
  push_cast
  have e1 : (x.val : ℝ) / y.val - r / s = ((x.val - r) - r / s * (y.val - s)) / y.val := by field_simp; ring
  rw [e1, abs_div, abs_of_pos hyp, div_le_iff₀ hyp]
  have q0 : 0 < r / s := by positivity
  calc _ ≤ |(x.val : ℝ) - r| + |r / s * (y.val - s)| := abs_sub _ _
    _ ≤ ε * r + r / s * (δ * s) := by
        rw [abs_mul, abs_of_pos q0]
        have := hx.err
        have := hy.err
        gcongr
    _ = (ε + δ) * r := by field_simp
    _ ≤ d * (1 - δ) * r := by gcongr
    _ = d * (r / s) * ((1 - δ) * s) := by field_simp
    _ ≤ _ := by
        have : 0 ≤ d := by
          by_contra hc
          rw [not_le] at hc
          nlinarith
        gcongr

end F64.Re

/-! ### The `double` library -/

/-- Powers with relative error `δ` where the result is far from overflow and underflow. -/
def F64.Oracle.PowAccurate (o : F64.Oracle) (δ : ℝ) : Prop :=
  ∀ x y : F64, x.isFinite = true → y.isFinite = true → 0 < x.val →
    (2 : ℝ) ^ (-180 : ℤ) ≤ (x.val : ℝ) ^ (y.val : ℝ) → (x.val : ℝ) ^ (y.val : ℝ) ≤ 2 ^ (180 : ℤ) →
    (o.powf x y).isFinite = true ∧
      |((o.powf x y).val : ℝ) - (x.val : ℝ) ^ (y.val : ℝ)| ≤ δ * (x.val : ℝ) ^ (y.val : ℝ)

/-- Exponentials with relative error `δ` where the result is far from overflow and underflow. -/
def F64.Oracle.ExpAccurate (o : F64.Oracle) (δ : ℝ) : Prop :=
  ∀ x : F64, x.isFinite = true → (2 : ℝ) ^ (-180 : ℤ) ≤ Real.exp x.val → Real.exp x.val ≤ 2 ^ (180 : ℤ) →
    (o.expf x).isFinite = true ∧ |((o.expf x).val : ℝ) - Real.exp x.val| ≤ δ * Real.exp x.val

/-- Accurate `double` libraries exist. -/
theorem exists_accurate64 : ∃ o : F64.Oracle, o.PowAccurate (2 ^ (-50 : ℤ)) ∧ o.ExpAccurate (2 ^ (-50 : ℤ)) := by
  classical
  have key : ∀ z : ℝ, (2 : ℝ) ^ (-180 : ℤ) ≤ z → z ≤ 2 ^ (180 : ℤ) →
      ∃ w : F64, w.isFinite = true ∧ |(w.val : ℝ) - z| ≤ 2 ^ (-50 : ℤ) * z := by
    intro z h1 h2
    have z0 : 0 < z := lt_of_lt_of_le (by positivity) h1
    obtain ⟨q, hq1, hq2⟩ := exists_rat_btwn (show z * (1 - 1 / 2 ^ 53) < z by
      nlinarith [show (0 : ℝ) < 1 / 2 ^ 53 by positivity])
    have hq0 : 0 < (q : ℝ) := lt_trans (by have : (0 : ℝ) < 1 - 1 / 2 ^ 53 := by norm_num
                                           positivity) hq1
    have ez : z * (1 - 1 / 2 ^ 53) = z - 1 / 2 ^ 53 * z := by ring
    rw [ez] at hq1
    have hr : |rnd q - q| ≤ |q| / 2 ^ 53 + 1 / 2 ^ 1075 := rnd_rel' q
    have hb : |q| ≤ 2 ^ 180 := by
      have : |(q : ℝ)| ≤ 2 ^ 180 := by rw [abs_of_pos hq0]; exact hq2.le.trans (by exact_mod_cast h2)
      exact_mod_cast this
    have t : (1 : ℚ) / 2 ^ 1075 ≤ 1 / 2 ^ 235 :=
      one_div_le_one_div_of_le (by positivity) (pow_le_pow_right₀ (by norm_num) (by norm_num))
    have hf : |rnd q| < 2 ^ 1024 := by
      have h4 := abs_sub_abs_le_abs_sub (rnd q) q
      have h5 : |q| / 2 ^ 53 ≤ 2 ^ 180 / 2 ^ 53 := by gcongr
      have h6 : (2 : ℚ) ^ 180 + (2 ^ 180 / 2 ^ 53 + 1 / 2 ^ 235) < 2 ^ 1024 :=
        lt_of_lt_of_le (b := (2 : ℚ) ^ 190) (by norm_num) (pow_le_pow_right₀ (by norm_num) (by norm_num))
      exact lt_of_le_of_lt (by linarith) h6
    obtain ⟨f, v⟩ := pack_finite (s := false) hf
    refine ⟨_, f, ?_⟩
    rw [v]
    have hr2 := (Rat.cast_le (K := ℝ)).2 (hr.trans (add_le_add_right t _))
    push_cast at hr2
    rw [abs_of_pos hq0] at hr2
    have h3 : (1 : ℝ) / 2 ^ 235 ≤ 1 / 2 ^ 55 * z :=
      le_trans (b := (1 : ℝ) / 2 ^ 55 * 2 ^ (-180 : ℤ)) (by norm_num) (by gcongr)
    have := abs_add_le (((rnd q : ℚ) : ℝ) - q) (q - z)
    rw [sub_add_sub_cancel] at this
    have h8 : |(q : ℝ) - z| ≤ 1 / 2 ^ 53 * z := by
      rw [_root_.abs_le]; constructor <;> linarith [mul_pos (show (0 : ℝ) < 1 / 2 ^ 53 by positivity) z0]
    refine this.trans ((add_le_add hr2 h8).trans ?_)
    rw [zpow_neg]
    norm_num at *
    linarith
  let n : ℝ → F64 := fun z => if h : (2 : ℝ) ^ (-180 : ℤ) ≤ z ∧ z ≤ 2 ^ (180 : ℤ) then (key _ h.1 h.2).choose else .nan
  have hn : ∀ z, (2 : ℝ) ^ (-180 : ℤ) ≤ z → z ≤ 2 ^ (180 : ℤ) → (n z).isFinite = true ∧ |((n z).val : ℝ) - z| ≤ 2 ^ (-50 : ℤ) * z := by
    intro z h1 h2
    have e : n z = (key _ h1 h2).choose := dif_pos ⟨h1, h2⟩
    rw [e]
    exact (key _ h1 h2).choose_spec
  exact ⟨⟨id, fun x y => n ((x.val : ℝ) ^ (y.val : ℝ)), fun x => n (Real.exp x.val), id, id, id, id, fun x _ => x, id, fun x _ => x⟩,
    fun x y _ _ _ h1 h2 => hn _ h1 h2, fun x _ h1 h2 => hn _ h1 h2⟩

end CS
