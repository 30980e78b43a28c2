import Verif.Props.Float
import Mathlib.Analysis.SpecialFunctions.Pow.Real
import Mathlib.Analysis.Complex.ExponentialBounds

/-!
# Error propagation through binary32 expressions, library powers included

`Ap x r e`: the float `x` is finite and within `e` of the real number `r`.
-/

namespace CS
open F32 B32

/-- The float `x` is finite and approximates `r` up to `e`. -/
structure F32.Ap (x : F32) (r e : ℝ) : Prop where
  fin : x.isFinite = true
  err : |(x.val : ℝ) - r| ≤ e

/-- An implementation of `powf` with relative error at most `δ` wherever the result is far from overflow and
underflow (no assumption elsewhere). -/
def F32.Oracle.PowAccurate (o : F32.Oracle) (δ : ℝ) : Prop :=
  ∀ x y : F32, x.isFinite = true → y.isFinite = true → 0 < x.val →
    (2 : ℝ) ^ (-120 : ℤ) ≤ (x.val : ℝ) ^ (y.val : ℝ) → (x.val : ℝ) ^ (y.val : ℝ) ≤ 2 ^ (120 : ℤ) →
    (o.powf x y).isFinite = true ∧
      |((o.powf x y).val : ℝ) - (x.val : ℝ) ^ (y.val : ℝ)| ≤ δ * (x.val : ℝ) ^ (y.val : ℝ)

namespace F32.Ap

theorem weaken {x : F32} {r e e' : ℝ} (h : Ap x r e) (he : e ≤ e') : Ap x r e' := ⟨h.fin, h.err.trans he⟩

theorem nonneg {x : F32} {r e : ℝ} (h : Ap x r e) : 0 ≤ e := (abs_nonneg _).trans h.err

theorem exact {x : F32} (h : x.isFinite = true) : Ap x x.val 0 := ⟨h, by simp⟩

theorem abs_le {x : F32} {r e R : ℝ} (h : Ap x r e) (hr : |r| ≤ R) : |(x.val : ℝ)| ≤ R + e := by
  have := abs_sub_abs_le_abs_sub (x.val : ℝ) r
  linarith [h.err]

/-- Delivering an exact rational. -/
theorem pack {s : Bool} {q : ℚ} {r e B : ℝ} (h : |(q : ℝ) - r| ≤ e) (hB : |(q : ℝ)| ≤ B) (hB' : B ≤ 2 ^ 120) :
    Ap (F32.pack s q) r (e + B / 2 ^ 24 + 1 / 2 ^ 150) := by
  have h1 : |rnd q - q| ≤ |q| / 2 ^ 24 + 1 / 2 ^ 150 := rnd_rel' q
  have h2 : |q| ≤ 2 ^ 120 := by
    have : |(q : ℝ)| ≤ 2 ^ 120 := hB.trans hB'
    exact_mod_cast this
  have h3 : |rnd q| < 2 ^ 128 := by
    have h4 := abs_sub_abs_le_abs_sub (rnd q) q
    have h5 : |q| / 2 ^ 24 + 1 / 2 ^ 150 ≤ 2 ^ 120 / 2 ^ 24 + 1 / 2 ^ 150 := by gcongr
    have h6 : (2 : ℚ) ^ 120 + (2 ^ 120 / 2 ^ 24 + 1 / 2 ^ 150) < 2 ^ 128 := by norm_num
    linarith
  obtain ⟨f, v⟩ := pack_finite (s := s) h3
  refine ⟨f, ?_⟩
  rw [v]
  have h1' : |((rnd q : ℚ) : ℝ) - q| ≤ |(q : ℝ)| / 2 ^ 24 + 1 / 2 ^ 150 := by
    have := (Rat.cast_le (K := ℝ)).2 h1
    push_cast at this
    exact this
  have h7 : |(q : ℝ)| / 2 ^ 24 ≤ B / 2 ^ 24 := by gcongr
  calc |((rnd q : ℚ) : ℝ) - r| = |(((rnd q : ℚ) : ℝ) - q) + (q - r)| := by congr 1; ring
    _ ≤ _ := abs_add_le _ _
    _ ≤ _ := by linarith

theorem lit {q : ℚ} {B E : ℝ} (hB : |(q : ℝ)| ≤ B) (hB' : B ≤ 2 ^ 120) (hE : B / 2 ^ 24 + 1 / 2 ^ 150 ≤ E) :
    Ap (Arith.lit q : F32) q E :=
  (pack (s := false) (e := 0) (by simp) hB hB').weaken (by linarith)

theorem add {x y : F32} {r s e f B E : ℝ} (hx : Ap x r e) (hy : Ap y s f) (hB : |r + s| ≤ B)
    (hB' : B + e + f ≤ 2 ^ 120) (hE : (e + f) + (B + e + f) / 2 ^ 24 + 1 / 2 ^ 150 ≤ E) : Ap (x + y) (r + s) E := by
  rw [add_def, add_finite hx.fin hy.fin]
  have h : |((x.val + y.val : ℚ) : ℝ) - (r + s)| ≤ e + f := by
    push_cast
    rw [show (x.val : ℝ) + y.val - (r + s) = (x.val - r) + (y.val - s) by ring]
    exact (abs_add_le _ _).trans (add_le_add hx.err hy.err)
  refine (pack h ?_ hB').weaken hE
  have := abs_sub_abs_le_abs_sub ((x.val + y.val : ℚ) : ℝ) (r + s)
  linarith

theorem neg {x : F32} {r e : ℝ} (hx : Ap x r e) : Ap (F32.neg x) (-r) e := by
  obtain ⟨h1, h2⟩ := hx
  have hv : (F32.neg x).val = -x.val := by cases x <;> simp [F32.neg, F32.val]
  refine ⟨by cases x <;> first | rfl | exact h1, ?_⟩
  rw [hv]; push_cast
  rw [show -(x.val : ℝ) - -r = -(x.val - r) by ring, abs_neg]; exact h2

theorem sub {x y : F32} {r s e f B E : ℝ} (hx : Ap x r e) (hy : Ap y s f) (hB : |r - s| ≤ B)
    (hB' : B + e + f ≤ 2 ^ 120) (hE : (e + f) + (B + e + f) / 2 ^ 24 + 1 / 2 ^ 150 ≤ E) : Ap (x - y) (r - s) E := by
  rw [sub_eq_add_neg]
  exact add hx hy.neg (by rwa [← sub_eq_add_neg]) hB' hE

theorem mul {x y : F32} {r s e f R S E : ℝ} (hx : Ap x r e) (hy : Ap y s f) (hR : |r| ≤ R) (hS : |s| ≤ S)
    (hB' : R * S + (e * S + f * R + e * f) ≤ 2 ^ 120)
    (hE : (e * S + f * R + e * f) + (R * S + (e * S + f * R + e * f)) / 2 ^ 24 + 1 / 2 ^ 150 ≤ E) :
    Ap (x * y) (r * s) E := by
  rw [mul_def, mul_finite hx.fin hy.fin]
  have e0 := hx.nonneg
  have f0 := hy.nonneg
  have h : |((x.val * y.val : ℚ) : ℝ) - r * s| ≤ e * S + f * R + e * f := by
    push_cast
    rw [show (x.val : ℝ) * y.val - r * s = (x.val - r) * s + (y.val - s) * r + (x.val - r) * (y.val - s) by ring]
    refine (abs_add_three _ _ _).trans ?_
    rw [abs_mul, abs_mul, abs_mul]
    have := hx.err
    have := hy.err
    gcongr
  refine (pack h ?_ hB').weaken hE
  have h1 := abs_sub_abs_le_abs_sub ((x.val * y.val : ℚ) : ℝ) (r * s)
  have h2 : |r * s| ≤ R * S := by rw [abs_mul]; gcongr; exact (abs_nonneg _).trans hR
  linarith

theorem div {x y : F32} {r s e f Q S d E : ℝ} (hx : Ap x r e) (hy : Ap y s f) (hQ : |r / s| ≤ Q) (hS : S ≤ s - f)
    (hS0 : 0 < S) (hd : (e + Q * f) / S ≤ d) (hB' : Q + d ≤ 2 ^ 120) (hE : d + (Q + d) / 2 ^ 24 + 1 / 2 ^ 150 ≤ E) :
    Ap (x / y) (r / s) E := by
  have f0 := hy.nonneg
  have hyv : S ≤ y.val := by linarith [(_root_.abs_le.1 hy.err).1]
  have hy0 : y.val ≠ 0 := by
    intro h; rw [h] at hyv; norm_num at hyv; linarith
  rw [div_def, div_finite hx.fin hy.fin hy0]
  have hs0 : 0 < s := by linarith
  have hyr : (y.val : ℝ) ≠ 0 := by linarith
  have h : |((x.val / y.val : ℚ) : ℝ) - r / s| ≤ d := by
    push_cast
    have e1 : (x.val : ℝ) / y.val - r / s = ((x.val - r) - r / s * (y.val - s)) / y.val := by
      field_simp; ring
    rw [e1, abs_div]
    refine le_trans ?_ hd
    have h2 : |(x.val : ℝ) - r - r / s * (y.val - s)| ≤ e + Q * f := by
      refine (abs_sub _ _).trans ?_
      rw [abs_mul]
      have := hx.err
      have := hy.err
      have hQ0 : 0 ≤ Q := (abs_nonneg _).trans hQ
      gcongr
    have h3 : S ≤ |(y.val : ℝ)| := hyv.trans (le_abs_self _)
    have h4 : 0 ≤ e + Q * f := (abs_nonneg _).trans h2
    exact div_le_div₀ h4 h2 hS0 h3
  refine (pack h ?_ hB').weaken hE
  have := abs_sub_abs_le_abs_sub ((x.val / y.val : ℚ) : ℝ) (r / s)
  linarith

end F32.Ap

theorem abs_log_one_add {t e : ℝ} (ht : |t - 1| ≤ e) (he : e ≤ 1 / 2) : |Real.log t| ≤ e + 2 * e ^ 2 := by
  obtain ⟨h1, h2⟩ := abs_le.1 ht
  have e0 : 0 ≤ e := (abs_nonneg _).trans ht
  have t0 : 0 < t := by linarith
  rw [abs_le]
  constructor
  · have := Real.one_sub_inv_le_log_of_pos t0
    have h3 : t⁻¹ ≤ 1 + e + 2 * e ^ 2 := by
      rw [inv_le_comm₀ t0 (by positivity), inv_le_iff_one_le_mul₀ (by positivity)]
      nlinarith [sq_nonneg e, mul_nonneg e0 e0, mul_nonneg (mul_nonneg e0 e0) e0]
    linarith
  · have := Real.log_le_sub_one_of_pos t0
    nlinarith [sq_nonneg e]

/-- Perturbation of a power. -/
theorem rpow_perturb {x y r s e f L S θ : ℝ} (hr : 0 < r) (hx : |x - r| ≤ e * r) (he : e ≤ 1 / 2) (hy : |y - s| ≤ f)
    (hS : |s| ≤ S) (hL : |Real.log r| ≤ L) (hθ : (S + f) * (e + 2 * e ^ 2) + f * L ≤ θ) (hθ1 : θ ≤ 1) :
    0 < x ∧ |x ^ y - r ^ s| ≤ (θ + θ ^ 2) * r ^ s := by
  have hx' : |x / r - 1| ≤ e := by
    rw [show x / r - 1 = (x - r) / r by field_simp, abs_div, abs_of_pos hr, div_le_iff₀ hr]; exact hx
  have e0 : 0 ≤ e := (abs_nonneg _).trans hx'
  have f0 : 0 ≤ f := (abs_nonneg _).trans hy
  have x0 : 0 < x := by
    have := (abs_le.1 hx').1
    have : 0 < x / r := by linarith
    exact (div_pos_iff_of_pos_right hr).1 this
  refine ⟨x0, ?_⟩
  have hlog := abs_log_one_add hx' he
  rw [Real.log_div x0.ne' hr.ne'] at hlog
  have hd : |y * Real.log x - s * Real.log r| ≤ θ := by
    rw [show y * Real.log x - s * Real.log r = y * (Real.log x - Real.log r) + (y - s) * Real.log r by ring]
    refine (abs_add_le _ _).trans (le_trans ?_ hθ)
    rw [abs_mul, abs_mul]
    have hyy : |y| ≤ S + f := by
      have := abs_sub_abs_le_abs_sub y s; linarith
    have : 0 ≤ S + f := (abs_nonneg _).trans hyy
    gcongr
  have e1 : x ^ y = r ^ s * Real.exp (y * Real.log x - s * Real.log r) := by
    rw [Real.rpow_def_of_pos x0, Real.rpow_def_of_pos hr, ← Real.exp_add]; congr 1; ring
  have hp : 0 < r ^ s := Real.rpow_pos_of_pos hr s
  rw [e1, show r ^ s * Real.exp (y * Real.log x - s * Real.log r) - r ^ s =
    (Real.exp (y * Real.log x - s * Real.log r) - 1) * r ^ s by ring, abs_mul, abs_of_pos hp]
  gcongr
  generalize y * Real.log x - s * Real.log r = u at hd
  have hu : |u| ≤ 1 := hd.trans hθ1
  have h1 := Real.abs_exp_sub_one_sub_id_le hu
  calc |Real.exp u - 1| = |(Real.exp u - 1 - u) + u| := by congr 1; ring
    _ ≤ _ := abs_add_le _ _
    _ ≤ u ^ 2 + |u| := by linarith
    _ ≤ θ ^ 2 + θ := by
      have : u ^ 2 ≤ θ ^ 2 := by rw [← sq_abs]; gcongr
      linarith
    _ = _ := by ring

/-- A library power of approximate arguments: relative error. -/
theorem F32.Ap.pow {o : F32.Oracle} {δ : ℝ} (ho : o.PowAccurate δ) {x y : F32} {r s e f L S θ E : ℝ} (hr : 0 < r)
    (hx : Ap x r (e * r)) (he : e ≤ 1 / 2) (hy : Ap y s f) (hS : |s| ≤ S) (hL : |Real.log r| ≤ L)
    (hθ : (S + f) * (e + 2 * e ^ 2) + f * L ≤ θ) (hθ1 : θ ≤ 1 / 2) (hlo : (2 : ℝ) ^ (-100 : ℤ) ≤ r ^ s)
    (hhi : r ^ s ≤ 2 ^ (100 : ℤ)) (hδ : 0 ≤ δ) (hE : δ + (1 + δ) * (θ + θ ^ 2) ≤ E) :
    Ap (o.powf x y) (r ^ s) (E * r ^ s) := by
  obtain ⟨x0, h⟩ := rpow_perturb hr hx.err he hy.err hS hL hθ (by linarith)
  have hp : 0 < r ^ s := Real.rpow_pos_of_pos hr s
  have e0 : 0 ≤ e := by
    have := hx.nonneg
    exact nonneg_of_mul_nonneg_left this hr
  have θ0 : 0 ≤ θ := by
    refine le_trans ?_ hθ
    have := hy.nonneg
    have : 0 ≤ S := (abs_nonneg _).trans hS
    have : 0 ≤ L := (abs_nonneg _).trans hL
    positivity
  have h3 : θ + θ ^ 2 ≤ 3 / 4 := by nlinarith
  obtain ⟨h1, h2⟩ := _root_.abs_le.1 h
  have h4 : (θ + θ ^ 2) * r ^ s ≤ 3 / 4 * r ^ s := by gcongr
  have b1 : (2 : ℝ) ^ (-120 : ℤ) ≤ (x.val : ℝ) ^ (y.val : ℝ) := by
    have : (2 : ℝ) ^ (-120 : ℤ) ≤ 2 ^ (-100 : ℤ) / 4 := by norm_num
    refine this.trans ((div_le_div_of_nonneg_right hlo (by norm_num)).trans ?_)
    linarith
  have b2 : (x.val : ℝ) ^ (y.val : ℝ) ≤ 2 ^ (120 : ℤ) := by
    have : (2 : ℝ) ^ (100 : ℤ) * 2 ≤ 2 ^ (120 : ℤ) := by norm_num
    linarith
  obtain ⟨g1, g2⟩ := ho x y hx.fin hy.fin (by exact_mod_cast x0) b1 b2
  refine ⟨g1, ?_⟩
  calc |((o.powf x y).val : ℝ) - r ^ s| = |(((o.powf x y).val : ℝ) - (x.val : ℝ) ^ (y.val : ℝ)) +
        ((x.val : ℝ) ^ (y.val : ℝ) - r ^ s)| := by congr 1; ring
    _ ≤ _ := abs_add_le _ _
    _ ≤ δ * (r ^ s + (θ + θ ^ 2) * r ^ s) + (θ + θ ^ 2) * r ^ s := by
      have : δ * (x.val : ℝ) ^ (y.val : ℝ) ≤ δ * (r ^ s + (θ + θ ^ 2) * r ^ s) :=
        mul_le_mul_of_nonneg_left (by linarith) hδ
      linarith
    _ = (δ + (1 + δ) * (θ + θ ^ 2)) * r ^ s := by ring
    _ ≤ _ := by gcongr

/-- Correctly rounded powers, up to `2^-40`, exist: the hypothesis can be met. -/
theorem exists_powAccurate : ∃ o : F32.Oracle, o.PowAccurate (2 ^ (-23 : ℤ)) := by
  classical
  have key : ∀ z : ℝ, (2 : ℝ) ^ (-120 : ℤ) ≤ z → z ≤ 2 ^ (120 : ℤ) →
      ∃ w : F32, w.isFinite = true ∧ |(w.val : ℝ) - z| ≤ 2 ^ (-23 : ℤ) * z := by
    intro z h1 h2
    have z0 : 0 < z := lt_of_lt_of_le (by positivity) h1
    obtain ⟨q, hq1, hq2⟩ := exists_rat_btwn (show z * (1 - 2 ^ (-26 : ℤ)) < z by
      nlinarith [show (0 : ℝ) < 2 ^ (-26 : ℤ) by positivity])
    have hq0 : 0 < (q : ℝ) := lt_trans (by norm_num; exact z0) hq1
    have := F32.Ap.pack (s := false) (q := q) (r := z) (e := z * 2 ^ (-26 : ℤ)) (B := z)
      (by rw [_root_.abs_le]; constructor <;> nlinarith [mul_pos z0 (show (0 : ℝ) < 2 ^ (-26 : ℤ) by positivity)])
      (by rw [abs_of_pos hq0]; exact hq2.le) (by exact_mod_cast h2)
    refine ⟨_, this.fin, this.err.trans ?_⟩
    have h3 : (1 : ℝ) / 2 ^ 150 ≤ 2 ^ (-120 : ℤ) / 2 ^ 26 := by norm_num
    have h4 : (2 : ℝ) ^ (-120 : ℤ) / 2 ^ 26 ≤ z / 2 ^ 26 := by gcongr
    norm_num at *
    linarith
  let p : F32 → F32 → F32 := fun x y => if h : (2 : ℝ) ^ (-120 : ℤ) ≤ (x.val : ℝ) ^ (y.val : ℝ) ∧
      (x.val : ℝ) ^ (y.val : ℝ) ≤ 2 ^ (120 : ℤ) then (key _ h.1 h.2).choose else .nan
  refine ⟨⟨id, p, id, id, id, id, id, p, id, p⟩, fun x y _ _ _ h1 h2 => ?_⟩
  show (p x y).isFinite = true ∧ _
  have e : p x y = (key _ h1 h2).choose := dif_pos ⟨h1, h2⟩
  rw [show (Oracle.mk id p id id id id id p id p).powf x y = (key _ h1 h2).choose from e, e]
  exact (key _ h1 h2).choose_spec

end CS
