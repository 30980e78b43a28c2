import Verif.Lemmas.Double
import Verif.Lemmas.FloatOTF
import Verif.Model.Mixed
import Verif.Props.Spectrum
import Mathlib.Analysis.Convex.SpecificFunctions.Basic

/-!
# C95: black-body spectra, in the precision of the code

Planck's law is evaluated in `double`, converted to `float` and divided by `1e9f`.
-/

namespace CS
open Spectrum

namespace Planck

/-- Temperatures for which no sample underflows or overflows. -/
structure Warm (T : F32) : Prop where
  fin : T.isFinite = true
  lo : 400 ≤ T.val
  hi : T.val ≤ 1e8

/-- The exact wavelength of a sample. -/
noncomputable def wl (i : Fin 400) : ℝ := (380 + (i.val : ℝ)) * 1e-9
/-- The exact exponent of a sample. -/
noncomputable def ex (T : ℝ) (i : Fin 400) : ℝ := 1.438776827e-2 / (wl i * T)

theorem wl_lo (i : Fin 400) : 3.8e-7 ≤ wl i := by
  unfold wl
  have : (0 : ℝ) ≤ i.val := by positivity
  norm_num; linarith
theorem wl_hi (i : Fin 400) : wl i ≤ 7.8e-7 := by
  unfold wl
  have : (i.val : ℝ) ≤ 400 := by exact_mod_cast i.isLt.le
  norm_num; linarith
theorem wl_pos (i : Fin 400) : 0 < wl i := lt_of_lt_of_le (by norm_num) (wl_lo i)

theorem ex_bounds {T : ℝ} (h0 : 400 ≤ T) (h1 : T ≤ 1e8) (i : Fin 400) : 1.8e-4 ≤ ex T i ∧ ex T i ≤ 95 := by
  have l0 := wl_lo i
  have l1 := wl_hi i
  have p := wl_pos i
  have tp : 0 < T := by linarith
  unfold ex
  constructor
  · rw [le_div_iff₀ (by positivity)]
    have : wl i * T ≤ 7.8e-7 * 1e8 := by gcongr
    norm_num at *; linarith
  · rw [div_le_iff₀ (by positivity)]
    have : 3.8e-7 * 400 ≤ wl i * T := by gcongr
    norm_num at *; linarith

/-- The sample formula. -/
theorem bb_eq (T : ℝ) (i : Fin 400) :
    blackbody T i = 2 * 5.950379064e-17 * wl i ^ (-5 : ℝ) / (Real.exp (ex T i) - 1) / 1e9 := by
  simp only [blackbody, planck, lit_real, powf_real, expf_real, ofInt_real, ex, wl]
  push_cast
  rfl

theorem wl_double (i : Fin 400) : F64.Re (F64.ofF32 (Arith.lit 380 + Arith.ofInt i.val) * Arith.lit 1e-9) (wl i) (2.1 * u64) := by
  have hr : B32.Rep ((380 : ℤ) + (i.val : ℤ) : ℤ) := B32.rep_int (by
    have := i.isLt
    rw [abs_of_nonneg (by omega)]; omega)
  have h380 : (Arith.lit 380 : F32).isFinite = true ∧ (Arith.lit 380 : F32).val = 380 := by decide +kernel
  have hi : (Arith.ofInt (i.val : ℤ) : F32).isFinite = true ∧ (Arith.ofInt (i.val : ℤ) : F32).val = ((i.val : ℤ) : ℚ) := by
    have := i.isLt
    refine F32.pack_val_of_rep (B32.rep_int (by rw [abs_of_nonneg (by omega)]; omega)) ?_
    rw [abs_of_nonneg (by positivity)]
    have : ((i.val : ℤ) : ℚ) ≤ 400 := by exact_mod_cast this.le
    exact lt_of_le_of_lt this (by norm_num)
  have hs : ((Arith.lit 380 : F32) + Arith.ofInt (i.val : ℤ)).isFinite = true ∧
      ((Arith.lit 380 : F32) + Arith.ofInt (i.val : ℤ)).val = (((380 : ℤ) + (i.val : ℤ) : ℤ) : ℚ) := by
    rw [F32.add_def, F32.add_finite h380.1 hi.1, h380.2, hi.2]
    have e : (380 : ℚ) + ((i.val : ℤ) : ℚ) = (((380 : ℤ) + (i.val : ℤ) : ℤ) : ℚ) := by push_cast; ring
    rw [e]
    refine F32.pack_val_of_rep hr ?_
    have := i.isLt
    have h2 : |(380 : ℤ) + (i.val : ℤ)| < 2 ^ 128 := by rw [abs_of_nonneg (by omega)]; omega
    exact_mod_cast h2
  have a : F64.Re (F64.ofF32 (Arith.lit 380 + Arith.ofInt i.val)) (380 + (i.val : ℝ)) 0 := by
    refine ⟨by rw [F64.ofF32_isFinite]; exact hs.1, by positivity, ?_⟩
    rw [F64.ofF32_val, hs.2]; push_cast; simp
  have b := F64.Re.lit (q := 1e-9) (by norm_num) (by norm_num)
  have := a.mul b (E := 2.1 * u64) (by
      push_cast
      refine le_trans ?_ (wl_lo i)
      norm_num) (by
      push_cast
      refine le_trans (wl_hi i) ?_
      norm_num) (by unfold u64; norm_num) (by unfold u64; norm_num)
  have e : (380 + (i.val : ℝ)) * ((1e-9 : ℚ) : ℝ) = wl i := by unfold wl; push_cast; rfl
  rwa [e] at this

theorem ex_double {T : F32} (h : Warm T) (i : Fin 400) :
    F64.Re (Arith.lit 1.438776827e-2 / (F64.ofF32 (Arith.lit 380 + Arith.ofInt i.val) * Arith.lit 1e-9 * F64.ofF32 T))
      (ex T.val i) 1.2e-15 := by
  have t0 : (400 : ℝ) ≤ T.val := by exact_mod_cast h.lo
  have t1 : (T.val : ℝ) ≤ 1e8 := by
    have := (Rat.cast_le (K := ℝ)).2 h.hi
    push_cast at this; exact this
  have hT : F64.Re (F64.ofF32 T) T.val 0 :=
    ⟨by rw [F64.ofF32_isFinite]; exact h.fin, by linarith, by rw [F64.ofF32_val]; simp⟩
  have l0 := wl_lo i
  have l1 := wl_hi i
  have p := wl_pos i
  have a := (wl_double i).mul hT (E := 3.2 * u64)
    (le_trans (b := (3.8e-7 : ℝ) * 400) (by norm_num) (by gcongr)) (le_trans (b := (7.8e-7 : ℝ) * 1e8) (by gcongr) (by norm_num))
    (by unfold u64; norm_num) (by unfold u64; norm_num)
  have b := F64.Re.lit (q := 1.438776827e-2) (by norm_num) (by norm_num)
  obtain ⟨e0, e1⟩ := ex_bounds t0 t1 i
  have e : ((1.438776827e-2 : ℚ) : ℝ) / (wl i * T.val) = ex T.val i := by unfold ex; push_cast; rfl
  have := b.div a (d := 4.3 * u64) (E := 1.2e-15) (by rw [e]; exact le_trans (by norm_num) e0) (by rw [e]; exact e1.trans (by norm_num))
    (by unfold u64; norm_num) (by unfold u64; norm_num) (by unfold u64; norm_num) (by unfold u64; norm_num)
  rwa [e] at this

theorem exp_95 : Real.exp 95 ≤ 2e41 := by
  have h : Real.exp 95 = Real.exp 1 ^ 95 := by rw [← Real.exp_nat_mul]; norm_num
  rw [h]
  have := Real.exp_one_lt_d9
  calc Real.exp 1 ^ 95 ≤ 2.7182818286 ^ 95 := by gcongr
    _ ≤ _ := by norm_num

/-- `exp(a) - 1` for an argument with a small relative error. -/
theorem expm1_double {o : F64.Oracle} (ho : o.ExpAccurate (2 ^ (-50 : ℤ))) {a : F64} {x : ℝ} (ha : F64.Re a x 1.2e-15)
    (x0 : 1.8e-4 ≤ x) (x1 : x ≤ 95) : F64.Re (o.expf a - Arith.lit 1) (Real.exp x - 1) 6.1e-12 := by
  have xp : 0 < x := by linarith
  have hD : x ≤ Real.exp x - 1 := by linarith [Real.add_one_le_exp x]
  have hη : |(a.val : ℝ) - x| ≤ 1.2e-15 * x := ha.err
  obtain ⟨η, hη'⟩ : ∃ η, η = (a.val : ℝ) - x := ⟨_, rfl⟩
  have ea : Real.exp a.val = Real.exp x * Real.exp η := by rw [← Real.exp_add, hη']; congr 1; ring
  rw [← hη'] at hη
  have η1 : |η| ≤ 1.2e-13 := hη.trans (by norm_num at *; linarith)
  have hexp : |Real.exp η - 1| ≤ 1.3e-15 * x := by
    have h1 := Real.abs_exp_sub_one_sub_id_le (x := η) (η1.trans (by norm_num))
    have h2 : η ^ 2 ≤ 1.2e-13 * |η| := by rw [← sq_abs, sq]; gcongr
    calc |Real.exp η - 1| = |(Real.exp η - 1 - η) + η| := by congr 1; ring
      _ ≤ _ := abs_add_le _ _
      _ ≤ 1.3e-15 * x := by norm_num at *; linarith
  have Ep : 0 < Real.exp x := Real.exp_pos x
  have E1 : Real.exp x ≤ 2e41 := (Real.exp_le_exp.2 x1).trans exp_95
  have E0 : 1 ≤ Real.exp x := Real.one_le_exp xp.le
  obtain ⟨b1, b2⟩ := _root_.abs_le.1 hexp
  have η2 : Real.exp η ≤ 2 := by norm_num at *; linarith
  have η3 : 1 / 2 ≤ Real.exp η := by norm_num at *; linarith
  obtain ⟨f, g⟩ := ho a ha.fin (by
      rw [ea]
      calc (2 : ℝ) ^ (-180 : ℤ) ≤ 1 * (1 / 2) := by norm_num
        _ ≤ _ := by gcongr) (by
      rw [ea]
      calc Real.exp x * Real.exp η ≤ 2e41 * 2 := by gcongr
        _ ≤ _ := by norm_num)
  -- the exponential
  have hE : |((o.expf a).val : ℝ) - Real.exp x| ≤ Real.exp x * (1.4e-15 * x + 9e-16) := by
    have h1 : |Real.exp a.val - Real.exp x| ≤ Real.exp x * (1.3e-15 * x) := by
      rw [ea, show Real.exp x * Real.exp η - Real.exp x = Real.exp x * (Real.exp η - 1) by ring, abs_mul, abs_of_pos Ep]
      gcongr
    have h2 : (2 : ℝ) ^ (-50 : ℤ) * Real.exp a.val ≤ Real.exp x * (8.9e-16 * (1 + 1.3e-15 * x)) := by
      rw [ea]
      have : Real.exp η ≤ 1 + 1.3e-15 * x := by linarith
      calc (2 : ℝ) ^ (-50 : ℤ) * (Real.exp x * Real.exp η) ≤ 8.9e-16 * (Real.exp x * (1 + 1.3e-15 * x)) := by gcongr; norm_num
        _ = _ := by ring
    have := abs_add_le (((o.expf a).val : ℝ) - Real.exp a.val) (Real.exp a.val - Real.exp x)
    rw [sub_add_sub_cancel] at this
    have h3 : Real.exp x * (8.9e-16 * (1 + 1.3e-15 * x)) + Real.exp x * (1.3e-15 * x) ≤ Real.exp x * (1.4e-15 * x + 9e-16) := by
      rw [← mul_add]
      refine mul_le_mul_of_nonneg_left ?_ Ep.le
      norm_num; linarith
    exact this.trans ((add_le_add (g.trans h2) h1).trans h3)
  -- relative to exp - 1
  have hrel : Real.exp x * (1.4e-15 * x + 9e-16) ≤ 6e-12 * (Real.exp x - 1) := by
    have k : Real.exp x * x ≤ (Real.exp x - 1) * (1 + x) := by nlinarith
    have k2 : Real.exp x ≤ (Real.exp x - 1) * (1 + x) / x := by rw [le_div_iff₀ xp]; exact k
    have D0 : 0 < Real.exp x - 1 := by linarith
    calc Real.exp x * (1.4e-15 * x + 9e-16) ≤ (Real.exp x - 1) * (1 + x) / x * (1.4e-15 * x + 9e-16) := by gcongr
      _ = (Real.exp x - 1) * ((1 + x) * (1.4e-15 * x + 9e-16) / x) := by ring
      _ ≤ (Real.exp x - 1) * 6e-12 := by
          gcongr
          rw [div_le_iff₀ xp]
          norm_num at *
          nlinarith
      _ = _ := by ring
  have h1 : F64.Ap (Arith.lit 1 : F64) 1 0 := by
    have : (Arith.lit 1 : F64).isFinite = true ∧ (Arith.lit 1 : F64).val = 1 := by decide +kernel
    exact ⟨this.1, by rw [this.2]; norm_num⟩
  rw [F64.sub_def, F64.add_finite f (by rw [F64.neg_isFinite]; exact h1.fin)]
  have hv : (Arith.lit 1 : F64).val = 1 := by decide +kernel
  refine (F64.Re.pack (ε := 6e-12) ?_ (by norm_num) (le_trans (by norm_num) (x0.trans hD)) ?_).weaken (by unfold u64; norm_num)
  · rw [F64.neg_val, hv]
    push_cast
    rw [show ((o.expf a).val : ℝ) + -1 - (Real.exp x - 1) = (o.expf a).val - Real.exp x by ring]
    exact hE.trans hrel
  · calc Real.exp x - 1 ≤ 2e41 := by linarith
      _ ≤ _ := by norm_num

theorem wl_pow (i : Fin 400) : 3e30 ≤ wl i ^ (-5 : ℝ) ∧ wl i ^ (-5 : ℝ) ≤ 1.3e32 := by
  have l0 := wl_lo i
  have l1 := wl_hi i
  have p := wl_pos i
  have e : wl i ^ (-5 : ℝ) = (wl i ^ 5)⁻¹ := by rw [Real.rpow_neg p.le]; norm_cast
  rw [e]
  constructor
  · rw [le_inv_comm₀ (by norm_num) (by positivity)]
    calc wl i ^ 5 ≤ 7.8e-7 ^ 5 := by gcongr
      _ ≤ _ := by norm_num
  · rw [inv_le_comm₀ (by positivity) (by norm_num)]
    calc (1.3e32 : ℝ)⁻¹ ≤ 3.8e-7 ^ 5 := by norm_num
      _ ≤ _ := by gcongr

theorem pow_double {o : F64.Oracle} (ho : o.PowAccurate (2 ^ (-50 : ℤ))) (i : Fin 400) :
    F64.Re (o.powf (F64.ofF32 (Arith.lit 380 + Arith.ofInt i.val) * Arith.lit 1e-9) (Arith.lit (-5))) (wl i ^ (-5 : ℝ)) 1e-14 := by
  have hw := wl_double i
  have h5 : (Arith.lit (-5) : F64).isFinite = true ∧ (Arith.lit (-5) : F64).val = -5 := by decide +kernel
  generalize (F64.ofF32 (Arith.lit 380 + Arith.ofInt i.val) * Arith.lit 1e-9 : F64) = w at *
  obtain ⟨p0, p1⟩ := wl_pow i
  have L := abs_nonneg (Real.log (wl i))
  obtain ⟨x0, hp⟩ := rpow_perturb (x := w.val) (y := ((-5 : ℚ) : ℝ)) (r := wl i) (s := -5) (e := 2.1 * u64) (f := 0) (L := |Real.log (wl i)|)
    (S := 5) (θ := 2.5e-15) (wl_pos i) hw.err (by unfold u64; norm_num) (by norm_num) (by norm_num) le_rfl
    (by rw [zero_mul]; unfold u64; norm_num) (by norm_num)
  have pp : 0 < wl i ^ (-5 : ℝ) := by linarith
  obtain ⟨a1, a2⟩ := _root_.abs_le.1 hp
  rw [← h5.2] at a1 a2 hp
  obtain ⟨f, g⟩ := ho w (Arith.lit (-5)) hw.fin h5.1 (by exact_mod_cast x0)
    (le_trans (b := (1e30 : ℝ)) (by norm_num) (by norm_num at *; nlinarith))
    (le_trans (b := (1.4e32 : ℝ)) (by norm_num at *; nlinarith) (by norm_num))
  refine ⟨f, pp, ?_⟩
  have := abs_add_le (((o.powf w (Arith.lit (-5))).val : ℝ) - (w.val : ℝ) ^ ((Arith.lit (-5) : F64).val : ℝ))
    ((w.val : ℝ) ^ ((Arith.lit (-5) : F64).val : ℝ) - wl i ^ (-5 : ℝ))
  rw [sub_add_sub_cancel] at this
  generalize (w.val : ℝ) ^ ((Arith.lit (-5) : F64).val : ℝ) = W at *
  generalize wl i ^ (-5 : ℝ) = P at *
  generalize ((o.powf w (Arith.lit (-5))).val : ℝ) = V at *
  have h50 : (2 : ℝ) ^ (-50 : ℤ) ≤ 9e-16 := by norm_num
  have h6 : (2 : ℝ) ^ (-50 : ℤ) * W ≤ 9e-16 * W := by
    have : 0 ≤ W := by norm_num at *; nlinarith
    gcongr
  norm_num at *
  linarith

/-- The exact radiance in front of the last division. -/
noncomputable def V (T : ℝ) (i : Fin 400) : ℝ := 2 * 5.950379064e-17 * wl i ^ (-5 : ℝ) / (Real.exp (ex T i) - 1)

theorem V_bounds {T : ℝ} (h0 : 400 ≤ T) (h1 : T ≤ 1e8) (i : Fin 400) : 1.5e-27 ≤ V T i ∧ V T i ≤ 1e20 := by
  obtain ⟨p0, p1⟩ := wl_pow i
  obtain ⟨e0, e1⟩ := ex_bounds h0 h1 i
  have hD : ex T i ≤ Real.exp (ex T i) - 1 := by linarith [Real.add_one_le_exp (ex T i)]
  have hE : Real.exp (ex T i) ≤ 2e41 := (Real.exp_le_exp.2 e1).trans exp_95
  unfold V
  have Dp : 0 < Real.exp (ex T i) - 1 := by linarith
  constructor
  · rw [le_div_iff₀ Dp]
    norm_num at *
    linarith
  · rw [div_le_iff₀ Dp]
    norm_num at *
    linarith

theorem planck_double {o : F64.Oracle} (hp : o.PowAccurate (2 ^ (-50 : ℤ))) (he : o.ExpAccurate (2 ^ (-50 : ℤ))) {T : F32} (h : Warm T)
    (i : Fin 400) :
    let l : F64 := F64.ofF32 (Arith.lit 380 + Arith.ofInt i.val) * Arith.lit 1e-9
    F64.Re (Arith.lit 2 * Arith.lit 5.950379064e-17 * o.powf l (Arith.lit (-5)) /
      (o.expf (Arith.lit 1.438776827e-2 / (l * F64.ofF32 T)) - Arith.lit 1)) (V T.val i) 7e-12 := by
  intro l
  have t0 : (400 : ℝ) ≤ T.val := by exact_mod_cast h.lo
  have t1 : (T.val : ℝ) ≤ 1e8 := by
    have := (Rat.cast_le (K := ℝ)).2 h.hi
    push_cast at this; exact this
  obtain ⟨e0, e1⟩ := ex_bounds t0 t1 i
  obtain ⟨v0, v1⟩ := V_bounds t0 t1 i
  obtain ⟨p0, p1⟩ := wl_pow i
  have a := expm1_double he (ex_double h i) e0 e1
  have b := pow_double hp i
  have c2 := F64.Re.lit (q := 2) (by norm_num) (by norm_num)
  have cc := F64.Re.lit (q := 5.950379064e-17) (by norm_num) (by norm_num)
  have c := c2.mul cc (E := 3.1 * u64) (by norm_num) (by norm_num) (by unfold u64; norm_num) (by unfold u64; norm_num)
  have n := c.mul b (E := 2e-14) (by norm_num at *; linarith) (by norm_num at *; linarith) (by unfold u64; norm_num) (by unfold u64; norm_num)
  have e : ((2 : ℚ) : ℝ) * ((5.950379064e-17 : ℚ) : ℝ) * wl i ^ (-5 : ℝ) / (Real.exp (ex T.val i) - 1) = V T.val i := by
    unfold V; push_cast; rfl
  have := n.div a (d := 6.2e-12) (E := 7e-12) (by rw [e]; exact le_trans (by norm_num) v0) (by rw [e]; exact v1.trans (by norm_num))
    (by norm_num) (by norm_num) (by norm_num) (by unfold u64; norm_num)
  rw [e] at this
  exact this

end Planck

open Planck

/-- C95: every sample of a black-body spectrum, as the code computes it, has relative error at most `1.2e-7` (two
roundings to `float`; the `double` part contributes nothing visible). -/
theorem C95_accurate (o : F64.Oracle) (hp : o.PowAccurate (2 ^ (-50 : ℤ))) (he : o.ExpAccurate (2 ^ (-50 : ℤ))) (T : F32) (h : Warm T)
    (i : Fin 400) : F32.Ap (Mixed.blackbody o T i) (blackbody (T.val : ℝ) i) (1.2e-7 * blackbody (T.val : ℝ) i) := by
  have t0 : (400 : ℝ) ≤ T.val := by exact_mod_cast h.lo
  have t1 : (T.val : ℝ) ≤ 1e8 := by
    have := (Rat.cast_le (K := ℝ)).2 h.hi
    push_cast at this; exact this
  obtain ⟨v0, v1⟩ := V_bounds t0 t1 i
  have d := planck_double hp he h i
  have eV : blackbody (T.val : ℝ) i = V T.val i / 1e9 := by rw [bb_eq]; rfl
  rw [eV]
  show F32.Ap (F64.toF32 (F64.ofF32 (F64.toF32 _ / Arith.lit 1e9))) _ _
  rw [F64.toF32_ofF32]
  have v0' : 0 < V T.val i := by linarith
  have a : F64.Ap _ (V T.val i) (7e-12 * V T.val i) := ⟨d.fin, d.err⟩
  have f := a.toF32 (B := V T.val i) (E := 5.962e-8 * V T.val i) (by rw [abs_of_pos v0'])
    (by norm_num at *; linarith) (by norm_num at *; linarith)
  have g : F32.Ap (Arith.lit 1e9 : F32) 1e9 0 := F32.Ap.ofEval (q := 1e9) (e := 0) (by decide +kernel) (by norm_num) (by norm_num)
  refine f.div g (Q := V T.val i / 1e9) (S := 1e9) (d := 5.962e-8 * (V T.val i / 1e9)) (by rw [abs_of_pos (by positivity)]) (by norm_num)
    (by norm_num) (by rw [mul_zero, add_zero]; linarith) ?_ ?_
  · norm_num at *; linarith
  · norm_num at *; linarith

/-- The radiance grows at least as fast as the temperature. -/
theorem Planck.growth {T T' : ℝ} (hT : 0 < T) (h : T ≤ T') (i : Fin 400) : blackbody T i * T' ≤ blackbody T' i * T := by
  have p := wl_pos i
  have hT' : 0 < T' := by linarith
  have x0 : 0 < ex T i := by unfold ex; positivity
  have y0 : 0 < ex T' i := by unfold ex; positivity
  have hxy : ex T' i * T' = ex T i * T := by unfold ex; field_simp
  have hyx : ex T' i ≤ ex T i := by
    by_contra hc
    rw [not_le] at hc
    nlinarith
  have conv : (Real.exp (ex T' i) - 1) * ex T i ≤ (Real.exp (ex T i) - 1) * ex T' i := by
    have := convexOn_exp.2 (Set.mem_univ 0) (Set.mem_univ (ex T i))
      (show 0 ≤ 1 - ex T' i / ex T i by rw [sub_nonneg, div_le_one x0]; exact hyx) (show 0 ≤ ex T' i / ex T i by positivity) (by ring)
    simp only [smul_eq_mul, mul_zero, zero_add, Real.exp_zero, mul_one] at this
    rw [div_mul_cancel₀ _ x0.ne'] at this
    have e : (1 - ex T' i / ex T i + ex T' i / ex T i * Real.exp (ex T i)) * ex T i =
      ex T i + ex T' i * (Real.exp (ex T i) - 1) := by field_simp; ring
    nlinarith [mul_le_mul_of_nonneg_right this x0.le]
  have D0 : 0 < Real.exp (ex T i) - 1 := by linarith [Real.add_one_lt_exp x0.ne']
  have D1 : 0 < Real.exp (ex T' i) - 1 := by linarith [Real.add_one_lt_exp y0.ne']
  have key : (Real.exp (ex T' i) - 1) * T' ≤ (Real.exp (ex T i) - 1) * T := by
    have h1 : (Real.exp (ex T' i) - 1) * T' * ex T i * ex T' i ≤ (Real.exp (ex T i) - 1) * T * ex T i * ex T' i := by
      calc _ = (Real.exp (ex T' i) - 1) * ex T i * (ex T' i * T') := by ring
        _ ≤ (Real.exp (ex T i) - 1) * ex T' i * (ex T' i * T') := by gcongr
        _ = (Real.exp (ex T i) - 1) * ex T' i * (ex T i * T) := by rw [hxy]
        _ = _ := by ring
    exact le_of_mul_le_mul_right (le_of_mul_le_mul_right h1 y0) x0
  rw [bb_eq, bb_eq]
  have P : 0 < wl i ^ (-5 : ℝ) := Real.rpow_pos_of_pos p _
  have A0 : 0 < 2 * (5.950379064e-17 : ℝ) * wl i ^ (-5 : ℝ) := by positivity
  generalize 2 * (5.950379064e-17 : ℝ) * wl i ^ (-5 : ℝ) = A at *
  generalize Real.exp (ex T i) - 1 = D at *
  generalize Real.exp (ex T' i) - 1 = D' at *
  rw [show A / D / 1e9 * T' = A * T' / D / 1e9 by ring, show A / D' / 1e9 * T = A * T / D' / 1e9 by ring]
  refine div_le_div_of_nonneg_right (c := (1e9 : ℝ)) ?_ (by norm_num)
  rw [div_le_div_iff₀ D0 D1]
  calc A * T' * D' = A * (D' * T') := by ring
    _ ≤ A * (D * T) := by gcongr
    _ = _ := by ring

/-- C95: every sample is positive, and strictly larger as soon as the temperature is larger by `2.5e-7` of its value
(two to four steps of `float`). -/
theorem C95_hotter (o : F64.Oracle) (hp : o.PowAccurate (2 ^ (-50 : ℤ))) (he : o.ExpAccurate (2 ^ (-50 : ℤ))) (T T' : F32) (h : Warm T)
    (h' : Warm T') (hT : T.val * (1 + 2.5e-7) ≤ T'.val) (i : Fin 400) :
    0 < (Mixed.blackbody o T i).val ∧ (Mixed.blackbody o T i).val < (Mixed.blackbody o T' i).val := by
  have a := (_root_.abs_le.1 (C95_accurate o hp he T h i).err)
  have a' := (_root_.abs_le.1 (C95_accurate o hp he T' h' i).err)
  have t0 : (400 : ℝ) ≤ T.val := by exact_mod_cast h.lo
  have ht : (T.val : ℝ) * (1 + 2.5e-7) ≤ T'.val := by
    have := (Rat.cast_le (K := ℝ)).2 hT
    push_cast at this; exact this
  have g := growth (T := T.val) (T' := T'.val) (by linarith) (by linarith) i
  have b0 : 0 < blackbody (T.val : ℝ) i := (C44_blackbody T.val (T.val + 1) (by linarith) (by linarith) i).1
  have g2 : blackbody (T.val : ℝ) i * (1 + 2.5e-7) ≤ blackbody (T'.val : ℝ) i := by
    have : blackbody (T.val : ℝ) i * (T.val * (1 + 2.5e-7)) ≤ blackbody (T'.val : ℝ) i * T.val :=
      le_trans (by gcongr) g
    have tp : (0 : ℝ) < T.val := by linarith
    refine le_of_mul_le_mul_right ?_ tp
    linarith
  generalize blackbody (T.val : ℝ) i = B at *
  generalize blackbody (T'.val : ℝ) i = B' at *
  have k : (0 : ℝ) < (Mixed.blackbody o T i).val ∧ ((Mixed.blackbody o T i).val : ℝ) < (Mixed.blackbody o T' i).val := by
    generalize ((Mixed.blackbody o T i).val : ℝ) = v at *
    generalize ((Mixed.blackbody o T' i).val : ℝ) = v' at *
    norm_num at *
    constructor <;> linarith
  exact ⟨by exact_mod_cast k.1, by exact_mod_cast k.2⟩

/-- The hypotheses can be met: 2856 K and 6504 K with an accurate library. -/
example : (∃ o : F64.Oracle, o.PowAccurate (2 ^ (-50 : ℤ)) ∧ o.ExpAccurate (2 ^ (-50 : ℤ))) ∧ Warm (Arith.lit 2856 : F32) ∧
    Warm (Arith.lit 6504 : F32) ∧ (Arith.lit 2856 : F32).val * (1 + 2.5e-7) ≤ (Arith.lit 6504 : F32).val := by
  refine ⟨exists_accurate64, ⟨?_, ?_, ?_⟩, ⟨?_, ?_, ?_⟩, ?_⟩ <;> decide +kernel

end CS
