import Verif.Lemmas.FloatSpectrum
import Verif.Props.Charts

/-!
# C77, C78: observers and charts in binary32

The samples of a light are any finite non-negative floats up to 2^100.
-/

namespace CS
open Spectrum B32

/-- The mean of the samples `s` weighted by `w`, in exact arithmetic. -/
def Spec.mean (s w : Fin 400 → ℚ) : ℚ := (∑ i, s i * w i) / ∑ i, w i

namespace Data.Table

/-- Whether the entries are at most two, none of the non-zero ones is too small for a normal float, and the
sum is at least 100; evaluated by the kernel. -/
def curve (t : Table) : Bool := t.m.all (· ≤ 2 * 10 ^ t.scale) && decide (t.scale ≤ 30) &&
  decide (100 * 10 ^ t.scale ≤ t.sumNat)

theorem q_le_two {t : Table} (h : t.curve = true) (i : Fin 400) : t.q i ≤ 2 := by
  unfold curve at h
  simp only [Bool.and_eq_true] at h
  have := (List.all_eq_true.1 h.1.1) (t.m[i.val]'(by rw [t.len]; exact i.2)) (List.getElem_mem _)
  simp only [decide_eq_true_eq] at this
  unfold q
  rw [div_le_iff₀ (by positivity)]
  exact_mod_cast this

theorem sum_q (t : Table) : ∑ i, t.q i = (t.sumNat : ℚ) / 10 ^ t.scale := by
  have e : t.m = List.ofFn fun i : Fin 400 => t.m[i.val]'(by rw [t.len]; exact i.2) := by
    refine List.ext_getElem (by rw [List.length_ofFn, t.len]) fun i h1 h2 => by rw [List.getElem_ofFn]
  rw [sumNat, e, List.sum_ofFn]
  push_cast
  rw [Finset.sum_div]
  rfl

theorem sum_ge {t : Table} (h : t.curve = true) : 100 ≤ ∑ i, t.q i := by
  unfold curve at h
  simp only [Bool.and_eq_true, decide_eq_true_eq] at h
  rw [sum_q, le_div_iff₀ (by positivity)]
  exact_mod_cast h.2

theorem q_normal {t : Table} (h : t.curve = true) (i : Fin 400) : |rnd (t.q i) - t.q i| ≤ u * t.q i := by
  unfold curve at h
  simp only [Bool.and_eq_true, decide_eq_true_eq] at h
  have hq := t.q_nonneg i
  have hr := rnd_rel (t.q i)
  rw [abs_of_nonneg hq] at hr
  rcases Nat.eq_zero_or_pos (t.m[i.val]'(by rw [t.len]; exact i.2)) with h0 | h0
  · have : t.q i = 0 := by unfold q; rw [h0]; simp
    rw [this]; simp
  · have h1 : 1 / 10 ^ 30 ≤ t.q i := by
      unfold q
      rw [div_le_div_iff₀ (by positivity) (by positivity), one_mul]
      have : 10 ^ t.scale ≤ t.m[i.val]'(by rw [t.len]; exact i.2) * 10 ^ 30 :=
        (Nat.pow_le_pow_right (by norm_num) h.1.2).trans (Nat.le_mul_of_pos_left _ h0)
      exact_mod_cast this
    refine hr.trans (max_le (le_of_eq (by rw [u]; ring)) ?_)
    rw [u]
    have : (1 : ℚ) / 2 ^ 150 ≤ 1 / 2 ^ 24 * (1 / 10 ^ 30) := by norm_num
    nlinarith

end Data.Table

theorem curve_nn {t : Data.Table} (h : t.curve = true) (i : Fin 400) :
    NN ((ofTable t : Spectrum F32) i) 2 ∧ ((ofTable t : Spectrum F32) i).val = rnd (t.q i) :=
  pack_nn (t.q_nonneg i) (by exact_mod_cast rep_int (n := 2) (by norm_num)) (by norm_num) (Data.Table.q_le_two h i)

theorem curve_sum {t : Data.Table} (h : t.curve = true) :
    (ofTable t : Spectrum F32).sum.isFinite = true ∧
    |(ofTable t : Spectrum F32).sum.val - ∑ i, t.q i| ≤ 2.386e-5 * ∑ i, t.q i := by
  obtain ⟨h1, h2⟩ := sum_close (ofTable t) (k := 1) (by norm_num)
    (fun i => by have := (curve_nn h i).1; rwa [pow_one])
  refine ⟨h1.fin, ?_⟩
  set T := ∑ i, t.q i with hT
  have hT0 : 100 ≤ T := Data.Table.sum_ge h
  set P := ∑ i, ((ofTable t : Spectrum F32) i).val
  have h3 : |P - T| ≤ u * T := by
    rw [hT, ← Finset.sum_sub_distrib, Finset.mul_sum]
    refine (Finset.abs_sum_le_sum_abs _ _).trans (Finset.sum_le_sum fun i _ => ?_)
    rw [(curve_nn h i).2]; exact Data.Table.q_normal h i
  have hP : P ≤ (1 + u) * T := by have := (abs_le.mp h3).2; linarith
  calc |(ofTable t : Spectrum F32).sum.val - T| = |((ofTable t : Spectrum F32).sum.val - P) + (P - T)| := by
        congr 1; ring
    _ ≤ 2.379e-5 * P + u * T := (abs_add_le _ _).trans (add_le_add h2 h3)
    _ ≤ 2.379e-5 * ((1 + u) * T) + u * T := by gcongr
    _ ≤ 2.386e-5 * T := by
      rw [u]
      have : (2.379e-5 * (1 + 1 / 2 ^ 24) + 1 / 2 ^ 24 : ℚ) ≤ 2.386e-5 := by norm_num
      nlinarith

/-- The factor the constructor stores. -/
theorem curve_normalize {t : Data.Table} (h : t.curve = true) :
    NN (lit 1 / (ofTable t : Spectrum F32).sum) 1 ∧
    (1 - 2.4e-5) / (∑ i, t.q i) ≤ ((lit 1 : F32) / (ofTable t : Spectrum F32).sum).val ∧
    ((lit 1 : F32) / (ofTable t : Spectrum F32).sum).val ≤ (1 + 2.4e-5) / (∑ i, t.q i) := by
  obtain ⟨hf, hs⟩ := curve_sum h
  have hT : 100 ≤ ∑ i, t.q i := Data.Table.sum_ge h
  obtain ⟨n1, v1⟩ := pack_nn (s := false) (q := 1) (B := 1) (by norm_num)
    (by exact_mod_cast rep_int (n := 1) (by norm_num)) (by norm_num) le_rfl
  rw [rnd_of_rep (by exact_mod_cast rep_int (n := 1) (by norm_num))] at v1
  generalize (ofTable t : Spectrum F32).sum = S at hf hs ⊢
  have hT8 : ∑ i, t.q i ≤ 800 := by
    calc ∑ i, t.q i ≤ ∑ _i : Fin 400, (2 : ℚ) := Finset.sum_le_sum fun i _ => Data.Table.q_le_two h i
      _ = 800 := by simp; norm_num
  generalize ∑ i, t.q i = T at hs hT hT8 ⊢
  obtain ⟨ha, hb⟩ := abs_le.mp hs
  have hS : 0 < S.val := by nlinarith
  have hS1 : 1 ≤ S.val := by nlinarith
  rw [F32.div_def, F32.lit_def, F32.div_finite n1.fin hf hS.ne', v1]
  have hle : 1 / S.val ≤ 1 := by rw [div_le_one hS]; exact hS1
  obtain ⟨n2, v2⟩ := pack_nn (s := xor (F32.pack false 1).sign S.sign) (q := 1 / S.val) (B := 1) (by positivity)
    (by exact_mod_cast rep_int (n := 1) (by norm_num)) (by norm_num) hle
  refine ⟨n2, ?_⟩
  rw [v2]
  have hr := rnd_rel (1 / S.val)
  rw [abs_of_nonneg (one_div_pos.2 hS |>.le)] at hr
  have hS2 : S.val ≤ 2000 := by
    nlinarith
  have hl : 1 / 2000 ≤ 1 / S.val := one_div_le_one_div_of_le hS hS2
  have hr' : |rnd (1 / S.val) - 1 / S.val| ≤ u * (1 / S.val) := by
    refine hr.trans (max_le (le_of_eq (by rw [u]; ring)) ?_)
    rw [u]
    have : (1 : ℚ) / 2 ^ 150 ≤ 1 / 2 ^ 24 * (1 / 2000) := by norm_num
    nlinarith
  obtain ⟨hc, hd⟩ := abs_le.mp hr'
  have hT0 : 0 < T := by linarith
  constructor
  · refine le_trans ?_ (show (1 - u) * (1 / S.val) ≤ _ by linarith)
    rw [mul_one_div, div_le_div_iff₀ hT0 hS]
    have : (1 - 2.4e-5 : ℚ) * (1 + 2.386e-5) ≤ 1 - u := by rw [u]; norm_num
    nlinarith
  · refine le_trans (show _ ≤ (1 + u) * (1 / S.val) by linarith) ?_
    rw [mul_one_div, div_le_div_iff₀ hS hT0]
    have : (1 + u : ℚ) ≤ (1 + 2.4e-5 : ℚ) * (1 - 2.386e-5) := by rw [u]; norm_num
    nlinarith

/-! ## C77 -/

/-- A light: 400 finite non-negative floats up to 2^100. -/
def Light (s : Spectrum F32) : Prop := ∀ i, (s i).isFinite = true ∧ 0 ≤ (s i).val ∧ (s i).val ≤ 2 ^ 100

theorem Light.nn {s : Spectrum F32} (h : Light s) (i : Fin 400) : NN (s i) (2 ^ 100) :=
  ⟨(h i).1, (h i).2.1, (h i).2.2⟩

/-- The float `c` is finite, non-negative and the mean of the light weighted by the decimal table `t` up to a
relative error of 0.005 % (and 2^-140 where the result is that small). -/
def MeanOf (c : F32) (s : Spectrum F32) (t : Data.Table) : Prop :=
  c.isFinite = true ∧ 0 ≤ c.val ∧
    |c.val - Spec.mean (fun i => (s i).val) t.q| ≤ 5e-5 * Spec.mean (fun i => (s i).val) t.q + 1 / 2 ^ 140

theorem rep_bound : Rep (512 * 2 ^ 101) := by
  have := rep_mul_pow (n := 1) (by norm_num) (k := 110)
  norm_num at this ⊢; exact this

theorem component {t : Data.Table} (h : t.curve = true) {s : Spectrum F32} (hs : Light s) :
    MeanOf (s.dot (ofTable t) * (lit 1 / (ofTable t : Spectrum F32).sum)) s t := by
  obtain ⟨nn, nl, nu⟩ := curve_normalize h
  obtain ⟨dn, dc⟩ := dot_close s (ofTable t) (k := 100) (by norm_num) hs.nn (fun i => (curve_nn h i).1)
  have hT : 100 ≤ ∑ i, t.q i := Data.Table.sum_ge h
  obtain ⟨cn, cv⟩ := mul_nn (C := 512 * 2 ^ 101) dn nn
    rep_bound (by norm_num) (by norm_num)
  refine ⟨cn.fin, cn.nonneg, ?_⟩
  rw [cv]
  unfold Spec.mean
  set n := ((lit 1 : F32) / (ofTable t : Spectrum F32).sum).val
  set D := (s.dot (ofTable t)).val
  set T := ∑ i, t.q i
  set A := ∑ i, (s i).val * t.q i with hA
  set B := ∑ i, (s i).val * ((ofTable t : Spectrum F32) i).val with hB
  have hA0 : 0 ≤ A := Finset.sum_nonneg fun i _ => mul_nonneg (hs i).2.1 (t.q_nonneg i)
  have hBA : |B - A| ≤ u * A := by
    rw [hA, hB, ← Finset.sum_sub_distrib, Finset.mul_sum]
    refine (Finset.abs_sum_le_sum_abs _ _).trans (Finset.sum_le_sum fun i _ => ?_)
    rw [(curve_nn h i).2, ← mul_sub, abs_mul, abs_of_nonneg (hs i).2.1]
    have := Data.Table.q_normal h i
    have h2 := (hs i).2.1
    nlinarith
  obtain ⟨b1, b2⟩ := abs_le.mp hBA
  obtain ⟨d1, d2⟩ := abs_le.mp dc
  have hT0 : 0 < T := by linarith
  set M := A / T with hM
  have hM0 : 0 ≤ M := by positivity
  have hAM : A = M * T := by rw [hM]; field_simp
  have hD0 : 0 ≤ D := dn.nonneg
  have hn0 : 0 ≤ n := nn.nonneg
  have hnT1 : n * T ≤ 1 + 2.4e-5 := by rwa [le_div_iff₀ hT0] at nu
  have hnT2 : 1 - 2.4e-5 ≤ n * T := by rwa [div_le_iff₀ hT0] at nl
  have hn1 : n ≤ 1 / 50 := by
    refine nu.trans ?_
    rw [div_le_div_iff₀ hT0 (by norm_num)]; norm_num; linarith
  have hu : (u : ℚ) = 1 / 2 ^ 24 := rfl
  have hDu : D ≤ (1 + 2.393e-5) * A + 401 / 2 ^ 150 := by
    have : (1 + 2.386e-5 : ℚ) * (1 + u) ≤ 1 + 2.393e-5 := by rw [hu]; norm_num
    nlinarith
  have hDl : (1 - 2.393e-5) * A - 401 / 2 ^ 150 ≤ D := by
    have : (1 - 2.393e-5 : ℚ) ≤ (1 - 2.386e-5) * (1 - u) := by rw [hu]; norm_num
    nlinarith
  have hDn1 : D * n ≤ (1 + 4.8e-5) * M + 10 / 2 ^ 150 := by
    have e1 : D * n ≤ ((1 + 2.393e-5) * A + 401 / 2 ^ 150) * n := mul_le_mul_of_nonneg_right hDu hn0
    have e2 : A * n ≤ M * (1 + 2.4e-5) := by
      rw [hAM, mul_assoc, mul_comm T]; exact mul_le_mul_of_nonneg_left hnT1 hM0
    have e3 : (401 : ℚ) / 2 ^ 150 * n ≤ 401 / 2 ^ 150 * (1 / 50) := mul_le_mul_of_nonneg_left hn1 (by norm_num)
    have e4 : ((1 + 2.393e-5) * (1 + 2.4e-5) : ℚ) ≤ 1 + 4.8e-5 := by norm_num
    have e5 : (401 : ℚ) / 2 ^ 150 * (1 / 50) ≤ 10 / 2 ^ 150 := by norm_num
    have e6 : M * ((1 + 2.393e-5) * (1 + 2.4e-5)) ≤ M * (1 + 4.8e-5) := mul_le_mul_of_nonneg_left e4 hM0
    linarith
  have hDn2 : (1 - 4.8e-5) * M - 10 / 2 ^ 150 ≤ D * n := by
    have e1 : ((1 - 2.393e-5) * A - 401 / 2 ^ 150) * n ≤ D * n := mul_le_mul_of_nonneg_right hDl hn0
    have e2 : M * (1 - 2.4e-5) ≤ A * n := by
      rw [hAM, mul_assoc, mul_comm T]; exact mul_le_mul_of_nonneg_left hnT2 hM0
    have e3 : (401 : ℚ) / 2 ^ 150 * n ≤ 401 / 2 ^ 150 * (1 / 50) := mul_le_mul_of_nonneg_left hn1 (by norm_num)
    have e4 : (1 - 4.8e-5 : ℚ) ≤ (1 - 2.393e-5) * (1 - 2.4e-5) := by norm_num
    have e5 : (401 : ℚ) / 2 ^ 150 * (1 / 50) ≤ 10 / 2 ^ 150 := by norm_num
    have e6 : M * (1 - 4.8e-5) ≤ M * ((1 - 2.393e-5) * (1 - 2.4e-5)) := mul_le_mul_of_nonneg_left e4 hM0
    linarith
  have hr := rnd_rel' (D * n)
  rw [abs_of_nonneg (mul_nonneg hD0 hn0)] at hr
  obtain ⟨r1, r2⟩ := abs_le.mp hr
  have hη : (11 / 2 ^ 150 + 10 / 2 ^ 150 : ℚ) ≤ 1 / 2 ^ 140 := by norm_num
  have hk : D * n / 2 ^ 24 ≤ ((1 + 4.8e-5) * M + 10 / 2 ^ 150) / 2 ^ 24 := by gcongr
  rw [abs_le]
  constructor
  · norm_num at *; linarith
  · norm_num at *; linarith

theorem curves :
    [Data.CIE.CIE1931_X, Data.CIE.CIE1931_Y, Data.CIE.CIE1931_Z, Data.CIE.CIE1931_JuddVos_X,
      Data.CIE.CIE1931_JuddVos_Y, Data.CIE.CIE1931_JuddVos_Z, Data.CIE.CIE2012_X, Data.CIE.CIE2012_Y,
      Data.CIE.CIE2012_Z].all Data.Table.curve = true := by decide +kernel

/-- C77: in binary32, each component the three observers compute for a light is the weighted mean of its
samples up to 0.005 %, with no overflow and no negative result. -/
theorem C77_accurate (s : Spectrum F32) (hs : Light s) :
    (MeanOf (CIE1931.fromSpectrum s).a s Data.CIE.CIE1931_X ∧
     MeanOf (CIE1931.fromSpectrum s).b s Data.CIE.CIE1931_Y ∧
     MeanOf (CIE1931.fromSpectrum s).c s Data.CIE.CIE1931_Z) ∧
    (MeanOf (CIE31JV.fromSpectrum s).a s Data.CIE.CIE1931_JuddVos_X ∧
     MeanOf (CIE31JV.fromSpectrum s).b s Data.CIE.CIE1931_JuddVos_Y ∧
     MeanOf (CIE31JV.fromSpectrum s).c s Data.CIE.CIE1931_JuddVos_Z) ∧
    (MeanOf (CIE2012.fromSpectrum s).a s Data.CIE.CIE2012_X ∧
     MeanOf (CIE2012.fromSpectrum s).b s Data.CIE.CIE2012_Y ∧
     MeanOf (CIE2012.fromSpectrum s).c s Data.CIE.CIE2012_Z) := by
  have h := curves
  simp only [List.all_cons, List.all_nil, Bool.and_true, Bool.and_eq_true] at h
  obtain ⟨h1, h2, h3, h4, h5, h6, h7, h8, h9⟩ := h
  exact ⟨⟨component h1 hs, component h2 hs, component h3 hs⟩, ⟨component h4 hs, component h5 hs, component h6 hs⟩,
    component h7 hs, component h8 hs, component h9 hs⟩

/-- Componentwise `<=` of the language. -/
def FLe (a b : Tristimulus F32) : Prop :=
  F32.le a.a b.a = true ∧ F32.le a.b b.b = true ∧ F32.le a.c b.c = true

theorem component_mono {t : Data.Table} (h : t.curve = true) {r s : Spectrum F32} (hr : Light r) (hs : Light s)
    (hle : ∀ i, (r i).val ≤ (s i).val) :
    F32.le (r.dot (ofTable t) * (lit 1 / (ofTable t : Spectrum F32).sum))
      (s.dot (ofTable t) * (lit 1 / (ofTable t : Spectrum F32).sum)) = true := by
  obtain ⟨nn, nl, nu⟩ := curve_normalize h
  have hd := dot_mono r s (ofTable t) (k := 100) (by norm_num) hr.nn hs.nn (fun i => (curve_nn h i).1) hle
  have hm : ∀ s, Light s → _ := fun s hs => mul_nn (C := 512 * 2 ^ 101)
    (dot_close s (ofTable t) (k := 100) (by norm_num) (Light.nn hs) (fun i => (curve_nn h i).1)).1 nn
    rep_bound (by norm_num) (by norm_num)
  rw [F32.le_finite (hm r hr).1.fin (hm s hs).1.fin, decide_eq_true_eq, (hm r hr).2, (hm s hs).2]
  exact rnd_mono (mul_le_mul_of_nonneg_right hd nn.nonneg)

/-- The three observers of the header, and nothing else. -/
def Standard (o : Observer F32) : Prop := o = CIE1931 ∨ o = CIE31JV ∨ o = CIE2012

/-- C77: a light that is nowhere weaker gives components that are not smaller, rounding included. -/
theorem C77_monotone (o : Observer F32) (ho : Standard o) (r s : Spectrum F32) (hr : Light r) (hs : Light s)
    (hle : ∀ i, F32.le (r i) (s i) = true) : FLe (o.fromSpectrum r) (o.fromSpectrum s) := by
  have hv : ∀ i, (r i).val ≤ (s i).val := fun i => by
    have := hle i
    rwa [F32.le_finite (hr i).1 (hs i).1, decide_eq_true_eq] at this
  have h := curves
  simp only [List.all_cons, List.all_nil, Bool.and_true, Bool.and_eq_true] at h
  obtain ⟨h1, h2, h3, h4, h5, h6, h7, h8, h9⟩ := h
  rcases ho with rfl | rfl | rfl
  · exact ⟨component_mono h1 hr hs hv, component_mono h2 hr hs hv, component_mono h3 hr hs hv⟩
  · exact ⟨component_mono h4 hr hs hv, component_mono h5 hr hs hv, component_mono h6 hr hs hv⟩
  · exact ⟨component_mono h7 hr hs hv, component_mono h8 hr hs hv, component_mono h9 hr hs hv⟩

/-- Equal energy at the largest level allowed is a light. -/
example : Light (E (F32.pack false (2 ^ 100))) := fun _ => by
  obtain ⟨n, v⟩ := pack_nn (s := false) (q := 2 ^ 100) (B := 2 ^ 100) (by norm_num)
    (by have := rep_mul_pow (n := 1) (by norm_num) (k := 100); simpa using this) (by norm_num) le_rfl
  exact ⟨n.fin, n.nonneg, n.le⟩

/-! ## C78 -/

theorem table_nn {t : Data.Table} (h : t.leOne = true) (i : Fin 400) :
    NN ((ofTable t : Spectrum F32) i) 1 ∧ ((ofTable t : Spectrum F32) i).val = rnd (t.q i) :=
  pack_nn (t.q_nonneg i) (by exact_mod_cast rep_int (n := 1) (by norm_num)) (by norm_num) (Data.Table.q_le_one h i)

theorem rep_light : Rep (2 ^ 100) := by
  have := rep_mul_pow (n := 1) (by norm_num) (k := 100); simpa using this

/-- The reflected light: a light again, nowhere stronger than the light. -/
theorem reflected {t : Data.Table} (h : t.leOne = true) {l : Spectrum F32} (hl : Light l) :
    Light ((ofTable t).mul l) ∧ (∀ i, F32.le (((ofTable t).mul l) i) (l i) = true) ∧
    ∀ i, (((ofTable t).mul l) i).val = rnd (rnd (t.q i) * (l i).val) := by
  have hm := fun i => mul_nn (C := 2 ^ 100) (table_nn h i).1 (hl.nn i) rep_light (by norm_num) (by norm_num)
  have hv : ∀ i, (((ofTable t).mul l) i).val = rnd (rnd (t.q i) * (l i).val) := fun i => by
    have := (hm i).2; rw [(table_nn h i).2] at this; exact this
  have hL : Light ((ofTable t).mul l) := fun i => ⟨(hm i).1.fin, (hm i).1.nonneg, (hm i).1.le⟩
  refine ⟨hL, fun i => ?_, hv⟩
  rw [F32.le_finite (hL i).1 (hl i).1, decide_eq_true_eq, hv]
  refine rnd_le (F32.rep_val _) ?_
  have h1 := (table_nn h i).1.le
  rw [(table_nn h i).2] at h1
  nlinarith [(hl i).2.1]

theorem reflected_mono {s t : Data.Table} (hs : s.leOne = true) (ht : t.leOne = true) (h : s.le t = true)
    {l : Spectrum F32} (hl : Light l) (i : Fin 400) :
    F32.le (((ofTable s).mul l) i) (((ofTable t).mul l) i) = true := by
  obtain ⟨l1, -, v1⟩ := reflected hs hl
  obtain ⟨l2, -, v2⟩ := reflected ht hl
  rw [F32.le_finite (l1 i).1 (l2 i).1, decide_eq_true_eq, v1, v2]
  exact rnd_mono (mul_le_mul_of_nonneg_right (rnd_mono (Data.Table.q_le h i)) (hl i).2.1)

/-- C78: in binary32 no patch of the two charts comes out brighter than the light that falls on it. -/
theorem C78_bounded (o : Observer F32) (ho : Standard o) (l : Spectrum F32) (hl : Light l) :
    (∀ t ∈ Macbeth.reference l o, FLe t (o.fromSpectrum l)) ∧
    ∀ r ∈ (TM_30_15.sample : List (Spectrum F32)), FLe (o.fromReflectanceAndLight r l) (o.fromSpectrum l) := by
  constructor
  · intro t ht
    simp only [Macbeth.reference, Macbeth.Patch, List.mem_map, exists_exists_and_eq_and] at ht
    obtain ⟨tab, htab, rfl⟩ := ht
    obtain ⟨h1, h2, -⟩ := reflected (List.all_eq_true.1 macbeth_leOne tab htab) hl
    rw [C41_reflectance_bitwise]
    exact C77_monotone o ho _ _ h1 hl h2
  · intro r hr
    simp only [TM_30_15.sample, List.mem_map] at hr
    obtain ⟨tab, htab, rfl⟩ := hr
    obtain ⟨h1, h2, -⟩ := reflected (List.all_eq_true.1 tm30_leOne tab htab) hl
    rw [C41_reflectance_bitwise]
    exact C77_monotone o ho _ _ h1 hl h2

/-- C78: and the grey row keeps its order, so that a white balance taken from it sees six levels that never
cross, whatever the light. -/
theorem C78_greyscale (o : Observer F32) (ho : Standard o) (l : Spectrum F32) (hl : Light l) :
    ∃ g : Fin 6 → Tristimulus F32,
      (∀ k : Fin 6, (Macbeth.reference l o)[18 + k.val]? = some (g k)) ∧
      (∀ k : Fin 5, FLe (g k.succ) (g k.castSucc)) ∧
      ∀ t ∈ Macbeth.reference l o, FLe t (g 0) ∧ FLe (g 5) t := by
  obtain ⟨hall, h1, h2, h3, h4, h5⟩ := macbeth_order
  let T : Fin 6 → Data.Table := ![Data.Macbeth.Macbeth31, Data.Macbeth.Macbeth32, Data.Macbeth.Macbeth33,
    Data.Macbeth.Macbeth34, Data.Macbeth.Macbeth35, Data.Macbeth.Macbeth36]
  have hp := fun t => List.all_eq_true.1 macbeth_leOne t
  have m : ∀ {s t : Data.Table}, s.leOne = true → t.leOne = true → s.le t = true →
      FLe (o.fromReflectanceAndLight (ofTable s) l) (o.fromReflectanceAndLight (ofTable t) l) := by
    intro s t hs ht h
    rw [C41_reflectance_bitwise, C41_reflectance_bitwise]
    exact C77_monotone o ho _ _ (reflected hs hl).1 (reflected ht hl).1 (reflected_mono hs ht h hl)
  have p1 := hp Data.Macbeth.Macbeth31 (by simp [Data.Macbeth.Patch])
  have p2 := hp Data.Macbeth.Macbeth32 (by simp [Data.Macbeth.Patch])
  have p3 := hp Data.Macbeth.Macbeth33 (by simp [Data.Macbeth.Patch])
  have p4 := hp Data.Macbeth.Macbeth34 (by simp [Data.Macbeth.Patch])
  have p5 := hp Data.Macbeth.Macbeth35 (by simp [Data.Macbeth.Patch])
  have p6 := hp Data.Macbeth.Macbeth36 (by simp [Data.Macbeth.Patch])
  refine ⟨fun k => o.fromReflectanceAndLight (ofTable (T k)) l, ?_, ?_, ?_⟩
  · intro k; fin_cases k <;> rfl
  · intro k; fin_cases k
    · exact m p2 p1 h1
    · exact m p3 p2 h2
    · exact m p4 p3 h3
    · exact m p5 p4 h4
    · exact m p6 p5 h5
  · intro t ht
    simp only [Macbeth.reference, Macbeth.Patch, List.mem_map, exists_exists_and_eq_and] at ht
    obtain ⟨tab, htab, rfl⟩ := ht
    have := List.all_eq_true.1 hall tab htab
    rw [Bool.and_eq_true] at this
    exact ⟨m (hp _ htab) p1 this.1, m p6 (hp _ htab) this.2⟩

/-- The daylight table is a light. -/
example : Light (CIE_D65 : Spectrum F32) := by
  have hq : ∀ i, Data.CIE.CIE_D65.q i ≤ 256 := by
    intro i
    have h : (Data.CIE.CIE_D65.m.all (· ≤ 256 * 10 ^ Data.CIE.CIE_D65.scale)) = true := by decide +kernel
    have := (List.all_eq_true.1 h) (Data.CIE.CIE_D65.m[i.val]'(by rw [Data.CIE.CIE_D65.len]; exact i.2))
      (List.getElem_mem _)
    simp only [decide_eq_true_eq] at this
    unfold Data.Table.q
    rw [div_le_iff₀ (by positivity)]
    exact_mod_cast this
  intro i
  have := (pack_nn (s := false) (Data.CIE.CIE_D65.q_nonneg i)
    (by exact_mod_cast rep_int (n := 256) (by norm_num)) (by norm_num) (hq i)).1
  exact ⟨this.fin, this.nonneg, this.le.trans (by norm_num)⟩

end CS
