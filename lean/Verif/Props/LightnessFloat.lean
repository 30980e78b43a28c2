import Verif.Props.E00Float
import Verif.Props.Lightness
import Verif.Lemmas.FloatOTF

/-!
# C134: CIEDE2000 of colours that differ in lightness only, as executed in single precision
-/

namespace CS
open B32 F32 Tristimulus Delta Spec

namespace LightF

theorem zn_val {x : F32} (h : F32.Zn x) : x.val = 0 := by
  rcases h with rfl | ⟨s, rfl⟩ <;> rfl

/-- The chroma and hue parts of two colours of equal `a` and `b` vanish; the lightness part is as written. -/
theorem parts {o : F32.Oracle} (hs : ∀ x, F32.Zn x → F32.Zn (o.sinf x)) (L M a b kl kc kh : F32) :
    let p := @parts00 F32 (F32.libm o) ⟨L, a, b⟩ ⟨M, a, b⟩ kl kc kh
    p.1 = (M - L) / (kl * (lit 1 + lit 0.015 * (((L + M) / lit 2 - lit 50) * ((L + M) / lit 2 - lit 50)) /
      o.sqrtf (lit 20 + ((L + M) / lit 2 - lit 50) * ((L + M) / lit 2 - lit 50)))) ∧ F32.Zn p.2.1 ∧ F32.Zn p.2.2.1 := by
  refine ⟨rfl, ?_⟩
  unfold parts00
  simp only
  refine ⟨(Zn.sub_self _).div _, Zn.div (Zn.mul' (hs _ (Zn.div (Zn.mul' ?_ _) _)) _) _⟩
  generalize @hue00 F32 (F32.libm o) _ _ = h
  unfold dh00
  rcases Zn.sub_self h with e | ⟨s, e⟩
  · rw [e, nan_add, nan_sub]
    left
    split_ifs <;> rfl
  · rw [e, if_pos]
    · exact .inr ⟨s, rfl⟩
    · show F32.le (F32.fabs (.zero s)) (@Arith.lit F32 F32.instArith 180) = true
      cases s <;> decide +kernel

/-- The radicand is the square of the lightness part. -/
theorem radicand {o : F32.Oracle} (ho : o.Sane00) (hs : ∀ x, F32.Zn x → F32.Zn (o.sinf x)) {L M a b kl kc kh : F32}
    (h1 : Box00 ⟨L, a, b⟩) (h2 : Box00 ⟨M, a, b⟩)
    (hl : In kl (1 / 2 ^ 10) (2 ^ 10)) (hc : In kc (1 / 2 ^ 10) (2 ^ 10)) (hh : In kh (1 / 2 ^ 10) (2 ^ 10)) :
    let r := @radicand00 F32 (F32.libm o) ⟨L, a, b⟩ ⟨M, a, b⟩ kl kc kh
    let p := (@parts00 F32 (F32.libm o) ⟨L, a, b⟩ ⟨M, a, b⟩ kl kc kh).1
    r.isFinite = true ∧ r.val = rnd (p.val * p.val) := by
  obtain ⟨i1, i2, i3, i4, -⟩ := parts00_in ho h1 h2 hl hc hh
  obtain ⟨-, z2, z3⟩ := parts (kl := kl) (kc := kc) (kh := kh) hs L M a b
  unfold radicand00
  generalize @parts00 F32 (F32.libm o) ⟨L, a, b⟩ ⟨M, a, b⟩ kl kc kh = p at *
  obtain ⟨dl, dc, dh, R⟩ := p
  simp only at *
  have v2 := zn_val z2
  have v3 := zn_val z3
  have sq := i1.sq (2 ^ 60)
  have step : ∀ x y : F32, In x 0 (2 ^ 60) → y.isFinite = true → y.val = 0 → In (x + y) 0 (2 ^ 60) ∧ (x + y).val = x.val := by
    intro x y hx fy hy
    have f : In (x + y) 0 (2 ^ 60) := In.of_add hx.fin fy (by rw [hy, add_zero]; exact hx.lo) (by rw [hy, add_zero]; exact hx.hi)
    exact ⟨f, by rw [add_val f.fin, hy, add_zero, rnd_of_rep (rep_val x)]⟩
  have z : ∀ x y : F32, x.isFinite = true → y.isFinite = true → y.val = 0 → (x * y).isFinite = true ∧ (x * y).val = 0 := by
    intro x y fx fy hy
    have f : In (x * y) 0 1 := In.of_mul fx fy (by rw [hy, mul_zero]) (by rw [hy, mul_zero]; norm_num)
    exact ⟨f.fin, by rw [mul_val f.fin, hy, mul_zero, rnd_of_rep rep_zero]⟩
  obtain ⟨f2, e2⟩ := z dc dc i2.fin i2.fin v2
  obtain ⟨f3, e3⟩ := z dh dh i3.fin i3.fin v3
  obtain ⟨f4, e4⟩ := z R dc i4.fin i2.fin v2
  obtain ⟨f5, e5⟩ := z (R * dc) dh f4 i3.fin v3
  obtain ⟨s1, w1⟩ := step _ _ sq f2 e2
  obtain ⟨s2, w2⟩ := step _ _ s1 f3 e3
  obtain ⟨s3, w3⟩ := step _ _ s2 f5 e5
  refine ⟨s3.fin, ?_⟩
  show (dl * dl + dc * dc + dh * dh + R * dc * dh).val = _
  rw [w3, w2, w1, mul_val sq.fin]

/-- The weight as a function of the distance of the mean lightness from 50. -/
noncomputable def wt (t : ℝ) : ℝ := 0.015 * (t * t) / √(20 + t * t)

theorem wt_lip (v t : ℝ) : |wt v - wt t| ≤ 0.03 * |v - t| := by
  have g : ∀ t : ℝ, wt t = 0.015 * (√(20 + t * t) - 20 / √(20 + t * t)) := by
    intro t
    have h : (0 : ℝ) < 20 + t * t := by nlinarith [mul_self_nonneg t]
    have h0 := Real.sqrt_pos.2 h
    have h2 := Real.mul_self_sqrt h.le
    unfold wt
    generalize √(20 + t * t) = s at *
    rw [show t * t = s * s - 20 by linarith]
    field_simp
  have b : ∀ t : ℝ, |t| ≤ √(20 + t * t) ∧ 4 ≤ √(20 + t * t) := by
    intro t
    refine ⟨Real.abs_le_sqrt (by nlinarith), Real.le_sqrt_of_sq_le (by nlinarith [mul_self_nonneg t])⟩
  rw [g, g]
  obtain ⟨hv, hv'⟩ := b v
  obtain ⟨ht, ht'⟩ := b t
  have sv := Real.mul_self_sqrt (show (0 : ℝ) ≤ 20 + v * v by nlinarith [mul_self_nonneg v])
  have st := Real.mul_self_sqrt (show (0 : ℝ) ≤ 20 + t * t by nlinarith [mul_self_nonneg t])
  generalize √(20 + v * v) = s at *
  generalize √(20 + t * t) = u at *
  have p : 0 < s + u := by linarith
  have d1 : |s - u| ≤ |v - t| := by
    have e : |s - u| * (s + u) = |v - t| * |v + t| := by
      calc |s - u| * (s + u) = |(s - u) * (s + u)| := by rw [abs_mul, abs_of_pos p]
        _ = |(v - t) * (v + t)| := by congr 1; nlinarith
        _ = _ := abs_mul _ _
    have h : |v + t| ≤ s + u := (abs_add_le v t).trans (by linarith)
    have : |s - u| * (s + u) ≤ |v - t| * (s + u) := by rw [e]; gcongr
    exact le_of_mul_le_mul_right this p
  have su : 20 ≤ s * u := by
    have : 20 * 20 ≤ (s * u) * (s * u) := by
      rw [show (s * u) * (s * u) = (s * s) * (u * u) by ring, sv, st]
      nlinarith [mul_self_nonneg v, mul_self_nonneg t, mul_nonneg (mul_self_nonneg v) (mul_self_nonneg t)]
    nlinarith
  have d2 : |20 / s - 20 / u| ≤ |s - u| := by
    have s0 : 0 < s := by linarith
    have u0 : 0 < u := by linarith
    rw [show 20 / s - 20 / u = (u - s) * (20 / (s * u)) by field_simp, abs_mul, abs_sub_comm u s]
    have : |20 / (s * u)| ≤ 1 := by
      rw [abs_of_pos (by positivity), div_le_one (by positivity)]
      exact su
    exact mul_le_of_le_one_right (abs_nonneg _) this
  rw [← mul_sub, abs_mul, abs_of_pos (by norm_num : (0 : ℝ) < 0.015), show s - 20 / s - (u - 20 / u) = (s - u) - (20 / s - 20 / u) by ring]
  have := abs_sub (s - u) (20 / s - 20 / u)
  norm_num at *
  linarith

theorem sqrt_ap {o : F32.Oracle} (hs : o.SqrtAccurate (2 ^ (-22 : ℤ))) {x : F32} {r k : ℝ} (hr : 0 < r) (k0 : 0 ≤ k) (k1 : k ≤ 1 / 2) (hx : F32.Ap x r (k * r)) :
    F32.Ap (o.sqrtf x) √r ((k + 3e-7) * √r) := by
  have hx0 : (0 : ℝ) ≤ x.val := by
    have := (_root_.abs_le.1 hx.err).1
    nlinarith
  obtain ⟨f, e⟩ := hs x hx.fin (by exact_mod_cast hx0)
  refine ⟨f, ?_⟩
  have ex := hx.err
  generalize (x.val : ℝ) = v at *
  generalize ((o.sqrtf x).val : ℝ) = w at *
  have sv := Real.mul_self_sqrt hx0
  have sr := Real.mul_self_sqrt hr.le
  have r0 := Real.sqrt_pos.2 hr
  have v0 := Real.sqrt_nonneg v
  generalize √v = V at *
  generalize √r = R at *
  subst sv sr
  have d : |V - R| ≤ k * R := by
    have : |V - R| * (V + R) = |V * V - R * R| := by
      calc |V - R| * (V + R) = |(V - R) * (V + R)| := by rw [abs_mul, abs_of_pos (show 0 < V + R by linarith)]
        _ = _ := by congr 1; ring
    rw [← this] at ex
    have a := abs_nonneg (V - R)
    have : |V - R| * R ≤ k * R * R := by nlinarith
    exact le_of_mul_le_mul_right this r0
  have hV : V ≤ 1.01 * R + k * R := by
    have := (_root_.abs_le.1 d).2
    nlinarith
  have hV2 : V ≤ 1.2 * R ∨ 1.2 * R < V := le_or_gt _ _
  have hV' : V ≤ 1.25 * R := by
    have := (_root_.abs_le.1 ex).2
    nlinarith
  calc |w - R| = |(w - V) + (V - R)| := by congr 1; ring
    _ ≤ |w - V| + |V - R| := abs_add_le _ _
    _ ≤ 2 ^ (-22 : ℤ) * V + k * R := add_le_add e d
    _ ≤ _ := by
      have : (2 : ℝ) ^ (-22 : ℤ) ≤ 2.4e-7 := by norm_num
      have : (2 : ℝ) ^ (-22 : ℤ) * V ≤ 2.4e-7 * (1.25 * R) := by gcongr
      norm_num at *
      nlinarith

/-- The weight of the lightness difference as computed. -/
theorem weight {o : F32.Oracle} (ho : o.SqrtAccurate (2 ^ (-22 : ℤ))) {L M : F32} (hL : In L 0 100) (hM : In M 0 100) :
    F32.Ap (lit 1 + lit 0.015 * (((L + M) / lit 2 - lit 50) * ((L + M) / lit 2 - lit 50)) /
      o.sqrtf (lit 20 + ((L + M) / lit 2 - lit 50) * ((L + M) / lit 2 - lit 50))) (lightnessWeight L.val M.val) 3e-6 := by
  have L0 : (0 : ℝ) ≤ L.val := by exact_mod_cast hL.lo
  have L1 : (L.val : ℝ) ≤ 100 := by exact_mod_cast hL.hi
  have M0 : (0 : ℝ) ≤ M.val := by exact_mod_cast hM.lo
  have M1 : (M.val : ℝ) ≤ 100 := by exact_mod_cast hM.hi
  have l1 : F32.Ap (lit 1 : F32) 1 0 := F32.Ap.ofEval (q := 1) (e := 0) (by decide +kernel) (by norm_num) (by norm_num)
  have l2 : F32.Ap (lit 2 : F32) 2 0 := F32.Ap.ofEval (q := 2) (e := 0) (by decide +kernel) (by norm_num) (by norm_num)
  have l50 : F32.Ap (lit 50 : F32) 50 0 := F32.Ap.ofEval (q := 50) (e := 0) (by decide +kernel) (by norm_num) (by norm_num)
  have l20 : F32.Ap (lit 20 : F32) 20 0 := F32.Ap.ofEval (q := 20) (e := 0) (by decide +kernel) (by norm_num) (by norm_num)
  have lc : F32.Ap (lit 0.015 : F32) 0.015 1e-9 := F32.Ap.ofEval (q := 0.015) (e := 1e-9) (by decide +kernel) (by norm_num) (by norm_num)
  have s := (F32.Ap.exact hL.fin).add (F32.Ap.exact hM.fin) (B := 200) (E := 1.2e-5) (by rw [_root_.abs_le]; constructor <;> linarith) (by norm_num) (by norm_num)
  have m := s.div l2 (Q := 100) (S := 2) (d := 6e-6) (E := 1.3e-5)
    (by rw [abs_div, _root_.abs_of_pos (by norm_num : (0 : ℝ) < 2), _root_.abs_of_nonneg (by linarith)]; linarith) (by norm_num) (by norm_num) (by norm_num) (by norm_num) (by norm_num)
  have t := m.sub l50 (B := 50) (E := 1.7e-5) (by rw [_root_.abs_le]; constructor <;> linarith) (by norm_num) (by norm_num)
  have tb : |((L.val : ℝ) + M.val) / 2 - 50| ≤ 50 := by rw [_root_.abs_le]; constructor <;> linarith
  have hw : lightnessWeight L.val M.val = 1 + wt (((L.val : ℝ) + M.val) / 2 - 50) := by
    unfold lightnessWeight wt; rw [pow_two]
  rw [hw]
  generalize ((L.val : ℝ) + M.val) / 2 - 50 = t₀ at *
  generalize (L + M) / lit 2 - lit 50 = T at *
  have vb : |(T.val : ℝ)| ≤ 50.001 := (t.abs_le tb).trans (by norm_num)
  have et := t.err
  have ex := F32.Ap.exact t.fin
  have lip := wt_lip T.val t₀
  have A0 : 0 ≤ (T.val : ℝ) * T.val := mul_self_nonneg _
  have A1 : (T.val : ℝ) * T.val ≤ 2501 := by
    rw [← abs_mul_abs_self]
    nlinarith [abs_nonneg (T.val : ℝ)]
  have q := ex.mul ex (R := |(T.val : ℝ)|) (S := |(T.val : ℝ)|) (E := 6e-8 * (T.val * T.val) + 1 / 2 ^ 150) le_rfl le_rfl
    (by rw [abs_mul_abs_self]; norm_num at *; linarith) (by rw [abs_mul_abs_self]; norm_num at *; linarith)
  generalize hA : (T.val : ℝ) * T.val = A at *
  generalize T * T = Q at *
  have rt := l20.add q (B := 20 + A) (E := 1.3e-7 * (20 + A)) (by rw [_root_.abs_of_nonneg (by linarith)]) (by norm_num at *; linarith) (by norm_num at *; linarith)
  have sq := sqrt_ap ho (by linarith) (by norm_num) (by norm_num) rt
  have nu := lc.mul q (R := 0.015) (S := A) (E := 0.015 * A * 2e-7 + 1 / 2 ^ 149) (by norm_num) (by rw [_root_.abs_of_nonneg A0]) (by norm_num at *; linarith) (by norm_num at *; linarith)
  have r0 : 4 ≤ √(20 + A) := Real.le_sqrt_of_sq_le (by linarith)
  have rr := Real.mul_self_sqrt (show 0 ≤ 20 + A by linarith)
  have hq : 0.015 * A / √(20 + A) ≤ 0.76 := by
    rw [div_le_iff₀ (by linarith)]
    have : √(20 + A) ≤ 50.3 := by rw [Real.sqrt_le_left (by norm_num)]; norm_num; linarith
    nlinarith
  have hq0 : 0 ≤ 0.015 * A / √(20 + A) := by positivity
  have dv := nu.div sq (Q := 0.015 * A / √(20 + A)) (S := √(20 + A) * (1 - 1e-6)) (d := 1e-6) (E := 1.1e-6) (by rw [_root_.abs_of_nonneg hq0])
    (by norm_num at *; linarith) (by norm_num; linarith) (by
      rw [div_le_iff₀ (by norm_num; linarith)]
      have e : 0.015 * A = 0.015 * A / √(20 + A) * √(20 + A) := by field_simp
      generalize 0.015 * A / √(20 + A) = f at *
      generalize √(20 + A) = S at *
      have : f * S ≤ 0.76 * S := by gcongr
      rw [e]
      norm_num at *
      nlinarith) (by norm_num at *; linarith) (by norm_num at *; linarith)
  have wv : wt T.val = 0.015 * A / √(20 + A) := by unfold wt; rw [hA]
  rw [← wv] at dv hq hq0
  have fin := l1.add dv (B := 1.76) (E := 1.3e-6) (by rw [_root_.abs_of_nonneg (by linarith)]; norm_num at *; linarith) (by norm_num) (by norm_num)
  refine ⟨fin.fin, ?_⟩
  have e1 := fin.err
  generalize (F32.val (lit 1 + lit 0.015 * Q / o.sqrtf (lit 20 + Q)) : ℝ) = w at *
  calc |w - (1 + wt t₀)| = |(w - (1 + wt T.val)) + (wt T.val - wt t₀)| := by congr 1; ring
    _ ≤ _ := abs_add_le _ _
    _ ≤ _ := by
      norm_num at *
      linarith

/-- Squaring, rounding and taking the root. -/
theorem final {x v r E : ℝ} (r0 : 0 ≤ r) (X0 : 0 ≤ |x|) (qe : |v - x| ≤ 3.6e-6 * |x| + 1 / 2 ^ 150)
    (rr : |r - v * v| ≤ v * v / 2 ^ 24 + 1 / 2 ^ 150) (ee : |E - √r| ≤ 2 ^ (-22 : ℤ) * √r) :
    abs (E - |x|) ≤ 5e-6 * |x| + 1 / 2 ^ 72 := by
  have hv : abs (|v| - |x|) ≤ 3.6e-6 * |x| + 1 / 2 ^ 150 := (abs_abs_sub_abs_le v x).trans qe
  rw [← abs_mul_abs_self v] at rr
  have V0 := abs_nonneg v
  generalize |x| = X at *
  generalize |v| = V at *
  obtain ⟨r1, r2⟩ := _root_.abs_le.1 rr
  obtain ⟨v1, v2⟩ := _root_.abs_le.1 hv
  have up : √r ≤ V * (1 + 1 / 2 ^ 24) + 1 / 2 ^ 75 := by
    rw [Real.sqrt_le_left (by positivity)]
    norm_num at *
    nlinarith
  have lo : V * (1 - 1 / 2 ^ 24) - 1 / 2 ^ 75 ≤ √r := by
    rcases le_or_gt (V * (1 - 1 / 2 ^ 24) - 1 / 2 ^ 75) 0 with h | h
    · exact h.trans (Real.sqrt_nonneg r)
    · apply Real.le_sqrt_of_sq_le
      norm_num at *
      nlinarith
  have s0 := Real.sqrt_nonneg r
  generalize √r = s at *
  obtain ⟨e1, e2⟩ := _root_.abs_le.1 ee
  rw [_root_.abs_le]
  constructor <;> norm_num at * <;> linarith

end LightF

open LightF

/-- **C134.** For colours of equal `a` and `b` of magnitude at most 4096, lightnesses between 0 and 100 and weights between 1/1024 and 1024,
the computed difference is within 5 parts in a million of the standard's formula. -/
theorem C134_accurate {o : F32.Oracle} (ho : o.Sane00) (hs : ∀ x, F32.Zn x → F32.Zn (o.sinf x)) {L M a b kl kc kh : F32}
    (hL : In L 0 100) (hM : In M 0 100) (ha : In a (-4096) 4096) (hb : In b (-4096) 4096)
    (hl : In kl (1 / 2 ^ 10) (2 ^ 10)) (hc : In kc (1 / 2 ^ 10) (2 ^ 10)) (hh : In kh (1 / 2 ^ 10) (2 ^ 10)) :
    F32.Ap (@E00 F32 (F32.libm o) ⟨L, a, b⟩ ⟨M, a, b⟩ kl kc kh) (|(M.val : ℝ) - L.val| / (kl.val * lightnessWeight L.val M.val))
      (5e-6 * (|(M.val : ℝ) - L.val| / (kl.val * lightnessWeight L.val M.val)) + 1 / 2 ^ 72) := by
  obtain ⟨rf, rv⟩ := radicand ho hs (L := L) (M := M) (a := a) (b := b) ⟨hL.weaken, ha, hb⟩ ⟨hM.weaken, ha, hb⟩ hl hc hh
  rw [(parts (kl := kl) (kc := kc) (kh := kh) hs L M a b).1] at rv
  have w := weight ho.sqrt hL hM
  have L0 : (0 : ℝ) ≤ L.val := by exact_mod_cast hL.lo
  have L1 : (L.val : ℝ) ≤ 100 := by exact_mod_cast hL.hi
  have M0 : (0 : ℝ) ≤ M.val := by exact_mod_cast hM.lo
  have M1 : (M.val : ℝ) ≤ 100 := by exact_mod_cast hM.hi
  have k0 : (1 / 2 ^ 10 : ℝ) ≤ kl.val := by have := (Rat.cast_le (K := ℝ)).2 hl.lo; push_cast at this; exact this
  have k1 : (kl.val : ℝ) ≤ 2 ^ 10 := by have := (Rat.cast_le (K := ℝ)).2 hl.hi; push_cast at this; exact this
  have w0 : 1 ≤ lightnessWeight L.val M.val := by
    unfold lightnessWeight
    have : 0 ≤ 0.015 * (((L.val : ℝ) + M.val) / 2 - 50) ^ 2 / √(20 + (((L.val : ℝ) + M.val) / 2 - 50) ^ 2) := by positivity
    linarith
  have w1 : lightnessWeight L.val M.val ≤ 2 := by
    unfold lightnessWeight
    have h : 0.015 * (((L.val : ℝ) + M.val) / 2 - 50) ^ 2 / √(20 + (((L.val : ℝ) + M.val) / 2 - 50) ^ 2) ≤ 1 := by
      rw [div_le_one (by positivity)]
      apply Real.le_sqrt_of_sq_le
      have : (((L.val : ℝ) + M.val) / 2 - 50) ^ 2 ≤ 2500 := by nlinarith
      nlinarith [sq_nonneg (((L.val : ℝ) + M.val) / 2 - 50)]
    linarith
  generalize lightnessWeight L.val M.val = W at *
  generalize (lit 1 + lit 0.015 * (((L + M) / lit 2 - lit 50) * ((L + M) / lit 2 - lit 50)) /
      o.sqrtf (lit 20 + ((L + M) / lit 2 - lit 50) * ((L + M) / lit 2 - lit 50)) : F32) = Wf at *
  obtain ⟨df, de, -⟩ := sub_rel hM.fin hL.fin (by rw [_root_.abs_of_nonneg hM.lo]; exact hM.hi.trans (by norm_num))
    (by rw [_root_.abs_of_nonneg hL.lo]; exact hL.hi.trans (by norm_num))
  have dd : F32.Ap (M - L) ((M.val : ℝ) - L.val) (6e-8 * |(M.val : ℝ) - L.val|) := by
    refine ⟨df, ?_⟩
    have := (Rat.cast_le (K := ℝ)).2 de
    push_cast at this
    refine this.trans ?_
    have n := abs_nonneg ((M.val : ℝ) - L.val)
    generalize |(M.val : ℝ) - L.val| = z at *
    norm_num
    linarith
  have D1 : |(M.val : ℝ) - L.val| ≤ 100 := by rw [_root_.abs_le]; constructor <;> linarith
  have D0 := abs_nonneg ((M.val : ℝ) - L.val)
  generalize (M.val : ℝ) - L.val = D at *
  have kp : (0 : ℝ) < kl.val := lt_of_lt_of_le (by norm_num) k0
  have pr := (F32.Ap.exact hl.fin).mul w (R := kl.val) (S := W) (E := 3.2e-6 * (kl.val * W)) (by rw [_root_.abs_of_pos kp]) (by rw [_root_.abs_of_pos (by linarith)])
    (by norm_num at *; nlinarith) (by
      have : (kl.val : ℝ) ≤ kl.val * W := by nlinarith
      norm_num at *
      nlinarith)
  have P0 : (1 / 2 ^ 10 : ℝ) ≤ kl.val * W := by norm_num at *; nlinarith
  have P1 : (kl.val : ℝ) * W ≤ 2 ^ 11 := by norm_num at *; nlinarith
  generalize (kl.val : ℝ) * W = P at *
  generalize kl * Wf = Pf at *
  have Pp : 0 < P := by norm_num at *; linarith
  have ab : |D / P| = |D| / P := by rw [abs_div, _root_.abs_of_pos Pp]
  have X0 : 0 ≤ |D| / P := by positivity
  have Db : |D| / P ≤ 2 ^ 17 := by
    rw [div_le_iff₀ Pp]
    norm_num at *
    linarith
  have q := dd.div pr (Q := |D| / P) (S := P * (1 - 1e-5)) (d := 3.5e-6 * (|D| / P)) (E := 3.6e-6 * (|D| / P) + 1 / 2 ^ 150) ab.le (by norm_num at *; linarith) (by norm_num; linarith) (by
      rw [div_le_iff₀ (by norm_num; linarith)]
      have e : |D| = |D| / P * P := by field_simp
      have e0 : 0 ≤ |D| / P * P := by rw [← e]; exact D0
      rw [show 3.5e-6 * (|D| / P) * (P * (1 - 1e-5)) = 3.5e-6 * (1 - 1e-5) * (|D| / P * P) by ring,
        show |D| / P * (3.2e-6 * P) = 3.2e-6 * (|D| / P * P) by ring, ← e]
      norm_num at *
      linarith) (by norm_num at *; linarith) (by clear ab; generalize |D| / P = x at *; norm_num at *; linarith)
  rw [← ab] at X0 Db q ⊢
  generalize D / P = x at *
  have sqf : 0 ≤ (@radicand00 F32 (F32.libm o) ⟨L, a, b⟩ ⟨M, a, b⟩ kl kc kh).val := by
    rw [rv]; exact rnd_nonneg (mul_self_nonneg _)
  obtain ⟨ef, ee⟩ := ho.sqrt _ rf sqf
  refine ⟨ef, ?_⟩
  show abs (((o.sqrtf (@radicand00 F32 (F32.libm o) ⟨L, a, b⟩ ⟨M, a, b⟩ kl kc kh)).val : ℝ) - |x|) ≤ _
  generalize ((o.sqrtf (@radicand00 F32 (F32.libm o) ⟨L, a, b⟩ ⟨M, a, b⟩ kl kc kh)).val : ℝ) = E at *
  generalize hr : (@radicand00 F32 (F32.libm o) ⟨L, a, b⟩ ⟨M, a, b⟩ kl kc kh).val = r at *
  have rr := rnd_rel' (((M - L) / Pf).val * ((M - L) / Pf).val)
  rw [← rv, _root_.abs_of_nonneg (mul_self_nonneg ((M - L) / Pf).val)] at rr
  have qe := q.err
  have rr' := (Rat.cast_le (K := ℝ)).2 rr
  push_cast at rr'
  have r0 : (0 : ℝ) ≤ r := by exact_mod_cast sqf
  exact final r0 X0 qe rr' ee

theorem LightF.gap {d K e₁ e₂ e₃ q : ℝ} (hd : 1 ≤ d) (k0 : 0 < K) (k1 : K ≤ 1024) (hq : 8e-4 ≤ q)
    (h₁ : |e₁ - d / (K * (1 + q))| ≤ 5e-6 * (d / (K * (1 + q))) + 1 / 2 ^ 72)
    (h₂ : |e₂ - d / (K * (1 + q))| ≤ 5e-6 * (d / (K * (1 + q))) + 1 / 2 ^ 72)
    (h₃ : |e₃ - 2 * d / (K * 1)| ≤ 5e-6 * (2 * d / (K * 1)) + 1 / 2 ^ 72) : e₁ + e₂ < e₃ := by
  have x0 : 1 / 1024 ≤ d / K := by
    rw [le_div_iff₀ k0]; linarith
  rw [show d / (K * (1 + q)) = d / K / (1 + q) by rw [div_div]] at h₁ h₂
  rw [show 2 * d / (K * 1) = 2 * (d / K) by ring] at h₃
  generalize d / K = x at *
  have hy : x / (1 + q) ≤ x * (1 - 7e-4) := by
    rw [div_le_iff₀ (by linarith)]
    have : x * 1 ≤ x * ((1 - 7e-4) * (1 + q)) := by
      apply mul_le_mul_of_nonneg_left _ (by norm_num at x0; linarith)
      norm_num at *
      linarith
    linarith
  generalize x / (1 + q) = y at *
  rw [_root_.abs_le] at h₁ h₂ h₃
  norm_num at *
  linarith [h₁.2, h₂.2, h₃.1]

/-- **C134, not a metric.** So the triangle inequality fails as executed too: for every `d` from 1 to 50, going from lightness `50 - d` to
`50 + d` by way of 50 is computed to be shorter than going there directly. -/
theorem C134_shortcut {o : F32.Oracle} (ho : o.Sane00) (hs : ∀ x, F32.Zn x → F32.Zn (o.sinf x)) {L M N a b kl kc kh : F32} {d : ℚ}
    (d0 : 1 ≤ d) (d1 : d ≤ 50) (hL : L.isFinite = true) (eL : L.val = 50 - d) (hM : M.isFinite = true) (eM : M.val = 50)
    (hN : N.isFinite = true) (eN : N.val = 50 + d) (ha : In a (-4096) 4096) (hb : In b (-4096) 4096)
    (hl : In kl (1 / 2 ^ 10) (2 ^ 10)) (hc : In kc (1 / 2 ^ 10) (2 ^ 10)) (hh : In kh (1 / 2 ^ 10) (2 ^ 10)) :
    letI := F32.libm o
    (E00 ⟨L, a, b⟩ ⟨M, a, b⟩ kl kc kh).val + (E00 ⟨M, a, b⟩ ⟨N, a, b⟩ kl kc kh).val < (E00 ⟨L, a, b⟩ ⟨N, a, b⟩ kl kc kh).val := by
  have iL : In L 0 100 := ⟨hL, by rw [eL]; linarith, by rw [eL]; linarith⟩
  have iM : In M 0 100 := ⟨hM, by rw [eM]; norm_num, by rw [eM]; norm_num⟩
  have iN : In N 0 100 := ⟨hN, by rw [eN]; linarith, by rw [eN]; linarith⟩
  have h₁ := (C134_accurate ho hs iL iM ha hb hl hc hh).err
  have h₂ := (C134_accurate ho hs iM iN ha hb hl hc hh).err
  have h₃ := (C134_accurate ho hs iL iN ha hb hl hc hh).err
  have k0 : (0 : ℝ) < kl.val := by exact_mod_cast lt_of_lt_of_le (by norm_num) hl.lo
  have k1 : (kl.val : ℝ) ≤ 1024 := by
    have := (Rat.cast_le (K := ℝ)).2 hl.hi; push_cast at this; norm_num at this ⊢; exact this
  have D0 : (1 : ℝ) ≤ d := by exact_mod_cast d0
  have e1 : (L.val : ℝ) = 50 - d := by rw [eL]; push_cast; rfl
  have e2 : (M.val : ℝ) = 50 := by rw [eM]; norm_num
  have e3 : (N.val : ℝ) = 50 + d := by rw [eN]; push_cast; rfl
  have w0 : lightnessWeight (50 - (d : ℝ)) (50 + d) = 1 := by
    unfold lightnessWeight
    rw [show ((50 - (d : ℝ) + (50 + d)) / 2 - 50 : ℝ) = 0 by ring]
    simp
  have w1 : lightnessWeight (50 - (d : ℝ)) 50 = 1 + 0.015 * ((d : ℝ) / 2) ^ 2 / Real.sqrt (20 + ((d : ℝ) / 2) ^ 2) := by
    unfold lightnessWeight
    rw [show ((50 - (d : ℝ) + 50) / 2 - 50 : ℝ) = -(d / 2) by ring, neg_sq]
  have w2 : lightnessWeight 50 (50 + (d : ℝ)) = 1 + 0.015 * ((d : ℝ) / 2) ^ 2 / Real.sqrt (20 + ((d : ℝ) / 2) ^ 2) := by
    unfold lightnessWeight
    rw [show ((50 + (50 + (d : ℝ))) / 2 - 50 : ℝ) = d / 2 by ring]
  rw [e1, e2, w1, show (50 - (50 - (d : ℝ))) = d by ring, _root_.abs_of_pos (by linarith : (0 : ℝ) < d)] at h₁
  rw [e2, e3, w2, show (50 + (d : ℝ) - 50) = d by ring, _root_.abs_of_pos (by linarith : (0 : ℝ) < d)] at h₂
  rw [e1, e3, w0, show (50 + (d : ℝ) - (50 - d)) = 2 * d by ring, _root_.abs_of_pos (by linarith : (0 : ℝ) < 2 * d)] at h₃
  have hq : 8e-4 ≤ 0.015 * ((d : ℝ) / 2) ^ 2 / Real.sqrt (20 + ((d : ℝ) / 2) ^ 2) := by
    have A0 : 0.25 ≤ ((d : ℝ) / 2) ^ 2 := by norm_num; nlinarith
    generalize ((d : ℝ) / 2) ^ 2 = A at *
    have : √(20 + A) ≤ A / 0.055 := by
      rw [Real.sqrt_le_left (by norm_num at *; linarith)]
      norm_num at *
      nlinarith
    rw [le_div_iff₀ (Real.sqrt_pos.2 (by norm_num at *; linarith))]
    norm_num at *
    linarith
  have := LightF.gap D0 k0 k1 hq h₁ h₂ h₃
  exact_mod_cast this

/-- The hypotheses can be met: black, middle grey and white with unit weights. -/
example : (∃ o : F32.Oracle, o.Sane00 ∧ ∀ x, F32.Zn x → F32.Zn (o.sinf x)) ∧ In (lit 0 : F32) 0 100 ∧ In (lit 100 : F32) 0 100 ∧
    In (lit 0 : F32) (-4096) 4096 ∧ In (lit 1 : F32) (1 / 2 ^ 10) (2 ^ 10) ∧ (lit 0 : F32).val = 50 - 50 ∧ (lit 50 : F32).val = 50 ∧
    (lit 100 : F32).val = 50 + 50 := by
  refine ⟨?_, In.lit (q := 0) (A := 0) (B := 100), In.lit (q := 100) (A := 0) (B := 100), In.lit (q := 0) (A := -4096) (B := 4096),
    In.lit (q := 1) (A := 1 / 2 ^ 10) (B := 2 ^ 10), by decide +kernel, by decide +kernel, by decide +kernel⟩
  obtain ⟨o, h, -, -, hs⟩ := exists_sane00
  exact ⟨o, h, hs⟩

end CS
