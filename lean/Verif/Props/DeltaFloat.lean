import Verif.Lemmas.FloatOpp
import Verif.Lemmas.FloatLibm
import Verif.Props.Delta

/-!
# C91: colour differences in binary32
-/

namespace CS
open B32 F32 Delta

/-- C91: in binary32, whatever the library functions, `Delta::UV`, `Delta::E76` and `Delta::ICtCp` do not depend on the
order of their arguments, bit for bit, NaNs and infinities included. -/
theorem C91_symmetric (o : F32.Oracle) (a b : Tristimulus F32) :
    letI := F32.libm o
    UV a b = UV b a ∧ E76 a b = E76 b a ∧ Delta.ICtCp a b = Delta.ICtCp b a := by
  refine ⟨?_, ?_, ?_⟩
  · unfold UV
    rw [(sub_opp a.b b.b).mul_self, (sub_opp a.c b.c).mul_self]
  · unfold E76
    rw [(sub_opp a.a b.a).mul_self, (sub_opp a.b b.b).mul_self, (sub_opp a.c b.c).mul_self]
  · unfold Delta.ICtCp
    simp only
    generalize @XYZ_to_ICtCp F32 (F32.libm o) a = x
    generalize @XYZ_to_ICtCp F32 (F32.libm o) b = y
    rw [(sub_opp x.a y.a).mul_self, (sub_opp x.b y.b).mul_self, (sub_opp x.c y.c).mul_self]

/-- The sine is odd, zeros included (C11 annex F.10.1.6 gives the zeros; every library is odd). -/
def F32.Oracle.SinOdd (o : F32.Oracle) : Prop := (∀ x : F32, o.sinf (-x) = -(o.sinf x)) ∧ ∀ s, o.sinf (.zero s) = .zero s

theorem nan_add (x : F32) : F32.nan + x = .nan := by cases x <;> rfl
theorem nan_sub (x : F32) : F32.nan - x = .nan := by cases x <;> rfl

/-- The hue difference changes sign with the order. -/
theorem dh00_opp (o : F32.Oracle) (h1 h2 : F32) :
    letI := F32.libm o
    Opp (dh00 h1 h2) (dh00 h2 h1) := by
  unfold dh00
  have hs : Opp (h2 - h1) (h1 - h2) := sub_opp h2 h1
  have hf := hs.fabs
  show Opp (if F32.le (F32.fabs (h2 - h1)) _ then _ else if F32.le h2 h1 then _ else _)
    (if F32.le (F32.fabs (h1 - h2)) _ then _ else if F32.le h1 h2 then _ else _)
  rw [← hf]
  by_cases c : F32.le (F32.fabs (h2 - h1)) (lit 180) = true
  · rw [if_pos c, if_pos c]; exact hs
  · rw [if_neg c, if_neg c]
    by_cases hn : h2 - h1 = .nan
    · have hn' : h1 - h2 = .nan := by
        rcases hs with e | ⟨s, t, e, -⟩
        · rw [e, hn]; rfl
        · rw [hn] at e; cases e
      rw [hn, hn', nan_add, nan_sub]
      left
      split_ifs <;> rfl
    · have ht := le_total_of_sub (x := h1) (y := h2) (by
        cases e : h2 - h1 with
        | nan => exact absurd e hn
        | _ => rfl) (fun s e => c (by
          rw [e]
          show F32.le (.zero false) _ = true
          decide +kernel))
      rw [ht]
      cases hl : F32.le h2 h1
      · simp only [Bool.not_false, if_true, Bool.false_eq_true, if_false]
        exact (hs.symm.add).symm
      · simp only [Bool.not_true, if_true, Bool.false_eq_true, if_false]
        exact hs.add

/-- The parts of `E00` for exchanged arguments. -/
theorem parts00_opp (o : F32.Oracle) (ho : o.SinOdd) (a b : Tristimulus F32) (kl kc kh : F32) :
    letI := F32.libm o
    Opp (parts00 a b kl kc kh).1 (parts00 b a kl kc kh).1 ∧ Opp (parts00 a b kl kc kh).2.1 (parts00 b a kl kc kh).2.1 ∧
    Opp (parts00 a b kl kc kh).2.2.1 (parts00 b a kl kc kh).2.2.1 ∧ (parts00 a b kl kc kh).2.2.2 = (parts00 b a kl kc kh).2.2.2 := by
  have sinopp : ∀ x y : F32, Opp x y → Opp (o.sinf x) (o.sinf y) := by
    intro x y h
    rcases h with rfl | ⟨s, t, rfl, rfl⟩
    · left; exact ho.1 x
    · right; exact ⟨s, t, ho.2 s, ho.2 t⟩
  have hG : @G00 F32 (F32.libm o) a.b a.c b.b b.c = @G00 F32 (F32.libm o) b.b b.c a.b a.c := by
    unfold G00; simp only
    generalize @Libm.sqrtf F32 (F32.libm o) (a.b * a.b + a.c * a.c) = c1
    generalize @Libm.sqrtf F32 (F32.libm o) (b.b * b.b + b.c * b.c) = c2
    rw [add_comm' c1 c2]
  have hB : ∀ x y : F32, @hBar00 F32 (F32.libm o) x y = @hBar00 F32 (F32.libm o) y x := by
    intro x y
    unfold hBar00
    rw [add_comm' x y]
    show (if F32.lt _ (F32.fabs (x - y)) then _ else _) / _ = (if F32.lt _ (F32.fabs (y - x)) then _ else _) / _
    rw [(sub_opp x y).fabs]
  unfold parts00
  simp only
  rw [hG]
  generalize @G00 F32 (F32.libm o) b.b b.c a.b a.c = G
  generalize a.b * (lit 1 + G) = ad1
  generalize b.b * (lit 1 + G) = ad2
  generalize @Libm.sqrtf F32 (F32.libm o) (ad1 * ad1 + a.c * a.c) = c1
  generalize @Libm.sqrtf F32 (F32.libm o) (ad2 * ad2 + b.c * b.c) = c2
  refine ⟨?_, ?_, ?_, ?_⟩
  · rw [add_comm' a.a b.a]
    exact (sub_opp b.a a.a).div_right
  · rw [add_comm' c1 c2]
    exact (sub_opp _ _).div_right
  · rw [add_comm' c1 c2, hB, mul_comm' c1 c2]
    refine Opp.div_right (Opp.mul_left (sinopp _ _ ?_))
    exact Opp.div_right (Opp.mul_left (dh00_opp o _ _))
  · rw [add_comm' c1 c2, hB]

/-- C91: `Delta::E00` does not depend on the order of its arguments either, bit for bit, for every weighting, provided
the library's sine is odd. -/
theorem C91_E00_symmetric (o : F32.Oracle) (ho : o.SinOdd) (a b : Tristimulus F32) (kl kc kh : F32) :
    letI := F32.libm o
    E00 a b kl kc kh = E00 b a kl kc kh := by
  obtain ⟨h1, h2, h3, h4⟩ := parts00_opp o ho a b kl kc kh
  unfold E00
  congr 1
  unfold radicand00
  generalize @parts00 F32 (F32.libm o) a b kl kc kh = p at *
  generalize @parts00 F32 (F32.libm o) b a kl kc kh = q at *
  obtain ⟨dl, dc, dh, r⟩ := p
  obtain ⟨dl', dc', dh', r'⟩ := q
  simp only at *
  subst h4
  rw [h1.mul_self, h2.mul_self, h3.mul_self]
  exact add_same (add_sign (add_sign (sq_sign _) (sq_sign _)) (sq_sign _)) ((h2.mul_left).mul_opp h3)

/-- The hypothesis can be met. -/
example : ∃ o : F32.Oracle, o.SinOdd :=
  ⟨⟨id, fun x _ => x, id, id, id, id, id, fun x _ => x, id, fun x _ => x⟩, fun _ => rfl, fun _ => rfl⟩

/-! ### Distance to itself -/

/-- A zero of either sign, or NaN. -/
def F32.Zn (x : F32) : Prop := x = .nan ∨ ∃ s, x = .zero s
/-- Positive zero, or NaN. -/
def F32.Zp (x : F32) : Prop := x = .nan ∨ x = .zero false

namespace F32

theorem sub_self_finite {x : F32} (h : x.isFinite = true) : x - x = .zero false := by
  rw [sub_def, add_finite h (by rwa [neg_isFinite]), neg_val, add_neg_cancel, pack_zero]
  cases x with
  | zero s => cases s <;> rfl
  | num q hq =>
    congr 1
    show (decide (q < 0) && decide (-q < 0)) = false
    rcases lt_trichotomy q 0 with h | h | h
    · simp [h, h.le]
    · simp [h]
    · simp [h.le]
  | _ => cases h

theorem zero_mul_zero' (s t : Bool) : (zero s : F32) * zero t = zero (xor s t) := by
  rw [mul_def, mul_finite rfl rfl]
  show pack _ (0 * 0) = _
  rw [mul_zero, pack_zero]; rfl

theorem zero_add_zero' (s t : Bool) : (zero s : F32) + zero t = zero (s && t) := by
  rw [add_def, add_finite rfl rfl]
  show pack _ (0 + 0) = _
  rw [add_zero, pack_zero]; rfl

theorem Zn.sub_self (x : F32) : Zn (x - x) := by
  cases x with
  | nan => left; rfl
  | inf s => left; cases s <;> rfl
  | zero s => right; exact ⟨_, sub_self_finite rfl⟩
  | num q h => right; exact ⟨_, sub_self_finite rfl⟩

theorem Zn.mul {x : F32} (h : Zn x) (y : F32) : Zn (x * y) := by
  rcases h with rfl | ⟨s, rfl⟩
  · left; cases y <;> rfl
  · cases y with
    | nan => left; rfl
    | inf t => left; rfl
    | zero t => right; exact ⟨_, zero_mul_zero' s t⟩
    | num q hq =>
      right
      rw [mul_def, mul_finite rfl rfl]
      exact ⟨_, by rw [show (zero s).val * (num q hq).val = 0 from zero_mul q, pack_zero]⟩

theorem Zn.mul' {x : F32} (h : Zn x) (y : F32) : Zn (y * x) := by
  rw [mul_comm']; exact h.mul y

theorem Zn.div {x : F32} (h : Zn x) (y : F32) : Zn (x / y) := by
  rcases h with rfl | ⟨s, rfl⟩
  · left; cases y <;> rfl
  · cases y with
    | nan => left; rfl
    | inf t => right; exact ⟨_, rfl⟩
    | zero t => left; rfl
    | num q hq =>
      right
      rw [div_def, div_finite (x := zero s) (y := num q hq) rfl rfl hq.1]
      exact ⟨_, by rw [show (zero s).val / (num q hq).val = 0 from zero_div q, pack_zero]⟩

theorem Zn.sq {x : F32} (h : Zn x) : Zp (x * x) := by
  rcases h with rfl | ⟨s, rfl⟩
  · left; rfl
  · right; rw [zero_mul_zero']; cases s <;> rfl

theorem Zp.add {x y : F32} (hx : Zp x) (hy : Zn y) : Zp (x + y) := by
  rcases hx with rfl | rfl
  · left; exact nan_add y
  · rcases hy with rfl | ⟨s, rfl⟩
    · left; rfl
    · right; rw [zero_add_zero']; rfl

theorem Zp.zn {x : F32} (h : Zp x) : Zn x := by
  rcases h with h | h
  · exact .inl h
  · exact .inr ⟨_, h⟩

end F32

/-- C91: a colour of finite components is at distance exactly `+0` from itself for `UV` and `E76`. -/
theorem C91_self (o : F32.Oracle) (h0 : o.sqrtf (.zero false) = .zero false) (a : Tristimulus F32)
    (ha : a.a.isFinite = true) (hb : a.b.isFinite = true) (hc : a.c.isFinite = true) :
    letI := F32.libm o
    UV a a = .zero false ∧ E76 a a = .zero false := by
  unfold UV E76
  rw [sub_self_finite ha, sub_self_finite hb, sub_self_finite hc]
  rw [zero_mul_zero', Bool.xor_self, zero_add_zero', Bool.and_self, zero_add_zero', Bool.and_self]
  exact ⟨h0, h0⟩

/-- C91: for every colour and every weighting, NaNs and infinities included, `Delta::E00` and `Delta::ICtCp` of a colour
and itself is `+0` or NaN, never a nonzero distance. -/
theorem C91_self_or_nan (o : F32.Oracle) (h0 : o.sqrtf (.zero false) = .zero false) (hn : o.sqrtf .nan = .nan)
    (hs : ∀ x, F32.Zn x → F32.Zn (o.sinf x)) (a : Tristimulus F32) (kl kc kh : F32) :
    letI := F32.libm o
    (E00 a a kl kc kh = .zero false ∨ E00 a a kl kc kh = .nan) ∧
    (Delta.ICtCp a a = .zero false ∨ Delta.ICtCp a a = .nan) := by
  have fin : ∀ x, F32.Zp x → o.sqrtf x = .zero false ∨ o.sqrtf x = .nan := by
    intro x h
    rcases h with rfl | rfl
    · exact .inr hn
    · exact .inl h0
  constructor
  · apply fin
    unfold radicand00
    have hp : F32.Zn (@parts00 F32 (F32.libm o) a a kl kc kh).1 ∧ F32.Zn (@parts00 F32 (F32.libm o) a a kl kc kh).2.1 ∧
        F32.Zn (@parts00 F32 (F32.libm o) a a kl kc kh).2.2.1 := by
      unfold parts00
      simp only
      refine ⟨(Zn.sub_self _).div _, (Zn.sub_self _).div _, Zn.div (Zn.mul' (hs _ (Zn.div (Zn.mul' ?_ _) _)) _) _⟩
      generalize @hue00 F32 (F32.libm o) _ _ = h
      unfold dh00
      rcases Zn.sub_self h with e | ⟨s, e⟩
      · rw [e, nan_add, nan_sub]
        left
        split_ifs <;> rfl
      · rw [e, if_pos]
        · exact .inr ⟨s, rfl⟩
        · show F32.le (F32.fabs (.zero s)) (@Arith.lit F32 F32.instArith 180) = true
          cases s <;> decide +kernel
    obtain ⟨h1, h2, h3⟩ := hp
    generalize @parts00 F32 (F32.libm o) a a kl kc kh = p at *
    obtain ⟨dl, dc, dh, r⟩ := p
    exact ((h1.sq.add h2.sq.zn).add h3.sq.zn).add (h3.mul' _)
  · apply fin
    exact (((Zn.sub_self _).sq.add ((Zn.sub_self _).sq.zn.mul _)).add (Zn.sub_self _).sq.zn)

/-- The hypotheses can be met, and both outcomes occur. -/
example : ∃ o : F32.Oracle, o.sqrtf (.zero false) = .zero false ∧ o.sqrtf .nan = .nan ∧ (∀ x, F32.Zn x → F32.Zn (o.sinf x)) ∧
    @Delta.E76 F32 (F32.libm o) ⟨.inf false, lit 0, lit 0⟩ ⟨.inf false, lit 0, lit 0⟩ = .nan :=
  ⟨⟨id, fun x _ => x, id, id, id, id, id, fun x _ => x, id, fun x _ => x⟩, rfl, rfl, fun _ h => h, by
    show (F32.nan + _ + _ : F32) = .nan
    rw [nan_add, nan_add]⟩

/-! ### Accuracy of `E76` -/

/-- The Euclidean distance of two colours. -/
noncomputable def dist76 (a b : Tristimulus F32) : ℝ :=
  √(((a.a.val : ℝ) - b.a.val) ^ 2 + ((a.b.val : ℝ) - b.b.val) ^ 2 + ((a.c.val : ℝ) - b.c.val) ^ 2)

/-- A difference of floats has a purely relative error. -/
theorem sub_rel {x y : F32} (hx : x.isFinite = true) (hy : y.isFinite = true) (hX : |x.val| ≤ 2 ^ 50) (hY : |y.val| ≤ 2 ^ 50) :
    (x - y).isFinite = true ∧ |(x - y).val - (x.val - y.val)| ≤ |x.val - y.val| / 2 ^ 24 ∧ |x.val - y.val| ≤ 2 ^ 51 := by
  have h := rnd_add_rel x.rep_val (rep_neg y.rep_val)
  rw [← sub_eq_add_neg] at h
  have h1 : |x.val - y.val| ≤ 2 ^ 51 := by
    have := abs_sub x.val y.val
    norm_num at *; linarith
  have h2 : |rnd (x.val - y.val)| < 2 ^ 128 := by
    have := abs_sub_abs_le_abs_sub (rnd (x.val - y.val)) (x.val - y.val)
    have h3 : |x.val - y.val| / 2 ^ 24 ≤ 2 ^ 51 / 2 ^ 24 := by gcongr
    have h5 := abs_nonneg (x.val - y.val)
    have h4 : (2 : ℚ) ^ 51 + 2 ^ 51 / 2 ^ 24 < 2 ^ 128 := by norm_num
    linarith
  rw [sub_def, add_finite hx (by rwa [neg_isFinite]), neg_val, ← sub_eq_add_neg]
  obtain ⟨f, v⟩ := pack_finite (s := x.sign && (neg y).sign) h2
  exact ⟨f, by rwa [v], h1⟩

/-- The square of a computed difference. -/
theorem sq_rel {d : F32} {r : ℚ} (hd : d.isFinite = true) (h : |d.val - r| ≤ |r| / 2 ^ 24) (hr : |r| ≤ 2 ^ 51) :
    (d * d).isFinite = true ∧ r ^ 2 * (1 - 2e-7) - 1 / 2 ^ 150 ≤ (d * d).val ∧ (d * d).val ≤ r ^ 2 * (1 + 2e-7) + 1 / 2 ^ 150 ∧
      (d * d).val ≤ 2 ^ 103 := by
  have r0 := abs_nonneg r
  have h1 : |d.val| ≤ |r| * (1 + 1 / 2 ^ 24) := by
    have := abs_sub_abs_le_abs_sub d.val r
    linarith
  have h1' : |r| * (1 - 1 / 2 ^ 24) ≤ |d.val| := by
    have := abs_sub_abs_le_abs_sub r d.val
    rw [abs_sub_comm] at this
    linarith
  have h2 : d.val * d.val ≤ r ^ 2 * (1 + 1.3e-7) := by
    rw [← abs_mul_abs_self, ← sq_abs r]
    calc |d.val| * |d.val| ≤ (|r| * (1 + 1 / 2 ^ 24)) * (|r| * (1 + 1 / 2 ^ 24)) := by gcongr
      _ = |r| ^ 2 * (1 + 1 / 2 ^ 24) ^ 2 := by ring
      _ ≤ _ := by gcongr; norm_num
  have h2' : r ^ 2 * (1 - 1.3e-7) ≤ d.val * d.val := by
    rw [← abs_mul_abs_self d.val, ← sq_abs r]
    have : 0 ≤ |r| * (1 - 1 / 2 ^ 24) := by norm_num
    calc |r| ^ 2 * (1 - 1.3e-7) ≤ |r| ^ 2 * (1 - 1 / 2 ^ 24) ^ 2 := by gcongr; norm_num
      _ = (|r| * (1 - 1 / 2 ^ 24)) * (|r| * (1 - 1 / 2 ^ 24)) := by ring
      _ ≤ _ := by gcongr
  have h3 : r ^ 2 ≤ 2 ^ 102 := by
    rw [← sq_abs]
    calc |r| ^ 2 ≤ (2 ^ 51) ^ 2 := by gcongr
      _ = _ := by norm_num
  have h0 : 0 ≤ d.val * d.val := mul_self_nonneg _
  have h4 := rnd_rel' (d.val * d.val)
  rw [abs_of_nonneg h0] at h4
  obtain ⟨h5, h6⟩ := _root_.abs_le.1 h4
  have n0 := rnd_nonneg h0
  have hb : rnd (d.val * d.val) ≤ 2 ^ 103 := by norm_num at *; linarith
  have h7 : |rnd (d.val * d.val)| < 2 ^ 128 := by
    rw [abs_of_nonneg n0]; exact lt_of_le_of_lt hb (by norm_num)
  rw [mul_def, mul_finite hd hd]
  obtain ⟨f, v⟩ := pack_finite (s := xor d.sign d.sign) h7
  rw [v]
  refine ⟨f, ?_, ?_, hb⟩ <;> norm_num at * <;> nlinarith [sq_nonneg r]

/-- Adding two non-negative floats. -/
theorem add_rel {x y : F32} (hx : x.isFinite = true) (hy : y.isFinite = true) (x0 : 0 ≤ x.val) (y0 : 0 ≤ y.val)
    (hX : x.val ≤ 2 ^ 105) (hY : y.val ≤ 2 ^ 105) :
    (x + y).isFinite = true ∧ (x.val + y.val) * (1 - 1 / 2 ^ 24) ≤ (x + y).val ∧
      (x + y).val ≤ (x.val + y.val) * (1 + 1 / 2 ^ 24) := by
  have h := rnd_add_rel x.rep_val y.rep_val
  have s0 : 0 ≤ x.val + y.val := by linarith
  rw [abs_of_nonneg s0] at h
  obtain ⟨h1, h2⟩ := _root_.abs_le.1 h
  have n0 := rnd_nonneg s0
  have h3 : |rnd (x.val + y.val)| < 2 ^ 128 := by
    rw [abs_of_nonneg n0]
    norm_num at *; linarith
  rw [add_def, add_finite hx hy]
  obtain ⟨f, v⟩ := pack_finite (s := x.sign && y.sign) h3
  rw [v]
  exact ⟨f, by linarith, by linarith⟩

/-- C91: for components of magnitude up to `2^50`, the computed `E76` is within `4.2e-7` relative (plus `2^-72`) of the
Euclidean distance. -/
theorem C91_E76_accurate (o : F32.Oracle) (hs : o.SqrtAccurate (2 ^ (-23 : ℤ))) (a b : Tristimulus F32)
    (ha : ∀ x ∈ [a.a, a.b, a.c, b.a, b.b, b.c], x.isFinite = true ∧ |x.val| ≤ 2 ^ 50) :
    letI := F32.libm o
    (E76 a b).isFinite = true ∧ |((E76 a b).val : ℝ) - dist76 a b| ≤ 4.2e-7 * dist76 a b + 1 / 2 ^ 72 := by
  obtain ⟨⟨f1, m1⟩, ⟨f2, m2⟩, ⟨f3, m3⟩, ⟨f4, m4⟩, ⟨f5, m5⟩, ⟨f6, m6⟩⟩ :
      (a.a.isFinite = true ∧ |a.a.val| ≤ 2 ^ 50) ∧ (a.b.isFinite = true ∧ |a.b.val| ≤ 2 ^ 50) ∧
      (a.c.isFinite = true ∧ |a.c.val| ≤ 2 ^ 50) ∧ (b.a.isFinite = true ∧ |b.a.val| ≤ 2 ^ 50) ∧
      (b.b.isFinite = true ∧ |b.b.val| ≤ 2 ^ 50) ∧ (b.c.isFinite = true ∧ |b.c.val| ≤ 2 ^ 50) := by
    refine ⟨ha _ ?_, ha _ ?_, ha _ ?_, ha _ ?_, ha _ ?_, ha _ ?_⟩ <;> simp
  obtain ⟨g1, e1, n1⟩ := sub_rel f1 f4 m1 m4
  obtain ⟨g2, e2, n2⟩ := sub_rel f2 f5 m2 m5
  obtain ⟨g3, e3, n3⟩ := sub_rel f3 f6 m3 m6
  obtain ⟨p1, l1, u1, b1⟩ := sq_rel g1 e1 n1
  obtain ⟨p2, l2, u2, b2⟩ := sq_rel g2 e2 n2
  obtain ⟨p3, l3, u3, b3⟩ := sq_rel g3 e3 n3
  have nn : ∀ d : F32, (d * d).isFinite = true → 0 ≤ (d * d).val := by
    intro d hd
    have := sq_sign d
    cases e : d * d with
    | num q h =>
      rw [e] at this
      have : ¬ q < 0 := by simpa [F32.sign] using this
      exact not_lt.1 this
    | _ => exact le_refl 0
  have z1 := nn _ p1
  have z2 := nn _ p2
  have z3 := nn _ p3
  unfold E76
  generalize a.a - b.a = d1 at *
  generalize a.b - b.b = d2 at *
  generalize a.c - b.c = d3 at *
  have b1' : (d1 * d1).val ≤ 2 ^ 105 := b1.trans (by norm_num)
  have b2' : (d2 * d2).val ≤ 2 ^ 105 := b2.trans (by norm_num)
  have b3' : (d3 * d3).val ≤ 2 ^ 105 := b3.trans (by norm_num)
  obtain ⟨q1, v1, w1⟩ := add_rel p1 p2 z1 z2 b1' b2'
  generalize d1 * d1 + d2 * d2 = s at *
  have s0 : 0 ≤ s.val := le_trans (by norm_num; positivity) v1
  have sb : s.val ≤ 2 ^ 105 := by norm_num at *; linarith
  obtain ⟨q2, v2, w2⟩ := add_rel q1 p3 s0 z3 sb b3'
  show (o.sqrtf (s + d3 * d3)).isFinite = true ∧ |((o.sqrtf (s + d3 * d3)).val : ℝ) - _| ≤ _
  generalize s + d3 * d3 = t at *
  have t0 : 0 ≤ t.val := le_trans (by norm_num; positivity) v2
  obtain ⟨q3, w3⟩ := hs t q2 t0
  refine ⟨q3, ?_⟩
  -- the radicand
  have D2 : dist76 a b ^ 2 = ((a.a.val - b.a.val) ^ 2 + (a.b.val - b.b.val) ^ 2 + (a.c.val - b.c.val) ^ 2 : ℚ) := by
    unfold dist76
    rw [Real.sq_sqrt (by positivity)]; push_cast; ring
  have D0 : 0 ≤ dist76 a b := Real.sqrt_nonneg _
  generalize dist76 a b = D at *
  generalize (a.a.val - b.a.val) ^ 2 = r1 at *
  generalize (a.b.val - b.b.val) ^ 2 = r2 at *
  generalize (a.c.val - b.c.val) ^ 2 = r3 at *
  generalize (d1 * d1).val = y1 at *
  generalize (d2 * d2).val = y2 at *
  generalize (d3 * d3).val = y3 at *
  generalize s.val = S at *
  have tl : (r1 + r2 + r3) * (1 - 3.3e-7) - 1 / 2 ^ 148 ≤ t.val := by norm_num at *; linarith
  have tu : t.val ≤ (r1 + r2 + r3) * (1 + 3.3e-7) + 1 / 2 ^ 148 := by norm_num at *; linarith
  have tl' : D ^ 2 * (1 - 3.3e-7) - 1 / 2 ^ 148 ≤ (t.val : ℝ) := by
    rw [D2]; have := (Rat.cast_le (K := ℝ)).2 tl; push_cast at this ⊢; linarith
  have tu' : (t.val : ℝ) ≤ D ^ 2 * (1 + 3.3e-7) + 1 / 2 ^ 148 := by
    rw [D2]; have := (Rat.cast_le (K := ℝ)).2 tu; push_cast at this ⊢; linarith
  have t0' : (0 : ℝ) ≤ t.val := by exact_mod_cast t0
  generalize (t.val : ℝ) = T at *
  generalize ((o.sqrtf t).val : ℝ) = W at *
  have hT := Real.sqrt_nonneg T
  have hup : √T ≤ D * (1 + 1.7e-7) + 1 / 2 ^ 74 := by
    apply Real.sqrt_le_iff.2 ⟨by positivity, ?_⟩
    have : D ^ 2 * (1 + 3.3e-7) + 1 / 2 ^ 148 ≤ (D * (1 + 1.7e-7) + 1 / 2 ^ 74) ^ 2 := by
      have e : (D * (1 + 1.7e-7) + 1 / 2 ^ 74) ^ 2 = D ^ 2 * (1 + 1.7e-7) ^ 2 + D * (2 * (1 + 1.7e-7) / 2 ^ 74) + 1 / 2 ^ 148 := by ring
      rw [e]
      have e2 : D ^ 2 * (1 + 3.3e-7) ≤ D ^ 2 * (1 + 1.7e-7) ^ 2 := by gcongr; norm_num
      have e3 : 0 ≤ D * (2 * (1 + 1.7e-7) / 2 ^ 74) := by positivity
      linarith
    linarith
  have hlo : D * (1 - 1.7e-7) - 1 / 2 ^ 73 ≤ √T := by
    by_contra hc
    rw [not_le] at hc
    have hD : 0 < D * (1 - 1.7e-7) - 1 / 2 ^ 73 := lt_of_le_of_lt hT hc
    have h1 : T < (D * (1 - 1.7e-7) - 1 / 2 ^ 73) ^ 2 := by
      rw [← Real.sq_sqrt t0']; gcongr
    have e : (D * (1 - 1.7e-7) - 1 / 2 ^ 73) ^ 2 = D ^ 2 * (1 - 1.7e-7) ^ 2 - (D * (1 - 1.7e-7) - 1 / 2 ^ 73) * (2 / 2 ^ 73) - 1 / 2 ^ 146 := by ring
    have e2 : D ^ 2 * (1 - 1.7e-7) ^ 2 ≤ D ^ 2 * (1 - 3.3e-7) := by gcongr; norm_num
    have e3 : 0 ≤ (D * (1 - 1.7e-7) - 1 / 2 ^ 73) * (2 / 2 ^ 73) := by positivity
    have e4 : (1 : ℝ) / 2 ^ 148 ≤ 1 / 2 ^ 146 := by norm_num
    linarith
  obtain ⟨w4, w5⟩ := _root_.abs_le.1 w3
  rw [_root_.abs_le]
  rw [zpow_neg] at w4 w5
  generalize √T = R at *
  norm_num at *
  constructor <;> linarith

/-- The hypotheses can be met. -/
example : (∃ o : F32.Oracle, o.SqrtAccurate (2 ^ (-23 : ℤ))) ∧
    ∀ x ∈ [(lit 50 : F32), lit 20, lit (-30), lit 60, lit 5, lit 0], x.isFinite = true ∧ |x.val| ≤ 2 ^ 50 := by
  obtain ⟨o, -, h, -⟩ := exists_accurate
  exact ⟨⟨o, h⟩, by decide +kernel⟩

theorem dist76_triangle (a b c : Tristimulus F32) : dist76 a c ≤ dist76 a b + dist76 b c := by
  have h := fun a b : Tristimulus F32 => C45_E76_dist ⟨(a.a.val : ℝ), a.b.val, a.c.val⟩ ⟨(b.a.val : ℝ), b.b.val, b.c.val⟩
  have e : ∀ a b : Tristimulus F32, dist76 a b = dist (Spec.pt3 ⟨(a.a.val : ℝ), a.b.val, a.c.val⟩) (Spec.pt3 ⟨(b.a.val : ℝ), b.b.val, b.c.val⟩) := by
    intro a b
    rw [← h a b]
    unfold dist76 E76
    show _ = √_
    congr 1
    ring
  rw [e, e, e]
  exact dist_triangle _ _ _

/-- C91: the triangle inequality, up to the rounding errors. -/
theorem C91_E76_triangle (o : F32.Oracle) (hs : o.SqrtAccurate (2 ^ (-23 : ℤ))) (a b c : Tristimulus F32)
    (hx : ∀ x ∈ [a.a, a.b, a.c, b.a, b.b, b.c, c.a, c.b, c.c], x.isFinite = true ∧ |x.val| ≤ 2 ^ 50) :
    letI := F32.libm o
    (E76 a c).val ≤ ((E76 a b).val + (E76 b c).val) * (1 + 1e-6) + 1 / 2 ^ 70 := by
  obtain ⟨-, h1⟩ := C91_E76_accurate o hs a c (fun x h => hx x (by simp only [List.mem_cons] at *; tauto))
  obtain ⟨-, h2⟩ := C91_E76_accurate o hs a b (fun x h => hx x (by simp only [List.mem_cons] at *; tauto))
  obtain ⟨-, h3⟩ := C91_E76_accurate o hs b c (fun x h => hx x (by simp only [List.mem_cons] at *; tauto))
  have ht := dist76_triangle a b c
  have d1 : 0 ≤ dist76 a b := Real.sqrt_nonneg _
  have d2 : 0 ≤ dist76 b c := Real.sqrt_nonneg _
  generalize @E76 F32 (F32.libm o) a c = x at *
  generalize @E76 F32 (F32.libm o) a b = y at *
  generalize @E76 F32 (F32.libm o) b c = z at *
  generalize dist76 a c = p at *
  generalize dist76 a b = q at *
  generalize dist76 b c = r at *
  obtain ⟨-, h1⟩ := _root_.abs_le.1 h1
  obtain ⟨h2, -⟩ := _root_.abs_le.1 h2
  obtain ⟨h3, -⟩ := _root_.abs_le.1 h3
  have : (x.val : ℝ) ≤ ((y.val : ℝ) + z.val) * (1 + 1e-6) + 1 / 2 ^ 70 := by norm_num at *; linarith
  have h4 : ((x.val : ℚ) : ℝ) ≤ (((y.val + z.val) * (1 + 1e-6) + 1 / 2 ^ 70 : ℚ) : ℝ) := by push_cast; norm_num at *; linarith
  exact_mod_cast h4

end CS
