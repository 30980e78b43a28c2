import Verif.Props.ICtCpFloat
import Verif.Props.DeltaFloat
import Mathlib.Analysis.InnerProductSpace.PiL2

/-!
# C145: the difference `Delta::ICtCp` in binary32
-/

namespace CS
open F32 B32 OTF Spec

/-- Specification: the difference of two ICtCp colours of ITU-R BT.2124, not scaled by 720. -/
noncomputable def Spec.itpDist (u v : Fin 3 → ℝ) : ℝ := √((u 0 - v 0) ^ 2 + ((u 1 - v 1) / 2) ^ 2 + (u 2 - v 2) ^ 2)

namespace ItpDelta

theorem euclid (a b c a' b' c' : ℝ) :
    |√(a ^ 2 + b ^ 2 + c ^ 2) - √(a' ^ 2 + b' ^ 2 + c' ^ 2)| ≤ √((a - a') ^ 2 + (b - b') ^ 2 + (c - c') ^ 2) := by
  have h := abs_norm_sub_norm_le (!₂[a, b, c] : EuclideanSpace ℝ (Fin 3)) !₂[a', b', c']
  simpa [EuclideanSpace.norm_eq, Fin.sum_univ_three, sq_abs] using h

theorem triangle (u v w : Fin 3 → ℝ) : itpDist u w ≤ itpDist u v + itpDist v w := by
  have h := norm_add_le (!₂[u 0 - v 0, (u 1 - v 1) / 2, u 2 - v 2] : EuclideanSpace ℝ (Fin 3)) !₂[v 0 - w 0, (v 1 - w 1) / 2, v 2 - w 2]
  simp only [EuclideanSpace.norm_eq, Fin.sum_univ_three, Real.norm_eq_abs, sq_abs, PiLp.add_apply, Matrix.cons_val] at h
  unfold itpDist
  refine le_trans (le_of_eq ?_) h
  congr 1; ring

/-- A quarter of a float that is not negative. -/
theorem quarter {x : F32} (hx : x.isFinite = true) (x0 : 0 ≤ x.val) (hb : x.val ≤ 2 ^ 103) :
    (x * (Arith.lit 0.25 : F32)).isFinite = true ∧ 0 ≤ (x * (Arith.lit 0.25 : F32)).val ∧
      x.val / 4 * (1 - 1 / 2 ^ 24) - 1 / 2 ^ 150 ≤ (x * (Arith.lit 0.25 : F32)).val ∧
      (x * (Arith.lit 0.25 : F32)).val ≤ x.val / 4 * (1 + 1 / 2 ^ 24) + 1 / 2 ^ 150 ∧ (x * (Arith.lit 0.25 : F32)).val ≤ 2 ^ 105 := by
  have q : (Arith.lit 0.25 : F32).isFinite = true ∧ (Arith.lit 0.25 : F32).val = 1 / 4 := by decide +kernel
  have e : x.val * (Arith.lit 0.25 : F32).val = x.val / 4 := by rw [q.2]; ring
  have y0 : 0 ≤ x.val / 4 := by linarith
  have h := rnd_rel' (x.val / 4)
  rw [abs_of_nonneg y0] at h
  obtain ⟨h1, h2⟩ := _root_.abs_le.1 h
  have n0 := rnd_nonneg y0
  have hb' : rnd (x.val / 4) ≤ 2 ^ 105 := by norm_num at *; linarith
  have h7 : |rnd (x.val / 4)| < 2 ^ 128 := by
    rw [abs_of_nonneg n0]; exact lt_of_le_of_lt hb' (by norm_num)
  rw [mul_def, mul_finite hx q.1, e]
  obtain ⟨f, v⟩ := pack_finite (s := xor x.sign (Arith.lit 0.25 : F32).sign) h7
  rw [v]
  refine ⟨f, n0, ?_, ?_, hb'⟩ <;> norm_num at * <;> linarith

/-- The last line of `Delta::ICtCp`, against the distance of the computed coordinates. -/
theorem last_line (o : F32.Oracle) (hs : o.SqrtAccurate (2 ^ (-23 : ℤ))) (a b : Tristimulus F32)
    (ha : ∀ x ∈ [a.a, a.b, a.c, b.a, b.b, b.c], x.isFinite = true ∧ |x.val| ≤ 2 ^ 50) (D : ℝ)
    (hD : D = √(((a.a.val : ℝ) - b.a.val) ^ 2 + (((a.b.val : ℝ) - b.b.val) / 2) ^ 2 + ((a.c.val : ℝ) - b.c.val) ^ 2)) :
    let z := o.sqrtf ((a.a - b.a) * (a.a - b.a) + (a.b - b.b) * (a.b - b.b) * (Arith.lit 0.25 : F32) + (a.c - b.c) * (a.c - b.c))
    z.isFinite = true ∧ |(z.val : ℝ) - D| ≤ 4.2e-7 * D + 1 / 2 ^ 72 := by
  obtain ⟨⟨f1, m1⟩, ⟨f2, m2⟩, ⟨f3, m3⟩, ⟨f4, m4⟩, ⟨f5, m5⟩, ⟨f6, m6⟩⟩ :
      (a.a.isFinite = true ∧ |a.a.val| ≤ 2 ^ 50) ∧ (a.b.isFinite = true ∧ |a.b.val| ≤ 2 ^ 50) ∧
      (a.c.isFinite = true ∧ |a.c.val| ≤ 2 ^ 50) ∧ (b.a.isFinite = true ∧ |b.a.val| ≤ 2 ^ 50) ∧
      (b.b.isFinite = true ∧ |b.b.val| ≤ 2 ^ 50) ∧ (b.c.isFinite = true ∧ |b.c.val| ≤ 2 ^ 50) := by
    refine ⟨ha _ ?_, ha _ ?_, ha _ ?_, ha _ ?_, ha _ ?_, ha _ ?_⟩ <;> simp
  obtain ⟨g1, e1, n1⟩ := sub_rel f1 f4 m1 m4
  obtain ⟨g2, e2, n2⟩ := sub_rel f2 f5 m2 m5
  obtain ⟨g3, e3, n3⟩ := sub_rel f3 f6 m3 m6
  obtain ⟨p1, l1, u1, b1⟩ := sq_rel g1 e1 n1
  obtain ⟨p2, l2, u2, b2⟩ := sq_rel g2 e2 n2
  obtain ⟨p3, l3, u3, b3⟩ := sq_rel g3 e3 n3
  have nn : ∀ d : F32, (d * d).isFinite = true → 0 ≤ (d * d).val := by
    intro d hd
    have := sq_sign d
    cases e : d * d with
    | num q h =>
      rw [e] at this
      have : ¬ q < 0 := by simpa [F32.sign] using this
      exact not_lt.1 this
    | _ => exact le_refl 0
  have z1 := nn _ p1
  have z2 := nn _ p2
  have z3 := nn _ p3
  intro z
  have hz : z = o.sqrtf ((a.a - b.a) * (a.a - b.a) + (a.b - b.b) * (a.b - b.b) * (Arith.lit 0.25 : F32) + (a.c - b.c) * (a.c - b.c)) := rfl
  generalize a.a - b.a = d1 at *
  generalize a.b - b.b = d2 at *
  generalize a.c - b.c = d3 at *
  obtain ⟨p4, z4, l4, u4, b4⟩ := quarter p2 z2 b2
  have b1' : (d1 * d1).val ≤ 2 ^ 105 := b1.trans (by norm_num)
  have b3' : (d3 * d3).val ≤ 2 ^ 105 := b3.trans (by norm_num)
  have b4' : (d2 * d2 * (Arith.lit 0.25 : F32)).val ≤ 2 ^ 104 := by norm_num at *; linarith
  obtain ⟨q1, v1, w1⟩ := add_rel p1 p4 z1 z4 b1' b4
  generalize d1 * d1 + d2 * d2 * (Arith.lit 0.25 : F32) = s at *
  have s0 : 0 ≤ s.val := le_trans (mul_nonneg (add_nonneg z1 z4) (by norm_num)) v1
  have sb : s.val ≤ 2 ^ 105 := by norm_num at *; linarith
  obtain ⟨q2, v2, w2⟩ := add_rel q1 p3 s0 z3 sb b3'
  generalize s + d3 * d3 = t at *
  have t0 : 0 ≤ t.val := le_trans (by norm_num; positivity) v2
  obtain ⟨q3, w3⟩ := hs t q2 t0
  rw [hz]
  refine ⟨q3, ?_⟩
  have D2 : D ^ 2 = ((a.a.val - b.a.val) ^ 2 + (a.b.val - b.b.val) ^ 2 / 4 + (a.c.val - b.c.val) ^ 2 : ℚ) := by
    rw [hD, Real.sq_sqrt (by positivity)]; push_cast; ring
  have D0 : 0 ≤ D := by rw [hD]; exact Real.sqrt_nonneg _
  clear hD
  have r1' := sq_nonneg (a.a.val - b.a.val)
  have r2' := sq_nonneg (a.b.val - b.b.val)
  have r3' := sq_nonneg (a.c.val - b.c.val)
  generalize (a.a.val - b.a.val) ^ 2 = r1 at *
  generalize (a.b.val - b.b.val) ^ 2 = r2 at *
  generalize (a.c.val - b.c.val) ^ 2 = r3 at *
  generalize (d1 * d1).val = y1 at *
  generalize (d2 * d2 * (Arith.lit 0.25 : F32)).val = y4 at *
  generalize (d2 * d2).val = y2 at *
  generalize (d3 * d3).val = y3 at *
  generalize s.val = S at *
  have tl : (r1 + r2 / 4 + r3) * (1 - 3.9e-7) - 1 / 2 ^ 148 ≤ t.val := by norm_num at *; linarith
  have tu : t.val ≤ (r1 + r2 / 4 + r3) * (1 + 3.9e-7) + 1 / 2 ^ 148 := by norm_num at *; linarith
  have tl' : D ^ 2 * (1 - 3.9e-7) - 1 / 2 ^ 148 ≤ (t.val : ℝ) := by
    rw [D2]; have := (Rat.cast_le (K := ℝ)).2 tl; push_cast at this ⊢; linarith
  have tu' : (t.val : ℝ) ≤ D ^ 2 * (1 + 3.9e-7) + 1 / 2 ^ 148 := by
    rw [D2]; have := (Rat.cast_le (K := ℝ)).2 tu; push_cast at this ⊢; linarith
  have t0' : (0 : ℝ) ≤ t.val := by exact_mod_cast t0
  generalize (t.val : ℝ) = T at *
  generalize ((o.sqrtf t).val : ℝ) = W at *
  have hT := Real.sqrt_nonneg T
  have hup : √T ≤ D * (1 + 2e-7) + 1 / 2 ^ 74 := by
    apply Real.sqrt_le_iff.2 ⟨by positivity, ?_⟩
    have : D ^ 2 * (1 + 3.9e-7) + 1 / 2 ^ 148 ≤ (D * (1 + 2e-7) + 1 / 2 ^ 74) ^ 2 := by
      have e : (D * (1 + 2e-7) + 1 / 2 ^ 74) ^ 2 = D ^ 2 * (1 + 2e-7) ^ 2 + D * (2 * (1 + 2e-7) / 2 ^ 74) + 1 / 2 ^ 148 := by ring
      rw [e]
      have e2 : D ^ 2 * (1 + 3.9e-7) ≤ D ^ 2 * (1 + 2e-7) ^ 2 := by gcongr; norm_num
      have e3 : 0 ≤ D * (2 * (1 + 2e-7) / 2 ^ 74) := by positivity
      linarith
    linarith
  have hlo : D * (1 - 2e-7) - 1 / 2 ^ 73 ≤ √T := by
    by_contra hc
    rw [not_le] at hc
    have hD : 0 < D * (1 - 2e-7) - 1 / 2 ^ 73 := lt_of_le_of_lt hT hc
    have h1 : T < (D * (1 - 2e-7) - 1 / 2 ^ 73) ^ 2 := by
      rw [← Real.sq_sqrt t0']; gcongr
    have e : (D * (1 - 2e-7) - 1 / 2 ^ 73) ^ 2 = D ^ 2 * (1 - 2e-7) ^ 2 - (D * (1 - 2e-7) - 1 / 2 ^ 73) * (2 / 2 ^ 73) - 1 / 2 ^ 146 := by ring
    have e2 : D ^ 2 * (1 - 2e-7) ^ 2 ≤ D ^ 2 * (1 - 3.9e-7) := by gcongr; norm_num
    have e3 : 0 ≤ (D * (1 - 2e-7) - 1 / 2 ^ 73) * (2 / 2 ^ 73) := by positivity
    have e4 : (1 : ℝ) / 2 ^ 148 ≤ 1 / 2 ^ 146 := by norm_num
    linarith
  obtain ⟨w4, w5⟩ := _root_.abs_le.1 w3
  rw [_root_.abs_le]
  rw [zpow_neg] at w4 w5
  generalize √T = R at *
  norm_num at *
  constructor <;> linarith

theorem le_iff_val {x y : F32} (hx : x.isFinite = true) (hy : y.isFinite = true) : Arith.le x y = true ↔ x.val ≤ y.val := by
  show (F32.lt x y || F32.eq x y) = true ↔ _
  rw [Bool.or_eq_true, lt_finite hx hy, eq_finite hx hy, decide_eq_true_iff, decide_eq_true_iff, le_iff_lt_or_eq]

/-- The radicand of equal coordinates. -/
theorem zero_rad : (zero false : F32) * zero false + zero false * zero false * (Arith.lit 0.25 : F32) + zero false * zero false = zero false := by
  have e := zero_mul_zero' false false
  rw [show xor false false = false from rfl] at e
  rw [e]
  have h : Zn ((zero false : F32) * (Arith.lit 0.25 : F32)) := Zn.mul (.inr ⟨false, rfl⟩) _
  have f := (quarter (x := zero false) rfl le_rfl (by norm_num [F32.val])).1
  rcases h with h | ⟨s, h⟩
  · rw [h] at f; cases f
  · rw [h, zero_add_zero', Bool.false_and, zero_add_zero', Bool.false_and]

/-- A colour none of whose cone responses is small compared with its components. -/
def Lit (t : Tristimulus F32) : Prop :=
  ∃ C : ℚ, 2 ^ (-60 : ℤ) ≤ C ∧ C ≤ 2 ^ 100 ∧ Within t C ∧ ∀ i, (C : ℝ) / 16 ≤ hpe.mulVec (triV t.real) i

/-- Its ICtCp colour. -/
noncomputable def itp (t : Tristimulus F32) : Fin 3 → ℝ := ictcp (hpe.mulVec (triV t.real))

theorem itp_range {t : Tristimulus F32} (h : Lit t) : |itp t 0| ≤ 1 ∧ |itp t 1| ≤ 4 ∧ |itp t 2| ≤ 5 := by
  obtain ⟨C, C1, -, -, hl⟩ := h
  have C0 : (0 : ℝ) ≤ C := by
    have : (0 : ℚ) ≤ C := le_trans (by positivity) C1
    exact_mod_cast this
  have u : ∀ i, 0 ≤ pq (min (hpe.mulVec (triV t.real) i / 100) 1) ∧ pq (min (hpe.mulVec (triV t.real) i / 100) 1) ≤ 1 :=
    fun i => pq_unit (div_nonneg (le_trans (by positivity) (hl i)) (by norm_num))
  have u0 := u 0
  have u1 := u 1
  have u2 := u 2
  simp only [itp, ictcp, Matrix.cons_val]
  refine ⟨?_, ?_, ?_⟩ <;> rw [abs_le] <;> constructor <;> linarith

end ItpDelta
open ItpDelta

/-- C145: the computed difference of two colours is the one the standard prescribes, up to 7.7e-4 (0.56 of the unit 1/720 in which
the difference is usually stated). -/
theorem C145_accuracy (o : F32.Oracle) (ho : o.PowAccurate (2 ^ (-22 : ℤ))) (hq : o.SqrtAccurate (2 ^ (-23 : ℤ))) (a b : Tristimulus F32)
    (ha : Lit a) (hb : Lit b) : Ap (@Delta.ICtCp F32 (F32.libm o) a b) (itpDist (itp a) (itp b)) 7.7e-4 := by
  obtain ⟨ra, rb, rc⟩ := itp_range ha
  obtain ⟨sa, sb, sc⟩ := itp_range hb
  obtain ⟨C, C1, C2, hw, hl⟩ := ha
  obtain ⟨C', C1', C2', hw', hl'⟩ := hb
  obtain ⟨p1, p2, p3⟩ := C100_encode o ho a C ⟨C1, C2⟩ hw hl
  obtain ⟨q1, q2, q3⟩ := C100_encode o ho b C' ⟨C1', C2'⟩ hw' hl'
  change Ap _ (itp a 0) _ at p1
  change Ap _ (itp a 1) _ at p2
  change Ap _ (itp a 2) _ at p3
  change Ap _ (itp b 0) _ at q1
  change Ap _ (itp b 1) _ at q2
  change Ap _ (itp b 2) _ at q3
  unfold Delta.ICtCp
  generalize @XYZ_to_ICtCp F32 (F32.libm o) a = c at *
  generalize @XYZ_to_ICtCp F32 (F32.libm o) b = d at *
  generalize itp a = e at *
  generalize itp b = f at *
  have bd : ∀ {u : F32} {v η : ℝ}, Ap u v η → η ≤ 1 → |v| ≤ 5 → u.isFinite = true ∧ |u.val| ≤ 2 ^ 50 := by
    intro u v η hu hη hv
    refine ⟨hu.fin, ?_⟩
    have h1 := abs_sub_abs_le_abs_sub (u.val : ℝ) v
    have h2 := hu.err
    have : ((|u.val| : ℚ) : ℝ) ≤ ((2 ^ 50 : ℚ) : ℝ) := by
      push_cast
      have : (6 : ℝ) ≤ 2 ^ 50 := by norm_num
      linarith
    exact_mod_cast this
  obtain ⟨F, E⟩ := last_line o hq c d (by
    intro y hy
    simp only [List.mem_cons, List.not_mem_nil, or_false] at hy
    rcases hy with rfl | rfl | rfl | rfl | rfl | rfl
    · exact bd p1 (by norm_num) (by linarith)
    · exact bd p2 (by norm_num) (by linarith)
    · exact bd p3 (by norm_num) (by linarith)
    · exact bd q1 (by norm_num) (by linarith)
    · exact bd q2 (by norm_num) (by linarith)
    · exact bd q3 (by norm_num) (by linarith)) _ rfl
  refine ⟨F, ?_⟩
  change |((o.sqrtf ((c.a - d.a) * (c.a - d.a) + (c.b - d.b) * (c.b - d.b) * (Arith.lit 0.25 : F32) + (c.c - d.c) * (c.c - d.c))).val : ℝ) - _| ≤ _
  generalize o.sqrtf ((c.a - d.a) * (c.a - d.a) + (c.b - d.b) * (c.b - d.b) * (Arith.lit 0.25 : F32) + (c.c - d.c) * (c.c - d.c)) = z at *
  have k : ∀ {u v u' v' η : ℝ}, |u - u'| ≤ η → |v - v'| ≤ η → (u - v - (u' - v')) ^ 2 ≤ (2 * η) ^ 2 := by
    intro u v u' v' η h1 h2
    rw [show u - v - (u' - v') = (u - u') - (v - v') by ring]
    refine sq_le_sq' ?_ ?_ <;> linarith [(abs_le.1 h1).1, (abs_le.1 h1).2, (abs_le.1 h2).1, (abs_le.1 h2).2]
  have T : |√(((c.a.val : ℝ) - d.a.val) ^ 2 + (((c.b.val : ℝ) - d.b.val) / 2) ^ 2 + ((c.c.val : ℝ) - d.c.val) ^ 2) - itpDist e f| ≤ 7.6e-4 := by
    refine (euclid _ _ _ _ _ _).trans ?_
    have k1 := k p1.err q1.err
    have k2 := k p2.err q2.err
    have k3 := k p3.err q3.err
    rw [Real.sqrt_le_left (by norm_num), ← sub_div, div_pow]
    norm_num at k1 k2 k3 ⊢
    linarith
  have M : itpDist e f ≤ 15 := by
    unfold itpDist
    rw [Real.sqrt_le_left (by norm_num), div_pow]
    have k : ∀ {u v η : ℝ}, |u| ≤ η → |v| ≤ η → (u - v) ^ 2 ≤ (2 * η) ^ 2 := by
      intro u v η h1 h2
      refine sq_le_sq' ?_ ?_ <;> linarith [(abs_le.1 h1).1, (abs_le.1 h1).2, (abs_le.1 h2).1, (abs_le.1 h2).2]
    have k1 := k ra sa
    have k2 := k rb sb
    have k3 := k rc sc
    norm_num at k1 k2 k3 ⊢
    linarith
  have t : (1 / 2 ^ 72 : ℝ) ≤ 1e-7 := by norm_num
  generalize √(((c.a.val : ℝ) - d.a.val) ^ 2 + (((c.b.val : ℝ) - d.b.val) / 2) ^ 2 + ((c.c.val : ℝ) - d.c.val) ^ 2) = D at *
  obtain ⟨T1, T2⟩ := abs_le.1 T
  refine (abs_sub_le _ D _).trans ?_
  linarith

/-- C145: the larger of two differences is computed as the larger, if they differ by more than 1.54e-3. -/
theorem C145_order (o : F32.Oracle) (ho : o.PowAccurate (2 ^ (-22 : ℤ))) (hq : o.SqrtAccurate (2 ^ (-23 : ℤ))) (a b c d : Tristimulus F32)
    (ha : Lit a) (hb : Lit b) (hc : Lit c) (hd : Lit d) (h : itpDist (itp a) (itp b) + 1.54e-3 < itpDist (itp c) (itp d)) :
    (@Delta.ICtCp F32 (F32.libm o) a b).val < (@Delta.ICtCp F32 (F32.libm o) c d).val := by
  have p := abs_le.1 (C145_accuracy o ho hq a b ha hb).err
  have q := abs_le.1 (C145_accuracy o ho hq c d hc hd).err
  have : ((@Delta.ICtCp F32 (F32.libm o) a b).val : ℝ) < (@Delta.ICtCp F32 (F32.libm o) c d).val := by linarith [p.2, q.1]
  exact_mod_cast this

/-- C145: the triangle inequality, up to 2.4e-3. -/
theorem C145_triangle (o : F32.Oracle) (ho : o.PowAccurate (2 ^ (-22 : ℤ))) (hq : o.SqrtAccurate (2 ^ (-23 : ℤ))) (a b c : Tristimulus F32)
    (ha : Lit a) (hb : Lit b) (hc : Lit c) :
    (@Delta.ICtCp F32 (F32.libm o) a c).val ≤ (@Delta.ICtCp F32 (F32.libm o) a b).val + (@Delta.ICtCp F32 (F32.libm o) b c).val + 2.4e-3 := by
  have p := abs_le.1 (C145_accuracy o ho hq a b ha hb).err
  have q := abs_le.1 (C145_accuracy o ho hq b c hb hc).err
  have r := abs_le.1 (C145_accuracy o ho hq a c ha hc).err
  have t := triangle (itp a) (itp b) (itp c)
  have : ((@Delta.ICtCp F32 (F32.libm o) a c).val : ℝ) ≤
      (((@Delta.ICtCp F32 (F32.libm o) a b).val + (@Delta.ICtCp F32 (F32.libm o) b c).val + 2.4e-3 : ℚ) : ℝ) := by
    push_cast; norm_num at *; linarith [p.1, q.1, r.2]
  exact_mod_cast this

/-- C145: a colour has no difference from itself. -/
theorem C145_self (o : F32.Oracle) (ho : o.PowAccurate (2 ^ (-22 : ℤ))) (hq : o.SqrtAccurate (2 ^ (-23 : ℤ))) (a : Tristimulus F32)
    (ha : Lit a) : (@Delta.ICtCp F32 (F32.libm o) a a).isFinite = true ∧ (@Delta.ICtCp F32 (F32.libm o) a a).val = 0 := by
  refine ⟨(C145_accuracy o ho hq a a ha ha).fin, ?_⟩
  obtain ⟨C, C1, C2, hw, hl⟩ := ha
  obtain ⟨p1, p2, p3⟩ := C100_encode o ho a C ⟨C1, C2⟩ hw hl
  unfold Delta.ICtCp
  generalize @XYZ_to_ICtCp F32 (F32.libm o) a = c at *
  have e : (c.a - c.a) * (c.a - c.a) + (c.b - c.b) * (c.b - c.b) * (Arith.lit 0.25 : F32) + (c.c - c.c) * (c.c - c.c) = .zero false := by
    rw [sub_self_finite p1.fin, sub_self_finite p2.fin, sub_self_finite p3.fin]
    exact zero_rad
  change (o.sqrtf ((c.a - c.a) * (c.a - c.a) + (c.b - c.b) * (c.b - c.b) * (Arith.lit 0.25 : F32) + (c.c - c.c) * (c.c - c.c))).val = 0
  rw [e]
  obtain ⟨-, h⟩ := hq (.zero false) rfl le_rfl
  have : ((F32.zero false).val : ℝ) = 0 := by simp [F32.val]
  rw [this, Real.sqrt_zero, mul_zero, sub_zero] at h
  have := abs_nonpos_iff.1 h
  exact_mod_cast this

/-- C145: no difference is seen between colours above the peak of the PQ curve, however much they differ. -/
theorem C145_peak (o : F32.Oracle) (hq : o.SqrtAccurate (2 ^ (-23 : ℤ))) (a b : Tristimulus F32) (ha : Lit a) (hb : Lit b)
    (pa : ∀ i, 100.001 ≤ hpe.mulVec (triV a.real) i) (pb : ∀ i, 100.001 ≤ hpe.mulVec (triV b.real) i) :
    (@Delta.ICtCp F32 (F32.libm o) a b).isFinite = true ∧ (@Delta.ICtCp F32 (F32.libm o) a b).val = 0 := by
  have sat : ∀ {u : F32} {l : ℝ}, u.isFinite = true → 100.001 ≤ l → |(u.val : ℝ) - l| ≤ 6.8e-6 * l → @Y_to_ST2084 F32 (F32.libm o) u = Arith.lit 1 := by
    intro u l hu hl h
    obtain ⟨h1, h2⟩ := abs_le.1 h
    have h3 : ((100 : ℚ) : ℝ) ≤ u.val := by push_cast; linarith
    have h4 : (100 : ℚ) ≤ u.val := by exact_mod_cast h3
    have z : (Arith.lit 0 : F32).isFinite = true ∧ (Arith.lit 0 : F32).val = 0 := by decide +kernel
    have c : (Arith.lit 100 : F32).isFinite = true ∧ (Arith.lit 100 : F32).val = 100 := by decide +kernel
    unfold Y_to_ST2084
    rw [if_neg, if_pos]
    · exact (le_iff_val c.1 hu).2 (by rw [c.2]; exact h4)
    · intro k
      have := (le_iff_val hu z.1).1 k
      rw [z.2] at this; linarith
  have enc : ∀ {t : Tristimulus F32}, Lit t → (∀ i, 100.001 ≤ hpe.mulVec (triV t.real) i) →
      @XYZ_to_ICtCp F32 (F32.libm o) t = @pqToICtCp F32 (F32.libm o) ⟨Arith.lit 1, Arith.lit 1, Arith.lit 1⟩ := by
    intro t ht p
    obtain ⟨C, C1, C2, hw, hl⟩ := ht
    obtain ⟨-, ⟨f0, g0⟩, ⟨f1, g1⟩, f2, g2⟩ := cones o t C ⟨C1, C2⟩ hw hl
    show @pqToICtCp F32 (F32.libm o) ⟨_, _, _⟩ = _
    rw [sat f0 (p 0) g0, sat f1 (p 1) g1, sat f2 (p 2) g2]
  have fin : ((Arith.lit 1 + Arith.lit 1) * Arith.lit 0.5 : F32).isFinite = true ∧
      ((Arith.lit 6610 * Arith.lit 1 - Arith.lit 13613 * Arith.lit 1 + Arith.lit 7003 * Arith.lit 1) / Arith.lit 4096 : F32).isFinite = true ∧
      ((Arith.lit 17933 * Arith.lit 1 - Arith.lit 17390 * Arith.lit 1 - Arith.lit 543 * Arith.lit 1) / Arith.lit 4096 : F32).isFinite = true := by
    decide +kernel
  unfold Delta.ICtCp
  rw [enc ha pa, enc hb pb]
  obtain ⟨p1, p2, p3⟩ := fin
  change (@pqToICtCp F32 (F32.libm o) ⟨Arith.lit 1, Arith.lit 1, Arith.lit 1⟩).a.isFinite = true at p1
  change (@pqToICtCp F32 (F32.libm o) ⟨Arith.lit 1, Arith.lit 1, Arith.lit 1⟩).b.isFinite = true at p2
  change (@pqToICtCp F32 (F32.libm o) ⟨Arith.lit 1, Arith.lit 1, Arith.lit 1⟩).c.isFinite = true at p3
  generalize @pqToICtCp F32 (F32.libm o) ⟨Arith.lit 1, Arith.lit 1, Arith.lit 1⟩ = c at *
  have e : (c.a - c.a) * (c.a - c.a) + (c.b - c.b) * (c.b - c.b) * (Arith.lit 0.25 : F32) + (c.c - c.c) * (c.c - c.c) = .zero false := by
    rw [sub_self_finite p1, sub_self_finite p2, sub_self_finite p3]
    exact zero_rad
  change (o.sqrtf ((c.a - c.a) * (c.a - c.a) + (c.b - c.b) * (c.b - c.b) * (Arith.lit 0.25 : F32) + (c.c - c.c) * (c.c - c.c))).isFinite = true ∧
    (o.sqrtf ((c.a - c.a) * (c.a - c.a) + (c.b - c.b) * (c.b - c.b) * (Arith.lit 0.25 : F32) + (c.c - c.c) * (c.c - c.c))).val = 0
  rw [e]
  obtain ⟨g, h⟩ := hq (.zero false) rfl le_rfl
  refine ⟨g, ?_⟩
  have : ((F32.zero false).val : ℝ) = 0 := by simp [F32.val]
  rw [this, Real.sqrt_zero, mul_zero, sub_zero] at h
  have := abs_nonpos_iff.1 h
  exact_mod_cast this

/-- The hypotheses of `C145_peak` are met, for instance by `X = Y = Z = 200`. -/
example : let t : Tristimulus F32 := ⟨Arith.lit 200, Arith.lit 200, Arith.lit 200⟩
    Lit t ∧ ∀ i, 100.001 ≤ hpe.mulVec (triV t.real) i := by
  have e : (Arith.lit 200 : F32).val = 200 := by decide +kernel
  refine ⟨⟨200, by norm_num, by norm_num, ⟨by decide +kernel, by decide +kernel, by decide +kernel⟩, ?_⟩, ?_⟩ <;>
    intro i <;> fin_cases i <;>
    norm_num [Tristimulus.real, e, hpe, triV, Matrix.mulVec, dotProduct, Fin.sum_univ_three] <;>
    simp only [Matrix.cons_val] <;> norm_num

/-- The hypotheses are met, for instance by `X = Y = Z = 1`. -/
example : Lit ⟨Arith.lit 1, Arith.lit 1, Arith.lit 1⟩ := by
  have e : (Arith.lit 1 : F32).val = 1 := by decide +kernel
  refine ⟨1, by norm_num, by norm_num, ⟨by decide +kernel, by decide +kernel, by decide +kernel⟩, ?_⟩
  intro i; fin_cases i <;>
    norm_num [Tristimulus.real, e, hpe, triV, Matrix.mulVec, dotProduct, Fin.sum_univ_three] <;>
    simp only [Matrix.cons_val] <;> norm_num

end CS
