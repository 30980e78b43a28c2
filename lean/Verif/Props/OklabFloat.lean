import Verif.Props.GamutFloat
import Verif.Lemmas.FloatLibm
import Verif.Props.Delta

/-!
# C97: OKLAB in binary32
-/

namespace CS
open B32 F32

/-- Finite entries of magnitude at most 8 and rows of absolute sum at most `s`. -/
def smallRows (m : Matrix3 F32) (s : ℚ) : Bool := small m &&
  decide (|m.m0.val| + |m.m1.val| + |m.m2.val| ≤ s) && decide (|m.m3.val| + |m.m4.val| + |m.m5.val| ≤ s) &&
  decide (|m.m6.val| + |m.m7.val| + |m.m8.val| ≤ s)

/-- The exact value of a row. -/
def rowV (a b c : F32) (v : Vector3 F32) : ℚ := a.val * v.x.val + b.val * v.y.val + c.val * v.z.val

theorem row_abs {a b c x y z C s : ℚ} (hs : |a| + |b| + |c| ≤ s) (hx : |x| ≤ C) (hy : |y| ≤ C) (hz : |z| ≤ C) :
    |a * x| + |b * y| + |c * z| ≤ s * C := by
  have hC : 0 ≤ C := (abs_nonneg _).trans hx
  rw [abs_mul, abs_mul, abs_mul]
  have := mul_le_mul_of_nonneg_left hx (abs_nonneg a)
  have := mul_le_mul_of_nonneg_left hy (abs_nonneg b)
  have := mul_le_mul_of_nonneg_left hz (abs_nonneg c)
  nlinarith [mul_le_mul_of_nonneg_right hs hC]

theorem rows_error {m : Matrix3 F32} {s : ℚ} (h : smallRows m s = true) (v : Vector3 F32) {C : ℚ} (hC : C ≤ 2 ^ 100)
    (hx : Bd v.x C) (hy : Bd v.y C) (hz : Bd v.z C) :
    let w := m.apply v
    (w.x.isFinite = true ∧ w.y.isFinite = true ∧ w.z.isFinite = true) ∧
    |w.x.val - rowV m.m0 m.m1 m.m2 v| ≤ s * C / 2 ^ 22 + 1 / 2 ^ 148 ∧
    |w.y.val - rowV m.m3 m.m4 m.m5 v| ≤ s * C / 2 ^ 22 + 1 / 2 ^ 148 ∧
    |w.z.val - rowV m.m6 m.m7 m.m8 v| ≤ s * C / 2 ^ 22 + 1 / 2 ^ 148 := by
  intro w
  simp only [smallRows, Bool.and_eq_true, decide_eq_true_eq] at h
  obtain ⟨⟨⟨hm, s1⟩, s2⟩, s3⟩ := h
  simp only [small, List.all_cons, List.all_nil, Bool.and_true, Bool.and_eq_true, decide_eq_true_eq] at hm
  obtain ⟨h0, h1, h2, h3, h4, h5, h6, h7, h8⟩ := hm
  have up : ∀ {x : F32}, Bd x C → Bd x (2 ^ 100) := fun h => ⟨h.fin, h.le.trans hC⟩
  have p := row_bd (by norm_num) ⟨h0.1, h0.2⟩ ⟨h1.1, h1.2⟩ ⟨h2.1, h2.2⟩ (up hx) (up hy) (up hz)
  have q := row_bd (by norm_num) ⟨h3.1, h3.2⟩ ⟨h4.1, h4.2⟩ ⟨h5.1, h5.2⟩ (up hx) (up hy) (up hz)
  have r := row_bd (by norm_num) ⟨h6.1, h6.2⟩ ⟨h7.1, h7.2⟩ ⟨h8.1, h8.2⟩ (up hx) (up hy) (up hz)
  refine ⟨⟨p.fin, q.fin, r.fin⟩, ?_, ?_, ?_⟩
  · refine (dot3_error _ _ _ _ _ _ p.fin).trans ?_
    have := row_abs s1 hx.le hy.le hz.le
    gcongr
  · refine (dot3_error _ _ _ _ _ _ q.fin).trans ?_
    have := row_abs s2 hx.le hy.le hz.le
    gcongr
  · refine (dot3_error _ _ _ _ _ _ r.fin).trans ?_
    have := row_abs s3 hx.le hy.le hz.le
    gcongr

theorem rowV_le {a b c : F32} {v : Vector3 F32} {C s : ℚ} (hs : |a.val| + |b.val| + |c.val| ≤ s) (hx : |v.x.val| ≤ C)
    (hy : |v.y.val| ≤ C) (hz : |v.z.val| ≤ C) : |rowV a b c v| ≤ s * C :=
  (abs_add_three _ _ _).trans (row_abs hs hx hy hz)

/-- The matrices as floats. -/
def okM1 : Matrix3 F32 :=
  ⟨lit 0.8189330101, lit 0.3618667424, lit (-0.1288597137), lit (-0.0329845436), lit 0.9293118715,
   lit 0.0361456387, lit 0.0482003018, lit 0.2643662691, lit 0.6338517070⟩
/-- The second matrix. -/
def okM2 : Matrix3 F32 :=
  ⟨lit 0.2104542553, lit 0.7936177850, lit (-0.0040720468), lit 1.9779984951, lit (-2.4285922050),
   lit 0.4505937099, lit 0.0259040371, lit 0.7827717662, lit (-0.8086757660)⟩

set_option maxRecDepth 100000 in
theorem oklab_tables : (undoes okM1 okM1.invert && undoes okM2 okM2.invert && smallRows okM1 1.3097 &&
      smallRows okM1.invert 2.1 && smallRows okM2 4.8572) = true := by
  decide +kernel

theorem oklabM1_eq (o : F32.Oracle) : @oklabM1 F32 (F32.libm o) = okM1 := rfl
theorem oklabM2_eq (o : F32.Oracle) : @oklabM2 F32 (F32.libm o) = okM2 := rfl

/-- The cube of a float near `r`. -/
theorem cube_error {w : F32} {r R : ℝ} (hw : w.isFinite = true) (hR1 : 2 ^ (-20 : ℤ) ≤ R) (hR2 : R ≤ 2 ^ (21 : ℤ)) (hr : |r| ≤ R)
    (h : |(w.val : ℝ) - r| ≤ 4.3e-6 * R) :
    (w * w * w).isFinite = true ∧ |((w * w * w).val : ℝ) - r ^ 3| ≤ 1.31e-5 * R ^ 3 := by
  have R0 : 0 < R := lt_of_lt_of_le (by positivity) hR1
  have hwR : |(w.val : ℝ)| ≤ 1.000005 * R := by
    have := abs_sub_abs_le_abs_sub (w.val : ℝ) r
    linarith
  have hw22 : |w.val| ≤ (2 : ℚ) ^ 22 := by
    have : ((|w.val| : ℚ) : ℝ) ≤ ((2 ^ 22 : ℚ) : ℝ) := by
      push_cast
      norm_num at hR2 ⊢
      linarith
    exact_mod_cast this
  have f1 : Bd (w * w) (2 ^ 44) := by
    rw [mul_def, mul_finite hw hw]
    refine pack_bd (CS.rep_pow _) (by norm_num) ?_
    rw [abs_mul, show (2 : ℚ) ^ 44 = 2 ^ 22 * 2 ^ 22 by norm_num]
    exact mul_le_mul hw22 hw22 (abs_nonneg _) (by norm_num)
  have f2 : Bd (w * w * w) (2 ^ 66) := by
    rw [mul_def (w * w), mul_finite f1.fin hw]
    refine pack_bd (CS.rep_pow _) (by norm_num) ?_
    rw [abs_mul, show (2 : ℚ) ^ 66 = 2 ^ 44 * 2 ^ 22 by norm_num]
    exact mul_le_mul f1.le hw22 (abs_nonneg _) (by norm_num)
  refine ⟨f2.fin, ?_⟩
  have v1 := mul_val f1.fin
  have v2 := mul_val f2.fin
  have e1 := rnd_rel' (w.val * w.val)
  have e2 := rnd_rel' ((w * w).val * w.val)
  rw [← v1] at e1
  rw [← v2] at e2
  have e1' : |((w * w).val : ℝ) - w.val * w.val| ≤ |(w.val : ℝ) * w.val| / 2 ^ 24 + 1 / 2 ^ 150 := by
    have := (Rat.cast_le (K := ℝ)).2 e1; push_cast at this; exact this
  have e2' : |((w * w * w).val : ℝ) - (w * w).val * w.val| ≤ |((w * w).val : ℝ) * w.val| / 2 ^ 24 + 1 / 2 ^ 150 := by
    have := (Rat.cast_le (K := ℝ)).2 e2; push_cast at this; exact this
  generalize ((w * w).val : ℝ) = p at *
  generalize ((w * w * w).val : ℝ) = q at *
  generalize (w.val : ℝ) = x at *
  clear e1 e2 v1 v2 f1 f2 hw22 hw
  have R2 : 2 ^ (-40 : ℤ) ≤ R ^ 2 := by
    have := mul_le_mul hR1 hR1 (by positivity) R0.le
    rw [sq]
    refine le_trans (le_of_eq ?_) this
    norm_num
  have R3 : 2 ^ (-60 : ℤ) ≤ R ^ 3 := by
    have := mul_le_mul R2 hR1 (by positivity) (by positivity)
    rw [← pow_succ] at this
    exact le_trans (le_of_eq (by norm_num)) this
  have x2 : |x * x| ≤ 1.00001001 * R ^ 2 := by
    rw [abs_mul]
    have := mul_le_mul hwR hwR (abs_nonneg _) (by positivity)
    refine this.trans ?_
    nlinarith
  have p1 : |p - x * x| ≤ 6e-8 * R ^ 2 := by
    refine e1'.trans ?_
    generalize |x * x| = y at *
    norm_num at R2 x2 ⊢
    linarith
  have p2 : |p| ≤ 1.00002 * R ^ 2 := by
    have := abs_sub_abs_le_abs_sub p (x * x)
    have : 0 < R ^ 2 := by positivity
    linarith
  have q1 : |q - p * x| ≤ 6e-8 * R ^ 3 := by
    refine e2'.trans ?_
    rw [abs_mul]
    have := mul_le_mul p2 hwR (abs_nonneg _) (by positivity)
    have e : 1.00002 * R ^ 2 * (1.000005 * R) = 1.0000250001 * R ^ 3 := by ring
    rw [e] at this
    norm_num at R3 this ⊢
    linarith
  have q2 : |p * x - x * x * x| ≤ 6.1e-8 * R ^ 3 := by
    rw [← sub_mul, abs_mul]
    have := mul_le_mul p1 hwR (abs_nonneg _) (by positivity)
    refine this.trans ?_
    have : 0 < R ^ 3 := by positivity
    nlinarith
  have q3 : |x * x * x - r ^ 3| ≤ 1.2901e-5 * R ^ 3 := by
    rw [show x * x * x - r ^ 3 = (x - r) * (x * x + x * r + r * r) by ring, abs_mul]
    have h1 : |x * x + x * r + r * r| ≤ 3.00002 * R ^ 2 := by
      refine (abs_add_three _ _ _).trans ?_
      have a1 : |x * r| ≤ 1.000005 * R * R := by
        rw [abs_mul]; exact mul_le_mul hwR hr (abs_nonneg _) (by positivity)
      have a2 : |r * r| ≤ R * R := by
        rw [abs_mul]; exact mul_le_mul hr hr (abs_nonneg _) (by positivity)
      nlinarith
    have := mul_le_mul h h1 (abs_nonneg _) (by positivity)
    refine this.trans ?_
    have : 0 < R ^ 3 := by positivity
    nlinarith
  rw [show q - r ^ 3 = (q - p * x) + (p * x - x * x * x) + (x * x * x - r ^ 3) by ring]
  refine (abs_add_three _ _ _).trans ?_
  have : 0 < R ^ 3 := by positivity
  linarith

/-- A real cube root. -/
theorem exists_cbrt (x : ℝ) : ∃ r : ℝ, r ^ 3 = x := ⟨Libm.cbrtf x, by
  rw [show ∀ y : ℝ, y ^ 3 = y * y * y by intro y; ring]; exact cbrt_cube x⟩

theorem abs_le_of_cube {r R : ℝ} (hR : 0 ≤ R) (h : |r ^ 3| ≤ R ^ 3) : |r| ≤ R := by
  rw [abs_pow] at h
  exact le_of_pow_le_pow_left₀ (by norm_num) hR h

/-- Root, mix, unmix, cube: the cone responses come back. -/
theorem cones_error {o : F32.Oracle} (ho : o.CbrtAccurate (2 ^ (-22 : ℤ))) (l : Tristimulus F32) {Λ : ℚ}
    (h1 : 1 / 2 ^ 60 ≤ Λ) (h2 : Λ ≤ 2 ^ 61) (hl : Within l Λ) :
    letI := F32.libm o
    let d : Tristimulus F32 := ((⟨Libm.cbrtf l.a, Libm.cbrtf l.b, Libm.cbrtf l.c⟩ : Tristimulus F32).apply oklabM2).apply oklabM2.invert
    Near ⟨d.a * d.a * d.a, d.b * d.b * d.b, d.c * d.c * d.c⟩ l (1.31e-5 * Λ) := by
  intro d
  have T := oklab_tables
  simp only [Bool.and_eq_true] at T
  obtain ⟨R, hR⟩ := exists_cbrt (Λ : ℝ)
  have Λ0 : (0 : ℝ) < Λ := by
    have : (0 : ℚ) < Λ := lt_of_lt_of_le (by positivity) h1
    exact_mod_cast this
  have R0 : 0 < R := by
    by_contra h
    rw [← hR] at Λ0
    have : R ^ 3 ≤ 0 := by
      have := mul_nonneg (sq_nonneg R) (show 0 ≤ -R by linarith)
      nlinarith
    linarith
  have hR1 : 2 ^ (-20 : ℤ) ≤ R := by
    refine le_of_pow_le_pow_left₀ (n := 3) (by norm_num) R0.le ?_
    rw [hR]
    have : ((1 / 2 ^ 60 : ℚ) : ℝ) ≤ Λ := by exact_mod_cast h1
    refine le_trans (le_of_eq ?_) this
    norm_num
  have hR2 : R ≤ 2 ^ (21 : ℤ) := by
    refine le_of_pow_le_pow_left₀ (n := 3) (by norm_num) (by positivity) ?_
    rw [hR]
    have : (Λ : ℝ) ≤ ((2 ^ 61 : ℚ) : ℝ) := by exact_mod_cast h2
    refine this.trans ?_
    norm_num
  have root : ∀ x : F32, x.isFinite = true → |x.val| ≤ Λ → ∃ r : ℝ, r ^ 3 = x.val ∧ |r| ≤ R ∧
      (o.cbrtf x).isFinite = true ∧ |((o.cbrtf x).val : ℝ) - r| ≤ 2 ^ (-22 : ℤ) * R := by
    intro x hx hxl
    obtain ⟨r, hr⟩ := exists_cbrt (x.val : ℝ)
    obtain ⟨f, e⟩ := ho x hx r hr
    have hrR : |r| ≤ R := abs_le_of_cube R0.le (by rw [hr, hR]; exact_mod_cast hxl)
    exact ⟨r, hr, hrR, f, e.trans (by gcongr)⟩
  obtain ⟨⟨fa, la⟩, ⟨fb, lb⟩, fc, lc⟩ := hl
  obtain ⟨ra, ca, ba, ga, ea⟩ := root _ fa la
  obtain ⟨rb, cb, bb, gb, eb⟩ := root _ fb lb
  obtain ⟨rc, cc, bc, gc, ec⟩ := root _ fc lc
  let D : ℚ := max |(o.cbrtf l.a).val| (max |(o.cbrtf l.b).val| |(o.cbrtf l.c).val|)
  have hD : (D : ℝ) ≤ 1.0000003 * R := by
    have one : ∀ {x r : ℝ}, |r| ≤ R → |x - r| ≤ 2 ^ (-22 : ℤ) * R → |x| ≤ 1.0000003 * R := by
      intro x r hr hx
      have := abs_sub_abs_le_abs_sub x r
      norm_num at hx ⊢
      linarith
    simp only [D]
    push_cast
    exact max_le (one ba ea) (max_le (one bb eb) (one bc ec))
  have hD2 : D ≤ 2 ^ 100 := by
    have : (D : ℝ) ≤ ((2 ^ 100 : ℚ) : ℝ) := by
      norm_num at hR2 ⊢
      linarith
    exact_mod_cast this
  obtain ⟨⟨k1, k2, k3⟩, u1, u2, u3⟩ := undoes_error T.1.1.1.2 ⟨o.cbrtf l.a, o.cbrtf l.b, o.cbrtf l.c⟩ hD2
    ⟨ga, le_max_left _ _⟩ ⟨gb, (le_max_left _ _).trans (le_max_right _ _)⟩
    ⟨gc, (le_max_right _ _).trans (le_max_right _ _)⟩
  have fin : ∀ {w x : F32} {r : ℝ} {y : ℚ}, w.isFinite = true → |r| ≤ R → r ^ 3 = y →
      |(x.val : ℝ) - r| ≤ 2 ^ (-22 : ℤ) * R → |w.val - x.val| ≤ 4e-6 * D + 1 / 2 ^ 140 →
      (w * w * w).isFinite = true ∧ |(w * w * w).val - y| ≤ 1.31e-5 * Λ := by
    intro w x r y hw hr hy hx hu
    have hu' : |(w.val : ℝ) - x.val| ≤ 4e-6 * D + 1 / 2 ^ 140 := by
      have := (Rat.cast_le (K := ℝ)).2 hu
      push_cast at this
      refine this.trans (le_of_eq (by norm_num))
    have := cube_error hw hR1 hR2 hr (by
      have := _root_.abs_sub_le (w.val : ℝ) x.val r
      generalize (w.val : ℝ) = p at *
      generalize (x.val : ℝ) = q at *
      norm_num at hx hu' hR1 ⊢
      linarith)
    refine ⟨this.1, ?_⟩
    have h3 := this.2
    rw [hR, hy] at h3
    rw [← Rat.cast_le (K := ℝ)]
    push_cast
    refine h3.trans (le_of_eq (by norm_num))
  obtain ⟨a1, a2⟩ := fin k1 ba ca ea u1
  obtain ⟨b1, b2⟩ := fin k2 bb cb eb u2
  obtain ⟨c1, c2⟩ := fin k3 bc cc ec u3
  exact ⟨⟨a1, b1, c1⟩, a2, b2, c2⟩

/-- C97: in binary32, with a `cbrtf` good to 2^-22, XYZ → OKLAB → XYZ never overflows and changes no component of a
colour by more than 4.2e-5 of (a bound for) the largest, negative and zero cone responses included. -/
theorem C97_xyz_roundtrip (o : F32.Oracle) (ho : o.CbrtAccurate (2 ^ (-22 : ℤ))) (t : Tristimulus F32) (C : ℚ)
    (h1 : 1 / 2 ^ 60 ≤ C) (h2 : C ≤ 2 ^ 60) (ht : Within t C) :
    letI := F32.libm o
    Near (OKLAB_to_XYZ (XYZ_to_OKLAB t)) t (4.2e-5 * C) := by
  have T := oklab_tables
  simp only [Bool.and_eq_true] at T
  obtain ⟨⟨⟨⟨t1, t2⟩, t3⟩, t4⟩, t5⟩ := T
  obtain ⟨⟨fa, la⟩, ⟨fb, lb⟩, fc, lc⟩ := ht
  have big : C ≤ 2 ^ 100 := h2.trans (by norm_num)
  obtain ⟨⟨k1, k2, k3⟩, e1, e2, e3⟩ := rows_error t3 t.vec3 big ⟨fa, la⟩ ⟨fb, lb⟩ ⟨fc, lc⟩
  have hs := t3
  simp only [smallRows, Bool.and_eq_true, decide_eq_true_eq] at hs
  obtain ⟨⟨⟨-, s1⟩, s2⟩, s3⟩ := hs
  have r1 := rowV_le (v := t.vec3) s1 la lb lc
  have r2 := rowV_le (v := t.vec3) s2 la lb lc
  have r3 := rowV_le (v := t.vec3) s3 la lb lc
  have bd : ∀ {p q : ℚ}, |p - q| ≤ 1.3097 * C / 2 ^ 22 + 1 / 2 ^ 148 → |q| ≤ 1.3097 * C → |p| ≤ 1.31 * C := by
    intro p q h3 h4
    have := abs_sub_abs_le_abs_sub p q
    norm_num at h1 h3 h4 ⊢
    linarith
  set l : Tristimulus F32 := @Tristimulus.apply F32 (F32.libm o).toArith t (@oklabM1 F32 (F32.libm o)) with hl
  have hlW : Within l (1.31 * C) := ⟨⟨k1, bd e1 r1⟩, ⟨k2, bd e2 r2⟩, k3, bd e3 r3⟩
  have N := cones_error ho l (Λ := 1.31 * C) (by linarith) (by linarith) hlW
  let := F32.libm o
  show Near (OKLAB_to_XYZ (XYZ_to_OKLAB t)) t (4.2e-5 * C)
  rw [show OKLAB_to_XYZ (XYZ_to_OKLAB t) = Tristimulus.apply ⟨_, _, _⟩ (oklabM1.invert) from rfl]
  simp only at N
  set d : Tristimulus F32 := ((⟨Libm.cbrtf l.a, Libm.cbrtf l.b, Libm.cbrtf l.c⟩ : Tristimulus F32).apply oklabM2).apply oklabM2.invert
  obtain ⟨⟨m1, m2, m3⟩, n1, n2, n3⟩ := N
  have bd2 : ∀ {p q : ℚ}, |p - q| ≤ 1.31e-5 * (1.31 * C) → |q| ≤ 1.31 * C → |p| ≤ 1.3101 * C := by
    intro p q h3 h4
    have := abs_sub_abs_le_abs_sub p q
    linarith
  have big2 : 1.3101 * C ≤ 2 ^ 100 := by linarith
  obtain ⟨F, g1, g2, g3⟩ := rows_error t4 ⟨d.a * d.a * d.a, d.b * d.b * d.b, d.c * d.c * d.c⟩ big2
    ⟨m1, bd2 n1 hlW.1.2⟩ ⟨m2, bd2 n2 hlW.2.1.2⟩ ⟨m3, bd2 n3 hlW.2.2.2⟩
  obtain ⟨-, g4, g5, g6⟩ := rows_error t4 l.vec3 (show 1.31 * C ≤ 2 ^ 100 by linarith)
    ⟨hlW.1.1, hlW.1.2⟩ ⟨hlW.2.1.1, hlW.2.1.2⟩ ⟨hlW.2.2.1, hlW.2.2.2⟩
  obtain ⟨-, i1, i2, i3⟩ := undoes_error t1 t.vec3 big ⟨fa, la⟩ ⟨fb, lb⟩ ⟨fc, lc⟩
  have hs := t4
  simp only [smallRows, Bool.and_eq_true, decide_eq_true_eq] at hs
  obtain ⟨⟨⟨-, s1⟩, s2⟩, s3⟩ := hs
  have diff : ∀ {a b c : F32} {u v : Vector3 F32}, |a.val| + |b.val| + |c.val| ≤ 2.1 →
      |u.x.val - v.x.val| ≤ 1.31e-5 * (1.31 * C) → |u.y.val - v.y.val| ≤ 1.31e-5 * (1.31 * C) →
      |u.z.val - v.z.val| ≤ 1.31e-5 * (1.31 * C) → |rowV a b c u - rowV a b c v| ≤ 2.1 * (1.31e-5 * (1.31 * C)) := by
    intro a b c u v hs h1 h2 h3
    rw [show rowV a b c u - rowV a b c v = a.val * (u.x.val - v.x.val) + b.val * (u.y.val - v.y.val) +
      c.val * (u.z.val - v.z.val) by simp only [rowV]; ring]
    exact (abs_add_three _ _ _).trans (row_abs hs h1 h2 h3)
  have done : ∀ {f p q g x : ℚ}, |f - p| ≤ 2.1 * (1.3101 * C) / 2 ^ 22 + 1 / 2 ^ 148 →
      |p - q| ≤ 2.1 * (1.31e-5 * (1.31 * C)) → |g - q| ≤ 2.1 * (1.31 * C) / 2 ^ 22 + 1 / 2 ^ 148 →
      |g - x| ≤ 4e-6 * C + 1 / 2 ^ 140 → |f - x| ≤ 4.2e-5 * C := by
    intro f p q g x a b c d
    rw [abs_le] at a b c d ⊢
    norm_num at a b c d h1 ⊢
    constructor <;> linarith
  exact ⟨F, done g1 (diff s1 n1 n2 n3) g4 i1, done g2 (diff s2 n1 n2 n3) g5 i2, done g3 (diff s3 n1 n2 n3) g6 i3⟩

/-- C97: so 13-bit code values of a colour survive the trip through OKLAB. -/
theorem C97_codes (o : F32.Oracle) (ho : o.CbrtAccurate (2 ^ (-22 : ℤ))) (i j k : ℕ) (hi : i ≤ 8191) (hj : j ≤ 8191)
    (hk : k ≤ 8191) :
    letI := F32.libm o
    let t : Tristimulus F32 := OKLAB_to_XYZ (XYZ_to_OKLAB ⟨lit ((i : ℚ) / 8191), lit ((j : ℚ) / 8191), lit ((k : ℚ) / 8191)⟩)
    |8191 * t.a.val - i| < 1 / 2 ∧ |8191 * t.b.val - j| < 1 / 2 ∧ |8191 * t.c.val - k| < 1 / 2 := by
  have one : Rep 1 := by exact_mod_cast rep_int (n := 1) (by norm_num)
  have hl : ∀ n : ℕ, n ≤ 8191 → Spectrum.NN (lit ((n : ℚ) / 8191)) 1 ∧
      |(lit ((n : ℚ) / 8191) : F32).val - n / 8191| ≤ 1 / 2 ^ 23 := by
    intro n hn
    have hq : (n : ℚ) / 8191 ≤ 1 := by
      rw [div_le_one (by norm_num)]; exact_mod_cast hn
    obtain ⟨h1, h2⟩ := Spectrum.pack_nn (s := false) (q := (n : ℚ) / 8191) (by positivity) one (by norm_num) hq
    refine ⟨h1, ?_⟩
    rw [lit_def, h2]
    refine (rnd_rel' _).trans ?_
    rw [abs_of_nonneg (by positivity)]
    have : (n : ℚ) / 8191 / 2 ^ 24 ≤ 1 / 2 ^ 24 := by gcongr
    refine (add_le_add_left this _).trans (by norm_num)
  obtain ⟨n1, e1⟩ := hl i hi
  obtain ⟨n2, e2⟩ := hl j hj
  obtain ⟨n3, e3⟩ := hl k hk
  obtain ⟨-, d1, d2, d3⟩ := C97_xyz_roundtrip o ho ⟨lit ((i : ℚ) / 8191), lit ((j : ℚ) / 8191), lit ((k : ℚ) / 8191)⟩ 1
    (by norm_num) (by norm_num)
    ⟨⟨n1.fin, abs_le.2 ⟨by linarith [n1.nonneg], n1.le⟩⟩, ⟨n2.fin, abs_le.2 ⟨by linarith [n2.nonneg], n2.le⟩⟩,
      n3.fin, abs_le.2 ⟨by linarith [n3.nonneg], n3.le⟩⟩
  have fin : ∀ {x y : ℚ} {n : ℕ}, |y - n / 8191| ≤ 1 / 2 ^ 23 → |x - y| ≤ 4.2e-5 * 1 → |8191 * x - n| < 1 / 2 := by
    intro x y n h1 h2
    obtain ⟨h3, h4⟩ := abs_le.mp h1
    obtain ⟨h5, h6⟩ := abs_le.mp h2
    rw [abs_lt]
    norm_num at *
    constructor <;> linarith
  exact ⟨fin e1 d1, fin e2 d2, fin e3 d3⟩

set_option maxRecDepth 100000 in
/-- The literals against the decimals of the source text. -/
theorem oklab_literals :
    (|okM1.m0.val - 0.8189330101| + |okM1.m1.val - 0.3618667424| + |okM1.m2.val - (-0.1288597137)| ≤ 6e-8 ∧
     |okM1.m3.val - (-0.0329845436)| + |okM1.m4.val - 0.9293118715| + |okM1.m5.val - 0.0361456387| ≤ 6e-8 ∧
     |okM1.m6.val - 0.0482003018| + |okM1.m7.val - 0.2643662691| + |okM1.m8.val - 0.6338517070| ≤ 6e-8) ∧
    |okM2.m0.val - 0.2104542553| + |okM2.m1.val - 0.7936177850| + |okM2.m2.val - (-0.0040720468)| ≤ 3e-7 ∧
     |okM2.m3.val - 1.9779984951| + |okM2.m4.val - (-2.4285922050)| + |okM2.m5.val - 0.4505937099| ≤ 3e-7 ∧
     |okM2.m6.val - 0.0259040371| + |okM2.m7.val - 0.7827717662| + |okM2.m8.val - (-0.8086757660)| ≤ 3e-7 := by
  decide +kernel

theorem row_absR {a b c x y z C s : ℝ} (hs : |a| + |b| + |c| ≤ s) (hx : |x| ≤ C) (hy : |y| ≤ C) (hz : |z| ≤ C) :
    |a * x + b * y + c * z| ≤ s * C := by
  have hC : 0 ≤ C := (abs_nonneg _).trans hx
  refine (abs_add_three _ _ _).trans ?_
  rw [abs_mul, abs_mul, abs_mul]
  have := mul_le_mul_of_nonneg_left hx (abs_nonneg a)
  have := mul_le_mul_of_nonneg_left hy (abs_nonneg b)
  have := mul_le_mul_of_nonneg_left hz (abs_nonneg c)
  nlinarith [mul_le_mul_of_nonneg_right hs hC]

/-- One row: float constants against decimal ones, float entries against exact ones. -/
theorem row_pub {a b c f : F32} {v : Vector3 F32} {a' b' c' x y z B ε s τ η : ℝ}
    (hf : |(f.val : ℝ) - (rowV a b c v : ℚ)| ≤ η)
    (hs : |(a.val : ℝ)| + |(b.val : ℝ)| + |(c.val : ℝ)| ≤ s) (hl : |(a.val : ℝ) - a'| + |(b.val : ℝ) - b'| + |(c.val : ℝ) - c'| ≤ τ)
    (hx : |(v.x.val : ℝ) - x| ≤ ε) (hy : |(v.y.val : ℝ) - y| ≤ ε) (hz : |(v.z.val : ℝ) - z| ≤ ε)
    (bx : |x| ≤ B) (by_ : |y| ≤ B) (bz : |z| ≤ B) :
    |(f.val : ℝ) - (a' * x + b' * y + c' * z)| ≤ η + s * ε + τ * B := by
  have h1 := row_absR hs hx hy hz
  have h2 := row_absR hl bx by_ bz
  have e : (f.val : ℝ) - (a' * x + b' * y + c' * z) = ((f.val : ℝ) - (rowV a b c v : ℚ)) +
      (a.val * (v.x.val - x) + b.val * (v.y.val - y) + c.val * (v.z.val - z)) +
      ((a.val - a') * x + (b.val - b') * y + (c.val - c') * z) := by
    simp only [rowV]; push_cast; ring
  rw [e]
  refine (abs_add_three _ _ _).trans ?_
  linarith

/-- Cube roots of nearby numbers, one of them away from zero. -/
theorem cbrt_near {q r s ρ ε : ℝ} (hs : 0 < s) (hρ : 0 < ρ) (hρ1 : ρ ≤ 1) (hr : ρ * s ^ 3 ≤ r ^ 3) (h : |q ^ 3 - r ^ 3| ≤ ε * s ^ 3) :
    |q - r| ≤ 4 / 3 * ε / ρ * s := by
  have r0 : 0 < r := by
    by_contra h
    have : r ^ 3 ≤ 0 := by
      have := mul_nonneg (sq_nonneg r) (show 0 ≤ -r by linarith)
      nlinarith
    have : 0 < ρ * s ^ 3 := by positivity
    linarith
  have r2 : ρ * s ^ 2 ≤ r ^ 2 := by
    rcases le_total s r with hsr | hsr
    · have : s ^ 2 ≤ r ^ 2 := pow_le_pow_left₀ hs.le hsr 2
      have : ρ * s ^ 2 ≤ 1 * s ^ 2 := mul_le_mul_of_nonneg_right hρ1 (by positivity)
      linarith
    · have h1 : r ^ 3 ≤ r ^ 2 * s := by
        rw [pow_succ]; exact mul_le_mul_of_nonneg_left hsr (by positivity)
      have h2 : (ρ * s ^ 2) * s ≤ r ^ 2 * s := by
        have : ρ * s ^ 2 * s = ρ * s ^ 3 := by ring
        linarith
      exact le_of_mul_le_mul_right h2 hs
  rw [show q ^ 3 - r ^ 3 = (q - r) * (q ^ 2 + q * r + r ^ 2) by ring, abs_mul] at h
  have h3 : 3 / 4 * (ρ * s ^ 2) ≤ |q ^ 2 + q * r + r ^ 2| := by
    refine le_trans ?_ (le_abs_self _)
    nlinarith [sq_nonneg (q + r / 2)]
  have h4 : |q - r| * (3 / 4 * (ρ * s ^ 2)) ≤ ε * s ^ 3 := (mul_le_mul_of_nonneg_left h3 (abs_nonneg _)).trans h
  have h5 : |q - r| * (3 / 4 * (ρ * s ^ 2)) ≤ (4 / 3 * ε / ρ * s) * (3 / 4 * (ρ * s ^ 2)) := by
    refine h4.trans (le_of_eq ?_)
    field_simp
  exact le_of_mul_le_mul_right h5 (by positivity)

/-- C97: in binary32, with a `cbrtf` good to 2^-22, `XYZ_to_OKLAB` computes the OKLAB formula with the header's matrices (see C102): for a colour with
components at most `s³` whose cone responses are at least `ρ s³`, the coordinates are within `5.5e-6 s / ρ` of `oklab2 · r`
with `r` the real cube roots of `oklabHeader1 · t`. -/
theorem C97_accurate (o : F32.Oracle) (ho : o.CbrtAccurate (2 ^ (-22 : ℤ))) (t : Tristimulus F32) (C : ℚ) (s ρ : ℝ)
    (h1 : 1 / 2 ^ 60 ≤ C) (h2 : C ≤ 2 ^ 60) (ht : Within t C) (hs0 : 0 < s) (hs : s ^ 3 = C) (hρ : 0 < ρ) (hρ1 : ρ ≤ 1)
    (r : Fin 3 → ℝ) (hr : ∀ i, r i ^ 3 = (Spec.oklabHeader1.mulVec ![(t.a.val : ℝ), t.b.val, t.c.val]) i)
    (hpos : ∀ i, ρ * s ^ 3 ≤ (Spec.oklabHeader1.mulVec ![(t.a.val : ℝ), t.b.val, t.c.val]) i) :
    letI := F32.libm o
    |((XYZ_to_OKLAB t).a.val : ℝ) - (Spec.oklab2.mulVec r) 0| ≤ 5.5e-6 * s / ρ ∧
    |((XYZ_to_OKLAB t).b.val : ℝ) - (Spec.oklab2.mulVec r) 1| ≤ 5.5e-6 * s / ρ ∧
    |((XYZ_to_OKLAB t).c.val : ℝ) - (Spec.oklab2.mulVec r) 2| ≤ 5.5e-6 * s / ρ := by
  have T := oklab_tables
  simp only [Bool.and_eq_true] at T
  obtain ⟨⟨⟨⟨-, -⟩, t3⟩, -⟩, t5⟩ := T
  obtain ⟨⟨fa, la⟩, ⟨fb, lb⟩, fc, lc⟩ := ht
  have big : C ≤ 2 ^ 100 := h2.trans (by norm_num)
  have C1 : (1 / 2 ^ 60 : ℝ) ≤ C := by
    have := (Rat.cast_le (K := ℝ)).2 h1; push_cast at this; exact this
  have C2 : (C : ℝ) ≤ 2 ^ 60 := by
    have := (Rat.cast_le (K := ℝ)).2 h2; push_cast at this; exact this
  have s1 : (1 / 2 ^ 20 : ℝ) ≤ s := by
    refine le_of_pow_le_pow_left₀ (n := 3) (by norm_num) hs0.le ?_
    rw [hs]; refine le_trans (le_of_eq ?_) C1; norm_num
  have s2 : s ≤ 2 ^ 20 := by
    refine le_of_pow_le_pow_left₀ (n := 3) (by norm_num) (by norm_num) ?_
    rw [hs]; refine C2.trans (le_of_eq ?_); norm_num
  obtain ⟨⟨k1, k2, k3⟩, e1, e2, e3⟩ := rows_error t3 t.vec3 big ⟨fa, la⟩ ⟨fb, lb⟩ ⟨fc, lc⟩
  obtain ⟨⟨L1, L2, L3⟩, L4, L5, L6⟩ := oklab_literals
  have hs1 := t3
  simp only [smallRows, Bool.and_eq_true, decide_eq_true_eq] at hs1
  obtain ⟨⟨⟨-, a1⟩, a2⟩, a3⟩ := hs1
  have hs2 := t5
  simp only [smallRows, Bool.and_eq_true, decide_eq_true_eq] at hs2
  obtain ⟨⟨⟨-, b1⟩, b2⟩, b3⟩ := hs2
  have up : ∀ {x : ℚ}, |x| ≤ C → |(x : ℝ)| ≤ C := fun h => by exact_mod_cast h
  have z : ∀ x : ℝ, |x - x| ≤ 0 := fun x => by simp
  have castS : ∀ {x y z u : ℚ}, |x| + |y| + |z| ≤ u → |(x : ℝ)| + |(y : ℝ)| + |(z : ℝ)| ≤ u := fun h => by exact_mod_cast h
  have castE : ∀ {x y u : ℚ}, |x - y| ≤ u → |(x : ℝ) - (y : ℝ)| ≤ u := fun h => by exact_mod_cast h
  set l : Vector3 F32 := okM1.apply t.vec3 with hl
  -- the cone responses
  have m1 := row_pub (castE e1) (castS a1) (by have := castS L1; push_cast at this; exact this) (z _) (z _) (z _) (up la) (up lb) (up lc)
  have m2 := row_pub (castE e2) (castS a2) (by have := castS L2; push_cast at this; exact this) (z _) (z _) (z _) (up la) (up lb) (up lc)
  have m3 := row_pub (castE e3) (castS a3) (by have := castS L3; push_cast at this; exact this) (z _) (z _) (z _) (up la) (up lb) (up lc)
  have i0 : (Spec.oklabHeader1.mulVec ![(t.a.val : ℝ), t.b.val, t.c.val]) 0 =
      0.8189330101 * t.vec3.x.val + 0.3618667424 * t.vec3.y.val + -0.1288597137 * t.vec3.z.val := by
    simp [Matrix.mulVec, dotProduct, Fin.sum_univ_three, Spec.oklabHeader1, Tristimulus.vec3]
  have i1 : (Spec.oklabHeader1.mulVec ![(t.a.val : ℝ), t.b.val, t.c.val]) 1 =
      -0.0329845436 * t.vec3.x.val + 0.9293118715 * t.vec3.y.val + 0.0361456387 * t.vec3.z.val := by
    simp [Matrix.mulVec, dotProduct, Fin.sum_univ_three, Spec.oklabHeader1, Tristimulus.vec3]
  have i2 : (Spec.oklabHeader1.mulVec ![(t.a.val : ℝ), t.b.val, t.c.val]) 2 =
      0.0482003018 * t.vec3.x.val + 0.2643662691 * t.vec3.y.val + 0.6338517070 * t.vec3.z.val := by
    simp [Matrix.mulVec, dotProduct, Fin.sum_univ_three, Spec.oklabHeader1, Tristimulus.vec3]
  have hr0 := hr 0
  have hr1 := hr 1
  have hr2 := hr 2
  have hp0 := hpos 0
  have hp1 := hpos 1
  have hp2 := hpos 2
  rw [← hr0] at hp0
  rw [← hr1] at hp1
  rw [← hr2] at hp2
  have num : ∀ {x y : ℝ}, |x - y| ≤ ((1.3097 * C / 2 ^ 22 + 1 / 2 ^ 148 : ℚ) : ℝ) + ((1.3097 : ℚ) : ℝ) * 0 + ((6e-8 : ℚ) : ℝ) * C →
      |x - y| ≤ 3.8e-7 * s ^ 3 := by
    intro x y h
    push_cast at h
    rw [hs]
    generalize |x - y| = w at *
    norm_num at h C1 ⊢
    linarith
  have push : ((6e-8 : ℚ) : ℝ) = 6e-8 := by norm_num
  rw [← i0, ← hr0, ← push] at m1
  rw [← i1, ← hr1, ← push] at m2
  rw [← i2, ← hr2, ← push] at m3
  -- the roots
  have rb : ∀ {x y w : ℝ} {a b c : ℝ}, |a| + |b| + |c| ≤ 1.331 → |x| ≤ C → |y| ≤ C → |w| ≤ C → ∀ {q : ℝ},
      q ^ 3 = a * x + b * y + c * w → |q| ≤ 1.1 * s := by
    intro x y w a b c ha hx hy hw q hq
    refine abs_le_of_cube (by positivity) ?_
    rw [hq]
    refine (row_absR ha hx hy hw).trans (le_of_eq ?_)
    rw [mul_pow, hs]
    norm_num
  have R0 := rb (by norm_num [abs_of_pos, abs_of_neg]) (up la) (up lb) (up lc) (hr0.trans i0)
  have R1 := rb (by norm_num [abs_of_pos, abs_of_neg]) (up la) (up lb) (up lc) (hr1.trans i1)
  have R2 := rb (by norm_num [abs_of_pos, abs_of_neg]) (up la) (up lb) (up lc) (hr2.trans i2)
  have inv : 1 ≤ 1 / ρ := by rw [le_div_iff₀ hρ]; linarith
  have sρ : s ≤ s * (1 / ρ) := by nlinarith
  have root : ∀ {x : F32} {ri : ℝ}, x.isFinite = true → |(x.val : ℝ)| ≤ 1.331 * s ^ 3 → ρ * s ^ 3 ≤ ri ^ 3 → |(x.val : ℝ) - ri ^ 3| ≤ 3.8e-7 * s ^ 3 →
      (o.cbrtf x).isFinite = true ∧ |((o.cbrtf x).val : ℝ)| ≤ 1.11 * s ∧ |((o.cbrtf x).val : ℝ) - ri| ≤ 7.7e-7 * (s * (1 / ρ)) := by
    intro x ri hx hR hp h
    obtain ⟨q, hq⟩ := exists_cbrt (x.val : ℝ)
    obtain ⟨f, e⟩ := ho x hx q hq
    rw [← hq] at h hR
    have n := cbrt_near hs0 hρ hρ1 hp h
    have ns : 4 / 3 * 3.8e-7 / ρ * s = 4 / 3 * 3.8e-7 * (s * (1 / ρ)) := by ring
    rw [ns] at n
    generalize s * (1 / ρ) = u at *
    have hq' : |q| ≤ 1.1 * s := abs_le_of_cube (by positivity) (hR.trans (le_of_eq (by ring)))
    refine ⟨f, ?_⟩
    have h3 := _root_.abs_sub_le ((o.cbrtf x).val : ℝ) q ri
    have h4 := abs_sub_abs_le_abs_sub ((o.cbrtf x).val : ℝ) q
    generalize ((o.cbrtf x).val : ℝ) = y at *
    generalize |y - ri| = A at *
    generalize |y - q| = B at *
    generalize |y| = F at *
    generalize |q - ri| = D at *
    generalize |q| = E at *
    norm_num at e n hq' ⊢
    constructor <;> linarith
  have lb1 : ∀ {p q : ℚ}, |p - q| ≤ 1.3097 * C / 2 ^ 22 + 1 / 2 ^ 148 → |q| ≤ 1.3097 * C → |(p : ℝ)| ≤ 1.331 * s ^ 3 := by
    intro p q h3 h4
    have h5 : |p| ≤ 1.331 * C := by
      have := abs_sub_abs_le_abs_sub p q
      norm_num at h1 h3 h4 ⊢
      linarith
    rw [hs]
    have := (Rat.cast_le (K := ℝ)).2 h5; push_cast at this; exact this
  have m1' := num m1
  have m2' := num m2
  have m3' := num m3
  obtain ⟨g1, c1, d1⟩ := root k1 (lb1 e1 (rowV_le (v := t.vec3) a1 la lb lc)) hp0 m1'
  obtain ⟨g2, c2, d2⟩ := root k2 (lb1 e2 (rowV_le (v := t.vec3) a2 la lb lc)) hp1 m2'
  obtain ⟨g3, c3, d3⟩ := root k3 (lb1 e3 (rowV_le (v := t.vec3) a3 la lb lc)) hp2 m3'
  -- the second matrix
  let D : ℚ := max |(o.cbrtf l.x).val| (max |(o.cbrtf l.y).val| |(o.cbrtf l.z).val|)
  have hD : (D : ℝ) ≤ 1.11 * s := by
    simp only [D]
    push_cast
    exact max_le c1 (max_le c2 c3)
  have hD2 : D ≤ 2 ^ 100 := by
    have : (D : ℝ) ≤ ((2 ^ 100 : ℚ) : ℝ) := by
      norm_num at s2 ⊢
      linarith
    exact_mod_cast this
  obtain ⟨-, q1, q2, q3⟩ := rows_error t5 ⟨o.cbrtf l.x, o.cbrtf l.y, o.cbrtf l.z⟩ hD2
    ⟨g1, le_max_left _ _⟩ ⟨g2, (le_max_left _ _).trans (le_max_right _ _)⟩
    ⟨g3, (le_max_right _ _).trans (le_max_right _ _)⟩
  have n1 := row_pub (castE q1) (castS b1) (by have := castS L4; push_cast at this; exact this) d1 d2 d3 R0 R1 R2
  have n2 := row_pub (castE q2) (castS b2) (by have := castS L5; push_cast at this; exact this) d1 d2 d3 R0 R1 R2
  have n3 := row_pub (castE q3) (castS b3) (by have := castS L6; push_cast at this; exact this) d1 d2 d3 R0 R1 R2
  have j0 : (Spec.oklab2.mulVec r) 0 = 0.2104542553 * r 0 + 0.7936177850 * r 1 + -0.0040720468 * r 2 := by
    simp [Matrix.mulVec, dotProduct, Fin.sum_univ_three, Spec.oklab2]
  have j1 : (Spec.oklab2.mulVec r) 1 = 1.9779984951 * r 0 + -2.4285922050 * r 1 + 0.4505937099 * r 2 := by
    simp [Matrix.mulVec, dotProduct, Fin.sum_univ_three, Spec.oklab2]
  have j2 : (Spec.oklab2.mulVec r) 2 = 0.0259040371 * r 0 + 0.7827717662 * r 1 + -0.8086757660 * r 2 := by
    simp [Matrix.mulVec, dotProduct, Fin.sum_univ_three, Spec.oklab2]
  rw [← j0] at n1
  rw [← j1] at n2
  rw [← j2] at n3
  have last : ∀ {x : ℝ}, x ≤ ((4.8572 * D / 2 ^ 22 + 1 / 2 ^ 148 : ℚ) : ℝ) + ((4.8572 : ℚ) : ℝ) * (7.7e-7 * (s * (1 / ρ))) + 3e-7 * (1.1 * s) →
      x ≤ 5.5e-6 * s / ρ := by
    intro x h
    push_cast at h
    rw [show 5.5e-6 * s / ρ = 5.5e-6 * (s * (1 / ρ)) by ring]
    generalize s * (1 / ρ) = u at *
    norm_num at h s1 hD ⊢
    linarith
  exact ⟨last n1, last n2, last n3⟩

/-- Such cube-root functions exist, and a mid grey has such cone responses. -/
example : ∃ o : F32.Oracle, o.CbrtAccurate (2 ^ (-22 : ℤ)) := by
  obtain ⟨o, -, -, -, -, -, h⟩ := exists_accurate
  refine ⟨o, fun x hx r hr => ⟨(h x hx r hr).1, (h x hx r hr).2.trans ?_⟩⟩
  gcongr <;> norm_num

example : Within ⟨lit 1, lit 1, lit 1⟩ 1 ∧ ∀ i, (1 / 2 : ℝ) * 1 ^ 3 ≤ (Spec.oklabHeader1.mulVec ![1, 1, 1]) i := by
  refine ⟨?_, fun i => ?_⟩
  · have h : ∀ q : ℚ, |q| ≤ 1 → (lit q : F32).isFinite = true ∧ |(lit q : F32).val| ≤ 1 := fun q hq => by
      have := pack_bd (s := false) (by have := CS.rep_pow 0; simpa using this : Rep 1) (by norm_num) hq
      exact ⟨this.fin, this.le⟩
    exact ⟨h _ (by norm_num), h _ (by norm_num), h _ (by norm_num)⟩
  · fin_cases i <;> simp [Matrix.mulVec, dotProduct, Fin.sum_univ_three, Spec.oklabHeader1] <;> norm_num

end CS
