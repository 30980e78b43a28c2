import Verif.Lemmas.FloatPow
import Verif.Props.PublishedFloat
import Verif.Props.InvertFloat

/-!
# C110: chromatic adaptation in single precision, between any two whites

`Bradford` (hpp:1386-1395) with every operation rounded to binary32. C99 treats the header's own illuminants; here the
two whites are arbitrary colours with components up to 3/2 and cone responses up to 2, those of the source white at
least `θ` in magnitude: the matrix is within `2 ^ -16 / θ ^ 2` of the exact one.
-/

namespace CS
open F32 B32 Matrix Spec

namespace BradfordFloat

/-- An approximate number of bounded magnitude. -/
structure Bx (x : F32) (r e R : ℝ) : Prop where
  ap : Ap x r e
  le : |r| ≤ R

theorem Bx.nn {x : F32} {r e R : ℝ} (h : Bx x r e R) : 0 ≤ e ∧ 0 ≤ R := ⟨h.ap.nonneg, (abs_nonneg _).trans h.le⟩

theorem sum_bound {n0 n1 n2 t0 t1 t2 : ℝ} (hn0 : 0 ≤ n0) (hn1 : 0 ≤ n1) (hn2 : 0 ≤ n2) (ht0 : 0 ≤ t0) (ht1 : 0 ≤ t1)
    (ht2 : 0 ≤ t2) (E0 E1 E2 F : ℝ) (h0 : E0 = n0 + (t0 + n0) / 2 ^ 24 + 1 / 2 ^ 150)
    (h1 : E1 = n1 + (t1 + n1) / 2 ^ 24 + 1 / 2 ^ 150) (h2 : E2 = n2 + (t2 + n2) / 2 ^ 24 + 1 / 2 ^ 150)
    (hF : F = (E0 + E1) + ((t0 + t1) + E0 + E1) / 2 ^ 24 + 1 / 2 ^ 150) :
    (F + E2) + ((t0 + t1 + t2) + F + E2) / 2 ^ 24 + 1 / 2 ^ 150 ≤
      (n0 + n1 + n2 + 3 * (t0 + t1 + t2) / 2 ^ 24) * (1 + 1 / 2 ^ 20) + 1 / 2 ^ 140 := by
  subst hF h0 h1 h2
  norm_num
  linarith

/-- Three products summed from the left. -/
theorem dot3 {a b c x y z : F32} {p q r s t w e0 e1 e2 f0 f1 f2 R0 R1 R2 S0 S1 S2 N T E : ℝ}
    (ha : Bx a p e0 R0) (hb : Bx b q e1 R1) (hc : Bx c r e2 R2) (hx : Bx x s f0 S0) (hy : Bx y t f1 S1)
    (hz : Bx z w f2 S2) (hN : (e0 * S0 + f0 * R0 + e0 * f0) + (e1 * S1 + f1 * R1 + e1 * f1) +
      (e2 * S2 + f2 * R2 + e2 * f2) ≤ N) (hT : R0 * S0 + R1 * S1 + R2 * S2 ≤ T) (hB : N + T ≤ 2 ^ 100)
    (hE : (N + 3 * T / 2 ^ 24) * (1 + 1 / 2 ^ 20) + 1 / 2 ^ 140 ≤ E) :
    Bx (a * x + b * y + c * z) (p * s + q * t + r * w) E T := by
  obtain ⟨ea, ra⟩ := ha.nn; obtain ⟨eb, rb⟩ := hb.nn; obtain ⟨ec, rc⟩ := hc.nn
  obtain ⟨ex, rx⟩ := hx.nn; obtain ⟨ey, ry⟩ := hy.nn; obtain ⟨ez, rz⟩ := hz.nn
  have m0 : 0 ≤ e0 * S0 + f0 * R0 + e0 * f0 := by positivity
  have m1 : 0 ≤ e1 * S1 + f1 * R1 + e1 * f1 := by positivity
  have m2 : 0 ≤ e2 * S2 + f2 * R2 + e2 * f2 := by positivity
  have u0 : 0 ≤ R0 * S0 := by positivity
  have u1 : 0 ≤ R1 * S1 := by positivity
  have u2 : 0 ≤ R2 * S2 := by positivity
  have P0 := fun E hB hE => Ap.mul (E := E) ha.ap hx.ap ha.le hx.le hB hE
  have P1 := fun E hB hE => Ap.mul (E := E) hb.ap hy.ap hb.le hy.le hB hE
  have P2 := fun E hB hE => Ap.mul (E := E) hc.ap hz.ap hc.le hz.le hB hE
  have g0 := InvertFloat.mul_le ha.le hx.le
  have g1 := InvertFloat.mul_le hb.le hy.le
  have g2 := InvertFloat.mul_le hc.le hz.le
  have SB := sum_bound m0 m1 m2 u0 u1 u2 _ _ _ _ rfl rfl rfl rfl
  generalize e0 * S0 + f0 * R0 + e0 * f0 = n0 at *
  generalize e1 * S1 + f1 * R1 + e1 * f1 = n1 at *
  generalize e2 * S2 + f2 * R2 + e2 * f2 = n2 at *
  generalize R0 * S0 = t0 at *
  generalize R1 * S1 = t1 at *
  generalize R2 * S2 = t2 at *
  have big : (2 : ℝ) ^ 100 * 4 ≤ 2 ^ 120 := by norm_num
  have Q0 := P0 _ (by linarith) le_rfl
  have Q1 := P1 _ (by linarith) le_rfl
  have Q2 := P2 _ (by linarith) le_rfl
  have b1 : n0 + (t0 + n0) / 2 ^ 24 + 1 / 2 ^ 150 ≤ 2 ^ 101 := by norm_num at *; linarith
  have b2 : n1 + (t1 + n1) / 2 ^ 24 + 1 / 2 ^ 150 ≤ 2 ^ 101 := by norm_num at *; linarith
  have b3 : n2 + (t2 + n2) / 2 ^ 24 + 1 / 2 ^ 150 ≤ 2 ^ 101 := by norm_num at *; linarith
  have s1 : |p * s + q * t| ≤ t0 + t1 := (abs_add_le _ _).trans (by linarith)
  have s2 : |p * s + q * t + r * w| ≤ t0 + t1 + t2 := (abs_add_le _ _).trans (by linarith)
  generalize n0 + (t0 + n0) / 2 ^ 24 + 1 / 2 ^ 150 = E0 at *
  generalize n1 + (t1 + n1) / 2 ^ 24 + 1 / 2 ^ 150 = E1 at *
  generalize n2 + (t2 + n2) / 2 ^ 24 + 1 / 2 ^ 150 = E2 at *
  have Q3 := Ap.add Q0 Q1 s1 (by norm_num at *; linarith) le_rfl
  have b4 : (E0 + E1) + ((t0 + t1) + E0 + E1) / 2 ^ 24 + 1 / 2 ^ 150 ≤ 2 ^ 103 := by norm_num at *; linarith
  generalize (E0 + E1) + ((t0 + t1) + E0 + E1) / 2 ^ 24 + 1 / 2 ^ 150 = F at *
  refine ⟨(Ap.add Q3 Q2 s2 (by norm_num at *; linarith) SB).weaken (le_trans ?_ hE), s2.trans hT⟩
  have : 0 ≤ T - (t0 + t1 + t2) := by linarith
  have : 0 ≤ N - (n0 + n1 + n2) := by linarith
  norm_num at *; linarith

/-- Bounds of the magnitudes of the cone matrix. -/
def coneB : Matrix3 ℚ := ⟨0.8951, 0.2664, 0.1614, 0.7502, 1.7135, 0.0367, 0.0389, 0.0685, 1.0296⟩

attribute [local instance] ratArith

set_option maxRecDepth 100000 in
theorem cones_ok : ∀ i : Fin 9, ((LMS : Gamut F32).fromXYZ_.get i).isFinite = true ∧
    |((LMS : Gamut F32).fromXYZ_.get i).val - (LMS : Gamut ℚ).fromXYZ_.get i| ≤ 1 / 2 ^ 24 ∧
    |(LMS : Gamut ℚ).fromXYZ_.get i| ≤ coneB.get i := by
  decide +kernel

set_option maxRecDepth 100000 in
theorem inv_ok : ∀ i : Fin 9, ((LMS : Gamut F32).toXYZ_.get i).isFinite = true ∧
    |((LMS : Gamut F32).toXYZ_.get i).val - (LMS : Gamut ℚ).toXYZ_.get i| ≤ 1 / 2 ^ 23 ∧
    |(LMS : Gamut ℚ).toXYZ_.get i| ≤ 1 := by
  decide +kernel

theorem toReal_get (m : Matrix3 ℚ) (i : Fin 9) : m.toReal.get i = (m.get i : ℝ) := by
  fin_cases i <;> rfl

theorem cast_abs_le {a b : ℚ} {e : ℚ} (h : |a - b| ≤ e) : |(a : ℝ) - b| ≤ (e : ℚ) := by
  have := (Rat.cast_le (K := ℝ)).2 h
  push_cast at this; exact this

theorem cast_abs_le' {a : ℚ} {e : ℚ} (h : |a| ≤ e) : |(a : ℝ)| ≤ (e : ℚ) := by
  have := (Rat.cast_le (K := ℝ)).2 h
  push_cast at this; exact this

theorem cones (i : Fin 9) : Bx ((LMS : Gamut F32).fromXYZ_.get i) ((LMS : Gamut ℝ).fromXYZ_.get i) (1 / 2 ^ 24)
    (coneB.get i) := by
  obtain ⟨h1, h2, h3⟩ := cones_ok i
  have e : (LMS : Gamut ℝ).fromXYZ_.get i = (((LMS : Gamut ℚ).fromXYZ_.get i : ℚ) : ℝ) := by
    rw [← toReal_get, ← toReal_LMS]; rfl
  rw [e]
  exact ⟨⟨h1, (cast_abs_le h2).trans (by norm_num)⟩, cast_abs_le' h3⟩

theorem invs (i : Fin 9) : Bx ((LMS : Gamut F32).toXYZ_.get i) ((LMS : Gamut ℝ).toXYZ_.get i) (1 / 2 ^ 23) 1 := by
  obtain ⟨h1, h2, h3⟩ := inv_ok i
  have e : (LMS : Gamut ℝ).toXYZ_.get i = (((LMS : Gamut ℚ).toXYZ_.get i : ℚ) : ℝ) := by
    rw [← toReal_get, ← toReal_LMS]; rfl
  rw [e]
  exact ⟨⟨h1, (cast_abs_le h2).trans (by norm_num)⟩, (cast_abs_le' h3).trans (by norm_num)⟩

/-- A quotient by an approximate number that is not small. -/
theorem div_abs {x y : F32} {r s e f Q S d E : ℝ} (hx : Ap x r e) (hy : Ap y s f) (hQ : |r / s| ≤ Q) (hS : S ≤ |s| - f)
    (hS0 : 0 < S) (hd : (e + Q * f) / S ≤ d) (hB' : Q + d ≤ 2 ^ 120) (hE : d + (Q + d) / 2 ^ 24 + 1 / 2 ^ 150 ≤ E) :
    Ap (x / y) (r / s) E := by
  have f0 := hy.nonneg
  have hyv : S ≤ |(y.val : ℝ)| := by
    have := abs_sub_abs_le_abs_sub s (y.val : ℝ)
    rw [abs_sub_comm] at this
    linarith [hy.err]
  have hy0 : y.val ≠ 0 := by
    intro h; rw [h] at hyv; norm_num at hyv; linarith
  have hyr : (y.val : ℝ) ≠ 0 := by exact_mod_cast hy0
  have hs : s ≠ 0 := by
    intro h; rw [h] at hS; norm_num at hS; linarith
  rw [div_def, div_finite hx.fin hy.fin hy0]
  have h : |((x.val / y.val : ℚ) : ℝ) - r / s| ≤ d := by
    push_cast
    have e1 : (x.val : ℝ) / y.val - r / s = ((x.val - r) - r / s * (y.val - s)) / y.val := by
      field_simp; ring
    rw [e1, abs_div]
    refine le_trans ?_ hd
    have h2 : |(x.val : ℝ) - r - r / s * (y.val - s)| ≤ e + Q * f := by
      refine (abs_sub _ _).trans ?_
      rw [abs_mul]
      have := hx.err
      have := hy.err
      have hQ0 : 0 ≤ Q := (abs_nonneg _).trans hQ
      gcongr
    have h4 : 0 ≤ e + Q * f := (abs_nonneg _).trans h2
    exact div_le_div₀ h4 h2 hS0 hyv
  refine (Ap.pack h ?_ hB').weaken hE
  have := abs_sub_abs_le_abs_sub ((x.val / y.val : ℚ) : ℝ) (r / s)
  linarith

/-- A white with finite components of magnitude at most 3/2. -/
structure White (w : Tristimulus F32) : Prop where
  a : Bx w.a w.a.val 0 (3 / 2)
  b : Bx w.b w.b.val 0 (3 / 2)
  c : Bx w.c w.c.val 0 (3 / 2)

theorem cone_ap {w : Tristimulus F32} (h : White w) :
    Ap ((LMS : Gamut F32).fromXYZ w).a ((LMS : Gamut ℝ).fromXYZ w.real).a (17 / 2 ^ 24) ∧
    Ap ((LMS : Gamut F32).fromXYZ w).b ((LMS : Gamut ℝ).fromXYZ w.real).b (17 / 2 ^ 24) ∧
    Ap ((LMS : Gamut F32).fromXYZ w).c ((LMS : Gamut ℝ).fromXYZ w.real).c (17 / 2 ^ 24) := by
  refine ⟨(dot3 (N := 4.5 / 2 ^ 24) (T := 3.8) (cones 0) (cones 1) (cones 2) h.a h.b h.c ?_ ?_ ?_ ?_).ap,
    (dot3 (N := 4.5 / 2 ^ 24) (T := 3.8) (cones 3) (cones 4) (cones 5) h.a h.b h.c ?_ ?_ ?_ ?_).ap,
    (dot3 (N := 4.5 / 2 ^ 24) (T := 3.8) (cones 6) (cones 7) (cones 8) h.a h.b h.c ?_ ?_ ?_ ?_).ap⟩ <;>
    norm_num [coneB, Matrix3.get]

theorem ratio {x y : F32} {r s θ : ℝ} (hx : Ap x r (17 / 2 ^ 24)) (hy : Ap y s (17 / 2 ^ 24)) (hr : |r| ≤ 2)
    (hθ : 1 / 2 ^ 6 ≤ θ) (hs : θ ≤ |s|) (hs' : |s| ≤ 2) :
    Bx (x / y) (r / s) (1 / θ ^ 2 * (74 / 2 ^ 24)) (4 * (1 / θ ^ 2)) := by
  have t0 : 0 < θ := lt_of_lt_of_le (by norm_num) hθ
  have t2 : θ ≤ 2 := hs.trans hs'
  have hQ : |r / s| ≤ 2 / θ := by
    rw [abs_div]
    exact div_le_div₀ (by norm_num) hr t0 hs
  have hq : 2 / θ ≤ 4 * (1 / θ ^ 2) := by
    rw [show 4 * (1 / θ ^ 2) = 2 / θ * (2 / θ) by field_simp; norm_num]
    have h1 : 1 ≤ 2 / θ := by rw [le_div_iff₀ t0]; linarith
    have h0 : 0 < 2 / θ := by positivity
    nlinarith
  have gpos : 0 < 1 / θ ^ 2 := by positivity
  have glo : 1 / 4 ≤ 1 / θ ^ 2 := by
    apply one_div_le_one_div_of_le (by positivity)
    calc θ ^ 2 ≤ 2 ^ 2 := by gcongr
      _ = _ := by norm_num
  have ghi : 1 / θ ^ 2 ≤ 2 ^ 12 := by
    rw [div_le_iff₀ (by positivity)]
    calc (1 : ℝ) = 2 ^ 12 * (1 / 2 ^ 6) ^ 2 := by norm_num
      _ ≤ _ := by gcongr
  have hd : (17 / 2 ^ 24 + 2 / θ * (17 / 2 ^ 24)) / (θ * (1 - 1 / 2 ^ 13)) ≤ 1 / θ ^ 2 * (69 / 2 ^ 24) := by
    rw [show (17 / 2 ^ 24 + 2 / θ * (17 / 2 ^ 24)) / (θ * (1 - 1 / 2 ^ 13)) =
      1 / θ ^ 2 * ((θ + 2) * (17 / 2 ^ 24) / (1 - 1 / 2 ^ 13)) by field_simp]
    refine mul_le_mul_of_nonneg_left ?_ gpos.le
    rw [div_le_iff₀ (by norm_num)]
    norm_num at *; linarith
  refine ⟨div_abs hx hy hQ (S := θ * (1 - 1 / 2 ^ 13)) ?_ (by norm_num at *; linarith) hd ?_ ?_, hQ.trans hq⟩
  · norm_num at *; linarith
  · generalize 1 / θ ^ 2 = g at *
    norm_num at *; linarith
  · generalize 1 / θ ^ 2 = g at *
    generalize 2 / θ = k at *
    norm_num at *; linarith

theorem zero : Bx (lit 0 : F32) (lit 0 : ℝ) 0 0 := by
  have : (lit 0 : F32).val = 0 := by decide +kernel
  refine ⟨⟨rfl, ?_⟩, ?_⟩ <;> simp [this, lit_real]

/-- The scaled inverse cone matrix. -/
theorem scaled {x y z : F32} {r s t g : ℝ} (glo : 1 / 4 ≤ g) (ghi : g ≤ 2 ^ 12) (hx : Bx x r (g * (74 / 2 ^ 24)) (4 * g))
    (hy : Bx y s (g * (74 / 2 ^ 24)) (4 * g)) (hz : Bx z t (g * (74 / 2 ^ 24)) (4 * g)) (i : Fin 9) :
    Bx (((LMS : Gamut F32).toXYZ_.mul (Matrix3.diag ⟨x, y, z⟩)).get i)
      (((LMS : Gamut ℝ).toXYZ_.mul (Matrix3.diag ⟨r, s, t⟩)).get i) (g * (95 / 2 ^ 24)) (4 * g) := by
  have hN : (1 : ℝ) / 2 ^ 23 * (4 * g) + g * (74 / 2 ^ 24) * 1 + 1 / 2 ^ 23 * (g * (74 / 2 ^ 24)) ≤ g * (82.5 / 2 ^ 24) := by
    norm_num at *; linarith
  have hT : 1 * (4 * g) ≤ 4 * g := by linarith
  have hB : g * (82.5 / 2 ^ 24) + 4 * g ≤ 2 ^ 100 := by norm_num at *; linarith
  have hE : (g * (82.5 / 2 ^ 24) + 3 * (4 * g) / 2 ^ 24) * (1 + 1 / 2 ^ 20) + 1 / 2 ^ 140 ≤ g * (95 / 2 ^ 24) := by
    norm_num at *; linarith
  have A : ∀ i j k, Bx ((LMS : Gamut F32).toXYZ_.get i * x + (LMS : Gamut F32).toXYZ_.get j * lit 0 +
      (LMS : Gamut F32).toXYZ_.get k * lit 0) ((LMS : Gamut ℝ).toXYZ_.get i * r + (LMS : Gamut ℝ).toXYZ_.get j * lit 0 +
      (LMS : Gamut ℝ).toXYZ_.get k * lit 0) (g * (95 / 2 ^ 24)) (4 * g) := fun i j k =>
    dot3 (invs i) (invs j) (invs k) hx zero zero (by simpa using hN) (by simp) hB hE
  have B : ∀ i j k, Bx ((LMS : Gamut F32).toXYZ_.get i * lit 0 + (LMS : Gamut F32).toXYZ_.get j * y +
      (LMS : Gamut F32).toXYZ_.get k * lit 0) ((LMS : Gamut ℝ).toXYZ_.get i * lit 0 + (LMS : Gamut ℝ).toXYZ_.get j * s +
      (LMS : Gamut ℝ).toXYZ_.get k * lit 0) (g * (95 / 2 ^ 24)) (4 * g) := fun i j k =>
    dot3 (invs i) (invs j) (invs k) zero hy zero (by simpa using hN) (by simp) hB hE
  have C : ∀ i j k, Bx ((LMS : Gamut F32).toXYZ_.get i * lit 0 + (LMS : Gamut F32).toXYZ_.get j * lit 0 +
      (LMS : Gamut F32).toXYZ_.get k * z) ((LMS : Gamut ℝ).toXYZ_.get i * lit 0 + (LMS : Gamut ℝ).toXYZ_.get j * lit 0 +
      (LMS : Gamut ℝ).toXYZ_.get k * t) (g * (95 / 2 ^ 24)) (4 * g) := fun i j k =>
    dot3 (invs i) (invs j) (invs k) zero zero hz (by simpa using hN) (by simp) hB hE
  fin_cases i
  · exact A 0 1 2
  · exact B 0 1 2
  · exact C 0 1 2
  · exact A 3 4 5
  · exact B 3 4 5
  · exact C 3 4 5
  · exact A 6 7 8
  · exact B 6 7 8
  · exact C 6 7 8

/-- The product with the cone matrix. -/
theorem product {n : Matrix3 F32} {m : Matrix3 ℝ} {g : ℝ} (glo : 1 / 4 ≤ g) (ghi : g ≤ 2 ^ 12)
    (h : ∀ i, Bx (n.get i) (m.get i) (g * (95 / 2 ^ 24)) (4 * g)) (i : Fin 9) :
    Bx ((n.mul (LMS : Gamut F32).fromXYZ_).get i) ((m.mul (LMS : Gamut ℝ).fromXYZ_).get i) (g * (1 / 2 ^ 16)) (8.24 * g) := by
  have hB : g * (207.5 / 2 ^ 24) + 8.24 * g ≤ 2 ^ 100 := by norm_num at *; linarith
  have hE : (g * (207.5 / 2 ^ 24) + 3 * (8.24 * g) / 2 ^ 24) * (1 + 1 / 2 ^ 20) + 1 / 2 ^ 140 ≤ g * (1 / 2 ^ 16) := by
    norm_num at *; linarith
  have A : ∀ i j k, Bx (n.get i * (LMS : Gamut F32).fromXYZ_.get 0 + n.get j * (LMS : Gamut F32).fromXYZ_.get 3 +
      n.get k * (LMS : Gamut F32).fromXYZ_.get 6) (m.get i * (LMS : Gamut ℝ).fromXYZ_.get 0 +
      m.get j * (LMS : Gamut ℝ).fromXYZ_.get 3 + m.get k * (LMS : Gamut ℝ).fromXYZ_.get 6) (g * (1 / 2 ^ 16)) (8.24 * g) :=
    fun i j k => dot3 (h i) (h j) (h k) (cones 0) (cones 3) (cones 6)
      (by norm_num [coneB, Matrix3.get] at *; linarith) (by norm_num [coneB, Matrix3.get] at *; linarith) hB hE
  have B : ∀ i j k, Bx (n.get i * (LMS : Gamut F32).fromXYZ_.get 1 + n.get j * (LMS : Gamut F32).fromXYZ_.get 4 +
      n.get k * (LMS : Gamut F32).fromXYZ_.get 7) (m.get i * (LMS : Gamut ℝ).fromXYZ_.get 1 +
      m.get j * (LMS : Gamut ℝ).fromXYZ_.get 4 + m.get k * (LMS : Gamut ℝ).fromXYZ_.get 7) (g * (1 / 2 ^ 16)) (8.24 * g) :=
    fun i j k => dot3 (h i) (h j) (h k) (cones 1) (cones 4) (cones 7)
      (by norm_num [coneB, Matrix3.get] at *; linarith) (by norm_num [coneB, Matrix3.get] at *; linarith) hB hE
  have C : ∀ i j k, Bx (n.get i * (LMS : Gamut F32).fromXYZ_.get 2 + n.get j * (LMS : Gamut F32).fromXYZ_.get 5 +
      n.get k * (LMS : Gamut F32).fromXYZ_.get 8) (m.get i * (LMS : Gamut ℝ).fromXYZ_.get 2 +
      m.get j * (LMS : Gamut ℝ).fromXYZ_.get 5 + m.get k * (LMS : Gamut ℝ).fromXYZ_.get 8) (g * (1 / 2 ^ 16)) (8.24 * g) :=
    fun i j k => dot3 (h i) (h j) (h k) (cones 2) (cones 5) (cones 8)
      (by norm_num [coneB, Matrix3.get] at *; linarith) (by norm_num [coneB, Matrix3.get] at *; linarith) hB hE
  fin_cases i
  · exact A 0 1 2
  · exact B 0 1 2
  · exact C 0 1 2
  · exact A 3 4 5
  · exact B 3 4 5
  · exact C 3 4 5
  · exact A 6 7 8
  · exact B 6 7 8
  · exact C 6 7 8

end BradfordFloat

open BradfordFloat

/-- Finite components of magnitude at most 3/2. -/
def Tristimulus.Moderate (w : Tristimulus F32) : Prop :=
  (w.a.isFinite = true ∧ w.b.isFinite = true ∧ w.c.isFinite = true) ∧
    |w.a.val| ≤ 3 / 2 ∧ |w.b.val| ≤ 3 / 2 ∧ |w.c.val| ≤ 3 / 2

theorem BradfordFloat.white {w : Tristimulus F32} (h : w.Moderate) : White w := by
  obtain ⟨⟨f1, f2, f3⟩, h1, h2, h3⟩ := h
  have c : ∀ {q : ℚ}, |q| ≤ 3 / 2 → |(q : ℝ)| ≤ 3 / 2 := by
    intro q hq
    have := (Rat.cast_le (K := ℝ)).2 hq
    push_cast at this; exact this
  exact ⟨⟨Ap.exact f1, c h1⟩, ⟨Ap.exact f2, c h2⟩, ⟨Ap.exact f3, c h3⟩⟩

theorem BradfordFloat.all {s d : Tristimulus F32} {θ : ℝ} (hs : s.Moderate) (hd : d.Moderate) (hθ : 1 / 2 ^ 6 ≤ θ)
    (hc : ∀ i, θ ≤ |(bradfordCone *ᵥ triV s.real) i| ∧ |(bradfordCone *ᵥ triV s.real) i| ≤ 2)
    (hc' : ∀ i, |(bradfordCone *ᵥ triV d.real) i| ≤ 2) :
    (1 / 4 ≤ 1 / θ ^ 2 ∧ 1 / θ ^ 2 ≤ 2 ^ 12) ∧ ∀ i, Bx ((Bradford s d).get i) ((Bradford s.real d.real).get i)
      (1 / θ ^ 2 * (1 / 2 ^ 16)) (8.24 * (1 / θ ^ 2)) := by
  have e : ∀ w, triV ((LMS : Gamut ℝ).fromXYZ w) = bradfordCone *ᵥ triV w := by
    intro w; rw [← LMS_fromXYZ]; exact (toV_apply _ _)
  simp only [← e] at hc hc'
  obtain ⟨s1, s2, s3⟩ := cone_ap (white hs)
  obtain ⟨d1, d2, d3⟩ := cone_ap (white hd)
  have t0 : 0 < θ := lt_of_lt_of_le (by norm_num) hθ
  have t2 : θ ≤ 2 := (hc 0).1.trans (hc 0).2
  have glo : 1 / 4 ≤ 1 / θ ^ 2 := by
    apply one_div_le_one_div_of_le (by positivity)
    calc θ ^ 2 ≤ 2 ^ 2 := by gcongr
      _ = _ := by norm_num
  have ghi : 1 / θ ^ 2 ≤ 2 ^ 12 := by
    rw [div_le_iff₀ (by positivity)]
    calc (1 : ℝ) = 2 ^ 12 * (1 / 2 ^ 6) ^ 2 := by norm_num
      _ ≤ _ := by gcongr
  exact ⟨⟨glo, ghi⟩, product glo ghi (scaled glo ghi (ratio d1 s1 (hc' 0) hθ (hc 0).1 (hc 0).2)
    (ratio d2 s2 (hc' 1) hθ (hc 1).1 (hc 1).2) (ratio d3 s3 (hc' 2) hθ (hc 2).1 (hc 2).2))⟩

/-- **C110.** For all whites with components up to 3/2 and cone responses up to 2, those of the source white at least
`θ` in magnitude, each entry of the adaptation matrix is finite and within `2 ^ -16 / θ ^ 2` of the exact one. -/
theorem C110_matrix (s d : Tristimulus F32) (θ : ℝ) (hs : s.Moderate) (hd : d.Moderate) (hθ : 1 / 2 ^ 6 ≤ θ)
    (hc : ∀ i, θ ≤ |(bradfordCone *ᵥ triV s.real) i| ∧ |(bradfordCone *ᵥ triV s.real) i| ≤ 2)
    (hc' : ∀ i, |(bradfordCone *ᵥ triV d.real) i| ≤ 2) (i : Fin 9) :
    ((Bradford s d).get i).isFinite = true ∧
      |(((Bradford s d).get i).val : ℝ) - (Bradford s.real d.real).get i| ≤ 1 / 2 ^ 16 / θ ^ 2 := by
  have h := ((BradfordFloat.all hs hd hθ hc hc').2 i).ap
  exact ⟨h.fin, h.err.trans (le_of_eq (by ring))⟩

/-- **C110, colours.** Any colour with components up to `C`, adapted in binary32, is within `2 ^ -14 / θ ^ 2 * C` of the
exactly adapted colour (whose cone responses are scaled by destination over source, C07). -/
theorem C110_adapt (s d t : Tristimulus F32) (θ : ℝ) (C : ℚ) (hs : s.Moderate) (hd : d.Moderate) (hθ : 1 / 2 ^ 6 ≤ θ)
    (hc : ∀ i, θ ≤ |(bradfordCone *ᵥ triV s.real) i| ∧ |(bradfordCone *ᵥ triV s.real) i| ≤ 2)
    (hc' : ∀ i, |(bradfordCone *ᵥ triV d.real) i| ≤ 2) (hC0 : 1 / 2 ^ 100 ≤ C) (hC : C ≤ 2 ^ 80) (ht : Within t C) (i : Fin 3) :
    ∃ x, x = (t.apply (Bradford s d)).vec3.get i ∧ x.isFinite = true ∧
      |(x.val : ℝ) - triV (t.real.apply (Bradford s.real d.real)) i| ≤ 1 / 2 ^ 14 / θ ^ 2 * C := by
  obtain ⟨⟨glo, ghi⟩, h⟩ := BradfordFloat.all hs hd hθ hc hc'
  obtain ⟨ta, tb, tc⟩ := ht
  have cc : ∀ {x : F32}, x.isFinite = true ∧ |x.val| ≤ C → Bx x x.val 0 C := fun hx => ⟨Ap.exact hx.1, cast_abs_le' hx.2⟩
  have C0 : (1 : ℝ) / 2 ^ 100 ≤ C := by
    have := (Rat.cast_le (K := ℝ)).2 hC0
    push_cast at this; exact this
  have C1 : (C : ℝ) ≤ 2 ^ 80 := by
    have := (Rat.cast_le (K := ℝ)).2 hC
    push_cast at this; exact this
  have Cpos : (0 : ℝ) < C := lt_of_lt_of_le (by norm_num) C0
  have w1 : 1 / 2 ^ 102 ≤ 1 / θ ^ 2 * C := by
    calc (1 : ℝ) / 2 ^ 102 = 1 / 4 * (1 / 2 ^ 100) := by norm_num
      _ ≤ _ := by gcongr
  have w2 : 1 / θ ^ 2 * C ≤ 2 ^ 92 := by
    calc 1 / θ ^ 2 * (C : ℝ) ≤ 2 ^ 12 * 2 ^ 80 := by gcongr
      _ = _ := by norm_num
  have K : ∀ i j k, Bx ((Bradford s d).get i * t.a + (Bradford s d).get j * t.b + (Bradford s d).get k * t.c)
      ((Bradford s.real d.real).get i * t.a.val + (Bradford s.real d.real).get j * t.b.val +
        (Bradford s.real d.real).get k * t.c.val) (1 / 2 ^ 14 / θ ^ 2 * C) (24.72 * (1 / θ ^ 2 * C)) := by
    intro i j k
    refine dot3 (N := 3 / 2 ^ 16 * (1 / θ ^ 2 * C)) (h i) (h j) (h k) (cc ta) (cc tb) (cc tc) (le_of_eq (by ring))
      (le_of_eq (by ring)) ?_ ?_
    · generalize 1 / θ ^ 2 * (C : ℝ) = g at *
      norm_num at *; linarith
    · rw [show (1 : ℝ) / 2 ^ 14 / θ ^ 2 * C = 1 / 2 ^ 14 * (1 / θ ^ 2 * C) by ring]
      generalize 1 / θ ^ 2 * (C : ℝ) = g at *
      norm_num at *; linarith
  refine ⟨_, rfl, ?_⟩
  fin_cases i
  · exact ⟨(K 0 1 2).ap.fin, (K 0 1 2).ap.err⟩
  · exact ⟨(K 3 4 5).ap.fin, (K 3 4 5).ap.err⟩
  · exact ⟨(K 6 7 8).ap.fin, (K 6 7 8).ap.err⟩

/-- **C110, white.** The source white is carried to the destination white, within `2 ^ -13 / θ ^ 2`. -/
theorem C110_white (s d : Tristimulus F32) (θ : ℝ) (hs : s.Moderate) (hd : d.Moderate) (hθ : 1 / 2 ^ 6 ≤ θ)
    (hc : ∀ i, θ ≤ |(bradfordCone *ᵥ triV s.real) i| ∧ |(bradfordCone *ᵥ triV s.real) i| ≤ 2)
    (hc' : ∀ i, |(bradfordCone *ᵥ triV d.real) i| ≤ 2) (i : Fin 3) :
    ∃ x, x = (s.apply (Bradford s d)).vec3.get i ∧ x.isFinite = true ∧
      |(x.val : ℝ) - triV d.real i| ≤ 3 / 2 ^ 15 / θ ^ 2 := by
  obtain ⟨x, hx, h1, h2⟩ := C110_adapt s d s θ (3 / 2) hs hd hθ hc hc' (by norm_num) (by norm_num)
    ⟨⟨hs.1.1, hs.2.1⟩, ⟨hs.1.2.1, hs.2.2.1⟩, ⟨hs.1.2.2, hs.2.2.2⟩⟩ i
  refine ⟨x, hx, h1, ?_⟩
  have t0 : 0 < θ := lt_of_lt_of_le (by norm_num) hθ
  rw [C07_white s.real d.real (fun j => abs_pos.1 (t0.trans_le (hc j).1))] at h2
  exact h2.trans (le_of_eq (by push_cast; ring))

/-- Satisfiable: D65 to D50, with `θ = 3/4`. -/
example : (Illuminant_D65 : Tristimulus F32).Moderate ∧ (Illuminant_D50 : Tristimulus F32).Moderate ∧
    (∀ i, 3 / 4 ≤ |(bradfordCone *ᵥ triV (Illuminant_D65 : Tristimulus F32).real) i| ∧
      |(bradfordCone *ᵥ triV (Illuminant_D65 : Tristimulus F32).real) i| ≤ 2) ∧
    ∀ i, |(bradfordCone *ᵥ triV (Illuminant_D50 : Tristimulus F32).real) i| ≤ 2 := by
  have a1 : (Illuminant_D65 : Tristimulus F32).a.val = 15946240 / 2 ^ 24 := by decide +kernel
  have a2 : (Illuminant_D65 : Tristimulus F32).b.val = 1 := by decide +kernel
  have a3 : (Illuminant_D65 : Tristimulus F32).c.val = 9133768 / 2 ^ 23 := by decide +kernel
  have b1 : (Illuminant_D50 : Tristimulus F32).a.val = 16176927 / 2 ^ 24 := by decide +kernel
  have b2 : (Illuminant_D50 : Tristimulus F32).b.val = 1 := by decide +kernel
  have b3 : (Illuminant_D50 : Tristimulus F32).c.val = 13844726 / 2 ^ 24 := by decide +kernel
  refine ⟨by unfold Tristimulus.Moderate; decide +kernel, by unfold Tristimulus.Moderate; decide +kernel, fun i => ?_,
    fun i => ?_⟩
  · fin_cases i <;>
      norm_num [bradfordCone, triV, Tristimulus.real, a1, a2, a3, Matrix.mulVec, dotProduct, Fin.sum_univ_succ, abs_le, le_abs]
  · fin_cases i <;>
      norm_num [bradfordCone, triV, Tristimulus.real, b1, b2, b3, Matrix.mulVec, dotProduct, Fin.sum_univ_succ, abs_le, le_abs]

end CS
