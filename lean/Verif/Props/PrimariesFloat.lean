import Verif.Props.BradfordFloat
import Verif.Props.YxyFloat
import Verif.Props.Gamut

/-!
# C121: an RGB space built from any primaries, in single precision

`Gamut(name, xR, yR, …)` (hpp:517-524) with every operation rounded to binary32. C99 treats the header's own spaces;
here the chromaticities are arbitrary.
-/

namespace CS
open F32 B32 Matrix Spec Tristimulus

namespace PrimariesFloat
open InvertFloat BradfordFloat

/-- The third chromaticity coordinate. -/
theorem z_ap {x y : F32} (fx : x.isFinite = true) (fy : y.isFinite = true) (hx : |(x.val : ℝ)| ≤ 1)
    (hz : |1 - (x.val : ℝ) - y.val| ≤ 1) : Ap (z_from_xy x y) (1 - x.val - y.val) (3.1 / 2 ^ 24) := by
  obtain ⟨x1, x2⟩ := _root_.abs_le.1 hx
  have a := lab_1.sub (Ap.exact fx) (B := 2) (E := 2.01 / 2 ^ 24) (by rw [_root_.abs_le]; constructor <;> linarith) (by norm_num) (by norm_num)
  exact a.sub (Ap.exact fy) (B := 1) hz (by norm_num) (by norm_num)

/-- The white of luminance 1. -/
theorem white_ap {x y : F32} {g : ℝ} (fx : x.isFinite = true) (fy : y.isFinite = true) (hx : |(x.val : ℝ)| ≤ 1)
    (hz : |1 - (x.val : ℝ) - y.val| ≤ 1) (g1 : 1 ≤ g) (g2 : g ≤ 2 ^ 8) (hy : 1 / g ≤ y.val) :
    Bx (fromYxy3 (lit 1) x y).a (x.val / y.val) (5.4 / 2 ^ 24 * g) g ∧ Bx (fromYxy3 (lit 1) x y).b 1 (5.4 / 2 ^ 24 * g) g ∧
    Bx (fromYxy3 (lit 1) x y).c ((1 - x.val - y.val) / y.val) (5.4 / 2 ^ 24 * g) g := by
  have g0 : 0 < g := by linarith
  have y0 : (0 : ℝ) < y.val := lt_of_lt_of_le (by positivity) hy
  have yq : (2e-8 : ℚ) ≤ y.val := by
    have : ((2e-8 : ℚ) : ℝ) ≤ y.val := by
      refine le_trans ?_ hy
      rw [le_div_iff₀ g0]; push_cast; norm_num at *; linarith
    exact_mod_cast this
  have hyg : 1 / (y.val : ℝ) ≤ g := by
    rw [div_le_iff₀ y0]
    rw [div_le_iff₀ g0] at hy
    linarith
  have q : ∀ r : ℝ, |r| ≤ 1 → |r / y.val| ≤ g := by
    intro r hr
    rw [abs_div, abs_of_pos y0, div_eq_mul_one_div]
    calc |r| * (1 / (y.val : ℝ)) ≤ 1 * g := by gcongr
      _ = g := one_mul _
  have one := abs_f_lt fy yq
  have dv : ∀ (v : F32) (r : ℝ), Ap v r (3.1 / 2 ^ 24) → |r| ≤ 1 → Bx (v * lit 1 / y) (r / y.val) (5.4 / 2 ^ 24 * g) g := by
    intro v r hv hr
    have a := hv.mul lab_1 (R := 1) (S := 1) (E := 4.2 / 2 ^ 24) hr (by norm_num) (by norm_num) (by norm_num)
    rw [mul_one] at a
    refine ⟨a.div (Ap.exact fy) (Q := g) (S := y.val) (d := 4.2 / 2 ^ 24 * g) (q r hr) (by linarith) y0 ?_ ?_ ?_, q r hr⟩
    · rw [mul_zero, add_zero, div_eq_mul_one_div]
      gcongr
    · norm_num at *; linarith
    · norm_num at *; linarith
  refine ⟨?_, ?_, ?_⟩
  · show Bx (X_from_Yxy (lit 1) x y) _ _ _
    unfold X_from_Yxy
    rw [if_neg (by rw [one]; exact Bool.false_ne_true)]
    exact dv x x.val ((Ap.exact fx).weaken (by positivity)) hx
  · exact ⟨lab_1.weaken (by positivity), by rw [abs_one]; exact g1⟩
  · show Bx (Z_from_Yxy (lit 1) x y) _ _ _
    unfold Z_from_Yxy
    rw [if_neg (by rw [one]; exact Bool.false_ne_true)]
    exact dv _ _ (z_ap fx fy hx hz) hz

/-- The cofactors, arranged as in the inverse. -/
def cofs (a : Matrix3 ℝ) : Matrix3 ℝ :=
  ⟨a.m4 * a.m8 - a.m5 * a.m7, a.m2 * a.m7 - a.m1 * a.m8, a.m1 * a.m5 - a.m2 * a.m4,
   a.m5 * a.m6 - a.m3 * a.m8, a.m0 * a.m8 - a.m2 * a.m6, a.m2 * a.m3 - a.m0 * a.m5,
   a.m3 * a.m7 - a.m4 * a.m6, a.m1 * a.m6 - a.m0 * a.m7, a.m0 * a.m4 - a.m1 * a.m3⟩

/-- The inverse in binary32 is a common factor, close to the reciprocal of the determinant, times nearly the cofactors. -/
theorem invert_ap {m : Matrix3 F32} {h : ℝ} (hB : ∀ i, Le (m.get i) (1025 / 1024)) (h1 : 1 ≤ h) (h2 : h ≤ 2 ^ 8)
    (hd : 0.99 ≤ h * |m.real.det|) :
    |((lit 1 / m.det : F32).val : ℝ) * m.real.det - 1| ≤ 40 / 2 ^ 24 * h ∧
    ∀ i, Bx (m.invert.get i) ((cofs m.real).get i * ((lit 1 / m.det : F32).val : ℝ)) (6.3 / 2 ^ 24 * h) (2.1 * h) := by
  have sc : Scale (1025 / 1024) := ⟨by norm_num, by norm_num⟩
  have h0 : 0 < h := by linarith
  obtain ⟨d1, d2⟩ := det_ap sc hB
  replace d1 : Ap m.det m.real.det (32.2 / 2 ^ 24) := d1.weaken (by norm_num)
  replace d2 : |m.real.det| ≤ 6.1 := d2.trans (by norm_num)
  generalize hs : m.real.det = s at *
  generalize hy : m.det = y at *
  have sl : 0.99 / h ≤ |s| := by rw [div_le_iff₀ h0]; linarith
  have hu : (32.2 : ℝ) / 2 ^ 24 ≤ 0.01 / h := by
    rw [le_div_iff₀ h0]; norm_num at *; linarith
  have yl : 0.98 / h ≤ |(y.val : ℝ)| := by
    have := abs_sub_abs_le_abs_sub s (y.val : ℝ)
    rw [abs_sub_comm] at this
    have e := d1.err
    have : 0.99 / h - 0.01 / h = 0.98 / h := by ring
    linarith
  have yp : 0 < |(y.val : ℝ)| := lt_of_lt_of_le (by positivity) yl
  have yn : (y.val : ℝ) ≠ 0 := abs_pos.1 yp
  have iq : |1 / (y.val : ℝ)| ≤ 1.0205 * h := by
    rw [abs_div, abs_one, div_le_iff₀ yp]
    calc (1 : ℝ) ≤ 1.0205 * h * (0.98 / h) := by field_simp; norm_num
      _ ≤ _ := by gcongr
  have hr := div_abs lab_1 (Ap.exact d1.fin) (Q := 1.0205 * h) (S := |(y.val : ℝ)|) (d := 0) (E := 1.021 / 2 ^ 24 * h) iq (by linarith) yp
    (by norm_num) (by norm_num at *; linarith) (by norm_num at *; linarith)
  have rl : |((lit 1 / y : F32).val : ℝ)| ≤ 1.021 * h := by
    refine (hr.abs_le iq).trans ?_
    norm_num at *; linarith
  refine ⟨?_, ?_⟩
  · have e1 := hr.err
    generalize ((lit 1 / y : F32).val : ℝ) = ρ at *
    have eq : ρ * s - 1 = (ρ - 1 / y.val) * s + (s - y.val) * (1 / y.val) := by field_simp; ring
    rw [eq]
    refine (abs_add_le _ _).trans ?_
    have t1 := mul_le e1 d2
    have e2 := d1.err
    rw [abs_sub_comm] at e2
    have t2 := mul_le e2 iq
    norm_num at *; linarith
  · have w : ∀ i j k l, Bx ((m.get i * m.get j - m.get k * m.get l) * (lit 1 / y))
        (((m.get i).val * (m.get j).val - (m.get k).val * (m.get l).val) * ((lit 1 / y : F32).val : ℝ)) (6.3 / 2 ^ 24 * h) (2.1 * h) := by
      intro i j k l
      obtain ⟨c1, c2⟩ := cof sc (hB i) (hB j) (hB k) (hB l)
      replace c2 := c2.trans (show 2 * ((1025 / 1024 : ℝ) * (1025 / 1024)) ≤ 2.004 by norm_num)
      replace c1 := c1.weaken (show (1025 / 1024 : ℝ) * (1025 / 1024) * (1 / 2 ^ 22 + 1 / 2 ^ 40) ≤ 4.01 / 2 ^ 24 by norm_num)
      refine ⟨c1.mul (Ap.exact hr.fin) (R := 2.004) (S := 1.021 * h) c2 rl (by norm_num at *; linarith) (by norm_num at *; linarith), ?_⟩
      refine (mul_le c2 rl).trans ?_
      norm_num at *; linarith
    have e : ∀ i, m.invert.get i = ((⟨m.m4 * m.m8 - m.m5 * m.m7, m.m2 * m.m7 - m.m1 * m.m8, m.m1 * m.m5 - m.m2 * m.m4,
        m.m5 * m.m6 - m.m3 * m.m8, m.m0 * m.m8 - m.m2 * m.m6, m.m2 * m.m3 - m.m0 * m.m5,
        m.m3 * m.m7 - m.m4 * m.m6, m.m1 * m.m6 - m.m0 * m.m7, m.m0 * m.m4 - m.m1 * m.m3⟩ : Matrix3 F32).get i) * (lit 1 / y) := by
      intro i; rw [← hy]; fin_cases i <;> rfl
    intro i
    rw [e i]
    fin_cases i
    · exact w 4 8 5 7
    · exact w 2 7 1 8
    · exact w 1 5 2 4
    · exact w 5 6 3 8
    · exact w 0 8 2 6
    · exact w 2 3 0 5
    · exact w 3 7 4 6
    · exact w 1 6 0 7
    · exact w 0 4 1 3

/-- The weight of one primary. -/
theorem weight_ap {a b c x y z : F32} {p q r s t w g h : ℝ} (g1 : 1 ≤ g) (g2 : g ≤ 2 ^ 8) (h1 : 1 ≤ h) (h2 : h ≤ 2 ^ 8)
    (ha : Bx a p (6.3 / 2 ^ 24 * h) (2.1 * h)) (hb : Bx b q (6.3 / 2 ^ 24 * h) (2.1 * h)) (hc : Bx c r (6.3 / 2 ^ 24 * h) (2.1 * h))
    (hx : Bx x s (5.4 / 2 ^ 24 * g) g) (hy : Bx y t (5.4 / 2 ^ 24 * g) g) (hz : Bx z w (5.4 / 2 ^ 24 * g) g) :
    Bx (a * x + b * y + c * z) (p * s + q * t + r * w) (72.3 / 2 ^ 24 * (h * g)) (6.3 * (h * g)) := by
  have P1 : 1 ≤ h * g := by nlinarith
  have P2 : h * g ≤ 2 ^ 16 := by nlinarith
  refine dot3 (N := 53.2 / 2 ^ 24 * (h * g)) (T := 6.3 * (h * g)) ha hb hc hx hy hz ?_ ?_ ?_ ?_
  · rw [show 6.3 / 2 ^ 24 * h * g + 5.4 / 2 ^ 24 * g * (2.1 * h) + 6.3 / 2 ^ 24 * h * (5.4 / 2 ^ 24 * g) =
      (6.3 / 2 ^ 24 + 5.4 / 2 ^ 24 * 2.1 + 6.3 / 2 ^ 24 * (5.4 / 2 ^ 24)) * (h * g) by ring]
    generalize h * g = P at *
    norm_num at *; linarith
  · linarith
  · generalize h * g = P at *
    norm_num at *; linarith
  · generalize h * g = P at *
    norm_num at *; linarith

/-- The matrix times the diagonal of the weights: every entry is one product. -/
theorem mulDiag_ap {m : Matrix3 F32} {v : Vector3 F32} {w : Vector3 ℝ} {B E F T : ℝ} (hm : ∀ i, Le (m.get i) B)
    (hv : ∀ i, Bx (v.get i) (w.get i) E T) (hT : B * T ≤ 2 ^ 90) (hE : E * B ≤ 2 ^ 90)
    (hF : (E * B + 3 * (B * T) / 2 ^ 24) * (1 + 1 / 2 ^ 20) + 1 / 2 ^ 140 ≤ F) (i : Fin 9) :
    Bx ((m.mul (Gamut.diag v)).get i) ((m.real.mul (Gamut.diag w)).get i) F (B * T) := by
  have p : ∀ i, Bx (m.get i) (m.real.get i) 0 B := fun i => by
    rw [real_get]; exact ⟨Ap.exact (hm i).fin, (hm i).le⟩
  have hN : 0 * T + E * B + 0 * E ≤ E * B := by linarith
  have hs : E * B + B * T ≤ 2 ^ 100 := by norm_num at *; linarith
  have A : ∀ i j k, Bx (m.get i * v.get 0 + m.get j * lit 0 + m.get k * lit 0)
      (m.real.get i * w.get 0 + m.real.get j * lit 0 + m.real.get k * lit 0) F (B * T) := fun i j k =>
    dot3 (p i) (p j) (p k) (hv 0) zero zero (by simpa using hN) (by simp) hs hF
  have B' : ∀ i j k, Bx (m.get i * lit 0 + m.get j * v.get 1 + m.get k * lit 0)
      (m.real.get i * lit 0 + m.real.get j * w.get 1 + m.real.get k * lit 0) F (B * T) := fun i j k =>
    dot3 (p i) (p j) (p k) zero (hv 1) zero (by simpa using hN) (by simp) hs hF
  have C : ∀ i j k, Bx (m.get i * lit 0 + m.get j * lit 0 + m.get k * v.get 2)
      (m.real.get i * lit 0 + m.real.get j * lit 0 + m.real.get k * w.get 2) F (B * T) := fun i j k =>
    dot3 (p i) (p j) (p k) zero zero (hv 2) (by simpa using hN) (by simp) hs hF
  fin_cases i
  · exact A 0 1 2
  · exact B' 0 1 2
  · exact C 0 1 2
  · exact A 3 4 5
  · exact B' 3 4 5
  · exact C 3 4 5
  · exact A 6 7 8
  · exact B' 6 7 8
  · exact C 6 7 8

end PrimariesFloat

open PrimariesFloat InvertFloat BradfordFloat

/-- Chromaticities `(x, y)` with all three of `x`, `y`, `1 - x - y` at most 1 in magnitude. -/
def Chroma (x y : F32) : Prop :=
  (x.isFinite = true ∧ y.isFinite = true) ∧ |x.val| ≤ 1 ∧ |y.val| ≤ 1 ∧ |1 - x.val - y.val| ≤ 1

/-- Primaries spanning a triangle of area at least `d / 2`, and a white whose `y` is at least `θ`. -/
structure UsablePrimaries (xR yR xG yG xB yB xW yW : F32) (d θ : ℚ) : Prop where
  red : Chroma xR yR
  green : Chroma xG yG
  blue : Chroma xB yB
  white : Chroma xW yW
  area : d ≤ |(xG.val - xR.val) * (yB.val - yR.val) - (xB.val - xR.val) * (yG.val - yR.val)|
  d_lo : 1 / 2 ^ 8 ≤ d
  d_hi : d ≤ 1
  lum : θ ≤ yW.val
  lo : 1 / 2 ^ 8 ≤ θ

namespace PrimariesFloat

theorem Chroma.reals {x y : F32} (h : Chroma x y) : (x.isFinite = true ∧ y.isFinite = true) ∧ |(x.val : ℝ)| ≤ 1 ∧ |(y.val : ℝ)| ≤ 1 ∧
    |1 - (x.val : ℝ) - y.val| ≤ 1 := by
  obtain ⟨f, a, b, c⟩ := h
  refine ⟨f, by exact_mod_cast a, by exact_mod_cast b, ?_⟩
  have := (Rat.cast_le (K := ℝ)).2 c
  push_cast at this; exact this

theorem Chroma.z {x y : F32} (h : Chroma x y) : Ap (z_from_xy x y) (1 - x.val - y.val) (3.1 / 2 ^ 24) ∧ Le (z_from_xy x y) (1025 / 1024) := by
  obtain ⟨⟨fx, fy⟩, hx, -, hz⟩ := Chroma.reals h
  have a := z_ap fx fy hx hz
  exact ⟨a, a.fin, (a.abs_le hz).trans (by norm_num)⟩

theorem entries_le {xR yR xG yG xB yB : F32} (hR : Chroma xR yR) (hG : Chroma xG yG) (hB : Chroma xB yB) (i : Fin 9) :
    Le ((Gamut.primMat xR yR xG yG xB yB).get i) (1025 / 1024) := by
  obtain ⟨⟨a1, a2⟩, a3, a4, -⟩ := Chroma.reals hR
  obtain ⟨⟨b1, b2⟩, b3, b4, -⟩ := Chroma.reals hG
  obtain ⟨⟨c1, c2⟩, c3, c4, -⟩ := Chroma.reals hB
  have k : (1 : ℝ) ≤ 1025 / 1024 := by norm_num
  fin_cases i
  · exact ⟨a1, a3.trans k⟩
  · exact ⟨b1, b3.trans k⟩
  · exact ⟨c1, c3.trans k⟩
  · exact ⟨a2, a4.trans k⟩
  · exact ⟨b2, b4.trans k⟩
  · exact ⟨c2, c4.trans k⟩
  · exact (Chroma.z hR).2
  · exact (Chroma.z hG).2
  · exact (Chroma.z hB).2

/-- Replacing the last row of a determinant by a nearby one. -/
theorem det_last {a b c p q r u v w u' v' w' e : ℝ} (ha : |a| ≤ 1) (hb : |b| ≤ 1) (hc : |c| ≤ 1) (hp : |p| ≤ 1) (hq : |q| ≤ 1)
    (hr : |r| ≤ 1) (hu : |u - u'| ≤ e) (hv : |v - v'| ≤ e) (hw : |w - w'| ≤ e) :
    |(a * q * w + p * v * c + u * b * r - a * v * r - u * q * c - p * b * w) -
      (a * q * w' + p * v' * c + u' * b * r - a * v' * r - u' * q * c - p * b * w')| ≤ 6 * e := by
  rw [show (a * q * w + p * v * c + u * b * r - a * v * r - u * q * c - p * b * w) -
      (a * q * w' + p * v' * c + u' * b * r - a * v' * r - u' * q * c - p * b * w') =
      (b * r - q * c) * (u - u') + (p * c - a * r) * (v - v') + (a * q - p * b) * (w - w') by ring]
  refine (abs_add_three _ _ _).trans ?_
  have k : ∀ {x y z t : ℝ}, |x| ≤ 1 → |y| ≤ 1 → |z| ≤ 1 → |t| ≤ 1 → |x * y - z * t| ≤ 2 := by
    intro x y z t h1 h2 h3 h4
    refine (abs_sub _ _).trans ?_
    have := InvertFloat.mul_le h1 h2
    have := InvertFloat.mul_le h3 h4
    linarith
  have t1 := InvertFloat.mul_le (k hb hr hq hc) hu
  have t2 := InvertFloat.mul_le (k hp hc ha hr) hv
  have t3 := InvertFloat.mul_le (k ha hq hp hb) hw
  linarith

theorem det_lower {xR yR xG yG xB yB xW yW : F32} {d θ : ℚ} (h : UsablePrimaries xR yR xG yG xB yB xW yW d θ) :
    0.99 ≤ (1 / (d : ℝ)) * |(Gamut.primMat xR yR xG yG xB yB).real.det| := by
  obtain ⟨-, a3, a4, -⟩ := Chroma.reals h.red
  obtain ⟨-, b3, b4, -⟩ := Chroma.reals h.green
  obtain ⟨-, c3, c4, -⟩ := Chroma.reals h.blue
  have k := det_last a3 b3 c3 a4 b4 c4 (Chroma.z h.red).1.err (Chroma.z h.green).1.err (Chroma.z h.blue).1.err
  have e : (Gamut.primMat xR yR xG yG xB yB).real.det = (xR.val : ℝ) * yG.val * (z_from_xy xB yB).val + yR.val * (z_from_xy xG yG).val * xB.val +
    (z_from_xy xR yR).val * xG.val * yB.val - xR.val * (z_from_xy xG yG).val * yB.val - (z_from_xy xR yR).val * yG.val * xB.val -
    yR.val * xG.val * (z_from_xy xB yB).val := rfl
  rw [← e] at k
  have ar := (Rat.cast_le (K := ℝ)).2 h.area
  push_cast at ar
  have lo := (Rat.cast_le (K := ℝ)).2 h.d_lo
  push_cast at lo
  have e2 : (xR.val : ℝ) * yG.val * (1 - xB.val - yB.val) + yR.val * (1 - xG.val - yG.val) * xB.val +
    (1 - xR.val - yR.val) * xG.val * yB.val - xR.val * (1 - xG.val - yG.val) * yB.val - (1 - xR.val - yR.val) * yG.val * xB.val -
    yR.val * xG.val * (1 - xB.val - yB.val) =
    (xG.val - xR.val) * (yB.val - yR.val) - (xB.val - xR.val) * (yG.val - yR.val) := by ring
  rw [e2] at k
  have d0 : (0 : ℝ) < d := lt_of_lt_of_le (by norm_num) lo
  rw [one_div_mul_eq_div, le_div_iff₀ d0]
  have := abs_sub_abs_le_abs_sub (((xG.val : ℝ) - xR.val) * (yB.val - yR.val) - (xB.val - xR.val) * (yG.val - yR.val))
    (Gamut.primMat xR yR xG yG xB yB).real.det
  rw [abs_sub_comm] at k
  norm_num at *; linarith

/-- Products of a matrix with its cofactors, row by row. -/
theorem cofs_white (a : Matrix3 ℝ) (ρ x y z : ℝ) (s : Vector3 ℝ)
    (h0 : s.x = (cofs a).m0 * ρ * x + (cofs a).m1 * ρ * y + (cofs a).m2 * ρ * z)
    (h1 : s.y = (cofs a).m3 * ρ * x + (cofs a).m4 * ρ * y + (cofs a).m5 * ρ * z)
    (h2 : s.z = (cofs a).m6 * ρ * x + (cofs a).m7 * ρ * y + (cofs a).m8 * ρ * z) :
    a.m0 * s.x + a.m1 * s.y + a.m2 * s.z = ρ * a.det * x ∧
    a.m3 * s.x + a.m4 * s.y + a.m5 * s.z = ρ * a.det * y ∧
    a.m6 * s.x + a.m7 * s.y + a.m8 * s.z = ρ * a.det * z := by
  have e : a.det = a.m0 * a.m4 * a.m8 + a.m3 * a.m7 * a.m2 + a.m6 * a.m1 * a.m5 - a.m0 * a.m7 * a.m5 - a.m6 * a.m4 * a.m2 -
    a.m3 * a.m1 * a.m8 := rfl
  rw [h0, h1, h2, e]
  simp only [cofs]
  refine ⟨by ring, by ring, by ring⟩

end PrimariesFloat

/-- **C121, white.** The matrix built in binary32 sends (1, 1, 1) to the white of luminance 1 asked for, within
`2 ^ -15 / (d θ)`: `d / 2` is the area of the triangle of primaries and `θ` the `y` of the white. -/
theorem C121_white (name : String) (xR yR xG yG xB yB xW yW : F32) (d θ : ℚ) (h : UsablePrimaries xR yR xG yG xB yB xW yW d θ) :
    let t := (Gamut.ofPrimaries name xR yR xG yG xB yB xW yW).toXYZ ⟨lit 1, lit 1, lit 1⟩
    Ap t.a (whiteXYZ xW.val yW.val 0) (1 / 2 ^ 15 / (d * θ)) ∧ Ap t.b (whiteXYZ xW.val yW.val 1) (1 / 2 ^ 15 / (d * θ)) ∧
    Ap t.c (whiteXYZ xW.val yW.val 2) (1 / 2 ^ 15 / (d * θ)) := by
  intro t
  have lo := (Rat.cast_le (K := ℝ)).2 h.d_lo
  have hi := (Rat.cast_le (K := ℝ)).2 h.d_hi
  have tlo := (Rat.cast_le (K := ℝ)).2 h.lo
  have tlu := (Rat.cast_le (K := ℝ)).2 h.lum
  push_cast at lo hi tlo tlu
  have d0 : (0 : ℝ) < d := lt_of_lt_of_le (by norm_num) lo
  have t0 : (0 : ℝ) < θ := lt_of_lt_of_le (by norm_num) tlo
  obtain ⟨⟨w1, w2⟩, w3, w4, w5⟩ := Chroma.reals h.white
  have tle : (θ : ℝ) ≤ 1 := tlu.trans ((le_abs_self _).trans w4)
  have h1 : 1 ≤ 1 / (d : ℝ) := by rw [le_div_iff₀ d0]; linarith
  have h2 : 1 / (d : ℝ) ≤ 2 ^ 8 := by rw [div_le_iff₀ d0]; norm_num at *; linarith
  have g1 : 1 ≤ 1 / (θ : ℝ) := by rw [le_div_iff₀ t0]; linarith
  have g2 : 1 / (θ : ℝ) ≤ 2 ^ 8 := by rw [div_le_iff₀ t0]; norm_num at *; linarith
  have dl := det_lower h
  have hm := entries_le h.red h.green h.blue
  have fin : (1 : ℝ) / 2 ^ 15 / (d * θ) = 512 / 2 ^ 24 * (1 / d * (1 / θ)) := by field_simp; norm_num
  rw [fin]
  obtain ⟨r1, r2⟩ := invert_ap hm h1 h2 dl
  obtain ⟨x1, x2, x3⟩ := white_ap w1 w2 w3 w5 g1 g2 (by rw [one_div_one_div]; exact tlu)
  have P1 : 1 ≤ 1 / (d : ℝ) * (1 / θ) := by nlinarith
  have P2 : 1 / (d : ℝ) * (1 / θ) ≤ 2 ^ 16 := by nlinarith
  -- the weights
  let m := Gamut.primMat xR yR xG yG xB yB
  let v := m.invert.apply (fromYxy3 (lit 1) xW yW).vec3
  have ht : t = .ofVec3 ((m.mul (Gamut.diag v)).apply ⟨lit 1, lit 1, lit 1⟩) := rfl
  generalize hρ : ((lit 1 / (Gamut.primMat xR yR xG yG xB yB).det : F32).val : ℝ) = ρ at *
  have s0 := weight_ap g1 g2 h1 h2 (r2 0) (r2 1) (r2 2) x1 x2 x3
  have s1 := weight_ap g1 g2 h1 h2 (r2 3) (r2 4) (r2 5) x1 x2 x3
  have s2 := weight_ap g1 g2 h1 h2 (r2 6) (r2 7) (r2 8) x1 x2 x3
  obtain ⟨w, hw0, hw1, hw2⟩ : ∃ w : Vector3 ℝ, w.x = (cofs m.real).m0 * ρ * (xW.val / yW.val) + (cofs m.real).m1 * ρ * 1 + (cofs m.real).m2 * ρ * ((1 - xW.val - yW.val) / yW.val) ∧
      w.y = (cofs m.real).m3 * ρ * (xW.val / yW.val) + (cofs m.real).m4 * ρ * 1 + (cofs m.real).m5 * ρ * ((1 - xW.val - yW.val) / yW.val) ∧
      w.z = (cofs m.real).m6 * ρ * (xW.val / yW.val) + (cofs m.real).m7 * ρ * 1 + (cofs m.real).m8 * ρ * ((1 - xW.val - yW.val) / yW.val) :=
    ⟨⟨_, _, _⟩, rfl, rfl, rfl⟩
  have hv : ∀ i, Bx (v.get i) (w.get i) (72.3 / 2 ^ 24 * (1 / d * (1 / θ))) (6.3 * (1 / d * (1 / θ))) := by
    intro i
    fin_cases i
    · show Bx _ w.x _ _
      rw [hw0]; exact s0
    · show Bx _ w.y _ _
      rw [hw1]; exact s1
    · show Bx _ w.z _ _
      rw [hw2]; exact s2
  obtain ⟨c0, c1, c2⟩ := cofs_white m.real ρ _ _ _ w hw0 hw1 hw2
  have scale : ∀ W : ℝ, |W| ≤ 1 / θ → |ρ * m.real.det * W - W| ≤ 40 / 2 ^ 24 * (1 / d * (1 / θ)) := by
    intro W hW
    rw [show ρ * m.real.det * W - W = (ρ * m.real.det - 1) * W by ring, ← mul_assoc]
    exact InvertFloat.mul_le r1 hW
  generalize 1 / (d : ℝ) * (1 / θ) = P at *
  have M := mulDiag_ap (F := 91.5 / 2 ^ 24 * P) hm hv (by norm_num at *; linarith) (by norm_num at *; linarith) (by norm_num at *; linarith)
  have one : Bx (lit 1 : F32) 1 0 1 := ⟨lab_1, by norm_num⟩
  have row : ∀ i j k, Bx ((m.mul (Gamut.diag v)).get i * lit 1 + (m.mul (Gamut.diag v)).get j * lit 1 + (m.mul (Gamut.diag v)).get k * lit 1)
      ((m.real.mul (Gamut.diag w)).get i * 1 + (m.real.mul (Gamut.diag w)).get j * 1 + (m.real.mul (Gamut.diag w)).get k * 1)
      (332 / 2 ^ 24 * P) (3 * (1025 / 1024 * (6.3 * P))) := fun i j k =>
    dot3 (N := 274.6 / 2 ^ 24 * P) (M i) (M j) (M k) one one one (by norm_num at *; linarith) (by linarith) (by norm_num at *; linarith)
      (by norm_num at *; linarith)
  have z : (lit 0 : ℝ) = 0 := by rw [lit_real, Rat.cast_zero]
  have rowv : ∀ a b c : ℝ, (a * w.x + b * lit 0 + c * lit 0) * 1 + (a * lit 0 + b * w.y + c * lit 0) * 1 + (a * lit 0 + b * lit 0 + c * w.z) * 1 =
      a * w.x + b * w.y + c * w.z := by
    intro a b c; rw [z]; ring
  have last : ∀ {y : F32} {r W : ℝ}, Ap y r (332 / 2 ^ 24 * P) → r = ρ * m.real.det * W → |W| ≤ 1 / θ → Ap y W (512 / 2 ^ 24 * P) := by
    intro y r W hy hr hW
    refine ⟨hy.fin, ?_⟩
    have e1 := hy.err
    have e2 := scale W hW
    rw [hr] at e1
    have h4 := abs_add_le ((y.val : ℝ) - ρ * m.real.det * W) (ρ * m.real.det * W - W)
    rw [sub_add_sub_cancel] at h4
    norm_num at *; linarith
  rw [ht]
  refine ⟨?_, ?_, ?_⟩
  · exact last (row 0 1 2).ap ((rowv _ _ _).trans c0) x1.le
  · exact last (row 3 4 5).ap ((rowv _ _ _).trans c1) x2.le
  · exact last (row 6 7 8).ap ((rowv _ _ _).trans c2) x3.le

/-- **C121, primaries.** Each column of the matrix is a multiple of the chromaticity asked for, up to `2 ^ -21` of the
multiple. -/
theorem C121_primaries (name : String) (xR yR xG yG xB yB xW yW : F32) (d θ : ℚ) (h : UsablePrimaries xR yR xG yG xB yB xW yW d θ) :
    ∃ s : Fin 3 → ℝ, ∀ i j, |toM (Gamut.ofPrimaries name xR yR xG yG xB yB xW yW).toXYZ_.real i j -
      s j * primaries xR.val yR.val xG.val yG.val xB.val yB.val i j| ≤ 1 / 2 ^ 21 * |s j| + 1 / 2 ^ 130 := by
  have lo := (Rat.cast_le (K := ℝ)).2 h.d_lo
  have hi := (Rat.cast_le (K := ℝ)).2 h.d_hi
  have tlo := (Rat.cast_le (K := ℝ)).2 h.lo
  have tlu := (Rat.cast_le (K := ℝ)).2 h.lum
  push_cast at lo hi tlo tlu
  have d0 : (0 : ℝ) < d := lt_of_lt_of_le (by norm_num) lo
  have t0 : (0 : ℝ) < θ := lt_of_lt_of_le (by norm_num) tlo
  obtain ⟨⟨w1, w2⟩, w3, w4, w5⟩ := Chroma.reals h.white
  have tle : (θ : ℝ) ≤ 1 := tlu.trans ((le_abs_self _).trans w4)
  have h1 : 1 ≤ 1 / (d : ℝ) := by rw [le_div_iff₀ d0]; linarith
  have h2 : 1 / (d : ℝ) ≤ 2 ^ 8 := by rw [div_le_iff₀ d0]; norm_num at *; linarith
  have g1 : 1 ≤ 1 / (θ : ℝ) := by rw [le_div_iff₀ t0]; linarith
  have g2 : 1 / (θ : ℝ) ≤ 2 ^ 8 := by rw [div_le_iff₀ t0]; norm_num at *; linarith
  have dl := det_lower h
  have hm := entries_le h.red h.green h.blue
  obtain ⟨r1, r2⟩ := invert_ap hm h1 h2 dl
  obtain ⟨x1, x2, x3⟩ := white_ap w1 w2 w3 w5 g1 g2 (by rw [one_div_one_div]; exact tlu)
  have P2 : 1 / (d : ℝ) * (1 / θ) ≤ 2 ^ 16 := by nlinarith
  let m := Gamut.primMat xR yR xG yG xB yB
  let v := m.invert.apply (fromYxy3 (lit 1) xW yW).vec3
  have s0 := weight_ap g1 g2 h1 h2 (r2 0) (r2 1) (r2 2) x1 x2 x3
  have s1 := weight_ap g1 g2 h1 h2 (r2 3) (r2 4) (r2 5) x1 x2 x3
  have s2 := weight_ap g1 g2 h1 h2 (r2 6) (r2 7) (r2 8) x1 x2 x3
  generalize 1 / (d : ℝ) * (1 / θ) = P at *
  have fin : ∀ {x : F32} {r : ℝ}, Bx x r (72.3 / 2 ^ 24 * P) (6.3 * P) → x.isFinite = true ∧ |(x.val : ℝ)| ≤ 2 ^ 20 := by
    intro x r hx
    refine ⟨hx.ap.fin, (hx.ap.abs_le hx.le).trans ?_⟩
    norm_num at *; linarith
  have col : ∀ {x y z s : F32}, s.isFinite = true ∧ |(s.val : ℝ)| ≤ 2 ^ 20 → Le x (1025 / 1024) → Le y (1025 / 1024) → Le z (1025 / 1024) →
      (Ap (x * s + y * lit 0 + z * lit 0) (s.val * x.val) (3.1 / 2 ^ 24 * |(s.val : ℝ)| + 1 / 2 ^ 140) ∧
       Ap (y * lit 0 + x * s + z * lit 0) (s.val * x.val) (3.1 / 2 ^ 24 * |(s.val : ℝ)| + 1 / 2 ^ 140) ∧
       Ap (y * lit 0 + z * lit 0 + x * s) (s.val * x.val) (3.1 / 2 ^ 24 * |(s.val : ℝ)| + 1 / 2 ^ 140)) := by
    intro x y z s hs hx hy hz
    have p : ∀ {x : F32}, Le x (1025 / 1024) → Bx x x.val 0 (1025 / 1024) := fun hx => ⟨Ap.exact hx.fin, hx.le⟩
    have q : Bx s s.val 0 |(s.val : ℝ)| := ⟨Ap.exact hs.1, le_rfl⟩
    have z0 : (lit 0 : ℝ) = 0 := by rw [lit_real, Rat.cast_zero]
    have zr : Bx (lit 0 : F32) (lit 0 : ℝ) 0 0 := BradfordFloat.zero
    have S0 := abs_nonneg (s.val : ℝ)
    have S1 := hs.2
    have hE : ∀ S : ℝ, 0 ≤ S → (0 + 3 * (1025 / 1024 * S) / 2 ^ 24) * (1 + 1 / 2 ^ 20) + 1 / 2 ^ 140 ≤ 3.1 / 2 ^ 24 * S + 1 / 2 ^ 140 := by
      intro S h; norm_num; linarith
    have e1 := (dot3 (N := 0) (T := 1025 / 1024 * |(s.val : ℝ)|) (E := 3.1 / 2 ^ 24 * |(s.val : ℝ)| + 1 / 2 ^ 140) (p hx) (p hy) (p hz) q zr zr (by simp) (by simp)
      (by norm_num at *; linarith) (hE _ S0)).ap
    have e2 := (dot3 (N := 0) (T := 1025 / 1024 * |(s.val : ℝ)|) (E := 3.1 / 2 ^ 24 * |(s.val : ℝ)| + 1 / 2 ^ 140) (p hy) (p hx) (p hz) zr q zr (by simp) (by simp)
      (by norm_num at *; linarith) (hE _ S0)).ap
    have e3 := (dot3 (N := 0) (T := 1025 / 1024 * |(s.val : ℝ)|) (E := 3.1 / 2 ^ 24 * |(s.val : ℝ)| + 1 / 2 ^ 140) (p hy) (p hz) (p hx) zr zr q (by simp) (by simp)
      (by norm_num at *; linarith) (hE _ S0)).ap
    rw [z0] at e1 e2 e3
    rw [show (x.val : ℝ) * s.val + y.val * 0 + z.val * 0 = s.val * x.val by ring] at e1
    rw [show (y.val : ℝ) * 0 + x.val * s.val + z.val * 0 = s.val * x.val by ring] at e2
    rw [show (y.val : ℝ) * 0 + z.val * 0 + x.val * s.val = s.val * x.val by ring] at e3
    exact ⟨e1, e2, e3⟩
  -- an entry against the exact chromaticity
  have done : ∀ {y x : F32} {s r : ℝ}, Ap y (s * x.val) (3.1 / 2 ^ 24 * |s| + 1 / 2 ^ 140) → |(x.val : ℝ) - r| ≤ 3.1 / 2 ^ 24 →
      |(y.val : ℝ) - s * r| ≤ 1 / 2 ^ 21 * |s| + 1 / 2 ^ 130 := by
    intro y x s r hy hx
    have e1 := hy.err
    have h4 := abs_add_le ((y.val : ℝ) - s * x.val) (s * x.val - s * r)
    rw [sub_add_sub_cancel, show s * x.val - s * r = s * (x.val - r) by ring] at h4
    have h5 := InvertFloat.mul_le (le_refl |s|) hx
    have hS := abs_nonneg s
    generalize |s| = S at *
    have hE : ∀ S : ℝ, 0 ≤ S → 3.1 / 2 ^ 24 * S + 1 / 2 ^ 140 + S * (3.1 / 2 ^ 24) ≤ 1 / 2 ^ 21 * S + 1 / 2 ^ 130 := by
      intro S h; norm_num; linarith
    linarith [hE S hS]
  have ex : ∀ x : F32, |(x.val : ℝ) - x.val| ≤ 3.1 / 2 ^ 24 := fun x => by rw [sub_self, abs_zero]; positivity
  refine ⟨![(v.get 0).val, (v.get 1).val, (v.get 2).val], fun i j => ?_⟩
  have zR := (Chroma.z h.red).1.err
  have zG := (Chroma.z h.green).1.err
  have zB := (Chroma.z h.blue).1.err
  fin_cases i <;> fin_cases j
  · exact done (col (fin s0) (hm 0) (hm 1) (hm 2)).1 (ex _)
  · exact done (col (fin s1) (hm 1) (hm 0) (hm 2)).2.1 (ex _)
  · exact done (col (fin s2) (hm 2) (hm 0) (hm 1)).2.2 (ex _)
  · exact done (col (fin s0) (hm 3) (hm 4) (hm 5)).1 (ex _)
  · exact done (col (fin s1) (hm 4) (hm 3) (hm 5)).2.1 (ex _)
  · exact done (col (fin s2) (hm 5) (hm 3) (hm 4)).2.2 (ex _)
  · exact done (col (fin s0) (hm 6) (hm 7) (hm 8)).1 zR
  · exact done (col (fin s1) (hm 7) (hm 6) (hm 8)).2.1 zG
  · exact done (col (fin s2) (hm 8) (hm 6) (hm 7)).2.2 zB

/-- Satisfiable: the primaries of P3 with white D65. -/
example : UsablePrimaries (lit 0.68) (lit 0.32) (lit 0.265) (lit 0.69) (lit 0.15) (lit 0.06) (lit 0.3127) (lit 0.3290) (1 / 4) (1 / 4) :=
  ⟨by unfold Chroma; decide +kernel, by unfold Chroma; decide +kernel, by unfold Chroma; decide +kernel, by unfold Chroma; decide +kernel,
   by decide +kernel, by norm_num, by norm_num, by decide +kernel, by norm_num⟩

end CS
