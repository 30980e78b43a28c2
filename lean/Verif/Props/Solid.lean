import Verif.Props.Metamers

/-!
# C141: the solid of surface colours

Under a given light the colours of all surfaces (reflectances between 0 and 1) form a convex solid.  Its boundary consists of
surfaces that reflect all or nothing at each wavelength (Schrödinger's optimal colours), and those have no metamers.  Schrödinger's
second statement, that two transitions suffice, is false of the three tables of the header.
-/

namespace CS
open Spectrum Tristimulus Warm Metamer

namespace Solid

/-- Reflectances between 0 and 1. -/
def Surface (r : Spectrum ℝ) : Prop := ∀ i, 0 ≤ r i ∧ r i ≤ 1

/-- The component of a colour in a direction. -/
def along (d t : Tristimulus ℝ) : ℝ := d.a * t.a + d.b * t.b + d.c * t.c

/-- The colour, in the direction, of light of one wavelength. -/
noncomputable def weight (o : Observer ℝ) (d : Tristimulus ℝ) (i : Fin 400) : ℝ :=
  along d ⟨o.X i * o.normalize.a, o.Y i * o.normalize.b, o.Z i * o.normalize.c⟩

theorem along_colour (o : Observer ℝ) (d : Tristimulus ℝ) (r l : Spectrum ℝ) :
    along d (o.fromReflectanceAndLight r l) = ∑ i, r i * (l i * weight o d i) := by
  rw [colour]
  simp only [along, part, LinearMap.coe_mk, AddHom.coe_mk, weight, Finset.sum_mul, Finset.mul_sum, ← Finset.sum_add_distrib]
  refine Finset.sum_congr rfl fun i _ => ?_
  ring

/-- A surface that reflects everything where the weight is positive and nothing where it is negative. -/
def Optimal (o : Observer ℝ) (d : Tristimulus ℝ) (r : Spectrum ℝ) : Prop :=
  ∀ i, (0 < weight o d i → r i = 1) ∧ (weight o d i < 0 → r i = 0)

theorem term {o : Observer ℝ} {d : Tristimulus ℝ} {r s l : Spectrum ℝ} (hl : ∀ i, 0 ≤ l i) (hr : Optimal o d r) (hs : Surface s) (i : Fin 400) :
    s i * (l i * weight o d i) ≤ r i * (l i * weight o d i) := by
  obtain ⟨s0, s1⟩ := hs i
  rcases lt_trichotomy (weight o d i) 0 with h | h | h
  · rw [(hr i).2 h, zero_mul]
    exact mul_nonpos_of_nonneg_of_nonpos s0 (mul_nonpos_of_nonneg_of_nonpos (hl i) h.le)
  · rw [h, mul_zero, mul_zero, mul_zero]
  · rw [(hr i).1 h]
    exact mul_le_mul_of_nonneg_right s1 (mul_nonneg (hl i) h.le)

/-- At most two transitions: a band, or all but a band. -/
def TwoBand (s : Spectrum ℝ) : Prop :=
  ∃ p q : ℕ, (∀ i : Fin 400, s i = if p ≤ i.val ∧ i.val < q then 1 else 0) ∨ ∀ i : Fin 400, s i = if p ≤ i.val ∧ i.val < q then 0 else 1

theorem TwoBand.surface {s : Spectrum ℝ} (h : TwoBand s) : Surface s := by
  obtain ⟨p, q, h | h⟩ := h <;> intro i <;> rw [h i] <;> split <;> norm_num

/-- A surface with four alternating values has more. -/
theorem not_twoBand {s : Spectrum ℝ} {i j k m : Fin 400} (h : i < j ∧ j < k ∧ k < m) (hi : s i = 1) (hj : s j = 0) (hk : s k = 1) (hm : s m = 0) :
    ¬ TwoBand s := by
  obtain ⟨h1, h2, h3⟩ := h
  have h1 : i.val < j.val := h1
  have h2 : j.val < k.val := h2
  have h3 : k.val < m.val := h3
  rintro ⟨p, q, h | h⟩
  · rw [h i] at hi
    rw [h j] at hj
    rw [h k] at hk
    split at hi <;> split at hj <;> split at hk <;> first | omega | (exfalso; revert hi hj hk; norm_num)
  · rw [h j] at hj
    rw [h k] at hk
    rw [h m] at hm
    split at hj <;> split at hk <;> split at hm <;> first | omega | (exfalso; revert hj hk hm; norm_num)

end Solid

open Solid

/-- C141: the surface that reflects what another absorbs has the colour that the other lacks to white. -/
theorem C141_mirror (o : Observer ℝ) (l r : Spectrum ℝ) :
    (o.fromReflectanceAndLight (fun i => 1 - r i) l).add (o.fromReflectanceAndLight r l) = o.fromReflectanceAndLight (fun _ => 1) l := by
  have e : (fun _ : Fin 400 => (1 : ℝ)) = (fun i => 1 - r i) + r := by funext i; simp
  simp only [colour, Tristimulus.add]
  rw [e]
  simp only [map_add, add_mul]

/-- C141: every mixture of two surfaces' colours is the colour of a surface. -/
theorem C141_convex (o : Observer ℝ) (l r s : Spectrum ℝ) (hr : Surface r) (hs : Surface s) (k : ℝ) (h0 : 0 ≤ k) (h1 : k ≤ 1) :
    ∃ m, Surface m ∧ o.fromReflectanceAndLight m l =
      ((o.fromReflectanceAndLight r l).scale k).add ((o.fromReflectanceAndLight s l).scale (1 - k)) := by
  refine ⟨k • r + (1 - k) • s, fun i => ?_, ?_⟩
  · obtain ⟨r0, r1⟩ := hr i
    obtain ⟨s0, s1⟩ := hs i
    simp only [Pi.add_apply, Pi.smul_apply, smul_eq_mul]
    have a1 := mul_nonneg h0 r0
    have a2 := mul_nonneg (sub_nonneg.2 h1) s0
    have a3 := mul_le_mul_of_nonneg_left r1 h0
    have a4 := mul_le_mul_of_nonneg_left s1 (sub_nonneg.2 h1)
    constructor <;> linarith
  · simp only [colour, map_add, map_smul, smul_eq_mul, Tristimulus.scale, Tristimulus.add, Tristimulus.mk.injEq]
    refine ⟨by ring, by ring, by ring⟩

/-- C141 (Schrödinger): under any light, no surface has a colour farther out in a direction than the surface that reflects everything at
the wavelengths whose colour lies in that direction and nothing at the others; and one that is as far out agrees with it at every
wavelength that is lit and not neutral to the direction. -/
theorem C141_optimal (o : Observer ℝ) (l : Spectrum ℝ) (hl : ∀ i, 0 ≤ l i) (d : Tristimulus ℝ) (r s : Spectrum ℝ) (hr : Optimal o d r)
    (hs : Surface s) :
    along d (o.fromReflectanceAndLight s l) ≤ along d (o.fromReflectanceAndLight r l) ∧
    (along d (o.fromReflectanceAndLight s l) = along d (o.fromReflectanceAndLight r l) → ∀ i, l i ≠ 0 → weight o d i ≠ 0 → s i = r i) := by
  rw [along_colour, along_colour]
  refine ⟨Finset.sum_le_sum fun i _ => term hl hr hs i, fun h i li wi => ?_⟩
  have := (Finset.sum_eq_sum_iff_of_le fun i _ => term hl hr hs i).1 h i (Finset.mem_univ _)
  exact mul_right_cancel₀ (mul_ne_zero li wi) this

/-- C141: optimal colours have no metamers: under a light with power at every wavelength, a surface that looks like an optimal one is that
one, wherever the direction is not neutral. -/
theorem C141_unique (o : Observer ℝ) (l : Spectrum ℝ) (hl : ∀ i, 0 < l i) (d : Tristimulus ℝ) (r s : Spectrum ℝ) (hr : Optimal o d r)
    (hs : Surface s) (h : o.fromReflectanceAndLight s l = o.fromReflectanceAndLight r l) (i : Fin 400) (hi : weight o d i ≠ 0) : s i = r i :=
  (C141_optimal o l (fun i => (hl i).le) d r s hr hs).2 (by rw [h]) i (hl i).ne' hi

namespace Solid

theorem jvY_pos : (Data.CIE.CIE1931_JuddVos_Y.m.all fun e => Nat.blt 0 e) = true := by decide +kernel

theorem table_pos (t : Data.Table) (h : (t.m.all fun e => Nat.blt 0 e) = true) (i : Fin 400) : (0 : ℝ) < ((t.q i : ℚ) : ℝ) := by
  have h := List.all_eq_true.1 h (t.m[i.val]'(by rw [t.len]; exact i.2)) (List.getElem_mem _)
  have h' : 0 < t.m[i.val]'(by rw [t.len]; exact i.2) := by simpa using h
  refine Rat.cast_pos.2 ?_
  unfold Data.Table.q
  exact div_pos (Nat.cast_pos.2 h') (by positivity)

theorem norm_pos {s : Spectrum ℝ} (h : ∀ i, 0 ≤ s i) {j : Fin 400} (hj : 0 < s j) : 0 < lit 1 / s.sum := by
  rw [sum_eq, lit_real]
  have : 0 < ∑ i, s i := Finset.sum_pos' (fun i _ => h i) ⟨j, Finset.mem_univ _, hj⟩
  push_cast
  positivity

end Solid

/-- C141: for the CIE 1931 and the Judd-Vos observer, under a light with power at every wavelength, only the perfect reflector is as
light as white and only the perfect absorber as dark as black. -/
theorem C141_white (o : Observer ℝ) (ho : o = CIE1931 ∨ o = CIE31JV) (l : Spectrum ℝ) (hl : ∀ i, 0 < l i) (s : Spectrum ℝ) (hs : Surface s) :
    ((o.fromReflectanceAndLight s l).b = (o.fromSpectrum l).b → s = fun _ => 1) ∧ ((o.fromReflectanceAndLight s l).b = 0 → s = fun _ => 0) := by
  have hY : ∀ i, 0 < o.Y i := by
    rcases ho with rfl | rfl
    · exact Y_pos
    · exact table_pos Data.CIE.CIE1931_JuddVos_Y jvY_pos
  have hn : 0 < o.normalize.b := by
    have e : o.normalize.b = lit 1 / o.Y.sum := by rcases ho with rfl | rfl <;> rfl
    rw [e]
    exact norm_pos (fun i => (hY i).le) (hY 0)
  have w : ∀ k : ℝ, ∀ i, weight o ⟨0, k, 0⟩ i = k * (o.Y i * o.normalize.b) := by
    intro k i; simp only [weight, along]; ring
  have white : o.fromSpectrum l = o.fromReflectanceAndLight (fun _ => 1) l := by
    rw [C41_reflectance_bitwise]
    congr 1; funext i; simp [Spectrum.mul]
  constructor
  · intro h
    funext i
    refine (C141_optimal o l (fun i => (hl i).le) ⟨0, 1, 0⟩ (fun _ => 1) s (fun i => ⟨fun _ => rfl, fun h => ?_⟩) hs).2 ?_ i (hl i).ne' ?_
    · rw [w, one_mul] at h; exact absurd h (not_lt.2 (mul_pos (hY i) hn).le)
    · simp only [along, zero_mul, one_mul, zero_add, add_zero]; rw [h, white]
    · rw [w, one_mul]; exact (mul_pos (hY i) hn).ne'
  · intro h
    funext i
    refine (C141_optimal o l (fun i => (hl i).le) ⟨0, -1, 0⟩ (fun _ => 0) s (fun i => ⟨fun h => ?_, fun _ => rfl⟩) hs).2 ?_ i (hl i).ne' ?_
    · rw [w] at h; exact absurd h (not_lt.2 (by linarith [mul_pos (hY i) hn]))
    · simp only [along, zero_mul, zero_add, add_zero]; rw [h, colour]; simp [part]
    · rw [w]; have := mul_pos (hY i) hn; linarith

namespace Solid

/-- If a combination of the curves alternates four times, the optimal surface of its direction has no metamer with two transitions. -/
theorem alternates {o : Observer ℝ} (ha : o.normalize.a ≠ 0) (hb : o.normalize.b ≠ 0) (hc : o.normalize.c ≠ 0) (l : Spectrum ℝ)
    (hl : ∀ i, 0 < l i) (u v w : ℝ) {i j k m : Fin 400} (h : i < j ∧ j < k ∧ k < m) (hi : 0 < u * o.X i + v * o.Y i + w * o.Z i)
    (hj : u * o.X j + v * o.Y j + w * o.Z j < 0) (hk : 0 < u * o.X k + v * o.Y k + w * o.Z k) (hm : u * o.X m + v * o.Y m + w * o.Z m < 0) :
    ∃ d r, Surface r ∧ (∀ s, Surface s → along d (o.fromReflectanceAndLight s l) ≤ along d (o.fromReflectanceAndLight r l)) ∧
      ∀ s, TwoBand s → o.fromReflectanceAndLight s l ≠ o.fromReflectanceAndLight r l := by
  have e : ∀ i, weight o ⟨u / o.normalize.a, v / o.normalize.b, w / o.normalize.c⟩ i = u * o.X i + v * o.Y i + w * o.Z i := by
    intro i; simp only [weight, along]; field_simp
  classical
  let d : Tristimulus ℝ := ⟨u / o.normalize.a, v / o.normalize.b, w / o.normalize.c⟩
  let r : Spectrum ℝ := fun i => if 0 < weight o d i then 1 else 0
  have hr : Optimal o d r := fun i => ⟨fun h => if_pos h, fun h => if_neg h.not_gt⟩
  refine ⟨d, r, fun i => ?_, fun s hs => (C141_optimal o l (fun i => (hl i).le) d r s hr hs).1, fun s hs h' => ?_⟩
  · show 0 ≤ (if 0 < weight o d i then (1 : ℝ) else 0) ∧ (if 0 < weight o d i then (1 : ℝ) else 0) ≤ 1
    split <;> norm_num
  · have q := C141_unique o l hl d r s hr hs.surface h'
    rw [← e] at hi hj hk hm
    exact not_twoBand h ((q i hi.ne').trans ((hr i).1 hi)) ((q j hj.ne).trans ((hr j).2 hj)) ((q k hk.ne').trans ((hr k).1 hk))
      ((q m hm.ne).trans ((hr m).2 hm)) hs

theorem table_norm (t : Data.Table) (j : Fin 400) (h : 0 < t.q j) : (lit 1 / (ofTable t : Spectrum ℝ).sum : ℝ) ≠ 0 :=
  (norm_pos (ofTable_nonneg t) (j := j) (show (0 : ℝ) < ((t.q j : ℚ) : ℝ) from Rat.cast_pos.2 h)).ne'

theorem comb {x y z : Data.Table} {u v w : ℤ} {i : Fin 400} :
    (0 < u * x.q i + v * y.q i + w * z.q i → (0 : ℝ) < u * ((x.q i : ℚ) : ℝ) + v * ((y.q i : ℚ) : ℝ) + w * ((z.q i : ℚ) : ℝ)) ∧
    (u * x.q i + v * y.q i + w * z.q i < 0 → (u : ℝ) * ((x.q i : ℚ) : ℝ) + v * ((y.q i : ℚ) : ℝ) + w * ((z.q i : ℚ) : ℝ) < 0) :=
  ⟨fun h => by exact_mod_cast h, fun h => by exact_mod_cast h⟩

end Solid

open Data.CIE in
/-- C141 (finding): for each of the three observers and under every light with power at all wavelengths there is an optimal colour that
no surface with at most two transitions has. -/
theorem C141_transitions (o : Observer ℝ) (ho : o ∈ observers) (l : Spectrum ℝ) (hl : ∀ i, 0 < l i) :
    ∃ d r, Surface r ∧ (∀ s, Surface s → along d (o.fromReflectanceAndLight s l) ≤ along d (o.fromReflectanceAndLight r l)) ∧
      ∀ s, TwoBand s → o.fromReflectanceAndLight s l ≠ o.fromReflectanceAndLight r l := by
  simp only [observers, List.mem_cons, List.not_mem_nil, or_false] at ho
  rcases ho with rfl | rfl | rfl
  · refine alternates (table_norm CIE1931_X 100 ?_) (table_norm CIE1931_Y 100 ?_) (table_norm CIE1931_Z 100 ?_) l hl
      ((12 : ℤ) : ℝ) ((-31 : ℤ) : ℝ) ((10000 : ℤ) : ℝ) (i := 191) (j := 192) (k := 197) (m := 208) ?_
      ((comb (x := CIE1931_X) (y := CIE1931_Y) (z := CIE1931_Z)).1 ?_) ((comb (x := CIE1931_X) (y := CIE1931_Y) (z := CIE1931_Z)).2 ?_)
      ((comb (x := CIE1931_X) (y := CIE1931_Y) (z := CIE1931_Z)).1 ?_) ((comb (x := CIE1931_X) (y := CIE1931_Y) (z := CIE1931_Z)).2 ?_)
      <;> decide +kernel
  · refine alternates (table_norm CIE1931_JuddVos_X 100 ?_) (table_norm CIE1931_JuddVos_Y 100 ?_) (table_norm CIE1931_JuddVos_Z 100 ?_) l hl
      ((3398 : ℤ) : ℝ) ((-10000 : ℤ) : ℝ) ((5110000 : ℤ) : ℝ) (i := 249) (j := 250) (k := 257) (m := 275) ?_
      ((comb (x := CIE1931_JuddVos_X) (y := CIE1931_JuddVos_Y) (z := CIE1931_JuddVos_Z)).1 ?_)
      ((comb (x := CIE1931_JuddVos_X) (y := CIE1931_JuddVos_Y) (z := CIE1931_JuddVos_Z)).2 ?_)
      ((comb (x := CIE1931_JuddVos_X) (y := CIE1931_JuddVos_Y) (z := CIE1931_JuddVos_Z)).1 ?_)
      ((comb (x := CIE1931_JuddVos_X) (y := CIE1931_JuddVos_Y) (z := CIE1931_JuddVos_Z)).2 ?_) <;> decide +kernel
  · refine alternates (table_norm CIE2012_X 100 ?_) (table_norm CIE2012_Y 100 ?_) (table_norm CIE2012_Z 100 ?_) l hl
      ((3826 : ℤ) : ℝ) ((-10000 : ℤ) : ℝ) ((-552 : ℤ) : ℝ) (i := 12) (j := 13) (k := 23) (m := 39) ?_
      ((comb (x := CIE2012_X) (y := CIE2012_Y) (z := CIE2012_Z)).1 ?_) ((comb (x := CIE2012_X) (y := CIE2012_Y) (z := CIE2012_Z)).2 ?_)
      ((comb (x := CIE2012_X) (y := CIE2012_Y) (z := CIE2012_Z)).1 ?_) ((comb (x := CIE2012_X) (y := CIE2012_Y) (z := CIE2012_Z)).2 ?_)
      <;> decide +kernel

/-- The hypotheses are met: equal-energy light, a grey surface, and white as the optimal surface of the direction of luminance. -/
example : (∀ i, (0 : ℝ) < (fun _ => 1 : Spectrum ℝ) i) ∧ Surface (fun _ => 1 / 2) ∧
    Optimal CIE1931 ⟨0, 1 / CIE1931.normalize.b, 0⟩ (fun i => if 0 < weight CIE1931 ⟨0, 1 / CIE1931.normalize.b, 0⟩ i then 1 else 0) :=
  ⟨fun _ => one_pos, fun _ => by norm_num, fun _ => ⟨fun h => if_pos h, fun h => if_neg h.not_gt⟩⟩

end CS
