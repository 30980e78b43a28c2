import Verif.Props.Transcode

/-!
# C140: chains of conversions between RGB spaces, in single precision

A colour is converted from space to space, any number of times, in binary32.  Each conversion rounds; the errors do not amplify one
another: seen from the first space, every conversion adds at most `1.7e-5` of the largest component.
-/

namespace CS
open F32 B32 OTF Spec Tristimulus

attribute [local instance] ratArith

namespace Pipeline

/-- Converting `t`, in the space `s`, to each of the spaces of the list in turn. -/
def run (s : RGBSpace) : List RGBSpace → Tristimulus F32 → Tristimulus F32
  | [], t => t
  | d :: ds, t => run d ds (t.apply (GamutConvert s.gamut d.gamut))

/-- The last space of the chain. -/
def last (s : RGBSpace) : List RGBSpace → RGBSpace
  | [] => s
  | d :: ds => last d ds

/-- How much the components of a colour of the space may exceed its largest one when it is expressed in another space. -/
def out : RGBSpace → ℚ
  | .adobe => 1.81 | .rec709 => 1.16 | .rec2020 => 2.33 | .dciP3 => 1.37 | .sGamut => 2.77 | .sGamut3Cine => 2.26 | .acesCg => 2.43
  | .aces2065 => 4.08

/-- The same from another space to this one. -/
def back : RGBSpace → ℚ
  | .adobe => 2.48 | .rec709 => 4.08 | .rec2020 => 2.01 | .dciP3 => 3.37 | .sGamut => 1.7 | .sGamut3Cine => 2.15 | .acesCg => 1.91
  | .aces2065 => 1.21

set_option maxRecDepth 100000 in
theorem rows : (RGBSpace.all.all fun s => RGBSpace.all.all fun d =>
    let m := d.rat.fromXYZ_.mul s.rat.toXYZ_
    decide ((rowAbs m.m0 m.m1 m.m2 ≤ out s ∧ rowAbs m.m3 m.m4 m.m5 ≤ out s ∧ rowAbs m.m6 m.m7 m.m8 ≤ out s) ∧
      rowAbs m.m0 m.m1 m.m2 ≤ back d ∧ rowAbs m.m3 m.m4 m.m5 ≤ back d ∧ rowAbs m.m6 m.m7 m.m8 ≤ back d)) = true := by decide +kernel

theorem row_lip {p q r K : ℚ} (h : rowAbs p q r ≤ K) {x y : Tristimulus ℝ} {e : ℝ} (e0 : 0 ≤ e) (hl : NearR x y e) :
    |((p : ℝ) * x.a + q * x.b + r * x.c) - ((p : ℝ) * y.a + q * y.b + r * y.c)| ≤ K * e := by
  obtain ⟨a, b, c⟩ := hl
  have k : ∀ {p u : ℝ}, |u| ≤ e → |p * u| ≤ |p| * e := fun hu => by
    rw [abs_mul]; exact mul_le_mul_of_nonneg_left hu (abs_nonneg _)
  rw [show ((p : ℝ) * x.a + q * x.b + r * x.c) - ((p : ℝ) * y.a + q * y.b + r * y.c) =
    (p : ℝ) * (x.a - y.a) + q * (x.b - y.b) + r * (x.c - y.c) by ring]
  refine (abs_add_three _ _ _).trans ?_
  have := k (p := (p : ℝ)) a
  have := k (p := (q : ℝ)) b
  have := k (p := (r : ℝ)) c
  have h' := (Rat.cast_le (K := ℝ)).2 h
  rw [rowAbs] at h'
  push_cast at h'
  have := mul_le_mul_of_nonneg_right h' e0
  linarith

/-- The exact components, in the space `d`, of the colour with components `x` in the space `s`. -/
noncomputable def comp (s d : RGBSpace) (x : Tristimulus ℝ) : Tristimulus ℝ := d.rat.toReal.fromXYZ (s.rat.toReal.toXYZ x)

theorem comp_eq (s d : RGBSpace) (x : Tristimulus ℝ) :
    comp s d x = Tristimulus.ofVec3 ((d.rat.fromXYZ_.mul s.rat.toXYZ_).toReal.apply x.vec3) := by
  rw [Matrix3.toReal_mul, Matrix3.apply_mul]; rfl

theorem right_inv (d : RGBSpace) (v : Tristimulus ℝ) : d.rat.toReal.toXYZ (d.rat.toReal.fromXYZ v) = v := by
  refine (C08_roundtrip d.rat.toReal ?_ v).2
  cases d <;> simp only [RGBSpace.rat, toReal_AdobeRGB, toReal_Rec709, toReal_Rec2020, toReal_DCI_P3, toReal_S_Gamut,
    toReal_S_Gamut3_Cine, toReal_ACEScg, toReal_ACES2065] <;> simp [allGamuts]

theorem comp_self (s : RGBSpace) (x : Tristimulus ℝ) : comp s s x = x := s.left_inv x

theorem comp_comp (r s d : RGBSpace) (x : Tristimulus ℝ) : comp s d (comp r s x) = comp r d x := by
  unfold comp; rw [right_inv]

theorem comp_out (s d : RGBSpace) {x y : Tristimulus ℝ} {e : ℝ} (e0 : 0 ≤ e) (h : NearR x y e) :
    NearR (comp s d x) (comp s d y) (out s * e) := by
  have m := List.all_eq_true.1 (List.all_eq_true.1 rows s s.mem_all) d d.mem_all
  rw [decide_eq_true_eq] at m
  obtain ⟨⟨m1, m2, m3⟩, -⟩ := m
  rw [comp_eq, comp_eq]
  exact ⟨row_lip m1 e0 h, row_lip m2 e0 h, row_lip m3 e0 h⟩

theorem comp_back (s d : RGBSpace) {x y : Tristimulus ℝ} {e : ℝ} (e0 : 0 ≤ e) (h : NearR x y e) :
    NearR (comp s d x) (comp s d y) (back d * e) := by
  have m := List.all_eq_true.1 (List.all_eq_true.1 rows s s.mem_all) d d.mem_all
  rw [decide_eq_true_eq] at m
  obtain ⟨-, m1, m2, m3⟩ := m
  rw [comp_eq, comp_eq]
  exact ⟨row_lip m1 e0 h, row_lip m2 e0 h, row_lip m3 e0 h⟩

theorem comp_zero (s d : RGBSpace) : comp s d ⟨0, 0, 0⟩ = ⟨0, 0, 0⟩ := by
  rw [comp_eq]
  simp only [Tristimulus.ofVec3, Matrix3.apply, Tristimulus.vec3, Vector3.get]
  norm_num

theorem bounds (r : RGBSpace) : 1 ≤ out r ∧ out r ≤ 4.08 ∧ 0 ≤ back r ∧ back r ≤ 4.08 ∧ out r * back r ≤ 5 := by
  cases r <;> norm_num [out, back]

theorem NearR.trans {x y z : Tristimulus ℝ} {d e : ℝ} (h : NearR x y d) (h' : NearR y z e) : NearR x z (d + e) :=
  ⟨(abs_sub_le _ _ _).trans (add_le_add h.1 h'.1), (abs_sub_le _ _ _).trans (add_le_add h.2.1 h'.2.1),
    (abs_sub_le _ _ _).trans (add_le_add h.2.2 h'.2.2)⟩

theorem NearR.mono {x y : Tristimulus ℝ} {d e : ℝ} (h : NearR x y d) (h' : d ≤ e) : NearR x y e :=
  ⟨h.1.trans h', h.2.1.trans h', h.2.2.trans h'⟩

/-- One conversion, seen from the space `r`. -/
theorem step (r s d : RGBSpace) {t0 : Tristimulus ℝ} {C : ℚ} (C1 : 1 / 2 ^ 60 ≤ C) (C2 : C ≤ 2 ^ 60) (h0 : NearR t0 ⟨0, 0, 0⟩ C)
    {v : Tristimulus F32} (hf : v.a.isFinite = true ∧ v.b.isFinite = true ∧ v.c.isFinite = true) {k : ℕ} (hk : k ≤ 3000)
    (h : NearR (comp s r v.real) t0 (1.7e-5 * k * C)) :
    let w := v.apply (GamutConvert s.gamut d.gamut)
    (w.a.isFinite = true ∧ w.b.isFinite = true ∧ w.c.isFinite = true) ∧ NearR (comp d r w.real) t0 (1.7e-5 * (k + 1 : ℕ) * C) := by
  intro w
  obtain ⟨b1, b2, b3, b4, b5⟩ := bounds r
  have C0 : (0 : ℝ) < C := by
    have : (0 : ℚ) < C := lt_of_lt_of_le (by norm_num) C1
    exact_mod_cast this
  have C1' : (1 : ℝ) / 2 ^ 60 ≤ C := by
    have := (Rat.cast_le (K := ℝ)).2 C1
    push_cast at this; exact this
  have k0 : (0 : ℝ) ≤ k := Nat.cast_nonneg k
  have k1 : (k : ℝ) ≤ 3000 := by exact_mod_cast hk
  have n1 := NearR.trans h h0
  have kc : (k : ℝ) * C ≤ 3000 * C := mul_le_mul_of_nonneg_right k1 C0.le
  have e1 : 1.7e-5 * (k : ℝ) * C + C ≤ 1.051 * C := by linarith
  have n2 := comp_out r s (by positivity) (NearR.mono n1 e1)
  rw [comp_comp, comp_self, comp_zero] at n2
  have wt : Within v (out r * (1.051 * C)) := by
    obtain ⟨p, q, s⟩ := n2
    simp only [sub_zero, Tristimulus.real] at p q s
    refine ⟨⟨hf.1, ?_⟩, ⟨hf.2.1, ?_⟩, hf.2.2, ?_⟩ <;> rw [← Rat.cast_le (K := ℝ)] <;> push_cast <;> assumption
  have ub : out r * (1.051 * C) ≤ 2 ^ 100 := by
    have : (1.051 * C) ≤ 1.051 * 2 ^ 60 := by linarith
    have c0 : 0 ≤ 1.051 * C := by
      have : (0 : ℚ) < C := by exact_mod_cast C0
      positivity
    calc out r * (1.051 * C) ≤ 4.08 * (1.051 * 2 ^ 60) := mul_le_mul b2 this c0 (by norm_num)
      _ ≤ 2 ^ 100 := by norm_num
  obtain ⟨f, a, b, c⟩ := C99_convert s d _ _ s.realises d.realises v _ ub wt (comp s d v.real) (right_inv d _)
  refine ⟨f, ?_⟩
  have nn : NearR w.real (comp s d v.real) ((3.2e-6 * (out r * (1.051 * C)) + 1 / 2 ^ 140 : ℚ) : ℝ) := ⟨a, b, c⟩
  have o0 : (0 : ℝ) ≤ out r := by exact_mod_cast (zero_le_one.trans b1)
  have nb := comp_back d r (by push_cast; positivity) nn
  rw [comp_comp] at nb
  refine NearR.mono (NearR.trans nb h) ?_
  push_cast
  have b5' : (out r : ℝ) * back r ≤ 5 := by exact_mod_cast b5
  have b4' : (back r : ℝ) ≤ 4.08 := by
    have := (Rat.cast_le (K := ℝ)).2 b4
    push_cast at this; exact this
  have x1 : (out r : ℝ) * back r * C ≤ 5 * C := mul_le_mul_of_nonneg_right b5' C0.le
  have x2 : (back r : ℝ) * (1 / 2 ^ 140) ≤ 4.08 * (1 / 2 ^ 140) := mul_le_mul_of_nonneg_right b4' (by positivity)
  have x3 : (4.08 : ℝ) * (1 / 2 ^ 140) ≤ 1e-7 * (1 / 2 ^ 60) := by norm_num
  have x4 : (back r : ℝ) * (3.2e-6 * (out r * (1.051 * C)) + 1 / 2 ^ 140) = 3.3632e-6 * (out r * back r * C) + back r * (1 / 2 ^ 140) := by
    ring
  rw [x4]
  linarith

/-- The whole chain. -/
theorem chain (r : RGBSpace) {t0 : Tristimulus ℝ} {C : ℚ} (C1 : 1 / 2 ^ 60 ≤ C) (C2 : C ≤ 2 ^ 60) (h0 : NearR t0 ⟨0, 0, 0⟩ C)
    (ds : List RGBSpace) : ∀ (s : RGBSpace) {v : Tristimulus F32} {k : ℕ},
    (v.a.isFinite = true ∧ v.b.isFinite = true ∧ v.c.isFinite = true) → k + ds.length ≤ 3000 →
    NearR (comp s r v.real) t0 (1.7e-5 * k * C) →
    ((run s ds v).a.isFinite = true ∧ (run s ds v).b.isFinite = true ∧ (run s ds v).c.isFinite = true) ∧
      NearR (comp (last s ds) r (run s ds v).real) t0 (1.7e-5 * (k + ds.length : ℕ) * C) := by
  induction ds with
  | nil => intro s v k hf _ h; exact ⟨hf, h⟩
  | cons d ds ih =>
    intro s v k hf hk h
    rw [List.length_cons] at hk
    obtain ⟨f, n⟩ := step r s d C1 C2 h0 hf (by omega) h
    have := ih d (k := k + 1) f (by omega) n
    rw [List.length_cons, show k + (ds.length + 1) = k + 1 + ds.length by omega]
    exact this

theorem start {t : Tristimulus F32} {C : ℚ} (ht : Within t C) : NearR t.real ⟨0, 0, 0⟩ C := by
  obtain ⟨⟨-, a⟩, ⟨-, b⟩, -, c⟩ := ht
  refine ⟨?_, ?_, ?_⟩ <;> rw [sub_zero] <;> simp only [Tristimulus.real] <;> exact_mod_cast ‹_›

end Pipeline

open Pipeline

/-- C140: a colour of components up to `C`, converted through any chain of `n ≤ 3000` RGB spaces, arrives in the last one with finite
components within `7e-5 n C` of those that the published definitions give it there. -/
theorem C140_chain (s : RGBSpace) (ds : List RGBSpace) (hn : ds.length ≤ 3000) (G H : Gamut ℝ) (hG : Realises G s.published)
    (hH : Realises H (last s ds).published) (t : Tristimulus F32) (C : ℚ) (C1 : 1 / 2 ^ 60 ≤ C) (C2 : C ≤ 2 ^ 60) (ht : Within t C)
    (c : Tristimulus ℝ) (hc : H.toXYZ c = G.toXYZ t.real) : NearReal (run s ds t) c (7e-5 * ds.length * C) := by
  have C0 : (0 : ℝ) < C := by
    have : (0 : ℚ) < C := lt_of_lt_of_le (by norm_num) C1
    exact_mod_cast this
  obtain ⟨f, n⟩ := chain s C1 C2 (start ht) ds s (v := t) (k := 0) ⟨ht.1.1, ht.2.1.1, ht.2.2.1⟩ (by omega)
    (by rw [comp_self]; simp [NearR])
  have l := comp_out s (last s ds) (by positivity) n
  rw [comp_comp, comp_self] at l
  have e : comp s (last s ds) t.real = c := by
    unfold comp
    rw [← s.determined hG, ← hc, (last s ds).determined hH, (last s ds).left_inv]
  rw [e] at l
  have b := (Rat.cast_le (K := ℝ)).2 (bounds s).2.1
  push_cast at b
  have x0 : (0 : ℝ) ≤ ds.length * C := by positivity
  have := mul_le_mul_of_nonneg_right b x0
  obtain ⟨p, q, r⟩ := NearR.mono l (e := 7e-5 * ds.length * C) (by push_cast; rw [zero_add]; linarith)
  refine ⟨f, ?_, ?_, ?_⟩ <;> push_cast <;> assumption

/-- C140: a chain that returns to the space it began in changes no component by more than `1.7e-5 n C`. -/
theorem C140_closed (s : RGBSpace) (ds : List RGBSpace) (hn : ds.length ≤ 3000) (hs : last s ds = s) (t : Tristimulus F32) (C : ℚ)
    (C1 : 1 / 2 ^ 60 ≤ C) (C2 : C ≤ 2 ^ 60) (ht : Within t C) : Near (run s ds t) t (1.7e-5 * ds.length * C) := by
  obtain ⟨f, n⟩ := chain s C1 C2 (start ht) ds s (v := t) (k := 0) ⟨ht.1.1, ht.2.1.1, ht.2.2.1⟩ (by omega)
    (by rw [comp_self]; simp [NearR])
  rw [hs, comp_self, zero_add] at n
  obtain ⟨p, q, r⟩ := n
  refine ⟨f, ?_, ?_, ?_⟩ <;> rw [← Rat.cast_le (K := ℝ)] <;> push_cast <;> assumption

/-- C140: so an sRGB-coded image with `N + 1` levels survives any closed chain of `n` conversions with `n N ≤ 2200`: eight conversions
with 8 bits, seventeen with 7. -/
theorem C140_codes (o : F32.Oracle) (ho : o.PowAccurate (2 ^ (-22 : ℤ))) (x : F32) (s : RGBSpace) (ds : List RGBSpace) (hs : last s ds = s)
    (N i j k : ℕ) (hN : 0 < N) (hn : ds.length * N ≤ 2200) (hN' : N ≤ 2200) (hi : i ≤ N) (hj : j ≤ N) (hk : k ≤ N) :
    letI := F32.libm o
    HasCodes N i j k (toScreen .SRGB (run s ds (toScene .SRGB (pixel N i j k) x)) x) := by
  have r := scene_range o ho x hN (hN'.trans (by norm_num)) hi hj hk
  have l : ds.length ≤ 3000 := by
    have := Nat.le_mul_of_pos_right ds.length hN
    omega
  refine pixel_trip o ho x hN (hN'.trans (by norm_num)) hi hj hk ?_
    (C140_closed s ds l hs _ top (by norm_num [top]) (by norm_num [top]) (scene_within r))
  have a : (ds.length : ℚ) * N ≤ 2200 := by exact_mod_cast hn
  have b : (N : ℚ) ≤ 2200 := by exact_mod_cast hN'
  have e : (12.92 * (1.7e-5 * ds.length * top) + 3.5e-6 : ℚ) * N = 12.92 * 1.7e-5 * top * (ds.length * N) + 3.5e-6 * N := by ring
  rw [e]
  have : (12.92 * 1.7e-5 * top : ℚ) * (ds.length * N) ≤ 12.92 * 1.7e-5 * top * 2200 := mul_le_mul_of_nonneg_left a (by norm_num [top])
  have t : (12.92 * 1.7e-5 * top * 2200 : ℚ) ≤ 0.49 := by norm_num [top]
  linarith

/-- The hypotheses are met: eight conversions of an 8-bit pixel. -/
example : ∃ o : F32.Oracle, o.PowAccurate (2 ^ (-22 : ℤ)) ∧ ∀ x : F32,
    letI := F32.libm o
    HasCodes 255 0 255 77 (toScreen .SRGB (run .rec709 [.aces2065, .dciP3, .sGamut, .rec2020, .adobe, .acesCg, .sGamut3Cine, .rec709]
      (toScene .SRGB (pixel 255 0 255 77) x)) x) := by
  obtain ⟨o, h1, -⟩ := exists_accurate
  have d : (2 : ℝ) ^ (-23 : ℤ) ≤ 2 ^ (-22 : ℤ) := zpow_le_zpow_right₀ (by norm_num) (by norm_num)
  have hp : o.PowAccurate (2 ^ (-22 : ℤ)) := fun x y hx hy h0 ha hb => ⟨(h1 x y hx hy h0 ha hb).1, (h1 x y hx hy h0 ha hb).2.trans (by gcongr)⟩
  exact ⟨o, hp, fun x => C140_codes o hp x _ _ rfl 255 0 255 77 (by norm_num) (by norm_num) (by norm_num) (by norm_num) (by norm_num) (by norm_num)⟩

end CS
