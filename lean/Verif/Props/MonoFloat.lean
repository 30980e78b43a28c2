import Verif.Props.FetchFloat
import Verif.Props.SpectrumFloat

/-!
# C112: monochromatic light in single precision
-/

namespace CS
open B32 F32 Spectrum

/-- Entry `n` of a table, the last one beyond its end. -/
def Data.Table.entry (t : Data.Table) (n : ℕ) : ℚ := t.q ⟨min n 399, by omega⟩

/-- The published table as a function of the wavelength in nm: linear between the entries, and constant outside
and on the first nanometre (C38). -/
def Data.Table.at (t : Data.Table) (l : ℚ) : ℚ :=
  if l < 381 then t.entry 0
  else if 779 ≤ l then t.entry 399
  else (1 - Int.fract l) * t.entry (⌊l⌋ - 380).toNat + Int.fract l * t.entry ((⌊l⌋ - 380).toNat + 1)

theorem Data.Table.entry_nonneg (t : Data.Table) (n : ℕ) : 0 ≤ t.entry n := t.q_nonneg _

theorem Data.Table.at_nonneg (t : Data.Table) (l : ℚ) : 0 ≤ t.at l := by
  unfold Data.Table.at
  have h0 := Int.fract_nonneg l
  have h1 := (Int.fract_lt_one l).le
  split_ifs
  · exact t.entry_nonneg _
  · exact t.entry_nonneg _
  · have := mul_nonneg (sub_nonneg.2 h1) (t.entry_nonneg (⌊l⌋ - 380).toNat)
    have := mul_nonneg h0 (t.entry_nonneg ((⌊l⌋ - 380).toNat + 1))
    linarith

/-- The tables of the three observers. -/
def observerTables : List (Data.Table × Data.Table × Data.Table) :=
  [(Data.CIE.CIE1931_X, Data.CIE.CIE1931_Y, Data.CIE.CIE1931_Z),
   (Data.CIE.CIE1931_JuddVos_X, Data.CIE.CIE1931_JuddVos_Y, Data.CIE.CIE1931_JuddVos_Z),
   (Data.CIE.CIE2012_X, Data.CIE.CIE2012_Y, Data.CIE.CIE2012_Z)]

/-- The observer with the tables `p`. -/
def tableObserver (p : Data.Table × Data.Table × Data.Table) : Observer F32 := .mk3 (.ofTable p.1) (.ofTable p.2.1) (.ofTable p.2.2)

/-- These are the observers of the header. -/
example : observerTables.map tableObserver = [CIE1931, CIE31JV, CIE2012] := rfl

theorem observer_curves {p : Data.Table × Data.Table × Data.Table} (hp : p ∈ observerTables) :
    p.1.curve = true ∧ p.2.1.curve = true ∧ p.2.2.curve = true := by
  have h : observerTables.all (fun p => p.1.curve && p.2.1.curve && p.2.2.curve) = true := by decide +kernel
  have := List.all_eq_true.1 h p hp
  simp only [Bool.and_eq_true] at this
  exact ⟨this.1.1, this.1.2, this.2⟩

/-- A finite wavelength whose lookup does not overflow an `int`. -/
def Wavelength (l : F32) : Prop := l.isFinite = true ∧ |l.val| ≤ 2 ^ 30

theorem curve_fetch {t : Data.Table} (ht : t.curve = true) {l : F32} (hl : Wavelength l) :
    ∃ v, (ofTable t : Spectrum F32).fetch l = .ok v ∧ NN v 4 ∧ |v.val - t.at l.val| ≤ 3.1 * u * t.at l.val + 1 / 2 ^ 148 ∧
      (t.leOne = true → v.val ≤ 1) := by
  obtain ⟨hf, hb⟩ := hl
  have hb' := _root_.abs_le.1 hb
  have one : t.leOne = true → ∀ i, ((ofTable t : Spectrum F32) i).val ≤ 1 := by
    intro h i
    rw [(curve_nn ht i).2]
    exact rnd_le (by exact_mod_cast rep_int (n := 1) (by norm_num)) (Data.Table.q_le_one h i)
  have exact : ∀ i : Fin 400, |((ofTable t : Spectrum F32) i).val - t.q i| ≤ 3.1 * u * t.q i + 1 / 2 ^ 148 := by
    intro i
    rw [(curve_nn ht i).2]
    have h1 := Data.Table.q_normal ht i
    have h2 := t.q_nonneg i
    refine h1.trans ?_
    rw [u]; norm_num; linarith
  have n4 : ∀ i, NN ((ofTable t : Spectrum F32) i) 4 := fun i => by
    obtain ⟨a, b, c⟩ := (curve_nn ht i).1
    exact ⟨a, b, c.trans (by norm_num)⟩
  rcases lt_or_ge l.val 381 with h | h
  · refine ⟨_, (C108_ends (ofTable t) hf).1 hb'.1 h, n4 _, ?_, fun h1 => one h1 _⟩
    rw [Data.Table.at, if_pos h]
    exact exact _
  rcases lt_or_ge l.val 779 with h' | h'
  · obtain ⟨k, hk, v, hkl, hv, vf, ve, v0⟩ := C108_interpolates (ofTable t) hf h h' (fun i => by
      obtain ⟨a, b, c⟩ := (curve_nn ht i).1
      exact ⟨a, by rw [abs_of_nonneg b]; exact c.trans (by norm_num)⟩)
    have ka : (⌊l.val⌋ - 380).toNat = k := by omega
    have e : t.at l.val = (1 - Int.fract l.val) * t.q ⟨k, by omega⟩ + Int.fract l.val * t.q ⟨k + 1, hk⟩ := by
      rw [Data.Table.at, if_neg (not_lt.2 h), if_neg (not_le.2 h'), ka]
      unfold Data.Table.entry
      congr 3 <;> simp <;> omega
    have a := curve_nn ht ⟨k, by omega⟩
    have b := curve_nn ht ⟨k + 1, hk⟩
    have qa := Data.Table.q_normal ht ⟨k, by omega⟩
    have qb := Data.Table.q_normal ht ⟨k + 1, hk⟩
    rw [← a.2] at qa
    rw [← b.2] at qb
    have a0 := t.q_nonneg ⟨k, by omega⟩
    have b0 := t.q_nonneg ⟨k + 1, hk⟩
    have r0 := Int.fract_nonneg l.val
    have r1 := (Int.fract_lt_one l.val).le
    rw [abs_of_nonneg a.1.nonneg, abs_of_nonneg b.1.nonneg] at ve
    have v0' := v0 a.1.nonneg b.1.nonneg
    have ub : v.val ≤ 4 := by
      have := (_root_.abs_le.1 ve).2
      have x1 := mul_le_mul_of_nonneg_left a.1.le (sub_nonneg.2 r1)
      have x2 := mul_le_mul_of_nonneg_left b.1.le r0
      generalize (1 - Int.fract l.val) * ((ofTable t : Spectrum F32) ⟨k, by omega⟩).val = P at *
      generalize Int.fract l.val * ((ofTable t : Spectrum F32) ⟨k + 1, hk⟩).val = Q at *
      norm_num at this
      linarith
    refine ⟨v, hv, ⟨vf, v0', ub⟩, ?_, fun h1 => ?_⟩
    · rw [e]
      generalize ((ofTable t : Spectrum F32) ⟨k, by omega⟩).val = A at *
      generalize ((ofTable t : Spectrum F32) ⟨k + 1, hk⟩).val = B at *
      generalize t.q ⟨k, by omega⟩ = P at *
      generalize t.q ⟨k + 1, hk⟩ = Q at *
      generalize Int.fract l.val = ρ at *
      have s0 : 0 ≤ 1 - ρ := by linarith
      have qa' := _root_.abs_le.1 qa
      have qb' := _root_.abs_le.1 qb
      have ve' := _root_.abs_le.1 ve
      have m1 := mul_le_mul_of_nonneg_left qa'.1 s0
      have m2 := mul_le_mul_of_nonneg_left qa'.2 s0
      have m3 := mul_le_mul_of_nonneg_left qb'.1 r0
      have m4 := mul_le_mul_of_nonneg_left qb'.2 r0
      have p0 := mul_nonneg s0 a0
      have q0 := mul_nonneg r0 b0
      rw [u] at *
      rw [_root_.abs_le]
      have d1 : (1 - ρ) * (A - P) = (1 - ρ) * A - (1 - ρ) * P := by ring
      have d2 : ρ * (B - Q) = ρ * B - ρ * Q := by ring
      have d3 : (1 - ρ) * (1 / 2 ^ 24 * P) = 1 / 2 ^ 24 * ((1 - ρ) * P) := by ring
      have d4 : ρ * (1 / 2 ^ 24 * Q) = 1 / 2 ^ 24 * (ρ * Q) := by ring
      have d5 : (1 - ρ) * -(1 / 2 ^ 24 * P) = -(1 / 2 ^ 24 * ((1 - ρ) * P)) := by ring
      have d6 : ρ * -(1 / 2 ^ 24 * Q) = -(1 / 2 ^ 24 * (ρ * Q)) := by ring
      rw [d1] at m1 m2
      rw [d2] at m3 m4
      rw [d5] at m1
      rw [d3] at m2
      rw [d6] at m3
      rw [d4] at m4
      generalize (1 - ρ) * A = a' at *
      generalize (1 - ρ) * P = p' at *
      generalize ρ * B = b' at *
      generalize ρ * Q = q' at *
      norm_num at *
      constructor <;> linarith
    · obtain ⟨k', hk', w, r, hkl', ir, iw, hv'⟩ := C108_weights (ofTable t : Spectrum F32) hf h h'
      obtain rfl : k = k' := by omega
      rw [hv] at hv'
      obtain rfl := Except.ok.inj hv'
      have pr := iw.2 ▸ rep_val w
      have pr' := ir.2 ▸ rep_val r
      have fa := add_isFinite vf
      rw [add_val vf, mul_val fa.1, mul_val fa.2, iw.2, ir.2]
      have o1 := one h1 ⟨k, by omega⟩
      have o2 := one h1 ⟨k + 1, hk⟩
      have f1 := Int.self_sub_floor l.val
      refine rnd_le (by exact_mod_cast rep_int (n := 1) (by norm_num)) ?_
      have l1 : rnd (((ofTable t : Spectrum F32) ⟨k, by omega⟩).val * (1 - (l.val - ⌊l.val⌋))) ≤ 1 - (l.val - ⌊l.val⌋) := by
        refine rnd_le pr ?_
        have : 0 ≤ 1 - (l.val - ⌊l.val⌋) := by rw [f1]; linarith
        nlinarith
      have l2 : rnd (((ofTable t : Spectrum F32) ⟨k + 1, hk⟩).val * (l.val - ⌊l.val⌋)) ≤ l.val - ⌊l.val⌋ := by
        refine rnd_le pr' ?_
        have : 0 ≤ l.val - ⌊l.val⌋ := by rw [f1]; linarith
        nlinarith
      linarith
  · refine ⟨_, (C108_ends (ofTable t) hf).2 h' hb'.2, n4 _, ?_, fun h1 => one h1 _⟩
    rw [Data.Table.at, if_neg (not_lt.2 h), if_pos h']
    exact exact _

/-- Multiplying by a known float. -/
theorem mul_known {x y : F32} {A B C r e τ : ℚ} (hx : NN x A) (hy : NN y B) (hC : Rep C) (hlt : C < 2 ^ 128) (hAB : A * B ≤ C)
    (h : |x.val - r| ≤ e * r + τ) :
    NN (x * y) C ∧ |(x * y).val - r * y.val| ≤ (e + u + e * u) * (r * y.val) + (τ * y.val * (1 + u) + 1 / 2 ^ 150) := by
  obtain ⟨n, v⟩ := mul_nn hx hy hC hlt hAB
  refine ⟨n, ?_⟩
  rw [v]
  have q := rnd_rel' (x.val * y.val)
  have y0 := hy.nonneg
  rw [abs_of_nonneg (mul_nonneg hx.nonneg y0)] at q
  have d : |x.val * y.val - r * y.val| ≤ (e * r + τ) * y.val := by
    rw [← sub_mul, _root_.abs_mul, abs_of_nonneg y0]
    exact mul_le_mul_of_nonneg_right h y0
  have d' := (_root_.abs_le.1 d).2
  have t := abs_sub_le (rnd (x.val * y.val)) (x.val * y.val) (r * y.val)
  rw [u]
  have e1 : (e + 1 / 2 ^ 24 + e * (1 / 2 ^ 24)) * (r * y.val) + (τ * y.val * (1 + 1 / 2 ^ 24) + 1 / 2 ^ 150) =
      (e * r + τ) * y.val + (r * y.val + (e * r + τ) * y.val) / 2 ^ 24 + 1 / 2 ^ 150 := by ring
  rw [e1]
  have d2 : x.val * y.val / 2 ^ 24 ≤ (r * y.val + (e * r + τ) * y.val) / 2 ^ 24 := by
    apply div_le_div_of_nonneg_right _ (by norm_num)
    linarith
  linarith

theorem lit683 : Is (lit 683 : F32) 683 := ⟨by decide +kernel, by decide +kernel⟩

theorem nn683 : NN (lit 683 : F32) 683 := ⟨lit683.1, by rw [lit683.2]; norm_num, by rw [lit683.2]⟩

/-- A power: finite, not negative, up to 2^100. -/
abbrev Power (w : F32) : Prop := NN w (2 ^ 100)

theorem two_steps {v w : F32} {c : ℚ} (hv : NN v 4) (hw : Power w) (hc : 0 ≤ c) (h : |v.val - c| ≤ 3.1 * u * c + 1 / 2 ^ 148) :
    (NN (v * w * lit 683) (2 ^ 112) ∧
      |(v * w * lit 683).val - 683 * w.val * c| ≤ 683 * w.val * c / 2 ^ 21 + (w.val + 1) / 2 ^ 138) ∧
    (NN (v * lit 683 * w) (2 ^ 112) ∧
      |(v * lit 683 * w).val - 683 * w.val * c| ≤ 683 * w.val * c / 2 ^ 21 + (w.val + 1) / 2 ^ 138) := by
  have w0 := hw.nonneg
  have u0 : (0 : ℚ) ≤ u := by rw [u]; norm_num
  have rp : ∀ n : ℕ, n ≤ 127 → Rep (2 ^ n : ℚ) := fun n hn => by
    have := rep_mul_pow (n := 1) (by norm_num) (k := n)
    simpa using this
  have p0 : 0 ≤ w.val * c := mul_nonneg w0 hc
  constructor
  · obtain ⟨n1, e1⟩ := mul_known hv hw (rp 102 (by norm_num)) (by norm_num) (by norm_num) h
    obtain ⟨n2, e2⟩ := mul_known n1 nn683 (rp 112 (by norm_num)) (by norm_num) (by norm_num) e1
    refine ⟨n2, ?_⟩
    rw [lit683.2, show c * w.val = w.val * c by ring, show w.val * c * 683 = 683 * (w.val * c) by ring] at e2
    rw [show 683 * w.val * c = 683 * (w.val * c) by ring]
    refine e2.trans ?_
    generalize w.val * c = P at *
    generalize w.val = W at *
    rw [u]
    norm_num
    linarith
  · obtain ⟨n1, e1⟩ := mul_known hv nn683 (rp 12 (by norm_num)) (by norm_num) (by norm_num) h
    obtain ⟨n2, e2⟩ := mul_known n1 hw (rp 112 (by norm_num)) (by norm_num) (by norm_num) e1
    refine ⟨n2, ?_⟩
    rw [lit683.2, show c * 683 * w.val = 683 * (w.val * c) by ring] at e2
    rw [show 683 * w.val * c = 683 * (w.val * c) by ring]
    refine e2.trans ?_
    have : (1 / 2 ^ 148 * 683 * (1 + u) + 1 / 2 ^ 150) * w.val * (1 + u) + 1 / 2 ^ 150 ≤ (w.val + 1) / 2 ^ 138 := by
      rw [u]; norm_num; linarith
    generalize w.val * c = P at *
    generalize w.val = W at *
    rw [u] at *
    norm_num at *
    linarith

theorem leOne_1931 : Data.CIE.CIE1931_Y.leOne = true := by decide +kernel
theorem leOne_2012 : Data.CIE.CIE2012_Y.leOne = true := by decide +kernel

section
variable {p : Data.Table × Data.Table × Data.Table} {l w : F32}

/-- C112: the luminous flux of monochromatic light is 683 lm/W times the published luminosity curve, up to a relative
error of 2^-21, and never negative or overflowing. -/
theorem C112_lumens (hp : p ∈ observerTables) (hl : Wavelength l) (hw : Power w) :
    ∃ v, (tableObserver p).lumensFromMonochromaticFlux l w = .ok v ∧ v.isFinite = true ∧ 0 ≤ v.val ∧
      |v.val - 683 * w.val * p.2.1.at l.val| ≤ 683 * w.val * p.2.1.at l.val / 2 ^ 21 + (w.val + 1) / 2 ^ 138 := by
  obtain ⟨-, hY, -⟩ := observer_curves hp
  obtain ⟨y, ey, ny, dy, -⟩ := curve_fetch hY hl
  obtain ⟨⟨n, d⟩, -⟩ := two_steps ny hw (p.2.1.at_nonneg _) dy
  refine ⟨_, ?_, n.fin, n.nonneg, d⟩
  unfold Observer.lumensFromMonochromaticFlux
  show (do let y ← (ofTable p.2.1 : Spectrum F32).fetch l; return y * w * lit 683) = _
  rw [ey]; rfl

/-- C112: the luminance of monochromatic light, component by component. -/
theorem C112_candellas (hp : p ∈ observerTables) (hl : Wavelength l) (hw : Power w) :
    ∃ v : Tristimulus F32, (tableObserver p).candellasFromMonochromaticRadiance l w = .ok v ∧
      ∀ c ∈ [(v.a, p.1), (v.b, p.2.1), (v.c, p.2.2)], c.1.isFinite = true ∧ 0 ≤ c.1.val ∧
        |c.1.val - 683 * w.val * c.2.at l.val| ≤ 683 * w.val * c.2.at l.val / 2 ^ 21 + (w.val + 1) / 2 ^ 138 := by
  obtain ⟨hX, hY, hZ⟩ := observer_curves hp
  obtain ⟨x, ex, nx, dx, -⟩ := curve_fetch hX hl
  obtain ⟨y, ey, ny, dy, -⟩ := curve_fetch hY hl
  obtain ⟨z, ez, nz, dz, -⟩ := curve_fetch hZ hl
  obtain ⟨-, n1, d1⟩ := two_steps nx hw (p.1.at_nonneg _) dx
  obtain ⟨-, n2, d2⟩ := two_steps ny hw (p.2.1.at_nonneg _) dy
  obtain ⟨-, n3, d3⟩ := two_steps nz hw (p.2.2.at_nonneg _) dz
  refine ⟨⟨x * lit 683 * w, y * lit 683 * w, z * lit 683 * w⟩, ?_, ?_⟩
  · unfold Observer.candellasFromMonochromaticRadiance Observer.fetch3
    show (do
      let t ← (do
        let x ← (ofTable p.1 : Spectrum F32).fetch l
        let y ← (ofTable p.2.1 : Spectrum F32).fetch l
        let z ← (ofTable p.2.2 : Spectrum F32).fetch l
        return (⟨x, y, z⟩ : Tristimulus F32))
      return (t.scale (lit 683)).scale w) = _
    rw [ex, ey, ez]; rfl
  · intro c hc
    simp only [List.mem_cons, List.not_mem_nil, or_false] at hc
    rcases hc with rfl | rfl | rfl
    · exact ⟨n1.fin, n1.nonneg, d1⟩
    · exact ⟨n2.fin, n2.nonneg, d2⟩
    · exact ⟨n3.fin, n3.nonneg, d3⟩

/-- C112: the colour of monochromatic light is the published curve over its sum. -/
theorem C112_xyz (hp : p ∈ observerTables) (hl : Wavelength l) :
    ∃ v : Tristimulus F32, (tableObserver p).xyz l = .ok v ∧
      ∀ c ∈ [(v.a, p.1), (v.b, p.2.1), (v.c, p.2.2)], c.1.isFinite = true ∧ 0 ≤ c.1.val ∧
        |c.1.val - c.2.at l.val / ∑ i, c.2.q i| ≤ 2.5e-5 * (c.2.at l.val / ∑ i, c.2.q i) + 1 / 2 ^ 147 := by
  obtain ⟨hX, hY, hZ⟩ := observer_curves hp
  have key : ∀ {t : Data.Table} (_ : t.curve = true) {x : F32} (_ : NN x 4) (_ : |x.val - t.at l.val| ≤ 3.1 * u * t.at l.val + 1 / 2 ^ 148),
      (x * (lit 1 / (ofTable t : Spectrum F32).sum)).isFinite = true ∧ 0 ≤ (x * (lit 1 / (ofTable t : Spectrum F32).sum)).val ∧
      |(x * (lit 1 / (ofTable t : Spectrum F32).sum)).val - t.at l.val / ∑ i, t.q i| ≤
        2.5e-5 * (t.at l.val / ∑ i, t.q i) + 1 / 2 ^ 147 := by
    intro t ht x nx dx
    obtain ⟨nn, n1, n2⟩ := curve_normalize ht
    have T := Data.Table.sum_ge ht
    have c0 := t.at_nonneg l.val
    obtain ⟨m, d⟩ := mul_known nx nn (C := 4) (by exact_mod_cast rep_int (n := 4) (by norm_num)) (by norm_num) (by norm_num) dx
    refine ⟨m.fin, m.nonneg, ?_⟩
    have nl := nn.le
    have nz := nn.nonneg
    generalize ((lit 1 : F32) / (ofTable t : Spectrum F32).sum) = k at *
    generalize ∑ i, t.q i = S at *
    have S0 : 0 < S := by linarith
    generalize t.at l.val = c at *
    have b1 : c * k.val ≤ (1 + 2.4e-5) * (c / S) := by
      calc c * k.val ≤ c * ((1 + 2.4e-5) / S) := mul_le_mul_of_nonneg_left n2 c0
        _ = _ := by ring
    have b2 : (1 - 2.4e-5) * (c / S) ≤ c * k.val := by
      calc (1 - 2.4e-5) * (c / S) = c * ((1 - 2.4e-5) / S) := by ring
        _ ≤ _ := mul_le_mul_of_nonneg_left n1 c0
    have p0 : 0 ≤ c / S := div_nonneg c0 S0.le
    have d' := _root_.abs_le.1 d
    generalize c * k.val = P at *
    generalize c / S = Q at *
    generalize (x * k).val = R at *
    rw [u] at d'
    rw [_root_.abs_le]
    norm_num at *
    constructor <;> linarith
  obtain ⟨x, ex, nx, dx, -⟩ := curve_fetch hX hl
  obtain ⟨y, ey, ny, dy, -⟩ := curve_fetch hY hl
  obtain ⟨z, ez, nz, dz, -⟩ := curve_fetch hZ hl
  refine ⟨⟨x * (lit 1 / (ofTable p.1 : Spectrum F32).sum), y * (lit 1 / (ofTable p.2.1 : Spectrum F32).sum),
    z * (lit 1 / (ofTable p.2.2 : Spectrum F32).sum)⟩, ?_, ?_⟩
  · unfold Observer.xyz Observer.fetch3
    show (do
      let t ← (do
        let x ← (ofTable p.1 : Spectrum F32).fetch l
        let y ← (ofTable p.2.1 : Spectrum F32).fetch l
        let z ← (ofTable p.2.2 : Spectrum F32).fetch l
        return (⟨x, y, z⟩ : Tristimulus F32))
      return t.mul (tableObserver p).normalize) = _
    rw [ex, ey, ez]; rfl
  · intro c hc
    simp only [List.mem_cons, List.not_mem_nil, or_false] at hc
    rcases hc with rfl | rfl | rfl
    · exact key hX nx dx
    · exact key hY ny dy
    · exact key hZ nz dz

/-- C112: for the 1931 and the 2012 observer no wavelength gives more than 683 lumens per watt, after rounding. -/
theorem C112_efficacy (hp : p ∈ observerTables) (hne : p.2.1 ≠ Data.CIE.CIE1931_JuddVos_Y) (hl : Wavelength l) (hw : Power w) :
    ∃ v, (tableObserver p).lumensFromMonochromaticFlux l w = .ok v ∧ v.val ≤ (w * lit 683).val := by
  obtain ⟨-, hY, -⟩ := observer_curves hp
  have h1 : p.2.1.leOne = true := by
    simp only [observerTables, List.mem_cons, List.not_mem_nil, or_false] at hp
    rcases hp with rfl | rfl | rfl
    · exact leOne_1931
    · exact absurd rfl hne
    · exact leOne_2012
  obtain ⟨y, ey, ny, dy, y1⟩ := curve_fetch hY hl
  obtain ⟨⟨n, d⟩, -⟩ := two_steps ny hw (p.2.1.at_nonneg _) dy
  refine ⟨y * w * lit 683, ?_, ?_⟩
  · unfold Observer.lumensFromMonochromaticFlux
    show (do let y ← (ofTable p.2.1 : Spectrum F32).fetch l; return y * w * lit 683) = _
    rw [ey]; rfl
  · have rp : Rep (2 ^ 112 : ℚ) := by simpa using rep_mul_pow (n := 1) (by norm_num) (k := 112)
    obtain ⟨m, e⟩ := mul_nn hw nn683 rp (by norm_num) (by norm_num)
    rw [e, mul_val n.fin, mul_val (mul_isFinite n.fin).1]
    refine rnd_mono (mul_le_mul_of_nonneg_right (rnd_le (rep_val w) ?_) (by rw [lit683.2]; norm_num))
    have := y1 h1
    have := hw.nonneg
    nlinarith

/-- C112: more power, at least as much light. -/
theorem C112_mono {w' : F32} (hp : p ∈ observerTables) (hl : Wavelength l) (hw : Power w) (hw' : Power w') (h : w.val ≤ w'.val) :
    ∃ v v', (tableObserver p).lumensFromMonochromaticFlux l w = .ok v ∧
      (tableObserver p).lumensFromMonochromaticFlux l w' = .ok v' ∧ v.val ≤ v'.val := by
  obtain ⟨-, hY, -⟩ := observer_curves hp
  obtain ⟨y, ey, ny, dy, -⟩ := curve_fetch hY hl
  obtain ⟨⟨n, -⟩, -⟩ := two_steps ny hw (p.2.1.at_nonneg _) dy
  obtain ⟨⟨n', -⟩, -⟩ := two_steps ny hw' (p.2.1.at_nonneg _) dy
  have e : ∀ w : F32, (tableObserver p).lumensFromMonochromaticFlux l w = .ok (y * w * lit 683) := by
    intro w
    unfold Observer.lumensFromMonochromaticFlux
    show (do let y ← (ofTable p.2.1 : Spectrum F32).fetch l; return y * w * lit 683) = _
    rw [ey]; rfl
  refine ⟨_, _, e w, e w', ?_⟩
  rw [mul_val n.fin, mul_val n'.fin, mul_val (mul_isFinite n.fin).1, mul_val (mul_isFinite n'.fin).1]
  exact rnd_mono (mul_le_mul_of_nonneg_right (rnd_mono (mul_le_mul_of_nonneg_left h ny.nonneg)) (by rw [lit683.2]; norm_num))
end

/-- C112: the bound of `C112_efficacy` is attained at 555 nm by the 1931 observer, for every power. -/
theorem C112_peak {w : F32} (hw : Power w) :
    ∃ v, (CIE1931 : Observer F32).lumensFromMonochromaticFlux (lit 555) w = .ok v ∧ v.val = (w * lit 683).val := by
  obtain ⟨y, ey, iy⟩ : ∃ y, (ofTable Data.CIE.CIE1931_Y : Spectrum F32).fetch (lit 555) = .ok y ∧ Is y 1 := by
    obtain ⟨k, hk, a, r, hkl, ir, ia, hv⟩ := C108_weights (ofTable Data.CIE.CIE1931_Y : Spectrum F32) (t := lit 555)
      (by decide +kernel) (by decide +kernel) (by decide +kernel)
    have h5 : (lit 555 : F32).val = 555 := by decide +kernel
    rw [h5] at ir ia hkl
    have f5 : ⌊(555 : ℚ)⌋ = 555 := by norm_num
    rw [f5] at ir ia hkl
    obtain rfl : k = 175 := by omega
    refine ⟨_, hv, ?_⟩
    have s1 : Is ((ofTable Data.CIE.CIE1931_Y : Spectrum F32) ⟨175, by omega⟩) 1 := ⟨by decide +kernel, by decide +kernel⟩
    have s2 := (curve_nn (t := Data.CIE.CIE1931_Y) (by decide +kernel) ⟨176, by omega⟩).1.fin
    have z : Rep 0 := by exact_mod_cast rep_int (n := 0) (by norm_num)
    have o : Rep 1 := by exact_mod_cast rep_int (n := 1) (by norm_num)
    have m1 := s1.mul ia (by norm_num; exact o) (by norm_num)
    have m2 := Is.mul (x := (ofTable Data.CIE.CIE1931_Y : Spectrum F32) ⟨176, by omega⟩) ⟨s2, rfl⟩ ir (by norm_num; exact z) (by norm_num)
    have := m1.add m2 (by norm_num; exact o) (by norm_num)
    norm_num at this
    exact this
  have ny : NN y 4 := ⟨iy.1, by rw [iy.2]; norm_num, by rw [iy.2]; norm_num⟩
  obtain ⟨⟨n, -⟩, -⟩ := two_steps ny hw (c := 1) (by norm_num) (by rw [iy.2, u]; norm_num)
  refine ⟨y * w * lit 683, ?_, ?_⟩
  · unfold Observer.lumensFromMonochromaticFlux
    show (do let y ← (ofTable Data.CIE.CIE1931_Y : Spectrum F32).fetch (lit 555); return y * w * lit 683) = _
    rw [ey]; rfl
  · have rp : Rep (2 ^ 112 : ℚ) := by simpa using rep_mul_pow (n := 1) (by norm_num) (k := 112)
    obtain ⟨m, e⟩ := mul_nn hw nn683 rp (by norm_num) (by norm_num)
    rw [e, mul_val n.fin, mul_val (mul_isFinite n.fin).1, iy.2, one_mul, rnd_of_rep (rep_val w)]

/-- C112: the curve of Judd and Vos has the value 1.0001 at 555 nm, which is more than 683 lumens per watt. -/
theorem C112_juddvos :
    ∃ v, (CIE31JV : Observer F32).lumensFromMonochromaticFlux (lit 555) (lit 1) = .ok v ∧ 683.067 < v.val := by
  obtain ⟨v, e, f, v0, d⟩ := C112_lumens (p := (Data.CIE.CIE1931_JuddVos_X, Data.CIE.CIE1931_JuddVos_Y, Data.CIE.CIE1931_JuddVos_Z))
    (l := lit 555) (w := lit 1) (by simp [observerTables]) ⟨by decide +kernel, by decide +kernel⟩
    ⟨by decide +kernel, by decide +kernel, by decide +kernel⟩
  refine ⟨v, e, ?_⟩
  have h5 : (lit 555 : F32).val = 555 := by decide +kernel
  have h1 : (lit 1 : F32).val = 1 := by decide +kernel
  have h6 : Data.CIE.CIE1931_JuddVos_Y.at 555 = 1.0001 := by decide +kernel
  rw [h5, h1] at d
  simp only at d
  rw [h6] at d
  have := (_root_.abs_le.1 d).1
  norm_num at this ⊢
  linarith

/-- A laser pointer: 5 mW at 532.25 nm. -/
example : Wavelength (lit 532.25) ∧ Power (lit 0.005) :=
  ⟨⟨by decide +kernel, by decide +kernel⟩, by decide +kernel, by decide +kernel, by decide +kernel⟩

end CS
