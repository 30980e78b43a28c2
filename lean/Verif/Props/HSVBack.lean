import Verif.Props.HSVRound

/-!
# C119: a colour picked by hue, saturation and value keeps them (binary32)

`fromHSV` followed by `toHSV`: the value comes back exactly, the saturation within `7e-7`, the hue within a ten-thousandth of a degree
divided by the saturation.
-/

namespace CS
open F32 B32 Tristimulus

/-- Every position on the hue circle, by its distance from the nearest even position. -/
theorem dip_seg {x : ℚ} (h0 : 0 ≤ x) (h6 : x ≤ 6) : ∃ u, 0 ≤ u ∧ u ≤ 1 ∧ (x = u ∨ x = 6 - u ∨ x = 2 + u ∨ x = 2 - u ∨ x = 4 + u ∨ x = 4 - u) := by
  rcases le_total x 1 with h | h
  · exact ⟨x, h0, h, .inl rfl⟩
  rcases le_total x 2 with h2 | h2
  · exact ⟨2 - x, by linarith, by linarith, by right; right; right; left; ring⟩
  rcases le_total x 3 with h3 | h3
  · exact ⟨x - 2, by linarith, by linarith, by right; right; left; ring⟩
  rcases le_total x 4 with h4 | h4
  · exact ⟨4 - x, by linarith, by linarith, by right; right; right; right; right; ring⟩
  rcases le_total x 5 with h5 | h5
  · exact ⟨x - 4, by linarith, by linarith, by right; right; right; right; left; ring⟩
  · exact ⟨6 - x, by linarith, by linarith, by right; left; ring⟩

/-- One of the three channels is at the bottom. -/
theorem dip_one {x : ℚ} (h0 : 0 ≤ x) (h6 : x ≤ 6) : ∃ i, dip i x = 1 := by
  obtain ⟨u, u0, u1, h⟩ := dip_seg h0 h6
  obtain ⟨a, b, c, d, e, f⟩ := dip_vals u0 u1
  rcases h with rfl | rfl | rfl | rfl | rfl | rfl
  · exact ⟨2, a.2.2⟩
  · exact ⟨1, b.2.1⟩
  · exact ⟨0, c.1⟩
  · exact ⟨2, d.2.2⟩
  · exact ⟨1, e.2.1⟩
  · exact ⟨0, f.1⟩

/-- The three channels fix the position on the hue circle. -/
theorem dip_inj {x y ε : ℚ} (hx : 0 ≤ x ∧ x ≤ 6) (hy : 0 ≤ y ∧ y ≤ 6) (hε : ε < 1) (h : ∀ i, |dip i x - dip i y| ≤ ε) :
    ∃ n : ℤ, |x - y - 6 * n| ≤ 2 * ε := by
  obtain ⟨u, u0, u1, ex⟩ := dip_seg hx.1 hx.2
  obtain ⟨w, w0, w1, ey⟩ := dip_seg hy.1 hy.2
  obtain ⟨⟨a0, a1, a2⟩, ⟨b0, b1, b2⟩, ⟨c0, c1, c2⟩, ⟨d0, d1, d2⟩, ⟨e0, e1, e2⟩, f0, f1, f2⟩ := dip_vals u0 u1
  obtain ⟨⟨a0', a1', a2'⟩, ⟨b0', b1', b2'⟩, ⟨c0', c1', c2'⟩, ⟨d0', d1', d2'⟩, ⟨e0', e1', e2'⟩, f0', f1', f2'⟩ := dip_vals w0 w1
  have k0 := abs_le.1 (h 0)
  have k1 := abs_le.1 (h 1)
  have k2 := abs_le.1 (h 2)
  have e0 : 0 ≤ ε := (abs_nonneg _).trans (h 0)
  clear h
  rcases ex with ex | ex | ex | ex | ex | ex <;> rcases ey with ey | ey | ey | ey | ey | ey <;>
    simp only [ex, ey, *] at k0 k1 k2 <;> obtain ⟨p0, q0⟩ := k0 <;> obtain ⟨p1, q1⟩ := k1 <;> obtain ⟨p2, q2⟩ := k2 <;>
    first
    | (exfalso; linarith)
    | (refine ⟨0, ?_⟩; rw [abs_le]; push_cast; constructor <;> linarith)
    | (refine ⟨1, ?_⟩; rw [abs_le]; push_cast; constructor <;> linarith)
    | (refine ⟨-1, ?_⟩; rw [abs_le]; push_cast; constructor <;> linarith)

/-- C119: in binary32, a hue in `[0, 360]`, a saturation in `[1e-6, 1]` and a value in `[2^-100, 2^120]` come back from `fromHSV`
followed by `toHSV`: the value exactly, the saturation within `7e-7` and the hue, up to whole turns, within `1.3e-4 + 1e-4 / saturation`
degrees. -/
theorem C119_roundtrip (t : Tristimulus F32) (ha : t.a.isFinite = true) (a0 : 0 ≤ t.a.val) (a1 : t.a.val ≤ 360)
    (hb : t.b.isFinite = true) (b0 : 1e-6 ≤ t.b.val) (b1 : t.b.val ≤ 1) (hc : t.c.isFinite = true)
    (c0 : 1 / 2 ^ 100 ≤ t.c.val) (c1 : t.c.val ≤ 2 ^ 120) :
    ∃ o t', fromHSV t = some (.ok o) ∧ toHSV o = some t' ∧
      t'.c.val = t.c.val ∧ |t'.b.val - t.b.val| ≤ 7e-7 ∧
      (∃ n : ℤ, |t'.a.val - (t.a.val + 360 * n)| ≤ 1.3e-4 + 1e-4 / t.b.val) ∧ 0 ≤ t'.a.val ∧ t'.a.val ≤ 360 := by
  have q0 : 0 < t.c.val := lt_of_lt_of_le (by positivity) c0
  have k0 : 0 < t.b.val := by linarith
  obtain ⟨o, t', ho, ht, -, hval, -, -⟩ := C64_value_roundtrip t ha (by rw [abs_of_nonneg a0]; exact a1.trans (by norm_num)) hb k0.le b1 hc
    q0.le c1
  obtain ⟨o2, ho2, -, hz⟩ := C64_range t ha (by rw [abs_of_nonneg a0]; exact a1.trans (by norm_num)) hb k0.le b1 hc q0.le
  obtain ⟨o3, ho3, y, y0, y6, hy, ⟨r1, i1, e1⟩, ⟨r2, i2, e2⟩, ⟨r3, i3, e3⟩⟩ :=
    fromHSVwrapped_near (.of _ ha) a0 a1 (.of _ hb) k0.le b1 (.of _ hc) q0.le
  have s3 : fromHSV t = some (.ok o3) := by rw [fromHSV, mod360_here (.of _ ha) a0 a1]; exact congrArg some ho3
  have q2 : o2 = o := by rw [ho2] at ho; simpa using ho
  have q3 : o3 = o := by rw [s3] at ho; simpa using ho
  subst q2
  subst q3
  have za := hz o3.a (by simp)
  have zb := hz o3.b (by simp)
  have zc := hz o3.c (by simp)
  have small : ∀ z : F32, 0 ≤ z.val → z.val ≤ t.c.val → |z.val| ≤ 2 ^ 120 := fun z z0 z1 => by
    rw [abs_of_nonneg z0]; exact z1.trans c1
  obtain ⟨t2, g, -, h0, h1, ⟨n, hn⟩, -, hv⟩ := C63_hue o3 za.1 zb.1 zc.1 (small _ za.2.1 za.2.2) (small _ zb.2.1 zb.2.2)
    (small _ zc.2.1 zc.2.2)
  have q4 : t2 = t' := by rw [g] at ht; simpa using ht
  subst q4
  obtain ⟨-, -, -, hs⟩ := C63_saturation o3 za.1 zb.1 zc.1 za.2.1 zb.2.1 zc.2.1 t2 g
  rw [i1.2] at za
  rw [i2.2] at zb
  rw [i3.2] at zc
  rw [i1.2, i2.2, i3.2] at hn hv hs
  obtain ⟨y', m, y0', y6', hh, E1, E2, E3⟩ := colour_of_hue r1 r2 r3
  rw [← hv, hval] at hs E1 E2 E3
  refine ⟨o3, t2, ho, g, hval, ?_, ?_, h0, h1⟩
  all_goals
    have tiny : (1 : ℚ) / 2 ^ 150 ≤ 1e-9 * (1 / 2 ^ 100) := by norm_num
    generalize hQ : t.c.val = q at *
    generalize hK : t.b.val = k at *
    have δ : q * 4e-7 + 1 / 2 ^ 150 ≤ q * 4.01e-7 := by linarith
    replace e1 := e1.trans δ
    replace e2 := e2.trans δ
    replace e3 := e3.trans δ
    -- the smallest channel
    have low : |q - Spec.loQ r1 r2 r3 - q * k| ≤ q * 4.01e-7 := by
      have lb : ∀ {r : ℚ} {i}, |r - q * (1 - k * dip i y)| ≤ q * 4.01e-7 → q * (1 - k) - q * 4.01e-7 ≤ r := by
        intro r i h
        have := (abs_le.1 h).1
        have d1 := (dip_mem i y).2
        have : k * dip i y ≤ k := mul_le_of_le_one_right k0.le d1
        have : q * (k * dip i y) ≤ q * k := mul_le_mul_of_nonneg_left this q0.le
        linarith
      have lo : q * (1 - k) - q * 4.01e-7 ≤ Spec.loQ r1 r2 r3 := le_min (le_min (lb e1) (lb e2)) (lb e3)
      have up : Spec.loQ r1 r2 r3 ≤ q * (1 - k) + q * 4.01e-7 := by
        have ub : ∀ {r : ℚ} {i}, dip i y = 1 → |r - q * (1 - k * dip i y)| ≤ q * 4.01e-7 → r ≤ q * (1 - k) + q * 4.01e-7 := by
          intro r i d h
          rw [d, mul_one] at h
          linarith [(abs_le.1 h).2]
        obtain ⟨i, hi⟩ := dip_one y0 y6
        have l1 : Spec.loQ r1 r2 r3 ≤ r1 := (min_le_left _ _).trans (min_le_left _ _)
        have l2 : Spec.loQ r1 r2 r3 ≤ r2 := (min_le_left _ _).trans (min_le_right _ _)
        have l3 : Spec.loQ r1 r2 r3 ≤ r3 := min_le_right _ _
        match i, hi with
        | 0, hi => exact l1.trans (ub hi e1)
        | 1, hi => exact l2.trans (ub hi e2)
        | 2, hi => exact l3.trans (ub hi e3)
      rw [abs_le]; constructor <;> linarith
    generalize Spec.loQ r1 r2 r3 = l at *
  · have h2 := hs q0.ne'
    have h3 : |(q - l) / q - k| ≤ 4.01e-7 := by
      rw [show (q - l) / q - k = (q - l - q * k) / q by field_simp, abs_div, abs_of_pos q0, div_le_iff₀ q0]
      linarith
    have := abs_sub_le t2.b.val ((q - l) / q) k
    norm_num at h2 h3 ⊢
    linarith
  · have close : ∀ {r : ℚ} {i}, |r - q * (1 - k * dip i y)| ≤ q * 4.01e-7 → r = q - (q - l) * dip i y' →
        |dip i y' - dip i y| ≤ 8.02e-7 / k := by
      intro r i h1 h2
      rw [h2] at h1
      have d := dip_mem i y'
      have h3 : |(q - l - q * k) * dip i y'| ≤ q * 4.01e-7 := by
        rw [abs_mul, abs_of_nonneg d.1]
        exact (mul_le_of_le_one_right (abs_nonneg _) d.2).trans low
      rw [le_div_iff₀ k0]
      have h4 : |q * k * (dip i y' - dip i y)| ≤ q * 8.02e-7 := by
        obtain ⟨p1, p2⟩ := abs_le.1 h1
        obtain ⟨p3, p4⟩ := abs_le.1 h3
        rw [abs_le]; constructor <;> linarith
      rw [abs_mul, abs_of_pos (mul_pos q0 k0), mul_assoc] at h4
      have := le_of_mul_le_mul_left h4 q0
      linarith
    have hk : 8.02e-7 / k < 1 := by rw [div_lt_one k0]; linarith
    obtain ⟨j, hj⟩ := dip_inj ⟨y0', y6'⟩ ⟨y0, y6⟩ hk (fun i => by
      match i with
      | 0 => exact close e1 E1
      | 1 => exact close e2 E2
      | 2 => exact close e3 E3)
    refine ⟨n + m + j, ?_⟩
    rw [hh] at hn
    have e : 1e-4 / k = 8.02e-7 / k * (1e-4 / 8.02e-7) := by field_simp
    rw [e]
    have pos : 0 ≤ 8.02e-7 / k := by positivity
    generalize 8.02e-7 / k = ε at *
    obtain ⟨p1, p2⟩ := abs_le.1 hn
    obtain ⟨p3, p4⟩ := abs_le.1 hj
    obtain ⟨p5, p6⟩ := abs_le.1 hy
    push_cast
    norm_num at p1 p2 p3 p4 p5 p6 ⊢
    rw [abs_le]; constructor <;> linarith

/-- C119: whole degrees of hue, and saturation and value in steps of `1/M` (`M` up to 4095), none of them zero, come back. -/
theorem C119_picker (n i j M : ℕ) (hn : n ≤ 360) (hM : M ≤ 4095) (hi : i ≤ M) (hj : j ≤ M) (i0 : 0 < i) (j0 : 0 < j) :
    ∃ o t', fromHSV (⟨Arith.ofInt n, Arith.ofInt i / Arith.ofInt M, Arith.ofInt j / Arith.ofInt M⟩ : Tristimulus F32) = some (.ok o) ∧
      toHSV o = some t' ∧ (∃ m : ℤ, |t'.a.val - (n + 360 * m)| < 1 / 2) ∧ |t'.b.val * M - i| < 1 / 2 ∧ |t'.c.val * M - j| < 1 / 2 := by
  have M0 : 0 < M := i0.trans_le hi
  have Mp : (0 : ℚ) < M := by exact_mod_cast M0
  have Mq : (M : ℚ) ≤ 4095 := by exact_mod_cast hM
  obtain ⟨fb, vb, b0, b1⟩ := code_val M0 (hM.trans (by norm_num)) hi
  obtain ⟨fc, vc, c0, c1⟩ := code_val M0 (hM.trans (by norm_num)) hj
  have ia : Is (Arith.ofInt (n : ℤ)) ((n : ℤ) : ℚ) := Is.ofInt (by rw [abs_of_nonneg (by positivity)]; omega)
  have r : Rep (1 / 4096) := by
    have := F32.rep_val (lit (1 / 4096) : F32)
    rwa [show (lit (1 / 4096) : F32).val = 1 / 4096 by decide +kernel] at this
  have lo : ∀ {l : ℕ}, 0 < l → 1 / 4096 ≤ rnd (l / M : ℚ) := by
    intro l l0
    refine le_rnd r ?_
    rw [div_le_div_iff₀ (by norm_num) Mp]
    have : (1 : ℚ) ≤ l := by exact_mod_cast l0
    linarith
  have near : ∀ {l : ℕ}, l ≤ M → |rnd (l / M : ℚ) - l / M| ≤ 6e-8 := by
    intro l hl
    have q0 : (0 : ℚ) ≤ l / M := by positivity
    have q1 : (l / M : ℚ) ≤ 1 := by rw [div_le_one (by positivity)]; exact_mod_cast hl
    have h1 := rnd_rel' (l / M : ℚ)
    rw [abs_of_nonneg q0] at h1
    have h3 : (l / M : ℚ) / 2 ^ 24 ≤ 1 / 2 ^ 24 := div_le_div_of_nonneg_right q1 (by positivity)
    refine h1.trans ((add_le_add_left h3 _).trans (by norm_num))
  have nq : ((n : ℤ) : ℚ) ≤ 360 := by exact_mod_cast hn
  obtain ⟨o, t', h1, h2, hv, hs, ⟨m, hh⟩, -, -⟩ := C119_roundtrip ⟨Arith.ofInt n, Arith.ofInt i / Arith.ofInt M, Arith.ofInt j / Arith.ofInt M⟩
    ia.1 (by rw [ia.2]; positivity) (by rw [ia.2]; exact nq) fb (by rw [vb]; exact le_trans (by norm_num) (lo i0)) (by rw [vb]; exact b1) fc
    (by rw [vc]; exact le_trans (by norm_num) (lo j0)) (by rw [vc]; exact c1.trans (by norm_num))
  simp only [vb, vc, ia.2] at hv hs hh
  have fin : ∀ {l : ℕ} {x : ℚ}, |x - l / M| ≤ 8e-7 → |x * M - l| < 1 / 2 := by
    intro l x hx
    have h5 : x * M - l = (x - l / M) * M := by field_simp
    rw [h5, abs_mul, abs_of_pos Mp]
    have : |x - l / M| * M ≤ 8e-7 * 4095 := mul_le_mul hx Mq Mp.le (by norm_num)
    exact this.trans_lt (by norm_num)
  refine ⟨o, t', h1, h2, ⟨m, ?_⟩, fin ?_, fin ?_⟩
  · push_cast at hh
    refine hh.trans_lt ?_
    have := lo i0
    have : 1e-4 / rnd (i / M : ℚ) ≤ 1e-4 / (1 / 4096) := div_le_div_of_nonneg_left (by norm_num) (by norm_num) this
    norm_num at this ⊢
    linarith
  · have := abs_sub_le t'.b.val (rnd (i / M : ℚ)) (i / M)
    have := near hi
    linarith
  · rw [hv]
    exact (near hj).trans (by norm_num)

/-- The hypotheses are met: 210°, 35 %, 80 %. -/
example : 210 ≤ 360 ∧ 100 ≤ 4095 ∧ 35 ≤ 100 ∧ 80 ≤ 100 ∧ 0 < 35 ∧ 0 < 80 := by norm_num

end CS
