import Verif.Lemmas.Accum

/-!
# The implicit QR step of `svdcmp` preserves the factorisation, in exact arithmetic
-/

namespace CS.SOLVER
open Arith Libm Matrix
variable {m n : ℕ}

/-- Column `t`. -/
def col {r : ℕ} (a : Mat ℝ r n) (t : ℕ) : Fin r → ℝ := fun i => if h : t < n then a i ⟨t, h⟩ else 0

/-- Entry `t`. -/
def ent (w : Vec ℝ n) (t : ℕ) : ℝ := if h : t < n then w ⟨t, h⟩ else 0

theorem ent_eq (w : Vec ℝ n) {t : ℕ} (h : t < n) : ent w t = w ⟨t, h⟩ := dif_pos h

/-- The columns are orthonormal. -/
def OrthC {r : ℕ} (a : Mat ℝ r n) : Prop :=
  ∀ s t, s < n → t < n → col a s ⬝ᵥ col a t = if s = t then 1 else 0

theorem orthC_iff {r : ℕ} (a : Mat ℝ r n) : OrthC a ↔ (of a)ᵀ * of a = 1 := by
  have hc : ∀ (s : Fin n), col a s.val = fun i => a i s := fun s => by funext i; simp [col]
  constructor
  · intro h
    ext s t
    have := h s t s.2 t.2
    rw [hc, hc] at this
    rw [Matrix.mul_apply, Matrix.one_apply]
    rw [show (∑ j, (of a)ᵀ s j * of a j t) = (fun i => a i s) ⬝ᵥ fun i => a i t from rfl, this]
    simp [Fin.ext_iff]
  · intro h s t hs ht
    have := congrFun (congrFun h ⟨s, hs⟩) ⟨t, ht⟩
    rw [Matrix.mul_apply, Matrix.one_apply] at this
    rw [hc ⟨s, hs⟩, hc ⟨t, ht⟩]
    rw [show (fun i => a i ⟨s, hs⟩) ⬝ᵥ (fun i => a i ⟨t, ht⟩) = ∑ j, (of a)ᵀ ⟨s, hs⟩ j * of a j ⟨t, ht⟩ from rfl, this]
    simp [Fin.ext_iff]

/-- Columns after a rotation of columns `p` and `q`. -/
def RotOf {r : ℕ} (a a' : Mat ℝ r n) (p q : ℕ) (c s : ℝ) : Prop :=
  col a' p = c • col a p + s • col a q ∧ col a' q = c • col a q - s • col a p ∧
    ∀ t, t ≠ p → t ≠ q → col a' t = col a t

theorem rotCols_spec {r : ℕ} (a : Mat ℝ r n) {p q : ℕ} (hp : p < n) (hq : q < n) (hpq : p ≠ q) (c s : ℝ) :
    ∃ a', rotCols a p q c s = .ok a' ∧ RotOf a a' p q c s := by
  refine ⟨_, rotCols_real a hp hq hpq c s, ?_, ?_, ?_⟩
  · funext i
    simp only [col, dif_pos hp, dif_pos hq, if_true, Pi.add_apply, Pi.smul_apply, smul_eq_mul]
    ring
  · funext i
    simp only [col, dif_pos hp, dif_pos hq, if_true, Pi.sub_apply, Pi.smul_apply, smul_eq_mul]
    rw [if_neg hpq.symm]
    ring
  · intro t h1 h2
    funext i
    simp only [col]
    split_ifs <;> first | rfl | omega

theorem RotOf.orth {r : ℕ} {a a' : Mat ℝ r n} {p q : ℕ} (hp : p < n) (hq : q < n) (hpq : p ≠ q) {c s : ℝ}
    (h : RotOf a a' p q c s) (hcs : c * c + s * s = 1) (ho : OrthC a) : OrthC a' := by
  obtain ⟨h1, h2, h3⟩ := h
  have hpp := ho p p hp hp
  have hqq := ho q q hq hq
  have hpq' := ho p q hp hq
  have hqp' := ho q p hq hp
  rw [if_pos rfl] at hpp hqq
  rw [if_neg hpq] at hpq'
  rw [if_neg hpq.symm] at hqp'
  intro x y hx hy
  by_cases hxp : x = p
  · subst hxp
    by_cases hyp : y = x
    · subst hyp
      rw [h1, if_pos rfl]
      simp only [add_dotProduct, dotProduct_add, smul_dotProduct, dotProduct_smul, smul_eq_mul, hpp, hqq, hpq', hqp']
      linarith
    · by_cases hyq : y = q
      · subst hyq
        rw [h1, h2, if_neg hpq]
        simp only [add_dotProduct, dotProduct_sub, smul_dotProduct, dotProduct_smul, smul_eq_mul, hpp, hqq, hpq', hqp']
        ring
      · rw [h1, h3 y hyp hyq, if_neg (fun h => hyp h.symm)]
        simp only [add_dotProduct, smul_dotProduct, smul_eq_mul, ho x y hx hy, ho q y hq hy]
        rw [if_neg (fun h => hyp h.symm), if_neg (fun h => hyq h.symm)]
        ring
  · by_cases hxq : x = q
    · subst hxq
      by_cases hyp : y = p
      · subst hyp
        rw [h1, h2, if_neg hxp]
        simp only [add_dotProduct, sub_dotProduct, dotProduct_add, dotProduct_sub, smul_dotProduct, dotProduct_smul,
          smul_eq_mul, hpp, hqq, hpq', hqp']
        ring
      · by_cases hyq : y = x
        · subst hyq
          rw [h2, if_pos rfl]
          simp only [sub_dotProduct, dotProduct_sub, smul_dotProduct, dotProduct_smul, smul_eq_mul, hpp, hqq, hpq', hqp']
          linarith
        · rw [h2, h3 y hyp hyq, if_neg (fun h => hyq h.symm)]
          simp only [sub_dotProduct, smul_dotProduct, smul_eq_mul, ho x y hx hy, ho p y hp hy]
          rw [if_neg (fun h => hyq h.symm), if_neg (fun h => hyp h.symm)]
          ring
    · by_cases hyp : y = p
      · subst hyp
        rw [h1, h3 x hxp hxq, if_neg hxp]
        simp only [dotProduct_add, dotProduct_smul, smul_eq_mul, ho x y hx hy, ho x q hx hq]
        rw [if_neg hxp, if_neg hxq]
        ring
      · by_cases hyq : y = q
        · subst hyq
          rw [h2, h3 x hxp hxq, if_neg hxq]
          simp only [dotProduct_sub, dotProduct_smul, smul_eq_mul, ho x y hx hy, ho x p hx hp]
          rw [if_neg hxp, if_neg hxq]
          ring
        · rw [h3 x hxp hxq, h3 y hyp hyq, ho x y hx hy]

/-- `A v_t = w_t u_t + e_t u_(t-1)`. -/
def FactC (A : Matrix (Fin m) (Fin n) ℝ) (a : Mat ℝ m n) (v : Mat ℝ n n) (t : ℕ) (wt et : ℝ) : Prop :=
  A *ᵥ col v t = wt • col a t + et • col a (t - 1)

/-- The factorisation, column by column. -/
theorem fact_iff (A : Mat ℝ m n) (a : Mat ℝ m n) (w e : Vec ℝ n) (v : Mat ℝ n n) (he : ∀ h : 0 < n, e ⟨0, h⟩ = 0)
    (hv : OrthC v) :
    of A = of a * bidiag w e * (of v)ᵀ ↔ ∀ t, t < n → FactC (of A) a v t (ent w t) (ent e t) := by
  have hvv := (orthC_iff v).1 hv
  have hvv' := mul_eq_one_comm.1 hvv
  have h1 : of A = of a * bidiag w e * (of v)ᵀ ↔ of A * of v = of a * bidiag w e := by
    constructor
    · intro h; rw [h, Matrix.mul_assoc, hvv, Matrix.mul_one]
    · intro h; rw [← h, Matrix.mul_assoc, hvv', Matrix.mul_one]
  rw [h1]
  have hcol : ∀ (i : Fin m) (t : Fin n), (of A * of v) i t = (of A *ᵥ col v t.val) i := by
    intro i t
    rw [Matrix.mul_apply]
    exact Finset.sum_congr rfl fun k _ => by simp [col]
  have hB : ∀ (i : Fin m) (t : Fin n), (of a * bidiag w e) i t =
      (ent w t.val • col a t.val + ent e t.val • col a (t.val - 1)) i := by
    intro i t
    rw [Matrix.mul_apply]
    have hsplit : ∀ k : Fin n, of a i k * bidiag w e k t = (if k = t then a i k * w t else 0) +
        (if t.val = k.val + 1 then a i k * e t else 0) := by
      intro k
      show a i k * (if t.val = k.val then w t else if t.val = k.val + 1 then e t else 0) = _
      by_cases hk : k = t
      · subst hk; simp
      · have : t.val ≠ k.val := fun h => hk (Fin.ext h.symm)
        simp only [this, hk, if_false]
        split_ifs <;> simp
    rw [Finset.sum_congr rfl fun k _ => hsplit k, Finset.sum_add_distrib, Finset.sum_ite_eq' Finset.univ]
    simp only [Finset.mem_univ, if_true, Pi.add_apply, Pi.smul_apply, smul_eq_mul]
    rw [ent_eq w t.2, ent_eq e t.2]
    have hc1 : col a t.val i = a i t := by simp [col]
    rw [hc1, mul_comm]
    congr 1
    rcases Nat.eq_zero_or_pos t.val with h0 | hp
    · have he0 : e t = 0 := by
        have := he (by omega)
        rwa [show (⟨0, by omega⟩ : Fin n) = t from Fin.ext h0.symm] at this
      rw [show e ⟨t.val, t.2⟩ = 0 from he0, zero_mul]
      exact Finset.sum_eq_zero fun k _ => by simp
    · rw [Finset.sum_eq_single ⟨t.val - 1, by omega⟩]
      · rw [if_pos (by simp; omega)]
        have : col a (t.val - 1) i = a i ⟨t.val - 1, by omega⟩ := by
          unfold col; rw [dif_pos (by omega)]
        rw [this, mul_comm]
      · intro k _ hk
        rw [if_neg]
        intro h
        exact hk (Fin.ext (by simp; omega))
      · intro h; exact absurd (Finset.mem_univ _) h
  constructor
  · intro h t ht
    funext i
    have := congrFun (congrFun h i) ⟨t, ht⟩
    rw [hcol, hB] at this
    exact this
  · intro h
    ext i t
    rw [hcol, hB]
    exact congrFun (h t.val t.2) i

theorem pythag_rot {f h : ℝ} (hz : PYTHAG f h ≠ 0) :
    f / PYTHAG f h * (f / PYTHAG f h) + h / PYTHAG f h * (h / PYTHAG f h) = 1 ∧
    f / PYTHAG f h * f + h / PYTHAG f h * h = PYTHAG f h ∧ f / PYTHAG f h * h - h / PYTHAG f h * f = 0 := by
  have hsq : PYTHAG f h * PYTHAG f h = f ^ 2 + h ^ 2 := by
    rw [PYTHAG_real]; exact Real.mul_self_sqrt (by positivity)
  refine ⟨?_, ?_, by ring⟩
  · field_simp
    rw [← hsq]; ring
  · field_simp
    rw [← hsq]; ring

theorem pythag_ne {f h : ℝ} (hh : h ≠ 0) : PYTHAG f h ≠ 0 := by
  rw [PYTHAG_real]
  exact (Real.sqrt_pos.2 (by positivity)).ne'

/-- The invariant of the sweep, at the start of step `j`. -/
structure SInv (A : Matrix (Fin m) (Fin n) ℝ) (d : Dg ℝ m n) (l k j : ℕ) (st : Sw ℝ m n) : Prop where
  oa : OrthC st.d.a
  ov : OrthC st.d.v
  others : ∀ t, t < n → t ≠ j → (t = j + 1 → k ≤ j) →
    FactC A st.d.a st.d.v t (ent st.d.w t) (if t = l ∨ k < t then 0 else ent st.d.rv1 t)
  here : FactC A st.d.a st.d.v j st.x (if j = l then 0 else st.f)
  next : j < k → A *ᵥ col st.d.v (j + 1) = ent st.d.w (j + 1) • col st.d.a (j + 1) +
    (st.c * ent st.d.rv1 (j + 1)) • col st.d.a j + (if j = l then 0 else st.s * ent st.d.rv1 (j + 1)) • col st.d.a (j - 1)
  kw : ∀ t, t < l ∨ j ≤ t → ent st.d.w t = ent d.w t
  kr : ∀ t, t < l ∨ j ≤ t → ent st.d.rv1 t = ent d.rv1 t
  s0 : j < k → st.s ≠ 0

theorem ent_upd (w : Vec ℝ n) {j : ℕ} (hj : j < n) (x : ℝ) (t : ℕ) :
    ent (fun c => if c.val = j then x else w c) t = if t = j then x else ent w t := by
  unfold ent
  by_cases ht : t < n
  · rw [dif_pos ht, dif_pos ht]
  · rw [dif_neg ht, dif_neg ht, if_neg (by omega)]

theorem sweepStep_real {A : Matrix (Fin m) (Fin n) ℝ} {d : Dg ℝ m n} {l k j : ℕ} (hlj : l ≤ j) (hjk : j < k) (hk : k < n)
    (hw : ∀ t, l ≤ t → t < k → ent d.w t ≠ 0) (hr : ∀ t, l < t → t ≤ k → ent d.rv1 t ≠ 0) (st : Sw ℝ m n)
    (hI : SInv A d l k j st) : Ok (sweepStep j st) (SInv A d l k (j + 1)) := by
  have hj : j < n := by omega
  have hj1 : j + 1 < n := by omega
  obtain ⟨oa, ov, others, here, next, kw, kr, s0⟩ := hI
  have next := next hjk
  have s0 := s0 hjk
  unfold sweepStep
  simp only [bind, Except.bind]
  rw [rd_eq _ hj1, rd_eq _ hj1]
  simp only []
  rw [← ent_eq st.d.rv1 hj1, ← ent_eq st.d.w hj1]
  set r := ent st.d.rv1 (j + 1) with hrd
  set y := ent st.d.w (j + 1) with hyd
  have hr0 : r ≠ 0 := by rw [hrd, kr _ (.inr (by omega))]; exact hr _ (by omega) (by omega)
  set h := st.s * r with hh
  set g := st.c * r with hg
  have hh0 : h ≠ 0 := mul_ne_zero s0 hr0
  have hz := pythag_ne (f := st.f) hh0
  obtain ⟨z1, z2, z3⟩ := pythag_rot hz
  set z := PYTHAG st.f h with hzd
  rw [wr_fun _ hj]
  simp only []
  set c1 := st.f / z with hc1
  set s1 := h / z with hs1
  have hs10 : s1 ≠ 0 := div_ne_zero hh0 hz
  obtain ⟨v', hv1, hv2⟩ := rotCols_spec st.d.v hj hj1 (by omega) c1 s1
  rw [hv1]
  simp only []
  rw [wr_fun _ hj]
  simp only []
  set F := st.x * c1 + g * s1 with hF
  set G := g * c1 - st.x * s1 with hG
  set H := y * s1 with hH
  set Y := y * c1 with hY
  set Z := PYTHAG F H with hZ
  -- the second rotation
  obtain ⟨c2, s2, hcs, hrot, hfh, hgh, hs2⟩ : ∃ c2 s2 : ℝ, (if truthy Z = true then (F * (lit 1 / Z), H * (lit 1 / Z)) else (c1, s1)) = (c2, s2) ∧
      c2 * c2 + s2 * s2 = 1 ∧ c2 * F + s2 * H = Z ∧ c2 * H - s2 * F = 0 ∧ (j + 1 < k → s2 ≠ 0) := by
    by_cases hZ0 : Z = 0
    · have hsq : Z * Z = F ^ 2 + H ^ 2 := by
        rw [hZ, PYTHAG_real]; exact Real.mul_self_sqrt (by positivity)
      rw [hZ0, mul_zero] at hsq
      have hF0 : F = 0 := pow_eq_zero_iff two_ne_zero |>.1 (by nlinarith [sq_nonneg F, sq_nonneg H])
      have hH0 : H = 0 := pow_eq_zero_iff two_ne_zero |>.1 (by nlinarith [sq_nonneg F, sq_nonneg H])
      refine ⟨c1, s1, by rw [if_neg (by rw [truthy_real]; exact fun h => h hZ0)], z1, by rw [hF0, hH0, hZ0]; ring,
        by rw [hF0, hH0]; ring, fun _ => hs10⟩
    · obtain ⟨w1, w2, w3⟩ := pythag_rot hZ0
      refine ⟨F / Z, H / Z, ?_, w1, w2, w3, fun hlt => ?_⟩
      · rw [if_pos (truthy_real.2 hZ0)]
        simp only [lit_real, Rat.cast_one, mul_one_div]
      · refine div_ne_zero (mul_ne_zero ?_ hs10) hZ0
        rw [hyd, kw _ (.inr (by omega))]
        exact hw _ (by omega) hlt
  rw [hcs]
  simp only []
  obtain ⟨a', ha1, ha2⟩ := rotCols_spec st.d.a hj hj1 (by omega) c2 s2
  rw [ha1]
  refine Ok.ok ?_
  have hu1 : col st.d.a j = c2 • col a' j - s2 • col a' (j + 1) := by
    rw [ha2.1, ha2.2.1]
    funext i
    simp only [Pi.sub_apply, Pi.add_apply, Pi.smul_apply, smul_eq_mul]
    linear_combination (-(col st.d.a j i)) * hrot
  have hu2 : col st.d.a (j + 1) = s2 • col a' j + c2 • col a' (j + 1) := by
    rw [ha2.1, ha2.2.1]
    funext i
    simp only [Pi.sub_apply, Pi.add_apply, Pi.smul_apply, smul_eq_mul]
    linear_combination (-(col st.d.a (j + 1) i)) * hrot
  have hum : col st.d.a (j - 1) = col a' (j - 1) ∨ j = 0 := by
    rcases Nat.eq_zero_or_pos j with h0 | hp
    · exact .inr h0
    · exact .inl (ha2.2.2 _ (by omega) (by omega)).symm
  have here' : A *ᵥ col st.d.v j = st.x • col st.d.a j + (if j = l then 0 else st.f) • col st.d.a (j - 1) := here
  -- images of the rotated columns of v
  have hvj : A *ᵥ col v' j = F • col st.d.a j + H • col st.d.a (j + 1) + (if j = l then 0 else z) • col st.d.a (j - 1) := by
    rw [hv2.1, mulVec_add, mulVec_smul, mulVec_smul, here', next]
    funext i
    simp only [Pi.add_apply, Pi.smul_apply, smul_eq_mul]
    by_cases hjl : j = l
    · simp only [hjl, if_true]; simp only [hF, hH]; ring
    · simp only [hjl, if_false]; simp only [hF, hH]
      linear_combination (col st.d.a (j - 1) i) * z2
  have hvj1 : A *ᵥ col v' (j + 1) = G • col st.d.a j + Y • col st.d.a (j + 1) := by
    rw [hv2.2.1, mulVec_sub, mulVec_smul, mulVec_smul, here', next]
    funext i
    simp only [Pi.add_apply, Pi.sub_apply, Pi.smul_apply, smul_eq_mul]
    by_cases hjl : j = l
    · simp only [hjl, if_true]; simp only [hG, hY]; ring
    · simp only [hjl, if_false]; simp only [hG, hY]
      linear_combination (col st.d.a (j - 1) i) * z3
  refine ⟨ha2.orth hj hj1 (by omega) hrot oa, hv2.orth hj hj1 (by omega) z1 ov, ?_, ?_, ?_, ?_, ?_, hs2⟩
  · -- the other columns
    intro t ht ht1 ht2
    show A *ᵥ col v' t = _
    simp only []
    rw [ent_upd _ hj, ent_upd _ hj]
    by_cases htj : t = j
    · subst htj
      rw [if_pos rfl, if_pos rfl, hvj, hu1, hu2]
      funext i
      have hum' : (if t = l then 0 else z) * col st.d.a (t - 1) i = (if t = l ∨ k < t then 0 else z) * col a' (t - 1) i := by
        by_cases htl : t = l
        · simp [htl]
        · rw [if_neg htl, if_neg (by omega)]
          rcases hum with h0 | h0
          · rw [h0]
          · omega
      simp only [Pi.add_apply, Pi.sub_apply, Pi.smul_apply, smul_eq_mul]
      rw [hum']
      linear_combination (col a' t i) * hfh + (col a' (t + 1) i) * hgh
    · rw [if_neg htj, if_neg htj, hv2.2.2 t htj ht1]
      have h0 : A *ᵥ col st.d.v t = _ := others t ht htj (fun h => absurd h ht1)
      rw [h0, ha2.2.2 t htj ht1]
      congr 1
      by_cases hz0 : t = l ∨ k < t
      · rw [if_pos hz0, zero_smul, zero_smul]
      · rw [if_neg hz0, ha2.2.2 (t - 1)]
        · intro h1
          exact ht1 (by omega)
        · intro h1
          exact absurd (ht2 (by omega)) (by omega)
  · show A *ᵥ col v' (j + 1) = ((c2 * Y) - (s2 * G)) • col a' (j + 1) + (if j + 1 = l then 0 else c2 * G + s2 * Y) • col a' (j + 1 - 1)
    rw [if_neg (by omega), hvj1, hu1, hu2, Nat.add_sub_cancel]
    funext i
    simp only [Pi.add_apply, Pi.sub_apply, Pi.smul_apply, smul_eq_mul]
    ring
  · intro hlt
    show A *ᵥ col v' (j + 1 + 1) = ent (fun c => if c.val = j then Z else st.d.w c) (j + 1 + 1) • col a' (j + 1 + 1) +
      (c2 * ent (fun c => if c.val = j then z else st.d.rv1 c) (j + 1 + 1)) • col a' (j + 1) +
      (if j + 1 = l then 0 else s2 * ent (fun c => if c.val = j then z else st.d.rv1 c) (j + 1 + 1)) • col a' (j + 1 - 1)
    rw [ent_upd _ hj, ent_upd _ hj, if_neg (by omega), if_neg (by omega), if_neg (by omega), hv2.2.2 _ (by omega) (by omega)]
    have h0 : A *ᵥ col st.d.v (j + 1 + 1) = _ := others (j + 1 + 1) (by omega) (by omega) (by omega)
    rw [h0, if_neg (by omega), Nat.add_sub_cancel, Nat.add_sub_cancel, hu2, ha2.2.2 (j + 1 + 1) (by omega) (by omega)]
    funext i
    simp only [Pi.add_apply, Pi.sub_apply, Pi.smul_apply, smul_eq_mul]
    ring
  · intro t ht
    show ent (fun c => if c.val = j then Z else st.d.w c) t = _
    rw [ent_upd _ hj, if_neg (by omega)]
    exact kw t (by omega)
  · intro t ht
    show ent (fun c => if c.val = j then z else st.d.rv1 c) t = _
    rw [ent_upd _ hj, if_neg (by omega)]
    exact kr t (by omega)

/-- The implicit QR step on an unreduced block. -/
theorem qrStep_real {A : Matrix (Fin m) (Fin n) ℝ} (d : Dg ℝ m n) {l k : ℕ} (hlk : l < k) (hk : k < n) (z : ℝ)
    (hw : ∀ t, l ≤ t → t < k → ent d.w t ≠ 0) (hr : ∀ t, l < t → t ≤ k → ent d.rv1 t ≠ 0)
    (oa : OrthC d.a) (ov : OrthC d.v)
    (hf : ∀ t, t < n → FactC A d.a d.v t (ent d.w t) (if t = l ∨ k < t then 0 else ent d.rv1 t)) :
    Ok (qrStep d l k z) (fun d' => OrthC d'.a ∧ OrthC d'.v ∧
      (∀ t, t < n → FactC A d'.a d'.v t (ent d'.w t) (if k < t then 0 else ent d'.rv1 t)) ∧
      ent d'.rv1 l = 0 ∧ (∀ t, t < l ∨ k < t → ent d'.w t = ent d.w t ∧ ent d'.rv1 t = ent d.rv1 t)) := by
  refine (rd_ok d.w (by omega : l < n)).bind fun x hx => (rd_ok d.w (by omega : k - 1 < n)).bind fun y _ => ?_
  refine (rd_ok d.rv1 (by omega : k - 1 < n)).bind fun g _ => (rd_ok d.rv1 hk).bind fun h _ => ?_
  rw [← ent_eq d.w] at hx
  rw [Nat.sub_add_cancel (by omega)]
  refine (forUp_ok (SInv A d l k) hlk.le ?_ ?_).bind fun st hst => ?_
  · refine ⟨oa, ov, fun t ht htl _ => hf t ht, ?_, ?_, fun _ _ => rfl, fun _ _ => rfl, fun _ => by simp⟩
    · have := hf l (by omega)
      rw [if_pos (.inl rfl)] at this
      show FactC A d.a d.v l x (if l = l then 0 else _)
      rw [if_pos rfl, hx]
      exact this
    · intro _
      have h0 : A *ᵥ col d.v (l + 1) = _ := hf (l + 1) (by omega)
      rw [if_neg (by omega)] at h0
      show A *ᵥ col d.v (l + 1) = _
      rw [h0, if_pos rfl, Nat.add_sub_cancel]
      simp
  · intro j st h1 h2 hI
    exact sweepStep_real h1 h2 hk hw hr st hI
  · refine Ok.of_eq (s := ⟨st.d.a, fun c => if c.val = k then st.x else st.d.w c, st.d.v,
      fun c => if c.val = k then st.f else if c.val = l then lit 0 else st.d.rv1 c⟩) ?_ ?_
    · rw [wr_fun _ (by omega : l < n)]
      simp only [bind, Except.bind]
      rw [wr_fun _ hk]
      simp only []
      rw [wr_fun _ hk]
    · obtain ⟨oa, ov, others, here, _, kw, kr, _⟩ := hst
      have hrv : ∀ t, ent (fun c : Fin n => if c.val = k then st.f else if c.val = l then lit 0 else st.d.rv1 c) t =
          if t = k then st.f else if t = l then 0 else ent st.d.rv1 t := by
        intro t
        rw [ent_upd _ hk, ent_upd _ (by omega : l < n)]
        simp
      refine ⟨oa, ov, ?_, ?_, ?_⟩
      · intro t ht
        simp only []
        rw [ent_upd _ hk, hrv]
        by_cases htk : t = k
        · subst htk
          rw [if_pos rfl, if_neg (by omega), if_pos rfl]
          rw [if_neg (by omega)] at here
          exact here
        · rw [if_neg htk, if_neg htk]
          have := others t ht htk (fun _ => le_rfl)
          have he : (if t = l ∨ k < t then 0 else ent st.d.rv1 t) = (if k < t then 0 else if t = l then 0 else ent st.d.rv1 t) := by
            split_ifs <;> first | rfl | omega
          rwa [he] at this
      · simp only []
        rw [hrv, if_neg (by omega), if_pos rfl]
      · intro t ht
        simp only []
        rw [ent_upd _ hk, hrv, if_neg (by omega), if_neg (by omega), if_neg (by omega)]
        exact ⟨kw t (by omega), kr t (by omega)⟩

end CS.SOLVER
