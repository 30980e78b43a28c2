import Verif.Lemmas.SvdLoops

/-!
# The Householder reflections of `svdcmp`, in exact arithmetic
-/

namespace CS.SOLVER
open Arith Libm
variable {m n : ℕ}

/-- `-DSIGN(sqrt s, f)` for positive `s`. -/
theorem gval {s f g : ℝ} (hs : 0 < s) (hg : g = -(DSIGN (sqrtf s) f)) :
    g * g = s ∧ g ≠ 0 ∧ f - g ≠ 0 ∧ f * g - s = g * (f - g) ∧ f * g - s ≠ 0 := by
  have hr : 0 < Real.sqrt s := Real.sqrt_pos.2 hs
  have hg2 : g * g = s := by
    rw [hg, DSIGN_real, sqrtf_real, abs_of_pos hr]
    split_ifs <;> rw [neg_mul_neg] <;> first | exact Real.mul_self_sqrt hs.le | (rw [neg_mul_neg]; exact Real.mul_self_sqrt hs.le)
  have hg0 : g ≠ 0 := by rintro rfl; rw [mul_zero] at hg2; exact hs.ne hg2
  have hfg : f - g ≠ 0 := by
    rw [DSIGN_real, sqrtf_real, abs_of_pos hr] at hg
    split_ifs at hg with h
    · have : g < 0 := by rw [hg]; linarith
      intro h'; linarith
    · have : 0 < g := by rw [hg]; linarith
      intro h'; linarith [not_lt.1 h]
  have he : f * g - s = g * (f - g) := by rw [← hg2]; ring
  exact ⟨hg2, hg0, hfg, he, by rw [he]; exact mul_ne_zero hg0 hfg⟩

/-- A masked vector and its reflector. -/
theorem reflector {q : ℕ} (M : Fin q → Prop) [DecidablePred M] (y : Fin q → ℝ) (p : Fin q) (hp : M p) (u : Fin q → ℝ)
    {s f g : ℝ} (hs : s = ∑ k, if M k then y k * y k else 0) (hf : f = y p) (hg : g * g = s)
    (hu : ∀ k, u k = if k = p then f - g else y k) :
    (∑ k, if M k then u k * y k else 0) = -(f * g - s) ∧ (∑ k, if M k then u k * u k else 0) = -2 * (f * g - s) := by
  have h1 : ∀ k, (if M k then u k * y k else 0) = (if M k then y k * y k else 0) + (if k = p then -(g * f) else 0) := by
    intro k
    by_cases hk : k = p
    · subst hk; rw [hu, if_pos rfl, if_pos hp, if_pos hp, if_pos rfl, hf]; ring
    · rw [hu, if_neg hk, if_neg hk, add_zero]
  have h2 : ∀ k, (if M k then u k * u k else 0) =
      (if M k then y k * y k else 0) + (if k = p then -2 * (g * f) + g * g else 0) := by
    intro k
    by_cases hk : k = p
    · subst hk; rw [hu, if_pos rfl, if_pos hp, if_pos hp, if_pos rfl, hf]; ring
    · rw [hu, if_neg hk, if_neg hk, add_zero]
  constructor
  · rw [Finset.sum_congr rfl fun k _ => h1 k, Finset.sum_add_distrib, ← hs, Finset.sum_ite_eq' Finset.univ]
    simp; ring
  · rw [Finset.sum_congr rfl fun k _ => h2 k, Finset.sum_add_distrib, ← hs, Finset.sum_ite_eq' Finset.univ]
    simp [hg]; ring

/-- Outcome of the left-hand reduction of column `i`: with `u` the new column from row `i` on, the remaining
columns are reflected by `1 + u u^T / (u_i w_i)`, which takes the old column to `w_i e_i`. -/
structure LeftSpec (i : ℕ) (hi : i < n) (him : i < m) (a a' : Mat ℝ m n) (wi : ℝ) : Prop where
  keep : ∀ r c, r.val < i ∨ c.val < i → a' r c = a r c
  refl : ∀ r c, i < c.val → i ≤ r.val → a' r c = a r c +
    a' r ⟨i, hi⟩ * ((a' ⟨i, him⟩ ⟨i, hi⟩ * wi)⁻¹ * ∑ k : Fin m, if i ≤ k.val then a' k ⟨i, hi⟩ * a k c else 0)
  col : ∀ r : Fin m, i ≤ r.val → a r ⟨i, hi⟩ + a' r ⟨i, hi⟩ * ((a' ⟨i, him⟩ ⟨i, hi⟩ * wi)⁻¹ *
    ∑ k : Fin m, if i ≤ k.val then a' k ⟨i, hi⟩ * a k ⟨i, hi⟩ else 0) = if r.val = i then wi else 0
  norm : wi = 0 ∨ a' ⟨i, him⟩ ⟨i, hi⟩ ≠ 0 ∧
    (∑ k : Fin m, if i ≤ k.val then a' k ⟨i, hi⟩ * a' k ⟨i, hi⟩ else 0) = -2 * (a' ⟨i, him⟩ ⟨i, hi⟩ * wi)

theorem leftReflect_real (a : Mat ℝ m n) {i : ℕ} (hi : i < n) (him : i < m) {sc : ℝ} (hsc : sc ≠ 0)
    (hne : ∃ r : Fin m, i ≤ r.val ∧ a r ⟨i, hi⟩ ≠ 0) :
    ∃ a' g, leftReflect a i sc = .ok (a', g) ∧ LeftSpec i hi him a a' (sc * g) ∧ sc * g ≠ 0 := by
  set y : Fin m → ℝ := fun k => a k ⟨i, hi⟩ / sc with hy
  set s : ℝ := ∑ k : Fin m, if i ≤ k.val then y k * y k else 0 with hs
  have hspos : 0 < s := by
    obtain ⟨r, h1, h2⟩ := hne
    refine Finset.sum_pos' (fun k _ => ?_) ⟨r, Finset.mem_univ r, ?_⟩
    · split_ifs
      · exact mul_self_nonneg _
      · exact le_rfl
    · rw [if_pos h1]
      exact mul_self_pos.2 (div_ne_zero h2 hsc)
  set f : ℝ := y ⟨i, him⟩ with hf
  set g : ℝ := -(DSIGN (sqrtf s) f) with hg
  obtain ⟨hgg, hg0, hfg, hh, hh0⟩ := gval hspos hg
  set h : ℝ := f * g - s with hhd
  set u : Fin m → ℝ := fun k => if k = ⟨i, him⟩ then f - g else y k with hu
  obtain ⟨huy, huu⟩ := reflector (fun k : Fin m => i ≤ k.val) y ⟨i, him⟩ le_rfl u hs hf hgg (fun k => rfl)
  rw [← hhd] at huy huu
  -- the array after the loop over the remaining columns
  set b : Mat ℝ m n := fun r c => if i ≤ r.val ∧ c.val = i then u r else a r c with hb
  set b' : Mat ℝ m n := fun r c => if i ≤ r.val ∧ i < c.val then
    a r c + (∑ k : Fin m, if i ≤ k.val then u k * a k c else 0) / h * u r else b r c with hb'
  have hloop : (if i ≠ n - 1 then forUp (i + 1) n b fun j a => do
        let s ← colDot a i i j
        let f := s / h
        colAxpy a i j f
      else (.ok b : Except UB (Mat ℝ m n))) = .ok b' := by
    have key : forUp (i + 1) n b (fun j a => do
        let s ← colDot a i i j
        let f := s / h
        colAxpy a i j f) = .ok b' := by
      refine forUp_states' (fun t => fun r c => if i ≤ r.val ∧ i < c.val ∧ c.val < t then
        a r c + (∑ k : Fin m, if i ≤ k.val then u k * a k c else 0) / h * u r else b r c) (by omega) ?_ ?_ ?_
      · intro j h1 h2
        rw [colDot_real _ hi h2]
        simp only [bind, Except.bind]
        rw [colAxpy_real _ hi h2 (by omega) him.le]
        refine congrArg _ (funext fun r => funext fun c => ?_)
        have hsum : (∑ k : Fin m, if i ≤ k.val then
            (if i ≤ k.val ∧ i < i ∧ i < j then a k ⟨i, hi⟩ + (∑ k' : Fin m, if i ≤ k'.val then u k' * a k' ⟨i, hi⟩ else 0) / h * u k
              else b k ⟨i, hi⟩) *
            (if i ≤ k.val ∧ i < j ∧ j < j then a k ⟨j, h2⟩ + (∑ k' : Fin m, if i ≤ k'.val then u k' * a k' ⟨j, h2⟩ else 0) / h * u k
              else b k ⟨j, h2⟩) else 0) = ∑ k : Fin m, if i ≤ k.val then u k * a k ⟨j, h2⟩ else 0 := by
          refine Finset.sum_congr rfl fun k _ => ?_
          by_cases hk : i ≤ k.val
          · simp only [hk, lt_irrefl, and_false, false_and, if_true, if_false, hb, true_and, and_true]
            rw [if_neg (by omega : ¬ j = i)]
          · simp [hk]
        simp only []
        rw [hsum]
        by_cases hc : c.val = j
        · obtain rfl : c = ⟨j, h2⟩ := Fin.ext hc
          by_cases hr : i ≤ r.val
          · simp only [hr, lt_irrefl, and_false, false_and, if_true, if_false, hb, true_and, and_true]
            rw [if_neg (by omega : ¬ j = i), if_pos (by omega)]
          · simp [hr]
        · by_cases hr : i ≤ r.val
          · have : c.val < j + 1 ↔ c.val < j := by omega
            simp [hr, hc, this]
          · simp [hr]
      · funext r c
        exact if_neg (by omega)
      · funext r c
        simp [hb', c.2]
    by_cases hin : i = n - 1
    · rw [if_neg (by omega)]
      rw [forUp_self (by omega)] at key
      exact key
    · rw [if_pos hin]; exact key
  set a' : Mat ℝ m n := fun r c => if i ≤ r.val ∧ c.val = i then b' r c * sc else b' r c with ha'
  have ha'i : ∀ r : Fin m, i ≤ r.val → a' r ⟨i, hi⟩ = u r * sc := by
    intro r hr
    simp [ha', hb', hb, hr]
  refine ⟨a', g, ?_, ?_, mul_ne_zero hsc hg0⟩
  · unfold leftReflect
    rw [colNorm_real a hi him.le]
    simp only [bind, Except.bind]
    rw [rd2_eq _ him hi]
    simp only [le_refl, and_self, if_true]
    rw [wr2_fun _ him hi]
    simp only []
    have hb2 : (fun (r : Fin m) (c : Fin n) => if r.val = i ∧ c.val = i then
        a ⟨i, him⟩ ⟨i, hi⟩ / sc - -(DSIGN (sqrtf (∑ k : Fin m, if i ≤ k.val then a k ⟨i, hi⟩ / sc * (a k ⟨i, hi⟩ / sc) else 0))
          (a ⟨i, him⟩ ⟨i, hi⟩ / sc))
        else if i ≤ r.val ∧ c.val = i then a r c / sc else a r c) = b := by
      funext r c
      by_cases hc : c.val = i
      · obtain rfl : c = ⟨i, hi⟩ := Fin.ext hc
        by_cases hr : r.val = i
        · obtain rfl : r = ⟨i, him⟩ := Fin.ext hr
          simp [hb, hu, hg, hf, hs, hy]
        · have : r ≠ ⟨i, him⟩ := fun h => hr (by rw [h])
          simp [hb, hu, hr, this, hy]
      · simp [hb, hc]
    rw [hb2]
    have := hloop
    simp only [bind, Except.bind] at this
    rw [this]
    simp only []
    rw [colMul_real _ hi him.le]
  · have hd : a' ⟨i, him⟩ ⟨i, hi⟩ = (f - g) * sc := by
      rw [ha'i _ le_rfl]; simp [hu]
    have hρ : a' ⟨i, him⟩ ⟨i, hi⟩ * (sc * g) = sc * sc * h := by rw [hd, hh]; ring
    have hsum : ∀ z : Fin m → ℝ, (∑ k : Fin m, if i ≤ k.val then a' k ⟨i, hi⟩ * z k else 0) =
        sc * ∑ k : Fin m, if i ≤ k.val then u k * z k else 0 := by
      intro z
      rw [Finset.mul_sum]
      refine Finset.sum_congr rfl fun k _ => ?_
      by_cases hk : i ≤ k.val
      · rw [if_pos hk, if_pos hk, ha'i k hk]; ring
      · rw [if_neg hk, if_neg hk, mul_zero]
    have hay : ∀ r, a r ⟨i, hi⟩ = sc * y r := fun r => by rw [hy]; field_simp
    refine ⟨?_, ?_, ?_, .inr ⟨by rw [hd]; exact mul_ne_zero hfg hsc, ?_⟩⟩
    · intro r c hrc
      have h1 : ¬ (i ≤ r.val ∧ c.val = i) := by omega
      have h2 : ¬ (i ≤ r.val ∧ i < c.val) := by omega
      simp only [ha', hb', hb, h1, h2, if_false]
    · intro r c hc hr
      rw [hρ, hsum, ha'i r hr]
      have h1 : ¬ (i ≤ r.val ∧ c.val = i) := by omega
      have h2 : i ≤ r.val ∧ i < c.val := ⟨hr, hc⟩
      have h3 : a' r c = a r c + (∑ k : Fin m, if i ≤ k.val then u k * a k c else 0) / h * u r := by
        simp only [ha', hb']
        rw [if_neg h1, if_pos h2]
      rw [h3]
      generalize (∑ k : Fin m, if i ≤ k.val then u k * a k c else 0) = S
      field_simp
    · intro r hr
      rw [hρ, hsum, ha'i r hr]
      have h3 : (∑ k : Fin m, if i ≤ k.val then u k * a k ⟨i, hi⟩ else 0) = sc * -h := by
        rw [← huy, Finset.mul_sum]
        refine Finset.sum_congr rfl fun k _ => ?_
        by_cases hk : i ≤ k.val
        · rw [if_pos hk, if_pos hk, hay]; ring
        · rw [if_neg hk, if_neg hk, mul_zero]
      rw [h3, hay]
      have h4 : sc * y r + u r * sc * ((sc * sc * h)⁻¹ * (sc * (sc * -h))) = sc * (y r - u r) := by field_simp; ring
      rw [h4]
      by_cases hri : r.val = i
      · obtain rfl : r = ⟨i, him⟩ := Fin.ext hri
        simp [hu, hf]
      · have : r ≠ ⟨i, him⟩ := fun h => hri (by rw [h])
        simp [hu, this, hri]
    · rw [hsum, hρ]
      have h3 : (∑ k : Fin m, if i ≤ k.val then u k * a' k ⟨i, hi⟩ else 0) = sc * (-2 * h) := by
        rw [← huu, Finset.mul_sum]
        refine Finset.sum_congr rfl fun k _ => ?_
        by_cases hk : i ≤ k.val
        · rw [if_pos hk, if_pos hk, ha'i k hk]; ring
        · rw [if_neg hk, if_neg hk, mul_zero]
      rw [h3]; ring

/-- The left-hand reduction. -/
theorem leftStep_real {i : ℕ} (hi : i < n) (him : i < m) (st : HH ℝ m n) :
    ∃ st', leftStep i st = .ok st' ∧ LeftSpec i hi him st.a st'.a (st'.w ⟨i, hi⟩) ∧
      (∀ c : Fin n, c.val ≠ i → st'.w c = st.w c) ∧
      (∀ c : Fin n, st'.rv1 c = if c.val = i then st.scale * st.g else st.rv1 c) := by
  unfold leftStep
  rw [wr_fun _ hi]
  simp only [bind, Except.bind]
  rw [if_pos him, colScale_real _ hi]
  simp only []
  by_cases hsc : (∑ k : Fin m, if i ≤ k.val then |st.a k ⟨i, hi⟩| else 0) = 0
  · have hz : ∀ k : Fin m, i ≤ k.val → st.a k ⟨i, hi⟩ = 0 := by
      intro k hk
      have := (Finset.sum_eq_zero_iff_of_nonneg (fun k _ => by
        split_ifs
        · exact abs_nonneg _
        · exact le_rfl)).1 hsc k (Finset.mem_univ k)
      rw [if_pos hk] at this
      exact abs_eq_zero.1 this
    rw [if_neg (by rw [truthy_real]; exact fun h => h hsc)]
    simp only []
    rw [wr_fun _ hi]
    refine ⟨_, rfl, ?_, fun c hc => if_neg hc, fun c => rfl⟩
    simp only [if_true, hsc, zero_mul, lit_real, Rat.cast_zero]
    refine ⟨fun r c _ => rfl, fun r c _ _ => by simp, fun r hr => by simp [hz r hr], .inl rfl⟩
  · have hne : ∃ r : Fin m, i ≤ r.val ∧ st.a r ⟨i, hi⟩ ≠ 0 := by
      by_contra hcon
      push Not at hcon
      exact hsc (Finset.sum_eq_zero fun k _ => by
        split_ifs with hk
        · rw [hcon k hk, abs_zero]
        · rfl)
    rw [if_pos (truthy_real.2 hsc)]
    obtain ⟨a', g, h1, h2, h3⟩ := leftReflect_real st.a hi him hsc hne
    rw [h1]
    simp only []
    rw [wr_fun _ hi]
    refine ⟨_, rfl, ?_, fun c hc => if_neg hc, fun c => rfl⟩
    simp only [if_true]
    exact h2

/-- Outcome of the right-hand reduction of row `i`: with `u` the new row from column `i + 1` on, the remaining
rows are reflected by `1 + u^T u / (u_(i+1) e)`, which takes the old row to `e e_(i+1)`. -/
structure RightSpec (i : ℕ) (hi : i < m) (hin : i + 1 < n) (a a' : Mat ℝ m n) (e : ℝ) : Prop where
  keep : ∀ r c, r.val < i ∨ c.val ≤ i → a' r c = a r c
  refl : ∀ r c, i < r.val → i + 1 ≤ c.val → a' r c = a r c +
    a' ⟨i, hi⟩ c * ((a' ⟨i, hi⟩ ⟨i + 1, hin⟩ * e)⁻¹ * ∑ k : Fin n, if i + 1 ≤ k.val then a' ⟨i, hi⟩ k * a r k else 0)
  row : ∀ c : Fin n, i + 1 ≤ c.val → a ⟨i, hi⟩ c + a' ⟨i, hi⟩ c * ((a' ⟨i, hi⟩ ⟨i + 1, hin⟩ * e)⁻¹ *
    ∑ k : Fin n, if i + 1 ≤ k.val then a' ⟨i, hi⟩ k * a ⟨i, hi⟩ k else 0) = if c.val = i + 1 then e else 0
  norm : e = 0 ∨ a' ⟨i, hi⟩ ⟨i + 1, hin⟩ ≠ 0 ∧
    (∑ k : Fin n, if i + 1 ≤ k.val then a' ⟨i, hi⟩ k * a' ⟨i, hi⟩ k else 0) = -2 * (a' ⟨i, hi⟩ ⟨i + 1, hin⟩ * e)

theorem rightReflect_real (a : Mat ℝ m n) (rv1 : Vec ℝ n) {i : ℕ} (hi : i < m) (hin : i + 1 < n) {sc : ℝ} (hsc : sc ≠ 0)
    (hne : ∃ c : Fin n, i + 1 ≤ c.val ∧ a ⟨i, hi⟩ c ≠ 0) :
    ∃ a' rv1' g, rightReflect a rv1 i sc = .ok (a', rv1', g) ∧ RightSpec i hi hin a a' (sc * g) ∧ sc * g ≠ 0 ∧
      ∀ c : Fin n, c.val ≤ i → rv1' c = rv1 c := by
  set y : Fin n → ℝ := fun k => a ⟨i, hi⟩ k / sc with hy
  set s : ℝ := ∑ k : Fin n, if i + 1 ≤ k.val then y k * y k else 0 with hs
  have hspos : 0 < s := by
    obtain ⟨r, h1, h2⟩ := hne
    refine Finset.sum_pos' (fun k _ => ?_) ⟨r, Finset.mem_univ r, ?_⟩
    · split_ifs
      · exact mul_self_nonneg _
      · exact le_rfl
    · rw [if_pos h1]
      exact mul_self_pos.2 (div_ne_zero h2 hsc)
  set f : ℝ := y ⟨i + 1, hin⟩ with hf
  set g : ℝ := -(DSIGN (sqrtf s) f) with hg
  obtain ⟨hgg, hg0, hfg, hh, hh0⟩ := gval hspos hg
  set h : ℝ := f * g - s with hhd
  set u : Fin n → ℝ := fun k => if k = ⟨i + 1, hin⟩ then f - g else y k with hu
  obtain ⟨huy, huu⟩ := reflector (fun k : Fin n => i + 1 ≤ k.val) y ⟨i + 1, hin⟩ le_rfl u hs hf hgg (fun k => rfl)
  rw [← hhd] at huy huu
  set b : Mat ℝ m n := fun r c => if r.val = i ∧ i + 1 ≤ c.val then u c else a r c with hb
  set rv : Vec ℝ n := fun c => if i + 1 ≤ c.val then u c / h else rv1 c with hrv
  set b' : Mat ℝ m n := fun r c => if i < r.val ∧ i + 1 ≤ c.val then
    a r c + (∑ k : Fin n, if i + 1 ≤ k.val then u k * a r k else 0) * (u c / h) else b r c with hb'
  have hloop : (if i ≠ m - 1 then forUp (i + 1) m b fun j a => do
        let s ← rowDot a i j
        rowAxpy a rv i j s
      else (.ok b : Except UB (Mat ℝ m n))) = .ok b' := by
    have key : forUp (i + 1) m b (fun j a => do
        let s ← rowDot a i j
        rowAxpy a rv i j s) = .ok b' := by
      refine forUp_states' (fun t => fun r c => if i < r.val ∧ r.val < t ∧ i + 1 ≤ c.val then
        a r c + (∑ k : Fin n, if i + 1 ≤ k.val then u k * a r k else 0) * (u c / h) else b r c) (by omega) ?_ ?_ ?_
      · intro j h1 h2
        rw [rowDot_real _ hi h2]
        simp only [bind, Except.bind]
        rw [rowAxpy_real _ _ h2 hin.le]
        refine congrArg _ (funext fun r => funext fun c => ?_)
        have hsum : (∑ k : Fin n, if i + 1 ≤ k.val then
            (if i < j ∧ j < j ∧ i + 1 ≤ k.val then a ⟨j, h2⟩ k +
              (∑ k' : Fin n, if i + 1 ≤ k'.val then u k' * a ⟨j, h2⟩ k' else 0) * (u k / h) else b ⟨j, h2⟩ k) *
            (if i < i ∧ i < j ∧ i + 1 ≤ k.val then a ⟨i, hi⟩ k +
              (∑ k' : Fin n, if i + 1 ≤ k'.val then u k' * a ⟨i, hi⟩ k' else 0) * (u k / h) else b ⟨i, hi⟩ k) else 0) =
            ∑ k : Fin n, if i + 1 ≤ k.val then u k * a ⟨j, h2⟩ k else 0 := by
          refine Finset.sum_congr rfl fun k _ => ?_
          by_cases hk : i + 1 ≤ k.val
          · simp only [hk, lt_irrefl, and_false, false_and, if_true, if_false, hb, true_and, and_true]
            rw [if_neg (by omega : ¬ j = i), mul_comm]
          · simp [hk]
        rw [hsum]
        by_cases hr : r.val = j
        · obtain rfl : r = ⟨j, h2⟩ := Fin.ext hr
          by_cases hc : i + 1 ≤ c.val
          · simp only [hc, lt_irrefl, and_false, false_and, if_true, if_false, hb, hrv, true_and, and_true]
            rw [if_neg (by omega : ¬ j = i), if_pos (by omega)]
          · simp [hc]
        · by_cases hc : i + 1 ≤ c.val
          · have : r.val < j + 1 ↔ r.val < j := by omega
            simp [hr, hc, this]
          · simp [hc]
      · funext r c
        exact if_neg (by omega)
      · funext r c
        simp [hb', r.2]
    by_cases him : i = m - 1
    · rw [if_neg (by omega)]
      rw [forUp_self (by omega)] at key
      exact key
    · rw [if_pos him]; exact key
  set a' : Mat ℝ m n := fun r c => if r.val = i ∧ i + 1 ≤ c.val then b' r c * sc else b' r c with ha'
  have ha'i : ∀ c : Fin n, i + 1 ≤ c.val → a' ⟨i, hi⟩ c = u c * sc := by
    intro c hc
    simp only [ha', hb', hb]
    rw [if_pos ⟨trivial, hc⟩, if_neg (by simp), if_pos ⟨trivial, hc⟩]
  refine ⟨a', rv, g, ?_, ?_, mul_ne_zero hsc hg0, fun c hc => if_neg (by omega)⟩
  · unfold rightReflect
    rw [rowNorm_real a hi hin.le]
    simp only [bind, Except.bind]
    rw [rd2_eq _ hi hin]
    simp only [le_refl, and_self, if_true]
    rw [wr2_fun _ hi hin]
    simp only []
    have hb2 : (fun (r : Fin m) (c : Fin n) => if r.val = i ∧ c.val = i + 1 then
        a ⟨i, hi⟩ ⟨i + 1, hin⟩ / sc - -(DSIGN (sqrtf (∑ k : Fin n, if i + 1 ≤ k.val then a ⟨i, hi⟩ k / sc * (a ⟨i, hi⟩ k / sc) else 0))
          (a ⟨i, hi⟩ ⟨i + 1, hin⟩ / sc))
        else if r.val = i ∧ i + 1 ≤ c.val then a r c / sc else a r c) = b := by
      funext r c
      by_cases hr : r.val = i
      · obtain rfl : r = ⟨i, hi⟩ := Fin.ext hr
        by_cases hc : c.val = i + 1
        · obtain rfl : c = ⟨i + 1, hin⟩ := Fin.ext hc
          simp [hb, hu, hg, hf, hs, hy]
        · have : c ≠ ⟨i + 1, hin⟩ := fun h => hc (by rw [h])
          simp only [hb, hu, hc, hy, and_false, if_false, true_and]
          rw [if_neg this]
      · simp [hb, hr]
    rw [hb2, rowToRv1_real _ _ hi hin.le]
    simp only []
    have hrv2 : (fun c : Fin n => if i + 1 ≤ c.val then b ⟨i, hi⟩ c /
        (a ⟨i, hi⟩ ⟨i + 1, hin⟩ / sc * -(DSIGN (sqrtf (∑ k : Fin n, if i + 1 ≤ k.val then a ⟨i, hi⟩ k / sc * (a ⟨i, hi⟩ k / sc) else 0))
          (a ⟨i, hi⟩ ⟨i + 1, hin⟩ / sc)) - ∑ k : Fin n, if i + 1 ≤ k.val then a ⟨i, hi⟩ k / sc * (a ⟨i, hi⟩ k / sc) else 0)
        else rv1 c) = rv := by
      funext c
      by_cases hc : i + 1 ≤ c.val
      · have : b ⟨i, hi⟩ c = u c := if_pos ⟨rfl, hc⟩
        simp only [hc, if_true, this, hrv]
        rfl
      · simp only [hrv]
        rw [if_neg hc, if_neg hc]
    rw [hrv2]
    have := hloop
    simp only [bind, Except.bind] at this
    rw [this]
    simp only []
    rw [rowMul_real _ hi hin.le]
  · have hd : a' ⟨i, hi⟩ ⟨i + 1, hin⟩ = (f - g) * sc := by
      rw [ha'i _ le_rfl]; simp [hu]
    have hρ : a' ⟨i, hi⟩ ⟨i + 1, hin⟩ * (sc * g) = sc * sc * h := by rw [hd, hh]; ring
    have hsum : ∀ z : Fin n → ℝ, (∑ k : Fin n, if i + 1 ≤ k.val then a' ⟨i, hi⟩ k * z k else 0) =
        sc * ∑ k : Fin n, if i + 1 ≤ k.val then u k * z k else 0 := by
      intro z
      rw [Finset.mul_sum]
      refine Finset.sum_congr rfl fun k _ => ?_
      by_cases hk : i + 1 ≤ k.val
      · rw [if_pos hk, if_pos hk, ha'i k hk]; ring
      · rw [if_neg hk, if_neg hk, mul_zero]
    have hay : ∀ c, a ⟨i, hi⟩ c = sc * y c := fun r => by rw [hy]; field_simp
    refine ⟨?_, ?_, ?_, .inr ⟨by rw [hd]; exact mul_ne_zero hfg hsc, ?_⟩⟩
    · intro r c hrc
      have h1 : ¬ (r.val = i ∧ i + 1 ≤ c.val) := by omega
      have h2 : ¬ (i < r.val ∧ i + 1 ≤ c.val) := by omega
      simp only [ha', hb', hb, h1, h2, if_false]
    · intro r c hr hc
      rw [hρ, hsum, ha'i c hc]
      have h1 : ¬ (r.val = i ∧ i + 1 ≤ c.val) := by omega
      have h2 : i < r.val ∧ i + 1 ≤ c.val := ⟨hr, hc⟩
      have h3 : a' r c = a r c + (∑ k : Fin n, if i + 1 ≤ k.val then u k * a r k else 0) * (u c / h) := by
        simp only [ha', hb']
        rw [if_neg h1, if_pos h2]
      rw [h3]
      generalize (∑ k : Fin n, if i + 1 ≤ k.val then u k * a r k else 0) = S
      field_simp
    · intro c hc
      rw [hρ, hsum, ha'i c hc]
      have h3 : (∑ k : Fin n, if i + 1 ≤ k.val then u k * a ⟨i, hi⟩ k else 0) = sc * -h := by
        rw [← huy, Finset.mul_sum]
        refine Finset.sum_congr rfl fun k _ => ?_
        by_cases hk : i + 1 ≤ k.val
        · rw [if_pos hk, if_pos hk, hay]; ring
        · rw [if_neg hk, if_neg hk, mul_zero]
      rw [h3, hay]
      have h4 : sc * y c + u c * sc * ((sc * sc * h)⁻¹ * (sc * (sc * -h))) = sc * (y c - u c) := by field_simp; ring
      rw [h4]
      by_cases hri : c.val = i + 1
      · obtain rfl : c = ⟨i + 1, hin⟩ := Fin.ext hri
        simp [hu, hf]
      · have : c ≠ ⟨i + 1, hin⟩ := fun h => hri (by rw [h])
        simp [hu, this, hri]
    · rw [hsum, hρ]
      have h3 : (∑ k : Fin n, if i + 1 ≤ k.val then u k * a' ⟨i, hi⟩ k else 0) = sc * (-2 * h) := by
        rw [← huu, Finset.mul_sum]
        refine Finset.sum_congr rfl fun k _ => ?_
        by_cases hk : i + 1 ≤ k.val
        · rw [if_pos hk, if_pos hk, ha'i k hk]; ring
        · rw [if_neg hk, if_neg hk, mul_zero]
      rw [h3]; ring

/-- The right-hand reduction. -/
theorem rightStep_real {i : ℕ} (hi : i < n) (him : i < m) (st : HH ℝ m n) :
    ∃ st', rightStep i st = .ok st' ∧ st'.w = st.w ∧ (∀ c : Fin n, c.val ≤ i → st'.rv1 c = st.rv1 c) ∧
      (∀ hin : i + 1 < n, RightSpec i him hin st.a st'.a (st'.scale * st'.g)) ∧
      (i + 1 = n → st'.a = st.a ∧ st'.g = 0) := by
  unfold rightStep
  by_cases hin : i + 1 < n
  · rw [if_pos ⟨him, by omega⟩, rowScale_real _ him]
    simp only [bind, Except.bind]
    by_cases hsc : (∑ k : Fin n, if i + 1 ≤ k.val then |st.a ⟨i, him⟩ k| else 0) = 0
    · have hz : ∀ k : Fin n, i + 1 ≤ k.val → st.a ⟨i, him⟩ k = 0 := by
        intro k hk
        have := (Finset.sum_eq_zero_iff_of_nonneg (fun k _ => by
          split_ifs
          · exact abs_nonneg _
          · exact le_rfl)).1 hsc k (Finset.mem_univ k)
        rw [if_pos hk] at this
        exact abs_eq_zero.1 this
      rw [if_neg (by rw [truthy_real]; exact fun h => h hsc)]
      simp only []
      rw [rd_eq _ hi]
      simp only []
      rw [rd_eq _ hi]
      refine ⟨_, rfl, rfl, fun c _ => rfl, fun _ => ?_, fun h => by omega⟩
      simp only [hsc, zero_mul]
      exact ⟨fun r c _ => rfl, fun r c _ _ => by simp, fun r hr => by simp [hz r hr], .inl rfl⟩
    · have hne : ∃ c : Fin n, i + 1 ≤ c.val ∧ st.a ⟨i, him⟩ c ≠ 0 := by
        by_contra hcon
        push Not at hcon
        exact hsc (Finset.sum_eq_zero fun k _ => by
          split_ifs with hk
          · rw [hcon k hk, abs_zero]
          · rfl)
      rw [if_pos (truthy_real.2 hsc)]
      obtain ⟨a', rv1', g, h1, h2, h3, h4⟩ := rightReflect_real st.a st.rv1 him hin hsc hne
      rw [h1]
      simp only []
      rw [rd_eq _ hi]
      simp only []
      rw [rd_eq _ hi]
      exact ⟨_, rfl, rfl, h4, fun _ => h2, fun h => by omega⟩
  · rw [if_neg (by omega)]
    simp only [bind, Except.bind]
    rw [rd_eq _ hi]
    simp only []
    rw [rd_eq _ hi]
    exact ⟨_, rfl, rfl, fun c _ => rfl, fun h => absurd h hin, fun _ => ⟨rfl, by simp⟩⟩

end CS.SOLVER
