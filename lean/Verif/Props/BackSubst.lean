import Verif.Lemmas.Solver
import Verif.Lemmas.FloatSpectrum

/-!
# C142: back-substitution in single precision

`SOLVER::svbksb` (hpp:7724-7748) on binary32 arrays: the computed solution is within a few units of rounding, per term
of its sums, of the one exact arithmetic gives for the same arrays.
-/

namespace CS.BackSubst
open B32 F32 Spectrum SOLVER Arith

/-- A loop accumulating products in binary32. -/
theorem dot_loop {n : ℕ} (hn : n ≤ 4096) (a b : Fin n → F32) (ha : ∀ i, (a i).isFinite = true)
    (hb : ∀ i, (b i).isFinite = true) (hS : ∑ i, |(a i).val * (b i).val| ≤ 2 ^ 120) {f : ℕ → F32 → Except UB F32}
    (hf : ∀ (k : Fin n) s, f k s = .ok (s + a k * b k)) :
    ∃ s, forUp 0 n (lit 0) f = .ok s ∧ s.isFinite = true ∧
      |s.val - ∑ i, (a i).val * (b i).val| ≤
        1.01 * (n + 1) / 2 ^ 24 * ∑ i, |(a i).val * (b i).val| + 4 * n / 2 ^ 150 := by
  set p : ℕ → ℚ := fun k => if h : k < n then (a ⟨k, h⟩).val * (b ⟨k, h⟩).val else 0 with hp
  have e1 : ∑ i, (a i).val * (b i).val = ∑ k ∈ Finset.range n, p k := by
    rw [Finset.sum_range]
    exact Finset.sum_congr rfl fun i _ => by simp only [hp]; rw [dif_pos i.2]
  have e2 : ∑ i, |(a i).val * (b i).val| = ∑ k ∈ Finset.range n, |p k| := by
    rw [Finset.sum_range]
    exact Finset.sum_congr rfl fun i _ => by simp only [hp]; rw [dif_pos i.2]
  rw [e2] at hS
  rw [e1, e2]
  obtain ⟨s, h1, h2, h3⟩ := forUp_ok (lo := 0) (hi := n) (s := (lit 0 : F32)) (f := f)
    (fun k s => s.isFinite = true ∧ |s.val - ∑ j ∈ Finset.range k, p j| ≤
      1.01 * (k + 1) / 2 ^ 24 * ∑ j ∈ Finset.range k, |p j| + 4 * k / 2 ^ 150) (Nat.zero_le n)
    (by
      have h0 : ((lit 0 : F32)).Is 0 := by rw [lit_zero]; exact ⟨rfl, rfl⟩
      refine ⟨h0.1, ?_⟩
      rw [h0.2]; simp)
    (fun k s _ hk hs => by
      obtain ⟨hs1, hs2⟩ := hs
      have hpk : p k = (a ⟨k, hk⟩).val * (b ⟨k, hk⟩).val := by simp only [hp]; rw [dif_pos hk]
      set S := ∑ j ∈ Finset.range k, p j with hSd
      set A := ∑ j ∈ Finset.range k, |p j| with hAd
      have hA0 : 0 ≤ A := Finset.sum_nonneg fun _ _ => abs_nonneg _
      have hSA : |S| ≤ A := Finset.abs_sum_le_sum_abs _ _
      have hAP : A + |p k| ≤ 2 ^ 120 := by
        rw [← Finset.sum_range_succ]
        exact (Finset.sum_le_sum_of_subset_of_nonneg (Finset.range_mono (Nat.succ_le_of_lt hk))
          (fun _ _ _ => abs_nonneg _)).trans hS
      have hP0 := abs_nonneg (p k)
      have hkq : (k : ℚ) + 1 ≤ 4096 := by exact_mod_cast le_trans (Nat.succ_le_of_lt hk) hn
      have hk0 : (0 : ℚ) ≤ k := Nat.cast_nonneg k
      set P := p k with hPd
      -- the product
      have hr : |rnd P - P| ≤ |P| / 2 ^ 24 + 1 / 2 ^ 150 := rnd_rel' P
      have hrb : |rnd P| ≤ |P| + (|P| / 2 ^ 24 + 1 / 2 ^ 150) := by
        have := abs_add_le (rnd P - P) P
        rw [sub_add_cancel] at this
        linarith
      have c120 : (2 : ℚ) ^ 120 < 2 ^ 121 := by norm_num
      have c150 : (1 : ℚ) / 2 ^ 150 ≤ 1 := by norm_num
      have hrl : |rnd P| < 2 ^ 128 := by
        have h5 : |P| ≤ 2 ^ 120 := by linarith
        have h6 : |P| / 2 ^ 24 ≤ |P| := div_le_self hP0 (by norm_num)
        have h7 : (2 : ℚ) ^ 120 + (2 ^ 120 + 1) < 2 ^ 128 := by norm_num
        linarith
      have hpi : (a ⟨k, hk⟩ * b ⟨k, hk⟩).Is (rnd P) := by
        have := (Is.of _ (ha ⟨k, hk⟩)).mul_rnd (Is.of _ (hb ⟨k, hk⟩)) (by rw [← hpk]; exact hrl)
        rwa [← hpk] at this
      -- the sum
      set Q := s.val + rnd P with hQ
      have hG : 1.01 * ((k : ℚ) + 1) / 2 ^ 24 ≤ 0.001 := by
        rw [div_le_iff₀ (by norm_num)]; linarith
      have hG0 : 0 ≤ 1.01 * ((k : ℚ) + 1) / 2 ^ 24 := by positivity
      have hT : 4 * (k : ℚ) / 2 ^ 150 ≤ 1 / 2 ^ 136 := by
        rw [div_le_iff₀ (by norm_num)]
        have : (1 : ℚ) / 2 ^ 136 * 2 ^ 150 = 2 ^ 14 := by norm_num
        rw [this]; norm_num; linarith
      have hT0 : 0 ≤ 4 * (k : ℚ) / 2 ^ 150 := by positivity
      set G := 1.01 * ((k : ℚ) + 1) / 2 ^ 24 with hGd
      set T := 4 * (k : ℚ) / 2 ^ 150 with hTd
      have hsv : |s.val| ≤ A + (G * A + T) := by
        have := abs_add_le (s.val - S) S
        rw [sub_add_cancel] at this
        linarith
      have hQb : |Q| ≤ A + (G * A + T) + (|P| + (|P| / 2 ^ 24 + 1 / 2 ^ 150)) :=
        (abs_add_le _ _).trans (add_le_add hsv hrb)
      have hGA : G * A ≤ 0.001 * A := mul_le_mul_of_nonneg_right hG hA0
      have hqr : |rnd Q - Q| ≤ |Q| / 2 ^ 24 + 1 / 2 ^ 150 := rnd_rel' Q
      have hql : |rnd Q| < 2 ^ 128 := by
        have h3 := abs_add_le (rnd Q - Q) Q
        rw [sub_add_cancel] at h3
        have h6 : |P| / 2 ^ 24 ≤ |P| := div_le_self hP0 (by norm_num)
        have h8 : |Q| / 2 ^ 24 ≤ |Q| := div_le_self (abs_nonneg _) (by norm_num)
        have h9 : (1 : ℚ) / 2 ^ 136 ≤ 1 := by norm_num
        have h10 : (8 : ℚ) * 2 ^ 120 + 10 < 2 ^ 128 := by norm_num
        linarith
      have hsi : (s + a ⟨k, hk⟩ * b ⟨k, hk⟩).Is (rnd Q) := (Is.of _ hs1).add_rnd hpi hql
      refine Ok.of_eq (hf ⟨k, hk⟩ s) ⟨hsi.1, ?_⟩
      rw [hsi.2, Finset.sum_range_succ, Finset.sum_range_succ, ← hSd, ← hAd, ← hPd]
      have hmain : |rnd Q - (S + P)| ≤ (|Q| / 2 ^ 24 + 1 / 2 ^ 150) + ((G * A + T) + (|P| / 2 ^ 24 + 1 / 2 ^ 150)) := by
        have h4 : rnd Q - (S + P) = (rnd Q - Q) + ((s.val - S) + (rnd P - P)) := by rw [hQ]; ring
        rw [h4]
        refine (abs_add_le _ _).trans (add_le_add hqr ((abs_add_le _ _).trans (add_le_add hs2 hr)))
      refine hmain.trans ?_
      have hG' : 1.01 * (((k + 1 : ℕ) : ℚ) + 1) / 2 ^ 24 = G + 1.01 / 2 ^ 24 := by rw [hGd]; push_cast; ring
      have hT' : 4 * ((k + 1 : ℕ) : ℚ) / 2 ^ 150 = T + 4 / 2 ^ 150 := by rw [hTd]; push_cast; ring
      have hG1 : 1.01 / 2 ^ 24 ≤ G := by
        rw [hGd]
        apply div_le_div_of_nonneg_right _ (by norm_num)
        linarith
      have hGP : 1.01 / 2 ^ 24 * |P| ≤ G * |P| := mul_le_mul_of_nonneg_right hG1 hP0
      rw [hG', hT']
      have hTu : T / 2 ^ 24 ≤ 0.001 / 2 ^ 150 := by
        have : T / 2 ^ 24 ≤ 1 / 2 ^ 136 / 2 ^ 24 := div_le_div_of_nonneg_right hT (by norm_num)
        refine this.trans ?_
        norm_num
      have hQu : |Q| / 2 ^ 24 ≤ (A + 0.001 * A) / 2 ^ 24 + 0.001 / 2 ^ 150 +
          (|P| + (|P| / 2 ^ 24 + 1 / 2 ^ 150)) / 2 ^ 24 := by
        have : |Q| / 2 ^ 24 ≤ (A + (G * A + T) + (|P| + (|P| / 2 ^ 24 + 1 / 2 ^ 150))) / 2 ^ 24 :=
          div_le_div_of_nonneg_right hQb (by norm_num)
        refine this.trans ?_
        rw [add_div, ← add_assoc, add_div _ T]
        have : (A + G * A) / 2 ^ 24 ≤ (A + 0.001 * A) / 2 ^ 24 :=
          div_le_div_of_nonneg_right (by linarith) (by norm_num)
        linarith
      have e : (G + 1.01 / 2 ^ 24) * (A + |P|) = G * A + G * |P| + 1.01 / 2 ^ 24 * A + 1.01 / 2 ^ 24 * |P| := by ring
      rw [e]
      have c1 : (A + 0.001 * A) / 2 ^ 24 = 1.001 / 2 ^ 24 * A := by ring
      have c2 : (|P| + (|P| / 2 ^ 24 + 1 / 2 ^ 150)) / 2 ^ 24 = (1 / 2 ^ 24 + 1 / 2 ^ 48) * |P| + 1 / 2 ^ 174 := by ring
      have c3 : |P| / 2 ^ 24 = 1 / 2 ^ 24 * |P| := by ring
      rw [c1, c2] at hQu
      rw [c3]
      have k1 : (1.001 / 2 ^ 24 : ℚ) * A ≤ 1.01 / 2 ^ 24 * A := mul_le_mul_of_nonneg_right (by norm_num) hA0
      have k2 : ((1 / 2 ^ 24 + 1 / 2 ^ 48) + 1 / 2 ^ 24 : ℚ) * |P| ≤ (1.01 / 2 ^ 24 + 1.01 / 2 ^ 24) * |P| :=
        mul_le_mul_of_nonneg_right (by norm_num) hP0
      have k3 : (0.001 / 2 ^ 150 + 1 / 2 ^ 174 + 1 / 2 ^ 150 + 1 / 2 ^ 150 : ℚ) ≤ 4 / 2 ^ 150 := by norm_num
      linarith)
  exact ⟨s, h1, h2, h3⟩

theorem truthy_f32 (o : Oracle) {x : F32} (h : x.isFinite = true) : @truthy F32 (libm o) x = true ↔ x.val ≠ 0 := by
  show (!(F32.eq x (lit 0 : F32))) = true ↔ _
  rw [lit_zero, eq_finite h rfl]
  show (!(decide (x.val = 0))) = true ↔ _
  simp

variable {m n : ℕ}

/-- The solution back-substitution stands for, on the values of the arrays. -/
def solution (u : Mat F32 m n) (w : Vec F32 n) (v : Mat F32 n n) (b : Vec F32 m) (j : Fin n) : ℚ :=
  ∑ k, (v j k).val * (if (w k).val = 0 then 0 else (∑ i, (u i k).val * (b i).val) / (w k).val)

/-- The same sums with every term taken at its size. -/
def size (u : Mat F32 m n) (w : Vec F32 n) (v : Mat F32 n n) (b : Vec F32 m) (j : Fin n) : ℚ :=
  ∑ k, |(v j k).val| * (if (w k).val = 0 then 0 else (∑ i, |(u i k).val * (b i).val|) / |(w k).val|)

/-- One entry of `tmp`. -/
theorem entry (o : Oracle) (hm : m ≤ 4096) (u : Mat F32 m n) (w : Vec F32 n) (b : Vec F32 m) (k : Fin n)
    (hu : ∀ i, (u i k).isFinite = true) (hb : ∀ i, (b i).isFinite = true) (hw : (w k).isFinite = true)
    (hw0 : (w k).val = 0 ∨ 1 / 2 ^ 40 ≤ |(w k).val|) (hS : ∑ i, |(u i k).val * (b i).val| ≤ 2 ^ 60) :
    ∃ t, @tmpEntry F32 (libm o) m n m u w b k = .ok t ∧ t.isFinite = true ∧
      |t.val - (if (w k).val = 0 then 0 else (∑ i, (u i k).val * (b i).val) / (w k).val)| ≤
        1.01 * (m + 2) / 2 ^ 24 * (if (w k).val = 0 then 0 else (∑ i, |(u i k).val * (b i).val|) / |(w k).val|) +
          1 / 2 ^ 95 := by
  unfold tmpEntry
  rw [rd_eq w k.2]
  change ∃ t, (if @truthy F32 (libm o) (w k) = true then (_ : Except UB F32) else _) = Except.ok t ∧ _ ∧ _
  by_cases h : (w k).val = 0
  · rw [if_neg (by rw [truthy_f32 o hw]; simpa using h), if_pos h, if_pos h]
    refine ⟨lit 0, rfl, ?_⟩
    rw [lit_zero]
    refine ⟨rfl, ?_⟩
    show |(0 : ℚ) - 0| ≤ _
    norm_num
  rw [if_pos ((truthy_f32 o hw).2 h), if_neg h, if_neg h]
  obtain ⟨s, h1, h2, h3⟩ := dot_loop hm (fun i => u i k) b hu hb (hS.trans (by norm_num))
    (f := fun i s => (rd2 u i k) >>= fun x => rd b i >>= fun y => .ok (s + x * y))
    (fun i s => by rw [rd2_eq u i.2 k.2, rd_eq b i.2]; rfl)
  have hf : (forUp 0 m (lit 0 : F32) fun i s => (do
      let x ← rd2 u i k
      let y ← rd b i
      .ok (s + x * y) : Except UB F32)) = .ok s := h1
  set S := ∑ i, (u i k).val * (b i).val with hSd
  set A := ∑ i, |(u i k).val * (b i).val| with hAd
  set W := (w k).val with hW
  have hW' : 1 / 2 ^ 40 ≤ |W| := hw0.resolve_left h
  have hW0 : 0 < |W| := lt_of_lt_of_le (by norm_num) hW'
  have hA0 : 0 ≤ A := Finset.sum_nonneg fun _ _ => abs_nonneg _
  have hSA : |S| ≤ A := Finset.abs_sum_le_sum_abs _ _
  have hmq : (m : ℚ) ≤ 4096 := by exact_mod_cast hm
  have hm0 : (0 : ℚ) ≤ m := Nat.cast_nonneg m
  have hG : 1.01 * ((m : ℚ) + 1) / 2 ^ 24 ≤ 0.001 := by
    rw [div_le_iff₀ (by norm_num)]; linarith
  have hT : 4 * (m : ℚ) / 2 ^ 150 ≤ 1 / 2 ^ 136 := by
    rw [div_le_iff₀ (by norm_num)]
    have : (1 : ℚ) / 2 ^ 136 * 2 ^ 150 = 2 ^ 14 := by norm_num
    rw [this]; norm_num; linarith
  have hG2 : 1.01 * ((m : ℚ) + 2) / 2 ^ 24 = 1.01 * ((m : ℚ) + 1) / 2 ^ 24 + 1.01 / 2 ^ 24 := by ring
  rw [hG2]
  set G := 1.01 * ((m : ℚ) + 1) / 2 ^ 24
  set T := 4 * (m : ℚ) / 2 ^ 150
  set X := A / |W| with hX
  have hX0 : 0 ≤ X := div_nonneg hA0 hW0.le
  have hXle : X ≤ 2 ^ 100 := by
    rw [hX, div_le_iff₀ hW0]
    have : (2 : ℚ) ^ 100 * (1 / 2 ^ 40) ≤ 2 ^ 100 * |W| := mul_le_mul_of_nonneg_left hW' (by norm_num)
    have e : (2 : ℚ) ^ 100 * (1 / 2 ^ 40) = 2 ^ 60 := by norm_num
    rw [e] at this
    exact hS.trans this
  have hTW : T / |W| ≤ 1 / 2 ^ 96 := by
    rw [div_le_iff₀ hW0]
    have : (1 : ℚ) / 2 ^ 96 * (1 / 2 ^ 40) ≤ 1 / 2 ^ 96 * |W| := mul_le_mul_of_nonneg_left hW' (by norm_num)
    have e : (1 : ℚ) / 2 ^ 96 * (1 / 2 ^ 40) = 1 / 2 ^ 136 := by norm_num
    rw [e] at this
    exact hT.trans this
  have hd : |s.val / W - S / W| ≤ G * X + 1 / 2 ^ 96 := by
    rw [← sub_div, abs_div]
    have : |s.val - S| / |W| ≤ (G * A + T) / |W| := div_le_div_of_nonneg_right h3 hW0.le
    rw [add_div, mul_div_assoc] at this
    linarith
  have hSW : |S / W| ≤ X := by rw [abs_div]; exact div_le_div_of_nonneg_right hSA hW0.le
  have hGX : G * X ≤ 0.001 * X := mul_le_mul_of_nonneg_right hG hX0
  have hq : |s.val / W| ≤ 1.001 * X + 1 / 2 ^ 96 := by
    have := abs_add_le (s.val / W - S / W) (S / W)
    rw [sub_add_cancel] at this
    linarith
  have hr := rnd_rel' (s.val / W)
  have hru : |s.val / W| / 2 ^ 24 ≤ (1.001 * X + 1 / 2 ^ 96) / 2 ^ 24 := div_le_div_of_nonneg_right hq (by norm_num)
  have c1 : (1.001 * X + 1 / 2 ^ 96) / 2 ^ 24 = 1.001 / 2 ^ 24 * X + 1 / 2 ^ 120 := by ring
  rw [c1] at hru
  have hl : |rnd (s.val / W)| < 2 ^ 128 := by
    have := abs_add_le (rnd (s.val / W) - s.val / W) (s.val / W)
    rw [sub_add_cancel] at this
    have c2 : (1.001 : ℚ) / 2 ^ 24 * X ≤ 1 * X := mul_le_mul_of_nonneg_right (by norm_num) hX0
    have c3 : (3 : ℚ) * 2 ^ 100 + 1 / 2 ^ 96 + 1 / 2 ^ 120 + 1 / 2 ^ 150 < 2 ^ 128 := by norm_num
    linarith
  have hi : (s / w k).Is (rnd (s.val / W)) := (Is.of _ h2).div_rnd (Is.of _ hw) h hl
  refine ⟨s / w k, ?_, hi.1, ?_⟩
  · show (forUp 0 m (lit 0 : F32) _ >>= fun s => Except.ok (s / w k)) = _
    rw [hf]; rfl
  rw [hi.2]
  have := abs_add_le (rnd (s.val / W) - s.val / W) (s.val / W - S / W)
  rw [sub_add_sub_cancel] at this
  have c4 : (1.001 : ℚ) / 2 ^ 24 * X ≤ 1.01 / 2 ^ 24 * X := mul_le_mul_of_nonneg_right (by norm_num) hX0
  have c5 : (1 : ℚ) / 2 ^ 120 + 1 / 2 ^ 150 + 1 / 2 ^ 96 ≤ 1 / 2 ^ 95 := by norm_num
  rw [add_mul]
  linarith

/-- C142: back-substitution on finite binary32 arrays of any sizes up to 4096 is defined, and each component of the
solution is within `1.02 (m + n + 3)` half-units of rounding, relative to the sum of the sizes of its terms, of the
one exact arithmetic gives on the same arrays; a singular value that is zero contributes nothing. -/
theorem C142_forward (o : Oracle) (hm : m ≤ 4096) (hn : n ≤ 4096) (u : Mat F32 m n) (w : Vec F32 n) (v : Mat F32 n n)
    (b : Vec F32 m) (x0 : Vec F32 n) (hu : ∀ i k, (u i k).isFinite = true) (hb : ∀ i, (b i).isFinite = true)
    (hw : ∀ k, (w k).isFinite = true) (hv : ∀ j k, (v j k).isFinite = true) (hv2 : ∀ j k, |(v j k).val| ≤ 2)
    (hw0 : ∀ k, (w k).val = 0 ∨ 1 / 2 ^ 40 ≤ |(w k).val|) (hS : ∀ k, ∑ i, |(u i k).val * (b i).val| ≤ 2 ^ 60) :
    ∃ x, @svbksb F32 (libm o) m n n m u w v b x0 = .ok x ∧ ∀ j, (x j).isFinite = true ∧
      |(x j).val - solution u w v b j| ≤ 1.02 * (m + n + 3) / 2 ^ 24 * size u w v b j + 1 / 2 ^ 80 := by
  choose t ht1 ht2 ht3 using fun k => entry o hm u w b k (fun i => hu i k) hb (hw k) (hw0 k) (hS k)
  set z : Fin n → ℚ := fun k => if (w k).val = 0 then 0 else (∑ i, (u i k).val * (b i).val) / (w k).val with hz
  set X : Fin n → ℚ := fun k => if (w k).val = 0 then 0 else (∑ i, |(u i k).val * (b i).val|) / |(w k).val| with hX
  have hX0 : ∀ k, 0 ≤ X k := by
    intro k
    simp only [hX]
    split_ifs
    · exact le_rfl
    · exact div_nonneg (Finset.sum_nonneg fun _ _ => abs_nonneg _) (abs_nonneg _)
  have hXle : ∀ k, X k ≤ 2 ^ 100 := by
    intro k
    simp only [hX]
    split_ifs with h
    · norm_num
    · have hW' := (hw0 k).resolve_left h
      rw [div_le_iff₀ (lt_of_lt_of_le (by norm_num) hW')]
      have : (2 : ℚ) ^ 100 * (1 / 2 ^ 40) ≤ 2 ^ 100 * |(w k).val| := mul_le_mul_of_nonneg_left hW' (by norm_num)
      have e : (2 : ℚ) ^ 100 * (1 / 2 ^ 40) = 2 ^ 60 := by norm_num
      rw [e] at this
      exact (hS k).trans this
  have hzX : ∀ k, |z k| ≤ X k := by
    intro k
    simp only [hX, hz]
    split_ifs with h
    · simp
    · rw [abs_div]
      exact div_le_div_of_nonneg_right (Finset.abs_sum_le_sum_abs _ _) (abs_nonneg _)
  have hmq : (m : ℚ) ≤ 4096 := by exact_mod_cast hm
  have hm0 : (0 : ℚ) ≤ m := Nat.cast_nonneg m
  have hnq : (n : ℚ) ≤ 4096 := by exact_mod_cast hn
  have hn0 : (0 : ℚ) ≤ n := Nat.cast_nonneg n
  have hg : 1.01 * ((m : ℚ) + 2) / 2 ^ 24 ≤ 0.001 := by
    rw [div_le_iff₀ (by norm_num)]; linarith
  have hg0 : 0 ≤ 1.01 * ((m : ℚ) + 2) / 2 ^ 24 := by positivity
  have hT : 4 * (n : ℚ) / 2 ^ 150 ≤ 1 / 2 ^ 136 := by
    rw [div_le_iff₀ (by norm_num)]
    have : (1 : ℚ) / 2 ^ 136 * 2 ^ 150 = 2 ^ 14 := by norm_num
    rw [this]; norm_num; linarith
  have hG : 1.01 * ((n : ℚ) + 1) / 2 ^ 24 ≤ 0.001 := by
    rw [div_le_iff₀ (by norm_num)]; linarith
  have hG0 : 0 ≤ 1.01 * ((n : ℚ) + 1) / 2 ^ 24 := by positivity
  have hsum : 1.01 * ((m : ℚ) + 2) / 2 ^ 24 + 1.001 * (1.01 * ((n : ℚ) + 1) / 2 ^ 24) ≤ 1.02 * (m + n + 3) / 2 ^ 24 := by
    have e : 1.01 * ((m : ℚ) + 2) / 2 ^ 24 + 1.001 * (1.01 * ((n : ℚ) + 1) / 2 ^ 24) =
      (1.01 * ((m : ℚ) + 2) + 1.001 * (1.01 * ((n : ℚ) + 1))) / 2 ^ 24 := by ring
    rw [e]
    apply div_le_div_of_nonneg_right _ (by norm_num)
    linarith
  set g := 1.01 * ((m : ℚ) + 2) / 2 ^ 24
  set G := 1.01 * ((n : ℚ) + 1) / 2 ^ 24
  set T := 4 * (n : ℚ) / 2 ^ 150
  have htX : ∀ k, |(t k).val| ≤ 1.001 * X k + 1 / 2 ^ 95 := by
    intro k
    have h1 := abs_add_le ((t k).val - z k) (z k)
    rw [sub_add_cancel] at h1
    have h2 : g * X k ≤ 0.001 * X k := mul_le_mul_of_nonneg_right hg (hX0 k)
    linarith [ht3 k, hzX k]
  -- the first loop
  have h1 : forUp 0 n (@vzero F32 (libm o) n) (fun j tmp => do let s ← @tmpEntry F32 (libm o) m n m u w b j; wr tmp j s) =
      .ok t := by
    obtain ⟨s, hs1, hs2⟩ := forUp_ok
      (f := fun j tmp => do let s ← @tmpEntry F32 (libm o) m n m u w b j; wr tmp j s)
      (s := @vzero F32 (libm o) n) (fun k s => ∀ j : Fin n, j.val < k → s j = t j) (Nat.zero_le n)
      (fun j hj => absurd hj (Nat.not_lt_zero _)) (fun k s _ hk hs => by
        show Ok (@tmpEntry F32 (libm o) m n m u w b k >>= fun s' => wr s k s') _
        rw [show @tmpEntry F32 (libm o) m n m u w b k = .ok (t ⟨k, hk⟩) from ht1 ⟨k, hk⟩]
        refine Ok.of_eq (wr_eq s hk _) fun j hj => ?_
        rcases eq_or_ne j ⟨k, hk⟩ with rfl | hne
        · rw [Function.update_self]
        · rw [Function.update_of_ne hne]
          exact hs j (lt_of_le_of_ne (Nat.lt_succ_iff.1 hj) (fun h => hne (Fin.ext h))))
    rw [hs1]
    exact congrArg _ (funext fun j => hs2 j j.2)
  -- one component
  have h2 : ∀ j : Fin n, ∃ s, (forUp 0 n (lit 0 : F32) fun jj s => (do
        let y ← rd2 v j jj
        let q ← rd t jj
        .ok (s + y * q) : Except UB F32)) = .ok s ∧ s.isFinite = true ∧
      |s.val - solution u w v b j| ≤ 1.02 * (m + n + 3) / 2 ^ 24 * size u w v b j + 1 / 2 ^ 80 := by
    intro j
    have hV : ∑ k, |(v j k).val| ≤ 2 ^ 13 := by
      refine (Finset.sum_le_sum fun k _ => hv2 j k).trans ?_
      simp only [Finset.sum_const, Finset.card_univ, Fintype.card_fin, nsmul_eq_mul]
      norm_num; linarith
    have hB : ∑ k, |(v j k).val * (t k).val| ≤ 1.001 * ∑ k, |(v j k).val| * X k + 1 / 2 ^ 82 := by
      have : ∀ k ∈ Finset.univ, |(v j k).val * (t k).val| ≤ 1.001 * (|(v j k).val| * X k) + 1 / 2 ^ 95 * |(v j k).val| := by
        intro k _
        rw [abs_mul]
        have := mul_le_mul_of_nonneg_left (htX k) (abs_nonneg (v j k).val)
        linarith
      refine (Finset.sum_le_sum this).trans ?_
      rw [Finset.sum_add_distrib, ← Finset.mul_sum, ← Finset.mul_sum]
      have h5 : (1 : ℚ) / 2 ^ 95 * ∑ k, |(v j k).val| ≤ 1 / 2 ^ 95 * 2 ^ 13 := mul_le_mul_of_nonneg_left hV (by norm_num)
      have e : (1 : ℚ) / 2 ^ 95 * 2 ^ 13 = 1 / 2 ^ 82 := by norm_num
      linarith
    have hY0 : 0 ≤ ∑ k, |(v j k).val| * X k := Finset.sum_nonneg fun k _ => mul_nonneg (abs_nonneg _) (hX0 k)
    have hYle : ∑ k, |(v j k).val| * X k ≤ 2 ^ 113 := by
      have : ∀ k ∈ Finset.univ, |(v j k).val| * X k ≤ 2 ^ 100 * |(v j k).val| := by
        intro k _
        rw [mul_comm]
        exact mul_le_mul_of_nonneg_right (hXle k) (abs_nonneg _)
      refine (Finset.sum_le_sum this).trans ?_
      rw [← Finset.mul_sum]
      have h5 : (2 : ℚ) ^ 100 * ∑ k, |(v j k).val| ≤ 2 ^ 100 * 2 ^ 13 := mul_le_mul_of_nonneg_left hV (by norm_num)
      refine h5.trans ?_
      norm_num
    obtain ⟨s, g1, g2, g3⟩ := dot_loop hn (fun k => v j k) t (hv j) ht2
      (hB.trans (by
        have : (1.001 : ℚ) * 2 ^ 113 + 1 / 2 ^ 82 ≤ 2 ^ 120 := by norm_num
        linarith))
      (f := fun jj s => rd2 v j jj >>= fun y => rd t jj >>= fun q => .ok (s + y * q))
      (fun jj s => by rw [rd2_eq v j.2 jj.2, rd_eq t jj.2]; rfl)
    refine ⟨s, g1, g2, ?_⟩
    have hD : |∑ k, (v j k).val * (t k).val - ∑ k, (v j k).val * z k| ≤ g * ∑ k, |(v j k).val| * X k + 1 / 2 ^ 82 := by
      rw [← Finset.sum_sub_distrib]
      refine (Finset.abs_sum_le_sum_abs _ _).trans ?_
      have : ∀ k ∈ Finset.univ, |(v j k).val * (t k).val - (v j k).val * z k| ≤
          g * (|(v j k).val| * X k) + 1 / 2 ^ 95 * |(v j k).val| := by
        intro k _
        rw [← mul_sub, abs_mul]
        have := mul_le_mul_of_nonneg_left (ht3 k) (abs_nonneg (v j k).val)
        refine this.trans (le_of_eq ?_)
        simp only [hX]
        ring
      refine (Finset.sum_le_sum this).trans ?_
      rw [Finset.sum_add_distrib, ← Finset.mul_sum, ← Finset.mul_sum]
      have h5 : (1 : ℚ) / 2 ^ 95 * ∑ k, |(v j k).val| ≤ 1 / 2 ^ 95 * 2 ^ 13 := mul_le_mul_of_nonneg_left hV (by norm_num)
      have e : (1 : ℚ) / 2 ^ 95 * 2 ^ 13 = 1 / 2 ^ 82 := by norm_num
      linarith
    have hsz : size u w v b j = ∑ k, |(v j k).val| * X k := rfl
    have hso : solution u w v b j = ∑ k, (v j k).val * z k := rfl
    rw [hsz, hso]
    set Y := ∑ k, |(v j k).val| * X k
    have h6 := abs_add_le (s.val - ∑ k, (v j k).val * (t k).val) (∑ k, (v j k).val * (t k).val - ∑ k, (v j k).val * z k)
    rw [sub_add_sub_cancel] at h6
    have h7 : G * ∑ k, |(v j k).val * (t k).val| ≤ G * (1.001 * Y + 1 / 2 ^ 82) := mul_le_mul_of_nonneg_left hB hG0
    have h8 : G * (1 / 2 ^ 82) ≤ 0.001 * (1 / 2 ^ 82) := mul_le_mul_of_nonneg_right hG (by norm_num)
    have h9 : (g + 1.001 * G) * Y ≤ 1.02 * (m + n + 3) / 2 ^ 24 * Y := mul_le_mul_of_nonneg_right hsum hY0
    have c : (0.001 : ℚ) * (1 / 2 ^ 82) + 1 / 2 ^ 136 + 1 / 2 ^ 82 ≤ 1 / 2 ^ 80 := by norm_num
    have e : G * (1.001 * Y + 1 / 2 ^ 82) = 1.001 * G * Y + G * (1 / 2 ^ 82) := by ring
    rw [e] at h7
    rw [add_mul] at h9
    have g3' : |s.val - ∑ i, (v j i).val * (t i).val| ≤ G * ∑ i, |(v j i).val * (t i).val| + T := g3
    linarith
  choose x hx using h2
  refine ⟨x, ?_, fun j => (hx j).2⟩
  unfold svbksb
  have h1' : (forUp 0 n (@vzero F32 (libm o) n) fun j tmp => do
      let s ← @tmpEntry F32 (libm o) m n m u w b j; wr tmp j s) = .ok t := h1
  rw [h1']
  show forUp 0 n x0 _ = _
  obtain ⟨s, hs1, hs2⟩ := forUp_ok (f := fun j x => (do
      let s ← forUp 0 n (lit 0 : F32) fun jj s => do
        let y ← rd2 v j jj
        let q ← rd t jj
        .ok (s + y * q)
      wr x j s : Except UB (Vec F32 n))) (s := x0) (fun k s => ∀ j : Fin n, j.val < k → s j = x j) (Nat.zero_le n)
      (fun j hj => absurd hj (Nat.not_lt_zero _)) (fun k s _ hk hs => by
        rw [(hx ⟨k, hk⟩).1]
        refine Ok.of_eq (wr_eq s hk _) fun j hj => ?_
        rcases eq_or_ne j ⟨k, hk⟩ with rfl | hne
        · rw [Function.update_self]
        · rw [Function.update_of_ne hne]
          exact hs j (lt_of_le_of_ne (Nat.lt_succ_iff.1 hj) (fun h => hne (Fin.ext h))))
  refine hs1.trans ?_
  exact congrArg _ (funext fun j => hs2 j j.2)

/-- C142 for arrays of bounded entries: with `|u|, |v| ≤ 1`, `|b| ≤ B` and the singular values that are not zero at
least `W`, the error of every component is at most `1.02 (m + n + 3) 2^-24 · m n B / W`. -/
theorem C142_uniform (o : Oracle) (hm : m ≤ 4096) (hn : n ≤ 4096) (u : Mat F32 m n) (w : Vec F32 n) (v : Mat F32 n n)
    (b : Vec F32 m) (x0 : Vec F32 n) {B W : ℚ} (hu : ∀ i k, (u i k).isFinite = true) (hb : ∀ i, (b i).isFinite = true)
    (hw : ∀ k, (w k).isFinite = true) (hv : ∀ j k, (v j k).isFinite = true) (hu1 : ∀ i k, |(u i k).val| ≤ 1)
    (hv1 : ∀ j k, |(v j k).val| ≤ 1) (hb1 : ∀ i, |(b i).val| ≤ B) (hB : B ≤ 2 ^ 48) (hW : 1 / 2 ^ 40 ≤ W)
    (hw0 : ∀ k, (w k).val = 0 ∨ W ≤ |(w k).val|) :
    ∃ x, @svbksb F32 (libm o) m n n m u w v b x0 = .ok x ∧ ∀ j, (x j).isFinite = true ∧
      |(x j).val - solution u w v b j| ≤ 1.02 * (m + n + 3) / 2 ^ 24 * (m * n * B / W) + 1 / 2 ^ 80 := by
  have hmq : (m : ℚ) ≤ 4096 := by exact_mod_cast hm
  have hm0 : (0 : ℚ) ≤ m := Nat.cast_nonneg m
  have hn0 : (0 : ℚ) ≤ n := Nat.cast_nonneg n
  have hS : ∀ k, ∑ i, |(u i k).val * (b i).val| ≤ m * B := by
    intro k
    have : ∀ i ∈ Finset.univ, |(u i k).val * (b i).val| ≤ B := by
      intro i _
      rw [abs_mul]
      have h := mul_le_mul (hu1 i k) (hb1 i) (abs_nonneg _) zero_le_one
      linarith
    refine (Finset.sum_le_sum this).trans ?_
    simp [Finset.sum_const]
  have hmB : (m : ℚ) * B ≤ 2 ^ 60 := by
    refine (mul_le_mul_of_nonneg_left hB hm0).trans ?_
    refine (mul_le_mul_of_nonneg_right hmq (by norm_num)).trans ?_
    norm_num
  have hW0 : 0 < W := lt_of_lt_of_le (by norm_num) hW
  obtain ⟨x, h1, h2⟩ := C142_forward o hm hn u w v b x0 hu hb hw hv (fun j k => (hv1 j k).trans (by norm_num))
    (fun k => (hw0 k).imp id fun h => hW.trans h) (fun k => (hS k).trans hmB)
  refine ⟨x, h1, fun j => ⟨(h2 j).1, (h2 j).2.trans ?_⟩⟩
  have hsz : size u w v b j ≤ m * n * B / W := by
    have : ∀ k ∈ Finset.univ, |(v j k).val| *
        (if (w k).val = 0 then 0 else (∑ i, |(u i k).val * (b i).val|) / |(w k).val|) ≤ m * B / W := by
      intro k _
      have hA0 : 0 ≤ ∑ i, |(u i k).val * (b i).val| := Finset.sum_nonneg fun _ _ => abs_nonneg _
      have hq : (if (w k).val = 0 then 0 else (∑ i, |(u i k).val * (b i).val|) / |(w k).val|) ≤ m * B / W := by
        split_ifs with h
        · exact div_nonneg (hA0.trans (hS k)) hW0.le
        · exact div_le_div₀ (hA0.trans (hS k)) (hS k) hW0 ((hw0 k).resolve_left h)
      have hq0 : 0 ≤ (if (w k).val = 0 then 0 else (∑ i, |(u i k).val * (b i).val|) / |(w k).val|) := by
        split_ifs
        · exact le_rfl
        · exact div_nonneg hA0 (abs_nonneg _)
      have h := mul_le_mul (hv1 j k) hq hq0 zero_le_one
      linarith
    unfold size
    refine (Finset.sum_le_sum this).trans (le_of_eq ?_)
    simp [Finset.sum_const]
    ring
  have : 1.02 * ((m : ℚ) + n + 3) / 2 ^ 24 * size u w v b j ≤ 1.02 * (m + n + 3) / 2 ^ 24 * (m * n * B / W) :=
    mul_le_mul_of_nonneg_left hsz (by positivity)
  linarith

/-- C142: the vector C142 compares with is the one the same text computes in exact arithmetic on the values of the
arrays (and which C50 shows to be the shortest least-squares solution). -/
theorem C142_exact (u : Mat F32 m n) (w : Vec F32 n) (v : Mat F32 n n) (b : Vec F32 m) (x0 : Vec ℝ n) :
    svbksb (fun i k => ((u i k).val : ℝ)) (fun k => ((w k).val : ℝ)) (fun j k => ((v j k).val : ℝ))
      (fun i => ((b i).val : ℝ)) x0 = .ok fun j => (solution u w v b j : ℝ) := by
  rw [svbksb_real]
  refine congrArg _ (funext fun j => ?_)
  unfold solution
  push_cast
  refine Finset.sum_congr rfl fun k _ => ?_
  congr 1
  by_cases h : (w k).val = 0
  · rw [if_pos h, if_pos (by rw [h]; simp)]; simp
  · rw [if_neg h, if_neg (by exact_mod_cast h)]; push_cast; rfl

/-- Arrays C142 applies to: the system `2x = 3, 0y = 1`. -/
example (o : Oracle) : ∃ x, @svbksb F32 (libm o) 2 2 2 2 (fun i k => lit (if i = k then 1 else 0))
    (fun k => lit (if k = 0 then 2 else 0)) (fun i k => lit (if i = k then 1 else 0))
    (fun i => lit (if i = 0 then 3 else 1)) (fun _ => lit 0) = .ok x ∧ ∀ j, (x j).isFinite = true := by
  have one : ((lit 1 : F32)).Is 1 := by simpa using Is.litInt (n := 1) (by norm_num)
  have two : ((lit 2 : F32)).Is 2 := by simpa using Is.litInt (n := 2) (by norm_num)
  have three : ((lit 3 : F32)).Is 3 := by simpa using Is.litInt (n := 3) (by norm_num)
  have zero : ((lit 0 : F32)).Is 0 := by simpa using Is.litInt (n := 0) (by norm_num)
  have id : ∀ i k : Fin 2, ((lit (if i = k then 1 else 0) : F32)).isFinite = true ∧
      |((lit (if i = k then 1 else 0) : F32)).val| ≤ 1 := by
    intro i k
    split_ifs
    · exact ⟨one.1, by rw [one.2]; norm_num⟩
    · exact ⟨zero.1, by rw [zero.2]; norm_num⟩
  obtain ⟨x, h1, h2⟩ := C142_uniform o (m := 2) (n := 2) (by norm_num) (by norm_num)
    (fun i k => lit (if i = k then 1 else 0)) (fun k => lit (if k = 0 then 2 else 0))
    (fun i k => lit (if i = k then 1 else 0)) (fun i => lit (if i = 0 then 3 else 1)) (fun _ => lit 0) (B := 3) (W := 2)
    (fun i k => (id i k).1) (fun i => by split_ifs <;> [exact three.1; exact one.1])
    (fun k => by split_ifs <;> [exact two.1; exact zero.1]) (fun i k => (id i k).1)
    (fun i k => (id i k).2) (fun i k => (id i k).2)
    (fun i => by split_ifs <;> [rw [three.2]; rw [one.2]] <;> norm_num) (by norm_num) (by norm_num)
    (fun k => by
      split_ifs
      · right; rw [two.2]; norm_num
      · left; rw [zero.2])
  exact ⟨x, h1, fun j => (h2 j).1⟩

end CS.BackSubst
