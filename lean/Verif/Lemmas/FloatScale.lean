import Verif.Lemmas.FloatPow
import Verif.Model.Tristimulus

/-!
# Multiplication by a power of two
-/

namespace CS
open B32

namespace B32

/-- A multiple of `2^n`. -/
def Mult (n : ℤ) (q : ℚ) : Prop := ∃ m : ℤ, q = m * 2 ^ n

theorem Mult.add {n : ℤ} {p q : ℚ} (hp : Mult n p) (hq : Mult n q) : Mult n (p + q) := by
  obtain ⟨a, rfl⟩ := hp
  obtain ⟨b, rfl⟩ := hq
  exact ⟨a + b, by push_cast; ring⟩

theorem Mult.neg {n : ℤ} {q : ℚ} (hq : Mult n q) : Mult n (-q) := by
  obtain ⟨b, rfl⟩ := hq
  exact ⟨-b, by push_cast; ring⟩

theorem Mult.mul {n m : ℤ} {p q : ℚ} (hp : Mult n p) (hq : Mult m q) : Mult (n + m) (p * q) := by
  obtain ⟨a, rfl⟩ := hp
  obtain ⟨b, rfl⟩ := hq
  exact ⟨a * b, by push_cast; rw [zpow_add₀ (by norm_num)]; ring⟩

theorem Mult.weaken {n m : ℤ} {q : ℚ} (h : m ≤ n) (hq : Mult n q) : Mult m q := by
  obtain ⟨a, rfl⟩ := hq
  refine ⟨a * 2 ^ (n - m).toNat, ?_⟩
  push_cast
  rw [← zpow_natCast, Int.toNat_of_nonneg (by omega), mul_assoc, ← zpow_add₀ (by norm_num)]
  congr 2; omega

theorem Mult.lower {n : ℤ} {q : ℚ} (hq : Mult n q) (h0 : q ≠ 0) : (2 : ℚ) ^ n ≤ |q| := by
  obtain ⟨a, rfl⟩ := hq
  have ha : a ≠ 0 := by rintro rfl; simp at h0
  have h1 : (1 : ℚ) ≤ |(a : ℚ)| := by exact_mod_cast Int.one_le_abs ha
  rw [abs_mul, abs_of_pos (two_zpow_pos n)]
  exact le_mul_of_one_le_left (two_zpow_pos n).le h1

/-- Rounding keeps multiples of `2^n`. -/
theorem Mult.rnd {n : ℤ} {q : ℚ} (hq : Mult n q) : Mult n (rnd q) := by
  by_cases h : ex q ≤ n
  · obtain ⟨a, ha⟩ := hq
    rw [rnd_of_mul ha h]
    exact ⟨a, ha⟩
  · exact Mult.weaken (le_of_not_ge h) ⟨_, rfl⟩

/-- A representable number of magnitude at least `2^e` is a multiple of `2^(e-23)`. -/
theorem Mult.of_rep {e : ℤ} {q : ℚ} (hq : Rep q) (h : q = 0 ∨ 2 ^ e ≤ |q|) : Mult (e - 23) q := by
  rcases h with rfl | h
  · exact ⟨0, by simp⟩
  · obtain ⟨m, f, rfl, hm, -⟩ := hq
    refine Mult.weaken ?_ ⟨m, rfl⟩
    by_contra hc
    have h1 : f + 24 ≤ e := by omega
    have h2 : |(m : ℚ) * 2 ^ f| < 2 ^ (24 : ℤ) * 2 ^ f := by
      rw [abs_mul, abs_of_pos (two_zpow_pos f)]
      have : |(m : ℚ)| < 2 ^ (24 : ℤ) := by exact_mod_cast hm
      exact mul_lt_mul_of_pos_right this (two_zpow_pos f)
    rw [← zpow_add₀ (by norm_num)] at h2
    have h3 : (2 : ℚ) ^ (24 + f) ≤ 2 ^ e := zpow_le_zpow_right₀ (by norm_num) (by omega)
    linarith

/-- Away from the subnormal range rounding commutes with powers of two. -/
theorem rnd_scale {n k : ℤ} {q : ℚ} (hq : Mult n q) (hn : -126 ≤ n) (hk : -126 ≤ n + k) :
    rnd (q * 2 ^ k) = rnd q * 2 ^ k := by
  by_cases h0 : q = 0
  · subst h0; simp [rnd_of_rep rep_zero]
  have lo := hq.lower h0
  have kp := two_zpow_pos k
  have abs_eq : |q * 2 ^ k| = |q| * 2 ^ k := by rw [abs_mul, abs_of_pos kp]
  have hi := lt_ex q
  have e1 : n < ex q + 24 := by
    by_contra hc
    have : (2 : ℚ) ^ (ex q + 24) ≤ 2 ^ n := zpow_le_zpow_right₀ (by norm_num) (by omega)
    linarith
  have lo2 : (2 : ℚ) ^ (ex q + 23) ≤ |q| := by
    rcases ex_le q h0 with h | h
    · refine le_trans (zpow_le_zpow_right₀ (by norm_num) ?_) lo
      omega
    · exact h
  have hex : ex (q * 2 ^ k) = ex q + k := by
    apply le_antisymm
    · refine ex_le_of_lt (by omega) ?_
      rw [abs_eq, show ex q + k + 24 = (ex q + 24) + k by ring, zpow_add₀ (by norm_num) _ k]
      exact mul_lt_mul_of_pos_right hi kp
    · refine le_ex_of_le ?_
      rw [abs_eq, show ex q + k + 23 = (ex q + 23) + k by ring, zpow_add₀ (by norm_num) _ k]
      exact mul_le_mul_of_nonneg_right lo2 kp.le
  unfold rnd
  rw [hex, zpow_add₀ (by norm_num), ← mul_assoc]
  congr 3
  field_simp

end B32

namespace F32

/-- `y` is `x` times `2^k`, both finite; `x` is a multiple of `2^n` of magnitude at most `B`. -/
structure Sc (k n : ℤ) (B : ℚ) (x y : F32) : Prop where
  finx : x.isFinite = true
  finy : y.isFinite = true
  val : y.val = x.val * 2 ^ k
  sign : y.sign = x.sign
  mult : Mult n x.val
  le : |x.val| ≤ B

/-- A multiple of `2^n` of magnitude at most `B`. -/
structure Md (n : ℤ) (B : ℚ) (x : F32) : Prop where
  fin : x.isFinite = true
  mult : Mult n x.val
  le : |x.val| ≤ B

variable {k n m : ℤ} {A B C : ℚ} {x y u v z : F32}

theorem Sc.weaken (h : Sc k n B x y) (hn : m ≤ n) (hB : B ≤ C) : Sc k m C x y :=
  ⟨h.finx, h.finy, h.val, h.sign, h.mult.weaken hn, h.le.trans hB⟩

theorem zpow_lt_of {k : ℤ} (hk : k ≤ 20) (h : |A| ≤ 2 ^ 100) : |A * 2 ^ k| < 2 ^ 128 := by
  rw [abs_mul, abs_of_pos (two_zpow_pos k)]
  have h1 : (2 : ℚ) ^ k ≤ 2 ^ (20 : ℤ) := zpow_le_zpow_right₀ (by norm_num) hk
  have h2 := mul_le_mul h h1 (two_zpow_pos k).le (by positivity)
  refine h2.trans_lt ?_
  norm_num

theorem sc_pack (s : Bool) {q : ℚ} (hq : Mult n q) (hB : Rep B) (h1 : |q| ≤ B) (h2 : B ≤ 2 ^ 100) (hk : k ≤ 20)
    (hn : -126 ≤ n) (hnk : -126 ≤ n + k) : Sc k n B (pack s q) (pack s (q * 2 ^ k)) := by
  obtain ⟨b1, b2⟩ := abs_le.mp h1
  have h3 : |rnd q| ≤ B := by
    refine abs_le.2 ⟨?_, rnd_le hB b2⟩
    have := rnd_le hB (show -q ≤ B by linarith)
    rw [rnd_neg] at this; linarith
  obtain ⟨f1, v1⟩ := pack_finite (s := s) (q := q) (lt_of_le_of_lt (h3.trans h2) (by norm_num))
  have e := rnd_scale hq hn hnk
  obtain ⟨f2, v2⟩ := pack_finite (s := s) (q := q * 2 ^ k) (by rw [e]; exact zpow_lt_of hk (h3.trans h2))
  refine ⟨f1, f2, by rw [v1, v2, e], ?_, by rw [v1]; exact hq.rnd, by rw [v1]; exact h3⟩
  rw [pack_sign, pack_sign]
  have kp := two_zpow_pos k
  by_cases h0 : q = 0
  · subst h0; simp
  · rw [if_neg h0, if_neg (mul_ne_zero h0 kp.ne')]
    congr 1
    rw [eq_iff_iff]
    constructor
    · intro h; by_contra hc
      exact absurd (mul_nonneg (not_lt.1 hc) kp.le) (not_le.2 h)
    · intro h; exact mul_neg_of_neg_of_pos h kp

theorem Sc.mul (h : Sc k n A x y) (hz : Md m B z) (hC : Rep C) (h1 : A * B ≤ C) (h2 : C ≤ 2 ^ 100) (hk : k ≤ 20)
    (hn : -126 ≤ n + m) (hnk : -126 ≤ n + m + k) : Sc k (n + m) C (x * z) (y * z) := by
  rw [mul_def, mul_def, mul_finite h.finx hz.fin, mul_finite h.finy hz.fin, h.sign, h.val,
    show x.val * 2 ^ k * z.val = x.val * z.val * 2 ^ k by ring]
  refine sc_pack _ (h.mult.mul hz.mult) hC (le_trans ?_ h1) h2 hk hn hnk
  rw [abs_mul]
  exact mul_le_mul h.le hz.le (abs_nonneg _) ((abs_nonneg _).trans h.le)

theorem Sc.mul_left (h : Sc k n A x y) (hz : Md m B z) (hC : Rep C) (h1 : A * B ≤ C) (h2 : C ≤ 2 ^ 100) (hk : k ≤ 20)
    (hn : -126 ≤ n + m) (hnk : -126 ≤ n + m + k) : Sc k (n + m) C (z * x) (z * y) := by
  rw [mul_comm' z x, mul_comm' z y]; exact h.mul hz hC h1 h2 hk hn hnk

theorem Sc.neg (h : Sc k n A x y) : Sc k n A (-x) (-y) := by
  have nn : ∀ {w : F32}, w.isFinite = true → w.isNaN = false := fun {w} hw => by cases w <;> first | rfl | cases hw
  refine ⟨by rw [neg_def, neg_isFinite]; exact h.finx, by rw [neg_def, neg_isFinite]; exact h.finy, ?_, ?_, ?_, ?_⟩
  · rw [neg_def, neg_def, neg_val, neg_val, h.val]; ring
  · rw [neg_def, neg_def, neg_sign (nn h.finx), neg_sign (nn h.finy), h.sign]
  · rw [neg_def, neg_val]; exact h.mult.neg
  · rw [neg_def, neg_val, abs_neg]; exact h.le

theorem Sc.add (h : Sc k n A x y) (h' : Sc k n B u v) (hC : Rep C) (h1 : A + B ≤ C) (h2 : C ≤ 2 ^ 100) (hk : k ≤ 20)
    (hn : -126 ≤ n) (hnk : -126 ≤ n + k) : Sc k n C (x + u) (y + v) := by
  rw [add_def, add_def, add_finite h.finx h'.finx, add_finite h.finy h'.finy, h.sign, h'.sign, h.val, h'.val, ← add_mul]
  exact sc_pack _ (h.mult.add h'.mult) hC ((abs_add_le _ _).trans ((add_le_add h.le h'.le).trans h1)) h2 hk hn hnk

theorem Sc.sub (h : Sc k n A x y) (h' : Sc k n B u v) (hC : Rep C) (h1 : A + B ≤ C) (h2 : C ≤ 2 ^ 100) (hk : k ≤ 20)
    (hn : -126 ≤ n) (hnk : -126 ≤ n + k) : Sc k n C (x - u) (y - v) :=
  h.add h'.neg hC h1 h2 hk hn hnk

/-- A quotient does not change. -/
theorem Sc.div (h : Sc k n A x y) (h' : Sc k m B u v) : y / v = x / u := by
  have kp := two_zpow_pos k
  by_cases h0 : u.val = 0
  · have zero : ∀ {w : F32}, w.isFinite = true → w.val = 0 → w = .zero w.sign := by
      intro w hw h0
      cases w with
      | nan => cases hw
      | inf s => cases hw
      | zero s => rfl
      | num q hq => exact absurd h0 hq.1
    have v0 : v.val = 0 := by rw [h'.val, h0, zero_mul]
    rw [zero h'.finx h0, zero h'.finy v0, h'.sign]
    generalize u.sign = s
    have fy := h.finy; have fx := h.finx; have hv := h.val; have hs := h.sign
    cases x with
    | nan => cases fx
    | inf _ => cases fx
    | zero a =>
      have : y = .zero y.sign := zero fy (by rw [hv]; show (0 : ℚ) * _ = 0; simp)
      rw [this]; rfl
    | num q hq =>
      cases y with
      | nan => cases fy
      | inf _ => cases fy
      | zero b =>
        have : q * 2 ^ k = 0 := hv.symm
        exact absurd this (mul_ne_zero hq.1 kp.ne')
      | num p hp =>
        show F32.inf (xor _ s) = F32.inf (xor _ s)
        rw [hs]
  · have v0 : v.val ≠ 0 := by rw [h'.val]; exact mul_ne_zero h0 kp.ne'
    rw [div_def, div_def, div_finite h.finx h'.finx h0, div_finite h.finy h'.finy v0, h.sign, h'.sign, h.val, h'.val,
      mul_div_mul_right _ _ kp.ne']

/-- Comparisons do not change. -/
theorem Sc.lt (h : Sc k n A x y) (h' : Sc k m B u v) : Arith.lt y v = Arith.lt x u := by
  rw [alt_def, alt_def, lt_finite h.finx h'.finx, lt_finite h.finy h'.finy, h.val, h'.val]
  congr 1
  rw [eq_iff_iff, mul_lt_mul_iff_left₀ (two_zpow_pos k)]

theorem Sc.eq (h : Sc k n A x y) (h' : Sc k m B u v) : Arith.eq y v = Arith.eq x u := by
  rw [aeq_def, aeq_def, eq_finite h.finx h'.finx, eq_finite h.finy h'.finy, h.val, h'.val]
  congr 1
  rw [eq_iff_iff, mul_left_inj' (two_zpow_pos k).ne']

theorem Sc.zero : Sc k n 0 (lit 0) (lit 0) := by
  rw [lit_def, pack_zero]
  exact ⟨rfl, rfl, by show (0 : ℚ) = 0 * _; simp, rfl, ⟨0, by show (0 : ℚ) = _; simp⟩, by show |(0 : ℚ)| ≤ 0; simp⟩

theorem Sc.maxi (h : Sc k n A x y) (h' : Sc k n A u v) : Sc k n A (Tristimulus.maxi x u) (Tristimulus.maxi y v) := by
  unfold Tristimulus.maxi
  rw [h'.lt h]
  split_ifs <;> assumption

theorem Sc.mini (h : Sc k n A x y) (h' : Sc k n A u v) : Sc k n A (Tristimulus.mini x u) (Tristimulus.mini y v) := by
  unfold Tristimulus.mini
  rw [h.lt h']
  split_ifs <;> assumption

/-- The float `2^k`. -/
theorem pow_lit (hk1 : -126 ≤ k) (hk : k ≤ 20) : (lit (2 ^ k) : F32).isFinite = true ∧ (lit (2 ^ k) : F32).val = 2 ^ k ∧
    (lit (2 ^ k) : F32).sign = false := by
  have r : Rep (2 ^ k) := rep_two_zpow (by omega)
  have kp := two_zpow_pos k
  obtain ⟨f, v⟩ := pack_finite (s := false) (q := 2 ^ k) (by
    rw [rnd_of_rep r]
    have := zpow_lt_of (A := 1) hk (by norm_num)
    simpa using this)
  refine ⟨f, by rw [lit_def, v, rnd_of_rep r], ?_⟩
  rw [lit_def, pack_sign, if_neg kp.ne']
  exact decide_eq_false (not_lt.2 kp.le)

/-- Multiplying by the float `2^k`. -/
theorem Md.scale (h : Md n B x) (hB : B ≤ 2 ^ 100) (hk1 : -126 ≤ k) (hk : k ≤ 20) (hn : -126 ≤ n) (hnk : -126 ≤ n + k) :
    Sc k n B x (x * lit (2 ^ k)) := by
  obtain ⟨f, v, s⟩ := pow_lit hk1 hk
  have e := rnd_scale h.mult hn hnk
  rw [rnd_of_rep (rep_val x)] at e
  obtain ⟨f2, v2⟩ := pack_finite (s := xor x.sign false) (q := x.val * 2 ^ k) (by rw [e]; exact zpow_lt_of hk (h.le.trans hB))
  have q : x * lit (2 ^ k) = pack (xor x.sign false) (x.val * 2 ^ k) := by rw [mul_def, mul_finite h.fin f, s, v]
  refine ⟨h.fin, by rw [q]; exact f2, by rw [q, v2, e], ?_, h.mult, h.le⟩
  rw [q, pack_sign]
  have kp := two_zpow_pos k
  have hf := h.fin
  cases x with
  | nan => cases hf
  | inf _ => cases hf
  | zero a => show (if (0 : ℚ) * 2 ^ k = 0 then xor a false else _) = a; simp
  | num p hp =>
    show (if p * 2 ^ k = 0 then _ else decide (p * 2 ^ k < 0)) = decide (p < 0)
    rw [if_neg (mul_ne_zero hp.1 kp.ne')]
    congr 1
    rw [eq_iff_iff]
    constructor
    · intro h; by_contra hc
      exact absurd (mul_nonneg (not_lt.1 hc) kp.le) (not_le.2 h)
    · intro h; exact mul_neg_of_neg_of_pos h kp

theorem Sc.md (h : Sc k n B x y) : Md n B x := ⟨h.finx, h.mult, h.le⟩

/-- The scaled float is the product with the float `2^k`. -/
theorem Sc.eq_mul (h : Sc k n B x y) (hB : B ≤ 2 ^ 100) (hk1 : -126 ≤ k) (hk : k ≤ 20) (hn : -126 ≤ n) (hnk : -126 ≤ n + k) :
    y = x * lit (2 ^ k) := by
  have h' := h.md.scale hB hk1 hk hn hnk
  exact ext_finite h.finy h'.finy (h.val.trans h'.val.symm) (h.sign.trans h'.sign.symm)

end F32
end CS
