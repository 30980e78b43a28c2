import Verif.Float.F32
import Verif.Model.Tristimulus
import Mathlib.Order.WithBot

/-!
# Working with `F32`
-/

namespace CS
namespace F32
open B32

/-- `x` is finite with value `q`. -/
def Is (x : F32) (q : ℚ) : Prop := x.isFinite = true ∧ x.val = q

theorem Is.of (x : F32) (h : x.isFinite = true) : x.Is x.val := ⟨h, rfl⟩

theorem pack_isFinite {s : Bool} {q : ℚ} : (pack s q).isFinite = true ↔ |rnd q| < 2 ^ 128 := by
  constructor
  · intro h
    unfold pack at h
    split_ifs at h with h1 h2 h3
    · rw [h1]; simp
    · rw [h2]; simp
    · exact h3
    · cases h
  · exact fun h => (pack_finite h).1

theorem Is.lit {q : ℚ} (h : Rep q) (hlt : |q| < 2 ^ 128) : Is (lit q) q := pack_val_of_rep h hlt

theorem Is.litInt {n : ℤ} (h : |n| ≤ 2 ^ 24) : Is (CS.lit (n : ℚ)) n := by
  refine Is.lit (rep_int h) ?_
  have : |(n : ℚ)| ≤ 2 ^ 24 := by exact_mod_cast h
  exact this.trans_lt (by norm_num)

theorem Is.ofInt {n : ℤ} (h : |n| ≤ 2 ^ 24) : Is (Arith.ofInt n) n := Is.litInt h

theorem Is.neg {x : F32} {p : ℚ} (hx : x.Is p) : Is (-x) (-p) :=
  ⟨by rw [neg_def, neg_isFinite]; exact hx.1, by rw [neg_def, neg_val, hx.2]⟩

theorem Is.add_rnd {x y : F32} {p q : ℚ} (hx : x.Is p) (hy : y.Is q) (h : |rnd (p + q)| < 2 ^ 128) :
    Is (x + y) (rnd (p + q)) := by
  rw [add_def, add_finite hx.1 hy.1, hx.2, hy.2]
  exact pack_finite h

theorem Is.add {x y : F32} {p q : ℚ} (hx : x.Is p) (hy : y.Is q) (h : Rep (p + q)) (hlt : |p + q| < 2 ^ 128) :
    Is (x + y) (p + q) := by
  have := hx.add_rnd hy (by rwa [rnd_of_rep h])
  rwa [rnd_of_rep h] at this

theorem Is.sub_rnd {x y : F32} {p q : ℚ} (hx : x.Is p) (hy : y.Is q) (h : |rnd (p - q)| < 2 ^ 128) :
    Is (x - y) (rnd (p - q)) := by
  rw [sub_eq_add_neg] at h ⊢
  exact hx.add_rnd hy.neg h

theorem Is.sub {x y : F32} {p q : ℚ} (hx : x.Is p) (hy : y.Is q) (h : Rep (p - q)) (hlt : |p - q| < 2 ^ 128) :
    Is (x - y) (p - q) := by
  have := hx.sub_rnd hy (by rwa [rnd_of_rep h])
  rwa [rnd_of_rep h] at this

theorem Is.mul_rnd {x y : F32} {p q : ℚ} (hx : x.Is p) (hy : y.Is q) (h : |rnd (p * q)| < 2 ^ 128) :
    Is (x * y) (rnd (p * q)) := by
  rw [mul_def, mul_finite hx.1 hy.1, hx.2, hy.2]
  exact pack_finite h

theorem Is.mul {x y : F32} {p q : ℚ} (hx : x.Is p) (hy : y.Is q) (h : Rep (p * q)) (hlt : |p * q| < 2 ^ 128) :
    Is (x * y) (p * q) := by
  have := hx.mul_rnd hy (by rwa [rnd_of_rep h])
  rwa [rnd_of_rep h] at this

theorem Is.div_rnd {x y : F32} {p q : ℚ} (hx : x.Is p) (hy : y.Is q) (hq : q ≠ 0)
    (h : |rnd (p / q)| < 2 ^ 128) : Is (x / y) (rnd (p / q)) := by
  rw [div_def, div_finite hx.1 hy.1 (by rwa [hy.2]), hx.2, hy.2]
  exact pack_finite h

theorem Is.div {x y : F32} {p q : ℚ} (hx : x.Is p) (hy : y.Is q) (hq : q ≠ 0) (h : Rep (p / q))
    (hlt : |p / q| < 2 ^ 128) : Is (x / y) (p / q) := by
  have := hx.div_rnd hy hq (by rwa [rnd_of_rep h])
  rwa [rnd_of_rep h] at this

theorem Is.lt {x y : F32} {p q : ℚ} (hx : x.Is p) (hy : y.Is q) : Arith.lt x y = decide (p < q) := by
  rw [alt_def, lt_finite hx.1 hy.1, hx.2, hy.2]

theorem Is.le {x y : F32} {p q : ℚ} (hx : x.Is p) (hy : y.Is q) : Arith.le x y = decide (p ≤ q) := by
  rw [ale_def, le_finite hx.1 hy.1, hx.2, hy.2]

theorem Is.eq {x y : F32} {p q : ℚ} (hx : x.Is p) (hy : y.Is q) : Arith.eq x y = decide (p = q) := by
  rw [aeq_def, eq_finite hx.1 hy.1, hx.2, hy.2]

theorem Is.toInt {x : F32} {n : ℤ} (hx : x.Is n) (h1 : intMin ≤ n) (h2 : n ≤ intMax) :
    Arith.toInt x = some n := by
  show F32.toInt x = _
  rw [toInt_finite hx.1, hx.2, trunc_int, if_pos ⟨h1, h2⟩]

/-! Finite results come from finite operands. -/

theorem add_isFinite {x y : F32} (h : (x + y).isFinite = true) : x.isFinite = true ∧ y.isFinite = true := by
  rw [add_def] at h
  cases x <;> cases y <;> first | exact ⟨rfl, rfl⟩ | exact absurd h Bool.false_ne_true | skip
  rename_i s t
  cases s <;> cases t <;> exact absurd h Bool.false_ne_true

theorem mul_isFinite {x y : F32} (h : (x * y).isFinite = true) : x.isFinite = true ∧ y.isFinite = true := by
  rw [mul_def] at h
  cases x <;> cases y <;> first | exact ⟨rfl, rfl⟩ | exact absurd h Bool.false_ne_true

theorem add_val {x y : F32} (h : (x + y).isFinite = true) : (x + y).val = rnd (x.val + y.val) := by
  obtain ⟨hx, hy⟩ := add_isFinite h
  rw [add_def, add_finite hx hy] at h ⊢
  exact (pack_finite (pack_isFinite.1 h)).2

theorem mul_val {x y : F32} (h : (x * y).isFinite = true) : (x * y).val = rnd (x.val * y.val) := by
  obtain ⟨hx, hy⟩ := mul_isFinite h
  rw [mul_def, mul_finite hx hy] at h ⊢
  exact (pack_finite (pack_isFinite.1 h)).2

/-! The order of the data other than NaN. -/

/-- Position on the extended number line. -/
def key : F32 → WithBot (WithTop ℚ)
  | nan => ⊥
  | inf true => ⊥
  | inf false => ((⊤ : WithTop ℚ) : WithBot (WithTop ℚ))
  | x => (((x.val : ℚ) : WithTop ℚ) : WithBot (WithTop ℚ))

theorem key_finite {x : F32} (h : x.isFinite = true) : x.key = (((x.val : ℚ) : WithTop ℚ) : WithBot (WithTop ℚ)) := by
  cases x <;> first | rfl | exact absurd h Bool.false_ne_true

theorem nan_or {x : F32} (h : x.isNaN = false) : x = inf true ∨ x = inf false ∨ x.isFinite = true := by
  cases x with
  | nan => cases h
  | inf s => cases s <;> simp
  | zero _ => exact .inr (.inr rfl)
  | num _ _ => exact .inr (.inr rfl)

theorem bot_lt_key {x : F32} (h : x.isFinite = true) : ⊥ < x.key := by
  rw [key_finite h]; exact WithBot.bot_lt_coe _

theorem key_lt_top {x : F32} (h : x.isFinite = true) : x.key < ((⊤ : WithTop ℚ) : WithBot (WithTop ℚ)) := by
  rw [key_finite h, WithBot.coe_lt_coe]; exact WithTop.coe_lt_top _

theorem lt_iff {x y : F32} (hx : x.isNaN = false) (hy : y.isNaN = false) :
    Arith.lt x y = true ↔ x.key < y.key := by
  rw [alt_def]
  rcases nan_or hx with rfl | rfl | hx <;> rcases nan_or hy with rfl | rfl | hy
  · simp [F32.lt, key]
  · exact ⟨fun _ => WithBot.bot_lt_coe _, fun _ => rfl⟩
  · refine ⟨fun _ => bot_lt_key hy, fun _ => ?_⟩
    cases y <;> first | rfl | exact absurd hy Bool.false_ne_true
  · simp [F32.lt, key]
  · simp [F32.lt, key]
  · have : F32.lt (inf false) y = false := by cases y <;> rfl
    rw [this]
    exact ⟨fun h => absurd h Bool.false_ne_true, fun h => absurd h (not_lt.2 (key_lt_top hy).le)⟩
  · have : F32.lt x (inf true) = false := by cases x <;> first | rfl | exact absurd hx Bool.false_ne_true
    rw [this]
    exact ⟨fun h => absurd h Bool.false_ne_true, fun h => absurd h not_lt_bot⟩
  · have : F32.lt x (inf false) = true := by cases x <;> first | rfl | exact absurd hx Bool.false_ne_true
    exact ⟨fun _ => key_lt_top hx, fun _ => this⟩
  · rw [lt_finite hx hy, key_finite hx, key_finite hy, WithBot.coe_lt_coe, WithTop.coe_lt_coe]
    exact decide_eq_true_iff

theorem eq_iff {x y : F32} (hx : x.isNaN = false) (hy : y.isNaN = false) :
    Arith.eq x y = true ↔ x.key = y.key := by
  rw [aeq_def]
  rcases nan_or hx with rfl | rfl | hx <;> rcases nan_or hy with rfl | rfl | hy
  · simp [F32.eq, key]
  · simp [F32.eq, key]
  · have : F32.eq (inf true) y = false := by cases y <;> first | rfl | exact absurd hy Bool.false_ne_true
    rw [this]
    exact ⟨fun h => absurd h Bool.false_ne_true, fun h => absurd h (bot_lt_key hy).ne⟩
  · simp [F32.eq, key]
  · simp [F32.eq, key]
  · have : F32.eq (inf false) y = false := by cases y <;> first | rfl | exact absurd hy Bool.false_ne_true
    rw [this]
    exact ⟨fun h => absurd h Bool.false_ne_true, fun h => absurd h (key_lt_top hy).ne'⟩
  · have : F32.eq x (inf true) = false := by cases x <;> first | rfl | exact absurd hx Bool.false_ne_true
    rw [this]
    exact ⟨fun h => absurd h Bool.false_ne_true, fun h => absurd h (bot_lt_key hx).ne'⟩
  · have : F32.eq x (inf false) = false := by cases x <;> first | rfl | exact absurd hx Bool.false_ne_true
    rw [this]
    exact ⟨fun h => absurd h Bool.false_ne_true, fun h => absurd h (key_lt_top hx).ne⟩
  · rw [eq_finite hx hy, key_finite hx, key_finite hy, WithBot.coe_inj, WithTop.coe_inj]
    exact decide_eq_true_iff

theorem le_iff {x y : F32} (hx : x.isNaN = false) (hy : y.isNaN = false) :
    Arith.le x y = true ↔ x.key ≤ y.key := by
  show (F32.lt x y || F32.eq x y) = true ↔ _
  rw [Bool.or_eq_true, le_iff_lt_or_eq]
  exact or_congr (lt_iff hx hy) (eq_iff hx hy)

theorem lt_nan_left (y : F32) : Arith.lt nan y = false := rfl
theorem lt_nan_right (x : F32) : Arith.lt x nan = false := by cases x <;> rfl

theorem isNaN_iff {x : F32} : x.isNaN = true ↔ x = nan := by cases x <;> simp [isNaN]

theorem lit_zero : (lit 0 : F32) = zero false := pack_zero _

end F32
end CS
