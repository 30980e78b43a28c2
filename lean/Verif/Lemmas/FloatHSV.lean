import Verif.Lemmas.Float

/-!
# Rounding facts used for HSV in binary32
-/

namespace CS
namespace B32

/-- Representable numbers are integer multiples of `2^-149`. -/
theorem Rep.grid {p : ℚ} (hp : Rep p) : ∃ n : ℤ, p = n * 2 ^ (-149 : ℤ) := by
  obtain ⟨m, e, h1, -, h3⟩ := hp
  refine ⟨m * 2 ^ (e + 149).toNat, ?_⟩
  push_cast
  rw [mul_assoc, ← zpow_natCast, ← zpow_add₀ (by norm_num), Int.toNat_of_nonneg (by omega), h1]
  congr 2; ring

/-- Rounding a multiple of `2^-149` has no underflow error. -/
theorem rnd_grid_rel {q : ℚ} {n : ℤ} (hq : q = n * 2 ^ (-149 : ℤ)) : |rnd q - q| ≤ |q| / 2 ^ 24 := by
  rcases eq_or_ne q 0 with h0 | h0
  · rw [h0]; simp
  rcases ex_le _ h0 with h | h
  · rw [rnd_of_mul hq h.le, sub_self, abs_zero]; positivity
  · refine (rnd_err _).trans ?_
    rw [zpow_add₀ (by norm_num)] at h
    rw [le_div_iff₀ (by norm_num)]
    have : (2 : ℚ) ^ (23 : ℤ) = 2 ^ 23 := by norm_cast
    rw [this] at h
    linarith

theorem rnd_sub_rel {p q : ℚ} (hp : Rep p) (hq : Rep q) : |rnd (p - q) - (p - q)| ≤ |p - q| / 2 ^ 24 := by
  have := rnd_add_rel hp (rep_neg hq)
  rwa [← sub_eq_add_neg] at this

theorem rnd_int_mul_rel {p : ℚ} (k : ℤ) (hp : Rep p) : |rnd (k * p) - k * p| ≤ |k * p| / 2 ^ 24 := by
  obtain ⟨n, hn⟩ := hp.grid
  exact rnd_grid_rel (n := k * n) (by rw [hn]; push_cast; ring)

theorem abs_rnd_le {q r : ℚ} (hr : Rep r) (h : |q| ≤ r) : |rnd q| ≤ r :=
  abs_le.2 ⟨le_rnd (rep_neg hr) (by linarith [(abs_le.1 h).1]), rnd_le hr (abs_le.1 h).2⟩

/-- Distinct representable numbers have a positive rounded difference. -/
theorem rnd_sub_pos {p q : ℚ} (hp : Rep p) (hq : Rep q) (h : q < p) : 0 < rnd (p - q) := by
  have h1 := rnd_sub_rel hp hq
  have h2 : 0 < p - q := by linarith
  rw [abs_of_pos h2] at h1
  have h3 := (abs_le.1 h1).1
  have h4 : (p - q) / 2 ^ 24 < p - q := div_lt_self h2 (by norm_num)
  linarith

theorem rep_mul_two_pow {q : ℚ} (k : ℕ) (h : Rep q) : Rep (2 ^ k * q) := by
  obtain ⟨m, e, h1, h2, h3⟩ := h
  refine ⟨m, e + k, ?_, h2, by omega⟩
  rw [h1, zpow_add₀ (by norm_num), zpow_natCast]; ring

theorem rep_one : Rep 1 := by exact_mod_cast rep_int (n := 1) (by norm_num)

end B32

namespace F32
open B32 Tristimulus

theorem Is.rep {x : F32} {q : ℚ} (h : x.Is q) : Rep q := h.2 ▸ rep_val x
theorem Is.abs_lt {x : F32} {q : ℚ} (h : x.Is q) : |q| < 2 ^ 128 := h.2 ▸ abs_val_lt x

theorem Is.maxi {x y : F32} {p q : ℚ} (hx : x.Is p) (hy : y.Is q) : Is (Tristimulus.maxi x y) (Max.max p q) := by
  unfold Tristimulus.maxi
  rw [hy.lt hx]
  by_cases h : q < p
  · rw [if_pos (by simpa using h), max_eq_left h.le]; exact hx
  · rw [if_neg (by simpa using h), max_eq_right (not_lt.1 h)]; exact hy

theorem Is.mini {x y : F32} {p q : ℚ} (hx : x.Is p) (hy : y.Is q) : Is (Tristimulus.mini x y) (Min.min p q) := by
  unfold Tristimulus.mini
  rw [hx.lt hy]
  by_cases h : p < q
  · rw [if_pos (by simpa using h), min_eq_left h.le]; exact hx
  · rw [if_neg (by simpa using h), min_eq_right (not_lt.1 h)]; exact hy

theorem isInt (n : ℤ) (h : |n| ≤ 2 ^ 24 := by norm_num) : Is (CS.lit (n : ℚ)) n := Is.litInt h

theorem is60 : Is (lit 60) 60 := by exact_mod_cast isInt 60
theorem is120 : Is (lit 120) 120 := by exact_mod_cast isInt 120
theorem is240 : Is (lit 240) 240 := by exact_mod_cast isInt 240
theorem is1 : Is (lit 1) 1 := by exact_mod_cast isInt 1

/-- `60 * (x - y) / d` where `d` is the rounded positive range and `|x - y|` at most the range: finite,
within `2e-5` of the exact quotient and at most 64 in magnitude. -/
theorem sector {x y d : F32} {p q r : ℚ} (hx : x.Is p) (hy : y.Is q) {M m : ℚ} (hM : Rep M) (hm : Rep m)
    (hr : r = rnd (M - m)) (hd : d.Is r) (hlt : m < M) (hle : |p - q| ≤ M - m) (hb : M - m ≤ 2 ^ 121) :
    ∃ h, Is (lit 60 * (x - y) / d) h ∧ |h| ≤ 64 ∧ |h - 60 * (p - q) / (M - m)| ≤ 1 / 50000 := by
  have hrp : 0 < r := hr ▸ rnd_sub_pos hM hm hlt
  have hrr : Rep r := hr ▸ rep_rnd _
  have rep121 : Rep (2 ^ 121) := by exact_mod_cast rep_two_zpow (e := 121) (by norm_num)
  have hr121 : r ≤ 2 ^ 121 := hr ▸ rnd_le rep121 hb
  have hk : |rnd (p - q)| ≤ r := by
    rw [hr, abs_le]
    constructor
    · rw [← rnd_neg]; exact rnd_mono (abs_le.1 hle).1
    · exact rnd_mono (abs_le.1 hle).2
  have i1 := hx.sub_rnd hy (by norm_num at hr121 ⊢; linarith)
  have rep64 : Rep (2 ^ 6 * r) := rep_mul_two_pow 6 hrr
  have h60 : |60 * rnd (p - q)| ≤ 2 ^ 6 * r := by
    rw [abs_mul, abs_of_pos (by norm_num : (0 : ℚ) < 60)]; nlinarith [abs_nonneg (rnd (p - q))]
  have hK : |rnd (60 * rnd (p - q))| ≤ 2 ^ 6 * r := abs_rnd_le rep64 h60
  have i2 := is60.mul_rnd i1 (by norm_num at hr121 hK ⊢; linarith)
  have hQ : |rnd (60 * rnd (p - q)) / r| ≤ 64 := by
    rw [abs_div, abs_of_pos hrp, div_le_iff₀ hrp]; norm_num at hK; linarith
  have rep64' : Rep 64 := by exact_mod_cast rep_int (n := 64) (by norm_num)
  have hH := abs_rnd_le rep64' hQ
  have i3 := i2.div_rnd hd hrp.ne' (by norm_num at hH ⊢; linarith)
  refine ⟨_, i3, hH, ?_⟩
  -- errors
  have e1 := rnd_sub_rel hx.rep hy.rep
  have e2 := rnd_int_mul_rel 60 (rep_rnd (p - q))
  push_cast at e2
  have e3 := rnd_sub_rel hM hm
  rw [← hr, abs_of_pos (by linarith : (0 : ℚ) < M - m)] at e3
  have e4 := rnd_rel' (rnd (60 * rnd (p - q)) / r)
  set k := rnd (p - q)
  set K := rnd (60 * k)
  set H := rnd (K / r)
  have hD : 0 < M - m := by linarith
  set D := M - m
  -- |K - 60 (p - q)| ≤ c D
  have a1 : |k - (p - q)| ≤ D / 2 ^ 24 := e1.trans (by gcongr)
  have a2 : |K - 60 * k| ≤ 60 * r / 2 ^ 24 := e2.trans (by
    rw [abs_mul, abs_of_pos (by norm_num : (0 : ℚ) < 60)]; gcongr)
  have a3 : r ≤ D + D / 2 ^ 24 := by linarith [(abs_le.1 e3).2]
  have a3' : D - D / 2 ^ 24 ≤ r := by linarith [(abs_le.1 e3).1]
  have a4 : |K - 60 * (p - q)| ≤ 60 * r / 2 ^ 24 + 60 * (D / 2 ^ 24) := by
    have := abs_add_le (K - 60 * k) (60 * (k - (p - q)))
    rw [abs_mul, abs_of_pos (by norm_num : (0 : ℚ) < 60)] at this
    rw [show K - 60 * k + 60 * (k - (p - q)) = K - 60 * (p - q) by ring] at this
    linarith
  have a5 : |60 * (p - q) / r - 60 * (p - q) / D| ≤ 60 * (D / 2 ^ 24) / r := by
    rw [show 60 * (p - q) / r - 60 * (p - q) / D = 60 * ((p - q) / D) * (D - r) / r by field_simp]
    rw [abs_div, abs_of_pos hrp]
    refine div_le_div_of_nonneg_right ?_ hrp.le
    rw [abs_mul, abs_mul, abs_of_pos (by norm_num : (0 : ℚ) < 60), abs_div, abs_of_pos hD]
    have : |p - q| / D ≤ 1 := by rw [div_le_one hD]; exact hle
    have h2 : |D - r| ≤ D / 2 ^ 24 := by rw [abs_sub_comm]; exact e3
    have h3 : 0 ≤ |p - q| / D := by positivity
    calc 60 * (|p - q| / D) * |D - r| ≤ 60 * 1 * (D / 2 ^ 24) := by gcongr
      _ = _ := by ring
  have a6 : |K / r - 60 * (p - q) / r| ≤ (60 * r / 2 ^ 24 + 60 * (D / 2 ^ 24)) / r := by
    rw [← sub_div, abs_div, abs_of_pos hrp]; gcongr
  have a7 : D / r ≤ 101 / 100 := by
    rw [div_le_iff₀ hrp]; norm_num at a3'; linarith
  have a8 : (60 * r / 2 ^ 24 + 60 * (D / 2 ^ 24)) / r = 60 / 2 ^ 24 + 60 / 2 ^ 24 * (D / r) := by
    field_simp
  have a9 : 60 * (D / 2 ^ 24) / r = 60 / 2 ^ 24 * (D / r) := by field_simp
  rw [a8] at a6
  rw [a9] at a5
  have b1 : |H - 60 * (p - q) / D| ≤ |H - K / r| + |K / r - 60 * (p - q) / r| +
      |60 * (p - q) / r - 60 * (p - q) / D| := by
    have t1 := abs_add_le (H - K / r) (K / r - 60 * (p - q) / r)
    have t2 := abs_add_le (H - K / r + (K / r - 60 * (p - q) / r)) (60 * (p - q) / r - 60 * (p - q) / D)
    rw [show H - K / r + (K / r - 60 * (p - q) / r) + (60 * (p - q) / r - 60 * (p - q) / D) =
      H - 60 * (p - q) / D by ring] at t2
    linarith
  norm_num at e4 a5 a6 ⊢
  linarith

end F32
end CS
