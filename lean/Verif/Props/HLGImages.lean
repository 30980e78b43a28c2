import Verif.Props.HLGFloat
import Verif.Props.HDRFloat
import Verif.Lemmas.FloatInterval

/-!
# C137: HLG images through XYZ and the RGB spaces, in single precision

The HLG curve is a square root near black, so the absolute error that a conversion leaves in a dark channel beside a bright
one is amplified.  All pixels of 7 bits keep their codes; 8-bit pixels do if no channel exceeds 3.8 (signal 0.77), 10-bit pixels if
no channel exceeds 0.23; pixels whose channels are within a ratio 200 (10 bits) or 50 (12 bits) of each other always do.
-/

namespace CS
open F32 B32 OTF Spec

namespace HLGImg

theorem hlg_lo {x : ℝ} (h : x < 1) : hlg x = √x / 2 := by unfold hlg; rw [if_pos h]
theorem hlg_hi {x : ℝ} (h : 1 ≤ x) : hlg x = 0.17883277 * Real.log (x - 0.28466892) + 0.55991073 := by
  unfold hlg; rw [if_neg (not_lt.2 h)]
theorem hlg_zero : hlg 0 = 0 := by rw [hlg_lo (by norm_num)]; simp

theorem sqrt_one_sub {x : ℝ} (x0 : 0 ≤ x) (x1 : x ≤ 1) : 1 - √x ≤ 1 - x := by
  have : x ≤ √x := Real.le_sqrt_of_sq_le (by nlinarith)
  linarith

/-- Between the segments. -/
theorem hlg_across {x y : ℝ} (x0 : 0 ≤ x) (x1 : x < 1) (y1 : 1 ≤ y) :
    0 ≤ hlg y - hlg x ∧ hlg y - hlg x ≤ 0.5 * (y - x) + 1e-9 := by
  obtain ⟨a, b⟩ := hlg_above (y := y) (e := y - 1) y1 (by linarith)
  have s1 : √x ≤ 1 := by rw [Real.sqrt_le_left (by norm_num)]; linarith
  have s2 := sqrt_one_sub x0 x1.le
  rw [hlg_lo x1, hlg_hi y1]
  constructor <;> linarith

/-- On the logarithmic segment. -/
theorem hlg_log {x y : ℝ} (x1 : 1 ≤ x) (h : x ≤ y) :
    0 ≤ hlg y - hlg x ∧ hlg y - hlg x ≤ 0.251 * (y - x) / x := by
  rw [hlg_hi x1, hlg_hi (x1.trans h)]
  have hx : 0 < x - 0.28466892 := by linarith
  have l0 := Real.log_le_log hx (sub_le_sub_right h 0.28466892)
  have l1 : Real.log (y - 0.28466892) - Real.log (x - 0.28466892) ≤ (y - x) / (x - 0.28466892) := by
    rw [← Real.log_div (by linarith) hx.ne']
    refine (Real.log_le_sub_one_of_pos (div_pos (by linarith) hx)).trans (le_of_eq ?_)
    field_simp; ring
  refine ⟨by linarith, ?_⟩
  have l2 : 0.17883277 * ((y - x) / (x - 0.28466892)) ≤ 0.251 * (y - x) / x := by
    rw [← mul_div_assoc, div_le_div_iff₀ hx (by linarith)]
    nlinarith
  linarith

theorem hlg_mono_holder {x y : ℝ} (x0 : 0 ≤ x) (h : x ≤ y) (hd : y - x ≤ 1) :
    0 ≤ hlg y - hlg x ∧ hlg y - hlg x ≤ √(y - x) / 2 + 1e-9 := by
  have d0 : 0 ≤ y - x := by linarith
  have s2 := sqrt_one_sub d0 hd
  rcases lt_or_ge y 1 with y1 | y1
  · rw [hlg_lo y1, hlg_lo (h.trans_lt y1)]
    have a := Real.sqrt_le_sqrt h
    have b : √y ≤ √x + √(y - x) := by
      rw [Real.sqrt_le_left (by positivity)]
      have h1 := Real.sq_sqrt x0
      have h2 := Real.sq_sqrt d0
      have h3 : 0 ≤ √x * √(y - x) := by positivity
      nlinarith
    constructor <;> linarith
  · rcases lt_or_ge x 1 with x1 | x1
    · obtain ⟨a, b⟩ := hlg_across x0 x1 y1
      exact ⟨a, by linarith⟩
    · obtain ⟨a, b⟩ := hlg_log x1 h
      have : 0.251 * (y - x) / x ≤ 0.251 * (y - x) := div_le_self (by linarith) x1
      exact ⟨a, by linarith⟩

/-- The published curve is Hölder continuous of order 1/2. -/
theorem hlg_holder {x y d : ℝ} (x0 : 0 ≤ x) (y0 : 0 ≤ y) (h : |x - y| ≤ d) (hd : d ≤ 1) :
    |hlg x - hlg y| ≤ √d / 2 + 1e-9 := by
  obtain ⟨h1, h2⟩ := abs_le.1 h
  rcases le_total x y with hxy | hxy
  · obtain ⟨a, b⟩ := hlg_mono_holder x0 hxy (by linarith)
    have := Real.sqrt_le_sqrt (show y - x ≤ d by linarith)
    rw [abs_sub_comm, abs_of_nonneg a]; linarith
  · obtain ⟨a, b⟩ := hlg_mono_holder y0 hxy (by linarith)
    have := Real.sqrt_le_sqrt (show x - y ≤ d by linarith)
    rw [abs_of_nonneg a]; linarith

/-- A relative change of the light. -/
theorem hlg_rel {x y ρ : ℝ} (x0 : 0 ≤ x) (y0 : 0 ≤ y) (h : |x - y| ≤ ρ * y) (hρ0 : 0 ≤ ρ) (hρ : ρ ≤ 1.5e-3) :
    |hlg x - hlg y| ≤ 0.502 * ρ + 1e-9 := by
  obtain ⟨h1, h2⟩ := abs_le.1 h
  rcases lt_or_ge x 1 with x1 | x1 <;> rcases lt_or_ge y 1 with y1 | y1
  · rw [hlg_lo x1, hlg_lo y1]
    rcases eq_or_lt_of_le y0 with hy | hy
    · rw [← hy, mul_zero, sub_zero] at h
      have : x = 0 := by simpa using le_antisymm h (abs_nonneg _)
      rw [this, ← hy]; simp; positivity
    have sp := Real.sqrt_pos.2 hy
    have s1 : √y ≤ 1 := by rw [Real.sqrt_le_left (by norm_num)]; linarith
    have e : |√x - √y| * √y ≤ ρ * y := by
      refine le_trans ?_ h
      have q : x - y = (√x - √y) * (√x + √y) := by
        have h1 := Real.sq_sqrt x0
        have h2 := Real.sq_sqrt y0
        nlinarith
      have sx := Real.sqrt_nonneg x
      rw [q, abs_mul, abs_of_nonneg (a := √x + √y) (by positivity)]
      exact mul_le_mul_of_nonneg_left (by linarith) (abs_nonneg _)
    have e2 : |√x - √y| ≤ ρ * √y := by
      have q : ρ * y = ρ * √y * √y := by rw [mul_assoc, Real.mul_self_sqrt y0]
      rw [q] at e
      exact le_of_mul_le_mul_right e sp
    have e3 : ρ * √y ≤ ρ * 1 := mul_le_mul_of_nonneg_left s1 hρ0
    rw [← sub_div, abs_div, abs_of_pos (by norm_num : (0 : ℝ) < 2)]
    linarith
  · obtain ⟨a, b⟩ := hlg_across x0 x1 y1
    have : y ≤ 1.002 := by nlinarith
    have : ρ * y ≤ ρ * 1.002 := mul_le_mul_of_nonneg_left this hρ0
    rw [abs_sub_comm, abs_of_nonneg a]; linarith
  · obtain ⟨a, b⟩ := hlg_across y0 y1 x1
    have : ρ * y ≤ ρ * 1 := mul_le_mul_of_nonneg_left y1.le hρ0
    rw [abs_of_nonneg a]; linarith
  · rcases le_total x y with hxy | hxy
    · obtain ⟨a, b⟩ := hlg_log x1 hxy
      rw [abs_sub_comm, abs_of_nonneg a]
      have : 0.251 * (y - x) / x ≤ 0.502 * ρ := by
        rw [div_le_iff₀ (by linarith)]
        have : y ≤ 1.01 * x := by nlinarith
        have := mul_le_mul_of_nonneg_left this hρ0
        nlinarith
      linarith
    · obtain ⟨a, b⟩ := hlg_log y1 hxy
      rw [abs_of_nonneg a]
      have : 0.251 * (x - y) / y ≤ 0.502 * ρ := by
        rw [div_le_iff₀ (by linarith)]
        nlinarith
      linarith

/-- A relative change of the light and a tiny absolute one. -/
theorem hlg_mixed {x y ρ η : ℝ} (x0 : 0 ≤ x) (y0 : 0 ≤ y) (h : |x - y| ≤ ρ * y + η) (hρ0 : 0 ≤ ρ) (hρ : ρ ≤ 1.5e-3)
    (η0 : 0 ≤ η) (hη : η ≤ 1e-30) : |hlg x - hlg y| ≤ 0.502 * ρ + 3e-9 := by
  obtain ⟨h1, h2⟩ := abs_le.1 h
  have p : 0 ≤ ρ * y := mul_nonneg hρ0 y0
  obtain ⟨m, m0, m1, m2⟩ : ∃ m, 0 ≤ m ∧ |m - y| ≤ ρ * y ∧ |x - m| ≤ η := by
    have : ρ * y ≤ 1 * y := mul_le_mul_of_nonneg_right (by linarith) y0
    rcases le_total x (y - ρ * y) with c | c
    · exact ⟨y - ρ * y, by linarith, by rw [abs_le]; constructor <;> linarith, by rw [abs_le]; constructor <;> linarith⟩
    · rcases le_total x (y + ρ * y) with c' | c'
      · exact ⟨x, x0, by rw [abs_le]; constructor <;> linarith, by simpa using η0⟩
      · exact ⟨y + ρ * y, by linarith, by rw [abs_le]; constructor <;> linarith, by rw [abs_le]; constructor <;> linarith⟩
  have a := hlg_rel m0 y0 m1 hρ0 hρ
  have b := hlg_holder x0 m0 m2 (by linarith)
  have s : √η ≤ 1e-15 := by rw [Real.sqrt_le_left (by norm_num)]; exact hη.trans (by norm_num)
  have := abs_sub_le (hlg x) (hlg m) (hlg y)
  linarith

theorem hlgInv_le {v : ℝ} (v0 : 0 ≤ v) (v1 : v ≤ 1) : 0 ≤ hlgInv v ∧ hlgInv v ≤ 12.39 := by
  unfold hlgInv
  split_ifs with h
  · constructor <;> nlinarith
  · have ep := Real.exp_pos ((v - 0.55991073) / 0.17883277)
    have hX : (v - 0.55991073) / 0.17883277 ≤ 2.461 := by rw [div_le_iff₀ (by norm_num)]; linarith
    have h3 := Real.exp_le_exp.2 hX
    have e1 : Real.exp 2.461 = Real.exp 1 ^ 2 * Real.exp 0.11525 ^ 4 := by
      rw [← Real.exp_nat_mul, ← Real.exp_nat_mul, ← Real.exp_add]; norm_num
    have e2 : Real.exp 0.11525 ≤ 1.1303 := by
      have a := Real.add_one_le_exp (-0.11525 : ℝ)
      rw [Real.exp_neg] at a
      have b := Real.exp_pos (0.11525 : ℝ)
      have c : (-0.11525 + 1) * Real.exp 0.11525 ≤ 1 := by
        calc (-0.11525 + 1) * Real.exp 0.11525 ≤ (Real.exp 0.11525)⁻¹ * Real.exp 0.11525 :=
              mul_le_mul_of_nonneg_right a b.le
          _ = 1 := inv_mul_cancel₀ b.ne'
      nlinarith
    have e3 := Real.exp_one_lt_d9
    have e4 : Real.exp 1 ^ 2 * Real.exp 0.11525 ^ 4 ≤ 2.7182818286 ^ 2 * 1.1303 ^ 4 := by gcongr
    have e5 : (2.7182818286 : ℝ) ^ 2 * 1.1303 ^ 4 ≤ 12.1 := by norm_num
    constructor <;> linarith

/-- The libraries: `sqrtf`, `logf`, `expf` of the stated accuracies. -/
structure Lib (o : F32.Oracle) : Prop where
  sqrt : o.SqrtAccurate (2 ^ (-23 : ℤ))
  log : o.LogAccurate (2 ^ (-22 : ℤ))
  exp : o.ExpAccurate (2 ^ (-22 : ℤ))

/-- The encoder on any finite light. -/
theorem enc {o : F32.Oracle} (ho : Lib o) {x : F32} (hx : x.isFinite = true) (h : x.val ≤ 2 ^ 60) :
    Ap (@Y_to_HLG F32 (F32.libm o) x) (hlg (max (x.val : ℝ) 0)) (5e-7 * hlg (max (x.val : ℝ) 0) + 1e-20) := by
  rcases lt_or_ge x.val 0 with c | c
  · have c' : (x.val : ℝ) < 0 := by exact_mod_cast c
    have e : @Y_to_HLG F32 (F32.libm o) x = Arith.lit 0 := by
      unfold Y_to_HLG
      simp only
      rw [lt_lit hx (q := 0) (c := 0) (by decide +kernel), if_pos (by simpa using c)]
    rw [e, max_eq_right c'.le, hlg_zero]
    exact lit_ap0.weaken (by norm_num)
  · have c' : (0 : ℝ) ≤ x.val := by exact_mod_cast c
    obtain ⟨f, d⟩ := C90_encode o ho.sqrt ho.log x hx c h
    rw [max_eq_left c']
    have t : (1 : ℝ) / 2 ^ 149 ≤ 1e-20 := by norm_num
    exact ⟨f, d.trans (by linarith)⟩

/-- The decoded signal: close to the published one. -/
theorem dec {o : F32.Oracle} (ho : Lib o) {v : F32} (hv : v.isFinite = true) (h0 : (0 : ℝ) ≤ v.val) (h1 : (v.val : ℝ) ≤ 1) :
    (@HLG_to_Y F32 (F32.libm o) v).isFinite = true ∧ |((@HLG_to_Y F32 (F32.libm o) v).val : ℝ)| ≤ 12.4 ∧
    |hlg (max ((@HLG_to_Y F32 (F32.libm o) v).val : ℝ) 0) - v.val| ≤ 1.1e-6 := by
  obtain ⟨f, d⟩ := C90_decode o ho.exp v hv (by exact_mod_cast h0) (by exact_mod_cast h1)
  obtain ⟨i0, i1⟩ := hlgInv_le h0 h1
  have t : (1 : ℝ) / 2 ^ 148 ≤ 1e-20 := by norm_num
  generalize @HLG_to_Y F32 (F32.libm o) v = y at *
  refine ⟨f, ?_, hlg_back h0 h1 (le_max_right _ _) (le_trans ?_ d)⟩
  · obtain ⟨a, b⟩ := abs_le.1 d
    rw [abs_le]; constructor <;> linarith
  · rcases le_total (y.val : ℝ) 0 with c | c
    · rw [max_eq_right c, abs_sub_comm, abs_of_nonneg (by linarith), abs_sub_comm, abs_of_nonneg (by linarith)]
      linarith
    · rw [max_eq_left c]

theorem max_close {a b d : ℝ} (h : |a - b| ≤ d) : |max a 0 - max b 0| ≤ d :=
  (abs_max_sub_max_le_abs a b 0).trans h

/-- From the change of the curve to the change of the code. -/
theorem finish {o : F32.Oracle} (ho : Lib o) {v x : F32} (hv : v.isFinite = true) (h0 : (0 : ℝ) ≤ v.val) (h1 : (v.val : ℝ) ≤ 1)
    (hx : x.isFinite = true) (hx1 : x.val ≤ 2 ^ 60) {E : ℝ} (hE : E ≤ 0.1)
    (h : |hlg (max (x.val : ℝ) 0) - hlg (max ((@HLG_to_Y F32 (F32.libm o) v).val : ℝ) 0)| ≤ E) :
    Ap (@Y_to_HLG F32 (F32.libm o) x) v.val (E + 1.7e-6) := by
  obtain ⟨-, -, d⟩ := dec ho hv h0 h1
  have e := enc ho hx hx1
  refine ⟨e.fin, ?_⟩
  have e' := e.err
  generalize hlg (max (x.val : ℝ) 0) = p at *
  generalize hlg (max ((@HLG_to_Y F32 (F32.libm o) v).val : ℝ) 0) = q at *
  obtain ⟨a1, a2⟩ := abs_le.1 d
  obtain ⟨b1, b2⟩ := abs_le.1 h
  obtain ⟨c1, c2⟩ := abs_le.1 e'
  rw [abs_le]; constructor <;> linarith

/-- A light changed by at most `d`. -/
theorem trip_abs {o : F32.Oracle} (ho : Lib o) {v x : F32} (hv : v.isFinite = true) (h0 : (0 : ℝ) ≤ v.val) (h1 : (v.val : ℝ) ≤ 1)
    (hx : x.isFinite = true) {d : ℝ} (hd : d ≤ 1e-2) (h : |(x.val : ℝ) - (@HLG_to_Y F32 (F32.libm o) v).val| ≤ d) :
    Ap (@Y_to_HLG F32 (F32.libm o) x) v.val (√d / 2 + 1.8e-6) := by
  obtain ⟨f, b, -⟩ := dec ho hv h0 h1
  have s : √d ≤ 0.1 := by rw [Real.sqrt_le_left (by norm_num)]; exact hd.trans (by norm_num)
  refine (finish ho hv h0 h1 hx ?_ (E := √d / 2 + 1e-9) (by linarith)
    (hlg_holder (le_max_right _ _) (le_max_right _ _) (max_close h) (by linarith))).weaken (by linarith)
  have b1 := (abs_le.1 b).2
  have h1 := (abs_le.1 h).2
  have : (x.val : ℝ) ≤ ((2 ^ 60 : ℚ) : ℝ) := by push_cast; norm_num; linarith
  exact_mod_cast this

/-- A light changed by a factor within `1 ± ρ`, and hardly more. -/
theorem trip_rel {o : F32.Oracle} (ho : Lib o) {v x : F32} (hv : v.isFinite = true) (h0 : (0 : ℝ) ≤ v.val) (h1 : (v.val : ℝ) ≤ 1)
    (hx : x.isFinite = true) {ρ : ℝ} (hρ0 : 0 ≤ ρ) (hρ : ρ ≤ 1.5e-3)
    (h : |(x.val : ℝ) - (@HLG_to_Y F32 (F32.libm o) v).val| ≤ ρ * (@HLG_to_Y F32 (F32.libm o) v).val + 1 / 2 ^ 140) :
    Ap (@Y_to_HLG F32 (F32.libm o) x) v.val (0.502 * ρ + 1.8e-6) := by
  obtain ⟨f, b, -⟩ := dec ho hv h0 h1
  have t : (1 : ℝ) / 2 ^ 140 ≤ 1e-30 := by norm_num
  have t0 : (0 : ℝ) ≤ 1 / 2 ^ 140 := by positivity
  generalize (1 : ℝ) / 2 ^ 140 = η at *
  have b1 := (abs_le.1 b).2
  have h2 := (abs_le.1 h).2
  refine (finish ho hv h0 h1 hx ?_ (E := 0.502 * ρ + 3e-9) (by linarith) (hlg_mixed (le_max_right _ _) (le_max_right _ _)
    ((max_close h).trans ?_) hρ0 hρ t0 t)).weaken (by linarith)
  · have : ρ * (@HLG_to_Y F32 (F32.libm o) v).val ≤ 1 * 12.4 := by
      refine (mul_le_mul_of_nonneg_left b1 hρ0).trans ?_
      exact mul_le_mul_of_nonneg_right (by linarith) (by norm_num)
    have : (x.val : ℝ) ≤ ((2 ^ 60 : ℚ) : ℝ) := by push_cast; norm_num; linarith
    exact_mod_cast this
  · exact add_le_add (mul_le_mul_of_nonneg_left (le_max_left _ _) hρ0) le_rfl

/-- From the signal to the code. -/
theorem to_code {w v : F32} {N n : ℕ} (hN : 0 < N) {E : ℝ} (h : Ap w v.val E) (hc : Ap v (n / N) 6e-8) (hE : (E + 6e-8) * N < 1 / 2) :
    w.isFinite = true ∧ |w.val * N - n| < 1 / 2 := by
  refine ⟨h.fin, ?_⟩
  have Np : (0 : ℝ) < N := by exact_mod_cast hN
  have e : |(w.val : ℝ) - n / N| ≤ E + 6e-8 := (abs_sub_le _ (v.val : ℝ) _).trans (add_le_add h.err hc.err)
  have h5 : |(w.val : ℝ) * N - n| < 1 / 2 := by
    rw [show (w.val : ℝ) * N - n = (w.val - n / N) * N by field_simp, abs_mul, abs_of_pos Np]
    exact (mul_le_mul_of_nonneg_right e Np.le).trans_lt hE
  have : ((|w.val * N - n| : ℚ) : ℝ) < ((1 / 2 : ℚ) : ℝ) := by push_cast; exact h5
  exact_mod_cast this

/-- The largest magnitude of a decoded pixel. -/
def peak (t : Tristimulus F32) : ℚ := max |t.a.val| (max |t.b.val| |t.c.val|)

theorem within_peak {t : Tristimulus F32} (ha : t.a.isFinite = true) (hb : t.b.isFinite = true) (hc : t.c.isFinite = true) :
    Within t (peak t) :=
  ⟨⟨ha, le_max_left _ _⟩, ⟨hb, (le_max_left _ _).trans (le_max_right _ _)⟩, hc, (le_max_right _ _).trans (le_max_right _ _)⟩

/-- What the conversions of the header do to a colour. -/
def Gentle (f : Tristimulus F32 → Tristimulus F32) : Prop :=
  ∀ C ≤ 2 ^ 100, ∀ t, Within t C → Near (f t) t (4e-6 * C + 1 / 2 ^ 140)

section
variable {o : F32.Oracle} (ho : Lib o) (g : F32) {N i j k : ℕ} (hN : 0 < N) (hN' : N ≤ 4095) (hi : i ≤ N) (hj : j ≤ N) (hk : k ≤ N)
  {f : Tristimulus F32 → Tristimulus F32} (hf : Gentle f)
include ho hN hN' hi hj hk hf

omit hf in
theorem scene_within_peak :
    Within (@toScene F32 (F32.libm o) .HLG (pixel N i j k) g) (peak (@toScene F32 (F32.libm o) .HLG (pixel N i j k) g)) ∧
    peak (@toScene F32 (F32.libm o) .HLG (pixel N i j k) g) ≤ 12.4 := by
  have key : ∀ {n : ℕ}, n ≤ N → (@HLG_to_Y F32 (F32.libm o) (Arith.ofInt n / Arith.ofInt N)).isFinite = true ∧
      |(@HLG_to_Y F32 (F32.libm o) (Arith.ofInt n / Arith.ofInt N)).val| ≤ 12.4 := by
    intro n hn
    obtain ⟨h1, h2⟩ := code_ap hN (hN'.trans (by norm_num)) hn
    obtain ⟨a, b, -⟩ := dec ho h1.fin h2.1 h2.2
    refine ⟨a, ?_⟩
    have : ((|(@HLG_to_Y F32 (F32.libm o) (Arith.ofInt n / Arith.ofInt N)).val| : ℚ) : ℝ) ≤ ((12.4 : ℚ) : ℝ) := by
      push_cast; norm_num at b ⊢; exact b
    exact_mod_cast this
  exact ⟨within_peak (key hi).1 (key hj).1 (key hk).1, max_le (key hi).2 (max_le (key hj).2 (key hk).2)⟩

/-- All channels at most `M`. -/
theorem bright {M : ℚ} (hM : peak (@toScene F32 (F32.libm o) .HLG (pixel N i j k) g) ≤ M) (hM' : M ≤ 13) {r : ℝ} (hr : 0 ≤ r)
    (hr2 : 4.0001e-6 * (M : ℝ) + 1e-30 ≤ r ^ 2) (hE : (r / 2 + 1.9e-6) * N < 1 / 2) :
    HasCodes N i j k (@toScreen F32 (F32.libm o) .HLG (f (@toScene F32 (F32.libm o) .HLG (pixel N i j k) g)) g) := by
  obtain ⟨w, p⟩ := scene_within_peak ho g hN hN' hi hj hk
  obtain ⟨⟨fa, fb, fc⟩, da, db, dc⟩ := hf _ (p.trans (by norm_num)) _ w
  have key : ∀ {n : ℕ} {x : F32}, n ≤ N → x.isFinite = true →
      |x.val - (@HLG_to_Y F32 (F32.libm o) (Arith.ofInt n / Arith.ofInt N)).val| ≤
        4e-6 * peak (@toScene F32 (F32.libm o) .HLG (pixel N i j k) g) + 1 / 2 ^ 140 →
      (@Y_to_HLG F32 (F32.libm o) x).isFinite = true ∧ |(@Y_to_HLG F32 (F32.libm o) x).val * N - n| < 1 / 2 := by
    intro n x hn hx hd
    obtain ⟨h1, h2⟩ := code_ap hN (hN'.trans (by norm_num)) hn
    have hd' : |(x.val : ℝ) - (@HLG_to_Y F32 (F32.libm o) (Arith.ofInt n / Arith.ofInt N)).val| ≤ 4.0001e-6 * (M : ℝ) + 1e-30 := by
      have m0 : 0 ≤ M := le_trans (le_trans (abs_nonneg _) (le_max_left _ _)) hM
      have : |x.val - (@HLG_to_Y F32 (F32.libm o) (Arith.ofInt n / Arith.ofInt N)).val| ≤ 4.0001e-6 * M + 1e-30 := by
        have t : (1 : ℚ) / 2 ^ 140 ≤ 1e-30 := by norm_num
        generalize (1 : ℚ) / 2 ^ 140 = η at *
        linarith
      have := (Rat.cast_le (K := ℝ)).2 this
      push_cast at this
      norm_num at this ⊢
      exact this
    have hM2 : (M : ℝ) ≤ 13 := by exact_mod_cast hM'
    have a := trip_abs ho h1.fin h2.1 h2.2 hx (by linarith) hd'
    have s : √(4.0001e-6 * (M : ℝ) + 1e-30) ≤ r := by rw [Real.sqrt_le_left hr]; exact hr2
    exact to_code hN (a.weaken (show _ ≤ r / 2 + 1.8e-6 by linarith)) h1 (lt_of_le_of_lt
      (mul_le_mul_of_nonneg_right (by linarith) (by positivity)) hE)
  obtain ⟨a1, a2⟩ := key hi fa da
  obtain ⟨b1, b2⟩ := key hj fb db
  obtain ⟨c1, c2⟩ := key hk fc dc
  exact ⟨⟨a1, b1, c1⟩, a2, b2, c2⟩

/-- The channels within a ratio `R` of each other. -/
theorem comparable {R : ℚ} (hR0 : 1 < R) (hR : R ≤ 300)
    (hc : Comparable R (@toScene F32 (F32.libm o) .HLG (pixel N i j k) g)) (hE : (2.01e-6 * (R : ℝ) + 1.9e-6) * N < 1 / 2) :
    HasCodes N i j k (@toScreen F32 (F32.libm o) .HLG (f (@toScene F32 (F32.libm o) .HLG (pixel N i j k) g)) g) := by
  obtain ⟨w, p⟩ := scene_within_peak ho g hN hN' hi hj hk
  obtain ⟨⟨fa, fb, fc⟩, da, db, dc⟩ := hf _ (p.trans (by norm_num)) _ w
  have hp : ∀ x ∈ [(@toScene F32 (F32.libm o) .HLG (pixel N i j k) g).a, (@toScene F32 (F32.libm o) .HLG (pixel N i j k) g).b,
      (@toScene F32 (F32.libm o) .HLG (pixel N i j k) g).c], 0 ≤ x.val := by
    intro x hx
    have := hc x hx x hx
    by_contra hh
    push Not at hh
    nlinarith
  have big : ∀ y ∈ [(@toScene F32 (F32.libm o) .HLG (pixel N i j k) g).a, (@toScene F32 (F32.libm o) .HLG (pixel N i j k) g).b,
      (@toScene F32 (F32.libm o) .HLG (pixel N i j k) g).c], peak (@toScene F32 (F32.libm o) .HLG (pixel N i j k) g) ≤ R * y.val := by
    intro y hy
    unfold peak
    rw [abs_of_nonneg (hp _ (by simp)), abs_of_nonneg (hp _ (by simp)), abs_of_nonneg (hp _ (by simp))]
    exact max_le (hc _ (by simp) y hy) (max_le (hc _ (by simp) y hy) (hc _ (by simp) y hy))
  have key : ∀ {n : ℕ} {x : F32}, n ≤ N → x.isFinite = true →
      |x.val - (@HLG_to_Y F32 (F32.libm o) (Arith.ofInt n / Arith.ofInt N)).val| ≤
        4e-6 * peak (@toScene F32 (F32.libm o) .HLG (pixel N i j k) g) + 1 / 2 ^ 140 →
      peak (@toScene F32 (F32.libm o) .HLG (pixel N i j k) g) ≤ R * (@HLG_to_Y F32 (F32.libm o) (Arith.ofInt n / Arith.ofInt N)).val →
      (@Y_to_HLG F32 (F32.libm o) x).isFinite = true ∧ |(@Y_to_HLG F32 (F32.libm o) x).val * N - n| < 1 / 2 := by
    intro n x hn hx hd hb
    obtain ⟨h1, h2⟩ := code_ap hN (hN'.trans (by norm_num)) hn
    have hR' : (R : ℝ) ≤ 300 := by exact_mod_cast hR
    have hR0' : (0 : ℝ) ≤ R := by exact_mod_cast (zero_lt_one.trans hR0).le
    have hd' : |(x.val : ℝ) - (@HLG_to_Y F32 (F32.libm o) (Arith.ofInt n / Arith.ofInt N)).val| ≤
        4e-6 * (R : ℝ) * (@HLG_to_Y F32 (F32.libm o) (Arith.ofInt n / Arith.ofInt N)).val + 1 / 2 ^ 140 := by
      have : |x.val - (@HLG_to_Y F32 (F32.libm o) (Arith.ofInt n / Arith.ofInt N)).val| ≤
          4e-6 * R * (@HLG_to_Y F32 (F32.libm o) (Arith.ofInt n / Arith.ofInt N)).val + 1 / 2 ^ 140 := by
        generalize (1 : ℚ) / 2 ^ 140 = η at *
        linarith
      have := (Rat.cast_le (K := ℝ)).2 this
      push_cast at this
      norm_num at this ⊢
      exact this
    have a := trip_rel ho h1.fin h2.1 h2.2 hx (by positivity) (by linarith) hd'
    exact to_code hN (a.weaken (show _ ≤ 2.01e-6 * (R : ℝ) + 1.8e-6 by linarith)) h1 (lt_of_le_of_lt
      (mul_le_mul_of_nonneg_right (by linarith) (by positivity)) hE)
  obtain ⟨a1, a2⟩ := key hi fa da (big _ List.mem_cons_self)
  obtain ⟨b1, b2⟩ := key hj fb db (big _ (List.mem_cons_of_mem _ List.mem_cons_self))
  obtain ⟨c1, c2⟩ := key hk fc dc (big _ (List.mem_cons_of_mem _ (List.mem_cons_of_mem _ List.mem_cons_self)))
  exact ⟨⟨a1, b1, c1⟩, a2, b2, c2⟩

end

theorem xyz_gentle {g : Gamut F32} (hg : g ∈ predefinedF32) : Gentle fun t => g.fromXYZ (g.toXYZ t) :=
  fun C hC t ht => (C79_roundtrip g hg t C hC ht).1
theorem convert_gentle {a b : Gamut F32} (ha : a ∈ rgbF32) (hb : b ∈ rgbF32) :
    Gentle fun t => (t.apply (GamutConvert a b)).apply (GamutConvert b a) :=
  fun C hC t ht => C79_convert a b ha hb t C hC ht

/-- The pixels that survive: by the bits, and what the decoded channels are. -/
def Survives (N : ℕ) (t : Tristimulus F32) : Prop :=
  N ≤ 127 ∨ (N ≤ 255 ∧ peak t ≤ 3.8) ∨ (N ≤ 1023 ∧ peak t ≤ 0.23) ∨ (N ≤ 1023 ∧ Comparable 200 t) ∨ (N ≤ 4095 ∧ Comparable 50 t)

theorem light {o : F32.Oracle} (ho : Lib o) (g : F32) {N i j k : ℕ} (hN : 0 < N) (hi : i ≤ N) (hj : j ≤ N) (hk : k ≤ N)
    {f : Tristimulus F32 → Tristimulus F32} (hf : Gentle f) (h : Survives N (@toScene F32 (F32.libm o) .HLG (pixel N i j k) g)) :
    HasCodes N i j k (@toScreen F32 (F32.libm o) .HLG (f (@toScene F32 (F32.libm o) .HLG (pixel N i j k) g)) g) := by
  have bud : ∀ {M : ℕ} {e : ℝ}, N ≤ M → 0 ≤ e → e * M < 1 / 2 → e * N < 1 / 2 := by
    intro M e h1 h2 h3
    have : (N : ℝ) ≤ M := by exact_mod_cast h1
    exact (mul_le_mul_of_nonneg_left this h2).trans_lt h3
  rcases h with h | ⟨h, p⟩ | ⟨h, p⟩ | ⟨h, p⟩ | ⟨h, p⟩
  · exact bright ho g hN (h.trans (by norm_num)) hi hj hk hf
      (scene_within_peak ho g hN (h.trans (by norm_num)) hi hj hk).2 (by norm_num) (r := 7.1e-3) (by norm_num) (by norm_num)
      (bud h (by norm_num) (by norm_num))
  · exact bright ho g hN (h.trans (by norm_num)) hi hj hk hf p (by norm_num) (r := 3.91e-3) (by norm_num) (by norm_num)
      (bud h (by norm_num) (by norm_num))
  · exact bright ho g hN (h.trans (by norm_num)) hi hj hk hf p (by norm_num) (r := 9.6e-4) (by norm_num) (by norm_num)
      (bud h (by norm_num) (by norm_num))
  · exact comparable ho g hN (h.trans (by norm_num)) hi hj hk hf (by norm_num) (by norm_num) p (bud h (by norm_num) (by norm_num))
  · exact comparable ho g hN (h.trans (by norm_num)) hi hj hk hf (by norm_num) (by norm_num) p (bud h (by norm_num) (by norm_num))

/-- The decoder never yields a negative light. -/
theorem dec_nonneg {o : F32.Oracle} (ho : Lib o) {v : F32} (hv : v.isFinite = true) (h0 : (0 : ℝ) ≤ v.val) (h1 : (v.val : ℝ) ≤ 1) :
    0 ≤ (@HLG_to_Y F32 (F32.libm o) v).val := by
  have h0' : 0 ≤ v.val := by exact_mod_cast h0
  have h1' : v.val ≤ 1 := by exact_mod_cast h1
  rcases le_or_gt v.val (1 / 2) with c | c
  · have e : @HLG_to_Y F32 (F32.libm o) v = Arith.lit 4 * v * v := by
      unfold HLG_to_Y
      simp only
      have hle : Arith.le v (Arith.lit 0.5 : F32) = decide (v.val ≤ 1 / 2) := by
        have e : ((Arith.lit 0.5 : F32).isFinite && decide ((Arith.lit 0.5 : F32).val = 1 / 2)) = true := by decide +kernel
        rw [Bool.and_eq_true, decide_eq_true_eq] at e
        rw [ale_def, le_finite hv e.1, e.2]
      rw [lt_lit hv (q := 0) (c := 0) (by decide +kernel), if_neg (by simpa using h0'), hle, if_pos (by simpa using c)]
    rw [e]
    have i : In v 0 1 := ⟨hv, h0', h1'⟩
    exact (((In.lit (q := 4) (A := 4) (B := 4)).mul i 0 4).mul i 0 4).lo
  · obtain ⟨-, d⟩ := C90_decode o ho.exp v hv h0' h1'
    have c' : (1 / 2 : ℝ) < v.val := by
      have := (Rat.cast_lt (K := ℝ)).2 c
      push_cast at this; exact this
    have t : (1 : ℝ) / 2 ^ 148 ≤ 1e-20 := by norm_num
    have l : (0.28 : ℝ) ≤ hlgInv v.val := by
      unfold hlgInv
      rw [if_neg (not_le.2 c')]
      have := Real.exp_pos (((v.val : ℝ) - 0.55991073) / 0.17883277)
      linarith
    have := (abs_le.1 d).1
    have : (0 : ℝ) ≤ (@HLG_to_Y F32 (F32.libm o) v).val := by linarith
    exact_mod_cast this

end HLGImg

open HLGImg

/-- C137: an HLG pixel of up to 7 bits per channel - 8 bits if no channel decodes to more than 3.8, 10 bits if to no more than 0.23 -
decoded, taken to XYZ by any predefined gamut and back, and encoded again, has the codes it had. -/
theorem C137_xyz (o : F32.Oracle) (hs : o.SqrtAccurate (2 ^ (-23 : ℤ))) (hl : o.LogAccurate (2 ^ (-22 : ℤ)))
    (he : o.ExpAccurate (2 ^ (-22 : ℤ))) (x : F32) (g : Gamut F32) (hg : g ∈ predefinedF32) (N i j k : ℕ) (hN : 0 < N)
    (hi : i ≤ N) (hj : j ≤ N) (hk : k ≤ N) :
    letI := F32.libm o
    Survives N (toScene .HLG (pixel N i j k) x) →
    HasCodes N i j k (toScreen .HLG (g.fromXYZ (g.toXYZ (toScene .HLG (pixel N i j k) x))) x) :=
  fun h => light ⟨hs, hl, he⟩ x hN hi hj hk (xyz_gentle hg) h

/-- C137: … converted to another RGB space and back, … -/
theorem C137_convert (o : F32.Oracle) (hs : o.SqrtAccurate (2 ^ (-23 : ℤ))) (hl : o.LogAccurate (2 ^ (-22 : ℤ)))
    (he : o.ExpAccurate (2 ^ (-22 : ℤ))) (x : F32) (a b : Gamut F32) (ha : a ∈ rgbF32) (hb : b ∈ rgbF32) (N i j k : ℕ) (hN : 0 < N)
    (hi : i ≤ N) (hj : j ≤ N) (hk : k ≤ N) :
    letI := F32.libm o
    Survives N (toScene .HLG (pixel N i j k) x) →
    HasCodes N i j k (toScreen .HLG (((toScene .HLG (pixel N i j k) x).apply (GamutConvert a b)).apply (GamutConvert b a)) x) :=
  fun h => light ⟨hs, hl, he⟩ x hN hi hj hk (convert_gentle ha hb) h

/-- C137: in particular every grey, black included, with 12 bits. -/
theorem C137_grey (o : F32.Oracle) (hs : o.SqrtAccurate (2 ^ (-23 : ℤ))) (hl : o.LogAccurate (2 ^ (-22 : ℤ)))
    (he : o.ExpAccurate (2 ^ (-22 : ℤ))) (x : F32) (g : Gamut F32) (hg : g ∈ predefinedF32) (N k : ℕ) (hN : 0 < N) (hN' : N ≤ 4095)
    (hk : k ≤ N) :
    letI := F32.libm o
    HasCodes N k k k (toScreen .HLG (g.fromXYZ (g.toXYZ (toScene .HLG (pixel N k k k) x))) x) := by
  refine C137_xyz o hs hl he x g hg N k k k hN hk hk hk (.inr (.inr (.inr (.inr ⟨hN', ?_⟩))))
  have e : ∀ y ∈ [@HLG_to_Y F32 (F32.libm o) (Arith.ofInt k / Arith.ofInt N), @HLG_to_Y F32 (F32.libm o) (Arith.ofInt k / Arith.ofInt N),
      @HLG_to_Y F32 (F32.libm o) (Arith.ofInt k / Arith.ofInt N)], y = @HLG_to_Y F32 (F32.libm o) (Arith.ofInt k / Arith.ofInt N) := by
    simp
  intro u hu v hv
  rw [e u hu, e v hv]
  obtain ⟨c, c0, c1⟩ := code_ap hN (hN'.trans (by norm_num)) hk
  have := dec_nonneg ⟨hs, hl, he⟩ c.fin c0 c1
  linarith

/-! ## A dark channel beside bright ones -/

/-- A bright cyan without red: 95 % of the greatest light of the system. -/
def hlgCyan : Tristimulus F32 := ⟨Arith.lit 0, Arith.lit 11.40625, Arith.lit 11.625⟩

theorem hlgCyan_red : ((Rec709 : Gamut F32).fromXYZ ((Rec709 : Gamut F32).toXYZ hlgCyan)).a.isFinite = true ∧
    3.81e-6 ≤ ((Rec709 : Gamut F32).fromXYZ ((Rec709 : Gamut F32).toXYZ hlgCyan)).a.val ∧
    ((Rec709 : Gamut F32).fromXYZ ((Rec709 : Gamut F32).toXYZ hlgCyan)).a.val ≤ 4e-6 := by decide +kernel

/-- C137: with 10 bits it fails beside a bright channel: the cyan has code 0 in red, and after Rec.709 → XYZ → Rec.709 code 1, whatever the
library's `sqrtf`. -/
theorem C137_dark (o : F32.Oracle) (hs : o.SqrtAccurate (2 ^ (-23 : ℤ))) (hl : o.LogAccurate (2 ^ (-22 : ℤ))) (g : F32) :
    letI := F32.libm o
    |(toScreen .HLG hlgCyan g).a.val * 1023 - 0| < 1 / 2 ∧
      |(toScreen .HLG ((Rec709 : Gamut F32).fromXYZ ((Rec709 : Gamut F32).toXYZ hlgCyan)) g).a.val * 1023 - 1| < 1 / 2 := by
  have key : ∀ x : F32, x.isFinite = true → 0 ≤ x.val → x.val < 1 →
      |((@Y_to_HLG F32 (F32.libm o) x).val : ℝ) - √(x.val : ℝ) / 2| ≤ 1e-6 := by
    intro x hx x0 x1
    obtain ⟨-, d⟩ := C90_encode o hs hl x hx x0 (x1.le.trans (by norm_num))
    have x1' : (x.val : ℝ) < 1 := by exact_mod_cast x1
    rw [hlg_lo x1'] at d
    have s1 : √(x.val : ℝ) ≤ 1 := by rw [Real.sqrt_le_left (by norm_num)]; linarith
    have t : (1 : ℝ) / 2 ^ 149 ≤ 1e-20 := by norm_num
    exact d.trans (by linarith)
  have code : ∀ (x : F32) (n : ℚ) (r : ℝ), x.isFinite = true → 0 ≤ x.val → x.val < 1 → |√(x.val : ℝ) / 2 * 1023 - n| ≤ 0.49 →
      |(@Y_to_HLG F32 (F32.libm o) x).val * 1023 - n| < 1 / 2 := by
    intro x n r hx x0 x1 h
    have d := key x hx x0 x1
    have : |((@Y_to_HLG F32 (F32.libm o) x).val : ℝ) * 1023 - n| < 1 / 2 := by
      rw [abs_le] at h d; rw [abs_lt]; constructor <;> linarith
    have : ((|(@Y_to_HLG F32 (F32.libm o) x).val * 1023 - n| : ℚ) : ℝ) < ((1 / 2 : ℚ) : ℝ) := by push_cast; exact this
    exact_mod_cast this
  constructor
  · have z : (Arith.lit 0 : F32).isFinite = true ∧ (Arith.lit 0 : F32).val = 0 := by decide +kernel
    refine code (Arith.lit 0) 0 0 z.1 z.2.ge (by rw [z.2]; norm_num) ?_
    rw [z.2]; norm_num
  · obtain ⟨f, l, u⟩ := hlgCyan_red
    show |(@Y_to_HLG F32 (F32.libm o) ((Rec709 : Gamut F32).fromXYZ ((Rec709 : Gamut F32).toXYZ hlgCyan)).a).val * 1023 - 1| < 1 / 2
    generalize ((Rec709 : Gamut F32).fromXYZ ((Rec709 : Gamut F32).toXYZ hlgCyan)).a = x at *
    have l' : (3.81e-6 : ℝ) ≤ x.val := by
      have := (Rat.cast_le (K := ℝ)).2 l
      push_cast at this; norm_num at this ⊢; exact this
    have u' : (x.val : ℝ) ≤ 4e-6 := by
      have := (Rat.cast_le (K := ℝ)).2 u
      push_cast at this; norm_num at this ⊢; exact this
    refine code x 1 0 f (le_trans (by norm_num) l) (lt_of_le_of_lt u (by norm_num)) ?_
    have a : 1.95e-3 ≤ √(x.val : ℝ) := Real.le_sqrt_of_sq_le (le_trans (by norm_num) l')
    have b : √(x.val : ℝ) ≤ 2e-3 := by rw [Real.sqrt_le_left (by norm_num)]; exact u'.trans (by norm_num)
    rw [abs_le]
    push_cast
    constructor <;> linarith

/-- The hypotheses are met, and a 12-bit grey, a saturated 7-bit pixel and black are instances. -/
example : ∃ o : F32.Oracle, o.SqrtAccurate (2 ^ (-23 : ℤ)) ∧ o.LogAccurate (2 ^ (-22 : ℤ)) ∧ o.ExpAccurate (2 ^ (-22 : ℤ)) ∧ ∀ x : F32,
    letI := F32.libm o
    HasCodes 4095 2048 2048 2048 (toScreen .HLG ((Rec2020 : Gamut F32).fromXYZ ((Rec2020 : Gamut F32).toXYZ
      (toScene .HLG (pixel 4095 2048 2048 2048) x))) x) ∧
    HasCodes 127 0 127 64 (toScreen .HLG ((Rec2020 : Gamut F32).fromXYZ ((Rec2020 : Gamut F32).toXYZ
      (toScene .HLG (pixel 127 0 127 64) x))) x) := by
  obtain ⟨o, -, h2, h3, -, h5, -⟩ := exists_accurate
  have w : (2 : ℝ) ^ (-23 : ℤ) ≤ 2 ^ (-22 : ℤ) := zpow_le_zpow_right₀ (by norm_num) (by norm_num)
  have hl : o.LogAccurate (2 ^ (-22 : ℤ)) := fun x a b => ⟨(h3 x a b).1, (h3 x a b).2.trans (by gcongr)⟩
  have he : o.ExpAccurate (2 ^ (-22 : ℤ)) := fun x a b c => ⟨(h5 x a b c).1, (h5 x a b c).2.trans (by gcongr)⟩
  have hg : (Rec2020 : Gamut F32) ∈ predefinedF32 := by simp [predefinedF32]
  exact ⟨o, h2, hl, he, fun x => ⟨C137_grey o h2 hl he x _ hg 4095 2048 (by norm_num) le_rfl (by norm_num),
    C137_xyz o h2 hl he x _ hg 127 0 127 64 (by norm_num) (by norm_num) (by norm_num) (by norm_num) (.inl le_rfl)⟩⟩

end CS
