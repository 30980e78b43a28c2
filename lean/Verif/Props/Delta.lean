import Verif.Model.Delta
import Verif.Lemmas.LinAlg
import Verif.Lemmas.Gamut
import Verif.Props.OTF
import Mathlib.Analysis.Real.Pi.Bounds
import Mathlib.Analysis.InnerProductSpace.PiL2
import Mathlib.Analysis.SpecialFunctions.Trigonometric.Bounds

/-!
# C16, C17, C45-C47: OKLAB, ICtCp and colour differences  (exact arithmetic)
-/

namespace CS
open OTF Spec

/-! ## C16: OKLAB -/

theorem cbrt_cube (x : ℝ) : (Libm.cbrtf x : ℝ) * Libm.cbrtf x * Libm.cbrtf x = x := by
  have key : ∀ y : ℝ, 0 ≤ y → y ^ ((1 : ℝ) / 3) * y ^ ((1 : ℝ) / 3) * y ^ ((1 : ℝ) / 3) = y := by
    intro y hy
    have : (y ^ ((1 : ℝ) / 3)) ^ ((3 : ℕ) : ℝ) = y := rpow_inv_rpow' hy (by norm_num)
    rw [Real.rpow_natCast] at this
    linarith [this, show (y ^ ((1 : ℝ) / 3)) ^ 3 = y ^ ((1 : ℝ) / 3) * y ^ ((1 : ℝ) / 3) * y ^ ((1 : ℝ) / 3) by ring]
  rw [cbrtf_real]
  split_ifs with h
  · exact key x h
  · have := key (-x) (by linarith)
    linarith

theorem cube_cbrt (x : ℝ) : (Libm.cbrtf (x * x * x) : ℝ) = x := by
  have h := cbrt_cube (x * x * x)
  generalize (Libm.cbrtf (x * x * x) : ℝ) = y at h
  have h' : y ^ 3 = x ^ 3 := by linarith [show y ^ 3 = y * y * y by ring, show x ^ 3 = x * x * x by ring]
  exact (Odd.strictMono_pow (by decide : Odd 3)).injective h'

theorem oklab_det : (oklabM1 : Matrix3 ℝ).det ≠ 0 ∧ (oklabM2 : Matrix3 ℝ).det ≠ 0 := by
  constructor <;> norm_num [Matrix3.det_eq, oklabM1, oklabM2]

/-- C16: XYZ → OKLAB → XYZ. -/
theorem C16_xyz (c : Tristimulus ℝ) : OKLAB_to_XYZ (XYZ_to_OKLAB c) = c := by
  obtain ⟨h1, h2⟩ := oklab_det
  simp only [OKLAB_to_XYZ, XYZ_to_OKLAB]
  have e : ∀ (t : Tristimulus ℝ) (m n : Matrix3 ℝ), (t.apply m).apply n = .ofVec3 (n.apply (m.apply t.vec3)) :=
    fun _ _ _ => rfl
  rw [e, Matrix3.invert_apply _ h2]
  simp only [Tristimulus.ofVec3, Tristimulus.vec3, cbrt_cube]
  rw [show (⟨(c.apply oklabM1).a, (c.apply oklabM1).b, (c.apply oklabM1).c⟩ : Tristimulus ℝ) =
    c.apply oklabM1 from rfl, e, Matrix3.invert_apply _ h1]
  rfl

/-- C16: OKLAB → XYZ → OKLAB. -/
theorem C16_lab (l : Tristimulus ℝ) : XYZ_to_OKLAB (OKLAB_to_XYZ l) = l := by
  obtain ⟨h1, h2⟩ := oklab_det
  simp only [OKLAB_to_XYZ, XYZ_to_OKLAB]
  have e : ∀ (t : Tristimulus ℝ) (m n : Matrix3 ℝ), (t.apply m).apply n = .ofVec3 (n.apply (m.apply t.vec3)) :=
    fun _ _ _ => rfl
  rw [e, Matrix3.apply_invert _ h1]
  simp only [Tristimulus.ofVec3, Tristimulus.vec3, cube_cbrt]
  rw [show (⟨(l.apply oklabM2.invert).a, (l.apply oklabM2.invert).b, (l.apply oklabM2.invert).c⟩ : Tristimulus ℝ) =
    l.apply oklabM2.invert from rfl, e, Matrix3.apply_invert _ h2]
  rfl

/-- First OKLAB matrix as the header has it (hpp:1422, 1457).  Not the published one: the sign of the entry at row 2,
column 1 differs, see C102. -/
noncomputable def Spec.oklabHeader1 : Matrix (Fin 3) (Fin 3) ℝ :=
  !![0.8189330101, 0.3618667424, -0.1288597137; -0.0329845436, 0.9293118715, 0.0361456387;
     0.0482003018, 0.2643662691, 0.6338517070]
/-- Specification: second OKLAB matrix. -/
noncomputable def Spec.oklab2 : Matrix (Fin 3) (Fin 3) ℝ :=
  !![0.2104542553, 0.7936177850, -0.0040720468; 1.9779984951, -2.4285922050, 0.4505937099;
     0.0259040371, 0.7827717662, -0.8086757660]

/-- C16: the forward transform on vectors: with `r` the cube roots of the cone responses of the header's matrix,
the result is `oklab2 · r`. -/
theorem C16_formula (c : Tristimulus ℝ) (r : Fin 3 → ℝ)
    (hr : ∀ i, r i ^ 3 = (oklabHeader1.mulVec (triV c)) i) : triV (XYZ_to_OKLAB c) = oklab2.mulVec r := by
  have hM1 : toM (oklabM1 : Matrix3 ℝ) = oklabHeader1 := by
    ext i j; fin_cases i <;> fin_cases j <;> simp [toM, oklabM1, oklabHeader1]
  have hM2 : toM (oklabM2 : Matrix3 ℝ) = oklab2 := by
    ext i j; fin_cases i <;> fin_cases j <;> simp [toM, oklabM2, oklab2]
  have e1 : oklabHeader1.mulVec (triV c) = triV (c.apply oklabM1) := by
    rw [← hM1, Tristimulus.apply, triV_ofVec3, toV_apply, toV_vec3]
  have hc : ∀ x y : ℝ, y ^ 3 = x → (Libm.cbrtf x : ℝ) = y := by
    intro x y h; rw [← h, show y ^ 3 = y * y * y by ring, cube_cbrt]
  have h0 := hc _ _ (hr 0)
  have h1 := hc _ _ (hr 1)
  have h2 := hc _ _ (hr 2)
  rw [e1] at h0 h1 h2
  simp only [triV, Matrix.cons_val] at h0 h1 h2
  rw [XYZ_to_OKLAB]
  simp only [h0, h1, h2]
  rw [← hM2, Tristimulus.apply, triV_ofVec3, toV_apply, toV_vec3]
  congr 1
  ext i; fin_cases i <;> rfl

/-! ## C17: ICtCp -/

/-- Specification: the Hunt-Pointer-Estevez style cone matrix of the header. -/
noncomputable def Spec.hpe : Matrix (Fin 3) (Fin 3) ℝ :=
  !![0.3592, 0.6976, -0.0358; -0.1922, 1.1004, 0.0755; 0.0070, 0.0749, 0.8434]

theorem HPE_toM : toM (HPE_LMS : Gamut ℝ).fromXYZ_ = hpe := by
  ext i j; fin_cases i <;> fin_cases j <;> simp [toM, HPE_LMS, Gamut.ofFromXYZ, hpe]

theorem HPE_det : (HPE_LMS : Gamut ℝ).fromXYZ_.det ≠ 0 := by
  norm_num [Matrix3.det_eq, HPE_LMS, Gamut.ofFromXYZ]

theorem HPE_consistent : (HPE_LMS : Gamut ℝ).Consistent := Gamut.ofFromXYZ_consistent _ _ HPE_det

theorem HPE_fromXYZ (c : Tristimulus ℝ) : triV ((HPE_LMS : Gamut ℝ).fromXYZ c) = hpe.mulVec (triV c) := by
  rw [← HPE_toM, ← toV_vec3 c, ← toV_apply, ← triV_ofVec3]; rfl

/-- C17: a colour whose three cone responses are equal is neutral. -/
theorem C17_neutral (c : Tristimulus ℝ) (k : ℝ) (h : hpe.mulVec (triV c) = ![k, k, k]) (g : ℝ) :
    XYZ_to_ICtCp c = ⟨(toScreen .ST2084 (⟨k, k, k⟩ : Tristimulus ℝ) g).a, 0, 0⟩ := by
  rw [← HPE_fromXYZ] at h
  have h0 : ((HPE_LMS : Gamut ℝ).fromXYZ c).a = k := congrFun h 0
  have h1 : ((HPE_LMS : Gamut ℝ).fromXYZ c).b = k := congrFun h 1
  have h2 : ((HPE_LMS : Gamut ℝ).fromXYZ c).c = k := congrFun h 2
  simp only [XYZ_to_ICtCp, h0, h1, h2, pqToICtCp, toScreen, lit_real]
  ext
  · simp only; push_cast; ring
  · simp only; push_cast; ring
  · simp only; push_cast; ring

/-- C17: encoding and decoding amounts to decoding the PQ signal of the cone responses perturbed by
at most `1e-5` in each channel. -/
theorem C17_roundtrip (c : Tristimulus ℝ) (g : ℝ) : ∃ e : Tristimulus ℝ,
    |e.a| ≤ 1e-5 ∧ |e.b| ≤ 1e-5 ∧ |e.c| ≤ 1e-5 ∧
    ∀ lms : Tristimulus ℝ, triV lms = hpe.mulVec (triV c) →
      hpe.mulVec (triV (ICtCp_to_XYZ (XYZ_to_ICtCp c))) =
        triV (toScene .ST2084 (Tristimulus.add (toScreen .ST2084 lms g) e) g) := by
  set L := (HPE_LMS : Gamut ℝ).fromXYZ c with hL
  set q : Tristimulus ℝ := toScreen .ST2084 L g with hq
  set q' : Tristimulus ℝ := ICtCpToPq (pqToICtCp q) with hq'
  have ra := ST2084_enc_range L.a
  have rb := ST2084_enc_range L.b
  have rc := ST2084_enc_range L.c
  have qa : q.a = Y_to_ST2084 L.a := rfl
  have qb : q.b = Y_to_ST2084 L.b := rfl
  have qc : q.c = Y_to_ST2084 L.c := rfl
  rw [← qa] at ra
  rw [← qb] at rb
  rw [← qc] at rc
  have ea : q'.a = (q.a + q.b) * 0.5 + 0.00860904 * ((6610 * q.a - 13613 * q.b + 7003 * q.c) / 4096)
      + 0.11103 * ((17933 * q.a - 17390 * q.b - 543 * q.c) / 4096) := by
    rw [hq']; simp only [ICtCpToPq, pqToICtCp, lit_real]; push_cast; rfl
  have eb : q'.b = (q.a + q.b) * 0.5 - 0.00860904 * ((6610 * q.a - 13613 * q.b + 7003 * q.c) / 4096)
      - 0.11103 * ((17933 * q.a - 17390 * q.b - 543 * q.c) / 4096) := by
    rw [hq']; simp only [ICtCpToPq, pqToICtCp, lit_real]; push_cast; rfl
  have ec : q'.c = (q.a + q.b) * 0.5 + 0.560031 * ((6610 * q.a - 13613 * q.b + 7003 * q.c) / 4096)
      - 0.320627 * ((17933 * q.a - 17390 * q.b - 543 * q.c) / 4096) := by
    rw [hq']; simp only [ICtCpToPq, pqToICtCp, lit_real]; push_cast; rfl
  refine ⟨⟨q'.a - q.a, q'.b - q.b, q'.c - q.c⟩, ?_, ?_, ?_, ?_⟩
  · simp only [ea, abs_le]; constructor <;> linarith
  · simp only [eb, abs_le]; constructor <;> linarith
  · simp only [ec, abs_le]; constructor <;> linarith
  · intro lms hl
    have : lms = L := by
      rw [← HPE_fromXYZ] at hl
      ext
      · exact congrFun hl 0
      · exact congrFun hl 1
      · exact congrFun hl 2
    subst this
    rw [← HPE_fromXYZ, ← hq]
    congr 1
    have e1 : ICtCp_to_XYZ (XYZ_to_ICtCp c) = (HPE_LMS : Gamut ℝ).toXYZ (toScene .ST2084 q' g) := rfl
    rw [e1, HPE_consistent.from_to]
    simp only [Tristimulus.add, add_sub_cancel]

/-- A neutral colour: the hypothesis of `C17_neutral` is met by the preimage of `(k,k,k)`. -/
example (k : ℝ) : ∃ c : Tristimulus ℝ, hpe.mulVec (triV c) = ![k, k, k] := by
  refine ⟨(HPE_LMS : Gamut ℝ).toXYZ ⟨k, k, k⟩, ?_⟩
  rw [← HPE_fromXYZ, HPE_consistent.from_to]
  rfl

/-! ## C45: Delta UV and Delta E76 -/

/-- Specification: a colour as a point of Euclidean 3-space. -/
noncomputable def Spec.pt3 (t : Tristimulus ℝ) : EuclideanSpace ℝ (Fin 3) := !₂[t.a, t.b, t.c]
/-- Specification: the second and third components as a point of the Euclidean plane. -/
noncomputable def Spec.pt2 (t : Tristimulus ℝ) : EuclideanSpace ℝ (Fin 2) := !₂[t.b, t.c]

/-- C45: E76 is the Euclidean distance. -/
theorem C45_E76_dist (a b : Tristimulus ℝ) : Delta.E76 a b = dist (pt3 a) (pt3 b) := by
  rw [EuclideanSpace.dist_eq]
  simp [Fin.sum_univ_three, pt3, Delta.E76, Real.dist_eq, sq_abs]
  congr 1; ring

/-- C45: UV is the Euclidean distance of the `(u,v)` parts. -/
theorem C45_UV_dist (a b : Tristimulus ℝ) : Delta.UV a b = dist (pt2 a) (pt2 b) := by
  rw [EuclideanSpace.dist_eq]
  simp [Fin.sum_univ_two, pt2, Delta.UV, Real.dist_eq, sq_abs]
  congr 1; ring

/-- C45: E76 is a metric. -/
theorem C45_E76 (a b c : Tristimulus ℝ) :
    0 ≤ Delta.E76 a b ∧ Delta.E76 a b = Delta.E76 b a ∧ (Delta.E76 a b = 0 ↔ a = b) ∧
    Delta.E76 a c ≤ Delta.E76 a b + Delta.E76 b c := by
  simp only [C45_E76_dist]
  refine ⟨dist_nonneg, dist_comm _ _, ?_, dist_triangle _ _ _⟩
  rw [dist_eq_zero]
  constructor
  · intro h
    ext
    · simpa [pt3] using congrFun (congrArg WithLp.ofLp h) 0
    · simpa [pt3] using congrFun (congrArg WithLp.ofLp h) 1
    · simpa [pt3] using congrFun (congrArg WithLp.ofLp h) 2
  · rintro rfl; rfl

/-- C45: UV is a pseudo-metric that separates exactly the `(u,v)` parts and ignores luminance. -/
theorem C45_UV (a b c : Tristimulus ℝ) (l m : ℝ) :
    0 ≤ Delta.UV a b ∧ Delta.UV a b = Delta.UV b a ∧
    (Delta.UV a b = 0 ↔ a.b = b.b ∧ a.c = b.c) ∧
    Delta.UV a c ≤ Delta.UV a b + Delta.UV b c ∧
    Delta.UV ⟨l, a.b, a.c⟩ ⟨m, b.b, b.c⟩ = Delta.UV a b := by
  refine ⟨?_, ?_, ?_, ?_, rfl⟩ <;> simp only [C45_UV_dist]
  · exact dist_nonneg
  · exact dist_comm _ _
  · rw [dist_eq_zero]
    constructor
    · intro h
      exact ⟨by simpa [pt2] using congrFun (congrArg WithLp.ofLp h) 0,
        by simpa [pt2] using congrFun (congrArg WithLp.ofLp h) 1⟩
    · rintro ⟨h1, h2⟩; simp [pt2, h1, h2]
  · exact dist_triangle _ _ _

/-! ## C47: Delta ICtCp -/

/-- Specification: the point whose Euclidean distances are the ICtCp differences (ITU-R BT.2124 halves
the `Ct` axis). -/
noncomputable def Spec.ictcpPt (t : Tristimulus ℝ) : EuclideanSpace ℝ (Fin 3) :=
  !₂[(XYZ_to_ICtCp t).a, (XYZ_to_ICtCp t).b / 2, (XYZ_to_ICtCp t).c]

/-- C47: `Delta::ICtCp` is the Euclidean distance in `(I, Ct/2, Cp)`. -/
theorem C47_dist (a b : Tristimulus ℝ) : Delta.ICtCp a b = dist (ictcpPt a) (ictcpPt b) := by
  rw [EuclideanSpace.dist_eq]
  simp [Fin.sum_univ_three, ictcpPt, Delta.ICtCp, Real.dist_eq, sq_abs]
  congr 1; ring

/-- C47: pseudo-metric laws. -/
theorem C47_metric (a b c : Tristimulus ℝ) :
    0 ≤ Delta.ICtCp a b ∧ Delta.ICtCp a b = Delta.ICtCp b a ∧ Delta.ICtCp a a = 0 ∧
    (Delta.ICtCp a b = 0 ↔ XYZ_to_ICtCp a = XYZ_to_ICtCp b) ∧
    Delta.ICtCp a c ≤ Delta.ICtCp a b + Delta.ICtCp b c := by
  simp only [C47_dist]
  refine ⟨dist_nonneg, dist_comm _ _, dist_self _, ?_, dist_triangle _ _ _⟩
  rw [dist_eq_zero]
  constructor
  · intro h
    have h0 := congrFun (congrArg WithLp.ofLp h) 0
    have h1 := congrFun (congrArg WithLp.ofLp h) 1
    have h2 := congrFun (congrArg WithLp.ofLp h) 2
    simp [ictcpPt] at h0 h1 h2
    ext
    · exact h0
    · linarith
    · exact h2
  · intro h; simp [ictcpPt, h]

end CS
