import Verif.Partial
import Verif.Model.Delta
import Verif.Lemmas.Matrix

/-!
# Reading the model in the arithmetic with undefined results
-/

namespace CS
open PR Arith Libm

/-- A colour of numbers. -/
def Tristimulus.lift (t : Tristimulus ℝ) : Tristimulus PR := ⟨ok t.a, ok t.b, ok t.c⟩
/-- A vector of numbers. -/
def Vector3.lift (v : Vector3 ℝ) : Vector3 PR := ⟨ok v.x, ok v.y, ok v.z⟩
/-- A matrix of numbers. -/
def Matrix3.lift (m : Matrix3 ℝ) : Matrix3 PR :=
  ⟨ok m.m0, ok m.m1, ok m.m2, ok m.m3, ok m.m4, ok m.m5, ok m.m6, ok m.m7, ok m.m8⟩
/-- A gamut of numbers. -/
def Gamut.lift (g : Gamut ℝ) : Gamut PR := ⟨g.name_, g.toXYZ_.lift, g.fromXYZ_.lift⟩

namespace Tristimulus
theorem abs_f_ok (a : ℝ) : abs_f (ok a) = ok (abs_f a) := ite_ok (fun _ => rfl) (fun _ => rfl)

theorem abs_f_zero : abs_f (0 : ℝ) = 0 := by simp [abs_f]

theorem maxi_ok (a b : ℝ) : maxi (ok a) (ok b) = ok (maxi a b) := ite_ok (fun _ => rfl) (fun _ => rfl)
theorem mini_ok (a b : ℝ) : mini (ok a) (ok b) = ok (mini a b) := ite_ok (fun _ => rfl) (fun _ => rfl)

/-- `x / y` behind the guard `|y| ≥ 1e-8`. -/
theorem guard_ok (c n d : ℝ) :
    (if Arith.lt (abs_f d) (lit 1e-8) then ok c else ok n / ok d) =
      ok (if Arith.lt (abs_f d) (lit 1e-8) then c else n / d) := by
  by_cases h : Arith.lt (abs_f d) (lit 1e-8) = true
  · rw [if_pos h, if_pos h]
  · rw [if_neg h, if_neg h, div_ok]
    rintro rfl
    apply h
    rw [abs_f_zero, lt_real, lit_real]; norm_num

theorem toYxy_ok (t : Tristimulus ℝ) : toYxy t.lift = (toYxy t).lift := by
  simp only [toYxy, toYxy3, lift, Y_from_XYZ, x_from_XYZ, y_from_XYZ, add_ok, abs_f_ok, lit_ok, lt_ok, guard_ok]
theorem fromYxy_ok (t : Tristimulus ℝ) : fromYxy t.lift = (fromYxy t).lift := by
  simp only [fromYxy, fromYxy3, lift, X_from_Yxy, Y_from_Yxy, Z_from_Yxy, z_from_xy, mul_ok, sub_ok, abs_f_ok, lit_ok,
    lt_ok, guard_ok]

/-- One partial operation per component. -/
theorem lift_iff (x y z : PR) : (∃ o : Tristimulus ℝ, (⟨x, y, z⟩ : Tristimulus PR) = o.lift) ↔
    Defined x ∧ Defined y ∧ Defined z := by
  constructor
  · rintro ⟨o, h⟩
    simp only [lift, mk.injEq] at h
    exact ⟨⟨_, h.1⟩, ⟨_, h.2.1⟩, ⟨_, h.2.2⟩⟩
  · rintro ⟨⟨a, rfl⟩, ⟨b, rfl⟩, ⟨c, rfl⟩⟩
    exact ⟨⟨a, b, c⟩, rfl⟩

theorem mod360_ok (x : ℝ) (y : ℝ) (h : mod360 x = some y) : mod360 (ok x) = some (ok y) := by
  revert h
  refine mod360.partial_correctness (motive := fun x y => mod360 (ok x) = some (ok y)) ?_ x y
  intro f ih x y hxy
  rw [mod360, lit_ok, lit_ok, lt_ok, lt_ok, add_ok, sub_ok]
  split_ifs at hxy ⊢ with h1 h2
  · exact ih _ _ hxy
  · exact ih _ _ hxy
  · simpa using hxy

end Tristimulus

namespace Matrix3
theorem get_lift (m : Matrix3 ℝ) (i : Fin 9) : m.lift.get i = ok (m.get i) := by
  fin_cases i <;> rfl
end Matrix3
theorem Vector3.get_lift (v : Vector3 ℝ) (i : Fin 3) : v.lift.get i = ok (v.get i) := by
  fin_cases i <;> rfl

namespace Matrix3
theorem mul_lift (a b : Matrix3 ℝ) : a.lift.mul b.lift = (a.mul b).lift := rfl
theorem apply_lift (a : Matrix3 ℝ) (v : Vector3 ℝ) : a.lift.apply v.lift = (a.apply v).lift := rfl
theorem det_lift (a : Matrix3 ℝ) : a.lift.det = ok a.det := rfl
theorem smul_lift (a : Matrix3 ℝ) (k : ℝ) : a.lift.smul (ok k) = (a.smul k).lift := rfl

/-- The matrix inverted by `smul (adjugate) (1 / det)`. -/
theorem invert_lift (a : Matrix3 ℝ) (h : a.det ≠ 0) : a.lift.invert = a.invert.lift := by
  simp only [invert, det_lift, lit_ok, div_ok h, get_lift, mul_ok, sub_ok]
  rw [← smul_lift]
  rfl

theorem invert_undef (a : Matrix3 ℝ) (h : a.det = 0) : a.lift.invert = ⟨undef, undef, undef, undef, undef, undef, undef, undef, undef⟩ := by
  simp only [invert, det_lift, lit_ok, div_eq, h, if_true, smul, get]
  rfl
end Matrix3

namespace Tristimulus
theorem apply_lift (t : Tristimulus ℝ) (m : Matrix3 ℝ) : t.lift.apply m.lift = (t.apply m).lift := by
  simp only [apply, ofVec3, vec3, lift]
  have := Matrix3.apply_lift m t.vec3
  simp only [Vector3.lift, vec3] at this
  rw [this]
end Tristimulus

theorem Gamut.toXYZ_lift (g : Gamut ℝ) (t : Tristimulus ℝ) : g.lift.toXYZ t.lift = (g.toXYZ t).lift := by
  have := Matrix3.apply_lift g.toXYZ_ t.vec3
  simp only [Vector3.lift, Tristimulus.vec3] at this
  simp only [Gamut.toXYZ, Gamut.lift, Tristimulus.ofVec3, Tristimulus.vec3, Tristimulus.lift, this]
theorem Gamut.fromXYZ_lift (g : Gamut ℝ) (t : Tristimulus ℝ) : g.lift.fromXYZ t.lift = (g.fromXYZ t).lift := by
  have := Matrix3.apply_lift g.fromXYZ_ t.vec3
  simp only [Vector3.lift, Tristimulus.vec3] at this
  simp only [Gamut.fromXYZ, Gamut.lift, Tristimulus.ofVec3, Tristimulus.vec3, Tristimulus.lift, this]

end CS
