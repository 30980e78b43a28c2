import Verif.Float.F32
import Verif.Float.F64

/-!
# Conversions between binary32 and binary64
-/

namespace CS

/-- Every binary32 value is a binary64 value. -/
theorem rep64_of_rep32 {q : ℚ} (h : B32.Rep q) : B64.Rep q := by
  obtain ⟨m, e, rfl, hm, he⟩ := h
  exact ⟨m, e, rfl, lt_of_lt_of_le hm (by norm_num), by linarith⟩

/-- `float` to `double`: exact. -/
def F64.ofF32 : F32 → F64
  | .nan => .nan
  | .inf s => .inf s
  | .zero s => .zero s
  | .num q h => .num q ⟨h.1, rep64_of_rep32 h.2.1,
      lt_of_lt_of_le h.2.2 (pow_le_pow_right₀ (by norm_num) (by norm_num))⟩

/-- `double` to `float`: round to nearest, ties to even, overflow to infinity. -/
def F64.toF32 : F64 → F32
  | .nan => .nan
  | .inf s => .inf s
  | .zero s => .zero s
  | .num q _ => F32.pack (decide (q < 0)) q

namespace F64

theorem ofF32_val (x : F32) : (ofF32 x).val = x.val := by cases x <;> rfl
theorem ofF32_isFinite (x : F32) : (ofF32 x).isFinite = x.isFinite := by cases x <;> rfl
theorem ofF32_isNaN (x : F32) : (ofF32 x).isNaN = x.isNaN := by cases x <;> rfl
theorem ofF32_sign (x : F32) : (ofF32 x).sign = x.sign := by cases x <;> rfl

/-- There and back is the identity. -/
theorem toF32_ofF32 (x : F32) : toF32 (ofF32 x) = x := by
  cases x with
  | num q h => exact F32.pack_of_rep h
  | _ => rfl

theorem toF32_finite {x : F64} (hx : x.isFinite = true) : toF32 x = F32.pack x.sign x.val := by
  cases x with
  | nan => cases hx
  | inf s => cases hx
  | zero s => exact (F32.pack_zero s).symm
  | num q h => rfl

theorem toF32_isNaN (x : F64) : (toF32 x).isNaN = x.isNaN := by
  cases x with
  | num q h => exact F32.pack_not_nan _ _
  | _ => rfl

end F64
end CS
