import Mathlib.Data.Int.Notation

/-! Abnormal outcomes of the modelled C++ code. -/

namespace CS

/-- Why an execution has no defined result. -/
inductive UB where
  /-- access outside a vector or C array (including forming `&v[v.size()]`) -/
  | outOfBounds
  /-- floating value converted to an integer type that cannot hold it -/
  | badCast
  /-- integer `%` or `/` by zero -/
  | divByZero
  /-- signed integer overflow -/
  | signedOverflow
  /-- a failed `assert` (the process aborts; only in builds without `NDEBUG`) -/
  | assertFailed
  /-- `front()` of an empty vector -/
  | emptyFront
  /-- `std::length_error`/`std::bad_alloc` from growing a vector beyond `max_size()` -/
  | lengthError
  deriving DecidableEq, Repr

end CS
