import Mathlib.Data.Real.Basic
import Mathlib.Algebra.Order.Group.Int

/-!
# Specification: IEEE binary64 values and rounding to nearest

Values are the reals `m * 2^e` with `|m| < 2^53` and `e ≥ -1074`; overflow to infinity is not represented.  Any function that
returns a nearest value (ties broken in any way) is a rounding function.
-/

namespace Nv.Spec

/-- `z` is a finite binary64 number (normal or subnormal) -/
def IsF64 (z : ℝ) : Prop := ∃ (m : ℤ) (e : ℤ), |m| < 2 ^ 53 ∧ -1074 ≤ e ∧ z = m * (2 : ℝ) ^ e

/-- `fl` rounds every real to a nearest binary64 number -/
structure RoundsToNearest (fl : ℝ → ℝ) : Prop where
  val : ∀ x, IsF64 (fl x)
  nearest : ∀ x z, IsF64 z → |fl x - x| ≤ |z - x|

end Nv.Spec
