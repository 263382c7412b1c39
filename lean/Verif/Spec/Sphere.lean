import Verif.Spec.Vec

/-!
# Specification: great circles
-/

namespace Nv.Spec

/-- a path whose endpoints determine a great circle: neither equal nor antipodal directions -/
def ProperPath (A B : V3 ℝ) : Prop := cross A B ≠ 0

/-- `Q` is a position on the great circle through `A` and `B`: a unit vector in the plane of `A`, `B` and the centre -/
def OnCircle (A B Q : V3 ℝ) : Prop := UnitVec Q ∧ ∃ s t : ℝ, Q = s • A + t • B

/-- `Q` is on the shorter arc from `A` to `B`: a unit vector in the cone spanned by `A` and `B` -/
def OnArc (A B Q : V3 ℝ) : Prop := UnitVec Q ∧ ∃ s t : ℝ, 0 ≤ s ∧ 0 ≤ t ∧ Q = s • A + t • B

end Nv.Spec
