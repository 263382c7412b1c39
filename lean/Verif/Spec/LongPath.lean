import Verif.Spec.Sphere

/-!
# Specification: the far side of a path
-/

namespace Nv.Spec

/-- `Q` is on the great circle of the path and at most `(3 θ - 360°) / 2` from the antipode of the path's midpoint, where `θ` is the length
of the path in degrees (no position is if the path is shorter than 120 degrees) -/
def OnFarArc (A B Q : V3 ℝ) : Prop := OnCircle A B Q ∧ angle Q (-(A + B)) ≤ (3 * angle A B - 2 * Real.pi) / 2

end Nv.Spec
