import Verif.Spec.Vec

/-!
# Specification: the reference ellipsoid

In the `e` frame the x-axis is the axis of rotation.  Semi-axes: `a(1-f)` along x, `a` along y and z.
-/

namespace Nv.Spec

/-- `P` (in the `e` frame) is on the surface of the ellipsoid -/
def OnEllipsoid (a f : ℝ) (P : V3 ℝ) : Prop :=
  (P.x / (a * (1 - f))) ^ 2 + (P.y / a) ^ 2 + (P.z / a) ^ 2 = 1

/-- the gradient of the left hand side above (up to the factor 2): an outward normal at `P` -/
noncomputable def gradEllipsoid (a f : ℝ) (P : V3 ℝ) : V3 ℝ :=
  ⟨P.x / (a * (1 - f)) ^ 2, P.y / a ^ 2, P.z / a ^ 2⟩

/-- `P` (in the `e` frame) is outside the core around the centre: `e⁴ < (y² + z²)/a² + (1-e²) x²/a²` -/
def OutsideCore (a f : ℝ) (P : V3 ℝ) : Prop :=
  ((2 - f) * f) ^ 2 < (P.y ^ 2 + P.z ^ 2) / a ^ 2 + (1 - f) ^ 2 * P.x ^ 2 / a ^ 2

/-- `(n, d)` are the geodetic coordinates of the point `p`: `p` is `d` below (along the inward normal) the surface point whose outward
normal is along `n`.  `R` turns into the `e` frame; `n` need not have unit length. -/
def Geodetic (a f : ℝ) (R : M3 ℝ) (n : V3 ℝ) (d : ℝ) (p : V3 ℝ) : Prop :=
  ∃ S : V3 ℝ, OnEllipsoid a f (app R S) ∧ (∃ c : ℝ, 0 < c ∧ app R n = c • gradEllipsoid a f (app R S)) ∧
    p = S - d • ((len n)⁻¹ • n)

end Nv.Spec
