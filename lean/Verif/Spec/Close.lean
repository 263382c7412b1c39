import Verif.Spec.Vec

/-!
# Specification: matrices that are nearly equal, nearly rotations
-/

namespace Nv.Spec

/-- every component of `v` is within `e` of that of `w` -/
def CloseV (v w : V3 ℝ) (e : ℝ) : Prop := |v.x - w.x| ≤ e ∧ |v.y - w.y| ≤ e ∧ |v.z - w.z| ≤ e

/-- every entry of `M` is within `e` of that of `N` -/
def CloseM (M N : M3 ℝ) (e : ℝ) : Prop := CloseV M.r0 N.r0 e ∧ CloseV M.r1 N.r1 e ∧ CloseV M.r2 N.r2 e

/-- the columns of `M` are orthonormal and its determinant is one, up to `e` -/
structure NearRotation (M : M3 ℝ) (e : ℝ) : Prop where
  c00 : |dot (col0 M) (col0 M) - 1| ≤ e
  c11 : |dot (col1 M) (col1 M) - 1| ≤ e
  c22 : |dot (col2 M) (col2 M) - 1| ≤ e
  c01 : |dot (col0 M) (col1 M)| ≤ e
  c02 : |dot (col0 M) (col2 M)| ≤ e
  c12 : |dot (col1 M) (col2 M)| ≤ e
  det : |det M - 1| ≤ e

end Nv.Spec
