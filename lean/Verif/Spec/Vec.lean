import Verif.Vec

/-!
# Specification: real vectors and matrices

Textbook definitions over the exact reals, independent of the model's numpy operations.
-/

namespace Nv.Spec

noncomputable section

instance : Add (V3 ℝ) := ⟨fun v w => ⟨v.x + w.x, v.y + w.y, v.z + w.z⟩⟩
instance : Sub (V3 ℝ) := ⟨fun v w => ⟨v.x - w.x, v.y - w.y, v.z - w.z⟩⟩
instance : Neg (V3 ℝ) := ⟨fun v => ⟨-v.x, -v.y, -v.z⟩⟩
instance : Zero (V3 ℝ) := ⟨⟨0, 0, 0⟩⟩
instance : SMul ℝ (V3 ℝ) := ⟨fun c v => ⟨c * v.x, c * v.y, c * v.z⟩⟩

/-- scalar product -/
def dot (v w : V3 ℝ) : ℝ := v.x * w.x + v.y * w.y + v.z * w.z
/-- vector product -/
def cross (v w : V3 ℝ) : V3 ℝ :=
  ⟨v.y * w.z - v.z * w.y, v.z * w.x - v.x * w.z, v.x * w.y - v.y * w.x⟩
/-- Euclidean length -/
def len (v : V3 ℝ) : ℝ := Real.sqrt (v.x ^ 2 + v.y ^ 2 + v.z ^ 2)
/-- the unit vector along `v` -/
def dirOf (v : V3 ℝ) : V3 ℝ := (len v)⁻¹ • v
/-- a point of the unit sphere -/
def UnitVec (v : V3 ℝ) : Prop := v.x ^ 2 + v.y ^ 2 + v.z ^ 2 = 1
/-- the angle between two vectors, in `[0, π]` -/
def angle (v w : V3 ℝ) : ℝ := Real.arccos (dot v w / (len v * len w))

/-- matrix times vector -/
def app (M : M3 ℝ) (v : V3 ℝ) : V3 ℝ := ⟨dot M.r0 v, dot M.r1 v, dot M.r2 v⟩
/-- columns -/
def col0 (M : M3 ℝ) : V3 ℝ := ⟨M.r0.x, M.r1.x, M.r2.x⟩
def col1 (M : M3 ℝ) : V3 ℝ := ⟨M.r0.y, M.r1.y, M.r2.y⟩
def col2 (M : M3 ℝ) : V3 ℝ := ⟨M.r0.z, M.r1.z, M.r2.z⟩
/-- transpose -/
def transp (M : M3 ℝ) : M3 ℝ := ⟨col0 M, col1 M, col2 M⟩
/-- matrix product -/
def mmul (A B : M3 ℝ) : M3 ℝ :=
  ⟨⟨dot A.r0 (col0 B), dot A.r0 (col1 B), dot A.r0 (col2 B)⟩,
   ⟨dot A.r1 (col0 B), dot A.r1 (col1 B), dot A.r1 (col2 B)⟩,
   ⟨dot A.r2 (col0 B), dot A.r2 (col1 B), dot A.r2 (col2 B)⟩⟩
/-- identity matrix -/
def one : M3 ℝ := ⟨⟨1, 0, 0⟩, ⟨0, 1, 0⟩, ⟨0, 0, 1⟩⟩
/-- determinant -/
def det (M : M3 ℝ) : ℝ := dot M.r0 (cross M.r1 M.r2)

/-- proper rotation matrix: orthonormal columns and determinant `+1` -/
structure IsRotation (M : M3 ℝ) : Prop where
  c00 : dot (col0 M) (col0 M) = 1
  c11 : dot (col1 M) (col1 M) = 1
  c22 : dot (col2 M) (col2 M) = 1
  c01 : dot (col0 M) (col1 M) = 0
  c02 : dot (col0 M) (col2 M) = 0
  c12 : dot (col1 M) (col2 M) = 0
  det : det M = 1

end

end Nv.Spec
