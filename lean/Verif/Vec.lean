import Verif.Num

/-!
# Columns and 3x3 matrices

One column of a `3 x n` array is a `V3`; one page of a `3 x 3 x n` array is an `M3` (three rows).
The operations below are the numpy operations restricted to one column / one page.
-/

namespace Nv

/-- one column of a `3 x n` array -/
@[ext] structure V3 (α : Type) where
  x : α
  y : α
  z : α

/-- a `3 x 3` array, given by its rows -/
@[ext] structure M3 (α : Type) where
  r0 : V3 α
  r1 : V3 α
  r2 : V3 α

section ops
variable {α : Type} [PyFloat α]

/-- `np.dot(v.T, w)` for columns (core.py:12 `dot`) -/
def dot3 (v w : V3 α) : α := v.x * w.x + v.y * w.y + v.z * w.z

/-- `np.cross(v, w, axis=0)` (core.py:12 `cross`) -/
def cross3 (v w : V3 α) : V3 α :=
  ⟨v.y * w.z - v.z * w.y, v.z * w.x - v.x * w.z, v.x * w.y - v.y * w.x⟩

/-- `norm(v, axis=0)` (numpy.linalg.norm, core.py:13, util.py:11) -/
def norm3 (v : V3 α) : α := PyFloat.sqrt (v.x * v.x + v.y * v.y + v.z * v.z)

/-- elementwise `v + w` -/
def add3 (v w : V3 α) : V3 α := ⟨v.x + w.x, v.y + w.y, v.z + w.z⟩
/-- elementwise `v - w` -/
def sub3 (v w : V3 α) : V3 α := ⟨v.x - w.x, v.y - w.y, v.z - w.z⟩
/-- elementwise `-v` -/
def neg3 (v : V3 α) : V3 α := ⟨-v.x, -v.y, -v.z⟩
/-- `v * s` for a scalar `s` (broadcast) -/
def scale3 (v : V3 α) (s : α) : V3 α := ⟨v.x * s, v.y * s, v.z * s⟩
/-- `v / s` for a scalar `s` (broadcast) -/
def div3 (v : V3 α) (s : α) : V3 α := ⟨v.x / s, v.y / s, v.z / s⟩
/-- elementwise `v / w` -/
def ediv3 (v w : V3 α) : V3 α := ⟨v.x / w.x, v.y / w.y, v.z / w.z⟩

/-- `np.dot(M, v)` -/
def mulVec (M : M3 α) (v : V3 α) : V3 α := ⟨dot3 M.r0 v, dot3 M.r1 v, dot3 M.r2 v⟩

/-- `M.T` / `np.swapaxes(M, 1, 0)` -/
def tr (M : M3 α) : M3 α :=
  ⟨⟨M.r0.x, M.r1.x, M.r2.x⟩, ⟨M.r0.y, M.r1.y, M.r2.y⟩, ⟨M.r0.z, M.r1.z, M.r2.z⟩⟩

/-- `np.hstack` of three columns into a matrix -/
def ofCols (c0 c1 c2 : V3 α) : M3 α :=
  ⟨⟨c0.x, c1.x, c2.x⟩, ⟨c0.y, c1.y, c2.y⟩, ⟨c0.z, c1.z, c2.z⟩⟩

/-- util.py:392 `mdot(a, b) = np.einsum('ij...,jk...->ik...', a, b)` for one page -/
def mdot (A B : M3 α) : M3 α :=
  ⟨⟨dot3 A.r0 (tr B).r0, dot3 A.r0 (tr B).r1, dot3 A.r0 (tr B).r2⟩,
   ⟨dot3 A.r1 (tr B).r0, dot3 A.r1 (tr B).r1, dot3 A.r1 (tr B).r2⟩,
   ⟨dot3 A.r2 (tr B).r0, dot3 A.r2 (tr B).r1, dot3 A.r2 (tr B).r2⟩⟩

end ops

/-- embed a real column -/
def V3.fin (v : V3 ℝ) : V3 XR := ⟨.fin v.x, .fin v.y, .fin v.z⟩
/-- embed a real matrix -/
def M3.fin (M : M3 ℝ) : M3 XR := ⟨M.r0.fin, M.r1.fin, M.r2.fin⟩
/-- the all-NaN column -/
def V3.nan : V3 XR := ⟨.nan, .nan, .nan⟩

end Nv
