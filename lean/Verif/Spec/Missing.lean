import Verif.Vec

/-!
# Missing values

What it means for an input or a result to be (partly) NaN.
-/

namespace Nv.Spec

variable {α : Type} [PyFloat α]

/-- some component is NaN -/
def SomeNaN (v : V3 α) : Prop := v.x = PyFloat.nan ∨ v.y = PyFloat.nan ∨ v.z = PyFloat.nan

/-- every component is NaN -/
def AllNaN (v : V3 α) : Prop := v.x = PyFloat.nan ∧ v.y = PyFloat.nan ∧ v.z = PyFloat.nan

/-- every entry of the matrix is NaN -/
def AllNaNM (M : M3 α) : Prop := AllNaN M.r0 ∧ AllNaN M.r1 ∧ AllNaN M.r2

end Nv.Spec
