import Verif.Model.Track
import Verif.ND.Array

/-! Arrays that hold a list of n-vectors, of numbers, or of depths -/

namespace Nv.Spec
open Nv.ND (Arr)
variable {α : Type}

/-- `A` is the `3 x n` array whose columns are the `n` vectors of the list -/
structure HoldsVectors (A : Arr α) (l : List (V3 α)) : Prop where
  shape : A.shape = [3, l.length]
  col : ∀ j (h : j < l.length), A.get [0, j] = l[j].x ∧ A.get [1, j] = l[j].y ∧ A.get [2, j] = l[j].z

/-- `A` is the vector of the numbers of the list -/
structure HoldsNumbers (A : Arr α) (l : List α) : Prop where
  shape : A.shape = [l.length]
  val : ∀ j (h : j < l.length), A.get [j] = l[j]

/-- `A` is the vector of the numbers of the list, or, for a list of one number, that number -/
def HoldsTimes (A : Arr α) (l : List α) : Prop := HoldsNumbers A l ∨ (A.shape = [] ∧ l = [A.get []])

/-- `A` is the depth -/
def HoldsDepth (A : Arr α) : Depth α → Prop
  | .scalar z => A.shape = [] ∧ A.get [] = z
  | .vector l => HoldsNumbers A l

/-- both raise the same exception, or both return and the results are related -/
def SameOutcome {β γ : Type} (R : β → γ → Prop) : Except PyErr β → Except PyErr γ → Prop
  | .ok b, .ok c => R b c
  | .error e, .error e' => e = e'
  | _, _ => False

end Nv.Spec
