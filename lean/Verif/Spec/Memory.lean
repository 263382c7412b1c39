import Verif.Mem.Calls

/-!
# Specification: what an object consists of

`h` is the memory of `Verif.Mem`; `arrVal`, `geoVal`, ... give what can be observed of an array or object.
-/

namespace Nv.Spec
open Nv.Mem

variable {α : Type}

/-- the local frame `f` has been made with the `Nvector` object `n` -/
def FrameHolds (h : Heap α) (f : FRef) (n : NRef) : Prop := ∃ o, h.frames[f.id]? = some o ∧ o.nvector = n

/-- the position is the `Nvector` object `n` itself, or a `Pvector` in a frame that has been made with it -/
def PosHolds (h : Heap α) : PosRef → NRef → Prop
  | .geo _, _ => False
  | .nvec r, n => r = n
  | .ecef _, _ => False
  | .pvec r, n => ∃ o, h.pvecs[r.id]? = some o ∧ FrameHolds h o.frame n

/-- one of the end points of the path is or holds the `Nvector` object `n` -/
def PathHolds (h : Heap α) (P : PathRef) (n : NRef) : Prop :=
  ∃ o, h.paths[P.id]? = some o ∧ (PosHolds h o.point_a n ∨ PosHolds h o.point_b n)

/-- the call is `n.unit()` -/
def CallsUnit (n : NRef) : Call α → Prop
  | .nvec_unit m => m = n
  | _ => False

/-- `m`, started in the memory `h`, returns an array or object with the value `s`, or raises the exception `s`.  `rd` gives the value
of the result. -/
def Computes {ρ γ : Type} (rd : Heap α → ρ → Option γ) (h : Heap α) (m : M α ρ) (s : Except PyErr γ) : Prop :=
  match m h, s with
  | (.ok r, h'), .ok v => rd h' r = some v
  | (.error e, _), .error e' => e = e'
  | _, _ => False

/-- the values of two results -/
def pairVal {ρ σ γ δ : Type} (f : Heap α → ρ → Option γ) (g : Heap α → σ → Option δ) (h : Heap α) (x : ρ × σ) : Option (γ × δ) :=
  match f h x.1, g h x.2 with
  | some a, some b => some (a, b)
  | _, _ => none

/-- a Boolean array is a value -/
def boolVal (_ : Heap α) (x : ND.Arr Bool) : Option (ND.Arr Bool) := some x

/-- the user assigns to elements of the array `a`, or to elements of any other view on its memory: element `i` of the memory, with
value `x`, becomes `f i x` -/
def written (a : ARef) (f : List ℕ → α → α) (h : Heap α) : Heap α := (assign a f h).2

end Nv.Spec
