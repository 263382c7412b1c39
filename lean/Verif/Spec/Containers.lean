import Verif.Mem.Dicts
import Verif.Spec.ListDict

/-! # Specification: what a memory of containers means -/

namespace Nv.Spec
open Nv.PyHeap

variable {K L : Type}

mutual
/-- in the memory `h` the object at `r` is the value `v` -/
inductive Den (h : Heap K L) : Ref → PyVal K L → Prop where
  | leaf {r : Ref} {x : L} : h[r]? = some (.leaf x) → Den h r (.leaf x)
  | list {r : Ref} {xs : List Ref} {vs : List (PyVal K L)} : h[r]? = some (.list xs) → DenL h xs vs → Den h r (.list vs)
  | tuple {r : Ref} {xs : List Ref} {vs : List (PyVal K L)} : h[r]? = some (.tuple xs) → DenL h xs vs → Den h r (.tuple vs)
  | dict {r : Ref} {kvs : List (K × Ref)} {vs : List (K × PyVal K L)} : h[r]? = some (.dict kvs) → DenD h kvs vs →
      Den h r (.dict vs)
  | obj {r : Ref} {t : Tree} {v : PyVal K L} : h[r]? = some (.obj t) → DenT h t v → Den h r (.obj v)
/-- the same for the items of a list -/
inductive DenL (h : Heap K L) : List Ref → List (PyVal K L) → Prop where
  | nil : DenL h [] []
  | cons {r : Ref} {v : PyVal K L} {rs : List Ref} {vs : List (PyVal K L)} : Den h r v → DenL h rs vs →
      DenL h (r :: rs) (v :: vs)
/-- the same for the entries of a dict -/
inductive DenD (h : Heap K L) : List (K × Ref) → List (K × PyVal K L) → Prop where
  | nil : DenD h [] []
  | cons {k : K} {r : Ref} {v : PyVal K L} {rs : List (K × Ref)} {vs : List (K × PyVal K L)} : Den h r v → DenD h rs vs →
      DenD h ((k, r) :: rs) ((k, v) :: vs)
/-- the nested lists `tolist()` returns -/
inductive DenT (h : Heap K L) : Tree → PyVal K L → Prop where
  | ref {r : Ref} {v : PyVal K L} : Den h r v → DenT h (.ref r) v
  | node {ts : List Tree} {vs : List (PyVal K L)} : DenTL h ts vs → DenT h (.node ts) (.list vs)
/-- the same for the parts of an array -/
inductive DenTL (h : Heap K L) : List Tree → List (PyVal K L) → Prop where
  | nil : DenTL h [] []
  | cons {t : Tree} {v : PyVal K L} {ts : List Tree} {vs : List (PyVal K L)} : DenT h t v → DenTL h ts vs →
      DenTL h (t :: ts) (v :: vs)
end

/-- a value of dicts, lists and leaves is nested at most `n` levels deep -/
inductive Depth : Nat → PyVal K L → Prop where
  | leaf (n : Nat) (x : L) : Depth (n + 1) (.leaf x)
  | list (n : Nat) (xs : List (PyVal K L)) : (∀ x ∈ xs, Depth n x) → Depth (n + 1) (.list xs)
  | dict (n : Nat) (kvs : List (K × PyVal K L)) : (∀ kv ∈ kvs, Depth n kv.2) → Depth (n + 1) (.dict kvs)

mutual
/-- the items of an array -/
def treeRefs : Tree → List Ref
  | .ref r => [r]
  | .node ts => treesRefs ts
def treesRefs : List Tree → List Ref
  | [] => []
  | t :: ts => treeRefs t ++ treesRefs ts
end

/-- the objects an object refers to -/
def refs : Cell K L → List Ref
  | .leaf _ => []
  | .list xs => xs
  | .tuple xs => xs
  | .dict kvs => kvs.map (·.2)
  | .obj t => treeRefs t

/-- the object at `b` can be reached from the object at `a` -/
inductive Reach (h : Heap K L) (a : Ref) : Ref → Prop where
  | refl : Reach h a a
  | step {b c : Ref} {o : Cell K L} : Reach h a b → h[b]? = some o → c ∈ refs o → Reach h a c

end Nv.Spec
