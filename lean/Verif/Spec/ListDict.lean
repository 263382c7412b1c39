import Verif.Model.ListDict

/-! # Specification for `array_to_list_dict` -/

namespace Nv.Spec

variable {K L : Type}

/-- only dicts, lists and leaves, at any depth: no tuple and no array -/
inductive Plain : PyVal K L → Prop where
  | leaf (x : L) : Plain (.leaf x)
  | list (xs : List (PyVal K L)) : (∀ x ∈ xs, Plain x) → Plain (.list xs)
  | dict (kvs : List (K × PyVal K L)) : (∀ kv ∈ kvs, Plain kv.2) → Plain (.dict kvs)

/-- a structure of dicts, lists, tuples and leaves in which the items of every array are plain values (every array of
numbers, strings or booleans; not an array of tuples or arrays) -/
inductive PlainArrays : PyVal K L → Prop where
  | leaf (x : L) : PlainArrays (.leaf x)
  | list (xs : List (PyVal K L)) : (∀ x ∈ xs, PlainArrays x) → PlainArrays (.list xs)
  | tuple (xs : List (PyVal K L)) : (∀ x ∈ xs, PlainArrays x) → PlainArrays (.tuple xs)
  | dict (kvs : List (K × PyVal K L)) : (∀ kv ∈ kvs, PlainArrays kv.2) → PlainArrays (.dict kvs)
  | array (t : PyVal K L) : Plain t → PlainArrays (.obj t)

/-- a subscript: `v[n]` or `v['key']` -/
inductive Step (K : Type) where
  | idx (n : Nat)
  | key (k : K)

/-- `v[step]`; an array is indexed like its nested lists -/
def get? [DecidableEq K] : PyVal K L → Step K → Option (PyVal K L)
  | .list xs, .idx n => xs[n]?
  | .tuple xs, .idx n => xs[n]?
  | .dict kvs, .key k => (kvs.find? (fun kv => kv.1 = k)).map (·.2)
  | .obj t, s => get? t s
  | _, _ => none

/-- what can be seen of a value without looking inside: the value of a leaf, the number of items of a list, tuple or array, the
keys of a dict in their order -/
inductive Seen (K L : Type) where
  | value (x : L)
  | items (n : Nat)
  | keys (ks : List K)

def see : PyVal K L → Seen K L
  | .leaf x => .value x
  | .list xs => .items xs.length
  | .tuple xs => .items xs.length
  | .dict kvs => .keys (kvs.map (·.1))
  | .obj t => see t

/-- what can be seen at `v[s1][s2]…`; `none` if there is no such item -/
def seeAt [DecidableEq K] : PyVal K L → List (Step K) → Option (Seen K L)
  | v, [] => some (see v)
  | v, s :: p => match get? v s with
    | some u => seeAt u p
    | none => none

end Nv.Spec
