import Verif.Model.ListDict

/-!
# `array_to_list_dict` and `repr` on a memory of Python containers

`Verif.Model.ListDict` describes the values.  Here dicts, lists, tuples and arrays live in a memory and refer to each other, so
that the assignment `data[key] = ...` (util.py:95) is seen through every other reference to the same dict, also while the
function is still running.
-/

namespace Nv.PyHeap

/-- an address (Python, for util.py:74-103) -/
abbrev Ref := Nat

/-- the items of a numpy array: nested as deeply as the array has dimensions; the items themselves are references (numpy, for `.tolist()` in util.py:100) -/
inductive Tree where
  | ref (r : Ref)
  | node (ts : List Tree)

/-- one Python object; `leaf` are the objects that are not dicts, lists or tuples and have no method `tolist` (the values accepted by util.py:74-103) -/
inductive Cell (K L : Type) where
  | leaf (x : L)
  | list (xs : List Ref)
  | tuple (xs : List Ref)
  | dict (kvs : List (K × Ref))
  | obj (t : Tree)

/-- the memory: the object at each address (Python, for util.py:74-103) -/
abbrev Heap (K L : Type) := List (Cell K L)

variable {K L : Type}

/-- a new object (Python, for util.py:74-103) -/
def alloc (h : Heap K L) (c : Cell K L) : Heap K L × Ref := (h ++ [c], h.length)

mutual
/-- numpy's `tolist()`: a new list for every dimension, the items as they are; the item itself for an array without
dimensions (used in util.py:100) -/
def tolist (h : Heap K L) : Tree → Heap K L × Ref
  | .ref r => (h, r)
  | .node ts => alloc (tolistAll h ts).1 (.list (tolistAll h ts).2)
/-- `tolist` for each part (used in util.py:100) -/
def tolistAll (h : Heap K L) : List Tree → Heap K L × List Ref
  | [] => (h, [])
  | t :: ts => ((tolistAll (tolist h t).1 ts).1, (tolist h t).2 :: (tolistAll (tolist h t).1 ts).2)
end

/-- `data[key] = value` for the key at position `i` of the dict at `d` (used in util.py:95) -/
def setEntry (h : Heap K L) (d : Ref) (i : Nat) (r : Ref) : Heap K L :=
  match h[d]? with
  | some (.dict kvs) => h.set d (.dict (kvs.modify i fun kv => (kv.1, r)))
  | _ => h

/-- util.py:97 `[array_to_list_dict(item) for item in data]`; `f` is the recursive call -/
def convItems (f : Heap K L → Ref → Option (Heap K L × Ref)) : Heap K L → List Ref → Option (Heap K L × List Ref)
  | h, [] => some (h, [])
  | h, r :: rs =>
    match f h r with
    | none => none
    | some (h1, r1) =>
      match convItems f h1 rs with
      | none => none
      | some (h2, rs2) => some (h2, r1 :: rs2)

/-- util.py:94-95 `for key in data: data[key] = array_to_list_dict(data[key])`, from position `i` on, with `n` keys left.  The
dict is read again in every round. -/
def convEntries (f : Heap K L → Ref → Option (Heap K L × Ref)) (d : Ref) : Nat → Nat → Heap K L → Option (Heap K L)
  | 0, _, h => some h
  | n + 1, i, h =>
    match h[d]? with
    | some (.dict kvs) =>
      match kvs[i]? with
      | some (_, r) =>
        match f h r with
        | none => none
        | some (h1, r1) => convEntries f d n (i + 1) (setEntry h1 d i r1)
      | none => some h
    | _ => none

/-- util.py:74-103 `array_to_list_dict(data)`: the memory after the call and the returned reference.  `depth` is the number of
nested calls Python allows; `none` is a `RecursionError`. -/
def array_to_list_dict : (depth : Nat) → Heap K L → Ref → Option (Heap K L × Ref)
  | 0, _, _ => none
  | n + 1, h, r =>
    match h[r]? with
    | some (.dict kvs) => (convEntries (array_to_list_dict n) r kvs.length 0 h).map fun h1 => (h1, r)
    | some (.list xs) => (convItems (array_to_list_dict n) h xs).map fun p => alloc p.1 (.list p.2)
    | some (.tuple xs) => (convItems (array_to_list_dict n) h xs).map fun p => alloc p.1 (.list p.2)
    | some (.obj t) => some (tolist h t)
    | some (.leaf _) => some (h, r)
    | none => none

/-- objects.py:136 `array_to_list_dict(self.__dict__.copy())` of `__repr__`: `d` is the dict of the attributes.  The rest of
`__repr__` builds the text from the result. -/
def repr_params (depth : Nat) (h : Heap K L) (d : Ref) : Option (Heap K L × Ref) :=
  match h[d]? with
  | some (.dict kvs) => array_to_list_dict depth (alloc h (.dict kvs)).1 (alloc h (.dict kvs)).2
  | _ => none

end Nv.PyHeap
