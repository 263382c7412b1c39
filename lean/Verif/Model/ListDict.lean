/-!
# Model of `array_to_list_dict`, `/repo/src/nvector/util.py:74-103`
-/

namespace Nv

/-- A Python value.  `K` are the dict keys, `L` the objects that are not lists, tuples or dicts and have no method `tolist`
(Python numbers, strings, `None`, …).  `obj t` is an object whose method `tolist` returns `t`: a numpy array (`t` are nested
lists; for a 0-d array or a numpy scalar `t` is a Python scalar). (the values accepted by util.py:74-103) -/
inductive PyVal (K L : Type) where
  | leaf (x : L)
  | list (xs : List (PyVal K L))
  | tuple (xs : List (PyVal K L))
  | dict (kvs : List (K × PyVal K L))
  | obj (tolist : PyVal K L)

variable {K L : Type}

/-- util.py:74-103 `array_to_list_dict(data)`.  A dict is modified in place (lines 92-94): this is the value of the dict after
the call, which is also the returned object; assigning to existing keys keeps their order. -/
def array_to_list_dict : PyVal K L → PyVal K L
  | .dict kvs => .dict (kvs.map fun kv => (kv.1, array_to_list_dict kv.2))
  | .list xs => .list (xs.map array_to_list_dict)
  | .tuple xs => .list (xs.map array_to_list_dict)
  | .obj t => t
  | .leaf x => .leaf x
termination_by v => sizeOf v
decreasing_by
  all_goals simp_wf
  · rename_i h
    have h1 := List.sizeOf_lt_of_mem h
    have h2 : sizeOf kv = 1 + sizeOf kv.1 + sizeOf kv.2 := by cases kv; rfl
    omega
  · rename_i h
    have h1 := List.sizeOf_lt_of_mem h
    omega
  · rename_i h
    have h1 := List.sizeOf_lt_of_mem h
    omega

end Nv
