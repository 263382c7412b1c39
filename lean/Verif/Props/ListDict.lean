import Verif.Spec.ListDict

/-! # C56: array_to_list_dict -/

namespace Nv

open Spec
variable {K L : Type}

/-- a plain value is left as it is -/
theorem conv_plain {v : PyVal K L} (h : Plain v) : array_to_list_dict v = v := by
  induction h with
  | leaf x => rw [array_to_list_dict]
  | list xs _ ih =>
    rw [array_to_list_dict]
    congr 1
    exact (List.map_congr_left ih).trans (List.map_id xs)
  | dict kvs _ ih =>
    rw [array_to_list_dict]
    congr 1
    refine (List.map_congr_left (g := id) fun kv hk => ?_).trans (List.map_id kvs)
    rw [ih kv hk]; rfl

/-- **C56** the result contains no array and no tuple, at any depth -/
theorem C56_plain_partial {v : PyVal K L} (h : PlainArrays v) : Plain (array_to_list_dict v) := by
  induction h with
  | leaf x => rw [array_to_list_dict]; exact .leaf x
  | list xs _ ih =>
    rw [array_to_list_dict]
    refine .list _ fun y hy => ?_
    obtain ⟨x, hx, rfl⟩ := List.mem_map.mp hy
    exact ih x hx
  | tuple xs _ ih =>
    rw [array_to_list_dict]
    refine .list _ fun y hy => ?_
    obtain ⟨x, hx, rfl⟩ := List.mem_map.mp hy
    exact ih x hx
  | dict kvs _ ih =>
    rw [array_to_list_dict]
    refine .dict _ fun y hy => ?_
    obtain ⟨x, hx, rfl⟩ := List.mem_map.mp hy
    exact ih x hx
  | array t ht => rw [array_to_list_dict]; exact ht

/-- **C56** converting twice changes nothing more -/
theorem C56_idempotent_partial {v : PyVal K L} (h : PlainArrays v) :
    array_to_list_dict (array_to_list_dict v) = array_to_list_dict v := conv_plain (C56_plain_partial h)

/-- **C56** a value without arrays and tuples is returned unchanged -/
theorem C56_unchanged {v : PyVal K L} (h : Plain v) : array_to_list_dict v = v := conv_plain h

theorem see_conv (v : PyVal K L) : see (array_to_list_dict v) = see v := by
  cases v <;> rw [array_to_list_dict] <;> simp [see, Function.comp_def]

/-- **C56** all items keep their places, leaf values, numbers of items, and keys with their order: nothing that can be reached
by subscripts looks different after the conversion -/
theorem C56_contents [DecidableEq K] (v : PyVal K L) (path : List (Step K)) :
    seeAt (array_to_list_dict v) path = seeAt v path := by
  induction path generalizing v with
  | nil => unfold seeAt; rw [see_conv]
  | cons s p ih =>
    cases v with
    | leaf x => rw [array_to_list_dict]
    | obj t => rw [array_to_list_dict]; unfold seeAt; rfl
    | list xs =>
      rw [array_to_list_dict]
      cases s with
      | key k => rfl
      | idx n =>
        unfold seeAt get?
        simp only [List.getElem?_map]
        cases xs[n]? with
        | none => rfl
        | some u => exact ih u
    | tuple xs =>
      rw [array_to_list_dict]
      cases s with
      | key k => rfl
      | idx n =>
        unfold seeAt get?
        simp only [List.getElem?_map]
        cases xs[n]? with
        | none => rfl
        | some u => exact ih u
    | dict kvs =>
      rw [array_to_list_dict]
      cases s with
      | idx n => rfl
      | key k =>
        unfold seeAt get?
        simp only [List.find?_map, Function.comp_def]
        cases kvs.find? (fun kv => decide (kv.1 = k)) with
        | none => rfl
        | some u => exact ih u.2

/-- **C56** is false for an array of objects: the tuple in `np.array([(1, 2)], dtype=object)` (as an object item) remains a tuple,
and a second call changes the value again -/
theorem C56_object_array_counterexample (x : L) :
    ¬ Plain (array_to_list_dict (PyVal.obj (.list [.tuple [.leaf x]]) : PyVal K L)) ∧
    array_to_list_dict (array_to_list_dict (PyVal.obj (.list [.tuple [.leaf x]]) : PyVal K L)) ≠
      array_to_list_dict (PyVal.obj (.list [.tuple [.leaf x]])) := by
  constructor
  · rw [array_to_list_dict]
    intro h
    cases h with
    | list _ h => cases h _ (List.mem_singleton.mpr rfl)
  · simp [array_to_list_dict]

/-- concrete nested value: `{'a': np.array([x, x]), 'b': (x, [np.float64(x)]), 'c': {}}` -/
example (x : L) : PlainArrays (.dict [("a", .obj (.list [.leaf x, .leaf x])), ("b", .tuple [.leaf x, .list [.obj (.leaf x)]]), ("c", .dict [])] :
    PyVal String L) := by
  refine .dict _ fun kv h => ?_
  simp only [List.mem_cons, List.not_mem_nil, or_false] at h
  rcases h with rfl | rfl | rfl
  · exact .array _ (.list _ (by simp [Plain.leaf]))
  · refine .tuple _ ?_
    simp only [List.mem_cons, List.not_mem_nil, or_false, forall_eq_or_imp, forall_eq]
    exact ⟨.leaf x, .list _ (by simpa using .array _ (.leaf x))⟩
  · exact .dict _ (by simp)

end Nv
