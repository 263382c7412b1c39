import Verif.Lemmas.Containers

/-!
# C113: `array_to_list_dict` and `repr` in memory
-/

namespace Nv
open Spec PyHeap

variable {K L : Type}

theorem Evolved.denL {h h' : Heap K L} (e : Evolved h h') {xs : List Ref} {vs : List (PyVal K L)} (d : DenL h xs vs) (hp : ∀ v ∈ vs, PlainArrays v) :
    ∃ vs', DenL h' xs vs' ∧ TurnedL vs vs' := by
  induction xs generalizing vs with
  | nil => cases d with | nil => exact ⟨[], .nil, .nil⟩
  | cons x xs ih =>
    cases d with
    | cons a b =>
      obtain ⟨v', h1, h2⟩ := e.den _ _ a (hp _ (by simp))
      obtain ⟨vs', h3, h4⟩ := ih b fun v hv => hp v (by simp [hv])
      exact ⟨_, .cons h1 h3, .cons h2 h4⟩

theorem Evolved.denD {h h' : Heap K L} (e : Evolved h h') {xs : List (K × Ref)} {vs : List (K × PyVal K L)} (d : DenD h xs vs) (hp : ∀ v ∈ vs, PlainArrays v.2) :
    ∃ vs', DenD h' xs vs' ∧ TurnedD vs vs' := by
  induction xs generalizing vs with
  | nil => cases d with | nil => exact ⟨[], .nil, .nil⟩
  | cons x xs ih =>
    cases d with
    | cons a b =>
      obtain ⟨v', h1, h2⟩ := e.den _ _ a (hp (_, _) (by simp; left; rfl))
      obtain ⟨vs', h3, h4⟩ := ih b fun v hv => hp v (by simp [hv])
      exact ⟨_, .cons h1 h3, .cons ⟨rfl, h2⟩ h4⟩

theorem Spec.DenD.append {h : Heap K L} {xs ys : List (K × Ref)} {vs ws : List (K × PyVal K L)} (d : DenD h xs vs) (d' : DenD h ys ws) : DenD h (xs ++ ys) (vs ++ ws) := by
  induction xs generalizing vs with
  | nil => cases d with | nil => exact d'
  | cons x xs ih => cases d with | cons a b => exact .cons a (ih b)

theorem grown_grown {h h' : Heap K L} {S : Ref → Prop} (hl : h.length ≤ h'.length) {x : Ref} (hx : grown h' (grown h S) x) : grown h S x := by
  rcases hx with hx | hx
  · exact hx
  · exact .inr (Nat.le_trans hl hx)

/-- what is proved of the recursive call -/
def Runs (f : Heap K L → Ref → Option (Heap K L × Ref)) (n : Nat) : Prop :=
  ∀ h r v, Den h r v → PlainArrays v → Depth n (Nv.array_to_list_dict v) → ∃ h' r', f h r = some (h', r') ∧ Den h' r' (Nv.array_to_list_dict v) ∧ Evolved h h' ∧
    (∀ S, Closed h S → S r → ChangedIn h h' S ∧ grown h S r') ∧ (∀ kvs, h[r]? = some (.dict kvs) → r' = r)

theorem items_run {f : Heap K L → Ref → Option (Heap K L × Ref)} {n : Nat} (hf : Runs f n) (xs : List Ref) : ∀ (h : Heap K L) (vs : List (PyVal K L)), DenL h xs vs →
    (∀ v ∈ vs, PlainArrays v) → (∀ v ∈ vs, Depth n (Nv.array_to_list_dict v)) → ∃ h' rs, convItems f h xs = some (h', rs) ∧ DenL h' rs (vs.map Nv.array_to_list_dict) ∧
      Evolved h h' ∧ ∀ S, Closed h S → (∀ x ∈ xs, S x) → ChangedIn h h' S ∧ ∀ x ∈ rs, grown h S x := by
  induction xs with
  | nil =>
    intro h vs d hp hd
    cases d with
    | nil => exact ⟨h, [], rfl, .nil, .refl h, fun S hS _ => ⟨.refl hS, nofun⟩⟩
  | cons x xs ih =>
    intro h vs d hp hd
    cases d with
    | @cons _ v _ vs a b =>
      obtain ⟨h1, r1, e1, d1, ev1, w1, -⟩ := hf h x v a (hp v (by simp)) (hd v (by simp))
      obtain ⟨vs', d2, t2⟩ := ev1.denL b fun v hv => hp v (by simp [hv])
      obtain ⟨h2, rs, e2, d3, ev2, w2⟩ := ih h1 vs' d2 t2.ok (by
        intro v' hv'
        have : Nv.array_to_list_dict v' ∈ vs'.map Nv.array_to_list_dict := List.mem_map_of_mem hv'
        rw [t2.map_conv] at this
        obtain ⟨w, hw, e⟩ := List.mem_map.mp this
        rw [← e]; exact hd w (by simp [hw]))
      refine ⟨h2, r1 :: rs, by simp [convItems, e1, e2], ?_, ev1.trans ev2, ?_⟩
      · rw [t2.map_conv] at d3
        exact .cons (ev2.plain d1 (C56_plain_partial (hp v (by simp)))) d3
      · intro S hS hx
        obtain ⟨w3, g3⟩ := w1 S hS (hx x (by simp))
        obtain ⟨w4, g4⟩ := w2 (grown h S) w3.closed (fun y hy => .inl (hx y (by simp [hy])))
        refine ⟨w3.trans ev1.length_le w4, ?_⟩
        intro y hy
        rcases List.mem_cons.mp hy with rfl | hy
        · exact g3
        · exact grown_grown ev1.length_le (g4 y hy)

theorem modify_at (pre rest : List (K × Ref)) (k : K) (x y : Ref) : (pre ++ (k, x) :: rest).modify pre.length (fun kv => (kv.1, y)) = (pre ++ [(k, y)]) ++ rest := by
  induction pre with
  | nil => rfl
  | cons a l ih => simpa using ih

theorem entries_run {f : Heap K L → Ref → Option (Heap K L × Ref)} {n : Nat} (hf : Runs f n) (d : Ref) (rest : List (K × Ref)) :
    ∀ (h : Heap K L) (pre : List (K × Ref)) (ps vs : List (K × PyVal K L)), h[d]? = some (.dict (pre ++ rest)) → DenD h pre ps → (∀ p ∈ ps, Plain p.2) → DenD h rest vs →
    (∀ v ∈ vs, PlainArrays v.2) → (∀ v ∈ vs, Depth n (Nv.array_to_list_dict v.2)) → ∃ h' kvs', convEntries f d rest.length pre.length h = some h' ∧
      h'[d]? = some (.dict kvs') ∧ DenD h' kvs' (ps ++ vs.map fun kv => (kv.1, Nv.array_to_list_dict kv.2)) ∧
      Evolved h h' ∧ ∀ S, Closed h S → S d → ChangedIn h h' S := by
  induction rest with
  | nil =>
    intro h pre ps vs e dp hps dr hp hd
    cases dr with
    | nil => exact ⟨h, pre, rfl, by simpa using e, by simpa using dp, .refl h, fun S hS _ => .refl hS⟩
  | cons y rest ih =>
    intro h pre ps vs e dp hps dr hp hd
    cases dr with
    | @cons k x v _ vs a b =>
      have hdd : Den h d (.dict (ps ++ (k, v) :: vs)) := .dict e (dp.append (.cons a b))
      have hxr : x ∈ refs (.dict (pre ++ (k, x) :: rest) : Cell K L) := by simp [refs]
      have hac := hdd.acyclic e hxr
      have hdl : d < h.length := (List.getElem?_eq_some_iff.mp e).1
      have hv : PlainArrays v := hp (k, v) (by simp)
      obtain ⟨h1, x1, e1, d1, ev1, w1, -⟩ := hf h x v a hv (hd (k, v) (by simp))
      obtain ⟨wR, gR⟩ := w1 (Reach h x) (closed_reach h x) .refl
      have ed1 : h1[d]? = some (.dict (pre ++ (k, x) :: rest)) := (wR.frame d hdl hac).trans e
      have hdT : ¬ grown h (Reach h x) d := by
        rintro (hh | hh)
        · exact hac hh
        · exact absurd (Nat.lt_of_lt_of_le hdl hh) (Nat.lt_irrefl _)
      -- the assignment
      obtain ⟨h2, hh2⟩ : ∃ h2, h2 = setEntry h1 d pre.length x1 := ⟨_, rfl⟩
      have hset : h2 = h1.set d (.dict ((pre ++ (k, x) :: rest).modify pre.length fun kv => (kv.1, x1))) := by rw [hh2, setEntry_eq ed1]
      have hdl1 : d < h1.length := (List.getElem?_eq_some_iff.mp ed1).1
      have e2 : h2[d]? = some (.dict ((pre ++ (k, x) :: rest).modify pre.length fun kv => (kv.1, x1))) := by
        rw [hset]; simp [hdl1]
      have he : ∀ y : Nat, y ≠ d → h2[y]? = h1[y]? := by
        intro y hy
        rw [hset, List.getElem?_set_ne (Ne.symm hy)]
      have d2 : Den h2 x1 (Nv.array_to_list_dict v) := d1.move wR.closed (fun y hy c ec => by rw [he y (by rintro rfl; exact hdT hy)]; exact ec) gR
      have ev2 : Evolved h1 h2 := by
        constructor
        · intro y c hy
          by_cases hyd : y = d
          · subst hyd
            rw [ed1] at hy; cases hy
            exact ⟨_, e2, modify_keys _ _ _⟩
          · exact ⟨c, by rw [he y hyd]; exact hy, .refl c⟩
        · intro r w dw hw
          refine set_den ed1 e2 he ?_ dw hw
          intro k' y u eu du hu
          rw [List.getElem?_append_right (Nat.le_refl _)] at eu
          simp at eu
          obtain ⟨rfl, rfl⟩ := eu
          obtain ⟨v1, h3, h4⟩ := ev1.den x v a hv
          have := du.unique h3
          subst this
          rw [h4.conv]; exact d2
      have ev := ev1.trans ev2
      obtain ⟨vs', d3, t3⟩ := ev.denD b fun v hv => hp v (by simp [hv])
      have dp2 : DenD h2 pre ps := by
        obtain ⟨ps', h3, h4⟩ := ev.denD dp fun p hp' => plainArrays_of_plain (hps p hp')
        rw [h4.fixed hps] at h3; exact h3
      rw [modify_at] at e2
      obtain ⟨h', kvs', q1, q2, q3, q4, q5⟩ := ih h2 (pre ++ [(k, x1)]) (ps ++ [(k, Nv.array_to_list_dict v)]) vs' e2 (dp2.append (.cons d2 .nil)) (by
          intro p hp'
          rcases List.mem_append.mp hp' with hp' | hp'
          · exact hps p hp'
          · rw [List.mem_singleton.mp hp']; exact C56_plain_partial hv) d3 t3.ok (by
          intro v' hv'
          have : (v'.1, Nv.array_to_list_dict v'.2) ∈ vs'.map fun kv => (kv.1, Nv.array_to_list_dict kv.2) := List.mem_map_of_mem (f := fun kv : K × PyVal K L => (kv.1, Nv.array_to_list_dict kv.2)) hv'
          rw [t3.map_conv] at this
          obtain ⟨w, hw, ew⟩ := List.mem_map.mp this
          have := congrArg Prod.snd ew
          simp only at this
          rw [← this]; exact hd w (by simp [hw]))
      refine ⟨h', kvs', ?_, q2, ?_, ev.trans q4, ?_⟩
      · simp only [List.length_cons, convEntries, e]
        rw [List.getElem?_append_right (Nat.le_refl _)]
        simp only [Nat.sub_self, List.getElem?_cons_zero, e1, ← hh2]
        simpa using q1
      · rw [t3.map_conv] at q3
        simpa using q3
      · intro S hS hSd
        have hSx : S x := hS d hSd _ e x hxr
        obtain ⟨w3, g3⟩ := w1 S hS hSx
        have w4 : ChangedIn h h2 S := by
          constructor
          · intro y hy hn
            rw [he y (by rintro rfl; exact hn hSd), w3.frame y hy hn]
          · intro y hy c ec z hz
            by_cases hyd : y = d
            · subst hyd
              rw [e2] at ec; cases ec
              simp only [refs, List.append_assoc, List.cons_append, List.nil_append, List.map_append, List.map_cons, List.mem_append, List.mem_cons] at hz
              rcases hz with hz | rfl | hz
              · exact .inl (hS y hSd _ e z (by simp only [refs, List.map_append, List.mem_append]; exact .inl hz))
              · exact g3
              · exact .inl (hS y hSd _ e z (by simp only [refs, List.map_append, List.map_cons, List.mem_append, List.mem_cons]; exact .inr (.inr hz)))
            · exact w3.closed y hy c (by rw [← he y hyd]; exact ec) z hz
        exact w4.trans ev.length_le (q5 (grown h S) w4.closed (.inl hSd))

theorem alloc_within {h h1 : Heap K L} {S : Ref → Prop} (hl : h.length ≤ h1.length) (w : ChangedIn h h1 S) {c : Cell K L} (hc : ∀ x ∈ refs c, grown h S x) : ChangedIn h (alloc h1 c).1 S := by
  constructor
  · intro y hy hn
    rw [← w.frame y hy hn]
    simp only [alloc]
    rw [List.getElem?_append_left (by omega)]
  · intro y hy o e x hx
    simp only [alloc] at e
    rcases Nat.lt_trichotomy y h1.length with h2 | h2 | h2
    · rw [List.getElem?_append_left h2] at e
      exact w.closed y hy o e x hx
    · subst h2
      simp at e
      subst e
      exact hc x hx
    · rw [List.getElem?_eq_none (by simp; omega)] at e
      cases e

/-- the whole function -/
theorem runs (n : Nat) : Runs (K := K) (L := L) (PyHeap.array_to_list_dict n) n := by
  induction n with
  | zero => intro h r v _ _ hd; cases hd
  | succ n ih =>
    have seq : ∀ (h : Heap K L) (xs : List Ref) (vs : List (PyVal K L)), DenL h xs vs → (∀ v ∈ vs, PlainArrays v) → (∀ v ∈ vs, Depth n (Nv.array_to_list_dict v)) →
        ∃ h' r', ((convItems (PyHeap.array_to_list_dict n) h xs).map fun p => alloc p.1 (.list p.2)) = some (h', r') ∧
        Den h' r' (.list (vs.map Nv.array_to_list_dict)) ∧ Evolved h h' ∧ ∀ S, Closed h S → (∀ x ∈ xs, S x) → ChangedIn h h' S ∧ grown h S r' := by
      intro h xs vs d hp hd
      obtain ⟨h1, rs, e1, d1, ev1, w1⟩ := items_run ih xs h vs d hp hd
      refine ⟨(alloc h1 (.list rs)).1, (alloc h1 (.list rs)).2, by rw [e1]; rfl, ?_, ev1.trans (.of_prefix (List.prefix_append _ _)), ?_⟩
      · refine .list (xs := rs) (by simp [alloc]) ?_
        exact d1.move (closed_all _) (fun _ _ _ e => get_prefix (List.prefix_append _ _) e) (fun _ _ => trivial)
      · intro S hS hx
        obtain ⟨w2, g2⟩ := w1 S hS hx
        exact ⟨alloc_within ev1.length_le w2 g2, .inr ev1.length_le⟩
    intro h r v d hp hd
    cases d with
    | leaf e => exact ⟨h, r, by simp [PyHeap.array_to_list_dict, e], by rw [Nv.array_to_list_dict]; exact .leaf e, .refl h, fun S hS hr => ⟨.refl hS, .inl hr⟩, fun _ _ => rfl⟩
    | obj e dt =>
      rename_i t v
      refine ⟨(tolist h t).1, (tolist h t).2, by simp [PyHeap.array_to_list_dict, e], ?_, .of_prefix (tolist_prefix h t), ?_, ?_⟩
      · rw [Nv.array_to_list_dict]; exact tolist_den h dt
      · intro S hS hr
        exact tolist_within h S hS t (hS r hr _ e)
      · intro kvs e'; cases e.symm.trans e'
    | list e dl =>
      rename_i xs vs
      rw [Nv.array_to_list_dict] at hd ⊢
      cases hp with
      | list _ hp =>
      cases hd with
      | list _ _ hd =>
        obtain ⟨h', r', q1, q2, q3, q4⟩ := seq h xs vs dl hp (fun v hv => hd _ (List.mem_map_of_mem hv))
        exact ⟨h', r', by simpa [PyHeap.array_to_list_dict, e] using q1, q2, q3, fun S hS hr => q4 S hS (hS r hr _ e), fun kvs e' => by cases e.symm.trans e'⟩
    | tuple e dl =>
      rename_i xs vs
      rw [Nv.array_to_list_dict] at hd ⊢
      cases hp with
      | tuple _ hp =>
      cases hd with
      | list _ _ hd =>
        obtain ⟨h', r', q1, q2, q3, q4⟩ := seq h xs vs dl hp (fun v hv => hd _ (List.mem_map_of_mem hv))
        exact ⟨h', r', by simpa [PyHeap.array_to_list_dict, e] using q1, q2, q3, fun S hS hr => q4 S hS (hS r hr _ e), fun kvs e' => by cases e.symm.trans e'⟩
    | dict e dd =>
      rename_i kvs vs
      rw [Nv.array_to_list_dict] at hd ⊢
      cases hp with
      | dict _ hp =>
      cases hd with
      | dict _ _ hd =>
        obtain ⟨h', kvs', q1, q2, q3, q4, q5⟩ := entries_run ih r kvs h [] [] vs e .nil nofun dd hp
          (fun v hv => hd (v.1, Nv.array_to_list_dict v.2) (List.mem_map_of_mem (f := fun kv : K × PyVal K L => (kv.1, Nv.array_to_list_dict kv.2)) hv))
        refine ⟨h', r, ?_, .dict q2 q3, q4, fun S hS hr => ⟨q5 S hS hr, .inl hr⟩, fun _ _ => rfl⟩
        simp only [List.length_nil] at q1
        simp [PyHeap.array_to_list_dict, e, q1]

/-! ### The property

`Den h r v`: in the memory `h` the object at `r` is the (finite) value `v`; any two references may share objects. -/

/-- **C113** for every memory and every sharing of objects the call returns (it needs no more nested calls than the result has levels) and the returned object
is the converted value -/
theorem C113_result {h : Heap K L} {r : Ref} {v : PyVal K L} (d : Den h r v) (hp : PlainArrays v) :
    ∃ n₀, ∀ n, n₀ ≤ n → ∃ h' r', PyHeap.array_to_list_dict n h r = some (h', r') ∧ Den h' r' (Nv.array_to_list_dict v) := by
  obtain ⟨n₀, h0⟩ := exists_depth (C56_plain_partial hp)
  refine ⟨n₀, fun n hn => ?_⟩
  obtain ⟨h', r', e, d', -⟩ := runs n h r v d hp (h0.mono hn)
  exact ⟨h', r', e, d'⟩

section
variable {n : Nat} {h h' : Heap K L} {r r' : Ref} {v : PyVal K L} (d : Den h r v) (hp : PlainArrays v) (hn : Depth n (Nv.array_to_list_dict v))
  (e : PyHeap.array_to_list_dict n h r = some (h', r'))
include d hp hn e

theorem run_of : Den h' r' (Nv.array_to_list_dict v) ∧ Evolved h h' ∧ (∀ S, Closed h S → S r → ChangedIn h h' S ∧ grown h S r') ∧ (∀ kvs, h[r]? = some (.dict kvs) → r' = r) := by
  obtain ⟨h1, r1, e1, q⟩ := runs n h r v d hp hn
  cases e.symm.trans e1
  exact q

/-- **C113** a dict is converted in place: the call returns the caller's own dict, and through every reference to it the converted value is seen -/
theorem C113_in_place {vs : List (K × PyVal K L)} (hv : v = .dict vs) : r' = r ∧ Den h' r (Nv.array_to_list_dict v) := by
  subst hv
  obtain ⟨q1, -, -, q4⟩ := run_of d hp hn e
  cases d with
  | dict e' _ => have := q4 _ e'; subst this; exact ⟨rfl, q1⟩

/-- **C113** objects that the argument does not refer to, directly or through other objects, are untouched -/
theorem C113_frame (y : Nat) (hy : y < h.length) (hr : ¬ Reach h r y) : h'[y]? = h[y]? :=
  ((run_of d hp hn e).2.2.1 (Reach h r) (closed_reach h r) .refl).1.frame y hy hr

/-- **C113** no list, tuple, array or other object is ever modified, only dicts, and these keep their keys in their order -/
theorem C113_only_dicts (y : Nat) (c : Cell K L) (hy : h[y]? = some c) :
    h'[y]? = some c ∨ ∃ kvs kvs', c = .dict kvs ∧ h'[y]? = some (.dict kvs') ∧ kvs'.map (·.1) = kvs.map (·.1) := by
  obtain ⟨c', h1, h2⟩ := (run_of d hp hn e).2.1.shape y c hy
  cases c <;> cases c' <;> simp_all [SameShape]

/-- **C113** whatever else refers to the converted objects, even through arrays, tuples and dicts of its own: nothing that it can reach by subscripts looks different
after the call -/
theorem C113_others [DecidableEq K] (x : Ref) (w : PyVal K L) (dw : Den h x w) (hw : PlainArrays w) :
    ∃ w', Den h' x w' ∧ ∀ path, seeAt w' path = seeAt w path := by
  obtain ⟨w', h1, h2⟩ := (run_of d hp hn e).2.1.den x w dw hw
  exact ⟨w', h1, fun path => by rw [← C56_contents w', h2.conv, C56_contents]⟩
end

/-- a closed set without dicts is not modified -/
theorem unchanged_of_no_dict {n : Nat} {h h' : Heap K L} {d r' : Ref} {kvs : List (K × Ref)} {vs : List (K × PyVal K L)}
    (dd : DenD h kvs vs) (hp : ∀ v ∈ vs, PlainArrays v.2) (hn : Depth n (Nv.array_to_list_dict (.dict vs)))
    (e : PyHeap.array_to_list_dict n (alloc h (.dict kvs)).1 (alloc h (.dict kvs)).2 = some (h', r'))
    (hno : ∀ x ∈ kvs.map (·.2), ∀ y, Reach h x y → ∀ l, h[y]? ≠ some (.dict l)) (y : Nat) (c : Cell K L) (hy : h[y]? = some c) : h'[y]? = some c := by
  have hpre : h <+: (alloc h (.dict kvs)).1 := List.prefix_append _ _
  have e1 : (alloc h (.dict kvs)).1[(alloc h (.dict kvs)).2]? = some (.dict kvs) := by simp [alloc]
  have d1 : Den (alloc h (.dict kvs)).1 (alloc h (.dict kvs)).2 (.dict vs) :=
    .dict e1 (dd.move (closed_all _) (fun _ _ _ e => get_prefix hpre e) (fun _ _ => trivial))
  have hyl : y < h.length := (List.getElem?_eq_some_iff.mp hy).1
  -- the set of what the attributes reach and the new dict
  let S : Ref → Prop := fun z => (∃ x ∈ kvs.map (·.2), Reach h x z) ∨ z = h.length
  have hS : Closed (alloc h (.dict kvs)).1 S := by
    intro z hz o eo x hx
    by_cases hzl : z = h.length
    · subst hzl
      simp [alloc] at eo
      subst eo
      exact .inl ⟨x, hx, .refl⟩
    · rcases hz with ⟨a, ha, hr⟩ | hz
      · obtain ⟨u, hu, -⟩ : ∃ w, Den h z w ∧ True := by
          obtain ⟨w, dw, -⟩ := dd.get_refs a ha
          obtain ⟨u, du, -⟩ := hr.den dw
          exact ⟨u, du, trivial⟩
        have hz' : ∃ o', h[z]? = some o' := by cases hu <;> exact ⟨_, by assumption⟩
        obtain ⟨o', ho'⟩ := hz'
        rw [get_prefix hpre ho'] at eo
        cases eo
        exact .inl ⟨a, ha, .step hr ho' hx⟩
      · exact absurd hz hzl
  obtain ⟨-, ev, q, -⟩ := run_of d1 (.dict _ hp) hn e
  have hy1 : (alloc h (.dict kvs)).1[y]? = some c := get_prefix hpre hy
  obtain ⟨c', h1, h2⟩ := ev.shape y c hy1
  by_cases hs : S y
  · rcases hs with ⟨x, hx, hr⟩ | hs
    · cases c with
      | dict l => exact absurd hy (hno x hx y hr l)
      | leaf _ => cases c' <;> simp_all [SameShape]
      | list _ => cases c' <;> simp_all [SameShape]
      | tuple _ => cases c' <;> simp_all [SameShape]
      | obj _ => cases c' <;> simp_all [SameShape]
    · subst hs; exact absurd hyl (Nat.lt_irrefl _)
  · have := (q S hS (.inr rfl)).1.frame y (by simp [alloc]; omega) hs
    rw [this, hy1]

/-- **C113** `repr(obj)`: the object and everything else in memory is unchanged if no attribute is, contains or refers to a dict (no class of the library has such an
attribute) -/
theorem C113_repr_unchanged {n : Nat} {h h' : Heap K L} {d r' : Ref} {kvs : List (K × Ref)} {vs : List (K × PyVal K L)} (hd : h[d]? = some (.dict kvs))
    (dd : DenD h kvs vs) (hp : ∀ v ∈ vs, PlainArrays v.2) (hn : Depth n (Nv.array_to_list_dict (.dict vs))) (e : repr_params n h d = some (h', r'))
    (hno : ∀ x ∈ kvs.map (·.2), ∀ y, Reach h x y → ∀ l, h[y]? ≠ some (.dict l)) :
    (∀ (y : Nat) (c : Cell K L), h[y]? = some c → h'[y]? = some c) ∧ Den h' r' (Nv.array_to_list_dict (.dict vs)) := by
  unfold repr_params at e
  rw [hd] at e
  refine ⟨fun y c hy => unchanged_of_no_dict (d := d) dd hp hn e hno y c hy, ?_⟩
  have d1 : Den (alloc h (.dict kvs)).1 (alloc h (.dict kvs)).2 (.dict vs) :=
    .dict (by simp [alloc]) (dd.move (closed_all _) (fun _ _ _ e => get_prefix (List.prefix_append _ _) e) (fun _ _ => trivial))
  exact (run_of d1 (.dict _ hp) hn e).1

/-- **C113** without that condition the attribute values can change: an attribute that is a dict holding an array (here `name`) is converted by `repr(obj)` -/
theorem C113_repr_counterexample (x : L) :
    repr_params 3 [.leaf x, .obj (.node [.ref 0]), .dict [("data", 1)], .dict [("name", 2)]] 3 =
      some ([.leaf x, .obj (.node [.ref 0]), .dict [("data", 5)], .dict [("name", 2)], .dict [("name", 2)], .list [0]], 4) := by
  rfl

/-- **C113** sharing matters for arrays of objects (`dtype=object`): a dict that occurs twice is converted twice, so the tuple inside the array becomes a list, which it
does not where the dict occurs once -/
theorem C113_shared_object_array_counterexample (x : L) :
    (∃ h', PyHeap.array_to_list_dict 9 [.leaf x, .tuple [0], .obj (.node [.ref 1]), .dict [("k", 2)], .dict [("a", 3)]] 4 = some (h', 4) ∧
      Den h' 4 (.dict [("a", .dict [("k", .list [.tuple [.leaf x]])])])) ∧
    ∃ h', PyHeap.array_to_list_dict 9 [.leaf x, .tuple [0], .obj (.node [.ref 1]), .dict [("k", 2)], .dict [("a", 3), ("b", 3)]] 4 = some (h', 4) ∧
      Den h' 4 (.dict [("a", .dict [("k", .list [.list [.leaf x]])]), ("b", .dict [("k", .list [.list [.leaf x]])])]) := by
  constructor
  · refine ⟨[.leaf x, .tuple [0], .obj (.node [.ref 1]), .dict [("k", 5)], .dict [("a", 3)], .list [1]], rfl, ?_⟩
    exact .dict rfl (.cons (.dict rfl (.cons (.list rfl (.cons (.tuple rfl (.cons (.leaf rfl) .nil)) .nil)) .nil)) .nil)
  · refine ⟨[.leaf x, .tuple [0], .obj (.node [.ref 1]), .dict [("k", 7)], .dict [("a", 3), ("b", 3)], .list [1], .list [0], .list [6]], rfl, ?_⟩
    have h3 : Den [.leaf x, .tuple [0], .obj (.node [.ref 1]), .dict [("k", 7)], .dict [("a", 3), ("b", 3)], .list [1], .list [0], .list [6]] 3
        (.dict [("k", .list [.list [.leaf x]])] : PyVal String L) := .dict rfl (.cons (.list rfl (.cons (.list rfl (.cons (.leaf rfl) .nil)) .nil)) .nil)
    exact .dict rfl (.cons h3 (.cons h3 .nil))

/-- C113: `{'a': arr, 'b': d, 'c': [d]}` with the shared dict `d = {'k': (arr,)}` meets the hypotheses -/
example (x : L) : ∃ n h' r', PyHeap.array_to_list_dict n [.leaf x, .obj (.node [.ref 0]), .tuple [1], .dict [("k", 2)], .list [3], .dict [("a", 1), ("b", 3), ("c", 4)]] 5 = some (h', r') ∧
    Den h' r' (.dict [("a", .list [.leaf x]), ("b", .dict [("k", .list [.list [.leaf x]])]), ("c", .list [.dict [("k", .list [.list [.leaf x]])]])]) := by
  have d3 : Den [.leaf x, .obj (.node [.ref 0]), .tuple [1], .dict [("k", 2)], .list [3], .dict [("a", 1), ("b", 3), ("c", 4)]] 3
      (.dict [("k", .tuple [.obj (.list [.leaf x])])] : PyVal String L) :=
    .dict rfl (.cons (.tuple rfl (.cons (.obj rfl (.node (.cons (.ref (.leaf rfl)) .nil))) .nil)) .nil)
  have pl : Plain (.list [.leaf x] : PyVal String L) := .list _ (by simp [Plain.leaf])
  have p3 : PlainArrays (.dict [("k", .tuple [.obj (.list [.leaf x])])] : PyVal String L) := .dict _ (by simpa using .tuple _ (by simpa using .array _ pl))
  have d5 : Den [.leaf x, .obj (.node [.ref 0]), .tuple [1], .dict [("k", 2)], .list [3], .dict [("a", 1), ("b", 3), ("c", 4)]] 5
      (.dict [("a", .obj (.list [.leaf x])), ("b", .dict [("k", .tuple [.obj (.list [.leaf x])])]), ("c", .list [.dict [("k", .tuple [.obj (.list [.leaf x])])]])] : PyVal String L) :=
    .dict rfl (.cons (.obj rfl (.node (.cons (.ref (.leaf rfl)) .nil))) (.cons d3 (.cons (.list rfl (.cons d3 .nil)) .nil)))
  have p5 : PlainArrays (.dict [("a", .obj (.list [.leaf x])), ("b", .dict [("k", .tuple [.obj (.list [.leaf x])])]), ("c", .list [.dict [("k", .tuple [.obj (.list [.leaf x])])]])] :
      PyVal String L) := by
    refine .dict _ ?_
    simp only [List.mem_cons, List.not_mem_nil, or_false, forall_eq_or_imp, forall_eq]
    exact ⟨.array _ pl, p3, .list _ (by simpa using p3)⟩
  obtain ⟨n, h0⟩ := C113_result d5 p5
  obtain ⟨h', r', e, q⟩ := h0 n (Nat.le_refl n)
  exact ⟨n, h', r', e, by simpa [Nv.array_to_list_dict] using q⟩

/-- C113: `repr` of an object with the attributes `latitude = np.array([x])` and `frame` leaves memory as it is -/
example (x F : L) : ∃ n h' r', repr_params n [.leaf x, .obj (.node [.ref 0]), .leaf F, .dict [("latitude", 1), ("frame", 2)]] 3 = some (h', r') ∧
    h'[3]? = some (.dict [("latitude", 1), ("frame", 2)]) ∧ Den h' r' (.dict [("latitude", .list [.leaf x]), ("frame", .leaf F)]) := by
  have dd : DenD [.leaf x, .obj (.node [.ref 0]), .leaf F, .dict [("latitude", 1), ("frame", 2)]] [("latitude", 1), ("frame", 2)]
      ([("latitude", .obj (.list [.leaf x])), ("frame", .leaf F)] : List (String × PyVal String L)) :=
    .cons (.obj rfl (.node (.cons (.ref (.leaf rfl)) .nil))) (.cons (.leaf rfl) .nil)
  have hp : ∀ v ∈ ([("latitude", .obj (.list [.leaf x])), ("frame", .leaf F)] : List (String × PyVal String L)), PlainArrays v.2 := by
    simp only [List.mem_cons, List.not_mem_nil, or_false, forall_eq_or_imp, forall_eq]
    exact ⟨.array _ (.list _ (by simp [Plain.leaf])), .leaf F⟩
  have hno : ∀ a ∈ ([("latitude", 1), ("frame", 2)] : List (String × Ref)).map (·.2), ∀ y,
      Reach [.leaf x, .obj (.node [.ref 0]), .leaf F, .dict [("latitude", 1), ("frame", 2)]] a y → y = 0 ∨ y = 1 ∨ y = 2 := by
    intro a ha y hy
    induction hy with
    | refl => simp at ha; rcases ha with rfl | rfl <;> simp
    | step _ e hc ih =>
      rcases ih with rfl | rfl | rfl <;> simp at e <;> subst e <;> simp [refs, treeRefs, treesRefs] at hc
      exact .inl hc
  obtain ⟨n, hn⟩ := exists_depth (C56_plain_partial (.dict _ hp))
  obtain ⟨h', r', e, -⟩ : ∃ h' r', repr_params n [.leaf x, .obj (.node [.ref 0]), .leaf F, .dict [("latitude", 1), ("frame", 2)]] 3 = some (h', r') ∧ True := by
    obtain ⟨h', r', e, -⟩ := runs n (alloc [.leaf x, .obj (.node [.ref 0]), .leaf F, .dict [("latitude", 1), ("frame", 2)]] (.dict [("latitude", 1), ("frame", 2)])).1 4 _
      (.dict (vs := [("latitude", .obj (.list [.leaf x])), ("frame", .leaf F)]) rfl
        (dd.move (closed_all _) (fun _ _ _ e => get_prefix (List.prefix_append _ _) e) (fun _ _ => trivial))) (.dict _ hp) hn
    exact ⟨h', r', e, trivial⟩
  obtain ⟨q1, q2⟩ := C113_repr_unchanged rfl dd hp hn e (by
    intro a ha y hy l hl
    rcases hno a ha y hy with rfl | rfl | rfl <;> simp at hl)
  exact ⟨n, h', r', e, q1 3 _ rfl, by simpa [Nv.array_to_list_dict] using q2⟩

end Nv
