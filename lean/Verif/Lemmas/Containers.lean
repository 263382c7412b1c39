import Verif.Spec.Containers
import Verif.Props.ListDict
import Mathlib.Data.List.Forall2
import Mathlib.Tactic.Tauto


/-! # Lemmas on the memory of containers -/

namespace Nv
open Spec PyHeap

variable {K L : Type}

/-! ### Values -/

theorem plainArrays_of_plain {v : PyVal K L} (h : Plain v) : PlainArrays v := by
  induction h with
  | leaf x => exact .leaf x
  | list xs _ ih => exact .list xs ih
  | dict kvs _ ih => exact .dict kvs ih

theorem Spec.Depth.mono {n m : Nat} {v : PyVal K L} (h : Depth n v) (hm : n ≤ m) : Depth m v := by
  induction h generalizing m with
  | leaf n x => obtain ⟨m, rfl⟩ : ∃ k, m = k + 1 := ⟨m - 1, by omega⟩; exact .leaf m x
  | list n xs _ ih => obtain ⟨m, rfl⟩ : ∃ k, m = k + 1 := ⟨m - 1, by omega⟩; exact .list m xs fun x hx => ih x hx (by omega)
  | dict n xs _ ih => obtain ⟨m, rfl⟩ : ∃ k, m = k + 1 := ⟨m - 1, by omega⟩; exact .dict m xs fun x hx => ih x hx (by omega)

theorem exists_bound {β : Type} {P : Nat → β → Prop} (mono : ∀ n m x, P n x → n ≤ m → P m x) (xs : List β) (h : ∀ x ∈ xs, ∃ n, P n x) : ∃ n, ∀ x ∈ xs, P n x := by
  induction xs with
  | nil => exact ⟨0, nofun⟩
  | cons x xs ih =>
    obtain ⟨n, hn⟩ := h x (by simp)
    obtain ⟨m, hm⟩ := ih fun y hy => h y (by simp [hy])
    refine ⟨max n m, fun y hy => ?_⟩
    rcases List.mem_cons.mp hy with rfl | hy
    · exact mono _ _ _ hn (Nat.le_max_left _ _)
    · exact mono _ _ _ (hm y hy) (Nat.le_max_right _ _)

/-- every plain value has a depth -/
theorem exists_depth {v : PyVal K L} (h : Plain v) : ∃ n, Depth n v := by
  induction h with
  | leaf x => exact ⟨1, .leaf 0 x⟩
  | list xs _ ih =>
    obtain ⟨n, hn⟩ := exists_bound (P := fun n v => Depth n v) (fun _ _ _ h => h.mono) xs ih
    exact ⟨n + 1, .list n xs hn⟩
  | dict xs _ ih =>
    obtain ⟨n, hn⟩ := exists_bound (P := fun n (kv : K × PyVal K L) => Depth n kv.2) (fun _ _ _ h => h.mono) xs ih
    exact ⟨n + 1, .dict n xs hn⟩

/-- what may happen to a value while other objects are converted -/
structure Turned (v v' : PyVal K L) : Prop where
  ok : PlainArrays v'
  conv : Nv.array_to_list_dict v' = Nv.array_to_list_dict v
  fixed : Plain v → v' = v

theorem Turned.refl {v : PyVal K L} (h : PlainArrays v) : Turned v v := ⟨h, rfl, fun _ => rfl⟩

theorem Turned.trans {u v w : PyVal K L} (h : Turned u v) (h' : Turned v w) : Turned u w :=
  ⟨h'.ok, h'.conv.trans h.conv, fun hp => by have e := h.fixed hp; subst e; exact h'.fixed hp⟩

/-- the value after the conversion -/
theorem turned_conv {v : PyVal K L} (h : PlainArrays v) : Turned v (Nv.array_to_list_dict v) :=
  ⟨plainArrays_of_plain (C56_plain_partial h), C56_idempotent_partial h, fun hp => conv_plain hp⟩

def TurnedL : List (PyVal K L) → List (PyVal K L) → Prop := List.Forall₂ Turned
def TurnedD : List (K × PyVal K L) → List (K × PyVal K L) → Prop := List.Forall₂ fun a b => a.1 = b.1 ∧ Turned a.2 b.2

theorem TurnedL.map_conv {vs vs' : List (PyVal K L)} (h : TurnedL vs vs') : vs'.map Nv.array_to_list_dict = vs.map Nv.array_to_list_dict := by
  induction h with
  | nil => rfl
  | cons h _ ih => simp [h.conv, ih]

theorem TurnedL.ok {vs vs' : List (PyVal K L)} (h : TurnedL vs vs') : ∀ x ∈ vs', PlainArrays x := by
  induction h with
  | nil => nofun
  | cons h _ ih => intro x hx; rcases List.mem_cons.mp hx with rfl | hx; exacts [h.ok, ih x hx]

theorem TurnedL.fixed {vs vs' : List (PyVal K L)} (h : TurnedL vs vs') (hp : ∀ x ∈ vs, Plain x) : vs' = vs := by
  induction h with
  | nil => rfl
  | cons h _ ih => rw [h.fixed (hp _ (by simp)), ih fun x hx => hp x (by simp [hx])]

theorem TurnedD.map_conv {vs vs' : List (K × PyVal K L)} (h : TurnedD vs vs') :
    (vs'.map fun kv => (kv.1, Nv.array_to_list_dict kv.2)) = vs.map fun kv => (kv.1, Nv.array_to_list_dict kv.2) := by
  induction h with
  | nil => rfl
  | cons h _ ih => simp [h.1, h.2.conv, ih]

theorem TurnedD.ok {vs vs' : List (K × PyVal K L)} (h : TurnedD vs vs') : ∀ x ∈ vs', PlainArrays x.2 := by
  induction h with
  | nil => nofun
  | cons h _ ih => intro x hx; rcases List.mem_cons.mp hx with rfl | hx; exacts [h.2.ok, ih x hx]

theorem TurnedD.fixed {vs vs' : List (K × PyVal K L)} (h : TurnedD vs vs') (hp : ∀ x ∈ vs, Plain x.2) : vs' = vs := by
  induction h with
  | nil => rfl
  | @cons a b _ _ h _ ih =>
    rw [ih fun x hx => hp x (by simp [hx])]
    congr 1
    exact Prod.ext h.1.symm (h.2.fixed (hp _ (by simp)))

theorem TurnedL.list {vs vs' : List (PyVal K L)} (h : TurnedL vs vs') : Turned (.list vs) (.list vs') :=
  ⟨.list _ h.ok, by rw [Nv.array_to_list_dict, Nv.array_to_list_dict, h.map_conv], fun hp => by cases hp with | list _ hp => rw [h.fixed hp]⟩

theorem TurnedL.tuple {vs vs' : List (PyVal K L)} (h : TurnedL vs vs') : Turned (.tuple vs) (.tuple vs') :=
  ⟨.tuple _ h.ok, by rw [Nv.array_to_list_dict, Nv.array_to_list_dict, h.map_conv], fun hp => by cases hp⟩

theorem TurnedD.dict {vs vs' : List (K × PyVal K L)} (h : TurnedD vs vs') : Turned (.dict vs) (.dict vs') :=
  ⟨.dict _ h.ok, by rw [Nv.array_to_list_dict, Nv.array_to_list_dict, h.map_conv], fun hp => by cases hp with | dict _ hp => rw [h.fixed hp]⟩

/-! ### The value of an object is unique -/

mutual
theorem Spec.Den.unique {h : Heap K L} : ∀ {r : Ref} {v w : PyVal K L}, Den h r v → Den h r w → v = w
  | _, _, _, .leaf e, .leaf e' => by cases e.symm.trans e'; rfl
  | _, _, _, .list e d, .list e' d' => by cases e.symm.trans e'; rw [Spec.DenL.unique d d']
  | _, _, _, .tuple e d, .tuple e' d' => by cases e.symm.trans e'; rw [Spec.DenL.unique d d']
  | _, _, _, .dict e d, .dict e' d' => by cases e.symm.trans e'; rw [Spec.DenD.unique d d']
  | _, _, _, .obj e d, .obj e' d' => by cases e.symm.trans e'; rw [Spec.DenT.unique d d']
  | _, _, _, .leaf e, .list e' _ => by cases e.symm.trans e'
  | _, _, _, .leaf e, .tuple e' _ => by cases e.symm.trans e'
  | _, _, _, .leaf e, .dict e' _ => by cases e.symm.trans e'
  | _, _, _, .leaf e, .obj e' _ => by cases e.symm.trans e'
  | _, _, _, .list e _, .leaf e' => by cases e.symm.trans e'
  | _, _, _, .list e _, .tuple e' _ => by cases e.symm.trans e'
  | _, _, _, .list e _, .dict e' _ => by cases e.symm.trans e'
  | _, _, _, .list e _, .obj e' _ => by cases e.symm.trans e'
  | _, _, _, .tuple e _, .leaf e' => by cases e.symm.trans e'
  | _, _, _, .tuple e _, .list e' _ => by cases e.symm.trans e'
  | _, _, _, .tuple e _, .dict e' _ => by cases e.symm.trans e'
  | _, _, _, .tuple e _, .obj e' _ => by cases e.symm.trans e'
  | _, _, _, .dict e _, .leaf e' => by cases e.symm.trans e'
  | _, _, _, .dict e _, .list e' _ => by cases e.symm.trans e'
  | _, _, _, .dict e _, .tuple e' _ => by cases e.symm.trans e'
  | _, _, _, .dict e _, .obj e' _ => by cases e.symm.trans e'
  | _, _, _, .obj e _, .leaf e' => by cases e.symm.trans e'
  | _, _, _, .obj e _, .list e' _ => by cases e.symm.trans e'
  | _, _, _, .obj e _, .tuple e' _ => by cases e.symm.trans e'
  | _, _, _, .obj e _, .dict e' _ => by cases e.symm.trans e'
theorem Spec.DenL.unique {h : Heap K L} : ∀ {r : List Ref} {v w : List (PyVal K L)}, DenL h r v → DenL h r w → v = w
  | _, _, _, .nil, .nil => rfl
  | _, _, _, .cons a b, .cons a' b' => by rw [Spec.Den.unique a a', Spec.DenL.unique b b']
theorem Spec.DenD.unique {h : Heap K L} : ∀ {r : List (K × Ref)} {v w : List (K × PyVal K L)}, DenD h r v → DenD h r w → v = w
  | _, _, _, .nil, .nil => rfl
  | _, _, _, .cons a b, .cons a' b' => by rw [Spec.Den.unique a a', Spec.DenD.unique b b']
theorem Spec.DenT.unique {h : Heap K L} : ∀ {r : Tree} {v w : PyVal K L}, DenT h r v → DenT h r w → v = w
  | _, _, _, .ref a, .ref a' => Spec.Den.unique a a'
  | _, _, _, .node a, .node a' => by rw [Spec.DenTL.unique a a']
theorem Spec.DenTL.unique {h : Heap K L} : ∀ {r : List Tree} {v w : List (PyVal K L)}, DenTL h r v → DenTL h r w → v = w
  | _, _, _, .nil, .nil => rfl
  | _, _, _, .cons a b, .cons a' b' => by rw [Spec.DenT.unique a a', Spec.DenTL.unique b b']
end

/-! ### Values in a set of objects closed under reference -/

/-- everything an object of `S` refers to is in `S` -/
def Closed (h : Heap K L) (S : Ref → Prop) : Prop := ∀ y : Nat, S y → ∀ c, h[y]? = some c → ∀ x ∈ refs c, S x

mutual
/-- the value of an object depends on the objects it can reach only -/
theorem Spec.Den.move {h h' : Heap K L} {S : Ref → Prop} (hS : Closed h S) (hh : ∀ y, S y → ∀ c, h[y]? = some c → h'[y]? = some c) :
    ∀ {r : Ref} {v : PyVal K L}, S r → Den h r v → Den h' r v
  | _, _, hr, .leaf e => .leaf (hh _ hr _ e)
  | _, _, hr, .list e d => .list (hh _ hr _ e) (Spec.DenL.move hS hh (hS _ hr _ e) d)
  | _, _, hr, .tuple e d => .tuple (hh _ hr _ e) (Spec.DenL.move hS hh (hS _ hr _ e) d)
  | _, _, hr, .dict e d => .dict (hh _ hr _ e) (Spec.DenD.move hS hh (hS _ hr _ e) d)
  | _, _, hr, .obj e d => .obj (hh _ hr _ e) (Spec.DenT.move hS hh (hS _ hr _ e) d)
theorem Spec.DenL.move {h h' : Heap K L} {S : Ref → Prop} (hS : Closed h S) (hh : ∀ y, S y → ∀ c, h[y]? = some c → h'[y]? = some c) :
    ∀ {r : List Ref} {v : List (PyVal K L)}, (∀ x ∈ r, S x) → DenL h r v → DenL h' r v
  | _, _, _, .nil => .nil
  | _, _, hr, .cons a b => .cons (Spec.Den.move hS hh (hr _ (by simp)) a) (Spec.DenL.move hS hh (fun x hx => hr x (by simp [hx])) b)
theorem Spec.DenD.move {h h' : Heap K L} {S : Ref → Prop} (hS : Closed h S) (hh : ∀ y, S y → ∀ c, h[y]? = some c → h'[y]? = some c) :
    ∀ {r : List (K × Ref)} {v : List (K × PyVal K L)}, (∀ x ∈ r.map (·.2), S x) → DenD h r v → DenD h' r v
  | _, _, _, .nil => .nil
  | _, _, hr, .cons a b => .cons (Spec.Den.move hS hh (hr _ (by simp)) a) (Spec.DenD.move hS hh (fun x hx => hr x (List.mem_cons_of_mem _ hx)) b)
theorem Spec.DenT.move {h h' : Heap K L} {S : Ref → Prop} (hS : Closed h S) (hh : ∀ y, S y → ∀ c, h[y]? = some c → h'[y]? = some c) :
    ∀ {r : Tree} {v : PyVal K L}, (∀ x ∈ treeRefs r, S x) → DenT h r v → DenT h' r v
  | _, _, hr, .ref a => .ref (Spec.Den.move hS hh (hr _ (by simp [treeRefs])) a)
  | _, _, hr, .node a => .node (Spec.DenTL.move hS hh (by simpa [treeRefs] using hr) a)
theorem Spec.DenTL.move {h h' : Heap K L} {S : Ref → Prop} (hS : Closed h S) (hh : ∀ y, S y → ∀ c, h[y]? = some c → h'[y]? = some c) :
    ∀ {r : List Tree} {v : List (PyVal K L)}, (∀ x ∈ treesRefs r, S x) → DenTL h r v → DenTL h' r v
  | _, _, _, .nil => .nil
  | _, _, hr, .cons a b => .cons (Spec.DenT.move hS hh (fun x hx => hr x (by simp [treesRefs, hx])) a)
      (Spec.DenTL.move hS hh (fun x hx => hr x (by simp [treesRefs, hx])) b)
end

theorem closed_all (h : Heap K L) : Closed h fun _ => True := fun _ _ _ _ _ _ => trivial

/-- a longer memory -/
theorem get_prefix {h h' : Heap K L} (hp : h <+: h') {y : Ref} {c : Cell K L} (e : h[y]? = some c) : h'[y]? = some c := by
  obtain ⟨t, rfl⟩ := hp
  rw [List.getElem?_append_left (by have := List.getElem?_eq_some_iff.mp e; exact this.1)]; exact e

theorem Spec.Den.prefix {h h' : Heap K L} (hp : h <+: h') {r : Ref} {v : PyVal K L} (d : Den h r v) : Den h' r v :=
  d.move (closed_all h) (fun _ _ _ e => get_prefix hp e) trivial

theorem Spec.DenTL.prefix {h h' : Heap K L} (hp : h <+: h') {r : List Tree} {v : List (PyVal K L)} (d : DenTL h r v) : DenTL h' r v :=
  d.move (closed_all h) (fun _ _ _ e => get_prefix hp e) (fun _ _ => trivial)

theorem closed_reach (h : Heap K L) (a : Ref) : Closed h (Reach h a) := fun _ hy _ e _ hx => .step hy e hx

/-! ### Reachable objects have smaller values -/

mutual
theorem Spec.Den.get_refs {h : Heap K L} : ∀ {r : Ref} {v : PyVal K L}, Den h r v → ∀ {c : Cell K L}, h[r]? = some c → ∀ x ∈ refs c,
    ∃ w, Den h x w ∧ sizeOf w < sizeOf v
  | _, _, .leaf e, c, e', x, hx => by cases e.symm.trans e'; exact absurd hx (by simp [refs])
  | _, _, .list e d, c, e', x, hx => by
      cases e.symm.trans e'
      obtain ⟨w, h1, h2⟩ := Spec.DenL.get_refs d x hx
      exact ⟨w, h1, by simp; omega⟩
  | _, _, .tuple e d, c, e', x, hx => by
      cases e.symm.trans e'
      obtain ⟨w, h1, h2⟩ := Spec.DenL.get_refs d x hx
      exact ⟨w, h1, by simp; omega⟩
  | _, _, .dict e d, c, e', x, hx => by
      cases e.symm.trans e'
      obtain ⟨w, h1, h2⟩ := Spec.DenD.get_refs d x hx
      exact ⟨w, h1, by simp; omega⟩
  | _, _, .obj e d, c, e', x, hx => by
      cases e.symm.trans e'
      obtain ⟨w, h1, h2⟩ := Spec.DenT.get_refs d x hx
      exact ⟨w, h1, by simp; omega⟩
theorem Spec.DenL.get_refs {h : Heap K L} : ∀ {r : List Ref} {v : List (PyVal K L)}, DenL h r v → ∀ x ∈ r, ∃ w, Den h x w ∧ sizeOf w < sizeOf v
  | _, _, .nil, x, hx => by simp at hx
  | _, _, .cons (v := v) a b, x, hx => by
      rcases List.mem_cons.mp hx with rfl | hx
      · exact ⟨v, a, by simp; omega⟩
      · obtain ⟨w, h1, h2⟩ := Spec.DenL.get_refs b x hx
        exact ⟨w, h1, by simp; omega⟩
theorem Spec.DenD.get_refs {h : Heap K L} : ∀ {r : List (K × Ref)} {v : List (K × PyVal K L)}, DenD h r v → ∀ x ∈ r.map (·.2), ∃ w, Den h x w ∧ sizeOf w < sizeOf v
  | _, _, .nil, x, hx => by simp at hx
  | _, _, .cons (v := v) a b, x, hx => by
      rcases List.mem_cons.mp hx with rfl | hx
      · exact ⟨v, a, by simp; omega⟩
      · obtain ⟨w, h1, h2⟩ := Spec.DenD.get_refs b x hx
        exact ⟨w, h1, by simp; omega⟩
theorem Spec.DenT.get_refs {h : Heap K L} : ∀ {r : Tree} {v : PyVal K L}, DenT h r v → ∀ x ∈ treeRefs r, ∃ w, Den h x w ∧ sizeOf w ≤ sizeOf v
  | _, _, .ref (v := v) a, x, hx => by
      simp only [treeRefs, List.mem_singleton] at hx
      subst hx
      exact ⟨v, a, Nat.le_refl _⟩
  | _, _, .node a, x, hx => by
      obtain ⟨w, h1, h2⟩ := Spec.DenTL.get_refs a x (by simpa [treeRefs] using hx)
      exact ⟨w, h1, by simp; omega⟩
theorem Spec.DenTL.get_refs {h : Heap K L} : ∀ {r : List Tree} {v : List (PyVal K L)}, DenTL h r v → ∀ x ∈ treesRefs r, ∃ w, Den h x w ∧ sizeOf w < sizeOf v
  | _, _, .nil, x, hx => by simp [treesRefs] at hx
  | _, _, .cons a b, x, hx => by
      simp only [treesRefs, List.mem_append] at hx
      rcases hx with hx | hx
      · obtain ⟨w, h1, h2⟩ := Spec.DenT.get_refs a x hx
        exact ⟨w, h1, by simp; omega⟩
      · obtain ⟨w, h1, h2⟩ := Spec.DenTL.get_refs b x hx
        exact ⟨w, h1, by simp; omega⟩
end

theorem Spec.Reach.den {h : Heap K L} {a b : Ref} {v : PyVal K L} (d : Den h a v) (hr : Reach h a b) : ∃ w, Den h b w ∧ sizeOf w ≤ sizeOf v := by
  induction hr with
  | refl => exact ⟨v, d, Nat.le_refl _⟩
  | step _ e hx ih =>
    obtain ⟨w, h1, h2⟩ := ih
    obtain ⟨u, h3, h4⟩ := h1.get_refs e _ hx
    exact ⟨u, h3, by omega⟩

/-- an object with a value cannot be reached from the objects it refers to -/
theorem Spec.Den.acyclic {h : Heap K L} {d x : Ref} {v : PyVal K L} {c : Cell K L} (hd : Den h d v) (e : h[d]? = some c) (hx : x ∈ refs c) : ¬ Reach h x d := by
  intro hr
  obtain ⟨w, h1, h2⟩ := hd.get_refs e x hx
  obtain ⟨u, h3, h4⟩ := hr.den h1
  have := h3.unique hd
  subst this; omega

/-! ### How the memory may change -/

/-- an object of the memory keeps its kind; only the references of a dict may change -/
def SameShape : Cell K L → Cell K L → Prop
  | .dict kvs, .dict kvs' => kvs'.map (·.1) = kvs.map (·.1)
  | c, c' => c' = c

theorem SameShape.refl (c : Cell K L) : SameShape c c := by cases c <;> simp [SameShape]

theorem SameShape.trans {a b c : Cell K L} (h : SameShape a b) (h' : SameShape b c) : SameShape a c := by
  cases a <;> cases b <;> cases c <;> simp_all [SameShape]

/-- the memory after some conversions: all objects keep their kind and what a value looks like -/
structure Evolved (h h' : Heap K L) : Prop where
  shape : ∀ (y : Ref) (c : Cell K L), h[y]? = some c → ∃ c', h'[y]? = some c' ∧ SameShape c c'
  den : ∀ r v, Den h r v → PlainArrays v → ∃ v', Den h' r v' ∧ Turned v v'

theorem Evolved.trans {h h' h'' : Heap K L} (e : Evolved h h') (e' : Evolved h' h'') : Evolved h h'' := by
  constructor
  · intro y c hy
    obtain ⟨c', h1, h2⟩ := e.shape y c hy
    obtain ⟨c'', h3, h4⟩ := e'.shape y c' h1
    exact ⟨c'', h3, h2.trans h4⟩
  · intro r v hd hp
    obtain ⟨v', h1, h2⟩ := e.den r v hd hp
    obtain ⟨v'', h3, h4⟩ := e'.den r v' h1 h2.ok
    exact ⟨v'', h3, h2.trans h4⟩

theorem Evolved.of_prefix {h h' : Heap K L} (hp : h <+: h') : Evolved h h' :=
  ⟨fun _ c e => ⟨c, get_prefix hp e, .refl c⟩, fun _ v d hv => ⟨v, d.prefix hp, .refl hv⟩⟩

theorem Evolved.refl (h : Heap K L) : Evolved h h := .of_prefix (List.prefix_refl h)

theorem Evolved.length_le {h h' : Heap K L} (e : Evolved h h') : h.length ≤ h'.length := by
  by_contra hh
  obtain ⟨c', h1, -⟩ := e.shape h'.length h[h'.length] (List.getElem?_eq_getElem (by omega))
  simp at h1

/-- a plain value stays -/
theorem Evolved.plain {h h' : Heap K L} (e : Evolved h h') {r : Ref} {v : PyVal K L} (d : Den h r v) (hp : Plain v) : Den h' r v := by
  obtain ⟨v', h1, h2⟩ := e.den r v d (plainArrays_of_plain hp)
  rwa [h2.fixed hp] at h1

/-- the objects of a closed set and the new objects -/
def grown (h : Heap K L) (S : Ref → Prop) : Ref → Prop := fun (y : Nat) => S y ∨ h.length ≤ y

/-- conversions inside a closed set -/
structure ChangedIn (h h' : Heap K L) (S : Ref → Prop) : Prop where
  frame : ∀ y : Nat, y < h.length → ¬ S y → h'[y]? = h[y]?
  closed : Closed h' (grown h S)

theorem ChangedIn.refl {h : Heap K L} {S : Ref → Prop} (hS : Closed h S) : ChangedIn h h S := by
  refine ⟨fun _ _ _ => rfl, ?_⟩
  intro y hy c e x hx
  have hl : y < h.length := (List.getElem?_eq_some_iff.mp e).1
  rcases hy with hy | hy
  · exact .inl (hS y hy c e x hx)
  · exact absurd (Nat.lt_of_lt_of_le hl hy) (Nat.lt_irrefl _)

theorem ChangedIn.trans {h h' h'' : Heap K L} {S : Ref → Prop} (hl : h.length ≤ h'.length) (w : ChangedIn h h' S) (w' : ChangedIn h' h'' (grown h S)) : ChangedIn h h'' S := by
  constructor
  · intro y hy hn
    rw [w'.frame y (by omega) (by rintro (h1 | h1); exacts [hn h1, absurd h1 (by omega)]), w.frame y hy hn]
  · intro y hy c e x hx
    rcases w'.closed y (.inl hy) c e x hx with h1 | h1
    · exact h1
    · exact .inr (by omega)

/-! ### `tolist` -/

mutual
theorem tolist_prefix (h : Heap K L) : ∀ t : Tree, h <+: (tolist h t).1
  | .ref _ => by simp [tolist]
  | .node ts => by
      rw [tolist]
      exact (tolistAll_prefix h ts).trans (List.prefix_append _ _)
theorem tolistAll_prefix (h : Heap K L) : ∀ ts : List Tree, h <+: (tolistAll h ts).1
  | [] => by simp [tolistAll]
  | t :: ts => by
      rw [tolistAll]
      exact (tolist_prefix h t).trans (tolistAll_prefix _ ts)
end

mutual
theorem tolist_den (h : Heap K L) : ∀ {t : Tree} {v : PyVal K L}, DenT h t v → Den (tolist h t).1 (tolist h t).2 v
  | _, _, .ref d => by simpa [tolist] using d
  | _, _, .node (ts := ts) d => by
      rw [tolist]
      refine .list (xs := (tolistAll h ts).2) (by simp [alloc]) ?_
      exact (tolistAll_den h d).move (closed_all _) (fun _ _ _ e => get_prefix (List.prefix_append _ _) e) (fun _ _ => trivial)
theorem tolistAll_den (h : Heap K L) : ∀ {ts : List Tree} {vs : List (PyVal K L)}, DenTL h ts vs → DenL (tolistAll h ts).1 (tolistAll h ts).2 vs
  | _, _, .nil => .nil
  | _, _, .cons (t := t) (ts := ts) a b => by
      rw [tolistAll]
      exact .cons ((tolist_den h a).prefix (tolistAll_prefix _ _)) (tolistAll_den _ (b.prefix (tolist_prefix h t)))
end

mutual
theorem tolist_within (h : Heap K L) (S : Ref → Prop) (hS : Closed h S) : ∀ t : Tree, (∀ x ∈ treeRefs t, S x) → ChangedIn h (tolist h t).1 S ∧ grown h S (tolist h t).2
  | .ref r, hr => by
      simp only [tolist]
      exact ⟨.refl hS, .inl (hr r (by simp [treeRefs]))⟩
  | .node ts, hr => by
      obtain ⟨w, hx⟩ := tolistAll_within h S hS ts (by simpa [treeRefs] using hr)
      have hl := (tolistAll_prefix h ts).length_le
      rw [tolist]
      refine ⟨⟨?_, ?_⟩, .inr hl⟩
      · intro y hy hn
        rw [← w.frame y hy hn]
        simp only [alloc]
        rw [List.getElem?_append_left (by omega)]
      · intro y hy c e x hc
        simp only [alloc] at e
        rcases Nat.lt_trichotomy y (tolistAll h ts).1.length with h1 | h1 | h1
        · rw [List.getElem?_append_left h1] at e
          exact w.closed y hy c e x hc
        · subst h1
          simp at e
          subst e
          exact hx x hc
        · rw [List.getElem?_eq_none (by simp; omega)] at e
          cases e
theorem tolistAll_within (h : Heap K L) (S : Ref → Prop) (hS : Closed h S) : ∀ ts : List Tree, (∀ x ∈ treesRefs ts, S x) →
    ChangedIn h (tolistAll h ts).1 S ∧ ∀ x ∈ (tolistAll h ts).2, grown h S x
  | [], _ => by
      simp only [tolistAll]
      exact ⟨.refl hS, by simp⟩
  | t :: ts, hr => by
      obtain ⟨w1, x1⟩ := tolist_within h S hS t (fun x hx => hr x (by simp [treesRefs, hx]))
      have hl := (tolist_prefix h t).length_le
      obtain ⟨w2, x2⟩ := tolistAll_within (tolist h t).1 (grown h S) w1.closed ts (fun x hx => .inl (hr x (by simp [treesRefs, hx])))
      rw [tolistAll]
      refine ⟨w1.trans hl w2, ?_⟩
      intro x hx
      rcases List.mem_cons.mp hx with rfl | hx
      · exact x1
      · rcases x2 x hx with h1 | h1
        · exact h1
        · exact .inr (by omega)
end

/-! ### Assignment to an entry of a dict -/

theorem setEntry_eq {h : Heap K L} {d : Ref} {kvs : List (K × Ref)} (e : h[d]? = some (.dict kvs)) (i : Nat) (x : Ref) :
    setEntry h d i x = h.set d (.dict (kvs.modify i fun kv => (kv.1, x))) := by
  unfold setEntry; rw [e]

theorem modify_keys (kvs : List (K × Ref)) (i : Nat) (x : Ref) : (kvs.modify i fun kv => (kv.1, x)).map (·.1) = kvs.map (·.1) := by
  induction kvs generalizing i with
  | nil => cases i <;> simp
  | cons a l ih => cases i <;> simp [ih]

theorem modify_mem {kvs : List (K × Ref)} {i : Nat} {x y : Ref} (hy : y ∈ (kvs.modify i fun kv => (kv.1, x)).map (·.2)) : y = x ∨ y ∈ kvs.map (·.2) := by
  induction kvs generalizing i with
  | nil => cases i <;> simp at hy
  | cons a l ih =>
    cases i with
    | zero =>
      simp only [List.modify_zero_cons, List.map_cons, List.mem_cons] at hy ⊢
      tauto
    | succ i =>
      simp only [List.modify_succ_cons, List.map_cons, List.mem_cons] at hy ⊢
      rcases hy with hy | hy
      · exact .inr (.inl hy)
      · rcases ih hy with h | h <;> tauto

theorem Spec.DenD.get {h : Heap K L} : ∀ {kvs : List (K × Ref)} {vs : List (K × PyVal K L)}, DenD h kvs vs → ∀ {i : Nat} {k k' : K} {y : Ref} {v : PyVal K L},
    kvs[i]? = some (k, y) → vs[i]? = some (k', v) → Den h y v
  | _, _, .nil, _, _, _, _, _, e, _ => by simp at e
  | _, _, .cons a b, i, _, _, _, _, e, e' => by
      cases i with
      | zero => simp at e e'; obtain ⟨-, rfl⟩ := e; obtain ⟨-, rfl⟩ := e'; exact a
      | succ i => exact Spec.DenD.get b (by simpa using e) (by simpa using e')

theorem denD_modify {h : Heap K L} {x : Ref} {kvs : List (K × Ref)} {vs vs' : List (K × PyVal K L)} (i : Nat) (d : DenD h kvs vs') (t : TurnedD vs vs')
    (hx : ∀ k y v, kvs[i]? = some (k, y) → vs[i]? = some (k, v) → Den h x (Nv.array_to_list_dict v) ∧ PlainArrays v) :
    ∃ vs'', DenD h (kvs.modify i fun kv => (kv.1, x)) vs'' ∧ TurnedD vs vs'' := by
  induction kvs generalizing vs vs' i with
  | nil => exact ⟨_, by cases i <;> simpa using d, t⟩
  | cons a l ih =>
    cases d with
    | @cons k y v' _ _ a b =>
      cases t with
      | @cons v _ _ _ t ts =>
        obtain ⟨k', v⟩ := v
        obtain ⟨rfl, t⟩ := t
        cases i with
        | zero =>
          obtain ⟨h1, h2⟩ := hx _ y v rfl rfl
          exact ⟨_, .cons h1 b, .cons ⟨rfl, turned_conv h2⟩ ts⟩
        | succ i =>
          obtain ⟨vs'', h1, h2⟩ := ih i b ts (fun k y v e e' => hx k y v (by simpa using e) (by simpa using e'))
          exact ⟨_, .cons a h1, .cons ⟨rfl, t⟩ h2⟩

section
variable {h h2 : Heap K L} {d x : Ref} {kvs : List (K × Ref)} {i : Nat} (e : h[d]? = some (.dict kvs))
  (e2 : h2[d]? = some (.dict (kvs.modify i fun kv => (kv.1, x)))) (he : ∀ y, y ≠ d → h2[y]? = h[y]?)
  (hx : ∀ k y v, kvs[i]? = some (k, y) → Den h y v → PlainArrays v → Den h2 x (Nv.array_to_list_dict v))
include e e2 he hx

mutual
theorem set_den : ∀ {r : Ref} {v : PyVal K L}, Den h r v → PlainArrays v → ∃ v', Den h2 r v' ∧ Turned v v'
  | r, _, .leaf e', hp => ⟨_, .leaf ((he r (by rintro rfl; cases e.symm.trans e')).trans e'), .refl hp⟩
  | r, _, .list e' d', hp => by
      cases hp with
      | list _ hp =>
        obtain ⟨vs', h1, h2⟩ := set_denL d' hp
        exact ⟨_, .list ((he r (by rintro rfl; cases e.symm.trans e')).trans e') h1, h2.list⟩
  | r, _, .tuple e' d', hp => by
      cases hp with
      | tuple _ hp =>
        obtain ⟨vs', h1, h2⟩ := set_denL d' hp
        exact ⟨_, .tuple ((he r (by rintro rfl; cases e.symm.trans e')).trans e') h1, h2.tuple⟩
  | r, _, .obj e' d', hp => by
      cases hp with
      | array _ hp => exact ⟨_, .obj ((he r (by rintro rfl; cases e.symm.trans e')).trans e') (set_denT d' hp), .refl (.array _ hp)⟩
  | r, _, .dict (kvs := kvs') (vs := vs) e' d', hp => by
      cases hp with
      | dict _ hp =>
        obtain ⟨vs', h1, h2⟩ := set_denD d' hp
        by_cases hr : r = d
        · subst hr
          cases e.symm.trans e'
          obtain ⟨vs'', h3, h4⟩ := denD_modify (x := x) i h1 h2 (by
            intro k y v ek ev
            have hm : (k, v) ∈ vs := List.mem_of_getElem? ev
            have hy : Den h y v := d'.get ek ev
            exact ⟨hx k y v ek hy (hp _ hm), hp _ hm⟩)
          exact ⟨_, .dict e2 h3, h4.dict⟩
        · exact ⟨_, .dict ((he r hr).trans e') h1, h2.dict⟩
theorem set_denL : ∀ {r : List Ref} {v : List (PyVal K L)}, DenL h r v → (∀ y ∈ v, PlainArrays y) → ∃ v', DenL h2 r v' ∧ TurnedL v v'
  | _, _, .nil, _ => ⟨_, .nil, .nil⟩
  | _, _, .cons a b, hp => by
      obtain ⟨v1, h1, h2⟩ := set_den a (hp _ (by simp))
      obtain ⟨v3, h3, h4⟩ := set_denL b (fun y hy => hp y (by simp [hy]))
      exact ⟨_, .cons h1 h3, .cons h2 h4⟩
theorem set_denD : ∀ {r : List (K × Ref)} {v : List (K × PyVal K L)}, DenD h r v → (∀ y ∈ v, PlainArrays y.2) → ∃ v', DenD h2 r v' ∧ TurnedD v v'
  | _, _, .nil, _ => ⟨_, .nil, .nil⟩
  | _, _, .cons (k := k) a b, hp => by
      obtain ⟨v1, h1, h2⟩ := set_den a (hp _ (by simp; left; rfl))
      obtain ⟨v3, h3, h4⟩ := set_denD b (fun y hy => hp y (by simp [hy]))
      exact ⟨_, .cons h1 h3, .cons ⟨rfl, h2⟩ h4⟩
theorem set_denT : ∀ {r : Tree} {v : PyVal K L}, DenT h r v → Plain v → DenT h2 r v
  | _, _, .ref a, hp => by
      obtain ⟨v1, h1, h2⟩ := set_den a (plainArrays_of_plain hp)
      rw [h2.fixed hp] at h1
      exact .ref h1
  | _, _, .node a, hp => by
      cases hp with
      | list _ hp => exact .node (set_denTL a hp)
theorem set_denTL : ∀ {r : List Tree} {v : List (PyVal K L)}, DenTL h r v → (∀ y ∈ v, Plain y) → DenTL h2 r v
  | _, _, .nil, _ => .nil
  | _, _, .cons a b, hp => .cons (set_denT a (hp _ (by simp))) (set_denTL b (fun y hy => hp y (by simp [hy])))
end
end

end Nv
