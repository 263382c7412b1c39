import Verif.Lemmas.Mem

/-!
# The assignments in `unit`, `n_E2R_EN`, `Nvector.unit` and `GeoPath.interpolate`
-/

namespace Nv.Mem
open Nv.ND (Arr)
variable {α : Type} [PyFloat α]
open PyFloat

omit [PyFloat α] in
theorem assign_last (h : Heap α) (A : Arr α) (s : List ℕ) (f : List ℕ → α → α) :
    assign ⟨h.arrays.length, s, id⟩ f { h with arrays := h.arrays ++ [A] } =
      (.ok (), { h with arrays := h.arrays ++ [⟨A.shape, fun i => f i (A.get i)⟩] }) := by
  unfold assign
  simp only [List.modify_eq_set_getElem?]
  simp

/-- `unit` makes one new array with the unit vectors, or raises an exception and adds at most one array -/
theorem unit_run {h : Heap α} {r : ARef} {A : Arr α} (e : val h r = some A) (nzv : α) :
    (∃ U, ND.unit A nzv = .ok U ∧
      unit r nzv h = (.ok ⟨h.arrays.length, U.shape, id⟩, { h with arrays := h.arrays ++ [U] })) ∨
    (∃ x h', ND.unit A nzv = .error x ∧ unit r nzv h = (.error x, h') ∧ Ext h h') := by
  unfold unit ND.unit
  rw [bind_ok (readA_eq e)]
  cases hn : ND.norm0k A with
  | error x => exact Or.inr ⟨x, h, rfl, rfl, Ext.refl h⟩
  | ok N =>
    rw [bind_ok (show lift (.ok N) h = (.ok N, h) from rfl)]
    simp only [bind, Except.bind]
    cases hm : ND.map2 (fun a b => a / b) A (N.map addTiny) with
    | error x => exact Or.inr ⟨x, h, rfl, rfl, Ext.refl h⟩
    | ok U =>
      have ea : allocE (.ok U) h = (.ok ⟨h.arrays.length, U.shape, id⟩, { h with arrays := h.arrays ++ [U] }) := rfl
      have eb : ∀ f : ARef → M α ARef, M.bind (allocE (.ok U)) f h =
          f ⟨h.arrays.length, U.shape, id⟩ { h with arrays := h.arrays ++ [U] } := fun f => bind_ok ea
      simp only [eb]
      have ebu : ∀ (m : M α Unit) (f : Unit → M α ARef) (h : Heap α), M.bind m f h = (m >>= f) h := fun _ _ _ => rfl
      match hs : A.shape with
      | [] => exact Or.inr ⟨.IndexError, _, rfl, rfl, ext_alloc h U⟩
      | [_] => exact Or.inr ⟨.IndexError, _, rfl, rfl, ext_alloc h U⟩
      | _ :: _ :: _ :: _ => exact Or.inr ⟨.IndexError, _, rfl, rfl, ext_alloc h U⟩
      | [_, _] =>
        refine Or.inl ⟨_, rfl, ?_⟩
        have e1 := assign_last h U U.shape (fun idx x => if inZeroColumn N idx = true then lit 0 * nzv else x)
        dsimp only
        rw [ebu, bind_ok e1]
        have e2 := assign_last h (⟨U.shape, fun idx => if inZeroColumn N idx = true then lit 0 * nzv else U.get idx⟩ : Arr α) U.shape (fun idx x => if idx.head? = some 0 ∧ inZeroColumn N idx = true then lit 1 * nzv else x)
        rw [ebu, bind_ok e2]
        refine Prod.ext rfl ?_
        change Heap.mk _ _ _ _ _ _ _ = Heap.mk _ _ _ _ _ _ _
        congr 3
        congr 1
        funext idx
        match idx with
        | [] => simp [inZeroColumn]
        | [i] => simp [inZeroColumn]
        | i :: j :: r =>
          simp only [List.head?_cons, Option.some.injEq, inZeroColumn]
          by_cases hz : eq (N.get [0, j]) (lit 0) = true <;> by_cases hi : i = 0 <;> simp [hz, hi]

theorem Refines.unit {h : Heap α} {r : ARef} {A : Arr α} (e : val h r = some A) (nzv : α) :
    Refines h (Mem.unit r nzv) (ND.unit A nzv) := by
  rcases unit_run e nzv with ⟨U, e1, e2⟩ | ⟨x, h', e1, e2, E⟩
  · rw [e1]
    unfold Refines
    rw [e2]
    exact ⟨ext_alloc h U, alloc_val h U⟩
  · rw [e1]
    unfold Refines
    rw [e2]
    exact ⟨E, rfl⟩

theorem Pres.unit (r : ARef) (nzv : α) : Pres (Mem.unit r nzv) := by
  intro h
  cases e : val h r with
  | some A => exact (Refines.unit e nzv).1
  | none =>
    have : Mem.unit r nzv h = (.error .AttributeError, h) := by
      unfold Mem.unit
      refine bind_error ?_
      unfold Mem.readA
      rw [look_run, show h.arrays[r.base]?.map r.view = none from e]
      rfl
    rw [this]
    exact Ext.refl h

omit [PyFloat α] in
/-- an array that did not exist can be assigned to -/
theorem Refines.assign_new {ρ γ : Type} [HasVal α ρ γ] {h : Heap α} {U : Arr α} {m : M α ARef} {f : List ℕ → α → α}
    {k : ARef → Unit → M α ρ} {s : Except PyErr γ}
    (e : m h = (.ok ⟨h.arrays.length, U.shape, id⟩, { h with arrays := h.arrays ++ [U] }))
    (r : Refines { h with arrays := h.arrays ++ [⟨U.shape, fun i => f i (U.get i)⟩] } (k ⟨h.arrays.length, U.shape, id⟩ ()) s) :
    Refines h (m >>= fun u => assign u f >>= k u) s := by
  obtain ⟨E, r⟩ := r
  unfold Refines
  rw [bind_ok e, bind_ok (assign_last h U U.shape f)]
  exact ⟨(ext_alloc h _).trans E, r⟩

theorem Refines.n_E2R_EN {h : Heap α} {r : ARef} {A : Arr α} (e : val h r = some A) (R : M3 α) :
    Refines h (Mem.n_E2R_EN r R) (ND.n_E2R_EN A R) := by
  unfold Mem.n_E2R_EN ND.n_E2R_EN
  refine .read e (.lift fun _ _ => .bind .allocE fun h1 t T E1 et => .bind (.unit et _) fun h2 u U E2 eu => .read eu ?_)
  refine .lift fun dir ed => .lift fun nrm en => ?_
  refine .make rfl (ext_alloc h2 dir) ?_
  have e3 := alloc_val h2 dir
  rcases unit_run e3 (lit 1) with ⟨V, e4, e5⟩ | ⟨x, h', e4, e5, E⟩
  · rw [e4]
    refine Refines.assign_new (k := fun u _ => _) e5 ?_
    refine .read (A := ND.setOnPoles V nrm) ?_ ?_
    · change arrVal _ _ = _
      simp only [arrVal, ND.setOnPoles]
      simp
      unfold ARef.view
      congr 1
      funext idx
      match idx with
      | [] => rfl
      | [_] => rfl
      | _ :: _ :: _ => rfl
    · exact Refines.allocE
  · rw [e4]
    unfold Refines
    rw [bind_error e5]
    exact ⟨E, rfl⟩

end Nv.Mem
