import Verif.Lemmas.Conc

/-!
# `unit` and `n_E2R_EN` between the steps of other threads: the arrays they assign to are their own
-/

namespace Nv.Mem
open Nv.ND (Arr)
variable {α : Type}
variable {w : World α}

/-- an array made since `w` -/
structure NewA (w w' : World α) (r : ARef) : Prop where
  own : w'.oa r.base
  new : w.h.arrays.length ≤ r.base
  ix : r.ix = id

/-- `m` returns an array made since `w`, with the value `s` -/
def CNew (w : World α) (m : M α ARef) (s : Except PyErr (Arr α)) : Prop :=
  Runs (fun w' r => Le w w' ∧ Agree w' r s ∧ ∀ b, r = .ok b → NewA w w' b) m w

theorem CNew.ref {m : M α ARef} {s : Except PyErr (Arr α)} (c : CNew w m s) : CRef w m s := c.imp fun _ _ q => ⟨q.1, q.2.1⟩

theorem CNew.alloc {A : Arr α} : CNew w (Mem.alloc A) (.ok A) := by
  refine (CRef.alloc.and (Q' := fun w' r => ∀ b, r = .ok b → NewA w w' b) ?_).imp fun _ _ q => ⟨q.1.1, q.1.2, q.2⟩
  refine fun h R => ⟨(ext_alloc h A).keeps _ _, ?_⟩
  intro b e
  cases e
  exact ⟨Or.inr ⟨le_rfl, by simp⟩, R.alen, rfl⟩

theorem CNew.allocE {e : Except PyErr (Arr α)} : CNew w (Mem.allocE e) e := by
  cases e with
  | error x => exact ⟨Le.refl w, rfl, fun b e => by cases e⟩
  | ok A => exact CNew.alloc

theorem arrays_modify_val {h : Heap α} {r : ARef} {U : Arr α} (ix : r.ix = id) (e : arrVal h r = some U) (f : List ℕ → α → α) :
    arrVal { h with arrays := h.arrays.modify r.base fun A => ⟨A.shape, fun i => f i (A.get i)⟩ } r =
      some ⟨U.shape, fun i => f i (U.get i)⟩ := by
  unfold arrVal at *
  rw [Option.map_eq_some_iff] at e
  obtain ⟨B, eB, rfl⟩ := e
  simp [List.getElem?_modify, eB, ARef.view, ix]

/-- a step that assigns to an array the thread has made since `w` -/
theorem Runs.assign {β : Type} {w' : World α} {r : ARef} {U : Arr α} {f : List ℕ → α → α} {k : Unit → M α β}
    {Q : World α → Except PyErr β → Prop} (L : Le w w') (n : NewA w w' r) (e : Stay w' r U)
    (c : ∀ w'', Le w w'' → NewA w w'' r → Stay w'' r ⟨U.shape, fun i => f i (U.get i)⟩ → Runs Q (k ()) w'') :
    Runs Q (assign r f >>= k) w' := by
  refine fun h R => ?_
  have e' := SArr.mono (Le.of_rely R) e
  have G : Guar w' h { h with arrays := h.arrays.modify r.base fun A => ⟨A.shape, fun i => f i (A.get i)⟩ } := by
    refine ⟨fun i hi _ => ?_, fun _ _ _ => rfl, by simp, le_rfl, List.prefix_refl _, List.prefix_refl _, List.prefix_refl _,
      List.prefix_refl _, List.prefix_refl _⟩
    have : r.base ≠ i := by rintro rfl; exact hi n.own
    simp [List.getElem?_modify, this]
  refine ⟨G, c _ ?_ ?_ ?_⟩
  · refine ⟨fun i p => Or.inl (L.pa i p), fun i p => Or.inl (L.pn i p), fun i p => Or.inl (L.oa i p), fun i p => Or.inl (L.on i p), ?_⟩
    have R1 : Rely w h := Keeps.trans L.rely R L.pa L.pn
    refine { R1 with arrays := fun i hi l => ?_, alen := by simpa [World.after] using R1.alen }
    change (h.arrays.modify r.base _)[i]? = _
    have : r.base ≠ i := by rintro rfl; exact absurd n.new (by omega)
    simpa [List.getElem?_modify, this] using R1.arrays i hi l
  · exact ⟨Or.inl n.own, n.new, n.ix⟩
  · exact ⟨Or.inl e.1, arrays_modify_val n.ix e'.2 f⟩

variable [PyFloat α]
open PyFloat

/-- `unit` makes a new array with the unit vectors, whatever other threads do -/
theorem CNew.unit {r : ARef} {A : Arr α} (e : Stay w r A) (nzv : α) : CNew w (Mem.unit r nzv) (ND.unit A nzv) := by
  have read : ∀ {f : Arr α → M α ARef} {s}, CNew w (f A) s → CNew w (readA r >>= f) s := by
    intro f s k
    refine fun h R => ⟨Keeps.refl _ _ _, ?_⟩
    rw [show w.after h (id h) = { w with h := h } from World.after_self w h]
    have e1 := (SArr.mono (Le.of_rely R) e).2
    have : (M.done (orAttributeError (h.arrays[r.base]?.map r.view)) : M α _).bind f = f A := by
      rw [show h.arrays[r.base]?.map r.view = some A from e1]; rfl
    change Runs _ ((M.done (orAttributeError (h.arrays[r.base]?.map r.view)) : M α _).bind f) _
    rw [this]
    exact Runs.stable (fun w' h' x R' q => ⟨q.1.trans (Le.of_rely R'), q.2.1.mono (Le.of_rely R'),
      fun b eb => ⟨(q.2.2 b eb).own, (q.2.2 b eb).new, (q.2.2 b eb).ix⟩⟩) k R
  refine read ?_
  unfold ND.unit
  cases hn : ND.norm0k A with
  | error x => exact ⟨Le.refl w, rfl, fun b e => by cases e⟩
  | ok N =>
    change CNew w (Mem.allocE (ND.map2 (fun a b => a / b) A (N.map addTiny)) >>= _) _
    simp only [bind, Except.bind]
    cases hm : ND.map2 (fun a b => a / b) A (N.map addTiny) with
    | error x => exact ⟨Le.refl w, rfl, fun b e => by cases e⟩
    | ok U =>
      refine Runs.bind (CNew.allocE (w := w) (e := .ok U)) (fun w1 u q => ?_) fun w1 x q => absurd q.2.1 (by simp [Agree])
      have n := q.2.2 u rfl
      have eu : Stay w1 u U := q.2.1
      match hs : A.shape with
      | [] => exact ⟨q.1, rfl, fun b e => by cases e⟩
      | [_] => exact ⟨q.1, rfl, fun b e => by cases e⟩
      | _ :: _ :: _ :: _ => exact ⟨q.1, rfl, fun b e => by cases e⟩
      | [_, _] =>
        refine Runs.assign q.1 n eu fun w2 L2 n2 e2 => Runs.assign L2 n2 e2 fun w3 L3 n3 e3 => ⟨L3, ?_, ?_⟩
        · change Stay w3 u _
          convert e3 using 2
          funext idx
          match idx with
          | [] => simp [inZeroColumn]
          | [i] => simp [inZeroColumn]
          | i :: j :: r =>
            simp only [List.head?_cons, Option.some.injEq, inZeroColumn]
            by_cases hz : eq (N.get [0, j]) (lit 0) = true <;> by_cases hi : i = 0 <;> simp [hz, hi]
        · intro b eb
          cases eb
          exact n3

theorem CRef.unit {r : ARef} {A : Arr α} (e : Stay w r A) (nzv : α) : CRef w (Mem.unit r nzv) (ND.unit A nzv) := (CNew.unit e nzv).ref

theorem CRef.n_E2R_EN {r : ARef} {A : Arr α} (e : Stay w r A) (R : M3 α) :
    CRef w (Mem.n_E2R_EN r R) (ND.n_E2R_EN A R) := by
  unfold Mem.n_E2R_EN ND.n_E2R_EN
  refine .read e (.lift fun _ _ => .bind .allocE fun w1 t T E1 et => .bind (.unit et _) fun w2 u U E2 eu => .read eu ?_)
  refine .lift fun dir ed => .lift fun nrm en => ?_
  refine .allocThen fun w3 d E3 ed => ?_
  refine Runs.bind (CNew.unit ed (lit 1)) (fun w4 v q => ?_) fun w4 x q => ?_
  · cases hv : ND.unit dir (lit 1) with
    | error x => exact absurd q.2.1 (by rw [hv]; simp [Agree])
    | ok V =>
      have ev : Stay w4 v V := by have := q.2.1; rw [hv] at this; exact this
      refine Runs.assign q.1 (q.2.2 v rfl) ev fun w5 L5 _ e5 => ?_
      have e6 : Stay w5 v (ND.setOnPoles V nrm) := by
        convert e5 using 2
        unfold ND.setOnPoles
        congr 1
        funext idx
        match idx with
        | [] => rfl
        | [_] => rfl
        | _ :: _ :: _ => rfl
      refine Runs.imp ?_ (CRef.read (s := _) e6 CRef.allocE)
      exact fun w6 x y => ⟨L5.trans y.1, y.2⟩
  · cases hv : ND.unit dir (lit 1) with
    | error y => have := q.2.1; rw [hv] at this; exact ⟨q.1, this⟩
    | ok V => exact absurd q.2.1 (by rw [hv]; simp [Agree])

end Nv.Mem
