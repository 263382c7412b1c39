import Verif.Lemmas.MemPres

/-!
# The two methods that assign to an attribute: `GeoPath.interpolate` and `Nvector.unit`
-/

namespace Nv.Mem
open Nv.ND (Arr)
variable {α : Type}

/-- the result is a new object -/
def Fresh (m : M α NRef) : Prop := ∀ h r h', m h = (.ok r, h') → h.nvecs.length ≤ r.id

theorem Fresh.bind {β : Type} {m : M α β} {f : β → M α NRef} (a : Pres m) (b : ∀ x, Fresh (f x)) : Fresh (m >>= f) := by
  intro h r h' e
  have E := a h
  cases e1 : m h with
  | mk x h1 =>
  rw [e1] at E
  cases x with
  | error x => rw [bind_error e1] at e; cases e
  | ok y =>
    rw [bind_ok e1] at e
    exact E.nvecs.length_le.trans (b y h1 r h' e)

theorem Fresh.newNvec (o : NvecObj α) : Fresh (Mem.newNvec o) := by
  intro h r h' e
  unfold Mem.newNvec at e
  cases e
  exact le_refl _

theorem Fresh.nvec_add [PyFloat α] (s o : NRef) : Fresh (Mem.nvec_add s o : M α NRef) := by
  unfold Mem.nvec_add
  refine .bind (.getNvec _) fun _ => .bind (.getNvec _) fun _ => .bind (.lift _) fun _ => .bind (.readA _) fun _ =>
    .bind (.readA _) fun _ => .bind (.readA _) fun _ => .bind (.readA _) fun _ => .bind (.allocE _) fun _ =>
    .bind (.allocE _) fun _ => .newNvec _

theorem modify_prefix {β : Type} {l l' : List β} (p : l <+: l') {i : ℕ} (hi : l.length ≤ i) (f : β → β) : l <+: l'.modify i f := by
  induction l generalizing l' i with
  | nil => exact List.nil_prefix
  | cons a l ih =>
    obtain ⟨t, rfl⟩ := p
    obtain ⟨j, rfl⟩ : ∃ j, i = j + 1 := ⟨i - 1, by simp at hi; omega⟩
    rw [List.cons_append, List.modify_succ_cons]
    exact List.cons_prefix_cons.2 ⟨rfl, ih (List.prefix_append _ _) (by simpa using hi)⟩

theorem except_ok_bind {β γ : Type} (c : β) (g : β → Except PyErr γ) : (Except.ok c >>= g) = g c := rfl
theorem except_error_bind {β γ : Type} (x : PyErr) (g : β → Except PyErr γ) : (Except.error x >>= g) = .error x := rfl

theorem ext_setNormal {h0 h : Heap α} (E : Ext h0 h) {s : NRef} (hs : h0.nvecs.length ≤ s.id) (a : ARef) :
    Ext h0 (setNormal s a h).2 := { E with nvecs := modify_prefix E.nvecs hs _ }

/-- the value of the object after the assignment -/
theorem setNormal_val {h : Heap α} {s : NRef} {a : ARef} {S : ND.Nvector α} {U : Arr α} (es : val h s = some S)
    (ea : val h a = some U) : val (setNormal s a h).2 s = some { S with normal := U } := by
  obtain ⟨o, eo, A⟩ := nvec_attr es
  change nvecVal _ _ = _
  have e : (setNormal s a h).2.nvecs[s.id]? = some { o with normal := a } := by
    simp [setNormal, eo]
  simp only [nvecVal, e, Option.bind_eq_bind, Option.bind_some, Option.pure_def]
  rw [show arrVal (setNormal s a h).2 a = some U from ea, show arrVal (setNormal s a h).2 o.z = some S.z from A.z, A.frame]
  rfl

variable [PyFloat α]
open PyFloat

/-- `interpolate` after the arithmetic -/
theorem ext_interpolate_tail {h0 h : Heap α} (E : Ext h0 h) {s : NRef} (hs : h0.nvecs.length ≤ s.id) :
    Ext h0 ((do
      let c ← Mem.getNvec s
      let normal ← Mem.unit c.normal nan
      setNormal s normal
      Pure.pure s : M α NRef) h).2 := by
  cases e1 : Mem.getNvec s h with
  | mk x h1 =>
  have hh : h1 = h := by unfold Mem.getNvec at e1; cases e1; rfl
  subst hh
  cases x with
  | error x => rw [bind_error e1]; exact E
  | ok o =>
    rw [bind_ok e1]
    have E2 := Pres.unit o.normal (nan : α) h1
    cases e2 : Mem.unit o.normal (nan : α) h1 with
    | mk x h2 =>
    rw [e2] at E2
    cases x with
    | error x => rw [bind_error e2]; exact E.trans E2
    | ok u =>
      rw [bind_ok e2]
      exact ext_setNormal (E.trans E2) hs u

theorem Pres.path_interpolate (P : PathRef) (t : ARef) : Pres (Mem.path_interpolate P t : M α NRef) := by
  unfold Mem.path_interpolate
  refine .bind (.nvectors _) fun x => ?_
  obtain ⟨a, b⟩ := x
  refine .bind (.nvec_sub _ _) fun d => .bind (.nvec_mul _ _) fun u => ?_
  intro h
  have E := Pres.nvec_add a u h
  cases e : Mem.nvec_add a u h with
  | mk x h1 =>
  rw [e] at E
  cases x with
  | error x => rw [bind_error e]; exact E
  | ok r =>
    rw [bind_ok e]
    exact ext_interpolate_tail E (Fresh.nvec_add a u h r h1 e)

theorem Refines.path_interpolate {h : Heap α} {P : PathRef} {p : ND.GeoPath α} {t : ARef} {T : Arr α} (e : val h P = some p)
    (et : val h t = some T) : Refines h (Mem.path_interpolate P t) (p.interpolate T) := by
  unfold Mem.path_interpolate ND.GeoPath.interpolate
  refine .nvectorsThen e fun h1 a b A B E1 ea eb => ?_
  refine .bind (.nvec_sub eb ea) fun h2 d D E2 ed => ?_
  refine .bind (.nvec_mul ed (HasVal.mono (E1.trans E2) et)) fun h3 u U E3 eu => ?_
  have ea' := HasVal.mono (E2.trans E3) ea
  obtain ⟨E, r⟩ := Refines.nvec_add ea' eu
  refine ⟨?_, ?_⟩
  · have E := Pres.nvec_add a u h3
    cases e : Mem.nvec_add a u h3 with
    | mk x h1 =>
    rw [e] at E
    cases x with
    | error x => rw [bind_error e]; exact E
    | ok r => rw [bind_ok e]; exact ext_interpolate_tail E (Fresh.nvec_add a u h3 r h1 e)
  · cases e : Mem.nvec_add a u h3 with
    | mk x h4 =>
    rw [e] at E r
    cases x with
    | error x =>
      rw [bind_error e]
      cases hs : A.add U with
      | ok c => rw [hs] at r; exact absurd r (by simp)
      | error y => rw [hs] at r; exact r
    | ok c =>
      rw [bind_ok e]
      cases hs : A.add U with
      | error y => rw [hs] at r; exact absurd r (by simp)
      | ok C =>
        rw [hs] at r
        have r : val h4 c = some C := r
        obtain ⟨o, eo, ao⟩ := nvec_attr r
        rw [bind_ok (show Mem.getNvec c h4 = (.ok o, h4) by unfold Mem.getNvec; rw [look_run, eo]; rfl)]
        rw [except_ok_bind]
        rcases unit_run ao.normal (nan : α) with ⟨V, e1, e2⟩ | ⟨x, h', e1, e2, E⟩
        · rw [e1, bind_ok e2]
          exact setNormal_val (HasVal.mono (ext_alloc h4 V) r) (alloc_val h4 V)
        · rw [e1, bind_error e2]
          rfl

end Nv.Mem
