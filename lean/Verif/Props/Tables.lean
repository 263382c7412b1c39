import Verif.Mem.Rotation
import Verif.Lemmas.Fin
import Verif.Props.Frames

/-!
# C148: the rotation matrices of all frames are two shared arrays
-/

namespace Nv
open Axes

/-- Specification: the program does not assign to the elements of the arrays that `E_rotation` returns -/
def Spec.LeavesTable {α : Type} (calls : List (Call α)) : Prop :=
  ∀ r A axes, Call.setElements r A ∈ calls → Axes.E_rotation axes ≠ .ok r

section
variable {α : Type} [PyFloat α]

omit [PyFloat α] in
private theorem elements_iff {r : MatRef} {A : M3 α} {w : World α} : elements r w = .ok A ↔ w.mats[r.id]? = some A := by
  unfold elements; split <;> simp_all

omit [PyFloat α] in
private theorem R_Ee_iff {F : FrameRef} {S : MatRef} {w : World α} :
    Axes.R_Ee F w = .ok S ↔ ∃ o, w.frames[F.id]? = some o ∧ o.R_Ee = S := by
  unfold Axes.R_Ee; split <;> simp_all

/-- frames keep their attributes -/
private theorem frames_exec (c : Call α) (w : World α) (k : ℕ) (o : FrameObj α) (h : w.frames[k]? = some o) :
    (c.exec w).2.frames[k]? = some o := by
  have hl : k < w.frames.length := (List.getElem?_eq_some_iff.mp h).1
  cases c with
  | FrameE a f name axes =>
    simp only [Call.exec, Axes.FrameE]
    split <;> simp [List.getElem?_append_left hl, h]
  | _ => exact h

private theorem frames_execs (cs : List (Call α)) (w : World α) (k : ℕ) (o : FrameObj α) (h : w.frames[k]? = some o) :
    (execs cs w).frames[k]? = some o := by
  induction cs generalizing w with
  | nil => exact h
  | cons c cs ih => exact ih _ (frames_exec c w k o h)

/-- an array keeps its elements if they are not assigned to -/
private theorem mats_exec (c : Call α) (w : World α) (k : ℕ) (A : M3 α) (hc : ∀ B, c ≠ .setElements ⟨k⟩ B)
    (h : w.mats[k]? = some A) : (c.exec w).2.mats[k]? = some A := by
  have hl : k < w.mats.length := (List.getElem?_eq_some_iff.mp h).1
  cases c with
  | FrameE a f name axes =>
    simp only [Call.exec, Axes.FrameE]
    split <;> simp [h]
  | array B => simp [Call.exec, List.getElem?_append_left hl, h]
  | setElements r B =>
    have hr : r.id ≠ k := fun e => hc B (by cases r; cases e; rfl)
    simp [Call.exec, List.getElem?_set_ne hr, h]
  | _ => exact h

private theorem mats_execs (cs : List (Call α)) (w : World α) (k : ℕ) (A : M3 α) (hc : ∀ B, Call.setElements ⟨k⟩ B ∉ cs)
    (h : w.mats[k]? = some A) : (execs cs w).mats[k]? = some A := by
  induction cs generalizing w with
  | nil => exact h
  | cons c cs ih =>
    exact ih _ (fun B hB => hc B (List.mem_cons_of_mem _ hB))
      (mats_exec c w k A (fun B e => hc B (e ▸ List.mem_cons_self)) h)

/-- C148 (part): a call leaves the elements of every existing array as they are, unless it is an assignment to the elements of this
array, and every existing frame keeps its array -/
theorem C148_no_effect (c : Call α) (w : World α) (q : MatRef) (hc : ∀ B, c ≠ .setElements q B) (A : M3 α)
    (hq : elements q w = .ok A) (F : FrameRef) (S : MatRef) (hF : Axes.R_Ee F w = .ok S) :
    elements q (c.exec w).2 = .ok A ∧ Axes.R_Ee F (c.exec w).2 = .ok S := by
  obtain ⟨o, ho, hS⟩ := R_Ee_iff.mp hF
  exact ⟨elements_iff.mpr (mats_exec c w q.id A hc (elements_iff.mp hq)), R_Ee_iff.mpr ⟨o, frames_exec c w _ o ho, hS⟩⟩

/-- in the program, the table is as documented -/
private theorem table (calls : List (Call α)) (h : Spec.LeavesTable calls) :
    (execs calls (start : World α)).mats[0]? = some R_e ∧ (execs calls (start : World α)).mats[1]? = some R_E :=
  ⟨mats_execs calls start 0 R_e (fun B hB => h ⟨0⟩ B "e" hB (by simp [Axes.E_rotation])) rfl,
   mats_execs calls start 1 R_E (fun B hB => h ⟨1⟩ B "E" hB (by simp [Axes.E_rotation])) rfl⟩

/-- C148: in every program that does not assign to the elements of the arrays `E_rotation` returns, whatever else it does,
`E_rotation(axes)` is the documented matrix ... -/
theorem C148_E_rotation (calls : List (Call α)) (h : Spec.LeavesTable calls) (axes : String) :
    (do elements (← Axes.E_rotation axes) (execs calls (start : World α))) = (Nv.E_rotation axes : Except PyErr (M3 α)) := by
  obtain ⟨h0, h1⟩ := table calls h
  unfold Axes.E_rotation Nv.E_rotation
  split
  · exact elements_iff.mpr h0
  · split
    · exact elements_iff.mpr h1
    · rfl

private theorem argument_none (calls : List (Call α)) (h : Spec.LeavesTable calls) :
    argument none (execs calls (start : World α)) = .ok R_e := by
  have := C148_E_rotation calls h "e"
  simpa [argument, Nv.E_rotation] using this

/-- C148: ... and every function that is called without the argument `R_Ee` gives the documented result. -/
theorem C148_defaults (calls : List (Call α)) (h : Spec.LeavesTable calls) (n m p : V3 α) (lat lon wa d d' a f : α) :
    let w := execs calls (start : World α)
    ((Call.lat_lon2n_E lat lon none).exec w).1 = .ok (.vector (Nv.lat_lon2n_E lat lon)) ∧
    ((Call.n_E2lat_lon n none).exec w).1 = .ok (.angles (Nv.n_E2lat_lon n).1 (Nv.n_E2lat_lon n).2) ∧
    ((Call.n_E2R_EN n none).exec w).1 = .ok (.matrix (Nv.n_E2R_EN n)) ∧
    ((Call.n_E_and_wa2R_EL n wa none).exec w).1 = .ok (.matrix (Nv.n_E_and_wa2R_EL n wa)) ∧
    ((Call.n_EB_E2p_EB_E n d a f none).exec w).1 = .ok (.vector (Nv.n_EB_E2p_EB_E n d a f)) ∧
    ((Call.p_EB_E2n_EB_E p a f none).exec w).1 = .ok (.position (Nv.p_EB_E2n_EB_E p a f).1 (Nv.p_EB_E2n_EB_E p a f).2) ∧
    ((Call.n_EA_E_and_n_EB_E2p_AB_E n m d d' a f none).exec w).1 = .ok (.vector (Nv.n_EA_E_and_n_EB_E2p_AB_E n m d d' a f)) ∧
    ((Call.n_EA_E_and_p_AB_E2n_EB_E n p d a f none).exec w).1
      = .ok (.position (Nv.n_EA_E_and_p_AB_E2n_EB_E n p d a f).1 (Nv.n_EA_E_and_p_AB_E2n_EB_E n p d a f).2) ∧
    ((Call.n_EA_E_and_n_EB_E2azimuth n m a f none).exec w).1 = .ok (.number (Nv.n_EA_E_and_n_EB_E2azimuth n m a f)) ∧
    ((Call.n_EA_E_distance_and_azimuth2n_EB_E n d wa none).exec w).1
      = .ok (.vector (Nv.n_EA_E_distance_and_azimuth2n_EB_E n d wa)) := by
  have e := argument_none calls h
  simp only [Call.exec, withMatrix, e, bind, Except.bind, pure, Except.pure, and_self]

/-- making a frame, in terms of the model without memory -/
private theorem new_cases (a f : Option α) (name : EllKey) (axes : String) (w : World α) :
    (∃ (a' f' : α) (R : MatRef) (A : M3 α), Axes.E_rotation axes = .ok R ∧ Nv.E_rotation axes = .ok A ∧
      Nv.FrameE.new a f name axes = .ok ⟨a', f', name, A⟩ ∧
      Axes.FrameE a f name axes w = (.ok ⟨w.frames.length⟩, { w with frames := w.frames ++ [⟨a', f', name, R⟩] })) ∨
    (∃ e, Nv.FrameE.new a f name axes = .error e ∧ Axes.FrameE a f name axes w = (.error e, w)) := by
  have hE : (∃ (R : MatRef) (A : M3 α), Axes.E_rotation axes = .ok R ∧ Nv.E_rotation axes = .ok A) ∨
      (Axes.E_rotation axes = .error .KeyError ∧ (Nv.E_rotation axes : Except PyErr (M3 α)) = .error .KeyError) := by
    unfold Axes.E_rotation Nv.E_rotation
    split
    · exact .inl ⟨_, _, rfl, rfl⟩
    · split
      · exact .inl ⟨_, _, rfl, rfl⟩
      · exact .inr ⟨rfl, rfl⟩
  have haf : ∀ x : Except PyErr (α × α),
      (match x, Axes.E_rotation axes with
        | .ok (a, f), .ok R => (Except.ok (⟨w.frames.length⟩ : FrameRef), { w with frames := w.frames ++ [⟨a, f, name, R⟩] })
        | .error e, _ => (.error e, w)
        | .ok _, .error e => (.error e, w)) = Axes.FrameE a f name axes w →
      (do let (a, f) ← x; let R ← Nv.E_rotation axes; pure (⟨a, f, name, R⟩ : Nv.FrameE α)) = Nv.FrameE.new a f name axes →
      (∃ (a' f' : α) (R : MatRef) (A : M3 α), Axes.E_rotation axes = .ok R ∧ Nv.E_rotation axes = .ok A ∧
        Nv.FrameE.new a f name axes = .ok ⟨a', f', name, A⟩ ∧
        Axes.FrameE a f name axes w = (.ok ⟨w.frames.length⟩, { w with frames := w.frames ++ [⟨a', f', name, R⟩] })) ∨
      (∃ e, Nv.FrameE.new a f name axes = .error e ∧ Axes.FrameE a f name axes w = (.error e, w)) := by
    intro x h1 h2
    rw [← h1, ← h2]
    rcases x with e | ⟨a', f'⟩
    · exact .inr ⟨e, rfl, rfl⟩
    · rcases hE with ⟨R, A, h3, h4⟩ | ⟨h3, h4⟩
      · exact .inl ⟨a', f', R, A, h3, h4, by rw [h4]; rfl, by rw [h3]⟩
      · exact .inr ⟨_, by rw [h4]; rfl, by rw [h3]⟩
  unfold Axes.FrameE Nv.FrameE.new at *
  rcases a with _ | a <;> rcases f with _ | f
  · exact haf _ rfl (by cases get_ellipsoid (α := α) name <;> rfl)
  · exact haf _ rfl (by cases get_ellipsoid (α := α) name <;> rfl)
  · exact haf _ rfl (by cases get_ellipsoid (α := α) name <;> rfl)
  · exact haf _ rfl rfl

/-- C148: a frame keeps the documented values of its attributes for the rest of the program; making a frame raises exactly the exceptions
of the model without memory. -/
theorem C148_frame (calls calls' : List (Call α)) (h : Spec.LeavesTable calls) (h' : Spec.LeavesTable calls') (a f : Option α)
    (name : EllKey) (axes : String) :
    match Axes.FrameE a f name axes (execs calls (start : World α)) with
    | (.ok F, w) => value F (execs calls' w) = Nv.FrameE.new a f name axes
    | (.error e, _) => Nv.FrameE.new a f name axes = .error e := by
  rcases new_cases a f name axes (execs calls start) with ⟨a', f', R, A, hR, hA, hn, e⟩ | ⟨e, hn, e'⟩
  · rw [e, hn]
    dsimp only
    have ho := frames_execs calls' ({ execs calls start with frames := (execs calls start).frames ++ [⟨a', f', name, R⟩] })
      (execs calls start).frames.length ⟨a', f', name, R⟩ (by simp)
    have hm : elements R (execs calls' { execs calls start with frames := (execs calls start).frames ++ [⟨a', f', name, R⟩] })
        = .ok A := by
      refine elements_iff.mpr (mats_execs calls' _ R.id A (fun B hB => h' R B axes hB hR) ?_)
      have := C148_E_rotation calls h axes
      rw [hR, hA] at this
      exact elements_iff.mp this
    simp only [value, ho, hm, bind, Except.bind, pure, Except.pure]
  · rw [e', hn]

/-- C148: the methods of positions in this frame give the documented results, whatever the program has done in between. -/
theorem C148_positions (calls calls' : List (Call α)) (h : Spec.LeavesTable calls) (h' : Spec.LeavesTable calls') (a f : Option α)
    (name : EllKey) (axes : String) (F : FrameRef) (w : World α) (G : Nv.FrameE α)
    (hF : Axes.FrameE a f name axes (execs calls (start : World α)) = (.ok F, w)) (hG : Nv.FrameE.new a f name axes = .ok G)
    (lat lon z : α) (n p : V3 α) :
    ((Call.geo_to_nvector lat lon z F).exec (execs calls' w)).1 = .ok (.position (GeoPoint.mk lat lon z G).to_nvector.normal z) ∧
    ((Call.nvector_to_ecef_vector n z F).exec (execs calls' w)).1 = .ok (.vector (Nvector.mk n z G).to_ecef_vector.pvector) ∧
    ((Call.nvector_to_geo_point n z F).exec (execs calls' w)).1
      = .ok (.angles (Nvector.mk n z G).to_geo_point.latitude (Nvector.mk n z G).to_geo_point.longitude) ∧
    ((Call.ecef_to_nvector p F).exec (execs calls' w)).1
      = .ok (.position (ECEFvector.mk p G).to_nvector.normal (ECEFvector.mk p G).to_nvector.z) := by
  have e := C148_frame calls calls' h h' a f name axes
  rw [hF, hG] at e
  dsimp only at e
  simp only [Call.exec, withFrame, e, bind, Except.bind, pure, Except.pure, and_self]

/-- C148: in every program at all, the array of a frame made with `axes` is the very array `E_rotation(axes)` returns: all frames with the
same axes share one array. -/
theorem C148_shared (w : World α) (calls' : List (Call α)) (a f : Option α) (name : EllKey) (axes : String)
    (F : FrameRef) (w' : World α) (hF : Axes.FrameE a f name axes w = (.ok F, w')) :
    Axes.R_Ee F (execs calls' w') = Axes.E_rotation axes := by
  rcases new_cases a f name axes w with ⟨a', f', R, A, hR, hA, hn, e⟩ | ⟨e, hn, e'⟩
  · rw [e] at hF
    cases hF
    rw [hR]
    exact R_Ee_iff.mpr ⟨⟨a', f', name, R⟩, frames_execs calls' _ w.frames.length _ (by simp), rfl⟩
  · rw [e'] at hF; cases hF

/-- C148: after `E_rotation(axes)[...] = A`, or the same assignment to the attribute `R_Ee` of a frame made with `axes`, all frames made
with these axes, before or after, compute with `A`, and so do, for the axes 'e', the functions called without `R_Ee`; frames with other
axes are not affected. -/
theorem C148_assignment (calls : List (Call α)) (axes : String) (r : MatRef) (hr : Axes.E_rotation axes = .ok r) (A : M3 α) :
    let w := execs calls (start : World α)
    let w' := ((Call.setElements r A).exec w).2
    (∀ F, Axes.R_Ee F w = .ok r → ∃ a f name, value F w' = .ok ⟨a, f, name, A⟩) ∧
    (∀ a f name F w'', Axes.FrameE a f name axes w' = (.ok F, w'') → ∃ a f name, value F w'' = .ok ⟨a, f, name, A⟩) ∧
    (axes = "e" → ∀ lat lon, ((Call.lat_lon2n_E lat lon none).exec w').1 = .ok (.vector (Nv.lat_lon2n_E lat lon A))) ∧
    (∀ F S, Axes.R_Ee F w = .ok S → S ≠ r → value F w' = value F w) := by
  intro w w'
  have hl : ∀ (cs : List (Call α)) (v : World α), v.mats.length ≤ (execs cs v).mats.length := by
    intro cs
    induction cs with
    | nil => exact fun v => le_refl _
    | cons c cs ih =>
      refine fun v => le_trans ?_ (ih (c.exec v).2)
      cases c <;> simp [Call.exec, withMatrix, withFrame, Axes.FrameE] <;> (try split) <;> simp
  have h2 : 2 ≤ w.mats.length := hl calls start
  have hid : r.id < w.mats.length := by
    unfold Axes.E_rotation at hr
    split at hr
    · cases hr; exact lt_of_lt_of_le (by decide : 0 < 2) h2
    · split at hr
      · cases hr; exact lt_of_lt_of_le (by decide : 1 < 2) h2
      · cases hr
  have hA : elements r w' = .ok A := elements_iff.mpr (by simp [w', Call.exec, hid])
  refine ⟨?_, ?_, ?_, ?_⟩
  · intro F hF
    obtain ⟨o, ho, rfl⟩ := R_Ee_iff.mp hF
    have ho' : w'.frames[F.id]? = some o := ho
    refine ⟨o.a, o.f, o.name, ?_⟩
    simp only [value, ho', hA, bind, Except.bind, pure, Except.pure]
  · intro a f name F w'' hF
    rcases new_cases a f name axes w' with ⟨a', f', R, A', hR, hA', hn, e⟩ | ⟨e, hn, e'⟩
    · rw [e] at hF
      cases hF
      rw [hr] at hR
      cases hR
      refine ⟨a', f', name, ?_⟩
      have : elements r { w' with frames := w'.frames ++ [(⟨a', f', name, r⟩ : FrameObj α)] } = .ok A :=
        elements_iff.mpr (elements_iff.mp hA)
      simp [value, this, bind, Except.bind, pure, Except.pure]
    · rw [e'] at hF; cases hF
  · rintro rfl lat lon
    have : argument none w' = .ok A := by
      simp only [argument, hr, bind, Except.bind]
      exact hA
    simp only [Call.exec, withMatrix, this, bind, Except.bind, pure, Except.pure]
  · intro F S hF hS
    obtain ⟨o, ho, rfl⟩ := R_Ee_iff.mp hF
    have ho' : w'.frames[F.id]? = some o := ho
    have hne : r.id ≠ o.R_Ee.id := fun e => hS (by cases r; cases h : o.R_Ee; simp_all)
    have : elements o.R_Ee w' = elements o.R_Ee w := by
      simp [w', Call.exec, elements, List.getElem?_set_ne hne]
    simp only [value, ho', ho, this]

end

open Spec Real
open XR (fin)

/-- C148 is false without the assumption: after `FrameE(a, f).R_Ee[...] = np.eye(3)` the call `lat_lon2n_E(0, 0)` returns `(0, 0, -1)`,
not the documented `(1, 0, 0)`, and this frame is equal to `FrameE(a, f, axes='E')`, from which it differs otherwise. -/
theorem C148_counterexample (a f : ℝ) (name : EllKey) :
    let make : List (Call XR) := [.FrameE (some (fin a)) (some (fin f)) name "e", .FrameE (some (fin a)) (some (fin f)) name "E"]
    let w := execs make start
    let w' := execs (make ++ [.setElements ⟨0⟩ R_E]) start
    Axes.R_Ee ⟨0⟩ w = .ok ⟨0⟩ ∧
    ((Call.lat_lon2n_E (fin 0) (fin 0) none).exec w).1 = .ok (.vector ⟨fin 1, fin 0, fin 0⟩) ∧
    ((Call.lat_lon2n_E (fin 0) (fin 0) none).exec w').1 = .ok (.vector ⟨fin 0, fin 0, fin (-1)⟩) ∧
    ((Call.frameEq ⟨0⟩ ⟨1⟩).exec w).1 = .ok (.bool false) ∧
    ((Call.frameEq ⟨0⟩ ⟨1⟩).exec w').1 = .ok (.bool true) := by
  intro make w w'
  have e : w = ⟨[R_e, R_E], [⟨fin a, fin f, name, ⟨0⟩⟩, ⟨fin a, fin f, name, ⟨1⟩⟩]⟩ := rfl
  have e' : w' = ⟨[R_E, R_E], [⟨fin a, fin f, name, ⟨0⟩⟩, ⟨fin a, fin f, name, ⟨1⟩⟩]⟩ := rfl
  rw [e, e']
  refine ⟨rfl, ?_, ?_, ?_, ?_⟩
  · show Except.ok (Result.vector (Nv.lat_lon2n_E (fin 0) (fin 0) R_e)) = _
    simp [Nv.lat_lon2n_E, mulVec, R_e, xr, dot3, tr]
  · show Except.ok (Result.vector (Nv.lat_lon2n_E (fin 0) (fin 0) R_E)) = _
    simp [Nv.lat_lon2n_E, mulVec, R_E, xr, dot3, tr]
  · show Except.ok (Result.bool (false || FrameE.isEqualTo ⟨fin a, fin f, name, R_e⟩ ⟨fin a, fin f, name, R_E⟩)) = _
    have : FrameE.isEqualTo (⟨fin a, fin f, name, R_e⟩ : FrameE XR) ⟨fin a, fin f, name, R_E⟩ = false := by
      have h9 : eqClose (pairs9 (R_e : M3 XR) R_E) = false := by
        by_contra h
        have h3 := (eqClose_pairs9_iff Re Spec.one).mp (by
rw [← R_e_fin, ← R_E_fin]; simpa using h)
        have := h3.1.1
        norm_num [Same, Re, Spec.one] at this
      simp [FrameE.isEqualTo, h9]
    rw [this]; rfl
  · show Except.ok (Result.bool (false || FrameE.isEqualTo ⟨fin a, fin f, name, R_E⟩ ⟨fin a, fin f, name, R_E⟩)) = _
    rw [FrameE.isEqualTo_refl (by simp) (by simp) (by simp [R_E, M3.NoNaN, V3.NoNaN, xr])]; rfl

end Nv
