import Verif.Mem.Objects
import Mathlib.Data.List.Basic
import Mathlib.Tactic

/-!
# Reasoning about the memory model

`Ext h h'`: everything in `h` is still there in `h'`, unchanged.  `Refines h m s`: started in `h`, the computation `m` only adds to
the memory and its result has the value `s`, or it raises the same exception.
-/

namespace Nv.Mem
open Nv.ND (Arr)

variable {α : Type}

/-- nothing has been changed or removed -/
structure Ext (h h' : Heap α) : Prop where
  arrays : h.arrays <+: h'.arrays
  geos : h.geos <+: h'.geos
  nvecs : h.nvecs <+: h'.nvecs
  ecefs : h.ecefs <+: h'.ecefs
  frames : h.frames <+: h'.frames
  pvecs : h.pvecs <+: h'.pvecs
  paths : h.paths <+: h'.paths

theorem Ext.refl (h : Heap α) : Ext h h :=
  ⟨List.prefix_refl _, List.prefix_refl _, List.prefix_refl _, List.prefix_refl _, List.prefix_refl _, List.prefix_refl _,
    List.prefix_refl _⟩

theorem Ext.trans {h₁ h₂ h₃ : Heap α} (a : Ext h₁ h₂) (b : Ext h₂ h₃) : Ext h₁ h₃ :=
  ⟨a.arrays.trans b.arrays, a.geos.trans b.geos, a.nvecs.trans b.nvecs, a.ecefs.trans b.ecefs, a.frames.trans b.frames,
    a.pvecs.trans b.pvecs, a.paths.trans b.paths⟩

theorem prefix_get {β : Type} {l l' : List β} (p : l <+: l') {i : ℕ} {x : β} (e : l[i]? = some x) : l'[i]? = some x := by
  obtain ⟨t, rfl⟩ := p
  rw [List.getElem?_append_left]
  · exact e
  · exact (List.getElem?_eq_some_iff.1 e).1

theorem arrVal_mono {h h' : Heap α} (E : Ext h h') {r : ARef} {A : Arr α} (e : arrVal h r = some A) : arrVal h' r = some A := by
  unfold arrVal at *
  cases e' : h.arrays[r.base]? with
  | none => simp [e'] at e
  | some B => rw [prefix_get E.arrays e']; rw [e'] at e; exact e

theorem nvecVal_mono {h h' : Heap α} (E : Ext h h') {r : NRef} {v : ND.Nvector α} (e : nvecVal h r = some v) :
    nvecVal h' r = some v := by
  unfold nvecVal at *
  simp only [Option.bind_eq_bind, Option.bind_eq_some_iff, Option.pure_def] at *
  obtain ⟨o, eo, a, ea, b, eb, r⟩ := e
  exact ⟨o, prefix_get E.nvecs eo, a, arrVal_mono E ea, b, arrVal_mono E eb, r⟩

theorem geoVal_mono {h h' : Heap α} (E : Ext h h') {r : GRef} {v : ND.GeoPoint α} (e : geoVal h r = some v) :
    geoVal h' r = some v := by
  unfold geoVal at *
  simp only [Option.bind_eq_bind, Option.bind_eq_some_iff, Option.pure_def] at *
  obtain ⟨o, eo, a, ea, b, eb, c, ec, r⟩ := e
  exact ⟨o, prefix_get E.geos eo, a, arrVal_mono E ea, b, arrVal_mono E eb, c, arrVal_mono E ec, r⟩

theorem ecefVal_mono {h h' : Heap α} (E : Ext h h') {r : ERef} {v : ND.ECEFvector α} (e : ecefVal h r = some v) :
    ecefVal h' r = some v := by
  unfold ecefVal at *
  simp only [Option.bind_eq_bind, Option.bind_eq_some_iff, Option.pure_def] at *
  obtain ⟨o, eo, a, ea, r⟩ := e
  exact ⟨o, prefix_get E.ecefs eo, a, arrVal_mono E ea, r⟩

theorem frameVal_mono {h h' : Heap α} (E : Ext h h') {r : FRef} {v : ND.LocalFrame α} (e : frameVal h r = some v) :
    frameVal h' r = some v := by
  unfold frameVal at *
  simp only [Option.bind_eq_bind, Option.bind_eq_some_iff, Option.pure_def] at *
  obtain ⟨o, eo, e⟩ := e
  refine ⟨o, prefix_get E.frames eo, ?_⟩
  cases o <;> simp only [Option.bind_eq_some_iff] at * 
  · obtain ⟨n, en, r⟩ := e
    exact ⟨n, nvecVal_mono E en, r⟩
  · obtain ⟨n, en, a, ea, r⟩ := e
    exact ⟨n, nvecVal_mono E en, a, arrVal_mono E ea, r⟩
  · obtain ⟨n, en, a, ea, b, eb, c, ec, r⟩ := e
    exact ⟨n, nvecVal_mono E en, a, arrVal_mono E ea, b, arrVal_mono E eb, c, arrVal_mono E ec, r⟩

theorem pvecVal_mono {h h' : Heap α} (E : Ext h h') {r : VRef} {v : ND.Pvector α} (e : pvecVal h r = some v) :
    pvecVal h' r = some v := by
  unfold pvecVal at *
  simp only [Option.bind_eq_bind, Option.bind_eq_some_iff, Option.pure_def] at *
  obtain ⟨o, eo, a, ea, b, eb, r⟩ := e
  exact ⟨o, prefix_get E.pvecs eo, a, arrVal_mono E ea, b, frameVal_mono E eb, r⟩

theorem posVal_mono {h h' : Heap α} (E : Ext h h') {r : PosRef} {v : ND.Position α} (e : posVal h r = some v) :
    posVal h' r = some v := by
  cases r <;> simp only [posVal, Option.bind_eq_bind, Option.bind_eq_some_iff, Option.pure_def] at * <;> obtain ⟨o, eo, r⟩ := e
  · exact ⟨o, geoVal_mono E eo, r⟩
  · exact ⟨o, nvecVal_mono E eo, r⟩
  · exact ⟨o, ecefVal_mono E eo, r⟩
  · exact ⟨o, pvecVal_mono E eo, r⟩

theorem pathVal_mono {h h' : Heap α} (E : Ext h h') {r : PathRef} {v : ND.GeoPath α} (e : pathVal h r = some v) :
    pathVal h' r = some v := by
  unfold pathVal at *
  simp only [Option.bind_eq_bind, Option.bind_eq_some_iff, Option.pure_def] at *
  obtain ⟨o, eo, a, ea, b, eb, r⟩ := e
  exact ⟨o, prefix_get E.paths eo, a, posVal_mono E ea, b, posVal_mono E eb, r⟩

/-- a kind of result and the value it has in a memory -/
class HasVal (α : Type) (ρ : Type) (γ : outParam Type) where
  val : Heap α → ρ → Option γ
  mono : ∀ {h h' : Heap α}, Ext h h' → ∀ {r : ρ} {v : γ}, val h r = some v → val h' r = some v

export HasVal (val)

instance : HasVal α ARef (Arr α) := ⟨arrVal, arrVal_mono⟩
instance : HasVal α GRef (ND.GeoPoint α) := ⟨geoVal, geoVal_mono⟩
instance : HasVal α NRef (ND.Nvector α) := ⟨nvecVal, nvecVal_mono⟩
instance : HasVal α ERef (ND.ECEFvector α) := ⟨ecefVal, ecefVal_mono⟩
instance : HasVal α FRef (ND.LocalFrame α) := ⟨frameVal, frameVal_mono⟩
instance : HasVal α VRef (ND.Pvector α) := ⟨pvecVal, pvecVal_mono⟩
instance : HasVal α PosRef (ND.Position α) := ⟨posVal, posVal_mono⟩
instance : HasVal α PathRef (ND.GeoPath α) := ⟨pathVal, pathVal_mono⟩
instance : HasVal α (Arr Bool) (Arr Bool) := ⟨fun _ x => some x, fun _ _ _ e => e⟩
instance {ρ σ γ δ : Type} [HasVal α ρ γ] [HasVal α σ δ] : HasVal α (ρ × σ) (γ × δ) :=
  ⟨fun h x => do pure (← val h x.1, ← val h x.2), fun E r v e => by
    simp only [Option.bind_eq_bind, Option.bind_eq_some_iff, Option.pure_def] at *
    obtain ⟨a, ea, b, eb, r⟩ := e
    exact ⟨a, HasVal.mono E ea, b, HasVal.mono E eb, r⟩⟩

/-- `m` only adds to the memory -/
def Pres {β : Type} (m : M α β) : Prop := ∀ h, Ext h (m h).2

/-- `m` only adds to the memory, and returns an object with the value `s` or raises the same exception -/
def Refines {ρ γ : Type} [HasVal α ρ γ] (h : Heap α) (m : M α ρ) (s : Except PyErr γ) : Prop :=
  Ext h (m h).2 ∧
  match (m h).1, s with
  | .ok b, .ok c => val (m h).2 b = some c
  | .error e, .error e' => e = e'
  | _, _ => False

theorem bind_eq {β γ : Type} (m : M α β) (f : β → M α γ) (h : Heap α) : (m >>= f) h = match m h with
  | (.ok b, h') => f b h'
  | (.error e, h') => (.error e, h') := by
  induction m generalizing h with
  | done r => cases r <;> rfl
  | step w k ih => exact ih h (w h)

@[simp] theorem look_run {β : Type} (f : Heap α → Except PyErr β) (h : Heap α) : look f h = (f h, h) := rfl
@[simp] theorem act_run {β : Type} (f : Heap α → β) (w : Heap α → Heap α) (h : Heap α) : act f w h = (.ok (f h), w h) := rfl

theorem bind_ok {β γ : Type} {m : M α β} {f : β → M α γ} {h h' : Heap α} {b : β} (e : m h = (.ok b, h')) :
    (m >>= f) h = f b h' := by rw [bind_eq, e]

theorem bind_error {β γ : Type} {m : M α β} {f : β → M α γ} {h h' : Heap α} {x : PyErr} (e : m h = (.error x, h')) :
    (m >>= f) h = (.error x, h') := by rw [bind_eq, e]

section
variable {ρ γ ρ' γ' β : Type} [HasVal α ρ γ] [HasVal α ρ' γ']

theorem Refines.bind {h : Heap α} {m : M α ρ} {s : Except PyErr γ} {f : ρ → M α ρ'} {g : γ → Except PyErr γ'}
    (r : Refines h m s) (k : ∀ h' b c, Ext h h' → val h' b = some c → Refines h' (f b) (g c)) : Refines h (m >>= f) (s >>= g) := by
  obtain ⟨E, r⟩ := r
  cases e : m h with
  | mk x h' =>
  rw [e] at E r
  cases x with
  | error x =>
    cases s with
    | ok c => exact absurd r (by simp)
    | error y =>
      refine ⟨?_, ?_⟩
      · rw [bind_error e]; exact E
      · rw [bind_error e]; exact r
  | ok b =>
    cases s with
    | error y => exact absurd r (by simp)
    | ok c =>
      obtain ⟨E', q⟩ := k h' b c E r
      refine ⟨?_, ?_⟩
      · rw [bind_ok e]; exact E.trans E'
      · rw [bind_ok e]; exact q

theorem Refines.pure {h : Heap α} {b : ρ} {c : γ} (e : val h b = some c) : Refines h (Pure.pure b : M α ρ) (.ok c) :=
  ⟨Ext.refl h, e⟩

/-- the value of the last step -/
theorem Refines.last {h : Heap α} {m : M α ρ} {s : Except PyErr γ} (r : Refines h m s) : Refines h m (s >>= Pure.pure) := by
  cases s <;> exact r

theorem Refines.throw {h : Heap α} {x : PyErr} : Refines h (throw x : M α ρ) (.error x) := ⟨Ext.refl h, rfl⟩

/-- a step that does not change the memory -/
theorem Refines.step {h : Heap α} {m : M α β} {b : β} {f : β → M α ρ} {s : Except PyErr γ} (e : m h = (.ok b, h))
    (k : Refines h (f b) s) : Refines h (m >>= f) s := by
  obtain ⟨E, r⟩ := k
  refine ⟨?_, ?_⟩
  · rw [bind_ok e]; exact E
  · rw [bind_ok e]; exact r

/-- a step that makes something and returns its reference -/
theorem Refines.make {h h' : Heap α} {m : M α β} {b : β} {f : β → M α ρ} {s : Except PyErr γ} (e : m h = (.ok b, h'))
    (E : Ext h h') (k : Refines h' (f b) s) : Refines h (m >>= f) s := by
  obtain ⟨E', r⟩ := k
  refine ⟨?_, ?_⟩
  · rw [bind_ok e]; exact E.trans E'
  · rw [bind_ok e]; exact r

theorem Refines.lift {h : Heap α} {e : Except PyErr β} {f : β → M α ρ} {g : β → Except PyErr γ}
    (k : ∀ b, e = .ok b → Refines h (f b) (g b)) : Refines h (Mem.lift e >>= f) (e >>= g) := by
  cases e with
  | error x => exact ⟨Ext.refl h, rfl⟩
  | ok b => exact Refines.step rfl (k b rfl)

theorem Refines.read {h : Heap α} {r : ARef} {A : Arr α} {f : Arr α → M α ρ} {s : Except PyErr γ} (e : val h r = some A)
    (k : Refines h (f A) s) : Refines h (readA r >>= f) s := by
  refine Refines.step ?_ k
  unfold readA
  rw [look_run, show h.arrays[r.base]?.map r.view = some A from e]
  rfl

end

theorem readA_eq {h : Heap α} {r : ARef} {A : Arr α} (e : val h r = some A) : readA r h = (.ok A, h) := by
  unfold readA
  rw [look_run, show h.arrays[r.base]?.map r.view = some A from e]
  rfl

theorem val_shape {h : Heap α} {r : ARef} {A : Arr α} (e : val h r = some A) : A.shape = r.shape := by
  change h.arrays[r.base]?.map r.view = some A at e
  rw [Option.map_eq_some_iff] at e
  obtain ⟨B, _, rfl⟩ := e
  rfl

theorem ext_alloc (h : Heap α) (A : Arr α) : Ext h { h with arrays := h.arrays ++ [A] } :=
  { Ext.refl h with arrays := List.prefix_append _ _ }

theorem alloc_val (h : Heap α) (A : Arr α) :
    val { h with arrays := h.arrays ++ [A] } (⟨h.arrays.length, A.shape, id⟩ : ARef) = some A := by
  change arrVal _ _ = _
  simp [arrVal, ARef.view]

theorem Refines.alloc {h : Heap α} {A : Arr α} : Refines h (Mem.alloc A) (.ok A) := ⟨ext_alloc h A, alloc_val h A⟩

theorem Refines.allocE {h : Heap α} {e : Except PyErr (Arr α)} : Refines h (Mem.allocE e) e := by
  cases e with
  | error x => exact ⟨Ext.refl h, rfl⟩
  | ok A => exact Refines.alloc

/-! ## Only adding to the memory -/

section
variable {β γ : Type}

theorem Pres.bind {m : M α β} {f : β → M α γ} (a : Pres m) (b : ∀ x, Pres (f x)) : Pres (m >>= f) := by
  intro h
  have E := a h
  cases e : m h with
  | mk x h' =>
  rw [e] at E
  cases x with
  | error x => rw [bind_error e]; exact E
  | ok y => rw [bind_ok e]; exact E.trans (b y h')

theorem Pres.pure (b : β) : Pres (Pure.pure b : M α β) := fun h => Ext.refl h
theorem Pres.lift (e : Except PyErr β) : Pres (Mem.lift e : M α β) := fun h => Ext.refl h
theorem Pres.throw (e : PyErr) : Pres (Mem.throw e : M α β) := fun h => Ext.refl h
theorem Pres.readA (r : ARef) : Pres (Mem.readA r : M α _) := fun h => Ext.refl h
theorem Pres.alloc (A : Arr α) : Pres (Mem.alloc A) := fun h => ext_alloc h A
theorem Pres.allocE (e : Except PyErr (Arr α)) : Pres (Mem.allocE e) := Pres.bind (Pres.lift e) Pres.alloc
theorem Pres.getGeo (r : GRef) : Pres (Mem.getGeo r : M α _) := fun h => Ext.refl h
theorem Pres.getNvec (r : NRef) : Pres (Mem.getNvec r : M α _) := fun h => Ext.refl h
theorem Pres.getEcef (r : ERef) : Pres (Mem.getEcef r : M α _) := fun h => Ext.refl h
theorem Pres.getFrame (r : FRef) : Pres (Mem.getFrame r : M α _) := fun h => Ext.refl h
theorem Pres.getPvec (r : VRef) : Pres (Mem.getPvec r : M α _) := fun h => Ext.refl h
theorem Pres.getPath (r : PathRef) : Pres (Mem.getPath r : M α _) := fun h => Ext.refl h
theorem Pres.newGeo (o : GeoObj α) : Pres (Mem.newGeo o) := fun h => { Ext.refl h with geos := List.prefix_append _ _ }
theorem Pres.newNvec (o : NvecObj α) : Pres (Mem.newNvec o) := fun h => { Ext.refl h with nvecs := List.prefix_append _ _ }
theorem Pres.newEcef (o : EcefObj α) : Pres (Mem.newEcef o) := fun h => { Ext.refl h with ecefs := List.prefix_append _ _ }
theorem Pres.newFrame (o : FrameObj) : Pres (Mem.newFrame o : M α _) :=
  fun h => { Ext.refl h with frames := List.prefix_append _ _ }
theorem Pres.newPvec (o : PvecObj) : Pres (Mem.newPvec o : M α _) := fun h => { Ext.refl h with pvecs := List.prefix_append _ _ }
theorem Pres.newPath (o : PathObj) : Pres (Mem.newPath o : M α _) := fun h => { Ext.refl h with paths := List.prefix_append _ _ }

end

/-! ## Reading the attributes of objects -/

section
variable {ρ γ : Type} [HasVal α ρ γ]

/-- the attributes of a `GeoPoint` with the value `p` -/
structure GeoAttr (h : Heap α) (o : GeoObj α) (p : ND.GeoPoint α) : Prop where
  latitude : val h o.latitude = some p.latitude
  longitude : val h o.longitude = some p.longitude
  z : val h o.z = some p.z
  frame : o.frame = p.frame
/-- the attributes of an `Nvector` with the value `p` -/
structure NvecAttr (h : Heap α) (o : NvecObj α) (p : ND.Nvector α) : Prop where
  normal : val h o.normal = some p.normal
  z : val h o.z = some p.z
  frame : o.frame = p.frame
/-- the attributes of an `ECEFvector` with the value `p` -/
structure EcefAttr (h : Heap α) (o : EcefObj α) (p : ND.ECEFvector α) : Prop where
  pvector : val h o.pvector = some p.pvector
  frame : o.frame = p.frame
  scalar : o.scalar = p.scalar
/-- the attributes of a `Pvector` with the value `p` -/
structure PvecAttr (h : Heap α) (o : PvecObj) (p : ND.Pvector α) : Prop where
  pvector : val h o.pvector = some p.pvector
  frame : val h o.frame = some p.frame
  scalar : o.scalar = p.scalar
/-- the attributes of a `GeoPath` with the value `p` -/
structure PathAttr (h : Heap α) (o : PathObj) (p : ND.GeoPath α) : Prop where
  point_a : val h o.point_a = some p.point_a
  point_b : val h o.point_b = some p.point_b

theorem GeoAttr.mono {h h' : Heap α} (E : Ext h h') {o : GeoObj α} {p : ND.GeoPoint α} (a : GeoAttr h o p) : GeoAttr h' o p :=
  ⟨HasVal.mono E a.latitude, HasVal.mono E a.longitude, HasVal.mono E a.z, a.frame⟩
theorem NvecAttr.mono {h h' : Heap α} (E : Ext h h') {o : NvecObj α} {p : ND.Nvector α} (a : NvecAttr h o p) :
    NvecAttr h' o p := ⟨HasVal.mono E a.normal, HasVal.mono E a.z, a.frame⟩
theorem EcefAttr.mono {h h' : Heap α} (E : Ext h h') {o : EcefObj α} {p : ND.ECEFvector α} (a : EcefAttr h o p) :
    EcefAttr h' o p := ⟨HasVal.mono E a.pvector, a.frame, a.scalar⟩
theorem PvecAttr.mono {h h' : Heap α} (E : Ext h h') {o : PvecObj} {p : ND.Pvector α} (a : PvecAttr h o p) :
    PvecAttr h' o p := ⟨HasVal.mono E a.pvector, HasVal.mono E a.frame, a.scalar⟩
theorem PathAttr.mono {h h' : Heap α} (E : Ext h h') {o : PathObj} {p : ND.GeoPath α} (a : PathAttr h o p) :
    PathAttr h' o p := ⟨HasVal.mono E a.point_a, HasVal.mono E a.point_b⟩

theorem geo_attr {h : Heap α} {r : GRef} {p : ND.GeoPoint α} (e : val h r = some p) :
    ∃ o, h.geos[r.id]? = some o ∧ GeoAttr h o p := by
  change geoVal h r = some p at e
  simp only [geoVal, Option.bind_eq_bind, Option.bind_eq_some_iff, Option.pure_def] at e
  obtain ⟨o, eo, a, ea, b, eb, c, ec, e⟩ := e
  cases e
  exact ⟨o, eo, ea, eb, ec, rfl⟩
theorem nvec_attr {h : Heap α} {r : NRef} {p : ND.Nvector α} (e : val h r = some p) :
    ∃ o, h.nvecs[r.id]? = some o ∧ NvecAttr h o p := by
  change nvecVal h r = some p at e
  simp only [nvecVal, Option.bind_eq_bind, Option.bind_eq_some_iff, Option.pure_def] at e
  obtain ⟨o, eo, a, ea, b, eb, e⟩ := e
  cases e
  exact ⟨o, eo, ea, eb, rfl⟩
theorem ecef_attr {h : Heap α} {r : ERef} {p : ND.ECEFvector α} (e : val h r = some p) :
    ∃ o, h.ecefs[r.id]? = some o ∧ EcefAttr h o p := by
  change ecefVal h r = some p at e
  simp only [ecefVal, Option.bind_eq_bind, Option.bind_eq_some_iff, Option.pure_def] at e
  obtain ⟨o, eo, a, ea, e⟩ := e
  cases e
  exact ⟨o, eo, ea, rfl, rfl⟩
theorem pvec_attr {h : Heap α} {r : VRef} {p : ND.Pvector α} (e : val h r = some p) :
    ∃ o, h.pvecs[r.id]? = some o ∧ PvecAttr h o p := by
  change pvecVal h r = some p at e
  simp only [pvecVal, Option.bind_eq_bind, Option.bind_eq_some_iff, Option.pure_def] at e
  obtain ⟨o, eo, a, ea, b, eb, e⟩ := e
  cases e
  exact ⟨o, eo, ea, eb, rfl⟩
theorem path_attr {h : Heap α} {r : PathRef} {p : ND.GeoPath α} (e : val h r = some p) :
    ∃ o, h.paths[r.id]? = some o ∧ PathAttr h o p := by
  change pathVal h r = some p at e
  simp only [pathVal, Option.bind_eq_bind, Option.bind_eq_some_iff, Option.pure_def] at e
  obtain ⟨o, eo, a, ea, b, eb, e⟩ := e
  cases e
  exact ⟨o, eo, ea, eb⟩

theorem Refines.getGeo {h : Heap α} {r : GRef} {p : ND.GeoPoint α} {f : GeoObj α → M α ρ} {s : Except PyErr γ}
    (e : val h r = some p) (k : ∀ o, GeoAttr h o p → Refines h (f o) s) : Refines h (Mem.getGeo r >>= f) s := by
  obtain ⟨o, eo, a⟩ := geo_attr e
  exact Refines.step (b := o) (by unfold Mem.getGeo; rw [look_run, eo]; rfl) (k o a)
theorem Refines.getNvec {h : Heap α} {r : NRef} {p : ND.Nvector α} {f : NvecObj α → M α ρ} {s : Except PyErr γ}
    (e : val h r = some p) (k : ∀ o, NvecAttr h o p → Refines h (f o) s) : Refines h (Mem.getNvec r >>= f) s := by
  obtain ⟨o, eo, a⟩ := nvec_attr e
  exact Refines.step (b := o) (by unfold Mem.getNvec; rw [look_run, eo]; rfl) (k o a)
theorem Refines.getEcef {h : Heap α} {r : ERef} {p : ND.ECEFvector α} {f : EcefObj α → M α ρ} {s : Except PyErr γ}
    (e : val h r = some p) (k : ∀ o, EcefAttr h o p → Refines h (f o) s) : Refines h (Mem.getEcef r >>= f) s := by
  obtain ⟨o, eo, a⟩ := ecef_attr e
  exact Refines.step (b := o) (by unfold Mem.getEcef; rw [look_run, eo]; rfl) (k o a)
theorem Refines.getPvec {h : Heap α} {r : VRef} {p : ND.Pvector α} {f : PvecObj → M α ρ} {s : Except PyErr γ}
    (e : val h r = some p) (k : ∀ o, PvecAttr h o p → Refines h (f o) s) : Refines h (Mem.getPvec r >>= f) s := by
  obtain ⟨o, eo, a⟩ := pvec_attr e
  exact Refines.step (b := o) (by unfold Mem.getPvec; rw [look_run, eo]; rfl) (k o a)
theorem Refines.getPath {h : Heap α} {r : PathRef} {p : ND.GeoPath α} {f : PathObj → M α ρ} {s : Except PyErr γ}
    (e : val h r = some p) (k : ∀ o, PathAttr h o p → Refines h (f o) s) : Refines h (Mem.getPath r >>= f) s := by
  obtain ⟨o, eo, a⟩ := path_attr e
  exact Refines.step (b := o) (by unfold Mem.getPath; rw [look_run, eo]; rfl) (k o a)

/-- the attributes of a local frame with the value `p` -/
inductive FrameAttr (h : Heap α) : FrameObj → ND.LocalFrame α → Prop where
  | N {n v} : val h n = some v → FrameAttr h (.N n) (.N v)
  | L {n v wa w} : val h n = some v → val h wa = some w → FrameAttr h (.L n wa) (.L v w)
  | B {n v y y' p p' r r'} : val h n = some v → val h y = some y' → val h p = some p' → val h r = some r' →
      FrameAttr h (.B n y p r) (.B v y' p' r')

theorem frame_attr {h : Heap α} {r : FRef} {p : ND.LocalFrame α} (e : val h r = some p) :
    ∃ o, h.frames[r.id]? = some o ∧ FrameAttr h o p := by
  change frameVal h r = some p at e
  simp only [frameVal, Option.bind_eq_bind, Option.bind_eq_some_iff, Option.pure_def] at e
  obtain ⟨o, eo, e⟩ := e
  refine ⟨o, eo, ?_⟩
  cases o <;> simp only [Option.bind_eq_some_iff] at e
  · obtain ⟨n, en, e⟩ := e
    cases e
    exact .N en
  · obtain ⟨n, en, a, ea, e⟩ := e
    cases e
    exact .L en ea
  · obtain ⟨n, en, a, ea, b, eb, c, ec, e⟩ := e
    cases e
    exact .B en ea eb ec

theorem Refines.getFrame {h : Heap α} {r : FRef} {p : ND.LocalFrame α} {f : FrameObj → M α ρ} {s : Except PyErr γ}
    (e : val h r = some p) (k : ∀ o, FrameAttr h o p → Refines h (f o) s) : Refines h (Mem.getFrame r >>= f) s := by
  obtain ⟨o, eo, a⟩ := frame_attr e
  exact Refines.step (b := o) (by unfold Mem.getFrame; rw [look_run, eo]; rfl) (k o a)

theorem FrameAttr.nvector {h : Heap α} {o : FrameObj} {p : ND.LocalFrame α} (a : FrameAttr h o p) :
    val h o.nvector = some p.nvector := by cases a <;> assumption

end

/-! ## New objects -/

theorem Refines.newGeo {h : Heap α} {o : GeoObj α} {p : ND.GeoPoint α} (a : GeoAttr h o p) : Refines h (Mem.newGeo o) (.ok p) := by
  have E := Pres.newGeo o h
  refine ⟨E, ?_⟩
  have a' := a.mono E
  change geoVal _ _ = _
  have e : (Mem.newGeo o h).2.geos[h.geos.length]? = some o := by simp [Mem.newGeo, act_run]
  simp only [geoVal, e, Option.bind_eq_bind, Option.bind_some, Option.pure_def]
  rw [show arrVal _ o.latitude = _ from a'.latitude, show arrVal _ o.longitude = _ from a'.longitude,
    show arrVal _ o.z = _ from a'.z, a.frame]
  rfl
theorem Refines.newNvec {h : Heap α} {o : NvecObj α} {p : ND.Nvector α} (a : NvecAttr h o p) :
    Refines h (Mem.newNvec o) (.ok p) := by
  have E := Pres.newNvec o h
  refine ⟨E, ?_⟩
  have a' := a.mono E
  change nvecVal _ _ = _
  have e : (Mem.newNvec o h).2.nvecs[h.nvecs.length]? = some o := by simp [Mem.newNvec, act_run]
  simp only [nvecVal, e, Option.bind_eq_bind, Option.bind_some, Option.pure_def]
  rw [show arrVal _ o.normal = _ from a'.normal, show arrVal _ o.z = _ from a'.z, a.frame]
  rfl
theorem Refines.newEcef {h : Heap α} {o : EcefObj α} {p : ND.ECEFvector α} (a : EcefAttr h o p) :
    Refines h (Mem.newEcef o) (.ok p) := by
  have E := Pres.newEcef o h
  refine ⟨E, ?_⟩
  have a' := a.mono E
  change ecefVal _ _ = _
  have e : (Mem.newEcef o h).2.ecefs[h.ecefs.length]? = some o := by simp [Mem.newEcef, act_run]
  simp only [ecefVal, e, Option.bind_eq_bind, Option.bind_some, Option.pure_def]
  rw [show arrVal _ o.pvector = _ from a'.pvector, a.frame, a.scalar]
  rfl
theorem Refines.newPvec {h : Heap α} {o : PvecObj} {p : ND.Pvector α} (a : PvecAttr h o p) :
    Refines h (Mem.newPvec o) (.ok p) := by
  have E := Pres.newPvec (α := α) o h
  refine ⟨E, ?_⟩
  have a' := a.mono E
  change pvecVal _ _ = _
  have e : (Mem.newPvec o h).2.pvecs[h.pvecs.length]? = some o := by simp [Mem.newPvec, act_run]
  simp only [pvecVal, e, Option.bind_eq_bind, Option.bind_some, Option.pure_def]
  rw [show arrVal _ o.pvector = _ from a'.pvector, show frameVal _ o.frame = _ from a'.frame, a.scalar]
  rfl
theorem Refines.newPath {h : Heap α} {o : PathObj} {p : ND.GeoPath α} (a : PathAttr h o p) :
    Refines h (Mem.newPath o) (.ok p) := by
  have E := Pres.newPath (α := α) o h
  refine ⟨E, ?_⟩
  have a' := a.mono E
  change pathVal _ _ = _
  have e : (Mem.newPath o h).2.paths[h.paths.length]? = some o := by simp [Mem.newPath, act_run]
  simp only [pathVal, e, Option.bind_eq_bind, Option.bind_some, Option.pure_def]
  rw [show posVal _ o.point_a = _ from a'.point_a, show posVal _ o.point_b = _ from a'.point_b]
  rfl
theorem FrameAttr.mono {h h' : Heap α} (E : Ext h h') {o : FrameObj} {p : ND.LocalFrame α} (a : FrameAttr h o p) :
    FrameAttr h' o p := by
  cases a with
  | N a => exact .N (HasVal.mono E a)
  | L a b => exact .L (HasVal.mono E a) (HasVal.mono E b)
  | B a b c d => exact .B (HasVal.mono E a) (HasVal.mono E b) (HasVal.mono E c) (HasVal.mono E d)
theorem Refines.newFrame {h : Heap α} {o : FrameObj} {p : ND.LocalFrame α} (a : FrameAttr h o p) :
    Refines h (Mem.newFrame o) (.ok p) := by
  have E := Pres.newFrame (α := α) o h
  refine ⟨E, ?_⟩
  have a' := a.mono E
  change frameVal _ _ = _
  have e : (Mem.newFrame o h).2.frames[h.frames.length]? = some o := by simp [Mem.newFrame, act_run]
  cases a' with
  | N b1 =>
    simp only [frameVal, e, Option.bind_eq_bind, Option.bind_some, Option.pure_def]
    rw [show nvecVal _ _ = _ from b1]; rfl
  | L b1 b2 =>
    simp only [frameVal, e, Option.bind_eq_bind, Option.bind_some, Option.pure_def]
    rw [show nvecVal _ _ = _ from b1, show arrVal _ _ = _ from b2]; rfl
  | B b1 b2 b3 b4 =>
    simp only [frameVal, e, Option.bind_eq_bind, Option.bind_some, Option.pure_def]
    rw [show nvecVal _ _ = _ from b1, show arrVal _ _ = _ from b2, show arrVal _ _ = _ from b3, show arrVal _ _ = _ from b4]; rfl

/-! ## Views -/

theorem val_row {h : Heap α} {r : ARef} {A : Arr α} (e : val h r = some A) (i : ℕ) :
    match r.row i, A.row i with
    | .ok r', .ok A' => val h r' = some A'
    | .error x, .error y => x = y
    | _, _ => False := by
  change h.arrays[r.base]?.map r.view = some A at e
  rw [Option.map_eq_some_iff] at e
  obtain ⟨B, eB, rfl⟩ := e
  unfold ARef.row ND.Arr.row ARef.view
  cases hs : r.shape with
  | nil => simp
  | cons d s =>
    simp only [hs]
    by_cases hi : i < d
    · simp only [hi, if_true]
      change arrVal h _ = _
      simp only [arrVal, eB, Option.map_some, ARef.view]
    · simp only [hi, if_false]

theorem Refines.row {h : Heap α} {r : ARef} {A : Arr α} (e : val h r = some A) (i : ℕ) :
    Refines h (Mem.lift (r.row i) : M α ARef) (A.row i) := by
  have q := val_row e i
  refine ⟨Ext.refl h, ?_⟩
  unfold Mem.lift
  cases h1 : r.row i <;> cases h2 : A.row i <;> rw [h1, h2] at q <;> exact q

theorem val_broadcastTo {h : Heap α} {r : ARef} {A : Arr α} (e : val h r = some A) (s : List ℕ) :
    val h (r.broadcastTo s) = some (A.broadcastTo s) := by
  change h.arrays[r.base]?.map r.view = some A at e
  rw [Option.map_eq_some_iff] at e
  obtain ⟨B, eB, rfl⟩ := e
  change arrVal h _ = _
  simp only [arrVal, ARef.broadcastTo, eB, Option.map_some, ARef.view, ND.Arr.broadcastTo]

end Nv.Mem
