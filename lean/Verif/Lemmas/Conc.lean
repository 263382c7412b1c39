import Verif.Lemmas.MemCore

/-!
# Computations between the steps of other threads

A thread knows that some arrays and `Nvector` objects keep their values (`pa`, `pn`), and writes only those it has made itself (`oa`,
`on`).  `Rely`: what other threads may do between two of its steps.  `Guar`: what a step of its own may do.  `Runs Q m w`: whatever
other threads do, every step of `m` keeps to this and the result satisfies `Q`.  `CRef w m s`: `m` returns the value `s`, whatever other
threads do.
-/

namespace Nv.Mem
open Nv.ND (Arr)
variable {α : Type}

/-- what a thread knows: the memory it has seen last, what is known to keep its value, what it has made itself -/
structure World (α : Type) where
  h : Heap α
  pa : ℕ → Prop
  pn : ℕ → Prop
  oa : ℕ → Prop
  on : ℕ → Prop

/-- the arrays in `P` and the `Nvector` objects in `N` are unchanged; nothing has been removed -/
structure Keeps (P N : ℕ → Prop) (h h' : Heap α) : Prop where
  arrays : ∀ i, P i → i < h.arrays.length → h'.arrays[i]? = h.arrays[i]?
  nvecs : ∀ i, N i → i < h.nvecs.length → h'.nvecs[i]? = h.nvecs[i]?
  alen : h.arrays.length ≤ h'.arrays.length
  nlen : h.nvecs.length ≤ h'.nvecs.length
  geos : h.geos <+: h'.geos
  ecefs : h.ecefs <+: h'.ecefs
  frames : h.frames <+: h'.frames
  pvecs : h.pvecs <+: h'.pvecs
  paths : h.paths <+: h'.paths

theorem Keeps.refl (P N : ℕ → Prop) (h : Heap α) : Keeps P N h h :=
  ⟨fun _ _ _ => rfl, fun _ _ _ => rfl, le_rfl, le_rfl, List.prefix_refl _, List.prefix_refl _, List.prefix_refl _,
    List.prefix_refl _, List.prefix_refl _⟩

theorem Keeps.trans {P N P' N' : ℕ → Prop} {h₁ h₂ h₃ : Heap α} (a : Keeps P N h₁ h₂) (b : Keeps P' N' h₂ h₃)
    (hP : ∀ i, P i → P' i) (hN : ∀ i, N i → N' i) : Keeps P N h₁ h₃ :=
  ⟨fun i p l => (b.arrays i (hP i p) (l.trans_le a.alen)).trans (a.arrays i p l),
    fun i p l => (b.nvecs i (hN i p) (l.trans_le a.nlen)).trans (a.nvecs i p l), a.alen.trans b.alen, a.nlen.trans b.nlen,
    a.geos.trans b.geos, a.ecefs.trans b.ecefs, a.frames.trans b.frames, a.pvecs.trans b.pvecs, a.paths.trans b.paths⟩

theorem Keeps.weaken {P N P' N' : ℕ → Prop} {h₁ h₂ : Heap α} (a : Keeps P' N' h₁ h₂)
    (hP : ∀ i, P i → i < h₁.arrays.length → P' i) (hN : ∀ i, N i → i < h₁.nvecs.length → N' i) : Keeps P N h₁ h₂ :=
  { a with arrays := fun i p l => a.arrays i (hP i p l) l, nvecs := fun i p l => a.nvecs i (hN i p l) l }

theorem Ext.keeps {h h' : Heap α} (E : Ext h h') (P N : ℕ → Prop) : Keeps P N h h' := by
  refine ⟨fun i _ l => ?_, fun i _ l => ?_, E.arrays.length_le, E.nvecs.length_le, E.geos, E.ecefs, E.frames, E.pvecs, E.paths⟩
  · rw [prefix_get E.arrays (List.getElem?_eq_getElem l), List.getElem?_eq_getElem l]
  · rw [prefix_get E.nvecs (List.getElem?_eq_getElem l), List.getElem?_eq_getElem l]

/-- what other threads may do -/
def Rely (w : World α) (h' : Heap α) : Prop := Keeps w.pa w.pn w.h h'
/-- what a step may do -/
def Guar (w : World α) (h h' : Heap α) : Prop := Keeps (fun i => ¬ w.oa i) (fun i => ¬ w.on i) h h'
/-- what the thread knows after a step from `h₁` to `h₂` -/
def World.after (w : World α) (h₁ h₂ : Heap α) : World α :=
  ⟨h₂, fun i => w.pa i ∨ (h₁.arrays.length ≤ i ∧ i < h₂.arrays.length), fun i => w.pn i ∨ (h₁.nvecs.length ≤ i ∧ i < h₂.nvecs.length),
    fun i => w.oa i ∨ (h₁.arrays.length ≤ i ∧ i < h₂.arrays.length), fun i => w.on i ∨ (h₁.nvecs.length ≤ i ∧ i < h₂.nvecs.length)⟩

theorem World.after_self (w : World α) (h : Heap α) : w.after h h = { w with h := h } := by
  unfold World.after
  congr 1 <;> funext i <;> apply propext <;> constructor <;> try exact Or.inl
  all_goals exact fun x => x.resolve_right fun y => absurd y.2 (by omega)

variable {β γ ρ ρ' γ' : Type}

/-- whatever other threads do, every step is allowed and the result satisfies `Q` -/
def Runs (Q : World α → Except PyErr β → Prop) : M α β → World α → Prop
  | .done r, w => Q w r
  | .step write next, w => ∀ h, Rely w h → Guar w h (write h) ∧ Runs Q (next h) (w.after h (write h))

theorem M_bind_assoc {δ : Type} (m : M α β) (g : β → M α γ) (f : γ → M α δ) : (m >>= g) >>= f = m >>= fun x => g x >>= f := by
  induction m with
  | done r => cases r <;> rfl
  | step w k ih => exact congrArg (M.step w) (funext fun h => ih h)

theorem Runs.imp {Q Q' : World α → Except PyErr β → Prop} (q : ∀ w r, Q w r → Q' w r) {m : M α β} {w : World α} (r : Runs Q m w) :
    Runs Q' m w := by
  induction m generalizing w with
  | done x => exact q w x r
  | step wr k ih => exact fun h R => ⟨(r h R).1, ih h (r h R).2⟩

theorem Runs.and {Q Q' : World α → Except PyErr β → Prop} {m : M α β} {w : World α} (r : Runs Q m w) (r' : Runs Q' m w) :
    Runs (fun w x => Q w x ∧ Q' w x) m w := by
  induction m generalizing w with
  | done x => exact ⟨r, r'⟩
  | step wr k ih => exact fun h R => ⟨(r h R).1, ih h (r h R).2 (r' h R).2⟩

theorem Runs.bind {Q : World α → Except PyErr β → Prop} {Q' : World α → Except PyErr γ → Prop} {m : M α β} {f : β → M α γ}
    {w : World α} (r : Runs Q m w) (ok : ∀ w' b, Q w' (.ok b) → Runs Q' (f b) w') (err : ∀ w' e, Q w' (.error e) → Q' w' (.error e)) :
    Runs Q' (m >>= f) w := by
  induction m generalizing w with
  | done x =>
    cases x with
    | ok b => exact ok w b r
    | error e => exact err w e r
  | step wr k ih => exact fun h R => ⟨(r h R).1, ih h (r h R).2⟩

/-- other threads do not disturb -/
theorem Runs.stable {Q : World α → Except PyErr β → Prop} (q : ∀ w h r, Rely w h → Q w r → Q { w with h := h } r) {m : M α β}
    {w : World α} (r : Runs Q m w) {h : Heap α} (R : Rely w h) : Runs Q m { w with h := h } := by
  cases m with
  | done x => exact q w h x R r
  | step wr k => exact fun h' R' => r h' (Keeps.trans (P := w.pa) (N := w.pn) R R' (fun _ p => p) fun _ p => p)

/-- what was known is still known -/
structure Le (w w' : World α) : Prop where
  pa : ∀ i, w.pa i → w'.pa i
  pn : ∀ i, w.pn i → w'.pn i
  oa : ∀ i, w.oa i → w'.oa i
  on : ∀ i, w.on i → w'.on i
  rely : Rely w w'.h

theorem Le.refl (w : World α) : Le w w := ⟨fun _ p => p, fun _ p => p, fun _ p => p, fun _ p => p, Keeps.refl _ _ _⟩

theorem Le.trans {w w' w'' : World α} (a : Le w w') (b : Le w' w'') : Le w w'' :=
  ⟨fun i p => b.pa i (a.pa i p), fun i p => b.pn i (a.pn i p), fun i p => b.oa i (a.oa i p), fun i p => b.on i (a.on i p),
    Keeps.trans a.rely b.rely a.pa a.pn⟩

theorem Le.of_rely {w : World α} {h : Heap α} (R : Rely w h) : Le w { w with h := h } :=
  ⟨fun _ p => p, fun _ p => p, fun _ p => p, fun _ p => p, R⟩

theorem Le.after {w : World α} {h h' : Heap α} (R : Rely w h) (E : Ext h h') : Le w (w.after h h') :=
  ⟨fun _ => Or.inl, fun _ => Or.inl, fun _ => Or.inl, fun _ => Or.inl,
    Keeps.trans (P := w.pa) (N := w.pn) R (E.keeps w.pa w.pn) (fun _ p => p) fun _ p => p⟩

/-! ## Values that stay -/

/-- a kind of result that has a value and keeps it -/
class Stays (α : Type) (ρ : Type) (γ : outParam Type) extends HasVal α ρ γ where
  Stay : World α → ρ → γ → Prop
  smono : ∀ {w w' : World α}, Le w w' → ∀ {r : ρ} {v : γ}, Stay w r v → Stay w' r v
  sval : ∀ {w : World α} {r : ρ} {v : γ}, Stay w r v → val w.h r = some v

export Stays (Stay)

/-- the array has this value and keeps it -/
def SArr (w : World α) (r : ARef) (A : Arr α) : Prop := w.pa r.base ∧ arrVal w.h r = some A

theorem SArr.mono {w w' : World α} (L : Le w w') {r : ARef} {A : Arr α} (e : SArr w r A) : SArr w' r A := by
  refine ⟨L.pa _ e.1, ?_⟩
  have e2 := e.2
  unfold arrVal at *
  cases e' : w.h.arrays[r.base]? with
  | none => simp [e'] at e2
  | some B => rw [L.rely.arrays _ e.1 (List.getElem?_eq_some_iff.1 e').1]; exact e2
theorem SArr.val {w : World α} {r : ARef} {A : Arr α} (e : SArr w r A) : arrVal w.h r = some A := e.2
instance : Stays α ARef (Arr α) := ⟨SArr, SArr.mono, SArr.val⟩

/-- the attributes of a `GeoPoint` with the value `p` -/
structure SGeoAttr (w : World α) (o : GeoObj α) (p : ND.GeoPoint α) : Prop where
  latitude : Stay w o.latitude p.latitude
  longitude : Stay w o.longitude p.longitude
  z : Stay w o.z p.z
  frame : o.frame = p.frame
theorem SGeoAttr.mono {w w' : World α} (L : Le w w') {o : GeoObj α} {p : ND.GeoPoint α} (a : SGeoAttr w o p) : SGeoAttr w' o p :=
  ⟨Stays.smono L a.latitude, Stays.smono L a.longitude, Stays.smono L a.z, a.frame⟩
/-- keeps its value -/
def SGeo (w : World α) (r : GRef) (p : ND.GeoPoint α) : Prop := ∃ o, w.h.geos[r.id]? = some o ∧ SGeoAttr w o p
theorem SGeo.mono {w w' : World α} (L : Le w w') {r : GRef} {p : ND.GeoPoint α} : SGeo w r p → SGeo w' r p
  | ⟨o, eo, a⟩ => ⟨o, prefix_get L.rely.geos eo, a.mono L⟩
theorem SGeo.val {w : World α} {r : GRef} {p : ND.GeoPoint α} (e : SGeo w r p) : geoVal w.h r = some p := by
  obtain ⟨o, eo, a⟩ := e
  simp only [geoVal, eo, Option.bind_eq_bind, Option.bind_some, SArr.val a.latitude, SArr.val a.longitude, SArr.val a.z, a.frame, Option.pure_def]
instance : Stays α GRef (ND.GeoPoint α) := ⟨SGeo, SGeo.mono, SGeo.val⟩

/-- the attributes of an `Nvector` with the value `p` -/
structure SNvecAttr (w : World α) (o : NvecObj α) (p : ND.Nvector α) : Prop where
  normal : Stay w o.normal p.normal
  z : Stay w o.z p.z
  frame : o.frame = p.frame
theorem SNvecAttr.mono {w w' : World α} (L : Le w w') {o : NvecObj α} {p : ND.Nvector α} (a : SNvecAttr w o p) : SNvecAttr w' o p :=
  ⟨Stays.smono L a.normal, Stays.smono L a.z, a.frame⟩
/-- keeps its value -/
def SNvec (w : World α) (r : NRef) (p : ND.Nvector α) : Prop := w.pn r.id ∧ ∃ o, w.h.nvecs[r.id]? = some o ∧ SNvecAttr w o p
theorem SNvec.mono {w w' : World α} (L : Le w w') {r : NRef} {p : ND.Nvector α} : SNvec w r p → SNvec w' r p
  | ⟨q, o, eo, a⟩ => ⟨L.pn _ q, o, (L.rely.nvecs _ q (List.getElem?_eq_some_iff.1 eo).1).trans eo, a.mono L⟩
theorem SNvec.val {w : World α} {r : NRef} {p : ND.Nvector α} (e : SNvec w r p) : nvecVal w.h r = some p := by
  obtain ⟨_, o, eo, a⟩ := e
  simp only [nvecVal, eo, Option.bind_eq_bind, Option.bind_some, SArr.val a.normal, SArr.val a.z, a.frame, Option.pure_def]
instance : Stays α NRef (ND.Nvector α) := ⟨SNvec, SNvec.mono, SNvec.val⟩

/-- the attributes of an `ECEFvector` with the value `p` -/
structure SEcefAttr (w : World α) (o : EcefObj α) (p : ND.ECEFvector α) : Prop where
  pvector : Stay w o.pvector p.pvector
  frame : o.frame = p.frame
  scalar : o.scalar = p.scalar
theorem SEcefAttr.mono {w w' : World α} (L : Le w w') {o : EcefObj α} {p : ND.ECEFvector α} (a : SEcefAttr w o p) : SEcefAttr w' o p :=
  ⟨Stays.smono L a.pvector, a.frame, a.scalar⟩
/-- keeps its value -/
def SEcef (w : World α) (r : ERef) (p : ND.ECEFvector α) : Prop := ∃ o, w.h.ecefs[r.id]? = some o ∧ SEcefAttr w o p
theorem SEcef.mono {w w' : World α} (L : Le w w') {r : ERef} {p : ND.ECEFvector α} : SEcef w r p → SEcef w' r p
  | ⟨o, eo, a⟩ => ⟨o, prefix_get L.rely.ecefs eo, a.mono L⟩
theorem SEcef.val {w : World α} {r : ERef} {p : ND.ECEFvector α} (e : SEcef w r p) : ecefVal w.h r = some p := by
  obtain ⟨o, eo, a⟩ := e
  simp only [ecefVal, eo, Option.bind_eq_bind, Option.bind_some, SArr.val a.pvector, a.scalar, a.frame, Option.pure_def]
instance : Stays α ERef (ND.ECEFvector α) := ⟨SEcef, SEcef.mono, SEcef.val⟩

/-- the attributes of a local frame with the value `p` -/
inductive SFrameAttr (w : World α) : FrameObj → ND.LocalFrame α → Prop where
  | N {n v} : Stay w n v → SFrameAttr w (.N n) (.N v)
  | L {n v wa x} : Stay w n v → Stay w wa x → SFrameAttr w (.L n wa) (.L v x)
  | B {n v y y' p p' r r'} : Stay w n v → Stay w y y' → Stay w p p' → Stay w r r' → SFrameAttr w (.B n y p r) (.B v y' p' r')
theorem SFrameAttr.mono {w w' : World α} (L : Le w w') {o : FrameObj} {p : ND.LocalFrame α} (a : SFrameAttr w o p) :
    SFrameAttr w' o p := by
  cases a with
  | N a => exact .N (Stays.smono L a)
  | L a b => exact .L (Stays.smono L a) (Stays.smono L b)
  | B a b c d => exact .B (Stays.smono L a) (Stays.smono L b) (Stays.smono L c) (Stays.smono L d)
/-- keeps its value -/
def SFrame (w : World α) (r : FRef) (p : ND.LocalFrame α) : Prop := ∃ o, w.h.frames[r.id]? = some o ∧ SFrameAttr w o p
theorem SFrame.mono {w w' : World α} (L : Le w w') {r : FRef} {p : ND.LocalFrame α} : SFrame w r p → SFrame w' r p
  | ⟨o, eo, a⟩ => ⟨o, prefix_get L.rely.frames eo, a.mono L⟩
theorem SFrame.val {w : World α} {r : FRef} {p : ND.LocalFrame α} (e : SFrame w r p) : frameVal w.h r = some p := by
  obtain ⟨o, eo, a⟩ := e
  cases a with
  | N a => simp only [frameVal, eo, Option.bind_eq_bind, Option.bind_some, SNvec.val a, Option.pure_def]
  | L a b => simp only [frameVal, eo, Option.bind_eq_bind, Option.bind_some, SNvec.val a, b.2, Option.pure_def]
  | B a b c d => simp only [frameVal, eo, Option.bind_eq_bind, Option.bind_some, SNvec.val a, b.2, c.2, d.2, Option.pure_def]
instance : Stays α FRef (ND.LocalFrame α) := ⟨SFrame, SFrame.mono, SFrame.val⟩

/-- the attributes of a `Pvector` with the value `p` -/
structure SPvecAttr (w : World α) (o : PvecObj) (p : ND.Pvector α) : Prop where
  pvector : Stay w o.pvector p.pvector
  frame : Stay w o.frame p.frame
  scalar : o.scalar = p.scalar
theorem SPvecAttr.mono {w w' : World α} (L : Le w w') {o : PvecObj} {p : ND.Pvector α} (a : SPvecAttr w o p) : SPvecAttr w' o p :=
  ⟨Stays.smono L a.pvector, Stays.smono L a.frame, a.scalar⟩
/-- keeps its value -/
def SPvec (w : World α) (r : VRef) (p : ND.Pvector α) : Prop := ∃ o, w.h.pvecs[r.id]? = some o ∧ SPvecAttr w o p
theorem SPvec.mono {w w' : World α} (L : Le w w') {r : VRef} {p : ND.Pvector α} : SPvec w r p → SPvec w' r p
  | ⟨o, eo, a⟩ => ⟨o, prefix_get L.rely.pvecs eo, a.mono L⟩
theorem SPvec.val {w : World α} {r : VRef} {p : ND.Pvector α} (e : SPvec w r p) : pvecVal w.h r = some p := by
  obtain ⟨o, eo, a⟩ := e
  simp only [pvecVal, eo, Option.bind_eq_bind, Option.bind_some, SArr.val a.pvector, a.scalar, SFrame.val a.frame, Option.pure_def]
instance : Stays α VRef (ND.Pvector α) := ⟨SPvec, SPvec.mono, SPvec.val⟩

/-- a position that keeps its value -/
def SPos (w : World α) (r : PosRef) (p : ND.Position α) : Prop :=
  (∃ g q, r = .geo g ∧ p = .geo q ∧ Stay w g q) ∨ (∃ g q, r = .nvec g ∧ p = .nvec q ∧ Stay w g q) ∨
  (∃ g q, r = .ecef g ∧ p = .ecef q ∧ Stay w g q) ∨ (∃ g q, r = .pvec g ∧ p = .pvec q ∧ Stay w g q)
theorem SPos.mono {w w' : World α} (L : Le w w') {r : PosRef} {p : ND.Position α} (e : SPos w r p) : SPos w' r p := by
  obtain ⟨g, q, rfl, rfl, e⟩ | ⟨g, q, rfl, rfl, e⟩ | ⟨g, q, rfl, rfl, e⟩ | ⟨g, q, rfl, rfl, e⟩ := e
  · exact Or.inl ⟨g, q, rfl, rfl, Stays.smono L e⟩
  · exact Or.inr (Or.inl ⟨g, q, rfl, rfl, Stays.smono L e⟩)
  · exact Or.inr (Or.inr (Or.inl ⟨g, q, rfl, rfl, Stays.smono L e⟩))
  · exact Or.inr (Or.inr (Or.inr ⟨g, q, rfl, rfl, Stays.smono L e⟩))
theorem SPos.val {w : World α} {r : PosRef} {p : ND.Position α} (e : SPos w r p) : posVal w.h r = some p := by
  obtain ⟨g, q, rfl, rfl, e⟩ | ⟨g, q, rfl, rfl, e⟩ | ⟨g, q, rfl, rfl, e⟩ | ⟨g, q, rfl, rfl, e⟩ := e
  · simp only [posVal, SGeo.val e, Option.bind_eq_bind, Option.bind_some, Option.pure_def]
  · simp only [posVal, SNvec.val e, Option.bind_eq_bind, Option.bind_some, Option.pure_def]
  · simp only [posVal, SEcef.val e, Option.bind_eq_bind, Option.bind_some, Option.pure_def]
  · simp only [posVal, SPvec.val e, Option.bind_eq_bind, Option.bind_some, Option.pure_def]
instance : Stays α PosRef (ND.Position α) := ⟨SPos, SPos.mono, SPos.val⟩

/-- the attributes of a `GeoPath` with the value `p` -/
structure SPathAttr (w : World α) (o : PathObj) (p : ND.GeoPath α) : Prop where
  point_a : Stay w o.point_a p.point_a
  point_b : Stay w o.point_b p.point_b
theorem SPathAttr.mono {w w' : World α} (L : Le w w') {o : PathObj} {p : ND.GeoPath α} (a : SPathAttr w o p) : SPathAttr w' o p :=
  ⟨Stays.smono L a.point_a, Stays.smono L a.point_b⟩
/-- keeps its value -/
def SPath (w : World α) (r : PathRef) (p : ND.GeoPath α) : Prop := ∃ o, w.h.paths[r.id]? = some o ∧ SPathAttr w o p
theorem SPath.mono {w w' : World α} (L : Le w w') {r : PathRef} {p : ND.GeoPath α} : SPath w r p → SPath w' r p
  | ⟨o, eo, a⟩ => ⟨o, prefix_get L.rely.paths eo, a.mono L⟩
theorem SPath.val {w : World α} {r : PathRef} {p : ND.GeoPath α} (e : SPath w r p) : pathVal w.h r = some p := by
  obtain ⟨o, eo, a⟩ := e
  simp only [pathVal, eo, Option.bind_eq_bind, Option.bind_some, SPos.val a.point_a, SPos.val a.point_b, Option.pure_def]
instance : Stays α PathRef (ND.GeoPath α) := ⟨SPath, SPath.mono, SPath.val⟩

instance : Stays α (Arr Bool) (Arr Bool) := ⟨fun _ r v => r = v, fun _ _ _ e => e, fun e => congrArg some e⟩
instance {ρ σ γ δ : Type} [Stays α ρ γ] [Stays α σ δ] : Stays α (ρ × σ) (γ × δ) :=
  ⟨fun w x v => Stay w x.1 v.1 ∧ Stay w x.2 v.2, fun L _ _ e => ⟨Stays.smono L e.1, Stays.smono L e.2⟩,
    fun e => val_pair (Stays.sval e.1) (Stays.sval e.2)⟩

/-- the result has this value and keeps it, or the exception is the same -/
def Agree [Stays α ρ γ] (w : World α) : Except PyErr ρ → Except PyErr γ → Prop
  | .ok b, .ok c => Stay w b c
  | .error e, .error e' => e = e'
  | _, _ => False

/-- whatever other threads do, `m` returns the value `s` or raises the same exception -/
def CRef [Stays α ρ γ] (w : World α) (m : M α ρ) (s : Except PyErr γ) : Prop := Runs (fun w' r => Le w w' ∧ Agree w' r s) m w

section
variable [Stays α ρ γ] [Stays α ρ' γ'] {w : World α}

theorem Agree.mono {w' : World α} (L : Le w w') {r : Except PyErr ρ} {s : Except PyErr γ} (a : Agree w r s) : Agree w' r s := by
  cases r <;> cases s <;> first | exact a | exact Stays.smono L a

theorem CRef.bind {m : M α ρ} {s : Except PyErr γ} {f : ρ → M α ρ'} {g : γ → Except PyErr γ'}
    (r : CRef w m s) (k : ∀ w' b c, Le w w' → Stay w' b c → CRef w' (f b) (g c)) : CRef w (m >>= f) (s >>= g) := by
  refine Runs.bind r (fun w' b q => ?_) fun w' e q => ?_
  · cases s with
    | error e => exact absurd q.2 (by simp [Agree])
    | ok c => exact (k w' b c q.1 q.2).imp fun w'' x y => ⟨q.1.trans y.1, y.2⟩
  · cases s with
    | error e' => exact ⟨q.1, q.2⟩
    | ok c => exact absurd q.2 (by simp [Agree])

theorem CRef.pure {b : ρ} {c : γ} (e : Stay w b c) : CRef w (Pure.pure b : M α ρ) (.ok c) := ⟨Le.refl w, e⟩
theorem CRef.throw {x : PyErr} : CRef w (throw x : M α ρ) (.error x) := ⟨Le.refl w, rfl⟩
theorem CRef.congr {m : M α ρ} {s s' : Except PyErr γ} (e : s = s') (r : CRef w m s') : CRef w m s := e ▸ r

/-- a step that only reads something that keeps its value -/
theorem CRef.look {φ : Heap α → Except PyErr β} {b : β} {f : β → M α ρ} {s : Except PyErr γ} (e : ∀ h, Rely w h → φ h = .ok b)
    (k : CRef w (f b) s) : CRef w (Mem.look φ >>= f) s := by
  refine fun h R => ⟨Keeps.refl _ _ _, ?_⟩
  rw [show w.after h (id h) = { w with h := h } from World.after_self w h]
  have : (M.done (φ h) : M α β).bind f = f b := by rw [e h R]; rfl
  change Runs _ ((M.done (φ h) : M α β).bind f) _
  rw [this]
  exact Runs.stable (fun w' h' r R' q => ⟨q.1.trans (Le.of_rely R'), q.2.mono (Le.of_rely R')⟩) k R

/-- reading raises an exception -/
theorem CRef.look_error {φ : Heap α → Except PyErr β} {x : PyErr} {f : β → M α ρ} (e : ∀ h, Rely w h → φ h = .error x) :
    CRef w (Mem.look φ >>= f) (.error x : Except PyErr γ) := by
  refine fun h R => ⟨Keeps.refl _ _ _, ?_⟩
  rw [show w.after h (id h) = { w with h := h } from World.after_self w h]
  have : (M.done (φ h) : M α β).bind f = .done (.error x) := by rw [e h R]; rfl
  change Runs _ ((M.done (φ h) : M α β).bind f) _
  rw [this]
  exact ⟨Le.of_rely R, rfl⟩

theorem CRef.lift {e : Except PyErr β} {f : β → M α ρ} {g : β → Except PyErr γ}
    (k : ∀ b, e = .ok b → CRef w (f b) (g b)) : CRef w (Mem.lift e >>= f) (e >>= g) := by
  cases e with
  | error x => exact ⟨Le.refl w, rfl⟩
  | ok b => exact k b rfl

theorem CRef.liftB {e : Except PyErr (Arr Bool)} : CRef w (Mem.lift e : M α (Arr Bool)) e := by
  cases e <;> exact ⟨Le.refl w, rfl⟩

theorem CRef.read {r : ARef} {A : Arr α} {f : Arr α → M α ρ} {s : Except PyErr γ} (e : Stay w r A)
    (k : CRef w (f A) s) : CRef w (readA r >>= f) s := by
  refine CRef.look (fun h R => ?_) k
  have := (SArr.mono (Le.of_rely R) e).2
  change h.arrays[r.base]?.map r.view = some A at this
  rw [this]
  rfl

theorem CRef.getGeo {r : GRef} {p : ND.GeoPoint α} {f : GeoObj α → M α ρ} {s : Except PyErr γ}
    (e : Stay w r p) (k : ∀ o, SGeoAttr w o p → CRef w (f o) s) : CRef w (Mem.getGeo r >>= f) s := by
  obtain ⟨o, eo, a⟩ := e
  exact CRef.look (b := o) (fun h R => by rw [prefix_get R.geos eo]; rfl) (k o a)
theorem CRef.getNvec {r : NRef} {p : ND.Nvector α} {f : NvecObj α → M α ρ} {s : Except PyErr γ}
    (e : Stay w r p) (k : ∀ o, SNvecAttr w o p → CRef w (f o) s) : CRef w (Mem.getNvec r >>= f) s := by
  obtain ⟨q, o, eo, a⟩ := e
  exact CRef.look (b := o) (fun h R => by rw [R.nvecs _ q (List.getElem?_eq_some_iff.1 eo).1, eo]; rfl) (k o a)
theorem CRef.getEcef {r : ERef} {p : ND.ECEFvector α} {f : EcefObj α → M α ρ} {s : Except PyErr γ}
    (e : Stay w r p) (k : ∀ o, SEcefAttr w o p → CRef w (f o) s) : CRef w (Mem.getEcef r >>= f) s := by
  obtain ⟨o, eo, a⟩ := e
  exact CRef.look (b := o) (fun h R => by rw [prefix_get R.ecefs eo]; rfl) (k o a)
theorem CRef.getFrame {r : FRef} {p : ND.LocalFrame α} {f : FrameObj → M α ρ} {s : Except PyErr γ}
    (e : Stay w r p) (k : ∀ o, SFrameAttr w o p → CRef w (f o) s) : CRef w (Mem.getFrame r >>= f) s := by
  obtain ⟨o, eo, a⟩ := e
  exact CRef.look (b := o) (fun h R => by rw [prefix_get R.frames eo]; rfl) (k o a)
theorem CRef.getPvec {r : VRef} {p : ND.Pvector α} {f : PvecObj → M α ρ} {s : Except PyErr γ}
    (e : Stay w r p) (k : ∀ o, SPvecAttr w o p → CRef w (f o) s) : CRef w (Mem.getPvec r >>= f) s := by
  obtain ⟨o, eo, a⟩ := e
  exact CRef.look (b := o) (fun h R => by rw [prefix_get R.pvecs eo]; rfl) (k o a)
theorem CRef.getPath {r : PathRef} {p : ND.GeoPath α} {f : PathObj → M α ρ} {s : Except PyErr γ}
    (e : Stay w r p) (k : ∀ o, SPathAttr w o p → CRef w (f o) s) : CRef w (Mem.getPath r >>= f) s := by
  obtain ⟨o, eo, a⟩ := e
  exact CRef.look (b := o) (fun h R => by rw [prefix_get R.paths eo]; rfl) (k o a)

/-- a step that makes something -/
theorem CRef.act {φ : Heap α → ρ} {wr : Heap α → Heap α} {c : γ} (E : ∀ h, Ext h (wr h))
    (e : ∀ h, Rely w h → Le w (w.after h (wr h)) → Stay (w.after h (wr h)) (φ h) c) : CRef w (Mem.act φ wr) (.ok c) := by
  refine fun h R => ⟨(E h).keeps _ _, ?_⟩
  have L := Le.after R (E h)
  exact ⟨L, e h R L⟩

theorem CRef.then {m : M α ρ} {c : γ} {f : ρ → M α ρ'} {s : Except PyErr γ'} (r : CRef w m (.ok c))
    (k : ∀ w' b, Le w w' → Stay w' b c → CRef w' (f b) s) : CRef w (m >>= f) s := by
  refine Runs.bind r (fun w' b q => ?_) fun w' e q => ?_
  · exact (k w' b q.1 q.2).imp fun w'' x y => ⟨q.1.trans y.1, y.2⟩
  · exact absurd q.2 (by simp [Agree])

end

section
variable {w : World α}

theorem CRef.alloc {A : Arr α} : CRef w (Mem.alloc A) (.ok A) := by
  refine CRef.act (fun h => ext_alloc h A) fun h R L => ⟨Or.inr ⟨le_rfl, ?_⟩, alloc_val h A⟩
  change h.arrays.length < (h.arrays ++ [A]).length
  simp

theorem CRef.allocE {e : Except PyErr (Arr α)} : CRef w (Mem.allocE e) e := by
  cases e with
  | error x => exact ⟨Le.refl w, rfl⟩
  | ok A => exact CRef.alloc

theorem CRef.allocThen [Stays α ρ γ] {A : Arr α} {f : ARef → M α ρ} {s : Except PyErr γ}
    (k : ∀ w' r, Le w w' → Stay w' r A → CRef w' (f r) s) : CRef w (Mem.alloc A >>= f) s := CRef.then CRef.alloc k

theorem CRef.newGeo {o : GeoObj α} {p : ND.GeoPoint α} (a : SGeoAttr w o p) : CRef w (Mem.newGeo o) (.ok p) :=
  CRef.act (fun h => Pres.newGeo o h) fun h _ L => ⟨o, by simp [World.after], a.mono L⟩
theorem CRef.newNvec {o : NvecObj α} {p : ND.Nvector α} (a : SNvecAttr w o p) : CRef w (Mem.newNvec o) (.ok p) :=
  CRef.act (fun h => Pres.newNvec o h) fun h _ L => ⟨Or.inr ⟨le_rfl, by simp⟩, o, by simp [World.after], a.mono L⟩
theorem CRef.newEcef {o : EcefObj α} {p : ND.ECEFvector α} (a : SEcefAttr w o p) : CRef w (Mem.newEcef o) (.ok p) :=
  CRef.act (fun h => Pres.newEcef o h) fun h _ L => ⟨o, by simp [World.after], a.mono L⟩
theorem CRef.newFrame {o : FrameObj} {p : ND.LocalFrame α} (a : SFrameAttr w o p) : CRef w (Mem.newFrame o) (.ok p) :=
  CRef.act (fun h => Pres.newFrame o h) fun h _ L => ⟨o, by simp [World.after], a.mono L⟩
theorem CRef.newPvec {o : PvecObj} {p : ND.Pvector α} (a : SPvecAttr w o p) : CRef w (Mem.newPvec o) (.ok p) :=
  CRef.act (fun h => Pres.newPvec o h) fun h _ L => ⟨o, by simp [World.after], a.mono L⟩
theorem CRef.newPath {o : PathObj} {p : ND.GeoPath α} (a : SPathAttr w o p) : CRef w (Mem.newPath o) (.ok p) :=
  CRef.act (fun h => Pres.newPath o h) fun h _ L => ⟨o, by simp [World.after], a.mono L⟩

theorem CRef.row {r : ARef} {A : Arr α} (e : Stay w r A) (i : ℕ) : CRef w (Mem.lift (r.row i) : M α ARef) (A.row i) := by
  have q := val_row e.2 i
  refine ⟨Le.refl w, ?_⟩
  cases h1 : r.row i with
  | error x => cases h2 : A.row i <;> rw [h1, h2] at q <;> exact q
  | ok r' =>
    cases h2 : A.row i with
    | error y => rw [h1, h2] at q; exact q
    | ok A' =>
      rw [h1, h2] at q
      refine ⟨?_, q⟩
      have : r'.base = r.base := by
        unfold ARef.row at h1
        split at h1
        · split at h1
          · cases h1; rfl
          · cases h1
        · cases h1
      rw [this]
      exact e.1

theorem Stay_broadcastTo {r : ARef} {A : Arr α} (e : Stay w r A) (s : List ℕ) : Stay w (r.broadcastTo s) (A.broadcastTo s) :=
  ⟨e.1, val_broadcastTo e.2 s⟩

theorem Stay_shape {r : ARef} {A : Arr α} (e : Stay w r A) : A.shape = r.shape := val_shape e.2

theorem SFrameAttr.nvector {o : FrameObj} {p : ND.LocalFrame α} (a : SFrameAttr w o p) : Stay w o.nvector p.nvector := by
  cases a <;> assumption

end

end Nv.Mem
