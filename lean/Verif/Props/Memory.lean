import Verif.Lemmas.MemShare

/-!
# C59: operations never modify their operands

`execs calls h` is the memory after any sequence of constructions, function calls and method calls on the arrays and objects in `h`
(and on those made by the calls before), whether they raise exceptions or not.  `arrVal`, `nvecVal`, ... give everything that can
be observed of an array or object.
-/

namespace Nv.Mem
open Nv.ND (Arr)
open Nv.Spec
variable {α : Type} [PyFloat α]
open PyFloat

/-- The library never changes an element of an array. -/
theorem C59_arrays (calls : List (Call α)) (h : Heap α) (r : ARef) (A : Arr α) (e : arrVal h r = some A) :
    arrVal (execs calls h) r = some A := (execs_same calls h).arr e

/-- A `GeoPoint` is never changed. -/
theorem C59_GeoPoint (calls : List (Call α)) (h : Heap α) (r : GRef) (p : ND.GeoPoint α) (e : geoVal h r = some p) :
    geoVal (execs calls h) r = some p := (execs_same calls h).geo e

/-- An `ECEFvector` is never changed. -/
theorem C59_ECEFvector (calls : List (Call α)) (h : Heap α) (r : ERef) (p : ND.ECEFvector α) (e : ecefVal h r = some p) :
    ecefVal (execs calls h) r = some p := (execs_same calls h).ecef e

/-- An `Nvector` is only changed by calls of its method `unit`. -/
theorem C59_Nvector (calls : List (Call α)) (h : Heap α) (r : NRef) (p : ND.Nvector α) (e : nvecVal h r = some p)
    (hu : ∀ c ∈ calls, ¬ CallsUnit r c) : nvecVal (execs calls h) r = some p :=
  (execs_same calls h).nvec (fun ⟨c, hc, u⟩ => hu c hc u) e

/-- A local frame is only changed by calls of `unit` of the `Nvector` it has been made with. -/
theorem C59_LocalFrame (calls : List (Call α)) (h : Heap α) (r : FRef) (f : ND.LocalFrame α) (e : frameVal h r = some f)
    (hu : ∀ n, FrameHolds h r n → ∀ c ∈ calls, ¬ CallsUnit n c) : frameVal (execs calls h) r = some f :=
  (execs_same calls h).frame (fun n hn ⟨c, hc, u⟩ => hu n hn c hc u) e

/-- A `Pvector` is only changed by calls of `unit` of the `Nvector` its frame has been made with. -/
theorem C59_Pvector (calls : List (Call α)) (h : Heap α) (r : VRef) (p : ND.Pvector α) (e : pvecVal h r = some p)
    (hu : ∀ n, PosHolds h (.pvec r) n → ∀ c ∈ calls, ¬ CallsUnit n c) : pvecVal (execs calls h) r = some p :=
  (execs_same calls h).pvec (fun n hn ⟨c, hc, u⟩ => hu n hn c hc u) e

/-- A position of any class -/
theorem C59_position (calls : List (Call α)) (h : Heap α) (r : PosRef) (p : ND.Position α) (e : posVal h r = some p)
    (hu : ∀ n, PosHolds h r n → ∀ c ∈ calls, ¬ CallsUnit n c) : posVal (execs calls h) r = some p :=
  (execs_same calls h).pos (fun n hn ⟨c, hc, u⟩ => hu n hn c hc u) e

/-- A `GeoPath` is only changed by calls of `unit` of an `Nvector` that is one of its end points or the origin of the frame of one. -/
theorem C59_GeoPath (calls : List (Call α)) (h : Heap α) (P : PathRef) (p : ND.GeoPath α) (e : pathVal h P = some p)
    (hu : ∀ n, PathHolds h P n → ∀ c ∈ calls, ¬ CallsUnit n c) : pathVal (execs calls h) P = some p :=
  (execs_same calls h).path (fun n hn ⟨c, hc, u⟩ => hu n hn c hc u) e

/-- `n.unit()` gives `n` the unit vectors as normal, and keeps its depth and frame; if the unit vectors do not exist it raises the
exception and keeps everything. -/
theorem C59_unit {h : Heap α} {n : NRef} {p : ND.Nvector α} (e : nvecVal h n = some p) :
    match (nvec_unit n h).1, ND.unit p.normal with
    | .ok (), .ok U => nvecVal (nvec_unit n h).2 n = some ⟨U, p.z, p.frame⟩
    | .error x, .error y => x = y ∧ nvecVal (nvec_unit n h).2 n = some p
    | _, _ => False := by
  rcases nvec_unit_run e with ⟨U, h', e1, e2, _, e3⟩ | ⟨x, h', e1, e2, E⟩
  · rw [e1, e2]; exact e3
  · rw [e1, e2]; exact ⟨rfl, nvecVal_mono E e⟩

/-! ### The hypotheses hold -/

/-- the memory after `A = np.array(...)`, `z = ...`, `n = FrameE.Nvector(A, z)` (twice), `GeoPath(n0, n1)`, `FrameB(n0)` -/
def example_heap (A z : Arr α) (F : FrameE α) : Heap α :=
  execs [.array A, .array z, .Nvector ⟨0, A.shape, id⟩ ⟨1, z.shape, id⟩ F, .Nvector ⟨0, A.shape, id⟩ ⟨1, z.shape, id⟩ F,
    .GeoPath (.nvec ⟨0⟩) (.nvec ⟨1⟩), .FrameB (.nvec ⟨0⟩) ⟨1, z.shape, id⟩ ⟨1, z.shape, id⟩ ⟨1, z.shape, id⟩ false] {}

/-- both `Nvector` objects and the path exist, the path holds both, the frame holds the first -/
example (A z : Arr α) (F : FrameE α) :
    nvecVal (example_heap A z F) ⟨0⟩ = some ⟨A, z, F⟩ ∧ nvecVal (example_heap A z F) ⟨1⟩ = some ⟨A, z, F⟩ ∧
    pathVal (example_heap A z F) ⟨0⟩ = some ⟨.nvec ⟨A, z, F⟩, .nvec ⟨A, z, F⟩⟩ ∧
    PathHolds (example_heap A z F) ⟨0⟩ ⟨0⟩ ∧ PathHolds (example_heap A z F) ⟨0⟩ ⟨1⟩ ∧
    FrameHolds (example_heap A z F) ⟨0⟩ ⟨0⟩ ∧ ¬ FrameHolds (example_heap A z F) ⟨0⟩ ⟨1⟩ := by
  refine ⟨rfl, rfl, rfl, ⟨_, rfl, .inl rfl⟩, ⟨_, rfl, .inr rfl⟩, ⟨_, rfl, rfl⟩, ?_⟩
  rintro ⟨o, e, q⟩
  cases e
  cases q

/-- after `n1.unit()` and any other calls the first `Nvector` and the frame are as before -/
example (A z : Arr α) (F : FrameE α) :
    nvecVal (execs [.nvec_unit ⟨1⟩, .interpolate ⟨0⟩ ⟨1, z.shape, id⟩] (example_heap A z F)) ⟨0⟩ = some ⟨A, z, F⟩ :=
  C59_Nvector _ _ _ _ rfl (by simp [CallsUnit])

end Nv.Mem
