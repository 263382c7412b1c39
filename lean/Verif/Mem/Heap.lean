import Verif.ND.Paths

/-!
# Memory model

In Python the attributes of an object are references: two objects can share an array or an object, and an assignment through
one of them is seen through the other.  `Verif.ND` passes values and cannot see this.  Here the arrays and the objects live in
a memory; functions get and return references and every function is executed on the memory.

Every assignment in the source to an element of an array (`util.unit`, util.py:508-509, and `n_E2R_EN`, rotation.py:462) and to
an attribute of an existing object (`Nvector.unit`, objects.py:581, and `GeoPath.interpolate`, objects.py:1173) is an assignment
in this model.  The two assignments in `isclose` (util.py:175, 177) write Boolean arrays made by `np.full` two lines before;
Boolean arrays are values here.

The `FrameE` of a position is a value: no function assigns to its attributes.
-/

namespace Nv.Mem
open Nv.ND (Arr)

/-- A reference to an array: the memory it lives in, its shape and the element of the memory each of its elements is.  A numpy
view (`A[0]`, `np.broadcast_arrays`) shares the memory of the array it is made from. (numpy, for objects.py and core.py) -/
structure ARef where
  base : ℕ
  shape : List ℕ
  ix : List ℕ → List ℕ

/-- a reference to a `GeoPoint` (objects.py:152) -/
structure GRef where
  id : ℕ
/-- a reference to an `Nvector` (objects.py:424) -/
structure NRef where
  id : ℕ
/-- a reference to an `ECEFvector` (objects.py:719) -/
structure ERef where
  id : ℕ
/-- a reference to a local frame (objects.py:1388, 1436, 1487) -/
structure FRef where
  id : ℕ
/-- a reference to a `Pvector` (objects.py:629) -/
structure VRef where
  id : ℕ
/-- a reference to a `GeoPath` (objects.py:821) -/
structure PathRef where
  id : ℕ

/-- a reference to a position object (objects.py:152, 424, 629, 719) -/
inductive PosRef where
  | geo (r : GRef)
  | nvec (r : NRef)
  | ecef (r : ERef)
  | pvec (r : VRef)

/-- objects.py:206-210 the attributes of a `GeoPoint` -/
structure GeoObj (α : Type) where
  latitude : ARef
  longitude : ARef
  z : ARef
  frame : FrameE α

/-- objects.py:465-468 the attributes of an `Nvector` -/
structure NvecObj (α : Type) where
  normal : ARef
  z : ARef
  frame : FrameE α

/-- objects.py:633-638 the attributes of an `ECEFvector` -/
structure EcefObj (α : Type) where
  pvector : ARef
  frame : FrameE α
  scalar : Bool

/-- the attributes of a local frame: objects.py:1421-1423, 1474-1476, 1516-1522 -/
inductive FrameObj where
  | N (nvector : NRef)
  | L (nvector : NRef) (wander_azimuth : ARef)
  | B (nvector : NRef) (yaw pitch roll : ARef)

/-- objects.py:633-638 the attributes of a `Pvector` -/
structure PvecObj where
  pvector : ARef
  frame : FRef
  scalar : Bool

/-- objects.py:842-844 the attributes of a `GeoPath` -/
structure PathObj where
  point_a : PosRef
  point_b : PosRef

/-- The memory: the arrays and the objects that have been made, in the order they were made (Python, for objects.py) -/
structure Heap (α : Type) where
  arrays : List (Arr α) := []
  geos : List (GeoObj α) := []
  nvecs : List (NvecObj α) := []
  ecefs : List (EcefObj α) := []
  frames : List FrameObj := []
  pvecs : List PvecObj := []
  paths : List PathObj := []

/-- A computation, step by step: it is done, with a result or an exception, or it makes one step.  A step changes the memory (`write`)
and goes on, depending on what it finds in the memory (`next`).  One step is the use of one array or object: other threads can run
between any two steps.  After an exception the memory stays as it is. (Python, for objects.py and core.py) -/
inductive M (α β : Type) : Type where
  | done (r : Except PyErr β)
  | step (write : Heap α → Heap α) (next : Heap α → M α β)

section
variable {α β γ : Type}

/-- the computation alone, from beginning to end: the result and the memory afterwards (Python, for objects.py and core.py) -/
def M.run : M α β → Heap α → Except PyErr β × Heap α
  | .done r, h => (r, h)
  | .step write next, h => (next h).run (write h)

/-- `m h` is the run of `m` in the memory `h` (notation) -/
instance : CoeFun (M α β) (fun _ => Heap α → Except PyErr β × Heap α) := ⟨M.run⟩

/-- sequential execution; an exception ends it (Python, for objects.py and core.py) -/
def M.bind : M α β → (β → M α γ) → M α γ
  | .done (.ok b), f => f b
  | .done (.error e), _ => .done (.error e)
  | .step write next, f => .step write fun h => (next h).bind f

/-- statements run one after the other; an exception ends the run (Python, for objects.py and core.py) -/
instance : Monad (M α) where
  pure b := .done (.ok b)
  bind := M.bind

/-- a computation that does not use the memory (Python, for objects.py and core.py) -/
def lift (e : Except PyErr β) : M α β := .done e
/-- `raise e` (for example objects.py:1542) -/
def throw (e : PyErr) : M α β := .done (.error e)
/-- one step that reads (Python and numpy, for objects.py and core.py) -/
def look (f : Heap α → Except PyErr β) : M α β := .step id fun h => .done (f h)
/-- one step that makes or changes something (Python and numpy, for objects.py and core.py) -/
def act (f : Heap α → β) (write : Heap α → Heap α) : M α β := .step write fun h => .done (.ok (f h))

/-- an attribute that does not exist (Python, for objects.py) -/
def orAttributeError : Option β → Except PyErr β
  | some b => .ok b
  | none => .error .AttributeError

/-- the elements of an array (numpy, for objects.py and core.py) -/
def ARef.view (r : ARef) (A : Arr α) : Arr α := ⟨r.shape, fun i => A.get (r.ix i)⟩

/-- read the elements of an array (numpy, for objects.py and core.py) -/
def readA (r : ARef) : M α (Arr α) := look fun h => orAttributeError (h.arrays[r.base]?.map r.view)
/-- a new array (numpy, for objects.py and core.py) -/
def alloc (A : Arr α) : M α ARef := act (fun h => ⟨h.arrays.length, A.shape, id⟩) fun h => { h with arrays := h.arrays ++ [A] }
/-- a new array with the value of an expression (numpy, for objects.py and core.py) -/
def allocE (e : Except PyErr (Arr α)) : M α ARef := do alloc (← lift e)
/-- assignment to elements of an array (that is not a view): element `i` with value `x` becomes `f i x` (numpy, for util.py:508-509 and rotation.py:462) -/
def assign (r : ARef) (f : List ℕ → α → α) : M α Unit :=
  act (fun _ => ()) fun h => { h with arrays := h.arrays.modify r.base fun A => ⟨A.shape, fun i => f i (A.get i)⟩ }

/-- `A[i]`: a view (numpy, for example rotation.py:412, objects.py:699) -/
def ARef.row (r : ARef) (i : ℕ) : Except PyErr ARef :=
  match r.shape with
  | d :: s => if i < d then .ok ⟨r.base, s, fun idx => r.ix (i :: idx)⟩ else .error .IndexError
  | [] => .error .IndexError
/-- one of the results of `np.broadcast_arrays`: a view (numpy, for objects.py:209) -/
def ARef.broadcastTo (r : ARef) (s : List ℕ) : ARef := ⟨r.base, s, fun i => r.ix (ND.bidx r.shape i)⟩

/-- attributes of a `GeoPoint` (objects.py:206-210) -/
def getGeo (r : GRef) : M α (GeoObj α) := look fun h => orAttributeError h.geos[r.id]?
/-- attributes of an `Nvector` (objects.py:465-468) -/
def getNvec (r : NRef) : M α (NvecObj α) := look fun h => orAttributeError h.nvecs[r.id]?
/-- attributes of an `ECEFvector` (objects.py:633-638, 746-747) -/
def getEcef (r : ERef) : M α (EcefObj α) := look fun h => orAttributeError h.ecefs[r.id]?
/-- attributes of a local frame (objects.py:1421-1424, 1474-1477, 1516-1522) -/
def getFrame (r : FRef) : M α FrameObj := look fun h => orAttributeError h.frames[r.id]?
/-- attributes of a `Pvector` (objects.py:633-638) -/
def getPvec (r : VRef) : M α PvecObj := look fun h => orAttributeError h.pvecs[r.id]?
/-- attributes of a `GeoPath` (objects.py:842-844) -/
def getPath (r : PathRef) : M α PathObj := look fun h => orAttributeError h.paths[r.id]?

/-- a new object of class `GeoPoint` (objects.py:206-210) -/
def newGeo (o : GeoObj α) : M α GRef := act (fun h => ⟨h.geos.length⟩) fun h => { h with geos := h.geos ++ [o] }
/-- a new object of class `Nvector` (objects.py:465-468) -/
def newNvec (o : NvecObj α) : M α NRef := act (fun h => ⟨h.nvecs.length⟩) fun h => { h with nvecs := h.nvecs ++ [o] }
/-- a new object of class `ECEFvector` (objects.py:633-638, 746-747) -/
def newEcef (o : EcefObj α) : M α ERef := act (fun h => ⟨h.ecefs.length⟩) fun h => { h with ecefs := h.ecefs ++ [o] }
/-- a new local frame (objects.py:1421-1424, 1474-1477, 1516-1522) -/
def newFrame (o : FrameObj) : M α FRef := act (fun h => ⟨h.frames.length⟩) fun h => { h with frames := h.frames ++ [o] }
/-- a new object of class `Pvector` (objects.py:633-638) -/
def newPvec (o : PvecObj) : M α VRef := act (fun h => ⟨h.pvecs.length⟩) fun h => { h with pvecs := h.pvecs ++ [o] }
/-- a new object of class `GeoPath` (objects.py:842-844) -/
def newPath (o : PathObj) : M α PathRef := act (fun h => ⟨h.paths.length⟩) fun h => { h with paths := h.paths ++ [o] }
/-- the assignment `n.normal = a` to an `Nvector` (objects.py:581) -/
def setNormal (r : NRef) (a : ARef) : M α Unit :=
  act (fun _ => ()) fun h => { h with nvecs := h.nvecs.modify r.id fun o => { o with normal := a } }

/-! ## What can be observed of an object

The arrays, numbers and objects its attributes hold, all the way down. -/

/-- the elements of an array in a memory (what a caller sees of an array) -/
def arrVal (h : Heap α) (r : ARef) : Option (Arr α) := h.arrays[r.base]?.map r.view
/-- an optional argument (`radius` of objects.py:885, 916) -/
def optVal (h : Heap α) : Option ARef → Option (Option (Arr α))
  | none => some none
  | some r => (arrVal h r).map some
/-- a `GeoPoint` in a memory (what a caller sees of objects.py:206-210) -/
def geoVal (h : Heap α) (r : GRef) : Option (ND.GeoPoint α) := do
  let o ← h.geos[r.id]?
  pure ⟨← arrVal h o.latitude, ← arrVal h o.longitude, ← arrVal h o.z, o.frame⟩
/-- an `Nvector` in a memory (what a caller sees of objects.py:465-468) -/
def nvecVal (h : Heap α) (r : NRef) : Option (ND.Nvector α) := do
  let o ← h.nvecs[r.id]?
  pure ⟨← arrVal h o.normal, ← arrVal h o.z, o.frame⟩
/-- an `ECEFvector` in a memory (what a caller sees of objects.py:633-638) -/
def ecefVal (h : Heap α) (r : ERef) : Option (ND.ECEFvector α) := do
  let o ← h.ecefs[r.id]?
  pure ⟨← arrVal h o.pvector, o.frame, o.scalar⟩
/-- a local frame in a memory (what a caller sees of objects.py:1421-1522) -/
def frameVal (h : Heap α) (r : FRef) : Option (ND.LocalFrame α) := do
  match ← h.frames[r.id]? with
  | .N n => pure (.N (← nvecVal h n))
  | .L n wa => pure (.L (← nvecVal h n) (← arrVal h wa))
  | .B n yaw pitch roll => pure (.B (← nvecVal h n) (← arrVal h yaw) (← arrVal h pitch) (← arrVal h roll))
/-- a `Pvector` in a memory (what a caller sees of objects.py:633-638) -/
def pvecVal (h : Heap α) (r : VRef) : Option (ND.Pvector α) := do
  let o ← h.pvecs[r.id]?
  pure ⟨← arrVal h o.pvector, ← frameVal h o.frame, o.scalar⟩
/-- a position in a memory (objects.py:152, 424, 629, 719) -/
def posVal (h : Heap α) : PosRef → Option (ND.Position α)
  | .geo r => do pure (.geo (← geoVal h r))
  | .nvec r => do pure (.nvec (← nvecVal h r))
  | .ecef r => do pure (.ecef (← ecefVal h r))
  | .pvec r => do pure (.pvec (← pvecVal h r))
/-- a `GeoPath` in a memory (what a caller sees of objects.py:842-844) -/
def pathVal (h : Heap α) (r : PathRef) : Option (ND.GeoPath α) := do
  let o ← h.paths[r.id]?
  pure ⟨← posVal h o.point_a, ← posVal h o.point_b⟩

end

end Nv.Mem
