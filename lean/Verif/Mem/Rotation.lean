import Verif.Model.Objects

/-!
# The rotation matrices on a memory

`E_ROTATION_MATRIX` (rotation.py:23-26) is a table of two arrays that are made when the module is imported.  `E_rotation(axes)` returns
one of these two arrays, not a copy, and `FrameE.__init__` keeps it as the attribute `R_Ee` (objects.py:1213).  Here the 3×3 arrays and
the frames live in a memory, functions get and return references, and a program can assign to the elements of every array it has a
reference to.
-/

namespace Nv.Axes

/-- a reference to a 3×3 array (rotation.py:23-26) -/
structure MatRef where
  id : ℕ
/-- a reference to a `FrameE` (objects.py:1177) -/
structure FrameRef where
  id : ℕ

/-- the attributes of a `FrameE`: objects.py:1210-1213 -/
structure FrameObj (α : Type) where
  a : α
  f : α
  name : EllKey
  R_Ee : MatRef

/-- the memory: the 3×3 arrays and the frames, in the order they were made (Python, for rotation.py and objects.py) -/
structure World (α : Type) where
  mats : List (M3 α)
  frames : List (FrameObj α)

section
variable {α : Type} [PyFloat α]

/-- after the import: rotation.py:23-26 has made the two arrays of the table -/
def start : World α := ⟨[R_e, R_E], []⟩

/-- rotation.py:31-83 `E_rotation(axes='e')`: the array in the table; any other string raises `KeyError` -/
def E_rotation (axes : String := "e") : Except PyErr MatRef :=
  if axes = "e" then .ok ⟨0⟩ else if axes = "E" then .ok ⟨1⟩ else .error .KeyError

omit [PyFloat α] in
/-- the elements of the array now; a variable that is not bound raises `NameError`, here `AttributeError` (Python, for rotation.py:23-26) -/
def elements (r : MatRef) (w : World α) : Except PyErr (M3 α) :=
  match w.mats[r.id]? with
  | some A => .ok A
  | none => .error .AttributeError

/-- objects.py:1207-1213 `FrameE.__init__(a=None, f=None, name='WGS84', axes='e')` -/
def FrameE (a f : Option α) (name : EllKey) (axes : String) (w : World α) : Except PyErr FrameRef × World α :=
  let af : Except PyErr (α × α) := match a, f with
    | some a, some f => .ok (a, f)
    | _, _ => do
      let e ← get_ellipsoid name
      pure (e.a, e.f)
  match af, E_rotation axes with
  | .ok (a, f), .ok R => (.ok ⟨w.frames.length⟩, { w with frames := w.frames ++ [⟨a, f, name, R⟩] })
  | .error e, _ => (.error e, w)
  | .ok _, .error e => (.error e, w)

omit [PyFloat α] in
/-- the attribute `R_Ee` of a frame (objects.py:1213) -/
def R_Ee (F : FrameRef) (w : World α) : Except PyErr MatRef :=
  match w.frames[F.id]? with
  | some o => .ok o.R_Ee
  | none => .error .AttributeError

omit [PyFloat α] in
/-- the attributes of a frame, with the elements of its array now (objects.py:1210-1213) -/
def value (F : FrameRef) (w : World α) : Except PyErr (Nv.FrameE α) :=
  match w.frames[F.id]? with
  | some o => do
    let R ← elements o.R_Ee w
    pure ⟨o.a, o.f, o.name, R⟩
  | none => .error .AttributeError

omit [PyFloat α] in
/-- the argument `R_Ee=None` of the functions: `if R_Ee is None: R_Ee = E_rotation()` (for example core.py:64-65) -/
def argument (R_Ee : Option MatRef) (w : World α) : Except PyErr (M3 α) :=
  match R_Ee with
  | none => do elements (← E_rotation) w
  | some r => elements r w

/-- what a program can get -/
inductive Result (α : Type) where
  | mat (r : MatRef)
  | frame (F : FrameRef)
  | matrix (A : M3 α)
  | vector (v : V3 α)
  | number (x : α)
  | angles (latitude longitude : α)
  | position (n : V3 α) (depth : α)
  | bool (b : Bool)
  | none

/-- What a program can do with the arrays and frames: make them, get at the arrays, use them, and assign to the elements of an array
(`setElements`; the new elements are arbitrary).  The calls on positions have the frame of the position as their argument; the other
attributes of positions are values here. (rotation.py, core.py, objects.py) -/
inductive Call (α : Type) where
  | E_rotation (axes : String)
  | array (A : M3 α)
  | setElements (r : MatRef) (A : M3 α)
  | FrameE (a f : Option α) (name : EllKey) (axes : String)
  | R_Ee (F : FrameRef)
  | frameEq (F F' : FrameRef)
  | lat_lon2n_E (latitude longitude : α) (R_Ee : Option MatRef)
  | n_E2lat_lon (n : V3 α) (R_Ee : Option MatRef)
  | n_E2R_EN (n : V3 α) (R_Ee : Option MatRef)
  | n_E_and_wa2R_EL (n : V3 α) (wander_azimuth : α) (R_Ee : Option MatRef)
  | n_EB_E2p_EB_E (n : V3 α) (depth a f : α) (R_Ee : Option MatRef)
  | p_EB_E2n_EB_E (p : V3 α) (a f : α) (R_Ee : Option MatRef)
  | n_EA_E_and_n_EB_E2p_AB_E (n m : V3 α) (z_EA z_EB a f : α) (R_Ee : Option MatRef)
  | n_EA_E_and_p_AB_E2n_EB_E (n p : V3 α) (z_EA a f : α) (R_Ee : Option MatRef)
  | n_EA_E_and_n_EB_E2azimuth (n m : V3 α) (a f : α) (R_Ee : Option MatRef)
  | n_EA_E_distance_and_azimuth2n_EB_E (n : V3 α) (distance_rad azimuth : α) (R_Ee : Option MatRef)
  | geo_to_nvector (latitude longitude z : α) (F : FrameRef)
  | nvector_to_ecef_vector (n : V3 α) (z : α) (F : FrameRef)
  | nvector_to_geo_point (n : V3 α) (z : α) (F : FrameRef)
  | ecef_to_nvector (p : V3 α) (F : FrameRef)

omit [PyFloat α] in
/-- a function with the argument `R_Ee=None` that only reads this array: `dot(R_Ee, ·)`, `R_Ee.T` and `np.swapaxes(R_Ee, 1, 0)`
(for example core.py:64-72) -/
def withMatrix (R_Ee : Option MatRef) (g : M3 α → Result α) (w : World α) : Except PyErr (Result α) × World α :=
  (do pure (g (← argument R_Ee w)), w)

omit [PyFloat α] in
/-- a method of a position: it uses the attributes `a`, `f` and `R_Ee` of its frame (for example objects.py:541-546) -/
def withFrame (F : FrameRef) (g : Nv.FrameE α → Result α) (w : World α) : Except PyErr (Result α) × World α :=
  (do pure (g (← value F w)), w)

/-- the result of a call, or its exception, and the memory afterwards (rotation.py, core.py, objects.py: the lines are cited with the
functions of `Verif.Model`) -/
def Call.exec : Call α → World α → Except PyErr (Result α) × World α
  -- rotation.py:31-83
  | .E_rotation axes, w => (do pure (.mat (← Axes.E_rotation axes)), w)
  -- `np.array(A)`: a new array
  | .array A, w => (.ok (.mat ⟨w.mats.length⟩), { w with mats := w.mats ++ [A] })
  -- `R[...] = A`: the array `R` itself gets new elements
  | .setElements r A, w => (.ok .none, { w with mats := w.mats.set r.id A })
  -- objects.py:1207-1213
  | .FrameE a f name axes, w => (do pure (.frame (← (Axes.FrameE a f name axes w).1)), (Axes.FrameE a f name axes w).2)
  -- objects.py:1213
  | .R_Ee F, w => (do pure (.mat (← Axes.R_Ee F w)), w)
  -- objects.py:142-144, 1215-1218
  | .frameEq F F', w => (do pure (.bool (F.id == F'.id || (← value F w).isEqualTo (← value F' w))), w)
  -- core.py:45-72
  | .lat_lon2n_E lat lon R, w => withMatrix R (fun R => .vector (Nv.lat_lon2n_E lat lon R)) w
  -- rotation.py:386-423
  | .n_E2lat_lon n R, w => withMatrix R (fun R => .angles (Nv.n_E2lat_lon n R).1 (Nv.n_E2lat_lon n R).2) w
  -- rotation.py:426-474
  | .n_E2R_EN n R, w => withMatrix R (fun R => .matrix (Nv.n_E2R_EN n R)) w
  -- rotation.py:477-510
  | .n_E_and_wa2R_EL n wa R, w => withMatrix R (fun R => .matrix (Nv.n_E_and_wa2R_EL n wa R)) w
  -- core.py:76-142
  | .n_EB_E2p_EB_E n d a f R, w => withMatrix R (fun R => .vector (Nv.n_EB_E2p_EB_E n d a f R)) w
  -- core.py:180-244
  | .p_EB_E2n_EB_E p a f R, w => withMatrix R (fun R => .position (Nv.p_EB_E2n_EB_E p a f R).1 (Nv.p_EB_E2n_EB_E p a f R).2) w
  -- core.py:248-298
  | .n_EA_E_and_n_EB_E2p_AB_E n m za zb a f R, w => withMatrix R (fun R => .vector (Nv.n_EA_E_and_n_EB_E2p_AB_E n m za zb a f R)) w
  -- core.py:302-354
  | .n_EA_E_and_p_AB_E2n_EB_E n p z a f R, w => withMatrix R (fun R =>
      .position (Nv.n_EA_E_and_p_AB_E2n_EB_E n p z a f R).1 (Nv.n_EA_E_and_p_AB_E2n_EB_E n p z a f R).2) w
  -- core.py:734-776
  | .n_EA_E_and_n_EB_E2azimuth n m a f R, w => withMatrix R (fun R => .number (Nv.n_EA_E_and_n_EB_E2azimuth n m a f R)) w
  -- core.py:780-819
  | .n_EA_E_distance_and_azimuth2n_EB_E n d z R, w => withMatrix R (fun R => .vector (Nv.n_EA_E_distance_and_azimuth2n_EB_E n d z R)) w
  -- objects.py:274-284
  | .geo_to_nvector lat lon z F, w => withFrame F (fun F => .position (GeoPoint.mk lat lon z F).to_nvector.normal z) w
  -- objects.py:534-546
  | .nvector_to_ecef_vector n z F, w => withFrame F (fun F => .vector (Nvector.mk n z F).to_ecef_vector.pvector) w
  -- objects.py:553-565
  | .nvector_to_geo_point n z F, w => withFrame F (fun F =>
      .angles (Nvector.mk n z F).to_geo_point.latitude (Nvector.mk n z F).to_geo_point.longitude) w
  -- objects.py:788-802
  | .ecef_to_nvector p F, w => withFrame F (fun F =>
      .position (ECEFvector.mk p F).to_nvector.normal (ECEFvector.mk p F).to_nvector.z) w

/-- the memory after a sequence of calls; a call that raises leaves it as it is (a client program) -/
def execs (calls : List (Call α)) (w : World α) : World α := calls.foldl (fun w c => (c.exec w).2) w

end

end Nv.Axes
