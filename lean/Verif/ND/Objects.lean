import Verif.ND.Core
import Verif.Model.Objects

/-!
# Array level model of `objects.py`

The classes with the arrays they really hold.  A scalar attribute is a 0-d array.  `FrameE` holds scalars and is the one of
`Verif.Model.Objects`.
-/

namespace Nv.ND

/-- objects.py:152-210 `GeoPoint` -/
structure GeoPoint (α : Type) where
  latitude : Arr α
  longitude : Arr α
  z : Arr α
  frame : FrameE α

/-- objects.py:424-468 `Nvector` -/
structure Nvector (α : Type) where
  normal : Arr α
  z : Arr α
  frame : FrameE α

/-- objects.py:719-747 `ECEFvector` with the attribute `scalar` of `Pvector` (line 638) -/
structure ECEFvector (α : Type) where
  pvector : Arr α
  frame : FrameE α
  scalar : Bool

/-- objects.py:1380-1537 the local frames -/
inductive LocalFrame (α : Type) where
  | N (nvector : Nvector α)
  | L (nvector : Nvector α) (wander_azimuth : Arr α)
  | B (nvector : Nvector α) (yaw pitch roll : Arr α)

/-- objects.py:629-638 `Pvector` -/
structure Pvector (α : Type) where
  pvector : Arr α
  frame : LocalFrame α
  scalar : Bool

/-- a position object (objects.py:152, 424, 629, 719) -/
inductive Position (α : Type) where
  | geo (p : GeoPoint α)
  | nvec (p : Nvector α)
  | ecef (p : ECEFvector α)
  | pvec (p : Pvector α)

section
variable {α : Type} [PyFloat α]
open PyFloat

omit [PyFloat α] in
/-- an array broadcast to a given shape (numpy, for objects.py:209) -/
def Arr.broadcastTo (A : Arr α) (s : List ℕ) : Arr α := ⟨s, fun i => A.get (bidx A.shape i)⟩

/-- objects.py:206-210 `GeoPoint.__init__(latitude, longitude, z=0, frame, degrees=False)`: `np.broadcast_arrays` -/
def GeoPoint.new (latitude longitude z : Arr α) (frame : FrameE α) (degrees : Bool := false) : Except PyErr (GeoPoint α) := do
  let latitude := if degrees then latitude.map deg2rad else latitude
  let longitude := if degrees then longitude.map deg2rad else longitude
  let s ← bshape latitude.shape longitude.shape
  let s ← bshape s z.shape
  pure ⟨latitude.broadcastTo s, longitude.broadcastTo s, z.broadcastTo s, frame⟩

omit [PyFloat α] in
/-- objects.py:246-251 `GeoPoint.scalar` -/
def GeoPoint.scalar (p : GeoPoint α) : Bool :=
  p.z.shape = [] ∧ prod p.latitude.shape = 1 ∧ prod p.longitude.shape = 1

omit [PyFloat α] in
/-- `A.shape[1] == 1`; `IndexError` for fewer than two dimensions (objects.py:549-551, 635) -/
def oneColumn (A : Arr α) : Except PyErr Bool :=
  match A.shape with
  | _ :: n :: _ => .ok (n = 1)
  | _ => .error .IndexError

omit [PyFloat α] in
/-- objects.py:548-551 `Nvector.scalar`; `and` does not look at the shape of the normals if the depth is a vector -/
def Nvector.isScalar (p : Nvector α) : Except PyErr Bool :=
  if p.z.shape = [] then oneColumn p.normal else .ok false

omit [PyFloat α] in
/-- objects.py:633-638 `Pvector.__init__(pvector, frame, scalar=None)` called for an ECEF vector without `scalar` -/
def ECEFvector.new (pvector : Arr α) (frame : FrameE α) : Except PyErr (ECEFvector α) := do
  pure ⟨pvector, frame, ← oneColumn pvector⟩

omit [PyFloat α] in
/-- objects.py:1382-1384 `frame.Pvector(pvector)` of a local frame -/
def Pvector.new (pvector : Arr α) (frame : LocalFrame α) : Except PyErr (Pvector α) := do
  pure ⟨pvector, frame, ← oneColumn pvector⟩

/-- objects.py:274-284 `GeoPoint.to_nvector` -/
def GeoPoint.to_nvector (p : GeoPoint α) : Except PyErr (Nvector α) := do
  pure ⟨← lat_lon2n_E p.latitude p.longitude p.frame.R_Ee, p.z, p.frame⟩

/-- objects.py:534-546 `Nvector.to_ecef_vector` -/
def Nvector.to_ecef_vector (p : Nvector α) : Except PyErr (ECEFvector α) := do
  let pvector ← n_EB_E2p_EB_E p.normal p.z p.frame.a p.frame.f p.frame.R_Ee
  pure ⟨pvector, p.frame, ← p.isScalar⟩

/-- objects.py:553-565 `Nvector.to_geo_point` -/
def Nvector.to_geo_point (p : Nvector α) : Except PyErr (GeoPoint α) := do
  let (latitude, longitude) ← n_E2lat_lon p.normal p.frame.R_Ee
  if ← p.isScalar then GeoPoint.new (← latitude.row 0) (← longitude.row 0) p.z p.frame
  else GeoPoint.new latitude longitude p.z p.frame

/-- objects.py:788-802 `ECEFvector.to_nvector` -/
def ECEFvector.to_nvector (p : ECEFvector α) : Except PyErr (Nvector α) := do
  let (n_EB_E, depth) ← p_EB_E2n_EB_E p.pvector p.frame.a p.frame.f p.frame.R_Ee
  if p.scalar then pure ⟨n_EB_E, ← depth.row 0, p.frame⟩ else pure ⟨n_EB_E, depth, p.frame⟩

/-- the attribute `nvector` of a local frame (objects.py:1423, 1476, 1518) -/
def LocalFrame.nvector : LocalFrame α → Nvector α
  | .N n => n
  | .L n _ => n
  | .B n _ _ _ => n

/-- the property `R_EN` of a local frame: objects.py:1425-1429 (N), 1478-1483 (L), 1524-1530 (B) -/
def LocalFrame.R_EN : LocalFrame α → Except PyErr (Arr α)
  | .N n => n_E2R_EN n.normal n.frame.R_Ee
  | .L n wa => n_E_and_wa2R_EL n.normal wa n.frame.R_Ee
  | .B n yaw pitch roll => do
    let R_NB ← zyx2R yaw pitch roll
    mdot (← n_E2R_EN n.normal n.frame.R_Ee) R_NB

/-- objects.py:645-658 `Pvector.to_ecef_vector` -/
def Pvector.to_ecef_vector (p : Pvector α) : Except PyErr (ECEFvector α) := do
  let p_AB_E ← (← mdot (← p.frame.R_EN) (← p.pvector.newaxis1)).reshape 3
  pure ⟨p_AB_E, p.frame.nvector.frame, p.scalar⟩

/-- objects.py:749-773 `ECEFvector.change_frame(frame)` -/
def ECEFvector.change_frame (p : ECEFvector α) (frame : LocalFrame α) : Except PyErr (Pvector α) := do
  check_frames p.frame frame.nvector.frame
  let p_AB_N ← mdot (← swapaxes01 (← frame.R_EN)) (← p.pvector.newaxis1)
  pure ⟨← p_AB_N.reshape 3, frame, p.scalar⟩

/-- `to_nvector` of the four classes: objects.py:274, 567, 660, 788 -/
def Position.to_nvector : Position α → Except PyErr (Nvector α)
  | .geo p => p.to_nvector
  | .nvec p => .ok p
  | .ecef p => p.to_nvector
  | .pvec p => do (← p.to_ecef_vector).to_nvector

/-- `to_ecef_vector` of the four classes: objects.py:253, 534, 645, 775 -/
def Position.to_ecef_vector : Position α → Except PyErr (ECEFvector α)
  | .geo p => do (← p.to_nvector).to_ecef_vector
  | .nvec p => p.to_ecef_vector
  | .ecef p => .ok p
  | .pvec p => p.to_ecef_vector

/-- `to_geo_point` of the four classes: objects.py:263, 553, 671, 778 -/
def Position.to_geo_point : Position α → Except PyErr (GeoPoint α)
  | .geo p => .ok p
  | .nvec p => p.to_geo_point
  | .ecef p => do (← p.to_nvector).to_geo_point
  | .pvec p => do (← (← p.to_ecef_vector).to_nvector).to_geo_point

/-- objects.py:682-689 `Pvector.length`; the same function for ECEF vectors -/
def length (pvector : Arr α) (isScalar : Bool) : Except PyErr (Arr α) := do
  let lengths ← norm0 pvector
  if isScalar then lengths.row 0 else pure lengths

/-- objects.py:696-702 `Pvector.azimuth` -/
def azimuth (pvector : Arr α) (isScalar : Bool) : Except PyErr (Arr α) := do
  let az ← map2 arctan2 (← pvector.row 1) (← pvector.row 0)
  if isScalar then az.row 0 else pure az

/-- objects.py:709-715 `Pvector.elevation` -/
def elevation (pvector : Arr α) (isScalar : Bool) : Except PyErr (Arr α) := do
  let el := (← map2 (· / ·) (← pvector.row 2) (← length pvector isScalar)).map arcsin
  if isScalar then el.row 0 else pure el

/-- objects.py:1421-1423 `FrameN.__init__(point)` -/
def FrameN (point : Position α) : Except PyErr (LocalFrame α) := do
  let nv ← point.to_nvector
  pure (.N ⟨nv.normal, ND.scalar (lit 0), nv.frame⟩)
/-- objects.py:1474-1476 `FrameL.__init__(point, wander_azimuth=0)` -/
def FrameL (point : Position α) (wander_azimuth : Arr α) : Except PyErr (LocalFrame α) := do
  let nv ← point.to_nvector
  pure (.L ⟨nv.normal, ND.scalar (lit 0), nv.frame⟩ wander_azimuth)
/-- objects.py:1516-1522 `FrameB.__init__(point, yaw=0, pitch=0, roll=0, degrees=False)` -/
def FrameB (point : Position α) (yaw pitch roll : Arr α) (degrees : Bool := false) : Except PyErr (LocalFrame α) := do
  let nv ← point.to_nvector
  if degrees then pure (.B nv (yaw.map deg2rad) (pitch.map deg2rad) (roll.map deg2rad)) else pure (.B nv yaw pitch roll)

/-- objects.py:806-809 `ECEFvector.__add__` -/
def ECEFvector.add (s o : ECEFvector α) : Except PyErr (ECEFvector α) := do
  check_frames s.frame o.frame
  pure ⟨← map2 (· + ·) s.pvector o.pvector, s.frame, s.scalar && o.scalar⟩
/-- objects.py:811-814 `ECEFvector.__sub__` -/
def ECEFvector.sub (s o : ECEFvector α) : Except PyErr (ECEFvector α) := do
  check_frames s.frame o.frame
  pure ⟨← map2 (· - ·) s.pvector o.pvector, s.frame, s.scalar && o.scalar⟩
/-- objects.py:816-817 `ECEFvector.__neg__` -/
def ECEFvector.neg (s : ECEFvector α) : ECEFvector α := ⟨s.pvector.map (fun x => -x), s.frame, s.scalar⟩

/-- objects.py:600-602 `Nvector.__add__` -/
def Nvector.add (s o : Nvector α) : Except PyErr (Nvector α) := do
  check_frames s.frame o.frame
  pure ⟨← map2 (· + ·) s.normal o.normal, ← map2 (· + ·) s.z o.z, s.frame⟩
/-- objects.py:604-606 `Nvector.__sub__` -/
def Nvector.sub (s o : Nvector α) : Except PyErr (Nvector α) := do
  check_frames s.frame o.frame
  pure ⟨← map2 (· - ·) s.normal o.normal, ← map2 (· - ·) s.z o.z, s.frame⟩
/-- objects.py:608-609 `Nvector.__neg__` -/
def Nvector.neg (s : Nvector α) : Nvector α := ⟨s.normal.map (fun x => -x), s.z.map (fun x => -x), s.frame⟩
/-- objects.py:611-616 `Nvector.__mul__` by a scalar or an array of numbers -/
def Nvector.mul (s : Nvector α) (c : Arr α) : Except PyErr (Nvector α) := do
  pure ⟨← map2 (· * ·) s.normal c, ← map2 (· * ·) s.z c, s.frame⟩
/-- objects.py:618-624 `Nvector.__div__` by a scalar or an array of numbers -/
def Nvector.div (s : Nvector α) (c : Arr α) : Except PyErr (Nvector α) := do
  pure ⟨← map2 (· / ·) s.normal c, ← map2 (· / ·) s.z c, s.frame⟩
/-- objects.py:579-581 `Nvector.unit()`: the receiver after the call -/
def Nvector.unit (s : Nvector α) : Except PyErr (Nvector α) := do pure { s with normal := ← ND.unit s.normal }

/-- `np.mean(A)`: the sum of all elements divided by their number (used in objects.py:588) -/
def meanAll (A : Arr α) : Arr α :=
  ND.scalar ((List.range (prod A.shape)).foldl (fun acc k => acc + A.get (unravel A.shape k)) (lit 0) / lit (prod A.shape))

/-- objects.py:583-588 `Nvector.mean()` -/
def Nvector.mean (s : Nvector α) : Except PyErr (Nvector α) := do
  pure ⟨← mean_horizontal_position s.normal, meanAll s.z, s.frame⟩

/-- objects.py:43-78 `delta_E(point_a, point_b)` -/
def delta_E (a b : Position α) : Except PyErr (ECEFvector α) := do
  let p_EA_E ← a.to_ecef_vector
  let p_EB_E ← b.to_ecef_vector
  p_EB_E.sub p_EA_E

/-- objects.py:89-103 `delta_N(point_a, point_b)` and `a.delta_to(b)` (line 106) -/
def delta_N (a b : Position α) : Except PyErr (Pvector α) := do
  let d ← delta_E a b
  d.change_frame (← FrameN a)

/-- objects.py:111-128 `delta_L(point_a, point_b, wander_azimuth=0)` -/
def delta_L (a b : Position α) (wander_azimuth : Arr α) : Except PyErr (Pvector α) := do
  let local_frame ← FrameL a wander_azimuth
  let d ← delta_E a b
  d.change_frame local_frame

end

end Nv.ND
