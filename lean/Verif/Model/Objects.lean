import Verif.Model.Core

/-!
# Model of `/repo/src/nvector/objects.py` for scalar positions

A scalar position is one column (`normal`/`pvector` of shape `(3, 1)`) and a 0-d depth.  Vector positions are modelled in
`Verif.ND`.  Simplifications common to the whole file:

* `==` on frames compares values; Python first tests `self is other` (line 144), which only matters for frames that
  contain NaN.  At top level the identity test is the argument `same` of `pyEq`.
* geographiclib is not part of the repo.  It is a parameter (`Geodesic`): any two functions.
-/

namespace Nv

/-- geographiclib's `Geodesic(a, f)` (objects.py:11): `Inverse(lat1, lon1, lat2, lon2, outmask)` with the results
`(s12, azi1, azi2)` and `Direct(lat1, lon1, azi1, s12, outmask)` with the results `(lat2, lon2, azi2)`, all angles in
degrees.  The flag is `LONG_UNROLL`.  The functions are arbitrary; they may raise. -/
structure Geodesic (α : Type) where
  inverse : (a f : α) → (lat1 lon1 lat2 lon2 : α) → (long_unroll : Bool) → Except PyErr (α × α × α)
  direct : (a f : α) → (lat1 lon1 azi1 s12 : α) → (long_unroll : Bool) → Except PyErr (α × α × α)

/-- objects.py:1177-1213 `FrameE`: the attributes `a, f, name, R_Ee` -/
structure FrameE (α : Type) where
  a : α
  f : α
  name : EllKey
  R_Ee : M3 α

/-- objects.py:152-210 `GeoPoint` -/
structure GeoPoint (α : Type) where
  latitude : α
  longitude : α
  z : α
  frame : FrameE α

/-- objects.py:424-468 `Nvector` -/
structure Nvector (α : Type) where
  normal : V3 α
  z : α
  frame : FrameE α

/-- objects.py:719-747 `ECEFvector` -/
structure ECEFvector (α : Type) where
  pvector : V3 α
  frame : FrameE α

/-- objects.py:1380-1537 the local frames `FrameN`, `FrameL` (a subclass of `FrameN`) and `FrameB` -/
inductive LocalFrame (α : Type) where
  | N (nvector : Nvector α)
  | L (nvector : Nvector α) (wander_azimuth : α)
  | B (nvector : Nvector α) (yaw pitch roll : α)

/-- objects.py:629-638 `Pvector` -/
structure Pvector (α : Type) where
  pvector : V3 α
  frame : LocalFrame α

/-- a position object (objects.py:152, 424, 629, 719) -/
inductive Position (α : Type) where
  | geo (p : GeoPoint α)
  | nvec (p : Nvector α)
  | ecef (p : ECEFvector α)
  | pvec (p : Pvector α)

section
variable {α : Type} [PyFloat α]
open PyFloat

/-! ## FrameE -/

/-- objects.py:1207-1213 `FrameE.__init__(a=None, f=None, name='WGS84', axes='e')` -/
def FrameE.new (a f : Option α := none) (name : EllKey := .str "WGS84") (axes : String := "e") :
    Except PyErr (FrameE α) := do
  let (a, f) ← match a, f with
    | some a, some f => pure (a, f)
    | _, _ => do
      let e ← get_ellipsoid name
      pure (e.a, e.f)
  let R ← E_rotation axes
  pure ⟨a, f, name, R⟩

/-- the entries of a column / of a matrix, in pairs (the arrays compared in objects.py:594-598, 640-643) -/
def pairs3 (v w : V3 α) : List (α × α) := [(v.x, w.x), (v.y, w.y), (v.z, w.z)]
/-- the entries of two 3×3 matrices, paired (the arrays compared in objects.py:1215-1218, 1431-1434, 1532-1537) -/
def pairs9 (A B : M3 α) : List (α × α) := pairs3 A.r0 B.r0 ++ pairs3 A.r1 B.r1 ++ pairs3 A.r2 B.r2

/-- objects.py:144 the tolerances of `__eq__`: `rtol=1e-12, atol=1e-14` -/
def eqClose (ab : List (α × α)) : Bool := allclose ab (lit 1e-12) (lit 1e-14)

/-- objects.py:1215-1218 `FrameE._is_equal_to` -/
def FrameE.isEqualTo (s o : FrameE α) : Bool :=
  eqClose [(s.a, o.a)] && eqClose [(s.f, o.f)] && eqClose (pairs9 s.R_Ee o.R_Ee)

/-- objects.py:1540-1542 `_check_frames(self, other)` for two E frames -/
def check_frames (s o : FrameE α) : Except PyErr Unit := if s.isEqualTo o then .ok () else .error .ValueError

/-- objects.py:1282-1285 `FrameE._inverse` -/
def FrameE.inverse' (G : Geodesic α) (F : FrameE α) (lat_a lon_a lat_b lon_b z : α) (unroll : Bool) :
    Except PyErr (α × α × α) :=
  G.inverse (F.a - z) F.f lat_a lon_a lat_b lon_b unroll

/-- objects.py:1220-1280 `FrameE.inverse(lat_a, lon_a, lat_b, lon_b, z=0, long_unroll=False, degrees=False)` -/
def FrameE.inverse (G : Geodesic α) (F : FrameE α) (lat_a lon_a lat_b lon_b : α) (z : α := lit 0)
    (long_unroll : Bool := false) (degrees : Bool := false) : Except PyErr (α × α × α) :=
  if degrees then F.inverse' G lat_a lon_a lat_b lon_b z long_unroll
  else do
    let (s, aa, ab) ← F.inverse' G (rad2deg lat_a) (rad2deg lon_a) (rad2deg lat_b) (rad2deg lon_b) z long_unroll
    pure (s, deg2rad aa, deg2rad ab)

/-- objects.py:1355-1359 `FrameE._direct` -/
def FrameE.direct' (G : Geodesic α) (F : FrameE α) (lat_a lon_a azimuth distance z : α) (unroll : Bool) :
    Except PyErr (α × α × α) :=
  G.direct (F.a - z) F.f lat_a lon_a azimuth distance unroll

/-- objects.py:1293-1353 `FrameE.direct(lat_a, lon_a, azimuth, distance, z=0, long_unroll=False, degrees=False)` -/
def FrameE.direct (G : Geodesic α) (F : FrameE α) (lat_a lon_a azimuth distance : α) (z : α := lit 0)
    (long_unroll : Bool := false) (degrees : Bool := false) : Except PyErr (α × α × α) :=
  if degrees then F.direct' G lat_a lon_a azimuth distance z long_unroll
  else do
    let (lat, lon, azi) ← F.direct' G (rad2deg lat_a) (rad2deg lon_a) (rad2deg azimuth) distance z long_unroll
    pure (deg2rad lat, deg2rad lon, deg2rad azi)

/-! ## Conversions -/

/-- objects.py:206-210 `GeoPoint.__init__(latitude, longitude, z=0, frame, degrees=False)` -/
def GeoPoint.new (latitude longitude : α) (z : α := lit 0) (frame : FrameE α) (degrees : Bool := false) : GeoPoint α :=
  if degrees then ⟨deg2rad latitude, deg2rad longitude, z, frame⟩ else ⟨latitude, longitude, z, frame⟩

/-- objects.py:236-239 `latitude_deg` -/
def GeoPoint.latitude_deg (p : GeoPoint α) : α := rad2deg p.latitude
/-- objects.py:241-244 `longitude_deg` -/
def GeoPoint.longitude_deg (p : GeoPoint α) : α := rad2deg p.longitude

/-- objects.py:274-284 `GeoPoint.to_nvector` -/
def GeoPoint.to_nvector (p : GeoPoint α) : Nvector α := ⟨lat_lon2n_E p.latitude p.longitude p.frame.R_Ee, p.z, p.frame⟩

/-- objects.py:534-546 `Nvector.to_ecef_vector` -/
def Nvector.to_ecef_vector (p : Nvector α) : ECEFvector α :=
  ⟨n_EB_E2p_EB_E p.normal p.z p.frame.a p.frame.f p.frame.R_Ee, p.frame⟩

/-- objects.py:553-565 `Nvector.to_geo_point` -/
def Nvector.to_geo_point (p : Nvector α) : GeoPoint α :=
  let ll := n_E2lat_lon p.normal p.frame.R_Ee
  ⟨ll.1, ll.2, p.z, p.frame⟩

/-- objects.py:788-802 `ECEFvector.to_nvector` -/
def ECEFvector.to_nvector (p : ECEFvector α) : Nvector α :=
  let nd := p_EB_E2n_EB_E p.pvector p.frame.a p.frame.f p.frame.R_Ee
  ⟨nd.1, nd.2, p.frame⟩

/-- objects.py:253-261 `GeoPoint.to_ecef_vector` -/
def GeoPoint.to_ecef_vector (p : GeoPoint α) : ECEFvector α := p.to_nvector.to_ecef_vector

/-- objects.py:778-786 `ECEFvector.to_geo_point` -/
def ECEFvector.to_geo_point (p : ECEFvector α) : GeoPoint α := p.to_nvector.to_geo_point

/-! ## Local frames and Pvector -/

/-- the attribute `nvector` of a local frame (objects.py:1423, 1476, 1518) -/
def LocalFrame.nvector : LocalFrame α → Nvector α
  | .N n => n
  | .L n _ => n
  | .B n _ _ _ => n

/-- the property `R_EN` of a local frame: objects.py:1425-1429 (N), 1478-1483 (L), 1524-1530 (B) -/
def LocalFrame.R_EN : LocalFrame α → M3 α
  | .N n => n_E2R_EN n.normal n.frame.R_Ee
  | .L n wa => n_E_and_wa2R_EL n.normal wa n.frame.R_Ee
  | .B n yaw pitch roll => mdot (n_E2R_EN n.normal n.frame.R_Ee) (zyx2R yaw pitch roll)

/-- objects.py:645-658 `Pvector.to_ecef_vector` -/
def Pvector.to_ecef_vector (p : Pvector α) : ECEFvector α := ⟨mulVec p.frame.R_EN p.pvector, p.frame.nvector.frame⟩

/-- objects.py:749-773 `ECEFvector.change_frame(frame)` -/
def ECEFvector.change_frame (p : ECEFvector α) (frame : LocalFrame α) : Except PyErr (Pvector α) := do
  check_frames p.frame frame.nvector.frame
  pure ⟨mulVec (tr frame.R_EN) p.pvector, frame⟩

/-- objects.py:683-689 `Pvector.length` -/
def length (p : V3 α) : α := norm3 p
/-- objects.py:696-702 `Pvector.azimuth` -/
def azimuth (p : V3 α) : α := arctan2 p.y p.x
/-- objects.py:709-715 `Pvector.elevation` -/
def elevation (p : V3 α) : α := arcsin (p.z / length p)

/-! ## Positions -/

/-- `to_nvector` of the four classes: objects.py:274, 567, 660, 788 -/
def Position.to_nvector : Position α → Nvector α
  | .geo p => p.to_nvector
  | .nvec p => p
  | .ecef p => p.to_nvector
  | .pvec p => p.to_ecef_vector.to_nvector

/-- `to_ecef_vector` of the four classes: objects.py:253, 534, 645, 775 -/
def Position.to_ecef_vector : Position α → ECEFvector α
  | .geo p => p.to_ecef_vector
  | .nvec p => p.to_ecef_vector
  | .ecef p => p
  | .pvec p => p.to_ecef_vector

/-- `to_geo_point` of the four classes: objects.py:263, 553, 671, 778 -/
def Position.to_geo_point : Position α → GeoPoint α
  | .geo p => p
  | .nvec p => p.to_geo_point
  | .ecef p => p.to_geo_point
  | .pvec p => p.to_ecef_vector.to_geo_point

/-- objects.py:1421-1423 `FrameN.__init__(point)` -/
def FrameN (point : Position α) : LocalFrame α :=
  let nv := point.to_nvector
  .N ⟨nv.normal, lit 0, nv.frame⟩
/-- objects.py:1474-1476 `FrameL.__init__(point, wander_azimuth=0)` -/
def FrameL (point : Position α) (wander_azimuth : α := lit 0) : LocalFrame α :=
  let nv := point.to_nvector
  .L ⟨nv.normal, lit 0, nv.frame⟩ wander_azimuth
/-- objects.py:1516-1522 `FrameB.__init__(point, yaw=0, pitch=0, roll=0, degrees=False)` -/
def FrameB (point : Position α) (yaw pitch roll : α := lit 0) (degrees : Bool := false) : LocalFrame α :=
  if degrees then .B point.to_nvector (deg2rad yaw) (deg2rad pitch) (deg2rad roll)
  else .B point.to_nvector yaw pitch roll

/-! ## Arithmetic -/

/-- objects.py:806-809 `ECEFvector.__add__` -/
def ECEFvector.add (s o : ECEFvector α) : Except PyErr (ECEFvector α) := do
  check_frames s.frame o.frame
  pure ⟨add3 s.pvector o.pvector, s.frame⟩
/-- objects.py:811-814 `ECEFvector.__sub__` -/
def ECEFvector.sub (s o : ECEFvector α) : Except PyErr (ECEFvector α) := do
  check_frames s.frame o.frame
  pure ⟨sub3 s.pvector o.pvector, s.frame⟩
/-- objects.py:816-817 `ECEFvector.__neg__` -/
def ECEFvector.neg (s : ECEFvector α) : ECEFvector α := ⟨neg3 s.pvector, s.frame⟩

/-- objects.py:600-602 `Nvector.__add__`, also `__radd__` (line 625) -/
def Nvector.add (s o : Nvector α) : Except PyErr (Nvector α) := do
  check_frames s.frame o.frame
  pure ⟨add3 s.normal o.normal, s.z + o.z, s.frame⟩
/-- objects.py:604-606 `Nvector.__sub__` -/
def Nvector.sub (s o : Nvector α) : Except PyErr (Nvector α) := do
  check_frames s.frame o.frame
  pure ⟨sub3 s.normal o.normal, s.z - o.z, s.frame⟩
/-- objects.py:608-609 `Nvector.__neg__` -/
def Nvector.neg (s : Nvector α) : Nvector α := ⟨neg3 s.normal, -s.z, s.frame⟩

/-- the right operand of `*` and `/`: a number or an Nvector (objects.py:611-626) -/
inductive Factor (α : Type) where
  | num (x : α)
  | nvec (p : Nvector α)

/-- objects.py:611-616 `Nvector.__mul__`, also `__rmul__` (line 626) -/
def Nvector.mul (s : Nvector α) : Factor α → Except PyErr (Nvector α)
  | .num c => .ok ⟨scale3 s.normal c, s.z * c, s.frame⟩
  | .nvec _ => .error .NotImplementedError
/-- objects.py:618-624 `Nvector.__div__` = `__truediv__` -/
def Nvector.div (s : Nvector α) : Factor α → Except PyErr (Nvector α)
  | .num c => .ok ⟨div3 s.normal c, s.z / c, s.frame⟩
  | .nvec _ => .error .NotImplementedError

/-- objects.py:579-581 `Nvector.unit()`: the receiver after the call -/
def Nvector.unit (s : Nvector α) : Nvector α := { s with normal := Nv.unit s.normal }

/-! ## Delta vectors -/

/-- objects.py:43-78 `delta_E(point_a, point_b)` -/
def delta_E (a b : Position α) : Except PyErr (ECEFvector α) := ECEFvector.sub b.to_ecef_vector a.to_ecef_vector

/-- objects.py:89-103 `delta_N(point_a, point_b)` -/
def delta_N (a b : Position α) : Except PyErr (Pvector α) := do
  let d ← delta_E a b
  d.change_frame (FrameN a)

/-- objects.py:111-128 `delta_L(point_a, point_b, wander_azimuth=0)` -/
def delta_L (a b : Position α) (wander_azimuth : α := lit 0) : Except PyErr (Pvector α) := do
  let d ← delta_E a b
  d.change_frame (FrameL a wander_azimuth)

/-- objects.py:84-86 `_base_angle(angle_rad)` -/
def base_angle (angle_rad : α) : α := mod (angle_rad + pi) (lit 2 * pi) - pi

/-! ## GeoPoint: direct and inverse problems -/

/-- objects.py:288-301 `GeoPoint._displace_great_circle(distance, azimuth, degrees)`.
As in the code, `R_Ee` is not passed to `n_EA_E_distance_and_azimuth2n_EB_E`. -/
def GeoPoint.displace_great_circle (p : GeoPoint α) (distance azimuth : α) (degrees : Bool) :
    Except PyErr (GeoPoint α × α) := do
  let n_a := p.to_nvector
  let e_a := n_a.to_ecef_vector
  let radius := length e_a.pvector
  let distance_rad := distance / radius
  let azimuth_rad := if degrees then deg2rad azimuth else azimuth
  let normal_b := n_EA_E_distance_and_azimuth2n_EB_E n_a.normal distance_rad azimuth_rad
  let point_b := Nvector.to_geo_point ⟨normal_b, p.z, p.frame⟩
  let d ← delta_N (.geo point_b) (.ecef e_a)
  let azimuth_b := base_angle (Nv.azimuth d.pvector - pi)
  if degrees then pure (point_b, rad2deg azimuth_b) else pure (point_b, azimuth_b)

/-- objects.py:333-348 `GeoPoint._displace_ellipsoid(distance, azimuth, long_unroll, degrees)` -/
def GeoPoint.displace_ellipsoid (G : Geodesic α) (p : GeoPoint α) (distance azimuth : α) (long_unroll degrees : Bool) :
    Except PyErr (GeoPoint α × α) := do
  let azimuth := if degrees then azimuth else rad2deg azimuth
  let (lat_b, lon_b, azimuth_b) ←
    p.frame.direct G p.latitude_deg p.longitude_deg azimuth distance p.z long_unroll true
  let point_b := GeoPoint.new lat_b lon_b p.z p.frame true
  if degrees then pure (point_b, azimuth_b) else pure (point_b, deg2rad azimuth_b)

/-- `method[:k]` (objects.py:927, 935, 1049) -/
def strTake (s : String) (k : ℕ) : String := String.ofList (s.toList.take k)

/-- objects.py:303-331 `GeoPoint.displace(distance, azimuth, long_unroll=False, degrees=False, method='ellipsoid')` -/
def GeoPoint.displace (G : Geodesic α) (p : GeoPoint α) (distance azimuth : α) (long_unroll : Bool := false)
    (degrees : Bool := false) (method : String := "ellipsoid") : Except PyErr (GeoPoint α × α) :=
  if strTake method 1 = "e" then p.displace_ellipsoid G distance azimuth long_unroll degrees
  else p.displace_great_circle distance azimuth degrees

/-- objects.py:395-410 `GeoPoint._distance_and_azimuth_greatcircle(point, degrees)` -/
def GeoPoint.distance_and_azimuth_greatcircle (p : GeoPoint α) (point : Position α) (degrees : Bool) :
    Except PyErr (α × α × α) := do
  let n_a := p.to_nvector
  let n_b := point.to_nvector
  let e_a := n_a.to_ecef_vector
  let e_b := n_b.to_ecef_vector
  let radius := lit 0.5 * (length e_a.pvector + length e_b.pvector)
  let distance := great_circle_distance n_a.normal n_b.normal radius
  let d_ab ← delta_N (.ecef e_a) (.ecef e_b)
  let azimuth_a := Nv.azimuth d_ab.pvector
  let d_ba ← delta_N (.ecef e_b) (.ecef e_a)
  let azimuth_b := base_angle (Nv.azimuth d_ba.pvector - pi)
  if degrees then pure (distance, rad2deg azimuth_a, rad2deg azimuth_b) else pure (distance, azimuth_a, azimuth_b)

/-- objects.py:412-421 `GeoPoint._distance_and_azimuth_ellipsoid(point, long_unroll, degrees)` -/
def GeoPoint.distance_and_azimuth_ellipsoid (G : Geodesic α) (p : GeoPoint α) (point : Position α)
    (long_unroll degrees : Bool) : Except PyErr (α × α × α) :=
  let g := point.to_geo_point
  let z := lit 0.5 * (p.z + g.z)
  if degrees then
    p.frame.inverse G (rad2deg p.latitude) (rad2deg p.longitude) (rad2deg g.latitude) (rad2deg g.longitude) z long_unroll true
  else p.frame.inverse G p.latitude p.longitude g.latitude g.longitude z long_unroll false

/-- `_check_frames(self, point)` for a point of any class: a `FrameE` never equals a local frame (the comparison raises
`AttributeError`, which `__eq__` turns into `False`) (objects.py:390, 1540-1542) -/
def check_frames_pos (s : FrameE α) : Position α → Except PyErr Unit
  | .geo p => check_frames s p.frame
  | .nvec p => check_frames s p.frame
  | .ecef p => check_frames s p.frame
  | .pvec _ => .error .ValueError

/-- objects.py:350-393 `GeoPoint.distance_and_azimuth(point, long_unroll=False, degrees=False, method='ellipsoid')`;
`method[0]` raises `IndexError` for the empty string. -/
def GeoPoint.distance_and_azimuth (G : Geodesic α) (p : GeoPoint α) (point : Position α) (long_unroll : Bool := false)
    (degrees : Bool := false) (method : String := "ellipsoid") : Except PyErr (α × α × α) := do
  check_frames_pos p.frame point
  match method.toList with
  | [] => .error .IndexError
  | c :: _ =>
    if c = 'e' then p.distance_and_azimuth_ellipsoid G point long_unroll degrees
    else p.distance_and_azimuth_greatcircle point degrees

/-! ## GeoPath -/

/-- objects.py:821-844 `GeoPath(point_a, point_b)` -/
structure GeoPath (α : Type) where
  point_a : Position α
  point_b : Position α

namespace GeoPath
variable (P : GeoPath α)

/-- objects.py:860-863 `nvectors` -/
def nvectors : Nvector α × Nvector α := (P.point_a.to_nvector, P.point_b.to_nvector)
/-- objects.py:865-868 `geo_points` -/
def geo_points : GeoPoint α × GeoPoint α := (P.point_a.to_geo_point, P.point_b.to_geo_point)
/-- objects.py:870-873 `ecef_vectors` -/
def ecef_vectors : ECEFvector α × ECEFvector α := (P.point_a.to_ecef_vector, P.point_b.to_ecef_vector)
/-- objects.py:875-878 `nvector_normals` -/
def nvector_normals : V3 α × V3 α := (P.nvectors.1.normal, P.nvectors.2.normal)
/-- objects.py:880-883 `_get_average_radius` -/
def average_radius : α := (length P.ecef_vectors.1.pvector + length P.ecef_vectors.2.pvector) / lit 2

/-- `radius` if given, else the average radius (objects.py:907-908, 931-932, 992-993) -/
def radiusOr (radius : Option α) : α := radius.getD P.average_radius

/-- objects.py:885-914 `cross_track_distance(point, method='greatcircle', radius=None)` -/
def cross_track_distance (point : Position α) (method : String := "greatcircle") (radius : Option α := none) :
    Except PyErr α :=
  Nv.cross_track_distance P.nvector_normals point.to_nvector.normal method (P.radiusOr radius)

/-- objects.py:916-939 `track_distance(method='greatcircle', radius=None)` -/
def track_distance (G : Geodesic α) (method : String := "greatcircle") (radius : Option α := none) : Except PyErr α :=
  if strTake method 2 = "ex" ∨ strTake method 2 = "el" then do
    let (s_ab, _, _) ← P.geo_points.1.distance_and_azimuth G (.geo P.geo_points.2)
    pure s_ab
  else
    let n := P.nvector_normals
    if strTake method 2 = "eu" then .ok (euclidean_distance n.1 n.2 (P.radiusOr radius))
    else .ok (great_circle_distance n.1 n.2 (P.radiusOr radius))

/-- the attribute `frame` when it is a `FrameE`; a local frame has no attribute `Nvector` (objects.py:959, 966) -/
def frameOf : Position α → Except PyErr (FrameE α)
  | .geo p => .ok p.frame
  | .nvec p => .ok p.frame
  | .ecef p => .ok p.frame
  | .pvec _ => .error .AttributeError

/-- objects.py:941-966 `intersect(path)` -/
def intersect (path : GeoPath α) : Except PyErr (Nvector α) := do
  let normal_c := Nv.intersect P.nvector_normals path.nvector_normals
  let depth := (P.nvectors.1.z + P.nvectors.2.z + path.nvectors.1.z + path.nvectors.2.z) / lit 4
  let frame ← frameOf P.point_a
  pure ⟨normal_c, depth, frame⟩

/-- objects.py:972-981 `_on_ellipsoid_path(point, rtol=1e-6, atol=1e-8)` -/
def on_ellipsoid_path (G : Geodesic α) (point : Position α) (rtol : α := lit 1e-6) (atol : α := lit 1e-8) :
    Except PyErr Bool := do
  let a := P.geo_points.1
  let b := P.geo_points.2
  let c := point.to_geo_point
  let z := (a.z + b.z) * lit 0.5
  let (distance_ab, azimuth_ab, _) ← a.distance_and_azimuth G (.geo b)
  let (distance_ac, azimuth_ac, _) ← a.distance_and_azimuth G (.geo c)
  pure (isclose z c.z rtol atol &&
    (isclose distance_ac (lit 0) (atol := atol) ||
      (le distance_ac distance_ab && isclose azimuth_ac azimuth_ab rtol atol)))

/-- objects.py:983-989 `on_great_circle(point, atol=1e-8)` -/
def on_great_circle (point : Position α) (atol : α := lit 1e-8) : Except PyErr Bool := do
  let d ← P.cross_track_distance point
  pure (isclose (abs d) (lit 0) (atol := atol))

/-- objects.py:991-1001 `_on_great_circle_path(point, radius=None, rtol=1e-9, atol=1e-8)` -/
def on_great_circle_path (point : Position α) (radius : Option α := none) (rtol : α := lit 1e-9)
    (atol : α := lit 1e-8) : Bool :=
  let n_c := point.to_nvector
  let same_z := isclose n_c.z ((P.nvectors.1.z + P.nvectors.2.z) * lit 0.5) rtol atol
  Nv.on_great_circle_path P.nvector_normals n_c.normal (P.radiusOr radius) atol && same_z

/-- objects.py:1003-1051 `on_path(point, method='greatcircle', rtol=1e-6, atol=1e-8)` -/
def on_path (G : Geodesic α) (point : Position α) (method : String := "greatcircle") (rtol : α := lit 1e-6)
    (atol : α := lit 1e-8) : Except PyErr Bool :=
  if strTake method 2 = "ex" ∨ strTake method 2 = "el" then P.on_ellipsoid_path G point rtol atol
  else .ok (P.on_great_circle_path point none rtol atol)

/-- objects.py:1054-1060 `_closest_point_on_great_circle(point)` -/
def closest_nvector (point : Position α) : Nvector α :=
  let point_c := point.to_nvector
  let z := (P.nvectors.1.z + P.nvectors.2.z) * lit 0.5
  ⟨Nv.closest_point_on_great_circle P.nvector_normals point_c.normal, z, point_c.frame⟩

/-- objects.py:1062-1101 `closest_point_on_great_circle(point)` -/
def closest_point_on_great_circle (point : Position α) : GeoPoint α := (P.closest_nvector point).to_geo_point

/-- objects.py:1103-1154 `closest_point_on_path(point)` and `_closest_point_on_path` -/
def closest_point_on_path (point : Position α) : GeoPoint α :=
  let point_c := P.closest_nvector point
  -- `self.on_path(point_c)` with the default method and tolerances
  if P.on_great_circle_path (.nvec point_c) none (lit 1e-6) (lit 1e-8) then point_c.to_geo_point
  else
    let n0 := point.to_nvector.normal
    let d1 := great_circle_distance P.nvector_normals.1 n0 P.average_radius
    let d2 := great_circle_distance P.nvector_normals.2 n0 P.average_radius
    if lt d1 d2 then P.point_a.to_geo_point else P.point_b.to_geo_point

/-- objects.py:1156-1174 `interpolate(ti)` -/
def interpolate (ti : α) : Except PyErr (Nvector α) := do
  let d ← Nvector.sub P.nvectors.2 P.nvectors.1
  let e ← d.mul (.num ti)
  let point_c ← P.nvectors.1.add e
  pure { point_c with normal := Nv.unit point_c.normal nan }

end GeoPath

/-! ## Equality -/

/-- the arguments of `==` (objects.py:131-150) -/
inductive Obj (α : Type) where
  | geo (p : GeoPoint α)
  | nvec (p : Nvector α)
  | ecef (p : ECEFvector α)
  | pvec (p : Pvector α)
  | frameE (F : FrameE α)
  | frame (F : LocalFrame α)

/-- objects.py:213-216 `diff(angle1, angle2)` inside `GeoPoint._is_equal_to` -/
def angleDiff (x y : α) : α :=
  let pi2 := lit 2 * pi
  let delta := mod (x - y) pi2
  if lt pi delta then pi2 - delta else delta

/-- objects.py:212-224 `GeoPoint._is_equal_to` for another GeoPoint -/
def GeoPoint.isEqualTo (s o : GeoPoint α) : Bool :=
  eqClose [(angleDiff s.latitude o.latitude, lit 0)] && eqClose [(angleDiff s.longitude o.longitude, lit 0)] &&
    eqClose [(s.z, o.z)] && s.frame.isEqualTo o.frame

/-- objects.py:594-598 `Nvector._is_equal_to` for another Nvector -/
def Nvector.isEqualTo (s o : Nvector α) : Bool :=
  eqClose (pairs3 s.normal o.normal) && eqClose [(s.z, o.z)] && s.frame.isEqualTo o.frame

/-- objects.py:1431-1433 `FrameN._is_equal_to` (also `FrameL`) and 1532-1537 `FrameB._is_equal_to`.  `FrameB` reads
`other.yaw`, which other frames do not have. -/
def LocalFrame.isEqualTo : LocalFrame α → LocalFrame α → Except PyErr Bool
  | .B n y p r, .B n' y' p' r' =>
    .ok (eqClose [(y, y')] && eqClose [(p, p')] && eqClose [(r, r')] &&
      eqClose (pairs9 (LocalFrame.B n y p r).R_EN (LocalFrame.B n' y' p' r').R_EN) && n.isEqualTo n')
  | .B _ _ _ _, _ => .error .AttributeError
  | s, o => .ok (eqClose (pairs9 s.R_EN o.R_EN) && s.nvector.isEqualTo o.nvector)

/-- objects.py:142-146 `__eq__`: an `AttributeError` counts as `False` -/
def attrFalse : Except PyErr Bool → Except PyErr Bool
  | .error .AttributeError => .ok false
  | r => r

/-- `==` of two local frames.  `FrameN == FrameL` is evaluated by the subclass (`FrameL.__eq__` with swapped arguments). (objects.py:142-146, 1431-1433, 1532-1536) -/
def LocalFrame.eq (s o : LocalFrame α) : Except PyErr Bool :=
  match s, o with
  | .N _, .L _ _ => attrFalse (o.isEqualTo s)
  | _, _ => attrFalse (s.isEqualTo o)

/-- `_is_equal_to` of every class (objects.py:212, 594, 640, 1215, 1431, 1532); missing attributes raise -/
def Obj.isEqualTo : Obj α → Obj α → Except PyErr Bool
  | .geo s, .geo o => .ok (s.isEqualTo o)
  | .nvec s, .nvec o => .ok (s.isEqualTo o)
  -- 640-643 `Pvector._is_equal_to`, inherited by ECEFvector; `and` only compares the frames of close vectors;
  -- a FrameE is never equal to a local frame
  | .ecef s, .ecef o => .ok (eqClose (pairs3 s.pvector o.pvector) && s.frame.isEqualTo o.frame)
  | .ecef _, .pvec _ => .ok false
  | .pvec _, .ecef _ => .ok false
  | .pvec s, .pvec o => if eqClose (pairs3 s.pvector o.pvector) then s.frame.eq o.frame else .ok false
  | .frameE s, .frameE o => .ok (s.isEqualTo o)
  | .frame s, .frame o => s.isEqualTo o
  | _, _ => .error .AttributeError

/-- Python's `x == y`: a right operand of a proper subclass (ECEFvector < Pvector, FrameL < FrameN) is asked first;
`_Common.__eq__` is lines 142-146. `same` is `x is y`. (objects.py:142-146) -/
def pyEq (same : Bool) (x y : Obj α) : Except PyErr Bool :=
  if same then .ok true
  else match x, y with
    | .pvec _, .ecef _ => attrFalse (y.isEqualTo x)
    | .frame (.N _), .frame (.L _ _) => attrFalse (y.isEqualTo x)
    | _, _ => attrFalse (x.isEqualTo y)

/-- Python's `x != y`, objects.py:148-149 `not self.__eq__(other)`, with the same operand order rule -/
def pyNe (same : Bool) (x y : Obj α) : Except PyErr Bool := do
  let r ← pyEq same x y
  pure (!r)

end

end Nv
