import Verif.ND.Objects

/-!
# Array level model of the geodesic methods of `FrameE` and `GeoPoint` and of `GeoPath`

As in `Verif.Model.Objects`, geographiclib is a parameter.
-/

namespace Nv.ND
variable {α : Type} [PyFloat α]
open PyFloat

omit [PyFloat α] in
/-- the shape of `np.broadcast_arrays(...)` (used in objects.py:1267, 1341) -/
def bshapes (shapes : List (List ℕ)) : Except PyErr (List ℕ) := shapes.foldlM bshape []

omit [PyFloat α] in
/-- `zip(*np.atleast_1d(...))` of arrays broadcast to the shape `s` and the list comprehension over it: objects.py:1266-1268,
1339-1341.  `f i` is the result for element `i`.  `np.transpose` of an empty list cannot be unpacked (`ValueError`); for more
than one dimension the items are not numbers, this is not modelled and counted as `NotImplementedError`. -/
def zipMap {β : Type} (s : List ℕ) (f : List ℕ → Except PyErr β) : Except PyErr (List β) :=
  match s with
  | [] => do pure [← f []]
  | [0] => .error .ValueError
  | [k] => (List.range k).mapM fun j => f [j]
  | _ => .error .NotImplementedError

/-- the `ravel`ed vector of one of the results (objects.py:1273-1276, 1347-1350) -/
def column {β : Type} (l : List β) (f : β → α) : Arr α :=
  ⟨[l.length], fun idx => match idx with
    | j :: _ => (l.map f).getD j (lit 0)
    | [] => lit 0⟩

/-- objects.py:1270-1277, 1343-1349 the results as vectors, or as numbers if the inputs were numbers -/
def results (s : List ℕ) (x y z : Arr α) : Except PyErr (Arr α × Arr α × Arr α) :=
  if s = [] then do pure (← x.row 0, ← y.row 0, ← z.row 0) else pure (x, y, z)

/-- objects.py:1220-1280 `FrameE.inverse(lat_a, lon_a, lat_b, lon_b, z=0, long_unroll=False, degrees=False)` -/
def inverse (G : Geodesic α) (F : FrameE α) (lat_a lon_a lat_b lon_b z : Arr α) (long_unroll degrees : Bool) :
    Except PyErr (Arr α × Arr α × Arr α) := do
  let conv := fun A : Arr α => if degrees then A else A.map rad2deg
  let lat_a := conv lat_a
  let lon_a := conv lon_a
  let lat_b := conv lat_b
  let lon_b := conv lon_b
  let s ← bshapes [lat_a.shape, lon_a.shape, lat_b.shape, lon_b.shape, z.shape]
  let l ← zipMap s fun i => F.inverse' G (lat_a.get (bidx lat_a.shape i)) (lon_a.get (bidx lon_a.shape i))
    (lat_b.get (bidx lat_b.shape i)) (lon_b.get (bidx lon_b.shape i)) (z.get (bidx z.shape i)) long_unroll
  let back := fun A : Arr α => if degrees then A else A.map deg2rad
  results s (column l (·.1)) (back (column l (·.2.1))) (back (column l (·.2.2)))

/-- objects.py:1293-1353 `FrameE.direct(lat_a, lon_a, azimuth, distance, z=0, long_unroll=False, degrees=False)` -/
def direct (G : Geodesic α) (F : FrameE α) (lat_a lon_a azimuth distance z : Arr α) (long_unroll degrees : Bool) :
    Except PyErr (Arr α × Arr α × Arr α) := do
  let conv := fun A : Arr α => if degrees then A else A.map rad2deg
  let lat_a := conv lat_a
  let lon_a := conv lon_a
  let azimuth := conv azimuth
  let s ← bshapes [lat_a.shape, lon_a.shape, azimuth.shape, distance.shape, z.shape]
  let l ← zipMap s fun i => F.direct' G (lat_a.get (bidx lat_a.shape i)) (lon_a.get (bidx lon_a.shape i))
    (azimuth.get (bidx azimuth.shape i)) (distance.get (bidx distance.shape i)) (z.get (bidx z.shape i)) long_unroll
  let back := fun A : Arr α => if degrees then A else A.map deg2rad
  results s (back (column l (·.1))) (back (column l (·.2.1))) (back (column l (·.2.2)))

/-- core.py:678-711 `great_circle_distance` with a radius that may be an array -/
def great_circle_distanceA (n_EA_E n_EB_E radius : Arr α) : Except PyErr (Arr α) := do
  let sin_theta ← norm0 (← cross0 n_EA_E n_EB_E)
  let cos_theta ← dot n_EA_E.T n_EB_E
  let theta := (← map2 arctan2 sin_theta cos_theta).ravel
  map2 (· * ·) theta radius

/-- core.py:715-731 `euclidean_distance` with a radius that may be an array -/
def euclidean_distanceA (n_EA_E n_EB_E radius : Arr α) : Except PyErr (Arr α) := do
  map2 (· * ·) (← norm0 (← map2 (· - ·) n_EB_E n_EA_E)).ravel radius

/-- core.py:520-563 `cross_track_distance(path, n_EB_E, method, radius)` with a radius that may be an array -/
def cross_track_distanceA (n_EA1_E n_EA2_E n_EB_E : Arr α) (method : String) (radius : Arr α) : Except PyErr (Arr α) := do
  let c_E ← great_circle_normal n_EA1_E n_EA2_E
  let sin_theta := (((← dot c_E.T n_EB_E).map (fun x => -x)).ravel : Arr α)
  match method.toList with
  | [] => .error .IndexError
  | m :: _ =>
    if m.toLower = 'e' then map2 (fun s r => euclidean_cross_track_distance s r) sin_theta radius
    else map2 (fun s r => great_circle_cross_track_distance s r) sin_theta radius

/-- core.py:567-602 `on_great_circle(path, n_EB_E, radius, atol)` with a radius that may be an array -/
def on_great_circleA (n_EA1_E n_EA2_E n_EB_E radius : Arr α) (atol : α) : Except PyErr (Arr Bool) := do
  let distance := (← cross_track_distanceA n_EA1_E n_EA2_E n_EB_E "greatcircle" radius).map PyFloat.abs
  pure (distance.map (le · atol))

/-- core.py:606-644 `on_great_circle_path(path, n_EB_E, radius, atol)` with a radius that may be an array -/
def on_great_circle_pathA (n_EA1_E n_EA2_E n_EB_E radius : Arr α) (atol : α) : Except PyErr (Arr Bool) := do
  let scale ← norm0 (← map2 (· - ·) n_EA2_E n_EA1_E)
  let ti1 ← map2 (· / ·) (← norm0 (← map2 (· - ·) n_EB_E n_EA1_E)) scale
  let ti2 ← map2 (· / ·) (← norm0 (← map2 (· - ·) n_EB_E n_EA2_E)) scale
  let m ← map2 (· && ·) (ti1.map (le · (lit 1))) (ti2.map (le · (lit 1)))
  map2 (· && ·) m (← on_great_circleA n_EA1_E n_EA2_E n_EB_E radius atol)

omit [PyFloat α] in
/-- `if A:` for an array: `ValueError` unless it has exactly one element (Python and numpy, for core.py:500, objects.py:1145, 1152) -/
def truth (A : Arr Bool) : Except PyErr Bool :=
  if prod A.shape = 1 then .ok (A.get (unravel A.shape 0)) else .error .ValueError

/-- objects.py:333-348 `GeoPoint._displace_ellipsoid(distance, azimuth, long_unroll, degrees)` -/
def GeoPoint.displace_ellipsoid (G : Geodesic α) (p : GeoPoint α) (distance azimuth : Arr α) (long_unroll degrees : Bool) :
    Except PyErr (GeoPoint α × Arr α) := do
  let azimuth := if degrees then azimuth else azimuth.map rad2deg
  let (lat_b, lon_b, azimuth_b) ←
    direct G p.frame (p.latitude.map rad2deg) (p.longitude.map rad2deg) azimuth distance p.z long_unroll true
  let point_b ← GeoPoint.new lat_b lon_b p.z p.frame true
  if degrees then pure (point_b, azimuth_b) else pure (point_b, azimuth_b.map deg2rad)

/-- objects.py:288-301 `GeoPoint._displace_great_circle(distance, azimuth, degrees)` -/
def GeoPoint.displace_great_circle (p : GeoPoint α) (distance azimuth : Arr α) (degrees : Bool) :
    Except PyErr (GeoPoint α × Arr α) := do
  let n_a ← p.to_nvector
  let e_a ← n_a.to_ecef_vector
  let radius ← length e_a.pvector e_a.scalar
  let distance_rad ← map2 (· / ·) distance radius
  let azimuth_rad := if degrees then azimuth.map deg2rad else azimuth
  let normal_b ← n_EA_E_distance_and_azimuth2n_EB_E n_a.normal distance_rad azimuth_rad
  let point_b ← Nvector.to_geo_point ⟨normal_b, p.z, p.frame⟩
  let d ← delta_N (.geo point_b) (.ecef e_a)
  let azimuth_b := ((← ND.azimuth d.pvector d.scalar).map (· - pi)).map base_angle
  if degrees then pure (point_b, azimuth_b.map rad2deg) else pure (point_b, azimuth_b)

/-- objects.py:303-331 `GeoPoint.displace(distance, azimuth, long_unroll=False, degrees=False, method='ellipsoid')` -/
def GeoPoint.displace (G : Geodesic α) (p : GeoPoint α) (distance azimuth : Arr α) (long_unroll degrees : Bool)
    (method : String) : Except PyErr (GeoPoint α × Arr α) :=
  if strTake method 1 = "e" then p.displace_ellipsoid G distance azimuth long_unroll degrees
  else p.displace_great_circle distance azimuth degrees

/-- objects.py:412-421 `GeoPoint._distance_and_azimuth_ellipsoid(point, long_unroll, degrees)` -/
def GeoPoint.distance_and_azimuth_ellipsoid (G : Geodesic α) (p : GeoPoint α) (point : Position α)
    (long_unroll degrees : Bool) : Except PyErr (Arr α × Arr α × Arr α) := do
  let g ← point.to_geo_point
  let z := (← map2 (· + ·) p.z g.z).map (lit 0.5 * ·)
  let conv := fun A : Arr α => if degrees then A.map rad2deg else A
  inverse G p.frame (conv p.latitude) (conv p.longitude) (conv g.latitude) (conv g.longitude) z long_unroll degrees

/-- objects.py:395-410 `GeoPoint._distance_and_azimuth_greatcircle(point, degrees)` -/
def GeoPoint.distance_and_azimuth_greatcircle (p : GeoPoint α) (point : Position α) (degrees : Bool) :
    Except PyErr (Arr α × Arr α × Arr α) := do
  let n_a ← p.to_nvector
  let n_b ← point.to_nvector
  let e_a ← n_a.to_ecef_vector
  let e_b ← n_b.to_ecef_vector
  let radius := (← map2 (· + ·) (← length e_a.pvector e_a.scalar) (← length e_b.pvector e_b.scalar)).map (lit 0.5 * ·)
  let distance ← great_circle_distanceA n_a.normal n_b.normal radius
  let d_ab ← delta_N (.ecef e_a) (.ecef e_b)
  let azimuth_a ← ND.azimuth d_ab.pvector d_ab.scalar
  let d_ba ← delta_N (.ecef e_b) (.ecef e_a)
  let azimuth_b := ((← ND.azimuth d_ba.pvector d_ba.scalar).map (· - pi)).map base_angle
  let azimuth_a := if degrees then azimuth_a.map rad2deg else azimuth_a
  let azimuth_b := if degrees then azimuth_b.map rad2deg else azimuth_b
  if radius.shape = [] then pure (← distance.row 0, azimuth_a, azimuth_b) else pure (distance, azimuth_a, azimuth_b)

/-- `_check_frames(self, point)` for a point of any class (objects.py:390, 1540-1542) -/
def check_frames_pos (s : FrameE α) : Position α → Except PyErr Unit
  | .geo p => check_frames s p.frame
  | .nvec p => check_frames s p.frame
  | .ecef p => check_frames s p.frame
  | .pvec _ => .error .ValueError

/-- objects.py:350-393 `GeoPoint.distance_and_azimuth(point, long_unroll=False, degrees=False, method='ellipsoid')` -/
def GeoPoint.distance_and_azimuth (G : Geodesic α) (p : GeoPoint α) (point : Position α) (long_unroll degrees : Bool)
    (method : String) : Except PyErr (Arr α × Arr α × Arr α) := do
  check_frames_pos p.frame point
  match method.toList with
  | [] => .error .IndexError
  | c :: _ =>
    if c = 'e' then p.distance_and_azimuth_ellipsoid G point long_unroll degrees
    else p.distance_and_azimuth_greatcircle point degrees

/-- objects.py:821-844 `GeoPath(point_a, point_b)` -/
structure GeoPath (α : Type) where
  point_a : Position α
  point_b : Position α

namespace GeoPath
variable (P : GeoPath α)

/-- objects.py:880-883 `_get_average_radius` -/
def average_radius : Except PyErr (Arr α) := do
  let p_E1_E ← P.point_a.to_ecef_vector
  let p_E2_E ← P.point_b.to_ecef_vector
  pure ((← map2 (· + ·) (← length p_E1_E.pvector p_E1_E.scalar) (← length p_E2_E.pvector p_E2_E.scalar)).map (· / lit 2))

/-- `radius` if given, else the average radius (objects.py:907-908, 931-932, 992-993) -/
def radiusOr : Option (Arr α) → Except PyErr (Arr α)
  | some r => .ok r
  | none => P.average_radius

/-- objects.py:885-914 `cross_track_distance(point, method='greatcircle', radius=None)` -/
def cross_track_distance (point : Position α) (method : String) (radius : Option (Arr α)) : Except PyErr (Arr α) := do
  let radius ← P.radiusOr radius
  let n_a ← P.point_a.to_nvector
  let n_b ← P.point_b.to_nvector
  let n_c ← point.to_nvector
  let distance ← cross_track_distanceA n_a.normal n_b.normal n_c.normal method radius
  if radius.shape = [] ∧ prod distance.shape = 1 then distance.row 0 else pure distance

/-- objects.py:916-939 `track_distance(method='greatcircle', radius=None)` -/
def track_distance (G : Geodesic α) (method : String) (radius : Option (Arr α)) : Except PyErr (Arr α) :=
  if strTake method 2 = "ex" ∨ strTake method 2 = "el" then do
    let point_a ← P.point_a.to_geo_point
    let point_b ← P.point_b.to_geo_point
    let (s_ab, _, _) ← point_a.distance_and_azimuth G (.geo point_b) false false "ellipsoid"
    pure s_ab
  else do
    let radius ← P.radiusOr radius
    let n_a ← P.point_a.to_nvector
    let n_b ← P.point_b.to_nvector
    let distance ← if strTake method 2 = "eu" then euclidean_distanceA n_a.normal n_b.normal radius
      else great_circle_distanceA n_a.normal n_b.normal radius
    if radius.shape = [] then distance.row 0 else pure distance

/-- objects.py:1156-1174 `interpolate(ti)` -/
def interpolate (ti : Arr α) : Except PyErr (Nvector α) := do
  let point_a ← P.point_a.to_nvector
  let point_b ← P.point_b.to_nvector
  let point_c ← point_a.add (← (← point_b.sub point_a).mul ti)
  pure { point_c with normal := ← ND.unit point_c.normal nan }

omit [PyFloat α] in
/-- the attribute `frame` when it is a `FrameE`; a local frame has no attribute `Nvector` (objects.py:959, 966) -/
def frameOf : Position α → Except PyErr (FrameE α)
  | .geo p => .ok p.frame
  | .nvec p => .ok p.frame
  | .ecef p => .ok p.frame
  | .pvec _ => .error .AttributeError

/-- objects.py:941-966 `intersect(path)` -/
def intersect (path : GeoPath α) : Except PyErr (Nvector α) := do
  let a1 ← P.point_a.to_nvector
  let a2 ← P.point_b.to_nvector
  let b1 ← path.point_a.to_nvector
  let b2 ← path.point_b.to_nvector
  let normal_c ← ND.intersect a1.normal a2.normal b1.normal b2.normal
  let depth := (← map2 (· + ·) (← map2 (· + ·) (← map2 (· + ·) a1.z a2.z) b1.z) b2.z).map (· / lit 4)
  let frame ← frameOf P.point_a
  pure ⟨normal_c, depth, frame⟩

/-- objects.py:972-981 `_on_ellipsoid_path(point, rtol=1e-6, atol=1e-8)` -/
def on_ellipsoid_path (G : Geodesic α) (point : Position α) (rtol atol : α) : Except PyErr (Arr Bool) := do
  let a ← P.point_a.to_geo_point
  let b ← P.point_b.to_geo_point
  let c ← point.to_geo_point
  let z := (← map2 (· + ·) a.z b.z).map (· * lit 0.5)
  let (distance_ab, azimuth_ab, _) ← a.distance_and_azimuth G (.geo b) false false "ellipsoid"
  let (distance_ac, azimuth_ac, _) ← a.distance_and_azimuth G (.geo c) false false "ellipsoid"
  let same_z ← map2 (fun x y => isclose x y rtol atol) z c.z
  let same := distance_ac.map fun x => isclose x (lit 0) (atol := atol)
  let shorter ← map2 (fun x y => le y x) distance_ab distance_ac
  let close ← map2 (fun x y => isclose x y rtol atol) azimuth_ac azimuth_ab
  map2 (· && ·) same_z (← map2 (· || ·) same (← map2 (· && ·) shorter close))

/-- objects.py:983-989 `on_great_circle(point, atol=1e-8)` -/
def on_great_circle (point : Position α) (atol : α) : Except PyErr (Arr Bool) := do
  let distance := (← P.cross_track_distance point "greatcircle" none).map PyFloat.abs
  pure (distance.map fun x => isclose x (lit 0) (atol := atol))

/-- objects.py:991-1001 `_on_great_circle_path(point, radius=None, rtol=1e-9, atol=1e-8)` -/
def on_great_circle_path (point : Position α) (radius : Option (Arr α)) (rtol atol : α) : Except PyErr (Arr Bool) := do
  let radius ← P.radiusOr radius
  let n_a ← P.point_a.to_nvector
  let n_b ← P.point_b.to_nvector
  let n_c ← point.to_nvector
  let z := (← map2 (· + ·) n_a.z n_b.z).map (· * lit 0.5)
  let same_z ← map2 (fun x y => isclose x y rtol atol) n_c.z z
  let result ← map2 (· && ·) (← on_great_circle_pathA n_a.normal n_b.normal n_c.normal radius atol) same_z
  if radius.shape = [] ∧ prod result.shape = 1 then result.row 0 else pure result

/-- objects.py:1003-1051 `on_path(point, method='greatcircle', rtol=1e-6, atol=1e-8)` -/
def on_path (G : Geodesic α) (point : Position α) (method : String) (rtol atol : α) : Except PyErr (Arr Bool) :=
  if strTake method 2 = "ex" ∨ strTake method 2 = "el" then P.on_ellipsoid_path G point rtol atol
  else P.on_great_circle_path point none rtol atol

/-- objects.py:1054-1060 `_closest_point_on_great_circle(point)` -/
def closest_nvector (point : Position α) : Except PyErr (Nvector α) := do
  let point_c ← point.to_nvector
  let point_a ← P.point_a.to_nvector
  let point_b ← P.point_b.to_nvector
  let z := (← map2 (· + ·) point_a.z point_b.z).map (· * lit 0.5)
  let normal_d ← ND.closest_point_on_great_circle point_a.normal point_b.normal point_c.normal
  pure ⟨normal_d, z, point_c.frame⟩

/-- objects.py:1062-1101 `closest_point_on_great_circle(point)` -/
def closest_point_on_great_circle (point : Position α) : Except PyErr (GeoPoint α) := do
  (← P.closest_nvector point).to_geo_point

/-- objects.py:1103-1154 `closest_point_on_path(point)` and `_closest_point_on_path` -/
def closest_point_on_path (point : Position α) : Except PyErr (GeoPoint α) := do
  let point_c ← P.closest_nvector point
  -- `self.on_path(point_c)` with the default method and tolerances
  if ← truth (← P.on_great_circle_path (.nvec point_c) none (lit 1e-6) (lit 1e-8)) then point_c.to_geo_point
  else
    let n0 := (← point.to_nvector).normal
    let n1 := (← P.point_a.to_nvector).normal
    let n2 := (← P.point_b.to_nvector).normal
    let radius ← P.average_radius
    let d1 ← great_circle_distanceA n1 n0 radius
    let d2 ← great_circle_distanceA n2 n0 radius
    if ← truth (← map2 lt d1 d2) then P.point_a.to_geo_point else P.point_b.to_geo_point

end GeoPath

end Nv.ND
