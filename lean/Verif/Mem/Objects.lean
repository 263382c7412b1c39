import Verif.Mem.Heap

/-!
# The functions and methods on the memory

The functions of `Verif.ND.Core`, `Verif.ND.Objects` and `Verif.ND.Paths` with references instead of values.  An expression that
only makes new arrays and returns one of them is one allocation of its value; arrays and objects that are made in between and
can be reached afterwards or are assigned to are made one by one.
-/

namespace Nv.Mem
open Nv.ND (Arr)
variable {α : Type} [PyFloat α]
open PyFloat

/-! ## util.py, core.py and rotation.py -/

/-- the elements in the columns `idx = np.flatnonzero(current_norm == 0)`, util.py:505 -/
def inZeroColumn (current_norm : Arr α) : List ℕ → Bool
  | _ :: j :: _ => eq (current_norm.get [0, j]) (lit 0)
  | _ => false

/-- util.py:476-510 `unit(vector, norm_zero_vector=1)`: `unit_vector` is a new array and lines 508-509 assign to its elements -/
def unit (vector : ARef) (norm_zero_vector : α := lit 1) : M α ARef := do
  let v ← readA vector
  let current_norm ← lift (ND.norm0k v)
  let unit_vector ← allocE (ND.map2 (· / ·) v (current_norm.map addTiny))
  match v.shape with
  | [_, _] =>
    assign unit_vector fun idx x => if inZeroColumn current_norm idx then lit 0 * norm_zero_vector else x
    assign unit_vector fun idx x => if idx.head? = some 0 ∧ inZeroColumn current_norm idx then lit 1 * norm_zero_vector else x
    pure unit_vector
  | _ => throw .IndexError

/-- core.py:45-72 `lat_lon2n_E` -/
def lat_lon2n_E (latitude longitude : ARef) (R_Ee : M3 α) : M α ARef := do
  let lat ← readA latitude
  let lon ← readA longitude
  allocE (ND.lat_lon2n_E lat lon R_Ee)

/-- core.py:76-142 `n_EB_E2p_EB_E` -/
def n_EB_E2p_EB_E (n_EB_E depth : ARef) (a f : α) (R_Ee : M3 α) : M α ARef := do
  let n ← readA n_EB_E
  lift (ND.check_length_deviation n)
  let n_EB_e ← readA (← unit (← allocE (ND.dot (ND.ofM3 R_Ee) n)))
  let depth ← readA depth
  allocE do
    let b := a * (lit 1 - f)
    let scale ← ND.vstack3 (ND.scalar (lit 1)) (ND.scalar (lit 1 - f)) (ND.scalar (lit 1 - f))
    let denominator ← ND.norm0k (← ND.map2 (· / ·) n_EB_e scale)
    let s ← ND.map2 (· / ·) (ND.scalar b) denominator
    let q ← ND.map2 (· * ·) s n_EB_e
    let p_EL_e ← ND.map2 (· / ·) q (scale.map (powNat · 2))
    let d ← ND.map2 (· * ·) n_EB_e depth
    ND.dot (ND.ofM3 R_Ee).T (← ND.map2 (· - ·) p_EL_e d)

/-- core.py:180-244 `p_EB_E2n_EB_E`, returns `(n_EB_E, depth)` -/
def p_EB_E2n_EB_E (p_EB_E : ARef) (a f : α) (R_Ee : M3 α) : M α (ARef × ARef) := do
  let p_EB_e ← lift (ND.dot (ND.ofM3 R_Ee) (← readA p_EB_E))
  let (x_scale, yz_scale, depth) ← lift (ND.equation23 a f p_EB_e)
  let depth ← alloc depth
  let t ← allocE do
    let n_EB_e_x ← ND.map2 (· * ·) x_scale (← p_EB_e.row 0)
    let n_EB_e_y ← ND.map2 (· * ·) yz_scale (← p_EB_e.row 1)
    let n_EB_e_z ← ND.map2 (· * ·) yz_scale (← p_EB_e.row 2)
    let n_EB_e ← ND.vstack3 n_EB_e_x n_EB_e_y n_EB_e_z
    ND.dot (ND.ofM3 R_Ee).T n_EB_e
  let n_EB_E ← unit t
  pure (n_EB_E, depth)

/-- core.py:434-460 `interpolate(path, ti)` -/
def interpolate (n_EB_E_t0 n_EB_E_t1 ti : ARef) : M α ARef := do
  let n0 ← readA n_EB_E_t0
  let n1 ← readA n_EB_E_t1
  let t ← readA ti
  unit (← allocE do
    let d ← ND.map2 (fun t x => x * t) t (← ND.map2 (· - ·) n1 n0)
    ND.map2 (· + ·) n0 d) nan

/-- core.py:464-503 `intersect(path_a, path_b)` -/
def intersect (n_EA1_E n_EA2_E n_EB1_E n_EB2_E : ARef) : M α ARef := do
  let a1 ← readA n_EA1_E
  let a2 ← readA n_EA2_E
  let b1 ← readA n_EB1_E
  let b2 ← readA n_EB2_E
  let n_EC_E_tmp ← readA (← unit (← allocE do ND.cross0 (← ND.cross0 a1 a2) (← ND.cross0 b1 b2)) nan)
  allocE do ND.map2 (fun s x => x * s) ((← ND.dot n_EC_E_tmp.T a1).map sign) n_EC_E_tmp

/-- core.py:506-516 `great_circle_normal` -/
def great_circle_normal (n_EA_E n_EB_E : ARef) : M α ARef := do
  let a ← readA n_EA_E
  let b ← readA n_EB_E
  unit (← allocE (ND.cross0 a b)) nan

/-- core.py:530-563 `cross_track_distance(path, n_EB_E, method, radius)` -/
def cross_track_distance (n_EA1_E n_EA2_E n_EB_E : ARef) (method : String) (radius : ARef) : M α ARef := do
  let c_E ← readA (← great_circle_normal n_EA1_E n_EA2_E)
  let b ← readA n_EB_E
  let radius ← readA radius
  allocE do
    let sin_theta := (((← ND.dot c_E.T b).map (fun x => -x)).ravel : Arr α)
    match method.toList with
    | [] => .error .IndexError
    | m :: _ =>
      if m.toLower = 'e' then ND.map2 (fun s r => euclidean_cross_track_distance s r) sin_theta radius
      else ND.map2 (fun s r => great_circle_cross_track_distance s r) sin_theta radius

/-- core.py:567-602 `on_great_circle(path, n_EB_E, radius, atol)` -/
def on_great_circle (n_EA1_E n_EA2_E n_EB_E radius : ARef) (atol : α) : M α (Arr Bool) := do
  let d ← readA (← cross_track_distance n_EA1_E n_EA2_E n_EB_E "greatcircle" radius)
  let distance := d.map PyFloat.abs
  pure (distance.map (le · atol))

/-- core.py:606-644 `on_great_circle_path(path, n_EB_E, radius, atol)` -/
def on_great_circle_path (n_EA1_E n_EA2_E n_EB_E radius : ARef) (atol : α) : M α (Arr Bool) := do
  let a1 ← readA n_EA1_E
  let a2 ← readA n_EA2_E
  let b ← readA n_EB_E
  let scale ← lift do ND.norm0 (← ND.map2 (· - ·) a2 a1)
  let ti1 ← lift do ND.map2 (· / ·) (← ND.norm0 (← ND.map2 (· - ·) b a1)) scale
  let ti2 ← lift do ND.map2 (· / ·) (← ND.norm0 (← ND.map2 (· - ·) b a2)) scale
  let m ← lift (ND.map2 (· && ·) (ti1.map (le · (lit 1))) (ti2.map (le · (lit 1))))
  let g ← on_great_circle n_EA1_E n_EA2_E n_EB_E radius atol
  lift (ND.map2 (· && ·) m g)

/-- core.py:648-674 `closest_point_on_great_circle(path, n_EB_E)` -/
def closest_point_on_great_circle (n_EA1_E n_EA2_E n_EB_E : ARef) : M α ARef := do
  let c_E ← readA (← great_circle_normal n_EA1_E n_EA2_E)
  let b ← readA n_EB_E
  let n_EC_E ← readA (← unit (← allocE do
    let c2 ← ND.cross0 b c_E
    ND.cross0 c_E c2))
  allocE do ND.map2 (· * ·) n_EC_E ((← ND.dot n_EC_E.T b).map sign)

/-- core.py:678-711 `great_circle_distance(n_EA_E, n_EB_E, radius)` -/
def great_circle_distance (n_EA_E n_EB_E radius : ARef) : M α ARef := do
  let a ← readA n_EA_E
  let b ← readA n_EB_E
  let r ← readA radius
  allocE (ND.great_circle_distanceA a b r)

/-- core.py:715-731 `euclidean_distance(n_EA_E, n_EB_E, radius)` -/
def euclidean_distance (n_EA_E n_EB_E radius : ARef) : M α ARef := do
  let a ← readA n_EA_E
  let b ← readA n_EB_E
  let r ← readA radius
  allocE (ND.euclidean_distanceA a b r)

/-- rotation.py:386-423 `n_E2lat_lon`, returns `(latitude, longitude)` -/
def n_E2lat_lon (n_E : ARef) (R_Ee : M3 α) : M α (ARef × ARef) := do
  let (latitude, longitude) ← lift (ND.n_E2lat_lon (← readA n_E) R_Ee)
  pure (← alloc latitude, ← alloc longitude)

/-- rotation.py:426-474 `n_E2R_EN`: line 462 assigns to elements of the array returned by `unit` -/
def n_E2R_EN (n_E : ARef) (R_Ee : M3 α) : M α ARef := do
  let n ← readA n_E
  lift (ND.check_length_deviation n)
  let n_E ← readA (← unit (← allocE (ND.dot (ND.ofM3 R_Ee) n)))
  let Nz_E := n_E.map (fun x => -x)
  let Ny_E_direction ← lift (ND.cross0 (ND.ofV3 ⟨lit 1, lit 0, lit 0⟩) n_E)
  let nrm ← lift (ND.norm0 Ny_E_direction)
  let Ny_E ← unit (← alloc Ny_E_direction)
  assign Ny_E fun idx x => match idx with
    | i :: j :: _ => if eq (nrm.get [j]) (lit 0) then (if i = 1 then lit 1 else lit 0) else x
    | _ => x
  let Ny_E ← readA Ny_E
  allocE do
    let Nx_E ← ND.cross0 Ny_E Nz_E
    let Nxyz_E ← ND.hstack3 (← Nx_E.newaxis1) (← Ny_E.newaxis1) (← Nz_E.newaxis1)
    let R_EN ← ND.mdot (← ND.swapaxes01 (ND.ofM3 R_Ee)) Nxyz_E
    pure R_EN.squeeze

/-- core.py:780-819 `n_EA_E_distance_and_azimuth2n_EB_E` -/
def n_EA_E_distance_and_azimuth2n_EB_E (n_EA_E distance_rad azimuth : ARef) (R_Ee : M3 α) : M α ARef := do
  let n ← readA n_EA_E
  let distance_rad ← readA distance_rad
  let azimuth ← readA azimuth
  let k_east_E ← readA (← unit (← allocE do
    ND.cross0 (← ND.dot (ND.ofM3 R_Ee).T (ND.ofV3 ⟨lit 1, lit 0, lit 0⟩)) n))
  allocE do
    let k_north_E ← ND.cross0 n k_east_E
    let d_E ← ND.map2 (· + ·) (← ND.map2 (· * ·) k_north_E (azimuth.map cos)) (← ND.map2 (· * ·) k_east_E (azimuth.map sin))
    ND.map2 (· + ·) (← ND.map2 (· * ·) n (distance_rad.map cos)) (← ND.map2 (· * ·) d_E (distance_rad.map sin))

/-- core.py:823-847 `mean_horizontal_position` -/
def mean_horizontal_position (n_EB_E : ARef) : M α ARef := do
  let n ← readA n_EB_E
  unit (← allocE do
    let s ← ND.sumAxis1 n
    s.reshape31)

/-! ## objects.py -/

/-- objects.py:206-210 `GeoPoint.__init__(latitude, longitude, z=0, frame, degrees=False)`: the attributes are views of the
arguments (of new arrays, if the angles are in degrees) -/
def GeoPoint (latitude longitude z : ARef) (frame : FrameE α) (degrees : Bool) : M α GRef := do
  let latitude ← if degrees then do alloc ((← readA latitude).map deg2rad) else pure latitude
  let longitude ← if degrees then do alloc ((← readA longitude).map deg2rad) else pure longitude
  let s ← lift (ND.bshape latitude.shape longitude.shape)
  let s ← lift (ND.bshape s z.shape)
  newGeo ⟨latitude.broadcastTo s, longitude.broadcastTo s, z.broadcastTo s, frame⟩

omit [PyFloat α] in
/-- objects.py:465-468 `Nvector.__init__(normal, z, frame)` -/
def Nvector (normal z : ARef) (frame : FrameE α) : M α NRef := newNvec ⟨normal, z, frame⟩

omit [PyFloat α] in
/-- objects.py:746-747 `ECEFvector.__init__(pvector, frame)` -/
def ECEFvector (pvector : ARef) (frame : FrameE α) : M α ERef := do
  let scalar ← lift (ND.oneColumn (⟨pvector.shape, fun _ => ()⟩ : Arr Unit))
  newEcef ⟨pvector, frame, scalar⟩

omit [PyFloat α] in
/-- objects.py:1382-1384 `frame.Pvector(pvector)` -/
def Pvector (pvector : ARef) (frame : FRef) : M α VRef := do
  let scalar ← lift (ND.oneColumn (⟨pvector.shape, fun _ => ()⟩ : Arr Unit))
  newPvec ⟨pvector, frame, scalar⟩

/-- objects.py:274-284 `GeoPoint.to_nvector`: the depth is shared -/
def geo_to_nvector (r : GRef) : M α NRef := do
  let o ← getGeo r
  let n_vector ← lat_lon2n_E o.latitude o.longitude o.frame.R_Ee
  newNvec ⟨n_vector, o.z, o.frame⟩

omit [PyFloat α] in
/-- objects.py:548-551 `Nvector.scalar` -/
def isScalar (o : NvecObj α) : M α Bool := do
  let normal ← readA o.normal
  let z ← readA o.z
  lift (ND.Nvector.isScalar ⟨normal, z, o.frame⟩)

/-- objects.py:534-546 `Nvector.to_ecef_vector` -/
def nvec_to_ecef_vector (r : NRef) : M α ERef := do
  let o ← getNvec r
  let pvector ← n_EB_E2p_EB_E o.normal o.z o.frame.a o.frame.f o.frame.R_Ee
  let scalar ← isScalar o
  newEcef ⟨pvector, o.frame, scalar⟩

/-- objects.py:553-565 `Nvector.to_geo_point`: the depth is shared -/
def nvec_to_geo_point (r : NRef) : M α GRef := do
  let o ← getNvec r
  let (latitude, longitude) ← n_E2lat_lon o.normal o.frame.R_Ee
  if ← isScalar o then
    let latitude ← lift (latitude.row 0)
    let longitude ← lift (longitude.row 0)
    GeoPoint latitude longitude o.z o.frame false
  else GeoPoint latitude longitude o.z o.frame false

/-- objects.py:788-802 `ECEFvector.to_nvector` -/
def ecef_to_nvector (r : ERef) : M α NRef := do
  let o ← getEcef r
  let (n_EB_E, depth) ← p_EB_E2n_EB_E o.pvector o.frame.a o.frame.f o.frame.R_Ee
  if o.scalar then
    let depth ← lift (depth.row 0)
    newNvec ⟨n_EB_E, depth, o.frame⟩
  else newNvec ⟨n_EB_E, depth, o.frame⟩

/-- the attribute `nvector` of a local frame (objects.py:1423, 1476, 1518) -/
def FrameObj.nvector : FrameObj → NRef
  | .N n => n
  | .L n _ => n
  | .B n _ _ _ => n

/-- the property `R_EN` of a local frame: objects.py:1425-1429 (N), 1478-1483 (L), 1524-1530 (B) -/
def R_EN (r : FRef) : M α ARef := do
  match ← getFrame r with
  | .N n =>
    let o ← getNvec n
    n_E2R_EN o.normal o.frame.R_Ee
  | .L n wa =>
    let o ← getNvec n
    let normal ← readA o.normal
    let wa ← readA wa
    allocE (ND.n_E_and_wa2R_EL normal wa o.frame.R_Ee)
  | .B n yaw pitch roll =>
    let yaw ← readA yaw
    let pitch ← readA pitch
    let roll ← readA roll
    let R_NB ← lift (ND.zyx2R yaw pitch roll)
    let o ← getNvec n
    let R_EN ← readA (← n_E2R_EN o.normal o.frame.R_Ee)
    allocE (ND.mdot R_EN R_NB)

/-- objects.py:645-658 `Pvector.to_ecef_vector` -/
def pvec_to_ecef_vector (r : VRef) : M α ERef := do
  let o ← getPvec r
  let R ← readA (← R_EN o.frame)
  let p ← readA o.pvector
  let p_AB_E ← allocE do (← ND.mdot R (← p.newaxis1)).reshape 3
  let f ← getFrame o.frame
  let n ← getNvec f.nvector
  newEcef ⟨p_AB_E, n.frame, o.scalar⟩

/-- objects.py:749-773 `ECEFvector.change_frame(frame)`: the frame is shared -/
def change_frame (r : ERef) (frame : FRef) : M α VRef := do
  let o ← getEcef r
  let f ← getFrame frame
  let n ← getNvec f.nvector
  lift (check_frames o.frame n.frame)
  let R ← readA (← R_EN frame)
  let p ← readA o.pvector
  let p_AB_N ← allocE do (← ND.mdot (← ND.swapaxes01 R) (← p.newaxis1)).reshape 3
  newPvec ⟨p_AB_N, frame, o.scalar⟩

/-- `to_nvector` of the four classes: objects.py:274, 567 (returns the object itself), 660, 788 -/
def to_nvector : PosRef → M α NRef
  | .geo r => geo_to_nvector r
  | .nvec r => pure r
  | .ecef r => ecef_to_nvector r
  | .pvec r => do ecef_to_nvector (← pvec_to_ecef_vector r)

/-- `to_ecef_vector` of the four classes: objects.py:253, 534, 645, 775 (returns the object itself) -/
def to_ecef_vector : PosRef → M α ERef
  | .geo r => do nvec_to_ecef_vector (← geo_to_nvector r)
  | .nvec r => nvec_to_ecef_vector r
  | .ecef r => pure r
  | .pvec r => pvec_to_ecef_vector r

/-- `to_geo_point` of the four classes: objects.py:263 (returns the object itself), 553, 671, 778 -/
def to_geo_point : PosRef → M α GRef
  | .geo r => pure r
  | .nvec r => nvec_to_geo_point r
  | .ecef r => do nvec_to_geo_point (← ecef_to_nvector r)
  | .pvec r => do nvec_to_geo_point (← ecef_to_nvector (← pvec_to_ecef_vector r))

omit [PyFloat α] in
/-- the attributes `pvector` and `scalar` of an `ECEFvector` (objects.py:684-716) -/
def ecefData (r : ERef) : M α (Arr α × Bool) := do
  let o ← getEcef r
  pure (← readA o.pvector, o.scalar)

omit [PyFloat α] in
/-- the attributes `pvector` and `scalar` of a `Pvector` (objects.py:684-716) -/
def pvecData (r : VRef) : M α (Arr α × Bool) := do
  let o ← getPvec r
  pure (← readA o.pvector, o.scalar)

/-- objects.py:682-689 `length` of an `ECEFvector` -/
def ecef_length (r : ERef) : M α ARef := do
  let (p, s) ← ecefData r
  allocE (ND.length p s)
/-- objects.py:682-689 `Pvector.length` -/
def pvec_length (r : VRef) : M α ARef := do
  let (p, s) ← pvecData r
  allocE (ND.length p s)
/-- objects.py:696-702 `Pvector.azimuth` -/
def pvec_azimuth (r : VRef) : M α ARef := do
  let (p, s) ← pvecData r
  allocE (ND.azimuth p s)
/-- objects.py:709-715 `Pvector.elevation` -/
def pvec_elevation (r : VRef) : M α ARef := do
  let (p, s) ← pvecData r
  allocE (ND.elevation p s)

/-- objects.py:1421-1423 `FrameN.__init__(point)`: a new `Nvector` that shares the normal -/
def FrameN (point : PosRef) : M α FRef := do
  let nvector ← getNvec (← to_nvector point)
  let zero ← alloc (ND.scalar (lit 0))
  let n ← newNvec ⟨nvector.normal, zero, nvector.frame⟩
  newFrame (.N n)
/-- objects.py:1474-1476 `FrameL.__init__(point, wander_azimuth=0)` -/
def FrameL (point : PosRef) (wander_azimuth : ARef) : M α FRef := do
  let nvector ← getNvec (← to_nvector point)
  let zero ← alloc (ND.scalar (lit 0))
  let n ← newNvec ⟨nvector.normal, zero, nvector.frame⟩
  newFrame (.L n wander_azimuth)
/-- objects.py:1516-1522 `FrameB.__init__(point, yaw=0, pitch=0, roll=0, degrees=False)`: the `Nvector` is shared -/
def FrameB (point : PosRef) (yaw pitch roll : ARef) (degrees : Bool) : M α FRef := do
  let n ← to_nvector point
  if degrees then
    let yaw ← readA yaw
    let pitch ← readA pitch
    let roll ← readA roll
    newFrame (.B n (← alloc (yaw.map deg2rad)) (← alloc (pitch.map deg2rad)) (← alloc (roll.map deg2rad)))
  else newFrame (.B n yaw pitch roll)

/-- objects.py:806-809 `ECEFvector.__add__` -/
def ecef_add (s o : ERef) : M α ERef := do
  let s ← getEcef s
  let o ← getEcef o
  lift (check_frames s.frame o.frame)
  let p ← readA s.pvector
  let q ← readA o.pvector
  newEcef ⟨← allocE (ND.map2 (· + ·) p q), s.frame, s.scalar && o.scalar⟩
/-- objects.py:811-814 `ECEFvector.__sub__` -/
def ecef_sub (s o : ERef) : M α ERef := do
  let s ← getEcef s
  let o ← getEcef o
  lift (check_frames s.frame o.frame)
  let p ← readA s.pvector
  let q ← readA o.pvector
  newEcef ⟨← allocE (ND.map2 (· - ·) p q), s.frame, s.scalar && o.scalar⟩
/-- objects.py:816-817 `ECEFvector.__neg__` -/
def ecef_neg (s : ERef) : M α ERef := do
  let s ← getEcef s
  let p ← readA s.pvector
  newEcef ⟨← alloc (p.map (fun x => -x)), s.frame, s.scalar⟩

/-- objects.py:600-602 `Nvector.__add__` -/
def nvec_add (s o : NRef) : M α NRef := do
  let s ← getNvec s
  let o ← getNvec o
  lift (check_frames s.frame o.frame)
  let n1 ← readA s.normal
  let n2 ← readA o.normal
  let z1 ← readA s.z
  let z2 ← readA o.z
  newNvec ⟨← allocE (ND.map2 (· + ·) n1 n2), ← allocE (ND.map2 (· + ·) z1 z2), s.frame⟩
/-- objects.py:604-606 `Nvector.__sub__` -/
def nvec_sub (s o : NRef) : M α NRef := do
  let s ← getNvec s
  let o ← getNvec o
  lift (check_frames s.frame o.frame)
  let n1 ← readA s.normal
  let n2 ← readA o.normal
  let z1 ← readA s.z
  let z2 ← readA o.z
  newNvec ⟨← allocE (ND.map2 (· - ·) n1 n2), ← allocE (ND.map2 (· - ·) z1 z2), s.frame⟩
/-- objects.py:608-609 `Nvector.__neg__` -/
def nvec_neg (s : NRef) : M α NRef := do
  let s ← getNvec s
  let n ← readA s.normal
  let z ← readA s.z
  newNvec ⟨← alloc (n.map (fun x => -x)), ← alloc (z.map (fun x => -x)), s.frame⟩
/-- objects.py:611-616 `Nvector.__mul__` -/
def nvec_mul (s : NRef) (c : ARef) : M α NRef := do
  let s ← getNvec s
  let n ← readA s.normal
  let z ← readA s.z
  let c ← readA c
  newNvec ⟨← allocE (ND.map2 (· * ·) n c), ← allocE (ND.map2 (· * ·) z c), s.frame⟩
/-- objects.py:618-624 `Nvector.__div__` -/
def nvec_div (s : NRef) (c : ARef) : M α NRef := do
  let s ← getNvec s
  let n ← readA s.normal
  let z ← readA s.z
  let c ← readA c
  newNvec ⟨← allocE (ND.map2 (· / ·) n c), ← allocE (ND.map2 (· / ·) z c), s.frame⟩
/-- objects.py:579-581 `Nvector.unit()`: the attribute `normal` of the object is assigned -/
def nvec_unit (s : NRef) : M α Unit := do
  let o ← getNvec s
  let normal ← unit o.normal
  setNormal s normal
/-- objects.py:583-588 `Nvector.mean()` -/
def nvec_mean (s : NRef) : M α NRef := do
  let s ← getNvec s
  let normal ← mean_horizontal_position s.normal
  let z ← readA s.z
  newNvec ⟨normal, ← alloc (ND.meanAll z), s.frame⟩

/-- objects.py:43-78 `delta_E(point_a, point_b)` -/
def delta_E (a b : PosRef) : M α ERef := do
  let p_EA_E ← to_ecef_vector a
  let p_EB_E ← to_ecef_vector b
  ecef_sub p_EB_E p_EA_E

/-- objects.py:89-103 `delta_N(point_a, point_b)` and `a.delta_to(b)` (line 106) -/
def delta_N (a b : PosRef) : M α VRef := do
  let d ← delta_E a b
  let f ← FrameN a
  change_frame d f

/-- objects.py:111-128 `delta_L(point_a, point_b, wander_azimuth=0)` -/
def delta_L (a b : PosRef) (wander_azimuth : ARef) : M α VRef := do
  let local_frame ← FrameL a wander_azimuth
  let d ← delta_E a b
  change_frame d local_frame

/-- objects.py:333-348 `GeoPoint._displace_ellipsoid(distance, azimuth, long_unroll, degrees)` -/
def displace_ellipsoid (G : Geodesic α) (r : GRef) (distance azimuth : ARef) (long_unroll degrees : Bool) :
    M α (GRef × ARef) := do
  let o ← getGeo r
  let az ← readA azimuth
  let lat ← readA o.latitude
  let lon ← readA o.longitude
  let distance ← readA distance
  let z ← readA o.z
  let az := if degrees then az else az.map rad2deg
  let (lat_b, lon_b, azimuth_b) ← lift
    (ND.direct G o.frame (lat.map rad2deg) (lon.map rad2deg) az distance z long_unroll true)
  let lat_b ← alloc lat_b
  let lon_b ← alloc lon_b
  let point_b ← GeoPoint lat_b lon_b o.z o.frame true
  if degrees then pure (point_b, ← alloc azimuth_b) else pure (point_b, ← alloc (azimuth_b.map deg2rad))

/-- objects.py:288-301 `GeoPoint._displace_great_circle(distance, azimuth, degrees)` -/
def displace_great_circle (r : GRef) (distance azimuth : ARef) (degrees : Bool) : M α (GRef × ARef) := do
  let n_a ← geo_to_nvector r
  let e_a ← nvec_to_ecef_vector n_a
  let radius ← readA (← ecef_length e_a)
  let distance ← readA distance
  let distance_rad ← allocE (ND.map2 (· / ·) distance radius)
  let az ← readA azimuth
  let azimuth_rad ← alloc (if degrees then az.map deg2rad else az)
  let na ← getNvec n_a
  let normal_b ← n_EA_E_distance_and_azimuth2n_EB_E na.normal distance_rad azimuth_rad R_e
  let o ← getGeo r
  let point_b ← nvec_to_geo_point (← newNvec ⟨normal_b, o.z, o.frame⟩)
  let d ← delta_N (.geo point_b) (.ecef e_a)
  let (p, s) ← pvecData d
  let az ← lift (ND.azimuth p s)
  let azimuth_b := (az.map (· - pi)).map base_angle
  if degrees then pure (point_b, ← alloc (azimuth_b.map rad2deg)) else pure (point_b, ← alloc azimuth_b)

/-- objects.py:303-331 `GeoPoint.displace(distance, azimuth, long_unroll=False, degrees=False, method='ellipsoid')` -/
def displace (G : Geodesic α) (r : GRef) (distance azimuth : ARef) (long_unroll degrees : Bool) (method : String) :
    M α (GRef × ARef) :=
  if strTake method 1 = "e" then displace_ellipsoid G r distance azimuth long_unroll degrees
  else displace_great_circle r distance azimuth degrees

/-- three new arrays (numpy, for objects.py:1267-1350) -/
def alloc3 (x : Arr α × Arr α × Arr α) : M α (ARef × ARef × ARef) := do
  let a ← alloc x.1
  let b ← alloc x.2.1
  let c ← alloc x.2.2
  pure (a, b, c)

/-- objects.py:412-421 `GeoPoint._distance_and_azimuth_ellipsoid(point, long_unroll, degrees)` -/
def distance_and_azimuth_ellipsoid (G : Geodesic α) (r : GRef) (point : PosRef) (long_unroll degrees : Bool) :
    M α (ARef × ARef × ARef) := do
  let g ← to_geo_point point
  let p ← getGeo r
  let g ← getGeo g
  let z1 ← readA p.z
  let z2 ← readA g.z
  let z := (← lift (ND.map2 (· + ·) z1 z2)).map (lit 0.5 * ·)
  let lat_a ← readA p.latitude
  let lon_a ← readA p.longitude
  let lat_b ← readA g.latitude
  let lon_b ← readA g.longitude
  let conv := fun A : Arr α => if degrees then A.map rad2deg else A
  let x ← lift (ND.inverse G p.frame (conv lat_a) (conv lon_a) (conv lat_b) (conv lon_b) z long_unroll degrees)
  alloc3 x

/-- objects.py:395-410 `GeoPoint._distance_and_azimuth_greatcircle(point, degrees)` -/
def distance_and_azimuth_greatcircle (r : GRef) (point : PosRef) (degrees : Bool) : M α (ARef × ARef × ARef) := do
  let n_a ← geo_to_nvector r
  let n_b ← to_nvector point
  let e_a ← nvec_to_ecef_vector n_a
  let e_b ← nvec_to_ecef_vector n_b
  let la ← readA (← ecef_length e_a)
  let lb ← readA (← ecef_length e_b)
  let radius := (← lift (ND.map2 (· + ·) la lb)).map (lit 0.5 * ·)
  let a ← getNvec n_a
  let b ← getNvec n_b
  let na ← readA a.normal
  let nb ← readA b.normal
  let distance ← lift (ND.great_circle_distanceA na nb radius)
  let d_ab ← delta_N (.ecef e_a) (.ecef e_b)
  let azimuth_a ← readA (← pvec_azimuth d_ab)
  let d_ba ← delta_N (.ecef e_b) (.ecef e_a)
  let azimuth_b := ((← readA (← pvec_azimuth d_ba)).map (· - pi)).map base_angle
  let azimuth_a := if degrees then azimuth_a.map rad2deg else azimuth_a
  let azimuth_b := if degrees then azimuth_b.map rad2deg else azimuth_b
  if radius.shape = [] then
    let d ← lift (distance.row 0)
    alloc3 (d, azimuth_a, azimuth_b)
  else alloc3 (distance, azimuth_a, azimuth_b)

/-- `_check_frames(self, point)` for a point of any class: objects.py:1540-1542 -/
def check_frames_pos (s : FrameE α) : PosRef → M α Unit
  | .geo p => do lift (check_frames s (← getGeo p).frame)
  | .nvec p => do lift (check_frames s (← getNvec p).frame)
  | .ecef p => do lift (check_frames s (← getEcef p).frame)
  | .pvec _ => throw .ValueError

/-- objects.py:350-393 `GeoPoint.distance_and_azimuth(point, long_unroll=False, degrees=False, method='ellipsoid')` -/
def distance_and_azimuth (G : Geodesic α) (r : GRef) (point : PosRef) (long_unroll degrees : Bool) (method : String) :
    M α (ARef × ARef × ARef) := do
  let o ← getGeo r
  check_frames_pos o.frame point
  match method.toList with
  | [] => throw .IndexError
  | c :: _ =>
    if c = 'e' then distance_and_azimuth_ellipsoid G r point long_unroll degrees
    else distance_and_azimuth_greatcircle r point degrees

/-! ## GeoPath -/

omit [PyFloat α] in
/-- objects.py:842-844 `GeoPath.__init__(point_a, point_b)`: the positions are shared -/
def GeoPath (point_a point_b : PosRef) : M α PathRef := newPath ⟨point_a, point_b⟩

/-- objects.py:860-863 `nvectors` -/
def nvectors (P : PathRef) : M α (NRef × NRef) := do
  let o ← getPath P
  let a ← to_nvector o.point_a
  let b ← to_nvector o.point_b
  pure (a, b)

/-- objects.py:865-868 `geo_points` -/
def geo_points (P : PathRef) : M α (GRef × GRef) := do
  let o ← getPath P
  let a ← to_geo_point o.point_a
  let b ← to_geo_point o.point_b
  pure (a, b)

/-- objects.py:870-873 `ecef_vectors` -/
def ecef_vectors (P : PathRef) : M α (ERef × ERef) := do
  let o ← getPath P
  let a ← to_ecef_vector o.point_a
  let b ← to_ecef_vector o.point_b
  pure (a, b)

/-- objects.py:880-883 `_get_average_radius` -/
def average_radius (P : PathRef) : M α ARef := do
  let (p_E1_E, p_E2_E) ← ecef_vectors P
  let l1 ← readA (← ecef_length p_E1_E)
  let l2 ← readA (← ecef_length p_E2_E)
  allocE do pure ((← ND.map2 (· + ·) l1 l2).map (· / lit 2))

/-- `radius` if given, else the average radius (objects.py:907-908, 931-932, 992-993) -/
def radiusOr (P : PathRef) : Option ARef → M α ARef
  | some r => pure r
  | none => average_radius P

omit [PyFloat α] in
/-- a view on the first element if a condition holds (numpy, for objects.py:688, 701, 714) -/
def firstIf (c : Bool) (r : ARef) : M α ARef := if c then lift (r.row 0) else pure r

/-- objects.py:885-914 `cross_track_distance(point, method='greatcircle', radius=None)` -/
def path_cross_track_distance (P : PathRef) (point : PosRef) (method : String) (radius : Option ARef) : M α ARef := do
  let radius ← radiusOr P radius
  let (n_a, n_b) ← nvectors P
  let n_c ← to_nvector point
  let a ← getNvec n_a
  let b ← getNvec n_b
  let c ← getNvec n_c
  let distance ← cross_track_distance a.normal b.normal c.normal method radius
  firstIf (radius.shape = [] ∧ ND.prod distance.shape = 1) distance

/-- objects.py:916-939 `track_distance(method='greatcircle', radius=None)` -/
def track_distance (G : Geodesic α) (P : PathRef) (method : String) (radius : Option ARef) : M α ARef :=
  if strTake method 2 = "ex" ∨ strTake method 2 = "el" then do
    let (point_a, point_b) ← geo_points P
    let (s_ab, _, _) ← distance_and_azimuth G point_a (.geo point_b) false false "ellipsoid"
    pure s_ab
  else do
    let radius ← radiusOr P radius
    let (n_a, n_b) ← nvectors P
    let a ← getNvec n_a
    let b ← getNvec n_b
    let distance ← if strTake method 2 = "eu" then euclidean_distance a.normal b.normal radius
      else great_circle_distance a.normal b.normal radius
    firstIf (radius.shape = []) distance

/-- objects.py:1156-1174 `interpolate(ti)`: the attribute `normal` of the new `Nvector` is assigned -/
def path_interpolate (P : PathRef) (ti : ARef) : M α NRef := do
  let (point_a, point_b) ← nvectors P
  let d ← nvec_sub point_b point_a
  let t ← nvec_mul d ti
  let point_c ← nvec_add point_a t
  let c ← getNvec point_c
  let normal ← unit c.normal nan
  setNormal point_c normal
  pure point_c

omit [PyFloat α] in
/-- the attribute `frame` when it is a `FrameE`; a local frame has no attribute `Nvector` (objects.py:959, 966) -/
def frameOf : PosRef → M α (FrameE α)
  | .geo p => do pure (← getGeo p).frame
  | .nvec p => do pure (← getNvec p).frame
  | .ecef p => do pure (← getEcef p).frame
  | .pvec _ => throw .AttributeError

/-- objects.py:941-966 `intersect(path)` -/
def path_intersect (P Q : PathRef) : M α NRef := do
  let (a1, a2) ← nvectors P
  let (b1, b2) ← nvectors Q
  let a1 ← getNvec a1
  let a2 ← getNvec a2
  let b1 ← getNvec b1
  let b2 ← getNvec b2
  let normal_c ← intersect a1.normal a2.normal b1.normal b2.normal
  let z1 ← readA a1.z
  let z2 ← readA a2.z
  let z3 ← readA b1.z
  let z4 ← readA b2.z
  let depth ← allocE do pure ((← ND.map2 (· + ·) (← ND.map2 (· + ·) (← ND.map2 (· + ·) z1 z2) z3) z4).map (· / lit 4))
  let o ← getPath P
  let frame ← frameOf o.point_a
  newNvec ⟨normal_c, depth, frame⟩

/-- objects.py:972-981 `_on_ellipsoid_path(point, rtol=1e-6, atol=1e-8)` -/
def on_ellipsoid_path (G : Geodesic α) (P : PathRef) (point : PosRef) (rtol atol : α) : M α (Arr Bool) := do
  let (a, b) ← geo_points P
  let c ← to_geo_point point
  let oa ← getGeo a
  let ob ← getGeo b
  let oc ← getGeo c
  let za ← readA oa.z
  let zb ← readA ob.z
  let zc ← readA oc.z
  let z := (← lift (ND.map2 (· + ·) za zb)).map (· * lit 0.5)
  let (distance_ab, azimuth_ab, _) ← distance_and_azimuth G a (.geo b) false false "ellipsoid"
  let (distance_ac, azimuth_ac, _) ← distance_and_azimuth G a (.geo c) false false "ellipsoid"
  let distance_ab ← readA distance_ab
  let azimuth_ab ← readA azimuth_ab
  let distance_ac ← readA distance_ac
  let azimuth_ac ← readA azimuth_ac
  lift do
    let same_z ← ND.map2 (fun x y => isclose x y rtol atol) z zc
    let same := distance_ac.map fun x => isclose x (lit 0) (atol := atol)
    let shorter ← ND.map2 (fun x y => le y x) distance_ab distance_ac
    let close ← ND.map2 (fun x y => isclose x y rtol atol) azimuth_ac azimuth_ab
    ND.map2 (· && ·) same_z (← ND.map2 (· || ·) same (← ND.map2 (· && ·) shorter close))

/-- objects.py:983-989 `on_great_circle(point, atol=1e-8)` -/
def path_on_great_circle (P : PathRef) (point : PosRef) (atol : α) : M α (Arr Bool) := do
  let d ← readA (← path_cross_track_distance P point "greatcircle" none)
  let distance := d.map PyFloat.abs
  pure (distance.map fun x => isclose x (lit 0) (atol := atol))

/-- objects.py:991-1001 `_on_great_circle_path(point, radius=None, rtol=1e-9, atol=1e-8)` -/
def path_on_great_circle_path (P : PathRef) (point : PosRef) (radius : Option ARef) (rtol atol : α) : M α (Arr Bool) := do
  let radius ← radiusOr P radius
  let (n_a, n_b) ← nvectors P
  let n_c ← to_nvector point
  let a ← getNvec n_a
  let b ← getNvec n_b
  let c ← getNvec n_c
  let za ← readA a.z
  let zb ← readA b.z
  let zc ← readA c.z
  let z := (← lift (ND.map2 (· + ·) za zb)).map (· * lit 0.5)
  let same_z ← lift (ND.map2 (fun x y => isclose x y rtol atol) zc z)
  let g ← on_great_circle_path a.normal b.normal c.normal radius atol
  let result ← lift (ND.map2 (· && ·) g same_z)
  if radius.shape = [] ∧ ND.prod result.shape = 1 then lift (result.row 0) else pure result

/-- objects.py:1003-1051 `on_path(point, method='greatcircle', rtol=1e-6, atol=1e-8)` -/
def on_path (G : Geodesic α) (P : PathRef) (point : PosRef) (method : String) (rtol atol : α) : M α (Arr Bool) :=
  if strTake method 2 = "ex" ∨ strTake method 2 = "el" then on_ellipsoid_path G P point rtol atol
  else path_on_great_circle_path P point none rtol atol

/-- objects.py:1054-1060 `_closest_point_on_great_circle(point)` -/
def closest_nvector (P : PathRef) (point : PosRef) : M α NRef := do
  let point_c ← to_nvector point
  let (point_a, point_b) ← nvectors P
  let a ← getNvec point_a
  let b ← getNvec point_b
  let za ← readA a.z
  let zb ← readA b.z
  let z ← allocE do pure ((← ND.map2 (· + ·) za zb).map (· * lit 0.5))
  let c ← getNvec point_c
  let normal_d ← closest_point_on_great_circle a.normal b.normal c.normal
  newNvec ⟨normal_d, z, c.frame⟩

/-- objects.py:1062-1101 `closest_point_on_great_circle(point)` -/
def path_closest_point_on_great_circle (P : PathRef) (point : PosRef) : M α GRef := do
  nvec_to_geo_point (← closest_nvector P point)

/-- objects.py:1103-1154 `closest_point_on_path(point)` and `_closest_point_on_path` -/
def closest_point_on_path (P : PathRef) (point : PosRef) : M α GRef := do
  let point_c ← closest_nvector P point
  let on ← path_on_great_circle_path P (.nvec point_c) none (lit 1e-6) (lit 1e-8)
  if ← lift (ND.truth on) then nvec_to_geo_point point_c
  else
    let n0 ← getNvec (← to_nvector point)
    let (a, b) ← nvectors P
    let n1 ← getNvec a
    let n2 ← getNvec b
    let radius ← average_radius P
    let d1 ← readA (← great_circle_distance n1.normal n0.normal radius)
    let d2 ← readA (← great_circle_distance n2.normal n0.normal radius)
    let o ← getPath P
    if ← lift (do ND.truth (← ND.map2 lt d1 d2)) then to_geo_point o.point_a else to_geo_point o.point_b

end Nv.Mem
