import Verif.Model.Rotation

/-!
# Model of `/repo/src/nvector/core.py` (one column at a time)
-/

namespace Nv

section
variable {α : Type} [PyFloat α]
open PyFloat

/-- default semi-major axis, core.py:76 `a=6378137` -/
def a_WGS84 : α := lit 6378137
/-- default flattening, core.py:76 `f=1.0 / 298.257223563` -/
def f_WGS84 : α := lit 1 / lit 298.257223563
/-- default sphere radius, core.py:530 `radius=6371009.0` -/
def radius_default : α := lit 6371009

/-- core.py:45-72 `lat_lon2n_E(latitude, longitude, R_Ee=None)` -/
def lat_lon2n_E (latitude longitude : α) (R_Ee : M3 α := R_e) : V3 α :=
  let nvec : V3 α := ⟨sin latitude, sin longitude * cos latitude, -cos longitude * cos latitude⟩
  mulVec (tr R_Ee) nvec

/-- core.py:76-142 `n_EB_E2p_EB_E(n_EB_E, depth=0, a, f, R_Ee)` -/
def n_EB_E2p_EB_E (n_EB_E : V3 α) (depth : α := lit 0) (a : α := a_WGS84) (f : α := f_WGS84)
    (R_Ee : M3 α := R_e) : V3 α :=
  let n_EB_e := unit (mulVec R_Ee n_EB_E)
  let b := a * (lit 1 - f)
  let scale : V3 α := ⟨lit 1, lit 1 - f, lit 1 - f⟩
  let denominator := norm3 (ediv3 n_EB_e scale)
  let s := b / denominator
  let p_EL_e : V3 α := ⟨s * n_EB_e.x / powNat scale.x 2, s * n_EB_e.y / powNat scale.y 2,
    s * n_EB_e.z / powNat scale.z 2⟩
  mulVec (tr R_Ee) (sub3 p_EL_e (scale3 n_EB_e depth))

/-- core.py:145-147 `_eccentricity2(f)` -/
def eccentricity2 (f : α) : α := (lit 2 - f) * f

/-- core.py:150-160 `_compute_k(a, e_2, q, Ryz_2)`; `a` and `e_2` are Python floats, the others arrays -/
def compute_k (a e_2 q Ryz_2 : α) : α :=
  let p := Ryz_2 / powi a 2
  let r := (p + q - powi e_2 2) / lit 6
  let s := powi e_2 2 * p * q / (lit 4 * powNat r 3)
  let t := nthroot (lit 1 + s + sqrt (s * (lit 2 + s))) 3
  let u := r * (lit 1 + t + lit 1 / t)
  let v := sqrt (powNat u 2 + powi e_2 2 * q)
  let w := e_2 * (u + v - q) / (lit 2 * v)
  sqrt (u + v + powNat w 2) - w

/-- core.py:163-176 `_equation23(a, f, p_EB_E)`, returns `(x_scale, yz_scale, depth)` -/
def equation23 (a f : α) (p_EB_E : V3 α) : α × α × α :=
  let Ryz_2 := powNat p_EB_E.y 2 + powNat p_EB_E.z 2
  let Rx_2 := powNat p_EB_E.x 2
  let e_2 := eccentricity2 f
  let q := (lit 1 - e_2) / powi a 2 * Rx_2
  let Ryz := sqrt Ryz_2
  let k := compute_k a e_2 q Ryz_2
  let d := k * Ryz / (k + e_2)
  let temp0 := sqrt (powNat d 2 + Rx_2)
  let height := (k + e_2 - lit 1) / k * temp0
  let x_scale := lit 1 / temp0
  let yz_scale := x_scale * k / (k + e_2)
  (x_scale, yz_scale, -height)

/-- core.py:180-244 `p_EB_E2n_EB_E(p_EB_E, a, f, R_Ee)`, returns `(n_EB_E, depth)` -/
def p_EB_E2n_EB_E (p_EB_E : V3 α) (a : α := a_WGS84) (f : α := f_WGS84) (R_Ee : M3 α := R_e) : V3 α × α :=
  let p_EB_e := mulVec R_Ee p_EB_E
  let eq23 := equation23 a f p_EB_e
  let x_scale := eq23.1
  let yz_scale := eq23.2.1
  let depth := eq23.2.2
  let n_EB_e : V3 α := ⟨x_scale * p_EB_e.x, yz_scale * p_EB_e.y, yz_scale * p_EB_e.z⟩
  let n_EB_E := unit (mulVec (tr R_Ee) n_EB_e)
  (n_EB_E, depth)

/-- core.py:248-298 `n_EA_E_and_n_EB_E2p_AB_E(n_EA_E, n_EB_E, z_EA, z_EB, a, f, R_Ee)` -/
def n_EA_E_and_n_EB_E2p_AB_E (n_EA_E n_EB_E : V3 α) (z_EA z_EB : α := lit 0) (a : α := a_WGS84)
    (f : α := f_WGS84) (R_Ee : M3 α := R_e) : V3 α :=
  let p_EA_E := n_EB_E2p_EB_E n_EA_E z_EA a f R_Ee
  let p_EB_E := n_EB_E2p_EB_E n_EB_E z_EB a f R_Ee
  sub3 p_EB_E p_EA_E

/-- core.py:302-354 `n_EA_E_and_p_AB_E2n_EB_E(n_EA_E, p_AB_E, z_EA, a, f, R_Ee)`, returns `(n_EB_E, z_EB)` -/
def n_EA_E_and_p_AB_E2n_EB_E (n_EA_E p_AB_E : V3 α) (z_EA : α := lit 0) (a : α := a_WGS84) (f : α := f_WGS84)
    (R_Ee : M3 α := R_e) : V3 α × α :=
  let p_EA_E := n_EB_E2p_EB_E n_EA_E z_EA a f R_Ee
  let p_EB_E := add3 p_EA_E p_AB_E
  p_EB_E2n_EB_E p_EB_E a f R_Ee

/-- core.py:434-460 `interpolate(path, ti)` -/
def interpolate (path : V3 α × V3 α) (ti : α) : V3 α :=
  unit (add3 path.1 (scale3 (sub3 path.2 path.1) ti)) nan

/-- core.py:464-503 `intersect(path_a, path_b)` -/
def intersect (path_a path_b : V3 α × V3 α) : V3 α :=
  let n_EC_E_tmp := unit (cross3 (cross3 path_a.1 path_a.2) (cross3 path_b.1 path_b.2)) nan
  scale3 n_EC_E_tmp (sign (dot3 n_EC_E_tmp path_a.1))

/-- core.py:500-502: the warning of `intersect`, issued when any component is NaN -/
def intersect_warns (path_a path_b : V3 α × V3 α) : Bool :=
  let c := intersect path_a path_b
  isnan c.x || isnan c.y || isnan c.z

/-- core.py:506-516 `great_circle_normal(n_EA_E, n_EB_E)` -/
def great_circle_normal (n_EA_E n_EB_E : V3 α) : V3 α := unit (cross3 n_EA_E n_EB_E) nan

/-- core.py:519-520 -/
def euclidean_cross_track_distance (sin_theta : α) (radius : α := lit 1) : α := sin_theta * radius
/-- core.py:523-524 -/
def great_circle_cross_track_distance (sin_theta : α) (radius : α := lit 1) : α := arcsin sin_theta * radius

/-- core.py:530-563 `cross_track_distance(path, n_EB_E, method='greatcircle', radius)`.
`method[0]` raises `IndexError` for the empty string. -/
def cross_track_distance (path : V3 α × V3 α) (n_EB_E : V3 α) (method : String := "greatcircle")
    (radius : α := radius_default) : Except PyErr α :=
  let c_E := great_circle_normal path.1 path.2
  let sin_theta := -(dot3 c_E n_EB_E)
  match method.toList with
  | [] => .error .IndexError
  | m :: _ =>
    if m.toLower = 'e' then .ok (euclidean_cross_track_distance sin_theta radius)
    else .ok (great_circle_cross_track_distance sin_theta radius)

/-- core.py:601 `np.abs(cross_track_distance(path, n_EB_E, radius=radius))` with the default method -/
def abs_cross_track (path : V3 α × V3 α) (n_EB_E : V3 α) (radius : α) : α :=
  match cross_track_distance path n_EB_E (radius := radius) with
  | .ok d => abs d
  | .error _ => nan

/-- core.py:567-602 `on_great_circle(path, n_EB_E, radius, atol=1e-8)` -/
def on_great_circle (path : V3 α × V3 α) (n_EB_E : V3 α) (radius : α := radius_default)
    (atol : α := lit 1e-8) : Bool :=
  le (abs_cross_track path n_EB_E radius) atol

/-- core.py:606-644 `on_great_circle_path(path, n_EB_E, radius, atol=1e-8)` -/
def on_great_circle_path (path : V3 α × V3 α) (n_EB_E : V3 α) (radius : α := radius_default)
    (atol : α := lit 1e-8) : Bool :=
  let scale := norm3 (sub3 path.2 path.1)
  let ti1 := norm3 (sub3 n_EB_E path.1) / scale
  let ti2 := norm3 (sub3 n_EB_E path.2) / scale
  le ti1 (lit 1) && le ti2 (lit 1) && on_great_circle path n_EB_E radius atol

/-- core.py:648-674 `closest_point_on_great_circle(path, n_EB_E)` -/
def closest_point_on_great_circle (path : V3 α × V3 α) (n_EB_E : V3 α) : V3 α :=
  let c_E := great_circle_normal path.1 path.2
  let c2 := cross3 n_EB_E c_E
  let n_EC_E := unit (cross3 c_E c2)
  scale3 n_EC_E (sign (dot3 n_EC_E n_EB_E))

/-- core.py:678-711 `great_circle_distance(n_EA_E, n_EB_E, radius)` -/
def great_circle_distance (n_EA_E n_EB_E : V3 α) (radius : α := radius_default) : α :=
  let sin_theta := norm3 (cross3 n_EA_E n_EB_E)
  let cos_theta := dot3 n_EA_E n_EB_E
  arctan2 sin_theta cos_theta * radius

/-- core.py:715-731 `euclidean_distance(n_EA_E, n_EB_E, radius)` -/
def euclidean_distance (n_EA_E n_EB_E : V3 α) (radius : α := radius_default) : α :=
  norm3 (sub3 n_EB_E n_EA_E) * radius

/-- core.py:734-776 `n_EA_E_and_n_EB_E2azimuth(n_EA_E, n_EB_E, a, f, R_Ee)` -/
def n_EA_E_and_n_EB_E2azimuth (n_EA_E n_EB_E : V3 α) (a : α := a_WGS84) (f : α := f_WGS84)
    (R_Ee : M3 α := R_e) : α :=
  let p_AB_E := n_EA_E_and_n_EB_E2p_AB_E n_EA_E n_EB_E (lit 0) (lit 0) a f R_Ee
  let R_EN := n_E2R_EN n_EA_E R_Ee
  let p_AB_N := mulVec (tr R_EN) p_AB_E
  arctan2 p_AB_N.y p_AB_N.x

/-- core.py:780-819 `n_EA_E_distance_and_azimuth2n_EB_E(n_EA_E, distance_rad, azimuth, R_Ee)` -/
def n_EA_E_distance_and_azimuth2n_EB_E (n_EA_E : V3 α) (distance_rad azimuth : α) (R_Ee : M3 α := R_e) : V3 α :=
  let k_east_E := unit (cross3 (mulVec (tr R_Ee) ⟨lit 1, lit 0, lit 0⟩) n_EA_E)
  let k_north_E := cross3 n_EA_E k_east_E
  let d_E := add3 (scale3 k_north_E (cos azimuth)) (scale3 k_east_E (sin azimuth))
  add3 (scale3 n_EA_E (cos distance_rad)) (scale3 d_E (sin distance_rad))

/-- core.py:823-847 `mean_horizontal_position(n_EB_E)`; the array is the list of its columns -/
def mean_horizontal_position (n_EB_E : List (V3 α)) : V3 α :=
  unit (n_EB_E.foldl add3 ⟨lit 0, lit 0, lit 0⟩)

end

end Nv
