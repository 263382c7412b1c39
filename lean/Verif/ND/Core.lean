import Verif.ND.Array

/-!
# Array level model of `core.py`, `rotation.py` and `util.unit`

The same functions as in `Verif.Model.*`, statement by statement, on whole arrays.  The element type is any `PyFloat`.
`R_Ee` is always a `3 x 3` array, `a` and `f` are scalars (the documented types); all others are arrays of any shape.
-/

namespace Nv.ND

section
variable {α : Type} [PyFloat α]
open PyFloat

/-- util.py:476-510 `unit(vector, norm_zero_vector=1)` for a 2-d array.  The two assignments through the index list
`idx = flatnonzero(current_norm == 0)` overwrite exactly the columns whose norm is zero. -/
def unit (vector : Arr α) (norm_zero_vector : α := lit 1) : Except PyErr (Arr α) := do
  let current_norm ← norm0k vector
  let unit_vector ← map2 (· / ·) vector (current_norm.map addTiny)
  match vector.shape with
  | [_, _] => pure ⟨unit_vector.shape, fun idx => match idx with
    | i :: j :: r =>
      if eq (current_norm.get [0, j]) (lit 0) then
        (if i = 0 then lit 1 * norm_zero_vector else lit 0 * norm_zero_vector)
      else unit_vector.get (i :: j :: r)
    | r => unit_vector.get r⟩
  | _ => .error .IndexError

/-- util.py:242-257 `_check_length_deviation(n_E)`: reading `n_E[:, 0]` raises `IndexError` when there is no column.
The warning is modelled at column level (`Nv.check_length_deviation`). -/
def check_length_deviation (n_E : Arr α) : Except PyErr Unit :=
  match n_E.shape with
  | [_, 0] => .error .IndexError
  | [_, _] => .ok ()
  | _ => .error .IndexError

/-- core.py:45-72 `lat_lon2n_E` -/
def lat_lon2n_E (latitude longitude : Arr α) (R_Ee : M3 α := R_e) : Except PyErr (Arr α) := do
  let y ← map2 (· * ·) (longitude.map sin) (latitude.map cos)
  let z ← map2 (· * ·) (longitude.map (fun x => -cos x)) (latitude.map cos)
  let nvec ← vstack3 (latitude.map sin) y z
  dot (ofM3 R_Ee).T nvec

/-- core.py:76-142 `n_EB_E2p_EB_E` -/
def n_EB_E2p_EB_E (n_EB_E depth : Arr α) (a f : α) (R_Ee : M3 α := R_e) : Except PyErr (Arr α) := do
  check_length_deviation n_EB_E
  let n_EB_e ← unit (← dot (ofM3 R_Ee) n_EB_E)
  let b := a * (lit 1 - f)
  let scale ← vstack3 (scalar (lit 1)) (scalar (lit 1 - f)) (scalar (lit 1 - f))
  let denominator ← norm0k (← map2 (· / ·) n_EB_e scale)
  let s ← map2 (· / ·) (scalar b) denominator
  let q ← map2 (· * ·) s n_EB_e
  let p_EL_e ← map2 (· / ·) q (scale.map (powNat · 2))
  let d ← map2 (· * ·) n_EB_e depth
  dot (ofM3 R_Ee).T (← map2 (· - ·) p_EL_e d)

/-- core.py:150-176 `_compute_k` and `_equation23` on one element of the vectors: all operations are elementwise on
vectors of equal length.  Returns three vectors. -/
def equation23 (a f : α) (p : Arr α) : Except PyErr (Arr α × Arr α × Arr α) := do
  let x ← p.row 0
  let y ← p.row 1
  let z ← p.row 2
  let e : List ℕ → α × α × α := fun i => Nv.equation23 a f ⟨x.get i, y.get i, z.get i⟩
  pure (⟨x.shape, fun i => (e i).1⟩, ⟨x.shape, fun i => (e i).2.1⟩, ⟨x.shape, fun i => (e i).2.2⟩)

/-- core.py:180-244 `p_EB_E2n_EB_E`, returns `(n_EB_E, depth)` -/
def p_EB_E2n_EB_E (p_EB_E : Arr α) (a f : α) (R_Ee : M3 α := R_e) : Except PyErr (Arr α × Arr α) := do
  let p_EB_e ← dot (ofM3 R_Ee) p_EB_E
  let (x_scale, yz_scale, depth) ← equation23 a f p_EB_e
  let n_EB_e_x ← map2 (· * ·) x_scale (← p_EB_e.row 0)
  let n_EB_e_y ← map2 (· * ·) yz_scale (← p_EB_e.row 1)
  let n_EB_e_z ← map2 (· * ·) yz_scale (← p_EB_e.row 2)
  let n_EB_e ← vstack3 n_EB_e_x n_EB_e_y n_EB_e_z
  let n_EB_E ← unit (← dot (ofM3 R_Ee).T n_EB_e)
  pure (n_EB_E, depth)

/-- core.py:248-298 `n_EA_E_and_n_EB_E2p_AB_E` -/
def n_EA_E_and_n_EB_E2p_AB_E (n_EA_E n_EB_E z_EA z_EB : Arr α) (a f : α) (R_Ee : M3 α := R_e) : Except PyErr (Arr α) := do
  let p_EA_E ← n_EB_E2p_EB_E n_EA_E z_EA a f R_Ee
  let p_EB_E ← n_EB_E2p_EB_E n_EB_E z_EB a f R_Ee
  map2 (· - ·) p_EB_E p_EA_E

/-- core.py:302-354 `n_EA_E_and_p_AB_E2n_EB_E` -/
def n_EA_E_and_p_AB_E2n_EB_E (n_EA_E p_AB_E z_EA : Arr α) (a f : α) (R_Ee : M3 α := R_e) : Except PyErr (Arr α × Arr α) := do
  let p_EA_E ← n_EB_E2p_EB_E n_EA_E z_EA a f R_Ee
  let p_EB_E ← map2 (· + ·) p_EA_E p_AB_E
  p_EB_E2n_EB_E p_EB_E a f R_Ee

/-- core.py:434-460 `interpolate(path, ti)` -/
def interpolate (n_EB_E_t0 n_EB_E_t1 ti : Arr α) : Except PyErr (Arr α) := do
  let d ← map2 (fun t x => x * t) ti (← map2 (· - ·) n_EB_E_t1 n_EB_E_t0)
  unit (← map2 (· + ·) n_EB_E_t0 d) nan

/-- core.py:464-503 `intersect(path_a, path_b)` -/
def intersect (n_EA1_E n_EA2_E n_EB1_E n_EB2_E : Arr α) : Except PyErr (Arr α) := do
  let n_EC_E_tmp ← unit (← cross0 (← cross0 n_EA1_E n_EA2_E) (← cross0 n_EB1_E n_EB2_E)) nan
  map2 (fun s x => x * s) ((← dot n_EC_E_tmp.T n_EA1_E).map sign) n_EC_E_tmp

/-- core.py:506-516 `great_circle_normal` -/
def great_circle_normal (n_EA_E n_EB_E : Arr α) : Except PyErr (Arr α) := do unit (← cross0 n_EA_E n_EB_E) nan

/-- core.py:530-563 `cross_track_distance(path, n_EB_E, method, radius)` -/
def cross_track_distance (n_EA1_E n_EA2_E n_EB_E : Arr α) (method : String := "greatcircle") (radius : α) :
    Except PyErr (Arr α) := do
  let c_E ← great_circle_normal n_EA1_E n_EA2_E
  let sin_theta := (((← dot c_E.T n_EB_E).map (fun x => -x)).ravel : Arr α)
  match method.toList with
  | [] => .error .IndexError
  | m :: _ =>
    if m.toLower = 'e' then pure (sin_theta.map (euclidean_cross_track_distance · radius))
    else pure (sin_theta.map (great_circle_cross_track_distance · radius))

/-- core.py:567-602 `on_great_circle(path, n_EB_E, radius, atol)` -/
def on_great_circle (n_EA1_E n_EA2_E n_EB_E : Arr α) (radius atol : α) : Except PyErr (Arr Bool) := do
  let distance := (← cross_track_distance n_EA1_E n_EA2_E n_EB_E (radius := radius)).map PyFloat.abs
  pure (distance.map (le · atol))

/-- core.py:606-644 `on_great_circle_path(path, n_EB_E, radius, atol)` -/
def on_great_circle_path (n_EA1_E n_EA2_E n_EB_E : Arr α) (radius atol : α) : Except PyErr (Arr Bool) := do
  let scale ← norm0 (← map2 (· - ·) n_EA2_E n_EA1_E)
  let ti1 ← map2 (· / ·) (← norm0 (← map2 (· - ·) n_EB_E n_EA1_E)) scale
  let ti2 ← map2 (· / ·) (← norm0 (← map2 (· - ·) n_EB_E n_EA2_E)) scale
  let m ← map2 (· && ·) (ti1.map (le · (lit 1))) (ti2.map (le · (lit 1)))
  map2 (· && ·) m (← on_great_circle n_EA1_E n_EA2_E n_EB_E radius atol)

/-- core.py:648-674 `closest_point_on_great_circle(path, n_EB_E)` -/
def closest_point_on_great_circle (n_EA1_E n_EA2_E n_EB_E : Arr α) : Except PyErr (Arr α) := do
  let c_E ← great_circle_normal n_EA1_E n_EA2_E
  let c2 ← cross0 n_EB_E c_E
  let n_EC_E ← unit (← cross0 c_E c2)
  map2 (· * ·) n_EC_E ((← dot n_EC_E.T n_EB_E).map sign)

/-- core.py:678-711 `great_circle_distance` -/
def great_circle_distance (n_EA_E n_EB_E : Arr α) (radius : α) : Except PyErr (Arr α) := do
  let sin_theta ← norm0 (← cross0 n_EA_E n_EB_E)
  let cos_theta ← dot n_EA_E.T n_EB_E
  let theta := (← map2 arctan2 sin_theta cos_theta).ravel
  pure (theta.map (· * radius))

/-- core.py:715-731 `euclidean_distance` -/
def euclidean_distance (n_EA_E n_EB_E : Arr α) (radius : α) : Except PyErr (Arr α) := do
  pure ((← norm0 (← map2 (· - ·) n_EB_E n_EA_E)).ravel.map (· * radius))

/-- rotation.py:386-423 `n_E2lat_lon`, returns `(latitude, longitude)` -/
def n_E2lat_lon (n_E : Arr α) (R_Ee : M3 α := R_e) : Except PyErr (Arr α × Arr α) := do
  check_length_deviation n_E
  let n_E0 ← dot (ofM3 R_Ee) n_E
  let y ← n_E0.row 1
  let z ← n_E0.row 2
  let longitude ← map2 arctan2 y (z.map (fun x => -x))
  let equatorial_component := (← map2 (· + ·) (y.map (powNat · 2)) (z.map (powNat · 2))).map sqrt
  let latitude ← map2 arctan2 (← n_E0.row 0) equatorial_component
  pure (latitude, longitude)

/-- rotation.py:458-460 `Ny_E[:, on_poles] = [[0], [1], [0]]` with `on_poles = flatnonzero(nrm == 0)`: exactly the columns
whose East direction has norm zero are overwritten -/
def setOnPoles (u nrm : Arr α) : Arr α := ⟨u.shape, fun idx => match idx with
  | i :: j :: r => if eq (nrm.get [j]) (lit 0) then (if i = 1 then lit 1 else lit 0) else u.get (i :: j :: r)
  | r => u.get r⟩

/-- rotation.py:426-474 `n_E2R_EN` -/
def n_E2R_EN (n_E : Arr α) (R_Ee : M3 α := R_e) : Except PyErr (Arr α) := do
  check_length_deviation n_E
  let n_E ← unit (← dot (ofM3 R_Ee) n_E)
  let Nz_E := n_E.map (fun x => -x)
  let Ny_E_direction ← cross0 (ofV3 ⟨lit 1, lit 0, lit 0⟩) n_E
  let nrm ← norm0 Ny_E_direction
  let Ny_E := setOnPoles (← unit Ny_E_direction) nrm
  let Nx_E ← cross0 Ny_E Nz_E
  let Nxyz_E ← hstack3 (← Nx_E.newaxis1) (← Ny_E.newaxis1) (← Nz_E.newaxis1)
  let R_EN ← mdot (← swapaxes01 (ofM3 R_Ee)) Nxyz_E
  pure R_EN.squeeze

/-- entry `i, j` of a matrix (numpy, for rotation.py:298-306) -/
def M3.entry (M : M3 α) (i j : ℕ) : α :=
  let r := if i = 0 then M.r0 else if i = 1 then M.r1 else M.r2
  if j = 0 then r.x else if j = 1 then r.y else r.z

/-- rotation.py:233-254 `_atleast_3d` and the construction of the array of matrices in `xyz2R`/`zyx2R` (rotation.py:297-306,
374-383): the angles are broadcast to a shape `s` of at least one dimension, the entries are computed elementwise and
stored with the shape `(3, 3, 1, 1) + s`, then `np.squeeze` removes the axes of length one. -/
def matrices (build : α → α → α → M3 α) (x y z : Arr α) : Except PyErr (Arr α) := do
  let xy ← bshape x.shape y.shape
  let s ← bshape xy z.shape
  let s := if s = [] then [1] else s
  let R_AB : Arr α := ⟨3 :: 3 :: 1 :: 1 :: s, fun idx =>
    let r := idx.drop 4
    M3.entry (build (x.get (bidx x.shape r)) (y.get (bidx y.shape r)) (z.get (bidx z.shape r))) (idx.getD 0 0) (idx.getD 1 0)⟩
  pure R_AB.squeeze

/-- rotation.py:257-306 `xyz2R(x, y, z)` -/
def xyz2R (x y z : Arr α) : Except PyErr (Arr α) := matrices Nv.xyz2R x y z
/-- rotation.py:309-383 `zyx2R(z, y, x)` -/
def zyx2R (z y x : Arr α) : Except PyErr (Arr α) := matrices (fun x y z => Nv.zyx2R z y x) x y z

/-- rotation.py:477-510 `n_E_and_wa2R_EL` -/
def n_E_and_wa2R_EL (n_E wander_azimuth : Arr α) (R_Ee : M3 α := R_e) : Except PyErr (Arr α) := do
  let (latitude, longitude) ← n_E2lat_lon n_E R_Ee
  let R_EL ← mdot (ofM3 R_Ee).T (← xyz2R longitude (latitude.map (fun x => -x)) wander_azimuth)
  pure R_EL.squeeze

/-- rotation.py:186-207 `R_EL2n_E` -/
def R_EL2n_E (R_EL : Arr α) : Except PyErr (Arr α) := do
  let v ← vstack3 (scalar (lit 0)) (scalar (lit 0)) (scalar (lit (-1)))
  (← mdot R_EL v).reshape 3

/-- `R_AB[i, j, ...]` (rotation.py:125-135) -/
def Arr.at2 (A : Arr α) (i j : ℕ) : Except PyErr (Arr α) := do (← A.row i).row j

/-- rotation.py:86-137 `R2xyz(R_AB)` -/
def R2xyz (R_AB : Arr α) : Except PyErr (Arr α × Arr α × Arr α) := do
  let r00 ← Arr.at2 R_AB 0 0
  let r01 ← Arr.at2 R_AB 0 1
  let sin_y ← Arr.at2 R_AB 0 2
  let r12 ← Arr.at2 R_AB 1 2
  let r22 ← Arr.at2 R_AB 2 2
  let z ← map2 arctan2 (r01.map (fun x => -x)) r00
  let x ← map2 arctan2 (r12.map (fun x => -x)) r22
  let s1 ← map2 (· + ·) (r00.map (powNat · 2)) (r01.map (powNat · 2))
  let s2 ← map2 (· + ·) s1 (r12.map (powNat · 2))
  let s3 ← map2 (· + ·) s2 (r22.map (powNat · 2))
  let cos_y := s3.map (fun s => sqrt (s / lit 2))
  let y ← map2 arctan2 sin_y cos_y
  pure (x, y, z)

/-- rotation.py:140-183 `R2zyx(R_AB)`, returns `(z, y, x)` -/
def R2zyx (R_AB : Arr α) : Except PyErr (Arr α × Arr α × Arr α) := do
  let (x, y, z) ← R2xyz (← swapaxes01 R_AB)
  pure (z.map (fun x => -x), y.map (fun x => -x), x.map (fun x => -x))

/-- core.py:734-776 `n_EA_E_and_n_EB_E2azimuth` -/
def n_EA_E_and_n_EB_E2azimuth (n_EA_E n_EB_E : Arr α) (a f : α) (R_Ee : M3 α := R_e) : Except PyErr (Arr α) := do
  let p_AB_E ← n_EA_E_and_n_EB_E2p_AB_E n_EA_E n_EB_E (scalar (lit 0)) (scalar (lit 0)) a f R_Ee
  let R_EN ← n_E2R_EN n_EA_E R_Ee
  let p_AB_N ← (← mdot (← swapaxes01 R_EN) (← p_AB_E.newaxis1)).reshape 3
  map2 arctan2 (← p_AB_N.row 1) (← p_AB_N.row 0)

/-- core.py:780-819 `n_EA_E_distance_and_azimuth2n_EB_E` -/
def n_EA_E_distance_and_azimuth2n_EB_E (n_EA_E distance_rad azimuth : Arr α) (R_Ee : M3 α := R_e) : Except PyErr (Arr α) := do
  let k_east_E ← unit (← cross0 (← dot (ofM3 R_Ee).T (ofV3 ⟨lit 1, lit 0, lit 0⟩)) n_EA_E)
  let k_north_E ← cross0 n_EA_E k_east_E
  let d_E ← map2 (· + ·) (← map2 (· * ·) k_north_E (azimuth.map cos)) (← map2 (· * ·) k_east_E (azimuth.map sin))
  map2 (· + ·) (← map2 (· * ·) n_EA_E (distance_rad.map cos)) (← map2 (· * ·) d_E (distance_rad.map sin))

/-- `np.sum(A, axis=1)` (the accumulation starts at zero) (used in core.py:846, objects.py:587) -/
def sumAxis1 (A : Arr α) : Except PyErr (Arr α) :=
  match A.shape with
  | [m, n] => .ok ⟨[m], fun idx => match idx with
    | i :: _ => (List.range n).foldl (fun acc j => acc + A.get [i, j]) (lit 0)
    | _ => lit 0⟩
  | _ => .error .ValueError

/-- `A.reshape((3, 1))` (core.py:846, objects.py:587): unlike `reshape((3, -1))` it needs exactly three elements -/
def Arr.reshape31 (A : Arr α) : Except PyErr (Arr α) :=
  if prod A.shape = 3 then A.reshape 3 else .error .ValueError

/-- core.py:823-847 `mean_horizontal_position` -/
def mean_horizontal_position (n_EB_E : Arr α) : Except PyErr (Arr α) := do
  let s ← sumAxis1 n_EB_E
  unit (← s.reshape31)

end

end Nv.ND
