import Verif.Model.Access
import Verif.Model.Track
import Verif.ND.Objects

/-!
# Model of the worked examples of `/repo/src/nvector/_examples.py`

Every example of the documentation has an object-oriented and a functional solution.  Both are modelled as programs, with the numbers of the example
replaced by parameters; the text output is replaced by the values that are printed.
-/

namespace Nv.Examples
variable {α : Type} [PyFloat α]
open PyFloat

/-! ## Example 1: A and B to delta -/

/-- _examples.py:41-59 (object-oriented): delta in N, azimuth, elevation (degrees) and distance -/
def ex1_obj (latA lonA zA latB lonB zB : α) : Except PyErr (V3 α × α × α × α) := do
  let wgs84 ← FrameE.new (name := .str "WGS84")
  let pointA ← wgs84.GeoPoint latA lonA zA true
  let pointB ← wgs84.GeoPoint latB lonB zB true
  let p_AB_N ← delta_N (.geo pointA) (.geo pointB)
  pure (p_AB_N.pvector, azimuth_deg p_AB_N.pvector, elevation_deg p_AB_N.pvector, length p_AB_N.pvector)

/-- _examples.py:64-100 (functional) -/
def ex1_fun (latA lonA zA latB lonB zB : α) : V3 α × α × α × α :=
  let n_EA_E := lat_lon2n_E (deg2rad latA) (deg2rad lonA)
  let n_EB_E := lat_lon2n_E (deg2rad latB) (deg2rad lonB)
  let p_AB_E := n_EA_E_and_n_EB_E2p_AB_E n_EA_E n_EB_E zA zB
  let R_EN := n_E2R_EN n_EA_E
  let p_AB_N := mulVec (tr R_EN) p_AB_E
  let azimuth := arctan2 p_AB_N.y p_AB_N.x
  let distance := norm3 p_AB_N
  let elevation := arcsin (p_AB_N.z / distance)
  (p_AB_N, rad2deg azimuth, rad2deg elevation, distance)

/-! ## Example 2: B and delta to C -/

/-- _examples.py:125-150 (object-oriented) with the frame of line 130: latitude, longitude (degrees) and depth of C -/
def ex2_obj (a f : α) (v : V3 α) (z yaw pitch roll : α) (p : V3 α) : Except PyErr (α × α × α) := do
  let wgs72 ← FrameE.new (some a) (some f)
  let n_EB_E ← wgs72.Nvector (unit v) z
  let frame_B := FrameB (.nvec n_EB_E) yaw pitch roll true
  let p_BC_B := frame_B.Pvector p
  let p_BC_E := p_BC_B.to_ecef_vector
  let p_EB_E := n_EB_E.to_ecef_vector
  let p_EC_E ← p_EB_E.add p_BC_E
  let pointC := p_EC_E.to_geo_point
  pure pointC.latlon_deg

/-- _examples.py:154-188 (functional) -/
def ex2_fun (a f : α) (v : V3 α) (z yaw pitch roll : α) (p : V3 α) : α × α × α :=
  let n_EB_E := unit v
  let R_NB := zyx2R (deg2rad yaw) (deg2rad pitch) (deg2rad roll)
  let R_EN := n_E2R_EN n_EB_E
  let R_EB := mdot R_EN R_NB
  let p_BC_E := mulVec R_EB p
  let nz := n_EA_E_and_p_AB_E2n_EB_E n_EB_E p_BC_E z a f
  let ll := n_E2lat_lon nz.1
  (rad2deg ll.1, rad2deg ll.2, nz.2)

/-! ## Example 3: ECEF-vector to geodetic latitude -/

/-- _examples.py:208-219 (object-oriented): latitude, longitude (degrees) and depth -/
def ex3_obj (p : V3 α) : Except PyErr (α × α × α) := do
  let wgs84 ← FrameE.new (name := .str "WGS84")
  let p_EB_E ← wgs84.ECEFvector p
  let pointB := p_EB_E.to_geo_point
  pure pointB.latlon_deg

/-- _examples.py:223-240 (functional) -/
def ex3_fun (p : V3 α) : α × α × α :=
  let nz := p_EB_E2n_EB_E p (lit 6378137.0) (lit 1 / lit 298.257223563)
  let ll := n_E2lat_lon nz.1
  (rad2deg ll.1, rad2deg ll.2, nz.2)

/-! ## Example 4: geodetic latitude to ECEF-vector -/

/-- _examples.py:257-266 (object-oriented); the height enters as `z=-3`, here `-h` -/
def ex4_obj (lat lon h : α) : Except PyErr (V3 α) := do
  let wgs84 ← FrameE.new (name := .str "WGS84")
  let pointB ← wgs84.GeoPoint lat lon (-h) true
  let p_EB_E := pointB.to_ecef_vector
  pure p_EB_E.pvector

/-- _examples.py:270-282 (functional) -/
def ex4_fun (lat lon h : α) : V3 α :=
  let n_EB_E := lat_lon2n_E (deg2rad lat) (deg2rad lon)
  n_EB_E2p_EB_E n_EB_E (-h) (lit 6378137.0) (lit 1 / lit 298.257223563)

/-! ## Example 5: surface distance -/

/-- _examples.py:303-318 (object-oriented, sphere): great circle and Euclidean distance -/
def ex5_obj (G : Geodesic α) (r latA lonA latB lonB : α) : Except PyErr (α × α) := do
  let frame_E ← FrameE.new (some r) (some (lit 0))
  let positionA ← frame_E.GeoPoint latA lonA (degrees := true)
  let positionB ← frame_E.GeoPoint latB lonB (degrees := true)
  let (s_AB, _, _) ← positionA.distance_and_azimuth G (.geo positionB)
  let p_AB_E ← positionB.to_ecef_vector.sub positionA.to_ecef_vector
  pure (s_AB, length p_AB_E.pvector)

/-- _examples.py:320-325 (alternative sphere solution) -/
def ex5_alt (G : Geodesic α) (r latA lonA latB lonB : α) : Except PyErr (α × α) := do
  let frame_E ← FrameE.new (some r) (some (lit 0))
  let positionA ← frame_E.GeoPoint latA lonA (degrees := true)
  let positionB ← frame_E.GeoPoint latB lonB (degrees := true)
  let path : GeoPath α := ⟨.geo positionA, .geo positionB⟩
  let s_AB2 ← path.track_distance G "greatcircle"
  let d_AB2 ← path.track_distance G "euclidean"
  pure (s_AB2, d_AB2)

/-- _examples.py:341-357 (functional, sphere) -/
def ex5_fun (r latA lonA latB lonB : α) : α × α :=
  let n_EA_E := lat_lon2n_E (deg2rad latA) (deg2rad lonA)
  let n_EB_E := lat_lon2n_E (deg2rad latB) (deg2rad lonB)
  (great_circle_distance n_EA_E n_EB_E r, euclidean_distance n_EA_E n_EB_E r)

/-! ## Example 6: interpolated position -/

/-- _examples.py:389-407 (object-oriented): latitude and longitude in degrees -/
def ex6_obj (lat0 lon0 lat1 lon1 t0 t1 ti : α) : Except PyErr (α × α) := do
  let wgs84 ← FrameE.new (name := .str "WGS84")
  let n_EB_E_t0 := (← wgs84.GeoPoint lat0 lon0 (degrees := true)).to_nvector
  let n_EB_E_t1 := (← wgs84.GeoPoint lat1 lon1 (degrees := true)).to_nvector
  let path : GeoPath α := ⟨.nvec n_EB_E_t0, .nvec n_EB_E_t1⟩
  let ti_n := (ti - t0) / (t1 - t0)
  let g := (← path.interpolate ti_n).to_geo_point
  pure (g.latitude_deg, g.longitude_deg)

/-- _examples.py:420-438 (functional) -/
def ex6_fun (lat0 lon0 lat1 lon1 t0 t1 ti : α) : α × α :=
  let n0 := lat_lon2n_E (deg2rad lat0) (deg2rad lon0)
  let n1 := lat_lon2n_E (deg2rad lat1) (deg2rad lon1)
  let ti_n := (ti - t0) / (t1 - t0)
  let d := sub3 n1 n0
  let n := unit (add3 n0 ⟨ti_n * d.x, ti_n * d.y, ti_n * d.z⟩)
  let ll := n_E2lat_lon n
  (rad2deg ll.1, rad2deg ll.2)

/-- _examples.py:409-416 (object-oriented, vectorized): the positions and times of the whole track; the results are one per time.  The depths are the
default 0, one per position (objects.py:209) -/
def ex6_obj_vec (S : Scipy α (V3 α × α)) (lats lons t ti : List α) : Except PyErr (List (α × α)) := do
  let wgs84 ← FrameE.new (name := .str "WGS84")
  let points ← (lats.zip lons).mapM fun p => wgs84.GeoPoint p.1 p.2 (degrees := true)
  let nvectors := points.map GeoPoint.to_nvector
  let (normal, z) ← Nvector_interpolate S (nvectors.map Nvector.normal) (.vector (nvectors.map Nvector.z)) ti t "linear"
  pure ((normal.zip z).map fun p =>
    let g := Nvector.to_geo_point ⟨p.1, p.2, wgs84⟩
    (g.latitude_deg, g.longitude_deg))

/-- _examples.py:440-446 (functional, vectorized) -/
def ex6_fun_vec (S : Scipy α (V3 α)) (lats lons t ti : List α) : Except PyErr (List (α × α)) := do
  let nvectors := (lats.zip lons).map fun p => lat_lon2n_E (deg2rad p.1) (deg2rad p.2)
  let nvectors_i ← interp_nvectors S ti t nvectors "linear"
  pure (nvectors_i.map fun n => let ll := n_E2lat_lon n; (rad2deg ll.1, rad2deg ll.2))

/-! ## Example 7: mean position -/

open ND in
/-- _examples.py:465-476 (object-oriented): latitude and longitude (degrees) of the mean, as arrays -/
def ex7_obj (lat lon : Arr α) : Except PyErr (Arr α × Arr α) := do
  let frame ← FrameE.new
  let points ← ND.GeoPoint.new lat lon ⟨[], fun _ => lit 0⟩ frame true
  let nvectors ← points.to_nvector
  let n_EM_E ← nvectors.mean
  let g_EM_E ← n_EM_E.to_geo_point
  pure (g_EM_E.latitude.map rad2deg, g_EM_E.longitude.map rad2deg)

/-- _examples.py:481-491 and 496-499 (functional, first way): the n-vectors are added one after the other -/
def ex7_fun (n_first : V3 α) (rest : List (V3 α)) : α × α :=
  let n_EM_E := unit (rest.foldl add3 n_first)
  let ll := n_E2lat_lon n_EM_E
  (rad2deg ll.1, rad2deg ll.2)

/-- _examples.py:493-499 (functional, second way) -/
def ex7_fun' (ns : List (V3 α)) : α × α :=
  let n_EM_E := mean_horizontal_position ns
  let ll := n_E2lat_lon n_EM_E
  (rad2deg ll.1, rad2deg ll.2)

/-! ## Example 8: A and azimuth/distance to B -/

/-- _examples.py:528-551 (object-oriented, both methods): latitude, longitude and azimuth at B, in degrees.  (Line 546 prints the longitude of
the other solution, presumably by mistake; here it is the one of the method.) -/
def ex8_obj (G : Geodesic α) (r lat lon distance azimuth : α) (method : String) : Except PyErr (α × α × α) := do
  let frame ← FrameE.new (some r) (some (lit 0))
  let pointA ← frame.GeoPoint lat lon (degrees := true)
  let (pointB, azimuthb) ← pointA.displace G distance azimuth (method := method) (degrees := true)
  pure (pointB.latitude_deg, pointB.longitude_deg, azimuthb)

/-- _examples.py:556-573 (functional) -/
def ex8_fun (r lat lon s_AB azimuth : α) : α × α :=
  let n_EA_E := lat_lon2n_E (deg2rad lat) (deg2rad lon)
  let distance_rad := s_AB / r
  let n_EB_E := n_EA_E_distance_and_azimuth2n_EB_E n_EA_E distance_rad (deg2rad azimuth)
  let ll := n_E2lat_lon n_EB_E
  (rad2deg ll.1, rad2deg ll.2)

/-! ## Example 9: intersection of two paths -/

/-- _examples.py:596-611 (object-oriented): latitude and longitude of C in degrees -/
def ex9_obj (latA1 lonA1 latA2 lonA2 latB1 lonB1 latB2 lonB2 : α) : Except PyErr (α × α) := do
  let pointA1 ← GeoPoint.create latA1 lonA1 (degrees := true)
  let pointA2 ← GeoPoint.create latA2 lonA2 (degrees := true)
  let pointB1 ← GeoPoint.create latB1 lonB1 (degrees := true)
  let pointB2 ← GeoPoint.create latB2 lonB2 (degrees := true)
  let pathA : GeoPath α := ⟨.geo pointA1, .geo pointA2⟩
  let pathB : GeoPath α := ⟨.geo pointB1, .geo pointB2⟩
  let pointC ← pathA.intersect pathB
  let g := pointC.to_geo_point
  pure (g.latitude_deg, g.longitude_deg)

/-- _examples.py:596-607 and 619-623 (object-oriented): `on_great_circle` of both paths at C -/
def ex9_obj_check (latA1 lonA1 latA2 lonA2 latB1 lonB1 latB2 lonB2 : α) : Except PyErr (Bool × Bool) := do
  let pointA1 ← GeoPoint.create latA1 lonA1 (degrees := true)
  let pointA2 ← GeoPoint.create latA2 lonA2 (degrees := true)
  let pointB1 ← GeoPoint.create latB1 lonB1 (degrees := true)
  let pointB2 ← GeoPoint.create latB2 lonB2 (degrees := true)
  let pathA : GeoPath α := ⟨.geo pointA1, .geo pointA2⟩
  let pathB : GeoPath α := ⟨.geo pointB1, .geo pointB2⟩
  let pointC ← pathA.intersect pathB
  let onA ← pathA.on_great_circle (.geo pointC.to_geo_point)
  let onB ← pathB.on_great_circle (.geo pointC.to_geo_point)
  pure (onA, onB)

/-- _examples.py:628-642 and 648-653 (functional, first way) -/
def ex9_fun (latA1 lonA1 latA2 lonA2 latB1 lonB1 latB2 lonB2 : α) : α × α :=
  let n_EA1_E := lat_lon2n_E (deg2rad latA1) (deg2rad lonA1)
  let n_EA2_E := lat_lon2n_E (deg2rad latA2) (deg2rad lonA2)
  let n_EB1_E := lat_lon2n_E (deg2rad latB1) (deg2rad lonB1)
  let n_EB2_E := lat_lon2n_E (deg2rad latB2) (deg2rad lonB2)
  let n_EC_E := unit (cross3 (cross3 n_EA1_E n_EA2_E) (cross3 n_EB1_E n_EB2_E))
  let n_EC_E := scale3 n_EC_E (sign (dot3 n_EC_E n_EA1_E))
  let ll := n_E2lat_lon n_EC_E
  (rad2deg ll.1, rad2deg ll.2)

/-- _examples.py:634-637 and 644-653 (functional, `nv.intersect`) -/
def ex9_fun' (latA1 lonA1 latA2 lonA2 latB1 lonB1 latB2 lonB2 : α) : α × α :=
  let n_EA1_E := lat_lon2n_E (deg2rad latA1) (deg2rad lonA1)
  let n_EA2_E := lat_lon2n_E (deg2rad latA2) (deg2rad lonA2)
  let n_EB1_E := lat_lon2n_E (deg2rad latB1) (deg2rad lonB1)
  let n_EB2_E := lat_lon2n_E (deg2rad latB2) (deg2rad lonB2)
  let n_EC_E := intersect (n_EA1_E, n_EA2_E) (n_EB1_E, n_EB2_E)
  let ll := n_E2lat_lon n_EC_E
  (rad2deg ll.1, rad2deg ll.2)

/-! ## Example 10: cross track distance -/

/-- _examples.py:691-706 (object-oriented): great circle and Euclidean cross track distance -/
def ex10_obj (r latA1 lonA1 latA2 lonA2 latB lonB : α) : Except PyErr (α × α) := do
  let frame ← FrameE.new (some r) (some (lit 0))
  let pointA1 ← frame.GeoPoint latA1 lonA1 (degrees := true)
  let pointA2 ← frame.GeoPoint latA2 lonA2 (degrees := true)
  let pointB ← frame.GeoPoint latB lonB (degrees := true)
  let pathA : GeoPath α := ⟨.geo pointA1, .geo pointA2⟩
  let s_xt ← pathA.cross_track_distance (.geo pointB) (method := "greatcircle")
  let d_xt ← pathA.cross_track_distance (.geo pointB) (method := "euclidean")
  pure (s_xt, d_xt)

/-- _examples.py:715-731 (functional) -/
def ex10_fun (r latA1 lonA1 latA2 lonA2 latB lonB : α) : Except PyErr (α × α) := do
  let n_EA1_E := lat_lon2n_E (deg2rad latA1) (deg2rad lonA1)
  let n_EA2_E := lat_lon2n_E (deg2rad latA2) (deg2rad lonA2)
  let n_EB_E := lat_lon2n_E (deg2rad latB) (deg2rad lonB)
  let s_xt ← cross_track_distance (n_EA1_E, n_EA2_E) n_EB_E (radius := r)
  let d_xt ← cross_track_distance (n_EA1_E, n_EA2_E) n_EB_E (method := "euclidean") (radius := r)
  pure (s_xt, d_xt)

/-- _examples.py:720-724, 733 and 737-741 (functional, alternative solution 2) -/
def ex10_alt2 (r latA1 lonA1 latA2 lonA2 latB lonB : α) : α × α :=
  let n_EA1_E := lat_lon2n_E (deg2rad latA1) (deg2rad lonA1)
  let n_EA2_E := lat_lon2n_E (deg2rad latA2) (deg2rad lonA2)
  let n_EB_E := lat_lon2n_E (deg2rad latB) (deg2rad lonB)
  let n_EC_E := closest_point_on_great_circle (n_EA1_E, n_EA2_E) n_EB_E
  (great_circle_distance n_EB_E n_EC_E r, euclidean_distance n_EB_E n_EC_E r)

/-- _examples.py:720-724 and 743-749 (functional, alternative solution 3) -/
def ex10_alt3 (r latA1 lonA1 latA2 lonA2 latB lonB : α) : α × α :=
  let n_EA1_E := lat_lon2n_E (deg2rad latA1) (deg2rad lonA1)
  let n_EA2_E := lat_lon2n_E (deg2rad latA2) (deg2rad lonA2)
  let n_EB_E := lat_lon2n_E (deg2rad latB) (deg2rad lonB)
  let c_E := great_circle_normal n_EA1_E n_EA2_E
  let sin_theta := -(dot3 c_E n_EB_E)
  (arcsin sin_theta * r, sin_theta * r)

end Nv.Examples
