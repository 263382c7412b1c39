import Verif.Props.Examples
import Verif.Props.SphereMethods
import Verif.Props.Paths

/-!
# C154: the examples on a sphere, and where the two solutions of an example may differ; C155: alternative solution 2 of example 10

Exact numbers.
-/

namespace Nv
open Spec Real
open XR (fin)

/-- the n-vector of a position in degrees (default axes) -/
noncomputable def Spec.atDeg (lat lon : ℝ) : V3 ℝ := app (transp Re) (geoNormal (lat * (π / 180)) (lon * (π / 180)))

namespace Examples

theorem atDeg_unit (lat lon : ℝ) : UnitVec (atDeg lat lon) := unitVec_app isRotation_Re.transpose (geoNormal_isUnit _ _)

theorem nvec_deg (lat lon : ℝ) : lat_lon2n_E (deg2rad (fin lat)) (deg2rad (fin lon)) = (atDeg lat lon).fin := by
  rw [deg2rad_fin, deg2rad_fin, R_e_fin]
  exact lat_lon2n_E_fin _ _ Re

/-- the sphere of the examples -/
noncomputable def ball (r : ℝ) : FrameE XR := .real r 0 (.str "WGS84") Re

theorem new_ball (r : ℝ) : FrameE.new (some (fin r)) (some (PyFloat.lit 0)) = .ok (ball r) := by
  rw [new_axes]
  unfold ball frameOf FrameE.real
  rw [R_e_fin, lit_zero]

/-- a position on the sphere -/
noncomputable def spot (r lat lon : ℝ) : GeoPoint XR := .real (lat * (π / 180)) (lon * (π / 180)) 0 (ball r)

theorem ball_point (r lat lon : ℝ) : (ball r).GeoPoint (fin lat) (fin lon) (degrees := true) = .ok (spot r lat lon) := by
  unfold FrameE.GeoPoint GeoPoint.create default_frame GeoPoint.new spot GeoPoint.real
  simp only [bind, Except.bind, pure, Except.pure, if_true, deg2rad_fin, lit_zero]

theorem spot_at (r lat lon : ℝ) : At (.geo (spot r lat lon)) (atDeg lat lon) 0 (r • atDeg lat lon) (ball r) := by
  have h := sphere_atR isRotation_Re (.str "WGS84") r (lat * (π / 180)) (lon * (π / 180)) 0
  rw [sub_zero] at h
  exact h

theorem len_spot {r : ℝ} (hr : 0 < r) (lat lon : ℝ) : len (r • atDeg lat lon) = r := by
  rw [len_smul, (atDeg_unit lat lon).len, mul_one, abs_of_pos hr]

theorem ex5_fun_eq (r latA lonA latB lonB : ℝ) : ex5_fun (fin r) (fin latA) (fin lonA) (fin latB) (fin lonB) =
    (fin (angle (atDeg latA lonA) (atDeg latB lonB) * r), fin (len (atDeg latB lonB - atDeg latA lonA) * r)) := by
  unfold ex5_fun
  simp only [nvec_deg]
  rw [C18_eq_angle _ _ (atDeg_unit _ _).ne (atDeg_unit _ _).ne]
  simp only [euclidean_distance, xr]

theorem le_quarter {lat : ℝ} (h : |lat| ≤ 90) : |lat * (π / 180)| ≤ π / 2 := by
  rw [abs_mul, abs_of_pos (show (0 : ℝ) < π / 180 by positivity)]
  calc |lat| * (π / 180) ≤ 90 * (π / 180) := mul_le_mul_of_nonneg_right h (by positivity)
    _ = π / 2 := by ring

end Examples

open Examples

/-- **C154** example 5 on a sphere of any radius (for a geodesic library which solves the sphere): all three solutions -/
theorem C154_surface_distance (G : Geodesic XR) {r : ℝ} (hr : 0 < r) (hG : SolvesSphere G r false) {latA latB : ℝ} (hA : |latA| ≤ 90) (hB : |latB| ≤ 90)
    (lonA lonB : ℝ) :
    ex5_obj G (fin r) (fin latA) (fin lonA) (fin latB) (fin lonB) = .ok (ex5_fun (fin r) (fin latA) (fin lonA) (fin latB) (fin lonB)) ∧
    ex5_alt G (fin r) (fin latA) (fin lonA) (fin latB) (fin lonB) = .ok (ex5_fun (fin r) (fin latA) (fin lonA) (fin latB) (fin lonB)) := by
  have a1 := spot_at r latA lonA
  have a2 := spot_at r latB lonB
  have hG' : SolvesSphere G (r - (0 + 0) / 2) false := by simpa using hG
  obtain ⟨s, azA, azB, -, -, e1, -, -⟩ := C149_distance_and_azimuth G isRotation_Re r 0 0 hr hr hr (.str "WGS84") false hG'
    (latA * (π / 180)) (lonA * (π / 180)) (latB * (π / 180)) (lonB * (π / 180)) (le_quarter hA) (le_quarter hB)
    "ellipsoid" "greatcircle" (by decide) 'g' "reatcircle".toList (by decide) (by decide)
  obtain ⟨s', t1, t2⟩ := C149_track_distance G isRotation_Re r 0 0 hr hr (.str "WGS84") hG'
    (latA * (π / 180)) (lonA * (π / 180)) (latB * (π / 180)) (lonB * (π / 180)) (le_quarter hA) (le_quarter hB)
    "exact" "greatcircle" (by decide) (by decide) (by decide) (by decide)
  have hg := (C46_sphere G ⟨.geo (spot r latA lonA), .geo (spot r latB lonB)⟩ _ _ _ _ _ _ _ a1 a2 "greatcircle" 0).2 (by decide) (by decide) (by decide)
  have he := (C46_sphere G ⟨.geo (spot r latA lonA), .geo (spot r latB lonB)⟩ _ _ _ _ _ _ _ a1 a2 "euclidean" 0).1 (by decide)
  rw [len_spot hr, len_spot hr, show (r + r) / 2 = r by ring] at hg he
  have hs' : s' = angle (atDeg latA lonA) (atDeg latB lonB) * r := by
    have h := hg.2
    unfold spot ball at h
    rw [t2] at h
    exact XR.fin_inj.1 (Except.ok.inj h)
  have hs : s = s' := by
    unfold GeoPath.track_distance at t1
    rw [if_pos (by decide)] at t1
    simp only [GeoPath.geo_points, Position.to_geo_point, e1, bind, Except.bind, pure, Except.pure] at t1
    exact XR.fin_inj.1 (Except.ok.inj t1)
  rw [ex5_fun_eq]
  refine ⟨?_, ?_⟩
  · unfold ex5_obj
    rw [new_ball]
    simp only [bind, Except.bind, pure, Except.pure, ball_point]
    have e1' : GeoPoint.distance_and_azimuth G (spot r latA lonA) (.geo (spot r latB lonB)) = .ok (fin s, fin azA, fin azB) := e1
    rw [e1']
    have b1 : (spot r latA lonA).to_ecef_vector = .real (r • atDeg latA lonA) (ball r) := a1.ec
    have b2 : (spot r latB lonB).to_ecef_vector = .real (r • atDeg latB lonB) (ball r) := a2.ec
    have hc : check_frames (ball r) (ball r) = .ok () := check_frames_real r 0 _ Re
    simp only [b1, b2, ECEFvector.sub, ECEFvector.real, hc, bind, Except.bind, pure, Except.pure, hs, hs', length, xr]
    rw [show r • atDeg latB lonB - r • atDeg latA lonA = r • (atDeg latB lonB - atDeg latA lonA) by ext <;> simp <;> ring, len_smul, abs_of_pos hr,
      mul_comm r]
  · unfold ex5_alt
    rw [new_ball]
    simp only [bind, Except.bind, pure, Except.pure, ball_point, hg.2, he.2]

/-- `delta_N` of two positions in frames that pass the comparison gives a vector -/
theorem Examples.delta_N_ok (g : GeoPoint XR) (p : ECEFvector XR) (h : check_frames p.frame g.frame = .ok ()) :
    ∃ P, delta_N (.geo g) (.ecef p) = .ok P := by
  have e : (Position.geo g).to_ecef_vector.frame = g.frame := rfl
  have e2 : (FrameN (.geo g)).nvector.frame = g.frame := rfl
  have e3 : (Position.ecef p).to_ecef_vector = p := rfl
  simp only [delta_N, delta_E, ECEFvector.sub, ECEFvector.change_frame, e, e2, e3, h, bind, Except.bind, pure, Except.pure]
  exact ⟨_, rfl⟩

/-- **C154** example 8 on a sphere of any radius by great circles, from any position: the position is that of the functional solution -/
theorem C154_direct (G : Geodesic XR) {r : ℝ} (hr : 0 < r) (lat lon d az : ℝ) :
    ∃ b, ex8_obj G (fin r) (fin lat) (fin lon) (fin d) (fin az) "greatcircle" =
      .ok ((ex8_fun (fin r) (fin lat) (fin lon) (fin d) (fin az)).1, (ex8_fun (fin r) (fin lat) (fin lon) (fin d) (fin az)).2, b) := by
  have a1 := spot_at r lat lon
  have n1 : (spot r lat lon).to_nvector = .real (atDeg lat lon) 0 (ball r) := a1.nv
  have b1 : (Nvector.real (atDeg lat lon) 0 (ball r)).to_ecef_vector = .real (r • atDeg lat lon) (ball r) := by rw [← n1]; exact a1.ec
  have hl : length (ECEFvector.real (r • atDeg lat lon) (ball r)).pvector = fin r := by
    unfold length ECEFvector.real; simp only [xr]; rw [len_spot hr]
  have hc : check_frames (ball r) (ball r) = .ok () := check_frames_real r 0 _ Re
  unfold ex8_obj
  rw [new_ball]
  simp only [bind, Except.bind, pure, Except.pure, ball_point]
  unfold GeoPoint.displace GeoPoint.displace_great_circle
  rw [if_neg (by decide)]
  obtain ⟨P, hP⟩ := delta_N_ok (Nvector.to_geo_point ⟨n_EA_E_distance_and_azimuth2n_EB_E (atDeg lat lon).fin (fin d / fin r) (deg2rad (fin az)), fin 0, ball r⟩)
    (.real (r • atDeg lat lon) (ball r)) hc
  have hz : (spot r lat lon).z = fin 0 := rfl
  have hf : (spot r lat lon).frame = ball r := rfl
  simp only [n1, b1, hl, bind, Except.bind, pure, Except.pure, if_true, hz, hf]
  have hn : (Nvector.real (atDeg lat lon) 0 (ball r)).normal = (atDeg lat lon).fin := rfl
  simp only [hn, hP]
  refine ⟨rad2deg (base_angle (azimuth P.pvector - PyFloat.pi)), ?_⟩
  unfold ex8_fun
  simp only [nvec_deg]
  unfold Nvector.to_geo_point GeoPoint.latitude_deg GeoPoint.longitude_deg
  have hR : (ball r).R_Ee = R_e := R_e_fin.symm
  simp only [hR]

/-- **C154** example 8 by the ellipsoid method (for a geodesic library which solves the sphere), from a position which is not a pole: the n-vector of the
position reached is that of the functional solution -/
theorem C154_direct_ellipsoid (G : Geodesic XR) {r : ℝ} (hG : SolvesSphere G r false) {lat : ℝ} (hr : 0 < r) (hl : |lat| < 90) (lon d az : ℝ) :
    ∃ lat1 lon1 b1 lat2 lon2 : ℝ,
      ex8_obj G (fin r) (fin lat) (fin lon) (fin d) (fin az) "ellipsoid" = .ok (fin lat1, fin lon1, fin b1) ∧
      ex8_fun (fin r) (fin lat) (fin lon) (fin d) (fin az) = (fin lat2, fin lon2) ∧ atDeg lat1 lon1 = atDeg lat2 lon2 := by
  obtain ⟨lat2, lon2, az2, hdir, hl2, leg⟩ := hG.direct lat lon az d hl.le
  have hb : |lat * (π / 180)| < π / 2 := by
    rw [abs_mul, abs_of_pos (show (0 : ℝ) < π / 180 by positivity)]
    calc |lat| * (π / 180) < 90 * (π / 180) := mul_lt_mul_of_pos_right hl (by positivity)
      _ = π / 2 := by ring
  obtain ⟨q1, q2⟩ := abs_lt.1 hb
  obtain ⟨hp, he, hn⟩ := geo_east_north isRotation_Re (lon := lon * (π / 180)) q1 q2
  have hdo := direct_offpole (atDeg_unit lat lon) hp (d / r) (az * (π / 180))
  have hre : cos (d / r) • atDeg lat lon + sin (d / r) • (cos (az * (π / 180)) • cross (atDeg lat lon) (dirOf (cross (northPole Re) (atDeg lat lon))) +
      sin (az * (π / 180)) • dirOf (cross (northPole Re) (atDeg lat lon))) = atDeg lat2 lon2 := by
    unfold atDeg
    rw [leg.arrives, he, hn]
    unfold course
    simp only [app_add, app_smul]
  rw [hre] at hdo
  have hd : ∀ x : ℝ, x * (π / 180) * (180 / π) = x := fun x => by have := Real.pi_ne_zero; field_simp
  have hll := n_E2lat_lon_fin (atDeg lat2 lon2) Re
  have hback := C02_roundtrip_unit _ (atDeg_unit lat2 lon2) Re isRotation_Re
  rw [hll] at hback
  generalize XR.atan2 (app Re (atDeg lat2 lon2)).x (√((app Re (atDeg lat2 lon2)).y ^ 2 + (app Re (atDeg lat2 lon2)).z ^ 2)) = p at hll hback
  generalize XR.atan2 (app Re (atDeg lat2 lon2)).y (-(app Re (atDeg lat2 lon2)).z) = q at hll hback
  refine ⟨lat2, lon2, az2, p * (180 / π), q * (180 / π), ?_, ?_, ?_⟩
  · unfold ex8_obj
    rw [new_ball]
    simp only [bind, Except.bind, pure, Except.pure, ball_point]
    unfold GeoPoint.displace GeoPoint.displace_ellipsoid FrameE.direct FrameE.direct'
    rw [if_pos (by decide)]
    have hsub : (fin r - fin 0 : XR) = fin r := by simp only [xr]; rw [sub_zero]
    simp only [spot, ball, GeoPoint.real, FrameE.real, GeoPoint.latitude_deg, GeoPoint.longitude_deg, rad2deg_fin, hd, if_true, hsub, hdir, bind, Except.bind,
      pure, Except.pure, GeoPoint.new, deg2rad_fin]
  · unfold ex8_fun
    simp only [nvec_deg]
    rw [deg2rad_fin, XR.div_fin hr.ne', R_e_fin, hdo, hll]
    simp only [rad2deg_fin]
  · rw [lat_lon2n_E_fin] at hback
    unfold atDeg at hback ⊢
    rw [deg_rad, deg_rad]
    exact (V3.fin_inj.1 hback).symm

/-- **C154** example 10 on a sphere of any radius: the object-oriented and the functional solution -/
theorem C154_cross_track {r : ℝ} (hr : 0 < r) (latA1 lonA1 latA2 lonA2 latB lonB : ℝ) :
    ex10_obj (fin r) (fin latA1) (fin lonA1) (fin latA2) (fin lonA2) (fin latB) (fin lonB) =
      ex10_fun (fin r) (fin latA1) (fin lonA1) (fin latA2) (fin lonA2) (fin latB) (fin lonB) := by
  have a1 := spot_at r latA1 lonA1
  have a2 := spot_at r latA2 lonA2
  have hB : (Position.geo (spot r latB lonB)).to_nvector.normal = (atDeg latB lonB).fin := by rw [(spot_at r latB lonB).nv]; rfl
  have hrad := average_radius_fin (P := ⟨.geo (spot r latA1 lonA1), .geo (spot r latA2 lonA2)⟩) a1 a2
  rw [len_spot hr, len_spot hr, show (r + r) / 2 = r by ring] at hrad
  have hnor := normals_fin (P := ⟨.geo (spot r latA1 lonA1), .geo (spot r latA2 lonA2)⟩) a1 a2
  unfold ex10_obj ex10_fun
  rw [new_ball]
  simp only [bind, Except.bind, ball_point, GeoPath.cross_track_distance, GeoPath.radiusOr, Option.getD_none, hrad, hnor, hB, nvec_deg]

/-- the WGS84 frame in exact numbers -/
noncomputable def Examples.wgs : FrameE XR := .real 6378137 (1 / 298.257223563) (.str "WGS84") Re

theorem Examples.wgs_eq : frameOf (a_WGS84 : XR) f_WGS84 = wgs := by
  rw [a_default, f_default]
  unfold frameOf wgs FrameE.real
  rw [R_e_fin]; rfl

theorem Examples.create_wgs (lat lon : ℝ) : GeoPoint.create (fin lat) (fin lon) (degrees := true) =
    .ok (GeoPoint.real (lat * (π / 180)) (lon * (π / 180)) 0 wgs) := by
  unfold GeoPoint.create default_frame
  simp only [new_wgs84, wgs_eq, bind, Except.bind, pure, Except.pure, GeoPoint.new, if_true, deg2rad_fin, lit_zero]
  rfl

theorem Examples.wgs_at (lat lon : ℝ) : ∃ p, At (.geo (.real (lat * (π / 180)) (lon * (π / 180)) 0 wgs)) (atDeg lat lon) 0 p wgs := by
  obtain ⟨n, p, h, hn⟩ := Spec.At.of_geo (lat * (π / 180)) (lon * (π / 180)) 0 6378137 (1 / 298.257223563) (by norm_num) (.str "WGS84") Re isRotation_Re
  have : n = atDeg lat lon := by
    unfold atDeg
    rw [← hn, isRotation_Re.trans_app]
  exact ⟨p, this ▸ h⟩

theorem Examples.on_circle_true {P : GeoPath XR} {A B pA pB : V3 ℝ} {zA zB : ℝ} {F F' : FrameE XR} (hA : At P.point_a A zA pA F)
    (hB : At P.point_b B zB pB F) (hp : ProperPath A B) {X : Position XR} {C : V3 ℝ} {z : ℝ} (hX : X.to_nvector = .real C z F') (hC : OnCircle A B C) :
    P.on_great_circle X = .ok true := by
  have hd := ((onCircle_iff_normal hp).1 hC).2
  unfold GeoPath.on_great_circle GeoPath.cross_track_distance GeoPath.radiusOr
  rw [Option.getD_none, average_radius_fin hA hB, normals_fin hA hB, hX]
  simp only [Nvector.real]
  rw [cross_track_fin hp hC.1, hd]
  have hi : isclose (PyFloat.abs (fin 0)) (PyFloat.lit 0) (atol := PyFloat.lit 1e-8) = true := by
    have e : (PyFloat.abs (fin 0) : XR) = PyFloat.lit 0 := by simp [xr]
    rw [e, lit_zero]
    exact C34_refl (fin 0) (by simp) _ _ (by norm_num [xr]) _
  simp only [neg_zero, Real.arcsin_zero, zero_mul, bind, Except.bind, pure, Except.pure, hi]

/-- **C154** example 9: the intersection is on both great circles, except for the paths of C24 without a (computed) intersection -/
theorem C154_intersection_check (latA1 lonA1 latA2 lonA2 latB1 lonB1 latB2 lonB2 : ℝ)
    (hA : ProperPath (atDeg latA1 lonA1) (atDeg latA2 lonA2)) (hB : ProperPath (atDeg latB1 lonB1) (atDeg latB2 lonB2))
    (hne : ¬ SameCircle (atDeg latA1 lonA1) (atDeg latA2 lonA2) (atDeg latB1 lonB1) (atDeg latB2 lonB2))
    (hq : ∀ Q, OnCircle (atDeg latA1 lonA1) (atDeg latA2 lonA2) Q → OnCircle (atDeg latB1 lonB1) (atDeg latB2 lonB2) Q → dot Q (atDeg latA1 lonA1) ≠ 0) :
    ex9_obj_check (fin latA1) (fin lonA1) (fin latA2) (fin lonA2) (fin latB1) (fin lonB1) (fin latB2) (fin lonB2) = .ok (true, true) := by
  obtain ⟨p1, h1⟩ := wgs_at latA1 lonA1
  obtain ⟨p2, h2⟩ := wgs_at latA2 lonA2
  obtain ⟨p3, h3⟩ := wgs_at latB1 lonB1
  obtain ⟨p4, h4⟩ := wgs_at latB2 lonB2
  obtain ⟨C, hC, c1, c2, -⟩ := C24_intersection_partial _ _ _ _ hA hB hne hq
  have nA := normals_fin (P := ⟨_, _⟩) h1 h2
  have nB := normals_fin (P := ⟨_, _⟩) h3 h4
  have z : ∀ {X : Position XR} {n p : V3 ℝ}, At X n 0 p wgs → X.to_nvector.z = fin 0 := by
    intro X n p h; rw [h.nv]; rfl
  have hz : ((fin 0 + fin 0 + fin 0 + fin 0) / PyFloat.lit 4 : XR) = fin 0 := by
    rw [XR.lit_def]; simp only [XR.add_fin]; rw [XR.div_fin (by norm_num)]; norm_num
  have hback : (Position.geo (Nvector.to_geo_point ⟨C.fin, fin 0, wgs⟩)).to_nvector = .real C 0 wgs := by
    have := C45_nvector_geo_nvector C c1.1.ne 0 6378137 (1 / 298.257223563) (.str "WGS84") Re isRotation_Re
    rw [show (len C)⁻¹ • C = C from dirOf_of_unit c1.1] at this
    exact this
  unfold ex9_obj_check
  simp only [create_wgs, bind, Except.bind]
  unfold GeoPath.intersect
  rw [nA, nB, hC]
  unfold GeoPath.nvectors
  simp only [z h1, z h2, z h3, z h4, hz, GeoPath.frameOf, bind, Except.bind, pure, Except.pure]
  have f1 : (GeoPoint.real (latA1 * (π / 180)) (lonA1 * (π / 180)) 0 wgs).frame = wgs := rfl
  rw [f1, on_circle_true h1 h2 hA hback c1, on_circle_true h3 h4 hB hback c2]

/-- **C154** example 6: the two solutions differ only half way between antipodal positions (and there the object-oriented solution is NaN) -/
theorem C154_interpolated_identical (lat0 lon0 lat1 lon1 t0 t1 ti : ℝ) (ht : t0 ≠ t1)
    (h : ¬ (atDeg lat1 lon1 = -atDeg lat0 lon0 ∧ (ti - t0) / (t1 - t0) = 1 / 2)) :
    ex6_obj (fin lat0) (fin lon0) (fin lat1) (fin lon1) (fin t0) (fin t1) (fin ti) =
      .ok (ex6_fun (fin lat0) (fin lon0) (fin lat1) (fin lon1) (fin t0) (fin t1) (fin ti)) := by
  have hm : mix (atDeg lat0 lon0) (atDeg lat1 lon1) ((ti - t0) / (t1 - t0)) ≠ 0 :=
    fun e => h ((mix_zero_iff (atDeg_unit _ _) (atDeg_unit _ _) _).1 e)
  have hsum : ex6_sum (fin lat0) (fin lon0) (fin lat1) (fin lon1) (fin t0) (fin t1) (fin ti) =
      (mix (atDeg lat0 lon0) (atDeg lat1 lon1) ((ti - t0) / (t1 - t0))).fin := by
    unfold ex6_sum
    simp only [nvec_deg, XR.sub_fin]
    rw [XR.div_fin (sub_ne_zero.2 ht.symm)]
    simp only [xr]
    unfold mix
    congr 1
  rw [ex6_cases check_wgs84 XR.mul_comm_ex, hsum]
  rw [if_neg]
  simp only [xr]
  have := (len_pos hm).ne'
  simpa using this

/-! ## C155: alternative solution 2 of example 10 -/

/-- **C155** alternative solution 2 in terms of the others, for a position which is not a pole of the great circle: its great circle distance has lost the
sign, and its Euclidean distance is the chord of the cross track angle and not the distance to the plane of the path -/
theorem C155_values {r : ℝ} (hr : 0 < r) (latA1 lonA1 latA2 lonA2 latB lonB : ℝ) (hp : ProperPath (atDeg latA1 lonA1) (atDeg latA2 lonA2))
    (hne : cross (atDeg latB lonB) (cross (atDeg latA1 lonA1) (atDeg latA2 lonA2)) ≠ 0) :
    ∃ θ : ℝ, -(π / 2) ≤ θ ∧ θ ≤ π / 2 ∧
      ex10_fun (fin r) (fin latA1) (fin lonA1) (fin latA2) (fin lonA2) (fin latB) (fin lonB) = .ok (fin (θ * r), fin (sin θ * r)) ∧
      ex10_alt2 (fin r) (fin latA1) (fin lonA1) (fin latA2) (fin lonA2) (fin latB) (fin lonB) = (fin (|θ| * r), fin (2 * r * sin (|θ| / 2))) := by
  have uB := atDeg_unit latB lonB
  obtain ⟨θ, t1, t2, m1, m2, -⟩ := C20_methods _ _ _ hp uB r
  have hs := m2 "greatcircle" 'g' "reatcircle".toList (by decide) (by decide)
  have he := m1 "euclidean" 'e' "uclidean".toList (by decide) (by decide)
  refine ⟨θ, t1, t2, ?_, ?_⟩
  · unfold ex10_fun
    simp only [nvec_deg, hs, he, bind, Except.bind, pure, Except.pure]
  · obtain ⟨C, hC, onC, d, hd, hmin⟩ := C21_closest_partial _ _ _ hp uB hne r hr
    obtain ⟨x, hx, ⟨Q, onQ, hQ⟩, hleast⟩ := C20_is_least_distance _ _ _ hp uB r hr
    have hxθ : x = θ * r := XR.fin_inj.1 (Except.ok.inj (hx.symm.trans hs))
    have hdx : d = |x| := by
      obtain ⟨d', h1, h2⟩ := hmin Q onQ
      have e : d' = |x| := XR.fin_inj.1 (h1.symm.trans hQ)
      exact le_antisymm (e ▸ h2) (hleast ⟨C, onC, hd⟩)
    obtain ⟨φ, f1, -, -, f2⟩ := C19_chord _ _ uB onC.1 r
    have hφ : φ = |θ| := by
      have e : φ * r = |θ| * r := by
        rw [← XR.fin_inj.1 (hd.symm.trans f1), hdx, hxθ, abs_mul, abs_of_pos hr]
      exact mul_right_cancel₀ hr.ne' e
    unfold ex10_alt2
    simp only [nvec_deg, hC, f1, f2, hφ]

/-- **C155** (part): to the right of the path (or on it), up to a quarter turn away, alternative solution 2 has the same great circle distance, and its
Euclidean distance is too large by at most `s³ / (8 r²)`.  Missing: positions to the left of the path (`C155_left_counterexample`) and the exact Euclidean
distance (`C155_euclidean_counterexample`) -/
theorem C155_right_partial {r : ℝ} (hr : 0 < r) (latA1 lonA1 latA2 lonA2 latB lonB : ℝ) (hp : ProperPath (atDeg latA1 lonA1) (atDeg latA2 lonA2))
    (hne : cross (atDeg latB lonB) (cross (atDeg latA1 lonA1) (atDeg latA2 lonA2)) ≠ 0)
    (hright : dot (cross (atDeg latA1 lonA1) (atDeg latA2 lonA2)) (atDeg latB lonB) ≤ 0) :
    ∃ s d d' : ℝ, ex10_fun (fin r) (fin latA1) (fin lonA1) (fin latA2) (fin lonA2) (fin latB) (fin lonB) = .ok (fin s, fin d) ∧
      ex10_alt2 (fin r) (fin latA1) (fin lonA1) (fin latA2) (fin lonA2) (fin latB) (fin lonB) = (fin s, fin d') ∧
      d ≤ d' ∧ d' - d ≤ s ^ 3 / (8 * r ^ 2) := by
  obtain ⟨θ, t1, t2, h1, h2⟩ := C155_values hr latA1 lonA1 latA2 lonA2 latB lonB hp hne
  have h0 : 0 ≤ θ := by
    obtain ⟨x, hx, hs⟩ := C20_sign _ _ _ hp (atDeg_unit latB lonB) r hr
    have hxθ : x = θ * r := by
      unfold ex10_fun at h1
      simp only [nvec_deg, hx, bind, Except.bind, pure, Except.pure] at h1
      cases he : cross_track_distance ((atDeg latA1 lonA1).fin, (atDeg latA2 lonA2).fin) (atDeg latB lonB).fin "euclidean" (fin r) with
      | error e => rw [he] at h1; cases h1
      | ok y =>
        rw [he] at h1
        exact XR.fin_inj.1 (congrArg Prod.fst (Except.ok.inj h1))
    by_contra hn
    push Not at hn
    obtain ⟨y, hy, -, -, hz⟩ := C20_range_and_zero _ _ _ hp (atDeg_unit latB lonB) r hr
    have hyx : y = x := XR.fin_inj.1 (Except.ok.inj (hy.symm.trans hx))
    have hx0 : x < 0 := by rw [hxθ]; exact mul_neg_of_neg_of_pos hn hr
    rcases lt_or_eq_of_le hright with hl | hl
    · exact absurd (hs.2 hl) (not_lt.2 hx0.le)
    · have : y = 0 := hz.2 ((onCircle_iff hp).2 ⟨atDeg_unit latB lonB, hl⟩)
      rw [hyx] at this
      exact hx0.ne this
  rw [abs_of_nonneg h0] at h2
  refine ⟨_, _, _, h1, h2, ?_, ?_⟩
  all_goals
    have hs2 : sin θ = 2 * sin (θ / 2) * cos (θ / 2) := by rw [← Real.sin_two_mul]; congr 1; ring
    have hpos : 0 ≤ sin (θ / 2) := Real.sin_nonneg_of_nonneg_of_le_pi (by linarith) (by linarith [Real.pi_pos])
  · rw [hs2]
    have := mul_nonneg (mul_nonneg hr.le hpos) (sub_nonneg.2 (Real.cos_le_one (θ / 2)))
    linarith only [this]
  · have hc : 1 - cos (θ / 2) ≤ (θ / 2) ^ 2 / 2 := by linarith [Real.one_sub_sq_div_two_le_cos (x := θ / 2)]
    have hsin : sin (θ / 2) ≤ θ / 2 := Real.sin_le (by linarith)
    have hc0 : 0 ≤ 1 - cos (θ / 2) := sub_nonneg.2 (Real.cos_le_one _)
    have hm : sin (θ / 2) * (1 - cos (θ / 2)) ≤ θ / 2 * ((θ / 2) ^ 2 / 2) := mul_le_mul hsin hc hc0 (by linarith)
    have hm' := mul_le_mul_of_nonneg_left hm (show 0 ≤ 2 * r by linarith)
    have e : (θ * r) ^ 3 / (8 * r ^ 2) = 2 * r * (θ / 2 * ((θ / 2) ^ 2 / 2)) := by field_simp; ring
    rw [e, hs2]
    linarith only [hm']

/-- **C155** to the left of the path the cross track distance is negative, and alternative solution 2 returns its absolute value -/
theorem C155_left_counterexample {r : ℝ} (hr : 0 < r) (latA1 lonA1 latA2 lonA2 latB lonB : ℝ) (hp : ProperPath (atDeg latA1 lonA1) (atDeg latA2 lonA2))
    (hne : cross (atDeg latB lonB) (cross (atDeg latA1 lonA1) (atDeg latA2 lonA2)) ≠ 0)
    (hleft : 0 < dot (cross (atDeg latA1 lonA1) (atDeg latA2 lonA2)) (atDeg latB lonB)) :
    ∃ s d s' d' : ℝ, ex10_fun (fin r) (fin latA1) (fin lonA1) (fin latA2) (fin lonA2) (fin latB) (fin lonB) = .ok (fin s, fin d) ∧
      ex10_alt2 (fin r) (fin latA1) (fin lonA1) (fin latA2) (fin lonA2) (fin latB) (fin lonB) = (fin s', fin d') ∧
      s < 0 ∧ 0 < s' ∧ d < 0 ∧ 0 < d' := by
  obtain ⟨θ, t1, t2, h1, h2⟩ := C155_values hr latA1 lonA1 latA2 lonA2 latB lonB hp hne
  have h0 : θ < 0 := by
    obtain ⟨x, hx, hs⟩ := C20_sign _ _ _ hp (atDeg_unit latB lonB) r hr
    have hxθ : x = θ * r := by
      unfold ex10_fun at h1
      simp only [nvec_deg, hx, bind, Except.bind, pure, Except.pure] at h1
      cases he : cross_track_distance ((atDeg latA1 lonA1).fin, (atDeg latA2 lonA2).fin) (atDeg latB lonB).fin "euclidean" (fin r) with
      | error e => rw [he] at h1; cases h1
      | ok y =>
        rw [he] at h1
        exact XR.fin_inj.1 (congrArg Prod.fst (Except.ok.inj h1))
    by_contra hn
    push Not at hn
    obtain ⟨y, hy, -, -, hz⟩ := C20_range_and_zero _ _ _ hp (atDeg_unit latB lonB) r hr
    have hyx : y = x := XR.fin_inj.1 (Except.ok.inj (hy.symm.trans hx))
    rcases lt_or_eq_of_le (mul_nonneg hn hr.le) with hl | hl
    · rw [← hxθ] at hl
      exact absurd (hs.1 hl) (not_lt.2 hleft.le)
    · have hc := hz.1 (by rw [hyx, hxθ, ← hl])
      have := ((onCircle_iff hp).1 hc).2
      exact hleft.ne' this
  rw [abs_of_neg h0] at h2
  refine ⟨_, _, _, _, h1, h2, mul_neg_of_neg_of_pos h0 hr, mul_pos (neg_pos.2 h0) hr, ?_, ?_⟩
  · exact mul_neg_of_neg_of_pos (Real.sin_neg_of_neg_of_neg_pi_lt h0 (by linarith [Real.pi_pos])) hr
  · exact mul_pos (by linarith) (Real.sin_pos_of_pos_of_lt_pi (by linarith) (by linarith [Real.pi_pos]))

/-- **C155** off the great circle the Euclidean distances are never the same -/
theorem C155_euclidean_counterexample {r : ℝ} (hr : 0 < r) (latA1 lonA1 latA2 lonA2 latB lonB : ℝ)
    (hp : ProperPath (atDeg latA1 lonA1) (atDeg latA2 lonA2))
    (hne : cross (atDeg latB lonB) (cross (atDeg latA1 lonA1) (atDeg latA2 lonA2)) ≠ 0)
    (hoff : ¬ OnCircle (atDeg latA1 lonA1) (atDeg latA2 lonA2) (atDeg latB lonB)) :
    ∃ s d s' d' : ℝ, ex10_fun (fin r) (fin latA1) (fin lonA1) (fin latA2) (fin lonA2) (fin latB) (fin lonB) = .ok (fin s, fin d) ∧
      ex10_alt2 (fin r) (fin latA1) (fin lonA1) (fin latA2) (fin lonA2) (fin latB) (fin lonB) = (fin s', fin d') ∧ |d| < d' := by
  obtain ⟨θ, t1, t2, h1, h2⟩ := C155_values hr latA1 lonA1 latA2 lonA2 latB lonB hp hne
  have h0 : θ ≠ 0 := by
    rintro rfl
    obtain ⟨y, hy, -, -, hz⟩ := C20_range_and_zero _ _ _ hp (atDeg_unit latB lonB) r hr
    have hy0 : y = 0 := by
      unfold ex10_fun at h1
      simp only [nvec_deg, hy, bind, Except.bind, pure, Except.pure] at h1
      cases he : cross_track_distance ((atDeg latA1 lonA1).fin, (atDeg latA2 lonA2).fin) (atDeg latB lonB).fin "euclidean" (fin r) with
      | error e => rw [he] at h1; cases h1
      | ok y =>
        rw [he] at h1
        have := XR.fin_inj.1 (congrArg Prod.fst (Except.ok.inj h1))
        rw [this, zero_mul]
    exact hoff (hz.1 hy0)
  refine ⟨_, _, _, _, h1, h2, ?_⟩
  have ha : 0 < |θ| := abs_pos.2 h0
  have hb : |θ| ≤ π / 2 := abs_le.2 ⟨t1, t2⟩
  have e : |sin θ| = sin |θ| := by
    rcases le_total 0 θ with h | h
    · rw [abs_of_nonneg h, abs_of_nonneg (Real.sin_nonneg_of_nonneg_of_le_pi h (by linarith [Real.pi_pos]))]
    · rw [abs_of_nonpos h, Real.sin_neg, abs_of_nonpos (Real.sin_nonpos_of_nonpos_of_neg_pi_le h (by linarith [Real.pi_pos]))]
  rw [abs_mul, abs_of_pos hr, e]
  have hs2 : sin |θ| = 2 * sin (|θ| / 2) * cos (|θ| / 2) := by rw [← Real.sin_two_mul]; congr 1; ring
  have hpos : 0 < sin (|θ| / 2) := Real.sin_pos_of_pos_of_lt_pi (by linarith) (by linarith [Real.pi_pos])
  have hcos : cos (|θ| / 2) < 1 := by
    have := Real.cos_lt_cos_of_nonneg_of_le_pi le_rfl (show |θ| / 2 ≤ π by linarith [Real.pi_pos]) (show 0 < |θ| / 2 by linarith)
    rwa [Real.cos_zero] at this
  rw [hs2]
  have := mul_pos (mul_pos hr hpos) (sub_pos.2 hcos)
  linarith only [this]

end Nv
