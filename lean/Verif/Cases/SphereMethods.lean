import Verif.Cases.Sphere
import Verif.Props.SphereMethods

/-!
# Concrete cases: both methods on a sphere (C149)

A geodesic library which solves the sphere of every positive radius.
-/

namespace Nv.Cases
open Spec Real
open XR (fin)

theorem geo_frame (lat lon : ℝ) : Frame (geoNormal lat lon) (geoEast lon) ∧ cross (geoNormal lat lon) (geoEast lon) = geoNorth lat lon := by
  have hsc := Real.sin_sq_add_cos_sq lon
  obtain ⟨-, b, -, -, e⟩ := geo_dots lat lon
  refine ⟨⟨geoNormal_isUnit _ _, by unfold UnitVec geoEast; simp only; linarith, e⟩, ?_⟩
  ext
  · simp only [cross, geoNormal, geoEast, geoNorth]; linear_combination cos lat * hsc
  · simp only [cross, geoNormal, geoEast, geoNorth]; ring
  · simp only [cross, geoNormal, geoEast, geoNorth]; ring

theorem geo_expand (lat lon : ℝ) (v : V3 ℝ) :
    v = dot (geoNormal lat lon) v • geoNormal lat lon + dot (geoNorth lat lon) v • geoNorth lat lon + dot (geoEast lon) v • geoEast lon := by
  obtain ⟨h, e⟩ := geo_frame lat lon
  have := frame_expand h v
  rwa [e] at this

theorem geo_parseval (lat lon : ℝ) (v : V3 ℝ) :
    dot v v = dot (geoNormal lat lon) v ^ 2 + dot (geoNorth lat lon) v ^ 2 + dot (geoEast lon) v ^ 2 := by
  conv_lhs => arg 1; rw [geo_expand lat lon v]
  rw [dot_add_left, dot_add_left, dot_smul_left, dot_smul_left, dot_smul_left]
  ring

/-- a horizontal vector is a course, times its length -/
theorem exists_course (lat lon : ℝ) (v : V3 ℝ) : ∃ az : ℝ,
    v = dot (geoNormal lat lon) v • geoNormal lat lon + √(dot v v - dot (geoNormal lat lon) v ^ 2) • course lat lon az := by
  refine ⟨XR.atan2 (dot (geoEast lon) v) (dot (geoNorth lat lon) v), ?_⟩
  have e1 := XR.sqrt_mul_cos_atan2 (dot (geoEast lon) v) (dot (geoNorth lat lon) v)
  have e2 := XR.sqrt_mul_sin_atan2 (dot (geoEast lon) v) (dot (geoNorth lat lon) v)
  have hp := geo_parseval lat lon v
  rw [show dot v v - dot (geoNormal lat lon) v ^ 2 = dot (geoNorth lat lon) v ^ 2 + dot (geoEast lon) v ^ 2 by linarith]
  have h := geo_expand lat lon v
  conv_lhs => rw [h]
  unfold course
  ext
  · simp only [add_x, smul_x]; linear_combination (-(geoNorth lat lon).x) * e1 - (geoEast lon).x * e2
  · simp only [add_y, smul_y]; linear_combination (-(geoNorth lat lon).y) * e1 - (geoEast lon).y * e2
  · simp only [add_z, smul_z]; linear_combination (-(geoNorth lat lon).z) * e1 - (geoEast lon).z * e2

/-- the arrival azimuth -/
theorem exists_heading (lat1 lon1 az1 σ lat2 lon2 : ℝ)
    (h : geoNormal lat2 lon2 = cos σ • geoNormal lat1 lon1 + sin σ • course lat1 lon1 az1) :
    ∃ az2, Leg lat1 lon1 az1 σ lat2 lon2 az2 := by
  obtain ⟨az2, h2⟩ := exists_course lat2 lon2 ((-sin σ) • geoNormal lat1 lon1 + cos σ • course lat1 lon1 az1)
  have hu := (geoNormal_isUnit lat1 lon1).dot
  obtain ⟨p, q, r⟩ := dot_course lat1 lon1 az1
  have hc : dot (course lat1 lon1 az1) (course lat1 lon1 az1) = 1 := by
    conv_lhs => arg 1; unfold course
    rw [dot_add_left, dot_smul_left, dot_smul_left, p, q]
    linarith [sin_sq_add_cos_sq az1]
  have r' : dot (course lat1 lon1 az1) (geoNormal lat1 lon1) = 0 := by rw [dot_comm]; exact r
  have d1 : dot (geoNormal lat2 lon2) ((-sin σ) • geoNormal lat1 lon1 + cos σ • course lat1 lon1 az1) = 0 := by
    rw [h]
    simp only [dot_add_left, dot_add_right, dot_smul_left, dot_smul_right, hu, r, r', hc]; ring
  have d2 : dot ((-sin σ) • geoNormal lat1 lon1 + cos σ • course lat1 lon1 az1)
      ((-sin σ) • geoNormal lat1 lon1 + cos σ • course lat1 lon1 az1) = 1 := by
    simp only [dot_add_left, dot_add_right, dot_smul_left, dot_smul_right, hu, r, r', hc]
    linarith [sin_sq_add_cos_sq σ]
  rw [d1, d2] at h2
  refine ⟨az2, h, ?_⟩
  rw [h2]
  ext <;> simp

theorem exists_inverse (lat1 lon1 lat2 lon2 : ℝ) : ∃ σ az1 az2 : ℝ, 0 ≤ σ ∧ σ ≤ π ∧ Leg lat1 lon1 az1 σ lat2 lon2 az2 := by
  obtain ⟨az1, h1⟩ := exists_course lat1 lon1 (geoNormal lat2 lon2)
  have u1 := geoNormal_isUnit lat1 lon1
  have u2 := geoNormal_isUnit lat2 lon2
  have hs : √(dot (geoNormal lat2 lon2) (geoNormal lat2 lon2) - dot (geoNormal lat1 lon1) (geoNormal lat2 lon2) ^ 2) =
      sin (angle (geoNormal lat1 lon1) (geoNormal lat2 lon2)) := by
    rw [u2.dot, ← cos_angle_unit u1 u2, ← Real.sin_eq_sqrt_one_sub_cos_sq (angle_nonneg _ _) (angle_le_pi _ _)]
  rw [hs] at h1
  rw [← cos_angle_unit u1 u2] at h1
  obtain ⟨az2, h2⟩ := exists_heading _ _ _ _ _ _ h1
  exact ⟨_, az1, az2, angle_nonneg _ _, angle_le_pi _ _, h2⟩

theorem exists_direct (lat1 lon1 az1 σ : ℝ) : ∃ lat2 lon2 az2 : ℝ, |lat2| ≤ π / 2 ∧ Leg lat1 lon1 az1 σ lat2 lon2 az2 := by
  have hu := (geoNormal_isUnit lat1 lon1).dot
  obtain ⟨p, q, r⟩ := dot_course lat1 lon1 az1
  have hc : dot (course lat1 lon1 az1) (course lat1 lon1 az1) = 1 := by
    conv_lhs => arg 1; unfold course
    rw [dot_add_left, dot_smul_left, dot_smul_left, p, q]
    linarith [sin_sq_add_cos_sq az1]
  have r' : dot (course lat1 lon1 az1) (geoNormal lat1 lon1) = 0 := by rw [dot_comm]; exact r
  have hv : UnitVec (cos σ • geoNormal lat1 lon1 + sin σ • course lat1 lon1 az1) := by
    have : dot (cos σ • geoNormal lat1 lon1 + sin σ • course lat1 lon1 az1)
        (cos σ • geoNormal lat1 lon1 + sin σ • course lat1 lon1 az1) = 1 := by
      simp only [dot_add_left, dot_add_right, dot_smul_left, dot_smul_right, hu, r, r', hc]
      linarith [sin_sq_add_cos_sq σ]
    unfold dot at this; unfold UnitVec; linarith
  obtain ⟨v, hvd⟩ : ∃ v, v = cos σ • geoNormal lat1 lon1 + sin σ • course lat1 lon1 az1 := ⟨_, rfl⟩
  rw [← hvd] at hv
  have uw := unitVec_app isRotation_Re.transpose hv
  obtain ⟨lat2, lon2, e, r1, r2, -⟩ := C03_ranges (app (transp Re) v) uw.ne Re isRotation_Re
  have hb := C02_roundtrip_unit (app (transp Re) v) uw Re isRotation_Re
  rw [e, lat_lon2n_E_fin, V3.fin_inj] at hb
  have hg := congrArg (app Re) hb
  rw [isRotation_Re.app_trans, isRotation_Re.app_trans, hvd] at hg
  obtain ⟨az2, h2⟩ := exists_heading _ _ _ _ _ _ hg
  exact ⟨lat2, lon2, az2, abs_le.2 ⟨r1, r2⟩, h2⟩

theorem deg_back (x : ℝ) : x * (180 / π) * (π / 180) = x := deg_rad x

/-- a geodesic library for spheres; it does not know ellipsoids -/
noncomputable def spheres : Geodesic XR where
  inverse a _ lat1 lon1 lat2 lon2 _ :=
    match a, lat1, lon1, lat2, lon2 with
    | .fin r, .fin p1, .fin l1, .fin p2, .fin l2 =>
      let h := exists_inverse (p1 * (π / 180)) (l1 * (π / 180)) (p2 * (π / 180)) (l2 * (π / 180))
      .ok (fin (r * h.choose), fin (h.choose_spec.choose * (180 / π)), fin (h.choose_spec.choose_spec.choose * (180 / π)))
    | _, _, _, _, _ => .error .ValueError
  direct a _ lat1 lon1 az1 s _ :=
    match a, lat1, lon1, az1, s with
    | .fin r, .fin p1, .fin l1, .fin az, .fin s =>
      let h := exists_direct (p1 * (π / 180)) (l1 * (π / 180)) (az * (π / 180)) (s / r)
      .ok (fin (h.choose * (180 / π)), fin (h.choose_spec.choose * (180 / π)), fin (h.choose_spec.choose_spec.choose * (180 / π)))
    | _, _, _, _, _ => .error .ValueError

theorem spheres_solve {r : ℝ} (hr : 0 < r) (unroll : Bool) : SolvesSphere spheres r unroll where
  inverse lat1 lon1 lat2 lon2 _ _ := by
    have h := exists_inverse (lat1 * (π / 180)) (lon1 * (π / 180)) (lat2 * (π / 180)) (lon2 * (π / 180))
    obtain ⟨s0, s1, leg⟩ := h.choose_spec.choose_spec.choose_spec
    refine ⟨_, _, _, rfl, by positivity, ?_, ?_⟩
    · rw [mul_comm]; exact mul_le_mul_of_nonneg_right s1 hr.le
    · rw [mul_comm r, mul_div_assoc, div_self hr.ne', mul_one, deg_back, deg_back]
      exact leg
  direct lat1 lon1 az1 s _ := by
    have h := exists_direct (lat1 * (π / 180)) (lon1 * (π / 180)) (az1 * (π / 180)) (s / r)
    obtain ⟨b, leg⟩ := h.choose_spec.choose_spec.choose_spec
    refine ⟨_, _, _, rfl, ?_, ?_⟩
    · have e1 : π / 2 * (180 / π) = 90 := by have := Real.pi_ne_zero; field_simp; norm_num
      exact (deg_bound b).trans_eq e1
    · rw [deg_back, deg_back, deg_back]
      exact leg

theorem small {x : ℝ} (h : |x| ≤ 1) : |x| < π / 2 := by linarith [Real.pi_gt_three]

example := C149_distance_and_azimuth spheres isRotation_Re 6371000 100 200 (by norm_num) (by norm_num) (by norm_num) (.str "sphere") false
  (spheres_solve (by norm_num) false) 1 2 (-1) 3 (small (by norm_num)).le (small (by norm_num)).le
  "ellipsoid" "greatcircle" (by decide) 'g' "reatcircle".toList (by decide) (by decide)
example := C149_track_distance spheres isRotation_Re 6371000 100 200 (by norm_num) (by norm_num) (.str "sphere")
  (spheres_solve (by norm_num) false) 1 2 (-1) 3 (small (by norm_num)).le (small (by norm_num)).le
  "ellipsoid" "greatcircle" (.inr (by decide)) (by decide) (by decide) (by decide)
example := C149_displace spheres 6371000 100 (by norm_num) (by norm_num) (.str "sphere") false
  (spheres_solve (by norm_num) false) 1 2 (small (by norm_num)) 1000 (1 / 2)
  "ellipsoid" "greatcircle" (by decide) (by decide)

end Nv.Cases
