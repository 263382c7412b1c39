import Verif.Props.Walk

/-!
# C126: the textbook formulas of spherical trigonometry (those of the ellipsoid and of the local frames are in C63)

The package works with n-vectors throughout; here its results are shown to be the classical formulas in latitude and longitude.
-/

namespace Nv
open Spec Real
open XR (fin)

namespace Spec

/-- the haversine of the central angle between two positions given by latitude and longitude -/
noncomputable def haversine (lat1 lon1 lat2 lon2 : ℝ) : ℝ :=
  sin ((lat2 - lat1) / 2) ^ 2 + cos lat1 * cos lat2 * sin ((lon2 - lon1) / 2) ^ 2

/-- local east and north at latitude/longitude, in the `e` frame -/
noncomputable def geoEast (lon : ℝ) : V3 ℝ := ⟨0, cos lon, sin lon⟩
noncomputable def geoNorth (lat lon : ℝ) : V3 ℝ := ⟨cos lat, -(sin lon * sin lat), cos lon * sin lat⟩

end Spec

theorem dot_geoNormal (lat1 lon1 lat2 lon2 : ℝ) :
    dot (geoNormal lat1 lon1) (geoNormal lat2 lon2) = sin lat1 * sin lat2 + cos lat1 * cos lat2 * cos (lon2 - lon1) := by
  rw [Real.cos_sub]; unfold dot geoNormal; ring

theorem dot_geoEast (lon1 lat2 lon2 : ℝ) : dot (geoEast lon1) (geoNormal lat2 lon2) = sin (lon2 - lon1) * cos lat2 := by
  rw [Real.sin_sub]; unfold dot geoNormal geoEast; ring

theorem dot_geoNorth (lat1 lon1 lat2 lon2 : ℝ) : dot (geoNorth lat1 lon1) (geoNormal lat2 lon2) =
    cos lat1 * sin lat2 - sin lat1 * cos lat2 * cos (lon2 - lon1) := by
  rw [Real.cos_sub]; unfold dot geoNormal geoNorth; ring

theorem haversine_eq (lat1 lon1 lat2 lon2 : ℝ) :
    dot (geoNormal lat1 lon1) (geoNormal lat2 lon2) = 1 - 2 * haversine lat1 lon1 lat2 lon2 := by
  rw [dot_geoNormal]
  unfold haversine
  have h1 : cos (lat2 - lat1) = 1 - 2 * sin ((lat2 - lat1) / 2) ^ 2 := by
    have := Real.cos_two_mul ((lat2 - lat1) / 2)
    rw [show 2 * ((lat2 - lat1) / 2) = lat2 - lat1 by ring] at this
    have h := Real.sin_sq_add_cos_sq ((lat2 - lat1) / 2)
    linarith
  have h2 : cos (lon2 - lon1) = 1 - 2 * sin ((lon2 - lon1) / 2) ^ 2 := by
    have := Real.cos_two_mul ((lon2 - lon1) / 2)
    rw [show 2 * ((lon2 - lon1) / 2) = lon2 - lon1 by ring] at this
    have h := Real.sin_sq_add_cos_sq ((lon2 - lon1) / 2)
    linarith
  rw [Real.cos_sub] at h1
  rw [h2]
  linear_combination h1

theorem angle_haversine (lat1 lon1 lat2 lon2 : ℝ) :
    angle (geoNormal lat1 lon1) (geoNormal lat2 lon2) = 2 * arcsin √(haversine lat1 lon1 lat2 lon2) ∧
      0 ≤ haversine lat1 lon1 lat2 lon2 ∧ haversine lat1 lon1 lat2 lon2 ≤ 1 := by
  have u1 := geoNormal_isUnit lat1 lon1
  have u2 := geoNormal_isUnit lat2 lon2
  have hc := cos_angle_unit u1 u2
  have h0 := angle_nonneg (geoNormal lat1 lon1) (geoNormal lat2 lon2)
  have hp := angle_le_pi (geoNormal lat1 lon1) (geoNormal lat2 lon2)
  rw [haversine_eq] at hc
  generalize angle (geoNormal lat1 lon1) (geoNormal lat2 lon2) = θ at *
  generalize haversine lat1 lon1 lat2 lon2 = h at *
  have hs : sin (θ / 2) ^ 2 = h := by
    have := Real.cos_two_mul (θ / 2)
    rw [show 2 * (θ / 2) = θ by ring] at this
    have h := Real.sin_sq_add_cos_sq (θ / 2)
    linarith
  have hs0 : 0 ≤ sin (θ / 2) := Real.sin_nonneg_of_nonneg_of_le_pi (by linarith) (by linarith)
  refine ⟨?_, by rw [← hs]; positivity, by linarith [Real.neg_one_le_cos θ]⟩
  rw [← hs, Real.sqrt_sq hs0, Real.arcsin_sin (by linarith) (by linarith)]
  ring

section
variable {R : M3 ℝ} (hR : IsRotation R)
include hR

/-- **C126** `great_circle_distance` of two positions given by latitude and longitude is the haversine formula, and the spherical law of cosines -/
theorem C126_haversine (lat1 lon1 lat2 lon2 r : ℝ) :
    great_circle_distance (lat_lon2n_E (fin lat1) (fin lon1) R.fin) (lat_lon2n_E (fin lat2) (fin lon2) R.fin) (fin r) =
      fin (2 * r * arcsin √(sin ((lat2 - lat1) / 2) ^ 2 + cos lat1 * cos lat2 * sin ((lon2 - lon1) / 2) ^ 2)) ∧
    great_circle_distance (lat_lon2n_E (fin lat1) (fin lon1) R.fin) (lat_lon2n_E (fin lat2) (fin lon2) R.fin) (fin r) =
      fin (r * arccos (sin lat1 * sin lat2 + cos lat1 * cos lat2 * cos (lon2 - lon1))) ∧
    euclidean_distance (lat_lon2n_E (fin lat1) (fin lon1) R.fin) (lat_lon2n_E (fin lat2) (fin lon2) R.fin) (fin r) =
      fin (2 * r * √(sin ((lat2 - lat1) / 2) ^ 2 + cos lat1 * cos lat2 * sin ((lon2 - lon1) / 2) ^ 2)) := by
  have u1 := unitVec_app hR.transpose (geoNormal_isUnit lat1 lon1)
  have u2 := unitVec_app hR.transpose (geoNormal_isUnit lat2 lon2)
  obtain ⟨ha, h0, h1⟩ := angle_haversine lat1 lon1 lat2 lon2
  rw [lat_lon2n_E_fin, lat_lon2n_E_fin, C18_eq_angle _ _ u1.ne u2.ne, angle_app hR.transpose]
  refine ⟨?_, ?_, ?_⟩
  · rw [ha]; unfold haversine; rw [XR.fin_inj]; ring
  · rw [angle_unit (geoNormal_isUnit _ _) (geoNormal_isUnit _ _), dot_geoNormal, XR.fin_inj]; ring
  · simp only [euclidean_distance, xr, len_sub_eq u1 u2, angle_app hR.transpose]
    rw [ha, XR.fin_inj, show 2 * arcsin √(haversine lat1 lon1 lat2 lon2) / 2 = arcsin √(haversine lat1 lon1 lat2 lon2) by ring,
      Real.sin_arcsin (by linarith [Real.sqrt_nonneg (haversine lat1 lon1 lat2 lon2)]) (Real.sqrt_le_one.mpr h1)]
    unfold haversine
    ring

/-- the local east and north of a position given by latitude and longitude -/
theorem geo_east_north {lat lon : ℝ} (h1 : -(π / 2) < lat) (h2 : lat < π / 2) :
    cross (northPole R) (app (transp R) (geoNormal lat lon)) ≠ 0 ∧
    dirOf (cross (northPole R) (app (transp R) (geoNormal lat lon))) = app (transp R) (geoEast lon) ∧
    cross (app (transp R) (geoNormal lat lon)) (app (transp R) (geoEast lon)) = app (transp R) (geoNorth lat lon) := by
  have hc : 0 < cos lat := Real.cos_pos_of_mem_Ioo ⟨h1, h2⟩
  have hsc := Real.sin_sq_add_cos_sq lon
  have e : cross (northPole R) (app (transp R) (geoNormal lat lon)) = cos lat • app (transp R) (geoEast lon) := by
    unfold northPole
    rw [cross_app hR.transpose, ← app_smul]
    congr 1
    ext <;> simp [cross, geoNormal, geoEast] <;> ring
  have hu : UnitVec (geoEast lon) := by unfold UnitVec geoEast; simp only; linarith
  refine ⟨northPole_ne h1 h2 hR (by rw [hR.app_trans]), ?_, ?_⟩
  · rw [e, dirOf_smul hc, dirOf_of_unit (unitVec_app hR.transpose hu)]
  · rw [cross_app hR.transpose]
    congr 1
    ext
    · simp only [cross, geoNormal, geoEast, geoNorth]; linear_combination cos lat * hsc
    · simp only [cross, geoNormal, geoEast, geoNorth]; ring
    · simp only [cross, geoNormal, geoEast, geoNorth]; ring

/-- **C126** on a sphere the azimuth is the textbook formula `atan2(sin Δlon cos lat2, cos lat1 sin lat2 - sin lat1 cos lat2 cos Δlon)` -/
theorem C126_azimuth (lat1 lon1 lat2 lon2 a : ℝ) (ha : 0 < a) (h1 : -(π / 2) < lat1) (h2 : lat1 < π / 2) :
    n_EA_E_and_n_EB_E2azimuth (lat_lon2n_E (fin lat1) (fin lon1) R.fin) (lat_lon2n_E (fin lat2) (fin lon2) R.fin) (fin a) (fin 0) R.fin =
      fin (XR.atan2 (sin (lon2 - lon1) * cos lat2) (cos lat1 * sin lat2 - sin lat1 * cos lat2 * cos (lon2 - lon1))) := by
  obtain ⟨hp, he, hn⟩ := geo_east_north hR (lon := lon1) h1 h2
  rw [lat_lon2n_E_fin, lat_lon2n_E_fin, azimuth_offpole (unitVec_app hR.transpose (geoNormal_isUnit _ _))
    (unitVec_app hR.transpose (geoNormal_isUnit _ _)) hR hp ha, he, hn, dot_app hR.transpose, dot_app hR.transpose, dot_geoEast, dot_geoNorth]

/-- **C126** the direct problem on a sphere: the classical destination formulas -/
theorem C126_destination (lat1 lon1 d az : ℝ) (h1 : -(π / 2) < lat1) (h2 : lat1 < π / 2) :
    ∃ lat2 lon2 : ℝ,
      n_E2lat_lon (n_EA_E_distance_and_azimuth2n_EB_E (lat_lon2n_E (fin lat1) (fin lon1) R.fin) (fin d) (fin az) R.fin) R.fin =
        (fin lat2, fin lon2) ∧
      lat2 = arcsin (sin lat1 * cos d + cos lat1 * sin d * cos az) ∧
      (-(π / 2) < lat2 → lat2 < π / 2 → ∃ k : ℤ,
        lon2 = lon1 + XR.atan2 (sin az * sin d * cos lat1) (cos d - sin lat1 * sin lat2) + k * (2 * π)) := by
  obtain ⟨hp, he, hn⟩ := geo_east_north hR (lon := lon1) h1 h2
  have hc1 : 0 < cos lat1 := Real.cos_pos_of_mem_Ioo ⟨h1, h2⟩
  have hu := unitVec_app hR.transpose (geoNormal_isUnit lat1 lon1)
  have hfr := frame_offpole hu hp
  have hB := reach_unit hfr d az
  have hdir := direct_offpole hu hp d az
  rw [lat_lon2n_E_fin, hdir]
  change ∃ lat2 lon2, n_E2lat_lon (reach _ _ d az).fin R.fin = _ ∧ _
  rw [he] at hB ⊢
  generalize hBd : reach (app (transp R) (geoNormal lat1 lon1)) (app (transp R) (geoEast lon1)) d az = B at *
  obtain ⟨lat2, lon2, e, r1, r2, r3, r4, r5⟩ := C03_ranges B hB.ne R hR
  refine ⟨lat2, lon2, e, ?_⟩
  -- the components of B
  have hback := C02_roundtrip_unit B hB R hR
  rw [e, lat_lon2n_E_fin, V3.fin_inj] at hback
  have hg : app R B = geoNormal lat2 lon2 := by rw [← hback, hR.app_trans]
  have hB' : app R B = cos d • geoNormal lat1 lon1 + sin d • (cos az • geoNorth lat1 lon1 + sin az • geoEast lon1) := by
    rw [← hBd]
    unfold reach
    rw [hn]
    simp only [app_add, app_smul, hR.app_trans]
  rw [hB'] at hg
  have gx := congrArg V3.x hg
  have gy := congrArg V3.y hg
  have gz := congrArg V3.z hg
  simp only [geoNormal, geoNorth, geoEast, add_x, add_y, add_z, smul_x, smul_y, smul_z] at gx gy gz
  have hsin : sin lat2 = sin lat1 * cos d + cos lat1 * sin d * cos az := by linarith
  refine ⟨by rw [← hsin, Real.arcsin_sin r1 r2], ?_⟩
  intro l1 l2
  have hc2 : 0 < cos lat2 := Real.cos_pos_of_mem_Ioo ⟨l1, l2⟩
  have hsl := Real.sin_sq_add_cos_sq lon1
  have hsa := Real.sin_sq_add_cos_sq lat1
  have es : cos lat2 * sin (lon2 - lon1) = sin d * sin az := by
    rw [Real.sin_sub]
    linear_combination (-cos lon1) * gy - sin lon1 * gz + sin d * sin az * hsl
  have ec : cos lat2 * cos (lon2 - lon1) = cos lat1 * cos d - sin lat1 * sin d * cos az := by
    rw [Real.cos_sub]
    linear_combination (-sin lon1) * gy + cos lon1 * gz + (cos lat1 * cos d - sin lat1 * sin d * cos az) * hsl
  have ec' : cos d - sin lat1 * sin lat2 = cos lat1 * (cos lat2 * cos (lon2 - lon1)) := by
    rw [ec, hsin]; linear_combination (-cos d) * hsa
  have es' : sin az * sin d * cos lat1 = cos lat1 * (cos lat2 * sin (lon2 - lon1)) := by rw [es]; ring
  have hat : XR.atan2 (sin az * sin d * cos lat1) (cos d - sin lat1 * sin lat2) = XR.atan2 (sin (lon2 - lon1)) (cos (lon2 - lon1)) := by
    rw [ec', es', XR.atan2_scale hc1, XR.atan2_scale hc2]
  rw [hat]
  have hone : cos (lon2 - lon1) ^ 2 + sin (lon2 - lon1) ^ 2 = 1 := by linarith [Real.sin_sq_add_cos_sq (lon2 - lon1)]
  have q1 := XR.cos_atan2 hone
  have q2 := XR.sin_atan2 hone
  generalize XR.atan2 (sin (lon2 - lon1)) (cos (lon2 - lon1)) = θ at *
  have : cos (lon2 - lon1 - θ) = 1 := by
    rw [Real.cos_sub, q1, q2]; linarith
  obtain ⟨k, hk⟩ := (Real.cos_eq_one_iff _).mp this
  exact ⟨k, by linarith⟩

/-- **C126** the cross track distance is the textbook formula `r asin(sin(d13/r) sin(θ13 - θ12))` in the distance and the azimuths from the start of the path -/
theorem C126_cross_track (A B P : V3 ℝ) (hA : UnitVec A) (hB : UnitVec B) (hP : UnitVec P) (hp : ProperPath A B)
    (hpole : cross (northPole R) A ≠ 0) (r a : ℝ) (hr : 0 < r) (ha : 0 < a) :
    ∃ x d θ12 θ13 : ℝ, cross_track_distance (A.fin, B.fin) P.fin (radius := fin r) = .ok (fin x) ∧
      great_circle_distance A.fin P.fin (fin r) = fin d ∧
      n_EA_E_and_n_EB_E2azimuth A.fin B.fin (fin a) (fin 0) R.fin = fin θ12 ∧
      n_EA_E_and_n_EB_E2azimuth A.fin P.fin (fin a) (fin 0) R.fin = fin θ13 ∧
      x = r * arcsin (sin (d / r) * sin (θ13 - θ12)) := by
  have hf := frame_offpole hA hpole
  have key : ∀ Q : V3 ℝ, UnitVec Q → ∃ θ, n_EA_E_and_n_EB_E2azimuth A.fin Q.fin (fin a) (fin 0) R.fin = fin θ ∧
      Q = reach A (dirOf (cross (northPole R) A)) (angle A Q) θ := by
    intro Q hQ
    have h29 := C29_inverse_direct_partial A Q hA hQ R hR hpole a ha
    rw [azimuth_offpole hA hQ hR hpole ha, C18_eq_angle _ _ hA.ne hQ.ne, mul_one, direct_offpole hA hpole, V3.fin_inj] at h29
    exact ⟨_, azimuth_offpole hA hQ hR hpole ha, h29.symm⟩
  obtain ⟨θ12, e12, hB12⟩ := key B hB
  obtain ⟨θ13, e13, hP13⟩ := key P hP
  refine ⟨_, angle A P * r, θ12, θ13, cross_track_fin hp hP r, C18_eq_angle _ _ hA.ne hP.ne r, e12, e13, ?_⟩
  rw [mul_comm r, mul_div_assoc, div_self hr.ne', mul_one]
  congr 2
  have hs12 : len (cross A B) = sin (angle A B) := (sin_angle_unit hA hB).symm
  have hs0 : sin (angle A B) ≠ 0 := by
    rw [← hs12]; exact (len_pos hp).ne'
  generalize dirOf (cross (northPole R) A) = e at *
  obtain ⟨d1, d2, d3⟩ := reach_dot hf (angle A P) θ13
  rw [← hP13] at d1 d2 d3
  have hcr : cross A B = sin (angle A B) • (sin θ12 • cross A e - cos θ12 • e) := by
    have haa : cross A (cross A e) = (-1 : ℝ) • e := by
      have h1 := hf.un.dot; have h2 := hf.perp
      have : cross A (cross A e) = dot A e • A - dot A A • e := by ext <;> simp [cross, dot] <;> ring
      rw [this, h1, h2]; ext <;> simp
    have : cross A (reach A e (angle A B) θ12) = cos (angle A B) • cross A A +
        sin (angle A B) • (cos θ12 • cross A (cross A e) + sin θ12 • cross A e) := by
      unfold reach
      ext <;> simp [cross] <;> ring
    conv_lhs => rw [hB12]
    rw [this, haa, cross_self]
    ext
    · simp only [add_x, smul_x, sub_x, zero_x]; ring
    · simp only [add_y, smul_y, sub_y, zero_y]; ring
    · simp only [add_z, smul_z, sub_z, zero_z]; ring
  rw [dot_dirOf_left, hs12, hcr, dot_smul_left]
  have : dot (sin θ12 • cross A e - cos θ12 • e) P = sin θ12 * dot (cross A e) P - cos θ12 * dot e P := by
    unfold dot; simp; ring
  rw [this, d2, d3, Real.sin_sub]
  field_simp
  ring

end

/-- the azimuth at `A` of the vector from `A` to `B`, two positions at the same distance from the centre of a sphere -/
theorem sphere_azimuth {a z : ℝ} (ha : 0 < a) (hz : z < a) (name : EllKey) (lat1 lon1 lat2 lon2 : ℝ)
    (h1 : -(π / 2) < lat1) (h2 : lat1 < π / 2) :
    ∃ P : Pvector XR, delta_N (.ecef (.real ((a - z) • app (transp Re) (geoNormal lat1 lon1)) (.real a 0 name Re)))
        (.ecef (.real ((a - z) • app (transp Re) (geoNormal lat2 lon2)) (.real a 0 name Re))) = .ok P ∧
      azimuth P.pvector = fin (XR.atan2 (sin (lon2 - lon1) * cos lat2) (cos lat1 * sin lat2 - sin lat1 * cos lat2 * cos (lon2 - lon1))) := by
  have hrad : 0 < a - z := by linarith
  have uA := unitVec_app isRotation_Re.transpose (geoNormal_isUnit lat1 lon1)
  obtain ⟨hp, he, hn⟩ := geo_east_north isRotation_Re (lon := lon1) h1 h2
  have hne : (a - z) • app (transp Re) (geoNormal lat1 lon1) ≠ 0 := smul_ne_zero hrad.ne' uA.ne
  have h10 := C09_p2n _ hne a ha Re isRotation_Re
  have hl : len ((a - z) • app (transp Re) (geoNormal lat1 lon1)) = a - z := by rw [len_smul, uA.len, mul_one, abs_of_pos hrad]
  have hdir : (len ((a - z) • app (transp Re) (geoNormal lat1 lon1)))⁻¹ • ((a - z) • app (transp Re) (geoNormal lat1 lon1)) =
      app (transp Re) (geoNormal lat1 lon1) := by
    change dirOf _ = _
    rw [dirOf_smul hrad, dirOf_of_unit uA]
  rw [hdir, hl, sub_sub_cancel] at h10
  have hback : (Position.ecef (.real ((a - z) • app (transp Re) (geoNormal lat1 lon1)) (.real a 0 name Re))).to_nvector =
      .real (app (transp Re) (geoNormal lat1 lon1)) z (.real a 0 name Re) := by
    change ECEFvector.to_nvector _ = _
    unfold ECEFvector.to_nvector Nvector.real FrameE.real ECEFvector.real
    simp only [h10]
  obtain ⟨M, hM, -, -, hc1, hc0⟩ := n_E2R_EN_offpole _ Re isRotation_Re hp
  rw [dirOf_of_unit uA] at hc0
  rw [he] at hc0 hc1
  rw [hn] at hc0
  have d := (delta_fin (A := .ecef (.real ((a - z) • app (transp Re) (geoNormal lat1 lon1)) (.real a 0 name Re)))
    (B := .ecef (.real ((a - z) • app (transp Re) (geoNormal lat2 lon2)) (.real a 0 name Re))) (z := z) hback rfl rfl).2.1 M hM
  refine ⟨_, d, ?_⟩
  have ey : (app (transp M) ((a - z) • app (transp Re) (geoNormal lat2 lon2) - (a - z) • app (transp Re) (geoNormal lat1 lon1))).y =
      (a - z) * (sin (lon2 - lon1) * cos lat2) := by
    change dot (col1 M) _ = _
    rw [hc1, dot_sub_right, dot_smul_right, dot_smul_right, dot_app isRotation_Re.transpose, dot_app isRotation_Re.transpose,
      dot_geoEast, dot_geoEast, sub_self, Real.sin_zero]
    ring
  have ex : (app (transp M) ((a - z) • app (transp Re) (geoNormal lat2 lon2) - (a - z) • app (transp Re) (geoNormal lat1 lon1))).x =
      (a - z) * (cos lat1 * sin lat2 - sin lat1 * cos lat2 * cos (lon2 - lon1)) := by
    change dot (col0 M) _ = _
    rw [hc0, dot_sub_right, dot_smul_right, dot_smul_right, dot_app isRotation_Re.transpose, dot_app isRotation_Re.transpose,
      dot_geoNorth, dot_geoNorth, sub_self, Real.cos_zero]
    ring
  unfold azimuth
  simp only [Pvector.real, V3.fin_y, V3.fin_x, XR.arctan2_fin]
  rw [ex, ey, XR.atan2_scale hrad]

/-- **C126** `GeoPoint.distance_and_azimuth` by great circles on a sphere: the haversine distance at the radius of the points, the textbook azimuth at the start,
and at the end the direction opposite to the textbook azimuth back to the start -/
theorem C126_distance_and_azimuth (G : Geodesic XR) (a z : ℝ) (ha : 0 < a) (hz : z < a) (name : EllKey) (lat1 lon1 lat2 lon2 : ℝ)
    (h1 : -(π / 2) < lat1) (h2 : lat1 < π / 2) (h3 : -(π / 2) < lat2) (h4 : lat2 < π / 2) (method : String) (c : Char) (cs : List Char)
    (hm : method.toList = c :: cs) (hc : c ≠ 'e') :
    ∃ azB : ℝ, (GeoPoint.real lat1 lon1 z (.real a 0 name Re)).distance_and_azimuth G (.geo (.real lat2 lon2 z (.real a 0 name Re))) (method := method) =
        .ok (fin (2 * (a - z) * arcsin √(sin ((lat2 - lat1) / 2) ^ 2 + cos lat1 * cos lat2 * sin ((lon2 - lon1) / 2) ^ 2)),
          fin (XR.atan2 (sin (lon2 - lon1) * cos lat2) (cos lat1 * sin lat2 - sin lat1 * cos lat2 * cos (lon2 - lon1))), fin azB) ∧
      -π ≤ azB ∧ azB < π ∧ ∃ k : ℤ,
        azB = XR.atan2 (sin (lon1 - lon2) * cos lat1) (cos lat2 * sin lat1 - sin lat2 * cos lat1 * cos (lon1 - lon2)) + π + k * (2 * π) := by
  have hrad : 0 < a - z := by linarith
  have nv : ∀ lat lon : ℝ, (GeoPoint.real lat lon z (.real a 0 name Re)).to_nvector =
      .real (app (transp Re) (geoNormal lat lon)) z (.real a 0 name Re) := by
    intro lat lon
    obtain ⟨n, hn, hu, hg⟩ := geoPoint_to_nvector lat lon z a 0 name Re isRotation_Re
    rw [← hg, isRotation_Re.trans_app]
    exact hn
  have ec : ∀ lat lon : ℝ, (Nvector.real (app (transp Re) (geoNormal lat lon)) z (.real a 0 name Re)).to_ecef_vector =
      .real ((a - z) • app (transp Re) (geoNormal lat lon)) (.real a 0 name Re) := by
    intro lat lon
    have h := (sphere_at name (unitVec_app isRotation_Re.transpose (geoNormal_isUnit lat lon)) (nv lat lon)).ec
    change (GeoPoint.to_nvector _).to_ecef_vector = _ at h
    rwa [nv] at h
  have hl : ∀ lat lon : ℝ, length (ECEFvector.real ((a - z) • app (transp Re) (geoNormal lat lon)) (.real a 0 name Re)).pvector = fin (a - z) := by
    intro lat lon
    unfold length; simp only [ECEFvector.real, xr]
    rw [len_smul, (unitVec_app isRotation_Re.transpose (geoNormal_isUnit lat lon)).len, mul_one, abs_of_pos hrad]
  obtain ⟨P, hP, azP⟩ := sphere_azimuth ha hz name lat1 lon1 lat2 lon2 h1 h2
  obtain ⟨Q, hQ, azQ⟩ := sphere_azimuth ha hz name lat2 lon2 lat1 lon1 h3 h4
  obtain ⟨azB, hb, b1, b2, ⟨k, hk⟩, -⟩ := C44_base_angle
    (XR.atan2 (sin (lon1 - lon2) * cos lat1) (cos lat2 * sin lat1 - sin lat2 * cos lat1 * cos (lon1 - lon2)) - π)
  refine ⟨azB, ?_, b1, b2, -k - 1, ?_⟩
  · unfold GeoPoint.distance_and_azimuth
    have hcf : check_frames_pos (GeoPoint.real lat1 lon1 z (.real a 0 name Re)).frame
      (.geo (.real lat2 lon2 z (.real a 0 name Re))) = .ok () := check_frames_pos_real a 0 name Re lat2 lon2 z
    rw [hcf, hm]
    simp only [bind, Except.bind, if_neg hc]
    unfold GeoPoint.distance_and_azimuth_greatcircle
    have hnB : (Position.geo (.real lat2 lon2 z (.real a 0 name Re))).to_nvector =
      .real (app (transp Re) (geoNormal lat2 lon2)) z (.real a 0 name Re) := nv lat2 lon2
    simp only [nv, hnB, ec, hl, hP, hQ, bind, Except.bind, pure, Except.pure, azP, azQ, Bool.false_eq_true, if_false]
    have hhalf : (lit 0.5 * (fin (a - z) + fin (a - z)) : XR) = fin (a - z) := by
      simp only [xr]; rw [XR.fin_inj]; push_cast; ring
    have hgc := (C126_haversine isRotation_Re lat1 lon1 lat2 lon2 (a - z)).1
    rw [lat_lon2n_E_fin, lat_lon2n_E_fin] at hgc
    rw [hhalf]
    simp only [Nvector.real, hgc, XR.pi_def, XR.sub_fin, hb]
  · push_cast; linarith

/-- **C126** Clairaut's relation: along a great circle `cos(latitude) sin(azimuth)` is the same at the start and at the end.  The two positions are neither equal nor antipodal. -/
theorem C126_clairaut (G : Geodesic XR) (a z : ℝ) (ha : 0 < a) (hz : z < a) (name : EllKey) (lat1 lon1 lat2 lon2 : ℝ)
    (h1 : -(π / 2) < lat1) (h2 : lat1 < π / 2) (h3 : -(π / 2) < lat2) (h4 : lat2 < π / 2) (method : String) (c : Char) (cs : List Char)
    (hm : method.toList = c :: cs) (hc : c ≠ 'e')
    (hne : |sin lat1 * sin lat2 + cos lat1 * cos lat2 * cos (lon2 - lon1)| < 1) :
    ∃ s azA azB : ℝ, (GeoPoint.real lat1 lon1 z (.real a 0 name Re)).distance_and_azimuth G (.geo (.real lat2 lon2 z (.real a 0 name Re))) (method := method) =
        .ok (fin s, fin azA, fin azB) ∧ cos lat1 * sin azA = cos lat2 * sin azB ∧
      sin (s / (a - z)) * sin azA = cos lat2 * sin (lon2 - lon1) := by
  obtain ⟨azB, e, -, -, k, hk⟩ := C126_distance_and_azimuth G a z ha hz name lat1 lon1 lat2 lon2 h1 h2 h3 h4 method c cs hm hc
  refine ⟨_, _, azB, e, ?_⟩
  have hrad : 0 < a - z := by linarith
  obtain ⟨hang, hh0, hh1⟩ := angle_haversine lat1 lon1 lat2 lon2
  have hsin := sin_angle_unit (geoNormal_isUnit lat1 lon1) (geoNormal_isUnit lat2 lon2)
  have hl := lagrange (geoNormal lat1 lon1) (geoNormal lat2 lon2)
  rw [(geoNormal_isUnit _ _).len, (geoNormal_isUnit _ _).len, dot_geoNormal] at hl
  obtain ⟨σ, hσ⟩ : ∃ σ, σ = len (cross (geoNormal lat1 lon1) (geoNormal lat2 lon2)) := ⟨_, rfl⟩
  rw [← hσ] at hl hsin
  have hσ0 : 0 ≤ σ := by rw [hσ]; exact len_nonneg _
  have hσp : 0 < σ := by
    rcases hσ0.lt_or_eq with h | h
    · exact h
    · exfalso
      rw [← h] at hl
      have := (sq_lt_one_iff_abs_lt_one _).mpr hne
      nlinarith
  have sq : ∀ p1 p2 dl : ℝ, (cos p1 * sin p2 - sin p1 * cos p2 * cos dl) ^ 2 + (sin dl * cos p2) ^ 2 =
      1 - (sin p1 * sin p2 + cos p1 * cos p2 * cos dl) ^ 2 := by
    intro p1 p2 dl
    have e1 := Real.sin_sq_add_cos_sq p1
    have e2 := Real.sin_sq_add_cos_sq p2
    have e3 := Real.sin_sq_add_cos_sq dl
    linear_combination cos p2 ^ 2 * e3 + (sin p2 ^ 2 + cos p2 ^ 2 * cos dl ^ 2) * e1 + e2
  have e1 := XR.sqrt_mul_sin_atan2 (sin (lon2 - lon1) * cos lat2) (cos lat1 * sin lat2 - sin lat1 * cos lat2 * cos (lon2 - lon1))
  have e2 := XR.sqrt_mul_sin_atan2 (sin (lon1 - lon2) * cos lat1) (cos lat2 * sin lat1 - sin lat2 * cos lat1 * cos (lon1 - lon2))
  have r1 : √((cos lat1 * sin lat2 - sin lat1 * cos lat2 * cos (lon2 - lon1)) ^ 2 + (sin (lon2 - lon1) * cos lat2) ^ 2) = σ := by
    rw [sq, ← Real.sqrt_sq hσ0, hl]; congr 1; ring
  have r2 : √((cos lat2 * sin lat1 - sin lat2 * cos lat1 * cos (lon1 - lon2)) ^ 2 + (sin (lon1 - lon2) * cos lat1) ^ 2) = σ := by
    rw [sq, ← Real.sqrt_sq hσ0, hl, ← neg_sub lon2 lon1, Real.cos_neg]; congr 1; ring
  rw [r1] at e1
  rw [r2, ← neg_sub lon2 lon1, Real.sin_neg] at e2
  rw [← neg_sub lon2 lon1, Real.sin_neg] at hk
  have hsB : sin azB = -sin (XR.atan2 (-sin (lon2 - lon1) * cos lat1) (cos lat2 * sin lat1 - sin lat2 * cos lat1 * cos (-(lon2 - lon1)))) := by
    rw [hk, Real.sin_add_int_mul_two_pi, Real.sin_add_pi]
  rw [hsB]
  refine ⟨?_, ?_⟩
  · apply mul_left_cancel₀ hσp.ne'
    linear_combination cos lat1 * e1 + cos lat2 * e2
  · have : 2 * (a - z) * arcsin √(sin ((lat2 - lat1) / 2) ^ 2 + cos lat1 * cos lat2 * sin ((lon2 - lon1) / 2) ^ 2) / (a - z) =
        angle (geoNormal lat1 lon1) (geoNormal lat2 lon2) := by
      rw [hang]; unfold haversine; field_simp
    rw [this, hsin, e1]; ring

/-- witness: from (0°, 0°) to (0°, 90°) the hypotheses of Clairaut's relation hold -/
example : |sin 0 * sin 0 + cos 0 * cos 0 * cos (π / 2 - 0)| < 1 := by simp

end Nv
