import Verif.Props.Textbook

/-!
# C149: on a spherical Earth the ellipsoid method and the great circle method agree

The ellipsoid method asks the geodesic library, which is not part of the package; what is assumed of it is stated in
`Spec.SolvesSphere`, in terms of going along a great circle (`Spec.Leg`).
-/

namespace Nv
open Spec Real
open XR (fin)

namespace Spec

/-- the horizontal unit vector of azimuth `az` at a latitude and longitude -/
noncomputable def course (lat lon az : ℝ) : V3 ℝ := cos az • geoNorth lat lon + sin az • geoEast lon

/-- going straight ahead on the unit sphere: leaving `(lat1, lon1)` with azimuth `az1` and going through the angle `σ` along
the great circle one arrives at `(lat2, lon2)`, heading for azimuth `az2` (all in radians) -/
structure Leg (lat1 lon1 az1 σ lat2 lon2 az2 : ℝ) : Prop where
  arrives : geoNormal lat2 lon2 = cos σ • geoNormal lat1 lon1 + sin σ • course lat1 lon1 az1
  heads : course lat2 lon2 az2 = (-sin σ) • geoNormal lat1 lon1 + cos σ • course lat1 lon1 az1

/-- the geodesic library solves the inverse and the direct problem on the sphere of radius `r` (its angles are in degrees) -/
structure SolvesSphere (G : Geodesic XR) (r : ℝ) (unroll : Bool) : Prop where
  inverse : ∀ lat1 lon1 lat2 lon2 : ℝ, |lat1| ≤ 90 → |lat2| ≤ 90 → ∃ s az1 az2 : ℝ,
    G.inverse (fin r) (fin 0) (fin lat1) (fin lon1) (fin lat2) (fin lon2) unroll = .ok (fin s, fin az1, fin az2) ∧
    0 ≤ s ∧ s ≤ π * r ∧
    Leg (lat1 * (π / 180)) (lon1 * (π / 180)) (az1 * (π / 180)) (s / r) (lat2 * (π / 180)) (lon2 * (π / 180)) (az2 * (π / 180))
  direct : ∀ lat1 lon1 az1 s : ℝ, |lat1| ≤ 90 → ∃ lat2 lon2 az2 : ℝ,
    G.direct (fin r) (fin 0) (fin lat1) (fin lon1) (fin az1) (fin s) unroll = .ok (fin lat2, fin lon2, fin az2) ∧ |lat2| ≤ 90 ∧
    Leg (lat1 * (π / 180)) (lon1 * (π / 180)) (az1 * (π / 180)) (s / r) (lat2 * (π / 180)) (lon2 * (π / 180)) (az2 * (π / 180))

end Spec

/-! ## The local axes -/

theorem geo_dots (lat lon : ℝ) :
    dot (geoNorth lat lon) (geoNorth lat lon) = 1 ∧ dot (geoEast lon) (geoEast lon) = 1 ∧
    dot (geoNorth lat lon) (geoEast lon) = 0 ∧ dot (geoNormal lat lon) (geoNorth lat lon) = 0 ∧
    dot (geoNormal lat lon) (geoEast lon) = 0 := by
  have h1 := sin_sq_add_cos_sq lat
  have h2 := sin_sq_add_cos_sq lon
  unfold dot geoNorth geoEast geoNormal
  refine ⟨?_, ?_, ?_, ?_, ?_⟩
  · linear_combination h1 + sin lat ^ 2 * h2
  · linear_combination h2
  · ring
  · simp only; linear_combination (-(cos lat * sin lat)) * h2
  · ring

theorem dot_course (lat lon az : ℝ) :
    dot (geoNorth lat lon) (course lat lon az) = cos az ∧ dot (geoEast lon) (course lat lon az) = sin az ∧
    dot (geoNormal lat lon) (course lat lon az) = 0 := by
  obtain ⟨a, b, c, d, e⟩ := geo_dots lat lon
  have c' : dot (geoEast lon) (geoNorth lat lon) = 0 := by rw [dot_comm]; exact c
  unfold course
  simp only [dot_add_right, dot_smul_right, a, b, c, c', d, e]
  refine ⟨?_, ?_, ?_⟩ <;> ring

/-- equal courses at one place: the azimuths differ by whole turns -/
theorem turns_of_trig {x y : ℝ} (hc : cos x = cos y) (hs : sin x = sin y) : ∃ k : ℤ, x = y + k * (2 * π) := by
  have : cos (x - y) = 1 := by
    rw [Real.cos_sub, hc, hs]; linarith [sin_sq_add_cos_sq y]
  obtain ⟨k, hk⟩ := (Real.cos_eq_one_iff _).mp this
  exact ⟨k, by linarith⟩

section
variable {lat1 lon1 az1 σ lat2 lon2 az2 : ℝ} (h : Leg lat1 lon1 az1 σ lat2 lon2 az2)
include h

theorem Spec.Leg.back : geoNormal lat1 lon1 = cos σ • geoNormal lat2 lon2 + (-sin σ) • course lat2 lon2 az2 := by
  have hs := sin_sq_add_cos_sq σ
  rw [h.arrives, h.heads]
  ext
  · simp only [add_x, smul_x]; linear_combination (-(geoNormal lat1 lon1).x) * hs
  · simp only [add_y, smul_y]; linear_combination (-(geoNormal lat1 lon1).y) * hs
  · simp only [add_z, smul_z]; linear_combination (-(geoNormal lat1 lon1).z) * hs

theorem Spec.Leg.start_dots : dot (geoEast lon1) (geoNormal lat2 lon2) = sin σ * sin az1 ∧
    dot (geoNorth lat1 lon1) (geoNormal lat2 lon2) = sin σ * cos az1 ∧
    dot (geoNormal lat1 lon1) (geoNormal lat2 lon2) = cos σ := by
  obtain ⟨a, b, c, d, e⟩ := geo_dots lat1 lon1
  obtain ⟨p, q, r⟩ := dot_course lat1 lon1 az1
  have e' : dot (geoEast lon1) (geoNormal lat1 lon1) = 0 := by rw [dot_comm]; exact e
  have d' : dot (geoNorth lat1 lon1) (geoNormal lat1 lon1) = 0 := by rw [dot_comm]; exact d
  rw [h.arrives]
  simp only [dot_add_right, dot_smul_right, p, q, r, e', d', (geoNormal_isUnit lat1 lon1).dot]
  refine ⟨?_, ?_, ?_⟩ <;> ring

theorem Spec.Leg.end_dots : dot (geoEast lon2) (geoNormal lat1 lon1) = -sin σ * sin az2 ∧
    dot (geoNorth lat2 lon2) (geoNormal lat1 lon1) = -sin σ * cos az2 := by
  obtain ⟨a, b, c, d, e⟩ := geo_dots lat2 lon2
  obtain ⟨p, q, r⟩ := dot_course lat2 lon2 az2
  have e' : dot (geoEast lon2) (geoNormal lat2 lon2) = 0 := by rw [dot_comm]; exact e
  have d' : dot (geoNorth lat2 lon2) (geoNormal lat2 lon2) = 0 := by rw [dot_comm]; exact d
  rw [h.back]
  simp only [dot_add_right, dot_smul_right, p, q, e', d']
  constructor <;> ring

theorem Spec.Leg.angle (h0 : 0 ≤ σ) (h1 : σ ≤ π) : Spec.angle (geoNormal lat1 lon1) (geoNormal lat2 lon2) = σ := by
  rw [angle_unit (geoNormal_isUnit _ _) (geoNormal_isUnit _ _), h.start_dots.2.2, Real.arccos_cos h0 h1]

end

/-! ## Positions on a sphere, any axes -/

section
variable {R : M3 ℝ} (hR : IsRotation R) {a : ℝ} (name : EllKey)
include hR

theorem sphere_nv (a : ℝ) (lat lon z : ℝ) : (GeoPoint.real lat lon z (.real a 0 name R)).to_nvector =
    .real (app (transp R) (geoNormal lat lon)) z (.real a 0 name R) := by
  obtain ⟨n, hn, hu, hg⟩ := geoPoint_to_nvector lat lon z a 0 name R hR
  rw [← hg, hR.trans_app]
  exact hn

theorem sphere_atR (a : ℝ) (lat lon z : ℝ) : At (.geo (.real lat lon z (.real a 0 name R))) (app (transp R) (geoNormal lat lon)) z
    ((a - z) • app (transp R) (geoNormal lat lon)) (.real a 0 name R) := by
  have hu := unitVec_app hR.transpose (geoNormal_isUnit lat lon)
  have h9 := C09_n2p _ hu.ne z a R hR
  have hd : (len (app (transp R) (geoNormal lat lon)))⁻¹ • app (transp R) (geoNormal lat lon) = app (transp R) (geoNormal lat lon) :=
    dirOf_of_unit hu
  rw [hd] at h9
  have hn := sphere_nv hR name a lat lon z
  refine ⟨hn, hu, ?_⟩
  change (GeoPoint.to_nvector _).to_ecef_vector = _
  rw [hn]
  unfold Nvector.to_ecef_vector Nvector.real FrameE.real ECEFvector.real
  simp only [h9]

/-- `delta_N` between two positions on a sphere given as ECEF vectors -/
theorem sphere_delta (ha : 0 < a) {z1 z2 : ℝ} (hz : z1 < a) (lat1 lon1 lat2 lon2 : ℝ) :
    ∃ (M : M3 ℝ) (P : Pvector XR), n_E2R_EN (app (transp R) (geoNormal lat1 lon1)).fin R.fin = M.fin ∧
      delta_N (.ecef (.real ((a - z1) • app (transp R) (geoNormal lat1 lon1)) (.real a 0 name R)))
        (.ecef (.real ((a - z2) • app (transp R) (geoNormal lat2 lon2)) (.real a 0 name R))) = .ok P ∧
      azimuth P.pvector = fin (XR.atan2
        (dot (col1 M) ((a - z2) • app (transp R) (geoNormal lat2 lon2) - (a - z1) • app (transp R) (geoNormal lat1 lon1)))
        (dot (col0 M) ((a - z2) • app (transp R) (geoNormal lat2 lon2) - (a - z1) • app (transp R) (geoNormal lat1 lon1)))) := by
  have hrad : 0 < a - z1 := by linarith
  have uA := unitVec_app hR.transpose (geoNormal_isUnit lat1 lon1)
  have hne : (a - z1) • app (transp R) (geoNormal lat1 lon1) ≠ 0 := smul_ne_zero hrad.ne' uA.ne
  have h10 := C09_p2n _ hne a ha R hR
  have hl : len ((a - z1) • app (transp R) (geoNormal lat1 lon1)) = a - z1 := by rw [len_smul, uA.len, mul_one, abs_of_pos hrad]
  have hdir : (len ((a - z1) • app (transp R) (geoNormal lat1 lon1)))⁻¹ • ((a - z1) • app (transp R) (geoNormal lat1 lon1)) =
      app (transp R) (geoNormal lat1 lon1) := by
    change dirOf _ = _
    rw [dirOf_smul hrad, dirOf_of_unit uA]
  rw [hdir, hl, sub_sub_cancel] at h10
  have hback : (Position.ecef (.real ((a - z1) • app (transp R) (geoNormal lat1 lon1)) (.real a 0 name R))).to_nvector =
      .real (app (transp R) (geoNormal lat1 lon1)) z1 (.real a 0 name R) := by
    change ECEFvector.to_nvector _ = _
    unfold ECEFvector.to_nvector Nvector.real FrameE.real ECEFvector.real
    simp only [h10]
  obtain ⟨M, hM, -⟩ := C12_R_EN_rotation _ uA.ne R hR
  have d := (delta_fin (A := .ecef (.real ((a - z1) • app (transp R) (geoNormal lat1 lon1)) (.real a 0 name R)))
    (B := .ecef (.real ((a - z2) • app (transp R) (geoNormal lat2 lon2)) (.real a 0 name R))) (z := z1) hback rfl rfl).2.1 M hM
  refine ⟨M, _, hM, d, ?_⟩
  unfold azimuth
  simp only [Pvector.real, V3.fin_y, V3.fin_x, XR.arctan2_fin]
  rfl

/-- the columns of the north-east-down frame, away from the poles -/
theorem sphere_cols {lat lon : ℝ} (h1 : -(π / 2) < lat) (h2 : lat < π / 2) {M : M3 ℝ}
    (hM : n_E2R_EN (app (transp R) (geoNormal lat lon)).fin R.fin = M.fin) :
    col1 M = app (transp R) (geoEast lon) ∧ col0 M = app (transp R) (geoNorth lat lon) := by
  obtain ⟨hp, he, hn⟩ := geo_east_north hR (lon := lon) h1 h2
  obtain ⟨M', hM', -, -, hc1, hc0⟩ := n_E2R_EN_offpole _ R hR hp
  have : M = M' := M3.fin_inj.1 (hM.symm.trans hM')
  subst this
  rw [dirOf_of_unit (unitVec_app hR.transpose (geoNormal_isUnit lat lon)), he, hn] at hc0
  rw [he] at hc1
  exact ⟨hc1, hc0⟩

end

theorem deg_rad (x : ℝ) : x * (180 / π) * (π / 180) = x := by have := Real.pi_ne_zero; field_simp
theorem rad_deg (x : ℝ) : deg2rad (fin x) = fin (x * (π / 180)) := deg2rad_fin x

theorem deg_le_90 {lat : ℝ} (h : |lat| ≤ π / 2) : |lat * (180 / π)| ≤ 90 := by
  have e1 : π / 2 * (180 / π) = 90 := by have := Real.pi_ne_zero; field_simp; norm_num
  exact (deg_bound h).trans_eq e1

theorem method_e {m : String} (hm : m.toList.head? = some 'e') : (∃ cs, m.toList = 'e' :: cs) ∧ strTake m 1 = "e" := by
  obtain ⟨cs, hcs⟩ : ∃ cs, m.toList = 'e' :: cs := by
    rcases hh : m.toList with _ | ⟨c, cs⟩
    · rw [hh] at hm; simp at hm
    · rw [hh] at hm; simp at hm; exact ⟨cs, by rw [hm]⟩
  exact ⟨⟨cs, hcs⟩, by unfold strTake; rw [hcs]; rfl⟩

/-- **C149** `distance_and_azimuth` between any two positions above the centre of a sphere: the ellipsoid method (for a geodesic
library which solves the sphere through their mean depth) and the great circle method return the same distance; and if neither
position is a pole and they are neither above each other nor antipodal, azimuths which agree up to whole turns. -/
theorem C149_distance_and_azimuth (G : Geodesic XR) {R : M3 ℝ} (hR : IsRotation R) (a z1 z2 : ℝ) (ha : 0 < a) (hz1 : z1 < a)
    (hz2 : z2 < a) (name : EllKey) (unroll : Bool) (hG : SolvesSphere G (a - (z1 + z2) / 2) unroll)
    (lat1 lon1 lat2 lon2 : ℝ) (hl1 : |lat1| ≤ π / 2) (hl2 : |lat2| ≤ π / 2)
    (me mg : String) (hme : me.toList.head? = some 'e') (c : Char) (cs : List Char) (hmg : mg.toList = c :: cs) (hc : c ≠ 'e') :
    ∃ s azA azB azA' azB' : ℝ,
      (GeoPoint.real lat1 lon1 z1 (.real a 0 name R)).distance_and_azimuth G (.geo (.real lat2 lon2 z2 (.real a 0 name R)))
        unroll (method := me) = .ok (fin s, fin azA, fin azB) ∧
      (GeoPoint.real lat1 lon1 z1 (.real a 0 name R)).distance_and_azimuth G (.geo (.real lat2 lon2 z2 (.real a 0 name R)))
        unroll (method := mg) = .ok (fin s, fin azA', fin azB') ∧
      (|lat1| < π / 2 → |lat2| < π / 2 → 0 < s → s < π * (a - (z1 + z2) / 2) →
        ∃ k l : ℤ, azA' = azA + k * (2 * π) ∧ azB' = azB + l * (2 * π)) := by
  have hr1 : 0 < a - z1 := by linarith
  have hr2 : 0 < a - z2 := by linarith
  have hr : 0 < a - (z1 + z2) / 2 := by linarith
  obtain ⟨⟨cs', hcs'⟩, -⟩ := method_e hme
  have hcf : check_frames_pos (GeoPoint.real lat1 lon1 z1 (.real a 0 name R)).frame
    (.geo (.real lat2 lon2 z2 (.real a 0 name R))) = .ok () := check_frames_pos_real a 0 name R lat2 lon2 z2
  -- the library
  obtain ⟨s, az1, az2, hinv, hs0, hs1, leg⟩ := hG.inverse (lat1 * (180 / π)) (lon1 * (180 / π)) (lat2 * (180 / π)) (lon2 * (180 / π))
    (deg_le_90 hl1) (deg_le_90 hl2)
  simp only [deg_rad] at leg
  have hz : (lit 0.5 * (fin z1 + fin z2) : XR) = fin ((z1 + z2) / 2) := by simp [xr]; ring
  have hsub : (fin a - fin ((z1 + z2) / 2) : XR) = fin (a - (z1 + z2) / 2) := by simp only [xr]
  have hE : (GeoPoint.real lat1 lon1 z1 (.real a 0 name R)).distance_and_azimuth G (.geo (.real lat2 lon2 z2 (.real a 0 name R)))
        unroll (method := me) = .ok (fin s, fin (az1 * (π / 180)), fin (az2 * (π / 180))) := by
    unfold GeoPoint.distance_and_azimuth
    rw [hcf, hcs']
    simp only [bind, Except.bind, if_true, GeoPoint.distance_and_azimuth_ellipsoid, Position.to_geo_point, FrameE.inverse,
      FrameE.inverse', Bool.false_eq_true, if_false, FrameE.real, GeoPoint.real, hz, hsub, rad2deg_fin, hinv, pure, Except.pure, deg2rad_fin]
  -- the great circle
  obtain ⟨M, P, hM, hP, azP⟩ := sphere_delta hR name ha hz1 lat1 lon1 lat2 lon2 (z2 := z2)
  obtain ⟨N, Q, hN, hQ, azQ⟩ := sphere_delta hR name ha hz2 lat2 lon2 lat1 lon1 (z2 := z1)
  obtain ⟨azB, hb, b1, b2, ⟨k, hk⟩, -⟩ := C44_base_angle
    (XR.atan2 (dot (col1 N) ((a - z1) • app (transp R) (geoNormal lat1 lon1) - (a - z2) • app (transp R) (geoNormal lat2 lon2)))
      (dot (col0 N) ((a - z1) • app (transp R) (geoNormal lat1 lon1) - (a - z2) • app (transp R) (geoNormal lat2 lon2))) - π)
  have hσ0 : 0 ≤ s / (a - (z1 + z2) / 2) := by positivity
  have hσ1 : s / (a - (z1 + z2) / 2) ≤ π := by rw [div_le_iff₀ hr]; exact hs1
  have ec : ∀ lat lon z : ℝ, (Nvector.real (app (transp R) (geoNormal lat lon)) z (.real a 0 name R)).to_ecef_vector =
      .real ((a - z) • app (transp R) (geoNormal lat lon)) (.real a 0 name R) := by
    intro lat lon z
    have h := (sphere_atR hR name a lat lon z).ec
    change (GeoPoint.to_nvector _).to_ecef_vector = _ at h
    rwa [sphere_nv hR name] at h
  have hl : ∀ lat lon z : ℝ, z < a →
      length (ECEFvector.real ((a - z) • app (transp R) (geoNormal lat lon)) (.real a 0 name R)).pvector = fin (a - z) := by
    intro lat lon z hz
    unfold length; simp only [ECEFvector.real, xr]
    rw [len_smul, (unitVec_app hR.transpose (geoNormal_isUnit lat lon)).len, mul_one, abs_of_pos (by linarith)]
  have hhalf : (lit 0.5 * (fin (a - z1) + fin (a - z2)) : XR) = fin (a - (z1 + z2) / 2) := by
    simp only [xr]; rw [XR.fin_inj]; push_cast; ring
  have hgc : great_circle_distance (app (transp R) (geoNormal lat1 lon1)).fin (app (transp R) (geoNormal lat2 lon2)).fin
      (fin (a - (z1 + z2) / 2)) = fin s := by
    rw [C18_eq_angle _ _ (unitVec_app hR.transpose (geoNormal_isUnit _ _)).ne (unitVec_app hR.transpose (geoNormal_isUnit _ _)).ne,
      angle_app hR.transpose, leg.angle hσ0 hσ1, div_mul_cancel₀ _ hr.ne']
  have hGC : (GeoPoint.real lat1 lon1 z1 (.real a 0 name R)).distance_and_azimuth G (.geo (.real lat2 lon2 z2 (.real a 0 name R)))
        unroll (method := mg) = .ok (fin s, fin (XR.atan2
        (dot (col1 M) ((a - z2) • app (transp R) (geoNormal lat2 lon2) - (a - z1) • app (transp R) (geoNormal lat1 lon1)))
        (dot (col0 M) ((a - z2) • app (transp R) (geoNormal lat2 lon2) - (a - z1) • app (transp R) (geoNormal lat1 lon1)))), fin azB) := by
    unfold GeoPoint.distance_and_azimuth
    rw [hcf, hmg]
    simp only [bind, Except.bind, if_neg hc]
    unfold GeoPoint.distance_and_azimuth_greatcircle
    have hnB : (Position.geo (.real lat2 lon2 z2 (.real a 0 name R))).to_nvector =
      .real (app (transp R) (geoNormal lat2 lon2)) z2 (.real a 0 name R) := sphere_nv hR name a lat2 lon2 z2
    simp only [sphere_nv hR name, hnB, ec, hl _ _ _ hz1, hl _ _ _ hz2, hP, hQ, bind, Except.bind, pure, Except.pure, azP, azQ,
      Bool.false_eq_true, if_false, hhalf]
    simp only [Nvector.real, hgc, XR.pi_def, XR.sub_fin, hb]
  refine ⟨s, _, _, _, azB, hE, hGC, fun p1 p2 s0 s1 => ?_⟩
  obtain ⟨q1, q2⟩ := abs_lt.1 p1
  obtain ⟨q3, q4⟩ := abs_lt.1 p2
  obtain ⟨m1, m0⟩ := sphere_cols hR q1 q2 hM
  obtain ⟨n1, n0⟩ := sphere_cols hR q3 q4 hN
  obtain ⟨d1, d2, -⟩ := leg.start_dots
  obtain ⟨d3, d4⟩ := leg.end_dots
  have o1 := geo_dots lat1 lon1
  have o2 := geo_dots lat2 lon2
  obtain ⟨σ, hσ⟩ : ∃ σ, σ = s / (a - (z1 + z2) / 2) := ⟨_, rfl⟩
  rw [← hσ] at d1 d2 d3 d4 hσ0 hσ1
  have hsin : 0 < sin σ := by
    apply Real.sin_pos_of_pos_of_lt_pi
    · rw [hσ]; positivity
    · rw [hσ, div_lt_iff₀ hr]; exact s1
  have sq : ∀ x : ℝ, cos x ^ 2 + sin x ^ 2 = 1 := fun x => by linarith [sin_sq_add_cos_sq x]
  obtain ⟨k1, hk1⟩ : ∃ k : ℤ, XR.atan2
        (dot (col1 M) ((a - z2) • app (transp R) (geoNormal lat2 lon2) - (a - z1) • app (transp R) (geoNormal lat1 lon1)))
        (dot (col0 M) ((a - z2) • app (transp R) (geoNormal lat2 lon2) - (a - z1) • app (transp R) (geoNormal lat1 lon1))) =
      az1 * (π / 180) + k * (2 * π) := by
    rw [m1, m0]
    simp only [dot_sub_right, dot_smul_right, dot_app hR.transpose, d1, d2]
    rw [dot_comm (geoEast lon1), dot_comm (geoNorth lat1 lon1), o1.2.2.2.1, o1.2.2.2.2, mul_zero, sub_zero, sub_zero,
      XR.atan2_scale hr2, XR.atan2_scale hsin]
    exact turns_of_trig (XR.cos_atan2 (sq _)) (XR.sin_atan2 (sq _))
  refine ⟨k1, ?_⟩
  obtain ⟨l1, hl1⟩ : ∃ l : ℤ, azB = az2 * (π / 180) + l * (2 * π) := by
    rw [n1, n0] at hk
    simp only [dot_sub_right, dot_smul_right, dot_app hR.transpose, d3, d4] at hk
    rw [dot_comm (geoEast lon2), dot_comm (geoNorth lat2 lon2), o2.2.2.2.1, o2.2.2.2.2, mul_zero, sub_zero, sub_zero,
      XR.atan2_scale hr1, neg_mul, neg_mul, ← mul_neg, ← mul_neg, XR.atan2_scale hsin] at hk
    have e1 : cos azB = cos (az2 * (π / 180)) := by
      have := XR.cos_atan2 (x := -cos (az2 * (π / 180))) (y := -sin (az2 * (π / 180))) (by linarith [sq (az2 * (π / 180))])
      rw [show XR.atan2 (-sin (az2 * (π / 180))) (-cos (az2 * (π / 180))) = azB + π + k * (2 * π) by linarith,
        Real.cos_add_int_mul_two_pi, Real.cos_add_pi] at this
      linarith
    have e2 : sin azB = sin (az2 * (π / 180)) := by
      have := XR.sin_atan2 (x := -cos (az2 * (π / 180))) (y := -sin (az2 * (π / 180))) (by linarith [sq (az2 * (π / 180))])
      rw [show XR.atan2 (-sin (az2 * (π / 180))) (-cos (az2 * (π / 180))) = azB + π + k * (2 * π) by linarith,
        Real.sin_add_int_mul_two_pi, Real.sin_add_pi] at this
      linarith
    exact turns_of_trig e1 e2
  exact ⟨l1, hk1, hl1⟩

/-- **C149** `track_distance` of a path between two positions above the centre of a sphere: the same by the ellipsoid method and by
great circles -/
theorem C149_track_distance (G : Geodesic XR) {R : M3 ℝ} (hR : IsRotation R) (a z1 z2 : ℝ) (hz1 : z1 < a)
    (hz2 : z2 < a) (name : EllKey) (hG : SolvesSphere G (a - (z1 + z2) / 2) false)
    (lat1 lon1 lat2 lon2 : ℝ) (hl1 : |lat1| ≤ π / 2) (hl2 : |lat2| ≤ π / 2)
    (me mg : String) (hme : me.toList.take 2 = ['e', 'x'] ∨ me.toList.take 2 = ['e', 'l'])
    (h1 : mg.toList.take 2 ≠ ['e', 'x']) (h2 : mg.toList.take 2 ≠ ['e', 'l']) (h3 : mg.toList.take 2 ≠ ['e', 'u']) :
    ∃ s : ℝ,
      (GeoPath.mk (.geo (.real lat1 lon1 z1 (.real a 0 name R))) (.geo (.real lat2 lon2 z2 (.real a 0 name R)))).track_distance G me =
        .ok (fin s) ∧
      (GeoPath.mk (.geo (.real lat1 lon1 z1 (.real a 0 name R))) (.geo (.real lat2 lon2 z2 (.real a 0 name R)))).track_distance G mg =
        .ok (fin s) := by
  have hr : 0 < a - (z1 + z2) / 2 := by linarith
  obtain ⟨s, az1, az2, hinv, hs0, hs1, leg⟩ := hG.inverse (lat1 * (180 / π)) (lon1 * (180 / π)) (lat2 * (180 / π)) (lon2 * (180 / π))
    (deg_le_90 hl1) (deg_le_90 hl2)
  simp only [deg_rad] at leg
  have hσ0 : 0 ≤ s / (a - (z1 + z2) / 2) := by positivity
  have hσ1 : s / (a - (z1 + z2) / 2) ≤ π := by rw [div_le_iff₀ hr]; exact hs1
  refine ⟨s, ?_, ?_⟩
  · rw [C46_exact G _ lat1 lon1 z1 lat2 lon2 z2 a 0 name R rfl rfl me hme]
    simp only [rad2deg_fin, hinv, Except.map]
  · rw [((C46_sphere G _ _ _ _ _ _ _ _ (sphere_atR hR name a lat1 lon1 z1) (sphere_atR hR name a lat2 lon2 z2) mg 0).2 h1 h2 h3).2]
    rw [len_smul, len_smul, (unitVec_app hR.transpose (geoNormal_isUnit _ _)).len, (unitVec_app hR.transpose (geoNormal_isUnit _ _)).len,
      mul_one, mul_one, abs_of_pos (by linarith), abs_of_pos (by linarith), angle_app hR.transpose, leg.angle hσ0 hσ1,
      show (a - z1 + (a - z2)) / 2 = a - (z1 + z2) / 2 by ring, div_mul_cancel₀ _ hr.ne']

/-- **C149** `displace` on a sphere, default axes, from a position which is not a pole: the ellipsoid method (for a geodesic library
which solves the sphere at the depth of the position) and the great circle method lead to the same position, whatever the distance
and azimuth.  If that is not a pole, the arrival azimuths agree up to whole turns for distances below half way round; between half
way and the whole way round they are opposite. -/
theorem C149_displace (G : Geodesic XR) (a z : ℝ) (ha : 0 < a) (hz : z < a) (name : EllKey) (unroll : Bool)
    (hG : SolvesSphere G (a - z) unroll) (lat lon : ℝ) (hl : |lat| < π / 2) (d az : ℝ)
    (me mg : String) (hme : me.toList.head? = some 'e') (hmg : mg.toList.head? ≠ some 'e') :
    ∃ latB lonB lonB' azB azB' : ℝ,
      (GeoPoint.real lat lon z (.real a 0 name Re)).displace G (fin d) (fin az) unroll (method := me) =
        .ok (.real latB lonB z (.real a 0 name Re), fin azB) ∧
      (GeoPoint.real lat lon z (.real a 0 name Re)).displace G (fin d) (fin az) unroll (method := mg) =
        .ok (.real latB lonB' z (.real a 0 name Re), fin azB') ∧
      (GeoPoint.real latB lonB z (.real a 0 name Re)).to_nvector = (GeoPoint.real latB lonB' z (.real a 0 name Re)).to_nvector ∧
      (|latB| < π / 2 → (∃ k : ℤ, lonB' = lonB + k * (2 * π)) ∧
        (0 < d → d < π * (a - z) → ∃ k : ℤ, azB' = azB + k * (2 * π)) ∧
        (π * (a - z) < d → d < 2 * π * (a - z) → ∃ k : ℤ, azB' = azB + π + k * (2 * π))) := by
  have hr : 0 < a - z := by linarith
  obtain ⟨-, ht⟩ := method_e hme
  obtain ⟨lat2, lon2, az2, hdir, hl2, leg⟩ := hG.direct (lat * (180 / π)) (lon * (180 / π)) (az * (180 / π)) d (deg_le_90 hl.le)
  simp only [deg_rad] at leg
  have hsub : (fin a - fin z : XR) = fin (a - z) := by simp only [xr]
  have hE : (GeoPoint.real lat lon z (.real a 0 name Re)).displace G (fin d) (fin az) unroll (method := me) =
      .ok (.real (lat2 * (π / 180)) (lon2 * (π / 180)) z (.real a 0 name Re), fin (az2 * (π / 180))) := by
    unfold GeoPoint.displace
    rw [if_pos ht]
    unfold GeoPoint.displace_ellipsoid FrameE.direct FrameE.direct'
    simp only [GeoPoint.real, GeoPoint.latitude_deg, GeoPoint.longitude_deg, rad2deg_fin, if_true, Bool.false_eq_true, if_false,
      FrameE.real, hsub, hdir, bind, Except.bind, pure, Except.pure, GeoPoint.new, deg2rad_fin]
  obtain ⟨q1, q2⟩ := abs_lt.1 hl
  obtain ⟨-, -, latB, lonB, azB, hGC, hnB, hgB, -, -, hturn⟩ := sphere_displace G ha hz name hmg q1 q2
    (sphere_nv isRotation_Re name a lat lon z) d az
  have hGC' : (GeoPoint.real lat lon z (.real a 0 name Re)).displace G (fin d) (fin az) unroll (method := mg) =
      .ok (.real latB lonB z (.real a 0 name Re), fin azB) := by
    rw [← hGC]
    unfold GeoPoint.displace
    have : strTake mg 1 ≠ "e" := by
      intro h
      apply hmg
      unfold strTake at h
      rcases hh : mg.toList with _ | ⟨c, cs⟩
      · rw [hh] at h; exact absurd h (by decide)
      · rw [hh] at h
        have := congrArg String.toList h
        simp at this
        simp [this]
    rw [if_neg this, if_neg this]
  obtain ⟨-, he, hn⟩ := geo_east_north isRotation_Re (lon := lon) q1 q2
  have hreach : reach (app (transp Re) (geoNormal lat lon)) (dirOf (cross (northPole Re) (app (transp Re) (geoNormal lat lon))))
      (d / (a - z)) az = app (transp Re) (geoNormal (lat2 * (π / 180)) (lon2 * (π / 180))) := by
    rw [leg.arrives, he]
    unfold reach course
    rw [hn]
    simp only [app_add, app_smul]
  have hhead : heading (app (transp Re) (geoNormal lat lon)) (dirOf (cross (northPole Re) (app (transp Re) (geoNormal lat lon))))
      (d / (a - z)) az = app (transp Re) (course (lat2 * (π / 180)) (lon2 * (π / 180)) (az2 * (π / 180))) := by
    rw [leg.heads, he]
    unfold heading course
    rw [hn]
    simp only [app_add, app_smul]
  rw [hreach] at hnB hgB hturn
  rw [hhead] at hturn
  have hb2 : |lat2 * (π / 180)| ≤ π / 2 := by
    rw [abs_mul, abs_of_pos (show (0 : ℝ) < π / 180 by positivity)]
    calc |lat2| * (π / 180) ≤ 90 * (π / 180) := mul_le_mul_of_nonneg_right hl2 (by positivity)
      _ = π / 2 := by ring
  -- the position
  have hnn : geoNormal latB lonB = geoNormal (lat2 * (π / 180)) (lon2 * (π / 180)) := by
    have h := (sphere_nv isRotation_Re name a latB lonB z).symm.trans hnB
    have h' := congrArg (app Re) (V3.fin_inj.1 (congrArg Nvector.normal h))
    rwa [isRotation_Re.app_trans, isRotation_Re.app_trans] at h'
  obtain ⟨l, m, hlm, r1, r2, -⟩ := C03_ranges (app (transp Re) (geoNormal (lat2 * (π / 180)) (lon2 * (π / 180))))
    (unitVec_app isRotation_Re.transpose (geoNormal_isUnit _ _)).ne Re isRotation_Re
  have hlat : latB = l := by
    have h := congrArg GeoPoint.latitude hgB
    unfold Nvector.to_geo_point Nvector.real FrameE.real at h
    simp only [hlm] at h
    exact XR.fin_inj.1 h
  have hsame : latB = lat2 * (π / 180) := by
    have h := congrArg V3.x hnn
    simp only [geoNormal] at h
    rw [hlat] at h ⊢
    obtain ⟨b1, b2⟩ := abs_le.1 hb2
    rw [← Real.arcsin_sin r1 r2, h, Real.arcsin_sin b1 b2]
  refine ⟨lat2 * (π / 180), lon2 * (π / 180), lonB, az2 * (π / 180), azB, hE, hsame ▸ hGC', ?_, fun hp => ?_⟩
  · rw [sphere_nv isRotation_Re name, sphere_nv isRotation_Re name, ← hsame, hnn]
    rw [hsame]
  obtain ⟨p1, p2⟩ := abs_lt.1 hp
  have hcos : 0 < cos (lat2 * (π / 180)) := Real.cos_pos_of_mem_Ioo ⟨p1, p2⟩
  have hlon : ∃ k : ℤ, lonB = lon2 * (π / 180) + k * (2 * π) := by
    have hy := congrArg V3.y hnn
    have hzz := congrArg V3.z hnn
    simp only [geoNormal] at hy hzz
    rw [hsame] at hy hzz
    exact turns_of_trig (mul_right_cancel₀ hcos.ne' (neg_injective hzz)) (mul_right_cancel₀ hcos.ne' hy)
  obtain ⟨e, heB, ht⟩ := hturn (by rw [hsame]; exact p1) (by rw [hsame]; exact p2)
  obtain ⟨-, he2, hn2⟩ := geo_east_north isRotation_Re (lon := lon2 * (π / 180)) p1 p2
  rw [he2] at heB
  rw [heB, hn2, ← app_smul, ← app_smul, ← app_add, ← app_smul, ← app_smul] at ht
  have ht' := congrArg (app Re) ht
  rw [isRotation_Re.app_trans, isRotation_Re.app_trans] at ht'
  change |sin (d / (a - z))| • course _ _ azB = _ at ht'
  have t1 := congrArg (dot (geoNorth (lat2 * (π / 180)) (lon2 * (π / 180)))) ht'
  have t2 := congrArg (dot (geoEast (lon2 * (π / 180)))) ht'
  rw [dot_smul_right, dot_smul_right, (dot_course _ _ _).1, (dot_course _ _ _).1] at t1
  rw [dot_smul_right, dot_smul_right, (dot_course _ _ _).2.1, (dot_course _ _ _).2.1] at t2
  refine ⟨hlon, fun d0 d1 => ?_, fun d0 d1 => ?_⟩
  · have hsin : 0 < sin (d / (a - z)) := Real.sin_pos_of_pos_of_lt_pi (by positivity) (by rw [div_lt_iff₀ hr]; exact d1)
    rw [abs_of_pos hsin] at t1 t2
    exact turns_of_trig (mul_left_cancel₀ hsin.ne' t1) (mul_left_cancel₀ hsin.ne' t2)
  · have hsin : sin (d / (a - z)) < 0 := by
      have h1 : π < d / (a - z) := by rw [lt_div_iff₀ hr]; exact d0
      have h2 : d / (a - z) < 2 * π := by rw [div_lt_iff₀ hr]; exact d1
      have h3 := Real.sin_pos_of_pos_of_lt_pi (x := d / (a - z) - π) (by linarith) (by linarith)
      rw [Real.sin_sub_pi] at h3
      linarith
    rw [abs_of_neg hsin] at t1 t2
    apply turns_of_trig
    · rw [Real.cos_add_pi]
      apply mul_left_cancel₀ hsin.ne
      linarith
    · rw [Real.sin_add_pi]
      apply mul_left_cancel₀ hsin.ne
      linarith

end Nv
