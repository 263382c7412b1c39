import Verif.Spec.Turns
import Verif.Props.Longitude
import Verif.Props.Walk

/-!
# C137: angles count modulo full turns
-/

namespace Nv
open Spec Real
open XR (fin)

theorem Spec.SameAngle.sin {x y : ℝ} (h : SameAngle x y) : Real.sin y = Real.sin x := by
  obtain ⟨k, rfl⟩ := h; exact Real.sin_add_int_mul_two_pi x k
theorem Spec.SameAngle.cos {x y : ℝ} (h : SameAngle x y) : Real.cos y = Real.cos x := by
  obtain ⟨k, rfl⟩ := h; exact Real.cos_add_int_mul_two_pi x k
theorem Spec.SameAngle.refl (x : ℝ) : SameAngle x x := ⟨0, by simp⟩

/-- sine and cosine determine the angle up to turns -/
theorem sameAngle_of {x y : ℝ} (hs : Real.sin y = Real.sin x) (hc : Real.cos y = Real.cos x) : SameAngle x y := by
  have h : (y : Real.Angle) = x := Real.Angle.cos_sin_inj hc hs
  obtain ⟨k, hk⟩ := Real.Angle.angle_eq_iff_two_pi_dvd_sub.mp h
  exact ⟨k, by linarith⟩

/-- **C137** two pairs of angles, of any size, give the same n-vector exactly if they name the same place -/
theorem C137_same_place (lat lon lat' lon' : ℝ) (R : M3 ℝ) (hR : IsRotation R) :
    lat_lon2n_E (fin lat') (fin lon') R.fin = lat_lon2n_E (fin lat) (fin lon) R.fin ↔ SameSpot lat lon lat' lon' := by
  rw [lat_lon2n_E_fin, lat_lon2n_E_fin, V3.fin_inj]
  constructor
  · intro h
    have h := congrArg (app R) h
    rw [hR.app_trans, hR.app_trans] at h
    simp only [geoNormal, V3.mk.injEq] at h
    obtain ⟨h1, h2, h3⟩ := h
    have h3 : Real.cos lon' * Real.cos lat' = Real.cos lon * Real.cos lat := neg_inj.mp h3
    have hsq : Real.cos lat' ^ 2 = Real.cos lat ^ 2 := by
      have a := Real.sin_sq_add_cos_sq lat; have b := Real.sin_sq_add_cos_sq lat'
      rw [h1] at b; linarith
    rcases eq_or_ne (Real.cos lat) 0 with h0 | h0
    · have h0' : Real.cos lat' = 0 := by rw [h0] at hsq; nlinarith
      refine .inr (.inr ⟨sameAngle_of h1 (by rw [h0, h0']), ?_⟩)
      have : Real.sin lat ^ 2 = 1 := by have a := Real.sin_sq_add_cos_sq lat; rw [h0] at a; linarith
      rcases mul_self_eq_one_iff.mp ((sq (Real.sin lat)).symm.trans this) with e | e
      · exact .inl (sameAngle_of (by rw [e, Real.sin_pi_div_two]) (by rw [h0, Real.cos_pi_div_two]))
      · exact .inr (sameAngle_of (by rw [e, Real.sin_neg, Real.sin_pi_div_two]) (by rw [h0, Real.cos_neg, Real.cos_pi_div_two]))
    · rcases sq_eq_sq_iff_eq_or_eq_neg.mp hsq with e | e
      · rw [e] at h2 h3
        exact .inl ⟨sameAngle_of h1 e, sameAngle_of (mul_right_cancel₀ h0 h2) (mul_right_cancel₀ h0 h3)⟩
      · rw [e] at h2 h3
        refine .inr (.inl ⟨sameAngle_of (by rw [h1, Real.sin_pi_sub]) (by rw [e, Real.cos_pi_sub]), sameAngle_of ?_ ?_⟩)
        · rw [Real.sin_add_pi]; apply mul_right_cancel₀ h0; linarith
        · rw [Real.cos_add_pi]; apply mul_right_cancel₀ h0; linarith
  · intro h
    congr 1
    rcases h with ⟨h1, h2⟩ | ⟨h1, h2⟩ | ⟨h1, h2⟩
    · simp only [geoNormal, h1.sin, h1.cos, h2.sin, h2.cos]
    · simp only [geoNormal, h1.sin, h1.cos, h2.sin, h2.cos, Real.sin_pi_sub, Real.cos_pi_sub, Real.sin_add_pi, Real.cos_add_pi,
        mul_neg, neg_mul, neg_neg]
    · have h0 : Real.cos lat = 0 := by
        rcases h2 with h2 | h2
        · rw [h2.cos, Real.cos_pi_div_two]
        · rw [h2.cos, Real.cos_neg, Real.cos_pi_div_two]
      simp only [geoNormal, h1.sin, h1.cos, h0, mul_zero]

/-- the same position, named by other angles -/
def Spec.SamePosition (p q : GeoPoint XR) : Prop :=
  ∃ lat lon lat' lon' : ℝ, p.latitude = fin lat ∧ p.longitude = fin lon ∧ q.latitude = fin lat' ∧ q.longitude = fin lon' ∧
    SameSpot lat lon lat' lon' ∧ q.z = p.z ∧ q.frame = p.frame

theorem Spec.SamePosition.to_nvector {p q : GeoPoint XR} (h : SamePosition p q) {R : M3 ℝ} (hR : IsRotation R)
    (hF : p.frame.R_Ee = R.fin) : q.to_nvector = p.to_nvector := by
  obtain ⟨lat, lon, lat', lon', h1, h2, h3, h4, h5, h6, h7⟩ := h
  unfold GeoPoint.to_nvector
  rw [h1, h2, h3, h4, h6, h7, hF, (C137_same_place lat lon lat' lon' R hR).mpr h5]

/-- **C137** whatever the size of the given angles, converting a GeoPoint to an n-vector and back names the same place by a latitude
between -90 and 90 degrees and a longitude between -180 and 180 degrees -/
theorem C137_reduced (lat lon z : ℝ) (F : FrameE XR) (R : M3 ℝ) (hR : IsRotation R) (hF : F.R_Ee = R.fin) :
    ∃ lat' lon' : ℝ, (⟨fin lat, fin lon, fin z, F⟩ : GeoPoint XR).to_nvector.to_geo_point = ⟨fin lat', fin lon', fin z, F⟩ ∧
      SameSpot lat lon lat' lon' ∧ |lat'| ≤ π / 2 ∧ |lon'| ≤ π := by
  obtain ⟨n, hn, hu, _⟩ := C01_lat_lon2n_E_unit lat lon R hR
  obtain ⟨lat', lon', h, h1, h2, h3, h4, _⟩ := C03_ranges n hu.ne R hR
  refine ⟨lat', lon', ?_, ?_, abs_le.mpr ⟨h1, h2⟩, abs_le.mpr ⟨h3, h4⟩⟩
  · unfold GeoPoint.to_nvector Nvector.to_geo_point
    simp only [hF, hn, h]
  · rw [← C137_same_place _ _ _ _ R hR, hn]
    have := C02_roundtrip_unit n hu R hR
    rwa [h] at this

theorem displace_gc (G : Geodesic XR) {method : String} (hm : method.toList.head? ≠ some 'e') (p : GeoPoint XR) (d az : XR)
    (unroll degrees : Bool) : p.displace G d az unroll degrees method = p.displace_great_circle d az degrees := by
  unfold GeoPoint.displace
  rw [if_neg]
  intro h
  apply hm
  unfold strTake at h
  rcases hh : method.toList with _ | ⟨c, cs⟩
  · rw [hh] at h; exact absurd h (by decide)
  · rw [hh] at h
    have := congrArg String.toList h
    simp at this
    simp [this]

/-- **C137** the other names of a position: its n-vector and Cartesian position, the local frames there, the vectors from and to it, the
great circle distances and azimuths from and to it and displacements along great circles are the same objects -/
theorem C137_geo_point (G : Geodesic XR) (p q : GeoPoint XR) (R : M3 ℝ) (hR : IsRotation R) (hF : p.frame.R_Ee = R.fin)
    (h : SamePosition p q) (c : Position XR) (g : GeoPoint XR) (wa yaw pitch roll d az : XR) (unroll degrees : Bool) (method : String)
    (hm : method.toList.head? ≠ some 'e') :
    q.to_nvector = p.to_nvector ∧ q.to_ecef_vector = p.to_ecef_vector ∧
      FrameN (.geo q) = FrameN (.geo p) ∧ FrameL (.geo q) wa = FrameL (.geo p) wa ∧
      FrameB (.geo q) yaw pitch roll degrees = FrameB (.geo p) yaw pitch roll degrees ∧
      delta_E (.geo q) c = delta_E (.geo p) c ∧ delta_E c (.geo q) = delta_E c (.geo p) ∧
      delta_N (.geo q) c = delta_N (.geo p) c ∧ delta_N c (.geo q) = delta_N c (.geo p) ∧
      delta_L (.geo q) c wa = delta_L (.geo p) c wa ∧ delta_L c (.geo q) wa = delta_L c (.geo p) wa ∧
      q.distance_and_azimuth G c unroll degrees method = p.distance_and_azimuth G c unroll degrees method ∧
      g.distance_and_azimuth G (.geo q) unroll degrees method = g.distance_and_azimuth G (.geo p) unroll degrees method ∧
      q.displace G d az unroll degrees method = p.displace G d az unroll degrees method := by
  have e1 := h.to_nvector hR hF
  have ef : q.frame = p.frame := by obtain ⟨_, _, _, _, _, _, _, _, _, _, h⟩ := h; exact h
  have ez : q.z = p.z := by obtain ⟨_, _, _, _, _, _, _, _, _, h, _⟩ := h; exact h
  have e2 : q.to_ecef_vector = p.to_ecef_vector := by unfold GeoPoint.to_ecef_vector; rw [e1]
  have t1 : (Position.geo q).to_nvector = (Position.geo p).to_nvector := e1
  have t2 : (Position.geo q).to_ecef_vector = (Position.geo p).to_ecef_vector := e2
  have fN : FrameN (.geo q) = FrameN (.geo p) := by unfold FrameN; rw [t1]
  have fL : FrameL (.geo q) wa = FrameL (.geo p) wa := by unfold FrameL; rw [t1]
  refine ⟨e1, e2, fN, fL, by unfold FrameB; rw [t1], by unfold delta_E; rw [t2], by unfold delta_E; rw [t2],
    by unfold delta_N delta_E; rw [t2, fN], by unfold delta_N delta_E; rw [t2], by unfold delta_L delta_E; rw [t2, fL],
    by unfold delta_L delta_E; rw [t2], ?_, ?_, ?_⟩
  · unfold GeoPoint.distance_and_azimuth
    rw [ef]
    cases hc : method.toList with
    | nil => rfl
    | cons c0 l =>
      have : c0 ≠ 'e' := by rintro rfl; rw [hc] at hm; exact hm rfl
      simp only [if_neg this]
      unfold GeoPoint.distance_and_azimuth_greatcircle
      rw [e1]
  · unfold GeoPoint.distance_and_azimuth
    have : check_frames_pos g.frame (.geo q) = check_frames_pos g.frame (.geo p) := by simp only [check_frames_pos, ef]
    rw [this]
    cases hc : method.toList with
    | nil => rfl
    | cons c0 l =>
      have : c0 ≠ 'e' := by rintro rfl; rw [hc] at hm; exact hm rfl
      simp only [if_neg this]
      unfold GeoPoint.distance_and_azimuth_greatcircle
      rw [t1]
  · rw [displace_gc G hm, displace_gc G hm]
    unfold GeoPoint.displace_great_circle
    rw [e1, ez, ef]

/-- **C137** and so are the ends of a path and the point it is asked about: every great circle method of `GeoPath` gives the same
result (`closest_point_on_path` may give back an end point under its own name, so its position is compared) -/
theorem C137_paths (G : Geodesic XR) (a b c a' b' c' : GeoPoint XR) (R : M3 ℝ) (hR : IsRotation R) (hA : a.frame.R_Ee = R.fin)
    (hB : b.frame.R_Ee = R.fin) (hC : c.frame.R_Ee = R.fin) (ha : SamePosition a a') (hb : SamePosition b b') (hc : SamePosition c c')
    (Q : GeoPath XR) (t rtol atol : XR) (radius : Option XR) (method : String) (hm : ¬ (strTake method 2 = "ex" ∨ strTake method 2 = "el")) :
    let P : GeoPath XR := ⟨.geo a, .geo b⟩
    let P' : GeoPath XR := ⟨.geo a', .geo b'⟩
    P'.track_distance G method radius = P.track_distance G method radius ∧
      P'.cross_track_distance (.geo c') method radius = P.cross_track_distance (.geo c) method radius ∧
      P'.on_great_circle (.geo c') atol = P.on_great_circle (.geo c) atol ∧
      P'.on_path G (.geo c') method rtol atol = P.on_path G (.geo c) method rtol atol ∧
      P'.intersect Q = P.intersect Q ∧ Q.intersect P' = Q.intersect P ∧ P'.interpolate t = P.interpolate t ∧
      P'.closest_point_on_great_circle (.geo c') = P.closest_point_on_great_circle (.geo c) ∧
      (P'.closest_point_on_path (.geo c')).to_nvector = (P.closest_point_on_path (.geo c)).to_nvector := by
  intro P P'
  have e1 := ha.to_nvector hR hA
  have e2 := hb.to_nvector hR hB
  have e3 : (Position.geo c').to_nvector = (Position.geo c).to_nvector := hc.to_nvector hR hC
  have ef : a'.frame = a.frame := by obtain ⟨_, _, _, _, _, _, _, _, _, _, h⟩ := ha; exact h
  have n0 : P'.nvectors = P.nvectors := Prod.ext e1 e2
  have n1 : P'.nvector_normals = P.nvector_normals := by unfold GeoPath.nvector_normals; rw [n0]
  have r0 : P'.average_radius = P.average_radius := by
    unfold GeoPath.average_radius GeoPath.ecef_vectors
    show (_ + _) / _ = _
    rw [show P'.point_a.to_ecef_vector = P.point_a.to_ecef_vector from congrArg Nvector.to_ecef_vector e1,
      show P'.point_b.to_ecef_vector = P.point_b.to_ecef_vector from congrArg Nvector.to_ecef_vector e2]
  have r1 (r : Option XR) : P'.radiusOr r = P.radiusOr r := by unfold GeoPath.radiusOr; rw [r0]
  have x1 (m : String) (r : Option XR) : P'.cross_track_distance (.geo c') m r = P.cross_track_distance (.geo c) m r := by
    unfold GeoPath.cross_track_distance; rw [n1, r1, e3]
  have x2 (p p' : Position XR) (hp : p'.to_nvector = p.to_nvector) (r : Option XR) (s u : XR) :
      P'.on_great_circle_path p' r s u = P.on_great_circle_path p r s u := by
    unfold GeoPath.on_great_circle_path; rw [n1, n0, r1, hp]
  have x3 : P'.closest_nvector (.geo c') = P.closest_nvector (.geo c) := by
    unfold GeoPath.closest_nvector; rw [n0, n1, e3]
  have x4 : GeoPath.frameOf P'.point_a = GeoPath.frameOf P.point_a := congrArg Except.ok ef
  refine ⟨?_, x1 _ _, by unfold GeoPath.on_great_circle; rw [x1], ?_, by unfold GeoPath.intersect; rw [n0, n1, x4],
    by unfold GeoPath.intersect; rw [n0, n1], by unfold GeoPath.interpolate; rw [n0],
    by unfold GeoPath.closest_point_on_great_circle; rw [x3], ?_⟩
  · unfold GeoPath.track_distance; rw [if_neg hm, if_neg hm, n1, r1]
  · unfold GeoPath.on_path; rw [if_neg hm, if_neg hm, x2 _ _ e3]
  · unfold GeoPath.closest_point_on_path
    dsimp only
    rw [x3, x2 _ _ rfl, n1, r0, e3]
    split
    · rfl
    · split
      · exact e1
      · exact e2

/-- **C137** two triples of angles of any size give the same matrix `xyz2R` exactly if they describe the same turns -/
theorem C137_xyz2R (x y z x' y' z' : ℝ) :
    xyz2R (fin x') (fin y') (fin z') = xyz2R (fin x) (fin y) (fin z) ↔ SameTurns x y z x' y' z' := by
  rw [xyz2R_fin, xyz2R_fin, M3.fin_inj]
  have E (x y z : ℝ) : mmul (mmul (RotX x) (RotY y)) (RotZ z) =
      ⟨⟨cos y * cos z, -(cos y * sin z), sin y⟩,
       ⟨sin x * sin y * cos z + cos x * sin z, -(sin x * sin y * sin z) + cos x * cos z, -(cos y * sin x)⟩,
       ⟨-(cos x * sin y * cos z) + sin x * sin z, cos x * sin y * sin z + sin x * cos z, cos y * cos x⟩⟩ := by
    ext <;> simp [mmul, dot, RotX, RotY, RotZ, col0, col1, col2] <;> ring
  rw [E, E]
  constructor
  · intro h
    simp only [M3.mk.injEq, V3.mk.injEq, neg_inj] at h
    obtain ⟨⟨h1, h2, h3⟩, ⟨h4, h5, h6⟩, h7, h8, h9⟩ := h
    have hsq : cos y' ^ 2 = cos y ^ 2 := by
      have a := sin_sq_add_cos_sq y; have b := sin_sq_add_cos_sq y'
      rw [h3] at b; linarith
    rcases eq_or_ne (cos y) 0 with h0 | h0
    · have h0' : cos y' = 0 := by rw [h0] at hsq; nlinarith
      have hy : SameAngle y y' := sameAngle_of h3 (by rw [h0, h0'])
      have : sin y ^ 2 = 1 := by have a := sin_sq_add_cos_sq y; rw [h0] at a; linarith
      rw [h3] at h4 h5
      rcases mul_self_eq_one_iff.mp ((sq (sin y)).symm.trans this) with e | e
      · refine .inr (.inr (.inl ⟨hy, sameAngle_of (by rw [e, sin_pi_div_two]) (by rw [h0, cos_pi_div_two]), sameAngle_of ?_ ?_⟩))
        · rw [e] at h4; rw [sin_add, sin_add]; linarith
        · rw [e] at h5; rw [cos_add, cos_add]; linarith
      · refine .inr (.inr (.inr ⟨hy, sameAngle_of (by rw [e, sin_neg, sin_pi_div_two])
          (by rw [h0, cos_neg, cos_pi_div_two]), sameAngle_of ?_ ?_⟩))
        · rw [e] at h4; rw [sin_sub, sin_sub]; linarith
        · rw [e] at h5; rw [cos_sub, cos_sub]; linarith
    · rcases sq_eq_sq_iff_eq_or_eq_neg.mp hsq with e | e
      · rw [e] at h1 h2 h6 h9
        exact .inl ⟨sameAngle_of (mul_left_cancel₀ h0 h6) (mul_left_cancel₀ h0 h9), sameAngle_of h3 e,
          sameAngle_of (mul_left_cancel₀ h0 h2) (mul_left_cancel₀ h0 h1)⟩
      · rw [e] at h1 h2 h6 h9
        refine .inr (.inl ⟨sameAngle_of ?_ ?_, sameAngle_of (by rw [h3, sin_pi_sub]) (by rw [e, cos_pi_sub]), sameAngle_of ?_ ?_⟩)
        · rw [sin_add_pi]; apply mul_left_cancel₀ h0; linarith
        · rw [cos_add_pi]; apply mul_left_cancel₀ h0; linarith
        · rw [sin_add_pi]; apply mul_left_cancel₀ h0; linarith
        · rw [cos_add_pi]; apply mul_left_cancel₀ h0; linarith
  · rintro (⟨h1, h2, h3⟩ | ⟨h1, h2, h3⟩ | ⟨h1, h2, h3⟩ | ⟨h1, h2, h3⟩)
    · simp only [h1.sin, h1.cos, h2.sin, h2.cos, h3.sin, h3.cos]
    · simp only [h1.sin, h1.cos, h2.sin, h2.cos, h3.sin, h3.cos, sin_pi_sub, cos_pi_sub, sin_add_pi, cos_add_pi, neg_mul, mul_neg, neg_neg]
    · have s := h3.sin; have c := h3.cos
      rw [sin_add, sin_add] at s; rw [cos_add, cos_add] at c
      simp only [h1.sin, h1.cos, h2.sin, h2.cos, sin_pi_div_two, cos_pi_div_two, zero_mul, mul_one, neg_zero, M3.mk.injEq, V3.mk.injEq,
        true_and, and_true]
      exact ⟨⟨by linarith, by linarith⟩, by linarith, by linarith⟩
    · have s := h3.sin; have c := h3.cos
      rw [sin_sub, sin_sub] at s; rw [cos_sub, cos_sub] at c
      simp only [h1.sin, h1.cos, h2.sin, h2.cos, sin_neg, cos_neg, sin_pi_div_two, cos_pi_div_two, zero_mul, neg_zero, M3.mk.injEq,
        V3.mk.injEq, true_and, and_true]
      exact ⟨⟨by linarith, by linarith⟩, by linarith, by linarith⟩

theorem Spec.SameAngle.neg {x y : ℝ} (h : SameAngle x y) : SameAngle (-x) (-y) := by
  obtain ⟨k, rfl⟩ := h; exact ⟨-k, by push_cast; ring⟩
theorem sameAngle_neg {x y : ℝ} : SameAngle (-x) (-y) ↔ SameAngle x y :=
  ⟨fun h => by simpa using h.neg, Spec.SameAngle.neg⟩

theorem sameAngle_turn {x y : ℝ} : SameAngle (-x + π) (-y) ↔ SameAngle (x + π) y := by
  constructor <;> rintro ⟨k, hk⟩
  · exact ⟨-k - 1, by push_cast; linarith⟩
  · exact ⟨-k - 1, by push_cast; linarith⟩

/-- **C137** the same for `zyx2R`; at gimbal lock the difference (middle angle 90 degrees) or the sum (-90 degrees) of the outer angles
counts -/
theorem C137_zyx2R (z y x z' y' x' : ℝ) :
    zyx2R (fin z') (fin y') (fin x') = zyx2R (fin z) (fin y) (fin x) ↔
      (SameAngle z z' ∧ SameAngle y y' ∧ SameAngle x x') ∨
      (SameAngle (z + π) z' ∧ SameAngle (π - y) y' ∧ SameAngle (x + π) x') ∨
      (SameAngle y y' ∧ SameAngle (π / 2) y ∧ SameAngle (z - x) (z' - x')) ∨
      (SameAngle y y' ∧ SameAngle (-(π / 2)) y ∧ SameAngle (z + x) (z' + x')) := by
  have tt {A C : M3 XR} : tr A = tr C ↔ A = C := ⟨fun h => congrArg tr h, fun h => congrArg tr h⟩
  rw [C15_zyx_eq_transpose_xyz, C15_zyx_eq_transpose_xyz, tt, C137_xyz2R]
  unfold SameTurns
  have e1 : SameAngle (π - -y) (-y') ↔ SameAngle (π - y) y' := by
    rw [show π - -y = - -y + π by ring, show π - y = -y + π by ring]; exact sameAngle_turn
  have e2 : SameAngle (π / 2) (-y) ↔ SameAngle (-(π / 2)) y := by rw [← sameAngle_neg, neg_neg]
  have e3 : SameAngle (-(π / 2)) (-y) ↔ SameAngle (π / 2) y := sameAngle_neg
  have e4 : SameAngle (-x + -z) (-x' + -z') ↔ SameAngle (z + x) (z' + x') := by
    rw [← sameAngle_neg]; ring_nf
  have e5 : SameAngle (-x - -z) (-x' - -z') ↔ SameAngle (z - x) (z' - x') := by ring_nf
  rw [sameAngle_neg, sameAngle_neg, sameAngle_neg, sameAngle_turn, sameAngle_turn, e1, e2, e3, e4, e5]
  constructor
  · rintro (⟨a, b, c⟩ | ⟨a, b, c⟩ | ⟨a, b, c⟩ | ⟨a, b, c⟩)
    exacts [.inl ⟨c, b, a⟩, .inr (.inl ⟨c, b, a⟩), .inr (.inr (.inr ⟨a, b, c⟩)), .inr (.inr (.inl ⟨a, b, c⟩))]
  · rintro (⟨a, b, c⟩ | ⟨a, b, c⟩ | ⟨a, b, c⟩ | ⟨a, b, c⟩)
    exacts [.inl ⟨c, b, a⟩, .inr (.inl ⟨c, b, a⟩), .inr (.inr (.inr ⟨a, b, c⟩)), .inr (.inr (.inl ⟨a, b, c⟩))]

/-- **C137** the wander azimuth of `n_E_and_wa2R_EL` and the angles of a body frame count modulo full turns -/
theorem C137_frames (n : V3 XR) (R : M3 XR) (nv : Nvector XR) (wa wa' yaw pitch roll yaw' pitch' roll' : ℝ) (hw : SameAngle wa wa')
    (h1 : SameAngle yaw yaw') (h2 : SameAngle pitch pitch') (h3 : SameAngle roll roll') :
    n_E_and_wa2R_EL n (fin wa') R = n_E_and_wa2R_EL n (fin wa) R ∧
      (LocalFrame.L nv (fin wa')).R_EN = (LocalFrame.L nv (fin wa)).R_EN ∧
      (LocalFrame.B nv (fin yaw') (fin pitch') (fin roll')).R_EN = (LocalFrame.B nv (fin yaw) (fin pitch) (fin roll)).R_EN := by
  have e (n : V3 XR) (R : M3 XR) : n_E_and_wa2R_EL n (fin wa') R = n_E_and_wa2R_EL n (fin wa) R := by
    unfold n_E_and_wa2R_EL xyz2R; simp only [xr, hw.sin, hw.cos]
  refine ⟨e n R, e _ _, ?_⟩
  show mdot _ _ = mdot _ _
  rw [(C137_zyx2R yaw pitch roll yaw' pitch' roll').mpr (.inl ⟨h1, h2, h3⟩)]

/-- **C137** the direct problem on the sphere: azimuth and angular distance count modulo full turns, and going backwards is going forwards
in the opposite direction -/
theorem C137_direct (n : V3 XR) (R : M3 XR) (d az d' az' : ℝ) :
    (SameAngle d d' → SameAngle az az' →
      n_EA_E_distance_and_azimuth2n_EB_E n (fin d') (fin az') R = n_EA_E_distance_and_azimuth2n_EB_E n (fin d) (fin az) R) ∧
    (∀ m : V3 ℝ, ∀ S : M3 ℝ, n = m.fin → R = S.fin → SameAngle (-d) d' → SameAngle (az + π) az' →
      n_EA_E_distance_and_azimuth2n_EB_E n (fin d') (fin az') R = n_EA_E_distance_and_azimuth2n_EB_E n (fin d) (fin az) R) := by
  constructor
  · intro h1 h2
    unfold n_EA_E_distance_and_azimuth2n_EB_E
    simp only [xr, h1.sin, h1.cos, h2.sin, h2.cos]
  · rintro m S rfl rfl h1 h2
    obtain ⟨e, he⟩ : ∃ e : V3 ℝ, unit (cross3 (mulVec (tr S.fin) ⟨PyFloat.lit 1, PyFloat.lit 0, PyFloat.lit 0⟩) m.fin) = e.fin := by
      simp only [xr, V3.mk_fin, Rat.cast_one, Rat.cast_zero]
      rcases eq_or_ne (cross (app (transp S) ⟨1, 0, 0⟩) m) 0 with h0 | h0
      · rw [h0]; exact ⟨_, unit_zero_fin 1⟩
      · exact ⟨_, unit_fin h0 _⟩
    unfold n_EA_E_distance_and_azimuth2n_EB_E
    rw [he]
    simp only [xr, h1.sin, h1.cos, h2.sin, h2.cos, sin_neg, cos_neg, sin_add_pi, cos_add_pi, V3.fin_inj]
    ext <;> simp <;> ring

theorem displace_congr {p : GeoPoint XR} {d d' az az' : XR} {degrees : Bool}
    (h : n_EA_E_distance_and_azimuth2n_EB_E p.to_nvector.normal (d' / length p.to_ecef_vector.pvector) (if degrees then deg2rad az' else az') =
      n_EA_E_distance_and_azimuth2n_EB_E p.to_nvector.normal (d / length p.to_ecef_vector.pvector) (if degrees then deg2rad az else az)) :
    p.displace_great_circle d' az' degrees = p.displace_great_circle d az degrees := by
  unfold GeoPoint.to_ecef_vector at h
  unfold GeoPoint.displace_great_circle
  dsimp only
  rw [h]

/-- **C137** great circle displacement: an azimuth that differs by full turns leads to the same place with the same heading, and so does
going one circumference further (the radius is the distance from the centre) or the other way round in the opposite direction -/
theorem C137_displace (G : Geodesic XR) (lat lon z a f : ℝ) (hf : f < 1) (name : EllKey) (R : M3 ℝ) (hR : IsRotation R) (d az : ℝ)
    (j k : ℤ) (unroll : Bool) (method : String) (hm : method.toList.head? ≠ some 'e') :
    let p : GeoPoint XR := ⟨fin lat, fin lon, fin z, ⟨fin a, fin f, name, R.fin⟩⟩
    ∃ r : ℝ, length p.to_ecef_vector.pvector = fin r ∧ (r ≠ 0 →
      p.displace G (fin (d + j * (2 * π * r))) (fin (az + k * (2 * π))) unroll false method =
          p.displace G (fin d) (fin az) unroll false method ∧
        p.displace G (fin (d + j * (2 * π * r))) (fin (az + k * 360)) unroll true method =
          p.displace G (fin d) (fin az) unroll true method ∧
        p.displace G (fin (-d)) (fin (az + π)) unroll false method = p.displace G (fin d) (fin az) unroll false method ∧
        p.displace G (fin (-d)) (fin (az + 180)) unroll true method = p.displace G (fin d) (fin az) unroll true method) := by
  intro p
  obtain ⟨n, q, hA, -⟩ := At.of_geo lat lon z a f hf name R hR
  have hn : p.to_nvector.normal = n.fin := congrArg Nvector.normal hA.nv
  have hq : length p.to_ecef_vector.pvector = fin (len q) := by
    have : p.to_ecef_vector = .real q (.real a f name R) := hA.ec
    rw [this]; unfold length; simp only [ECEFvector.real, xr]
  refine ⟨len q, hq, fun h0 => ?_⟩
  have hd : SameAngle (d / len q) ((d + j * (2 * π * len q)) / len q) := ⟨j, by field_simp⟩
  have hd' : SameAngle (-(d / len q)) (-d / len q) := ⟨0, by simp [neg_div]⟩
  have hx (x : ℝ) : deg2rad (fin x) = fin (x * (π / 180)) := by
    unfold deg2rad; simp only [xr]; rw [XR.div_fin (by norm_num)]; simp only [xr]; norm_num
  simp only [displace_gc G hm]
  refine ⟨displace_congr ?_, displace_congr ?_, displace_congr ?_, displace_congr ?_⟩
  · simp only [hn, hq, XR.div_fin h0, Bool.false_eq_true, if_false]
    exact (C137_direct _ _ _ _ _ _).1 hd ⟨k, rfl⟩
  · simp only [hn, hq, XR.div_fin h0, if_true, hx]
    exact (C137_direct _ _ _ _ _ _).1 hd ⟨k, by ring⟩
  · simp only [hn, hq, XR.div_fin h0, Bool.false_eq_true, if_false]
    exact (C137_direct _ _ _ _ _ _).2 n Re rfl R_e_fin hd' ⟨0, by simp⟩
  · simp only [hn, hq, XR.div_fin h0, if_true, hx]
    exact (C137_direct _ _ _ _ _ _).2 n Re rfl R_e_fin hd' ⟨0, by push_cast; ring⟩

/-- **C137** a longitude of 370 degrees is one of 10 degrees, and latitude 100 degrees on the meridian 20 is latitude 80 on the meridian
-160 -/
example (R : M3 ℝ) (a f : ℝ) (name : EllKey) :
    SamePosition (.new (fin 60) (fin 10) (fin 5) ⟨fin a, fin f, name, R.fin⟩ true) (.new (fin 60) (fin 370) (fin 5) ⟨fin a, fin f, name, R.fin⟩ true) ∧
    SamePosition (.new (fin 80) (fin (-160)) (fin 5) ⟨fin a, fin f, name, R.fin⟩ true) (.new (fin 100) (fin 20) (fin 5) ⟨fin a, fin f, name, R.fin⟩ true) := by
  have hx (x : ℝ) : deg2rad (fin x) = fin (x * (π / 180)) := by
    unfold deg2rad; simp only [xr]; rw [XR.div_fin (by norm_num)]; simp only [xr]; norm_num
  unfold GeoPoint.new
  simp only [hx, if_true]
  exact ⟨⟨_, _, _, _, rfl, rfl, rfl, rfl, .inl ⟨⟨0, by simp⟩, ⟨1, by push_cast; ring⟩⟩, rfl, rfl⟩,
    ⟨_, _, _, _, rfl, rfl, rfl, rfl, .inr (.inl ⟨⟨0, by push_cast; ring⟩, ⟨0, by push_cast; ring⟩⟩), rfl, rfl⟩⟩

end Nv
