import Verif.Props.Isotropy

/-!
# C123: only differences of longitude matter

Adding the same angle to the longitudes of all positions changes no distance, azimuth or local delta vector.
-/

namespace Nv
open Spec Real
open XR (fin)

/-- the rotation by `t` about the polar axis, in the coordinates with the axes `R` -/
noncomputable def Spec.spin (R : M3 ℝ) (t : ℝ) : M3 ℝ := mmul (transp R) (mmul (RotX t) R)

section
variable {R : M3 ℝ} (hR : IsRotation R) (t : ℝ)
include hR

theorem spin_rotation : IsRotation (spin R t) := hR.transpose.mul ((isRotation_RotX t).mul hR)

theorem app_spin (v : V3 ℝ) : app R (app (spin R t) v) = app (RotX t) (app R v) := by
  unfold spin; rw [app_mmul, app_mmul, hR.app_trans]

theorem spin_trans (v : V3 ℝ) : app (spin R t) (app (transp R) v) = app (transp R) (app (RotX t) v) := by
  unfold spin; rw [app_mmul, app_mmul, hR.app_trans]

/-- it leaves the poles where they are -/
theorem spin_pole : app (spin R t) (northPole R) = northPole R := by
  unfold northPole
  rw [spin_trans hR]
  congr 1
  ext <;> simp [app, dot, RotX]

omit hR in
theorem RotX_geoNormal (lat lon : ℝ) : app (RotX t) (geoNormal lat lon) = geoNormal lat (lon + t) := by
  ext
  · simp [app, dot, RotX, geoNormal]
  · simp [app, dot, RotX, geoNormal, sin_add]; ring
  · simp [app, dot, RotX, geoNormal, cos_add]; ring

omit hR in
theorem RotX_posE (a f d : ℝ) (m : V3 ℝ) : posE a f (app (RotX t) m) d = app (RotX t) (posE a f m d) := by
  have h : Dell f (app (RotX t) m) = Dell f m := by
    unfold Dell
    have s := sin_sq_add_cos_sq t
    congr 1
    simp [app, dot, RotX]
    linear_combination ((m.y ^ 2 + m.z ^ 2) * (1 : ℝ)) * s
  unfold posE
  rw [h]
  ext <;> simp [app, dot, RotX] <;> ring

/-- **C123** the n-vector of a position further east is the n-vector turned about the polar axis -/
theorem C123_n_E (lat lon : ℝ) :
    lat_lon2n_E (fin lat) (fin (lon + t)) R.fin = turned (spin R t) (lat_lon2n_E (fin lat) (fin lon) R.fin) := by
  rw [lat_lon2n_E_fin, lat_lon2n_E_fin, turned_fin, spin_trans hR, RotX_geoNormal]

/-- **C123** and so is its position in space -/
theorem C123_position (n : V3 ℝ) (hn : n ≠ 0) (d a f : ℝ) (hf : f < 1) :
    n_EB_E2p_EB_E (turned (spin R t) n.fin) (fin d) (fin a) (fin f) R.fin =
      turned (spin R t) (n_EB_E2p_EB_E n.fin (fin d) (fin a) (fin f) R.fin) := by
  have hQ := spin_rotation hR t
  rw [turned_fin, n2p_fin (app_ne_zero hQ hn) d a f hf hR, n2p_fin hn d a f hf hR, turned_fin, app_dirOf hQ, app_spin hR,
    RotX_posE, spin_trans hR]
/-- **C123** going east does not change the local North-East-Down frame, other than by the same turn; nor the wander azimuth frame
(away from the poles, where North is a convention) -/
theorem C123_local (n : V3 ℝ) (hp : cross (northPole R) n ≠ 0) (wa : ℝ) :
    n_E2R_EN (turned (spin R t) n.fin) R.fin = mdot (spin R t).fin (n_E2R_EN n.fin R.fin) ∧
    n_E_and_wa2R_EL (turned (spin R t) n.fin) (fin wa) R.fin =
      mdot (spin R t).fin (n_E_and_wa2R_EL n.fin (fin wa) R.fin) := by
  have hQ := spin_rotation hR t
  have hc : cross (northPole R) (app (spin R t) n) = app (spin R t) (cross (northPole R) n) := by
    conv_lhs => rw [← spin_pole hR t]
    rw [cross_app hQ]
  have hp' : cross (northPole R) (app (spin R t) n) ≠ 0 := by rw [hc]; exact app_ne_zero hQ hp
  have h1 : n_E2R_EN (turned (spin R t) n.fin) R.fin = mdot (spin R t).fin (n_E2R_EN n.fin R.fin) := by
    obtain ⟨M, e, -, c2, c1, c0⟩ := n_E2R_EN_offpole n R hR hp
    obtain ⟨M', e', -, c2', c1', c0'⟩ := n_E2R_EN_offpole _ R hR hp'
    rw [turned_fin, e, e', mdot_fin]
    congr 1
    refine M3.ext_cols ?_ ?_ ?_
    · rw [col0_mmul, c0, c0', hc, app_dirOf hQ, app_dirOf hQ, cross_app hQ]
    · rw [col1_mmul, c1, c1', hc, app_dirOf hQ]
    · rw [col2_mmul, c2, c2', app_dirOf hQ, app_neg]
  refine ⟨h1, ?_⟩
  obtain ⟨N, e, eL⟩ := C13_R_EL_eq_R_EN_turned n wa R hR hp
  obtain ⟨N', e', eL'⟩ := C13_R_EL_eq_R_EN_turned _ wa R hR hp'
  rw [turned_fin, e, e', mdot_fin] at h1
  rw [turned_fin, eL, eL', mdot_fin, M3.fin_inj.1 h1, mmul_assoc]

/-! ### Objects -/

/-- a GeoPoint and the GeoPoint further east -/
theorem geo_east (lat lon z a f : ℝ) (hf : f < 1) (name : EllKey) :
    ∃ n p : V3 ℝ, At (.geo (.real lat lon z (.real a f name R))) n z p (.real a f name R) ∧
      At (.geo (.real lat (lon + t) z (.real a f name R))) (app (spin R t) n) z (app (spin R t) p) (.real a f name R) ∧
      app R n = geoNormal lat lon := by
  have hQ := spin_rotation hR t
  obtain ⟨n, p, h, hg⟩ := At.of_geo lat lon z a f hf name R hR
  obtain ⟨n', p', h', hg'⟩ := At.of_geo lat (lon + t) z a f hf name R hR
  have en' : n' = app (spin R t) n := by
    have : app R n' = app R (app (spin R t) n) := by rw [hg', app_spin hR, hg, RotX_geoNormal]
    have := congrArg (app (transp R)) this
    rwa [hR.trans_app, hR.trans_app] at this
  have ep : n_EB_E2p_EB_E n.fin (fin z) (fin a) (fin f) R.fin = p.fin := by
    have h2 : (GeoPoint.to_nvector _).to_ecef_vector = _ := h.ec
    rw [show GeoPoint.to_nvector _ = _ from h.nv] at h2
    exact congrArg ECEFvector.pvector h2
  have ep' : n_EB_E2p_EB_E n'.fin (fin z) (fin a) (fin f) R.fin = p'.fin := by
    have h2 : (GeoPoint.to_nvector _).to_ecef_vector = _ := h'.ec
    rw [show GeoPoint.to_nvector _ = _ from h'.nv] at h2
    exact congrArg ECEFvector.pvector h2
  have ep2 : p' = app (spin R t) p := by
    have := C123_position hR t n h.unit.ne z a f hf
    rw [turned_fin, ← en', ep', ep, turned_fin] at this
    exact V3.fin_inj.1 this
  subst en' ep2
  exact ⟨n, p, h, h', hg⟩

/-- **C123** the delta vectors between two positions, seen in the local frame of the first, depend on the longitudes only through
their difference.  The first position is not at a pole. -/
theorem C123_delta (a f : ℝ) (hf : f < 1) (name : EllKey) (latA lonA zA latB lonB zB wa : ℝ) (h1 : -(π / 2) < latA)
    (h2 : latA < π / 2) :
    (delta_N (.geo (.real latA lonA zA (.real a f name R))) (.geo (.real latB lonB zB (.real a f name R)))).map Pvector.pvector =
      (delta_N (.geo (.real latA (lonA + t) zA (.real a f name R)))
        (.geo (.real latB (lonB + t) zB (.real a f name R)))).map Pvector.pvector ∧
    (delta_L (.geo (.real latA lonA zA (.real a f name R))) (.geo (.real latB lonB zB (.real a f name R)))
        (fin wa)).map Pvector.pvector =
      (delta_L (.geo (.real latA (lonA + t) zA (.real a f name R)))
        (.geo (.real latB (lonB + t) zB (.real a f name R))) (fin wa)).map Pvector.pvector := by
  have hQ := spin_rotation hR t
  obtain ⟨nA, pA, hA, hA', hg⟩ := geo_east hR t latA lonA zA a f hf name
  obtain ⟨nB, pB, hB, hB', -⟩ := geo_east hR t latB lonB zB a f hf name
  have hp := northPole_ne h1 h2 hR hg
  obtain ⟨M, hM, -⟩ := C12_R_EN_rotation nA hA.unit.ne R hR
  obtain ⟨L, hL, -⟩ := C13_R_EL_rotation nA hA.unit.ne wa R hR
  obtain ⟨-, d1, d2⟩ := delta_fin hA.nv hA.ec hB.ec
  obtain ⟨-, d1', d2'⟩ := delta_fin hA'.nv hA'.ec hB'.ec
  obtain ⟨l1, l2⟩ := C123_local hR t nA hp wa
  rw [hM, mdot_fin, turned_fin] at l1
  rw [hL, mdot_fin, turned_fin] at l2
  have e : ∀ M : M3 ℝ, app (transp (mmul (spin R t) M)) (app (spin R t) pB - app (spin R t) pA) = app (transp M) (pB - pA) := by
    intro M
    rw [trans_mmul, app_mmul, ← app_sub, hQ.trans_app]
  have d1'' := d1' _ l1
  have d2'' := d2' wa _ l2
  rw [e] at d1'' d2''
  rw [d1 M hM, d1'', d2 wa L hL, d2'']
  exact ⟨rfl, rfl⟩

/-- **C123** the great circle results of a path between two GeoPoints (track distance, cross track distance, membership) depend on
the longitudes only through their differences, poles included -/
theorem C123_paths (G : Geodesic XR) (a f : ℝ) (hf : f < 1) (name : EllKey) (latA lonA zA latB lonB zB latC lonC zC : ℝ)
    (method : String) (radius : Option XR) (rtol atol : XR) (P P' : GeoPath XR) (x x' : Position XR)
    (hP : P = ⟨.geo (.real latA lonA zA (.real a f name R)), .geo (.real latB lonB zB (.real a f name R))⟩)
    (hP' : P' = ⟨.geo (.real latA (lonA + t) zA (.real a f name R)), .geo (.real latB (lonB + t) zB (.real a f name R))⟩)
    (hx : x = .geo (.real latC lonC zC (.real a f name R))) (hx' : x' = .geo (.real latC (lonC + t) zC (.real a f name R))) :
    (method.toList.take 2 ≠ ['e', 'x'] → method.toList.take 2 ≠ ['e', 'l'] →
      P.track_distance G method radius = P'.track_distance G method radius ∧
      P.on_path G x method rtol atol = P'.on_path G x' method rtol atol) ∧
    P.cross_track_distance x method radius = P'.cross_track_distance x' method radius := by
  have hQ := spin_rotation hR t
  obtain ⟨nA, pA, hA, hA', -⟩ := geo_east hR t latA lonA zA a f hf name
  obtain ⟨nB, pB, hB, hB', -⟩ := geo_east hR t latB lonB zB a f hf name
  obtain ⟨n, p, hC, hC', -⟩ := geo_east hR t latC lonC zC a f hf name
  have jA : At P.point_a nA zA pA (.real a f name R) := by rw [hP]; exact hA
  have jB : At P.point_b nB zB pB (.real a f name R) := by rw [hP]; exact hB
  have jA' : At P'.point_a (app (spin R t) nA) zA (app (spin R t) pA) (.real a f name R) := by rw [hP']; exact hA'
  have jB' : At P'.point_b (app (spin R t) nB) zB (app (spin R t) pB) (.real a f name R) := by rw [hP']; exact hB'
  have jC : At x n zC p (.real a f name R) := by rw [hx]; exact hC
  have jC' : At x' (app (spin R t) n) zC (app (spin R t) p) (.real a f name R) := by rw [hx']; exact hC'
  have e1 : P.average_radius = P'.average_radius := by
    rw [average_radius_fin jA jB, average_radius_fin jA' jB', len_app hQ, len_app hQ]
  have e2 := normals_fin jA jB
  have e3 := normals_fin jA' jB'
  have e4 : P.radiusOr radius = P'.radiusOr radius := by unfold GeoPath.radiusOr; rw [e1]
  refine ⟨fun h1 h2 => ?_, ?_⟩
  · have n1 : strTake method 2 ≠ "ex" := fun h => h1 (strTake_eq.1 h)
    have n2 : strTake method 2 ≠ "el" := fun h => h2 (strTake_eq.1 h)
    have n3 : ¬(strTake method 2 = "ex" ∨ strTake method 2 = "el") := not_or.2 ⟨n1, n2⟩
    constructor
    · unfold GeoPath.track_distance
      rw [if_neg n3, if_neg n3, e2, e3, e4]
      have hd := C122_distances hQ nA nB (P'.radiusOr radius)
      simp only [turned_fin] at hd
      simp only [hd.1, hd.2]
    · unfold GeoPath.on_path
      rw [if_neg n3, if_neg n3]
      unfold GeoPath.on_great_circle_path GeoPath.radiusOr GeoPath.nvectors
      rw [e2, e3, ← e1, jC.nv, jC'.nv, jA.nv, jB.nv, jA'.nv, jB'.nv]
      have := (C122_cross_track hQ nA nB n method P.average_radius atol).2.2
      simp only [turned_fin] at this
      simp only [Nvector.real, Option.getD_none, this]
  · unfold GeoPath.cross_track_distance
    rw [e2, e3, e4, jC.nv, jC'.nv]
    have := (C122_cross_track hQ nA nB n method (P'.radiusOr radius) (fin 0)).1
    simp only [turned_fin] at this
    exact this.symm

/-- **C123** the great circle direct problem: starting further east ends further east by as much (away from the poles) -/
theorem C123_direct (n : V3 ℝ) (hn : UnitVec n) (hp : cross (northPole R) n ≠ 0) (d az : ℝ) :
    n_EA_E_distance_and_azimuth2n_EB_E (turned (spin R t) n.fin) (fin d) (fin az) R.fin =
      turned (spin R t) (n_EA_E_distance_and_azimuth2n_EB_E n.fin (fin d) (fin az) R.fin) := by
  have hQ := spin_rotation hR t
  have hc : cross (northPole R) (app (spin R t) n) = app (spin R t) (cross (northPole R) n) := by
    conv_lhs => rw [← spin_pole hR t]
    rw [cross_app hQ]
  rw [turned_fin, direct_offpole (unitVec_app hQ hn) (by rw [hc]; exact app_ne_zero hQ hp), direct_offpole hn hp, turned_fin, hc]
  simp only [app_add, app_smul, app_dirOf hQ, cross_app hQ]

end

/-- **C123** great circle displacement from a GeoPoint `t` further east arrives at the same latitude and depth, `t` further east, with
the same final azimuth (default axes; neither the start nor the end at a pole) -/
theorem C123_displace (G : Geodesic XR) (a f : ℝ) (hf : f < 1) (name : EllKey) (lat lon z d az t : ℝ)
    (h1 : -(π / 2) < lat) (h2 : lat < π / 2) (method : String) (hm : method.toList.head? ≠ some 'e')
    (hpA : ∀ p, (Position.geo (.real lat lon z (.real a f name Re))).to_ecef_vector = .real p (.real a f name Re) → p ≠ 0) :
    ∃ latB lonB lonB' azB azB' : ℝ,
      (GeoPoint.real lat lon z (.real a f name Re)).displace G (fin d) (fin az) (method := method) =
        .ok (.real latB lonB z (.real a f name Re), fin azB) ∧
      (GeoPoint.real lat (lon + t) z (.real a f name Re)).displace G (fin d) (fin az) (method := method) =
        .ok (.real latB lonB' z (.real a f name Re), fin azB') ∧
      (GeoPoint.real latB lonB' z (.real a f name Re)).to_nvector = (GeoPoint.real latB (lonB + t) z (.real a f name Re)).to_nvector ∧
      (cos latB ≠ 0 → azB' = azB) := by
  have hR := isRotation_Re
  have hQ := spin_rotation hR t
  obtain ⟨nA, pA, hA, hA', hg⟩ := geo_east hR t lat lon z a f hf name
  have hp := northPole_ne h1 h2 hR hg
  have hl := (len_pos (hpA _ hA.ec)).ne'
  have hl' : len (app (spin Re t) pA) ≠ 0 := by rw [len_app hQ]; exact hl
  obtain ⟨nB, hnB, huB⟩ : ∃ nB : V3 ℝ, n_EA_E_distance_and_azimuth2n_EB_E nA.fin (fin (d / len pA)) (fin az) Re.fin = nB.fin ∧
    UnitVec nB := ⟨_, direct_offpole hA.unit hp _ az, reach_unit (frame_offpole hA.unit hp) _ az⟩
  have hnB' := C123_direct hR t nA hA.unit hp (d / len pA) az
  rw [hnB, turned_fin, turned_fin] at hnB'
  have huB' := unitVec_app hQ huB
  obtain ⟨q, azB, i1, i2, i3, -, -, i4⟩ := displace_gc_fin hf hR hA hl huB d az (by rw [R_e_fin]; exact hnB)
  obtain ⟨q', azB', i1', i2', i3', -, -, i4'⟩ := displace_gc_fin hf hR hA' hl' huB' d az (by rw [R_e_fin, len_app hQ]; exact hnB')
  have ll := n_E2lat_lon_fin nB Re
  have ll' := n_E2lat_lon_fin (app (spin Re t) nB) Re
  have hs : app Re (app (spin Re t) nB) = app (RotX t) (app Re nB) := app_spin hR t nB
  obtain ⟨m, hm'⟩ : ∃ m, m = app Re nB := ⟨_, rfl⟩
  rw [hs, ← hm'] at ll'
  rw [← hm'] at ll
  have hx : (app (RotX t) m).x = m.x := by simp [app, dot, RotX]
  have hyz : (app (RotX t) m).y ^ 2 + (app (RotX t) m).z ^ 2 = m.y ^ 2 + m.z ^ 2 := by
    simp [app, dot, RotX]
    linear_combination (m.y ^ 2 + m.z ^ 2) * sin_sq_add_cos_sq t
  rw [hx, hyz] at ll'
  obtain ⟨latB, hlat⟩ : ∃ x, x = XR.atan2 m.x (√(m.y ^ 2 + m.z ^ 2)) := ⟨_, rfl⟩
  obtain ⟨lonB, hlon⟩ : ∃ x, x = XR.atan2 m.y (-m.z) := ⟨_, rfl⟩
  obtain ⟨lonB', hlon'⟩ : ∃ x, x = XR.atan2 (app (RotX t) m).y (-(app (RotX t) m).z) := ⟨_, rfl⟩
  rw [← hlat, ← hlon] at ll
  rw [← hlat, ← hlon'] at ll'
  have eq : q = .real latB lonB z (.real a f name Re) := by
    rw [i2]; unfold Nvector.to_geo_point Nvector.real FrameE.real; simp only [ll]; rfl
  have eq' : q' = .real latB lonB' z (.real a f name Re) := by
    rw [i2']; unfold Nvector.to_geo_point Nvector.real FrameE.real; simp only [ll']; rfl
  subst eq eq'
  have hgB : app Re nB = geoNormal latB lonB := by
    obtain ⟨n, hn, -, hg⟩ := geoPoint_to_nvector latB lonB z a f name Re hR
    have hn' : (GeoPoint.real latB lonB z (.real a f name Re)).to_nvector = _ := hn
    rw [i3] at hn'
    rw [← hg, V3.fin_inj.1 (congrArg Nvector.normal hn')]
  have hnv : (GeoPoint.real latB lonB' z (.real a f name Re)).to_nvector =
      (GeoPoint.real latB (lonB + t) z (.real a f name Re)).to_nvector := by
    obtain ⟨n, hn, -, hg⟩ := geoPoint_to_nvector latB (lonB + t) z a f name Re hR
    have hn' : (GeoPoint.real latB (lonB + t) z (.real a f name Re)).to_nvector = _ := hn
    rw [i3', hn']
    have : n = app (spin Re t) nB := by
      have h : app Re n = app Re (app (spin Re t) nB) := by rw [hg, hs, ← RotX_geoNormal, hgB]
      have := congrArg (app (transp Re)) h
      rwa [hR.trans_app, hR.trans_app] at this
    rw [this]
  refine ⟨latB, lonB, lonB', azB, azB', (displace_other G hm _ _ _).trans i1, (displace_other G hm _ _ _).trans i1', hnv, ?_⟩
  intro hcos
  have hpB : cross (northPole Re) nB ≠ 0 := by
    intro h
    have e := cross_pole hR nB
    rw [h, hgB] at e
    have e2 : cross ⟨1, 0, 0⟩ (geoNormal latB lonB) = 0 := by
      have := congrArg (app Re) e
      rw [hR.app_trans] at this
      rw [this]; ext <;> simp [app, dot]
    have hy := congrArg V3.y e2
    have hz := congrArg V3.z e2
    simp [cross, geoNormal, hcos] at hy hz
    have := sin_sq_add_cos_sq lonB
    rw [hy, hz] at this; norm_num at this
  obtain ⟨M, hM, -⟩ := C12_R_EN_rotation nB huB.ne Re hR
  have hM' := (C123_local hR t nB hpB 0).1
  rw [hM, mdot_fin, turned_fin] at hM'
  obtain ⟨pB, hpB⟩ := At.of_nvec nB huB z a f hf name Re hR
  have e1 : (Nvector.real nB z (.real a f name Re)).to_ecef_vector = .real pB (.real a f name Re) := hpB.ec
  have e2 : (Nvector.real (app (spin Re t) nB) z (.real a f name Re)).to_ecef_vector = .real (app (spin Re t) pB) (.real a f name Re) := by
    have e3 : n_EB_E2p_EB_E nB.fin (fin z) (fin a) (fin f) Re.fin = pB.fin := congrArg ECEFvector.pvector e1
    have := C123_position hR t nB huB.ne z a f hf
    rw [e3, turned_fin, turned_fin] at this
    unfold Nvector.to_ecef_vector Nvector.real FrameE.real ECEFvector.real
    simp only [this]
  have a1 := i4 M pB hM e1
  have a2 := i4' _ _ hM' e2
  rw [trans_mmul, app_mmul, ← app_sub, hQ.trans_app, a1] at a2
  exact (XR.fin.inj a2).symm

/-- **C123** at a pole the delta vector does turn with the longitudes: there "North" is a fixed axis, so the claim excludes poles.
From the north pole to a position on the equator, in the default axes. -/
theorem C123_pole_counterexample :
    ∃ d d' : V3 ℝ, d ≠ d' ∧
      (delta_N (.geo (.real (π / 2) 0 0 (.real 1 0 (.str "") Re))) (.geo (.real 0 0 0 (.real 1 0 (.str "") Re)))).map Pvector.pvector = .ok d.fin ∧
      (delta_N (.geo (.real (π / 2) (0 + π) 0 (.real 1 0 (.str "") Re)))
        (.geo (.real 0 (0 + π) 0 (.real 1 0 (.str "") Re)))).map Pvector.pvector = .ok d'.fin := by
  have hf : (0 : ℝ) < 1 := one_pos
  have hg := fun lat lon => At.of_geo lat lon 0 1 0 hf (.str "") Re isRotation_Re
  have pos : ∀ lat lon (n p : V3 ℝ), At (.geo (.real lat lon 0 (.real 1 0 (.str "") Re))) n 0 p (.real 1 0 (.str "") Re) → p = n := by
    intro lat lon n p h
    have h2 : (GeoPoint.to_nvector _).to_ecef_vector = _ := h.ec
    rw [show GeoPoint.to_nvector _ = _ from h.nv] at h2
    have h3 := congrArg ECEFvector.pvector h2
    change n_EB_E2p_EB_E n.fin (fin 0) (fin 1) (fin 0) Re.fin = p.fin at h3
    rw [C09_n2p n h.unit.ne 0 1 Re isRotation_Re] at h3
    have hd : (len n)⁻¹ • n = n := dirOf_of_unit h.unit
    rw [hd] at h3
    rw [← V3.fin_inj.1 h3]; ext <;> simp
  obtain ⟨nA, pA, hA, gA⟩ := hg (π / 2) 0
  obtain ⟨nB, pB, hB, gB⟩ := hg 0 0
  obtain ⟨nA', pA', hA', gA'⟩ := hg (π / 2) (0 + π)
  obtain ⟨nB', pB', hB', gB'⟩ := hg 0 (0 + π)
  have back : ∀ n lat lon, app Re n = geoNormal lat lon → n = app (transp Re) (geoNormal lat lon) := by
    intro n lat lon h; rw [← h, isRotation_Re.trans_app]
  have eA : nA = ⟨0, 0, 1⟩ := by rw [back _ _ _ gA]; ext <;> simp [app, transp, Re, dot, geoNormal, col0, col1, col2]
  have eB : nB = ⟨1, 0, 0⟩ := by rw [back _ _ _ gB]; ext <;> simp [app, transp, Re, dot, geoNormal, col0, col1, col2]
  have eA' : nA' = ⟨0, 0, 1⟩ := by rw [back _ _ _ gA']; ext <;> simp [app, transp, Re, dot, geoNormal, col0, col1, col2]
  have eB' : nB' = ⟨-1, 0, 0⟩ := by rw [back _ _ _ gB']; ext <;> simp [app, transp, Re, dot, geoNormal, col0, col1, col2]
  obtain rfl := pos _ _ _ _ hA
  obtain rfl := pos _ _ _ _ hB
  obtain rfl := pos _ _ _ _ hA'
  obtain rfl := pos _ _ _ _ hB'
  obtain ⟨M, hM, hrot, -⟩ := C12_R_EN_rotation pA hA.unit.ne Re isRotation_Re
  have d1 := (delta_fin hA.nv hA.ec hB.ec).2.1 M hM
  have d2 := (delta_fin hA'.nv hA'.ec hB'.ec).2.1 M (by rw [eA', ← eA]; exact hM)
  refine ⟨_, _, ?_, by rw [d1]; rfl, by rw [d2]; rfl⟩
  intro h
  have := congrArg (app M) h
  rw [hrot.app_trans, hrot.app_trans, eA, eB, eA', eB'] at this
  have := congrArg V3.x this
  norm_num at this

/-- **C123** the hypotheses are met by ordinary positions -/
example : -(π / 2) < (1 / 2 : ℝ) ∧ (1 / 2 : ℝ) < π / 2 ∧ (1 / 298 : ℝ) < 1 := by
  have := Real.two_le_pi
  refine ⟨by linarith, by linarith, by norm_num⟩

end Nv
