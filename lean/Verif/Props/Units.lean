import Verif.Props.Isotropy

/-!
# C124: the unit of length is a free choice

Measuring the semi-major axis, depths, radii and vectors in another unit of length (`c` times as many units) leaves angles and
n-vectors alone and multiplies every length in the results by `c`.
-/

namespace Nv
open Spec Real
open XR (fin)

section
variable {c : ℝ} (hc : 0 < c)
include hc

omit hc in
theorem posE_units (a f d : ℝ) (m : V3 ℝ) : posE (c * a) f m (c * d) = c • posE a f m d := by
  unfold posE
  ext
  · simp; ring
  · simp; ring
  · simp; ring

omit hc in
/-- **C124** n-vector and depth to Cartesian position -/
theorem C124_n2p (n : V3 ℝ) (hn : n ≠ 0) (d a f : ℝ) (hf : f < 1) {R : M3 ℝ} (hR : IsRotation R) :
    n_EB_E2p_EB_E n.fin (fin (c * d)) (fin (c * a)) (fin f) R.fin =
      scale3 (n_EB_E2p_EB_E n.fin (fin d) (fin a) (fin f) R.fin) (fin c) := by
  rw [n2p_fin hn _ _ f hf hR, n2p_fin hn d a f hf hR, posE_units, app_smul]
  simp only [xr]

theorem outsideCore_units {a f : ℝ} (ha : 0 < a) (P : V3 ℝ) : OutsideCore (c * a) f (c • P) ↔ OutsideCore a f P := by
  unfold OutsideCore
  have h1 : ((c • P).y ^ 2 + (c • P).z ^ 2) / (c * a) ^ 2 = (P.y ^ 2 + P.z ^ 2) / a ^ 2 := by
    simp; field_simp
  have h2 : (1 - f) ^ 2 * (c • P).x ^ 2 / (c * a) ^ 2 = (1 - f) ^ 2 * P.x ^ 2 / a ^ 2 := by
    simp; field_simp
  rw [h1, h2]

theorem onAxis_units {a f : ℝ} (P : V3 ℝ) : OnAxisInsideCore (c * a) f (c • P) ↔ OnAxisInsideCore a f P := by
  unfold OnAxisInsideCore
  have hx : (c • P).x = c * P.x := rfl
  have hy : (c • P).y = c * P.y := rfl
  have hz : (c • P).z = c * P.z := rfl
  rw [hx, hy, hz, abs_mul, abs_of_pos hc]
  have h4 : (1 - f) * (c * |P.x|) < c * a * ((2 - f) * f) ↔ (1 - f) * |P.x| < a * ((2 - f) * f) := by
    rw [show (1 - f) * (c * |P.x|) = c * ((1 - f) * |P.x|) by ring, show c * a * ((2 - f) * f) = c * (a * ((2 - f) * f)) by ring]
    exact mul_lt_mul_iff_right₀ hc
  rw [h4]
  simp [hc.ne']

/-- **C124** Cartesian position to n-vector and depth, everywhere but at the centre (inside the core both sides are NaN) -/
theorem C124_p2n (p : V3 ℝ) (hp : p ≠ 0) (a f : ℝ) (ha : 0 < a) (hf0 : 0 ≤ f) (hf : f < 1) {R : M3 ℝ} (hR : IsRotation R) :
    p_EB_E2n_EB_E (scale3 p.fin (fin c)) (fin (c * a)) (fin f) R.fin =
      ((p_EB_E2n_EB_E p.fin (fin a) (fin f) R.fin).1, (p_EB_E2n_EB_E p.fin (fin a) (fin f) R.fin).2 * fin c) := by
  have hca : 0 < c * a := mul_pos hc ha
  have hcp : c • p ≠ 0 := smul_ne_zero hc.ne' hp
  have es : scale3 p.fin (fin c) = (c • p).fin := by simp only [xr]
  rw [es]
  by_cases hcore : OutsideCore a f (app R p) ∨ OnAxisInsideCore a f (app R p)
  · obtain ⟨k, hk, hk0⟩ := exists_k (R := R) p a f ha hf hcore
    have hk' : compute_k (fin (c * a)) (fin ((2 - f) * f)) (fin ((1 - (2 - f) * f) / (c * a) ^ 2 * (app R (c • p)).x ^ 2))
        (fin ((app R (c • p)).y ^ 2 + (app R (c • p)).z ^ 2)) = fin k := by
      rw [← hk, app_smul]
      have h1 : (1 - (2 - f) * f) / (c * a) ^ 2 * (c • app R p).x ^ 2 = (1 - (2 - f) * f) / a ^ 2 * (app R p).x ^ 2 := by
        simp; field_simp
      have h2 : (c • app R p).y ^ 2 + (c • app R p).z ^ 2 = c ^ 2 * ((app R p).y ^ 2 + (app R p).z ^ 2) := by
        simp; ring
      have h3 : ∀ Y : ℝ, c ^ 2 * Y / (c * a) ^ 2 = Y / a ^ 2 := by intro Y; field_simp
      rw [h1, h2]
      unfold compute_k
      have ha2 : a ^ 2 ≠ 0 := by positivity
      have hca2 : (c * a) ^ 2 ≠ 0 := by positivity
      simp only [xr, XR.div_fin ha2, XR.div_fin hca2, h3]
    have he : 0 ≤ (2 - f) * f := by nlinarith
    have hke : 0 < k + (2 - f) * f := by linarith
    obtain ⟨T, hT, hT2, h23⟩ := equation23_fin (app R p) ha hf0 hf (app_ne_zero hR hp) hk hk0
    obtain ⟨T', hT', hT2', h23'⟩ := equation23_fin (app R (c • p)) hca hf0 hf (app_ne_zero hR hcp) hk' hk0
    have eT : T' = c * T := by
      have : T' ^ 2 = (c * T) ^ 2 := by
        rw [hT2', mul_pow, hT2, app_smul]; simp; ring
      exact (pow_left_inj₀ hT'.le (mul_pos hc hT).le two_ne_zero).1 this
    unfold p_EB_E2n_EB_E
    simp only [mulVec_fin, V3.fin_x, V3.fin_y, V3.fin_z]
    rw [h23, h23', eT]
    simp only [xr, app_smul]
    have hke' : k + (2 - f) * f ≠ 0 := hke.ne'
    have w : ∀ x : ℝ, 1 / (c * T) * k / (k + (2 - f) * f) * (c * x) = 1 / T * k / (k + (2 - f) * f) * x := by
      intro x; generalize k + (2 - f) * f = K at hke'; field_simp
    have ex : 1 / (c * T) * (c • app R p).x = 1 / T * (app R p).x := by simp; field_simp
    have ey : 1 / (c * T) * k / (k + (2 - f) * f) * (c • app R p).y = 1 / T * k / (k + (2 - f) * f) * (app R p).y := w _
    have ez : 1 / (c * T) * k / (k + (2 - f) * f) * (c • app R p).z = 1 / T * k / (k + (2 - f) * f) * (app R p).z := w _
    rw [ex, ey, ez]
    refine Prod.ext rfl ?_
    simp only [xr]; congr 1; ring
  · have hf' : 0 < f := by
      rcases hf0.lt_or_eq with h | h
      · exact h
      · exfalso
        apply hcore
        left
        subst h
        exact outsideCore_of_len ha le_rfl one_pos (by have := len_pos (app_ne_zero hR hp); simpa using this)
    rw [not_or] at hcore
    rw [C08_core_nan p a f ha hf' hf R hcore.1 hcore.2,
      C08_core_nan _ (c * a) f hca hf' hf R (by rw [app_smul, outsideCore_units hc ha]; exact hcore.1)
        (by rw [app_smul, onAxis_units hc]; exact hcore.2)]
    simp only [xr]

omit hc in
/-- **C124** distances along and across great circles are proportional to the radius -/
theorem C124_distances (A B P : V3 ℝ) (r : ℝ) (method : String) :
    great_circle_distance A.fin B.fin (fin (c * r)) = great_circle_distance A.fin B.fin (fin r) * fin c ∧
    euclidean_distance A.fin B.fin (fin (c * r)) = euclidean_distance A.fin B.fin (fin r) * fin c ∧
    Nv.cross_track_distance (A.fin, B.fin) P.fin method (fin (c * r)) =
      (Nv.cross_track_distance (A.fin, B.fin) P.fin method (fin r)).map (· * fin c) := by
  have asin : ∀ x : ℝ, PyFloat.arcsin (fin x) * fin (c * r) = PyFloat.arcsin (fin x) * fin r * fin c := by
    intro x
    by_cases h : -1 ≤ x ∧ x ≤ 1
    · rw [XR.arcsin_fin h.1 h.2]; simp only [xr]; congr 1; ring
    · have : PyFloat.arcsin (fin x) = XR.nan := by
        show (if _ then _ else _) = _
        rw [if_pos (by by_contra h'; push Not at h'; exact h h')]
      rw [this]; simp only [xr]
  refine ⟨?_, ?_, ?_⟩
  · unfold great_circle_distance; simp only [xr]; congr 1; ring
  · unfold euclidean_distance; simp only [xr]; congr 1; ring
  · unfold Nv.cross_track_distance
    have hn : (cross A B = 0 ∧ great_circle_normal A.fin B.fin = V3.nan) ∨
        ∃ w : V3 ℝ, great_circle_normal A.fin B.fin = w.fin := by
      unfold great_circle_normal
      rw [cross3_fin]
      by_cases h : cross A B = 0
      · left; rw [h, unit_zero_nan]; exact ⟨rfl, rfl⟩
      · right; rw [unit_fin h]; exact ⟨_, rfl⟩
    have an : PyFloat.arcsin (XR.nan : XR) = XR.nan := rfl
    rcases hn with ⟨-, e⟩ | ⟨w, e⟩
    · simp only [e, dot3_nan_left]
      rcases method.toList with _ | ⟨ch, cs⟩
      · rfl
      · dsimp only
        split_ifs <;> simp only [euclidean_cross_track_distance, great_circle_cross_track_distance, xr, Except.map, an]
    · simp only [e, dot3_fin]
      rcases method.toList with _ | ⟨ch, cs⟩
      · rfl
      · dsimp only
        split_ifs
        · simp only [euclidean_cross_track_distance, Except.map, xr]; congr 2; ring
        · simp only [great_circle_cross_track_distance, Except.map, xr]
          congr 1
          exact asin _

omit hc in
/-- **C124** the vector from A to B, and its azimuth -/
theorem C124_vectors (nA nB : V3 ℝ) (hA : nA ≠ 0) (hB : nB ≠ 0) (zA zB a f : ℝ) (hf : f < 1) {R : M3 ℝ} (hR : IsRotation R) :
    n_EA_E_and_n_EB_E2p_AB_E nA.fin nB.fin (fin (c * zA)) (fin (c * zB)) (fin (c * a)) (fin f) R.fin =
      scale3 (n_EA_E_and_n_EB_E2p_AB_E nA.fin nB.fin (fin zA) (fin zB) (fin a) (fin f) R.fin) (fin c) := by
  unfold n_EA_E_and_n_EB_E2p_AB_E
  rw [C124_n2p nA hA zA a f hf hR, C124_n2p nB hB zB a f hf hR, n2p_fin hA zA a f hf hR, n2p_fin hB zB a f hf hR]
  simp only [xr]
  congr 1
  ext <;> simp <;> ring

/-- **C124** the azimuth from A to B does not depend on the unit -/
theorem C124_azimuth (nA nB : V3 ℝ) (hA : nA ≠ 0) (hB : nB ≠ 0) (a f : ℝ) (hf : f < 1) {R : M3 ℝ} (hR : IsRotation R) :
    n_EA_E_and_n_EB_E2azimuth nA.fin nB.fin (fin (c * a)) (fin f) R.fin =
      n_EA_E_and_n_EB_E2azimuth nA.fin nB.fin (fin a) (fin f) R.fin := by
  unfold n_EA_E_and_n_EB_E2azimuth
  have e := C124_vectors (c := c) nA nB hA hB 0 0 a f hf hR
  have l0 : (PyFloat.lit 0 : XR) = fin 0 := by simp only [xr, Rat.cast_zero]
  rw [mul_zero] at e
  simp only [l0]
  rw [e]
  obtain ⟨M, hM, -⟩ := C12_R_EN_rotation nA hA R hR
  rw [hM]
  unfold n_EA_E_and_n_EB_E2p_AB_E
  rw [n2p_fin hA 0 a f hf hR, n2p_fin hB 0 a f hf hR]
  simp only [xr, app_smul]
  congr 1
  exact XR.atan2_scale hc _ _

/-- **C124** the position reached by a vector from A: the same n-vector, the depth in the new unit -/
theorem C124_move (nA p : V3 ℝ) (hA : nA ≠ 0) (zA a f : ℝ) (ha : 0 < a) (hf0 : 0 ≤ f) (hf : f < 1) {R : M3 ℝ}
    (hR : IsRotation R)
    (hne : ∀ q : V3 ℝ, n_EB_E2p_EB_E nA.fin (fin zA) (fin a) (fin f) R.fin = q.fin → q + p ≠ 0) :
    n_EA_E_and_p_AB_E2n_EB_E nA.fin (scale3 p.fin (fin c)) (fin (c * zA)) (fin (c * a)) (fin f) R.fin =
      ((n_EA_E_and_p_AB_E2n_EB_E nA.fin p.fin (fin zA) (fin a) (fin f) R.fin).1,
        (n_EA_E_and_p_AB_E2n_EB_E nA.fin p.fin (fin zA) (fin a) (fin f) R.fin).2 * fin c) := by
  unfold n_EA_E_and_p_AB_E2n_EB_E
  have e := n2p_fin hA zA a f hf hR
  have h := C124_p2n hc _ (hne _ e) a f ha hf0 hf hR
  rw [C124_n2p nA hA zA a f hf hR, e]
  simp only [xr] at h ⊢
  have : ∀ u v : V3 ℝ, c • u + c • v = c • (u + v) := by intro u v; ext <;> simp <;> ring
  rw [this]
  exact h

/-! ### Objects -/

omit hc in
theorem geo_units (lat lon z a f : ℝ) (hf : f < 1) (name : EllKey) {R : M3 ℝ} (hR : IsRotation R) :
    ∃ n p : V3 ℝ, At (.geo (.real lat lon z (.real a f name R))) n z p (.real a f name R) ∧
      At (.geo (.real lat lon (c * z) (.real (c * a) f name R))) n (c * z) (c • p) (.real (c * a) f name R) := by
  obtain ⟨n, p, h, hg⟩ := At.of_geo lat lon z a f hf name R hR
  obtain ⟨n', p', h', hg'⟩ := At.of_geo lat lon (c * z) (c * a) f hf name R hR
  have en' : n' = n := by
    have := congrArg (app (transp R)) (hg'.trans hg.symm)
    rwa [hR.trans_app, hR.trans_app] at this
  subst en'
  have ep : n_EB_E2p_EB_E n'.fin (fin z) (fin a) (fin f) R.fin = p.fin := by
    have h2 : (GeoPoint.to_nvector _).to_ecef_vector = _ := h.ec
    rw [show GeoPoint.to_nvector _ = _ from h.nv] at h2
    exact congrArg ECEFvector.pvector h2
  have ep' : n_EB_E2p_EB_E n'.fin (fin (c * z)) (fin (c * a)) (fin f) R.fin = p'.fin := by
    have h2 : (GeoPoint.to_nvector _).to_ecef_vector = _ := h'.ec
    rw [show GeoPoint.to_nvector _ = _ from h'.nv] at h2
    exact congrArg ECEFvector.pvector h2
  have ep2 : p' = c • p := by
    have := C124_n2p (c := c) n' h.unit.ne z a f hf hR
    rw [ep', ep] at this
    simp only [xr] at this
    exact V3.fin_inj.1 this
  subst ep2
  exact ⟨n', p, h, h'⟩

omit hc in
/-- **C124** delta vectors between GeoPoints are multiplied by `c` -/
theorem C124_delta (a f : ℝ) (hf : f < 1) (name : EllKey) {R : M3 ℝ} (hR : IsRotation R) (latA lonA zA latB lonB zB wa : ℝ) :
    ∃ dE dN dL : V3 ℝ,
      (delta_E (.geo (.real latA lonA zA (.real a f name R))) (.geo (.real latB lonB zB (.real a f name R)))).map
        ECEFvector.pvector = .ok dE.fin ∧
      (delta_E (.geo (.real latA lonA (c * zA) (.real (c * a) f name R)))
        (.geo (.real latB lonB (c * zB) (.real (c * a) f name R)))).map ECEFvector.pvector = .ok (c • dE).fin ∧
      (delta_N (.geo (.real latA lonA zA (.real a f name R))) (.geo (.real latB lonB zB (.real a f name R)))).map
        Pvector.pvector = .ok dN.fin ∧
      (delta_N (.geo (.real latA lonA (c * zA) (.real (c * a) f name R)))
        (.geo (.real latB lonB (c * zB) (.real (c * a) f name R)))).map Pvector.pvector = .ok (c • dN).fin ∧
      (delta_L (.geo (.real latA lonA zA (.real a f name R))) (.geo (.real latB lonB zB (.real a f name R))) (fin wa)).map
        Pvector.pvector = .ok dL.fin ∧
      (delta_L (.geo (.real latA lonA (c * zA) (.real (c * a) f name R)))
        (.geo (.real latB lonB (c * zB) (.real (c * a) f name R))) (fin wa)).map Pvector.pvector = .ok (c • dL).fin := by
  obtain ⟨nA, pA, hA, hA'⟩ := geo_units (c := c) latA lonA zA a f hf name hR
  obtain ⟨nB, pB, hB, hB'⟩ := geo_units (c := c) latB lonB zB a f hf name hR
  obtain ⟨M, hM, -⟩ := C12_R_EN_rotation nA hA.unit.ne R hR
  obtain ⟨L, hL, -⟩ := C13_R_EL_rotation nA hA.unit.ne wa R hR
  obtain ⟨d0, d1, d2⟩ := delta_fin hA.nv hA.ec hB.ec
  obtain ⟨d0', d1', d2'⟩ := delta_fin hA'.nv hA'.ec hB'.ec
  have e : c • pB - c • pA = c • (pB - pA) := by ext <;> simp <;> ring
  rw [d0, d0', d1 M hM, d1' M hM, d2 wa L hL, d2' wa L hL, e, app_smul, app_smul]
  exact ⟨_, _, _, rfl, rfl, rfl, rfl, rfl, rfl⟩

/-- **C124** and so are the great circle distances along and across a path, when the radius is given in the new unit or taken from
the end points -/
theorem C124_paths (G : Geodesic XR) (a f : ℝ) (hf : f < 1) (name : EllKey) {R : M3 ℝ} (hR : IsRotation R)
    (latA lonA zA latB lonB zB latC lonC zC : ℝ) (method : String) (radius : Option ℝ) (P P' : GeoPath XR) (x x' : Position XR)
    (hP : P = ⟨.geo (.real latA lonA zA (.real a f name R)), .geo (.real latB lonB zB (.real a f name R))⟩)
    (hP' : P' = ⟨.geo (.real latA lonA (c * zA) (.real (c * a) f name R)), .geo (.real latB lonB (c * zB) (.real (c * a) f name R))⟩)
    (hx : x = .geo (.real latC lonC zC (.real a f name R))) (hx' : x' = .geo (.real latC lonC (c * zC) (.real (c * a) f name R))) :
    (method.toList.take 2 ≠ ['e', 'x'] → method.toList.take 2 ≠ ['e', 'l'] →
      P'.track_distance G method (radius.map fun r => fin (c * r)) =
        (P.track_distance G method (radius.map fin)).map (· * fin c)) ∧
    P'.cross_track_distance x' method (radius.map fun r => fin (c * r)) =
      (P.cross_track_distance x method (radius.map fin)).map (· * fin c) := by
  obtain ⟨nA, pA, hA, hA'⟩ := geo_units (c := c) latA lonA zA a f hf name hR
  obtain ⟨nB, pB, hB, hB'⟩ := geo_units (c := c) latB lonB zB a f hf name hR
  obtain ⟨n, p, hC, hC'⟩ := geo_units (c := c) latC lonC zC a f hf name hR
  have jA : At P.point_a nA zA pA (.real a f name R) := by rw [hP]; exact hA
  have jB : At P.point_b nB zB pB (.real a f name R) := by rw [hP]; exact hB
  have jA' : At P'.point_a nA (c * zA) (c • pA) (.real (c * a) f name R) := by rw [hP']; exact hA'
  have jB' : At P'.point_b nB (c * zB) (c • pB) (.real (c * a) f name R) := by rw [hP']; exact hB'
  have jC : At x n zC p (.real a f name R) := by rw [hx]; exact hC
  have jC' : At x' n (c * zC) (c • p) (.real (c * a) f name R) := by rw [hx']; exact hC'
  obtain ⟨r, hr, hr'⟩ : ∃ r : ℝ, P.radiusOr (radius.map fin) = fin r ∧ P'.radiusOr (radius.map fun r => fin (c * r)) = fin (c * r) := by
    unfold GeoPath.radiusOr
    cases radius with
    | none =>
      refine ⟨_, average_radius_fin jA jB, ?_⟩
      show P'.average_radius = _
      rw [average_radius_fin jA' jB', len_smul, len_smul, abs_of_pos hc]
      congr 1; ring
    | some r => exact ⟨r, rfl, rfl⟩
  have e2 := normals_fin jA jB
  have e3 := normals_fin jA' jB'
  obtain ⟨g1, g2, g3⟩ := C124_distances (c := c) nA nB n r method
  refine ⟨fun h1 h2 => ?_, ?_⟩
  · have n1 : strTake method 2 ≠ "ex" := fun h => h1 (strTake_eq.1 h)
    have n2 : strTake method 2 ≠ "el" := fun h => h2 (strTake_eq.1 h)
    have n3 : ¬(strTake method 2 = "ex" ∨ strTake method 2 = "el") := not_or.2 ⟨n1, n2⟩
    unfold GeoPath.track_distance
    rw [if_neg n3, if_neg n3, e2, e3, hr, hr']
    simp only [g1, g2]
    split_ifs <;> rfl
  · unfold GeoPath.cross_track_distance
    rw [e2, e3, hr, hr', jC.nv, jC'.nv]
    exact g3

end

/-- the direct problem with the default axes always ends on the unit sphere -/
theorem direct_default_unit {n : V3 ℝ} (hn : UnitVec n) (d az : ℝ) :
    ∃ B : V3 ℝ, n_EA_E_distance_and_azimuth2n_EB_E n.fin (fin d) (fin az) = B.fin ∧ UnitVec B := by
  rw [R_e_fin]
  by_cases hp : cross (northPole Re) n = 0
  · have hnp : northPole Re = ⟨0, 0, 1⟩ := by unfold northPole Re app transp col0 col1 col2 dot; ext <;> simp
    rw [hnp] at hp
    have hx : n.x = 0 := by have := congrArg V3.y hp; simpa [cross] using this
    have hf : Frame n ⟨1, 0, 0⟩ := ⟨hn, by norm_num [UnitVec], by simp [dot, hx]⟩
    refine ⟨reach n ⟨1, 0, 0⟩ d az, ?_, reach_unit hf d az⟩
    unfold n_EA_E_distance_and_azimuth2n_EB_E
    simp only [xr, V3.mk_fin, Rat.cast_one, Rat.cast_zero]
    rw [show app (transp Re) ⟨1, 0, 0⟩ = ⟨0, 0, 1⟩ from hnp, hp, unit_zero_fin]
    simp only [xr]; rfl
  · exact ⟨_, direct_offpole hn hp d az, reach_unit (frame_offpole hn hp) d az⟩

/-- **C124** great circle displacement by `c` times as many units leads to the same latitude, longitude and final azimuth and keeps
the depth (default axes; the starting position is not at the centre of the Earth) -/
theorem C124_displace {c : ℝ} (hc : 0 < c) (G : Geodesic XR) (a f : ℝ) (hf : f < 1) (name : EllKey) (lat lon z d az : ℝ)
    (method : String) (hm : method.toList.head? ≠ some 'e')
    (hpA : ∀ p, (Position.geo (.real lat lon z (.real a f name Re))).to_ecef_vector = .real p (.real a f name Re) → p ≠ 0) :
    ∃ latB lonB azB : ℝ,
      (GeoPoint.real lat lon z (.real a f name Re)).displace G (fin d) (fin az) (method := method) =
        .ok (.real latB lonB z (.real a f name Re), fin azB) ∧
      (GeoPoint.real lat lon (c * z) (.real (c * a) f name Re)).displace G (fin (c * d)) (fin az) (method := method) =
        .ok (.real latB lonB (c * z) (.real (c * a) f name Re), fin azB) := by
  obtain ⟨nA, pA, hA, hA'⟩ := geo_units (c := c) lat lon z a f hf name isRotation_Re
  have hl := (len_pos (hpA _ hA.ec)).ne'
  have hl' : len (c • pA) ≠ 0 := by rw [len_smul, abs_of_pos hc]; exact mul_ne_zero hc.ne' hl
  obtain ⟨nB, hd, huB⟩ := direct_default_unit hA.unit (d / len pA) az
  obtain ⟨q, azB, h1, h2, -, -, -, h3⟩ := displace_gc_fin hf isRotation_Re hA hl huB d az hd
  have hd' : n_EA_E_distance_and_azimuth2n_EB_E nA.fin (fin (c * d / len (c • pA))) (fin az) = nB.fin := by
    rw [len_smul, abs_of_pos hc, mul_div_mul_left _ _ hc.ne']; exact hd
  obtain ⟨q', azB', h1', h2', -, -, -, h3'⟩ := displace_gc_fin hf isRotation_Re hA' hl' huB (c * d) az hd'
  obtain ⟨M, hM, -⟩ := C12_R_EN_rotation nB huB.ne Re isRotation_Re
  obtain ⟨pB, hpB⟩ := At.of_nvec nB huB z a f hf name Re isRotation_Re
  have e1 : (Nvector.real nB z (.real a f name Re)).to_ecef_vector = .real pB (.real a f name Re) := hpB.ec
  have e2 : (Nvector.real nB (c * z) (.real (c * a) f name Re)).to_ecef_vector = .real (c • pB) (.real (c * a) f name Re) := by
    have e3 : n_EB_E2p_EB_E nB.fin (fin z) (fin a) (fin f) Re.fin = pB.fin := congrArg ECEFvector.pvector e1
    have := C124_n2p (c := c) nB huB.ne z a f hf isRotation_Re
    rw [e3] at this
    simp only [xr] at this
    unfold Nvector.to_ecef_vector Nvector.real FrameE.real ECEFvector.real
    simp only [this]
  have a1 := h3 M pB hM e1
  have a2 := h3' M (c • pB) hM e2
  have e : c • pA - c • pB = c • (pA - pB) := by ext <;> simp <;> ring
  rw [e, app_smul] at a2
  have e4 : XR.atan2 (c • app (transp M) (pA - pB)).y (c • app (transp M) (pA - pB)).x =
      XR.atan2 (app (transp M) (pA - pB)).y (app (transp M) (pA - pB)).x := XR.atan2_scale hc _ _
  rw [e4, a1] at a2
  have hz := XR.fin.inj a2
  subst hz
  have ll := n_E2lat_lon_fin nB Re
  refine ⟨XR.atan2 (app Re nB).x (√((app Re nB).y ^ 2 + (app Re nB).z ^ 2)), XR.atan2 (app Re nB).y (-(app Re nB).z), azB,
    (displace_other G hm _ _ _).trans (h1.trans ?_), (displace_other G hm _ _ _).trans (h1'.trans ?_)⟩
  · rw [h2]; unfold Nvector.to_geo_point Nvector.real FrameE.real; simp only [ll]; rfl
  · rw [h2']; unfold Nvector.to_geo_point Nvector.real FrameE.real; simp only [ll]; rfl

/-- **C124** the hypotheses are met: from metres to kilometres, and an ordinary move from a position on WGS84 -/
example : (0 : ℝ) < 1 / 1000 ∧ (1 / 298 : ℝ) < 1 ∧ (⟨4000000, 3000000, 4000000⟩ : V3 ℝ) ≠ 0 :=
  ⟨by norm_num, by norm_num, fun h => by have := congrArg V3.x h; norm_num at this⟩

/-- and a starting position on a sphere, as in `C123_displace` and `C124_displace` -/
example (lat lon : ℝ) : ∀ p, (Position.geo (.real lat lon 0 (.real 6371000 0 (.str "x") Re))).to_ecef_vector =
    .real p (.real 6371000 0 (.str "x") Re) → p ≠ 0 := by
  intro p hp
  obtain ⟨n, hn, hu, -⟩ := geoPoint_to_nvector lat lon 0 6371000 0 (.str "x") Re isRotation_Re
  have h := (sphere_at (.str "x") hu hn).ec
  have e : p = ((6371000 : ℝ) - 0) • n := V3.fin_inj.1 (congrArg ECEFvector.pvector (hp.symm.trans h))
  rw [e]
  exact smul_ne_zero (by norm_num) hu.ne

end Nv
