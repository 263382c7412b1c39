import Verif.Props.GeoPath
import Verif.Props.Direct

/-!
# C49, C50, C51: direct and inverse problems through the objects
-/

namespace Nv
open Spec Real
open XR (fin)

theorem rad2deg_deg2rad_all (x : XR) : rad2deg (deg2rad x) = x := by
  have h1 : (PyFloat.pi / lit 180 : XR) = fin (π / 180) := by
    have : (lit 180 : XR) = fin 180 := by simp [xr]
    rw [this, show (PyFloat.pi : XR) = fin π from rfl, XR.div_fin (by norm_num)]
  have h2 : (lit 180 / PyFloat.pi : XR) = fin (180 / π) := by
    have : (lit 180 : XR) = fin 180 := by simp [xr]
    rw [this, show (PyFloat.pi : XR) = fin π from rfl, XR.div_fin Real.pi_ne_zero]
  have p1 : (0 : ℝ) < π / 180 := by positivity
  have p2 : (0 : ℝ) < 180 / π := by positivity
  rcases x with _ | _ | _ | x
  · rfl
  · unfold rad2deg deg2rad; rw [h1, h2]
    show XR.signInf _ * fin _ = _
    unfold XR.signInf; rw [if_neg (by linarith), if_pos (by linarith)]
    show XR.signInf _ = _
    unfold XR.signInf; rw [if_neg (by linarith), if_pos (by linarith)]
  · unfold rad2deg deg2rad; rw [h1, h2]
    show XR.signInf _ * fin _ = _
    unfold XR.signInf; rw [if_pos p1]
    show XR.signInf _ = _
    unfold XR.signInf; rw [if_pos p2]
  · exact rad2deg_deg2rad x

theorem deg2rad_rad2deg_all (x : XR) : deg2rad (rad2deg x) = x := by
  have h1 : (PyFloat.pi / lit 180 : XR) = fin (π / 180) := by
    have : (lit 180 : XR) = fin 180 := by simp [xr]
    rw [this, show (PyFloat.pi : XR) = fin π from rfl, XR.div_fin (by norm_num)]
  have h2 : (lit 180 / PyFloat.pi : XR) = fin (180 / π) := by
    have : (lit 180 : XR) = fin 180 := by simp [xr]
    rw [this, show (PyFloat.pi : XR) = fin π from rfl, XR.div_fin Real.pi_ne_zero]
  have p1 : (0 : ℝ) < π / 180 := by positivity
  have p2 : (0 : ℝ) < 180 / π := by positivity
  rcases x with _ | _ | _ | x
  · rfl
  · unfold rad2deg deg2rad; rw [h1, h2]
    show XR.signInf _ * fin _ = _
    unfold XR.signInf; rw [if_neg (by linarith), if_pos (by linarith)]
    show XR.signInf _ = _
    unfold XR.signInf; rw [if_neg (by linarith), if_pos (by linarith)]
  · unfold rad2deg deg2rad; rw [h1, h2]
    show XR.signInf _ * fin _ = _
    unfold XR.signInf; rw [if_pos p2]
    show XR.signInf _ = _
    unfold XR.signInf; rw [if_pos p1]
  · exact deg2rad_rad2deg x

/-! ## C49 -/

/-- **C49** `FrameE.inverse` and `FrameE.direct` with `degrees=True` are the radian versions with all angles converted,
for every input (infinities and NaN included), every depth and every behaviour of the geodesic library -/
theorem C49_frame (G : Geodesic XR) (F : FrameE XR) (lat_a lon_a lat_b lon_b azimuth distance z : XR) (unroll : Bool) :
    F.inverse G lat_a lon_a lat_b lon_b z unroll (degrees := true) =
      (F.inverse G (deg2rad lat_a) (deg2rad lon_a) (deg2rad lat_b) (deg2rad lon_b) z unroll (degrees := false)).map
        (fun r => (r.1, rad2deg r.2.1, rad2deg r.2.2)) ∧
    F.direct G lat_a lon_a azimuth distance z unroll (degrees := true) =
      (F.direct G (deg2rad lat_a) (deg2rad lon_a) (deg2rad azimuth) distance z unroll (degrees := false)).map
        (fun r => (rad2deg r.1, rad2deg r.2.1, rad2deg r.2.2)) := by
  constructor
  · unfold FrameE.inverse
    simp only [if_true, Bool.false_eq_true, if_false, rad2deg_deg2rad_all]
    generalize F.inverse' G lat_a lon_a lat_b lon_b z unroll = r
    rcases r with e | ⟨s, x, y⟩
    · rfl
    · simp only [bind, Except.bind, pure, Except.pure, Except.map, rad2deg_deg2rad_all]
  · unfold FrameE.direct
    simp only [if_true, Bool.false_eq_true, if_false, rad2deg_deg2rad_all]
    generalize F.direct' G lat_a lon_a azimuth distance z unroll = r
    rcases r with e | ⟨s, x, y⟩
    · rfl
    · simp only [bind, Except.bind, pure, Except.pure, Except.map, rad2deg_deg2rad_all]

/-- **C49** `GeoPoint.displace`: the same point, and the final azimuth in the requested unit -/
theorem C49_displace (G : Geodesic XR) (p : GeoPoint XR) (distance azimuth : XR) (unroll : Bool) (method : String) :
    p.displace G distance azimuth unroll (degrees := true) method =
      (p.displace G distance (deg2rad azimuth) unroll (degrees := false) method).map (fun r => (r.1, rad2deg r.2)) := by
  unfold GeoPoint.displace
  split
  · unfold GeoPoint.displace_ellipsoid
    simp only [if_true, Bool.false_eq_true, if_false, rad2deg_deg2rad_all]
    generalize p.frame.direct G _ _ _ _ _ _ _ = r
    rcases r with e | ⟨s, x, y⟩
    · rfl
    · simp only [bind, Except.bind, pure, Except.pure, Except.map, rad2deg_deg2rad_all]
  · unfold GeoPoint.displace_great_circle
    simp only [if_true, Bool.false_eq_true, if_false]
    generalize delta_N (α := XR) _ _ = r
    rcases r with e | d
    · rfl
    · simp only [bind, Except.bind, pure, Except.pure, Except.map]

/-- **C49** `GeoPoint.distance_and_azimuth`: the same distance, and the azimuths in the requested unit -/
theorem C49_distance_and_azimuth (G : Geodesic XR) (p : GeoPoint XR) (q : Position XR) (unroll : Bool) (method : String) :
    p.distance_and_azimuth G q unroll (degrees := true) method =
      (p.distance_and_azimuth G q unroll (degrees := false) method).map (fun r => (r.1, rad2deg r.2.1, rad2deg r.2.2)) := by
  unfold GeoPoint.distance_and_azimuth
  generalize check_frames_pos p.frame q = c
  rcases c with e | _
  · rfl
  simp only [bind, Except.bind]
  rcases method.toList with _ | ⟨c, cs⟩
  · rfl
  · simp only
    split
    · unfold GeoPoint.distance_and_azimuth_ellipsoid FrameE.inverse
      simp only [if_true, Bool.false_eq_true, if_false]
      generalize p.frame.inverse' G _ _ _ _ _ _ = r
      rcases r with e | ⟨s, x, y⟩
      · rfl
      · simp only [bind, Except.bind, pure, Except.pure, Except.map, rad2deg_deg2rad_all]
    · unfold GeoPoint.distance_and_azimuth_greatcircle
      simp only [if_true, Bool.false_eq_true, if_false]
      generalize delta_N (α := XR) _ _ = r
      generalize delta_N (α := XR) _ _ = r'
      rcases r with e | d <;> rcases r' with e' | d' <;> rfl

/-- **C49** a GeoPoint given in degrees is the one given in radians; the degree attributes give the numbers back -/
theorem C49_constructor (lat lon z : XR) (F : FrameE XR) :
    GeoPoint.new lat lon z F (degrees := true) = GeoPoint.new (deg2rad lat) (deg2rad lon) z F (degrees := false) ∧
    (GeoPoint.new lat lon z F (degrees := true)).latitude_deg = lat ∧
    (GeoPoint.new lat lon z F (degrees := true)).longitude_deg = lon :=
  ⟨rfl, rad2deg_deg2rad_all lat, rad2deg_deg2rad_all lon⟩

/-! ## C50 -/

/-- the contract of the geodesic library on the ellipsoid `(a, f)`: solving the inverse problem and then the direct problem
with its answer leads back to the second point (degrees, latitudes in [-90, 90], longitudes in (-180, 180)) -/
def Spec.DirectInvertsInverse (G : Geodesic XR) (a f : ℝ) (unroll : Bool) : Prop :=
  ∀ lat1 lon1 lat2 lon2 : ℝ, |lat1| ≤ 90 → |lat2| ≤ 90 → |lon1| < 180 → |lon2| < 180 → ∀ s az1 az2 : XR,
    G.inverse (fin a) (fin f) (fin lat1) (fin lon1) (fin lat2) (fin lon2) unroll = .ok (s, az1, az2) →
    G.direct (fin a) (fin f) (fin lat1) (fin lon1) az1 s unroll = .ok (fin lat2, fin lon2, az2)

theorem deg_bound {x b : ℝ} (h : |x| ≤ b) : |x * (180 / π)| ≤ b * (180 / π) := by
  rw [abs_mul, abs_of_pos (show (0 : ℝ) < 180 / π by positivity)]
  exact mul_le_mul_of_nonneg_right h (by positivity)

theorem deg_bound_lt {x b : ℝ} (h : |x| < b) : |x * (180 / π)| < b * (180 / π) := by
  rw [abs_mul, abs_of_pos (show (0 : ℝ) < 180 / π by positivity)]
  exact mul_lt_mul_of_pos_right h (by positivity)

theorem check_frames_pos_real (a f : ℝ) (name : EllKey) (R : M3 ℝ) (lat lon z : ℝ) :
    check_frames_pos (.real a f name R) (.geo (.real lat lon z (.real a f name R))) = .ok () := check_frames_real a f name R

/-- **C50** with the exact method, moving from `A` by the distance and initial azimuth to `B` leads to `B`, with the final
azimuth that `distance_and_azimuth` announced, provided the geodesic library meets its contract and the depths are equal -/
theorem C50_inverse_direct (G : Geodesic XR) (a f : ℝ) (name : EllKey) (R : M3 ℝ) (latA lonA latB lonB z : ℝ) (unroll : Bool)
    (hG : DirectInvertsInverse G (a - z) f unroll)
    (hlatA : |latA| ≤ π / 2) (hlatB : |latB| ≤ π / 2) (hlonA : |lonA| < π) (hlonB : |lonB| < π)
    (method : String) (hm : method.toList.head? = some 'e') (s azA azB : XR)
    (h : (GeoPoint.real latA lonA z (.real a f name R)).distance_and_azimuth G
      (.geo (.real latB lonB z (.real a f name R))) unroll (method := method) = .ok (s, azA, azB)) :
    (GeoPoint.real latA lonA z (.real a f name R)).displace G s azA unroll (method := method) =
      .ok (.real latB lonB z (.real a f name R), azB) := by
  have e1 : π / 2 * (180 / π) = 90 := by have := Real.pi_ne_zero; field_simp; norm_num
  have e2 : π * (180 / π) = 180 := by have := Real.pi_ne_zero; field_simp
  obtain ⟨cs, hcs⟩ : ∃ cs, method.toList = 'e' :: cs := by
    rcases hh : method.toList with _ | ⟨c, cs⟩
    · rw [hh] at hm; simp at hm
    · rw [hh] at hm; simp at hm; exact ⟨cs, by rw [hm]⟩
  have hz : (lit 0.5 * (fin z + fin z) : XR) = fin z := by simp [xr]; ring
  have hsub : (fin a - fin z : XR) = fin (a - z) := by simp only [xr]
  unfold GeoPoint.distance_and_azimuth at h
  simp only [GeoPoint.real] at h
  rw [show check_frames_pos (FrameE.real a f name R)
    (.geo ⟨fin latB, fin lonB, fin z, .real a f name R⟩) = .ok () from check_frames_real a f name R, hcs] at h
  simp only [bind, Except.bind, if_true, GeoPoint.distance_and_azimuth_ellipsoid, Position.to_geo_point, hz, FrameE.inverse,
    FrameE.inverse', Bool.false_eq_true, if_false, FrameE.real, hsub] at h
  have hc := hG (latA * (180 / π)) (lonA * (180 / π)) (latB * (180 / π)) (lonB * (180 / π))
    ((deg_bound hlatA).trans_eq e1) ((deg_bound hlatB).trans_eq e1) ((deg_bound_lt hlonA).trans_eq e2) ((deg_bound_lt hlonB).trans_eq e2)
  simp only [rad2deg_fin] at h
  rcases hr : G.inverse (fin (a - z)) (fin f) (fin (latA * (180 / π))) (fin (lonA * (180 / π))) (fin (latB * (180 / π)))
    (fin (lonB * (180 / π))) unroll with e | ⟨s', x, y⟩
  · rw [hr] at h; simp at h
  · rw [hr] at h
    simp only [pure, Except.pure, Except.ok.injEq, Prod.mk.injEq] at h
    obtain ⟨rfl, rfl, rfl⟩ := h
    have hd := hc _ _ _ hr
    have ht : strTake method 1 = "e" := by unfold strTake; rw [hcs]; rfl
    unfold GeoPoint.displace
    rw [if_pos ht]
    unfold GeoPoint.displace_ellipsoid FrameE.direct FrameE.direct'
    simp only [GeoPoint.real, GeoPoint.latitude_deg, GeoPoint.longitude_deg, rad2deg_fin, if_true, Bool.false_eq_true, if_false,
      rad2deg_deg2rad_all, FrameE.real, hsub, hd, bind, Except.bind, pure, Except.pure, GeoPoint.new]
    simp only [← rad2deg_fin, deg2rad_rad2deg_all]

/-- **C50** the hypothesis of equal depths is needed: `displace` never changes the depth (either method) -/
theorem C50_depth_kept (G : Geodesic XR) (p q : GeoPoint XR) (distance azimuth az : XR) (unroll degrees : Bool)
    (method : String) (h : p.displace G distance azimuth unroll degrees method = .ok (q, az)) :
    q.z = p.z ∧ q.frame = p.frame := by
  unfold GeoPoint.displace at h
  split at h
  · unfold GeoPoint.displace_ellipsoid at h
    simp only at h
    rcases hr : p.frame.direct G p.latitude_deg p.longitude_deg (if degrees = true then azimuth else rad2deg azimuth)
        distance p.z unroll true with e | ⟨s, x, y⟩ <;> rw [hr] at h
    · simp [bind, Except.bind] at h
    · cases degrees <;> simp [bind, Except.bind, pure, Except.pure, GeoPoint.new] at h <;> rw [← h.1] <;> exact ⟨rfl, rfl⟩
  · unfold GeoPoint.displace_great_circle at h
    revert h
    simp only
    generalize delta_N (α := XR) _ _ = r
    rcases r with e | d <;> intro h
    · simp [bind, Except.bind] at h
    · cases degrees <;> simp [bind, Except.bind, pure, Except.pure] at h <;> rw [← h.1] <;> exact ⟨rfl, rfl⟩

/-- a geodesic library that meets the contract: the flat earth, where azimuth 0 and distance carry the coordinates -/
example : ∃ G : Geodesic XR, DirectInvertsInverse G 6378137 0 false ∧
    (GeoPoint.real 0 0 0 (.real 6378137 0 (.str "") one)).distance_and_azimuth G
      (.geo (.real 0 0 0 (.real 6378137 0 (.str "") one))) false = .ok (fin 0, fin 0, fin 0) := by
  refine ⟨⟨fun _ _ lat1 lon1 lat2 lon2 _ => .ok (lat2 - lat1, lon2 - lon1, fin 0),
    fun _ _ lat1 lon1 az s _ => .ok (lat1 + s, lon1 + az, fin 0)⟩, ?_, ?_⟩
  · intro lat1 lon1 lat2 lon2 _ _ _ _ s az1 az2 h
    simp only [Except.ok.injEq, Prod.mk.injEq] at h
    obtain ⟨rfl, rfl, rfl⟩ := h
    simp only [xr]
    ring_nf
  · have hc := check_frames_pos_real 6378137 0 (.str "") one 0 0 0
    unfold GeoPoint.distance_and_azimuth
    simp only [GeoPoint.real] at hc ⊢
    rw [hc, show "ellipsoid".toList = 'e' :: "llipsoid".toList by decide]
    simp only [bind, Except.bind, if_true, GeoPoint.distance_and_azimuth_ellipsoid, FrameE.inverse, FrameE.inverse',
      Bool.false_eq_true, if_false, Position.to_geo_point, rad2deg_fin, deg2rad_fin, xr, pure, Except.pure]
    norm_num

/-! ## C51 -/

/-- the final step of `_displace_great_circle`: the new point and a finite final azimuth -/
theorem displace_gc_fin {lat lon z a f : ℝ} (hf : f < 1) {name : EllKey} {R : M3 ℝ} (hR : IsRotation R) {nA nB pA : V3 ℝ}
    (hA : At (.geo (.real lat lon z (.real a f name R))) nA z pA (.real a f name R)) (hpA : len pA ≠ 0) (hB : UnitVec nB)
    (d az : ℝ) (hd : n_EA_E_distance_and_azimuth2n_EB_E nA.fin (fin (d / len pA)) (fin az) = nB.fin) :
    ∃ (q : GeoPoint XR) (azB : ℝ),
      (GeoPoint.real lat lon z (.real a f name R)).displace_great_circle (fin d) (fin az) false = .ok (q, fin azB) ∧
      q = (Nvector.real nB z (.real a f name R)).to_geo_point ∧ q.to_nvector = .real nB z (.real a f name R) ∧ -π ≤ azB ∧ azB < π ∧
      ∀ (M : M3 ℝ) (pB : V3 ℝ), n_E2R_EN nB.fin R.fin = M.fin → (Nvector.real nB z (.real a f name R)).to_ecef_vector = .real pB (.real a f name R) →
        base_angle (fin (XR.atan2 (app (transp M) (pA - pB)).y (app (transp M) (pA - pB)).x - π)) = fin azB := by
  have hnA : (GeoPoint.real lat lon z (.real a f name R)).to_nvector = .real nA z (.real a f name R) := hA.nv
  have heA : (Nvector.real nA z (.real a f name R)).to_ecef_vector = .real pA (.real a f name R) := by
    have := hA.ec
    change (GeoPoint.real lat lon z (.real a f name R)).to_nvector.to_ecef_vector = _ at this
    rwa [hnA] at this
  have hlen : length (ECEFvector.real pA (.real a f name R)).pvector = fin (len pA) := by
    unfold length; simp only [ECEFvector.real, xr]
  have hq : (Nvector.real nB z (.real a f name R)).to_geo_point.to_nvector = .real nB z (.real a f name R) := by
    rw [C45_nvector_geo_nvector nB hB.ne _ a f name R hR]
    exact congrArg (fun v => Nvector.real v _ _) (dirOf_of_unit hB)
  obtain ⟨pB, hpB⟩ := At.of_nvec nB hB z a f hf name R hR
  have hqe : (Position.geo (Nvector.real nB z (.real a f name R)).to_geo_point).to_ecef_vector = .real pB (.real a f name R) := by
    change (GeoPoint.to_nvector _).to_ecef_vector = _
    rw [hq]; exact hpB.ec
  obtain ⟨M, hM, -⟩ := C12_R_EN_rotation nB hB.ne R hR
  have hdel := (delta_fin (A := .geo (Nvector.real nB z (.real a f name R)).to_geo_point)
    (B := .ecef (.real pA (.real a f name R))) (n := nB) hq hqe rfl).2.1 M hM
  obtain ⟨v, hv⟩ : ∃ v, v = app (transp M) (pA - pB) := ⟨_, rfl⟩
  obtain ⟨azB, hb, hb1, hb2, -⟩ := C44_base_angle (XR.atan2 v.y v.x - π)
  refine ⟨_, azB, ?_, rfl, hq, hb1, hb2, ?_⟩
  rotate_left
  · intro M' pB' hM' hpB'
    have e1 : M' = M := M3.fin_inj.1 (hM'.symm.trans hM)
    have e2 : pB' = pB := V3.fin_inj.1 (congrArg ECEFvector.pvector (hpB'.symm.trans hpB.ec))
    rw [e1, e2, ← hv]; exact hb
  unfold GeoPoint.displace_great_circle
  simp only [hnA, heA, hlen, XR.div_fin hpA, Bool.false_eq_true, if_false]
  have h1 : n_EA_E_distance_and_azimuth2n_EB_E (Nvector.real nA z (.real a f name R)).normal (fin (d / len pA)) (fin az) = nB.fin := hd
  have h2 : Nvector.to_geo_point ⟨nB.fin, (GeoPoint.real lat lon z (.real a f name R)).z,
      (GeoPoint.real lat lon z (.real a f name R)).frame⟩ = (Nvector.real nB z (.real a f name R)).to_geo_point := rfl
  rw [h1, h2, hdel, ← hv]
  simp only [bind, Except.bind, pure, Except.pure, Pvector.real, azimuth, xr]
  rw [hb]

theorem northPole_ne {lat lon : ℝ} (h1 : -(π / 2) < lat) (h2 : lat < π / 2) {R : M3 ℝ} (hR : IsRotation R) {n : V3 ℝ}
    (hn : app R n = geoNormal lat lon) : cross (northPole R) n ≠ 0 := by
  intro h
  have e := cross_pole hR n
  rw [h, hn] at e
  have e2 : cross ⟨1, 0, 0⟩ (geoNormal lat lon) = 0 := by
    have := congrArg (app R) e
    rw [hR.app_trans] at this
    rw [this]; ext <;> simp [app, dot]
  have hy := congrArg V3.y e2
  have hz := congrArg V3.z e2
  simp [cross, geoNormal] at hy hz
  have hc : cos lat ≠ 0 := (Real.cos_pos_of_mem_Ioo ⟨h1, h2⟩).ne'
  have h3 : cos lon = 0 := by rcases hy with h | h; exacts [h, absurd h hc]
  have h4 : sin lon = 0 := by rcases hz with h | h; exacts [h, absurd h hc]
  have := Real.sin_sq_add_cos_sq lon
  rw [h3, h4] at this; norm_num at this

/-- **C51** (part): in frames with the default axes `'e'`, displacement by the great circle method moves the n-vector by the
distance (measured on the sphere through the start point) and, away from the poles, along the azimuth; depth and frame are
kept.  Missing: axes `'E'`, for which the claim is false (`C51_axes_E_counterexample`). -/
theorem C51_displace_partial (G : Geodesic XR) (lat lon z a f : ℝ) (hf : f < 1) (name : EllKey) (method : String)
    (hm : method.toList.head? ≠ some 'e') (nA pA : V3 ℝ)
    (hA : At (.geo (.real lat lon z (.real a f name Re))) nA z pA (.real a f name Re))
    (hpA : 0 < len pA) (d az : ℝ) (hd0 : 0 ≤ d) (hd : d ≤ π * len pA) :
    ∃ (q : GeoPoint XR) (azB : ℝ) (nB : V3 ℝ),
      (GeoPoint.real lat lon z (.real a f name Re)).displace G (fin d) (fin az) (method := method) = .ok (q, fin azB) ∧
      q.to_nvector = .real nB z (.real a f name Re) ∧ UnitVec nB ∧
      great_circle_distance nA.fin nB.fin (fin (len pA)) = fin d ∧
      (-(π / 2) < lat → lat < π / 2 → 0 < d → d < π * len pA → -π < az → az ≤ π →
        n_EA_E_and_n_EB_E2azimuth nA.fin nB.fin (fin (len pA)) (fin 0) = fin az) := by
  have hdd : d / len pA ≤ π := by rw [div_le_iff₀ hpA]; exact hd
  obtain ⟨nB, hB, huB, hdist⟩ := C27_default_axes nA hA.unit (d / len pA) (by positivity) hdd az
  obtain ⟨q, azB, hq, -, hqn, -⟩ := displace_gc_fin hf isRotation_Re hA hpA.ne' huB d az hB
  have hgc := C18_eq_angle nA nB hA.unit.ne huB.ne
  refine ⟨q, azB, nB, ?_, hqn, huB, ?_, ?_⟩
  · unfold GeoPoint.displace
    rw [if_neg]
    · exact hq
    · intro h
      apply hm
      unfold strTake at h
      rcases hh : method.toList with _ | ⟨c, cs⟩
      · rw [hh] at h; exact absurd h (by decide)
      · rw [hh] at h
        have := congrArg String.toList h
        simp at this
        simp [this]
  · rw [hgc 1, mul_one] at hdist
    rw [hgc, XR.fin.inj hdist, div_mul_cancel₀ _ hpA.ne']
  · intro h1 h2 h3 h4 h5 h6
    have hpole : cross (northPole Re) nA ≠ 0 := by
      obtain ⟨n', hn', _, hg⟩ := geoPoint_to_nvector lat lon z a f name Re isRotation_Re
      have : n' = nA := by
        have e := hn'.symm.trans hA.nv
        exact V3.fin_inj.1 (congrArg Nvector.normal e)
      rw [this] at hg
      exact northPole_ne h1 h2 isRotation_Re hg
    have hB' := hB
    rw [R_e_fin] at hB'
    have hdd' : d / len pA < π := by rw [div_lt_iff₀ hpA]; exact h4
    have := C28_azimuth_partial nA hA.unit (d / len pA) (by positivity) hdd' az h5 h6 Re isRotation_Re hpole (len pA) hpA
    rw [hB'] at this
    rw [R_e_fin]; exact this

/-- **C51** is false for axes `'E'`: from latitude 0, longitude 0, moving north (azimuth 0) by any distance less than a
quarter of the circumference leads to a point on the equator, *west* of the start. -/
theorem C51_axes_E_counterexample (G : Geodesic XR) (a f : ℝ) (ha : 0 < a) (hf : f < 1) (name : EllKey) (t : ℝ) (ht0 : 0 < t)
    (ht : t < π / 2) :
    E_rotation "E" = .ok (α := M3 XR) one.fin ∧
    ∃ (q : GeoPoint XR) (azB : XR),
      (GeoPoint.real 0 0 0 (.real a f name one)).displace G (fin (t * a)) (fin 0) (method := "greatcircle") = .ok (q, azB) ∧
      q.latitude = fin 0 ∧ q.longitude = fin (-t) := by
  have hone : IsRotation one := by
    constructor <;> norm_num [one, col0, col1, col2, dot, Spec.det, cross]
  refine ⟨(C27_pole_counterexample 0 sin_zero).1, ?_⟩
  have hnA : (GeoPoint.real 0 0 0 (.real a f name one)).to_nvector = .real ⟨0, 0, -1⟩ 0 (.real a f name one) := by
    unfold GeoPoint.to_nvector GeoPoint.real FrameE.real Nvector.real
    simp only [lat_lon2n_E_fin]
    congr 2
    ext <;> simp [app, transp, one, geoNormal, col0, col1, col2, dot]
  have uA : UnitVec (⟨0, 0, -1⟩ : V3 ℝ) := by norm_num [UnitVec]
  obtain ⟨p, hp, hpe⟩ := (C04_radii a f hf one hone ⟨0, 0, -1⟩ uA).2 (by simp [app, one, dot])
  have hA : At (.geo (.real 0 0 0 (.real a f name one))) ⟨0, 0, -1⟩ 0 p (.real a f name one) := by
    refine ⟨hnA, uA, ?_⟩
    change (GeoPoint.to_nvector _).to_ecef_vector = _
    rw [hnA]
    unfold Nvector.to_ecef_vector Nvector.real FrameE.real ECEFvector.real
    simp only [hp]
  have hlp : len p = a := by rw [hpe, len_smul, uA.len, mul_one, abs_of_pos ha]
  have uB : UnitVec (⟨0, -sin t, -cos t⟩ : V3 ℝ) := by
    unfold UnitVec; simp only; nlinarith [Real.sin_sq_add_cos_sq t]
  have hd : n_EA_E_distance_and_azimuth2n_EB_E (⟨0, 0, -1⟩ : V3 ℝ).fin (fin (t * a / len p)) (fin 0) =
      (⟨0, -sin t, -cos t⟩ : V3 ℝ).fin := by
    rw [hlp, mul_div_assoc, div_self ha.ne', mul_one]
    unfold n_EA_E_distance_and_azimuth2n_EB_E
    simp only [xr, V3.mk_fin, Rat.cast_one, Rat.cast_zero]
    have h0 : cross (app (transp Re) ⟨1, 0, 0⟩) ⟨0, 0, -1⟩ = 0 := by
      ext <;> simp [cross, app, transp, Re, col0, col1, col2, dot]
    rw [h0, unit_zero_fin]
    simp only [xr]
    rw [V3.fin_inj]
    ext <;> simp [cross]
  obtain ⟨q, azB, hq, hq', -⟩ := displace_gc_fin hf hone hA (by rw [hlp]; exact ha.ne') uB (t * a) 0 hd
  refine ⟨q, fin azB, ?_, ?_, ?_⟩
  · unfold GeoPoint.displace
    rw [if_neg (by decide)]; exact hq
  · rw [hq']
    unfold Nvector.to_geo_point Nvector.real FrameE.real
    simp only [n_E2lat_lon_fin]
    congr 1
    apply XR.atan2_eq (r := 1) one_pos (by linarith [Real.pi_pos]) (by linarith [Real.pi_pos])
    · rw [cos_zero, mul_one]
      rw [show (1 : ℝ) = √1 by simp]
      congr 1
      simp [app, one, dot]
    · simp [app, one, dot]
  · rw [hq']
    unfold Nvector.to_geo_point Nvector.real FrameE.real
    simp only [n_E2lat_lon_fin]
    congr 1
    apply XR.atan2_eq (r := 1) one_pos (by linarith [Real.pi_pos]) (by linarith [Real.pi_pos])
    · simp [app, one, dot]
    · simp [app, one, dot]

/-- **C51** on a spherical frame with the default axes the great circle methods invert each other: from `A` (not a pole), the
distance and azimuth to any `B` at the same depth, which is above the centre, lead to `B`, and both calls report the same
azimuth at `B` -/
theorem C51_sphere_roundtrip (G : Geodesic XR) (a z : ℝ) (hz : z < a) (name : EllKey) (latA lonA latB lonB : ℝ)
    (h1 : -(π / 2) < latA) (h2 : latA < π / 2) (h3 : -(π / 2) < latB) (h4 : latB < π / 2) (h5 : -π < lonB) (h6 : lonB ≤ π)
    (ha : 0 < a) (method : String) (c : Char) (cs : List Char) (hm : method.toList = c :: cs) (hc : c ≠ 'e') :
    ∃ s azA azB : ℝ,
      (GeoPoint.real latA lonA z (.real a 0 name Re)).distance_and_azimuth G
        (.geo (.real latB lonB z (.real a 0 name Re))) (method := method) = .ok (fin s, fin azA, fin azB) ∧
      (GeoPoint.real latA lonA z (.real a 0 name Re)).displace G (fin s) (fin azA) (method := method) =
        .ok (.real latB lonB z (.real a 0 name Re), fin azB) := by
  obtain ⟨F, hF⟩ : ∃ F, F = FrameE.real a 0 name Re := ⟨_, rfl⟩
  have hrad : 0 < a - z := by linarith
  -- the two positions
  have pos : ∀ lat lon : ℝ, ∃ n, At (.geo (.real lat lon z F)) n z ((a - z) • n) F ∧ app Re n = geoNormal lat lon ∧
      (Position.ecef (.real ((a - z) • n) F)).to_nvector = .real n z F := by
    intro lat lon
    obtain ⟨n, hn, hu, hg⟩ := geoPoint_to_nvector lat lon z a 0 name Re isRotation_Re
    rw [← hF] at hn
    have h9 := C09_n2p n hu.ne z a Re isRotation_Re
    have hd : (len n)⁻¹ • n = n := dirOf_of_unit hu
    rw [hd] at h9
    have hne : (a - z) • n ≠ 0 := smul_ne_zero hrad.ne' hu.ne
    have h10 := C09_p2n ((a - z) • n) hne a ha Re isRotation_Re
    have hl : len ((a - z) • n) = a - z := by rw [len_smul, hu.len, mul_one, abs_of_pos hrad]
    have hdir : (len ((a - z) • n))⁻¹ • ((a - z) • n) = n := by
      change dirOf _ = n
      rw [dirOf_smul hrad, dirOf_of_unit hu]
    rw [hdir, hl, sub_sub_cancel] at h10
    refine ⟨n, ⟨hn, hu, ?_⟩, hg, ?_⟩
    · change (GeoPoint.to_nvector _).to_ecef_vector = _
      change GeoPoint.to_nvector _ = _ at hn
      rw [hn, hF]
      unfold Nvector.to_ecef_vector Nvector.real FrameE.real ECEFvector.real
      simp only [h9]
    · change ECEFvector.to_nvector _ = _
      rw [hF]
      unfold ECEFvector.to_nvector Nvector.real FrameE.real ECEFvector.real
      simp only [h10]
  obtain ⟨nA, hA, hgA, hbackA⟩ := pos latA lonA
  obtain ⟨nB, hB, hgB, hbackB⟩ := pos latB lonB
  clear pos
  subst hF
  have hpole := northPole_ne h1 h2 isRotation_Re hgA
  have hlA : len ((a - z) • nA) = a - z := by rw [len_smul, hA.unit.len, mul_one, abs_of_pos hrad]
  have hlB : len ((a - z) • nB) = a - z := by rw [len_smul, hB.unit.len, mul_one, abs_of_pos hrad]
  -- the azimuths
  obtain ⟨M, hM, hrot, hc2, hc1, hc0⟩ := n_E2R_EN_offpole nA Re isRotation_Re hpole
  obtain ⟨N, hN, -⟩ := C12_R_EN_rotation nB hB.unit.ne Re isRotation_Re
  have dAB := (delta_fin (A := .ecef (.real ((a - z) • nA) (.real a 0 name Re)))
    (B := .ecef (.real ((a - z) • nB) (.real a 0 name Re))) (n := nA) (z := z) hbackA rfl rfl).2.1 M hM
  have dBA := (delta_fin (A := .ecef (.real ((a - z) • nB) (.real a 0 name Re)))
    (B := .ecef (.real ((a - z) • nA) (.real a 0 name Re))) (n := nB) (z := z) hbackB rfl rfl).2.1 N hN
  have hazim := azimuth_offpole hA.unit hB.unit isRotation_Re hpole ha
  have h29 := C29_inverse_direct_partial nA nB hA.unit hB.unit Re isRotation_Re hpole a ha
  rw [hazim, C18_eq_angle _ _ hA.unit.ne hB.unit.ne, mul_one] at h29
  obtain ⟨azA, hazA⟩ : ∃ azA, azA = XR.atan2 (dot (dirOf (cross (northPole Re) nA)) nB)
    (dot (cross nA (dirOf (cross (northPole Re) nA))) nB) := ⟨_, rfl⟩
  rw [← hazA] at h29
  have hv : azimuth (app (transp M) ((a - z) • nB - (a - z) • nA)).fin = fin azA := by
    unfold azimuth
    have ey : (app (transp M) ((a - z) • nB - (a - z) • nA)).y = (a - z) * dot (dirOf (cross (northPole Re) nA)) nB := by
      have hperp : dot (dirOf (cross (northPole Re) nA)) nA = 0 := by
        rw [dot_dirOf_left, dot_cross_right_self, mul_zero]
      change dot (col1 M) _ = _
      rw [hc1, show (a - z) • nB - (a - z) • nA = (a - z) • nB + (-(a - z)) • nA by ext <;> simp <;> ring,
        dot_add_right, dot_smul_right, dot_smul_right, hperp]; ring
    have ex : (app (transp M) ((a - z) • nB - (a - z) • nA)).x =
        (a - z) * dot (cross nA (dirOf (cross (northPole Re) nA))) nB := by
      change dot (col0 M) _ = _
      rw [hc0, dirOf_of_unit hA.unit, show (a - z) • nB - (a - z) • nA = (a - z) • nB + (-(a - z)) • nA by ext <;> simp <;> ring,
        dot_add_right, dot_smul_right, dot_smul_right, dot_cross_left_self]; ring
    simp only [V3.fin_y, V3.fin_x, XR.arctan2_fin]
    rw [ex, ey, XR.atan2_scale hrad, hazA]
  obtain ⟨w, hw⟩ : ∃ w, w = app (transp N) ((a - z) • nA - (a - z) • nB) := ⟨_, rfl⟩
  obtain ⟨azB, hb, -⟩ := C44_base_angle (XR.atan2 w.y w.x - π)
  have hdisp : n_EA_E_distance_and_azimuth2n_EB_E nA.fin (fin (angle nA nB * (a - z) / len ((a - z) • nA))) (fin azA) = nB.fin := by
    rw [hlA, mul_div_assoc, div_self hrad.ne', mul_one, R_e_fin]; exact h29
  obtain ⟨q, azB', hq, hq', -, -, -, hval⟩ := displace_gc_fin (by norm_num) isRotation_Re hA (by rw [hlA]; exact hrad.ne') hB.unit
    (angle nA nB * (a - z)) azA hdisp
  have hsame : azB' = azB := by
    have heB : (Nvector.real nB z (.real a 0 name Re)).to_ecef_vector = .real ((a - z) • nB) (.real a 0 name Re) := by
      have h := hB.ec
      have hnB := hB.nv
      change (GeoPoint.to_nvector _).to_ecef_vector = _ at h
      change GeoPoint.to_nvector _ = _ at hnB
      rwa [hnB] at h
    have := hval N _ hN heB
    rw [← hw, hb] at this
    exact (XR.fin.inj this).symm
  subst hsame
  refine ⟨angle nA nB * (a - z), azA, azB', ?_, ?_⟩
  · unfold GeoPoint.distance_and_azimuth
    have hcf := check_frames_pos_real a 0 name Re latB lonB z
    have hcf' : check_frames_pos (GeoPoint.real latA lonA z (.real a 0 name Re)).frame
      (.geo (.real latB lonB z (.real a 0 name Re))) = .ok () := hcf
    rw [hcf', hm]
    simp only [bind, Except.bind, if_neg hc]
    unfold GeoPoint.distance_and_azimuth_greatcircle
    have hnA : (GeoPoint.real latA lonA z (.real a 0 name Re)).to_nvector = .real nA z (.real a 0 name Re) := hA.nv
    have hnB := hB.nv
    have heA : (Nvector.real nA z (.real a 0 name Re)).to_ecef_vector = .real ((a - z) • nA) (.real a 0 name Re) := by
      have := hA.ec
      change (GeoPoint.to_nvector _).to_ecef_vector = _ at this
      rwa [hnA] at this
    have heB : (Nvector.real nB z (.real a 0 name Re)).to_ecef_vector = .real ((a - z) • nB) (.real a 0 name Re) := by
      have := hB.ec
      change (GeoPoint.to_nvector _).to_ecef_vector = _ at this
      change GeoPoint.to_nvector _ = _ at hnB
      rwa [hnB] at this
    simp only [hnA, hnB, heA, heB, dAB, dBA, bind, Except.bind]
    have hlen : (lit 0.5 * (length (ECEFvector.real ((a - z) • nA) (.real a 0 name Re)).pvector +
        length (ECEFvector.real ((a - z) • nB) (.real a 0 name Re)).pvector) : XR) = fin (a - z) := by
      unfold length
      simp [ECEFvector.real, xr, hlA, hlB]
      ring
    rw [hlen]
    simp only [Nvector.real, C18_eq_angle _ _ hA.unit.ne hB.unit.ne, Pvector.real, hv, ← hw, Bool.false_eq_true, if_false,
      pure, Except.pure]
    have hbz : base_angle (azimuth w.fin - PyFloat.pi) = fin azB' := by
      rw [← hb]; unfold azimuth; simp only [xr]
    rw [hbz]
  · unfold GeoPoint.displace
    rw [if_neg]
    · rw [hq, hq']
      have e : (Nvector.real nB z (.real a 0 name Re)).to_geo_point = .real latB lonB z (.real a 0 name Re) := by
        have := C45_geo_nvector_geo latB lonB z a 0 name Re isRotation_Re h3 h4 h5 h6
        rwa [show (GeoPoint.real latB lonB z (.real a 0 name Re)).to_nvector = .real nB z (.real a 0 name Re) from hB.nv] at this
      rw [e]
    · intro h
      apply hc
      unfold strTake at h
      rw [hm] at h
      have := congrArg String.toList h
      simpa using this

end Nv
