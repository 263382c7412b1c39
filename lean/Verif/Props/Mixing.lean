import Verif.Props.Frames
import Verif.Props.GeoPath
import Verif.Props.PathObjects

/-! # C133: positions on different earths

Which operations of two positions refuse to combine positions given in unequal E frames, and which combine them silently. -/

namespace Nv
open Spec Real
open XR (fin)

section
variable {α : Type} [PyFloat α]

/-- the frame E of a position: its own frame, or that of the origin of its local frame -/
def Spec.earth : Position α → FrameE α
  | .geo p => p.frame
  | .nvec p => p.frame
  | .ecef p => p.frame
  | .pvec p => p.frame.nvector.frame

/-- Python's `F == G` is False for two distinct frame objects -/
def Spec.DifferentEarths (F G : FrameE α) : Prop := pyEq false (.frameE F) (.frameE G) = .ok false

theorem Spec.DifferentEarths.check {F G : FrameE α} (h : DifferentEarths F G) : check_frames F G = .error .ValueError := by
  have h' : F.isEqualTo G = false := Except.ok.inj h
  unfold check_frames; rw [h']; rfl

theorem earth_to_nvector (p : Position α) : p.to_nvector.frame = earth p := by cases p <;> rfl
theorem earth_to_geo_point (p : Position α) : p.to_geo_point.frame = earth p := by cases p <;> rfl
theorem earth_to_ecef_vector (p : Position α) : p.to_ecef_vector.frame = earth p := by cases p <;> rfl

/-- **C133** conversions stay on the same earth: a GeoPoint, n-vector or ECEF vector made from a position has exactly its
frame, and so has the origin of every local frame placed at it -/
theorem C133_conversions (p : Position α) (w yaw pitch roll : α) (degrees : Bool) :
    p.to_nvector.frame = earth p ∧ p.to_geo_point.frame = earth p ∧ p.to_ecef_vector.frame = earth p ∧
    (FrameN p).nvector.frame = earth p ∧ (FrameL p w).nvector.frame = earth p ∧
    (FrameB p yaw pitch roll degrees).nvector.frame = earth p := by
  refine ⟨earth_to_nvector p, earth_to_geo_point p, earth_to_ecef_vector p, earth_to_nvector p, earth_to_nvector p, ?_⟩
  cases degrees <;> exact earth_to_nvector p

/-- **C133** the differences `delta_E`, `delta_N` and `delta_L` of positions on different earths raise ValueError -/
theorem C133_delta_partial (a b : Position α) (w : α) (h : DifferentEarths (earth b) (earth a)) :
    delta_E a b = .error .ValueError ∧ delta_N a b = .error .ValueError ∧ delta_L a b w = .error .ValueError := by
  have hE : delta_E a b = .error .ValueError := by
    unfold delta_E ECEFvector.sub
    rw [earth_to_ecef_vector, earth_to_ecef_vector, h.check]; rfl
  refine ⟨hE, ?_, ?_⟩
  · unfold delta_N; rw [hE]; rfl
  · unfold delta_L; rw [hE]; rfl

/-- **C133** `distance_and_azimuth` to a position on another earth raises ValueError, whatever the method; so it does for
every position given in a local frame, even one on the same earth -/
theorem C133_distance_partial (G : Geodesic α) (p : GeoPoint α) (q : Position α) (unroll degrees : Bool) (method : String)
    (h : DifferentEarths p.frame (earth q) ∨ ∃ v, q = .pvec v) :
    p.distance_and_azimuth G q unroll degrees method = .error .ValueError := by
  have hc : check_frames_pos p.frame q = .error .ValueError := by
    rcases h with h | ⟨v, rfl⟩
    · cases q <;> first | exact h.check | rfl
    · rfl
  unfold GeoPoint.distance_and_azimuth; rw [hc]; rfl

/-- **C133** a path between different earths cannot be interpolated -/
theorem C133_interpolate_partial (P : GeoPath α) (ti : α) (h : DifferentEarths (earth P.point_b) (earth P.point_a)) :
    P.interpolate ti = .error .ValueError := by
  unfold GeoPath.interpolate Nvector.sub GeoPath.nvectors
  simp only [earth_to_nvector, h.check]; rfl

/-- **C133** the ellipsoidal distance along a path between different earths raises ValueError -/
theorem C133_track_distance_partial (G : Geodesic α) (P : GeoPath α) (method : String) (radius : Option α)
    (hm : strTake method 2 = "ex" ∨ strTake method 2 = "el") (h : DifferentEarths (earth P.point_a) (earth P.point_b)) :
    P.track_distance G method radius = .error .ValueError := by
  unfold GeoPath.track_distance
  rw [if_pos hm, C133_distance_partial G P.geo_points.1 (.geo P.geo_points.2) _ _ _ (.inl ?_)]
  · rfl
  · show DifferentEarths P.point_a.to_geo_point.frame P.point_b.to_geo_point.frame
    rwa [earth_to_geo_point, earth_to_geo_point]

/-- **C133** `on_path` with an ellipsoidal method never answers for positions on different earths -/
theorem C133_on_path_partial (G : Geodesic α) (P : GeoPath α) (X : Position α) (method : String) (rtol atol : α)
    (hm : strTake method 2 = "ex" ∨ strTake method 2 = "el")
    (h : DifferentEarths (earth P.point_a) (earth P.point_b) ∨ DifferentEarths (earth P.point_a) (earth X)) (b : Bool) :
    P.on_path G X method rtol atol ≠ .ok b := by
  unfold GeoPath.on_path
  rw [if_pos hm]
  unfold GeoPath.on_ellipsoid_path
  dsimp only
  rcases h with h | h
  · rw [C133_distance_partial G P.geo_points.1 (.geo P.geo_points.2) _ _ _ (.inl ?_)]
    · exact fun e => by cases e
    · show DifferentEarths P.point_a.to_geo_point.frame P.point_b.to_geo_point.frame
      rwa [earth_to_geo_point, earth_to_geo_point]
  · rw [C133_distance_partial G P.geo_points.1 (.geo X.to_geo_point) _ _ _ (.inl ?_)]
    · rcases P.geo_points.1.distance_and_azimuth G (.geo P.geo_points.2) with e | r
      · exact fun e => by cases e
      · exact fun e => by cases e
    · show DifferentEarths P.point_a.to_geo_point.frame X.to_geo_point.frame
      rwa [earth_to_geo_point, earth_to_geo_point]

/-- the same n-vector and depth, in another frame -/
def Spec.moved (p : Nvector α) (F : FrameE α) : Position α := .nvec { p with frame := F }

/-- **C133** the great circle methods do not look at the frames: for n-vectors on whatever earths, with an explicit radius,
their results are those for positions on a single earth.  No error tells that the positions do not belong together. -/
theorem C133_silent (G : Geodesic α) (a b c d : Nvector α) (Fa Fb Fc Fd : FrameE α) (radius : α)
    (method : String) (hm : ¬ (strTake method 2 = "ex" ∨ strTake method 2 = "el")) (H : FrameE α) :
    GeoPath.track_distance ⟨moved a Fa, moved b Fb⟩ G method (some radius) =
      GeoPath.track_distance ⟨moved a H, moved b H⟩ G method (some radius) ∧
    GeoPath.cross_track_distance ⟨moved a Fa, moved b Fb⟩ (moved c Fc) method (some radius) =
      GeoPath.cross_track_distance ⟨moved a H, moved b H⟩ (moved c H) method (some radius) ∧
    GeoPath.closest_nvector ⟨moved a Fa, moved b Fb⟩ (moved c Fc) =
      { GeoPath.closest_nvector ⟨moved a H, moved b H⟩ (moved c H) with frame := Fc } ∧
    GeoPath.intersect ⟨moved a Fa, moved b Fb⟩ ⟨moved c Fc, moved d Fd⟩ =
      (GeoPath.intersect ⟨moved a H, moved b H⟩ ⟨moved c H, moved d H⟩).map (fun r => { r with frame := Fa }) := by
  refine ⟨?_, rfl, rfl, rfl⟩
  unfold GeoPath.track_distance
  rw [if_neg hm, if_neg hm]; rfl

end

/-- real frames are different earths exactly when their semi-major axes, flattenings or rotations are apart, whatever their
names -/
theorem C133_different (a a' f f' : ℝ) (name name' : EllKey) (R R' : M3 ℝ) :
    DifferentEarths (FrameE.real a f name R) (.real a' f' name' R') ↔ ¬ (Same a a' ∧ Same f f' ∧ Same9 R R') := by
  rw [← C38_frameE_iff a f a' f' name name' R R']
  have h : pyEq false (.frameE (.real a f name R)) (.frameE (.real a' f' name' R')) =
    .ok (FrameE.isEqualTo (.real a f name R) (.real a' f' name' R')) := rfl
  unfold DifferentEarths
  rw [h]
  cases FrameE.isEqualTo (.real a f name R) (.real a' f' name' R') <;> simp

/-- **C133** a path from a point of a sphere of radius 1 to a point of a sphere of radius 3: `track_distance` with the
ellipsoidal method, interpolation and the difference vector raise ValueError, but `track_distance()` returns a distance,
on a sphere of radius 2 -/
theorem C133_counterexample (G : Geodesic XR) (name name' : EllKey) :
    let F := FrameE.real 1 0 name Re
    let F' := FrameE.real 3 0 name' Re
    let P : GeoPath XR := ⟨.nvec (.real ⟨1, 0, 0⟩ 0 F), .nvec (.real ⟨0, 1, 0⟩ 0 F')⟩
    DifferentEarths F F' ∧ DifferentEarths F' F ∧
      P.track_distance G "ellipsoid" = .error .ValueError ∧ P.interpolate (fin (1 / 2)) = .error .ValueError ∧
      delta_E P.point_a P.point_b = .error .ValueError ∧
      P.track_distance G = .ok (fin π) := by
  intro F F' P
  have h1 : DifferentEarths F F' := (C133_different _ _ _ _ _ _ _ _).2 fun h => absurd h.1 (by unfold Same; norm_num)
  have h2 : DifferentEarths F' F := (C133_different _ _ _ _ _ _ _ _).2 fun h => absurd h.1 (by unfold Same; norm_num)
  refine ⟨h1, h2, C133_track_distance_partial G P _ _ (.inr (by decide)) h1, C133_interpolate_partial P _ h2,
    (C133_delta_partial P.point_a P.point_b (fin 0) h2).1, ?_⟩
  have e1 : ¬ (strTake "greatcircle" 2 = "ex" ∨ strTake "greatcircle" 2 = "el") := by decide
  have e2 : ¬ strTake "greatcircle" 2 = "eu" := by decide
  have l1 : len (⟨1, 0, 0⟩ : V3 ℝ) = 1 := by simp [len]
  have l2 : len (⟨0, 1, 0⟩ : V3 ℝ) = 1 := by simp [len]
  have n1 : (⟨1, 0, 0⟩ : V3 ℝ) ≠ 0 := fun h => by simp [V3.ext_iff] at h
  have n2 : (⟨0, 1, 0⟩ : V3 ℝ) ≠ 0 := fun h => by simp [V3.ext_iff] at h
  have hrad : P.average_radius = fin 2 := by
    have p1 := C09_n2p ⟨1, 0, 0⟩ n1 0 1 Re isRotation_Re
    have p2 := C09_n2p ⟨0, 1, 0⟩ n2 0 3 Re isRotation_Re
    show (length (n_EB_E2p_EB_E _ _ _ _ _) + length (n_EB_E2p_EB_E _ _ _ _ _)) / lit 2 = _
    simp only [F, F', FrameE.real, Nvector.real]
    rw [p1, p2]
    unfold length
    simp only [xr, l1, l2, len_smul]
    rw [XR.div_fin (by norm_num)]; norm_num
  unfold GeoPath.track_distance
  rw [if_neg e1, if_neg e2]
  unfold GeoPath.radiusOr
  rw [Option.getD_none, hrad]
  show Except.ok (great_circle_distance (V3.fin ⟨1, 0, 0⟩) (V3.fin ⟨0, 1, 0⟩) (fin 2)) = _
  rw [C18_eq_angle _ _ n1 n2]
  congr 2
  unfold angle
  rw [l1, l2]
  simp [dot]

end Nv
