import Verif.Cases.Arrays

/-!
# Concrete cases: displacements and paths of arrays (C65, C66)
-/

namespace Nv.Cases.Arr
open Nv.ND Nv.Cases
open XR (fin)

theorem fits : Spec.Fits 2 [2, 1, 2] := ⟨fun n hn => by simp at hn; omega, by decide⟩
theorem fits5 : Spec.Fits 2 [2, 1, 2, 1, 1] := ⟨fun n hn => by simp at hn; omega, by decide⟩
/-- a stand-in for a library which always refuses -/
def refuse : Geodesic XR := ⟨fun _ _ _ _ _ _ _ => .error .ValueError, fun _ _ _ _ _ _ _ => .error .ValueError⟩
example := C65_inverse (vV 2) vN (vV 2) vN vN fits5 two_pos plate W false true (fun _ _ => rfl)
example := C65_direct (vV 2) vN (vV 2) vN vN fits5 two_pos plate W false false (fun _ _ => rfl)
example := C65_inverse_error (vV 2) vN (vV 2) vN vN fits5 refuse W false true one_lt_two rfl
example := C65_direct_error (vV 2) vN (vV 2) vN vN fits5 refuse W false false one_lt_two rfl
/-- both positions on WGS84: the call goes to the geodesic library -/
theorem goes (p q : Nv.GeoPoint XR) (hp : p.frame = W) (hq : q.frame = W) (u d : Bool) :
    p.distance_and_azimuth plate (.geo q) u d = p.distance_and_azimuth_ellipsoid plate (.geo q) u d := by
  have : check_frames_pos p.frame (.geo q) = .ok () := by rw [hp]; show check_frames W q.frame = _; rw [hq]; exact sameW
  unfold Nv.GeoPoint.distance_and_azimuth
  rw [this]
  rfl

example := C65_displace_ellipsoid hgA vN (vV 2) fits two_pos plate false true (fun _ _ => rfl)
example := C65_distance_and_azimuth_ellipsoid hgA pGS b21 two_pos plate false true (fun _ _ => rfl)
example := C65_displace_great_circle hgA vN (vV 2) fits two_pos true
example := C65_distance_and_azimuth_greatcircle_partial hgS pC two_pos true
example := C65_distance_and_azimuth_greatcircle_counterexample hgA pC b22 le_rfl two_pos true
example := C65_displace hgA vN (vV 2) fits two_pos plate false true "ellipsoid" (fun _ _ => rfl)
example := C65_distance_and_azimuth_partial hgA pGS b21 two_pos plate false true "ellipsoid" (.inl (by decide))
  (fun _ _ => (goes _ _ rfl rfl _ _).trans rfl)
example := C65_distance_and_azimuth_counterexample hgA pC b22 le_rfl two_pos plate false true "greatcircle" 'g' "reatcircle".toList
  (by decide) (by decide) sameW

noncomputable abbrev path : ND.GeoPath XR := ⟨.nvec nvA, .nvec nvC⟩
noncomputable abbrev path1 : ND.GeoPath XR := ⟨.nvec nvS, .nvec nvT⟩
example : ∃ x, ∃ X, path.track_distance plate "exact" none = .ok X ∧ IsVal false X 2 x :=
  ⟨_, C66_track_distance_partial (P := path) pA pC b22 two_pos plate "exact" (.inl (by decide)) (fun j _ => by
    show (Spec.pathAt 2 2 _ _ j).track_distance plate "exact" none = _
    unfold Nv.GeoPath.track_distance
    rw [if_pos (.inl (by decide)), goes _ _ rfl rfl]
    rfl)⟩
example := C66_track_distance_counterexample (P := path) pA pC b22 le_rfl two_pos plate
example := C66_track_distance_radius_counterexample (P := path) pA pC b22 two_pos plate "euclidean" (by decide) (fin 6371000)
example := C66_cross_track_distance_partial (P := path) pA pC b22 pS b21 two_pos (.inr rfl) "euclidean" (fun _ _ => rfl)
example := C66_cross_track_distance_counterexample (P := path) pA pC b22 pE le_rfl "greatcircle" (by decide)
example := C66_on_great_circle_partial (P := path) pA pC b22 pS b21 two_pos (.inr rfl) (fin 1) (fun _ _ => rfl)
example := C66_on_great_circle_path_partial (P := path) pA pC b22 pS b21 two_pos (.inr rfl) (fin 1) (fin 0)
example : ∃ x, ∃ X, path.on_ellipsoid_path plate (.nvec nvS) (fin 1) (fin 0) = .ok X ∧ IsVal false X 2 x :=
  ⟨_, C66_on_ellipsoid_path (P := path) pA pC b22 pS b21 two_pos plate (fin 1) (fin 0) (fun j _ => by
    unfold Nv.GeoPath.on_ellipsoid_path
    dsimp only
    rw [goes _ _ rfl rfl, goes _ _ rfl rfl]
    rfl)⟩
example := C66_on_great_circle_path_counterexample (P := path) pA pC b22 pE le_rfl (fin 1) (fin 0)
example := C66_interpolate (P := path) pA pC b22 vN b21 two_pos
example := C66_intersect_partial (P := path1) (Q := path1) pS pT pS pT rfl
example := C66_intersect_counterexample (P := path) (Q := path1) pA pC pS pT b21 two_pos (by decide) (by decide)
example := C66_closest_point_on_great_circle_partial (P := path1) pS pT pS
example := C66_closest_point_on_path_partial (P := path1) pS pT pS
example := C66_closest_point_counterexample (P := path) pA pC pS b21 two_pos (by decide) (by decide)

end Nv.Cases.Arr
