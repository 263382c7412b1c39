import Verif.Lemmas.MemPaths
import Verif.Spec.Memory

/-!
# No function changes what is in the memory, except `Nvector.unit`
-/

namespace Nv.Mem
open Nv.ND (Arr)
variable {α : Type} [PyFloat α]
open PyFloat

/-- a computation that starts by reading an array -/
theorem Pres.of_read {β : Type} {r : ARef} {f : Arr α → M α β}
    (k : ∀ h A, val h r = some A → Ext h ((Mem.readA r >>= f) h).2) : Pres (Mem.readA r >>= f) := by
  intro h
  cases e : val h r with
  | some A => exact k h A e
  | none =>
    have : (Mem.readA r >>= f) h = (.error .AttributeError, h) := by
      refine bind_error ?_
      unfold Mem.readA
      rw [look_run, show h.arrays[r.base]?.map r.view = none from e]
      rfl
    rw [this]
    exact Ext.refl h

theorem Pres.n_E2R_EN (r : ARef) (R : M3 α) : Pres (Mem.n_E2R_EN r R) :=
  Pres.of_read fun _ _ e => (Refines.n_E2R_EN e R).1

/-- close `Pres` goals by going through the statements -/
macro "pres" "[" ls:term,* "]" : tactic => `(tactic| repeat' first
  $[| with_reducible exact $ls]*
  | with_reducible exact Pres.unit _ _ | with_reducible exact Pres.n_E2R_EN _ _ | with_reducible exact Pres.pure _ | with_reducible exact Pres.lift _ | with_reducible exact Pres.throw _ | with_reducible exact Pres.readA _ | with_reducible exact Pres.alloc _
  | with_reducible exact Pres.allocE _ | with_reducible exact Pres.getGeo _ | with_reducible exact Pres.getNvec _ | with_reducible exact Pres.getEcef _ | with_reducible exact Pres.getFrame _
  | with_reducible exact Pres.getPvec _ | with_reducible exact Pres.getPath _ | with_reducible exact Pres.newGeo _ | with_reducible exact Pres.newNvec _ | with_reducible exact Pres.newEcef _
  | with_reducible exact Pres.newFrame _ | with_reducible exact Pres.newPvec _ | with_reducible exact Pres.newPath _
  | with_reducible refine Pres.bind ?_ (fun _ => ?_) | split)

theorem Pres.lat_lon2n_E (a b : ARef) (R : M3 α) : Pres (Mem.lat_lon2n_E a b R) := by unfold Mem.lat_lon2n_E; pres []
theorem Pres.n_EB_E2p_EB_E (n d : ARef) (a f : α) (R : M3 α) : Pres (Mem.n_EB_E2p_EB_E n d a f R) := by
  unfold Mem.n_EB_E2p_EB_E; pres []
theorem Pres.p_EB_E2n_EB_E (p : ARef) (a f : α) (R : M3 α) : Pres (Mem.p_EB_E2n_EB_E p a f R) := by
  unfold Mem.p_EB_E2n_EB_E; pres []
theorem Pres.interpolate (a b t : ARef) : Pres (Mem.interpolate a b t : M α _) := by unfold Mem.interpolate; pres []
theorem Pres.intersect (a b c d : ARef) : Pres (Mem.intersect a b c d : M α _) := by unfold Mem.intersect; pres []
theorem Pres.great_circle_normal (a b : ARef) : Pres (Mem.great_circle_normal a b : M α _) := by
  unfold Mem.great_circle_normal; pres []
theorem Pres.cross_track_distance (a b c : ARef) (m : String) (r : ARef) : Pres (Mem.cross_track_distance a b c m r : M α _) := by
  unfold Mem.cross_track_distance; pres [Pres.great_circle_normal _ _]
theorem Pres.on_great_circle (a b c r : ARef) (t : α) : Pres (Mem.on_great_circle a b c r t) := by
  unfold Mem.on_great_circle; pres [Pres.cross_track_distance _ _ _ _ _]
theorem Pres.on_great_circle_path (a b c r : ARef) (t : α) : Pres (Mem.on_great_circle_path a b c r t) := by
  unfold Mem.on_great_circle_path; pres [Pres.on_great_circle _ _ _ _ _]
theorem Pres.closest_point_on_great_circle (a b c : ARef) : Pres (Mem.closest_point_on_great_circle a b c : M α _) := by
  unfold Mem.closest_point_on_great_circle; pres [Pres.great_circle_normal _ _]
theorem Pres.great_circle_distance (a b r : ARef) : Pres (Mem.great_circle_distance a b r : M α _) := by
  unfold Mem.great_circle_distance; pres []
theorem Pres.euclidean_distance (a b r : ARef) : Pres (Mem.euclidean_distance a b r : M α _) := by
  unfold Mem.euclidean_distance; pres []
theorem Pres.n_E2lat_lon (n : ARef) (R : M3 α) : Pres (Mem.n_E2lat_lon n R) := by unfold Mem.n_E2lat_lon; pres []
theorem Pres.n_EA_E_distance_and_azimuth2n_EB_E (n d z : ARef) (R : M3 α) :
    Pres (Mem.n_EA_E_distance_and_azimuth2n_EB_E n d z R) := by unfold Mem.n_EA_E_distance_and_azimuth2n_EB_E; pres []
theorem Pres.mean_horizontal_position (n : ARef) : Pres (Mem.mean_horizontal_position n : M α _) := by
  unfold Mem.mean_horizontal_position; pres []
theorem Pres.GeoPoint (a b z : ARef) (F : FrameE α) (d : Bool) : Pres (Mem.GeoPoint a b z F d) := by
  unfold Mem.GeoPoint; pres []
omit [PyFloat α] in
theorem Pres.Nvector (n z : ARef) (F : FrameE α) : Pres (Mem.Nvector n z F) := Pres.newNvec _
theorem Pres.ECEFvector (p : ARef) (F : FrameE α) : Pres (Mem.ECEFvector p F) := by unfold Mem.ECEFvector; pres []
theorem Pres.Pvector (p : ARef) (f : FRef) : Pres (Mem.Pvector p f : M α _) := by unfold Mem.Pvector; pres []
theorem Pres.geo_to_nvector (r : GRef) : Pres (Mem.geo_to_nvector r : M α _) := by
  unfold Mem.geo_to_nvector; pres [Pres.lat_lon2n_E _ _ _]
theorem Pres.isScalar (o : NvecObj α) : Pres (Mem.isScalar o) := by unfold Mem.isScalar; pres []
theorem Pres.nvec_to_ecef_vector (r : NRef) : Pres (Mem.nvec_to_ecef_vector r : M α _) := by
  unfold Mem.nvec_to_ecef_vector; pres [Pres.n_EB_E2p_EB_E _ _ _ _ _, Pres.isScalar _]
theorem Pres.nvec_to_geo_point (r : NRef) : Pres (Mem.nvec_to_geo_point r : M α _) := by
  unfold Mem.nvec_to_geo_point; pres [Pres.n_E2lat_lon _ _, Pres.isScalar _, Pres.GeoPoint _ _ _ _ _]
theorem Pres.ecef_to_nvector (r : ERef) : Pres (Mem.ecef_to_nvector r : M α _) := by
  unfold Mem.ecef_to_nvector; pres [Pres.p_EB_E2n_EB_E _ _ _ _]
theorem Pres.R_EN (r : FRef) : Pres (Mem.R_EN r : M α _) := by unfold Mem.R_EN; pres []
theorem Pres.pvec_to_ecef_vector (r : VRef) : Pres (Mem.pvec_to_ecef_vector r : M α _) := by
  unfold Mem.pvec_to_ecef_vector; pres [Pres.R_EN _]
theorem Pres.change_frame (r : ERef) (f : FRef) : Pres (Mem.change_frame r f : M α _) := by
  unfold Mem.change_frame; pres [Pres.R_EN _]
theorem Pres.to_nvector (r : PosRef) : Pres (Mem.to_nvector r : M α _) := by
  unfold Mem.to_nvector; pres [Pres.geo_to_nvector _, Pres.ecef_to_nvector _, Pres.pvec_to_ecef_vector _]
theorem Pres.to_ecef_vector (r : PosRef) : Pres (Mem.to_ecef_vector r : M α _) := by
  unfold Mem.to_ecef_vector; pres [Pres.geo_to_nvector _, Pres.nvec_to_ecef_vector _, Pres.pvec_to_ecef_vector _]
theorem Pres.to_geo_point (r : PosRef) : Pres (Mem.to_geo_point r : M α _) := by
  unfold Mem.to_geo_point; pres [Pres.nvec_to_geo_point _, Pres.ecef_to_nvector _, Pres.pvec_to_ecef_vector _]
theorem Pres.ecefData (r : ERef) : Pres (Mem.ecefData r : M α _) := by unfold Mem.ecefData; pres []
theorem Pres.pvecData (r : VRef) : Pres (Mem.pvecData r : M α _) := by unfold Mem.pvecData; pres []
theorem Pres.ecef_length (r : ERef) : Pres (Mem.ecef_length r : M α _) := by unfold Mem.ecef_length; pres [Pres.ecefData _]
theorem Pres.pvec_length (r : VRef) : Pres (Mem.pvec_length r : M α _) := by unfold Mem.pvec_length; pres [Pres.pvecData _]
theorem Pres.pvec_azimuth (r : VRef) : Pres (Mem.pvec_azimuth r : M α _) := by unfold Mem.pvec_azimuth; pres [Pres.pvecData _]
theorem Pres.pvec_elevation (r : VRef) : Pres (Mem.pvec_elevation r : M α _) := by
  unfold Mem.pvec_elevation; pres [Pres.pvecData _]
theorem Pres.FrameN (p : PosRef) : Pres (Mem.FrameN p : M α _) := by unfold Mem.FrameN; pres [Pres.to_nvector _]
theorem Pres.FrameL (p : PosRef) (w : ARef) : Pres (Mem.FrameL p w : M α _) := by unfold Mem.FrameL; pres [Pres.to_nvector _]
theorem Pres.FrameB (p : PosRef) (y t r : ARef) (d : Bool) : Pres (Mem.FrameB p y t r d : M α _) := by
  unfold Mem.FrameB; pres [Pres.to_nvector _]
theorem Pres.ecef_add (p q : ERef) : Pres (Mem.ecef_add p q : M α _) := by unfold Mem.ecef_add; pres []
theorem Pres.ecef_sub (p q : ERef) : Pres (Mem.ecef_sub p q : M α _) := by unfold Mem.ecef_sub; pres []
theorem Pres.ecef_neg (p : ERef) : Pres (Mem.ecef_neg p : M α _) := by unfold Mem.ecef_neg; pres []
theorem Pres.nvec_add (p q : NRef) : Pres (Mem.nvec_add p q : M α _) := by unfold Mem.nvec_add; pres []
theorem Pres.nvec_sub (p q : NRef) : Pres (Mem.nvec_sub p q : M α _) := by unfold Mem.nvec_sub; pres []
theorem Pres.nvec_neg (p : NRef) : Pres (Mem.nvec_neg p : M α _) := by unfold Mem.nvec_neg; pres []
theorem Pres.nvec_mul (p : NRef) (c : ARef) : Pres (Mem.nvec_mul p c : M α _) := by unfold Mem.nvec_mul; pres []
theorem Pres.nvec_div (p : NRef) (c : ARef) : Pres (Mem.nvec_div p c : M α _) := by unfold Mem.nvec_div; pres []
theorem Pres.nvec_mean (p : NRef) : Pres (Mem.nvec_mean p : M α _) := by
  unfold Mem.nvec_mean; pres [Pres.mean_horizontal_position _]
theorem Pres.delta_E (a b : PosRef) : Pres (Mem.delta_E a b : M α _) := by
  unfold Mem.delta_E; pres [Pres.to_ecef_vector _, Pres.ecef_sub _ _]
theorem Pres.delta_N (a b : PosRef) : Pres (Mem.delta_N a b : M α _) := by
  unfold Mem.delta_N; pres [Pres.delta_E _ _, Pres.FrameN _, Pres.change_frame _ _]
theorem Pres.delta_L (a b : PosRef) (w : ARef) : Pres (Mem.delta_L a b w : M α _) := by
  unfold Mem.delta_L; pres [Pres.delta_E _ _, Pres.FrameL _ _, Pres.change_frame _ _]
theorem Pres.displace (G : Geodesic α) (r : GRef) (d z : ARef) (l g : Bool) (m : String) :
    Pres (Mem.displace G r d z l g m) := by
  unfold Mem.displace Mem.displace_ellipsoid Mem.displace_great_circle
  pres [Pres.GeoPoint _ _ _ _ _, Pres.geo_to_nvector _, Pres.nvec_to_ecef_vector _, Pres.ecef_length _,
    Pres.n_EA_E_distance_and_azimuth2n_EB_E _ _ _ _, Pres.nvec_to_geo_point _, Pres.delta_N _ _, Pres.pvecData _]
theorem Pres.alloc3 (x : Arr α × Arr α × Arr α) : Pres (Mem.alloc3 x) := by unfold Mem.alloc3; pres []
theorem Pres.check_frames_pos (F : FrameE α) (p : PosRef) : Pres (Mem.check_frames_pos F p) := by
  unfold Mem.check_frames_pos; pres []
theorem Pres.distance_and_azimuth_ellipsoid (G : Geodesic α) (r : GRef) (p : PosRef) (l g : Bool) :
    Pres (Mem.distance_and_azimuth_ellipsoid G r p l g) := by
  unfold Mem.distance_and_azimuth_ellipsoid; pres [Pres.to_geo_point _, Pres.alloc3 _]
theorem Pres.distance_and_azimuth_greatcircle (r : GRef) (p : PosRef) (g : Bool) :
    Pres (Mem.distance_and_azimuth_greatcircle r p g : M α _) := by
  unfold Mem.distance_and_azimuth_greatcircle
  pres [Pres.geo_to_nvector _, Pres.to_nvector _, Pres.nvec_to_ecef_vector _, Pres.ecef_length _, Pres.delta_N _ _,
    Pres.pvec_azimuth _, Pres.alloc3 _]
theorem Pres.distance_and_azimuth (G : Geodesic α) (r : GRef) (p : PosRef) (l g : Bool) (m : String) :
    Pres (Mem.distance_and_azimuth G r p l g m) := by
  unfold Mem.distance_and_azimuth
  pres [Pres.check_frames_pos _ _, Pres.distance_and_azimuth_ellipsoid _ _ _ _ _, Pres.distance_and_azimuth_greatcircle _ _ _]
omit [PyFloat α] in
theorem Pres.GeoPath (a b : PosRef) : Pres (Mem.GeoPath a b : M α _) := Pres.newPath _
theorem Pres.nvectors (P : PathRef) : Pres (Mem.nvectors P : M α _) := by unfold Mem.nvectors; pres [Pres.to_nvector _]
theorem Pres.geo_points (P : PathRef) : Pres (Mem.geo_points P : M α _) := by unfold Mem.geo_points; pres [Pres.to_geo_point _]
theorem Pres.ecef_vectors (P : PathRef) : Pres (Mem.ecef_vectors P : M α _) := by
  unfold Mem.ecef_vectors; pres [Pres.to_ecef_vector _]
theorem Pres.average_radius (P : PathRef) : Pres (Mem.average_radius P : M α _) := by
  unfold Mem.average_radius; pres [Pres.ecef_vectors _, Pres.ecef_length _]
theorem Pres.radiusOr (P : PathRef) (r : Option ARef) : Pres (Mem.radiusOr P r : M α _) := by
  unfold Mem.radiusOr; pres [Pres.average_radius _]
theorem Pres.firstIf (c : Bool) (r : ARef) : Pres (Mem.firstIf c r : M α _) := by unfold Mem.firstIf; pres []
theorem Pres.path_cross_track_distance (P : PathRef) (p : PosRef) (m : String) (r : Option ARef) :
    Pres (Mem.path_cross_track_distance P p m r : M α _) := by
  unfold Mem.path_cross_track_distance
  pres [Pres.radiusOr _ _, Pres.nvectors _, Pres.to_nvector _, Pres.cross_track_distance _ _ _ _ _, Pres.firstIf _ _]
theorem Pres.track_distance (G : Geodesic α) (P : PathRef) (m : String) (r : Option ARef) : Pres (Mem.track_distance G P m r) := by
  unfold Mem.track_distance
  pres [Pres.geo_points _, Pres.distance_and_azimuth _ _ _ _ _ _, Pres.radiusOr _ _, Pres.nvectors _,
    Pres.euclidean_distance _ _ _, Pres.great_circle_distance _ _ _, Pres.firstIf _ _]
theorem Pres.frameOf (p : PosRef) : Pres (Mem.frameOf p : M α _) := by unfold Mem.frameOf; pres []
theorem Pres.path_intersect (P Q : PathRef) : Pres (Mem.path_intersect P Q : M α _) := by
  unfold Mem.path_intersect; pres [Pres.nvectors _, Pres.intersect _ _ _ _, Pres.frameOf _]
theorem Pres.on_ellipsoid_path (G : Geodesic α) (P : PathRef) (p : PosRef) (r t : α) : Pres (Mem.on_ellipsoid_path G P p r t) := by
  unfold Mem.on_ellipsoid_path; pres [Pres.geo_points _, Pres.to_geo_point _, Pres.distance_and_azimuth _ _ _ _ _ _]
theorem Pres.path_on_great_circle (P : PathRef) (p : PosRef) (t : α) : Pres (Mem.path_on_great_circle P p t) := by
  unfold Mem.path_on_great_circle; pres [Pres.path_cross_track_distance _ _ _ _]
theorem Pres.path_on_great_circle_path (P : PathRef) (p : PosRef) (o : Option ARef) (r t : α) :
    Pres (Mem.path_on_great_circle_path P p o r t) := by
  unfold Mem.path_on_great_circle_path
  pres [Pres.radiusOr _ _, Pres.nvectors _, Pres.to_nvector _, Pres.on_great_circle_path _ _ _ _ _]
theorem Pres.on_path (G : Geodesic α) (P : PathRef) (p : PosRef) (m : String) (r t : α) : Pres (Mem.on_path G P p m r t) := by
  unfold Mem.on_path; pres [Pres.on_ellipsoid_path _ _ _ _ _, Pres.path_on_great_circle_path _ _ _ _ _]
theorem Pres.closest_nvector (P : PathRef) (p : PosRef) : Pres (Mem.closest_nvector P p : M α _) := by
  unfold Mem.closest_nvector; pres [Pres.to_nvector _, Pres.nvectors _, Pres.closest_point_on_great_circle _ _ _]
theorem Pres.path_closest_point_on_great_circle (P : PathRef) (p : PosRef) :
    Pres (Mem.path_closest_point_on_great_circle P p : M α _) := by
  unfold Mem.path_closest_point_on_great_circle; pres [Pres.closest_nvector _ _, Pres.nvec_to_geo_point _]
theorem Pres.closest_point_on_path (P : PathRef) (p : PosRef) : Pres (Mem.closest_point_on_path P p : M α _) := by
  unfold Mem.closest_point_on_path
  pres [Pres.closest_nvector _ _, Pres.path_on_great_circle_path _ _ _ _ _, Pres.nvec_to_geo_point _, Pres.to_nvector _,
    Pres.nvectors _, Pres.average_radius _, Pres.great_circle_distance _ _ _, Pres.to_geo_point _]

end Nv.Mem
