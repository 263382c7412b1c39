import Verif.Mem.Track

/-!
# Histories of calls

Everything a program that uses the library can do with it: make arrays, construct objects, call functions and methods in any order
and on any of the arrays and objects that exist, and go on after exceptions.
-/

namespace Nv.Mem
open Nv.ND (Arr)

/-- One call.  References that do not exist raise an exception. (objects.py:43-1536, every public method and function of the module) -/
inductive Call (α : Type) where
  | array (A : Arr α)
  | GeoPoint (latitude longitude z : ARef) (frame : FrameE α) (degrees : Bool)
  | Nvector (normal z : ARef) (frame : FrameE α)
  | ECEFvector (pvector : ARef) (frame : FrameE α)
  | Pvector (pvector : ARef) (frame : FRef)
  | FrameN (point : PosRef)
  | FrameL (point : PosRef) (wander_azimuth : ARef)
  | FrameB (point : PosRef) (yaw pitch roll : ARef) (degrees : Bool)
  | R_EN (frame : FRef)
  | to_nvector (p : PosRef)
  | to_ecef_vector (p : PosRef)
  | to_geo_point (p : PosRef)
  | change_frame (p : ERef) (frame : FRef)
  | delta_E (a b : PosRef)
  | delta_N (a b : PosRef)
  | delta_L (a b : PosRef) (wander_azimuth : ARef)
  | ecef_length (p : ERef)
  | length (p : VRef)
  | azimuth (p : VRef)
  | elevation (p : VRef)
  | ecef_add (p q : ERef)
  | ecef_sub (p q : ERef)
  | ecef_neg (p : ERef)
  | nvec_add (p q : NRef)
  | nvec_sub (p q : NRef)
  | nvec_neg (p : NRef)
  | nvec_mul (p : NRef) (c : ARef)
  | nvec_div (p : NRef) (c : ARef)
  | nvec_mean (p : NRef)
  | nvec_unit (p : NRef)
  | displace (G : Geodesic α) (p : GRef) (distance azimuth : ARef) (long_unroll degrees : Bool) (method : String)
  | distance_and_azimuth (G : Geodesic α) (p : GRef) (q : PosRef) (long_unroll degrees : Bool) (method : String)
  | GeoPath (a b : PosRef)
  | nvectors (P : PathRef)
  | geo_points (P : PathRef)
  | ecef_vectors (P : PathRef)
  | cross_track_distance (P : PathRef) (p : PosRef) (method : String) (radius : Option ARef)
  | track_distance (G : Geodesic α) (P : PathRef) (method : String) (radius : Option ARef)
  | interpolate (P : PathRef) (ti : ARef)
  | intersect (P Q : PathRef)
  | on_great_circle (P : PathRef) (p : PosRef) (atol : α)
  | on_path (G : Geodesic α) (P : PathRef) (p : PosRef) (method : String) (rtol atol : α)
  | closest_point_on_great_circle (P : PathRef) (p : PosRef)
  | closest_point_on_path (P : PathRef) (p : PosRef)
  -- the functions on arrays
  | unit (v : ARef) (norm_zero_vector : α)
  | lat_lon2n_E (latitude longitude : ARef) (R_Ee : M3 α)
  | n_E2lat_lon (n : ARef) (R_Ee : M3 α)
  | n_E2R_EN (n : ARef) (R_Ee : M3 α)
  | n_EB_E2p_EB_E (n depth : ARef) (a f : α) (R_Ee : M3 α)
  | p_EB_E2n_EB_E (p : ARef) (a f : α) (R_Ee : M3 α)
  | core_interpolate (n0 n1 ti : ARef)
  | core_intersect (a1 a2 b1 b2 : ARef)
  | core_cross_track_distance (a b c : ARef) (method : String) (radius : ARef)
  | core_on_great_circle (a b c radius : ARef) (atol : α)
  | core_on_great_circle_path (a b c radius : ARef) (atol : α)
  | core_closest_point_on_great_circle (a b c : ARef)
  | great_circle_distance (a b radius : ARef)
  | euclidean_distance (a b radius : ARef)
  | n_EA_E_distance_and_azimuth2n_EB_E (n distance_rad azimuth : ARef) (R_Ee : M3 α)
  | mean_horizontal_position (n : ARef)
  -- tracks
  | nvec_interpolate (S : Scipy α (V3 α × α)) (p : NRef) (t_i t : ARef) (kind : String) (window_length polyorder : ℤ) (mode : String) (cval : α)
  | interp_nvectors (S : Scipy α (V3 α)) (t_i t n : ARef) (kind : String) (window_length polyorder : ℤ) (mode : String) (cval : α)

variable {α : Type} [PyFloat α]

omit [PyFloat α] in
/-- the memory after a computation, whether it raises an exception or not (any call of objects.py) -/
def M.exec {β : Type} (m : M α β) (h : Heap α) : Heap α := (m h).2

/-- the memory after a call (objects.py:43-1536) -/
def Call.exec : Call α → Heap α → Heap α
  | .array A => (alloc A).exec
  | .GeoPoint lat lon z F d => (Mem.GeoPoint lat lon z F d).exec
  | .Nvector n z F => (Mem.Nvector n z F).exec
  | .ECEFvector p F => (Mem.ECEFvector p F).exec
  | .Pvector p f => (Mem.Pvector p f).exec
  | .FrameN p => (Mem.FrameN p).exec
  | .FrameL p w => (Mem.FrameL p w).exec
  | .FrameB p y t r d => (Mem.FrameB p y t r d).exec
  | .R_EN f => (Mem.R_EN f).exec
  | .to_nvector p => (Mem.to_nvector p).exec
  | .to_ecef_vector p => (Mem.to_ecef_vector p).exec
  | .to_geo_point p => (Mem.to_geo_point p).exec
  | .change_frame p f => (Mem.change_frame p f).exec
  | .delta_E a b => (Mem.delta_E a b).exec
  | .delta_N a b => (Mem.delta_N a b).exec
  | .delta_L a b w => (Mem.delta_L a b w).exec
  | .ecef_length p => (Mem.ecef_length p).exec
  | .length p => (pvec_length p).exec
  | .azimuth p => (pvec_azimuth p).exec
  | .elevation p => (pvec_elevation p).exec
  | .ecef_add p q => (Mem.ecef_add p q).exec
  | .ecef_sub p q => (Mem.ecef_sub p q).exec
  | .ecef_neg p => (Mem.ecef_neg p).exec
  | .nvec_add p q => (Mem.nvec_add p q).exec
  | .nvec_sub p q => (Mem.nvec_sub p q).exec
  | .nvec_neg p => (Mem.nvec_neg p).exec
  | .nvec_mul p c => (Mem.nvec_mul p c).exec
  | .nvec_div p c => (Mem.nvec_div p c).exec
  | .nvec_mean p => (Mem.nvec_mean p).exec
  | .nvec_unit p => (Mem.nvec_unit p).exec
  | .displace G p d z l g m => (Mem.displace G p d z l g m).exec
  | .distance_and_azimuth G p q l g m => (Mem.distance_and_azimuth G p q l g m).exec
  | .GeoPath a b => (Mem.GeoPath a b).exec
  | .nvectors P => (Mem.nvectors P).exec
  | .geo_points P => (Mem.geo_points P).exec
  | .ecef_vectors P => (Mem.ecef_vectors P).exec
  | .cross_track_distance P p m r => (path_cross_track_distance P p m r).exec
  | .track_distance G P m r => (Mem.track_distance G P m r).exec
  | .interpolate P t => (path_interpolate P t).exec
  | .intersect P Q => (path_intersect P Q).exec
  | .on_great_circle P p t => (path_on_great_circle P p t).exec
  | .on_path G P p m r t => (Mem.on_path G P p m r t).exec
  | .closest_point_on_great_circle P p => (path_closest_point_on_great_circle P p).exec
  | .closest_point_on_path P p => (Mem.closest_point_on_path P p).exec
  | .unit v x => (Mem.unit v x).exec
  | .lat_lon2n_E a b R => (Mem.lat_lon2n_E a b R).exec
  | .n_E2lat_lon n R => (Mem.n_E2lat_lon n R).exec
  | .n_E2R_EN n R => (Mem.n_E2R_EN n R).exec
  | .n_EB_E2p_EB_E n d a f R => (Mem.n_EB_E2p_EB_E n d a f R).exec
  | .p_EB_E2n_EB_E p a f R => (Mem.p_EB_E2n_EB_E p a f R).exec
  | .core_interpolate a b t => (Mem.interpolate a b t).exec
  | .core_intersect a b c d => (Mem.intersect a b c d).exec
  | .core_cross_track_distance a b c m r => (Mem.cross_track_distance a b c m r).exec
  | .core_on_great_circle a b c r t => (Mem.on_great_circle a b c r t).exec
  | .core_on_great_circle_path a b c r t => (Mem.on_great_circle_path a b c r t).exec
  | .core_closest_point_on_great_circle a b c => (Mem.closest_point_on_great_circle a b c).exec
  | .great_circle_distance a b r => (Mem.great_circle_distance a b r).exec
  | .euclidean_distance a b r => (Mem.euclidean_distance a b r).exec
  | .n_EA_E_distance_and_azimuth2n_EB_E n d z R => (Mem.n_EA_E_distance_and_azimuth2n_EB_E n d z R).exec
  | .mean_horizontal_position n => (Mem.mean_horizontal_position n).exec
  | .nvec_interpolate S s i t k w p m c => (Mem.nvec_interpolate S s i t k w p m c).exec
  | .interp_nvectors S i t n k w p m c => (Mem.interp_nvectors S i t n k w p m c).exec

/-- the memory after a sequence of calls (a client program of objects.py) -/
def execs (calls : List (Call α)) (h : Heap α) : Heap α := calls.foldl (fun h c => c.exec h) h

end Nv.Mem
