import Verif.Mem.Calls

/-!
# Threads

A program with several threads: each thread calls functions of the library, one after the other.  A schedule says at every moment which
thread runs.  A call is executed step by step (`M`), and other threads can run between any two steps.  One step is the use of one array
or one object; that the elements of an array are read or written one by one is not modelled.
-/

namespace Nv.Mem
open Nv.ND (Arr)

section
variable {α β : Type}

/-- the next step of a computation, in the memory `h`: what is still to be done, and the memory afterwards (Python, for objects.py and core.py) -/
def M.next : M α β → Heap α → M α β × Heap α
  | .done r, h => (.done r, h)
  | .step write next, h => (next h, write h)

/-- the computation without its result: a result or an exception ends the call (Python, for objects.py and core.py) -/
def M.ignore : M α β → M α Unit
  | .done _ => .done (.ok ())
  | .step write next => .step write fun h => (next h).ignore

end

variable {α : Type} [PyFloat α]

/-- the steps of a call, without its result (objects.py:43-1536) -/
def Call.prog : Call α → M α Unit
  | .array A => (alloc A).ignore
  | .GeoPoint lat lon z F d => (Mem.GeoPoint lat lon z F d).ignore
  | .Nvector n z F => (Mem.Nvector n z F).ignore
  | .ECEFvector p F => (Mem.ECEFvector p F).ignore
  | .Pvector p f => (Mem.Pvector p f).ignore
  | .FrameN p => (Mem.FrameN p).ignore
  | .FrameL p w => (Mem.FrameL p w).ignore
  | .FrameB p y t r d => (Mem.FrameB p y t r d).ignore
  | .R_EN f => (Mem.R_EN f).ignore
  | .to_nvector p => (Mem.to_nvector p).ignore
  | .to_ecef_vector p => (Mem.to_ecef_vector p).ignore
  | .to_geo_point p => (Mem.to_geo_point p).ignore
  | .change_frame p f => (Mem.change_frame p f).ignore
  | .delta_E a b => (Mem.delta_E a b).ignore
  | .delta_N a b => (Mem.delta_N a b).ignore
  | .delta_L a b w => (Mem.delta_L a b w).ignore
  | .ecef_length p => (Mem.ecef_length p).ignore
  | .length p => (pvec_length p).ignore
  | .azimuth p => (pvec_azimuth p).ignore
  | .elevation p => (pvec_elevation p).ignore
  | .ecef_add p q => (Mem.ecef_add p q).ignore
  | .ecef_sub p q => (Mem.ecef_sub p q).ignore
  | .ecef_neg p => (Mem.ecef_neg p).ignore
  | .nvec_add p q => (Mem.nvec_add p q).ignore
  | .nvec_sub p q => (Mem.nvec_sub p q).ignore
  | .nvec_neg p => (Mem.nvec_neg p).ignore
  | .nvec_mul p c => (Mem.nvec_mul p c).ignore
  | .nvec_div p c => (Mem.nvec_div p c).ignore
  | .nvec_mean p => (Mem.nvec_mean p).ignore
  | .nvec_unit p => (Mem.nvec_unit p).ignore
  | .displace G p d z l g m => (Mem.displace G p d z l g m).ignore
  | .distance_and_azimuth G p q l g m => (Mem.distance_and_azimuth G p q l g m).ignore
  | .GeoPath a b => (Mem.GeoPath a b).ignore
  | .nvectors P => (Mem.nvectors P).ignore
  | .geo_points P => (Mem.geo_points P).ignore
  | .ecef_vectors P => (Mem.ecef_vectors P).ignore
  | .cross_track_distance P p m r => (path_cross_track_distance P p m r).ignore
  | .track_distance G P m r => (Mem.track_distance G P m r).ignore
  | .interpolate P t => (path_interpolate P t).ignore
  | .intersect P Q => (path_intersect P Q).ignore
  | .on_great_circle P p t => (path_on_great_circle P p t).ignore
  | .on_path G P p m r t => (Mem.on_path G P p m r t).ignore
  | .closest_point_on_great_circle P p => (path_closest_point_on_great_circle P p).ignore
  | .closest_point_on_path P p => (Mem.closest_point_on_path P p).ignore
  | .unit v x => (Mem.unit v x).ignore
  | .lat_lon2n_E a b R => (Mem.lat_lon2n_E a b R).ignore
  | .n_E2lat_lon n R => (Mem.n_E2lat_lon n R).ignore
  | .n_E2R_EN n R => (Mem.n_E2R_EN n R).ignore
  | .n_EB_E2p_EB_E n d a f R => (Mem.n_EB_E2p_EB_E n d a f R).ignore
  | .p_EB_E2n_EB_E p a f R => (Mem.p_EB_E2n_EB_E p a f R).ignore
  | .core_interpolate a b t => (Mem.interpolate a b t).ignore
  | .core_intersect a b c d => (Mem.intersect a b c d).ignore
  | .core_cross_track_distance a b c m r => (Mem.cross_track_distance a b c m r).ignore
  | .core_on_great_circle a b c r t => (Mem.on_great_circle a b c r t).ignore
  | .core_on_great_circle_path a b c r t => (Mem.on_great_circle_path a b c r t).ignore
  | .core_closest_point_on_great_circle a b c => (Mem.closest_point_on_great_circle a b c).ignore
  | .great_circle_distance a b r => (Mem.great_circle_distance a b r).ignore
  | .euclidean_distance a b r => (Mem.euclidean_distance a b r).ignore
  | .n_EA_E_distance_and_azimuth2n_EB_E n d z R => (Mem.n_EA_E_distance_and_azimuth2n_EB_E n d z R).ignore
  | .mean_horizontal_position n => (Mem.mean_horizontal_position n).ignore
  | .nvec_interpolate S s i t k w p m c => (Mem.nvec_interpolate S s i t k w p m c).ignore
  | .interp_nvectors S i t n k w p m c => (Mem.interp_nvectors S i t n k w p m c).ignore


/-- What another thread does: thread `i` makes one step of the call it is in, or begins a call.  If it was in a call, that call ends here,
unfinished, as after an interrupt.  Which call a thread begins, and with which references, is up to the schedule: it can depend on
everything that has happened before. (Python, a client program of objects.py) -/
inductive Event (α : Type) where
  | step (i : ℕ)
  | start (i : ℕ) (c : Call α)

/-- The memory, a computation `me` in a thread of its own and what every other thread has still to do (Python, a client program of objects.py) -/
structure Threads (α ρ : Type) where
  mem : Heap α
  me : M α ρ
  others : ℕ → M α Unit

omit [PyFloat α] in
/-- the computation `m` starts; the other threads do nothing (Python, a client program of objects.py) -/
def Threads.init {ρ : Type} (h : Heap α) (m : M α ρ) : Threads α ρ := ⟨h, m, fun _ => .done (.ok ())⟩

/-- one moment of a schedule: `none` is a step of `me` (Python, a client program of objects.py) -/
def Threads.run {ρ : Type} (s : Threads α ρ) : Option (Event α) → Threads α ρ
  | none => { s with mem := (s.me.next s.mem).2, me := (s.me.next s.mem).1 }
  | some (.step i) =>
    { s with mem := ((s.others i).next s.mem).2, others := Function.update s.others i ((s.others i).next s.mem).1 }
  | some (.start i c) => { s with others := Function.update s.others i c.prog }

/-- the state after `n` moments (Python, a client program of objects.py) -/
def Threads.play {ρ : Type} (s : Threads α ρ) (σ : ℕ → Option (Event α)) : ℕ → Threads α ρ
  | 0 => s
  | n + 1 => (s.play σ n).run (σ n)

end Nv.Mem
