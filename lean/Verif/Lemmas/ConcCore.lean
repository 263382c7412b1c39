import Verif.Lemmas.ConcUnit

/-!
# The functions of core.py and rotation.py between the steps of other threads
-/

namespace Nv.Mem
open Nv.ND (Arr)
variable {α : Type} [PyFloat α]
open PyFloat

theorem Stay_pair {ρ σ γ δ : Type} [Stays α ρ γ] [Stays α σ δ] {ω : World α} {a : ρ} {b : σ} {x : γ} {y : δ}
    (ea : Stay ω a x) (eb : Stay ω b y) : Stay ω (a, b) (x, y) := ⟨ea, eb⟩

variable {ω : World α}

theorem CRef.lat_lon2n_E {lat lon : ARef} {A B : Arr α} (ea : Stay ω lat A) (eb : Stay ω lon B) (R : M3 α) :
    CRef ω (Mem.lat_lon2n_E lat lon R) (ND.lat_lon2n_E A B R) := .read ea (.read eb .allocE)

theorem CRef.n_EB_E2p_EB_E {n d : ARef} {A B : Arr α} (ea : Stay ω n A) (eb : Stay ω d B) (a f : α) (R : M3 α) :
    CRef ω (Mem.n_EB_E2p_EB_E n d a f R) (ND.n_EB_E2p_EB_E A B a f R) := by
  refine .read ea (.lift fun _ _ => .bind .allocE fun ω1 t T E1 et => .bind (.unit et _) fun ω2 u U E2 eu => ?_)
  exact .read eu (.read (Stays.smono E2 (Stays.smono E1 eb)) .allocE)

theorem CRef.p_EB_E2n_EB_E {p : ARef} {A : Arr α} (ea : Stay ω p A) (a f : α) (R : M3 α) :
    CRef ω (Mem.p_EB_E2n_EB_E p a f R) (ND.p_EB_E2n_EB_E A a f R) := by
  refine .read ea (.lift fun P _ => .lift fun q _ => ?_)
  obtain ⟨x, y, d⟩ := q
  refine .allocThen fun ω1 t E1 et => ?_
  refine .congr (s' := (do
    let n_EB_e_x ← ND.map2 (· * ·) x (← P.row 0)
    let n_EB_e_y ← ND.map2 (· * ·) y (← P.row 1)
    let n_EB_e_z ← ND.map2 (· * ·) y (← P.row 2)
    let n_EB_e ← ND.vstack3 n_EB_e_x n_EB_e_y n_EB_e_z
    ND.dot (ND.ofM3 R).T n_EB_e) >>= fun t => ND.unit t >>= fun n => Pure.pure (n, d)) (by simp only [bind_assoc]) ?_
  refine .bind .allocE fun ω2 u U E2 eu => .bind (.unit eu _) fun ω3 v V E3 ev => ?_
  exact .pure (Stay_pair ev (Stays.smono E3 (Stays.smono E2 et)))

theorem CRef.interpolate {n0 n1 t : ARef} {A B T : Arr α} (ea : Stay ω n0 A) (eb : Stay ω n1 B)
    (et : Stay ω t T) : CRef ω (Mem.interpolate n0 n1 t) (ND.interpolate A B T) := by
  refine .read ea (.read eb (.read et ?_))
  refine .congr (s' := (do
    let d ← ND.map2 (fun t x => x * t) T (← ND.map2 (· - ·) B A)
    ND.map2 (· + ·) A d) >>= fun t => ND.unit t nan) (by simp only [bind_assoc]; rfl) ?_
  exact .bind .allocE fun ω2 u U E2 eu => .unit eu _

theorem CRef.intersect {a1 a2 b1 b2 : ARef} {A1 A2 B1 B2 : Arr α} (e1 : Stay ω a1 A1) (e2 : Stay ω a2 A2)
    (e3 : Stay ω b1 B1) (e4 : Stay ω b2 B2) :
    CRef ω (Mem.intersect a1 a2 b1 b2) (ND.intersect A1 A2 B1 B2) := by
  refine .read e1 (.read e2 (.read e3 (.read e4 ?_)))
  refine .congr (s' := (do ND.cross0 (← ND.cross0 A1 A2) (← ND.cross0 B1 B2)) >>= fun t => ND.unit t nan >>= fun u => do
    ND.map2 (fun s x => x * s) ((← ND.dot u.T A1).map sign) u) (by simp only [bind_assoc]; rfl) ?_
  exact .bind .allocE fun ω2 u U E2 eu => .bind (.unit eu _) fun ω3 v V E3 ev => .read ev .allocE

theorem CRef.great_circle_normal {a b : ARef} {A B : Arr α} (ea : Stay ω a A) (eb : Stay ω b B) :
    CRef ω (Mem.great_circle_normal a b) (ND.great_circle_normal A B) :=
  .read ea (.read eb (.bind .allocE fun _ _ _ _ eu => .unit eu _))

theorem CRef.cross_track_distance {a b c r : ARef} {A B C R : Arr α} (ea : Stay ω a A) (eb : Stay ω b B)
    (ec : Stay ω c C) (er : Stay ω r R) (method : String) :
    CRef ω (Mem.cross_track_distance a b c method r) (ND.cross_track_distanceA A B C method R) := by
  refine .bind (.great_circle_normal ea eb) fun ω1 t T E1 et => ?_
  exact .read et (.read (Stays.smono E1 ec) (.read (Stays.smono E1 er) .allocE))

theorem CRef.on_great_circle {a b c r : ARef} {A B C R : Arr α} (ea : Stay ω a A) (eb : Stay ω b B)
    (ec : Stay ω c C) (er : Stay ω r R) (atol : α) :
    CRef ω (Mem.on_great_circle a b c r atol) (ND.on_great_circleA A B C R atol) := by
  refine .bind (.cross_track_distance ea eb ec er _) fun ω1 t T E1 et => .read et (.pure rfl)

theorem CRef.on_great_circle_path {a b c r : ARef} {A B C R : Arr α} (ea : Stay ω a A) (eb : Stay ω b B)
    (ec : Stay ω c C) (er : Stay ω r R) (atol : α) :
    CRef ω (Mem.on_great_circle_path a b c r atol) (ND.on_great_circle_pathA A B C R atol) := by
  refine .read ea (.read eb (.read ec ?_))
  refine .congr (s' := (do ND.norm0 (← ND.map2 (· - ·) B A)) >>= fun scale =>
    (do ND.map2 (· / ·) (← ND.norm0 (← ND.map2 (· - ·) C A)) scale) >>= fun ti1 =>
    (do ND.map2 (· / ·) (← ND.norm0 (← ND.map2 (· - ·) C B)) scale) >>= fun ti2 =>
    ND.map2 (· && ·) (ti1.map (le · (lit 1))) (ti2.map (le · (lit 1))) >>= fun m =>
    ND.on_great_circleA A B C R atol >>= fun g => ND.map2 (· && ·) m g) ?_ ?_
  · simp only [bind_assoc]
    rfl
  · refine .lift fun _ _ => .lift fun _ _ => .lift fun _ _ => .lift fun _ _ => .bind (.on_great_circle ea eb ec er _) ?_
    intro ω1 g G _ eg
    cases eg
    exact .liftB

theorem CRef.closest_point_on_great_circle {a b c : ARef} {A B C : Arr α} (ea : Stay ω a A) (eb : Stay ω b B)
    (ec : Stay ω c C) :
    CRef ω (Mem.closest_point_on_great_circle a b c) (ND.closest_point_on_great_circle A B C) := by
  refine .bind (.great_circle_normal ea eb) fun ω1 t T E1 et => .read et (.read (Stays.smono E1 ec) ?_)
  refine .congr (s' := (do
    let c2 ← ND.cross0 C T
    ND.cross0 T c2) >>= fun t => ND.unit t >>= fun u => do
    ND.map2 (· * ·) u ((← ND.dot u.T C).map sign)) (by simp only [bind_assoc]) ?_
  exact .bind .allocE fun ω2 u U E2 eu => .bind (.unit eu _) fun ω3 v V E3 ev => .read ev .allocE

theorem CRef.great_circle_distance {a b r : ARef} {A B R : Arr α} (ea : Stay ω a A) (eb : Stay ω b B)
    (er : Stay ω r R) : CRef ω (Mem.great_circle_distance a b r) (ND.great_circle_distanceA A B R) :=
  .read ea (.read eb (.read er .allocE))

theorem CRef.euclidean_distance {a b r : ARef} {A B R : Arr α} (ea : Stay ω a A) (eb : Stay ω b B)
    (er : Stay ω r R) : CRef ω (Mem.euclidean_distance a b r) (ND.euclidean_distanceA A B R) :=
  .read ea (.read eb (.read er .allocE))

theorem CRef.n_E2lat_lon {n : ARef} {A : Arr α} (ea : Stay ω n A) (R : M3 α) :
    CRef ω (Mem.n_E2lat_lon n R) (ND.n_E2lat_lon A R) := by
  refine .read ea (.congr (bind_pure _).symm (.lift fun q _ => ?_))
  obtain ⟨x, y⟩ := q
  exact .allocThen fun ω1 t E1 et => .allocThen fun ω2 u E2 eu => .pure (Stay_pair (Stays.smono E2 et) eu)

theorem CRef.n_EA_E_distance_and_azimuth2n_EB_E {n d z : ARef} {A D Z : Arr α} (ea : Stay ω n A)
    (ed : Stay ω d D) (ez : Stay ω z Z) (R : M3 α) :
    CRef ω (Mem.n_EA_E_distance_and_azimuth2n_EB_E n d z R) (ND.n_EA_E_distance_and_azimuth2n_EB_E A D Z R) := by
  refine .read ea (.read ed (.read ez ?_))
  refine .congr (s' := (do ND.cross0 (← ND.dot (ND.ofM3 R).T (ND.ofV3 ⟨lit 1, lit 0, lit 0⟩)) A) >>= fun t => ND.unit t >>= fun k => do
    let k_north_E ← ND.cross0 A k
    let d_E ← ND.map2 (· + ·) (← ND.map2 (· * ·) k_north_E (Z.map cos)) (← ND.map2 (· * ·) k (Z.map sin))
    ND.map2 (· + ·) (← ND.map2 (· * ·) A (D.map cos)) (← ND.map2 (· * ·) d_E (D.map sin))) (by simp only [bind_assoc]; rfl) ?_
  exact .bind .allocE fun ω2 u U E2 eu => .bind (.unit eu _) fun ω3 v V E3 ev => .read ev .allocE

theorem CRef.mean_horizontal_position {n : ARef} {A : Arr α} (ea : Stay ω n A) :
    CRef ω (Mem.mean_horizontal_position n) (ND.mean_horizontal_position A) := by
  refine .read ea ?_
  refine .congr (s' := (do
    let s ← ND.sumAxis1 A
    s.reshape31) >>= fun t => ND.unit t) (by simp only [bind_assoc]; rfl) ?_
  exact .bind .allocE fun ω2 u U E2 eu => .unit eu _

end Nv.Mem
