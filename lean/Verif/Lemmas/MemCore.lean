import Verif.Lemmas.MemUnit

/-!
# The functions of core.py and rotation.py on the memory: they return the values of `Verif.ND` in new arrays
-/

namespace Nv.Mem
open Nv.ND (Arr)
variable {α : Type} [PyFloat α]
open PyFloat

omit [PyFloat α] in
theorem Refines.congr {ρ γ : Type} [HasVal α ρ γ] {h : Heap α} {m : M α ρ} {s s' : Except PyErr γ} (e : s = s')
    (r : Refines h m s') : Refines h m s := e ▸ r

omit [PyFloat α] in
theorem val_pair {ρ σ γ δ : Type} [HasVal α ρ γ] [HasVal α σ δ] {h : Heap α} {a : ρ} {b : σ} {x : γ} {y : δ}
    (ea : val h a = some x) (eb : val h b = some y) : val h (a, b) = some (x, y) := by
  change (do pure (← val h a, ← val h b) : Option (γ × δ)) = some (x, y)
  rw [ea, eb]
  rfl

omit [PyFloat α] in
theorem val_fst {ρ σ γ δ : Type} [HasVal α ρ γ] [HasVal α σ δ] {h : Heap α} {a : ρ × σ} {x : γ × δ}
    (e : val h a = some x) : val h a.1 = some x.1 := by
  change (do pure (← val h a.1, ← val h a.2) : Option (γ × δ)) = some x at e
  simp only [Option.bind_eq_bind, Option.bind_eq_some_iff, Option.pure_def] at e
  obtain ⟨u, eu, v, ev, e⟩ := e
  cases e
  exact eu

omit [PyFloat α] in
theorem val_snd {ρ σ γ δ : Type} [HasVal α ρ γ] [HasVal α σ δ] {h : Heap α} {a : ρ × σ} {x : γ × δ}
    (e : val h a = some x) : val h a.2 = some x.2 := by
  change (do pure (← val h a.1, ← val h a.2) : Option (γ × δ)) = some x at e
  simp only [Option.bind_eq_bind, Option.bind_eq_some_iff, Option.pure_def] at e
  obtain ⟨u, eu, v, ev, e⟩ := e
  cases e
  exact ev

/-- a new array, then the rest -/
theorem Refines.allocThen {ρ γ : Type} [HasVal α ρ γ] {h : Heap α} {A : Arr α} {f : ARef → M α ρ} {s : Except PyErr γ}
    (k : ∀ h' r, Ext h h' → val h' r = some A → Refines h' (f r) s) : Refines h (Mem.alloc A >>= f) s :=
  Refines.make rfl (ext_alloc h A) (k _ _ (ext_alloc h A) (alloc_val h A))

variable {h : Heap α}

theorem Refines.lat_lon2n_E {lat lon : ARef} {A B : Arr α} (ea : val h lat = some A) (eb : val h lon = some B) (R : M3 α) :
    Refines h (Mem.lat_lon2n_E lat lon R) (ND.lat_lon2n_E A B R) := .read ea (.read eb .allocE)

theorem Refines.n_EB_E2p_EB_E {n d : ARef} {A B : Arr α} (ea : val h n = some A) (eb : val h d = some B) (a f : α) (R : M3 α) :
    Refines h (Mem.n_EB_E2p_EB_E n d a f R) (ND.n_EB_E2p_EB_E A B a f R) := by
  refine .read ea (.lift fun _ _ => .bind .allocE fun h1 t T E1 et => .bind (.unit et _) fun h2 u U E2 eu => ?_)
  exact .read eu (.read (HasVal.mono E2 (HasVal.mono E1 eb)) .allocE)

theorem Refines.p_EB_E2n_EB_E {p : ARef} {A : Arr α} (ea : val h p = some A) (a f : α) (R : M3 α) :
    Refines h (Mem.p_EB_E2n_EB_E p a f R) (ND.p_EB_E2n_EB_E A a f R) := by
  refine .read ea (.lift fun P _ => .lift fun q _ => ?_)
  obtain ⟨x, y, d⟩ := q
  refine .allocThen fun h1 t E1 et => ?_
  refine .congr (s' := (do
    let n_EB_e_x ← ND.map2 (· * ·) x (← P.row 0)
    let n_EB_e_y ← ND.map2 (· * ·) y (← P.row 1)
    let n_EB_e_z ← ND.map2 (· * ·) y (← P.row 2)
    let n_EB_e ← ND.vstack3 n_EB_e_x n_EB_e_y n_EB_e_z
    ND.dot (ND.ofM3 R).T n_EB_e) >>= fun t => ND.unit t >>= fun n => Pure.pure (n, d)) (by simp only [bind_assoc]) ?_
  refine .bind .allocE fun h2 u U E2 eu => .bind (.unit eu _) fun h3 v V E3 ev => ?_
  exact .pure (val_pair ev (HasVal.mono E3 (HasVal.mono E2 et)))

theorem Refines.interpolate {n0 n1 t : ARef} {A B T : Arr α} (ea : val h n0 = some A) (eb : val h n1 = some B)
    (et : val h t = some T) : Refines h (Mem.interpolate n0 n1 t) (ND.interpolate A B T) := by
  refine .read ea (.read eb (.read et ?_))
  refine .congr (s' := (do
    let d ← ND.map2 (fun t x => x * t) T (← ND.map2 (· - ·) B A)
    ND.map2 (· + ·) A d) >>= fun t => ND.unit t nan) (by simp only [bind_assoc]; rfl) ?_
  exact .bind .allocE fun h2 u U E2 eu => .unit eu _

theorem Refines.intersect {a1 a2 b1 b2 : ARef} {A1 A2 B1 B2 : Arr α} (e1 : val h a1 = some A1) (e2 : val h a2 = some A2)
    (e3 : val h b1 = some B1) (e4 : val h b2 = some B2) :
    Refines h (Mem.intersect a1 a2 b1 b2) (ND.intersect A1 A2 B1 B2) := by
  refine .read e1 (.read e2 (.read e3 (.read e4 ?_)))
  refine .congr (s' := (do ND.cross0 (← ND.cross0 A1 A2) (← ND.cross0 B1 B2)) >>= fun t => ND.unit t nan >>= fun u => do
    ND.map2 (fun s x => x * s) ((← ND.dot u.T A1).map sign) u) (by simp only [bind_assoc]; rfl) ?_
  exact .bind .allocE fun h2 u U E2 eu => .bind (.unit eu _) fun h3 v V E3 ev => .read ev .allocE

theorem Refines.great_circle_normal {a b : ARef} {A B : Arr α} (ea : val h a = some A) (eb : val h b = some B) :
    Refines h (Mem.great_circle_normal a b) (ND.great_circle_normal A B) :=
  .read ea (.read eb (.bind .allocE fun _ _ _ _ eu => .unit eu _))

theorem Refines.cross_track_distance {a b c r : ARef} {A B C R : Arr α} (ea : val h a = some A) (eb : val h b = some B)
    (ec : val h c = some C) (er : val h r = some R) (method : String) :
    Refines h (Mem.cross_track_distance a b c method r) (ND.cross_track_distanceA A B C method R) := by
  refine .bind (.great_circle_normal ea eb) fun h1 t T E1 et => ?_
  exact .read et (.read (HasVal.mono E1 ec) (.read (HasVal.mono E1 er) .allocE))

theorem Refines.on_great_circle {a b c r : ARef} {A B C R : Arr α} (ea : val h a = some A) (eb : val h b = some B)
    (ec : val h c = some C) (er : val h r = some R) (atol : α) :
    Refines h (Mem.on_great_circle a b c r atol) (ND.on_great_circleA A B C R atol) := by
  refine .bind (.cross_track_distance ea eb ec er _) fun h1 t T E1 et => .read et (.pure rfl)

omit [PyFloat α] in
/-- `lift` in the last position -/
theorem Refines.liftB {e : Except PyErr (Arr Bool)} : Refines h (Mem.lift e : M α (Arr Bool)) e := by
  cases e <;> exact ⟨Ext.refl h, rfl⟩

theorem Refines.on_great_circle_path {a b c r : ARef} {A B C R : Arr α} (ea : val h a = some A) (eb : val h b = some B)
    (ec : val h c = some C) (er : val h r = some R) (atol : α) :
    Refines h (Mem.on_great_circle_path a b c r atol) (ND.on_great_circle_pathA A B C R atol) := by
  refine .read ea (.read eb (.read ec ?_))
  refine .congr (s' := (do ND.norm0 (← ND.map2 (· - ·) B A)) >>= fun scale =>
    (do ND.map2 (· / ·) (← ND.norm0 (← ND.map2 (· - ·) C A)) scale) >>= fun ti1 =>
    (do ND.map2 (· / ·) (← ND.norm0 (← ND.map2 (· - ·) C B)) scale) >>= fun ti2 =>
    ND.map2 (· && ·) (ti1.map (le · (lit 1))) (ti2.map (le · (lit 1))) >>= fun m =>
    ND.on_great_circleA A B C R atol >>= fun g => ND.map2 (· && ·) m g) ?_ ?_
  · simp only [bind_assoc]
    rfl
  · refine .lift fun _ _ => .lift fun _ _ => .lift fun _ _ => .lift fun _ _ => .bind (.on_great_circle ea eb ec er _) ?_
    intro h1 g G _ eg
    cases eg
    exact .liftB

theorem Refines.closest_point_on_great_circle {a b c : ARef} {A B C : Arr α} (ea : val h a = some A) (eb : val h b = some B)
    (ec : val h c = some C) :
    Refines h (Mem.closest_point_on_great_circle a b c) (ND.closest_point_on_great_circle A B C) := by
  refine .bind (.great_circle_normal ea eb) fun h1 t T E1 et => .read et (.read (HasVal.mono E1 ec) ?_)
  refine .congr (s' := (do
    let c2 ← ND.cross0 C T
    ND.cross0 T c2) >>= fun t => ND.unit t >>= fun u => do
    ND.map2 (· * ·) u ((← ND.dot u.T C).map sign)) (by simp only [bind_assoc]) ?_
  exact .bind .allocE fun h2 u U E2 eu => .bind (.unit eu _) fun h3 v V E3 ev => .read ev .allocE

theorem Refines.great_circle_distance {a b r : ARef} {A B R : Arr α} (ea : val h a = some A) (eb : val h b = some B)
    (er : val h r = some R) : Refines h (Mem.great_circle_distance a b r) (ND.great_circle_distanceA A B R) :=
  .read ea (.read eb (.read er .allocE))

theorem Refines.euclidean_distance {a b r : ARef} {A B R : Arr α} (ea : val h a = some A) (eb : val h b = some B)
    (er : val h r = some R) : Refines h (Mem.euclidean_distance a b r) (ND.euclidean_distanceA A B R) :=
  .read ea (.read eb (.read er .allocE))

theorem Refines.n_E2lat_lon {n : ARef} {A : Arr α} (ea : val h n = some A) (R : M3 α) :
    Refines h (Mem.n_E2lat_lon n R) (ND.n_E2lat_lon A R) := by
  refine .read ea (.congr (bind_pure _).symm (.lift fun q _ => ?_))
  obtain ⟨x, y⟩ := q
  exact .allocThen fun h1 t E1 et => .allocThen fun h2 u E2 eu => .pure (val_pair (HasVal.mono E2 et) eu)

theorem Refines.n_EA_E_distance_and_azimuth2n_EB_E {n d z : ARef} {A D Z : Arr α} (ea : val h n = some A)
    (ed : val h d = some D) (ez : val h z = some Z) (R : M3 α) :
    Refines h (Mem.n_EA_E_distance_and_azimuth2n_EB_E n d z R) (ND.n_EA_E_distance_and_azimuth2n_EB_E A D Z R) := by
  refine .read ea (.read ed (.read ez ?_))
  refine .congr (s' := (do ND.cross0 (← ND.dot (ND.ofM3 R).T (ND.ofV3 ⟨lit 1, lit 0, lit 0⟩)) A) >>= fun t => ND.unit t >>= fun k => do
    let k_north_E ← ND.cross0 A k
    let d_E ← ND.map2 (· + ·) (← ND.map2 (· * ·) k_north_E (Z.map cos)) (← ND.map2 (· * ·) k (Z.map sin))
    ND.map2 (· + ·) (← ND.map2 (· * ·) A (D.map cos)) (← ND.map2 (· * ·) d_E (D.map sin))) (by simp only [bind_assoc]; rfl) ?_
  exact .bind .allocE fun h2 u U E2 eu => .bind (.unit eu _) fun h3 v V E3 ev => .read ev .allocE

theorem Refines.mean_horizontal_position {n : ARef} {A : Arr α} (ea : val h n = some A) :
    Refines h (Mem.mean_horizontal_position n) (ND.mean_horizontal_position A) := by
  refine .read ea ?_
  refine .congr (s' := (do
    let s ← ND.sumAxis1 A
    s.reshape31) >>= fun t => ND.unit t) (by simp only [bind_assoc]; rfl) ?_
  exact .bind .allocE fun h2 u U E2 eu => .unit eu _

end Nv.Mem
