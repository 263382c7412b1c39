import Verif.Lemmas.ConcPaths

/-!
# No call writes what another thread has made, except `Nvector.unit`

And `GeoPath.interpolate` between the steps of other threads: the `Nvector` it assigns to is its own.
-/

namespace Nv.Mem
open Nv.ND (Arr)
variable {α : Type}
variable {β γ : Type}

/-- other threads remove nothing -/
def RelyF (w : World α) (h' : Heap α) : Prop := Keeps (fun _ => False) (fun _ => False) w.h h'

/-- what the thread has made is still there -/
structure Grow (w w' : World α) : Prop where
  oa : ∀ i, w.oa i → w'.oa i
  on : ∀ i, w.on i → w'.on i
  alen : w.h.arrays.length ≤ w'.h.arrays.length
  nlen : w.h.nvecs.length ≤ w'.h.nvecs.length

theorem Grow.refl (w : World α) : Grow w w := ⟨fun _ p => p, fun _ p => p, le_rfl, le_rfl⟩
theorem Grow.trans {w w' w'' : World α} (a : Grow w w') (b : Grow w' w'') : Grow w w'' :=
  ⟨fun i p => b.oa i (a.oa i p), fun i p => b.on i (a.on i p), a.alen.trans b.alen, a.nlen.trans b.nlen⟩
theorem Grow.after {w : World α} {h h' : Heap α} (R : RelyF w h) (G : Guar w h h') : Grow w (w.after h h') :=
  ⟨fun _ => Or.inl, fun _ => Or.inl, R.alen.trans G.alen, R.nlen.trans G.nlen⟩

/-- `Runs`, where nothing is known to keep its value -/
def RunsF (Q : World α → Except PyErr β → Prop) : M α β → World α → Prop
  | .done r, w => Q w r
  | .step write next, w => ∀ h, RelyF w h → Guar w h (write h) ∧ RunsF Q (next h) (w.after h (write h))

theorem RunsF.runs {Q : World α → Except PyErr β → Prop} {m : M α β} {w : World α} (r : RunsF Q m w) : Runs Q m w := by
  induction m generalizing w with
  | done x => exact r
  | step wr k ih =>
    exact fun h R => let q := r h (Keeps.weaken (P' := w.pa) (N' := w.pn) R (fun _ x => x.elim) fun _ x => x.elim); ⟨q.1, ih h q.2⟩

theorem RunsF.imp {Q Q' : World α → Except PyErr β → Prop} (q : ∀ w r, Q w r → Q' w r) {m : M α β} {w : World α} (r : RunsF Q m w) :
    RunsF Q' m w := by
  induction m generalizing w with
  | done x => exact q w x r
  | step wr k ih => exact fun h R => ⟨(r h R).1, ih h (r h R).2⟩

theorem RunsF.bind {Q : World α → Except PyErr β → Prop} {Q' : World α → Except PyErr γ → Prop} {m : M α β} {f : β → M α γ}
    {w : World α} (r : RunsF Q m w) (ok : ∀ w' b, Q w' (.ok b) → RunsF Q' (f b) w') (err : ∀ w' e, Q w' (.error e) → Q' w' (.error e)) :
    RunsF Q' (m >>= f) w := by
  induction m generalizing w with
  | done x =>
    cases x with
    | ok b => exact ok w b r
    | error e => exact err w e r
  | step wr k ih => exact fun h R => ⟨(r h R).1, ih h (r h R).2⟩

/-- whatever other threads do, every step of `m` writes only what the thread has made itself -/
def Safe (m : M α β) : Prop := ∀ w, RunsF (fun w' _ => Grow w w') m w

/-- `Safe`, and the result satisfies `P` -/
def SafeP (P : World α → World α → β → Prop) (m : M α β) : Prop :=
  ∀ w, RunsF (fun w' r => Grow w w' ∧ ∀ b, r = .ok b → P w w' b) m w

theorem SafeP.safe {P : World α → World α → β → Prop} {m : M α β} (s : SafeP P m) : Safe m := fun w => (s w).imp fun _ _ q => q.1

theorem Safe.bind {m : M α β} {f : β → M α γ} (a : Safe m) (b : ∀ x, Safe (f x)) : Safe (m >>= f) := fun w =>
  RunsF.bind (a w) (fun w' x q => (b x w').imp fun _ _ q' => q.trans q') fun _ _ q => q

theorem Safe.look (f : Heap α → Except PyErr β) : Safe (Mem.look f) := fun w h R =>
  ⟨Keeps.refl _ _ _, Grow.after R (Keeps.refl _ _ _)⟩
theorem Safe.act (f : Heap α → β) (wr : Heap α → Heap α) (E : ∀ h, Ext h (wr h)) : Safe (Mem.act f wr) := fun w h R =>
  ⟨(E h).keeps _ _, Grow.after R ((E h).keeps _ _)⟩

theorem Safe.pure (b : β) : Safe (Pure.pure b : M α β) := fun w => Grow.refl w
theorem Safe.lift (e : Except PyErr β) : Safe (Mem.lift e : M α β) := fun w => Grow.refl w
theorem Safe.throw (e : PyErr) : Safe (Mem.throw e : M α β) := fun w => Grow.refl w
theorem Safe.readA (r : ARef) : Safe (Mem.readA r : M α _) := Safe.look _
theorem Safe.alloc (A : Arr α) : Safe (Mem.alloc A) := Safe.act _ _ fun h => Pres.alloc A h
theorem Safe.allocE (e : Except PyErr (Arr α)) : Safe (Mem.allocE e) := Safe.bind (Safe.lift e) Safe.alloc
theorem Safe.getGeo (r : GRef) : Safe (Mem.getGeo r : M α _) := Safe.look _
theorem Safe.getNvec (r : NRef) : Safe (Mem.getNvec r : M α _) := Safe.look _
theorem Safe.getEcef (r : ERef) : Safe (Mem.getEcef r : M α _) := Safe.look _
theorem Safe.getFrame (r : FRef) : Safe (Mem.getFrame r : M α _) := Safe.look _
theorem Safe.getPvec (r : VRef) : Safe (Mem.getPvec r : M α _) := Safe.look _
theorem Safe.getPath (r : PathRef) : Safe (Mem.getPath r : M α _) := Safe.look _
theorem Safe.newGeo (o : GeoObj α) : Safe (Mem.newGeo o) := Safe.act _ _ fun h => Pres.newGeo o h
theorem Safe.newNvec (o : NvecObj α) : Safe (Mem.newNvec o) := Safe.act _ _ fun h => Pres.newNvec o h
theorem Safe.newEcef (o : EcefObj α) : Safe (Mem.newEcef o) := Safe.act _ _ fun h => Pres.newEcef o h
theorem Safe.newFrame (o : FrameObj) : Safe (Mem.newFrame o : M α _) := Safe.act _ _ fun h => Pres.newFrame o h
theorem Safe.newPvec (o : PvecObj) : Safe (Mem.newPvec o : M α _) := Safe.act _ _ fun h => Pres.newPvec o h
theorem Safe.newPath (o : PathObj) : Safe (Mem.newPath o : M α _) := Safe.act _ _ fun h => Pres.newPath o h

/-! ## Assignments -/

/-- the array is the thread's own -/
def OwnA (_ w' : World α) (r : ARef) : Prop := w'.oa r.base
/-- the `Nvector` object is the thread's own -/
def OwnN (w w' : World α) (r : NRef) : Prop := w'.on r.id ∧ w.h.nvecs.length ≤ r.id

theorem SafeP.allocE (e : Except PyErr (Arr α)) : SafeP OwnA (Mem.allocE e) := by
  cases e with
  | error x => exact fun w => ⟨Grow.refl w, fun b e => by cases e⟩
  | ok A =>
    refine fun w h R => ⟨(ext_alloc h A).keeps _ _, Grow.after R ((ext_alloc h A).keeps _ _), fun b e => ?_⟩
    cases e
    exact Or.inr ⟨le_rfl, by simp⟩

theorem SafeP.newNvec (o : NvecObj α) : SafeP OwnN (Mem.newNvec o) := by
  refine fun w h R => ⟨(Pres.newNvec o h).keeps _ _, Grow.after R ((Pres.newNvec o h).keeps _ _), fun b e => ?_⟩
  cases e
  exact ⟨Or.inr ⟨le_rfl, by simp⟩, R.nlen⟩

theorem SafeP.bindN {m : M α β} {f : β → M α NRef} (a : Safe m) (b : ∀ x, SafeP OwnN (f x)) : SafeP OwnN (m >>= f) := fun w =>
  RunsF.bind (a w) (fun w' x q => (b x w').imp fun _ _ q' => ⟨q.trans q'.1, fun b e => ⟨(q'.2 b e).1, q.nlen.trans (q'.2 b e).2⟩⟩)
    fun _ _ q => ⟨q, fun b e => by cases e⟩

theorem SafeP.bindA {m : M α β} {f : β → M α ARef} (a : Safe m) (b : ∀ x, SafeP OwnA (f x)) : SafeP OwnA (m >>= f) := fun w =>
  RunsF.bind (a w) (fun w' x q => (b x w').imp fun _ _ q' => ⟨q.trans q'.1, fun b e => q'.2 b e⟩) fun _ _ q => ⟨q, fun b e => by cases e⟩

theorem guar_assign {w : World α} {r : ARef} (o : w.oa r.base) (f : List ℕ → α → α) (h : Heap α) :
    Guar w h { h with arrays := h.arrays.modify r.base fun A => ⟨A.shape, fun i => f i (A.get i)⟩ } := by
  refine ⟨fun i hi _ => ?_, fun _ _ _ => rfl, by simp, le_rfl, List.prefix_refl _, List.prefix_refl _, List.prefix_refl _,
    List.prefix_refl _, List.prefix_refl _⟩
  have : r.base ≠ i := by rintro rfl; exact hi o
  simp [List.getElem?_modify, this]

theorem guar_setNormal {w : World α} {r : NRef} (o : w.on r.id) (a : ARef) (h : Heap α) :
    Guar w h { h with nvecs := h.nvecs.modify r.id fun o => { o with normal := a } } := by
  refine ⟨fun _ _ _ => rfl, fun i hi _ => ?_, le_rfl, by simp, List.prefix_refl _, List.prefix_refl _, List.prefix_refl _,
    List.prefix_refl _, List.prefix_refl _⟩
  have : r.id ≠ i := by rintro rfl; exact hi o
  simp [List.getElem?_modify, this]

theorem RunsF.assign_own {w : World α} {r : ARef} (o : w.oa r.base) (f : List ℕ → α → α) :
    RunsF (fun w' _ => Grow w w') (Mem.assign r f) w := fun h R =>
  ⟨guar_assign o f h, Grow.after R (guar_assign o f h)⟩

theorem RunsF.setNormal_own {w : World α} {r : NRef} (o : w.on r.id) (a : ARef) :
    RunsF (fun w' _ => Grow w w') (Mem.setNormal r a) w := fun h R =>
  ⟨guar_setNormal o a h, Grow.after R (guar_setNormal o a h)⟩

variable [PyFloat α]
open PyFloat

theorem SafeP.unit (r : ARef) (nzv : α) : SafeP OwnA (Mem.unit r nzv) := by
  unfold Mem.unit
  refine SafeP.bindA (.readA _) fun v => SafeP.bindA (.lift _) fun n => fun w => ?_
  refine RunsF.bind (SafeP.allocE _ w) (fun w1 u q => ?_) fun w1 e q => ⟨q.1, fun b e => by cases e⟩
  have o : w1.oa u.base := q.2 u rfl
  split
  · refine RunsF.bind (RunsF.assign_own o _) (fun w2 _ q2 => ?_) fun w2 e q2 => ⟨q.1.trans q2, fun b e => by cases e⟩
    refine RunsF.bind (RunsF.assign_own (q2.oa _ o) _) (fun w3 _ q3 => ?_) fun w3 e q3 => ⟨q.1.trans (q2.trans q3), fun b e => by cases e⟩
    refine ⟨q.1.trans (q2.trans q3), fun b e => ?_⟩
    cases e
    exact q3.oa _ (q2.oa _ o)
  · exact ⟨q.1, fun b e => by cases e⟩

theorem Safe.unit (r : ARef) (nzv : α) : Safe (Mem.unit r nzv) := (SafeP.unit r nzv).safe

theorem Safe.n_E2R_EN (r : ARef) (R : M3 α) : Safe (Mem.n_E2R_EN r R) := by
  unfold Mem.n_E2R_EN
  refine .bind (.readA _) fun _ => .bind (.lift _) fun _ => .bind (.allocE _) fun _ => .bind (.unit _ _) fun _ => .bind (.readA _) fun _ => ?_
  refine .bind (.lift _) fun _ => .bind (.lift _) fun _ => .bind (.alloc _) fun _ => fun w => ?_
  refine RunsF.bind (SafeP.unit _ _ w) (fun w1 u q => ?_) fun w1 e q => q.1
  refine RunsF.bind (RunsF.assign_own (q.2 u rfl) _) (fun w2 _ q2 => ?_) fun w2 e q2 => q.1.trans q2
  exact (Safe.bind (.readA _) (fun _ => .allocE _) w2).imp fun _ _ q3 => q.1.trans (q2.trans q3)

macro "safe" "[" ls:term,* "]" : tactic => `(tactic| repeat' first
  $[| with_reducible exact $ls]*
  | with_reducible exact Safe.unit _ _ | with_reducible exact Safe.n_E2R_EN _ _ | with_reducible exact Safe.pure _ | with_reducible exact Safe.lift _ | with_reducible exact Safe.throw _ | with_reducible exact Safe.readA _ | with_reducible exact Safe.alloc _
  | with_reducible exact Safe.allocE _ | with_reducible exact Safe.getGeo _ | with_reducible exact Safe.getNvec _ | with_reducible exact Safe.getEcef _ | with_reducible exact Safe.getFrame _
  | with_reducible exact Safe.getPvec _ | with_reducible exact Safe.getPath _ | with_reducible exact Safe.newGeo _ | with_reducible exact Safe.newNvec _ | with_reducible exact Safe.newEcef _
  | with_reducible exact Safe.newFrame _ | with_reducible exact Safe.newPvec _ | with_reducible exact Safe.newPath _
  | with_reducible refine Safe.bind ?_ (fun _ => ?_) | split)

theorem Safe.lat_lon2n_E (a b : ARef) (R : M3 α) : Safe (Mem.lat_lon2n_E a b R) := by unfold Mem.lat_lon2n_E; safe []
theorem Safe.n_EB_E2p_EB_E (n d : ARef) (a f : α) (R : M3 α) : Safe (Mem.n_EB_E2p_EB_E n d a f R) := by
  unfold Mem.n_EB_E2p_EB_E; safe []
theorem Safe.p_EB_E2n_EB_E (p : ARef) (a f : α) (R : M3 α) : Safe (Mem.p_EB_E2n_EB_E p a f R) := by
  unfold Mem.p_EB_E2n_EB_E; safe []
theorem Safe.interpolate (a b t : ARef) : Safe (Mem.interpolate a b t : M α _) := by unfold Mem.interpolate; safe []
theorem Safe.intersect (a b c d : ARef) : Safe (Mem.intersect a b c d : M α _) := by unfold Mem.intersect; safe []
theorem Safe.great_circle_normal (a b : ARef) : Safe (Mem.great_circle_normal a b : M α _) := by
  unfold Mem.great_circle_normal; safe []
theorem Safe.cross_track_distance (a b c : ARef) (m : String) (r : ARef) : Safe (Mem.cross_track_distance a b c m r : M α _) := by
  unfold Mem.cross_track_distance; safe [Safe.great_circle_normal _ _]
theorem Safe.on_great_circle (a b c r : ARef) (t : α) : Safe (Mem.on_great_circle a b c r t) := by
  unfold Mem.on_great_circle; safe [Safe.cross_track_distance _ _ _ _ _]
theorem Safe.on_great_circle_path (a b c r : ARef) (t : α) : Safe (Mem.on_great_circle_path a b c r t) := by
  unfold Mem.on_great_circle_path; safe [Safe.on_great_circle _ _ _ _ _]
theorem Safe.closest_point_on_great_circle (a b c : ARef) : Safe (Mem.closest_point_on_great_circle a b c : M α _) := by
  unfold Mem.closest_point_on_great_circle; safe [Safe.great_circle_normal _ _]
theorem Safe.great_circle_distance (a b r : ARef) : Safe (Mem.great_circle_distance a b r : M α _) := by
  unfold Mem.great_circle_distance; safe []
theorem Safe.euclidean_distance (a b r : ARef) : Safe (Mem.euclidean_distance a b r : M α _) := by
  unfold Mem.euclidean_distance; safe []
theorem Safe.n_E2lat_lon (n : ARef) (R : M3 α) : Safe (Mem.n_E2lat_lon n R) := by unfold Mem.n_E2lat_lon; safe []
theorem Safe.n_EA_E_distance_and_azimuth2n_EB_E (n d z : ARef) (R : M3 α) :
    Safe (Mem.n_EA_E_distance_and_azimuth2n_EB_E n d z R) := by unfold Mem.n_EA_E_distance_and_azimuth2n_EB_E; safe []
theorem Safe.mean_horizontal_position (n : ARef) : Safe (Mem.mean_horizontal_position n : M α _) := by
  unfold Mem.mean_horizontal_position; safe []
theorem Safe.GeoPoint (a b z : ARef) (F : FrameE α) (d : Bool) : Safe (Mem.GeoPoint a b z F d) := by
  unfold Mem.GeoPoint; safe []
omit [PyFloat α] in
theorem Safe.Nvector (n z : ARef) (F : FrameE α) : Safe (Mem.Nvector n z F) := Safe.newNvec _
theorem Safe.ECEFvector (p : ARef) (F : FrameE α) : Safe (Mem.ECEFvector p F) := by unfold Mem.ECEFvector; safe []
theorem Safe.Pvector (p : ARef) (f : FRef) : Safe (Mem.Pvector p f : M α _) := by unfold Mem.Pvector; safe []
theorem Safe.geo_to_nvector (r : GRef) : Safe (Mem.geo_to_nvector r : M α _) := by
  unfold Mem.geo_to_nvector; safe [Safe.lat_lon2n_E _ _ _]
theorem Safe.isScalar (o : NvecObj α) : Safe (Mem.isScalar o) := by unfold Mem.isScalar; safe []
theorem Safe.nvec_to_ecef_vector (r : NRef) : Safe (Mem.nvec_to_ecef_vector r : M α _) := by
  unfold Mem.nvec_to_ecef_vector; safe [Safe.n_EB_E2p_EB_E _ _ _ _ _, Safe.isScalar _]
theorem Safe.nvec_to_geo_point (r : NRef) : Safe (Mem.nvec_to_geo_point r : M α _) := by
  unfold Mem.nvec_to_geo_point; safe [Safe.n_E2lat_lon _ _, Safe.isScalar _, Safe.GeoPoint _ _ _ _ _]
theorem Safe.ecef_to_nvector (r : ERef) : Safe (Mem.ecef_to_nvector r : M α _) := by
  unfold Mem.ecef_to_nvector; safe [Safe.p_EB_E2n_EB_E _ _ _ _]
theorem Safe.R_EN (r : FRef) : Safe (Mem.R_EN r : M α _) := by unfold Mem.R_EN; safe []
theorem Safe.pvec_to_ecef_vector (r : VRef) : Safe (Mem.pvec_to_ecef_vector r : M α _) := by
  unfold Mem.pvec_to_ecef_vector; safe [Safe.R_EN _]
theorem Safe.change_frame (r : ERef) (f : FRef) : Safe (Mem.change_frame r f : M α _) := by
  unfold Mem.change_frame; safe [Safe.R_EN _]
theorem Safe.to_nvector (r : PosRef) : Safe (Mem.to_nvector r : M α _) := by
  unfold Mem.to_nvector; safe [Safe.geo_to_nvector _, Safe.ecef_to_nvector _, Safe.pvec_to_ecef_vector _]
theorem Safe.to_ecef_vector (r : PosRef) : Safe (Mem.to_ecef_vector r : M α _) := by
  unfold Mem.to_ecef_vector; safe [Safe.geo_to_nvector _, Safe.nvec_to_ecef_vector _, Safe.pvec_to_ecef_vector _]
theorem Safe.to_geo_point (r : PosRef) : Safe (Mem.to_geo_point r : M α _) := by
  unfold Mem.to_geo_point; safe [Safe.nvec_to_geo_point _, Safe.ecef_to_nvector _, Safe.pvec_to_ecef_vector _]
theorem Safe.ecefData (r : ERef) : Safe (Mem.ecefData r : M α _) := by unfold Mem.ecefData; safe []
theorem Safe.pvecData (r : VRef) : Safe (Mem.pvecData r : M α _) := by unfold Mem.pvecData; safe []
theorem Safe.ecef_length (r : ERef) : Safe (Mem.ecef_length r : M α _) := by unfold Mem.ecef_length; safe [Safe.ecefData _]
theorem Safe.pvec_length (r : VRef) : Safe (Mem.pvec_length r : M α _) := by unfold Mem.pvec_length; safe [Safe.pvecData _]
theorem Safe.pvec_azimuth (r : VRef) : Safe (Mem.pvec_azimuth r : M α _) := by unfold Mem.pvec_azimuth; safe [Safe.pvecData _]
theorem Safe.pvec_elevation (r : VRef) : Safe (Mem.pvec_elevation r : M α _) := by
  unfold Mem.pvec_elevation; safe [Safe.pvecData _]
theorem Safe.FrameN (p : PosRef) : Safe (Mem.FrameN p : M α _) := by unfold Mem.FrameN; safe [Safe.to_nvector _]
theorem Safe.FrameL (p : PosRef) (w : ARef) : Safe (Mem.FrameL p w : M α _) := by unfold Mem.FrameL; safe [Safe.to_nvector _]
theorem Safe.FrameB (p : PosRef) (y t r : ARef) (d : Bool) : Safe (Mem.FrameB p y t r d : M α _) := by
  unfold Mem.FrameB; safe [Safe.to_nvector _]
theorem Safe.ecef_add (p q : ERef) : Safe (Mem.ecef_add p q : M α _) := by unfold Mem.ecef_add; safe []
theorem Safe.ecef_sub (p q : ERef) : Safe (Mem.ecef_sub p q : M α _) := by unfold Mem.ecef_sub; safe []
theorem Safe.ecef_neg (p : ERef) : Safe (Mem.ecef_neg p : M α _) := by unfold Mem.ecef_neg; safe []
theorem Safe.nvec_add (p q : NRef) : Safe (Mem.nvec_add p q : M α _) := by unfold Mem.nvec_add; safe []
theorem Safe.nvec_sub (p q : NRef) : Safe (Mem.nvec_sub p q : M α _) := by unfold Mem.nvec_sub; safe []
theorem Safe.nvec_neg (p : NRef) : Safe (Mem.nvec_neg p : M α _) := by unfold Mem.nvec_neg; safe []
theorem Safe.nvec_mul (p : NRef) (c : ARef) : Safe (Mem.nvec_mul p c : M α _) := by unfold Mem.nvec_mul; safe []
theorem Safe.nvec_div (p : NRef) (c : ARef) : Safe (Mem.nvec_div p c : M α _) := by unfold Mem.nvec_div; safe []
theorem Safe.nvec_mean (p : NRef) : Safe (Mem.nvec_mean p : M α _) := by
  unfold Mem.nvec_mean; safe [Safe.mean_horizontal_position _]
theorem Safe.delta_E (a b : PosRef) : Safe (Mem.delta_E a b : M α _) := by
  unfold Mem.delta_E; safe [Safe.to_ecef_vector _, Safe.ecef_sub _ _]
theorem Safe.delta_N (a b : PosRef) : Safe (Mem.delta_N a b : M α _) := by
  unfold Mem.delta_N; safe [Safe.delta_E _ _, Safe.FrameN _, Safe.change_frame _ _]
theorem Safe.delta_L (a b : PosRef) (w : ARef) : Safe (Mem.delta_L a b w : M α _) := by
  unfold Mem.delta_L; safe [Safe.delta_E _ _, Safe.FrameL _ _, Safe.change_frame _ _]
theorem Safe.displace (G : Geodesic α) (r : GRef) (d z : ARef) (l g : Bool) (m : String) :
    Safe (Mem.displace G r d z l g m) := by
  unfold Mem.displace Mem.displace_ellipsoid Mem.displace_great_circle
  safe [Safe.GeoPoint _ _ _ _ _, Safe.geo_to_nvector _, Safe.nvec_to_ecef_vector _, Safe.ecef_length _,
    Safe.n_EA_E_distance_and_azimuth2n_EB_E _ _ _ _, Safe.nvec_to_geo_point _, Safe.delta_N _ _, Safe.pvecData _]
theorem Safe.alloc3 (x : Arr α × Arr α × Arr α) : Safe (Mem.alloc3 x) := by unfold Mem.alloc3; safe []
theorem Safe.check_frames_pos (F : FrameE α) (p : PosRef) : Safe (Mem.check_frames_pos F p) := by
  unfold Mem.check_frames_pos; safe []
theorem Safe.distance_and_azimuth_ellipsoid (G : Geodesic α) (r : GRef) (p : PosRef) (l g : Bool) :
    Safe (Mem.distance_and_azimuth_ellipsoid G r p l g) := by
  unfold Mem.distance_and_azimuth_ellipsoid; safe [Safe.to_geo_point _, Safe.alloc3 _]
theorem Safe.distance_and_azimuth_greatcircle (r : GRef) (p : PosRef) (g : Bool) :
    Safe (Mem.distance_and_azimuth_greatcircle r p g : M α _) := by
  unfold Mem.distance_and_azimuth_greatcircle
  safe [Safe.geo_to_nvector _, Safe.to_nvector _, Safe.nvec_to_ecef_vector _, Safe.ecef_length _, Safe.delta_N _ _,
    Safe.pvec_azimuth _, Safe.alloc3 _]
theorem Safe.distance_and_azimuth (G : Geodesic α) (r : GRef) (p : PosRef) (l g : Bool) (m : String) :
    Safe (Mem.distance_and_azimuth G r p l g m) := by
  unfold Mem.distance_and_azimuth
  safe [Safe.check_frames_pos _ _, Safe.distance_and_azimuth_ellipsoid _ _ _ _ _, Safe.distance_and_azimuth_greatcircle _ _ _]
omit [PyFloat α] in
theorem Safe.GeoPath (a b : PosRef) : Safe (Mem.GeoPath a b : M α _) := Safe.newPath _
theorem Safe.nvectors (P : PathRef) : Safe (Mem.nvectors P : M α _) := by unfold Mem.nvectors; safe [Safe.to_nvector _]
theorem Safe.geo_points (P : PathRef) : Safe (Mem.geo_points P : M α _) := by unfold Mem.geo_points; safe [Safe.to_geo_point _]
theorem Safe.ecef_vectors (P : PathRef) : Safe (Mem.ecef_vectors P : M α _) := by
  unfold Mem.ecef_vectors; safe [Safe.to_ecef_vector _]
theorem Safe.average_radius (P : PathRef) : Safe (Mem.average_radius P : M α _) := by
  unfold Mem.average_radius; safe [Safe.ecef_vectors _, Safe.ecef_length _]
theorem Safe.radiusOr (P : PathRef) (r : Option ARef) : Safe (Mem.radiusOr P r : M α _) := by
  unfold Mem.radiusOr; safe [Safe.average_radius _]
theorem Safe.firstIf (c : Bool) (r : ARef) : Safe (Mem.firstIf c r : M α _) := by unfold Mem.firstIf; safe []
theorem Safe.path_cross_track_distance (P : PathRef) (p : PosRef) (m : String) (r : Option ARef) :
    Safe (Mem.path_cross_track_distance P p m r : M α _) := by
  unfold Mem.path_cross_track_distance
  safe [Safe.radiusOr _ _, Safe.nvectors _, Safe.to_nvector _, Safe.cross_track_distance _ _ _ _ _, Safe.firstIf _ _]
theorem Safe.track_distance (G : Geodesic α) (P : PathRef) (m : String) (r : Option ARef) : Safe (Mem.track_distance G P m r) := by
  unfold Mem.track_distance
  safe [Safe.geo_points _, Safe.distance_and_azimuth _ _ _ _ _ _, Safe.radiusOr _ _, Safe.nvectors _,
    Safe.euclidean_distance _ _ _, Safe.great_circle_distance _ _ _, Safe.firstIf _ _]
theorem Safe.frameOf (p : PosRef) : Safe (Mem.frameOf p : M α _) := by unfold Mem.frameOf; safe []
theorem Safe.path_intersect (P Q : PathRef) : Safe (Mem.path_intersect P Q : M α _) := by
  unfold Mem.path_intersect; safe [Safe.nvectors _, Safe.intersect _ _ _ _, Safe.frameOf _]
theorem Safe.on_ellipsoid_path (G : Geodesic α) (P : PathRef) (p : PosRef) (r t : α) : Safe (Mem.on_ellipsoid_path G P p r t) := by
  unfold Mem.on_ellipsoid_path; safe [Safe.geo_points _, Safe.to_geo_point _, Safe.distance_and_azimuth _ _ _ _ _ _]
theorem Safe.path_on_great_circle (P : PathRef) (p : PosRef) (t : α) : Safe (Mem.path_on_great_circle P p t) := by
  unfold Mem.path_on_great_circle; safe [Safe.path_cross_track_distance _ _ _ _]
theorem Safe.path_on_great_circle_path (P : PathRef) (p : PosRef) (o : Option ARef) (r t : α) :
    Safe (Mem.path_on_great_circle_path P p o r t) := by
  unfold Mem.path_on_great_circle_path
  safe [Safe.radiusOr _ _, Safe.nvectors _, Safe.to_nvector _, Safe.on_great_circle_path _ _ _ _ _]
theorem Safe.on_path (G : Geodesic α) (P : PathRef) (p : PosRef) (m : String) (r t : α) : Safe (Mem.on_path G P p m r t) := by
  unfold Mem.on_path; safe [Safe.on_ellipsoid_path _ _ _ _ _, Safe.path_on_great_circle_path _ _ _ _ _]
theorem Safe.closest_nvector (P : PathRef) (p : PosRef) : Safe (Mem.closest_nvector P p : M α _) := by
  unfold Mem.closest_nvector; safe [Safe.to_nvector _, Safe.nvectors _, Safe.closest_point_on_great_circle _ _ _]
theorem Safe.path_closest_point_on_great_circle (P : PathRef) (p : PosRef) :
    Safe (Mem.path_closest_point_on_great_circle P p : M α _) := by
  unfold Mem.path_closest_point_on_great_circle; safe [Safe.closest_nvector _ _, Safe.nvec_to_geo_point _]
theorem Safe.closest_point_on_path (P : PathRef) (p : PosRef) : Safe (Mem.closest_point_on_path P p : M α _) := by
  unfold Mem.closest_point_on_path
  safe [Safe.closest_nvector _ _, Safe.path_on_great_circle_path _ _ _ _ _, Safe.nvec_to_geo_point _, Safe.to_nvector _,
    Safe.nvectors _, Safe.average_radius _, Safe.great_circle_distance _ _ _, Safe.to_geo_point _]


theorem SafeP.nvec_add (a b : NRef) : SafeP OwnN (Mem.nvec_add a b : M α NRef) := by
  unfold Mem.nvec_add
  exact .bindN (.getNvec _) fun _ => .bindN (.getNvec _) fun _ => .bindN (.lift _) fun _ => .bindN (.readA _) fun _ =>
    .bindN (.readA _) fun _ => .bindN (.readA _) fun _ => .bindN (.readA _) fun _ => .bindN (.allocE _) fun _ =>
    .bindN (.allocE _) fun _ => .newNvec _

theorem Safe.path_interpolate (P : PathRef) (t : ARef) : Safe (Mem.path_interpolate P t : M α NRef) := by
  unfold Mem.path_interpolate
  refine .bind (.nvectors _) fun _ => .bind (.nvec_sub _ _) fun _ => .bind (.nvec_mul _ _) fun _ => fun w => ?_
  refine RunsF.bind (SafeP.nvec_add _ _ w) (fun w1 c q => ?_) fun w1 e q => q.1
  refine RunsF.bind (Safe.getNvec c w1) (fun w2 o q2 => ?_) fun w2 e q2 => q.1.trans q2
  refine RunsF.bind (Safe.unit o.normal nan w2) (fun w3 u q3 => ?_) fun w3 e q3 => (q.1.trans q2).trans q3
  have o3 : w3.on c.id := q3.on _ (q2.on _ (q.2 c rfl).1)
  have g3 := (q.1.trans q2).trans q3
  exact RunsF.bind (RunsF.setNormal_own o3 u) (fun w4 _ q4 => g3.trans q4) fun w4 e q4 => g3.trans q4

/-- `GeoPath.interpolate` returns the value, whatever other threads do -/
theorem CRef.path_interpolate {w : World α} {P : PathRef} {p : ND.GeoPath α} {t : ARef} {T : Arr α} (e : Stay w P p)
    (et : Stay w t T) : CRef w (Mem.path_interpolate P t) (p.interpolate T) := by
  unfold Mem.path_interpolate ND.GeoPath.interpolate
  refine .nvectorsThen e fun w1 a b A B E1 ea eb => ?_
  refine .bind (.nvec_sub eb ea) fun w2 d D E2 ed => ?_
  refine .bind (.nvec_mul ed (Stays.smono (E1.trans E2) et)) fun w3 u U E3 eu => ?_
  refine Runs.bind ((CRef.nvec_add (Stays.smono (E2.trans E3) ea) eu).and (SafeP.nvec_add a u w3).runs) (fun w4 c q => ?_) fun w4 x q => ?_
  · obtain ⟨⟨L4, ag⟩, -, own⟩ := q
    cases hs : A.add U with
    | error y => rw [hs] at ag; exact absurd ag (by simp [Agree])
    | ok C =>
    rw [hs] at ag
    have ec : Stay w4 c C := ag
    have o4 := own c rfl
    have get : Runs (fun w' r => Le w4 w' ∧ ∃ o, r = .ok o ∧ SNvecAttr w' o C) (Mem.getNvec c) w4 := by
      refine fun h R => ⟨Keeps.refl _ _ _, ?_⟩
      rw [show w4.after h (id h) = { w4 with h := h } from World.after_self w4 h]
      obtain ⟨q, o, eo, a⟩ := ec
      refine ⟨Le.of_rely R, o, ?_, a.mono (Le.of_rely R)⟩
      change orAttributeError h.nvecs[c.id]? = _
      rw [R.nvecs _ q (List.getElem?_eq_some_iff.1 eo).1, eo]
      rfl
    refine Runs.bind get (fun w5 o q5 => ?_) fun w5 x q5 => ?_
    · obtain ⟨L5, o', eo', ao⟩ := q5
      cases eo'
      change Runs _ _ w5
      refine Runs.bind (CRef.unit ao.normal nan) (fun w6 n q6 => ?_) fun w6 x q6 => ?_
      · cases hu : ND.unit C.normal (nan : α) with
        | error y => have := q6.2; rw [hu] at this; exact absurd this (by simp [Agree])
        | ok N =>
          have en : Stay w6 n N := by have := q6.2; rw [hu] at this; exact this
          have L46 := L5.trans q6.1
          have ec6 : Stay w6 c C := Stays.smono L46 ec
          have L36 := L4.trans L46
          refine fun h R => ⟨guar_setNormal (L46.on _ o4.1) n h, ?_⟩
          have ec7 := SNvec.mono (Le.of_rely R) ec6
          have en7 := SArr.mono (Le.of_rely R) en
          have R3 : Rely w3 h := Keeps.trans L36.rely R L36.pa L36.pn
          refine ⟨⟨fun i x => Or.inl (L36.pa i x), fun i x => Or.inl (L36.pn i x), fun i x => Or.inl (L36.oa i x),
            fun i x => Or.inl (L36.on i x), ?_⟩, ?_⟩
          · refine { R3 with nvecs := fun i hi l => ?_, nlen := by simpa [World.after] using R3.nlen }
            have : c.id ≠ i := by rintro rfl; exact absurd o4.2 (by omega)
            simpa [World.after, List.getElem?_modify, this] using R3.nvecs i hi l
          · change Agree _ _ (ND.unit C.normal nan >>= fun n => _)
            rw [hu]
            obtain ⟨q7, o7, eo7, a7⟩ := ec7
            refine ⟨Or.inl q7, { o7 with normal := n }, ?_, ?_⟩
            · have : h.nvecs[c.id]? = some o7 := eo7
              simp [World.after, List.getElem?_modify, this]
            · exact ⟨⟨Or.inl en7.1, en7.2⟩, ⟨Or.inl a7.z.1, a7.z.2⟩, a7.frame⟩
      · refine ⟨(L4.trans L5).trans q6.1, ?_⟩
        cases hu : ND.unit C.normal (nan : α) with
        | error y =>
          have := q6.2
          rw [hu] at this
          change Agree _ _ (ND.unit C.normal nan >>= fun n => _)
          rw [hu]
          exact this
        | ok N => have := q6.2; rw [hu] at this; exact absurd this (by simp [Agree])
    · obtain ⟨_, o, eo, _⟩ := q5
      cases eo
  · obtain ⟨⟨L4, ag⟩, -⟩ := q
    refine ⟨L4, ?_⟩
    cases hs : A.add U with
    | error y => rw [hs] at ag; exact ag
    | ok C => rw [hs] at ag; exact absurd ag (by simp [Agree])

end Nv.Mem
