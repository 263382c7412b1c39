import Verif.Lemmas.ConcTrack
import Verif.Spec.Threads

/-!
# Schedules

The invariant of all schedules: `me` keeps to `Runs`, every other thread keeps to `RunsF`, and no other thread may write what `me` knows.
-/

namespace Nv.Mem
open Nv.ND (Arr)
open Nv.Spec
variable {α : Type}

/-- what a thread knows at the start: all arrays and the `Nvector` objects in `K` keep their values -/
def World.begin (h : Heap α) (K : NRef → Prop) : World α :=
  ⟨h, fun i => i < h.arrays.length, fun i => i < h.nvecs.length ∧ K ⟨i⟩, fun _ => False, fun _ => False⟩

section
variable {h : Heap α} {K : NRef → Prop}

theorem SArr.of {r : ARef} {A : Arr α} (e : arrVal h r = some A) : Stay (World.begin h K) r A := by
  refine ⟨?_, e⟩
  unfold arrVal at e
  rw [Option.map_eq_some_iff] at e
  obtain ⟨B, eB, _⟩ := e
  exact (List.getElem?_eq_some_iff.1 eB).1
theorem sopt_of {r : Option ARef} {A : Option (Arr α)} (e : optVal h r = some A) : SOpt (World.begin h K) r A := by
  cases r with
  | none => cases e; exact SOpt.none
  | some r =>
    unfold optVal at e
    rw [Option.map_eq_some_iff] at e
    obtain ⟨B, eB, e⟩ := e
    cases e
    exact SOpt.some (SArr.of eB)
theorem SGeo.of {r : GRef} {p : ND.GeoPoint α} (e : geoVal h r = some p) : Stay (World.begin h K) r p := by
  obtain ⟨o, eo, a⟩ := geo_attr (h := h) e
  exact ⟨o, eo, .of a.latitude, .of a.longitude, .of a.z, a.frame⟩
theorem SNvec.of {r : NRef} {p : ND.Nvector α} (e : nvecVal h r = some p) (k : K r) : Stay (World.begin h K) r p := by
  obtain ⟨o, eo, a⟩ := nvec_attr (h := h) e
  exact ⟨⟨(List.getElem?_eq_some_iff.1 eo).1, k⟩, o, eo, .of a.normal, .of a.z, a.frame⟩
theorem SEcef.of {r : ERef} {p : ND.ECEFvector α} (e : ecefVal h r = some p) : Stay (World.begin h K) r p := by
  obtain ⟨o, eo, a⟩ := ecef_attr (h := h) e
  exact ⟨o, eo, .of a.pvector, a.frame, a.scalar⟩
theorem SFrame.of {r : FRef} {p : ND.LocalFrame α} (e : frameVal h r = some p) (k : ∀ n, FrameHolds h r n → K n) :
    Stay (World.begin h K) r p := by
  obtain ⟨o, eo, a⟩ := frame_attr (h := h) e
  refine ⟨o, eo, ?_⟩
  cases a with
  | N a => exact .N (.of a (k _ ⟨_, eo, rfl⟩))
  | L a b => exact .L (.of a (k _ ⟨_, eo, rfl⟩)) (.of b)
  | B a b c d => exact .B (.of a (k _ ⟨_, eo, rfl⟩)) (.of b) (.of c) (.of d)
theorem SPvec.of {r : VRef} {p : ND.Pvector α} (e : pvecVal h r = some p) (k : ∀ n, PosHolds h (.pvec r) n → K n) :
    Stay (World.begin h K) r p := by
  obtain ⟨o, eo, a⟩ := pvec_attr (h := h) e
  exact ⟨o, eo, .of a.pvector, .of a.frame (fun n x => k n ⟨o, eo, x⟩), a.scalar⟩
theorem SPos.of {r : PosRef} {p : ND.Position α} (e : posVal h r = some p) (k : ∀ n, PosHolds h r n → K n) :
    Stay (World.begin h K) r p := by
  cases r <;> simp only [posVal, Option.bind_eq_bind, Option.bind_eq_some_iff, Option.pure_def] at e <;>
    obtain ⟨q, eq, e⟩ := e <;> cases e
  · exact Or.inl ⟨_, _, rfl, rfl, .of eq⟩
  · exact Or.inr (Or.inl ⟨_, _, rfl, rfl, .of eq (k _ rfl)⟩)
  · exact Or.inr (Or.inr (Or.inl ⟨_, _, rfl, rfl, .of eq⟩))
  · exact Or.inr (Or.inr (Or.inr ⟨_, _, rfl, rfl, .of eq k⟩))
theorem SPath.of {r : PathRef} {p : ND.GeoPath α} (e : pathVal h r = some p) (k : ∀ n, PathHolds h r n → K n) :
    Stay (World.begin h K) r p := by
  obtain ⟨o, eo, a⟩ := path_attr (h := h) e
  exact ⟨o, eo, .of a.point_a (fun n x => k n ⟨o, eo, Or.inl x⟩), .of a.point_b fun n x => k n ⟨o, eo, Or.inr x⟩⟩
end

/-! ## Every call is safe -/

theorem RunsF.ignore {β : Type} {Q : World α → Except PyErr β → Prop} {m : M α β} {w : World α} (r : RunsF Q m w) :
    RunsF (fun _ _ => True) m.ignore w := by
  induction m generalizing w with
  | done x => trivial
  | step wr k ih => exact fun h R => ⟨(r h R).1, ih h (r h R).2⟩

variable [PyFloat α]

theorem RunsF.nvec_unit {w : World α} {n : NRef} (o : w.on n.id) : RunsF (fun w' _ => Grow w w') (Mem.nvec_unit n) w := by
  unfold Mem.nvec_unit
  refine RunsF.bind (Safe.getNvec n w) (fun w1 x q => ?_) fun _ _ q => q
  refine RunsF.bind (Safe.unit _ _ w1) (fun w2 u q2 => ?_) fun _ _ q2 => q.trans q2
  exact (RunsF.setNormal_own (q2.on _ (q.on _ o)) u).imp fun _ _ q3 => (q.trans q2).trans q3

/-- every step of a call writes only what the thread has made itself, except `unit()` -/
theorem Call.runs (c : Call α) (w : World α) (o : ∀ n, CallsUnit n c → w.on n.id) : RunsF (fun _ _ => True) c.prog w := by
  cases c with
  | nvec_unit n => exact (RunsF.nvec_unit (o n rfl)).ignore
  | array A => exact (Safe.alloc A w).ignore
  | GeoPoint lat lon z F d => exact (Safe.GeoPoint lat lon z F d w).ignore
  | Nvector n z F => exact (Safe.Nvector n z F w).ignore
  | ECEFvector p F => exact (Safe.ECEFvector p F w).ignore
  | Pvector p f => exact (Safe.Pvector p f w).ignore
  | FrameN p => exact (Safe.FrameN p w).ignore
  | FrameL p a => exact (Safe.FrameL p a w).ignore
  | FrameB p y t r d => exact (Safe.FrameB p y t r d w).ignore
  | R_EN f => exact (Safe.R_EN f w).ignore
  | to_nvector p => exact (Safe.to_nvector p w).ignore
  | to_ecef_vector p => exact (Safe.to_ecef_vector p w).ignore
  | to_geo_point p => exact (Safe.to_geo_point p w).ignore
  | change_frame p f => exact (Safe.change_frame p f w).ignore
  | delta_E a b => exact (Safe.delta_E a b w).ignore
  | delta_N a b => exact (Safe.delta_N a b w).ignore
  | delta_L a b x => exact (Safe.delta_L a b x w).ignore
  | ecef_length p => exact (Safe.ecef_length p w).ignore
  | length p => exact (Safe.pvec_length p w).ignore
  | azimuth p => exact (Safe.pvec_azimuth p w).ignore
  | elevation p => exact (Safe.pvec_elevation p w).ignore
  | ecef_add p q => exact (Safe.ecef_add p q w).ignore
  | ecef_sub p q => exact (Safe.ecef_sub p q w).ignore
  | ecef_neg p => exact (Safe.ecef_neg p w).ignore
  | nvec_add p q => exact (Safe.nvec_add p q w).ignore
  | nvec_sub p q => exact (Safe.nvec_sub p q w).ignore
  | nvec_neg p => exact (Safe.nvec_neg p w).ignore
  | nvec_mul p c => exact (Safe.nvec_mul p c w).ignore
  | nvec_div p c => exact (Safe.nvec_div p c w).ignore
  | nvec_mean p => exact (Safe.nvec_mean p w).ignore
  | displace G p d z l g m => exact (Safe.displace G p d z l g m w).ignore
  | distance_and_azimuth G p q l g m => exact (Safe.distance_and_azimuth G p q l g m w).ignore
  | GeoPath a b => exact (Safe.GeoPath a b w).ignore
  | nvectors P => exact (Safe.nvectors P w).ignore
  | geo_points P => exact (Safe.geo_points P w).ignore
  | ecef_vectors P => exact (Safe.ecef_vectors P w).ignore
  | cross_track_distance P p m r => exact (Safe.path_cross_track_distance P p m r w).ignore
  | track_distance G P m r => exact (Safe.track_distance G P m r w).ignore
  | interpolate P t => exact (Safe.path_interpolate P t w).ignore
  | intersect P Q => exact (Safe.path_intersect P Q w).ignore
  | on_great_circle P p t => exact (Safe.path_on_great_circle P p t w).ignore
  | on_path G P p m r t => exact (Safe.on_path G P p m r t w).ignore
  | closest_point_on_great_circle P p => exact (Safe.path_closest_point_on_great_circle P p w).ignore
  | closest_point_on_path P p => exact (Safe.closest_point_on_path P p w).ignore
  | unit v x => exact (Safe.unit v x w).ignore
  | lat_lon2n_E a b R => exact (Safe.lat_lon2n_E a b R w).ignore
  | n_E2lat_lon n R => exact (Safe.n_E2lat_lon n R w).ignore
  | n_E2R_EN n R => exact (Safe.n_E2R_EN n R w).ignore
  | n_EB_E2p_EB_E n d a f R => exact (Safe.n_EB_E2p_EB_E n d a f R w).ignore
  | p_EB_E2n_EB_E p a f R => exact (Safe.p_EB_E2n_EB_E p a f R w).ignore
  | core_interpolate a b t => exact (Safe.interpolate a b t w).ignore
  | core_intersect a b c d => exact (Safe.intersect a b c d w).ignore
  | core_cross_track_distance a b c m r => exact (Safe.cross_track_distance a b c m r w).ignore
  | core_on_great_circle a b c r t => exact (Safe.on_great_circle a b c r t w).ignore
  | core_on_great_circle_path a b c r t => exact (Safe.on_great_circle_path a b c r t w).ignore
  | core_closest_point_on_great_circle a b c => exact (Safe.closest_point_on_great_circle a b c w).ignore
  | great_circle_distance a b r => exact (Safe.great_circle_distance a b r w).ignore
  | euclidean_distance a b r => exact (Safe.euclidean_distance a b r w).ignore
  | n_EA_E_distance_and_azimuth2n_EB_E n d z R => exact (Safe.n_EA_E_distance_and_azimuth2n_EB_E n d z R w).ignore
  | mean_horizontal_position n => exact (Safe.mean_horizontal_position n w).ignore
  | nvec_interpolate S s i t k a p m c => exact (Safe.nvec_interpolate S s i t k a p m c w).ignore
  | interp_nvectors S i t n k a p m c => exact (Safe.interp_nvectors S i t n k a p m c w).ignore

omit [PyFloat α] in
theorem M.ignore_run {β : Type} (m : M α β) (h : Heap α) : (m.ignore h).2 = (m h).2 := by
  induction m generalizing h with
  | done r => rfl
  | step w k ih => exact ih h (w h)

/-- the steps of a call are the call of `Mem.Calls` -/
theorem Call.prog_exec (c : Call α) (h : Heap α) : (c.prog h).2 = c.exec h := by
  cases c <;> exact M.ignore_run _ h

/-! ## The invariant -/

variable {ρ : Type}

omit [PyFloat α] in
theorem Keeps.len {P N : ℕ → Prop} {h h' : Heap α} (k : Keeps P N h h') : Keeps (fun _ => False) (fun _ => False) h h' :=
  k.weaken (fun _ x => x.elim) fun _ x => x.elim

/-- the invariant, with what `me` knows and what the others know -/
structure PoolInv (s₀ : Threads α ρ) (σ : ℕ → Option (Event α)) (K : NRef → Prop) (Q : World α → Except PyErr ρ → Prop)
    (s : Threads α ρ) (w : World α) (o : ℕ → World α) : Prop where
  me : Runs Q s.me w
  rely : Rely w s.mem
  other : ∀ i, RunsF (fun _ _ => True) (s.others i) (o i)
  relyF : ∀ i, RelyF (o i) s.mem
  arrays : ∀ i a, (o i).oa a → ¬ w.pa a
  nvecs : ∀ i a, (o i).on a → ¬ w.pn a
  wa : ∀ a, w.pa a → a < s.mem.arrays.length
  wn : ∀ a, w.pn a → a < s.mem.nvecs.length
  ia : ∀ i a, (o i).oa a → a < s.mem.arrays.length
  i_n : ∀ i a, (o i).on a → a < s.mem.nvecs.length ∨ ¬ MadeByMe s₀ σ a
  own : ∀ a, w.oa a → w.pa a
  own_n : ∀ a, w.on a → w.pn a
  known : ∀ a, w.pn a → K ⟨a⟩ ∨ MadeByMe s₀ σ a

theorem PoolInv.init {h : Heap α} {σ : ℕ → Option (Event α)} {K : NRef → Prop} {Q : World α → Except PyErr ρ → Prop} {m : M α ρ}
    (r : Runs Q m (.begin h K)) :
    PoolInv (.init h m) σ K Q (.init h m) (.begin h K) fun _ => ⟨h, fun _ => False, fun _ => False, fun _ => False, fun _ => False⟩ where
  me := r
  rely := Keeps.refl _ _ _
  other _ := trivial
  relyF _ := Keeps.refl _ _ _
  arrays _ _ x := x.elim
  nvecs _ _ x := x.elim
  wa _ x := x
  wn _ x := x.1
  ia _ _ x := x.elim
  i_n _ _ x := x.elim
  own _ x := x.elim
  own_n _ x := x.elim
  known _ x := Or.inl x.2

theorem PoolInv.run {s₀ : Threads α ρ} {σ : ℕ → Option (Event α)} {K : NRef → Prop} {Q : World α → Except PyErr ρ → Prop} {n : ℕ}
    (L : LeavesAlone s₀ σ K) {w : World α} {o : ℕ → World α} (I : PoolInv s₀ σ K Q (s₀.play σ n) w o) :
    ∃ w' o', PoolInv s₀ σ K Q (s₀.play σ (n + 1)) w' o' := by
  have made := fun a (e : σ n = none) => (show (s₀.play σ n).mem.nvecs.length ≤ a → a < (s₀.play σ (n + 1)).mem.nvecs.length →
    MadeByMe s₀ σ a from fun x y => ⟨n, e, x, y⟩)
  have leave := fun i c m => L n i c m
  revert made leave
  change _ → _ → ∃ w' o', PoolInv s₀ σ K Q ((s₀.play σ n).run (σ n)) w' o'
  rw [show s₀.play σ (n + 1) = (s₀.play σ n).run (σ n) from rfl]
  generalize s₀.play σ n = s at *
  cases e : σ n with
  | none =>
    intro made leave
    have made := fun a => made a rfl
    obtain ⟨mem, me, others⟩ := s
    cases me with
    | done r => exact ⟨w, o, { I with }⟩
    | step wr k =>
      obtain ⟨G, r⟩ := I.me mem I.rely
      refine ⟨w.after mem (wr mem), o, ?_⟩
      have := G.alen
      have := G.nlen
      refine { I with me := r, rely := Keeps.refl _ _ _, relyF := fun i => ?_, arrays := ?_, nvecs := ?_, wa := ?_, wn := ?_, ia := ?_, i_n := ?_, own := ?_, own_n := ?_, known := ?_ }
      · exact Keeps.trans (I.relyF i) G.len (fun _ x => x) fun _ x => x
      · rintro i a x (y | y)
        · exact I.arrays i a x y
        · exact absurd (I.ia i a x) (by simpa using y.1)
      · rintro i a x (y | y)
        · exact I.nvecs i a x y
        · exact (I.i_n i a x).elim (fun z => absurd z (by simpa using y.1)) fun z => z (made a y.1 y.2)
      · rintro a (x | x)
        · exact (I.wa a x).trans_le G.alen
        · exact x.2
      · rintro a (x | x)
        · exact (I.wn a x).trans_le G.nlen
        · exact x.2
      · exact fun i a x => (I.ia i a x).trans_le G.alen
      · exact fun i a x => (I.i_n i a x).imp_left fun z => z.trans_le G.nlen
      · exact fun a x => x.imp_left (I.own a)
      · exact fun a x => x.imp_left (I.own_n a)
      · rintro a (x | x)
        · exact I.known a x
        · exact Or.inr (made a x.1 x.2)
  | some ev =>
    intro _ leave
    cases ev with
    | start i c =>
      have leave := leave i c
      obtain ⟨mem, me, others⟩ := s
      refine ⟨w, Function.update o i ⟨mem, fun _ => False, fun _ => False, fun _ => False, fun a => CallsUnit ⟨a⟩ c⟩, ?_⟩
      refine { I with other := fun j => ?_, relyF := fun j => ?_, arrays := ?_, nvecs := ?_, ia := ?_, i_n := ?_ }
      · change RunsF _ (Function.update others i c.prog j) _
        rcases eq_or_ne j i with rfl | ne
        · simp only [Function.update_self]
          exact c.runs _ fun _ x => x
        · simp only [Function.update_of_ne ne]
          exact I.other j
      · rcases eq_or_ne j i with rfl | ne
        · simp only [Function.update_self]
          exact Keeps.refl _ _ _
        · simp only [Function.update_of_ne ne]
          exact I.relyF j
      · intro j a x
        rcases eq_or_ne j i with rfl | ne
        · simp only [Function.update_self] at x
        · simp only [Function.update_of_ne ne] at x
          exact I.arrays j a x
      · intro j a x
        rcases eq_or_ne j i with rfl | ne
        · simp only [Function.update_self] at x
          intro y
          obtain ⟨nk, nm⟩ := leave ⟨a⟩ rfl x
          exact (I.known a y).elim nk nm
        · simp only [Function.update_of_ne ne] at x
          exact I.nvecs j a x
      · intro j a x
        rcases eq_or_ne j i with rfl | ne
        · simp only [Function.update_self] at x
        · simp only [Function.update_of_ne ne] at x
          exact I.ia j a x
      · intro j a x
        rcases eq_or_ne j i with rfl | ne
        · simp only [Function.update_self] at x
          exact Or.inr (leave ⟨a⟩ rfl x).2
        · simp only [Function.update_of_ne ne] at x
          exact I.i_n j a x
    | step i =>
      obtain ⟨mem, me, others⟩ := s
      cases eo : others i with
      | done r =>
        refine ⟨w, o, ?_⟩
        have : (Threads.run ⟨mem, me, others⟩ (some (.step i)) : Threads α ρ) = ⟨mem, me, others⟩ := by
          simp only [Threads.run, eo, M.next]
          rw [← eo, Function.update_eq_self]
        rw [this]
        exact I
      | step wr k =>
        have hi := I.other i
        simp only [eo] at hi
        obtain ⟨G, r⟩ := hi mem (I.relyF i)
        have hs : (Threads.run ⟨mem, me, others⟩ (some (.step i)) : Threads α ρ) =
            ⟨wr mem, me, Function.update others i (k mem)⟩ := by simp only [Threads.run, eo, M.next]
        rw [hs]
        refine ⟨w, Function.update o i ((o i).after mem (wr mem)), ?_⟩
        refine { I with rely := ?_, other := fun j => ?_, relyF := fun j => ?_, arrays := ?_, nvecs := ?_, wa := ?_, wn := ?_, ia := ?_, i_n := ?_ }
        · exact Keeps.trans I.rely (G.weaken (fun a x _ y => I.arrays i a y x) fun a x _ y => I.nvecs i a y x) (fun _ x => x) fun _ x => x
        · rcases eq_or_ne j i with rfl | ne
          · simp only [Function.update_self]
            exact r
          · simp only [Function.update_of_ne ne]
            exact I.other j
        · rcases eq_or_ne j i with rfl | ne
          · simp only [Function.update_self]
            exact Keeps.refl _ _ _
          · simp only [Function.update_of_ne ne]
            exact Keeps.trans (I.relyF j) G.len (fun _ x => x) fun _ x => x
        · intro j a x y
          rcases eq_or_ne j i with rfl | ne
          · simp only [Function.update_self] at x
            rcases x with x | x
            · exact I.arrays j a x y
            · exact absurd (I.wa a y) (by simpa using x.1)
          · simp only [Function.update_of_ne ne] at x
            exact I.arrays j a x y
        · intro j a x y
          rcases eq_or_ne j i with rfl | ne
          · simp only [Function.update_self] at x
            rcases x with x | x
            · exact I.nvecs j a x y
            · exact absurd (I.wn a y) (by simpa using x.1)
          · simp only [Function.update_of_ne ne] at x
            exact I.nvecs j a x y
        · exact fun a x => (I.wa a x).trans_le G.alen
        · exact fun a x => (I.wn a x).trans_le G.nlen
        · intro j a x
          rcases eq_or_ne j i with rfl | ne
          · simp only [Function.update_self] at x
            exact x.elim (fun x => (I.ia j a x).trans_le G.alen) fun x => x.2
          · simp only [Function.update_of_ne ne] at x
            exact (I.ia j a x).trans_le G.alen
        · intro j a x
          rcases eq_or_ne j i with rfl | ne
          · simp only [Function.update_self] at x
            exact x.elim (fun x => (I.i_n j a x).imp_left fun z => z.trans_le G.nlen) fun x => Or.inl x.2
          · simp only [Function.update_of_ne ne] at x
            exact (I.i_n j a x).imp_left fun z => z.trans_le G.nlen

theorem PoolInv.play {h : Heap α} {σ : ℕ → Option (Event α)} {K : NRef → Prop} {Q : World α → Except PyErr ρ → Prop} {m : M α ρ}
    (r : Runs Q m (.begin h K)) (L : LeavesAlone (.init h m) σ K) (n : ℕ) :
    ∃ w o, PoolInv (.init h m) σ K Q ((Threads.init h m).play σ n) w o := by
  induction n with
  | zero => exact ⟨_, _, .init r⟩
  | succ n ih =>
    obtain ⟨w, o, I⟩ := ih
    exact I.run L

/-! ## A thread comes to an end -/

theorem Threads.me_done {s : Threads α ρ} {r : Except PyErr ρ} (e : s.me = .done r) (ev : Option (Event α)) : (s.run ev).me = .done r := by
  rcases ev with _ | ev
  · simp [Threads.run, e, M.next]
  · cases ev <;> exact e

theorem Threads.play_done {s : Threads α ρ} {σ : ℕ → Option (Event α)} {n : ℕ} {r : Except PyErr ρ} (e : (s.play σ n).me = .done r)
    {k : ℕ} (hk : n ≤ k) : (s.play σ k).me = .done r := by
  induction k, hk using Nat.le_induction with
  | base => exact e
  | succ k _ ih => exact Threads.me_done ih _

theorem Threads.ends {s : Threads α ρ} {σ : ℕ → Option (Event α)} (F : Fair σ) (m : M α ρ) :
    ∀ n, (s.play σ n).me = m → ∃ k r, (s.play σ k).me = .done r := by
  induction m with
  | done r => exact fun n e => ⟨n, r, e⟩
  | step wr k ih =>
    intro n e
    obtain ⟨t, ht, et⟩ := F n
    -- the first moment from `n` on when the thread makes a step
    have wait : ∀ d n, (s.play σ n).me = .step wr k → σ (n + d) = none → ∃ n', (s.play σ n').me = .step wr k ∧ σ n' = none := by
      intro d
      induction d with
      | zero => exact fun n e et => ⟨n, e, et⟩
      | succ d ihd =>
        intro n e et
        cases en : σ n with
        | none => exact ⟨n, e, en⟩
        | some ev =>
          refine ihd (n + 1) ?_ (by rw [← et]; congr 1; omega)
          change ((s.play σ n).run (σ n)).me = _
          rw [en]
          cases ev <;> exact e
    obtain ⟨n', e', en'⟩ := wait (t - n) n e (by rw [← et]; congr 1; omega)
    refine ih (s.play σ n').mem (n' + 1) ?_
    change ((s.play σ n').run (σ n')).me = _
    rw [en']
    simp [Threads.run, e', M.next]

/-- a computation that returns `v` whatever other threads do is thread safe -/
theorem threadSafe {γ : Type} [Stays α ρ γ] {h : Heap α} {K : NRef → Prop} {m : M α ρ} {v : Except PyErr γ} (c : CRef (.begin h K) m v) :
    ThreadSafe val h K m v := by
  intro σ F L
  obtain ⟨n, r, e⟩ := Threads.ends (s := .init h m) F m 0 rfl
  refine ⟨n, r, fun k hk => ⟨Threads.play_done e hk, ?_⟩⟩
  obtain ⟨w, o, I⟩ := PoolInv.play c L k
  have q := I.me
  rw [Threads.play_done e hk] at q
  have a : Agree { w with h := ((Threads.init h m).play σ k).mem } r v := Agree.mono (Le.of_rely I.rely) q.2
  cases r <;> cases v <;> first | exact a | exact Stays.sval a

theorem threadSafe_pair {σ γ δ : Type} [Stays α ρ γ] [Stays α σ δ] {h : Heap α} {K : NRef → Prop} {m : M α (ρ × σ)}
    {v : Except PyErr (γ × δ)} (c : CRef (.begin h K) m v) : ThreadSafe (pairVal val val) h K m v := by
  intro σ F L
  obtain ⟨n, r, q⟩ := threadSafe c σ F L
  refine ⟨n, r, fun k hk => ⟨(q k hk).1, ?_⟩⟩
  have a := (q k hk).2
  cases r <;> cases v <;> try exact a
  rename_i b d
  have a : val _ b = some d := a
  change pairVal val val _ b = some d
  unfold pairVal
  rw [val_fst a, val_snd a]

/-- three results -/
theorem threadSafe_three {σ τ γ δ ε : Type} [Stays α ρ γ] [Stays α σ δ] [Stays α τ ε] {h : Heap α} {K : NRef → Prop}
    {m : M α (ρ × σ × τ)} {v : Except PyErr (γ × δ × ε)} (c : CRef (.begin h K) m v) :
    ThreadSafe (pairVal val (pairVal val val)) h K m v := by
  intro σ F L
  obtain ⟨n, r, q⟩ := threadSafe c σ F L
  refine ⟨n, r, fun k hk => ⟨(q k hk).1, ?_⟩⟩
  have a := (q k hk).2
  cases r <;> cases v <;> try exact a
  rename_i b d
  have a : val _ b = some d := a
  change pairVal val (pairVal val val) _ b = some d
  unfold pairVal
  rw [val_fst a]
  simp only [val_fst (val_snd a), val_snd (val_snd a)]

/-- threads only: `me` does nothing -/
theorem stays {γ : Type} [Stays α ρ γ] {h : Heap α} {K : NRef → Prop} {σ : ℕ → Option (Event α)} {r : ρ} {v : γ}
    (e : Stay (World.begin h K) r v) (hu : ∀ t i c n, σ t = some (.start i c) → CallsUnit n c → ¬ K n) (t : ℕ) :
    val ((Threads.init h (.done (.ok ()) : M α Unit)).play σ t).mem r = some v := by
  have L : LeavesAlone (.init h (.done (.ok ()) : M α Unit)) σ K := by
    refine fun t i c n et cu => ⟨hu t i c n et cu, ?_⟩
    rintro ⟨t, et, x, y⟩
    have d : ((Threads.init h (.done (.ok ()) : M α Unit)).play σ t).me = .done (.ok ()) := Threads.play_done (n := 0) rfl (Nat.zero_le t)
    have : ((Threads.init h (.done (.ok ()) : M α Unit)).play σ (t + 1)).mem = ((Threads.init h (.done (.ok ()) : M α Unit)).play σ t).mem := by
      change (Threads.run _ (σ t)).mem = _
      rw [et]
      simp only [Threads.run, d, M.next]
    rw [this] at y
    omega
  have R : Runs (fun w' _ => Le (World.begin h K) w') (.done (.ok ()) : M α Unit) (.begin h K) := Le.refl _
  obtain ⟨w, o, I⟩ := PoolInv.play R L t
  have q := I.me
  rw [Threads.play_done (n := 0) rfl (Nat.zero_le t)] at q
  have q : Le (World.begin h K) w := q
  exact Stays.sval (Stays.smono (q.trans (Le.of_rely I.rely)) e)

/-! ## Objects that existed before are not made by `me` -/

/-- every thread only adds to the memory -/
structure LenInv (s : Threads α ρ) : Prop where
  me : ∃ w : World α, RunsF (fun _ _ => True) s.me w ∧ RelyF w s.mem
  other : ∀ i, ∃ w : World α, RunsF (fun _ _ => True) (s.others i) w ∧ RelyF w s.mem

theorem LenInv.run {s : Threads α ρ} (I : LenInv s) (ev : Option (Event α)) :
    LenInv (s.run ev) ∧ s.mem.nvecs.length ≤ (s.run ev).mem.nvecs.length := by
  obtain ⟨mem, me, others⟩ := s
  obtain ⟨w, r, R⟩ := I.me
  rcases ev with _ | ev
  · cases me with
    | done x => exact ⟨⟨⟨w, r, R⟩, I.other⟩, le_rfl⟩
    | step wr k =>
      obtain ⟨G, r⟩ := r mem R
      refine ⟨⟨⟨_, r, Keeps.refl _ _ _⟩, fun i => ?_⟩, G.nlen⟩
      obtain ⟨v, q, Q⟩ := I.other i
      exact ⟨v, q, Keeps.trans Q G.len (fun _ x => x) fun _ x => x⟩
  · cases ev with
    | start i c =>
      refine ⟨⟨⟨w, r, R⟩, fun j => ?_⟩, le_rfl⟩
      rcases eq_or_ne j i with rfl | ne
      · refine ⟨⟨mem, fun _ => False, fun _ => False, fun _ => False, fun _ => True⟩, ?_, Keeps.refl _ _ _⟩
        simp only [Threads.run, Function.update_self]
        exact c.runs _ fun _ _ => trivial
      · simp only [Threads.run, Function.update_of_ne ne]
        exact I.other j
    | step i =>
      obtain ⟨v, q, Q⟩ := I.other i
      simp only at q Q
      simp only [Threads.run]
      generalize eo : others i = m at *
      cases m with
      | done x =>
        refine ⟨⟨⟨w, r, R⟩, fun j => ?_⟩, le_rfl⟩
        rcases eq_or_ne j i with rfl | ne
        · simp only [Function.update_self, M.next]
          exact ⟨v, trivial, Q⟩
        · simp only [Function.update_of_ne ne]
          exact I.other j
      | step wr k =>
        obtain ⟨G, q⟩ := q mem Q
        refine ⟨⟨⟨w, r, Keeps.trans R G.len (fun _ x => x) fun _ x => x⟩, fun j => ?_⟩, G.nlen⟩
        rcases eq_or_ne j i with rfl | ne
        · simp only [Function.update_self]
          exact ⟨_, q, Keeps.refl _ _ _⟩
        · simp only [Function.update_of_ne ne]
          obtain ⟨u, p, P⟩ := I.other j
          exact ⟨u, p, Keeps.trans P G.len (fun _ x => x) fun _ x => x⟩

theorem LenInv.play {h : Heap α} {m : M α ρ} (s : Safe m) (σ : ℕ → Option (Event α)) (t : ℕ) :
    LenInv ((Threads.init h m).play σ t) ∧ h.nvecs.length ≤ ((Threads.init h m).play σ t).mem.nvecs.length := by
  induction t with
  | zero =>
    let w : World α := ⟨h, fun _ => False, fun _ => False, fun _ => False, fun _ => False⟩
    exact ⟨⟨⟨w, (s w).imp fun _ _ _ => trivial, Keeps.refl _ _ _⟩, fun _ => ⟨w, trivial, Keeps.refl _ _ _⟩⟩, le_rfl⟩
  | succ t ih => exact ⟨(ih.1.run (σ t)).1, ih.2.trans (ih.1.run (σ t)).2⟩

theorem madeByMe_le {h : Heap α} {m : M α ρ} (s : Safe m) {σ : ℕ → Option (Event α)} {k : ℕ} (q : MadeByMe (.init h m) σ k) :
    h.nvecs.length ≤ k := by
  obtain ⟨t, _, a, _⟩ := q
  exact (LenInv.play s σ t).2.trans a

/-- other threads may call `unit()` of objects that existed before and are not in `K` -/
theorem leavesAlone {h : Heap α} {m : M α ρ} (s : Safe m) {σ : ℕ → Option (Event α)} {K : NRef → Prop}
    (hu : ∀ t i c n, σ t = some (.start i c) → CallsUnit n c → n.id < h.nvecs.length ∧ ¬ K n) : LeavesAlone (.init h m) σ K :=
  fun t i c n et cu => ⟨(hu t i c n et cu).2, fun q => absurd (madeByMe_le s q) (by have := (hu t i c n et cu).1; omega)⟩

end Nv.Mem
