import Verif.Lemmas.ConcPool
import Verif.Props.Sharing

/-!
# C136: threads

`ThreadSafe rd h K m s` (Spec/Threads.lean): the method `m` is started in the memory `h` while any number of other threads call any methods,
in any interleaving.  As long as they do not call `unit()` of an `Nvector` in `K` (the ones the arguments are or hold) or of one that `m`
makes, `m` ends with the value `s` of the value functions of `Verif.ND`, and the result keeps it.
-/

namespace Nv.Mem
open Nv.ND (Arr)
open Nv.Spec
variable {α : Type} [PyFloat α] {h : Heap α}

/-! ## Methods in a thread return what they return alone -/

theorem C136_unit {v : ARef} {V : Arr α} (e : arrVal h v = some V) (x : α) : ThreadSafe arrVal h (fun _ => False) (Mem.unit v x) (ND.unit V x) :=
  threadSafe (.unit (.of e) x)
theorem C136_lat_lon2n_E {a b : ARef} {A B : Arr α} (ea : arrVal h a = some A) (eb : arrVal h b = some B) (R : M3 α) :
    ThreadSafe arrVal h (fun _ => False) (Mem.lat_lon2n_E a b R) (ND.lat_lon2n_E A B R) :=
  threadSafe (.lat_lon2n_E (.of ea) (.of eb) R)
theorem C136_n_E2lat_lon {n : ARef} {N : Arr α} (e : arrVal h n = some N) (R : M3 α) :
    ThreadSafe (pairVal arrVal arrVal) h (fun _ => False) (Mem.n_E2lat_lon n R) (ND.n_E2lat_lon N R) :=
  threadSafe_pair (.n_E2lat_lon (.of e) R)
theorem C136_n_E2R_EN {n : ARef} {N : Arr α} (e : arrVal h n = some N) (R : M3 α) :
    ThreadSafe arrVal h (fun _ => False) (Mem.n_E2R_EN n R) (ND.n_E2R_EN N R) :=
  threadSafe (.n_E2R_EN (.of e) R)
theorem C136_n_EB_E2p_EB_E {n d : ARef} {N D : Arr α} (e : arrVal h n = some N) (ed : arrVal h d = some D) (a f : α) (R : M3 α) :
    ThreadSafe arrVal h (fun _ => False) (Mem.n_EB_E2p_EB_E n d a f R) (ND.n_EB_E2p_EB_E N D a f R) :=
  threadSafe (.n_EB_E2p_EB_E (.of e) (.of ed) a f R)
theorem C136_p_EB_E2n_EB_E {p : ARef} {P : Arr α} (e : arrVal h p = some P) (a f : α) (R : M3 α) :
    ThreadSafe (pairVal arrVal arrVal) h (fun _ => False) (Mem.p_EB_E2n_EB_E p a f R) (ND.p_EB_E2n_EB_E P a f R) :=
  threadSafe_pair (.p_EB_E2n_EB_E (.of e) a f R)
theorem C136_to_nvector {p : PosRef} {v : ND.Position α} (e : posVal h p = some v) :
    ThreadSafe nvecVal h (fun n => PosHolds h p n) (Mem.to_nvector p) v.to_nvector :=
  threadSafe (.to_nvector (.of e fun n x => x))
theorem C136_to_ecef_vector {p : PosRef} {v : ND.Position α} (e : posVal h p = some v) :
    ThreadSafe ecefVal h (fun n => PosHolds h p n) (Mem.to_ecef_vector p) v.to_ecef_vector :=
  threadSafe (.to_ecef_vector (.of e fun n x => x))
theorem C136_to_geo_point {p : PosRef} {v : ND.Position α} (e : posVal h p = some v) :
    ThreadSafe geoVal h (fun n => PosHolds h p n) (Mem.to_geo_point p) v.to_geo_point :=
  threadSafe (.to_geo_point (.of e fun n x => x))
theorem C136_FrameN {p : PosRef} {v : ND.Position α} (e : posVal h p = some v) :
    ThreadSafe frameVal h (fun n => PosHolds h p n) (Mem.FrameN p) (ND.FrameN v) :=
  threadSafe (.FrameN (.of e fun n x => x))
theorem C136_FrameL {p : PosRef} {v : ND.Position α} {w : ARef} {W : Arr α} (e : posVal h p = some v) (ew : arrVal h w = some W) :
    ThreadSafe frameVal h (fun n => PosHolds h p n) (Mem.FrameL p w) (ND.FrameL v W) :=
  threadSafe (.FrameL (.of e fun n x => x) (.of ew))
theorem C136_FrameB {p : PosRef} {v : ND.Position α} {y t r : ARef} {Y T R : Arr α} (e : posVal h p = some v)
    (ey : arrVal h y = some Y) (et : arrVal h t = some T) (er : arrVal h r = some R) (degrees : Bool) :
    ThreadSafe frameVal h (fun n => PosHolds h p n) (Mem.FrameB p y t r degrees) (ND.FrameB v Y T R degrees) :=
  threadSafe (.FrameB (.of e fun n x => x) (.of ey) (.of et) (.of er) degrees)
theorem C136_R_EN {f : FRef} {F : ND.LocalFrame α} (e : frameVal h f = some F) : ThreadSafe arrVal h (fun n => FrameHolds h f n) (Mem.R_EN f) F.R_EN :=
  threadSafe (.R_EN (.of e fun n x => x))
theorem C136_change_frame {p : ERef} {P : ND.ECEFvector α} {f : FRef} {F : ND.LocalFrame α} (e : ecefVal h p = some P)
    (ef : frameVal h f = some F) : ThreadSafe pvecVal h (fun n => FrameHolds h f n) (Mem.change_frame p f) (P.change_frame F) :=
  threadSafe (.change_frame (.of e) (.of ef fun n x => x))
theorem C136_length {p : VRef} {P : ND.Pvector α} (e : pvecVal h p = some P) :
    ThreadSafe arrVal h (fun n => PosHolds h (.pvec p) n) (Mem.pvec_length p) (ND.length P.pvector P.scalar) :=
  threadSafe (.pvec_length (.of e fun n x => x))
theorem C136_azimuth {p : VRef} {P : ND.Pvector α} (e : pvecVal h p = some P) :
    ThreadSafe arrVal h (fun n => PosHolds h (.pvec p) n) (Mem.pvec_azimuth p) (ND.azimuth P.pvector P.scalar) :=
  threadSafe (.pvec_azimuth (.of e fun n x => x))
theorem C136_elevation {p : VRef} {P : ND.Pvector α} (e : pvecVal h p = some P) :
    ThreadSafe arrVal h (fun n => PosHolds h (.pvec p) n) (Mem.pvec_elevation p) (ND.elevation P.pvector P.scalar) :=
  threadSafe (.pvec_elevation (.of e fun n x => x))
theorem C136_delta_E {a b : PosRef} {A B : ND.Position α} (ea : posVal h a = some A) (eb : posVal h b = some B) :
    ThreadSafe ecefVal h (fun n => PosHolds h a n ∨ PosHolds h b n) (Mem.delta_E a b) (ND.delta_E A B) :=
  threadSafe (.delta_E (.of ea fun n x => Or.inl x) (.of eb fun n x => Or.inr x))
theorem C136_delta_N {a b : PosRef} {A B : ND.Position α} (ea : posVal h a = some A) (eb : posVal h b = some B) :
    ThreadSafe pvecVal h (fun n => PosHolds h a n ∨ PosHolds h b n) (Mem.delta_N a b) (ND.delta_N A B) :=
  threadSafe (.delta_N (.of ea fun n x => Or.inl x) (.of eb fun n x => Or.inr x))
theorem C136_delta_L {a b : PosRef} {A B : ND.Position α} {w : ARef} {W : Arr α} (ea : posVal h a = some A)
    (eb : posVal h b = some B) (ew : arrVal h w = some W) : ThreadSafe pvecVal h (fun n => PosHolds h a n ∨ PosHolds h b n) (Mem.delta_L a b w) (ND.delta_L A B W) :=
  threadSafe (.delta_L (.of ea fun n x => Or.inl x) (.of eb fun n x => Or.inr x) (.of ew))
theorem C136_ecef_add {p q : ERef} {P Q : ND.ECEFvector α} (ep : ecefVal h p = some P) (eq : ecefVal h q = some Q) :
    ThreadSafe ecefVal h (fun _ => False) (Mem.ecef_add p q) (P.add Q) :=
  threadSafe (.ecef_add (.of ep) (.of eq))
theorem C136_ecef_sub {p q : ERef} {P Q : ND.ECEFvector α} (ep : ecefVal h p = some P) (eq : ecefVal h q = some Q) :
    ThreadSafe ecefVal h (fun _ => False) (Mem.ecef_sub p q) (P.sub Q) :=
  threadSafe (.ecef_sub (.of ep) (.of eq))
theorem C136_ecef_neg {p : ERef} {P : ND.ECEFvector α} (ep : ecefVal h p = some P) :
    ThreadSafe ecefVal h (fun _ => False) (Mem.ecef_neg p) (.ok P.neg) :=
  threadSafe (.ecef_neg (.of ep))
theorem C136_nvec_add {p q : NRef} {P Q : ND.Nvector α} (ep : nvecVal h p = some P) (eq : nvecVal h q = some Q) :
    ThreadSafe nvecVal h (fun n => n = p ∨ n = q) (Mem.nvec_add p q) (P.add Q) :=
  threadSafe (.nvec_add (.of ep (Or.inl rfl)) (.of eq (Or.inr rfl)))
theorem C136_nvec_sub {p q : NRef} {P Q : ND.Nvector α} (ep : nvecVal h p = some P) (eq : nvecVal h q = some Q) :
    ThreadSafe nvecVal h (fun n => n = p ∨ n = q) (Mem.nvec_sub p q) (P.sub Q) :=
  threadSafe (.nvec_sub (.of ep (Or.inl rfl)) (.of eq (Or.inr rfl)))
theorem C136_nvec_neg {p : NRef} {P : ND.Nvector α} (ep : nvecVal h p = some P) :
    ThreadSafe nvecVal h (fun n => n = p) (Mem.nvec_neg p) (.ok P.neg) :=
  threadSafe (.nvec_neg (.of ep rfl))
theorem C136_nvec_mul {p : NRef} {P : ND.Nvector α} {c : ARef} {C : Arr α} (ep : nvecVal h p = some P) (ec : arrVal h c = some C) :
    ThreadSafe nvecVal h (fun n => n = p) (Mem.nvec_mul p c) (P.mul C) :=
  threadSafe (.nvec_mul (.of ep rfl) (.of ec))
theorem C136_nvec_div {p : NRef} {P : ND.Nvector α} {c : ARef} {C : Arr α} (ep : nvecVal h p = some P) (ec : arrVal h c = some C) :
    ThreadSafe nvecVal h (fun n => n = p) (Mem.nvec_div p c) (P.div C) :=
  threadSafe (.nvec_div (.of ep rfl) (.of ec))
theorem C136_nvec_mean {p : NRef} {P : ND.Nvector α} (ep : nvecVal h p = some P) :
    ThreadSafe nvecVal h (fun n => n = p) (Mem.nvec_mean p) P.mean :=
  threadSafe (.nvec_mean (.of ep rfl))
theorem C136_displace (G : Geodesic α) {p : GRef} {P : ND.GeoPoint α} {d z : ARef} {D Z : Arr α} (e : geoVal h p = some P)
    (ed : arrVal h d = some D) (ez : arrVal h z = some Z) (long_unroll degrees : Bool) (method : String) :
    ThreadSafe (pairVal geoVal arrVal) h (fun _ => False) (Mem.displace G p d z long_unroll degrees method)
      (P.displace G D Z long_unroll degrees method) :=
  threadSafe_pair (.displace G (.of e) (.of ed) (.of ez) long_unroll degrees method)
theorem C136_cross_track_distance {P : PathRef} {p : ND.GeoPath α} {q : PosRef} {Q : ND.Position α} (e : pathVal h P = some p)
    (eq : posVal h q = some Q) (method : String) {r : Option ARef} {R : Option (Arr α)} (er : optVal h r = some R) :
    ThreadSafe arrVal h (fun n => PathHolds h P n ∨ PosHolds h q n) (Mem.path_cross_track_distance P q method r) (p.cross_track_distance Q method R) :=
  threadSafe (.path_cross_track_distance (.of e fun n x => Or.inl x) (.of eq fun n x => Or.inr x) method (sopt_of er))
theorem C136_track_distance (G : Geodesic α) {P : PathRef} {p : ND.GeoPath α} (e : pathVal h P = some p)
    (method : String) {r : Option ARef} {R : Option (Arr α)} (er : optVal h r = some R) :
    ThreadSafe arrVal h (fun n => PathHolds h P n) (Mem.track_distance G P method r) (p.track_distance G method R) :=
  threadSafe (.track_distance G (.of e fun n x => x) method (sopt_of er))
theorem C136_interpolate {P : PathRef} {p : ND.GeoPath α} {t : ARef} {T : Arr α} (e : pathVal h P = some p)
    (et : arrVal h t = some T) : ThreadSafe nvecVal h (fun n => PathHolds h P n) (Mem.path_interpolate P t) (p.interpolate T) :=
  threadSafe (.path_interpolate (.of e fun n x => x) (.of et))
theorem C136_intersect {P Q : PathRef} {p q : ND.GeoPath α} (e : pathVal h P = some p) (eq : pathVal h Q = some q) :
    ThreadSafe nvecVal h (fun n => PathHolds h P n ∨ PathHolds h Q n) (Mem.path_intersect P Q) (p.intersect q) :=
  threadSafe (.path_intersect (.of e fun n x => Or.inl x) (.of eq fun n x => Or.inr x))
theorem C136_on_great_circle {P : PathRef} {p : ND.GeoPath α} {q : PosRef} {Q : ND.Position α} (e : pathVal h P = some p)
    (eq : posVal h q = some Q) (atol : α) : ThreadSafe boolVal h (fun n => PathHolds h P n ∨ PosHolds h q n) (Mem.path_on_great_circle P q atol) (p.on_great_circle Q atol) :=
  threadSafe (.path_on_great_circle (.of e fun n x => Or.inl x) (.of eq fun n x => Or.inr x) atol)
theorem C136_on_path (G : Geodesic α) {P : PathRef} {p : ND.GeoPath α} {q : PosRef} {Q : ND.Position α} (e : pathVal h P = some p)
    (eq : posVal h q = some Q) (method : String) (rtol atol : α) :
    ThreadSafe boolVal h (fun n => PathHolds h P n ∨ PosHolds h q n) (Mem.on_path G P q method rtol atol) (p.on_path G Q method rtol atol) :=
  threadSafe (.on_path G (.of e fun n x => Or.inl x) (.of eq fun n x => Or.inr x) method rtol atol)
theorem C136_closest_point_on_great_circle {P : PathRef} {p : ND.GeoPath α} {q : PosRef} {Q : ND.Position α}
    (e : pathVal h P = some p) (eq : posVal h q = some Q) :
    ThreadSafe geoVal h (fun n => PathHolds h P n ∨ PosHolds h q n) (Mem.path_closest_point_on_great_circle P q) (p.closest_point_on_great_circle Q) :=
  threadSafe (.path_closest_point_on_great_circle (.of e fun n x => Or.inl x) (.of eq fun n x => Or.inr x))
theorem C136_closest_point_on_path {P : PathRef} {p : ND.GeoPath α} {q : PosRef} {Q : ND.Position α}
    (e : pathVal h P = some p) (eq : posVal h q = some Q) :
    ThreadSafe geoVal h (fun n => PathHolds h P n ∨ PosHolds h q n) (Mem.closest_point_on_path P q) (p.closest_point_on_path Q) :=
  threadSafe (.closest_point_on_path (.of e fun n x => Or.inl x) (.of eq fun n x => Or.inr x))

theorem C136_distance_and_azimuth (G : Geodesic α) {p : GRef} {P : ND.GeoPoint α} {q : PosRef} {Q : ND.Position α}
    (e : geoVal h p = some P) (eq : posVal h q = some Q) (long_unroll degrees : Bool) (method : String) :
    ThreadSafe (pairVal arrVal (pairVal arrVal arrVal)) h (fun n => PosHolds h q n)
      (Mem.distance_and_azimuth G p q long_unroll degrees method) (P.distance_and_azimuth G Q long_unroll degrees method) :=
  threadSafe_three (.distance_and_azimuth G (.of e) (.of eq fun n x => x) long_unroll degrees method)

/-! ## Arrays and objects at every moment -/

variable {σ : ℕ → Option (Event α)}

/-- At no moment of any schedule, whatever all threads call, has the value of an array changed. -/
theorem C136_array_unchanged {r : ARef} {A : Arr α} (e : arrVal h r = some A) (t : ℕ) :
    arrVal ((Threads.init h (pure () : M α Unit)).play σ t).mem r = some A :=
  stays (K := fun _ => False) (SArr.of e) (fun _ _ _ _ _ _ => id) t
/-- At no moment has a `GeoPoint` changed. -/
theorem C136_GeoPoint_unchanged {r : GRef} {p : ND.GeoPoint α} (e : geoVal h r = some p) (t : ℕ) :
    geoVal ((Threads.init h (pure () : M α Unit)).play σ t).mem r = some p :=
  stays (K := fun _ => False) (SGeo.of e) (fun _ _ _ _ _ _ => id) t
/-- At no moment has an `ECEFvector` changed. -/
theorem C136_ECEFvector_unchanged {r : ERef} {p : ND.ECEFvector α} (e : ecefVal h r = some p) (t : ℕ) :
    ecefVal ((Threads.init h (pure () : M α Unit)).play σ t).mem r = some p :=
  stays (K := fun _ => False) (SEcef.of e) (fun _ _ _ _ _ _ => id) t
/-- At no moment has an `Nvector` changed, unless its method `unit` has been called. -/
theorem C136_Nvector_unchanged {r : NRef} {p : ND.Nvector α} (e : nvecVal h r = some p)
    (hu : ∀ t i c, σ t = some (.start i c) → ¬ CallsUnit r c) (t : ℕ) :
    nvecVal ((Threads.init h (pure () : M α Unit)).play σ t).mem r = some p :=
  stays (K := fun n => n = r) (SNvec.of e rfl) (fun t i c _ et cu en => hu t i c et (en ▸ cu)) t
/-- the same for a local frame -/
theorem C136_LocalFrame_unchanged {r : FRef} {p : ND.LocalFrame α} (e : frameVal h r = some p)
    (hu : ∀ t i c n, σ t = some (.start i c) → FrameHolds h r n → ¬ CallsUnit n c) (t : ℕ) :
    frameVal ((Threads.init h (pure () : M α Unit)).play σ t).mem r = some p :=
  stays (SFrame.of e fun _ x => x) (fun t i c n et cu x => hu t i c n et x cu) t
/-- the same for a position -/
theorem C136_position_unchanged {r : PosRef} {p : ND.Position α} (e : posVal h r = some p)
    (hu : ∀ t i c n, σ t = some (.start i c) → PosHolds h r n → ¬ CallsUnit n c) (t : ℕ) :
    posVal ((Threads.init h (pure () : M α Unit)).play σ t).mem r = some p :=
  stays (SPos.of e fun _ x => x) (fun t i c n et cu x => hu t i c n et x cu) t
/-- the same for a path -/
theorem C136_GeoPath_unchanged {r : PathRef} {p : ND.GeoPath α} (e : pathVal h r = some p)
    (hu : ∀ t i c n, σ t = some (.start i c) → PathHolds h r n → ¬ CallsUnit n c) (t : ℕ) :
    pathVal ((Threads.init h (pure () : M α Unit)).play σ t).mem r = some p :=
  stays (SPath.of e fun _ x => x) (fun t i c n et cu x => hu t i c n et x cu) t

/-! ## `unit()` in another thread -/

section
variable {ρ : Type}

theorem Threads.play_congr {s : Threads α ρ} {σ τ : ℕ → Option (Event α)} {n : ℕ} (e : ∀ t, t < n → σ t = τ t) :
    s.play σ n = s.play τ n := by
  induction n with
  | zero => rfl
  | succ n ih => simp only [Threads.play, ih fun t ht => e t (by omega), e n (by omega)]

theorem Threads.play_add {s : Threads α ρ} {σ : ℕ → Option (Event α)} (n k : ℕ) :
    s.play σ (n + k) = (s.play σ n).play (fun t => σ (n + t)) k := by
  induction k with
  | zero => rfl
  | succ k ih => rw [← Nat.add_assoc]; simp only [Threads.play, ih]

/-- a thread that runs alone ends as the whole call -/
theorem Threads.other_alone (me : M α ρ) (i : ℕ) (m : M α Unit) : ∀ (h : Heap α) (others : ℕ → M α Unit), others i = m →
    ∃ k others', (Threads.mk h me others).play (fun _ => some (.step i)) k = ⟨(m h).2, me, others'⟩ := by
  induction m with
  | done r => exact fun h others _ => ⟨0, others, rfl⟩
  | step w f ih =>
    intro h others e
    obtain ⟨k, o', q⟩ := ih h (w h) (Function.update others i (f h)) (by simp)
    refine ⟨1 + k, o', ?_⟩
    rw [Threads.play_add]
    simp only [Threads.play, Threads.run, e, M.next]
    exact q

theorem Threads.me_alone (others : ℕ → M α Unit) (m : M α ρ) : ∀ (h : Heap α),
    ∃ k, ∀ n, k ≤ n → (Threads.mk h m others).play (fun _ => none) n = ⟨(m h).2, .done (m h).1, others⟩ := by
  induction m with
  | done r =>
    refine fun h => ⟨0, fun n _ => ?_⟩
    induction n with
    | zero => rfl
    | succ n ih => simp only [Threads.play, ih (Nat.zero_le n), Threads.run, M.next]
  | step w f ih =>
    intro h
    obtain ⟨k, q⟩ := ih h (w h)
    refine ⟨1 + k, fun n hn => ?_⟩
    obtain ⟨j, rfl⟩ := Nat.exists_eq_add_of_le (show 1 ≤ n by omega)
    rw [Threads.play_add]
    simp only [Threads.play, Threads.run, M.next]
    exact q j (by omega)
end

/-- `p + p` while another thread calls `p.unit()`: there is a schedule for which the result is the sum of the old and the new value of
`p` (here `U` is the normal of `p` after `unit()`). -/
theorem C136_unit_in_another_thread {p : NRef} {P : ND.Nvector α} {U : Arr α} (e : nvecVal h p = some P) (hU : ND.unit P.normal = .ok U) :
    ∃ σ, Fair σ ∧ (∀ t i c, σ t = some (.start i c) → c = .nvec_unit p) ∧ ∃ n r, ∀ k, n ≤ k →
      ((Threads.init h (Mem.nvec_add p p)).play σ k).me = .done r ∧
      Agrees nvecVal ((Threads.init h (Mem.nvec_add p p)).play σ k).mem r (P.add ⟨U, P.z, P.frame⟩) := by
  obtain ⟨o, eo, a⟩ := nvec_attr (show val h p = some P from e)
  rcases nvec_unit_run (show val h p = some P from e) with ⟨U', h', hU', hrun, S, v'⟩ | ⟨x, _, hx, _⟩
  swap
  · rw [hU] at hx; cases hx
  obtain rfl : U' = U := by rw [hU] at hU'; cases hU'; rfl
  -- what is left after the first step
  let rest : M α NRef := getNvec p >>= fun o2 => lift (check_frames o.frame o2.frame) >>= fun _ => readA o.normal >>= fun n1 =>
    readA o2.normal >>= fun n2 => readA o.z >>= fun z1 => readA o2.z >>= fun z2 =>
    allocE (ND.map2 (· + ·) n1 n2) >>= fun n => allocE (ND.map2 (· + ·) z1 z2) >>= fun z => newNvec ⟨n, z, o.frame⟩
  have first : (Threads.init h (Mem.nvec_add p p)).run none = ⟨h, rest, fun _ => .done (.ok ())⟩ := by
    have : (Mem.nvec_add p p : M α NRef).next h = (rest, h) := by
      change ((M.done (orAttributeError h.nvecs[p.id]?) : M α (NvecObj α)).bind _, h) = _
      rw [eo]
      rfl
    simp only [Threads.init, Threads.run, this]
  obtain ⟨k, others, q⟩ := Threads.other_alone rest 0 (Call.nvec_unit p : Call α).prog h
    (Function.update (fun _ => .done (.ok ())) 0 (Call.nvec_unit p : Call α).prog) (by simp)
  have hm : ((Call.nvec_unit p : Call α).prog h).2 = h' := by rw [Call.prog_exec]; change (nvec_unit p h).2 = h'; rw [hrun]
  rw [hm] at q
  let σ : ℕ → Option (Event α) := fun t =>
    if t = 0 then none else if t = 1 then some (.start 0 (.nvec_unit p)) else if t < 2 + k then some (.step 0) else none
  have mid : (Threads.init h (Mem.nvec_add p p)).play σ (2 + k) = ⟨h', rest, others⟩ := by
    rw [Threads.play_add, ← q]
    have : (Threads.init h (Mem.nvec_add p p)).play σ 2 =
        ⟨h, rest, Function.update (fun _ => .done (.ok ())) 0 (Call.nvec_unit p : Call α).prog⟩ := by
      change ((Threads.init h (Mem.nvec_add p p)).run none).run (some (.start 0 (.nvec_unit p))) = _
      rw [first]
      rfl
    rw [this]
    exact Threads.play_congr fun t ht => by simp [σ, show ¬ (2 + t = 1) by omega, show 2 + t < 2 + k by omega]
  obtain ⟨n, q'⟩ := Threads.me_alone others rest h'
  refine ⟨σ, fun t => ⟨2 + k + t, by omega, by simp [σ, show ¬ (2 + k + t = 1) by omega]⟩, ?_, ?_⟩
  · intro t i c et
    simp only [σ] at et
    split at et
    · cases et
    split at et
    · cases et; rfl
    split at et <;> cases et
  refine ⟨2 + k + n, (rest h').1, fun m hm => ?_⟩
  obtain ⟨j, rfl⟩ := Nat.exists_eq_add_of_le (show 2 + k ≤ m by omega)
  have fin : (Threads.init h (Mem.nvec_add p p)).play σ (2 + k + j) = ⟨(rest h').2, .done (rest h').1, others⟩ := by
    rw [Threads.play_add, mid, ← q' j (by omega)]
    exact Threads.play_congr fun t _ => by simp [σ, show ¬ (2 + k + t = 1) by omega]
  rw [fin]
  refine ⟨rfl, ?_⟩
  have R : Refines h' rest (P.add ⟨U', P.z, P.frame⟩) := by
    refine .getNvec v' fun b hb => ?_
    unfold ND.Nvector.add
    rw [a.frame, hb.frame]
    refine .lift fun _ _ => .read (S.arr a.normal) (.read hb.normal (.read (S.arr a.z) (.read hb.z (.bind .allocE fun h1 t T E1 et => ?_))))
    exact .bind .allocE fun h2 u U E2 eu => .newNvec ⟨HasVal.mono E2 et, eu, rfl⟩
  obtain ⟨_, R⟩ := R
  cases e1 : (rest h').1 <;> cases e2 : P.add ⟨U', P.z, P.frame⟩ <;> rw [e1, e2] at R <;> exact R

/-! ### The hypotheses hold -/

/-- three threads: one makes a step at every third moment; thread 0 calls `n0.unit()` again and again; thread 1 interpolates -/
def example_schedule (z : Arr α) (t : ℕ) : Option (Event α) :=
  if t % 3 = 0 then none
  else if t % 3 = 1 then (if t % 60 = 1 then some (.start 0 (.nvec_unit ⟨0⟩)) else some (.step 0))
  else if t % 600 = 2 then some (.start 1 (.interpolate ⟨0⟩ ⟨1, z.shape, id⟩)) else some (.step 1)

omit [PyFloat α] in
theorem example_fair (z : Arr α) : Fair (example_schedule z) := fun n => ⟨3 * n, by omega, by simp [example_schedule]⟩

theorem example_unit (z : Arr α) {t i : ℕ} {c : Call α} {n : NRef} (e : example_schedule z t = some (.start i c)) (u : CallsUnit n c) :
    n = ⟨0⟩ := by
  unfold example_schedule at e
  split at e
  · cases e
  split at e <;> split at e <;> cases e
  · exact u.symm
  · exact u.elim

/-- with these threads `delta_N` between two uses of the object `n1` ends with its value -/
example (A z : Arr α) (F : FrameE α) : ∃ n r, ∀ k, n ≤ k →
    ((Threads.init (example_heap A z F) (Mem.delta_N (.nvec ⟨1⟩) (.nvec ⟨1⟩))).play (example_schedule z) k).me = .done r ∧
    Agrees pvecVal ((Threads.init (example_heap A z F) (Mem.delta_N (.nvec ⟨1⟩) (.nvec ⟨1⟩))).play (example_schedule z) k).mem r
      (ND.delta_N (.nvec ⟨A, z, F⟩) (.nvec ⟨A, z, F⟩)) := by
  refine C136_delta_N rfl rfl (example_schedule z) (example_fair z) (leavesAlone (Safe.delta_N _ _) fun t i c n e u => ?_)
  obtain rfl := example_unit z e u
  refine ⟨by change 0 < 2; omega, ?_⟩
  rintro (h | h) <;> cases h

/-- and at every moment `n1` has its value -/
example (A z : Arr α) (F : FrameE α) (t : ℕ) :
    nvecVal ((Threads.init (example_heap A z F) (pure () : M α Unit)).play (example_schedule z) t).mem ⟨1⟩ = some ⟨A, z, F⟩ :=
  C136_Nvector_unchanged rfl (fun t i c e u => by cases example_unit z e u) t

end Nv.Mem
