import Verif.Props.Memory
import Verif.Lemmas.ND

/-!
# C67: objects that share memory compute the same; C68: which objects share memory

C67: `Computes rd h m s` says that the method `m`, executed in a memory `h`, returns an array or object with the value `s` (or raises
the exception `s`).  `s` is the value function of `Verif.ND`, that has no memory.  The references in `h` can be shared in any
way: `a` and `b` may be the same object, or objects that share arrays.
-/

namespace Nv.Mem
open Nv.ND (Arr)
open Nv.Spec
variable {α : Type}

theorem computes {ρ γ : Type} [HasVal α ρ γ] {h : Heap α} {m : M α ρ} {s : Except PyErr γ} (r : Refines h m s) :
    Computes val h m s := by
  obtain ⟨_, r⟩ := r
  unfold Computes
  cases e : m h with
  | mk x h' =>
  rw [e] at r
  cases x <;> cases s <;> first | exact r | exact absurd r (by simp)

theorem computes_pair {ρ σ γ δ : Type} [HasVal α ρ γ] [HasVal α σ δ] {h : Heap α} {m : M α (ρ × σ)} {s : Except PyErr (γ × δ)}
    (r : Refines h m s) : Computes (pairVal val val) h m s := by
  have q := computes r
  unfold Computes at *
  cases e : m h with
  | mk x h' =>
  rw [e] at q
  cases x <;> cases s <;> try exact q
  · rename_i b c
    have q : val h' b = some c := q
    have q1 := val_fst q
    have q2 := val_snd q
    change pairVal val val h' b = some c
    unfold pairVal
    rw [q1, q2]

variable [PyFloat α]
open PyFloat
variable {h : Heap α}

/-! ## C67 -/

theorem C67_unit {v : ARef} {V : Arr α} (e : arrVal h v = some V) (x : α) : Computes arrVal h (Mem.unit v x) (ND.unit V x) :=
  computes (.unit e x)
theorem C67_lat_lon2n_E {a b : ARef} {A B : Arr α} (ea : arrVal h a = some A) (eb : arrVal h b = some B) (R : M3 α) :
    Computes arrVal h (Mem.lat_lon2n_E a b R) (ND.lat_lon2n_E A B R) := computes (.lat_lon2n_E ea eb R)
theorem C67_n_E2lat_lon {n : ARef} {N : Arr α} (e : arrVal h n = some N) (R : M3 α) :
    Computes (pairVal arrVal arrVal) h (Mem.n_E2lat_lon n R) (ND.n_E2lat_lon N R) := computes_pair (.n_E2lat_lon e R)
theorem C67_n_E2R_EN {n : ARef} {N : Arr α} (e : arrVal h n = some N) (R : M3 α) :
    Computes arrVal h (Mem.n_E2R_EN n R) (ND.n_E2R_EN N R) := computes (.n_E2R_EN e R)
theorem C67_n_EB_E2p_EB_E {n d : ARef} {N D : Arr α} (e : arrVal h n = some N) (ed : arrVal h d = some D) (a f : α) (R : M3 α) :
    Computes arrVal h (Mem.n_EB_E2p_EB_E n d a f R) (ND.n_EB_E2p_EB_E N D a f R) := computes (.n_EB_E2p_EB_E e ed a f R)
theorem C67_p_EB_E2n_EB_E {p : ARef} {P : Arr α} (e : arrVal h p = some P) (a f : α) (R : M3 α) :
    Computes (pairVal arrVal arrVal) h (Mem.p_EB_E2n_EB_E p a f R) (ND.p_EB_E2n_EB_E P a f R) :=
  computes_pair (.p_EB_E2n_EB_E e a f R)
theorem C67_to_nvector {p : PosRef} {v : ND.Position α} (e : posVal h p = some v) :
    Computes nvecVal h (Mem.to_nvector p) v.to_nvector := computes (.to_nvector e)
theorem C67_to_ecef_vector {p : PosRef} {v : ND.Position α} (e : posVal h p = some v) :
    Computes ecefVal h (Mem.to_ecef_vector p) v.to_ecef_vector := computes (.to_ecef_vector e)
theorem C67_to_geo_point {p : PosRef} {v : ND.Position α} (e : posVal h p = some v) :
    Computes geoVal h (Mem.to_geo_point p) v.to_geo_point := computes (.to_geo_point e)
theorem C67_FrameN {p : PosRef} {v : ND.Position α} (e : posVal h p = some v) :
    Computes frameVal h (Mem.FrameN p) (ND.FrameN v) := computes (.FrameN e)
theorem C67_FrameL {p : PosRef} {v : ND.Position α} {w : ARef} {W : Arr α} (e : posVal h p = some v) (ew : arrVal h w = some W) :
    Computes frameVal h (Mem.FrameL p w) (ND.FrameL v W) := computes (.FrameL e ew)
theorem C67_FrameB {p : PosRef} {v : ND.Position α} {y t r : ARef} {Y T R : Arr α} (e : posVal h p = some v)
    (ey : arrVal h y = some Y) (et : arrVal h t = some T) (er : arrVal h r = some R) (degrees : Bool) :
    Computes frameVal h (Mem.FrameB p y t r degrees) (ND.FrameB v Y T R degrees) := computes (.FrameB e ey et er degrees)
theorem C67_R_EN {f : FRef} {F : ND.LocalFrame α} (e : frameVal h f = some F) : Computes arrVal h (Mem.R_EN f) F.R_EN :=
  computes (.R_EN e)
theorem C67_change_frame {p : ERef} {P : ND.ECEFvector α} {f : FRef} {F : ND.LocalFrame α} (e : ecefVal h p = some P)
    (ef : frameVal h f = some F) : Computes pvecVal h (Mem.change_frame p f) (P.change_frame F) := computes (.change_frame e ef)
theorem C67_length {p : VRef} {P : ND.Pvector α} (e : pvecVal h p = some P) :
    Computes arrVal h (Mem.pvec_length p) (ND.length P.pvector P.scalar) := computes (.pvec_length e)
theorem C67_azimuth {p : VRef} {P : ND.Pvector α} (e : pvecVal h p = some P) :
    Computes arrVal h (Mem.pvec_azimuth p) (ND.azimuth P.pvector P.scalar) := computes (.pvec_azimuth e)
theorem C67_elevation {p : VRef} {P : ND.Pvector α} (e : pvecVal h p = some P) :
    Computes arrVal h (Mem.pvec_elevation p) (ND.elevation P.pvector P.scalar) := computes (.pvec_elevation e)
theorem C67_delta_E {a b : PosRef} {A B : ND.Position α} (ea : posVal h a = some A) (eb : posVal h b = some B) :
    Computes ecefVal h (Mem.delta_E a b) (ND.delta_E A B) := computes (.delta_E ea eb)
theorem C67_delta_N {a b : PosRef} {A B : ND.Position α} (ea : posVal h a = some A) (eb : posVal h b = some B) :
    Computes pvecVal h (Mem.delta_N a b) (ND.delta_N A B) := computes (.delta_N ea eb)
theorem C67_delta_L {a b : PosRef} {A B : ND.Position α} {w : ARef} {W : Arr α} (ea : posVal h a = some A)
    (eb : posVal h b = some B) (ew : arrVal h w = some W) : Computes pvecVal h (Mem.delta_L a b w) (ND.delta_L A B W) :=
  computes (.delta_L ea eb ew)
theorem C67_ecef_add {p q : ERef} {P Q : ND.ECEFvector α} (ep : ecefVal h p = some P) (eq : ecefVal h q = some Q) :
    Computes ecefVal h (Mem.ecef_add p q) (P.add Q) := computes (.ecef_add ep eq)
theorem C67_ecef_sub {p q : ERef} {P Q : ND.ECEFvector α} (ep : ecefVal h p = some P) (eq : ecefVal h q = some Q) :
    Computes ecefVal h (Mem.ecef_sub p q) (P.sub Q) := computes (.ecef_sub ep eq)
theorem C67_ecef_neg {p : ERef} {P : ND.ECEFvector α} (ep : ecefVal h p = some P) :
    Computes ecefVal h (Mem.ecef_neg p) (.ok P.neg) := computes (.ecef_neg ep)
theorem C67_nvec_add {p q : NRef} {P Q : ND.Nvector α} (ep : nvecVal h p = some P) (eq : nvecVal h q = some Q) :
    Computes nvecVal h (Mem.nvec_add p q) (P.add Q) := computes (.nvec_add ep eq)
theorem C67_nvec_sub {p q : NRef} {P Q : ND.Nvector α} (ep : nvecVal h p = some P) (eq : nvecVal h q = some Q) :
    Computes nvecVal h (Mem.nvec_sub p q) (P.sub Q) := computes (.nvec_sub ep eq)
theorem C67_nvec_neg {p : NRef} {P : ND.Nvector α} (ep : nvecVal h p = some P) :
    Computes nvecVal h (Mem.nvec_neg p) (.ok P.neg) := computes (.nvec_neg ep)
theorem C67_nvec_mul {p : NRef} {P : ND.Nvector α} {c : ARef} {C : Arr α} (ep : nvecVal h p = some P) (ec : arrVal h c = some C) :
    Computes nvecVal h (Mem.nvec_mul p c) (P.mul C) := computes (.nvec_mul ep ec)
theorem C67_nvec_div {p : NRef} {P : ND.Nvector α} {c : ARef} {C : Arr α} (ep : nvecVal h p = some P) (ec : arrVal h c = some C) :
    Computes nvecVal h (Mem.nvec_div p c) (P.div C) := computes (.nvec_div ep ec)
theorem C67_nvec_mean {p : NRef} {P : ND.Nvector α} (ep : nvecVal h p = some P) :
    Computes nvecVal h (Mem.nvec_mean p) P.mean := computes (.nvec_mean ep)
theorem C67_displace (G : Geodesic α) {p : GRef} {P : ND.GeoPoint α} {d z : ARef} {D Z : Arr α} (e : geoVal h p = some P)
    (ed : arrVal h d = some D) (ez : arrVal h z = some Z) (long_unroll degrees : Bool) (method : String) :
    Computes (pairVal geoVal arrVal) h (Mem.displace G p d z long_unroll degrees method)
      (P.displace G D Z long_unroll degrees method) := computes_pair (.displace G e ed ez long_unroll degrees method)
theorem C67_cross_track_distance {P : PathRef} {p : ND.GeoPath α} {q : PosRef} {Q : ND.Position α} (e : pathVal h P = some p)
    (eq : posVal h q = some Q) (method : String) {r : Option ARef} {R : Option (Arr α)} (er : optVal h r = some R) :
    Computes arrVal h (Mem.path_cross_track_distance P q method r) (p.cross_track_distance Q method R) :=
  computes (.path_cross_track_distance e eq method er)
theorem C67_track_distance (G : Geodesic α) {P : PathRef} {p : ND.GeoPath α} (e : pathVal h P = some p)
    (method : String) {r : Option ARef} {R : Option (Arr α)} (er : optVal h r = some R) :
    Computes arrVal h (Mem.track_distance G P method r) (p.track_distance G method R) := computes (.track_distance G e method er)
theorem C67_interpolate {P : PathRef} {p : ND.GeoPath α} {t : ARef} {T : Arr α} (e : pathVal h P = some p)
    (et : arrVal h t = some T) : Computes nvecVal h (Mem.path_interpolate P t) (p.interpolate T) := computes (.path_interpolate e et)
theorem C67_intersect {P Q : PathRef} {p q : ND.GeoPath α} (e : pathVal h P = some p) (eq : pathVal h Q = some q) :
    Computes nvecVal h (Mem.path_intersect P Q) (p.intersect q) := computes (.path_intersect e eq)
theorem C67_on_great_circle {P : PathRef} {p : ND.GeoPath α} {q : PosRef} {Q : ND.Position α} (e : pathVal h P = some p)
    (eq : posVal h q = some Q) (atol : α) : Computes boolVal h (Mem.path_on_great_circle P q atol) (p.on_great_circle Q atol) :=
  computes (.path_on_great_circle e eq atol)
theorem C67_on_path (G : Geodesic α) {P : PathRef} {p : ND.GeoPath α} {q : PosRef} {Q : ND.Position α} (e : pathVal h P = some p)
    (eq : posVal h q = some Q) (method : String) (rtol atol : α) :
    Computes boolVal h (Mem.on_path G P q method rtol atol) (p.on_path G Q method rtol atol) :=
  computes (.on_path G e eq method rtol atol)
theorem C67_closest_point_on_great_circle {P : PathRef} {p : ND.GeoPath α} {q : PosRef} {Q : ND.Position α}
    (e : pathVal h P = some p) (eq : posVal h q = some Q) :
    Computes geoVal h (Mem.path_closest_point_on_great_circle P q) (p.closest_point_on_great_circle Q) :=
  computes (.path_closest_point_on_great_circle e eq)
theorem C67_closest_point_on_path {P : PathRef} {p : ND.GeoPath α} {q : PosRef} {Q : ND.Position α}
    (e : pathVal h P = some p) (eq : posVal h q = some Q) :
    Computes geoVal h (Mem.closest_point_on_path P q) (p.closest_point_on_path Q) := computes (.closest_point_on_path e eq)
theorem C67_distance_and_azimuth (G : Geodesic α) {p : GRef} {P : ND.GeoPoint α} {q : PosRef} {Q : ND.Position α}
    (e : geoVal h p = some P) (eq : posVal h q = some Q) (long_unroll degrees : Bool) (method : String) :
    Computes (pairVal arrVal (pairVal arrVal arrVal)) h (Mem.distance_and_azimuth G p q long_unroll degrees method)
      (P.distance_and_azimuth G Q long_unroll degrees method) := by
  have q := computes (.distance_and_azimuth G e eq long_unroll degrees method)
  unfold Computes at *
  cases e : Mem.distance_and_azimuth G p _ long_unroll degrees method h with
  | mk x h' =>
  rw [e] at q
  cases e2 : P.distance_and_azimuth G Q long_unroll degrees method <;> rw [e2] at q <;> cases x <;> try exact q
  rename_i c b
  have q : val h' b = some c := q
  have q1 := val_fst q
  have q2 := val_fst (val_snd q)
  have q3 := val_snd (val_snd q)
  change pairVal arrVal (pairVal arrVal arrVal) h' b = some c
  unfold pairVal
  rw [show arrVal h' b.1 = _ from q1]
  rw [show arrVal h' b.2.1 = _ from q2, show arrVal h' b.2.2 = _ from q3]

/-- Methods give the same result after any other calls (here: `cross_track_distance` of a path whose end points are not
`Nvector` objects on which `unit` has been called). -/
theorem C67_later (calls : List (Call α)) {P : PathRef} {p : ND.GeoPath α} {q : PosRef} {Q : ND.Position α}
    (e : pathVal h P = some p) (eq : posVal h q = some Q) (method : String)
    (hP : ∀ n, PathHolds h P n → ∀ c ∈ calls, ¬ CallsUnit n c) (hq : ∀ n, PosHolds h q n → ∀ c ∈ calls, ¬ CallsUnit n c) :
    Computes arrVal (execs calls h) (Mem.path_cross_track_distance P q method none) (p.cross_track_distance Q method none) :=
  C67_cross_track_distance (C59_GeoPath calls h P p e hP) (C59_position calls h q Q eq hq) method rfl

example (A z : Arr α) (F : FrameE α) :
    Computes pvecVal (example_heap A z F) (Mem.delta_N (.nvec ⟨0⟩) (.nvec ⟨0⟩)) (ND.delta_N (.nvec ⟨A, z, F⟩) (.nvec ⟨A, z, F⟩)) :=
  C67_delta_N rfl rfl

/-! ## C68: the same object -/

/-- `to_nvector()` of an `Nvector`, `to_ecef_vector()` of an `ECEFvector` and `to_geo_point()` of a `GeoPoint` return the object
itself, not a copy. -/
theorem C68_conversion_to_own_class (h : Heap α) (n : NRef) (e : ERef) (g : GRef) :
    Mem.to_nvector (.nvec n) h = (.ok n, h) ∧ Mem.to_ecef_vector (.ecef e) h = (.ok e, h) ∧
      Mem.to_geo_point (.geo g) h = (.ok g, h) := ⟨rfl, rfl, rfl⟩

/-- `unit()` on the result of `n.to_nvector()` changes `n`. -/
theorem C68_unit_of_to_nvector {n m : NRef} {h' : Heap α} {p : ND.Nvector α} {U : Arr α} (e : nvecVal h n = some p)
    (et : Mem.to_nvector (.nvec n) h = (.ok m, h')) (hU : ND.unit p.normal = .ok U) :
    nvecVal (nvec_unit m h').2 n = some ⟨U, p.z, p.frame⟩ := by
  cases et
  have := C59_unit e
  rw [hU] at this
  cases e1 : (nvec_unit n h).1 with
  | error x => rw [e1] at this; exact absurd this (by simp)
  | ok u => rw [e1] at this; exact this

/-- A `GeoPath` made with the `Nvector` `n` sees `n.unit()`. -/
theorem C68_unit_seen_by_path {n : NRef} {b : PosRef} {P : PathRef} {h' : Heap α} {p : ND.Nvector α} {q : ND.Position α}
    {U : Arr α} (e : nvecVal h n = some p) (eb : posVal h b = some q) (hb : ¬ PosHolds h b n)
    (hP : Mem.GeoPath (.nvec n) b h = (.ok P, h')) (hU : ND.unit p.normal = .ok U) :
    pathVal h' P = some ⟨.nvec p, q⟩ ∧ pathVal (nvec_unit n h').2 P = some ⟨.nvec ⟨U, p.z, p.frame⟩, q⟩ := by
  have E := Pres.GeoPath (.nvec n) b h
  rw [hP] at E
  have eo : h'.paths[P.id]? = some ⟨.nvec n, b⟩ := by
    unfold Mem.GeoPath Mem.newPath at hP
    cases hP
    simp
  have e' : val h' n = some p := nvecVal_mono E e
  have hb' : ¬ PosHolds h' b n := by
    cases b with
    | pvec r =>
      simp only [posVal, Option.bind_eq_bind, Option.bind_eq_some_iff, Option.pure_def] at eb
      obtain ⟨v, ev, _⟩ := eb
      obtain ⟨o, eo, ap⟩ := pvec_attr ev
      obtain ⟨fo, efo, _⟩ := frame_attr ap.frame
      rintro ⟨o', eo', fo', efo', hn⟩
      rw [prefix_get E.pvecs eo] at eo'
      cases eo'
      rw [prefix_get E.frames efo] at efo'
      cases efo'
      exact hb ⟨o, eo, fo, efo, hn⟩
    | geo r => exact hb
    | nvec r => exact hb
    | ecef r => exact hb
  have eb' : posVal h' b = some q := posVal_mono E eb
  refine ⟨?_, ?_⟩
  · simp only [pathVal, eo, Option.bind_eq_bind, Option.bind_some]
    rw [show posVal h' (.nvec n) = some (.nvec p) from val_nvec e', eb']
    rfl
  · rcases nvec_unit_run e' with ⟨V, h2, e1, e2, S, e3⟩ | ⟨x, h2, e1, e2, E⟩
    · rw [hU] at e1
      cases e1
      rw [e2]
      simp only [pathVal, prefix_get S.paths eo, Option.bind_eq_bind, Option.bind_some]
      rw [show posVal h2 (.nvec n) = some (.nvec ⟨U, p.z, p.frame⟩) from val_nvec e3,
        S.pos (fun m hm (hmn : m = n) => hb' (hmn ▸ hm)) eb']
      rfl
    · rw [hU] at e1
      cases e1

/-- A `FrameB` made with the `Nvector` `n` sees `n.unit()`. -/
theorem C68_unit_seen_by_FrameB {n : NRef} {y t r : ARef} {f : FRef} {h' : Heap α} {p : ND.Nvector α} {Y T R U : Arr α}
    (e : nvecVal h n = some p) (ey : arrVal h y = some Y) (et : arrVal h t = some T) (er : arrVal h r = some R)
    (hf : Mem.FrameB (.nvec n) y t r false h = (.ok f, h')) (hU : ND.unit p.normal = .ok U) :
    frameVal h' f = some (.B p Y T R) ∧ frameVal (nvec_unit n h').2 f = some (.B ⟨U, p.z, p.frame⟩ Y T R) := by
  have E := Pres.FrameB (.nvec n) y t r false h
  rw [hf] at E
  have eo : h'.frames[f.id]? = some (.B n y t r) := by
    change (Except.ok _, _) = _ at hf
    cases hf
    simp
  have e' : val h' n = some p := nvecVal_mono E e
  have aux : ∀ {h2 : Heap α} {q : ND.Nvector α}, h2.frames[f.id]? = some (.B n y t r) → nvecVal h2 n = some q →
      arrVal h2 y = some Y → arrVal h2 t = some T → arrVal h2 r = some R → frameVal h2 f = some (.B q Y T R) := by
    intro h2 q a1 a2 a3 a4 a5
    simp only [frameVal, a1, Option.bind_eq_bind, Option.bind_some, a2, a3, a4, a5]
    rfl
  refine ⟨aux eo e' (arrVal_mono E ey) (arrVal_mono E et) (arrVal_mono E er), ?_⟩
  rcases nvec_unit_run e' with ⟨V, h2, e1, e2, S, e3⟩ | ⟨x, h2, e1, e2, E⟩
  · rw [hU] at e1
    cases e1
    rw [e2]
    exact aux (prefix_get S.frames eo) e3 (S.arr (arrVal_mono E ey)) (S.arr (arrVal_mono E et)) (S.arr (arrVal_mono E er))
  · rw [hU] at e1
    cases e1

/-- A `FrameN` made with the `Nvector` `n` does not see `n.unit()`. -/
theorem C68_unit_not_seen_by_FrameN {n : NRef} {f : FRef} {h' : Heap α} {p : ND.Nvector α}
    (e : nvecVal h n = some p) (hf : Mem.FrameN (.nvec n) h = (.ok f, h')) :
    frameVal (nvec_unit n h').2 f = frameVal h' f ∧ frameVal h' f = some (.N ⟨p.normal, ND.scalar (lit 0), p.frame⟩) := by
  have q := computes (Refines.FrameN (val_nvec e))
  unfold Computes at q
  rw [hf] at q
  have q : frameVal h' f = some (.N ⟨p.normal, ND.scalar (lit 0), p.frame⟩) := q
  refine ⟨?_, q⟩
  rw [q]
  obtain ⟨o, eo, a⟩ := nvec_attr e
  refine (same_nvec_unit n h').frame ?_ q
  rintro m ⟨fo, efo, hm⟩ hmn
  unfold Mem.FrameN at hf
  rw [bind_ok (show Mem.to_nvector (.nvec n) h = (.ok n, h) from rfl),
    bind_ok (show Mem.getNvec n h = (.ok o, h) by unfold Mem.getNvec; rw [look_run, eo]; rfl)] at hf
  change (Except.ok _, _) = _ at hf
  cases hf
  simp only [List.getElem?_concat_length, Option.some.injEq] at efo
  subst efo
  change (⟨h.nvecs.length⟩ : NRef) = m at hm
  rw [← hm] at hmn
  have := (List.getElem?_eq_some_iff.1 eo).1
  rw [← hmn] at this
  exact absurd this (lt_irrefl _)

/-- the hypotheses hold: two columns -/
example (c : ℕ → V3 α) (z : Arr α) (F : FrameE α) : ∃ A U, ND.IsCols A 2 c ∧
    nvecVal (example_heap A z F) ⟨0⟩ = some ⟨A, z, F⟩ ∧ posVal (example_heap A z F) (.nvec ⟨1⟩) = some (.nvec ⟨A, z, F⟩) ∧
    ¬ PosHolds (example_heap A z F) (.nvec ⟨1⟩) ⟨0⟩ ∧
    (∃ P h', Mem.GeoPath (.nvec ⟨0⟩) (.nvec ⟨1⟩) (example_heap A z F) = (.ok P, h')) ∧
    (∃ f h', Mem.FrameN (.nvec ⟨0⟩) (example_heap A z F) = (.ok f, h')) ∧ ND.unit A = .ok U := by
  obtain ⟨A, hA⟩ : ∃ A : Arr α, ND.IsCols A 2 c :=
    ⟨⟨[3, 2], fun i => match i with | [0, j] => (c j).x | [1, j] => (c j).y | [_, j] => (c j).z | _ => lit 0⟩, rfl, fun _ _ => rfl⟩
  obtain ⟨U, hU, _⟩ := ND.unit_cols hA (lit 1)
  exact ⟨A, U, hA, rfl, rfl, (by rintro ⟨⟩), ⟨_, _, rfl⟩, ⟨_, _, rfl⟩, hU⟩

/-! ## C68: shared arrays

`written a f h` is the memory after the user has assigned to elements of the array `a`. -/

omit [PyFloat α] in
/-- An `Nvector` shares the arrays it has been made with: assignments to them are seen. -/
theorem C68_Nvector_shares_normal {a z : ARef} {n : NRef} {h' : Heap α} {A Z : Arr α} {F : FrameE α} {f : List ℕ → α → α}
    (ea : a.ix = id) (hA : arrVal h a = some A) (hZ : arrVal h z = some Z) (hz : z.base ≠ a.base)
    (hn : Mem.Nvector a z F h = (.ok n, h')) :
    nvecVal h' n = some ⟨A, Z, F⟩ ∧ nvecVal (written a f h') n = some ⟨⟨A.shape, fun i => f i (A.get i)⟩, Z, F⟩ := by
  unfold Mem.Nvector newNvec at hn
  cases hn
  refine ⟨?_, ?_⟩
  · have h1 : arrVal { h with nvecs := h.nvecs ++ [⟨a, z, F⟩] } a = some A := hA
    have h2 : arrVal { h with nvecs := h.nvecs ++ [⟨a, z, F⟩] } z = some Z := hZ
    simp [nvecVal, h1, h2]
  · have h2 : arrVal (written a f { h with nvecs := h.nvecs ++ [⟨a, z, F⟩] }) z = some Z := by
      rw [arrVal_written (Ne.symm hz)]
      exact hZ
    have h1 : arrVal (written a f { h with nvecs := h.nvecs ++ [⟨a, z, F⟩] }) a = some ⟨A.shape, fun i => f i (A.get i)⟩ := by
      unfold arrVal at hA ⊢
      rw [Option.map_eq_some_iff] at hA
      obtain ⟨B, eB, rfl⟩ := hA
      simp [written, assign, eB, ARef.view, ea]
    have e : (written a f { h with nvecs := h.nvecs ++ [⟨a, z, F⟩] }).nvecs[h.nvecs.length]? = some ⟨a, z, F⟩ := by
      simp [written, assign]
    simp [nvecVal, e, h1, h2]

/-- `point.to_nvector()` shares the depth with the `GeoPoint`, and `n.to_geo_point()` with the `Nvector`: the depth is the same
memory. -/
theorem C68_depth_is_shared {g : GRef} {n : NRef} {h' : Heap α} (e : Mem.to_nvector (.geo g) h = (.ok n, h')) :
    ∃ o o', h.geos[g.id]? = some o ∧ h'.nvecs[n.id]? = some o' ∧ o'.z = o.z := by
  change Mem.geo_to_nvector g h = _ at e
  unfold Mem.geo_to_nvector at e
  cases e1 : h.geos[g.id]? with
  | none =>
    rw [bind_error (show Mem.getGeo g h = (.error .AttributeError, h) by unfold Mem.getGeo; rw [look_run, e1]; rfl)] at e
    cases e
  | some o =>
    rw [bind_ok (show Mem.getGeo g h = (.ok o, h) by unfold Mem.getGeo; rw [look_run, e1]; rfl)] at e
    cases e2 : Mem.lat_lon2n_E o.latitude o.longitude o.frame.R_Ee h with
    | mk x h1 =>
    cases x with
    | error x => rw [bind_error e2] at e; cases e
    | ok a =>
      rw [bind_ok e2] at e
      unfold newNvec at e
      cases e
      exact ⟨o, ⟨a, o.z, o.frame⟩, rfl, by simp, rfl⟩

/-! ## C68: independent results

Whatever the user assigns to arrays that existed before the call, the result keeps its value. -/

variable {a : ARef} (f : List ℕ → α → α) {h' : Heap α}

/-- `unit` -/
theorem C68_unit_is_new {v u : ARef} {x : α} (e : Mem.unit v x h = (.ok u, h')) (ha : a.base < h.arrays.length) :
    arrVal (written a f h') u = arrVal h' u :=
  arrVal_written (by have := Ensures.unit (n := h.arrays.length) v x h le_rfl u h' e; change _ ≤ _ at this; omega) f

/-- `to_ecef_vector` of the other classes -/
theorem C68_to_ecef_vector_is_new {p : PosRef} {r : ERef} (hp : ∀ c, p ≠ .ecef c) (e : Mem.to_ecef_vector p h = (.ok r, h'))
    (ha : a.base < h.arrays.length) : ecefVal (written a f h') r = ecefVal h' r := by
  refine newE.written (n := h.arrays.length) ?_ ha f
  cases p with
  | geo g =>
    exact Ensures.step (Q := newE h.arrays.length) (.geo_to_nvector g) (fun _ => .nvec_to_ecef_vector _) h le_rfl r h' e
  | nvec g => exact Ensures.nvec_to_ecef_vector g h le_rfl r h' e
  | ecef g => exact absurd rfl (hp g)
  | pvec g => exact Ensures.pvec_to_ecef_vector g h le_rfl r h' e

/-- `to_nvector` of an `ECEFvector` or a `Pvector` -/
theorem C68_to_nvector_is_new {p : PosRef} {r : NRef} (hp : (∃ c, p = .ecef c) ∨ (∃ c, p = .pvec c))
    (e : Mem.to_nvector p h = (.ok r, h')) (ha : a.base < h.arrays.length) : nvecVal (written a f h') r = nvecVal h' r := by
  refine newN.written (n := h.arrays.length) ?_ ha f
  rcases hp with ⟨c, rfl⟩ | ⟨c, rfl⟩
  · exact Ensures.ecef_to_nvector c h le_rfl r h' e
  · exact Ensures.step (Q := newN h.arrays.length) (.pvec_to_ecef_vector c) (fun _ => .ecef_to_nvector _) h le_rfl r h' e

/-- the arithmetic of `ECEFvector` and `delta_E` -/
theorem C68_ecef_arithmetic_is_new {p q r : ERef} {x y : PosRef} (ha : a.base < h.arrays.length)
    (e : Mem.ecef_add p q h = (.ok r, h') ∨ Mem.ecef_sub p q h = (.ok r, h') ∨ Mem.ecef_neg p h = (.ok r, h') ∨
      Mem.delta_E x y h = (.ok r, h')) : ecefVal (written a f h') r = ecefVal h' r := by
  refine newE.written (n := h.arrays.length) ?_ ha f
  rcases e with e | e | e | e
  · exact Ensures.ecef_add p q h le_rfl r h' e
  · exact Ensures.ecef_sub p q h le_rfl r h' e
  · exact Ensures.ecef_neg p h le_rfl r h' e
  · exact Ensures.delta_E x y h le_rfl r h' e

/-- the arithmetic of `Nvector` -/
theorem C68_nvector_arithmetic_is_new {p q r : NRef} {c : ARef} (ha : a.base < h.arrays.length)
    (e : Mem.nvec_add p q h = (.ok r, h') ∨ Mem.nvec_sub p q h = (.ok r, h') ∨ Mem.nvec_neg p h = (.ok r, h') ∨
      Mem.nvec_mul p c h = (.ok r, h') ∨ Mem.nvec_div p c h = (.ok r, h') ∨ Mem.nvec_mean p h = (.ok r, h')) :
    nvecVal (written a f h') r = nvecVal h' r := by
  refine newN.written (n := h.arrays.length) ?_ ha f
  rcases e with e | e | e | e | e | e
  · exact Ensures.nvec_add p q h le_rfl r h' e
  · exact Ensures.nvec_sub p q h le_rfl r h' e
  · exact Ensures.nvec_neg p h le_rfl r h' e
  · exact Ensures.nvec_mul p c h le_rfl r h' e
  · exact Ensures.nvec_div p c h le_rfl r h' e
  · exact Ensures.nvec_mean p h le_rfl r h' e

/-- `interpolate` and `intersect` of a `GeoPath` -/
theorem C68_path_results_are_new {P Q : PathRef} {t : ARef} {r : NRef} (ha : a.base < h.arrays.length)
    (e : Mem.path_interpolate P t h = (.ok r, h') ∨ Mem.path_intersect P Q h = (.ok r, h')) :
    nvecVal (written a f h') r = nvecVal h' r := by
  refine newN.written (n := h.arrays.length) ?_ ha f
  rcases e with e | e
  · exact Ensures.path_interpolate P t h le_rfl r h' e
  · exact Ensures.path_intersect P Q h le_rfl r h' e

/-- `GeoPoint(..., degrees=True)` copies the angles; without `degrees` it shares them. -/
theorem C68_GeoPoint_degrees {lat lon z : ARef} {F : FrameE α} {g : GRef} (e : Mem.GeoPoint lat lon z F true h = (.ok g, h')) :
    ∃ o, h'.geos[g.id]? = some o ∧ h.arrays.length ≤ o.latitude.base ∧ h.arrays.length ≤ o.longitude.base :=
  Ensures.GeoPointD lat lon z F h le_rfl g h' e

theorem C68_GeoPoint_radians {lat lon z : ARef} {F : FrameE α} {g : GRef} (e : Mem.GeoPoint lat lon z F false h = (.ok g, h')) :
    ∃ o, h'.geos[g.id]? = some o ∧ o.latitude.base = lat.base ∧ o.longitude.base = lon.base ∧ o.z.base = z.base ∧
      h'.arrays = h.arrays := by
  unfold Mem.GeoPoint at e
  change (Mem.lift (ND.bshape lat.shape lon.shape) >>= _) h = _ at e
  cases e1 : ND.bshape lat.shape lon.shape with
  | error x => rw [e1] at e; cases e
  | ok s =>
    rw [e1] at e
    change (Mem.lift (ND.bshape s z.shape) >>= _) h = _ at e
    cases e2 : ND.bshape s z.shape with
    | error x => rw [e2] at e; cases e
    | ok t =>
      rw [e2] at e
      change (Except.ok _, _) = _ at e
      cases e
      exact ⟨⟨lat.broadcastTo t, lon.broadcastTo t, z.broadcastTo t, F⟩, by simp, rfl, rfl, rfl, rfl⟩

/-- the hypotheses hold -/
example (A z : Arr α) (F : FrameE α) : (∃ r h', Mem.nvec_neg ⟨0⟩ (example_heap A z F) = (.ok r, h')) ∧
    (⟨0, A.shape, id⟩ : ARef).base < (example_heap A z F).arrays.length ∧
    (∃ g h', Mem.GeoPoint ⟨1, [2], id⟩ ⟨1, [2], id⟩ ⟨1, [2], id⟩ F true (example_heap A ⟨[2], z.get⟩ F) = (.ok g, h')) :=
  ⟨⟨_, _, rfl⟩, Nat.zero_lt_succ _, _, _, rfl⟩

end Nv.Mem
