import Verif.Lemmas.MemAssign
import Verif.Lemmas.MemTrack

/-!
# What a history of calls leaves as it is
-/

namespace Nv.Mem
open Nv.ND (Arr)
open Nv.Spec
variable {α : Type}

/-- everything is as before, except that `Nvector` objects in `S` may have been assigned to -/
structure Same (S : NRef → Prop) (h h' : Heap α) : Prop where
  arrays : h.arrays <+: h'.arrays
  geos : h.geos <+: h'.geos
  ecefs : h.ecefs <+: h'.ecefs
  frames : h.frames <+: h'.frames
  pvecs : h.pvecs <+: h'.pvecs
  paths : h.paths <+: h'.paths
  nvecs : ∀ r : NRef, ¬ S r → ∀ o, h.nvecs[r.id]? = some o → h'.nvecs[r.id]? = some o

theorem Ext.same {h h' : Heap α} (E : Ext h h') (S : NRef → Prop) : Same S h h' :=
  ⟨E.arrays, E.geos, E.ecefs, E.frames, E.pvecs, E.paths, fun _ _ _ e => prefix_get E.nvecs e⟩

theorem Same.trans {S : NRef → Prop} {h₁ h₂ h₃ : Heap α} (a : Same S h₁ h₂) (b : Same S h₂ h₃) : Same S h₁ h₃ :=
  ⟨a.arrays.trans b.arrays, a.geos.trans b.geos, a.ecefs.trans b.ecefs, a.frames.trans b.frames,
    a.pvecs.trans b.pvecs, a.paths.trans b.paths, fun r hr o e => b.nvecs r hr o (a.nvecs r hr o e)⟩

theorem Same.mono {S T : NRef → Prop} (hST : ∀ r, S r → T r) {h₁ h₂ : Heap α} (a : Same S h₁ h₂) : Same T h₁ h₂ :=
  { a with nvecs := fun r hr => a.nvecs r fun q => hr (hST r q) }

theorem same_setNormal (h : Heap α) (s : NRef) (a : ARef) : Same (· = s) h (setNormal s a h).2 := by
  refine { (Ext.refl h).same (· = s) with nvecs := ?_ }
  intro r hr o e
  have : s.id ≠ r.id := fun q => hr (by cases r; cases s; simp_all)
  simp [setNormal, this, e]

section vals
variable {S : NRef → Prop} {h h' : Heap α} (E : Same S h h')
include E

theorem Same.arr {r : ARef} {A : Arr α} (e : arrVal h r = some A) : arrVal h' r = some A := by
  unfold arrVal at *
  cases e' : h.arrays[r.base]? with
  | none => simp [e'] at e
  | some B => rw [prefix_get E.arrays e']; rw [e'] at e; exact e

theorem Same.nvec {r : NRef} (hr : ¬ S r) {v : ND.Nvector α} (e : nvecVal h r = some v) : nvecVal h' r = some v := by
  unfold nvecVal at *
  simp only [Option.bind_eq_bind, Option.bind_eq_some_iff, Option.pure_def] at *
  obtain ⟨o, eo, a, ea, b, eb, q⟩ := e
  exact ⟨o, E.nvecs r hr o eo, a, E.arr ea, b, E.arr eb, q⟩

theorem Same.geo {r : GRef} {v : ND.GeoPoint α} (e : geoVal h r = some v) : geoVal h' r = some v := by
  unfold geoVal at *
  simp only [Option.bind_eq_bind, Option.bind_eq_some_iff, Option.pure_def] at *
  obtain ⟨o, eo, a, ea, b, eb, c, ec, r⟩ := e
  exact ⟨o, prefix_get E.geos eo, a, E.arr ea, b, E.arr eb, c, E.arr ec, r⟩

theorem Same.ecef {r : ERef} {v : ND.ECEFvector α} (e : ecefVal h r = some v) : ecefVal h' r = some v := by
  unfold ecefVal at *
  simp only [Option.bind_eq_bind, Option.bind_eq_some_iff, Option.pure_def] at *
  obtain ⟨o, eo, a, ea, r⟩ := e
  exact ⟨o, prefix_get E.ecefs eo, a, E.arr ea, r⟩

theorem Same.frame {r : FRef} (hr : ∀ n, FrameHolds h r n → ¬ S n) {v : ND.LocalFrame α} (e : frameVal h r = some v) :
    frameVal h' r = some v := by
  unfold frameVal at *
  simp only [Option.bind_eq_bind, Option.bind_eq_some_iff, Option.pure_def] at *
  obtain ⟨o, eo, e⟩ := e
  have hn := hr o.nvector ⟨o, eo, rfl⟩
  refine ⟨o, prefix_get E.frames eo, ?_⟩
  cases o <;> simp only [Option.bind_eq_some_iff] at * 
  · obtain ⟨n, en, r⟩ := e
    exact ⟨n, E.nvec hn en, r⟩
  · obtain ⟨n, en, a, ea, r⟩ := e
    exact ⟨n, E.nvec hn en, a, E.arr ea, r⟩
  · obtain ⟨n, en, a, ea, b, eb, c, ec, r⟩ := e
    exact ⟨n, E.nvec hn en, a, E.arr ea, b, E.arr eb, c, E.arr ec, r⟩

theorem Same.pvec {r : VRef} (hr : ∀ n, PosHolds h (.pvec r) n → ¬ S n) {v : ND.Pvector α} (e : pvecVal h r = some v) :
    pvecVal h' r = some v := by
  unfold pvecVal at *
  simp only [Option.bind_eq_bind, Option.bind_eq_some_iff, Option.pure_def] at *
  obtain ⟨o, eo, a, ea, b, eb, q⟩ := e
  exact ⟨o, prefix_get E.pvecs eo, a, E.arr ea, b, E.frame (fun n hn => hr n ⟨o, eo, hn⟩) eb, q⟩

theorem Same.pos {r : PosRef} (hr : ∀ n, PosHolds h r n → ¬ S n) {v : ND.Position α} (e : posVal h r = some v) :
    posVal h' r = some v := by
  cases r <;> simp only [posVal, Option.bind_eq_bind, Option.bind_eq_some_iff, Option.pure_def] at e ⊢ <;>
    obtain ⟨o, eo, q⟩ := e
  · exact ⟨o, E.geo eo, q⟩
  · exact ⟨o, E.nvec (hr _ rfl) eo, q⟩
  · exact ⟨o, E.ecef eo, q⟩
  · exact ⟨o, E.pvec hr eo, q⟩

theorem Same.path {r : PathRef} (hr : ∀ n, PathHolds h r n → ¬ S n) {v : ND.GeoPath α} (e : pathVal h r = some v) :
    pathVal h' r = some v := by
  unfold pathVal at *
  simp only [Option.bind_eq_bind, Option.bind_eq_some_iff, Option.pure_def] at *
  obtain ⟨o, eo, a, ea, b, eb, q⟩ := e
  exact ⟨o, prefix_get E.paths eo, a, E.pos (fun n hn => hr n ⟨o, eo, .inl hn⟩) ea, b,
    E.pos (fun n hn => hr n ⟨o, eo, .inr hn⟩) eb, q⟩

theorem Same.frameHolds {r : FRef} (hr : r.id < h.frames.length) (n : NRef) : FrameHolds h' r n ↔ FrameHolds h r n := by
  obtain ⟨o, eo⟩ : ∃ o, h.frames[r.id]? = some o := ⟨_, List.getElem?_eq_getElem hr⟩
  have e := prefix_get E.frames eo
  simp [FrameHolds, eo, e]

end vals

variable [PyFloat α]
open PyFloat

/-- what `n.unit()` does -/
theorem nvec_unit_run {h : Heap α} {s : NRef} {S : ND.Nvector α} (e : val h s = some S) :
    (∃ U h', ND.unit S.normal = .ok U ∧ nvec_unit s h = (.ok (), h') ∧ Same (· = s) h h' ∧
      val h' s = some { S with normal := U }) ∨
    (∃ x h', ND.unit S.normal = .error x ∧ nvec_unit s h = (.error x, h') ∧ Ext h h') := by
  obtain ⟨o, eo, ao⟩ := nvec_attr e
  unfold nvec_unit
  rw [bind_ok (show Mem.getNvec s h = (.ok o, h) by unfold Mem.getNvec; rw [look_run, eo]; rfl)]
  rcases unit_run ao.normal (lit 1 : α) with ⟨V, e1, e2⟩ | ⟨x, h', e1, e2, E⟩
  · refine Or.inl ⟨V, _, e1, (bind_ok e2).trans rfl, ?_, setNormal_val (HasVal.mono (ext_alloc h V) e) (alloc_val h V)⟩
    exact ((ext_alloc h V).same _).trans (same_setNormal _ _ _)
  · exact Or.inr ⟨x, h', e1, bind_error e2, E⟩

theorem same_nvec_unit (s : NRef) (h : Heap α) : Same (· = s) h (nvec_unit s h).2 := by
  unfold nvec_unit
  cases e1 : Mem.getNvec s h with
  | mk x h1 =>
  have hh : h1 = h := by unfold Mem.getNvec at e1; cases e1; rfl
  subst hh
  cases x with
  | error x => rw [bind_error e1]; exact (Ext.refl h1).same _
  | ok o =>
    rw [bind_ok e1]
    have E2 := Pres.unit o.normal (lit 1 : α) h1
    cases e2 : Mem.unit o.normal (lit 1 : α) h1 with
    | mk x h2 =>
    rw [e2] at E2
    cases x with
    | error x => rw [bind_error e2]; exact E2.same _
    | ok u =>
      rw [bind_ok e2]
      exact (E2.same _).trans (same_setNormal _ _ _)

theorem Call.same (c : Call α) (h : Heap α) : Same (fun n => CallsUnit n c) h (c.exec h) := by
  cases c
  case nvec_unit p => exact (same_nvec_unit p h).mono fun r hr => Eq.symm hr
  case array A => exact (Pres.alloc A h).same _
  case GeoPoint => exact (Pres.GeoPoint _ _ _ _ _ h).same _
  case Nvector => exact (Pres.Nvector _ _ _ h).same _
  case ECEFvector => exact (Pres.ECEFvector _ _ h).same _
  case Pvector => exact (Pres.Pvector _ _ h).same _
  case FrameN => exact (Pres.FrameN _ h).same _
  case FrameL => exact (Pres.FrameL _ _ h).same _
  case FrameB => exact (Pres.FrameB _ _ _ _ _ h).same _
  case R_EN => exact (Pres.R_EN _ h).same _
  case to_nvector => exact (Pres.to_nvector _ h).same _
  case to_ecef_vector => exact (Pres.to_ecef_vector _ h).same _
  case to_geo_point => exact (Pres.to_geo_point _ h).same _
  case change_frame => exact (Pres.change_frame _ _ h).same _
  case delta_E => exact (Pres.delta_E _ _ h).same _
  case delta_N => exact (Pres.delta_N _ _ h).same _
  case delta_L => exact (Pres.delta_L _ _ _ h).same _
  case ecef_length => exact (Pres.ecef_length _ h).same _
  case length => exact (Pres.pvec_length _ h).same _
  case azimuth => exact (Pres.pvec_azimuth _ h).same _
  case elevation => exact (Pres.pvec_elevation _ h).same _
  case ecef_add => exact (Pres.ecef_add _ _ h).same _
  case ecef_sub => exact (Pres.ecef_sub _ _ h).same _
  case ecef_neg => exact (Pres.ecef_neg _ h).same _
  case nvec_add => exact (Pres.nvec_add _ _ h).same _
  case nvec_sub => exact (Pres.nvec_sub _ _ h).same _
  case nvec_neg => exact (Pres.nvec_neg _ h).same _
  case nvec_mul => exact (Pres.nvec_mul _ _ h).same _
  case nvec_div => exact (Pres.nvec_div _ _ h).same _
  case nvec_mean => exact (Pres.nvec_mean _ h).same _
  case displace => exact (Pres.displace _ _ _ _ _ _ _ h).same _
  case distance_and_azimuth => exact (Pres.distance_and_azimuth _ _ _ _ _ _ h).same _
  case GeoPath => exact (Pres.GeoPath _ _ h).same _
  case nvectors => exact (Pres.nvectors _ h).same _
  case geo_points => exact (Pres.geo_points _ h).same _
  case ecef_vectors => exact (Pres.ecef_vectors _ h).same _
  case cross_track_distance => exact (Pres.path_cross_track_distance _ _ _ _ h).same _
  case track_distance => exact (Pres.track_distance _ _ _ _ h).same _
  case interpolate => exact (Pres.path_interpolate _ _ h).same _
  case intersect => exact (Pres.path_intersect _ _ h).same _
  case on_great_circle => exact (Pres.path_on_great_circle _ _ _ h).same _
  case on_path => exact (Pres.on_path _ _ _ _ _ _ h).same _
  case closest_point_on_great_circle => exact (Pres.path_closest_point_on_great_circle _ _ h).same _
  case closest_point_on_path => exact (Pres.closest_point_on_path _ _ h).same _
  case unit => exact (Pres.unit _ _ h).same _
  case lat_lon2n_E => exact (Pres.lat_lon2n_E _ _ _ h).same _
  case n_E2lat_lon => exact (Pres.n_E2lat_lon _ _ h).same _
  case n_E2R_EN => exact (Pres.n_E2R_EN _ _ h).same _
  case n_EB_E2p_EB_E => exact (Pres.n_EB_E2p_EB_E _ _ _ _ _ h).same _
  case p_EB_E2n_EB_E => exact (Pres.p_EB_E2n_EB_E _ _ _ _ h).same _
  case core_interpolate => exact (Pres.interpolate _ _ _ h).same _
  case core_intersect => exact (Pres.intersect _ _ _ _ h).same _
  case core_cross_track_distance => exact (Pres.cross_track_distance _ _ _ _ _ h).same _
  case core_on_great_circle => exact (Pres.on_great_circle _ _ _ _ _ h).same _
  case core_on_great_circle_path => exact (Pres.on_great_circle_path _ _ _ _ _ h).same _
  case core_closest_point_on_great_circle => exact (Pres.closest_point_on_great_circle _ _ _ h).same _
  case great_circle_distance => exact (Pres.great_circle_distance _ _ _ h).same _
  case euclidean_distance => exact (Pres.euclidean_distance _ _ _ h).same _
  case n_EA_E_distance_and_azimuth2n_EB_E => exact (Pres.n_EA_E_distance_and_azimuth2n_EB_E _ _ _ _ h).same _
  case mean_horizontal_position => exact (Pres.mean_horizontal_position _ h).same _
  case nvec_interpolate => exact (Pres.nvec_interpolate _ _ _ _ _ _ _ _ _ h).same _
  case interp_nvectors => exact (Pres.interp_nvectors _ _ _ _ _ _ _ _ _ h).same _

theorem execs_same (calls : List (Call α)) (h : Heap α) :
    Same (fun n => ∃ c ∈ calls, CallsUnit n c) h (execs calls h) := by
  induction calls generalizing h with
  | nil => exact (Ext.refl h).same _
  | cons c cs ih =>
    refine ((c.same h).mono ?_).trans ((ih (c.exec h)).mono ?_)
    · exact fun r hr => ⟨c, List.mem_cons_self, hr⟩
    · exact fun r ⟨d, hd, hr⟩ => ⟨d, List.mem_cons_of_mem _ hd, hr⟩

end Nv.Mem
