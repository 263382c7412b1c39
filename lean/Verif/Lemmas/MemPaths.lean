import Verif.Lemmas.MemObjects

/-!
# The geodesic methods and `GeoPath` on the memory: they return the values of `Verif.ND`
-/

namespace Nv.Mem
open Nv.ND (Arr)
variable {α : Type} [PyFloat α]
open PyFloat
variable {h : Heap α}

theorem Refines.displace_ellipsoid (G : Geodesic α) {r : GRef} {p : ND.GeoPoint α} {d z : ARef} {D Z : Arr α}
    (e : val h r = some p) (ed : val h d = some D) (ez : val h z = some Z) (long_unroll degrees : Bool) :
    Refines h (Mem.displace_ellipsoid G r d z long_unroll degrees) (p.displace_ellipsoid G D Z long_unroll degrees) := by
  refine .getGeo e fun o a => .read ez (.read a.latitude (.read a.longitude (.read ed (.read a.z ?_))))
  unfold ND.GeoPoint.displace_ellipsoid
  rw [a.frame]
  refine .lift fun x _ => ?_
  obtain ⟨x1, x2, x3⟩ := x
  refine .allocThen fun h1 t E1 et => .allocThen fun h2 u E2 eu => ?_
  refine .bind (.GeoPoint (HasVal.mono E2 et) eu (a.mono (E1.trans E2)).z _ _) fun h3 q Q E3 eq => ?_
  cases degrees
  · exact .allocThen fun h4 y E4 ey => .pure (val_pair (HasVal.mono E4 eq) ey)
  · exact .allocThen fun h4 y E4 ey => .pure (val_pair (HasVal.mono E4 eq) ey)

theorem Refines.displace_great_circle {r : GRef} {p : ND.GeoPoint α} {d z : ARef} {D Z : Arr α}
    (e : val h r = some p) (ed : val h d = some D) (ez : val h z = some Z) (degrees : Bool) :
    Refines h (Mem.displace_great_circle r d z degrees) (p.displace_great_circle D Z degrees) := by
  refine .bind (.geo_to_nvector e) fun h1 n N E1 en => .bind (.nvec_to_ecef_vector en) fun h2 c C E2 ec => ?_
  refine .bind (.ecef_length ec) fun h3 l L E3 el => .read el (.read (HasVal.mono ((E1.trans E2).trans E3) ed) ?_)
  refine .bind .allocE fun h4 t T E4 et => ?_
  have E14 := ((E1.trans E2).trans E3).trans E4
  refine .read (HasVal.mono E14 ez) (.allocThen fun h5 u E5 eu => ?_)
  refine .getNvec (HasVal.mono (((E2.trans E3).trans E4).trans E5) en) fun o a => ?_
  refine .bind (.n_EA_E_distance_and_azimuth2n_EB_E a.normal (HasVal.mono E5 et) eu _) fun h6 b B E6 eb => ?_
  have E16 := (E14.trans E5).trans E6
  refine .getGeo (HasVal.mono E16 e) fun o' a' => ?_
  refine .then (.newNvec (p := ⟨B, p.z, p.frame⟩) ⟨eb, a'.z, a'.frame⟩) fun h7 m E7 em => ?_
  refine .bind (.nvec_to_geo_point em) fun h8 q Q E8 eq => ?_
  have E28 := (((((E3.trans E4).trans E5).trans E6).trans E7).trans E8)
  refine .bind (.delta_N (val_geo eq) (val_ecef (HasVal.mono E28 ec))) fun h9 v V E9 ev => ?_
  refine .pvecData ev (.lift fun A _ => ?_)
  cases degrees
  · exact .allocThen fun h4 y E4 ey => .pure (val_pair (HasVal.mono (E9.trans E4) eq) ey)
  · exact .allocThen fun h4 y E4 ey => .pure (val_pair (HasVal.mono (E9.trans E4) eq) ey)

theorem Refines.displace (G : Geodesic α) {r : GRef} {p : ND.GeoPoint α} {d z : ARef} {D Z : Arr α}
    (e : val h r = some p) (ed : val h d = some D) (ez : val h z = some Z) (long_unroll degrees : Bool) (method : String) :
    Refines h (Mem.displace G r d z long_unroll degrees method) (p.displace G D Z long_unroll degrees method) := by
  unfold Mem.displace ND.GeoPoint.displace
  split
  · exact .displace_ellipsoid G e ed ez _ _
  · exact .displace_great_circle e ed ez _

theorem Refines.alloc3 {x : Arr α × Arr α × Arr α} : Refines h (Mem.alloc3 x) (.ok x) :=
  .allocThen fun _ _ _ e1 => .allocThen fun _ _ E2 e2 => .allocThen fun _ _ E3 e3 =>
    .pure (val_pair (HasVal.mono E3 (HasVal.mono E2 e1)) (val_pair (HasVal.mono E3 e2) e3))

theorem Refines.distance_and_azimuth_ellipsoid (G : Geodesic α) {r : GRef} {p : ND.GeoPoint α} {q : PosRef} {Q : ND.Position α}
    (e : val h r = some p) (eq : val h q = some Q) (long_unroll degrees : Bool) :
    Refines h (Mem.distance_and_azimuth_ellipsoid G r q long_unroll degrees)
      (p.distance_and_azimuth_ellipsoid G Q long_unroll degrees) := by
  refine .bind (.to_geo_point eq) fun h1 g g' E1 eg => .getGeo (HasVal.mono E1 e) fun o a => .getGeo eg fun o' a' => ?_
  refine .read a.z (.read a'.z (.lift fun z _ => .read a.latitude (.read a.longitude (.read a'.latitude (.read a'.longitude ?_)))))
  rw [a.frame]
  exact .congr (bind_pure _).symm (.lift fun x _ => .alloc3)

theorem Refines.distance_and_azimuth_greatcircle {r : GRef} {p : ND.GeoPoint α} {q : PosRef} {Q : ND.Position α}
    (e : val h r = some p) (eq : val h q = some Q) (degrees : Bool) :
    Refines h (Mem.distance_and_azimuth_greatcircle r q degrees) (p.distance_and_azimuth_greatcircle Q degrees) := by
  refine .bind (.geo_to_nvector e) fun h1 na NA E1 ena => .bind (.to_nvector (HasVal.mono E1 eq)) fun h2 nb NB E2 enb => ?_
  refine .bind (.nvec_to_ecef_vector (HasVal.mono E2 ena)) fun h3 ca CA E3 eca => ?_
  refine .bind (.nvec_to_ecef_vector (HasVal.mono E3 enb)) fun h4 cb CB E4 ecb => ?_
  refine .bind (.ecef_length (HasVal.mono E4 eca)) fun h5 la LA E5 ela => .read ela ?_
  refine .bind (.ecef_length (HasVal.mono E5 ecb)) fun h6 lb LB E6 elb => .read elb (.lift fun R _ => ?_)
  have E36 := (E4.trans E5).trans E6
  refine .getNvec (HasVal.mono (E2.trans (E3.trans E36)) ena) fun o a => ?_
  refine .getNvec (HasVal.mono (E3.trans E36) enb) fun o' a' => .read a.normal (.read a'.normal (.lift fun D _ => ?_))
  have eca' := HasVal.mono E36 eca
  have ecb' := HasVal.mono (E5.trans E6) ecb
  refine .bind (.delta_N (val_ecef eca') (val_ecef ecb')) fun h7 d1 D1 E7 ed1 => ?_
  refine .bind (.pvec_azimuth ed1) fun h8 z1 Z1 E8 ez1 => .read ez1 ?_
  have E68 := E7.trans E8
  refine .bind (.delta_N (val_ecef (HasVal.mono E68 ecb')) (val_ecef (HasVal.mono E68 eca'))) fun h9 d2 D2 E9 ed2 => ?_
  refine .bind (.pvec_azimuth ed2) fun h10 z2 Z2 E10 ez2 => .read ez2 ?_
  dsimp only
  by_cases hr : (R.map (lit 0.5 * ·)).shape = []
  · rw [if_pos hr, if_pos hr]
    exact .lift fun x _ => .alloc3
  · rw [if_neg hr, if_neg hr]
    exact .alloc3

theorem Refines.distance_and_azimuth (G : Geodesic α) {r : GRef} {p : ND.GeoPoint α} {q : PosRef} {Q : ND.Position α}
    (e : val h r = some p) (eq : val h q = some Q) (long_unroll degrees : Bool) (method : String) :
    Refines h (Mem.distance_and_azimuth G r q long_unroll degrees method)
      (p.distance_and_azimuth G Q long_unroll degrees method) := by
  refine .getGeo e fun o a => ?_
  unfold ND.GeoPoint.distance_and_azimuth
  rw [a.frame]
  have fin : Refines h (match method.toList with
      | [] => Mem.throw .IndexError
      | c :: _ => if c = 'e' then Mem.distance_and_azimuth_ellipsoid G r q long_unroll degrees
        else Mem.distance_and_azimuth_greatcircle r q degrees) (match method.toList with
      | [] => .error .IndexError
      | c :: _ => if c = 'e' then p.distance_and_azimuth_ellipsoid G Q long_unroll degrees
        else p.distance_and_azimuth_greatcircle Q degrees) := by
    cases method.toList with
    | nil => exact Refines.throw
    | cons c t =>
      dsimp only
      split
      · exact .distance_and_azimuth_ellipsoid G e eq _ _
      · exact .distance_and_azimuth_greatcircle e eq _
  obtain ⟨g, q', rfl, rfl, eg⟩ | ⟨g, q', rfl, rfl, eg⟩ | ⟨g, q', rfl, rfl, eg⟩ | ⟨g, q', rfl, rfl, eg⟩ := pos_cases eq
  · obtain ⟨o', eo', a'⟩ := geo_attr eg
    have e1 : check_frames_pos p.frame (.geo g) h = (check_frames p.frame q'.frame, h) := by
      unfold check_frames_pos
      dsimp only
      rw [bind_ok (show Mem.getGeo g h = (.ok o', h) by unfold Mem.getGeo; rw [look_run, eo']; rfl), a'.frame]
      rfl
    change Refines h _ (check_frames p.frame q'.frame >>= _)
    cases hc : check_frames p.frame q'.frame with
    | error x =>
      unfold Refines
      rw [bind_error (show check_frames_pos p.frame (.geo g) h = (.error x, h) by rw [e1, hc])]
      exact ⟨Ext.refl h, rfl⟩
    | ok _ => exact Refines.step (by rw [e1, hc]) fin
  · obtain ⟨o', eo', a'⟩ := nvec_attr eg
    have e1 : check_frames_pos p.frame (.nvec g) h = (check_frames p.frame q'.frame, h) := by
      unfold check_frames_pos
      dsimp only
      rw [bind_ok (show Mem.getNvec g h = (.ok o', h) by unfold Mem.getNvec; rw [look_run, eo']; rfl), a'.frame]
      rfl
    change Refines h _ (check_frames p.frame q'.frame >>= _)
    cases hc : check_frames p.frame q'.frame with
    | error x =>
      unfold Refines
      rw [bind_error (show check_frames_pos p.frame (.nvec g) h = (.error x, h) by rw [e1, hc])]
      exact ⟨Ext.refl h, rfl⟩
    | ok _ => exact Refines.step (by rw [e1, hc]) fin
  · obtain ⟨o', eo', a'⟩ := ecef_attr eg
    have e1 : check_frames_pos p.frame (.ecef g) h = (check_frames p.frame q'.frame, h) := by
      unfold check_frames_pos
      dsimp only
      rw [bind_ok (show Mem.getEcef g h = (.ok o', h) by unfold Mem.getEcef; rw [look_run, eo']; rfl), a'.frame]
      rfl
    change Refines h _ (check_frames p.frame q'.frame >>= _)
    cases hc : check_frames p.frame q'.frame with
    | error x =>
      unfold Refines
      rw [bind_error (show check_frames_pos p.frame (.ecef g) h = (.error x, h) by rw [e1, hc])]
      exact ⟨Ext.refl h, rfl⟩
    | ok _ => exact Refines.step (by rw [e1, hc]) fin
  · exact ⟨Ext.refl h, rfl⟩

/-! ## GeoPath -/

theorem Refines.nvectors {P : PathRef} {p : ND.GeoPath α} (e : val h P = some p) :
    Refines h (Mem.nvectors P) (do
      let a ← p.point_a.to_nvector
      let b ← p.point_b.to_nvector
      Pure.pure (a, b)) :=
  .getPath e fun _ a => .bind (.to_nvector a.point_a) fun _ _ _ E1 e1 => .bind (.to_nvector (a.mono E1).point_b)
    fun _ _ _ E2 e2 => .pure (val_pair (HasVal.mono E2 e1) e2)

theorem Refines.geo_points {P : PathRef} {p : ND.GeoPath α} (e : val h P = some p) :
    Refines h (Mem.geo_points P) (do
      let a ← p.point_a.to_geo_point
      let b ← p.point_b.to_geo_point
      Pure.pure (a, b)) :=
  .getPath e fun _ a => .bind (.to_geo_point a.point_a) fun _ _ _ E1 e1 => .bind (.to_geo_point (a.mono E1).point_b)
    fun _ _ _ E2 e2 => .pure (val_pair (HasVal.mono E2 e1) e2)

theorem Refines.ecef_vectors {P : PathRef} {p : ND.GeoPath α} (e : val h P = some p) :
    Refines h (Mem.ecef_vectors P) (do
      let a ← p.point_a.to_ecef_vector
      let b ← p.point_b.to_ecef_vector
      Pure.pure (a, b)) :=
  .getPath e fun _ a => .bind (.to_ecef_vector a.point_a) fun _ _ _ E1 e1 => .bind (.to_ecef_vector (a.mono E1).point_b)
    fun _ _ _ E2 e2 => .pure (val_pair (HasVal.mono E2 e1) e2)

section
variable {ρ γ : Type} [HasVal α ρ γ]

/-- `nvectors`, then the rest -/
theorem Refines.nvectorsThen {P : PathRef} {p : ND.GeoPath α} (e : val h P = some p) {f : NRef × NRef → M α ρ}
    {g : ND.Nvector α → ND.Nvector α → Except PyErr γ}
    (k : ∀ h' a b A B, Ext h h' → val h' a = some A → val h' b = some B → Refines h' (f (a, b)) (g A B)) :
    Refines h (Mem.nvectors P >>= f) (do
      let a ← p.point_a.to_nvector
      let b ← p.point_b.to_nvector
      g a b) := by
  refine .congr (s' := (do
      let a ← p.point_a.to_nvector
      let b ← p.point_b.to_nvector
      Pure.pure (a, b)) >>= fun x => g x.1 x.2) (by simp only [bind_assoc, pure_bind]) ?_
  exact .bind (.nvectors e) fun h1 x X E1 ex => k h1 x.1 x.2 X.1 X.2 E1 (val_fst ex) (val_snd ex)

/-- `geo_points`, then the rest -/
theorem Refines.geo_pointsThen {P : PathRef} {p : ND.GeoPath α} (e : val h P = some p) {f : GRef × GRef → M α ρ}
    {g : ND.GeoPoint α → ND.GeoPoint α → Except PyErr γ}
    (k : ∀ h' a b A B, Ext h h' → val h' a = some A → val h' b = some B → Refines h' (f (a, b)) (g A B)) :
    Refines h (Mem.geo_points P >>= f) (do
      let a ← p.point_a.to_geo_point
      let b ← p.point_b.to_geo_point
      g a b) := by
  refine .congr (s' := (do
      let a ← p.point_a.to_geo_point
      let b ← p.point_b.to_geo_point
      Pure.pure (a, b)) >>= fun x => g x.1 x.2) (by simp only [bind_assoc, pure_bind]) ?_
  exact .bind (.geo_points e) fun h1 x X E1 ex => k h1 x.1 x.2 X.1 X.2 E1 (val_fst ex) (val_snd ex)

end

theorem Refines.average_radius {P : PathRef} {p : ND.GeoPath α} (e : val h P = some p) :
    Refines h (Mem.average_radius P) p.average_radius := by
  unfold ND.GeoPath.average_radius
  refine .congr (s' := (do
      let a ← p.point_a.to_ecef_vector
      let b ← p.point_b.to_ecef_vector
      Pure.pure (a, b)) >>= fun x => do
      Pure.pure ((← ND.map2 (· + ·) (← ND.length x.1.pvector x.1.scalar) (← ND.length x.2.pvector x.2.scalar)).map (· / lit 2)))
      (by simp only [bind_assoc, pure_bind]) ?_
  refine .bind (.ecef_vectors e) fun h1 x X E1 ex => ?_
  have e1 := val_fst ex
  have e2 := val_snd ex
  exact .bind (.ecef_length e1) fun h2 l L E2 el => .read el (.bind (.ecef_length (HasVal.mono E2 e2)) fun h3 m M E3 em =>
    .read em .allocE)

theorem Refines.radiusOr {P : PathRef} {p : ND.GeoPath α} (e : val h P = some p) {r : Option ARef} {R : Option (Arr α)}
    (er : optVal h r = some R) : Refines h (Mem.radiusOr P r) (p.radiusOr R) := by
  cases r with
  | none => cases er; exact .average_radius e
  | some r =>
    simp only [optVal, Option.map_eq_some_iff] at er
    obtain ⟨A, ea, rfl⟩ := er
    exact .pure ea

omit [PyFloat α] in
theorem Refines.firstIf {r : ARef} {A : Arr α} (e : val h r = some A) (c : Bool) :
    Refines h (Mem.firstIf c r) (if c then A.row 0 else Pure.pure A) := by
  unfold Mem.firstIf
  split
  · exact .row e 0
  · exact .pure e

theorem Refines.path_cross_track_distance {P : PathRef} {p : ND.GeoPath α} (e : val h P = some p) {q : PosRef}
    {Q : ND.Position α} (eq : val h q = some Q) (method : String) {r : Option ARef} {R : Option (Arr α)}
    (er : optVal h r = some R) :
    Refines h (Mem.path_cross_track_distance P q method r) (p.cross_track_distance Q method R) := by
  refine .bind (.radiusOr e er) fun h1 t T E1 et => .nvectorsThen (HasVal.mono E1 e) fun h2 a b A B E2 ea eb => ?_
  refine .bind (.to_nvector (HasVal.mono (E1.trans E2) eq)) fun h3 c C E3 ec => ?_
  refine .getNvec (HasVal.mono E3 ea) fun oa aa => .getNvec (HasVal.mono E3 eb) fun ob ab => .getNvec ec fun oc ac => ?_
  refine .bind (.cross_track_distance aa.normal ab.normal ac.normal (HasVal.mono (E2.trans E3) et) _) fun h4 d D E4 ed => ?_
  have := Refines.firstIf ed (decide (t.shape = [] ∧ ND.prod d.shape = 1))
  rw [← val_shape et, ← val_shape ed] at this
  refine .congr ?_ (by rw [← val_shape et, ← val_shape ed]; exact this)
  simp only [decide_eq_true_eq]

theorem Refines.track_distance (G : Geodesic α) {P : PathRef} {p : ND.GeoPath α} (e : val h P = some p) (method : String)
    {r : Option ARef} {R : Option (Arr α)} (er : optVal h r = some R) :
    Refines h (Mem.track_distance G P method r) (p.track_distance G method R) := by
  unfold Mem.track_distance ND.GeoPath.track_distance
  by_cases hm : strTake method 2 = "ex" ∨ strTake method 2 = "el"
  · rw [if_pos hm, if_pos hm]
    refine .geo_pointsThen e fun h1 a b A B E1 ea eb => ?_
    exact .bind (.distance_and_azimuth G ea (val_geo eb) _ _ _) fun h2 x X E2 ex => .pure (val_fst ex)
  · rw [if_neg hm, if_neg hm]
    refine .bind (.radiusOr e er) fun h1 t T E1 et => .nvectorsThen (HasVal.mono E1 e) fun h2 a b A B E2 ea eb => ?_
    refine .getNvec ea fun oa aa => .getNvec eb fun ob ab => ?_
    have fin : ∀ h' d D, Ext h2 h' → val h' d = some D →
        Refines h' (Mem.firstIf (decide (t.shape = [])) d) (if T.shape = [] then D.row 0 else Pure.pure D) := by
      intro h' d D E ed
      have := Refines.firstIf ed (decide (t.shape = []))
      refine .congr ?_ this
      rw [val_shape et]
      simp only [decide_eq_true_eq]
    have et' := HasVal.mono E2 et
    dsimp only
    split
    · exact .bind (.euclidean_distance aa.normal ab.normal et') fun h' d D E ed => fin h' d D E ed
    · exact .bind (.great_circle_distance aa.normal ab.normal et') fun h' d D E ed => fin h' d D E ed

theorem Refines.path_intersect {P : PathRef} {p : ND.GeoPath α} (e : val h P = some p) {Q : PathRef} {q : ND.GeoPath α}
    (eq : val h Q = some q) : Refines h (Mem.path_intersect P Q) (p.intersect q) := by
  refine .nvectorsThen e fun h1 a1 a2 A1 A2 E1 e1 e2 => .nvectorsThen (HasVal.mono E1 eq) fun h2 b1 b2 B1 B2 E2 e3 e4 => ?_
  refine .getNvec (HasVal.mono E2 e1) fun oa1 aa1 => .getNvec (HasVal.mono E2 e2) fun oa2 aa2 => ?_
  refine .getNvec e3 fun ob1 ab1 => .getNvec e4 fun ob2 ab2 => ?_
  refine .bind (.intersect aa1.normal aa2.normal ab1.normal ab2.normal) fun h3 c C E3 ec => ?_
  refine .read (aa1.mono E3).z (.read (aa2.mono E3).z (.read (ab1.mono E3).z (.read (ab2.mono E3).z ?_)))
  refine .congr (s' := (do Pure.pure ((← ND.map2 (· + ·) (← ND.map2 (· + ·) (← ND.map2 (· + ·) A1.z A2.z) B1.z) B2.z).map (· / lit 4))) >>=
    fun depth => ND.GeoPath.frameOf p.point_a >>= fun frame => Pure.pure (⟨C, depth, frame⟩ : ND.Nvector α))
    (by simp only [bind_assoc, pure_bind]) ?_
  refine .bind .allocE fun h4 z Z E4 ez => ?_
  have E14 := ((E1.trans E2).trans E3).trans E4
  refine .getPath (HasVal.mono E14 e) fun o a => ?_
  have ec' := HasVal.mono E4 ec
  obtain ⟨g, q', h1', h2', eg⟩ | ⟨g, q', h1', h2', eg⟩ | ⟨g, q', h1', h2', eg⟩ | ⟨g, q', h1', h2', eg⟩ := pos_cases a.point_a
  · rw [h1', h2']
    obtain ⟨o', eo', a'⟩ := geo_attr eg
    refine .step (b := o'.frame) ?_ (.newNvec ⟨ec', ez, a'.frame⟩)
    unfold Mem.frameOf
    dsimp only
    rw [bind_ok (show Mem.getGeo g h4 = (.ok o', h4) by unfold Mem.getGeo; rw [look_run, eo']; rfl)]
    rfl
  · rw [h1', h2']
    obtain ⟨o', eo', a'⟩ := nvec_attr eg
    refine .step (b := o'.frame) ?_ (.newNvec ⟨ec', ez, a'.frame⟩)
    unfold Mem.frameOf
    dsimp only
    rw [bind_ok (show Mem.getNvec g h4 = (.ok o', h4) by unfold Mem.getNvec; rw [look_run, eo']; rfl)]
    rfl
  · rw [h1', h2']
    obtain ⟨o', eo', a'⟩ := ecef_attr eg
    refine .step (b := o'.frame) ?_ (.newNvec ⟨ec', ez, a'.frame⟩)
    unfold Mem.frameOf
    dsimp only
    rw [bind_ok (show Mem.getEcef g h4 = (.ok o', h4) by unfold Mem.getEcef; rw [look_run, eo']; rfl)]
    rfl
  · rw [h1', h2']
    exact ⟨Ext.refl _, rfl⟩

theorem Refines.on_ellipsoid_path (G : Geodesic α) {P : PathRef} {p : ND.GeoPath α} (e : val h P = some p) {q : PosRef}
    {Q : ND.Position α} (eq : val h q = some Q) (rtol atol : α) :
    Refines h (Mem.on_ellipsoid_path G P q rtol atol) (p.on_ellipsoid_path G Q rtol atol) := by
  refine .geo_pointsThen e fun h1 a b A B E1 ea eb => .bind (.to_geo_point (HasVal.mono E1 eq)) fun h2 c C E2 ec => ?_
  have ea' := HasVal.mono E2 ea
  have eb' := HasVal.mono E2 eb
  refine .getGeo ea' fun oa aa => .getGeo eb' fun ob ab => .getGeo ec fun oc ac => ?_
  refine .read aa.z (.read ab.z (.read ac.z (.lift fun z _ => ?_)))
  refine .bind (.distance_and_azimuth G ea' (val_geo eb') _ _ _) fun h3 x X E3 ex => ?_
  refine .bind (.distance_and_azimuth G (HasVal.mono E3 ea') (val_geo (HasVal.mono E3 ec)) _ _ _) fun h4 y Y E4 ey => ?_
  have ex' := HasVal.mono E4 ex
  refine .read (val_fst ex') (.read (val_fst (val_snd ex')) (.read (val_fst ey) (.read (val_fst (val_snd ey)) ?_)))
  exact .liftB

theorem Refines.path_on_great_circle {P : PathRef} {p : ND.GeoPath α} (e : val h P = some p) {q : PosRef}
    {Q : ND.Position α} (eq : val h q = some Q) (atol : α) :
    Refines h (Mem.path_on_great_circle P q atol) (p.on_great_circle Q atol) :=
  .bind (.path_cross_track_distance e eq _ (r := none) (R := none) rfl) fun _ _ _ _ et => .read et (.pure rfl)

theorem Refines.path_on_great_circle_path {P : PathRef} {p : ND.GeoPath α} (e : val h P = some p) {q : PosRef}
    {Q : ND.Position α} (eq : val h q = some Q) {r : Option ARef} {R : Option (Arr α)}
    (er : optVal h r = some R) (rtol atol : α) :
    Refines h (Mem.path_on_great_circle_path P q r rtol atol) (p.on_great_circle_path Q R rtol atol) := by
  refine .bind (.radiusOr e er) fun h1 t T E1 et => .nvectorsThen (HasVal.mono E1 e) fun h2 a b A B E2 ea eb => ?_
  refine .bind (.to_nvector (HasVal.mono (E1.trans E2) eq)) fun h3 c C E3 ec => ?_
  refine .getNvec (HasVal.mono E3 ea) fun oa aa => .getNvec (HasVal.mono E3 eb) fun ob ab => .getNvec ec fun oc ac => ?_
  refine .read aa.z (.read ab.z (.read ac.z (.lift fun z _ => .lift fun s _ => ?_)))
  refine .bind (.on_great_circle_path aa.normal ab.normal ac.normal (HasVal.mono (E2.trans E3) et) _) fun h4 g G' E4 eg => ?_
  cases eg
  refine .lift fun x _ => ?_
  rw [val_shape et]
  split
  · exact .liftB
  · exact .pure rfl

theorem Refines.on_path (G : Geodesic α) {P : PathRef} {p : ND.GeoPath α} (e : val h P = some p) {q : PosRef}
    {Q : ND.Position α} (eq : val h q = some Q) (method : String) (rtol atol : α) :
    Refines h (Mem.on_path G P q method rtol atol) (p.on_path G Q method rtol atol) := by
  unfold Mem.on_path ND.GeoPath.on_path
  split
  · exact .on_ellipsoid_path G e eq _ _
  · exact .path_on_great_circle_path e eq (r := none) (R := none) rfl _ _

theorem Refines.closest_nvector {P : PathRef} {p : ND.GeoPath α} (e : val h P = some p) {q : PosRef}
    {Q : ND.Position α} (eq : val h q = some Q) : Refines h (Mem.closest_nvector P q) (p.closest_nvector Q) := by
  refine .bind (.to_nvector eq) fun h1 c C E1 ec => .nvectorsThen (HasVal.mono E1 e) fun h2 a b A B E2 ea eb => ?_
  refine .getNvec ea fun oa aa => .getNvec eb fun ob ab => .read aa.z (.read ab.z ?_)
  refine .congr (s' := (do Pure.pure ((← ND.map2 (· + ·) A.z B.z).map (· * lit 0.5))) >>= fun z =>
    ND.closest_point_on_great_circle A.normal B.normal C.normal >>= fun n => Pure.pure (⟨n, z, C.frame⟩ : ND.Nvector α))
    (by simp only [bind_assoc, pure_bind]) ?_
  refine .bind .allocE fun h3 z Z E3 ez => .getNvec (HasVal.mono (E2.trans E3) ec) fun oc ac => ?_
  refine .bind (.closest_point_on_great_circle (aa.mono E3).normal (ab.mono E3).normal ac.normal) fun h4 n N E4 en => ?_
  exact .newNvec ⟨en, HasVal.mono E4 ez, ac.frame⟩

theorem Refines.path_closest_point_on_great_circle {P : PathRef} {p : ND.GeoPath α} (e : val h P = some p) {q : PosRef}
    {Q : ND.Position α} (eq : val h q = some Q) :
    Refines h (Mem.path_closest_point_on_great_circle P q) (p.closest_point_on_great_circle Q) :=
  .bind (.closest_nvector e eq) fun _ _ _ _ e => .nvec_to_geo_point e

theorem Refines.closest_point_on_path {P : PathRef} {p : ND.GeoPath α} (e : val h P = some p) {q : PosRef}
    {Q : ND.Position α} (eq : val h q = some Q) : Refines h (Mem.closest_point_on_path P q) (p.closest_point_on_path Q) := by
  refine .bind (.closest_nvector e eq) fun h1 c C E1 ec => ?_
  refine .bind (.path_on_great_circle_path (HasVal.mono E1 e) (val_nvec ec) (r := none) (R := none) rfl _ _) fun h2 o O E2 eo => ?_
  cases eo
  refine .lift fun b _ => ?_
  cases b
  · rw [if_neg Bool.false_ne_true, if_neg Bool.false_ne_true]
    have E02 := E1.trans E2
    refine .bind (.to_nvector (HasVal.mono E02 eq)) fun h3 n0 N0 E3 e0 => .getNvec e0 fun o0 a0 => ?_
    refine .congr (s' := (do
      let a ← p.point_a.to_nvector
      let b ← p.point_b.to_nvector
      (fun (a b : ND.Nvector α) => (do
        let radius ← p.average_radius
        let d1 ← ND.great_circle_distanceA a.normal N0.normal radius
        let d2 ← ND.great_circle_distanceA b.normal N0.normal radius
        if ← (do ND.truth (← ND.map2 lt d1 d2)) then p.point_a.to_geo_point else p.point_b.to_geo_point :
          Except PyErr (ND.GeoPoint α))) a b)) (by simp only [bind_assoc]) ?_
    refine .nvectorsThen (HasVal.mono (E02.trans E3) e) fun h4 a b A B E4 ea eb => ?_
    refine .getNvec ea fun oa aa => .getNvec eb fun ob ab => ?_
    refine .bind (.average_radius (HasVal.mono ((E02.trans E3).trans E4) e)) fun h5 r R E5 er => ?_
    have a0' := a0.mono (E4.trans E5)
    refine .bind (.great_circle_distance (aa.mono E5).normal a0'.normal er) fun h6 d1 D1 E6 ed1 => .read ed1 ?_
    refine .bind (.great_circle_distance (ab.mono (E5.trans E6)).normal (a0'.mono E6).normal (HasVal.mono E6 er))
      fun h7 d2 D2 E7 ed2 => .read ed2 ?_
    have E07 := ((((E02.trans E3).trans E4).trans E5).trans E6).trans E7
    refine .getPath (HasVal.mono E07 e) fun o a => .lift fun x _ => ?_
    split
    · exact .to_geo_point a.point_a
    · exact .to_geo_point a.point_b
  · exact .nvec_to_geo_point (HasVal.mono E2 ec)

end Nv.Mem
