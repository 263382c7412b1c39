import Verif.Lemmas.MemCore

/-!
# The methods of objects.py on the memory: they return objects with the values of `Verif.ND`
-/

namespace Nv.Mem
open Nv.ND (Arr)
variable {α : Type} [PyFloat α]
open PyFloat
variable {h : Heap α}

theorem Refines.GeoPoint {lat lon z : ARef} {A B Z : Arr α} (ea : val h lat = some A) (eb : val h lon = some B)
    (ez : val h z = some Z) (F : FrameE α) (degrees : Bool) :
    Refines h (Mem.GeoPoint lat lon z F degrees) (ND.GeoPoint.new A B Z F degrees) := by
  have main : ∀ {h : Heap α} {lat lon z : ARef} {A B Z : Arr α}, val h lat = some A → val h lon = some B → val h z = some Z →
      Refines h (do
        let s ← Mem.lift (ND.bshape lat.shape lon.shape)
        let s ← Mem.lift (ND.bshape s z.shape)
        Mem.newGeo ⟨lat.broadcastTo s, lon.broadcastTo s, z.broadcastTo s, F⟩) (do
        let s ← ND.bshape A.shape B.shape
        let s ← ND.bshape s Z.shape
        Pure.pure (⟨A.broadcastTo s, B.broadcastTo s, Z.broadcastTo s, F⟩ : ND.GeoPoint α)) := by
    intro h lat lon z A B Z ea eb ez
    rw [val_shape ea, val_shape eb, val_shape ez]
    exact .lift fun s _ => .lift fun s _ => .newGeo ⟨val_broadcastTo ea s, val_broadcastTo eb s, val_broadcastTo ez s, rfl⟩
  cases degrees
  · exact main ea eb ez
  · refine .read ea (.allocThen fun h1 t E1 et => .read (HasVal.mono E1 eb) (.allocThen fun h2 u E2 eu => ?_))
    exact main (HasVal.mono E2 et) eu (HasVal.mono E2 (HasVal.mono E1 ez))

theorem Refines.geo_to_nvector {r : GRef} {p : ND.GeoPoint α} (e : val h r = some p) :
    Refines h (Mem.geo_to_nvector r) p.to_nvector := by
  refine .getGeo e fun o a => ?_
  unfold ND.GeoPoint.to_nvector
  rw [a.frame]
  exact .bind (.lat_lon2n_E a.latitude a.longitude _) fun h1 t T E1 et => .newNvec ⟨et, HasVal.mono E1 a.z, rfl⟩

omit [PyFloat α] in
theorem isScalar_run {o : NvecObj α} {p : ND.Nvector α} (a : NvecAttr h o p) : isScalar o h = (p.isScalar, h) := by
  unfold isScalar
  rw [bind_ok (readA_eq a.normal), bind_ok (readA_eq a.z), a.frame]
  rfl

omit [PyFloat α] in
theorem Refines.isScalar {ρ γ : Type} [HasVal α ρ γ] {o : NvecObj α} {p : ND.Nvector α} (a : NvecAttr h o p)
    {f : Bool → M α ρ} {g : Bool → Except PyErr γ} (k : ∀ b, Refines h (f b) (g b)) :
    Refines h (Mem.isScalar o >>= f) (p.isScalar >>= g) := by
  cases e : p.isScalar with
  | error x =>
    unfold Refines
    rw [bind_error (show Mem.isScalar o h = (.error x, h) by rw [isScalar_run a, e])]
    exact ⟨Ext.refl h, rfl⟩
  | ok b => exact Refines.step (by rw [isScalar_run a, e]) (k b)

theorem Refines.nvec_to_ecef_vector {r : NRef} {p : ND.Nvector α} (e : val h r = some p) :
    Refines h (Mem.nvec_to_ecef_vector r) p.to_ecef_vector := by
  refine .getNvec e fun o a => ?_
  unfold ND.Nvector.to_ecef_vector
  rw [a.frame]
  refine .bind (.n_EB_E2p_EB_E a.normal a.z _ _ _) fun h1 t T E1 et => .isScalar (a.mono E1) fun b => ?_
  exact .newEcef ⟨et, rfl, rfl⟩

theorem Refines.nvec_to_geo_point {r : NRef} {p : ND.Nvector α} (e : val h r = some p) :
    Refines h (Mem.nvec_to_geo_point r) p.to_geo_point := by
  refine .getNvec e fun o a => ?_
  unfold ND.Nvector.to_geo_point
  rw [a.frame]
  refine .bind (.n_E2lat_lon a.normal _) fun h1 t T E1 et => ?_
  obtain ⟨t1, t2⟩ := t
  obtain ⟨T1, T2⟩ := T
  refine .isScalar (a.mono E1) fun b => ?_
  have et1 : val h1 t1 = some T1 := val_fst et
  have et2 : val h1 t2 = some T2 := val_snd et
  cases b
  · rw [if_neg Bool.false_ne_true, if_neg Bool.false_ne_true]
    exact .GeoPoint et1 et2 (a.mono E1).z _ _
  · refine .bind (.row et1 0) fun h2 u U E2 eu => .bind (.row (HasVal.mono E2 et2) 0) fun h3 v V E3 ev => ?_
    exact .GeoPoint (HasVal.mono E3 eu) ev ((a.mono E1).mono (E2.trans E3)).z _ _

theorem Refines.ecef_to_nvector {r : ERef} {p : ND.ECEFvector α} (e : val h r = some p) :
    Refines h (Mem.ecef_to_nvector r) p.to_nvector := by
  refine .getEcef e fun o a => ?_
  unfold ND.ECEFvector.to_nvector
  rw [a.frame, a.scalar]
  refine .bind (.p_EB_E2n_EB_E a.pvector _ _ _) fun h1 t T E1 et => ?_
  obtain ⟨t1, t2⟩ := t
  obtain ⟨T1, T2⟩ := T
  have et1 : val h1 t1 = some T1 := val_fst et
  have et2 : val h1 t2 = some T2 := val_snd et
  dsimp only
  split
  · exact .bind (.row et2 0) fun h2 u U E2 eu => .newNvec ⟨HasVal.mono E2 et1, eu, rfl⟩
  · exact .newNvec ⟨et1, et2, rfl⟩

theorem Refines.R_EN {r : FRef} {f : ND.LocalFrame α} (e : val h r = some f) : Refines h (Mem.R_EN r) f.R_EN := by
  refine .getFrame e fun o a => ?_
  cases a with
  | N en =>
    refine .getNvec en fun o a => ?_
    unfold ND.LocalFrame.R_EN
    rw [a.frame]
    exact .n_E2R_EN a.normal _
  | L en ew =>
    refine .getNvec en fun o a => ?_
    unfold ND.LocalFrame.R_EN
    rw [a.frame]
    exact .read a.normal (.read ew .allocE)
  | B en ey ep er =>
    unfold ND.LocalFrame.R_EN
    refine .read ey (.read ep (.read er (.lift fun R _ => .getNvec en fun o a => ?_)))
    rw [a.frame]
    exact .bind (.n_E2R_EN a.normal _) fun h1 t T E1 et => .read et .allocE

theorem Refines.pvec_to_ecef_vector {r : VRef} {p : ND.Pvector α} (e : val h r = some p) :
    Refines h (Mem.pvec_to_ecef_vector r) p.to_ecef_vector := by
  refine .getPvec e fun o a => ?_
  unfold ND.Pvector.to_ecef_vector
  rw [a.scalar]
  refine .bind (.R_EN a.frame) fun h1 t T E1 et => .read et (.read (a.mono E1).pvector ?_)
  refine .congr (s' := (do (← ND.mdot T (← p.pvector.newaxis1)).reshape 3) >>= fun q =>
    Pure.pure (⟨q, p.frame.nvector.frame, p.scalar⟩ : ND.ECEFvector α)) (by simp only [bind_assoc]) ?_
  refine .bind .allocE fun h2 u U E2 eu => .getFrame (a.mono (E1.trans E2)).frame fun f af => .getNvec af.nvector fun n an => ?_
  exact .newEcef ⟨eu, an.frame, rfl⟩

theorem Refines.change_frame {r : ERef} {p : ND.ECEFvector α} {fr : FRef} {f : ND.LocalFrame α} (e : val h r = some p)
    (ef : val h fr = some f) : Refines h (Mem.change_frame r fr) (p.change_frame f) := by
  refine .getEcef e fun o a => .getFrame ef fun fo af => .getNvec af.nvector fun n an => ?_
  unfold ND.ECEFvector.change_frame
  rw [a.frame, an.frame, a.scalar]
  refine .lift fun _ _ => .bind (.R_EN ef) fun h1 t T E1 et => .read et (.read (a.mono E1).pvector ?_)
  refine .congr (s' := (do (← ND.mdot (← ND.swapaxes01 T) (← p.pvector.newaxis1)).reshape 3) >>= fun q =>
    Pure.pure (⟨q, f, p.scalar⟩ : ND.Pvector α)) (by simp only [bind_assoc]) ?_
  refine .bind .allocE fun h2 u U E2 eu => ?_
  exact .newPvec ⟨eu, HasVal.mono (E1.trans E2) ef, rfl⟩

/-! ## Positions -/

omit [PyFloat α] in
theorem pos_cases {r : PosRef} {p : ND.Position α} (e : val h r = some p) :
    (∃ g q, r = .geo g ∧ p = .geo q ∧ val h g = some q) ∨ (∃ g q, r = .nvec g ∧ p = .nvec q ∧ val h g = some q) ∨
    (∃ g q, r = .ecef g ∧ p = .ecef q ∧ val h g = some q) ∨ (∃ g q, r = .pvec g ∧ p = .pvec q ∧ val h g = some q) := by
  change posVal h r = some p at e
  cases r <;> simp only [posVal, Option.bind_eq_bind, Option.bind_eq_some_iff, Option.pure_def] at e <;>
    obtain ⟨q, eq, e⟩ := e <;> cases e
  · exact Or.inl ⟨_, _, rfl, rfl, eq⟩
  · exact Or.inr (Or.inl ⟨_, _, rfl, rfl, eq⟩)
  · exact Or.inr (Or.inr (Or.inl ⟨_, _, rfl, rfl, eq⟩))
  · exact Or.inr (Or.inr (Or.inr ⟨_, _, rfl, rfl, eq⟩))

omit [PyFloat α] in
theorem val_geo {r : GRef} {p : ND.GeoPoint α} (e : val h r = some p) : val h (PosRef.geo r) = some (ND.Position.geo p) := by
  change posVal h _ = _
  simp only [posVal]
  rw [show geoVal h r = some p from e]
  rfl
omit [PyFloat α] in
theorem val_nvec {r : NRef} {p : ND.Nvector α} (e : val h r = some p) : val h (PosRef.nvec r) = some (ND.Position.nvec p) := by
  change posVal h _ = _
  simp only [posVal]
  rw [show nvecVal h r = some p from e]
  rfl
omit [PyFloat α] in
theorem val_ecef {r : ERef} {p : ND.ECEFvector α} (e : val h r = some p) :
    val h (PosRef.ecef r) = some (ND.Position.ecef p) := by
  change posVal h _ = _
  simp only [posVal]
  rw [show ecefVal h r = some p from e]
  rfl
omit [PyFloat α] in
theorem val_pvec {r : VRef} {p : ND.Pvector α} (e : val h r = some p) : val h (PosRef.pvec r) = some (ND.Position.pvec p) := by
  change posVal h _ = _
  simp only [posVal]
  rw [show pvecVal h r = some p from e]
  rfl

theorem Refines.to_nvector {r : PosRef} {p : ND.Position α} (e0 : val h r = some p) :
    Refines h (Mem.to_nvector r) p.to_nvector := by
  obtain ⟨g, q, rfl, rfl, e⟩ | ⟨g, q, rfl, rfl, e⟩ | ⟨g, q, rfl, rfl, e⟩ | ⟨g, q, rfl, rfl, e⟩ := pos_cases e0
  · exact .geo_to_nvector e
  · exact .pure e
  · exact .ecef_to_nvector e
  · exact .bind (.pvec_to_ecef_vector e) fun _ _ _ _ e => .ecef_to_nvector e

theorem Refines.to_ecef_vector {r : PosRef} {p : ND.Position α} (e0 : val h r = some p) :
    Refines h (Mem.to_ecef_vector r) p.to_ecef_vector := by
  obtain ⟨g, q, rfl, rfl, e⟩ | ⟨g, q, rfl, rfl, e⟩ | ⟨g, q, rfl, rfl, e⟩ | ⟨g, q, rfl, rfl, e⟩ := pos_cases e0
  · exact .bind (.geo_to_nvector e) fun _ _ _ _ e => .nvec_to_ecef_vector e
  · exact .nvec_to_ecef_vector e
  · exact .pure e
  · exact .pvec_to_ecef_vector e

theorem Refines.to_geo_point {r : PosRef} {p : ND.Position α} (e0 : val h r = some p) :
    Refines h (Mem.to_geo_point r) p.to_geo_point := by
  obtain ⟨g, q, rfl, rfl, e⟩ | ⟨g, q, rfl, rfl, e⟩ | ⟨g, q, rfl, rfl, e⟩ | ⟨g, q, rfl, rfl, e⟩ := pos_cases e0
  · exact .pure e
  · exact .nvec_to_geo_point e
  · exact .bind (.ecef_to_nvector e) fun _ _ _ _ e => .nvec_to_geo_point e
  · exact .bind (.pvec_to_ecef_vector e) fun _ _ _ _ e => .bind (.ecef_to_nvector e) fun _ _ _ _ e => .nvec_to_geo_point e

/-! ## Lengths, frames and arithmetic -/

section
variable {ρ γ : Type} [HasVal α ρ γ]

omit [PyFloat α] in
theorem Refines.ecefData {r : ERef} {p : ND.ECEFvector α} (e : val h r = some p) {f : Arr α × Bool → M α ρ} {s : Except PyErr γ}
    (k : Refines h (f (p.pvector, p.scalar)) s) : Refines h (Mem.ecefData r >>= f) s := by
  obtain ⟨o, eo, a⟩ := ecef_attr e
  refine Refines.step (b := (p.pvector, p.scalar)) ?_ k
  unfold Mem.ecefData
  rw [bind_ok (show Mem.getEcef r h = (.ok o, h) by unfold Mem.getEcef; rw [look_run, eo]; rfl), bind_ok (readA_eq a.pvector), a.scalar]
  rfl

omit [PyFloat α] in
theorem Refines.pvecData {r : VRef} {p : ND.Pvector α} (e : val h r = some p) {f : Arr α × Bool → M α ρ} {s : Except PyErr γ}
    (k : Refines h (f (p.pvector, p.scalar)) s) : Refines h (Mem.pvecData r >>= f) s := by
  obtain ⟨o, eo, a⟩ := pvec_attr e
  refine Refines.step (b := (p.pvector, p.scalar)) ?_ k
  unfold Mem.pvecData
  rw [bind_ok (show Mem.getPvec r h = (.ok o, h) by unfold Mem.getPvec; rw [look_run, eo]; rfl), bind_ok (readA_eq a.pvector), a.scalar]
  rfl

end

theorem Refines.ecef_length {r : ERef} {p : ND.ECEFvector α} (e : val h r = some p) :
    Refines h (Mem.ecef_length r) (ND.length p.pvector p.scalar) := .ecefData e .allocE
theorem Refines.pvec_length {r : VRef} {p : ND.Pvector α} (e : val h r = some p) :
    Refines h (Mem.pvec_length r) (ND.length p.pvector p.scalar) := .pvecData e .allocE
theorem Refines.pvec_azimuth {r : VRef} {p : ND.Pvector α} (e : val h r = some p) :
    Refines h (Mem.pvec_azimuth r) (ND.azimuth p.pvector p.scalar) := .pvecData e .allocE
theorem Refines.pvec_elevation {r : VRef} {p : ND.Pvector α} (e : val h r = some p) :
    Refines h (Mem.pvec_elevation r) (ND.elevation p.pvector p.scalar) := .pvecData e .allocE

omit [PyFloat α] in
/-- a new object, then the rest -/
theorem Refines.then {ρ γ ρ' γ' : Type} [HasVal α ρ γ] [HasVal α ρ' γ'] {m : M α ρ} {c : γ} {f : ρ → M α ρ'}
    {s : Except PyErr γ'} (r : Refines h m (.ok c)) (k : ∀ h' b, Ext h h' → val h' b = some c → Refines h' (f b) s) :
    Refines h (m >>= f) s := by
  obtain ⟨E, r⟩ := r
  cases e : m h with
  | mk x h' =>
  rw [e] at E r
  cases x with
  | error x => exact absurd r (by simp)
  | ok b => exact Refines.make e E (k h' b E r)

theorem Refines.FrameN {r : PosRef} {p : ND.Position α} (e : val h r = some p) : Refines h (Mem.FrameN r) (ND.FrameN p) := by
  refine .bind (.to_nvector e) fun h1 n N E1 en => .getNvec en fun o a => .allocThen fun h2 z E2 ez => ?_
  refine .then (.newNvec (p := ⟨N.normal, ND.scalar (lit 0), N.frame⟩) ⟨HasVal.mono E2 a.normal, ez, a.frame⟩) fun h3 m E3 em => ?_
  exact .newFrame (.N em)

theorem Refines.FrameL {r : PosRef} {p : ND.Position α} {w : ARef} {W : Arr α} (e : val h r = some p) (ew : val h w = some W) :
    Refines h (Mem.FrameL r w) (ND.FrameL p W) := by
  refine .bind (.to_nvector e) fun h1 n N E1 en => .getNvec en fun o a => .allocThen fun h2 z E2 ez => ?_
  refine .then (.newNvec (p := ⟨N.normal, ND.scalar (lit 0), N.frame⟩) ⟨HasVal.mono E2 a.normal, ez, a.frame⟩) fun h3 m E3 em => ?_
  exact .newFrame (.L em (HasVal.mono ((E1.trans E2).trans E3) ew))

theorem Refines.FrameB {r : PosRef} {p : ND.Position α} {y t l : ARef} {Y T L : Arr α} (e : val h r = some p)
    (ey : val h y = some Y) (et : val h t = some T) (el : val h l = some L) (degrees : Bool) :
    Refines h (Mem.FrameB r y t l degrees) (ND.FrameB p Y T L degrees) := by
  refine .bind (.to_nvector e) fun h1 n N E1 en => ?_
  cases degrees
  · exact .newFrame (.B en (HasVal.mono E1 ey) (HasVal.mono E1 et) (HasVal.mono E1 el))
  · refine .read (HasVal.mono E1 ey) (.read (HasVal.mono E1 et) (.read (HasVal.mono E1 el) ?_))
    refine .allocThen fun h2 y' E2 ey' => .allocThen fun h3 t' E3 et' => .allocThen fun h4 l' E4 el' => ?_
    exact .newFrame (.B (HasVal.mono ((E2.trans E3).trans E4) en) (HasVal.mono (E3.trans E4) ey') (HasVal.mono E4 et') el')

theorem Refines.ecef_add {s o : ERef} {S O : ND.ECEFvector α} (es : val h s = some S) (eo : val h o = some O) :
    Refines h (Mem.ecef_add s o) (S.add O) := by
  refine .getEcef es fun a ha => .getEcef eo fun b hb => ?_
  unfold ND.ECEFvector.add
  rw [ha.frame, hb.frame, ha.scalar, hb.scalar]
  exact .lift fun _ _ => .read ha.pvector (.read hb.pvector (.bind .allocE fun h1 t T E1 et => .newEcef ⟨et, rfl, rfl⟩))
theorem Refines.ecef_sub {s o : ERef} {S O : ND.ECEFvector α} (es : val h s = some S) (eo : val h o = some O) :
    Refines h (Mem.ecef_sub s o) (S.sub O) := by
  refine .getEcef es fun a ha => .getEcef eo fun b hb => ?_
  unfold ND.ECEFvector.sub
  rw [ha.frame, hb.frame, ha.scalar, hb.scalar]
  exact .lift fun _ _ => .read ha.pvector (.read hb.pvector (.bind .allocE fun h1 t T E1 et => .newEcef ⟨et, rfl, rfl⟩))
theorem Refines.ecef_neg {s : ERef} {S : ND.ECEFvector α} (es : val h s = some S) : Refines h (Mem.ecef_neg s) (.ok S.neg) :=
  .getEcef es fun _ ha => .read ha.pvector (.allocThen fun _ _ _ et => .newEcef ⟨et, ha.frame, ha.scalar⟩)

theorem Refines.nvec_add {s o : NRef} {S O : ND.Nvector α} (es : val h s = some S) (eo : val h o = some O) :
    Refines h (Mem.nvec_add s o) (S.add O) := by
  refine .getNvec es fun a ha => .getNvec eo fun b hb => ?_
  unfold ND.Nvector.add
  rw [ha.frame, hb.frame]
  refine .lift fun _ _ => .read ha.normal (.read hb.normal (.read ha.z (.read hb.z (.bind .allocE fun h1 t T E1 et => ?_))))
  exact .bind .allocE fun h2 u U E2 eu => .newNvec ⟨HasVal.mono E2 et, eu, rfl⟩
theorem Refines.nvec_sub {s o : NRef} {S O : ND.Nvector α} (es : val h s = some S) (eo : val h o = some O) :
    Refines h (Mem.nvec_sub s o) (S.sub O) := by
  refine .getNvec es fun a ha => .getNvec eo fun b hb => ?_
  unfold ND.Nvector.sub
  rw [ha.frame, hb.frame]
  refine .lift fun _ _ => .read ha.normal (.read hb.normal (.read ha.z (.read hb.z (.bind .allocE fun h1 t T E1 et => ?_))))
  exact .bind .allocE fun h2 u U E2 eu => .newNvec ⟨HasVal.mono E2 et, eu, rfl⟩
theorem Refines.nvec_neg {s : NRef} {S : ND.Nvector α} (es : val h s = some S) : Refines h (Mem.nvec_neg s) (.ok S.neg) :=
  .getNvec es fun _ ha => .read ha.normal (.read ha.z (.allocThen fun _ _ _ et => .allocThen fun _ _ E eu =>
    .newNvec ⟨HasVal.mono E et, eu, ha.frame⟩))
theorem Refines.nvec_mul {s : NRef} {c : ARef} {S : ND.Nvector α} {C : Arr α} (es : val h s = some S) (ec : val h c = some C) :
    Refines h (Mem.nvec_mul s c) (S.mul C) := by
  refine .getNvec es fun a ha => .read ha.normal (.read ha.z (.read ec (.bind .allocE fun h1 t T E1 et => ?_)))
  exact .bind .allocE fun h2 u U E2 eu => .newNvec ⟨HasVal.mono E2 et, eu, ha.frame⟩
theorem Refines.nvec_div {s : NRef} {c : ARef} {S : ND.Nvector α} {C : Arr α} (es : val h s = some S) (ec : val h c = some C) :
    Refines h (Mem.nvec_div s c) (S.div C) := by
  refine .getNvec es fun a ha => .read ha.normal (.read ha.z (.read ec (.bind .allocE fun h1 t T E1 et => ?_)))
  exact .bind .allocE fun h2 u U E2 eu => .newNvec ⟨HasVal.mono E2 et, eu, ha.frame⟩
theorem Refines.nvec_mean {s : NRef} {S : ND.Nvector α} (es : val h s = some S) : Refines h (Mem.nvec_mean s) S.mean := by
  refine .getNvec es fun a ha => .bind (.mean_horizontal_position ha.normal) fun h1 t T E1 et => .read (ha.mono E1).z ?_
  exact .allocThen fun _ _ E eu => .newNvec ⟨HasVal.mono E et, eu, ha.frame⟩

theorem Refines.delta_E {a b : PosRef} {A B : ND.Position α} (ea : val h a = some A) (eb : val h b = some B) :
    Refines h (Mem.delta_E a b) (ND.delta_E A B) :=
  .bind (.to_ecef_vector ea) fun _ _ _ E1 e1 => .bind (.to_ecef_vector (HasVal.mono E1 eb)) fun _ _ _ E2 e2 =>
    .ecef_sub e2 (HasVal.mono E2 e1)

theorem Refines.delta_N {a b : PosRef} {A B : ND.Position α} (ea : val h a = some A) (eb : val h b = some B) :
    Refines h (Mem.delta_N a b) (ND.delta_N A B) :=
  .bind (.delta_E ea eb) fun _ _ _ E1 e1 => .bind (.FrameN (HasVal.mono E1 ea)) fun _ _ _ E2 e2 =>
    .change_frame (HasVal.mono E2 e1) e2

theorem Refines.delta_L {a b : PosRef} {w : ARef} {A B : ND.Position α} {W : Arr α} (ea : val h a = some A)
    (eb : val h b = some B) (ew : val h w = some W) : Refines h (Mem.delta_L a b w) (ND.delta_L A B W) :=
  .bind (.FrameL ea ew) fun _ _ _ E1 e1 => .bind (.delta_E (HasVal.mono E1 ea) (HasVal.mono E1 eb)) fun _ _ _ E2 e2 =>
    .change_frame e2 (HasVal.mono E2 e1)

end Nv.Mem
