import Verif.Lemmas.ConcCore

/-!
# The methods of objects.py between the steps of other threads: they return objects with the values of `Verif.ND`
-/

namespace Nv.Mem
open Nv.ND (Arr)
variable {α : Type} [PyFloat α]
open PyFloat
variable {ω : World α}

theorem CRef.GeoPoint {lat lon z : ARef} {A B Z : Arr α} (ea : Stay ω lat A) (eb : Stay ω lon B)
    (ez : Stay ω z Z) (F : FrameE α) (degrees : Bool) :
    CRef ω (Mem.GeoPoint lat lon z F degrees) (ND.GeoPoint.new A B Z F degrees) := by
  have main : ∀ {ω : World α} {lat lon z : ARef} {A B Z : Arr α}, Stay ω lat A → Stay ω lon B → Stay ω z Z →
      CRef ω (do
        let s ← Mem.lift (ND.bshape lat.shape lon.shape)
        let s ← Mem.lift (ND.bshape s z.shape)
        Mem.newGeo ⟨lat.broadcastTo s, lon.broadcastTo s, z.broadcastTo s, F⟩) (do
        let s ← ND.bshape A.shape B.shape
        let s ← ND.bshape s Z.shape
        Pure.pure (⟨A.broadcastTo s, B.broadcastTo s, Z.broadcastTo s, F⟩ : ND.GeoPoint α)) := by
    intro ω lat lon z A B Z ea eb ez
    rw [Stay_shape ea, Stay_shape eb, Stay_shape ez]
    exact .lift fun s _ => .lift fun s _ => .newGeo ⟨Stay_broadcastTo ea s, Stay_broadcastTo eb s, Stay_broadcastTo ez s, rfl⟩
  cases degrees
  · exact main ea eb ez
  · refine .read ea (.allocThen fun ω1 t E1 et => .read (Stays.smono E1 eb) (.allocThen fun ω2 u E2 eu => ?_))
    exact main (Stays.smono E2 et) eu (Stays.smono E2 (Stays.smono E1 ez))

theorem CRef.geo_to_nvector {r : GRef} {p : ND.GeoPoint α} (e : Stay ω r p) :
    CRef ω (Mem.geo_to_nvector r) p.to_nvector := by
  refine .getGeo e fun o a => ?_
  unfold ND.GeoPoint.to_nvector
  rw [a.frame]
  exact .bind (.lat_lon2n_E a.latitude a.longitude _) fun ω1 t T E1 et => .newNvec ⟨et, Stays.smono E1 a.z, rfl⟩

omit [PyFloat α] in
theorem CRef.isScalar {ρ γ : Type} [Stays α ρ γ] {o : NvecObj α} {p : ND.Nvector α} (a : SNvecAttr ω o p)
    {f : Bool → M α ρ} {g : Bool → Except PyErr γ} (k : ∀ b, CRef ω (f b) (g b)) :
    CRef ω (Mem.isScalar o >>= f) (p.isScalar >>= g) := by
  unfold Mem.isScalar
  simp only [M_bind_assoc]
  refine .read a.normal (.read a.z ?_)
  rw [a.frame]
  exact .lift fun b _ => k b

theorem CRef.nvec_to_ecef_vector {r : NRef} {p : ND.Nvector α} (e : Stay ω r p) :
    CRef ω (Mem.nvec_to_ecef_vector r) p.to_ecef_vector := by
  refine .getNvec e fun o a => ?_
  unfold ND.Nvector.to_ecef_vector
  rw [a.frame]
  refine .bind (.n_EB_E2p_EB_E a.normal a.z _ _ _) fun ω1 t T E1 et => .isScalar (a.mono E1) fun b => ?_
  exact .newEcef ⟨et, rfl, rfl⟩

theorem CRef.nvec_to_geo_point {r : NRef} {p : ND.Nvector α} (e : Stay ω r p) :
    CRef ω (Mem.nvec_to_geo_point r) p.to_geo_point := by
  refine .getNvec e fun o a => ?_
  unfold ND.Nvector.to_geo_point
  rw [a.frame]
  refine .bind (.n_E2lat_lon a.normal _) fun ω1 t T E1 et => ?_
  obtain ⟨t1, t2⟩ := t
  obtain ⟨T1, T2⟩ := T
  refine .isScalar (a.mono E1) fun b => ?_
  have et1 : Stay ω1 t1 T1 := et.1
  have et2 : Stay ω1 t2 T2 := et.2
  cases b
  · rw [if_neg Bool.false_ne_true, if_neg Bool.false_ne_true]
    exact .GeoPoint et1 et2 (a.mono E1).z _ _
  · refine .bind (.row et1 0) fun ω2 u U E2 eu => .bind (.row (Stays.smono E2 et2) 0) fun ω3 v V E3 ev => ?_
    exact .GeoPoint (Stays.smono E3 eu) ev ((a.mono E1).mono (E2.trans E3)).z _ _

theorem CRef.ecef_to_nvector {r : ERef} {p : ND.ECEFvector α} (e : Stay ω r p) :
    CRef ω (Mem.ecef_to_nvector r) p.to_nvector := by
  refine .getEcef e fun o a => ?_
  unfold ND.ECEFvector.to_nvector
  rw [a.frame, a.scalar]
  refine .bind (.p_EB_E2n_EB_E a.pvector _ _ _) fun ω1 t T E1 et => ?_
  obtain ⟨t1, t2⟩ := t
  obtain ⟨T1, T2⟩ := T
  have et1 : Stay ω1 t1 T1 := et.1
  have et2 : Stay ω1 t2 T2 := et.2
  dsimp only
  split
  · exact .bind (.row et2 0) fun ω2 u U E2 eu => .newNvec ⟨Stays.smono E2 et1, eu, rfl⟩
  · exact .newNvec ⟨et1, et2, rfl⟩

theorem CRef.R_EN {r : FRef} {f : ND.LocalFrame α} (e : Stay ω r f) : CRef ω (Mem.R_EN r) f.R_EN := by
  refine .getFrame e fun o a => ?_
  cases a with
  | N en =>
    refine .getNvec en fun o a => ?_
    unfold ND.LocalFrame.R_EN
    rw [a.frame]
    exact .n_E2R_EN a.normal _
  | L en ew =>
    refine .getNvec en fun o a => ?_
    unfold ND.LocalFrame.R_EN
    rw [a.frame]
    exact .read a.normal (.read ew .allocE)
  | B en ey ep er =>
    unfold ND.LocalFrame.R_EN
    refine .read ey (.read ep (.read er (.lift fun R _ => .getNvec en fun o a => ?_)))
    rw [a.frame]
    exact .bind (.n_E2R_EN a.normal _) fun ω1 t T E1 et => .read et .allocE

theorem CRef.pvec_to_ecef_vector {r : VRef} {p : ND.Pvector α} (e : Stay ω r p) :
    CRef ω (Mem.pvec_to_ecef_vector r) p.to_ecef_vector := by
  refine .getPvec e fun o a => ?_
  unfold ND.Pvector.to_ecef_vector
  rw [a.scalar]
  refine .bind (.R_EN a.frame) fun ω1 t T E1 et => .read et (.read (a.mono E1).pvector ?_)
  refine .congr (s' := (do (← ND.mdot T (← p.pvector.newaxis1)).reshape 3) >>= fun q =>
    Pure.pure (⟨q, p.frame.nvector.frame, p.scalar⟩ : ND.ECEFvector α)) (by simp only [bind_assoc]) ?_
  refine .bind .allocE fun ω2 u U E2 eu => .getFrame (a.mono (E1.trans E2)).frame fun f af => .getNvec af.nvector fun n an => ?_
  exact .newEcef ⟨eu, an.frame, rfl⟩

theorem CRef.change_frame {r : ERef} {p : ND.ECEFvector α} {fr : FRef} {f : ND.LocalFrame α} (e : Stay ω r p)
    (ef : Stay ω fr f) : CRef ω (Mem.change_frame r fr) (p.change_frame f) := by
  refine .getEcef e fun o a => .getFrame ef fun fo af => .getNvec af.nvector fun n an => ?_
  unfold ND.ECEFvector.change_frame
  rw [a.frame, an.frame, a.scalar]
  refine .lift fun _ _ => .bind (.R_EN ef) fun ω1 t T E1 et => .read et (.read (a.mono E1).pvector ?_)
  refine .congr (s' := (do (← ND.mdot (← ND.swapaxes01 T) (← p.pvector.newaxis1)).reshape 3) >>= fun q =>
    Pure.pure (⟨q, f, p.scalar⟩ : ND.Pvector α)) (by simp only [bind_assoc]) ?_
  refine .bind .allocE fun ω2 u U E2 eu => ?_
  exact .newPvec ⟨eu, Stays.smono (E1.trans E2) ef, rfl⟩

/-! ## Positions -/

omit [PyFloat α] in
theorem Stay_geo {r : GRef} {p : ND.GeoPoint α} (e : Stay ω r p) : Stay ω (PosRef.geo r) (ND.Position.geo p) := Or.inl ⟨_, _, rfl, rfl, e⟩
omit [PyFloat α] in
theorem Stay_nvec {r : NRef} {p : ND.Nvector α} (e : Stay ω r p) : Stay ω (PosRef.nvec r) (ND.Position.nvec p) := Or.inr (Or.inl ⟨_, _, rfl, rfl, e⟩)
omit [PyFloat α] in
theorem Stay_ecef {r : ERef} {p : ND.ECEFvector α} (e : Stay ω r p) : Stay ω (PosRef.ecef r) (ND.Position.ecef p) := Or.inr (Or.inr (Or.inl ⟨_, _, rfl, rfl, e⟩))
omit [PyFloat α] in
theorem Stay_pvec {r : VRef} {p : ND.Pvector α} (e : Stay ω r p) : Stay ω (PosRef.pvec r) (ND.Position.pvec p) := Or.inr (Or.inr (Or.inr ⟨_, _, rfl, rfl, e⟩))

theorem CRef.to_nvector {r : PosRef} {p : ND.Position α} (e0 : Stay ω r p) :
    CRef ω (Mem.to_nvector r) p.to_nvector := by
  obtain ⟨g, q, rfl, rfl, e⟩ | ⟨g, q, rfl, rfl, e⟩ | ⟨g, q, rfl, rfl, e⟩ | ⟨g, q, rfl, rfl, e⟩ := e0
  · exact .geo_to_nvector e
  · exact .pure e
  · exact .ecef_to_nvector e
  · exact .bind (.pvec_to_ecef_vector e) fun _ _ _ _ e => .ecef_to_nvector e

theorem CRef.to_ecef_vector {r : PosRef} {p : ND.Position α} (e0 : Stay ω r p) :
    CRef ω (Mem.to_ecef_vector r) p.to_ecef_vector := by
  obtain ⟨g, q, rfl, rfl, e⟩ | ⟨g, q, rfl, rfl, e⟩ | ⟨g, q, rfl, rfl, e⟩ | ⟨g, q, rfl, rfl, e⟩ := e0
  · exact .bind (.geo_to_nvector e) fun _ _ _ _ e => .nvec_to_ecef_vector e
  · exact .nvec_to_ecef_vector e
  · exact .pure e
  · exact .pvec_to_ecef_vector e

theorem CRef.to_geo_point {r : PosRef} {p : ND.Position α} (e0 : Stay ω r p) :
    CRef ω (Mem.to_geo_point r) p.to_geo_point := by
  obtain ⟨g, q, rfl, rfl, e⟩ | ⟨g, q, rfl, rfl, e⟩ | ⟨g, q, rfl, rfl, e⟩ | ⟨g, q, rfl, rfl, e⟩ := e0
  · exact .pure e
  · exact .nvec_to_geo_point e
  · exact .bind (.ecef_to_nvector e) fun _ _ _ _ e => .nvec_to_geo_point e
  · exact .bind (.pvec_to_ecef_vector e) fun _ _ _ _ e => .bind (.ecef_to_nvector e) fun _ _ _ _ e => .nvec_to_geo_point e

/-! ## Lengths, frames and arithmetic -/

section
variable {ρ γ : Type} [Stays α ρ γ]

omit [PyFloat α] in
theorem CRef.ecefData {r : ERef} {p : ND.ECEFvector α} (e : Stay ω r p) {f : Arr α × Bool → M α ρ} {s : Except PyErr γ}
    (k : CRef ω (f (p.pvector, p.scalar)) s) : CRef ω (Mem.ecefData r >>= f) s := by
  unfold Mem.ecefData
  simp only [M_bind_assoc]
  refine .getEcef e fun o a => .read a.pvector ?_
  rw [a.scalar]
  exact k

omit [PyFloat α] in
theorem CRef.pvecData {r : VRef} {p : ND.Pvector α} (e : Stay ω r p) {f : Arr α × Bool → M α ρ} {s : Except PyErr γ}
    (k : CRef ω (f (p.pvector, p.scalar)) s) : CRef ω (Mem.pvecData r >>= f) s := by
  unfold Mem.pvecData
  simp only [M_bind_assoc]
  refine .getPvec e fun o a => .read a.pvector ?_
  rw [a.scalar]
  exact k

end

theorem CRef.ecef_length {r : ERef} {p : ND.ECEFvector α} (e : Stay ω r p) :
    CRef ω (Mem.ecef_length r) (ND.length p.pvector p.scalar) := .ecefData e .allocE
theorem CRef.pvec_length {r : VRef} {p : ND.Pvector α} (e : Stay ω r p) :
    CRef ω (Mem.pvec_length r) (ND.length p.pvector p.scalar) := .pvecData e .allocE
theorem CRef.pvec_azimuth {r : VRef} {p : ND.Pvector α} (e : Stay ω r p) :
    CRef ω (Mem.pvec_azimuth r) (ND.azimuth p.pvector p.scalar) := .pvecData e .allocE
theorem CRef.pvec_elevation {r : VRef} {p : ND.Pvector α} (e : Stay ω r p) :
    CRef ω (Mem.pvec_elevation r) (ND.elevation p.pvector p.scalar) := .pvecData e .allocE

theorem CRef.FrameN {r : PosRef} {p : ND.Position α} (e : Stay ω r p) : CRef ω (Mem.FrameN r) (ND.FrameN p) := by
  refine .bind (.to_nvector e) fun ω1 n N E1 en => .getNvec en fun o a => .allocThen fun ω2 z E2 ez => ?_
  refine .then (.newNvec (p := ⟨N.normal, ND.scalar (lit 0), N.frame⟩) ⟨Stays.smono E2 a.normal, ez, a.frame⟩) fun ω3 m E3 em => ?_
  exact .newFrame (.N em)

theorem CRef.FrameL {r : PosRef} {p : ND.Position α} {w : ARef} {W : Arr α} (e : Stay ω r p) (ew : Stay ω w W) :
    CRef ω (Mem.FrameL r w) (ND.FrameL p W) := by
  refine .bind (.to_nvector e) fun ω1 n N E1 en => .getNvec en fun o a => .allocThen fun ω2 z E2 ez => ?_
  refine .then (.newNvec (p := ⟨N.normal, ND.scalar (lit 0), N.frame⟩) ⟨Stays.smono E2 a.normal, ez, a.frame⟩) fun ω3 m E3 em => ?_
  exact .newFrame (.L em (Stays.smono ((E1.trans E2).trans E3) ew))

theorem CRef.FrameB {r : PosRef} {p : ND.Position α} {y t l : ARef} {Y T L : Arr α} (e : Stay ω r p)
    (ey : Stay ω y Y) (et : Stay ω t T) (el : Stay ω l L) (degrees : Bool) :
    CRef ω (Mem.FrameB r y t l degrees) (ND.FrameB p Y T L degrees) := by
  refine .bind (.to_nvector e) fun ω1 n N E1 en => ?_
  cases degrees
  · exact .newFrame (.B en (Stays.smono E1 ey) (Stays.smono E1 et) (Stays.smono E1 el))
  · refine .read (Stays.smono E1 ey) (.read (Stays.smono E1 et) (.read (Stays.smono E1 el) ?_))
    refine .allocThen fun ω2 y' E2 ey' => .allocThen fun ω3 t' E3 et' => .allocThen fun ω4 l' E4 el' => ?_
    exact .newFrame (.B (Stays.smono ((E2.trans E3).trans E4) en) (Stays.smono (E3.trans E4) ey') (Stays.smono E4 et') el')

theorem CRef.ecef_add {s o : ERef} {S O : ND.ECEFvector α} (es : Stay ω s S) (eo : Stay ω o O) :
    CRef ω (Mem.ecef_add s o) (S.add O) := by
  refine .getEcef es fun a ha => .getEcef eo fun b hb => ?_
  unfold ND.ECEFvector.add
  rw [ha.frame, hb.frame, ha.scalar, hb.scalar]
  exact .lift fun _ _ => .read ha.pvector (.read hb.pvector (.bind .allocE fun ω1 t T E1 et => .newEcef ⟨et, rfl, rfl⟩))
theorem CRef.ecef_sub {s o : ERef} {S O : ND.ECEFvector α} (es : Stay ω s S) (eo : Stay ω o O) :
    CRef ω (Mem.ecef_sub s o) (S.sub O) := by
  refine .getEcef es fun a ha => .getEcef eo fun b hb => ?_
  unfold ND.ECEFvector.sub
  rw [ha.frame, hb.frame, ha.scalar, hb.scalar]
  exact .lift fun _ _ => .read ha.pvector (.read hb.pvector (.bind .allocE fun ω1 t T E1 et => .newEcef ⟨et, rfl, rfl⟩))
theorem CRef.ecef_neg {s : ERef} {S : ND.ECEFvector α} (es : Stay ω s S) : CRef ω (Mem.ecef_neg s) (.ok S.neg) :=
  .getEcef es fun _ ha => .read ha.pvector (.allocThen fun _ _ _ et => .newEcef ⟨et, ha.frame, ha.scalar⟩)

theorem CRef.nvec_add {s o : NRef} {S O : ND.Nvector α} (es : Stay ω s S) (eo : Stay ω o O) :
    CRef ω (Mem.nvec_add s o) (S.add O) := by
  refine .getNvec es fun a ha => .getNvec eo fun b hb => ?_
  unfold ND.Nvector.add
  rw [ha.frame, hb.frame]
  refine .lift fun _ _ => .read ha.normal (.read hb.normal (.read ha.z (.read hb.z (.bind .allocE fun ω1 t T E1 et => ?_))))
  exact .bind .allocE fun ω2 u U E2 eu => .newNvec ⟨Stays.smono E2 et, eu, rfl⟩
theorem CRef.nvec_sub {s o : NRef} {S O : ND.Nvector α} (es : Stay ω s S) (eo : Stay ω o O) :
    CRef ω (Mem.nvec_sub s o) (S.sub O) := by
  refine .getNvec es fun a ha => .getNvec eo fun b hb => ?_
  unfold ND.Nvector.sub
  rw [ha.frame, hb.frame]
  refine .lift fun _ _ => .read ha.normal (.read hb.normal (.read ha.z (.read hb.z (.bind .allocE fun ω1 t T E1 et => ?_))))
  exact .bind .allocE fun ω2 u U E2 eu => .newNvec ⟨Stays.smono E2 et, eu, rfl⟩
theorem CRef.nvec_neg {s : NRef} {S : ND.Nvector α} (es : Stay ω s S) : CRef ω (Mem.nvec_neg s) (.ok S.neg) :=
  .getNvec es fun _ ha => .read ha.normal (.read ha.z (.allocThen fun _ _ _ et => .allocThen fun _ _ E eu =>
    .newNvec ⟨Stays.smono E et, eu, ha.frame⟩))
theorem CRef.nvec_mul {s : NRef} {c : ARef} {S : ND.Nvector α} {C : Arr α} (es : Stay ω s S) (ec : Stay ω c C) :
    CRef ω (Mem.nvec_mul s c) (S.mul C) := by
  refine .getNvec es fun a ha => .read ha.normal (.read ha.z (.read ec (.bind .allocE fun ω1 t T E1 et => ?_)))
  exact .bind .allocE fun ω2 u U E2 eu => .newNvec ⟨Stays.smono E2 et, eu, ha.frame⟩
theorem CRef.nvec_div {s : NRef} {c : ARef} {S : ND.Nvector α} {C : Arr α} (es : Stay ω s S) (ec : Stay ω c C) :
    CRef ω (Mem.nvec_div s c) (S.div C) := by
  refine .getNvec es fun a ha => .read ha.normal (.read ha.z (.read ec (.bind .allocE fun ω1 t T E1 et => ?_)))
  exact .bind .allocE fun ω2 u U E2 eu => .newNvec ⟨Stays.smono E2 et, eu, ha.frame⟩
theorem CRef.nvec_mean {s : NRef} {S : ND.Nvector α} (es : Stay ω s S) : CRef ω (Mem.nvec_mean s) S.mean := by
  refine .getNvec es fun a ha => .bind (.mean_horizontal_position ha.normal) fun ω1 t T E1 et => .read (ha.mono E1).z ?_
  exact .allocThen fun _ _ E eu => .newNvec ⟨Stays.smono E et, eu, ha.frame⟩

theorem CRef.delta_E {a b : PosRef} {A B : ND.Position α} (ea : Stay ω a A) (eb : Stay ω b B) :
    CRef ω (Mem.delta_E a b) (ND.delta_E A B) :=
  .bind (.to_ecef_vector ea) fun _ _ _ E1 e1 => .bind (.to_ecef_vector (Stays.smono E1 eb)) fun _ _ _ E2 e2 =>
    .ecef_sub e2 (Stays.smono E2 e1)

theorem CRef.delta_N {a b : PosRef} {A B : ND.Position α} (ea : Stay ω a A) (eb : Stay ω b B) :
    CRef ω (Mem.delta_N a b) (ND.delta_N A B) :=
  .bind (.delta_E ea eb) fun _ _ _ E1 e1 => .bind (.FrameN (Stays.smono E1 ea)) fun _ _ _ E2 e2 =>
    .change_frame (Stays.smono E2 e1) e2

theorem CRef.delta_L {a b : PosRef} {w : ARef} {A B : ND.Position α} {W : Arr α} (ea : Stay ω a A)
    (eb : Stay ω b B) (ew : Stay ω w W) : CRef ω (Mem.delta_L a b w) (ND.delta_L A B W) :=
  .bind (.FrameL ea ew) fun _ _ _ E1 e1 => .bind (.delta_E (Stays.smono E1 ea) (Stays.smono E1 eb)) fun _ _ _ E2 e2 =>
    .change_frame e2 (Stays.smono E2 e1)

end Nv.Mem
