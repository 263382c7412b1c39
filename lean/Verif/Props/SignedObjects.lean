import Verif.Props.SignedZero

/-!
# C116: the sign of zero in the object-oriented interface

`x.val` is the object `x` with the signs of its zeros forgotten.
-/

namespace Nv
open Spec PyFloat Sgn

section
variable {α : Type}

def FrameE.val (F : FrameE (Sgn α)) : FrameE α := ⟨F.a.val, F.f.val, F.name, F.R_Ee.val⟩
def GeoPoint.val (p : GeoPoint (Sgn α)) : GeoPoint α := ⟨p.latitude.val, p.longitude.val, p.z.val, p.frame.val⟩
def Nvector.val (p : Nvector (Sgn α)) : Nvector α := ⟨p.normal.val, p.z.val, p.frame.val⟩
def ECEFvector.val (p : ECEFvector (Sgn α)) : ECEFvector α := ⟨p.pvector.val, p.frame.val⟩
def LocalFrame.val : LocalFrame (Sgn α) → LocalFrame α
  | .N n => .N n.val
  | .L n wa => .L n.val wa.val
  | .B n y p r => .B n.val y.val p.val r.val
def Pvector.val (p : Pvector (Sgn α)) : Pvector α := ⟨p.pvector.val, p.frame.val⟩
def Position.val : Position (Sgn α) → Position α
  | .geo p => .geo p.val
  | .nvec p => .nvec p.val
  | .ecef p => .ecef p.val
  | .pvec p => .pvec p.val
def Obj.val : Obj (Sgn α) → Obj α
  | .geo p => .geo p.val
  | .nvec p => .nvec p.val
  | .ecef p => .ecef p.val
  | .pvec p => .pvec p.val
  | .frameE F => .frameE F.val
  | .frame F => .frame F.val
def GeoPath.val (P : GeoPath (Sgn α)) : GeoPath α := ⟨P.point_a.val, P.point_b.val⟩
def Factor.val : Factor (Sgn α) → Factor α
  | .num x => .num x.val
  | .nvec p => .nvec p.val

/-- the object is a FrameL, or a vector in one: its axes come from a longitude -/
def Obj.noWander {α : Type} : Obj α → Prop
  | .pvec p => ∀ n wa, p.frame ≠ .L n wa
  | .frame F => ∀ n wa, F ≠ .L n wa
  | _ => True

variable [PyFloat α]

theorem eqClose_val (l : List (Sgn α × Sgn α)) : eqClose l = eqClose (l.map fun p => (p.1.val, p.2.val)) := allclose_val _ _ _ _

theorem FrameE.isEqualTo_val (s o : FrameE (Sgn α)) : s.isEqualTo o = s.val.isEqualTo o.val := by
  unfold FrameE.isEqualTo
  simp only [eqClose_val]
  rfl

theorem check_frames_val (s o : FrameE (Sgn α)) : check_frames s o = check_frames s.val o.val := by
  unfold check_frames
  rw [FrameE.isEqualTo_val]

theorem Nvector.isEqualTo_val (s o : Nvector (Sgn α)) : s.isEqualTo o = s.val.isEqualTo o.val := by
  unfold Nvector.isEqualTo
  rw [FrameE.isEqualTo_val]
  simp only [eqClose_val]
  rfl

theorem angleDiff_val (x y : Sgn α) : (angleDiff x y).val = angleDiff x.val y.val := by
  unfold angleDiff
  dsimp only
  rw [ite_val]; rfl

theorem GeoPoint.isEqualTo_val (s o : GeoPoint (Sgn α)) : s.isEqualTo o = s.val.isEqualTo o.val := by
  unfold GeoPoint.isEqualTo
  rw [FrameE.isEqualTo_val]
  simp only [eqClose_val, List.map_cons, List.map_nil, angleDiff_val, lit_val]
  rfl

theorem LocalFrame.R_EN_val {F : LocalFrame (Sgn α)} (h : ∀ n wa, F ≠ .L n wa) : F.R_EN.val = F.val.R_EN := by
  cases F with
  | N n => exact n_E2R_EN_val _ _
  | L n wa => exact absurd rfl (h n wa)
  | B n y p r =>
    change (mdot (n_E2R_EN n.normal n.frame.R_Ee) (zyx2R y p r)).val = _
    rw [mdot_val, n_E2R_EN_val]; rfl

theorem LocalFrame.nvector_val (F : LocalFrame (Sgn α)) : F.nvector.val = F.val.nvector := by cases F <;> rfl

theorem pairs9_val (A B : M3 (Sgn α)) : eqClose (pairs9 A B) = eqClose (pairs9 A.val B.val) := by rw [eqClose_val]; rfl
theorem pairs3_val (A B : V3 (Sgn α)) : eqClose (pairs3 A B) = eqClose (pairs3 A.val B.val) := by rw [eqClose_val]; rfl

theorem LocalFrame.isEqualTo_val {F F' : LocalFrame (Sgn α)} (h : ∀ n wa, F ≠ .L n wa) (h' : ∀ n wa, F' ≠ .L n wa) :
    F.isEqualTo F' = F.val.isEqualTo F'.val := by
  have e := LocalFrame.R_EN_val h
  have e' := LocalFrame.R_EN_val h'
  cases F with
  | L n wa => exact absurd rfl (h n wa)
  | N n =>
    cases F' with
    | L n wa => exact absurd rfl (h' n wa)
    | N m =>
      change Except.ok (eqClose (pairs9 _ _) && Nvector.isEqualTo _ _) = Except.ok (eqClose (pairs9 _ _) && Nvector.isEqualTo _ _)
      rw [pairs9_val, e, e', Nvector.isEqualTo_val]; rfl
    | B m y p r =>
      change Except.ok (eqClose (pairs9 _ _) && Nvector.isEqualTo _ _) = Except.ok (eqClose (pairs9 _ _) && Nvector.isEqualTo _ _)
      rw [pairs9_val, e, e', Nvector.isEqualTo_val]; rfl
  | B n y p r =>
    cases F' with
    | L n wa => exact absurd rfl (h' n wa)
    | N m => rfl
    | B m y' p' r' =>
      unfold LocalFrame.isEqualTo
      change Except.ok _ = Except.ok _
      rw [pairs9_val, e, e', Nvector.isEqualTo_val]
      simp only [eqClose_val]
      rfl

theorem LocalFrame.eq_val {F F' : LocalFrame (Sgn α)} (h : ∀ n wa, F ≠ .L n wa) (h' : ∀ n wa, F' ≠ .L n wa) : F.eq F' = F.val.eq F'.val := by
  have e := LocalFrame.isEqualTo_val h h'
  cases F with
  | L n wa => exact absurd rfl (h n wa)
  | N n =>
    cases F' with
    | L n wa => exact absurd rfl (h' n wa)
    | N m => exact congrArg attrFalse e
    | B m y p r => exact congrArg attrFalse e
  | B n y p r =>
    cases F' with
    | L n wa => exact absurd rfl (h' n wa)
    | N m => exact congrArg attrFalse e
    | B m y' p' r' => exact congrArg attrFalse e

/-- **C116** `==` and `!=` of all objects but FrameL frames (and vectors in one) do not see the sign of a zero: in particular two GeoPoints with longitude
180° and -180° that came from different zeros are equal -/
theorem C116_equality (same : Bool) (x y : Obj (Sgn α)) (hx : x.noWander) (hy : y.noWander) :
    pyEq same x y = pyEq same x.val y.val ∧ pyNe same x y = pyNe same x.val y.val := by
  have main : pyEq same x y = pyEq same x.val y.val := by
    unfold pyEq
    cases same
    · simp only [Bool.false_eq_true, if_false]
      cases x with
      | geo p => cases y <;> first | rfl | exact congrArg (fun b => attrFalse (.ok b)) (GeoPoint.isEqualTo_val _ _)
      | nvec p => cases y <;> first | rfl | exact congrArg (fun b => attrFalse (.ok b)) (Nvector.isEqualTo_val _ _)
      | ecef p =>
        cases y <;> first | rfl | exact congrArg (fun b => attrFalse (.ok b)) (congrArg₂ _ (pairs3_val _ _) (FrameE.isEqualTo_val _ _))
      | pvec p =>
        cases y with
        | pvec q =>
          change attrFalse (if eqClose (pairs3 p.pvector q.pvector) then p.frame.eq q.frame else .ok false) =
            attrFalse (if eqClose (pairs3 p.val.pvector q.val.pvector) then p.val.frame.eq q.val.frame else .ok false)
          rw [pairs3_val, LocalFrame.eq_val hx hy]; rfl
        | _ => rfl
      | frameE F => cases y <;> first | rfl | exact congrArg (fun b => attrFalse (.ok b)) (FrameE.isEqualTo_val _ _)
      | frame F =>
        cases y with
        | frame F' =>
          have e := LocalFrame.isEqualTo_val hx hy
          cases F with
          | L n wa => exact absurd rfl (hx n wa)
          | N n =>
            cases F' with
            | L n wa => exact absurd rfl (hy n wa)
            | N m => exact congrArg attrFalse e
            | B m y p r => exact congrArg attrFalse e
          | B n y p r =>
            cases F' with
            | L n wa => exact absurd rfl (hy n wa)
            | N m => exact congrArg attrFalse e
            | B m y' p' r' => exact congrArg attrFalse e
        | _ => cases F <;> rfl
    · rfl
  refine ⟨main, ?_⟩
  unfold pyNe
  rw [main]

/-- **C116** conversions of objects and local frames -/
theorem C116_to_vectors (g : GeoPoint (Sgn α)) (p : Nvector (Sgn α)) :
    g.to_nvector.val = g.val.to_nvector ∧ p.to_ecef_vector.val = p.val.to_ecef_vector ∧ g.to_ecef_vector.val = g.val.to_ecef_vector := by
  have h1 : g.to_nvector.val = g.val.to_nvector := rfl
  have h2 (p : Nvector (Sgn α)) : p.to_ecef_vector.val = p.val.to_ecef_vector := by
    unfold Nvector.to_ecef_vector ECEFvector.val
    rw [n_EB_E2p_EB_E_val]; rfl
  refine ⟨h1, h2 p, ?_⟩
  unfold GeoPoint.to_ecef_vector
  rw [h2, h1]

/-- **C116** arithmetic of vectors, `unit()`, and division by anything but the negative zero -/
theorem C116_arithmetic (v w : ECEFvector (Sgn α)) (n m : Nvector (Sgn α)) (c : Sgn α) :
    (v.add w).map ECEFvector.val = v.val.add w.val ∧ (v.sub w).map ECEFvector.val = v.val.sub w.val ∧ v.neg.val = v.val.neg ∧
    (n.add m).map Nvector.val = n.val.add m.val ∧ (n.sub m).map Nvector.val = n.val.sub m.val ∧ n.neg.val = n.val.neg ∧
    (n.mul (.num c)).map Nvector.val = n.val.mul (.num c.val) ∧
    (c.minusZero = false → (n.div (.num c)).map Nvector.val = n.val.div (.num c.val)) ∧ n.unit.val = n.val.unit := by
  refine ⟨?_, ?_, rfl, ?_, ?_, rfl, rfl, ?_, ?_⟩
  · unfold ECEFvector.add; rw [check_frames_val]
    change Except.map _ (check_frames v.val.frame w.val.frame >>= _) = _
    cases check_frames v.val.frame w.val.frame <;> rfl
  · unfold ECEFvector.sub; rw [check_frames_val]
    change Except.map _ (check_frames v.val.frame w.val.frame >>= _) = _
    cases check_frames v.val.frame w.val.frame <;> rfl
  · unfold Nvector.add; rw [check_frames_val]
    change Except.map _ (check_frames n.val.frame m.val.frame >>= _) = _
    cases check_frames n.val.frame m.val.frame <;> rfl
  · unfold Nvector.sub; rw [check_frames_val]
    change Except.map _ (check_frames n.val.frame m.val.frame >>= _) = _
    cases check_frames n.val.frame m.val.frame <;> rfl
  · intro h
    change Except.ok (Nvector.mk (div3 n.normal c).val (n.z / c).val _) = _
    rw [div3_val _ h, div_val _ _ h]; rfl
  · unfold Nvector.unit Nvector.val
    dsimp only
    rw [unit_val]; rfl

/-- `to_nvector()` of the position does not see the signs of zeros.  It holds of every GeoPoint and Nvector, in every arithmetic, and of the ECEF vectors and
vectors in local frames below. -/
def Position.Plain (p : Position (Sgn α)) : Prop := p.to_nvector.val = p.val.to_nvector

theorem plain_geo (g : GeoPoint (Sgn α)) : (Position.geo g).Plain := rfl
theorem plain_nvec (n : Nvector (Sgn α)) : (Position.nvec n).Plain := rfl

theorem Position.to_ecef_val {p : Position (Sgn α)} (h : ∀ q n wa, p = .pvec q → q.frame ≠ .L n wa) : p.to_ecef_vector.val = p.val.to_ecef_vector := by
  cases p with
  | geo g => exact (C116_to_vectors g g.to_nvector).2.2
  | nvec n => exact (C116_to_vectors ⟨n.z, n.z, n.z, n.frame⟩ n).2.1
  | ecef v => rfl
  | pvec q =>
    change (ECEFvector.mk (mulVec q.frame.R_EN q.pvector) q.frame.nvector.frame).val = _
    unfold ECEFvector.val
    dsimp only
    rw [mulVec_val, LocalFrame.R_EN_val fun n wa => h q n wa rfl]
    have := LocalFrame.nvector_val q.frame
    have e : q.frame.nvector.frame.val = q.frame.val.nvector.frame := by rw [← this]; rfl
    rw [e]; rfl

/-- no vector in a FrameL -/
def Position.noWander {α : Type} : Position α → Prop
  | .pvec q => ∀ n wa, q.frame ≠ .L n wa
  | _ => True

omit [PyFloat α] in
theorem Position.noWander.imp {p : Position (Sgn α)} (h : p.noWander) : ∀ q n wa, p = .pvec q → q.frame ≠ .L n wa := by
  rintro q n wa rfl; exact h n wa

/-- **C116** the vector from one position to another, in the Earth frame and in the north, east, down frame -/
theorem C116_delta_objects (a b : Position (Sgn α)) (ha : a.noWander) (hb : b.noWander) :
    (delta_E a b).map ECEFvector.val = delta_E a.val b.val ∧
      (a.Plain → (delta_N a b).map Pvector.val = delta_N a.val b.val) := by
  have h1 : (delta_E a b).map ECEFvector.val = delta_E a.val b.val := by
    unfold delta_E
    rw [(C116_arithmetic b.to_ecef_vector a.to_ecef_vector b.to_nvector b.to_nvector (lit 0)).2.1, Position.to_ecef_val ha.imp, Position.to_ecef_val hb.imp]
  refine ⟨h1, fun hp => ?_⟩
  unfold delta_N
  rw [← h1]
  cases hd : delta_E a b with
  | error e => rfl
  | ok d =>
    change Except.map _ (d.change_frame (FrameN a)) = d.val.change_frame (FrameN a.val)
    have hF : (FrameN a).val = FrameN a.val := by
      unfold FrameN
      change LocalFrame.N (Nvector.mk a.to_nvector.normal.val (lit 0) a.to_nvector.frame.val) = LocalFrame.N (Nvector.mk a.val.to_nvector.normal (lit 0) a.val.to_nvector.frame)
      rw [← hp]; rfl
    have hFN : ∀ n wa, FrameN a ≠ .L n wa := by intro n wa h; cases h
    have hnf : (FrameN a).nvector.frame.val = (FrameN a.val).nvector.frame := by
      rw [← hF, ← LocalFrame.nvector_val]; rfl
    unfold ECEFvector.change_frame
    rw [check_frames_val, hnf]
    change Except.map _ (check_frames d.val.frame (FrameN a.val).nvector.frame >>= _) = _
    cases check_frames d.val.frame (FrameN a.val).nvector.frame with
    | error e => rfl
    | ok u =>
      change Except.ok (Pvector.mk (mulVec (tr (FrameN a).R_EN) d.pvector).val (FrameN a).val) = Except.ok (Pvector.mk (mulVec (tr (FrameN a.val).R_EN) d.val.pvector) (FrameN a.val))
      rw [mulVec_val, tr_val, LocalFrame.R_EN_val hFN, hF]; rfl

/-- **C116** a vector in a FrameN or FrameB in the Earth frame, and back -/
theorem C116_change_frame (v : ECEFvector (Sgn α)) (q : Pvector (Sgn α)) (F : LocalFrame (Sgn α)) (hq : ∀ n wa, q.frame ≠ .L n wa)
    (hF : ∀ n wa, F ≠ .L n wa) :
    q.to_ecef_vector.val = q.val.to_ecef_vector ∧ (v.change_frame F).map Pvector.val = v.val.change_frame F.val := by
  refine ⟨Position.to_ecef_val (p := .pvec q) (by rintro q' n wa h; cases h; exact hq n wa), ?_⟩
  have hnf : F.nvector.frame.val = F.val.nvector.frame := by rw [← LocalFrame.nvector_val]; rfl
  unfold ECEFvector.change_frame
  rw [check_frames_val, hnf]
  change Except.map _ (check_frames v.val.frame F.val.nvector.frame >>= _) = _
  cases check_frames v.val.frame F.val.nvector.frame with
  | error e => rfl
  | ok u =>
    change Except.ok (Pvector.mk (mulVec (tr F.R_EN) v.pvector).val F.val) = Except.ok (Pvector.mk (mulVec (tr F.val.R_EN) v.val.pvector) F.val)
    rw [mulVec_val, tr_val, LocalFrame.R_EN_val hF]; rfl

section paths
variable {P P' : GeoPath (Sgn α)}

theorem normals_val (ha : P.point_a.Plain) (hb : P.point_b.Plain) :
    (P.nvector_normals.1.val, P.nvector_normals.2.val) = P.val.nvector_normals ∧
      P.nvectors.1.z.val = P.val.nvectors.1.z ∧ P.nvectors.2.z.val = P.val.nvectors.2.z := by
  have h1 : P.val.nvectors.1 = P.nvectors.1.val := ha.symm
  have h2 : P.val.nvectors.2 = P.nvectors.2.val := hb.symm
  unfold GeoPath.nvector_normals
  rw [h1, h2]
  exact ⟨rfl, rfl, rfl⟩

theorem radiusOr_val (ha : P.point_a.noWander) (hb : P.point_b.noWander) (radius : Option (Sgn α)) :
    (P.radiusOr radius).val = P.val.radiusOr (radius.map Sgn.val) := by
  cases radius with
  | some r => rfl
  | none =>
    have h1 : P.val.ecef_vectors.1 = P.ecef_vectors.1.val := (Position.to_ecef_val ha.imp).symm
    have h2 : P.val.ecef_vectors.2 = P.ecef_vectors.2.val := (Position.to_ecef_val hb.imp).symm
    change P.average_radius.val = P.val.average_radius
    unfold GeoPath.average_radius
    rw [h1, h2, div_val _ _ (lit_mz 2)]; rfl

/-- **C116** the methods of a GeoPath whose result is a number, a position or a Boolean: none of them sees the sign of a zero -/
theorem C116_paths (ha : P.point_a.Plain) (hb : P.point_b.Plain) (ha' : P'.point_a.Plain) (hb' : P'.point_b.Plain) (na : P.point_a.noWander)
    (nb : P.point_b.noWander) (c : Position (Sgn α)) (hc : c.Plain) (method : String) (radius : Option (Sgn α)) (rtol atol ti : Sgn α) :
    (P.cross_track_distance c method radius).map Sgn.val = P.val.cross_track_distance c.val method (radius.map Sgn.val) ∧
    P.on_great_circle c atol = P.val.on_great_circle c.val atol.val ∧
    P.on_great_circle_path c radius rtol atol = P.val.on_great_circle_path c.val (radius.map Sgn.val) rtol.val atol.val ∧
    (P.closest_nvector c).val = P.val.closest_nvector c.val ∧
    (P.interpolate ti).map Nvector.val = P.val.interpolate ti.val ∧
    (P.intersect P').map Nvector.val = P.val.intersect P'.val := by
  obtain ⟨e1, e2, e3⟩ := normals_val ha hb
  obtain ⟨f1, f2, f3⟩ := normals_val ha' hb'
  have hR := radiusOr_val na nb
  have hcn : c.val.to_nvector = c.to_nvector.val := hc.symm
  have hcross : ∀ (method : String) (radius : Option (Sgn α)),
      (P.cross_track_distance c method radius).map Sgn.val = P.val.cross_track_distance c.val method (radius.map Sgn.val) := by
    intro method radius
    unfold GeoPath.cross_track_distance
    rw [cross_track_distance_val, hR, e1, hcn]; rfl
  refine ⟨hcross _ _, ?_, ?_, ?_, ?_, ?_⟩
  · unfold GeoPath.on_great_circle
    have := hcross "greatcircle" none
    change _ = P.val.cross_track_distance c.val "greatcircle" none at this
    rw [← this]
    cases P.cross_track_distance c "greatcircle" none <;> rfl
  · unfold GeoPath.on_great_circle_path
    dsimp only
    rw [(C116_great_circles P.nvector_normals P.nvector_normals c.to_nvector.normal "" (P.radiusOr radius) atol ti).2.2.2.2.2.1, e1, hR, hcn,
      C116_isclose, mul_val, add_val, e2, e3]
    rfl
  · unfold GeoPath.closest_nvector Nvector.val
    dsimp only
    rw [(C116_great_circles P.nvector_normals P.nvector_normals c.to_nvector.normal "" (P.radiusOr radius) atol ti).2.2.2.2.2.2.1, e1, hcn,
      mul_val, add_val, e2, e3]
    rfl
  · have h1 : P.val.nvectors.1 = P.nvectors.1.val := ha.symm
    have h2 : P.val.nvectors.2 = P.nvectors.2.val := hb.symm
    unfold GeoPath.interpolate
    rw [h1, h2]
    have s := (C116_arithmetic (P.nvectors.1.to_ecef_vector) (P.nvectors.1.to_ecef_vector) P.nvectors.2 P.nvectors.1 ti).2.2.2.2.1
    rw [← s]
    cases hd : Nvector.sub P.nvectors.2 P.nvectors.1 with
    | error e => rfl
    | ok d =>
      obtain ⟨m, hm⟩ : ∃ m : Nvector (Sgn α), m = ⟨scale3 d.normal ti, d.z * ti, d.frame⟩ := ⟨_, rfl⟩
      have hm' : d.val.mul (.num ti.val) = .ok m.val := by rw [hm]; rfl
      have hm1 : d.mul (.num ti) = .ok m := by rw [hm]; rfl
      have s := (C116_arithmetic (P.nvectors.1.to_ecef_vector) (P.nvectors.1.to_ecef_vector) P.nvectors.1 m ti).2.2.2.1
      simp only [Except.map, bind, Except.bind, hm', hm1]
      rw [← s]
      cases ho : P.nvectors.1.add m with
      | error e => rfl
      | ok o =>
        change Except.ok (Nvector.mk (Nv.unit o.normal nan).val o.z.val o.frame.val) = Except.ok (Nvector.mk (Nv.unit o.normal.val nan) o.z.val o.frame.val)
        rw [unit_val]; rfl
  · unfold GeoPath.intersect
    have hfr : (GeoPath.frameOf P.point_a).map FrameE.val = GeoPath.frameOf P.val.point_a := by
      change _ = GeoPath.frameOf P.point_a.val
      cases P.point_a <;> rfl
    change _ = (GeoPath.frameOf P.val.point_a >>= _)
    rw [← hfr]
    cases GeoPath.frameOf P.point_a with
    | error e => rfl
    | ok F =>
      have hi := (C116_great_circles P.nvector_normals P'.nvector_normals c.to_nvector.normal "" (P.radiusOr radius) atol ti).2.1
      rw [e1, f1] at hi
      change Except.ok (Nvector.mk (Nv.intersect P.nvector_normals P'.nvector_normals).val
        ((P.nvectors.1.z + P.nvectors.2.z + P'.nvectors.1.z + P'.nvectors.2.z) / lit 4 : Sgn α).val F.val) = Except.ok _
      rw [hi, div_val _ _ (lit_mz 4), add_val, add_val, add_val, e2, e3, f2, f3]; rfl

end paths

end

/-- ECEF vectors and vectors in a FrameN or FrameB with finite numbers are plain in exact arithmetic -/
theorem plain_ecef {v : ECEFvector (Sgn XR)} {p : V3 ℝ} {a f : ℝ} {R : M3 ℝ} (hp : v.pvector.val = p.fin) (ha : v.frame.a.val = .fin a) (a0 : 0 < a)
    (hf : v.frame.f.val = .fin f) (hR : v.frame.R_Ee.val = R.fin) : (Position.ecef v).Plain := by
  obtain ⟨h1, h2⟩ := C116_position v.pvector v.frame.a v.frame.f v.frame.R_Ee hp ha a0 hf hR
  change Nvector.mk (p_EB_E2n_EB_E v.pvector v.frame.a v.frame.f v.frame.R_Ee).1.val (p_EB_E2n_EB_E v.pvector v.frame.a v.frame.f v.frame.R_Ee).2.val v.frame.val = _
  rw [h1, h2]; rfl

/-- **C116** `to_nvector()` of an ECEF vector with finite coordinates, and of any GeoPoint or Nvector: all methods above apply to them -/
theorem C116_to_nvector (v : ECEFvector (Sgn XR)) {p : V3 ℝ} {a f : ℝ} {R : M3 ℝ} (hp : v.pvector.val = p.fin) (ha : v.frame.a.val = .fin a) (a0 : 0 < a)
    (hf : v.frame.f.val = .fin f) (hR : v.frame.R_Ee.val = R.fin) :
    (Position.ecef v).to_nvector.val = (Position.ecef v.val).to_nvector := plain_ecef hp ha a0 hf hR

/-- **C116** the GeoPoints of two n-vectors that differ only in the signs of zeros are equal (`==`), whatever longitudes they got off the poles -/
theorem C116_same_geo_point (n n' : Nvector (Sgn XR)) {m : V3 ℝ} {z a f : ℝ} {name : EllKey} {R : M3 ℝ}
    (hn : n.val = ⟨m.fin, .fin z, .real a f name R⟩) (hn' : n'.val = n.val) (hR : IsRotation R)
    (hp : ¬ ((app R m).y = 0 ∧ (app R m).z = 0)) :
    pyEq false (.geo n.to_geo_point) (.geo n'.to_geo_point) = .ok true := by
  have hm : m ≠ 0 := by rintro rfl; apply hp; simp [app, dot]
  rw [(C116_equality false (.geo n.to_geo_point) (.geo n'.to_geo_point) trivial trivial).1]
  have main : ∀ n : Nvector (Sgn XR), n.val = ⟨m.fin, .fin z, .real a f name R⟩ → ∃ k : ℤ,
      n.to_geo_point.val = ⟨.fin (XR.atan2 (app R m).x (√((app R m).y ^ 2 + (app R m).z ^ 2))),
        .fin (XR.atan2 (app R m).y (-(app R m).z) + k * (2 * Real.pi)), .fin z, .real a f name R⟩ := by
    intro n hn
    have h1 : n.normal.val = m.fin := congrArg Nvector.normal hn
    have h2 : n.z.val = .fin z := congrArg Nvector.z hn
    have h3 : n.frame.val = .real a f name R := congrArg Nvector.frame hn
    have h4 : n.frame.R_Ee.val = R.fin := congrArg FrameE.R_Ee h3
    obtain ⟨lat, lon, e1, e2, e3, e4, -⟩ := C116_lat_lon n.normal n.frame.R_Ee h1 hm h4 hR
    have e5 := e4 hp
    rw [n_E2lat_lon_fin] at e3 e5
    simp only [XR.fin_inj] at e3 e5
    have hk : ∃ k : ℤ, lon = XR.atan2 (app R m).y (-(app R m).z) + k * (2 * Real.pi) := by
      rcases e5 with h | ⟨h, h'⟩
      · exact ⟨0, by rw [h]; simp⟩
      · exact ⟨-1, by rw [h, h']; push_cast; ring⟩
    obtain ⟨k, hk⟩ := hk
    refine ⟨k, ?_⟩
    change GeoPoint.mk (n_E2lat_lon n.normal n.frame.R_Ee).1.val (n_E2lat_lon n.normal n.frame.R_Ee).2.val n.z.val n.frame.val = _
    rw [e1, e2, h2, h3, e3, hk]
  obtain ⟨k, h⟩ := main n hn
  obtain ⟨k', h'⟩ := main n' (hn'.trans hn)
  have e : ∀ g : GeoPoint (Sgn XR), (Obj.geo g).val = Obj.geo g.val := fun _ => rfl
  rw [e, e, h, h']
  have hk : XR.atan2 (app R m).y (-(app R m).z) + (k : ℝ) * (2 * Real.pi) =
      (XR.atan2 (app R m).y (-(app R m).z) + (k' : ℝ) * (2 * Real.pi)) + ((k - k' : ℤ) : ℝ) * (2 * Real.pi) := by push_cast; ring
  rw [hk]
  have := C39_turns (XR.atan2 (app R m).x (√((app R m).y ^ 2 + (app R m).z ^ 2))) (XR.atan2 (app R m).y (-(app R m).z) + (k' : ℝ) * (2 * Real.pi)) z a f name R
    0 (k - k')
  simpa using this

/-- **C116** great circle and euclidean `track_distance` between positions whose n-vectors are not zero -/
theorem C116_track_distance {α : Type} [PyFloat α] (G : Geodesic (Sgn α)) (G' : Geodesic α) (P : GeoPath (Sgn α)) (ha : P.point_a.Plain) (hb : P.point_b.Plain)
    (na : P.point_a.noWander) (nb : P.point_b.noWander) (method : String) (hmeth : ¬ (strTake method 2 = "ex" ∨ strTake method 2 = "el"))
    (radius : Option (Sgn α))
    (h : (eq (norm3 (cross3 P.val.nvector_normals.1 P.val.nvector_normals.2)) (lit 0 : α) &&
      eq (dot3 P.val.nvector_normals.1 P.val.nvector_normals.2) (lit 0 : α)) = false) :
    (P.track_distance G method radius).map Sgn.val = P.val.track_distance G' method (radius.map Sgn.val) := by
  obtain ⟨e1, -, -⟩ := normals_val ha hb
  have hR := radiusOr_val na nb radius
  have g1 : P.val.nvector_normals.1 = P.nvector_normals.1.val := by rw [← e1]
  have g2 : P.val.nvector_normals.2 = P.nvector_normals.2.val := by rw [← e1]
  unfold GeoPath.track_distance
  rw [if_neg hmeth, if_neg hmeth]
  dsimp only
  rw [g1, g2] at h ⊢
  split_ifs
  · change Except.ok (Sgn.val (euclidean_distance P.nvector_normals.1 P.nvector_normals.2 (P.radiusOr radius))) = Except.ok _
    rw [← hR]; rfl
  · change Except.ok (Sgn.val (great_circle_distance P.nvector_normals.1 P.nvector_normals.2 (P.radiusOr radius))) = Except.ok _
    rw [C116_great_circle_distance _ _ _ h, hR]

/-! The hypotheses are met: the n-vectors `(-1, 0, 0)` and `(-1, -0, -0)` on a sphere; paths between GeoPoints. -/
example : (Nvector.mk (westward true) ⟨.fin 0, true⟩ ⟨⟨.fin 1, false⟩, ⟨.fin 0, false⟩, .int 7, R_e⟩).val = ⟨(⟨-1, 0, 0⟩ : V3 ℝ).fin, .fin 0, .real 1 0 (.int 7) Re⟩ ∧
    ¬ ((app Re ⟨-1, 0, 0⟩).y = 0 ∧ (app Re ⟨-1, 0, 0⟩).z = 0) := by
  refine ⟨?_, ?_⟩
  · change Nvector.mk _ _ (FrameE.mk _ _ _ (R_e : M3 XR)) = _
    rw [R_e_fin]; rfl
  · rintro ⟨-, h⟩; simp [app, Re, dot] at h
example (g g' : GeoPoint (Sgn XR)) : (GeoPath.mk (.geo g) (.geo g')).point_a.Plain ∧ (GeoPath.mk (.geo g) (.geo g')).point_b.noWander := ⟨rfl, trivial⟩

end Nv
