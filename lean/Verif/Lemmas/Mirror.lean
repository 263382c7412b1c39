import Verif.Props.FloatSymmetry

/-!
# How a mirror image goes through the conversions

`flip3 s v` changes the signs of the components of `v` selected by `s`.
-/

namespace Nv
open Spec PyFloat OddLaws

class MirrorLaws (α : Type) [PyFloat α] : Prop extends OddLaws α where
  o_zero : -(lit 0 : α) = lit 0
  o_zero_mul (x : α) : -(lit 0 * x) = lit 0 * x
  o_sin (x : α) : sin (-x) = -sin x
  o_cos (x : α) : cos (-x) = cos x
  o_arctan2 (y x : α) : (eq y (lit 0) = true → lt (lit 0) x = true) → arctan2 (-y) x = -arctan2 y x

theorem XR.zero_mul_neg (x : XR) : XR.neg (XR.mul (.fin 0) x) = XR.mul (.fin 0) x := by
  cases x <;> simp [XR.mul, XR.neg, XR.signInf]

theorem arg_neg_im {x y : ℝ} (h : y = 0 → 0 < x) : Complex.arg ⟨x, -y⟩ = -Complex.arg ⟨x, y⟩ := by
  have := Complex.arg_conj (⟨x, y⟩ : ℂ)
  rw [show (starRingEnd ℂ) (⟨x, y⟩ : ℂ) = ⟨x, -y⟩ from rfl, if_neg] at this
  · exact this
  · intro he
    rw [Complex.arg_eq_pi_iff] at he
    have h0 := h he.2
    exact absurd he.1 (not_lt.mpr h0.le)

theorem XR.arctan2_neg' (y x : XR) (h : XR.eq y (.fin 0) = true → XR.lt (.fin 0) x = true) :
    XR.arctan2 (XR.neg y) x = XR.neg (XR.arctan2 y x) := by
  cases y with
  | nan => rfl
  | pinf => cases x <;> simp [XR.arctan2, XR.neg]
  | ninf => cases x <;> simp [XR.arctan2, XR.neg]
  | fin y =>
    cases x with
    | nan => rfl
    | pinf => simp [XR.arctan2, XR.neg]
    | ninf =>
      have hy : y ≠ 0 := by
        rintro rfl
        have := h (by simp [XR.eq])
        simp [XR.lt] at this
      simp only [XR.arctan2, XR.neg]
      rcases lt_or_gt_of_ne hy with hy | hy
      · rw [if_neg (by linarith), if_pos hy]; simp
      · rw [if_pos (by linarith), if_neg (by linarith)]
    | fin x =>
      have h' : y = 0 → 0 < x := by
        rintro rfl
        have := h (by simp [XR.eq])
        simpa [XR.lt] using this
      simp only [XR.arctan2, XR.neg]
      have hn : ¬ (x = 0 ∧ y = 0) := by rintro ⟨rfl, rfl⟩; exact lt_irrefl _ (h' rfl)
      rw [if_neg (by simpa using hn), if_neg hn, arg_neg_im h']

instance : MirrorLaws XR where
  o_zero := by change XR.neg (.fin _) = .fin _; simp [XR.neg]
  o_zero_mul x := by
    have := XR.zero_mul_neg x
    change XR.neg (XR.mul (.fin ((0 : ℚ) : ℝ)) x) = XR.mul (.fin ((0 : ℚ) : ℝ)) x
    simpa using this
  o_sin x := by cases x <;> first | rfl | exact congrArg XR.fin (Real.sin_neg _)
  o_cos x := by cases x <;> first | rfl | exact congrArg XR.fin (Real.cos_neg _)
  o_arctan2 y x h := XR.arctan2_neg' y x (by
    have e : (lit 0 : XR) = .fin 0 := by change XR.fin _ = _; simp
    rw [e] at h; exact h)

theorem F64.mirrorLaws {B : Binary64} (hB : SignSymmetric B) : MirrorLaws (F64 B) :=
  { F64.oddLaws hB.fl with
    o_zero := by rw [F64.lit_zero]; exact congrArg XR.fin neg_zero
    o_zero_mul := by
      intro x
      rw [F64.lit_zero]
      change XR.neg (F64.round B (XR.mul (.fin 0) x)) = F64.round B (XR.mul (.fin 0) x)
      rw [← F64.round_neg hB.fl]; exact congrArg _ (XR.zero_mul_neg x)
    o_sin := by
      intro x
      cases x with
      | fin x => exact congrArg XR.fin (hB.sin x)
      | _ => rfl
    o_cos := by
      intro x
      cases x with
      | fin x => exact congrArg XR.fin (hB.cos x)
      | _ => rfl
    o_arctan2 := by
      intro y x h
      rw [F64.lit_zero] at h
      have key : F64.round B (XR.arctan2 (XR.neg y) x) = XR.neg (F64.round B (XR.arctan2 y x)) := by
        rw [← F64.round_neg hB.fl]; exact congrArg _ (XR.arctan2_neg' y x h)
      cases y with
      | fin y =>
        cases x with
        | fin x =>
          have h' : y = 0 → 0 < x := by
            rintro rfl
            have := h (by rw [show (XR.fin 0 : F64 B) = F64.fin 0 from rfl, F64.fin_eq]; simp)
            change XR.lt _ _ = true at this
            simpa [XR.lt, F64.fin] using this
          have hn : ¬ (x = 0 ∧ y = 0) := by rintro ⟨rfl, rfl⟩; exact lt_irrefl _ (h' rfl)
          have e1 : arctan2 (F64.fin y : F64 B) (F64.fin x) = F64.fin (B.arctan2 y x) := if_neg hn
          have e2 : arctan2 (F64.fin (-y) : F64 B) (F64.fin x) = F64.fin (B.arctan2 (-y) x) := if_neg (by simpa using hn)
          change arctan2 (F64.fin (-y) : F64 B) (F64.fin x) = -arctan2 (F64.fin y : F64 B) (F64.fin x)
          rw [e1, e2, hB.arctan2 y x h']; rfl
        | _ => exact key
      | _ => exact key }

/-- change the signs of the selected components -/
def flip3 {α : Type} [PyFloat α] (s : Bool × Bool × Bool) (v : V3 α) : V3 α :=
  ⟨if s.1 then -v.x else v.x, if s.2.1 then -v.y else v.y, if s.2.2 then -v.z else v.z⟩

section
variable {α : Type} [PyFloat α] [MirrorLaws α]
open MirrorLaws

theorem zero_mul_neg' (x : α) : lit 0 * -x = lit 0 * x := by rw [odd_mul_neg, o_zero_mul]

variable (s : Bool × Bool × Bool)

theorem flip3_flip3 (v : V3 α) : flip3 s (flip3 s v) = v := by
  obtain ⟨a, b, c⟩ := s
  cases a <;> cases b <;> cases c <;> simp [flip3, o_neg_neg]

theorem norm3_flip (v : V3 α) : norm3 (flip3 s v) = norm3 v := by
  obtain ⟨a, b, c⟩ := s
  cases a <;> cases b <;> cases c <;> simp [flip3, norm3, odd_neg_mul_neg]

theorem dot3_flip (v w : V3 α) : dot3 (flip3 s v) (flip3 s w) = dot3 v w := by
  obtain ⟨a, b, c⟩ := s
  cases a <;> cases b <;> cases c <;> simp [flip3, dot3, odd_neg_mul_neg]

theorem sub3_flip (v w : V3 α) : sub3 (flip3 s v) (flip3 s w) = flip3 s (sub3 v w) := by
  obtain ⟨a, b, c⟩ := s
  cases a <;> cases b <;> cases c <;> simp [flip3, sub3, odd_neg_sub_neg]

theorem add3_flip (v w : V3 α) : add3 (flip3 s v) (flip3 s w) = flip3 s (add3 v w) := by
  obtain ⟨a, b, c⟩ := s
  cases a <;> cases b <;> cases c <;> simp [flip3, add3, o_neg_add]

theorem scale3_flip (v : V3 α) (t : α) : scale3 (flip3 s v) t = flip3 s (scale3 v t) := by
  obtain ⟨a, b, c⟩ := s
  cases a <;> cases b <;> cases c <;> simp [flip3, scale3, o_neg_mul]

theorem div3_flip (v : V3 α) (t : α) : div3 (flip3 s v) t = flip3 s (div3 v t) := by
  obtain ⟨a, b, c⟩ := s
  cases a <;> cases b <;> cases c <;> simp [flip3, div3, o_neg_div]

theorem ediv3_flip (v w : V3 α) : ediv3 (flip3 s v) w = flip3 s (ediv3 v w) := by
  obtain ⟨a, b, c⟩ := s
  cases a <;> cases b <;> cases c <;> simp [flip3, ediv3, o_neg_div]

theorem unit_flip (v : V3 α) (z : α) (h : eq (norm3 v) (lit 0) = false) : unit (flip3 s v) z = flip3 s (unit v z) := by
  simp only [unit, norm3_flip, h, Bool.false_eq_true, if_false, div3_flip]

theorem equation23_flip (a f : α) (p : V3 α) : equation23 a f (flip3 s p) = equation23 a f p := by
  obtain ⟨u, v, w⟩ := s
  cases u <;> cases v <;> cases w <;> simp [flip3, equation23, powNat_two_neg]

/-- the signs in the frame `e` when `R_Ee` is the matrix of the axes -/
def inAxes (axes : String) (s : Bool × Bool × Bool) : Bool × Bool × Bool := if axes = "e" then (s.2.2, s.2.1, s.1) else s

theorem mulVec_Re_flip (v : V3 α) : mulVec R_e (flip3 s v) = flip3 (s.2.2, s.2.1, s.1) (mulVec R_e v) := by
  obtain ⟨a, b, c⟩ := s
  cases a <;> cases b <;> cases c <;>
    simp [flip3, mulVec, dot3, R_e, odd_mul_neg, ← o_neg_add, o_zero_mul]

theorem mulVec_trRe_flip (v : V3 α) : mulVec (tr R_e) (flip3 s v) = flip3 (s.2.2, s.2.1, s.1) (mulVec (tr R_e) v) := by
  obtain ⟨a, b, c⟩ := s
  cases a <;> cases b <;> cases c <;>
    simp [flip3, mulVec, dot3, R_e, tr, odd_mul_neg, ← o_neg_add, o_zero_mul]

theorem mulVec_RE_flip (v : V3 α) : mulVec R_E (flip3 s v) = flip3 s (mulVec R_E v) := by
  obtain ⟨a, b, c⟩ := s
  cases a <;> cases b <;> cases c <;>
    simp [flip3, mulVec, dot3, R_E, odd_mul_neg, ← o_neg_add, o_zero_mul]

theorem mulVec_trRE_flip (v : V3 α) : mulVec (tr R_E) (flip3 s v) = flip3 s (mulVec (tr R_E) v) := by
  obtain ⟨a, b, c⟩ := s
  cases a <;> cases b <;> cases c <;>
    simp [flip3, mulVec, dot3, R_E, tr, odd_mul_neg, ← o_neg_add, o_zero_mul]

/-- a matrix under which mirror images stay mirror images -/
structure Mirrors (R : M3 α) (s t : Bool × Bool × Bool) : Prop where
  fwd : ∀ v, mulVec R (flip3 s v) = flip3 t (mulVec R v)
  back : ∀ v, mulVec (tr R) (flip3 t v) = flip3 s (mulVec (tr R) v)

theorem mirrors_Re : Mirrors (R_e : M3 α) s (s.2.2, s.2.1, s.1) :=
  ⟨mulVec_Re_flip s, fun v => mulVec_trRe_flip _ v⟩

theorem mirrors_RE : Mirrors (R_E : M3 α) s s := ⟨mulVec_RE_flip s, mulVec_trRE_flip s⟩

variable {s} {t : Bool × Bool × Bool} {R : M3 α}

theorem n2p_flip (hR : Mirrors R s t) (n : V3 α) (depth a f : α) (h : eq (norm3 (mulVec R n)) (lit 0) = false) :
    n_EB_E2p_EB_E (flip3 s n) depth a f R = flip3 s (n_EB_E2p_EB_E n depth a f R) := by
  have e : ∀ (k l m o : α) (q : V3 α), (⟨k * (flip3 t q).x / l, k * (flip3 t q).y / m, k * (flip3 t q).z / o⟩ : V3 α) =
      flip3 t ⟨k * q.x / l, k * q.y / m, k * q.z / o⟩ := by
    intro k l m o q
    obtain ⟨a, b, c⟩ := t
    cases a <;> cases b <;> cases c <;> simp [flip3, odd_mul_neg, o_neg_div]
  simp only [n_EB_E2p_EB_E, hR.fwd, unit_flip _ _ _ h, ediv3_flip, norm3_flip, scale3_flip, e, sub3_flip, hR.back]

theorem preUnit_flip (hR : Mirrors R s t) (p : V3 α) (a f : α) : preUnit (flip3 s p) a f R = flip3 s (preUnit p a f R) := by
  have e : ∀ (k l : α) (q : V3 α), (⟨k * (flip3 t q).x, l * (flip3 t q).y, l * (flip3 t q).z⟩ : V3 α) =
      flip3 t ⟨k * q.x, l * q.y, l * q.z⟩ := by
    intro k l q
    obtain ⟨a, b, c⟩ := t
    cases a <;> cases b <;> cases c <;> simp [flip3, odd_mul_neg]
  simp only [preUnit, hR.fwd, equation23_flip, e, hR.back]

theorem p2n_depth_flip (hR : Mirrors R s t) (p : V3 α) (a f : α) :
    (p_EB_E2n_EB_E (flip3 s p) a f R).2 = (p_EB_E2n_EB_E p a f R).2 := by
  simp only [p_EB_E2n_EB_E, hR.fwd, equation23_flip]

omit [MirrorLaws α] in
theorem p2n_eq_unit (p : V3 α) (a f : α) : (p_EB_E2n_EB_E p a f R).1 = unit (preUnit p a f R) := rfl

theorem p2n_flip (hR : Mirrors R s t) (p : V3 α) (a f : α) (h : eq (norm3 (preUnit p a f R)) (lit 0) = false) :
    (p_EB_E2n_EB_E (flip3 s p) a f R).1 = flip3 s (p_EB_E2n_EB_E p a f R).1 := by
  rw [p2n_eq_unit, p2n_eq_unit, preUnit_flip hR, unit_flip _ _ _ h]

/-! ## Latitude, longitude and the local axes -/

/-- mirror image in the equator, in the frame `e` -/
abbrev NSe : Bool × Bool × Bool := (true, false, false)
/-- mirror image in the meridian plane of Greenwich, in the frame `e` -/
abbrev EWe : Bool × Bool × Bool := (false, true, false)

theorem latlon_NS (hR : Mirrors R s NSe) (lat lon : α) : lat_lon2n_E (-lat) lon R = flip3 s (lat_lon2n_E lat lon R) := by
  simp only [lat_lon2n_E, ← hR.back]
  simp [flip3, o_sin, o_cos]

theorem latlon_EW (hR : Mirrors R s EWe) (lat lon : α) : lat_lon2n_E lat (-lon) R = flip3 s (lat_lon2n_E lat lon R) := by
  simp only [lat_lon2n_E, ← hR.back]
  simp [flip3, o_sin, o_cos, o_neg_mul]

theorem n2latlon_NS (hR : Mirrors R s NSe) (n : V3 α)
    (h : eq (mulVec R n).x (lit 0) = true → lt (lit 0) (sqrt (powNat (mulVec R n).y 2 + powNat (mulVec R n).z 2)) = true) :
    n_E2lat_lon (flip3 s n) R = (-(n_E2lat_lon n R).1, (n_E2lat_lon n R).2) := by
  simp only [n_E2lat_lon, hR.fwd]
  simp only [flip3, if_true, Bool.false_eq_true, if_false]
  rw [o_arctan2 _ _ h]

theorem n2latlon_EW (hR : Mirrors R s EWe) (n : V3 α)
    (h : eq (mulVec R n).y (lit 0) = true → lt (lit 0) (-(mulVec R n).z) = true) :
    n_E2lat_lon (flip3 s n) R = ((n_E2lat_lon n R).1, -(n_E2lat_lon n R).2) := by
  simp only [n_E2lat_lon, hR.fwd]
  simp only [flip3, if_true, Bool.false_eq_true, if_false, powNat_two_neg]
  rw [o_arctan2 _ _ h]

/-- the columns of `n_E2R_EN` in the frame `e` -/
def northDown (n : V3 α) : V3 α × V3 α × V3 α :=
  let Nz := neg3 n
  let d := cross3 ⟨lit 1, lit 0, lit 0⟩ n
  let Ny := if eq (norm3 d) (lit 0) then ⟨lit 0, lit 1, lit 0⟩ else unit d
  (cross3 Ny Nz, Ny, Nz)

omit [MirrorLaws α] in
theorem R_EN_cols (n : V3 α) : tr (n_E2R_EN n R) = ⟨mulVec (tr R) (northDown (unit (mulVec R n))).1,
    mulVec (tr R) (northDown (unit (mulVec R n))).2.1, mulVec (tr R) (northDown (unit (mulVec R n))).2.2⟩ := by
  rfl

theorem zz (x y : α) : -(lit 0 * x - lit 0 * y) = lit 0 * x - lit 0 * y := by
  rw [o_sub_eq, ← o_neg_add, o_zero_mul, o_zero_mul, o_zero_mul]

theorem northDown_NS (n : V3 α) : northDown (flip3 NSe n) =
    (neg3 (flip3 NSe (northDown n).1), flip3 NSe (northDown n).2.1, flip3 NSe (northDown n).2.2) := by
  have hd : cross3 ⟨lit 1, lit 0, lit 0⟩ (flip3 NSe n) = flip3 NSe (cross3 ⟨lit 1, lit 0, lit 0⟩ n) := by
    simp [cross3, flip3, zero_mul_neg', zz]
  have hy : (northDown (flip3 NSe n)).2.1 = flip3 NSe (northDown n).2.1 := by
    simp only [northDown, hd, norm3_flip]
    split_ifs with h
    · simp [flip3, o_zero]
    · rw [unit_flip _ _ _ (by simpa using h)]
  have hz : (northDown (flip3 NSe n)).2.2 = flip3 NSe (northDown n).2.2 := by
    simp [northDown, flip3, neg3]
  have hx : (northDown (flip3 NSe n)).1 = cross3 (northDown (flip3 NSe n)).2.1 (northDown (flip3 NSe n)).2.2 := rfl
  have hx' : (northDown n).1 = cross3 (northDown n).2.1 (northDown n).2.2 := rfl
  refine Prod.ext ?_ (Prod.ext hy hz)
  rw [hx, hy, hz]
  simp only [hx']
  simp [cross3, flip3, neg3, odd_mul_neg, o_neg_mul, odd_neg_sub_neg, o_neg_neg]

theorem northDown_EW (n : V3 α) : northDown (flip3 EWe n) =
    (flip3 EWe (northDown n).1, neg3 (flip3 EWe (northDown n).2.1), flip3 EWe (northDown n).2.2) := by
  have hd : cross3 ⟨lit 1, lit 0, lit 0⟩ (flip3 EWe n) = neg3 (flip3 EWe (cross3 ⟨lit 1, lit 0, lit 0⟩ n)) := by
    simp only [cross3, flip3, neg3, if_true, Bool.false_eq_true, if_false, zero_mul_neg', zz, o_neg_neg, V3.mk.injEq, true_and]
    rw [odd_mul_neg, o_sub_eq, o_sub_eq, ← o_neg_add, o_neg_neg, o_zero_mul]
  have hy : (northDown (flip3 EWe n)).2.1 = neg3 (flip3 EWe (northDown n).2.1) := by
    simp only [northDown, hd, norm3_neg3, norm3_flip]
    split_ifs with h
    · simp [flip3, neg3, o_zero, o_neg_neg]
    · rw [unit_neg _ _ (by rw [norm3_flip]; simpa using h), unit_flip _ _ _ (by simpa using h)]
  have hz : (northDown (flip3 EWe n)).2.2 = flip3 EWe (northDown n).2.2 := by
    simp [northDown, flip3, neg3]
  have hx : (northDown (flip3 EWe n)).1 = cross3 (northDown (flip3 EWe n)).2.1 (northDown (flip3 EWe n)).2.2 := rfl
  have hx' : (northDown n).1 = cross3 (northDown n).2.1 (northDown n).2.2 := rfl
  refine Prod.ext ?_ (Prod.ext hy hz)
  rw [hx, hy, hz]
  simp only [hx']
  simp [cross3, flip3, neg3, odd_mul_neg, o_neg_mul, odd_neg_sub_neg, o_neg_neg]

/-- the components in the local frame of a mirrored vector at the mirrored place -/
theorem R_EN_NS (hR : Mirrors R s NSe) (n v : V3 α) (h : eq (norm3 (mulVec R n)) (lit 0) = false) :
    mulVec (tr (n_E2R_EN (flip3 s n) R)) (flip3 s v) = flip3 (true, false, false) (mulVec (tr (n_E2R_EN n R)) v) := by
  rw [R_EN_cols, R_EN_cols, hR.fwd, unit_flip _ _ _ h, northDown_NS]
  simp only [mulVec_neg, hR.back]
  simp only [mulVec, dot3_neg, dot3_flip]
  rfl

theorem R_EN_EW (hR : Mirrors R s EWe) (n v : V3 α) (h : eq (norm3 (mulVec R n)) (lit 0) = false) :
    mulVec (tr (n_E2R_EN (flip3 s n) R)) (flip3 s v) = flip3 (false, true, false) (mulVec (tr (n_E2R_EN n R)) v) := by
  rw [R_EN_cols, R_EN_cols, hR.fwd, unit_flip _ _ _ h, northDown_EW]
  simp only [mulVec_neg, hR.back]
  simp only [mulVec, dot3_neg, dot3_flip]
  rfl

end
end Nv
