import Verif.Signed.Arith
import Verif.Model.Objects
import Verif.Float.Exact

/-!
# Functions of the library on numbers with signed zeros
-/

namespace Nv
open PyFloat Sgn

/-- rules about signs that both arithmetics satisfy -/
class SignLaws (α : Type) [PyFloat α] : Prop where
  lit_nonneg (q : ℚ) : 0 ≤ q → lt (lit q : α) (lit 0) = false
  mul_self (x : α) : lt (x * x) (lit 0) = false
  sqrt_nonneg (x : α) : lt (sqrt x) (lit 0) = false
  add_nonneg (x y : α) : lt x (lit 0) = false → lt y (lit 0) = false → lt (x + y) (lit 0) = false
  div_nonneg (x y : α) : lt x (lit 0) = false → lt y (lit 0) = false → lt (x / y) (lit 0) = false
  powi_nonneg (x : α) (n : ℕ) : lt x (lit 0) = false → lt (powi x n) (lit 0) = false
  arctan2_zero (y x : α) : eq y (lit 0) = true → lt x (lit 0) = false → eq x (lit 0) = false → -arctan2 y x = arctan2 y x

theorem XR.lit_zero_XR : (lit 0 : XR) = XR.fin 0 := by change XR.fin ((0 : ℚ) : ℝ) = _; simp

theorem XR.signInf_nonneg {x : ℝ} (h : 0 ≤ x) : XR.lt (XR.signInf x) (XR.fin 0) = false := by
  unfold XR.signInf
  by_cases h' : 0 < x
  · rw [if_pos h']; rfl
  · rw [if_neg h', if_neg (not_lt.mpr h)]; rfl

theorem XR.add_nonneg' {x y : XR} (hx : XR.lt x (XR.fin 0) = false) (hy : XR.lt y (XR.fin 0) = false) :
    XR.lt (XR.add x y) (XR.fin 0) = false := by
  cases x <;> cases y <;> simp_all [XR.lt, XR.add]
  linarith

theorem XR.mul_nonneg' {x y : XR} (hx : XR.lt x (XR.fin 0) = false) (hy : XR.lt y (XR.fin 0) = false) :
    XR.lt (XR.mul x y) (XR.fin 0) = false := by
  cases x <;> cases y <;> first
    | (simp [XR.lt] at hx hy; done)
    | (simp only [XR.lt, decide_eq_false_iff_not, not_lt] at hx hy; exact XR.signInf_nonneg (by assumption))
    | (simp_all [XR.lt, XR.mul]; done)
    | (simp_all only [XR.lt, XR.mul, decide_eq_false_iff_not, not_lt]; exact mul_nonneg hx hy)

theorem XR.div_nonneg' {x y : XR} (hx : XR.lt x (XR.fin 0) = false) (hy : XR.lt y (XR.fin 0) = false) :
    XR.lt (XR.div x y) (XR.fin 0) = false := by
  cases x with
  | fin x =>
    cases y with
    | fin y =>
      simp only [XR.lt, decide_eq_false_iff_not, not_lt] at hx hy
      by_cases h : y = 0
      · simp only [XR.div, if_pos h]; exact XR.signInf_nonneg hx
      · simp only [XR.div, if_neg h, XR.lt, decide_eq_false_iff_not, not_lt]; exact div_nonneg hx hy
    | _ => simp_all [XR.lt, XR.div]
  | pinf =>
    cases y with
    | fin y =>
      simp only [XR.lt, decide_eq_false_iff_not, not_lt] at hy
      simp only [XR.div, if_neg (not_lt.mpr hy)]; rfl
    | _ => simp_all [XR.lt, XR.div]
  | ninf => simp [XR.lt] at hx
  | nan => simp [XR.div, XR.lt]

theorem XR.powi_nonneg' {x : XR} (n : ℕ) (hx : XR.lt x (XR.fin 0) = false) : XR.lt (XR.powi x n) (XR.fin 0) = false := by
  induction n with
  | zero => simp [XR.powi, XR.lt]
  | succ n ih =>
    cases n with
    | zero => exact hx
    | succ n => exact XR.mul_nonneg' ih hx

instance : SignLaws XR where
  lit_nonneg q h := by
    change XR.lt (XR.fin q) (XR.fin (0 : ℚ)) = false
    simp only [XR.lt, decide_eq_false_iff_not, not_lt]
    exact_mod_cast h
  mul_self x := by
    change XR.lt (XR.mul x x) (XR.fin (0 : ℚ)) = false
    cases x with
    | fin x => simp only [XR.mul, XR.lt, decide_eq_false_iff_not, not_lt]; push_cast; exact mul_self_nonneg x
    | _ => simp [XR.mul, XR.lt]
  sqrt_nonneg x := by
    change XR.lt (XR.sqrt x) (XR.fin (0 : ℚ)) = false
    cases x with
    | fin x =>
      by_cases h : x < 0
      · simp [XR.sqrt, h, XR.lt]
      · simp only [XR.sqrt, if_neg h]
        simp only [XR.lt, decide_eq_false_iff_not, not_lt]; push_cast; exact Real.sqrt_nonneg x
    | _ => simp [XR.sqrt, XR.lt]
  add_nonneg x y hx hy := by rw [XR.lit_zero_XR] at *; exact XR.add_nonneg' hx hy
  div_nonneg x y hx hy := by rw [XR.lit_zero_XR] at *; exact XR.div_nonneg' hx hy
  powi_nonneg x n hx := by rw [XR.lit_zero_XR] at *; exact XR.powi_nonneg' n hx
  arctan2_zero y x hy hx hz := by
    rw [XR.lit_zero_XR] at *
    change XR.eq y (XR.fin 0) = true at hy
    change XR.lt x (XR.fin 0) = false at hx
    change XR.eq x (XR.fin 0) = false at hz
    change XR.neg (XR.arctan2 y x) = XR.arctan2 y x
    cases y with
    | fin y =>
      simp only [XR.eq, decide_eq_true_eq] at hy
      subst hy
      cases x with
      | fin x =>
        simp only [XR.lt, decide_eq_false_iff_not, not_lt] at hx
        simp only [XR.eq, decide_eq_false_iff_not] at hz
        have e : (⟨x, 0⟩ : ℂ) = (x : ℂ) := rfl
        simp only [XR.arctan2]
        rw [if_neg (fun h => hz h.1), e, Complex.arg_ofReal_of_nonneg hx]
        simp [XR.neg]
      | pinf => simp [XR.arctan2, XR.neg]
      | nan => simp [XR.arctan2, XR.neg]
      | ninf => simp [XR.lt] at hx
    | _ => simp [XR.eq] at hy

theorem F64.lit_zero_XR {B : Spec.Binary64} : (lit 0 : F64 B) = XR.fin 0 := by
  change F64.rnd B ((0 : ℚ) : ℝ) = _
  have h0 : B.fl 0 = 0 := B.rounds.exact isF64_zero
  unfold F64.rnd
  push_cast
  rw [h0, abs_zero]
  exact if_pos (by positivity)

theorem F64.round_nonneg {B : Spec.Binary64} {x : XR} (h : XR.lt x (XR.fin 0) = false) : XR.lt (F64.round B x) (XR.fin 0) = false := by
  cases x with
  | fin x =>
    simp only [XR.lt, decide_eq_false_iff_not, not_lt] at h
    by_cases hb : |B.fl x| < (2 : ℝ) ^ (1024 : ℤ)
    · have e : F64.round B (XR.fin x) = XR.fin (B.fl x) := if_pos hb
      rw [e]
      simp only [XR.lt, decide_eq_false_iff_not, not_lt]; exact B.rounds.nonneg h
    · have e : F64.round B (XR.fin x) = XR.signInf x := if_neg hb
      rw [e]
      unfold XR.signInf
      by_cases h' : 0 < x
      · rw [if_pos h']; rfl
      · rw [if_neg h', if_neg (not_lt.mpr h)]; rfl
  | ninf => simp [XR.lt] at h
  | _ => rfl

instance {B : Spec.Binary64} : SignLaws (F64 B) where
  lit_nonneg q h := by
    rw [F64.lit_zero_XR]
    change XR.lt (F64.rnd B q) (XR.fin 0) = false
    exact F64.round_nonneg (B := B) (x := XR.fin q) (by simpa [XR.lt] using h)
  mul_self x := by
    rw [F64.lit_zero_XR]
    refine F64.round_nonneg (x := XR.mul x x) ?_
    have := SignLaws.mul_self (α := XR) x
    change XR.lt (XR.mul x x) (XR.fin (0 : ℚ)) = false at this
    push_cast at this; exact this
  sqrt_nonneg x := by
    rw [F64.lit_zero_XR]
    refine F64.round_nonneg (x := XR.sqrt x) ?_
    have := SignLaws.sqrt_nonneg (α := XR) x
    change XR.lt (XR.sqrt x) (XR.fin (0 : ℚ)) = false at this
    push_cast at this; exact this
  add_nonneg x y hx hy := by rw [F64.lit_zero_XR] at *; exact F64.round_nonneg (XR.add_nonneg' hx hy)
  div_nonneg x y hx hy := by rw [F64.lit_zero_XR] at *; exact F64.round_nonneg (XR.div_nonneg' hx hy)
  powi_nonneg x n hx := by
    rw [F64.lit_zero_XR] at *
    cases x with
    | fin x =>
      have hx' : 0 ≤ x := by
        change decide (x < 0) = false at hx
        simpa using hx
      by_cases hb : |B.pow x n| < (2 : ℝ) ^ (1024 : ℤ)
      · have e : (powi (XR.fin x : F64 B) n : F64 B) = XR.fin (B.pow x n) := if_pos hb
        rw [e]
        change decide (B.pow x n < 0) = false
        simpa using B.pow_nonneg x n hx'
      · have e : (powi (XR.fin x : F64 B) n : F64 B) = XR.signInf (x ^ n) := if_neg hb
        rw [e]
        exact XR.signInf_nonneg (pow_nonneg hx' n)
    | nan => exact XR.powi_nonneg' n hx
    | pinf => exact XR.powi_nonneg' n hx
    | ninf => exact XR.powi_nonneg' n hx
  arctan2_zero y x hy hx hz := by
    rw [F64.lit_zero_XR] at *
    change XR.eq y (XR.fin 0) = true at hy
    change XR.lt x (XR.fin 0) = false at hx
    change XR.eq x (XR.fin 0) = false at hz
    have hc : ∀ c : ℝ, c = 0 → F64.round B (XR.fin c) = XR.fin 0 := by
      rintro c rfl
      have := F64.lit_zero_XR (B := B)
      change F64.rnd B ((0 : ℚ) : ℝ) = _ at this
      push_cast at this
      exact this
    cases y with
    | fin y =>
      simp only [XR.eq, decide_eq_true_eq] at hy
      subst hy
      cases x with
      | fin x =>
        simp only [XR.lt, decide_eq_false_iff_not, not_lt] at hx
        simp only [XR.eq, decide_eq_false_iff_not] at hz
        have e : (arctan2 (XR.fin 0 : F64 B) (XR.fin x : F64 B) : F64 B) = XR.fin (B.arctan2 0 x) := if_neg fun h => hz h.1
        rw [e, B.arctan2_zero x (lt_of_le_of_ne hx (Ne.symm hz))]
        change XR.neg (XR.fin 0) = XR.fin 0
        simp [XR.neg]
      | pinf =>
        change XR.neg (F64.round B (XR.fin 0)) = F64.round B (XR.fin 0)
        rw [hc 0 rfl]; simp [XR.neg]
      | nan => rfl
      | ninf => simp [XR.lt] at hx
    | _ => simp [XR.eq] at hy

section
variable {α : Type} [PyFloat α]

omit [PyFloat α] in
@[simp] theorem V3.val_x (v : V3 (Sgn α)) : v.val.x = v.x.val := rfl
omit [PyFloat α] in
@[simp] theorem V3.val_y (v : V3 (Sgn α)) : v.val.y = v.y.val := rfl
omit [PyFloat α] in
@[simp] theorem V3.val_z (v : V3 (Sgn α)) : v.val.z = v.z.val := rfl
omit [PyFloat α] in
@[simp] theorem V3.val_mk (x y z : Sgn α) : (⟨x, y, z⟩ : V3 (Sgn α)).val = ⟨x.val, y.val, z.val⟩ := rfl

@[simp] theorem dot3_val (v w : V3 (Sgn α)) : (dot3 v w).val = dot3 v.val w.val := rfl
@[simp] theorem cross3_val (v w : V3 (Sgn α)) : (cross3 v w).val = cross3 v.val w.val := rfl
@[simp] theorem norm3_val (v : V3 (Sgn α)) : (norm3 v).val = norm3 v.val := rfl
@[simp] theorem add3_val (v w : V3 (Sgn α)) : (add3 v w).val = add3 v.val w.val := rfl
@[simp] theorem sub3_val (v w : V3 (Sgn α)) : (sub3 v w).val = sub3 v.val w.val := rfl
@[simp] theorem neg3_val (v : V3 (Sgn α)) : (neg3 v).val = neg3 v.val := rfl
@[simp] theorem scale3_val (v : V3 (Sgn α)) (s : Sgn α) : (scale3 v s).val = scale3 v.val s.val := rfl
@[simp] theorem mulVec_val (M : M3 (Sgn α)) (v : V3 (Sgn α)) : (mulVec M v).val = mulVec M.val v.val := rfl
omit [PyFloat α] in
@[simp] theorem tr_val (M : M3 (Sgn α)) : (tr M).val = tr M.val := rfl
omit [PyFloat α] in
@[simp] theorem ofCols_val (a b c : V3 (Sgn α)) : (ofCols a b c).val = ofCols a.val b.val c.val := rfl
@[simp] theorem mdot_val (A B : M3 (Sgn α)) : (mdot A B).val = mdot A.val B.val := rfl
@[simp] theorem R_e_val : (R_e : M3 (Sgn α)).val = R_e := rfl
@[simp] theorem R_E_val : (R_E : M3 (Sgn α)).val = R_E := rfl

theorem div3_val (v : V3 (Sgn α)) {s : Sgn α} (h : s.minusZero = false) : (div3 v s).val = div3 v.val s.val := by
  unfold div3; simp [div_val _ _ h]
theorem ediv3_val (v : V3 (Sgn α)) {w : V3 (Sgn α)} (hx : w.x.minusZero = false) (hy : w.y.minusZero = false) (hz : w.z.minusZero = false) :
    (ediv3 v w).val = ediv3 v.val w.val := by
  unfold ediv3; simp [div_val _ _ hx, div_val _ _ hy, div_val _ _ hz]

theorem squares_neg (x y z : Sgn α) : (x * x + y * y + z * z).neg = false :=
  add_left_neg _ _ (add_left_neg _ _ (mul_self_neg x))
theorem norm3_neg (v : V3 (Sgn α)) : (norm3 v).neg = false := by
  unfold norm3; rw [sqrt_neg]; exact mz_of_neg (squares_neg _ _ _)
theorem norm3_mz (v : V3 (Sgn α)) : (norm3 v).minusZero = false := mz_of_neg (norm3_neg v)

omit [PyFloat α] in
theorem ite_val {c : Prop} [Decidable c] (a b : Sgn α) : (if c then a else b).val = if c then a.val else b.val := apply_ite _ _ _ _
omit [PyFloat α] in
theorem ite_V3 {c : Prop} [Decidable c] (a b : V3 (Sgn α)) : (if c then a else b).val = if c then a.val else b.val := apply_ite _ _ _ _

@[simp] theorem unit_val (v : V3 (Sgn α)) (z : Sgn α) : (unit v z).val = unit v.val z.val := by
  unfold unit
  rw [ite_V3]
  simp only [ div3_val v (addTiny_mz _), eq_val, addTiny_val, norm3_val, lit_val, V3.val_mk, mul_val]

@[simp] theorem lat_lon2n_E_val (lat lon : Sgn α) (R : M3 (Sgn α)) : (lat_lon2n_E lat lon R).val = lat_lon2n_E lat.val lon.val R.val := rfl

theorem n_E2R_EN_val (n : V3 (Sgn α)) (R : M3 (Sgn α)) : (n_E2R_EN n R).val = n_E2R_EN n.val R.val := by
  unfold n_E2R_EN
  simp [ite_V3]

theorem n_EB_E2p_EB_E_val (n : V3 (Sgn α)) (depth a f : Sgn α) (R : M3 (Sgn α)) :
    (n_EB_E2p_EB_E n depth a f R).val = n_EB_E2p_EB_E n.val depth.val a.val f.val R.val := by
  have h1 : (lit 1 - f : Sgn α).minusZero = false := mz_of_neg (sub_left_mz _ _ (lit_mz 1))
  have h2 (x : Sgn α) : (powNat x 2).minusZero = false := mz_of_neg (mul_self_neg x)
  have h3 (v : V3 (Sgn α)) : (ediv3 v ⟨lit 1, lit 1 - f, lit 1 - f⟩).val = ediv3 v.val ⟨lit 1, lit 1 - f.val, lit 1 - f.val⟩ := by
    rw [ediv3_val (w := ⟨lit 1, lit 1 - f, lit 1 - f⟩) v (lit_mz 1) h1 h1]; rfl
  unfold n_EB_E2p_EB_E
  simp only [mulVec_val, tr_val, sub3_val, scale3_val, V3.val_mk, div_val _ _ (h2 _), mul_val, div_val _ _ (norm3_mz _), powNat_val, norm3_val,
    h3, unit_val, sub_val, lit_val]
  simp only [← V3.val_x, ← V3.val_y, ← V3.val_z, unit_val, mulVec_val, lit_val]

/-! ## Vermeille's formulas -/

theorem isNeg_of_neg {x : Sgn α} (h : x.neg = false) (h' : lt x.val (lit 0) = false) : x.isNeg = false := by
  unfold isNeg; split_ifs <;> assumption

variable [SignLaws α]

theorem lit_isNeg {q : ℚ} (h : 0 ≤ q) : (lit q : Sgn α).isNeg = false := isNeg_of_neg rfl (SignLaws.lit_nonneg q h)
theorem sq_isNeg (x : Sgn α) : (x * x).isNeg = false := isNeg_of_neg (mul_self_neg x) (SignLaws.mul_self _)
theorem sqrt_isNeg {x : Sgn α} (h : x.minusZero = false) : (sqrt x).isNeg = false := isNeg_of_neg (by rw [sqrt_neg, h]) (SignLaws.sqrt_nonneg _)
theorem mul_neg {x y : Sgn α} : (x * y).neg = (x.isNeg ^^ y.isNeg) := rfl
theorem div_neg' {x y : Sgn α} : (x / y).neg = (x.isNeg ^^ y.isNeg) := rfl

theorem lit_mul_mz {q : ℚ} (h : 0 ≤ q) {x : Sgn α} (hx : x.isNeg = false) : (lit q * x).minusZero = false :=
  mz_of_neg (by rw [mul_neg, lit_isNeg h, hx]; rfl)

theorem nthroot3_val (x : Sgn α) : (nthroot x 3).val = nthroot x.val 3 := by
  have h1 : (lit ((3 : ℕ) : ℚ) * powNat (rootn 3 x) (3 - 1) : Sgn α).minusZero = false :=
    lit_mul_mz (by norm_num) (sq_isNeg _)
  unfold nthroot
  rw [ite_val]
  simp only [sub_val, div_val _ _ h1, mul_val, lit_val, powNat_val, rootn_val, eq_val, lt_val, abs_val]

theorem nthroot3_mz (x : Sgn α) : (nthroot x 3).minusZero = false := by
  have h : (rootn 3 x : Sgn α).minusZero = false := mz_of_neg rfl
  unfold nthroot
  dsimp only
  split_ifs
  · exact mz_of_neg (sub_left_mz _ _ h)
  · exact h

/-- the numerator of `r` in `_compute_k`, `p + q - e^4` (core.py:153): negative inside the core of the Earth -/
def coreTerm {α : Type} [PyFloat α] (a e_2 q Ryz_2 : α) : α := Ryz_2 / powi a 2 + q - powi e_2 2

theorem compute_k_val {a e_2 q Y : Sgn α} (ha : lt a.val (lit 0) = false) (hY : Y.neg = false) (hY' : lt Y.val (lit 0) = false)
    (hc : lt (coreTerm a.val e_2.val q.val Y.val) (lit 0) = false ∨
      eq (lit 4 * powNat (coreTerm a.val e_2.val q.val Y.val / lit 6) 3) (lit 0 : α) = false) :
    (compute_k a e_2 q Y).val = compute_k a.val e_2.val q.val Y.val ∧ (compute_k a e_2 q Y).minusZero = false := by
  have ha2 : (powi a 2 : Sgn α).neg = false := rfl
  have ha2' : (powi a 2 : Sgn α).isNeg = false := isNeg_of_neg rfl (SignLaws.powi_nonneg _ 2 ha)
  have hp : (Y / powi a 2).neg = false := by rw [div_neg', isNeg_of_neg hY hY', ha2']; rfl
  have hpv : (Y / powi a 2).val = Y.val / powi a.val 2 := div_val _ _ (mz_of_neg ha2)
  obtain ⟨num, hnum⟩ : ∃ num, num = Y / powi a 2 + q - powi e_2 2 := ⟨_, rfl⟩
  have hnv : num.val = coreTerm a.val e_2.val q.val Y.val := by rw [hnum, sub_val, add_val, hpv]; rfl
  have hnn : num.neg = false := by rw [hnum]; exact sub_left_mz _ _ (mz_of_neg (add_left_neg _ _ hp))
  have h6 : (lit 6 : Sgn α).isNeg = false := lit_isNeg (by norm_num)
  obtain ⟨r, hr⟩ : ∃ r, r = num / lit 6 := ⟨_, rfl⟩
  have hrv : r.val = num.val / lit 6 := by rw [hr, div_val _ _ (lit_mz 6)]; rfl
  rw [← hnv] at hc
  rw [← hrv] at hc
  have hd : (lit 4 * powNat r 3 : Sgn α).minusZero = false := by
    rcases hc with hc | hc
    · have hni : num.isNeg = false := isNeg_of_neg hnn hc
      have hrn : r.neg = false := by rw [hr, div_neg', hni, h6]; rfl
      have hrl : lt r.val (lit 0) = false := by rw [hrv]; exact SignLaws.div_nonneg _ _ hc (SignLaws.lit_nonneg 6 (by norm_num))
      have hri := isNeg_of_neg hrn hrl
      refine lit_mul_mz (by norm_num) (isNeg_of_neg ?_ (SignLaws.powi_nonneg _ 3 hrl))
      have e3 : (powNat r 3 : Sgn α).neg = ((0 + 3) % 2 == 1 && r.isNeg) := rfl
      rw [e3, hri]; rfl
    · have : (lit 4 * powNat r 3 : Sgn α).isZero = false := hc
      unfold minusZero; rw [this]; rfl
  have h2 (v : Sgn α) (hv : v.minusZero = false) : (lit 2 * sqrt v : Sgn α).minusZero = false := lit_mul_mz (by norm_num) (sqrt_isNeg hv)
  have hsq (u w : Sgn α) : (powNat u 2 + w : Sgn α).minusZero = false := mz_of_neg (add_left_neg _ _ (mul_self_neg u))
  constructor
  · unfold compute_k
    simp only [← hnum, ← hr]
    simp only [sub_val, add_val, sqrt_val, powNat_val, mul_val, div_val _ _ hd, div_val _ _ (h2 _ (hsq _ _)), div_val _ _ (nthroot3_mz _), nthroot3_val,
      lit_val, powi_val, hpv, hrv, hnv]
    rfl
  · unfold compute_k
    refine mz_of_neg (sub_left_mz _ _ (mz_of_neg ?_))
    rw [sqrt_neg]
    exact mz_of_neg (add_right_mz _ _ (mz_of_neg (mul_self_neg _)))

/-- `p + q - e^4` of a position in the frame with the polar axis first -/
def coreOf {α : Type} [PyFloat α] (a f : α) (p : V3 α) : α :=
  coreTerm a (eccentricity2 f) ((lit 1 - eccentricity2 f) / powi a 2 * powNat p.x 2) (powNat p.y 2 + powNat p.z 2)

theorem equation23_val {a f : Sgn α} (p : V3 (Sgn α)) (ha : lt a.val (lit 0) = false)
    (hc : lt (coreOf a.val f.val p.val) (lit 0) = false ∨ eq (lit 4 * powNat (coreOf a.val f.val p.val / lit 6) 3) (lit 0 : α) = false) :
    (equation23 a f p).1.val = (equation23 a.val f.val p.val).1 ∧ (equation23 a f p).2.1.val = (equation23 a.val f.val p.val).2.1 ∧
      (equation23 a f p).2.2.val = (equation23 a.val f.val p.val).2.2 := by
  have ha2 : (powi a 2 : Sgn α).minusZero = false := mz_of_neg rfl
  have he : (eccentricity2 f).val = eccentricity2 f.val := rfl
  have hq : ((lit 1 - eccentricity2 f) / powi a 2 * powNat p.x 2 : Sgn α).val =
      (lit 1 - eccentricity2 f.val) / powi a.val 2 * powNat p.x.val 2 := by
    rw [mul_val, div_val _ _ ha2]; rfl
  obtain ⟨hk, hkm⟩ := compute_k_val (a := a) (e_2 := eccentricity2 f) (q := (lit 1 - eccentricity2 f) / powi a 2 * powNat p.x 2)
    (Y := powNat p.y 2 + powNat p.z 2) ha (add_left_neg _ _ (mul_self_neg _)) (SignLaws.add_nonneg _ _ (SignLaws.mul_self _) (SignLaws.mul_self _))
    (by rw [hq]; exact hc)
  obtain ⟨k, hkk⟩ : ∃ k, k = compute_k a (eccentricity2 f) ((lit 1 - eccentricity2 f) / powi a 2 * powNat p.x 2) (powNat p.y 2 + powNat p.z 2) := ⟨_, rfl⟩
  rw [← hkk] at hk hkm
  rw [hq] at hk
  have hke : (k + eccentricity2 f).minusZero = false := mz_of_neg (add_left_mz _ _ hkm)
  have ht (d : Sgn α) : (sqrt (powNat d 2 + powNat p.x 2) : Sgn α).minusZero = false :=
    mz_of_neg (by rw [sqrt_neg]; exact mz_of_neg (add_left_neg _ _ (mul_self_neg _)))
  unfold equation23
  simp only [← hkk]
  refine ⟨?_, ?_, ?_⟩
  · simp only [div_val _ _ (ht _), sqrt_val, add_val, powNat_val, div_val _ _ hke, mul_val, hk, he, lit_val]
    rfl
  · simp only [div_val _ _ hke, mul_val, div_val _ _ (ht _), sqrt_val, add_val, powNat_val, hk, he, lit_val]
    rfl
  · simp only [neg_val, mul_val, div_val _ _ hkm, div_val _ _ hke, sqrt_val, add_val, sub_val, powNat_val, hk, he, lit_val]
    rfl

theorem p_EB_E2n_EB_E_val {a f : Sgn α} (p : V3 (Sgn α)) (R : M3 (Sgn α)) (ha : lt a.val (lit 0) = false)
    (hc : lt (coreOf a.val f.val (mulVec R.val p.val)) (lit 0) = false ∨
      eq (lit 4 * powNat (coreOf a.val f.val (mulVec R.val p.val) / lit 6) 3) (lit 0 : α) = false) :
    (p_EB_E2n_EB_E p a f R).1.val = (p_EB_E2n_EB_E p.val a.val f.val R.val).1 ∧
      (p_EB_E2n_EB_E p a f R).2.val = (p_EB_E2n_EB_E p.val a.val f.val R.val).2 := by
  obtain ⟨h1, h2, h3⟩ := equation23_val (a := a) (f := f) (mulVec R p) ha hc
  rw [mulVec_val] at h1 h2 h3
  unfold p_EB_E2n_EB_E
  refine ⟨?_, h3⟩
  simp only [unit_val, mulVec_val, tr_val, V3.val_mk, mul_val, h1, h2, lit_val]
  rfl

end

end Nv
