import Verif.Spec.Vec
import Verif.Model.Core
import Verif.Lemmas.Attr
import Mathlib.Tactic.Ring
import Mathlib.Tactic.Linarith
import Mathlib.Tactic.FieldSimp
import Mathlib.Tactic.Positivity
import Mathlib.Tactic.LinearCombination

/-!
# Evaluating model operations on finite values
-/

namespace Nv
open Spec

/-! ## scalars -/
namespace XR

@[xr] theorem lit_def (q : ℚ) : (lit q : XR) = fin (q : ℝ) := rfl
@[xr] theorem pi_def : (PyFloat.pi : XR) = fin Real.pi := rfl
@[xr] theorem nan_def : (PyFloat.nan : XR) = nan := rfl
@[xr] theorem add_fin (x y : ℝ) : fin x + fin y = fin (x + y) := rfl
@[xr] theorem neg_fin (x : ℝ) : -fin x = fin (-x) := rfl
@[xr] theorem sub_fin (x y : ℝ) : fin x - fin y = fin (x - y) := by
  show fin (x + -y) = _; rw [sub_eq_add_neg]
@[xr] theorem mul_fin (x y : ℝ) : fin x * fin y = fin (x * y) := rfl
theorem div_fin_eq (x y : ℝ) : fin x / fin y = if y = 0 then signInf x else fin (x / y) := rfl
@[xr] theorem div_fin {x y : ℝ} (h : y ≠ 0) : fin x / fin y = fin (x / y) := by
  rw [div_fin_eq, if_neg h]
theorem zero_div_zero : fin 0 / fin 0 = nan := by
  rw [div_fin_eq, if_pos rfl]; simp [signInf]
@[xr] theorem sqrt_fin {x : ℝ} (h : 0 ≤ x) : PyFloat.sqrt (fin x) = fin (Real.sqrt x) := by
  show (if x < 0 then nan else _) = _
  rw [if_neg (not_lt.mpr h)]
theorem sqrt_fin_neg {x : ℝ} (h : x < 0) : PyFloat.sqrt (fin x) = nan := by
  show (if x < 0 then nan else _) = _
  rw [if_pos h]
@[xr] theorem sin_fin (x : ℝ) : PyFloat.sin (fin x) = fin (Real.sin x) := rfl
@[xr] theorem cos_fin (x : ℝ) : PyFloat.cos (fin x) = fin (Real.cos x) := rfl
@[xr] theorem abs_fin (x : ℝ) : PyFloat.abs (fin x) = fin |x| := rfl
theorem sign_fin (x : ℝ) :
    PyFloat.sign (fin x) = if 0 < x then fin 1 else if x < 0 then fin (-1) else fin 0 := rfl
theorem sign_pos {x : ℝ} (h : 0 < x) : PyFloat.sign (fin x) = fin 1 := by rw [sign_fin, if_pos h]
theorem sign_neg {x : ℝ} (h : x < 0) : PyFloat.sign (fin x) = fin (-1) := by
  rw [sign_fin, if_neg (not_lt.mpr h.le), if_pos h]
theorem sign_zero : PyFloat.sign (fin 0) = fin 0 := by simp [sign_fin]
@[xr] theorem addTiny_def (x : XR) : PyFloat.addTiny x = x := rfl
@[xr] theorem le_fin (x y : ℝ) : PyFloat.le (fin x) (fin y) = decide (x ≤ y) := rfl
@[xr] theorem lt_fin (x y : ℝ) : PyFloat.lt (fin x) (fin y) = decide (x < y) := rfl
@[xr] theorem eq_fin (x y : ℝ) : PyFloat.eq (fin x) (fin y) = decide (x = y) := rfl
@[xr] theorem isfinite_fin (x : ℝ) : PyFloat.isfinite (fin x) = true := rfl
@[xr] theorem isnan_fin (x : ℝ) : PyFloat.isnan (fin x) = false := rfl
@[xr] theorem maximum_fin (x y : ℝ) : PyFloat.maximum (fin x) (fin y) = fin (max x y) := by
  show (if le (fin x) (fin y) then fin y else fin x) = _
  simp only [le, decide_eq_true_eq]
  split_ifs with h
  · rw [max_eq_right h]
  · rw [max_eq_left (not_le.mp h).le]
@[xr] theorem arcsin_fin {x : ℝ} (h1 : -1 ≤ x) (h2 : x ≤ 1) : PyFloat.arcsin (fin x) = fin (Real.arcsin x) := by
  show (if _ then nan else _) = _
  rw [if_neg]; push Not; exact ⟨h1, h2⟩

/-- the real function computed by `arctan2` on finite values -/
noncomputable def atan2 (y x : ℝ) : ℝ := if x = 0 ∧ y = 0 then (atan2Zero : ℝ) else Complex.arg ⟨x, y⟩

@[xr] theorem arctan2_fin (y x : ℝ) : PyFloat.arctan2 (fin y) (fin x) = fin (atan2 y x) := by
  show (if _ then _ else _) = _
  unfold atan2; split_ifs <;> rfl

@[xr] theorem powi_fin (x : ℝ) (n : ℕ) : PyFloat.powi (fin x) n = fin (x ^ n) := by
  change powi (fin x) n = _
  induction n with
  | zero => simp [powi]
  | succ n ih =>
    cases n with
    | zero => simp [powi]
    | succ n => simp only [powi, ih]; show fin (x ^ (n + 1) * x) = _; rw [← pow_succ]

@[xr] theorem powNat_fin (x : ℝ) (n : ℕ) : powNat (fin x) n = fin (x ^ n) := by
  match n with
  | 0 => simp [powNat, xr]
  | 1 => simp [powNat]
  | 2 => simp only [powNat, xr]; rw [sq]
  | n + 3 => exact powi_fin x (n + 3)

@[xr] theorem rootn_fin {x : ℝ} (h : 0 ≤ x) (n : ℕ) :
    PyFloat.rootn n (fin x) = fin (x ^ ((1 : ℝ) / (n : ℝ))) := by
  show (if x < 0 then _ else _) = _
  rw [if_neg (not_lt.mpr h)]

theorem fin_inj {x y : ℝ} : fin x = fin y ↔ x = y := by
  constructor
  · intro h; injection h
  · rintro rfl; rfl

/-! NaN is absorbing -/
@[xr] theorem nan_add (x : XR) : nan + x = nan := by cases x <;> rfl
@[xr] theorem add_nan (x : XR) : x + nan = nan := by cases x <;> rfl
@[xr] theorem neg_nan : -nan = nan := rfl
@[xr] theorem nan_sub (x : XR) : nan - x = nan := by cases x <;> rfl
@[xr] theorem sub_nan (x : XR) : x - nan = nan := by cases x <;> rfl
@[xr] theorem nan_mul (x : XR) : nan * x = nan := by cases x <;> rfl
@[xr] theorem mul_nan (x : XR) : x * nan = nan := by cases x <;> rfl
@[xr] theorem nan_div (x : XR) : nan / x = nan := by cases x <;> rfl
@[xr] theorem div_nan (x : XR) : x / nan = nan := by cases x <;> rfl
@[xr] theorem sqrt_nan : PyFloat.sqrt nan = nan := rfl
@[xr] theorem abs_nan : PyFloat.abs nan = nan := rfl
@[xr] theorem sign_nan : PyFloat.sign nan = nan := rfl
@[xr] theorem arcsin_nan : PyFloat.arcsin nan = nan := rfl
@[xr] theorem sin_nan : PyFloat.sin nan = nan := rfl
@[xr] theorem cos_nan : PyFloat.cos nan = nan := rfl
@[xr] theorem arctan2_nan_left (x : XR) : PyFloat.arctan2 nan x = nan := by cases x <;> rfl
@[xr] theorem arctan2_nan_right (x : XR) : PyFloat.arctan2 x nan = nan := by cases x <;> rfl
@[xr] theorem le_nan_left (x : XR) : PyFloat.le nan x = false := by cases x <;> rfl
@[xr] theorem le_nan_right (x : XR) : PyFloat.le x nan = false := by cases x <;> rfl
@[xr] theorem lt_nan_left (x : XR) : PyFloat.lt nan x = false := by cases x <;> rfl
@[xr] theorem lt_nan_right (x : XR) : PyFloat.lt x nan = false := by cases x <;> rfl
@[xr] theorem eq_nan_left (x : XR) : PyFloat.eq nan x = false := by cases x <;> rfl
@[xr] theorem eq_nan_right (x : XR) : PyFloat.eq x nan = false := by cases x <;> rfl
@[xr] theorem rootn_nan (n : ℕ) : PyFloat.rootn n nan = nan := rfl
@[xr] theorem isnan_nan : PyFloat.isnan nan = true := rfl
@[xr] theorem isfinite_nan : PyFloat.isfinite nan = false := rfl

end XR
open XR

/-! ## real vectors -/
namespace Spec
@[simp] theorem add_x (v w : V3 ℝ) : (v + w).x = v.x + w.x := rfl
@[simp] theorem add_y (v w : V3 ℝ) : (v + w).y = v.y + w.y := rfl
@[simp] theorem add_z (v w : V3 ℝ) : (v + w).z = v.z + w.z := rfl
@[simp] theorem sub_x (v w : V3 ℝ) : (v - w).x = v.x - w.x := rfl
@[simp] theorem sub_y (v w : V3 ℝ) : (v - w).y = v.y - w.y := rfl
@[simp] theorem sub_z (v w : V3 ℝ) : (v - w).z = v.z - w.z := rfl
@[simp] theorem neg_x (v : V3 ℝ) : (-v).x = -v.x := rfl
@[simp] theorem neg_y (v : V3 ℝ) : (-v).y = -v.y := rfl
@[simp] theorem neg_z (v : V3 ℝ) : (-v).z = -v.z := rfl
@[simp] theorem smul_x (c : ℝ) (v : V3 ℝ) : (c • v).x = c * v.x := rfl
@[simp] theorem smul_y (c : ℝ) (v : V3 ℝ) : (c • v).y = c * v.y := rfl
@[simp] theorem smul_z (c : ℝ) (v : V3 ℝ) : (c • v).z = c * v.z := rfl
@[simp] theorem zero_x : (0 : V3 ℝ).x = 0 := rfl
@[simp] theorem zero_y : (0 : V3 ℝ).y = 0 := rfl
@[simp] theorem zero_z : (0 : V3 ℝ).z = 0 := rfl

theorem len_nonneg (v : V3 ℝ) : 0 ≤ len v := Real.sqrt_nonneg _
theorem sumsq_nonneg (v : V3 ℝ) : 0 ≤ v.x ^ 2 + v.y ^ 2 + v.z ^ 2 := by positivity
theorem len_sq (v : V3 ℝ) : len v ^ 2 = v.x ^ 2 + v.y ^ 2 + v.z ^ 2 := Real.sq_sqrt (sumsq_nonneg v)
theorem dot_self (v : V3 ℝ) : dot v v = len v ^ 2 := by rw [len_sq]; unfold dot; ring
theorem len_eq_zero {v : V3 ℝ} : len v = 0 ↔ v = 0 := by
  constructor
  · intro h
    have h2 := len_sq v
    rw [h] at h2
    have hx := sq_nonneg v.x; have hy := sq_nonneg v.y; have hz := sq_nonneg v.z
    ext
    · exact pow_eq_zero_iff (two_ne_zero) |>.mp (by linarith)
    · exact pow_eq_zero_iff (two_ne_zero) |>.mp (by linarith)
    · exact pow_eq_zero_iff (two_ne_zero) |>.mp (by linarith)
  · rintro rfl; simp [len]
theorem len_pos {v : V3 ℝ} (h : v ≠ 0) : 0 < len v :=
  lt_of_le_of_ne (len_nonneg v) (fun h' => h (len_eq_zero.mp h'.symm))
theorem unitVec_iff_len {v : V3 ℝ} : UnitVec v ↔ len v = 1 := by
  unfold UnitVec len
  rw [Real.sqrt_eq_one]
theorem UnitVec.len {v : V3 ℝ} (h : UnitVec v) : len v = 1 := unitVec_iff_len.mp h
theorem UnitVec.ne {v : V3 ℝ} (h : UnitVec v) : v ≠ 0 := by
  rintro rfl; simp [UnitVec] at h
theorem UnitVec.dot {v : V3 ℝ} (h : UnitVec v) : dot v v = 1 := by rw [dot_self, h.len]; norm_num

theorem dirOf_unit {v : V3 ℝ} (h : v ≠ 0) : UnitVec (dirOf v) := by
  have hp := len_pos h
  have h2 := len_sq v
  unfold UnitVec dirOf
  simp only [smul_x, smul_y, smul_z, mul_pow]
  rw [← mul_add, ← mul_add, ← h2, ← mul_pow, inv_mul_cancel₀ hp.ne', one_pow]
theorem dirOf_of_unit {v : V3 ℝ} (h : UnitVec v) : dirOf v = v := by
  unfold dirOf; rw [h.len]; ext <;> simp
theorem len_smul (c : ℝ) (v : V3 ℝ) : len (c • v) = |c| * len v := by
  unfold len
  simp only [smul_x, smul_y, smul_z, mul_pow]
  rw [← mul_add, ← mul_add, Real.sqrt_mul (sq_nonneg c), Real.sqrt_sq_eq_abs]
theorem dirOf_smul {c : ℝ} (hc : 0 < c) (v : V3 ℝ) : dirOf (c • v) = dirOf v := by
  unfold dirOf
  rw [len_smul, abs_of_pos hc]
  by_cases h : len v = 0
  · have := len_eq_zero.mp h; subst this; ext <;> simp
  · ext <;> simp <;> field_simp
theorem smul_dirOf (v : V3 ℝ) : len v • dirOf v = v := by
  unfold dirOf
  by_cases h : len v = 0
  · have := len_eq_zero.mp h; subst this; ext <;> simp
  · ext <;> simp <;> field_simp
theorem smul_ne_zero {c : ℝ} (hc : c ≠ 0) {v : V3 ℝ} (h : v ≠ 0) : c • v ≠ 0 := by
  intro h'
  apply h
  rw [← len_eq_zero] at h' ⊢
  rw [len_smul] at h'
  rcases mul_eq_zero.mp h' with h' | h'
  · exact absurd (abs_eq_zero.mp h') hc
  · exact h'
end Spec

/-! ## lifting vector operations -/

@[xr] theorem V3.fin_x (v : V3 ℝ) : v.fin.x = .fin v.x := rfl
@[xr] theorem V3.fin_y (v : V3 ℝ) : v.fin.y = .fin v.y := rfl
@[xr] theorem V3.fin_z (v : V3 ℝ) : v.fin.z = .fin v.z := rfl
theorem V3.mk_fin (x y z : ℝ) : (⟨.fin x, .fin y, .fin z⟩ : V3 XR) = V3.fin ⟨x, y, z⟩ := rfl
theorem V3.fin_inj {v w : V3 ℝ} : v.fin = w.fin ↔ v = w := by
  constructor
  · intro h
    unfold V3.fin at h
    injection h with h1 h2 h3
    ext
    · exact XR.fin_inj.mp h1
    · exact XR.fin_inj.mp h2
    · exact XR.fin_inj.mp h3
  · rintro rfl; rfl
theorem M3.fin_inj {v w : M3 ℝ} : v.fin = w.fin ↔ v = w := by
  constructor
  · intro h
    unfold M3.fin at h
    injection h with h1 h2 h3
    have h1 := V3.fin_inj.mp h1
    have h2 := V3.fin_inj.mp h2
    have h3 := V3.fin_inj.mp h3
    cases v; cases w; simp_all
  · rintro rfl; rfl
@[xr] theorem M3.fin_r0 (M : M3 ℝ) : M.fin.r0 = M.r0.fin := rfl
@[xr] theorem M3.fin_r1 (M : M3 ℝ) : M.fin.r1 = M.r1.fin := rfl
@[xr] theorem M3.fin_r2 (M : M3 ℝ) : M.fin.r2 = M.r2.fin := rfl

@[xr] theorem dot3_fin (v w : V3 ℝ) : dot3 v.fin w.fin = .fin (dot v w) := rfl
@[xr] theorem cross3_fin (v w : V3 ℝ) : cross3 v.fin w.fin = (cross v w).fin := by
  simp only [cross3, xr]; rfl
@[xr] theorem norm3_fin (v : V3 ℝ) : norm3 v.fin = .fin (len v) := by
  unfold norm3 len
  simp only [xr]
  rw [XR.sqrt_fin (by nlinarith [sq_nonneg v.x, sq_nonneg v.y, sq_nonneg v.z])]
  simp only [pow_two]
@[xr] theorem add3_fin (v w : V3 ℝ) : add3 v.fin w.fin = (v + w).fin := rfl
@[xr] theorem sub3_fin (v w : V3 ℝ) : sub3 v.fin w.fin = (v - w).fin := by
  simp only [sub3, xr]; rfl
@[xr] theorem neg3_fin (v : V3 ℝ) : neg3 v.fin = (-v).fin := rfl
@[xr] theorem scale3_fin (v : V3 ℝ) (c : ℝ) : scale3 v.fin (.fin c) = (c • v).fin := by
  simp only [scale3, xr, V3.mk_fin, V3.fin_inj]; ext <;> simp [mul_comm]
@[xr] theorem div3_fin (v : V3 ℝ) {c : ℝ} (h : c ≠ 0) : div3 v.fin (.fin c) = (c⁻¹ • v).fin := by
  simp only [div3, xr, XR.div_fin h, V3.mk_fin, V3.fin_inj]; ext <;> simp [div_eq_inv_mul]
@[xr] theorem mulVec_fin (M : M3 ℝ) (v : V3 ℝ) : mulVec M.fin v.fin = (app M v).fin := rfl
@[xr] theorem tr_fin (M : M3 ℝ) : tr M.fin = (transp M).fin := rfl
@[xr] theorem mdot_fin (A B : M3 ℝ) : mdot A.fin B.fin = (mmul A B).fin := rfl

@[xr] theorem unit_fin {v : V3 ℝ} (h : v ≠ 0) (nz : XR) : unit v.fin nz = (dirOf v).fin := by
  have hl : len v ≠ 0 := (len_pos h).ne'
  simp only [unit, xr, Rat.cast_zero, hl, decide_false, Bool.false_eq_true, if_false, div3_fin v hl]
  rfl
theorem unit_zero_nan : unit (0 : V3 ℝ).fin PyFloat.nan = V3.nan := by
  have hl : len (0 : V3 ℝ) = 0 := len_eq_zero.mpr rfl
  simp only [unit, xr, hl, Rat.cast_zero, decide_true, if_true, V3.nan]
theorem unit_zero : unit (0 : V3 ℝ).fin = (⟨1, 0, 0⟩ : V3 ℝ).fin := by
  have hl : len (0 : V3 ℝ) = 0 := len_eq_zero.mpr rfl
  simp only [unit, xr, hl, Rat.cast_zero, Rat.cast_one, decide_true, if_true, V3.mk_fin, mul_one]

@[xr] theorem unit_zero_fin (c : ℝ) : unit (0 : V3 ℝ).fin (.fin c) = (⟨c, 0, 0⟩ : V3 ℝ).fin := by
  have hl : len (0 : V3 ℝ) = 0 := len_eq_zero.mpr rfl
  simp only [unit, xr, hl, Rat.cast_zero, Rat.cast_one, decide_true, if_true, V3.mk_fin, one_mul, zero_mul]

/-! ## NaN columns -/
@[xr] theorem V3.nan_x : V3.nan.x = .nan := rfl
@[xr] theorem V3.nan_y : V3.nan.y = .nan := rfl
@[xr] theorem V3.nan_z : V3.nan.z = .nan := rfl
@[xr] theorem dot3_nan_left (v : V3 XR) : dot3 V3.nan v = .nan := by simp only [dot3, xr]
@[xr] theorem dot3_nan_right (v : V3 XR) : dot3 v V3.nan = .nan := by simp only [dot3, xr]
@[xr] theorem cross3_nan_left (v : V3 XR) : cross3 V3.nan v = V3.nan := by simp only [cross3, xr]; rfl
@[xr] theorem cross3_nan_right (v : V3 XR) : cross3 v V3.nan = V3.nan := by simp only [cross3, xr]; rfl
@[xr] theorem norm3_nan : norm3 V3.nan = .nan := by simp only [norm3, xr]
@[xr] theorem unit_nan (nz : XR) : unit V3.nan nz = V3.nan := by
  simp only [unit, xr, div3, Bool.false_eq_true, if_false]; rfl
@[xr] theorem scale3_nan_left (c : XR) : scale3 V3.nan c = V3.nan := by simp only [scale3, xr]; rfl
@[xr] theorem scale3_nan_right (v : V3 XR) : scale3 v .nan = V3.nan := by simp only [scale3, xr]; rfl
@[xr] theorem mulVec_nan (M : M3 XR) : mulVec M V3.nan = V3.nan := by simp only [mulVec, xr]; rfl

end Nv
