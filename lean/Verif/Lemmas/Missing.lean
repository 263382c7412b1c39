import Verif.Spec.Missing
import Verif.Model.Core
import Verif.Model.Objects
import Verif.Float.Arith

/-!
# How NaN goes through the operations

`NanLaws` lists the IEEE rules for one NaN operand; both arithmetics of the model (`XR` and `F64 B`) satisfy them.
-/

namespace Nv
open Spec PyFloat

class NanLaws (α : Type) [PyFloat α] : Prop where
  nan_add (x : α) : nan + x = nan
  add_nan (x : α) : x + nan = nan
  nan_sub (x : α) : nan - x = nan
  sub_nan (x : α) : x - nan = nan
  nan_mul (x : α) : nan * x = nan
  mul_nan (x : α) : x * nan = nan
  nan_div (x : α) : nan / x = nan
  div_nan (x : α) : x / nan = nan
  neg_nan : -(nan : α) = nan
  sqrt_nan : sqrt (nan : α) = nan
  sin_nan : sin (nan : α) = nan
  cos_nan : cos (nan : α) = nan
  sin_not_finite (x : α) : isfinite x = false → sin x = nan
  cos_not_finite (x : α) : isfinite x = false → cos x = nan
  arcsin_nan : arcsin (nan : α) = nan
  nan_arctan2 (x : α) : arctan2 nan x = nan
  arctan2_nan (x : α) : arctan2 x nan = nan
  abs_nan : abs (nan : α) = nan
  sign_nan : sign (nan : α) = nan
  nan_mod (x : α) : mod nan x = nan
  rootn_nan (n : ℕ) : rootn n (nan : α) = nan
  powi_nan (n : ℕ) : powi (nan : α) (n + 1) = nan
  addTiny_nan : addTiny (nan : α) = nan
  nan_le (x : α) : le nan x = false
  le_nan (x : α) : le x nan = false
  nan_lt (x : α) : lt nan x = false
  lt_nan (x : α) : lt x nan = false
  nan_eq (x : α) : eq nan x = false
  eq_nan (x : α) : eq x nan = false
  isfinite_nan : isfinite (nan : α) = false
  isnan_nan : isnan (nan : α) = true

theorem XR.powi_nan (n : ℕ) : XR.powi .nan (n + 1) = .nan := by
  cases n with
  | zero => rfl
  | succ n => change XR.mul (XR.powi .nan (n + 1)) .nan = _; cases XR.powi .nan (n + 1) <;> rfl

instance : NanLaws XR where
  nan_add x := by cases x <;> rfl
  add_nan x := by cases x <;> rfl
  nan_sub x := by cases x <;> rfl
  sub_nan x := by cases x <;> rfl
  nan_mul x := by cases x <;> rfl
  mul_nan x := by cases x <;> rfl
  nan_div x := by cases x <;> rfl
  div_nan x := by cases x <;> rfl
  neg_nan := rfl
  sqrt_nan := rfl
  sin_nan := rfl
  cos_nan := rfl
  sin_not_finite x h := by cases x <;> first | rfl | exact absurd h (by simp [isfinite, XR.isfinite])
  cos_not_finite x h := by cases x <;> first | rfl | exact absurd h (by simp [isfinite, XR.isfinite])
  arcsin_nan := rfl
  nan_arctan2 x := by cases x <;> rfl
  arctan2_nan x := by cases x <;> rfl
  abs_nan := rfl
  sign_nan := rfl
  nan_mod x := by cases x <;> rfl
  rootn_nan n := rfl
  powi_nan n := XR.powi_nan n
  addTiny_nan := rfl
  nan_le x := by cases x <;> rfl
  le_nan x := by cases x <;> rfl
  nan_lt x := by cases x <;> rfl
  lt_nan x := by cases x <;> rfl
  nan_eq x := by cases x <;> rfl
  eq_nan x := by cases x <;> rfl
  isfinite_nan := rfl
  isnan_nan := rfl

instance (B : Binary64) : NanLaws (F64 B) where
  nan_add x := by cases x <;> rfl
  add_nan x := by cases x <;> rfl
  nan_sub x := by cases x <;> rfl
  sub_nan x := by cases x <;> rfl
  nan_mul x := by cases x <;> rfl
  mul_nan x := by cases x <;> rfl
  nan_div x := by cases x <;> rfl
  div_nan x := by cases x <;> rfl
  neg_nan := rfl
  sqrt_nan := rfl
  sin_nan := rfl
  cos_nan := rfl
  sin_not_finite x h := by cases x <;> first | rfl | exact absurd h (by simp [isfinite, XR.isfinite])
  cos_not_finite x h := by cases x <;> first | rfl | exact absurd h (by simp [isfinite, XR.isfinite])
  arcsin_nan := rfl
  nan_arctan2 x := by cases x <;> rfl
  arctan2_nan x := by cases x <;> rfl
  abs_nan := rfl
  sign_nan := rfl
  nan_mod x := by cases x <;> rfl
  rootn_nan n := rfl
  powi_nan n := XR.powi_nan n
  addTiny_nan := rfl
  nan_le x := by cases x <;> rfl
  le_nan x := by cases x <;> rfl
  nan_lt x := by cases x <;> rfl
  lt_nan x := by cases x <;> rfl
  nan_eq x := by cases x <;> rfl
  eq_nan x := by cases x <;> rfl
  isfinite_nan := rfl
  isnan_nan := rfl

attribute [simp] NanLaws.nan_add NanLaws.add_nan NanLaws.nan_sub NanLaws.sub_nan NanLaws.nan_mul NanLaws.mul_nan
  NanLaws.nan_div NanLaws.div_nan NanLaws.neg_nan NanLaws.sqrt_nan NanLaws.sin_nan NanLaws.cos_nan NanLaws.arcsin_nan
  NanLaws.nan_arctan2 NanLaws.arctan2_nan NanLaws.abs_nan NanLaws.sign_nan NanLaws.nan_mod NanLaws.rootn_nan
  NanLaws.powi_nan NanLaws.addTiny_nan NanLaws.nan_le NanLaws.le_nan NanLaws.nan_lt NanLaws.lt_nan NanLaws.nan_eq
  NanLaws.eq_nan NanLaws.isfinite_nan NanLaws.isnan_nan

section
variable {α : Type} [PyFloat α] [NanLaws α]

theorem powi_two_nan : powi (nan : α) 2 = nan := NanLaws.powi_nan 1
theorem powNat_two_nan : powNat (nan : α) 2 = nan := NanLaws.mul_nan _
theorem powNat_three_nan : powNat (nan : α) 3 = nan := NanLaws.powi_nan 2

omit [NanLaws α] in
theorem Spec.AllNaN.some {v : V3 α} (h : AllNaN v) : SomeNaN v := .inl h.1

theorem dot3_missing_left {v : V3 α} (w : V3 α) (h : SomeNaN v) : dot3 v w = nan := by
  rcases h with h | h | h <;> simp [dot3, h]

theorem dot3_missing_right (v : V3 α) {w : V3 α} (h : SomeNaN w) : dot3 v w = nan := by
  rcases h with h | h | h <;> simp [dot3, h]

theorem norm3_missing {v : V3 α} (h : SomeNaN v) : norm3 v = nan := by
  rcases h with h | h | h <;> simp [norm3, h]

theorem cross3_missing_left {v : V3 α} (w : V3 α) (h : SomeNaN v) : SomeNaN (cross3 v w) := by
  rcases h with h | h | h <;> simp [cross3, SomeNaN, h]

theorem cross3_missing_right (v : V3 α) {w : V3 α} (h : SomeNaN w) : SomeNaN (cross3 v w) := by
  rcases h with h | h | h <;> simp [cross3, SomeNaN, h]

theorem unit_missing {v : V3 α} (z : α) (h : SomeNaN v) : AllNaN (unit v z) := by
  simp [unit, norm3_missing h, div3, AllNaN]

theorem mulVec_missing (M : M3 α) {v : V3 α} (h : SomeNaN v) : AllNaN (mulVec M v) := by
  simp [mulVec, AllNaN, dot3_missing_right _ h]

theorem sub3_missing_left {v : V3 α} (w : V3 α) (h : SomeNaN v) : SomeNaN (sub3 v w) := by
  rcases h with h | h | h <;> simp [sub3, SomeNaN, h]

theorem sub3_missing_right (v : V3 α) {w : V3 α} (h : SomeNaN w) : SomeNaN (sub3 v w) := by
  rcases h with h | h | h <;> simp [sub3, SomeNaN, h]

theorem add3_missing_left {v : V3 α} (w : V3 α) (h : SomeNaN v) : SomeNaN (add3 v w) := by
  rcases h with h | h | h <;> simp [add3, SomeNaN, h]

theorem add3_missing_right (v : V3 α) {w : V3 α} (h : SomeNaN w) : SomeNaN (add3 v w) := by
  rcases h with h | h | h <;> simp [add3, SomeNaN, h]

theorem mdot_missing (M : M3 α) {N : M3 α} (h : AllNaNM N) : AllNaNM (mdot M N) := by
  obtain ⟨⟨h1, h2, h3⟩, ⟨h4, h5, h6⟩, ⟨h7, h8, h9⟩⟩ := h
  simp [mdot, AllNaNM, AllNaN, tr, dot3, h1, h2, h3]

theorem isclose_missing_left (b rtol atol : α) : isclose nan b rtol atol = false := by simp [isclose, npIsclose]
theorem isclose_missing_right (a rtol atol : α) : isclose a nan rtol atol = false := by simp [isclose, npIsclose]

theorem nthroot_nan' (n : ℕ) : nthroot (nan : α) n = nan := by simp [nthroot]

end
end Nv
