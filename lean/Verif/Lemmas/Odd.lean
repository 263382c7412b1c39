import Verif.Lemmas.Missing
import Verif.Float.Basic

/-!
# Exact symmetries of the operations

`OddLaws` lists the laws of negation and commutativity that survive rounding.  They hold of every value, NaN and the infinities
included, in exact arithmetic and in every binary64 arithmetic whose rounding treats `x` and `-x` alike (round half to even
does).
-/

namespace Nv
open Spec PyFloat

class OddLaws (α : Type) [PyFloat α] : Prop extends NanLaws α where
  o_neg_neg (x : α) : - -x = x
  o_mul_comm (x y : α) : x * y = y * x
  o_add_comm (x y : α) : x + y = y + x
  o_neg_mul (x y : α) : -x * y = -(x * y)
  o_neg_add (x y : α) : -x + -y = -(x + y)
  o_sub_eq (x y : α) : x - y = x + -y
  o_neg_div (x y : α) : -x / y = -(x / y)
  o_abs_neg (x : α) : abs (-x) = abs x
  o_sign_neg (x : α) : sign (-x) = -sign x

theorem XR.neg_neg' (x : XR) : XR.neg (XR.neg x) = x := by cases x <;> simp [XR.neg]

theorem XR.signInf_neg (x : ℝ) : XR.signInf (-x) = XR.neg (XR.signInf x) := by
  unfold XR.signInf
  rcases lt_trichotomy x 0 with h | h | h
  · rw [if_pos (by linarith), if_neg (by linarith), if_pos h]; rfl
  · subst h; simp [XR.neg]
  · rw [if_neg (by linarith), if_pos (by linarith), if_pos h]; rfl

theorem XR.mul_comm' (x y : XR) : XR.mul x y = XR.mul y x := by
  cases x <;> cases y <;> simp [XR.mul, mul_comm]

theorem XR.add_comm' (x y : XR) : XR.add x y = XR.add y x := by
  cases x <;> cases y <;> simp [XR.add, add_comm]

theorem XR.neg_mul' (x y : XR) : XR.mul (XR.neg x) y = XR.neg (XR.mul x y) := by
  cases x <;> cases y <;> simp [XR.mul, XR.neg, XR.signInf_neg, XR.neg_neg'] <;> cases XR.signInf _ <;> simp [XR.neg]

theorem XR.neg_add' (x y : XR) : XR.add (XR.neg x) (XR.neg y) = XR.neg (XR.add x y) := by
  cases x <;> cases y <;> simp [XR.add, XR.neg, add_comm]

theorem XR.neg_div' (x y : XR) : XR.div (XR.neg x) y = XR.neg (XR.div x y) := by
  cases x <;> cases y <;> simp [XR.div, XR.neg] <;> split_ifs <;> simp [XR.neg, XR.signInf_neg, neg_div]

theorem XR.abs_neg' (x : XR) : XR.abs (XR.neg x) = XR.abs x := by cases x <;> simp [XR.abs, XR.neg]

theorem XR.sign_neg' (x : XR) : XR.sign (XR.neg x) = XR.neg (XR.sign x) := by
  cases x with
  | fin x =>
    simp only [XR.neg, XR.sign]
    rcases lt_trichotomy x 0 with h | h | h
    · rw [if_pos (by linarith), if_neg (by linarith), if_pos h]; simp
    · subst h; simp
    · rw [if_neg (by linarith), if_pos (by linarith), if_pos h]
  | _ => simp [XR.neg, XR.sign]

instance : OddLaws XR where
  o_neg_neg := XR.neg_neg'
  o_mul_comm := XR.mul_comm'
  o_add_comm := XR.add_comm'
  o_neg_mul := XR.neg_mul'
  o_neg_add := XR.neg_add'
  o_sub_eq _ _ := rfl
  o_neg_div := XR.neg_div'
  o_abs_neg := XR.abs_neg'
  o_sign_neg := XR.sign_neg'

variable {B : Binary64}

theorem F64.round_neg (hs : ∀ x, B.fl (-x) = -B.fl x) (x : XR) : F64.round B (XR.neg x) = XR.neg (F64.round B x) := by
  cases x with
  | fin x =>
    by_cases h : |B.fl x| < (2 : ℝ) ^ (1024 : ℤ)
    · have e1 : F64.rnd B x = XR.fin (B.fl x) := if_pos h
      have e2 : F64.rnd B (-x) = XR.fin (B.fl (-x)) := if_pos (by rw [hs, abs_neg]; exact h)
      change F64.rnd B (-x) = XR.neg (F64.rnd B x)
      rw [e1, e2, hs]; rfl
    · have e1 : F64.rnd B x = XR.signInf x := if_neg h
      have e2 : F64.rnd B (-x) = XR.signInf (-x) := if_neg (by rw [hs, abs_neg]; exact h)
      change F64.rnd B (-x) = XR.neg (F64.rnd B x)
      rw [e1, e2]; exact XR.signInf_neg x
  | _ => rfl

theorem F64.oddLaws (hs : ∀ x, B.fl (-x) = -B.fl x) : OddLaws (F64 B) where
  o_neg_neg := XR.neg_neg'
  o_mul_comm x y := congrArg (F64.round B) (XR.mul_comm' x y)
  o_add_comm x y := congrArg (F64.round B) (XR.add_comm' x y)
  o_neg_mul x y := (congrArg (F64.round B) (XR.neg_mul' x y)).trans (F64.round_neg hs _)
  o_neg_add x y := (congrArg (F64.round B) (XR.neg_add' x y)).trans (F64.round_neg hs _)
  o_sub_eq _ _ := rfl
  o_neg_div x y := (congrArg (F64.round B) (XR.neg_div' x y)).trans (F64.round_neg hs _)
  o_abs_neg := XR.abs_neg'
  o_sign_neg := XR.sign_neg'

/-! ## Consequences -/

section
variable {α : Type} [PyFloat α] [OddLaws α]
open OddLaws

theorem odd_mul_neg (x y : α) : x * -y = -(x * y) := by rw [o_mul_comm, o_neg_mul, o_mul_comm]
theorem odd_neg_mul_neg (x y : α) : -x * -y = x * y := by rw [o_neg_mul, odd_mul_neg, o_neg_neg]
theorem odd_neg_sub (x y : α) : -(x - y) = y - x := by rw [o_sub_eq, o_sub_eq, ← o_neg_add, o_neg_neg, o_add_comm]
theorem odd_neg_sub_neg (x y : α) : -x - -y = -(x - y) := by rw [o_sub_eq, o_sub_eq, ← o_neg_add]

theorem neg3_neg3 (v : V3 α) : neg3 (neg3 v) = v := by simp [neg3, o_neg_neg]
theorem dot3_comm (v w : V3 α) : dot3 v w = dot3 w v := by
  simp only [dot3, o_mul_comm v.x, o_mul_comm v.y, o_mul_comm v.z]
theorem dot3_neg (v w : V3 α) : dot3 (neg3 v) w = -dot3 v w := by simp only [dot3, neg3, o_neg_mul, o_neg_add]
theorem dot3_neg_right (v w : V3 α) : dot3 v (neg3 w) = -dot3 v w := by rw [dot3_comm, dot3_neg, dot3_comm]
theorem cross3_swap (v w : V3 α) : cross3 w v = neg3 (cross3 v w) := by
  simp only [cross3, neg3, odd_neg_sub, o_mul_comm w.x, o_mul_comm w.y, o_mul_comm w.z]
theorem cross3_neg (v w : V3 α) : cross3 (neg3 v) w = neg3 (cross3 v w) := by
  simp only [cross3, neg3, o_neg_mul, odd_neg_sub_neg]
theorem cross3_neg_right (v w : V3 α) : cross3 v (neg3 w) = neg3 (cross3 v w) := by
  simp only [cross3, neg3, odd_mul_neg, odd_neg_sub_neg]
theorem norm3_neg3 (v : V3 α) : norm3 (neg3 v) = norm3 v := by simp only [norm3, neg3, odd_neg_mul_neg]
theorem sub3_swap (v w : V3 α) : sub3 w v = neg3 (sub3 v w) := by simp only [sub3, neg3, odd_neg_sub]
theorem sub3_neg (v w : V3 α) : sub3 (neg3 v) (neg3 w) = neg3 (sub3 v w) := by simp only [sub3, neg3, odd_neg_sub_neg]
theorem add3_comm (v w : V3 α) : add3 v w = add3 w v := by simp only [add3, o_add_comm v.x, o_add_comm v.y, o_add_comm v.z]
theorem scale3_neg (v : V3 α) (s : α) : scale3 (neg3 v) s = neg3 (scale3 v s) := by simp only [scale3, neg3, o_neg_mul]
theorem scale3_neg_neg (v : V3 α) (s : α) : scale3 (neg3 v) (-s) = scale3 v s := by simp only [scale3, neg3, odd_neg_mul_neg]
theorem div3_neg (v : V3 α) (s : α) : div3 (neg3 v) s = neg3 (div3 v s) := by simp only [div3, neg3, o_neg_div]
theorem ediv3_neg (v w : V3 α) : ediv3 (neg3 v) w = neg3 (ediv3 v w) := by simp only [ediv3, neg3, o_neg_div]
theorem mulVec_neg (M : M3 α) (v : V3 α) : mulVec M (neg3 v) = neg3 (mulVec M v) := by
  simp only [mulVec, dot3_neg_right]; rfl

/-- `unit` is odd for every column whose computed norm is not zero -/
theorem unit_neg (v : V3 α) (z : α) (h : eq (norm3 v) (lit 0) = false) : unit (neg3 v) z = neg3 (unit v z) := by
  simp only [unit, norm3_neg3, h, Bool.false_eq_true, if_false, div3_neg]

/-- with NaN as replacement of the zero vector, `unit` is odd everywhere -/
theorem unit_nan_neg (v : V3 α) : unit (neg3 v) nan = neg3 (unit v nan) := by
  simp only [unit, norm3_neg3]
  split_ifs with h
  · simp [neg3]
  · rw [div3_neg]

theorem normal_swap (a b : V3 α) : great_circle_normal b a = neg3 (great_circle_normal a b) := by
  simp only [great_circle_normal, cross3_swap a b, unit_nan_neg]

end
end Nv
