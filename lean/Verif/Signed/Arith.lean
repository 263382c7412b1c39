import Verif.Vec

/-!
# Signed zeros

`XR` and `F64 B` have one zero.  `Sgn α` adds the sign bit of IEEE-754 to any arithmetic `α`: a number is a value of `α` and
a sign bit, which is only looked at when the value is zero.  All rules are those of IEEE-754 / C99 / numpy for round to nearest:
the sign of a product or quotient is the exclusive or of the signs, `x + (-x) = +0`, `(-0) + (-0) = -0`, `sqrt(-0) = -0`,
`sin`, `arcsin` and the first argument of `arctan2` are odd, division by `-0` flips the sign of the infinity, `np.sign(-0.0) = 0.0`,
`np.mod` takes the sign of the divisor, comparisons ignore the sign of zero.  The values (`val`) of all operations are those of `α`,
except for the two operations that can see the sign of a zero: division and `arctan2`.
-/

namespace Nv

/-- a number with a sign bit; the bit counts only if the value is zero -/
@[ext] structure Sgn (α : Type) where
  val : α
  neg : Bool

namespace Sgn
open PyFloat
variable {α : Type} [PyFloat α]

/-- `x == 0` (either zero) -/
def isZero (a : Sgn α) : Bool := eq a.val (lit 0)
/-- the sign bit of the number -/
def isNeg (a : Sgn α) : Bool := if a.isZero then a.neg else lt a.val (lit 0)

/-- `arctan2(±0, ±0)`: `±0` or `±π` -/
def atan2Zero (y x : Sgn α) : α :=
  if x.neg then (if y.neg then -arctan2 (lit 0) (lit (-1)) else arctan2 (lit 0) (lit (-1))) else lit 0

instance : PyFloat (Sgn α) where
  -- `0 + 0`: negative if both are; `x + (-x) = +0`
  add a b := ⟨a.val + b.val, a.isZero && b.isZero && a.neg && b.neg⟩
  sub a b := ⟨a.val - b.val, a.isZero && b.isZero && a.neg && !b.neg⟩
  mul a b := ⟨a.val * b.val, a.isNeg ^^ b.isNeg⟩
  div a b := ⟨if b.isZero && b.neg then -(a.val / b.val) else a.val / b.val, a.isNeg ^^ b.isNeg⟩
  neg a := ⟨-a.val, !a.neg⟩
  lit q := ⟨lit q, false⟩
  nan := ⟨nan, false⟩
  pi := ⟨pi, false⟩
  sqrt a := ⟨sqrt a.val, a.isZero && a.neg⟩
  sin a := ⟨sin a.val, a.isNeg⟩
  cos a := ⟨cos a.val, false⟩
  arcsin a := ⟨arcsin a.val, a.isNeg⟩
  arctan2 y x :=
    ⟨if y.isZero then (if x.isZero then atan2Zero y x else if y.neg then -arctan2 y.val x.val else arctan2 y.val x.val)
      else arctan2 y.val x.val, y.isNeg⟩
  abs a := ⟨abs a.val, false⟩
  sign a := ⟨sign a.val, false⟩
  mod a b := ⟨mod a.val b.val, b.isNeg⟩
  maximum a b := ⟨maximum a.val b.val, if a.isZero then a.neg else b.neg⟩
  -- `(-0.0) ** y` is `+0.0` unless `y` is an odd integer
  rootn n a := ⟨rootn n a.val, n == 1 && a.neg⟩
  powi a n := ⟨powi a.val n, n % 2 == 1 && a.isNeg⟩
  addTiny a := ⟨addTiny a.val, false⟩
  le a b := le a.val b.val
  lt a b := lt a.val b.val
  eq a b := eq a.val b.val
  isfinite a := isfinite a.val
  isnan a := isnan a.val

/-- the number is the negative zero -/
def minusZero (a : Sgn α) : Bool := a.isZero && a.neg

section rules
variable (a b : Sgn α) (q : ℚ) (n : ℕ)

@[simp] theorem add_val : (a + b).val = a.val + b.val := rfl
@[simp] theorem sub_val : (a - b).val = a.val - b.val := rfl
@[simp] theorem mul_val : (a * b).val = a.val * b.val := rfl
@[simp] theorem neg_val : (-a).val = -a.val := rfl
@[simp] theorem lit_val : (lit q : Sgn α).val = lit q := rfl
@[simp] theorem nan_val : (nan : Sgn α).val = nan := rfl
@[simp] theorem pi_val : (pi : Sgn α).val = pi := rfl
@[simp] theorem sqrt_val : (sqrt a).val = sqrt a.val := rfl
@[simp] theorem sin_val : (sin a).val = sin a.val := rfl
@[simp] theorem cos_val : (cos a).val = cos a.val := rfl
@[simp] theorem arcsin_val : (arcsin a).val = arcsin a.val := rfl
@[simp] theorem abs_val : (abs a).val = abs a.val := rfl
@[simp] theorem sign_val : (sign a).val = sign a.val := rfl
@[simp] theorem mod_val : (mod a b).val = mod a.val b.val := rfl
@[simp] theorem maximum_val : (maximum a b).val = maximum a.val b.val := rfl
@[simp] theorem rootn_val : (rootn n a).val = rootn n a.val := rfl
@[simp] theorem powi_val : (powi a n).val = powi a.val n := rfl
@[simp] theorem addTiny_val : (addTiny a).val = addTiny a.val := rfl
@[simp] theorem le_val : le a b = le a.val b.val := rfl
@[simp] theorem lt_val : lt a b = lt a.val b.val := rfl
@[simp] theorem eq_val : eq a b = eq a.val b.val := rfl
@[simp] theorem isfinite_val : isfinite a = isfinite a.val := rfl
@[simp] theorem isnan_val : isnan a = isnan a.val := rfl
@[simp] theorem powNat_val : (powNat a n).val = powNat a.val n := by
  match n with
  | 0 => rfl
  | 1 => rfl
  | 2 => rfl
  | n + 3 => rfl

theorem div_val (h : b.minusZero = false) : (a / b).val = a.val / b.val := by
  change (if b.isZero && b.neg then _ else _) = _
  unfold minusZero at h
  rw [h]; rfl

theorem arctan2_val (h : (a.isZero && (a.neg || b.isZero)) = false) : (arctan2 a b).val = arctan2 a.val b.val := by
  change (if a.isZero then (if b.isZero then _ else if a.neg then _ else _) else _) = _
  cases ha : a.isZero
  · rfl
  · simp only [ha, Bool.true_and, Bool.or_eq_false_iff] at h
    simp [h.1, h.2]

/-! ## What is never the negative zero -/

@[simp] theorem lit_mz : (lit q : Sgn α).minusZero = false := by simp [minusZero]; intro; rfl
@[simp] theorem pi_mz : (pi : Sgn α).minusZero = false := by simp [minusZero]; intro; rfl
@[simp] theorem addTiny_mz : (addTiny a).minusZero = false := by simp [minusZero]; intro; rfl
@[simp] theorem abs_mz : (abs a).minusZero = false := by simp [minusZero]; intro; rfl

theorem add_neg : (a + b).neg = (a.isZero && b.isZero && a.neg && b.neg) := rfl
theorem sub_neg : (a - b).neg = (a.isZero && b.isZero && a.neg && !b.neg) := rfl
theorem mul_self_neg : (a * a).neg = false := by change (a.isNeg ^^ a.isNeg) = false; simp
theorem sqrt_neg : (sqrt a).neg = a.minusZero := rfl

theorem add_left_neg (h : a.neg = false) : (a + b).neg = false := by rw [add_neg, h]; simp
theorem add_left_mz (h : a.minusZero = false) : (a + b).neg = false := by
  rw [add_neg]; unfold minusZero at h
  cases h1 : a.isZero <;> cases h2 : a.neg <;> simp_all
theorem add_right_mz (h : b.minusZero = false) : (a + b).neg = false := by
  rw [add_neg]; unfold minusZero at h
  cases h1 : b.isZero <;> cases h2 : b.neg <;> simp_all
theorem sub_left_mz (h : a.minusZero = false) : (a - b).neg = false := by
  rw [sub_neg]; unfold minusZero at h
  cases h1 : a.isZero <;> cases h2 : a.neg <;> simp_all
theorem mz_of_neg {a : Sgn α} (h : a.neg = false) : a.minusZero = false := by unfold minusZero; rw [h]; simp

end rules

end Sgn

/-- the values of a column, of a matrix -/
def V3.val {α : Type} (v : V3 (Sgn α)) : V3 α := ⟨v.x.val, v.y.val, v.z.val⟩
def M3.val {α : Type} (M : M3 (Sgn α)) : M3 α := ⟨M.r0.val, M.r1.val, M.r2.val⟩

end Nv
