import Verif.Props.Tiny
import Mathlib.Data.Int.Log

/-!
# Binary64 arithmetic

The third instance of `PyFloat`: every operation rounds its result to a nearest binary64 number and overflows to an infinity.
The only things not modelled are the sign of zero (`0` counts as `+0`) and fused multiply-add in `np.dot`/`np.einsum` (every
product and every sum is rounded).

`sin`, `cos`, `arcsin`, `arctan2` and `x ** y` of the C library are not correctly rounded.  They are parameters: any functions
with a relative error of at most `2^-51` (two units in the last place; glibc and numpy document less).
-/

namespace Nv.Spec

/-- `y` is the value `x` up to the relative error of a library function (and the smallest subnormal number, for results that
underflow) -/
def LibmClose (y x : ℝ) : Prop := |y - x| ≤ (2 : ℝ) ^ (-51 : ℤ) * |x| + (2 : ℝ) ^ (-1074 : ℤ)

/-- A binary64 implementation: a rounding function and a mathematical library -/
structure Binary64 where
  fl : ℝ → ℝ
  rounds : RoundsToNearest fl
  sin : ℝ → ℝ
  cos : ℝ → ℝ
  arcsin : ℝ → ℝ
  arctan2 : ℝ → ℝ → ℝ
  pow : ℝ → ℝ → ℝ
  sin_val : ∀ x, IsF64 (sin x)
  cos_val : ∀ x, IsF64 (cos x)
  arcsin_val : ∀ x, IsF64 (arcsin x)
  arctan2_val : ∀ y x, IsF64 (arctan2 y x)
  pow_val : ∀ x y, IsF64 (pow x y)
  sin_close : ∀ x, LibmClose (sin x) (Real.sin x)
  cos_close : ∀ x, LibmClose (cos x) (Real.cos x)
  arcsin_close : ∀ x, -1 ≤ x → x ≤ 1 → LibmClose (arcsin x) (Real.arcsin x)
  arctan2_close : ∀ y x, ¬ (x = 0 ∧ y = 0) → LibmClose (arctan2 y x) (Complex.arg ⟨x, y⟩)
  pow_close : ∀ x y, 0 ≤ x → LibmClose (pow x y) (x ^ y)
  pow_nonneg : ∀ x y, 0 ≤ x → 0 ≤ pow x y
  -- exact values required by the C standard (Annex F)
  sin_zero : sin 0 = 0
  cos_zero : cos 0 = 1
  arcsin_zero : arcsin 0 = 0
  arctan2_zero : ∀ x, 0 < x → arctan2 0 x = 0

end Nv.Spec

namespace Nv
open Spec

/-- the numbers of a binary64 implementation: NaN, infinities or a finite value -/
def F64 (_ : Binary64) : Type := XR

namespace F64
open Classical
variable {B : Binary64}

/-- a finite value -/
def fin (x : ℝ) : F64 B := XR.fin x

/-- the rounded result of an operation: nearest number, or an infinity if that is too large -/
noncomputable def rnd (B : Binary64) (x : ℝ) : F64 B := if |B.fl x| < (2 : ℝ) ^ (1024 : ℤ) then XR.fin (B.fl x) else XR.signInf x

/-- rounding of a result -/
noncomputable def round (B : Binary64) : XR → F64 B
  | .fin x => rnd B x
  | y => y

/-- a library function of one argument in place of the exact one -/
noncomputable def libm1 (f : ℝ → ℝ) : XR → XR
  | .fin x => .fin (f x)
  | _ => .nan

noncomputable instance : PyFloat (F64 B) where
  add a b := round B (XR.add a b)
  sub a b := round B (XR.add a (XR.neg b))
  mul a b := round B (XR.mul a b)
  div a b := round B (XR.div a b)
  neg := XR.neg
  lit q := rnd B q
  nan := XR.nan
  pi := rnd B Real.pi
  sqrt a := round B (XR.sqrt a)
  sin := libm1 B.sin
  cos := libm1 B.cos
  arcsin a := match a with
    | .fin x => if x < -1 ∨ 1 < x then XR.nan else XR.fin (B.arcsin x)
    | _ => XR.nan
  arctan2 a b := match a, b with
    | .fin y, .fin x => if x = 0 ∧ y = 0 then rnd B XR.atan2Zero else XR.fin (B.arctan2 y x)
    | a, b => round B (XR.arctan2 a b)
  abs := XR.abs
  sign := XR.sign
  mod a b := round B (XR.mod a b)
  maximum := XR.maximum
  rootn n a := match a with
    | .fin x => if x < 0 then (if n = 1 then XR.fin x else XR.nan) else XR.fin (B.pow x (B.fl (1 / n)))
    | a => XR.rootn n a
  powi a n := match a with
    | .fin x => if |B.pow x n| < (2 : ℝ) ^ (1024 : ℤ) then XR.fin (B.pow x n) else XR.signInf (x ^ n)
    | a => XR.powi a n
  addTiny a := round B (XR.add a (XR.fin ((2 : ℝ) ^ (-1022 : ℤ))))
  le := XR.le
  lt := XR.lt
  eq := XR.eq
  isfinite := XR.isfinite
  isnan := XR.isnan

end F64
end Nv
