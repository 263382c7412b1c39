import Mathlib.Analysis.SpecialFunctions.Complex.Arg
import Mathlib.Analysis.SpecialFunctions.Pow.Real
import Mathlib.Analysis.SpecialFunctions.Trigonometric.Inverse

/-!
# Scalars

The numbers the Python code computes with are numpy `float64` scalars.  `PyFloat` lists the scalar operations the
library uses.  Instances:

* `XR`: `nan`, `±inf` or an exact real number.  Everything is proved about this instance.  The rules for NaN,
  infinities, division by zero and domain errors are those of IEEE-754 / numpy; rounding of finite results and the sign
  of zero are abstracted away (trusted base, DESIGN.md section 2).
* `Float`: only used by `tools/` to run the model against the numbers in the repo's unit tests.
-/

namespace Nv

/-- The scalar operations of numpy used by the library.
Models: `from numpy import arctan2, sin, cos, cross, dot, sqrt` (core.py:12), `np.arcsin`, `np.sign`, `np.mod`,
`np.abs`, `np.maximum`, `np.isfinite`, `np.isnan`, `np.pi`, `np.nan`, `**`, and the comparison operators. -/
class PyFloat (α : Type) extends Add α, Sub α, Mul α, Div α, Neg α where
  /-- numeric literal (its exact rational value) -/
  lit : ℚ → α
  nan : α
  pi : α
  sqrt : α → α
  sin : α → α
  cos : α → α
  arcsin : α → α
  arctan2 : α → α → α
  abs : α → α
  sign : α → α
  /-- `np.mod(x, y)` -/
  mod : α → α → α
  /-- `np.maximum(x, y)` (NaN if either is NaN) -/
  maximum : α → α → α
  /-- `x ** (1. / n)` -/
  rootn : ℕ → α → α
  /-- `x ** n` of a Python or numpy scalar (any `n`) and of an array (`n ≥ 3`): the `pow` function of the C library -/
  powi : α → ℕ → α
  /-- `x + _TINY` where `_TINY = np.finfo(float).tiny` (util.py:19,506) -/
  addTiny : α → α
  le : α → α → Bool
  lt : α → α → Bool
  eq : α → α → Bool
  isfinite : α → Bool
  isnan : α → Bool

export PyFloat (lit)

/-- `x ** n` of an array for a natural number `n`: numpy computes `x ** 2` as `x * x` and uses `pow` from `n = 3`. -/
def powNat {α : Type} [PyFloat α] (x : α) : ℕ → α
  | 0 => lit 1
  | 1 => x
  | 2 => x * x
  | n + 3 => PyFloat.powi x (n + 3)

/-- A numpy `float64` with exact (unrounded) finite values and one zero. -/
inductive XR where
  | nan
  | ninf
  | pinf
  | fin (x : ℝ)

namespace XR
open Classical

/-- infinity with the sign of a real number (`0` counts as NaN: `0/0`, `0*inf`) -/
noncomputable def signInf (x : ℝ) : XR := if 0 < x then pinf else if x < 0 then ninf else nan

/-- IEEE addition (no rounding) -/
noncomputable def add : XR → XR → XR
  | nan, _ => nan
  | _, nan => nan
  | pinf, ninf => nan
  | ninf, pinf => nan
  | pinf, _ => pinf
  | _, pinf => pinf
  | ninf, _ => ninf
  | _, ninf => ninf
  | fin x, fin y => fin (x + y)

noncomputable def neg : XR → XR
  | nan => nan
  | pinf => ninf
  | ninf => pinf
  | fin x => fin (-x)

noncomputable def mul : XR → XR → XR
  | nan, _ => nan
  | _, nan => nan
  | pinf, pinf => pinf
  | pinf, ninf => ninf
  | ninf, pinf => ninf
  | ninf, ninf => pinf
  | pinf, fin y => signInf y
  | fin x, pinf => signInf x
  | ninf, fin y => signInf (-y)
  | fin x, ninf => signInf (-x)
  | fin x, fin y => fin (x * y)

/-- IEEE division; a zero divisor counts as `+0`: `x/0` is `±inf`, `0/0` is NaN. -/
noncomputable def div : XR → XR → XR
  | nan, _ => nan
  | _, nan => nan
  | pinf, pinf => nan
  | pinf, ninf => nan
  | ninf, pinf => nan
  | ninf, ninf => nan
  | pinf, fin y => if y < 0 then ninf else pinf
  | ninf, fin y => if y < 0 then pinf else ninf
  | fin _, pinf => fin 0
  | fin _, ninf => fin 0
  | fin x, fin y => if y = 0 then signInf x else fin (x / y)

noncomputable def sqrt : XR → XR
  | fin x => if x < 0 then nan else fin (Real.sqrt x)
  | pinf => pinf
  | _ => nan

noncomputable def sin : XR → XR
  | fin x => fin (Real.sin x)
  | _ => nan

noncomputable def cos : XR → XR
  | fin x => fin (Real.cos x)
  | _ => nan

noncomputable def arcsin : XR → XR
  | fin x => if x < -1 ∨ 1 < x then nan else fin (Real.arcsin x)
  | _ => nan

/-- The value of `arctan2(±0, ±0)`.  In IEEE arithmetic it depends on the signs of the zeros and is `0`, `π` or `-π`
(the repo's own `test_n_E_and_wa2R_EL` meets the case `π` at the pole).  The sign of zero is not modelled, so this is an
unspecified one of these values; no theorem can depend on which. -/
noncomputable def atan2Zero : {x : ℝ // x = 0 ∨ x = Real.pi ∨ x = -Real.pi} := Classical.choice ⟨⟨0, Or.inl rfl⟩⟩

/-- `arctan2(y, x)`: on finite values the argument of `x + i y` in `(-π, π]`.  (A zero `y` counts as `+0` for `x < 0`.) -/
noncomputable def arctan2 : XR → XR → XR
  | nan, _ => nan
  | _, nan => nan
  | fin y, fin x => if x = 0 ∧ y = 0 then fin atan2Zero else fin (Complex.arg ⟨x, y⟩)
  | fin _, pinf => fin 0
  | fin y, ninf => if y < 0 then fin (-Real.pi) else fin Real.pi
  | pinf, fin _ => fin (Real.pi / 2)
  | ninf, fin _ => fin (-(Real.pi / 2))
  | pinf, pinf => fin (Real.pi / 4)
  | pinf, ninf => fin (3 * Real.pi / 4)
  | ninf, pinf => fin (-(Real.pi / 4))
  | ninf, ninf => fin (-(3 * Real.pi / 4))

noncomputable def abs : XR → XR
  | nan => nan
  | pinf => pinf
  | ninf => pinf
  | fin x => fin |x|

noncomputable def sign : XR → XR
  | nan => nan
  | pinf => fin 1
  | ninf => fin (-1)
  | fin x => if 0 < x then fin 1 else if x < 0 then fin (-1) else fin 0

/-- `np.mod` for a positive finite divisor (the library only uses `2*np.pi`); other divisors are not used and give NaN
here. -/
noncomputable def mod : XR → XR → XR
  | fin x, fin y => if 0 < y then fin (x - y * ⌊x / y⌋) else nan
  | _, _ => nan

noncomputable def le : XR → XR → Bool
  | nan, _ => false
  | _, nan => false
  | ninf, _ => true
  | _, pinf => true
  | fin x, fin y => decide (x ≤ y)
  | pinf, _ => false
  | _, ninf => false

noncomputable def lt : XR → XR → Bool
  | nan, _ => false
  | _, nan => false
  | fin x, fin y => decide (x < y)
  | pinf, _ => false
  | _, ninf => false
  | ninf, _ => true
  | _, pinf => true

noncomputable def eq : XR → XR → Bool
  | pinf, pinf => true
  | ninf, ninf => true
  | fin x, fin y => decide (x = y)
  | _, _ => false

/-- `np.maximum`: NaN if either operand is NaN, else the larger one. -/
noncomputable def maximum (a b : XR) : XR :=
  match a, b with
  | nan, _ => nan
  | _, nan => nan
  | a, b => if le a b then b else a

/-- `x ** (1. / n)` with `n ≥ 1`: the nonnegative root for `x ≥ 0`; NaN for negative `x` unless the exponent is `1.0`;
`(-inf) ** y = inf` for a positive non-integer `y`. -/
noncomputable def rootn (n : ℕ) : XR → XR
  | nan => nan
  | pinf => pinf
  | ninf => if n = 1 then ninf else pinf
  | fin x => if x < 0 then (if n = 1 then fin x else nan) else fin (x ^ ((1 : ℝ) / (n : ℝ)))

/-- `x ** n` for a natural number `n`: the product of `n` factors `x` -/
noncomputable def powi (x : XR) : ℕ → XR
  | 0 => fin 1
  | 1 => x
  | n + 2 => mul (powi x (n + 1)) x

def isfinite : XR → Bool
  | fin _ => true
  | _ => false

def isnan : XR → Bool
  | nan => true
  | _ => false

noncomputable instance : PyFloat XR where
  add := add
  sub a b := add a (neg b)
  mul := mul
  div := div
  neg := neg
  lit q := fin (q : ℝ)
  nan := nan
  pi := fin Real.pi
  sqrt := sqrt
  sin := sin
  cos := cos
  arcsin := arcsin
  arctan2 := arctan2
  abs := abs
  sign := sign
  mod := mod
  maximum := maximum
  rootn := rootn
  powi := powi
  -- the smallest normal number is absorbed by rounding (theorem `tiny_absorbed`)
  addTiny x := x
  le := le
  lt := lt
  eq := eq
  isfinite := isfinite
  isnan := isnan

end XR

/-- `Float` instance, only for running the model on the numbers of the repo's unit tests. -/
instance : PyFloat Float where
  lit q := Float.ofInt q.num / Float.ofNat q.den
  nan := 0.0 / 0.0
  pi := 3.141592653589793
  sqrt := Float.sqrt
  sin := Float.sin
  cos := Float.cos
  arcsin := Float.asin
  arctan2 := Float.atan2
  abs := Float.abs
  sign x := if x > 0 then 1 else if x < 0 then -1 else x
  mod x y := x - y * Float.floor (x / y)
  maximum x y := if x.isNaN then x else if y.isNaN then y else if x ≤ y then y else x
  rootn n x := Float.pow x (1.0 / Float.ofNat n)
  powi x n := Float.pow x (Float.ofNat n)
  addTiny x := x + 2.2250738585072014e-308
  le x y := decide (x ≤ y)
  lt x y := decide (x < y)
  eq x y := x == y
  isfinite x := x.isFinite
  isnan x := x.isNaN

end Nv
