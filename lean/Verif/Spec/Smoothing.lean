import Mathlib.Algebra.Polynomial.Eval.Degree
import Mathlib.Data.Real.Basic

/-! # Specification: smoothing by polynomials (Savitzky and Golay), as documented at core.py:391-404 -/

namespace Nv.Spec

/-- the first of the `w` consecutive samples used for sample `i` of `n`: centred on `i` if they exist, else the first or the last `w` samples -/
def windowStart (n w i : ℕ) : ℕ := min (i - w / 2) (n - w)

/-- the sum of squared deviations of a polynomial in the sample number from the samples `s, ..., s + w - 1` -/
noncomputable def sqDev (q : Polynomial ℝ) (x : List ℝ) (s w : ℕ) : ℝ :=
  ∑ j ∈ Finset.range w, (q.eval ((s + j : ℕ) : ℝ) - x.getD (s + j) 0) ^ 2

/-- `q` is a best fitting polynomial of degree at most `p` -/
def IsFit (p : ℕ) (q : Polynomial ℝ) (x : List ℝ) (s w : ℕ) : Prop :=
  q.natDegree ≤ p ∧ ∀ q' : Polynomial ℝ, q'.natDegree ≤ p → sqDev q x s w ≤ sqDev q' x s w

/-- every value of `y` is the value, at its sample number, of a best fitting polynomial of degree at most `p` in the window of `w` samples -/
structure Smoothed (w p : ℕ) (x y : List ℝ) : Prop where
  length : y.length = x.length
  value : ∀ i (h : i < y.length), ∃ q, IsFit p q x (windowStart x.length w i) w ∧ y[i] = q.eval (i : ℝ)

end Nv.Spec
