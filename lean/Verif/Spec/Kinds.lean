import Verif.Spec.Track

/-! # Specification: interpolation of samples by a rule (`kind`) other than straight lines -/

namespace Nv.Spec

/-- the weighted sum of some values -/
def blend (w x : List ℝ) : ℝ := (List.zipWith (· * ·) w x).sum

/-- the weighted sum of the vectors of a track -/
def blend3 (w : List ℝ) (s : List (ℝ × V3 ℝ)) : V3 ℝ :=
  ⟨blend w (s.map (·.2.x)), blend w (s.map (·.2.y)), blend w (s.map (·.2.z))⟩

/-- `x` is neither before the first nor after the last sample -/
def During {β : Type} (s : List (ℝ × β)) (x : ℝ) : Prop := (∃ p ∈ s, p.1 ≤ x) ∧ ∃ q ∈ s, x ≤ q.1

/-- A rule of interpolation: for the times `t` of some samples and a time `x`, the weights of the samples.  Every spline through the samples, and
every step function, is such a rule: the value is linear in the samples, with weights that depend on the times only. -/
structure Rule where
  weights : List ℝ → ℝ → List ℝ
  /-- one weight for each sample -/
  length : ∀ t x, (weights t x).length = t.length
  /-- at the time of a sample the value is this sample -/
  sample : ∀ t j x, t.Nodup → t[j]? = some x → weights t x = (List.range t.length).map fun i => if i = j then 1 else 0
  /-- equal samples are continued by the same value -/
  constant : ∀ t x, t.Nodup → (∃ u ∈ t, u ≤ x) → (∃ u ∈ t, x ≤ u) → (weights t x).sum = 1

/-- a rule that never leaves the range of the samples -/
def Rule.Convex (W : Rule) : Prop := ∀ t x, ∀ c ∈ W.weights t x, 0 ≤ c
/-- a rule that only takes values of samples -/
def Rule.Step (W : Rule) : Prop := ∀ t x, (∃ u ∈ t, u ≤ x) → (∃ u ∈ t, x ≤ u) →
  ∃ j < t.length, W.weights t x = (List.range t.length).map fun i => if i = j then 1 else 0

end Nv.Spec
