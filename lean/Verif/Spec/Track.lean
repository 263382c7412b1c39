import Verif.Spec.Sphere

/-! # Specification: tracks (samples at given times) -/

namespace Nv.Spec

/-- no two samples have the same time -/
def DistinctTimes {β : Type} (s : List (ℝ × β)) : Prop := (s.map Prod.fst).Nodup

/-- `p` and `q` are samples, `p` is the earlier one and no sample lies between them -/
structure Neighbours {β : Type} (s : List (ℝ × β)) (p q : ℝ × β) : Prop where
  left : p ∈ s
  right : q ∈ s
  lt : p.1 < q.1
  next : ∀ r ∈ s, r.1 ≤ p.1 ∨ q.1 ≤ r.1

/-- how far `x` is on the way from time `t0` to time `t1` -/
noncomputable def fraction (t0 t1 x : ℝ) : ℝ := (x - t0) / (t1 - t0)

end Nv.Spec
