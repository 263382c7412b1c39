import Verif.Props.GeoPath
import Verif.Props.VectorPaths

/-!
# C48, C66: on_path

* `C48_iff`: which interpolated points of a path between two depths are on the path.
* `C66_on_path_partial`: `on_path` of vectors, whichever method is asked for.
-/

namespace Nv
open Spec Real
open XR (fin)

/-- **C48** for any depths, exactly: the point interpolated at `t` between depths `zA` and `zB` is on the path by the great
circle method iff its depth `zA + t (zB - zA)` is close to the mean of the two depths -/
theorem C48_iff (G : Geodesic XR) (P : GeoPath XR) (A B pA pB : V3 ℝ) (zA zB a f : ℝ) (name : EllKey) (R : M3 ℝ)
    (hA : At P.point_a A zA pA (.real a f name R)) (hB : At P.point_b B zB pB (.real a f name R)) (hp : ProperPath A B)
    (t : ℝ) (ht0 : 0 ≤ t) (ht1 : t ≤ 1) (m : String) (hx : m.toList.take 2 ≠ ['e', 'x'])
    (hl : m.toList.take 2 ≠ ['e', 'l']) (rtol atol : ℝ) (hat : 0 ≤ atol) :
    ∃ Q on, P.interpolate (fin t) = .ok Q ∧ P.on_path G (.nvec Q) m (fin rtol) (fin atol) = .ok on ∧
      (on = true ↔ |(t - 1 / 2) * (zB - zA)| ≤ max atol (rtol * max |zA + t * (zB - zA)| |(zA + zB) / 2|)) := by
  have hne : ¬ (B = -A ∧ t = 1 / 2) := by
    rintro ⟨rfl, -⟩
    apply hp
    rw [show -A = (-1 : ℝ) • A by ext <;> simp, cross_smul_right, cross_self]; ext <;> simp
  have hmix : mix A B t ≠ 0 := fun h => hne ((mix_zero_iff hA.unit hB.unit t).1 h)
  refine ⟨_, _, geoPath_interpolate_fin hA hB t hmix, on_path_greatcircle hA hB _ _ _ _ rfl m hx hl rtol atol, ?_⟩
  obtain ⟨Q, hQ, harc⟩ := C25_on_arc A B hA.unit hB.unit t ht0 ht1 hne
  rw [interpolate_fin hmix, V3.fin_inj] at hQ
  rw [hQ]
  have hon : on_great_circle_path (A.fin, B.fin) Q.fin (fin ((len pA + len pB) / 2)) (fin atol) = true := by
    rw [on_great_circle_path_fin hA.unit hB.unit hp harc.1]
    have hadd := arc_additive hA.unit hB.unit hp harc
    refine ⟨?_, ?_, ?_⟩
    · rw [← cos_angle_unit hA.unit hB.unit, ← cos_angle_unit harc.1 hA.unit]
      apply Real.cos_le_cos_of_nonneg_of_le_pi (angle_nonneg _ _) (angle_le_pi _ _)
      rw [angle_comm Q A]; linarith [angle_nonneg Q B]
    · rw [← cos_angle_unit hA.unit hB.unit, ← cos_angle_unit harc.1 hB.unit]
      apply Real.cos_le_cos_of_nonneg_of_le_pi (angle_nonneg _ _) (angle_le_pi _ _)
      linarith [angle_nonneg A Q]
    · rw [on_great_circle_fin hp harc.1, decide_eq_true_eq, ((onCircle_iff_normal hp).1 harc.onCircle).2]
      simpa using hat
  rw [hon, Bool.true_and, C34_finite, show zA + t * (zB - zA) - (zA + zB) / 2 = (t - 1 / 2) * (zB - zA) by ring]

end Nv

namespace Nv.ND
open PyFloat
open Spec (pathAt)
variable {α : Type} [PyFloat α] {sa sb : Bool} {na nb k : ℕ} {P : GeoPath α} {a b : ℕ → Nv.Position α}

/-- **C66** `on_path(point, method, rtol, atol)`, the call itself: whenever every path and its point have an answer, the call
returns these answers, in order.  Missing: several paths with several points by the great circle method, where the call
raises (`C66_on_great_circle_path_counterexample`). -/
theorem C66_on_path_partial (hA : IsPos sa na P.point_a a) (hB : IsPos sb nb P.point_b b) (hb : Bc na nb k)
    {sc : Bool} {m o : ℕ} {Q : Position α} {c} (hC : IsPos sc m Q c) (ho : Bc k m o) (ho0 : 0 < o)
    (G : Geodesic α) (method : String) (rtol atol : α)
    (hone : (strTake method 2 = "ex" ∨ strTake method 2 = "el") ∨ k = 1 ∨ m = 1) {x : ℕ → Bool}
    (hx : ∀ j < o, (pathAt na nb a b j).on_path G (c (bi m j)) method rtol atol = .ok (x j)) :
    ∃ X, P.on_path G Q method rtol atol = .ok X ∧
      IsVal (sa && sb && if strTake method 2 = "ex" ∨ strTake method 2 = "el" then sc else decide (o = 1)) X o x := by
  unfold GeoPath.on_path
  unfold Nv.GeoPath.on_path at hx
  by_cases h : strTake method 2 = "ex" ∨ strTake method 2 = "el"
  · simp only [if_pos h] at hx ⊢
    exact C66_on_ellipsoid_path hA hB hb hC ho ho0 G rtol atol hx
  · simp only [if_neg h] at hx ⊢
    obtain ⟨X, eX, hX⟩ := C66_on_great_circle_path_partial hA hB hb hC ho ho0 (hone.resolve_left h) rtol atol
    exact ⟨X, eX, hX.congr fun j hj => by have := hx j hj; simpa using this⟩

end Nv.ND
