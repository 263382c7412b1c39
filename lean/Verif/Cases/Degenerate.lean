import Verif.Cases.Objects
import Verif.Props.Degenerate

/-!
# Concrete cases for C141, C145 and C146
-/

namespace Nv.Cases
open Spec Real
open XR (fin)

example (r atol : XR) := C145_no_circle nA nA nC nB nC (.inl rfl) r atol
example (r atol : XR) := C145_no_circle nA (-nA) nC nB nC (.inr rfl) r atol
example := C145_distance nA uA 6371009
example := C145_interpolate nA uA 0.3
example (G : Geodesic XR) := C145_on_path ⟨nv nA 10, nv nA 20⟩ nA nA nC _ _ _ 10 20 5 wa wf _ Re G (atA 10) (atA 20) (.inl rfl) (nv nC 5) (atC 5)
  "greatcircle" (by decide) (by decide) 1e-6 1e-8
theorem umA : UnitVec (-nA) := by norm_num [UnitVec]
example := C145_closest ⟨nv nA 0, nv (-nA) 0⟩ nA (-nA) nC _ _ _ 0 0 5 wa wf _ Re re (atA 0) (atN (-nA) umA 0) (.inr rfl) (nv nC 5) (atC 5)
  (add_pos (far nA uA 0 le_rfl) (far _ umA 0 le_rfl))
example := C141_closest ⟨nv nA 0, nv nB 0⟩ nA nB nC _ _ _ 0 0 5 wa wf _ Re re (atA 0) (atB 0) (nv nC 5) (atC 5) ppAB offAB (far2 le_rfl le_rfl)

/-! the poles of the circle: the x-axis above the circle through the y- and z-axes; the z-axis above a short piece of the circle through the x- and y-axes -/

theorem ux : UnitVec (⟨1, 0, 0⟩ : V3 ℝ) := by norm_num [UnitVec]
theorem uy : UnitVec (⟨0, 1, 0⟩ : V3 ℝ) := by norm_num [UnitVec]
theorem uz : UnitVec (⟨0, 0, 1⟩ : V3 ℝ) := by norm_num [UnitVec]
theorem uH : UnitVec (⟨4 / 5, 3 / 5, 0⟩ : V3 ℝ) := by norm_num [UnitVec]
theorem ppyz : ProperPath (⟨0, 1, 0⟩ : V3 ℝ) ⟨0, 0, 1⟩ := fun h => by have := congrArg V3.x h; norm_num [cross] at this
theorem ppxH : ProperPath (⟨1, 0, 0⟩ : V3 ℝ) ⟨4 / 5, 3 / 5, 0⟩ := fun h => by have := congrArg V3.z h; norm_num [cross] at this
theorem polex : cross (⟨1, 0, 0⟩ : V3 ℝ) (cross ⟨0, 1, 0⟩ ⟨0, 0, 1⟩) = 0 := by ext <;> norm_num [cross]
theorem polez : cross (⟨0, 0, 1⟩ : V3 ℝ) (cross ⟨1, 0, 0⟩ ⟨4 / 5, 3 / 5, 0⟩) = 0 := by ext <;> norm_num [cross]
theorem far1 (n : V3 ℝ) (hn : UnitVec n) : 1 < len (pos n 0) := by
  have h := (len_pos_bounds (a := wa) (f := wf) wa0 wf0 wf1 re le_rfl (unitVec_app re (dirOf_unit hn.ne))).1
  refine lt_of_lt_of_le ?_ h
  norm_num

example := C146_pole _ _ _ ppyz ux polex
example := C146_pole _ _ _ ppxH uz polez
example := C146_closest_on_path ⟨nv ⟨0, 1, 0⟩ 0, nv ⟨0, 0, 1⟩ 0⟩ _ _ _ _ _ _ 0 0 0 wa wf _ Re re (atN _ uy 0) (atN _ uz 0) (nv ⟨1, 0, 0⟩ 0) (atN _ ux 0)
  ppyz polex (add_pos (far _ uy 0 le_rfl) (far _ uz 0 le_rfl)) (.inl (by
    simp only [arcsin_one]
    rw [abs_of_pos (by positivity)]
    have h1 := far1 _ uy
    have h2 := far1 _ uz
    nlinarith [pi_gt_three]))
example := C146_closest_on_path ⟨nv ⟨1, 0, 0⟩ 0, nv ⟨4 / 5, 3 / 5, 0⟩ 0⟩ _ _ _ _ _ _ 0 0 0 wa wf _ Re re (atN _ ux 0) (atN _ uH 0) (nv ⟨0, 0, 1⟩ 0)
  (atN _ uz 0) ppxH polez (add_pos (far _ ux 0 le_rfl) (far _ uH 0 le_rfl)) (.inr ⟨rfl, by
    rw [angle_unit ux uH, ← arccos_cos (x := π / 3) (by positivity) (by linarith [pi_pos]), cos_pi_div_three]
    exact strictAntiOn_arccos (by norm_num [dot]) (by norm_num [dot]) (by norm_num [dot])⟩)

end Nv.Cases
