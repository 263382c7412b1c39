import Verif.Cases.Basic
import Verif.Props.Prolate
import Verif.Props.ProlateDelta

/-!
# Concrete cases for C150: a body of equatorial radius 10 and polar radius 12 (flattening -1/5), and one of polar radius 20
-/

namespace Nv.Cases
open Spec Real
open XR (fin)

/-- off the axis and off the equator -/
example := C150_from_position ⟨10, 3, 4⟩ 10 (-1 / 5) (by norm_num) (by norm_num) one isRotation_one
  (by unfold OutsideCore; norm_num [app, one, dot])
/-- on the axis, inside the body, outside the core -/
example := C150_from_position ⟨8, 0, 0⟩ 10 (-1 / 5) (by norm_num) (by norm_num) one isRotation_one
  (by unfold OutsideCore; norm_num [app, one, dot])
example := C150_far ⟨3, 4, 0⟩ 10 (-1 / 5) (by norm_num) (by norm_num) Rg rg (by
  have : len (⟨3, 4, 0⟩ : V3 ℝ) = 5 := by
    unfold len; rw [show (3:ℝ) ^ 2 + 4 ^ 2 + 0 ^ 2 = 5 ^ 2 by norm_num, Real.sqrt_sq (by norm_num)]
  rw [this, abs_of_neg] <;> norm_num)
theorem prolate_e2 : |(2 - (-1 / 5 : ℝ)) * (-1 / 5)| = 11 / 25 := by rw [abs_of_neg] <;> norm_num
example := C150_from_nvector_simple nD neD 2 10 (-1 / 5) (by norm_num) (by norm_num) Rg rg (by rw [prolate_e2]; norm_num)
  (by rw [prolate_e2]; norm_num)
/-- the equator 5 below the surface -/
theorem prolate_equator {p : V3 ℝ}
    (h : n_EB_E2p_EB_E (V3.fin ⟨0, 0, 1⟩) (fin 5) (fin 10) (fin (-1 / 5)) one.fin = p.fin) : p = ⟨0, 0, 5⟩ := by
  have hu : UnitVec (⟨0, 0, 1⟩ : V3 ℝ) := by norm_num [UnitVec]
  rw [n2p_fin hu.ne 5 10 (-1 / 5) (by norm_num) isRotation_one, dirOf_of_unit hu, V3.fin_inj] at h
  rw [← h]
  ext <;> norm_num [app, transp, col0, col1, col2, one, dot, posE, Dell]
example := C150_from_nvector ⟨0, 0, 1⟩ (UnitVec.ne (by norm_num [UnitVec])) 5 10 (-1 / 5) (by norm_num) (by norm_num) one isRotation_one _ rfl
  (by
    have : len (⟨0, 0, 1⟩ : V3 ℝ) = 1 := by unfold len; norm_num
    rw [this]; norm_num [app, one, dot])
  (fun p h => by rw [prolate_equator h]; unfold OutsideCore; norm_num [app, one, dot])
example := C150_axis ⟨-1, 0, 0⟩ 10 (-1 / 5) (by norm_num) (by norm_num) one isRotation_one (by norm_num [app, one, dot]) (by norm_num [app, one, dot])
  (by norm_num [app, one, dot]) (by rw [prolate_e2]; norm_num [app, one, dot])
example := C150_core_nan ⟨1, 1, 1⟩ 10 (-1 / 5) (by norm_num) (by norm_num) one (by unfold OutsideCore; norm_num [app, one, dot])
  (by norm_num [app, one, dot])
example := C150_equator_nan ⟨0, 6, 8⟩ 10 (-1) (by norm_num) (by norm_num) (by rw [abs_of_neg] <;> norm_num) one (by norm_num [app, one, dot])
  (by unfold OnEllipsoid; norm_num [app, one, dot])
example := C150_chain ⟨10, 3, 4⟩ 10 (-1 / 5) (by norm_num) (by norm_num) (.str "") one isRotation_one
  (by unfold OutsideCore; norm_num [app, one, dot]) (.ecef (.real ⟨10, 3, 4⟩ (.real 10 (-1 / 5) (.str "") one))) rfl
  [.to_geo_point, .to_nvector, .to_geo_point, .to_ecef_vector, .to_nvector]
example := C150_geo_ecef_geo (-1) 3 (-1000) 10 (-1 / 5) (by norm_num) (by norm_num) (by rw [prolate_e2]; norm_num)
  (by rw [prolate_e2]; norm_num) (.str "") Rg rg (by linarith [pi3]) (by linarith [pi3]) (by linarith [pi3]) (by linarith [pi3])

example := C150_delta_zero_iff nA nD neA neD (-3) 2 10 (-1 / 5) (by norm_num) (by norm_num) (by rw [prolate_e2]; norm_num)
  (by rw [prolate_e2]; norm_num) (by rw [prolate_e2]; norm_num) Rg rg
/-- from a point 9 below the surface, where C150_from_nvector does not apply -/
example := C150_dead_reckoning nA nD neA neD 9 2 10 (-1 / 5) (by norm_num) (by norm_num) (by rw [prolate_e2]; norm_num)
  (by rw [prolate_e2]; norm_num) Rg rg
/-- from the equator 5 below the surface, 3 towards the pole and 4 outwards -/
example := C150_dead_reckoning_delta ⟨0, 0, 1⟩ ⟨3, 0, 4⟩ (UnitVec.ne (by norm_num [UnitVec])) 5 10 (-1 / 5) (by norm_num) (by norm_num)
  one isRotation_one (fun p h => by rw [prolate_equator h]; unfold OutsideCore; norm_num [app, one, dot])

end Nv.Cases
