import Verif.Cases.Basic
import Verif.Props.Distance
import Verif.Props.Direct
import Verif.Props.Interp
import Verif.Props.Util

/-! # Concrete cases for C18-C23, C25-C31 and C33-C36 -/

namespace Nv.Cases
open Spec Real
open XR (fin)

theorem ppAB : ProperPath nA nB := fun h => by have := congrArg V3.x h; norm_num [cross] at this
theorem offAB : cross nC (cross nA nB) ≠ 0 := fun h => by have := congrArg V3.x h; norm_num [cross] at this
theorem notAA : ¬ ProperPath nA nA := fun h => h (cross_self _)
theorem shortAB : angle nA nB < 2 * π / 3 := by
  rw [angle_unit uA uB]
  have : arccos (dot nA nB) < π / 2 := Real.arccos_lt_pi_div_two.2 (by norm_num [dot])
  linarith [pi3]
/-- the middle of the arc from `nA` to `nB`, and its pole -/
noncomputable abbrev pole : V3 ℝ := (len (cross nA nB))⁻¹ • cross nA nB
theorem u_pole : UnitVec pole := dirOf_unit ppAB

example := C18_eq_angle nD nA neD neA 5
example := C18_metric 6371009 (by norm_num)
example := C18_max_iff_antipodal nA (-nA) uA (by norm_num [UnitVec]) 6371009 (by norm_num)
example := C19_chord nA nB uA uB 6371009
example := C19_metric 6371009 (by norm_num)
example := C19_compare nA nB uA uB 6371009 (by norm_num)
example := C20_is_least_distance nA nB nC ppAB uC 6371009 (by norm_num)
example := C20_range_and_zero nA nB nC ppAB uC 6371009 (by norm_num)
example := C20_reverse nA nB nC ppAB uC 6371009
example := C20_sign nA nB nC ppAB uC 6371009 (by norm_num)
example := C20_methods nA nB nC ppAB uC 6371009
example := C20_degenerate nA nA nC notAA (fin 1)
example := C21_closest_partial nA nB nC ppAB uC offAB 1 one_pos
example := C21_pole_never_on_circle nA nB pole ppAB u_pole (by ext <;> simp [cross] <;> ring)
example := C22_iff_within nA nB nC ppAB uC 6371009 (by norm_num) 1000
example := C22_zero_tolerance nA nB nC ppAB uC 6371009 (by norm_num)
example := C22_degenerate nA nA nC notAA (fin 1) (fin 1)
example := C22_monotone nA nB nA (fin 1) 0 1 zero_le_one
  ((C22_zero_tolerance nA nB nA ppAB uA 1 one_pos).2 ⟨uA, 1, 0, by ext <;> simp⟩)
example := C23_on_path_partial nA nB nC uA uB ppAB uC shortAB 1 one_pos
example := C23_endpoints nA nB uA uB ppAB 6371009 (by norm_num) 0 le_rfl
example := C23_sound nA nB nA uA uB ppAB uA 1 one_pos 0 (C23_endpoints nA nB uA uB ppAB 1 one_pos 0 le_rfl).1

theorem offpole_A : cross (northPole Rg) nA ≠ 0 := fun h => by
  have := congrArg V3.x h; norm_num [northPole, cross, app, transp, dot, col0, col1, col2] at this
example := C27_distance_partial nA uA 1 zero_le_one (by linarith [pi3]) 2 Rg offpole_A
example := C27_default_axes nA uA 1 zero_le_one (by linarith [pi3]) 2
example := C28_azimuth_partial nA uA 1 one_pos (by linarith [pi3]) (-2) (by linarith [pi3]) (by linarith [pi3]) Rg rg offpole_A
  wa wa0
example := C29_inverse_direct_partial nA nB uA uB Rg rg offpole_A wa wa0
example := C30_minimises [nA, nB, nC] (fun h => by have := congrArg V3.z h; norm_num [vsum] at this)
example := C30_order [nA, nB, nC] [nB, nA, nC] (List.Perm.swap _ _ _)
example := C30_copies nA uA 4

example := C25_nan_iff nA nB uA uB (1 / 3)
example := C25_endpoints nA nB uA uB
theorem notanti : ¬ (nB = -nA ∧ (1 / 3 : ℝ) = 1 / 2) := fun h => by norm_num at h
example := C25_on_arc nA nB uA uB (1 / 3) (by norm_num) (by norm_num) notanti
example := C25_onto nA nB nB uA uB ppAB ⟨uB, 0, 1, le_rfl, zero_le_one, by ext <;> simp⟩
example := C26_additive nA nB uA uB ppAB 6371009 (1 / 3) (by norm_num) (by norm_num)
example := C26_monotone nA nB uA uB ppAB 6371009 (by norm_num) (1 / 3) (1 / 2) (by norm_num) (by norm_num) (by norm_num)

example := C31_unit nD neD XR.nan
example := C33_nthroot 27 (by norm_num) 3 (by norm_num)
example := C33_negative (-8) (by norm_num) 3 (by norm_num)
example := C34_refl XR.pinf nofun (1 / 10) 0 le_rfl true
example := C34_monotone (fin 1) (fin 2) 0 (1 / 10) 1 2 (by norm_num) (by norm_num) false
  ((C34_finite 1 2 0 1 false).2 (by norm_num))
example := C35_case_blanks "WGS 84" "wgs84" (show (_ : List Char) = _ by decide)
example := (C35_int 5).1 (by decide)
example := (C35_int 0).2 (by decide)
example := C35_alias "wgs84" 18 (by decide)
example := C36_rows_partial 5 (by decide) (by decide)

end Nv.Cases
