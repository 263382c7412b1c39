import Verif.Cases.Basic
import Verif.Props.LatLon

/-! # Concrete cases for C01-C17 and C58 -/

namespace Nv.Cases
open Spec Real
open XR (fin)

theorem half_pi : (1 : ℝ) < π / 2 := by linarith [pi3]

example := C01_lat_lon2n_E_unit 1 2 Rg rg
example : (1 / 2 : ℝ) = 1 / 2 ∧ ∃ k : ℤ, (1 : ℝ) + 2 * π = 1 + k * (2 * π) :=
  C01_lat_lon2n_E_injective Rg rg (by linarith [pi3]) (by linarith [pi3]) (by linarith [pi3]) (by linarith [pi3])
    (by have := C01_lat_lon2n_E_periodic (1 / 2) 1 0 1 Rg; simpa using this)
example := C02_roundtrip nD neD Rg rg
example := C02_roundtrip_unit nA uA Rg rg
example := C03_ranges nD neD Rg rg
example := C03_inverse (-1) 3 (by linarith [pi3]) (by linarith [pi3]) (by linarith [pi3]) (by linarith [pi3]) Rg rg
example := C03_poles 2 (-1) (.inr rfl) Rg rg

example := C04_on_surface nD neD wa wf wa0 wf1 Rg rg
example := C04_depth nD neD (-1000) wa wf wf1 Rg rg
example := (C04_radii wa wf wf1 Re re ⟨0, 0, 1⟩ (by norm_num [UnitVec])).1 (by ext <;> simp [app, Re, dot])
example := (C04_radii wa wf wf1 Re re ⟨3 / 5, 4 / 5, 0⟩ (by norm_num [UnitVec])).2 (by simp [app, Re, dot])
example := C05_scale_invariant 7 (by norm_num) nD neD 100 wa wf wf1 Rg rg
example := C06_roundtrip pA wa wf wa0 wf0 wf1 Rg rg (coreA Rg rg)
example := C06_roundtrip_far pA wa wf wa0 wf0 wf1 Rg rg (by
  have h : (7000000 : ℝ) ≤ len pA := by
    unfold len; rw [show (7000000 : ℝ) = √(7000000 ^ 2) by rw [Real.sqrt_sq]; norm_num]
    exact Real.sqrt_le_sqrt (by norm_num [dot])
  calc wa * ((2 - wf) * wf) < (1 - wf) * 7000000 := by norm_num
    _ ≤ _ := mul_le_mul_of_nonneg_left h (by norm_num))
theorem equator_pos {p : V3 ℝ} (h : n_EB_E2p_EB_E (V3.fin ⟨3 / 5, 4 / 5, 0⟩) (fin 0) (fin wa) (fin wf) Re.fin = p.fin) :
    p = wa • ⟨3 / 5, 4 / 5, 0⟩ := by
  obtain ⟨q, h1, h2⟩ := (C04_radii wa wf wf1 Re re ⟨3 / 5, 4 / 5, 0⟩ (by norm_num [UnitVec])).2 (by simp [app, Re, dot])
  rw [h1, V3.fin_inj] at h
  rw [← h, h2]
example := C07_roundtrip ⟨3 / 5, 4 / 5, 0⟩ (UnitVec.ne (by norm_num [UnitVec])) 0 wa wf wa0 wf0 wf1 Re re _ rfl
  (by have h : 0 < 1 - wf := sub_pos.2 wf1
      apply mul_pos (pow_pos h 2)
      apply div_pos wa0
      apply Real.sqrt_pos.2
      norm_num [app, Re, dot, len]) (fun p h => by rw [equator_pos h]; exact core Re re (by norm_num [dot]))
example := C07_roundtrip_simple nD neD 5000 wa wf wa0 wf0 wf1 Rg rg we (by norm_num)

example := C08_nonsingular_partial pA wa wf wa0 wf0 wf1 Rg rg (.inl (coreA Rg rg))
example := C08_sphere pA (fun h => by have := congrArg V3.x h; norm_num at this) wa wa0 Rg rg
example := C09_p2n pA (fun h => by have := congrArg V3.x h; norm_num at this) wa wa0 Rg rg
example := C09_n2p nD neD 100 wa Rg rg
example := C10_delta nA nB nD neA neB neD 1 2 (-3) wa wf wf1 Rg rg
example := C10_zero_iff nA nB neA neB 10 20 wa wf wa0 wf0 wf1 we (by norm_num) (by norm_num) Rg rg
example := C11_inverse nA nB neA neB 10 20 wa wf wa0 wf0 wf1 we (by norm_num) Rg rg

example := C11_delta ⟨3 / 5, 4 / 5, 0⟩ ⟨10, 20, 30⟩ (UnitVec.ne (by norm_num [UnitVec])) 0 wa wf wa0 wf0 wf1 Re re
  (fun p h => by rw [equator_pos h]; exact core Re re (by norm_num [dot]))

example := C16_R2xyz_xyz2R 3 (-1) (-2) ⟨by linarith [pi3], by linarith [pi3]⟩ ⟨by linarith [pi3], by linarith [pi3]⟩
  ⟨by linarith [pi3], by linarith [pi3]⟩
example := C16_R2zyx_zyx2R 3 (-1) (-2) ⟨by linarith [pi3], by linarith [pi3]⟩ ⟨by linarith [pi3], by linarith [pi3]⟩
  ⟨by linarith [pi3], by linarith [pi3]⟩
example := C17_xyz2R_R2xyz_partial Rg rg ⟨by norm_num, by norm_num⟩
example := C17_zyx2R_R2zyx_partial Rg rg ⟨by norm_num, by norm_num⟩
example := C17_middle_angle Rg rg
example := C12_R_EN_rotation nD neD Rg rg
theorem offpole : cross (northPole Rg) nD ≠ 0 := fun h => by
  have := congrArg V3.x h; norm_num [northPole, cross, app, transp, dot, col0, col1, col2] at this
example := C12_R_EN_north_east nD Rg rg offpole
example := C12_R_EN_pole (northPole Rg) (northPole_unit rg).ne Rg rg (cross_self _)
example := C13_R_EL_rotation nD neD 1 Rg rg
example := C13_R_EL_eq_R_EN_turned nD 1 Rg rg offpole
example := C13_R_EL_zero nD Rg rg offpole
example := C14_R_EN2n_E nD neD Rg rg
example := C14_R_EL2n_E nD neD 1 Rg rg
example := C58_mdot_rotation Rg Re rg re

end Nv.Cases
