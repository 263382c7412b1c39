import Verif.Cases.Examples
import Verif.Props.LeaveObjects

/-!
# Concrete cases: leaving a path (C156)
-/

namespace Nv.Cases
open Spec Real
open XR (fin)

/-- a path along the equator with the middle `(1, 0, 0)` -/
noncomputable def west : V3 ℝ := ⟨3 / 5, -(4 / 5), 0⟩
noncomputable def east : V3 ℝ := ⟨3 / 5, 4 / 5, 0⟩
noncomputable def middle : V3 ℝ := ⟨1, 0, 0⟩

theorem west_unit : UnitVec west := by norm_num [west, UnitVec]
theorem east_unit : UnitVec east := by norm_num [east, UnitVec]
theorem middle_unit : UnitVec middle := by norm_num [middle, UnitVec]
theorem west_east : ProperPath west east := by
  intro h
  have := congrArg V3.z h
  norm_num [cross, west, east] at this
theorem half_way : interpolate (west.fin, east.fin) (fin (1 / 2)) = middle.fin := by
  have e : mix west east (1 / 2) = (3 / 5 : ℝ) • middle := by
    rw [mix_eq]; ext <;> norm_num [west, east, middle]
  rw [interpolate_fin (by rw [e]; exact smul_ne_zero (by norm_num) middle_unit.ne), e, dirOf_smul (by norm_num), dirOf_of_unit middle_unit]
theorem middle_no_pole : cross (northPole Re) middle ≠ 0 := by
  intro h
  have := congrArg V3.y h
  norm_num [cross, northPole, Re, app, transp, col0, col1, col2, dot, middle] at this
/-- a course `h` as in the examples below exists -/
theorem middle_course : ∃ h, n_EA_E_and_n_EB_E2azimuth middle.fin east.fin (fin 1) (fin 0) Re.fin = fin h :=
  ⟨_, azimuth_offpole middle_unit east_unit isRotation_Re middle_no_pole one_pos⟩

/-- C156: half way along the equator, 0.1 rad off on a course 30° to the right of the path -/
example := fun (h : ℝ) (hh : n_EA_E_and_n_EB_E2azimuth middle.fin east.fin (fin 1) (fin 0) Re.fin = fin h) => And.intro
  (C156_cross_track west_unit east_unit west_east (by norm_num) (by norm_num) half_way isRotation_Re middle_no_pole one_pos hh 0.1 (π / 6) 6371000)
  (C156_closest west_unit east_unit west_east (by norm_num) (by norm_num) half_way isRotation_Re middle_no_pole one_pos hh 0.1 (π / 6)
    (by rw [abs_of_pos (by norm_num)]; linarith [Real.pi_gt_three]))
/-- C156: at right angles -/
example := fun (h : ℝ) (hh : n_EA_E_and_n_EB_E2azimuth middle.fin east.fin (fin 1) (fin 0) Re.fin = fin h) => And.intro
  (C156_right_angle west_unit east_unit west_east (by norm_num) (by norm_num) half_way isRotation_Re middle_no_pole one_pos hh 0.1 (by norm_num)
    (by linarith [Real.pi_gt_three]) 6371000)
  (C156_closest_right_angle west_unit east_unit west_east (by norm_num) (by norm_num) half_way isRotation_Re middle_no_pole one_pos hh 0.1
    (by rw [abs_of_pos (by norm_num)]; linarith [Real.pi_gt_three]))
/-- C156: straight on -/
example := fun (h : ℝ) (hh : n_EA_E_and_n_EB_E2azimuth middle.fin east.fin (fin 1) (fin 0) Re.fin = fin h) =>
  C156_straight_on west_unit east_unit west_east (by norm_num) (by norm_num) half_way isRotation_Re middle_no_pole one_pos hh 0.1 6371000 1e-8 (by norm_num)

theorem meridian_proper : ProperPath (geoNormal 0 0) (geoNormal 1 1) := by
  intro h
  have := congrArg V3.y h
  have hs : 0 < sin (1:ℝ) := Real.sin_pos_of_pos_of_lt_pi one_pos (by linarith [Real.pi_gt_three])
  have hc : 0 < cos (1:ℝ) := Real.cos_one_pos
  simp [cross, geoNormal] at this
  linarith

/-- C156 for the classes: a path from 0°N 0°E (radians in the model) to the position `(1, 1)`, left at its start, which is no pole -/
example : ∃ N : Nvector XR, (GeoPath.mk (.geo (.real 0 0 0 (.real 6371000 0 (.str "") Re))) (.geo (.real 1 1 0 (.real 6371000 0 (.str "") Re)))).interpolate
      (fin 0) = .ok N ∧ N.to_geo_point = .real 0 0 0 (.real 6371000 0 (.str "") Re) := by
  obtain ⟨N, latC, lonC, h1, h2, -⟩ := C156_objects spheres 6371000 0 (by norm_num) (by norm_num) (.str "") 0 0 1 1
    (by rw [abs_of_pos one_pos]; linarith [Real.pi_gt_three]) meridian_proper 0 le_rfl one_pos "greatcircle" 'g' _ rfl (by decide)
  refine ⟨N, h1, ?_⟩
  have hA := sphere_atR isRotation_Re (.str "") 6371000 0 0 0
  have hB := sphere_atR isRotation_Re (.str "") 6371000 1 1 0
  have hm : mix (app (transp Re) (geoNormal 0 0)) (app (transp Re) (geoNormal 1 1)) 0 = app (transp Re) (geoNormal 0 0) := by
    rw [mix_eq]; ext <;> simp
  have e := geoPath_interpolate_fin (P := GeoPath.mk (.geo (.real 0 0 0 (.real 6371000 0 (.str "") Re))) (.geo (.real 1 1 0 (.real 6371000 0 (.str "") Re))))
    hA hB 0 (by rw [hm]; exact hA.unit.ne)
  rw [hm, dirOf_of_unit hA.unit] at e
  rw [e] at h1
  injection h1 with h1
  rw [← h1, show (0:ℝ) + 0 * (0 - 0) = 0 by norm_num, ← sphere_nv isRotation_Re (.str "") 6371000 0 0 0,
    C45_geo_nvector_geo 0 0 0 6371000 0 _ Re isRotation_Re (by linarith [Real.pi_pos]) (by linarith [Real.pi_pos]) (by linarith [Real.pi_pos]) Real.pi_pos.le]

end Nv.Cases
