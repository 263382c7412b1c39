import Verif.Cases.Objects
import Verif.Props.Bearings

/-!
# Concrete cases: cross bearings (C160)

Two stations on the equator and a target off it.
-/

namespace Nv.Cases
open Spec Real
open XR (fin)

noncomputable def st1 : V3 ℝ := ⟨1, 0, 0⟩
noncomputable def st2 : V3 ℝ := ⟨3 / 5, 4 / 5, 0⟩
theorem st1_unit : UnitVec st1 := by norm_num [st1, UnitVec]
theorem st2_unit : UnitVec st2 := by norm_num [st2, UnitVec]
theorem pole_eq : northPole Re = ⟨0, 0, 1⟩ := by unfold northPole Re app transp col0 col1 col2 dot; ext <;> simp
theorem st1_pole : cross (northPole Re) st1 ≠ 0 := fun h => by
  rw [pole_eq] at h
  have := congrArg V3.y h
  norm_num [cross, st1] at this
theorem st2_pole : cross (northPole Re) st2 ≠ 0 := fun h => by
  rw [pole_eq] at h
  have := congrArg V3.y h
  norm_num [cross, st2] at this
theorem st_target : ¬ OneCircle st1 st2 nA := by norm_num [OneCircle, dot, cross, st1, st2]
theorem sin_one_ne : sin (π / 6) ≠ 0 := by rw [Real.sin_pi_div_six]; norm_num
theorem st1_near : angle st1 nA * 1 < π / 2 * 1 := by
  have h : 0 < cos (angle st1 nA) := by rw [cos_angle_unit st1_unit uA]; norm_num [dot, st1]
  by_contra hn
  have := Real.cos_nonpos_of_pi_div_two_le_of_le (by linarith : π / 2 ≤ angle st1 nA) (by linarith [angle_le_pi st1 nA, Real.pi_pos])
  linarith

/-- both bearings exist, and lead to the target -/
example : ∃ α β : ℝ, Bearing 6371000 Re st1 nA α ∧ Bearing 6371000 Re st2 nA β ∧
    intersect (st1.fin, layOff Re st1 (π / 6) α) (st2.fin, layOff Re st2 (π / 6) β) = nA.fin := by
  obtain ⟨α, e1, -⟩ := azimuth_reach re (show (0 : ℝ) < 6371000 by norm_num) st1_unit uA st1_pole
  obtain ⟨β, e2, -⟩ := azimuth_reach re (show (0 : ℝ) < 6371000 by norm_num) st2_unit uA st2_pole
  exact ⟨α, β, e1, e2, (C160_fix re (show (0 : ℝ) < 6371000 by norm_num) st1_unit st2_unit uA st1_pole st2_pole st_target e1 e2
    sin_one_ne sin_one_ne one_pos (C18_eq_angle st1 nA st1_unit.ne uA.ne 1)).1 st1_near⟩

example {C' : V3 ℝ} (hC' : UnitVec C') (hABC' : ¬ OneCircle st1 st2 C') {α β : ℝ} (h1 : Bearing 6371000 Re st1 nA α)
    (h2 : Bearing 6371000 Re st2 nA β) (h1' : Bearing 6371000 Re st1 C' α) (h2' : Bearing 6371000 Re st2 C' β)
    (h : angle st1 C' * 1 < π / 2 * 1) : nA = C' :=
  C160_unique re (show (0 : ℝ) < 6371000 by norm_num) st1_unit st2_unit uA hC' st1_pole st2_pole st_target hABC' h1 h2 h1' h2' one_pos
    (C18_eq_angle st1 nA st1_unit.ne uA.ne 1) (C18_eq_angle st1 C' st1_unit.ne hC'.ne 1) st1_near h

/-- laying off the bearings of the target, the intersection is seen in the direction of the bearings -/
example : ∃ α α' : ℝ, Bearing 6371000 Re st1 nA α' ∧ (SameAngle α α' ∨ SameAngle (α + π) α') := by
  have ha : (0 : ℝ) < 6371000 := by norm_num
  obtain ⟨α, e1, -⟩ := azimuth_reach re ha st1_unit uA st1_pole
  obtain ⟨β, e2, -⟩ := azimuth_reach re ha st2_unit uA st2_pole
  obtain ⟨A', B', l1, l2, p1, p2, hw, -⟩ := bearing_lines re ha st1_unit st2_unit uA st1_pole st2_pole st_target e1 e2 sin_one_ne sin_one_ne
  have hX := (C160_fix re ha st1_unit st2_unit uA st1_pole st2_pole st_target e1 e2
    sin_one_ne sin_one_ne one_pos (C18_eq_angle st1 nA st1_unit.ne uA.ne 1)).1 st1_near
  obtain ⟨⟨α', h, h'⟩, -⟩ := C160_direction re ha st1_unit st2_unit st1_pole st2_pole sin_one_ne sin_one_ne l1 l2
    (fun h => hw ((normals_parallel_iff p1 p2).mpr h)) hX uA.ne
    (fun h => by have := congrArg V3.y h; norm_num [cross, st1] at this)
    (fun h => by have := congrArg V3.x h; norm_num [cross, st2] at this)
  exact ⟨α, α', h, h'⟩

theorem geo_target : ¬ OneCircle (geoNormal 0 0) (geoNormal 0 (π / 3)) (geoNormal (π / 4) 0) := by
  unfold OneCircle dot cross geoNormal
  simp only [Real.sin_zero, Real.cos_zero, Real.cos_pi_div_three, Real.sin_pi_div_three, Real.cos_pi_div_four, Real.sin_pi_div_four]
  have h2 : √(2 : ℝ) ≠ 0 := by positivity
  have h3 : √(3 : ℝ) ≠ 0 := by positivity
  intro h
  have : √(3 : ℝ) * √2 = 0 := by linarith
  exact (mul_ne_zero h3 h2) this

theorem geo_near : angle (geoNormal 0 0) (geoNormal (π / 4) 0) < π / 2 := by
  have h : 0 < cos (angle (geoNormal 0 0) (geoNormal (π / 4) 0)) := by
    rw [cos_angle_unit (geoNormal_isUnit _ _) (geoNormal_isUnit _ _)]
    simp [dot, geoNormal]
  by_contra hn
  have := Real.cos_nonpos_of_pi_div_two_le_of_le (not_lt.mp hn) (by linarith [angle_le_pi (geoNormal 0 0) (geoNormal (π / 4) 0), Real.pi_pos])
  linarith

example (G : Geodesic XR) := C160_objects G 6371000 0 (by norm_num) (by norm_num) (.str "Sphere") 0 0 0 (π / 3) (π / 4) 0
  (by rw [abs_zero]; positivity) (by rw [abs_zero]; positivity) (by rw [abs_of_pos (by positivity)]; linarith [Real.pi_pos])
  geo_target geo_near (6371000 * (π / 6)) (6371000 * (π / 6))
  (by rw [show 6371000 * (π / 6) / (6371000 - 0) = π / 6 by field_simp; ring]; exact sin_one_ne)
  (by rw [show 6371000 * (π / 6) / (6371000 - 0) = π / 6 by field_simp; ring]; exact sin_one_ne)
  "greatcircle" 'g' "reatcircle".toList (by decide) (by decide)

end Nv.Cases
