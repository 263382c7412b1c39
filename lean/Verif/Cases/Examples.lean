import Verif.Cases.SphereMethods
import Verif.Props.ExamplesExact
import Verif.Cases.Float

/-!
# Concrete cases: the documented examples (C154, C155)
-/

namespace Nv.Cases
open Spec Real Examples
open XR (fin)

theorem deg0 : (0 : ℝ) * (π / 180) = 0 := by ring
theorem deg90 : (90 : ℝ) * (π / 180) = π / 2 := by ring
theorem deg30 : (30 : ℝ) * (π / 180) = π / 6 := by ring
theorem degm30 : (-30 : ℝ) * (π / 180) = -(π / 6) := by ring

theorem on_equator_0 : atDeg 0 0 = ⟨1, 0, 0⟩ := by
  unfold atDeg; rw [deg0]
  ext <;> norm_num [app, transp, col0, col1, col2, dot, geoNormal, Re]
theorem on_equator_90 : atDeg 0 90 = ⟨0, 1, 0⟩ := by
  unfold atDeg; rw [deg0, deg90]
  ext <;> norm_num [app, transp, col0, col1, col2, dot, geoNormal, Re]
theorem north_30 : atDeg 30 0 = ⟨√3 / 2, 0, 1 / 2⟩ := by
  unfold atDeg; rw [deg0, deg30]
  ext <;> norm_num [app, transp, col0, col1, col2, dot, geoNormal, Re, Real.sin_pi_div_six, Real.cos_pi_div_six]
theorem south_30 : atDeg (-30) 0 = ⟨√3 / 2, 0, -1 / 2⟩ := by
  unfold atDeg; rw [deg0, degm30]
  ext <;> norm_num [app, transp, col0, col1, col2, dot, geoNormal, Re, Real.sin_pi_div_six, Real.cos_pi_div_six]

theorem equator_proper : ProperPath (atDeg 0 0) (atDeg 0 90) := by
  rw [on_equator_0, on_equator_90]
  intro h
  have := congrArg V3.z h
  norm_num [cross] at this

theorem not_pole_north : cross (atDeg 30 0) (cross (atDeg 0 0) (atDeg 0 90)) ≠ 0 := by
  rw [on_equator_0, on_equator_90, north_30]
  intro h
  have := congrArg V3.y h
  norm_num [cross] at this
theorem not_pole_south : cross (atDeg (-30) 0) (cross (atDeg 0 0) (atDeg 0 90)) ≠ 0 := by
  rw [on_equator_0, on_equator_90, south_30]
  intro h
  have := congrArg V3.y h
  norm_num [cross] at this

/-- C155: a position 30° south of the path along the equator (to the right) -/
example := C155_right_partial (r := 6371000) (by norm_num) 0 0 0 90 (-30) 0 equator_proper not_pole_south
  (by rw [on_equator_0, on_equator_90, south_30]; norm_num [cross, dot])
/-- C155: a position 30° north of it (to the left) -/
example := C155_left_counterexample (r := 6371000) (by norm_num) 0 0 0 90 30 0 equator_proper not_pole_north
  (by rw [on_equator_0, on_equator_90, north_30]; norm_num [cross, dot])
/-- C155: and off the great circle -/
example := C155_euclidean_counterexample (r := 6371000) (by norm_num) 0 0 0 90 30 0 equator_proper not_pole_north
  (by rw [onCircle_iff equator_proper, on_equator_0, on_equator_90, north_30]; norm_num [cross, dot])
example := C155_values (r := 6371000) (by norm_num) 0 0 0 90 30 0 equator_proper not_pole_north

/-- C154: examples 5 and 8 with a geodesic library which solves the sphere -/
example := C154_surface_distance spheres (r := 6371000) (by norm_num) (spheres_solve (by norm_num) false) (latA := 88) (latB := 89) (by norm_num [abs_of_pos])
  (by norm_num [abs_of_pos]) 0 (-170)
example := C154_direct spheres (r := 6371000) (by norm_num) 80 (-90) 1000 200
example := C154_direct_ellipsoid spheres (spheres_solve (r := 6371000) (by norm_num) false) (by norm_num) (lat := 80) (by norm_num [abs_of_pos]) (-90) 1000 200
example := C154_cross_track (r := 6371000) (by norm_num) 0 0 10 0 1 0.1
example := C154_interpolated_identical 89.9 (-150) 89.9 150 10 20 16 (by norm_num) (by rintro ⟨-, h⟩; norm_num at h)

/-- C154: example 9 with the equator and the meridian through 30° north and 30° south -/
example : ex9_obj_check (fin 0) (fin 0) (fin 0) (fin 90) (fin 30) (fin 0) (fin (-30)) (fin 0) = .ok (true, true) := by
  have h3 : 0 < √3 := by positivity
  have hB : ProperPath (atDeg 30 0) (atDeg (-30) 0) := by
    rw [north_30, south_30]
    intro h
    have := congrArg V3.y h
    norm_num [cross] at this
    linarith
  have key : ∀ Q : V3 ℝ, OnCircle (atDeg 0 0) (atDeg 0 90) Q → OnCircle (atDeg 30 0) (atDeg (-30) 0) Q → Q.y = 0 ∧ Q.z = 0 := by
    intro Q h1 h2
    have e1 := ((onCircle_iff equator_proper).1 h1).2
    have e2 := ((onCircle_iff hB).1 h2).2
    rw [on_equator_0, on_equator_90] at e1
    rw [north_30, south_30] at e2
    norm_num [cross, dot] at e1 e2
    refine ⟨?_, e1⟩
    rcases e2 with e | e
    · linarith
    · exact e
  refine C154_intersection_check 0 0 0 90 30 0 (-30) 0 equator_proper hB ?_ ?_
  · intro h
    have hu : OnCircle (atDeg 0 0) (atDeg 0 90) (atDeg 0 90) := (onCircle_iff equator_proper).2
      ⟨atDeg_unit _ _, by rw [on_equator_0, on_equator_90]; norm_num [cross, dot]⟩
    have := (key _ hu ((h _).1 hu)).1
    rw [on_equator_90] at this
    norm_num at this
  · intro Q h1 h2 h0
    obtain ⟨hy, hz⟩ := key Q h1 h2
    rw [on_equator_0] at h0
    have hu : UnitVec Q := h1.1
    unfold UnitVec at hu
    simp [dot] at h0
    rw [hy, hz, h0] at hu
    norm_num at hu

/-- C154: example 7 with two positions -/
example := C154_mean (α := XR) (n := 2) (by norm_num) (lat := ⟨[2], fun _ => fin 90⟩) (lon := ⟨[2], fun _ => fin 0⟩) (p := fun _ => fin 90) (q := fun _ => fin 0)
  ⟨rfl, fun _ _ => rfl⟩ ⟨rfl, fun _ _ => rfl⟩

/-- C154: example 2 with the numbers of the documentation (WGS72), binary64 -/
example (B : Binary64) := C154_body_float (B := B) (a := 6378135) (f := 0) (by simpa using isF64_int (n := 6378135) (by norm_num)) (by norm_num) isF64_zero
  (by norm_num)

end Nv.Cases
