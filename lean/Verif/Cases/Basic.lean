import Verif.Props.EarthCore
import Verif.Props.Rotations
import Mathlib.Analysis.Real.Pi.Bounds

/-!
# Concrete cases

The files in this directory apply every theorem of `Verif/Props` with hypotheses to concrete values: `example := C04_on_surface …`
is accepted only if the hypotheses of `C04_on_surface` hold there.  This file has the values used most: three n-vectors
at different latitudes and longitudes in general position, WGS84 and the axes of the library.
-/

namespace Nv.Cases
open Spec Real

/-- n-vectors in general position -/
noncomputable abbrev nA : V3 ℝ := ⟨2 / 3, 1 / 3, 2 / 3⟩
noncomputable abbrev nB : V3 ℝ := ⟨3 / 7, 6 / 7, 2 / 7⟩
noncomputable abbrev nC : V3 ℝ := ⟨-1 / 9, 4 / 9, 8 / 9⟩
/-- an n-vector that is not of unit length -/
noncomputable abbrev nD : V3 ℝ := ⟨1, 2, -3⟩
/-- WGS84 -/
abbrev wa : ℝ := 6378137
noncomputable abbrev wf : ℝ := 1 / 298.257223563

theorem uA : UnitVec nA := by norm_num [UnitVec]
theorem uB : UnitVec nB := by norm_num [UnitVec]
theorem uC : UnitVec nC := by norm_num [UnitVec]
theorem neA : nA ≠ 0 := uA.ne
theorem neB : nB ≠ 0 := uB.ne
theorem neC : nC ≠ 0 := uC.ne
theorem neD : nD ≠ 0 := fun h => by have := congrArg V3.x h; norm_num at this
theorem wa0 : 0 < wa := by norm_num
theorem wf0 : 0 ≤ wf := by norm_num
theorem wf0' : 0 < wf := by norm_num
theorem wf1 : wf < 1 := by norm_num
theorem we : (2 - wf) * wf < 1 / 2 := by norm_num
theorem re : IsRotation Re := isRotation_Re
/-- another choice of axes, with no zero entry -/
noncomputable abbrev Rg : M3 ℝ := ⟨⟨2 / 3, -1 / 3, 2 / 3⟩, ⟨2 / 3, 2 / 3, -1 / 3⟩, ⟨-1 / 3, 2 / 3, 2 / 3⟩⟩
theorem rg : IsRotation Rg := by constructor <;> norm_num [dot, col0, col1, col2, det, cross]

/-- a position 1000 km above the equatorial radius, and one at the bottom of the sea -/
abbrev pA : V3 ℝ := ⟨7000000, 1000000, 2000000⟩
abbrev pB : V3 ℝ := ⟨-2000000, 5000000, 3000000⟩

theorem core {p : V3 ℝ} (R : M3 ℝ) (hR : IsRotation R) (h : (100000 : ℝ) ^ 2 < dot p p) : OutsideCore wa wf (app R p) := by
  have h1 : dot (app R p) (app R p) = dot p p := dot_app hR p p
  unfold OutsideCore
  rw [← h1] at h
  unfold dot at h
  have h2 : (0.99 : ℝ) * (app R p).x ^ 2 ≤ (1 - wf) ^ 2 * (app R p).x ^ 2 :=
    mul_le_mul_of_nonneg_right (by norm_num) (sq_nonneg _)
  have h3 : ((2 - wf) * wf) ^ 2 < 0.99 * 100000 ^ 2 / wa ^ 2 := by norm_num
  refine h3.trans_le ?_
  rw [← add_div]
  apply div_le_div_of_nonneg_right _ (by norm_num)
  nlinarith [sq_nonneg (app R p).y, sq_nonneg (app R p).z]

theorem coreA (R : M3 ℝ) (hR : IsRotation R) : OutsideCore wa wf (app R pA) := core R hR (by norm_num [dot])

theorem pi3 : (3 : ℝ) < π := Real.pi_gt_three

end Nv.Cases
