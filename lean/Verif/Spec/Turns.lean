import Mathlib.Analysis.SpecialFunctions.Trigonometric.Basic

/-!
# Angles modulo full turns

Which pairs of a latitude and a longitude name the same place on the globe, when latitudes beyond the poles are allowed.
-/

namespace Nv.Spec
open Real

/-- the two angles differ by a whole number of turns -/
def SameAngle (x y : ℝ) : Prop := ∃ k : ℤ, y = x + k * (2 * π)

/-- The same place named by two pairs of latitude and longitude: the angles agree up to full turns, or the second pair counts over the
pole (latitude `180° - lat` on the opposite meridian), or both are the same pole. -/
def SameSpot (lat lon lat' lon' : ℝ) : Prop :=
  (SameAngle lat lat' ∧ SameAngle lon lon') ∨ (SameAngle (π - lat) lat' ∧ SameAngle (lon + π) lon') ∨
    (SameAngle lat lat' ∧ (SameAngle (π / 2) lat ∨ SameAngle (-(π / 2)) lat))

/-- Two triples of angles describe the same sequence of turns about the three axes: they agree up to full turns, or the middle angle
went over 90 degrees, or the middle angle is 90 (-90) degrees and only the sum (difference) of the outer angles counts (gimbal lock). -/
def SameTurns (x y z x' y' z' : ℝ) : Prop :=
  (SameAngle x x' ∧ SameAngle y y' ∧ SameAngle z z') ∨
  (SameAngle (x + π) x' ∧ SameAngle (π - y) y' ∧ SameAngle (z + π) z') ∨
  (SameAngle y y' ∧ SameAngle (π / 2) y ∧ SameAngle (x + z) (x' + z')) ∨
  (SameAngle y y' ∧ SameAngle (-(π / 2)) y ∧ SameAngle (x - z) (x' - z'))

end Nv.Spec
