import Verif.Props.BaseAngle
import Verif.Cases.Objects

/-! Instances of the theorems of Props/BaseAngle.lean: the results exist and are numbers -/

namespace Nv.Cases
open Spec Real
open XR (fin)

example : ∃ azB : ℝ, -π ≤ azB ∧ azB < π := by
  obtain ⟨n, p, h, h1, h2⟩ := C51_case 1 le_rfl
  obtain ⟨q, azB, nB, hd, -⟩ := C51_displace_partial plate 1 2 (-30) wa wf wf1 _ "greatcircle" (by decide) n p h h1 1 2 zero_le_one h2
  rcases C44_displace plate _ q _ _ _ false false "greatcircle" (by decide) hd with h | ⟨y, h, h1, h2⟩
  · cases h
  · exact ⟨y, h1, h2⟩
example : ∃ azB : ℝ, -π ≤ azB ∧ azB < π := by
  obtain ⟨d, azA, azB, hd, -⟩ := C51_sphere_roundtrip plate 6371000 30 (by norm_num) (.int 18) 1 2 (-1) (-2) (by linarith [pi3])
    (by linarith [pi3]) (by linarith [pi3]) (by linarith [pi3]) (by linarith [pi3]) (by linarith [pi3]) (by norm_num) "greatcircle" 'g' _
    rfl (by decide)
  rcases C44_distance_and_azimuth plate _ _ _ _ _ false false "greatcircle" (by decide) hd with h | ⟨y, h, h1, h2⟩
  · cases h
  · exact ⟨y, h1, h2⟩

end Nv.Cases
