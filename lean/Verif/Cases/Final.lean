import Verif.Cases.Objects
import Verif.Props.Gimbal
import Verif.Props.AtPole
import Verif.Props.LongPath
import Verif.Props.Frames

/-! # Concrete cases: C141, C142 and C143 -/

namespace Nv.Cases
open Spec Real
open XR (fin)

/-- the rotation that permutes the axes, with minus zeros -/
noncomputable abbrev permSgn : M3 (Sgn XR) :=
  ⟨⟨⟨fin 0, true⟩, ⟨fin 0, true⟩, ⟨fin 1, false⟩⟩, ⟨⟨fin 1, false⟩, ⟨fin 0, true⟩, ⟨fin 0, true⟩⟩, ⟨⟨fin 0, true⟩, ⟨fin 1, false⟩, ⟨fin 0, true⟩⟩⟩

example := C142_xyz permSgn gimbal rfl isRotation_gimbal (.inl rfl)
example := C142_not_recovered permSgn gimbal rfl isRotation_gimbal (.inl rfl) (by norm_num [gimbal]) (by norm_num [gimbal])
example := C142_xyz_iff Rg rg
/-- a rotation without gimbal lock is recovered -/
example : xyz2R (R2xyz Rg.fin).1 (R2xyz Rg.fin).2.1 (R2xyz Rg.fin).2.2 = Rg.fin := (C142_xyz_iff Rg rg).2 (.inl (by norm_num))

example := C143_azimuth (s := -1) (.inr rfl) 1 one_pos (by linarith [pi3]) (-2) wa wa0
example := C143_inverse_direct (s := 1) (.inl rfl) nB uB wa wa0

/-- a path of 143 degrees -/
example := C141_on_path ⟨1, 0, 0⟩ ⟨-4 / 5, 3 / 5, 0⟩ ⟨0, 1, 0⟩ (by norm_num [UnitVec]) (by norm_num [UnitVec])
  (fun h => by have := congrArg V3.z h; norm_num [cross] at this) (by norm_num [UnitVec]) 6371009 (by norm_num)

end Nv.Cases
