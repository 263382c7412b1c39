import Verif.Model.Util

/-!
# Model of `/repo/src/nvector/rotation.py` (one column / one page at a time)
-/

namespace Nv

section
variable {α : Type} [PyFloat α]
open PyFloat

/-- rotation.py:23-25 `E_ROTATION_MATRIX['e']` -/
def R_e : M3 α := ⟨⟨lit 0, lit 0, lit 1⟩, ⟨lit 0, lit 1, lit 0⟩, ⟨lit (-1), lit 0, lit 0⟩⟩
/-- rotation.py:26 `E_ROTATION_MATRIX['E']` = `np.eye(3)` -/
def R_E : M3 α := ⟨⟨lit 1, lit 0, lit 0⟩, ⟨lit 0, lit 1, lit 0⟩, ⟨lit 0, lit 0, lit 1⟩⟩

/-- rotation.py:31-83 `E_rotation(axes='e')`; any other string raises `KeyError` -/
def E_rotation (axes : String := "e") : Except PyErr (M3 α) :=
  if axes = "e" then .ok R_e else if axes = "E" then .ok R_E else .error .KeyError

/-- rotation.py:86-137 `R2xyz(R_AB)` -/
def R2xyz (R_AB : M3 α) : α × α × α :=
  let z := arctan2 (-R_AB.r0.y) R_AB.r0.x
  let x := arctan2 (-R_AB.r1.z) R_AB.r2.z
  let sin_y := R_AB.r0.z
  let cos_y := sqrt ((powNat R_AB.r0.x 2 + powNat R_AB.r0.y 2 + powNat R_AB.r1.z 2 + powNat R_AB.r2.z 2) / lit 2)
  let y := arctan2 sin_y cos_y
  (x, y, z)

/-- rotation.py:140-183 `R2zyx(R_AB)`, returns `(z, y, x)` -/
def R2zyx (R_AB : M3 α) : α × α × α :=
  let (x, y, z) := R2xyz (tr R_AB)
  (-z, -y, -x)

/-- rotation.py:186-207 `R_EL2n_E(R_EL)` = `mdot(R_EL, [0, 0, -1])` -/
def R_EL2n_E (R_EL : M3 α) : V3 α := mulVec R_EL ⟨lit 0, lit 0, lit (-1)⟩

/-- rotation.py:210-230 `R_EN2n_E(R_EN)` -/
def R_EN2n_E (R_EN : M3 α) : V3 α := R_EL2n_E R_EN

/-- rotation.py:257-306 `xyz2R(x, y, z)` -/
def xyz2R (x y z : α) : M3 α :=
  let sx := sin x; let sy := sin y; let sz := sin z
  let cx := cos x; let cy := cos y; let cz := cos z
  ⟨⟨cy * cz, -cy * sz, sy⟩,
   ⟨sy * sx * cz + cx * sz, -sy * sx * sz + cx * cz, -cy * sx⟩,
   ⟨-sy * cx * cz + sx * sz, sy * cx * sz + sx * cz, cy * cx⟩⟩

/-- rotation.py:309-383 `zyx2R(z, y, x)` -/
def zyx2R (z y x : α) : M3 α :=
  let sx := sin x; let sy := sin y; let sz := sin z
  let cx := cos x; let cy := cos y; let cz := cos z
  ⟨⟨cz * cy, -sz * cx + cz * sy * sx, sz * sx + cz * sy * cx⟩,
   ⟨sz * cy, cz * cx + sz * sy * sx, -cz * sx + sz * sy * cx⟩,
   ⟨-sy, cy * sx, cy * cx⟩⟩

/-- rotation.py:386-423 `n_E2lat_lon(n_E, R_Ee=None)` on one column, returns `(latitude, longitude)`.
The length warning (line 408) is modelled by `check_length_deviation` and does not affect the result. -/
def n_E2lat_lon (n_E : V3 α) (R_Ee : M3 α := R_e) : α × α :=
  let n_E0 := mulVec R_Ee n_E
  let longitude := arctan2 n_E0.y (-n_E0.z)
  let equatorial_component := sqrt (powNat n_E0.y 2 + powNat n_E0.z 2)
  let latitude := arctan2 n_E0.x equatorial_component
  (latitude, longitude)

/-- rotation.py:426-474 `n_E2R_EN(n_E, R_Ee=None)` on one column -/
def n_E2R_EN (n_E : V3 α) (R_Ee : M3 α := R_e) : M3 α :=
  let n_E := unit (mulVec R_Ee n_E)
  let Nz_E := neg3 n_E
  let Ny_E_direction := cross3 ⟨lit 1, lit 0, lit 0⟩ n_E
  let Ny_E := if eq (norm3 Ny_E_direction) (lit 0) then ⟨lit 0, lit 1, lit 0⟩ else unit Ny_E_direction
  let Nx_E := cross3 Ny_E Nz_E
  mdot (tr R_Ee) (ofCols Nx_E Ny_E Nz_E)

/-- rotation.py:477-510 `n_E_and_wa2R_EL(n_E, wander_azimuth, R_Ee=None)` on one column -/
def n_E_and_wa2R_EL (n_E : V3 α) (wander_azimuth : α) (R_Ee : M3 α := R_e) : M3 α :=
  let ll := n_E2lat_lon n_E R_Ee
  let latitude := ll.1
  let longitude := ll.2
  mdot (tr R_Ee) (xyz2R longitude (-latitude) wander_azimuth)

end

end Nv
