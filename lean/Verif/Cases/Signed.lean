import Verif.Cases.Objects
import Verif.Props.SignedObjects

/-!
# Concrete cases: signed zeros (C116)

All zeros are minus zeros: the position `(-1, -0, -0)` (`westward true`) on WGS84, and `(2/3, 1/3, -0)`.
-/

namespace Nv.Cases.Sgn
open Spec Nv.Cases PyFloat
open XR (fin)

/-- the number with its own sign -/
noncomputable abbrev s (x : ℝ) (minus : Bool) : Sgn XR := ⟨.fin x, minus⟩
noncomputable abbrev F : FrameE (Sgn XR) := ⟨s 6378137 false, s (1 / 298.257223563) false, .str "WGS84", R_e⟩
noncomputable abbrev nw : Nvector (Sgn XR) := ⟨westward true, s 0 true, F⟩
noncomputable abbrev m : V3 (Sgn XR) := ⟨s (2 / 3) false, s (1 / 3) false, s 0 true⟩
noncomputable abbrev nm : Nvector (Sgn XR) := ⟨m, s 0 true, F⟩
noncomputable abbrev p7 : V3 (Sgn XR) := ⟨s 7000000 false, s 0 true, s 0 true⟩
noncomputable abbrev mr : V3 ℝ := ⟨2 / 3, 1 / 3, 0⟩

theorem val_w : (westward true).val = (⟨-1, 0, 0⟩ : V3 ℝ).fin := rfl
theorem val_m : m.val = mr.fin := rfl
theorem rR : (R_e : M3 (Sgn XR)).val = Re.fin := by rw [R_e_val, R_e_fin]
theorem mne : mr ≠ 0 := fun h => by have := congrArg V3.x h; norm_num at this

example := C116_position p7 (s 6378137 false) (s (1 / 298) false) R_e (q := ⟨7000000, 0, 0⟩) rfl rfl (by norm_num) rfl rR
example := C116_lat_lon m R_e val_m mne rR isRotation_Re
example := C116_wander m (s 0 true) R_e val_m mne rfl rR isRotation_Re
example := C116_great_circle_distance (westward true) m (s 6371000 false) (by
  have e : dot3 (westward true).val m.val = fin (-(2 / 3)) := by rw [val_w, val_m]; norm_num [dot3, V3.fin, xr]
  rw [e, XR.eq_zero_fin rfl, Bool.and_eq_false_iff]
  right; norm_num)
/-- a displacement to the south-west: the azimuth does not depend on the sign of zeros -/
example := C116_azimuth (⟨s (-3) true, s (-4) true, s 0 true⟩ : V3 (Sgn XR)) (by
  change (eq (fin (-4)) (lit 0) && _) = false
  rw [XR.eq_zero_fin rfl]; norm_num)

example := C116_equality false (.nvec nw) (.nvec nm) trivial trivial
example := C116_equality false (.frame (.N nw)) (.frame (.B nm (s 0 true) (s 1 false) (s 0 true))) (fun _ _ h => by cases h) (fun _ _ h => by cases h)
example : ((nw.div (.num (s 2 false))).map Nvector.val = nw.val.div (.num (s 2 false).val)) :=
  (C116_arithmetic ⟨p7, F⟩ ⟨p7, F⟩ nw nm (s 2 false)).2.2.2.2.2.2.2.1 (by
    simp [Sgn.minusZero])
example := (C116_delta_objects (.nvec nm) (.nvec nw) trivial trivial).2 (plain_nvec _)
example := C116_change_frame ⟨p7, F⟩ ⟨p7, .N nm⟩ (.B nm (s 0 true) (s 1 false) (s 0 true)) (fun _ _ h => by cases h) (fun _ _ h => by cases h)
example := C116_paths (P := ⟨.nvec nm, .nvec nw⟩) (P' := ⟨.nvec nw, .nvec nm⟩) (plain_nvec _) (plain_nvec _) (plain_nvec _) (plain_nvec _) trivial trivial
  (.nvec nw) (plain_nvec _) "greatcircle" none (s 0 true) (s 0 true) (s 0 true)
example := C116_to_nvector ⟨p7, F⟩ (p := ⟨7000000, 0, 0⟩) rfl rfl (by norm_num) rfl rR
theorem nmv : nm.val = ⟨mr.fin, .fin 0, .real 6378137 (1 / 298.257223563) (.str "WGS84") Re⟩ := by
  simp only [Nvector.val, FrameE.val, FrameE.real, val_m, rR]
example := C116_same_geo_point nm nm nmv rfl isRotation_Re (by rintro ⟨h, -⟩; norm_num [app, Re, dot] at h)

/-- a point at -1/0 degrees: `(-1, -0, -0)` has the first component and the length not both zero, the second is zero -/
example := (C116_lat_lon_any m R_e).1 (by
  have e : (mulVec R_e.val m.val).y = fin (1 / 3) := by rw [rR, val_m]; norm_num [mulVec, dot3, M3.fin, V3.fin, Re, xr]
  have e2 : (mulVec R_e.val m.val).z = fin (-(2 / 3)) := by rw [rR, val_m]; norm_num [mulVec, dot3, M3.fin, V3.fin, Re, xr]
  have q : sqrt (powNat (mulVec R_e.val m.val).y 2 + powNat (mulVec R_e.val m.val).z 2) = fin (Real.sqrt (5 / 9)) := by
    rw [e, e2]; norm_num [Nv.powNat, xr]
  rw [q, XR.eq_zero_fin rfl, Bool.and_eq_false_iff]
  right
  have : (0 : ℝ) < Real.sqrt (5 / 9) := Real.sqrt_pos.2 (by norm_num)
  simp [this.ne'])
/-- a rotation by 90 degrees about the z-axis -/
noncomputable abbrev Q : M3 (Sgn XR) := ⟨⟨s 0 true, s (-1) true, s 0 true⟩, ⟨s 1 false, s 0 true, s 0 false⟩, ⟨s 0 true, s 0 true, s 1 false⟩⟩
example := (C116_euler Q).2.1 (by
  change (_ && eq (fin 1) (lit 0)) = false
  rw [Bool.and_eq_false_iff]; right; rw [XR.eq_zero_fin rfl]; norm_num)
example := (C116_euler Q).2.2 (by
  change (_ && _) = false
  rw [Bool.and_eq_false_iff]; left
  change eq (-(fin (-1)) : XR) (lit 0) = false
  rw [show (-(fin (-1)) : XR) = fin 1 by norm_num [xr], XR.eq_zero_fin rfl]; norm_num)

end Nv.Cases.Sgn
