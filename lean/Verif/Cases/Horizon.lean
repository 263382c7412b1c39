import Verif.Cases.Objects
import Verif.Props.Horizon

/-!
# Concrete cases: elevations and the horizon (C159)
-/

namespace Nv.Cases
open Spec Real
open XR (fin)

/-- a mountain of 100 m on the equator, and a boat at the north pole, on WGS84 -/
noncomputable abbrev mountain : Position XR := .geo (.real 0 0 (-100) W)
noncomputable abbrev boat : Position XR := .geo (.real (π / 2) 0 0 W)

theorem mountain_boat : mountain.to_ecef_vector ≠ boat.to_ecef_vector := by
  obtain ⟨n, p, hA, gA⟩ := At.of_geo 0 0 (-100) wa wf wf1 (.str "WGS84") Re re
  obtain ⟨n', p', hB, gB⟩ := At.of_geo (π / 2) 0 0 wa wf wf1 (.str "WGS84") Re re
  have eA := at_geo_posE wf1 re hA
  have eB := at_geo_posE wf1 re hB
  intro h
  rw [hA.ec, hB.ec] at h
  have h' : p = p' := V3.fin_inj.mp (congrArg ECEFvector.pvector h)
  rw [eA, eB, gA, gB] at h'
  have h2 := congrArg (fun v => (app Re v).x) h'
  simp only [re.app_trans] at h2
  have hD := Dell_pos wf1 (geoNormal_isUnit (π / 2) 0).ne
  have e1 : (posE wa wf (geoNormal 0 0) (-100)).x = 0 := by simp [posE, geoNormal]
  have e2 : (posE wa wf (geoNormal (π / 2) 0) 0).x = wa / Dell wf (geoNormal (π / 2) 0) * (1 - wf) ^ 2 := by simp [posE, geoNormal]
  rw [e1, e2] at h2
  have : 0 < wa / Dell wf (geoNormal (π / 2) 0) * (1 - wf) ^ 2 :=
    mul_pos (div_pos wa0 hD) (pow_pos (by linarith [wf1]) 2)
  linarith

example := C159_horizon (name := .str "WGS84") re wa0 wf0 wf1 0 0 (-100) (π / 2) 0 0 (by norm_num) (by norm_num) (by norm_num) mountain_boat
example := (C159_vertical (a := wa) (name := .str "WGS84") re wf1 1 2 0 (-50)).1 (by norm_num)
example := (C159_vertical (a := wa) (name := .str "WGS84") re wf1 1 2 (-50) 0).2 (by norm_num)
example := C159_sphere (a := 6371000) (name := .str "Sphere") re 1 2 (-100) 1 2.5 50 (by norm_num) (by norm_num) (.inl (by norm_num))
example : ∃ l e : ℝ, SeenAt mountain boat l e ∧ 0 < e := by
  obtain ⟨n, p, hA, gA⟩ := At.of_geo 0 0 (-100) wa wf wf1 (.str "WGS84") Re re
  obtain ⟨n', p', hB, gB⟩ := At.of_geo (π / 2) 0 0 wa wf wf1 (.str "WGS84") Re re
  have hne : p ≠ p' := by
    rintro rfl
    exact mountain_boat (hA.ec.trans hB.ec.symm)
  obtain ⟨l, e, h, -⟩ := C159_sign re hA hB hne
  obtain ⟨l', e', h', -, h2, -⟩ := C159_horizon (name := .str "WGS84") re wa0 wf0 wf1 0 0 (-100) (π / 2) 0 0 (by norm_num) (by norm_num)
    (by norm_num) mountain_boat
  obtain ⟨rfl, rfl⟩ := SeenAt_unique h h'
  exact ⟨l, e, h, h2⟩

end Nv.Cases
