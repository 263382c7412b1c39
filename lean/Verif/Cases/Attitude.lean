import Verif.Cases.Objects
import Verif.Props.Attitude

/-!
# Concrete cases for C152: a vehicle at 10 m depth with yaw 3 (172 degrees) or 100 degrees, nose up and banked
-/

namespace Nv.Cases
open Spec Real
open XR (fin)

example := C152_seen_from_north (nv nA 10) nA 10 wa wf _ Re rfl neA re 3 (-1) 1 false ⟨1, 2, 3⟩
/-- an n-vector that is not of unit length, other axes, degrees -/
example := C152_seen_from_north (.nvec (.real nD 10 (.real wa wf (.str "") Rg))) nD 10 wa wf _ Rg rfl neD rg 100 20 (-30) true ⟨1, 2, 3⟩
example := C152_nose (nv nA 10) nA 10 wa wf _ Re rfl neA re 3 (-1) 1 5 false (by norm_num)
  (by simp only [radians]; norm_num; linarith [pi3]) (by simp only [radians]; norm_num; linarith [pi3])
example := C152_nose (nv nA 10) nA 10 wa wf _ Re rfl neA re 100 20 (-30) 5 true (by norm_num)
  (by simp only [radians]; norm_num; linarith [pi3]) (by simp only [radians]; norm_num; linarith [pi3])
example := C152_starboard (nv nA 10) nA 10 wa wf _ Re rfl neA re 100 20 (-30) 5 true (by norm_num)
example := C152_bank (nv nA 10) nA 10 wa wf _ Re rfl neA re 3 (-1) 3 5 false (by norm_num)
  (by simp only [radians]; norm_num; linarith [pi3]) (by simp only [radians]; norm_num; linarith [pi3])
example := C152_bearing (nv nA 10) (nv nB 20) nA _ _ 10 wa wf _ Re re neA rfl (atA 10).ec (atB 20).ec 100 true
/-- pointing at the centre of the Earth -/
example := C152_pointing (.nvec (.real nA 0 W)) (.ecef (.real ⟨0, 0, 0⟩ W)) nA _ ⟨0, 0, 0⟩ 0 wa wf _ Re re neA rfl (atA 0).ec rfl 1 (by
  intro h
  have := far nA uA 0 le_rfl
  rw [← h] at this
  unfold len at this
  norm_num at this)
example := C152_level (nv nA 10) (nv nB 20) nA _ _ 10 wa wf _ Re re neA rfl (atA 10).ec (atB 20).ec offpole_Re 1

end Nv.Cases
