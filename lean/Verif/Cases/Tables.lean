import Verif.Props.Tables

/-!
# Instances for C148
-/

namespace Nv
open Axes
open XR (fin)

/-- a program that makes frames and an array of its own, assigns to its own array, and calls functions with and without it -/
noncomputable def program : List (Call XR) :=
  [.E_rotation "E", .FrameE (some (fin 6371000)) (some (fin 0)) (.str "sphere") "E", .array R_e, .setElements ⟨2⟩ R_E,
   .lat_lon2n_E (fin 1) (fin 2) (some ⟨2⟩), .FrameE none none (.str "no such ellipsoid") "e", .R_Ee ⟨0⟩,
   .n_E2lat_lon ⟨fin 1, fin 0, fin 0⟩ none]

/-- the hypothesis of C148 for this program -/
theorem program_leaves : Spec.LeavesTable program := by
  intro r A axes h
  have hr : r = ⟨2⟩ := by
    simp only [program, List.mem_cons, List.not_mem_nil, or_false, reduceCtorEq, false_or, Call.setElements.injEq] at h
    exact h.1
  subst hr
  unfold Axes.E_rotation
  split
  · simp
  · split <;> simp

example (axes : String) : (do elements (← Axes.E_rotation axes) (execs program start)) = (Nv.E_rotation axes : Except PyErr (M3 XR)) :=
  C148_E_rotation program program_leaves axes

example : ((Call.lat_lon2n_E (fin 1) (fin 2) none).exec (execs program start)).1 = .ok (.vector (Nv.lat_lon2n_E (fin 1) (fin 2))) :=
  (C148_defaults program program_leaves ⟨fin 0, fin 0, fin 1⟩ ⟨fin 0, fin 0, fin 1⟩ ⟨fin 0, fin 0, fin 1⟩ (fin 1) (fin 2) (fin 0) (fin 0)
    (fin 0) (fin 1) (fin 0)).1

/-- the frame is made; afterwards the program runs again -/
example : ∃ F w, Axes.FrameE (some (fin 2)) (some (fin 0)) (.int 1) "e" (execs program (start : World XR)) = (.ok F, w) ∧
    value F (execs program w) = Nv.FrameE.new (some (fin 2)) (some (fin 0)) (.int 1) "e" ∧
    Axes.R_Ee F (execs program w) = Axes.E_rotation "e" ∧
    ((Call.geo_to_nvector (fin 1) (fin 2) (fin 3) F).exec (execs program w)).1 =
      .ok (.position (GeoPoint.mk (fin 1) (fin 2) (fin 3) ⟨fin 2, fin 0, .int 1, R_e⟩).to_nvector.normal (fin 3)) := by
  refine ⟨_, _, rfl, ?_, ?_, ?_⟩
  · exact C148_frame program program program_leaves program_leaves (some (fin 2)) (some (fin 0)) (.int 1) "e"
  · exact C148_shared (execs program start) program (some (fin 2)) (some (fin 0)) (.int 1) "e" _ _ rfl
  · exact (C148_positions program program program_leaves program_leaves (some (fin 2)) (some (fin 0)) (.int 1) "e" _ _ _ rfl rfl (fin 1)
      (fin 2) (fin 3) ⟨fin 0, fin 0, fin 1⟩ ⟨fin 0, fin 0, fin 1⟩).1

/-- after the program the first frame exists and has the array of the axes 'E' -/
theorem program_frame : Axes.R_Ee ⟨0⟩ (execs program (start : World XR)) = .ok ⟨1⟩ :=
  C148_shared (((Call.E_rotation "E").exec start).2) (program.drop 2) (some (fin 6371000)) (some (fin 0)) (.str "sphere") "E" ⟨0⟩ _ rfl

example (A : M3 XR) : ∃ a f name, value ⟨0⟩ ((Call.setElements ⟨1⟩ A).exec (execs program start)).2 = .ok ⟨a, f, name, A⟩ :=
  (C148_assignment program "E" ⟨1⟩ rfl A).1 ⟨0⟩ program_frame

example (A : M3 XR) : value ⟨0⟩ ((Call.setElements ⟨0⟩ A).exec (execs program start)).2 = value ⟨0⟩ (execs program start) :=
  (C148_assignment program "e" ⟨0⟩ rfl A).2.2.2 ⟨0⟩ ⟨1⟩ program_frame (by simp)

example : elements ⟨1⟩ ((Call.setElements ⟨0⟩ R_E).exec (execs program start)).2 = .ok (R_E : M3 XR) :=
  (C148_no_effect (.setElements ⟨0⟩ R_E) (execs program start) ⟨1⟩ (by simp) R_E
    (by have := C148_E_rotation program program_leaves "E"; simpa [Axes.E_rotation, Nv.E_rotation, bind, Except.bind] using this) ⟨0⟩ ⟨1⟩ program_frame).1

end Nv
