import Verif.Cases.Memory
import Verif.Props.TrackArrays

/-!
# Concrete cases: tracks as arrays and in memory (C55, C59, C61, C67, C68, C136)

A track of two positions, with the depths 10 and 20, at the times 0 and 4.
-/

namespace Nv.Cases.TrackArrays
open Nv.ND Nv.Mem Nv.Spec Nv.Cases
open XR (fin)

abbrev track : List (V3 XR) := [⟨fin 1, fin 0, fin 0⟩, ⟨fin 0, fin 1, fin 0⟩]
/-- the `3 x 2` array of the n-vectors -/
noncomputable abbrev A : Arr XR := ⟨[3, 2], fun i => if i = [0, 0] ∨ i = [1, 1] then fin 1 else fin 0⟩
noncomputable abbrev Z : Arr XR := ⟨[2], fun i => if i = [0] then fin 10 else fin 20⟩
noncomputable abbrev T : Arr XR := ⟨[2], fun i => if i = [0] then fin 0 else fin 4⟩
noncomputable abbrev X : Arr XR := ⟨[], fun _ => fin 1⟩

theorem hA : HoldsVectors A track := ⟨rfl, fun j h => by
  simp only [track, List.length_cons, List.length_nil] at h
  interval_cases j <;> simp [A, track]⟩
theorem hZ : HoldsNumbers Z [fin 10, fin 20] := ⟨rfl, fun j h => by
  simp only [List.length_cons, List.length_nil] at h
  interval_cases j <;> simp [Z]⟩
theorem hT : HoldsNumbers T [fin 0, fin 4] := ⟨rfl, fun j h => by
  simp only [List.length_cons, List.length_nil] at h
  interval_cases j <;> simp [T]⟩
theorem hX : HoldsTimes X [fin 1] := .inr ⟨rfl, rfl⟩

-- one time, given as a number, and both sample times
example (S : Scipy XR (V3 XR)) := C55_arrays S hA hT hX "linear" 0 2 "interp" (fin 0)
example (S : Scipy XR (V3 XR)) := C55_arrays S hA hT (.inl hT) "cubic" 5 2 "interp" (fin 0)
example (S : Scipy XR (V3 XR × XR)) := C61_arrays S (P := ⟨A, Z, W⟩) (d := .vector _) hA hZ hT hX "linear" 0 2 "interp" (fin 0)
-- the depth is a number, but there are two positions: both raise `ValueError`
example (S : Scipy XR (V3 XR × XR)) : (⟨A, X, W⟩ : ND.Nvector XR).interpolate S T T = .error .ValueError := by
  have q := C61_arrays S (P := ⟨A, X, W⟩) (d := .scalar (fin 1)) hA ⟨rfl, rfl⟩ hT (.inl hT) "linear" 0 2 "interp" (fin 0)
  have e : Nvector_interpolate S track (.scalar (fin 1)) [fin 0, fin 4] [fin 0, fin 4] = .error .ValueError := rfl
  change SameOutcome _ _ (Nvector_interpolate S track (.scalar (fin 1)) [fin 0, fin 4] [fin 0, fin 4]) at q
  rw [e] at q
  change SameOutcome _ (ND.Nvector.interpolate S ⟨A, X, W⟩ T T) _ at q
  cases h : ND.Nvector.interpolate S ⟨A, X, W⟩ T T with
  | ok v => rw [h] at q; exact q.elim
  | error y => rw [h] at q; rw [show y = _ from q]

abbrev aA : ARef := ⟨0, [3, 2], id⟩
abbrev aZ : ARef := ⟨1, [2], id⟩
abbrev aT : ARef := ⟨2, [2], id⟩
/-- the arrays and the `Nvector` made from them -/
noncomputable abbrev mem : Heap XR := execs [.array A, .array Z, .array T, .Nvector aA aZ W] {}
/-- the times asked for are the array of the sample times itself -/
noncomputable abbrev call (S : Scipy XR (V3 XR × XR)) : Call XR := .nvec_interpolate S ⟨0⟩ aT aT "linear" 3 2 "interp" (fin 0)

example (S : Scipy XR (V3 XR × XR)) := C59_arrays [call S] mem aT T rfl
example (S : Scipy XR (V3 XR × XR)) := C59_Nvector [call S] mem ⟨0⟩ ⟨A, Z, W⟩ rfl (by simp [CallsUnit])
example (S : Scipy XR (V3 XR)) := C67_interp_nvectors S (h := mem) (t_i := aT) (t := aT) (n := aA) rfl rfl rfl "linear" 3 2 "interp" (fin 0)
example (S : Scipy XR (V3 XR × XR)) := C67_nvec_interpolate S (h := mem) (s := ⟨0⟩) (t_i := aT) (t := aT) rfl rfl rfl "linear" 3 2 "interp" (fin 0)
example (S : Scipy XR (V3 XR)) := C136_interp_nvectors S (h := mem) (t_i := aT) (t := aT) (n := aA) rfl rfl rfl "linear" 3 2 "interp" (fin 0)
example (S : Scipy XR (V3 XR × XR)) := C136_nvec_interpolate S (h := mem) (s := ⟨0⟩) (t_i := aT) (t := aT) rfl rfl rfl "linear" 3 2 "interp" (fin 0)

/-- without smoothing `interp_nvectors` at the sample times returns -/
theorem runs (S : Scipy XR (V3 XR)) :
    ∃ u h', Mem.interp_nvectors S aT aT aA "linear" 0 2 "interp" (fin 0) mem = (.ok u, h') := by
  have q := C67_interp_nvectors S (h := mem) (t_i := aT) (t := aT) (n := aA) rfl rfl rfl "linear" 0 2 "interp" (fin 0)
  have r := C55_arrays S hA hT (.inl hT) "linear" 0 2 "interp" (fin 0)
  have e : ∃ L, Nv.interp_nvectors S [fin 0, fin 4] [fin 0, fin 4] track "linear" 0 2 "interp" (fin 0) = .ok L := ⟨_, rfl⟩
  obtain ⟨L, eL⟩ := e
  rw [eL] at r
  cases h : ND.interp_nvectors S T T A "linear" 0 2 "interp" (fin 0) with
  | error y => rw [h] at r; exact r.elim
  | ok v =>
    change Computes arrVal mem _ (ND.interp_nvectors S T T A "linear" 0 2 "interp" (fin 0)) at q
    rw [h] at q
    unfold Computes at q
    cases e : Mem.interp_nvectors S aT aT aA "linear" 0 2 "interp" (fin 0) mem with
    | mk x h' =>
    rw [e] at q
    cases x with
    | ok u => exact ⟨u, h', rfl⟩
    | error y => exact q.elim
example (S : Scipy XR (V3 XR)) (S' : Scipy XR (V3 XR × XR)) (f : List ℕ → XR → XR) :=
  (C68_interpolated_tracks_are_new S' S (h := mem) (a := aA) (f := f) (s := ⟨0⟩) (r := ⟨0⟩) (by decide)).2 (runs S).choose_spec.choose_spec

end Nv.Cases.TrackArrays
