import Verif.Lemmas.TrackArrays
import Verif.Props.Threads

/-!
# Tracks as arrays, and in memory

C55, C61: `interp_nvectors` and `Nvector.interpolate` on arrays.  C67, C68, C136: the same functions in memory, with arguments that share
arrays and between the steps of other threads.  (C59: `Mem.Call` contains both, so that the theorems of Props/Memory.lean and of
Props/Threads.lean about histories of calls speak about them.)
-/

namespace Nv.ND
open Nv.Spec PyFloat
variable {α : Type} [PyFloat α]

/-- **C55** `interp_nvectors` on arrays: the `3 x m` array of the n-vectors that the track, taken as a list of n-vectors, has at the `m`
times asked for (a number is one time), or the same exception -/
theorem C55_arrays (S : Scipy α (V3 α)) {A t ti : Arr α} {l : List (V3 α)} {T Ti : List α} (hA : HoldsVectors A l)
    (ht : HoldsNumbers t T) (hi : HoldsTimes ti Ti) (kind : String) (w p : ℤ) (mode : String) (cval : α) :
    SameOutcome HoldsVectors (interp_nvectors S ti t A kind w p mode cval) (Nv.interp_nvectors S Ti T l kind w p mode cval) := by
  unfold interp_nvectors Nv.interp_nvectors
  rw [interp_vectors_columns S (columns_of_vectors hA) (sampleTimes_of ht), queryTimes_of hi]
  cases e : Nv.interp_vectors S Ti T l kind w p mode cval with
  | error x => rfl
  | ok c =>
    obtain ⟨X, eX, hX⟩ := unit_vectors (holds_ofColumns c) (nan : α)
    simp only [Except.map, bind, Except.bind, pure, Except.pure, eX, SameOutcome]
    exact hX

/-- **C61** `Nvector.interpolate` on arrays: normal and depth of the result are the `3 x m` array and the vector of the `m` n-vectors and
depths that the track, taken as a list, has at the times asked for, in the frame of the track, or the same exception -/
theorem C61_arrays (S : Scipy α (V3 α × α)) {P : Nvector α} {t ti : Arr α} {l : List (V3 α)} {d : Depth α} {T Ti : List α}
    (hn : HoldsVectors P.normal l) (hz : HoldsDepth P.z d) (ht : HoldsNumbers t T) (hi : HoldsTimes ti Ti) (kind : String) (w p : ℤ)
    (mode : String) (cval : α) :
    SameOutcome (fun (R : Nvector α) L => HoldsVectors R.normal L.1 ∧ HoldsNumbers R.z L.2 ∧ R.frame = P.frame)
      (P.interpolate S ti t kind w p mode cval) (Nvector_interpolate S l d Ti T kind w p mode cval) := by
  unfold Nvector.interpolate Nvector_interpolate
  have q := vcat_depth hn hz
  cases e1 : vcat P.normal.atleast2d P.z.atleast2d with
  | error x =>
    cases e2 : vstackDepth l d with
    | error y => rw [e1, e2] at q; exact q
    | ok y => rw [e1, e2] at q; exact q.elim
  | ok V =>
    cases e2 : vstackDepth l d with
    | error y => rw [e1, e2] at q; exact q.elim
    | ok c =>
      rw [e1, e2] at q
      simp only [bind, Except.bind]
      rw [interp_vectors_columns S q (sampleTimes_of ht), queryTimes_of hi]
      cases e3 : Nv.interp_vectors S Ti T c kind w p mode cval with
      | error x => rfl
      | ok v =>
        obtain ⟨X, eX, hX⟩ := unit_vectors (holds_take3 v) (nan : α)
        obtain ⟨Z, eZ, hZ⟩ := row3_ofColumns v
        simp only [Except.map, pure, Except.pure, eX, eZ, SameOutcome]
        refine ⟨?_, hZ, trivial⟩
        simpa [List.map_map, Function.comp_def] using hX

end Nv.ND

namespace Nv.Mem
open Nv.ND (Arr)
open Nv.Spec PyFloat
variable {α : Type} [PyFloat α] {h : Heap α}

/-- **C67** `interp_nvectors`: the arguments may be the same array or share memory in any way -/
theorem C67_interp_nvectors (S : Scipy α (V3 α)) {t_i t n : ARef} {Ti T N : Arr α} (ei : arrVal h t_i = some Ti) (et : arrVal h t = some T)
    (en : arrVal h n = some N) (kind : String) (w p : ℤ) (mode : String) (cval : α) :
    Computes arrVal h (Mem.interp_nvectors S t_i t n kind w p mode cval) (ND.interp_nvectors S Ti T N kind w p mode cval) :=
  computes (.interp_nvectors S ei et en kind w p mode cval)
/-- **C67** `Nvector.interpolate` -/
theorem C67_nvec_interpolate (S : Scipy α (V3 α × α)) {s : NRef} {P : ND.Nvector α} {t_i t : ARef} {Ti T : Arr α} (es : nvecVal h s = some P)
    (ei : arrVal h t_i = some Ti) (et : arrVal h t = some T) (kind : String) (w p : ℤ) (mode : String) (cval : α) :
    Computes nvecVal h (Mem.nvec_interpolate S s t_i t kind w p mode cval) (P.interpolate S Ti T kind w p mode cval) :=
  computes (.nvec_interpolate S es ei et kind w p mode cval)

/-- **C136** `interp_nvectors` in a thread -/
theorem C136_interp_nvectors (S : Scipy α (V3 α)) {t_i t n : ARef} {Ti T N : Arr α} (ei : arrVal h t_i = some Ti) (et : arrVal h t = some T)
    (en : arrVal h n = some N) (kind : String) (w p : ℤ) (mode : String) (cval : α) :
    ThreadSafe arrVal h (fun _ => False) (Mem.interp_nvectors S t_i t n kind w p mode cval)
      (ND.interp_nvectors S Ti T N kind w p mode cval) :=
  threadSafe (.interp_nvectors S (.of ei) (.of et) (.of en) kind w p mode cval)
/-- **C136** `Nvector.interpolate` in a thread -/
theorem C136_nvec_interpolate (S : Scipy α (V3 α × α)) {s : NRef} {P : ND.Nvector α} {t_i t : ARef} {Ti T : Arr α} (es : nvecVal h s = some P)
    (ei : arrVal h t_i = some Ti) (et : arrVal h t = some T) (kind : String) (w p : ℤ) (mode : String) (cval : α) :
    ThreadSafe nvecVal h (fun n => n = s) (Mem.nvec_interpolate S s t_i t kind w p mode cval) (P.interpolate S Ti T kind w p mode cval) :=
  threadSafe (.nvec_interpolate S (.of (K := fun n => n = s) es rfl) (.of ei) (.of et) kind w p mode cval)

variable {n : ℕ}

theorem Ensures.interp_vectors {β : Type} [Rows α β] [ND.Cols α β] (S : Scipy α β) (t_i t v : ARef) (kind : String) (w p : ℤ) (mode : String)
    (cval : α) : Ensures n (Mem.interp_vectors S t_i t v kind w p mode cval) fun r _ => newA n r := by
  unfold Mem.interp_vectors
  split
  · exact .step (.readA _) fun _ => .step (.allocE _) fun _ => .step (.readA _) fun _ => .step (.readA _) fun _ => .step (.readA _) fun _ => .allocE _
  · exact .step (.pure _) fun _ => .step (.readA _) fun _ => .step (.readA _) fun _ => .step (.readA _) fun _ => .allocE _

theorem Ensures.nvec_interpolate (S : Scipy α (V3 α × α)) (s : NRef) (t_i t : ARef) (kind : String) (w p : ℤ) (mode : String)
    (cval : α) : Ensures n (Mem.nvec_interpolate S s t_i t kind w p mode cval) (newN n) :=
  .step (.getNvec _) fun _ => .step (.readA _) fun _ => .step (.readA _) fun _ => .step (.allocE _) fun _ =>
    .bind (.interp_vectors _ _ _ _ _ _ _ _ _) (.interp_vectors _ _ _ _ _ _ _ _ _) fun _ hv => .bind (.unit _ _) (.unit _ _) fun _ hu =>
      .bind (.lift _) (.row hv 3) fun _ hz => .newNvec hu hz

variable {h' : Heap α} {a : ARef} {f : List ℕ → α → α}

/-- **C68** interpolated tracks share nothing with the track, the times or any other array that existed before: whatever is written into
such an array afterwards, the result does not change -/
theorem C68_interpolated_tracks_are_new (S : Scipy α (V3 α × α)) (S' : Scipy α (V3 α)) {s r : NRef} {t_i t v u : ARef} {kind : String}
    {w p : ℤ} {mode : String} {cval : α} (ha : a.base < h.arrays.length) :
    (Mem.nvec_interpolate S s t_i t kind w p mode cval h = (.ok r, h') → nvecVal (written a f h') r = nvecVal h' r) ∧
      (Mem.interp_nvectors S' t_i t v kind w p mode cval h = (.ok u, h') → arrVal (written a f h') u = arrVal h' u) := by
  refine ⟨fun e => newN.written (n := h.arrays.length) (Ensures.nvec_interpolate S s t_i t kind w p mode cval h le_rfl r h' e) ha f,
    fun e => ?_⟩
  refine arrVal_written ?_ f
  have q : Ensures h.arrays.length (Mem.interp_nvectors S' t_i t v kind w p mode cval) fun r _ => newA h.arrays.length r :=
    .step (.interp_vectors S' t_i t v kind w p mode cval) fun _ => .unit _ _
  have := q h le_rfl u h' e
  change _ ≤ _ at this
  omega

end Nv.Mem
