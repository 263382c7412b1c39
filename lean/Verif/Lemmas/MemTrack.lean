import Verif.Lemmas.MemPres

/-!
# The interpolation of tracks on the memory returns the values of `Verif.ND.Track` in new arrays
-/

namespace Nv.Mem
open Nv.ND (Arr)
variable {α β : Type}

theorem val_take3 {h : Heap α} {r : ARef} {A : Arr α} (e : val h r = some A) : val h r.take3 = some A.take3 := by
  change h.arrays[r.base]?.map r.view = some A at e
  rw [Option.map_eq_some_iff] at e
  obtain ⟨B, eB, rfl⟩ := e
  change arrVal h _ = _
  simp only [arrVal, ARef.take3, eB, Option.map_some, ARef.view, ND.Arr.take3]
  cases r.shape <;> rfl

variable [PyFloat α]
open PyFloat
variable {h : Heap α}

theorem Refines.interp_vectors [Rows α β] [ND.Cols α β] (S : Scipy α β) {t_i t n : ARef} {Ti T N : Arr α} (ei : val h t_i = some Ti)
    (et : val h t = some T) (en : val h n = some N) (kind : String) (w p : ℤ) (mode : String) (cval : α) :
    Refines h (Mem.interp_vectors S t_i t n kind w p mode cval) (ND.interp_vectors S Ti T N kind w p mode cval) := by
  unfold Mem.interp_vectors ND.interp_vectors
  by_cases hw : 0 < w
  · simp only [hw, if_true]
    exact .read en (.bind .allocE fun h1 m M E1 em => .read (HasVal.mono E1 et) (.read em (.read (HasVal.mono E1 ei) .allocE)))
  · simp only [hw, if_false]
    exact .read et (.read en (.read ei .allocE))

theorem Refines.interp_nvectors (S : Scipy α (V3 α)) {t_i t n : ARef} {Ti T N : Arr α} (ei : val h t_i = some Ti)
    (et : val h t = some T) (en : val h n = some N) (kind : String) (w p : ℤ) (mode : String) (cval : α) :
    Refines h (Mem.interp_nvectors S t_i t n kind w p mode cval) (ND.interp_nvectors S Ti T N kind w p mode cval) :=
  .bind (.interp_vectors S ei et en kind w p mode cval) fun _ _ _ _ eu => .unit eu _

theorem Refines.nvec_interpolate (S : Scipy α (V3 α × α)) {s : NRef} {P : ND.Nvector α} {t_i t : ARef} {Ti T : Arr α}
    (es : val h s = some P) (ei : val h t_i = some Ti) (et : val h t = some T) (kind : String) (w p : ℤ) (mode : String) (cval : α) :
    Refines h (Mem.nvec_interpolate S s t_i t kind w p mode cval) (P.interpolate S Ti T kind w p mode cval) := by
  refine .getNvec es fun a ha => .read ha.normal (.read ha.z (.bind .allocE fun h1 u U E1 eu => ?_))
  refine .bind (.interp_vectors S (HasVal.mono E1 ei) (HasVal.mono E1 et) eu kind w p mode cval) fun h2 v V E2 ev => ?_
  refine .bind (.unit (val_take3 ev) _) fun h3 m M E3 em => .bind (.row (HasVal.mono E3 ev) 3) fun h4 z Z E4 ez => ?_
  exact .newNvec ⟨HasVal.mono E4 em, ez, ha.frame⟩

theorem Pres.interp_vectors [Rows α β] [ND.Cols α β] (S : Scipy α β) (t_i t n : ARef) (kind : String) (w p : ℤ) (mode : String) (cval : α) :
    Pres (Mem.interp_vectors S t_i t n kind w p mode cval) := by unfold Mem.interp_vectors; pres []
theorem Pres.interp_nvectors (S : Scipy α (V3 α)) (t_i t n : ARef) (kind : String) (w p : ℤ) (mode : String) (cval : α) :
    Pres (Mem.interp_nvectors S t_i t n kind w p mode cval) := by unfold Mem.interp_nvectors; pres [Pres.interp_vectors _ _ _ _ _ _ _ _ _]
theorem Pres.nvec_interpolate (S : Scipy α (V3 α × α)) (s : NRef) (t_i t : ARef) (kind : String) (w p : ℤ) (mode : String) (cval : α) :
    Pres (Mem.nvec_interpolate S s t_i t kind w p mode cval) := by
  unfold Mem.nvec_interpolate; pres [Pres.interp_vectors _ _ _ _ _ _ _ _ _]

end Nv.Mem
