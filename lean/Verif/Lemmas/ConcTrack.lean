import Verif.Lemmas.ConcSafe
import Verif.Lemmas.MemTrack

/-!
# The interpolation of tracks between the steps of other threads
-/

namespace Nv.Mem
open Nv.ND (Arr)
variable {α β : Type} [PyFloat α]
open PyFloat
variable {ω : World α}

theorem CRef.interp_vectors [Rows α β] [ND.Cols α β] (S : Scipy α β) {t_i t n : ARef} {Ti T N : Arr α} (ei : Stay ω t_i Ti)
    (et : Stay ω t T) (en : Stay ω n N) (kind : String) (w p : ℤ) (mode : String) (cval : α) :
    CRef ω (Mem.interp_vectors S t_i t n kind w p mode cval) (ND.interp_vectors S Ti T N kind w p mode cval) := by
  unfold Mem.interp_vectors ND.interp_vectors
  by_cases hw : 0 < w
  · simp only [hw, if_true]
    exact .read en (.bind .allocE fun h1 m M E1 em => .read (Stays.smono E1 et) (.read em (.read (Stays.smono E1 ei) .allocE)))
  · simp only [hw, if_false]
    exact .read et (.read en (.read ei .allocE))

theorem CRef.interp_nvectors (S : Scipy α (V3 α)) {t_i t n : ARef} {Ti T N : Arr α} (ei : Stay ω t_i Ti)
    (et : Stay ω t T) (en : Stay ω n N) (kind : String) (w p : ℤ) (mode : String) (cval : α) :
    CRef ω (Mem.interp_nvectors S t_i t n kind w p mode cval) (ND.interp_nvectors S Ti T N kind w p mode cval) :=
  .bind (.interp_vectors S ei et en kind w p mode cval) fun _ _ _ _ eu => .unit eu _

theorem Stay_take3 {r : ARef} {A : Arr α} (e : Stay ω r A) : Stay ω r.take3 A.take3 := ⟨e.1, val_take3 e.2⟩

theorem CRef.nvec_interpolate (S : Scipy α (V3 α × α)) {s : NRef} {P : ND.Nvector α} {t_i t : ARef} {Ti T : Arr α}
    (es : Stay ω s P) (ei : Stay ω t_i Ti) (et : Stay ω t T) (kind : String) (w p : ℤ) (mode : String) (cval : α) :
    CRef ω (Mem.nvec_interpolate S s t_i t kind w p mode cval) (P.interpolate S Ti T kind w p mode cval) := by
  refine .getNvec es fun a ha => .read ha.normal (.read ha.z (.bind .allocE fun h1 u U E1 eu => ?_))
  refine .bind (.interp_vectors S (Stays.smono E1 ei) (Stays.smono E1 et) eu kind w p mode cval) fun h2 v V E2 ev => ?_
  refine .bind (.unit (Stay_take3 ev) _) fun h3 m M E3 em => .bind (.row (Stays.smono E3 ev) 3) fun h4 z Z E4 ez => ?_
  exact .newNvec ⟨Stays.smono E4 em, ez, ha.frame⟩

theorem Safe.interp_vectors [Rows α β] [ND.Cols α β] (S : Scipy α β) (t_i t n : ARef) (kind : String) (w p : ℤ) (mode : String) (cval : α) :
    Safe (Mem.interp_vectors S t_i t n kind w p mode cval) := by unfold Mem.interp_vectors; safe []
theorem Safe.interp_nvectors (S : Scipy α (V3 α)) (t_i t n : ARef) (kind : String) (w p : ℤ) (mode : String) (cval : α) :
    Safe (Mem.interp_nvectors S t_i t n kind w p mode cval) := by unfold Mem.interp_nvectors; safe [Safe.interp_vectors _ _ _ _ _ _ _ _ _]
theorem Safe.nvec_interpolate (S : Scipy α (V3 α × α)) (s : NRef) (t_i t : ARef) (kind : String) (w p : ℤ) (mode : String) (cval : α) :
    Safe (Mem.nvec_interpolate S s t_i t kind w p mode cval) := by
  unfold Mem.nvec_interpolate; safe [Safe.interp_vectors _ _ _ _ _ _ _ _ _]

end Nv.Mem
