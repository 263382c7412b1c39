import Verif.Mem.Objects
import Verif.ND.Track

/-!
# Interpolation of tracks on the memory: core.py:357-431, objects.py:470-532
-/

namespace Nv.Mem
open Nv.ND (Arr)
variable {α β : Type} [PyFloat α]
open PyFloat

omit [PyFloat α] in
/-- `A[:3]`: a view (used in objects.py:531) -/
def ARef.take3 (r : ARef) : ARef := ⟨r.base, match r.shape with
  | d :: s => min d 3 :: s
  | [] => [], r.ix⟩

/-- core.py:357-366 `_interp_vectors(t_i, t, nvectors, kind, window_length, polyorder, mode, cval)`: `savgol_filter` returns a new array,
`interp1d` (with the default `copy=True`) copies `t` and `normals`, and its call makes a new array -/
def interp_vectors [Rows α β] [ND.Cols α β] (S : Scipy α β) (t_i t nvectors : ARef) (kind : String) (window_length polyorder : ℤ)
    (mode : String) (cval : α) : M α ARef := do
  let normals ←
    if 0 < window_length then do
      let n ← readA nvectors
      allocE (ND.savgol_filter S n (window_length + (window_length + 1) % 2) polyorder mode cval)
    else pure nvectors
  let t ← readA t
  let normals ← readA normals
  let t_i ← readA t_i
  allocE (ND.interp1d S kind t normals t_i)

/-- core.py:369-431 `interp_nvectors(t_i, t, nvectors, kind, window_length, polyorder, mode, cval)` -/
def interp_nvectors (S : Scipy α (V3 α)) (t_i t nvectors : ARef) (kind : String) (window_length polyorder : ℤ)
    (mode : String) (cval : α) : M α ARef := do
  let normal_i ← interp_vectors S t_i t nvectors kind window_length polyorder mode cval
  unit normal_i nan

/-- objects.py:470-532 `Nvector.interpolate(t_i, t, kind, window_length, polyorder, mode, cval)`: the depth of the result is a view of the
array `vectors_i` -/
def nvec_interpolate (S : Scipy α (V3 α × α)) (s : NRef) (t_i t : ARef) (kind : String) (window_length polyorder : ℤ)
    (mode : String) (cval : α) : M α NRef := do
  let o ← getNvec s
  let normal ← readA o.normal
  let z ← readA o.z
  let vectors ← allocE (ND.vcat normal.atleast2d z.atleast2d)
  let vectors_i ← interp_vectors S t_i t vectors kind window_length polyorder mode cval
  let normal ← unit vectors_i.take3 nan
  let z ← lift (vectors_i.row 3)
  newNvec ⟨normal, z, o.frame⟩

end Nv.Mem
