import Verif.Model.Core

/-!
# Model of the interpolation of tracks: `/repo/src/nvector/core.py:357-431` and `objects.py:470-532`

A `3 x n` array (or `4 x n`: n-vectors and depths) is the list of its columns.
-/

namespace Nv

variable {α : Type} [PyFloat α]
open PyFloat

/-- The scipy functions used (core.py:14-15), which are not part of the repo: `savgol_filter(columns, window_length,
polyorder, mode=mode, cval=cval)` along the columns, and `interp1d(t, columns, kind=kind, bounds_error=False)(t_i)` for every
kind except 'linear'.  They are arbitrary functions that may raise. -/
structure Scipy (α β : Type) where
  savgol_filter : List β → (window_length polyorder : ℤ) → (mode : String) → (cval : α) → Except PyErr (List β)
  interp1d : (kind : String) → (t : List α) → List β → (t_i : List α) → Except PyErr (List β)

/-- `scipy.interpolate.interp1d(t, y, kind='linear', bounds_error=False)`, called with one time `x`, for one row of `y`.  `s` are
the pairs (time, value) in the order of the times.  Scipy's `_call_linear` takes `i = searchsorted(t, x)` (the number of times
less than `x`), clips it to `1 .. n-1`, takes the samples `i-1` and `i` (index `-1` is the last one) and then evaluates
`slope * (x - x_lo) + y_lo`; afterwards `_evaluate` stores NaN for times below the first or above the last time.
External code, modelled from its documentation and source. (used in core.py:365) -/
def interpLinear (s : List (α × α)) (x : α) : α :=
  match s with
  | [] => nan
  | p :: _ =>
    let n := s.length
    let hi := min (max (s.takeWhile (fun q => lt q.1 x)).length 1) (n - 1)
    let lo := if hi = 0 then n - 1 else hi - 1
    let a := s.getD lo p
    let b := s.getD hi p
    let slope := (b.2 - a.2) / (b.1 - a.1)
    let y := slope * (x - a.1) + a.2
    if lt x p.1 then nan else if lt (s.getD (n - 1) p).1 x then nan else y

/-- how a column is put together from its components (`row` gives the value in the row that a projection selects) -/
class Rows (α β : Type) where
  build : ((β → α) → α) → β

/-- columns of a `3 x n` array (core.py:365-366) -/
instance : Rows α (V3 α) := ⟨fun row => ⟨row (·.x), row (·.y), row (·.z)⟩⟩
/-- columns of a `4 x n` array: n-vector and depth (objects.py:529-531) -/
instance : Rows α (V3 α × α) := ⟨fun row => (⟨row (·.1.x), row (·.1.y), row (·.1.z)⟩, row (·.2))⟩

/-- `interp1d(t, columns, axis=1, kind='linear', bounds_error=False)(t_i)`: the samples are sorted by time
(`assume_sorted=False`: stable argsort); different numbers of times and columns raise `ValueError` (used in core.py:365) -/
def interp1dLinear {β : Type} [Rows α β] (t : List α) (columns : List β) (t_i : List α) : Except PyErr (List β) :=
  if t.length = columns.length then
    let s := (t.zip columns).mergeSort (fun a b => le a.1 b.1)
    .ok (t_i.map fun x => Rows.build fun r => interpLinear (s.map fun p => (p.1, r p.2)) x)
  else .error .ValueError

/-- core.py:357-366 `_interp_vectors(t_i, t, nvectors, kind, window_length, polyorder, mode, cval)` -/
def interp_vectors {β : Type} [Rows α β] (S : Scipy α β) (t_i t : List α) (nvectors : List β) (kind : String)
    (window_length polyorder : ℤ) (mode : String) (cval : α) : Except PyErr (List β) := do
  let normals ←
    if 0 < window_length then
      -- Python's `%` with the divisor 2
      S.savgol_filter nvectors (window_length + (window_length + 1) % 2) polyorder mode cval
    else pure nvectors
  if kind = "linear" then interp1dLinear t normals t_i else S.interp1d kind t normals t_i

/-- core.py:369-431 `interp_nvectors(t_i, t, nvectors, kind='linear', window_length=0, polyorder=2, mode='interp', cval=0.0)` -/
def interp_nvectors (S : Scipy α (V3 α)) (t_i t : List α) (nvectors : List (V3 α)) (kind : String := "linear")
    (window_length : ℤ := 0) (polyorder : ℤ := 2) (mode : String := "interp") (cval : α := lit 0) :
    Except PyErr (List (V3 α)) := do
  let normal_i ← interp_vectors S t_i t nvectors kind window_length polyorder mode cval
  pure (normal_i.map (unit · nan))

/-- the depth of an `Nvector`: a number or one number per column (objects.py:465-468) -/
inductive Depth (α : Type) where
  | scalar (z : α)
  | vector (z : List α)

/-- objects.py:529 `np.vstack((self.normal, self.z))`: a number becomes a `1 x 1` array and a vector of length `m` a `1 x m`
array, which must have as many columns as `normal` -/
def vstackDepth (normal : List (V3 α)) : Depth α → Except PyErr (List (V3 α × α))
  | .scalar z => if normal.length = 1 then .ok (normal.map (·, z)) else .error .ValueError
  | .vector zs => if normal.length = zs.length then .ok (normal.zip zs) else .error .ValueError

/-- objects.py:470-532 `Nvector.interpolate(t_i, t, kind='linear', window_length=0, polyorder=2, mode='interp', cval=0.0)`:
`normal` and `z` of the resulting Nvector (its frame is `self.frame`) -/
def Nvector_interpolate (S : Scipy α (V3 α × α)) (normal : List (V3 α)) (z : Depth α) (t_i t : List α)
    (kind : String := "linear") (window_length : ℤ := 0) (polyorder : ℤ := 2) (mode : String := "interp")
    (cval : α := lit 0) : Except PyErr (List (V3 α) × List α) := do
  let vectors ← vstackDepth normal z
  let vectors_i ← interp_vectors S t_i t vectors kind window_length polyorder mode cval
  pure (vectors_i.map (fun c => unit c.1 nan), vectors_i.map (·.2))

end Nv
