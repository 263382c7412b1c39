import Verif.ND.Objects
import Verif.Model.Track

/-!
# Interpolation of tracks on arrays: core.py:357-431, objects.py:470-532

`Verif.Model.Track` treats a `3 x n` or `4 x n` array as the list of its columns; here are the arrays themselves.
-/

namespace Nv.ND
open PyFloat (lit nan)

/-- how the columns of an array with 3 or 4 rows are read and written (numpy, for core.py:357-366) -/
class Cols (α : outParam Type) (β : Type) where
  rows : ℕ
  ofCol : (ℕ → α) → β
  entry : β → ℕ → α

variable {α β : Type}

/-- columns of a `3 x n` array (core.py:429) -/
instance : Cols α (V3 α) where
  rows := 3
  ofCol e := ⟨e 0, e 1, e 2⟩
  entry v i := if i = 0 then v.x else if i = 1 then v.y else v.z
/-- columns of a `4 x n` array: n-vector and depth (objects.py:529) -/
instance : Cols α (V3 α × α) where
  rows := 4
  ofCol e := (⟨e 0, e 1, e 2⟩, e 3)
  entry v i := if i = 0 then v.1.x else if i = 1 then v.1.y else if i = 2 then v.1.z else v.2

/-- the columns of a two dimensional array with the right number of rows; of other arrays the model says nothing (it raises
`ValueError`) (numpy, for core.py:361, 365) -/
def columns (β : Type) [Cols α β] (A : Arr α) : Except PyErr (List β) :=
  match A.shape with
  | [r, n] => if r = Cols.rows β then .ok ((List.range n).map fun j => Cols.ofCol fun i => A.get [i, j]) else .error .ValueError
  | _ => .error .ValueError

variable [PyFloat α]

/-- the array with the given columns (numpy, for core.py:361, 366) -/
def ofColumns [Cols α β] (l : List β) : Arr α := ⟨[Cols.rows β, l.length], fun idx => match idx with
  | [i, j] => match l[j]? with
    | some c => Cols.entry c i
    | none => nan
  | _ => nan⟩

omit [PyFloat α] in
/-- the times of the samples: `interp1d` raises `ValueError` unless they have exactly one dimension (scipy, for core.py:365) -/
def sampleTimes (t : Arr α) : Except PyErr (List α) :=
  match t.shape with
  | [n] => .ok ((List.range n).map fun j => t.get [j])
  | _ => .error .ValueError

omit [PyFloat α] in
/-- the times asked for, of any shape, in C order: the result of `interp1d` has that shape behind the rows, and `reshape` (core.py:366)
makes it two dimensional -/
def queryTimes (t_i : Arr α) : List α := (List.range (prod t_i.shape)).map fun k => t_i.get (unravel t_i.shape k)

/-- `savgol_filter(nvectors, window_length, polyorder, axis=1, mode=mode, cval=cval)` (scipy, for core.py:361) -/
def savgol_filter [Cols α β] (S : Scipy α β) (A : Arr α) (window_length polyorder : ℤ) (mode : String) (cval : α) :
    Except PyErr (Arr α) := do
  pure (ofColumns (← S.savgol_filter (← columns β A) window_length polyorder mode cval))

/-- `interp1d(t, normals, axis=1, kind=kind, bounds_error=False)(t_i).reshape(nvectors.shape[0], -1)` (scipy, for core.py:365-366) -/
def interp1d [Rows α β] [Cols α β] (S : Scipy α β) (kind : String) (t A t_i : Arr α) : Except PyErr (Arr α) := do
  let T ← sampleTimes t
  let c ← columns β A
  pure (ofColumns (← if kind = "linear" then interp1dLinear T c (queryTimes t_i) else S.interp1d kind T c (queryTimes t_i)))

/-- core.py:357-366 `_interp_vectors(t_i, t, nvectors, kind, window_length, polyorder, mode, cval)` -/
def interp_vectors [Rows α β] [Cols α β] (S : Scipy α β) (t_i t nvectors : Arr α) (kind : String) (window_length polyorder : ℤ)
    (mode : String) (cval : α) : Except PyErr (Arr α) := do
  let normals ←
    if 0 < window_length then savgol_filter S nvectors (window_length + (window_length + 1) % 2) polyorder mode cval
    else pure nvectors
  interp1d S kind t normals t_i

/-- core.py:369-431 `interp_nvectors(t_i, t, nvectors, kind='linear', window_length=0, polyorder=2, mode='interp', cval=0.0)` -/
def interp_nvectors (S : Scipy α (V3 α)) (t_i t nvectors : Arr α) (kind : String := "linear") (window_length : ℤ := 0)
    (polyorder : ℤ := 2) (mode : String := "interp") (cval : α := lit 0) : Except PyErr (Arr α) := do
  unit (← interp_vectors S t_i t nvectors kind window_length polyorder mode cval) nan

omit [PyFloat α] in
/-- `A[:3]` of an array with at least one dimension (used in objects.py:531) -/
def Arr.take3 (A : Arr α) : Arr α := ⟨match A.shape with
  | d :: s => min d 3 :: s
  | [] => [], A.get⟩

/-- objects.py:470-532 `Nvector.interpolate(t_i, t, kind='linear', window_length=0, polyorder=2, mode='interp', cval=0.0)` -/
def Nvector.interpolate (S : Scipy α (V3 α × α)) (s : Nvector α) (t_i t : Arr α) (kind : String := "linear") (window_length : ℤ := 0)
    (polyorder : ℤ := 2) (mode : String := "interp") (cval : α := lit 0) : Except PyErr (Nvector α) := do
  let vectors ← vcat s.normal.atleast2d s.z.atleast2d
  let vectors_i ← interp_vectors S t_i t vectors kind window_length polyorder mode cval
  let normal ← ND.unit vectors_i.take3 nan
  let z ← vectors_i.row 3
  pure ⟨normal, z, s.frame⟩

end Nv.ND
