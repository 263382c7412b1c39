import Verif.Model.Core

/-!
# Numpy arrays

An n-dimensional array is its shape and a function from multi-indices.  The value of the function outside the shape is
meaningless and no theorem speaks about it.  Broadcasting, `dot`, `cross`, `norm`, `einsum`, `vstack`, `ravel`, `reshape`
and `squeeze` follow the numpy documentation; a shape mismatch raises `ValueError`, an index that is out of range `IndexError`.
-/

namespace Nv.ND

open PyFloat (lit)

/-- a numpy array (numpy, for all of core.py, rotation.py, objects.py) -/
structure Arr (α : Type) where
  shape : List ℕ
  get : List ℕ → α

/-- broadcasting of one pair of dimensions (numpy, for example core.py:140) -/
def bdim (m n : ℕ) : Except PyErr ℕ :=
  if m = n then .ok m else if m = 1 then .ok n else if n = 1 then .ok m else .error .ValueError

/-- broadcasting of shapes, last axis first (numpy, for example core.py:140) -/
def bshapeRev : List ℕ → List ℕ → Except PyErr (List ℕ)
  | [], t => .ok t
  | s, [] => .ok s
  | m :: s, n :: t => do
    let d ← bdim m n
    let r ← bshapeRev s t
    pure (d :: r)

/-- broadcasting of shapes (right aligned) (numpy, for example core.py:140) -/
def bshape (s t : List ℕ) : Except PyErr (List ℕ) := do
  let r ← bshapeRev s.reverse t.reverse
  pure r.reverse

/-- the index read from an array of the given shape when it is broadcast: leading axes are dropped, axes of length one
are read at `0` (numpy, for example core.py:140) -/
def bidx (shape idx : List ℕ) : List ℕ :=
  (List.zipWith (fun d i => if d = 1 then 0 else i) shape.reverse idx.reverse).reverse

section
variable {α β γ : Type}

/-- a 0-d array / Python scalar (numpy, for example the default depth of core.py:76) -/
def scalar (x : α) : Arr α := ⟨[], fun _ => x⟩

/-- elementwise function (numpy, for example core.py:68-70) -/
def Arr.map (f : α → β) (A : Arr α) : Arr β := ⟨A.shape, fun i => f (A.get i)⟩

/-- elementwise operator with broadcasting (numpy, for example core.py:140) -/
def map2 (f : α → β → γ) (A : Arr α) (B : Arr β) : Except PyErr (Arr γ) := do
  let s ← bshape A.shape B.shape
  pure ⟨s, fun i => f (A.get (bidx A.shape i)) (B.get (bidx B.shape i))⟩

/-- `A.T`: all axes reversed (used in core.py:71, 499) -/
def Arr.T (A : Arr α) : Arr α := ⟨A.shape.reverse, fun i => A.get i.reverse⟩

/-- `np.swapaxes(A, 1, 0)` (used in core.py:766, rotation.py:472) -/
def swapaxes01 (A : Arr α) : Except PyErr (Arr α) :=
  match A.shape with
  | m :: n :: s => .ok ⟨n :: m :: s, fun idx => match idx with
    | i :: j :: r => A.get (j :: i :: r)
    | r => A.get r⟩
  | _ => .error .ValueError

/-- `A[i]`, `A[i, :]` or `A[i, ...]` (used in rotation.py:412-417, core.py:231-240) -/
def Arr.row (A : Arr α) (i : ℕ) : Except PyErr (Arr α) :=
  match A.shape with
  | d :: s => if i < d then .ok ⟨s, fun idx => A.get (i :: idx)⟩ else .error .IndexError
  | [] => .error .IndexError

/-- `A[:, None, ...]` (used in core.py:766, rotation.py:469-471) -/
def Arr.newaxis1 (A : Arr α) : Except PyErr (Arr α) :=
  match A.shape with
  | d :: s => .ok ⟨d :: 1 :: s, fun idx => match idx with
    | i :: _ :: r => A.get (i :: r)
    | r => A.get r⟩
  | [] => .error .IndexError

/-- number of elements (numpy, for core.py:560) -/
def prod (s : List ℕ) : ℕ := s.foldr (· * ·) 1

/-- the multi-index of the `k`-th element (C order) (numpy, for core.py:560) -/
def unravel : List ℕ → ℕ → List ℕ
  | [], _ => []
  | _ :: s, k => k / prod s :: unravel s (k % prod s)

/-- `A.ravel()` (used in core.py:560, 702, 730) -/
def Arr.ravel (A : Arr α) : Arr α := ⟨[prod A.shape], fun idx => match idx with
  | k :: _ => A.get (unravel A.shape k)
  | [] => A.get []⟩

/-- `A.reshape(m, -1)` (used in core.py:366, 766, rotation.py:207) -/
def Arr.reshape (A : Arr α) (m : ℕ) : Except PyErr (Arr α) :=
  if m ≠ 0 ∧ prod A.shape % m = 0 then
    let n := prod A.shape / m
    .ok ⟨[m, n], fun idx => match idx with
      | i :: j :: _ => A.get (unravel A.shape (i * n + j))
      | r => A.get r⟩
  else .error .ValueError

/-- re-insert the zeros of the axes of length one (numpy, for rotation.py:306) -/
def unsqueeze : List ℕ → List ℕ → List ℕ
  | [], _ => []
  | d :: s, idx => if d = 1 then 0 :: unsqueeze s idx else match idx with
    | i :: r => i :: unsqueeze s r
    | [] => 0 :: unsqueeze s []

/-- `np.squeeze(A)` (used in rotation.py:306, 383, 474, 510) -/
def Arr.squeeze (A : Arr α) : Arr α := ⟨A.shape.filter (· ≠ 1), fun idx => A.get (unsqueeze A.shape idx)⟩

/-- `np.atleast_2d(A)` for at most two dimensions (numpy, for core.py:68) -/
def Arr.atleast2d (A : Arr α) : Arr α :=
  match A.shape with
  | [] => ⟨[1, 1], fun _ => A.get []⟩
  | [n] => ⟨[1, n], fun idx => A.get (idx.drop 1)⟩
  | _ => A

/-- concatenation of two 2-d arrays along axis 0 (numpy, for core.py:68) -/
def vcat (A B : Arr α) : Except PyErr (Arr α) :=
  match A.shape, B.shape with
  | [m, n], [m', n'] => if n = n' then
      .ok ⟨[m + m', n], fun idx => match idx with
        | i :: r => if i < m then A.get (i :: r) else B.get ((i - m) :: r)
        | r => A.get r⟩
    else .error .ValueError
  | _, _ => .error .ValueError

/-- `np.vstack((A, B, C))` (used in core.py:68, 129, 240) -/
def vstack3 (A B C : Arr α) : Except PyErr (Arr α) := do
  vcat (← vcat A.atleast2d B.atleast2d) C.atleast2d

/-- concatenation of two arrays of at least two dimensions along axis 1 (`np.hstack`) (numpy, for rotation.py:469) -/
def hcat (A B : Arr α) : Except PyErr (Arr α) :=
  match A.shape, B.shape with
  | m :: n :: s, m' :: n' :: s' => if m = m' ∧ s = s' then
      .ok ⟨m :: (n + n') :: s, fun idx => match idx with
        | i :: j :: r => if j < n then A.get (i :: j :: r) else B.get (i :: (j - n) :: r)
        | r => A.get r⟩
    else .error .ValueError
  | _, _ => .error .ValueError

/-- `np.hstack((A, B, C))` of arrays of at least two dimensions (used in rotation.py:469-471) -/
def hstack3 (A B C : Arr α) : Except PyErr (Arr α) := do hcat (← hcat A B) C

section
variable [PyFloat α]

/-- left-to-right sum (numpy, for core.py:700) -/
def sum1 : List α → α
  | [] => lit 0
  | x :: xs => xs.foldl (· + ·) x

/-- `norm(A, axis=0)` (used in core.py:641-643, 700, 730) -/
def norm0 (A : Arr α) : Except PyErr (Arr α) :=
  match A.shape with
  | d :: s => .ok ⟨s, fun idx => PyFloat.sqrt (sum1 ((List.range d).map fun i => A.get (i :: idx) * A.get (i :: idx)))⟩
  | [] => .error .ValueError

/-- `norm(A, axis=0, keepdims=True)` (used in core.py:132, util.py:504) -/
def norm0k (A : Arr α) : Except PyErr (Arr α) :=
  match A.shape with
  | d :: s => .ok ⟨1 :: s, fun idx =>
      PyFloat.sqrt (sum1 ((List.range d).map fun i => A.get (i :: idx.drop 1) * A.get (i :: idx.drop 1)))⟩
  | [] => .error .ValueError

/-- `np.dot(A, B)` for 2-d arrays (the code uses no other case) (used in core.py:71, 499, 560, 701) -/
def dot (A B : Arr α) : Except PyErr (Arr α) :=
  match A.shape, B.shape with
  | [m, k], [k', n] => if k = k' then
      .ok ⟨[m, n], fun idx => match idx with
        | i :: j :: _ => sum1 ((List.range k).map fun l => A.get [i, l] * B.get [l, j])
        | _ => lit 0⟩
    else .error .ValueError
  | _, _ => .error .ValueError

/-- `np.cross(A, B, axis=0)` for 3-vectors (used in core.py:492-493, 516, 672-673) -/
def cross0 (A B : Arr α) : Except PyErr (Arr α) :=
  match A.shape, B.shape with
  | 3 :: s, 3 :: t => do
    let r ← bshape s t
    let a := fun i idx => A.get (i :: bidx s idx)
    let b := fun i idx => B.get (i :: bidx t idx)
    pure ⟨3 :: r, fun idx => match idx with
      | i :: j => if i = 0 then a 1 j * b 2 j - a 2 j * b 1 j
        else if i = 1 then a 2 j * b 0 j - a 0 j * b 2 j
        else a 0 j * b 1 j - a 1 j * b 0 j
      | _ => lit 0⟩
  | _, _ => .error .ValueError

/-- util.py:392 `mdot(a, b) = np.einsum('ij...,jk...->ik...', a, b)` -/
def mdot (A B : Arr α) : Except PyErr (Arr α) :=
  match A.shape, B.shape with
  | i :: j :: s, j' :: k :: t => if j = j' then do
      let r ← bshape s t
      pure ⟨i :: k :: r, fun idx => match idx with
        | x :: z :: q => sum1 ((List.range j).map fun y => A.get (x :: y :: bidx s q) * B.get (y :: z :: bidx t q))
        | _ => lit 0⟩
    else .error .ValueError
  | _, _ => .error .ValueError

/-- the array of a `3 x 3` matrix (rotation.py:76-80) -/
def ofM3 (M : M3 α) : Arr α := ⟨[3, 3], fun idx =>
  let row : ℕ → V3 α := fun i => if i = 0 then M.r0 else if i = 1 then M.r1 else M.r2
  match idx with
  | i :: j :: _ => if j = 0 then (row i).x else if j = 1 then (row i).y else (row i).z
  | _ => lit 0⟩

/-- `[[x], [y], [z]]` (rotation.py:458) -/
def ofV3 (v : V3 α) : Arr α := ⟨[3, 1], fun idx => match idx with
  | i :: _ => if i = 0 then v.x else if i = 1 then v.y else v.z
  | _ => lit 0⟩

end

/-- column `j` of a `3 x n` array (numpy, for reading the results of core.py) -/
def Arr.col (A : Arr α) (j : ℕ) : V3 α := ⟨A.get [0, j], A.get [1, j], A.get [2, j]⟩

/-- page `j` of a `3 x 3 x n` array (numpy, for reading the results of rotation.py:426) -/
def Arr.page (A : Arr α) (j : ℕ) : M3 α :=
  ⟨⟨A.get [0, 0, j], A.get [0, 1, j], A.get [0, 2, j]⟩, ⟨A.get [1, 0, j], A.get [1, 1, j], A.get [1, 2, j]⟩,
   ⟨A.get [2, 0, j], A.get [2, 1, j], A.get [2, 2, j]⟩⟩

end

end Nv.ND
