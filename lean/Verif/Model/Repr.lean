import Verif.Model.Objects

/-!
# Model of `_Common.__repr__`, `/repo/src/nvector/objects.py:131-140`

The text that is printed for a position or a frame.  Texts are lists of characters.
-/

namespace Nv.Repr

/-- the value of an attribute of an object (objects.py:131-140, util.py:74-103): a number, bool or `None`, given by the text Python prints for it; a string;
lists and tuples; a numpy array or numpy scalar, given by what `tolist` returns; an object of one of the classes of objects.py, with its
`__dict__` in insertion order.  Simplification: dicts and object arrays are no attribute values. -/
inductive Val where
  | atom (text : List Char)
  | str (s : List Char)
  | list (xs : List Val)
  | tuple (xs : List Val)
  | array (tolist : Val)
  | inst (cname : List Char) (attrs : List (List Char × Val))

/-- util.py:74-103 `array_to_list_dict`, on one attribute value: lists and tuples become lists, element by element; an array becomes
its `tolist`; anything else has no method `tolist` and is left alone -/
def arrayToList : Val → Val
  | .list xs => .list (xs.map arrayToList)
  | .tuple xs => .list (xs.map arrayToList)
  | .array t => t
  | .atom w => .atom w
  | .str s => .str s
  | .inst c as => .inst c as
termination_by v => sizeOf v
decreasing_by
  all_goals simp_wf
  all_goals rename_i h; have h1 := List.sizeOf_lt_of_mem h; omega

/-- Python's `', '.join(xs)` (objects.py:135-137) -/
def join : List (List Char) → List Char
  | [] => []
  | [x] => x
  | x :: y :: ys => x ++ [',', ' '] ++ join (y :: ys)

theorem sizeOf_arrayToList_le (v : Val) : sizeOf (arrayToList v) ≤ sizeOf v := by
  have key : ∀ xs : List Val, (∀ x ∈ xs, sizeOf (arrayToList x) ≤ sizeOf x) → sizeOf (xs.map arrayToList) ≤ sizeOf xs := by
    intro xs h
    induction xs with
    | nil => simp
    | cons x xs ih =>
      have h1 := h x (by simp)
      have h2 := ih (fun y hy => h y (by simp [hy]))
      simp only [List.map_cons, List.cons.sizeOf_spec]
      omega
  match v with
  | .list xs =>
    rw [arrayToList]
    have := key xs (fun x hx => by have := List.sizeOf_lt_of_mem hx; exact sizeOf_arrayToList_le x)
    simp only [Val.list.sizeOf_spec]; omega
  | .tuple xs =>
    rw [arrayToList]
    have := key xs (fun x hx => by have := List.sizeOf_lt_of_mem hx; exact sizeOf_arrayToList_le x)
    simp only [Val.list.sizeOf_spec, Val.tuple.sizeOf_spec]; omega
  | .array t => rw [arrayToList]; simp
  | .atom w => rw [arrayToList]
  | .str s => rw [arrayToList]
  | .inst c as => rw [arrayToList]
termination_by sizeOf v
decreasing_by
  all_goals simp_wf
  all_goals omega

/-- Python's `repr` (`{!r}`, objects.py:136): of a list and of a string (simplification: strings that need no escapes, in single quotes), and
`_Common.__repr__` (objects.py:133-140): class name, then the attributes that do not begin with an underscore, converted by
`array_to_list_dict`.  Simplification: tuples and arrays, which `array_to_list_dict` has removed, print like lists. -/
def repr : Val → List Char
  | .atom w => w
  | .str s => '\'' :: s ++ ['\'']
  | .list xs => '[' :: join (xs.map repr) ++ [']']
  | .tuple xs => '[' :: join (xs.map repr) ++ [']']
  | .array t => repr t
  | .inst c as =>
    c ++ ['('] ++ join ((as.filter fun nv => nv.1.head? != some '_').map fun nv => nv.1 ++ ['='] ++ repr (arrayToList nv.2)) ++ [')']
termination_by v => sizeOf v
decreasing_by
  all_goals simp_wf
  · rename_i h; have h1 := List.sizeOf_lt_of_mem h; omega
  · rename_i h; have h1 := List.sizeOf_lt_of_mem h; omega
  · rename_i h
    have h1 := List.sizeOf_lt_of_mem h
    have h2 : sizeOf nv = 1 + sizeOf nv.1 + sizeOf nv.2 := by cases nv; rfl
    have h3 := sizeOf_arrayToList_le nv.2
    omega

/-! ## The attributes of the classes, for objects which hold one position

`num x` and `int i` are the texts Python prints for the number `x` and the integer `i`. -/

variable {α : Type} (num : α → List Char) (int : ℤ → List Char)

/-- a row, a column and a matrix as numpy arrays -/
def row (v : V3 α) : Val := .list [.atom (num v.x), .atom (num v.y), .atom (num v.z)]
/-- a column of shape `(3, 1)` (the attribute `normal` of objects.py:466, `pvector` of objects.py:636) -/
def column (v : V3 α) : Val := .array (.list [.list [.atom (num v.x)], .list [.atom (num v.y)], .list [.atom (num v.z)]])
/-- the attribute `R_Ee` (objects.py:1213) -/
def matrix (M : M3 α) : Val := .array (.list [row num M.r0, row num M.r1, row num M.r2])

/-- the attribute `name` of a frame (objects.py:1212) -/
def nameVal : EllKey → Val
  | .str s => .str s.toList
  | .int i => .atom (int i)

/-- objects.py:1210-1213: the `__dict__` of a `FrameE` -/
def frameVal (F : FrameE α) : Val :=
  .inst "FrameE".toList [("a".toList, .atom (num F.a)), ("f".toList, .atom (num F.f)), ("name".toList, nameVal int F.name),
    ("R_Ee".toList, matrix num F.R_Ee)]

/-- objects.py:209-210: the `__dict__` of a `GeoPoint`; the coordinates are arrays of shape `()` -/
def geoVal (p : GeoPoint α) : Val :=
  .inst "GeoPoint".toList [("latitude".toList, .array (.atom (num p.latitude))), ("longitude".toList, .array (.atom (num p.longitude))),
    ("z".toList, .array (.atom (num p.z))), ("frame".toList, frameVal num int p.frame)]

/-- objects.py:466-468: the `__dict__` of an `Nvector` -/
def nvecVal (p : Nvector α) : Val :=
  .inst "Nvector".toList [("normal".toList, column num p.normal), ("z".toList, .atom (num p.z)), ("frame".toList, frameVal num int p.frame)]

/-- objects.py:636-638: the `__dict__` of an `ECEFvector`; `scalar` is `True` for one position -/
def ecefVal (p : ECEFvector α) : Val :=
  .inst "ECEFvector".toList [("pvector".toList, column num p.pvector), ("frame".toList, frameVal num int p.frame), ("scalar".toList, .atom "True".toList)]

/-- objects.py:1423, 1474-1476, 1517-1522: the `__dict__` of a local frame -/
def localVal : LocalFrame α → Val
  | .N nv => .inst "FrameN".toList [("nvector".toList, nvecVal num int nv)]
  | .L nv wa => .inst "FrameL".toList [("nvector".toList, nvecVal num int nv), ("wander_azimuth".toList, .atom (num wa))]
  | .B nv yaw pitch roll => .inst "FrameB".toList [("nvector".toList, nvecVal num int nv), ("yaw".toList, .atom (num yaw)),
      ("pitch".toList, .atom (num pitch)), ("roll".toList, .atom (num roll))]

/-- objects.py:636-638: the `__dict__` of a `Pvector` -/
def pvecVal (p : Pvector α) : Val :=
  .inst "Pvector".toList [("pvector".toList, column num p.pvector), ("frame".toList, localVal num int p.frame), ("scalar".toList, .atom "True".toList)]

/-- a position object of any class (objects.py:133-140) -/
def posVal : Position α → Val
  | .geo p => geoVal num int p
  | .nvec p => nvecVal num int p
  | .ecef p => ecefVal num int p
  | .pvec p => pvecVal num int p

end Nv.Repr
