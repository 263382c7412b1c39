import Verif.Vec

/-!
# Model of `/repo/src/nvector/util.py` (one column at a time)
-/

namespace Nv

/-- Python exceptions raised by the modelled code (for example objects.py:616, 622, 1542, the KeyError of util.py:470) -/
inductive PyErr where
  | ValueError
  | KeyError
  | IndexError
  | AttributeError
  | NotImplementedError
  deriving DecidableEq, Repr

section
variable {α : Type} [PyFloat α]
open PyFloat

/-- util.py:476-510 `unit(vector, norm_zero_vector=1)` on one column.
`current_norm = norm(vector)`; columns whose norm `== 0` become `(1, 0, 0) * norm_zero_vector`, the others
`vector / (current_norm + _TINY)`.  (The Python code first divides every column and then overwrites the zero ones.) -/
def unit (v : V3 α) (norm_zero_vector : α := lit 1) : V3 α :=
  let current_norm := norm3 v
  if eq current_norm (lit 0) then
    ⟨lit 1 * norm_zero_vector, lit 0 * norm_zero_vector, lit 0 * norm_zero_vector⟩
  else div3 v (addTiny current_norm)

/-- util.py:242-257 `_check_length_deviation(n_E, limit=0.1)`: `true` when the warning is issued.
Only the first column of the array is examined (`n_E[:, 0]`); an array is given by the list of its columns and the empty
array raises `IndexError`. -/
def check_length_deviation (n_E : List (V3 α)) (limit : α := lit 0.1) : Except PyErr Bool :=
  match n_E with
  | [] => .error .IndexError
  | c :: _ => .ok (lt limit (abs (norm3 c - lit 1)))

/-- `np.rad2deg(x)` = `x * (180 / pi)` (used in util.py:288-289) -/
def rad2deg (x : α) : α := x * (lit 180 / pi)
/-- `np.deg2rad(x)` = `x * (pi / 180)` (used in util.py:320-321) -/
def deg2rad (x : α) : α := x * (pi / lit 180)

/-- result of `deg`/`rad`: a bare value or a tuple (util.py:287-289, 319-321) -/
inductive OneOrTuple (α : Type) where
  | one (x : α)
  | tuple (xs : List α)

/-- util.py:260-289 `deg(*rad_angles)` -/
def deg (rad_angles : List α) : OneOrTuple α :=
  match rad_angles with
  | [x] => .one (rad2deg x)
  | xs => .tuple (xs.map rad2deg)

/-- util.py:292-321 `rad(*deg_angles)` -/
def rad (deg_angles : List α) : OneOrTuple α :=
  match deg_angles with
  | [x] => .one (deg2rad x)
  | xs => .tuple (xs.map deg2rad)

/-- util.py:18 `_EPS = np.finfo(float).eps` = 2^-52 -/
def EPS : ℚ := 1 / 4503599627370496

/-- util.py:395-413 `nthroot(x, n)` for `n ≥ 1` -/
def nthroot (x : α) (n : ℕ) : α :=
  let y := rootn n x
  if !(eq x (lit 0)) && lt (lit EPS * abs x) (lit 1)
  then y - (powNat y n - x) / (lit n * powNat y (n - 1))
  else y

/-- `np.isclose(a, b, rtol, atol, equal_nan)` of numpy on one element: `|a-b| <= atol + rtol*|b|` for finite values,
otherwise `a == b` (or both NaN with `equal_nan`). (used in util.py:175-177) -/
def npIsclose (a b rtol atol : α) (equal_nan : Bool) : Bool :=
  if isfinite a && isfinite b then le (abs (a - b)) (atol + rtol * abs b)
  else eq a b || (equal_nan && isnan a && isnan b)

/-- util.py:106-178 `isclose(a, b, rtol=1e-9, atol=0.0, equal_nan=False)` on one element -/
def isclose (a b : α) (rtol : α := lit 1e-9) (atol : α := lit 0) (equal_nan : Bool := false) : Bool :=
  if isfinite a && isfinite b then
    let abs_tol := maximum atol (rtol * maximum (abs a) (abs b))
    npIsclose a b (lit 0) abs_tol equal_nan
  else npIsclose a b (lit 1e-5) (lit 1e-8) equal_nan

/-- util.py:181-239 `allclose(a, b, rtol=1e-7, atol=1e-14)` = `np.all(isclose(...))`, on lists of paired elements (the
two arrays after broadcasting). -/
def allclose (ab : List (α × α)) (rtol : α := lit 1e-7) (atol : α := lit 1e-14) (equal_nan : Bool := false) : Bool :=
  ab.all fun p => isclose p.1 p.2 rtol atol equal_nan

/-- util.py:20 `Ellipsoid = namedtuple('Ellipsoid', 'a f name')` -/
structure Ellipsoid (α : Type) where
  a : α
  f : α
  name : String

/-- util.py:22-42 `ELLIPSOID` -/
def ELLIPSOID : List (ℤ × Ellipsoid α) := [
  (1, ⟨lit 6377563.3960, lit 1 / lit 299.3249646, "Airy 1858"⟩),
  (2, ⟨lit 6377340.189, lit 1 / lit 299.3249646, "Airy Modified"⟩),
  (3, ⟨lit 6378160, lit 1 / lit 298.25, "Australian National"⟩),
  (4, ⟨lit 6377397.155, lit 1 / lit 299.1528128, "Bessel 1841"⟩),
  (5, ⟨lit 6378249.145, lit 1 / lit 293.465, "Clarke 1880"⟩),
  (6, ⟨lit 6377276.345, lit 1 / lit 300.8017, "Everest 1830"⟩),
  (7, ⟨lit 6377304.063, lit 1 / lit 300.8017, "Everest Modified"⟩),
  (8, ⟨lit 6378166.0, lit 1 / lit 298.3, "Fisher 1960"⟩),
  (9, ⟨lit 6378150.0, lit 1 / lit 298.3, "Fisher 1968"⟩),
  (10, ⟨lit 6378270.0, lit 1 / lit 297, "Hough 1956"⟩),
  (11, ⟨lit 6378388.0, lit 1 / lit 297, "International (Hayford)/European Datum (ED50)"⟩),
  (12, ⟨lit 6378245.0, lit 1 / lit 298.3, "Krassovsky 1938"⟩),
  (13, ⟨lit 6378145, lit 1 / lit 298.25, "NWL-9D  (WGS 66)"⟩),
  (14, ⟨lit 6378160, lit 1 / lit 298.25, "South American 1969 (SAD69"⟩),
  (15, ⟨lit 6378136, lit 1 / lit 298.257, "Soviet Geod. System 1985"⟩),
  (16, ⟨lit 6378135, lit 1 / lit 298.26, "WGS 72"⟩),
  (17, ⟨lit 6378206.4, lit 1 / lit 294.9786982138, "Clarke 1866    (NAD27)"⟩),
  (18, ⟨lit 6378137.0, lit 1 / lit 298.257223563, "GRS80 / WGS84  (NAD83)"⟩),
  (19, ⟨lit 6378137, lit 298.257222101, "ETRS89"⟩)]

/-- util.py:43-71 `ELLIPSOID_IX` -/
def ELLIPSOID_IX : List (String × ℤ) := [
  ("airy1858", 1), ("airymodified", 2), ("australiannational", 3), ("bessel", 4), ("bessel1841", 4),
  ("clarke1880", 5), ("everest1830", 6), ("everestmodified", 7), ("fisher1960", 8), ("fisher1968", 9),
  ("hough1956", 10), ("hough", 10), ("international", 11), ("hayford", 11), ("ed50", 11), ("krassovsky", 12),
  ("krassovsky1938", 12), ("nwl-9d", 13), ("wgs66", 13), ("southamerican1969", 14), ("sad69", 14),
  ("sovietgeod.system1985", 15), ("wgs72", 16), ("clarke1866", 17), ("nad27", 17), ("grs80", 18), ("wgs84", 18),
  ("nad83", 18)]

/-- the argument of `get_ellipsoid`: a string or an integer (simplification: no floats, bools or other hashables) (util.py:416) -/
inductive EllKey where
  | str (s : String)
  | int (i : ℤ)

/-- util.py:467 `name.lower().replace(' ', '')` (simplification: ASCII letters only, as `Char.toLower`) -/
def normName (s : String) : String := String.ofList ((s.toList.map Char.toLower).filter (· ≠ ' '))

/-- util.py:416-470 `get_ellipsoid(name)`.  A string that is no alias is itself looked up in the integer-keyed table
(`ELLIPSOID_IX.get(name, name)`), which raises `KeyError`. -/
def get_ellipsoid (name : EllKey) : Except PyErr (Ellipsoid α) :=
  let id? : Option ℤ := match name with
    | .str s => ELLIPSOID_IX.lookup (normName s)
    | .int i => some i
  match id? with
  | none => .error .KeyError
  | some i => match ELLIPSOID.lookup i with
    | none => .error .KeyError
    | some e => .ok e

end

end Nv
