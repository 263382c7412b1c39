import Verif.Model.Util

/-!
# Model of the help texts: `/repo/src/nvector/_common.py:1-74` and `_examples.py:8-15, 754-773`

A text is a list of characters.  Simplifications: line ends are `'\n'` (Python's `splitlines` also knows `'\r'`, form feed, ...) and white
space is that of ASCII; the texts of the package have no others.
-/

namespace Nv.Doc

/-- a text (Python `str`, for _common.py) -/
abbrev Str := List Char

/-- blanks and tabs (the character class of the regular expressions of `textwrap.dedent`, used in _common.py:14) -/
def isBlank (c : Char) : Bool := c = ' ' || c = '\t'
/-- white space of `str.strip` (ASCII; used in _common.py:11, 21) -/
def isSpace (c : Char) : Bool := c = ' ' || c = '\t' || c = '\n' || c = '\r' || c = '\x0b' || c = '\x0c'

/-- `text.split('\n')` (Python, for textwrap, used in _common.py:14) -/
def split : Str → List Str
  | [] => [[]]
  | c :: r =>
    if c = '\n' then [] :: split r
    else match split r with
      | l :: ls => (c :: l) :: ls
      | [] => [[c]]

/-- `'\n'.join(lines)` (Python, for _common.py:27) -/
def join : List Str → Str
  | [] => []
  | [l] => l
  | l :: ls => l ++ '\n' :: join ls

/-- the longest common beginning of two texts (textwrap, used in _common.py:14) -/
def common : Str → Str → Str
  | a :: s, b :: t => if a = b then a :: common s t else []
  | _, _ => []

/-- the longest common beginning of several texts; `none` for no text (textwrap, used in _common.py:14) -/
def margin : List Str → Option Str
  | [] => none
  | s :: ss => match margin ss with
    | none => some s
    | some m => some (common s m)

/-- `textwrap.dedent(text)`: lines of blanks become empty, and the beginning that the blanks of all other lines have in common is removed
(Python's standard library, used in _common.py:14, 68) -/
def dedent (text : Str) : Str :=
  let lines := (split text).map fun l => if l.all isBlank then [] else l
  match margin ((lines.filter (· ≠ [])).map (·.takeWhile isBlank)) with
  | none => join lines
  | some m => join (lines.map (·.drop m.length))

/-- `text.splitlines(True)`: the lines with their ends; no empty last line (Python, for textwrap.indent, used in _common.py:11) -/
def splitlines : Str → List Str
  | [] => []
  | c :: r =>
    if c = '\n' then [c] :: splitlines r
    else match r with
      | [] => [[c]]
      | _ => match splitlines r with
        | l :: ls => (c :: l) :: ls
        | [] => [[c]]

/-- `textwrap.indent(text, prefix)`: the prefix before every line that has more than white space (_common.py:10-11) -/
def indentWith (pre text : Str) : Str := ((splitlines text).map fun l => if l.all isSpace then l else pre ++ l).flatten

/-- _common.py:10-11 `indent(text, amount=4, ch=' ')` -/
def indent (text : Str) (amount : ℕ := 4) (ch : Char := ' ') : Str := indentWith (List.replicate amount ch) text

/-- `text.partition(sep)[0]` for a separator that is not empty: the text before the first occurrence of `sep`, or all of it
(Python, for _common.py:21) -/
def before (sep : Str) : Str → Str
  | [] => []
  | c :: r => if sep.isPrefixOf (c :: r) then [] else c :: before sep r

/-- `text.rpartition('\n')[0]`: the text before the last line end, or nothing (Python, for _examples.py:772) -/
def beforeLastLine : Str → Str
  | [] => []
  | c :: r => if '\n' ∈ r then c :: beforeLastLine r else []

/-- `text.strip()` (Python, for _common.py:21) -/
def strip (text : Str) : Str := ((text.dropWhile isSpace).reverse.dropWhile isSpace).reverse

/-- _common.py:17-22 `_get_h1line(object_)`; the argument is `object_.__doc__` -/
def get_h1line : Option Str → Str
  | none => []
  | some doc => if doc = [] then [] else strip (before "Parameters\n".toList doc)

/-- an entry of the dictionary of public names: the name, whether it is a class, and its `__doc__` (_common.py:24-31) -/
structure Entry where
  name : Str
  isClass : Bool
  doc : Option Str

/-- the text of one entry (_common.py:27-31) -/
def Entry.text (e : Entry) : Str := e.name ++ ":\n".toList ++ indent (get_h1line e.doc)

/-- `"{} in module\n{}----------\n{}\n\n".format(what, '-'*n, summary)` (_common.py:32, 35, 37) -/
def section_ (what : String) (n : ℕ) (summary : Str) : Str :=
  what.toList ++ " in module\n".toList ++ List.replicate n '-' ++ "----------\n".toList ++ summary ++ "\n\n".toList

/-- _common.py:24-38 `_make_summary(odict)` -/
def make_summary (odict : List Entry) : Str :=
  let class_summary := join ((odict.filter (·.isClass)).map Entry.text)
  let fun_summary := join ((odict.filter (!·.isClass)).map Entry.text)
  let summary := if class_summary ≠ [] then section_ "Classes" 8 class_summary else []
  if fun_summary ≠ [] then summary ++ section_ "Functions" 9 fun_summary else summary

/-- `__doc__` of the modules (core.py:851-854, objects.py:1552-1555, rotation.py:514-517, util.py:514-517) -/
def module_doc (doc : Str) (odict : List Entry) (license : Str) : Str :=
  doc ++ make_summary odict ++ "License\n-------\n".toList ++ license

/-- `text.format(super=docstring)`; `none` if it raises an exception.  Simplification: a field that begins with `super` and goes on
with a conversion, a format, an attribute or an index (`{super!r}`) raises here; no theorem speaks about such fields.
(Python, for _common.py:68) -/
def format (docstring : Str) : Str → Option Str
  | '{' :: '{' :: r => (format docstring r).map ('{' :: ·)
  | '}' :: '}' :: r => (format docstring r).map ('}' :: ·)
  | '{' :: 's' :: 'u' :: 'p' :: 'e' :: 'r' :: '}' :: r => (format docstring r).map (docstring ++ ·)
  | '{' :: _ => none
  | '}' :: _ => none
  | c :: r => (format docstring r).map (c :: ·)
  | [] => some []

/-- _common.py:55-74 `use_docstring(docstring)`: the `__doc__` of the decorated function or class, from its `__doc__` before -/
def use_docstring (docstring : Str) : Option Str → Str
  | none => docstring
  | some func_docstring => match format docstring (dedent func_docstring) with
    | some new_docstring => new_docstring
    | none => func_docstring

/-- the texts of the examples in the module: header, problem, object-oriented and functional solution of the example with a number
(`d = dict(globals())`, _examples.py:756, 766) -/
structure Examples where
  header : ℕ → Option Str
  txt : ℕ → Option Str
  obj_solution : ℕ → Option Str
  fun_solution : ℕ → Option Str

/-- an entry of a dictionary (Python, for _examples.py:760, 772) -/
def lookup (o : Option Str) : Except PyErr Str :=
  match o with
  | some s => .ok s
  | none => .error .KeyError

/-- _examples.py:8-10 `navlab_example(number)` -/
def navlab_example (number : ℕ) : Str :=
  let link := "<http://www.navlab.net/nvector/#example_".toList ++ (toString number).toList ++ ">".toList
  "`Example ".toList ++ (toString number).toList ++ " at www.navlab.net ".toList ++ link ++ "`_\n".toList

/-- _examples.py:13-15 `see_also(number)` -/
def see_also (number : ℕ) : Str := "See also\n    ".toList ++ navlab_example number ++ "\n".toList

/-- the part of one example in _examples.py:760-761 and 771-773 -/
def Examples.one (d : Examples) (OO hdr : Bool) (i : ℕ) : Except PyErr Str := do
  let h ← lookup (d.header i)
  let t ← lookup (d.txt i)
  let s ← lookup (if OO then d.obj_solution i else d.fun_solution i)
  pure ((if hdr then h else beforeLastLine h) ++ t ++ s ++ if hdr then see_also i else [])

/-- one example after the other (the generator expressions of _examples.py:760-761 and 771-773) -/
def Examples.concat (d : Examples) (OO hdr : Bool) : List ℕ → Except PyErr Str
  | [] => pure []
  | i :: is => do
    let a ← d.one OO hdr i
    let b ← d.concat OO hdr is
    pure (a ++ b)

/-- _examples.py:754-761 `get_examples(indices, OO=True)` -/
def Examples.get_examples (d : Examples) (indices : List ℕ) (OO : Bool := true) : Except PyErr Str := d.concat OO true indices

/-- _examples.py:764-773 `get_examples_no_header(indices, OO=True)` -/
def Examples.get_examples_no_header (d : Examples) (indices : List ℕ) (OO : Bool := true) : Except PyErr Str := d.concat OO false indices

end Nv.Doc
