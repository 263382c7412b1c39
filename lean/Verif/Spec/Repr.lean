import Verif.Model.Repr

/-!
# Specification: what the text of an object should tell
-/

namespace Nv.Repr

/-- the information in a value, without regard to whether a sequence is a list, a tuple or an array, and without private attributes -/
inductive Tree where
  | atom (text : List Char)
  | str (s : List Char)
  | seq (ts : List Tree)
  | obj (cname : List Char) (attrs : List (List Char × Tree))

/-- the attribute is public: its name does not begin with an underscore -/
def isPublic (name : List Char) : Bool := name.head? != some '_'

/-- the information in a value -/
def content : Val → Tree
  | .atom w => .atom w
  | .str s => .str s
  | .list xs => .seq (xs.map content)
  | .tuple xs => .seq (xs.map content)
  | .array t => content t
  | .inst c as => .obj c ((as.filter fun nv => isPublic nv.1).map fun nv => (nv.1, content nv.2))
termination_by v => sizeOf v
decreasing_by
  all_goals simp_wf
  · rename_i h; have h1 := List.sizeOf_lt_of_mem h; omega
  · rename_i h; have h1 := List.sizeOf_lt_of_mem h; omega
  · rename_i h
    have h1 := List.sizeOf_lt_of_mem h
    have h2 : sizeOf nv = 1 + sizeOf nv.1 + sizeOf nv.2 := by cases nv; rfl
    omega

/-- characters of the texts of numbers and of names: no punctuation -/
def plain (c : Char) : Prop := c ∉ [',', ' ', '(', ')', '[', ']', '=', '\'']

/-- the text of a number, a name of a class or of an attribute -/
def Word (w : List Char) : Prop := w ≠ [] ∧ ∀ c ∈ w, plain c

/-- numbers and names are words, strings contain no quote -/
inductive Printable : Val → Prop
  | atom {w} : Word w → Printable (.atom w)
  | str {s} : '\'' ∉ s → Printable (.str s)
  | list {xs} : (∀ x ∈ xs, Printable x) → Printable (.list xs)
  | tuple {xs} : (∀ x ∈ xs, Printable x) → Printable (.tuple xs)
  | array {t} : Printable t → Printable (.array t)
  | inst {c as} : Word c → (∀ nv ∈ as, Word nv.1) → (∀ nv ∈ as, Printable nv.2) → Printable (.inst c as)

end Nv.Repr
