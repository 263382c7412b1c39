import Mathlib.Data.List.Basic

/-!
# Help texts, without reference to the model

A text is a list of characters; a template is a list of pieces.
-/

namespace Spec.Doc

/-- the pieces of a template of `str.format`: an ordinary character, a brace, or the field that is replaced -/
inductive Piece where
  | char (c : Char) (h : c ≠ '{' ∧ c ≠ '}')
  | opening
  | closing
  | super

/-- how a piece is written in the template -/
def Piece.written : Piece → List Char
  | .char c _ => [c]
  | .opening => ['{', '{']
  | .closing => ['}', '}']
  | .super => ['{', 's', 'u', 'p', 'e', 'r', '}']

/-- what a piece becomes when `text` is put into the field -/
def Piece.filled (text : List Char) : Piece → List Char
  | .char c _ => [c]
  | .opening => ['{']
  | .closing => ['}']
  | .super => text

/-- the template as it is written -/
def written (ps : List Piece) : List Char := (ps.map Piece.written).flatten
/-- the template with `text` put into all its fields -/
def filled (text : List Char) (ps : List Piece) : List Char := (ps.map (Piece.filled text)).flatten

/-- `ls` are the lines of `text`: no line has a line end in it, and `text` is the lines with line ends between them -/
def Lines (text : List Char) (ls : List (List Char)) : Prop :=
  ls ≠ [] ∧ (∀ l ∈ ls, '\n' ∉ l) ∧ text = List.intercalate ['\n'] ls

/-- a blank or a tab -/
def Blank (c : Char) : Prop := c = ' ' ∨ c = '\t'
/-- white space of ASCII -/
def White (c : Char) : Prop := c = ' ' ∨ c = '\t' ∨ c = '\n' ∨ c = '\r' ∨ c = '\x0b' ∨ c = '\x0c'

/-- `s` is `t` without the white space at its two ends -/
def Stripped (t s : List Char) : Prop :=
  (∃ u v, t = u ++ s ++ v ∧ (∀ c ∈ u, White c) ∧ ∀ c ∈ v, White c) ∧ (∀ c, s.head? = some c → ¬ White c) ∧
    ∀ c, s.getLast? = some c → ¬ White c

/-- `a` stands before `b` in `t`, and the two do not overlap -/
def Before (a b t : List Char) : Prop := ∃ x y z, t = x ++ a ++ y ++ b ++ z

/-- the line with the link to an example -/
def link (number : Nat) : List Char :=
  ("See also\n    " ++ "`Example " ++ toString number ++ " at www.navlab.net " ++
    "<http://www.navlab.net/nvector/#example_" ++ toString number ++ ">" ++ "`_\n" ++ "\n").toList

end Spec.Doc
