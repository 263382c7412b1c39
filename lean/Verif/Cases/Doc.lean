import Verif.Props.Doc

/-!
# Concrete cases of C161
-/

namespace Verif.Cases.Doc

open Nv.Doc Spec.Doc

/-- documentation with a field, a pair of braces and an inner indentation -/
def doc : List Char := "    Head {{x}}\n      {super}\n   \n    end".toList
/-- examples that have braces of their own -/
def ex : List Char := "d = {}".toList

theorem doc_dedent : dedent doc = "Head {{x}}\n  {super}\n\nend".toList := by decide +kernel

theorem help_filled : use_docstring ex (some doc) = "Head {x}\n  d = {}\n\nend".toList := by
  have h : ∀ c : Char, c ∈ "Head x\n  end".toList → c ≠ '{' ∧ c ≠ '}' := by decide +kernel
  have hc : ∀ t : List Char, (∀ c ∈ t, c ∈ "Head x\n  end".toList) → ∃ ps, written ps = t ∧ filled ex ps = t := by
    intro t
    induction t with
    | nil => exact fun _ => ⟨[], rfl, rfl⟩
    | cons c t ih =>
      intro ht
      obtain ⟨ps, h1, h2⟩ := ih fun d hd => ht d (by simp [hd])
      refine ⟨.char c (h c (ht c (by simp))) :: ps, ?_, ?_⟩
      · change c :: written ps = _; rw [h1]
      · change c :: filled ex ps = _; rw [h2]
  have ha : ∀ ps qs, written (ps ++ qs) = written ps ++ written qs ∧ filled ex (ps ++ qs) = filled ex ps ++ filled ex qs := by
    intro ps qs; simp [written, filled]
  obtain ⟨p1, a1, b1⟩ := hc "Head ".toList (by decide +kernel)
  obtain ⟨p2, a2, b2⟩ := hc "x".toList (by decide +kernel)
  obtain ⟨p3, a3, b3⟩ := hc "\n  ".toList (by decide +kernel)
  obtain ⟨p4, a4, b4⟩ := hc "\n\nend".toList (by decide +kernel)
  have := C161_help_filled ex doc (p1 ++ ([.opening] ++ (p2 ++ ([.closing] ++ (p3 ++ ([.super] ++ p4)))))) (by
    rw [doc_dedent]
    simp only [ha, a1, a2, a3, a4]
    decide +kernel)
  rw [this]
  simp only [ha, b1, b2, b3, b4]
  decide +kernel

/-- a single brace: the documentation is not a template, and stays with its indentation -/
example : use_docstring ex (some "  a { b".toList) = "  a { b".toList := by
  refine C161_help_kept ex _ ?_ (by decide +kernel)
  rintro ⟨ps, h⟩
  have h1 := format_written ex ps
  rw [← h] at h1
  have h2 : format ex (dedent "  a { b".toList) = none := by decide +kernel
  rw [h2] at h1
  cases h1

example : use_docstring ex none = ex := C161_help_none ex
example : use_docstring ex (some "   a\n   b".toList) = "a\nb".toList :=
  (C161_help_plain ex _ (by decide +kernel)).trans (by decide +kernel)

/-- the margin of the lines of `doc` is four blanks -/
example : Lines doc ["    Head {{x}}".toList, "      {super}".toList, "   ".toList, "    end".toList] ∧
    Lines (dedent doc) ["Head {{x}}".toList, "  {super}".toList, [], "end".toList] := by
  rw [lines_iff, lines_iff]
  decide +kernel

example : ∃ w : List Char, (∀ c ∈ w, Blank c) ∧ "    end".toList = w ++ "end".toList := by
  obtain ⟨w, h1, h2, -⟩ := C161_dedent doc ["    Head {{x}}".toList, "      {super}".toList, "   ".toList, "    end".toList]
    ["Head {{x}}".toList, "  {super}".toList, [], "end".toList] (by rw [lines_iff]; decide +kernel) (by rw [lines_iff]; decide +kernel)
  refine ⟨w, h1, ?_⟩
  cases h2 with | cons _ h2 =>
  cases h2 with | cons _ h2 =>
  cases h2 with | cons _ h2 =>
  cases h2 with | cons h _ =>
  refine h.2 fun h => ?_
  have := h 'e' (by decide +kernel)
  revert this
  rw [← isBlank_iff]
  decide

/-- `C161_indent` applies to a text with a line of blanks -/
example := C161_indent "a\n \nb".toList 4 ' ' ["a".toList, " ".toList, "b".toList] ["    a".toList, " ".toList, "    b".toList]
  (by rw [lines_iff]; decide +kernel) (by decide) (by rw [lines_iff]; decide +kernel)

example : indent "a\n \nb".toList = "    a\n \n    b".toList := by decide +kernel
example : Lines (indent "a\n \nb".toList) ["    a".toList, " ".toList, "    b".toList] := by
  rw [lines_iff]
  decide +kernel

/-- the head line of a documentation with parameters -/
theorem head : get_h1line (some "\n Sum.\n\n Parameters\n ---".toList) = "Sum.".toList := by decide +kernel

example : Stripped "\n Sum.\n\n ".toList "Sum.".toList := by
  have h := (C161_head_line "\n Sum.\n\n Parameters\n ---".toList).1 "\n Sum.\n\n ".toList " ---".toList (by decide +kernel) (by
    intro a' b' h
    have hb : before "Parameters\n".toList "\n Sum.\n\n Parameters\n ---".toList = "\n Sum.\n\n ".toList := by decide +kernel
    by_contra hlt
    have h1 : ∀ n < "\n Sum.\n\n ".toList.length,
        ¬ "Parameters\n".toList.isPrefixOf ("\n Sum.\n\n Parameters\n ---".toList.drop n) = true := by decide +kernel
    refine h1 a'.length (by omega) ?_
    rw [h, List.append_assoc, List.drop_left, List.isPrefixOf_iff_prefix]
    exact List.prefix_append _ _)
  rwa [head] at h

/-- a module with a class and two functions -/
def odict : List Entry :=
  [⟨"f".toList, false, some "F".toList⟩, ⟨"A".toList, true, some " \nClass\n\nParameters\nx".toList⟩, ⟨"g".toList, false, none⟩]

example : module_doc "M\n".toList odict "free".toList =
    ("M\nClasses in module\n------------------\nA:\n    Class\n\nFunctions in module\n-------------------\nf:\n    F\ng:\n\n\n" ++
      "License\n-------\nfree").toList := by decide +kernel

example : "A:\n    Class".toList <:+: module_doc "M\n".toList odict "free".toList :=
  (C161_module_doc "M\n".toList "free".toList odict ⟨"A".toList, true, some " \nClass\n\nParameters\nx".toList⟩ (by simp [odict])).2.2

example : Before "A:\n    Class".toList "f:\n    F".toList (module_doc "M\n".toList odict "free".toList) :=
  C161_module_doc_order "M\n".toList "free".toList odict ⟨"A".toList, true, some " \nClass\n\nParameters\nx".toList⟩
    ⟨"f".toList, false, some "F".toList⟩ (Or.inl (by simp [odict]))

/-- two examples -/
def d : Examples where
  header i := if i = 1 ∨ i = 2 then some "\n**E**\n-----".toList else none
  txt i := if i = 1 ∨ i = 2 then some "\nProblem".toList else none
  obj_solution i := if i = 1 ∨ i = 2 then some "\n>>> o".toList else none
  fun_solution i := if i = 1 then some "\n>>> f".toList else none

example : d.get_examples_no_header [1, 2] = .ok "\n**E**\nProblem\n>>> o\n**E**\nProblem\n>>> o".toList :=
  (C161_examples_no_header d [1, 2] true (fun _ => "\n**E**".toList) (fun _ => "-----".toList) (fun _ => "\nProblem".toList)
    (fun _ => "\n>>> o".toList) (by decide +kernel) (by decide +kernel) (by decide +kernel)).trans (congrArg Except.ok (by decide +kernel))
example : d.get_examples [1] false = .ok ("\n**E**\n-----\nProblem\n>>> f".toList ++ link 1) :=
  (C161_examples d [1] false (fun _ => "\n**E**\n-----".toList) (fun _ => "\nProblem".toList) (fun _ => "\n>>> f".toList)
    (by decide +kernel) (by decide +kernel) (by decide +kernel)).trans (congrArg Except.ok (by decide +kernel))
example : d.get_examples [1, 2] false = .error .KeyError := (C161_examples_KeyError d [1, 2] false).1.2 ⟨2, by simp, by decide +kernel⟩

end Verif.Cases.Doc
