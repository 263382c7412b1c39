import Verif.Lemmas.Doc

/-!
# C161: the help texts

`use_docstring` fills the examples into the documentation of a function, `get_examples` collects them, and the module documentation
lists every public name.
-/

namespace Nv.Doc

open Spec.Doc

/-- **C161**: if the documentation, dedented, is a template, the new documentation is the template with the text of the examples put
literally into every field, braces of the examples included. -/
theorem C161_help_filled (examples doc : List Char) (ps : List Piece) (h : dedent doc = written ps) :
    use_docstring examples (some doc) = filled examples ps := by
  simp only [use_docstring]
  rw [h, format_written]

/-- **C161**: if the documentation, dedented, is not a template (a single brace, another field), the decorator leaves it as it is.
(Fields `{super!..}`, `{super:..}`, `{super.x}`, `{super[..]}` are excluded: the model says nothing about them.) -/
theorem C161_help_kept (examples doc : List Char) (h : ¬ ∃ ps, dedent doc = written ps)
    (_hx : ∀ c ∈ ['!', ':', '.', '['], ¬ ['{', 's', 'u', 'p', 'e', 'r', c] <:+: dedent doc) :
    use_docstring examples (some doc) = doc := by
  simp only [use_docstring]
  split
  · rename_i s hs
    exact absurd (written_of_format _ _ _ hs) h
  · rfl

/-- **C161**: a function without documentation gets the text itself. -/
theorem C161_help_none (text : List Char) : use_docstring text none = text := rfl

/-- **C161**: documentation without braces is only dedented, whatever text is supplied. -/
theorem C161_help_plain (examples doc : List Char) (h : '{' ∉ doc ∧ '}' ∉ doc) : use_docstring examples (some doc) = dedent doc := by
  have hm : ∀ c ∈ dedent doc, c ∈ doc ∨ c = '\n' := by
    intro c hc
    obtain ⟨w, hw, -⟩ := dedent_split doc
    have hj : ∀ ls : List (List Char), c ∈ join ls → (∃ l ∈ ls, c ∈ l) ∨ c = '\n' := by
      intro ls
      induction ls with
      | nil => simp [join]
      | cons l ls ih =>
        intro hcl
        by_cases hl : ls = []
        · subst hl; exact Or.inl ⟨l, by simp, hcl⟩
        · rw [join_cons l hl, List.mem_append, List.mem_cons] at hcl
          rcases hcl with h1 | h1 | h1
          · exact Or.inl ⟨l, by simp, h1⟩
          · exact Or.inr h1
          · rcases ih h1 with ⟨m, hm, h2⟩ | h2
            · exact Or.inl ⟨m, by simp [hm], h2⟩
            · exact Or.inr h2
    have hin : ∀ (ls : List (List Char)), ∀ l ∈ ls, ∀ c ∈ l, c ∈ join ls := fun ls l hl c hcl => (join_infix ls l hl).subset hcl
    rw [← join_split (dedent doc), hw] at hc
    rcases hj _ hc with ⟨l, hl, h1⟩ | h1
    · rw [List.mem_map] at hl
      obtain ⟨m, hm, rfl⟩ := hl
      left
      rw [← join_split doc]
      refine hin _ m hm c ?_
      rw [dedentLine] at h1
      split at h1
      · simp at h1
      · exact List.mem_of_mem_drop h1
    · exact Or.inr h1
  have hw : ∀ t : List Char, (∀ c ∈ t, c ≠ '{' ∧ c ≠ '}') → ∃ ps, t = written ps ∧ filled examples ps = t := by
    intro t
    induction t with
    | nil => intro _; exact ⟨[], rfl, rfl⟩
    | cons c t ih =>
      intro ht
      obtain ⟨ps, h1, h2⟩ := ih fun d hd => ht d (by simp [hd])
      refine ⟨.char c (ht c (by simp)) :: ps, ?_, ?_⟩
      · simp only [written, List.map_cons, Piece.written, List.flatten_cons, List.singleton_append, List.cons.injEq, true_and]
        exact h1
      · have : filled examples (.char c (ht c (by simp)) :: ps) = c :: filled examples ps := by simp [filled, Piece.filled]
        rw [this, h2]
  obtain ⟨ps, h1, h2⟩ := hw (dedent doc) fun c hc => by
    rcases hm c hc with h1 | rfl
    · exact ⟨fun e => h.1 (e ▸ h1), fun e => h.2 (e ▸ h1)⟩
    · decide
  rw [C161_help_filled examples doc ps h1, h2]

/-- **C161**: dedenting takes one common beginning `w` of blanks from all lines that have more than blanks, empties the others and keeps the
number of lines; no longer beginning is common. -/
theorem C161_dedent (doc : List Char) (ls ls' : List (List Char)) (h : Lines doc ls) (h' : Lines (dedent doc) ls') :
    ∃ w : List Char, (∀ c ∈ w, Blank c) ∧
      List.Forall₂ (fun l l' => ((∀ c ∈ l, Blank c) → l' = []) ∧ ((¬ ∀ c ∈ l, Blank c) → l = w ++ l')) ls ls' ∧
      ∀ v : List Char, (∀ c ∈ v, Blank c) → (∃ l ∈ ls, ¬ ∀ c ∈ l, Blank c) → (∀ l ∈ ls, (¬ ∀ c ∈ l, Blank c) → v <+: l) → v <+: w := by
  rw [lines_iff] at h h'
  subst h h'
  obtain ⟨w, h1, h2, h3, h4⟩ := dedent_split doc
  have hb : ∀ l : List Char, l.all isBlank = true ↔ ∀ c ∈ l, Blank c := by
    intro l
    simp [isBlank_iff]
  refine ⟨w, fun c hc => (isBlank_iff c).1 (h2 c hc), ?_, fun v hv he hl => h4 v (fun c hc => (isBlank_iff c).2 (hv c hc)) ?_ ?_⟩
  · rw [h1, List.forall₂_map_right_iff, List.forall₂_same]
    intro l hl
    refine ⟨fun ha => by rw [dedentLine, if_pos ((hb l).2 ha)], fun ha => ?_⟩
    · have ha : ¬ l.all isBlank = true := fun e => ha ((hb l).1 e)
      rw [dedentLine, if_neg ha]
      obtain ⟨r, hr⟩ := h3 l hl ha
      conv_lhs => rw [← hr]
      conv_rhs => rw [← hr, List.drop_left]
  · obtain ⟨l, hl, hn⟩ := he
    exact ⟨l, hl, fun e => hn ((hb l).1 e)⟩
  · intro l hll hn
    exact hl l hll fun e => hn ((hb l).2 e)

/-- **C161**: indenting puts `amount` characters before every line that has more than white space, and changes nothing else. -/
theorem C161_indent (text : List Char) (amount : ℕ) (ch : Char) (ls ls' : List (List Char)) (h : Lines text ls) (hch : ch ≠ '\n')
    (h' : Lines (indent text amount ch) ls') :
    List.Forall₂ (fun l l' => ((∀ c ∈ l, White c) → l' = l) ∧ ((¬ ∀ c ∈ l, White c) → l' = List.replicate amount ch ++ l)) ls ls' := by
  rw [lines_iff] at h h'
  subst h h'
  have hb : ∀ l : List Char, l.all isSpace = true ↔ ∀ c ∈ l, White c := by
    intro l
    simp [isSpace_iff]
  have he := indentWith_join (List.replicate amount ch) (split text) (split_ne_nil _) (split_no_newline _)
  rw [join_split] at he
  rw [indent, he, split_join, List.forall₂_map_right_iff, List.forall₂_same]
  · intro l _
    exact ⟨fun ha => by rw [if_pos ((hb l).2 ha)], fun ha => by rw [if_neg fun e => ha ((hb l).1 e)]⟩
  · simp [split_ne_nil]
  · intro l hl
    rw [List.mem_map] at hl
    obtain ⟨m, hm, rfl⟩ := hl
    have := split_no_newline text m hm
    split
    · exact this
    · simp only [List.mem_append, List.mem_replicate, not_or, not_and]
      exact ⟨fun _ e => hch e.symm, this⟩

/-- **C161**: the head line of an object is its documentation up to the first line end after the word `Parameters`, without the white space
at its ends; all of it if there is no such line; nothing if there is no documentation. -/
theorem C161_head_line (doc : List Char) :
    (∀ a b, doc = a ++ "Parameters\n".toList ++ b → (∀ a' b', doc = a' ++ "Parameters\n".toList ++ b' → a.length ≤ a'.length) →
      Stripped a (get_h1line (some doc))) ∧
    (¬ "Parameters\n".toList <:+: doc → Stripped doc (get_h1line (some doc))) ∧ get_h1line none = [] := by
  refine ⟨fun a b h hf => ?_, fun h => ?_, rfl⟩
  · have h0 : doc ≠ [] := by rw [h]; simp
    rw [get_h1line, if_neg h0, before_spec _ _ a b h (by simp) hf]
    exact strip_spec a
  · rw [get_h1line]
    split
    · rename_i h0
      subst h0
      exact ⟨⟨[], [], by simp⟩, by simp, by simp⟩
    · rw [before_absent _ _ h]
      exact strip_spec doc

section

variable (doc license : List Char) (odict : List Entry)

theorem Entry.text_ne_nil (e : Entry) : e.text ≠ [] := by simp [Entry.text]

theorem class_part (h : ∃ e ∈ odict, e.isClass = true) :
    join ((odict.filter (·.isClass)).map Entry.text) <:+: make_summary odict := by
  obtain ⟨e, he, hc⟩ := h
  have hn : join ((odict.filter (·.isClass)).map Entry.text) ≠ [] := by
    have := join_infix ((odict.filter (·.isClass)).map Entry.text) e.text (List.mem_map_of_mem (by simp [he, hc]))
    intro h0
    rw [h0, List.infix_nil] at this
    exact Entry.text_ne_nil e this
  have h1 : join ((odict.filter (·.isClass)).map Entry.text) <:+:
      section_ "Classes" 8 (join ((odict.filter (·.isClass)).map Entry.text)) := ⟨_, _, rfl⟩
  simp only [make_summary]
  rw [if_pos hn]
  split
  · exact h1.trans (List.prefix_append _ _).isInfix
  · exact h1

theorem fun_part (h : ∃ e ∈ odict, e.isClass = false) :
    join ((odict.filter (!·.isClass)).map Entry.text) <:+: make_summary odict := by
  obtain ⟨e, he, hc⟩ := h
  have hn : join ((odict.filter (!·.isClass)).map Entry.text) ≠ [] := by
    have := join_infix ((odict.filter (!·.isClass)).map Entry.text) e.text (List.mem_map_of_mem (by simp [he, hc]))
    intro h0
    rw [h0, List.infix_nil] at this
    exact Entry.text_ne_nil e this
  have h1 : join ((odict.filter (!·.isClass)).map Entry.text) <:+:
      section_ "Functions" 9 (join ((odict.filter (!·.isClass)).map Entry.text)) := ⟨_, _, rfl⟩
  simp only [make_summary]
  rw [if_pos hn]
  exact h1.trans (List.suffix_append _ _).isInfix

theorem summary_infix : make_summary odict <:+: module_doc doc odict license :=
  ⟨doc, "License\n-------\n".toList ++ license, by simp [module_doc]⟩

/-- **C161**: the documentation of a module begins with its own text, ends with the licence, and has the name and the indented head line of
every public name. -/
theorem C161_module_doc (e : Entry) (he : e ∈ odict) :
    doc <+: module_doc doc odict license ∧ "License\n-------\n".toList ++ license <:+ module_doc doc odict license ∧
    e.name ++ ":\n".toList ++ indent (get_h1line e.doc) 4 ' ' <:+: module_doc doc odict license := by
  refine ⟨⟨make_summary odict ++ "License\n-------\n".toList ++ license, by simp [module_doc]⟩,
    ⟨doc ++ make_summary odict, by simp [module_doc]⟩, List.IsInfix.trans ?_ (summary_infix doc license odict)⟩
  change e.text <:+: _
  rcases hc : e.isClass
  · exact (join_infix _ e.text (List.mem_map_of_mem (by simp [he, hc]))).trans (fun_part odict ⟨e, he, hc⟩)
  · exact (join_infix _ e.text (List.mem_map_of_mem (by simp [he, hc]))).trans (class_part odict ⟨e, he, hc⟩)

/-- **C161**: classes come before functions, and entries of the same kind in the order of the dictionary. -/
theorem C161_module_doc_order (a b : Entry)
    (h : a ∈ odict ∧ b ∈ odict ∧ a.isClass = true ∧ b.isClass = false ∨
      a.isClass = b.isClass ∧ ∃ x y z, odict = x ++ a :: y ++ b :: z) :
    Before (a.name ++ ":\n".toList ++ indent (get_h1line a.doc) 4 ' ') (b.name ++ ":\n".toList ++ indent (get_h1line b.doc) 4 ' ')
      (module_doc doc odict license) := by
  refine before_infix ?_ (summary_infix doc license odict)
  change Before a.text b.text _
  rcases h with ⟨ha, hb, hca, hcb⟩ | ⟨hc, x, y, z, rfl⟩
  · have h1 := join_infix ((odict.filter (·.isClass)).map Entry.text) a.text (List.mem_map_of_mem (by simp [ha, hca]))
    have h2 := join_infix ((odict.filter (!·.isClass)).map Entry.text) b.text (List.mem_map_of_mem (by simp [hb, hcb]))
    have hn1 : join ((odict.filter (·.isClass)).map Entry.text) ≠ [] := by
      intro h0; rw [h0, List.infix_nil] at h1; exact Entry.text_ne_nil a h1
    have hn2 : join ((odict.filter (!·.isClass)).map Entry.text) ≠ [] := by
      intro h0; rw [h0, List.infix_nil] at h2; exact Entry.text_ne_nil b h2
    simp only [make_summary]
    rw [if_pos hn1, if_pos hn2]
    exact before_of_infix (h1.trans ⟨_, _, rfl⟩) (h2.trans ⟨_, _, rfl⟩)
  · rcases hca : a.isClass
    · have hcb : b.isClass = false := by rw [← hc, hca]
      refine before_infix ?_ (fun_part _ ⟨a, by simp, hca⟩)
      refine join_before _ _ _ ((x.filter (!·.isClass)).map Entry.text) ((y.filter (!·.isClass)).map Entry.text)
        ((z.filter (!·.isClass)).map Entry.text) ?_
      simp [hca, hcb]
    · have hcb : b.isClass = true := by rw [← hc, hca]
      refine before_infix ?_ (class_part _ ⟨a, by simp, hca⟩)
      refine join_before _ _ _ ((x.filter (·.isClass)).map Entry.text) ((y.filter (·.isClass)).map Entry.text)
        ((z.filter (·.isClass)).map Entry.text) ?_
      simp [hca, hcb]

end

theorem pieces (a b c d e f g h i : String) : a.toList ++ (b.toList ++ c.toList ++ d.toList ++ (e.toList ++ f.toList ++ g.toList) ++
    h.toList) ++ i.toList = (a ++ b ++ c ++ d ++ e ++ f ++ g ++ h ++ i).toList := by
  simp [String.toList_append]

theorem see_also_eq (i : ℕ) : see_also i = link i := pieces _ _ _ _ _ _ _ _ _

/-- **C161**: the examples with the given numbers, one after the other: header, problem, solution of the kind asked for, link. -/
theorem C161_examples (d : Examples) (indices : List ℕ) (OO : Bool) (h t s : ℕ → List Char)
    (hh : ∀ i ∈ indices, d.header i = some (h i)) (ht : ∀ i ∈ indices, d.txt i = some (t i))
    (hs : ∀ i ∈ indices, (if OO then d.obj_solution i else d.fun_solution i) = some (s i)) :
    d.get_examples indices OO = .ok ((indices.map fun i => h i ++ t i ++ s i ++ link i).flatten) := by
  rw [Examples.get_examples]
  induction indices with
  | nil => rfl
  | cons i is ih =>
    have h1 : d.one OO true i = .ok (h i ++ t i ++ s i ++ link i) := by
      rw [← see_also_eq]
      simp only [Examples.one]
      rw [hh i (by simp), ht i (by simp), hs i (by simp)]
      rfl
    rw [Examples.concat, h1, ih (fun j hj => hh j (by simp [hj])) (fun j hj => ht j (by simp [hj])) (fun j hj => hs j (by simp [hj]))]
    simp [Bind.bind, Except.bind, pure, Except.pure]

/-- **C161**: without header: the last line of the header (the underline) and the link are left out, nothing else. -/
theorem C161_examples_no_header (d : Examples) (indices : List ℕ) (OO : Bool) (h u t s : ℕ → List Char)
    (hh : ∀ i ∈ indices, d.header i = some (h i ++ '\n' :: u i) ∧ '\n' ∉ u i) (ht : ∀ i ∈ indices, d.txt i = some (t i))
    (hs : ∀ i ∈ indices, (if OO then d.obj_solution i else d.fun_solution i) = some (s i)) :
    d.get_examples_no_header indices OO = .ok ((indices.map fun i => h i ++ t i ++ s i).flatten) := by
  rw [Examples.get_examples_no_header]
  induction indices with
  | nil => rfl
  | cons i is ih =>
    have h1 : d.one OO false i = .ok (h i ++ t i ++ s i) := by
      simp only [Examples.one]
      rw [(hh i (by simp)).1, ht i (by simp), hs i (by simp)]
      simp [lookup, Bind.bind, Except.bind, pure, Except.pure, beforeLastLine_spec _ _ (hh i (by simp)).2]
    rw [Examples.concat, h1, ih (fun j hj => hh j (by simp [hj])) (fun j hj => ht j (by simp [hj])) (fun j hj => hs j (by simp [hj]))]
    simp [Bind.bind, Except.bind, pure, Except.pure]

/-- **C161**: a `KeyError` is raised exactly when a text of one of the examples asked for does not exist. -/
theorem C161_examples_KeyError (d : Examples) (indices : List ℕ) (OO : Bool) :
    (d.get_examples indices OO = .error .KeyError ↔
      ∃ i ∈ indices, d.header i = none ∨ d.txt i = none ∨ (if OO then d.obj_solution i else d.fun_solution i) = none) ∧
    (d.get_examples_no_header indices OO = .error .KeyError ↔
      ∃ i ∈ indices, d.header i = none ∨ d.txt i = none ∨ (if OO then d.obj_solution i else d.fun_solution i) = none) := by
  have key : ∀ hdr, d.concat OO hdr indices = .error .KeyError ↔
      ∃ i ∈ indices, d.header i = none ∨ d.txt i = none ∨ (if OO then d.obj_solution i else d.fun_solution i) = none := by
    intro hdr
    have hone : ∀ i, (d.one OO hdr i = .error .KeyError ∧
        (d.header i = none ∨ d.txt i = none ∨ (if OO then d.obj_solution i else d.fun_solution i) = none)) ∨
        ((∃ a, d.one OO hdr i = .ok a) ∧
        ¬ (d.header i = none ∨ d.txt i = none ∨ (if OO then d.obj_solution i else d.fun_solution i) = none)) := by
      intro i
      simp only [Examples.one]
      generalize (if OO then d.obj_solution i else d.fun_solution i) = s
      rcases d.header i with _ | h
      · exact Or.inl ⟨rfl, Or.inl rfl⟩
      · rcases d.txt i with _ | t
        · exact Or.inl ⟨rfl, Or.inr (Or.inl rfl)⟩
        · rcases s with _ | s
          · exact Or.inl ⟨rfl, Or.inr (Or.inr rfl)⟩
          · exact Or.inr ⟨⟨_, rfl⟩, by simp⟩
    induction indices with
    | nil => simp [Examples.concat, pure, Except.pure]
    | cons i is ih =>
      rcases hone i with ⟨h1, h2⟩ | ⟨⟨a, h1⟩, h2⟩
      · rw [Examples.concat, h1]
        exact ⟨fun _ => ⟨i, by simp, h2⟩, fun _ => rfl⟩
      · rw [Examples.concat, h1]
        simp only [List.mem_cons, exists_eq_or_imp, h2, false_or]
        refine Iff.trans ?_ ih
        rcases d.concat OO hdr is with e | b <;> simp [Bind.bind, Except.bind, pure, Except.pure]
  exact ⟨key true, key false⟩

end Nv.Doc
