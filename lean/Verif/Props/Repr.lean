import Verif.Spec.Repr

/-!
# C140: the text of an object tells all about it
-/

namespace Nv.Repr

/-! ## The text depends on the content only -/

/-- the text of a tree -/
def text : Tree → List Char
  | .atom w => w
  | .str s => '\'' :: s ++ ['\'']
  | .seq ts => '[' :: join (ts.map text) ++ [']']
  | .obj c as => c ++ ['('] ++ join (as.map fun nv => nv.1 ++ ['='] ++ text nv.2) ++ [')']
termination_by t => sizeOf t
decreasing_by
  all_goals simp_wf
  · rename_i h; have h1 := List.sizeOf_lt_of_mem h; omega
  · rename_i h
    have h1 := List.sizeOf_lt_of_mem h
    have h2 : sizeOf nv = 1 + sizeOf nv.1 + sizeOf nv.2 := by cases nv; rfl
    omega

theorem content_arrayToList (v : Val) : content (arrayToList v) = content v := by
  match v with
  | .list xs =>
    rw [arrayToList, content, content, List.map_map]
    congr 1
    refine List.map_congr_left fun x hx => ?_
    have := List.sizeOf_lt_of_mem hx
    exact content_arrayToList x
  | .tuple xs =>
    rw [arrayToList, content, content, List.map_map]
    congr 1
    refine List.map_congr_left fun x hx => ?_
    have := List.sizeOf_lt_of_mem hx
    exact content_arrayToList x
  | .array t => rw [arrayToList, content]
  | .atom w => rw [arrayToList]
  | .str s => rw [arrayToList]
  | .inst c as => rw [arrayToList]
termination_by sizeOf v
decreasing_by
  all_goals simp_wf
  all_goals omega

theorem repr_eq (v : Val) : repr v = text (content v) := by
  match v with
  | .atom w => rw [repr, content, text]
  | .str s => rw [repr, content, text]
  | .list xs =>
    rw [repr, content, text, List.map_map]
    congr 3
    refine List.map_congr_left fun x hx => ?_
    have := List.sizeOf_lt_of_mem hx
    exact repr_eq x
  | .tuple xs =>
    rw [repr, content, text, List.map_map]
    congr 3
    refine List.map_congr_left fun x hx => ?_
    have := List.sizeOf_lt_of_mem hx
    exact repr_eq x
  | .array t => rw [repr, content, repr_eq t]
  | .inst c as =>
    rw [repr, content, text, List.map_map]
    congr 3
    refine List.map_congr_left fun nv hx => ?_
    have h1 := List.sizeOf_lt_of_mem (List.mem_of_mem_filter hx)
    have h2 : sizeOf nv = 1 + sizeOf nv.1 + sizeOf nv.2 := by cases nv; rfl
    have h3 := sizeOf_arrayToList_le nv.2
    change nv.1 ++ ['='] ++ repr (arrayToList nv.2) = nv.1 ++ ['='] ++ text (content nv.2)
    rw [repr_eq (arrayToList nv.2), content_arrayToList]
termination_by sizeOf v
decreasing_by
  all_goals simp_wf
  all_goals omega

/-! ## Reading the text back -/

/-- numbers and names are words, strings contain no quote -/
inductive Good : Tree → Prop
  | atom {w} : Word w → Good (.atom w)
  | str {s} : '\'' ∉ s → Good (.str s)
  | seq {ts} : (∀ x ∈ ts, Good x) → Good (.seq ts)
  | obj {c as} : Word c → (∀ nv ∈ as, Word nv.1) → (∀ nv ∈ as, Good nv.2) → Good (.obj c as)

theorem Printable.good {v : Val} (h : Printable v) : Good (content v) := by
  induction h with
  | atom h => rw [content]; exact .atom h
  | str h => rw [content]; exact .str h
  | list h ih => rw [content]; exact .seq (by simpa using ih)
  | tuple h ih => rw [content]; exact .seq (by simpa using ih)
  | array h ih => rw [content]; exact ih
  | inst h1 h2 h3 ih =>
    rw [content]
    refine .obj h1 ?_ ?_
    · intro nv hnv
      obtain ⟨mv, hm, rfl⟩ := List.mem_map.mp hnv
      exact h2 mv (List.mem_of_mem_filter hm)
    · intro nv hnv
      obtain ⟨mv, hm, rfl⟩ := List.mem_map.mp hnv
      exact ih mv (List.mem_of_mem_filter hm)

/-- what can follow a value in a text -/
def Stop (s : List Char) : Prop := ∀ c ∈ s.head?, c ∈ [',', ')', ']']

/-- two words, each followed by something which is not part of a word -/
theorem word_split {w w' s s' : List Char} (h : ∀ c ∈ w, plain c) (h' : ∀ c ∈ w', plain c) (hs : ∀ c ∈ s.head?, ¬ plain c)
    (hs' : ∀ c ∈ s'.head?, ¬ plain c) (e : w ++ s = w' ++ s') : w = w' ∧ s = s' := by
  induction w generalizing w' with
  | nil =>
    cases w' with
    | nil => exact ⟨rfl, e⟩
    | cons c w' =>
      rw [List.nil_append, List.cons_append] at e
      exact absurd (h' c (by simp)) (hs c (by rw [e]; simp))
  | cons c w ih =>
    cases w' with
    | nil =>
      rw [List.nil_append, List.cons_append] at e
      exact absurd (h c (by simp)) (hs' c (by rw [← e]; simp))
    | cons c' w' =>
      rw [List.cons_append, List.cons_append] at e
      injection e with e1 e2
      obtain ⟨h1, h2⟩ := ih (fun c hc => h c (by simp [hc])) (fun c hc => h' c (by simp [hc])) e2
      exact ⟨by rw [e1, h1], h2⟩

theorem quote_split {w w' s s' : List Char} (h : '\'' ∉ w) (h' : '\'' ∉ w') (e : w ++ '\'' :: s = w' ++ '\'' :: s') : w = w' ∧ s = s' := by
  induction w generalizing w' with
  | nil =>
    cases w' with
    | nil => exact ⟨rfl, by simpa using e⟩
    | cons c w' =>
      rw [List.nil_append, List.cons_append] at e
      injection e with e1 e2
      exact absurd (by rw [← e1]; simp) h'
  | cons c w ih =>
    cases w' with
    | nil =>
      rw [List.nil_append, List.cons_append] at e
      injection e with e1 e2
      exact absurd (by rw [e1]; simp) h
    | cons c' w' =>
      rw [List.cons_append, List.cons_append] at e
      injection e with e1 e2
      obtain ⟨h1, h2⟩ := ih (fun hc => h (by simp [hc])) (fun hc => h' (by simp [hc])) e2
      exact ⟨by rw [e1, h1], h2⟩

theorem Stop.not_plain {s : List Char} (h : Stop s) : ∀ c ∈ s.head?, ¬ plain c := by
  intro c hc hp
  have := h c hc
  unfold plain at hp
  simp only [List.mem_cons, List.not_mem_nil, or_false] at this hp
  tauto

theorem Word.head {w : List Char} (h : Word w) (s : List Char) : ∃ c t, w ++ s = c :: t ∧ plain c := by
  obtain ⟨h1, h2⟩ := h
  cases w with
  | nil => exact absurd rfl h1
  | cons c w => exact ⟨c, w ++ s, rfl, h2 c (by simp)⟩

/-- no value begins with a closing bracket -/
theorem Good.head {t : Tree} (h : Good t) (s : List Char) : ∃ c r, text t ++ s = c :: r ∧ c ≠ ']' := by
  cases h with
  | atom h =>
    obtain ⟨c, r, e, hc⟩ := h.head s
    exact ⟨c, r, by rw [text]; exact e, fun h => by subst h; simp [plain] at hc⟩
  | str h => exact ⟨'\'', _, by rw [text]; rfl, by decide⟩
  | seq h => exact ⟨'[', _, by rw [text]; rfl, by decide⟩
  | obj h _ _ =>
    obtain ⟨c, r, e, hc⟩ := h.head _
    exact ⟨c, _, by rw [text, List.append_assoc, List.append_assoc, List.append_assoc]; exact e, fun h => by subst h; simp [plain] at hc⟩

/-- a joined list of parts that can be read one by one can be read, if it ends with a bracket `b` with which no part begins -/
theorem join_split {β : Type} {f : β → List Char} {b : Char} (hb : b = ')' ∨ b = ']') {P : β → Prop} {xs ys : List β} {s s' : List Char}
    (hx : ∀ x ∈ xs, P x) (hy : ∀ y ∈ ys, P y)
    (hh : ∀ x, P x → ∀ s, ∃ c r, f x ++ s = c :: r ∧ c ≠ b)
    (hr : ∀ x ∈ xs, ∀ y, P y → ∀ s s', Stop s → Stop s' → f x ++ s = f y ++ s' → x = y ∧ s = s')
    (e : join (xs.map f) ++ b :: s = join (ys.map f) ++ b :: s') : xs = ys ∧ s = s' := by
  have hbs : ∀ r, Stop (b :: r) := by
    intro r c hc
    simp only [List.head?_cons, Option.mem_def, Option.some.injEq] at hc
    subst hc
    rcases hb with rfl | rfl <;> simp
  have hcs : ∀ r, Stop (',' :: r) := by intro r c hc; simp at hc; simp [← hc]
  have hbc : b ≠ ',' := by rcases hb with rfl | rfl <;> decide
  induction xs generalizing ys with
  | nil =>
    cases ys with
    | nil => exact ⟨rfl, by simpa [join] using e⟩
    | cons y ys =>
      exfalso
      cases ys with
      | nil =>
        obtain ⟨c, r, h1, h2⟩ := hh y (hy y (by simp)) (b :: s')
        simp only [List.map_nil, List.map_cons, join, List.nil_append, h1] at e
        injection e with e1 e2
        exact h2 e1.symm
      | cons z zs =>
        obtain ⟨c, r, h1, h2⟩ := hh y (hy y (by simp)) ([',', ' '] ++ join ((z :: zs).map f) ++ b :: s')
        simp only [List.append_assoc] at h1
        simp only [List.map_nil, List.map_cons, join, List.nil_append, List.append_assoc] at e h1
        rw [h1] at e
        injection e with e1 e2
        exact h2 e1.symm
  | cons x xs ih =>
    cases ys with
    | nil =>
      exfalso
      cases xs with
      | nil =>
        obtain ⟨c, r, h1, h2⟩ := hh x (hx x (by simp)) (b :: s)
        simp only [List.map_nil, List.map_cons, join, List.nil_append, h1] at e
        injection e with e1 e2
        exact h2 e1
      | cons z zs =>
        obtain ⟨c, r, h1, h2⟩ := hh x (hx x (by simp)) ([',', ' '] ++ join ((z :: zs).map f) ++ b :: s)
        simp only [List.map_nil, List.map_cons, join, List.nil_append, List.append_assoc] at e h1
        rw [h1] at e
        injection e with e1 e2
        exact h2 e1
    | cons y ys =>
      have hr1 := hr x (by simp) y (hy y (by simp))
      cases xs with
      | nil =>
        cases ys with
        | nil =>
          simp only [List.map_nil, List.map_cons, join] at e
          obtain ⟨h1, h2⟩ := hr1 _ _ (hbs _) (hbs _) e
          injection h2 with _ h3
          exact ⟨by rw [h1], h3⟩
        | cons z zs =>
          exfalso
          simp only [List.map_nil, List.map_cons, join, List.append_assoc] at e
          obtain ⟨h1, h2⟩ := hr1 _ _ (hbs _) (hcs _) e
          injection h2 with h3 _
          exact hbc h3
      | cons w ws =>
        cases ys with
        | nil =>
          exfalso
          simp only [List.map_nil, List.map_cons, join, List.append_assoc] at e
          obtain ⟨h1, h2⟩ := hr1 _ _ (hcs _) (hbs _) e
          injection h2 with h3 _
          exact hbc h3.symm
        | cons z zs =>
          simp only [List.map_cons, join, List.append_assoc] at e
          obtain ⟨h1, h2⟩ := hr1 _ _ (hcs _) (hcs _) e
          have h3 : join ((w :: ws).map f) ++ b :: s = join ((z :: zs).map f) ++ b :: s' := by
            simp only [List.cons_append, List.nil_append, List.cons.injEq, true_and] at h2
            simpa using h2
          obtain ⟨h4, h5⟩ := ih (fun x hx' => hx x (by simp [hx'])) (fun y hy' => hy y (by simp [hy'])) (fun x hx' => hr x (by simp [hx'])) h3
          exact ⟨by rw [h1, h4], h5⟩

/-- a value followed by the end, a comma or a closing bracket can be read in one way only -/
theorem text_split {t t' : Tree} (h : Good t) (h' : Good t') {s s' : List Char} (hs : Stop s) (hs' : Stop s')
    (e : text t ++ s = text t' ++ s') : t = t' ∧ s = s' := by
  have paren : ∀ r : List Char, ∀ c ∈ (['('] ++ r).head?, ¬ plain c := by intro r c hc; simp at hc; simp [← hc, plain]
  have eqs : ∀ r : List Char, ∀ c ∈ (['='] ++ r).head?, ¬ plain c := by intro r c hc; simp at hc; simp [← hc, plain]
  have clash : ∀ {w r x : List Char} {c : Char}, Word w → ¬ plain c → w ++ r = c :: x → False := by
    intro w r x c hw hc e
    obtain ⟨d, q, h1, h2⟩ := hw.head r
    rw [h1] at e
    injection e with e1 _
    exact hc (e1 ▸ h2)
  have nq : ¬ plain '\'' := by simp [plain]
  have nb : ¬ plain '[' := by simp [plain]
  have stopParen : ∀ {r x : List Char}, Stop r → r ≠ ['('] ++ x := by
    intro r x hr e
    have := hr '(' (by rw [e]; simp)
    simp at this
  induction h generalizing t' s s' with
  | atom h =>
    cases h' with
    | atom h' =>
      rw [text, text] at e
      obtain ⟨h1, h2⟩ := word_split h.2 h'.2 hs.not_plain hs'.not_plain e
      exact ⟨by rw [h1], h2⟩
    | str h' => rw [text, text] at e; exact (clash h nq e).elim
    | seq h' => rw [text, text] at e; exact (clash h nb e).elim
    | obj h' _ _ =>
      rw [text, text, List.append_assoc, List.append_assoc, List.append_assoc] at e
      obtain ⟨h1, h2⟩ := word_split h.2 h'.2 hs.not_plain (paren _) e
      exact (stopParen hs h2).elim
  | str h =>
    cases h' with
    | atom h' => rw [text, text] at e; exact (clash h' nq e.symm).elim
    | str h' =>
      rw [text, text] at e
      simp only [List.cons_append, List.append_assoc, List.nil_append, List.cons.injEq, true_and] at e
      obtain ⟨h1, h2⟩ := quote_split h h' e
      exact ⟨by rw [h1], h2⟩
    | seq h' => rw [text, text] at e; simp at e
    | obj h' _ _ =>
      rw [text, text] at e
      simp only [List.cons_append, List.append_assoc] at e
      exact (clash h' nq e.symm).elim
  | @seq ts h ih =>
    cases h' with
    | atom h' => rw [text, text] at e; exact (clash h' nb e.symm).elim
    | str h' => rw [text, text] at e; simp at e
    | @seq ts' h' =>
      rw [text, text] at e
      simp only [List.cons_append, List.append_assoc, List.nil_append, List.cons.injEq, true_and] at e
      obtain ⟨h1, h2⟩ := join_split (b := ']') (.inr rfl) (P := Good) h h' (fun x hx s => hx.head s)
        (fun x hx y hy s s' hs hs' e => ih x hx hy hs hs' e) e
      exact ⟨by rw [h1], h2⟩
    | obj h' _ _ =>
      rw [text, text] at e
      simp only [List.cons_append, List.append_assoc] at e
      exact (clash h' nb e.symm).elim
  | @obj c as h h1 h2 ih =>
    cases h' with
    | atom h' =>
      rw [text, text, List.append_assoc, List.append_assoc, List.append_assoc] at e
      obtain ⟨h3, h4⟩ := word_split h.2 h'.2 (paren _) hs'.not_plain e
      exact (stopParen hs' h4.symm).elim
    | str h' =>
      rw [text, text, List.append_assoc, List.append_assoc, List.append_assoc] at e
      exact (clash h nq e).elim
    | seq h' =>
      rw [text, text, List.append_assoc, List.append_assoc, List.append_assoc] at e
      exact (clash h nb e).elim
    | @obj c' as' h' h1' h2' =>
      rw [text, text] at e
      simp only [List.append_assoc] at e
      obtain ⟨h3, h4⟩ := word_split h.2 h'.2 (paren _) (paren _) e
      simp only [List.cons_append, List.nil_append, List.cons.injEq, true_and] at h4
      obtain ⟨h5, h6⟩ := join_split (β := List Char × Tree) (f := fun nv => nv.1 ++ '=' :: text nv.2) (b := ')') (.inl rfl)
        (P := fun nv => Word nv.1 ∧ Good nv.2) (fun x hx => ⟨h1 x hx, h2 x hx⟩) (fun x hx => ⟨h1' x hx, h2' x hx⟩)
        (fun x hx s => by
          obtain ⟨c, r, e, hc⟩ := hx.1.head ('=' :: text x.2 ++ s)
          refine ⟨c, r, by rw [List.append_assoc]; exact e, ?_⟩
          rintro rfl
          simp [plain] at hc)
        (fun x hx y hy s s' hs hs' e => by
          simp only [List.append_assoc] at e
          obtain ⟨k1, k2⟩ := word_split (h1 x hx).2 hy.1.2 (eqs _) (eqs _) e
          simp only [List.cons_append, List.cons.injEq, true_and] at k2
          obtain ⟨k3, k4⟩ := ih x hx hy.2 hs hs' k2
          exact ⟨Prod.ext k1 k3, k4⟩) h4
      exact ⟨by rw [h3, h5], h6⟩

/-- **C140** two values print the same text exactly when they have the same content: the same numbers and strings in the same places, the
same nesting of sequences, the same classes and public attributes.  Lists, tuples and arrays are not distinguished, private attributes are not
shown, and nothing else is lost. -/
theorem C140_text (v w : Val) (hv : Printable v) (hw : Printable w) : repr v = repr w ↔ content v = content w := by
  constructor
  · intro e
    rw [repr_eq, repr_eq] at e
    have st : Stop [] := by intro c hc; simp at hc
    exact (text_split hv.good hw.good st st (by rw [e])).1
  · intro e
    rw [repr_eq, repr_eq, e]

/-! ## Positions and frames -/

section
variable {α : Type} {num : α → List Char} {int : ℤ → List Char}

/-- the name of the frame contains no quote -/
def nameOk : EllKey → Prop
  | .str s => '\'' ∉ s.toList
  | .int _ => True

/-- Python prints different numbers differently, as words -/
structure Prints {α : Type} (num : α → List Char) : Prop where
  word : ∀ x, Word (num x)
  inj : ∀ x y, num x = num y → x = y

/-- the frame an object refers to in the end -/
def LocalFrame.earth : LocalFrame α → FrameE α
  | .N nv => nv.frame
  | .L nv _ => nv.frame
  | .B nv _ _ _ => nv.frame

/-- the frame a position refers to in the end -/
def Position.earth : Position α → FrameE α
  | .geo p => p.frame
  | .nvec p => p.frame
  | .ecef p => p.frame
  | .pvec p => LocalFrame.earth p.frame

theorem word_of {s : String} (h : s.toList ≠ [] ∧ s.toList.all (fun c => !([',', ' ', '(', ')', '[', ']', '=', '\''].contains c)) = true) : Word s.toList := by
  refine ⟨h.1, fun c hc => ?_⟩
  have := List.all_eq_true.mp h.2 c hc
  unfold plain
  simpa using this

theorem printable_name (hi : Prints int) {k : EllKey} (h : nameOk k) : Printable (nameVal int k) := by
  cases k with
  | str s => exact .str h
  | int i => exact .atom (hi.word i)

theorem printable_row (hn : Prints num) (v : V3 α) : Printable (row num v) := by
  refine .list ?_
  simp only [List.mem_cons, List.not_mem_nil, or_false, forall_eq_or_imp, forall_eq]
  exact ⟨.atom (hn.word _), .atom (hn.word _), .atom (hn.word _)⟩

theorem printable_matrix (hn : Prints num) (M : M3 α) : Printable (matrix num M) := by
  refine .array (.list ?_)
  simp only [List.mem_cons, List.not_mem_nil, or_false, forall_eq_or_imp, forall_eq]
  exact ⟨printable_row hn _, printable_row hn _, printable_row hn _⟩

theorem printable_column (hn : Prints num) (v : V3 α) : Printable (column num v) := by
  refine .array (.list ?_)
  simp only [List.mem_cons, List.not_mem_nil, or_false, forall_eq_or_imp, forall_eq]
  have one : ∀ x, Printable (.list [.atom (num x)]) := by
    intro x
    refine .list ?_
    simp only [List.mem_cons, List.not_mem_nil, or_false, forall_eq]
    exact .atom (hn.word _)
  exact ⟨one _, one _, one _⟩

theorem printable_frame (hn : Prints num) (hi : Prints int) {F : FrameE α} (h : nameOk F.name) : Printable (frameVal num int F) := by
  refine .inst (word_of (by decide)) ?_ ?_
  · simp only [List.mem_cons, List.not_mem_nil, or_false, forall_eq_or_imp, forall_eq]
    exact ⟨word_of (by decide), word_of (by decide), word_of (by decide), word_of (by decide)⟩
  · simp only [List.mem_cons, List.not_mem_nil, or_false, forall_eq_or_imp, forall_eq]
    exact ⟨.atom (hn.word _), .atom (hn.word _), printable_name hi h, printable_matrix hn _⟩

theorem printable_geo (hn : Prints num) (hi : Prints int) {p : GeoPoint α} (h : nameOk p.frame.name) : Printable (geoVal num int p) := by
  refine .inst (word_of (by decide)) ?_ ?_
  · simp only [List.mem_cons, List.not_mem_nil, or_false, forall_eq_or_imp, forall_eq]
    exact ⟨word_of (by decide), word_of (by decide), word_of (by decide), word_of (by decide)⟩
  · simp only [List.mem_cons, List.not_mem_nil, or_false, forall_eq_or_imp, forall_eq]
    exact ⟨.array (.atom (hn.word _)), .array (.atom (hn.word _)), .array (.atom (hn.word _)), printable_frame hn hi h⟩

theorem printable_nvec (hn : Prints num) (hi : Prints int) {p : Nvector α} (h : nameOk p.frame.name) : Printable (nvecVal num int p) := by
  refine .inst (word_of (by decide)) ?_ ?_
  · simp only [List.mem_cons, List.not_mem_nil, or_false, forall_eq_or_imp, forall_eq]
    exact ⟨word_of (by decide), word_of (by decide), word_of (by decide)⟩
  · simp only [List.mem_cons, List.not_mem_nil, or_false, forall_eq_or_imp, forall_eq]
    exact ⟨printable_column hn _, .atom (hn.word _), printable_frame hn hi h⟩

theorem printable_ecef (hn : Prints num) (hi : Prints int) {p : ECEFvector α} (h : nameOk p.frame.name) : Printable (ecefVal num int p) := by
  refine .inst (word_of (by decide)) ?_ ?_
  · simp only [List.mem_cons, List.not_mem_nil, or_false, forall_eq_or_imp, forall_eq]
    exact ⟨word_of (by decide), word_of (by decide), word_of (by decide)⟩
  · simp only [List.mem_cons, List.not_mem_nil, or_false, forall_eq_or_imp, forall_eq]
    exact ⟨printable_column hn _, printable_frame hn hi h, .atom (word_of (by decide))⟩

theorem printable_local (hn : Prints num) (hi : Prints int) {F : LocalFrame α} (h : nameOk (LocalFrame.earth F).name) : Printable (localVal num int F) := by
  cases F with
  | N nv =>
    refine .inst (word_of (by decide)) ?_ ?_
    · simp only [List.mem_cons, List.not_mem_nil, or_false, forall_eq]
      exact word_of (by decide)
    · simp only [List.mem_cons, List.not_mem_nil, or_false, forall_eq]
      exact printable_nvec hn hi h
  | L nv wa =>
    refine .inst (word_of (by decide)) ?_ ?_
    · simp only [List.mem_cons, List.not_mem_nil, or_false, forall_eq_or_imp, forall_eq]
      exact ⟨word_of (by decide), word_of (by decide)⟩
    · simp only [List.mem_cons, List.not_mem_nil, or_false, forall_eq_or_imp, forall_eq]
      exact ⟨printable_nvec hn hi h, .atom (hn.word _)⟩
  | B nv yaw pitch roll =>
    refine .inst (word_of (by decide)) ?_ ?_
    · simp only [List.mem_cons, List.not_mem_nil, or_false, forall_eq_or_imp, forall_eq]
      exact ⟨word_of (by decide), word_of (by decide), word_of (by decide), word_of (by decide)⟩
    · simp only [List.mem_cons, List.not_mem_nil, or_false, forall_eq_or_imp, forall_eq]
      exact ⟨printable_nvec hn hi h, .atom (hn.word _), .atom (hn.word _), .atom (hn.word _)⟩

theorem printable_pos (hn : Prints num) (hi : Prints int) {p : Position α} (h : nameOk (Position.earth p).name) : Printable (posVal num int p) := by
  cases p with
  | geo p => exact printable_geo hn hi h
  | nvec p => exact printable_nvec hn hi h
  | ecef p => exact printable_ecef hn hi h
  | pvec p =>
    refine .inst (word_of (by decide)) ?_ ?_
    · simp only [List.mem_cons, List.not_mem_nil, or_false, forall_eq_or_imp, forall_eq]
      exact ⟨word_of (by decide), word_of (by decide), word_of (by decide)⟩
    · simp only [List.mem_cons, List.not_mem_nil, or_false, forall_eq_or_imp, forall_eq]
      exact ⟨printable_column hn _, printable_local hn hi h, .atom (word_of (by decide))⟩

theorem content_name (hi : Prints int) {k k' : EllKey} (e : content (nameVal int k) = content (nameVal int k')) : k = k' := by
  cases k <;> cases k' <;> simp only [nameVal, content, Tree.str.injEq, Tree.atom.injEq, reduceCtorEq] at e
  · rw [String.toList_inj.mp e]
  · rw [hi.inj _ _ e]

theorem content_column (hn : Prints num) {v w : V3 α} (e : content (column num v) = content (column num w)) : v = w := by
  simp only [column, content, List.map, Tree.seq.injEq, List.cons.injEq, and_true, Tree.atom.injEq] at e
  exact V3.ext (hn.inj _ _ e.1) (hn.inj _ _ e.2.1) (hn.inj _ _ e.2.2)

theorem content_matrix (hn : Prints num) {M N : M3 α} (e : content (matrix num M) = content (matrix num N)) : M = N := by
  simp only [matrix, row, content, List.map, Tree.seq.injEq, List.cons.injEq, and_true, Tree.atom.injEq] at e
  obtain ⟨⟨a, b, c⟩, ⟨d, e, f⟩, g, h, i⟩ := e
  exact M3.ext (V3.ext (hn.inj _ _ a) (hn.inj _ _ b) (hn.inj _ _ c)) (V3.ext (hn.inj _ _ d) (hn.inj _ _ e) (hn.inj _ _ f))
    (V3.ext (hn.inj _ _ g) (hn.inj _ _ h) (hn.inj _ _ i))

/-- all attributes are public -/
theorem content_inst {c : List Char} {as : List (List Char × Val)} (h : as.filter (fun nv => isPublic nv.1) = as) :
    content (.inst c as) = .obj c (as.map fun nv => (nv.1, content nv.2)) := by
  rw [content, h]

theorem content_frame (hn : Prints num) (hi : Prints int) {F G : FrameE α} (e : content (frameVal num int F) = content (frameVal num int G)) : F = G := by
  rw [frameVal, frameVal, content_inst rfl, content_inst rfl] at e
  simp only [List.map, Tree.obj.injEq, List.cons.injEq, Prod.mk.injEq, true_and, and_true] at e
  obtain ⟨e1, e2, e3, e4⟩ := e
  simp only [content, Tree.atom.injEq] at e1 e2
  have := hn.inj _ _ e1
  have := hn.inj _ _ e2
  have := content_name hi e3
  have := content_matrix hn e4
  cases F; cases G; simp_all

theorem content_geo (hn : Prints num) (hi : Prints int) {p q : GeoPoint α} (e : content (geoVal num int p) = content (geoVal num int q)) : p = q := by
  rw [geoVal, geoVal, content_inst rfl, content_inst rfl] at e
  simp only [List.map, Tree.obj.injEq, List.cons.injEq, Prod.mk.injEq, true_and, and_true] at e
  obtain ⟨e1, e2, e3, e4⟩ := e
  simp only [content, Tree.atom.injEq] at e1 e2 e3
  have := hn.inj _ _ e1
  have := hn.inj _ _ e2
  have := hn.inj _ _ e3
  have := content_frame hn hi e4
  cases p; cases q; simp_all

theorem content_nvec (hn : Prints num) (hi : Prints int) {p q : Nvector α} (e : content (nvecVal num int p) = content (nvecVal num int q)) : p = q := by
  rw [nvecVal, nvecVal, content_inst rfl, content_inst rfl] at e
  simp only [List.map, Tree.obj.injEq, List.cons.injEq, Prod.mk.injEq, true_and, and_true] at e
  obtain ⟨e1, e2, e3⟩ := e
  simp only [content, Tree.atom.injEq] at e2
  have := content_column hn e1
  have := hn.inj _ _ e2
  have := content_frame hn hi e3
  cases p; cases q; simp_all

theorem content_ecef (hn : Prints num) (hi : Prints int) {p q : ECEFvector α} (e : content (ecefVal num int p) = content (ecefVal num int q)) : p = q := by
  rw [ecefVal, ecefVal, content_inst rfl, content_inst rfl] at e
  simp only [List.map, Tree.obj.injEq, List.cons.injEq, Prod.mk.injEq, true_and, and_true] at e
  obtain ⟨e1, e2⟩ := e
  have := content_column hn e1
  have := content_frame hn hi e2
  cases p; cases q; simp_all

theorem content_local (hn : Prints num) (hi : Prints int) {F G : LocalFrame α} (e : content (localVal num int F) = content (localVal num int G)) : F = G := by
  cases F <;> cases G <;> rw [localVal, localVal, content_inst rfl, content_inst rfl] at e <;>
    simp only [List.map, Tree.obj.injEq, List.cons.injEq, Prod.mk.injEq, true_and, and_true, reduceCtorEq, and_false] at e
  · rw [content_nvec hn hi e]
  · obtain ⟨e1, e2⟩ := e
    simp only [content, Tree.atom.injEq] at e2
    rw [content_nvec hn hi e1, hn.inj _ _ e2]
  · obtain ⟨e1, e2, e3, e4⟩ := e
    simp only [content, Tree.atom.injEq] at e2 e3 e4
    rw [content_nvec hn hi e1, hn.inj _ _ e2, hn.inj _ _ e3, hn.inj _ _ e4]

theorem content_pvec (hn : Prints num) (hi : Prints int) {p q : Pvector α} (e : content (pvecVal num int p) = content (pvecVal num int q)) : p = q := by
  rw [pvecVal, pvecVal, content_inst rfl, content_inst rfl] at e
  simp only [List.map, Tree.obj.injEq, List.cons.injEq, Prod.mk.injEq, true_and, and_true] at e
  obtain ⟨e1, e2⟩ := e
  have := content_column hn e1
  have := content_local hn hi e2
  cases p; cases q; simp_all

/-- different classes have different names -/
theorem content_class {c c' : List Char} {as as' : List (List Char × Val)} (hc : c ≠ c') : content (.inst c as) ≠ content (.inst c' as') := by
  rw [content, content]
  intro e
  exact hc (by injection e)

/-- **C140** `repr` of a position tells which position it is: two position objects of any classes print the same text exactly when they are of
the same class and have the same coordinates and the same frames -/
theorem C140_position (hn : Prints num) (hi : Prints int) (p q : Position α) (hp : nameOk (Position.earth p).name) (hq : nameOk (Position.earth q).name) :
    repr (posVal num int p) = repr (posVal num int q) ↔ p = q := by
  rw [C140_text _ _ (printable_pos hn hi hp) (printable_pos hn hi hq)]
  refine ⟨fun e => ?_, fun e => by rw [e]⟩
  cases p <;> cases q <;> first
    | exact absurd e (content_class (by decide))
    | simp only [posVal] at e
  · rw [content_geo hn hi e]
  · rw [content_nvec hn hi e]
  · rw [content_ecef hn hi e]
  · rw [content_pvec hn hi e]

/-- **C140** `repr` of an Earth frame tells the semi-major axis, the flattening, the name and the axes -/
theorem C140_FrameE (hn : Prints num) (hi : Prints int) (F G : FrameE α) (hF : nameOk F.name) (hG : nameOk G.name) :
    repr (frameVal num int F) = repr (frameVal num int G) ↔ F = G := by
  rw [C140_text _ _ (printable_frame hn hi hF) (printable_frame hn hi hG)]
  exact ⟨content_frame hn hi, fun e => by rw [e]⟩

/-- **C140** `repr` of a local frame tells its class, its origin and its angles -/
theorem C140_local (hn : Prints num) (hi : Prints int) (F G : LocalFrame α) (hF : nameOk (LocalFrame.earth F).name) (hG : nameOk (LocalFrame.earth G).name) :
    repr (localVal num int F) = repr (localVal num int G) ↔ F = G := by
  rw [C140_text _ _ (printable_local hn hi hF) (printable_local hn hi hG)]
  exact ⟨content_local hn hi, fun e => by rw [e]⟩

end

/-! ## Cases -/

/-- numbers written in unary, with a sign: a way of printing that satisfies the hypotheses -/
def tally (i : ℤ) : List Char := (if 0 ≤ i then 'p' else 'm') :: List.replicate i.natAbs '1'

theorem prints_tally : Prints tally := by
  constructor
  · intro i
    refine ⟨by simp [tally], fun c hc => ?_⟩
    have : c = 'p' ∨ c = 'm' ∨ c = '1' := by
      simp only [tally, List.mem_cons, List.mem_replicate] at hc
      rcases hc with h | h
      · split at h <;> simp [h]
      · exact .inr (.inr h.2)
    rcases this with rfl | rfl | rfl <;> simp [plain]
  · intro i j e
    simp only [tally, List.cons.injEq] at e
    obtain ⟨h1, h2⟩ := e
    have h3 : i.natAbs = j.natAbs := by simpa using congrArg List.length h2
    by_cases hi : 0 ≤ i <;> by_cases hj : 0 ≤ j <;> simp [hi, hj] at h1 <;> omega

/-- the text of a frame, character by character -/
example : repr (frameVal tally tally ⟨2, 1, .str "W", ⟨⟨0, 0, 1⟩, ⟨0, 1, 0⟩, ⟨-1, 0, 0⟩⟩⟩) =
    "FrameE(a=p11, f=p1, name='W', R_Ee=[[p, p, p1], [p, p1, p], [m1, p, p]])".toList := by
  have h : ∀ c : Char, (some c != some '_') = !decide (c = '_') := fun c => by simp [bne, Option.some_beq_some]; rfl
  simp [frameVal, nameVal, matrix, row, repr, arrayToList, join, tally, List.filter, h]

/-- points that differ in depth only print different texts -/
example (F : FrameE ℤ) (h : nameOk F.name) : repr (posVal tally tally (.geo ⟨1, 2, 3, F⟩)) ≠ repr (posVal tally tally (.geo ⟨1, 2, 4, F⟩)) := by
  rw [Ne, C140_position prints_tally prints_tally (.geo ⟨1, 2, 3, F⟩) (.geo ⟨1, 2, 4, F⟩) h h]
  simp

/-- … and so do a geographic point and an n-vector -/
example (F : FrameE ℤ) (h : nameOk F.name) : repr (posVal tally tally (.geo ⟨1, 2, 3, F⟩)) ≠ repr (posVal tally tally (.nvec ⟨⟨1, 2, 3⟩, 3, F⟩)) := by
  rw [Ne, C140_position prints_tally prints_tally (.geo ⟨1, 2, 3, F⟩) (.nvec ⟨⟨1, 2, 3⟩, 3, F⟩) h h]
  simp

end Nv.Repr
