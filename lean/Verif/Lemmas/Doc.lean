import Verif.Model.Doc
import Verif.Spec.Doc

/-!
# Lemmas about texts
-/

namespace Nv.Doc

open Spec.Doc

theorem format_char (d : Str) (c : Char) (h : c ≠ '{' ∧ c ≠ '}') (r : Str) : format d (c :: r) = (format d r).map (c :: ·) := by
  rw [format.eq_def]
  split <;> simp_all

theorem format_written (d : Str) (ps : List Piece) : format d (written ps) = some (filled d ps) := by
  induction ps with
  | nil => simp [written, filled, format]
  | cons p ps ih =>
    have hw : written (p :: ps) = p.written ++ written ps := by simp [written]
    have hf : filled d (p :: ps) = p.filled d ++ filled d ps := by simp [filled]
    rw [hw, hf]
    cases p with
    | char c h => simp only [Piece.written, Piece.filled, List.singleton_append]; rw [format_char d c h, ih]; rfl
    | opening => simp [Piece.written, Piece.filled, format, ih]
    | closing => simp [Piece.written, Piece.filled, format, ih]
    | super => simp [Piece.written, Piece.filled, format, ih]

theorem written_of_format (d : Str) (t : Str) : ∀ s, format d t = some s → ∃ ps, t = written ps := by
  fun_induction format d t with
  | case1 r ih =>
    intro s h
    rw [Option.map_eq_some_iff] at h
    obtain ⟨a, ha, -⟩ := h
    obtain ⟨ps, rfl⟩ := ih a ha
    exact ⟨.opening :: ps, by simp [written, Piece.written]⟩
  | case2 r ih =>
    intro s h
    rw [Option.map_eq_some_iff] at h
    obtain ⟨a, ha, -⟩ := h
    obtain ⟨ps, rfl⟩ := ih a ha
    exact ⟨.closing :: ps, by simp [written, Piece.written]⟩
  | case3 r ih =>
    intro s h
    rw [Option.map_eq_some_iff] at h
    obtain ⟨a, ha, -⟩ := h
    obtain ⟨ps, rfl⟩ := ih a ha
    exact ⟨.super :: ps, by simp [written, Piece.written]⟩
  | case4 => simp
  | case5 => simp
  | case6 c r h1 h2 h3 h4 h5 ih =>
    intro s h
    rw [Option.map_eq_some_iff] at h
    obtain ⟨a, ha, -⟩ := h
    obtain ⟨ps, rfl⟩ := ih a ha
    exact ⟨.char c ⟨fun e => by simp_all, fun e => by simp_all⟩ :: ps, by simp [written, Piece.written]⟩
  | case7 => intro s _; exact ⟨[], rfl⟩

/-! ## Lines -/

theorem split_ne_nil (t : Str) : split t ≠ [] := by
  fun_induction split t <;> simp_all

theorem split_no_newline (t : Str) : ∀ l ∈ split t, '\n' ∉ l := by
  fun_induction split t with
  | case1 => simp
  | case2 r ih => simpa using ih
  | case3 c r hc l ls h ih =>
    intro x hx
    rw [h] at ih
    rcases List.mem_cons.1 hx with rfl | hx
    · simp only [List.mem_cons, not_or]
      exact ⟨fun e => hc e.symm, ih l (by simp)⟩
    · exact ih x (by simp [hx])
  | case4 c r hc h ih => exact absurd h (split_ne_nil r)

theorem join_cons (l : Str) {ls : List Str} (h : ls ≠ []) : join (l :: ls) = l ++ '\n' :: join ls := by
  cases ls with
  | nil => exact absurd rfl h
  | cons => rfl

theorem join_eq_intercalate (ls : List Str) : join ls = List.intercalate ['\n'] ls := by
  induction ls with
  | nil => rfl
  | cons l ls ih =>
    cases ls with
    | nil => simp [join]
    | cons m ms => rw [join_cons l (by simp), ih, List.intercalate_cons_cons]; simp

theorem join_split (t : Str) : join (split t) = t := by
  fun_induction split t with
  | case1 => rfl
  | case2 r ih => rw [join_cons _ (split_ne_nil r), ih]; rfl
  | case3 c r hc l ls h ih =>
    rw [h] at ih
    cases ls with
    | nil => simpa [join] using ih
    | cons m ms => rw [join_cons _ (by simp)] at ih ⊢; simpa using ih
  | case4 c r hc h ih => exact absurd h (split_ne_nil r)

theorem split_line (l : Str) (h : '\n' ∉ l) : split l = [l] := by
  induction l with
  | nil => rfl
  | cons c r ih =>
    simp only [List.mem_cons, not_or] at h
    rw [split, if_neg (fun e => h.1 e.symm), ih h.2]

theorem split_append (l r : Str) (h : '\n' ∉ l) : split (l ++ '\n' :: r) = l :: split r := by
  induction l with
  | nil => simp [split]
  | cons c s ih =>
    simp only [List.mem_cons, not_or] at h
    rw [List.cons_append, split, if_neg (fun e => h.1 e.symm), ih h.2]

theorem split_join (ls : List Str) (h0 : ls ≠ []) (h : ∀ l ∈ ls, '\n' ∉ l) : split (join ls) = ls := by
  induction ls with
  | nil => exact absurd rfl h0
  | cons l ls ih =>
    by_cases hl : ls = []
    · subst hl; exact split_line l (h l (by simp))
    · rw [join_cons l hl, split_append _ _ (h l (by simp)), ih hl fun x hx => h x (by simp [hx])]

theorem lines_iff (t : Str) (ls : List Str) : Lines t ls ↔ ls = split t := by
  constructor
  · rintro ⟨h0, h, rfl⟩
    rw [← join_eq_intercalate, split_join ls h0 h]
  · rintro rfl
    exact ⟨split_ne_nil t, split_no_newline t, by rw [← join_eq_intercalate, join_split]⟩

theorem takeWhile_imp {p : Char → Bool} {l : Str} {c : Char} (h : c ∈ l.takeWhile p) : p c = true := by
  induction l with
  | nil => simp at h
  | cons d l ih =>
    rw [List.takeWhile_cons] at h
    split at h
    · rcases List.mem_cons.1 h with rfl | h
      · assumption
      · exact ih h
    · simp at h

/-! ## dedent -/

theorem common_prefix_left (a b : Str) : common a b <+: a := by
  fun_induction common a b <;> simp_all [List.cons_prefix_cons]

theorem common_prefix_right (a b : Str) : common a b <+: b := by
  fun_induction common a b <;> simp_all [List.cons_prefix_cons]

theorem prefix_common (a b w : Str) (ha : w <+: a) (hb : w <+: b) : w <+: common a b := by
  fun_induction common a b generalizing w with
  | case1 x s t ih =>
    cases w with
    | nil => simp
    | cons c w =>
      rw [List.cons_prefix_cons] at ha hb ⊢
      exact ⟨ha.1, ih w ha.2 hb.2⟩
  | case2 x s y t hxy =>
    cases w with
    | nil => simp
    | cons c w =>
      rw [List.cons_prefix_cons] at ha hb
      exact absurd (ha.1.symm.trans hb.1) hxy
  | case3 a b h =>
    cases w with
    | nil => simp
    | cons c w =>
      obtain ⟨x, rfl⟩ := ha
      obtain ⟨y, rfl⟩ := hb
      exact (h _ _ _ _ rfl rfl).elim

theorem margin_none (ss : List Str) : margin ss = none ↔ ss = [] := by
  cases ss with
  | nil => simp [margin]
  | cons s ss => simp only [margin]; split <;> simp

theorem margin_some (ss : List Str) : ∀ m, margin ss = some m → (∀ s ∈ ss, m <+: s) ∧ ∀ w, (∀ s ∈ ss, w <+: s) → w <+: m := by
  induction ss with
  | nil => simp [margin]
  | cons s ss ih =>
    intro m h
    simp only [margin] at h
    split at h
    · rename_i hn
      rw [margin_none] at hn
      subst hn
      cases h
      exact ⟨by simp, fun w hw => hw s (by simp)⟩
    · rename_i m' hm
      cases h
      obtain ⟨h1, h2⟩ := ih m' hm
      refine ⟨fun x hx => ?_, fun w hw => prefix_common _ _ _ (hw s (by simp)) (h2 w fun x hx => hw x (by simp [hx]))⟩
      rcases List.mem_cons.1 hx with rfl | hx
      · exact common_prefix_left _ _
      · exact (common_prefix_right _ _).trans (h1 x hx)

theorem isBlank_iff (c : Char) : isBlank c = true ↔ Blank c := by simp [isBlank, Blank]
theorem isSpace_iff (c : Char) : isSpace c = true ↔ White c := by simp [isSpace, White, or_assoc]

/-- the line that `dedent` makes of a line, for the margin `w` -/
def dedentLine (w l : Str) : Str := if l.all isBlank then [] else l.drop w.length

theorem dedent_split (t : Str) : ∃ w : Str, split (dedent t) = (split t).map (dedentLine w) ∧ (∀ c ∈ w, isBlank c) ∧
    (∀ l ∈ split t, ¬ l.all isBlank → w <+: l) ∧
    ∀ v : Str, (∀ c ∈ v, isBlank c) → (∃ l ∈ split t, ¬ l.all isBlank) → (∀ l ∈ split t, ¬ l.all isBlank → v <+: l) → v <+: w := by
  set lines := (split t).map fun l => if l.all isBlank then ([] : Str) else l with hlines
  have hfil : ∀ x, x ∈ lines.filter (· ≠ []) ↔ x ∈ split t ∧ ¬ x.all isBlank := by
    intro x
    simp only [hlines, List.mem_filter, List.mem_map, decide_eq_true_eq]
    constructor
    · rintro ⟨⟨l, hl, rfl⟩, hx⟩
      by_cases hb : l.all isBlank
      · simp [hb] at hx
      · rw [if_neg hb]
        exact ⟨hl, hb⟩
    · rintro ⟨hx, hb⟩
      refine ⟨⟨x, hx, by simp [hb]⟩, ?_⟩
      rintro rfl
      simp at hb
  have hnl : ∀ n : ℕ, ∀ l ∈ lines.map (·.drop n), '\n' ∉ l := by
    intro n l hl
    rw [List.mem_map] at hl
    obtain ⟨m, hm, rfl⟩ := hl
    rw [hlines, List.mem_map] at hm
    obtain ⟨k, hk, rfl⟩ := hm
    intro hc
    have := List.mem_of_mem_drop hc
    split at this
    · simp at this
    · exact split_no_newline t k hk this
  have hmap : ∀ w : Str, lines.map (·.drop w.length) = (split t).map (dedentLine w) := by
    intro w
    rw [hlines, List.map_map]
    refine List.map_congr_left fun l _ => ?_
    simp only [Function.comp, dedentLine]
    split <;> simp
  have hne : ∀ n : ℕ, lines.map (·.drop n) ≠ [] := by
    intro n
    simp [hlines, split_ne_nil t]
  rcases hm : margin ((lines.filter (· ≠ [])).map (·.takeWhile isBlank)) with _ | w
  · have he : dedent t = join lines := by
      rw [dedent]
      simp only [← hlines]
      rw [hm]
    rw [margin_none, List.map_eq_nil_iff] at hm
    have h0 := hmap []
    simp only [List.length_nil, List.drop_zero, List.map_id'] at h0
    have hn := hnl 0
    have hn' := hne 0
    simp only [List.drop_zero, List.map_id'] at hn hn'
    refine ⟨[], ?_, by simp, by simp, fun v _ ⟨l, hl, hb⟩ _ => ?_⟩
    · rw [he, split_join _ hn' hn, h0]
    · have : l ∈ lines.filter (· ≠ []) := (hfil l).2 ⟨hl, hb⟩
      rw [hm] at this
      simp at this
  · have he : dedent t = join (lines.map (·.drop w.length)) := by
      rw [dedent]
      simp only [← hlines]
      rw [hm]
    obtain ⟨h1, h2⟩ := margin_some _ w hm
    have hex : ∃ l, l ∈ lines.filter (· ≠ []) := by
      by_contra hc
      rw [not_exists] at hc
      rw [List.eq_nil_iff_forall_not_mem.2 hc] at hm
      simp [margin] at hm
    refine ⟨w, ?_, ?_, ?_, ?_⟩
    · rw [he, split_join _ (hne _) (hnl _), hmap]
    · obtain ⟨l, hl⟩ := hex
      intro c hc
      have := (h1 _ (List.mem_map_of_mem hl)).subset hc
      exact takeWhile_imp this
    · intro l hl hb
      exact (h1 _ (List.mem_map_of_mem ((hfil l).2 ⟨hl, hb⟩))).trans (List.takeWhile_prefix _)
    · intro v hv _ h
      refine h2 v fun s hs => ?_
      rw [List.mem_map] at hs
      obtain ⟨l, hl, rfl⟩ := hs
      obtain ⟨hl1, hl2⟩ := (hfil l).1 hl
      obtain ⟨r, rfl⟩ := h l hl1 hl2
      rw [List.takeWhile_append_of_pos (fun c hc => hv c hc)]
      exact List.prefix_append _ _

/-! ## indent -/

theorem splitlines_line (l : Str) (h : '\n' ∉ l) (h0 : l ≠ []) : splitlines l = [l] := by
  induction l with
  | nil => exact absurd rfl h0
  | cons c r ih =>
    simp only [List.mem_cons, not_or] at h
    cases r with
    | nil => simp [splitlines, fun e : c = '\n' => h.1 e.symm]
    | cons d s =>
      rw [splitlines, if_neg (fun e => h.1 e.symm), ih h.2 (by simp)]
      simp

theorem splitlines_append (l r : Str) (h : '\n' ∉ l) : splitlines (l ++ '\n' :: r) = (l ++ ['\n']) :: splitlines r := by
  induction l with
  | nil => simp [splitlines]
  | cons c s ih =>
    simp only [List.mem_cons, not_or] at h
    rw [List.cons_append, splitlines, if_neg (fun e => h.1 e.symm), ih h.2]
    · rfl
    · simp

theorem indentWith_join (pre : Str) (ls : List Str) (h0 : ls ≠ []) (h : ∀ l ∈ ls, '\n' ∉ l) :
    indentWith pre (join ls) = join (ls.map fun l => if l.all isSpace then l else pre ++ l) := by
  induction ls with
  | nil => exact absurd rfl h0
  | cons l ls ih =>
    by_cases hl : ls = []
    · subst hl
      by_cases he : l = []
      · subst he; simp [join, indentWith, splitlines]
      · simp [join, indentWith, splitlines_line l (h l (by simp)) he]
    · rw [join_cons l hl, List.map_cons, join_cons _ (by simpa using hl), ← ih hl fun x hx => h x (by simp [hx])]
      rw [indentWith, splitlines_append _ _ (h l (by simp)), List.map_cons, List.flatten_cons, ← indentWith]
      have hs : (l ++ ['\n']).all isSpace = l.all isSpace := by simp [isSpace]
      rw [hs]
      split <;> simp

/-! ## strip and partition -/

theorem strip_spec (t : Str) : Stripped t (strip t) := by
  unfold strip
  set a := t.dropWhile isSpace with ha
  have h1 : t = t.takeWhile isSpace ++ a := (List.takeWhile_append_dropWhile).symm
  have h2 : a = (a.reverse.dropWhile isSpace).reverse ++ (a.reverse.takeWhile isSpace).reverse := by
    rw [← List.reverse_append, List.takeWhile_append_dropWhile, List.reverse_reverse]
  refine ⟨⟨t.takeWhile isSpace, (a.reverse.takeWhile isSpace).reverse, ?_, ?_, ?_⟩, ?_, ?_⟩
  · rw [List.append_assoc, ← h2, ← h1]
  · intro c hc
    exact (isSpace_iff c).1 (takeWhile_imp hc)
  · intro c hc
    exact (isSpace_iff c).1 (takeWhile_imp (List.mem_reverse.1 hc))
  · intro c hc hw
    have h3 : a.head? = some c := by
      rw [h2, List.head?_append, hc]; rfl
    have := List.head?_dropWhile_not isSpace t
    rw [← ha, h3] at this
    simp [(isSpace_iff c).2 hw] at this
  · intro c hc hw
    rw [List.getLast?_reverse] at hc
    have := List.head?_dropWhile_not isSpace a.reverse
    rw [hc] at this
    simp [(isSpace_iff c).2 hw] at this

theorem before_prefix (sep t : Str) : before sep t <+: t := by
  fun_induction before sep t <;> simp_all [List.cons_prefix_cons]

/-- the text before the first occurrence -/
theorem before_spec (sep : Str) (t a b : Str) (h : t = a ++ sep ++ b) (hs : sep ≠ [])
    (hf : ∀ a' b', t = a' ++ sep ++ b' → a.length ≤ a'.length) : before sep t = a := by
  induction t generalizing a with
  | nil => simp_all
  | cons c r ih =>
    cases a with
    | nil =>
      rw [before, if_pos]
      rw [h]; simp
    | cons d a =>
      have hcd : c = d ∧ r = a ++ sep ++ b := by simpa using h
      rw [before, if_neg, ih a hcd.2, hcd.1]
      · intro a' b' hr
        have := hf (c :: a') b' (by rw [hr]; simp)
        simpa using this
      · intro hp
        rw [List.isPrefixOf_iff_prefix] at hp
        obtain ⟨b', hb'⟩ := hp
        have := hf [] b' (by simpa using hb'.symm)
        simp at this

theorem before_absent (sep t : Str) (hf : ¬ sep <:+: t) : before sep t = t := by
  induction t with
  | nil => rfl
  | cons c r ih =>
    rw [before, if_neg, ih]
    · intro h; exact hf (h.trans (List.suffix_cons c r).isInfix)
    · intro hp
      rw [List.isPrefixOf_iff_prefix] at hp
      exact hf hp.isInfix

theorem beforeLastLine_spec (a b : Str) (h : '\n' ∉ b) : beforeLastLine (a ++ '\n' :: b) = a := by
  induction a with
  | nil => simp [beforeLastLine, h]
  | cons c a ih => rw [List.cons_append, beforeLastLine, if_pos (by simp), ih]

theorem beforeLastLine_none (b : Str) (h : '\n' ∉ b) : beforeLastLine b = [] := by
  cases b with
  | nil => rfl
  | cons c b => rw [beforeLastLine, if_neg]; intro e; exact h (by simp [e])

/-! ## the summary -/

theorem join_infix (ls : List Str) (l : Str) (h : l ∈ ls) : l <:+: join ls := by
  induction ls with
  | nil => simp at h
  | cons m ms ih =>
    by_cases hm : ms = []
    · subst hm; simp at h; subst h; exact List.infix_rfl
    · rw [join_cons m hm]
      rcases List.mem_cons.1 h with rfl | h
      · exact (List.prefix_append _ _).isInfix
      · exact (ih h).trans ((List.suffix_cons _ _).trans (List.suffix_append _ _)).isInfix

theorem join_before (ls : List Str) (a b : Str) (x y z : List Str) (h : ls = x ++ a :: y ++ b :: z) : Before a b (join ls) := by
  subst h
  induction x with
  | nil =>
    rw [List.nil_append, List.cons_append, join_cons _ (by simp)]
    obtain ⟨p, q, hq⟩ := join_infix (y ++ b :: z) b (by simp)
    exact ⟨[], '\n' :: p, q, by rw [← hq]; simp⟩
  | cons c x ih =>
    obtain ⟨p, q, r, hq⟩ := ih
    rw [List.cons_append, List.cons_append, join_cons _ (by simp), hq]
    exact ⟨c ++ '\n' :: p, q, r, by simp⟩

theorem before_infix {a b s t : Str} (h : Before a b s) (ht : s <:+: t) : Before a b t := by
  obtain ⟨x, y, z, rfl⟩ := h
  obtain ⟨p, q, rfl⟩ := ht
  exact ⟨p ++ x, y, z ++ q, by simp⟩

theorem before_of_infix {a b s t : Str} (ha : a <:+: s) (hb : b <:+: t) : Before a b (s ++ t) := by
  obtain ⟨x, y, rfl⟩ := ha
  obtain ⟨p, q, rfl⟩ := hb
  exact ⟨x, y ++ p, q, by simp⟩

end Nv.Doc
