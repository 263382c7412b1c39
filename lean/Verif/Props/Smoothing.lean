import Verif.Lemmas.Smoothing
import Verif.Props.Track
import Verif.Props.Isotropy

/-!
# Smoothed tracks (C147)

`scipy.signal.savgol_filter` is not part of the repo.  The theorems hold for every function that does what the documentation of
`interp_nvectors` says about it: `SavitzkyGolay`.  `exists_savitzkyGolay` shows that there is such a function.
-/

namespace Nv
open Spec
open XR (fin)

/-- what `savgol_filter` does with an odd window and mode 'interp', for columns with real components: row by row, every sample is replaced by
the value of the polynomial that fits best in its window; it raises if the order is not less than the window length or the window longer than
the track.  `emb` embeds real columns in the columns of the array, `rows` are the rows. -/
structure Spec.SavitzkyGolay {γ β : Type} (emb : γ → β) (rows : List (γ → ℝ)) (S : Scipy XR β) : Prop where
  smooth : ∀ (cols : List γ) (h p : ℕ) (cval : XR), p < 2 * h + 1 → 2 * h + 1 ≤ cols.length →
    ∃ out : List γ, S.savgol_filter (cols.map emb) ((2 * h + 1 : ℕ) : ℤ) p "interp" cval = .ok (out.map emb) ∧
      ∀ r ∈ rows, Smoothed (2 * h + 1) p (cols.map r) (out.map r)
  order : ∀ (cols : List β) (w p : ℤ) (mode : String) (cval : XR), w ≤ p → S.savgol_filter cols w p mode cval = .error .ValueError
  few : ∀ (cols : List β) (w p : ℤ) (cval : XR), (cols.length : ℤ) < w → S.savgol_filter cols w p "interp" cval = .error .ValueError

/-- the rows of a `3 x n` array of n-vectors -/
def Spec.rows3 : List (V3 ℝ → ℝ) := [(·.x), (·.y), (·.z)]
/-- the rows of a `4 x n` array of n-vectors and depths -/
def Spec.rows4 : List (V3 ℝ × ℝ → ℝ) := [(·.1.x), (·.1.y), (·.1.z), (·.2)]

/-- the window that is used: the requested length or, if that is even, one more -/
def Spec.oddWindow (w : ℕ) : ℕ := 2 * (w / 2) + 1

example : oddWindow 1 = 1 ∧ oddWindow 2 = 3 ∧ oddWindow 3 = 3 ∧ oddWindow 4 = 5 := by decide

section generic
variable {γ β : Type} [Rows XR β] {emb : γ → β} {rows : List (γ → ℝ)} {S : Scipy XR β}

theorem window_eq {w : ℕ} (hw : 0 < w) : (w : ℤ) + ((w : ℤ) + 1) % 2 = ((2 * (w / 2) + 1 : ℕ) : ℤ) := by omega

theorem interp_vectors_smoothed (hS : SavitzkyGolay emb rows S) (cols : List γ) (w p : ℕ) (hw : 0 < w) (hp : p < oddWindow w)
    (hn : oddWindow w ≤ cols.length) (t_i t : List XR) (kind : String) (cval : XR) :
    ∃ out : List γ, (∀ r ∈ rows, Smoothed (oddWindow w) p (cols.map r) (out.map r)) ∧
      interp_vectors S t_i t (cols.map emb) kind w p "interp" cval = interp_vectors S t_i t (out.map emb) kind 0 p "interp" cval := by
  obtain ⟨out, e, h⟩ := hS.smooth cols (w / 2) p cval hp hn
  refine ⟨out, h, ?_⟩
  unfold interp_vectors
  rw [if_pos (by omega), if_neg (by omega), window_eq hw, e]
  rfl

/-- rows determine the column -/
theorem ext_rows {cols out : List γ} (hrow : ∀ a b : γ, (∀ r ∈ rows, r a = r b) → a = b) (hne : rows ≠ [])
    (h : ∀ r ∈ rows, cols.map r = out.map r) : cols = out := by
  obtain ⟨r0, hr0⟩ := List.exists_mem_of_ne_nil _ hne
  have hl : cols.length = out.length := by simpa using congrArg List.length (h r0 hr0)
  apply List.ext_getElem hl
  intro i h1 h2
  apply hrow
  intro r hr
  have := congrArg (fun l : List ℝ => l[i]?) (h r hr)
  simpa [h1, h2] using this

theorem interp_vectors_exact (hS : SavitzkyGolay emb rows S) (hrow : ∀ a b : γ, (∀ r ∈ rows, r a = r b) → a = b) (hne : rows ≠ [])
    (cols : List γ) (w p : ℕ) (hw : 0 < w) (hp : p < oddWindow w) (hn : oddWindow w ≤ cols.length)
    (hr : ∀ r ∈ rows, ∀ s, s + oddWindow w ≤ cols.length → ∃ q : Polynomial ℝ, q.natDegree ≤ p ∧
      ∀ j < oddWindow w, q.eval ((s + j : ℕ) : ℝ) = (cols.map r).getD (s + j) 0)
    (t_i t : List XR) (kind : String) (cval : XR) :
    interp_vectors S t_i t (cols.map emb) kind w p "interp" cval = interp_vectors S t_i t (cols.map emb) kind 0 p "interp" cval := by
  obtain ⟨out, h, e⟩ := interp_vectors_smoothed hS cols w p hw hp hn t_i t kind cval
  have : cols = out := ext_rows hrow hne fun r hrr =>
    ((h r hrr).exact (by unfold oddWindow; omega) (by simpa using hn) (by simpa using hr r hrr)).symm
  rw [e, ← this]

theorem interp_vectors_raises (hS : SavitzkyGolay emb rows S) (cols : List β) (w p : ℕ) (hw : 0 < w)
    (h : oddWindow w ≤ p ∨ cols.length < oddWindow w) (t_i t : List XR) (kind : String) (cval : XR) :
    interp_vectors S t_i t cols kind w p "interp" cval = .error .ValueError := by
  unfold interp_vectors
  rw [if_pos (by omega), window_eq hw]
  unfold oddWindow at h
  rcases h with h | h
  · rw [hS.order _ _ _ _ _ (by omega)]; rfl
  · rw [hS.few _ _ _ _ (by omega)]; rfl
end generic

theorem rows3_sep (a b : V3 ℝ) (h : ∀ r ∈ rows3, r a = r b) : a = b := by
  simp [rows3] at h; exact V3.ext h.1 h.2.1 h.2.2
theorem rows4_sep (a b : V3 ℝ × ℝ) (h : ∀ r ∈ rows4, r a = r b) : a = b := by
  simp [rows4] at h; exact Prod.ext (V3.ext h.1 h.2.1 h.2.2.1) h.2.2.2

variable (S : Scipy XR (V3 XR)) (hS : SavitzkyGolay V3.fin rows3 S)
include hS

/-- **C147** interpolating with smoothing is interpolating the smoothed track: the same times, and in every component the values of the
polynomials that fit best in the windows.  The times play no role in the smoothing: the polynomials are in the number of the sample. -/
theorem C147_smoothed (s : List (ℝ × V3 ℝ)) (w p : ℕ) (hw : 0 < w) (hp : p < oddWindow w) (hn : oddWindow w ≤ s.length) (t_i : List XR)
    (kind : String) (cval : XR) :
    ∃ s' : List (ℝ × V3 ℝ), s'.map Prod.fst = s.map Prod.fst ∧
      (∀ r ∈ rows3, Smoothed (oddWindow w) p (s.map fun x => r x.2) (s'.map fun x => r x.2)) ∧
      interp_nvectors S t_i (times s) (columns s) kind w p "interp" cval = interp_nvectors S t_i (times s') (columns s') kind 0 p "interp" cval := by
  have hc : columns s = (s.map Prod.snd).map V3.fin := by unfold columns; rw [List.map_map]; rfl
  obtain ⟨out, h, e⟩ := interp_vectors_smoothed hS (s.map Prod.snd) w p hw hp (by simpa using hn) t_i (times s) kind cval
  have hl : out.length = s.length := by
    have := (h (·.x) (by simp [rows3])).length
    simpa using this
  have h1 : ((s.map Prod.fst).zip out).map Prod.fst = s.map Prod.fst := List.map_fst_zip (by simp [hl])
  have h2 : ((s.map Prod.fst).zip out).map Prod.snd = out := List.map_snd_zip (by simp [hl])
  refine ⟨(s.map Prod.fst).zip out, h1, fun r hr => ?_, ?_⟩
  · have := h r hr
    rw [List.map_map] at this
    have e2 : ((s.map Prod.fst).zip out).map (fun x => r x.2) = out.map r := by
      conv_rhs => rw [← h2, List.map_map]
      rfl
    rw [e2]; exact this
  · have ht : times ((s.map Prod.fst).zip out) = times s := by
      have : ∀ l : List (ℝ × V3 ℝ), times l = (l.map Prod.fst).map fin := fun l => by unfold times; rw [List.map_map]; rfl
      rw [this, h1, ← this]
    have hc' : columns ((s.map Prod.fst).zip out) = out.map V3.fin := by
      have : ∀ l : List (ℝ × V3 ℝ), columns l = (l.map Prod.snd).map V3.fin := fun l => by unfold columns; rw [List.map_map]; rfl
      rw [this, h2]
    unfold interp_nvectors
    rw [ht, hc', hc, e]

/-- **C147** a track whose components are polynomials of at most the given order in the number of the sample is not changed by smoothing -/
theorem C147_polynomial (cols : List (V3 ℝ)) (w p : ℕ) (hw : 0 < w) (hp : p < oddWindow w) (hn : oddWindow w ≤ cols.length)
    (X Y Z : Polynomial ℝ) (hX : X.natDegree ≤ p) (hY : Y.natDegree ≤ p) (hZ : Z.natDegree ≤ p)
    (h : ∀ i : ℕ, ∀ v, cols[i]? = some v → v = ⟨X.eval (i : ℝ), Y.eval (i : ℝ), Z.eval (i : ℝ)⟩) (t_i t : List XR) (kind : String) (cval : XR) :
    interp_nvectors S t_i t (cols.map V3.fin) kind w p "interp" cval = interp_nvectors S t_i t (cols.map V3.fin) kind 0 p "interp" cval := by
  unfold interp_nvectors
  rw [interp_vectors_exact hS rows3_sep (by simp [rows3]) cols w p hw hp hn]
  have key : ∀ (r : V3 ℝ → ℝ) (q : Polynomial ℝ), (∀ i : ℕ, ∀ v, cols[i]? = some v → r v = q.eval (i : ℝ)) →
      ∀ s, s + oddWindow w ≤ cols.length → ∀ j < oddWindow w, q.eval ((s + j : ℕ) : ℝ) = (cols.map r).getD (s + j) 0 := by
    intro r q hq s hs j hj
    have hlt : s + j < cols.length := by omega
    rw [getD_lt _ _ (by simpa using hlt), List.getElem_map, hq (s + j) _ (List.getElem?_eq_getElem hlt)]
  intro r hr s hs
  simp only [rows3, List.mem_cons, List.not_mem_nil, or_false] at hr
  rcases hr with rfl | rfl | rfl
  · exact ⟨X, hX, key _ X (fun i v hv => by rw [h i v hv]) s hs⟩
  · exact ⟨Y, hY, key _ Y (fun i v hv => by rw [h i v hv]) s hs⟩
  · exact ⟨Z, hZ, key _ Z (fun i v hv => by rw [h i v hv]) s hs⟩

/-- **C147** so a position at rest stays where it is -/
theorem C147_at_rest (A : V3 ℝ) (n w p : ℕ) (hw : 0 < w) (hp : p < oddWindow w) (hn : oddWindow w ≤ n) (t_i t : List XR) (kind : String)
    (cval : XR) :
    interp_nvectors S t_i t (List.replicate n A.fin) kind w p "interp" cval =
      interp_nvectors S t_i t (List.replicate n A.fin) kind 0 p "interp" cval := by
  have e : List.replicate n A.fin = (List.replicate n A).map V3.fin := by simp
  rw [e]
  refine C147_polynomial S hS _ w p hw hp (by simpa using hn) (.C A.x) (.C A.y) (.C A.z) (by simp) (by simp) (by simp) ?_ t_i t kind cval
  intro i v hv
  have := List.mem_of_getElem? hv
  rw [List.eq_of_mem_replicate this]
  simp

/-- **C147** a window that is not longer than the order plus one does not smooth at all; with the default order 2 these are the lengths 2 and 3 -/
theorem C147_no_effect (cols : List (V3 ℝ)) (w p : ℕ) (hw : 0 < w) (hp : oddWindow w = p + 1) (hn : oddWindow w ≤ cols.length)
    (t_i t : List XR) (kind : String) (cval : XR) :
    interp_nvectors S t_i t (cols.map V3.fin) kind w p "interp" cval = interp_nvectors S t_i t (cols.map V3.fin) kind 0 p "interp" cval := by
  unfold interp_nvectors
  rw [interp_vectors_exact hS rows3_sep (by simp [rows3]) cols w p hw (by omega) hn]
  intro r _ s _
  exact through_window (by omega) s

/-- **C147** an order that is not less than the window length, or a window longer than the track, raises; with the default order 2 the window
length 1 always raises -/
theorem C147_raises (cols : List (V3 XR)) (w p : ℕ) (hw : 0 < w) (h : oddWindow w ≤ p ∨ cols.length < oddWindow w) (t_i t : List XR)
    (kind : String) (cval : XR) :
    interp_nvectors S t_i t cols kind w p "interp" cval = .error .ValueError ∧
    interp_nvectors S t_i t cols (window_length := 1) = .error .ValueError := by
  unfold interp_nvectors
  have h1 := interp_vectors_raises hS cols w p hw h t_i t kind cval
  have h2 := interp_vectors_raises hS cols 1 2 (by norm_num) (.inl (by decide)) t_i t "linear" (lit 0)
  rw [h1]
  norm_num at h2
  rw [h2]
  exact ⟨rfl, rfl⟩

/-- **C147** no direction is special: rotating all positions of a track rotates all smoothed and interpolated positions -/
theorem C147_rotation (Q : M3 ℝ) (hQ : IsRotation Q) (s : List (ℝ × V3 ℝ)) (hd : DistinctTimes s) (h2 : 2 ≤ s.length) (w p : ℕ) (hw : 0 < w)
    (hp : p < oddWindow w) (hn : oddWindow w ≤ s.length) (xs : List ℝ) (cval : XR) :
    ∃ R, interp_nvectors S (xs.map fin) (times s) (columns s) "linear" w p "interp" cval = .ok R ∧
      interp_nvectors S (xs.map fin) (times s) ((columns s).map (turned Q)) "linear" w p "interp" cval = .ok (R.map (turned Q)) := by
  obtain ⟨s1, ht1, h1, e1⟩ := C147_smoothed S hS s w p hw hp hn (xs.map fin) "linear" cval
  have hl1 : s1.length = s.length := by simpa using congrArg List.length ht1
  let q : ℝ × V3 ℝ → ℝ × V3 ℝ := fun x => (x.1, app Q x.2)
  have htq : ∀ l : List (ℝ × V3 ℝ), times (l.map q) = times l := fun l => by unfold times; rw [List.map_map]; rfl
  have hcq : ∀ l : List (ℝ × V3 ℝ), columns (l.map q) = (columns l).map (turned Q) := fun l => by
    unfold columns; rw [List.map_map, List.map_map]; exact List.map_congr_left fun x _ => (turned_fin Q x.2).symm
  obtain ⟨s2, ht2, h2', e2⟩ := C147_smoothed S hS (s.map q) w p hw hp (by simpa using hn) (xs.map fin) "linear" cval
  have hl2 : s2.length = s.length := by simpa using congrArg List.length ht2
  -- the smoothed rotated track is the rotated smoothed track
  have hs2 : s2 = s1.map q := by
    have hrow : ∀ r ∈ rows3, s2.map (fun x => r x.2) = s1.map (fun x => r (app Q x.2)) := by
      intro r hr
      have h := h2' r hr
      rw [List.map_map] at h
      refine h.unique (by unfold oddWindow; omega) (by simpa using hn) ?_
      have comb : ∀ c : Fin 3 → ℝ, (∀ v : V3 ℝ, r (app Q v) = c 0 * v.x + c 1 * v.y + c 2 * v.z) →
          Smoothed (oddWindow w) p (s.map ((fun x => r x.2) ∘ q)) (s1.map fun x => r (app Q x.2)) := by
        intro c hc
        refine Smoothed.combine (n := s.length) (k := 3) (c := c) (X := fun i => s.map fun x => ([x.2.x, x.2.y, x.2.z] : List ℝ).getD i 0)
          (Y := fun i => s1.map fun x => ([x.2.x, x.2.y, x.2.z] : List ℝ).getD i 0) ?_ (by simp) (by simp) (by simp [hl1]) ?_ ?_
        · intro i
          fin_cases i
          · exact h1 (·.x) (by simp [rows3])
          · exact h1 (·.y) (by simp [rows3])
          · exact h1 (·.z) (by simp [rows3])
        all_goals intro j
        all_goals simp only [Fin.sum_univ_three, List.getD_eq_getElem?_getD, List.getElem?_map]
        · cases s[j]? with
          | none => simp
          | some v => simpa [q] using hc v.2
        · cases s1[j]? with
          | none => simp
          | some v => simpa [q] using hc v.2
      simp only [rows3, List.mem_cons, List.not_mem_nil, or_false] at hr
      rcases hr with rfl | rfl | rfl
      · exact comb ![Q.r0.x, Q.r0.y, Q.r0.z] fun v => by simp [app, dot]
      · exact comb ![Q.r1.x, Q.r1.y, Q.r1.z] fun v => by simp [app, dot]
      · exact comb ![Q.r2.x, Q.r2.y, Q.r2.z] fun v => by simp [app, dot]
    have hsnd : s2.map Prod.snd = (s1.map q).map Prod.snd := by
      refine ext_rows rows3_sep (by simp [rows3]) fun r hr => ?_
      rw [List.map_map, List.map_map, List.map_map]
      exact hrow r hr
    have hfst : s2.map Prod.fst = (s1.map q).map Prod.fst := by
      rw [ht2, List.map_map, List.map_map, ← show s.map Prod.fst = s.map (Prod.fst ∘ q) from rfl, ← ht1]; rfl
    apply List.ext_getElem (by simp [hl1, hl2])
    intro i a b
    have u := congrArg (fun l : List ℝ => l[i]?) hfst
    have v := congrArg (fun l : List (V3 ℝ) => l[i]?) hsnd
    simp only [List.getElem?_map, List.getElem?_eq_getElem a, List.getElem?_eq_getElem b, Option.map_some, Option.some.injEq] at u v
    exact Prod.ext u v
  have hd1 : DistinctTimes s1 := by unfold DistinctTimes at *; rw [ht1]; exact hd
  have hdq : DistinctTimes (s1.map q) := by
    unfold DistinctTimes at *; rw [List.map_map]; exact hd1
  rw [htq, hcq, hs2, htq] at e2
  rw [e1, e2]
  -- the rotation of an unsmoothed track
  have plain : ∀ l : List (V3 XR), ∀ t, interp_nvectors S (xs.map fin) t l "linear" 0 p "interp" cval = interp_nvectors S (xs.map fin) t l := by
    intro l t; unfold interp_nvectors interp_vectors; rfl
  have he := interp_nvectors_fin S s1 xs
  have he' := interp_nvectors_fin S (s1.map q) xs
  rw [htq] at he'
  refine ⟨_, (plain _ _).trans he, (plain _ _).trans (he'.trans ?_)⟩
  rw [List.map_map]
  congr 1
  apply List.ext_getElem (by simp)
  intro i a b
  have hi : xs[i]? = some (xs[i]'(by simpa using a)) := List.getElem?_eq_getElem _
  rcases C55_cases s1 hd1 (by omega) (xs[i]'(by simpa using a)) with hout | ⟨⟨t0, A⟩, ⟨t1, B⟩, hnb, hx0, hx1⟩
  · obtain ⟨R, r1, r2⟩ := C55_outside S s1 xs i _ hi hout
    have hout' : (∀ p ∈ s1.map q, (xs[i]'(by simpa using a)) < p.1) ∨ (∀ p ∈ s1.map q, p.1 < xs[i]'(by simpa using a)) := by
      rcases hout with h | h
      · exact .inl fun p hp => by obtain ⟨x, hx, rfl⟩ := List.mem_map.1 hp; exact h x hx
      · exact .inr fun p hp => by obtain ⟨x, hx, rfl⟩ := List.mem_map.1 hp; exact h x hx
    obtain ⟨R', r1', r2'⟩ := C55_outside S (s1.map q) xs i _ hi hout'
    rw [he] at r1; rw [htq, he'] at r1'
    injection r1 with r1; injection r1' with r1'
    rw [← r1, List.getElem?_map, hi] at r2
    rw [← r1', List.getElem?_map, hi] at r2'
    simp only [Option.map_some, Option.some.injEq] at r2 r2'
    simp only [List.getElem_map, Function.comp_apply]
    rw [r2, r2']
    exact (turned_nan Q).symm
  · obtain ⟨R, r1, r2⟩ := C55_between S s1 hd1 xs i _ hi t0 t1 A B hnb hx0 hx1
    have hnb' : Neighbours (s1.map q) (t0, app Q A) (t1, app Q B) :=
      ⟨List.mem_map.2 ⟨_, hnb.left, rfl⟩, List.mem_map.2 ⟨_, hnb.right, rfl⟩, hnb.lt, fun r hr => by
        obtain ⟨x, hx, rfl⟩ := List.mem_map.1 hr; exact hnb.next x hx⟩
    obtain ⟨R', r1', r2'⟩ := C55_between S (s1.map q) hdq xs i _ hi t0 t1 _ _ hnb' hx0 hx1
    rw [he] at r1; rw [htq, he'] at r1'
    injection r1 with r1; injection r1' with r1'
    rw [← r1, List.getElem?_map, hi] at r2
    rw [← r1', List.getElem?_map, hi] at r2'
    simp only [Option.map_some, Option.some.injEq] at r2 r2'
    simp only [List.getElem_map, Function.comp_apply]
    rw [r2, r2', ← turned_fin, ← turned_fin]
    exact (C122_paths hQ A B A B _).2.1

/-- **C147** with smoothing the order in which the samples are given matters, unlike without (`C55_order`): the filter works in the order of the
array, not of the times.  Here the average of three samples is taken (order 0, window 3) and the position at the time 0 is asked for. -/
theorem C147_order_counterexample (A B : V3 ℝ) (hA : UnitVec A) (hB : UnitVec B) (hAB : ProperPath A B) (cval : XR) :
    let s : List (ℝ × V3 ℝ) := [(0, A), (1, A), (2, A), (3, B)]
    let s' : List (ℝ × V3 ℝ) := [(0, A), (3, B), (1, A), (2, A)]
    s.Perm s' ∧ ∃ C : V3 ℝ, C ≠ A ∧
      interp_nvectors S [fin 0] (times s) (columns s) "linear" 3 0 "interp" cval = .ok [A.fin] ∧
      interp_nvectors S [fin 0] (times s') (columns s') "linear" 3 0 "interp" cval = .ok [C.fin] := by
  intro s s'
  have hdd : ∀ {l : List (ℝ × V3 ℝ)} {l' : List (ℝ × V3 ℝ)}, l'.map Prod.fst = l.map Prod.fst → DistinctTimes l → DistinctTimes l' := by
    intro l l' e h; unfold DistinctTimes at *; rw [e]; exact h
  -- the first sample of a track of four that starts at time 0
  have first : ∀ (l : List (ℝ × V3 ℝ)) (a b c d : V3 ℝ) (ta tb tc : ℝ), l = [(0, a), (ta, b), (tb, c), (tc, d)] → DistinctTimes l →
      ∃ A', (1 / 3 : ℝ) • (a + b + c) = A' ∧ (A' ≠ 0 → interp_nvectors S [fin 0] (times l) (columns l) "linear" 3 0 "interp" cval = .ok [(dirOf A').fin]) := by
    intro l a b c d ta tb tc hl hd
    refine ⟨_, rfl, fun hne => ?_⟩
    obtain ⟨l', ht, hsm, e⟩ := C147_smoothed S hS l 3 0 (by norm_num) (by decide) (by rw [hl]; simp [oddWindow]) [fin 0] "linear" cval
    have hlen : l'.length = 4 := by have := congrArg List.length ht; rw [hl] at this; simpa using this
    obtain ⟨x0, x1, x2, x3, rfl⟩ : ∃ x0 x1 x2 x3, l' = [x0, x1, x2, x3] := by
      match l', hlen with
      | [x0, x1, x2, x3], _ => exact ⟨_, _, _, _, rfl⟩
    have h0 : x0.1 = 0 := by rw [hl] at ht; simpa using congrArg List.head? ht
    have hval : x0.2 = (1 / 3 : ℝ) • (a + b + c) := by
      have key : ∀ r ∈ rows3, r x0.2 = (r a + r b + r c) / 3 := by
        intro r hr
        obtain ⟨q, hq, eq⟩ := (hsm r hr).value 0 (by simp)
        rw [fit_zero hq (by decide)] at eq
        rw [hl] at eq
        simpa [windowStart, oddWindow, Finset.sum_range_succ] using eq
      apply V3.ext
      · have := key (·.x) (by simp [rows3]); simp at this ⊢; linarith
      · have := key (·.y) (by simp [rows3]); simp at this ⊢; linarith
      · have := key (·.z) (by simp [rows3]); simp at this ⊢; linarith
    have hd' := hdd ht hd
    have e0 : interp_nvectors S [fin 0] (times [x0, x1, x2, x3]) (columns [x0, x1, x2, x3]) "linear" 0 0 "interp" cval =
        interp_nvectors S ([0].map fin) (times [x0, x1, x2, x3]) (columns [x0, x1, x2, x3]) := rfl
    have e' := e.trans e0
    have hx0 : x0 = (0, (1 / 3 : ℝ) • (a + b + c)) := Prod.ext h0 hval
    have hmem : ((0 : ℝ), (1 / 3 : ℝ) • (a + b + c)) ∈ [x0, x1, x2, x3] := by rw [← hx0]; simp
    have fin_ : ∀ R : List (V3 XR), interp_nvectors S ([0].map fin) (times [x0, x1, x2, x3]) (columns [x0, x1, x2, x3]) = .ok R →
        R[0]? = some (dirOf ((1 / 3 : ℝ) • (a + b + c))).fin →
        interp_nvectors S [fin 0] (times l) (columns l) "linear" 3 0 "interp" cval = .ok [(dirOf ((1 / 3 : ℝ) • (a + b + c))).fin] := by
      intro R h1 h2
      have hlR : R.length = 1 := by
        obtain ⟨R', r1, r2⟩ := C55_length S [x0, x1, x2, x3] [0]
        rw [h1] at r1; injection r1 with r1; rw [r1]; exact r2
      have e3 : interp_nvectors S [fin 0] (times l) (columns l) "linear" 3 0 "interp" cval = .ok R := by
        rw [← h1]; exact e'
      rw [e3]
      match R, hlR with
      | [v], _ => simp only [List.getElem?_cons_zero, Option.some.injEq] at h2; rw [h2]
    have m0 : ∀ v w : V3 ℝ, v ≠ 0 → interpolate (v.fin, w.fin) (fin 0) = (dirOf v).fin := by
      intro v w hv
      have : mix v w 0 = v := by rw [mix_eq]; ext <;> simp
      rw [interpolate_fin (by rw [this]; exact hv), this]
    have m1 : ∀ v w : V3 ℝ, v ≠ 0 → interpolate (w.fin, v.fin) (fin 1) = (dirOf v).fin := by
      intro v w hv
      have : mix w v 1 = v := by rw [mix_eq]; ext <;> simp
      rw [interpolate_fin (by rw [this]; exact hv), this]
    rcases neighbour_exists hd' (by simp) hmem with ⟨⟨t1, D⟩, hnb⟩ | ⟨⟨t0, D⟩, hnb⟩
    · obtain ⟨R, r1, r2⟩ := C55_between S _ hd' [0] 0 0 rfl 0 t1 _ D hnb le_rfl hnb.lt.le
      refine fin_ R r1 ?_
      rw [r2, fraction, sub_self, zero_div, m0 _ _ hne]
    · obtain ⟨R, r1, r2⟩ := C55_between S _ hd' [0] 0 0 rfl t0 0 D _ hnb hnb.lt.le le_rfl
      refine fin_ R r1 ?_
      have := hnb.lt
      rw [r2, fraction, div_self (by simp only at this; linarith), m1 _ _ hne]
  obtain ⟨A1, a1, f1⟩ := first s A A A B 1 2 3 rfl (by simp [DistinctTimes, s])
  obtain ⟨A2, a2, f2⟩ := first s' A B A A 3 1 2 rfl (by simp [DistinctTimes, s'])
  have hA1 : A1 = A := by rw [← a1]; ext <;> simp <;> ring
  -- 2 A + B is not a multiple of A
  have hcr : cross A2 A ≠ 0 := by
    intro h
    apply hAB
    rw [← a2] at h
    have hx := congrArg V3.x h; have hy := congrArg V3.y h; have hz := congrArg V3.z h
    simp [cross, -mul_eq_zero] at hx hy hz
    ext <;> simp [cross]
    · linear_combination -3 * hx
    · linear_combination -3 * hy
    · linear_combination -3 * hz
  have hA2 : A2 ≠ 0 := by rintro rfl; apply hcr; ext <;> simp [cross]
  refine ⟨?_, dirOf A2, ?_, ?_, f2 hA2⟩
  · refine List.Perm.cons _ ?_
    exact (List.perm_append_singleton (3, B) [(1, A), (2, A)])
  · intro h
    apply hcr
    have hl0 := (len_pos hA2).ne'
    have : A2 = len A2 • dirOf A2 := by unfold dirOf; ext <;> simp <;> field_simp
    rw [this, h]
    ext <;> simp [cross] <;> ring
  · have := f1 (by rw [hA1]; exact hA.ne)
    rw [hA1, dirOf_of_unit hA] at this
    exact this

omit hS in
/-- **C147** the same for `Nvector.interpolate`, where the depth is smoothed too: windows not longer than the order plus one have no effect, and
the same calls raise -/
theorem C147_nvector (S : Scipy XR (V3 XR × XR)) (hS : SavitzkyGolay (fun g : V3 ℝ × ℝ => (g.1.fin, fin g.2)) rows4 S)
    (s : List (ℝ × (V3 ℝ × ℝ))) (w p : ℕ) (hw : 0 < w) (t_i t : List XR) (kind : String) (cval : XR) :
    (oddWindow w = p + 1 → oddWindow w ≤ s.length →
      Nvector_interpolate S (normals s) (depths s) t_i t kind w p "interp" cval =
        Nvector_interpolate S (normals s) (depths s) t_i t kind 0 p "interp" cval) ∧
    (oddWindow w ≤ p ∨ s.length < oddWindow w →
      Nvector_interpolate S (normals s) (depths s) t_i t kind w p "interp" cval = .error .ValueError) ∧
    (p < oddWindow w → oddWindow w ≤ s.length → ∀ (A : V3 ℝ) (z : ℝ), (∀ x ∈ s, x.2 = (A, z)) →
      Nvector_interpolate S (normals s) (depths s) t_i t kind w p "interp" cval =
        Nvector_interpolate S (normals s) (depths s) t_i t kind 0 p "interp" cval) := by
  have hv : vstackDepth (normals s) (depths s) = .ok ((s.map Prod.snd).map fun g => (g.1.fin, fin g.2)) := by
    unfold vstackDepth normals depths
    simp only [List.length_map, if_true, List.zip_map', List.map_map]
    rfl
  unfold Nvector_interpolate
  rw [hv]
  simp only [bind, Except.bind]
  refine ⟨fun h hn => ?_, fun h => ?_, fun hp hn A z h => ?_⟩
  · rw [interp_vectors_exact hS rows4_sep (by simp [rows4]) _ w p hw (by omega) (by simpa using hn)]
    intro r _ s _
    exact through_window (by omega) s
  · rw [interp_vectors_raises hS _ w p hw (by simpa using h)]
  · rw [interp_vectors_exact hS rows4_sep (by simp [rows4]) _ w p hw hp (by simpa using hn)]
    intro r _ j hj
    refine ⟨.C (r (A, z)), by simp, fun k hk => ?_⟩
    have hlt : j + k < s.length := by rw [List.length_map] at hj; omega
    rw [getD_lt _ _ (by simpa using hlt), List.getElem_map, List.getElem_map, h _ (List.getElem_mem hlt)]
    simp

end Nv
