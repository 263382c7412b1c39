import Verif.Model.Track
import Verif.Spec.Track
import Verif.Props.Interp
import Mathlib.Data.List.GetD

/-!
# C54, C55, C61: interpolation of tracks
-/

namespace Nv

open Spec
open XR (fin)

/-! ## C54: the smoothing window -/

/-- **C54** a positive window length: the filter is called with an odd length, which is the requested one or one more, and the
rest of the interpolation works on the filtered columns -/
theorem C54_window_odd {α β : Type} [PyFloat α] [Rows α β] (S : Scipy α β) (t_i t : List α) (nvectors : List β) (kind : String)
    (w polyorder : ℤ) (mode : String) (cval : α) (hw : 0 < w) :
    ∃ w', Odd w' ∧ w ≤ w' ∧ w' ≤ w + 1 ∧ (Odd w → w' = w) ∧
      interp_vectors S t_i t nvectors kind w polyorder mode cval =
        (do let normals ← S.savgol_filter nvectors w' polyorder mode cval
            interp_vectors S t_i t normals kind 0 polyorder mode cval) := by
  refine ⟨w + (w + 1) % 2, ?_, by omega, by omega, ?_, ?_⟩
  · rw [Int.odd_iff]; omega
  · intro h; rw [Int.odd_iff] at h; omega
  · unfold interp_vectors
    rw [if_pos hw]
    rfl

/-- **C54** a window length of zero or less: no smoothing, whatever the filter does -/
theorem C54_no_smoothing {α β : Type} [PyFloat α] [Rows α β] (S S' : Scipy α β) (t_i t : List α) (nvectors : List β)
    (w w' polyorder polyorder' : ℤ) (mode mode' : String) (cval cval' : α) (hw : w ≤ 0) (hw' : w' ≤ 0) :
    interp_vectors S t_i t nvectors "linear" w polyorder mode cval =
      interp_vectors S' t_i t nvectors "linear" w' polyorder' mode' cval' ∧
    interp_vectors S t_i t nvectors "linear" w polyorder mode cval = interp1dLinear t nvectors t_i := by
  unfold interp_vectors
  rw [if_neg (by omega), if_neg (by omega)]
  exact ⟨rfl, rfl⟩

/-- **C54** the same for the functions of the API -/
theorem C54_interp_nvectors {α : Type} [PyFloat α] (S : Scipy α (V3 α)) (t_i t : List α) (nvectors : List (V3 α)) (kind : String)
    (w polyorder : ℤ) (mode : String) (cval : α) (hw : 0 < w) :
    ∃ w', Odd w' ∧ w ≤ w' ∧ w' ≤ w + 1 ∧ (Odd w → w' = w) ∧
      interp_nvectors S t_i t nvectors kind w polyorder mode cval =
        (do let normals ← S.savgol_filter nvectors w' polyorder mode cval
            interp_nvectors S t_i t normals kind 0 polyorder mode cval) := by
  obtain ⟨w', h1, h2, h3, h4, h5⟩ := C54_window_odd S t_i t nvectors kind w polyorder mode cval hw
  refine ⟨w', h1, h2, h3, h4, ?_⟩
  unfold interp_nvectors
  rw [h5]
  cases S.savgol_filter nvectors w' polyorder mode cval <;> rfl

example : (0 : ℤ) < 4 ∧ (4 : ℤ) + (4 + 1) % 2 = 5 ∧ (5 : ℤ) + (5 + 1) % 2 = 5 := by decide

/-! ## The linear interpolation between neighbours -/

theorem getD_fin (s : List (ℝ × ℝ)) (q : ℝ × ℝ) (i : ℕ) :
    (s.map fun p => (fin p.1, fin p.2)).getD i (fin q.1, fin q.2) = (fin (s.getD i q).1, fin (s.getD i q).2) := by
  simp only [List.getD_eq_getElem?_getD, List.getElem?_map]
  cases s[i]? <;> rfl

theorem interpLinear_core {pre post : List (ℝ × ℝ)} {t0 y0 t1 y1 x : ℝ}
    (hs : (pre ++ (t0, y0) :: (t1, y1) :: post).Pairwise (fun a b => a.1 < b.1)) (h0 : t0 < x ∨ (pre = [] ∧ t0 = x))
    (h1 : x ≤ t1) :
    interpLinear ((pre ++ (t0, y0) :: (t1, y1) :: post).map fun p => (fin p.1, fin p.2)) (fin x) =
      fin (y0 + (y1 - y0) * fraction t0 t1 x) := by
  obtain ⟨S, hS⟩ : ∃ S, S = pre ++ (t0, y0) :: (t1, y1) :: post := ⟨_, rfl⟩
  rw [← hS] at hs ⊢
  have hp := hs
  rw [hS, List.pairwise_append] at hp
  obtain ⟨-, hp2, hp3⟩ := hp
  have hpre : ∀ r ∈ pre, r.1 < t0 := fun r hr => hp3 r hr (t0, y0) (by simp)
  have h01 : t0 < t1 := by
    rw [List.pairwise_cons] at hp2
    exact hp2.1 (t1, y1) (by simp)
  have hx0 : t0 ≤ x := by rcases h0 with h | ⟨-, h⟩ <;> linarith
  have hn : S.length = pre.length + 2 + post.length := by rw [hS]; simp; omega
  have hk : max (S.takeWhile (fun q => decide (q.1 < x))).length 1 = pre.length + 1 := by
    rcases h0 with h0 | ⟨rfl, h0⟩
    · rw [hS, List.takeWhile_append_of_pos (by intro r hr; simpa using (hpre r hr).trans h0),
        List.takeWhile_cons_of_pos (by simpa using h0), List.takeWhile_cons_of_neg (by simpa using h1)]
      simp
    · rw [hS, List.nil_append, List.takeWhile_cons_of_neg (by simp [h0])]
      simp
  obtain ⟨q, rest, hq⟩ : ∃ q rest, S = q :: rest := by
    cases S with
    | nil => simp at hn; omega
    | cons q rest => exact ⟨q, rest, rfl⟩
  have hlast : x ≤ (S.getD (S.length - 1) q).1 := by
    have hlt : S.length - 1 < S.length := by omega
    rw [List.getD_eq_getElem _ _ hlt]
    have : t1 ≤ S[S.length - 1].1 := by
      have h1' : S[pre.length + 1]'(by omega) = (t1, y1) := by
        simp only [hS]
        rw [List.getElem_append_right (by omega)]
        simp
      rcases Nat.lt_or_ge (pre.length + 1) (S.length - 1) with hl | hl
      · have := (List.pairwise_iff_getElem.mp hs) (pre.length + 1) (S.length - 1) (by omega) hlt hl
        rw [h1'] at this
        exact this.le
      · have e : S.length - 1 = pre.length + 1 := by omega
        simp only [e, h1', le_refl]
    linarith
  have hfirst : q.1 ≤ x := by
    cases pre with
    | nil =>
      rw [List.nil_append, hq] at hS
      have : q = (t0, y0) := (List.cons.inj hS).1
      rw [this]; exact hx0
    | cons r pre' =>
      rw [hq] at hS
      have : q = r := (List.cons.inj hS).1
      rw [this]
      have := hpre r (by simp)
      linarith
  have g1 : S.getD (pre.length + 1) q = (t1, y1) := by
    rw [hS, List.getD_append_right _ _ _ _ (by omega)]; simp
  have g0 : S.getD pre.length q = (t0, y0) := by
    rw [hS, List.getD_append_right _ _ _ _ (by omega)]; simp
  have hmap : ∀ i, (S.map fun p => (fin p.1, fin p.2)).getD i (fin q.1, fin q.2) = (fin (S.getD i q).1, fin (S.getD i q).2) := by
    intro i
    exact getD_fin S q i
  have e : interpLinear (S.map fun p => (fin p.1, fin p.2)) (fin x) =
      (let n := S.length
       let hi := min (max (S.takeWhile (fun q => decide (q.1 < x))).length 1) (n - 1)
       let lo := if hi = 0 then n - 1 else hi - 1
       let a := S.getD lo q
       let b := S.getD hi q
       let y := (fin b.2 - fin a.2) / (fin b.1 - fin a.1) * (fin x - fin a.1) + fin a.2
       if x < q.1 then XR.nan else if (S.getD (n - 1) q).1 < x then XR.nan else y) := by
    conv_lhs => rw [hq]
    unfold interpLinear
    simp only [List.map_cons]
    have hc : (fin q.1, fin q.2) :: rest.map (fun p => (fin p.1, fin p.2)) = S.map (fun p => (fin p.1, fin p.2)) := by rw [hq]; rfl
    rw [hc]
    simp only [hmap, List.length_map, List.takeWhile_map, Function.comp_def, XR.lt_fin, decide_eq_true_eq]
    rfl
  rw [e]
  simp only [hk]
  have hmin : min (pre.length + 1) (S.length - 1) = pre.length + 1 := by omega
  simp only [hmin, Nat.add_eq_zero_iff, one_ne_zero, and_false, if_false, Nat.add_sub_cancel, g0, g1]
  rw [if_neg (not_lt.mpr hfirst), if_neg (not_lt.mpr hlast)]
  have hne : t1 - t0 ≠ 0 := by linarith
  simp only [XR.sub_fin, XR.div_fin hne, XR.mul_fin, XR.add_fin]
  congr 1
  unfold fraction
  field_simp
  ring

/-- a sorted sample list with values -/
theorem interpLinear_between {pre post : List (ℝ × ℝ)} {t0 y0 t1 y1 x : ℝ}
    (hs : (pre ++ (t0, y0) :: (t1, y1) :: post).Pairwise (fun a b => a.1 < b.1)) (h0 : t0 ≤ x) (h1 : x ≤ t1) :
    interpLinear ((pre ++ (t0, y0) :: (t1, y1) :: post).map fun p => (fin p.1, fin p.2)) (fin x) =
      fin (y0 + (y1 - y0) * fraction t0 t1 x) := by
  rcases h0.lt_or_eq with h0 | h0
  · exact interpLinear_core hs (.inl h0) h1
  · rcases List.eq_nil_or_concat pre with rfl | ⟨pre', p, rfl⟩
    · exact interpLinear_core hs (.inr ⟨rfl, h0⟩) h1
    · have e : pre'.concat p ++ (t0, y0) :: (t1, y1) :: post = pre' ++ (p.1, p.2) :: (t0, y0) :: (t1, y1) :: post := by simp
      rw [e] at hs ⊢
      have hp0 : p.1 < t0 := by
        rw [List.pairwise_append] at hs
        have := hs.2.1
        rw [List.pairwise_cons] at this
        exact this.1 (t0, y0) (by simp)
      rw [interpLinear_core hs (.inl (by rw [← h0]; exact hp0)) h0.ge]
      congr 1
      unfold fraction
      rw [← h0, sub_self, zero_div, mul_zero, add_zero, div_self (by linarith)]
      ring

/-- outside the range of times -/
theorem interpLinear_outside {s : List (ℝ × ℝ)} (x : ℝ) (h : (∀ p ∈ s, x < p.1) ∨ (∀ p ∈ s, p.1 < x)) :
    interpLinear (s.map fun p => (fin p.1, fin p.2)) (fin x) = XR.nan := by
  cases s with
  | nil => rfl
  | cons q rest =>
    unfold interpLinear
    simp only [List.map_cons]
    rcases h with h | h
    · rw [if_pos (by simpa [xr] using h q (by simp))]; rfl
    · have hc : (fin q.1, fin q.2) :: rest.map (fun p => (fin p.1, fin p.2)) =
          (q :: rest).map (fun p => (fin p.1, fin p.2)) := rfl
      have h2 : PyFloat.lt (((q :: rest).map (fun p => (fin p.1, fin p.2))).getD
          (((q :: rest).map (fun p => (fin p.1, fin p.2))).length - 1) (fin q.1, fin q.2)).1 (fin x) = true := by
        rw [getD_fin]
        simp only [xr, decide_eq_true_eq]
        apply h
        rw [List.getD_eq_getElem _ _ (by simp)]
        exact List.getElem_mem _
      rw [hc, if_pos h2]
      exact ite_self _

/-! ## Sorting -/

section
variable {γ β : Type}

/-- the order of the samples -/
noncomputable def leTime (a b : ℝ × γ) : Bool := decide (a.1 ≤ b.1)

theorem sort_strict {s : List (ℝ × γ)} (hd : DistinctTimes s) : (s.mergeSort leTime).Pairwise (fun a b => a.1 < b.1) := by
  have h1 : (s.mergeSort leTime).Pairwise (fun a b => leTime a b = true) :=
    List.pairwise_mergeSort (fun a b c h1 h2 => by simp only [leTime, decide_eq_true_eq] at *; exact h1.trans h2)
      (fun a b => by simp only [leTime, Bool.or_eq_true, decide_eq_true_eq]; exact le_total a.1 b.1) s
  have h2 : ((s.mergeSort leTime).map Prod.fst).Nodup := ((List.mergeSort_perm s leTime).map Prod.fst).nodup_iff.mpr hd
  have h3 : (s.mergeSort leTime).Pairwise (fun a b => a.1 ≠ b.1) := List.pairwise_map.mp h2
  exact (h1.and h3).imp fun h => lt_of_le_of_ne (by simpa [leTime] using h.1) h.2

theorem neighbours_split {T : List (ℝ × γ)} (hT : T.Pairwise (fun a b => a.1 < b.1)) {p q : ℝ × γ} (h : Neighbours T p q) :
    ∃ pre post, T = pre ++ p :: q :: post := by
  obtain ⟨pre, suf, rfl⟩ := List.append_of_mem h.left
  rw [List.pairwise_append] at hT
  obtain ⟨-, h2, h3⟩ := hT
  rw [List.pairwise_cons] at h2
  have hq : q ∈ suf := by
    have := h.right
    rw [List.mem_append, List.mem_cons] at this
    rcases this with h' | h' | h'
    · have := h3 q h' p (by simp); have := h.lt; linarith
    · have := h.lt; rw [h'] at this; exact absurd this (lt_irrefl _)
    · exact h'
  cases suf with
  | nil => simp at hq
  | cons b post =>
    rw [List.mem_cons] at hq
    rcases hq with rfl | hq
    · exact ⟨pre, post, rfl⟩
    · have hb : b.1 < q.1 := (List.pairwise_cons.mp h2.2).1 q hq
      have hb' := h2.1 b (by simp)
      rcases h.next b (by simp) with h' | h' <;> linarith

theorem Spec.Neighbours.perm {s t : List (ℝ × γ)} (hp : t.Perm s) {p q : ℝ × γ} (h : Neighbours s p q) : Neighbours t p q :=
  ⟨hp.mem_iff.mpr h.left, hp.mem_iff.mpr h.right, h.lt, fun r hr => h.next r (hp.mem_iff.mp hr)⟩

/-- the sorted samples of the model -/
theorem sorted_fin (emb : γ → β) (s : List (ℝ × γ)) :
    ((s.map fun p => fin p.1).zip (s.map fun p => emb p.2)).mergeSort (fun a b => PyFloat.le a.1 b.1) =
      (s.mergeSort leTime).map fun p => (fin p.1, emb p.2) := by
  rw [List.zip_map', ← List.map_mergeSort]
  intro a _ b _
  simp only [leTime, xr]

/-- the result of the linear interpolation at one time -/
theorem interp1d_fin [Rows XR β] (emb : γ → β) (s : List (ℝ × γ)) (xs : List ℝ) :
    interp1dLinear (s.map fun p => fin p.1) (s.map fun p => emb p.2) (xs.map fin) =
      .ok (xs.map fun x => Rows.build fun r => interpLinear ((s.mergeSort leTime).map fun p => (fin p.1, r (emb p.2))) (fin x)) := by
  unfold interp1dLinear
  rw [if_pos (by simp)]
  simp only [sorted_fin, List.map_map]
  rfl

theorem row_between (emb : γ → β) {s : List (ℝ × γ)} (hd : DistinctTimes s) {p q : ℝ × γ} (h : Neighbours s p q) {x : ℝ}
    (h0 : p.1 ≤ x) (h1 : x ≤ q.1) (r : β → XR) (r' : γ → ℝ) (hr : ∀ g, r (emb g) = fin (r' g)) :
    interpLinear ((s.mergeSort leTime).map fun p => (fin p.1, r (emb p.2))) (fin x) =
      fin (r' p.2 + (r' q.2 - r' p.2) * fraction p.1 q.1 x) := by
  obtain ⟨pre, post, hT⟩ := neighbours_split (sort_strict hd) (h.perm (List.mergeSort_perm s leTime))
  have hs := sort_strict hd
  rw [hT] at hs ⊢
  have := interpLinear_between (pre := pre.map fun p => (p.1, r' p.2)) (post := post.map fun p => (p.1, r' p.2))
    (t0 := p.1) (y0 := r' p.2) (t1 := q.1) (y1 := r' q.2) (x := x) ?_ h0 h1
  · rw [← this]
    simp only [List.map_append, List.map_cons, List.map_map, Function.comp_def, hr]
  · have := List.Pairwise.map (S := fun a b : ℝ × ℝ => a.1 < b.1) (fun p : ℝ × γ => (p.1, r' p.2)) (fun a b h => h) hs
    simpa using this

theorem row_outside (emb : γ → β) (s : List (ℝ × γ)) {x : ℝ} (h : (∀ p ∈ s, x < p.1) ∨ (∀ p ∈ s, p.1 < x))
    (r : β → XR) (r' : γ → ℝ) (hr : ∀ g, r (emb g) = fin (r' g)) :
    interpLinear ((s.mergeSort leTime).map fun p => (fin p.1, r (emb p.2))) (fin x) = XR.nan := by
  have := interpLinear_outside (s := (s.mergeSort leTime).map fun p => (p.1, r' p.2)) x ?_
  · rw [← this]
    simp only [List.map_map, Function.comp_def, hr]
  · have hm : ∀ p, p ∈ s.mergeSort leTime ↔ p ∈ s := fun p => (List.mergeSort_perm s leTime).mem_iff
    rcases h with h | h
    · left; intro p hp
      obtain ⟨a, ha, rfl⟩ := List.mem_map.mp hp
      exact h a ((hm a).mp ha)
    · right; intro p hp
      obtain ⟨a, ha, rfl⟩ := List.mem_map.mp hp
      exact h a ((hm a).mp ha)

end

/-! ## C55 -/

/-- the times and columns of a track -/
noncomputable def times {γ : Type} (s : List (ℝ × γ)) : List XR := s.map fun p => fin p.1
noncomputable def columns (s : List (ℝ × V3 ℝ)) : List (V3 XR) := s.map fun p => p.2.fin

theorem interp_nvectors_fin (S : Scipy XR (V3 XR)) (s : List (ℝ × V3 ℝ)) (xs : List ℝ) :
    interp_nvectors S (xs.map fin) (times s) (columns s) =
      .ok (xs.map fun x => unit (Rows.build fun r => interpLinear ((s.mergeSort leTime).map fun p => (fin p.1, r p.2.fin)) (fin x)) PyFloat.nan) := by
  unfold interp_nvectors interp_vectors times columns
  rw [if_neg (by norm_num)]
  simp only [if_true, interp1d_fin V3.fin, bind, Except.bind, pure, Except.pure, List.map_map]
  rfl

/-- **C55** one n-vector for each query time -/
theorem C55_length (S : Scipy XR (V3 XR)) (s : List (ℝ × V3 ℝ)) (xs : List ℝ) :
    ∃ R, interp_nvectors S (xs.map fin) (times s) (columns s) = .ok R ∧ R.length = xs.length := by
  rw [interp_nvectors_fin]
  exact ⟨_, rfl, by simp⟩

/-- **C55** between two neighbouring samples the result is the point of `interpolate` on the path between them, at the
fraction of the time that has passed -/
theorem C55_between (S : Scipy XR (V3 XR)) (s : List (ℝ × V3 ℝ)) (hd : DistinctTimes s) (xs : List ℝ) (i : ℕ) (x : ℝ)
    (hi : xs[i]? = some x) (t0 t1 : ℝ) (A B : V3 ℝ) (h : Neighbours s (t0, A) (t1, B)) (h0 : t0 ≤ x) (h1 : x ≤ t1) :
    ∃ R, interp_nvectors S (xs.map fin) (times s) (columns s) = .ok R ∧
      R[i]? = some (interpolate (A.fin, B.fin) (fin (fraction t0 t1 x))) := by
  rw [interp_nvectors_fin]
  refine ⟨_, rfl, ?_⟩
  rw [List.getElem?_map, hi]
  simp only [Option.map_some, Option.some.injEq, Rows.build]
  unfold interpolate
  congr 1
  have e := fun r r' hr => row_between V3.fin hd h h0 h1 r r' hr
  simp only [sub3_fin, scale3_fin, add3_fin]
  rw [e (·.x) (·.x) fun _ => rfl, e (·.y) (·.y) fun _ => rfl, e (·.z) (·.z) fun _ => rfl]
  rw [V3.mk_fin, V3.fin_inj]
  ext <;> simp <;> ring

/-- the first time and the last time of the query -/
theorem neighbour_exists {γ : Type} {s : List (ℝ × γ)} (hd : DistinctTimes s) (hn : 2 ≤ s.length) {p : ℝ × γ} (hp : p ∈ s) :
    (∃ q, Neighbours s p q) ∨ (∃ q, Neighbours s q p) := by
  have hT := sort_strict hd
  have hperm := List.mergeSort_perm s leTime
  obtain ⟨T, hTe⟩ : ∃ T, T = s.mergeSort leTime := ⟨_, rfl⟩
  rw [← hTe] at hT hperm
  have key : ∀ pre post (a b : ℝ × γ), T = pre ++ a :: b :: post → Neighbours s a b := by
    intro pre post a b e
    rw [e] at hT
    rw [List.pairwise_append] at hT
    obtain ⟨-, h2, h3⟩ := hT
    rw [List.pairwise_cons] at h2
    obtain ⟨h4, h5⟩ := h2
    rw [List.pairwise_cons] at h5
    refine ⟨hperm.mem_iff.mp (by rw [e]; simp), hperm.mem_iff.mp (by rw [e]; simp), h4 b (by simp), fun r hr => ?_⟩
    have := hperm.mem_iff.mpr hr
    rw [e] at this
    simp only [List.mem_append, List.mem_cons] at this
    rcases this with h | rfl | rfl | h
    · exact .inl (h3 r h a (by simp)).le
    · exact .inl le_rfl
    · exact .inr le_rfl
    · exact .inr (h5.1 r h).le
  obtain ⟨pre, suf, e⟩ := List.append_of_mem (hperm.mem_iff.mpr hp)
  cases suf with
  | cons b post => exact .inl ⟨b, key pre post p b e⟩
  | nil =>
    rcases List.eq_nil_or_concat pre with rfl | ⟨pre', a, rfl⟩
    · have := hperm.length_eq
      rw [e] at this; simp at this; omega
    · exact .inr ⟨a, key pre' [] a p (by rw [e]; simp)⟩

/-- **C55** at the time of a sample the result is the sample -/
theorem C55_at_sample (S : Scipy XR (V3 XR)) (s : List (ℝ × V3 ℝ)) (hd : DistinctTimes s) (hn : 2 ≤ s.length)
    (hu : ∀ p ∈ s, UnitVec p.2) (xs : List ℝ) (i : ℕ) (t : ℝ) (A : V3 ℝ) (hA : (t, A) ∈ s) (hi : xs[i]? = some t) :
    ∃ R, interp_nvectors S (xs.map fin) (times s) (columns s) = .ok R ∧ R[i]? = some A.fin := by
  rcases neighbour_exists hd hn hA with ⟨⟨t1, B⟩, h⟩ | ⟨⟨t0, B⟩, h⟩
  · obtain ⟨R, e, v⟩ := C55_between S s hd xs i t hi t t1 A B h le_rfl h.lt.le
    refine ⟨R, e, ?_⟩
    rw [v, fraction, sub_self, zero_div, (C25_endpoints A B (hu _ hA) (hu _ h.right)).1]
  · obtain ⟨R, e, v⟩ := C55_between S s hd xs i t hi t0 t B A h h.lt.le le_rfl
    refine ⟨R, e, ?_⟩
    have := h.lt
    rw [v, fraction, div_self (by simp only at this; linarith), (C25_endpoints B A (hu _ h.left) (hu _ hA)).2]

/-- **C55** between neighbouring samples the result is a unit vector on the shorter great circle arc between them (except half
way between antipodal samples, where there is no such arc and the result is NaN) -/
theorem C55_on_arc (S : Scipy XR (V3 XR)) (s : List (ℝ × V3 ℝ)) (hd : DistinctTimes s) (hu : ∀ p ∈ s, UnitVec p.2) (xs : List ℝ)
    (i : ℕ) (x : ℝ) (hi : xs[i]? = some x) (t0 t1 : ℝ) (A B : V3 ℝ) (h : Neighbours s (t0, A) (t1, B)) (h0 : t0 ≤ x)
    (h1 : x ≤ t1) :
    ∃ R, interp_nvectors S (xs.map fin) (times s) (columns s) = .ok R ∧
      (¬ (B = -A ∧ fraction t0 t1 x = 1 / 2) → ∃ P : V3 ℝ, R[i]? = some P.fin ∧ OnArc A B P) ∧
      (B = -A → fraction t0 t1 x = 1 / 2 → R[i]? = some ⟨XR.nan, XR.nan, XR.nan⟩) := by
  obtain ⟨R, e, v⟩ := C55_between S s hd xs i x hi t0 t1 A B h h0 h1
  have hlt : t0 < t1 := h.lt
  refine ⟨R, e, fun hne => ?_, fun ha hf => ?_⟩
  · obtain ⟨P, hP, hon⟩ := C25_on_arc A B (hu _ h.left) (hu _ h.right) (fraction t0 t1 x)
      (div_nonneg (by linarith) (by linarith)) ((div_le_one (by linarith)).mpr (by linarith)) hne
    exact ⟨P, by rw [v, hP], hon⟩
  · rw [v, (C25_nan_iff A B (hu _ h.left) (hu _ h.right) _).1.mpr ⟨ha, hf⟩]

/-- **C55** NaN before the first and after the last sample -/
theorem C55_outside (S : Scipy XR (V3 XR)) (s : List (ℝ × V3 ℝ)) (xs : List ℝ) (i : ℕ) (x : ℝ) (hi : xs[i]? = some x)
    (h : (∀ p ∈ s, x < p.1) ∨ (∀ p ∈ s, p.1 < x)) :
    ∃ R, interp_nvectors S (xs.map fin) (times s) (columns s) = .ok R ∧ R[i]? = some ⟨XR.nan, XR.nan, XR.nan⟩ := by
  rw [interp_nvectors_fin]
  refine ⟨_, rfl, ?_⟩
  rw [List.getElem?_map, hi]
  simp only [Option.map_some, Option.some.injEq, Rows.build]
  have e := fun r r' hr => row_outside V3.fin s h r r' hr
  rw [e (·.x) (·.x) fun _ => rfl, e (·.y) (·.y) fun _ => rfl, e (·.z) (·.z) fun _ => rfl]
  exact unit_nan _

/-- **C55** every time is either outside the range or between two neighbouring samples, so the theorems above cover all
queries -/
theorem C55_cases (s : List (ℝ × V3 ℝ)) (hd : DistinctTimes s) (hn : 2 ≤ s.length) (x : ℝ) :
    ((∀ p ∈ s, x < p.1) ∨ (∀ p ∈ s, p.1 < x)) ∨ ∃ p q, Neighbours s p q ∧ p.1 ≤ x ∧ x ≤ q.1 := by
  by_cases hlo : ∀ p ∈ s, x < p.1
  · exact .inl (.inl hlo)
  by_cases hhi : ∀ p ∈ s, p.1 < x
  · exact .inl (.inr hhi)
  push Not at hlo hhi
  right
  have fin1 : {r | r ∈ s ∧ r.1 ≤ x}.Finite := (List.finite_toSet s).subset fun r hr => hr.1
  have fin2 : {r | r ∈ s ∧ x ≤ r.1}.Finite := (List.finite_toSet s).subset fun r hr => hr.1
  obtain ⟨a, ha, hax⟩ := hlo
  obtain ⟨b, hb, hbx⟩ := hhi
  obtain ⟨p, ⟨hp, hpx⟩, hpm⟩ := Set.exists_max_image _ Prod.fst fin1 ⟨a, ha, hax⟩
  obtain ⟨q, ⟨hq, hqx⟩, hqm⟩ := Set.exists_min_image _ Prod.fst fin2 ⟨b, hb, hbx⟩
  rcases hpx.lt_or_eq with hlt | heq
  · refine ⟨p, q, ⟨hp, hq, hlt.trans_le hqx, fun r hr => ?_⟩, hpx, hqx⟩
    rcases le_total r.1 x with h | h
    · exact .inl (hpm r ⟨hr, h⟩)
    · exact .inr (hqm r ⟨hr, h⟩)
  · rcases neighbour_exists hd hn hp with ⟨r, hr⟩ | ⟨r, hr⟩
    · exact ⟨p, r, hr, hpx, by rw [← heq]; exact hr.lt.le⟩
    · exact ⟨r, p, hr, by rw [← heq]; exact hr.lt.le, heq.ge⟩

/-- **C55** the order in which the samples are given does not matter -/
theorem C55_order (S : Scipy XR (V3 XR)) (s s' : List (ℝ × V3 ℝ)) (hd : DistinctTimes s) (hp : s.Perm s') (xs : List ℝ) :
    interp_nvectors S (xs.map fin) (times s) (columns s) = interp_nvectors S (xs.map fin) (times s') (columns s') := by
  have hd' : DistinctTimes s' := (hp.map Prod.fst).nodup_iff.mp hd
  have hpp : (s.mergeSort leTime).Perm (s'.mergeSort leTime) :=
    (List.mergeSort_perm s leTime).trans (hp.trans (List.mergeSort_perm s' leTime).symm)
  have : s.mergeSort leTime = s'.mergeSort leTime :=
    hpp.eq_of_pairwise (fun a b _ _ h1 h2 => absurd h1 (lt_asymm h2)) (sort_strict hd) (sort_strict hd')
  rw [interp_nvectors_fin, interp_nvectors_fin, this]

/-- **C55** different numbers of times and n-vectors raise -/
theorem C55_mismatch {α : Type} [PyFloat α] (S : Scipy α (V3 α)) (t_i t : List α) (nvectors : List (V3 α))
    (h : t.length ≠ nvectors.length) : interp_nvectors S t_i t nvectors = .error .ValueError := by
  unfold interp_nvectors interp_vectors interp1dLinear
  rw [if_neg (by norm_num)]
  simp only [if_true, bind, Except.bind, pure, Except.pure, if_neg h]

/-- **C55** a track of a single sample has no neighbours: NaN, even at the time of the sample -/
theorem C55_single_sample (S : Scipy XR (V3 XR)) (t : ℝ) (A : V3 ℝ) (x : ℝ) :
    interp_nvectors S [fin x] [fin t] [A.fin] = .ok [⟨XR.nan, XR.nan, XR.nan⟩] := by
  have := interp_nvectors_fin S [(t, A)] [x]
  simp only [times, columns, List.map_cons, List.map_nil, List.mergeSort_singleton] at this
  rw [this]
  have key : ∀ y : ℝ, interpLinear [(fin t, fin y)] (fin x) = XR.nan := by
    intro y
    unfold interpLinear
    simp only [List.length_cons, List.length_nil, Nat.zero_add, Nat.sub_self, Nat.min_zero, if_true, List.getD_cons_zero,
      XR.sub_fin, sub_self, XR.zero_div_zero]
    split_ifs <;> simp only [xr] <;> rfl
  simp only [Rows.build]
  congr 2
  exact (congrArg (unit · PyFloat.nan) (by simp only [V3.nan]; rw [V3.mk.injEq]; exact ⟨key _, key _, key _⟩)).trans (unit_nan _)

/-- concrete track of three samples, not in the order of time -/
example : DistinctTimes [(0, (⟨1, 0, 0⟩ : V3 ℝ)), (2, ⟨0, 0, 1⟩), (1, ⟨0, 1, 0⟩)] ∧
    Neighbours [(0, (⟨1, 0, 0⟩ : V3 ℝ)), (2, ⟨0, 0, 1⟩), (1, ⟨0, 1, 0⟩)] (0, ⟨1, 0, 0⟩) (1, ⟨0, 1, 0⟩) ∧
    (∀ p ∈ [((0 : ℝ), (⟨1, 0, 0⟩ : V3 ℝ)), (2, ⟨0, 0, 1⟩), (1, ⟨0, 1, 0⟩)], UnitVec p.2) := by
  refine ⟨by simp [DistinctTimes], ⟨by simp, by simp, by norm_num, ?_⟩, ?_⟩
  · simp
  · simp [UnitVec]

/-! ## C61: Nvector.interpolate -/

/-- the columns of an Nvector with one depth for each column -/
noncomputable def normals (s : List (ℝ × (V3 ℝ × ℝ))) : List (V3 XR) := s.map fun p => p.2.1.fin
noncomputable def depths (s : List (ℝ × (V3 ℝ × ℝ))) : Depth XR := .vector (s.map fun p => fin p.2.2)

theorem Nvector_interpolate_fin (S : Scipy XR (V3 XR × XR)) (s : List (ℝ × (V3 ℝ × ℝ))) (xs : List ℝ) :
    Nvector_interpolate S (normals s) (depths s) (xs.map fin) (times s) =
      let c : ℝ → V3 XR × XR := fun x => Rows.build fun r =>
        interpLinear ((s.mergeSort leTime).map fun p => (fin p.1, r (p.2.1.fin, fin p.2.2))) (fin x)
      .ok (xs.map fun x => unit (c x).1 PyFloat.nan, xs.map fun x => (c x).2) := by
  have hv : vstackDepth (normals s) (depths s) = .ok (s.map fun p => (p.2.1.fin, fin p.2.2)) := by
    unfold vstackDepth normals depths
    simp only [List.length_map, if_true, List.zip_map']
  unfold Nvector_interpolate interp_vectors
  rw [hv]
  have := interp1d_fin (β := V3 XR × XR) (fun g : V3 ℝ × ℝ => (g.1.fin, fin g.2)) s xs
  unfold times
  simp only [lt_irrefl, if_false, if_true, bind, Except.bind, pure, Except.pure, this, List.map_map]
  rfl

/-- **C61** `Nvector.interpolate` gives the n-vectors of `interp_nvectors`, and the depth is interpolated linearly in time
between the neighbouring samples -/
theorem C61_between_partial (S : Scipy XR (V3 XR × XR)) (S' : Scipy XR (V3 XR)) (s : List (ℝ × (V3 ℝ × ℝ))) (hd : DistinctTimes s)
    (xs : List ℝ) (i : ℕ) (x : ℝ) (hi : xs[i]? = some x) (t0 t1 z0 z1 : ℝ) (A B : V3 ℝ)
    (h : Neighbours s (t0, A, z0) (t1, B, z1)) (h0 : t0 ≤ x) (h1 : x ≤ t1) :
    ∃ N Z, Nvector_interpolate S (normals s) (depths s) (xs.map fin) (times s) = .ok (N, Z) ∧
      interp_nvectors S' (xs.map fin) (times s) (normals s) = .ok N ∧
      N[i]? = some (interpolate (A.fin, B.fin) (fin (fraction t0 t1 x))) ∧
      Z[i]? = some (fin ((1 - fraction t0 t1 x) * z0 + fraction t0 t1 x * z1)) := by
  rw [Nvector_interpolate_fin]
  refine ⟨_, _, rfl, ?_, ?_, ?_⟩
  · have hs : times s = times (s.map fun p => (p.1, p.2.1)) := by unfold times; rw [List.map_map]; rfl
    have hc : normals s = columns (s.map fun p => (p.1, p.2.1)) := by unfold normals columns; rw [List.map_map]; rfl
    rw [hs, hc, interp_nvectors_fin]
    have hm : (s.map fun p => (p.1, p.2.1)).mergeSort leTime = (s.mergeSort leTime).map fun p => (p.1, p.2.1) :=
      (List.map_mergeSort (r := leTime) (s := leTime) (f := fun p : ℝ × V3 ℝ × ℝ => (p.1, p.2.1)) fun _ _ _ _ => rfl).symm
    rw [hm]
    simp only [List.map_map, Function.comp_def, Rows.build]
  all_goals rw [List.getElem?_map, hi]
  all_goals simp only [Option.map_some, Option.some.injEq, Rows.build]
  all_goals have e := fun r r' hr => row_between (fun g : V3 ℝ × ℝ => (g.1.fin, fin g.2)) hd h h0 h1 r r' hr
  · unfold interpolate
    congr 1
    simp only [sub3_fin, scale3_fin, add3_fin]
    rw [e (·.1.x) (·.1.x) fun _ => rfl, e (·.1.y) (·.1.y) fun _ => rfl, e (·.1.z) (·.1.z) fun _ => rfl]
    rw [V3.mk_fin, V3.fin_inj]
    ext <;> simp <;> ring
  · rw [e (·.2) (·.2) fun _ => rfl]
    congr 1
    ring

/-- **C61** outside the range of times the position is NaN, n-vector and depth -/
theorem C61_outside (S : Scipy XR (V3 XR × XR)) (s : List (ℝ × (V3 ℝ × ℝ))) (xs : List ℝ) (i : ℕ) (x : ℝ)
    (hi : xs[i]? = some x) (h : (∀ p ∈ s, x < p.1) ∨ (∀ p ∈ s, p.1 < x)) :
    ∃ N Z, Nvector_interpolate S (normals s) (depths s) (xs.map fin) (times s) = .ok (N, Z) ∧
      N[i]? = some ⟨XR.nan, XR.nan, XR.nan⟩ ∧ Z[i]? = some XR.nan := by
  rw [Nvector_interpolate_fin]
  refine ⟨_, _, rfl, ?_, ?_⟩
  all_goals rw [List.getElem?_map, hi]
  all_goals simp only [Option.map_some, Option.some.injEq, Rows.build]
  all_goals have e := fun r r' hr => row_outside (fun g : V3 ℝ × ℝ => (g.1.fin, fin g.2)) s h r r' hr
  · rw [e (·.1.x) (·.1.x) fun _ => rfl, e (·.1.y) (·.1.y) fun _ => rfl, e (·.1.z) (·.1.z) fun _ => rfl]
    exact unit_nan _
  · exact e (·.2) (·.2) fun _ => rfl

/-- **C61** is false for an Nvector of two or more n-vectors with one common depth (such as the default `z=0`): `interpolate`
raises `ValueError`, whatever the arguments -/
theorem C61_scalar_depth_counterexample {α : Type} [PyFloat α] (S : Scipy α (V3 α × α)) (normal : List (V3 α)) (z : α)
    (h : 2 ≤ normal.length) (t_i t : List α) (kind : String) (w polyorder : ℤ) (mode : String) (cval : α) :
    Nvector_interpolate S normal (.scalar z) t_i t kind w polyorder mode cval = .error .ValueError := by
  have hv : vstackDepth normal (.scalar z) = .error .ValueError := if_neg (by omega)
  unfold Nvector_interpolate
  rw [hv]
  rfl

end Nv
