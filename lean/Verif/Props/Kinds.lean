import Verif.Spec.Kinds
import Verif.Props.Smoothing

/-!
# C153: tracks interpolated with another `kind` than 'linear'

core.py:381-387 lists 'nearest', 'zero', 'slinear', 'quadratic' and 'cubic'; Scipy also has 'previous' and 'next'.  The interpolation itself is
Scipy's (`interp1d`): its documented effect is the hypothesis `InterpolatesBy`.
-/

namespace Nv
open Spec
open XR (fin)

/-- What `scipy.interpolate.interp1d(t, columns, axis=1, kind=kind, bounds_error=False)` is documented to do: given at least `least` samples
with distinct times, it applies the rule in every row, and fills the columns of times outside the samples with NaN. -/
def Spec.InterpolatesBy {γ β : Type} (emb : γ → β) (missing : β) (rows : List (γ → ℝ)) (S : Scipy XR β) (kind : String) (least : ℕ) (W : Rule) :
    Prop :=
  ∀ (s : List (ℝ × γ)), DistinctTimes s → least ≤ s.length → ∀ xs : List ℝ,
    ∃ R : List β, S.interp1d kind (times s) (s.map fun p => emb p.2) (xs.map fin) = .ok R ∧ R.length = xs.length ∧
      ∀ (i : ℕ) (x : ℝ), xs[i]? = some x →
        (During s x → ∃ v, R[i]? = some (emb v) ∧ ∀ r ∈ rows, r v = blend (W.weights (s.map Prod.fst) x) (s.map fun p => r p.2)) ∧
        (¬ During s x → R[i]? = some missing)

/-! ## Weighted sums -/

theorem blend_zero_left {w x : List ℝ} (h : ∀ c ∈ x, c = 0) : blend w x = 0 := by
  unfold blend
  apply List.sum_eq_zero
  intro c hc
  obtain ⟨i, hi, rfl⟩ := List.mem_iff_getElem.1 hc
  rw [List.getElem_zipWith, h _ (List.getElem_mem _), mul_zero]

theorem blend_const {w : List ℝ} {x : List ℝ} (hl : w.length = x.length) {a : ℝ} (h : ∀ c ∈ x, c = a) : blend w x = w.sum * a := by
  unfold blend
  induction w generalizing x with
  | nil => simp
  | cons c w ih =>
    cases x with
    | nil => simp at hl
    | cons b x =>
      rw [List.zipWith_cons_cons, List.sum_cons, List.sum_cons, ih (by simpa using hl) (fun c hc => h c (by simp [hc])), h b (by simp)]
      ring

theorem blend_linear {β : Type} (w : List ℝ) (s : List β) (f g h : β → ℝ) (a b c : ℝ) :
    blend w (s.map fun p => a * f p + b * g p + c * h p) = a * blend w (s.map f) + b * blend w (s.map g) + c * blend w (s.map h) := by
  unfold blend
  induction s generalizing w with
  | nil => simp
  | cons p s ih =>
    cases w with
    | nil => simp
    | cons d w =>
      simp only [List.map_cons, List.zipWith_cons_cons, List.sum_cons, ih]
      ring

theorem blend_nonneg {w x : List ℝ} (hw : ∀ c ∈ w, 0 ≤ c) (hx : ∀ c ∈ x, 0 < c) : 0 ≤ blend w x := by
  unfold blend
  apply List.sum_nonneg
  intro c hc
  obtain ⟨i, hi, rfl⟩ := List.mem_iff_getElem.1 hc
  rw [List.getElem_zipWith]
  exact mul_nonneg (hw _ (List.getElem_mem _)) (hx _ (List.getElem_mem _)).le

theorem blend_pos {w x : List ℝ} (hl : w.length = x.length) (hw : ∀ c ∈ w, 0 ≤ c) (hs : 0 < w.sum) (hx : ∀ c ∈ x, 0 < c) : 0 < blend w x := by
  induction w generalizing x with
  | nil => simp at hs
  | cons c w ih =>
    cases x with
    | nil => simp at hl
    | cons b x =>
      have hb := hx b (by simp)
      have hc := hw c (by simp)
      have e : blend (c :: w) (b :: x) = c * b + blend w x := by unfold blend; simp
      have h0 : 0 ≤ blend w x := blend_nonneg (fun c hc => hw c (by simp [hc])) (fun c hc => hx c (by simp [hc]))
      rw [e]
      rcases hc.eq_or_lt with h | h
      · rw [← h, zero_mul, zero_add]
        exact ih (by simpa using hl) (fun c hc => hw c (by simp [hc])) (by rw [List.sum_cons, ← h] at hs; linarith) (fun c hc => hx c (by simp [hc]))
      · have := mul_pos h hb; linarith

theorem blend_pick {x : List ℝ} {n j : ℕ} (hn : n = x.length) (hj : j < x.length) :
    blend ((List.range n).map fun i => if i = j then 1 else 0) x = x[j] := by
  subst hn
  unfold blend
  induction x generalizing j with
  | nil => simp at hj
  | cons a x ih =>
    rw [List.length_cons, List.range_succ_eq_map, List.map_cons, List.zipWith_cons_cons, List.sum_cons, List.map_map]
    cases j with
    | zero =>
      have := blend_zero_left (w := x) (x := (List.range x.length).map ((fun i => if i = 0 then (1:ℝ) else 0) ∘ Nat.succ)) (by
        intro c hc
        obtain ⟨i, -, rfl⟩ := List.mem_map.1 hc
        simp)
      unfold blend at this
      rw [List.zipWith_comm] at this
      simp only [mul_comm] at this ⊢
      rw [this]
      simp
    | succ j =>
      have e : ((fun i => if i = j + 1 then (1:ℝ) else 0) ∘ Nat.succ) = fun i => if i = j then (1:ℝ) else 0 := by
        funext i; simp
      rw [e, ih (by simpa using hj)]
      simp

theorem blend3_app (Q : M3 ℝ) (w : List ℝ) (s : List (ℝ × V3 ℝ)) :
    blend3 w (s.map fun p => (p.1, app Q p.2)) = app Q (blend3 w s) := by
  unfold blend3
  simp only [List.map_map, Function.comp_def]
  ext
  · exact blend_linear w s (·.2.x) (·.2.y) (·.2.z) _ _ _
  · exact blend_linear w s (·.2.x) (·.2.y) (·.2.z) _ _ _
  · exact blend_linear w s (·.2.x) (·.2.y) (·.2.z) _ _ _

theorem dot_blend3 (c : V3 ℝ) (w : List ℝ) (s : List (ℝ × V3 ℝ)) : dot c (blend3 w s) = blend w (s.map fun p => dot c p.2) :=
  (blend_linear w s (·.2.x) (·.2.y) (·.2.z) _ _ _).symm

/-! ## C153 -/

/-- the column holds a unit vector, or some of it is missing -/
def Spec.UnitOrMissing (v : V3 XR) : Prop := (∃ n : V3 ℝ, UnitVec n ∧ v = n.fin) ∨ v.x = XR.nan ∨ v.y = XR.nan ∨ v.z = XR.nan

theorem unit_or_missing (v : V3 XR) : UnitOrMissing (unit v PyFloat.nan) := by
  obtain ⟨x, y, z⟩ := v
  by_cases hf : ∃ a b c, x = fin a ∧ y = fin b ∧ z = fin c
  · obtain ⟨a, b, c, rfl, rfl, rfl⟩ := hf
    rw [V3.mk_fin]
    by_cases h : (⟨a, b, c⟩ : V3 ℝ) = 0
    · rw [h]; right; left; rw [unit_zero_nan]; rfl
    · left; exact ⟨_, dirOf_unit h, unit_fin h _⟩
  · right
    have hn : norm3 (⟨x, y, z⟩ : V3 XR) = XR.nan ∨ norm3 (⟨x, y, z⟩ : V3 XR) = XR.pinf := by
      cases x <;> cases y <;> cases z <;> first | exact absurd ⟨_, _, _, rfl, rfl, rfl⟩ hf | exact .inl rfl | exact .inr rfl
    rcases hn with hn | hn
    · left
      have e : unit (⟨x, y, z⟩ : V3 XR) PyFloat.nan = div3 ⟨x, y, z⟩ XR.nan := by unfold unit; rw [hn]; rfl
      rw [e]
      cases x <;> rfl
    · have e : unit (⟨x, y, z⟩ : V3 XR) PyFloat.nan = div3 ⟨x, y, z⟩ XR.pinf := by unfold unit; rw [hn]; rfl
      rw [e]
      cases x <;> cases y <;> cases z <;>
        first | exact absurd ⟨_, _, _, rfl, rfl, rfl⟩ hf | exact .inl rfl | exact .inr (.inl rfl) | exact .inr (.inr rfl)

/-- **C153** whatever Scipy does, for every `kind` and every smoothing: all results are unit vectors or missing -/
theorem C153_unit_or_missing (S : Scipy XR (V3 XR)) (t_i t : List XR) (cols : List (V3 XR)) (kind : String) (window p : ℤ) (mode : String)
    (cval : XR) (R : List (V3 XR)) (h : interp_nvectors S t_i t cols kind window p mode cval = .ok R) : ∀ v ∈ R, UnitOrMissing v := by
  unfold interp_nvectors at h
  cases e : interp_vectors S t_i t cols kind window p mode cval with
  | error x => rw [e] at h; cases h
  | ok l =>
    rw [e] at h
    simp only [bind, Except.bind, pure, Except.pure, Except.ok.injEq] at h
    rw [← h]
    intro v hv
    obtain ⟨u, -, rfl⟩ := List.mem_map.1 hv
    exact unit_or_missing u

section
variable (S : Scipy XR (V3 XR)) (kind : String) (hk : kind ≠ "linear") (least : ℕ) (W : Rule)
  (hS : InterpolatesBy V3.fin ⟨XR.nan, XR.nan, XR.nan⟩ rows3 S kind least W) (s : List (ℝ × V3 ℝ)) (hd : DistinctTimes s) (hl : least ≤ s.length)
include hk hS hd hl

/-- **C153** the result is the direction of the weighted sum of the samples; it is NaN if that sum is the zero vector, and outside the samples -/
theorem C153_blend (xs : List ℝ) :
    ∃ R, interp_nvectors S (xs.map fin) (times s) (columns s) kind = .ok R ∧ R.length = xs.length ∧
      ∀ (i : ℕ) (x : ℝ), xs[i]? = some x →
        (During s x → blend3 (W.weights (s.map Prod.fst) x) s ≠ 0 → R[i]? = some (dirOf (blend3 (W.weights (s.map Prod.fst) x) s)).fin) ∧
        (¬ During s x ∨ blend3 (W.weights (s.map Prod.fst) x) s = 0 → R[i]? = some ⟨XR.nan, XR.nan, XR.nan⟩) := by
  obtain ⟨R, e, hlen, h⟩ := hS s hd hl xs
  have e' : S.interp1d kind (times s) (columns s) (xs.map fin) = .ok R := e
  refine ⟨R.map (unit · PyFloat.nan), ?_, by simpa using hlen, fun i x hi => ?_⟩
  · unfold interp_nvectors interp_vectors
    simp only [lt_irrefl, if_false, if_neg hk, bind, Except.bind, pure, Except.pure, e']
  · obtain ⟨h1, h2⟩ := h i x hi
    have inside : During s x → R[i]? = some (blend3 (W.weights (s.map Prod.fst) x) s).fin := by
      intro hx
      obtain ⟨v, hv, hr⟩ := h1 hx
      have : v = blend3 (W.weights (s.map Prod.fst) x) s := rows3_sep _ _ (fun r hrr => by
        rw [hr r hrr]
        simp only [rows3, List.mem_cons, List.not_mem_nil, or_false] at hrr
        rcases hrr with rfl | rfl | rfl <;> rfl)
      rw [hv, this]
    refine ⟨fun hx hne => ?_, fun hx => ?_⟩
    · rw [List.getElem?_map, inside hx, Option.map_some, unit_fin hne]
    · by_cases hd' : During s x
      · have h0 := hx.resolve_left (not_not.2 hd')
        rw [List.getElem?_map, inside hd', Option.map_some, h0]
        exact congrArg some unit_zero_nan
      · rw [List.getElem?_map, h2 hd', Option.map_some]
        exact congrArg some (unit_nan _)

/-- **C153** at the time of a sample the result is the sample -/
theorem C153_at_sample (hu : ∀ p ∈ s, UnitVec p.2) (xs : List ℝ) (i : ℕ) (t : ℝ) (A : V3 ℝ) (hA : (t, A) ∈ s) (hi : xs[i]? = some t) :
    ∃ R, interp_nvectors S (xs.map fin) (times s) (columns s) kind = .ok R ∧ R[i]? = some A.fin := by
  obtain ⟨R, e, -, h⟩ := C153_blend S kind hk least W hS s hd hl xs
  refine ⟨R, e, ?_⟩
  obtain ⟨j, hj, ej⟩ := List.mem_iff_getElem.1 hA
  have hw := W.sample (s.map Prod.fst) j t hd (by rw [List.getElem?_map, List.getElem?_eq_getElem hj, ej]; rfl)
  have hb : blend3 (W.weights (s.map Prod.fst) t) s = A := by
    rw [hw]
    have key : ∀ r : V3 ℝ → ℝ, blend ((List.range (s.map Prod.fst).length).map fun i => if i = j then 1 else 0) (s.map fun p => r p.2) = r A := by
      intro r
      rw [blend_pick (by simp) (by simpa using hj), List.getElem_map, ej]
    ext
    · exact key (·.x)
    · exact key (·.y)
    · exact key (·.z)
  have hA1 := hu _ hA
  rw [(h i t hi).1 ⟨⟨_, hA, le_rfl⟩, ⟨_, hA, le_rfl⟩⟩ (by rw [hb]; exact hA1.ne), hb, dirOf_of_unit hA1]

/-- **C153** a position at rest stays where it is -/
theorem C153_at_rest (A : V3 ℝ) (hA : UnitVec A) (hs : ∀ p ∈ s, p.2 = A) (xs : List ℝ) (i : ℕ) (x : ℝ) (hi : xs[i]? = some x) (hx : During s x) :
    ∃ R, interp_nvectors S (xs.map fin) (times s) (columns s) kind = .ok R ∧ R[i]? = some A.fin := by
  obtain ⟨R, e, -, h⟩ := C153_blend S kind hk least W hS s hd hl xs
  refine ⟨R, e, ?_⟩
  have hsum := W.constant (s.map Prod.fst) x hd (by obtain ⟨⟨p, hp, h1⟩, -⟩ := hx; exact ⟨_, List.mem_map_of_mem hp, h1⟩)
    (by obtain ⟨-, ⟨p, hp, h1⟩⟩ := hx; exact ⟨_, List.mem_map_of_mem hp, h1⟩)
  have key : ∀ r : V3 ℝ → ℝ, blend (W.weights (s.map Prod.fst) x) (s.map fun p => r p.2) = r A := by
    intro r
    rw [blend_const (a := r A) (by rw [W.length]; simp) (by
      intro c hc
      obtain ⟨p, hp, rfl⟩ := List.mem_map.1 hc
      rw [hs p hp]), hsum, one_mul]
  have hb : blend3 (W.weights (s.map Prod.fst) x) s = A := by
    ext
    · exact key (·.x)
    · exact key (·.y)
    · exact key (·.z)
  rw [(h i x hi).1 hx (by rw [hb]; exact hA.ne), hb, dirOf_of_unit hA]

/-- **C153** 'nearest', 'previous', 'next' and 'zero' only return samples -/
theorem C153_step (hW : W.Step) (hu : ∀ p ∈ s, UnitVec p.2) (xs : List ℝ) (i : ℕ) (x : ℝ) (hi : xs[i]? = some x) (hx : During s x) :
    ∃ R, interp_nvectors S (xs.map fin) (times s) (columns s) kind = .ok R ∧ ∃ p ∈ s, R[i]? = some p.2.fin := by
  obtain ⟨R, e, -, h⟩ := C153_blend S kind hk least W hS s hd hl xs
  refine ⟨R, e, ?_⟩
  obtain ⟨j, hj, hw⟩ := hW (s.map Prod.fst) x (by obtain ⟨⟨p, hp, h1⟩, -⟩ := hx; exact ⟨_, List.mem_map_of_mem hp, h1⟩)
    (by obtain ⟨-, ⟨p, hp, h1⟩⟩ := hx; exact ⟨_, List.mem_map_of_mem hp, h1⟩)
  rw [List.length_map] at hj
  have hb : blend3 (W.weights (s.map Prod.fst) x) s = s[j].2 := by
    rw [hw]
    have key : ∀ r : V3 ℝ → ℝ, blend ((List.range (s.map Prod.fst).length).map fun i => if i = j then 1 else 0) (s.map fun p => r p.2) = r s[j].2 := by
      intro r
      rw [blend_pick (by simp) (by simpa using hj), List.getElem_map]
    ext
    · exact key (·.x)
    · exact key (·.y)
    · exact key (·.z)
  have hA1 := hu _ (List.getElem_mem hj)
  exact ⟨s[j], List.getElem_mem hj, by rw [(h i x hi).1 hx (by rw [hb]; exact hA1.ne), hb, dirOf_of_unit hA1]⟩

/-- **C153** a track along a great circle is continued on this great circle -/
theorem C153_great_circle (c : V3 ℝ) (hc : ∀ p ∈ s, dot c p.2 = 0) (xs : List ℝ) :
    ∃ R, interp_nvectors S (xs.map fin) (times s) (columns s) kind = .ok R ∧ ∀ v : V3 ℝ, v.fin ∈ R → dot c v = 0 := by
  obtain ⟨R, e, hlen, h⟩ := C153_blend S kind hk least W hS s hd hl xs
  refine ⟨R, e, fun v hv => ?_⟩
  obtain ⟨i, hi, ei⟩ := List.mem_iff_getElem.1 hv
  have hx : xs[i]? = some (xs[i]'(by omega)) := List.getElem?_eq_getElem _
  obtain ⟨h1, h2⟩ := h i _ hx
  rw [List.getElem?_eq_getElem hi, ei] at h1 h2
  by_cases hout : ¬ During s (xs[i]'(by omega)) ∨ blend3 (W.weights (s.map Prod.fst) (xs[i]'(by omega))) s = 0
  · have := h2 hout
    injection this with this
    exact absurd (congrArg V3.x this) (by simp [V3.fin])
  · push Not at hout
    have := h1 hout.1 hout.2
    injection this with this
    rw [V3.fin_inj.1 this]
    have hz : dot c (blend3 (W.weights (s.map Prod.fst) (xs[i]'(by omega))) s) = 0 := by
      rw [dot_blend3]
      exact blend_zero_left (by intro a ha; obtain ⟨p, hp, rfl⟩ := List.mem_map.1 ha; exact hc p hp)
    unfold dirOf
    rw [dot_smul_right, hz, mul_zero]

/-- **C153** a rule without negative weights keeps a track that lies in a hemisphere there, and gives a position for every time of the track -/
theorem C153_hemisphere (hW : W.Convex) (c : V3 ℝ) (hc : ∀ p ∈ s, 0 < dot c p.2) (xs : List ℝ) (i : ℕ) (x : ℝ) (hi : xs[i]? = some x)
    (hx : During s x) :
    ∃ R, interp_nvectors S (xs.map fin) (times s) (columns s) kind = .ok R ∧ ∃ v : V3 ℝ, R[i]? = some v.fin ∧ UnitVec v ∧ 0 < dot c v := by
  obtain ⟨R, e, hlen, h⟩ := C153_blend S kind hk least W hS s hd hl xs
  refine ⟨R, e, ?_⟩
  have hsum := W.constant (s.map Prod.fst) x hd (by obtain ⟨⟨p, hp, h1⟩, -⟩ := hx; exact ⟨_, List.mem_map_of_mem hp, h1⟩)
    (by obtain ⟨-, ⟨p, hp, h1⟩⟩ := hx; exact ⟨_, List.mem_map_of_mem hp, h1⟩)
  have hpos : 0 < dot c (blend3 (W.weights (s.map Prod.fst) x) s) := by
    rw [dot_blend3]
    refine blend_pos (by rw [W.length]; simp) (hW _ _) (by rw [hsum]; norm_num) ?_
    intro a ha; obtain ⟨p, hp, rfl⟩ := List.mem_map.1 ha; exact hc p hp
  have hne : blend3 (W.weights (s.map Prod.fst) x) s ≠ 0 := by
    intro h0; rw [h0] at hpos; simp [dot] at hpos
  refine ⟨_, (h i x hi).1 hx hne, dirOf_unit hne, ?_⟩
  unfold dirOf
  rw [dot_smul_right]
  exact mul_pos (inv_pos.2 (len_pos hne)) hpos

/-- **C153** no direction is special: rotating all positions of a track rotates all results -/
theorem C153_rotation (Q : M3 ℝ) (hQ : IsRotation Q) (xs : List ℝ) :
    ∃ R, interp_nvectors S (xs.map fin) (times s) (columns s) kind = .ok R ∧
      interp_nvectors S (xs.map fin) (times s) ((columns s).map (turned Q)) kind = .ok (R.map (turned Q)) := by
  let q : ℝ × V3 ℝ → ℝ × V3 ℝ := fun x => (x.1, app Q x.2)
  have htq : times (s.map q) = times s := by unfold times; rw [List.map_map]; rfl
  have hfq : (s.map q).map Prod.fst = s.map Prod.fst := by rw [List.map_map]; rfl
  have hcq : columns (s.map q) = (columns s).map (turned Q) := by
    unfold columns; rw [List.map_map, List.map_map]; exact List.map_congr_left fun x _ => (turned_fin Q x.2).symm
  obtain ⟨R, e, hlen, h⟩ := C153_blend S kind hk least W hS s hd hl xs
  obtain ⟨R', e', hlen', h'⟩ := C153_blend S kind hk least W hS (s.map q) (by unfold DistinctTimes; rw [hfq]; exact hd) (by simpa using hl) xs
  rw [htq, hcq] at e'
  refine ⟨R, e, ?_⟩
  rw [e']
  congr 1
  apply List.ext_getElem (by simp [hlen, hlen'])
  intro i a b
  have hi : xs[i]? = some (xs[i]'(by omega)) := List.getElem?_eq_getElem _
  obtain ⟨h1, h2⟩ := h i _ hi
  obtain ⟨h1', h2'⟩ := h' i _ hi
  rw [List.getElem?_eq_getElem (by omega)] at h1 h2
  rw [List.getElem?_eq_getElem a] at h1' h2'
  rw [List.getElem_map]
  generalize hx : xs[i]'(by omega) = x at *
  have hdur : During (s.map q) x ↔ During s x := by
    unfold During
    constructor
    · rintro ⟨⟨p, hp, h1⟩, ⟨p', hp', h2⟩⟩
      obtain ⟨u, hu, rfl⟩ := List.mem_map.1 hp
      obtain ⟨u', hu', rfl⟩ := List.mem_map.1 hp'
      exact ⟨⟨u, hu, h1⟩, ⟨u', hu', h2⟩⟩
    · rintro ⟨⟨p, hp, h1⟩, ⟨p', hp', h2⟩⟩
      exact ⟨⟨_, List.mem_map_of_mem hp, h1⟩, ⟨_, List.mem_map_of_mem hp', h2⟩⟩
  have hbl : blend3 (W.weights ((s.map q).map Prod.fst) x) (s.map q) = app Q (blend3 (W.weights (s.map Prod.fst) x) s) := by
    rw [hfq]; exact blend3_app Q _ s
  rw [hbl, hdur] at h1' h2'
  have hz : app Q (blend3 (W.weights (s.map Prod.fst) x) s) = 0 ↔ blend3 (W.weights (s.map Prod.fst) x) s = 0 := by
    rw [← len_eq_zero, len_app hQ, len_eq_zero]
  by_cases hout : ¬ During s x ∨ blend3 (W.weights (s.map Prod.fst) x) s = 0
  · have u1 := h2 hout
    have u2 := h2' (hout.imp_right hz.2)
    injection u1 with u1; injection u2 with u2
    rw [u1, u2]
    exact (turned_nan Q).symm
  · push Not at hout
    have u1 := h1 hout.1 hout.2
    have u2 := h1' hout.1 (fun h => hout.2 (hz.1 h))
    injection u1 with u1; injection u2 with u2
    rw [u1, u2, turned_fin, V3.fin_inj]
    unfold dirOf
    rw [len_app hQ, app_smul]

end

/-- **C153** `Nvector.interpolate` with one depth per position: the n-vectors of `interp_nvectors`, and the weighted sum of the depths; NaN outside -/
theorem C153_nvector (S : Scipy XR (V3 XR × XR)) (S' : Scipy XR (V3 XR)) (kind : String) (hk : kind ≠ "linear") (least : ℕ) (W : Rule)
    (hS : InterpolatesBy (fun g : V3 ℝ × ℝ => (g.1.fin, fin g.2)) (⟨XR.nan, XR.nan, XR.nan⟩, XR.nan) rows4 S kind least W)
    (hS' : InterpolatesBy V3.fin ⟨XR.nan, XR.nan, XR.nan⟩ rows3 S' kind least W)
    (s : List (ℝ × (V3 ℝ × ℝ))) (hd : DistinctTimes s) (hl : least ≤ s.length) (xs : List ℝ) :
    ∃ N Z, Nvector_interpolate S (normals s) (depths s) (xs.map fin) (times s) kind = .ok (N, Z) ∧
      interp_nvectors S' (xs.map fin) (times s) (normals s) kind = .ok N ∧ Z.length = xs.length ∧
      ∀ (i : ℕ) (x : ℝ), xs[i]? = some x →
        (During s x → Z[i]? = some (fin (blend (W.weights (s.map Prod.fst) x) (s.map (·.2.2))))) ∧ (¬ During s x → Z[i]? = some XR.nan) := by
  obtain ⟨R, e, hlen, h⟩ := hS s hd hl xs
  let q : ℝ × (V3 ℝ × ℝ) → ℝ × V3 ℝ := fun p => (p.1, p.2.1)
  have htq : times (s.map q) = times s := by unfold times; rw [List.map_map]; rfl
  have hfq : (s.map q).map Prod.fst = s.map Prod.fst := by rw [List.map_map]; rfl
  have hcq : columns (s.map q) = normals s := by unfold columns normals; rw [List.map_map]; rfl
  obtain ⟨N', e', hlen', h'⟩ := C153_blend S' kind hk least W hS' (s.map q) (by unfold DistinctTimes; rw [hfq]; exact hd) (by simpa using hl) xs
  rw [htq, hcq] at e'
  have hv : vstackDepth (normals s) (depths s) = .ok (s.map fun p => (p.2.1.fin, fin p.2.2)) := by
    unfold vstackDepth normals depths
    simp only [List.length_map, if_true, List.zip_map']
  refine ⟨R.map (fun c => unit c.1 PyFloat.nan), R.map (·.2), ?_, ?_, by simpa using hlen, fun i x hi => ⟨fun hx => ?_, fun hx => ?_⟩⟩
  · unfold Nvector_interpolate interp_vectors
    rw [hv]
    simp only [lt_irrefl, if_false, if_neg hk, bind, Except.bind, pure, Except.pure, e]
  · rw [e']
    congr 1
    apply List.ext_getElem (by simp [hlen, hlen'])
    intro i a b
    have hi : xs[i]? = some (xs[i]'(by omega)) := List.getElem?_eq_getElem _
    obtain ⟨h1, h2⟩ := h i _ hi
    obtain ⟨h1', h2'⟩ := h' i _ hi
    rw [List.getElem?_eq_getElem (by simpa using b)] at h1 h2
    rw [List.getElem?_eq_getElem a] at h1' h2'
    rw [List.getElem_map]
    generalize hx : xs[i]'(by omega) = x at *
    have hdur : During (s.map q) x ↔ During s x := by
      unfold During
      constructor
      · rintro ⟨⟨p, hp, h1⟩, ⟨p', hp', h2⟩⟩
        obtain ⟨u, hu, rfl⟩ := List.mem_map.1 hp
        obtain ⟨u', hu', rfl⟩ := List.mem_map.1 hp'
        exact ⟨⟨u, hu, h1⟩, ⟨u', hu', h2⟩⟩
      · rintro ⟨⟨p, hp, h1⟩, ⟨p', hp', h2⟩⟩
        exact ⟨⟨_, List.mem_map_of_mem hp, h1⟩, ⟨_, List.mem_map_of_mem hp', h2⟩⟩
    rw [hdur, hfq] at h1' h2'
    by_cases hx : During s x
    · obtain ⟨v, hv, hr⟩ := h1 hx
      injection hv with hv
      have hb : v.1 = blend3 (W.weights (s.map Prod.fst) x) (s.map q) := by
        unfold blend3
        simp only [List.map_map, Function.comp_def]
        ext
        · exact hr (·.1.x) (by simp [rows4])
        · exact hr (·.1.y) (by simp [rows4])
        · exact hr (·.1.z) (by simp [rows4])
      rw [hv]
      simp only
      rw [hb]
      by_cases h0 : blend3 (W.weights (s.map Prod.fst) x) (s.map q) = 0
      · have u := h2' (.inr h0); injection u with u
        rw [u, h0, unit_zero_nan]; rfl
      · have u := h1' hx h0; injection u with u
        rw [u, unit_fin h0]
    · have u := h2 hx; injection u with u
      have u' := h2' (.inl hx); injection u' with u'
      rw [u, u']
      exact (unit_nan _).symm
  · obtain ⟨v, hv, hr⟩ := (h i x hi).1 hx
    rw [List.getElem?_map, hv, Option.map_some]
    exact congrArg (fun u => some (fin u)) (hr (·.2) (by simp [rows4]))
  · rw [List.getElem?_map, (h i x hi).2 hx]; rfl

end Nv
