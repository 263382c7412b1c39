import Verif.Cases.Sphere
import Verif.Props.Kinds

/-!
# Concrete cases for C153: the nearest sample
-/

namespace Nv.Cases
open Spec Real
open XR (fin)

theorem exists_nearest {t : List ℝ} (h : t ≠ []) (x : ℝ) : ∃ j < t.length, ∀ i (hi : i < t.length) (hj : j < t.length), |t[j] - x| ≤ |t[i] - x| := by
  obtain ⟨j, hj, hmin⟩ := Finset.exists_min_image (Finset.univ : Finset (Fin t.length)) (fun i => |t[i] - x|)
    ⟨⟨0, List.length_pos_iff.2 h⟩, Finset.mem_univ _⟩
  exact ⟨j.1, j.2, fun i hi _ => hmin ⟨i, hi⟩ (Finset.mem_univ _)⟩

open Classical in
/-- the number of the sample nearest in time -/
noncomputable def nearestIdx (t : List ℝ) (x : ℝ) : ℕ := if h : t = [] then 0 else Classical.choose (exists_nearest h x)

theorem nearestIdx_lt {t : List ℝ} (h : t ≠ []) (x : ℝ) : nearestIdx t x < t.length := by
  unfold nearestIdx; rw [dif_neg h]; exact (Classical.choose_spec (exists_nearest h x)).1

theorem nearestIdx_sample {t : List ℝ} {j : ℕ} {x : ℝ} (hd : t.Nodup) (h : t[j]? = some x) : nearestIdx t x = j := by
  obtain ⟨hj, e⟩ := List.getElem?_eq_some_iff.1 h
  have hne : t ≠ [] := by rintro rfl; simp at hj
  have hlt := nearestIdx_lt hne x
  have hm : |t[nearestIdx t x] - x| ≤ |t[j] - x| := by
    have := (Classical.choose_spec (exists_nearest hne x)).2 j hj
    unfold nearestIdx at hlt ⊢
    simp only [dif_neg hne] at hlt ⊢
    exact this hlt
  rw [e, sub_self, abs_zero] at hm
  have : t[nearestIdx t x] = t[j] := by
    rw [e]; have := abs_eq_zero.1 (le_antisymm hm (abs_nonneg _)); linarith
  exact (List.Nodup.getElem_inj_iff hd).1 this

noncomputable def nearest : Rule where
  weights t x := (List.range t.length).map fun i => if i = nearestIdx t x then 1 else 0
  length t x := by simp
  sample t j x hd h := by rw [nearestIdx_sample hd h]
  constant t x _ h _ := by
    have hne : t ≠ [] := by rintro rfl; simp at h
    have hlt := nearestIdx_lt hne x
    have := blend_pick (x := List.replicate t.length 1) (n := t.length) (j := nearestIdx t x) (by simp) (by simpa using hlt)
    rw [blend_const (a := 1) (by simp) (by intro c hc; exact List.eq_of_mem_replicate hc), mul_one] at this
    rw [this]; simp

theorem nearest_convex : nearest.Convex := by
  intro t x c hc
  obtain ⟨i, -, rfl⟩ := List.mem_map.1 hc
  split_ifs <;> norm_num

theorem nearest_step : nearest.Step := by
  intro t x h _
  exact ⟨_, nearestIdx_lt (by rintro rfl; simp at h) x, rfl⟩

noncomputable def toR : XR → ℝ
  | .fin x => x
  | _ => 0

open Classical in
/-- an `interp1d` that takes the nearest sample -/
noncomputable def nearestScipy {β : Type} (missing : β) : Scipy XR β where
  savgol_filter _ _ _ _ _ := .error .ValueError
  interp1d _ t cols xs := .ok (xs.map fun x =>
    if (∃ u ∈ t.map toR, u ≤ toR x) ∧ (∃ u ∈ t.map toR, toR x ≤ u) then cols.getD (nearestIdx (t.map toR) (toR x)) missing else missing)

theorem nearestScipy_is {γ β : Type} (emb : γ → β) (missing : β) (rows : List (γ → ℝ)) :
    InterpolatesBy emb missing rows (nearestScipy missing) "nearest" 1 nearest := by
  intro s hd hl xs
  have ht : (times s).map toR = s.map Prod.fst := by unfold times; rw [List.map_map]; rfl
  have hdur : ∀ x, ((∃ u ∈ s.map Prod.fst, u ≤ x) ∧ (∃ u ∈ s.map Prod.fst, x ≤ u)) ↔ During s x := by
    intro x
    unfold During
    simp only [List.mem_map, exists_exists_and_eq_and]
  refine ⟨_, rfl, by simp, fun i x hi => ?_⟩
  rw [ht, List.getElem?_map, List.getElem?_map, hi]
  simp only [Option.map_some]
  have hdx : (∃ u ∈ s.map Prod.fst, u ≤ toR (fin x)) ∧ (∃ u ∈ s.map Prod.fst, toR (fin x) ≤ u) ↔ During s x := hdur x
  refine ⟨fun hx => ?_, fun hx => ?_⟩
  · have hne : s.map Prod.fst ≠ [] := by
      obtain ⟨⟨p, hp, -⟩, -⟩ := hx
      intro h
      have := List.mem_map_of_mem (f := Prod.fst) hp
      rw [h] at this
      simp at this
    have hlt : nearestIdx (s.map Prod.fst) x < s.length := by simpa using nearestIdx_lt hne x
    rw [if_pos (hdx.2 hx), show toR (fin x) = x from rfl]
    refine ⟨s[nearestIdx (s.map Prod.fst) x].2, ?_, fun r _ => ?_⟩
    · rw [List.getD_eq_getElem?_getD, List.getElem?_map, List.getElem?_eq_getElem hlt]; rfl
    · show _ = blend ((List.range (s.map Prod.fst).length).map fun i => if i = nearestIdx (s.map Prod.fst) x then 1 else 0) _
      rw [blend_pick (by simp) (by simpa using hlt), List.getElem_map]
  · rw [if_neg (fun h => hx (hdx.1 h))]

/-- a track that is not in the order of time -/
noncomputable abbrev trackK : List (ℝ × V3 ℝ) := [(0, nA), (5, nC), (2, nB)]
theorem trackK_distinct : DistinctTimes trackK := by norm_num [DistinctTimes]
theorem trackK_unit : ∀ p ∈ trackK, UnitVec p.2 := by
  simp only [List.mem_cons, List.not_mem_nil, or_false]
  rintro p (rfl | rfl | rfl)
  exacts [uA, uC, uB]
theorem duringK : During trackK 3 := ⟨⟨(0, nA), by simp, by norm_num⟩, ⟨(5, nC), by simp, by norm_num⟩⟩
noncomputable abbrev SK : Scipy XR (V3 XR) := nearestScipy ⟨XR.nan, XR.nan, XR.nan⟩
theorem hSK : InterpolatesBy V3.fin ⟨XR.nan, XR.nan, XR.nan⟩ rows3 SK "nearest" 1 nearest := nearestScipy_is _ _ _

example := C153_unit_or_missing SK _ (times trackK) (columns trackK) "nearest" 0 2 "interp" (fin 0) _
  (C153_blend SK "nearest" (by decide) 1 nearest hSK trackK trackK_distinct (by simp) [3, 7]).choose_spec.1
example := C153_at_sample SK "nearest" (by decide) 1 nearest hSK trackK trackK_distinct (by simp) trackK_unit [3, 5] 1 5 nC (by simp) rfl
example := C153_at_rest SK "nearest" (by decide) 1 nearest hSK [(0, nA), (1, nA)] (by norm_num [DistinctTimes]) (by simp) nA uA (by simp)
  [1 / 2] 0 _ rfl ⟨⟨(0, nA), by simp, by norm_num⟩, ⟨(1, nA), by simp, by norm_num⟩⟩
example := C153_step SK "nearest" (by decide) 1 nearest hSK trackK trackK_distinct (by simp) nearest_step trackK_unit [3] 0 _ rfl duringK
example := C153_great_circle SK "nearest" (by decide) 1 nearest hSK [(0, nA), (1, ⟨-2 / 3, -1 / 3, -2 / 3⟩), (3, nB)] (by norm_num [DistinctTimes])
  (by simp) (cross nA nB) (by
    simp only [List.mem_cons, List.not_mem_nil, or_false]
    rintro p (rfl | rfl | rfl) <;> norm_num [cross, dot]) [2]
example := C153_hemisphere SK "nearest" (by decide) 1 nearest hSK trackK trackK_distinct (by simp) nearest_convex ⟨1, 1, 1⟩ (by
    simp only [List.mem_cons, List.not_mem_nil, or_false]
    rintro p (rfl | rfl | rfl) <;> norm_num [dot]) [3] 0 _ rfl duringK
example := C153_rotation SK "nearest" (by decide) 1 nearest hSK trackK trackK_distinct (by simp) Rg rg [3]
example := C153_nvector (nearestScipy (⟨XR.nan, XR.nan, XR.nan⟩, XR.nan)) SK "nearest" (by decide) 1 nearest
  (nearestScipy_is _ _ rows4) hSK [(0, nA, 10), (5, nB, 20), (3, nC, 30)] (by norm_num [DistinctTimes]) (by simp) [3, 4, 7]

end Nv.Cases
