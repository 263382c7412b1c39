import Verif.Cases.Sphere
import Verif.Props.Smoothing

/-!
# Concrete cases for C147: there is a Savitzky-Golay filter
-/

namespace Nv.Cases
open Spec Real
open XR (fin)
open Classical in
/-- least squares smoothing of every row, chosen with the axiom of choice -/
noncomputable def filter {γ β : Type} (emb : γ → β) (rows : List (γ → ℝ)) : Scipy XR β where
  savgol_filter cols w p _ _ :=
    if w ≤ p ∨ (cols.length : ℤ) < w then .error .ValueError
    else if h : ∃ l out : List γ, cols = l.map emb ∧ ∀ r ∈ rows, Smoothed w.toNat p.toNat (l.map r) (out.map r)
      then .ok ((Classical.choose (Classical.choose_spec h)).map emb) else .error .ValueError
  interp1d _ _ _ _ := .error .ValueError

theorem filter_is {γ β : Type} {emb : γ → β} {rows : List (γ → ℝ)} (hinj : Function.Injective emb)
    (hex : ∀ (w p : ℕ) (l : List γ), ∃ out : List γ, ∀ r ∈ rows, Smoothed w p (l.map r) (out.map r)) : SavitzkyGolay emb rows (filter emb rows) where
  smooth cols h p cval hp hn := by
    have hne : ¬ (((2 * h + 1 : ℕ) : ℤ) ≤ p ∨ (((cols.map emb).length : ℕ) : ℤ) < ((2 * h + 1 : ℕ) : ℤ)) := by
      rw [List.length_map]; omega
    have hx : ∃ l out : List γ, cols.map emb = l.map emb ∧
        ∀ r ∈ rows, Smoothed (((2 * h + 1 : ℕ) : ℤ)).toNat ((p : ℤ)).toNat (l.map r) (out.map r) := by
      obtain ⟨out, ho⟩ := hex (2 * h + 1) p cols
      exact ⟨cols, out, rfl, by simpa only [Int.toNat_natCast] using ho⟩
    refine ⟨_, by simp only [filter]; rw [if_neg hne, dif_pos hx], ?_⟩
    have hs := Classical.choose_spec (Classical.choose_spec hx)
    have hc : cols = Classical.choose hx := List.map_injective_iff.2 hinj hs.1
    have h2 := hs.2
    simp only [Int.toNat_natCast] at h2
    exact fun r hr => by have := h2 r hr; rwa [show List.map r (Classical.choose hx) = List.map r cols from congrArg _ hc.symm] at this
  order cols w p mode cval h := by simp only [filter]; rw [if_pos (.inl h)]
  few cols w p cval h := by simp only [filter]; rw [if_pos (.inr h)]

theorem exists_savitzkyGolay : SavitzkyGolay V3.fin rows3 (filter V3.fin rows3) := by
  refine filter_is (fun a b h => V3.fin_inj.1 h) fun w p l => ?_
  obtain ⟨x, hx⟩ := exists_smoothed w p (l.map (·.x))
  obtain ⟨y, hy⟩ := exists_smoothed w p (l.map (·.y))
  obtain ⟨z, hz⟩ := exists_smoothed w p (l.map (·.z))
  have lx := hx.length; have ly := hy.length; have lz := hz.length
  rw [List.length_map] at lx ly lz
  refine ⟨(List.range l.length).map fun i => ⟨x.getD i 0, y.getD i 0, z.getD i 0⟩, fun r hr => ?_⟩
  have key : ∀ u : List ℝ, u.length = l.length → (List.range l.length).map (fun i => u.getD i 0) = u := by
    intro u hu
    apply List.ext_getElem (by simp [hu])
    intro i _ h2
    simp [getD_lt u 0 h2, h2]
  simp only [rows3, List.mem_cons, List.not_mem_nil, or_false] at hr
  rcases hr with rfl | rfl | rfl
  · rw [List.map_map]; simpa only [Function.comp_def, key x lx] using hx
  · rw [List.map_map]; simpa only [Function.comp_def, key y ly] using hy
  · rw [List.map_map]; simpa only [Function.comp_def, key z lz] using hz

theorem exists_savitzkyGolay4 : SavitzkyGolay (fun g : V3 ℝ × ℝ => (g.1.fin, fin g.2)) rows4 (filter (fun g : V3 ℝ × ℝ => (g.1.fin, fin g.2)) rows4) := by
  refine filter_is (fun a b h => ?_) fun w p l => ?_
  · have h1 := congrArg Prod.fst h; have h2 := congrArg Prod.snd h
    simp only at h1 h2
    exact Prod.ext (V3.fin_inj.1 h1) (XR.fin.inj h2)
  obtain ⟨x, hx⟩ := exists_smoothed w p (l.map (·.1.x))
  obtain ⟨y, hy⟩ := exists_smoothed w p (l.map (·.1.y))
  obtain ⟨z, hz⟩ := exists_smoothed w p (l.map (·.1.z))
  obtain ⟨d, hd⟩ := exists_smoothed w p (l.map (·.2))
  have lx := hx.length; have ly := hy.length; have lz := hz.length; have ld := hd.length
  rw [List.length_map] at lx ly lz ld
  refine ⟨(List.range l.length).map fun i => (⟨x.getD i 0, y.getD i 0, z.getD i 0⟩, d.getD i 0), fun r hr => ?_⟩
  have key : ∀ u : List ℝ, u.length = l.length → (List.range l.length).map (fun i => u.getD i 0) = u := by
    intro u hu
    apply List.ext_getElem (by simp [hu])
    intro i _ h2
    simp [getD_lt u 0 h2, h2]
  simp only [rows4, List.mem_cons, List.not_mem_nil, or_false] at hr
  rcases hr with rfl | rfl | rfl | rfl
  · rw [List.map_map]; simpa only [Function.comp_def, key x lx] using hx
  · rw [List.map_map]; simpa only [Function.comp_def, key y ly] using hy
  · rw [List.map_map]; simpa only [Function.comp_def, key z lz] using hz
  · rw [List.map_map]; simpa only [Function.comp_def, key d ld] using hd

/-- a track of five samples -/
noncomputable abbrev track5 : List (ℝ × V3 ℝ) := [(0, nA), (1, nB), (2, nC), (3, nA), (5, nB)]
theorem distinct5 : DistinctTimes track5 := by unfold DistinctTimes; norm_num

example := C147_smoothed _ exists_savitzkyGolay track5 4 2 (by norm_num) (by decide) (by simp [oddWindow]) [fin 1.5] "linear" (fin 0)
/-- moving along a straight line at constant speed -/
example := C147_polynomial _ exists_savitzkyGolay ((List.range 7).map fun i : ℕ => (⟨1, (i : ℝ), 0⟩ : V3 ℝ)) 5 1 (by norm_num) (by decide) (by simp [oddWindow])
  (.C 1) .X 0 (by simp) (by simp) (by simp) (fun i v hv => by
    rw [List.getElem?_map] at hv
    obtain ⟨j, hj, rfl⟩ := Option.map_eq_some_iff.1 hv
    obtain ⟨hlt, e⟩ := List.getElem?_eq_some_iff.1 hj
    rw [List.getElem_range] at e
    subst e
    simp) [fin 1.5] [fin 0, fin 1, fin 2, fin 3, fin 4, fin 5, fin 6] "linear" (fin 0)
example := C147_at_rest _ exists_savitzkyGolay nA 9 5 2 (by norm_num) (by decide) (by decide) [fin 1.5] [] "cubic" (fin 0)
example := C147_no_effect _ exists_savitzkyGolay [nA, nB, nC, nA] 2 2 (by norm_num) (by decide) (by simp [oddWindow]) [fin 1.5] [fin 0, fin 1, fin 2, fin 3] "linear" (fin 0)
example := C147_raises _ exists_savitzkyGolay [nA.fin, nB.fin] 5 2 (by norm_num) (.inr (by simp [oddWindow])) [fin 1.5] [fin 0, fin 1] "linear" (fin 0)
example := C147_rotation _ exists_savitzkyGolay Re re track5 distinct5 (by simp) 3 1 (by norm_num) (by decide) (by simp [oddWindow]) [1.5, 7] (fin 0)
example := C147_order_counterexample _ exists_savitzkyGolay nA nB uA uB ppAB (fin 0)
example := C147_nvector _ exists_savitzkyGolay4 [(0, nA, 1), (1, nB, 2), (2, nC, 3)] 3 2 (by norm_num) [fin 1.5] [fin 0, fin 1, fin 2] "linear" (fin 0)

end Nv.Cases
