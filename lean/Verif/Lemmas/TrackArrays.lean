import Verif.Spec.TrackArrays
import Verif.ND.Track
import Verif.Lemmas.ND

/-! Interpolation of tracks on arrays is interpolation of lists of columns -/

namespace Nv.ND
open Nv.Spec PyFloat
variable {α β : Type}

/-- the columns are what they are made of -/
class LawfulCols (α : outParam Type) (β : Type) [Cols α β] : Prop where
  ofCol_entry : ∀ v : β, Cols.ofCol (fun i => Cols.entry v i) = v

instance : LawfulCols α (V3 α) := ⟨fun v => by cases v; rfl⟩
instance : LawfulCols α (V3 α × α) := ⟨fun v => by rcases v with ⟨⟨_, _, _⟩, _⟩; rfl⟩

theorem columns_of_vectors {A : Arr α} {l : List (V3 α)} (h : HoldsVectors A l) : columns (V3 α) A = .ok l := by
  unfold columns
  rw [h.shape]
  simp only [Cols.rows, if_true]
  congr 1
  apply List.ext_getElem (by simp)
  intro j h1 h2
  obtain ⟨a, b, c⟩ := h.col j h2
  simp only [List.getElem_map, List.getElem_range, Cols.ofCol, a, b, c]

theorem sampleTimes_of {t : Arr α} {l : List α} (h : HoldsNumbers t l) : sampleTimes t = .ok l := by
  unfold sampleTimes
  rw [h.shape]
  simp only
  congr 1
  apply List.ext_getElem (by simp)
  intro j h1 h2
  simp [h.val j h2]

theorem queryTimes_of {t : Arr α} {l : List α} (h : HoldsTimes t l) : queryTimes t = l := by
  unfold queryTimes
  rcases h with h | ⟨h, rfl⟩
  · rw [h.shape]
    apply List.ext_getElem (by simp [prod])
    intro j h1 h2
    simp [unravel, prod, h.val j h2]
  · rw [h]
    rfl

variable [PyFloat α]

theorem columns_ofColumns [Cols α β] [LawfulCols α β] (l : List β) : columns β (ofColumns l : Arr α) = .ok l := by
  unfold columns ofColumns
  simp only [if_true]
  congr 1
  apply List.ext_getElem (by simp)
  intro j h1 h2
  simp only [List.getElem_map, List.getElem_range, List.getElem?_eq_getElem h2, LawfulCols.ofCol_entry]

theorem interp_vectors_columns [Rows α β] [Cols α β] [LawfulCols α β] (S : Scipy α β) {ti t A : Arr α} {l : List β} {T : List α}
    (hA : columns β A = .ok l) (ht : sampleTimes t = .ok T) (kind : String) (w p : ℤ) (mode : String) (cval : α) :
    interp_vectors S ti t A kind w p mode cval =
      (Nv.interp_vectors S (queryTimes ti) T l kind w p mode cval).map ofColumns := by
  have key : ∀ (B : Arr α) (m : List β), columns β B = .ok m → interp1d S kind t B ti =
      (if kind = "linear" then interp1dLinear T m (queryTimes ti) else S.interp1d kind T m (queryTimes ti)).map ofColumns := by
    intro B m hB
    unfold interp1d
    rw [ht, hB]
    by_cases hk : kind = "linear"
    · subst hk
      simp only [if_true]
      cases e : interp1dLinear T m (queryTimes ti) <;> simp [e, bind, Except.bind, Except.map, pure, Except.pure]
    · simp only [hk, if_false]
      cases e : S.interp1d kind T m (queryTimes ti) <;> simp [e, bind, Except.bind, Except.map, pure, Except.pure]
  unfold interp_vectors Nv.interp_vectors
  by_cases hw : 0 < w
  · simp only [hw, if_true]
    unfold savgol_filter
    rw [hA]
    cases e : S.savgol_filter l (w + (w + 1) % 2) p mode cval with
    | error x => simp [e, bind, Except.bind, Except.map]
    | ok m =>
      have := key _ m (columns_ofColumns m)
      simp only [e, bind, Except.bind, pure, Except.pure] at *
      exact this
  · simp only [hw, if_false]
    exact key A l hA

/-- an array with given columns, normalised -/
theorem unit_vectors {A : Arr α} {l : List (V3 α)} (h : HoldsVectors A l) (x : α) :
    ∃ X, unit A x = .ok X ∧ HoldsVectors X (l.map (Nv.unit · x)) := by
  obtain ⟨X, e, hX⟩ := unit_cols (A := A) (n := l.length) (c := fun j => A.col j) ⟨h.shape, fun j _ => rfl⟩ x
  refine ⟨X, e, by simpa using hX.shape, fun j hj => ?_⟩
  have hj' : j < l.length := by simpa using hj
  have q := hX.col j hj'
  obtain ⟨a, b, c⟩ := h.col j hj'
  have ec : A.col j = l[j] := by unfold Arr.col; rw [a, b, c]
  rw [ec] at q
  simp only [List.getElem_map, ← q, and_self]

theorem holds_ofColumns (l : List (V3 α)) : HoldsVectors (ofColumns l) l :=
  ⟨rfl, fun j h => by simp [ofColumns, List.getElem?_eq_getElem h, Cols.entry]⟩

theorem holds_take3 (l : List (V3 α × α)) : HoldsVectors (ofColumns l).take3 (l.map (·.1)) :=
  ⟨by simp [ofColumns, Arr.take3, Cols.rows], fun j h => by
    have h' : j < l.length := by simpa using h
    simp [Arr.take3, ofColumns, List.getElem?_eq_getElem h', Cols.entry]⟩

theorem row3_ofColumns (l : List (V3 α × α)) : ∃ Z, (ofColumns l).row 3 = .ok Z ∧ HoldsNumbers Z (l.map (·.2)) := by
  refine ⟨_, rfl, by simp, fun j h => ?_⟩
  have h' : j < l.length := by simpa using h
  simp [ofColumns, List.getElem?_eq_getElem h', Cols.entry]

theorem vcat_depth {A Z : Arr α} {l : List (V3 α)} {d : Depth α} (h : HoldsVectors A l) (hd : HoldsDepth Z d) :
    SameOutcome (fun V c => columns (V3 α × α) V = .ok c) (vcat A.atleast2d Z.atleast2d) (vstackDepth l d) := by
  have eA : A.atleast2d = A := by unfold Arr.atleast2d; rw [h.shape]
  rw [eA]
  unfold vcat
  rw [h.shape]
  cases d with
  | scalar z =>
    obtain ⟨hs, hz⟩ := hd
    have eZ : Z.atleast2d = ⟨[1, 1], fun _ => Z.get []⟩ := by unfold Arr.atleast2d; rw [hs]
    rw [eZ]
    unfold vstackDepth
    by_cases hl : l.length = 1
    · simp only [hl, if_true, SameOutcome]
      unfold columns
      simp only [Cols.rows, if_true]
      congr 1
      apply List.ext_getElem (by simp [hl])
      intro j h1 h2
      obtain rfl : j = 0 := by simpa using h1
      obtain ⟨a, b, c⟩ := h.col 0 (by simpa using h2)
      simp [Cols.ofCol, a, b, c, hz]
    · simp only [hl, if_false, SameOutcome]
  | vector zs =>
    have eZ : Z.atleast2d = ⟨[1, zs.length], fun idx => Z.get (idx.drop 1)⟩ := by unfold Arr.atleast2d; rw [hd.shape]
    rw [eZ]
    unfold vstackDepth
    by_cases hl : l.length = zs.length
    · simp only [hl, if_true, SameOutcome]
      unfold columns
      simp only [Cols.rows, if_true]
      congr 1
      apply List.ext_getElem (by simp [hl])
      intro j h1 h2
      have hj : j < l.length := by simp at h1; omega
      obtain ⟨a, b, c⟩ := h.col j hj
      have hz := hd.val j (by omega)
      simp [Cols.ofCol, a, b, c, hz]
    · simp only [hl, if_false, SameOutcome]

end Nv.ND
