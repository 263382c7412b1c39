import Verif.Cases.Objects
import Verif.Props.Turns
import Verif.Props.Cap
import Verif.Props.Speed
import Verif.Props.RoundTripExact
import Verif.Props.Defaults
import Verif.Props.Tiny
import Verif.Props.ListDict
import Verif.Props.Util
import Mathlib.Analysis.Real.Pi.Bounds

/-!
# Concrete cases: angles modulo full turns (C137), caps (C132), speed (C131) and the exact round trips (C07, C11)
-/

namespace Nv.Cases.Turn
open Spec Real Nv.Cases
open XR (fin)

/-! ## C137: latitude 2 is beyond the pole -/
theorem spot : SameSpot 2 1 (π - 2) (1 + π) := .inr (.inl ⟨⟨0, by ring⟩, ⟨0, by ring⟩⟩)
theorem turn (x : ℝ) : SameAngle x (x + 2 * π) := ⟨1, by push_cast; ring⟩
noncomputable abbrev g : GeoPoint XR := ⟨fin 2, fin 1, fin 30, W⟩
noncomputable abbrev g' : GeoPoint XR := ⟨fin (π - 2), fin (1 + π), fin 30, W⟩
theorem gg : SamePosition g g' := ⟨2, 1, _, _, rfl, rfl, rfl, rfl, spot, rfl, rfl⟩
example := (C137_same_place 2 1 _ _ Re re).2 spot
example := C137_reduced 2 1 30 W Re re rfl
example := C137_geo_point plate g g' Re re rfl gg (nv nA 10) g (fin 1) (fin 1) (fin 1) (fin 1) (fin 1000) (fin 1) true false "greatcircle" (by decide)
example := C137_paths plate g (.real 1 2 3 W) g g' (.real 1 2 3 W) g' Re re rfl rfl rfl gg
  ⟨1, 2, 1, 2, rfl, rfl, rfl, rfl, .inl ⟨⟨0, by simp⟩, ⟨0, by simp⟩⟩, rfl, rfl⟩ gg P (fin (1 / 2)) (fin 0) (fin 1) none "greatcircle" (by decide)
example := C137_frames nA.fin Re.fin (.real nA 1 W) 1 (1 + 2 * π) 2 3 4 (2 + 2 * π) (3 + 2 * π) (4 + 2 * π) (turn _) (turn _) (turn _) (turn _)
example := (C137_direct nA.fin Re.fin 1 2 _ _).1 (turn 1) (turn 2)
example := (C137_direct nA.fin Re.fin 1 2 (-1) (2 + π)).2 nA Re rfl rfl ⟨0, by simp⟩ ⟨0, by simp⟩

/-! ## C132: the positions of `track` are within 80 degrees of nC -/
theorem gcd_angle (A B : V3 ℝ) (hA : UnitVec A) (hB : UnitVec B) : great_circle_distance A.fin B.fin (fin 1) = fin (angle A B) := by
  rw [C18_eq_angle A B hA.ne hB.ne 1, mul_one]
noncomputable abbrev x80 : ℝ := 80 * (π / 180)
theorem close {A B : V3 ℝ} (hA : UnitVec A) (hB : UnitVec B) (h : 1 / 5 ≤ dot A B) : Within A 1 x80 B := by
  refine ⟨hB, _, gcd_angle A B hA hB, ?_⟩
  by_contra hc
  have h2 := cos_lt_cos_of_nonneg_of_le_pi (by positivity) (angle_le_pi A B) (not_le.1 hc)
  rw [cos_angle_unit hA hB] at h2
  have h3 : cos x80 ≤ π / 2 - x80 := by
    rw [← sin_pi_div_two_sub]; exact sin_le (by unfold x80; linarith [pi_pos])
  unfold x80 at h3
  linarith [pi_lt_d2]
theorem wC {n : V3 ℝ} (hn : UnitVec n) (h : 1 / 5 ≤ dot nC n) : Within nC 1 x80 n := close uC hn h
theorem x80lt : x80 < π / 2 * 1 := by unfold x80; linarith [pi_pos]
theorem inC : ∀ b ∈ [nA, nB, nC], Within nC 1 x80 b := by
  intro b hb
  simp only [List.mem_cons, List.not_mem_nil, or_false] at hb
  rcases hb with rfl | rfl | rfl
  · exact wC uA (by norm_num [dot])
  · exact wC uB (by norm_num [dot])
  · exact wC uC (by norm_num [dot])
example := C132_mean_hemisphere uC one_pos [nA, nB, nC]
  (fun b hb => by obtain ⟨u, d, e, h⟩ := inC b hb; exact ⟨u, d, e, h.trans x80lt.le⟩)
  (fun h => by have := congrArg V3.y h; norm_num [vsum] at this)
noncomputable abbrev track : List (ℝ × V3 ℝ) := [(0, nA), (2, nB), (1, nC)]
example (S : Scipy XR (V3 XR)) := C132_track uC one_pos x80lt S track (by simp [DistinctTimes]) (by simp)
  (fun p hp => inC p.2 (by
    simp only [List.mem_cons, List.not_mem_nil, or_false] at hp ⊢
    rcases hp with rfl | rfl | rfl <;> simp)) [5, 1 / 2] 1 (1 / 2) rfl ⟨(0, nA), by simp, by norm_num⟩ ⟨(2, nB), by simp, by norm_num⟩

/-! ## C131: two positions 2.9 degrees apart -/
noncomputable abbrev s1 : V3 ℝ := ⟨1, 0, 0⟩
noncomputable abbrev s2 : V3 ℝ := ⟨1599 / 1601, 80 / 1601, 0⟩
theorem us1 : UnitVec s1 := by norm_num [UnitVec]
theorem us2 : UnitVec s2 := by norm_num [UnitVec]
theorem short12 : angle s1 s2 ≤ 1 / 10 := by
  by_contra hc
  have h2 := cos_lt_cos_of_nonneg_of_le_pi (by norm_num) (angle_le_pi s1 s2) (not_le.1 hc)
  rw [cos_angle_unit us1 us2] at h2
  have h3 := abs_le.1 (cos_bound (x := 1 / 10) (by norm_num [abs_of_pos]))
  norm_num [dot, abs_of_pos] at h2 h3
  linarith
example := C131_short s1 s2 us1 us2 1 _ one_pos (gcd_angle s1 s2 us1 us2) short12 (1 / 4) (3 / 4) (by norm_num) (by norm_num) (by norm_num)

/-! ## C07, C11: the exact round trips -/
example := C07_iff nD neD 30 wa wf wa0 wf0 wf1 Re re _ (n2p_fin neD 30 wa wf wf1 re) (.inl wf0')
example := C11_iff nA nD neA neD 10 30 wa wf wa0 wf0 wf1 Re re _ (n2p_fin neD 30 wa wf wf1 re) (.inl wf0')

/-! ## Others -/
example := C101_degrees nD neD
example := (C37_given (fin 5) (fin (1 / 3)) (.str "mine") "e").1 rfl
example := (C37_given (fin 5) (fin (1 / 3)) (.str "mine") "x").2.2 (by decide) (by decide)
example := C44_base_angle 10
example : ∃ e : Ellipsoid XR, get_ellipsoid (.str "Bessel 1841") = .ok e ∧ get_ellipsoid (.int 4) = .ok e :=
  C36_names_partial 4 "Bessel 1841" (by decide) (by decide)
example := C36_published "SAD69" 6378160 298.25 (by simp [publishedEllipsoids])
example := C36_no_other_name "Mars" (by
  simp only [publishedEllipsoids, SameLetters, List.mem_cons, List.not_mem_nil, or_false, exists_eq_or_imp, exists_eq_left]
  decide)
end Nv.Cases.Turn
