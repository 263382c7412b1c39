import Verif.Cases.Objects
import Verif.Props.CrossingObjects

/-!
# Concrete cases: crossing paths (C158)
-/

namespace Nv.Cases
open Spec Real
open XR (fin)

/-- a path along the equator and one along a meridian, with the common position `(1, 0, 0)` -/
noncomputable def w0 : V3 ℝ := ⟨4 / 5, -(3 / 5), 0⟩
noncomputable def e0 : V3 ℝ := ⟨4 / 5, 3 / 5, 0⟩
noncomputable def s0 : V3 ℝ := ⟨4 / 5, 0, -(3 / 5)⟩
noncomputable def n0 : V3 ℝ := ⟨4 / 5, 0, 3 / 5⟩
noncomputable def x0 : V3 ℝ := ⟨1, 0, 0⟩

theorem w0_unit : UnitVec w0 := by norm_num [w0, UnitVec]
theorem e0_unit : UnitVec e0 := by norm_num [e0, UnitVec]
theorem s0_unit : UnitVec s0 := by norm_num [s0, UnitVec]
theorem n0_unit : UnitVec n0 := by norm_num [n0, UnitVec]
theorem x0_unit : UnitVec x0 := by norm_num [x0, UnitVec]
theorem w0_e0 : ProperPath w0 e0 := fun h => by
  have := congrArg V3.z h
  norm_num [cross, w0, e0] at this
theorem s0_n0 : ProperPath s0 n0 := fun h => by
  have := congrArg V3.y h
  norm_num [cross, s0, n0] at this
theorem we_sn : ¬ SameCircle w0 e0 s0 n0 := fun h => by
  have := ((onCircle_iff w0_e0).1 ((h s0).2 ⟨s0_unit, 1, 0, by ext <;> simp⟩)).2
  norm_num [dot, cross, w0, e0, s0] at this
theorem we_half : interpolate (w0.fin, e0.fin) (fin (1 / 2)) = x0.fin := by
  have e : mix w0 e0 (1 / 2) = (4 / 5 : ℝ) • x0 := by
    rw [mix_eq]; ext <;> norm_num [w0, e0, x0]
  rw [interpolate_fin (by rw [e]; exact smul_ne_zero (by norm_num) x0_unit.ne), e, dirOf_smul (by norm_num), dirOf_of_unit x0_unit]
theorem sn_half : interpolate (s0.fin, n0.fin) (fin (1 / 2)) = x0.fin := by
  have e : mix s0 n0 (1 / 2) = (4 / 5 : ℝ) • x0 := by
    rw [mix_eq]; ext <;> norm_num [s0, n0, x0]
  rw [interpolate_fin (by rw [e]; exact smul_ne_zero (by norm_num) x0_unit.ne), e, dirOf_smul (by norm_num), dirOf_of_unit x0_unit]

/-- C158: the common position, exactly -/
example := C158_crossing w0_unit e0_unit s0_unit n0_unit w0_e0 s0_n0 we_sn we_half sn_half one_pos
  (C18_eq_angle w0 x0 w0_unit.ne x0_unit.ne 1)
theorem short_path : angle w0 e0 * 1 < π / 2 * 1 := by
  have h : 0 < cos (angle w0 e0) := by rw [cos_angle_unit w0_unit e0_unit]; norm_num [dot, w0, e0]
  by_contra hn
  have := Real.cos_nonpos_of_pi_div_two_le_of_le (by linarith : π / 2 ≤ angle w0 e0) (by linarith [angle_le_pi w0 e0, Real.pi_pos])
  linarith
example := C158_short w0_unit e0_unit s0_unit n0_unit w0_e0 s0_n0 we_sn (by norm_num) (by norm_num) we_half sn_half one_pos
  (C18_eq_angle w0 e0 w0_unit.ne e0_unit.ne 1) short_path

/-- C158: a long path.  The paths cross at `(-3/5, 4/5, 0)`, `intersect` returns the antipode -/
noncomputable def distant : V3 ℝ := ⟨-(4 / 5), 3 / 5, 0⟩
noncomputable def cut : V3 ℝ := ⟨-(3 / 5), 4 / 5, 0⟩
noncomputable def below : V3 ℝ := ⟨-(12 / 25), 16 / 25, -(3 / 5)⟩
noncomputable def above : V3 ℝ := ⟨-(12 / 25), 16 / 25, 3 / 5⟩
theorem far_unit : UnitVec distant := by norm_num [distant, UnitVec]
theorem cut_unit : UnitVec cut := by norm_num [cut, UnitVec]
theorem below_unit : UnitVec below := by norm_num [below, UnitVec]
theorem above_unit : UnitVec above := by norm_num [above, UnitVec]
theorem x0_far : ProperPath x0 distant := fun h => by
  have := congrArg V3.z h
  norm_num [cross, x0, distant] at this
theorem below_above : ProperPath below above := fun h => by
  have := congrArg V3.y h
  norm_num [cross, below, above] at this
theorem xf_ba : ¬ SameCircle x0 distant below above := fun h => by
  have := ((onCircle_iff x0_far).1 ((h below).2 ⟨below_unit, 1, 0, by ext <;> simp⟩)).2
  norm_num [dot, cross, x0, distant, below] at this
theorem cut_on : OnArc x0 distant cut := ⟨cut_unit, 7 / 15, 4 / 3, by norm_num, by norm_num, by ext <;> norm_num [cut, x0, distant]⟩
theorem cut_on' : OnArc below above cut := ⟨cut_unit, 5 / 8, 5 / 8, by norm_num, by norm_num, by ext <;> norm_num [cut, below, above]⟩
theorem far_off : π / 2 * 1 < angle x0 cut * 1 := by
  have h : cos (angle x0 cut) < 0 := by rw [cos_angle_unit x0_unit cut_unit]; norm_num [dot, x0, cut]
  by_contra hn
  have := Real.cos_nonneg_of_neg_pi_div_two_le_of_le (x := angle x0 cut) (by linarith [angle_nonneg x0 cut, Real.pi_pos]) (by linarith)
  linarith
example : intersect (x0.fin, distant.fin) (below.fin, above.fin) = (-cut).fin := by
  obtain ⟨s, -, -, hs⟩ := C25_onto _ _ _ x0_unit far_unit x0_far cut_on
  obtain ⟨t, -, -, ht⟩ := C25_onto _ _ _ below_unit above_unit below_above cut_on'
  exact (C158_crossing x0_unit far_unit below_unit above_unit x0_far below_above xf_ba hs ht one_pos
    (C18_eq_angle x0 cut x0_unit.ne cut_unit.ne 1)).2.2.1 far_off

/-- C158: both ends of a path to the right of the equator -/
example := C158_same_side w0_unit e0_unit below_unit s0_unit w0_e0 one_pos (cross_track_fin w0_e0 below_unit 1) (cross_track_fin w0_e0 s0_unit 1)
  (t := 1 / 3) (by norm_num) (by norm_num)

/-- C158: the region of radius `arccos (4/5)`, 37 degrees, around `(1, 0, 0)` -/
theorem reg : Real.arccos (4 / 5) < π / 4 * 1 := by
  rw [mul_one]
  rw [← Real.arccos_cos (x := π / 4) (by positivity) (by linarith [Real.pi_pos]), Real.cos_pi_div_four]
  apply Real.arccos_lt_arccos
  · have := Real.sqrt_nonneg 2; linarith
  · have : √2 < 1.6 := by rw [Real.sqrt_lt' (by norm_num)]; norm_num
    linarith
  · norm_num
theorem in_reg {n : V3 ℝ} (hn : UnitVec n) (h : 4 / 5 ≤ dot x0 n) : Within x0 1 (Real.arccos (4 / 5)) n := by
  rw [within_iff x0_unit hn one_pos (Real.arccos_nonneg _) (by rw [mul_one]; exact Real.arccos_le_pi _), div_one,
    Real.cos_arccos (by norm_num) (by norm_num)]
  exact h
theorem in_w : Within x0 1 (Real.arccos (4 / 5)) w0 := in_reg w0_unit (by norm_num [dot, x0, w0])
theorem in_e : Within x0 1 (Real.arccos (4 / 5)) e0 := in_reg e0_unit (by norm_num [dot, x0, e0])
theorem in_s : Within x0 1 (Real.arccos (4 / 5)) s0 := in_reg s0_unit (by norm_num [dot, x0, s0])
theorem in_n : Within x0 1 (Real.arccos (4 / 5)) n0 := in_reg n0_unit (by norm_num [dot, x0, n0])

/-- the ends are on different sides -/
theorem sides {A B P Q : V3 ℝ} (hp : ProperPath A B) (h : dot (cross A B) P < 0) (h' : 0 < dot (cross A B) Q) {r : ℝ} (hr : 0 < r) :
    (arcsin (-dot (dirOf (cross A B)) P) * r) * (arcsin (-dot (dirOf (cross A B)) Q) * r) < 0 := by
  have hl := inv_pos.2 (len_pos (show cross A B ≠ 0 from hp))
  refine mul_neg_of_pos_of_neg (mul_pos (Real.arcsin_pos.2 ?_) hr) (mul_neg_of_neg_of_pos (Real.arcsin_lt_zero.2 ?_) hr)
  · rw [dot_dirOf_left]; nlinarith
  · rw [dot_dirOf_left]; nlinarith
example := C158_region x0_unit one_pos reg in_w in_e in_s in_n w0_e0 s0_n0 (cross_track_fin w0_e0 s0_unit 1) (cross_track_fin w0_e0 n0_unit 1)
  (sides w0_e0 (by norm_num [dot, cross, w0, e0, s0]) (by norm_num [dot, cross, w0, e0, n0]) one_pos)
  (cross_track_fin s0_n0 w0_unit 1) (cross_track_fin s0_n0 e0_unit 1)
  (by rw [mul_comm]; exact sides s0_n0 (by norm_num [dot, cross, s0, n0, e0]) (by norm_num [dot, cross, s0, n0, w0]) one_pos)


/-- C158: the same paths on WGS84, at heights up to 4000 m -/
noncomputable abbrev WE : GeoPath XR := ⟨nv w0 (-1000), nv e0 (-2000)⟩
noncomputable abbrev SN : GeoPath XR := ⟨nv s0 (-3000), nv n0 (-4000)⟩
theorem hWE : 0 < len (pos w0 (-1000)) + len (pos e0 (-2000)) := add_pos (far _ w0_unit _ (by norm_num)) (far _ e0_unit _ (by norm_num))
theorem hSN : 0 < len (pos s0 (-3000)) + len (pos n0 (-4000)) := add_pos (far _ s0_unit _ (by norm_num)) (far _ n0_unit _ (by norm_num))
example := C158_objects (P := WE) (P' := SN) x0_unit one_pos reg (atN _ w0_unit _) (atN _ e0_unit _) (atN _ s0_unit _) (atN _ n0_unit _)
  (fun _ h => by cases h) hWE hSN in_w in_e in_s in_n w0_e0 s0_n0
  (path_cross_track_fin (atN _ w0_unit _) (atN _ e0_unit _) (atN _ s0_unit _) w0_e0)
  (path_cross_track_fin (atN _ w0_unit _) (atN _ e0_unit _) (atN _ n0_unit _) w0_e0)
  (sides w0_e0 (by norm_num [dot, cross, w0, e0, s0]) (by norm_num [dot, cross, w0, e0, n0]) (half_pos hWE))
  (path_cross_track_fin (atN _ s0_unit _) (atN _ n0_unit _) (atN _ w0_unit _) s0_n0)
  (path_cross_track_fin (atN _ s0_unit _) (atN _ n0_unit _) (atN _ e0_unit _) s0_n0)
  (by rw [mul_comm]; exact sides s0_n0 (by norm_num [dot, cross, s0, n0, e0]) (by norm_num [dot, cross, s0, n0, w0]) (half_pos hSN))

end Nv.Cases
