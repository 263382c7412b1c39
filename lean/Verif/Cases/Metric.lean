import Verif.Cases.Objects
import Verif.Props.Isotropy
import Verif.Props.Units
import Verif.Props.Longitude
import Verif.Props.Stability
import Verif.Props.Textbook
import Verif.Props.Speed
import Verif.Props.Triangle
import Verif.Props.Cap
import Verif.Props.Walk
import Verif.Props.Nearest
import Verif.Props.Velocity
import Verif.Props.Track

/-! # Concrete cases: the metric properties (C54–C61, C121–C133) -/

namespace Nv.Cases
open Spec Real
open XR (fin)

theorem neP {p : V3 ℝ} (h : p.y ≠ 0) : p ≠ 0 := fun e => h (by rw [e]; rfl)
theorem nepA : pA ≠ 0 := neP (by norm_num)
theorem nepB : pB ≠ 0 := neP (by norm_num)
theorem coreB (R : M3 ℝ) (hR : IsRotation R) : OutsideCore wa wf (app R pB) := core R hR (by norm_num [dot])

example := C122_distances rg nA nB (fin 1)
example := C122_cross_track rg nA nB nC "greatcircle" (fin 1) (fin 2)
example := C122_paths rg nA nB nC nG (1 / 3)
example := C122_closest rg nA nB nC (.inr offAB)
example := C122_mean rg [nA, nB, nC] (fun h => by have := congrArg V3.z h; norm_num [vsum] at this)
example := C122_axes_lat_lon re rg nA 1 2
example := C122_axes_n2p re rg nD neD 30 wa wf wf1
example := C122_axes_p2n re rg pA nepA wa wf wa0 wf0 wf1
example := C122_axes_local re rg nA neA 1
example := C122_axes_vectors re rg nA nB pA neA neB 30 40 wa wf wa0 wf0 wf1
example := C122_axes_azimuth re rg nA nB neA neB wa wf wa0 wf0 wf1
example := C122_axes_direct re rg nA uA offpole_Re 1 2
/-- a WGS84 position described with two choices of axes -/
noncomputable abbrev geoAt (lat lon z : ℝ) (R : M3 ℝ) : Position XR := .geo (.real lat lon z (.real wa wf (.int 18) R))
theorem twice (lat lon z : ℝ) : ∃ n p, SamePlace Re Rg wa wf (.int 18) (geoAt lat lon z Re) (geoAt lat lon z Rg) n p z :=
  geo_two_axes re rg lat lon z wa wf wf1 (.int 18)
example : True := by
  obtain ⟨nA, pA, hA⟩ := twice 1 2 30
  obtain ⟨nB, pB, hB⟩ := twice (-1) 1 40
  obtain ⟨nC, pC, hC⟩ := twice 0 1 50
  have := C122_axes_delta re rg wa wf (.int 18) _ _ _ _ nA pA nB pB 30 40 1 hA hB
  have := C122_axes_paths re rg plate wa wf (.int 18) ⟨geoAt 1 2 30 Re, geoAt (-1) 1 40 Re⟩ ⟨geoAt 1 2 30 Rg, geoAt (-1) 1 40 Rg⟩
    _ _ nA pA nB pB nC pC 30 40 50 hA hB hC "greatcircle" none (fin 0) (fin 1)
  trivial

theorem geo_far (lat lon z : ℝ) (hz : z ≤ 0) (R : M3 ℝ) (hR : IsRotation R) (name : EllKey) (p : V3 ℝ)
    (h : (Position.geo (.real lat lon z (.real wa wf name R))).to_ecef_vector = .real p (.real wa wf name R)) :
    6000000 < len p := by
  obtain ⟨n, hn, hu, -⟩ := geoPoint_to_nvector lat lon z wa wf name R hR
  have hn' : (GeoPoint.real lat lon z (.real wa wf name R)).to_nvector = .real n z (.real wa wf name R) := hn
  change (GeoPoint.real lat lon z (.real wa wf name R)).to_nvector.to_ecef_vector = _ at h
  rw [hn'] at h
  unfold Nvector.to_ecef_vector Nvector.real FrameE.real ECEFvector.real at h
  simp only [n2p_fin hu.ne z wa wf wf1 hR] at h
  obtain rfl := V3.fin_inj.1 (congrArg ECEFvector.pvector h)
  have h := (len_pos_bounds (a := wa) (f := wf) wa0 wf0 wf1 hR hz (unitVec_app hR (dirOf_unit hu.ne))).1
  refine lt_of_lt_of_le ?_ h
  norm_num; linarith
theorem geo_core (lat lon z : ℝ) (hz : z ≤ 0) (R : M3 ℝ) (hR : IsRotation R) (name : EllKey) (p : V3 ℝ)
    (h : (Position.geo (.real lat lon z (.real wa wf name R))).to_ecef_vector = .real p (.real wa wf name R)) :
    OutsideCore wa wf (app R p) := by
  have := geo_far lat lon z hz R hR name p h
  apply core R hR
  rw [dot_self]
  nlinarith
example := C122_axes_inverse re rg plate wa wf wa0 wf0 wf1 (.int 18) 1 2 (-30) (-1) 1 (-40) false true "greatcircle" (by decide)
  (geo_core 1 2 (-30) (by norm_num) Re re _) (geo_core (-1) 1 (-40) (by norm_num) Re re _)

/-- kilometres for metres -/
theorem km : (0 : ℝ) < 1 / 1000 := by norm_num
example := C124_n2p (c := 1 / 1000) nD neD 30 wa wf wf1 re
example := C124_p2n km pA nepA wa wf wa0 wf0 wf1 re
example := C124_distances (c := 1 / 1000) nA nB nC 6371009 "euclidean"
example := C124_vectors (c := 1 / 1000) nA nB neA neB 30 40 wa wf wf1 re
example := C124_azimuth km nA nB neA neB wa wf wf1 re
example := C124_move (c := 1 / 1000) km nA 0 neA (-30) wa wf wa0 wf0 wf1 re (fun q h => by
  have hq : q = pos nA (-30) := by
    rw [n2p_fin neA (-30) wa wf wf1 re] at h; exact (V3.fin_inj.1 h).symm
  have := far nA uA (-30) (by norm_num)
  rw [hq]; intro h0
  have h1 : pos nA (-30) = 0 := by rw [← h0]; ext <;> simp
  rw [h1, len_eq_zero.2 rfl] at this; exact lt_irrefl _ this)
example := C124_delta (c := 1 / 1000) wa wf wf1 (.int 18) re 1 2 30 (-1) 1 40 1
example := C124_paths km plate wa wf wf1 (.int 18) re 1 2 30 (-1) 1 40 0 1 50 "greatcircle" none _ _ _ _ rfl rfl rfl rfl
theorem geo_ne (lat lon z : ℝ) (hz : z ≤ 0) (p : V3 ℝ)
    (h : (Position.geo (.real lat lon z (.real wa wf (.int 18) Re))).to_ecef_vector = .real p (.real wa wf (.int 18) Re)) :
    p ≠ 0 := fun h0 => by
  have := geo_far lat lon z hz Re re _ p h
  rw [h0, len_eq_zero.2 rfl] at this; norm_num at this
example := C124_displace km plate wa wf wf1 (.int 18) 1 2 (-30) 1000 2 "greatcircle" (by decide) (geo_ne 1 2 _ (by norm_num))

example := C123_n_E re 3 1 2
example := C123_position re 3 nD neD 30 wa wf wf1
example := C123_local rg 3 nA offpole_A 1
example := C123_delta re 3 wa wf wf1 (.int 18) 1 2 30 (-1) 1 40 1 (by linarith [pi3]) (by linarith [pi3])
example := C123_paths re 3 plate wa wf wf1 (.int 18) 1 2 30 (-1) 1 40 0 1 50 "greatcircle" none (fin 0) (fin 1) _ _ _ _ rfl rfl rfl rfl
example := C123_direct rg 3 nA uA offpole_A 1 2
example := C123_displace plate wa wf wf1 (.int 18) 1 2 (-30) 1000 2 3 (by linarith [pi3]) (by linarith [pi3]) "greatcircle" (by decide)
  (geo_ne 1 2 _ (by norm_num))

example := C127_depth pA pB wa wf wa0 wf0 wf1 Rg rg (.inl (coreA Rg rg)) (.inl (coreB Rg rg))
example := C127_nvector pA pB wa wf wa0 wf0 wf1 Rg rg (.inl (coreA Rg rg)) (.inl (coreB Rg rg))
example := C127_position nA nB uA uB 30 40 wa wf wa0 wf0 wf1 Rg rg
example := C127_distance nA nB nC nG uA uB uC uG 6371009 (by norm_num)
example := C127_cross_track nA nB nC nG ppAB uC uG 6371009 (by norm_num)
example := C127_latitude nA nB uA uB Rg rg
example := C127_direct nA uA Rg offpole_A 1 2 3 (by rw [abs_le]; constructor <;> linarith [pi3])

example := C126_haversine rg 1 2 (-1) 1 6371009
example := C126_azimuth rg 1 2 (-1) 1 wa wa0 (by linarith [pi3]) (by linarith [pi3])
example := C126_destination rg 1 2 1 2 (by linarith [pi3]) (by linarith [pi3])
example := C126_cross_track rg nA nB nC uA uB uC ppAB offpole_A 6371009 wa (by norm_num) wa0
example := C126_distance_and_azimuth plate wa 30 wa0 (by norm_num) (.int 18) 1 2 (-1) 1 (by linarith [pi3]) (by linarith [pi3])
  (by linarith [pi3]) (by linarith [pi3]) "greatcircle" 'g' _ rfl (by decide)
example := C126_clairaut plate wa 30 wa0 (by norm_num) (.int 18) 0 2 (-1) 1 (by linarith [pi3]) (by linarith [pi3])
  (by linarith [pi3]) (by linarith [pi3]) "greatcircle" 'g' _ rfl (by decide) (by
    have h : |cos 1| * |cos 1| < 1 := by
      have h1 : |cos (1 : ℝ)| < 1 := by
        rw [abs_lt]
        constructor
        · linarith [cos_pos_of_mem_Ioo (x := (1 : ℝ)) ⟨by linarith [pi3], by linarith [pi3]⟩]
        · have := cos_lt_cos_of_nonneg_of_le_pi (x := 0) (y := 1) le_rfl (by linarith [pi3]) one_pos
          simpa using this
      nlinarith [abs_nonneg (cos (1 : ℝ))]
    rw [show (1 : ℝ) - 2 = -1 by norm_num]
    simpa [abs_mul] using h)

example := C129_any_radius wa0 wf0 wf1 rg (-30) 6371009 (by norm_num) (by norm_num) nA nB uA uB
example := C129_core wa0 wf0 wf1 rg (-30) 6371009 (by norm_num) (by norm_num) (by norm_num) nA nB uA uB
example := C129_track_distance wa0 wf0 wf1 rg plate (.int 18) 1 2 (-1) 1 (-30) (by norm_num) "greatcircle" (by decide) (by decide)
  (by decide)
example := C129_default nA nB uA uB Rg rg
example := C129_sphere wa (-30) wa0 (by norm_num) nA nB uA uB Rg rg
/-- the contract of `C129_two_methods` can be met: on a sphere the shortest way is known -/
example : True := by
  obtain ⟨nA, hnA, hA, -⟩ := geoPoint_to_nvector 1 2 0 wa 0 (.int 18) Re re
  obtain ⟨nB, hnB, hB, -⟩ := geoPoint_to_nvector (-1) 1 0 wa 0 (.int 18) Re re
  obtain ⟨x, p, q, -, hp, hq, hs⟩ := C129_sphere wa 0 wa0 le_rfl nA nB hA hB Re re
  have hnA' : (GeoPoint.real 1 2 0 (.real wa 0 (.int 18) Re)).to_nvector = .real nA 0 (.real wa 0 (.int 18) Re) := hnA
  have hnB' : (GeoPoint.real (-1) 1 0 (.real wa 0 (.int 18) Re)).to_nvector = .real nB 0 (.real wa 0 (.int 18) Re) := hnB
  have := C129_two_methods (a := wa) (f := 0) wa0 le_rfl zero_lt_one re (const x 20) (.int 18) 1 2 (-1) 1 x 20 0 p q
    (by change (GeoPoint.real 1 2 0 (.real wa 0 (.int 18) Re)).to_nvector.to_ecef_vector = _
        rw [hnA']; unfold Nvector.to_ecef_vector Nvector.real FrameE.real ECEFvector.real; simp only [hp])
    (by change (GeoPoint.real (-1) 1 0 (.real wa 0 (.int 18) Re)).to_nvector.to_ecef_vector = _
        rw [hnB']; unfold Nvector.to_ecef_vector Nvector.real FrameE.real ECEFvector.real; simp only [hq])
    rfl hs
  trivial

theorem BnA : nB ≠ -nA := fun h => by have := congrArg V3.x h; norm_num at this
example := C131_distance nA nB uA uB BnA 6371009 (by norm_num) (1 / 4) (1 / 2) (by norm_num) (by norm_num) (by norm_num)
example := C131_midpoint nA nB uA uB BnA 6371009
example := C131_direct rg nA nB uA uB BnA offpole_A wa wa0 (1 / 3)
example := C131_path P _ _ _ _ _ _ wa wf _ Re (atA _) (atB _) BnA 6371009 (by norm_num) (1 / 4) (1 / 2) (by norm_num) (by norm_num)
  (by norm_num)
theorem offpole_B : cross (northPole Rg) nB ≠ 0 := fun h => by
  have := congrArg V3.x h; norm_num [northPole, cross, app, transp, dot, col0, col1, col2] at this
theorem offpole_C : cross (northPole Rg) nC ≠ 0 := fun h => by
  have := congrArg V3.x h; norm_num [northPole, cross, app, transp, dot, col0, col1, col2] at this
example := C130_cosines rg wa0 (r := 6371009) (by norm_num) nA nB nC uA uB uC offpole_A
example := C130_sines rg wa0 (r := 6371009) (by norm_num) nA nB nC uA uB uC offpole_A offpole_B offpole_C
example := C130_apart rg (r := 6371009) (by norm_num) nA uA offpole_A 1000 1 2000 2
example := C130_pythagoras nA nB nC nB ppAB uC offAB ⟨uB, 0, 1, by ext <;> simp⟩ 6371009 (by norm_num)

theorem within_A : Within nC 1 (3 / 2) nA := by
  refine ⟨uA, _, C18_eq_angle _ _ neC (by first | exact neA | exact neB) _, ?_⟩
  rw [mul_one]
  have h : cos (angle nC nA) = 2 / 3 * (-1 / 9) + 1 / 3 * (4 / 9) + 2 / 3 * (8 / 9) := by
    rw [cos_angle_unit uC uA]; norm_num [dot]
  by_contra hc
  have h2 := cos_lt_cos_of_nonneg_of_le_pi (x := π / 3) (by positivity) (angle_le_pi nC nA) (by linarith [Real.pi_lt_d2])
  rw [h, cos_pi_div_three] at h2
  norm_num at h2
theorem within_B : Within nC 1 (3 / 2) nB := by
  refine ⟨uB, _, C18_eq_angle _ _ neC (by first | exact neA | exact neB) _, ?_⟩
  rw [mul_one]
  have h : cos (angle nC nB) = 37 / 63 := by
    rw [cos_angle_unit uC uB]; norm_num [dot]
  by_contra hc
  have h2 := cos_lt_cos_of_nonneg_of_le_pi (x := π / 3) (by positivity) (angle_le_pi nC nB) (by linarith [Real.pi_lt_d2])
  rw [h, cos_pi_div_three] at h2
  norm_num at h2
theorem cap32 : (3 / 2 : ℝ) < π / 2 * 1 := by linarith [pi3]
example := C132_mean uC one_pos cap32 [nA, nB] (by simp) (by simp [within_A, within_B])
example := C132_path uC one_pos cap32 nA nB within_A within_B (1 / 3) (by norm_num) (by norm_num)
example := C132_geo_path uC one_pos cap32 P _ _ _ _ _ _ wa wf _ Re (atA _) (atB _) within_A within_B (1 / 3) (by norm_num) (by norm_num)

example := C121_continue_partial plate wa 30 wa0 (by norm_num) (.int 18) "greatcircle" (by decide) 1 2 (by linarith [pi3])
  (by linarith [pi3]) 1000 2000 2 (by norm_num) (by linarith [mul_lt_mul_of_pos_right pi3 (show (0 : ℝ) < wa - 30 by norm_num)])
example := C121_return plate wa 30 wa0 (by norm_num) (.int 18) "greatcircle" (by decide) 1 2 (by linarith [pi3])
  (by linarith [pi3]) (by linarith [pi3]) (by linarith [pi3]) 1000 2 (by norm_num)
  (by linarith [mul_lt_mul_of_pos_right pi3 (show (0 : ℝ) < wa - 30 by norm_num)])
example := C121_beyond_half_way plate wa 30 wa0 (by norm_num) (.int 18) "greatcircle" (by decide) 1 2 (by linarith [pi3])
  (by linarith [pi3]) (3 / 2 * (π * (wa - 30))) 2000 2 (by nlinarith [pi3]) (by nlinarith [pi3])

example := C125_from_nvector nD neD 11000 wa wf wa0 wf0 wf1 Rg rg (by norm_num)
example := C125_too_deep_counterexample nA neA 6378000 wa wf wa0 wf0 wf1 Rg rg (by norm_num [app, dot]) (by norm_num)
example := C125_from_position pA wa wf wa0 wf0 wf1 Rg rg (.inl (coreA Rg rg))
example := C125_objects pA wa wf wa0 wf0 wf1 (.int 18) Rg rg (.inl (coreA Rg rg))

example := C128_velocity rg (a := wa) wf1 (fun t => 2 * t) (fun t => -t) (fun t => t ^ 2) 2 (-1) 0 0
  (by simpa using (hasDerivAt_id (0 : ℝ)).const_mul 2) (hasDerivAt_neg 0) (by simpa using hasDerivAt_pow 2 (0 : ℝ))
  (by linarith [pi3]) (by linarith [pi3])
example := C128_delta_N rg (a := wa) wf1 (.int 18) (fun t => 2 * t) (fun t => -t) (fun t => t ^ 2) 2 (-1) 0 0
  (by simpa using (hasDerivAt_id (0 : ℝ)).const_mul 2) (hasDerivAt_neg 0) (by simpa using hasDerivAt_pow 2 (0 : ℝ))
  (by linarith [pi3]) (by linarith [pi3])
example := C128_direct rg nA uA offpole_A 2

/-- a track of three samples, not in the order of their times -/
noncomputable abbrev trk : List (ℝ × V3 ℝ) := [(0, nA), (2, nC), (1, nB)]
theorem trk_distinct : DistinctTimes trk := by simp [DistinctTimes]
theorem trk_unit : ∀ p ∈ trk, UnitVec p.2 := by
  intro p hp
  simp only [List.mem_cons, List.not_mem_nil, or_false] at hp
  rcases hp with rfl | rfl | rfl
  exacts [uA, uC, uB]
theorem trk_next : Neighbours trk (0, nA) (1, nB) := by
  refine ⟨by simp, by simp, by norm_num, ?_⟩
  intro p hp
  simp only [List.mem_cons, List.not_mem_nil, or_false] at hp
  rcases hp with rfl | rfl | rfl <;> norm_num
section
variable (S : Scipy XR (V3 XR)) (T : Scipy XR (V3 XR × XR))
example := C54_window_odd S [] [] [] "linear" 4 2 "interp" (fin 0) (by norm_num)
example := C54_no_smoothing S S [] [] [] (-1) 0 2 2 "interp" "interp" (fin 0) (fin 0) (by norm_num) (by norm_num)
example := C54_interp_nvectors S [] [] [] "linear" 4 2 "interp" (fin 0) (by norm_num)
example := C55_between S trk trk_distinct [1 / 2] 0 (1 / 2) rfl 0 1 nA nB trk_next (by norm_num) (by norm_num)
example := C55_at_sample S trk trk_distinct (by simp) trk_unit [2] 0 2 nC (by simp) rfl
example := C55_on_arc S trk trk_distinct trk_unit [1 / 2] 0 (1 / 2) rfl 0 1 nA nB trk_next (by norm_num) (by norm_num)
example := C55_outside S trk [3] 0 3 rfl (.inr (by simp; norm_num))
example := C55_cases trk trk_distinct (by simp) (1 / 2)
example := C55_order S trk [(2, nC), (0, nA), (1, nB)] trk_distinct (List.Perm.swap _ _ _) [1 / 2]
example := C55_mismatch S [fin 1] [fin 0, fin 1] [nA.fin] (by decide)
/-- the same with depths -/
noncomputable abbrev trz : List (ℝ × (V3 ℝ × ℝ)) := [(0, nA, 10), (2, nC, 20), (1, nB, 30)]
theorem trz_next : Neighbours trz (0, nA, 10) (1, nB, 30) := by
  refine ⟨by simp, by simp, by norm_num, ?_⟩
  intro p hp
  simp only [List.mem_cons, List.not_mem_nil, or_false] at hp
  rcases hp with rfl | rfl | rfl <;> norm_num
example := C61_between_partial T S trz (by simp [DistinctTimes]) [1 / 2] 0 (1 / 2) rfl 0 1 10 30 nA nB trz_next (by norm_num) (by norm_num)
example := C61_outside T trz [3] 0 3 rfl (.inr (by simp; norm_num))
example := C61_scalar_depth_counterexample T [nA.fin, nB.fin] (fin 0) (by simp) [fin 1] [fin 0, fin 1] "linear" 0 2 "interp" (fin 0)
end

example := C133_delta_partial (.nvec (.real nA 1 S)) (nv nB 2) (fin 0) differ
example := C133_distance_partial plate (.real 1 2 3 W) (.nvec (.real nA 1 S)) false true "ellipsoid" (.inl differ)
example := C133_distance_partial plate (.real 1 2 3 W) (.pvec (.real pA (FrameN (nv nA 0)))) false true "ellipsoid" (.inr ⟨_, rfl⟩)
example := C133_interpolate_partial ⟨.nvec (.real nA 1 S), nv nB 2⟩ (fin 0) differ
example := C133_track_distance_partial plate ⟨nv nB 2, .nvec (.real nA 1 S)⟩ "exact" none (.inl (by decide)) differ
example := C133_on_path_partial plate ⟨nv nB 2, .nvec (.real nA 1 S)⟩ (nv nA 1) "ellipsoid" (fin 0) (fin 1) (.inr (by decide)) (.inl differ)
example := C133_silent plate (.real nA 1 W) (.real nB 2 W) (.real nC 3 W) (.real nG 4 W) W S W S (fin 1) "greatcircle" (by decide) W

end Nv.Cases
