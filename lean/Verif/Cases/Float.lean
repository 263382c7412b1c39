import Verif.Props.FloatEq
import Verif.Props.FloatMirror
import Verif.Props.FloatSymmetry
import Verif.Props.FloatGeo
import Verif.Props.FloatPosition
import Verif.Props.FloatCross
import Verif.Props.FloatDirect
import Verif.Props.FloatRotation
import Verif.Props.FloatBody
import Verif.Props.FloatChain
import Verif.Props.FloatDistance
import Verif.Props.FloatFrames
import Verif.Props.FloatInterp
import Verif.Props.FloatLatLon
import Verif.Props.FloatOnPath
import Verif.Props.FloatRoot
import Verif.Props.FloatDelta
import Verif.Props.FloatPaths
import Verif.Props.FloatTrack
import Verif.Props.FloatUnit
import Verif.Props.FloatWander
import Verif.Props.FloatAzimuth
import Verif.Props.FloatPolar
import Verif.Props.FloatMean

/-!
# Concrete cases: the theorems about double precision

Every example applies a theorem to concrete numbers, for any conforming arithmetic `B`; WGS84 with its rounded flattening.
-/

namespace Nv.Cases.Flt
open Spec F64
variable (B : Binary64)

noncomputable abbrev wf : ℝ := B.fl (1 / 298.257223563)
theorem fint (k : ℤ) (hk : |k| < 2 ^ 53) : IsF64 (k : ℝ) := isF64_int hk
theorem wa1 : IsF64 (6378137 : ℝ) := by simpa using fint 6378137 (by norm_num)
theorem ff : IsF64 (wf B) := B.rounds.val _
theorem f0 : 0 ≤ wf B := B.rounds.nonneg (by norm_num)
theorem f1 : wf B ≤ 0.01 := by
  have h := B.rounds.nearest (1 / 298.257223563) (1 / 256) ⟨1, -8, by norm_num, by norm_num, by norm_num⟩
  have h2 := abs_le.1 h
  rw [abs_of_pos (by norm_num)] at h2
  norm_num [wf] at h2 ⊢
  linarith only [h2.2]
theorem a1 : (1 : ℝ) ≤ 6378137 := by norm_num
theorem a2 : (6378137 : ℝ) ≤ 1e10 := by norm_num
theorem ax : IsAxes Re := .inl rfl
theorem f3 : IsF64 (1 / 2 : ℝ) := ⟨1, -1, by norm_num, by norm_num, by norm_num⟩
theorem f1000 : IsF64 (1000 : ℝ) := by simpa using fint 1000 (by norm_num)

/-- vectors of length three -/
noncomputable abbrev v : V3 ℝ := ⟨1, 2, 2⟩
noncomputable abbrev w : V3 ℝ := ⟨2, 1, -2⟩
theorem fv : IsF64V v := ⟨isF64_one, isF64_two, isF64_two⟩
theorem fw : IsF64V w := ⟨isF64_two, isF64_one, isF64_two.neg⟩
theorem lv : len v = 3 := by unfold len; rw [show (1 : ℝ) ^ 2 + 2 ^ 2 + 2 ^ 2 = 3 ^ 2 by norm_num, Real.sqrt_sq (by norm_num)]
theorem lw : len w = 3 := by unfold len; rw [show (2 : ℝ) ^ 2 + 1 ^ 2 + (-2) ^ 2 = 3 ^ 2 by norm_num, Real.sqrt_sq (by norm_num)]
theorem v500 : (2 : ℝ) ^ (-500 : ℤ) ≤ len v := pow500_le (by rw [lv]; norm_num)
theorem w500 : (2 : ℝ) ^ (-500 : ℤ) ≤ len w := pow500_le (by rw [lw]; norm_num)
theorem v500' : len v ≤ (2 : ℝ) ^ (500 : ℕ) := by
  rw [lv]
  calc (3 : ℝ) ≤ 2 ^ 2 := by norm_num
    _ ≤ 2 ^ 500 := pow_le_pow_right₀ (by norm_num) (by norm_num)
theorem v60 : len v ≤ 10 ^ 60 := by rw [lv]; norm_num
theorem w60 : len w ≤ 10 ^ 60 := by rw [lw]; norm_num
theorem vne : v ≠ 0 := fun h => by have := congrArg V3.x h; norm_num at this
theorem wne : w ≠ 0 := fun h => by have := congrArg V3.x h; norm_num at this
theorem np : northPole Re = ⟨0, 0, 1⟩ := by ext <;> simp [northPole, Re, app, transp, dot, col0, col1, col2]
theorem vp : (2 : ℝ) ^ (-300 : ℤ) * len v ≤ len (cross (northPole Re) v) := by
  have h := abs_y_le_len (cross (northPole Re) v)
  have h2 : (2 : ℝ) ^ (-300 : ℤ) ≤ 2 ^ (-50 : ℤ) := zpow_le_zpow_right₀ (by norm_num) (by norm_num)
  rw [np] at h ⊢
  rw [lv]
  norm_num [cross] at h h2 ⊢
  linarith
/-- about 25 km above the ellipsoid -/
noncomputable abbrev p : V3 ℝ := ⟨4000000, 3000000, 4000000⟩
theorem fp : IsF64V p := ⟨by simpa using fint 4000000 (by norm_num), by simpa using fint 3000000 (by norm_num), by simpa using fint 4000000 (by norm_num)⟩
theorem p1 : (6378137 : ℝ) / 2 ≤ len p := Real.le_sqrt_of_sq_le (by norm_num)
theorem p6 : 0.6 * (6378137 : ℝ) ≤ len p := Real.le_sqrt_of_sq_le (by norm_num)
theorem p9 : len p ≤ 900 * (6378137 : ℝ) := Real.sqrt_le_iff.mpr ⟨by norm_num, by norm_num⟩
theorem p2 : len p ≤ 1000 * (6378137 : ℝ) := Real.sqrt_le_iff.mpr ⟨by norm_num, by norm_num⟩
/-- nearly unit -/
noncomputable abbrev n1 : V3 ℝ := ⟨9 / 16, 3 / 4, 3 / 8⟩
noncomputable abbrev n2 : V3 ℝ := ⟨3 / 4, 9 / 16, -(3 / 8)⟩
theorem g916 : IsF64 (9 / 16 : ℝ) := ⟨9, -4, by norm_num, by norm_num, by norm_num⟩
theorem g34 : IsF64 (3 / 4 : ℝ) := ⟨3, -2, by norm_num, by norm_num, by norm_num⟩
theorem g38 : IsF64 (3 / 8 : ℝ) := ⟨3, -3, by norm_num, by norm_num, by norm_num⟩
theorem fn1 : IsF64V n1 := ⟨g916, g34, g38⟩
theorem fn2 : IsF64V n2 := ⟨g34, g916, g38.neg⟩
theorem l1 : 0.9 ≤ len n1 := Real.le_sqrt_of_sq_le (by norm_num)
theorem l1' : len n1 ≤ 1.1 := Real.sqrt_le_iff.mpr ⟨by norm_num, by norm_num⟩
theorem l2 : 0.9 ≤ len n2 := Real.le_sqrt_of_sq_le (by norm_num)
theorem l2' : len n2 ≤ 1.1 := Real.sqrt_le_iff.mpr ⟨by norm_num, by norm_num⟩

theorem geo (n : V3 ℝ) (hn : n ≠ 0) (d : ℝ) : ∃ p, Geodetic 6378137 (wf B) Re n d p :=
  (C75_exists_unique ax (by norm_num) (by linarith [f1 B]) hn).exists

/-! ## Positions -/
example : ∃ P : V3 ℝ, n_EB_E2p_EB_E (v.flt : V3 (F64 B)) (F64.fin 1000) (F64.fin 6378137) (F64.fin (wf B)) Re.flt = P.flt := by
  obtain ⟨p, hp⟩ := geo B v vne 1000
  obtain ⟨P, h, -⟩ := C75_n_EB_E2p_EB_E B ax wa1 a1 a2 (ff B) (f0 B) (f1 B) f1000 (by norm_num) fv v500 v60 hp
  exact ⟨P, h⟩
example : ∃ (w : V3 ℝ) (D : ℝ), p_EB_E2n_EB_E (p.flt : V3 (F64 B)) (F64.fin 6378137) (F64.fin (wf B)) Re.flt = (w.flt, F64.fin D) := by
  obtain ⟨⟨n, d⟩, ⟨hn, hg, hd⟩, -⟩ := C76_exists_unique ax a1 (f0 B) (f1 B) p1
  obtain ⟨w, D, h, -⟩ := C76_p_EB_E2n_EB_E B ax wa1 a1 a2 (ff B) (f0 B) (f1 B) fp p1 p2 hn hg hd
  exact ⟨w, D, h⟩
example := C77_roundtrip_position B ax wa1 a1 a2 (ff B) (f0 B) (f1 B) fp p1 p2
example := C78_roundtrip_normal B ax wa1 a1 a2 (ff B) (f0 B) (f1 B) fv v500 v60 f1000 (by norm_num) (by norm_num)
example : True := by
  obtain ⟨p, hp⟩ := geo B v vne 1000
  obtain ⟨q, hq⟩ := geo B w wne (-1000)
  have := C84_delta_E B ax wa1 a1 a2 (ff B) (f0 B) (f1 B) f1000 f1000.neg (by norm_num) (by norm_num) fv fw v500 v60 w500 w60 hp hq
  have := C86_delta_E B ax wa1 a1 a2 (ff B) (f0 B) (f1 B) (.int 1) (.int 2) f1000 f1000.neg (by norm_num) (by norm_num) fv fw v500 v60
    w500 w60 hp hq
  have := C86_delta_N B ax wa1 a1 a2 (ff B) (f0 B) (f1 B) (.int 1) (.int 2) f1000 f1000.neg (by norm_num) (by norm_num) fv fw v500 v60
    w500 w60 (.inr vp) hp hq
  have := C86_delta_L B 2 ax wa1 a1 a2 (ff B) (f0 B) (f1 B) (.int 1) (.int 2) f1000 f1000.neg (by norm_num) (by norm_num) fv fw
    (by rw [lv]; norm_num) (by rw [lv]; norm_num) w500 w60 hp hq
  obtain ⟨p, hp⟩ := geo B v vne 0
  obtain ⟨q, hq⟩ := geo B w wne 0
  have := C97_azimuth B ax wa1 a1 a2 (ff B) (f0 B) (f1 B) fv fw v500 v60 w500 w60 (.inr vp) hp hq
  trivial
example := C84_self B ax wa1 a1 a2 (ff B) (f0 B) (f1 B) f1000 (by norm_num) fv v500 v60
example : True := by
  obtain ⟨p, hp⟩ := geo B (app (transp Re) (geoNormal 1 2)) ((unitVec_app isRotation_Re.transpose (geoNormal_isUnit 1 2)).ne) 1000
  have := C90_to_ecef_vector B ax wa1 a1 a2 (ff B) (f0 B) (f1 B) (.int 1) 1 2 f1000 (by norm_num) hp
  obtain ⟨p, hp⟩ := geo B (app (transp Re) (geoNormal (1 * (Real.pi / 180)) (2 * (Real.pi / 180))))
    ((unitVec_app isRotation_Re.transpose (geoNormal_isUnit _ _)).ne) 1000
  have := C90_to_ecef_vector_degrees B ax wa1 a1 a2 (ff B) (f0 B) (f1 B) (.int 1) (by norm_num) (by norm_num) f1000 (by norm_num) hp
  trivial
example := C89_rad B (x := 60) (by norm_num)
example := C89_deg B (x := 1) (by norm_num)
example := C89_latlon_deg B (lat := 60) (lon := 5) (by norm_num) (by norm_num) (F64.fin 3) (Frame64 B 6378137 (wf B) Re (.int 1))
example := C117_ecef B ax wa1 a1 a2 (ff B) (f0 B) (f1 B) (.int 1) fp p6 p9 [.to_geo_point, .to_nvector, .to_ecef_vector] (by norm_num)
example (c : Conv) := C117_call B ax wa1 a1 a2 (ff B) (f0 B) (f1 B) (.int 1) p1 p2 (x := .ecef ⟨p.flt, _⟩) ⟨rfl, fp⟩ c
example := C117_chain B ax wa1 a1 a2 (ff B) (f0 B) (f1 B) (.int 1) p6 p9 (x := .ecef ⟨p.flt, _⟩) ⟨rfl, fp⟩
  [.to_geo_point, .to_nvector, .to_geo_point] (by norm_num)

/-! ## Equality -/
example := C92_nvector_equal B ax wa1 a1 a2 (ff B) (f0 B) (f1 B) (.int 1) (.int 2) fv fv (by rw [lv]; norm_num) (by rw [lv]; norm_num)
  f1000 f1000 (by norm_num) (by norm_num) (within_self _) (within_self _) (within_self _) (within_self _)
theorem apart : Apart v.x w.x := by norm_num [Apart]
example := C92_nvector_different B (a := 1) (f := 0) (R := Re) (a' := 1) (f' := 0) (R' := Re) (.int 1) (.int 2) fv fw
  (by rw [lv]; norm_num) (by rw [lw]; norm_num) f1000 f1000 (by norm_num) (by norm_num) (.inl apart)
example := C92_ecef_equal B ax wa1 a1 a2 (ff B) (f0 B) (f1 B) (.int 1) (.int 2) fv fv (by rw [lv]; norm_num) (by rw [lv]; norm_num)
  (within_self _) (within_self _) (within_self _)
example := C92_ecef_different B (a := 1) (f := 0) (R := Re) (a' := 1) (f' := 0) (R' := Re) (.int 1) (.int 2) fv fw
  (by rw [lv]; norm_num) (by rw [lw]; norm_num) (.inl apart)
example := C92_geo_equal B ax wa1 a1 a2 (ff B) (f0 B) (f1 B) (.int 1) (.int 2) (lat := 1) (lon := 2) (lat' := 1) (lon' := 2)
  (by norm_num) (by norm_num) (by norm_num) (by norm_num) f1000 f1000 (by norm_num) (by norm_num)
  ⟨0, by norm_num⟩ ⟨0, by norm_num⟩ (within_self _)
example := C92_geo_different B (a := 1) (f := 0) (R := Re) (a' := 1) (f' := 0) (R' := Re) (.int 1) (.int 2) (lat := 1) (lon := 2)
  (lat' := 1) (lon' := 2) (y := 1000) (z := 1) (by norm_num) (by norm_num) (by norm_num) (by norm_num) f1000 isF64_one (by norm_num)
  (by norm_num) (.inr (.inr (by norm_num [Apart])))
example := C92_geo_nvector_geo B ax wa1 a1 a2 (ff B) (f0 B) (f1 B) (.int 1) (lat := 1) (lon := 2) isF64_one
  (by rw [abs_one]; linarith [Real.pi_gt_three]) (by norm_num) f1000 (by norm_num)
variable (hs : ∀ x, B.fl (-x) = -B.fl x)
example := C93_nvector_symm B hs ax ax wa1 f1000 (ff B) (ff B) (by norm_num) (by norm_num)
  (by rw [abs_of_nonneg (f0 B)]; exact (f1 B).trans (by norm_num)) (by rw [abs_of_nonneg (f0 B)]; exact (f1 B).trans (by norm_num))
  (.int 1) (.int 2) fv fw (by rw [lv]; norm_num) (by rw [lw]; norm_num) f1000 f1000 (by norm_num) (by norm_num)
example := C93_ecef_symm B hs ax ax wa1 f1000 (ff B) (ff B) (by norm_num) (by norm_num)
  (by rw [abs_of_nonneg (f0 B)]; exact (f1 B).trans (by norm_num)) (by rw [abs_of_nonneg (f0 B)]; exact (f1 B).trans (by norm_num))
  (.int 1) (.int 2) fv fw (by rw [lv]; norm_num) (by rw [lw]; norm_num)
example := C93_geo_symm_partial B hs ax ax wa1 f1000 (ff B) (ff B) (by norm_num) (by norm_num)
  (by rw [abs_of_nonneg (f0 B)]; exact (f1 B).trans (by norm_num)) (by rw [abs_of_nonneg (f0 B)]; exact (f1 B).trans (by norm_num))
  (.int 1) (.int 2) (lat := 1) (lon := 2) (lat' := 1) (lon' := 2)
  (by norm_num) (by norm_num) (by norm_num) (by norm_num) f1000 f1000 (by norm_num) (by norm_num)
  (.inl ⟨0, by norm_num⟩) (.inl ⟨0, by norm_num⟩)

/-! ## Symmetry -/
section
variable {B}
variable (hB : SignSymmetric B)
example := C119_antipode_position_finite hB fv v500 v60 (F64.fin 1) (F64.fin 6378137) (F64.fin (wf B)) ax
example := C119_antipode_normal_finite hB ax wa1 a1 a2 (ff B) (f0 B) (f1 B) fp p1 p2
example := C119_paths hB ⟨fun _ _ _ _ _ _ _ => .error .ValueError, fun _ _ _ _ _ _ _ => .error .ValueError⟩
  ⟨.nvec ⟨v.flt, F64.fin 1, Frame64 B 6378137 (wf B) Re (.int 1)⟩, .nvec ⟨w.flt, F64.fin 1, Frame64 B 6378137 (wf B) Re (.int 1)⟩⟩
  (.nvec ⟨w.flt, F64.fin 1, Frame64 B 6378137 (wf B) Re (.int 1)⟩) "greatcircle" none (F64.fin 1) (F64.fin 0) (by decide)
example := C120_position hB (axes := "e") rfl fv v500 v60 (F64.fin 1) (F64.fin 6378137) (F64.fin (wf B))
example := C120_geo_to_ecef hB (axes := "E") rfl ⟨F64.fin 6378137, F64.fin (wf B), .int 1, _⟩ rfl (F64.fin 1) (F64.fin 2) (F64.fin 3)
example := C120_delta_N hB (axes := "E") rfl ⟨F64.fin 6378137, F64.fin (wf B), .int 1, _⟩ rfl (F64.fin 1) (F64.fin 2) (F64.fin 3) (F64.fin 1)
  (F64.fin 1) (F64.fin 1)
example := C120_n_E2lat_lon hB (axes := "e") rfl fv (by rw [lv]; norm_num) (by rw [lv]; norm_num)
example := C120_normal hB (axes := "e") rfl wa1 a1 a2 (ff B) (f0 B) (f1 B) fp p1 p2
example := C120_ecef_to_geo hB (axes := "e") rfl wa1 a1 a2 (ff B) (f0 B) (f1 B) fp p1 p2 (.int 1)
example := C120_azimuth hB (axes := "e") rfl fv v500 v60 fw w500 w60 (F64.fin 6378137) (F64.fin (wf B))
end

/-! ## Rotations and local frames -/
example := C80_R2xyz_xyz2R B (x := 1) (y := 1 / 2) (z := 2) isF64_one f3 isF64_two (by rw [abs_one]; linarith [Real.pi_gt_three])
  (by rw [abs_of_pos (by norm_num)]; linarith [Real.pi_gt_three]) (by rw [abs_two]; linarith [Real.pi_gt_three])
example := C80_R2zyx_zyx2R B (z := 1) (y := 1 / 2) (x := 2) isF64_one f3 isF64_two (by rw [abs_one]; linarith [Real.pi_gt_three])
  (by rw [abs_of_pos (by norm_num)]; linarith [Real.pi_gt_three]) (by rw [abs_two]; linarith [Real.pi_gt_three])
example := C81_n_E2R_EN B ax fv v500 v60 vp
theorem pole : cross (northPole Re) (⟨0, 0, 3⟩ : V3 ℝ) = 0 := by rw [np]; ext <;> simp [cross]
theorem lp : len (⟨0, 0, 3⟩ : V3 ℝ) = 3 := by simp [len]
theorem f33 : IsF64 (3 : ℝ) := by simpa using fint 3 (by norm_num)
example := C81_n_E2R_EN_pole B (n := ⟨0, 0, 3⟩) ax ⟨isF64_zero, isF64_zero, f33⟩ (pow500_le (by rw [lp]; norm_num)) (by rw [lp]; norm_num) pole
example := C81_R_EN2n_E B ax fv v500 v60 (.inr vp)
example := C82_n_E2lat_lon B ax fv (by rw [lv]; norm_num) (by rw [lv]; norm_num)
example := C83_n_E_and_wa2R_EL B 1 ax fv (by rw [lv]; norm_num) (by rw [lv]; norm_num)
example := C83_R_EL2n_E B 1 ax fv (by rw [lv]; norm_num) (by rw [lv]; norm_num)
example := C87_body_frame B (a := 6378137) (f := wf B) ax fv v500 v60 vp (.int 1) (F64.fin 3) 1 2 3
example := C87_local_frames B (a := 6378137) (f := wf B) ax fv (by rw [lv]; norm_num) (by rw [lv]; norm_num) vp (.int 1) (F64.fin 3) 1 2 3 4 (FrameL _ _)
  (.tail _ (.head _))
example := C88_elevation B fv (by rw [lv]; norm_num) (by rw [lv]; norm_num)

theorem close_flt (M : M3 ℝ) : CloseM M M 0 := by simp [CloseM, CloseV]
example := C87_mdot B isRotation_Re isRotation_Re (W := Re) (W' := Re) (by simp [IsF64M, IsF64V, Re, isF64_zero, isF64_one, isF64_neg_one])
  (by simp [IsF64M, IsF64V, Re, isF64_zero, isF64_one, isF64_neg_one]) (close_flt Re) (close_flt Re) (by norm_num) (by norm_num)

/-! ## Great circles -/
example := C70_unit B v500 v500'
example := C70_unit_relative B v500 v500'
example := C72_great_circle_distance B fn1 fn2 l1 l1' l2 l2' wa1 (by norm_num) (by norm_num)
example := C72_same_position B fn1 l1 l1' (R := 6378137)
example := C73_euclidean_distance B l1' l2' wa1 (by norm_num) (by norm_num)
example := C118_nthroot_partial B (x := 1000) (n := 3) f1000 (by norm_num) (by norm_num) (by norm_num) (by norm_num)
example := C118_perfect_power B (r := 10) (n := 3) (by norm_num; exact f1000) (by norm_num) (by norm_num) (by norm_num) (by norm_num) (by norm_num)
theorem f60 : IsF64 ((2 : ℝ) ^ 60) := isF64_pow2
example := C118_large B (x := 2 ^ 60) (n := 3) f60 (by norm_num) (by norm_num) (by norm_num) (by norm_num)
example : True := by
  obtain ⟨fa, fb, fn, a2, b2, hs, hδ⟩ := cross_witness
  have := C94_euclidean B fa fb fn a2 b2 (by norm_num) hs hδ (by norm_num) wa1 (by norm_num) (by norm_num)
  trivial
theorem nW : cross (northPole Re) (⟨1, 0, 2 ^ (-11 : ℤ)⟩ : V3 ℝ) = ⟨0, 1, 0⟩ := by rw [np]; ext <;> simp [cross]
theorem lW : (2 : ℝ) ^ (-500 : ℤ) ≤ len (cross (northPole Re) (⟨1, 0, 2 ^ (-11 : ℤ)⟩ : V3 ℝ)) :=
  pow500_le (by rw [nW]; simp [len]; norm_num)
example : True := by
  obtain ⟨-, -, fn, -, -, -, hδ⟩ := cross_witness
  have := C96_destination B ax fn hδ (by norm_num) lW 1 2
  have := C96_distance B ax fn hδ (by norm_num) lW zero_le_one (by linarith [Real.pi_gt_three]) 2
  have := C96_there_and_back B ax fn hδ (by norm_num) lW zero_le_one (by linarith [Real.pi_gt_three]) 2 wa1 (by norm_num) (by norm_num)
  trivial
example := C96_pole B (n := ⟨0, 0, 1⟩) (δ := 0) ⟨isF64_zero, isF64_zero, isF64_one⟩ (by simp [len]) (by norm_num)
  (by rw [np]; ext <;> simp [cross]) 1 2
example (G : Geodesic (F64 B)) := C98_greatcircle_radius B (a := 6378137) (f := wf B) (zA := 1) (zB := 2) G ax (.int 1) (.int 2) 0 1 2 3 wa1
  (by norm_num) (by norm_num)
example (G : Geodesic (F64 B)) := C98_euclidean_radius B (a := 6378137) (f := wf B) (zA := 1) (zB := 2) G ax (.int 1) (.int 2) 0 1 2 3 wa1
  (by norm_num) (by norm_num)
example := C71_round_trip B (lat := 1) 2 isF64_one (by rw [abs_one]; linarith [Real.pi_gt_three]) (axes := "e") rfl
example := C69_lat_lon2n_E_north B 1 2 rfl
example := C69_no_length_warning B 1 2 (axes := "e") rfl

/-! ## Tracks, means, paths -/
noncomputable abbrev track : List (ℝ × V3 ℝ) := [(0, ⟨1, 0, 0⟩), (2, ⟨0, 0, 1⟩), (1, ⟨0, 1, 0⟩)]
theorem distinct : DistinctTimes track := by simp [DistinctTimes]
theorem spaced : SpacedTimes track := by
  intro p hp q hq
  simp only [List.mem_cons, List.not_mem_nil, or_false] at hp hq
  rcases hp with rfl | rfl | rfl <;> rcases hq with rfl | rfl | rfl <;> norm_num
theorem short : ∀ p ∈ track, len p.2 ≤ 1.1 := by
  intro p hp
  simp only [List.mem_cons, List.not_mem_nil, or_false] at hp
  rcases hp with rfl | rfl | rfl <;> simp [len] <;> norm_num
example (S : Scipy (F64 B) (V3 (F64 B))) := C115_at_sample B S track distinct spaced short (by simp) [5, 1] 1 1 ⟨0, 1, 0⟩ (by simp)
  (by simp [len]; norm_num) rfl
example (S : Scipy (F64 B) (V3 (F64 B))) := C115_outside B S track [5, 1] 0 5 rfl (.inr (by simp; norm_num))
example (S : Scipy (F64 B) (V3 (F64 B))) := C115_order B S track track.reverse distinct (List.reverse_perm _).symm [5, 1]
theorem vs2 : vsum [(⟨1, 0, 0⟩ : V3 ℝ), ⟨0, 1, 0⟩] = ⟨1, 1, 0⟩ := by unfold vsum; ext <;> simp
theorem vs3 : (1.4 : ℝ) ≤ len ⟨1, 1, 0⟩ := Real.le_sqrt_of_sq_le (by norm_num)
example := C102_mean_any_order B (vs := [(⟨1, 0, 0⟩ : V3 ℝ), ⟨0, 1, 0⟩])
    (by simp [IsF64V, isF64_one, isF64_zero]) (by simp [len]; norm_num) (by norm_num) rfl
    (by rw [vs2]; have := vs3; norm_num at this ⊢; linarith) (by simp) (.add (.one _) (.one _))
section
variable (z : ℝ)
theorem ofRe (lat lon : ℝ) : ∃ p, Geodetic 6378137 (wf B) Re (normalOf Re lat lon) 1000 p := geo B _ (normalOf_unit ax lat lon).ne 1000
theorem low : |dot (dirOf (cross (normalOf Re 0 0) (normalOf Re 0 1))) (normalOf Re (1 / 2) (1 / 2))| ≤ 0.79 := by
  rw [equator_normal, normalOf_Re]
  have h := Real.sin_le (x := 1 / 2) (by norm_num)
  have h2 := Real.sin_nonneg_of_nonneg_of_le_pi (x := 1 / 2) (by norm_num) (by linarith [Real.pi_gt_three])
  simp [dot]
  norm_num at h h2 ⊢
  rw [abs_of_nonneg h2]; linarith
example : True := by
  obtain ⟨p, hp⟩ := ofRe B 0 0
  obtain ⟨q, hq⟩ := ofRe B 0 1
  have := C106_cross_track B ax (.int 1) (.int 1) (.int 1) 0 0 0 1 (1 / 2) (1 / 2) 1000 1000 5 wa1 a1 a2 (ff B) (f0 B) (f1 B) f1000 f1000
    (by norm_num) (by norm_num) (by norm_num) (by norm_num) hp hq (s := 3 / 4) (by norm_num) equator_len low
  trivial
end

end Nv.Cases.Flt
