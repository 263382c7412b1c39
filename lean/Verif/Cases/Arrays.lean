import Verif.Cases.Objects
import Verif.Props.VectorGeo
import Verif.Props.VectorPaths
import Verif.Props.Rows
import Verif.Props.Empty

/-!
# Concrete cases: arrays (C52, C53, C60, C65, C66, C74, C134, C135)

Two positions against two, one or three; exact numbers, WGS84.
-/

namespace Nv.Cases.Arr
open Nv.ND Nv.Cases
open XR (fin)

/-- two columns -/
noncomputable def col2 (j : ℕ) : V3 XR := if j = 0 then nA.fin else nB.fin
noncomputable def col2' (j : ℕ) : V3 XR := if j = 0 then nC.fin else nD.fin
noncomputable def row2 (j : ℕ) : XR := fin (j + 1)
noncomputable abbrev A2 := arrOf 2 col2
noncomputable abbrev B2 := arrOf 2 col2'
noncomputable abbrev A1 := arrOf 1 col2
noncomputable abbrev B1 := arrOf 1 col2'
noncomputable abbrev A3 := arrOf 3 col2
noncomputable abbrev vec (n : ℕ) : Arr XR := ⟨[n], fun i => row2 (i.headD 0)⟩
noncomputable abbrev num : Arr XR := ND.scalar (fin 3)

theorem cA2 : IsCols A2 2 col2 := arrOf_cols 2 col2
theorem cB2 : IsCols B2 2 col2' := arrOf_cols 2 col2'
theorem cA1 : IsCols A1 1 col2 := arrOf_cols 1 col2
theorem cB1 : IsCols B1 1 col2' := arrOf_cols 1 col2'
theorem cA3 : IsCols A3 3 col2 := arrOf_cols 3 col2
theorem rV (n : ℕ) : IsRow (vec n) n row2 := .inr (.inl ⟨rfl, fun _ _ => rfl⟩)
theorem rN : IsRow num 1 (fun _ => fin 3) := .inl ⟨rfl, rfl, rfl⟩
theorem vV (n : ℕ) : IsVal false (vec n) n row2 := ⟨rfl, fun _ _ => rfl⟩
theorem vN : IsVal true num 1 (fun _ => fin 3) := ⟨rfl, rfl, rfl⟩
noncomputable abbrev RX : M3 XR := Spec.Re.fin
noncomputable abbrev aX : XR := fin wa
noncomputable abbrev fX : XR := fin wf
theorem b21 : Bc 2 1 2 := .one 2
theorem b22 : Bc 2 2 2 := .self 2
theorem b12 : Bc 1 2 2 := .one' 2

/-! ## C52 -/
example := C52_unit cA2 (fin 1)
example := C52_lat_lon2n_E (rV 2) rN (.inr rfl) RX
example := C52_n_EB_E2p_EB_E cA2 rN two_pos b21 aX fX RX
example := C52_n_EB_E2p_EB_E cA1 (rV 2) one_pos b12 aX fX RX
example := C52_p_EB_E2n_EB_E cA2 aX fX RX
example := C52_n_EA_E_and_n_EB_E2p_AB_E cA2 cB1 (rV 2) rN two_pos one_pos (.inl rfl) (.inr rfl) b21 aX fX RX
example := C52_n_EA_E_and_p_AB_E2n_EB_E cA2 cB1 (rV 2) two_pos (.inl rfl) b21 aX fX RX
example := C52_interpolate cA2 cB1 (rV 2) b21 (.inl rfl)
example := C52_great_circle_normal cA2 cB1 b21
example := C52_euclidean_distance cA2 cB1 b21 (fin 6371000)
example := C52_n_E2lat_lon cA2 two_pos RX
example := C52_n_EA_E_distance_and_azimuth2n_EB_E cA2 (rV 2) rN (.inl rfl) (.inr rfl) RX
example := C52_n_EA_E_distance_and_azimuth2n_EB_E_any cA1 (rV 2) rN (.self 1) b12 RX
example := C52_n_E2R_EN cA2 two_pos RX
example := C52_mean_horizontal_position cA2
example := C52_n_EA_E_and_n_EB_E2azimuth cA2 cB1 two_pos one_pos b21 aX fX RX
example := C52_xyz2R (rV 2) rN (rV 2) b21 b22
example := C52_zyx2R (rV 2) rN (rV 2) b21 b22
example := C52_n_E_and_wa2R_EL cA2 (rV 2) two_pos b22 RX
/-- two rotation matrices -/
theorem pages2 : ∃ X : Arr XR, IsPages X 2 fun j => Nv.xyz2R (row2 (bi 2 j)) (fin 3) (row2 (bi 2 j)) := by
  obtain ⟨X, -, h⟩ := C52_xyz2R (rV 2) rN (rV 2) b21 b22
  exact ⟨X, h⟩
example : True := by
  obtain ⟨X, h⟩ := pages2
  have := C52_R_EL2n_E h
  have := C52_R2xyz h
  have := C52_R2zyx h
  trivial
example := C52_lat_lon_scalar_latitude (lat := num) (lon := vec 2) rfl rfl le_rfl RX
example := C52_no_columns (A := arrOf 0 col2) (depth := num) rfl aX fX RX

/-! ## C53 -/
example := C53_great_circle_distance cA2 cB1 b21 (fin 1)
example := C53_great_circle_distance_partial cA1 cB2 (fin 1)
example := C53_great_circle_distance_counterexample cA2 cB2 b22 le_rfl two_pos (fin 1)
example := C53_cross_track_distance cA2 cB2 cA1 "euclidean" 'e' "uclidean".toList (by decide) (fin 1)
example := C53_cross_track_distance_partial cA2 cB2 cB1 "euclidean" 'e' "uclidean".toList (by decide) (fin 1) b21 (.inr rfl)
example := C53_cross_track_distance_counterexample cA2 cB2 cA2 le_rfl (fin 1)
example := C53_on_great_circle_path_counterexample cA2 cB2 cA2 le_rfl (fin 1) (fin 0)
example := C53_on_great_circle_path_partial cA2 cB2 cB1 b21 (.inr rfl) (fin 1) (fin 0)
example := C53_intersect_general cA2 cB2 cA2 cB2 b22
example := C53_intersect_partial cA1 cB1 cA1 cB1
example := C53_closest_point_general cA2 cB2 cA2 b22
example := C53_closest_point_partial cA1 cB1 cA1

/-! ## C60 -/
noncomputable abbrev gA : ND.GeoPoint XR := ⟨vec 2, vec 2, vec 2, W⟩
noncomputable abbrev gS : ND.GeoPoint XR := ⟨num, num, num, W⟩
noncomputable abbrev nvA : ND.Nvector XR := ⟨A2, vec 2, W⟩
noncomputable abbrev nvC : ND.Nvector XR := ⟨B2, num, W⟩
noncomputable abbrev nvS : ND.Nvector XR := ⟨A1, num, W⟩
noncomputable abbrev nvT : ND.Nvector XR := ⟨B1, num, W⟩
noncomputable abbrev ecA : ND.ECEFvector XR := ⟨A2, W, false⟩
noncomputable abbrev ecS : ND.ECEFvector XR := ⟨B1, W, true⟩
theorem hgA : IsGeo false 2 gA fun j => ⟨row2 j, row2 j, row2 j, W⟩ := ⟨vV 2, vV 2, vV 2, fun _ _ => rfl⟩
theorem hgS : IsGeo true 1 gS fun _ => ⟨fin 3, fin 3, fin 3, W⟩ := ⟨vN, vN, vN, fun _ _ => rfl⟩
theorem hnA : IsNvec false 2 nvA fun j => ⟨col2 j, row2 j, W⟩ := ⟨cA2, .inl (vV 2), fun _ _ => rfl⟩
/-- two positions with one common depth -/
theorem hnC : IsNvec false 2 nvC fun j => ⟨col2' j, fin 3, W⟩ :=
  ⟨cB2, .inr ⟨rfl, by decide, true, _, vN, fun _ _ => rfl⟩, fun _ _ => rfl⟩
theorem hnS : IsNvec true 1 nvS fun j => ⟨col2 j, fin 3, W⟩ := ⟨cA1, .inl vN, fun _ _ => rfl⟩
theorem hnT : IsNvec true 1 nvT fun j => ⟨col2' j, fin 3, W⟩ := ⟨cB1, .inl vN, fun _ _ => rfl⟩
theorem heA : IsEcef false 2 ecA fun j => ⟨col2 j, W⟩ := ⟨cA2, rfl, by simp, fun _ _ => rfl⟩
theorem heS : IsEcef true 1 ecS fun j => ⟨col2' j, W⟩ := ⟨cB1, rfl, by simp, fun _ _ => rfl⟩
theorem pA : IsPos false 2 (.nvec nvA) fun j => .nvec ⟨col2 j, row2 j, W⟩ := .nvec hnA fun _ _ => rfl
theorem pC : IsPos false 2 (.nvec nvC) fun j => .nvec ⟨col2' j, fin 3, W⟩ := .nvec hnC fun _ _ => rfl
theorem pS : IsPos true 1 (.nvec nvS) fun j => .nvec ⟨col2 j, fin 3, W⟩ := .nvec hnS fun _ _ => rfl
theorem pT : IsPos true 1 (.nvec nvT) fun j => .nvec ⟨col2' j, fin 3, W⟩ := .nvec hnT fun _ _ => rfl
theorem pE : IsPos false 2 (.ecef ecA) fun j => .ecef ⟨col2 j, W⟩ := .ecef heA fun _ _ => rfl
theorem pG : IsPos false 2 (.geo gA) fun j => .geo ⟨row2 j, row2 j, row2 j, W⟩ := .geo hgA fun _ _ => rfl
theorem pGS : IsPos true 1 (.geo gS) fun _ => .geo ⟨fin 3, fin 3, fin 3, W⟩ := .geo hgS fun _ _ => rfl
/-- the North frames at the two positions, the body frames with one yaw for both -/
noncomputable abbrev frN : ND.LocalFrame XR := .N nvA
noncomputable abbrev frB : ND.LocalFrame XR := .B nvA num num (vec 2)
theorem lN : IsLocal 2 frN fun j => .N ⟨col2 j, row2 j, W⟩ := .N hnA fun _ _ => rfl
theorem lS : IsLocal 1 (.N nvS) fun j => .N ⟨col2 j, fin 3, W⟩ := .N hnS fun _ _ => rfl
theorem lB : IsLocal 2 frB fun j => .B ⟨col2 (bi 2 j), row2 (bi 2 j), W⟩ (fin 3) (fin 3) (row2 (bi 2 j)) :=
  .B hnA rN rN (rV 2) b21 b21 b22 fun _ _ => rfl
theorem pv : IsPvec false 2 ⟨B2, frB, false⟩ fun j => ⟨col2' (bi 2 j), .B ⟨col2 (bi 2 (bi 2 j)), row2 (bi 2 (bi 2 j)), W⟩ (fin 3)
    (fin 3) (row2 (bi 2 (bi 2 j)))⟩ := ⟨2, 2, _, _, cB2, lB, b22, rfl, by simp, fun _ _ => rfl⟩
theorem pP : IsPos false 2 (.pvec ⟨B2, frB, false⟩) fun j => .pvec ⟨col2' (bi 2 j), .B ⟨col2 (bi 2 (bi 2 j)), row2 (bi 2 (bi 2 j)), W⟩ (fin 3)
    (fin 3) (row2 (bi 2 (bi 2 j)))⟩ := .pvec pv fun _ _ => rfl
theorem sameW : check_frames W W = .ok () := check_frames_self W_nonan.1 W_nonan.2.1 W_nonan.2.2

example := C60_GeoPoint (vV 2) vN (vV 2) b21 b22 W true
example := C60_geo_scalar hgA
example := C60_nvec_scalar hnC
example := C60_ECEFvector cA2 W
example := C60_geo_to_nvector hgA
example := C60_nvec_to_ecef hnC two_pos
example := C60_nvec_to_geo hnC two_pos
example := C60_ecef_to_nvector heA
example := C60_R_EN lB two_pos
example := C60_pvec_to_ecef pv two_pos
example := C60_change_frame heA lN b22 two_pos (by simp) sameW
example := C60_scalar_one pS
example := C60_to_ecef_vector pP two_pos
example := C60_to_nvector pP two_pos
example := C60_to_geo_point pP two_pos
example := C60_conversions pP two_pos
example := C60_length (s := false) cA2 (by simp)
example := C60_azimuth (s := false) cA2 (by simp)
example := C60_elevation (s := true) cA1 (by simp)
example := C60_FrameN pP two_pos
example := C60_FrameL pA rN b21 two_pos
example := C60_FrameB pA rN (rV 2) rN b12 b21 b22 two_pos true
example := C60_ecef_add heA heS b21
example := C60_ecef_sub heA heS b21
example := C60_ecef_neg heA
example := C60_delta_E pA pS b21 two_pos
example := C60_delta_N pA pS b21 two_pos
example := C60_delta_L pA pS b21 rN b21 b22 two_pos (by simp)
example := C60_nvec_add hnA hnS b21
example := C60_nvec_sub hnC hnS b21
example := C60_nvec_neg hnC
example := C60_nvec_mul hnA vN b21
example := C60_nvec_div hnA (vV 2) b22
example := C60_nvec_unit hnC
example := C60_mean hnA rfl
example := C60_mean_common hnC rfl
example := C60_change_frame_counterexample heS lN le_rfl sameW
theorem other : S.isEqualTo W = false := by
  rw [Bool.eq_false_iff]
  intro h
  obtain ⟨h, -⟩ := (C38_frameE_iff _ _ _ _ (.str "Sphere") (.str "WGS84") Spec.Re Spec.Re).1 (congrArg Except.ok h)
  revert h
  norm_num [Spec.Same, wa, abs_le]
example := C60_change_frame_other_ellipsoid (P := ⟨A2, S, false⟩) (s := false) (g := fun j => ⟨col2 j, S⟩)
  ⟨cA2, rfl, by simp, fun _ _ => rfl⟩ lN b22 other

/-! ## C74, C134, C135 -/
noncomputable abbrev flat : Arr XR := ⟨[2, 4], fun _ => fin 1⟩
example := C74_n_E2lat_lon (A := flat) (n := 3) rfl (by decide) RX
example := C74_n_E2R_EN (A := flat) (n := 3) rfl (by decide) RX
example := C74_n_EB_E2p_EB_E (A := flat) (n := 3) (depth := num) rfl (by decide) aX fX RX
example := C74_p_EB_E2n_EB_E (A := flat) rfl (by decide) aX fX RX
example := C74_n_E_and_wa2R_EL (A := flat) (n := 3) (wa := num) rfl (by decide) RX
example := C74_mean_horizontal_position (A := flat) rfl (by decide)
example := C74_mean_horizontal_position (α := XR) (A := ⟨[6, 2], fun _ => aX⟩) rfl (by decide)
example : ND.n_EA_E_and_n_EB_E2p_AB_E A2 flat num num aX fX RX = .error .ValueError :=
  let ⟨_, hP, _⟩ := C52_n_EB_E2p_EB_E cA2 rN two_pos b21 aX fX RX
  C74_second_vector (B := flat) (n := 3) rfl (by decide) aX fX RX hP
example := C74_unchecked (A := flat) (B := flat) rfl rfl aX aX
example := C74_n_EA_E_and_n_EB_E2p_AB_E (A := flat) (B := A2) (zA := num) (zB := num) (n := 3) rfl (by decide) aX fX RX
example := C74_n_EA_E_and_p_AB_E2n_EB_E (A := flat) (B := A2) (zA := num) (n := 3) rfl (by decide) aX fX RX
example := C74_n_EA_E_and_n_EB_E2azimuth (A := flat) (B := A2) (n := 3) rfl (by decide) aX fX RX
example := C74_no_columns (A := arrOf 0 col2) rfl num aX fX RX
example := C74_one_dimension (A := vec 3) rfl num aX fX RX

theorem c23 : Spec.Clash 2 3 := ⟨by decide, by decide, by decide⟩
example := C134_lat_lon2n_E c23 (rV 2) (rV 3) RX
example := C134_n_EB_E2p_EB_E c23 two_pos cA2 (rV 3) aX fX RX
example := C134_n_EA_E_and_n_EB_E2p_AB_E c23 two_pos three_pos cA2 cA3 rN (rV 3) (.inr rfl) (.inl rfl) aX fX RX
example := C134_n_EA_E_and_n_EB_E2azimuth c23 two_pos three_pos cA2 cA3 aX fX RX
example := C134_n_EA_E_and_p_AB_E2n_EB_E c23 two_pos cA2 cA3 rN (.inr rfl) aX fX RX
example := C134_path_ends c23 cA2 cA3 (C := A1) (D := A1) (ti := num) "greatcircle" (fin 1) (fin 0)
example := C134_interpolate c23 cA2 cB2 (rV 3)
example := C134_path_points c23 cA2 cB2 cA3 (fin 1) (fin 0)
example := C134_intersect c23 cA2 cB2 cA3 cA3
example := C134_all_pairs cA2 cB2 cA3 (fin 1) (fin 0)
example := C134_azimuths c23 (dist := num) cA2 (rV 3) RX
example := C134_distances c23 cA2 (rV 3) rN (.inr rfl) RX
example := C134_geodesic c23 (A1 := vec 2) (A2 := num) (A3 := vec 3) (A4 := num) (A5 := num) (s := []) (t := []) (by simp) (by simp)
  plate W false true
example := C134_GeoPoint c23 (lat := vec 2) (lon := num) (z := vec 3) (s := []) (t := []) (by simp) (by simp) W true
example := C134_angles c23 (x := vec 2) (y := num) (z := vec 3) (s := []) (t := []) (by simp) (by simp)
example := C134_n_E_and_wa2R_EL c23 two_pos cA2 (rV 3) RX
theorem heA3 : IsEcef false 3 ⟨A3, W, false⟩ fun j => ⟨col2 j, W⟩ := ⟨cA3, rfl, by simp, fun _ _ => rfl⟩
theorem hnA3 : IsNvec false 3 ⟨A3, vec 3, W⟩ fun j => ⟨col2 j, row2 j, W⟩ := ⟨cA3, .inl (vV 3), fun _ _ => rfl⟩
example := C134_add_sub c23 heA heA3 hnA hnA3
example := C134_delta c23 two_pos three_pos pA (.nvec hnA3 fun _ _ => rfl) num
example := C135_geodesic (A1 := vec 0) (A2 := vec 0) (A3 := num) (A4 := vec 1) (A5 := num) (by simp) (by simp [ND.scalar]) plate W false true
example := C135_conversions (A := arrOf 0 col2) (depth := num) (wa := num) rfl A2 num num A2 aX fX RX
example := C135_empty (A := arrOf 0 col2) (B := arrOf 0 col2) (C := arrOf 0 col2) rfl rfl rfl (lat := vec 0) (lon := vec 0)
  (ti := vec 0) (dist := vec 0) (az := vec 0) rfl rfl rfl rfl rfl aX fX (fin 1) (fin 1) RX
example := C135_GeoPoint (lat := vec 0) (lon := num) (z := num) rfl (.inr rfl) (.inr rfl) W plate num num (.inl rfl) (.inl rfl)
  true false true
example := C135_mean (A := arrOf 0 col2) (z := vec 0) rfl rfl W

end Nv.Cases.Arr
