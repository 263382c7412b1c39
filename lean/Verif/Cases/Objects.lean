import Verif.Cases.Sphere
import Verif.Props.Vectors
import Verif.Props.Frames
import Verif.Props.Convert
import Verif.Props.PathObjects
import Verif.Props.Displace
import Verif.Props.Axes
import Verif.Props.Shortest
import Verif.Props.Mixing

/-!
# Concrete cases: the object layer (C37–C51, C62–C64)

The objects are positions on WGS84 with the axes of the library.
-/

namespace Nv.Cases
open Spec Real
open XR (fin)

noncomputable abbrev W : FrameE XR := .real wa wf (.str "WGS84") Re
noncomputable abbrev S : FrameE XR := .real 6371000 0 (.str "Sphere") Re
/-- the point with n-vector `n` and depth `z` on WGS84 -/
noncomputable def pos (n : V3 ℝ) (z : ℝ) : V3 ℝ := app (transp Re) (posE wa wf (app Re (dirOf n)) z)
noncomputable abbrev nv (n : V3 ℝ) (z : ℝ) : Position XR := .nvec (.real n z W)

theorem atN (n : V3 ℝ) (hn : UnitVec n) (z : ℝ) : At (nv n z) n z (pos n z) W := by
  refine ⟨rfl, hn, ?_⟩
  change Nvector.to_ecef_vector _ = _
  unfold Nvector.to_ecef_vector Nvector.real W FrameE.real ECEFvector.real
  simp only [n2p_fin hn.ne z wa wf wf1 re]; rfl
theorem far (n : V3 ℝ) (hn : UnitVec n) (z : ℝ) (hz : z ≤ 0) : 0 < len (pos n z) := by
  have h := (len_pos_bounds (a := wa) (f := wf) wa0 wf0 wf1 re hz (unitVec_app re (dirOf_unit hn.ne))).1
  refine lt_of_lt_of_le ?_ h
  norm_num; linarith
theorem far2 {z z' : ℝ} (hz : z ≤ 0) (hz' : z' ≤ 0) : 0 < len (pos nA z) + len (pos nB z') :=
  add_pos (far nA uA z hz) (far nB uB z' hz')
theorem atA (z : ℝ) : At (nv nA z) nA z (pos nA z) W := atN nA uA z
theorem atB (z : ℝ) : At (nv nB z) nB z (pos nB z) W := atN nB uB z
theorem atC (z : ℝ) : At (nv nC z) nC z (pos nC z) W := atN nC uC z
theorem differ : DifferentEarths W S := (C133_different _ _ _ _ _ _ _ _).2 (fun h => by
  have := h.1; unfold Same at this; rw [le_max_iff] at this; norm_num [abs_of_pos] at this)
theorem W_nonan : W.NoNaN := ⟨nofun, nofun, Re.fin_noNaN⟩
theorem W_eq : pyEq false (.frameE W) (.frameE W) = .ok true := (C38_refl (.frameE W)).2 W_nonan

example := C40_unequal_frames (.real nA 1 W) (.real nB 2 S) (.real pA W) (.real pB S) differ differ
example := C40_componentwise nA nB pA pB 1 2 W W 3 W_eq
example := C40_laws nA nB nC 1 2 3 W W_nonan
theorem localB : LocalAt (nv nA 10) (FrameB (nv nA 10) (fin 1) (fin 2) (fin 3)) := .inr (.inr ⟨1, 2, 3, false, rfl⟩)
example := C41_isometry (nv nA 10) nA 10 wa wf _ Re rfl neA re _ localB pA
example := C41_onto (nv nA 10) nA 10 wa wf _ Re rfl neA re _ (.inl rfl) pA
example := C41_dot (nv nA 10) nA 10 wa wf _ Re rfl neA re _ (.inr (.inl ⟨1, rfl⟩)) pA pB nA
example := C41_frame_check (.real pA W) (FrameN (.nvec (.real nA 1 S))) differ
example := C42_spherical pA (fun h => by have := congrArg V3.x h; norm_num at this)
example := C42_inverse 5 2 1 (by norm_num) (by linarith [pi3]) (by linarith [pi3]) (by linarith [pi3]) (by linarith [pi3]) _ rfl
theorem offpole_Re : cross (northPole Re) nA ≠ 0 := fun h => by
  have := congrArg V3.x h; norm_num [northPole, cross, app, transp, dot, col0, col1, col2, Re] at this
example := C43_turned (nv nA 10) (nv nB 20) nA _ _ 10 wa wf _ Re re rfl (atA 10).ec (atB 20).ec offpole_Re 1
example := C43_length_down (nv nA 10) (nv nB 20) nA _ _ 10 wa wf _ Re re neA rfl (atA 10).ec (atB 20).ec 1
example := C43_delta_E (nv nA 10) (nv nB 20) (nv nC 30) _ _ _ wa wf _ Re (atA 10).ec (atB 20).ec (atC 30).ec

example := C37_table (some (fin 5)) none (.inr rfl) (.str "WGS84") "e"
example := C38_symm_partial true (.geo (.real 1 2 3 W)) (.nvec (.real nA 1 W)) (by rintro ⟨⟩)
example := C38_unrelated (.geo (.real 1 2 3 W)) (.nvec (.real nA 1 W)) nofun
example := C38_symm_counterexample_instance nA neA wa wf (.int 18) Re re
example := C45_geo_nvector_geo 1 2 30 wa wf (.int 18) Re re (by linarith [pi3]) (by linarith [pi3]) (by linarith [pi3])
  (by linarith [pi3])
example := C45_nvector_geo_nvector nD neD 30 wa wf (.int 18) Re re
example := C45_nvector_ecef_nvector nD neD 30 wa wf wa0 wf0 wf1 we (by norm_num) (.int 18) Re re
example := C45_ecef_nvector_ecef pA wa wf wa0 wf0 wf1 (.int 18) Re re (coreA Re re)
example := C45_geo_ecef_geo 1 2 30 wa wf wa0 wf0 wf1 we (by norm_num) (.int 18) Re re (by linarith [pi3])
  (by linarith [pi3]) (by linarith [pi3]) (by linarith [pi3])
example := C45_chain pA wa wf wa0 wf0 wf1 (.int 18) Re re (coreA Re re) (.ecef (.real pA (.real wa wf (.int 18) Re))) rfl
  [.to_geo_point, .to_nvector, .to_ecef_vector]
example := C45_chain_geo 1 2 30 wa wf wa0 wf0 wf1 we (by norm_num) (.int 18) Re re (by linarith [pi3])
  (by linarith [pi3]) (by linarith [pi3]) (by linarith [pi3]) [.to_nvector, .to_ecef_vector, .to_geo_point]

/-- a stand-in for the geodesic library on a flat plate: distance and azimuth are differences of latitude and longitude -/
noncomputable def plate : Geodesic XR :=
  ⟨fun _ _ lat1 lon1 lat2 lon2 _ => .ok (lat2 - lat1, lon2 - lon1, fin 0),
    fun _ _ lat1 lon1 az s _ => .ok (lat1 + s, lon1 + az, fin 0)⟩
theorem plate_inverts (a f : ℝ) (u : Bool) : DirectInvertsInverse plate a f u := by
  intro lat1 lon1 lat2 lon2 _ _ _ _ s az1 az2 h
  simp only [plate, Except.ok.injEq, Prod.mk.injEq] at h ⊢
  obtain ⟨rfl, rfl, rfl⟩ := h
  simp only [xr]
  ring_nf
  trivial
/-- a stand-in which always answers the same -/
noncomputable def const (s az : ℝ) : Geodesic XR :=
  ⟨fun _ _ _ _ _ _ _ => .ok (fin s, fin az, fin 0), fun _ _ lat1 lon1 _ _ _ => .ok (lat1, lon1, fin 0)⟩
noncomputable abbrev P : GeoPath XR := ⟨nv nA (-10), nv nB (-20)⟩
noncomputable abbrev P0 : GeoPath XR := ⟨nv nA (-10), nv nB (-10)⟩
noncomputable abbrev Pg : GeoPath XR := ⟨.geo (.real 1 2 30 W), .geo (.real 0 1 40 W)⟩

example := C46_exact plate Pg 1 2 30 0 1 40 wa wf _ Re rfl rfl "exact" (.inl (by decide)) none
example := (C46_sphere plate P _ _ _ _ _ _ _ (atA _) (atB _) "euclidean" 6371009).1 (by decide)
example := (C46_sphere plate P _ _ _ _ _ _ _ (atA _) (atB _) "greatcircle" 6371009).2 (by decide) (by decide) (by decide)
example := C46_symmetric plate P _ _ _ _ _ _ _ (atA _) (atB _) "greatcircle" (by decide) (by decide)
example := C48_on_path_partial plate P0 _ _ _ _ _ wa wf _ Re (atA _) (atB _) ppAB (1 / 3) (by norm_num) (by norm_num)
  "greatcircle" (by decide) (by decide) 0 0 le_rfl
example := C48_depth_counterexample plate ⟨nv nA 0, nv nB 2⟩ _ _ _ _ wa wf _ Re (atA _) (atB _)
example := C47_nearest_partial P _ _ _ _ _ _ _ _ _ wa wf _ Re re (atA _) (atB _) (nv nC 5) (atC 5) ppAB shortAB offAB
  (far2 (by norm_num) (by norm_num)) 1 one_pos
noncomputable abbrev nF : V3 ℝ := ⟨-2 / 3, 1 / 3, -2 / 3⟩
theorem uF : UnitVec nF := by norm_num [UnitVec]
theorem ppAF : ProperPath nA nF := fun h => by have := congrArg V3.x h; norm_num [cross] at this
theorem longAF : 2 * π / 3 ≤ angle nA nF := by
  have h : cos (angle nA nF) = -7 / 9 := by rw [cos_angle_unit uA uF]; norm_num [dot]
  by_contra hc
  have h2 := cos_lt_cos_of_nonneg_of_le_pi (angle_nonneg nA nF) (by linarith [pi_pos]) (not_le.1 hc)
  rw [h, show 2 * π / 3 = π - π / 3 by ring, cos_pi_sub, cos_pi_div_three] at h2
  norm_num at h2
example := C47_long_path_counterexample ⟨nv nA (-10), nv nF (-20)⟩ _ _ _ _ _ _ wa wf wf1 _ Re re (atA _) (atN nF uF _)
  ppAF longAF (add_pos (far nA uA _ (by norm_num)) (far nF uF _ (by norm_num)))
example := C47_pole_counterexample wa wf wf1 (.int 18) Re re _ _ _ rfl rfl rfl

example := C64_cross_track (P := P) (atA _) (atB _) ppAB (nv nC 5) _ _ _ _ (atC 5) (some 6371009) _ rfl (by norm_num)
example := C64_cross_track (P := P) (atA _) (atB _) ppAB (nv nC 5) _ _ _ _ (atC 5) none _ rfl
  (half_pos (far2 (by norm_num) (by norm_num)))
example := C64_cross_track_euclidean (P := P) (atA _) (atB _) ppAB (nv nC 5) _ _ _ _ (atC 5) none _ rfl
example := C64_on_great_circle (P := P) (atA _) (atB _) ppAB (nv nC 5) _ _ _ _ (atC 5)
  (far2 (by norm_num) (by norm_num)) 1 zero_le_one
example := C64_closest (P := P) (atA _) (atB _) ppAB (nv nC 5) _ _ _ wa wf _ Re re (atC 5) offAB 1 one_pos
/-- a second path which crosses the first -/
noncomputable abbrev nG : V3 ℝ := ⟨6 / 7, 2 / 7, 3 / 7⟩
theorem uG : UnitVec nG := by norm_num [UnitVec]
theorem ppCG : ProperPath nC nG := fun h => by have := congrArg V3.x h; norm_num [cross] at this
theorem crossing {Q : V3 ℝ} (h : OnCircle nA nB Q) (h' : OnCircle nC nG Q) : dot Q nA ≠ 0 := by
  intro h0
  obtain ⟨hu, s, t, rfl⟩ := h
  obtain ⟨-, s', t', h⟩ := h'
  have hx := congrArg V3.x h
  have hy := congrArg V3.y h
  have hz := congrArg V3.z h
  simp [dot] at hx hy hz h0
  have e1 : s = 0 := by linarith
  have e2 : t = 0 := by linarith
  subst e1 e2
  norm_num [UnitVec] at hu
example := C64_intersect (P := P) ⟨nv nC 1, nv nG 2⟩ _ _ _ _ _ _ _ (atA _) (atB _) (atC _) (atN nG uG _) ppAB ppCG
  (fun h => by
    obtain ⟨-, s, t, h⟩ := (h nA).1 ⟨uA, 1, 0, by ext <;> simp⟩
    have hx := congrArg V3.x h
    have hy := congrArg V3.y h
    have hz := congrArg V3.z h
    simp at hx hy hz
    linarith)
  (fun _ h h' => crossing h h') (fun _ h => by cases h)
example := C64_intersect_local (P := ⟨.pvec (.real pA (FrameN (nv nA 0))), nv nB 2⟩) P _ rfl
example := C64_ellipsoid_path (const 10 20) Pg (.geo (.real 1 1 30 W)) 1 2 30 0 1 40 1 1 30 wa wf _ Re rfl rfl rfl 10 20 10 20
  _ _ rfl rfl "exact" (.inl (by decide)) 0 0 le_rfl (by norm_num)

/-- a stand-in which answers 180 degrees to positions in the east and -180 degrees to those in the west -/
noncomputable def southward : Geodesic XR :=
  ⟨fun _ _ _ _ _ lon2 _ => .ok (fin 10, (match lon2 with | .fin x => if 0 ≤ x then fin 180 else fin (-180) | _ => fin 0), fin 0),
    fun _ _ lat1 lon1 _ _ _ => .ok (lat1, lon1, fin 0)⟩
example := C64_south_counterexample southward ⟨.geo (.real 1 0 30 W), .geo (.real 0 0 30 W)⟩ (.geo (.real (1 / 2) (-1) 30 W))
  1 0 0 0 (1 / 2) (-1) 30 wa wf _ Re rfl rfl rfl 10 10 (fin 0) (fin 0) (by simp [southward, rad2deg, xr])
  (by simp [southward, rad2deg, xr, Real.pi_pos]) (by norm_num) le_rfl

example := C49_displace plate (.real 1 2 30 W) (fin 3) (fin 4)
example := C50_inverse_direct plate wa wf (.int 18) Re 1 2 (-1) (-2) 30 false (plate_inverts _ _ _)
  (by rw [abs_le]; constructor <;> linarith [pi3]) (by rw [abs_le]; constructor <;> linarith [pi3])
  (by rw [abs_lt]; constructor <;> linarith [pi3]) (by rw [abs_lt]; constructor <;> linarith [pi3]) "ellipsoid" (by decide)
theorem C51_case (d : ℝ) (hd : d ≤ 1) : ∃ nA pA,
    At (.geo (.real 1 2 (-30) W)) nA (-30) pA W ∧ 0 < len pA ∧ d ≤ π * len pA := by
  obtain ⟨n, hn, hu, -⟩ := geoPoint_to_nvector 1 2 (-30) wa wf (.str "WGS84") Re re
  refine ⟨n, pos n (-30), ⟨hn, hu, ?_⟩, far n hu _ (by norm_num), ?_⟩
  · have hn' : (GeoPoint.real 1 2 (-30) W).to_nvector = .real n (-30) W := hn
    show (GeoPoint.real 1 2 (-30) W).to_nvector.to_ecef_vector = _
    rw [hn']
    exact (atN n hu (-30)).ec
  · have h := (len_pos_bounds (a := wa) (f := wf) (d := -30) wa0 wf0 wf1 re (by norm_num) (unitVec_app re (dirOf_unit hu.ne))).1
    change _ ≤ len (pos n (-30)) at h
    norm_num at h
    nlinarith [pi3]
example : ∃ _ : GeoPoint XR, True := by
  obtain ⟨n, p, h, h1, h2⟩ := C51_case 1 le_rfl
  obtain ⟨q, -⟩ := C51_displace_partial plate 1 2 (-30) wa wf wf1 _ "greatcircle" (by decide) n p h h1 1 2 zero_le_one h2
  exact ⟨q, trivial⟩
example := C51_axes_E_counterexample plate wa wf wa0 wf1 (.int 18) 1 one_pos (by linarith [pi3])
example := C51_sphere_roundtrip plate 6371000 30 (by norm_num) (.int 18) 1 2 (-1) (-2) (by linarith [pi3]) (by linarith [pi3])
  (by linarith [pi3]) (by linarith [pi3]) (by linarith [pi3]) (by linarith [pi3]) (by norm_num) "greatcircle" 'g' _
  rfl (by decide)

example := C62_origin (nv nA 30) nA 30 1 wa wf wa0 wf1 _ Re re rfl uA _ (.inr rfl)
example := C62_depth_ignored (.real nA 1 W) (.real nA 2 W) (fin 1) rfl rfl
example := C62_body_depth nA 1 2 W (fin 1) (fin 2) (fin 3) true (by norm_num)
example := C63_axes_e wa wf 1 2 30 wf1 (.int 18)
example := C63_axes_E wa wf 1 2 30 wf1 (.int 18)
example := C63_ned wa wf 1 2 30 (.int 18) (by linarith [pi3]) (by linarith [pi3])

end Nv.Cases
