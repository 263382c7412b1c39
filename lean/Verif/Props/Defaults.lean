import Verif.Model.Access
import Verif.Props.Frames
import Verif.Props.Vectors

/-!
# C100: the documented default arguments; C101: accessors and factory methods
-/

namespace Nv
open XR Spec

/-- the documented default Earth: semi-major axis (metres), flattening, rotation to the axes `'e'` and mean radius (metres) -/
noncomputable def Spec.wgs84_a : XR := fin 6378137
noncomputable def Spec.wgs84_f : XR := fin (1 / 298.257223563)
noncomputable def Spec.axes_e : M3 XR := (⟨⟨0, 0, 1⟩, ⟨0, 1, 0⟩, ⟨-1, 0, 0⟩⟩ : M3 ℝ).fin
noncomputable def Spec.mean_radius : XR := fin 6371009

theorem a_default : (a_WGS84 : XR) = wgs84_a := by unfold a_WGS84 wgs84_a; norm_num [xr]
theorem f_default : (f_WGS84 : XR) = wgs84_f := by
  unfold f_WGS84 wgs84_f
  simp only [xr]
  rw [XR.div_fin (by norm_num)]
  norm_num
theorem R_default : (R_e : M3 XR) = axes_e := R_e_fin
theorem r_default : (radius_default : XR) = mean_radius := by unfold radius_default mean_radius; norm_num [xr]
theorem lit_zero : (lit 0 : XR) = fin 0 := by norm_num [xr]
theorem lit_1e8 : (lit 1e-8 : XR) = fin (1 / 10 ^ 8) := by norm_num [xr]
theorem lit_1e6 : (lit 1e-6 : XR) = fin (1 / 10 ^ 6) := by norm_num [xr]

/-- **C100** positions: depth 0, WGS84, axes `'e'` -/
theorem C100_position_defaults (n m p : V3 XR) (lat lon d az : XR) :
    lat_lon2n_E lat lon = lat_lon2n_E lat lon axes_e ∧
    n_E2lat_lon n = n_E2lat_lon n axes_e ∧
    n_E2R_EN n = n_E2R_EN n axes_e ∧
    n_E_and_wa2R_EL n az = n_E_and_wa2R_EL n az axes_e ∧
    n_EB_E2p_EB_E n = n_EB_E2p_EB_E n (fin 0) wgs84_a wgs84_f axes_e ∧
    p_EB_E2n_EB_E p = p_EB_E2n_EB_E p wgs84_a wgs84_f axes_e ∧
    n_EA_E_and_n_EB_E2p_AB_E n m = n_EA_E_and_n_EB_E2p_AB_E n m (fin 0) (fin 0) wgs84_a wgs84_f axes_e ∧
    n_EA_E_and_p_AB_E2n_EB_E n p = n_EA_E_and_p_AB_E2n_EB_E n p (fin 0) wgs84_a wgs84_f axes_e ∧
    n_EA_E_and_n_EB_E2azimuth n m = n_EA_E_and_n_EB_E2azimuth n m wgs84_a wgs84_f axes_e ∧
    n_EA_E_distance_and_azimuth2n_EB_E n d az = n_EA_E_distance_and_azimuth2n_EB_E n d az axes_e := by
  simp only [a_default, f_default, R_default, lit_zero, and_self]

/-- **C100** distances: mean radius 6371009 m, great circle, tolerance 1e-8 m -/
theorem C100_distance_defaults (n m p : V3 XR) (v : V3 XR) (c : XR × XR) :
    great_circle_distance n m = great_circle_distance n m mean_radius ∧
    euclidean_distance n m = euclidean_distance n m mean_radius ∧
    cross_track_distance (n, m) p = cross_track_distance (n, m) p "greatcircle" mean_radius ∧
    on_great_circle (n, m) p = on_great_circle (n, m) p mean_radius (fin (1 / 10 ^ 8)) ∧
    on_great_circle_path (n, m) p = on_great_circle_path (n, m) p mean_radius (fin (1 / 10 ^ 8)) ∧
    unit v = unit v (fin 1) ∧
    isclose c.1 c.2 = isclose c.1 c.2 (fin (1 / 10 ^ 9)) (fin 0) false ∧
    allclose [c] = allclose [c] (fin (1 / 10 ^ 7)) (fin (1 / 10 ^ 14)) false := by
  have h1 : (lit 1 : XR) = fin 1 := by norm_num [xr]
  have h9 : (lit 1e-9 : XR) = fin (1 / 10 ^ 9) := by norm_num [xr]
  have h7 : (lit 1e-7 : XR) = fin (1 / 10 ^ 7) := by norm_num [xr]
  have h14 : (lit 1e-14 : XR) = fin (1 / 10 ^ 14) := by norm_num [xr]
  simp only [r_default, lit_1e8, h1, h9, h7, h14, lit_zero, and_self]

/-- **C100** the default `FrameE()` is WGS84 with the axes `'e'` -/
theorem C100_default_frame :
    (FrameE.new : Except PyErr (FrameE XR)) = .ok ⟨wgs84_a, wgs84_f, .str "WGS84", axes_e⟩ := by
  have hl : (get_ellipsoid (.str "WGS84") : Except PyErr (Ellipsoid XR)) =
      .ok ⟨lit 6378137.0, lit 1 / lit 298.257223563, "GRS80 / WGS84  (NAD83)"⟩ := by
    have h1 : normName "WGS84" = "wgs84" := by decide
    have h2 : ELLIPSOID_IX.lookup "wgs84" = some 18 := by decide
    unfold get_ellipsoid
    simp only [h1, h2]
    rfl
  obtain ⟨F, hF, ha, hf, hn, hR⟩ := (C37_table none none (.inr rfl) (.str "WGS84") "e").1 _ hl (.inl rfl)
  have ea : F.a = wgs84_a := by rw [ha]; unfold wgs84_a; norm_num [xr]
  have ef : F.f = wgs84_f := by rw [hf]; exact f_default
  have eR : F.R_Ee = axes_e := by
    have : (E_rotation "e" : Except PyErr (M3 XR)) = .ok R_e := rfl
    rw [this] at hR
    rw [← Except.ok.inj hR]; exact R_default
  rw [hF, ← ea, ← ef, ← eR, ← hn]

/-- **C100** the two interfaces have the same default Earth: objects built without a frame convert exactly as the functions do without arguments -/
theorem C100_interfaces_agree (lat lon : XR) (n p : V3 XR) :
    (∃ g, GeoPoint.create lat lon = .ok g ∧ g.to_nvector.normal = lat_lon2n_E lat lon ∧ g.to_nvector.z = fin 0 ∧
      g.to_ecef_vector.pvector = n_EB_E2p_EB_E (lat_lon2n_E lat lon)) ∧
    (∃ v, Nvector.create n = .ok v ∧ v.to_ecef_vector.pvector = n_EB_E2p_EB_E n ∧
      (v.to_geo_point.latitude, v.to_geo_point.longitude) = n_E2lat_lon n) ∧
    (∃ e, ECEFvector.create p = .ok e ∧ (e.to_nvector.normal, e.to_nvector.z) = p_EB_E2n_EB_E p) := by
  have hd : default_frame (none : Option (FrameE XR)) = .ok ⟨wgs84_a, wgs84_f, .str "WGS84", axes_e⟩ := C100_default_frame
  refine ⟨?_, ?_, ?_⟩
  · refine ⟨_, by simp only [GeoPoint.create, hd, bind, Except.bind, pure, Except.pure]; rfl, ?_, ?_, ?_⟩
    · rw [R_default]; rfl
    · exact lit_zero
    · rw [a_default, f_default, R_default]; rfl
  · refine ⟨_, by simp only [Nvector.create, hd, bind, Except.bind, pure, Except.pure]; rfl, ?_, ?_⟩
    · rw [a_default, f_default, R_default]; rfl
    · rw [R_default]; rfl
  · refine ⟨_, by simp only [ECEFvector.create, hd, bind, Except.bind, pure, Except.pure]; rfl, ?_⟩
    rw [a_default, f_default, R_default]; rfl

/-- **C100** methods of the objects: zero angles and depths, no unrolling, radians, ellipsoidal displacements and inverse problem, great circle paths,
tolerances `1e-6` (relative) and `1e-8` (absolute) -/
theorem C100_method_defaults (G : Geodesic XR) (F : FrameE XR) (g : GeoPoint XR) (P : GeoPath XR) (p q : Position XR) (a b c d : XR) :
    F.inverse G a b c d = F.inverse G a b c d (fin 0) false false ∧
    F.direct G a b c d = F.direct G a b c d (fin 0) false false ∧
    GeoPoint.new a b (frame := F) = GeoPoint.new a b (fin 0) F false ∧
    FrameL p = FrameL p (fin 0) ∧ FrameB p = FrameB p (fin 0) (fin 0) (fin 0) false ∧ delta_L p q = delta_L p q (fin 0) ∧
    g.displace G a b = g.displace G a b false false "ellipsoid" ∧
    g.distance_and_azimuth G p = g.distance_and_azimuth G p false false "ellipsoid" ∧
    P.cross_track_distance p = P.cross_track_distance p "greatcircle" (some P.average_radius) ∧
    P.track_distance G = P.track_distance G "greatcircle" (some P.average_radius) ∧
    P.on_great_circle p = P.on_great_circle p (fin (1 / 10 ^ 8)) ∧
    P.on_path G p = P.on_path G p "greatcircle" (fin (1 / 10 ^ 6)) (fin (1 / 10 ^ 8)) := by
  simp only [lit_1e8, lit_1e6, lit_zero, true_and, and_true]
  exact ⟨rfl, rfl⟩

/-- **C101** `FrameE.GeoPoint`, `FrameE.Nvector`, `FrameE.ECEFvector` and `Pvector` of a local frame never fail and create objects of that very frame with
the given coordinates, whatever keyword `frame` they get -/
theorem C101_factories (F : FrameE XR) (other : Option (FrameE XR)) (L : LocalFrame XR) (lat lon z : ℝ) (v : V3 XR) :
    F.GeoPoint (fin lat) (fin lon) (fin z) false other = .ok ⟨fin lat, fin lon, fin z, F⟩ ∧
    F.GeoPoint (fin lat) (fin lon) (fin z) true other = .ok ⟨fin (lat * (Real.pi / 180)), fin (lon * (Real.pi / 180)), fin z, F⟩ ∧
    F.Nvector v (fin z) other = .ok ⟨v, fin z, F⟩ ∧ F.ECEFvector v other = .ok ⟨v, F⟩ ∧
    (L.Pvector v).pvector = v ∧ (L.Pvector v).frame = L := by
  refine ⟨rfl, ?_, rfl, rfl, rfl, rfl⟩
  rw [← deg2rad_fin, ← deg2rad_fin]; rfl

/-- **C101** a point built from degrees reports these degrees, one built from radians these radians and the same in degrees -/
theorem C101_latlon (F : FrameE XR) (lat lon z : ℝ) :
    (GeoPoint.new (fin lat) (fin lon) (fin z) F true).latlon_deg = (fin lat, fin lon, fin z) ∧
    (GeoPoint.new (fin lat) (fin lon) (fin z) F true).latlon = (fin (lat * (Real.pi / 180)), fin (lon * (Real.pi / 180)), fin z) ∧
    (GeoPoint.new (fin lat) (fin lon) (fin z) F false).latlon = (fin lat, fin lon, fin z) ∧
    (GeoPoint.new (fin lat) (fin lon) (fin z) F false).latlon_deg = (fin (lat * (180 / Real.pi)), fin (lon * (180 / Real.pi)), fin z) := by
  refine ⟨?_, ?_, rfl, ?_⟩
  · change (rad2deg (deg2rad (fin lat)), rad2deg (deg2rad (fin lon)), fin z) = _
    rw [rad2deg_deg2rad, rad2deg_deg2rad]
  · rw [← deg2rad_fin, ← deg2rad_fin]; rfl
  · rw [← rad2deg_fin, ← rad2deg_fin]; rfl

/-- **C101** azimuth and elevation in degrees are the spherical coordinates of the vector, between -180 and 180 and between -90 and 90 -/
theorem C101_degrees (p : V3 ℝ) (hp : p ≠ 0) :
    ∃ az el : ℝ, azimuth_deg p.fin = fin az ∧ elevation_deg p.fin = fin el ∧ -180 ≤ az ∧ az ≤ 180 ∧ -90 ≤ el ∧ el ≤ 90 ∧
      p = ⟨len p * (Real.cos (el * (Real.pi / 180)) * Real.cos (az * (Real.pi / 180))),
        len p * (Real.cos (el * (Real.pi / 180)) * Real.sin (az * (Real.pi / 180))), len p * Real.sin (el * (Real.pi / 180))⟩ := by
  obtain ⟨l, az, el, h1, h2, h3, h4, h5, h6, h7, -, h8, h9, h10⟩ := C42_spherical p hp
  have hπ := Real.pi_pos
  have e : ∀ x : ℝ, x * (180 / Real.pi) * (Real.pi / 180) = x := by intro x; field_simp
  have b : ∀ {x : ℝ} (c : ℝ), x ≤ c * (Real.pi / 180) → x * (180 / Real.pi) ≤ c := by
    intro x c h
    have := mul_le_mul_of_nonneg_right h (show 0 ≤ 180 / Real.pi by positivity)
    rwa [show c * (Real.pi / 180) * (180 / Real.pi) = c by field_simp] at this
  have b' : ∀ {x : ℝ} (c : ℝ), c * (Real.pi / 180) ≤ x → c ≤ x * (180 / Real.pi) := by
    intro x c h
    have := mul_le_mul_of_nonneg_right h (show 0 ≤ 180 / Real.pi by positivity)
    rwa [show c * (Real.pi / 180) * (180 / Real.pi) = c by field_simp] at this
  refine ⟨az * (180 / Real.pi), el * (180 / Real.pi), ?_, ?_, b' _ (by linarith), b _ (by linarith), b' _ (by linarith), b _ (by linarith), ?_⟩
  · unfold azimuth_deg; rw [h2, rad2deg_fin]
  · unfold elevation_deg; rw [h3, rad2deg_fin]
  · rw [e, e, ← h4]; exact h10

/-- **C101** the deprecated names of the end points of a path -/
theorem C101_deprecated (A B : Position XR) : (GeoPath.mk A B).positionA = A ∧ (GeoPath.mk A B).positionB = B := ⟨rfl, rfl⟩

/-- a concrete case -/
example : (GeoPoint.new (fin 60) (fin (-10)) (fin 5) ⟨wgs84_a, wgs84_f, .str "WGS84", axes_e⟩ true).latlon_deg = (fin 60, fin (-10), fin 5) :=
  (C101_latlon _ _ _ _).1
example : (⟨3, 4, 0⟩ : V3 ℝ) ≠ 0 := by intro h; have := congrArg V3.x h; norm_num at this

end Nv
