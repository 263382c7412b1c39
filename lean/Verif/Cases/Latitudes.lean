import Verif.Cases.Leave
import Verif.Props.Poleward

/-!
# Concrete cases: latitudes and courses along a path (C157)
-/

namespace Nv.Cases
open Spec Real
open XR (fin)

/-- a latitude and longitude as in the examples below exist -/
theorem middle_lat_lon : ∃ lat lon : ℝ, n_E2lat_lon middle.fin Re.fin = (fin lat, fin lon) := by
  obtain ⟨lat, lon, h, -⟩ := C03_ranges middle middle_unit.ne Re isRotation_Re
  exact ⟨lat, lon, h⟩
theorem on_route : OnCircle west east east := ⟨east_unit, 0, 1, by ext <;> simp⟩

/-- C157 half way along the equator (and at the same place once more for Clairaut's relation) -/
example := fun (h : ℝ) (hh : n_EA_E_and_n_EB_E2azimuth middle.fin east.fin (fin 1) (fin 0) Re.fin = fin h) (lat lon : ℝ)
    (hl : n_E2lat_lon middle.fin Re.fin = (fin lat, fin lon)) => And.intro
  (C157_vertex west_unit east_unit west_east (by norm_num) (by norm_num) half_way isRotation_Re middle_no_pole one_pos hh hl)
  (C157_clairaut west_unit east_unit west_east (by norm_num) (by norm_num) half_way isRotation_Re middle_no_pole one_pos hh hl
    (by norm_num) (by norm_num) half_way middle_no_pole hh hl)
/-- C157 the course at the vertex is due east or west: at the middle of the equator path there is no higher latitude -/
example : ∃ h : ℝ, n_EA_E_and_n_EB_E2azimuth middle.fin east.fin (fin 1) (fin 0) Re.fin = fin h ∧ cos h = 0 := by
  obtain ⟨h, hh⟩ := middle_course
  obtain ⟨lat, lon, hl⟩ := middle_lat_lon
  refine ⟨h, hh, (C157_vertex west_unit east_unit west_east (by norm_num) (by norm_num) half_way isRotation_Re middle_no_pole one_pos hh hl).1 ?_⟩
  rintro Q latQ lonQ ⟨hQ, s, t, e⟩ hlQ
  obtain ⟨s1, -, r1, r2⟩ := lat_of hQ isRotation_Re hlQ
  have h0 : sin latQ = 0 := by
    rw [s1, e]
    simp [dot, northPole, app, transp, Re, west, east, col0, col1, col2]
  have : latQ = 0 := by
    rcases lt_trichotomy latQ 0 with h | h | h
    · have := Real.sin_neg_of_neg_of_neg_pi_lt h (by linarith [Real.pi_pos]); linarith
    · exact h
    · have := Real.sin_pos_of_pos_of_lt_pi h (by linarith [Real.pi_pos]); linarith
  rw [this, abs_zero]; exact abs_nonneg _
example := fun (h : ℝ) (hh : n_EA_E_and_n_EB_E2azimuth middle.fin east.fin (fin 1) (fin 0) Re.fin = fin h) (lat lon : ℝ)
    (hl : n_E2lat_lon middle.fin Re.fin = (fin lat, fin lon)) (latQ lonQ : ℝ) (hlQ : n_E2lat_lon east.fin Re.fin = (fin latQ, fin lonQ)) =>
  C157_highest west_unit east_unit west_east (by norm_num) (by norm_num) half_way isRotation_Re middle_no_pole one_pos hh hl on_route hlQ

/-- C157 two positions at 1 rad (57°) north, 2 rad apart in longitude, on WGS84: the path between them lies north of this parallel -/
example : ∃ (N : Nvector XR) (lat lon z : ℝ), (GeoPath.mk (.geo (.real 1 0 0 (.real 6378137 (1 / 298.257223563) (.str "WGS84") Re)))
      (.geo (.real 1 2 0 (.real 6378137 (1 / 298.257223563) (.str "WGS84") Re)))).interpolate (fin (1 / 3)) = .ok N ∧
    N.to_geo_point = .real lat lon z (.real 6378137 (1 / 298.257223563) (.str "WGS84") Re) ∧ 1 < lat := by
  obtain ⟨N, lat, lon, e1, e2, -, e3⟩ := (C157_poleward 6378137 (1 / 298.257223563) (by norm_num) (.str "WGS84") isRotation_Re 1 0 0 1 2 0 1 (1 / 3)
    one_pos (by linarith [Real.pi_gt_three]) (by rw [abs_one]; linarith [Real.pi_gt_three]) (by rw [abs_one]; linarith [Real.pi_gt_three])
    (by norm_num) (by norm_num)).1 le_rfl le_rfl
  refine ⟨N, lat, lon, _, e1, e2, e3 (by norm_num) (by norm_num) ?_⟩
  rw [lat_lon2n_E_fin, lat_lon2n_E_fin]
  intro h
  have h := congrArg V3.y (V3.fin_inj.1 h)
  have hs : 0 < sin (2:ℝ) := Real.sin_pos_of_pos_of_lt_pi two_pos (by linarith [Real.pi_gt_three])
  have hc := Real.cos_one_pos
  simp [app, transp, Re, geoNormal, dot, col0, col1, col2] at h
  rcases h with h | h <;> linarith

end Nv.Cases
