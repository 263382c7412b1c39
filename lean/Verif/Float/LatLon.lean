import Verif.Float.Exact
import Verif.Model.Core
import Verif.Props.LatLon

/-!
# Rounding errors of `lat_lon2n_E` and `n_E2lat_lon`
-/

namespace Nv
open Spec F64
open XR (atan2 atan2_of_ne abs_atan2_le_pi_div_two)
variable {B : Binary64}

theorem two_eta : (2 : ℝ) ^ (-1074 : ℤ) = 2 * eta := by
  unfold eta
  rw [show (-1074 : ℤ) = -1075 + 1 by norm_num, zpow_add_one₀ (by norm_num)]; ring

theorem libm_uu {v x : ℝ} (h : LibmClose v x) : |v - x| ≤ 4 * uu * |x| + 2 * eta := by
  unfold LibmClose at h
  rwa [show (2 : ℝ) ^ (-51 : ℤ) = 4 * uu by unfold uu; norm_num, two_eta] at h

/-- product of two values of library functions -/
theorem fl_mul_libm {fl : ℝ → ℝ} (hfl : RoundsToNearest fl) {a x c y : ℝ} (ha : |a - x| ≤ 4 * uu * |x| + 2 * eta)
    (hc : |c - y| ≤ 4 * uu * |y| + 2 * eta) (hx : |x| ≤ 1) (hy : |y| ≤ 1) :
    |fl (a * c) - x * y| ≤ 9.01 * uu * |x * y| + 10 * eta := by
  have hu := uu_pos
  have hu1 : uu ≤ 1 / 10 ^ 10 := by unfold uu; norm_num
  have he := eta_pos
  have he1 : eta ≤ 1 / 10 ^ 10 := eta_small.trans (by norm_num)
  have ax := abs_nonneg x
  have ay := abs_nonneg y
  have hxy : 0 ≤ |x| * |y| := by positivity
  have h1 : |a * c - x * y| ≤ |x| * (4 * uu * |y| + 2 * eta) + |y| * (4 * uu * |x| + 2 * eta) +
      (4 * uu * |x| + 2 * eta) * (4 * uu * |y| + 2 * eta) := by
    rw [show a * c - x * y = x * (c - y) + y * (a - x) + (a - x) * (c - y) by ring]
    refine (abs_add_three _ _ _).trans ?_
    rw [abs_mul, abs_mul, abs_mul]
    exact add_le_add (add_le_add (mul_le_mul_of_nonneg_left hc ax) (mul_le_mul_of_nonneg_left ha ay))
      (mul_le_mul ha hc (abs_nonneg _) (by positivity))
  obtain ⟨p, hp⟩ : ∃ p, p = |x| * |y| := ⟨_, rfl⟩
  have hpn : 0 ≤ p := hp ▸ hxy
  have h2 : |a * c - x * y| ≤ 8.001 * uu * p + 4.1 * eta := by
    refine h1.trans ?_
    have e1 : |x| * (4 * uu * |y| + 2 * eta) + |y| * (4 * uu * |x| + 2 * eta) +
      (4 * uu * |x| + 2 * eta) * (4 * uu * |y| + 2 * eta) = 8 * uu * p + 16 * (uu * uu) * p + 2 * eta * |x| + 2 * eta * |y| +
        8 * uu * (eta * |x|) + 8 * uu * (eta * |y|) + 4 * (eta * eta) := by rw [hp]; ring
    rw [e1]
    have q1 : eta * |x| ≤ eta := by nlinarith
    have q2 : eta * |y| ≤ eta := by nlinarith
    have q3 : uu * uu * p ≤ 0.00001 * uu * p := mul_le_mul_of_nonneg_right (by nlinarith) hpn
    have q4 : uu * (eta * |x|) ≤ 0.001 * eta := by
      have := mul_le_mul hu1 q1 (by positivity) (by norm_num)
      linarith
    have q5 : uu * (eta * |y|) ≤ 0.001 * eta := by
      have := mul_le_mul hu1 q2 (by positivity) (by norm_num)
      linarith
    have q6 : eta * eta ≤ 0.001 * eta := by nlinarith
    have q7 : 0 ≤ uu * p := by positivity
    linarith
  have h3 := hfl.err_add (a * c)
  have h4 : |a * c| ≤ p + (8.001 * uu * p + 4.1 * eta) := by
    have := abs_sub_abs_le_abs_sub (a * c) (x * y)
    rw [abs_mul x y, ← hp] at this
    linarith
  have h5 := mul_le_mul_of_nonneg_left h4 hu.le
  have h6 := abs_add_le (fl (a * c) - a * c) (a * c - x * y)
  rw [show fl (a * c) - a * c + (a * c - x * y) = fl (a * c) - x * y by ring] at h6
  have q3 : uu * uu * p ≤ 0.00001 * uu * p := mul_le_mul_of_nonneg_right (by nlinarith) hpn
  have q6 : uu * eta ≤ 0.001 * eta := by nlinarith
  have q7 : 0 ≤ uu * p := by positivity
  rw [abs_mul x y, ← hp]
  linarith

/-- the computed components in the `e` frame -/
noncomputable def geoFl (B : Binary64) (lat lon : ℝ) : V3 ℝ :=
  ⟨B.sin lat, B.fl (B.sin lon * B.cos lat), B.fl (-B.cos lon * B.cos lat)⟩

theorem geoFl_close (lat lon : ℝ) :
    |(geoFl B lat lon).x - (geoNormal lat lon).x| ≤ 9.01 * uu * |(geoNormal lat lon).x| + 10 * eta ∧
    |(geoFl B lat lon).y - (geoNormal lat lon).y| ≤ 9.01 * uu * |(geoNormal lat lon).y| + 10 * eta ∧
    |(geoFl B lat lon).z - (geoNormal lat lon).z| ≤ 9.01 * uu * |(geoNormal lat lon).z| + 10 * eta := by
  have he := eta_pos
  have hu := uu_pos
  refine ⟨?_, ?_, ?_⟩
  · have h1 := libm_uu (B.sin_close lat)
    have : 0 ≤ uu * |Real.sin lat| := by positivity
    simp only [geoFl, geoNormal]
    linarith
  · exact fl_mul_libm B.rounds (libm_uu (B.sin_close lon)) (libm_uu (B.cos_close lat)) (Real.abs_sin_le_one _)
      (Real.abs_cos_le_one _)
  · have h1 := libm_uu (B.cos_close lon)
    have := fl_mul_libm B.rounds (a := -B.cos lon) (x := -Real.cos lon) (by
      rw [show -B.cos lon - -Real.cos lon = -(B.cos lon - Real.cos lon) by ring, abs_neg, abs_neg]; exact h1)
      (libm_uu (B.cos_close lat)) (by rw [abs_neg]; exact Real.abs_cos_le_one _) (Real.abs_cos_le_one _)
    simp only [geoFl, geoNormal, ← neg_mul]
    exact this

theorem len_geoNormal (lat lon : ℝ) : len (geoNormal lat lon) = 1 := (geoNormal_isUnit lat lon).len

/-- the length of the computed vector -/
theorem geoFl_len (lat lon : ℝ) : |len (geoFl B lat lon) - 1| ≤ 9.02 * uu := by
  obtain ⟨h1, h2, h3⟩ := geoFl_close (B := B) lat lon
  have := len_close_rel (by linarith [uu_pos] : 0 ≤ 9.01 * uu) (by linarith [eta_pos] : 0 ≤ 10 * eta) h1 h2 h3
  rw [len_geoNormal] at this
  refine this.trans ?_
  have h4 := eta_small
  have : (1 / 10 ^ 60 : ℝ) ≤ uu / 10 ^ 5 := by unfold uu; norm_num
  linarith

theorem isF64V_geoFl (lat lon : ℝ) : IsF64V (geoFl B lat lon) := ⟨B.sin_val _, B.rounds.val _, B.rounds.val _⟩

theorem fin64V_geoFl (lat lon : ℝ) : Fin64V (geoFl B lat lon) := by
  refine fin64V_of_le (isF64V_geoFl _ _) ?_
  have := (abs_le.mp (geoFl_len (B := B) lat lon)).2
  have : uu ≤ 1 := by unfold uu; norm_num
  linarith

theorem abs_libm_le_two {v x : ℝ} (h : LibmClose v x) (hx : |x| ≤ 1) : |v| ≤ 2 := by
  have h1 := libm_close (e := 1) h hx (by unfold uu; norm_num)
  have := abs_sub_abs_le_abs_sub v x
  linarith

/-- `lat_lon2n_E` in binary64 -/
theorem lat_lon2n_E_flt (lat lon : ℝ) {R : M3 ℝ} (hR : IsAxes R) :
    lat_lon2n_E (F64.fin lat : F64 B) (F64.fin lon) R.flt = (app (transp R) (geoFl B lat lon)).flt := by
  have c1 := abs_libm_le_two (B.cos_close lat) (Real.abs_cos_le_one _)
  have c2 := abs_libm_le_two (B.cos_close lon) (Real.abs_cos_le_one _)
  have s2 := abs_libm_le_two (B.sin_close lon) (Real.abs_sin_le_one _)
  rw [← (mulVec_tr_axes hR (fin64V_geoFl lat lon)).1]
  unfold lat_lon2n_E geoFl V3.flt
  dsimp only
  rw [fin_sin, fin_sin, fin_cos, fin_cos, fin_mul (abs_mul_le' s2 c1 (by norm_num)), fin_neg,
    fin_mul (abs_mul_le' (a := 2) (by rw [abs_neg]; exact c2) c1 (by norm_num))]

end Nv
