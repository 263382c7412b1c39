import Verif.Float.LatLon

/-!
# C69, C71: latitude / longitude and n-vector in binary64

`B` ranges over all binary64 implementations, the angles over all binary64 numbers and the axes over all strings `E_rotation`
accepts.
-/

namespace Nv
open Spec F64
open XR (atan2 atan2_of_ne abs_atan2_le_pi_div_two)
variable (B : Binary64)

theorem app_axes_close {R : M3 ℝ} (hR : IsAxes R) {v w : V3 ℝ} {e : ℝ} (h1 : |w.x - v.x| ≤ e) (h2 : |w.y - v.y| ≤ e)
    (h3 : |w.z - v.z| ≤ e) : |(app (transp R) w).x - (app (transp R) v).x| ≤ e ∧
      |(app (transp R) w).y - (app (transp R) v).y| ≤ e ∧ |(app (transp R) w).z - (app (transp R) v).z| ≤ e := by
  rcases hR with rfl | rfl <;> simp only [app, transp, Re, one, dot, col0, col1, col2] <;>
    simp only [zero_mul, one_mul, neg_mul, add_zero, zero_add]
  · refine ⟨?_, h2, h1⟩
    rwa [show -w.z - -v.z = -(w.z - v.z) by ring, abs_neg]
  · exact ⟨h1, h2, h3⟩

/-- the computed n-vector for one of the choices of axes -/
theorem lat_lon2n_E_close (lat lon : ℝ) {A : M3 ℝ} (hA : IsAxes A) :
    ∃ v : V3 ℝ, lat_lon2n_E (F64.fin lat : F64 B) (F64.fin lon) A.flt = v.flt ∧ IsF64V v ∧
      |v.x - (app (transp A) (geoNormal lat lon)).x| ≤ 1.1e-15 ∧ |v.y - (app (transp A) (geoNormal lat lon)).y| ≤ 1.1e-15 ∧
      |v.z - (app (transp A) (geoNormal lat lon)).z| ≤ 1.1e-15 ∧ |len v - 1| ≤ 1.1e-15 := by
  obtain ⟨h1, h2, h3⟩ := geoFl_close (B := B) lat lon
  have hl := geoFl_len (B := B) lat lon
  have h4 := eta_small
  have hb : ∀ {t : ℝ}, |t| ≤ 1 → 9.01 * uu * |t| + 10 * eta ≤ 1.1e-15 := by
    intro t ht
    have h5 : 9.01 * uu * |t| ≤ 9.01 * uu * 1 := mul_le_mul_of_nonneg_left ht (by linarith [uu_pos])
    have h6 : 9.01 * uu ≤ 1.01e-15 := by unfold uu; norm_num
    norm_num at h4 h5 h6 ⊢
    linarith
  have l1 := len_geoNormal lat lon
  have hc := app_axes_close hA (h1.trans (hb ((abs_x_le_len _).trans l1.le))) (h2.trans (hb ((abs_y_le_len _).trans l1.le)))
    (h3.trans (hb ((abs_z_le_len _).trans l1.le)))
  have hf := (mulVec_tr_axes (B := B) hA (fin64V_geoFl (B := B) lat lon)).2
  refine ⟨_, lat_lon2n_E_flt lat lon hA, ⟨hf.1.1, hf.2.1.1, hf.2.2.1⟩, hc.1, hc.2.1, hc.2.2, ?_⟩
  rw [len_app hA.rot.transpose]
  refine hl.trans ?_
  unfold uu; norm_num

/-- **C69** default axes: for every latitude and longitude (any size, poles included) each computed component is within `1.1e-15`
of the exact n-vector and the length of the result within `1.1e-15` of one -/
theorem C69_lat_lon2n_E_default (lat lon : ℝ) :
    ∃ v : V3 ℝ, lat_lon2n_E (F64.fin lat : F64 B) (F64.fin lon) = v.flt ∧ IsF64V v ∧
      |v.x - Real.cos lon * Real.cos lat| ≤ 1.1e-15 ∧ |v.y - Real.sin lon * Real.cos lat| ≤ 1.1e-15 ∧
      |v.z - Real.sin lat| ≤ 1.1e-15 ∧ |len v - 1| ≤ 1.1e-15 := by
  have := lat_lon2n_E_close B lat lon (.inl rfl)
  rw [← R_e_flt (B := B)] at this
  simpa only [geoNormal, app, transp, Re, dot, col0, col1, col2, zero_mul, one_mul, neg_mul, neg_neg, add_zero,
    zero_add] using this

/-- **C69** the same with the axes of `E_rotation('E')` (x-axis to the north pole) -/
theorem C69_lat_lon2n_E_north (lat lon : ℝ) {M : M3 (F64 B)} (hM : E_rotation "E" = .ok M) :
    ∃ v : V3 ℝ, lat_lon2n_E (F64.fin lat : F64 B) (F64.fin lon) M = v.flt ∧ IsF64V v ∧
      |v.x - Real.sin lat| ≤ 1.1e-15 ∧ |v.y - Real.sin lon * Real.cos lat| ≤ 1.1e-15 ∧
      |v.z - -(Real.cos lon * Real.cos lat)| ≤ 1.1e-15 ∧ |len v - 1| ≤ 1.1e-15 := by
  have h : M = R_E := (Except.ok.inj hM).symm
  have := lat_lon2n_E_close B lat lon (.inr rfl)
  rw [h, R_E_flt]
  simpa only [geoNormal, app, transp, one, dot, col0, col1, col2, zero_mul, one_mul, add_zero, zero_add] using this

theorem lit_tenth_le : B.fl ((0.1 : ℚ) : ℝ) ≥ 0.05 := by
  have := (abs_le.mp (B.rounds.err_add ((0.1 : ℚ) : ℝ))).1
  have h4 := eta_small
  have h5 : uu ≤ 0.01 := by unfold uu; norm_num
  rw [abs_of_nonneg (by norm_num)] at this
  norm_num at this h4 h5 ⊢
  linarith

/-- **C69** the length check of the functions that take an n-vector never warns about the result of `lat_lon2n_E` -/
theorem C69_no_length_warning (lat lon : ℝ) {axes : String} {M : M3 (F64 B)} (hM : E_rotation axes = .ok M) :
    check_length_deviation [lat_lon2n_E (F64.fin lat : F64 B) (F64.fin lon) M] = .ok false := by
  obtain ⟨A, hA, rfl⟩ := axes_of_E_rotation hM
  obtain ⟨v, hv, fv, -, -, -, hl⟩ := lat_lon2n_E_close B lat lon hA
  rw [hv]
  have hl' := abs_le.mp hl
  have hb : len v ≤ 10 ^ 25 := by norm_num at hl' ⊢; linarith
  have hn := abs_le.mp (flNorm_close B.rounds v)
  obtain ⟨N, hN⟩ : ∃ N, N = flNorm B.fl v.x v.y v.z := ⟨_, rfl⟩
  rw [← hN] at hn
  have hu : 4.02 * uu * len v ≤ 0.001 := by
    have : uu ≤ 0.0001 := by unfold uu; norm_num
    have := uu_pos
    norm_num at hl' ⊢
    nlinarith
  have hN1 : |N - 1| ≤ 0.01 := by
    rw [abs_le]
    norm_num at hn hl' hu ⊢
    constructor <;> linarith
  have hNb : |N - 1| ≤ 10 ^ 60 := hN1.trans (by norm_num)
  have hd : |B.fl (N - 1)| ≤ 0.02 := by
    have h1 := B.rounds.err_add (N - 1)
    have h2 := abs_sub_abs_le_abs_sub (B.fl (N - 1)) (N - 1)
    have h4 := eta_small
    have h5 : uu * |N - 1| ≤ 0.001 := by
      have : uu ≤ 0.001 := by unfold uu; norm_num
      have := uu_pos
      have := abs_nonneg (N - 1)
      norm_num at hN1 ⊢
      nlinarith
    norm_num at h4 h5 hN1 ⊢
    linarith
  have ht := lit_tenth_le B
  unfold check_length_deviation
  dsimp only
  rw [norm3_flt hb, ← hN, lit_one, fin_sub hNb, fin_abs, fin_lit (by norm_num), fin_lt]
  congr 1
  simp only [decide_eq_false_iff_not, not_lt]
  norm_num at hd ht ⊢
  linarith

/-! ## C71 -/

/-- no binary64 number comes closer to a right angle than `1e-17` -/
theorem cos_ge_of_f64 {lat : ℝ} (h : IsF64 lat) (hb : |lat| ≤ Real.pi / 2) : 1e-17 ≤ Real.cos lat := by
  have hgap : |lat| ≤ Real.pi / 2 - 5e-17 := by
    by_contra hn
    push Not at hn
    have h1 := Real.pi_gt_d20
    have h2 := Real.pi_lt_d20
    obtain ⟨j, hj⟩ := h.abs.multiple (k := 0) (by norm_num at hn h1 ⊢; linarith)
    have e : (2 : ℝ) ^ ((0 : ℤ) - 53) = 1 / 9007199254740992 := by norm_num
    rw [e] at hj
    rw [hj] at hb hn
    have k1 : (14148475504056880 : ℝ) < j := by norm_num at hn h1 ⊢; linarith
    have k2 : (j : ℝ) < 14148475504056881 := by norm_num at hb h2 ⊢; linarith
    have k1' : (14148475504056880 : ℤ) < j := by exact_mod_cast k1
    have k2' : j < (14148475504056881 : ℤ) := by exact_mod_cast k2
    omega
  rw [← Real.cos_abs]
  rw [← Real.sin_pi_div_two_sub]
  have h3 := Real.mul_le_sin (x := Real.pi / 2 - |lat|) (by linarith) (by linarith [abs_nonneg lat])
  have hπ := Real.pi_pos
  have hπ4 := Real.pi_lt_d2
  have h5 : 2 / Real.pi * 5e-17 ≤ 2 / Real.pi * (Real.pi / 2 - |lat|) := mul_le_mul_of_nonneg_left (by linarith) (by positivity)
  have h7 : 1e-17 ≤ 2 / Real.pi * 5e-17 := by
    rw [div_mul_eq_mul_div, le_div_iff₀ hπ]; norm_num at hπ4 ⊢; linarith
  linarith

/-- the error of one equatorial component relative to the computed cosine of the latitude -/
theorem fl_mul_cos {fl : ℝ → ℝ} (hfl : RoundsToNearest fl) {a x c : ℝ} (ha : |a - x| ≤ 4 * uu * |x| + 2 * eta) (hx : |x| ≤ 1)
    (hc : 0 ≤ c) (hc1 : c ≤ 2) : |fl (a * c) - c * x| ≤ c * (5.01 * uu * |x|) + 6 * eta := by
  have hu := uu_pos
  have hu1 : uu ≤ 1 / 10 ^ 10 := by unfold uu; norm_num
  have he := eta_pos
  have ax := abs_nonneg x
  have h1 : |a * c - c * x| ≤ c * (4 * uu * |x| + 2 * eta) := by
    rw [show a * c - c * x = c * (a - x) by ring, abs_mul, abs_of_nonneg hc]
    exact mul_le_mul_of_nonneg_left ha hc
  have h3 := hfl.err_add (a * c)
  have h4 : |a * c| ≤ c * |x| + c * (4 * uu * |x| + 2 * eta) := by
    have := abs_sub_abs_le_abs_sub (a * c) (c * x)
    rw [abs_mul c x, abs_of_nonneg hc] at this
    linarith
  have h5 := mul_le_mul_of_nonneg_left h4 hu.le
  have h6 := abs_add_le (fl (a * c) - a * c) (a * c - c * x)
  rw [show fl (a * c) - a * c + (a * c - c * x) = fl (a * c) - c * x by ring] at h6
  obtain ⟨p, hp⟩ : ∃ p, p = c * |x| := ⟨_, rfl⟩
  have hpn : 0 ≤ p := by rw [hp]; positivity
  have q3 : uu * uu * p ≤ 0.00001 * uu * p := mul_le_mul_of_nonneg_right (by nlinarith) hpn
  have q4 : c * eta ≤ 2 * eta := mul_le_mul_of_nonneg_right hc1 he.le
  have q5 : uu * (c * eta) ≤ 0.001 * (2 * eta) := mul_le_mul (by linarith) q4 (by positivity) (by norm_num)
  have q7 : 0 ≤ uu * p := by positivity
  have e1 : c * (4 * uu * |x| + 2 * eta) = 4 * (uu * p) + 2 * (c * eta) := by rw [hp]; ring
  have e2 : uu * (c * |x| + c * (4 * uu * |x| + 2 * eta)) = uu * p + 4 * (uu * uu * p) + 2 * (uu * (c * eta)) := by
    rw [hp]; ring
  have e3 : c * (5.01 * uu * |x|) = 5.01 * (uu * p) := by rw [hp]; ring
  rw [e1] at h1
  rw [e2] at h5
  rw [e3]
  linarith

/-- direction of a scaled vector -/
theorem atan2_scale {c t : ℝ} (hc : 0 < c) : ∃ k : ℤ, atan2 (c * Real.sin t) (c * Real.cos t) = t + k * (2 * Real.pi) := by
  have hne : ¬ (c * Real.cos t = 0 ∧ c * Real.sin t = 0) := by
    rintro ⟨h1, h2⟩
    have h1 := (mul_eq_zero.mp h1).resolve_left hc.ne'
    have h2 := (mul_eq_zero.mp h2).resolve_left hc.ne'
    have := Real.sin_sq_add_cos_sq t
    rw [h1, h2] at this; norm_num at this
  rw [atan2_of_ne hne]
  have e : (⟨c * Real.cos t, c * Real.sin t⟩ : ℂ) = (c : ℂ) * (Complex.cos t + Complex.sin t * Complex.I) := by
    apply Complex.ext <;> simp [← Complex.ofReal_cos, ← Complex.ofReal_sin]
  rw [e]
  have := Complex.arg_mul_cos_add_sin_mul_I_coe_angle hc (t : Real.Angle)
  rw [Real.Angle.cos_coe, Real.Angle.sin_coe, Complex.ofReal_cos, Complex.ofReal_sin] at this
  obtain ⟨k, hk⟩ := Real.Angle.angle_eq_iff_two_pi_dvd_sub.mp this
  exact ⟨k, by linarith⟩

theorem cosFl_bounds {lat : ℝ} (h : 1e-17 ≤ Real.cos lat) : 5e-18 ≤ B.cos lat ∧ B.cos lat ≤ 2 := by
  have h1 := abs_le.mp (libm_uu (B.cos_close lat))
  rw [abs_of_nonneg (by norm_num at h ⊢; linarith)] at h1
  have h2 := Real.cos_le_one lat
  have h4 := eta_small
  have hu : uu ≤ 0.01 := by unfold uu; norm_num
  have hm : 4 * uu * Real.cos lat ≤ 4 * 0.01 * Real.cos lat := mul_le_mul_of_nonneg_right (by linarith) (by norm_num at h ⊢; linarith)
  norm_num at h h1 h4 hm ⊢
  constructor <;> linarith

/-- the longitude of the computed n-vector -/
theorem lon_close {lat : ℝ} (lon : ℝ) (hlat : 1e-17 ≤ Real.cos lat) :
    ∃ k : ℤ, App (PyFloat.arctan2 (F64.fin (geoFl B lat lon).y : F64 B) (-F64.fin (geoFl B lat lon).z))
      (lon + k * (2 * Real.pi)) 2.4e-15 := by
  obtain ⟨c1, c2⟩ := cosFl_bounds B hlat
  obtain ⟨c, hc⟩ : ∃ c, c = B.cos lat := ⟨_, rfl⟩
  rw [← hc] at c1 c2
  have c0 : 0 < c := by norm_num at c1; linarith
  have hu := uu_pos
  have he := eta_pos
  have hcu : 6 * eta ≤ c * (0.005 * uu) := by
    have h4 := eta_small
    have : (5e-18 : ℝ) * (0.005 * uu) ≤ c * (0.005 * uu) := mul_le_mul_of_nonneg_right c1 (by positivity)
    refine le_trans ?_ this
    refine (mul_le_mul_of_nonneg_left h4 (by norm_num)).trans ?_
    unfold uu; norm_num
  have s1 := Real.abs_sin_le_one lon
  have s2 := Real.abs_cos_le_one lon
  have hy := fl_mul_cos B.rounds (libm_uu (B.sin_close lon)) s1 c0.le c2
  have hz := fl_mul_cos B.rounds (a := -B.cos lon) (x := -Real.cos lon) (by
      rw [show -B.cos lon - -Real.cos lon = -(B.cos lon - Real.cos lon) by ring, abs_neg, abs_neg]
      exact libm_uu (B.cos_close lon)) (by rwa [abs_neg]) c0.le c2
  rw [abs_neg] at hz
  have Y : App (F64.fin (geoFl B lat lon).y : F64 B) (c * Real.sin lon) (c * uu * (5.01 * |Real.sin lon| + 0.005)) :=
    ⟨_, rfl, B.rounds.val _, by simp only [geoFl, ← hc]; refine hy.trans ?_; linarith⟩
  have X : App (-(F64.fin (geoFl B lat lon).z) : F64 B) (c * Real.cos lon) (c * uu * (5.01 * |Real.cos lon| + 0.005)) := by
    have Z : App (F64.fin (geoFl B lat lon).z : F64 B) (c * -Real.cos lon) (c * uu * (5.01 * |Real.cos lon| + 0.005)) :=
      ⟨_, rfl, B.rounds.val _, by simp only [geoFl, ← hc]; refine hz.trans ?_; linarith⟩
    exact Z.neg.of_eq (by ring)
  have hsc := Real.sin_sq_add_cos_sq lon
  obtain ⟨k, hk⟩ := Y.arctan2_turn X (r := c) (ρ := 5.05 * uu) (e := 2.4e-15) c0 (by linear_combination -c ^ 2 * hsc) (by positivity)
    (by unfold uu; norm_num) (by
      have e1 : (c * uu * (5.01 * |Real.cos lon| + 0.005)) ^ 2 + (c * uu * (5.01 * |Real.sin lon| + 0.005)) ^ 2 =
        (c * uu) ^ 2 * (5.01 ^ 2 * (|Real.sin lon| ^ 2 + |Real.cos lon| ^ 2) + 0.0501 * (|Real.sin lon| + |Real.cos lon|)
          + 0.00005) := by ring
      rw [e1, sq_abs, sq_abs, hsc, show (5.05 * uu * c) ^ 2 = (c * uu) ^ 2 * 5.05 ^ 2 by ring]
      refine mul_le_mul_of_nonneg_left ?_ (by positivity)
      norm_num at s1 s2 ⊢
      linarith) (by unfold uu; norm_num)
  obtain ⟨j, hj⟩ := atan2_scale (c := c) (t := lon) c0
  rw [hj] at hk
  refine ⟨j + k, hk.of_eq ?_⟩
  push_cast; ring

/-- the computed equatorial component -/
theorem equatorial_flt {y z : ℝ} (hy : Fin64 y) (hz : Fin64 z) (hb : len ⟨0, y, z⟩ ≤ 10 ^ 25) :
    PyFloat.sqrt (powNat (F64.fin y : F64 B) 2 + powNat (F64.fin z) 2) = F64.fin (flNorm B.fl 0 y z) := by
  rw [← norm3_flt (B := B) (v := ⟨0, y, z⟩) hb, powNat_two hy, powNat_two hz]
  have h1 : |y * y| ≤ 10 ^ 60 := by
    have := (abs_y_le_len (⟨0, y, z⟩ : V3 ℝ)).trans hb
    rw [abs_mul]
    have := mul_le_mul this this (abs_nonneg _) (by norm_num)
    exact this.trans (by norm_num)
  unfold norm3 V3.flt
  dsimp only
  rw [zero_mul', fin_mul h1, zero_add' ⟨B.rounds.val _, ?_⟩]
  have h2 := B.rounds.err_add (y * y)
  have h3 := abs_sub_abs_le_abs_sub (B.fl (y * y)) (y * y)
  have h4 : uu * |y * y| ≤ 1 * |y * y| := mul_le_mul_of_nonneg_right (by unfold uu; norm_num) (abs_nonneg _)
  have h5 : eta ≤ 1 := eta_small.trans (by norm_num)
  calc |B.fl (y * y)| ≤ 2 * 10 ^ 60 + 1 := by linarith
    _ < 2 ^ (202 : ℤ) := by norm_num
    _ ≤ _ := zpow_le_zpow_right₀ (by norm_num) (by norm_num)

theorem lat_close {lat : ℝ} (lon : ℝ) (hlat : 1e-17 ≤ Real.cos lat) (hb : |lat| ≤ Real.pi / 2) :
    App (PyFloat.arctan2 (F64.fin (geoFl B lat lon).x : F64 B)
      (PyFloat.sqrt (powNat (F64.fin (geoFl B lat lon).y) 2 + powNat (F64.fin (geoFl B lat lon).z) 2))) lat 3e-15 := by
  obtain ⟨-, h2, h3⟩ := geoFl_close (B := B) lat lon
  obtain ⟨-, f2, f3⟩ := fin64V_geoFl (B := B) lat lon
  have hu := uu_pos
  have he := eta_pos
  have he1 := eta_small
  have hu1 : uu ≤ 1 / 10 ^ 10 := by unfold uu; norm_num
  obtain ⟨c, hc⟩ : ∃ c, c = Real.cos lat := ⟨_, rfl⟩
  rw [← hc] at hlat
  have c0 : 0 < c := by norm_num at hlat; linarith
  have c1 : c ≤ 1 := hc ▸ Real.cos_le_one lat
  have hlen : len ⟨0, (geoNormal lat lon).y, (geoNormal lat lon).z⟩ = c := by
    have := Real.sin_sq_add_cos_sq lon
    simp only [len, geoNormal]
    rw [← hc, show (0 : ℝ) ^ 2 + (Real.sin lon * c) ^ 2 + (-(Real.cos lon * c)) ^ 2 = c ^ 2 by linear_combination c ^ 2 * this,
      Real.sqrt_sq c0.le]
  have hl := len_close_rel (v := ⟨0, (geoNormal lat lon).y, (geoNormal lat lon).z⟩)
    (w := ⟨0, (geoFl B lat lon).y, (geoFl B lat lon).z⟩) (ε := 9.01 * uu) (t := 10 * eta) (by positivity) (by positivity)
    (by simp; positivity) h2 h3
  rw [hlen] at hl
  obtain ⟨l, hl'⟩ : ∃ l, l = len ⟨0, (geoFl B lat lon).y, (geoFl B lat lon).z⟩ := ⟨_, rfl⟩
  have hn := flNorm_close B.rounds ⟨0, (geoFl B lat lon).y, (geoFl B lat lon).z⟩
  rw [← hl'] at hl hn
  have hsmall : 20 * eta + 2 / 10 ^ 75 ≤ 0.001 * uu * c := by
    have : 0.001 * uu * 1e-17 ≤ 0.001 * uu * c := mul_le_mul_of_nonneg_left hlat (by positivity)
    refine le_trans ?_ this
    refine (add_le_add_left (mul_le_mul_of_nonneg_left he1 (by norm_num)) _).trans ?_
    unfold uu; norm_num
  have huc : 0 ≤ uu * c := by positivity
  have huuc : uu * uu * c ≤ 0.0001 * uu * c := mul_le_mul_of_nonneg_right (by nlinarith) c0.le
  have hlc : l ≤ (1 + 9.02 * uu) * c := by linarith [(abs_le.mp hl).2]
  have hln : 4.02 * uu * l ≤ 4.02 * uu * ((1 + 9.02 * uu) * c) := mul_le_mul_of_nonneg_left hlc (by positivity)
  have hE : |flNorm B.fl 0 (geoFl B lat lon).y (geoFl B lat lon).z - c| ≤ 13.04 * uu * c := by
    have := abs_add_le (flNorm B.fl 0 (geoFl B lat lon).y (geoFl B lat lon).z - l) (l - c)
    rw [sub_add_sub_cancel] at this
    linarith
  have hlb : l ≤ 10 ^ 25 := by
    have : uu * c ≤ 1 := by nlinarith
    norm_num; linarith
  rw [equatorial_flt B f2 f3 (hl' ▸ hlb)]
  have X : App (F64.fin (flNorm B.fl 0 (geoFl B lat lon).y (geoFl B lat lon).z) : F64 B) c (13.04 * uu * c) :=
    ⟨_, rfl, B.rounds.val _, hE⟩
  have Y : App (F64.fin (geoFl B lat lon).x : F64 B) (Real.sin lat) (4 * uu * |Real.sin lat| + 2 * eta) :=
    ⟨_, rfl, B.sin_val _, libm_uu (B.sin_close lat)⟩
  have Y := Y.mono (e := 4.1 * uu * |Real.sin lat| + 0.01 * uu) (by
    have : 2 * eta ≤ 0.01 * uu := (mul_le_mul_of_nonneg_left he1 (by norm_num)).trans (by unfold uu; norm_num)
    have : 0 ≤ uu * |Real.sin lat| := by positivity
    linarith)
  have hsc := Real.sin_sq_add_cos_sq lat
  rw [← hc] at hsc
  have hs1 := Real.abs_sin_le_one lat
  have hmain := Y.arctan2_right X (r := 1) (ρ := 13.05 * uu) (e := 3e-15) c0.le ?_ (by norm_num) (by linarith) (by positivity)
    (by unfold uu; norm_num) ?_ (by unfold uu; norm_num)
  · refine hmain.of_eq ?_
    have hne : ¬ (c = 0 ∧ Real.sin lat = 0) := fun h => c0.ne' h.1
    rw [atan2_of_ne hne, hc]
    have := Complex.arg_cos_add_sin_mul_I (θ := lat) ⟨by linarith [(abs_le.mp hb).1, Real.pi_pos], by
      linarith [(abs_le.mp hb).2, Real.pi_pos]⟩
    have e : (⟨Real.cos lat, Real.sin lat⟩ : ℂ) = Complex.cos lat + Complex.sin lat * Complex.I := by
      apply Complex.ext <;> simp [← Complex.ofReal_cos, ← Complex.ofReal_sin]
    rw [e, this]
  · intro v hv
    rw [fin_inj] at hv
    rw [← hv]; exact flNorm_nonneg B.rounds _ _ _
  · have e1 : (13.04 * uu * c) ^ 2 + (4.1 * uu * |Real.sin lat| + 0.01 * uu) ^ 2 =
        uu ^ 2 * (13.04 ^ 2 * c ^ 2 + 4.1 ^ 2 * |Real.sin lat| ^ 2 + 0.082 * |Real.sin lat| + 0.0001) := by ring
    rw [e1, sq_abs, show (13.05 * uu * 1) ^ 2 = uu ^ 2 * 13.05 ^ 2 by ring]
    refine mul_le_mul_of_nonneg_left ?_ (by positivity)
    have : c ^ 2 = 1 - Real.sin lat ^ 2 := by linarith
    rw [this]
    norm_num at hs1 ⊢
    nlinarith [sq_nonneg (Real.sin lat)]

/-- **C71** latitude and longitude survive the conversion to an n-vector and back: for every latitude up to and including the
poles and every longitude, both choices of axes, the latitude comes back within `3e-15` and the longitude within `2.4e-15`
radians (20 nanometres on the Earth), up to whole turns -/
theorem C71_round_trip {lat : ℝ} (lon : ℝ) (hlat : IsF64 lat) (hb : |lat| ≤ Real.pi / 2) {axes : String} {M : M3 (F64 B)}
    (hM : E_rotation axes = .ok M) :
    ∃ lat' lon' : ℝ, n_E2lat_lon (lat_lon2n_E (F64.fin lat : F64 B) (F64.fin lon) M) M = (F64.fin lat', F64.fin lon') ∧
      |lat' - lat| ≤ 3e-15 ∧ ∃ k : ℤ, |lon' - lon - k * (2 * Real.pi)| ≤ 2.4e-15 := by
  obtain ⟨A, hA, rfl⟩ := axes_of_E_rotation hM
  have hcos := cos_ge_of_f64 hlat hb
  have hf := mulVec_tr_axes (B := B) hA (fin64V_geoFl (B := B) lat lon)
  have hg := mulVec_axes (B := B) hA hf.2
  rw [hA.rot.app_trans] at hg
  obtain ⟨a, ha, _, ea⟩ := lat_close B lon hcos hb
  obtain ⟨k, b, hbb, _, eb⟩ := lon_close B lon hcos
  refine ⟨a, b, ?_, ea, k, by rw [sub_sub]; exact eb⟩
  rw [lat_lon2n_E_flt lat lon hA]
  unfold n_E2lat_lon
  rw [hg.1]
  exact Prod.ext ha hbb

theorem arctan2_bound {y x b : ℝ} (h : PyFloat.arctan2 (F64.fin y : F64 B) (F64.fin x) = F64.fin b) : |b| ≤ Real.pi + 2e-15 := by
  have hπ := Real.pi_lt_d2
  have hπ0 := Real.pi_pos
  by_cases hz : x = 0 ∧ y = 0
  · have h1 : rnd B (XR.atan2Zero : ℝ) = F64.fin b := by rw [← h]; exact (if_pos hz).symm
    have h2 : |(XR.atan2Zero : ℝ)| ≤ Real.pi := by
      rcases XR.atan2Zero.2 with e | e | e <;> rw [e]
      · rw [abs_zero]; exact hπ0.le
      · rw [abs_of_pos hπ0]
      · rw [abs_neg, abs_of_pos hπ0]
    rw [rnd_fin (h2.trans (by norm_num at hπ ⊢; linarith)), fin_inj] at h1
    have h3 := fl_close (B := B) (v := XR.atan2Zero) (x := XR.atan2Zero) (ex := 0) (b := 3.15) (e := 2e-15) (by simp)
      (h2.trans hπ.le) (by unfold uu; norm_num)
    rw [h1] at h3
    have := abs_sub_abs_le_abs_sub b (XR.atan2Zero : ℝ)
    linarith
  · rw [fin_arctan2 hz, fin_inj] at h
    have h2 := Complex.abs_arg_le_pi ⟨x, y⟩
    have h3 := libm_close (e := 2e-15) (B.arctan2_close y x hz) (h2.trans hπ.le) (by unfold uu; norm_num)
    rw [h] at h3
    have := abs_sub_abs_le_abs_sub b (Complex.arg ⟨x, y⟩)
    linarith

/-- **C71** away from the date line (more than `5e-15` radians) the longitude comes back without a turn -/
theorem C71_round_trip_no_turn {lat lon : ℝ} (hlat : IsF64 lat) (hb : |lat| ≤ Real.pi / 2) (hlon : |lon| ≤ Real.pi - 5e-15)
    {axes : String} {M : M3 (F64 B)} (hM : E_rotation axes = .ok M) :
    ∃ lat' lon' : ℝ, n_E2lat_lon (lat_lon2n_E (F64.fin lat : F64 B) (F64.fin lon) M) M = (F64.fin lat', F64.fin lon') ∧
      |lat' - lat| ≤ 3e-15 ∧ |lon' - lon| ≤ 2.4e-15 := by
  obtain ⟨a, b, h, ha, k, hk⟩ := C71_round_trip B lon hlat hb hM
  obtain ⟨A, hA, rfl⟩ := axes_of_E_rotation hM
  have hf := mulVec_tr_axes (B := B) hA (fin64V_geoFl (B := B) lat lon)
  have hg := mulVec_axes (B := B) hA hf.2
  rw [hA.rot.app_trans] at hg
  have h2 := congrArg Prod.snd h
  rw [lat_lon2n_E_flt lat lon hA] at h2
  unfold n_E2lat_lon at h2
  rw [hg.1] at h2
  have hb2 := arctan2_bound B h2
  have hk0 : k = 0 := by
    have hπ := Real.pi_gt_three
    have b1 := abs_le.mp hk
    have b2 := abs_le.mp hb2
    have b3 := abs_le.mp hlon
    norm_num at b1 b2 b3
    have hlt : |(k : ℝ)| < 1 := by
      rw [abs_lt]
      constructor <;> nlinarith
    have : |k| < 1 := by exact_mod_cast hlt
    exact Int.abs_lt_one_iff.mp this
  refine ⟨a, b, h, ha, ?_⟩
  rw [hk0] at hk
  simpa using hk

/-- the hypotheses are met: the binary64 number 1.5 is a latitude, -3 a longitude -/
example : IsF64 1.5 ∧ |(1.5 : ℝ)| ≤ Real.pi / 2 ∧ |(-3 : ℝ)| ≤ Real.pi - 5e-15 ∧ E_rotation "e" = .ok (R_e : M3 (F64 B)) ∧
    E_rotation "E" = .ok (R_E : M3 (F64 B)) := by
  refine ⟨⟨3, -1, by norm_num, by norm_num, by norm_num⟩, ?_, ?_, rfl, rfl⟩
  · rw [abs_of_nonneg (by norm_num)]; linarith [Real.pi_gt_three]
  · have := Real.pi_gt_d2
    rw [abs_neg, abs_of_nonneg (by norm_num)]; norm_num at this ⊢; linarith

end Nv
