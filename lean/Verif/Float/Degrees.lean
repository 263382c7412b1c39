import Verif.Float.Deltas
import Verif.Float.Wander
import Verif.Props.FloatFrames

/-!
# Degrees, and geographic points, in binary64
-/

namespace Nv
open Spec F64

/-- a product with a factor of known relative error -/
theorem fl_mul_rel {fl : ℝ → ℝ} (h : RoundsToNearest fl) {x c k ε : ℝ} (hε : 0 ≤ ε) (hc : |c - k| ≤ ε * |k|) :
    |fl (x * c) - x * k| ≤ (ε + uu * (1 + ε)) * |x * k| + eta := by
  have hu := uu_pos
  have h1 := h.err_add (x * c)
  have h2 : |x * c - x * k| ≤ ε * |x * k| := by
    rw [← mul_sub, abs_mul, abs_mul]
    have := mul_le_mul_of_nonneg_left hc (abs_nonneg x)
    linarith
  have h3 : |x * c| ≤ (1 + ε) * |x * k| := by
    have := abs_sub_abs_le_abs_sub (x * c) (x * k)
    linarith
  have h4 := mul_le_mul_of_nonneg_left h3 hu.le
  have h5 := abs_sub_le (fl (x * c)) (x * c) (x * k)
  linarith

section
variable {B : Binary64}

theorem fl_pi : |B.fl Real.pi - Real.pi| ≤ uu * Real.pi := by
  have h0 := Real.pi_pos
  have := B.rounds.rel (x := Real.pi) (by
    rw [abs_of_pos h0]
    have : (2 : ℝ) ^ (-1022 : ℤ) ≤ 2 ^ (0 : ℤ) := zpow_le_zpow_right₀ (by norm_num) (by norm_num)
    rw [zpow_zero] at this
    linarith [Real.pi_gt_three])
  rwa [abs_of_pos h0] at this

theorem pi_flt : (PyFloat.pi : F64 B) = F64.fin (B.fl Real.pi) := by
  refine rnd_fin ?_
  rw [abs_of_pos Real.pi_pos]
  exact Real.pi_lt_d2.le.trans (by norm_num)

theorem normal_of_one_le {x : ℝ} (h : 1 / 100 ≤ |x|) : (2 : ℝ) ^ (-1022 : ℤ) ≤ |x| := by
  have : (2 : ℝ) ^ (-1022 : ℤ) ≤ 2 ^ (-7 : ℤ) := zpow_le_zpow_right₀ (by norm_num) (by norm_num)
  refine this.trans (le_trans (by norm_num) h)

theorem lit180 : (lit 180 : F64 B) = F64.fin 180 := by simpa using lit_int (B := B) (n := 180) (by norm_num)

/-- the factor of `deg2rad` -/
theorem deg2rad_factor : ∃ c : ℝ, (PyFloat.pi / lit 180 : F64 B) = F64.fin c ∧ |c - Real.pi / 180| ≤ 2.001 * uu * (Real.pi / 180) := by
  have hp := Real.pi_pos
  have h3 := Real.pi_gt_three
  have h4 := Real.pi_lt_d2
  have hu := uu_pos
  have hu1 : uu ≤ 1 / 10 ^ 10 := by unfold uu; norm_num
  obtain ⟨g1, g2⟩ := abs_le.mp (fl_pi (B := B))
  have hq : |B.fl Real.pi / 180 - Real.pi / 180| ≤ uu * (Real.pi / 180) := by
    rw [← sub_div, abs_div, abs_of_pos (by norm_num : (0:ℝ) < 180)]
    have := fl_pi (B := B)
    calc _ ≤ uu * Real.pi / 180 := div_le_div_of_nonneg_right this (by norm_num)
      _ = _ := by ring
  obtain ⟨q1, q2⟩ := abs_le.mp hq
  have hm : uu * (Real.pi / 180) ≤ 1 / 10 ^ 10 * (Real.pi / 180) := mul_le_mul_of_nonneg_right hu1 (by positivity)
  have hq0 : 0 < B.fl Real.pi / 180 := by linarith
  have hr := B.rounds.rel (x := B.fl Real.pi / 180) (normal_of_one_le (by rw [abs_of_pos hq0]; linarith))
  refine ⟨B.fl (B.fl Real.pi / 180), ?_, ?_⟩
  · rw [pi_flt, lit180]
    exact fin_div (by norm_num) (by rw [abs_of_pos hq0]; linarith)
  · rw [abs_of_pos hq0] at hr
    have := abs_sub_le (B.fl (B.fl Real.pi / 180)) (B.fl Real.pi / 180) (Real.pi / 180)
    have k1 : uu * (B.fl Real.pi / 180) ≤ uu * (Real.pi / 180 + uu * (Real.pi / 180)) := mul_le_mul_of_nonneg_left (by linarith) hu.le
    have k2 : uu * (uu * (Real.pi / 180)) ≤ uu * (1 / 10 ^ 10 * (Real.pi / 180)) := mul_le_mul_of_nonneg_left hm hu.le
    have k3 : 0 ≤ uu * (Real.pi / 180) := by positivity
    norm_num at k1 k2 ⊢
    linarith only [this, hr, hq, k1, k2, k3]

/-- the factor of `rad2deg` -/
theorem rad2deg_factor : ∃ c : ℝ, (lit 180 / PyFloat.pi : F64 B) = F64.fin c ∧ |c - 180 / Real.pi| ≤ 2.001 * uu * (180 / Real.pi) := by
  have hp := Real.pi_pos
  have h3 := Real.pi_gt_three
  have h4 := Real.pi_lt_d2
  have hu := uu_pos
  have hu1 : uu ≤ 1 / 10 ^ 10 := by unfold uu; norm_num
  obtain ⟨P, hP⟩ : ∃ P, P = B.fl Real.pi := ⟨_, rfl⟩
  have hpi := fl_pi (B := B)
  rw [← hP] at hpi
  obtain ⟨g1, g2⟩ := abs_le.mp hpi
  have hm : uu * Real.pi ≤ 1 / 10 ^ 10 * Real.pi := mul_le_mul_of_nonneg_right hu1 hp.le
  have hP0 : 2.9 ≤ P := by norm_num; linarith
  have hP1 : 0 < P := lt_of_lt_of_le (by norm_num) hP0
  have hq : |180 / P - 180 / Real.pi| ≤ 1.0001 * uu * (180 / Real.pi) := by
    have e : 180 / P - 180 / Real.pi = (180 / Real.pi) * ((Real.pi - P) / P) := by field_simp
    rw [e, abs_mul, abs_of_pos (by positivity), mul_comm]
    apply mul_le_mul_of_nonneg_right _ (by positivity)
    rw [abs_div, abs_of_pos hP1, div_le_iff₀ hP1, abs_sub_comm]
    refine hpi.trans ?_
    have : Real.pi ≤ 1.0001 * P := by norm_num; linarith
    have := mul_le_mul_of_nonneg_left this hu.le
    linarith only [this]
  obtain ⟨q1, q2⟩ := abs_le.mp hq
  have e57 : 57 ≤ 180 / Real.pi := by rw [le_div_iff₀ hp]; norm_num at h4 ⊢; linarith
  have e60 : 180 / Real.pi ≤ 60 := by rw [div_le_iff₀ hp]; linarith
  have hs : 1.0001 * uu * (180 / Real.pi) ≤ 1.0001 * (1 / 10 ^ 10) * 60 := by
    apply mul_le_mul _ e60 (by positivity) (by norm_num)
    linarith
  norm_num at hs
  have hq0 : 0 < 180 / P := by positivity
  have hr := B.rounds.rel (x := 180 / P) (normal_of_one_le (by rw [abs_of_pos hq0]; norm_num at q1; linarith))
  refine ⟨B.fl (180 / P), ?_, ?_⟩
  · rw [pi_flt, lit180, ← hP]
    exact fin_div hP1.ne' (by rw [abs_of_pos hq0]; norm_num at q2 ⊢; linarith)
  · rw [abs_of_pos hq0] at hr
    have := abs_sub_le (B.fl (180 / P)) (180 / P) (180 / Real.pi)
    have k0 : 180 / P ≤ 1.0001 * (180 / Real.pi) := by
      norm_num at q2 ⊢
      have : uu * (180 / Real.pi) ≤ 0.00001 * (180 / Real.pi) := mul_le_mul_of_nonneg_right (by norm_num; linarith) (by positivity)
      norm_num at this
      linarith
    have k1 := mul_le_mul_of_nonneg_left k0 hu.le
    have k3 : 0 ≤ uu * (180 / Real.pi) := by positivity
    norm_num at k1 hq ⊢
    linarith only [this, hr, hq, k1, k3]

theorem deg2rad_flt {x : ℝ} (hx : |x| ≤ 10 ^ 50) :
    ∃ y : ℝ, deg2rad (F64.fin x : F64 B) = F64.fin y ∧ IsF64 y ∧ |y - x * (Real.pi / 180)| ≤ 3.002 * uu * |x * (Real.pi / 180)| + eta := by
  obtain ⟨c, hc, hb⟩ := deg2rad_factor (B := B)
  have hp := Real.pi_pos
  have h4 := Real.pi_lt_d2
  have hu := uu_pos
  have hu1 : uu ≤ 1 / 10 ^ 10 := by unfold uu; norm_num
  have hk : |Real.pi / 180| = Real.pi / 180 := abs_of_pos (by positivity)
  have key := fl_mul_rel B.rounds (x := x) (ε := 2.001 * uu) (by positivity) (by rw [hk]; exact hb)
  refine ⟨B.fl (x * c), ?_, B.rounds.val _, key.trans ?_⟩
  · unfold deg2rad
    rw [hc]
    refine fin_mul ?_
    have c1 : |c| ≤ 1 := by
      have := abs_sub_abs_le_abs_sub c (Real.pi / 180)
      rw [hk] at this
      have : 2.001 * uu * (Real.pi / 180) ≤ 2.001 * (1 / 10 ^ 10) * (Real.pi / 180) := by gcongr
      norm_num at *
      linarith
    rw [abs_mul]
    calc |x| * |c| ≤ 10 ^ 50 * 1 := mul_le_mul hx c1 (abs_nonneg _) (by norm_num)
      _ ≤ _ := by norm_num
  · have e : 2.001 * uu + uu * (1 + 2.001 * uu) ≤ 3.002 * uu := by unfold uu; norm_num
    have := mul_le_mul_of_nonneg_right e (abs_nonneg (x * (Real.pi / 180)))
    linarith

theorem rad2deg_flt {x : ℝ} (hx : |x| ≤ 10 ^ 50) :
    ∃ y : ℝ, rad2deg (F64.fin x : F64 B) = F64.fin y ∧ IsF64 y ∧ |y - x * (180 / Real.pi)| ≤ 3.002 * uu * |x * (180 / Real.pi)| + eta := by
  obtain ⟨c, hc, hb⟩ := rad2deg_factor (B := B)
  have hp := Real.pi_pos
  have h3 := Real.pi_gt_three
  have hu := uu_pos
  have hu1 : uu ≤ 1 / 10 ^ 10 := by unfold uu; norm_num
  have hk : |180 / Real.pi| = 180 / Real.pi := abs_of_pos (by positivity)
  have key := fl_mul_rel B.rounds (x := x) (ε := 2.001 * uu) (by positivity) (by rw [hk]; exact hb)
  refine ⟨B.fl (x * c), ?_, B.rounds.val _, key.trans ?_⟩
  · unfold rad2deg
    rw [hc]
    refine fin_mul ?_
    have e60 : 180 / Real.pi ≤ 60 := by rw [div_le_iff₀ hp]; linarith
    have c1 : |c| ≤ 100 := by
      have := abs_sub_abs_le_abs_sub c (180 / Real.pi)
      rw [hk] at this
      have : 2.001 * uu * (180 / Real.pi) ≤ 2.001 * (1 / 10 ^ 10) * 60 := by gcongr
      norm_num at *
      linarith
    rw [abs_mul]
    calc |x| * |c| ≤ 10 ^ 50 * 100 := mul_le_mul hx c1 (abs_nonneg _) (by norm_num)
      _ ≤ _ := by norm_num
  · have e : 2.001 * uu + uu * (1 + 2.001 * uu) ≤ 3.002 * uu := by unfold uu; norm_num
    have := mul_le_mul_of_nonneg_right e (abs_nonneg (x * (180 / Real.pi)))
    linarith

/-- the computed n-vector of a latitude and longitude -/
theorem geoFl_near (lat lon : ℝ) : len (geoFl B lat lon - geoNormal lat lon) ≤ 9.02 * uu := by
  obtain ⟨h1, h2, h3⟩ := geoFl_close (B := B) lat lon
  have he := eta_pos
  have := len_sub_rel (geoNormal_isUnit lat lon) (by linarith [uu_pos] : 0 ≤ 9.01 * uu) (by linarith : 0 ≤ 10 * eta) h1 h2 h3
  refine this.trans ?_
  have h4 := eta_small
  have h5 : (17.321 : ℝ) * (1 / 10 ^ 60) ≤ 0.01 * uu := by unfold uu; norm_num
  norm_num at h4 h5 ⊢
  linarith only [h4, h5]

/-- the normals at two points -/
theorem geoNormal_lip (lat lon lat' lon' : ℝ) : len (geoNormal lat lon - geoNormal lat' lon') ≤ |lat - lat'| + |lon - lon'| := by
  have h1 : len (geoNormal lat lon - geoNormal lat' lon) ≤ |lat - lat'| := by
    have e : len (geoNormal lat lon - geoNormal lat' lon) ^ 2 = (Real.sin lat - Real.sin lat') ^ 2 + (Real.cos lat - Real.cos lat') ^ 2 := by
      unfold len
      rw [Real.sq_sqrt (by positivity)]
      simp only [geoNormal, sub_x, sub_y, sub_z]
      linear_combination (Real.cos lat - Real.cos lat') ^ 2 * Real.sin_sq_add_cos_sq lon
    obtain ⟨r, hr⟩ : ∃ r, r = len (geoNormal lat lon - geoNormal lat' lon) := ⟨_, rfl⟩
    rw [← hr] at e ⊢
    have r0 : 0 ≤ r := hr ▸ len_nonneg' _
    rcases eq_or_lt_of_le r0 with h0 | h0
    · rw [← h0]; exact abs_nonneg _
    · have := sincos_lip (a := lat) (b := lat') (p := (Real.sin lat - Real.sin lat') / r) (q := (Real.cos lat - Real.cos lat') / r) (by
        rw [div_pow, div_pow, ← add_div, ← e, div_self (by positivity)])
      have e2 : (Real.sin lat - Real.sin lat') * ((Real.sin lat - Real.sin lat') / r) + (Real.cos lat - Real.cos lat') * ((Real.cos lat - Real.cos lat') / r) = r := by
        field_simp; linarith
      rw [e2, abs_of_pos h0] at this
      exact this
  have h2 : len (geoNormal lat' lon - geoNormal lat' lon') ≤ |lon - lon'| := by
    have e : len (geoNormal lat' lon - geoNormal lat' lon') ^ 2 = Real.cos lat' ^ 2 * ((Real.sin lon - Real.sin lon') ^ 2 + (Real.cos lon - Real.cos lon') ^ 2) := by
      unfold len
      rw [Real.sq_sqrt (by positivity)]
      simp only [geoNormal, sub_x, sub_y, sub_z]
      ring
    obtain ⟨r, hr⟩ : ∃ r, r = √((Real.sin lon - Real.sin lon') ^ 2 + (Real.cos lon - Real.cos lon') ^ 2) := ⟨_, rfl⟩
    have hrr : r ^ 2 = (Real.sin lon - Real.sin lon') ^ 2 + (Real.cos lon - Real.cos lon') ^ 2 := by rw [hr, Real.sq_sqrt (by positivity)]
    have r0 : 0 ≤ r := hr ▸ Real.sqrt_nonneg _
    have hle : len (geoNormal lat' lon - geoNormal lat' lon') ≤ r := by
      refine (le_abs_self _).trans (abs_le_of_sq_le_sq ?_ r0)
      rw [e, hrr]
      have c1 := Real.cos_sq_le_one lat'
      nlinarith [sq_nonneg (Real.sin lon - Real.sin lon'), sq_nonneg (Real.cos lon - Real.cos lon')]
    refine hle.trans ?_
    rcases eq_or_lt_of_le r0 with h0 | h0
    · rw [← h0]; exact abs_nonneg _
    · have := sincos_lip (a := lon) (b := lon') (p := (Real.sin lon - Real.sin lon') / r) (q := (Real.cos lon - Real.cos lon') / r) (by
        rw [div_pow, div_pow, ← add_div, ← hrr, div_self (by positivity)])
      have e2 : (Real.sin lon - Real.sin lon') * ((Real.sin lon - Real.sin lon') / r) + (Real.cos lon - Real.cos lon') * ((Real.cos lon - Real.cos lon') / r) = r := by
        field_simp; linarith
      rw [e2, abs_of_pos h0] at this
      exact this
  have := len_add_le (geoNormal lat lon - geoNormal lat' lon) (geoNormal lat' lon - geoNormal lat' lon')
  rw [show geoNormal lat lon - geoNormal lat' lon + (geoNormal lat' lon - geoNormal lat' lon') = geoNormal lat lon - geoNormal lat' lon' by
    ext <;> simp] at this
  linarith

/-- latitude and longitude of a vector close to the normal at a known latitude and longitude -/
theorem latlon_near {v : V3 ℝ} {lat lon ε : ℝ} (h : len (v - geoNormal lat lon) ≤ ε) (hε : ε ≤ 1 / 2) (hb : |lat| ≤ Real.pi / 2) :
    |XR.atan2 v.x (√(v.y ^ 2 + v.z ^ 2)) - lat| ≤ Real.pi / 2 * ε ∧
      (ε < Real.cos lat → ∃ k : ℤ, |XR.atan2 v.y (-v.z) - lon - k * (2 * Real.pi)| ≤ Real.pi / 2 * (ε / Real.cos lat)) := by
  have hc : 0 ≤ Real.cos lat := Real.cos_nonneg_of_mem_Icc ⟨by linarith [(abs_le.mp hb).1], (abs_le.mp hb).2⟩
  have ε0 : 0 ≤ ε := (len_nonneg' _).trans h
  have hsq : (v.x - Real.sin lat) ^ 2 + (v.y - Real.sin lon * Real.cos lat) ^ 2 + (v.z - -(Real.cos lon * Real.cos lat)) ^ 2 ≤ ε ^ 2 := by
    have e : len (v - geoNormal lat lon) ^ 2 = (v.x - Real.sin lat) ^ 2 + (v.y - Real.sin lon * Real.cos lat) ^ 2 + (v.z - -(Real.cos lon * Real.cos lat)) ^ 2 := by
      unfold len
      rw [Real.sq_sqrt (by positivity)]
      simp only [geoNormal, sub_x, sub_y, sub_z]
    rw [← e]
    exact pow_le_pow_left₀ (len_nonneg' _) h 2
  constructor
  · obtain ⟨s, hs⟩ : ∃ s, s = √(v.y ^ 2 + v.z ^ 2) := ⟨_, rfl⟩
    have s0 : 0 ≤ s := hs ▸ Real.sqrt_nonneg _
    have hs2 : s ^ 2 = v.y ^ 2 + v.z ^ 2 := by rw [hs, Real.sq_sqrt (by positivity)]
    rw [← hs]
    have hd : (s - Real.cos lat) ^ 2 ≤ (v.y - Real.sin lon * Real.cos lat) ^ 2 + (v.z - -(Real.cos lon * Real.cos lat)) ^ 2 := by
      have hcs : v.y * Real.sin lon - v.z * Real.cos lon ≤ s := by
        refine (le_abs_self _).trans (abs_le_of_sq_le_sq ?_ s0)
        rw [hs2]
        nlinarith [sq_nonneg (v.y * Real.cos lon + v.z * Real.sin lon), Real.sin_sq_add_cos_sq lon]
      have hm := mul_le_mul_of_nonneg_left hcs hc
      have e1 : (v.y - Real.sin lon * Real.cos lat) ^ 2 + (v.z - -(Real.cos lon * Real.cos lat)) ^ 2 =
          v.y ^ 2 + v.z ^ 2 - 2 * (Real.cos lat * (v.y * Real.sin lon - v.z * Real.cos lon)) + Real.cos lat ^ 2 := by
        linear_combination Real.cos lat ^ 2 * Real.sin_sq_add_cos_sq lon
      rw [e1, ← hs2]
      nlinarith
    have := atan2_perturb_right (x := Real.cos lat) (y := Real.sin lat) (x' := s) (y' := v.x) (r := 1) (ρ := ε) one_pos
      (by rw [one_pow]; exact (Real.cos_sq_add_sin_sq lat).symm) hε (by rw [mul_one]; linarith) ε0 hc s0
    have e : XR.atan2 (Real.sin lat) (Real.cos lat) = lat ∨ lat = -Real.pi := by
      left
      obtain ⟨l1, l2⟩ := abs_le.mp hb
      have := XR.atan2_polar (r := 1) (θ := lat) one_pos (by linarith [Real.pi_pos]) (by linarith [Real.pi_pos])
      simpa using this
    rcases e with e | e
    · rwa [e] at this
    · exfalso; rw [e, abs_neg, abs_of_pos Real.pi_pos] at hb; linarith [Real.pi_pos]
  · intro hlt
    have c0 : 0 < Real.cos lat := lt_of_le_of_lt ε0 hlt
    obtain ⟨k, hk⟩ := atan2_perturb (x := Real.cos lon * Real.cos lat) (y := Real.sin lon * Real.cos lat) (x' := -v.z) (y' := v.y) (r := Real.cos lat)
      (ρ := ε / Real.cos lat) c0 (by linear_combination -Real.cos lat ^ 2 * Real.sin_sq_add_cos_sq lon) ((div_lt_one c0).mpr hlt)
      (by rw [div_mul_cancel₀ _ c0.ne']; nlinarith [sq_nonneg (v.x - Real.sin lat)]) (by positivity)
    obtain ⟨j, hj⟩ := atan2_scale (t := lon) c0
    rw [mul_comm (Real.sin lon), mul_comm (Real.cos lon)] at hk
    rw [hj] at hk
    refine ⟨k + j, ?_⟩
    rw [show XR.atan2 v.y (-v.z) - lon - ((k + j : ℤ) : ℝ) * (2 * Real.pi) = XR.atan2 v.y (-v.z) - (lon + j * (2 * Real.pi)) - k * (2 * Real.pi) by push_cast; ring]
    exact hk

end
end Nv
