import Verif.Float.Polar
import Verif.Props.Vectors
import Verif.Props.FloatUnit
import Mathlib.Analysis.Real.Pi.Bounds
import Mathlib.Analysis.SpecialFunctions.Trigonometric.Bounds

/-!
# C88: length, azimuth and elevation of a vector in binary64
-/

namespace Nv
open Spec F64
variable (B : Binary64)

/-- **C88** `Pvector.length` in rounded arithmetic -/
theorem C88_length {p : V3 ℝ} (p2 : len p ≤ 10 ^ 25) :
    ∃ L : ℝ, length (p.flt : V3 (F64 B)) = F64.fin L ∧ IsF64 L ∧ 0 ≤ L ∧ |L - len p| ≤ 4.5e-16 * len p + 1 / 10 ^ 75 := by
  refine ⟨_, norm3_flt p2, B.rounds.val _, flNorm_nonneg B.rounds _ _ _, (flNorm_close B.rounds p).trans ?_⟩
  have : 4.02 * uu ≤ 4.5e-16 := by unfold uu; norm_num
  have := mul_le_mul_of_nonneg_right this (len_nonneg' p)
  linarith

/-- **C88** `Pvector.azimuth` in rounded arithmetic: within `1.5e-15` of an exact azimuth, for any finite components -/
theorem C88_azimuth (p : V3 ℝ) :
    ∃ az θ : ℝ, azimuth (p.flt : V3 (F64 B)) = F64.fin az ∧ IsF64 az ∧ |az - θ| ≤ 1.5e-15 ∧ |θ| ≤ Real.pi ∧
      p.x = √(p.x ^ 2 + p.y ^ 2) * Real.cos θ ∧ p.y = √(p.x ^ 2 + p.y ^ 2) * Real.sin θ := by
  obtain ⟨az, h1, h2, h3⟩ := arctan2_any (B := B) p.y p.x
  refine ⟨az, XR.atan2 p.y p.x, h1, h2, h3.trans (by unfold uu; norm_num), abs_le.mpr ⟨XR.neg_pi_le_atan2 _ _, XR.atan2_le_pi _ _⟩, ?_, ?_⟩
  · rw [XR.sqrt_mul_cos_atan2]
  · rw [XR.sqrt_mul_sin_atan2]

/-- **C88** `Pvector.elevation` in rounded arithmetic: never NaN, its sine is within `1.3e-15` of the exact ratio, and the angle
itself is within `6e-8` of the exact elevation -/
theorem C88_elevation {p : V3 ℝ} (hp : IsF64V p) (p1 : 1e-50 ≤ len p) (p2 : len p ≤ 10 ^ 25) :
    ∃ el : ℝ, elevation (p.flt : V3 (F64 B)) = F64.fin el ∧ IsF64 el ∧ |el| ≤ Real.pi / 2 + 1e-15 ∧
      |Real.sin el - p.z / len p| ≤ 1.3e-15 ∧ |el - Real.arcsin (p.z / len p)| ≤ 6e-8 := by
  obtain ⟨t, h1, h2, h3, h4⟩ := sin_elevation_flt (B := B) hp p1 p2
  obtain ⟨g1, g2⟩ := abs_le.mp h3
  have p0 : 0 < len p := lt_of_lt_of_le (by norm_num) p1
  have hr : |p.z / len p| ≤ 1 := by
    rw [abs_div, abs_of_pos p0]; exact (div_le_one p0).mpr (abs_z_le_len p)
  have hpi := Real.pi_lt_d2
  have ha : |Real.arcsin t| ≤ Real.pi / 2 := abs_le.mpr ⟨Real.neg_pi_div_two_le_arcsin t, Real.arcsin_le_pi_div_two t⟩
  have hl : |B.arcsin t - Real.arcsin t| ≤ 6.31 * uu :=
    libm_close (b := 1.575) (B.arcsin_close t g1 g2) (ha.trans (by linarith)) (by unfold uu; norm_num)
  have e0 : elevation (p.flt : V3 (F64 B)) = F64.fin (B.arcsin t) := by
    unfold elevation length
    change PyFloat.arcsin (F64.fin p.z / norm3 (p.flt : V3 (F64 B))) = _
    rw [h1]; exact fin_arcsin g1 g2
  have hu0 := uu_pos
  refine ⟨_, e0, B.arcsin_val _, ?_, ?_, ?_⟩
  · have := abs_sub_abs_le_abs_sub (B.arcsin t) (Real.arcsin t)
    have hu : 6.31 * uu ≤ 1e-15 := by unfold uu; norm_num
    linarith
  · have a1 : |Real.sin (B.arcsin t) - Real.sin (Real.arcsin t)| ≤ 6.31 * uu := by
      refine le_trans ?_ hl
      simpa using sincos_lip (a := B.arcsin t) (b := Real.arcsin t) (p := 1) (q := 0) (by norm_num)
    rw [Real.sin_arcsin g1 g2] at a1
    have := abs_sub_le (Real.sin (B.arcsin t)) t (p.z / len p)
    have hu : 6.31 * uu + 5.05 * uu ≤ 1.3e-15 := by unfold uu; norm_num
    linarith
  · have a1 := arcsin_sub_le h3 hr h4
    have a2 : √(5.05 * uu / 2) ≤ 1.68e-8 := Real.sqrt_le_iff.mpr ⟨by norm_num, by unfold uu; norm_num⟩
    have a3 : Real.pi * √(5.05 * uu / 2) ≤ 3.15 * 1.68e-8 := mul_le_mul hpi.le a2 (Real.sqrt_nonneg _) (by norm_num)
    have := abs_sub_le (B.arcsin t) (Real.arcsin t) (Real.arcsin (p.z / len p))
    have hu : 6.31 * uu + 3.15 * 1.68e-8 ≤ 6e-8 := by unfold uu; norm_num
    linarith

/-- **C88** the bound on the angle cannot be improved to a rounding error: next to the vertical half of the digits are lost -/
theorem C88_elevation_loss :
    ∃ el : ℝ, elevation (V3.flt ⟨1, 0, 134217728⟩ : V3 (F64 B)) = F64.fin el ∧
      Real.arcsin (134217728 / len ⟨1, 0, 134217728⟩) + 6.9e-9 ≤ el := by
  have hl2 : len (⟨1, 0, 134217728⟩ : V3 ℝ) ^ 2 = 18014398509481985 := by
    unfold len; rw [Real.sq_sqrt (by norm_num)]; norm_num
  have hl0 : 0 < len (⟨1, 0, 134217728⟩ : V3 ℝ) := Real.sqrt_pos.mpr (by norm_num)
  have hl1 : len (⟨1, 0, 134217728⟩ : V3 ℝ) ≤ 10 ^ 25 := by
    have := len_nonneg' (⟨1, 0, 134217728⟩ : V3 ℝ)
    nlinarith
  have hI : ∀ n : ℤ, |n| < 2 ^ 53 → B.fl (n : ℝ) = n := fun n hn => B.rounds.exact (isF64_int hn)
  have e1 : B.fl 1 = 1 := B.rounds.exact isF64_one
  have fS : IsF64 (18014398509481984 : ℝ) := ⟨2 ^ 52, 2, by norm_num, by norm_num, by norm_num⟩
  have e2 : B.fl 18014398509481984 = 18014398509481984 := B.rounds.exact fS
  have e3 : B.fl 18014398509481985 = 18014398509481984 := by
    have g1 : (18014398509481984 : ℝ) ≤ B.fl 18014398509481985 := B.rounds.ge fS (by norm_num)
    have g2 := B.rounds.nearest 18014398509481985 _ fS
    have p54 : (2 : ℝ) ^ (54 : ℤ) = 18014398509481984 := by norm_num
    obtain ⟨j, hj⟩ := (B.rounds.val 18014398509481985).multiple' (k := 54) (by rw [p54]; exact g1)
    have p2 : (2 : ℝ) ^ ((54 : ℤ) - 52) = 4 := by norm_num
    rw [p2] at hj
    rw [hj] at g1 g2 ⊢
    have h3 : (j : ℝ) * 4 - 18014398509481985 ≤ 1 := by
      refine (le_abs_self _).trans (g2.trans ?_)
      norm_num
    have i1 : 4503599627370496 ≤ j := by
      have : (4503599627370496 : ℝ) ≤ j := by linarith
      exact_mod_cast this
    have i2 : j < 4503599627370497 := by
      have : (j : ℝ) < 4503599627370497 := by linarith
      exact_mod_cast this
    have : j = 4503599627370496 := by omega
    rw [this]; norm_num
  have hN : flNorm B.fl 1 0 134217728 = 134217728 := by
    unfold flNorm
    rw [show (1 : ℝ) * 1 = 1 by norm_num, show (0 : ℝ) * 0 = 0 by norm_num, show (134217728 : ℝ) * 134217728 = 18014398509481984 by norm_num,
      e1, e2, B.rounds.zero, show (1 : ℝ) + 0 = 1 by norm_num, e1, show (1 : ℝ) + 18014398509481984 = 18014398509481985 by norm_num, e3,
      show (18014398509481984 : ℝ) = 134217728 ^ 2 by norm_num, Real.sqrt_sq (by norm_num)]
    exact_mod_cast hI 134217728 (by norm_num)
  have he : elevation (V3.flt ⟨1, 0, 134217728⟩ : V3 (F64 B)) = F64.fin (B.arcsin 1) := by
    unfold elevation length
    rw [norm3_flt hl1, hN]
    change PyFloat.arcsin (F64.fin 134217728 / F64.fin 134217728) = _
    rw [fin_div (by norm_num) (by norm_num), div_self (by norm_num), e1]
    exact fin_arcsin (by norm_num) le_rfl
  refine ⟨_, he, ?_⟩
  have hpi := Real.pi_lt_d2
  have hpi0 := Real.pi_gt_three
  have hl : |B.arcsin 1 - Real.arcsin 1| ≤ 6.31 * uu :=
    libm_close (b := 1.575) (B.arcsin_close 1 (by norm_num) le_rfl) (by
      rw [Real.arcsin_one, abs_of_nonneg (by linarith)]; linarith) (by unfold uu; norm_num)
  rw [Real.arcsin_one] at hl
  have hr : Real.arcsin (134217728 / len ⟨1, 0, 134217728⟩) ≤ Real.pi / 2 - 7e-9 := by
    rw [Real.arcsin_le_iff_le_sin' ⟨by linarith, by linarith⟩, Real.sin_pi_div_two_sub]
    refine le_trans ?_ (Real.one_sub_sq_div_two_le_cos (x := 7e-9))
    rw [div_le_iff₀ hl0]
    refine (le_abs_self _).trans (abs_le_of_sq_le_sq ?_ (mul_nonneg (by norm_num) hl0.le))
    rw [mul_pow, hl2]; norm_num
  have hu : 6.31 * uu + 6.9e-9 ≤ 7e-9 := by unfold uu; norm_num
  have := (abs_le.mp hl).1
  linarith

/-- **C88** the lower limit on the length is needed: the elevation of a vector of length `2^-540` straight down is NaN -/
theorem C88_elevation_underflow : elevation (V3.flt ⟨0, 0, (2 : ℝ) ^ (-540 : ℤ)⟩ : V3 (F64 B)) = PyFloat.nan := by
  have hp : (0 : ℝ) < 2 ^ (-540 : ℤ) := by positivity
  have h1 : (2 : ℝ) ^ (-540 : ℤ) * 2 ^ (-540 : ℤ) < eta := by
    rw [← zpow_add₀ (by norm_num)]; unfold eta
    exact zpow_lt_zpow_right₀ (by norm_num) (by norm_num)
  have hle : (2 : ℝ) ^ (-540 : ℤ) ≤ 2 ^ (0 : ℤ) := zpow_le_zpow_right₀ (by norm_num) (by norm_num)
  rw [zpow_zero] at hle
  have hlen : len (⟨0, 0, (2 : ℝ) ^ (-540 : ℤ)⟩ : V3 ℝ) = 2 ^ (-540 : ℤ) := by
    unfold len
    dsimp only
    rw [show (0 : ℝ) ^ 2 + 0 ^ 2 + (2 ^ (-540 : ℤ)) ^ 2 = ((2 : ℝ) ^ (-540 : ℤ)) ^ 2 by ring, Real.sqrt_sq hp.le]
  have hN : flNorm B.fl 0 0 ((2 : ℝ) ^ (-540 : ℤ)) = 0 := by
    unfold flNorm
    rw [fl_underflow B (by positivity) h1]
    simp [B.rounds.zero]
  unfold elevation length
  rw [norm3_flt (by rw [hlen]; exact hle.trans (by norm_num))]
  dsimp only
  rw [hN]
  have hd : (F64.fin ((2 : ℝ) ^ (-540 : ℤ)) / F64.fin 0 : F64 B) = F64.inf B := by
    change round B (XR.div (.fin ((2 : ℝ) ^ (-540 : ℤ))) (.fin 0)) = _
    rw [XR.div, if_pos rfl, XR.signInf, if_pos hp]; rfl
  change PyFloat.arcsin (F64.fin ((2 : ℝ) ^ (-540 : ℤ)) / F64.fin 0 : F64 B) = _
  rw [hd]; rfl

/-- the hypotheses of `C88_elevation` are met by a vector next to the vertical -/
example : ∃ p : V3 ℝ, IsF64V p ∧ 1e-50 ≤ len p ∧ len p ≤ 10 ^ 25 ∧ p.x ≠ 0 ∧ 1000 * |p.x| < |p.z| := by
  refine ⟨⟨1, 0, -134217728⟩, ⟨isF64_one, isF64_zero, ?_⟩, ?_, ?_, by norm_num, by norm_num⟩
  · simpa using isF64_int (n := -134217728) (by norm_num)
  · exact le_trans (by norm_num) (abs_x_le_len ⟨1, 0, -134217728⟩)
  · unfold len; exact Real.sqrt_le_iff.mpr ⟨by norm_num, by norm_num⟩

end Nv
