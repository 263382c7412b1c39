import Verif.Lemmas.Sphere
import Mathlib.Analysis.SpecialFunctions.Trigonometric.Bounds

/-!
# How much `arctan2` changes when its arguments change
-/

namespace Nv
open Spec Real XR

/-- the argument of a number near one -/
theorem abs_arg_le {q : ℂ} {ρ : ℝ} (h : ‖q - 1‖ ≤ ρ) (hρ : ρ < 1) : |Complex.arg q| ≤ π / 2 * ρ := by
  have hsq : ‖q - 1‖ ^ 2 = (q.re - 1) ^ 2 + q.im ^ 2 := by
    rw [Complex.sq_norm, Complex.normSq_apply]; simp; ring
  have hq : ‖q‖ ^ 2 = q.re ^ 2 + q.im ^ 2 := by rw [Complex.sq_norm, Complex.normSq_apply]; ring
  have h0 : 0 ≤ ‖q - 1‖ := norm_nonneg _
  have hre : 0 < q.re := by nlinarith [sq_nonneg q.im]
  have hqp : 0 < ‖q‖ := by
    rw [norm_pos_iff]; rintro rfl; simp at hre
  have hhalf : |Complex.arg q| < π / 2 := Complex.abs_arg_lt_pi_div_two_iff.mpr (Or.inl hre)
  have hsin : |Real.sin (Complex.arg q)| ≤ ρ := by
    rw [Complex.sin_arg, abs_div, abs_of_pos hqp, div_le_iff₀ hqp]
    apply abs_le_of_sq_le_sq _ (by nlinarith)
    have h1 : ‖q - 1‖ ^ 2 ≤ ρ ^ 2 := by nlinarith
    have h2 : q.im ^ 2 ≤ ‖q - 1‖ ^ 2 * ‖q‖ ^ 2 := by
      rw [hsq, hq]
      nlinarith [sq_nonneg (q.re ^ 2 + q.im ^ 2 - q.re)]
    rw [mul_pow]
    nlinarith [sq_nonneg ‖q‖]
  have hj : 2 / π * |Complex.arg q| ≤ Real.sin |Complex.arg q| := Real.mul_le_sin (abs_nonneg _) hhalf.le
  have hs2 : Real.sin |Complex.arg q| ≤ |Real.sin (Complex.arg q)| := by
    rcases abs_choice (Complex.arg q) with e | e <;> rw [e]
    · exact le_abs_self _
    · rw [Real.sin_neg]; exact neg_le_abs _
  have hπ := Real.pi_pos
  have h3 : 2 / π * |Complex.arg q| ≤ ρ := hj.trans (hs2.trans hsin)
  calc |Complex.arg q| = π / 2 * (2 / π * |Complex.arg q|) := by field_simp
    _ ≤ _ := mul_le_mul_of_nonneg_left h3 (by positivity)

/-- the direction of a vector that is changed by at most the fraction `ρ` of its length turns by at most `π/2 ρ` -/
theorem atan2_perturb {x y x' y' r ρ : ℝ} (hr : 0 < r) (hrr : r ^ 2 = x ^ 2 + y ^ 2) (hρ : ρ < 1)
    (h : (x' - x) ^ 2 + (y' - y) ^ 2 ≤ (ρ * r) ^ 2) (hρ0 : 0 ≤ ρ) :
    ∃ k : ℤ, |atan2 y' x' - atan2 y x - k * (2 * π)| ≤ π / 2 * ρ := by
  obtain ⟨z, hz⟩ : ∃ z : ℂ, z = ⟨x, y⟩ := ⟨_, rfl⟩
  obtain ⟨w, hw⟩ : ∃ w : ℂ, w = ⟨x', y'⟩ := ⟨_, rfl⟩
  have nz : ‖z‖ = r := by
    rw [hz, norm_mk, ← hrr, Real.sqrt_sq hr.le]
  have z0 : z ≠ 0 := by rw [← norm_pos_iff, nz]; exact hr
  have nd : ‖w - z‖ ≤ ρ * r := by
    have : w - z = ⟨x' - x, y' - y⟩ := by rw [hw, hz]; rfl
    rw [this, norm_mk]
    exact Real.sqrt_le_iff.mpr ⟨by positivity, h⟩
  have w0 : w ≠ 0 := by
    rintro rfl
    rw [zero_sub, norm_neg, nz] at nd
    nlinarith
  have e1 : atan2 y x = Complex.arg z := by
    rw [hz, atan2_of_ne]
    rintro ⟨rfl, rfl⟩; exact z0 (by rw [hz]; rfl)
  have e2 : atan2 y' x' = Complex.arg w := by
    rw [hw, atan2_of_ne]
    rintro ⟨rfl, rfl⟩; exact w0 (by rw [hw]; rfl)
  have hq : ‖w / z - 1‖ ≤ ρ := by
    rw [show w / z - 1 = (w - z) / z by field_simp, norm_div, nz, div_le_iff₀ hr]; exact nd
  have ha := abs_arg_le hq hρ
  have hang : ((Complex.arg w - Complex.arg z : ℝ) : Real.Angle) = ((Complex.arg (w / z) : ℝ) : Real.Angle) := by
    rw [Complex.arg_div_coe_angle w0 z0, Real.Angle.coe_sub]
  obtain ⟨k, hk⟩ := Real.Angle.angle_eq_iff_two_pi_dvd_sub.mp hang
  refine ⟨k, ?_⟩
  rw [e1, e2]
  rw [show Complex.arg w - Complex.arg z - k * (2 * π) = Complex.arg (w / z) by linarith]
  exact ha

/-- no jump if both directions are in the upper half plane -/
theorem atan2_perturb_upper {x y x' y' r ρ : ℝ} (hr : 0 < r) (hrr : r ^ 2 = x ^ 2 + y ^ 2) (hρ : ρ ≤ 1 / 2)
    (h : (x' - x) ^ 2 + (y' - y) ^ 2 ≤ (ρ * r) ^ 2) (hρ0 : 0 ≤ ρ) (hy : 0 ≤ y) (hy' : 0 ≤ y') :
    |atan2 y' x' - atan2 y x| ≤ π / 2 * ρ := by
  obtain ⟨k, hk⟩ := atan2_perturb hr hrr (by linarith) h hρ0
  have hne : ¬ (x = 0 ∧ y = 0) := by rintro ⟨rfl, rfl⟩; nlinarith
  have hne' : ¬ (x' = 0 ∧ y' = 0) := by
    rintro ⟨rfl, rfl⟩
    have : (ρ * r) ^ 2 < r ^ 2 := by
      have h1 : ρ * r < r := by nlinarith
      exact pow_lt_pow_left₀ h1 (by positivity) (by norm_num)
    nlinarith
  have a1 := atan2_nonneg hne hy
  have a2 := atan2_nonneg hne' hy'
  have a3 := atan2_le_pi y x
  have a4 := atan2_le_pi y' x'
  have hπ := Real.pi_pos
  have hk0 : k = 0 := by
    have hb := abs_le.mp hk
    have hlt : |(k : ℝ)| < 1 := by
      rw [abs_lt]
      constructor <;> nlinarith
    have : |k| < 1 := by exact_mod_cast hlt
    exact Int.abs_lt_one_iff.mp this
  rw [hk0] at hk; simpa using hk

/-- no jump if both directions are in the right half plane -/
theorem atan2_perturb_right {x y x' y' r ρ : ℝ} (hr : 0 < r) (hrr : r ^ 2 = x ^ 2 + y ^ 2) (hρ : ρ ≤ 1 / 2)
    (h : (x' - x) ^ 2 + (y' - y) ^ 2 ≤ (ρ * r) ^ 2) (hρ0 : 0 ≤ ρ) (hx : 0 ≤ x) (hx' : 0 ≤ x') :
    |atan2 y' x' - atan2 y x| ≤ π / 2 * ρ := by
  obtain ⟨k, hk⟩ := atan2_perturb hr hrr (by linarith) h hρ0
  have hne : ¬ (x = 0 ∧ y = 0) := by rintro ⟨rfl, rfl⟩; nlinarith
  have hne' : ¬ (x' = 0 ∧ y' = 0) := by
    rintro ⟨rfl, rfl⟩
    have : (ρ * r) ^ 2 < r ^ 2 := by
      have h1 : ρ * r < r := by nlinarith
      exact pow_lt_pow_left₀ h1 (by positivity) (by norm_num)
    nlinarith
  have a1 := abs_le.mp (abs_atan2_le_pi_div_two hne hx)
  have a2 := abs_le.mp (abs_atan2_le_pi_div_two hne' hx')
  have hπ := Real.pi_pos
  have hk0 : k = 0 := by
    have hb := abs_le.mp hk
    have hlt : |(k : ℝ)| < 1 := by
      rw [abs_lt]
      constructor <;> nlinarith
    have : |k| < 1 := by exact_mod_cast hlt
    exact Int.abs_lt_one_iff.mp this
  rw [hk0] at hk; simpa using hk

end Nv
