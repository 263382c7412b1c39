import Verif.Lemmas.Fin
import Mathlib.Analysis.SpecialFunctions.Trigonometric.Inverse

/-!
# `arctan2` on finite values
-/

namespace Nv
open Spec

namespace XR
open Real

theorem atan2Zero_range : -π ≤ (atan2Zero : ℝ) ∧ (atan2Zero : ℝ) ≤ π := by
  have hp := Real.pi_pos
  rcases atan2Zero.2 with h | h | h <;> rw [h] <;> constructor <;> linarith

theorem atan2_of_ne {x y : ℝ} (h : ¬ (x = 0 ∧ y = 0)) : atan2 y x = Complex.arg ⟨x, y⟩ := if_neg h
theorem atan2_zero_zero : atan2 0 0 = (atan2Zero : ℝ) := if_pos ⟨rfl, rfl⟩

theorem atan2_le_pi (y x : ℝ) : atan2 y x ≤ π := by
  unfold atan2; split_ifs
  · exact atan2Zero_range.2
  · exact Complex.arg_le_pi _
theorem neg_pi_le_atan2 (y x : ℝ) : -π ≤ atan2 y x := by
  unfold atan2; split_ifs
  · exact atan2Zero_range.1
  · exact (Complex.neg_pi_lt_arg _).le
theorem neg_pi_lt_atan2 {x y : ℝ} (h : ¬ (x = 0 ∧ y = 0)) : -π < atan2 y x := by
  rw [atan2_of_ne h]; exact Complex.neg_pi_lt_arg _

theorem norm_mk (x y : ℝ) : ‖(⟨x, y⟩ : ℂ)‖ = √(x ^ 2 + y ^ 2) := by
  rw [Complex.norm_def, Complex.normSq_mk, pow_two, pow_two]

/-- the point `(x, y)` has polar angle `arctan2(y, x)` -/
theorem sqrt_mul_cos_atan2 (y x : ℝ) : √(x ^ 2 + y ^ 2) * Real.cos (atan2 y x) = x := by
  by_cases h : x = 0 ∧ y = 0
  · rw [h.1, h.2]; simp
  · rw [atan2_of_ne h, ← norm_mk, Complex.norm_mul_cos_arg]
theorem sqrt_mul_sin_atan2 (y x : ℝ) : √(x ^ 2 + y ^ 2) * Real.sin (atan2 y x) = y := by
  by_cases h : x = 0 ∧ y = 0
  · rw [h.1, h.2]; simp
  · rw [atan2_of_ne h, ← norm_mk, Complex.norm_mul_sin_arg]

/-- uniqueness of the polar angle -/
theorem atan2_polar {r θ : ℝ} (hr : 0 < r) (h1 : -π < θ) (h2 : θ ≤ π) : atan2 (r * Real.sin θ) (r * Real.cos θ) = θ := by
  have hne : ¬ (r * Real.cos θ = 0 ∧ r * Real.sin θ = 0) := by
    rintro ⟨a, b⟩
    have := Real.sin_sq_add_cos_sq θ
    have hc : Real.cos θ = 0 := by rcases mul_eq_zero.mp a with h | h; exact absurd h hr.ne'; exact h
    have hs : Real.sin θ = 0 := by rcases mul_eq_zero.mp b with h | h; exact absurd h hr.ne'; exact h
    rw [hc, hs] at this; norm_num at this
  rw [atan2_of_ne hne]
  have : (⟨r * Real.cos θ, r * Real.sin θ⟩ : ℂ) = r * (Complex.cos θ + Complex.sin θ * Complex.I) := by
    apply Complex.ext <;> simp [Complex.cos_ofReal_re, Complex.sin_ofReal_re, Complex.cos_ofReal_im, Complex.sin_ofReal_im]
  rw [this]
  exact Complex.arg_mul_cos_add_sin_mul_I hr ⟨h1, h2⟩

theorem atan2_eq {x y r θ : ℝ} (hr : 0 < r) (h1 : -π < θ) (h2 : θ ≤ π) (hx : x = r * Real.cos θ) (hy : y = r * Real.sin θ) :
    atan2 y x = θ := by rw [hx, hy]; exact atan2_polar hr h1 h2

theorem atan2_scale {c : ℝ} (hc : 0 < c) (y x : ℝ) : atan2 (c * y) (c * x) = atan2 y x := by
  by_cases h : x = 0 ∧ y = 0
  · rw [h.1, h.2]; simp
  · have h' : ¬ (c * x = 0 ∧ c * y = 0) := by
      rintro ⟨a, b⟩; exact h ⟨(mul_eq_zero.mp a).resolve_left hc.ne', (mul_eq_zero.mp b).resolve_left hc.ne'⟩
    rw [atan2_of_ne h, atan2_of_ne h']
    have : (⟨c * x, c * y⟩ : ℂ) = (c : ℂ) * ⟨x, y⟩ := by apply Complex.ext <;> simp
    rw [this, Complex.arg_real_mul _ hc]

theorem sqrt_pos_of_ne {x y : ℝ} (h : ¬ (x = 0 ∧ y = 0)) : 0 < √(x ^ 2 + y ^ 2) := by
  apply Real.sqrt_pos.mpr
  rcases not_and_or.mp h with h | h
  · have := sq_pos_of_ne_zero h; positivity
  · have := sq_pos_of_ne_zero h; positivity

/-- on the unit circle -/
theorem cos_atan2 {x y : ℝ} (h : x ^ 2 + y ^ 2 = 1) : Real.cos (atan2 y x) = x := by
  have := sqrt_mul_cos_atan2 y x; rwa [h, Real.sqrt_one, one_mul] at this
theorem sin_atan2 {x y : ℝ} (h : x ^ 2 + y ^ 2 = 1) : Real.sin (atan2 y x) = y := by
  have := sqrt_mul_sin_atan2 y x; rwa [h, Real.sqrt_one, one_mul] at this

theorem atan2_nonneg {x y : ℝ} (h : ¬ (x = 0 ∧ y = 0)) (hy : 0 ≤ y) : 0 ≤ atan2 y x := by
  rw [atan2_of_ne h]; exact Complex.arg_nonneg_iff.mpr hy

theorem abs_atan2_le_pi_div_two {x y : ℝ} (h : ¬ (x = 0 ∧ y = 0)) (hx : 0 ≤ x) : |atan2 y x| ≤ π / 2 := by
  rw [atan2_of_ne h]; exact Complex.abs_arg_le_pi_div_two_iff.mpr hx

end XR

namespace Spec
open Real

theorem lagrange (v w : V3 ℝ) : len (cross v w) ^ 2 = len v ^ 2 * len w ^ 2 - dot v w ^ 2 := by
  rw [len_sq, len_sq, len_sq]; unfold cross dot; ring

theorem abs_dot_le (v w : V3 ℝ) : |dot v w| ≤ len v * len w := by
  have h := lagrange v w
  have h1 := sq_nonneg (len (cross v w))
  apply abs_le_of_sq_le_sq _ (mul_nonneg (len_nonneg v) (len_nonneg w))
  nlinarith

theorem dot_div_range (v w : V3 ℝ) : -1 ≤ dot v w / (len v * len w) ∧ dot v w / (len v * len w) ≤ 1 := by
  have h := abs_dot_le v w
  have hn := mul_nonneg (len_nonneg v) (len_nonneg w)
  rw [← abs_le, abs_div, abs_of_nonneg hn]
  exact div_le_one_of_le₀ h hn

theorem angle_nonneg (v w : V3 ℝ) : 0 ≤ angle v w := Real.arccos_nonneg _
theorem angle_le_pi (v w : V3 ℝ) : angle v w ≤ π := Real.arccos_le_pi _
theorem cos_angle {v w : V3 ℝ} (hv : v ≠ 0) (hw : w ≠ 0) : len v * len w * cos (angle v w) = dot v w := by
  unfold angle
  rw [Real.cos_arccos (dot_div_range v w).1 (dot_div_range v w).2]
  have := len_pos hv; have := len_pos hw
  field_simp
theorem sin_angle {v w : V3 ℝ} (hv : v ≠ 0) (hw : w ≠ 0) : len v * len w * sin (angle v w) = len (cross v w) := by
  have h0 : 0 ≤ len v * len w * sin (angle v w) :=
    mul_nonneg (mul_nonneg (len_nonneg v) (len_nonneg w)) (Real.sin_nonneg_of_nonneg_of_le_pi (angle_nonneg v w) (angle_le_pi v w))
  have h := lagrange v w
  have hc := cos_angle hv hw
  have hs := Real.sin_sq_add_cos_sq (angle v w)
  have : (len v * len w * sin (angle v w)) ^ 2 = len (cross v w) ^ 2 := by
    rw [h, ← hc]
    linear_combination (len v * len w) ^ 2 * hs
  exact (sq_eq_sq₀ h0 (len_nonneg _)).mp this

theorem cos_angle_unit {v w : V3 ℝ} (hv : UnitVec v) (hw : UnitVec w) : cos (angle v w) = dot v w := by
  have := cos_angle hv.ne hw.ne; rwa [hv.len, hw.len, one_mul, one_mul] at this
theorem sin_angle_unit {v w : V3 ℝ} (hv : UnitVec v) (hw : UnitVec w) : sin (angle v w) = len (cross v w) := by
  have := sin_angle hv.ne hw.ne; rwa [hv.len, hw.len, one_mul, one_mul] at this
theorem angle_unit {v w : V3 ℝ} (hv : UnitVec v) (hw : UnitVec w) : angle v w = arccos (dot v w) := by
  unfold angle; rw [hv.len, hw.len, one_mul, div_one]

theorem atan2_cross_dot {v w : V3 ℝ} (hv : v ≠ 0) (hw : w ≠ 0) :
    XR.atan2 (len (cross v w)) (dot v w) = angle v w := by
  have hp : 0 < len v * len w := mul_pos (len_pos hv) (len_pos hw)
  exact XR.atan2_eq hp (by linarith [angle_nonneg v w, Real.pi_pos]) (angle_le_pi v w) (cos_angle hv hw).symm
    (sin_angle hv hw).symm

end Spec
end Nv
