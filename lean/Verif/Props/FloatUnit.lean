import Verif.Float.Unit

/-!
# C70: `unit` in binary64
-/

namespace Nv
open Spec F64
variable (B : Binary64)

/-- **C70** for every vector with a length between `2^-500` and `2^500` (about `1e-150` to `1e150`) each component of the computed
unit vector is within `5.7e-16` of the exact one and its length within `5.7e-16` of one -/
theorem C70_unit {v : V3 ℝ} (h1 : (2 : ℝ) ^ (-500 : ℤ) ≤ len v) (h2 : len v ≤ (2 : ℝ) ^ (500 : ℕ)) :
    ∃ w : V3 ℝ, unit (v.flt : V3 (F64 B)) = w.flt ∧ IsF64V w ∧ |w.x - v.x / len v| ≤ 5.7e-16 ∧ |w.y - v.y / len v| ≤ 5.7e-16 ∧
      |w.z - v.z / len v| ≤ 5.7e-16 ∧ |len w - 1| ≤ 5.7e-16 := by
  obtain ⟨w, hw, fw, hx, hy, hz⟩ := unit_flt (B := B) h1 h2
  have l0 : 0 < len v := lt_of_lt_of_le (by positivity) h1
  have he := eta_small
  have bnd : ∀ {s t : ℝ}, |t| ≤ len v → |s - t / len v| ≤ 5.05 * uu * |t / len v| + eta → |s - t / len v| ≤ 5.7e-16 := by
    intro s t ht h
    have h3 : |t / len v| ≤ 1 := by rw [abs_div, abs_of_pos l0, div_le_one l0]; exact ht
    have h4 : 5.05 * uu * |t / len v| ≤ 5.05 * uu * 1 := mul_le_mul_of_nonneg_left h3 (by linarith only [uu_pos])
    have h5 : 5.05 * uu ≤ 5.65e-16 := by unfold uu; norm_num
    norm_num at he h5 h4 h ⊢
    linarith only [h, he, h4, h5]
  refine ⟨w, hw, fw, bnd (abs_x_le_len v) hx, bnd (abs_y_le_len v) hy, bnd (abs_z_le_len v) hz, ?_⟩
  have hl := len_close_rel (v := ⟨v.x / len v, v.y / len v, v.z / len v⟩) (by linarith only [uu_pos] : 0 ≤ 5.05 * uu)
    eta_pos.le hx hy hz
  have h1' : len (⟨v.x / len v, v.y / len v, v.z / len v⟩ : V3 ℝ) = 1 := by
    have := len_smul' (c := 1 / len v) (by positivity) v
    simp only [one_div_mul_eq_div] at this
    rw [this, div_self l0.ne']
  rw [h1'] at hl
  have h5 : 5.05 * uu ≤ 5.65e-16 := by unfold uu; norm_num
  norm_num at he h5 hl ⊢
  linarith only [hl, he, h5]

/-- **C70** the direction is kept component by component, small components included: the relative error of each component is below
`5.7e-16` (up to underflow) -/
theorem C70_unit_relative {v : V3 ℝ} (h1 : (2 : ℝ) ^ (-500 : ℤ) ≤ len v) (h2 : len v ≤ (2 : ℝ) ^ (500 : ℕ)) :
    ∃ w : V3 ℝ, unit (v.flt : V3 (F64 B)) = w.flt ∧
      |w.x - v.x / len v| ≤ 5.7e-16 * |v.x / len v| + 2 ^ (-1075 : ℤ) ∧
      |w.y - v.y / len v| ≤ 5.7e-16 * |v.y / len v| + 2 ^ (-1075 : ℤ) ∧
      |w.z - v.z / len v| ≤ 5.7e-16 * |v.z / len v| + 2 ^ (-1075 : ℤ) := by
  obtain ⟨w, hw, fw, hx, hy, hz⟩ := unit_flt (B := B) h1 h2
  have h5 : 5.05 * uu ≤ 5.7e-16 := by unfold uu; norm_num
  refine ⟨w, hw, hx.trans ?_, hy.trans ?_, hz.trans ?_⟩ <;>
    exact add_le_add_left (mul_le_mul_of_nonneg_right h5 (abs_nonneg _)) _

theorem fl_underflow {t : ℝ} (h0 : 0 ≤ t) (h : t < eta) : B.fl t = 0 := by
  by_contra hn
  have hp : 0 < B.fl t := lt_of_le_of_ne (B.rounds.nonneg h0) (Ne.symm hn)
  have h1 := (B.rounds.val t).min hp
  have h2 := B.rounds.nearest t 0 isF64_zero
  have h3 : (2 : ℝ) ^ (-1074 : ℤ) = 2 * eta := by
    unfold eta
    rw [show (-1074 : ℤ) = -1075 + 1 by norm_num, zpow_add_one₀ (by norm_num)]; ring
  rw [h3] at h1
  rw [zero_sub, abs_neg, abs_of_nonneg h0, abs_of_nonneg (by linarith)] at h2
  linarith

/-- **C70** outside that range the squares underflow or overflow: a nonzero vector along the y-axis becomes the x-axis … -/
theorem C70_underflow : unit (V3.flt ⟨0, (2 : ℝ) ^ (-600 : ℤ), 0⟩ : V3 (F64 B)) = V3.flt ⟨1, 0, 0⟩ := by
  have h1 : (2 : ℝ) ^ (-600 : ℤ) * 2 ^ (-600 : ℤ) < eta := by
    rw [← zpow_add₀ (by norm_num)]; unfold eta
    exact zpow_lt_zpow_right₀ (by norm_num) (by norm_num)
  have hs : (fin ((2 : ℝ) ^ (-600 : ℤ)) * fin ((2 : ℝ) ^ (-600 : ℤ)) : F64 B) = fin 0 := by
    rw [fin_mul, fl_underflow B (by positivity) h1]
    rw [abs_of_nonneg (by positivity)]
    exact (h1.le.trans eta_small).trans (by norm_num)
  have hn : norm3 (V3.flt ⟨0, (2 : ℝ) ^ (-600 : ℤ), 0⟩ : V3 (F64 B)) = fin 0 := by
    unfold norm3 V3.flt
    dsimp only
    rw [hs, zero_mul', zero_add' fin64_zero, zero_add' fin64_zero, fin_sqrt le_rfl (by norm_num), Real.sqrt_zero, B.rounds.zero]
  unfold unit
  dsimp only
  rw [hn, lit_zero, lit_one, fin_eq, if_pos (by simp), one_mul' fin64_one, zero_mul']
  rfl

/-- positive infinity -/
def F64.inf : F64 B := XR.pinf

/-- … and a vector of length `2^600` becomes the zero vector -/
theorem C70_overflow : unit (V3.flt ⟨(2 : ℝ) ^ (600 : ℤ), 0, 0⟩ : V3 (F64 B)) = V3.flt ⟨0, 0, 0⟩ := by
  have hsq : (fin ((2 : ℝ) ^ (600 : ℤ)) * fin ((2 : ℝ) ^ (600 : ℤ)) : F64 B) = F64.inf B := by
    have hp : (0 : ℝ) < 2 ^ (600 : ℤ) * 2 ^ (600 : ℤ) := by positivity
    have e : (2 : ℝ) ^ (600 : ℤ) * 2 ^ (600 : ℤ) = 2 ^ (1200 : ℤ) := by rw [← zpow_add₀ (by norm_num)]; norm_num
    have hf : IsF64 ((2 : ℝ) ^ (600 : ℤ) * 2 ^ (600 : ℤ)) := by rw [e]; exact isF64_two_zpow (by norm_num)
    change (if |B.fl (2 ^ (600 : ℤ) * 2 ^ (600 : ℤ))| < (2 : ℝ) ^ (1024 : ℤ) then _ else XR.signInf (2 ^ (600 : ℤ) * 2 ^ (600 : ℤ))) = _
    rw [B.rounds.exact hf, if_neg, XR.signInf, if_pos hp]
    · rfl
    rw [abs_of_pos hp, not_lt, e]
    exact zpow_le_zpow_right₀ (by norm_num) (by norm_num)
  have hn : norm3 (V3.flt ⟨(2 : ℝ) ^ (600 : ℤ), 0, 0⟩ : V3 (F64 B)) = F64.inf B := by
    unfold norm3 V3.flt
    dsimp only
    rw [hsq, zero_mul']
    rfl
  unfold unit
  dsimp only
  rw [hn, lit_zero]
  have h1 : PyFloat.eq (F64.inf B) (fin 0) = false := rfl
  have h2 : PyFloat.addTiny (F64.inf B) = F64.inf B := rfl
  have h3 : ∀ x : ℝ, (fin x / F64.inf B : F64 B) = fin 0 := fun x => by
    change rnd B 0 = _
    rw [rnd_exact fin64_zero]
  rw [h1, h2]
  simp only [Bool.false_eq_true, if_false]
  unfold div3 V3.flt
  simp only [h3]

/-- the hypotheses of `C70_unit` are met by the vector (3, 4, 0) -/
example : (2 : ℝ) ^ (-500 : ℤ) ≤ len ⟨3, 4, 0⟩ ∧ len ⟨3, 4, 0⟩ ≤ (2 : ℝ) ^ (500 : ℕ) := by
  have : len (⟨3, 4, 0⟩ : V3 ℝ) = 5 := by
    unfold len; rw [show (3 : ℝ) ^ 2 + 4 ^ 2 + 0 ^ 2 = 5 ^ 2 by norm_num]; exact Real.sqrt_sq (by norm_num)
  rw [this]
  constructor
  · exact (zpow_le_one_of_nonpos₀ (by norm_num) (by norm_num)).trans (by norm_num)
  · exact (by norm_num : (5 : ℝ) ≤ 2 ^ 3).trans (pow_le_pow_right₀ (by norm_num) (by norm_num))

end Nv
