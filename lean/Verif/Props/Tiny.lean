import Verif.Spec.Binary64
import Verif.Model.Util
import Mathlib.Tactic.Linarith
import Mathlib.Tactic.Positivity
import Mathlib.Tactic.Ring
import Mathlib.Tactic.NormNum
import Mathlib.Analysis.SpecialFunctions.Pow.Real

/-!
# C31 (floating point part): `_TINY` is absorbed

`unit` divides by `norm + _TINY` with `_TINY = 2^-1022` (util.py:17, 505).  In binary64 the computed norm is zero or at least
`2^-537`, so the rounded sum is exactly the computed norm.  This justifies `addTiny x = x` in the real model.
-/

namespace Nv
open Spec

theorem isF64_zero : IsF64 0 := ⟨0, 0, by norm_num, by norm_num, by simp⟩

theorem isF64_two_zpow {k : ℤ} (hk : -1074 ≤ k) : IsF64 ((2 : ℝ) ^ k) := ⟨1, k, by norm_num, hk, by simp⟩

/-- a nonzero value is at least the smallest subnormal -/
theorem Spec.IsF64.min {z : ℝ} (h : IsF64 z) (hz : 0 < z) : (2 : ℝ) ^ (-1074 : ℤ) ≤ z := by
  obtain ⟨m, e, hm, he, rfl⟩ := h
  have h2 : (0 : ℝ) < 2 ^ e := by positivity
  have hmp : 0 < m := by
    by_contra hn; push Not at hn
    have : (m : ℝ) ≤ 0 := by exact_mod_cast hn
    nlinarith
  have h1 : (1 : ℝ) ≤ m := by exact_mod_cast hmp
  have h3 : (2 : ℝ) ^ (-1074 : ℤ) ≤ 2 ^ e := zpow_le_zpow_right₀ (by norm_num) he
  nlinarith

/-- a value of at least `2^k` is a multiple of `2^(k-53)` -/
theorem Spec.IsF64.multiple {z : ℝ} (h : IsF64 z) {k : ℤ} (hz : (2 : ℝ) ^ k ≤ z) : ∃ j : ℤ, z = j * (2 : ℝ) ^ (k - 53) := by
  obtain ⟨m, e, hm, he, rfl⟩ := h
  have h2 : (0 : ℝ) < 2 ^ e := by positivity
  have hm' : (m : ℝ) < 2 ^ (53 : ℤ) := by
    have : m < 2 ^ 53 := lt_of_le_of_lt (le_abs_self m) hm
    exact_mod_cast this
  have hke : k - 53 < e := by
    by_contra hn; push Not at hn
    have h4 : (2 : ℝ) ^ e ≤ 2 ^ (k - 53) := zpow_le_zpow_right₀ (by norm_num) hn
    have h5 : (m : ℝ) * 2 ^ e < 2 ^ (53 : ℤ) * 2 ^ (k - 53) := by
      calc (m : ℝ) * 2 ^ e < 2 ^ (53 : ℤ) * 2 ^ e := by nlinarith
        _ ≤ _ := by apply mul_le_mul_of_nonneg_left h4; positivity
    rw [← zpow_add₀ (by norm_num)] at h5
    have : (53 : ℤ) + (k - 53) = k := by ring
    rw [this] at h5
    linarith
  refine ⟨m * 2 ^ (e - (k - 53)).toNat, ?_⟩
  push_cast
  rw [mul_assoc, ← zpow_natCast, Int.toNat_of_nonneg (by linarith), ← zpow_add₀ (by norm_num)]
  congr 2; ring

/-- different values, one of them at least `2^-537`, differ by at least `2^-591` -/
theorem Spec.IsF64.gap {x y : ℝ} (hx : IsF64 x) (hy : IsF64 y) (hx0 : (2 : ℝ) ^ (-537 : ℤ) ≤ x) (hne : y ≠ x) :
    (2 : ℝ) ^ (-591 : ℤ) ≤ |y - x| := by
  have e1 : (2 : ℝ) ^ (-538 : ℤ) + 2 ^ (-538 : ℤ) = 2 ^ (-537 : ℤ) := by
    rw [show (-537 : ℤ) = -538 + 1 by norm_num, zpow_add₀ (by norm_num : (2:ℝ) ≠ 0)]; ring
  by_cases hys : (2 : ℝ) ^ (-538 : ℤ) ≤ y
  · obtain ⟨i, hi⟩ := hx.multiple (k := -538) (le_trans (by rw [← e1]; linarith [show (0:ℝ) < 2 ^ (-538 : ℤ) by positivity]) hx0)
    obtain ⟨j, hj⟩ := hy.multiple hys
    have e3 : (-538 : ℤ) - 53 = -591 := by norm_num
    rw [e3] at hi hj
    have hp : (0 : ℝ) < 2 ^ (-591 : ℤ) := by positivity
    have hij : j - i ≠ 0 := by
      intro h; apply hne; rw [hi, hj]; congr 2; linarith
    have h1 : (1 : ℝ) ≤ |((j - i : ℤ) : ℝ)| := by exact_mod_cast Int.one_le_abs hij
    have : y - x = ((j - i : ℤ) : ℝ) * 2 ^ (-591 : ℤ) := by rw [hi, hj]; push_cast; ring
    rw [this, abs_mul, abs_of_pos hp]
    nlinarith
  · push Not at hys
    have h1 : (2 : ℝ) ^ (-538 : ℤ) ≤ x - y := by linarith
    have h2 : (2 : ℝ) ^ (-591 : ℤ) ≤ 2 ^ (-538 : ℤ) := zpow_le_zpow_right₀ (by norm_num) (by norm_num)
    rw [abs_sub_comm]
    exact le_trans (le_trans h2 h1) (le_abs_self _)

/-- every value is a multiple of the smallest subnormal -/
theorem Spec.IsF64.multiple_min {z : ℝ} (h : IsF64 z) : ∃ j : ℤ, z = j * (2 : ℝ) ^ (-1074 : ℤ) := by
  obtain ⟨m, e, hm, he, rfl⟩ := h
  refine ⟨m * 2 ^ (e - (-1074)).toNat, ?_⟩
  push_cast
  rw [mul_assoc, ← zpow_natCast, Int.toNat_of_nonneg (by linarith), ← zpow_add₀ (by norm_num)]
  congr 2; ring

/-- rounding functions exist -/
theorem exists_roundsToNearest : ∃ fl : ℝ → ℝ, RoundsToNearest fl := by
  have key : ∀ x : ℝ, ∃ w, IsF64 w ∧ ∀ z, IsF64 z → |w - x| ≤ |z - x| := by
    intro x
    obtain ⟨N, hN⟩ := exists_nat_ge (2 * |x| / (2 : ℝ) ^ (-1074 : ℤ))
    have hp : (0 : ℝ) < 2 ^ (-1074 : ℤ) := by positivity
    let S : Set ℝ := {z | IsF64 z ∧ |z - x| ≤ |x|}
    have hfin : S.Finite := by
      apply Set.Finite.subset ((Set.finite_Icc (-(N : ℤ)) N).image fun j : ℤ => (j : ℝ) * (2 : ℝ) ^ (-1074 : ℤ))
      rintro z ⟨hz, hzx⟩
      obtain ⟨j, rfl⟩ := hz.multiple_min
      refine ⟨j, ?_, rfl⟩
      have h1 : |(j : ℝ) * (2 : ℝ) ^ (-1074 : ℤ)| ≤ 2 * |x| := by
        have := abs_sub_abs_le_abs_sub ((j : ℝ) * (2 : ℝ) ^ (-1074 : ℤ)) x
        linarith
      rw [abs_mul, abs_of_pos hp, ← le_div_iff₀ hp] at h1
      have h2 : |(j : ℝ)| ≤ N := h1.trans hN
      rw [abs_le] at h2
      exact ⟨by exact_mod_cast h2.1, by exact_mod_cast h2.2⟩
    have hne : S.Nonempty := ⟨0, isF64_zero, by simp⟩
    obtain ⟨w, hw, hmin⟩ := Set.exists_min_image S (fun z => |z - x|) hfin hne
    refine ⟨w, hw.1, fun z hz => ?_⟩
    by_cases hzx : |z - x| ≤ |x|
    · exact hmin z ⟨hz, hzx⟩
    · push Not at hzx; exact hw.2.trans hzx.le
  choose fl h1 h2 using key
  exact ⟨fl, h1, h2⟩

/-- rounding is exact on binary64 numbers -/
theorem Spec.RoundsToNearest.exact {fl : ℝ → ℝ} (h : RoundsToNearest fl) {x : ℝ} (hx : IsF64 x) : fl x = x := by
  have := h.nearest x x hx
  rw [sub_self, abs_zero] at this
  have := abs_eq_zero.mp (le_antisymm this (abs_nonneg _))
  linarith

/-- rounding does not go below a binary64 number that is not above the argument -/
theorem Spec.RoundsToNearest.ge {fl : ℝ → ℝ} (h : RoundsToNearest fl) {x z : ℝ} (hz : IsF64 z) (hzx : z ≤ x) : z ≤ fl x := by
  by_contra hn; push Not at hn
  have := h.nearest x z hz
  rw [abs_of_nonpos (by linarith), abs_of_nonpos (by linarith)] at this
  linarith

/-- `np.linalg.norm(v, axis=0)` of three numbers, with a rounding after every operation:
`sqrt(x*x + y*y + z*z)` (any order of the additions gives the same bounds). -/
noncomputable def flNorm (fl : ℝ → ℝ) (x y z : ℝ) : ℝ :=
  fl (Real.sqrt (fl (fl (fl (x * x) + fl (y * y)) + fl (z * z))))

/-- the computed norm is zero or at least `2^-537` -/
theorem flNorm_range {fl : ℝ → ℝ} (h : RoundsToNearest fl) (x y z : ℝ) :
    flNorm fl x y z = 0 ∨ (2 : ℝ) ^ (-537 : ℤ) ≤ flNorm fl x y z := by
  unfold flNorm
  obtain ⟨s, hs⟩ : ∃ s, s = fl (fl (fl (x * x) + fl (y * y)) + fl (z * z)) := ⟨_, rfl⟩
  have hF : IsF64 s := by rw [hs]; exact h.val _
  rw [← hs]
  rcases le_or_gt s 0 with h0 | h0
  · left; rw [Real.sqrt_eq_zero_of_nonpos h0, h.exact isF64_zero]
  · right
    apply h.ge (isF64_two_zpow (by norm_num))
    have h1 := hF.min h0
    apply Real.le_sqrt_of_sq_le
    rw [← zpow_natCast, ← zpow_mul]
    exact h1

/-- **C31** (floating point part) `fl(norm + _TINY) = norm` for every nonzero computed norm: the `_TINY` in `unit` never
changes the divisor. -/
theorem C31_tiny_absorbed (fl : ℝ → ℝ) (h : RoundsToNearest fl) (x y z : ℝ) (hne : flNorm fl x y z ≠ 0) :
    fl (flNorm fl x y z + (2 : ℝ) ^ (-1022 : ℤ)) = flNorm fl x y z := by
  have hr := (flNorm_range h x y z).resolve_left hne
  have hF : IsF64 (flNorm fl x y z) := h.val _
  generalize flNorm fl x y z = N at *
  by_contra hcon
  have hg := hF.gap (h.val (N + 2 ^ (-1022 : ℤ))) hr hcon
  have hn := h.nearest (N + 2 ^ (-1022 : ℤ)) N hF
  have ht : (0 : ℝ) < 2 ^ (-1022 : ℤ) := by positivity
  have e : |N - (N + 2 ^ (-1022 : ℤ))| = (2 : ℝ) ^ (-1022 : ℤ) := by
    rw [show N - (N + 2 ^ (-1022 : ℤ)) = -(2 : ℝ) ^ (-1022 : ℤ) by ring, abs_neg, abs_of_pos ht]
  rw [e] at hn
  have h3 : |fl (N + 2 ^ (-1022 : ℤ)) - N| ≤ 2 ^ (-1021 : ℤ) := by
    have : fl (N + 2 ^ (-1022 : ℤ)) - N = (fl (N + 2 ^ (-1022 : ℤ)) - (N + 2 ^ (-1022 : ℤ))) + 2 ^ (-1022 : ℤ) := by ring
    rw [this]
    refine le_trans (abs_add_le _ _) ?_
    rw [abs_of_pos ht]
    have : (2 : ℝ) ^ (-1021 : ℤ) = 2 ^ (-1022 : ℤ) + 2 ^ (-1022 : ℤ) := by
      rw [show (-1021 : ℤ) = -1022 + 1 by norm_num, zpow_add₀ (by norm_num : (2:ℝ) ≠ 0)]; ring
    linarith
  have h4 : (2 : ℝ) ^ (-1021 : ℤ) < 2 ^ (-591 : ℤ) := zpow_lt_zpow_right₀ (by norm_num) (by norm_num)
  linarith

end Nv
