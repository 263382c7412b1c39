import Verif.Float.NthRoot

/-!
# C118: `nthroot` in binary64

The docstring promises "the n'th root of x to machine precision".  Below `2 ^ 52` this holds: relative error at most `2.6e-16`.  From `2 ^ 52`
on the code leaves out the Newton step, and the rounding of `1 / n` shows.
-/

namespace Nv
open Spec F64
variable (B : Binary64)

/-- **C118** (missing: arguments from `2 ^ 52` on, where the claim is false, see `C118_large_counterexample`) below `2 ^ 52` the result is the `n`-th root up to a relative error of `2.6e-16` -/
theorem C118_nthroot_partial {x : ℝ} {n : ℕ} (hx : IsF64 x) (n1 : 1 ≤ n) (n2 : n ≤ 10 ^ 6) (h1 : 1 / 10 ^ 60 ≤ x) (h2 : x < 2 ^ 52) :
    ∃ y : ℝ, nthroot (F64.fin x : F64 B) n = F64.fin y ∧ IsF64 y ∧ |y - x ^ ((1 : ℝ) / n)| ≤ 2.6e-16 * x ^ ((1 : ℝ) / n) := by
  obtain ⟨y, e1, e2, e3⟩ := nthroot_flt (B := B) hx n1 n2 h1 h2
  refine ⟨y, e1, e2, e3.trans (mul_le_mul_of_nonneg_right (by unfold uu; norm_num) (root_range n1 h1 (h2.le.trans (by norm_num))).1.le)⟩

/-- **C118** perfect powers: when the root `r` is a binary64 number, the result is `r` or one of its two neighbours on each side (at most `2.6e-16 r` away) -/
theorem C118_perfect_power {r : ℝ} {n : ℕ} (hx : IsF64 (r ^ n)) (r0 : 0 < r) (n1 : 1 ≤ n) (n2 : n ≤ 10 ^ 6) (h1 : 1 / 10 ^ 60 ≤ r ^ n) (h2 : r ^ n < 2 ^ 52) :
    ∃ y : ℝ, nthroot (F64.fin (r ^ n) : F64 B) n = F64.fin y ∧ IsF64 y ∧ |y - r| ≤ 2.6e-16 * r := by
  obtain ⟨y, e1, e2, e3⟩ := C118_nthroot_partial B hx n1 n2 h1 h2
  have e : (r ^ n) ^ ((1 : ℝ) / n) = r := by
    rw [one_div]; exact Real.pow_rpow_inv_natCast r0.le (by omega)
  rw [e] at e3
  exact ⟨y, e1, e2, e3⟩

/-- **C118** from `2 ^ 52` on the error grows like `1 / n` times the logarithm of `x`: at most `(4.01 + 139.01 / n) * 2 ^ -53` up to `1e60` -/
theorem C118_large {x : ℝ} {n : ℕ} (hx : IsF64 x) (n1 : 1 ≤ n) (n2 : n ≤ 10 ^ 6) (h1 : 2 ^ 52 ≤ x) (h2 : x ≤ 10 ^ 60) :
    ∃ y : ℝ, nthroot (F64.fin x : F64 B) n = F64.fin y ∧ IsF64 y ∧
      |y - x ^ ((1 : ℝ) / n)| ≤ (4.01 + 139.01 / n) * (2 : ℝ) ^ (-53 : ℤ) * x ^ ((1 : ℝ) / n) := by
  refine ⟨_, nthroot_large hx h1 h2 n, B.pow_val _ _, ?_⟩
  have := root_start (B := B) (x := x) n1 n2 (le_trans (by norm_num) h1) h2
  rwa [uu_eq] at this

/-- the binary64 number nearest to one third -/
theorem fl_third : B.fl (1 / 3) = 1 / 3 - 1 / 3 * (2 : ℝ) ^ (-54 : ℤ) := by
  have hz : IsF64 (6004799503160661 * (2 : ℝ) ^ (-54 : ℤ)) := ⟨6004799503160661, -54, by norm_num, by norm_num, by norm_num⟩
  have h1 := B.rounds.nearest (1 / 3) _ hz
  have e : |6004799503160661 * (2 : ℝ) ^ (-54 : ℤ) - 1 / 3| = 1 / 3 * (2 : ℝ) ^ (-54 : ℤ) := by norm_num
  rw [e] at h1
  obtain ⟨m, k, hm, -, hf⟩ := B.rounds.val (1 / 3)
  rw [hf] at h1 ⊢
  have b := abs_le.mp h1
  have hm' : (m : ℝ) < 2 ^ 53 := by exact_mod_cast (abs_lt.mp hm).2
  have hk : -54 ≤ k := by
    by_contra hk
    have h3 : (2 : ℝ) ^ k ≤ 2 ^ (-55 : ℤ) := zpow_le_zpow_right₀ (by norm_num) (by omega)
    have h4 : (m : ℝ) * 2 ^ k ≤ 2 ^ 53 * 2 ^ (-55 : ℤ) := mul_le_mul hm'.le h3 (by positivity) (by positivity)
    norm_num at h4 b
    linarith
  obtain ⟨j, hj⟩ : ∃ j : ℕ, k = -54 + j := ⟨(k + 54).toNat, by omega⟩
  have e2 : (m : ℝ) * 2 ^ k = ((m * 2 ^ j : ℤ) : ℝ) * 2 ^ (-54 : ℤ) := by
    rw [hj, zpow_add₀ (by norm_num), zpow_natCast]; push_cast; ring
  rw [e2] at b ⊢
  generalize m * 2 ^ j = i at *
  have i1 : (18014398509481983 : ℝ) ≤ ((3 * i : ℤ) : ℝ) := by push_cast; norm_num at b ⊢; linarith
  have i2 : ((3 * i : ℤ) : ℝ) ≤ 18014398509481985 := by push_cast; norm_num at b ⊢; linarith
  have i1' : 18014398509481983 ≤ 3 * i := by exact_mod_cast i1
  have i2' : 3 * i ≤ 18014398509481985 := by exact_mod_cast i2
  have : i = 6004799503160661 := by omega
  rw [this]
  norm_num

/-- **C118** the cube root of `2 ^ 180` comes out at least 2048 below `2 ^ 60`, sixteen times the spacing of the numbers there: not machine precision -/
theorem C118_large_counterexample :
    ∃ y : ℝ, nthroot (F64.fin (2 ^ 180) : F64 B) 3 = F64.fin y ∧ y ≤ 2 ^ 60 - 2048 ∧ IsF64 (2 ^ 60) ∧ (2 ^ 60 : ℝ) ^ 3 = 2 ^ 180 := by
  have hx : IsF64 (2 ^ 180) := by
    have := isF64_two_zpow (k := 180) (by norm_num)
    rwa [show (2 : ℝ) ^ (180 : ℤ) = 2 ^ 180 by norm_cast] at this
  have hu := uu_pos
  have hr : IsF64 (2 ^ 60) := by
    have := isF64_two_zpow (k := 60) (by norm_num)
    rwa [show (2 : ℝ) ^ (60 : ℤ) = 2 ^ 60 by norm_cast] at this
  refine ⟨_, nthroot_large hx (by norm_num) (by norm_num) 3, ?_, hr, by norm_num⟩
  rw [show (1 : ℝ) / ((3 : ℕ) : ℝ) = 1 / 3 by norm_num, fl_third]
  have hc := B.pow_close (2 ^ 180) (1 / 3 - 1 / 3 * (2 : ℝ) ^ (-54 : ℤ)) (by norm_num)
  obtain ⟨ε, hε⟩ : ∃ ε : ℝ, ε = 30 * uu := ⟨_, rfl⟩
  have e1 : ((2 : ℝ) ^ 180) ^ (1 / 3 - 1 / 3 * (2 : ℝ) ^ (-54 : ℤ)) = 2 ^ 60 * Real.exp (-(Real.log 2 * ε)) := by
    have s1 : (2 : ℝ) ^ 180 = (2 : ℝ) ^ (180 : ℝ) := by norm_cast
    have s2 : (2 : ℝ) ^ 60 = (2 : ℝ) ^ (60 : ℝ) := by norm_cast
    have s3 : (180 : ℝ) * (1 / 3 - 1 / 3 * (2 : ℝ) ^ (-54 : ℤ)) = 60 + -ε := by rw [hε]; unfold uu; norm_num
    rw [s1, s2, ← Real.rpow_mul (by norm_num), s3, Real.rpow_add (by norm_num), Real.rpow_def_of_pos (by norm_num : (0 : ℝ) < 2) (-ε), mul_neg]
  have hl := Real.log_two_gt_d9
  have hl2 := Real.log_two_lt_d9
  have ε0 : 0 < ε := by rw [hε]; positivity
  have hε1 : ε ≤ 1 / 10 ^ 10 := by rw [hε]; unfold uu; norm_num
  have hq : Real.log 2 * ε ≤ 1 / 10 ^ 10 := by
    have : Real.log 2 * ε ≤ 1 * ε := mul_le_mul_of_nonneg_right (hl2.le.trans (by norm_num)) ε0.le
    rw [one_mul] at this
    exact this.trans hε1
  have hq0 : 0.693 * ε ≤ Real.log 2 * ε := mul_le_mul_of_nonneg_right (le_trans (by norm_num) hl.le) ε0.le
  have hx2 : Real.exp (-(Real.log 2 * ε)) ≤ 1 - 20.7 * uu := by
    have h3 := Real.abs_exp_sub_one_sub_id_le (x := -(Real.log 2 * ε)) (by rw [abs_neg, abs_of_pos (by positivity)]; exact hq.trans (by norm_num))
    have h4 := (abs_le.mp h3).2
    have h5 : (-(Real.log 2 * ε)) ^ 2 ≤ 1 / 10 ^ 10 * (Real.log 2 * ε) := by
      rw [neg_sq, sq]; exact mul_le_mul_of_nonneg_right hq (by positivity)
    have h6 : 0.693 * (30 * uu) * (1 - 1 / 10 ^ 10) ≤ Real.log 2 * ε * (1 - 1 / 10 ^ 10) :=
      mul_le_mul_of_nonneg_right (by rw [← hε]; exact hq0) (by norm_num)
    have h7 : 20.7 * uu ≤ 0.693 * (30 * uu) * (1 - 1 / 10 ^ 10) := by norm_num; linarith only [hu]
    generalize Real.log 2 * ε = z at *
    linarith only [h4, h5, h6, h7]
  rw [e1] at hc
  unfold LibmClose at hc
  have h6 := (abs_le.mp hc).2
  rw [abs_of_pos (by positivity), show (2 : ℝ) ^ (-51 : ℤ) = 4 * uu by unfold uu; norm_num] at h6
  have h7 := lib_tiny
  have h8 : (1 : ℝ) / 10 ^ 200 ≤ 1 := by norm_num
  have h9 : (2 : ℝ) ^ 60 * Real.exp (-(Real.log 2 * ε)) * (1 + 4 * uu) ≤ 2 ^ 60 * (1 - 20.7 * uu) * (1 + 4 * uu) :=
    mul_le_mul_of_nonneg_right (mul_le_mul_of_nonneg_left hx2 (by norm_num)) (by positivity)
  have h10 : (2 : ℝ) ^ 60 * (1 - 20.7 * uu) * (1 + 4 * uu) + 1 ≤ 2 ^ 60 - 2048 := by unfold uu; norm_num
  generalize (1 : ℝ) / 10 ^ 200 = q at *
  generalize (2 : ℝ) ^ (-1074 : ℤ) = q' at *
  generalize (2 : ℝ) ^ 60 = Z at *
  linarith only [h6, h7, h8, h9, h10]

/-- the hypotheses are met: the cube root of 27, and of `2 ^ 90` -/
example : IsF64 ((3 : ℝ) ^ 3) ∧ (1 / 10 ^ 60 : ℝ) ≤ 3 ^ 3 ∧ (3 : ℝ) ^ 3 < 2 ^ 52 ∧ IsF64 (2 ^ 90) ∧ (2 : ℝ) ^ 52 ≤ 2 ^ 90 ∧ (2 : ℝ) ^ 90 ≤ 10 ^ 60 := by
  refine ⟨?_, by norm_num, by norm_num, ?_, by norm_num, by norm_num⟩
  · have := isF64_int (n := 27) (by norm_num)
    norm_num at this ⊢; exact this
  · have := isF64_two_zpow (k := 90) (by norm_num)
    rwa [show (2 : ℝ) ^ (90 : ℤ) = 2 ^ 90 by norm_cast] at this

end Nv
