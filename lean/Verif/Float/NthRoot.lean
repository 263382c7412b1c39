import Verif.Float.Root
import Mathlib.Analysis.SpecialFunctions.Pow.Real
import Mathlib.Analysis.Complex.ExponentialBounds

/-!
# `nthroot` in binary64

`y = x ** (1 / n)` suffers from the rounding of `1 / n`; one Newton step repairs that.
-/

namespace Nv
open Spec F64

variable {B : Binary64}

section
/-! ## Powers of numbers close to one -/

theorem pow_near_one {s : ℝ} {n : ℕ} (s0 : 0 < s) (h : n * |s - 1| ≤ 1) :
    0 ≤ s ^ n - 1 - n * (s - 1) ∧ s ^ n - 1 - n * (s - 1) ≤ (n * (s - 1)) ^ 2 := by
  constructor
  · have := one_add_mul_le_pow (a := s - 1) (by linarith) n
    rw [show 1 + (s - 1) = s by ring] at this
    linarith
  · have h1 : s ≤ Real.exp (s - 1) := by
      have := Real.add_one_le_exp (s - 1)
      linarith
    have h2 : s ^ n ≤ Real.exp (n * (s - 1)) := by
      rw [Real.exp_nat_mul]
      exact pow_le_pow_left₀ s0.le h1 n
    have h3 : |(n : ℝ) * (s - 1)| ≤ 1 := by rw [abs_mul, Nat.abs_cast]; exact h
    have h4 := Real.abs_exp_sub_one_sub_id_le h3
    have := (abs_le.mp h4).2
    linarith

theorem pow_near_one_abs {s : ℝ} {n : ℕ} (s0 : 0 < s) (h : n * |s - 1| ≤ 1 / 1000) : |s ^ n - 1| ≤ 1.001 * (n * |s - 1|) := by
  obtain ⟨h1, h2⟩ := pow_near_one (n := n) s0 (h.trans (by norm_num))
  have e : ((n : ℝ) * (s - 1)) ^ 2 = (n * |s - 1|) ^ 2 := by rw [mul_pow, mul_pow, sq_abs]
  rw [e] at h2
  have h3 : 0 ≤ (n : ℝ) * |s - 1| := by positivity
  have h4 : |(n : ℝ) * (s - 1)| = n * |s - 1| := by rw [abs_mul, Nat.abs_cast]
  have h5 := abs_add_le (s ^ n - 1 - n * (s - 1)) (n * (s - 1))
  rw [show s ^ n - 1 - n * (s - 1) + n * (s - 1) = s ^ n - 1 by ring, abs_of_nonneg h1, h4] at h5
  generalize (n : ℝ) * |s - 1| = q at *
  nlinarith

/-! ## The rounded Newton step -/

/-- the Newton step for a number scaled to one: `c = s ^ n` -/
theorem newton_scaled {ν s c r k δ p d m w q σ : ℝ} (ν1 : 1 ≤ ν) (r0 : 0 ≤ r) (hs : |s - 1| ≤ r) (hr : ν * r ≤ 1 / 10 ^ 6)
    (hc : |c - 1| ≤ 1.001 * (ν * r)) (hc1 : 0 ≤ c - 1 - ν * (s - 1)) (hc2 : c - 1 - ν * (s - 1) ≤ (ν * r) ^ 2)
    (k0 : 0 ≤ k) (hk : k ≤ 4) (hkn : k ≤ 4 / 3 * ν) (δ0 : 0 ≤ δ) (δ1 : δ ≤ 1 / 10 ^ 25)
    (hp : |p - 1| ≤ k * uu + δ) (hd : |d - (p - c)| ≤ uu * |p - c| + δ) (hm : |m - 1| ≤ 4 * uu + δ)
    (hw : |w - m| ≤ uu * |m| + δ) (hq : |q - d / w| ≤ uu * |d / w| + ν * δ) (hσ : |σ - (1 - q / ν)| ≤ uu * |1 - q / ν| + δ) :
    |σ - s| ≤ 2.334 * uu + 10 * δ + 10 * (uu * r) + ν * r ^ 2 := by
  have hu := uu_pos
  have hu1 : uu ≤ 1 / 10 ^ 15 := by unfold uu; norm_num
  have ν0 : 0 < ν := by linarith
  obtain ⟨A, hA⟩ : ∃ A, A = ν * r := ⟨_, rfl⟩
  rw [← hA] at hr hc hc2
  have A0 : 0 ≤ A := by rw [hA]; positivity
  have rA : r ≤ A := by rw [hA]; nlinarith
  have uA0 : 0 ≤ uu * A := mul_nonneg hu.le A0
  have kuu : k * uu ≤ 4 * uu := mul_le_mul_of_nonneg_right hk hu.le
  have uuu : uu * uu ≤ 1 / 10 ^ 15 * uu := mul_le_mul_of_nonneg_right hu1 hu.le
  have uδ : uu * δ ≤ 1 / 10 ^ 15 * δ := mul_le_mul_of_nonneg_right hu1 δ0
  have uuA : uu * (uu * A) ≤ 1 / 10 ^ 15 * (uu * A) := mul_le_mul_of_nonneg_right hu1 uA0
  have kuuu : uu * (k * uu) ≤ 4 / 10 ^ 15 * uu := by
    have := mul_le_mul_of_nonneg_left kuu hu.le
    linarith
  norm_num at hr hc hu1 uuu uδ uuA kuuu δ1
  -- d
  have g1 : |p - c| ≤ k * uu + δ + 1.001 * A := by
    have := abs_sub (p - 1) (c - 1)
    rw [show p - 1 - (c - 1) = p - c by ring] at this
    norm_num
    linarith
  have g2 := mul_le_mul_of_nonneg_left g1 hu.le
  have hd2 : |d - (1 - c)| ≤ k * uu + 4 / 10 ^ 15 * uu + 2.001 * δ + 1.001 * (uu * A) := by
    have := abs_add_le (d - (p - c)) (p - 1)
    rw [show d - (p - c) + (p - 1) = d - (1 - c) by ring] at this
    norm_num at g2 ⊢
    linarith
  -- w
  have m1 : |m| ≤ 1 + 4 * uu + δ := by
    have := abs_sub_abs_le_abs_sub m 1
    rw [abs_one] at this
    linarith
  have m2 := mul_le_mul_of_nonneg_left m1 hu.le
  have hw2 : |w - 1| ≤ 5.001 * uu + 2.001 * δ := by
    have := abs_add_le (w - m) (m - 1)
    rw [show w - m + (m - 1) = w - 1 by ring] at this
    norm_num
    linarith
  have w1 := abs_le.mp hw2
  have w9 : 1 - 1 / 10 ^ 10 ≤ w := by norm_num at w1 ⊢; linarith
  have w0 : 0 < w := by norm_num at w9; linarith
  -- d / w
  have hdw : |d / w - (1 - c)| ≤ k * uu + 1 / 10 ^ 9 * uu + 2.01 * δ + 6.1 * (uu * A) := by
    have e : d / w - (1 - c) = ((d - (1 - c)) - (1 - c) * (w - 1)) / w := by field_simp; ring
    rw [e, abs_div, abs_of_pos w0, div_le_iff₀ w0]
    have t1 := abs_sub (d - (1 - c)) ((1 - c) * (w - 1))
    have t2 : |(1 - c) * (w - 1)| ≤ 1.001 * A * (5.001 * uu + 2.001 * δ) := by
      rw [abs_mul, abs_sub_comm 1 c]
      exact mul_le_mul (by norm_num; exact hc) hw2 (abs_nonneg _) (by norm_num; positivity)
    have t3 : A * δ ≤ 1 / 10 ^ 6 * δ := mul_le_mul_of_nonneg_right (by norm_num; exact hr) δ0
    have t4 : (k * uu + 1 / 10 ^ 9 * uu + 2.01 * δ + 6.1 * (uu * A)) * (1 - 1 / 10 ^ 10) ≤ (k * uu + 1 / 10 ^ 9 * uu + 2.01 * δ + 6.1 * (uu * A)) * w :=
      mul_le_mul_of_nonneg_left w9 (by positivity)
    generalize |(1 - c) * (w - 1)| = T at *
    norm_num at t2 t3 t4 hd2 ⊢
    linarith only [t1, t2, t3, t4, hd2, kuu, δ0, uA0, hu]
  have hdw1 : |d / w| ≤ 1.001 * A + (k * uu + 1 / 10 ^ 9 * uu + 2.01 * δ + 6.1 * (uu * A)) := by
    have := abs_add_le (d / w - (1 - c)) (1 - c)
    rw [show d / w - (1 - c) + (1 - c) = d / w by ring, abs_sub_comm 1 c] at this
    norm_num at hdw ⊢
    linarith only [this, hc, hdw]
  have hdw2 := mul_le_mul_of_nonneg_left hdw1 hu.le
  -- q
  have νδ : δ ≤ ν * δ := le_mul_of_one_le_left δ0 ν1
  have hq2 : |q - (1 - c)| ≤ k * uu + 2 / 10 ^ 9 * uu + 3.1 * (ν * δ) + 7.2 * (uu * A) := by
    have := abs_add_le (q - d / w) (d / w - (1 - c))
    rw [show q - d / w + (d / w - (1 - c)) = q - (1 - c) by ring] at this
    norm_num at hdw hdw2 ⊢
    linarith only [this, hdw, hdw2, hq, kuuu, uuu, uδ, uuA, νδ, hu, δ0, uA0]
  -- the sum
  have z1 : |(1 - q / ν) - s| ≤ 4 / 3 * uu + 2 / 10 ^ 9 * uu + 3.1 * δ + 7.2 * (uu * r) + ν * r ^ 2 := by
    have e : (1 - q / ν) - s = ((c - 1 - ν * (s - 1)) - (q - (1 - c))) / ν := by field_simp; ring
    rw [e, abs_div, abs_of_pos ν0, div_le_iff₀ ν0]
    have t1 := abs_sub (c - 1 - ν * (s - 1)) (q - (1 - c))
    rw [abs_of_nonneg hc1] at t1
    have t2 : k * uu ≤ 4 / 3 * ν * uu := mul_le_mul_of_nonneg_right hkn hu.le
    have t3 : uu ≤ ν * uu := le_mul_of_one_le_left hu.le ν1
    rw [hA] at hq2 hc2
    norm_num at hq2 ⊢
    linarith only [t1, hc2, hq2, t2, t3]
  have r1 : ν * r ^ 2 ≤ 1 / 10 ^ 6 := by
    rw [sq, ← mul_assoc, ← hA]
    have : A * r ≤ 1 / 10 ^ 6 * 1 := mul_le_mul (by norm_num; exact hr) (by linarith) r0 (by norm_num)
    linarith
  have ur : 0 ≤ uu * r := mul_nonneg hu.le r0
  have ur2 : uu * r ≤ 1 / 10 ^ 15 * r := mul_le_mul_of_nonneg_right (by norm_num; exact hu1) r0
  have z2 : |1 - q / ν| ≤ 1 + r + (4 / 3 * uu + 2 / 10 ^ 9 * uu + 3.1 * δ + 7.2 * (uu * r) + ν * r ^ 2) := by
    have := abs_add_le ((1 - q / ν) - s) s
    rw [show (1 - q / ν) - s + s = 1 - q / ν by ring] at this
    have := abs_sub_abs_le_abs_sub s 1
    rw [abs_one] at this
    linarith
  have z3 : |1 - q / ν| ≤ 1 + 3 / 10 ^ 6 := by
    norm_num at z2 r1 ur2 ⊢
    linarith only [z2, r1, ur2, hr, rA, hu1, δ1]
  have z4 := mul_le_mul_of_nonneg_left z3 hu.le
  have := abs_add_le (σ - (1 - q / ν)) ((1 - q / ν) - s)
  rw [show σ - (1 - q / ν) + ((1 - q / ν) - s) = σ - s by ring] at this
  norm_num at z1 z4 ⊢
  linarith only [this, hσ, z1, z4, hu, δ0, ur]

/-- one Newton step with rounding errors, from a start `y` with relative error `r` -/
theorem newton_flt {n : ℕ} (n1 : 1 ≤ n) {y t r k δ τ P D M N Q S : ℝ} (y0 : 0 < y) (t0 : 0 < t) (r0 : 0 ≤ r) (hs : |t / y - 1| ≤ r)
    (hr : n * r ≤ 1 / 10 ^ 6)
    (k0 : 0 ≤ k) (hk : k ≤ 4) (hkn : k ≤ 4 / 3 * n) (δ0 : 0 ≤ δ) (δ1 : δ ≤ 1 / 10 ^ 25) (τ1 : τ ≤ δ * y) (τ2 : τ ≤ δ * y ^ n)
    (τ3 : τ ≤ δ * y ^ (n - 1))
    (hP : |P - y ^ n| ≤ k * uu * y ^ n + τ) (hD : |D - (P - t ^ n)| ≤ uu * |P - t ^ n| + τ) (hM : |M - y ^ (n - 1)| ≤ 4 * uu * y ^ (n - 1) + τ)
    (hN : |N - n * M| ≤ uu * |n * M| + τ) (hQ : |Q - D / N| ≤ uu * |D / N| + τ) (hS : |S - (y - Q)| ≤ uu * |y - Q| + τ) :
    |S - t| ≤ (2.334 * uu + 10 * δ + 10 * (uu * r) + n * r ^ 2) * y := by
  have ν1 : (1 : ℝ) ≤ n := by exact_mod_cast n1
  have ν0 : (0 : ℝ) < n := by linarith
  have s0 : 0 < t / y := div_pos t0 y0
  have Y0 : 0 < y ^ n := by positivity
  have Z0 : 0 < y ^ (n - 1) := by positivity
  have hYZ : y ^ n = y * y ^ (n - 1) := by
    rw [← pow_succ', Nat.sub_add_cancel n1]
  have hns : (n : ℝ) * |t / y - 1| ≤ n * r := mul_le_mul_of_nonneg_left hs ν0.le
  have c1 := pow_near_one (n := n) s0 (hns.trans (hr.trans (by norm_num)))
  have c2 := pow_near_one_abs (n := n) s0 (hns.trans (hr.trans (by norm_num)))
  have e2 : ((n : ℝ) * (t / y - 1)) ^ 2 ≤ (n * r) ^ 2 := by
    rw [mul_pow, mul_pow, ← sq_abs (t / y - 1)]
    exact mul_le_mul_of_nonneg_left (pow_le_pow_left₀ (abs_nonneg _) hs 2) (by positivity)
  have hc : (t / y) ^ n = t ^ n / y ^ n := div_pow t y n
  have key := newton_scaled (ν := n) (s := t / y) (c := (t / y) ^ n) (r := r) (k := k) (δ := δ) (p := P / y ^ n) (d := D / y ^ n)
    (m := M / y ^ (n - 1)) (w := N / (n * y ^ (n - 1))) (q := n * Q / y) (σ := S / y) ν1 r0 hs hr
    (c2.trans (mul_le_mul_of_nonneg_left hns (by norm_num))) c1.1 (c1.2.trans e2) k0 hk hkn δ0 δ1 ?_ ?_ ?_ ?_ ?_ ?_
  · have e : S / y - t / y = (S - t) / y := by ring
    rw [e, abs_div, abs_of_pos y0, div_le_iff₀ y0] at key
    exact key
  · have e : P / y ^ n - 1 = (P - y ^ n) / y ^ n := by field_simp
    rw [e, abs_div, abs_of_pos Y0, div_le_iff₀ Y0]
    linarith
  · have e : D / y ^ n - (P / y ^ n - (t / y) ^ n) = (D - (P - t ^ n)) / y ^ n := by rw [hc]; ring
    have e' : P / y ^ n - (t / y) ^ n = (P - t ^ n) / y ^ n := by rw [hc]; ring
    rw [e, e', abs_div, abs_div, abs_of_pos Y0, div_le_iff₀ Y0, add_mul, mul_assoc, div_mul_cancel₀ _ Y0.ne']
    linarith
  · have e : M / y ^ (n - 1) - 1 = (M - y ^ (n - 1)) / y ^ (n - 1) := by field_simp
    rw [e, abs_div, abs_of_pos Z0, div_le_iff₀ Z0]
    linarith
  · have W0 : 0 < n * y ^ (n - 1) := by positivity
    have e : N / (n * y ^ (n - 1)) - M / y ^ (n - 1) = (N - n * M) / (n * y ^ (n - 1)) := by field_simp
    have e' : M / y ^ (n - 1) = n * M / (n * y ^ (n - 1)) := by field_simp
    rw [e, e', abs_div, abs_div, abs_of_pos W0, div_le_iff₀ W0, add_mul, mul_assoc, div_mul_cancel₀ _ W0.ne']
    have : y ^ (n - 1) ≤ n * y ^ (n - 1) := le_mul_of_one_le_left Z0.le ν1
    have := mul_le_mul_of_nonneg_left this δ0
    linarith
  · have e' : D / y ^ n / (N / (n * y ^ (n - 1))) = D / N * (n / y) := by
      rw [hYZ, div_div_div_eq]; field_simp
    have e : n * Q / y - D / N * (n / y) = (Q - D / N) * (n / y) := by ring
    have f0 : (0 : ℝ) < n / y := by positivity
    rw [e', e, abs_mul, abs_mul, abs_of_pos f0]
    have := mul_le_mul_of_nonneg_right hQ f0.le
    refine this.trans ?_
    have t1 : τ * (n / y) ≤ δ * y * (n / y) := mul_le_mul_of_nonneg_right τ1 f0.le
    have t2 : δ * y * (n / y) = n * δ := by field_simp
    rw [add_mul]
    linarith
  · have e' : 1 - n * Q / y / n = (y - Q) / y := by field_simp
    have e : S / y - (y - Q) / y = (S - (y - Q)) / y := by ring
    rw [e', e, abs_div, abs_div, abs_of_pos y0, div_le_iff₀ y0, add_mul, mul_assoc, div_mul_cancel₀ _ y0.ne']
    linarith

/-! ## The start -/

theorem log_le_139 {x : ℝ} (x0 : 0 < x) (h1 : 1 / 10 ^ 60 ≤ x) (h2 : x ≤ 10 ^ 60) : |Real.log x| ≤ 139 := by
  have he : (10 : ℝ) ^ 60 ≤ Real.exp 139 := by
    have h := Real.exp_one_gt_d9
    have : Real.exp 139 = Real.exp 1 ^ 139 := by rw [← Real.exp_nat_mul]; norm_num
    rw [this]
    calc (10 : ℝ) ^ 60 ≤ 2.7182818283 ^ 139 := by norm_num
      _ ≤ _ := pow_le_pow_left₀ (by norm_num) h.le _
  rw [abs_le]
  constructor
  · rw [Real.le_log_iff_exp_le x0, Real.exp_neg]
    refine le_trans ?_ h1
    rw [one_div]
    exact inv_anti₀ (by norm_num) he
  · rw [Real.log_le_iff_le_exp x0]
    exact h2.trans he

theorem root_range {x : ℝ} {n : ℕ} (n1 : 1 ≤ n) (h1 : 1 / 10 ^ 60 ≤ x) (h2 : x ≤ 10 ^ 60) :
    0 < x ^ ((1 : ℝ) / n) ∧ (x ^ ((1 : ℝ) / n)) ^ n = x ∧ 1 / 10 ^ 60 ≤ x ^ ((1 : ℝ) / n) ∧ x ^ ((1 : ℝ) / n) ≤ 10 ^ 60 ∧
      1 / 10 ^ 60 ≤ (x ^ ((1 : ℝ) / n)) ^ (n - 1) ∧ (x ^ ((1 : ℝ) / n)) ^ (n - 1) ≤ 10 ^ 60 := by
  have x0 : 0 < x := lt_of_lt_of_le (by norm_num) h1
  have hn : (n : ℝ) ≠ 0 := by exact_mod_cast (by omega : n ≠ 0)
  have t0 : 0 < x ^ ((1 : ℝ) / n) := Real.rpow_pos_of_pos x0 _
  have tn : (x ^ ((1 : ℝ) / n)) ^ n = x := by
    rw [← Real.rpow_natCast, ← Real.rpow_mul x0.le, one_div, inv_mul_cancel₀ hn, Real.rpow_one]
  have hd : (0 : ℝ) ≤ 1 / n := by positivity
  refine ⟨t0, tn, ?_⟩
  obtain ⟨t, ht⟩ : ∃ t, t = x ^ ((1 : ℝ) / n) := ⟨_, rfl⟩
  rcases le_total 1 x with hx | hx
  · have t1 : 1 ≤ x ^ ((1 : ℝ) / n) := Real.one_le_rpow hx hd
    rw [← ht] at t1 tn t0 ⊢
    have p1 : t ≤ t ^ n := le_self_pow₀ t1 (by omega)
    have p2 : t ^ (n - 1) ≤ t ^ n := pow_le_pow_right₀ t1 (by omega)
    have p3 : 1 ≤ t ^ (n - 1) := one_le_pow₀ t1
    rw [tn] at p1 p2
    refine ⟨le_trans (by norm_num) t1, p1.trans h2, le_trans (by norm_num) p3, p2.trans h2⟩
  · have t1 : x ^ ((1 : ℝ) / n) ≤ 1 := Real.rpow_le_one x0.le hx hd
    rw [← ht] at t1 tn t0 ⊢
    have p1 : t ^ n ≤ t := pow_le_of_le_one t0.le t1 (by omega)
    have p2 : t ^ n ≤ t ^ (n - 1) := pow_le_pow_of_le_one t0.le t1 (by omega)
    have p3 : t ^ (n - 1) ≤ 1 := pow_le_one₀ t0.le t1
    rw [tn] at p1 p2
    refine ⟨h1.trans p1, t1.trans (by norm_num), h1.trans p2, p3.trans (by norm_num)⟩

theorem lib_tiny : (2 : ℝ) ^ (-1074 : ℤ) ≤ 1 / 10 ^ 200 := by
  calc (2 : ℝ) ^ (-1074 : ℤ) ≤ 2 ^ (-700 : ℤ) := zpow_le_zpow_right₀ (by norm_num) (by norm_num)
    _ = (2 ^ (-100 : ℤ)) ^ 7 := by rw [← zpow_natCast, ← zpow_mul]; norm_num
    _ ≤ (1 / 10 ^ 30) ^ 7 := pow_le_pow_left₀ (by positivity) (by norm_num) 7
    _ ≤ _ := by norm_num

/-- `x ** (1 / n)`: the error of the library and of the rounded exponent -/
theorem root_start {x : ℝ} {n : ℕ} (n1 : 1 ≤ n) (n2 : n ≤ 10 ^ 6) (h1 : 1 / 10 ^ 60 ≤ x) (h2 : x ≤ 10 ^ 60) :
    |B.pow x (B.fl (1 / n)) - x ^ ((1 : ℝ) / n)| ≤ (4.01 + 139.01 / n) * uu * x ^ ((1 : ℝ) / n) := by
  have hu := uu_pos
  have x0 : 0 < x := lt_of_lt_of_le (by norm_num) h1
  have ν1 : (1 : ℝ) ≤ n := by exact_mod_cast n1
  have ν2 : (n : ℝ) ≤ 10 ^ 6 := by exact_mod_cast n2
  have ν0 : (0 : ℝ) < n := by linarith
  obtain ⟨t0, -, t1, -⟩ := root_range n1 h1 h2
  obtain ⟨t, ht⟩ : ∃ t, t = x ^ ((1 : ℝ) / n) := ⟨_, rfl⟩
  rw [← ht] at t0 t1 ⊢
  have hd : 0 < (1 : ℝ) / n := by positivity
  have hd6 : (1 : ℝ) / 10 ^ 6 ≤ 1 / n := one_div_le_one_div_of_le ν0 ν2
  have hh : |B.fl (1 / n) - 1 / n| ≤ (1 + 1 / 10 ^ 6) * uu * (1 / n) := by
    refine (B.rounds.err_add (1 / n)).trans ?_
    rw [abs_of_pos hd]
    have e1 := eta_small
    have e2 : (1 : ℝ) / 10 ^ 60 ≤ 1 / 10 ^ 6 * uu * (1 / 10 ^ 6) := by unfold uu; norm_num
    have e3 : 1 / 10 ^ 6 * uu * (1 / 10 ^ 6) ≤ 1 / 10 ^ 6 * uu * (1 / n) := mul_le_mul_of_nonneg_left hd6 (by positivity)
    linarith
  obtain ⟨h, hhd⟩ : ∃ h, h = B.fl (1 / n) - 1 / n := ⟨_, rfl⟩
  rw [← hhd] at hh
  have e1 : x ^ (B.fl (1 / n)) = t * x ^ h := by
    rw [ht, ← Real.rpow_add x0, hhd]; congr 1; ring
  have hlog := log_le_139 x0 h1 h2
  have hdu : 0 < uu * (1 / n) := by positivity
  have hdu1 : uu * (1 / n) ≤ uu * 1 := mul_le_mul_of_nonneg_left (by rw [div_le_one ν0]; exact ν1) hu.le
  have hu1 : uu ≤ 1 / 10 ^ 15 := by unfold uu; norm_num
  have hz : |Real.log x * h| ≤ 139.0002 * (uu * (1 / n)) := by
    rw [abs_mul]
    refine (mul_le_mul hlog hh (abs_nonneg _) (by norm_num)).trans ?_
    norm_num at hdu ⊢
    linarith
  have hz1 : |Real.log x * h| ≤ 1 / 10 ^ 10 := by norm_num at hz hdu1 hu1 ⊢; linarith
  have hxh : |x ^ h - 1| ≤ 139.0003 * (uu * (1 / n)) := by
    rw [Real.rpow_def_of_pos x0]
    have := Real.abs_exp_sub_one_sub_id_le (x := Real.log x * h) (hz1.trans (by norm_num))
    have s1 : (Real.log x * h) ^ 2 ≤ 1 / 10 ^ 10 * |Real.log x * h| := by
      rw [← sq_abs, sq]; exact mul_le_mul_of_nonneg_right hz1 (abs_nonneg _)
    have s2 := abs_add_le (Real.exp (Real.log x * h) - 1 - Real.log x * h) (Real.log x * h)
    rw [show Real.exp (Real.log x * h) - 1 - Real.log x * h + Real.log x * h = Real.exp (Real.log x * h) - 1 by ring] at s2
    generalize |Real.log x * h| = q at *
    norm_num at hz s1 hdu ⊢
    linarith
  have e2 : |t * x ^ h - t| ≤ 139.0003 * (uu * (1 / n)) * t := by
    rw [show t * x ^ h - t = (x ^ h - 1) * t by ring, abs_mul, abs_of_pos t0]
    exact mul_le_mul_of_nonneg_right hxh t0.le
  have hxh1 : |x ^ h| ≤ 1 + 1 / 10 ^ 9 := by
    have := abs_sub_abs_le_abs_sub (x ^ h) 1
    rw [abs_one] at this
    norm_num at hxh hdu1 hu1 ⊢
    linarith
  have e4 := B.pow_close x (B.fl (1 / n)) x0.le
  unfold LibmClose at e4
  rw [e1, show (2 : ℝ) ^ (-51 : ℤ) = 4 * uu by unfold uu; norm_num, abs_mul, abs_of_pos t0] at e4
  have l1 := lib_tiny
  have e5 : 4 * uu * (t * |x ^ h|) ≤ 4 * uu * (t * (1 + 1 / 10 ^ 9)) :=
    mul_le_mul_of_nonneg_left (mul_le_mul_of_nonneg_left hxh1 t0.le) (by positivity)
  have e6 : (1 : ℝ) / 10 ^ 200 ≤ 1 / 10 ^ 9 * uu * (1 / 10 ^ 60) := by unfold uu; norm_num
  have e7 : 1 / 10 ^ 9 * uu * (1 / 10 ^ 60) ≤ 1 / 10 ^ 9 * uu * t := mul_le_mul_of_nonneg_left t1 (by positivity)
  have := abs_add_le (B.pow x (B.fl (1 / n)) - t * x ^ h) (t * x ^ h - t)
  rw [show B.pow x (B.fl (1 / n)) - t * x ^ h + (t * x ^ h - t) = B.pow x (B.fl (1 / n)) - t by ring] at this
  have f1 : (4.01 + 139.01 / (n : ℝ)) * uu * t = 4.01 * (uu * t) + 139.01 * (uu * (1 / n) * t) := by ring
  have f2 : 0 < uu * t := by positivity
  have f3 : 0 < uu * (1 / n) * t := by positivity
  rw [f1]
  generalize (1 : ℝ) / 10 ^ 200 = ε at *
  generalize (2 : ℝ) ^ (-1074 : ℤ) = ε' at *
  norm_num at this e2 e4 e5 e7 e6 f3 ⊢
  linarith only [this, e2, e4, e5, e6, e7, l1, f2, f3]

/-! ## Powers -/

/-- `y ** n` of numpy for natural `n ≥ 1` -/
theorem powNat_flt {y : ℝ} {n : ℕ} (hy : IsF64 y) (y0 : 0 ≤ y) (hb : y ^ n ≤ 10 ^ 60) :
    ∃ (P k : ℝ), (powNat (fin y) n : F64 B) = fin P ∧ IsF64 P ∧ 0 ≤ k ∧ k ≤ 4 ∧ (1 ≤ n → k ≤ 4 / 3 * n) ∧ |P - y ^ n| ≤ k * uu * y ^ n + 1 / 10 ^ 200 := by
  match n with
  | 0 => exact ⟨1, 0, by rw [powNat, lit_one], isF64_one, le_rfl, by norm_num, by norm_num, by norm_num⟩
  | 1 => exact ⟨y, 0, rfl, hy, le_rfl, by norm_num, by norm_num, by norm_num⟩
  | 2 =>
    refine ⟨B.fl (y * y), 1, ?_, B.rounds.val _, by norm_num, by norm_num, by norm_num, ?_⟩
    · refine fin_mul (B := B) (x := y) (y := y) ?_
      rw [← sq, abs_of_nonneg (by positivity)]; exact hb
    · rw [sq]
      have := B.rounds.err_add (y * y)
      rw [abs_of_nonneg (mul_self_nonneg y)] at this
      have h := eta_tiny
      generalize (1 : ℝ) / 10 ^ 200 = ε at *
      linarith
  | n + 3 =>
    obtain ⟨h1, h2, h3⟩ := fin_powi (B := B) y0 hb
    refine ⟨_, 4, h1, h2, by norm_num, le_rfl, fun _ => ?_, h3⟩
    push_cast
    have : (0 : ℝ) ≤ n := Nat.cast_nonneg n
    linarith

/-! ## The root -/

theorem eps_lit : (lit EPS : F64 B) = fin (2 ^ (-52 : ℤ)) := by
  have e : ((EPS : ℚ) : ℝ) = 2 ^ (-52 : ℤ) := by unfold EPS; norm_num
  rw [fin_lit (by rw [e]; norm_num), e, B.rounds.exact (isF64_two_zpow (by norm_num))]

/-- the test `_EPS * abs(x) < 1` -/
theorem eps_test {x : ℝ} (hx : IsF64 x) (h1 : 0 < x) (h2 : x ≤ 10 ^ 60) :
    (!(PyFloat.eq (fin x : F64 B) (lit 0)) && PyFloat.lt (lit EPS * PyFloat.abs (fin x) : F64 B) (lit 1)) = decide (x < 2 ^ 52) := by
  have hb : |(2 : ℝ) ^ (-52 : ℤ) * x| ≤ 10 ^ 60 := by
    rw [abs_of_pos (by positivity)]
    refine le_trans (mul_le_of_le_one_left h1.le ?_) h2
    norm_num
  rw [lit_zero, lit_one, fin_eq, fin_abs, abs_of_pos h1, eps_lit, fin_mul hb, fin_lt]
  rw [decide_eq_false h1.ne', Bool.not_false, Bool.true_and, decide_eq_decide]
  constructor
  · intro h
    by_contra hn
    push Not at hn
    have : 1 ≤ B.fl ((2 : ℝ) ^ (-52 : ℤ) * x) := by
      refine B.rounds.ge isF64_one ?_
      calc (1 : ℝ) = 2 ^ (-52 : ℤ) * 2 ^ 52 := by norm_num
        _ ≤ _ := mul_le_mul_of_nonneg_left hn (by positivity)
    linarith
  · intro h
    have hx2 : x ≤ 2 ^ 52 - 1 / 2 := by
      obtain ⟨m, e, hm, -, rfl⟩ := hx
      rcases le_or_gt e (-2) with he | he
      · have h3 : (2 : ℝ) ^ e ≤ 2 ^ (-2 : ℤ) := zpow_le_zpow_right₀ (by norm_num) he
        have h4 : (m : ℝ) < 2 ^ 53 := by exact_mod_cast (abs_lt.mp hm).2
        calc (m : ℝ) * 2 ^ e ≤ 2 ^ 53 * 2 ^ (-2 : ℤ) := mul_le_mul h4.le h3 (by positivity) (by positivity)
          _ ≤ _ := by norm_num
      · obtain ⟨j, hj⟩ : ∃ j : ℕ, e = -1 + j := ⟨(e + 1).toNat, by omega⟩
        have e2 : (m : ℝ) * 2 ^ e = ((m * 2 ^ j : ℤ) : ℝ) / 2 := by
          rw [hj, zpow_add₀ (by norm_num), zpow_natCast]
          push_cast
          norm_num
          ring
        rw [e2] at h ⊢
        have h5 : ((m * 2 ^ j : ℤ) : ℝ) < ((2 ^ 53 : ℤ) : ℝ) := by push_cast at h ⊢; linarith
        have h6 : m * 2 ^ j ≤ 2 ^ 53 - 1 := by have := Int.cast_lt.mp h5; omega
        have h7 : ((m * 2 ^ j : ℤ) : ℝ) ≤ ((2 ^ 53 - 1 : ℤ) : ℝ) := Int.cast_le.mpr h6
        push_cast at h7 ⊢
        linarith
    have h8 : IsF64 (1 - 2 ^ (-53 : ℤ)) := ⟨2 ^ 53 - 1, -53, by norm_num, by norm_num, by norm_num⟩
    have : B.fl ((2 : ℝ) ^ (-52 : ℤ) * x) ≤ 1 - 2 ^ (-53 : ℤ) := by
      refine B.rounds.le h8 ?_
      calc (2 : ℝ) ^ (-52 : ℤ) * x ≤ 2 ^ (-52 : ℤ) * (2 ^ 52 - 1 / 2) := mul_le_mul_of_nonneg_left hx2 (by positivity)
        _ ≤ _ := by norm_num
    refine lt_of_le_of_lt this ?_
    norm_num

theorem rootn_flt {x : ℝ} (h : 0 ≤ x) (n : ℕ) : (PyFloat.rootn n (fin x) : F64 B) = fin (B.pow x (B.fl (1 / n))) :=
  if_neg (not_lt.mpr h)

/-- from `2 ^ 52` on there is no Newton step -/
theorem nthroot_large {x : ℝ} (hx : IsF64 x) (h1 : 2 ^ 52 ≤ x) (h2 : x ≤ 10 ^ 60) (n : ℕ) :
    nthroot (fin x : F64 B) n = fin (B.pow x (B.fl (1 / n))) := by
  have x0 : 0 < x := lt_of_lt_of_le (by norm_num) h1
  unfold nthroot
  dsimp only
  rw [eps_test hx x0 h2, decide_eq_false (not_lt.mpr h1)]
  rw [rootn_flt x0.le]
  rfl

set_option maxHeartbeats 1600000 in
/-- the computed root -/
theorem nthroot_flt {x : ℝ} {n : ℕ} (hx : IsF64 x) (n1 : 1 ≤ n) (n2 : n ≤ 10 ^ 6) (h1 : 1 / 10 ^ 60 ≤ x) (h2 : x < 2 ^ 52) :
    ∃ S : ℝ, nthroot (fin x : F64 B) n = fin S ∧ IsF64 S ∧ |S - x ^ ((1 : ℝ) / n)| ≤ 2.336 * uu * x ^ ((1 : ℝ) / n) := by
  have hu := uu_pos
  have hu1 : uu ≤ 1 / 10 ^ 15 := by unfold uu; norm_num
  have x0 : 0 < x := lt_of_lt_of_le (by norm_num) h1
  have h60 : x ≤ 10 ^ 60 := h2.le.trans (by norm_num)
  have ν1 : (1 : ℝ) ≤ n := by exact_mod_cast n1
  have ν2 : (n : ℝ) ≤ 10 ^ 6 := by exact_mod_cast n2
  have ν0 : (0 : ℝ) < n := by linarith
  obtain ⟨t0, tn, t1, t2, t3, t4⟩ := root_range n1 h1 h60
  have hst := root_start (B := B) n1 n2 h1 h60
  have hyF : IsF64 (B.pow x (B.fl (1 / n))) := B.pow_val _ _
  have hroot := rootn_flt (B := B) x0.le n
  obtain ⟨y, hyd⟩ : ∃ y, y = B.pow x (B.fl (1 / n)) := ⟨_, rfl⟩
  rw [← hyd] at hst hyF hroot
  obtain ⟨t, ht⟩ : ∃ t, t = x ^ ((1 : ℝ) / n) := ⟨_, rfl⟩
  rw [← ht] at t0 tn t1 t2 t3 t4 hst ⊢
  -- the start
  have hr0 : (4.01 + 139.01 / (n : ℝ)) * uu ≤ 143.1 * uu := by
    refine mul_le_mul_of_nonneg_right ?_ hu.le
    have : 139.01 / (n : ℝ) ≤ 139.01 := div_le_self (by norm_num) ν1
    norm_num at this ⊢
    linarith
  have hst2 : |y - t| ≤ 143.1 * uu * t := hst.trans (mul_le_mul_of_nonneg_right hr0 t0.le)
  have hcu : 143.1 * uu ≤ 1 / 10 ^ 12 := by unfold uu; norm_num
  have hyt := abs_le.mp hst2
  have hct := mul_le_mul_of_nonneg_right hcu t0.le
  have yl : (1 - 1 / 10 ^ 12) * t ≤ y := by linarith
  have yu : y ≤ (1 + 1 / 10 ^ 12) * t := by linarith
  have y0 : 0 < y := lt_of_lt_of_le (mul_pos (by norm_num) t0) yl
  have hs : |t / y - 1| ≤ 143.2 * uu := by
    rw [show t / y - 1 = -((y - t) / y) by field_simp; ring, abs_neg, abs_div, abs_of_pos y0, div_le_iff₀ y0]
    refine hst2.trans ?_
    have : 143.2 * uu * ((1 - 1 / 10 ^ 12) * t) ≤ 143.2 * uu * y := mul_le_mul_of_nonneg_left yl (by positivity)
    have f : 0 < uu * t := by positivity
    norm_num at this ⊢
    linarith
  have hnr : n * (143.2 * uu) ≤ 1 / 10 ^ 7 := by
    calc (n : ℝ) * (143.2 * uu) ≤ 10 ^ 6 * (143.2 * uu) := mul_le_mul_of_nonneg_right ν2 (by positivity)
      _ ≤ _ := by unfold uu; norm_num
  have hns : (n : ℝ) * |t / y - 1| ≤ 1 / 10 ^ 7 := (mul_le_mul_of_nonneg_left hs ν0.le).trans hnr
  -- powers of `y` are close to powers of `t`
  have hpow : ∀ j : ℕ, j ≤ n → t ^ j ≤ 2 * y ^ j ∧ y ^ j ≤ 2 * t ^ j := by
    intro j hj
    have hjn : (j : ℝ) * |t / y - 1| ≤ 1 / 10 ^ 7 :=
      (mul_le_mul_of_nonneg_right (by exact_mod_cast hj) (abs_nonneg _)).trans hns
    have c := pow_near_one_abs (n := j) (div_pos t0 y0) (hjn.trans (by norm_num))
    have c' := abs_le.mp (c.trans (mul_le_mul_of_nonneg_left hjn (by norm_num)))
    rw [div_pow] at c'
    have Y0 : 0 < y ^ j := by positivity
    have d1 : t ^ j / y ^ j ≤ 2 := by have := c'.2; norm_num at this ⊢; linarith
    have d2 : 1 / 2 ≤ t ^ j / y ^ j := by have := c'.1; norm_num at this ⊢; linarith
    rw [div_le_iff₀ Y0] at d1
    rw [le_div_iff₀ Y0] at d2
    exact ⟨d1, by linarith⟩
  obtain ⟨pn1, pn2⟩ := hpow n le_rfl
  obtain ⟨pm1, pm2⟩ := hpow (n - 1) (by omega)
  rw [tn] at pn1 pn2
  -- in `nthroot` everything is well below `10 ^ 60`
  have x52 : x ≤ 10 ^ 16 := h2.le.trans (by norm_num)
  have t52 : t ^ (n - 1) ≤ 10 ^ 16 ∧ t ≤ 10 ^ 16 := by
    rcases le_total 1 t with h | h
    · have p2 : t ^ (n - 1) ≤ t ^ n := pow_le_pow_right₀ h (by omega)
      have p1 : t ≤ t ^ n := le_self_pow₀ h (by omega)
      rw [tn] at p2 p1
      exact ⟨p2.trans x52, p1.trans x52⟩
    · exact ⟨(pow_le_one₀ t0.le h).trans (by norm_num), h.trans (by norm_num)⟩
  have y52 : y ≤ 10 ^ 17 := by have := t52.2; norm_num at this yu ⊢; linarith
  obtain ⟨P, k, hP, fP, k0, k4, kn, bP⟩ := powNat_flt (B := B) (n := n) hyF y0.le (by norm_num at x52 ⊢; linarith)
  obtain ⟨M, k', hM, fM, k0', k4', -, bM⟩ := powNat_flt (B := B) (n := n - 1) hyF y0.le (by have := t52.1; norm_num at this ⊢; linarith)
  obtain ⟨τ, hτ⟩ : ∃ τ : ℝ, τ = 1 / 10 ^ 200 := ⟨_, rfl⟩
  have ητ : eta ≤ τ := by rw [hτ]; exact eta_tiny
  have τ0 : 0 < τ := by rw [hτ]; norm_num
  have τs : τ ≤ 1 / 10 ^ 100 * (1 / 10 ^ 60) := by rw [hτ]; norm_num
  rw [← hτ] at bP bM
  have q1 : 1 / 10 ^ 60 ≤ 2 * y := by norm_num at t1 yl ⊢; linarith
  have q2 : 1 / 10 ^ 60 ≤ 2 * y ^ n := h1.trans pn1
  have q3 : 1 / 10 ^ 60 ≤ 2 * y ^ (n - 1) := t3.trans pm1
  have hτ' : ∀ z : ℝ, 1 / 10 ^ 60 ≤ 2 * z → τ ≤ 1 / 10 ^ 90 * z := by
    intro z hz
    have := mul_le_mul_of_nonneg_left hz (by norm_num : (0 : ℝ) ≤ 1 / 10 ^ 100)
    norm_num at this τs hz ⊢
    linarith
  have Z0 : 0 < y ^ (n - 1) := by positivity
  have Y0 : 0 < y ^ n := by positivity
  have hM2 : |M - y ^ (n - 1)| ≤ 4 * uu * y ^ (n - 1) + τ :=
    bM.trans (by have := mul_le_mul_of_nonneg_right (mul_le_mul_of_nonneg_right k4' hu.le) Z0.le; linarith)
  have hku : k * uu * y ^ n ≤ 1 / 10 * y ^ n := by
    have := mul_le_mul_of_nonneg_right (mul_le_mul_of_nonneg_right k4 hu.le) Y0.le
    have h5 : 4 * uu ≤ 1 / 10 := by unfold uu; norm_num
    have := mul_le_mul_of_nonneg_right h5 Y0.le
    linarith
  have hτY := hτ' _ q2
  have hτZ := hτ' _ q3
  -- D
  have bD1 : |P - x| ≤ 10 ^ 20 := by
    have b := abs_le.mp bP
    rw [abs_le]
    norm_num at x52 hτY ⊢
    constructor <;> linarith
  have hD : (fin P - fin x : F64 B) = fin (B.fl (P - x)) := fin_sub (bD1.trans (by norm_num))
  have bD := B.rounds.err_add (P - x)
  -- N
  have M1 : 1 / 2 * y ^ (n - 1) ≤ M ∧ M ≤ 2 * y ^ (n - 1) := by
    have b := abs_le.mp hM2
    have h5 : 4 * uu ≤ 1 / 10 := by unfold uu; norm_num
    have := mul_le_mul_of_nonneg_right h5 Z0.le
    norm_num at hτZ
    constructor <;> linarith
  have M0 : 0 < M := lt_of_lt_of_le (by positivity) M1.1
  have nM : n * M ≤ 10 ^ 30 := by
    have : n * M ≤ 10 ^ 6 * (2 * (2 * 10 ^ 16)) :=
      mul_le_mul ν2 (M1.2.trans (by have := t52.1; norm_num at this ⊢; linarith)) M0.le (by norm_num)
    exact this.trans (by norm_num)
  have ln : (lit ((n : ℕ) : ℚ) : F64 B) = fin n := by
    have := lit_int (B := B) (n := (n : ℤ)) (by rw [Nat.abs_cast]; omega)
    simpa using this
  have nM0 : 0 < n * M := mul_pos ν0 M0
  have hN : (lit ((n : ℕ) : ℚ) * fin M : F64 B) = fin (B.fl (n * M)) := by
    rw [ln]; exact fin_mul (by rw [abs_of_pos nM0]; exact nM.trans (by norm_num))
  have bN := B.rounds.err_add (n * M)
  have N0 : 1 / 4 * y ^ (n - 1) ≤ B.fl (n * M) := by
    have b := (abs_le.mp bN).1
    rw [abs_of_pos nM0] at b
    have h5 : uu ≤ 1 / 10 := by unfold uu; norm_num
    have h6 := mul_le_mul_of_nonneg_right h5 nM0.le
    have h7 : M ≤ n * M := le_mul_of_one_le_left M0.le ν1
    norm_num at hτZ
    linarith
  have N0' : 0 < B.fl (n * M) := lt_of_lt_of_le (by positivity) N0
  obtain ⟨D, hDd⟩ : ∃ D, D = B.fl (P - x) := ⟨_, rfl⟩
  obtain ⟨N, hNd⟩ : ∃ N, N = B.fl (n * M) := ⟨_, rfl⟩
  rw [← hDd] at hD bD
  rw [← hNd] at hN bN N0 N0'
  -- Q
  have hDb : |D| ≤ 4 * y ^ n := by
    have b1 := abs_sub_abs_le_abs_sub D (P - x)
    have b2 : |P - x| ≤ 3 * y ^ n := by
      have b := abs_le.mp bP
      rw [abs_le]
      norm_num at hτY
      constructor <;> linarith
    have b3 : uu * |P - x| ≤ 1 / 10 * |P - x| := mul_le_mul_of_nonneg_right (by unfold uu; norm_num) (abs_nonneg _)
    norm_num at hτY
    linarith
  have hYZ : y ^ n = y * y ^ (n - 1) := by rw [← pow_succ', Nat.sub_add_cancel n1]
  have hDN : |D / N| ≤ 16 * y := by
    rw [abs_div, abs_of_pos N0', div_le_iff₀ N0']
    refine hDb.trans ?_
    rw [hYZ]
    have := mul_le_mul_of_nonneg_left N0 (by positivity : 0 ≤ 16 * y)
    linarith
  have hDN' : |D / N| ≤ 10 ^ 19 := hDN.trans (by norm_num at y52 ⊢; linarith)
  have hQ : (fin D / fin N : F64 B) = fin (B.fl (D / N)) := fin_div N0'.ne' (hDN'.trans (by norm_num))
  have bQ := B.rounds.err_add (D / N)
  obtain ⟨Q, hQd⟩ : ∃ Q, Q = B.fl (D / N) := ⟨_, rfl⟩
  rw [← hQd] at hQ bQ
  -- S
  have hQb : |y - Q| ≤ 10 ^ 30 := by
    have b1 := abs_sub_abs_le_abs_sub Q (D / N)
    have b2 := abs_sub y Q
    rw [abs_of_pos y0] at b2
    have b3 : uu * |D / N| ≤ 1 * |D / N| := mul_le_mul_of_nonneg_right (by unfold uu; norm_num) (abs_nonneg _)
    have b4 : τ ≤ 1 := by rw [hτ]; norm_num
    norm_num at hDN' y52 ⊢
    linarith
  have hS : (fin y - fin Q : F64 B) = fin (B.fl (y - Q)) := fin_sub (hQb.trans (by norm_num))
  have bS := B.rounds.err_add (y - Q)
  refine ⟨B.fl (y - Q), ?_, B.rounds.val _, ?_⟩
  · unfold nthroot
    dsimp only
    rw [eps_test hx x0 h60, decide_eq_true h2, if_pos rfl, hroot, hP, hM, hN, hD, hQ, hS]
  have key := newton_flt (r := 143.2 * uu) (k := k) (δ := 1 / 10 ^ 90) (τ := τ) (P := P) (D := D) (M := M) (N := N) (Q := Q) (S := B.fl (y - Q)) n1 y0 t0
    (by positivity) hs (hnr.trans (by norm_num)) k0 k4 (kn n1) (by norm_num) (by norm_num) (hτ' y q1) hτY hτZ bP
    (by rw [tn]; linarith) hM2 (by linarith) (by linarith) (by linarith)
  refine key.trans ?_
  have z1 : n * (143.2 * uu) ^ 2 ≤ 10 ^ 6 * (143.2 * uu) ^ 2 := mul_le_mul_of_nonneg_right ν2 (by positivity)
  have z2 : (2.334 : ℝ) * uu + 10 * (1 / 10 ^ 90) + 10 * (uu * (143.2 * uu)) + 10 ^ 6 * (143.2 * uu) ^ 2 ≤ 2.335 * uu := by unfold uu; norm_num
  have z3 : (2.334 * uu + 10 * (1 / 10 ^ 90) + 10 * (uu * (143.2 * uu)) + n * (143.2 * uu) ^ 2) * y ≤ 2.335 * uu * ((1 + 1 / 10 ^ 12) * t) :=
    mul_le_mul (by linarith) yu y0.le (by positivity)
  refine z3.trans ?_
  have f : 0 < uu * t := by positivity
  norm_num at f ⊢
  linarith

end
end Nv
