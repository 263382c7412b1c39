import Verif.Float.Wander

/-!
# Length, azimuth and elevation in binary64
-/

namespace Nv
open Spec F64

/-- a value of at least `2^k` is a multiple of `2^(k-52)` -/
theorem Spec.IsF64.multiple' {z : ℝ} (h : IsF64 z) {k : ℤ} (hz : (2 : ℝ) ^ k ≤ z) : ∃ j : ℤ, z = j * (2 : ℝ) ^ (k - 52) := by
  obtain ⟨m, e, hm, he, rfl⟩ := h
  have h2 : (0 : ℝ) < 2 ^ e := by positivity
  have hm' : (m : ℝ) < 2 ^ (53 : ℤ) := by
    have : m < 2 ^ 53 := lt_of_le_of_lt (le_abs_self m) hm
    exact_mod_cast this
  have hke : k - 53 < e := by
    by_contra hn; push Not at hn
    have h4 : (2 : ℝ) ^ e ≤ 2 ^ (k - 53) := zpow_le_zpow_right₀ (by norm_num) hn
    have h5 : (m : ℝ) * 2 ^ e < 2 ^ (53 : ℤ) * 2 ^ (k - 53) := by
      calc (m : ℝ) * 2 ^ e < 2 ^ (53 : ℤ) * 2 ^ e := by nlinarith
        _ ≤ _ := by apply mul_le_mul_of_nonneg_left h4; positivity
    rw [← zpow_add₀ (by norm_num), show (53 : ℤ) + (k - 53) = k by ring] at h5
    linarith
  refine ⟨m * 2 ^ (e - (k - 52)).toNat, ?_⟩
  push_cast
  rw [mul_assoc, ← zpow_natCast, Int.toNat_of_nonneg (by linarith), ← zpow_add₀ (by norm_num)]
  congr 2; ring

/-- the rounded square root of the rounded square of a number is not below that number -/
theorem le_fl_sqrt_sq {fl : ℝ → ℝ} (h : RoundsToNearest fl) {z : ℝ} (hz : IsF64 z) (h1 : (2 : ℝ) ^ (-511 : ℤ) ≤ z) :
    z ≤ fl (√(fl (z * z))) := by
  have z0 : 0 < z := lt_of_lt_of_le (by positivity) h1
  have hu := uu_pos
  have hu1 : uu ≤ 1 / 10 ^ 10 := by unfold uu; norm_num
  by_contra hn; push Not at hn
  obtain ⟨s, hs⟩ : ∃ s, s = √(fl (z * z)) := ⟨_, rfl⟩
  rw [← hs] at hn
  have hsz : s < z := by
    by_contra hc; push Not at hc
    exact absurd (h.ge hz hc) (not_le.mpr hn)
  have hzz : (2 : ℝ) ^ (-1022 : ℤ) ≤ |z * z| := by
    rw [abs_of_pos (by positivity), show (-1022 : ℤ) = -511 + -511 by norm_num, zpow_add₀ (by norm_num)]
    exact mul_le_mul h1 h1 (by positivity) z0.le
  have hr := h.rel hzz
  rw [abs_of_pos (by positivity : 0 < z * z)] at hr
  have hs2 : s * s = fl (z * z) := by rw [hs]; exact Real.mul_self_sqrt (h.nonneg (mul_self_nonneg z))
  have s0 : 0 ≤ s := hs ▸ Real.sqrt_nonneg _
  have hlow : z - z * (uu / 2 * (1 + uu)) ≤ s := by
    rw [hs]
    apply Real.le_sqrt_of_sq_le
    have e1 := (abs_le.mp hr).1
    have e2 : (z - z * (uu / 2 * (1 + uu))) ^ 2 = z * z * ((1 - uu) - uu ^ 2 * (3 / 4 - uu / 2 - uu ^ 2 / 4)) := by ring
    have e3 : 0 ≤ uu ^ 2 * (3 / 4 - uu / 2 - uu ^ 2 / 4) := by
      apply mul_nonneg (by positivity)
      nlinarith
    have e4 := mul_nonneg (mul_self_nonneg z) e3
    rw [e2]
    linarith
  obtain ⟨k, hk⟩ : ∃ k, k = Int.log 2 z := ⟨_, rfl⟩
  have k1 : (2 : ℝ) ^ k ≤ z := by rw [hk]; exact Int.zpow_log_le_self (by norm_num) z0
  have k2 : z < (2 : ℝ) ^ (k + 1) := by rw [hk]; exact_mod_cast Int.lt_zpow_succ_log_self (b := 2) (by norm_num) z
  have kge : -512 < k := by
    by_contra hc; push Not at hc
    have : (2 : ℝ) ^ (k + 1) ≤ 2 ^ (-511 : ℤ) := zpow_le_zpow_right₀ (by norm_num) (by omega)
    linarith
  obtain ⟨q, hq⟩ : ∃ q : ℝ, q = 2 ^ (k - 52) := ⟨_, rfl⟩
  have q0 : 0 < q := hq ▸ by positivity
  have hkq : (2 : ℝ) ^ k = 2 ^ 52 * q := by
    rw [hq, ← zpow_natCast, ← zpow_add₀ (by norm_num)]; congr 1; push_cast; ring
  have hkq1 : (2 : ℝ) ^ (k + 1) = 2 ^ 53 * q := by
    rw [zpow_add_one₀ (by norm_num), hkq]; ring
  obtain ⟨i, hi⟩ := hz.multiple' k1
  rw [← hq] at hi
  have hi2 : i ≤ 2 ^ 53 - 1 := by
    have : (i : ℝ) < 2 ^ 53 := by
      rw [hkq1, hi] at k2
      exact lt_of_mul_lt_mul_right k2 q0.le
    have : i < 2 ^ 53 := by exact_mod_cast this
    omega
  have hi2' : (i : ℝ) ≤ 2 ^ 53 - 1 := by exact_mod_cast hi2
  have hgap : z * (uu / 2 * (1 + uu)) < q / 2 := by
    have e : z ≤ (2 ^ 53 - 1) * q := by rw [hi]; exact mul_le_mul_of_nonneg_right hi2' q0.le
    have e2 : z * (uu / 2 * (1 + uu)) ≤ (2 ^ 53 - 1) * q * (uu / 2 * (1 + uu)) := mul_le_mul_of_nonneg_right e (by positivity)
    refine lt_of_le_of_lt e2 ?_
    have e3 : (2 ^ 53 - 1 : ℝ) * q * (uu / 2 * (1 + uu)) = q / 2 * (1 - uu ^ 2) := by unfold uu; ring
    rw [e3]
    nlinarith [mul_pos q0 (pow_pos hu 2)]
  have hF := h.val s
  by_cases hy : (2 : ℝ) ^ k ≤ fl s
  · obtain ⟨j, hj⟩ := hF.multiple' hy
    rw [← hq] at hj
    have hij : j + 1 ≤ i := by
      have : (j : ℝ) < i := by rw [hj, hi] at hn; exact lt_of_mul_lt_mul_right hn q0.le
      have : j < i := by exact_mod_cast this
      omega
    have hij' : (j : ℝ) + 1 ≤ i := by exact_mod_cast hij
    have hd : q ≤ z - fl s := by
      rw [hj, hi]
      have := mul_le_mul_of_nonneg_right hij' q0.le
      linarith
    have hN := h.nearest s z hz
    rw [abs_of_nonpos (by linarith), abs_of_nonneg (by linarith)] at hN
    linarith
  · push Not at hy
    rcases eq_or_lt_of_le k1 with he | hl
    · have hsq : fl (z * z) = z * z := by
        apply h.exact
        rw [← he, ← zpow_add₀ (by norm_num)]
        exact isF64_two_zpow (by omega)
      rw [hsq] at hs2
      nlinarith
    · have : 2 ^ k + q ≤ z := by
        have hi3 : (2 : ℤ) ^ 52 + 1 ≤ i := by
          have : (2 : ℝ) ^ 52 < i := by
            rw [hkq, hi] at hl
            exact lt_of_mul_lt_mul_right hl q0.le
          have : (2 : ℤ) ^ 52 < i := by exact_mod_cast this
          omega
        have hi3' : (2 : ℝ) ^ 52 + 1 ≤ i := by exact_mod_cast hi3
        rw [hkq, hi]
        have := mul_le_mul_of_nonneg_right hi3' q0.le
        linarith
      have := h.ge (isF64_two_zpow (by omega : -1074 ≤ k)) (by linarith : (2 : ℝ) ^ k ≤ s)
      linarith

/-- the computed length of a vector is not below any of its components -/
theorem abs_z_le_flNorm {fl : ℝ → ℝ} (h : RoundsToNearest fl) {x y z : ℝ} (hz : IsF64 z) (h1 : (2 : ℝ) ^ (-511 : ℤ) ≤ |z|) :
    |z| ≤ flNorm fl x y z := by
  have k := le_fl_sqrt_sq h hz.abs h1
  rw [abs_mul_abs_self] at k
  refine k.trans (h.mono (Real.sqrt_le_sqrt (h.ge (h.val _) ?_)))
  have := h.nonneg (add_nonneg (h.nonneg (mul_self_nonneg x)) (h.nonneg (mul_self_nonneg y)))
  linarith

theorem arcsin_sub_le {a b ε : ℝ} (ha : |a| ≤ 1) (hb : |b| ≤ 1) (hab : |a - b| ≤ ε) :
    |Real.arcsin a - Real.arcsin b| ≤ Real.pi * √(ε / 2) := by
  obtain ⟨x, hx⟩ : ∃ x, x = Real.arcsin a := ⟨_, rfl⟩
  obtain ⟨y, hy⟩ : ∃ y, y = Real.arcsin b := ⟨_, rfl⟩
  have ex : Real.sin x = a := hx ▸ Real.sin_arcsin (abs_le.mp ha).1 (abs_le.mp ha).2
  have ey : Real.sin y = b := hy ▸ Real.sin_arcsin (abs_le.mp hb).1 (abs_le.mp hb).2
  have x1 : -(Real.pi / 2) ≤ x := hx ▸ Real.neg_pi_div_two_le_arcsin a
  have x2 : x ≤ Real.pi / 2 := hx ▸ Real.arcsin_le_pi_div_two a
  have y1 : -(Real.pi / 2) ≤ y := hy ▸ Real.neg_pi_div_two_le_arcsin b
  have y2 : y ≤ Real.pi / 2 := hy ▸ Real.arcsin_le_pi_div_two b
  rw [← hx, ← hy]
  have key : ∀ x y : ℝ, x ≤ y → -(Real.pi / 2) ≤ x → y ≤ Real.pi / 2 → Real.sin y - Real.sin x ≤ ε → y - x ≤ Real.pi * √(ε / 2) := by
    intro x y hxy x1 y2 h
    obtain ⟨d, hd⟩ : ∃ d, d = (y - x) / 2 := ⟨_, rfl⟩
    obtain ⟨m, hm⟩ : ∃ m, m = (y + x) / 2 := ⟨_, rfl⟩
    have d0 : 0 ≤ d := by rw [hd]; linarith
    have d1 : d ≤ Real.pi / 2 := by rw [hd]; linarith
    have sd : 2 / Real.pi * d ≤ Real.sin d := Real.mul_le_sin d0 d1
    have hs : Real.sin y - Real.sin x = 2 * Real.sin d * Real.cos m := by
      rw [show y = m + d by rw [hm, hd]; ring, show x = m - d by rw [hm, hd]; ring, Real.sin_add, Real.sin_sub]; ring
    have hc : Real.sin d ≤ Real.cos m := by
      rw [← Real.cos_pi_div_two_sub, ← Real.cos_abs m]
      apply Real.cos_le_cos_of_nonneg_of_le_pi (abs_nonneg _) (by linarith [Real.pi_pos])
      rw [abs_le]; constructor <;> rw [hm, hd] <;> linarith
    have hsd : 0 ≤ Real.sin d := Real.sin_nonneg_of_nonneg_of_le_pi d0 (by linarith [Real.pi_pos])
    have h3 : Real.sin d ^ 2 ≤ ε / 2 := by
      rw [hs] at h
      nlinarith [mul_le_mul_of_nonneg_left hc hsd]
    have h4 : Real.sin d ≤ √(ε / 2) := Real.le_sqrt_of_sq_le h3
    have h5 : d ≤ Real.pi / 2 * √(ε / 2) := by
      have h6 := sd.trans h4
      have hp := Real.pi_pos
      calc d = Real.pi / 2 * (2 / Real.pi * d) := by field_simp
        _ ≤ _ := mul_le_mul_of_nonneg_left h6 (by positivity)
    rw [hd] at h5
    linarith
  rw [← ex, ← ey] at hab
  obtain ⟨g1, g2⟩ := abs_le.mp hab
  rcases le_total x y with hxy | hxy
  · rw [abs_of_nonpos (by linarith)]
    have := key x y hxy x1 y2 (by linarith)
    linarith
  · rw [abs_of_nonneg (by linarith)]
    exact key y x hxy y1 x2 (by linarith)

section
variable {B : Binary64}

/-- the ratio of the third component and the length -/
theorem sin_elevation_flt {p : V3 ℝ} (hp : IsF64V p) (p1 : 1e-50 ≤ len p) (p2 : len p ≤ 10 ^ 25) :
    ∃ t : ℝ, (F64.fin p.z / norm3 (p.flt : V3 (F64 B)) : F64 B) = F64.fin t ∧ IsF64 t ∧ |t| ≤ 1 ∧ |t - p.z / len p| ≤ 5.05 * uu := by
  have p0 : 0 < len p := lt_of_lt_of_le (by norm_num) p1
  have hu := uu_pos
  have hN := flNorm_close B.rounds p
  have hN2 : |flNorm B.fl p.x p.y p.z - len p| ≤ 4.03 * uu * len p := by
    refine hN.trans ?_
    have h2 : 0.01 * uu * 1e-50 ≤ 0.01 * uu * len p := mul_le_mul_of_nonneg_left p1 (by positivity)
    have h3 : (1 : ℝ) / 10 ^ 75 ≤ 0.01 * uu * 1e-50 := by unfold uu; norm_num
    have h4 := h3.trans h2
    generalize (1 : ℝ) / 10 ^ 75 = q at *
    norm_num at h4 ⊢
    linarith only [h4]
  obtain ⟨L, hL⟩ : ∃ L, L = flNorm B.fl p.x p.y p.z := ⟨_, rfl⟩
  rw [← hL] at hN2
  obtain ⟨l1, l2⟩ := abs_le.mp hN2
  have hu1 : 4.03 * uu ≤ 1 / 10 ^ 10 := by unfold uu; norm_num
  have hLp : len p * (1 - 4.03 * uu) ≤ L := by linarith
  have L0 : 0 < L := lt_of_lt_of_le (by apply mul_pos p0; linarith) hLp
  have hz : |p.z| ≤ L := by
    by_cases hc : (2 : ℝ) ^ (-511 : ℤ) ≤ |p.z|
    · rw [hL]; exact abs_z_le_flNorm B.rounds hp.2.2 hc
    · push Not at hc
      refine hc.le.trans (le_trans ?_ hLp)
      have a1 : (2 : ℝ) ^ (-511 : ℤ) ≤ 2 ^ (-200 : ℤ) := zpow_le_zpow_right₀ (by norm_num) (by norm_num)
      have a2 : (2 : ℝ) ^ (-200 : ℤ) ≤ 1e-50 * (1 - 1 / 10 ^ 10) := by norm_num
      have a3 : 1e-50 * (1 - 1 / 10 ^ 10) ≤ len p * (1 - 4.03 * uu) :=
        mul_le_mul p1 (by linarith only [hu1]) (by norm_num) p0.le
      exact a1.trans (a2.trans a3)
  have hq1 : |p.z / L| ≤ 1 := by rw [abs_div, abs_of_pos L0]; exact (div_le_one L0).mpr hz
  refine ⟨B.fl (p.z / L), ?_, B.rounds.val _, ?_, ?_⟩
  · rw [norm3_flt p2, ← hL]
    exact fin_div L0.ne' (hq1.trans (by norm_num))
  · rw [abs_le] at hq1 ⊢
    exact ⟨B.rounds.ge isF64_neg_one hq1.1, B.rounds.le isF64_one hq1.2⟩
  · have e1 : |p.z / L - p.z / len p| ≤ 4.03 * uu := by
      have : p.z / L - p.z / len p = (p.z / L) * ((len p - L) / len p) := by field_simp
      rw [this, abs_mul]
      have h2 : |(len p - L) / len p| ≤ 4.03 * uu := by
        rw [abs_div, abs_of_pos p0, div_le_iff₀ p0, abs_sub_comm]; exact hN2
      calc _ ≤ 1 * (4.03 * uu) := mul_le_mul hq1 h2 (abs_nonneg _) (by norm_num)
        _ = _ := by ring
    refine fl_close (B := B) (b := 1) e1 ?_ (by unfold uu; norm_num)
    rw [abs_div, abs_of_pos p0]
    exact (div_le_one p0).mpr (abs_z_le_len p)

end
end Nv
