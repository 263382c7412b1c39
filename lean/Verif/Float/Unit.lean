import Verif.Float.Exact

/-!
# Rounding errors of `unit`, over the whole range in which the sum of squares neither overflows nor underflows
-/

namespace Nv
open Spec F64
variable {B : Binary64}

theorem isF64_pow2 {k : ℕ} : IsF64 ((2 : ℝ) ^ k) := ⟨1, k, by norm_num, by omega, by simp⟩

theorem rnd_wide {x : ℝ} (hx : |x| ≤ (2 : ℝ) ^ (1010 : ℕ)) : rnd B x = fin (B.fl x) := by
  obtain ⟨h1, h2⟩ := abs_le.mp hx
  refine if_pos ?_
  have h3 := B.rounds.le isF64_pow2 h2
  have h4 := B.rounds.ge (isF64_pow2 (k := 1010)).neg h1
  refine (abs_le.mpr ⟨h4, h3⟩).trans_lt ?_
  rw [show (1024 : ℤ) = ((1024 : ℕ) : ℤ) by rfl, zpow_natCast]
  exact pow_lt_pow_right₀ (by norm_num) (by norm_num)

theorem fl_le_pow2 {x : ℝ} {k : ℕ} (h0 : 0 ≤ x) (h : x ≤ (2 : ℝ) ^ k) : 0 ≤ B.fl x ∧ B.fl x ≤ (2 : ℝ) ^ k :=
  ⟨B.rounds.nonneg h0, B.rounds.le isF64_pow2 h⟩

/-- the computed length, vectors of any length up to `2^500` -/
theorem norm3_wide {v : V3 ℝ} (hv : len v ≤ (2 : ℝ) ^ (500 : ℕ)) :
    norm3 (v.flt : V3 (F64 B)) = fin (flNorm B.fl v.x v.y v.z) := by
  have hl0 := len_nonneg' v
  obtain ⟨hx, hy, hz⟩ := sq_le_len v
  have e1 : ((2 : ℝ) ^ (500 : ℕ)) ^ 2 = 2 ^ (1000 : ℕ) := by rw [← pow_mul]
  have hl2 : len v ^ 2 ≤ (2 : ℝ) ^ (1000 : ℕ) := by rw [← e1]; exact pow_le_pow_left₀ hl0 hv 2
  have p0 : (0 : ℝ) < (2 : ℝ) ^ (1000 : ℕ) := by positivity
  obtain ⟨P, hP⟩ : ∃ P, P = (2 : ℝ) ^ (1000 : ℕ) := ⟨_, rfl⟩
  have q1 : (2 : ℝ) ^ (1001 : ℕ) = 2 * P := by rw [hP, show 1001 = 1000 + 1 by rfl, pow_succ]; ring
  have q2 : (2 : ℝ) ^ (1002 : ℕ) = 4 * P := by rw [hP, show 1002 = 1000 + 2 by rfl, pow_add]; norm_num; ring
  have q3 : (2 : ℝ) ^ (1010 : ℕ) = 1024 * P := by rw [hP, show 1010 = 1000 + 10 by rfl, pow_add]; norm_num; ring
  have hP1 : 1 ≤ P := by rw [hP]; exact one_le_pow₀ (by norm_num)
  have hxx : v.x * v.x ≤ P := by rw [← sq, hP]; exact hx.trans hl2
  have hyy : v.y * v.y ≤ P := by rw [← sq, hP]; exact hy.trans hl2
  have hzz : v.z * v.z ≤ P := by rw [← sq, hP]; exact hz.trans hl2
  have k1 := fl_le_pow2 (B := B) (k := 1000) (mul_self_nonneg v.x) (hxx.trans hP.le)
  have k2 := fl_le_pow2 (B := B) (k := 1000) (mul_self_nonneg v.y) (hyy.trans hP.le)
  have k3 := fl_le_pow2 (B := B) (k := 1000) (mul_self_nonneg v.z) (hzz.trans hP.le)
  rw [← hP] at k1 k2 k3 hl2
  clear hv e1 p0 hP
  have k4 := fl_le_pow2 (B := B) (k := 1001) (x := B.fl (v.x * v.x) + B.fl (v.y * v.y)) (by linarith only [k1, k2]) (by rw [q1]; linarith only [k1, k2])
  rw [q1] at k4
  have k5 := fl_le_pow2 (B := B) (k := 1002) (x := B.fl (B.fl (v.x * v.x) + B.fl (v.y * v.y)) + B.fl (v.z * v.z)) (by linarith only [k4, k3])
    (by rw [q2]; linarith only [k4, k3])
  rw [q2] at k5
  have m1 : (fin v.x * fin v.x : F64 B) = fin (B.fl (v.x * v.x)) := by
    refine rnd_wide ?_; rw [q3, abs_of_nonneg (mul_self_nonneg _)]; linarith only [hxx, hP1]
  have m2 : (fin v.y * fin v.y : F64 B) = fin (B.fl (v.y * v.y)) := by
    refine rnd_wide ?_; rw [q3, abs_of_nonneg (mul_self_nonneg _)]; linarith only [hyy, hP1]
  have m3 : (fin v.z * fin v.z : F64 B) = fin (B.fl (v.z * v.z)) := by
    refine rnd_wide ?_; rw [q3, abs_of_nonneg (mul_self_nonneg _)]; linarith only [hzz, hP1]
  have m4 : (fin (B.fl (v.x * v.x)) + fin (B.fl (v.y * v.y)) : F64 B) = fin (B.fl (B.fl (v.x * v.x) + B.fl (v.y * v.y))) := by
    refine rnd_wide ?_; rw [q3, abs_of_nonneg (by linarith only [k1, k2])]; linarith only [k1, k2, hP1]
  have m5 : (fin (B.fl (B.fl (v.x * v.x) + B.fl (v.y * v.y))) + fin (B.fl (v.z * v.z)) : F64 B) =
      fin (B.fl (B.fl (B.fl (v.x * v.x) + B.fl (v.y * v.y)) + B.fl (v.z * v.z))) := by
    refine rnd_wide ?_; rw [q3, abs_of_nonneg (by linarith only [k4, k3])]; linarith only [k4, k3, hP1]
  unfold norm3 flNorm V3.flt
  dsimp only
  rw [m1, m2, m3, m4, m5]
  change round B (XR.sqrt (.fin _)) = _
  rw [XR.sqrt, if_neg (not_lt.mpr k5.1)]
  refine rnd_wide ?_
  rw [abs_of_nonneg (Real.sqrt_nonneg _), q3]
  refine Real.sqrt_le_iff.mpr ⟨by linarith only [hP1], ?_⟩
  have : P * 1 ≤ P * P := mul_le_mul_of_nonneg_left hP1 (by linarith only [hP1])
  rw [show (1024 * P) ^ 2 = 1048576 * (P * P) by ring]
  linarith only [k5, this, hP1]

/-- its relative error, vectors of any length from `2^-500` -/
theorem flNorm_rel {fl : ℝ → ℝ} (h : RoundsToNearest fl) {v : V3 ℝ} (hv : (2 : ℝ) ^ (-500 : ℤ) ≤ len v) :
    |flNorm fl v.x v.y v.z - len v| ≤ 4.03 * uu * len v := by
  have hu := uu_pos
  have hu1 : uu ≤ 1 / 10 ^ 10 := by unfold uu; norm_num
  have p0 : (0 : ℝ) < (2 : ℝ) ^ (-500 : ℤ) := by positivity
  have l0 : 0 < len v := p0.trans_le hv
  have hη : 6 * eta ≤ 0.01 * uu * len v ^ 2 := by
    have e1 : ((2 : ℝ) ^ (-500 : ℤ)) ^ 2 ≤ len v ^ 2 := pow_le_pow_left₀ p0.le hv 2
    have e2 : eta = (2 : ℝ) ^ (-75 : ℤ) * ((2 : ℝ) ^ (-500 : ℤ)) ^ 2 := by
      rw [← zpow_natCast, ← zpow_mul, ← zpow_add₀ (by norm_num)]; rfl
    have e3 : 6 * (2 : ℝ) ^ (-75 : ℤ) ≤ 0.01 * uu := by unfold uu; norm_num
    calc 6 * eta = (6 * (2 : ℝ) ^ (-75 : ℤ)) * ((2 : ℝ) ^ (-500 : ℤ)) ^ 2 := by rw [e2]; ring
      _ ≤ (0.01 * uu) * ((2 : ℝ) ^ (-500 : ℤ)) ^ 2 := mul_le_mul_of_nonneg_right e3 (by positivity)
      _ ≤ _ := mul_le_mul_of_nonneg_left e1 (by positivity)
  unfold flNorm
  have a1 := flSum_close h v.x v.y v.z
  have hS : 0 ≤ fl (fl (fl (v.x * v.x) + fl (v.y * v.y)) + fl (v.z * v.z)) := by
    apply h.nonneg
    have := h.nonneg (mul_self_nonneg v.x)
    have := h.nonneg (mul_self_nonneg v.y)
    have := h.nonneg (mul_self_nonneg v.z)
    have := h.nonneg (x := fl (v.x * v.x) + fl (v.y * v.y)) (by linarith)
    linarith
  generalize fl (fl (fl (v.x * v.x) + fl (v.y * v.y)) + fl (v.z * v.z)) = S at *
  have hx : 0 ≤ v.x ^ 2 + v.y ^ 2 + v.z ^ 2 := by positivity
  have hl2 : len v ^ 2 = v.x ^ 2 + v.y ^ 2 + v.z ^ 2 := by unfold len; rw [Real.sq_sqrt hx]
  have a2 := sqrt_mixed (c := 0) (ε := 3.02 * uu) hS hx (by positivity) (by nlinarith) le_rfl
    (a1.trans (by rw [← hl2]; nlinarith))
  have hl : Real.sqrt (v.x ^ 2 + v.y ^ 2 + v.z ^ 2) = len v := rfl
  rw [hl, add_zero] at a2
  have b2 := abs_le.mp a2
  have hul : 0 ≤ uu * len v := by positivity
  have huul : uu * uu * len v ≤ 0.0001 * uu * len v := mul_le_mul_of_nonneg_right (by nlinarith) l0.le
  have hlow : (2 : ℝ) ^ (-1022 : ℤ) ≤ |Real.sqrt S| := by
    rw [abs_of_nonneg (Real.sqrt_nonneg S)]
    have e1 : (2 : ℝ) ^ (-1022 : ℤ) ≤ (2 : ℝ) ^ (-501 : ℤ) := zpow_le_zpow_right₀ (by norm_num) (by norm_num)
    have e2 : (2 : ℝ) ^ (-501 : ℤ) = (2 : ℝ) ^ (-500 : ℤ) / 2 := by
      rw [show (-501 : ℤ) = -500 - 1 by norm_num, zpow_sub_one₀ (by norm_num)]; rfl
    have : uu * len v ≤ 0.01 * len v := mul_le_mul_of_nonneg_right (by linarith) l0.le
    linarith
  have a3 := h.rel hlow
  rw [abs_of_nonneg (Real.sqrt_nonneg S)] at a3
  have hs2 := mul_le_mul_of_nonneg_left b2.2 hu.le
  have := abs_add_le (fl (Real.sqrt S) - Real.sqrt S) (Real.sqrt S - len v)
  rw [sub_add_sub_cancel] at this
  linarith

theorem addTiny_flNorm {v : V3 ℝ} (hne : flNorm B.fl v.x v.y v.z ≠ 0) (hb : flNorm B.fl v.x v.y v.z ≤ (2 : ℝ) ^ (1000 : ℕ)) :
    (PyFloat.addTiny (fin (flNorm B.fl v.x v.y v.z)) : F64 B) = fin (flNorm B.fl v.x v.y v.z) := by
  have h1 := C31_tiny_absorbed B.fl B.rounds v.x v.y v.z hne
  change rnd B (flNorm B.fl v.x v.y v.z + (2 : ℝ) ^ (-1022 : ℤ)) = _
  rw [rnd_wide, h1]
  have h0 := flNorm_nonneg B.rounds v.x v.y v.z
  have p0 : (0 : ℝ) < (2 : ℝ) ^ (-1022 : ℤ) := by positivity
  have p1 : (2 : ℝ) ^ (-1022 : ℤ) ≤ 1 := zpow_le_one_of_nonpos₀ (by norm_num) (by norm_num)
  obtain ⟨P, hP⟩ : ∃ P, P = (2 : ℝ) ^ (1000 : ℕ) := ⟨_, rfl⟩
  have q3 : (2 : ℝ) ^ (1010 : ℕ) = 1024 * P := by rw [hP, show 1010 = 1000 + 10 by rfl, pow_add]; norm_num; ring
  have hP1 : 1 ≤ P := by rw [hP]; exact one_le_pow₀ (by norm_num)
  rw [abs_of_nonneg (by linarith only [h0, p0]), q3]
  rw [← hP] at hb
  linarith only [hb, p1, hP1]

/-- one component of the computed unit vector -/
theorem fl_div_close {fl : ℝ → ℝ} (h : RoundsToNearest fl) {x l N : ℝ} (hl : 0 < l) (hN : |N - l| ≤ 4.03 * uu * l) :
    |fl (x / N) - x / l| ≤ 5.05 * uu * |x / l| + eta ∧ |x / N| ≤ 2 * |x / l| := by
  have hu := uu_pos
  have hu1 : uu ≤ 1 / 10 ^ 10 := by unfold uu; norm_num
  have hN' := abs_le.mp hN
  have hul : uu * l ≤ 1 / 10 ^ 10 * l := mul_le_mul_of_nonneg_right hu1 hl.le
  have hN0 : (1 - 0.0001) * l ≤ N := by linarith
  have hNp : 0 < N := by nlinarith
  have h1 : |x / N - x / l| ≤ 4.04 * uu * |x / l| := by
    rw [show x / N - x / l = (x / l) * ((l - N) / N) by field_simp, abs_mul, abs_div (l - N), abs_of_pos hNp, mul_comm]
    refine mul_le_mul_of_nonneg_right ?_ (abs_nonneg _)
    rw [div_le_iff₀ hNp, abs_sub_comm]
    refine hN.trans ?_
    have := mul_le_mul_of_nonneg_left hN0 (by positivity : 0 ≤ 4.04 * uu)
    have : 0 ≤ uu * l := by positivity
    linarith
  have h2 := h.err_add (x / N)
  have h3 : |x / N| ≤ |x / l| + 4.04 * uu * |x / l| := by
    have := abs_sub_abs_le_abs_sub (x / N) (x / l)
    linarith
  have h4 := mul_le_mul_of_nonneg_left h3 hu.le
  have h5 : uu * uu * |x / l| ≤ 0.0001 * uu * |x / l| := mul_le_mul_of_nonneg_right (by nlinarith) (abs_nonneg _)
  have h6 := abs_add_le (fl (x / N) - x / N) (x / N - x / l)
  rw [sub_add_sub_cancel] at h6
  have h7 : uu * |x / l| ≤ 0.01 * |x / l| := mul_le_mul_of_nonneg_right (by linarith) (abs_nonneg _)
  have h8 : 0 ≤ uu * |x / l| := by positivity
  have h9 := abs_nonneg (x / l)
  constructor <;> linarith

/-- `unit` in binary64 -/
theorem unit_flt {v : V3 ℝ} (h1 : (2 : ℝ) ^ (-500 : ℤ) ≤ len v) (h2 : len v ≤ (2 : ℝ) ^ (500 : ℕ)) :
    ∃ w : V3 ℝ, unit (v.flt : V3 (F64 B)) = w.flt ∧ IsF64V w ∧
      |w.x - v.x / len v| ≤ 5.05 * uu * |v.x / len v| + eta ∧ |w.y - v.y / len v| ≤ 5.05 * uu * |v.y / len v| + eta ∧
      |w.z - v.z / len v| ≤ 5.05 * uu * |v.z / len v| + eta := by
  have l0 : 0 < len v := lt_of_lt_of_le (by positivity) h1
  have hr := flNorm_rel B.rounds h1
  have hu1 : uu ≤ 1 / 10 ^ 10 := by unfold uu; norm_num
  have hul : uu * len v ≤ 1 / 10 ^ 10 * len v := mul_le_mul_of_nonneg_right hu1 l0.le
  have hNp : 0 < flNorm B.fl v.x v.y v.z := by linarith [(abs_le.mp hr).1]
  have hNb : flNorm B.fl v.x v.y v.z ≤ (2 : ℝ) ^ (1000 : ℕ) := by
    have : (2 : ℝ) ^ (500 : ℕ) * 2 ≤ 2 ^ (1000 : ℕ) := by
      rw [← pow_succ]; exact pow_le_pow_right₀ (by norm_num) (by norm_num)
    have h3 : flNorm B.fl v.x v.y v.z ≤ len v * 2 := by linarith only [(abs_le.mp hr).2, hul, l0]
    exact h3.trans ((mul_le_mul_of_nonneg_right h2 (by norm_num)).trans this)
  have cx := fl_div_close B.rounds (x := v.x) l0 hr
  have cy := fl_div_close B.rounds (x := v.y) l0 hr
  have cz := fl_div_close B.rounds (x := v.z) l0 hr
  have bnd : ∀ {t : ℝ}, |t| ≤ len v → |t / len v| ≤ 1 := by
    intro t ht
    rw [abs_div, abs_of_pos l0, div_le_one l0]; exact ht
  refine ⟨⟨B.fl (v.x / flNorm B.fl v.x v.y v.z), B.fl (v.y / flNorm B.fl v.x v.y v.z), B.fl (v.z / flNorm B.fl v.x v.y v.z)⟩, ?_,
    ⟨B.rounds.val _, B.rounds.val _, B.rounds.val _⟩, cx.1, cy.1, cz.1⟩
  unfold unit
  dsimp only
  rw [norm3_wide h2, lit_zero, fin_eq, addTiny_flNorm hNp.ne' hNb, if_neg (by simp [hNp.ne'])]
  unfold div3 V3.flt
  dsimp only
  rw [fin_div hNp.ne', fin_div hNp.ne', fin_div hNp.ne']
  · linarith [cz.2, bnd (abs_z_le_len v), (by norm_num : (2 : ℝ) ≤ 10 ^ 60)]
  · linarith [cy.2, bnd (abs_y_le_len v), (by norm_num : (2 : ℝ) ≤ 10 ^ 60)]
  · linarith [cx.2, bnd (abs_x_le_len v), (by norm_num : (2 : ℝ) ≤ 10 ^ 60)]

end Nv
