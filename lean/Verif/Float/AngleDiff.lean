import Verif.Float.Degrees
import Verif.Float.Isclose

/-!
# The angular difference of `GeoPoint.__eq__` in binary64
-/

namespace Nv
open Spec F64

section
variable {B : Binary64}

theorem fl_pi_bounds : 3.14 ≤ B.fl Real.pi ∧ B.fl Real.pi ≤ 3.15 := by
  have h := abs_le.mp (fl_pi (B := B))
  have h1 := Real.pi_gt_d4
  have h2 := Real.pi_lt_d4
  have hu1 : uu ≤ 1 / 10 ^ 10 := by unfold uu; norm_num
  have : uu * Real.pi ≤ 1 / 10 ^ 10 * Real.pi := mul_le_mul_of_nonneg_right hu1 Real.pi_pos.le
  norm_num at *
  constructor <;> linarith

/-- twice the number `np.pi` -/
theorem two_pi_flt : (lit 2 * PyFloat.pi : F64 B) = F64.fin (2 * B.fl Real.pi) ∧ IsF64 (2 * B.fl Real.pi) := by
  have hb := fl_pi_bounds (B := B)
  have hF : IsF64 (2 * B.fl Real.pi) := by
    obtain ⟨m, e, hm, he, h⟩ := B.rounds.val Real.pi
    exact ⟨m, e + 1, hm, by omega, by rw [h, zpow_add_one₀ (by norm_num)]; ring⟩
  refine ⟨?_, hF⟩
  rw [lit_two, pi_flt, fin_mul, B.rounds.exact hF]
  rw [abs_of_nonneg (by norm_num at hb; linarith)]
  norm_num at hb ⊢
  linarith

theorem fin_mod {x y : ℝ} (hy : 0 < y) (h : |x - y * ⌊x / y⌋| ≤ 10 ^ 60) :
    (PyFloat.mod (F64.fin x) (F64.fin y) : F64 B) = F64.fin (B.fl (x - y * ⌊x / y⌋)) := by
  change round B (XR.mod (.fin x) (.fin y)) = _
  rw [XR.mod, if_pos hy]; exact rnd_fin h

/-- the computed angular difference is within `42.5 u` of the distance of the two angles modulo a turn -/
theorem angleDiff_flt {x y : ℝ} (hx : |x| ≤ 7) (hy : |y| ≤ 7) :
    ∃ (r : ℝ) (k : ℤ), angleDiff (F64.fin x : F64 B) (F64.fin y) = F64.fin r ∧ IsF64 r ∧ 0 ≤ r ∧ r ≤ 7 ∧
      |x - y - k * (2 * Real.pi)| ≤ Real.pi + 1 ∧ |r - (|x - y - k * (2 * Real.pi)|)| ≤ 42.5 * uu := by
  have hu := uu_pos
  have hu1 : uu ≤ 1 / 10 ^ 10 := by unfold uu; norm_num
  have hη := eta_small
  have hη0 := eta_pos
  have hηu : (1 : ℝ) / 10 ^ 60 ≤ 0.001 * uu := by unfold uu; norm_num
  obtain ⟨P, hP⟩ : ∃ P, P = B.fl Real.pi := ⟨_, rfl⟩
  obtain ⟨p1, p2⟩ := fl_pi_bounds (B := B)
  obtain ⟨hQ, fQ⟩ := two_pi_flt (B := B)
  have hpi := abs_le.mp (fl_pi (B := B))
  have hPF : IsF64 P := hP ▸ B.rounds.val _
  rw [← hP] at p1 p2 hQ fQ hpi
  have hπ1 := Real.pi_gt_d4
  have hπ2 := Real.pi_lt_d4
  norm_num at p1 p2 hπ1 hπ2
  have hxy : |x - y| ≤ 14 := (abs_sub x y).trans (by linarith)
  obtain ⟨d, hd⟩ : ∃ d, d = B.fl (x - y) := ⟨_, rfl⟩
  have hd1 : |d - (x - y)| ≤ 14.001 * uu := by
    rw [hd]
    refine (B.rounds.err_add _).trans ?_
    have := mul_le_mul_of_nonneg_left hxy hu.le
    norm_num at hηu hη ⊢
    linarith
  have hdb : |d| ≤ 14.1 := by
    have := abs_sub_abs_le_abs_sub d (x - y)
    norm_num at hd1 hu1 ⊢
    linarith
  have Q0 : 0 < 2 * P := by linarith
  obtain ⟨m, hm⟩ : ∃ m : ℤ, m = ⌊d / (2 * P)⌋ := ⟨_, rfl⟩
  have m1 : (m : ℝ) ≤ d / (2 * P) := by rw [hm]; exact Int.floor_le _
  have m2 : d / (2 * P) < m + 1 := by rw [hm]; exact Int.lt_floor_add_one _
  rw [le_div_iff₀ Q0] at m1
  rw [div_lt_iff₀ Q0] at m2
  obtain ⟨d1, d2⟩ := abs_le.mp hdb
  norm_num at d1 d2
  have mb : -3 ≤ m ∧ m ≤ 2 := by
    constructor
    · by_contra hc; push Not at hc
      have : (m : ℝ) + 1 ≤ -3 := by exact_mod_cast (by omega : m + 1 ≤ -3)
      nlinarith
    · by_contra hc; push Not at hc
      have : (3 : ℝ) ≤ m := by exact_mod_cast (by omega : 3 ≤ m)
      nlinarith
  have mb1 : (-3 : ℝ) ≤ m := by exact_mod_cast mb.1
  have mb2 : (m : ℝ) ≤ 2 := by exact_mod_cast mb.2
  obtain ⟨t, ht⟩ : ∃ t, t = d - 2 * P * m := ⟨_, rfl⟩
  have t0 : 0 ≤ t := by rw [ht]; linarith
  have t1 : t ≤ 2 * P := by rw [ht]; linarith
  obtain ⟨δ, hδ⟩ : ∃ δ, δ = B.fl t := ⟨_, rfl⟩
  have δ0 : 0 ≤ δ := hδ ▸ B.rounds.nonneg t0
  have δ1 : δ ≤ 2 * P := hδ ▸ B.rounds.le fQ t1
  have δe : |δ - t| ≤ 6.301 * uu := by
    rw [hδ]
    refine (B.rounds.err_add _).trans ?_
    rw [abs_of_nonneg t0]
    have : uu * t ≤ uu * 6.3 := mul_le_mul_of_nonneg_left (by norm_num; linarith) hu.le
    norm_num at hηu hη this ⊢
    linarith
  have hab : angleDiff (F64.fin x : F64 B) (F64.fin y) = if P < δ then F64.fin (B.fl (2 * P - δ)) else F64.fin δ := by
    unfold angleDiff
    dsimp only
    rw [hQ, pi_flt, ← hP, fin_sub (hxy.trans (by norm_num)), ← hd, fin_mod Q0 (by rw [← hm, ← ht, abs_of_nonneg t0]; linarith), ← hm, ← ht, ← hδ, fin_lt,
      fin_sub (by rw [abs_of_nonneg (by linarith)]; linarith)]
    simp only [decide_eq_true_eq]
  rw [hab]
  -- distance of the exact values from multiples of the two periods
  have hk : ∀ k : ℤ, -3 ≤ k → k ≤ 3 → |(x - y - k * (2 * Real.pi)) - (d - 2 * P * k)| ≤ 14.001 * uu + 18.9 * uu := by
    intro k k1 k2
    have e : (x - y - k * (2 * Real.pi)) - (d - 2 * P * k) = -(d - (x - y)) + 2 * k * (P - Real.pi) := by ring
    rw [e]
    refine (abs_add_le _ _).trans ?_
    rw [abs_neg, abs_mul, abs_mul, abs_two]
    have hk3 : |(k : ℝ)| ≤ 3 := by rw [abs_le]; constructor <;> [exact_mod_cast k1; exact_mod_cast k2]
    have hp : |P - Real.pi| ≤ 3.15 * uu := by
      rw [abs_le]
      have : uu * Real.pi ≤ uu * 3.15 := mul_le_mul_of_nonneg_left (by norm_num; linarith) hu.le
      norm_num at this ⊢
      constructor <;> linarith
    have := mul_le_mul (mul_le_mul_of_nonneg_left hk3 (by norm_num : (0:ℝ) ≤ 2)) hp (abs_nonneg _) (by norm_num)
    norm_num at this hd1 ⊢
    linarith
  have E1 : 42.5 * uu ≤ 1 / 10 ^ 8 := by unfold uu; norm_num
  split
  · rename_i hlt
    have r0 : 0 ≤ 2 * P - δ := by linarith
    have hr : |B.fl (2 * P - δ) - (2 * P - δ)| ≤ 3.151 * uu := by
      refine (B.rounds.err_add _).trans ?_
      rw [abs_of_nonneg r0]
      have : uu * (2 * P - δ) ≤ uu * 3.15 := mul_le_mul_of_nonneg_left (by norm_num; linarith) hu.le
      norm_num at hηu hη this ⊢
      linarith
    have hk' := hk (m + 1) (by omega) (by omega)
    push_cast at hk'
    have e : d - 2 * P * (m + 1) = -(2 * P - t) := by rw [ht]; ring
    rw [e] at hk'
    obtain ⟨a1, a2⟩ := abs_le.mp hk'
    obtain ⟨b1, b2⟩ := abs_le.mp hr
    obtain ⟨c1, c2⟩ := abs_le.mp δe
    have hmain : |B.fl (2 * P - δ) - (|x - y - ((m + 1 : ℤ) : ℝ) * (2 * Real.pi)|)| ≤ 42.5 * uu := by
      push_cast
      have h1 : |(|x - y - ((m : ℝ) + 1) * (2 * Real.pi)|) - (2 * P - t)| ≤ 14.001 * uu + 18.9 * uu := by
        have := abs_abs_sub_abs_le (x - y - ((m : ℝ) + 1) * (2 * Real.pi)) (-(2 * P - t))
        rw [abs_neg, abs_of_nonneg (by linarith : 0 ≤ 2 * P - t)] at this
        exact this.trans hk'
      obtain ⟨g1, g2⟩ := abs_le.mp h1
      rw [abs_le]
      norm_num at *
      constructor <;> linarith
    refine ⟨_, m + 1, rfl, B.rounds.val _, B.rounds.nonneg r0, ?_, ?_, hmain⟩
    · have := B.rounds.le fQ (by linarith : 2 * P - δ ≤ 2 * P)
      linarith
    · push_cast
      rw [abs_le]
      norm_num at *
      constructor <;> linarith
  · rename_i hge
    push Not at hge
    have hk' := hk m mb.1 (by omega)
    rw [← ht] at hk'
    obtain ⟨a1, a2⟩ := abs_le.mp hk'
    obtain ⟨c1, c2⟩ := abs_le.mp δe
    have h1 : |(|x - y - (m : ℝ) * (2 * Real.pi)|) - t| ≤ 14.001 * uu + 18.9 * uu := by
      have := abs_abs_sub_abs_le (x - y - (m : ℝ) * (2 * Real.pi)) t
      rw [abs_of_nonneg t0] at this
      exact this.trans hk'
    obtain ⟨g1, g2⟩ := abs_le.mp h1
    refine ⟨δ, m, rfl, hδ ▸ B.rounds.val _, δ0, by linarith, ?_, ?_⟩
    · rw [abs_le]
      norm_num at *
      constructor <;> linarith
    · rw [abs_le]
      norm_num at *
      constructor <;> linarith

/-- angles within `5e-15` of each other modulo a turn count as equal -/
theorem angle_eq_true {x y : ℝ} (hx : |x| ≤ 7) (hy : |y| ≤ 7) {k : ℤ} (h : |x - y - k * (2 * Real.pi)| ≤ 5e-15) :
    eqClose [(angleDiff (F64.fin x : F64 B) (F64.fin y), lit 0)] = true := by
  obtain ⟨r, j, h1, h2, h3, h4, h5, h6⟩ := angleDiff_flt (B := B) hx hy
  have hπ := Real.pi_gt_three
  have hjk : j = k := by
    by_contra hne
    have hz : 1 ≤ |(k - j : ℤ)| := Int.one_le_abs (by omega)
    have hz' : (1 : ℝ) ≤ |((k - j : ℤ) : ℝ)| := by exact_mod_cast hz
    have e : ((k - j : ℤ) : ℝ) * (2 * Real.pi) = (x - y - j * (2 * Real.pi)) - (x - y - k * (2 * Real.pi)) := by push_cast; ring
    have := abs_sub (x - y - j * (2 * Real.pi)) (x - y - k * (2 * Real.pi))
    rw [← e, abs_mul, abs_of_pos (by linarith : 0 < 2 * Real.pi)] at this
    have := mul_le_mul_of_nonneg_right hz' (by linarith : 0 ≤ 2 * Real.pi)
    norm_num at h
    linarith
  rw [hjk] at h6
  rw [h1, lit_zero]
  have hr : r ≤ 9.9e-15 := by
    have := (abs_le.mp h6).2
    have hu : 42.5 * uu ≤ 4.75e-15 := by unfold uu; norm_num
    norm_num at this h hu ⊢
    linarith
  refine isclose_true (by rw [abs_of_nonneg h3]; exact h4.trans (by norm_num)) (by norm_num) h2 isF64_zero (.inl ?_)
  rw [sub_zero, abs_of_nonneg h3]; exact hr

/-- angles further than `1.5e-14` apart modulo a turn count as different -/
theorem angle_eq_false {x y : ℝ} (hx : |x| ≤ 7) (hy : |y| ≤ 7) (h : ∀ k : ℤ, 1.5e-14 ≤ |x - y - k * (2 * Real.pi)|) :
    eqClose [(angleDiff (F64.fin x : F64 B) (F64.fin y), lit 0)] = false := by
  obtain ⟨r, j, h1, h2, h3, h4, h5, h6⟩ := angleDiff_flt (B := B) hx hy
  have hr : 1.01e-14 ≤ r := by
    have := (abs_le.mp h6).1
    have hj := h j
    have hu : 42.5 * uu ≤ 4.75e-15 := by unfold uu; norm_num
    norm_num at this hj hu ⊢
    linarith
  rw [h1, lit_zero]
  refine isclose_false (by rw [abs_of_nonneg h3]; exact h4.trans (by norm_num)) (by norm_num) h2 isF64_zero ?_ ?_
  · rw [sub_zero, abs_of_nonneg h3]; exact hr
  · rw [sub_zero, abs_of_nonneg h3, abs_zero, max_eq_left h3]
    norm_num
    linarith

end
end Nv
