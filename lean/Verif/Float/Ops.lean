import Verif.Float.Vec
import Mathlib.Analysis.Real.Pi.Bounds

/-!
# Rounding errors of `dot`, `cross` and `arctan2`
-/

namespace Nv
open Spec F64
open XR (atan2 atan2_of_ne atan2_nonneg atan2_le_pi neg_pi_le_atan2 abs_atan2_le_pi_div_two)
variable {B : Binary64}

/-- a number given exactly -/
theorem App.of_f64 {x : ℝ} (h : IsF64 x) : App (F64.fin x : F64 B) x 0 := App.exact h

/-- product of two numbers of at most `b` -/
theorem app_mul_exact {x y b : ℝ} (hx : IsF64 x) (hy : IsF64 y) (hb : |x * y| ≤ b) (hlim : b ≤ 10 ^ 60) {e : ℝ}
    (he : uu * b + 1 / 10 ^ 60 ≤ e) : App ((F64.fin x : F64 B) * F64.fin y) (x * y) e :=
  (App.of_f64 hx).mul (App.of_f64 hy) le_rfl le_rfl hb (by simpa using he) (by simpa using hlim)

theorem abs_mul_le' {x y a b c : ℝ} (hx : |x| ≤ a) (hy : |y| ≤ b) (hc : a * b ≤ c) : |x * y| ≤ c := by
  rw [abs_mul]
  exact (mul_le_mul hx hy (abs_nonneg _) ((abs_nonneg _).trans hx)).trans hc

/-- the sum of three products of components of at most 1.1 -/
theorem app_dot3 {v w : V3 ℝ} (hv : IsF64V v) (hw : IsF64V w) (lv : len v ≤ 1.1) (lw : len w ≤ 1.1) :
    App (dot3 (v.flt : V3 (F64 B)) w.flt) (dot v w) (8 * uu) := by
  have bx := abs_mul_le' ((abs_x_le_len v).trans lv) ((abs_x_le_len w).trans lw) (show (1.1 : ℝ) * 1.1 ≤ 1.21 by norm_num)
  have bY := abs_mul_le' ((abs_y_le_len v).trans lv) ((abs_y_le_len w).trans lw) (show (1.1 : ℝ) * 1.1 ≤ 1.21 by norm_num)
  have bz := abs_mul_le' ((abs_z_le_len v).trans lv) ((abs_z_le_len w).trans lw) (show (1.1 : ℝ) * 1.1 ≤ 1.21 by norm_num)
  have bd : |dot v w| ≤ 1.21 := (abs_dot_le v w).trans
    (by nlinarith [len_nonneg' v, len_nonneg' w])
  have h1 := app_mul_exact (B := B) hv.1 hw.1 bx (by norm_num) (e := 1.22 * uu) (by unfold uu; norm_num)
  have h2 := app_mul_exact (B := B) hv.2.1 hw.2.1 bY (by norm_num) (e := 1.22 * uu) (by unfold uu; norm_num)
  have h3 := app_mul_exact (B := B) hv.2.2 hw.2.2 bz (by norm_num) (e := 1.22 * uu) (by unfold uu; norm_num)
  have h12 := h1.add h2 (b := 2.42) (e := 4.87 * uu) ((abs_add_le _ _).trans (by linarith)) (by unfold uu; norm_num)
    (by unfold uu; norm_num)
  exact h12.add h3 (b := 1.21) bd (by unfold uu; norm_num) (by unfold uu; norm_num)

/-- the vector product of vectors of length at most 1.1 -/
theorem app_cross3 {v w : V3 ℝ} (hv : IsF64V v) (hw : IsF64V w) (lv : len v ≤ 1.1) (lw : len w ≤ 1.1) :
    App3 (cross3 (v.flt : V3 (F64 B)) w.flt) (cross v w) (4 * uu) := by
  have hc : len (cross v w) ≤ 1.21 := by
    have h1 := lagrange v w
    have l1 := len_nonneg' v
    have l2 := len_nonneg' w
    have h2 : len v * len w ≤ 1.21 := by nlinarith
    refine le_trans (abs_le_of_sq_le_sq' (a := len (cross v w)) (b := len v * len w) ?_ (by positivity)).2 h2
    rw [h1, mul_pow]; nlinarith [sq_nonneg (dot v w)]
  have vx := (abs_x_le_len v).trans lv
  have vy := (abs_y_le_len v).trans lv
  have vz := (abs_z_le_len v).trans lv
  have wx := (abs_x_le_len w).trans lw
  have wy := (abs_y_le_len w).trans lw
  have wz := (abs_z_le_len w).trans lw
  have key : ∀ {a b c d t : ℝ}, IsF64 a → IsF64 b → IsF64 c → IsF64 d → |a| ≤ 1.1 → |b| ≤ 1.1 → |c| ≤ 1.1 → |d| ≤ 1.1 →
      t = a * b - c * d → |t| ≤ 1.21 →
      App ((F64.fin a : F64 B) * F64.fin b - F64.fin c * F64.fin d) t (4 * uu) := by
    intro a b c d t ha hb hc hd ba bb bc bd ht hbt
    have h1 := app_mul_exact (B := B) ha hb (abs_mul_le' ba bb (show (1.1 : ℝ) * 1.1 ≤ 1.21 by norm_num)) (by norm_num)
      (e := 1.22 * uu) (by unfold uu; norm_num)
    have h2 := app_mul_exact (B := B) hc hd (abs_mul_le' bc bd (show (1.1 : ℝ) * 1.1 ≤ 1.21 by norm_num)) (by norm_num)
      (e := 1.22 * uu) (by unfold uu; norm_num)
    rw [ht] at hbt ⊢
    exact h1.sub h2 (b := 1.21) hbt (by unfold uu; norm_num) (by unfold uu; norm_num)
  exact ⟨key hv.2.1 hw.2.2 hv.2.2 hw.2.1 vy wz vz wy rfl ((abs_x_le_len _).trans hc),
    key hv.2.2 hw.1 hv.1 hw.2.2 vz wx vx wz rfl ((abs_y_le_len _).trans hc),
    key hv.1 hw.2.1 hv.2.1 hw.1 vx wy vy wx rfl ((abs_z_le_len _).trans hc)⟩

/-- the computed `arctan2` of exact arguments -/
theorem arctan2_close' {y x e : ℝ} (h : ¬ (x = 0 ∧ y = 0)) (he : 13 * uu ≤ e) :
    App (PyFloat.arctan2 (F64.fin y : F64 B) (F64.fin x)) (atan2 y x) e := by
  refine ⟨_, fin_arctan2 h, B.arctan2_val _ _, ?_⟩
  rw [atan2_of_ne h]
  refine libm_close (b := 3.15) (B.arctan2_close y x h) ?_ (le_trans (by unfold uu; norm_num) he)
  exact (Complex.abs_arg_le_pi _).trans Real.pi_lt_d2.le

/-- the computed `arctan2` of approximate arguments in the upper half plane -/
theorem App.arctan2_upper {Y X : F64 B} {y x ey ex r ρ e : ℝ} (hY : App Y y ey) (hX : App X x ex) (hy : 0 ≤ y)
    (hYn : ∀ v, Y = F64.fin v → 0 ≤ v) (hr : 0 < r) (hrr : r ^ 2 = x ^ 2 + y ^ 2) (hρ0 : 0 ≤ ρ) (hρ : ρ ≤ 1 / 2)
    (h : ex ^ 2 + ey ^ 2 ≤ (ρ * r) ^ 2) (he : 1.575 * ρ + 13 * uu ≤ e) :
    App (PyFloat.arctan2 Y X) (atan2 y x) e := by
  obtain ⟨v, rfl, fv, hv⟩ := hY
  obtain ⟨w, rfl, fw, hw⟩ := hX
  have hv0 := hYn v rfl
  have hd : (w - x) ^ 2 + (v - y) ^ 2 ≤ (ρ * r) ^ 2 := by
    have := sq_le_of_abs_le hv
    have := sq_le_of_abs_le hw
    linarith
  have hp := atan2_perturb_upper hr hrr hρ hd hρ0 hy hv0
  have hne : ¬ (w = 0 ∧ v = 0) := by
    rintro ⟨rfl, rfl⟩
    have h1 : ρ * r < r := by nlinarith
    have : (ρ * r) ^ 2 < r ^ 2 := pow_lt_pow_left₀ h1 (by positivity) (by norm_num)
    nlinarith
  refine (arctan2_close' hne le_rfl).shift (b := 1.575 * ρ) (hp.trans ?_) (by linarith)
  have := Real.pi_lt_d2
  nlinarith

/-- the computed `arctan2` of approximate arguments in the right half plane -/
theorem App.arctan2_right {Y X : F64 B} {y x ey ex r ρ e : ℝ} (hY : App Y y ey) (hX : App X x ex) (hx : 0 ≤ x)
    (hXn : ∀ v, X = F64.fin v → 0 ≤ v) (hr : 0 < r) (hrr : r ^ 2 = x ^ 2 + y ^ 2) (hρ0 : 0 ≤ ρ) (hρ : ρ ≤ 1 / 2)
    (h : ex ^ 2 + ey ^ 2 ≤ (ρ * r) ^ 2) (he : 1.575 * ρ + 6.4 * uu ≤ e) :
    App (PyFloat.arctan2 Y X) (atan2 y x) e := by
  obtain ⟨v, rfl, fv, hv⟩ := hY
  obtain ⟨w, rfl, fw, hw⟩ := hX
  have hv0 := hXn w rfl
  have hd : (w - x) ^ 2 + (v - y) ^ 2 ≤ (ρ * r) ^ 2 := by
    have := sq_le_of_abs_le hv
    have := sq_le_of_abs_le hw
    linarith
  have hp := atan2_perturb_right hr hrr hρ hd hρ0 hx hv0
  have hne : ¬ (w = 0 ∧ v = 0) := by
    rintro ⟨rfl, rfl⟩
    have h1 : ρ * r < r := by nlinarith
    have : (ρ * r) ^ 2 < r ^ 2 := pow_lt_pow_left₀ h1 (by positivity) (by norm_num)
    nlinarith
  have hc : App (PyFloat.arctan2 (F64.fin v : F64 B) (F64.fin w)) (atan2 v w) (6.4 * uu) := by
    refine ⟨_, fin_arctan2 hne, B.arctan2_val _ _, ?_⟩
    have hb := abs_atan2_le_pi_div_two hne hv0
    rw [atan2_of_ne hne] at hb ⊢
    exact libm_close (b := 1.58) (B.arctan2_close v w hne) (hb.trans (by linarith [Real.pi_lt_d2])) (by unfold uu; norm_num)
  refine hc.shift (b := 1.575 * ρ) (hp.trans ?_) (by linarith)
  have := Real.pi_lt_d2
  nlinarith

/-- the computed `arctan2` of approximate arguments, up to whole turns -/
theorem App.arctan2_turn {Y X : F64 B} {y x ey ex r ρ e : ℝ} (hY : App Y y ey) (hX : App X x ex)
    (hr : 0 < r) (hrr : r ^ 2 = x ^ 2 + y ^ 2) (hρ0 : 0 ≤ ρ) (hρ : ρ ≤ 1 / 2)
    (h : ex ^ 2 + ey ^ 2 ≤ (ρ * r) ^ 2) (he : 1.575 * ρ + 13 * uu ≤ e) :
    ∃ k : ℤ, App (PyFloat.arctan2 Y X) (atan2 y x + k * (2 * Real.pi)) e := by
  obtain ⟨v, rfl, fv, hv⟩ := hY
  obtain ⟨w, rfl, fw, hw⟩ := hX
  have hd : (w - x) ^ 2 + (v - y) ^ 2 ≤ (ρ * r) ^ 2 := by
    have := sq_le_of_abs_le hv
    have := sq_le_of_abs_le hw
    linarith
  obtain ⟨k, hp⟩ := atan2_perturb hr hrr (by linarith) hd hρ0
  have hne : ¬ (w = 0 ∧ v = 0) := by
    rintro ⟨rfl, rfl⟩
    have h1 : ρ * r < r := by nlinarith
    have : (ρ * r) ^ 2 < r ^ 2 := pow_lt_pow_left₀ h1 (by positivity) (by norm_num)
    nlinarith
  refine ⟨k, (arctan2_close' hne le_rfl).shift (b := 1.575 * ρ) ?_ (by linarith)⟩
  rw [← sub_sub]
  refine hp.trans ?_
  have := Real.pi_lt_d2
  nlinarith

/-- the computed length of a computed vector -/
theorem App3.norm {V : V3 (F64 B)} {v : V3 ℝ} {e e' b : ℝ} (h : App3 V v e) (hb : len v + 1.7321 * e ≤ b) (hlim : b ≤ 10 ^ 25)
    (he : 1.7321 * e + 4.02 * uu * b + 1 / 10 ^ 75 ≤ e') :
    ∃ N, norm3 V = F64.fin N ∧ IsF64 N ∧ 0 ≤ N ∧ |N - len v| ≤ e' := by
  obtain ⟨w, rfl, _, h1, h2, h3⟩ := h.get
  have hl := len_close h1 h2 h3
  have hlw : len w ≤ b := by linarith [(abs_le.mp hl).2]
  refine ⟨_, norm3_flt (hlw.trans hlim), B.rounds.val _, flNorm_nonneg B.rounds _ _ _, ?_⟩
  have h4 := flNorm_close B.rounds w
  have h5 : 4.02 * uu * len w ≤ 4.02 * uu * b := mul_le_mul_of_nonneg_left hlw (by linarith [uu_pos])
  have := abs_add_le (flNorm B.fl w.x w.y w.z - len w) (len w - len v)
  rw [show flNorm B.fl w.x w.y w.z - len w + (len w - len v) = flNorm B.fl w.x w.y w.z - len v by ring] at this
  linarith

end Nv
