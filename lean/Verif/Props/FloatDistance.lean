import Verif.Float.Ops
import Verif.Model.Core

/-!
# Distances in binary64

`B` ranges over all binary64 implementations (round to nearest after every operation; library functions with a relative error of
at most `2^-51`).  The vectors are those the library accepts without a warning: binary64 components and a length between 0.9 and
1.1.
-/

namespace Nv
open Spec F64
variable (B : Binary64)

/-- the computed angle between two n-vectors -/
theorem app_theta {v w : V3 ℝ} (hv : IsF64V v) (hw : IsF64V w) (v1 : 0.9 ≤ len v) (v2 : len v ≤ 1.1) (w1 : 0.9 ≤ len w)
    (w2 : len w ≤ 1.1) :
    App (PyFloat.arctan2 (norm3 (cross3 (v.flt : V3 (F64 B)) w.flt)) (dot3 v.flt w.flt)) (angle v w) (45 * uu) := by
  have v0 : v ≠ 0 := by rintro rfl; simp [len] at v1; norm_num at v1
  have w0 : w ≠ 0 := by rintro rfl; simp [len] at w1; norm_num at w1
  have l1 := len_nonneg' v
  have l2 := len_nonneg' w
  have hp1 : 0.81 ≤ len v * len w := by nlinarith
  have hp2 : len v * len w ≤ 1.21 := by nlinarith
  have hlag := lagrange v w
  have hcl : len (cross v w) ≤ 1.21 := by
    refine le_trans (abs_le_of_sq_le_sq' (a := len (cross v w)) (b := len v * len w) ?_ (by positivity)).2 hp2
    rw [hlag, mul_pow]; nlinarith [sq_nonneg (dot v w)]
  obtain ⟨N, hN, fN, N0, eN⟩ := (app_cross3 (B := B) hv hw v2 w2).norm (b := 1.22) (e' := 12 * uu)
    (by unfold uu; linarith) (by norm_num) (by unfold uu; norm_num)
  have hd := app_dot3 (B := B) hv hw v2 w2
  rw [← atan2_cross_dot v0 w0]
  have hY : App (norm3 (cross3 (v.flt : V3 (F64 B)) w.flt)) (len (cross v w)) (12 * uu) := ⟨N, hN, fN, eN⟩
  refine hY.arctan2_upper hd (len_nonneg' _) ?_ (r := len v * len w) (by linarith) ?_ (ρ := 19 * uu) (by linarith [uu_pos])
    (by unfold uu; norm_num) ?_ (by unfold uu; norm_num)
  · intro u hu; rw [hN, fin_inj] at hu; rwa [← hu]
  · rw [hlag]; ring
  · have hu := uu_pos
    have h1 : (19 * uu * 0.81) ^ 2 ≤ (19 * uu * (len v * len w)) ^ 2 :=
      pow_le_pow_left₀ (by positivity) (mul_le_mul_of_nonneg_left hp1 (by positivity)) 2
    have : (8 * uu) ^ 2 + (12 * uu) ^ 2 ≤ (19 * uu * 0.81) ^ 2 := by
      have := mul_self_nonneg uu
      nlinarith
    linarith

/-- **C72** the computed great circle distance is the exact one up to `6e-15` of the radius (40 nanometres on the Earth): for
coinciding, close, far and antipodal positions alike -/
theorem C72_great_circle_distance {v w : V3 ℝ} (hv : IsF64V v) (hw : IsF64V w) (v1 : 0.9 ≤ len v) (v2 : len v ≤ 1.1)
    (w1 : 0.9 ≤ len w) (w2 : len w ≤ 1.1) {R : ℝ} (hR : IsF64 R) (R1 : 1e-20 ≤ R) (R2 : R ≤ 1e20) :
    ∃ d, great_circle_distance (v.flt : V3 (F64 B)) w.flt (F64.fin R) = F64.fin d ∧ |d - angle v w * R| ≤ 6e-15 * R := by
  have hθ := app_theta B hv hw v1 v2 w1 w2
  have hπ := Real.pi_lt_d2
  have ha0 := angle_nonneg v w
  have ha : |angle v w| ≤ 3.15 := by rw [abs_of_nonneg ha0]; exact (angle_le_pi v w).trans hπ.le
  have hRa : |R| ≤ R := (abs_of_nonneg (by linarith)).le
  obtain ⟨d, h1, _, h2⟩ := hθ.mul (App.of_f64 (B := B) hR) (bx := 3.15) (bY := R) (b := 3.15 * R) (e := 6e-15 * R) ha hRa
    (abs_mul_le' ha hRa le_rfl) (by unfold uu; nlinarith) (by unfold uu; nlinarith)
  exact ⟨d, h1, h2⟩

/-- **C72** the computed distance from a position to itself is exactly zero -/
theorem C72_same_position {v : V3 ℝ} (hv : IsF64V v) (v1 : 0.9 ≤ len v) (v2 : len v ≤ 1.1) {R : ℝ} :
    great_circle_distance (v.flt : V3 (F64 B)) v.flt (F64.fin R) = F64.fin 0 := by
  have vx := (abs_x_le_len v).trans v2
  have vy := (abs_y_le_len v).trans v2
  have vz := (abs_z_le_len v).trans v2
  have key : ∀ {a b : ℝ}, |a| ≤ 1.1 → |b| ≤ 1.1 → (F64.fin a : F64 B) * F64.fin b - F64.fin b * F64.fin a = F64.fin 0 := by
    intro a b ha hb
    have h1 := abs_mul_le' ha hb (show (1.1 : ℝ) * 1.1 ≤ 10 ^ 60 by norm_num)
    rw [fin_mul h1, fin_mul (by rw [mul_comm]; exact h1), mul_comm b a, fin_sub (by simp), sub_self, B.rounds.zero]
  have hc : cross3 (v.flt : V3 (F64 B)) v.flt = V3.flt ⟨0, 0, 0⟩ := by
    unfold cross3 V3.flt
    simp only [key vy vz, key vz vx, key vx vy]
  have hn : norm3 (V3.flt ⟨0, 0, 0⟩ : V3 (F64 B)) = F64.fin 0 := by
    rw [norm3_flt (by simp [len])]
    simp [flNorm, B.rounds.zero]
  obtain ⟨d, hd, _, he⟩ := app_dot3 (B := B) hv hv v2 v2
  have hdd : dot v v = len v ^ 2 := by
    unfold len dot; rw [Real.sq_sqrt (by positivity)]; ring
  have hd0 : 0 < d := by
    have h1 := (abs_le.mp he).1
    have h2 : 8 * uu ≤ 0.1 := by unfold uu; norm_num
    rw [hdd] at h1
    nlinarith
  unfold great_circle_distance
  dsimp only
  rw [hc, hn, hd, fin_arctan2 (by rintro ⟨h, _⟩; exact hd0.ne' h), B.arctan2_zero d hd0, fin_mul (by simp), zero_mul,
    B.rounds.zero]

set_option maxHeartbeats 800000 in
/-- the computed length of the difference of two positions -/
theorem chord_flt {v w : V3 ℝ} (v2 : len v ≤ 1.1) (w2 : len w ≤ 1.1) :
    ∃ N, norm3 (sub3 (w.flt : V3 (F64 B)) v.flt) = F64.fin N ∧ IsF64 N ∧ 0 ≤ N ∧ N ≤ 5 ∧ |N - len (w - v)| ≤ 5.07 * uu * len (w - v) + 2 / 10 ^ 75 := by
  have hu := uu_pos
  have hu1 : uu ≤ 1 / 10 ^ 10 := by unfold uu; norm_num
  have he := eta_small
  have he0 := eta_pos
  have sx : |w.x - v.x| ≤ 2.2 := (abs_sub _ _).trans (by linarith [(abs_x_le_len v).trans v2, (abs_x_le_len w).trans w2])
  have sy : |w.y - v.y| ≤ 2.2 := (abs_sub _ _).trans (by linarith [(abs_y_le_len v).trans v2, (abs_y_le_len w).trans w2])
  have sz : |w.z - v.z| ≤ 2.2 := (abs_sub _ _).trans (by linarith [(abs_z_le_len v).trans v2, (abs_z_le_len w).trans w2])
  obtain ⟨D, hD⟩ : ∃ D : V3 ℝ, D = ⟨B.fl (w.x - v.x), B.fl (w.y - v.y), B.fl (w.z - v.z)⟩ := ⟨_, rfl⟩
  have hsub : sub3 (w.flt : V3 (F64 B)) v.flt = D.flt := by
    unfold sub3 V3.flt
    simp only [hD]
    rw [fin_sub (sx.trans (by norm_num)), fin_sub (sy.trans (by norm_num)), fin_sub (sz.trans (by norm_num))]
  have hl : |len D - len (w - v)| ≤ uu * len (w - v) + 1.7321 * eta := by
    refine len_close_rel hu.le he0.le ?_ ?_ ?_ <;> rw [hD]
    exacts [B.rounds.err_add (w.x - v.x), B.rounds.err_add (w.y - v.y), B.rounds.err_add (w.z - v.z)]
  have l0 := len_nonneg' (w - v)
  have l1 : len (w - v) ≤ 4 := by
    have := len_le_of_comp (v := w - v) (e := 2.2) sx sy sz
    linarith
  have lD := len_nonneg' D
  have hb := abs_le.mp hl
  have lD2 : len D ≤ 1.01 * len (w - v) + 2 * eta := by nlinarith
  have hn := flNorm_close B.rounds D
  obtain ⟨N, hN⟩ : ∃ N, N = flNorm B.fl D.x D.y D.z := ⟨_, rfl⟩
  have hN0 : 0 ≤ N := hN ▸ flNorm_nonneg B.rounds _ _ _
  rw [← hN] at hn
  have hn' := abs_le.mp hn
  have hη : eta ≤ 1 / 10 ^ 76 := by
    have : eta ≤ (2 : ℝ) ^ (-250 : ℤ) * 2 ^ (-250 : ℤ) := by
      rw [← zpow_add₀ (by norm_num)]; exact eta_le (by norm_num)
    refine this.trans ?_
    norm_num
  obtain ⟨l, hl'⟩ : ∃ l, l = len (w - v) := ⟨_, rfl⟩
  rw [← hl'] at hl hb l0 l1 lD2 ⊢
  have hul : 0 ≤ uu * l := mul_nonneg hu.le l0
  have hue : uu * eta ≤ eta := by nlinarith
  have hml := mul_le_mul_of_nonneg_left lD2 hu.le
  have hNl : |N - l| ≤ 5.07 * uu * l + 2 / 10 ^ 75 := by
    rw [abs_le]
    constructor <;> nlinarith
  have hNb : N ≤ 5 := by
    have := (abs_le.mp hNl).2
    nlinarith
  refine ⟨N, ?_, hN ▸ B.rounds.val _, hN0, hNb, hNl⟩
  rw [hsub, norm3_flt (by linarith), ← hN]

/-- **C73** the computed Euclidean distance has a relative error below `8e-16`, however close the positions are -/
theorem C73_euclidean_distance {v w : V3 ℝ} (v2 : len v ≤ 1.1) (w2 : len w ≤ 1.1) {R : ℝ} (hR : IsF64 R) (R1 : 0 ≤ R)
    (R2 : R ≤ 1e20) :
    ∃ d, euclidean_distance (v.flt : V3 (F64 B)) w.flt (F64.fin R) = F64.fin d ∧
      |d - len (w - v) * R| ≤ 8e-16 * (len (w - v) * R) + 1e-50 := by
  have hu := uu_pos
  have hu1 : uu ≤ 1 / 10 ^ 10 := by unfold uu; norm_num
  have he := eta_small
  have he0 := eta_pos
  have hη : eta ≤ 1 / 10 ^ 76 := by
    have : eta ≤ (2 : ℝ) ^ (-250 : ℤ) * 2 ^ (-250 : ℤ) := by
      rw [← zpow_add₀ (by norm_num)]; exact eta_le (by norm_num)
    refine this.trans ?_
    norm_num
  obtain ⟨N, hNe, -, hN0, hNb, hNl⟩ := chord_flt B v2 w2
  have l0 := len_nonneg' (w - v)
  generalize len (w - v) = l at *
  have hul : 0 ≤ uu * l := mul_nonneg hu.le l0
  have hue : uu * eta ≤ eta := by nlinarith
  have hNR : |N * R| ≤ 10 ^ 60 := by
    rw [abs_of_nonneg (by positivity)]; nlinarith
  refine ⟨B.fl (N * R), ?_, ?_⟩
  · unfold euclidean_distance
    rw [hNe, fin_mul hNR]
  · have h1 := B.rounds.err_add (N * R)
    rw [abs_of_nonneg (by positivity : 0 ≤ N * R)] at h1
    have h2 : |N * R - l * R| ≤ 5.07 * uu * (l * R) + 2 / 10 ^ 75 * R := by
      rw [← sub_mul, abs_mul, abs_of_nonneg R1]
      have := mul_le_mul_of_nonneg_right hNl R1
      nlinarith
    have h3 := (abs_le.mp h2).2
    have hlR : 0 ≤ l * R := by positivity
    have h4 : uu * (N * R) ≤ uu * (1.01 * (l * R)) + 2 / 10 ^ 75 * R := by
      have : N * R ≤ 1.01 * (l * R) + 2 / 10 ^ 75 * R := by nlinarith
      have := mul_le_mul_of_nonneg_left this hu.le
      have h5 : uu * (2 / 10 ^ 75 * R) ≤ 1 * (2 / 10 ^ 75 * R) := mul_le_mul_of_nonneg_right (by linarith) (by positivity)
      linarith
    have h5 := abs_add_le (B.fl (N * R) - N * R) (N * R - l * R)
    rw [show B.fl (N * R) - N * R + (N * R - l * R) = B.fl (N * R) - l * R by ring] at h5
    have h6 : 4 / 10 ^ 75 * R + eta ≤ 1e-50 := by
      have := mul_le_mul_of_nonneg_left R2 (by norm_num : (0 : ℝ) ≤ 4 / 10 ^ 75)
      norm_num at this ⊢
      norm_num at he
      linarith
    have h7 : 6.08 * uu * (l * R) ≤ 8e-16 * (l * R) := mul_le_mul_of_nonneg_right (by unfold uu; norm_num) hlR
    linarith

end Nv
