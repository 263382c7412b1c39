import Verif.Float.Position
import Verif.Float.RelS

/-!
# `n_EB_E2p_EB_E` in binary64
-/

namespace Nv
open Spec F64

section
variable {B : Binary64} {X Y : F64 B}

/-- componentwise relative error -/
def RelS3 (V : V3 (F64 B)) (v : V3 ℝ) (k d : ℝ) : Prop := RelS V.x v.x k d ∧ RelS V.y v.y k d ∧ RelS V.z v.z k d

theorem relS3_unit {v : V3 ℝ} (h1 : (2 : ℝ) ^ (-500 : ℤ) ≤ len v) (h2 : len v ≤ (2 : ℝ) ^ (500 : ℕ)) :
    RelS3 (unit (v.flt : V3 (F64 B))) (dirOf v) 5.05 1e-200 := by
  obtain ⟨w, hw, ⟨f1, f2, f3⟩, w1, w2, w3⟩ := unit_flt (B := B) h1 h2
  have he := eta_tiny
  rw [show (1 : ℝ) / 10 ^ 200 = 1e-200 by norm_num] at he
  have e : ∀ t : ℝ, (len v)⁻¹ * t = t / len v := fun t => by rw [div_eq_inv_mul]
  rw [hw]
  unfold dirOf
  refine ⟨⟨w.x, rfl, f1, ?_⟩, ⟨w.y, rfl, f2, ?_⟩, ⟨w.z, rfl, f3, ?_⟩⟩
  · rw [smul_x, e]; linarith
  · rw [smul_y, e]; linarith
  · rw [smul_z, e]; linarith

/-- the computed length of a computed vector -/
theorem RelS3.norm {V : V3 (F64 B)} {v : V3 ℝ} {k d k' d' : ℝ} (h : RelS3 V v k d) (h0 : 0 ≤ k) (h1 : k ≤ 1e5) (hd0 : 0 ≤ d) (hd : d ≤ 1e-100)
    (l1 : 0.5 ≤ len v) (l2 : len v ≤ 10) (hk' : k + 4.04 ≤ k') (hd' : 2 * d ≤ d') : Rel (norm3 V) (len v) k' d' := by
  obtain ⟨⟨x, hx, fx, ex⟩, ⟨y, hy, fy, ey⟩, ⟨z, hz, fz, ez⟩⟩ := h
  obtain ⟨w, hw⟩ : ∃ w : V3 ℝ, w = ⟨x, y, z⟩ := ⟨_, rfl⟩
  have hVw : V = w.flt := by
    cases V; simp only at hx hy hz; subst hx hy hz; rw [hw]; rfl
  have hu := uu_pos
  have hku : k * uu ≤ 0.0001 := by
    calc k * uu ≤ 1e5 * uu := mul_le_mul_of_nonneg_right h1 hu.le
      _ ≤ _ := by unfold uu; norm_num
  have hl := len_close_rel (v := v) (w := w) (by positivity : 0 ≤ k * uu) hd0 (by rw [hw]; exact ex) (by rw [hw]; exact ey) (by rw [hw]; exact ez)
  have hl' := abs_le.mp hl
  have hkl : k * uu * len v ≤ 0.0001 * len v := mul_le_mul_of_nonneg_right hku (by linarith)
  have hd1 : d ≤ 1e-4 := hd.trans (by norm_num)
  have w1 : 0.4 ≤ len w := by norm_num at hl' hkl hd1 ⊢; linarith
  have w2 : len w ≤ 11 := by norm_num at hl' hkl hd1 ⊢; linarith
  have hN := flNorm_rel B.rounds (v := w) (le_trans (by
      calc (2 : ℝ) ^ (-500 : ℤ) ≤ 2 ^ (-2 : ℤ) := zpow_le_zpow_right₀ (by norm_num) (by norm_num)
        _ ≤ 0.4 := by norm_num) w1)
  refine ⟨flNorm B.fl w.x w.y w.z, ?_, B.rounds.val _, by linarith, flNorm_nonneg B.rounds _ _ _, ?_⟩
  · rw [hVw]; exact norm3_flt (w2.trans (by norm_num))
  · have t := abs_add_le (flNorm B.fl w.x w.y w.z - len w) (len w - len v)
    rw [sub_add_sub_cancel] at t
    have a1 : 4.03 * uu * len w ≤ 4.03 * uu * (len v + (k * uu * len v + 1.7321 * d)) := mul_le_mul_of_nonneg_left (by linarith) (by positivity)
    have a2 : uu * (k * uu * len v) ≤ uu * (0.0001 * len v) := mul_le_mul_of_nonneg_left hkl hu.le
    have a3 : uu * d ≤ 0.01 * d := mul_le_mul_of_nonneg_right (by unfold uu; norm_num) hd0
    have a4 : (k + 4.04) * (uu * len v) ≤ k' * (uu * len v) := mul_le_mul_of_nonneg_right hk' (by positivity)
    have a5 : 0 ≤ uu * len v := by positivity
    linarith only [a1, a2, a3, a4, t, hl, hN, hd', a5, hd0]

theorem Dell_bounds {f : ℝ} (f0 : 0 ≤ f) (f1 : f ≤ 0.01) {m : V3 ℝ} (hm : UnitVec m) :
    1 - f ≤ Dell f m ∧ Dell f m ≤ 1 ∧ (1 - f) * |m.x| ≤ Dell f m ∧ |m.y| ≤ Dell f m ∧ |m.z| ≤ Dell f m := by
  have hD2 := Dell_sq f m
  have hD0 : 0 ≤ Dell f m := Real.sqrt_nonneg _
  unfold UnitVec at hm
  have g0 : 0 ≤ 1 - f := by norm_num at f1; linarith
  have hg1 : (1 - f) ^ 2 ≤ 1 := by nlinarith
  have hg0 : 0 ≤ (1 - f) ^ 2 := sq_nonneg _
  have x0 := sq_nonneg m.x; have y0 := sq_nonneg m.y; have z0 := sq_nonneg m.z
  have h1 : (1 - f) ^ 2 * m.x ^ 2 ≤ 1 * m.x ^ 2 := mul_le_mul_of_nonneg_right hg1 x0
  have h2 : (1 - f) ^ 2 * (m.y ^ 2 + m.z ^ 2) ≤ 1 * (m.y ^ 2 + m.z ^ 2) := mul_le_mul_of_nonneg_right hg1 (by linarith)
  have h3 : 0 ≤ (1 - f) ^ 2 * m.x ^ 2 := by positivity
  refine ⟨?_, ?_, ?_, ?_, ?_⟩
  · apply abs_le_of_sq_le_sq' _ hD0 |>.2
    rw [hD2]
    have : (1 - f) ^ 2 * (m.x ^ 2 + m.y ^ 2 + m.z ^ 2) = (1 - f) ^ 2 := by rw [hm, mul_one]
    linarith
  · apply abs_le_of_sq_le_sq' _ zero_le_one |>.2
    rw [hD2]; linarith
  · apply abs_le_of_sq_le_sq' _ hD0 |>.2
    rw [hD2, mul_pow, sq_abs]; linarith
  · apply abs_le_of_sq_le_sq' _ hD0 |>.2
    rw [hD2, sq_abs]; linarith
  · apply abs_le_of_sq_le_sq' _ hD0 |>.2
    rw [hD2, sq_abs]; linarith

/-- the last steps for one component: `σ v / g² - v d` -/
theorem app_comp {S V Q : F64 B} {σ v q a d s : ℝ} (hS : Rel S σ 14.12 1e-187) (hV : RelS V v 5.05 1e-200) (hQ : Rel Q q 3.01 1e-190)
    (q1 : 0.98 ≤ q) (a1 : 1 ≤ a) (a2 : a ≤ 1e10) (hσ : σ ≤ a) (hv : |v| ≤ 1) (hs : s = σ * v / q) (hsa : |s| ≤ a) (fd : IsF64 d)
    (hd : |d| ≤ 1e30) : App (S * V / Q - V * fin d) (s - v * d) (25.3 * (uu * a) + 7.1 * (uu * |d|)) := by
  have hu := uu_pos
  have σ0 := hS.nonneg
  have hσv : |σ * v| ≤ a := by
    rw [abs_mul, abs_of_nonneg σ0]
    calc σ * |v| ≤ a * 1 := mul_le_mul hσ hv (abs_nonneg _) (by linarith)
      _ = a := mul_one a
  have r1 := hS.relS.mul hV (bx := 1e10) (bY := 1) (b := 1e10) (k := 20.18) (d := 1e-186) (by rw [abs_of_nonneg σ0]; linarith) hv (hσv.trans a2)
    (by norm_num) (by norm_num) (by norm_num) (by norm_num) (by norm_num) (by norm_num) (by norm_num) (by norm_num) (by norm_num)
  have r2 := r1.div hQ (m := 0.98) (b := 1e10) (k := 24.2) (d := 1e-185) q1 (by norm_num) (by rw [← hs]; exact hsa.trans a2) (by norm_num) (by norm_num)
    (by norm_num) (by norm_num) (by norm_num) (by norm_num) (by norm_num) (by norm_num) (by norm_num)
  rw [← hs] at r2
  have hvd : |v * d| ≤ |d| := by
    rw [abs_mul]
    calc |v| * |d| ≤ 1 * |d| := mul_le_mul_of_nonneg_right hv (abs_nonneg _)
      _ = _ := one_mul _
  have r3 := hV.mul (RelS.exact (B := B) fd) (bx := 1) (bY := 1e30) (b := 1e30) (k := 6.06) (d := 1e-169) hv hd (hvd.trans hd)
    (by norm_num) (by norm_num) (by norm_num) (by norm_num) (by norm_num) (by norm_num) (by norm_num) (by norm_num) (by norm_num)
  have hua : uu * 1 ≤ uu * a := mul_le_mul_of_nonneg_left a1 hu.le
  have t1 : (1e-185 : ℝ) ≤ 0.001 * (uu * 1) := by unfold uu; norm_num
  have t2 : (1e-169 : ℝ) ≤ 0.001 * (uu * 1) := by unfold uu; norm_num
  have t3 : (1 / 10 ^ 60 : ℝ) ≤ 0.001 * (uu * 1) := by unfold uu; norm_num
  have s1 := r2.app (e := 24.201 * (uu * a)) hsa (by norm_num) (by rw [mul_assoc]; norm_num at t1 hua ⊢; linarith only [t1, hua])
  have s2 := r3.app (e := 6.06 * (uu * |d|) + 0.001 * (uu * a)) hvd (by norm_num) (by rw [mul_assoc]; norm_num at t2 hua ⊢; linarith only [t2, hua])
  clear r1 r2 r3 hS hV hQ
  have hd0 := abs_nonneg d
  have huu : uu * (uu * a) ≤ 1e-10 * (uu * a) := mul_le_mul_of_nonneg_right (by unfold uu; norm_num) (by positivity)
  have hud : uu * (uu * |d|) ≤ 1e-10 * (uu * |d|) := mul_le_mul_of_nonneg_right (by unfold uu; norm_num) (by positivity)
  have hu1 : uu * a ≤ 1 * a := mul_le_mul_of_nonneg_right (by unfold uu; norm_num) (by positivity)
  have hu2 : uu * |d| ≤ 1 * |d| := mul_le_mul_of_nonneg_right (by unfold uu; norm_num) (by positivity)
  have hud0 : 0 ≤ uu * |d| := by positivity
  refine s1.sub s2 (b := a + |d|) ?_ ?_ ?_
  · have := abs_sub s (v * d)
    linarith
  · have e : uu * (a + |d| + (24.201 * (uu * a) + (6.06 * (uu * |d|) + 0.001 * (uu * a)))) =
      uu * a + uu * |d| + 24.202 * (uu * (uu * a)) + 6.06 * (uu * (uu * |d|)) := by ring
    rw [e]
    norm_num at huu hud t3 hua ⊢
    linarith only [huu, hud, t3, hua, hud0, hu]
  · norm_num at hu1 hu2 a2 hd ⊢
    linarith only [hu1, hu2, a2, hd]

set_option maxHeartbeats 1600000 in
/-- `n_EB_E2p_EB_E` in binary64, next to the exact position -/
theorem n2p_flt {a f d : ℝ} {n : V3 ℝ} {R : M3 ℝ} (hR : IsAxes R) (fa : IsF64 a) (a1 : 1 ≤ a) (a2 : a ≤ 1e10) (ff : IsF64 f) (f0 : 0 ≤ f)
    (f1 : f ≤ 0.01) (fd : IsF64 d) (hd : |d| ≤ 1e30) (hn : IsF64V n) (n1 : (2 : ℝ) ^ (-500 : ℤ) ≤ len n) (n2 : len n ≤ 10 ^ 60) :
    ∃ P : V3 ℝ, n_EB_E2p_EB_E (n.flt : V3 (F64 B)) (fin d) (fin a) (fin f) R.flt = P.flt ∧ IsF64V P ∧
      |P.x - (app (transp R) (posE a f (app R (dirOf n)) d)).x| ≤ 25.3 * (uu * a) + 7.1 * (uu * |d|) ∧
      |P.y - (app (transp R) (posE a f (app R (dirOf n)) d)).y| ≤ 25.3 * (uu * a) + 7.1 * (uu * |d|) ∧
      |P.z - (app (transp R) (posE a f (app R (dirOf n)) d)).z| ≤ 25.3 * (uu * a) + 7.1 * (uu * |d|) := by
  have hu := uu_pos
  obtain ⟨hm1, hm2⟩ := mulVec_axes (B := B) hR (fin64V_of_le hn n2)
  have hl : len (app R n) = len n := len_app hR.rot n
  have rV := relS3_unit (B := B) (v := app R n) (by rw [hl]; exact n1)
    (by rw [hl]; exact n2.trans (by
          calc (10 ^ 60 : ℝ) ≤ 2 ^ 200 := by norm_num
            _ ≤ _ := pow_le_pow_right₀ (by norm_num) (by norm_num)))
  have n0 : n ≠ 0 := by
    rintro rfl
    have : (0 : ℝ) < 2 ^ (-500 : ℤ) := by positivity
    have h0 : len (0 : V3 ℝ) = 0 := by simp [len]
    rw [h0] at n1; linarith
  have hdir : dirOf (app R n) = app R (dirOf n) := app_dirOf hR.rot n
  rw [hdir] at rV
  have mu : UnitVec (app R (dirOf n)) := unitVec_app hR.rot (dirOf_unit n0)
  obtain ⟨V, hV⟩ : ∃ V, V = unit ((app R n).flt : V3 (F64 B)) := ⟨_, rfl⟩
  obtain ⟨m, hm⟩ : ∃ m, m = app R (dirOf n) := ⟨_, rfl⟩
  rw [← hV, ← hm] at rV
  rw [← hm] at mu ⊢
  have ml : len m = 1 := mu.len
  have m1 := (abs_x_le_len m).trans ml.le
  have m2 := (abs_y_le_len m).trans ml.le
  have m3 := (abs_z_le_len m).trans ml.le
  obtain ⟨D1, D2, D3, D4, D5⟩ := Dell_bounds f0 f1 mu
  obtain ⟨G, hG⟩ : ∃ G, G = (lit 1 : F64 B) - fin f := ⟨_, rfl⟩
  have g1 : 0.99 ≤ 1 - f := by norm_num at f1 ⊢; linarith
  have g2 : 1 - f ≤ 1 := by linarith
  have rG : Rel G (1 - f) 1.001 1e-199 := by
    rw [hG, lit_one]
    exact (Rel.exact (B := B) isF64_one (by norm_num)).sub (Rel.exact ff f0) (c := 2) (c' := 1) (m := 0.99) (b := 1) (by linarith) (by linarith) g1 (by norm_num) g2
      le_rfl le_rfl (by norm_num) (by norm_num) le_rfl le_rfl (by norm_num) (by norm_num) (by norm_num) (by norm_num)
  have hag : a * (1 - f) ≤ a := by nlinarith
  have rb := (Rel.exact (B := B) fa (by linarith)).mul rG (bx := 1e10) (bY := 1) (b := 1e10) (k := 2.01) (d := 1e-188) a2 g2 (hag.trans a2) le_rfl (by norm_num)
    (by norm_num) (by norm_num) le_rfl (by norm_num) (by norm_num) (by norm_num) (by norm_num)
  have hgi : ∀ {t : ℝ}, |t| ≤ 1 → |t / (1 - f)| ≤ 2 := by
    intro t ht
    rw [abs_div, abs_of_pos (by linarith : 0 < 1 - f), div_le_iff₀ (by linarith)]; linarith
  obtain ⟨rx, ry, rz⟩ := rV
  have ex := (rx.div (Rel.exact (B := B) isF64_one (by norm_num)) (m := 1) (b := 2) (k := 7.06) (d := 1e-198) le_rfl (by norm_num) (by rw [div_one]; linarith)
    (by norm_num) (by norm_num) le_rfl (by norm_num) (by norm_num) (by norm_num) (by norm_num) (by norm_num) (by norm_num))
  have ey := (ry.div rG (m := 0.99) (b := 2) (k := 7.06) (d := 1e-198) g1 (by norm_num) (hgi m2)
    (by norm_num) (by norm_num) (by norm_num) (by norm_num) (by norm_num) (by norm_num) (by norm_num) (by norm_num) (by norm_num))
  have ez := (rz.div rG (m := 0.99) (b := 2) (k := 7.06) (d := 1e-198) g1 (by norm_num) (hgi m3)
    (by norm_num) (by norm_num) (by norm_num) (by norm_num) (by norm_num) (by norm_num) (by norm_num) (by norm_num) (by norm_num))
  have hden : len (⟨m.x / 1, m.y / (1 - f), m.z / (1 - f)⟩ : V3 ℝ) = Dell f m / (1 - f) := by
    unfold len Dell
    have hgp : 0 < 1 - f := by linarith
    rw [eq_div_iff hgp.ne', ← Real.sqrt_sq hgp.le, ← Real.sqrt_mul (by positivity)]
    congr 1
    rw [Real.sqrt_sq hgp.le]
    field_simp
  have dl1 : 1 ≤ Dell f m / (1 - f) := by rw [le_div_iff₀ (by linarith)]; linarith
  have dl2 : Dell f m / (1 - f) ≤ 2 := by rw [div_le_iff₀ (by linarith)]; linarith
  have rD := RelS3.norm (V := ⟨V.x / fin 1, V.y / G, V.z / G⟩) (v := ⟨m.x / 1, m.y / (1 - f), m.z / (1 - f)⟩) (k' := 11.1) (d' := 1e-190) ⟨ex, ey, ez⟩
    (by norm_num) (by norm_num) (by norm_num) (by norm_num) (by rw [hden]; linarith) (by rw [hden]; linarith) (by norm_num) (by norm_num)
  rw [hden] at rD
  have Dp : 0 < Dell f m := by linarith
  have hσv : a * (1 - f) / (Dell f m / (1 - f)) = a / Dell f m * (1 - f) ^ 2 := by field_simp
  have hσ : a / Dell f m * (1 - f) ^ 2 ≤ a := by
    rw [← hσv, div_le_iff₀ (by positivity)]
    calc a * (1 - f) ≤ a := hag
      _ = a * 1 := (mul_one a).symm
      _ ≤ _ := mul_le_mul_of_nonneg_left dl1 (by linarith)
  have rS := rb.div rD (m := 1) (b := 1e10) (k := 14.12) (d := 1e-187) dl1 (by norm_num) (by rw [hσv]; linarith) (by norm_num) (by norm_num) (by norm_num)
    (by norm_num) (by norm_num) (by norm_num) (by norm_num) (by norm_num) (by norm_num)
  rw [hσv] at rS
  have rQ := rG.sq (b := 1) (k := 3.01) (d := 1e-190) g2 (by norm_num) (by norm_num) (by norm_num) (by norm_num) (by norm_num) (by norm_num) (by norm_num)
  have rQ1 : Rel (powNat (lit 1 : F64 B) 2) 1 3.01 1e-190 := by
    rw [lit_one, powNat_two fin64_one, one_mul' fin64_one]
    exact (Rel.exact isF64_one (by norm_num)).mono (by norm_num) (by norm_num)
  have q1 : 0.98 ≤ (1 - f) ^ 2 := by nlinarith
  obtain ⟨σ, hσd⟩ : ∃ σ, σ = a / Dell f m * (1 - f) ^ 2 := ⟨_, rfl⟩
  rw [← hσd] at rS hσ
  have g0 : 1 - f ≠ 0 := by linarith
  have side : ∀ {t : ℝ}, |t| ≤ Dell f m → |a / Dell f m * t| ≤ a := by
    intro t ht
    rw [abs_mul, abs_of_pos (by positivity), div_mul_eq_mul_div, div_le_iff₀ Dp]
    exact mul_le_mul_of_nonneg_left ht (by linarith)
  have cx := app_comp rS rx rQ1 (by norm_num) a1 a2 hσ m1 (s := σ * m.x) (by rw [div_one]) (by
    rw [abs_mul, abs_of_nonneg rS.nonneg]
    calc σ * |m.x| ≤ a * 1 := mul_le_mul hσ m1 (abs_nonneg _) (by linarith)
      _ = a := mul_one a) fd hd
  have cy := app_comp rS ry rQ q1 a1 a2 hσ m2 (s := a / Dell f m * m.y) (by rw [hσd]; field_simp) (side D4) fd hd
  have cz := app_comp rS rz rQ q1 a1 a2 hσ m3 (s := a / Dell f m * m.z) (by rw [hσd]; field_simp) (side D5) fd hd
  obtain ⟨x, hx, fx, ex'⟩ := cx
  obtain ⟨y, hy, fy, ey'⟩ := cy
  obtain ⟨z, hz, fz, ez'⟩ := cz
  obtain ⟨v, hv⟩ : ∃ v : V3 ℝ, v = ⟨x, y, z⟩ := ⟨_, rfl⟩
  have hpos : posE a f m d = ⟨σ * m.x - m.x * d, a / Dell f m * m.y - m.y * d, a / Dell f m * m.z - m.z * d⟩ := by
    unfold posE; rw [← hσd]; ext <;> simp only <;> ring
  have fv : Fin64V v := by
    have g : ∀ {s t u : ℝ}, IsF64 s → |t| ≤ a → |u| ≤ 1 → |s - (t - u * d)| ≤ 25.3 * (uu * a) + 7.1 * (uu * |d|) → Fin64 s := by
      intro s t u fs ht hu' h
      refine fin64_of_le fs ?_
      have h1 := abs_sub_abs_le_abs_sub s (t - u * d)
      have h2 := abs_sub t (u * d)
      have h3 : |u * d| ≤ 1 * |d| := by rw [abs_mul]; exact mul_le_mul_of_nonneg_right hu' (abs_nonneg _)
      have h4 : uu * a ≤ 1 * a := mul_le_mul_of_nonneg_right (by unfold uu; norm_num) (by linarith)
      have h5 : uu * |d| ≤ 1 * |d| := mul_le_mul_of_nonneg_right (by unfold uu; norm_num) (abs_nonneg _)
      norm_num at h h1 h2 h3 h4 h5 ht a2 hd ⊢
      linarith only [h, h1, h2, h3, h4, h5, ht, a2, hd]
    rw [hv]
    refine ⟨g fx ?_ m1 ex', g fy (side D4) m2 ey', g fz (side D5) m3 ez'⟩
    rw [abs_mul, abs_of_nonneg rS.nonneg]
    calc σ * |m.x| ≤ a * 1 := mul_le_mul hσ m1 (abs_nonneg _) (by linarith)
      _ = a := mul_one a
  obtain ⟨ht1, ht2⟩ := mulVec_tr_axes (B := B) hR fv
  refine ⟨app (transp R) v, ?_, ⟨ht2.1.1, ht2.2.1.1, ht2.2.2.1⟩, ?_⟩
  · rw [← ht1]
    unfold n_EB_E2p_EB_E
    rw [hm1]
    dsimp only
    rw [← hV, ← hG]
    congr 1
    rw [hv]
    unfold sub3 scale3 ediv3 V3.flt
    dsimp only
    rw [← hx, ← hy, ← hz, lit_one]
  · rw [hpos]
    have h1 : ∀ {e : ℝ} {a b : V3 ℝ}, |b.x - a.x| ≤ e → |b.y - a.y| ≤ e → |b.z - a.z| ≤ e →
      |(app (transp R) b).x - (app (transp R) a).x| ≤ e ∧
      |(app (transp R) b).y - (app (transp R) a).y| ≤ e ∧ |(app (transp R) b).z - (app (transp R) a).z| ≤ e := by
      intro e a b h1 h2 h3
      rcases hR with rfl | rfl <;> simp only [app, transp, Re, one, dot, col0, col1, col2] <;>
        simp only [zero_mul, one_mul, neg_mul, add_zero, zero_add]
      · refine ⟨?_, h2, h1⟩
        rwa [show -b.z - -a.z = -(b.z - a.z) by ring, abs_neg]
      · exact ⟨h1, h2, h3⟩
    exact h1 (by rw [hv]; exact ex') (by rw [hv]; exact ey') (by rw [hv]; exact ez')

end

end Nv
