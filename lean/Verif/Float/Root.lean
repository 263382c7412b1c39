import Verif.Float.Rel
import Verif.Model.Util
import Mathlib.Analysis.SpecialFunctions.Pow.Real
import Mathlib.Analysis.Complex.Exponential

/-!
# The cube root in binary64

`nthroot(x, 3)` is `x ** (1/3)` with the rounded exponent, followed by one Newton step.
-/

namespace Nv
open Spec F64

section
variable {B : Binary64} {X Y : F64 B} {x y kx ky dx dy k d bx bY b m c : ℝ}

theorem two_zpow_lim : (10 : ℝ) ^ 61 < (2 : ℝ) ^ (1024 : ℤ) := by
  calc (10 : ℝ) ^ 61 < (2 : ℝ) ^ (256 : ℤ) := by norm_num
    _ ≤ _ := zpow_le_zpow_right₀ (by norm_num) (by norm_num)

/-- `pow` with a natural exponent: relative error of the library, for numbers that are not negative -/
theorem fin_powi {x : ℝ} {n : ℕ} (h0 : 0 ≤ x) (hb : x ^ n ≤ 10 ^ 60) :
    (PyFloat.powi (fin x) n : F64 B) = fin (B.pow x n) ∧ IsF64 (B.pow x n) ∧ |B.pow x n - x ^ n| ≤ 4 * uu * x ^ n + 1 / 10 ^ 200 := by
  have h1 := B.pow_close x n h0
  rw [Real.rpow_natCast] at h1
  have p0 : 0 ≤ x ^ n := pow_nonneg h0 n
  have h2 : |B.pow x n - x ^ n| ≤ 4 * uu * x ^ n + 1 / 10 ^ 200 := by
    refine h1.trans ?_
    rw [abs_of_nonneg p0, show (2 : ℝ) ^ (-51 : ℤ) = 4 * uu by unfold uu; norm_num]
    have := eta_tiny
    have h3 : (2 : ℝ) ^ (-1074 : ℤ) ≤ 1 / 10 ^ 200 := by
      calc (2 : ℝ) ^ (-1074 : ℤ) ≤ 2 ^ (-700 : ℤ) := zpow_le_zpow_right₀ (by norm_num) (by norm_num)
        _ = (2 ^ (-100 : ℤ)) ^ 7 := by rw [← zpow_natCast, ← zpow_mul]; norm_num
        _ ≤ (1 / 10 ^ 30) ^ 7 := pow_le_pow_left₀ (by positivity) (by norm_num) 7
        _ ≤ _ := by norm_num
    linarith
  refine ⟨?_, B.pow_val _ _, h2⟩
  show (if _ then _ else _) = _
  refine if_pos ?_
  refine lt_of_le_of_lt ?_ two_zpow_lim
  have h3 : 4 * uu * x ^ n ≤ 1 * x ^ n := mul_le_mul_of_nonneg_right (by unfold uu; norm_num) p0
  have h4 := abs_sub_abs_le_abs_sub (B.pow x n) (x ^ n)
  rw [abs_of_nonneg p0] at h4
  have h5 : (1 : ℝ) / 10 ^ 200 ≤ 1 := by norm_num
  have h6 : (10 : ℝ) ^ 61 = 10 * 10 ^ 60 := by norm_num
  have h7 : (1 : ℝ) ≤ 10 ^ 60 := by norm_num
  rw [h6]
  generalize (10 : ℝ) ^ 60 = t at *
  generalize (1 : ℝ) / 10 ^ 200 = t' at *
  linarith

/-- product of two approximations, before rounding -/
theorem rel_prod {x y v w : ℝ} (x0 : 0 ≤ x) (y0 : 0 ≤ y) (h1 : |v - x| ≤ kx * uu * x + dx) (h2 : |w - y| ≤ ky * uu * y + dy)
    (hbx : x ≤ bx) (hby : y ≤ bY) (hkx : 0 ≤ kx) (hkx' : kx ≤ 1e5) (hky : 0 ≤ ky) (hky' : ky ≤ 1e5) (hdx : 0 ≤ dx) (hdy : 0 ≤ dy) :
    |v * w - x * y| ≤ (kx + ky + 0.001) * uu * (x * y) + 1.001 * (bx * dy + bY * dx + dx * dy) := by
  have hu := uu_pos
  have hkux : kx * uu ≤ 1 / 1000 := by unfold uu; nlinarith
  have hkuy : ky * uu ≤ 1 / 1000 := by unfold uu; nlinarith
  have hxy : 0 ≤ x * y := mul_nonneg x0 y0
  rw [show v * w - x * y = x * (w - y) + y * (v - x) + (v - x) * (w - y) by ring]
  refine (abs_add_three _ _ _).trans ?_
  rw [abs_mul, abs_mul, abs_mul, abs_of_nonneg x0, abs_of_nonneg y0]
  have a1 := mul_le_mul_of_nonneg_left h2 x0
  have a2 := mul_le_mul_of_nonneg_left h1 y0
  have a3 := mul_le_mul h1 h2 (abs_nonneg _) (by positivity)
  have e3 : (kx * uu * x + dx) * (ky * uu * y + dy) =
      kx * ky * uu * (uu * (x * y)) + kx * uu * (x * dy) + ky * uu * (y * dx) + dx * dy := by ring
  have b1 : kx * ky * uu * (uu * (x * y)) ≤ 0.001 * (uu * (x * y)) := by
    apply mul_le_mul_of_nonneg_right _ (by positivity)
    have : kx * ky ≤ 1e5 * 1e5 := mul_le_mul hkx' hky' hky (by norm_num)
    unfold uu; linarith
  have c1 : x * dy ≤ bx * dy := mul_le_mul_of_nonneg_right hbx hdy
  have c2 : y * dx ≤ bY * dx := mul_le_mul_of_nonneg_right hby hdx
  have b2 : kx * uu * (x * dy) ≤ 0.001 * (bx * dy) := by
    refine mul_le_mul (by linarith) c1 (by positivity) (by norm_num)
  have b3 : ky * uu * (y * dx) ≤ 0.001 * (bY * dx) := by
    refine mul_le_mul (by linarith) c2 (by positivity) (by norm_num)
  have b4 : 0 ≤ dx * dy := mul_nonneg hdx hdy
  rw [e3] at a3
  have e1 : x * (ky * uu * y + dy) = ky * (uu * (x * y)) + x * dy := by ring
  have e2 : y * (kx * uu * x + dx) = kx * (uu * (x * y)) + y * dx := by ring
  rw [e1] at a1; rw [e2] at a2
  linarith

/-- the library power of an approximate number, given the error of the exact power -/
theorem Rel.powi_of {n : ℕ} {v : ℝ} (hX : X = fin v) (v0 : 0 ≤ v) (x0 : 0 ≤ x) (h : |v ^ n - x ^ n| ≤ kx * uu * x ^ n + dx)
    (hkx : 0 ≤ kx) (hkx' : kx ≤ 1e6) (hdx : 0 ≤ dx) (hb : x ^ n ≤ b) (hlim : 2 * b + dx ≤ 10 ^ 60)
    (hk : kx + 4.001 ≤ k) (hd : 1.01 * dx + 1 / 10 ^ 200 ≤ d) : Rel (PyFloat.powi X n) (x ^ n) k d := by
  have hu := uu_pos
  have p0 : 0 ≤ x ^ n := pow_nonneg x0 n
  have hku : kx * uu ≤ 1 / 10000 := by unfold uu; nlinarith
  have hkux : kx * uu * x ^ n ≤ 1 / 10000 * x ^ n := mul_le_mul_of_nonneg_right hku p0
  have h2 : v ^ n ≤ x ^ n + (kx * uu * x ^ n + dx) := by linarith [(abs_le.mp h).2]
  obtain ⟨e1, e2, e3⟩ := fin_powi (B := B) (n := n) v0 (by linarith)
  have h4 : uu * v ^ n ≤ uu * (1.0001 * x ^ n + dx) := mul_le_mul_of_nonneg_left (by linarith) hu.le
  have h5 := abs_add_le (B.pow v n - v ^ n) (v ^ n - x ^ n)
  rw [sub_add_sub_cancel] at h5
  have h6 : uu * dx ≤ 0.001 * dx := mul_le_mul_of_nonneg_right (by unfold uu; norm_num) hdx
  have h7 := mul_le_mul_of_nonneg_right hk (mul_nonneg hu.le p0)
  have h8 : |B.pow v n - x ^ n| ≤ k * uu * x ^ n + d := by
    rw [show k * uu * x ^ n = k * (uu * x ^ n) by ring]
    rw [show kx * uu * x ^ n = kx * (uu * x ^ n) by ring] at h
    have e7 : uu * (1.0001 * x ^ n + dx) = 1.0001 * (uu * x ^ n) + uu * dx := by ring
    rw [e7] at h4
    generalize (1 : ℝ) / 10 ^ 200 = t at *
    have h9 : 0 ≤ uu * x ^ n := mul_nonneg hu.le p0
    linarith
  exact ⟨_, by rw [hX, e1], e2, p0, B.pow_nonneg v n v0, h8⟩

theorem Rel.pow_two (h : Rel X x kx dx) (hb : x ≤ b) (hb30 : b ≤ 10 ^ 29) (hkx : 0 ≤ kx) (hkx' : kx ≤ 1e5) (hdx : 0 ≤ dx) (hdx' : dx ≤ 1)
    (hk : 2 * kx + 4.002 ≤ k) (hd : 1.02 * (2 * b * dx + dx * dx) + 1 / 10 ^ 200 ≤ d) : Rel (PyFloat.powi X 2) (x ^ 2) k d := by
  obtain ⟨v, hX, hv, x0, v0, h1⟩ := h
  have h2 := rel_prod x0 x0 h1 h1 hb hb hkx hkx' hkx hkx' hdx hdx
  rw [← _root_.sq, ← _root_.sq] at h2
  have b0 : 0 ≤ b := x0.trans hb
  have hbb : b ^ 2 ≤ (10 ^ 29) ^ 2 := pow_le_pow_left₀ b0 hb30 2
  have hbd : b * dx ≤ 10 ^ 29 * 1 := mul_le_mul hb30 hdx' hdx (by positivity)
  have hdd : dx * dx ≤ 1 := by nlinarith
  have hd0 : 0 ≤ b * dx := mul_nonneg b0 hdx
  have hd1 : 0 ≤ dx * dx := mul_nonneg hdx hdx
  refine Rel.powi_of hX v0 x0 h2 (by linarith) (by linarith) (by linarith) (b := b ^ 2) (pow_le_pow_left₀ x0 hb 2) ?_ (by linarith) (by linarith)
  norm_num at hbb hbd ⊢
  linarith

theorem Rel.pow_three (h : Rel X x kx dx) (hb : x ≤ b) (b1 : 1 ≤ b) (hb30 : b ≤ 10 ^ 18) (hkx : 0 ≤ kx) (hkx' : kx ≤ 1e4) (hdx : 0 ≤ dx) (hdx' : dx ≤ 1)
    (hk : 3 * kx + 4.003 ≤ k) (hd : 8 * b ^ 2 * dx + 1 / 10 ^ 200 ≤ d) : Rel (powNat X 3) (x ^ 3) k d := by
  obtain ⟨v, hX, hv, x0, v0, h1⟩ := h
  have b0 : 0 ≤ b := x0.trans hb
  have h2 := rel_prod x0 x0 h1 h1 hb hb hkx (by linarith) hkx (by linarith) hdx hdx
  have hdd : dx * dx ≤ b * dx := by nlinarith
  have hd0 : 0 ≤ b * dx := mul_nonneg b0 hdx
  have h2' : |v * v - x * x| ≤ (kx + kx + 0.001) * uu * (x * x) + 3.01 * (b * dx) := h2.trans (by linarith)
  have hxx : x * x ≤ b * b := mul_le_mul hb hb x0 b0
  have h3 := rel_prod (mul_nonneg x0 x0) x0 h2' h1 hxx hb (by linarith) (by linarith) hkx (by linarith) (by positivity) hdx
  rw [show v * v * v = v ^ 3 by ring, show x * x * x = x ^ 3 by ring] at h3
  have hbb : b ^ 3 ≤ (10 ^ 18) ^ 3 := pow_le_pow_left₀ b0 hb30 3
  have hb2 : b ^ 2 ≤ (10 ^ 18) ^ 2 := pow_le_pow_left₀ b0 hb30 2
  have hbd : b ^ 2 * dx ≤ b ^ 2 * 1 := mul_le_mul_of_nonneg_left hdx' (by positivity)
  have e0 : 3.01 * (b * dx) * dx ≤ 3.01 * (b ^ 2 * dx) := by
    have : b * dx * dx ≤ b * dx * b := mul_le_mul_of_nonneg_left (by linarith) hd0
    nlinarith
  have e1 : b * b * dx + b * (3.01 * (b * dx)) + 3.01 * (b * dx) * dx ≤ 7.02 * (b ^ 2 * dx) := by nlinarith
  have e2 : 0 ≤ b ^ 2 * dx := by positivity
  refine Rel.powi_of (kx := 3 * kx + 0.002) (dx := 7.1 * (b ^ 2 * dx)) (n := 3) hX v0 x0 ?_ (by linarith) (by linarith) (by linarith) (b := b ^ 3) (pow_le_pow_left₀ x0 hb 3) ?_ (by linarith) (by linarith)
  · refine h3.trans ?_
    rw [show kx + kx + 0.001 + kx + 0.001 = 3 * kx + 0.002 by ring]
    linarith
  norm_num at hbb hbd hb2 ⊢
  linarith

theorem App.sq {e ex : ℝ} (h : App X x ex) (hb : |x| ≤ b) (hlim : b + ex ≤ 10 ^ 30)
    (he : (b * ex + b * ex + ex * ex) + uu * (b ^ 2 + (b * ex + b * ex + ex * ex)) + 1 / 10 ^ 60 ≤ e)
    : App (powNat X 2) (x ^ 2) e := by
  have e0 := h.nonneg_err
  have b0 := (abs_nonneg _).trans hb
  have hh := h
  obtain ⟨v, rfl, hv, h1⟩ := h
  have hvb : |v| ≤ 10 ^ 60 := by
    have := abs_sub_abs_le_abs_sub v x
    norm_num at hlim ⊢
    linarith
  rw [powNat_two (fin64_of_le hv hvb), sq]
  have hp : (b + ex) ^ 2 ≤ 10 ^ 60 := by
    calc (b + ex) ^ 2 ≤ (10 ^ 30) ^ 2 := pow_le_pow_left₀ (by positivity) hlim 2
      _ = _ := by norm_num
  refine App.mul hh hh hb hb (b := b ^ 2) ?_ he (by linarith only [hp])
  rw [abs_mul, sq]; exact mul_le_mul hb hb (abs_nonneg _) b0

theorem Rel.sq (h : Rel X x kx dx) (hb : x ≤ b) (hb30 : b ≤ 10 ^ 29) (hkx : 0 ≤ kx) (hkx' : kx ≤ 1e5) (hdx : 0 ≤ dx) (hdx' : dx ≤ 1)
    (hk : 2 * kx + 1.002 ≤ k) (hd : 1.02 * (2 * b * dx + dx * dx) + 1 / 10 ^ 200 ≤ d)
    : Rel (powNat X 2) (x ^ 2) k d := by
  have hh := h
  obtain ⟨v, rfl, hv, x0, v0, h1⟩ := h
  have hku : kx * uu ≤ 1 := by unfold uu; nlinarith
  have hvb : |v| ≤ 10 ^ 60 := by
    have h2 := (abs_le.mp h1).2
    have := mul_le_mul_of_nonneg_right hku x0
    rw [abs_of_nonneg v0]
    norm_num at hb30 ⊢
    linarith
  rw [powNat_two (fin64_of_le hv hvb), _root_.sq]
  have b0 : 0 ≤ b := x0.trans hb
  have hbb : b * b ≤ 10 ^ 29 * 10 ^ 29 := mul_le_mul hb30 hb30 b0 (by positivity)
  have hbd : b * dx ≤ 10 ^ 29 * 1 := mul_le_mul hb30 hdx' hdx (by positivity)
  have hdd : dx * dx ≤ 1 := by nlinarith
  refine Rel.mul hh hh hb hb (b := b * b) (mul_le_mul hb hb x0 b0) hkx hkx' hkx hkx' hdx hdx (by linarith) (by linarith) ?_
  norm_num at hbb hbd ⊢
  linarith

/-- the power with the rounded exponent -/
theorem pow_third {x : ℝ} (h1 : 1 ≤ x) (h2 : x ≤ 1.3) :
    IsF64 (B.pow x (B.fl (1 / 3))) ∧ |B.pow x (B.fl (1 / 3)) - x ^ ((1 : ℝ) / 3)| ≤ 6 * uu := by
  refine ⟨B.pow_val _ _, ?_⟩
  have x0 : 0 < x := by linarith
  have hu := uu_pos
  have ht1 : 1 ≤ x ^ ((1 : ℝ) / 3) := Real.one_le_rpow h1 (by norm_num)
  have ht2 : x ^ ((1 : ℝ) / 3) ≤ 1.1 := by
    calc x ^ ((1 : ℝ) / 3) ≤ (1.1 ^ 3 : ℝ) ^ ((1 : ℝ) / 3) := Real.rpow_le_rpow x0.le (by norm_num; linarith) (by norm_num)
      _ = 1.1 := by rw [← Real.rpow_natCast, ← Real.rpow_mul (by norm_num)]; norm_num
  obtain ⟨t, ht⟩ : ∃ t, t = x ^ ((1 : ℝ) / 3) := ⟨_, rfl⟩
  rw [← ht] at ht1 ht2 ⊢
  have hfl := B.rounds.err_add (1 / 3)
  have hη := eta_small
  have hh : |B.fl (1 / 3) - 1 / 3| ≤ 0.4 * uu := by
    refine hfl.trans ?_
    rw [abs_of_pos (by norm_num)]
    have : (1 / 10 ^ 60 : ℝ) ≤ 0.01 * uu := by unfold uu; norm_num
    linarith
  obtain ⟨h, hhd⟩ : ∃ h, h = B.fl (1 / 3) - 1 / 3 := ⟨_, rfl⟩
  have e1 : x ^ (B.fl (1 / 3)) = t * x ^ h := by
    rw [ht, ← Real.rpow_add x0, hhd]; congr 1; ring
  have hlog0 : 0 ≤ Real.log x := Real.log_nonneg h1
  have hlog : Real.log x ≤ 0.3 := by
    have := Real.log_le_sub_one_of_pos x0
    linarith
  have hxh : |x ^ h - 1| ≤ 0.3 * uu := by
    rw [Real.rpow_def_of_pos x0]
    have hz : |Real.log x * h| ≤ 0.15 * uu := by
      rw [abs_mul, abs_of_nonneg hlog0]
      rw [← hhd] at hh
      calc Real.log x * |h| ≤ 0.3 * (0.4 * uu) := mul_le_mul hlog hh (abs_nonneg _) (by norm_num)
        _ ≤ _ := by linarith
    have := Real.abs_exp_sub_one_le (x := Real.log x * h) (hz.trans (by unfold uu; norm_num))
    linarith
  have e2 : |t * x ^ h - t| ≤ 0.4 * uu := by
    rw [show t * x ^ h - t = t * (x ^ h - 1) by ring, abs_mul, abs_of_pos (by linarith)]
    calc t * |x ^ h - 1| ≤ 1.1 * (0.3 * uu) := mul_le_mul ht2 hxh (abs_nonneg _) (by norm_num)
      _ ≤ _ := by linarith
  have e3 : |t * x ^ h| ≤ 1.2 := by
    have := abs_sub_abs_le_abs_sub (t * x ^ h) t
    rw [abs_of_pos (by linarith : 0 < t)] at this
    have : uu ≤ 1e-10 := by unfold uu; norm_num
    linarith
  have e4 := libm_close (b := 1.2) (e := 5 * uu) (B.pow_close x (B.fl (1 / 3)) x0.le) (by rw [e1]; exact e3) (by unfold uu; norm_num)
  rw [e1] at e4
  have := abs_add_le (B.pow x (B.fl (1 / 3)) - t * x ^ h) (t * x ^ h - t)
  rw [show B.pow x (B.fl (1 / 3)) - t * x ^ h + (t * x ^ h - t) = B.pow x (B.fl (1 / 3)) - t by ring] at this
  linarith

/-- the computed cube root of a number between 1 and 1.3 -/
theorem app_cbrt {x : ℝ} (hx : IsF64 x) (h1 : 1 ≤ x) (h2 : x ≤ 1.3) :
    App (nthroot (fin x : F64 B) 3) (x ^ ((1 : ℝ) / 3)) (3 * uu) := by
  obtain ⟨hyF, hy⟩ := pow_third (B := B) h1 h2
  have x0 : 0 < x := by linarith
  have hu := uu_pos
  have hu1 : uu ≤ 1 / 10 ^ 10 := by unfold uu; norm_num
  have ht1 : 1 ≤ x ^ ((1 : ℝ) / 3) := Real.one_le_rpow h1 (by norm_num)
  have ht2 : x ^ ((1 : ℝ) / 3) ≤ 1.1 := by
    calc x ^ ((1 : ℝ) / 3) ≤ (1.1 ^ 3 : ℝ) ^ ((1 : ℝ) / 3) := Real.rpow_le_rpow x0.le (by norm_num; linarith) (by norm_num)
      _ = 1.1 := by rw [← Real.rpow_natCast, ← Real.rpow_mul (by norm_num)]; norm_num
  have ht3 : (x ^ ((1 : ℝ) / 3)) ^ 3 = x := by
    rw [← Real.rpow_natCast, ← Real.rpow_mul x0.le]; norm_num
  obtain ⟨t, ht⟩ : ∃ t, t = x ^ ((1 : ℝ) / 3) := ⟨_, rfl⟩
  obtain ⟨y, hyd⟩ : ∃ y, y = B.pow x (B.fl (1 / 3)) := ⟨_, rfl⟩
  rw [← ht] at ht1 ht2 ht3 hy ⊢
  rw [← hyd] at hyF hy
  have hroot : (PyFloat.rootn 3 (fin x) : F64 B) = fin y := by
    show (if x < 0 then _ else _) = _
    refine (if_neg (by linarith)).trans ?_
    rw [hyd, show ((1 : ℝ) / ((3 : ℕ) : ℝ)) = 1 / 3 by norm_num]
    rfl
  have hy' := abs_le.mp hy
  have y1 : 0.9999 ≤ y := by norm_num at hu1 ⊢; linarith
  have y2 : y ≤ 1.1001 := by norm_num at hu1 ⊢; linarith
  have hyb : |y| ≤ 1.1001 := by rw [abs_of_pos (by linarith)]; exact y2
  have fy : Fin64 y := fin64_of_le hyF (hyb.trans (by norm_num))
  -- the branch
  have hcond : (!(PyFloat.eq (fin x : F64 B) (lit 0)) && PyFloat.lt (lit EPS * PyFloat.abs (fin x) : F64 B) (lit 1)) = true := by
    have hE : App (lit EPS : F64 B) (EPS : ℝ) (1 / 10 ^ 10) := by
      refine ⟨_, fin_lit ?_, B.rounds.val _, ?_⟩
      · unfold EPS; norm_num
      · exact fl_close (x := ((EPS : ℚ) : ℝ)) (ex := 0) (b := 1) (by simp) (by unfold EPS; norm_num) (by unfold uu; norm_num)
    obtain ⟨z, hz, _, hz2⟩ := hE.mul (App.of_f64 (B := B) hx) (bx := 1 / 10 ^ 15) (bY := 1.3) (b := 1 / 10 ^ 10) (e := 1 / 10)
      (by unfold EPS; norm_num) (by rw [abs_of_pos x0]; exact h2)
      (by rw [abs_mul, abs_of_pos x0]; unfold EPS; norm_num; linarith) (by unfold uu; norm_num) (by norm_num)
    have hlt : z < 1 := by
      have := (abs_le.mp hz2).2
      have h5 : ((EPS : ℚ) : ℝ) * x ≤ 1 / 10 := by unfold EPS; norm_num; linarith
      linarith
    rw [lit_zero, fin_eq, fin_abs, abs_of_pos x0, hz, lit_one, fin_lt]
    simp [x0.ne', hlt]
  unfold nthroot
  rw [hroot]
  simp only
  rw [if_pos hcond]
  -- the Newton step
  have a2 : App (fin y * fin y : F64 B) (y * y) (1.211 * uu) :=
    app_mul_exact hyF hyF (b := 1.2103) (abs_mul_le' hyb hyb (by norm_num)) (by norm_num) (by unfold uu; norm_num)
  have hy3 : y ^ 3 ≤ 1.3316 := by
    calc y ^ 3 ≤ 1.1001 ^ 3 := pow_le_pow_left₀ (by linarith) y2 3
      _ ≤ _ := by norm_num
  have a3 : App (powNat (fin y) 3 : F64 B) (y * y * y) (5.34 * uu) := by
    have h3 := (Rel.exact (B := B) hyF (by linarith)).pow_three (b := 1.1001) (k := 4.003) (d := 1e-200) y2 (by norm_num) (by norm_num) le_rfl (by norm_num)
      le_rfl (by norm_num) (by norm_num) (by norm_num)
    rw [show y * y * y = y ^ 3 by ring]
    exact h3.app hy3 (by norm_num) (by unfold uu; norm_num)
  have hdiff : |y * y * y - x| ≤ 30 * uu := by
    rw [← ht3, show y * y * y - t ^ 3 = (y - t) * (y * y + y * t + t * t) by ring, abs_mul]
    have : |y * y + y * t + t * t| ≤ 4 := by rw [abs_of_pos (by positivity)]; nlinarith
    calc |y - t| * _ ≤ 6 * uu * 4 := mul_le_mul hy this (abs_nonneg _) (by positivity)
      _ ≤ _ := by linarith
  have a4 : App (powNat (fin y) 3 - fin x : F64 B) (y * y * y - x) (5.35 * uu) :=
    a3.sub (App.of_f64 hx) hdiff (by unfold uu; norm_num) (by unfold uu; norm_num)
  have l3 : (lit ((3 : ℕ) : ℚ) : F64 B) = fin 3 := by
    have := lit_int (B := B) (n := 3) (by norm_num)
    simpa using this
  have a5 : App (fin 3 * (fin y * fin y) : F64 B) (3 * (y * y)) (10 * uu) :=
    (App.of_f64 (B := B) (x := 3) (by simpa using isF64_int (n := 3) (by norm_num))).mul a2 (bx := 3) (bY := 1.2103) (b := 3.64)
      (by norm_num) (abs_mul_le' hyb hyb (by norm_num)) (abs_mul_le' (a := 3) (b := 1.2103) (by norm_num) (abs_mul_le' hyb hyb (by norm_num)) (by norm_num))
      (by unfold uu; norm_num) (by unfold uu; norm_num)
  have hyy : (2.999 : ℝ) ≤ |3 * (y * y)| := by rw [abs_of_pos (by positivity)]; nlinarith
  have hq : |(y * y * y - x) / (3 * (y * y))| ≤ 11 * uu := by
    rw [abs_div, div_le_iff₀ (by linarith)]
    have : 11 * uu * 2.999 ≤ 11 * uu * |3 * (y * y)| := mul_le_mul_of_nonneg_left hyy (by positivity)
    linarith
  have a6 : App ((powNat (fin y) 3 - fin x) / (fin 3 * (fin y * fin y)) : F64 B) ((y * y * y - x) / (3 * (y * y))) (1.79 * uu) :=
    a4.div a5 hyy (by unfold uu; norm_num) hq (by unfold uu; norm_num) (by unfold uu; norm_num)
  have hN : |y - (y * y * y - x) / (3 * (y * y)) - t| ≤ 0.01 * uu := by
    have e : y - (y * y * y - x) / (3 * (y * y)) - t = (y - t) ^ 2 * (2 * y + t) / (3 * (y * y)) := by
      rw [← ht3]; field_simp; ring
    rw [e, abs_div, div_le_iff₀ (by linarith), abs_mul, abs_of_nonneg (sq_nonneg _), abs_of_pos (by linarith : 0 < 2 * y + t)]
    have h5 : (y - t) ^ 2 ≤ (6 * uu) ^ 2 := sq_le_of_abs_le hy
    have h6 : (y - t) ^ 2 * (2 * y + t) ≤ (6 * uu) ^ 2 * 4 := mul_le_mul h5 (by linarith) (by linarith) (by positivity)
    have h7 : (6 * uu) ^ 2 * 4 ≤ 0.01 * uu * 2.999 := by unfold uu; norm_num
    have h8 : 0.01 * uu * 2.999 ≤ 0.01 * uu * |3 * (y * y)| := mul_le_mul_of_nonneg_left hyy (by positivity)
    linarith
  have a7 := (App.of_f64 (B := B) hyF).sub a6 (b := 1.1002) (e := 2.92 * uu) (by
      have := abs_sub (y) ((y * y * y - x) / (3 * (y * y)))
      norm_num at hu1 ⊢
      linarith) (by unfold uu; norm_num) (by unfold uu; norm_num)
  rw [show (3 - 1 : ℕ) = 2 from rfl, powNat_two fy, l3]
  exact a7.shift hN (by linarith)

end

end Nv
