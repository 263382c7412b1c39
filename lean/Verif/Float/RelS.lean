import Verif.Float.Rel

/-!
# Relative error of computed numbers of either sign
-/

namespace Nv
open Spec F64

/-- the computed number `X` is a finite binary64 number within `k * 2^-53 * |x| + d` of `x` -/
def RelS {B : Binary64} (X : F64 B) (x k d : ℝ) : Prop :=
  ∃ y, X = F64.fin y ∧ IsF64 y ∧ |y - x| ≤ k * uu * |x| + d

section
variable {B : Binary64} {X Y : F64 B} {x y kx ky dx dy k d bx bY b m c : ℝ}

theorem Rel.relS (h : Rel X x k d) : RelS X x k d := by
  obtain ⟨v, h1, h2, h3, h4, h5⟩ := h
  exact ⟨v, h1, h2, by rwa [abs_of_nonneg h3]⟩

theorem RelS.exact (h : IsF64 x) : RelS (fin x : F64 B) x 0 0 := ⟨x, rfl, h, by simp⟩

theorem RelS.app {e : ℝ} (h : RelS X x k d) (hb : |x| ≤ b) (hk : 0 ≤ k) (he : k * uu * b + d ≤ e) : App X x e := by
  obtain ⟨v, h1, h2, h5⟩ := h
  refine ⟨v, h1, h2, h5.trans (le_trans ?_ he)⟩
  have := mul_le_mul_of_nonneg_left hb (mul_nonneg hk uu_pos.le)
  linarith

theorem RelS.mono (h : RelS X x kx dx) (hk : kx ≤ k) (hd : dx ≤ d) : RelS X x k d := by
  obtain ⟨v, h1, h2, h5⟩ := h
  refine ⟨v, h1, h2, h5.trans ?_⟩
  have := mul_le_mul_of_nonneg_right (mul_le_mul_of_nonneg_right hk uu_pos.le) (abs_nonneg x)
  linarith

/-- one rounding -/
theorem fl_relS {v : ℝ} (hv : |v - x| ≤ kx * uu * |x| + dx) (hkx : 0 ≤ kx) (hkx' : kx ≤ 1e6) (hdx : 0 ≤ dx)
    (hk : kx + 1.001 ≤ k) (hd : 1.01 * dx + 1 / 10 ^ 200 ≤ d) (hb : |x| ≤ b) (hlim : 2 * b + dx ≤ 10 ^ 60) :
    rnd B v = fin (B.fl v) ∧ IsF64 (B.fl v) ∧ |B.fl v - x| ≤ k * uu * |x| + d := by
  have h1 := B.rounds.err_add v
  have hη := eta_tiny
  have hu := uu_pos
  have hx := abs_nonneg x
  have hku : kx * uu ≤ 1 / 1000 := by unfold uu; nlinarith
  have hkux : kx * uu * |x| ≤ 1 / 1000 * |x| := mul_le_mul_of_nonneg_right hku hx
  have h2 := abs_sub_abs_le_abs_sub v x
  have h3 : |v| ≤ 1.001 * |x| + dx := by linarith
  refine ⟨rnd_fin (h3.trans (by linarith)), B.rounds.val _, ?_⟩
  have h4 := mul_le_mul_of_nonneg_left h3 hu.le
  have h5 := abs_add_le (B.fl v - v) (v - x)
  rw [show B.fl v - v + (v - x) = B.fl v - x by ring] at h5
  have h6 : uu * dx ≤ 0.01 * dx := mul_le_mul_of_nonneg_right (by unfold uu; norm_num) hdx
  have h7 := mul_le_mul_of_nonneg_right hk (mul_nonneg hu.le hx)
  have e7 : uu * (1.001 * |x| + dx) = 1.001 * (uu * |x|) + uu * dx := by ring
  rw [e7] at h4
  rw [show k * uu * |x| = k * (uu * |x|) by ring]
  rw [show kx * uu * |x| = kx * (uu * |x|) by ring] at hv
  linarith

theorem RelS.mul (hX : RelS X x kx dx) (hY : RelS Y y ky dy) (hbx : |x| ≤ bx) (hby : |y| ≤ bY) (hb : |x * y| ≤ b)
    (hkx : 0 ≤ kx) (hkx' : kx ≤ 1e5) (hky : 0 ≤ ky) (hky' : ky ≤ 1e5) (hdx : 0 ≤ dx) (hdy : 0 ≤ dy)
    (hk : kx + ky + 1.002 ≤ k) (hd : 1.02 * (bx * dy + bY * dx + dx * dy) + 1 / 10 ^ 200 ≤ d)
    (hlim : 2 * b + 1.02 * (bx * dy + bY * dx + dx * dy) ≤ 10 ^ 60) : RelS (X * Y) (x * y) k d := by
  obtain ⟨v, rfl, _, h1⟩ := hX
  obtain ⟨w, rfl, _, h2⟩ := hY
  have hu := uu_pos
  have x0 := abs_nonneg x
  have y0 := abs_nonneg y
  have hkux : kx * uu ≤ 1 / 1000 := by unfold uu; nlinarith
  have hkuy : ky * uu ≤ 1 / 1000 := by unfold uu; nlinarith
  have h3 : |v * w - x * y| ≤ (kx + ky + 0.001) * uu * |x * y| + 1.001 * (bx * dy + bY * dx + dx * dy) := by
    rw [show v * w - x * y = x * (w - y) + y * (v - x) + (v - x) * (w - y) by ring]
    refine (abs_add_three _ _ _).trans ?_
    rw [abs_mul, abs_mul, abs_mul, abs_mul x y]
    generalize |x| = p at *
    generalize |y| = q at *
    have hxy : 0 ≤ p * q := mul_nonneg x0 y0
    have a1 := mul_le_mul_of_nonneg_left h2 x0
    have a2 := mul_le_mul_of_nonneg_left h1 y0
    have a3 := mul_le_mul h1 h2 (abs_nonneg _) (by positivity)
    have e3 : (kx * uu * p + dx) * (ky * uu * q + dy) =
        kx * ky * uu * (uu * (p * q)) + kx * uu * (p * dy) + ky * uu * (q * dx) + dx * dy := by ring
    have b1 : kx * ky * uu * (uu * (p * q)) ≤ 0.001 * (uu * (p * q)) := by
      apply mul_le_mul_of_nonneg_right _ (by positivity)
      have : kx * ky ≤ 1e5 * 1e5 := mul_le_mul hkx' hky' hky (by norm_num)
      unfold uu; linarith
    have c1 : p * dy ≤ bx * dy := mul_le_mul_of_nonneg_right hbx hdy
    have c2 : q * dx ≤ bY * dx := mul_le_mul_of_nonneg_right hby hdx
    have b2 : kx * uu * (p * dy) ≤ 0.001 * (bx * dy) := by
      refine mul_le_mul (by linarith) c1 (by positivity) (by norm_num)
    have b3 : ky * uu * (q * dx) ≤ 0.001 * (bY * dx) := by
      refine mul_le_mul (by linarith) c2 (by positivity) (by norm_num)
    have b4 : 0 ≤ dx * dy := mul_nonneg hdx hdy
    rw [e3] at a3
    have e1 : p * (ky * uu * q + dy) = ky * (uu * (p * q)) + p * dy := by ring
    have e2 : q * (kx * uu * p + dx) = kx * (uu * (p * q)) + q * dx := by ring
    rw [e1] at a1; rw [e2] at a2
    linarith
  have hD : 0 ≤ bx * dy + bY * dx + dx * dy := by
    have := mul_nonneg (x0.trans hbx) hdy
    have := mul_nonneg (y0.trans hby) hdx
    positivity
  obtain ⟨r1, r2, r4⟩ := fl_relS (B := B) (k := k) (d := d) h3 (by linarith) (by linarith) (by linarith)
    (by linarith) (by linarith) hb (by linarith)
  exact ⟨_, r1, r2, r4⟩

set_option maxHeartbeats 800000 in
/-- quotient; the divisor is positive, `m` is a lower bound of it -/
theorem RelS.div (hX : RelS X x kx dx) (hY : Rel Y y ky dy) (hm : m ≤ y) (hm0 : 0 < m) (hb : |x / y| ≤ b)
    (hkx : 0 ≤ kx) (hkx' : kx ≤ 1e5) (hky : 0 ≤ ky) (hky' : ky ≤ 1e5) (hdx : 0 ≤ dx) (hdy : dy ≤ 1 / 10 ^ 30 * m)
    (hk : kx + ky + 1.003 ≤ k) (hd : 1.1 * (dx / m) + 1 / 10 ^ 200 ≤ d) (hlim : 2 * b + 1.1 * (dx / m) ≤ 10 ^ 60) :
    RelS (X / Y) (x / y) k d := by
  obtain ⟨v, rfl, _, h1⟩ := hX
  obtain ⟨w, rfl, _, y0, w0, h2⟩ := hY
  have hu := uu_pos
  have x0 := abs_nonneg x
  have hkux : kx * uu ≤ 1 / 10 ^ 6 := by unfold uu; nlinarith
  have hkuy : ky * uu ≤ 1 / 10 ^ 6 := by unfold uu; nlinarith
  have hy : 0 < y := by linarith
  have hxy' : |x / y| = |x| / y := by rw [abs_div, abs_of_pos hy]
  -- the error of the divisor is relative
  have h2' : |w - y| ≤ (ky + 1e-4) * uu * y := by
    refine h2.trans ?_
    have : dy ≤ 1e-4 * uu * y := by
      refine hdy.trans (mul_le_mul (by unfold uu; norm_num) hm hm0.le (by positivity))
    linarith
  have hwy : (1 - (1 / 10 ^ 5 : ℝ)) * y ≤ w := by
    have h5 : (ky + 1e-4) * uu * y ≤ 1 / 10 ^ 5 * y := mul_le_mul_of_nonneg_right (by
      have : (1e-4 : ℝ) * uu ≤ 1 / 10 ^ 6 := by unfold uu; norm_num
      linarith) hy.le
    linarith [(abs_le.mp h2').1]
  have hw : 0 < w := by nlinarith
  have hxy : 0 ≤ |x| / y := div_nonneg x0 hy.le
  have hdm : 0 ≤ dx / m := by positivity
  have h3' : |v / w - x / y| ≤ (kx + ky + 0.002) * uu * |x / y| + 1.01 * (dx / m) := by
    have e : v / w - x / y = ((v - x) - (x / y) * (w - y)) * (1 / w) := by field_simp; ring
    have h4 : |v - x - x / y * (w - y)| ≤ (kx + ky + 1e-4) * uu * |x| + dx := by
      refine (abs_sub _ _).trans ?_
      rw [abs_mul, hxy']
      have a := mul_le_mul_of_nonneg_left h2' hxy
      have e2 : |x| / y * ((ky + 1e-4) * uu * y) = (ky + 1e-4) * uu * |x| := by field_simp
      rw [e2] at a
      linarith
    have h5 : 1 / w ≤ (1 + 2 * (ky + 1e-4) * uu) * (1 / y) := by
      rw [div_le_iff₀ hw]
      have hε : (ky + 1e-4) * uu ≤ 1 / 4 := by
        have : (1e-4 : ℝ) * uu ≤ 1 / 10 ^ 6 := by unfold uu; norm_num
        linarith
      have hε0 : 0 ≤ (ky + 1e-4) * uu := by positivity
      obtain ⟨ε, hεe⟩ : ∃ ε, ε = (ky + 1e-4) * uu := ⟨_, rfl⟩
      rw [mul_assoc 2]
      rw [← hεe] at hε hε0 h2' ⊢
      have hw2 : (1 - ε) * y ≤ w := by linarith [(abs_le.mp h2').1]
      have : 1 ≤ (1 + 2 * ε) * (1 / y) * ((1 - ε) * y) := by
        rw [show (1 + 2 * ε) * (1 / y) * ((1 - ε) * y) = (1 + 2 * ε) * (1 - ε) * (1 / y * y) by ring, one_div_mul_cancel hy.ne']
        nlinarith
      exact this.trans (mul_le_mul_of_nonneg_left hw2 (by positivity))
    rw [e, abs_mul, abs_of_nonneg (by positivity : 0 ≤ 1 / w)]
    have h6 := mul_le_mul h4 h5 (by positivity) ((abs_nonneg _).trans h4)
    refine h6.trans ?_
    have h7 : dx * (1 / y) ≤ dx / m := by
      rw [mul_one_div]; exact div_le_div_of_nonneg_left hdx hm0 hm
    rw [hxy']
    generalize |x| = p at *
    have e8 : ((kx + ky + 1e-4) * uu * p + dx) * ((1 + 2 * (ky + 1e-4) * uu) * (1 / y)) =
        (kx + ky + 1e-4 + 2 * (ky + 1e-4) * (kx + ky + 1e-4) * uu) * (uu * (p / y)) +
        (1 + 2 * (ky + 1e-4) * uu) * (dx * (1 / y)) := by
      field_simp
    rw [e8, show ∀ z : ℝ, z * uu * (p / y) = z * (uu * (p / y)) from fun z => by ring]
    have hq : 0 ≤ uu * (p / y) := mul_nonneg hu.le hxy
    have h9 : 2 * (ky + 1e-4) * (kx + ky + 1e-4) * uu ≤ 1e-3 := by
      have a1 : (ky + 1e-4) * (kx + ky + 1e-4) ≤ 100001 * 200001 :=
        mul_le_mul (by linarith) (by linarith) (by positivity) (by norm_num)
      unfold uu; linarith
    have h10 := mul_le_mul_of_nonneg_right (show kx + ky + 1e-4 + 2 * (ky + 1e-4) * (kx + ky + 1e-4) * uu ≤ kx + ky + 0.002 by
      linarith) hq
    have h11 : 0 ≤ dx * (1 / y) := by positivity
    have h12 : 2 * (ky + 1e-4) * uu ≤ 1e-2 := by
      have : (1e-4 : ℝ) * uu ≤ 1 / 10 ^ 6 := by unfold uu; norm_num
      rw [show 2 * (ky + 1e-4) * uu = 2 * (ky * uu) + 2 * (1e-4 * uu) by ring]
      norm_num at this hkuy ⊢
      linarith
    have h13 : (1 + 2 * (ky + 1e-4) * uu) * (dx * (1 / y)) ≤ 1.01 * (dx / m) := by
      refine mul_le_mul (by linarith) h7 h11 (by norm_num)
    linarith
  obtain ⟨r1, r2, r4⟩ := fl_relS (B := B) (k := k) (d := d) h3' (by linarith) (by linarith)
    (by linarith) (by linarith) (by linarith) hb (by linarith)
  refine ⟨_, ?_, r2, r4⟩
  rw [← r1]
  show round B (XR.div (XR.fin v) (XR.fin w)) = _
  rw [XR.div, if_neg hw.ne']; rfl

end

end Nv
