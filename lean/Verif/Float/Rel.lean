import Verif.Float.Exact

/-!
# Relative errors of quantities that are not negative

`Rel X x k d`: the computed `X` is a finite binary64 number, neither it nor the exact value `x` is negative, and they differ by
at most `k` units `uu = 2^-53` of `x`, plus `d` (for results that underflow).
-/

namespace Nv
open Spec F64

/-- see the file comment -/
def Rel {B : Binary64} (X : F64 B) (x k d : ℝ) : Prop :=
  ∃ y, X = F64.fin y ∧ IsF64 y ∧ 0 ≤ x ∧ 0 ≤ y ∧ |y - x| ≤ k * uu * x + d

section
variable {B : Binary64} {X Y : F64 B} {x y kx ky dx dy k d bx bY b m c : ℝ}

theorem Rel.app {e : ℝ} (h : Rel X x k d) (hb : x ≤ b) (hk : 0 ≤ k) (he : k * uu * b + d ≤ e) : App X x e := by
  obtain ⟨v, h1, h2, h3, h4, h5⟩ := h
  refine ⟨v, h1, h2, h5.trans (le_trans ?_ he)⟩
  have := mul_le_mul_of_nonneg_left hb (mul_nonneg hk uu_pos.le)
  linarith

theorem Rel.nonneg (h : Rel X x k d) : 0 ≤ x := by
  obtain ⟨v, h1, h2, h3, h4, h5⟩ := h
  exact h3

theorem Rel.mono (h : Rel X x kx dx) (hk : kx ≤ k) (hd : dx ≤ d) : Rel X x k d := by
  obtain ⟨v, h1, h2, h3, h4, h5⟩ := h
  refine ⟨v, h1, h2, h3, h4, h5.trans ?_⟩
  have := mul_le_mul_of_nonneg_right (mul_le_mul_of_nonneg_right hk uu_pos.le) h3
  linarith

theorem Rel.exact (h : IsF64 x) (h0 : 0 ≤ x) : Rel (fin x : F64 B) x 0 0 := ⟨x, rfl, h, h0, h0, by simp⟩

/-- a value known with an absolute error -/
theorem App.rel {e : ℝ} (h : App X x e) (h0 : 0 ≤ x) (he : e ≤ x) (hk : e ≤ k * uu * x + d) : Rel X x k d := by
  obtain ⟨v, h1, h2, h3⟩ := h
  exact ⟨v, h1, h2, h0, by linarith [(abs_le.mp h3).1], h3.trans hk⟩

theorem eta_tiny : eta ≤ 1 / 10 ^ 200 := by
  refine (eta_le (k := -700) (by norm_num)).trans ?_
  rw [show (2 : ℝ) ^ (-700 : ℤ) = (2 ^ (-100 : ℤ)) ^ 7 by rw [← zpow_natCast, ← zpow_mul]; norm_num,
    show (1 : ℝ) / 10 ^ 200 = (1 / 10 ^ 30) ^ 6 * (1 / 10 ^ 20) by norm_num]
  have h1 : ((2 : ℝ) ^ (-100 : ℤ)) ≤ 1 / 10 ^ 30 := by norm_num
  have h2 : ((2 : ℝ) ^ (-100 : ℤ)) ≤ 1 / 10 ^ 20 := by norm_num
  rw [pow_succ]
  have h0 : (0 : ℝ) ≤ 2 ^ (-100 : ℤ) := by positivity
  exact mul_le_mul (pow_le_pow_left₀ h0 h1 6) h2 h0 (by positivity)

/-- one rounding of a number that is not negative -/
theorem fl_rel {v : ℝ} (hx : 0 ≤ x) (hv0 : 0 ≤ v) (hv : |v - x| ≤ kx * uu * x + dx) (hkx : 0 ≤ kx) (hkx' : kx ≤ 1e6) (hdx : 0 ≤ dx)
    (hk : kx + 1.001 ≤ k) (hd : 1.01 * dx + 1 / 10 ^ 200 ≤ d) (hb : x ≤ b) (hlim : 2 * b + dx ≤ 10 ^ 60) :
    rnd B v = fin (B.fl v) ∧ IsF64 (B.fl v) ∧ 0 ≤ B.fl v ∧ |B.fl v - x| ≤ k * uu * x + d := by
  have h1 := B.rounds.err_add v
  have hη := eta_tiny
  have hu := uu_pos
  have hku : kx * uu ≤ 1 / 1000 := by unfold uu; nlinarith
  have hkux : kx * uu * x ≤ 1 / 1000 * x := mul_le_mul_of_nonneg_right hku hx
  have h2 : v ≤ x + (kx * uu * x + dx) := by linarith [(abs_le.mp hv).2]
  have h3 : |v| ≤ 1.001 * x + dx := by rw [abs_of_nonneg hv0]; linarith
  refine ⟨rnd_fin (h3.trans (by linarith)), B.rounds.val _, B.rounds.nonneg hv0, ?_⟩
  have h4 := mul_le_mul_of_nonneg_left h3 hu.le
  have h5 := abs_add_le (B.fl v - v) (v - x)
  rw [show B.fl v - v + (v - x) = B.fl v - x by ring] at h5
  have h6 : uu * dx ≤ 0.01 * dx := mul_le_mul_of_nonneg_right (by unfold uu; norm_num) hdx
  have h7 := mul_le_mul_of_nonneg_right hk (mul_nonneg hu.le hx)
  have e7 : uu * (1.001 * x + dx) = 1.001 * (uu * x) + uu * dx := by ring
  rw [e7] at h4
  rw [show k * uu * x = k * (uu * x) by ring]
  rw [show kx * uu * x = kx * (uu * x) by ring] at hv
  linarith

theorem Rel.mul (hX : Rel X x kx dx) (hY : Rel Y y ky dy) (hbx : x ≤ bx) (hby : y ≤ bY) (hb : x * y ≤ b)
    (hkx : 0 ≤ kx) (hkx' : kx ≤ 1e5) (hky : 0 ≤ ky) (hky' : ky ≤ 1e5) (hdx : 0 ≤ dx) (hdy : 0 ≤ dy)
    (hk : kx + ky + 1.002 ≤ k) (hd : 1.02 * (bx * dy + bY * dx + dx * dy) + 1 / 10 ^ 200 ≤ d)
    (hlim : 2 * b + 1.02 * (bx * dy + bY * dx + dx * dy) ≤ 10 ^ 60) : Rel (X * Y) (x * y) k d := by
  obtain ⟨v, rfl, _, x0, v0, h1⟩ := hX
  obtain ⟨w, rfl, _, y0, w0, h2⟩ := hY
  have hu := uu_pos
  have hkux : kx * uu ≤ 1 / 1000 := by unfold uu; nlinarith
  have hkuy : ky * uu ≤ 1 / 1000 := by unfold uu; nlinarith
  have hxy : 0 ≤ x * y := mul_nonneg x0 y0
  have h3 : |v * w - x * y| ≤ (kx + ky + 0.001) * uu * (x * y) + 1.001 * (bx * dy + bY * dx + dx * dy) := by
    rw [show v * w - x * y = x * (w - y) + y * (v - x) + (v - x) * (w - y) by ring]
    refine (abs_add_three _ _ _).trans ?_
    rw [abs_mul, abs_mul, abs_mul, abs_of_nonneg x0, abs_of_nonneg y0]
    have a1 := mul_le_mul_of_nonneg_left h2 x0
    have a2 := mul_le_mul_of_nonneg_left h1 y0
    have a3 := mul_le_mul h1 h2 (abs_nonneg _) (by positivity)
    have e3 : (kx * uu * x + dx) * (ky * uu * y + dy) =
        kx * ky * uu * (uu * (x * y)) + kx * uu * (x * dy) + ky * uu * (y * dx) + dx * dy := by ring
    have b1 : kx * ky * uu * (uu * (x * y)) ≤ 0.001 * (uu * (x * y)) := by
      apply mul_le_mul_of_nonneg_right _ (by positivity)
      have : kx * ky ≤ 1e5 * 1e5 := mul_le_mul hkx' hky' hky (by norm_num)
      unfold uu; linarith
    have c1 : x * dy ≤ bx * dy := mul_le_mul_of_nonneg_right hbx hdy
    have c2 : y * dx ≤ bY * dx := mul_le_mul_of_nonneg_right hby hdx
    have b2 : kx * uu * (x * dy) ≤ 0.001 * (bx * dy) := by
      refine mul_le_mul (by linarith) c1 (by positivity) (by norm_num)
    have b3 : ky * uu * (y * dx) ≤ 0.001 * (bY * dx) := by
      refine mul_le_mul (by linarith) c2 (by positivity) (by norm_num)
    have b4 : 0 ≤ dx * dy := mul_nonneg hdx hdy
    rw [e3] at a3
    have e1 : x * (ky * uu * y + dy) = ky * (uu * (x * y)) + x * dy := by ring
    have e2 : y * (kx * uu * x + dx) = kx * (uu * (x * y)) + y * dx := by ring
    rw [e1] at a1; rw [e2] at a2
    linarith
  have hD : 0 ≤ bx * dy + bY * dx + dx * dy := by
    have := mul_nonneg (x0.trans hbx) hdy
    have := mul_nonneg (y0.trans hby) hdx
    positivity
  obtain ⟨r1, r2, r3, r4⟩ := fl_rel (B := B) (k := k) (d := d) hxy (mul_nonneg v0 w0) h3 (by linarith) (by linarith) (by linarith)
    (by linarith) (by linarith) hb (by linarith)
  exact ⟨_, r1, r2, hxy, r3, r4⟩

/-- sum; both with the same relative error -/
theorem Rel.add (hX : Rel X x kx dx) (hY : Rel Y y ky dy) (hb : x + y ≤ b) {kk : ℝ} (hkx : kx ≤ kk) (hky : ky ≤ kk) (hkk : 0 ≤ kk)
    (hkk' : kk ≤ 1e6) (hdx : 0 ≤ dx) (hdy : 0 ≤ dy)
    (hk : kk + 1.001 ≤ k) (hd : 1.01 * (dx + dy) + 1 / 10 ^ 200 ≤ d) (hlim : 2 * b + (dx + dy) ≤ 10 ^ 60) :
    Rel (X + Y) (x + y) k d := by
  obtain ⟨v, rfl, _, x0, v0, h1⟩ := hX
  obtain ⟨w, rfl, _, y0, w0, h2⟩ := hY
  have hu := uu_pos
  have h3 : |v + w - (x + y)| ≤ kk * uu * (x + y) + (dx + dy) := by
    rw [show v + w - (x + y) = (v - x) + (w - y) by ring]
    have a1 := mul_le_mul_of_nonneg_right (mul_le_mul_of_nonneg_right hkx hu.le) x0
    have a2 := mul_le_mul_of_nonneg_right (mul_le_mul_of_nonneg_right hky hu.le) y0
    refine (abs_add_le _ _).trans ?_
    rw [mul_add]; linarith
  obtain ⟨r1, r2, r3, r4⟩ := fl_rel (B := B) (k := k) (d := d) (add_nonneg x0 y0) (add_nonneg v0 w0) h3 hkk hkk' (by linarith)
    hk (by linarith) hb hlim
  exact ⟨_, r1, r2, add_nonneg x0 y0, r3, r4⟩

set_option maxHeartbeats 800000 in
/-- quotient; `m` is a lower bound of the divisor -/
theorem Rel.div (hX : Rel X x kx dx) (hY : Rel Y y ky dy) (hm : m ≤ y) (hm0 : 0 < m) (hb : x / y ≤ b)
    (hkx : 0 ≤ kx) (hkx' : kx ≤ 1e5) (hky : 0 ≤ ky) (hky' : ky ≤ 1e5) (hdx : 0 ≤ dx) (hdy : dy ≤ 1 / 10 ^ 30 * m)
    (hk : kx + ky + 1.003 ≤ k) (hd : 1.1 * (dx / m) + 1 / 10 ^ 200 ≤ d) (hlim : 2 * b + 1.1 * (dx / m) ≤ 10 ^ 60) :
    Rel (X / Y) (x / y) k d := by
  obtain ⟨v, rfl, _, x0, v0, h1⟩ := hX
  obtain ⟨w, rfl, _, y0, w0, h2⟩ := hY
  have hu := uu_pos
  have hkux : kx * uu ≤ 1 / 10 ^ 6 := by unfold uu; nlinarith
  have hkuy : ky * uu ≤ 1 / 10 ^ 6 := by unfold uu; nlinarith
  have hy : 0 < y := by linarith
  -- the error of the divisor is relative
  have h2' : |w - y| ≤ (ky + 1e-4) * uu * y := by
    refine h2.trans ?_
    have : dy ≤ 1e-4 * uu * y := by
      refine hdy.trans (mul_le_mul (by unfold uu; norm_num) hm hm0.le (by positivity))
    linarith
  have hwy : (1 - (1 / 10 ^ 5 : ℝ)) * y ≤ w := by
    have h5 : (ky + 1e-4) * uu * y ≤ 1 / 10 ^ 5 * y := mul_le_mul_of_nonneg_right (by
      have : (1e-4 : ℝ) * uu ≤ 1 / 10 ^ 6 := by unfold uu; norm_num
      linarith) hy.le
    linarith [(abs_le.mp h2').1]
  have hw : 0 < w := by nlinarith
  have hxy : 0 ≤ x / y := div_nonneg x0 hy.le
  have hdm : 0 ≤ dx / m := by positivity
  have h3' : |v / w - x / y| ≤ (kx + ky + 0.002) * uu * (x / y) + 1.01 * (dx / m) := by
    have e : v / w - x / y = ((v - x) - (x / y) * (w - y)) * (1 / w) := by field_simp; ring
    -- first order terms with the divisor replaced by its exact value, plus a second order term
    have h4 : |v - x - x / y * (w - y)| ≤ (kx + ky + 1e-4) * uu * x + dx := by
      refine (abs_sub _ _).trans ?_
      rw [abs_mul, abs_of_nonneg hxy]
      have a := mul_le_mul_of_nonneg_left h2' hxy
      have e2 : x / y * ((ky + 1e-4) * uu * y) = (ky + 1e-4) * uu * x := by field_simp
      rw [e2] at a
      linarith
    have h5 : 1 / w ≤ (1 + 2 * (ky + 1e-4) * uu) * (1 / y) := by
      rw [div_le_iff₀ hw]
      have hε : (ky + 1e-4) * uu ≤ 1 / 4 := by
        have : (1e-4 : ℝ) * uu ≤ 1 / 10 ^ 6 := by unfold uu; norm_num
        linarith
      have hε0 : 0 ≤ (ky + 1e-4) * uu := by positivity
      obtain ⟨ε, hεe⟩ : ∃ ε, ε = (ky + 1e-4) * uu := ⟨_, rfl⟩
      rw [mul_assoc 2]
      rw [← hεe] at hε hε0 h2' ⊢
      have hw2 : (1 - ε) * y ≤ w := by linarith [(abs_le.mp h2').1]
      have : 1 ≤ (1 + 2 * ε) * (1 / y) * ((1 - ε) * y) := by
        rw [show (1 + 2 * ε) * (1 / y) * ((1 - ε) * y) = (1 + 2 * ε) * (1 - ε) * (1 / y * y) by ring, one_div_mul_cancel hy.ne']
        nlinarith
      exact this.trans (mul_le_mul_of_nonneg_left hw2 (by positivity))
    rw [e, abs_mul, abs_of_nonneg (by positivity : 0 ≤ 1 / w)]
    have h6 := mul_le_mul h4 h5 (by positivity) ((abs_nonneg _).trans h4)
    refine h6.trans ?_
    have h7 : dx * (1 / y) ≤ dx / m := by
      rw [mul_one_div]; exact div_le_div_of_nonneg_left hdx hm0 hm
    have e8 : ((kx + ky + 1e-4) * uu * x + dx) * ((1 + 2 * (ky + 1e-4) * uu) * (1 / y)) =
        (kx + ky + 1e-4 + 2 * (ky + 1e-4) * (kx + ky + 1e-4) * uu) * (uu * (x / y)) +
        (1 + 2 * (ky + 1e-4) * uu) * (dx * (1 / y)) := by
      field_simp
    rw [e8, show ∀ z : ℝ, z * uu * (x / y) = z * (uu * (x / y)) from fun z => by ring]
    have hq : 0 ≤ uu * (x / y) := mul_nonneg hu.le hxy
    have h9 : 2 * (ky + 1e-4) * (kx + ky + 1e-4) * uu ≤ 1e-3 := by
      have a1 : (ky + 1e-4) * (kx + ky + 1e-4) ≤ 100001 * 200001 :=
        mul_le_mul (by linarith) (by linarith) (by positivity) (by norm_num)
      unfold uu; linarith
    have h10 := mul_le_mul_of_nonneg_right (show kx + ky + 1e-4 + 2 * (ky + 1e-4) * (kx + ky + 1e-4) * uu ≤ kx + ky + 0.002 by
      linarith) hq
    have h11 : 0 ≤ dx * (1 / y) := by positivity
    have h12 : 2 * (ky + 1e-4) * uu ≤ 1e-2 := by
      have : (1e-4 : ℝ) * uu ≤ 1 / 10 ^ 6 := by unfold uu; norm_num
      rw [show 2 * (ky + 1e-4) * uu = 2 * (ky * uu) + 2 * (1e-4 * uu) by ring]
      norm_num at this hkuy ⊢
      linarith
    have h13 : (1 + 2 * (ky + 1e-4) * uu) * (dx * (1 / y)) ≤ 1.01 * (dx / m) := by
      refine mul_le_mul (by linarith) h7 h11 (by norm_num)
    linarith
  obtain ⟨r1, r2, r3, r4⟩ := fl_rel (B := B) (k := k) (d := d) hxy (div_nonneg v0 hw.le) h3' (by linarith) (by linarith)
    (by linarith) (by linarith) (by linarith) hb (by linarith)
  refine ⟨_, ?_, r2, hxy, r3, r4⟩
  rw [← r1]
  show round B (XR.div (XR.fin v) (XR.fin w)) = _
  rw [XR.div, if_neg hw.ne']; rfl

/-- difference with moderate cancellation: `x ≤ c (x - y)`, `y ≤ c' (x - y)` -/
theorem Rel.sub {c' : ℝ} (hX : Rel X x kx dx) (hY : Rel Y y ky dy) (hc : x ≤ c * (x - y)) (hc' : y ≤ c' * (x - y)) (hm : m ≤ x - y)
    (hm0 : 0 < m) (hb : x - y ≤ b) (hkx : 0 ≤ kx) (hky : 0 ≤ ky) (hK0 : 0 ≤ c * kx + c' * ky) (hK : c * kx + c' * ky ≤ 1e6)
    (hdx : 0 ≤ dx) (hdy : 0 ≤ dy) (hdm : dx + dy ≤ 1 / 2 * m)
    (hk : c * kx + c' * ky + 1.001 ≤ k) (hd : 1.01 * (dx + dy) + 1 / 10 ^ 200 ≤ d) (hlim : 2 * b + (dx + dy) ≤ 10 ^ 60) :
    Rel (X - Y) (x - y) k d := by
  obtain ⟨v, rfl, _, x0, v0, h1⟩ := hX
  obtain ⟨w, rfl, _, y0, w0, h2⟩ := hY
  have hu := uu_pos
  have hz : 0 < x - y := by linarith
  have h3 : |v - w - (x - y)| ≤ (c * kx + c' * ky) * uu * (x - y) + (dx + dy) := by
    rw [show v - w - (x - y) = (v - x) - (w - y) by ring]
    have a1 := mul_le_mul_of_nonneg_left hc (mul_nonneg hkx hu.le)
    have a2 := mul_le_mul_of_nonneg_left hc' (mul_nonneg hky hu.le)
    refine (abs_sub _ _).trans ?_
    have e : (c * kx + c' * ky) * uu * (x - y) = kx * uu * (c * (x - y)) + ky * uu * (c' * (x - y)) := by ring
    rw [e]; linarith
  have hvw : 0 ≤ v - w := by
    have h4 : (c * kx + c' * ky) * uu ≤ 1 / 1000 := by
      calc (c * kx + c' * ky) * uu ≤ 1e6 * uu := mul_le_mul_of_nonneg_right hK hu.le
        _ ≤ _ := by unfold uu; norm_num
    have h5 := mul_le_mul_of_nonneg_right h4 hz.le
    linarith [(abs_le.mp h3).1]
  obtain ⟨r1, r2, r3, r4⟩ := fl_rel (B := B) (k := k) (d := d) hz.le hvw h3 hK0 hK (by linarith)
    hk (by linarith) hb hlim
  refine ⟨_, ?_, r2, hz.le, r3, r4⟩
  rw [← r1]
  show rnd B (v + -w) = _
  rw [← sub_eq_add_neg]

/-- relative perturbation of a square root -/
theorem sqrt_half {v x ε c : ℝ} (hv : 0 ≤ v) (hx : 0 ≤ x) (hε : 0 ≤ ε) (hε1 : ε ≤ 1 / 4) (hc : 0 ≤ c)
    (h : |v - x| ≤ ε * x + c ^ 2) : |√v - √x| ≤ (ε / 2 + ε ^ 2) * √x + c := by
  obtain ⟨h1, h2⟩ := abs_le.mp h
  obtain ⟨s, hs⟩ : ∃ s, s = √x := ⟨_, rfl⟩
  have hs0 : 0 ≤ s := hs ▸ Real.sqrt_nonneg _
  have hsx : x = s ^ 2 := by rw [hs, Real.sq_sqrt hx]
  obtain ⟨t, ht⟩ : ∃ t, t = √v := ⟨_, rfl⟩
  have ht0 : 0 ≤ t := ht ▸ Real.sqrt_nonneg _
  have htv : v = t ^ 2 := by rw [ht, Real.sq_sqrt hv]
  rw [← hs, ← ht]
  rw [hsx, htv] at h1 h2
  have e2 : 0 ≤ ε ^ 2 := sq_nonneg ε
  rw [abs_le]
  constructor
  · -- s (1 - ε/2 - ε²) ≤ t + c
    have h3 : s * (1 - ε / 2 - ε ^ 2) ≤ t + c := by
      apply abs_le_of_sq_le_sq' _ (by positivity) |>.2
      have h4 : (1 - ε / 2 - ε ^ 2) ^ 2 ≤ 1 - ε := by nlinarith [mul_nonneg e2 hε, mul_nonneg e2 e2]
      have h5 := mul_le_mul_of_nonneg_left h4 (sq_nonneg s)
      rw [mul_pow]
      nlinarith [mul_nonneg ht0 hc]
    linarith
  · have h3 : t ≤ s * (1 + ε / 2) + c := by
      apply abs_le_of_sq_le_sq' _ (by positivity) |>.2
      nlinarith [mul_nonneg hs0 hc, mul_nonneg (mul_nonneg hs0 hc) hε, mul_nonneg (sq_nonneg s) e2]
    nlinarith [mul_nonneg hs0 e2]

theorem Rel.sqrt (hX : Rel X x kx dx) (hc : 0 ≤ c) (hdc : dx ≤ c ^ 2) (hx : x ≤ 10 ^ 59) (hb : √x ≤ b) (hkx : 0 ≤ kx) (hkx' : kx ≤ 1e5)
    (hk : kx / 2 + 1.002 ≤ k) (hd : 1.01 * c + 1 / 10 ^ 200 ≤ d) (hlim : 2 * b + c ≤ 10 ^ 60) (hdx : dx ≤ 1) :
    Rel (PyFloat.sqrt X) (√x) k d := by
  obtain ⟨v, rfl, _, x0, v0, h1⟩ := hX
  have hu := uu_pos
  have hku : kx * uu ≤ 1 / 10 ^ 6 := by unfold uu; nlinarith
  have h3 := sqrt_half v0 x0 (mul_nonneg hkx hu.le) (by linarith) hc (h1.trans (by linarith))
  have h4 : |√v - √x| ≤ (kx / 2 + 0.001) * uu * √x + c := by
    refine h3.trans ?_
    have : kx * uu / 2 + (kx * uu) ^ 2 ≤ (kx / 2 + 0.001) * uu := by
      have h5 : kx * uu * (kx * uu) ≤ kx * uu * kx * uu := by linarith
      have h6 : kx * uu * kx ≤ 0.001 := by
        have : kx * kx ≤ 1e5 * 1e5 := mul_le_mul hkx' hkx' hkx (by norm_num)
        unfold uu; linarith
      have h7 := mul_le_mul_of_nonneg_right h6 hu.le
      nlinarith
    have := mul_le_mul_of_nonneg_right this (Real.sqrt_nonneg x)
    linarith
  obtain ⟨r1, r2, r3, r4⟩ := fl_rel (B := B) (k := k) (d := d) (Real.sqrt_nonneg x) (Real.sqrt_nonneg v) h4 (by linarith) (by linarith)
    hc (by linarith) hd hb hlim
  refine ⟨_, ?_, r2, Real.sqrt_nonneg x, r3, r4⟩
  refine fin_sqrt v0 ?_
  have h5 : kx * uu * x ≤ 1 / 10 ^ 6 * x := mul_le_mul_of_nonneg_right hku x0
  have h6 := (abs_le.mp h1).2
  norm_num at hx h5 ⊢
  linarith

end

end Nv
