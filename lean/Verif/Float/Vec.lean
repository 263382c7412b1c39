import Verif.Float.App
import Verif.Float.Angle

/-!
# Rounding errors of vector operations
-/

namespace Nv
open Spec

/-- a column of finite numbers -/
def V3.flt {B : Binary64} (v : V3 ℝ) : V3 (F64 B) := ⟨F64.fin v.x, F64.fin v.y, F64.fin v.z⟩
/-- all components are binary64 numbers -/
def Spec.IsF64V (v : V3 ℝ) : Prop := IsF64 v.x ∧ IsF64 v.y ∧ IsF64 v.z

/-- componentwise approximation -/
def App3 {B : Binary64} (V : V3 (F64 B)) (v : V3 ℝ) (e : ℝ) : Prop := App V.x v.x e ∧ App V.y v.y e ∧ App V.z v.z e

theorem App3.get {B : Binary64} {V : V3 (F64 B)} {v : V3 ℝ} {e : ℝ} (h : App3 V v e) :
    ∃ w : V3 ℝ, V = w.flt ∧ IsF64V w ∧ |w.x - v.x| ≤ e ∧ |w.y - v.y| ≤ e ∧ |w.z - v.z| ≤ e := by
  obtain ⟨⟨x, hx, fx, ex⟩, ⟨y, hy, fy, ey⟩, ⟨z, hz, fz, ez⟩⟩ := h
  refine ⟨⟨x, y, z⟩, ?_, ⟨fx, fy, fz⟩, ex, ey, ez⟩
  cases V; simp only at hx hy hz; subst hx hy hz; rfl

/-! ## components and length -/

theorem sq_le_len (v : V3 ℝ) : v.x ^ 2 ≤ len v ^ 2 ∧ v.y ^ 2 ≤ len v ^ 2 ∧ v.z ^ 2 ≤ len v ^ 2 := by
  have : len v ^ 2 = v.x ^ 2 + v.y ^ 2 + v.z ^ 2 := by unfold len; rw [Real.sq_sqrt (by positivity)]
  rw [this]
  refine ⟨?_, ?_, ?_⟩ <;> nlinarith [sq_nonneg v.x, sq_nonneg v.y, sq_nonneg v.z]

theorem len_nonneg' (v : V3 ℝ) : 0 ≤ len v := Real.sqrt_nonneg _

theorem abs_x_le_len (v : V3 ℝ) : |v.x| ≤ len v := abs_le_of_sq_le_sq (sq_le_len v).1 (len_nonneg' v)
theorem abs_y_le_len (v : V3 ℝ) : |v.y| ≤ len v := abs_le_of_sq_le_sq (sq_le_len v).2.1 (len_nonneg' v)
theorem abs_z_le_len (v : V3 ℝ) : |v.z| ≤ len v := abs_le_of_sq_le_sq (sq_le_len v).2.2 (len_nonneg' v)

theorem sq_le_of_abs_le {x e : ℝ} (h : |x| ≤ e) : x ^ 2 ≤ e ^ 2 := by
  rw [← sq_abs x]; exact pow_le_pow_left₀ (abs_nonneg x) h 2

/-- length of a vector with small components -/
theorem len_le_of_comp {v : V3 ℝ} {e : ℝ} (h1 : |v.x| ≤ e) (h2 : |v.y| ≤ e) (h3 : |v.z| ≤ e) : len v ≤ 1.7321 * e := by
  have he : 0 ≤ e := (abs_nonneg _).trans h1
  unfold len
  apply Real.sqrt_le_iff.mpr ⟨by positivity, ?_⟩
  nlinarith [sq_le_of_abs_le h1, sq_le_of_abs_le h2, sq_le_of_abs_le h3, sq_nonneg e]

/-- lengths of vectors that differ componentwise by at most `e` -/
theorem len_close {v w : V3 ℝ} {e : ℝ} (h1 : |w.x - v.x| ≤ e) (h2 : |w.y - v.y| ≤ e) (h3 : |w.z - v.z| ≤ e) :
    |len w - len v| ≤ 1.7321 * e := by
  have hd : len (w - v) ≤ 1.7321 * e := len_le_of_comp h1 h2 h3
  have hd' : len (v - w) ≤ 1.7321 * e := len_le_of_comp (by rw [abs_sub_comm] at h1; exact h1)
    (by rw [abs_sub_comm] at h2; exact h2) (by rw [abs_sub_comm] at h3; exact h3)
  have a1 := len_add_le v (w - v)
  have a2 := len_add_le w (v - w)
  have e1 : v + (w - v) = w := by ext <;> simp
  have e2 : w + (v - w) = v := by ext <;> simp
  rw [e1] at a1
  rw [e2] at a2
  rw [abs_le]; constructor <;> linarith

theorem len_mono {v w : V3 ℝ} (h1 : |v.x| ≤ w.x) (h2 : |v.y| ≤ w.y) (h3 : |v.z| ≤ w.z) : len v ≤ len w := by
  unfold len
  apply Real.sqrt_le_sqrt
  linarith [sq_le_of_abs_le h1, sq_le_of_abs_le h2, sq_le_of_abs_le h3]

theorem len_abs (v : V3 ℝ) : len ⟨|v.x|, |v.y|, |v.z|⟩ = len v := by simp [len]

theorem len_smul' {c : ℝ} (hc : 0 ≤ c) (v : V3 ℝ) : len ⟨c * v.x, c * v.y, c * v.z⟩ = c * len v := by
  unfold len
  rw [show (c * v.x) ^ 2 + (c * v.y) ^ 2 + (c * v.z) ^ 2 = c ^ 2 * (v.x ^ 2 + v.y ^ 2 + v.z ^ 2) by ring,
    Real.sqrt_mul (by positivity), Real.sqrt_sq hc]

/-- length of a vector whose components have a relative and an absolute error -/
theorem len_close_rel {v w : V3 ℝ} {ε t : ℝ} (hε : 0 ≤ ε) (ht : 0 ≤ t) (h1 : |w.x - v.x| ≤ ε * |v.x| + t)
    (h2 : |w.y - v.y| ≤ ε * |v.y| + t) (h3 : |w.z - v.z| ≤ ε * |v.z| + t) : |len w - len v| ≤ ε * len v + 1.7321 * t := by
  have hd : ∀ a b : V3 ℝ, (|(b - a).x| = |w.x - v.x| ∧ |(b - a).y| = |w.y - v.y| ∧ |(b - a).z| = |w.z - v.z|) →
      len (b - a) ≤ ε * len v + 1.7321 * t := by
    rintro a b ⟨e1, e2, e3⟩
    have m : len (b - a) ≤ len (⟨ε * |v.x|, ε * |v.y|, ε * |v.z|⟩ + ⟨t, t, t⟩) :=
      len_mono (by rw [e1]; exact h1) (by rw [e2]; exact h2) (by rw [e3]; exact h3)
    refine m.trans ((len_add_le _ _).trans ?_)
    have a1 := len_smul' hε ⟨|v.x|, |v.y|, |v.z|⟩
    rw [len_abs] at a1
    simp only at a1
    rw [a1]
    have := len_le_of_comp (v := ⟨t, t, t⟩) (e := t) (abs_of_nonneg ht).le (abs_of_nonneg ht).le (abs_of_nonneg ht).le
    linarith
  have d1 := hd v w ⟨rfl, rfl, rfl⟩
  have d2 := hd w v ⟨abs_sub_comm _ _, abs_sub_comm _ _, abs_sub_comm _ _⟩
  have a1 := len_add_le v (w - v)
  have a2 := len_add_le w (v - w)
  have e1 : v + (w - v) = w := by ext <;> simp
  have e2 : w + (v - w) = v := by ext <;> simp
  rw [e1] at a1
  rw [e2] at a2
  rw [abs_le]; constructor <;> linarith

/-! ## the computed length -/

/-- the computed sum of squares -/
theorem flSum_close {fl : ℝ → ℝ} (h : RoundsToNearest fl) (x y z : ℝ) :
    |fl (fl (fl (x * x) + fl (y * y)) + fl (z * z)) - (x ^ 2 + y ^ 2 + z ^ 2)| ≤ 3.01 * uu * (x ^ 2 + y ^ 2 + z ^ 2) + 6 * eta := by
  have hu := uu_pos
  have hu1 : uu ≤ 1 / 10 ^ 10 := by unfold uu; norm_num
  have hη := eta_pos
  have a1 := h.err_add (x * x)
  have a2 := h.err_add (y * y)
  have a3 := h.err_add (z * z)
  rw [abs_mul_self] at a1 a2 a3
  generalize fl (x * x) = X at *
  generalize fl (y * y) = Y at *
  generalize fl (z * z) = Z at *
  have a4 := h.err_add (X + Y)
  generalize fl (X + Y) = W at *
  have a5 := h.err_add (W + Z)
  generalize fl (W + Z) = S at *
  have p1 := mul_self_nonneg x
  have p2 := mul_self_nonneg y
  have p3 := mul_self_nonneg z
  obtain ⟨p, hp⟩ : ∃ p, p = x * x := ⟨_, rfl⟩
  obtain ⟨q, hq⟩ : ∃ q, q = y * y := ⟨_, rfl⟩
  obtain ⟨r, hr⟩ : ∃ r, r = z * z := ⟨_, rfl⟩
  rw [show x ^ 2 + y ^ 2 + z ^ 2 = p + q + r by rw [hp, hq, hr]; ring]
  rw [← hp] at a1 p1
  rw [← hq] at a2 p2
  rw [← hr] at a3 p3
  clear hp hq hr
  have b1 := abs_le.mp a1
  have b2 := abs_le.mp a2
  have b3 := abs_le.mp a3
  have up := mul_nonneg hu.le p1
  have uq := mul_nonneg hu.le p2
  have ur := mul_nonneg hu.le p3
  have hu2 : uu * uu ≤ 0.0001 * uu := by nlinarith
  have upp := mul_le_mul_of_nonneg_right hu2 p1
  have uqq := mul_le_mul_of_nonneg_right hu2 p2
  have urr := mul_le_mul_of_nonneg_right hu2 p3
  have ue : uu * eta ≤ 0.01 * eta := mul_le_mul_of_nonneg_right (by linarith) hη.le
  have c1 : |X + Y| ≤ (p + q) * (1 + uu) + 2 * eta := by
    rw [abs_le]; constructor <;> linarith
  have c2 := mul_le_mul_of_nonneg_left c1 hu.le
  have b4 := abs_le.mp (a4.trans (add_le_add_left c2 eta))
  have c3 : |W + Z| ≤ (p + q + r) * (1 + 2.001 * uu) + 4.2 * eta := by
    rw [abs_le]
    constructor <;> linarith
  have c4 := mul_le_mul_of_nonneg_left c3 hu.le
  have b5 := abs_le.mp (a5.trans (add_le_add_left c4 eta))
  rw [abs_le]
  constructor <;> linarith

/-- square roots of nonnegative numbers with a relative and an absolute error -/
theorem sqrt_mixed {v x ε c : ℝ} (hv : 0 ≤ v) (hx : 0 ≤ x) (hε : 0 ≤ ε) (hε1 : ε ≤ 1) (hc : 0 ≤ c)
    (h : |v - x| ≤ ε * x + c ^ 2) : |Real.sqrt v - Real.sqrt x| ≤ ε * Real.sqrt x + c := by
  obtain ⟨h1, h2⟩ := abs_le.mp h
  obtain ⟨s, hs⟩ : ∃ s, s = Real.sqrt x := ⟨_, rfl⟩
  have hs0 : 0 ≤ s := hs ▸ Real.sqrt_nonneg _
  have hss : s * s = x := hs ▸ Real.mul_self_sqrt hx
  rw [← hs]
  have up : Real.sqrt v ≤ s + (ε * s + c) := by
    apply Real.sqrt_le_iff.mpr ⟨by positivity, ?_⟩
    have : (s + (ε * s + c)) ^ 2 = s * s + 2 * ε * (s * s) + (ε * s) ^ 2 + c ^ 2 + 2 * s * c + 2 * ε * s * c := by ring
    rw [this, hss]
    have : 0 ≤ s * c := by positivity
    have : 0 ≤ ε * s * c := by positivity
    have : 0 ≤ ε * x := by positivity
    nlinarith [sq_nonneg (ε * s)]
  have lo : s - (ε * s + c) ≤ Real.sqrt v := by
    rcases le_or_gt (s - (ε * s + c)) 0 with hn | hn
    · exact hn.trans (Real.sqrt_nonneg _)
    · apply Real.le_sqrt_of_sq_le
      obtain ⟨g, hg⟩ : ∃ g, g = (1 - ε) * s := ⟨_, rfl⟩
      have hcg : c < g := by rw [hg]; linarith
      have e : s - (ε * s + c) = g - c := by rw [hg]; ring
      have hg2 : g * g ≤ (1 - ε) * x := by
        rw [hg, ← hss]
        have : 0 ≤ (1 - ε) * (s * s) := mul_nonneg (by linarith) (by positivity)
        nlinarith
      rw [e]
      nlinarith
  rw [abs_le]; constructor <;> linarith

/-- the computed length has a relative error of a few roundings -/
theorem flNorm_close {fl : ℝ → ℝ} (h : RoundsToNearest fl) (v : V3 ℝ) :
    |flNorm fl v.x v.y v.z - len v| ≤ 4.02 * uu * len v + 1 / 10 ^ 75 := by
  have hu := uu_pos
  have hu1 : uu ≤ 1 / 10 ^ 10 := by unfold uu; norm_num
  have hη : 6 * eta ≤ (1 / 10 ^ 76) ^ 2 := by
    have : eta ≤ (2 : ℝ) ^ (-250 : ℤ) * 2 ^ (-250 : ℤ) * 2 ^ (-200 : ℤ) := by
      rw [← zpow_add₀ (by norm_num), ← zpow_add₀ (by norm_num)]; exact eta_le (by norm_num)
    refine le_trans (mul_le_mul_of_nonneg_left this (by norm_num)) ?_
    norm_num
  unfold flNorm
  have a1 := flSum_close h v.x v.y v.z
  have hS : 0 ≤ fl (fl (fl (v.x * v.x) + fl (v.y * v.y)) + fl (v.z * v.z)) := by
    apply h.nonneg
    have := h.nonneg (mul_self_nonneg v.x)
    have := h.nonneg (mul_self_nonneg v.y)
    have := h.nonneg (mul_self_nonneg v.z)
    have := h.nonneg (x := fl (v.x * v.x) + fl (v.y * v.y)) (by linarith)
    linarith
  generalize fl (fl (fl (v.x * v.x) + fl (v.y * v.y)) + fl (v.z * v.z)) = S at *
  have hx : 0 ≤ v.x ^ 2 + v.y ^ 2 + v.z ^ 2 := by positivity
  have a2 := sqrt_mixed (c := 1 / 10 ^ 76) hS hx (by positivity : 0 ≤ 3.01 * uu) (by nlinarith) (by norm_num)
    (a1.trans (by linarith))
  have a3 := h.err_add (Real.sqrt S)
  have hl : Real.sqrt (v.x ^ 2 + v.y ^ 2 + v.z ^ 2) = len v := rfl
  rw [hl] at a2
  have l0 := len_nonneg' v
  have b2 := abs_le.mp a2
  have hs : Real.sqrt S ≤ (1 + 3.01 * uu) * len v + 1 / 10 ^ 76 := by linarith
  rw [abs_of_nonneg (Real.sqrt_nonneg S)] at a3
  have hs2 := mul_le_mul_of_nonneg_left hs hu.le
  have b3 := abs_le.mp (a3.trans (add_le_add_left hs2 eta))
  have k : uu * ((1 + 3.01 * uu) * len v + 1 / 10 ^ 76) ≤ 1.001 * uu * len v + 1 / 10 ^ 76 := by
    have : uu * uu ≤ 0.0001 * uu := by nlinarith
    nlinarith
  have he : eta ≤ 1 / 10 ^ 76 := by
    have : (1 / 10 ^ 76 : ℝ) ^ 2 ≤ 1 / 10 ^ 76 := by norm_num
    linarith [eta_pos]
  have hz : (1 / 10 ^ 75 : ℝ) = 10 * (1 / 10 ^ 76) := by norm_num
  rw [hz]
  rw [abs_le]
  have : 0 ≤ uu * len v := by positivity
  constructor <;> nlinarith

theorem flNorm_nonneg {fl : ℝ → ℝ} (h : RoundsToNearest fl) (x y z : ℝ) : 0 ≤ flNorm fl x y z := h.nonneg (Real.sqrt_nonneg _)

open F64 in
/-- the model's `norm` -/
theorem norm3_flt {B : Binary64} {v : V3 ℝ} (hv : len v ≤ 10 ^ 25) :
    norm3 (v.flt : V3 (F64 B)) = fin (flNorm B.fl v.x v.y v.z) := by
  have hl0 := len_nonneg' v
  obtain ⟨hx, hy, hz⟩ := sq_le_len v
  have hl2 : len v ^ 2 ≤ 10 ^ 50 := by nlinarith
  have hsum : v.x ^ 2 + v.y ^ 2 + v.z ^ 2 = len v ^ 2 := by unfold len; rw [Real.sq_sqrt (by positivity)]
  have key : ∀ {t : ℝ}, 0 ≤ t → t ≤ 10 ^ 59 → B.fl t ≤ 2 * t + 1 ∧ 0 ≤ B.fl t := by
    intro t h0 h1
    have := abs_le.mp (B.rounds.err_add t)
    rw [abs_of_nonneg h0] at this
    have h5 : eta ≤ 1 := eta_small.trans (by norm_num)
    have h4 : uu * t ≤ 1 * t := mul_le_mul_of_nonneg_right (by unfold uu; norm_num) h0
    exact ⟨by linarith, B.rounds.nonneg h0⟩
  have k1 := key (mul_self_nonneg v.x) (by nlinarith)
  have k2 := key (mul_self_nonneg v.y) (by nlinarith)
  have k3 := key (mul_self_nonneg v.z) (by nlinarith)
  have k4 := key (t := B.fl (v.x * v.x) + B.fl (v.y * v.y)) (by linarith) (by nlinarith)
  have k5 := key (t := B.fl (B.fl (v.x * v.x) + B.fl (v.y * v.y)) + B.fl (v.z * v.z)) (by linarith) (by nlinarith)
  unfold norm3 flNorm V3.flt
  dsimp only
  rw [fin_mul (by rw [abs_of_nonneg (mul_self_nonneg _)]; nlinarith), fin_mul (by rw [abs_of_nonneg (mul_self_nonneg _)]; nlinarith),
    fin_mul (by rw [abs_of_nonneg (mul_self_nonneg _)]; nlinarith), fin_add (by rw [abs_of_nonneg (by linarith)]; nlinarith),
    fin_add (by rw [abs_of_nonneg (by linarith)]; nlinarith), fin_sqrt k5.2 (by nlinarith)]

end Nv
