import Verif.Lemmas.Rot
import Mathlib.Analysis.SpecialFunctions.Pow.Real

/-!
# The closed form of Vermeille (equation 23 in Gade 2010) over the reals
-/

namespace Nv
open Spec
open XR (fin)

/-! ## `nthroot` -/

theorem nthroot_fin {x : ℝ} (hx : 0 ≤ x) {n : ℕ} (hn : n ≠ 0) :
    nthroot (fin x) n = fin (x ^ ((1 : ℝ) / n)) := by
  have hy : (x ^ ((1 : ℝ) / n)) ^ n = x := by
    rw [← Real.rpow_natCast, ← Real.rpow_mul hx, one_div, inv_mul_cancel₀ (by exact_mod_cast hn), Real.rpow_one]
  unfold nthroot
  simp only [xr, XR.rootn_fin hx]
  split_ifs with h
  · simp only [Rat.cast_zero, Rat.cast_one, Bool.and_eq_true, Bool.not_eq_true', decide_eq_false_iff_not,
      decide_eq_true_eq] at h
    have hx0 : x ≠ 0 := h.1
    have hxp : 0 < x := lt_of_le_of_ne hx (Ne.symm hx0)
    have hyp : 0 < x ^ ((1 : ℝ) / n) := Real.rpow_pos_of_pos hxp _
    have hden : ((n : ℚ) : ℝ) * (x ^ ((1 : ℝ) / n)) ^ (n - 1) ≠ 0 := by
      have : ((n : ℚ) : ℝ) ≠ 0 := by exact_mod_cast hn
      positivity
    rw [XR.div_fin hden, XR.sub_fin, XR.fin_inj, hy, sub_self, zero_div, sub_zero]
  · rfl

theorem nthroot_neg {x : ℝ} (hx : x < 0) {n : ℕ} (hn : n ≠ 1) : nthroot (fin x) n = .nan := by
  have : PyFloat.rootn n (fin x) = XR.nan := by
    show (if x < 0 then (if n = 1 then fin x else XR.nan) else _) = _
    rw [if_pos hx, if_neg hn]
  unfold nthroot
  simp only [this, xr]
  split_ifs <;> rfl
theorem nthroot_nan (n : ℕ) : nthroot XR.nan n = XR.nan := by
  unfold nthroot
  simp only [xr]
  split_ifs <;> rfl

/-! ## the real root -/

/-- the algebra behind the closed form -/
theorem vermeille_alg {e2 p q r s t u v w k σ c : ℝ} (h6r : 6 * r = p + q - e2 ^ 2)
    (hs : s * (4 * r ^ 3) = e2 ^ 2 * p * q) (hσ : σ ^ 2 = s * (2 + s)) (hc : c = 1 + s + σ) (hcp : 0 < c)
    (htp : 0 < t) (ht3 : t ^ 3 = c) (hu : u = r * (1 + t + 1 / t)) (hv2 : v ^ 2 = u ^ 2 + e2 ^ 2 * q) (hvp : 0 < v)
    (hwv : 2 * v * w = e2 * (u + v - q)) (hkw : (k + w) ^ 2 = u + v + w ^ 2) :
    p * k ^ 2 + q * (k + e2) ^ 2 = k ^ 2 * (k + e2) ^ 2 := by
  -- t³ + t⁻³ = 2 (1 + s)
  have hinv : (1 / t) ^ 3 = 1 + s - σ := by
    rw [div_pow, one_pow, ht3, div_eq_iff hcp.ne', hc]
    linear_combination hσ
  obtain ⟨m, hm⟩ : ∃ m, m = t + 1 / t := ⟨_, rfl⟩
  have hm3 : m ^ 3 - 3 * m = 2 * (1 + s) := by
    have h1 : t * (1 / t) = 1 := by field_simp
    have : m ^ 3 = t ^ 3 + (1 / t) ^ 3 + 3 * (t * (1 / t)) * m := by rw [hm]; ring
    rw [this, h1, ht3, hinv, hc]; ring
  have hcubic : u ^ 3 - 3 * r * u ^ 2 = e2 ^ 2 * p * q / 2 := by
    have e1 : u = r * (1 + m) := by rw [hu, hm]; ring
    rw [e1]
    linear_combination r ^ 3 * hm3 + hs / 2
  -- 4 w (e² - w) = 2 u - 6 r
  have hkey : 4 * w * (e2 - w) = 2 * u - 6 * r := by
    have hv2' : v ^ 2 ≠ 0 := (pow_pos hvp 2).ne'
    apply mul_left_cancel₀ hv2'
    have h1 : v ^ 2 * (4 * w * (e2 - w)) = (2 * v * w) * (2 * v * e2 - 2 * v * w) := by ring
    have h2 : v ^ 2 * (2 * u - 6 * r) = (u ^ 2 + e2 ^ 2 * q) * (2 * u - 6 * r) := by rw [hv2]
    rw [h1, hwv, h2]
    linear_combination e2 ^ 2 * hv2 - 2 * hcubic + e2 ^ 2 * q * h6r
  have hkk : k ^ 2 + 2 * w * k - (u + v) = 0 := by linear_combination hkw
  -- the quartic
  have hq4 : k ^ 4 + 2 * e2 * k ^ 3 - (p + q - e2 ^ 2) * k ^ 2 - 2 * e2 * q * k - e2 ^ 2 * q = 0 := by
    have : k ^ 4 + 2 * e2 * k ^ 3 - (p + q - e2 ^ 2) * k ^ 2 - 2 * e2 * q * k - e2 ^ 2 * q =
        (k ^ 2 + 2 * w * k - (u + v)) * (k ^ 2 + 2 * (e2 - w) * k + (v - u)) := by
      linear_combination -k ^ 2 * hkey - 2 * k * hwv + hv2 + k ^ 2 * h6r
    rw [this, hkk, zero_mul]
  linear_combination -hq4

/-- evaluation of `compute_k` when no operation leaves its domain -/
theorem compute_k_eval {a e2 q Y2 p r s σ c t u v w : ℝ} (ha : a ≠ 0) (hp : p = Y2 / a ^ 2)
    (hr : r = (p + q - e2 ^ 2) / 6) (hr0 : r ≠ 0)
    (hs : s = e2 ^ 2 * p * q / (4 * r ^ 3)) (hss : 0 ≤ s * (2 + s)) (hσ : σ = √(s * (2 + s))) (hc : c = 1 + s + σ)
    (hc0 : 0 < c) (ht : t = c ^ ((1 : ℝ) / 3)) (hu : u = r * (1 + t + 1 / t)) (hv0 : 0 ≤ u ^ 2 + e2 ^ 2 * q)
    (hv : v = √(u ^ 2 + e2 ^ 2 * q)) (hvne : v ≠ 0) (hw : w = e2 * (u + v - q) / (2 * v)) (hrad : 0 ≤ u + v + w ^ 2) :
    compute_k (fin a) (fin e2) (fin q) (fin Y2) = fin (√(u + v + w ^ 2) - w) := by
  have ha2 : a ^ 2 ≠ 0 := pow_ne_zero 2 ha
  have h6 : ((6 : ℚ) : ℝ) ≠ 0 := by norm_num
  have h4 : ((4 : ℚ) : ℝ) * r ^ 3 ≠ 0 := mul_ne_zero (by norm_num) (pow_ne_zero 3 hr0)
  have h2v : ((2 : ℚ) : ℝ) * v ≠ 0 := mul_ne_zero (by norm_num) hvne
  have htp : 0 < t := by rw [ht]; exact Real.rpow_pos_of_pos hc0 _
  have htt : nthroot (fin c) 3 = fin t := by
    rw [nthroot_fin hc0.le (by norm_num), ht]; norm_num
  have q1 : ((1 : ℚ) : ℝ) = 1 := by norm_num
  have q2 : ((2 : ℚ) : ℝ) = 2 := by norm_num
  have q4 : ((4 : ℚ) : ℝ) = 4 := by norm_num
  have q6 : ((6 : ℚ) : ℝ) = 6 := by norm_num
  unfold compute_k
  simp only [xr, XR.div_fin ha2, ← hp, XR.div_fin h6]
  rw [q6, ← hr, XR.div_fin h4, q4, ← hs]
  simp only [xr, q1, q2, XR.sqrt_fin hss, ← hσ, ← hc, htt, XR.div_fin htp.ne', ← hu, XR.sqrt_fin hv0, ← hv]
  rw [q2] at h2v
  simp only [XR.div_fin h2v, ← hw, xr, XR.sqrt_fin hrad]

/-- for a point outside the core the model computes a positive number that solves the ellipse equation -/
theorem compute_k_fin {a e2 q Y2 : ℝ} (ha : 0 < a) (hq : 0 ≤ q) (hY : 0 ≤ Y2)
    (hr : e2 ^ 2 < Y2 / a ^ 2 + q) :
    ∃ k : ℝ, compute_k (fin a) (fin e2) (fin q) (fin Y2) = fin k ∧ 0 < k ∧
      Y2 / a ^ 2 * k ^ 2 + q * (k + e2) ^ 2 = k ^ 2 * (k + e2) ^ 2 := by
  obtain ⟨p, hp⟩ : ∃ p, p = Y2 / a ^ 2 := ⟨_, rfl⟩
  have hp0 : 0 ≤ p := by rw [hp]; positivity
  rw [← hp] at hr ⊢
  obtain ⟨r, hrdef⟩ : ∃ r, r = (p + q - e2 ^ 2) / 6 := ⟨_, rfl⟩
  have hrp : 0 < r := by rw [hrdef]; apply div_pos <;> linarith
  obtain ⟨s, hs⟩ : ∃ s, s = e2 ^ 2 * p * q / (4 * r ^ 3) := ⟨_, rfl⟩
  have hs0 : 0 ≤ s := by rw [hs]; positivity
  have hss : 0 ≤ s * (2 + s) := by positivity
  obtain ⟨σ, hσ⟩ : ∃ σ, σ = √(s * (2 + s)) := ⟨_, rfl⟩
  have hσ0 : 0 ≤ σ := by rw [hσ]; positivity
  obtain ⟨c, hc⟩ : ∃ c, c = 1 + s + σ := ⟨_, rfl⟩
  have hcp : 0 < c := by rw [hc]; positivity
  obtain ⟨t, ht⟩ : ∃ t, t = c ^ ((1 : ℝ) / 3) := ⟨_, rfl⟩
  have htp : 0 < t := by rw [ht]; exact Real.rpow_pos_of_pos hcp _
  have ht3 : t ^ 3 = c := by
    rw [ht, ← Real.rpow_natCast, ← Real.rpow_mul hcp.le]; norm_num
  obtain ⟨u, hu⟩ : ∃ u, u = r * (1 + t + 1 / t) := ⟨_, rfl⟩
  have hup : 0 < u := by rw [hu]; positivity
  have hv0 : 0 < u ^ 2 + e2 ^ 2 * q := by positivity
  obtain ⟨v, hv⟩ : ∃ v, v = √(u ^ 2 + e2 ^ 2 * q) := ⟨_, rfl⟩
  have hvp : 0 < v := by rw [hv]; exact Real.sqrt_pos.mpr hv0
  obtain ⟨w, hw⟩ : ∃ w, w = e2 * (u + v - q) / (2 * v) := ⟨_, rfl⟩
  have hrad : 0 ≤ u + v + w ^ 2 := by positivity
  refine ⟨√(u + v + w ^ 2) - w, compute_k_eval ha.ne' hp hrdef hrp.ne' hs hss hσ hc hcp ht hu hv0.le hv hvp.ne' hw hrad,
    ?_, ?_⟩
  · have : w < √(u + v + w ^ 2) := by
      apply Real.lt_sqrt_of_sq_lt; linarith
    linarith
  · refine vermeille_alg (w := w) (by rw [hrdef]; ring) (by rw [hs]; field_simp) (by rw [hσ, Real.sq_sqrt hss]) hc hcp htp ht3 hu
      (by rw [hv, Real.sq_sqrt hv0.le]) hvp (by rw [hw]; field_simp) ?_
    rw [sub_add_cancel, Real.sq_sqrt hrad]

/-- the positive solution of the ellipse equation is unique -/
theorem k_unique {p q e2 k k' : ℝ} (he : 0 ≤ e2) (hp : 0 ≤ p) (hq : 0 ≤ q) (hk : 0 < k) (hk' : 0 < k')
    (h : p * k ^ 2 + q * (k + e2) ^ 2 = k ^ 2 * (k + e2) ^ 2)
    (h' : p * k' ^ 2 + q * (k' + e2) ^ 2 = k' ^ 2 * (k' + e2) ^ 2) : k = k' := by
  have f : ∀ x, 0 < x → p * x ^ 2 + q * (x + e2) ^ 2 = x ^ 2 * (x + e2) ^ 2 → p / (x + e2) ^ 2 + q / x ^ 2 = 1 := by
    intro x hx h
    have h1 : (x + e2) ≠ 0 := by positivity
    field_simp
    linarith
  have mono : ∀ x y, 0 < x → x < y → p / (x + e2) ^ 2 + q / x ^ 2 = 1 → p / (y + e2) ^ 2 + q / y ^ 2 = 1 → False := by
    intro x y hx hxy h1 h2
    have hy : 0 < y := hx.trans hxy
    have a1 : p / (y + e2) ^ 2 ≤ p / (x + e2) ^ 2 := by
      apply div_le_div_of_nonneg_left hp (by positivity)
      apply pow_le_pow_left₀ (by positivity); linarith
    have a2 : q / y ^ 2 ≤ q / x ^ 2 := by
      apply div_le_div_of_nonneg_left hq (by positivity)
      apply pow_le_pow_left₀ hx.le hxy.le
    rcases hp.lt_or_eq with hp' | hp'
    · have : p / (y + e2) ^ 2 < p / (x + e2) ^ 2 := by
        apply div_lt_div_of_pos_left hp' (by positivity)
        apply pow_lt_pow_left₀ (by linarith) (by positivity) two_ne_zero
      linarith
    · rcases hq.lt_or_eq with hq' | hq'
      · have : q / y ^ 2 < q / x ^ 2 := by
          apply div_lt_div_of_pos_left hq' (by positivity)
          apply pow_lt_pow_left₀ hxy hx.le two_ne_zero
        linarith
      · rw [← hp', ← hq'] at h1; norm_num at h1
  rcases lt_trichotomy k k' with hlt | heq | hgt
  · exact (mono k k' hk hlt (f k hk h) (f k' hk' h')).elim
  · exact heq
  · exact (mono k' k hk' hgt (f k' hk' h') (f k hk h)).elim

end Nv
