import Verif.Props.FloatOnPath
import Verif.Props.GeoPath

/-!
# C112: the nearest point of a path in binary64
-/

namespace Nv
open Spec F64
variable (B : Binary64)

/-- the computed nearest point passes the test of the default tolerance if the radius is at most 7600 km -/
theorem foot_on_circle {a b w c : V3 ℝ} (e : great_circle_normal (a.flt : V3 (F64 B)) b.flt = c.flt) (fc : IsF64V c) (fw : IsF64V w) (c1 : len c ≤ 1.0001) (w1 : len w ≤ 1.001)
    (h : |dot c w| ≤ 8.6 * uu) {r : ℝ} (fr : IsF64 r) (r1 : 1e-20 ≤ r) (r2 : r ≤ 7.6e6) :
    on_great_circle (a.flt, b.flt) (w.flt : V3 (F64 B)) (F64.fin r) (lit 1e-8) = true := by
  have hu := uu_pos
  have rp : 0 < r := lt_of_lt_of_le (by norm_num) r1
  have k8 : (lit 1e-8 : F64 B) = F64.fin (B.fl 1e-8) := by
    have := fin_lit (B := B) (q := 1e-8) (by norm_num)
    rw [this]; norm_num
  have h8 : 0.9999e-8 ≤ B.fl 1e-8 := by
    have h1 := (abs_le.mp (B.rounds.err_add 1e-8)).1
    have h2 : uu * |(1e-8 : ℝ)| + eta ≤ 1e-13 := by
      have h3 : (uu : ℝ) ≤ 1e-6 := by unfold uu; norm_num
      rw [abs_of_pos (by norm_num)]
      have h4 : eta ≤ 1e-20 := eta_small.trans (by norm_num)
      norm_num at h3 h4 ⊢; linarith
    norm_num at h1 h2 ⊢; linarith
  have hd := dot_rel_flt (B := B) fc fw (by norm_num at c1 ⊢; linarith) (by norm_num at w1 ⊢; linarith)
  have hX : App (-dot3 (c.flt : V3 (F64 B)) w.flt) 0 (11.7 * uu) := by
    refine (hd.neg).shift (y := 0) (b := 8.6 * uu) (by rw [sub_zero, abs_neg]; exact h) ?_
    have k1 : len c * len w ≤ 1.0012 := by
      have := mul_le_mul c1 w1 (len_nonneg' _) (by norm_num)
      norm_num at this ⊢; linarith
    have k2 := mul_le_mul_of_nonneg_left k1 (show 0 ≤ 3.02 * uu by positivity)
    have k3 : (1e-58 : ℝ) ≤ 0.01 * uu := by unfold uu; norm_num
    generalize (1e-58 : ℝ) = τ at *
    norm_num at k2 k3 ⊢; linarith
  obtain ⟨d, h1, h2⟩ := arcsin_mul_flt B hX (m := 0.001) (c := 0.999) (by rw [abs_zero]; unfold uu; norm_num) (by norm_num) (by norm_num) (by unfold uu; norm_num) fr r1
    (r2.trans (by norm_num))
  have hct : cross_track_distance (a.flt, b.flt) (w.flt : V3 (F64 B)) "greatcircle" (F64.fin r) = .ok (F64.fin d) := by
    simp only [cross_track_distance, toList_gc, e]
    rw [← h1]; rfl
  rw [on_great_circle, abs_cross_track_flt B hct, fin_abs, k8, fin_le, decide_eq_true_eq]
  rw [Real.arcsin_zero, zero_mul, sub_zero, abs_zero, mul_zero, add_zero] at h2
  have h3 : (1.0001 * (11.7 * uu) / 0.999 + 1e-35) * r ≤ 1.305e-15 * 7.6e6 := mul_le_mul (by unfold uu; norm_num) r2 rp.le (by norm_num)
  norm_num at h2 h3 h8 ⊢
  linarith

/-- a finite number is close to itself -/
theorem isclose_self_flt {z : ℝ} (hz : |z| ≤ 1e20) {q p : ℚ} (hq : 0 ≤ q) (hq1 : q ≤ 1 / 2) (hp : 0 ≤ p) (hp1 : p ≤ 1 / 2) :
    isclose (F64.fin z : F64 B) (F64.fin z) (lit q) (lit p) = true := by
  have key : ∀ x : ℚ, 0 ≤ x → x ≤ 1 / 2 → (lit x : F64 B) = F64.fin (B.fl x) ∧ 0 ≤ B.fl x ∧ B.fl x ≤ 1 := by
    intro x h0 h1
    have h0' : (0 : ℝ) ≤ x := by exact_mod_cast h0
    have h1' : (x : ℝ) ≤ 1 := by have : (x : ℝ) ≤ ((1 / 2 : ℚ) : ℝ) := by exact_mod_cast h1
                                 norm_num at this; linarith
    refine ⟨fin_lit (by rw [abs_of_nonneg h0']; exact h1'.trans (by norm_num)), B.rounds.nonneg h0', B.rounds.le isF64_one h1'⟩
  obtain ⟨e1, a0, a1⟩ := key q hq hq1
  obtain ⟨e2, b0, b1⟩ := key p hp hp1
  rw [e1, e2, isclose_tol_flt B hz hz (B.rounds.val _) b0 (b1.trans (by norm_num)) a0 a1, decide_eq_true_eq, sub_self, B.rounds.exact isF64_zero, abs_zero]
  exact b0.trans (le_max_left _ _)

/-- comparison of two computed great circle distances -/
theorem gc_lt {X Y : F64 B} {r α β : ℝ} (rp : 0 < r) (hX : ∃ d, X = F64.fin d ∧ |d - α * r| ≤ 1.02e-14 * r) (hY : ∃ d, Y = F64.fin d ∧ |d - β * r| ≤ 1.02e-14 * r) :
    (α + 2.1e-14 ≤ β → PyFloat.lt X Y = true) ∧ (β + 2.1e-14 ≤ α → PyFloat.lt X Y = false) := by
  obtain ⟨x, rfl, hx⟩ := hX
  obtain ⟨y, rfl, hy⟩ := hY
  obtain ⟨x1, x2⟩ := abs_le.mp hx
  obtain ⟨y1, y2⟩ := abs_le.mp hy
  rw [fin_lt, decide_eq_true_eq, decide_eq_false_iff_not, not_lt]
  constructor
  · intro h
    have := mul_le_mul_of_nonneg_right h rp.le
    norm_num at this x1 x2 y1 y2 ⊢; linarith
  · intro h
    have := mul_le_mul_of_nonneg_right h rp.le
    norm_num at this x1 x2 y1 y2 ⊢; linarith

/-- which of the two chords is longer, from the exact positions -/
theorem chord_test {v1 v2 w A A2 C : V3 ℝ} {ε : ℝ} (hA : UnitVec A) (hB : UnitVec A2) (l1 : len v1 ≤ 1.001) (l2 : len v2 ≤ 1.001) (d1 : len (v1 - A) ≤ 3.1e-15) (d2 : len (v2 - A2) ≤ 3.1e-15)
    (hC : UnitVec C) (hw : len (w - C) ≤ ε) (hε : ε ≤ 1e-4) (hs : 1e-9 ≤ len (cross v1 v2)) {v V : V3 ℝ} (hv : len v ≤ 1.001) (hV : len (v - V) ≤ 3.1e-15) :
    (PyFloat.le (norm3 (sub3 (w.flt : V3 (F64 B)) v.flt) / norm3 (sub3 v2.flt v1.flt)) (lit 1) = true → len (C - V) < len (A2 - A) + (ε + 1.3e-14)) ∧
    (PyFloat.le (norm3 (sub3 (w.flt : V3 (F64 B)) v.flt) / norm3 (sub3 v2.flt v1.flt)) (lit 1) = false → len (A2 - A) < len (C - V) + (ε + 1.3e-14)) := by
  have ε0 := (len_nonneg' _).trans hw
  have hw1 : len w ≤ 1.1 := by
    have := len_add_le (w - C) C
    rw [show w - C + C = w by ext <;> simp, hC.len] at this
    norm_num at hε ⊢; linarith
  have hl := chord_of_cross (s := len (cross v1 v2)) (by norm_num at l1 ⊢; linarith) hs le_rfl
  obtain ⟨r1, r2⟩ := chord_ratio B (u := v) (v := w) (x := v1) (y := v2) (by norm_num at hv ⊢; linarith) hw1 (by norm_num at l1 ⊢; linarith) (by norm_num at l2 ⊢; linarith) hl
  obtain ⟨c1, c2⟩ := abs_le.mp (diff_move d1 d2)
  have c3 : |len (w - v) - len (C - V)| ≤ ε + 3.1e-15 := by
    have t1 := len_add_le (C - V) ((w - C) + (-1 : ℝ) • (v - V))
    have t2 := len_add_le (w - C) ((-1 : ℝ) • (v - V))
    rw [show C - V + (w - C + (-1 : ℝ) • (v - V)) = w - v by ext <;> simp <;> ring] at t1
    have t3 := len_add_le (w - v) ((-1 : ℝ) • ((w - C) + (-1 : ℝ) • (v - V)))
    rw [show w - v + (-1 : ℝ) • (w - C + (-1 : ℝ) • (v - V)) = C - V by ext <;> simp <;> ring] at t3
    rw [len_smul, abs_neg, abs_one, one_mul] at t2 t3
    rw [abs_le]
    constructor <;> linarith
  obtain ⟨c4, c5⟩ := abs_le.mp c3
  have c6 := len_sub_unit_le hB hA
  have c7 := len_nonneg' (C - V)
  constructor
  · intro h
    by_contra hh
    push Not at hh
    have := r2 (by norm_num at c1 c2 c4 c5 hh ⊢; linarith)
    rw [h] at this; exact absurd this (by decide)
  · intro h
    by_contra hh
    push Not at hh
    have := r1 (by norm_num at c1 c2 c4 c5 hh ⊢; linarith)
    rw [h] at this; exact absurd this (by decide)

set_option maxHeartbeats 1600000 in
/-- a position of the circle outside the arc that passes both chord tests is near an end: the part behind `B` -/
theorem beyond_end {A A2 C : V3 ℝ} (hA : UnitVec A) (hB : UnitVec A2) (hC : UnitVec C) {α β E σ : ℝ} (e : C = α • A + β • A2) (ha : α ≤ 0) (hk : -0.4 ≤ dot A A2)
    (hσ : len (cross A A2) = σ) (E0 : 0 ≤ E) (E1 : E ≤ 1e-4) (E2 : E ≤ σ) (h1 : len (C - A) < len (A2 - A) + E) (h2 : len (C - A2) < len (A2 - A) + E) :
    len (C - A2) ≤ 24 * E := by
  obtain ⟨hp, hq⟩ := arc_coeff hA hB e
  have hL := len_sub_sq hB hA
  have hD := len_sub_sq hC hB
  have hP := len_sub_sq hC hA
  have hC1 : α ^ 2 + β ^ 2 + 2 * α * β * dot A A2 = 1 := by
    have := congrArg (dot C) e
    rw [dot_add_right, dot_smul_right, dot_smul_right, hp, hq, hC.dot] at this
    linear_combination -this
  have hσ2 : σ ^ 2 = 1 - dot A A2 ^ 2 := by
    rw [← hσ, lagrange, hA.len, hB.len]; ring
  have hσ0 : 0 ≤ σ := hσ ▸ len_nonneg' _
  rw [dot_comm A2 A] at hL
  have L0 := len_nonneg' (A2 - A)
  have D0 := len_nonneg' (C - A2)
  have P0 := len_nonneg' (C - A)
  have k1 := dot_le_one hA hB
  generalize dot A A2 = k at *
  generalize dot C A = p at *
  generalize dot C A2 = q at *
  generalize len (A2 - A) = L at *
  generalize len (C - A2) = D at *
  generalize len (C - A) = P at *
  clear e hσ
  -- the excess of the chord in terms of the cosines
  have hF1 : k - p < L * E + E ^ 2 / 2 := by
    have := mul_self_lt_mul_self P0 h1
    linarith only [this, hP, hL, show P * P = P ^ 2 by ring, show (L + E) * (L + E) = L ^ 2 + 2 * (L * E) + E ^ 2 by ring]
  have hF2 : k - q < L * E + E ^ 2 / 2 := by
    have := mul_self_lt_mul_self D0 h2
    linarith only [this, hD, hL, show D * D = D ^ 2 by ring, show (L + E) * (L + E) = L ^ 2 + 2 * (L * E) + E ^ 2 by ring]
  have hLσ : L ≤ 1.83 * σ := by
    refine abs_le_of_sq_le_sq' ?_ (by positivity) |>.2
    have h3 : 0 ≤ (1 - k) * (k + 0.4) := mul_nonneg (by linarith) (by linarith)
    have h4 : (1.83 * σ) ^ 2 = 1.83 ^ 2 * (1 - k ^ 2) := by rw [mul_pow, hσ2]
    rw [h4, hL]
    nlinarith
  have hF : L * E + E ^ 2 / 2 ≤ 2.33 * (E * σ) := by
    have h3 := mul_le_mul_of_nonneg_right hLσ E0
    have h4 := mul_le_mul_of_nonneg_left E2 E0
    have h5 : E ^ 2 = E * E := by ring
    norm_num at h3 ⊢; linarith
  have σ1 : σ ≤ 1 := abs_le_of_sq_le_sq' (by rw [hσ2]; nlinarith) (by norm_num) |>.2
  have hFE : 2.33 * (E * σ) ≤ 2.33 * E := by
    have := mul_le_mul_of_nonneg_left σ1 E0
    norm_num; linarith
  -- `y` is the sine of the angle from `B`
  have hy0 : 0 ≤ -α * σ := mul_nonneg (by linarith) hσ0
  have hy : (-α * σ) ^ 2 = (1 - q) * (1 + q) := by
    rw [mul_pow, hσ2, hq]; linear_combination hC1
  have hyσ : (-α * σ) * σ = k * q - p := by
    rw [hp, hq]; linear_combination (-α) * hσ2
  generalize -α * σ = y at *
  have hmain : k * (D ^ 2 / 2) + y * σ < 2.33 * (E * σ) := by
    rw [hyσ, hD]; linarith
  have hyD : y ^ 2 = D ^ 2 * ((1 + q) / 2) := by rw [hy, hD]; ring
  have D2 : D ≤ 2 := by nlinarith
  rcases le_or_gt 0 k with k0 | k0
  · have h3 : y * σ < 2.33 * E * σ := by
      have : 0 ≤ k * (D ^ 2 / 2) := by positivity
      linarith
    have h4 : y ≤ 2.33 * E := by
      by_contra hh; push Not at hh
      have := mul_le_mul_of_nonneg_right hh.le hσ0
      linarith
    have h5 : y ^ 2 ≤ (2.33 * E) ^ 2 := pow_le_pow_left₀ hy0 h4 2
    have h6 : D ^ 2 * 0.49 ≤ y ^ 2 := by
      rw [hyD]; refine mul_le_mul_of_nonneg_left ?_ (sq_nonneg _)
      norm_num at E1 hF hF2 hFE ⊢; linarith
    refine abs_le_of_sq_le_sq' ?_ (by positivity) |>.2
    nlinarith
  · -- `u - w` is bounded below
    have hq1 : q ≤ 1 := by nlinarith [sq_nonneg D]
    obtain ⟨g, hg⟩ : ∃ g, g = Real.sqrt ((1 + q) / 2) := ⟨_, rfl⟩
    have g0 : 0 ≤ g := hg ▸ Real.sqrt_nonneg _
    have hq0 : 0 ≤ (1 + q) / 2 := by norm_num at E1 hF hF2 hFE hk ⊢; linarith
    have g2 : g ^ 2 = (1 + q) / 2 := by rw [hg, Real.sq_sqrt hq0]
    have g1 : g ≤ 1 := abs_le_of_sq_le_sq' (by rw [g2]; linarith) (by norm_num) |>.2
    have hyg : y = D * g := by
      have h3 : y ^ 2 = (D * g) ^ 2 := by rw [hyD, mul_pow, g2]
      exact (pow_left_inj₀ hy0 (mul_nonneg D0 g0) (by norm_num)).mp h3
    have hu : g * σ ≤ 1 := mul_le_one₀ g1 hσ0 σ1
    have hu0 : 0 ≤ g * σ := mul_nonneg g0 hσ0
    have hw : -k * (D / 2) ≤ 0.4 := by
      have := mul_le_mul (show -k ≤ 0.4 by linarith) (show D / 2 ≤ 1 by linarith) (by linarith) (by norm_num)
      linarith
    have hw0 : 0 ≤ -k * (D / 2) := mul_nonneg (by linarith) (by linarith)
    have huw : 0.139 ≤ (g * σ) ^ 2 - (-k * (D / 2)) ^ 2 := by
      have h3 : (g * σ) ^ 2 - (-k * (D / 2)) ^ 2 = (1 + q - 2 * k ^ 2) / 2 := by
        rw [mul_pow, g2, hσ2, mul_pow, div_pow, hD]; ring
      rw [h3]
      have h4 : 0 ≤ (k + 0.4) * (-k + 0.9) := mul_nonneg (by linarith) (by linarith)
      have h5 : 0 ≤ 0.36 + 0.5 * k - k ^ 2 := by linarith only [h4, show (k + 0.4) * (-k + 0.9) = 0.36 + 0.5 * k - k ^ 2 by ring]
      clear h3 h4 hw hw0 hu hu0 hmain hyD hyg hD hL hσ2 hy hyσ
      norm_num at E1 hF hF2 hFE h5 hk ⊢; linarith
    have hd : 0.099 ≤ g * σ - -k * (D / 2) := by
      by_contra hh; push Not at hh
      have h3 : (g * σ) ^ 2 - (-k * (D / 2)) ^ 2 = (g * σ - -k * (D / 2)) * (g * σ + -k * (D / 2)) := by ring
      have h4 := mul_le_mul hh.le (show g * σ + -k * (D / 2) ≤ 1.4 by linarith) (by linarith) (by norm_num)
      norm_num at h3 h4 huw; linarith
    have h5 : D * (g * σ - -k * (D / 2)) < 2.33 * E := by
      refine lt_of_eq_of_lt ?_ (lt_of_lt_of_le hmain hFE)
      rw [hyg]; ring
    have h6 := mul_le_mul_of_nonneg_left hd D0
    norm_num at h5 h6 ⊢; linarith

/-- a position of the arc that fails the chord test from `A` is near `B` -/
theorem near_end {A A2 C : V3 ℝ} (hA : UnitVec A) (hB : UnitVec A2) (hp : ProperPath A A2) (hC : OnArc A A2 C) (hk : -0.4 ≤ dot A A2) {E : ℝ}
    (E0 : 0 ≤ E) (E2 : E ≤ len (cross A A2)) (h1 : len (A2 - A) < len (C - A) + E) : len (C - A2) ≤ 3.4 * E := by
  have hqk : dot A A2 ≤ dot C A2 := by
    have h := arc_additive hA hB hp hC
    have h2 := angle_nonneg A C
    rw [← cos_angle_unit hA hB, ← cos_angle_unit hC.1 hB]
    exact Real.cos_le_cos_of_nonneg_of_le_pi (angle_nonneg _ _) (angle_le_pi _ _) (by linarith)
  obtain ⟨hC1, α, β, ha, hb, e⟩ := hC
  obtain ⟨hpp, hq⟩ := arc_coeff hA hB e
  have hL := len_sub_sq hB hA
  have hD := len_sub_sq hC1 hB
  have hP := len_sub_sq hC1 hA
  have hC2 : α ^ 2 + β ^ 2 + 2 * α * β * dot A A2 = 1 := by
    have := congrArg (dot C) e
    rw [dot_add_right, dot_smul_right, dot_smul_right, hpp, hq, hC1.dot] at this
    linear_combination -this
  have hσ2 : len (cross A A2) ^ 2 = 1 - dot A A2 ^ 2 := by
    rw [lagrange, hA.len, hB.len]; ring
  have hσp : 0 < len (cross A A2) := len_pos hp
  rw [dot_comm A2 A] at hL
  have L0 := len_nonneg' (A2 - A)
  have D0 := len_nonneg' (C - A2)
  have P0 := len_nonneg' (C - A)
  have k1 := ProperPath.dot_lt_one hA hB hp
  generalize len (cross A A2) = σ at *
  generalize dot A A2 = k at *
  generalize dot C A = p at *
  generalize dot C A2 = q at *
  generalize len (A2 - A) = L at *
  generalize len (C - A2) = D at *
  generalize len (C - A) = P at *
  clear e
  have k2 : k < 1 := by nlinarith
  have hLσ : σ ≤ L := by
    refine abs_le_of_sq_le_sq' ?_ L0 |>.2
    rw [hσ2, hL]; nlinarith [sq_nonneg (1 - k)]
  have hLp : 0 < L := lt_of_lt_of_le hσp hLσ
  have hDL : D ≤ L := abs_le_of_sq_le_sq' (by rw [hD, hL]; linarith) L0 |>.2
  have hF : p - k ≤ L * E := by
    have h2 : L - E < P := by linarith
    have := mul_self_lt_mul_self (by linarith) h2
    nlinarith [sq_nonneg E]
  have hy0 : 0 ≤ α * σ := mul_nonneg ha hσp.le
  have hy : (α * σ) ^ 2 = (1 - q) * (1 + q) := by
    rw [mul_pow, hσ2, hq]; linear_combination hC2
  have hyσ : (α * σ) * σ = p - k * q := by
    rw [hpp, hq]; linear_combination α * hσ2
  generalize α * σ = y at *
  have hmain : y * σ - k * (D ^ 2 / 2) ≤ L * E := by rw [hyσ, hD]; linarith
  have hyD : y ^ 2 = D ^ 2 * ((1 + q) / 2) := by rw [hy, hD]; ring
  -- `m` is the cosine of half the arc
  obtain ⟨m, hm⟩ : ∃ m, m = Real.sqrt ((1 + k) / 2) := ⟨_, rfl⟩
  have m0 : 0 ≤ m := hm ▸ Real.sqrt_nonneg _
  have m2 : m ^ 2 = (1 + k) / 2 := by rw [hm, Real.sq_sqrt (by norm_num at hk; linarith)]
  have hσm : σ = L * m := by
    have h2 : σ ^ 2 = (L * m) ^ 2 := by rw [mul_pow, m2, hL, hσ2]; ring
    exact (pow_left_inj₀ hσp.le (mul_nonneg L0 m0) (by norm_num)).mp h2
  have hym : D * m ≤ y := by
    refine abs_le_of_sq_le_sq' ?_ hy0 |>.2
    rw [mul_pow, m2, hyD]
    exact mul_le_mul_of_nonneg_left (by linarith) (sq_nonneg _)
  have h3 : D * L * ((1 + k) / 2) ≤ y * σ := by
    rw [hσm, ← m2]
    have := mul_le_mul_of_nonneg_right hym (mul_nonneg L0 m0)
    linarith only [this, show D * L * m ^ 2 = D * m * (L * m) by ring]
  have h4 : D * L * 0.3 ≤ L * E := by
    rcases le_or_gt 0 k with k0 | k0
    · have h5 : k * (D ^ 2 / 2) ≤ k * (D * L / 2) := by
        refine mul_le_mul_of_nonneg_left ?_ k0
        have := mul_le_mul_of_nonneg_left hDL D0
        linarith only [this, show D ^ 2 = D * D by ring]
      have h6 : 0 ≤ D * L := mul_nonneg D0 L0
      linarith only [h3, h5, h6, hmain]
    · have h5 : 0 ≤ -k * (D ^ 2 / 2) := mul_nonneg (by linarith) (by positivity)
      have h6 : D * L * 0.3 ≤ D * L * ((1 + k) / 2) := mul_le_mul_of_nonneg_left (by norm_num at hk ⊢; linarith) (mul_nonneg D0 L0)
      linarith only [h3, h5, h6, hmain]
  have h5 : D * 0.3 ≤ E := by
    refine le_of_mul_le_mul_left ?_ hLp
    linarith only [h4]
  norm_num at h5 ⊢; linarith

section
variable {a f : ℝ} {R : M3 ℝ}
variable (hR : IsAxes R) (nmA nmB nmC : EllKey) (latA lonA latB lonB latC lonC : ℝ) {zA zB : ℝ} (zC : ℝ)
include hR

variable (fa : IsF64 a) (a1 : 1 ≤ a) (ff : IsF64 f) (f0 : 0 ≤ f) (f1 : f ≤ 0.01)
  (fA : IsF64 zA) (fB : IsF64 zB) (dA : zA ≤ 0.4 * a) (dB : zB ≤ 0.4 * a) (hS : a + |zA| + |zB| ≤ 7.5e6)
  {s t : ℝ} (s0 : 1e-8 ≤ s) (hs : s ≤ len (cross (normalOf R latA lonA) (normalOf R latB lonB))) (t0 : 0 < t)
  (ht : t ≤ len (cross (normalOf R latC lonC) (dirOf (cross (normalOf R latA lonA) (normalOf R latB lonB))))) (hst : 1e-8 ≤ s * t ^ 2)
include fa a1 ff f0 f1 fA fB dA dB hS s0 hs t0 ht hst

/-- the three possible results -/
theorem closest_path_cases : ∃ (C : V3 ℝ) (X : GeoPoint (F64 B)), (Path64 B a f R nmA nmB latA lonA zA latB lonB zB).closest_point_on_path (.geo (Geo64 B a f R nmC latC lonC zC)) = X ∧
    OnCircle (normalOf R latA lonA) (normalOf R latB lonB) C ∧
    (∀ Q, OnCircle (normalOf R latA lonA) (normalOf R latB lonB) Q → angle (normalOf R latC lonC) C ≤ angle (normalOf R latC lonC) Q) ∧
    (((∃ lat lon z : ℝ, X = ⟨F64.fin lat, F64.fin lon, F64.fin z, Frame64 B a f R nmC⟩ ∧ IsF64 lat ∧ IsF64 lon ∧ IsF64 z ∧
        len (normalOf R lat lon - C) ≤ 2.5e-13 / (s * t) ∧ |z - (zA + zB) / 2| ≤ 1.2e-16 * (|zA| + |zB|) + 1 / 10 ^ 50) ∧
      len (C - normalOf R latA lonA) < len (normalOf R latB lonB - normalOf R latA lonA) + 1.4e-13 / (s * t) ∧
      len (C - normalOf R latB lonB) < len (normalOf R latB lonB - normalOf R latA lonA) + 1.4e-13 / (s * t)) ∨
    ((len (normalOf R latB lonB - normalOf R latA lonA) < len (C - normalOf R latA lonA) + 1.4e-13 / (s * t) ∨
      len (normalOf R latB lonB - normalOf R latA lonA) < len (C - normalOf R latB lonB) + 1.4e-13 / (s * t)) ∧
     ((X = Geo64 B a f R nmA latA lonA zA ∧ angle (normalOf R latA lonA) (normalOf R latC lonC) < angle (normalOf R latB lonB) (normalOf R latC lonC) + 2.1e-14) ∨
      (X = Geo64 B a f R nmB latB lonB zB ∧ angle (normalOf R latB lonB) (normalOf R latC lonC) < angle (normalOf R latA lonA) (normalOf R latC lonC) + 2.1e-14)))) := by
  have sp : 0 < s := lt_of_lt_of_le (by norm_num) s0
  have st0 : 0 < s * t := mul_pos sp t0
  have zA0 := abs_nonneg zA
  have zB0 := abs_nonneg zB
  have uA := normalOf_unit hR latA lonA
  have uB := normalOf_unit hR latB lonB
  have ha : 0 < a := by linarith
  have hf : f < 1 := by norm_num at f1; linarith
  have hA : |zA| ≤ 1e15 := by norm_num at hS ⊢; linarith
  have hB : |zB| ≤ 1e15 := by norm_num at hS ⊢; linarith
  have gA := geodetic_posE (d := zA) ha hf hR.rot uA.ne
  have gB := geodetic_posE (d := zB) ha hf hR.rot uB.ne
  obtain ⟨v1, v2, n, w, c, C, e1, e2, e3, ⟨g1, g2, l1, l2, d1, d2, k1⟩, hw, fw, ⟨en, fc, cl, hcw⟩, oC, nC, hcl, hse, st1⟩ :=
    closest_parts B latA lonA latB lonB latC lonC hR s0 hs t0 ht hst
  obtain ⟨⟨r, er, fr, -, b2, -, b4⟩, -⟩ := radius_flt B hR fa a1 (by norm_num at hS ⊢; linarith) ff f0 f1 nmA nmB latA lonA latB lonB fA fB hA hB dA dB gA gB
  have rp : 0 < r := lt_of_lt_of_le (by norm_num) b2
  have r76 : r ≤ 7.6e6 := by norm_num at b4 hS ⊢; linarith
  obtain ⟨z, hz, fz, bz⟩ := mean2_flt B hR fA fB le_rfl (by norm_num at hS ⊢; linarith)
  have hz20 : |z| ≤ 1e20 := by
    have h1 := abs_sub_abs_le_abs_sub z ((zA + zB) / 2)
    have h2 : |(zA + zB) / 2| ≤ 1e7 := by
      rw [abs_div, abs_of_pos (by norm_num : (0 : ℝ) < 2)]
      have := abs_add_le zA zB
      norm_num at hS ⊢; linarith
    have h3 : (1 / 10 ^ 50 : ℝ) ≤ 1 := by norm_num
    generalize (1 / 10 ^ 50 : ℝ) = τ at *
    norm_num at h2 hS bz ⊢; linarith
  obtain ⟨lat, lon, q1, q2, q3, q4⟩ := latlon_of_near B hR fw oC.1 hcl (hse.trans (by norm_num))
  have q5 : len (normalOf R lat lon - C) ≤ 2.5e-13 / (s * t) := by
    refine q4.trans ?_
    have h1 : 2.9e-15 ≤ 2.9e-15 / (s * t) := by
      rw [le_div_iff₀ st0]
      norm_num; linarith
    have h2 : 2 * (1.23e-13 / (s * t)) + 2.9e-15 / (s * t) = (2 * 1.23e-13 + 2.9e-15) / (s * t) := by ring
    have h3 : (2 * 1.23e-13 + 2.9e-15) / (s * t) ≤ 2.5e-13 / (s * t) := div_le_div_of_nonneg_right (by norm_num) st0.le
    linarith
  have hm : 1.23e-13 / (s * t) + 1.3e-14 ≤ 1.4e-13 / (s * t) := by
    have h1 : 1.3e-14 ≤ 1.3e-14 / (s * t) := by
      rw [le_div_iff₀ st0]
      norm_num; linarith
    have h2 : 1.23e-13 / (s * t) + 1.3e-14 / (s * t) ≤ 1.4e-13 / (s * t) := by
      rw [← add_div]; exact div_le_div_of_nonneg_right (by norm_num) st0.le
    linarith
  have hs9 : 1e-9 ≤ len (cross v1 v2) := by norm_num at k1 s0 ⊢; linarith
  obtain ⟨t1, t2⟩ := chord_test B uA uB l1 l2 d1 d2 oC.1 hcl hse hs9 l1 d1
  obtain ⟨t3, t4⟩ := chord_test B uA uB l1 l2 d1 d2 oC.1 hcl hse hs9 l2 d2
  have hw1 : len w ≤ 1.001 := by
    have := len_add_le (w - C) C
    rw [show w - C + C = w by ext <;> simp, oC.1.len] at this
    norm_num at hse hcl ⊢; linarith
  have hcirc := foot_on_circle B en fc fw cl hw1 hcw fr b2 r76
  have hsame : isclose (F64.fin z : F64 B) (F64.fin z) (lit 1e-6) (lit 1e-8) = true :=
    isclose_self_flt B hz20 (q := 1e-6) (p := 1e-8) (by norm_num) (by norm_num) (by norm_num) (by norm_num)
  have gcA := gc_points_flt B hR latA lonA latC lonC fr b2 (r76.trans (by norm_num))
  have gcB := gc_points_flt B hR latB lonB latC lonC fr b2 (r76.trans (by norm_num))
  have gl := gc_lt B rp gcA gcB
  refine ⟨C, _, rfl, oC, nC, ?_⟩
  have hres : (Path64 B a f R nmA nmB latA lonA zA latB lonB zB).closest_point_on_path (.geo (Geo64 B a f R nmC latC lonC zC)) =
      if (PyFloat.le (norm3 (sub3 (w.flt : V3 (F64 B)) v1.flt) / norm3 (sub3 v2.flt v1.flt)) (lit 1) &&
        PyFloat.le (norm3 (sub3 (w.flt : V3 (F64 B)) v2.flt) / norm3 (sub3 v2.flt v1.flt)) (lit 1)) = true
      then ⟨F64.fin lat, F64.fin lon, F64.fin z, Frame64 B a f R nmC⟩
      else if PyFloat.lt (great_circle_distance (lat_lon2n_E (F64.fin latA : F64 B) (F64.fin lonA) R.flt) (lat_lon2n_E (F64.fin latC : F64 B) (F64.fin lonC) R.flt) (F64.fin r))
        (great_circle_distance (lat_lon2n_E (F64.fin latB : F64 B) (F64.fin lonB) R.flt) (lat_lon2n_E (F64.fin latC : F64 B) (F64.fin lonC) R.flt) (F64.fin r)) = true
      then Geo64 B a f R nmA latA lonA zA else Geo64 B a f R nmB latB lonB zB := by
    have hN : (Path64 B a f R nmA nmB latA lonA zA latB lonB zB).closest_nvector (.geo (Geo64 B a f R nmC latC lonC zC)) = ⟨w.flt, F64.fin z, Frame64 B a f R nmC⟩ := by
      change Nvector.mk (Nv.closest_point_on_great_circle (lat_lon2n_E (F64.fin latA) (F64.fin lonA) R.flt, lat_lon2n_E (F64.fin latB) (F64.fin lonB) R.flt)
        (lat_lon2n_E (F64.fin latC) (F64.fin lonC) R.flt)) ((F64.fin zA + F64.fin zB) * lit 0.5) (Frame64 B a f R nmC) = _
      rw [e1, e2, e3, hw, hz]
    have hP : (Path64 B a f R nmA nmB latA lonA zA latB lonB zB).on_great_circle_path (.nvec ⟨w.flt, F64.fin z, Frame64 B a f R nmC⟩) none (lit 1e-6) (lit 1e-8) =
        (PyFloat.le (norm3 (sub3 (w.flt : V3 (F64 B)) v1.flt) / norm3 (sub3 v2.flt v1.flt)) (lit 1) &&
        PyFloat.le (norm3 (sub3 (w.flt : V3 (F64 B)) v2.flt) / norm3 (sub3 v2.flt v1.flt)) (lit 1)) := by
      change (Nv.on_great_circle_path (lat_lon2n_E (F64.fin latA) (F64.fin lonA) R.flt, lat_lon2n_E (F64.fin latB) (F64.fin lonB) R.flt)
        w.flt ((length (Geo64 B a f R nmA latA lonA zA).to_ecef_vector.pvector +
        length (Geo64 B a f R nmB latB lonB zB).to_ecef_vector.pvector) / lit 2) (lit 1e-8) && isclose (F64.fin z) ((F64.fin zA + F64.fin zB) * lit 0.5) (lit 1e-6) (lit 1e-8)) = _
      rw [e1, e2, er, hz, hsame, Bool.and_true]
      simp only [Nv.on_great_circle_path, hcirc, Bool.and_true]
    have hA' : (Path64 B a f R nmA nmB latA lonA zA latB lonB zB).average_radius = F64.fin r := er
    unfold GeoPath.closest_point_on_path
    simp only [hN, hP, hA']
    have hG : Nvector.to_geo_point (⟨w.flt, F64.fin z, Frame64 B a f R nmC⟩ : Nvector (F64 B)) = ⟨F64.fin lat, F64.fin lon, F64.fin z, Frame64 B a f R nmC⟩ := by
      change GeoPoint.mk (n_E2lat_lon (w.flt : V3 (F64 B)) R.flt).1 (n_E2lat_lon (w.flt : V3 (F64 B)) R.flt).2 (F64.fin z) (Frame64 B a f R nmC) = _
      rw [q1]
    rw [hG]
    rfl
  rw [hres]
  generalize PyFloat.le (norm3 (sub3 (w.flt : V3 (F64 B)) v1.flt) / norm3 (sub3 v2.flt v1.flt)) (lit 1) = x at *
  generalize PyFloat.le (norm3 (sub3 (w.flt : V3 (F64 B)) v2.flt) / norm3 (sub3 v2.flt v1.flt)) (lit 1) = y at *
  by_cases hxy : (x && y) = true
  · left
    rw [if_pos hxy]
    obtain ⟨hx, hy⟩ := Bool.and_eq_true_iff.mp hxy
    refine ⟨⟨lat, lon, z, rfl, q2, q3, fz, q5, bz⟩, ?_, ?_⟩
    · have := t1 hx; linarith
    · have := t3 hy; linarith
  · right
    rw [if_neg hxy]
    constructor
    · rw [Bool.not_eq_true, Bool.and_eq_false_iff] at hxy
      rcases hxy with h | h
      · left; have := t2 h; linarith
      · right; have := t4 h; linarith
    · generalize PyFloat.lt (great_circle_distance (lat_lon2n_E (F64.fin latA : F64 B) (F64.fin lonA) R.flt) (lat_lon2n_E (F64.fin latC : F64 B) (F64.fin lonC) R.flt) (F64.fin r))
        (great_circle_distance (lat_lon2n_E (F64.fin latB : F64 B) (F64.fin lonB) R.flt) (lat_lon2n_E (F64.fin latC : F64 B) (F64.fin lonC) R.flt) (F64.fin r)) = g at *
      cases g
      · right
        refine ⟨by simp, ?_⟩
        by_contra hh; push Not at hh
        exact absurd (gl.1 hh) (by decide)
      · left
        refine ⟨by simp, ?_⟩
        by_contra hh; push Not at hh
        exact absurd (gl.2 hh) (by decide)

/-- **C112** `GeoPath.closest_point_on_path`: the nearest position `C` of the exact great circle decides. If it is on the path side of both ends by more than the
rounding error, the result is `C` at the mean depth; if it is beyond one of them by more than that, the result is the end nearer to the point, exactly as given -/
theorem C112_closest_point : ∃ C : V3 ℝ, OnCircle (normalOf R latA lonA) (normalOf R latB lonB) C ∧
    (∀ Q, OnCircle (normalOf R latA lonA) (normalOf R latB lonB) Q → angle (normalOf R latC lonC) C ≤ angle (normalOf R latC lonC) Q) ∧
    (len (C - normalOf R latA lonA) + 1.4e-13 / (s * t) ≤ len (normalOf R latB lonB - normalOf R latA lonA) →
      len (C - normalOf R latB lonB) + 1.4e-13 / (s * t) ≤ len (normalOf R latB lonB - normalOf R latA lonA) →
      ∃ lat lon z : ℝ, (Path64 B a f R nmA nmB latA lonA zA latB lonB zB).closest_point_on_path (.geo (Geo64 B a f R nmC latC lonC zC)) =
        ⟨F64.fin lat, F64.fin lon, F64.fin z, Frame64 B a f R nmC⟩ ∧ IsF64 lat ∧ IsF64 lon ∧ IsF64 z ∧
        len (normalOf R lat lon - C) ≤ 2.5e-13 / (s * t) ∧ |z - (zA + zB) / 2| ≤ 1.2e-16 * (|zA| + |zB|) + 1 / 10 ^ 50) ∧
    ((len (normalOf R latB lonB - normalOf R latA lonA) + 1.4e-13 / (s * t) ≤ len (C - normalOf R latA lonA) ∨
        len (normalOf R latB lonB - normalOf R latA lonA) + 1.4e-13 / (s * t) ≤ len (C - normalOf R latB lonB)) →
      (angle (normalOf R latA lonA) (normalOf R latC lonC) + 2.1e-14 ≤ angle (normalOf R latB lonB) (normalOf R latC lonC) →
        (Path64 B a f R nmA nmB latA lonA zA latB lonB zB).closest_point_on_path (.geo (Geo64 B a f R nmC latC lonC zC)) = Geo64 B a f R nmA latA lonA zA) ∧
      (angle (normalOf R latB lonB) (normalOf R latC lonC) + 2.1e-14 ≤ angle (normalOf R latA lonA) (normalOf R latC lonC) →
        (Path64 B a f R nmA nmB latA lonA zA latB lonB zB).closest_point_on_path (.geo (Geo64 B a f R nmC latC lonC zC)) = Geo64 B a f R nmB latB lonB zB)) := by
  obtain ⟨C, X, hX, oC, nC, h⟩ := closest_path_cases B hR nmA nmB nmC latA lonA latB lonB latC lonC zC fa a1 ff f0 f1 fA fB dA dB hS s0 hs t0 ht hst
  refine ⟨C, oC, nC, ?_, ?_⟩
  · intro i1 i2
    rcases h with ⟨⟨lat, lon, z, rfl, r⟩, -⟩ | ⟨j, -⟩
    · exact ⟨lat, lon, z, hX, r⟩
    · rcases j with j | j <;> linarith
  · intro i
    rcases h with ⟨-, j1, j2⟩ | ⟨-, h⟩
    · rcases i with i | i <;> linarith
    rw [hX]
    constructor
    · intro k
      rcases h with ⟨h, -⟩ | ⟨-, j⟩
      · exact h
      · linarith
    · intro k
      rcases h with ⟨-, j⟩ | ⟨h, -⟩
      · linarith
      · exact h

/-- **C112** on paths shorter than 113 degrees the result of `closest_point_on_path` is a point of the segment and no point of the segment is nearer to the given
point, both to within the rounding error -/
theorem C112_least (hk : -0.4 ≤ dot (normalOf R latA lonA) (normalOf R latB lonB)) (hst2 : 1.4e-13 ≤ s ^ 2 * t) : ∃ (lat lon z : ℝ) (F : FrameE (F64 B)),
    (Path64 B a f R nmA nmB latA lonA zA latB lonB zB).closest_point_on_path (.geo (Geo64 B a f R nmC latC lonC zC)) = ⟨F64.fin lat, F64.fin lon, F64.fin z, F⟩ ∧
    (∃ Q, OnArc (normalOf R latA lonA) (normalOf R latB lonB) Q ∧ angle (normalOf R lat lon) Q ≤ 3.8e-12 / (s * t)) ∧
    ∀ Q, OnArc (normalOf R latA lonA) (normalOf R latB lonB) Q → angle (normalOf R latC lonC) (normalOf R lat lon) ≤ angle (normalOf R latC lonC) Q + 5.1e-13 / (s * t) := by
  obtain ⟨C, X, hX, oC, nC, h⟩ := closest_path_cases B hR nmA nmB nmC latA lonA latB lonB latC lonC zC fa a1 ff f0 f1 fA fB dA dB hS s0 hs t0 ht hst
  have sp : 0 < s := lt_of_lt_of_le (by norm_num) s0
  have st0 : 0 < s * t := mul_pos sp t0
  have uA := normalOf_unit hR latA lonA
  have uB := normalOf_unit hR latB lonB
  have uC := normalOf_unit hR latC lonC
  have s1 : s ≤ 1 := by
    have := len_cross_le (normalOf R latA lonA) (normalOf R latB lonB)
    rw [uA.len, uB.len, one_mul] at this; linarith
  have hp : ProperPath (normalOf R latA lonA) (normalOf R latB lonB) := by
    intro h0; rw [h0, len_eq_zero.mpr rfl] at hs; linarith
  have t1 : t ≤ 1 := by
    have := len_cross_le (normalOf R latC lonC) (dirOf (cross (normalOf R latA lonA) (normalOf R latB lonB)))
    rw [uC.len, (dirOf_unit hp).len, one_mul] at this; linarith
  have st1 : s * t ≤ 1 := mul_le_one₀ s1 t0.le t1
  have st8 : 1e-8 ≤ s * t := by
    have : s * t ^ 2 ≤ s * t := by
      have := mul_le_mul_of_nonneg_left t1 st0.le
      linarith only [this, show s * t ^ 2 = s * t * t by ring]
    linarith
  obtain ⟨E, hE⟩ : ∃ E, E = 1.4e-13 / (s * t) := ⟨_, rfl⟩
  have E0 : 0 ≤ E := by rw [hE]; positivity
  have E1 : E ≤ 1.4e-5 := by
    rw [hE, div_le_iff₀ st0]; norm_num at st8 ⊢; linarith
  have E2 : E ≤ len (cross (normalOf R latA lonA) (normalOf R latB lonB)) := by
    refine le_trans ?_ hs
    rw [hE, div_le_iff₀ st0]; linarith only [hst2, show s ^ 2 * t = s * (s * t) by ring]
  have hE25 : 2.5e-13 / (s * t) = 2.5 / 1.4 * E := by rw [hE]; ring
  have hE38 : 3.8e-12 / (s * t) = 3.8 / 0.14 * E := by rw [hE]; ring
  have hE51 : 5.1e-13 / (s * t) = 5.1 / 1.4 * E := by rw [hE]; ring
  have hE21 : 2.1e-14 ≤ 2.1 / 14 * E := by
    have h1 : 1.4e-13 ≤ E := by rw [hE, le_div_iff₀ st0]; linarith
    norm_num at h1 ⊢; linarith
  rw [← hE] at h
  rw [hX, hE38, hE51]
  rw [hE25] at h
  have hne : cross (normalOf R latC lonC) (cross (normalOf R latA lonA) (normalOf R latB lonB)) ≠ 0 := by
    intro h0
    have : cross (normalOf R latC lonC) (dirOf (cross (normalOf R latA lonA) (normalOf R latB lonB))) = 0 := by
      unfold dirOf
      rw [cross_smul_right, h0]; ext <;> simp
    rw [this, len_eq_zero.mpr rfl] at ht; linarith
  obtain ⟨K, k, -, hcirc, hk0, hdot⟩ := closest_foot hp uC hne
  have hCK : C = K := by
    have h1 := nC K hcirc
    have h2 : dot (normalOf R latC lonC) K ≤ dot (normalOf R latC lonC) C := by
      rw [← cos_angle_unit uC hcirc.1, ← cos_angle_unit uC oC.1]
      exact Real.cos_le_cos_of_nonneg_of_le_pi (angle_nonneg _ _) (angle_le_pi _ _) h1
    rw [hdot K hcirc, hdot C oC, hcirc.1.dot] at h2
    have h3 := le_of_mul_le_mul_left h2 hk0
    have h4 := len_sub_sq oC.1 hcirc.1
    rw [dot_comm] at h4
    have h5 : len (C - K) = 0 := by
      have := len_nonneg' (C - K)
      nlinarith
    have h6 := len_eq_zero.mp h5
    rw [show C = C - K + K by ext <;> simp, h6]; ext <;> simp
  subst hCK
  generalize hNA : normalOf R latA lonA = A at *
  generalize hNB : normalOf R latB lonB = A2 at *
  generalize hN : normalOf R latC lonC = N at *
  have hcos : ∀ {S T : V3 ℝ}, UnitVec S → UnitVec T → dot N T ≤ dot N S → angle N S ≤ angle N T := by
    intro S T hS hT h
    rw [angle_unit uC hS, angle_unit uC hT]
    exact Real.arccos_le_arccos h
  rcases h with ⟨⟨lat, lon, z, rfl, -, -, -, hclose, -⟩, i1, i2⟩ | ⟨i, j⟩
  · have uX := normalOf_unit hR lat lon
    refine ⟨lat, lon, z, _, rfl, ?_, ?_⟩
    · by_cases harc : OnArc A A2 C
      · refine ⟨C, harc, ?_⟩
        have := (angle_le_of_len harc.1 hclose (by norm_num at E1 ⊢; linarith)).2
        norm_num at this ⊢; linarith
      · have key : len (C - A) ≤ 24 * E ∨ len (C - A2) ≤ 24 * E := by
          obtain ⟨hCu, α, β, e⟩ := oC
          by_cases ha : α ≤ 0
          · exact .inr (beyond_end uA uB hCu e ha hk rfl E0 (by norm_num at E1 ⊢; linarith) E2 i1 i2)
          · have hb : β ≤ 0 := by
              by_contra hb; push Not at ha hb
              exact harc ⟨hCu, α, β, ha.le, hb.le, e⟩
            have hsw : len (A - A2) = len (A2 - A) := by
              rw [show A - A2 = (-1 : ℝ) • (A2 - A) by ext <;> simp, len_smul, abs_neg, abs_one, one_mul]
            have hcr : len (cross A2 A) = len (cross A A2) := by
              rw [show cross A2 A = (-1 : ℝ) • cross A A2 by ext <;> simp [cross] <;> ring, len_smul, abs_neg, abs_one, one_mul]
            exact .inl (beyond_end uB uA hCu (α := β) (β := α) (by rw [e]; ext <;> simp <;> ring) hb (by rwa [dot_comm]) rfl E0 (by norm_num at E1 ⊢; linarith) (by rwa [hcr])
              (by rwa [hsw]) (by rwa [hsw]))
        have fin : ∀ T : V3 ℝ, UnitVec T → len (C - T) ≤ 24 * E → angle (normalOf R lat lon) T ≤ 3.8 / 0.14 * E := by
          intro T hT h
          have h1 : len (normalOf R lat lon - T) ≤ (2.5 / 1.4 + 24) * E := by
            have := len_add_le (normalOf R lat lon - C) (C - T)
            rw [show normalOf R lat lon - C + (C - T) = normalOf R lat lon - T by ext <;> simp] at this
            linarith
          have := (angle_le_of_len hT h1 (by norm_num at E1 ⊢; linarith)).2
          norm_num at this ⊢; linarith
        rcases key with h | h
        · exact ⟨A, ⟨uA, 1, 0, by norm_num, le_rfl, by ext <;> simp⟩, fin A uA h⟩
        · exact ⟨A2, ⟨uB, 0, 1, le_rfl, by norm_num, by ext <;> simp⟩, fin A2 uB h⟩
    · intro Q hQ
      have h1 := nC Q hQ.onCircle
      have h2 := angle_triangle uC oC.1 uX
      have h3 := (angle_le_of_len oC.1 hclose (by norm_num at E1 ⊢; linarith)).2
      rw [angle_comm] at h3
      norm_num at h3 ⊢; linarith
  · have hmin : ∀ Q, OnArc A A2 Q → min (angle N A) (angle N A2) ≤ angle N Q + 3.41 * E := by
      intro Q hQ
      by_cases harc : OnArc A A2 C
      · have h1 := nC Q hQ.onCircle
        have fin : ∀ T : V3 ℝ, UnitVec T → len (C - T) ≤ 3.4 * E → angle N T ≤ angle N Q + 3.41 * E := by
          intro T hT h
          have h2 := (angle_le_of_len hT h (by norm_num at E1 ⊢; linarith)).2
          have h3 := angle_triangle uC oC.1 hT
          norm_num at h2 ⊢; linarith
        rcases i with i | i
        · exact (min_le_right _ _).trans (fin A2 uB (near_end uA uB hp harc hk E0 E2 i))
        · refine (min_le_left _ _).trans (fin A uA (near_end uB uA hp.symm ?_ (by rwa [dot_comm]) E0 ?_ ?_))
          · obtain ⟨hu, α, β, ha, hb, e⟩ := harc
            exact ⟨hu, β, α, hb, ha, by rw [e]; ext <;> simp <;> ring⟩
          · rwa [show cross A2 A = (-1 : ℝ) • cross A A2 by ext <;> simp [cross] <;> ring, len_smul, abs_neg, abs_one, one_mul]
          · rwa [show A - A2 = (-1 : ℝ) • (A2 - A) by ext <;> simp, len_smul, abs_neg, abs_one, one_mul]
      · have h1 := arc_max uA uB hp oC harc hQ
        have h2 : dot N Q ≤ max (dot N A) (dot N A2) := by
          rw [hdot Q hQ.onCircle, hdot A (onCircle_left uA), hdot A2 (onCircle_right uB), ← mul_max_of_nonneg _ _ hk0.le]
          exact mul_le_mul_of_nonneg_left h1 hk0.le
        have h3 : 0 ≤ 3.41 * E := by positivity
        rcases le_total (dot N A) (dot N A2) with h | h
        · rw [max_eq_right h] at h2
          exact (min_le_right _ _).trans ((hcos uB hQ.1 h2).trans (by linarith))
        · rw [max_eq_left h] at h2
          exact (min_le_left _ _).trans ((hcos uA hQ.1 h2).trans (by linarith))
    have self : ∀ T : V3 ℝ, UnitVec T → angle T T ≤ 3.8 / 0.14 * E := by
      intro T hT
      rw [angle_self hT.ne]; positivity
    rw [angle_comm A, angle_comm A2] at j
    rcases j with ⟨rfl, j⟩ | ⟨rfl, j⟩
    · refine ⟨latA, lonA, zA, _, rfl, ⟨A, ⟨uA, 1, 0, by norm_num, le_rfl, by ext <;> simp⟩, ?_⟩, ?_⟩
      · rw [hNA]; exact self A uA
      · intro Q hQ
        rw [hNA]
        have h1 := hmin Q hQ
        have h2 : angle N A ≤ min (angle N A) (angle N A2) + 2.1e-14 := by
          rw [← min_add_add_right]; exact le_min (by norm_num) j.le
        generalize min (angle N A) (angle N A2) = μ at *
        norm_num at h2 hE21 h1 ⊢; linarith
    · refine ⟨latB, lonB, zB, _, rfl, ⟨A2, ⟨uB, 0, 1, le_rfl, by norm_num, by ext <;> simp⟩, ?_⟩, ?_⟩
      · rw [hNB]; exact self A2 uB
      · intro Q hQ
        rw [hNB]
        have h1 := hmin Q hQ
        have h2 : angle N A2 ≤ min (angle N A) (angle N A2) + 2.1e-14 := by
          rw [← min_add_add_right]; exact le_min j.le (by norm_num)
        generalize min (angle N A) (angle N A2) = μ at *
        norm_num at h2 hE21 h1 ⊢; linarith

end

/-- C112: the equator from longitude 0 to longitude 1 rad, the point at latitude 1/2 rad above its start: the hypotheses are met -/
example : ∃ (lat lon z : ℝ) (F : FrameE (F64 B)),
    (Path64 B 6371000 0 Re (.int 1) (.int 1) 0 0 0 0 1 0).closest_point_on_path (.geo (Geo64 B 6371000 0 Re (.int 1) (1 / 2) 0 0)) = ⟨F64.fin lat, F64.fin lon, F64.fin z, F⟩ ∧
    ∀ Q, OnArc (normalOf Re 0 0) (normalOf Re 0 1) Q → angle (normalOf Re (1 / 2) 0) (normalOf Re lat lon) ≤ angle (normalOf Re (1 / 2) 0) Q + 5.1e-13 / (3 / 4 * (7 / 8)) := by
  obtain ⟨lat, lon, z, F, h1, -, h2⟩ := C112_least B (a := 6371000) (f := 0) (R := Re) (Or.inl rfl) (.int 1) (.int 1) (.int 1) 0 0 0 1 (1 / 2) 0 0
    (by simpa using isF64_int (n := 6371000) (by norm_num)) (by norm_num) isF64_zero le_rfl (by norm_num)
    isF64_zero isF64_zero (by norm_num) (by norm_num) (by norm_num) (s := 3 / 4) (t := 7 / 8) (by norm_num) equator_len (by norm_num) (by
      rw [equator_normal, normalOf_Re]
      have hcr : cross (⟨Real.cos (1 / 2) * Real.cos 0, Real.cos (1 / 2) * Real.sin 0, Real.sin (1 / 2)⟩ : V3 ℝ) ⟨0, 0, 1⟩ = ⟨0, -Real.cos (1 / 2), 0⟩ := by
        ext <;> simp [cross]
      rw [hcr]
      have h := abs_y_le_len (⟨0, -Real.cos (1 / 2), 0⟩ : V3 ℝ)
      have h2 := Real.one_sub_sq_div_two_le_cos (x := 1 / 2)
      rw [abs_neg] at h
      have h3 := le_abs_self (Real.cos (1 / 2))
      norm_num at h h2 h3 ⊢; linarith) (by norm_num) (by
      rw [normalOf_Re, normalOf_Re]
      have := Real.cos_one_pos
      simp [dot]
      norm_num; linarith) (by norm_num)
  exact ⟨lat, lon, z, F, h1, h2⟩

end Nv
