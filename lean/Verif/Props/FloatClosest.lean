import Verif.Props.FloatCross
import Verif.Float.Direct
import Verif.Float.Foot

/-!
# C103: the nearest point of a great circle in binary64
-/

namespace Nv
open Spec F64
variable {B : Binary64}

/-- a computed vector product of vectors close to `v` and `w`; errors are lengths -/
theorem cross_err_flt {V W v w : V3 ℝ} {e₁ e₂ Lv Lw : ℝ} (fV : IsF64V V) (fW : IsF64V W) (V1 : len V ≤ 1.1) (W1 : len W ≤ 1.1) (hv : len v ≤ Lv) (hw : len W ≤ Lw)
    (h1 : len (V - v) ≤ e₁) (h2 : len (W - w) ≤ e₂) :
    ∃ q : V3 ℝ, cross3 (V.flt : V3 (F64 B)) W.flt = q.flt ∧ IsF64V q ∧ len (q - cross v w) ≤ 6.93 * uu + e₁ * Lw + Lv * e₂ := by
  obtain ⟨q, hq, fq, q1, q2, q3⟩ := (app_cross3 (B := B) fV fW V1 W1).get
  refine ⟨q, hq, fq, ?_⟩
  have hd : len (q - cross V W) ≤ 1.7321 * (4 * uu) := len_le_of_comp q1 q2 q3
  have e : q - cross v w = (q - cross V W) + (cross (V - v) W + cross v (W - w)) := by ext <;> simp [cross] <;> ring
  rw [e]
  have t1 := len_add_le (q - cross V W) (cross (V - v) W + cross v (W - w))
  have t2 := len_add_le (cross (V - v) W) (cross v (W - w))
  have t3 := len_cross_le (V - v) W
  have t4 := len_cross_le v (W - w)
  have t5 := mul_le_mul h1 hw (len_nonneg' _) ((len_nonneg' _).trans h1)
  have t6 := mul_le_mul hv h2 (len_nonneg' _) ((len_nonneg' _).trans hv)
  have hu := uu_pos
  norm_num at hd ⊢
  linarith

theorem len_cross_unit {c m : V3 ℝ} (hc : UnitVec c) : len (cross c (cross m c)) = len (cross m c) := by
  have h := lagrange c (cross m c)
  rw [hc.len, show dot c (cross m c) = 0 by unfold dot cross; simp; ring] at h
  have h0 := len_nonneg' (cross c (cross m c))
  have h1 := len_nonneg' (cross m c)
  nlinarith

/-- `c × (n × c)` has the direction of the nearest position of the great circle with the normal `c` -/
theorem nearest_dir {c n : V3 ℝ} (hc : UnitVec c) (hn : cross n c ≠ 0) :
    UnitVec (dirOf (cross c (cross n c))) ∧ dot c (dirOf (cross c (cross n c))) = 0 ∧
      ∀ Q, UnitVec Q → dot c Q = 0 → angle n (dirOf (cross c (cross n c))) ≤ angle n Q := by
  have hn0 : n ≠ 0 := by rintro rfl; apply hn; ext <;> simp [cross]
  have hne : cross (dirOf n) c ≠ 0 := by
    unfold dirOf
    rw [cross_smul_left]
    exact smul_ne_zero (inv_ne_zero (len_pos hn0).ne') hn
  obtain ⟨h0, -, hperp, -, -, hang⟩ := foot hc (dirOf_unit hn0) hne
  have hdd : dirOf (cross c (cross (dirOf n) c)) = dirOf (cross c (cross n c)) := by
    conv_lhs => unfold dirOf
    rw [cross_smul_left, cross_smul_right]
    exact dirOf_smul (inv_pos.mpr (len_pos hn0)) _
  have hu := dirOf_unit h0
  rw [hdd] at hperp hang hu
  refine ⟨hu, hperp, fun Q hQ h => ?_⟩
  rw [← angle_dirOf_left hn0, hang, ← angle_dirOf_left hn0 (w := Q)]
  exact arcsin_le_angle hc (dirOf_unit hn0) hQ h

set_option maxHeartbeats 1600000 in
/-- the computed closest point against `c × (n × c)`, `c` the exact normal; it is perpendicular to the computed normal up to 8.6 roundings -/
theorem closest_flt {a b n : V3 ℝ} {s t : ℝ} (fa : IsF64V a) (fb : IsF64V b) (fn : IsF64V n) (a2 : len a ≤ 1.1) (b2 : len b ≤ 1.1) (n2 : len n ≤ 1.01)
    (s0 : 1e-9 ≤ s) (hs : s ≤ len (cross a b)) (t0 : 0 < t) (ht : t ≤ len (cross n (dirOf (cross a b)))) (hst : 1e-9 ≤ s * t ^ 2) :
    ∃ w : V3 ℝ, closest_point_on_great_circle (a.flt, b.flt) (n.flt : V3 (F64 B)) = w.flt ∧ IsF64V w ∧
      CloseV w (dirOf (cross (dirOf (cross a b)) (cross n (dirOf (cross a b))))) (3.6e-14 / (s * t)) ∧
      ∃ c : V3 ℝ, great_circle_normal (a.flt : V3 (F64 B)) b.flt = c.flt ∧ IsF64V c ∧ len c ≤ 1.0001 ∧ |dot c w| ≤ 8.6 * uu := by
  have hu := uu_pos
  have sp : 0 < s := lt_of_lt_of_le (by norm_num) s0
  have s1 := s_le a2 b2 hs
  have hc0 : cross a b ≠ 0 := by intro h; rw [h] at hs; simp [len] at hs; linarith
  have hcu := dirOf_unit hc0
  obtain ⟨c, e1, fc, hc⟩ := normal_flt (B := B) fa fb a2 b2 s0 hs
  obtain ⟨c0, hc0'⟩ : ∃ c0, c0 = dirOf (cross a b) := ⟨_, rfl⟩
  rw [← hc0'] at hc hcu ht
  have hn0 : n ≠ 0 := by
    rintro rfl
    have : cross (0 : V3 ℝ) c0 = 0 := by ext <;> simp [cross]
    rw [this, len_eq_zero.mpr rfl] at ht; linarith
  have tn : t ≤ 1.01 := by
    have := len_cross_le n c0
    rw [hcu.len, mul_one] at this; linarith
  have st0 : 0 < s * t := mul_pos sp t0
  have hst1 : 1e-9 ≤ 1.01 * (s * t) := by
    have : s * t ^ 2 ≤ 1.01 * (s * t) := by
      rw [show s * t ^ 2 = t * (s * t) by ring]; exact mul_le_mul_of_nonneg_right tn st0.le
    linarith
  have t3 : 2e-5 ≤ t := by
    by_contra hh; push Not at hh
    have q1 : t ^ 2 ≤ 2e-5 ^ 2 := by
      have := mul_self_le_mul_self t0.le hh.le
      rw [sq, sq]; exact this
    have q2 := mul_le_mul s1 q1 (sq_nonneg t) (by norm_num)
    norm_num at q2 hst; linarith
  -- the normal
  have hε : len (c - c0) ≤ 34.82 * uu / s := by
    have h : len (c - c0) ≤ 1.7321 * (20.1 * uu / s) := len_le_of_comp hc.1 hc.2.1 hc.2.2
    refine h.trans ?_
    rw [← mul_div_assoc]
    refine div_le_div_of_nonneg_right ?_ sp.le
    norm_num; linarith
  have hus : 34.82 * uu / s ≤ 1e-5 := by
    rw [div_le_iff₀ sp]
    have : 34.82 * uu ≤ 1e-5 * 1e-9 := by unfold uu; norm_num
    linarith
  obtain ⟨v, hv⟩ : ∃ v, v = uu / s := ⟨_, rfl⟩
  have v0 : 0 < v := by rw [hv]; positivity
  have hvs : uu ≤ 1.21 * v := by
    rw [hv, mul_div_assoc', le_div_iff₀ sp]
    nlinarith
  have hε' : len (c - c0) ≤ 34.82 * v := by rw [hv, ← mul_div_assoc]; exact hε
  have hv1 : 34.82 * v ≤ 1e-5 := by rw [hv, ← mul_div_assoc]; exact hus
  have cl : len c ≤ 1.0001 := by
    have := len_add_le (c - c0) c0
    rw [show c - c0 + c0 = c by ext <;> simp, hcu.len] at this
    norm_num at hv1 ⊢; linarith
  -- first product
  obtain ⟨c2, h2, fc2, b2'⟩ := cross_err_flt (B := B) fn fc (by norm_num at n2 ⊢; linarith) (by norm_num at cl ⊢; linarith) (v := n) (w := c0) (e₁ := 0) n2 cl
    (by rw [show n - n = 0 by ext <;> simp, len_eq_zero.mpr rfl]) hε'
  have c2b : len (c2 - cross n c0) ≤ 43.6 * v := by norm_num at b2' ⊢; linarith
  have c2l : len c2 ≤ 1.0101 := by
    have h := len_add_le (c2 - cross n c0) (cross n c0)
    rw [show c2 - cross n c0 + cross n c0 = c2 by ext <;> simp] at h
    have h' := len_cross_le n c0
    rw [hcu.len, mul_one] at h'
    norm_num at hv1 c2b n2 ⊢; linarith
  -- second product
  obtain ⟨q, h3, fq, b3⟩ := cross_err_flt (B := B) fc fc2 (by norm_num at cl ⊢; linarith) (by norm_num at c2l ⊢; linarith) (v := c0) (w := cross n c0)
    hcu.len.le c2l hε' c2b
  have qb : len (q - cross c0 (cross n c0)) ≤ 87.2 * v := by norm_num at b3 ⊢; linarith
  have hw0 := len_cross_unit (m := n) hcu
  obtain ⟨w0, hw0'⟩ : ∃ w0, w0 = cross c0 (cross n c0) := ⟨_, rfl⟩
  rw [← hw0'] at hw0 qb
  have w0l : t ≤ len w0 := by rw [hw0]; exact ht
  have w0u : len w0 ≤ 1.01 := by
    rw [hw0]
    have h' := len_cross_le n c0
    rw [hcu.len, mul_one] at h'; linarith
  have vt : 1.7321 * (87.2 * v) ≤ 0.5 * t := by
    rw [hv]
    rw [show 1.7321 * (87.2 * (uu / s)) = 1.7321 * 87.2 * uu / s by ring, div_le_iff₀ sp]
    have : 1.7321 * 87.2 * uu ≤ 1.7e-14 := by unfold uu; norm_num
    norm_num at hst1 this ⊢; linarith
  obtain ⟨u, h4, fu, cu⟩ := unit_dir (B := B) (s := t) (k := 309 * v / t) (by norm_num at t3 ⊢; linarith) w0l (by linarith) (Spec.CloseV.of_len qb) vt (by
    rw [le_div_iff₀ t0, add_mul, div_mul_cancel₀ _ t0.ne']
    have : 5.06 * uu * t ≤ 5.06 * (1.21 * v) * 1.01 :=
      mul_le_mul (mul_le_mul_of_nonneg_left hvs (by norm_num)) tn t0.le (by positivity)
    norm_num at this ⊢; linarith) (lit 1)
  -- the sign
  have hk : 309 * v / t ≤ 0.0001 := by
    rw [div_le_iff₀ t0, hv, ← mul_div_assoc, div_le_iff₀ sp]
    have h5 : 309 * uu ≤ 3.5e-14 := by unfold uu; norm_num
    norm_num at h5 hst1 ⊢; linarith
  have hw00 : w0 ≠ 0 := by intro h; rw [h, len_eq_zero.mpr rfl] at w0l; linarith
  have hdot : dot (dirOf w0) n = len w0 := by
    have : dot w0 n = len w0 ^ 2 := by
      rw [hw0]
      rw [← dot_self, hw0']
      unfold dot cross; simp; ring
    rw [dot_dirOf_left, this]
    have := len_pos hw00
    field_simp
  obtain ⟨d, e4, fd, bd⟩ := app_row (B := B) fu fn cu (P := n) (q := n) (e₂ := 0) ⟨by simp, by simp, by simp⟩ (dirOf_unit hw00).len hk (L := 1.01)
    (by linarith) (by norm_num)
  have dpos : 0 < d := by
    rw [hdot] at bd
    have b1 := (abs_le.mp bd).1
    have k1 : (3.02 * uu + 1.7321 * (309 * v / t)) * 1.01 ≤ 0.5 * t := by
      have k2 : v / t ≤ 1e-6 * t := by
        rw [div_le_iff₀ t0, hv, div_le_iff₀ sp]
        have : uu ≤ 1e-6 * 1e-9 := by unfold uu; norm_num
        nlinarith
      have k3 : uu ≤ 1e-6 * t := by
        have : uu ≤ 1e-6 * 2e-5 := by unfold uu; norm_num
        linarith
      rw [mul_div_assoc]
      norm_num at k2 k3 ⊢; linarith
    have k4 : (1e-59 : ℝ) ≤ 1e-6 := by norm_num
    generalize (1e-59 : ℝ) = z at b1 k4
    norm_num at k1 k4 t3 b1; linarith
  have hsg : PyFloat.sign (F64.fin d : F64 B) = F64.fin 1 := by
    change XR.sign (XR.fin d) = XR.fin 1
    simp only [XR.sign]
    rw [if_pos dpos]
  have hu1 : len u ≤ 2 := by
    have := cu.len_le'
    rw [(dirOf_unit hw00).len] at this
    norm_num at this hk ⊢; linarith
  have fu' : Fin64V u := Fin64V.of_len fu (hu1.trans (by norm_num))
  -- the result is perpendicular to the computed normal
  have hperp : |dot c u| ≤ 8.6 * uu := by
    have cl' : 1 - 1e-5 ≤ len c := by
      have := len_add_le c ((-1 : ℝ) • (c - c0))
      rw [show c + (-1 : ℝ) • (c - c0) = c0 by ext <;> simp, hcu.len, len_smul, abs_neg, abs_one, one_mul] at this
      linarith
    have c2l' : 1e-5 ≤ len c2 := by
      have h := len_add_le c2 ((-1 : ℝ) • (c2 - cross n c0))
      rw [show c2 + (-1 : ℝ) • (c2 - cross n c0) = cross n c0 by ext <;> simp, len_smul, abs_neg, abs_one, one_mul] at h
      norm_num at vt t3 ⊢
      linarith
    refine foot_dot (B := B) fc fc2 (by rw [abs_le]; norm_num at cl cl' ⊢; constructor <;> linarith) (by norm_num at c2l' ⊢; linarith) (by norm_num at c2l ⊢; linarith) ?_ h3 h4
    obtain ⟨c2', h2', -, bb⟩ := cross_rel_flt (B := B) fn fc (by norm_num at n2 ⊢; linarith) (by norm_num at cl ⊢; linarith)
    rw [h2] at h2'
    obtain rfl := V3.flt_inj h2'
    have e : dot c c2 = dot c (c2 - cross n c) := by
      have : dot c (cross n c) = 0 := by unfold dot cross; simp; ring
      unfold dot at *; simp; linarith
    rw [e]
    have k1 := abs_dot_le c (c2 - cross n c)
    have k2 : len n * len c ≤ 2 := by
      have := mul_le_mul n2 cl (len_nonneg' _) (by norm_num)
      norm_num at this ⊢; linarith
    have k3 : 3.49 * uu * (len n * len c) + 1e-58 ≤ 1e-9 := by
      have := mul_le_mul_of_nonneg_left k2 (show 0 ≤ 3.49 * uu by positivity)
      have h5 : 3.49 * uu * 2 + 1e-58 ≤ 1e-9 := by unfold uu; norm_num
      generalize (1e-58 : ℝ) = τ at *
      linarith
    have k4 := mul_le_mul cl (bb.trans k3) (len_nonneg' _) (by norm_num)
    norm_num at k4 c2l' ⊢
    linarith
  refine ⟨u, ?_, fu, ?_, c, e1, fc, cl, hperp⟩
  · unfold closest_point_on_great_circle
    simp only [e1, h2, h3, h4, e4, hsg]
    unfold scale3 V3.flt
    simp only [mul_one' fu'.1, mul_one' fu'.2.1, mul_one' fu'.2.2]
  · rw [← hc0', ← hw0']
    refine cu.mono ?_
    rw [hv, div_le_div_iff₀ t0 st0]
    have h5 : 309 * uu ≤ 3.6e-14 := by unfold uu; norm_num
    have : 309 * (uu / s) * (s * t) = 309 * uu * t := by field_simp
    rw [this]
    exact mul_le_mul_of_nonneg_right h5 t0.le

variable (B)

/-- **C103** `closest_point_on_great_circle` in rounded arithmetic: for a path whose ends have the vector product `s` or more and a point whose distance from
the pole of the circle has the sine `t` or more, with `s t² ≥ 1e-9`, every component of the result is within `3.6e-14 / (s t)` of the exact nearest position `C`
of the exact great circle -/
theorem C103_closest_point {a b n : V3 ℝ} {s t : ℝ} (fa : IsF64V a) (fb : IsF64V b) (fn : IsF64V n) (a2 : len a ≤ 1.1) (b2 : len b ≤ 1.1) (n2 : len n ≤ 1.01)
    (s0 : 1e-9 ≤ s) (hs : s ≤ len (cross a b)) (t0 : 0 < t) (ht : t ≤ len (cross n (dirOf (cross a b)))) (hst : 1e-9 ≤ s * t ^ 2) :
    ∃ w C : V3 ℝ, closest_point_on_great_circle (a.flt, b.flt) (n.flt : V3 (F64 B)) = w.flt ∧ IsF64V w ∧
      OnCircle a b C ∧ (∀ Q, OnCircle a b Q → angle n C ≤ angle n Q) ∧ CloseV w C (3.6e-14 / (s * t)) := by
  obtain ⟨u, h1, fu, cu, -⟩ := closest_flt (B := B) fa fb fn a2 b2 n2 s0 hs t0 ht hst
  have hc0 : cross a b ≠ 0 := by intro h; rw [h] at hs; simp [len] at hs; norm_num at s0; linarith
  have hcu := dirOf_unit hc0
  obtain ⟨c0, hc0'⟩ : ∃ c0, c0 = dirOf (cross a b) := ⟨_, rfl⟩
  rw [← hc0'] at cu hcu ht
  obtain ⟨h5, h6, h7⟩ := nearest_dir hcu (n := n) (by intro h; rw [h, len_eq_zero.mpr rfl] at ht; linarith)
  refine ⟨u, _, h1, fu, ?_, ?_, cu⟩
  · rw [onCircle_iff_normal hc0, ← hc0']
    exact ⟨h5, h6⟩
  · intro Q hQ
    rw [onCircle_iff_normal hc0, ← hc0'] at hQ
    exact h7 Q hQ.1 hQ.2

/-- a concrete case of the hypotheses of C103: the meridian through (1,0,0) and the pole (0,0,1), and the point (1/2, 3/4, 0) -/
example : ∃ w C : V3 ℝ, closest_point_on_great_circle ((⟨1, 0, 0⟩ : V3 ℝ).flt, (⟨0, 0, 1⟩ : V3 ℝ).flt) ((⟨1 / 2, 3 / 4, 0⟩ : V3 ℝ).flt : V3 (F64 B)) = w.flt ∧
    IsF64V w ∧ OnCircle ⟨1, 0, 0⟩ ⟨0, 0, 1⟩ C ∧ (∀ Q, OnCircle ⟨1, 0, 0⟩ ⟨0, 0, 1⟩ Q → angle ⟨1 / 2, 3 / 4, 0⟩ C ≤ angle ⟨1 / 2, 3 / 4, 0⟩ Q) ∧
    CloseV w C (3.6e-14 / (1 * (1 / 2))) := by
  have hcr : cross (⟨1, 0, 0⟩ : V3 ℝ) ⟨0, 0, 1⟩ = ⟨0, -1, 0⟩ := by simp [cross]
  have hl : len (⟨0, -1, 0⟩ : V3 ℝ) = 1 := by simp [len]
  have hd : dirOf (⟨0, -1, 0⟩ : V3 ℝ) = ⟨0, -1, 0⟩ := by unfold dirOf; rw [hl]; ext <;> simp
  have h12 : IsF64 (1 / 2 : ℝ) := ⟨1, -1, by norm_num, by norm_num, by norm_num⟩
  have h34 : IsF64 (3 / 4 : ℝ) := ⟨3, -2, by norm_num, by norm_num, by norm_num⟩
  refine C103_closest_point B (s := 1) (t := 1 / 2) ⟨isF64_one, isF64_zero, isF64_zero⟩ ⟨isF64_zero, isF64_zero, isF64_one⟩ ⟨h12, h34, isF64_zero⟩
    ?_ ?_ ?_ (by norm_num) ?_ (by norm_num) ?_ (by norm_num)
  · simp [len]; norm_num
  · simp [len]; norm_num
  · unfold len
    rw [show (1.01 : ℝ) = √(1.01 ^ 2) by rw [Real.sqrt_sq (by norm_num)]]
    exact Real.sqrt_le_sqrt (by norm_num)
  · rw [hcr, hl]
  · rw [hcr, hd]
    have : cross (⟨1 / 2, 3 / 4, 0⟩ : V3 ℝ) ⟨0, -1, 0⟩ = ⟨0, 0, -1 / 2⟩ := by ext <;> simp [cross]; norm_num
    rw [this]
    unfold len
    rw [show (1 / 2 : ℝ) = √((1 / 2) ^ 2) by rw [Real.sqrt_sq (by norm_num)]]
    exact Real.sqrt_le_sqrt (by norm_num)

end Nv
