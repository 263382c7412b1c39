import Verif.Float.Ops
import Verif.Float.Unit
import Verif.Float.Apply
import Verif.Float.Polar
import Verif.Float.RoundTrip
import Verif.Model.Core
import Mathlib.Analysis.SpecialFunctions.Trigonometric.InverseDeriv

/-!
# Great circle normals and cross track distances in binary64
-/

namespace Nv
open Spec F64

/-- the direction of a slightly different vector -/
theorem len_dirOf_sub_le {v w : V3 ℝ} {e s : ℝ} (s0 : 0 < s) (hs : s ≤ len v) (hw : w ≠ 0) (he : len (w - v) ≤ e) :
    len (dirOf w - dirOf v) ≤ 2 * e / s := by
  have v0 : v ≠ 0 := by rintro rfl; simp [len] at hs; linarith
  have l0 := len_pos v0
  have h1 : dirOf ((len v)⁻¹ • w) = dirOf w := dirOf_smul (inv_pos.mpr l0) w
  have h2 : (len v)⁻¹ • w ≠ 0 := by
    intro h
    apply hw
    have := congrArg (fun x => len v • x) h
    ext
    · have := congrArg V3.x this; simp only [smul_x, zero_x] at this; field_simp at this; simpa using this
    · have := congrArg V3.y this; simp only [smul_y, zero_y] at this; field_simp at this; simpa using this
    · have := congrArg V3.z this; simp only [smul_z, zero_z] at this; field_simp at this; simpa using this
  have h3 := len_dirOf_sub (dirOf_unit v0) h2
  rw [h1] at h3
  have h4 : (len v)⁻¹ • w - dirOf v = (len v)⁻¹ • (w - v) := by unfold dirOf; ext <;> simp <;> ring
  rw [h4, len_smul, abs_of_pos (inv_pos.mpr l0)] at h3
  refine h3.trans ?_
  have h5 : (len v)⁻¹ ≤ s⁻¹ := inv_anti₀ s0 hs
  have h6 := mul_le_mul h5 he (len_nonneg' _) (inv_nonneg.mpr s0.le)
  rw [div_eq_mul_inv]
  linarith

variable {B : Binary64}

/-- the second argument of `unit` is only used for the zero vector -/
theorem unit_arg {v : V3 ℝ} (h1 : (2 : ℝ) ^ (-500 : ℤ) ≤ len v) (h2 : len v ≤ (2 : ℝ) ^ (500 : ℕ)) (z : F64 B) :
    unit (v.flt : V3 (F64 B)) z = unit v.flt := by
  have l0 : 0 < len v := lt_of_lt_of_le (by positivity) h1
  have hr := flNorm_rel B.rounds h1
  have hu1 : uu ≤ 1 / 10 ^ 10 := by unfold uu; norm_num
  have hul : uu * len v ≤ 1 / 10 ^ 10 * len v := mul_le_mul_of_nonneg_right hu1 l0.le
  have hNp : 0 < flNorm B.fl v.x v.y v.z := by linarith [(abs_le.mp hr).1]
  unfold unit
  dsimp only
  rw [norm3_wide h2, lit_zero, fin_eq, if_neg (by simp [hNp.ne']), if_neg (by simp [hNp.ne'])]

theorem pow500_le {s : ℝ} (h : 1e-12 ≤ s) : (2 : ℝ) ^ (-500 : ℤ) ≤ s := by
  refine le_trans ?_ h
  calc (2 : ℝ) ^ (-500 : ℤ) ≤ 2 ^ (-50 : ℤ) := zpow_le_zpow_right₀ (by norm_num) (by norm_num)
    _ ≤ 1e-12 := by norm_num

theorem le_pow500 {s : ℝ} (h : s ≤ 1000) : s ≤ (2 : ℝ) ^ (500 : ℕ) := by
  refine h.trans ?_
  calc (1000 : ℝ) ≤ 2 ^ (10 : ℕ) := by norm_num
    _ ≤ 2 ^ (500 : ℕ) := pow_le_pow_right₀ (by norm_num) (by norm_num)

theorem Spec.CloseV.of_len {v w : V3 ℝ} {e : ℝ} (h : len (v - w) ≤ e) : CloseV v w e :=
  ⟨(abs_x_le_len (v - w)).trans h, (abs_y_le_len (v - w)).trans h, (abs_z_le_len (v - w)).trans h⟩

theorem len_cross_le (v w : V3 ℝ) : len (cross v w) ≤ len v * len w := by
  refine (abs_le_of_sq_le_sq' (a := len (cross v w)) (b := len v * len w) ?_ (mul_nonneg (len_nonneg' _) (len_nonneg' _))).2
  rw [lagrange, mul_pow]; nlinarith [sq_nonneg (dot v w)]

/-- the direction of a vector known with the error `e` -/
theorem unit_dir {V v : V3 ℝ} {e s k : ℝ} (s0 : 1e-11 ≤ s) (hs : s ≤ len v) (hv : len v ≤ 100) (hV : CloseV V v e) (he : 1.7321 * e ≤ 0.5 * s)
    (hk : 5.06 * uu + 3.4642 * e / s ≤ k) (z : F64 B) :
    ∃ u : V3 ℝ, unit (V.flt : V3 (F64 B)) z = u.flt ∧ IsF64V u ∧ CloseV u (dirOf v) k := by
  have sp : 0 < s := lt_of_lt_of_le (by norm_num) s0
  have hd : len (V - v) ≤ 1.7321 * e := len_le_of_comp hV.1 hV.2.1 hV.2.2
  have hl := len_close hV.1 hV.2.1 hV.2.2
  obtain ⟨l1, l2⟩ := abs_le.mp hl
  have hV1 : 0.5 * s ≤ len V := by linarith
  have hV0 : V ≠ 0 := by rintro rfl; simp [len] at hV1; linarith
  have b1 : (2 : ℝ) ^ (-500 : ℤ) ≤ len V := pow500_le (le_trans (by norm_num at s0 ⊢; linarith) hV1)
  have b2 : len V ≤ (2 : ℝ) ^ (500 : ℕ) := le_pow500 (by linarith)
  obtain ⟨u, h1, fu, c1, -⟩ := unit_close (B := B) b1 b2
  have h2 := len_dirOf_sub_le sp hs hV0 hd
  refine ⟨u, by rw [unit_arg b1 b2, h1], fu, (c1.trans (Spec.CloseV.of_len h2)).mono (le_trans (le_of_eq ?_) hk)⟩
  ring

/-- `great_circle_normal` of two n-vectors whose vector product has at least the length `s` -/
theorem normal_flt {v w : V3 ℝ} {s : ℝ} (hv : IsF64V v) (hw : IsF64V w) (v2 : len v ≤ 1.1) (w2 : len w ≤ 1.1) (s0 : 1e-9 ≤ s)
    (hs : s ≤ len (cross v w)) :
    ∃ c : V3 ℝ, great_circle_normal (v.flt : V3 (F64 B)) w.flt = c.flt ∧ IsF64V c ∧
      CloseV c (dirOf (cross v w)) (20.1 * uu / s) := by
  have sp : 0 < s := lt_of_lt_of_le (by norm_num) s0
  have hu := uu_pos
  have hcl : len (cross v w) ≤ 1.21 := by
    have := len_cross_le v w
    have := mul_le_mul v2 w2 (len_nonneg' w) (by norm_num)
    norm_num at *; linarith
  obtain ⟨V, e1, fV, h1, h2, h3⟩ := (app_cross3 (B := B) hv hw v2 w2).get
  have hE : 1.7321 * (4 * uu) ≤ 0.5 * s := by
    have : 1.7321 * (4 * uu) ≤ 0.5 * 1e-9 := by unfold uu; norm_num
    linarith
  obtain ⟨u, g1, g2, g3⟩ := unit_dir (B := B) (s := s) (k := 20.1 * uu / s) (by norm_num at s0 ⊢; linarith) hs (by linarith) (V := V) ⟨h1, h2, h3⟩ hE (by
    rw [le_div_iff₀ sp, add_mul, div_mul_cancel₀ _ sp.ne']
    have : 5.06 * uu * s ≤ 5.06 * uu * 1.21 := mul_le_mul_of_nonneg_left (hs.trans hcl) (by positivity)
    nlinarith) PyFloat.nan
  exact ⟨u, by rw [great_circle_normal, e1, g1], g2, g3⟩

/-- the sine of the computed cross track angle -/
theorem sin_theta_flt {v w n : V3 ℝ} {s : ℝ} (hv : IsF64V v) (hw : IsF64V w) (hn : IsF64V n) (v2 : len v ≤ 1.1) (w2 : len w ≤ 1.1)
    (n2 : len n ≤ 1.1) (s0 : 1e-9 ≤ s) (hs : s ≤ len (cross v w)) :
    App (-(dot3 (great_circle_normal (v.flt : V3 (F64 B)) w.flt) n.flt)) (-dot (dirOf (cross v w)) n) (42.4 * uu / s) := by
  have sp : 0 < s := lt_of_lt_of_le (by norm_num) s0
  have hu := uu_pos
  have hc0 : cross v w ≠ 0 := by intro h; rw [h] at hs; simp [len] at hs; linarith
  have hcl : s ≤ 1.21 := by
    have := len_cross_le v w
    have := mul_le_mul v2 w2 (len_nonneg' w) (by norm_num)
    norm_num at *; linarith
  obtain ⟨c, e1, fc, hc⟩ := normal_flt (B := B) hv hw v2 w2 s0 hs
  have he : 20.1 * uu / s ≤ 0.0001 := by
    rw [div_le_iff₀ sp]
    have : 20.1 * uu ≤ 0.0001 * 1e-9 := by unfold uu; norm_num
    linarith
  have h := app_row (B := B) fc hn hc (P := n) (q := n) (e₂ := 0) ⟨by simp, by simp, by simp⟩ (dirOf_unit hc0).len he (L := 1.1)
    (by linarith) (by norm_num)
  rw [e1]
  refine h.neg.mono ?_
  have e2 : 1.7321 * (20.1 * uu / s) * 1.1 = 38.296731 * uu / s := by ring
  have e3 : 3.02 * uu * 1.1 + 1e-59 ≤ 4.02 * uu / s := by
    rw [le_div_iff₀ sp]
    have : (3.02 * uu * 1.1 + 1e-59) * s ≤ (3.02 * uu * 1.1 + 1e-59) * 1.21 := mul_le_mul_of_nonneg_left hcl (by positivity)
    have : (3.02 * uu * 1.1 + 1e-59) * 1.21 ≤ 4.02 * uu := by unfold uu; norm_num
    linarith
  have e4 : 42.4 * uu / s = 38.296731 * uu / s + 4.02 * uu / s + 0.083269 * uu / s := by ring
  have e5 : 0 ≤ 0.083269 * uu / s := by positivity
  rw [e4, ← e2]
  linarith

/-- `arcsin` in the middle of its range -/
theorem arcsin_lip {a b m c : ℝ} (ha : |a| ≤ m) (hb : |b| ≤ m) (hc : 0 < c) (hm : m ^ 2 + c ^ 2 ≤ 1) (hm1 : m ≤ 1) : |Real.arcsin a - Real.arcsin b| ≤ |a - b| / c := by
  have key : ∀ x y : ℝ, |x| ≤ m → |y| ≤ m → x ≤ y → Real.arcsin y - Real.arcsin x ≤ (y - x) / c := by
    intro x y hx hy hxy
    obtain ⟨x1, x2⟩ := abs_le.mp hx
    obtain ⟨y1, y2⟩ := abs_le.mp hy
    have hmlt : m < 1 := by nlinarith [(abs_nonneg x).trans hx]
    have := Convex.image_sub_le_mul_sub_of_deriv_le (D := Set.Icc (-m) m) (convex_Icc _ _) (f := Real.arcsin)
      (Real.continuous_arcsin.continuousOn) (C := 1 / c) (by
        intro t ht
        rw [interior_Icc] at ht
        exact (Real.differentiableAt_arcsin.mpr ⟨by intro h; rw [h] at ht; linarith [ht.1], by intro h; rw [h] at ht; linarith [ht.2]⟩).differentiableWithinAt) (by
        intro t ht
        rw [interior_Icc] at ht
        rw [Real.deriv_arcsin]
        refine one_div_le_one_div_of_le hc (Real.le_sqrt_of_sq_le ?_)
        have : t ^ 2 ≤ m ^ 2 := sq_le_sq' ht.1.le ht.2.le
        linarith) x ⟨x1, x2⟩ y ⟨y1, y2⟩ hxy
    rwa [one_div_mul_eq_div] at this
  rcases le_total a b with h | h
  · rw [abs_sub_comm, abs_of_nonneg (sub_nonneg.mpr (Real.monotone_arcsin h)), abs_sub_comm, abs_of_nonneg (sub_nonneg.mpr h)]
    exact key a b ha hb h
  · rw [abs_of_nonneg (sub_nonneg.mpr (Real.monotone_arcsin h)), abs_of_nonneg (sub_nonneg.mpr h)]
    exact key b a hb ha h

end Nv
