import Verif.Float.Basic

/-!
# Propagation of rounding errors

`App X x e`: the computed number `X` is finite and within `e` of the real number `x`.
-/

namespace Nv
open Spec

namespace F64
variable {B : Binary64}

theorem fin_inj {x y : ℝ} : (fin x : F64 B) = fin y ↔ x = y := by
  constructor
  · intro h; exact XR.fin.inj h
  · rintro rfl; rfl

theorem rnd_fin {x : ℝ} (hx : |x| ≤ 10 ^ 60) : rnd B x = fin (B.fl x) := by
  refine if_pos ?_
  have h1 := B.rounds.err_add x
  have h2 := abs_sub_abs_le_abs_sub (B.fl x) x
  have h3 : |B.fl x| ≤ 2 * 10 ^ 60 + 1 := by
    have h4 : uu * |x| ≤ 1 * |x| := mul_le_mul_of_nonneg_right (by unfold uu; norm_num) (abs_nonneg _)
    have h5 : eta ≤ 1 := eta_small.trans (by norm_num)
    linarith
  refine h3.trans_lt ?_
  calc (2 * 10 ^ 60 + 1 : ℝ) < 2 ^ (201 : ℤ) := by norm_num
    _ ≤ _ := zpow_le_zpow_right₀ (by norm_num) (by norm_num)

theorem fin_add {x y : ℝ} (h : |x + y| ≤ 10 ^ 60) : (fin x + fin y : F64 B) = fin (B.fl (x + y)) := rnd_fin h
theorem fin_sub {x y : ℝ} (h : |x - y| ≤ 10 ^ 60) : (fin x - fin y : F64 B) = fin (B.fl (x - y)) := by
  rw [sub_eq_add_neg] at h ⊢; exact rnd_fin h
theorem fin_mul {x y : ℝ} (h : |x * y| ≤ 10 ^ 60) : (fin x * fin y : F64 B) = fin (B.fl (x * y)) := rnd_fin h
theorem fin_div {x y : ℝ} (hy : y ≠ 0) (h : |x / y| ≤ 10 ^ 60) : (fin x / fin y : F64 B) = fin (B.fl (x / y)) := by
  change round B (XR.div (.fin x) (.fin y)) = _
  rw [XR.div, if_neg hy]; exact rnd_fin h
theorem fin_neg (x : ℝ) : (-(fin x) : F64 B) = fin (-x) := rfl
theorem fin_abs (x : ℝ) : (PyFloat.abs (fin x) : F64 B) = fin |x| := rfl
theorem fin_lit {q : ℚ} (h : |(q : ℝ)| ≤ 10 ^ 60) : (lit q : F64 B) = fin (B.fl q) := rnd_fin h
theorem fin_sqrt {x : ℝ} (hx : 0 ≤ x) (h : x ≤ 10 ^ 60) : (PyFloat.sqrt (fin x) : F64 B) = fin (B.fl (Real.sqrt x)) := by
  change round B (XR.sqrt (.fin x)) = _
  rw [XR.sqrt, if_neg (not_lt.mpr hx)]
  refine rnd_fin ?_
  rw [abs_of_nonneg (Real.sqrt_nonneg _)]
  refine Real.sqrt_le_iff.mpr ⟨by norm_num, h.trans (by norm_num)⟩
theorem fin_sin (x : ℝ) : (PyFloat.sin (fin x) : F64 B) = fin (B.sin x) := rfl
theorem fin_cos (x : ℝ) : (PyFloat.cos (fin x) : F64 B) = fin (B.cos x) := rfl
theorem fin_arctan2 {y x : ℝ} (h : ¬ (x = 0 ∧ y = 0)) : (PyFloat.arctan2 (fin y) (fin x) : F64 B) = fin (B.arctan2 y x) :=
  if_neg h
theorem fin_arcsin {x : ℝ} (h1 : -1 ≤ x) (h2 : x ≤ 1) : (PyFloat.arcsin (fin x) : F64 B) = fin (B.arcsin x) :=
  if_neg (by push Not; exact ⟨h1, h2⟩)
theorem fin_le (x y : ℝ) : (PyFloat.le (fin x : F64 B) (fin y)) = decide (x ≤ y) := by
  change XR.le (.fin x) (.fin y) = _; rfl
theorem fin_lt (x y : ℝ) : (PyFloat.lt (fin x : F64 B) (fin y)) = decide (x < y) := rfl
theorem fin_eq (x y : ℝ) : (PyFloat.eq (fin x : F64 B) (fin y)) = decide (x = y) := rfl

theorem lit_int {n : ℤ} (h : |n| < 2 ^ 53) : (lit (n : ℚ) : F64 B) = fin n := by
  have hb : |((n : ℚ) : ℝ)| ≤ 10 ^ 60 := by
    have : |(n : ℝ)| < 2 ^ 53 := by exact_mod_cast h
    push_cast
    refine this.le.trans (by norm_num)
  rw [fin_lit hb]
  congr 1
  push_cast
  exact B.rounds.exact (isF64_int h)
theorem lit_zero : (lit 0 : F64 B) = fin 0 := by simpa using lit_int (B := B) (n := 0) (by norm_num)
theorem lit_one : (lit 1 : F64 B) = fin 1 := by simpa using lit_int (B := B) (n := 1) (by norm_num)
theorem lit_neg_one : (lit (-1) : F64 B) = fin (-1) := by simpa using lit_int (B := B) (n := -1) (by norm_num)
theorem lit_two : (lit 2 : F64 B) = fin 2 := by simpa using lit_int (B := B) (n := 2) (by norm_num)

end F64

/-- the computed number `X` is a finite binary64 number within `e` of `x` -/
def App {B : Binary64} (X : F64 B) (x e : ℝ) : Prop := ∃ y, X = F64.fin y ∧ IsF64 y ∧ |y - x| ≤ e

section
variable {B : Binary64} {X Y : F64 B} {x y ex ey e b : ℝ}
open F64

theorem App.mono (h : App X x ex) (he : ex ≤ e) : App X x e := by
  obtain ⟨y, h1, h2, h3⟩ := h
  exact ⟨y, h1, h2, h3.trans he⟩

/-- a different exact value -/
theorem App.shift (h : App X x ex) (hy : |x - y| ≤ b) (he : ex + b ≤ e) : App X y e := by
  obtain ⟨z, h1, h2, h3⟩ := h
  refine ⟨z, h1, h2, ?_⟩
  have := abs_add_le (z - x) (x - y)
  rw [show z - x + (x - y) = z - y by ring] at this
  linarith

theorem App.of_eq (h : App X x e) (hxy : x = y) : App X y e := hxy ▸ h

theorem App.exact (h : IsF64 x) : App (fin x : F64 B) x 0 := ⟨x, rfl, h, by simp⟩

theorem App.nonneg_err (h : App X x e) : 0 ≤ e := by
  obtain ⟨z, _, _, h3⟩ := h
  exact (abs_nonneg _).trans h3

/-- one rounding -/
theorem fl_close {v : ℝ} (hv : |v - x| ≤ ex) (hb : |x| ≤ b) (he : ex + uu * (b + ex) + 1 / 10 ^ 60 ≤ e) :
    |B.fl v - x| ≤ e := by
  have h1 := B.rounds.err_add v
  have h2 : |v| ≤ b + ex := by
    have := abs_sub_abs_le_abs_sub v x
    linarith
  have h3 := mul_le_mul_of_nonneg_left h2 uu_pos.le
  have h4 := eta_small
  have := abs_add_le (B.fl v - v) (v - x)
  rw [show B.fl v - v + (v - x) = B.fl v - x by ring] at this
  linarith

theorem abs_le_of_close {v : ℝ} (hv : |v - x| ≤ ex) (hb : |x| ≤ b) (hlim : b + ex ≤ 10 ^ 60) : |v| ≤ 10 ^ 60 := by
  have := abs_sub_abs_le_abs_sub v x
  linarith

theorem App.add (hX : App X x ex) (hY : App Y y ey) (hb : |x + y| ≤ b)
    (he : ex + ey + uu * (b + (ex + ey)) + 1 / 10 ^ 60 ≤ e) (hlim : b + (ex + ey) ≤ 10 ^ 60) : App (X + Y) (x + y) e := by
  obtain ⟨v, rfl, _, h1⟩ := hX
  obtain ⟨w, rfl, _, h2⟩ := hY
  have h3 : |v + w - (x + y)| ≤ ex + ey := by
    rw [show v + w - (x + y) = (v - x) + (w - y) by ring]
    exact (abs_add_le _ _).trans (by linarith)
  exact ⟨_, fin_add (abs_le_of_close h3 hb hlim), B.rounds.val _, fl_close h3 hb he⟩

theorem App.neg (hX : App X x e) : App (-X) (-x) e := by
  obtain ⟨v, rfl, hv, h1⟩ := hX
  exact ⟨_, rfl, hv.neg, by rwa [show -v - -x = -(v - x) by ring, abs_neg]⟩

theorem App.sub (hX : App X x ex) (hY : App Y y ey) (hb : |x - y| ≤ b)
    (he : ex + ey + uu * (b + (ex + ey)) + 1 / 10 ^ 60 ≤ e) (hlim : b + (ex + ey) ≤ 10 ^ 60) : App (X - Y) (x - y) e := by
  obtain ⟨v, rfl, _, h1⟩ := hX
  obtain ⟨w, rfl, _, h2⟩ := hY
  have h3 : |v - w - (x - y)| ≤ ex + ey := by
    rw [show v - w - (x - y) = (v - x) - (w - y) by ring]
    exact (abs_sub _ _).trans (by linarith)
  exact ⟨_, fin_sub (abs_le_of_close h3 hb hlim), B.rounds.val _, fl_close h3 hb he⟩

theorem App.mul {bx bY : ℝ} (hX : App X x ex) (hY : App Y y ey) (hbx : |x| ≤ bx) (hby : |y| ≤ bY) (hb : |x * y| ≤ b)
    (he : (bx * ey + bY * ex + ex * ey) + uu * (b + (bx * ey + bY * ex + ex * ey)) + 1 / 10 ^ 60 ≤ e)
    (hlim : b + (bx * ey + bY * ex + ex * ey) ≤ 10 ^ 60) : App (X * Y) (x * y) e := by
  have e1 := hX.nonneg_err
  have e2 := hY.nonneg_err
  obtain ⟨v, rfl, _, h1⟩ := hX
  obtain ⟨w, rfl, _, h2⟩ := hY
  have h3 : |v * w - x * y| ≤ bx * ey + bY * ex + ex * ey := by
    rw [show v * w - x * y = x * (w - y) + y * (v - x) + (v - x) * (w - y) by ring]
    refine (abs_add_three _ _ _).trans ?_
    rw [abs_mul, abs_mul, abs_mul]
    have a1 := mul_le_mul hbx h2 (abs_nonneg _) ((abs_nonneg _).trans hbx)
    have a2 := mul_le_mul hby h1 (abs_nonneg _) ((abs_nonneg _).trans hby)
    have a3 := mul_le_mul h1 h2 (abs_nonneg _) e1
    linarith
  exact ⟨_, fin_mul (abs_le_of_close h3 hb hlim), B.rounds.val _, fl_close h3 hb he⟩

/-- quotient; `m` is a lower bound of the divisor -/
theorem App.div {m : ℝ} (hX : App X x ex) (hY : App Y y ey) (hm : m ≤ |y|) (hmy : ey < m) (hb : |x / y| ≤ b)
    (he : (ex + b * ey) / (m - ey) + uu * (b + (ex + b * ey) / (m - ey)) + 1 / 10 ^ 60 ≤ e)
    (hlim : b + (ex + b * ey) / (m - ey) ≤ 10 ^ 60) : App (X / Y) (x / y) e := by
  have e2 := hY.nonneg_err
  obtain ⟨v, rfl, _, h1⟩ := hX
  obtain ⟨w, rfl, _, h2⟩ := hY
  have hy : y ≠ 0 := by rintro rfl; rw [abs_zero] at hm; linarith
  have hw : m - ey ≤ |w| := by
    have := abs_sub_abs_le_abs_sub y w
    rw [abs_sub_comm] at this
    linarith
  have hw0 : 0 < |w| := by linarith
  have hwne : w ≠ 0 := abs_pos.mp hw0
  have h3 : |v / w - x / y| ≤ (ex + b * ey) / (m - ey) := by
    have : v / w - x / y = ((v - x) - (x / y) * (w - y)) / w := by field_simp; ring
    rw [this, abs_div]
    have h4 : |v - x - x / y * (w - y)| ≤ ex + b * ey := by
      refine (abs_sub _ _).trans ?_
      rw [abs_mul]
      have := mul_le_mul hb h2 (abs_nonneg _) ((abs_nonneg _).trans hb)
      linarith
    exact div_le_div₀ ((abs_nonneg _).trans h4) h4 (by linarith) hw
  exact ⟨_, fin_div hwne (abs_le_of_close h3 hb hlim), B.rounds.val _, fl_close h3 hb he⟩

/-- square root of a number bounded away from zero; `m ≤ √x` -/
theorem App.sqrt {m : ℝ} (hX : App X x ex) (hm : 0 < m) (hmx : m ≤ Real.sqrt x) (hex : ex ≤ x) (hb : Real.sqrt x ≤ b)
    (he : ex / m + uu * (b + ex / m) + 1 / 10 ^ 60 ≤ e) (hlim : x + ex ≤ 10 ^ 60) :
    App (PyFloat.sqrt X) (Real.sqrt x) e := by
  obtain ⟨v, rfl, _, h1⟩ := hX
  have hv : 0 ≤ v := by linarith [(abs_le.mp h1).1]
  have hx0 : 0 < x := by
    by_contra hn; push Not at hn
    rw [Real.sqrt_eq_zero_of_nonpos hn] at hmx; linarith
  have h3 : |Real.sqrt v - Real.sqrt x| ≤ ex / m := by
    have hs : 0 < Real.sqrt v + Real.sqrt x := by linarith [Real.sqrt_nonneg v]
    have : Real.sqrt v - Real.sqrt x = (v - x) / (Real.sqrt v + Real.sqrt x) := by
      rw [eq_div_iff hs.ne']
      nlinarith [Real.mul_self_sqrt hv, Real.mul_self_sqrt hx0.le]
    rw [this, abs_div, abs_of_pos hs]
    exact div_le_div₀ ((abs_nonneg _).trans h1) h1 hm (by linarith [Real.sqrt_nonneg v])
  refine ⟨_, fin_sqrt hv ?_, B.rounds.val _, fl_close h3 (by rwa [abs_of_nonneg (Real.sqrt_nonneg _)]) he⟩
  linarith [(abs_le.mp h1).2]

/-- square root near zero: the absolute error is at most the square root of the error -/
theorem App.sqrt' {c : ℝ} (hX : App X x ex) (hx : 0 ≤ x) (hv : ∀ v, X = fin v → 0 ≤ v) (hc : 0 ≤ c) (hec : ex ≤ c ^ 2) (hb : Real.sqrt x ≤ b)
    (he : c + uu * (b + c) + 1 / 10 ^ 60 ≤ e) (hlim : x + ex ≤ 10 ^ 60) :
    App (PyFloat.sqrt X) (Real.sqrt x) e := by
  obtain ⟨v, rfl, _, h1⟩ := hX
  have hv := hv v rfl
  have h3 : |Real.sqrt v - Real.sqrt x| ≤ c := by
    have h4 := abs_le.mp h1
    rw [abs_le]
    constructor
    · have : Real.sqrt x ≤ Real.sqrt v + c := by
        apply Real.sqrt_le_iff.mpr ⟨by positivity, ?_⟩
        nlinarith [Real.mul_self_sqrt hv, Real.sqrt_nonneg v]
      linarith
    · have : Real.sqrt v ≤ Real.sqrt x + c := by
        apply Real.sqrt_le_iff.mpr ⟨by positivity, ?_⟩
        nlinarith [Real.mul_self_sqrt hx, Real.sqrt_nonneg x]
      linarith
  refine ⟨_, fin_sqrt hv ?_, B.rounds.val _, fl_close h3 (by rwa [abs_of_nonneg (Real.sqrt_nonneg _)]) he⟩
  linarith [(abs_le.mp h1).2]

/-- the relative error of a library function -/
theorem libm_close {v : ℝ} (h : LibmClose v x) (hb : |x| ≤ b) (he : 4 * uu * b + 1 / 10 ^ 60 ≤ e) : |v - x| ≤ e := by
  refine h.trans ?_
  have h1 : (2 : ℝ) ^ (-51 : ℤ) = 4 * uu := by unfold uu; norm_num
  have h2 : (2 : ℝ) ^ (-1074 : ℤ) ≤ 1 / 10 ^ 60 := by
    calc (2 : ℝ) ^ (-1074 : ℤ) ≤ 2 ^ (-200 : ℤ) := zpow_le_zpow_right₀ (by norm_num) (by norm_num)
      _ ≤ _ := by norm_num
  rw [h1]
  have := mul_le_mul_of_nonneg_left hb (by linarith [uu_pos] : 0 ≤ 4 * uu)
  linarith

theorem App.sin (x : ℝ) (he : 4 * uu + 1 / 10 ^ 60 ≤ e) : App (PyFloat.sin (fin x : F64 B)) (Real.sin x) e :=
  ⟨_, rfl, B.sin_val _, libm_close (b := 1) (B.sin_close x) (Real.abs_sin_le_one x) (by linarith)⟩
theorem App.cos (x : ℝ) (he : 4 * uu + 1 / 10 ^ 60 ≤ e) : App (PyFloat.cos (fin x : F64 B)) (Real.cos x) e :=
  ⟨_, rfl, B.cos_val _, libm_close (b := 1) (B.cos_close x) (Real.abs_cos_le_one x) (by linarith)⟩

end

end Nv
