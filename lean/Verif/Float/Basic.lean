import Verif.Float.Arith
import Mathlib.Algebra.Order.Round
import Mathlib.Tactic.FieldSimp

/-!
# Rounding errors of the operations
-/

namespace Nv
open Spec

/-! ## binary64 numbers -/

theorem Spec.IsF64.neg {x : ℝ} (h : IsF64 x) : IsF64 (-x) := by
  obtain ⟨m, e, hm, he, rfl⟩ := h
  exact ⟨-m, e, by rwa [abs_neg], he, by push_cast; ring⟩

theorem Spec.IsF64.abs {x : ℝ} (h : IsF64 x) : IsF64 |x| := by
  rcases abs_choice x with e | e <;> rw [e]
  exacts [h, h.neg]

theorem isF64_int {n : ℤ} (h : |n| < 2 ^ 53) : IsF64 (n : ℝ) := ⟨n, 0, h, by norm_num, by simp⟩

theorem isF64_one : IsF64 1 := by simpa using isF64_int (n := 1) (by norm_num)
theorem isF64_neg_one : IsF64 (-1) := isF64_one.neg
theorem isF64_two : IsF64 2 := by simpa using isF64_int (n := 2) (by norm_num)

/-- an integer of at most 53 bits times a power of two -/
theorem isF64_of_le {m e : ℤ} (hm : |m| ≤ 2 ^ 53) (he : -1074 ≤ e) : IsF64 (m * (2 : ℝ) ^ e) := by
  rcases lt_or_eq_of_le hm with h | h
  · exact ⟨m, e, h, he, rfl⟩
  · have e1 : (2 : ℝ) ^ (e + 1) = 2 ^ e * 2 := zpow_add_one₀ (by norm_num) e
    rcases abs_choice m with hc | hc
    · refine ⟨2 ^ 52, e + 1, by norm_num, by omega, ?_⟩
      rw [hc] at h; rw [h, e1]; push_cast; ring
    · refine ⟨-2 ^ 52, e + 1, by norm_num, by omega, ?_⟩
      rw [hc] at h
      have : m = -2 ^ 53 := by omega
      rw [this, e1]; push_cast; ring

/-- half a unit in the last place -/
noncomputable def uu : ℝ := 1 / 9007199254740992
/-- half the smallest subnormal number -/
noncomputable def eta : ℝ := (2 : ℝ) ^ (-1075 : ℤ)

theorem uu_eq : uu = (2 : ℝ) ^ (-53 : ℤ) := by unfold uu; norm_num
theorem uu_pos : 0 < uu := by unfold uu; norm_num
theorem eta_pos : 0 < eta := by unfold eta; positivity
theorem eta_le {k : ℤ} (hk : -1075 ≤ k) : eta ≤ (2 : ℝ) ^ k := zpow_le_zpow_right₀ (by norm_num) hk
/-- the underflow error is far below every rounding error considered -/
theorem eta_small : eta ≤ 1 / 10 ^ 60 := by
  refine (eta_le (k := -200) (by norm_num)).trans ?_
  norm_num

namespace Spec.RoundsToNearest
variable {fl : ℝ → ℝ} (h : RoundsToNearest fl)
include h

/-- the rounding error -/
theorem err (x : ℝ) : |fl x - x| ≤ max (uu * |x|) eta := by
  by_cases hx : x = 0
  · rw [hx, h.exact isF64_zero]; simp [eta_pos.le]
  have hxa : 0 < |x| := abs_pos.mpr hx
  obtain ⟨l, hl⟩ : ∃ l, l = Int.log 2 |x| := ⟨_, rfl⟩
  have h1 : (2 : ℝ) ^ l ≤ |x| := by rw [hl]; exact Int.zpow_log_le_self (by norm_num) hxa
  have h2 : |x| < (2 : ℝ) ^ (l + 1) := by rw [hl]; exact_mod_cast Int.lt_zpow_succ_log_self (b := 2) (by norm_num) |x|
  obtain ⟨e, he⟩ : ∃ e, e = max (l - 52) (-1074) := ⟨_, rfl⟩
  have hp : (0 : ℝ) < 2 ^ e := by positivity
  have hr := abs_sub_round (x / 2 ^ e)
  have hm : |round (x / 2 ^ e)| ≤ 2 ^ 53 := by
    have hb : |x / 2 ^ e| < 2 ^ 53 := by
      rw [abs_div, abs_of_pos hp, div_lt_iff₀ hp]
      refine h2.trans_le ?_
      rw [show ((2 : ℝ) ^ 53) = 2 ^ (53 : ℤ) by norm_num, ← zpow_add₀ (by norm_num)]
      exact zpow_le_zpow_right₀ (by norm_num) (by omega)
    have h3 : |((round (x / 2 ^ e) : ℤ) : ℝ)| < 2 ^ 53 + 1 := by
      have := abs_sub_abs_le_abs_sub ((round (x / 2 ^ e) : ℤ) : ℝ) (x / 2 ^ e)
      rw [abs_sub_comm] at this
      linarith
    have h4 : |round (x / 2 ^ e)| < 2 ^ 53 + 1 := by exact_mod_cast h3
    omega
  have hn := h.nearest x _ (isF64_of_le hm (he ▸ le_max_right _ _))
  refine hn.trans ?_
  have h5 : |(round (x / 2 ^ e) : ℝ) * 2 ^ e - x| ≤ 2 ^ e / 2 := by
    have : (round (x / 2 ^ e) : ℝ) * 2 ^ e - x = -((x / 2 ^ e - round (x / 2 ^ e)) * 2 ^ e) := by
      field_simp; ring
    rw [this, abs_neg, abs_mul, abs_of_pos hp]
    nlinarith
  refine h5.trans ?_
  rcases max_cases (l - 52) (-1074) with ⟨hc, _⟩ | ⟨hc, _⟩
  · refine le_max_of_le_left ?_
    rw [he, hc, uu_eq]
    calc (2 : ℝ) ^ (l - 52) / 2 = 2 ^ (-53 : ℤ) * 2 ^ l := by
          rw [← zpow_add₀ (by norm_num), show (-53 : ℤ) + l = (l - 52) - 1 by ring, zpow_sub_one₀ (by norm_num)]; rfl
      _ ≤ _ := by apply mul_le_mul_of_nonneg_left h1; positivity
  · refine le_max_of_le_right ?_
    rw [he, hc, eta, show (-1075 : ℤ) = -1074 - 1 by norm_num, zpow_sub_one₀ (by norm_num)]
    rfl

theorem err_add (x : ℝ) : |fl x - x| ≤ uu * |x| + eta :=
  (h.err x).trans (max_le_add_of_nonneg (mul_nonneg uu_pos.le (abs_nonneg _)) eta_pos.le)

/-- the relative error of a result that does not underflow -/
theorem rel {x : ℝ} (hx : (2 : ℝ) ^ (-1022 : ℤ) ≤ |x|) : |fl x - x| ≤ uu * |x| := by
  refine (h.err x).trans (max_le le_rfl ?_)
  rw [uu_eq, eta, show (-1075 : ℤ) = -53 + -1022 by norm_num, zpow_add₀ (by norm_num)]
  apply mul_le_mul_of_nonneg_left hx; positivity

/-- rounding does not go above a binary64 number that is not below the argument -/
theorem le {x z : ℝ} (hz : IsF64 z) (hzx : x ≤ z) : fl x ≤ z := by
  by_contra hn; push Not at hn
  have := h.nearest x z hz
  rw [abs_of_nonneg (by linarith), abs_of_nonneg (by linarith)] at this
  linarith

/-- rounding is monotone -/
theorem mono {x y : ℝ} (hxy : x ≤ y) : fl x ≤ fl y := by
  by_contra hn; push Not at hn
  have h1 := h.nearest x (fl y) (h.val y)
  have h2 := h.nearest y (fl x) (h.val x)
  rcases lt_or_eq_of_le hxy with hlt | heq
  · -- the two values would both be nearest to both points
    by_cases hA : fl y ≤ x
    · have hB : x < fl x := by
        by_contra hc; push Not at hc
        rw [abs_of_nonpos (by linarith), abs_of_nonpos (by linarith)] at h2
        linarith
      by_cases hC : fl x ≤ y
      · rw [abs_of_pos (by linarith), abs_of_nonpos (by linarith)] at h1
        rw [abs_of_nonpos (by linarith), abs_of_nonpos (by linarith)] at h2
        linarith
      · push Not at hC
        rw [abs_of_pos (by linarith), abs_of_nonpos (by linarith)] at h1
        rw [abs_of_nonpos (by linarith), abs_of_pos (by linarith)] at h2
        linarith
    · push Not at hA
      rw [abs_of_pos (by linarith), abs_of_pos (by linarith)] at h1
      linarith
  · rw [heq] at hn; exact lt_irrefl _ hn

theorem nonneg {x : ℝ} (hx : 0 ≤ x) : 0 ≤ fl x := h.ge isF64_zero hx
theorem nonpos {x : ℝ} (hx : x ≤ 0) : fl x ≤ 0 := h.le isF64_zero hx
theorem zero : fl 0 = 0 := h.exact isF64_zero

end Spec.RoundsToNearest

/-- every rounding function belongs to a binary64 implementation: all functions correctly rounded -/
theorem exists_binary64_of {fl : ℝ → ℝ} (h : Spec.RoundsToNearest fl) : ∃ B : Binary64, B.fl = fl := by
  have hc : ∀ x, LibmClose (fl x) x := by
    intro x
    refine (h.err_add x).trans ?_
    have h1 : uu ≤ (2 : ℝ) ^ (-51 : ℤ) := by rw [uu_eq]; exact zpow_le_zpow_right₀ (by norm_num) (by norm_num)
    have h2 : eta ≤ (2 : ℝ) ^ (-1074 : ℤ) := eta_le (by norm_num)
    have := mul_le_mul_of_nonneg_right h1 (abs_nonneg x)
    linarith
  exact ⟨{
    fl := fl
    rounds := h
    sin := fun x => fl (Real.sin x)
    cos := fun x => fl (Real.cos x)
    arcsin := fun x => fl (Real.arcsin x)
    arctan2 := fun y x => fl (Complex.arg ⟨x, y⟩)
    pow := fun x y => fl (x ^ y)
    sin_val := fun _ => h.val _
    cos_val := fun _ => h.val _
    arcsin_val := fun _ => h.val _
    arctan2_val := fun _ _ => h.val _
    pow_val := fun _ _ => h.val _
    sin_close := fun _ => hc _
    cos_close := fun _ => hc _
    arcsin_close := fun _ _ _ => hc _
    arctan2_close := fun _ _ _ => hc _
    pow_close := fun _ _ _ => hc _
    pow_nonneg := fun _ _ hx => h.nonneg (Real.rpow_nonneg hx _)
    sin_zero := by rw [Real.sin_zero, h.zero]
    cos_zero := by rw [Real.cos_zero, h.exact isF64_one]
    arcsin_zero := by rw [Real.arcsin_zero, h.zero]
    arctan2_zero := fun x hx => by
      rw [show (⟨x, 0⟩ : ℂ) = ((x : ℝ) : ℂ) from rfl, Complex.arg_ofReal_of_nonneg hx.le, h.zero] }, rfl⟩

/-- a binary64 implementation exists -/
theorem exists_binary64 : Nonempty Binary64 := by
  obtain ⟨fl, h⟩ := exists_roundsToNearest
  obtain ⟨B, -⟩ := exists_binary64_of h
  exact ⟨B⟩

theorem Spec.IsF64.neg' {z : ℝ} (h : IsF64 z) : IsF64 (-z) := by
  obtain ⟨m, e, h1, h2, h3⟩ := h
  exact ⟨-m, e, by rwa [abs_neg], h2, by rw [h3]; push_cast; ring⟩

/-- there is one that rounds `-x` to minus what it rounds `x` to, as IEEE 754 does -/
theorem exists_binary64_odd : ∃ B : Binary64, ∀ x, B.fl (-x) = -B.fl x := by
  obtain ⟨fl, h⟩ := exists_roundsToNearest
  have h' : RoundsToNearest (fun x => if 0 ≤ x then fl x else -fl (-x)) := by
    constructor
    · intro x
      by_cases hx : 0 ≤ x
      · simp only [if_pos hx]; exact h.val x
      · simp only [if_neg hx]; exact (h.val _).neg'
    · intro x z hz
      by_cases hx : 0 ≤ x
      · simp only [if_pos hx]; exact h.nearest x z hz
      · simp only [if_neg hx]
        have := h.nearest (-x) (-z) hz.neg'
        rwa [show -fl (-x) - x = -(fl (-x) - -x) by ring, abs_neg, show z - x = -(-z - -x) by ring, abs_neg]
  obtain ⟨B, hB⟩ := exists_binary64_of h'
  refine ⟨B, fun x => ?_⟩
  rw [hB]
  rcases lt_trichotomy x 0 with hx | hx | hx
  · simp only [if_neg (not_le.mpr hx), if_pos (show (0:ℝ) ≤ -x by linarith), neg_neg]
  · subst hx; simp [h.zero]
  · simp only [if_pos hx.le, if_neg (not_le.mpr (show -x < 0 by linarith)), neg_neg]

end Nv
