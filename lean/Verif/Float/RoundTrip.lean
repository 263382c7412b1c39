import Verif.Float.Position
import Verif.Float.Surface
import Verif.Lemmas.Geodetic
import Verif.Props.Ellipsoid

/-!
# Positions there and back in binary64: error bounds
-/

namespace Nv
open Spec F64

/-- the exact values of `p_EB_E2n_EB_E` outside the core -/
theorem p2n_exact {a f : ℝ} {p : V3 ℝ} (ha : 0 < a) (hf0 : 0 ≤ f) (hf : f < 1) {R : M3 ℝ} (hR : IsRotation R)
    (hcore : OutsideCore a f (app R p)) :
    ∃ (m : V3 ℝ) (d : ℝ), p_EB_E2n_EB_E p.fin (XR.fin a) (XR.fin f) R.fin = (m.fin, XR.fin d) ∧ UnitVec m ∧
      app R p = posE a f (app R m) d ∧ Geodetic a f R m d p ∧ (1 - f) * (d + len p) ≤ a ∧ a * (1 - f) ≤ d + len p := by
  obtain ⟨m, T, k, h1, hm, hT, hk, hx, hy, hz, hell⟩ := p2n_outside_core p a f ha hf0 hf R hR hcore
  have hb := posE_back ha hf0 hf hk hT hx hy hz hell
  have he : 0 ≤ (2 - f) * f := by nlinarith
  have hu := unitVec_app hR.transpose hm
  have hg : 0 < 1 - f := by linarith
  have hD : Dell f m = a * k / T := by
    have h1 : Dell f m ^ 2 = (a * k / T) ^ 2 := by
      rw [Dell_sq]
      rw [hx, hy, hz] at hell
      have hke : 0 < k + (2 - f) * f := by linarith
      have hke' : (k + f * (2 - f)) ^ 2 ≠ 0 := by rw [mul_comm f]; positivity
      field_simp at hell
      field_simp
      apply mul_left_cancel₀ hke'
      linarith
    have h2 : 0 ≤ a * k / T := by positivity
    exact (sq_eq_sq₀ (Real.sqrt_nonneg _) h2).mp h1
  refine ⟨_, _, h1, hu, ?_, ?_, ?_, ?_⟩
  · rw [hR.app_trans, hb]
  · have := geodetic_posE (d := -((k + (2 - f) * f - 1) / k * T)) ha hf hR hu.ne
    rwa [dirOf_of_unit hu, hR.app_trans, hb, hR.trans_app] at this
  · have hDb := (Dell_ge hf0 hf hm).1
    have hTk : (1 - f) * (T / k) ≤ a := by
      have : T / k = a / Dell f m := by rw [hD]; field_simp
      rw [this, ← mul_div_assoc, div_le_iff₀ (by linarith)]
      nlinarith
    have hl : len (app R p) ≤ T * (k + (2 - f) * f) / k := by
      unfold len
      have hs : 0 ≤ T * (k + (2 - f) * f) / k := by positivity
      apply Real.sqrt_le_iff.mpr ⟨hs, ?_⟩
      have hle : T ≤ T * (k + (2 - f) * f) / k := by
        rw [le_div_iff₀ hk]; nlinarith [mul_nonneg hT.le he]
      have hle2 := pow_le_pow_left₀ hT.le hle 2
      rw [hx, hy, hz]
      unfold UnitVec at hm
      generalize T * (k + (2 - f) * f) / k = S at *
      have := mul_le_mul_of_nonneg_right hle2 (sq_nonneg m.x)
      have e : S ^ 2 = S ^ 2 * (m.x ^ 2 + m.y ^ 2 + m.z ^ 2) := by rw [hm, mul_one]
      rw [e]; nlinarith
    rw [len_app hR] at hl
    refine le_trans (mul_le_mul_of_nonneg_left ?_ hg.le) hTk
    have : T / k = -((k + (2 - f) * f - 1) / k * T) + T * (k + (2 - f) * f) / k := by field_simp; ring
    rw [this]; linarith
  · have hDb := (Dell_ge hf0 hf hm).1
    have h := dot_le_len_mul (app R p) m
    rw [hm.len, mul_one, len_app hR, ← hb, posE_eq, dot_sub_left, dot_surf hf hm, ellB_self] at h
    have hD0 : 0 < Dell f m := by linarith
    have e : a * Dell f m ^ 2 / Dell f m = a * Dell f m := by field_simp
    have e2 : dot ((-((k + (2 - f) * f - 1) / k * T)) • m) m = -((k + (2 - f) * f - 1) / k * T) := by
      have := hm
      unfold UnitVec at this
      simp only [dot, smul_x, smul_y, smul_z]
      linear_combination (-((k + (2 - f) * f - 1) / k * T)) * this
    rw [e, e2] at h
    have := mul_le_mul_of_nonneg_left hDb ha.le
    linarith

theorem len_dirOf_sub {m w : V3 ℝ} (hm : UnitVec m) (hw : w ≠ 0) : len (dirOf w - m) ≤ 2 * len (w - m) := by
  have h1 : len (dirOf w - w) = |1 - len w| := by
    have e : dirOf w - w = (1 - len w) • dirOf w := by
      have := smul_dirOf w
      ext
      · simp only [sub_x, smul_x]; have := congrArg V3.x this; simp only [smul_x] at this; linarith
      · simp only [sub_y, smul_y]; have := congrArg V3.y this; simp only [smul_y] at this; linarith
      · simp only [sub_z, smul_z]; have := congrArg V3.z this; simp only [smul_z] at this; linarith
    rw [e]
    have hl : ∀ (c : ℝ) (v : V3 ℝ), len (c • v) = |c| * len v := by
      intro c v
      unfold len
      simp only [smul_x, smul_y, smul_z]
      rw [show (c * v.x) ^ 2 + (c * v.y) ^ 2 + (c * v.z) ^ 2 = c ^ 2 * (v.x ^ 2 + v.y ^ 2 + v.z ^ 2) by ring, Real.sqrt_mul (sq_nonneg c), Real.sqrt_sq_eq_abs]
    rw [hl, (dirOf_unit hw).len, mul_one]
  have h2 : |1 - len w| ≤ len (w - m) := by
    have t1 := len_add_le (w - m) m
    have t2 := len_add_le (m - w) w
    have e1 : w - m + m = w := by ext <;> simp
    have e2 : m - w + w = m := by ext <;> simp
    rw [e1, hm.len] at t1
    rw [e2, hm.len, len_sub_comm] at t2
    rw [abs_le]; constructor <;> linarith
  have e : dirOf w - m = (dirOf w - w) + (w - m) := by ext <;> simp
  rw [e]
  refine (len_add_le _ _).trans ?_
  rw [h1]; linarith

theorem len_sub_rel {m w : V3 ℝ} {ε t : ℝ} (hm : UnitVec m) (hε : 0 ≤ ε) (ht : 0 ≤ t) (hx : |w.x - m.x| ≤ ε * |m.x| + t)
    (hy : |w.y - m.y| ≤ ε * |m.y| + t) (hz : |w.z - m.z| ≤ ε * |m.z| + t) : len (w - m) ≤ ε + 1.7321 * t := by
  have hl := len_add_le (⟨ε * |m.x|, ε * |m.y|, ε * |m.z|⟩ : V3 ℝ) ⟨t, t, t⟩
  have h1 : len (⟨ε * |m.x|, ε * |m.y|, ε * |m.z|⟩ : V3 ℝ) = ε := by
    unfold UnitVec at hm
    unfold len
    rw [show (ε * |m.x|) ^ 2 + (ε * |m.y|) ^ 2 + (ε * |m.z|) ^ 2 = ε ^ 2 * (|m.x| ^ 2 + |m.y| ^ 2 + |m.z| ^ 2) by ring, sq_abs, sq_abs, sq_abs, hm, mul_one, Real.sqrt_sq hε]
  have h2 : len (⟨t, t, t⟩ : V3 ℝ) ≤ 1.7321 * t :=
    len_le_of_comp (abs_of_nonneg ht).le (abs_of_nonneg ht).le (abs_of_nonneg ht).le
  have h3 : len (w - m) ≤ len (⟨ε * |m.x|, ε * |m.y|, ε * |m.z|⟩ + ⟨t, t, t⟩ : V3 ℝ) := by
    unfold len
    apply Real.sqrt_le_sqrt
    simp only [sub_x, sub_y, sub_z, add_x, add_y, add_z]
    have := sq_le_of_abs_le hx
    have := sq_le_of_abs_le hy
    have := sq_le_of_abs_le hz
    linarith
  linarith

end Nv
