import Verif.Float.Vermeille
import Verif.Float.Unit
import Verif.Lemmas.Position

/-!
# `_equation23` and `p_EB_E2n_EB_E` in binary64
-/

namespace Nv
open Spec F64

section
variable {B : Binary64} {X Y : F64 B}

/-- the computed square of a binary64 number of either sign -/
theorem rel_sq_of {x : ℝ} (hx : IsF64 x) (hb : |x| ≤ 1e28) : Rel (powNat (fin x : F64 B) 2) (x ^ 2) 1.002 1.1e-200 := by
  have h := (Rel.exact (B := B) hx.abs (abs_nonneg x)).sq (b := 1e28) (k := 1.002) (d := 1.1e-200) hb (by norm_num) le_rfl (by norm_num) le_rfl
    (by norm_num) (by norm_num) (by norm_num)
  rw [sq_abs] at h
  have f1 : Fin64 x := fin64_of_le hx (hb.trans (by norm_num))
  have f2 : Fin64 |x| := fin64_of_le hx.abs (by rw [abs_abs]; exact hb.trans (by norm_num))
  rw [powNat_two f2] at h
  rw [powNat_two f1]
  have : (fin |x| * fin |x| : F64 B) = fin x * fin x := by
    change rnd B (|x| * |x|) = rnd B (x * x)
    rw [abs_mul_abs_self]
  rwa [this] at h

/-- a nearby exact value -/
theorem Rel.shift {x y k k1 k2 d : ℝ} (h : Rel X x k1 d) (hy : 0 ≤ y) (hxy : |x - y| ≤ k2 * uu * y) (hk1 : 0 ≤ k1) (hk1' : k1 ≤ 1e4)
    (hk2' : k2 ≤ 1e4) (hk : k1 + k2 + 0.001 ≤ k) : Rel X y k d := by
  obtain ⟨v, h1, h2, h3, h4, h5⟩ := h
  refine ⟨v, h1, h2, hy, h4, ?_⟩
  have hu := uu_pos
  have t := abs_add_le (v - x) (x - y)
  rw [sub_add_sub_cancel] at t
  have hx : x ≤ y + k2 * uu * y := by linarith [(abs_le.mp hxy).2]
  have a1 : k1 * uu * x ≤ k1 * uu * (y + k2 * uu * y) := mul_le_mul_of_nonneg_left hx (by positivity)
  have a2 : k1 * uu * (k2 * uu * y) ≤ 0.001 * (uu * y) := by
    have : k1 * k2 * uu ≤ 0.001 := by
      have h8 : k1 * k2 ≤ 1e4 * 1e4 := by
        calc k1 * k2 ≤ k1 * 1e4 := mul_le_mul_of_nonneg_left hk2' hk1
          _ ≤ _ := mul_le_mul_of_nonneg_right hk1' (by norm_num)
      calc k1 * k2 * uu ≤ 1e4 * 1e4 * uu := mul_le_mul_of_nonneg_right h8 hu.le
        _ ≤ _ := by unfold uu; norm_num
    calc _ = k1 * k2 * uu * (uu * y) := by ring
      _ ≤ _ := mul_le_mul_of_nonneg_right this (by positivity)
  have a3 : (k1 + k2 + 0.001) * (uu * y) ≤ k * (uu * y) := mul_le_mul_of_nonneg_right hk (by positivity)
  linarith

/-- product with a binary64 number of either sign -/
theorem Rel.smul {x v k d : ℝ} (h : Rel X x k d) (hv : IsF64 v) (hk : 0 ≤ k) (hk' : k ≤ 1e6) (hd : 0 ≤ d) {e b : ℝ} (hb : |v| ≤ b)
    (he : (k + 1.001) * uu * |x * v| + 1.01 * d * b + 1e-200 ≤ e) (hlim : |x * v| ≤ 10 ^ 50) (hlim' : d * b ≤ 1) :
    App (X * fin v) (x * v) e := by
  obtain ⟨w, rfl, h2, h3, h4, h5⟩ := h
  have hu := uu_pos
  have hku : k * uu ≤ 0.0005 := by
    calc k * uu ≤ 1e6 * uu := mul_le_mul_of_nonneg_right hk' hu.le
      _ ≤ _ := by unfold uu; norm_num
  have hku' : k * uu * uu ≤ 0.0005 * uu := mul_le_mul_of_nonneg_right hku hu.le
  have hv0 := abs_nonneg v
  have hdv : d * |v| ≤ d * b := mul_le_mul_of_nonneg_left hb hd
  have a1 : |w * v - x * v| ≤ k * uu * |x * v| + d * |v| := by
    rw [← sub_mul, abs_mul, abs_mul, abs_of_nonneg h3]
    calc |w - x| * |v| ≤ (k * uu * x + d) * |v| := mul_le_mul_of_nonneg_right h5 hv0
      _ = _ := by ring
  have a2 : |w * v| ≤ |x * v| + (k * uu * |x * v| + d * |v|) := by
    have := abs_sub_abs_le_abs_sub (w * v) (x * v)
    linarith
  have a3 : k * uu * |x * v| ≤ 0.0005 * |x * v| := mul_le_mul_of_nonneg_right hku (abs_nonneg _)
  refine ⟨_, fin_mul ?_, B.rounds.val _, ?_⟩
  · refine a2.trans ?_
    have : (1.0005 : ℝ) * 10 ^ 50 + 1 ≤ 10 ^ 60 := by norm_num
    linarith
  have a4 := B.rounds.err_add (w * v)
  have a5 := abs_add_le (B.fl (w * v) - w * v) (w * v - x * v)
  rw [sub_add_sub_cancel] at a5
  have a6 : uu * |w * v| ≤ uu * (|x * v| + (k * uu * |x * v| + d * |v|)) := mul_le_mul_of_nonneg_left a2 hu.le
  have a7 : uu * (d * |v|) ≤ 0.01 * (d * |v|) := mul_le_mul_of_nonneg_right (by unfold uu; norm_num) (by positivity)
  have a8 : uu * (k * uu * |x * v|) ≤ 0.0005 * uu * |x * v| := by
    calc _ = k * uu * uu * |x * v| := by ring
      _ ≤ _ := mul_le_mul_of_nonneg_right hku' (abs_nonneg _)
  have a9 := eta_tiny
  have a10 : 0 ≤ uu * |x * v| := by positivity
  rw [show (1 : ℝ) / 10 ^ 200 = 1e-200 by norm_num] at a9
  obtain ⟨t, ht⟩ : ∃ t : ℝ, t = 1e-200 := ⟨_, rfl⟩
  rw [← ht] at a9 he
  linarith

/-- the squared eccentricity -/
theorem rel_ecc {f : ℝ} (hf : IsF64 f) (f0 : 0 ≤ f) (f1 : f ≤ 0.01) :
    Rel (eccentricity2 (fin f : F64 B)) ((2 - f) * f) 2.01 1e-190 := by
  unfold eccentricity2
  rw [lit_two]
  have h1 := (Rel.exact (B := B) isF64_two (by norm_num)).sub (Rel.exact (B := B) hf f0) (c := 2) (c' := 1) (m := 1) (b := 2) (k := 1.001)
    (d := 1e-199) (by linarith) (by linarith) (by linarith) (by norm_num) (by linarith) le_rfl le_rfl (by norm_num) (by norm_num) le_rfl le_rfl
    (by norm_num) (by norm_num) (by norm_num) (by norm_num)
  exact h1.mul (Rel.exact hf f0) (bx := 2) (bY := 0.01) (b := 1) (by linarith) f1 (by nlinarith) (by norm_num) (by norm_num) le_rfl (by norm_num)
    (by norm_num) le_rfl (by norm_num) (by norm_num) (by norm_num)

/-- absorb a tiny absolute error -/
theorem Rel.absorb {x k d m k' : ℝ} (h : Rel X x k d) (hm : m ≤ x) (hd : d ≤ 0.001 * uu * m) (hk : k + 0.001 ≤ k') : Rel X x k' 0 := by
  obtain ⟨v, h1, h2, h3, h4, h5⟩ := h
  refine ⟨v, h1, h2, h3, h4, h5.trans ?_⟩
  have hu := uu_pos
  have a1 : 0.001 * uu * m ≤ 0.001 * uu * x := mul_le_mul_of_nonneg_left hm (by positivity)
  have a2 : (k + 0.001) * (uu * x) ≤ k' * (uu * x) := mul_le_mul_of_nonneg_right hk (by positivity)
  linarith

/-- the ratio `k / (k + e2)` moves little with `k` -/
theorem ratio_close {k κ e2 : ℝ} (hk : 0.473 ≤ k) (hκ : 0.47 ≤ κ) (h : |κ - k| ≤ 16.6 * uu * k) (e0 : 0 ≤ e2) (e1 : e2 ≤ 0.02) :
    |κ / (κ + e2) - k / (k + e2)| ≤ 0.71 * uu * (k / (k + e2)) := by
  have hu := uu_pos
  have h1 : 0 < κ + e2 := by linarith
  have h2 : 0 < k + e2 := by linarith
  have e : κ / (κ + e2) - k / (k + e2) = e2 * (κ - k) / ((κ + e2) * (k + e2)) := by
    field_simp; ring
  rw [e, abs_div, abs_mul, abs_of_nonneg e0, abs_of_pos (by positivity : 0 < (κ + e2) * (k + e2)), div_le_iff₀ (by positivity)]
  have e' : 0.71 * uu * (k / (k + e2)) * ((κ + e2) * (k + e2)) = 0.71 * uu * k * (κ + e2) := by field_simp
  rw [e']
  have a1 : e2 * |κ - k| ≤ 0.02 * (16.6 * uu * k) := mul_le_mul e1 h (abs_nonneg _) (by norm_num)
  have a2 : 0.71 * uu * k * 0.47 ≤ 0.71 * uu * k * (κ + e2) := mul_le_mul_of_nonneg_left (by linarith) (by positivity)
  have a3 : 0 ≤ uu * k := by positivity
  norm_num at a1 a2 ⊢
  linarith

/-- the computed `k + e_2` -/
theorem rel_ke {κ e2 : ℝ} {E : F64 B} (hE : Rel E e2 2.01 1e-190) (e1 : e2 ≤ 0.02) (fκ : IsF64 κ) (hκ : 0.47 ≤ κ) (hκ' : κ ≤ 1201) :
    App (fin κ + E) (κ + e2) (0.0404 * uu + uu * (κ + e2)) ∧ Rel (fin κ + E) (κ + e2) 1.1 0 := by
  have hu := uu_pos
  have e0 := hE.nonneg
  have aE : App E e2 (0.0403 * uu) := hE.app e1 (by norm_num) (by unfold uu; norm_num)
  have h := (App.exact (B := B) fκ).add aE (b := κ + e2) (e := 0.0404 * uu + uu * (κ + e2)) (by rw [abs_of_nonneg (by linarith)])
    (by have : 0.0403 * uu + uu * (0.0403 * uu) + 1 / 10 ^ 60 ≤ 0.0404 * uu := by unfold uu; norm_num
        linarith)
    (by have : 0.0403 * uu ≤ 1 := by unfold uu; norm_num
        linarith)
  refine ⟨h, h.rel (by linarith) ?_ ?_⟩
  · have : uu * (κ + e2) ≤ 0.1 * (κ + e2) := mul_le_mul_of_nonneg_right (by unfold uu; norm_num) (by linarith)
    have : 0.0404 * uu ≤ 0.1 := by unfold uu; norm_num
    linarith
  · have : uu * 0.47 ≤ uu * (κ + e2) := mul_le_mul_of_nonneg_left (by linarith) hu.le
    norm_num at this ⊢
    linarith

/-- the computed ratio of height and `T` -/
theorem app_height_ratio {k κ e2 : ℝ} {E : F64 B} (hE : Rel E e2 2.01 1e-190) (e1 : e2 ≤ 0.02) (fκ : IsF64 κ) (hκ : 0.47 ≤ κ)
    (hκ' : κ ≤ 1201) (hk : 0.473 ≤ k) (h : |κ - k| ≤ 16.6 * uu * k) :
    |(k + e2 - 1) / k| ≤ 1.13 ∧ App ((fin κ + E - fin 1) / fin κ) ((k + e2 - 1) / k) (38.8 * uu) := by
  have hu := uu_pos
  have e0 := hE.nonneg
  have hke := (rel_ke hE e1 fκ hκ hκ').1
  have huk : uu * 0.47 ≤ uu * κ := mul_le_mul_of_nonneg_left hκ hu.le
  have huu : uu * (uu * κ) ≤ 1e-10 * (uu * κ) := mul_le_mul_of_nonneg_right (by unfold uu; norm_num) (by positivity)
  have hue : uu * (κ + e2) ≤ 1.0426 * (uu * κ) := by
    calc uu * (κ + e2) ≤ uu * (1.0426 * κ) := mul_le_mul_of_nonneg_left (by linarith) hu.le
      _ = _ := by ring
  have hke' : App (fin κ + E) (κ + e2) (1.1286 * (uu * κ)) := hke.mono (by norm_num at huk hue ⊢; linarith)
  have hN : |κ + e2 - 1| ≤ 1.13 * κ := by rw [abs_le]; constructor <;> linarith
  have hu1 : uu * κ ≤ 1 := by
    calc uu * κ ≤ uu * 1201 := mul_le_mul_of_nonneg_left hκ' hu.le
      _ ≤ 1 := by unfold uu; norm_num
  have aN : App (fin κ + E - fin 1) (κ + e2 - 1) (2.26 * (uu * κ)) := by
    refine hke'.sub (App.exact isF64_one) hN ?_ ?_
    · have k3 : (1 / 10 ^ 60 : ℝ) ≤ 0.0001 * (uu * 0.47) := by unfold uu; norm_num
      have e : uu * (1.13 * κ + (1.1286 * (uu * κ) + 0)) = 1.13 * (uu * κ) + 1.1286 * (uu * (uu * κ)) := by ring
      rw [e]
      norm_num at k3 huu huk ⊢
      linarith only [k3, huu, huk, hu]
    · norm_num at hκ' hu1 ⊢
      linarith
  have κ0 : 0 < κ := by linarith
  have hρ : |(κ + e2 - 1) / κ| ≤ 1.13 := by
    rw [abs_div, abs_of_pos κ0, div_le_iff₀ κ0]; exact hN
  have hq : (2.26 * (uu * κ) + 1.13 * 0) / (κ - 0) = 2.26 * uu := by rw [mul_zero, add_zero, sub_zero, ← mul_assoc, mul_div_assoc, div_self κ0.ne', mul_one]
  have aρ : App ((fin κ + E - fin 1) / fin κ) ((κ + e2 - 1) / κ) (3.4 * uu) :=
    aN.div (App.exact fκ) (m := κ) (by rw [abs_of_pos κ0]) κ0 hρ (by rw [hq]; unfold uu; norm_num) (by rw [hq]; unfold uu; norm_num)
  have k0 : 0 < k := by linarith
  constructor
  · rw [abs_div, abs_of_pos k0, div_le_iff₀ k0, abs_le]; constructor <;> linarith
  · refine aρ.shift (b := 35.36 * uu) ?_ (by linarith)
    have e : (κ + e2 - 1) / κ - (k + e2 - 1) / k = (1 - e2) * (κ - k) / (κ * k) := by field_simp; ring
    rw [e, abs_div, abs_mul, abs_of_nonneg (by linarith : 0 ≤ 1 - e2), abs_of_pos (by positivity : 0 < κ * k), div_le_iff₀ (by positivity)]
    have a1 : (1 - e2) * |κ - k| ≤ 1 * (16.6 * uu * k) := mul_le_mul (by linarith) h (abs_nonneg _) (by norm_num)
    have a2 : 35.36 * uu * k * 0.47 ≤ 35.36 * uu * k * κ := mul_le_mul_of_nonneg_left hκ (by positivity)
    have a3 : 0 ≤ uu * k := by positivity
    norm_num at a1 a2 ⊢
    linarith

set_option maxHeartbeats 1600000 in
/-- the steps of `_equation23` after the root `k` -/
theorem eq23_tail {e2 R2 x2 k L : ℝ} {E RR XX K : F64 B} (hE : Rel E e2 2.01 1e-190) (e1 : e2 ≤ 0.02) (hR : Rel RR R2 2.01 1e-198)
    (hX : Rel XX x2 1.002 1.1e-200) (hK : Rel K k 16.6 0) (k1 : 0.473 ≤ k) (k2 : k ≤ 1200) (hL : L ^ 2 = R2 + x2) (L1 : 0.5 ≤ L) (L2 : L ≤ 1e13)
    {T : ℝ} (hT : T = √((k * √R2 / (k + e2)) ^ 2 + x2)) :
    0.95 * L ≤ T ∧ T ≤ L ∧
    Rel (lit 1 / PyFloat.sqrt (powNat (K * PyFloat.sqrt RR / (K + E)) 2 + XX)) (1 / T) 8.9 1e-198 ∧
    Rel (lit 1 / PyFloat.sqrt (powNat (K * PyFloat.sqrt RR / (K + E)) 2 + XX) * K / (K + E)) (1 / T * k / (k + e2)) 12.76 1e-190 ∧
    App ((K + E - lit 1) / K * PyFloat.sqrt (powNat (K * PyFloat.sqrt RR / (K + E)) 2 + XX)) ((k + e2 - 1) / k * T) (49 * uu * L) := by
  have hu := uu_pos
  have e0 := hE.nonneg
  have R0 := hR.nonneg
  have x0 := hX.nonneg
  obtain ⟨κ, hκK, fκ, -, -, hκk⟩ := hK
  rw [hκK, lit_one]
  rw [add_zero] at hκk
  have hκ' := abs_le.mp hκk
  have hku : 16.6 * uu * k ≤ 1e-6 * k := mul_le_mul_of_nonneg_right (by unfold uu; norm_num) (by linarith)
  have κ1 : 0.47 ≤ κ := by norm_num at hκ' hku k1 ⊢; linarith
  have κ2 : κ ≤ 1201 := by norm_num at hκ' hku k2 ⊢; linarith
  obtain ⟨hρ, aH⟩ := app_height_ratio hE e1 fκ κ1 κ2 k1 hκk
  have rke := (rel_ke hE e1 fκ κ1 κ2).2
  have hratio := ratio_close k1 κ1 hκk e0 e1
  have rκ := Rel.exact (B := B) fκ (by linarith)
  have L0 : 0 < L := by linarith
  have hLs : L ^ 2 ≤ 1e26 := by
    have := pow_le_pow_left₀ L0.le L2 2
    norm_num at this ⊢; linarith
  have hR1 : √R2 ≤ L := Real.sqrt_le_iff.mpr ⟨L0.le, by linarith⟩
  have rR := hR.sqrt (c := 1e-99) (b := 1e13) (k := 2.01) (d := 1.1e-99) (by norm_num) (by norm_num) (by norm_num at hLs ⊢; linarith)
    (hR1.trans L2) (by norm_num) (by norm_num) (by norm_num) (by norm_num) (by norm_num) (by norm_num)
  obtain ⟨r, hr⟩ : ∃ r, r = √R2 := ⟨_, rfl⟩
  have r0 : 0 ≤ r := hr ▸ Real.sqrt_nonneg _
  have hr2 : r ^ 2 = R2 := by rw [hr, Real.sq_sqrt R0]
  rw [← hr] at rR hR1 hT
  have hκr : κ * r ≤ 2e16 := by
    calc κ * r ≤ 1201 * 1e13 := mul_le_mul κ2 (hR1.trans L2) r0 (by norm_num)
      _ ≤ _ := by norm_num
  have h1 := rκ.mul rR (bx := 1201) (bY := 1e13) (b := 2e16) (k := 3.02) (d := 1e-95) κ2 (hR1.trans L2) hκr le_rfl (by norm_num) (by norm_num) (by norm_num)
    le_rfl (by norm_num) (by norm_num) (by norm_num) (by norm_num)
  have hke0 : 0 < k + e2 := by linarith
  have hκe0 : 0 < κ + e2 := by linarith
  have g1 : κ / (κ + e2) ≤ 1 := by rw [div_le_one hκe0]; linarith
  have g2 : k / (k + e2) ≤ 1 := by rw [div_le_one hke0]; linarith
  have g3 : 0.9594 ≤ k / (k + e2) := by rw [le_div_iff₀ hke0]; norm_num at k1 e1 ⊢; linarith
  have q1 : κ * r / (κ + e2) ≤ 1e13 := by
    rw [show κ * r / (κ + e2) = κ / (κ + e2) * r by ring]
    calc κ / (κ + e2) * r ≤ 1 * r := mul_le_mul_of_nonneg_right g1 r0
      _ ≤ _ := by linarith
  have h2 := h1.div rke (m := 0.47) (b := 1e13) (k := 5.13) (d := 1e-94) (by linarith) (by norm_num) q1 (by norm_num) (by norm_num) (by norm_num) (by norm_num)
    (by norm_num) (by norm_num) (by norm_num) (by norm_num) (by norm_num)
  obtain ⟨δ, hδ⟩ : ∃ δ, δ = k * r / (k + e2) := ⟨_, rfl⟩
  rw [← hδ] at hT
  have hδ' : δ = k / (k + e2) * r := by rw [hδ]; ring
  have δ0 : 0 ≤ δ := by rw [hδ']; positivity
  have δr : δ ≤ r := by
    rw [hδ']
    calc k / (k + e2) * r ≤ 1 * r := mul_le_mul_of_nonneg_right g2 r0
      _ = _ := one_mul _
  have δr' : 0.9594 * r ≤ δ := by rw [hδ']; exact mul_le_mul_of_nonneg_right g3 r0
  have h3 := h2.shift (y := δ) (k2 := 0.71) (k := 5.85) δ0 (by
    rw [show κ * r / (κ + e2) - δ = (κ / (κ + e2) - k / (k + e2)) * r by rw [hδ']; ring, abs_mul, abs_of_nonneg r0, hδ']
    calc _ ≤ 0.71 * uu * (k / (k + e2)) * r := mul_le_mul_of_nonneg_right hratio r0
      _ = _ := by ring) (by norm_num) (by norm_num) (by norm_num) (by norm_num)
  have h4 := h3.sq (b := 1e13) (k := 12.71) (d := 1e-80) (by linarith) (by norm_num) (by norm_num) (by norm_num) (by norm_num) (by norm_num) (by norm_num)
    (by norm_num)
  have hδ2 : δ ^ 2 ≤ R2 := by rw [← hr2]; exact pow_le_pow_left₀ δ0 δr 2
  have hδ3 : 0.92 * R2 ≤ δ ^ 2 := by
    have h8 := pow_le_pow_left₀ (by positivity) δr' 2
    rw [mul_pow, hr2] at h8
    have : (0.92 : ℝ) ≤ 0.9594 ^ 2 := by norm_num
    have := mul_le_mul_of_nonneg_right this R0
    linarith
  have h5 := h4.add hX (b := 1e26) (k := 13.72) (d := 1e-79) (kk := 12.71) (by linarith) le_rfl (by norm_num) (by norm_num) (by norm_num) (by norm_num)
    (by norm_num) (by norm_num) (by norm_num) (by norm_num)
  have T1 : 0.95 * L ≤ T := by
    rw [hT]
    apply Real.le_sqrt_of_sq_le
    rw [mul_pow, hL]
    have : (0.95 : ℝ) ^ 2 ≤ 0.92 := by norm_num
    have := mul_le_mul_of_nonneg_right this (by linarith : 0 ≤ R2 + x2)
    linarith
  have T2 : T ≤ L := by
    rw [hT]
    exact Real.sqrt_le_iff.mpr ⟨L0.le, by linarith⟩
  have T0 : 0.47 ≤ T := by linarith
  have h6 := h5.sqrt (c := 1e-39) (b := 1e13) (k := 7.87) (d := 1.1e-39) (by norm_num) (by norm_num) (by norm_num at hLs ⊢; linarith) (by rw [← hT]; linarith)
    (by norm_num) (by norm_num) (by norm_num) (by norm_num) (by norm_num) (by norm_num)
  rw [← hT] at h6
  have h7 := h6.absorb (m := 0.47) (k' := 7.88) T0 (by unfold uu; norm_num) (by norm_num)
  have Ti : 1 / T ≤ 3 := by rw [div_le_iff₀ (by linarith)]; linarith
  have Ti0 : 0 ≤ 1 / T := by positivity
  have h8 := (Rel.exact (B := B) isF64_one (by norm_num)).div h7 (m := 0.47) (b := 3) (k := 8.9) (d := 1e-198) T0 (by norm_num) Ti le_rfl (by norm_num)
    (by norm_num) (by norm_num) le_rfl (by norm_num) (by norm_num) (by norm_num) (by norm_num)
  have Tk : 1 / T * κ ≤ 4000 := by
    calc 1 / T * κ ≤ 3 * 1201 := mul_le_mul Ti κ2 (by linarith) (by norm_num)
      _ ≤ _ := by norm_num
  have h9 := h8.mul rκ (bx := 3) (bY := 1201) (b := 4000) (k := 9.91) (d := 1e-194) Ti κ2 Tk (by norm_num) (by norm_num) le_rfl (by norm_num) (by norm_num) le_rfl
    (by norm_num) (by norm_num) (by norm_num)
  have Tk2 : 1 / T * κ / (κ + e2) ≤ 3 := by
    rw [show 1 / T * κ / (κ + e2) = 1 / T * (κ / (κ + e2)) by ring]
    calc 1 / T * (κ / (κ + e2)) ≤ 3 * 1 := mul_le_mul Ti g1 (by positivity) (by norm_num)
      _ = _ := by norm_num
  have h10 := h9.div rke (m := 0.47) (b := 3) (k := 12.03) (d := 1e-190) (by linarith) (by norm_num) Tk2 (by norm_num) (by norm_num) (by norm_num) (by norm_num)
    (by norm_num) (by norm_num) (by norm_num) (by norm_num) (by norm_num)
  have h11 := h10.shift (y := 1 / T * k / (k + e2)) (k2 := 0.71) (k := 12.76) (by positivity) (by
    rw [show 1 / T * κ / (κ + e2) - 1 / T * k / (k + e2) = (κ / (κ + e2) - k / (k + e2)) * (1 / T) by ring, abs_mul, abs_of_nonneg Ti0]
    calc _ ≤ 0.71 * uu * (k / (k + e2)) * (1 / T) := mul_le_mul_of_nonneg_right hratio Ti0
      _ = _ := by ring) (by norm_num) (by norm_num) (by norm_num) (by norm_num)
  refine ⟨T1, T2, h8, h11, ?_⟩
  have aT := h7.app (e := 7.88 * (uu * L)) T2 (by norm_num) (by linarith)
  have huL : uu * 0.5 ≤ uu * L := mul_le_mul_of_nonneg_left L1 hu.le
  have huuL : uu * (uu * L) ≤ 1e-10 * (uu * L) := mul_le_mul_of_nonneg_right (by unfold uu; norm_num) (by positivity)
  have huuuL : uu * (uu * (uu * L)) ≤ 1e-10 * (uu * L) := by
    have : uu * (uu * (uu * L)) ≤ 1 * (uu * (uu * L)) := mul_le_mul_of_nonneg_right (by unfold uu; norm_num) (by positivity)
    linarith
  have huL1 : uu * L ≤ 1 := by
    calc uu * L ≤ uu * 1e13 := mul_le_mul_of_nonneg_left L2 hu.le
      _ ≤ _ := by unfold uu; norm_num
  have hT' : |T| ≤ L := by rw [abs_of_nonneg (by linarith)]; exact T2
  have hb : |(k + e2 - 1) / k * T| ≤ 1.13 * L := abs_mul_le' hρ hT' le_rfl
  have e : 1.13 * (7.88 * (uu * L)) + L * (38.8 * uu) + 38.8 * uu * (7.88 * (uu * L)) = 47.7044 * (uu * L) + 305.744 * (uu * (uu * L)) := by ring
  refine aH.mul aT hρ hT' hb ?_ ?_
  · rw [e]
    have e' : uu * (1.13 * L + (47.7044 * (uu * L) + 305.744 * (uu * (uu * L)))) =
      1.13 * (uu * L) + 47.7044 * (uu * (uu * L)) + 305.744 * (uu * (uu * (uu * L))) := by ring
    rw [e']
    have k3 : (1 / 10 ^ 60 : ℝ) ≤ 0.0001 * (uu * 0.5) := by unfold uu; norm_num
    clear h1 h2 h3 h4 h5 h6 h7 h8 h9 h10 h11
    norm_num at k3 huuL huuuL huL ⊢
    linarith only [k3, huuL, huuuL, huL, hu]
  · rw [e]
    clear h1 h2 h3 h4 h5 h6 h7 h8 h9 h10 h11
    norm_num at huuL huL1 L2 ⊢
    linarith only [huuL, huL1, L2]

/-- `unit` of a computed vector near a multiple of a unit vector, error relative in each component -/
theorem unit_near' {V v m : V3 ℝ} {l : ℝ} (hV : V = l • v) (hl1 : (2 : ℝ) ^ (-499 : ℤ) ≤ l) (hl2 : l ≤ (2 : ℝ) ^ (499 : ℕ)) (hm : len m = 1) {c t : ℝ} (hc : 0 ≤ c) (hc' : c ≤ 1e5) (ht : 0 ≤ t) (ht' : t ≤ 1e-60)
    (hx : |v.x - m.x| ≤ c * uu * |m.x| + t) (hy : |v.y - m.y| ≤ c * uu * |m.y| + t) (hz : |v.z - m.z| ≤ c * uu * |m.z| + t) :
    ∃ w : V3 ℝ, unit (V.flt : V3 (F64 B)) = w.flt ∧ IsF64V w ∧
      |w.x - m.x| ≤ (2 * c + 5.06) * uu * |m.x| + 10 * t + eta ∧ |w.y - m.y| ≤ (2 * c + 5.06) * uu * |m.y| + 10 * t + eta ∧
      |w.z - m.z| ≤ (2 * c + 5.06) * uu * |m.z| + 10 * t + eta := by
  have hu := uu_pos
  have hη := eta_pos
  have hcu : c * uu ≤ 0.0001 := by
    calc c * uu ≤ 1e5 * uu := mul_le_mul_of_nonneg_right hc' hu.le
      _ ≤ _ := by unfold uu; norm_num
  have hcu0 : 0 ≤ c * uu := by positivity
  have hcc : c * uu * (c * uu) ≤ 0.0003 * uu := by
    have h1 : c * c ≤ 1e5 * 1e5 := mul_le_mul hc' hc' hc (by norm_num)
    have h2 : c * c * uu ≤ 0.0003 * 1e7 := by
      calc c * c * uu ≤ 1e5 * 1e5 * uu := mul_le_mul_of_nonneg_right h1 hu.le
        _ ≤ _ := by unfold uu; norm_num
    have h3 : c * c * uu ≤ 0.0003 := by
      calc c * c * uu ≤ 1e5 * 1e5 * uu := mul_le_mul_of_nonneg_right h1 hu.le
        _ ≤ _ := by unfold uu; norm_num
    calc c * uu * (c * uu) = c * c * uu * uu := by ring
      _ ≤ _ := mul_le_mul_of_nonneg_right h3 hu.le
  have hl := len_close_rel hcu0 ht hx hy hz
  rw [hm, mul_one] at hl
  have hl' := abs_le.mp hl
  have ht1 : t ≤ 1e-10 := ht'.trans (by norm_num)
  have l1 : 0.999 ≤ len v := by norm_num at hl' hcu ht1 ⊢; linarith
  have l2 : len v ≤ 1.001 := by norm_num at hl' hcu ht1 ⊢; linarith
  have hl0 : 0 < l := lt_of_lt_of_le (by positivity) hl1
  have hlV : len V = l * len v := by rw [hV]; exact len_smul' hl0.le v
  obtain ⟨w, hw, fw, wx, wy, wz⟩ := unit_flt (B := B) (v := V)
    (by
      rw [hlV]
      calc (2 : ℝ) ^ (-500 : ℤ) = 2 ^ (-499 : ℤ) * 2 ^ (-1 : ℤ) := by rw [← zpow_add₀ (by norm_num)]; norm_num
        _ ≤ l * len v := mul_le_mul hl1 (le_trans (by norm_num) l1) (by positivity) hl0.le)
    (by
      rw [hlV]
      calc l * len v ≤ 2 ^ (499 : ℕ) * 2 ^ (1 : ℕ) := mul_le_mul hl2 (l2.trans (by norm_num)) (by linarith) (by positivity)
        _ = 2 ^ (500 : ℕ) := by rw [← pow_add])
  have lp0 : 0 < len v := by linarith
  have eq : ∀ y : ℝ, l * y / len V = y / len v := fun y => by rw [hlV]; field_simp
  have vx : V.x = l * v.x := by rw [hV]; rfl
  have vy : V.y = l * v.y := by rw [hV]; rfl
  have vz : V.z = l * v.z := by rw [hV]; rfl
  rw [vx, eq] at wx
  rw [vy, eq] at wy
  rw [vz, eq] at wz
  have key : ∀ {x y z : ℝ}, |y - x| ≤ c * uu * |x| + t → |z - y / len v| ≤ 5.05 * uu * |y / len v| + eta → |x| ≤ 1 →
      |z - x| ≤ (2 * c + 5.06) * uu * |x| + 10 * t + eta := by
    intro x y z hyx hzy hx1
    have lp : 0 < len v := by linarith
    have x0 := abs_nonneg x
    have q : |y / len v - x| ≤ (2 * c + 0.001) * uu * |x| + 4 * t := by
      have e : y / len v - x = ((y - x) + x * (1 - len v)) / len v := by field_simp; ring
      rw [e, abs_div, abs_of_pos lp, div_le_iff₀ lp]
      have a1 := abs_add_le (y - x) (x * (1 - len v))
      have a2 : |x * (1 - len v)| ≤ |x| * (c * uu + 1.7321 * t) := by
        rw [abs_mul, abs_sub_comm]; exact mul_le_mul_of_nonneg_left hl x0
      have a3 : |x| * t ≤ t := by nlinarith
      have g : 1 - c * uu - 1.7321 * t ≤ len v := by linarith
      have g1 : ((2 * c + 0.001) * uu * |x| + 4 * t) * (1 - c * uu - 1.7321 * t) ≤ ((2 * c + 0.001) * uu * |x| + 4 * t) * len v :=
        mul_le_mul_of_nonneg_left g (by positivity)
      refine le_trans ?_ g1
      have b1 : c * uu * (c * uu) * |x| ≤ 0.0003 * uu * |x| := mul_le_mul_of_nonneg_right hcc x0
      have b2 : c * uu * (0.001 * uu * |x|) ≤ 0.0001 * (0.001 * uu * |x|) := mul_le_mul_of_nonneg_right hcu (by positivity)
      have b3 : c * uu * |x| * t ≤ 0.0001 * t := by
        have : c * uu * |x| ≤ 0.0001 * 1 := mul_le_mul hcu hx1 x0 (by norm_num)
        have := mul_le_mul_of_nonneg_right this ht
        linarith
      have b4 : c * uu * t ≤ 0.0001 * t := mul_le_mul_of_nonneg_right hcu ht
      have b5 : uu * |x| * t ≤ 0.0001 * t := by
        have : uu * |x| ≤ 0.0001 * 1 := mul_le_mul (by unfold uu; norm_num) hx1 x0 (by norm_num)
        have := mul_le_mul_of_nonneg_right this ht
        linarith
      have b6 : t * t ≤ 0.0001 * t := mul_le_mul_of_nonneg_right (ht1.trans (by norm_num)) ht
      have b7 : 0 ≤ uu * |x| := by positivity
      have e2 : ((2 * c + 0.001) * uu * |x| + 4 * t) * (1 - c * uu - 1.7321 * t) =
        2 * (c * uu * |x|) + 0.001 * (uu * |x|) - 2 * (c * uu * (c * uu) * |x|) - c * uu * (0.001 * uu * |x|) - 2 * 1.7321 * (c * uu * |x| * t)
          - 0.001 * 1.7321 * (uu * |x| * t) + 4 * t - 4 * (c * uu * t) - 4 * 1.7321 * (t * t) := by ring
      rw [e2]
      norm_num at a1 a2 a3 hyx b1 b2 b3 b4 b5 b6 ⊢
      linarith only [a1, a2, a3, hyx, b1, b2, b3, b4, b5, b6, b7, ht]
    have q2 : |y / len v| ≤ 1.0005 * |x| + 4 * t := by
      have := abs_sub_abs_le_abs_sub (y / len v) x
      have h6 : (2 * c + 0.001) * uu * |x| ≤ 0.0005 * |x| := by
        apply mul_le_mul_of_nonneg_right _ x0
        have : 0.001 * uu ≤ 0.0001 := by unfold uu; norm_num
        norm_num at hcu this ⊢; linarith
      linarith
    have q3 := abs_add_le (z - y / len v) (y / len v - x)
    rw [sub_add_sub_cancel] at q3
    have q4 : 5.05 * uu * |y / len v| ≤ 5.05 * uu * (1.0005 * |x| + 4 * t) := mul_le_mul_of_nonneg_left q2 (by positivity)
    have q5 : uu * t ≤ 0.01 * t := mul_le_mul_of_nonneg_right (by unfold uu; norm_num) ht
    have b7 : 0 ≤ uu * |x| := by positivity
    norm_num at q q4 q5 hzy ⊢
    linarith only [q, q3, q4, q5, hzy, b7, ht]
  have hmx := (abs_x_le_len m).trans hm.le
  have hmy := (abs_y_le_len m).trans hm.le
  have hmz := (abs_z_le_len m).trans hm.le
  exact ⟨w, hw, fw, key hx wx hmx, key hy wy hmy, key hz wz hmz⟩

/-- `unit` of a computed vector near a unit vector, error relative in each component -/
theorem unit_near {v m : V3 ℝ} (hm : len m = 1) {c t : ℝ} (hc : 0 ≤ c) (hc' : c ≤ 1e5) (ht : 0 ≤ t) (ht' : t ≤ 1e-60)
    (hx : |v.x - m.x| ≤ c * uu * |m.x| + t) (hy : |v.y - m.y| ≤ c * uu * |m.y| + t) (hz : |v.z - m.z| ≤ c * uu * |m.z| + t) :
    ∃ w : V3 ℝ, unit (v.flt : V3 (F64 B)) = w.flt ∧ IsF64V w ∧
      |w.x - m.x| ≤ (2 * c + 5.06) * uu * |m.x| + 10 * t + eta ∧ |w.y - m.y| ≤ (2 * c + 5.06) * uu * |m.y| + 10 * t + eta ∧
      |w.z - m.z| ≤ (2 * c + 5.06) * uu * |m.z| + 10 * t + eta :=
  unit_near' (l := 1) (by ext <;> simp)
    (by
      calc (2 : ℝ) ^ (-499 : ℤ) ≤ 2 ^ (0 : ℤ) := zpow_le_zpow_right₀ (by norm_num) (by norm_num)
        _ = 1 := by norm_num)
    (one_le_pow₀ (by norm_num)) hm hc hc' ht ht' hx hy hz

set_option maxHeartbeats 1600000 in
/-- `_equation23` in binary64 -/
theorem equation23_flt {a f : ℝ} {P : V3 ℝ} (fa : IsF64 a) (a1 : 1 ≤ a) (a2 : a ≤ 1e10) (ff : IsF64 f) (f0 : 0 ≤ f) (f1 : f ≤ 0.01)
    (hP : IsF64V P) (L1 : a / 2 ≤ len P) (L2 : len P ≤ 1000 * a) :
    ∃ k T X Y D, compute_k (XR.fin a) (XR.fin ((2 - f) * f)) (XR.fin ((1 - (2 - f) * f) / a ^ 2 * P.x ^ 2)) (XR.fin (P.y ^ 2 + P.z ^ 2)) = XR.fin k ∧
      0.473 ≤ k ∧ T = √((k * √(P.y ^ 2 + P.z ^ 2) / (k + (2 - f) * f)) ^ 2 + P.x ^ 2) ∧ 0.95 * len P ≤ T ∧ T ≤ len P ∧
      equation23 (fin a) (fin f) (P.flt : V3 (F64 B)) = (X, Y, D) ∧ Rel X (1 / T) 8.9 1e-198 ∧
      Rel Y (1 / T * k / (k + (2 - f) * f)) 12.76 1e-190 ∧ App D (-((k + (2 - f) * f - 1) / k * T)) (49 * uu * len P) := by
  have hE := rel_ecc (B := B) ff f0 f1
  have L0 : len P ≤ 1e13 := by norm_num at a2 ⊢; linarith
  obtain ⟨p1, p2, p3⟩ := hP
  have b1 := ((abs_x_le_len P).trans L0).trans (by norm_num : (1e13 : ℝ) ≤ 1e28)
  have b2 := ((abs_y_le_len P).trans L0).trans (by norm_num : (1e13 : ℝ) ≤ 1e28)
  have b3 := ((abs_z_le_len P).trans L0).trans (by norm_num : (1e13 : ℝ) ≤ 1e28)
  have rx := rel_sq_of (B := B) p1 b1
  have ry := rel_sq_of (B := B) p2 b2
  have rz := rel_sq_of (B := B) p3 b3
  have ra := (Rel.exact (B := B) fa (by linarith)).pow_two (b := 1e10) (k := 4.002) (d := 1e-199) a2 (by norm_num) le_rfl (by norm_num) le_rfl (by norm_num)
    (by norm_num) (by norm_num)
  have hLs : len P ^ 2 = P.x ^ 2 + P.y ^ 2 + P.z ^ 2 := by unfold len; rw [Real.sq_sqrt (by positivity)]
  have hL26 : len P ^ 2 ≤ 1e26 := by
    have := pow_le_pow_left₀ (len_nonneg' P) L0 2
    norm_num at this ⊢; linarith
  have x20 := sq_nonneg P.x
  have y20 := sq_nonneg P.y
  have z20 := sq_nonneg P.z
  have rR := ry.add rz (b := 1e26) (k := 2.01) (d := 1e-198) (kk := 1.002) (by linarith) le_rfl le_rfl (by norm_num) (by norm_num) (by norm_num) (by norm_num)
    (by norm_num) (by norm_num) (by norm_num)
  obtain ⟨e2, he2⟩ : ∃ e2, e2 = (2 - f) * f := ⟨_, rfl⟩
  obtain ⟨E, hEd⟩ : ∃ E, E = eccentricity2 (fin f : F64 B) := ⟨_, rfl⟩
  rw [← he2, ← hEd] at hE
  have e0 := hE.nonneg
  have e1 : e2 ≤ 0.02 := by rw [he2]; nlinarith
  have r1 := (Rel.exact (B := B) isF64_one (by norm_num)).sub hE (c := 1.03) (c' := 0.0205) (m := 0.98) (b := 1) (k := 1.05) (d := 1e-189) (by linarith)
    (by linarith) (by linarith) (by norm_num) (by linarith) le_rfl (by norm_num) (by norm_num) (by norm_num) le_rfl (by norm_num) (by norm_num)
    (by norm_num) (by norm_num) (by norm_num)
  have ha2 : 1 ≤ a ^ 2 := one_le_pow₀ a1
  have hq1 : (1 - e2) / a ^ 2 ≤ 1 := by rw [div_le_one (by linarith)]; linarith
  have hq0 : 0 ≤ (1 - e2) / a ^ 2 := div_nonneg (by linarith) (by linarith)
  have r2 := r1.div ra (m := 1) (b := 1) (k := 6.06) (d := 1e-188) ha2 (by norm_num) hq1 (by norm_num) (by norm_num) (by norm_num) (by norm_num) (by norm_num)
    (by norm_num) (by norm_num) (by norm_num) (by norm_num)
  have hqx : (1 - e2) / a ^ 2 * P.x ^ 2 ≤ 1e26 := by
    calc _ ≤ 1 * P.x ^ 2 := mul_le_mul_of_nonneg_right hq1 x20
      _ ≤ _ := by linarith
  have r3 := r2.mul rx (bx := 1) (bY := 1e26) (b := 1e26) (k := 8.08) (d := 1e-160) hq1 (by linarith) hqx (by norm_num) (by norm_num) (by norm_num)
    (by norm_num) (by norm_num) (by norm_num) (by norm_num) (by norm_num) (by norm_num)
  have a20 : 0 < a ^ 2 := by linarith
  have hg : (P.y ^ 2 + P.z ^ 2) / a ^ 2 + (1 - e2) / a ^ 2 * P.x ^ 2 = (len P ^ 2 - e2 * P.x ^ 2) / a ^ 2 := by rw [hLs]; ring
  have hex : e2 * P.x ^ 2 ≤ 0.02 * len P ^ 2 := mul_le_mul e1 (by linarith) x20 (by norm_num)
  have hLa : a ^ 2 / 4 ≤ len P ^ 2 := by
    have := pow_le_pow_left₀ (by linarith) L1 2
    linarith
  have hLb : len P ^ 2 ≤ 1e6 * a ^ 2 := by
    have := pow_le_pow_left₀ (len_nonneg' P) L2 2
    norm_num at this ⊢; linarith
  obtain ⟨k, hk, k1, k2, rk⟩ := rel_compute_k fa a1 a2 hE e1 r3 rR
    (by rw [hg, le_div_iff₀ a20]; norm_num at hex ⊢; linarith)
    (by rw [hg, div_le_iff₀ a20]
        have : 0 ≤ e2 * P.x ^ 2 := by positivity
        linarith)
  obtain ⟨T, hT⟩ : ∃ T, T = √((k * √(P.y ^ 2 + P.z ^ 2) / (k + e2)) ^ 2 + P.x ^ 2) := ⟨_, rfl⟩
  obtain ⟨T1, T2, hX, hY, hD⟩ := eq23_tail hE e1 rR rx rk k1 k2 (L := len P) (by rw [hLs]; ring) (by linarith) L0 hT
  rw [← he2]
  refine ⟨k, T, _, _, _, hk, k1, hT, T1, T2, ?_, hX, hY, hD.neg⟩
  unfold equation23
  dsimp only [V3.flt]
  rw [← hEd, lit_one]

set_option maxHeartbeats 1600000 in
/-- `p_EB_E2n_EB_E` in binary64, next to the exact values -/
theorem p2n_flt {a f : ℝ} {p : V3 ℝ} {R : M3 ℝ} (hR : IsAxes R) (fa : IsF64 a) (a1 : 1 ≤ a) (a2 : a ≤ 1e10) (ff : IsF64 f) (f0 : 0 ≤ f)
    (f1 : f ≤ 0.01) (hp : IsF64V p) (L1 : a / 2 ≤ len p) (L2 : len p ≤ 1000 * a) :
    ∃ (m w : V3 ℝ) (d D : ℝ), p_EB_E2n_EB_E p.fin (XR.fin a) (XR.fin f) R.fin = (m.fin, XR.fin d) ∧ UnitVec m ∧
      p_EB_E2n_EB_E (p.flt : V3 (F64 B)) (fin a) (fin f) R.flt = (w.flt, fin D) ∧ IsF64V w ∧ IsF64 D ∧
      (|w.x - m.x| ≤ 32.7 * uu * |m.x| + 1e-170 ∧ |w.y - m.y| ≤ 32.7 * uu * |m.y| + 1e-170 ∧ |w.z - m.z| ≤ 32.7 * uu * |m.z| + 1e-170) ∧
      |D - d| ≤ 49 * uu * len p := by
  have hu := uu_pos
  have L0 : len p ≤ 1e13 := by norm_num at a2 ⊢; linarith
  obtain ⟨hm1, hm2⟩ := mulVec_axes (B := B) hR (fin64V_of_le hp (L0.trans (by norm_num)))
  obtain ⟨P, hPd⟩ : ∃ P, P = app R p := ⟨_, rfl⟩
  have hlP : len P = len p := by rw [hPd, len_app hR.rot]
  rw [← hPd] at hm1 hm2
  have fP : IsF64V P := ⟨hm2.1.1, hm2.2.1.1, hm2.2.2.1⟩
  obtain ⟨k, T, X, Y, D, hk, k1, hT, T1, T2, h23, rX, rY, aD⟩ := equation23_flt (B := B) fa a1 a2 ff f0 f1 fP (by rw [hlP]; exact L1) (by rw [hlP]; exact L2)
  have hl0 : 0 < len p := by linarith
  have hp0 : p ≠ 0 := by rintro rfl; unfold len at hl0; simp at hl0
  have T0 : 0 < T := by rw [hlP] at T1; linarith
  obtain ⟨m, T', hex, mu, hT', mx, my, mz⟩ := p2n_of_k p hR.rot (by linarith : 0 < a) f0 (by norm_num at f1 ⊢; linarith : f < 1) hp0 (by rw [← hPd]; exact hk)
    (by linarith)
  rw [← hPd] at mx my mz
  obtain ⟨e2, he2⟩ : ∃ e2, e2 = (2 - f) * f := ⟨_, rfl⟩
  rw [← he2] at hk hT rY aD hex my mz
  have e0 : 0 ≤ e2 := by rw [he2]; nlinarith
  have hke : 0 < k + e2 := by linarith
  have hk0 : 0 < k := by linarith
  have hTT : T' = T := by
    have h1 : P.y ^ 2 + P.z ^ 2 = (T' * (k + e2) / k) ^ 2 * (m.y ^ 2 + m.z ^ 2) := by rw [my, mz]; ring
    have h2 : T ^ 2 = T' ^ 2 := by
      rw [hT, Real.sq_sqrt (by positivity), div_pow, mul_pow, Real.sq_sqrt (by positivity), h1, mx]
      unfold UnitVec at mu
      have : m.x ^ 2 = 1 - m.y ^ 2 - m.z ^ 2 := by linarith
      rw [mul_pow T' m.x, this]; field_simp; ring
    rcases sq_eq_sq_iff_eq_or_eq_neg.mp h2 with h | h
    · exact h.symm
    · linarith
  rw [hTT] at hex mx my mz
  have hx' : 1 / T * P.x = m.x := by rw [mx]; field_simp
  have hy' : 1 / T * k / (k + e2) * P.y = m.y := by rw [my]; field_simp
  have hz' : 1 / T * k / (k + e2) * P.z = m.z := by rw [mz]; field_simp
  have b1 := (abs_x_le_len P).trans (hlP.le.trans L0)
  have b2 := (abs_y_le_len P).trans (hlP.le.trans L0)
  have b3 := (abs_z_le_len P).trans (hlP.le.trans L0)
  have ml : len m = 1 := mu.len
  have m1 := (abs_x_le_len m).trans ml.le
  have m2 := (abs_y_le_len m).trans ml.le
  have m3 := (abs_z_le_len m).trans ml.le
  have cX := rX.smul fP.1 (by norm_num) (by norm_num) (by norm_num) (e := 13.8 * uu * |m.x| + 1e-172) b1
    (by rw [hx']
        have : 0 ≤ uu * |m.x| := by positivity
        have h7 : (1.01 * 1e-198 * 1e13 + 1e-200 : ℝ) ≤ 1e-172 := by norm_num
        obtain ⟨t, ht⟩ : ∃ t : ℝ, t = 1e-172 := ⟨_, rfl⟩
        rw [← ht] at h7 ⊢
        rw [show ((8.9 : ℝ) + 1.001) * uu * |m.x| = 9.901 * (uu * |m.x|) by ring, add_assoc, mul_assoc]
        linarith) (by rw [hx']; linarith [(by norm_num : (1 : ℝ) ≤ 10 ^ 50)]) (by norm_num)
  have cc : ∀ {q t : ℝ}, |q| ≤ 1e13 → IsF64 q → 1 / T * k / (k + e2) * q = t → |t| ≤ 1 → App (Y * fin q) t (13.8 * uu * |t| + 1e-172) := by
    intro q t hq fq hqt ht1
    have := rY.smul fq (by norm_num) (by norm_num) (by norm_num) (e := 13.8 * uu * |t| + 1e-172) hq
      (by rw [hqt]
          have : 0 ≤ uu * |t| := by positivity
          have h7 : (1.01 * 1e-190 * 1e13 + 1e-200 : ℝ) ≤ 1e-172 := by norm_num
          obtain ⟨s, hs⟩ : ∃ s : ℝ, s = 1e-172 := ⟨_, rfl⟩
          rw [← hs] at h7 ⊢
          rw [show ((12.76 : ℝ) + 1.001) * uu * |t| = 13.761 * (uu * |t|) by ring, add_assoc, mul_assoc]
          linarith) (by rw [hqt]; linarith [(by norm_num : (1 : ℝ) ≤ 10 ^ 50)]) (by norm_num)
    rwa [hqt] at this
  have cY := cc b2 fP.2.1 hy' m2
  have cZ := cc b3 fP.2.2 hz' m3
  rw [hx'] at cX
  obtain ⟨x, hx, fx, ex⟩ := cX
  obtain ⟨y, hy, fy, ey⟩ := cY
  obtain ⟨z, hz, fz, ez⟩ := cZ
  obtain ⟨v, hv⟩ : ∃ v : V3 ℝ, v = ⟨x, y, z⟩ := ⟨_, rfl⟩
  have fv : Fin64V v := by
    have g : ∀ {s t : ℝ}, IsF64 s → |t| ≤ 1 → |s - t| ≤ 13.8 * uu * |t| + 1e-172 → Fin64 s := by
      intro s t fs ht h
      refine fin64_of_le fs ?_
      have h1 := abs_sub_abs_le_abs_sub s t
      have h2 : 13.8 * uu * |t| ≤ 1 * |t| := mul_le_mul_of_nonneg_right (by unfold uu; norm_num) (abs_nonneg _)
      have h3 : (1e-172 : ℝ) ≤ 1 := by norm_num
      have h4 : (3 : ℝ) ≤ 10 ^ 60 := by norm_num
      clear ex ey ez cc rX rY
      linarith
    rw [hv]; exact ⟨g fx m1 ex, g fy m2 ey, g fz m3 ez⟩
  obtain ⟨ht1, ht2⟩ := mulVec_tr_axes (B := B) hR fv
  have hrel : ∀ {ε t : ℝ} {a b : V3 ℝ}, |b.x - a.x| ≤ ε * |a.x| + t → |b.y - a.y| ≤ ε * |a.y| + t → |b.z - a.z| ≤ ε * |a.z| + t →
      |(app (transp R) b).x - (app (transp R) a).x| ≤ ε * |(app (transp R) a).x| + t ∧
      |(app (transp R) b).y - (app (transp R) a).y| ≤ ε * |(app (transp R) a).y| + t ∧
      |(app (transp R) b).z - (app (transp R) a).z| ≤ ε * |(app (transp R) a).z| + t := by
    intro ε t a b h1 h2 h3
    rcases hR with rfl | rfl <;> simp only [app, transp, Re, one, dot, col0, col1, col2] <;>
      simp only [zero_mul, one_mul, neg_mul, add_zero, zero_add]
    · refine ⟨?_, h2, h1⟩
      rwa [show -b.z - -a.z = -(b.z - a.z) by ring, abs_neg, abs_neg]
    · exact ⟨h1, h2, h3⟩
  obtain ⟨v1, v2, v3⟩ := hrel (a := m) (b := v) (by rw [hv]; exact ex) (by rw [hv]; exact ey) (by rw [hv]; exact ez)
  obtain ⟨w, hw, fw, w1, w2, w3⟩ := unit_near (B := B) (by rw [len_app hR.rot.transpose, ml]) (by norm_num) (by norm_num) (by norm_num) (by norm_num)
    v1 v2 v3
  obtain ⟨D', hD', fD, eD⟩ := aD
  refine ⟨_, w, _, D', hex, unitVec_app hR.rot.transpose mu, ?_, fw, fD, ?_, ?_⟩
  · unfold p_EB_E2n_EB_E
    rw [hm1]
    dsimp only
    rw [h23]
    dsimp only [V3.flt]
    rw [hx, hy, hz, hD']
    refine Prod.ext ?_ rfl
    refine Eq.trans ?_ hw
    rw [← ht1, hv]
    rfl
  · have h7 : (10 * 1e-172 + 1e-200 : ℝ) ≤ 1e-170 := by norm_num
    have h8 := eta_tiny
    rw [show (1 : ℝ) / 10 ^ 200 = 1e-200 by norm_num] at h8
    have fin' : ∀ {u v : ℝ}, |u - v| ≤ (2 * 13.8 + 5.06) * uu * |v| + 10 * 1e-172 + eta → |u - v| ≤ 32.7 * uu * |v| + 1e-170 := by
      intro u v h
      have : (2 * 13.8 + 5.06) * uu * |v| ≤ 32.7 * uu * |v| := mul_le_mul_of_nonneg_right (mul_le_mul_of_nonneg_right (by norm_num) hu.le) (abs_nonneg _)
      linarith only [h, this, h7, h8]
    exact ⟨fin' w1, fin' w2, fin' w3⟩
  · rw [hlP] at eD; exact eD

end

end Nv
