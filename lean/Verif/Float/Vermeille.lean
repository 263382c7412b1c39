import Verif.Float.Root
import Verif.Lemmas.Position

/-!
# The closed form of Vermeille in binary64

Positions between half and a thousand semi-axes from the centre, flattenings between 0 and 0.01.
-/

namespace Nv
open Spec F64


section
variable {B : Binary64}

theorem isF64_six : IsF64 6 := by simpa using isF64_int (n := 6) (by norm_num)
theorem isF64_four : IsF64 4 := by simpa using isF64_int (n := 4) (by norm_num)
theorem lit_six : (lit 6 : F64 B) = F64.fin 6 := by simpa using lit_int (B := B) (n := 6) (by norm_num)
theorem lit_four : (lit 4 : F64 B) = F64.fin 4 := by simpa using lit_int (B := B) (n := 4) (by norm_num)

/-- the computed `s` and `r` of the closed form -/
theorem rel_rs {a e2 q Y2 : ℝ} {E Q Y : F64 B} (fa : IsF64 a) (a1 : 1 ≤ a) (a2 : a ≤ 1e10)
    (hE : Rel E e2 2.01 1e-190) (e0 : 0 ≤ e2) (e1 : e2 ≤ 0.02) (hQ : Rel Q q 8.08 1e-160) (hY : Rel Y Y2 2.01 1e-198)
    {p r s : ℝ} (hp : p = Y2 / a ^ 2) (hg1 : 0.245 ≤ p + q) (hg2 : p + q ≤ 1e6) (hr : r = (p + q - e2 ^ 2) / 6)
    (hs : s = e2 ^ 2 * p * q / (4 * r ^ 3)) :
    0.0407 ≤ r ∧ r ≤ 2e5 ∧ p + q ≤ 6.02 * r ∧ 0 ≤ s ∧ s ≤ 0.023 ∧ Rel (PyFloat.powi E 2) (e2 ^ 2) 8.03 1e-189 ∧
    Rel ((Y / PyFloat.powi (F64.fin a) 2 + Q - PyFloat.powi E 2) / lit 6) r 11.17 1e-157 ∧
    Rel (PyFloat.powi E 2 * (Y / PyFloat.powi (F64.fin a) 2) * Q /
      (lit 4 * powNat ((Y / PyFloat.powi (F64.fin a) 2 + Q - PyFloat.powi E 2) / lit 6) 3)) s 64.9 1e-150 := by
  have q0 := hQ.nonneg
  have Y0 := hY.nonneg
  have a0 : 0 < a := by linarith
  have aa1 : 1 ≤ a ^ 2 := by nlinarith
  have p0 : 0 ≤ p := by rw [hp]; positivity
  have e4 : e2 ^ 2 ≤ 4e-4 := by nlinarith
  have e40 : 0 ≤ e2 ^ 2 := sq_nonneg _
  have r1 : 0.0407 ≤ r := by rw [hr]; linarith
  have r2 : r ≤ 2e5 := by rw [hr]; linarith
  have hgr : p + q ≤ 6.02 * r := by rw [hr]; linarith
  have r0 : 0 < r := by linarith
  have hA : Rel (PyFloat.powi (F64.fin a : F64 B) 2) (a ^ 2) 4.003 1e-199 :=
    (Rel.exact fa a0.le).pow_two (b := 1e10) a2 (by norm_num) le_rfl (by norm_num) le_rfl (by norm_num) (by norm_num) (by norm_num)
  have hP : Rel (Y / PyFloat.powi (F64.fin a : F64 B) 2) p 7.03 1e-197 := by
    rw [hp]
    exact hY.div hA aa1 (by norm_num) (b := 1e6) (by rw [← hp]; linarith) (by norm_num) (by norm_num) (by norm_num) (by norm_num)
      (by norm_num) (by norm_num) (by norm_num) (by norm_num) (by norm_num)
  have hE2 : Rel (PyFloat.powi E 2) (e2 ^ 2) 8.03 1e-189 :=
    hE.pow_two (b := 0.02) e1 (by norm_num) (by norm_num) (by norm_num) (by norm_num) (by norm_num) (by norm_num) (by norm_num)
  have hPQ := hP.add hQ (b := 1e6) (k := 9.1) (d := 1e-159) (kk := 8.08) hg2 (by norm_num) (by norm_num) (by norm_num) (by norm_num)
    (by norm_num) (by norm_num) (by norm_num) (by norm_num) (by norm_num)
  have hD := hPQ.sub hE2 (c := 1.002) (c' := 0.002) (m := 0.24) (b := 1e6) (k := 10.15) (d := 1e-158) (by linarith) (by linarith)
    (by linarith) (by norm_num) (by linarith) (by norm_num) (by norm_num) (by norm_num) (by norm_num) (by norm_num) (by norm_num)
    (by norm_num) (by norm_num) (by norm_num) (by norm_num)
  have hR : Rel ((Y / PyFloat.powi (F64.fin a) 2 + Q - PyFloat.powi E 2) / lit 6) r 11.17 1e-157 := by
    rw [hr, lit_six]
    exact hD.div (Rel.exact isF64_six (by norm_num)) (m := 6) le_rfl (by norm_num) (b := 2e5) (by rw [← hr]; exact r2) (by norm_num)
      (by norm_num) le_rfl (by norm_num) (by norm_num) (by norm_num) (by norm_num) (by norm_num) (by norm_num)
  have s0 : 0 ≤ s := by rw [hs]; positivity
  have hpq : p * q ≤ 9.1 * r ^ 2 := by
    have h1 : p * q ≤ (p + q) ^ 2 / 4 := by nlinarith [sq_nonneg (p - q)]
    have h2 : (p + q) ^ 2 ≤ (6.02 * r) ^ 2 := pow_le_pow_left₀ (by linarith) hgr 2
    nlinarith
  have s1 : s ≤ 0.023 := by
    rw [hs, div_le_iff₀ (by positivity)]
    have h1 : e2 ^ 2 * (p * q) ≤ 4e-4 * (9.1 * r ^ 2) := mul_le_mul e4 hpq (by positivity) (by norm_num)
    have h2 : 0.0407 * r ^ 2 ≤ r * r ^ 2 := mul_le_mul_of_nonneg_right r1 (by positivity)
    have h3 : (0 : ℝ) ≤ r ^ 2 := by positivity
    rw [mul_assoc]
    calc e2 ^ 2 * (p * q) ≤ 4e-4 * (9.1 * r ^ 2) := h1
      _ ≤ 0.023 * (4 * (r * r ^ 2)) := by linarith
      _ = _ := by ring
  refine ⟨r1, r2, hgr, s0, s1, hE2, hR, ?_⟩
  have hp6 : p ≤ 1e6 := by linarith
  have hq6 : q ≤ 1e6 := by linarith
  have b1 : e2 ^ 2 * p ≤ 1e3 := by
    calc e2 ^ 2 * p ≤ 4e-4 * 1e6 := mul_le_mul e4 hp6 p0 (by norm_num)
      _ ≤ _ := by norm_num
  have h1 := hE2.mul hP (bx := 1) (bY := 1e6) (b := 1e3) (k := 16.07) (d := 1e-182) (by linarith) hp6 b1 (by norm_num) (by norm_num)
    (by norm_num) (by norm_num) (by norm_num) (by norm_num) (by norm_num) (by norm_num) (by norm_num)
  have h2 := h1.mul hQ (bx := 1e3) (bY := 1e6) (b := 1e9) (k := 25.16) (d := 1e-156) b1 hq6 (by
      calc e2 ^ 2 * p * q ≤ 1e3 * 1e6 := mul_le_mul b1 hq6 q0 (by norm_num)
        _ ≤ _ := by norm_num) (by norm_num) (by norm_num)
    (by norm_num) (by norm_num) (by norm_num) (by norm_num) (by norm_num) (by norm_num) (by norm_num)
  -- r³
  have r22 : r * r ≤ 4e10 := by nlinarith
  have r33 : r * r * r ≤ 8e15 := by
    calc r * r * r ≤ 4e10 * 2e5 := mul_le_mul r22 r2 r0.le (by norm_num)
      _ ≤ _ := by norm_num
  have hRRR := hR.pow_three (b := 2e5) (k := 37.52) (d := 1e-144) r2 (by norm_num) (by norm_num) (by norm_num) (by norm_num) (by norm_num) (by norm_num)
    (by norm_num) (by norm_num)
  rw [lit_four]
  have hr3 : r ^ 3 = r * r * r := by ring
  rw [hr3] at hRRR
  have m3 : 6.7e-5 ≤ r * r * r := by
    have : (0.0407 : ℝ) * 0.0407 ≤ r * r := mul_le_mul r1 r1 (by norm_num) r0.le
    calc (6.7e-5 : ℝ) ≤ 0.0407 * 0.0407 * 0.0407 := by norm_num
      _ ≤ _ := mul_le_mul this r1 (by norm_num) (by positivity)
  have h4 := (Rel.exact (B := B) isF64_four (by norm_num)).mul hRRR (bx := 4) (bY := 8e15) (b := 4e16) (k := 38.53) (d := 1e-143) le_rfl r33
    (by linarith) (by norm_num) (by norm_num)
    (by norm_num) (by norm_num) (by norm_num) (by norm_num) (by norm_num) (by norm_num) (by norm_num)
  rw [hs, hr3]
  refine h2.div h4 (m := 2.6e-4) (b := 1) (by linarith) (by norm_num) ?_ (by norm_num) (by norm_num) (by norm_num) (by norm_num)
    (by norm_num) (by norm_num) (by norm_num) (by norm_num) (by norm_num)
  rw [← hr3, ← hs]; linarith

/-- the cube root of an approximate number -/
theorem App.cbrt {C : F64 B} {c ec e : ℝ} (h : App C c ec) (c1 : 1 ≤ c) (c2 : c ≤ 1.25) (hec : ec ≤ 1e-3) (hv : ∀ v, C = F64.fin v → 1 ≤ v)
    (he : ec / 3 + 3 * uu ≤ e) : App (nthroot C 3) (c ^ ((1 : ℝ) / 3)) e := by
  obtain ⟨v, hC, fv, h1⟩ := h
  have v1 := hv v hC
  have v2 : v ≤ 1.3 := by have := (abs_le.mp h1).2; norm_num at hec c2 ⊢; linarith
  have h3 := app_cbrt (B := B) fv v1 v2
  rw [hC]
  refine h3.shift (b := ec / 3) ?_ (by linarith)
  have cube : ∀ z : ℝ, 1 ≤ z → (z ^ ((1 : ℝ) / 3)) ^ 3 = z ∧ 1 ≤ z ^ ((1 : ℝ) / 3) := fun z hz =>
    ⟨by rw [← Real.rpow_natCast, ← Real.rpow_mul (by linarith)]; norm_num, Real.one_le_rpow hz (by norm_num)⟩
  obtain ⟨x1, x2⟩ := cube v v1
  obtain ⟨y1, y2⟩ := cube c c1
  obtain ⟨x, hx⟩ : ∃ x, x = v ^ ((1 : ℝ) / 3) := ⟨_, rfl⟩
  obtain ⟨y, hy⟩ : ∃ y, y = c ^ ((1 : ℝ) / 3) := ⟨_, rfl⟩
  rw [← hx] at x1 x2 ⊢; rw [← hy] at y1 y2 ⊢
  rw [← x1, ← y1, show x ^ 3 - y ^ 3 = (x - y) * (x ^ 2 + x * y + y ^ 2) by ring, abs_mul,
    abs_of_pos (by positivity : 0 < x ^ 2 + x * y + y ^ 2)] at h1
  have : 3 ≤ x ^ 2 + x * y + y ^ 2 := by nlinarith
  have := mul_le_mul_of_nonneg_left this (abs_nonneg (x - y))
  linarith

/-- the factor `1 + t + 1/t` -/
theorem rel_t {s σ c t : ℝ} {S : F64 B} (s0 : 0 ≤ s) (s1 : s ≤ 0.023) (hS : Rel S s 64.9 1e-150) (hσ : σ = √(s * (2 + s)))
    (hc : c = 1 + s + σ) (ht : t = c ^ ((1 : ℝ) / 3)) :
    1 ≤ t ∧ t ≤ 1.1 ∧
    Rel (lit 1 + nthroot (lit 1 + S + PyFloat.sqrt (S * (lit 2 + S))) 3 +
      lit 1 / nthroot (lit 1 + S + PyFloat.sqrt (S * (lit 2 + S))) 3) (1 + t + 1 / t) 6.59 0 := by
  have hu := uu_pos
  rw [lit_one, lit_two]
  have aS : App S s (1.5 * uu) := hS.app s1 (by norm_num) (by unfold uu; norm_num)
  have h2S : App (F64.fin 2 + S) (2 + s) (3.53 * uu) :=
    (App.of_f64 isF64_two).add aS (b := 2.023) (by rw [abs_of_nonneg (by linarith)]; linarith) (by unfold uu; norm_num)
      (by unfold uu; norm_num)
  have r2S : Rel (F64.fin 2 + S) (2 + s) 1.78 0 := h2S.rel (by linarith) (by unfold uu; norm_num at s1 ⊢; linarith) (by nlinarith)
  have hb : s * (2 + s) ≤ 0.0466 := by
    calc s * (2 + s) ≤ 0.023 * 2.023 := mul_le_mul s1 (by linarith) (by linarith) (by norm_num)
      _ ≤ _ := by norm_num
  have hP := hS.mul r2S (bx := 0.023) (bY := 2.023) (b := 0.0466) (k := 67.7) (d := 1e-149) s1 (by linarith) hb (by norm_num)
    (by norm_num) (by norm_num) (by norm_num) (by norm_num) (by norm_num) (by norm_num) (by norm_num) (by norm_num)
  have hσ1 : σ ≤ 0.216 := by
    rw [hσ]
    apply Real.sqrt_le_iff.mpr ⟨by norm_num, hb.trans (by norm_num)⟩
  have σ0 : 0 ≤ σ := hσ ▸ Real.sqrt_nonneg _
  have hσr : Rel (PyFloat.sqrt (S * (F64.fin 2 + S))) σ 34.9 1e-70 := by
    rw [hσ]
    exact hP.sqrt (c := 1e-74) (b := 1) (by norm_num) (by norm_num) (by norm_num at hb ⊢; linarith) (by rw [← hσ]; linarith) (by norm_num)
      (by norm_num) (by norm_num) (by norm_num) (by norm_num) (by norm_num)
  have aσ : App (PyFloat.sqrt (S * (F64.fin 2 + S))) σ (7.55 * uu) := hσr.app hσ1 (by norm_num) (by unfold uu; norm_num)
  have h1S : App (F64.fin 1 + S) (1 + s) (2.53 * uu) :=
    (App.of_f64 isF64_one).add aS (b := 1.023) (by rw [abs_of_nonneg (by linarith)]; linarith) (by unfold uu; norm_num)
      (by unfold uu; norm_num)
  have aC : App (F64.fin 1 + S + PyFloat.sqrt (S * (F64.fin 2 + S))) c (11.34 * uu) := by
    rw [hc]
    exact h1S.add aσ (b := 1.24) (by rw [abs_of_nonneg (by linarith)]; linarith) (by unfold uu; norm_num) (by unfold uu; norm_num)
  have c1 : 1 ≤ c := by rw [hc]; linarith
  have c2 : c ≤ 1.25 := by rw [hc]; linarith
  have hC1 : ∀ v, F64.fin 1 + S + PyFloat.sqrt (S * (F64.fin 2 + S)) = F64.fin v → 1 ≤ v := by
    intro v hv
    obtain ⟨z, hz, _, _, z0, hz1⟩ := hσr
    obtain ⟨y, hy, _, _, y0, hy1⟩ := hS
    have y2 : y ≤ 1 := by
      have := (abs_le.mp hy1).2
      have : 64.9 * uu * s ≤ 64.9 * uu * 0.023 := mul_le_mul_of_nonneg_left s1 (by positivity)
      have : 64.9 * uu * 0.023 + 1e-150 ≤ 0.1 := by unfold uu; norm_num
      linarith
    have z2 : z ≤ 1 := by
      have := (abs_le.mp hz1).2
      have : 34.9 * uu * σ ≤ 34.9 * uu * 0.216 := mul_le_mul_of_nonneg_left hσ1 (by positivity)
      have : 34.9 * uu * 0.216 + 1e-70 ≤ 0.1 := by unfold uu; norm_num
      linarith
    rw [hz, hy, fin_add (by rw [abs_of_nonneg (by linarith)]; norm_num; linarith)] at hv
    have g1 : 1 ≤ B.fl (1 + y) := B.rounds.ge isF64_one (by linarith)
    have g2 : B.fl (1 + y) ≤ 2 := B.rounds.le isF64_two (by linarith)
    rw [fin_add (by rw [abs_of_nonneg (by linarith)]; norm_num; linarith), fin_inj] at hv
    rw [← hv]
    exact B.rounds.ge isF64_one (by linarith)
  have aT := aC.cbrt (e := 6.79 * uu) c1 c2 (by unfold uu; norm_num) hC1 (by linarith)
  rw [← ht] at aT
  have t1 : 1 ≤ t := by rw [ht]; exact Real.one_le_rpow c1 (by norm_num)
  have t2 : t ≤ 1.1 := by
    rw [ht]
    calc c ^ ((1 : ℝ) / 3) ≤ (1.1 ^ 3 : ℝ) ^ ((1 : ℝ) / 3) := Real.rpow_le_rpow (by linarith) (by norm_num; linarith) (by norm_num)
      _ = 1.1 := by rw [← Real.rpow_natCast, ← Real.rpow_mul (by norm_num)]; norm_num
  refine ⟨t1, t2, ?_⟩
  have t0 : 0 < t := by linarith
  have h1t := (App.of_f64 (B := B) isF64_one).add aT (b := 2.1) (e := 8.9 * uu) (by rw [abs_of_nonneg (by linarith)]; linarith)
    (by unfold uu; norm_num) (by unfold uu; norm_num)
  have ht1 : 1 / t ≤ 1 := by rw [div_le_one t0]; exact t1
  have hti := (App.of_f64 (B := B) isF64_one).div aT (m := 1) (b := 1) (e := 7.81 * uu) (by rw [abs_of_pos t0]; exact t1)
    (by unfold uu; norm_num) (by rw [abs_of_pos (by positivity)]; exact ht1) (by unfold uu; norm_num) (by unfold uu; norm_num)
  have ht0 : 0 < 1 / t := by positivity
  have hsum3 : 3 ≤ 1 + t + 1 / t := by
    have : 0 ≤ (t - 1) ^ 2 / t := by positivity
    have e : (t - 1) ^ 2 / t = t - 2 + 1 / t := by field_simp; ring
    linarith
  have hsum4 : 1 + t + 1 / t ≤ 3.01 := by
    have h3 : (t - 1) ^ 2 / t ≤ 0.01 := by
      rw [div_le_iff₀ t0]; nlinarith
    have e : (t - 1) ^ 2 / t = t - 2 + 1 / t := by field_simp; ring
    linarith
  have hsum := h1t.add hti (b := 3.01) (e := 19.75 * uu) (by rw [abs_of_nonneg (by linarith)]; linarith) (by unfold uu; norm_num)
    (by unfold uu; norm_num)
  have h5 : 19.75 * uu ≤ 1 := by unfold uu; norm_num
  exact hsum.rel (by linarith) (by linarith) (by nlinarith)

set_option maxHeartbeats 1600000 in
/-- the last steps: from `u`, `v` to `k` -/
theorem rel_k_of_uv {e2 q u v w : ℝ} {E Q U V : F64 B} (hE : Rel E e2 2.01 1e-190) (e1 : e2 ≤ 0.02) (hQ : Rel Q q 8.08 1e-160)
    (hU : Rel U u 18.78 1e-155) (hV : Rel V v 20.81 1e-70) (u1 : 0.122 ≤ u) (u2 : u ≤ 6.1e5) (huv : u ≤ v) (v2 : v ≤ 6.4e5)
    (hqu : q ≤ 2.007 * u) (hw : w = e2 * (u + v - q) / (2 * v)) :
    0.473 ≤ √(u + v + w ^ 2) - w ∧ √(u + v + w ^ 2) - w ≤ 1200 ∧
    Rel (PyFloat.sqrt (U + V + powNat (E * (U + V - Q) / (lit 2 * V)) 2) - E * (U + V - Q) / (lit 2 * V))
      (√(u + v + w ^ 2) - w) 16.6 0 := by
  have hu := uu_pos
  have hu1 : uu ≤ 1 / 10 ^ 15 := by unfold uu; norm_num
  have e0 := hE.nonneg
  have q0 := hQ.nonneg
  rw [lit_two]
  have hS := hU.add hV (b := 1.25e6) (k := 21.82) (d := 1e-69) (kk := 20.81) (by linarith) (by norm_num) (by norm_num) (by norm_num)
    (by norm_num) (by norm_num) (by norm_num) (by norm_num) (by norm_num) (by norm_num)
  obtain ⟨S, hSd⟩ : ∃ S, S = u + v := ⟨_, rfl⟩
  rw [← hSd] at hS hw ⊢
  have S1 : 0.244 ≤ S := by linarith
  have S2 : S ≤ 1.25e6 := by linarith
  have hqS : q ≤ 1.0035 * S := by linarith
  have hSv : S ≤ 2 * v := by linarith
  -- small absolute errors in terms of `uu * S`
  have k1 : (1e-69 : ℝ) ≤ 0.001 * uu * 0.244 := by unfold uu; norm_num
  have k2 : (1e-160 : ℝ) ≤ 0.001 * uu * 0.244 := by unfold uu; norm_num
  have k3 : (1 / 10 ^ 60 : ℝ) ≤ 0.001 * uu * 0.244 := by unfold uu; norm_num
  have hus : uu * 0.244 ≤ uu * S := mul_le_mul_of_nonneg_left S1 hu.le
  have huu : uu * (uu * S) ≤ 1e-10 * (uu * S) := mul_le_mul_of_nonneg_right (by unfold uu; norm_num) (by positivity)
  have hSq : |S - q| ≤ S := by rw [abs_le]; constructor <;> linarith
  have hu6 : uu * S ≤ 1 := by
    calc uu * S ≤ 1 / 10 ^ 15 * 1.25e6 := mul_le_mul hu1 S2 (by linarith) (by norm_num)
      _ ≤ _ := by norm_num
  have aS : App (U + V) S (21.83 * (uu * S)) := hS.app le_rfl (by norm_num) (by nlinarith)
  have aQ : App Q q (8.12 * (uu * S)) := hQ.app hqS (by norm_num) (by nlinarith)
  have aZ : App (U + V - Q) (S - q) (30.97 * (uu * S)) := by
    refine aS.sub aQ hSq ?_ ?_
    · have e : uu * (S + (21.83 * (uu * S) + 8.12 * (uu * S))) = uu * S + 29.95 * (uu * (uu * S)) := by ring
      rw [e]; norm_num at hus huu k3 ⊢; linarith only [hus, huu, k3, hu]
    · norm_num at S2 hu6 ⊢; linarith
  have aE : App E e2 (0.0403 * uu) := hE.app e1 (by norm_num) (by unfold uu; norm_num)
  have hEb : |e2| ≤ 0.02 := by rw [abs_of_nonneg e0]; exact e1
  have hEZ : |e2 * (S - q)| ≤ 0.02 * S := abs_mul_le' hEb hSq le_rfl
  have aEZ : App (E * (U + V - Q)) (e2 * (S - q)) (0.683 * (uu * S)) := by
    refine aE.mul aZ hEb hSq hEZ ?_ ?_
    · have e : (0.02 * (30.97 * (uu * S)) + S * (0.0403 * uu) + 0.0403 * uu * (30.97 * (uu * S))) =
          0.6597 * (uu * S) + 1.248091 * (uu * (uu * S)) := by ring
      have e' : uu * (0.02 * S + (0.6597 * (uu * S) + 1.248091 * (uu * (uu * S)))) =
          0.02 * (uu * S) + 0.6597 * (uu * (uu * S)) + 1.248091 * uu * (uu * (uu * S)) := by ring
      rw [e, e']
      have h3 : uu * (uu * (uu * S)) ≤ uu * (uu * S) := by
        have : 0 ≤ uu * (uu * S) := by positivity
        nlinarith
      norm_num at hus huu h3 k3 ⊢; linarith only [hus, huu, h3, k3, hu]
    · have e : 0.02 * S + (0.02 * (30.97 * (uu * S)) + S * (0.0403 * uu) + 0.0403 * uu * (30.97 * (uu * S))) =
          0.02 * S + 0.6597 * (uu * S) + 1.248091 * (uu * (uu * S)) := by ring
      rw [e]; norm_num at S2 hu6 huu ⊢; linarith only [S2, hu6, huu]
  have a2V := (Rel.exact (B := B) isF64_two (by norm_num)).mul hV (bx := 2) (bY := 6.4e5) (b := 1.3e6) (k := 21.82) (d := 1e-69) le_rfl v2
    (by linarith) le_rfl (by norm_num) (by norm_num) (by norm_num) le_rfl (by norm_num) (by norm_num) (by norm_num) (by norm_num)
  obtain ⟨M, hM⟩ : ∃ M, M = 2 * v := ⟨_, rfl⟩
  rw [← hM] at a2V hSv hw
  have M1 : 0.244 ≤ M := by linarith
  have huM : uu * 0.244 ≤ uu * M := mul_le_mul_of_nonneg_left M1 hu.le
  have hSM : uu * S ≤ uu * M := mul_le_mul_of_nonneg_left hSv hu.le
  have aM : App (F64.fin 2 * V) M (21.83 * uu * M) := a2V.app le_rfl (by norm_num) (by nlinarith)
  have hwb : |w| ≤ 0.02 := by
    rw [hw, abs_div, abs_of_pos (by linarith : 0 < M), div_le_iff₀ (by linarith)]
    linarith
  have aW : App (E * (U + V - Q) / (F64.fin 2 * V)) w (1.15 * uu) := by
    rw [hw]
    have h6 : (0.683 * uu * M + 0.02 * (21.83 * uu * M)) / (M - 21.83 * uu * M) = (0.683 * uu + 0.02 * (21.83 * uu)) / (1 - 21.83 * uu) := by
      have hM0 : M ≠ 0 := by linarith
      have : M - 21.83 * uu * M = (1 - 21.83 * uu) * M := by ring
      rw [this, show 0.683 * uu * M + 0.02 * (21.83 * uu * M) = (0.683 * uu + 0.02 * (21.83 * uu)) * M by ring, mul_div_mul_right _ _ hM0]
    refine (aEZ.mono (e := 0.683 * uu * M) (by linarith)).div aM (m := M) (by rw [abs_of_pos (by linarith)]) ?_ (b := 0.02) (by rw [← hw]; exact hwb) ?_ ?_
    · have : 21.83 * uu < 1 := by unfold uu; norm_num
      nlinarith
    · rw [h6]; unfold uu; norm_num
    · rw [h6]; unfold uu; norm_num
  have aW2 : App (powNat (E * (U + V - Q) / (F64.fin 2 * V)) 2) (w ^ 2) (0.0465 * uu) :=
    aW.sq hwb (by unfold uu; norm_num) (by unfold uu; norm_num)
  have w2 : w ^ 2 ≤ 0.0004 := by
    have := sq_le_of_abs_le hwb
    norm_num at this ⊢; linarith
  have w20 : 0 ≤ w ^ 2 := sq_nonneg _
  obtain ⟨G, hG⟩ : ∃ G, G = S + w ^ 2 := ⟨_, rfl⟩
  have hSG : S ≤ G := by linarith
  have huG : uu * S ≤ uu * G := mul_le_mul_of_nonneg_left hSG hu.le
  have aG : App (U + V + powNat (E * (U + V - Q) / (F64.fin 2 * V)) 2) G (23.06 * (uu * G)) := by
    rw [hG]
    refine aS.add aW2 (b := S + w ^ 2) (by rw [abs_of_nonneg (by linarith)]) ?_ ?_
    · rw [← hG]
      have e : uu * (G + (21.83 * (uu * S) + 0.0465 * uu)) = uu * G + 21.83 * (uu * (uu * S)) + 0.0465 * (uu * uu) := by ring
      have h3 : uu * uu ≤ 1e-10 * uu := mul_le_mul_of_nonneg_right (by unfold uu; norm_num) hu.le
      rw [e]; norm_num at hus huu huG h3 k3 ⊢; linarith only [hus, huu, huG, h3, k3, hu]
    · norm_num at S2 hu6 w2 hu1 ⊢; linarith only [S2, hu6, w2, hu1]
  have rG : Rel (U + V + powNat (E * (U + V - Q) / (F64.fin 2 * V)) 2) G 23.06 0 := by
    refine aG.rel (by linarith) ?_ (by linarith)
    have : 23.06 * uu ≤ 1 := by unfold uu; norm_num
    nlinarith
  rw [← hG]
  have G2 : G ≤ 1.3e6 := by linarith
  have hQb : √G ≤ 1150 := Real.sqrt_le_iff.mpr ⟨by norm_num, by norm_num at G2 ⊢; linarith⟩
  have hQ1 : 0.4939 ≤ √G := Real.le_sqrt_of_sq_le (by norm_num at S1 hSG ⊢; linarith)
  have rQ := rG.sqrt (c := 0) (b := 1150) (k := 12.54) (d := 1e-199) le_rfl (by norm_num) (by norm_num at G2 ⊢; linarith) hQb (by norm_num)
    (by norm_num) (by norm_num) (by norm_num) (by norm_num) (by norm_num)
  obtain ⟨Z, hZ⟩ : ∃ Z, Z = √G := ⟨_, rfl⟩
  rw [← hZ] at rQ hQb hQ1 ⊢
  have hw' := abs_le.mp hwb
  have kk1 : 0.473 ≤ Z - w := by linarith
  refine ⟨kk1, by linarith, ?_⟩
  have aQ' : App (PyFloat.sqrt (U + V + powNat (E * (U + V - Q) / (F64.fin 2 * V)) 2)) Z (12.55 * (uu * Z)) := by
    refine rQ.app le_rfl (by norm_num) ?_
    have h1 : uu * 0.4939 ≤ uu * Z := mul_le_mul_of_nonneg_left hQ1 hu.le
    have h2 : (1e-199 : ℝ) ≤ 0.001 * (uu * 0.4939) := by unfold uu; norm_num
    linarith
  obtain ⟨k, hk⟩ : ∃ k, k = Z - w := ⟨_, rfl⟩
  have huk : uu * 0.473 ≤ uu * k := mul_le_mul_of_nonneg_left (by linarith) hu.le
  have hZk : uu * Z ≤ 1.0425 * (uu * k) := by
    have : Z ≤ 1.0425 * k := by linarith
    calc uu * Z ≤ uu * (1.0425 * k) := mul_le_mul_of_nonneg_left this hu.le
      _ = _ := by ring
  have huuZ : uu * (uu * Z) ≤ 1e-10 * (uu * Z) := mul_le_mul_of_nonneg_right (by unfold uu; norm_num) (by nlinarith)
  have h3 : uu * uu ≤ 1e-10 * uu := mul_le_mul_of_nonneg_right (by unfold uu; norm_num) hu.le
  have aK : App (PyFloat.sqrt (U + V + powNat (E * (U + V - Q) / (F64.fin 2 * V)) 2) - E * (U + V - Q) / (F64.fin 2 * V)) (Z - w)
      (16.6 * (uu * k)) := by
    refine aQ'.sub aW (b := Z - w) (by rw [abs_of_pos (by linarith)]) ?_ ?_
    · rw [← hk]
      have e : uu * (k + (12.55 * (uu * Z) + 1.15 * uu)) = uu * k + 12.55 * (uu * (uu * Z)) + 1.15 * (uu * uu) := by ring
      have k3 : (1 / 10 ^ 60 : ℝ) ≤ 0.001 * uu * 0.473 := by unfold uu; norm_num
      rw [e]; clear huuZ hS rQ
      have h5 : uu * (uu * Z) ≤ 1e-10 * (uu * Z) := mul_le_mul_of_nonneg_right (by unfold uu; norm_num) (by nlinarith)
      norm_num at h5 h3 k3 huk hZk ⊢
      linarith only [h5, h3, k3, huk, hZk, hu]
    · have hZ1 : uu * Z ≤ 1 := by
        calc uu * Z ≤ 1 / 10 ^ 15 * 1150 := mul_le_mul hu1 hQb (by linarith) (by norm_num)
          _ ≤ _ := by norm_num
      norm_num at hZ1 hQb hw' hu1 ⊢
      linarith only [hZ1, hQb, hw'.1, hu1]
  rw [← hk] at aK kk1 ⊢
  refine aK.rel (by linarith) ?_ (by linarith)
  have : 16.6 * uu ≤ 1 := by unfold uu; norm_num
  nlinarith

set_option maxHeartbeats 1600000 in
/-- the computed root `k` of the ellipse equation: relative error `16.6 * 2^-53` -/
theorem rel_compute_k {a e2 q Y2 : ℝ} {E Q Y : F64 B} (fa : IsF64 a) (a1 : 1 ≤ a) (a2 : a ≤ 1e10)
    (hE : Rel E e2 2.01 1e-190) (e1 : e2 ≤ 0.02) (hQ : Rel Q q 8.08 1e-160) (hY : Rel Y Y2 2.01 1e-198)
    (hg1 : 0.245 ≤ Y2 / a ^ 2 + q) (hg2 : Y2 / a ^ 2 + q ≤ 1e6) :
    ∃ k, compute_k (XR.fin a) (XR.fin e2) (XR.fin q) (XR.fin Y2) = XR.fin k ∧ 0.473 ≤ k ∧ k ≤ 1200 ∧
      Rel (compute_k (F64.fin a) E Q Y) k 16.6 0 := by
  have e0 := hE.nonneg
  have q0 := hQ.nonneg
  have Y0 := hY.nonneg
  obtain ⟨p, hp⟩ : ∃ p, p = Y2 / a ^ 2 := ⟨_, rfl⟩
  obtain ⟨r, hr⟩ : ∃ r, r = (p + q - e2 ^ 2) / 6 := ⟨_, rfl⟩
  obtain ⟨s, hs⟩ : ∃ s, s = e2 ^ 2 * p * q / (4 * r ^ 3) := ⟨_, rfl⟩
  rw [← hp] at hg1 hg2
  obtain ⟨r1, r2, hgr, s0, s1, hE2, hR, hS⟩ := rel_rs fa a1 a2 hE e0 e1 hQ hY hp hg1 hg2 hr hs
  obtain ⟨σ, hσ⟩ : ∃ σ, σ = √(s * (2 + s)) := ⟨_, rfl⟩
  have hσ0 : 0 ≤ σ := by rw [hσ]; positivity
  obtain ⟨c, hc⟩ : ∃ c, c = 1 + s + σ := ⟨_, rfl⟩
  obtain ⟨t, ht⟩ : ∃ t, t = c ^ ((1 : ℝ) / 3) := ⟨_, rfl⟩
  obtain ⟨t1, t2, hT⟩ := rel_t s0 s1 hS hσ hc ht
  have t0 : 0 < t := by linarith
  have eT : (t - 1) ^ 2 / t = t - 2 + 1 / t := by field_simp; ring
  have T1 : 3 ≤ 1 + t + 1 / t := by
    have : 0 ≤ (t - 1) ^ 2 / t := by positivity
    linarith
  have T2 : 1 + t + 1 / t ≤ 3.01 := by
    have h3 : (t - 1) ^ 2 / t ≤ 0.01 := by
      rw [div_le_iff₀ t0]; nlinarith
    linarith
  obtain ⟨u, hu⟩ : ∃ u, u = r * (1 + t + 1 / t) := ⟨_, rfl⟩
  have u3 : 3 * r ≤ u := by rw [hu]; nlinarith
  have u4 : u ≤ 3.01 * r := by rw [hu]; nlinarith
  have u1 : 0.122 ≤ u := by linarith
  have u2 : u ≤ 6.1e5 := by linarith
  have hU := hR.mul hT (bx := 2e5) (bY := 3.01) (b := 6.1e5) (k := 18.78) (d := 1e-155) r2 T2 (by rw [← hu]; exact u2) (by norm_num)
    (by norm_num) (by norm_num) (by norm_num) (by norm_num) le_rfl (by norm_num) (by norm_num) (by norm_num)
  rw [← hu] at hU
  have hUU := hU.sq (b := 6.1e5) (k := 38.57) (d := 1e-148) u2 (by norm_num) (by norm_num) (by norm_num) (by norm_num) (by norm_num)
    (by norm_num) (by norm_num)
  have e4 : e2 ^ 2 ≤ 4e-4 := by nlinarith
  have q6 : q ≤ 1e6 := by have : 0 ≤ p := by rw [hp]; positivity
                          linarith
  have heq : e2 ^ 2 * q ≤ 4e2 := by
    calc e2 ^ 2 * q ≤ 4e-4 * 1e6 := mul_le_mul e4 q6 q0 (by norm_num)
      _ ≤ _ := by norm_num
  have hEQ := hE2.mul hQ (bx := 1) (bY := 1e6) (b := 4e2) (k := 17.12) (d := 1e-159) (by linarith) q6 heq (by norm_num) (by norm_num)
    (by norm_num) (by norm_num) (by norm_num) (by norm_num) (by norm_num) (by norm_num) (by norm_num)
  have hr4 : u ^ 2 + e2 ^ 2 * q ≤ 4e11 := by
    have : u ^ 2 ≤ 6.1e5 ^ 2 := pow_le_pow_left₀ (by linarith) u2 2
    norm_num at this heq ⊢; linarith
  have hrad := hUU.add hEQ (b := 4e11) (k := 39.58) (d := 1e-147) (kk := 38.57) hr4 (by norm_num) (by norm_num) (by norm_num) (by norm_num)
    (by norm_num) (by norm_num) (by norm_num) (by norm_num) (by norm_num)
  have hsq : √(u ^ 2 + e2 ^ 2 * q) ≤ 6.4e5 := Real.sqrt_le_iff.mpr ⟨by norm_num, hr4.trans (by norm_num)⟩
  have hV := hrad.sqrt (c := 1e-73) (b := 6.4e5) (k := 20.81) (d := 1e-70) (by norm_num) (by norm_num) (by norm_num at hr4 ⊢; linarith) hsq (by norm_num)
    (by norm_num) (by norm_num) (by norm_num) (by norm_num) (by norm_num)
  obtain ⟨v, hv⟩ : ∃ v, v = √(u ^ 2 + e2 ^ 2 * q) := ⟨_, rfl⟩
  rw [← hv] at hV hsq
  have huv : u ≤ v := by rw [hv]; exact Real.le_sqrt_of_sq_le (by nlinarith)
  obtain ⟨w, hw⟩ : ∃ w, w = e2 * (u + v - q) / (2 * v) := ⟨_, rfl⟩
  have hp0 : 0 ≤ p := by rw [hp]; positivity
  obtain ⟨k1, k2, hK⟩ := rel_k_of_uv hE e1 hQ hU hV u1 u2 huv hsq (by linarith) hw
  refine ⟨√(u + v + w ^ 2) - w, ?_, k1, k2, hK⟩
  refine compute_k_eval (by linarith) hp hr (by linarith) hs (by positivity) hσ hc (by rw [hc]; positivity) ht hu (by positivity) hv
    (by linarith) hw (by have := sq_nonneg w; linarith)

end

end Nv
