import Verif.Lemmas.Vermeille
import Verif.Spec.Ellipsoid

/-!
# `n_EB_E2p_EB_E` and `p_EB_E2n_EB_E` over the reals
-/

namespace Nv
open Spec
open XR (fin)

/-- `√((1-f)² mx² + my² + mz²)` -/
noncomputable def Dell (f : ℝ) (m : V3 ℝ) : ℝ := √((1 - f) ^ 2 * m.x ^ 2 + m.y ^ 2 + m.z ^ 2)

theorem Dell_sq (f : ℝ) (m : V3 ℝ) : Dell f m ^ 2 = (1 - f) ^ 2 * m.x ^ 2 + m.y ^ 2 + m.z ^ 2 :=
  Real.sq_sqrt (by positivity)

theorem Dell_pos {f : ℝ} (hf : f < 1) {m : V3 ℝ} (hm : m ≠ 0) : 0 < Dell f m := by
  apply Real.sqrt_pos.mpr
  have hg : 0 < (1 - f) ^ 2 := pow_pos (by linarith) 2
  by_contra h
  push Not at h
  have h1 : 0 ≤ (1 - f) ^ 2 * m.x ^ 2 := by positivity
  have h2 := sq_nonneg m.y; have h3 := sq_nonneg m.z
  apply hm
  ext
  · have : m.x ^ 2 = 0 := by
      rcases mul_eq_zero.mp (show (1 - f) ^ 2 * m.x ^ 2 = 0 by linarith) with h | h
      · exact absurd h hg.ne'
      · exact h
    exact pow_eq_zero_iff two_ne_zero |>.mp this
  · exact pow_eq_zero_iff two_ne_zero |>.mp (by linarith)
  · exact pow_eq_zero_iff two_ne_zero |>.mp (by linarith)

/-- the position in the `e` frame of the unit normal `m` (in the `e` frame) at depth `d` -/
noncomputable def posE (a f : ℝ) (m : V3 ℝ) (d : ℝ) : V3 ℝ :=
  ⟨(a / Dell f m * (1 - f) ^ 2 - d) * m.x, (a / Dell f m - d) * m.y, (a / Dell f m - d) * m.z⟩

theorem n2p_fin {n : V3 ℝ} (hn : n ≠ 0) (d a f : ℝ) (hf : f < 1) {R : M3 ℝ} (hR : IsRotation R) :
    n_EB_E2p_EB_E n.fin (fin d) (fin a) (fin f) R.fin = (app (transp R) (posE a f (app R (dirOf n)) d)).fin := by
  have hRn := app_ne_zero hR hn
  have hm := app_dirOf hR n
  have hmu : UnitVec (app R (dirOf n)) := unitVec_app hR (dirOf_unit hn)
  have hg : (1 - f) ≠ 0 := by linarith
  unfold n_EB_E2p_EB_E
  simp only [xr, unit_fin hRn, hm, Rat.cast_one]
  obtain ⟨m, hmdef⟩ : ∃ m, m = app R (dirOf n) := ⟨_, rfl⟩
  rw [← hmdef] at hmu ⊢
  have hD := Dell_pos hf hmu.ne
  have hden : norm3 (ediv3 m.fin ⟨fin 1, fin (1 - f), fin (1 - f)⟩) = fin (Dell f m / (1 - f)) := by
    simp only [ediv3, xr, XR.div_fin hg, XR.div_fin one_ne_zero, V3.mk_fin]
    rw [XR.fin_inj]
    unfold len Dell
    have hgp : 0 < 1 - f := by linarith
    rw [eq_div_iff hg, ← Real.sqrt_sq hgp.le, ← Real.sqrt_mul (by positivity)]
    congr 1
    rw [Real.sqrt_sq hgp.le]
    field_simp
  rw [hden]
  have hdd : Dell f m / (1 - f) ≠ 0 := div_ne_zero hD.ne' hg
  have hg2 : (1 - f) ^ 2 ≠ 0 := pow_ne_zero 2 hg
  simp only [xr, XR.div_fin hdd, XR.div_fin hg2, XR.div_fin (show (1:ℝ) ^ 2 ≠ 0 by norm_num), V3.mk_fin]
  rw [V3.fin_inj]
  congr 1
  unfold posE
  ext
  · simp only [sub_x, smul_x]; field_simp
  · simp only [sub_y, smul_y]; field_simp
  · simp only [sub_z, smul_z]; field_simp

/-- `equation23` when `k > 0` -/
theorem equation23_fin {a f k : ℝ} (P : V3 ℝ) (ha : 0 < a) (hf0 : 0 ≤ f) (hf : f < 1) (hP : P ≠ 0)
    (hk : compute_k (fin a) (fin ((2 - f) * f)) (fin ((1 - (2 - f) * f) / a ^ 2 * P.x ^ 2)) (fin (P.y ^ 2 + P.z ^ 2)) = fin k)
    (hk0 : 0 < k) :
    ∃ T : ℝ, 0 < T ∧ T ^ 2 = (k / (k + (2 - f) * f)) ^ 2 * (P.y ^ 2 + P.z ^ 2) + P.x ^ 2 ∧
      equation23 (fin a) (fin f) P.fin = (fin (1 / T), fin (1 / T * k / (k + (2 - f) * f)),
        fin (-((k + (2 - f) * f - 1) / k * T))) := by
  have he : 0 ≤ (2 - f) * f := by nlinarith
  have hke : 0 < k + (2 - f) * f := by linarith
  have ha2 : a ^ 2 ≠ 0 := by positivity
  have hY : 0 ≤ P.y ^ 2 + P.z ^ 2 := by positivity
  obtain ⟨Y, hYdef⟩ : ∃ Y, Y = √(P.y ^ 2 + P.z ^ 2) := ⟨_, rfl⟩
  have hY2 : Y ^ 2 = P.y ^ 2 + P.z ^ 2 := by rw [hYdef, Real.sq_sqrt hY]
  have hT2pos : 0 < (k * Y / (k + (2 - f) * f)) ^ 2 + P.x ^ 2 := by
    by_contra h
    push Not at h
    have h1 := sq_nonneg (k * Y / (k + (2 - f) * f)); have h2 := sq_nonneg P.x
    have hx : P.x = 0 := pow_eq_zero_iff two_ne_zero |>.mp (by linarith)
    have h3 : k * Y / (k + (2 - f) * f) = 0 := pow_eq_zero_iff two_ne_zero |>.mp (by linarith)
    have hY0 : Y = 0 := by
      rcases div_eq_zero_iff.mp h3 with h | h
      · exact (mul_eq_zero.mp h).resolve_left hk0.ne'
      · exact absurd h hke.ne'
    rw [hY0] at hY2
    apply hP
    ext
    · exact hx
    · exact pow_eq_zero_iff two_ne_zero |>.mp (by nlinarith [sq_nonneg P.y, sq_nonneg P.z])
    · exact pow_eq_zero_iff two_ne_zero |>.mp (by nlinarith [sq_nonneg P.y, sq_nonneg P.z])
  refine ⟨√((k * Y / (k + (2 - f) * f)) ^ 2 + P.x ^ 2), Real.sqrt_pos.mpr hT2pos, ?_, ?_⟩
  · rw [Real.sq_sqrt hT2pos.le, ← hY2]; field_simp
  · have hT := Real.sqrt_pos.mpr hT2pos
    unfold equation23 eccentricity2
    simp only [xr, XR.div_fin ha2, Rat.cast_one, Rat.cast_ofNat]
    rw [hk, XR.sqrt_fin hY, ← hYdef]
    simp only [xr, XR.div_fin hke.ne']
    rw [XR.sqrt_fin hT2pos.le]
    simp only [xr, XR.div_fin hT.ne', XR.div_fin hk0.ne', XR.div_fin hke.ne']

/-- `p_EB_E2n_EB_E` when `k > 0`: a unit normal and a depth -/
theorem p2n_of_k {a f k : ℝ} (p : V3 ℝ) {R : M3 ℝ} (hR : IsRotation R) (ha : 0 < a) (hf0 : 0 ≤ f) (hf : f < 1) (hp : p ≠ 0)
    (hk : compute_k (fin a) (fin ((2 - f) * f)) (fin ((1 - (2 - f) * f) / a ^ 2 * (app R p).x ^ 2))
      (fin ((app R p).y ^ 2 + (app R p).z ^ 2)) = fin k)
    (hk0 : 0 < k) :
    ∃ (m : V3 ℝ) (T : ℝ), p_EB_E2n_EB_E p.fin (fin a) (fin f) R.fin =
        ((app (transp R) m).fin, fin (-((k + (2 - f) * f - 1) / k * T))) ∧
      UnitVec m ∧ 0 < T ∧ (app R p).x = T * m.x ∧ (app R p).y = T * (k + (2 - f) * f) / k * m.y ∧
      (app R p).z = T * (k + (2 - f) * f) / k * m.z := by
  obtain ⟨T, hT, hT2, h23⟩ := equation23_fin (app R p) ha hf0 hf (app_ne_zero hR hp) hk hk0
  have he : 0 ≤ (2 - f) * f := by nlinarith
  have hke : 0 < k + (2 - f) * f := by linarith
  obtain ⟨P, hPdef⟩ : ∃ P, P = app R p := ⟨_, rfl⟩
  rw [← hPdef] at hT2 h23 hk ⊢
  obtain ⟨m, hm⟩ : ∃ m : V3 ℝ, m = ⟨1 / T * P.x, 1 / T * k / (k + (2 - f) * f) * P.y, 1 / T * k / (k + (2 - f) * f) * P.z⟩ :=
    ⟨_, rfl⟩
  have hu : UnitVec m := by
    rw [hm]; unfold UnitVec
    have : (1 / T * P.x) ^ 2 + (1 / T * k / (k + (2 - f) * f) * P.y) ^ 2 + (1 / T * k / (k + (2 - f) * f) * P.z) ^ 2 =
        1 / T ^ 2 * ((k / (k + (2 - f) * f)) ^ 2 * (P.y ^ 2 + P.z ^ 2) + P.x ^ 2) := by
      field_simp; ring
    rw [this, ← hT2]; field_simp
  have hke' : k + f * (2 - f) ≠ 0 := by rw [mul_comm f]; exact hke.ne'
  refine ⟨m, T, ?_, hu, hT, ?_, ?_, ?_⟩
  · unfold p_EB_E2n_EB_E
    simp only [xr, ← hPdef]
    rw [h23]
    simp only [xr, V3.mk_fin, ← hm]
    rw [unit_fin (unitVec_app hR.transpose hu).ne, dirOf_of_unit (unitVec_app hR.transpose hu)]
  · rw [hm]; field_simp
  · rw [hm]; field_simp
  · rw [hm]; field_simp

/-- from a positive solution `k` of the ellipse equation: going back gives the position -/
theorem posE_back {a f k T : ℝ} {m P : V3 ℝ} (ha : 0 < a) (hf0 : 0 ≤ f) (hf : f < 1) (hk0 : 0 < k) (hT : 0 < T)
    (hx : P.x = T * m.x) (hy : P.y = T * (k + (2 - f) * f) / k * m.y) (hz : P.z = T * (k + (2 - f) * f) / k * m.z)
    (hell : (P.y ^ 2 + P.z ^ 2) / a ^ 2 * k ^ 2 + (1 - f) ^ 2 * P.x ^ 2 / a ^ 2 * (k + (2 - f) * f) ^ 2 =
      k ^ 2 * (k + (2 - f) * f) ^ 2) :
    posE a f m (-((k + (2 - f) * f - 1) / k * T)) = P := by
  have he : 0 ≤ (2 - f) * f := by nlinarith
  have hke : 0 < k + (2 - f) * f := by linarith
  have hD : Dell f m = a * k / T := by
    have h1 : Dell f m ^ 2 = (a * k / T) ^ 2 := by
      rw [Dell_sq]
      rw [hx, hy, hz] at hell
      have hke' : (k + f * (2 - f)) ^ 2 ≠ 0 := by rw [mul_comm f]; positivity
      field_simp at hell
      field_simp
      apply mul_left_cancel₀ hke'
      linarith
    have h2 : 0 ≤ a * k / T := by positivity
    exact (sq_eq_sq₀ (Real.sqrt_nonneg _) h2).mp h1
  unfold posE
  rw [hD]
  ext
  · rw [hx]; field_simp; ring
  · rw [hy]; field_simp; ring
  · rw [hz]; field_simp; ring

end Nv
