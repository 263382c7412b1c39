import Verif.Props.Prolate

/-!
# C150: delta vectors and dead reckoning on prolate bodies
-/

namespace Nv
open Spec Real
open XR (fin)

/-- **C150** the delta vector is zero exactly between equal positions -/
theorem C150_delta_zero_iff (nA nB : V3 ℝ) (hA : nA ≠ 0) (hB : nB ≠ 0) (zA zB a f : ℝ) (ha : 0 < a) (hf : f < 0)
    (he1 : |(2 - f) * f| < 1) (hzA : zA * (1 - f) < a * (1 - |(2 - f) * f|)) (hzB : zB * (1 - f) < a * (1 - |(2 - f) * f|))
    (R : M3 ℝ) (hR : IsRotation R) :
    n_EA_E_and_n_EB_E2p_AB_E nA.fin nB.fin (fin zA) (fin zB) (fin a) (fin f) R.fin = (0 : V3 ℝ).fin ↔
      (len nA)⁻¹ • nA = (len nB)⁻¹ • nB ∧ zA = zB := by
  have hf1 : f < 1 := by linarith
  have rA := C150_from_nvector_simple nA hA zA a f ha hf R hR he1 hzA
  have rB := C150_from_nvector_simple nB hB zB a f ha hf R hR he1 hzB
  unfold n_EA_E_and_n_EB_E2p_AB_E
  constructor
  · intro h
    have : n_EB_E2p_EB_E nA.fin (fin zA) (fin a) (fin f) R.fin = n_EB_E2p_EB_E nB.fin (fin zB) (fin a) (fin f) R.fin := by
      rw [n2p_fin hA _ _ _ hf1 hR, n2p_fin hB _ _ _ hf1 hR] at h ⊢
      simp only [xr, V3.fin_inj] at h ⊢
      have hx := congrArg V3.x h; have hy := congrArg V3.y h; have hz := congrArg V3.z h
      simp only [sub_x, sub_y, sub_z, zero_x, zero_y, zero_z] at hx hy hz
      ext <;> linarith
    rw [this, rB] at rA
    simp only [Prod.mk.injEq, V3.fin_inj, XR.fin_inj] at rA
    exact ⟨rA.1.symm, rA.2.symm⟩
  · rintro ⟨h1, rfl⟩
    rw [n2p_fin hA _ _ _ hf1 hR, n2p_fin hB _ _ _ hf1 hR]
    simp only [xr, V3.fin_inj]
    rw [show dirOf nA = dirOf nB from h1]
    ext <;> simp

/-- **C150** dead reckoning with the delta from A to B arrives at B, from wherever A is -/
theorem C150_dead_reckoning (nA nB : V3 ℝ) (hA : nA ≠ 0) (hB : nB ≠ 0) (zA zB a f : ℝ) (ha : 0 < a) (hf : f < 0)
    (he1 : |(2 - f) * f| < 1) (hzB : zB * (1 - f) < a * (1 - |(2 - f) * f|)) (R : M3 ℝ) (hR : IsRotation R) :
    n_EA_E_and_p_AB_E2n_EB_E nA.fin
      (n_EA_E_and_n_EB_E2p_AB_E nA.fin nB.fin (fin zA) (fin zB) (fin a) (fin f) R.fin) (fin zA) (fin a) (fin f) R.fin =
      (((len nB)⁻¹ • nB).fin, fin zB) := by
  have hf1 : f < 1 := by linarith
  rw [← C150_from_nvector_simple nB hB zB a f ha hf R hR he1 hzB]
  unfold n_EA_E_and_p_AB_E2n_EB_E n_EA_E_and_n_EB_E2p_AB_E
  simp only [n2p_fin hA _ _ _ hf1 hR, n2p_fin hB _ _ _ hf1 hR, xr]
  congr 2
  ext <;> simp

/-- **C150** conversely, the delta from A to the computed B is the given delta, when the end point is outside the core -/
theorem C150_dead_reckoning_delta (nA p : V3 ℝ) (hA : nA ≠ 0) (zA a f : ℝ) (ha : 0 < a) (hf : f < 0)
    (R : M3 ℝ) (hR : IsRotation R)
    (hcore : ∀ pA : V3 ℝ, n_EB_E2p_EB_E nA.fin (fin zA) (fin a) (fin f) R.fin = pA.fin → OutsideCore a f (app R (pA + p))) :
    ∃ (nB : V3 ℝ) (zB : ℝ), n_EA_E_and_p_AB_E2n_EB_E nA.fin p.fin (fin zA) (fin a) (fin f) R.fin = (nB.fin, fin zB) ∧
      UnitVec nB ∧
      n_EA_E_and_n_EB_E2p_AB_E nA.fin nB.fin (fin zA) (fin zB) (fin a) (fin f) R.fin = p.fin := by
  have hf1 : f < 1 := by linarith
  have e := n2p_fin hA zA a f hf1 hR
  obtain ⟨n, -, d, h1, hu, h2, -⟩ := C150_from_position _ a f ha hf R hR (hcore _ e)
  refine ⟨n, d, ?_, hu, ?_⟩
  · unfold n_EA_E_and_p_AB_E2n_EB_E
    simp only [e, xr]; exact h1
  · unfold n_EA_E_and_n_EB_E2p_AB_E
    simp only [h2, e, xr, V3.fin_inj]
    ext <;> simp

end Nv
