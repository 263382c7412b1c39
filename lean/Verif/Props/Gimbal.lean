import Verif.Lemmas.Signed
import Verif.Props.Rotations

/-!
# C142: which rotation matrices are recovered from their Euler angles

`Sgn XR` is exact arithmetic with signed zeros, so that the angles are those of numpy also where `arctan2(±0, ±0)` is met.
-/

namespace Nv
open Spec Real
open XR (fin)

/-- the text book matrices of a quarter turn about the y-axis (`c = 1` or `c = -1`), followed (`h = -1`) or not (`h = 1`) by a half turn about
the z-axis -/
def Spec.quarterTurn (c h : ℝ) : M3 ℝ := ⟨⟨0, 0, c⟩, ⟨0, h, 0⟩, ⟨-(c * h), 0, 0⟩⟩

theorem Spec.quarterTurn_eq (c h : ℝ) (hc : c = 1 ∨ c = -1) (hh : h = 1 ∨ h = -1) :
    ∃ t, cos t = h ∧ sin t = 0 ∧ quarterTurn c h = mmul (RotY (c * (π / 2))) (RotZ t) := by
  have hcos : cos (c * (π / 2)) = 0 := by rcases hc with rfl | rfl <;> simp
  have hsin : sin (c * (π / 2)) = c := by rcases hc with rfl | rfl <;> simp
  obtain ⟨t, h1, h2⟩ : ∃ t, cos t = h ∧ sin t = 0 := by
    rcases hh with rfl | rfl
    · exact ⟨0, by simp⟩
    · exact ⟨π, by simp⟩
  refine ⟨t, h1, h2, ?_⟩
  simp only [mmul, dot, RotY, RotZ, col0, col1, col2, hcos, hsin, h1, h2, quarterTurn]
  ext <;> simp

/-- the numbers in the matrix of three angles do not depend on the signs of zeros -/
theorem xyz2R_val (x y z : Sgn XR) : (xyz2R x y z).val = xyz2R x.val y.val z.val := rfl

/-- angles of a matrix in gimbal lock, whatever the signs of the zeros -/
theorem gimbal_angles (M : M3 (Sgn XR)) (N : M3 ℝ) (hv : M.val = N.fin) (hN : IsRotation N) (hg : N.r0.z = 1 ∨ N.r0.z = -1) :
    ∃ x z : ℝ, (R2xyz M).1.val = fin x ∧ (R2xyz M).2.2.val = fin z ∧ (R2xyz M).2.1.val = fin (N.r0.z * (π / 2)) ∧
      sin x = 0 ∧ sin z = 0 ∧ (cos x = 1 ∨ cos x = -1) ∧ (cos z = 1 ∨ cos z = -1) := by
  have r0 := hN.transpose.c00; have r22 := hN.c22
  simp only [transp, col0, col1, col2, dot] at r0 r22
  have hsq : N.r0.z ^ 2 = 1 := by rcases hg with h | h <;> rw [h] <;> norm_num
  have hx0 : N.r0.x = 0 := by nlinarith [sq_nonneg N.r0.x, sq_nonneg N.r0.y]
  have hy0 : N.r0.y = 0 := by nlinarith [sq_nonneg N.r0.x, sq_nonneg N.r0.y]
  have hz1 : N.r1.z = 0 := by nlinarith [sq_nonneg N.r1.z, sq_nonneg N.r2.z]
  have hz2 : N.r2.z = 0 := by nlinarith [sq_nonneg N.r1.z, sq_nonneg N.r2.z]
  have v0x : M.r0.x.val = fin 0 := by rw [← hx0]; exact congrArg (fun M => M.r0.x) hv
  have v0y : M.r0.y.val = fin 0 := by rw [← hy0]; exact congrArg (fun M => M.r0.y) hv
  have v1z : M.r1.z.val = fin 0 := by rw [← hz1]; exact congrArg (fun M => M.r1.z) hv
  have v2z : M.r2.z.val = fin 0 := by rw [← hz2]; exact congrArg (fun M => M.r2.z) hv
  have v0z : M.r0.z.val = fin N.r0.z := congrArg (fun M => M.r0.z) hv
  have zero : ∀ a : Sgn XR, a.val = fin 0 → a.isZero = true := by
    intro a ha
    change XR.eq a.val (lit 0) = true
    rw [ha]; simp [xr, XR.eq]
  have key : ∀ a b : Sgn XR, a.val = fin 0 → b.val = fin 0 →
      ∃ t : ℝ, (PyFloat.arctan2 a b).val = fin t ∧ sin t = 0 ∧ (cos t = 1 ∨ cos t = -1) := by
    intro a b ha hb
    have e : (PyFloat.arctan2 a b).val = Sgn.atan2Zero a b := by
      change (if a.isZero then (if b.isZero then _ else _) else _) = _
      rw [zero a ha, zero b hb]; rfl
    rw [e]
    unfold Sgn.atan2Zero
    have hpi : (PyFloat.arctan2 (lit 0) (lit (-1)) : XR) = fin π := by
      simp only [xr]
      congr 1
      norm_num
      exact XR.atan2_eq one_pos (by linarith [Real.pi_pos]) le_rfl (by simp) (by simp)
    rw [hpi]
    split_ifs
    · exact ⟨-π, by simp [xr], by simp, by simp⟩
    · exact ⟨π, rfl, by simp, by simp⟩
    · exact ⟨0, by simp [xr], by simp, by simp⟩
  obtain ⟨x, x1, x2, x3⟩ := key (-M.r1.z) M.r2.z (by change -M.r1.z.val = _; rw [v1z]; simp [xr]) v2z
  obtain ⟨z, z1, z2, z3⟩ := key (-M.r0.y) M.r0.x (by change -M.r0.y.val = _; rw [v0y]; simp [xr]) v0x
  refine ⟨x, z, x1, z1, ?_, x2, z2, x3, z3⟩
  have hnz : M.r0.z.isZero = false := by
    change XR.eq M.r0.z.val (lit 0) = false
    rw [v0z]
    rcases hg with h | h <;> rw [h] <;> simp [xr, XR.eq]
  have hr : (PyFloat.sqrt ((powNat M.r0.x 2 + powNat M.r0.y 2 + powNat M.r1.z 2 + powNat M.r2.z 2) / lit 2)).val = fin 0 := by
    change PyFloat.sqrt ((powNat M.r0.x 2 + powNat M.r0.y 2 + powNat M.r1.z 2 + powNat M.r2.z 2) / lit 2).val = fin 0
    have h2 : ((powNat M.r0.x 2 + powNat M.r0.y 2 + powNat M.r1.z 2 + powNat M.r2.z 2) / lit 2).val =
        (powNat M.r0.x 2 + powNat M.r0.y 2 + powNat M.r1.z 2 + powNat M.r2.z 2).val / lit 2 := by
      apply Sgn.div_val
      exact Sgn.lit_mz (α := XR) 2
    have h3 : ∀ a : Sgn XR, a.val = fin 0 → (powNat a 2).val = fin 0 := by
      intro a ha
      have : (powNat a 2).val = powNat a.val 2 := rfl
      rw [this, ha]; simp [Nv.powNat, xr]
    have h4 : (powNat M.r0.x 2 + powNat M.r0.y 2 + powNat M.r1.z 2 + powNat M.r2.z 2).val = fin 0 := by
      change (powNat M.r0.x 2).val + (powNat M.r0.y 2).val + (powNat M.r1.z 2).val + (powNat M.r2.z 2).val = fin 0
      rw [h3 _ v0x, h3 _ v0y, h3 _ v1z, h3 _ v2z]; simp [xr]
    rw [h2, h4]
    simp only [xr]
    rw [XR.div_fin (by norm_num)]
    simp [XR.sqrt_fin]
  have e : (R2xyz M).2.1.val = PyFloat.arctan2 M.r0.z.val
      (PyFloat.sqrt ((powNat M.r0.x 2 + powNat M.r0.y 2 + powNat M.r1.z 2 + powNat M.r2.z 2) / lit 2)).val := by
    apply Sgn.arctan2_val
    rw [hnz]; rfl
  rw [e, v0z, hr]
  simp only [xr]
  congr 1
  rcases hg with h | h <;> rw [h]
  · exact XR.atan2_eq one_pos (by linarith [Real.pi_pos]) (by linarith [Real.pi_pos]) (by simp) (by simp)
  · exact XR.atan2_eq one_pos (by linarith [Real.pi_pos]) (by linarith [Real.pi_pos]) (by simp) (by simp)

/-- **C142** in gimbal lock (`R[0, 2] = ±1`) the matrix of the angles returned by `R2xyz` is, whatever the matrix was and whatever the signs of
its zeros are, a quarter turn about the y-axis, possibly followed by a half turn about the z-axis -/
theorem C142_xyz (M : M3 (Sgn XR)) (N : M3 ℝ) (hv : M.val = N.fin) (hN : IsRotation N) (hg : N.r0.z = 1 ∨ N.r0.z = -1) :
    ∃ h : ℝ, (h = 1 ∨ h = -1) ∧ (xyz2R (R2xyz M).1 (R2xyz M).2.1 (R2xyz M).2.2).val = (quarterTurn N.r0.z h).fin := by
  obtain ⟨x, z, e1, e3, e2, sx, sz, cx, cz⟩ := gimbal_angles M N hv hN hg
  refine ⟨cos x * cos z, ?_, ?_⟩
  · rcases cx with h | h <;> rcases cz with h' | h' <;> rw [h, h'] <;> norm_num
  · have hcos : cos (N.r0.z * (π / 2)) = 0 := by rcases hg with h | h <;> rw [h] <;> simp
    have hsin : sin (N.r0.z * (π / 2)) = N.r0.z := by rcases hg with h | h <;> rw [h] <;> simp
    rw [xyz2R_val, e1, e2, e3, xyz2R_fin, xyz_entries, M3.fin_inj, hcos, hsin, sx, sz]
    unfold quarterTurn
    ext <;> simp
    ring

/-- **C142** no rotation matrix in gimbal lock is recovered unless its second row is `(0, ±1, 0)`, whatever the signs of its zeros are -/
theorem C142_not_recovered (M : M3 (Sgn XR)) (N : M3 ℝ) (hv : M.val = N.fin) (hN : IsRotation N) (hg : N.r0.z = 1 ∨ N.r0.z = -1)
    (h1 : N.r1.y ≠ 1) (h2 : N.r1.y ≠ -1) :
    (xyz2R (R2xyz M).1 (R2xyz M).2.1 (R2xyz M).2.2).val ≠ N.fin := by
  obtain ⟨h, hh, e⟩ := C142_xyz M N hv hN hg
  rw [e, Ne, M3.fin_inj]
  intro e'
  have : h = N.r1.y := congrArg (fun M => M.r1.y) e'
  rcases hh with h' | h'
  · exact h1 (this.symm.trans h')
  · exact h2 (this.symm.trans h')

/-- **C142** with zeros that have no sign: `xyz2R(*R2xyz(R)) = R` exactly for the rotations outside gimbal lock and the two quarter turns about
the y-axis -/
theorem C142_xyz_iff (N : M3 ℝ) (hN : IsRotation N) :
    xyz2R (R2xyz N.fin).1 (R2xyz N.fin).2.1 (R2xyz N.fin).2.2 = N.fin ↔
      (N.r0.z ≠ 1 ∧ N.r0.z ≠ -1) ∨ N = quarterTurn 1 1 ∨ N = quarterTurn (-1) 1 := by
  by_cases hg : N.r0.z ≠ 1 ∧ N.r0.z ≠ -1
  · exact ⟨fun _ => .inl hg, fun _ => C17_xyz2R_R2xyz_partial N hN hg⟩
  · have hg' : N.r0.z = 1 ∨ N.r0.z = -1 := by
      by_contra h; push Not at h; exact hg h
    have e : xyz2R (R2xyz N.fin).1 (R2xyz N.fin).2.1 (R2xyz N.fin).2.2 = (quarterTurn N.r0.z 1).fin := by
      have r0 := hN.transpose.c00; have r22 := hN.c22
      simp only [transp, col0, col1, col2, dot] at r0 r22
      have hsq : N.r0.z ^ 2 = 1 := by rcases hg' with h | h <;> rw [h] <;> norm_num
      have hx0 : N.r0.x = 0 := by nlinarith [sq_nonneg N.r0.x, sq_nonneg N.r0.y]
      have hy0 : N.r0.y = 0 := by nlinarith [sq_nonneg N.r0.x, sq_nonneg N.r0.y]
      have hz1 : N.r1.z = 0 := by nlinarith [sq_nonneg N.r1.z, sq_nonneg N.r2.z]
      have hz2 : N.r2.z = 0 := by nlinarith [sq_nonneg N.r1.z, sq_nonneg N.r2.z]
      rw [R2xyz_fin]
      simp only
      rw [xyz2R_fin, M3.fin_inj, xyz_entries, hx0, hy0, hz1, hz2]
      have hq : √(((0 : ℝ) ^ 2 + 0 ^ 2 + 0 ^ 2 + 0 ^ 2) / 2) = 0 := by norm_num
      rw [hq, neg_zero, XR.atan2_zero_zero, sin_atan2Zero]
      have hcos : cos (XR.atan2 N.r0.z 0) = 0 := XR.cos_atan2 (by rw [hsq]; norm_num)
      have hsin : sin (XR.atan2 N.r0.z 0) = N.r0.z := XR.sin_atan2 (by rw [hsq]; norm_num)
      have hc2 : cos (XR.atan2Zero : ℝ) * cos (XR.atan2Zero : ℝ) = 1 := by rcases cos_atan2Zero with h | h <;> rw [h] <;> norm_num
      rw [hcos, hsin]
      unfold quarterTurn
      ext <;> simp [hc2]
      rw [mul_assoc, hc2, mul_one]
    rw [e, M3.fin_inj]
    constructor
    · intro h
      rcases hg' with h' | h'
      · right; left; rw [← h, h']
      · right; right; rw [← h, h']
    · rintro (h | h | h)
      · exact absurd h hg
      · rw [h]; rfl
      · rw [h]; rfl

/-- **C142** the same for `zyx2R(*R2zyx(R))`: recovered exactly outside gimbal lock (`R[2, 0] = ±1`) and for the two quarter turns about the
y-axis -/
theorem C142_zyx_iff (N : M3 ℝ) (hN : IsRotation N) :
    zyx2R (R2zyx N.fin).1 (R2zyx N.fin).2.1 (R2zyx N.fin).2.2 = N.fin ↔
      (N.r2.x ≠ 1 ∧ N.r2.x ≠ -1) ∨ N = quarterTurn 1 1 ∨ N = quarterTurn (-1) 1 := by
  have h := C142_xyz_iff (transp N) hN.transpose
  have e : zyx2R (R2zyx N.fin).1 (R2zyx N.fin).2.1 (R2zyx N.fin).2.2 =
      tr (xyz2R (R2xyz (transp N).fin).1 (R2xyz (transp N).fin).2.1 (R2xyz (transp N).fin).2.2) := by
    unfold R2zyx
    rw [tr_fin, R2xyz_fin]
    simp only [xr]
    rw [C15_zyx_eq_transpose_xyz]
    simp only [neg_neg]
  have e2 : ∀ A : M3 XR, tr A = N.fin ↔ A = (transp N).fin := by
    intro A
    rw [← tr_fin]
    constructor
    · intro h; rw [← h]; rfl
    · intro h; rw [h]; rfl
  have e3 : ∀ c : ℝ, transp N = quarterTurn c 1 ↔ N = quarterTurn (-c) 1 := by
    intro c
    have : transp (quarterTurn c 1) = quarterTurn (-c) 1 := by simp [quarterTurn, transp, col0, col1, col2]
    rw [← this]
    constructor
    · intro h; rw [← h, transp_transp]
    · intro h; rw [h, transp_transp]
  rw [e, e2, h, e3, e3, neg_neg]
  have : (transp N).r0.z = N.r2.x := rfl
  rw [this, or_comm (a := N = quarterTurn (-1) 1)]

/-- the hypotheses are met by the rotation that permutes the axes, written with minus zeros -/
example : ∃ M : M3 (Sgn XR), M.val = gimbal.fin ∧ IsRotation gimbal ∧ gimbal.r0.z = 1 ∧ gimbal.r1.y ≠ 1 ∧ gimbal.r1.y ≠ -1 :=
  ⟨⟨⟨⟨fin 0, true⟩, ⟨fin 0, true⟩, ⟨fin 1, false⟩⟩, ⟨⟨fin 1, false⟩, ⟨fin 0, true⟩, ⟨fin 0, true⟩⟩, ⟨⟨fin 0, true⟩, ⟨fin 1, false⟩, ⟨fin 0, true⟩⟩⟩,
    rfl, isRotation_gimbal, rfl, by norm_num [gimbal], by norm_num [gimbal]⟩

end Nv
