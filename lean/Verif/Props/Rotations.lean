import Verif.Props.LatLon

/-!
# C12 - C17, C58: rotation matrices
-/

namespace Nv
open Spec Real
open XR (fin)

/-! ## specification: elementary right-hand rotations -/
namespace Spec
/-- right-hand rotation by `t` about the x-axis: `e_y ↦ cos t e_y + sin t e_z` -/
noncomputable def RotX (t : ℝ) : M3 ℝ := ⟨⟨1, 0, 0⟩, ⟨0, cos t, -sin t⟩, ⟨0, sin t, cos t⟩⟩
/-- right-hand rotation by `t` about the y-axis: `e_z ↦ cos t e_z + sin t e_x` -/
noncomputable def RotY (t : ℝ) : M3 ℝ := ⟨⟨cos t, 0, sin t⟩, ⟨0, 1, 0⟩, ⟨-sin t, 0, cos t⟩⟩
/-- right-hand rotation by `t` about the z-axis: `e_x ↦ cos t e_x + sin t e_y` -/
noncomputable def RotZ (t : ℝ) : M3 ℝ := ⟨⟨cos t, -sin t, 0⟩, ⟨sin t, cos t, 0⟩, ⟨0, 0, 1⟩⟩

theorem isRotation_RotX (t : ℝ) : IsRotation (RotX t) := by
  have h := Real.sin_sq_add_cos_sq t
  constructor <;> simp [RotX, col0, col1, col2, dot, Spec.det, cross] <;> linarith
theorem isRotation_RotY (t : ℝ) : IsRotation (RotY t) := by
  have h := Real.sin_sq_add_cos_sq t
  constructor <;> simp [RotY, col0, col1, col2, dot, Spec.det, cross] <;> linarith
theorem isRotation_RotZ (t : ℝ) : IsRotation (RotZ t) := by
  have h := Real.sin_sq_add_cos_sq t
  constructor <;> simp [RotZ, col0, col1, col2, dot, Spec.det, cross] <;> linarith

/-- a matrix with columns `b x c, b, c`, for orthonormal `b, c`, is a rotation -/
theorem isRotation_of_cols {M : M3 ℝ} (hb : UnitVec (col1 M)) (hc : UnitVec (col2 M))
    (hbc : dot (col1 M) (col2 M) = 0) (ha : col0 M = cross (col1 M) (col2 M)) : IsRotation M := by
  have h1 : dot (col0 M) (col0 M) = 1 := by
    rw [dot_self, ha, lagrange, hb.len, hc.len, hbc]; norm_num
  refine ⟨h1, hb.dot, hc.dot, ?_, ?_, hbc, ?_⟩
  · rw [ha, dot_cross_left_self]
  · rw [ha, dot_cross_right_self]
  · have : Spec.det M = dot (col0 M) (cross (col1 M) (col2 M)) := by
      simp [Spec.det, dot, cross, col0, col1, col2]; ring
    rw [this, ← ha, h1]

theorem col0_ofCols (a b c : V3 ℝ) : col0 (⟨⟨a.x, b.x, c.x⟩, ⟨a.y, b.y, c.y⟩, ⟨a.z, b.z, c.z⟩⟩ : M3 ℝ) = a := rfl
theorem M3.ext_cols {A B : M3 ℝ} (h0 : col0 A = col0 B) (h1 : col1 A = col1 B) (h2 : col2 A = col2 B) : A = B := by
  have : transp A = transp B := by unfold transp; rw [h0, h1, h2]
  rw [← transp_transp A, this, transp_transp]
end Spec

/-! ## C15: `xyz2R`, `zyx2R` -/

theorem xyz2R_fin (x y z : ℝ) :
    xyz2R (fin x) (fin y) (fin z) = (mmul (mmul (RotX x) (RotY y)) (RotZ z)).fin := by
  simp only [xyz2R, xr]
  simp only [M3.fin, V3.fin, mmul, dot, RotX, RotY, RotZ, col0, col1, col2, M3.mk.injEq, V3.mk.injEq, XR.fin_inj]
  refine ⟨⟨?_, ?_, ?_⟩, ⟨?_, ?_, ?_⟩, ⟨?_, ?_, ?_⟩⟩ <;> ring

theorem zyx2R_fin (z y x : ℝ) :
    zyx2R (fin z) (fin y) (fin x) = (mmul (mmul (RotZ z) (RotY y)) (RotX x)).fin := by
  simp only [zyx2R, xr]
  simp only [M3.fin, V3.fin, mmul, dot, RotX, RotY, RotZ, col0, col1, col2, M3.mk.injEq, V3.mk.injEq, XR.fin_inj]
  refine ⟨⟨?_, ?_, ?_⟩, ⟨?_, ?_, ?_⟩, ⟨?_, ?_, ?_⟩⟩ <;> ring

/-- **C15** `xyz2R(x, y, z) = Rx(x) Ry(y) Rz(z)`, a proper rotation -/
theorem C15_xyz2R (x y z : ℝ) :
    xyz2R (fin x) (fin y) (fin z) = (mmul (mmul (RotX x) (RotY y)) (RotZ z)).fin ∧
      IsRotation (mmul (mmul (RotX x) (RotY y)) (RotZ z)) :=
  ⟨xyz2R_fin x y z, ((isRotation_RotX x).mul (isRotation_RotY y)).mul (isRotation_RotZ z)⟩

/-- **C15** `zyx2R(z, y, x) = Rz(z) Ry(y) Rx(x)`, a proper rotation -/
theorem C15_zyx2R (z y x : ℝ) :
    zyx2R (fin z) (fin y) (fin x) = (mmul (mmul (RotZ z) (RotY y)) (RotX x)).fin ∧
      IsRotation (mmul (mmul (RotZ z) (RotY y)) (RotX x)) :=
  ⟨zyx2R_fin z y x, ((isRotation_RotZ z).mul (isRotation_RotY y)).mul (isRotation_RotX x)⟩

/-- **C15** the two conventions are transposes of each other with negated angles -/
theorem C15_zyx_eq_transpose_xyz (z y x : ℝ) :
    zyx2R (fin z) (fin y) (fin x) = tr (xyz2R (fin (-x)) (fin (-y)) (fin (-z))) := by
  rw [xyz2R_fin, zyx2R_fin, tr_fin, M3.fin_inj]
  ext <;> simp [mmul, transp, dot, RotX, RotY, RotZ, col0, col1, col2] <;> ring

/-! ## C16, C17: Euler angles -/

theorem R2xyz_fin (M : M3 ℝ) :
    R2xyz M.fin = (fin (XR.atan2 (-M.r1.z) M.r2.z),
      fin (XR.atan2 M.r0.z (√((M.r0.x ^ 2 + M.r0.y ^ 2 + M.r1.z ^ 2 + M.r2.z ^ 2) / 2))),
      fin (XR.atan2 (-M.r0.y) M.r0.x)) := by
  simp only [R2xyz, xr]
  rw [XR.div_fin (by norm_num), XR.sqrt_fin (by push_cast; positivity)]
  simp only [xr]; norm_num

theorem xyz_entries (x y z : ℝ) : mmul (mmul (RotX x) (RotY y)) (RotZ z) =
    ⟨⟨cos y * cos z, -(cos y * sin z), sin y⟩,
     ⟨sin y * sin x * cos z + cos x * sin z, -(sin y * sin x * sin z) + cos x * cos z, -(cos y * sin x)⟩,
     ⟨-(sin y * cos x * cos z) + sin x * sin z, sin y * cos x * sin z + sin x * cos z, cos y * cos x⟩⟩ := by
  simp only [mmul, dot, RotX, RotY, RotZ, col0, col1, col2, M3.mk.injEq, V3.mk.injEq]
  refine ⟨⟨?_, ?_, ?_⟩, ⟨?_, ?_, ?_⟩, ⟨?_, ?_, ?_⟩⟩ <;> ring

/-- **C16** `R2xyz` inverts `xyz2R` -/
theorem C16_R2xyz_xyz2R (x y z : ℝ) (hx : -π < x ∧ x ≤ π) (hy : -(π / 2) < y ∧ y < π / 2) (hz : -π < z ∧ z ≤ π) :
    R2xyz (xyz2R (fin x) (fin y) (fin z)) = (fin x, fin y, fin z) := by
  rw [xyz2R_fin, R2xyz_fin, xyz_entries]
  have hc : 0 < cos y := Real.cos_pos_of_mem_Ioo ⟨hy.1, hy.2⟩
  have e : √(((cos y * cos z) ^ 2 + (-(cos y * sin z)) ^ 2 + (-(cos y * sin x)) ^ 2 + (cos y * cos x) ^ 2) / 2) = cos y := by
    rw [show ((cos y * cos z) ^ 2 + (-(cos y * sin z)) ^ 2 + (-(cos y * sin x)) ^ 2 + (cos y * cos x) ^ 2) / 2 = cos y ^ 2 by
      linear_combination cos y ^ 2 / 2 * (Real.sin_sq_add_cos_sq x) + cos y ^ 2 / 2 * (Real.sin_sq_add_cos_sq z),
      Real.sqrt_sq hc.le]
  simp only [e, neg_neg]
  rw [XR.atan2_eq hc hx.1 hx.2 rfl rfl, XR.atan2_eq hc hz.1 hz.2 rfl rfl,
    XR.atan2_eq one_pos (by linarith [Real.pi_pos]) (by linarith [Real.pi_pos]) (one_mul _).symm (one_mul _).symm]

/-- **C16** `R2zyx` inverts `zyx2R` -/
theorem C16_R2zyx_zyx2R (z y x : ℝ) (hz : -π ≤ z ∧ z < π) (hy : -(π / 2) < y ∧ y < π / 2) (hx : -π ≤ x ∧ x < π) :
    R2zyx (zyx2R (fin z) (fin y) (fin x)) = (fin z, fin y, fin x) := by
  rw [C15_zyx_eq_transpose_xyz]
  unfold R2zyx
  have : tr (tr (xyz2R (fin (-x)) (fin (-y)) (fin (-z)) : M3 XR)) = xyz2R (fin (-x)) (fin (-y)) (fin (-z)) := rfl
  rw [this, C16_R2xyz_xyz2R (-x) (-y) (-z) ⟨by linarith, by linarith⟩ ⟨by linarith, by linarith⟩
    ⟨by linarith, by linarith⟩]
  simp only [xr, neg_neg]

/-- **C17** (part): away from gimbal lock the rotation matrix is recovered from its xyz Euler angles.
Missing: the matrices with `R[0, 2] = ±1`, for which it is false (`C17_gimbal_lock_counterexample`). -/
theorem C17_xyz2R_R2xyz_partial (M : M3 ℝ) (hM : IsRotation M) (hg : M.r0.z ≠ 1 ∧ M.r0.z ≠ -1) :
    xyz2R (R2xyz M.fin).1 (R2xyz M.fin).2.1 (R2xyz M.fin).2.2 = M.fin := by
  rw [R2xyz_fin]
  simp only
  rw [xyz2R_fin, M3.fin_inj, xyz_entries]
  have hT := hM.transpose
  have r0 := hT.c00; have r22 := hM.c22
  have e0 := hM.cross12; have e1 := hM.cross20; have e2 := hM.cross01
  obtain ⟨⟨a, b, c⟩, ⟨d, e, f⟩, ⟨g, i, j⟩⟩ := M
  simp only [transp, col0, col1, col2, dot, cross, V3.mk.injEq] at *
  obtain ⟨e01, e02, e03⟩ := e0; obtain ⟨e11, e12, e13⟩ := e1; obtain ⟨e21, e22, e23⟩ := e2
  -- cos y
  have hc2 : (a ^ 2 + b ^ 2 + f ^ 2 + j ^ 2) / 2 = 1 - c ^ 2 := by linear_combination r0 / 2 + r22 / 2
  have hpos : 0 < 1 - c ^ 2 := by
    have h1 : 0 ≤ 1 - c ^ 2 := by nlinarith [sq_nonneg a, sq_nonneg b]
    rcases h1.lt_or_eq with h | h
    · exact h
    · exfalso
      have : (c - 1) * (c + 1) = 0 := by linear_combination h
      rcases mul_eq_zero.mp this with h | h
      · exact hg.1 (by linarith)
      · exact hg.2 (by linarith)
  rw [hc2]
  set k := √(1 - c ^ 2) with hk
  have hk2 : k ^ 2 = 1 - c ^ 2 := Real.sq_sqrt hpos.le
  have hkp : 0 < k := Real.sqrt_pos.mpr hpos
  have hcy : cos (XR.atan2 c k) = k := XR.cos_atan2 (by linarith)
  have hsy : sin (XR.atan2 c k) = c := XR.sin_atan2 (by linarith)
  have hz1 : √(a ^ 2 + (-b) ^ 2) = k := by rw [hk]; congr 1; linear_combination r0
  have hx1 : √(j ^ 2 + (-f) ^ 2) = k := by rw [hk]; congr 1; linear_combination r22
  have hcz := XR.sqrt_mul_cos_atan2 (-b) a
  have hsz := XR.sqrt_mul_sin_atan2 (-b) a
  have hcx := XR.sqrt_mul_cos_atan2 (-f) j
  have hsx := XR.sqrt_mul_sin_atan2 (-f) j
  rw [hz1] at hcz hsz
  rw [hx1] at hcx hsx
  rw [hcy, hsy]
  generalize XR.atan2 (-b) a = z at *
  generalize XR.atan2 (-f) j = x at *
  have K2 : k ^ 2 ≠ 0 := by positivity
  simp only [M3.mk.injEq, V3.mk.injEq]
  refine ⟨⟨hcz, by linarith, trivial⟩, ⟨?_, ?_, by linarith⟩, ⟨?_, ?_, hcx⟩⟩
  · apply mul_left_cancel₀ K2
    -- k² d = -c f a - j b
    have : k ^ 2 * (c * sin x * cos z + cos x * sin z) = c * (k * sin x) * (k * cos z) + (k * cos x) * (k * sin z) := by ring
    rw [this, hsx, hcz, hcx, hsz, hk2]
    linear_combination e02 + c * e13
  · apply mul_left_cancel₀ K2
    have : k ^ 2 * (-(c * sin x * sin z) + cos x * cos z) = -(c * (k * sin x) * (k * sin z)) + (k * cos x) * (k * cos z) := by ring
    rw [this, hsx, hcz, hcx, hsz, hk2]
    linear_combination e12 - c * e03
  · apply mul_left_cancel₀ K2
    have : k ^ 2 * (-(c * cos x * cos z) + sin x * sin z) = -(c * (k * cos x) * (k * cos z)) + (k * sin x) * (k * sin z) := by ring
    rw [this, hsx, hcz, hcx, hsz, hk2]
    linear_combination e03 - c * e12
  · apply mul_left_cancel₀ K2
    have : k ^ 2 * (c * cos x * sin z + sin x * cos z) = c * (k * cos x) * (k * sin z) + (k * sin x) * (k * cos z) := by ring
    rw [this, hsx, hcz, hcx, hsz, hk2]
    linear_combination e13 + c * e02

/-- **C17** (part): away from gimbal lock the rotation matrix is recovered from its zyx Euler angles.
Missing: the matrices with `R[2, 0] = ±1`, for which it is false (`C17_gimbal_lock_counterexample_zyx`). -/
theorem C17_zyx2R_R2zyx_partial (M : M3 ℝ) (hM : IsRotation M) (hg : M.r2.x ≠ 1 ∧ M.r2.x ≠ -1) :
    zyx2R (R2zyx M.fin).1 (R2zyx M.fin).2.1 (R2zyx M.fin).2.2 = M.fin := by
  have h := C17_xyz2R_R2xyz_partial (transp M) hM.transpose hg
  unfold R2zyx
  rw [tr_fin]
  rw [R2xyz_fin] at h ⊢
  simp only [xr] at h ⊢
  rw [C15_zyx_eq_transpose_xyz]
  simp only [neg_neg]
  rw [h]; rfl

/-- a rotation matrix in gimbal lock -/
def Spec.gimbal : M3 ℝ := ⟨⟨0, 0, 1⟩, ⟨1, 0, 0⟩, ⟨0, 1, 0⟩⟩
theorem Spec.isRotation_gimbal : IsRotation gimbal := by
  constructor <;> simp [gimbal, col0, col1, col2, dot, Spec.det, cross]

theorem sin_atan2Zero : sin (XR.atan2Zero : ℝ) = 0 := by
  rcases XR.atan2Zero.2 with h | h | h <;> rw [h] <;> simp
theorem cos_atan2Zero : cos (XR.atan2Zero : ℝ) = 1 ∨ cos (XR.atan2Zero : ℝ) = -1 := by
  rcases XR.atan2Zero.2 with h | h | h <;> rw [h] <;> simp

/-- **C17** is false as stated: at gimbal lock `xyz2R(*R2xyz(R))` is another rotation than `R`, whichever value
`arctan2(±0, ±0)` has. -/
theorem C17_gimbal_lock_counterexample :
    IsRotation gimbal ∧
      xyz2R (R2xyz gimbal.fin).1 (R2xyz gimbal.fin).2.1 (R2xyz gimbal.fin).2.2 ≠ gimbal.fin := by
  refine ⟨isRotation_gimbal, ?_⟩
  rw [R2xyz_fin]
  simp only
  rw [xyz2R_fin, Ne, M3.fin_inj, xyz_entries]
  intro h
  have h := congrArg (fun M => M.r1.x) h
  simp [gimbal, XR.atan2_zero_zero, sin_atan2Zero] at h

/-- **C17** false for `zyx2R(*R2zyx(R))` too -/
theorem C17_gimbal_lock_counterexample_zyx :
    IsRotation (transp gimbal) ∧
      zyx2R (R2zyx (transp gimbal).fin).1 (R2zyx (transp gimbal).fin).2.1 (R2zyx (transp gimbal).fin).2.2 ≠
        (transp gimbal).fin := by
  refine ⟨isRotation_gimbal.transpose, ?_⟩
  unfold R2zyx
  rw [tr_fin, R2xyz_fin]
  simp only [xr]
  rw [C15_zyx_eq_transpose_xyz, xyz2R_fin, tr_fin, Ne, M3.fin_inj, xyz_entries]
  intro h
  have h := congrArg (fun M => M.r0.y) h
  simp [gimbal, XR.atan2_zero_zero, sin_atan2Zero, transp, col0, col1, col2] at h

/-- **C17** what still holds in gimbal lock: the result is a rotation with the same image of the z-axis' first
coordinate, i.e. the middle angle is always recovered (`sin y = R[0,2]`, `y` in `[-π/2, π/2]`). -/
theorem C17_middle_angle (M : M3 ℝ) (hM : IsRotation M) :
    ∃ x y z : ℝ, R2xyz M.fin = (fin x, fin y, fin z) ∧ sin y = M.r0.z ∧ -(π / 2) ≤ y ∧ y ≤ π / 2 ∧
      -π ≤ x ∧ x ≤ π ∧ -π ≤ z ∧ z ≤ π := by
  refine ⟨_, _, _, R2xyz_fin M, ?_⟩
  have r0 := hM.transpose.c00; have r22 := hM.c22
  simp only [transp, col0, col1, col2, dot] at r0 r22
  have hc2 : (M.r0.x ^ 2 + M.r0.y ^ 2 + M.r1.z ^ 2 + M.r2.z ^ 2) / 2 = 1 - M.r0.z ^ 2 := by
    linear_combination r0 / 2 + r22 / 2
  have hpos : 0 ≤ 1 - M.r0.z ^ 2 := by nlinarith [sq_nonneg M.r0.x, sq_nonneg M.r0.y]
  rw [hc2]
  have hs := Real.sq_sqrt hpos
  have h1 : √(1 - M.r0.z ^ 2) ^ 2 + M.r0.z ^ 2 = 1 := by linarith
  have hne : ¬ (√(1 - M.r0.z ^ 2) = 0 ∧ M.r0.z = 0) := by
    rintro ⟨a, b⟩; rw [a, b] at h1; norm_num at h1
  have := abs_le.mp (XR.abs_atan2_le_pi_div_two hne (Real.sqrt_nonneg _))
  exact ⟨XR.sin_atan2 h1, this.1, this.2, XR.neg_pi_le_atan2 _ _, XR.atan2_le_pi _ _, XR.neg_pi_le_atan2 _ _,
    XR.atan2_le_pi _ _⟩

/-! ## C12: `n_E2R_EN` -/

/-- specification: the direction of the north pole in the E frame chosen by `R_Ee` -/
def Spec.northPole (R : M3 ℝ) : V3 ℝ := app (transp R) ⟨1, 0, 0⟩

theorem Spec.northPole_unit {R : M3 ℝ} (hR : IsRotation R) : UnitVec (northPole R) :=
  unitVec_app hR.transpose (by simp [UnitVec])

theorem Spec.cross_pole {R : M3 ℝ} (hR : IsRotation R) (n : V3 ℝ) :
    app (transp R) (cross ⟨1, 0, 0⟩ (app R n)) = cross (northPole R) n := by
  rw [← cross_app hR.transpose, hR.trans_app]; rfl

/-- `n_E2R_EN` off the polar axis: columns north, east, down -/
theorem n_E2R_EN_offpole (n : V3 ℝ) (R : M3 ℝ) (hR : IsRotation R) (hp : cross (northPole R) n ≠ 0) :
    ∃ M : M3 ℝ, n_E2R_EN n.fin R.fin = M.fin ∧ IsRotation M ∧ col2 M = -dirOf n ∧
      col1 M = dirOf (cross (northPole R) n) ∧
      col0 M = cross (dirOf n) (dirOf (cross (northPole R) n)) := by
  have hn : n ≠ 0 := by
    rintro rfl; apply hp; ext <;> simp [cross]
  have hRn := app_ne_zero hR hn
  have hm := app_dirOf hR n
  have hd : cross ⟨1, 0, 0⟩ (app R (dirOf n)) = (len n)⁻¹ • cross ⟨1, 0, 0⟩ (app R n) := by
    unfold dirOf; rw [app_smul, cross_smul_right]
  have hc0 : cross ⟨1, 0, 0⟩ (app R n) ≠ 0 := by
    intro h; apply hp; rw [← cross_pole hR, h]; ext <;> simp [app, dot]
  have hc : cross ⟨1, 0, 0⟩ (app R (dirOf n)) ≠ 0 := by
    rw [hd]; exact smul_ne_zero (inv_ne_zero (len_pos hn).ne') hc0
  have hnd : dirOf (cross ⟨1, 0, 0⟩ (app R (dirOf n))) = dirOf (cross ⟨1, 0, 0⟩ (app R n)) := by
    rw [hd, dirOf_smul (inv_pos.mpr (len_pos hn))]
  have e1 : n_E2R_EN n.fin R.fin = (mmul (transp R)
      ⟨⟨(cross (dirOf (cross ⟨1, 0, 0⟩ (app R n))) (-app R (dirOf n))).x, (dirOf (cross ⟨1, 0, 0⟩ (app R n))).x, (-app R (dirOf n)).x⟩,
       ⟨(cross (dirOf (cross ⟨1, 0, 0⟩ (app R n))) (-app R (dirOf n))).y, (dirOf (cross ⟨1, 0, 0⟩ (app R n))).y, (-app R (dirOf n)).y⟩,
       ⟨(cross (dirOf (cross ⟨1, 0, 0⟩ (app R n))) (-app R (dirOf n))).z, (dirOf (cross ⟨1, 0, 0⟩ (app R n))).z, (-app R (dirOf n)).z⟩⟩).fin := by
    simp only [n_E2R_EN, xr, unit_fin hRn, hm, V3.mk_fin, Rat.cast_one, Rat.cast_zero, (len_pos hc).ne',
      decide_false, Bool.false_eq_true, if_false, unit_fin hc, hnd]
    rw [← mdot_fin]; rfl
  have c1 : app (transp R) (dirOf (cross ⟨1, 0, 0⟩ (app R n))) = dirOf (cross (northPole R) n) := by
    rw [← app_dirOf hR.transpose, cross_pole hR]
  have c2 : app (transp R) (-app R (dirOf n)) = -dirOf n := by
    rw [app_neg, hR.trans_app]
  have c0 : app (transp R) (cross (dirOf (cross ⟨1, 0, 0⟩ (app R n))) (-app R (dirOf n))) =
      cross (dirOf (cross (northPole R) n)) (-dirOf n) := by
    rw [← cross_app hR.transpose, c1, c2]
  refine ⟨_, e1, ?_, ?_, ?_, ?_⟩
  · apply isRotation_of_cols
    · rw [col1_mmul]; show UnitVec (app (transp R) _); rw [show col1 _ = dirOf (cross ⟨1, 0, 0⟩ (app R n)) from rfl, c1]
      exact dirOf_unit hp
    · rw [col2_mmul, show col2 _ = -app R (dirOf n) from rfl, c2]
      have := dirOf_unit hn
      unfold UnitVec at *; simpa using this
    · rw [col1_mmul, col2_mmul, show col1 _ = dirOf (cross ⟨1, 0, 0⟩ (app R n)) from rfl, c1,
        show col2 _ = -app R (dirOf n) from rfl, c2, dot_neg_right]
      unfold dirOf
      rw [dot_smul_left, dot_smul_right, dot_cross_right_self]; ring
    · rw [col0_mmul, col1_mmul, col2_mmul, show col1 _ = dirOf (cross ⟨1, 0, 0⟩ (app R n)) from rfl, c1,
        show col2 _ = -app R (dirOf n) from rfl, c2, col0_ofCols, c0]
  · rw [col2_mmul, show col2 _ = -app R (dirOf n) from rfl, c2]
  · rw [col1_mmul, show col1 _ = dirOf (cross ⟨1, 0, 0⟩ (app R n)) from rfl, c1]
  · rw [col0_mmul, col0_ofCols, c0, cross_comm]
    ext <;> simp [cross] <;> ring

/-- `n_E2R_EN` on the polar axis -/
theorem n_E2R_EN_pole (n : V3 ℝ) (hn : n ≠ 0) (R : M3 ℝ) (hR : IsRotation R) (hp : cross (northPole R) n = 0) :
    ∃ M : M3 ℝ, n_E2R_EN n.fin R.fin = M.fin ∧ IsRotation M ∧ col2 M = -dirOf n ∧
      col1 M = app (transp R) ⟨0, 1, 0⟩ := by
  have hRn := app_ne_zero hR hn
  have hm := app_dirOf hR n
  have hc0 : cross ⟨1, 0, 0⟩ (app R n) = 0 := by
    have := cross_pole hR n
    rw [hp] at this
    have h2 := hR.app_trans (cross ⟨1, 0, 0⟩ (app R n))
    rw [this] at h2
    rw [← h2]; ext <;> simp [app, dot]
  have hc : cross ⟨1, 0, 0⟩ (app R (dirOf n)) = 0 := by
    unfold dirOf; rw [app_smul, cross_smul_right, hc0]; ext <;> simp
  have hcl : len (cross ⟨1, 0, 0⟩ (app R (dirOf n))) = 0 := len_eq_zero.mpr hc
  set m := app R (dirOf n) with hmdef
  have hmu : UnitVec m := unitVec_app hR (dirOf_unit hn)
  have my : m.y = 0 := by have := congrArg V3.z hc; simpa [cross] using this
  have mz : m.z = 0 := by have := congrArg V3.y hc; simpa [cross] using this
  have e1 : n_E2R_EN n.fin R.fin = (mmul (transp R)
      ⟨⟨(cross ⟨0, 1, 0⟩ (-m)).x, 0, (-m).x⟩, ⟨(cross ⟨0, 1, 0⟩ (-m)).y, 1, (-m).y⟩,
       ⟨(cross ⟨0, 1, 0⟩ (-m)).z, 0, (-m).z⟩⟩).fin := by
    simp only [n_E2R_EN, xr, unit_fin hRn, hm, V3.mk_fin, Rat.cast_one, Rat.cast_zero, hcl,
      decide_true, if_true]
    rw [← mdot_fin]; rfl
  have c2 : app (transp R) (-m) = -dirOf n := by
    rw [app_neg, hmdef, hR.trans_app]
  refine ⟨_, e1, ?_, ?_, rfl⟩
  · apply hR.transpose.mul
    apply isRotation_of_cols
    · simp [UnitVec, col1]
    · unfold UnitVec at *; simpa [col2] using hmu
    · simp [dot, col1, col2, my]
    · rfl
  · rw [col2_mmul, show col2 _ = -m from rfl, c2]

/-- **C12** `n_E2R_EN(n)` is a proper rotation whose third column (down) is `-n/|n|`, for every nonzero n-vector,
poles included. -/
theorem C12_R_EN_rotation (n : V3 ℝ) (hn : n ≠ 0) (R : M3 ℝ) (hR : IsRotation R) :
    ∃ M : M3 ℝ, n_E2R_EN n.fin R.fin = M.fin ∧ IsRotation M ∧ col2 M = -((len n)⁻¹ • n) := by
  by_cases hp : cross (northPole R) n = 0
  · obtain ⟨M, h1, h2, h3, _⟩ := n_E2R_EN_pole n hn R hR hp; exact ⟨M, h1, h2, h3⟩
  · obtain ⟨M, h1, h2, h3, _⟩ := n_E2R_EN_offpole n R hR hp; exact ⟨M, h1, h2, h3⟩

/-- **C12** away from the poles the second column is the unit east direction `pole × n / |pole × n|`, and the first is
the unit north direction: perpendicular to `n` and to east, and making an acute angle with the north pole. -/
theorem C12_R_EN_north_east (n : V3 ℝ) (R : M3 ℝ) (hR : IsRotation R) (hp : cross (northPole R) n ≠ 0) :
    ∃ M : M3 ℝ, n_E2R_EN n.fin R.fin = M.fin ∧ col1 M = (len (cross (northPole R) n))⁻¹ • cross (northPole R) n ∧
      UnitVec (col0 M) ∧ dot (col0 M) n = 0 ∧ dot (col0 M) (cross (northPole R) n) = 0 ∧
      0 < dot (col0 M) (northPole R) := by
  obtain ⟨M, h1, h2, h3, h4, h5⟩ := n_E2R_EN_offpole n R hR hp
  have hn : n ≠ 0 := by
    rintro rfl; apply hp; ext <;> simp [cross]
  have hl := len_pos hn
  have hlc := len_pos hp
  refine ⟨M, h1, h4, ?_, ?_, ?_, ?_⟩
  · have := h2.c00; unfold UnitVec; simp only [dot] at this; linarith
  · rw [h5]; unfold dirOf; rw [cross_smul_left, dot_smul_left, cross_smul_right, dot_smul_left, dot_cross_left_self]; ring
  · rw [h5]; unfold dirOf; rw [cross_smul_left, dot_smul_left, cross_smul_right, dot_smul_left, dot_cross_right_self]; ring
  · rw [h5]; unfold dirOf; rw [cross_smul_left, dot_smul_left, cross_smul_right, dot_smul_left]
    have : dot (cross n (cross (northPole R) n)) (northPole R) = len (cross (northPole R) n) ^ 2 := by
      rw [len_sq]; simp [dot, cross]; ring
    rw [this]; positivity

/-- **C12** at the poles east is taken along the y-axis of the `e` frame (rotation.py:460-468) -/
theorem C12_R_EN_pole (n : V3 ℝ) (hn : n ≠ 0) (R : M3 ℝ) (hR : IsRotation R) (hp : cross (northPole R) n = 0) :
    ∃ M : M3 ℝ, n_E2R_EN n.fin R.fin = M.fin ∧ IsRotation M ∧ col2 M = -((len n)⁻¹ • n) ∧
      col1 M = app (transp R) ⟨0, 1, 0⟩ := n_E2R_EN_pole n hn R hR hp

/-! ## C13: `n_E_and_wa2R_EL` -/

theorem geoNormal_of_n (n : V3 ℝ) (hn : n ≠ 0) (R : M3 ℝ) (hR : IsRotation R) :
    geoNormal (XR.atan2 (app R n).x (√((app R n).y ^ 2 + (app R n).z ^ 2))) (XR.atan2 (app R n).y (-(app R n).z)) =
      app R (dirOf n) := by
  have h := C02_roundtrip n hn R hR
  rw [n_E2lat_lon_fin, lat_lon2n_E_fin, V3.fin_inj] at h
  have := congrArg (app R) h
  rwa [hR.app_trans] at this

/-- **C13** `n_E_and_wa2R_EL(n, wa)` is a proper rotation with third column `-n/|n|` (poles included) -/
theorem C13_R_EL_rotation (n : V3 ℝ) (hn : n ≠ 0) (wa : ℝ) (R : M3 ℝ) (hR : IsRotation R) :
    ∃ M : M3 ℝ, n_E_and_wa2R_EL n.fin (fin wa) R.fin = M.fin ∧ IsRotation M ∧ col2 M = -((len n)⁻¹ • n) := by
  unfold n_E_and_wa2R_EL
  rw [n_E2lat_lon_fin]
  simp only [xr]
  rw [xyz2R_fin, mdot_fin]
  refine ⟨_, rfl, ?_, ?_⟩
  · exact hR.transpose.mul (C15_xyz2R _ _ _).2
  · have hg := geoNormal_of_n n hn R hR
    rw [col2_mmul, xyz_entries]
    generalize XR.atan2 (app R n).x (√((app R n).y ^ 2 + (app R n).z ^ 2)) = lat at *
    generalize XR.atan2 (app R n).y (-(app R n).z) = lon at *
    have e : (⟨sin (-lat), -(cos (-lat) * sin lon), cos (-lat) * cos lon⟩ : V3 ℝ) = -geoNormal lat lon := by
      unfold geoNormal; ext <;> simp <;> ring
    show app (transp R) ⟨sin (-lat), -(cos (-lat) * sin lon), cos (-lat) * cos lon⟩ = _
    rw [e, app_neg, hg, hR.trans_app]; rfl

/-- **C13** away from the poles `R_EL` is `R_EN` turned by the wander azimuth about the down axis -/
theorem C13_R_EL_eq_R_EN_turned (n : V3 ℝ) (wa : ℝ) (R : M3 ℝ) (hR : IsRotation R)
    (hp : cross (northPole R) n ≠ 0) :
    ∃ N : M3 ℝ, n_E2R_EN n.fin R.fin = N.fin ∧
      n_E_and_wa2R_EL n.fin (fin wa) R.fin = (mmul N (RotZ wa)).fin := by
  obtain ⟨N, h1, h2, h3, h4, h5⟩ := n_E2R_EN_offpole n R hR hp
  refine ⟨N, h1, ?_⟩
  have hn : n ≠ 0 := by
    rintro rfl; apply hp; ext <;> simp [cross]
  unfold n_E_and_wa2R_EL
  have hr := C03_ranges n hn R hR
  obtain ⟨lat', lon', hll, hlat1, hlat2, -, -, -⟩ := hr
  have hg := geoNormal_of_n n hn R hR
  rw [n_E2lat_lon_fin] at hll ⊢
  simp only [Prod.mk.injEq, XR.fin_inj] at hll
  obtain ⟨rfl, rfl⟩ := hll
  generalize XR.atan2 (app R n).x (√((app R n).y ^ 2 + (app R n).z ^ 2)) = lat at *
  generalize XR.atan2 (app R n).y (-(app R n).z) = lon at *
  simp only [xr]
  rw [xyz2R_fin, mdot_fin, M3.fin_inj, ← mmul_assoc]
  congr 1
  -- cos lat > 0 off the poles
  have hpole : ∀ v, app (transp R) (cross ⟨1, 0, 0⟩ (app R v)) = cross (northPole R) v := cross_pole hR
  have hcl : 0 < cos lat := by
    rcases hlat1.lt_or_eq with h | h
    · rcases hlat2.lt_or_eq with h' | h'
      · exact Real.cos_pos_of_mem_Ioo ⟨h, h'⟩
      · exfalso; apply hp
        have hz : cross ⟨1, 0, 0⟩ (geoNormal lat lon) = 0 := by
          rw [h']; unfold geoNormal; ext <;> simp [cross]
        have := hpole (dirOf n)
        rw [← hg, hz] at this
        have e : cross (northPole R) n = len n • cross (northPole R) (dirOf n) := by
          rw [← cross_smul_right, smul_dirOf]
        rw [e, ← this]; ext <;> simp [app, dot]
    · exfalso; apply hp
      have hz : cross ⟨1, 0, 0⟩ (geoNormal lat lon) = 0 := by
        rw [← h]; unfold geoNormal; ext <;> simp [cross]
      have := hpole (dirOf n)
      rw [← hg, hz] at this
      have e : cross (northPole R) n = len n • cross (northPole R) (dirOf n) := by
        rw [← cross_smul_right, smul_dirOf]
      rw [e, ← this]; ext <;> simp [app, dot]
  have heast : dirOf (cross (northPole R) n) = app (transp R) ⟨0, cos lon, sin lon⟩ := by
    have e : cross (northPole R) n = len n • cross (northPole R) (dirOf n) := by
      rw [← cross_smul_right, smul_dirOf]
    rw [e, dirOf_smul (len_pos hn), ← hpole, ← hg, app_dirOf hR.transpose]
    congr 1
    have e2 : cross ⟨1, 0, 0⟩ (geoNormal lat lon) = cos lat • (⟨0, cos lon, sin lon⟩ : V3 ℝ) := by
      unfold geoNormal; ext <;> simp [cross] <;> ring
    rw [e2, dirOf_smul hcl, dirOf_of_unit]
    have := Real.sin_sq_add_cos_sq lon
    simp only [UnitVec]; linarith
  have hx : mmul (RotX lon) (RotY (-lat)) =
      ⟨⟨cos lat, 0, -sin lat⟩, ⟨-(sin lon * sin lat), cos lon, -(sin lon * cos lat)⟩,
        ⟨cos lon * sin lat, sin lon, cos lon * cos lat⟩⟩ := by
    ext <;> simp [mmul, dot, RotX, RotY, col0, col1, col2]
  have hcol2 : col2 (mmul (transp R) (mmul (RotX lon) (RotY (-lat)))) = col2 N := by
    rw [h3, col2_mmul, hx]
    have e : col2 (⟨⟨cos lat, 0, -sin lat⟩, ⟨-(sin lon * sin lat), cos lon, -(sin lon * cos lat)⟩,
        ⟨cos lon * sin lat, sin lon, cos lon * cos lat⟩⟩ : M3 ℝ) = -geoNormal lat lon := by
      unfold geoNormal col2; ext <;> simp
    rw [e, app_neg, hg, hR.trans_app]
  have hcol1 : col1 (mmul (transp R) (mmul (RotX lon) (RotY (-lat)))) = col1 N := by
    rw [h4, heast, col1_mmul, hx, col1]
  have hrot : IsRotation (mmul (transp R) (mmul (RotX lon) (RotY (-lat)))) :=
    hR.transpose.mul ((isRotation_RotX _).mul (isRotation_RotY _))
  apply M3.ext_cols
  · rw [← hrot.cross12, ← h2.cross12, hcol1, hcol2]
  · exact hcol1
  · exact hcol2

/-- **C13** zero wander azimuth gives `R_EN` (away from the poles) -/
theorem C13_R_EL_zero (n : V3 ℝ) (R : M3 ℝ) (hR : IsRotation R) (hp : cross (northPole R) n ≠ 0) :
    n_E_and_wa2R_EL n.fin (fin 0) R.fin = n_E2R_EN n.fin R.fin := by
  obtain ⟨N, h1, h2⟩ := C13_R_EL_eq_R_EN_turned n 0 R hR hp
  rw [h1, h2]
  congr 1
  have : RotZ 0 = one := by simp [RotZ, one]
  rw [this, mmul_one]

/-! ## C14 -/

theorem R_EL2n_E_fin (M : M3 ℝ) : R_EL2n_E M.fin = (-col2 M).fin := by
  simp only [R_EL2n_E, xr, V3.mk_fin]
  rw [V3.fin_inj]
  ext <;> simp [app, dot, col2]

/-- **C14** the n-vector is recovered from `R_EN` -/
theorem C14_R_EN2n_E (n : V3 ℝ) (hn : n ≠ 0) (R : M3 ℝ) (hR : IsRotation R) :
    R_EN2n_E (n_E2R_EN n.fin R.fin) = ((len n)⁻¹ • n).fin := by
  obtain ⟨M, h1, _, h3⟩ := C12_R_EN_rotation n hn R hR
  rw [h1, R_EN2n_E, R_EL2n_E_fin, h3]
  congr 1; ext <;> simp

/-- **C14** the n-vector is recovered from `R_EL` -/
theorem C14_R_EL2n_E (n : V3 ℝ) (hn : n ≠ 0) (wa : ℝ) (R : M3 ℝ) (hR : IsRotation R) :
    R_EL2n_E (n_E_and_wa2R_EL n.fin (fin wa) R.fin) = ((len n)⁻¹ • n).fin := by
  obtain ⟨M, h1, _, h3⟩ := C13_R_EL_rotation n hn wa R hR
  rw [h1, R_EL2n_E_fin, h3]
  congr 1; ext <;> simp

/-! ## C58: `mdot` (one page) -/

/-- **C58** `mdot` is the matrix product: applying `mdot(A, B)` is applying `B`, then `A` -/
theorem C58_mdot_apply (A B : M3 ℝ) (v : V3 ℝ) :
    mulVec (mdot A.fin B.fin) v.fin = mulVec A.fin (mulVec B.fin v.fin) := by
  simp only [xr, app_mmul]
/-- **C58** associativity -/
theorem C58_mdot_assoc (A B C : M3 ℝ) : mdot (mdot A.fin B.fin) C.fin = mdot A.fin (mdot B.fin C.fin) := by
  simp only [xr, Spec.mmul_assoc]
/-- **C58** identity -/
theorem C58_mdot_one (A : M3 ℝ) : mdot A.fin R_E = A.fin ∧ mdot R_E A.fin = A.fin := by
  simp only [xr, Spec.mmul_one, Spec.one_mmul, and_self]
/-- **C58** transposition reverses products -/
theorem C58_tr_mdot (A B : M3 ℝ) : tr (mdot A.fin B.fin) = mdot (tr B.fin) (tr A.fin) := by
  simp only [xr, Spec.trans_mmul]
/-- **C58** products of rotations are rotations -/
theorem C58_mdot_rotation (A B : M3 ℝ) (hA : IsRotation A) (hB : IsRotation B) :
    ∃ M, mdot A.fin B.fin = M.fin ∧ IsRotation M ∧ mdot M.fin (tr M.fin) = R_E := by
  refine ⟨_, mdot_fin A B, hA.mul hB, ?_⟩
  have h := (hA.mul hB)
  rw [tr_fin, mdot_fin, R_E_fin, M3.fin_inj]
  have key : ∀ v, app (mmul (mmul A B) (transp (mmul A B))) v = v := fun v => by
    rw [app_mmul, h.app_trans]
  have k0 := key ⟨1, 0, 0⟩; have k1 := key ⟨0, 1, 0⟩; have k2 := key ⟨0, 0, 1⟩
  apply M3.ext_cols
  · rw [show col0 one = ⟨1, 0, 0⟩ from rfl, ← k0]; ext <;> simp [app, dot, col0]
  · rw [show col1 one = ⟨0, 1, 0⟩ from rfl, ← k1]; ext <;> simp [app, dot, col1]
  · rw [show col2 one = ⟨0, 0, 1⟩ from rfl, ← k2]; ext <;> simp [app, dot, col2]

/-! non-vacuity: a point off the polar axis, a pole, angles in range, a rotation off gimbal lock -/
example : cross (northPole Re) ⟨1, 0, 0⟩ ≠ 0 ∧ cross (northPole Re) ⟨0, 0, 1⟩ = 0 := by
  constructor
  · intro h; have := congrArg V3.y h; simp [cross, northPole, app, transp, Re, dot, col0, col1, col2] at this
  · ext <;> simp [cross, northPole, app, transp, Re, dot, col0, col1, col2]
example : IsRotation (RotY 1) ∧ (RotZ 1).r0.z ≠ 1 ∧ (RotZ 1).r0.z ≠ -1 ∧ (RotZ 1).r2.x ≠ 1 ∧ (RotZ 1).r2.x ≠ -1 :=
  ⟨isRotation_RotY 1, by simp [RotZ], by simp [RotZ], by simp [RotZ], by simp [RotZ]⟩
example : (-π < (1:ℝ) ∧ (1:ℝ) ≤ π) ∧ -(π / 2) < (-1/2:ℝ) ∧ (-1/2:ℝ) < π / 2 := by
  have := Real.two_le_pi; refine ⟨⟨?_, ?_⟩, ?_, ?_⟩ <;> linarith

end Nv
