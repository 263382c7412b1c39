import Verif.Lemmas.Atan2

/-!
# Rotation matrices over the reals
-/

namespace Nv
namespace Spec

section
variable {M : M3 ℝ}

theorem dot_comm (v w : V3 ℝ) : dot v w = dot w v := by unfold dot; ring
theorem dot_add_left (u v w : V3 ℝ) : dot (u + v) w = dot u w + dot v w := by simp [dot]; ring
theorem dot_add_right (u v w : V3 ℝ) : dot u (v + w) = dot u v + dot u w := by simp [dot]; ring
theorem dot_sub_left (u v w : V3 ℝ) : dot (u - v) w = dot u w - dot v w := by simp [dot]; ring
theorem dot_sub_right (u v w : V3 ℝ) : dot u (v - w) = dot u v - dot u w := by simp [dot]; ring
theorem dot_smul_left (c : ℝ) (v w : V3 ℝ) : dot (c • v) w = c * dot v w := by simp [dot]; ring
theorem dot_smul_right (c : ℝ) (v w : V3 ℝ) : dot v (c • w) = c * dot v w := by simp [dot]; ring
theorem dot_neg_left (v w : V3 ℝ) : dot (-v) w = -dot v w := by simp [dot]; ring
theorem dot_neg_right (v w : V3 ℝ) : dot v (-w) = -dot v w := by simp [dot]; ring
theorem dot_cross_self_left (v w : V3 ℝ) : dot v (cross v w) = 0 := by simp [dot, cross]; ring
theorem dot_cross_self_right (v w : V3 ℝ) : dot w (cross v w) = 0 := by simp [dot, cross]; ring
theorem dot_cross_left_self (v w : V3 ℝ) : dot (cross v w) v = 0 := by simp [dot, cross]; ring
theorem dot_cross_right_self (v w : V3 ℝ) : dot (cross v w) w = 0 := by simp [dot, cross]; ring
theorem cross_smul_left (c : ℝ) (v w : V3 ℝ) : cross (c • v) w = c • cross v w := by ext <;> simp [cross] <;> ring
theorem cross_smul_right (c : ℝ) (v w : V3 ℝ) : cross v (c • w) = c • cross v w := by ext <;> simp [cross] <;> ring
theorem cross_comm (v w : V3 ℝ) : cross v w = -cross w v := by ext <;> simp [cross] <;> ring
theorem cross_self (v : V3 ℝ) : cross v v = 0 := by ext <;> simp [cross] <;> ring

/-- each column is the cross product of the other two -/
theorem IsRotation.cross01 (h : IsRotation M) : cross (col0 M) (col1 M) = col2 M := by
  obtain ⟨c00, c11, c22, c01, c02, c12, hd⟩ := h
  -- |c0 x c1 - c2|^2 = |c0 x c1|^2 + |c2|^2 - 2 det = 1 + 1 - 2
  have h1 : len (cross (col0 M) (col1 M)) ^ 2 = 1 := by
    rw [lagrange, ← dot_self, ← dot_self, c00, c11, c01]; norm_num
  have hdet : dot (cross (col0 M) (col1 M)) (col2 M) = 1 := by
    rw [← hd]; simp [dot, cross, col0, col1, col2, Spec.det]; ring
  have h2 : len (cross (col0 M) (col1 M) - col2 M) ^ 2 = 0 := by
    rw [← dot_self, dot_sub_left, dot_sub_right, dot_sub_right, dot_self, h1, c22, dot_comm (col2 M), hdet]; norm_num
  have h3 := len_eq_zero.mp (pow_eq_zero_iff (two_ne_zero) |>.mp h2)
  have hx := congrArg V3.x h3; have hy := congrArg V3.y h3; have hz := congrArg V3.z h3
  simp only [sub_x, sub_y, sub_z, zero_x, zero_y, zero_z] at hx hy hz
  ext <;> linarith

theorem cross_cross (u v w : V3 ℝ) : cross (cross u v) w = dot u w • v - dot v w • u := by
  ext <;> simp [cross, dot] <;> ring
theorem cross_cross' (u v w : V3 ℝ) : cross u (cross v w) = dot u w • v - dot u v • w := by
  ext <;> simp [cross, dot] <;> ring

theorem IsRotation.cross12 (h : IsRotation M) : cross (col1 M) (col2 M) = col0 M := by
  rw [← h.cross01, cross_cross', h.c11, dot_comm, h.c01]; ext <;> simp
theorem IsRotation.cross20 (h : IsRotation M) : cross (col2 M) (col0 M) = col1 M := by
  rw [← h.cross01, cross_cross, h.c00, dot_comm, h.c01]; ext <;> simp

/-- `M (Mᵀ v) = v` -/
theorem IsRotation.app_trans (h : IsRotation M) (v : V3 ℝ) : app M (app (transp M) v) = v := by
  have e0 := h.cross12; have e1 := h.cross20; have e2 := h.cross01
  have hd := h.det
  obtain ⟨⟨a, b, c⟩, ⟨d, e, f⟩, ⟨g, i, j⟩⟩ := M
  simp only [col0, col1, col2, cross, V3.mk.injEq, Spec.det, dot] at e0 e1 e2 hd
  obtain ⟨e01, e02, e03⟩ := e0; obtain ⟨e11, e12, e13⟩ := e1; obtain ⟨e21, e22, e23⟩ := e2
  have r00 : a * a + b * b + c * c = 1 := by
    calc a * a + b * b + c * c = a * (e * j - i * f) + b * (f * g - j * d) + c * (d * i - g * e) := by
          rw [e01, e11, e21]
      _ = 1 := by linear_combination hd
  have r11 : d * d + e * e + f * f = 1 := by
    calc d * d + e * e + f * f = d * (i * c - b * j) + e * (j * a - c * g) + f * (g * b - a * i) := by
          rw [e02, e12, e22]
      _ = 1 := by linear_combination hd
  have r22 : g * g + i * i + j * j = 1 := by
    calc g * g + i * i + j * j = g * (b * f - e * c) + i * (c * d - f * a) + j * (a * e - d * b) := by
          rw [e03, e13, e23]
      _ = 1 := by linear_combination hd
  have r01 : a * d + b * e + c * f = 0 := by
    calc a * d + b * e + c * f = (e * j - i * f) * d + (f * g - j * d) * e + (d * i - g * e) * f := by
          rw [e01, e11, e21]
      _ = 0 := by ring
  have r02 : a * g + b * i + c * j = 0 := by
    calc a * g + b * i + c * j = (e * j - i * f) * g + (f * g - j * d) * i + (d * i - g * e) * j := by
          rw [e01, e11, e21]
      _ = 0 := by ring
  have r12 : d * g + e * i + f * j = 0 := by
    calc d * g + e * i + f * j = (i * c - b * j) * g + (j * a - c * g) * i + (g * b - a * i) * j := by
          rw [e02, e12, e22]
      _ = 0 := by ring
  obtain ⟨x, y, z⟩ := v
  simp only [app, transp, dot, col0, col1, col2, V3.mk.injEq]
  refine ⟨?_, ?_, ?_⟩
  · linear_combination x * r00 + y * r01 + z * r02
  · linear_combination x * r01 + y * r11 + z * r12
  · linear_combination x * r02 + y * r12 + z * r22

/-- `Mᵀ (M v) = v` -/
theorem IsRotation.trans_app (h : IsRotation M) (v : V3 ℝ) : app (transp M) (app M v) = v := by
  obtain ⟨c00, c11, c22, c01, c02, c12, hd⟩ := h
  obtain ⟨⟨a, b, c⟩, ⟨d, e, f⟩, ⟨g, i, j⟩⟩ := M
  obtain ⟨x, y, z⟩ := v
  simp only [app, transp, dot, col0, col1, col2, V3.mk.injEq] at *
  refine ⟨?_, ?_, ?_⟩
  · linear_combination x * c00 + y * c01 + z * c02
  · linear_combination x * c01 + y * c11 + z * c12
  · linear_combination x * c02 + y * c12 + z * c22

theorem transp_transp (M : M3 ℝ) : transp (transp M) = M := rfl

theorem IsRotation.transpose (h : IsRotation M) : IsRotation (transp M) := by
  have hx := h.app_trans ⟨1, 0, 0⟩
  have hy := h.app_trans ⟨0, 1, 0⟩
  have hz := h.app_trans ⟨0, 0, 1⟩
  have hd := h.det
  simp only [app, transp, col0, col1, col2, V3.mk.injEq, dot, mul_zero, _root_.mul_one, add_zero, zero_add] at hx hy hz
  constructor
  · simp only [transp, col0, col1, col2, dot]; linarith [hx.1]
  · simp only [transp, col1, dot, col0, col2]; linarith [hy.2.1]
  · simp only [transp, col1, dot, col0, col2]; linarith [hz.2.2]
  · simp only [transp, col1, dot, col0, col2]; linarith [hx.2.1]
  · simp only [transp, col1, dot, col0, col2]; linarith [hx.2.2]
  · simp only [transp, col1, dot, col0, col2]; linarith [hy.2.2]
  · rw [← hd]; simp only [transp, col1, dot, col0, col2, Spec.det, cross]; ring

theorem dot_app (h : IsRotation M) (v w : V3 ℝ) : dot (app M v) (app M w) = dot v w := by
  have := h.trans_app w
  have e : dot (app M v) (app M w) = dot v (app (transp M) (app M w)) := by
    simp only [app, transp, dot, col0, col1, col2]; ring
  rw [e, this]
theorem len_app (h : IsRotation M) (v : V3 ℝ) : len (app M v) = len v := by
  have := dot_app h v v
  rw [dot_self, dot_self] at this
  exact (sq_eq_sq₀ (len_nonneg _) (len_nonneg _)).mp this
theorem unitVec_app (h : IsRotation M) {v : V3 ℝ} (hv : UnitVec v) : UnitVec (app M v) := by
  rw [unitVec_iff_len] at *; rw [len_app h, hv]
theorem app_add (M : M3 ℝ) (v w : V3 ℝ) : app M (v + w) = app M v + app M w := by
  ext <;> simp [app, dot_add_right]
theorem app_sub (M : M3 ℝ) (v w : V3 ℝ) : app M (v - w) = app M v - app M w := by
  ext <;> simp [app, dot_sub_right]
theorem app_smul (M : M3 ℝ) (c : ℝ) (v : V3 ℝ) : app M (c • v) = c • app M v := by
  ext <;> simp [app, dot_smul_right]
theorem app_neg (M : M3 ℝ) (v : V3 ℝ) : app M (-v) = -app M v := by
  ext <;> simp [app, dot_neg_right]
theorem app_ne_zero (h : IsRotation M) {v : V3 ℝ} (hv : v ≠ 0) : app M v ≠ 0 := by
  intro h'; apply hv; rw [← len_eq_zero] at *; rw [← len_app h, h']
theorem app_dirOf (h : IsRotation M) (v : V3 ℝ) : dirOf (app M v) = app M (dirOf v) := by
  unfold dirOf; rw [len_app h, app_smul]
theorem cross_app (h : IsRotation M) (v w : V3 ℝ) : cross (app M v) (app M w) = app M (cross v w) := by
  have e0 := h.cross12; have e1 := h.cross20; have e2 := h.cross01
  obtain ⟨⟨a, b, c⟩, ⟨d, e, f⟩, ⟨g, i, j⟩⟩ := M
  obtain ⟨x, y, z⟩ := v
  obtain ⟨x', y', z'⟩ := w
  simp only [col0, col1, col2, cross, V3.mk.injEq, app, dot] at *
  obtain ⟨e01, e02, e03⟩ := e0; obtain ⟨e11, e12, e13⟩ := e1; obtain ⟨e21, e22, e23⟩ := e2
  refine ⟨?_, ?_, ?_⟩
  · linear_combination (y * z' - z * y') * e01 + (z * x' - x * z') * e11 + (x * y' - y * x') * e21
  · linear_combination (y * z' - z * y') * e02 + (z * x' - x * z') * e12 + (x * y' - y * x') * e22
  · linear_combination (y * z' - z * y') * e03 + (z * x' - x * z') * e13 + (x * y' - y * x') * e23

theorem app_mmul (A B : M3 ℝ) (v : V3 ℝ) : app (mmul A B) v = app A (app B v) := by
  ext <;> simp [app, mmul, dot, col0, col1, col2] <;> ring
theorem mmul_assoc (A B C : M3 ℝ) : mmul (mmul A B) C = mmul A (mmul B C) := by
  ext <;> simp [mmul, dot, col0, col1, col2] <;> ring
theorem mmul_one (A : M3 ℝ) : mmul A one = A := by
  ext <;> simp [mmul, dot, col0, col1, col2, one]
theorem one_mmul (A : M3 ℝ) : mmul one A = A := by
  ext <;> simp [mmul, dot, col0, col1, col2, one]
theorem trans_mmul (A B : M3 ℝ) : transp (mmul A B) = mmul (transp B) (transp A) := by
  ext <;> simp [mmul, transp, dot, col0, col1, col2] <;> ring
theorem det_mmul (A B : M3 ℝ) : det (mmul A B) = det A * det B := by
  simp [mmul, det, cross, dot, col0, col1, col2]; ring

theorem col0_mmul (A B : M3 ℝ) : col0 (mmul A B) = app A (col0 B) := rfl
theorem col1_mmul (A B : M3 ℝ) : col1 (mmul A B) = app A (col1 B) := rfl
theorem col2_mmul (A B : M3 ℝ) : col2 (mmul A B) = app A (col2 B) := rfl

theorem IsRotation.mul {A B : M3 ℝ} (hA : IsRotation A) (hB : IsRotation B) : IsRotation (mmul A B) := by
  constructor
  · rw [col0_mmul, dot_app hA, hB.c00]
  · rw [col1_mmul, dot_app hA, hB.c11]
  · rw [col2_mmul, dot_app hA, hB.c22]
  · rw [col0_mmul, col1_mmul, dot_app hA, hB.c01]
  · rw [col0_mmul, col2_mmul, dot_app hA, hB.c02]
  · rw [col1_mmul, col2_mmul, dot_app hA, hB.c12]
  · rw [det_mmul, hA.det, hB.det, _root_.mul_one]

theorem isRotation_one : IsRotation one := by
  constructor <;> simp [one, col0, col1, col2, dot, det, cross]

theorem angle_app (h : IsRotation M) (v w : V3 ℝ) : angle (app M v) (app M w) = angle v w := by
  unfold angle; rw [dot_app h, len_app h, len_app h]

end

/-- the matrix of `E_rotation('e')` -/
def Re : M3 ℝ := ⟨⟨0, 0, 1⟩, ⟨0, 1, 0⟩, ⟨-1, 0, 0⟩⟩
theorem isRotation_Re : IsRotation Re := by
  constructor <;> simp [Re, col0, col1, col2, dot, det, cross]

end Spec

@[xr] theorem R_e_fin : (R_e : M3 XR) = Spec.Re.fin := by
  simp [R_e, Spec.Re, M3.fin, V3.fin, xr]
@[xr] theorem R_E_fin : (R_E : M3 XR) = Spec.one.fin := by
  simp [R_E, Spec.one, M3.fin, V3.fin, xr]

end Nv
