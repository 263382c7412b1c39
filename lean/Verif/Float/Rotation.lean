import Verif.Float.Surface
import Verif.Float.LatLon
import Verif.Props.Rotations

/-!
# Rotation matrices in binary64
-/

namespace Nv
open Spec F64

section
variable {B : Binary64} {X Y : F64 B} {x y kx ky dx dy k d : ℝ}

theorem RelS.neg (h : RelS X x k d) : RelS (-X) (-x) k d := by
  obtain ⟨v, rfl, fv, hv⟩ := h
  exact ⟨-v, rfl, fv.neg, by rwa [abs_neg, show -v - -x = -(v - x) by ring, abs_neg]⟩

theorem eta_1e200 : 2 * eta ≤ 1e-199 := by
  have he := eta_tiny
  rw [show (1 : ℝ) / 10 ^ 200 = 1e-200 by norm_num] at he
  have : (2 : ℝ) * 1e-200 ≤ 1e-199 := by norm_num
  linarith only [he, this]

theorem relS_sin (x : ℝ) : RelS (PyFloat.sin (fin x : F64 B)) (Real.sin x) 4 1e-199 :=
  ⟨_, rfl, B.sin_val _, (libm_uu (B.sin_close x)).trans (by linarith only [eta_1e200])⟩
theorem relS_cos (x : ℝ) : RelS (PyFloat.cos (fin x : F64 B)) (Real.cos x) 4 1e-199 :=
  ⟨_, rfl, B.cos_val _, (libm_uu (B.cos_close x)).trans (by linarith only [eta_1e200])⟩

/-- product of numbers of size at most one -/
theorem RelS.mul1 (hX : RelS X x kx dx) (hY : RelS Y y ky dy) (hx : |x| ≤ 1) (hy : |y| ≤ 1)
    (hkx : 0 ≤ kx) (hkx' : kx ≤ 1e5) (hky : 0 ≤ ky) (hky' : ky ≤ 1e5) (hdx : 0 ≤ dx) (hdx' : dx ≤ 0.01) (hdy : 0 ≤ dy) (hdy' : dy ≤ 0.01)
    (hk : kx + ky + 1.002 ≤ k) (hd : 1.1 * (dx + dy) + 1e-200 ≤ d) : RelS (X * Y) (x * y) k d := by
  have hxy : dx * dy ≤ 0.01 * dx := by rw [mul_comm]; exact mul_le_mul_of_nonneg_right hdy' hdx
  have e200 : (1 : ℝ) / 10 ^ 200 = 1e-200 := by norm_num
  refine hX.mul hY hx hy (b := 1) (by rw [abs_mul]; exact mul_le_one₀ hx (abs_nonneg y) hy) hkx hkx' hky hky' hdx hdy hk ?_ ?_
  · rw [e200]
    generalize (1e-200 : ℝ) = t at *
    norm_num at hxy hd ⊢; linarith only [hxy, hd, hdx, hdy]
  · have : (10 : ℝ) ≤ 10 ^ 60 := by norm_num
    refine le_trans ?_ this
    norm_num at hxy hdy' hdx' ⊢; linarith only [hxy, hdy', hdx', hdx]

/-- sum of two numbers with relative errors -/
theorem RelS.add_app (hX : RelS X x kx dx) (hY : RelS Y y ky dy) {e : ℝ} (hxy : |x| + |y| ≤ 1) (hkx : 0 ≤ kx) (hky : kx = ky)
    (hdx : dx ≤ 1e-100) (hdy : dy ≤ 1e-100) (hk : kx ≤ 1e4) (he : (kx + 1.01) * uu ≤ e) : App (X + Y) (x + y) e := by
  subst hky
  obtain ⟨v, rfl, fv, hv⟩ := hX
  obtain ⟨w, rfl, fw, hw⟩ := hY
  have hu := uu_pos
  have h1 : |v + w - (x + y)| ≤ kx * uu + 2e-100 := by
    have := abs_add_le (v - x) (w - y)
    rw [show v - x + (w - y) = v + w - (x + y) by ring] at this
    have h2 := mul_le_mul_of_nonneg_left hxy (mul_nonneg hkx hu.le)
    have e2 : (2e-100 : ℝ) = 1e-100 + 1e-100 := by norm_num
    rw [e2]
    linarith only [this, h2, hv, hw, hdx, hdy]
  have hb : |x + y| ≤ 1 := (abs_add_le x y).trans hxy
  have hku : kx * uu ≤ 0.001 := by
    calc kx * uu ≤ 1e4 * uu := mul_le_mul_of_nonneg_right hk hu.le
      _ ≤ _ := by unfold uu; norm_num
  have t1 : (2e-100 : ℝ) ≤ 0.0001 * uu := by unfold uu; norm_num
  have t2 : (1 : ℝ) / 10 ^ 60 ≤ 0.0001 * uu := by unfold uu; norm_num
  have t3 : uu * (kx * uu + 2e-100) ≤ uu * 0.002 := by
    apply mul_le_mul_of_nonneg_left _ hu.le
    have : 0.0001 * uu ≤ 0.001 := by unfold uu; norm_num
    norm_num at hku this t1 ⊢
    linarith only [hku, this, t1]
  have hle : |v + w| ≤ 10 ^ 60 := by
    refine abs_le_of_close h1 hb ?_
    have : (3 : ℝ) ≤ 10 ^ 60 := by norm_num
    have t4 : 0.0001 * uu ≤ 1 := by unfold uu; norm_num
    refine le_trans ?_ this
    linarith only [hku, t1, t4]
  refine ⟨_, fin_add hle, B.rounds.val _, fl_close (b := 1) h1 hb (le_trans ?_ he)⟩
  generalize (2e-100 : ℝ) = t at *
  generalize (1 : ℝ) / 10 ^ 60 = s at *
  norm_num at t3 t1 t2 ⊢
  linarith only [t3, t1, t2, hu]

theorem RelS.sub_app (hX : RelS X x kx dx) (hY : RelS Y y ky dy) {e : ℝ} (hxy : |x| + |y| ≤ 1) (hkx : 0 ≤ kx) (hky : kx = ky)
    (hdx : dx ≤ 1e-100) (hdy : dy ≤ 1e-100) (hk : kx ≤ 1e4) (he : (kx + 1.01) * uu ≤ e) : App (X - Y) (x - y) e := by
  have h := hX.add_app hY.neg (e := e) (by rwa [abs_neg]) hkx hky hdx hdy hk he
  obtain ⟨v, hv, fv, h'⟩ := h
  exact ⟨v, hv, fv, by rwa [sub_eq_add_neg x y]⟩

/-- a real matrix near a computed one -/
def AppM (M : M3 (F64 B)) (N : M3 ℝ) (e : ℝ) : Prop :=
  App M.r0.x N.r0.x e ∧ App M.r0.y N.r0.y e ∧ App M.r0.z N.r0.z e ∧ App M.r1.x N.r1.x e ∧ App M.r1.y N.r1.y e ∧ App M.r1.z N.r1.z e ∧
  App M.r2.x N.r2.x e ∧ App M.r2.y N.r2.y e ∧ App M.r2.z N.r2.z e

theorem prod_sum_le {a b c d : ℝ} (h1 : a ^ 2 + b ^ 2 ≤ 1) (h2 : c ^ 2 + d ^ 2 ≤ 1) : |a * c| + |b * d| ≤ 1 := by
  rw [abs_mul, abs_mul]
  nlinarith [sq_nonneg (|a| - |c|), sq_nonneg (|b| - |d|), sq_abs a, sq_abs b, sq_abs c, sq_abs d]

theorem abs_sin1 (x : ℝ) : |Real.sin x| ≤ 1 := Real.abs_sin_le_one x
theorem abs_cos1 (x : ℝ) : |Real.cos x| ≤ 1 := Real.abs_cos_le_one x

theorem abs_mul1 {a b : ℝ} (ha : |a| ≤ 1) (hb : |b| ≤ 1) : |a * b| ≤ 1 := by rw [abs_mul]; exact mul_le_one₀ ha (abs_nonneg b) hb

/-- a product of two trigonometric values -/
theorem rel_p2 {X Y : F64 B} {x y : ℝ} (hX : RelS X x 4 1e-199) (hY : RelS Y y 4 1e-199) (hx : |x| ≤ 1) (hy : |y| ≤ 1) :
    RelS (X * Y) (x * y) 9.01 1e-198 :=
  hX.mul1 hY hx hy (by norm_num) (by norm_num) (by norm_num) (by norm_num) (by norm_num) (by norm_num) (by norm_num) (by norm_num)
    (by norm_num) (by norm_num)

/-- a product of three trigonometric values -/
theorem rel_p3 {X Y Z : F64 B} {x y z : ℝ} (hX : RelS X x 4 1e-199) (hY : RelS Y y 4 1e-199) (hZ : RelS Z z 4 1e-199) (hx : |x| ≤ 1) (hy : |y| ≤ 1)
    (hz : |z| ≤ 1) : RelS (X * Y * Z) (x * y * z) 14.02 1e-197 :=
  (rel_p2 hX hY hx hy).mul1 hZ (abs_mul1 hx hy) hz (by norm_num) (by norm_num) (by norm_num) (by norm_num) (by norm_num) (by norm_num) (by norm_num)
    (by norm_num) (by norm_num) (by norm_num)

/-- a triple product plus a double product -/
theorem app_32 {X Y Z U W : F64 B} {x y z u w : ℝ} (hX : RelS X x 4 1e-199) (hY : RelS Y y 4 1e-199) (hZ : RelS Z z 4 1e-199)
    (hU : RelS U u 4 1e-199) (hW : RelS W w 4 1e-199) (hx : |x| ≤ 1) (hyu : y ^ 2 + u ^ 2 ≤ 1) (hzw : z ^ 2 + w ^ 2 ≤ 1) :
    App (X * Y * Z + U * W) (x * y * z + u * w) (15.1 * uu) ∧ App (U * W + X * Y * Z) (u * w + x * y * z) (15.1 * uu) := by
  have one : ∀ {t s : ℝ}, t ^ 2 + s ^ 2 ≤ 1 → |t| ≤ 1 := by
    intro t s h; exact abs_le_of_sq_le_sq (by nlinarith [sq_nonneg s]) zero_le_one
  have hy := one hyu
  have hz := one hzw
  have hu' : |u| ≤ 1 := one (s := y) (by linarith)
  have hw' : |w| ≤ 1 := one (s := z) (by linarith)
  have h3 := rel_p3 hX hY hZ hx hy hz
  have h2 := (rel_p2 hU hW hu' hw').mono (k := 14.02) (d := 1e-197) (by norm_num) (by norm_num)
  have hs : |x * y * z| + |u * w| ≤ 1 := by
    have h4 := prod_sum_le hyu hzw
    have h5 : |x * y * z| ≤ |y * z| := by
      rw [mul_assoc, abs_mul]
      calc |x| * |y * z| ≤ 1 * |y * z| := mul_le_mul_of_nonneg_right hx (abs_nonneg _)
        _ = _ := one_mul _
    linarith
  have hbd : (14.02 + 1.01) * uu ≤ 15.1 * uu := mul_le_mul_of_nonneg_right (by norm_num) uu_pos.le
  exact ⟨h3.add_app h2 hs (by norm_num) rfl (by norm_num) (by norm_num) (by norm_num) hbd,
    h2.add_app h3 (by rw [add_comm]; exact hs) (by norm_num) rfl (by norm_num) (by norm_num) (by norm_num) hbd⟩

theorem sc2 (x : ℝ) : Real.sin x ^ 2 + Real.cos x ^ 2 ≤ 1 := (Real.sin_sq_add_cos_sq x).le
theorem cs2 (x : ℝ) : Real.cos x ^ 2 + Real.sin x ^ 2 ≤ 1 := (Real.cos_sq_add_sin_sq x).le

theorem app1 {X : F64 B} {x k d : ℝ} (h : RelS X x k d) (hx : |x| ≤ 1) (hk0 : 0 ≤ k) (hk : k ≤ 15) (hd : d ≤ 1e-100) : App X x (15.1 * uu) := by
  refine h.app hx hk0 ?_
  have t1 : (1e-100 : ℝ) ≤ 0.0001 * uu := by unfold uu; norm_num
  have := mul_le_mul_of_nonneg_right hk uu_pos.le
  have := uu_pos
  norm_num at *
  linarith

/-- entries of `xyz2R` -/
theorem xyz2R_flt (x y z : ℝ) : AppM (xyz2R (fin x : F64 B) (fin y) (fin z)) (mmul (mmul (RotX x) (RotY y)) (RotZ z)) (15.1 * uu) := by
  rw [xyz_entries]
  have sx := relS_sin (B := B) x; have sy := relS_sin (B := B) y; have sz := relS_sin (B := B) z
  have cx := relS_cos (B := B) x; have cy := relS_cos (B := B) y; have cz := relS_cos (B := B) z
  have n15 : ∀ {X Y : F64 B} {s t : ℝ}, RelS X s 4 1e-199 → RelS Y t 4 1e-199 → |s| ≤ 1 → |t| ≤ 1 → App (X * Y) (s * t) (15.1 * uu) :=
    fun h1 h2 b1 b2 => app1 (rel_p2 h1 h2 b1 b2) (abs_mul1 b1 b2) (by norm_num) (by norm_num) (by norm_num)
  unfold xyz2R AppM
  dsimp only
  have b := abs_sin1; have c := abs_cos1
  have b' : ∀ t : ℝ, |-Real.sin t| ≤ 1 := fun t => by rw [abs_neg]; exact b t
  have c' : ∀ t : ℝ, |-Real.cos t| ≤ 1 := fun t => by rw [abs_neg]; exact c t
  refine ⟨n15 cy cz (c _) (c _), ?_, ?_, ?_, ?_, ?_, ?_, ?_, ?_⟩
  · exact (n15 cy.neg sz (c' _) (b _)).of_eq (by ring)
  · exact app1 sy (b _) (by norm_num) (by norm_num) (by norm_num)
  · exact (app_32 sy sx cz cx sz (b _) (sc2 _) (cs2 _)).1.of_eq (by ring)
  · exact (app_32 sy.neg sx sz cx cz (b' _) (sc2 _) (sc2 _)).1.of_eq (by ring)
  · exact (n15 cy.neg sx (c' _) (b _)).of_eq (by ring)
  · exact (app_32 sy.neg cx cz sx sz (b' _) (cs2 _) (cs2 _)).1.of_eq (by ring)
  · exact (app_32 sy cx sz sx cz (b _) (cs2 _) (sc2 _)).1.of_eq (by ring)
  · exact (n15 cy cx (c _) (c _)).of_eq (by ring)

/-- entries of `zyx2R` -/
theorem zyx2R_flt (z y x : ℝ) : AppM (zyx2R (fin z : F64 B) (fin y) (fin x)) (mmul (mmul (RotZ z) (RotY y)) (RotX x)) (15.1 * uu) := by
  have sx := relS_sin (B := B) x; have sy := relS_sin (B := B) y; have sz := relS_sin (B := B) z
  have cx := relS_cos (B := B) x; have cy := relS_cos (B := B) y; have cz := relS_cos (B := B) z
  have n15 : ∀ {X Y : F64 B} {s t : ℝ}, RelS X s 4 1e-199 → RelS Y t 4 1e-199 → |s| ≤ 1 → |t| ≤ 1 → App (X * Y) (s * t) (15.1 * uu) :=
    fun h1 h2 b1 b2 => app1 (rel_p2 h1 h2 b1 b2) (abs_mul1 b1 b2) (by norm_num) (by norm_num) (by norm_num)
  unfold zyx2R AppM
  simp only [mmul, transp, dot, RotX, RotY, RotZ, col0, col1, col2]
  have b := abs_sin1; have c := abs_cos1
  have b' : ∀ t : ℝ, |-Real.sin t| ≤ 1 := fun t => by rw [abs_neg]; exact b t
  have c' : ∀ t : ℝ, |-Real.cos t| ≤ 1 := fun t => by rw [abs_neg]; exact c t
  have nsc : ∀ t : ℝ, Real.sin t ^ 2 + (-Real.cos t) ^ 2 ≤ 1 := fun t => by rw [neg_sq]; exact sc2 t
  have ncs : ∀ t : ℝ, Real.cos t ^ 2 + (-Real.sin t) ^ 2 ≤ 1 := fun t => by rw [neg_sq]; exact cs2 t
  -- `cz * sy * sx`: the factor of size at most one is in the middle
  have a32 : ∀ {X Y Z U W : F64 B} {x y z u w : ℝ}, RelS X x 4 1e-199 → RelS Y y 4 1e-199 → RelS Z z 4 1e-199 → RelS U u 4 1e-199 → RelS W w 4 1e-199 →
      |y| ≤ 1 → x ^ 2 + u ^ 2 ≤ 1 → z ^ 2 + w ^ 2 ≤ 1 → App (U * W + X * Y * Z) (u * w + x * y * z) (15.1 * uu) := by
    intro X Y Z U W x y z u w hX hY hZ hU hW hy hxu hzw
    have one : ∀ {t s : ℝ}, t ^ 2 + s ^ 2 ≤ 1 → |t| ≤ 1 := by
      intro t s h; exact abs_le_of_sq_le_sq (by nlinarith [sq_nonneg s]) zero_le_one
    have hx := one hxu
    have hz := one hzw
    have hu' : |u| ≤ 1 := one (s := x) (by linarith)
    have hw' : |w| ≤ 1 := one (s := z) (by linarith)
    have h3 := rel_p3 hX hY hZ hx hy hz
    have h2 := (rel_p2 hU hW hu' hw').mono (k := 14.02) (d := 1e-197) (by norm_num) (by norm_num)
    have hs : |u * w| + |x * y * z| ≤ 1 := by
      have h4 := prod_sum_le hxu hzw
      have h5 : |x * y * z| ≤ |x * z| := by
        rw [show x * y * z = y * (x * z) by ring, abs_mul]
        calc |y| * |x * z| ≤ 1 * |x * z| := mul_le_mul_of_nonneg_right hy (abs_nonneg _)
          _ = _ := one_mul _
      linarith
    exact h2.add_app h3 hs (by norm_num) rfl (by norm_num) (by norm_num) (by norm_num) (mul_le_mul_of_nonneg_right (by norm_num) uu_pos.le)
  refine ⟨(n15 cz cy (c _) (c _)).of_eq (by ring), ?_, ?_, (n15 sz cy (b _) (c _)).of_eq (by ring), ?_, ?_, ?_, ?_, ?_⟩
  · exact (a32 cz sy sx sz.neg cx (b _) (ncs _) (sc2 _)).of_eq (by ring)
  · exact (a32 cz sy cx sz sx (b _) (cs2 _) (cs2 _)).of_eq (by ring)
  · exact (a32 sz sy sx cz cx (b _) (sc2 _) (sc2 _)).of_eq (by ring)
  · exact (a32 sz sy cx cz.neg sx (b _) (nsc _) (cs2 _)).of_eq (by ring)
  · exact (app1 sy.neg (b' _) (by norm_num) (by norm_num) (by norm_num)).of_eq (by ring)
  · exact (n15 cy sx (c _) (b _)).of_eq (by ring)
  · exact (n15 cy cx (c _) (c _)).of_eq (by ring)

end
end Nv
