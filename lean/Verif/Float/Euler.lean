import Verif.Float.Rotation
import Verif.Spec.Close
import Verif.Props.FloatLatLon

/-!
# Nearly rotations, and Euler angles of computed matrices
-/

namespace Nv
open Spec F64

/-! ## a matrix near a rotation -/

theorem abs_sum_le_len (v : V3 ℝ) : |v.x| + |v.y| + |v.z| ≤ 1.7321 * len v := by
  have h := len_nonneg' v
  have hs : len v ^ 2 = v.x ^ 2 + v.y ^ 2 + v.z ^ 2 := by unfold len; rw [Real.sq_sqrt (by positivity)]
  refine (le_abs_self _).trans (abs_le_of_sq_le_sq ?_ (by positivity))
  rw [mul_pow, hs, ← sq_abs v.x, ← sq_abs v.y, ← sq_abs v.z]
  nlinarith [sq_nonneg (|v.x| - |v.y|), sq_nonneg (|v.x| - |v.z|), sq_nonneg (|v.y| - |v.z|), sq_nonneg |v.x|, sq_nonneg |v.y|, sq_nonneg |v.z|]

theorem Spec.CloseV.dot_le {v w u : V3 ℝ} {e : ℝ} (h : CloseV v w e) : |dot u (v - w)| ≤ 1.7321 * len u * e := by
  obtain ⟨h1, h2, h3⟩ := h
  have h0 : 0 ≤ e := (abs_nonneg _).trans h1
  have e1 : dot u (v - w) = u.x * (v.x - w.x) + u.y * (v.y - w.y) + u.z * (v.z - w.z) := rfl
  rw [e1]
  refine (abs_add_three _ _ _).trans ?_
  rw [abs_mul, abs_mul, abs_mul]
  have a1 := mul_le_mul_of_nonneg_left h1 (abs_nonneg u.x)
  have a2 := mul_le_mul_of_nonneg_left h2 (abs_nonneg u.y)
  have a3 := mul_le_mul_of_nonneg_left h3 (abs_nonneg u.z)
  have := mul_le_mul_of_nonneg_right (abs_sum_le_len u) h0
  linarith

theorem Spec.CloseV.len_le {v w : V3 ℝ} {e : ℝ} (h : CloseV v w e) : len (v - w) ≤ 1.7321 * e := len_le_of_comp h.1 h.2.1 h.2.2

/-- scalar products of nearly equal unit vectors -/
theorem dot_near {a b c d : V3 ℝ} {e : ℝ} (h1 : CloseV a c e) (h2 : CloseV b d e) (lc : len c = 1) (ld : len d = 1) (he : e ≤ 1 / 1000) :
    |dot a b - dot c d| ≤ 3.5 * e := by
  have h0 : 0 ≤ e := (abs_nonneg _).trans h1.1
  have a1 := h1.dot_le (u := d)
  have a2 := h2.dot_le (u := c)
  have a3 := abs_dot_le (a - c) (b - d)
  rw [lc] at a2
  rw [ld] at a1
  have a4 : len (a - c) * len (b - d) ≤ 1.7321 * e * (1.7321 * e) :=
    mul_le_mul h1.len_le h2.len_le (len_nonneg' _) (by positivity)
  have e1 : dot a b - dot c d = dot d (a - c) + dot c (b - d) + dot (a - c) (b - d) := by
    simp only [dot, HSub.hSub, Sub.sub]; ring
  rw [e1]
  refine (abs_add_three _ _ _).trans ?_
  have a5 : e * e ≤ 1 / 1000 * e := mul_le_mul_of_nonneg_right he h0
  norm_num at a1 a2 a4 ⊢
  linarith

theorem det_cols (M : M3 ℝ) : det M = dot (col0 M) (cross (col1 M) (col2 M)) := by
  simp only [det, dot, cross, col0, col1, col2]; ring

/-- a matrix with entries within `e` of a rotation -/
theorem nearRotation_of_close {M N : M3 ℝ} {e : ℝ} (h : CloseM M N e) (hN : IsRotation N) (he : e ≤ 1 / 1000) : NearRotation M (5.5 * e) := by
  obtain ⟨⟨a1, a2, a3⟩, ⟨b1, b2, b3⟩, ⟨c1, c2, c3⟩⟩ := h
  have h0 : 0 ≤ e := (abs_nonneg _).trans a1
  have k0 : CloseV (col0 M) (col0 N) e := ⟨a1, b1, c1⟩
  have k1 : CloseV (col1 M) (col1 N) e := ⟨a2, b2, c2⟩
  have k2 : CloseV (col2 M) (col2 N) e := ⟨a3, b3, c3⟩
  have un : ∀ v : V3 ℝ, dot v v = 1 → len v = 1 := fun v hv => by
    unfold len; rw [Real.sqrt_eq_one]; rw [← hv]; unfold dot; ring
  have l0 := un _ hN.c00
  have l1 := un _ hN.c11
  have l2 := un _ hN.c22
  have le : 3.5 * e ≤ 5.5 * e := by linarith
  have hdet : |det M - 1| ≤ 5.5 * e := by
    have hd := hN.det
    rw [det_cols] at hd ⊢
    obtain ⟨m0, hm0⟩ : ∃ v, v = col0 M := ⟨_, rfl⟩
    obtain ⟨m1, hm1⟩ : ∃ v, v = col1 M := ⟨_, rfl⟩
    obtain ⟨m2, hm2⟩ : ∃ v, v = col2 M := ⟨_, rfl⟩
    obtain ⟨n0, hn0⟩ : ∃ v, v = col0 N := ⟨_, rfl⟩
    obtain ⟨n1, hn1⟩ : ∃ v, v = col1 N := ⟨_, rfl⟩
    obtain ⟨n2, hn2⟩ : ∃ v, v = col2 N := ⟨_, rfl⟩
    simp only [← hm0, ← hm1, ← hm2, ← hn0, ← hn1, ← hn2] at *
    have lc : ∀ v w : V3 ℝ, len (cross v w) ≤ len v * len w := by
      intro v w
      have := lagrange v w
      refine abs_le_of_sq_le_sq (by rw [this]; nlinarith [sq_nonneg (dot v w)]) (mul_nonneg (len_nonneg' _) (len_nonneg' _)) |>.trans' (le_abs_self _)
    have e1 : dot m0 (cross m1 m2) - 1 = dot (cross n1 n2) (m0 - n0) + dot (cross n2 n0) (m1 - n1) + dot (cross n0 n1) (m2 - n2) +
        (dot n0 (cross (m1 - n1) (m2 - n2)) + dot n1 (cross (m2 - n2) (m0 - n0)) + dot n2 (cross (m0 - n0) (m1 - n1))) +
        dot (m0 - n0) (cross (m1 - n1) (m2 - n2)) := by
      rw [← hd]
      simp only [dot, cross, HSub.hSub, Sub.sub]
      ring
    have p0 := k0.dot_le (u := cross n1 n2)
    have p1 := k1.dot_le (u := cross n2 n0)
    have p2 := k2.dot_le (u := cross n0 n1)
    have q0 := lc n1 n2
    have q1 := lc n2 n0
    have q2 := lc n0 n1
    rw [l1, l2] at q0
    rw [l2, l0] at q1
    rw [l0, l1] at q2
    have s0 := k0.len_le
    have s1 := k1.len_le
    have s2 := k2.len_le
    have tri : ∀ {u v w : V3 ℝ} {a b c : ℝ}, len u ≤ a → len v ≤ b → len w ≤ c → |dot u (cross v w)| ≤ a * (b * c) := by
      intro u v w a b c hu hv hw
      have t1 := abs_dot_le u (cross v w)
      have t2 := lc v w
      have u0 := len_nonneg' u
      have v0 := len_nonneg' v
      have w0 := len_nonneg' w
      have t3 : len v * len w ≤ b * c := mul_le_mul hv hw w0 (v0.trans hv)
      exact t1.trans (mul_le_mul hu (t2.trans t3) (len_nonneg' _) (u0.trans hu))
    have r0 := tri l0.le s1 s2
    have r1 := tri l1.le s2 s0
    have r2 := tri l2.le s0 s1
    have r3 := tri s0 s1 s2
    have sh : ∀ {L : ℝ}, L ≤ 1 * 1 → 1.7321 * L * e ≤ 1.7321 * e := by
      intro L hL
      have := mul_le_mul_of_nonneg_right hL h0
      norm_num at this ⊢
      linarith
    have p0' := p0.trans (sh q0)
    have p1' := p1.trans (sh q1)
    have p2' := p2.trans (sh q2)
    rw [e1]
    refine (abs_add_le _ _).trans ?_
    refine (add_le_add_left (abs_add_le _ _) _).trans ?_
    refine (add_le_add_left (add_le_add (abs_add_three _ _ _) (abs_add_three _ _ _)) _).trans ?_
    have a5 : e * e ≤ 1 / 1000 * e := mul_le_mul_of_nonneg_right he h0
    have a6 : e * (e * e) ≤ 1 / 1000 * (1 / 1000 * e) := mul_le_mul he a5 (by positivity) (by positivity)
    norm_num at p0' p1' p2' r0 r1 r2 r3 a5 a6 ⊢
    linarith
  refine ⟨?_, ?_, ?_, ?_, ?_, ?_, hdet⟩
  · have := dot_near k0 k0 l0 l0 he; rw [hN.c00] at this; exact this.trans le
  · have := dot_near k1 k1 l1 l1 he; rw [hN.c11] at this; exact this.trans le
  · have := dot_near k2 k2 l2 l2 he; rw [hN.c22] at this; exact this.trans le
  · have := dot_near k0 k1 l0 l1 he; rw [hN.c01, sub_zero] at this; exact this.trans le
  · have := dot_near k0 k2 l0 l2 he; rw [hN.c02, sub_zero] at this; exact this.trans le
  · have := dot_near k1 k2 l1 l2 he; rw [hN.c12, sub_zero] at this; exact this.trans le

/-- all entries are binary64 numbers -/
def Spec.IsF64M (M : M3 ℝ) : Prop := IsF64V M.r0 ∧ IsF64V M.r1 ∧ IsF64V M.r2

theorem AppM.get {B : Binary64} {M : M3 (F64 B)} {N : M3 ℝ} {e : ℝ} (h : AppM M N e) :
    ∃ W : M3 ℝ, M = W.flt ∧ IsF64M W ∧ CloseM W N e := by
  obtain ⟨⟨a1, b1, c1, d1⟩, ⟨a2, b2, c2, d2⟩, ⟨a3, b3, c3, d3⟩, ⟨a4, b4, c4, d4⟩, ⟨a5, b5, c5, d5⟩, ⟨a6, b6, c6, d6⟩, ⟨a7, b7, c7, d7⟩,
    ⟨a8, b8, c8, d8⟩, ⟨a9, b9, c9, d9⟩⟩ := h
  refine ⟨⟨⟨a1, a2, a3⟩, ⟨a4, a5, a6⟩, ⟨a7, a8, a9⟩⟩, ?_, ⟨⟨c1, c2, c3⟩, ⟨c4, c5, c6⟩, ⟨c7, c8, c9⟩⟩,
    ⟨⟨d1, d2, d3⟩, ⟨d4, d5, d6⟩, ⟨d7, d8, d9⟩⟩⟩
  obtain ⟨⟨m1, m2, m3⟩, ⟨m4, m5, m6⟩, ⟨m7, m8, m9⟩⟩ := M
  dsimp only at *
  subst b1 b2 b3 b4 b5 b6 b7 b8 b9
  rfl

/-! ## Euler angles -/

theorem turn_zero {α θ : ℝ} {k : ℤ} (h : |α - θ - k * (2 * Real.pi)| ≤ 0.01) (hd : |α - θ| ≤ 6.16) : k = 0 := by
  have hπ := Real.pi_gt_d2
  obtain ⟨l1, l2⟩ := abs_le.mp h
  obtain ⟨m1, m2⟩ := abs_le.mp hd
  norm_num at l1 l2 m1 m2 hπ
  rcases lt_trichotomy k 0 with hk | hk | hk
  · have : (k : ℝ) ≤ -1 := by exact_mod_cast (by omega : k ≤ -1)
    have := mul_le_mul_of_nonneg_right this (by linarith : 0 ≤ 2 * Real.pi)
    linarith
  · exact hk
  · have : (1 : ℝ) ≤ k := by exact_mod_cast (by omega : 1 ≤ k)
    have := mul_le_mul_of_nonneg_right this (by linarith : 0 ≤ 2 * Real.pi)
    linarith

set_option maxHeartbeats 1600000 in
/-- the computed `arctan2` of numbers near `r sin θ`, `r cos θ` is near `θ` -/
theorem arctan2_angle {B : Binary64} {v w θ r κ t e : ℝ} (hr : 0 < r) (h1 : -Real.pi < θ) (h2 : θ ≤ Real.pi) (hκ : 0 ≤ κ)
    (hv : |v - r * Real.sin θ| ≤ κ * |r * Real.sin θ| + t) (hw : |w - r * Real.cos θ| ≤ κ * |r * Real.cos θ| + t)
    (ht : t ≤ 1e-20 * r) (hκ' : κ ≤ 1e-3) (hp : 3 ≤ θ → 0 ≤ v) (hn : θ ≤ -3 → v < 0)
    (he : 1.575 * (κ + 2e-20) + 13 * uu ≤ e) :
    App (PyFloat.arctan2 (F64.fin v : F64 B) (F64.fin w)) θ e := by
  have ht0 : 0 ≤ r * 1e-20 := by positivity
  obtain ⟨x, hx⟩ : ∃ x, x = r * Real.cos θ := ⟨_, rfl⟩
  obtain ⟨y, hy⟩ : ∃ y, y = r * Real.sin θ := ⟨_, rfl⟩
  have hrr : r ^ 2 = x ^ 2 + y ^ 2 := by rw [hx, hy]; linear_combination (-r ^ 2) * Real.sin_sq_add_cos_sq θ
  have hθ : XR.atan2 y x = θ := XR.atan2_eq hr h1 h2 hx hy
  rw [← hx] at hw
  rw [← hy] at hv
  have ax : |x| ≤ r := abs_le_of_sq_le_sq (by nlinarith [sq_nonneg y]) hr.le
  have ay : |y| ≤ r := abs_le_of_sq_le_sq (by nlinarith [sq_nonneg x]) hr.le
  have x0 := abs_nonneg x
  have y0 := abs_nonneg y
  obtain ⟨s, hs⟩ : ∃ s, s = 1e-20 * r := ⟨_, rfl⟩
  have hs0 : 0 ≤ s := by rw [hs]; positivity
  rw [← hs] at ht
  have hd : (w - x) ^ 2 + (v - y) ^ 2 ≤ ((κ + 2e-20) * r) ^ 2 := by
    have b1 := sq_le_of_abs_le (hw.trans (add_le_add_right ht _))
    have b2 := sq_le_of_abs_le (hv.trans (add_le_add_right ht _))
    have e1 : (κ + 2e-20) * r = κ * r + 2 * s := by rw [hs]; ring
    rw [e1]
    have c1 : κ * |x| ≤ κ * r := mul_le_mul_of_nonneg_left ax hκ
    have c2 : κ * |y| ≤ κ * r := mul_le_mul_of_nonneg_left ay hκ
    have c3 : κ * |x| * s ≤ κ * r * s := mul_le_mul_of_nonneg_right c1 hs0
    have c4 : κ * |y| * s ≤ κ * r * s := mul_le_mul_of_nonneg_right c2 hs0
    have e2 : (κ * |x| + s) ^ 2 + (κ * |y| + s) ^ 2 = κ ^ 2 * r ^ 2 + 2 * (κ * |x| * s) + 2 * (κ * |y| * s) + 2 * s ^ 2 := by
      rw [hrr, ← sq_abs x, ← sq_abs y]; ring
    nlinarith [sq_nonneg s]
  obtain ⟨k, hk⟩ := atan2_perturb hr hrr (ρ := κ + 2e-20) (by norm_num at hκ' ⊢; linarith) hd (by positivity)
  rw [hθ] at hk
  have hne : ¬ (w = 0 ∧ v = 0) := by
    rintro ⟨rfl, rfl⟩
    have q1 : (κ + 2e-20) * r < r := by norm_num at hκ' ⊢; nlinarith
    have : ((κ + 2e-20) * r) ^ 2 < r ^ 2 := pow_lt_pow_left₀ q1 (by positivity) (by norm_num)
    nlinarith
  have hπ := Real.pi_gt_d2
  have hπ' := Real.pi_lt_d2
  have hsm : Real.pi / 2 * (κ + 2e-20) ≤ 1.575 * (κ + 2e-20) := mul_le_mul_of_nonneg_right (by norm_num at hπ' ⊢; linarith) (by positivity)
  have hsm2 : 1.575 * (κ + 2e-20) ≤ 0.01 := by norm_num at hκ' ⊢; linarith
  have hk1 := hk.trans (hsm.trans hsm2)
  obtain ⟨α, hα⟩ : ∃ α, α = XR.atan2 v w := ⟨_, rfl⟩
  rw [← hα] at hk hk1
  have u1 : α ≤ Real.pi := by rw [hα]; exact XR.atan2_le_pi v w
  have u2 : -Real.pi < α := by rw [hα]; exact XR.neg_pi_lt_atan2 hne
  obtain ⟨l1, l2⟩ := abs_le.mp hk1
  have hk0 : k = 0 := by
    refine turn_zero hk1 ?_
    rw [abs_le]
    norm_num at hπ hπ'
    rcases le_or_gt 3 θ with h3 | h3
    · have : 0 ≤ α := by rw [hα]; exact XR.atan2_nonneg hne (hp h3)
      norm_num
      constructor <;> linarith only [this, h3, u1, h2, hπ, hπ']
    rcases le_or_gt θ (-3) with h4 | h4
    · have : α ≤ 0 := by
        rw [hα, XR.atan2_of_ne hne]
        exact (Complex.arg_neg_iff.mpr (hn h4)).le
      norm_num
      constructor <;> linarith only [this, h4, u2, h1, hπ, hπ']
    · norm_num
      constructor <;> linarith only [h3, h4, u1, u2, hπ, hπ']
  rw [hk0] at hk
  simp only [Int.cast_zero, zero_mul, sub_zero] at hk
  rw [hα] at hk
  exact (arctan2_close' hne le_rfl).shift (hk.trans hsm) (by linarith)

/-- a binary64 number near `± π` has a sine that is not tiny -/
theorem sin_ge_of_f64 {t : ℝ} (h : IsF64 t) (h1 : 3 ≤ t) (h2 : t ≤ Real.pi) : 1e-17 ≤ Real.sin t := by
  have hh : IsF64 (t / 2) := by
    obtain ⟨m, e, hm, he, rfl⟩ := h
    by_cases h3 : e = -1074
    · exfalso
      have hp : (0 : ℝ) < (2 : ℝ) ^ e := by positivity
      have h4 : (m : ℝ) * (2 : ℝ) ^ e ≤ 2 ^ 53 * (2 : ℝ) ^ e := by
        apply mul_le_mul_of_nonneg_right _ hp.le
        have : (m : ℝ) ≤ |(m : ℝ)| := le_abs_self _
        have h5 : |(m : ℝ)| < 2 ^ 53 := by exact_mod_cast hm
        linarith
      have h6 : (2 : ℝ) ^ e ≤ (2 : ℝ) ^ (-60 : ℤ) := zpow_le_zpow_right₀ (by norm_num) (by omega)
      have h7 : (2 : ℝ) ^ 53 * (2 : ℝ) ^ (-60 : ℤ) ≤ 1 := by norm_num
      nlinarith
    · refine ⟨m, e - 1, hm, by omega, ?_⟩
      rw [zpow_sub_one₀ (by norm_num)]; ring
  have hc := cos_ge_of_f64 hh (by rw [abs_of_nonneg (by linarith)]; linarith)
  have hs : 1 / 2 ≤ Real.sin (t / 2) := by
    have h3 := Real.mul_le_sin (x := t / 2) (by linarith) (by linarith)
    have hπ := Real.pi_pos
    have hπ' := Real.pi_lt_d2
    refine le_trans ?_ h3
    rw [div_mul_eq_mul_div, le_div_iff₀ hπ]
    norm_num at hπ' ⊢; linarith
  have e1 : Real.sin t = 2 * Real.sin (t / 2) * Real.cos (t / 2) := by rw [← Real.sin_two_mul]; ring_nf
  rw [e1]
  have : 1 / 2 * 1e-17 ≤ Real.sin (t / 2) * Real.cos (t / 2) := mul_le_mul hs hc (by norm_num) (by linarith)
  norm_num at this ⊢
  linarith

theorem abs_lt_pi_of_f64 {t : ℝ} (h : IsF64 t) (ht : |t| ≤ Real.pi) : |t| < Real.pi := by
  refine lt_of_le_of_ne ht fun he => ?_
  have h1 := sin_ge_of_f64 h.abs (by rw [he]; exact Real.pi_gt_three.le) ht
  rw [he, Real.sin_pi] at h1
  norm_num at h1

section
variable {B : Binary64}

theorem RelS.abs_sq {X : F64 B} {x : ℝ} (h : RelS X x 9.01 1e-198) (hx : |x| ≤ 1) : Rel (powNat X 2) (x ^ 2) 19.03 1e-197 := by
  obtain ⟨v, rfl, fv, hv⟩ := h
  have hr : Rel (F64.fin |v| : F64 B) |x| 9.01 1e-198 := by
    refine ⟨|v|, rfl, fv.abs, abs_nonneg x, abs_nonneg v, (abs_abs_sub_abs_le v x).trans hv⟩
  have hq := hr.sq hx (k := 19.03) (d := 1e-197) (by norm_num) (by norm_num) (by norm_num) (by norm_num) (by norm_num) (by norm_num) (by norm_num)
  have hvb : |v| ≤ 10 ^ 60 := by
    have h1 := abs_sub_abs_le_abs_sub v x
    have h2 : 9.01 * uu * |x| ≤ 9.01 * uu * 1 := mul_le_mul_of_nonneg_left hx (by unfold uu; norm_num)
    have h3 : 9.01 * uu ≤ 1 := by unfold uu; norm_num
    have h4 : (1e-198 : ℝ) ≤ 1 := by norm_num
    have h5 : (4 : ℝ) ≤ 10 ^ 60 := by norm_num
    refine le_trans ?_ h5
    linarith only [h1, h2, h3, h4, hx, hv]
  have f1 : Fin64 v := fin64_of_le fv hvb
  have f2 : Fin64 |v| := fin64_of_le fv.abs (by rwa [abs_abs])
  rw [powNat_two f2] at hq
  rw [powNat_two f1]
  rw [sq_abs] at hq
  have e : (F64.fin |v| * F64.fin |v| : F64 B) = F64.fin v * F64.fin v := by
    show rnd B (|v| * |v|) = rnd B (v * v)
    rw [abs_mul_abs_self]
  rwa [e] at hq

set_option maxHeartbeats 1600000 in
/-- the Euler angles of a matrix whose first row and last column are accurate -/
theorem R2xyz_flt {M : M3 (F64 B)} {x y z : ℝ} (fx : IsF64 x) (fz : IsF64 z) (fy : IsF64 y) (hx : |x| ≤ Real.pi) (hy : |y| ≤ Real.pi / 2)
    (hz : |z| ≤ Real.pi) (h00 : RelS M.r0.x (Real.cos y * Real.cos z) 9.01 1e-198) (h01 : RelS M.r0.y (-(Real.cos y * Real.sin z)) 9.01 1e-198)
    (h02 : RelS M.r0.z (Real.sin y) 4 1e-199) (h12 : RelS M.r1.z (-(Real.cos y * Real.sin x)) 9.01 1e-198)
    (h22 : RelS M.r2.z (Real.cos y * Real.cos x) 9.01 1e-198) :
    App (R2xyz M).1 x (33 * uu) ∧ App (R2xyz M).2.1 y (33 * uu) ∧ App (R2xyz M).2.2 z (33 * uu) := by
  have hc := cos_ge_of_f64 fy hy
  have hc0 : 0 < Real.cos y := lt_of_lt_of_le (by norm_num) hc
  have hu := uu_pos
  have k1 : 0 ≤ 9.01 * uu := by unfold uu; norm_num
  have k2 : 9.01 * uu ≤ 1e-3 := by unfold uu; norm_num
  have ht : (1e-198 : ℝ) ≤ 1e-20 * Real.cos y := by
    have : (1e-20 : ℝ) * 1e-17 ≤ 1e-20 * Real.cos y := mul_le_mul_of_nonneg_left hc (by norm_num)
    have h2 : (1e-198 : ℝ) ≤ 1e-20 * 1e-17 := by norm_num
    exact h2.trans this
  -- the outer angles
  have outer : ∀ {t : ℝ} {P Q : F64 B}, IsF64 t → |t| ≤ Real.pi → RelS P (-(Real.cos y * Real.sin t)) 9.01 1e-198 →
      RelS Q (Real.cos y * Real.cos t) 9.01 1e-198 → App (PyFloat.arctan2 (-P) Q) t (33 * uu) := by
    intro t P Q ft htπ hP hQ
    have hP' := hP.neg
    rw [neg_neg] at hP'
    obtain ⟨v, hv, fv, hv'⟩ := hP'
    obtain ⟨w, rfl, fw, hw'⟩ := hQ
    rw [hv]
    obtain ⟨g1, g2⟩ := abs_lt.mp (abs_lt_pi_of_f64 ft htπ)
    have small : ∀ {q s : ℝ}, 1e-34 ≤ q → |s - q| ≤ 9.01 * uu * |q| + 1e-198 → 0 < s := by
      intro q s hq h
      have q0 : 0 ≤ q := le_trans (by norm_num) hq
      rw [abs_of_nonneg q0] at h
      have h3 := (abs_le.mp h).1
      have h4 := mul_le_mul_of_nonneg_right k2 q0
      have h5 : (1e-198 : ℝ) ≤ 0.5 * 1e-34 := by norm_num
      generalize (1e-198 : ℝ) = T at *
      norm_num at h4 h5 hq
      linarith only [h3, h4, h5, hq]
    have prod : ∀ {q : ℝ}, 1e-17 ≤ q → 1e-34 ≤ Real.cos y * q := by
      intro q hq
      have : (1e-17 : ℝ) * 1e-17 ≤ Real.cos y * q := mul_le_mul hc hq (by norm_num) hc0.le
      exact le_trans (by norm_num) this
    refine arctan2_angle hc0 g1 g2.le k1 hv' hw' ht k2 ?_ ?_ ?_
    · intro h3
      exact (small (prod (sin_ge_of_f64 ft h3 g2.le)) hv').le
    · intro h3
      have h4 := sin_ge_of_f64 ft.neg (by linarith) (by linarith)
      rw [Real.sin_neg] at h4
      have h5 := prod h4
      have h6 := small (s := -v) h5 (by
        rw [show -v - Real.cos y * -Real.sin t = -(v - Real.cos y * Real.sin t) by ring, abs_neg,
          show Real.cos y * -Real.sin t = -(Real.cos y * Real.sin t) by ring, abs_neg]
        exact hv')
      linarith
    · unfold uu; norm_num
  refine ⟨outer fx hx h12 h22, ?_, outer fz hz h01 h00⟩
  -- the middle angle
  have c1 := abs_cos1 y
  have s1 := abs_sin1
  have cc1 := abs_cos1
  have sgn : ∀ t : ℝ, |-(Real.cos y * Real.sin t)| ≤ 1 := fun t => by rw [abs_neg]; exact abs_mul1 c1 (s1 t)
  have q1 := h00.abs_sq (abs_mul1 c1 (cc1 z))
  have q2 := h01.abs_sq (sgn z)
  have q3 := h12.abs_sq (sgn x)
  have q4 := h22.abs_sq (abs_mul1 c1 (cc1 x))
  have one : ∀ {t : ℝ}, |t| ≤ 1 → t ^ 2 ≤ 1 := fun {t} h => by
    have := sq_le_of_abs_le h; linarith
  have b1 := one (abs_mul1 c1 (cc1 z))
  have b2 := one (sgn z)
  have b3 := one (sgn x)
  have b4 := one (abs_mul1 c1 (cc1 x))
  have r1 := q1.add q2 (b := 2) (kk := 19.03) (k := 20.04) (d := 1e-196) (by linarith) le_rfl le_rfl (by norm_num) (by norm_num) (by norm_num) (by norm_num)
    (by norm_num) (by norm_num) (by norm_num)
  have r2 := r1.add q3 (b := 3) (kk := 20.04) (k := 21.05) (d := 1e-195) (by linarith) le_rfl (by norm_num) (by norm_num) (by norm_num) (by norm_num) (by norm_num)
    (by norm_num) (by norm_num) (by norm_num)
  have r3 := r2.add q4 (b := 4) (kk := 21.05) (k := 22.06) (d := 1e-194) (by linarith) le_rfl (by norm_num) (by norm_num) (by norm_num) (by norm_num) (by norm_num)
    (by norm_num) (by norm_num) (by norm_num)
  have esum : (Real.cos y * Real.cos z) ^ 2 + (-(Real.cos y * Real.sin z)) ^ 2 + (-(Real.cos y * Real.sin x)) ^ 2 + (Real.cos y * Real.cos x) ^ 2 =
      2 * Real.cos y ^ 2 := by
    linear_combination Real.cos y ^ 2 * (Real.sin_sq_add_cos_sq x) + Real.cos y ^ 2 * (Real.sin_sq_add_cos_sq z)
  rw [esum] at r3
  have cy2 : Real.cos y ^ 2 ≤ 1 := one c1
  have r4 := r3.div (Rel.exact (B := B) isF64_two (by norm_num)) (m := 2) (b := 1) (k := 23.1) (d := 1e-193) le_rfl (by norm_num)
    (by linarith) (by norm_num) (by norm_num) (by norm_num) (by norm_num) (by norm_num) (by norm_num) (by norm_num) (by norm_num) (by norm_num)
  rw [mul_div_cancel_left₀ _ (two_ne_zero)] at r4
  have r5 := r4.sqrt (c := 1e-96) (b := 1) (k := 12.56) (d := 1e-95) (by norm_num) (by norm_num) (cy2.trans (by norm_num))
    (by rw [Real.sqrt_sq hc0.le]; exact (abs_le.mp c1).2) (by norm_num) (by norm_num) (by norm_num) (by norm_num) (by norm_num) (by norm_num)
  rw [Real.sqrt_sq hc0.le, ← lit_two (B := B)] at r5
  obtain ⟨w, hw, fw, w1, w2, w3⟩ := r5
  obtain ⟨v, hv, fv, hv'⟩ := h02
  have e2 : (R2xyz M).2.1 = PyFloat.arctan2 (F64.fin v : F64 B) (F64.fin w) := by
    rw [← hw, ← hv]; rfl
  rw [e2]
  have hπ := Real.pi_gt_d2
  have hπ' := Real.pi_lt_d2
  obtain ⟨y1, y2⟩ := abs_le.mp hy
  norm_num at hπ hπ'
  refine arctan2_angle one_pos (κ := 12.56 * uu) (t := 1e-95) (by linarith) (by linarith) (by unfold uu; norm_num) ?_ ?_ ?_ ?_ ?_ ?_ ?_
  · rw [one_mul]
    refine hv'.trans (add_le_add ?_ (by norm_num))
    exact mul_le_mul_of_nonneg_right (by unfold uu; norm_num) (abs_nonneg _)
  · rw [one_mul, abs_of_pos hc0]
    exact w3
  · norm_num
  · unfold uu; norm_num
  · intro h; linarith
  · intro h; linarith
  · unfold uu; norm_num

end

end Nv
