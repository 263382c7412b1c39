import Verif.Props.FloatClosest
import Verif.Props.Paths
import Verif.Props.Interp

/-!
# C104, C105: intersection of paths and interpolation in binary64
-/

namespace Nv
open Spec F64
variable {B : Binary64}

/-- multiplying a finite vector by the sign of a nonzero number is exact -/
theorem scale_sign_flt {u : V3 ℝ} (fu : Fin64V u) {d : ℝ} (hd : d ≠ 0) :
    scale3 (u.flt : V3 (F64 B)) (PyFloat.sign (F64.fin d)) = ((if 0 < d then u else -u : V3 ℝ).flt : V3 (F64 B)) := by
  rcases lt_or_gt_of_ne hd with h | h
  · have hs : PyFloat.sign (F64.fin d : F64 B) = F64.fin (-1) := by
      change XR.sign (XR.fin d) = XR.fin (-1)
      simp only [XR.sign]
      rw [if_neg (not_lt.mpr h.le), if_pos h]
    rw [hs, if_neg (not_lt.mpr h.le)]
    unfold scale3 V3.flt
    simp only [mul_neg_one' fu.1, mul_neg_one' fu.2.1, mul_neg_one' fu.2.2]
    rfl
  · have hs : PyFloat.sign (F64.fin d : F64 B) = F64.fin 1 := by
      change XR.sign (XR.fin d) = XR.fin 1
      simp only [XR.sign]
      rw [if_pos h]
    rw [hs, if_pos h]
    unfold scale3 V3.flt
    simp only [mul_one' fu.1, mul_one' fu.2.1, mul_one' fu.2.2]

theorem Spec.CloseV.neg {v w : V3 ℝ} {e : ℝ} (h : CloseV v w e) : CloseV (-v) (-w) e := by
  obtain ⟨h1, h2, h3⟩ := h
  refine ⟨?_, ?_, ?_⟩
  · rw [show (-v).x - (-w).x = -(v.x - w.x) by change -v.x - -w.x = _; ring, abs_neg]; exact h1
  · rw [show (-v).y - (-w).y = -(v.y - w.y) by change -v.y - -w.y = _; ring, abs_neg]; exact h2
  · rw [show (-v).z - (-w).z = -(v.z - w.z) by change -v.z - -w.z = _; ring, abs_neg]; exact h3

theorem Spec.IsF64V.neg {v : V3 ℝ} (h : IsF64V v) : IsF64V (-v) := ⟨h.1.neg, h.2.1.neg, h.2.2.neg⟩

variable (B)

/-- **C104** `intersect` in rounded arithmetic.  `s` is a lower bound of the length of `(A1 × A2) × (B1 × B2)`, `t` of the cosine of the angle between
the first end point of path A and the line in which the great circles meet.  The result is within `9.4e-15 / s` per component of the intersection `C` of the exact
great circles in the hemisphere of `A1`, and there is no NaN and no warning. -/
theorem C104_intersect {A1 A2 B1 B2 : V3 ℝ} {s t : ℝ} (fA1 : IsF64V A1) (fA2 : IsF64V A2) (fB1 : IsF64V B1) (fB2 : IsF64V B2)
    (lA1 : len A1 ≤ 1.04) (lA2 : len A2 ≤ 1.04) (lB1 : len B1 ≤ 1.04) (lB2 : len B2 ≤ 1.04) (s0 : 1e-10 ≤ s)
    (hs : s ≤ len (cross (cross A1 A2) (cross B1 B2))) (ht : ∀ Q, OnCircle A1 A2 Q → OnCircle B1 B2 Q → t ≤ |dot Q A1|) (hst : 2e-14 ≤ s * t) :
    ∃ w C : V3 ℝ, intersect (A1.flt, A2.flt) ((B1.flt, B2.flt) : V3 (F64 B) × V3 (F64 B)) = w.flt ∧ IsF64V w ∧
      intersect_warns (A1.flt, A2.flt) ((B1.flt, B2.flt) : V3 (F64 B) × V3 (F64 B)) = false ∧
      OnCircle A1 A2 C ∧ OnCircle B1 B2 C ∧ 0 < dot C A1 ∧ angle A1 C ≤ angle A1 (-C) ∧ CloseV w C (9.4e-15 / s) := by
  have hu := uu_pos
  have sp : 0 < s := lt_of_lt_of_le (by norm_num) s0
  have t0 : 0 < t := by by_contra hh; push Not at hh; nlinarith
  obtain ⟨W, hW⟩ : ∃ W, W = cross (cross A1 A2) (cross B1 B2) := ⟨_, rfl⟩
  rw [← hW] at hs
  have hW0 : W ≠ 0 := by intro h; rw [h, len_eq_zero.mpr rfl] at hs; linarith
  have hW0' : cross (cross A1 A2) (cross B1 B2) ≠ 0 := by rw [← hW]; exact hW0
  have z0 : ∀ v : V3 ℝ, len (v - v) ≤ 0 := fun v => by rw [show v - v = 0 by ext <;> simp, len_eq_zero.mpr rfl]
  obtain ⟨p, hp, fp, bp⟩ := cross_err_flt (B := B) fA1 fA2 (by norm_num at lA1 ⊢; linarith) (by norm_num at lA2 ⊢; linarith) lA1 lA2 (z0 A1) (z0 A2)
  obtain ⟨q, hq, fq, bq⟩ := cross_err_flt (B := B) fB1 fB2 (by norm_num at lB1 ⊢; linarith) (by norm_num at lB2 ⊢; linarith) lB1 lB2 (z0 B1) (z0 B2)
  have bp' : len (p - cross A1 A2) ≤ 6.93 * uu := by linarith
  have bq' : len (q - cross B1 B2) ≤ 6.93 * uu := by linarith
  have us : 6.93 * uu ≤ 1e-6 := by unfold uu; norm_num
  have pa : len (cross A1 A2) ≤ 1.0816 := by
    have h := len_cross_le A1 A2
    have := mul_le_mul lA1 lA2 (len_nonneg' _) (by norm_num)
    norm_num at this ⊢; linarith
  have qa : len (cross B1 B2) ≤ 1.0816 := by
    have h := len_cross_le B1 B2
    have := mul_le_mul lB1 lB2 (len_nonneg' _) (by norm_num)
    norm_num at this ⊢; linarith
  have pl : len p ≤ 1.082 := by
    have h := len_add_le (p - cross A1 A2) (cross A1 A2)
    rw [show p - cross A1 A2 + cross A1 A2 = p by ext <;> simp] at h
    norm_num at us pa ⊢ bp'; linarith
  have ql : len q ≤ 1.082 := by
    have h := len_add_le (q - cross B1 B2) (cross B1 B2)
    rw [show q - cross B1 B2 + cross B1 B2 = q by ext <;> simp] at h
    norm_num at us qa ⊢ bq'; linarith
  obtain ⟨w, hw, fw, bw⟩ := cross_err_flt (B := B) fp fq (by norm_num at pl ⊢; linarith) (by norm_num at ql ⊢; linarith) pa ql bp' bq'
  have bw' : len (w - W) ≤ 22 * uu := by rw [hW]; norm_num at bw ⊢; linarith
  have Wl : len W ≤ 1.17 := by
    rw [hW]
    have h := len_cross_le (cross A1 A2) (cross B1 B2)
    have := mul_le_mul pa qa (len_nonneg' _) (by norm_num)
    norm_num at this ⊢; linarith
  have hk0 : 82.2 * uu / s ≤ 0.0001 := by
    rw [div_le_iff₀ sp]
    have : 82.2 * uu ≤ 0.0001 * 1e-10 := by unfold uu; norm_num
    linarith
  obtain ⟨u, h4, fu, cu⟩ := unit_dir (B := B) (s := s) (k := 82.2 * uu / s) (by norm_num at s0 ⊢; linarith) hs (by linarith) (Spec.CloseV.of_len bw') (by
      have : 1.7321 * (22 * uu) ≤ 0.5 * 1e-10 := by unfold uu; norm_num
      linarith) (by
    rw [le_div_iff₀ sp, add_mul, div_mul_cancel₀ _ sp.ne']
    have : 5.06 * uu * s ≤ 5.06 * uu * 1.17 := mul_le_mul_of_nonneg_left (hs.trans Wl) (by positivity)
    norm_num at this ⊢; linarith) PyFloat.nan
  have hdu := dirOf_unit hW0
  obtain ⟨oA, oB⟩ := onCircle_w hW0'
  rw [← hW] at oA oB
  have htd := ht _ oA oB
  obtain ⟨d, e4, fd, bd⟩ := app_row (B := B) fu fA1 cu (P := A1) (q := A1) (e₂ := 0) ⟨by simp, by simp, by simp⟩ hdu.len hk0 (L := 1.04)
    (by linarith) (by norm_num)
  have hdD : |d - dot (dirOf W) A1| < t := by
    refine lt_of_le_of_lt bd ?_
    have k1 : (3.02 * uu + 1.7321 * (82.2 * uu / s)) * 1.04 ≤ 0.9 * t := by
      have e : (3.02 * uu + 1.7321 * (82.2 * uu / s)) * 1.04 = (3.02 * s + 1.7321 * 82.2) * 1.04 * uu / s := by field_simp
      rw [e, div_le_iff₀ sp]
      have h1 : (3.02 * s + 1.7321 * 82.2) * 1.04 * uu ≤ (3.02 * 1.17 + 1.7321 * 82.2) * 1.04 * uu := by
        apply mul_le_mul_of_nonneg_right _ hu.le
        have := hs.trans Wl
        norm_num at this ⊢; linarith
      have h2 : (3.02 * 1.17 + 1.7321 * 82.2) * 1.04 * uu ≤ 0.9 * 2e-14 := by unfold uu; norm_num
      linarith
    have t1 : 1e-14 ≤ t := by
      have h1 : s * t ≤ 1.17 * t := mul_le_mul_of_nonneg_right (hs.trans Wl) t0.le
      norm_num at h1 hst ⊢; linarith
    have k4 : (1e-59 : ℝ) < 0.1 * 1e-14 := by norm_num
    generalize (1e-59 : ℝ) = z at k4 ⊢
    linarith
  have hd0 : d ≠ 0 := by
    rintro rfl
    rw [zero_sub, abs_neg] at hdD; linarith
  have hsame : 0 < d ↔ 0 < dot (dirOf W) A1 := by
    obtain ⟨q1, q2⟩ := abs_lt.mp hdD
    constructor
    · intro h
      by_contra hh; push Not at hh
      rw [abs_of_nonpos hh] at htd; linarith
    · intro h
      rw [abs_of_pos h] at htd; linarith
  have hD0 : dot (dirOf W) A1 ≠ 0 := by
    intro h; rw [h, abs_zero] at htd; linarith
  have hu1 : len u ≤ 2 := by
    have := cu.len_le'
    rw [hdu.len] at this
    norm_num at this hk0 ⊢; linarith
  have fu' : Fin64V u := Fin64V.of_len fu (hu1.trans (by norm_num))
  have hI : intersect (A1.flt, A2.flt) ((B1.flt, B2.flt) : V3 (F64 B) × V3 (F64 B)) = (if 0 < d then u else -u : V3 ℝ).flt := by
    unfold intersect
    simp only [hp, hq, hw, h4, e4]
    exact scale_sign_flt fu' hd0
  have hang : ∀ C : V3 ℝ, UnitVec C → 0 < dot C A1 → angle A1 C ≤ angle A1 (-C) := by
    intro C hC h0
    unfold angle
    apply Real.arccos_le_arccos
    have l1 := len_pos (cross_ne_zero_left (cross_ne_zero_left hW0'))
    rw [hC.neg.len, hC.len, mul_one]
    apply div_le_div_of_nonneg_right _ l1.le
    rw [dot_neg_right, dot_comm]; linarith
  have hmono : 82.2 * uu / s ≤ 9.4e-15 / s := by
    refine div_le_div_of_nonneg_right ?_ sp.le
    unfold uu; norm_num
  have hwarn : intersect_warns (A1.flt, A2.flt) ((B1.flt, B2.flt) : V3 (F64 B) × V3 (F64 B)) = false := by
    unfold intersect_warns; rw [hI]; rfl
  by_cases h : 0 < d
  · rw [if_pos h] at hI
    exact ⟨u, dirOf W, hI, fu, hwarn, oA, oB, hsame.mp h, hang _ hdu (hsame.mp h), cu.mono hmono⟩
  · rw [if_neg h] at hI
    have hneg : 0 < dot (-dirOf W) A1 := by
      rw [dot_neg_left]
      have : ¬ 0 < dot (dirOf W) A1 := fun h' => h (hsame.mpr h')
      push Not at this
      have := lt_of_le_of_ne this hD0
      linarith
    exact ⟨-u, -dirOf W, hI, fu.neg, hwarn, oA.neg, oB.neg, hneg, hang _ hdu.neg hneg, cu.neg.mono hmono⟩

/-- a concrete case of the hypotheses of C104: the equator and the meridian of 90 degrees east tilted, meeting 45 degrees from `A1` -/
example : ∃ w C : V3 ℝ, intersect ((⟨1, 0, 0⟩ : V3 ℝ).flt, (⟨0, 1, 0⟩ : V3 ℝ).flt) (((⟨1 / 2, 1 / 2, 0⟩ : V3 ℝ).flt, (⟨0, 0, 1⟩ : V3 ℝ).flt) : V3 (F64 B) × V3 (F64 B)) = w.flt ∧
    OnCircle ⟨1, 0, 0⟩ ⟨0, 1, 0⟩ C ∧ 0 < dot C ⟨1, 0, 0⟩ ∧ CloseV w C (9.4e-15 / (1 / 2)) := by
  have h12 : IsF64 (1 / 2 : ℝ) := ⟨1, -1, by norm_num, by norm_num, by norm_num⟩
  have hc : cross (cross (⟨1, 0, 0⟩ : V3 ℝ) ⟨0, 1, 0⟩) (cross ⟨1 / 2, 1 / 2, 0⟩ ⟨0, 0, 1⟩) = ⟨1 / 2, 1 / 2, 0⟩ := by ext <;> simp [cross]
  have hl : (1 / 2 : ℝ) ≤ len (⟨1 / 2, 1 / 2, 0⟩ : V3 ℝ) := by
    have := abs_x_le_len (⟨1 / 2, 1 / 2, 0⟩ : V3 ℝ)
    rwa [abs_of_pos (by norm_num)] at this
  obtain ⟨w, C, h1, -, -, h2, -, h3, -, h4⟩ := C104_intersect B (A1 := ⟨1, 0, 0⟩) (A2 := ⟨0, 1, 0⟩) (B1 := ⟨1 / 2, 1 / 2, 0⟩) (B2 := ⟨0, 0, 1⟩) (s := 1 / 2) (t := 1 / 2)
    ⟨isF64_one, isF64_zero, isF64_zero⟩ ⟨isF64_zero, isF64_one, isF64_zero⟩ ⟨h12, h12, isF64_zero⟩ ⟨isF64_zero, isF64_zero, isF64_one⟩
    (by simp [len]; norm_num) (by simp [len]; norm_num) (by
      unfold len
      rw [show (1.04 : ℝ) = √(1.04 ^ 2) by rw [Real.sqrt_sq (by norm_num)]]
      exact Real.sqrt_le_sqrt (by norm_num)) (by simp [len]; norm_num) (by norm_num) (by rw [hc]; exact hl) (by
      rintro Q ⟨hQ, p, q, e⟩ ⟨-, p', q', e'⟩
      have ez : Q.z = 0 := by rw [e]; simp
      have exy : Q.x = Q.y := by rw [e']; simp
      have hq : Q.x ^ 2 + Q.y ^ 2 + Q.z ^ 2 = 1 := by
        have := hQ.dot; unfold dot at this; linarith
      have e2 : dot Q ⟨1, 0, 0⟩ = Q.x := by unfold dot; simp
      rw [e2]
      rw [← exy, ez] at hq
      by_contra hh; push Not at hh
      have := sq_lt_sq' (by linarith [abs_nonneg Q.x]) hh
      rw [sq_abs] at this
      norm_num at this; linarith) (by norm_num)
  exact ⟨w, C, h1, h2, h3, h4⟩

/-! ## C105 -/

variable {B}

/-- one component of `a + (b - a) * t` -/
theorem mix_comp_flt {a b t T : ℝ} (fa : IsF64 a) (fb : IsF64 b) (ft : IsF64 t) (ha : |a| ≤ 1.1) (hb : |b| ≤ 1.1) (T1 : 1 ≤ T) (T2 : T ≤ 40) (ht : |t| ≤ T) :
    App ((F64.fin a : F64 B) + (F64.fin b - F64.fin a) * F64.fin t) (a + (b - a) * t) (7.8 * T * uu) := by
  have hu := uu_pos
  have u1 : uu ≤ 1e-15 := by unfold uu; norm_num
  have hz : (1 : ℝ) / 10 ^ 60 ≤ 1e-3 * uu := by unfold uu; norm_num
  have z0 : (0 : ℝ) < 1 / 10 ^ 60 := by positivity
  have hba : |b - a| ≤ 2.2 := by
    have := abs_sub b a
    norm_num at ha hb ⊢; linarith
  have hL : (100 : ℝ) ≤ 10 ^ 60 := by norm_num
  obtain ⟨z, hz'⟩ : ∃ z : ℝ, z = 1 / 10 ^ 60 := ⟨_, rfl⟩
  obtain ⟨L, hL'⟩ : ∃ L : ℝ, L = 10 ^ 60 := ⟨_, rfl⟩
  rw [← hz'] at hz z0
  rw [← hL'] at hL
  have A : App (F64.fin a : F64 B) a 0 := App.exact fa
  have Bb : App (F64.fin b : F64 B) b 0 := App.exact fb
  have Tt : App (F64.fin t : F64 B) t 0 := App.exact ft
  have d := Bb.sub A hba (e := 2.201 * uu) (by rw [← hz']; norm_num at hz ⊢; linarith) (by rw [← hL']; norm_num; linarith)
  have hm : |(b - a) * t| ≤ 2.2 * T := by rw [abs_mul]; exact mul_le_mul hba ht (abs_nonneg _) (by norm_num)
  have uT : uu ≤ T * uu := by nlinarith
  have uuT : uu * (T * uu) ≤ 1e-15 * (T * uu) := mul_le_mul_of_nonneg_right u1 (by positivity)
  have Tu1 : T * uu ≤ 1 := by nlinarith
  have m := d.mul Tt hba ht hm (e := 4.403 * T * uu) (by
    rw [← hz']
    have e : 2.2 * 0 + T * (2.201 * uu) + 2.201 * uu * 0 + uu * (2.2 * T + (2.2 * 0 + T * (2.201 * uu) + 2.201 * uu * 0)) + z =
      4.401 * (T * uu) + 2.201 * (uu * (T * uu)) + z := by ring
    rw [e]
    norm_num at uuT hz ⊢; linarith) (by
    rw [← hL']
    have e : 2.2 * T + (2.2 * 0 + T * (2.201 * uu) + 2.201 * uu * 0) = 2.2 * T + 2.201 * (T * uu) := by ring
    rw [e]; norm_num; linarith)
  refine A.add m (b := 3.3 * T) ?_ ?_ ?_
  · have h0 := abs_add_le a ((b - a) * t)
    have h1 : 1.1 ≤ 1.1 * T := by norm_num; linarith
    linarith
  · rw [← hz']
    have e : 0 + 4.403 * T * uu + uu * (3.3 * T + (0 + 4.403 * T * uu)) + z = 7.703 * (T * uu) + 4.403 * (uu * (T * uu)) + z := by ring
    rw [e, show 7.8 * T * uu = 7.8 * (T * uu) by ring]
    norm_num at uuT hz ⊢; linarith
  · rw [← hL', show 3.3 * T + (0 + 4.403 * T * uu) = 3.3 * T + 4.403 * (T * uu) by ring]
    norm_num; linarith

variable (B)

/-- **C105** `interpolate` in rounded arithmetic, for `|t| ≤ T`, `1 ≤ T ≤ 40` (`t` outside `[0, 1]` extrapolates).  `C` is the exact result; `s` is a lower bound of the length of
`(1 - t) a + t b` -/
theorem C105_interpolate {a b : V3 ℝ} {t T s : ℝ} (fa : IsF64V a) (fb : IsF64V b) (ft : IsF64 t) (a2 : len a ≤ 1.1) (b2 : len b ≤ 1.1)
    (T1 : 1 ≤ T) (T2 : T ≤ 40) (ht : |t| ≤ T) (s0 : 1e-11 ≤ s) (hs : s ≤ len ((1 - t) • a + t • b)) (hsT : T ≤ 3e14 * s) :
    ∃ w C : V3 ℝ, interpolate (a.flt, b.flt) (F64.fin t : F64 B) = w.flt ∧ IsF64V w ∧
      interpolate (a.fin, b.fin) (XR.fin t) = C.fin ∧ OnCircle a b C ∧ (0 ≤ t → t ≤ 1 → OnArc a b C) ∧ CloseV w C (5.7e-16 + 3.01e-15 * T / s) := by
  have hu := uu_pos
  have sp : 0 < s := lt_of_lt_of_le (by norm_num) s0
  rw [← mix_eq] at hs
  have hm0 : mix a b t ≠ 0 := by intro h; rw [h, len_eq_zero.mpr rfl] at hs; linarith
  have hl := len_pos hm0
  obtain ⟨x, hx, fx, ex⟩ := mix_comp_flt (B := B) fa.1 fb.1 ft ((abs_x_le_len a).trans a2) ((abs_x_le_len b).trans b2) T1 T2 ht
  obtain ⟨y, hy, fy, ey⟩ := mix_comp_flt (B := B) fa.2.1 fb.2.1 ft ((abs_y_le_len a).trans a2) ((abs_y_le_len b).trans b2) T1 T2 ht
  obtain ⟨z, hz, fz, ez⟩ := mix_comp_flt (B := B) fa.2.2 fb.2.2 ft ((abs_z_le_len a).trans a2) ((abs_z_le_len b).trans b2) T1 T2 ht
  have hl2 : len (mix a b t) ≤ 100 := by
    unfold mix
    have h1 := len_add_le a (t • (b - a))
    rw [len_smul] at h1
    have h2 := len_add_le b (-a)
    rw [show b + -a = b - a by ext <;> simp <;> ring, show len (-a) = len a by unfold len; simp] at h2
    have h3 : |t| * len (b - a) ≤ 40 * 2.2 := mul_le_mul (ht.trans T2) (by norm_num at a2 b2 ⊢; linarith) (len_nonneg' _) (by norm_num)
    norm_num at h3 a2 ⊢; linarith
  have hc : CloseV ⟨x, y, z⟩ (mix a b t) (7.8 * T * uu) := by
    unfold mix
    refine ⟨?_, ?_, ?_⟩
    · change |x - (a.x + t * (b.x - a.x))| ≤ _
      rw [mul_comm t]; exact ex
    · change |y - (a.y + t * (b.y - a.y))| ≤ _
      rw [mul_comm t]; exact ey
    · change |z - (a.z + t * (b.z - a.z))| ≤ _
      rw [mul_comm t]; exact ez
  obtain ⟨w, hw, fw, cw⟩ := unit_dir (B := B) (k := 5.7e-16 + 3.01e-15 * T / s) s0 hs hl2 hc (by
      have : 1.7321 * 7.8 * uu * 3e14 ≤ 0.5 := by unfold uu; norm_num
      have h1 : 1.7321 * 7.8 * uu * T ≤ 1.7321 * 7.8 * uu * (3e14 * s) := mul_le_mul_of_nonneg_left hsT (by positivity)
      have h2 := mul_le_mul_of_nonneg_right this sp.le
      linarith) (by
      have h1 : 5.06 * uu ≤ 5.7e-16 := by unfold uu; norm_num
      have h2 : 3.4642 * (7.8 * T * uu) / s ≤ 3.01e-15 * T / s := by
        refine div_le_div_of_nonneg_right ?_ sp.le
        have : 3.4642 * 7.8 * uu ≤ 3.01e-15 := by unfold uu; norm_num
        have := mul_le_mul_of_nonneg_right this (by linarith : (0 : ℝ) ≤ T)
        linarith
      linarith) PyFloat.nan
  refine ⟨w, dirOf (mix a b t), ?_, fw, interpolate_fin hm0, ⟨dirOf_unit hm0, (len (mix a b t))⁻¹ * (1 - t), (len (mix a b t))⁻¹ * t, ?_⟩, ?_, cw⟩
  · rw [← hw]
    unfold interpolate
    congr 1
    unfold add3 scale3 sub3 V3.flt
    simp only [hx, hy, hz]
  · unfold dirOf; conv_lhs => rw [mix_eq a b t]
    ext <;> simp [mix_eq] <;> ring
  · intro h0 h1
    refine ⟨dirOf_unit hm0, (len (mix a b t))⁻¹ * (1 - t), (len (mix a b t))⁻¹ * t,
      mul_nonneg (inv_nonneg.mpr hl.le) (by linarith), mul_nonneg (inv_nonneg.mpr hl.le) h0, ?_⟩
    unfold dirOf; conv_lhs => rw [mix_eq a b t]
    ext <;> simp [mix_eq] <;> ring

/-- a concrete case of the hypotheses of C105 -/
example : ∃ w C : V3 ℝ, interpolate ((⟨1, 0, 0⟩ : V3 ℝ).flt, (⟨0, 1, 0⟩ : V3 ℝ).flt) (F64.fin (1 / 2) : F64 B) = w.flt ∧
    interpolate ((⟨1, 0, 0⟩ : V3 ℝ).fin, (⟨0, 1, 0⟩ : V3 ℝ).fin) (XR.fin (1 / 2)) = C.fin ∧ CloseV w C (5.7e-16 + 3.01e-15 * 1 / (1 / 2)) := by
  have h12 : IsF64 (1 / 2 : ℝ) := ⟨1, -1, by norm_num, by norm_num, by norm_num⟩
  obtain ⟨w, C, h1, -, h2, -, -, h3⟩ := C105_interpolate B (a := ⟨1, 0, 0⟩) (b := ⟨0, 1, 0⟩) (t := 1 / 2) (T := 1) (s := 1 / 2)
    ⟨isF64_one, isF64_zero, isF64_zero⟩ ⟨isF64_zero, isF64_one, isF64_zero⟩ h12 (by simp [len]; norm_num) (by simp [len]; norm_num) le_rfl (by norm_num)
    (by rw [abs_of_pos (by norm_num)]; norm_num) (by norm_num) (by
      have := abs_x_le_len ((1 - 1 / 2 : ℝ) • (⟨1, 0, 0⟩ : V3 ℝ) + (1 / 2 : ℝ) • ⟨0, 1, 0⟩)
      simp at this ⊢
      rw [abs_of_pos (by norm_num)] at this
      norm_num at this ⊢; exact this) (by norm_num)
  exact ⟨w, C, h1, h2, h3⟩

end Nv
