import Verif.Props.SignedZero
import Verif.Float.Position

/-!
# C116: the sign of zero in `p_EB_E2n_EB_E` in binary64
-/

namespace Nv
open Spec F64

section
variable {B : Binary64}

/-- a number whose sixth is a positive number is not negative -/
theorem lt_zero_of_sixth {x : F64 B} {y : ℝ} (h : x / lit 6 = fin y) (hy : 0 < y) : PyFloat.lt x (lit 0) = false := by
  rw [F64.lit_zero_XR]
  rw [lit_six] at h
  change F64.round B (XR.div x (XR.fin 6)) = XR.fin y at h
  change XR.lt x (XR.fin 0) = false
  cases x with
  | fin x =>
    by_contra hx
    simp only [XR.lt, decide_eq_false_iff_not, not_not] at hx
    have e : XR.div (XR.fin x) (XR.fin 6) = XR.fin (x / 6) := XR.div_fin (by norm_num)
    rw [e] at h
    have hc : x / 6 < 0 := by linarith
    by_cases hb : |B.fl (x / 6)| < (2 : ℝ) ^ (1024 : ℤ)
    · have e : F64.round B (XR.fin (x / 6)) = XR.fin (B.fl (x / 6)) := if_pos hb
      rw [e] at h
      have hn : B.fl (x / 6) ≤ 0 := B.rounds.le isF64_zero hc.le
      cases h
      linarith
    · have e : F64.round B (XR.fin (x / 6)) = XR.signInf (x / 6) := if_neg hb
      rw [e] at h
      unfold XR.signInf at h
      rw [if_neg (not_lt.mpr hc.le), if_pos hc] at h
      cases h
  | ninf =>
    have e : XR.div XR.ninf (XR.fin 6) = XR.ninf := by simp [XR.div]
    rw [e] at h
    change XR.ninf = XR.fin y at h
    cases h
  | _ => rfl

set_option maxHeartbeats 1600000 in
/-- the first term of Vermeille's formulas is not negative outside the core -/
theorem coreOf_flt {a f : ℝ} {P : V3 ℝ} (fa : IsF64 a) (a1 : 1 ≤ a) (a2 : a ≤ 1e10) (ff : IsF64 f) (f0 : 0 ≤ f) (f1 : f ≤ 0.01)
    (hP : IsF64V P) (L1 : a / 2 ≤ len P) (L2 : len P ≤ 1000 * a) :
    PyFloat.lt (coreOf (fin a) (fin f) (P.flt : V3 (F64 B))) (lit 0) = false := by
  have hE := rel_ecc (B := B) ff f0 f1
  have L0 : len P ≤ 1e13 := by norm_num at a2 ⊢; linarith
  obtain ⟨p1, p2, p3⟩ := hP
  have b1 := ((abs_x_le_len P).trans L0).trans (by norm_num : (1e13 : ℝ) ≤ 1e28)
  have b2 := ((abs_y_le_len P).trans L0).trans (by norm_num : (1e13 : ℝ) ≤ 1e28)
  have b3 := ((abs_z_le_len P).trans L0).trans (by norm_num : (1e13 : ℝ) ≤ 1e28)
  have rx := rel_sq_of (B := B) p1 b1
  have ry := rel_sq_of (B := B) p2 b2
  have rz := rel_sq_of (B := B) p3 b3
  have ra := (Rel.exact (B := B) fa (by linarith)).pow_two (b := 1e10) (k := 4.002) (d := 1e-199) a2 (by norm_num) le_rfl (by norm_num) le_rfl (by norm_num)
    (by norm_num) (by norm_num)
  have hLs : len P ^ 2 = P.x ^ 2 + P.y ^ 2 + P.z ^ 2 := by unfold len; rw [Real.sq_sqrt (by positivity)]
  have hL26 : len P ^ 2 ≤ 1e26 := by
    have := pow_le_pow_left₀ (len_nonneg' P) L0 2
    norm_num at this ⊢; linarith
  have x20 := sq_nonneg P.x
  have y20 := sq_nonneg P.y
  have z20 := sq_nonneg P.z
  have rR := ry.add rz (b := 1e26) (k := 2.01) (d := 1e-198) (kk := 1.002) (by linarith) le_rfl le_rfl (by norm_num) (by norm_num) (by norm_num) (by norm_num)
    (by norm_num) (by norm_num) (by norm_num)
  obtain ⟨e2, he2⟩ : ∃ e2, e2 = (2 - f) * f := ⟨_, rfl⟩
  obtain ⟨E, hEd⟩ : ∃ E, E = eccentricity2 (fin f : F64 B) := ⟨_, rfl⟩
  rw [← he2, ← hEd] at hE
  have e0 := hE.nonneg
  have e1 : e2 ≤ 0.02 := by rw [he2]; nlinarith
  have r1 := (Rel.exact (B := B) isF64_one (by norm_num)).sub hE (c := 1.03) (c' := 0.0205) (m := 0.98) (b := 1) (k := 1.05) (d := 1e-189) (by linarith)
    (by linarith) (by linarith) (by norm_num) (by linarith) le_rfl (by norm_num) (by norm_num) (by norm_num) le_rfl (by norm_num) (by norm_num)
    (by norm_num) (by norm_num) (by norm_num)
  have ha2 : 1 ≤ a ^ 2 := one_le_pow₀ a1
  have hq1 : (1 - e2) / a ^ 2 ≤ 1 := by rw [div_le_one (by linarith)]; linarith
  have hq0 : 0 ≤ (1 - e2) / a ^ 2 := div_nonneg (by linarith) (by linarith)
  have r2 := r1.div ra (m := 1) (b := 1) (k := 6.06) (d := 1e-188) ha2 (by norm_num) hq1 (by norm_num) (by norm_num) (by norm_num) (by norm_num) (by norm_num)
    (by norm_num) (by norm_num) (by norm_num) (by norm_num)
  have hqx : (1 - e2) / a ^ 2 * P.x ^ 2 ≤ 1e26 := by
    calc _ ≤ 1 * P.x ^ 2 := mul_le_mul_of_nonneg_right hq1 x20
      _ ≤ _ := by linarith
  have r3 := r2.mul rx (bx := 1) (bY := 1e26) (b := 1e26) (k := 8.08) (d := 1e-160) hq1 (by linarith) hqx (by norm_num) (by norm_num) (by norm_num)
    (by norm_num) (by norm_num) (by norm_num) (by norm_num) (by norm_num) (by norm_num)
  have a20 : 0 < a ^ 2 := by linarith
  have hg : (P.y ^ 2 + P.z ^ 2) / a ^ 2 + (1 - e2) / a ^ 2 * P.x ^ 2 = (len P ^ 2 - e2 * P.x ^ 2) / a ^ 2 := by rw [hLs]; ring
  have hex : e2 * P.x ^ 2 ≤ 0.02 * len P ^ 2 := mul_le_mul e1 (by linarith) x20 (by norm_num)
  have hLa : a ^ 2 / 4 ≤ len P ^ 2 := by
    have := pow_le_pow_left₀ (by linarith) L1 2
    linarith
  have hLb : len P ^ 2 ≤ 1e6 * a ^ 2 := by
    have := pow_le_pow_left₀ (len_nonneg' P) L2 2
    norm_num at this ⊢; linarith
  obtain ⟨h1, -, -, -, -, -, hr, -⟩ := rel_rs fa a1 a2 hE e0 e1 r3 rR rfl
    (by rw [hg, le_div_iff₀ a20]; norm_num at hex ⊢; linarith)
    (by rw [hg, div_le_iff₀ a20]
        have : 0 ≤ e2 * P.x ^ 2 := by positivity
        linarith) rfl rfl
  -- the computed quotient by 6 is finite and positive, so its numerator is not negative
  obtain ⟨y, hy, -, -, -, hr⟩ := hr
  have y0 : 0 < y := by
    have h3 := (abs_le.mp hr).1
    obtain ⟨r, hrd⟩ : ∃ r, r = ((P.y ^ 2 + P.z ^ 2) / a ^ 2 + (1 - e2) / a ^ 2 * P.x ^ 2 - e2 ^ 2) / 6 := ⟨_, rfl⟩
    rw [← hrd] at h3 h1
    have hu : 11.17 * uu ≤ 0.1 := by unfold uu; norm_num
    have h4 := mul_le_mul_of_nonneg_right hu (by linarith : 0 ≤ r)
    have h5 : (1e-157 : ℝ) ≤ 0.001 := by norm_num
    generalize (1e-157 : ℝ) = d at *
    norm_num at h1 h4 h5 h3 ⊢
    linarith
  have hnum := lt_zero_of_sixth hy y0
  have e : coreOf (fin a) (fin f) (P.flt : V3 (F64 B)) =
      (powNat (fin P.y) 2 + powNat (fin P.z) 2) / PyFloat.powi (fin a) 2 +
        (fin 1 - E) / PyFloat.powi (fin a) 2 * powNat (fin P.x) 2 - PyFloat.powi E 2 := by
    unfold coreOf coreTerm
    rw [hEd, lit_one]; rfl
  rw [e]
  exact hnum

/-- **C116** `p_EB_E2n_EB_E` in binary64 in the domain of C76, on axes `E_rotation` returns: the n-vector and the depth do not depend on the signs
of the zeros in the position, the ellipsoid or the matrix -/
theorem C116_position_binary64 (p : V3 (Sgn (F64 B))) (a f : Sgn (F64 B)) (R : M3 (Sgn (F64 B))) {p' : V3 ℝ} {a' f' : ℝ} {R' : M3 ℝ} (hp : p.val = p'.flt)
    (ha : a.val = fin a') (hf : f.val = fin f') (hR : R.val = R'.flt) (hR' : IsAxes R') (fa : IsF64 a') (a1 : 1 ≤ a') (a2 : a' ≤ 1e10) (ff : IsF64 f')
    (f0 : 0 ≤ f') (f1 : f' ≤ 0.01) (fp : IsF64V p') (L1 : a' / 2 ≤ len p') (L2 : len p' ≤ 1000 * a') :
    (p_EB_E2n_EB_E p a f R).1.val = (p_EB_E2n_EB_E p.val a.val f.val R.val).1 ∧
      (p_EB_E2n_EB_E p a f R).2.val = (p_EB_E2n_EB_E p.val a.val f.val R.val).2 := by
  have L0 : len p' ≤ 1e13 := by norm_num at a2 ⊢; linarith
  obtain ⟨hm1, hm2⟩ := mulVec_axes (B := B) hR' (fin64V_of_le fp (L0.trans (by norm_num)))
  refine p_EB_E2n_EB_E_val p R ?_ (.inl ?_)
  · rw [ha, F64.lit_zero_XR]
    change decide (a' < 0) = false
    simp; linarith
  · rw [hp, hR, ha, hf, hm1]
    exact coreOf_flt fa a1 a2 ff f0 f1 ⟨hm2.1.1, hm2.2.1.1, hm2.2.2.1⟩ (by rw [len_app hR'.rot]; exact L1) (by rw [len_app hR'.rot]; exact L2)

/-! The hypotheses are met: the point `(-0.0, 8, -0.0)` on a sphere of radius 8. -/
example : IsAxes Spec.one ∧ IsF64 8 ∧ (1 : ℝ) ≤ 8 ∧ (8 : ℝ) ≤ 1e10 ∧ IsF64 0 ∧ IsF64V ⟨0, 8, 0⟩ ∧ (8 : ℝ) / 2 ≤ len ⟨0, 8, 0⟩ ∧ len ⟨0, 8, 0⟩ ≤ 1000 * 8 ∧
    (⟨⟨fin 0, true⟩, ⟨fin 8, false⟩, ⟨fin 0, true⟩⟩ : V3 (Sgn (F64 B))).val = V3.flt ⟨0, 8, 0⟩ := by
  have h8 : IsF64 8 := ⟨1, 3, by norm_num, by norm_num, by norm_num⟩
  have hl : len ⟨0, 8, 0⟩ = 8 := by
    unfold len
    rw [show ((0 : ℝ) ^ 2 + 8 ^ 2 + 0 ^ 2) = 8 ^ 2 by norm_num, Real.sqrt_sq (by norm_num)]
  refine ⟨.inr rfl, h8, by norm_num, by norm_num, isF64_zero, ⟨isF64_zero, h8, isF64_zero⟩, ?_, ?_, rfl⟩
  · rw [hl]; norm_num
  · rw [hl]; norm_num

end

end Nv
