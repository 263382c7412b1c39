import Verif.Float.RelS
import Verif.Float.Exact
import Verif.Model.Objects

/-!
# `isclose` in binary64, with the tolerances of `==`
-/

namespace Nv
open Spec F64
variable {B : Binary64}

theorem fin_maximum (x y : ℝ) : (PyFloat.maximum (F64.fin x : F64 B) (F64.fin y)) = F64.fin (max x y) := by
  change XR.maximum (.fin x) (.fin y) = XR.fin _
  simp only [XR.maximum, XR.le, decide_eq_true_eq]
  split
  · rw [max_eq_right ‹_›]
  · rw [max_eq_left (by linarith)]

theorem fin_isfinite (x : ℝ) : (PyFloat.isfinite (F64.fin x : F64 B)) = true := rfl

/-- `isclose` compares the rounded difference with the rounded tolerance -/
theorem isclose_flt {a b : ℝ} (ha : |a| ≤ 10 ^ 50) (hb : |b| ≤ 10 ^ 50) (fa : IsF64 a) (fb : IsF64 b) :
    eqClose [((F64.fin a : F64 B), F64.fin b)] = decide (|B.fl (a - b)| ≤ max (B.fl ((1e-14 : ℚ) : ℝ)) (B.fl (B.fl ((1e-12 : ℚ) : ℝ) * max |a| |b|))) := by
  have hm : max |a| |b| ≤ 10 ^ 50 := max_le ha hb
  have hm0 : 0 ≤ max |a| |b| := (abs_nonneg a).trans (le_max_left _ _)
  have h12 : |B.fl ((1e-12 : ℚ) : ℝ) - ((1e-12 : ℚ) : ℝ)| ≤ 1 := by
    refine (B.rounds.err_add _).trans ?_
    have := eta_small
    norm_num at this ⊢
    unfold uu
    norm_num
    linarith only [this]
  have h12' := abs_le.mp h12
  have h12n : 0 ≤ B.fl ((1e-12 : ℚ) : ℝ) := B.rounds.nonneg (by norm_num)
  have h12u : B.fl ((1e-12 : ℚ) : ℝ) ≤ 2 := by have := h12'.2; norm_num at this ⊢; linarith only [this]
  have hp0 : 0 ≤ B.fl ((1e-12 : ℚ) : ℝ) * max |a| |b| := mul_nonneg h12n hm0
  have hp : |B.fl ((1e-12 : ℚ) : ℝ) * (max |a| |b|)| ≤ 10 ^ 51 := by
    rw [abs_of_nonneg hp0]
    calc _ ≤ 2 * 10 ^ 50 := mul_le_mul h12u hm hm0 (by norm_num)
      _ ≤ 10 ^ 51 := by norm_num
  obtain ⟨T, hT⟩ : ∃ T, T = max (B.fl ((1e-14 : ℚ) : ℝ)) (B.fl (B.fl ((1e-12 : ℚ) : ℝ) * max |a| |b|)) := ⟨_, rfl⟩
  have fT : IsF64 T := by
    rw [hT]
    rcases max_choice (B.fl ((1e-14 : ℚ) : ℝ)) (B.fl (B.fl ((1e-12 : ℚ) : ℝ) * max |a| |b|)) with h | h <;> rw [h] <;> exact B.rounds.val _
  have T0 : 0 ≤ T := by rw [hT]; exact (B.rounds.nonneg (by norm_num)).trans (le_max_left _ _)
  have Tb : T ≤ 10 ^ 60 := by
    rw [hT]
    refine max_le ?_ ?_
    · have := abs_le.mp (B.rounds.err_add ((1e-14 : ℚ) : ℝ))
      have e := eta_small
      have h2 := this.2
      rw [abs_of_pos (by norm_num)] at h2
      unfold uu at h2
      norm_num at h2 e ⊢
      linarith only [h2, e]
    · have := abs_le.mp (B.rounds.err_add (B.fl ((1e-12 : ℚ) : ℝ) * max |a| |b|))
      have e := eta_small
      have h2 := this.2
      have h3 : uu * |B.fl ((1e-12 : ℚ) : ℝ) * (max |a| |b|)| ≤ 1 * 10 ^ 51 := mul_le_mul (by unfold uu; norm_num) hp (abs_nonneg _) (by norm_num)
      have h4 := (le_abs_self _).trans hp
      norm_num at h2 h3 h4 e ⊢
      linarith only [h2, h3, h4, e]
  have k1 : (lit 1e-12 : F64 B) = F64.fin (B.fl ((1e-12 : ℚ) : ℝ)) := fin_lit (by norm_num [abs_of_pos])
  have k2 : (lit 1e-14 : F64 B) = F64.fin (B.fl ((1e-14 : ℚ) : ℝ)) := fin_lit (by norm_num [abs_of_pos])
  have k3 : (F64.fin (B.fl ((1e-12 : ℚ) : ℝ)) * F64.fin (max |a| |b|) : F64 B) = F64.fin (B.fl (B.fl ((1e-12 : ℚ) : ℝ) * max |a| |b|)) :=
    fin_mul (hp.trans (by norm_num))
  have k0 : (lit 0 : F64 B) = F64.fin 0 := by
    have := lit_int (B := B) (n := 0) (by norm_num)
    simpa using this
  have kd : (F64.fin a - F64.fin b : F64 B) = F64.fin (B.fl (a - b)) := by
    refine fin_sub ((abs_sub a b).trans ?_)
    refine (add_le_add ha hb).trans (by norm_num)
  unfold eqClose allclose
  simp only [List.all_cons, List.all_nil, Bool.and_true]
  unfold isclose npIsclose
  simp only [fin_isfinite, Bool.and_true, if_true, k0, k1, k2, fin_abs, fin_maximum, k3, ← hT, zero_mul', kd]
  rw [add_zero' (fin64_of_le fT (by rw [abs_of_nonneg T0]; exact Tb)), fin_le]

/-- close numbers compare equal … -/
theorem isclose_true {a b : ℝ} (ha : |a| ≤ 10 ^ 50) (hb : |b| ≤ 10 ^ 50) (fa : IsF64 a) (fb : IsF64 b)
    (h : |a - b| ≤ 9.9e-15 ∨ |a - b| ≤ 9.9e-13 * max |a| |b|) : eqClose [((F64.fin a : F64 B), F64.fin b)] = true := by
  rw [isclose_flt ha hb fa fb, decide_eq_true_eq]
  have hη := eta_tiny
  have hu : uu ≤ 1.2e-16 := by unfold uu; norm_num
  have hu0 := uu_pos
  have hm0 : 0 ≤ max |a| |b| := (abs_nonneg a).trans (le_max_left _ _)
  have e1 := B.rounds.err_add (a - b)
  have e2 : |B.fl (a - b)| ≤ |a - b| + |B.fl (a - b) - (a - b)| := by
    have := abs_add_le (a - b) (B.fl (a - b) - (a - b)); rwa [add_sub_cancel] at this
  have e3 : uu * |a - b| ≤ 1.2e-16 * |a - b| := mul_le_mul_of_nonneg_right hu (abs_nonneg _)
  have d0 := abs_nonneg (a - b)
  have ηs : (1 / 10 ^ 200 : ℝ) ≤ 1 / 10 ^ 40 := by norm_num
  have hη' : eta ≤ 1e-40 := by norm_num at hη ηs ⊢; linarith only [hη, ηs]
  have l14 := (abs_le.mp (B.rounds.err_add ((1e-14 : ℚ) : ℝ))).1
  have l12 := (abs_le.mp (B.rounds.err_add ((1e-12 : ℚ) : ℝ))).1
  rw [abs_of_pos (by norm_num)] at l14 l12
  have m14 : uu * ((1e-14 : ℚ) : ℝ) ≤ 1.2e-16 * ((1e-14 : ℚ) : ℝ) := mul_le_mul_of_nonneg_right hu (by norm_num)
  have m12 : uu * ((1e-12 : ℚ) : ℝ) ≤ 1.2e-16 * ((1e-12 : ℚ) : ℝ) := mul_le_mul_of_nonneg_right hu (by norm_num)
  rcases le_or_gt |a - b| 9.9e-15 with h1 | h1
  · refine le_trans ?_ (le_max_left _ _)
    norm_num at l14 m14 e1 e2 e3 h1 hη' ⊢
    linarith only [l14, m14, e1, e2, e3, h1, hη']
  · have h2 := h.resolve_left (not_le.mpr h1)
    refine le_trans ?_ (le_max_right _ _)
    obtain ⟨M, hM⟩ : ∃ M, M = max |a| |b| := ⟨_, rfl⟩
    rw [← hM] at h2 hm0 ⊢
    obtain ⟨c, hc⟩ : ∃ c, c = B.fl ((1e-12 : ℚ) : ℝ) := ⟨_, rfl⟩
    rw [← hc] at l12 ⊢
    have hc1 : 9.999e-13 ≤ c := by norm_num at l12 m12 hη' ⊢; linarith only [l12, m12, hη']
    have hcM : 9.999e-13 * M ≤ c * M := mul_le_mul_of_nonneg_right hc1 hm0
    have l1 := (abs_le.mp (B.rounds.err_add (c * M))).1
    have hcM0 : 0 ≤ c * M := le_trans (by positivity) hcM
    rw [abs_of_nonneg hcM0] at l1
    have l2 : uu * (c * M) ≤ 1.2e-16 * (c * M) := mul_le_mul_of_nonneg_right hu hcM0
    norm_num at *
    linarith only [e1, e2, e3, h1, h2, hη', l1, l2, hcM]

/-- … and different numbers do not -/
theorem isclose_false {a b : ℝ} (ha : |a| ≤ 10 ^ 50) (hb : |b| ≤ 10 ^ 50) (fa : IsF64 a) (fb : IsF64 b)
    (h1 : 1.01e-14 ≤ |a - b|) (h2 : 1.01e-12 * max |a| |b| ≤ |a - b|) : eqClose [((F64.fin a : F64 B), F64.fin b)] = false := by
  rw [isclose_flt ha hb fa fb, decide_eq_false_iff_not, not_le]
  have hη := eta_tiny
  have hu : uu ≤ 1.2e-16 := by unfold uu; norm_num
  have hu0 := uu_pos
  have hm0 : 0 ≤ max |a| |b| := (abs_nonneg a).trans (le_max_left _ _)
  have e1 := B.rounds.err_add (a - b)
  have e2 : |a - b| ≤ |B.fl (a - b)| + |B.fl (a - b) - (a - b)| := by
    have := abs_sub (B.fl (a - b)) (B.fl (a - b) - (a - b)); rwa [sub_sub_cancel] at this
  have e3 : uu * |a - b| ≤ 1.2e-16 * |a - b| := mul_le_mul_of_nonneg_right hu (abs_nonneg _)
  have d0 := abs_nonneg (a - b)
  have ηs : (1 / 10 ^ 200 : ℝ) ≤ 1 / 10 ^ 40 := by norm_num
  have hη' : eta ≤ 1e-40 := by norm_num at hη ηs ⊢; linarith only [hη, ηs]
  have l14 := (abs_le.mp (B.rounds.err_add ((1e-14 : ℚ) : ℝ))).2
  have l12 := (abs_le.mp (B.rounds.err_add ((1e-12 : ℚ) : ℝ))).2
  rw [abs_of_pos (by norm_num)] at l14 l12
  have m14 : uu * ((1e-14 : ℚ) : ℝ) ≤ 1.2e-16 * ((1e-14 : ℚ) : ℝ) := mul_le_mul_of_nonneg_right hu (by norm_num)
  have m12 : uu * ((1e-12 : ℚ) : ℝ) ≤ 1.2e-16 * ((1e-12 : ℚ) : ℝ) := mul_le_mul_of_nonneg_right hu (by norm_num)
  have h12n : 0 ≤ B.fl ((1e-12 : ℚ) : ℝ) := B.rounds.nonneg (by norm_num)
  refine max_lt ?_ ?_
  · norm_num at l14 m14 e1 e2 e3 h1 hη' ⊢
    linarith only [l14, m14, e1, e2, e3, h1, hη']
  · obtain ⟨M, hM⟩ : ∃ M, M = max |a| |b| := ⟨_, rfl⟩
    rw [← hM] at h2 hm0 ⊢
    obtain ⟨c, hc⟩ : ∃ c, c = B.fl ((1e-12 : ℚ) : ℝ) := ⟨_, rfl⟩
    rw [← hc] at l12 h12n ⊢
    have hc1 : c ≤ 1.0001e-12 := by norm_num at l12 m12 hη' ⊢; linarith only [l12, m12, hη']
    have hcM : c * M ≤ 1.0001e-12 * M := mul_le_mul_of_nonneg_right hc1 hm0
    have l1 := (abs_le.mp (B.rounds.err_add (c * M))).2
    have hcM0 : 0 ≤ c * M := mul_nonneg h12n hm0
    rw [abs_of_nonneg hcM0] at l1
    have l2 : uu * (c * M) ≤ 1.2e-16 * (c * M) := mul_le_mul_of_nonneg_right hu hcM0
    norm_num at *
    linarith only [e1, e2, e3, h1, h2, hη', l1, l2, hcM, d0]

theorem eqClose_cons64 (p : F64 B × F64 B) (l : List (F64 B × F64 B)) : eqClose (p :: l) = (eqClose [p] && eqClose l) := by
  simp [eqClose, allclose]

theorem isclose_self {a : ℝ} (ha : |a| ≤ 10 ^ 50) (fa : IsF64 a) : eqClose [((F64.fin a : F64 B), F64.fin a)] = true :=
  isclose_true ha ha fa fa (.inl (by simp; norm_num))

theorem eqClose3_self {v : V3 ℝ} (hv : IsF64V v) (hb : len v ≤ 10 ^ 50) : eqClose (pairs3 (v.flt : V3 (F64 B)) v.flt) = true := by
  unfold pairs3
  rw [eqClose_cons64, eqClose_cons64 (_, _) [_]]
  simp only [Bool.and_eq_true]
  exact ⟨isclose_self ((abs_x_le_len v).trans hb) hv.1, isclose_self ((abs_y_le_len v).trans hb) hv.2.1, isclose_self ((abs_z_le_len v).trans hb) hv.2.2⟩

/-- a frame of one of the two choices of axes equals itself, also when `is` does not decide -/
theorem frame_self {a f : ℝ} {R : M3 ℝ} {nm nm' : EllKey} (hR : IsAxes R) (fa : IsF64 a) (a2 : |a| ≤ 10 ^ 50) (ff : IsF64 f) (f1 : |f| ≤ 10 ^ 50) :
    FrameE.isEqualTo (⟨F64.fin a, F64.fin f, nm, R.flt⟩ : FrameE (F64 B)) ⟨F64.fin a, F64.fin f, nm', R.flt⟩ = true := by
  unfold FrameE.isEqualTo
  simp only [Bool.and_eq_true]
  refine ⟨⟨isclose_self a2 fa, isclose_self f1 ff⟩, ?_⟩
  have h0 : eqClose [((F64.fin 0 : F64 B), F64.fin 0)] = true := isclose_self (by simp) isF64_zero
  have h1 : eqClose [((F64.fin 1 : F64 B), F64.fin 1)] = true := isclose_self (by norm_num) isF64_one
  have h2 : eqClose [((F64.fin (-1) : F64 B), F64.fin (-1))] = true := isclose_self (by norm_num) isF64_one.neg
  rcases hR with rfl | rfl
  · simp only [pairs9, pairs3, M3.flt, V3.flt, Re, List.cons_append, List.nil_append]
    simp only [eqClose_cons64 _ (_ :: _), h0, h1, h2, Bool.and_self]
  · simp only [pairs9, pairs3, M3.flt, V3.flt, one, List.cons_append, List.nil_append]
    simp only [eqClose_cons64 _ (_ :: _), h0, h1, Bool.and_self]

end Nv
