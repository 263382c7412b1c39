import Verif.Spec.Smoothing
import Mathlib.LinearAlgebra.Lagrange
import Mathlib.Analysis.InnerProductSpace.PiL2
import Mathlib.Analysis.InnerProductSpace.Projection.Minimal
import Mathlib.Analysis.Normed.Module.FiniteDimension
import Mathlib.Tactic.Linarith

/-! # Least squares fits: normal equations, uniqueness, existence -/

namespace Nv
open Spec Polynomial

theorem getD_lt (l : List ℝ) (d : ℝ) {i : ℕ} (h : i < l.length) : l.getD i d = l[i] := by
  rw [List.getD_eq_getElem?_getD, List.getElem?_eq_getElem h]; rfl

variable {p : ℕ} {q : ℝ[X]} {x : List ℝ} {s w : ℕ}

theorem sqDev_nonneg (q : ℝ[X]) (x : List ℝ) (s w : ℕ) : 0 ≤ sqDev q x s w := Finset.sum_nonneg fun _ _ => sq_nonneg _

theorem sqDev_add (q q' : ℝ[X]) (e : ℝ) : sqDev (q + C e * q') x s w = sqDev q x s w +
    2 * e * (∑ j ∈ Finset.range w, (q.eval ((s + j : ℕ) : ℝ) - x.getD (s + j) 0) * q'.eval ((s + j : ℕ) : ℝ)) +
    e ^ 2 * ∑ j ∈ Finset.range w, q'.eval ((s + j : ℕ) : ℝ) ^ 2 := by
  unfold sqDev
  rw [Finset.mul_sum, Finset.mul_sum, ← Finset.sum_add_distrib, ← Finset.sum_add_distrib]
  refine Finset.sum_congr rfl fun j _ => ?_
  simp only [eval_add, eval_mul, eval_C]
  ring

/-- the normal equations -/
theorem isFit_iff : IsFit p q x s w ↔ q.natDegree ≤ p ∧ ∀ q' : ℝ[X], q'.natDegree ≤ p →
    ∑ j ∈ Finset.range w, (q.eval ((s + j : ℕ) : ℝ) - x.getD (s + j) 0) * q'.eval ((s + j : ℕ) : ℝ) = 0 := by
  constructor
  · rintro ⟨hd, h⟩
    refine ⟨hd, fun q' hq' => ?_⟩
    have key : ∀ e : ℝ, 0 ≤ 2 * e * (∑ j ∈ Finset.range w, (q.eval ((s + j : ℕ) : ℝ) - x.getD (s + j) 0) * q'.eval ((s + j : ℕ) : ℝ)) +
        e ^ 2 * ∑ j ∈ Finset.range w, q'.eval ((s + j : ℕ) : ℝ) ^ 2 := by
      intro e
      have hdeg : (q + C e * q').natDegree ≤ p :=
        (natDegree_add_le _ _).trans (max_le hd ((natDegree_C_mul_le e q').trans hq'))
      have := h _ hdeg
      rw [sqDev_add] at this
      linarith
    generalize (∑ j ∈ Finset.range w, (q.eval ((s + j : ℕ) : ℝ) - x.getD (s + j) 0) * q'.eval ((s + j : ℕ) : ℝ)) = u at key
    have hv : 0 ≤ ∑ j ∈ Finset.range w, q'.eval ((s + j : ℕ) : ℝ) ^ 2 := Finset.sum_nonneg fun _ _ => sq_nonneg _
    generalize (∑ j ∈ Finset.range w, q'.eval ((s + j : ℕ) : ℝ) ^ 2) = v at key hv
    have := key (-u / (v + 1))
    have hv1 : 0 < v + 1 := by linarith
    have e1 : 2 * (-u / (v + 1)) * u + (-u / (v + 1)) ^ 2 * v = -(u ^ 2 * (v + 2)) / (v + 1) ^ 2 := by field_simp; ring
    rw [e1] at this
    have h2 : u ^ 2 * (v + 2) ≤ 0 := by
      by_contra hh
      push Not at hh
      have : -(u ^ 2 * (v + 2)) / (v + 1) ^ 2 < 0 := div_neg_of_neg_of_pos (by linarith) (by positivity)
      linarith
    have h3 : u ^ 2 ≤ 0 := by nlinarith [sq_nonneg u]
    exact pow_eq_zero_iff (two_ne_zero) |>.1 (le_antisymm h3 (sq_nonneg u))
  · rintro ⟨hd, h⟩
    refine ⟨hd, fun q' hq' => ?_⟩
    have e : q' = q + C 1 * (q' - q) := by simp
    rw [e, sqDev_add, h (q' - q) ((natDegree_sub_le _ _).trans (max_le hq' hd))]
    have hv : 0 ≤ ∑ j ∈ Finset.range w, (q' - q).eval ((s + j : ℕ) : ℝ) ^ 2 := Finset.sum_nonneg fun _ _ => sq_nonneg _
    linarith

/-- best fits have the same values on the window -/
theorem fit_unique {q' : ℝ[X]} (h : IsFit p q x s w) (h' : IsFit p q' x s w) {j : ℕ} (hj : j < w) :
    q.eval ((s + j : ℕ) : ℝ) = q'.eval ((s + j : ℕ) : ℝ) := by
  obtain ⟨d1, h1⟩ := isFit_iff.1 h
  obtain ⟨d2, h2⟩ := isFit_iff.1 h'
  have hd : (q - q').natDegree ≤ p := (natDegree_sub_le _ _).trans (max_le d1 d2)
  have e : ∑ j ∈ Finset.range w, ((q - q').eval ((s + j : ℕ) : ℝ)) ^ 2 = 0 := by
    rw [← sub_eq_zero.2 ((h1 _ hd).trans (h2 _ hd).symm), ← Finset.sum_sub_distrib]
    refine Finset.sum_congr rfl fun j _ => ?_
    simp only [eval_sub]; ring
  have := (Finset.sum_eq_zero_iff_of_nonneg fun _ _ => sq_nonneg _).1 e j (Finset.mem_range.2 hj)
  rw [pow_eq_zero_iff two_ne_zero, eval_sub] at this
  linarith

theorem windowStart_le (n w i : ℕ) : windowStart n w i ≤ i := by unfold windowStart; omega
theorem lt_windowStart {n w i : ℕ} (hw : 0 < w) (hn : w ≤ n) (hi : i < n) : i < windowStart n w i + w := by
  unfold windowStart; omega
theorem windowStart_add_le {n w i : ℕ} (hn : w ≤ n) : windowStart n w i + w ≤ n := by unfold windowStart; omega

/-- the value of a best fit at the sample is unique -/
theorem fit_value {n i : ℕ} {q' : ℝ[X]} (hw : 0 < w) (hn : w ≤ n) (hi : i < n) (h : IsFit p q x (windowStart n w i) w)
    (h' : IsFit p q' x (windowStart n w i) w) : q.eval (i : ℝ) = q'.eval (i : ℝ) := by
  have h1 := windowStart_le n w i
  have h2 := lt_windowStart hw hn hi
  have := fit_unique h h' (j := i - windowStart n w i) (by omega)
  rwa [show windowStart n w i + (i - windowStart n w i) = i by omega] at this

/-- smoothing is a function -/
theorem Spec.Smoothed.unique {y y' : List ℝ} (hw : 0 < w) (hn : w ≤ x.length) (h : Smoothed w p x y) (h' : Smoothed w p x y') : y = y' := by
  apply List.ext_getElem (h.length.trans h'.length.symm)
  intro i h1 h2
  obtain ⟨q, hq, e⟩ := h.value i h1
  obtain ⟨q', hq', e'⟩ := h'.value i h2
  rw [e, e']
  exact fit_value hw hn (h.length ▸ h1) hq hq'

/-- if in every window the samples lie on a polynomial of degree at most `p`, smoothing does nothing -/
theorem Spec.Smoothed.exact {y : List ℝ} (hw : 0 < w) (hn : w ≤ x.length) (h : Smoothed w p x y)
    (hr : ∀ s, s + w ≤ x.length → ∃ r : ℝ[X], r.natDegree ≤ p ∧ ∀ j < w, r.eval ((s + j : ℕ) : ℝ) = x.getD (s + j) 0) : y = x := by
  apply List.ext_getElem h.length
  intro i h1 h2
  obtain ⟨q, hq, e⟩ := h.value i h1
  obtain ⟨r, hd, hj⟩ := hr _ (windowStart_add_le (i := i) hn)
  have hfit : IsFit p r x (windowStart x.length w i) w := by
    refine ⟨hd, fun q' _ => ?_⟩
    have : sqDev r x (windowStart x.length w i) w = 0 :=
      Finset.sum_eq_zero fun j hj' => by rw [hj j (Finset.mem_range.1 hj')]; ring
    rw [this]; exact sqDev_nonneg _ _ _ _
  rw [e, fit_value hw hn h2 hq hfit]
  have h3 := windowStart_le x.length w i
  have h4 := lt_windowStart hw hn h2
  have := hj (i - windowStart x.length w i) (by omega)
  rw [show windowStart x.length w i + (i - windowStart x.length w i) = i by omega] at this
  rw [this, getD_lt _ _ h2]

theorem natDegree_le_of_lt {r : ℝ[X]} {w : ℕ} (h : r.degree < w) : r.natDegree ≤ w - 1 := by
  by_cases h0 : r = 0
  · simp [h0]
  · have := (natDegree_lt_iff_degree_lt h0).2 h
    omega

theorem lagrange_window (s w : ℕ) (y : ℕ → ℝ) : ∃ r : ℝ[X], r.degree < w ∧ ∀ j < w, r.eval ((s + j : ℕ) : ℝ) = y j := by
  obtain ⟨v, hv⟩ : ∃ v : ℕ → ℝ, ∀ j, v j = ((s + j : ℕ) : ℝ) := ⟨_, fun _ => rfl⟩
  simp only [← hv]
  have hinj : Set.InjOn v (Finset.range w) := by
    intro a _ b _ h
    have h' : ((s + a : ℕ) : ℝ) = ((s + b : ℕ) : ℝ) := by rw [← hv, ← hv, h]
    have := Nat.cast_injective h'
    omega
  refine ⟨Lagrange.interpolate (Finset.range w) v y, ?_, ?_⟩
  · have := Lagrange.degree_interpolate_lt y hinj
    rwa [Finset.card_range] at this
  · intro j hj
    have := Lagrange.eval_interpolate_at_node (v := v) y hinj (Finset.mem_range.2 hj)
    exact this

/-- through `w` samples there is a polynomial of degree less than `w` -/
theorem through_window (hp : w ≤ p + 1) (s : ℕ) : ∃ r : ℝ[X], r.natDegree ≤ p ∧ ∀ j < w, r.eval ((s + j : ℕ) : ℝ) = x.getD (s + j) 0 := by
  obtain ⟨r, hd, h⟩ := lagrange_window s w fun j => x.getD (s + j) 0
  exact ⟨r, (natDegree_le_of_lt hd).trans (by omega), h⟩

/-- smoothing is linear -/
theorem Spec.Smoothed.combine {n : ℕ} {k : ℕ} {c : Fin k → ℝ} {X Y : Fin k → List ℝ} {x' y' : List ℝ} (h : ∀ i, Smoothed w p (X i) (Y i))
    (hX : ∀ i, (X i).length = n) (hx : x'.length = n) (hy : y'.length = n)
    (ex : ∀ j, x'.getD j 0 = ∑ i, c i * (X i).getD j 0) (ey : ∀ j, y'.getD j 0 = ∑ i, c i * (Y i).getD j 0) : Smoothed w p x' y' := by
  refine ⟨hy.trans hx.symm, fun j hj => ?_⟩
  have hj' : ∀ i, j < (Y i).length := fun i => by rw [(h i).length, hX i, ← hy]; exact hj
  choose Q hQ eQ using fun i => (h i).value j (hj' i)
  refine ⟨∑ i, C (c i) * Q i, isFit_iff.2 ⟨?_, fun q' hq' => ?_⟩, ?_⟩
  · exact natDegree_sum_le_of_forall_le _ _ fun i _ => (natDegree_C_mul_le _ _).trans (hQ i).1
  · rw [hx]
    have : ∀ t ∈ Finset.range w, ((∑ i, C (c i) * Q i).eval ((windowStart n w j + t : ℕ) : ℝ) - x'.getD (windowStart n w j + t) 0) *
        q'.eval ((windowStart n w j + t : ℕ) : ℝ) = ∑ i, c i * (((Q i).eval ((windowStart n w j + t : ℕ) : ℝ) -
          (X i).getD (windowStart n w j + t) 0) * q'.eval ((windowStart n w j + t : ℕ) : ℝ)) := by
      intro t _
      rw [ex, eval_finsetSum, ← Finset.sum_sub_distrib, Finset.sum_mul]
      refine Finset.sum_congr rfl fun i _ => ?_
      simp only [eval_mul, eval_C]; ring
    rw [Finset.sum_congr rfl this, Finset.sum_comm]
    refine Finset.sum_eq_zero fun i _ => ?_
    rw [← Finset.mul_sum]
    have := (isFit_iff.1 (hQ i)).2 q' hq'
    rw [hX i] at this
    rw [this, mul_zero]
  · rw [← getD_lt _ 0 hj, ey, eval_finsetSum]
    refine Finset.sum_congr rfl fun i _ => ?_
    rw [getD_lt _ _ (hj' i), eQ i, eval_mul, eval_C]

/-- best fits exist -/
theorem exists_fit (p : ℕ) (x : List ℝ) (s w : ℕ) : ∃ q, IsFit p q x s w := by
  let ev : ℝ[X] →ₗ[ℝ] EuclideanSpace ℝ (Fin w) := {
    toFun := fun q => WithLp.toLp 2 fun j : Fin w => q.eval ((s + j : ℕ) : ℝ)
    map_add' := fun a b => by ext j; simp
    map_smul' := fun c a => by ext j; simp }
  let u : EuclideanSpace ℝ (Fin w) := WithLp.toLp 2 fun j : Fin w => x.getD (s + j) 0
  let K := (Polynomial.degreeLE ℝ p).map ev
  have hK : IsComplete (K : Set (EuclideanSpace ℝ (Fin w))) := Submodule.complete_of_finiteDimensional K
  obtain ⟨v, hv, hmin⟩ := Submodule.exists_norm_eq_iInf_of_complete_subspace K hK u
  obtain ⟨q, hq, rfl⟩ := hv
  have hnd : ∀ q : ℝ[X], q ∈ Polynomial.degreeLE ℝ p ↔ q.natDegree ≤ p := fun q => by
    rw [Polynomial.mem_degreeLE, natDegree_le_iff_degree_le]
  have hnorm : ∀ q : ℝ[X], ‖u - ev q‖ ^ 2 = sqDev q x s w := by
    intro q
    rw [EuclideanSpace.norm_sq_eq]
    unfold sqDev
    rw [Finset.sum_range]
    refine Finset.sum_congr rfl fun j _ => ?_
    simp only [u, ev, LinearMap.coe_mk, AddHom.coe_mk, PiLp.sub_apply, Real.norm_eq_abs, sq_abs]
    ring
  refine ⟨q, (hnd q).1 hq, fun q' hq' => ?_⟩
  rw [← hnorm, ← hnorm]
  refine pow_le_pow_left₀ (norm_nonneg _) ?_ 2
  rw [hmin]
  exact ciInf_le ⟨0, by rintro _ ⟨_, rfl⟩; exact norm_nonneg _⟩ (⟨ev q', ⟨q', (hnd q').2 hq', rfl⟩⟩ : K)

/-- smoothed samples exist -/
theorem exists_smoothed (w p : ℕ) (x : List ℝ) : ∃ y, Smoothed w p x y := by
  choose Q hQ using fun i => exists_fit p x (windowStart x.length w i) w
  refine ⟨(List.range x.length).map fun i => (Q i).eval (i : ℝ), by simp, fun i hi => ⟨Q i, hQ i, by simp⟩⟩

/-- fitting a constant is taking the mean -/
theorem fit_zero {q : ℝ[X]} (h : IsFit 0 q x s w) (hw : 0 < w) (t : ℝ) :
    q.eval t = (∑ j ∈ Finset.range w, x.getD (s + j) 0) / w := by
  obtain ⟨hd, h⟩ := isFit_iff.1 h
  have hq := eq_C_of_natDegree_le_zero hd
  have := h 1 (by simp)
  rw [hq] at this ⊢
  simp only [eval_C, eval_one, mul_one, Finset.sum_sub_distrib, Finset.sum_const, Finset.card_range, nsmul_eq_mul] at this ⊢
  have hw' : (w : ℝ) ≠ 0 := by positivity
  field_simp
  linarith

end Nv
