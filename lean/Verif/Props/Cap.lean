import Verif.Props.Track
import Verif.Props.GeoPath
import Verif.Props.Direct

/-!
# C132: means, interpolated positions and tracks stay among the positions they are made from

Every cap smaller than a hemisphere that contains the given positions contains the result, which then always exists.
-/

namespace Nv
open Spec Real
open XR (fin)

namespace Spec

/-- the position `P` is at most `x` metres from `u`, as measured by `great_circle_distance` on a sphere of radius `r` -/
def Within (u : V3 ℝ) (r x : ℝ) (P : V3 ℝ) : Prop :=
  UnitVec P ∧ ∃ d, great_circle_distance u.fin P.fin (fin r) = fin d ∧ d ≤ x

end Spec

/-- a cap is a half space -/
theorem within_iff {u P : V3 ℝ} (hu : UnitVec u) (hP : UnitVec P) {r x : ℝ} (hr : 0 < r) (hx0 : 0 ≤ x) (hx : x ≤ π * r) :
    Within u r x P ↔ cos (x / r) ≤ dot u P := by
  have h0 : 0 ≤ x / r := by positivity
  have h1 : x / r ≤ π := by rw [div_le_iff₀ hr]; exact hx
  rw [← cos_angle_unit hu hP]
  constructor
  · rintro ⟨-, d, hd, hle⟩
    rw [C18_eq_angle _ _ hu.ne hP.ne, XR.fin_inj] at hd
    apply Real.cos_le_cos_of_nonneg_of_le_pi (angle_nonneg u P) h1
    rw [le_div_iff₀ hr, hd]; exact hle
  · intro h
    refine ⟨hP, _, C18_eq_angle _ _ hu.ne hP.ne r, ?_⟩
    have : angle u P ≤ x / r := (Real.strictAntiOn_cos.le_iff_ge ⟨h0, h1⟩ ⟨angle_nonneg u P, angle_le_pi u P⟩).mp h
    rwa [le_div_iff₀ hr] at this

theorem Spec.Within.nonneg {u P : V3 ℝ} {r x : ℝ} (hu : UnitVec u) (hr : 0 < r) (h : Within u r x P) : 0 ≤ x := by
  obtain ⟨hP, d, hd, hle⟩ := h
  rw [C18_eq_angle _ _ hu.ne hP.ne, XR.fin_inj] at hd
  have := mul_nonneg (angle_nonneg u P) hr.le
  linarith

/-- the direction of a vector of length at most `k` whose component along `u` is at least `k c` -/
theorem dirOf_dot_ge {u v : V3 ℝ} {k c : ℝ} (hv : v ≠ 0) (hc : 0 ≤ c) (hk : len v ≤ k) (h : k * c ≤ dot u v) : c ≤ dot u (dirOf v) := by
  have hl := len_pos hv
  rw [dot_dirOf_right, inv_mul_eq_div, le_div_iff₀ hl]
  nlinarith

theorem vsum_cons (b : V3 ℝ) (l : List (V3 ℝ)) : vsum (b :: l) = b + vsum l := by ext <;> simp [vsum]

theorem vsum_bounds {u : V3 ℝ} {c : ℝ} (l : List (V3 ℝ)) (hl : ∀ b ∈ l, UnitVec b ∧ c ≤ dot u b) :
    len (vsum l) ≤ l.length ∧ l.length * c ≤ dot u (vsum l) := by
  induction l with
  | nil => simp [vsum, dot, len]
  | cons b l ih =>
    obtain ⟨h1, h2⟩ := ih fun x hx => hl x (List.mem_cons_of_mem _ hx)
    obtain ⟨hb, hc⟩ := hl b List.mem_cons_self
    rw [vsum_cons, dot_add_right, List.length_cons]
    have := len_add_le b (vsum l)
    rw [hb.len] at this
    push_cast
    constructor <;> linarith

section
variable {u : V3 ℝ} (hu : UnitVec u) {r x : ℝ} (hr : 0 < r)
include hu hr

/-- **C132** the mean of positions that all lie in a cap smaller than a hemisphere exists and lies in the cap -/
theorem C132_mean (hx : x < π / 2 * r) (l : List (V3 ℝ)) (hne : l ≠ []) (hl : ∀ b ∈ l, Within u r x b) :
    ∃ M : V3 ℝ, mean_horizontal_position (l.map V3.fin) = M.fin ∧ Within u r x M := by
  obtain ⟨b0, hb0⟩ := List.exists_mem_of_ne_nil l hne
  have hx0 := (hl b0 hb0).nonneg hu hr
  have hxp : x ≤ π * r := by have := mul_pos Real.pi_pos hr; linarith
  have hc : 0 < cos (x / r) := by
    apply Real.cos_pos_of_mem_Ioo
    have h0 : 0 ≤ x / r := by positivity
    exact ⟨by linarith [Real.pi_pos], by rw [div_lt_iff₀ hr]; exact hx⟩
  obtain ⟨h1, h2⟩ := vsum_bounds (u := u) (c := cos (x / r)) l fun b hb =>
    ⟨(hl b hb).1, (within_iff hu (hl b hb).1 hr hx0 hxp).mp (hl b hb)⟩
  have hn : 0 < (l.length : ℝ) := by exact_mod_cast List.length_pos_of_ne_nil hne
  have hv : vsum l ≠ 0 := by
    intro h
    rw [h, show dot u 0 = 0 by simp [dot]] at h2
    have := mul_pos hn hc
    linarith
  refine ⟨_, mean_fin l hv, (within_iff hu (dirOf_unit hv) hr hx0 hxp).mpr ?_⟩
  exact dirOf_dot_ge hv hc.le h1 h2

/-- **C132** in a closed hemisphere the mean may not exist (antipodes), but if it does it lies in the hemisphere -/
theorem C132_mean_hemisphere (l : List (V3 ℝ)) (hl : ∀ b ∈ l, Within u r (π / 2 * r) b) (hv : vsum l ≠ 0) :
    ∃ M : V3 ℝ, mean_horizontal_position (l.map V3.fin) = M.fin ∧ Within u r (π / 2 * r) M := by
  have hx0 : 0 ≤ π / 2 * r := by have := Real.pi_pos; positivity
  have hxp : π / 2 * r ≤ π * r := by have := mul_pos Real.pi_pos hr; linarith
  have e : cos (π / 2 * r / r) = 0 := by rw [mul_div_assoc, div_self hr.ne', mul_one, Real.cos_pi_div_two]
  obtain ⟨h1, h2⟩ := vsum_bounds (u := u) (c := cos (π / 2 * r / r)) l fun b hb =>
    ⟨(hl b hb).1, (within_iff hu (hl b hb).1 hr hx0 hxp).mp (hl b hb)⟩
  refine ⟨_, mean_fin l hv, (within_iff hu (dirOf_unit hv) hr hx0 hxp).mpr ?_⟩
  exact dirOf_dot_ge hv e.ge h1 h2

theorem mix_within (hx : x < π / 2 * r) {A B : V3 ℝ} (hA : Within u r x A) (hB : Within u r x B) {t : ℝ} (h0 : 0 ≤ t) (h1 : t ≤ 1) :
    mix A B t ≠ 0 ∧ Within u r x (dirOf (mix A B t)) := by
  have hx0 := hA.nonneg hu hr
  have hxp : x ≤ π * r := by have := mul_pos Real.pi_pos hr; linarith
  have hc : 0 < cos (x / r) := by
    apply Real.cos_pos_of_mem_Ioo
    have h0 : 0 ≤ x / r := by positivity
    exact ⟨by linarith [Real.pi_pos], by rw [div_lt_iff₀ hr]; exact hx⟩
  have hA' := (within_iff hu hA.1 hr hx0 hxp).mp hA
  have hB' := (within_iff hu hB.1 hr hx0 hxp).mp hB
  have hd : 1 * cos (x / r) ≤ dot u (mix A B t) := by
    rw [mix_eq, dot_add_right, dot_smul_right, dot_smul_right]
    nlinarith
  have hl : len (mix A B t) ≤ 1 := by
    have h := len_add_le ((1 - t) • A) (t • B)
    rw [len_smul, len_smul, hA.1.len, hB.1.len, abs_of_nonneg h0, abs_of_nonneg (by linarith)] at h
    rw [mix_eq]; linarith
  have hv : mix A B t ≠ 0 := by
    intro h
    rw [h, show dot u 0 = 0 by simp [dot]] at hd
    linarith
  exact ⟨hv, (within_iff hu (dirOf_unit hv) hr hx0 hxp).mpr (dirOf_dot_ge hv hc.le hl hd)⟩

/-- **C132** a path whose ends lie in a cap smaller than a hemisphere stays in the cap -/
theorem C132_path (hx : x < π / 2 * r) (A B : V3 ℝ) (hA : Within u r x A) (hB : Within u r x B) (t : ℝ) (h0 : 0 ≤ t) (h1 : t ≤ 1) :
    ∃ P : V3 ℝ, interpolate (A.fin, B.fin) (fin t) = P.fin ∧ Within u r x P := by
  obtain ⟨hv, hw⟩ := mix_within hu hr hx hA hB h0 h1
  exact ⟨_, interpolate_fin hv, hw⟩

/-- **C132** the same for `GeoPath.interpolate`; the depth stays between those of the ends -/
theorem C132_geo_path (hx : x < π / 2 * r) (P : GeoPath XR) (A B pA pB : V3 ℝ) (zA zB a f : ℝ) (name : EllKey) (R : M3 ℝ)
    (hA : At P.point_a A zA pA (.real a f name R)) (hB : At P.point_b B zB pB (.real a f name R))
    (wA : Within u r x A) (wB : Within u r x B) (t : ℝ) (h0 : 0 ≤ t) (h1 : t ≤ 1) :
    ∃ (N : V3 ℝ) (z : ℝ), P.interpolate (fin t) = .ok (.real N z (.real a f name R)) ∧ Within u r x N ∧
      min zA zB ≤ z ∧ z ≤ max zA zB := by
  obtain ⟨hv, hw⟩ := mix_within hu hr hx wA wB h0 h1
  refine ⟨_, _, geoPath_interpolate_fin hA hB t hv, hw, ?_, ?_⟩
  · rcases le_total zA zB with h | h
    · rw [min_eq_left h]; nlinarith
    · rw [min_eq_right h]; nlinarith
  · rcases le_total zA zB with h | h
    · rw [max_eq_right h]; nlinarith
    · rw [max_eq_left h]; nlinarith

/-- **C132** a track all of whose samples lie in a cap smaller than a hemisphere stays in the cap: every result between the first
and the last sample is a position in the cap -/
theorem C132_track (hx : x < π / 2 * r) (S : Scipy XR (V3 XR)) (s : List (ℝ × V3 ℝ)) (hd : DistinctTimes s) (hn : 2 ≤ s.length)
    (hs : ∀ p ∈ s, Within u r x p.2) (ts : List ℝ) (i : ℕ) (t : ℝ) (hi : ts[i]? = some t)
    (hlo : ∃ p ∈ s, p.1 ≤ t) (hhi : ∃ p ∈ s, t ≤ p.1) :
    ∃ (L : List (V3 XR)) (P : V3 ℝ), interp_nvectors S (ts.map fin) (times s) (columns s) = .ok L ∧ L[i]? = some P.fin ∧ Within u r x P := by
  rcases C55_cases s hd hn t with h | ⟨p, q, hpq, h0, h1⟩
  · rcases h with h | h
    · obtain ⟨p, hp, hpt⟩ := hlo
      exact absurd (h p hp) (by linarith)
    · obtain ⟨p, hp, hpt⟩ := hhi
      exact absurd (h p hp) (by linarith)
  · obtain ⟨t0, A⟩ := p
    obtain ⟨t1, B⟩ := q
    obtain ⟨L, e, v⟩ := C55_between S s hd ts i t hi t0 t1 A B hpq h0 h1
    have hlt : t0 < t1 := hpq.lt
    simp only at h0 h1
    obtain ⟨P, hP, hw⟩ := C132_path hu hr hx A B (hs _ hpq.left) (hs _ hpq.right) (fraction t0 t1 t)
      (div_nonneg (by linarith) (by linarith)) ((div_le_one (by linarith)).mpr (by linarith))
    exact ⟨L, P, e, by rw [v, hP], hw⟩

end

/-- beyond a hemisphere the claim is false: two positions 120 degrees from `u`, on opposite sides, whose mean is the antipode of `u` -/
theorem C132_beyond_hemisphere :
    ∃ u A B : V3 ℝ, UnitVec u ∧ Within u 1 (2 * π / 3) A ∧ Within u 1 (2 * π / 3) B ∧
      mean_horizontal_position [A.fin, B.fin] = (-u).fin ∧ great_circle_distance u.fin (-u).fin (fin 1) = fin π := by
  have hu : UnitVec (⟨1, 0, 0⟩ : V3 ℝ) := by norm_num [UnitVec]
  have h3 : √3 ^ 2 = (3 : ℝ) := Real.sq_sqrt (by norm_num)
  have hA : UnitVec (⟨-(1 / 2), √3 / 2, 0⟩ : V3 ℝ) := by unfold UnitVec; simp only; rw [div_pow, h3]; norm_num
  have hB : UnitVec (⟨-(1 / 2), -(√3 / 2), 0⟩ : V3 ℝ) := by unfold UnitVec; simp only; rw [neg_sq (√3 / 2), div_pow, h3]; norm_num
  have hp := Real.pi_pos
  have hc : cos (2 * π / 3) = -(1 / 2) := by
    rw [show 2 * π / 3 = π - π / 3 by ring, Real.cos_pi_sub, Real.cos_pi_div_three]
  have hw : ∀ P : V3 ℝ, UnitVec P → P.x = -(1 / 2) → Within ⟨1, 0, 0⟩ 1 (2 * π / 3) P := by
    intro P hP h
    apply (within_iff hu hP one_pos (by positivity) (by linarith)).mpr
    rw [div_one, hc]; simp [dot, h]
  refine ⟨_, _, _, hu, hw _ hA rfl, hw _ hB rfl, ?_, ?_⟩
  · have hv : vsum [(⟨-(1 / 2), √3 / 2, 0⟩ : V3 ℝ), ⟨-(1 / 2), -(√3 / 2), 0⟩] = -⟨1, 0, 0⟩ := by
      ext <;> simp [vsum] <;> norm_num
    have := mean_fin [(⟨-(1 / 2), √3 / 2, 0⟩ : V3 ℝ), ⟨-(1 / 2), -(√3 / 2), 0⟩] (by rw [hv]; exact hu.neg.ne)
    rw [hv, dirOf_of_unit hu.neg] at this
    exact this
  · rw [C18_eq_angle _ _ hu.ne hu.neg.ne, angle_unit hu hu.neg]
    simp [dot]

/-- the hypotheses are met: two positions 30 degrees from `u`, cap of 45 degrees -/
example : Within ⟨1, 0, 0⟩ 1 (π / 4) ⟨√3 / 2, 1 / 2, 0⟩ ∧ Within ⟨1, 0, 0⟩ 1 (π / 4) ⟨√3 / 2, 0, 1 / 2⟩ ∧ π / 4 < π / 2 * 1 := by
  have hu : UnitVec (⟨1, 0, 0⟩ : V3 ℝ) := by norm_num [UnitVec]
  have h3 : √3 ^ 2 = (3 : ℝ) := Real.sq_sqrt (by norm_num)
  have hp := Real.pi_pos
  have hw : ∀ P : V3 ℝ, UnitVec P → P.x = √3 / 2 → Within ⟨1, 0, 0⟩ 1 (π / 4) P := by
    intro P hP h
    apply (within_iff hu hP one_pos (by positivity) (by linarith)).mpr
    rw [div_one, Real.cos_pi_div_four]
    simp only [dot, h, one_mul, zero_mul, add_zero]
    have : √2 ≤ √3 := Real.sqrt_le_sqrt (by norm_num)
    linarith
  refine ⟨hw _ ?_ rfl, hw _ ?_ rfl, by linarith⟩
  · unfold UnitVec; simp only; rw [div_pow, h3]; norm_num
  · unfold UnitVec; simp only; rw [div_pow, h3]; norm_num

end Nv
