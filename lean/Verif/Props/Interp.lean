import Verif.Props.Paths

/-!
# C25, C26: interpolation along a path
-/

namespace Nv
open Spec Real
open XR (fin)

/-- the unnormalised interpolated vector -/
def mix (A B : V3 ℝ) (t : ℝ) : V3 ℝ := A + t • (B - A)

theorem mix_eq (A B : V3 ℝ) (t : ℝ) : mix A B t = (1 - t) • A + t • B := by
  unfold mix; ext <;> simp <;> ring

theorem mix_swap (A B : V3 ℝ) (t : ℝ) : mix B A (1 - t) = mix A B t := by
  unfold mix; ext <;> simp <;> ring

theorem interpolate_fin {A B : V3 ℝ} {t : ℝ} (h : mix A B t ≠ 0) :
    interpolate (A.fin, B.fin) (fin t) = (dirOf (mix A B t)).fin := by
  unfold interpolate
  simp only [xr]
  exact unit_fin h _

theorem interpolate_zero {A B : V3 ℝ} {t : ℝ} (h : mix A B t = 0) :
    interpolate (A.fin, B.fin) (fin t) = ⟨XR.nan, XR.nan, XR.nan⟩ := by
  unfold interpolate
  simp only [sub3_fin, scale3_fin, add3_fin]
  rw [show A + t • (B - A) = mix A B t from rfl, h]
  exact unit_zero_nan

theorem mix_zero_iff {A B : V3 ℝ} (hA : UnitVec A) (hB : UnitVec B) (t : ℝ) :
    mix A B t = 0 ↔ B = -A ∧ t = 1 / 2 := by
  constructor
  · intro h
    rw [mix_eq] at h
    have e1 : dot A ((1 - t) • A + t • B) = 0 := by rw [h]; simp [dot]
    have e2 : dot B ((1 - t) • A + t • B) = 0 := by rw [h]; simp [dot]
    rw [dot_add_right, dot_smul_right, dot_smul_right, hA.dot] at e1
    rw [dot_add_right, dot_smul_right, dot_smul_right, hB.dot, dot_comm B A] at e2
    -- (1-t) + t c = 0, (1-t) c + t = 0  =>  1 + c = 0, then (1 - t) = t
    have hc : dot A B = -1 := by linarith
    rw [hc] at e1
    have ht : t = 1 / 2 := by linarith
    refine ⟨?_, ht⟩
    have := eq_of_dot_eq_one hB hA.neg (by rw [dot_neg_right, dot_comm, hc]; norm_num)
    exact this
  · rintro ⟨rfl, rfl⟩
    unfold mix; ext <;> simp <;> ring

/-- **C25** NaN exactly for the midpoint of antipodal end points, otherwise a unit vector on the great circle -/
theorem C25_nan_iff (A B : V3 ℝ) (hA : UnitVec A) (hB : UnitVec B) (t : ℝ) :
    (interpolate (A.fin, B.fin) (fin t) = ⟨XR.nan, XR.nan, XR.nan⟩ ↔ B = -A ∧ t = 1 / 2) ∧
    (¬ (B = -A ∧ t = 1 / 2) → ∃ P : V3 ℝ, interpolate (A.fin, B.fin) (fin t) = P.fin ∧ OnCircle A B P) := by
  constructor
  · rw [← mix_zero_iff hA hB t]
    constructor
    · intro h
      by_contra h0
      rw [interpolate_fin h0] at h
      have := congrArg V3.x h
      simp only [V3.fin] at this
      cases this
    · exact interpolate_zero
  · intro h
    rw [← mix_zero_iff hA hB t] at h
    refine ⟨_, interpolate_fin h, dirOf_unit h, (len (mix A B t))⁻¹ * (1 - t), (len (mix A B t))⁻¹ * t, ?_⟩
    unfold dirOf; conv_lhs => rw [mix_eq A B t]
    ext <;> simp [mix_eq] <;> ring

/-- **C25** the end points -/
theorem C25_endpoints (A B : V3 ℝ) (hA : UnitVec A) (hB : UnitVec B) :
    interpolate (A.fin, B.fin) (fin 0) = A.fin ∧ interpolate (A.fin, B.fin) (fin 1) = B.fin := by
  have h0 : mix A B 0 = A := by unfold mix; ext <;> simp
  have h1 : mix A B 1 = B := by unfold mix; ext <;> simp
  constructor
  · rw [interpolate_fin (by rw [h0]; exact hA.ne), h0, dirOf_of_unit hA]
  · rw [interpolate_fin (by rw [h1]; exact hB.ne), h1, dirOf_of_unit hB]

/-- **C25** between the end points: a position of the shorter arc -/
theorem C25_on_arc (A B : V3 ℝ) (hA : UnitVec A) (hB : UnitVec B) (t : ℝ) (ht0 : 0 ≤ t) (ht1 : t ≤ 1)
    (h : ¬ (B = -A ∧ t = 1 / 2)) :
    ∃ P : V3 ℝ, interpolate (A.fin, B.fin) (fin t) = P.fin ∧ OnArc A B P := by
  rw [← mix_zero_iff hA hB t] at h
  have hl := len_pos h
  refine ⟨_, interpolate_fin h, dirOf_unit h, (len (mix A B t))⁻¹ * (1 - t), (len (mix A B t))⁻¹ * t,
    mul_nonneg (inv_nonneg.mpr hl.le) (by linarith), mul_nonneg (inv_nonneg.mpr hl.le) ht0, ?_⟩
  unfold dirOf; conv_lhs => rw [mix_eq A B t]
  ext <;> simp [mix_eq] <;> ring

/-- **C25** every position of the arc of a path shorter than half a turn is reached -/
theorem C25_onto (A B P : V3 ℝ) (hA : UnitVec A) (hB : UnitVec B) (hp : ProperPath A B) (hP : OnArc A B P) :
    ∃ t : ℝ, 0 ≤ t ∧ t ≤ 1 ∧ interpolate (A.fin, B.fin) (fin t) = P.fin := by
  obtain ⟨hu, s, t, hs, ht, rfl⟩ := hP
  have hst : 0 < s + t := by
    rcases hs.lt_or_eq with h | h
    · linarith
    · rcases ht.lt_or_eq with h' | h'
      · linarith
      · exfalso; apply hu.ne; rw [← h, ← h']; ext <;> simp
  have e : mix A B (t / (s + t)) = (1 / (s + t)) • (s • A + t • B) := by
    rw [mix_eq]; ext <;> simp <;> field_simp <;> ring
  have hpos : 0 < 1 / (s + t) := by positivity
  refine ⟨t / (s + t), by positivity, by rw [div_le_one hst]; linarith, ?_⟩
  rw [interpolate_fin (by rw [e]; exact smul_ne_zero hpos.ne' hu.ne), e, dirOf_smul hpos, dirOf_of_unit hu]

/-- **C25** reversing the path is the same as `1 - t` -/
theorem C25_reverse (A B : V3 ℝ) (t : ℝ) :
    interpolate (B.fin, A.fin) (fin (1 - t)) = interpolate (A.fin, B.fin) (fin t) := by
  by_cases h : mix A B t = 0
  · rw [interpolate_zero h, interpolate_zero (by rw [mix_swap, h])]
  · rw [interpolate_fin h, interpolate_fin (by rw [mix_swap]; exact h), mix_swap]

/-! ## C26 -/

/-- distances add along the shorter arc -/
theorem arc_additive {A B Q : V3 ℝ} (hA : UnitVec A) (hB : UnitVec B) (hp : ProperPath A B) (hQ : OnArc A B Q) :
    angle A Q + angle Q B = angle A B := by
  obtain ⟨hu, s, t, hs, ht, rfl⟩ := hQ
  obtain ⟨c, hc⟩ : ∃ c, c = dot A B := ⟨_, rfl⟩
  have hq : s ^ 2 + t ^ 2 + 2 * s * t * c = 1 := by
    have := hu.dot
    simp only [dot_add_left, dot_add_right, dot_smul_left, dot_smul_right, hA.dot, hB.dot, dot_comm B A, ← hc] at this
    linarith
  have c1 : cos (angle A (s • A + t • B)) = s + t * c := by
    rw [cos_angle_unit hA hu, dot_add_right, dot_smul_right, dot_smul_right, hA.dot, ← hc]; ring
  have c2 : cos (angle (s • A + t • B) B) = s * c + t := by
    rw [cos_angle_unit hu hB, dot_add_left, dot_smul_left, dot_smul_left, hB.dot, ← hc]; ring
  have s1 : sin (angle A (s • A + t • B)) = t * len (cross A B) := by
    rw [sin_angle_unit hA hu]
    have : cross A (s • A + t • B) = t • cross A B := by ext <;> simp [cross] <;> ring
    rw [this, len_smul, abs_of_nonneg ht]
  have s2 : sin (angle (s • A + t • B) B) = s * len (cross A B) := by
    rw [sin_angle_unit hu hB]
    have : cross (s • A + t • B) B = s • cross A B := by ext <;> simp [cross] <;> ring
    rw [this, len_smul, abs_of_nonneg hs]
  have hS2 : len (cross A B) ^ 2 = 1 - c ^ 2 := by rw [lagrange, hA.len, hB.len, ← hc]; ring
  have hSp := len_pos hp
  generalize hα : angle A (s • A + t • B) = α at *
  generalize hβ : angle (s • A + t • B) B = β at *
  have a0 : 0 ≤ α := hα ▸ angle_nonneg _ _
  have a1 : α ≤ π := hα ▸ angle_le_pi _ _
  have b0 : 0 ≤ β := hβ ▸ angle_nonneg _ _
  have b1 : β ≤ π := hβ ▸ angle_le_pi _ _
  have hcos : cos (α + β) = c := by
    rw [cos_add, c1, c2, s1, s2]
    have : t * len (cross A B) * (s * len (cross A B)) = s * t * (1 - c ^ 2) := by rw [← hS2]; ring
    rw [this]; linear_combination c * hq
  have hsin : sin (α + β) = len (cross A B) := by
    rw [sin_add, c1, c2, s1, s2]; linear_combination len (cross A B) * hq
  have hle : α + β ≤ π := by
    by_contra h
    push Not at h
    have : sin (α + β - π) = -len (cross A B) := by rw [sin_sub_pi, hsin]
    have h2 : 0 ≤ sin (α + β - π) := sin_nonneg_of_nonneg_of_le_pi (by linarith) (by linarith)
    linarith
  rw [angle_unit hA hB, ← hc, ← hcos, Real.arccos_cos (by linarith) hle]

/-- **C26** the distance from A to the interpolated point plus the distance from it to B is the length of the path -/
theorem C26_additive (A B : V3 ℝ) (hA : UnitVec A) (hB : UnitVec B) (hp : ProperPath A B) (r : ℝ) (t : ℝ) (ht0 : 0 ≤ t)
    (ht1 : t ≤ 1) :
    ∃ (P : V3 ℝ) (d1 d2 d : ℝ), interpolate (A.fin, B.fin) (fin t) = P.fin ∧
      great_circle_distance A.fin P.fin (fin r) = fin d1 ∧ great_circle_distance P.fin B.fin (fin r) = fin d2 ∧
      great_circle_distance A.fin B.fin (fin r) = fin d ∧ d1 + d2 = d := by
  have hanti : ¬ (B = -A ∧ t = 1 / 2) := by
    rintro ⟨rfl, -⟩; apply hp; ext <;> simp [cross] <;> ring
  obtain ⟨P, hP, harc⟩ := C25_on_arc A B hA hB t ht0 ht1 hanti
  refine ⟨P, _, _, _, hP, C18_eq_angle _ _ hA.ne harc.1.ne r, C18_eq_angle _ _ harc.1.ne hB.ne r,
    C18_eq_angle _ _ hA.ne hB.ne r, ?_⟩
  rw [← arc_additive hA hB hp harc]; ring

/-- **C26** the distance from A is strictly increasing in `t` -/
theorem C26_monotone (A B : V3 ℝ) (hA : UnitVec A) (hB : UnitVec B) (hp : ProperPath A B) (r : ℝ) (hr : 0 < r)
    (t t' : ℝ) (ht0 : 0 ≤ t) (htt : t < t') (ht1 : t' ≤ 1) :
    ∃ (P P' : V3 ℝ) (d d' : ℝ), interpolate (A.fin, B.fin) (fin t) = P.fin ∧ interpolate (A.fin, B.fin) (fin t') = P'.fin ∧
      great_circle_distance A.fin P.fin (fin r) = fin d ∧ great_circle_distance A.fin P'.fin (fin r) = fin d' ∧ d < d' := by
  have hanti : ∀ u : ℝ, ¬ (B = -A ∧ u = 1 / 2) := by
    rintro u ⟨rfl, -⟩; apply hp; ext <;> simp [cross] <;> ring
  have h1 : mix A B t ≠ 0 := fun h => hanti _ ((mix_zero_iff hA hB t).mp h)
  have h2 : mix A B t' ≠ 0 := fun h => hanti _ ((mix_zero_iff hA hB t').mp h)
  have hu1 := dirOf_unit h1
  have hu2 := dirOf_unit h2
  have htp : 0 < t' := by linarith
  refine ⟨_, _, _, _, interpolate_fin h1, interpolate_fin h2, C18_eq_angle _ _ hA.ne hu1.ne r,
    C18_eq_angle _ _ hA.ne hu2.ne r, ?_⟩
  apply mul_lt_mul_of_pos_right _ hr
  have hl1 := len_pos h1
  have hl2 := len_pos h2
  -- the path A, P' is proper
  have hcr : cross A (mix A B t') = t' • cross A B := by unfold mix; ext <;> simp [cross] <;> ring
  have hp' : ProperPath A (dirOf (mix A B t')) := by
    unfold ProperPath dirOf
    rw [cross_smul_right, hcr]
    exact smul_ne_zero (inv_ne_zero hl2.ne') (smul_ne_zero htp.ne' hp)
  have harc : OnArc A (dirOf (mix A B t')) (dirOf (mix A B t)) := by
    refine ⟨hu1, (len (mix A B t))⁻¹ * (1 - t / t'), (len (mix A B t))⁻¹ * (t / t') * len (mix A B t'), ?_, ?_, ?_⟩
    · apply mul_nonneg (inv_nonneg.mpr hl1.le)
      rw [sub_nonneg, div_le_one htp]; exact htt.le
    · positivity
    · have e : mix A B t = (1 - t / t') • A + (t / t') • mix A B t' := by
        unfold mix; ext <;> simp <;> field_simp <;> ring
      have e2 := smul_dirOf (mix A B t')
      have e3 : ((len (mix A B t))⁻¹ * (t / t') * len (mix A B t')) • dirOf (mix A B t') =
          ((len (mix A B t))⁻¹ * (t / t')) • (len (mix A B t') • dirOf (mix A B t')) := by
        ext <;> simp <;> ring
      rw [e3, e2]
      show (len (mix A B t))⁻¹ • mix A B t = _
      conv_lhs => arg 2; rw [e]
      ext <;> simp <;> ring
  have hadd := arc_additive hA hu2 hp' harc
  have hpos : 0 < angle (dirOf (mix A B t)) (dirOf (mix A B t')) := by
    apply lt_of_le_of_ne (angle_nonneg _ _)
    intro h
    have heq := (angle_eq_zero_iff hu1 hu2).mp h.symm
    -- equal directions have parallel mixes
    have hz : cross (mix A B t) (mix A B t') = 0 := by
      rw [← smul_dirOf (mix A B t), ← smul_dirOf (mix A B t'), heq, cross_smul_left, cross_smul_right, cross_self]
      ext <;> simp
    have hz2 : cross (mix A B t) (mix A B t') = (t' - t) • cross A B := by
      unfold mix; ext <;> simp [cross] <;> ring
    rw [hz2] at hz
    exact smul_ne_zero (by linarith) hp hz
  linarith

/-- concrete path -/
example : UnitVec ⟨1, 0, 0⟩ ∧ UnitVec ⟨3/5, 4/5, 0⟩ ∧ ProperPath ⟨1, 0, 0⟩ ⟨3/5, 4/5, 0⟩ := by
  refine ⟨by norm_num [UnitVec], by norm_num [UnitVec], ?_⟩
  intro h; have := congrArg V3.z h; norm_num [cross] at this

end Nv
