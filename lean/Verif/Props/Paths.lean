import Verif.Props.Distance
import Verif.Props.EarthCore

/-!
# C24 - C30: intersection, interpolation, direct and inverse problem on the sphere, mean position
-/

namespace Nv
open Spec Real
open XR (fin)

/-! ## C24 intersection of two great circles -/

/-- two proper paths lie on the same great circle -/
def Spec.SameCircle (A1 A2 B1 B2 : V3 ℝ) : Prop := ∀ Q, OnCircle A1 A2 Q ↔ OnCircle B1 B2 Q

theorem cross_eq_zero_smul {v w : V3 ℝ} (hw : w ≠ 0) (h : cross v w = 0) : ∃ c : ℝ, v = c • w := by
  refine ⟨dot v w / len w ^ 2, ?_⟩
  have hl := len_pos hw
  have hl2 : len w ^ 2 ≠ 0 := by positivity
  have key : len w ^ 2 • v = dot v w • w := by
    have e : len w ^ 2 • v - dot v w • w = -cross (cross v w) w := by
      rw [← dot_self, cross_cross]; ext <;> simp [dot]
    rw [h] at e
    have kx := congrArg V3.x e; have ky := congrArg V3.y e; have kz := congrArg V3.z e
    simp [cross] at kx ky kz
    ext <;> simp <;> linarith
  have kx := congrArg V3.x key; have ky := congrArg V3.y key; have kz := congrArg V3.z key
  simp only [smul_x, smul_y, smul_z] at kx ky kz
  ext <;> simp only [smul_x, smul_y, smul_z] <;> field_simp <;> linarith

/-- the normals are parallel exactly when the circles coincide -/
theorem normals_parallel_iff {A1 A2 B1 B2 : V3 ℝ} (hA : ProperPath A1 A2) (hB : ProperPath B1 B2) :
    cross (cross A1 A2) (cross B1 B2) = 0 ↔ SameCircle A1 A2 B1 B2 := by
  constructor
  · intro h
    obtain ⟨c, hc⟩ := cross_eq_zero_smul hB h
    have hc0 : c ≠ 0 := by
      rintro rfl; apply hA; rw [hc]; ext <;> simp
    intro Q
    rw [onCircle_iff hA, onCircle_iff hB, hc, dot_smul_left]
    simp [hc0]
  · intro h
    by_contra hne
    -- A1, A2 directions are on the circle of B, so the normal of B is perpendicular to the plane of A
    have perp : ∀ v, v ≠ 0 → dot (cross A1 A2) v = 0 → dot (cross B1 B2) v = 0 := by
      intro v hv h0
      have h1 : OnCircle A1 A2 (dirOf v) := (onCircle_iff hA).mpr ⟨dirOf_unit hv, by rw [dot_dirOf_right, h0, mul_zero]⟩
      have h2 := ((onCircle_iff hB).mp ((h _).mp h1)).2
      rw [dot_dirOf_right] at h2
      exact (mul_eq_zero.mp h2).resolve_left (inv_ne_zero (len_pos hv).ne')
    -- v = nA × (nA × nB)
    have hv : cross (cross A1 A2) (cross (cross A1 A2) (cross B1 B2)) ≠ 0 := by
      intro h0
      have := lagrange (cross A1 A2) (cross (cross A1 A2) (cross B1 B2))
      rw [h0, dot_cross_self_left] at this
      have l1 := len_pos hA
      have l2 := len_pos hne
      have : len (0 : V3 ℝ) = 0 := len_eq_zero.mpr rfl
      nlinarith [mul_pos (pow_pos l1 2) (pow_pos l2 2)]
    have h3 := perp _ hv (dot_cross_self_left _ _)
    have h4 : dot (cross B1 B2) (cross (cross A1 A2) (cross (cross A1 A2) (cross B1 B2))) =
        -len (cross (cross A1 A2) (cross B1 B2)) ^ 2 := by
      rw [lagrange, ← dot_self, ← dot_self]
      generalize cross A1 A2 = a
      generalize cross B1 B2 = b
      simp [dot, cross]; ring
    have := len_pos hne
    rw [h4] at h3
    nlinarith

/-- the circles meet in `± dirOf w` -/
theorem intersect_fin {A1 A2 B1 B2 : V3 ℝ} (hw : cross (cross A1 A2) (cross B1 B2) ≠ 0) :
    intersect (A1.fin, A2.fin) (B1.fin, B2.fin) =
      scale3 (dirOf (cross (cross A1 A2) (cross B1 B2))).fin
        (PyFloat.sign (fin (dot (dirOf (cross (cross A1 A2) (cross B1 B2))) A1))) := by
  simp only [intersect, xr, unit_fin hw]

theorem onCircle_w {A1 A2 B1 B2 : V3 ℝ} (hw : cross (cross A1 A2) (cross B1 B2) ≠ 0) :
    OnCircle A1 A2 (dirOf (cross (cross A1 A2) (cross B1 B2))) ∧
    OnCircle B1 B2 (dirOf (cross (cross A1 A2) (cross B1 B2))) := by
  have hA : ProperPath A1 A2 := cross_ne_zero_left hw
  have hB : ProperPath B1 B2 := cross_ne_zero_right hw
  rw [onCircle_iff hA, onCircle_iff hB, dot_dirOf_right, dot_dirOf_right, dot_cross_self_left, dot_cross_self_right]
  simp [dirOf_unit hw]

theorem Spec.OnCircle.neg {A B Q : V3 ℝ} (h : OnCircle A B Q) : OnCircle A B (-Q) := by
  obtain ⟨h, s, t, rfl⟩ := h
  refine ⟨h.neg, -s, -t, ?_⟩
  ext <;> simp <;> ring

/-- **C24** (part): two proper paths on different great circles, the intersection not exactly a quarter turn from the first
end point: the result is a unit vector on both great circles, in the hemisphere of the first end point of path A, so no
farther from it than the antipode.  Missing: the first end point exactly 90 degrees from the intersection, where the
claim is false (`C24_quarter_turn_counterexample`). -/
theorem C24_intersection_partial (A1 A2 B1 B2 : V3 ℝ) (hA : ProperPath A1 A2) (hB : ProperPath B1 B2)
    (hne : ¬ SameCircle A1 A2 B1 B2)
    (hq : ∀ Q, OnCircle A1 A2 Q → OnCircle B1 B2 Q → dot Q A1 ≠ 0) :
    ∃ C : V3 ℝ, intersect (A1.fin, A2.fin) (B1.fin, B2.fin) = C.fin ∧ OnCircle A1 A2 C ∧ OnCircle B1 B2 C ∧
      0 < dot C A1 ∧ angle A1 C ≤ angle A1 (-C) ∧ (∀ Q, OnCircle A1 A2 Q → OnCircle B1 B2 Q → Q = C ∨ Q = -C) := by
  have hw : cross (cross A1 A2) (cross B1 B2) ≠ 0 := fun h => hne ((normals_parallel_iff hA hB).mp h)
  obtain ⟨hwA, hwB⟩ := onCircle_w hw
  have hd := hq _ hwA hwB
  rw [intersect_fin hw]
  have hall : ∀ Q, OnCircle A1 A2 Q → OnCircle B1 B2 Q → Q = dirOf (cross (cross A1 A2) (cross B1 B2)) ∨
      Q = -dirOf (cross (cross A1 A2) (cross B1 B2)) := by
    intro Q h1 h2
    have h1' := (onCircle_iff hA).mp h1
    have h2' := (onCircle_iff hB).mp h2
    have hcr : cross Q (cross (cross A1 A2) (cross B1 B2)) = 0 := by
      rw [cross_cross', dot_comm Q, dot_comm Q, h1'.2, h2'.2]; ext <;> simp
    obtain ⟨c, hc⟩ := cross_eq_zero_smul hw hcr
    have hl := len_pos hw
    have hQ : Q = (c * len (cross (cross A1 A2) (cross B1 B2))) • dirOf (cross (cross A1 A2) (cross B1 B2)) := by
      rw [hc]; unfold dirOf; ext <;> simp <;> field_simp
    have hsq : (c * len (cross (cross A1 A2) (cross B1 B2))) ^ 2 = 1 := by
      have := congrArg len hQ
      rw [len_smul, h1'.1.len, (dirOf_unit hw).len, mul_one] at this
      rw [← sq_abs, ← this]; norm_num
    rcases sq_eq_one_iff_of_side hsq with h | h
    · left; rw [hQ, h]; ext <;> simp
    · right; rw [hQ, h]; ext <;> simp
  generalize dirOf (cross (cross A1 A2) (cross B1 B2)) = D at *
  have hA1 : A1 ≠ 0 := cross_ne_zero_left hA
  have hang : ∀ C : V3 ℝ, UnitVec C → 0 < dot C A1 → angle A1 C ≤ angle A1 (-C) := by
    intro C hC h0
    unfold angle
    apply Real.arccos_le_arccos
    have l1 := len_pos hA1
    rw [hC.neg.len, hC.len, mul_one]
    apply div_le_div_of_nonneg_right _ l1.le
    rw [dot_neg_right, dot_comm]; linarith
  rcases lt_or_gt_of_ne hd with hneg | hpos
  · rw [XR.sign_neg hneg, scale3_fin]
    have e : ((-1 : ℝ) • D : V3 ℝ) = -D := by ext <;> simp
    rw [e]
    have h0 : 0 < dot (-D) A1 := by rw [dot_neg_left]; linarith
    refine ⟨_, rfl, hwA.neg, hwB.neg, h0, hang _ hwA.neg.1 h0, ?_⟩
    intro Q h1 h2
    rcases hall Q h1 h2 with h | h
    · right; rw [h]; ext <;> simp
    · left; exact h
  · rw [XR.sign_pos hpos, scale3_fin]
    have e : ((1 : ℝ) • D : V3 ℝ) = D := by ext <;> simp
    rw [e]
    exact ⟨_, rfl, hwA, hwB, hpos, hang _ hwA.1 hpos, hall⟩

/-- **C24** NaN (all components, with the warning) exactly when a path is degenerate or the great circles coincide -/
theorem C24_nan_iff (A1 A2 B1 B2 : V3 ℝ) :
    (intersect (A1.fin, A2.fin) (B1.fin, B2.fin) = ⟨XR.nan, XR.nan, XR.nan⟩ ∧
      intersect_warns (A1.fin, A2.fin) (B1.fin, B2.fin) = true ∨
     (∃ C : V3 ℝ, intersect (A1.fin, A2.fin) (B1.fin, B2.fin) = C.fin) ∧
      intersect_warns (A1.fin, A2.fin) (B1.fin, B2.fin) = false) ∧
    (intersect_warns (A1.fin, A2.fin) (B1.fin, B2.fin) = true ↔
      ¬ ProperPath A1 A2 ∨ ¬ ProperPath B1 B2 ∨ SameCircle A1 A2 B1 B2) := by
  by_cases hw : cross (cross A1 A2) (cross B1 B2) = 0
  · have h1 : intersect (A1.fin, A2.fin) (B1.fin, B2.fin) = ⟨XR.nan, XR.nan, XR.nan⟩ := by
      have : (⟨XR.nan, XR.nan, XR.nan⟩ : V3 XR) = V3.nan := rfl
      rw [this]
      simp only [intersect, cross3_fin, hw, unit_zero_nan]
      simp only [xr]
    have h2 : intersect_warns (A1.fin, A2.fin) (B1.fin, B2.fin) = true := by
      unfold intersect_warns; rw [h1]; simp only [xr, Bool.or_self]
    refine ⟨Or.inl ⟨h1, h2⟩, fun _ => ?_, fun _ => h2⟩
    by_cases hA : ProperPath A1 A2
    · by_cases hB : ProperPath B1 B2
      · exact Or.inr (Or.inr ((normals_parallel_iff hA hB).mp hw))
      · exact Or.inr (Or.inl hB)
    · exact Or.inl hA
  · obtain ⟨C, hC⟩ : ∃ C : V3 ℝ, intersect (A1.fin, A2.fin) (B1.fin, B2.fin) = C.fin := by
      rw [intersect_fin hw, XR.sign_fin]
      split_ifs <;> exact ⟨_, scale3_fin _ _⟩
    have h2 : intersect_warns (A1.fin, A2.fin) (B1.fin, B2.fin) = false := by
      unfold intersect_warns; rw [hC]; simp only [xr, Bool.or_self]
    refine ⟨Or.inr ⟨⟨C, hC⟩, h2⟩, fun h => ?_, fun h => ?_⟩
    · rw [h2] at h; cases h
    · exfalso
      have hA : ProperPath A1 A2 := cross_ne_zero_left hw
      have hB : ProperPath B1 B2 := cross_ne_zero_right hw
      rcases h with h | h | h
      · exact h hA
      · exact h hB
      · exact hw ((normals_parallel_iff hA hB).mpr h)

/-- **C24** is false when the first end point of path A is exactly 90 degrees from the intersection: the result is the zero
vector, which is no position, and there is no warning. -/
theorem C24_quarter_turn_counterexample (A1 A2 B1 B2 : V3 ℝ) (hA : ProperPath A1 A2) (hB : ProperPath B1 B2)
    (hne : ¬ SameCircle A1 A2 B1 B2) (Q : V3 ℝ) (hQA : OnCircle A1 A2 Q) (hQB : OnCircle B1 B2 Q) (hq : dot Q A1 = 0) :
    intersect (A1.fin, A2.fin) (B1.fin, B2.fin) = (0 : V3 ℝ).fin ∧
      intersect_warns (A1.fin, A2.fin) (B1.fin, B2.fin) = false := by
  have hw : cross (cross A1 A2) (cross B1 B2) ≠ 0 := fun h => hne ((normals_parallel_iff hA hB).mp h)
  have hQ1 := (onCircle_iff hA).mp hQA
  have hQ2 := (onCircle_iff hB).mp hQB
  have hcr : cross (cross (cross A1 A2) (cross B1 B2)) Q = 0 := by
    rw [cross_cross, hQ1.2, hQ2.2]; ext <;> simp
  obtain ⟨c, hc⟩ := cross_eq_zero_smul hQ1.1.ne hcr
  have hd : dot (dirOf (cross (cross A1 A2) (cross B1 B2))) A1 = 0 := by
    rw [dot_dirOf_left, hc, dot_smul_left, hq]; ring
  have h1 : intersect (A1.fin, A2.fin) (B1.fin, B2.fin) = (0 : V3 ℝ).fin := by
    rw [intersect_fin hw, hd, XR.sign_zero, scale3_fin, V3.fin_inj]
    ext <;> simp
  refine ⟨h1, ?_⟩
  unfold intersect_warns; rw [h1]; simp only [xr, Bool.or_self]

/-- the situation of the counterexample occurs: the equator from longitude 0 and the meridian of longitude 90 -/
example : intersect ((⟨1, 0, 0⟩ : V3 ℝ).fin, (⟨3/5, 4/5, 0⟩ : V3 ℝ).fin) ((⟨0, 1, 0⟩ : V3 ℝ).fin, (⟨0, 0, 1⟩ : V3 ℝ).fin) =
    (0 : V3 ℝ).fin := by
  refine (C24_quarter_turn_counterexample _ _ _ _ ?_ ?_ ?_ ⟨0, 1, 0⟩ ?_ ?_ ?_).1
  · intro h; have := congrArg V3.z h; norm_num [cross] at this
  · intro h; have := congrArg V3.x h; norm_num [cross] at this
  · intro h
    obtain ⟨-, s, t, h2⟩ := (h ⟨1, 0, 0⟩).mp ⟨by norm_num [UnitVec], 1, 0, by ext <;> simp⟩
    have := congrArg V3.x h2; norm_num at this
  · refine ⟨by norm_num [UnitVec], -(3/4), 5/4, ?_⟩
    ext <;> simp <;> norm_num
  · exact ⟨by norm_num [UnitVec], 1, 0, by ext <;> simp⟩
  · norm_num [dot]

/-- **C24** exchanging the paths gives the same point up to sign (neither first end point at 90 degrees) -/
theorem C24_swap (A1 A2 B1 B2 : V3 ℝ) (hA : ProperPath A1 A2) (hB : ProperPath B1 B2) (hne : ¬ SameCircle A1 A2 B1 B2)
    (hq : ∀ Q, OnCircle A1 A2 Q → OnCircle B1 B2 Q → dot Q A1 ≠ 0 ∧ dot Q B1 ≠ 0) :
    ∃ C D : V3 ℝ, intersect (A1.fin, A2.fin) (B1.fin, B2.fin) = C.fin ∧
      intersect (B1.fin, B2.fin) (A1.fin, A2.fin) = D.fin ∧ (D = C ∨ D = -C) := by
  obtain ⟨C, h1, -, -, -, -, h6⟩ := C24_intersection_partial A1 A2 B1 B2 hA hB hne (fun Q a b => (hq Q a b).1)
  obtain ⟨D, g1, g2, g3, -, -, -⟩ := C24_intersection_partial B1 B2 A1 A2 hB hA (fun h => hne fun Q => (h Q).symm)
    (fun Q a b => (hq Q b a).2)
  exact ⟨C, D, h1, g1, h6 D g3 g2⟩

/-- a concrete case of the hypotheses of C24 -/
example : ∃ C : V3 ℝ, intersect ((⟨1, 0, 0⟩ : V3 ℝ).fin, (⟨0, 1, 0⟩ : V3 ℝ).fin) ((⟨3/5, 4/5, 0⟩ : V3 ℝ).fin, (⟨0, 0, 1⟩ : V3 ℝ).fin)
    = C.fin ∧ OnCircle ⟨1, 0, 0⟩ ⟨0, 1, 0⟩ C := by
  suffices h : _ ∧ _ ∧ _ ∧ _ by
    obtain ⟨C, h1, h2, -⟩ := C24_intersection_partial ⟨1, 0, 0⟩ ⟨0, 1, 0⟩ ⟨3/5, 4/5, 0⟩ ⟨0, 0, 1⟩ h.1 h.2.1 h.2.2.1 h.2.2.2
    exact ⟨C, h1, h2⟩
  refine ⟨?_, ?_, ?_, ?_⟩
  · intro h; have := congrArg V3.z h; norm_num [cross] at this
  · intro h; have := congrArg V3.x h; norm_num [cross] at this
  · intro h
    obtain ⟨-, s, t, h2⟩ := (h ⟨1, 0, 0⟩).mp ⟨by norm_num [UnitVec], 1, 0, by ext <;> simp⟩
    have hx := congrArg V3.x h2; have hy := congrArg V3.y h2
    norm_num at hx hy; rw [hy] at hx; norm_num at hx
  · rintro Q ⟨hQ, s, t, rfl⟩ ⟨-, s', t', h⟩
    have hx := congrArg V3.x h; have hy := congrArg V3.y h; have hz := congrArg V3.z h
    simp only [smul_x, smul_y, smul_z, add_x, add_y, add_z] at hx hy hz
    norm_num at hx hy hz
    unfold UnitVec at hQ
    simp only [smul_x, smul_y, smul_z, add_x, add_y, add_z] at hQ
    norm_num at hQ
    simp only [dot, smul_x, smul_y, smul_z, add_x, add_y, add_z]
    norm_num
    intro h0
    rw [h0] at hx hQ
    have : s' = 0 := by linarith
    rw [this] at hy; norm_num at hy
    rw [hy] at hQ; norm_num at hQ

end Nv
