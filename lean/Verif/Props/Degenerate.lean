import Verif.Props.LongPath
import Verif.Props.Paths

/-!
# Paths whose ends coincide or are opposite (C145), and positions at a pole of the great circle of a path (C146)
-/

namespace Nv
open Spec Real
open XR (fin)

theorem not_proper {A B : V3 ℝ} (h : B = A ∨ B = -A) : ¬ ProperPath A B := by
  unfold ProperPath
  rw [not_not]
  rcases h with rfl | rfl
  · exact cross_self _
  · rw [show -A = (-1 : ℝ) • A by ext <;> simp, cross_smul_right, cross_self]; ext <;> simp

theorem normal_of_degenerate {A B : V3 ℝ} (h : B = A ∨ B = -A) : great_circle_normal A.fin B.fin = V3.nan := by
  have hz : cross A B = 0 := not_not.mp (not_proper h)
  rw [great_circle_normal, cross3_fin, hz, unit_zero_nan]

theorem closest_of_degenerate {A B : V3 ℝ} (h : B = A ∨ B = -A) (P : V3 ℝ) : closest_point_on_great_circle (A.fin, B.fin) P.fin = V3.nan := by
  simp only [closest_point_on_great_circle, normal_of_degenerate h, xr]

/-- **C145** no great circle: the cross track distance, the closest point and every intersection are NaN, and no position is on the circle or
on the path, not even the ends of the path -/
theorem C145_no_circle (A B P C D : V3 ℝ) (h : B = A ∨ B = -A) (r atol : XR) :
    cross_track_distance (A.fin, B.fin) P.fin (radius := r) = .ok .nan ∧
    closest_point_on_great_circle (A.fin, B.fin) P.fin = ⟨.nan, .nan, .nan⟩ ∧
    intersect (A.fin, B.fin) (C.fin, D.fin) = ⟨.nan, .nan, .nan⟩ ∧ intersect (C.fin, D.fin) (A.fin, B.fin) = ⟨.nan, .nan, .nan⟩ ∧
    on_great_circle (A.fin, B.fin) P.fin r atol = false ∧ on_great_circle_path (A.fin, B.fin) P.fin r atol = false := by
  have hp := not_proper h
  have hz : cross A B = 0 := not_not.mp hp
  have z1 : cross (0 : V3 ℝ) (cross C D) = 0 := by ext <;> simp [cross]
  have z2 : cross (cross C D) (0 : V3 ℝ) = 0 := by ext <;> simp [cross]
  have hn : (⟨.nan, .nan, .nan⟩ : V3 XR) = V3.nan := rfl
  refine ⟨C20_degenerate A B P hp r, closest_of_degenerate h P, ?_, ?_, C22_degenerate A B P hp r atol, ?_⟩
  · rw [hn]; simp only [intersect, cross3_fin, hz, z1, unit_zero_nan]; simp only [xr]
  · rw [hn]; simp only [intersect, cross3_fin, hz, z2, unit_zero_nan]; simp only [xr]
  · unfold on_great_circle_path
    rw [C22_degenerate A B P hp r atol, Bool.and_false]

/-- **C145** distances: nothing between coincident positions, half a turn between opposite ones -/
theorem C145_distance (A : V3 ℝ) (hA : UnitVec A) (r : ℝ) :
    great_circle_distance A.fin A.fin (fin r) = fin 0 ∧ great_circle_distance A.fin (-A).fin (fin r) = fin (π * r) ∧
    euclidean_distance A.fin A.fin (fin r) = fin 0 ∧ euclidean_distance A.fin (-A).fin (fin r) = fin (2 * r) := by
  have hm : (-A) = (-1 : ℝ) • A := by ext <;> simp
  have hB : UnitVec (-A) := by
    have := hA.len
    unfold UnitVec at *
    simp only [neg_x, neg_y, neg_z, neg_sq] at *
    exact hA
  have hang : angle A (-A) = π := by
    rw [angle_unit hA hB, hm, dot_smul_right, hA.dot]; norm_num [Real.arccos_neg_one]
  refine ⟨?_, ?_, ?_, ?_⟩
  · rw [C18_eq_angle A A hA.ne hA.ne, angle_self hA.ne, zero_mul]
  · rw [C18_eq_angle A (-A) hA.ne hB.ne, hang]
  · simp only [euclidean_distance, xr]
    rw [show A - A = 0 by ext <;> simp, len_eq_zero.2 rfl, zero_mul]
  · simp only [euclidean_distance, xr]
    rw [show -A - A = (-2 : ℝ) • A by ext <;> simp <;> ring, len_smul, hA.len]; norm_num

/-- **C145** interpolation: between coincident positions nothing moves; between opposite positions it jumps from one end to the other half
way, where the result is NaN -/
theorem C145_interpolate (A : V3 ℝ) (hA : UnitVec A) (t : ℝ) :
    interpolate (A.fin, A.fin) (fin t) = A.fin ∧
    (t < 1 / 2 → interpolate (A.fin, (-A).fin) (fin t) = A.fin) ∧
    (1 / 2 < t → interpolate (A.fin, (-A).fin) (fin t) = (-A).fin) ∧
    interpolate (A.fin, (-A).fin) (fin (1 / 2)) = ⟨.nan, .nan, .nan⟩ := by
  have m1 : mix A A t = A := by unfold mix; ext <;> simp
  have m2 : ∀ t, mix A (-A) t = (1 - 2 * t) • A := fun t => by unfold mix; ext <;> simp <;> ring
  have hd := dirOf_of_unit hA
  have hmA : UnitVec (-A) := by
    unfold UnitVec at *
    simp only [neg_x, neg_y, neg_z, neg_sq] at *
    exact hA
  refine ⟨?_, fun h => ?_, fun h => ?_, ?_⟩
  · rw [interpolate_fin (by rw [m1]; exact hA.ne), m1, hd]
  · have h1 : 0 < 1 - 2 * t := by linarith
    have := m2 t
    rw [interpolate_fin (by rw [this]; exact smul_ne_zero h1.ne' hA.ne), this, dirOf_smul h1, hd]
  · have h1 : 0 < 2 * t - 1 := by linarith
    have : mix A (-A) t = (2 * t - 1) • (-A) := by rw [m2]; ext <;> simp <;> ring
    rw [interpolate_fin (by rw [this]; exact smul_ne_zero h1.ne' hmA.ne), this, dirOf_smul h1, dirOf_of_unit hmA]
  · have : A + (1 / 2 : ℝ) • (-A - A) = 0 := by ext <;> simp <;> ring
    unfold interpolate
    simp only [xr, this]
    exact unit_zero_nan

section
variable (P : GeoPath XR) (A B C pA pB pC : V3 ℝ) (zA zB zC a f : ℝ) (name : EllKey) (R : M3 ℝ)

/-- **C145** `on_path` is false for every position on a path without a great circle, its own ends included -/
theorem C145_on_path (G : Geodesic XR) (hA : At P.point_a A zA pA (.real a f name R)) (hB : At P.point_b B zB pB (.real a f name R))
    (h : B = A ∨ B = -A) (X : Position XR) (hX : At X C zC pC (.real a f name R)) (m : String) (hx : m.toList.take 2 ≠ ['e', 'x'])
    (hl : m.toList.take 2 ≠ ['e', 'l']) (rtol atol : ℝ) :
    P.on_path G X m (fin rtol) (fin atol) = .ok false ∧ P.on_path G P.point_a m (fin rtol) (fin atol) = .ok false ∧
    P.on_path G P.point_b m (fin rtol) (fin atol) = .ok false := by
  have key : ∀ (X : Position XR) (C : V3 ℝ) (z : ℝ), X.to_nvector = .real C z (.real a f name R) →
      P.on_path G X m (fin rtol) (fin atol) = .ok false := by
    intro X C z e
    rw [on_path_greatcircle hA hB X C z _ e m hx hl rtol atol, (C145_no_circle A B C C C h _ _).2.2.2.2.2, Bool.false_and]
  exact ⟨key X C zC hX.nv, key _ _ _ hA.nv, key _ _ _ hB.nv⟩

/-- **C145** `closest_point_on_path` nevertheless returns the end that is nearest, the second one when both are equally near -/
theorem C145_closest (hR : IsRotation R) (hA : At P.point_a A zA pA (.real a f name R)) (hB : At P.point_b B zB pB (.real a f name R))
    (h : B = A ∨ B = -A) (X : Position XR) (hX : At X C zC pC (.real a f name R)) (hr : 0 < len pA + len pB) :
    (P.closest_point_on_path X).to_nvector =
      if angle C A < angle C B then .real A zA (.real a f name R) else .real B zB (.real a f name R) := by
  have htest : P.on_great_circle_path (.nvec (P.closest_nvector X)) none (lit 1e-6) (lit 1e-8) = false := by
    have hnan : (Position.nvec (P.closest_nvector X)).to_nvector.normal = V3.nan := by
      unfold GeoPath.closest_nvector
      dsimp only
      rw [normals_fin hA hB, hX.nv]
      exact closest_of_degenerate h C
    unfold GeoPath.on_great_circle_path
    dsimp only
    rw [hnan, normals_fin hA hB]
    have : ∀ r : XR, Nv.on_great_circle (A.fin, B.fin) V3.nan r (lit 1e-8) = false := by
      intro r
      simp only [on_great_circle, abs_cross_track, cross_track_distance, normal_of_degenerate h, xr, great_circle_cross_track_distance]
      rfl
    unfold Nv.on_great_circle_path
    rw [this, Bool.and_false, Bool.false_and]
  have hd1 : great_circle_distance A.fin C.fin (fin ((len pA + len pB) / 2)) = _ := C18_eq_angle A C hA.unit.ne hX.unit.ne _
  have hd2 : great_circle_distance B.fin C.fin (fin ((len pA + len pB) / 2)) = _ := C18_eq_angle B C hB.unit.ne hX.unit.ne _
  unfold GeoPath.closest_point_on_path
  dsimp only
  rw [htest, hX.nv, normals_fin hA hB, average_radius_fin hA hB]
  simp only [Nvector.real, hd1, hd2, XR.lt_fin, decide_eq_true_eq]
  have hcmp : angle A C * ((len pA + len pB) / 2) < angle B C * ((len pA + len pB) / 2) ↔ angle C A < angle C B := by
    rw [mul_lt_mul_iff_left₀ (by linarith), angle_comm A C, angle_comm B C]
  simp only [Bool.false_eq_true, if_false]
  by_cases hlt : angle C A < angle C B
  · rw [if_pos hlt, if_pos (hcmp.2 hlt)]; exact at_to_geo hR hA
  · rw [if_neg hlt, if_neg (fun h => hlt (hcmp.1 h))]; exact at_to_geo hR hB

/-! ## C146 -/

theorem sq_one {x : ℝ} (h : x ^ 2 = 1) : x = 1 ∨ x = -1 := by
  have : (x - 1) * (x + 1) = 0 := by linear_combination h
  rcases mul_eq_zero.1 this with h | h
  · left; linarith
  · right; linarith

/-- the normal of the circle is parallel to a pole of the circle -/
theorem pole_normal {A B P : V3 ℝ} (hp : ProperPath A B) (hP : UnitVec P) (hpole : cross P (cross A B) = 0) :
    dirOf (cross A B) = P ∨ dirOf (cross A B) = -P := by
  have hu := hp.dirOf_unit
  have hz : cross P (dirOf (cross A B)) = 0 := by
    unfold dirOf; rw [cross_smul_right, hpole]; ext <;> simp
  generalize dirOf (cross A B) = c at *
  have h : cross P (cross P c) = dot P c • P - dot P P • c := cross_cross' _ _ _
  rw [hz, hP.dot] at h
  have hc : c = dot P c • P := by
    have hx := congrArg V3.x h; have hy := congrArg V3.y h; have hz' := congrArg V3.z h
    simp [cross] at hx hy hz'
    ext <;> simp <;> linarith
  have hd : dot P c ^ 2 = 1 := by
    have h1 := hu.dot
    have h2 : dot c c = dot P c * dot P c := by
      conv_lhs => arg 1; rw [hc]
      rw [dot_smul_left]
    rw [h2] at h1; linarith
  rcases sq_one hd with h1 | h1
  · left; rw [hc, h1]; ext <;> simp
  · right; rw [hc, h1]; ext <;> simp

/-- **C146** for a pole of the circle `closest_point_on_great_circle` returns the x-axis or its opposite, whichever is on the pole's side, and
the zero vector when the pole is 90 degrees from the x-axis: not a position of the circle in any case -/
theorem C146_pole (A B P : V3 ℝ) (hp : ProperPath A B) (hP : UnitVec P) (hpole : cross P (cross A B) = 0) :
    (0 < P.x → closest_point_on_great_circle (A.fin, B.fin) P.fin = (⟨1, 0, 0⟩ : V3 ℝ).fin) ∧
    (P.x < 0 → closest_point_on_great_circle (A.fin, B.fin) P.fin = (⟨-1, 0, 0⟩ : V3 ℝ).fin) ∧
    (P.x = 0 → closest_point_on_great_circle (A.fin, B.fin) P.fin = (⟨0, 0, 0⟩ : V3 ℝ).fin) := by
  have hz : cross P (dirOf (cross A B)) = 0 := by
    unfold dirOf; rw [cross_smul_right, hpole]; ext <;> simp
  have hz2 : cross (dirOf (cross A B)) (0 : V3 ℝ) = 0 := by ext <;> simp [cross]
  have e : closest_point_on_great_circle (A.fin, B.fin) P.fin =
      scale3 (⟨1, 0, 0⟩ : V3 ℝ).fin (PyFloat.sign (fin P.x)) := by
    simp only [closest_point_on_great_circle, great_circle_normal_fin hp, xr, hz, hz2, Rat.cast_one]
    congr 3; simp [dot]
  rw [e]
  refine ⟨fun h => ?_, fun h => ?_, fun h => ?_⟩
  · rw [XR.sign_pos h, scale3_fin]; congr 1; ext <;> simp
  · rw [XR.sign_neg h, scale3_fin]; congr 1; ext <;> simp
  · rw [h, XR.sign_zero, scale3_fin]; congr 1; ext <;> simp

/-- **C146** and `closest_point_on_path` of such a pole is the second end of the path, a nearest point of the path since all its points are equally
near, if the pole is more than `1e-8` m (in arc) away from 90 degrees from the x-axis, or exactly there and the path is shorter than 60 degrees -/
theorem C146_closest_on_path (hR : IsRotation R) (hA : At P.point_a A zA pA (.real a f name R))
    (hB : At P.point_b B zB pB (.real a f name R)) (X : Position XR) (hX : At X C zC pC (.real a f name R)) (hp : ProperPath A B)
    (hpole : cross C (cross A B) = 0) (hr : 0 < len pA + len pB)
    (hside : 1e-8 < |arcsin C.x| * ((len pA + len pB) / 2) ∨ C.x = 0 ∧ angle A B < π / 3) :
    (P.closest_point_on_path X).to_nvector = .real B zB (.real a f name R) ∧ ∀ S, OnArc A B S → angle C S = π / 2 ∧ angle C B = angle C S := by
  have hn := pole_normal hp hX.unit hpole
  have hzero : ∀ S, OnCircle A B S → dot C S = 0 := by
    intro S hS
    have := ((onCircle_iff_normal hp).1 hS).2
    rcases hn with h | h
    · rwa [h] at this
    · rw [h, show -C = (-1 : ℝ) • C by ext <;> simp, dot_smul_left] at this; linarith
  have hang : ∀ S, OnCircle A B S → angle C S = π / 2 := by
    intro S hS
    rw [angle_unit hX.unit hS.1, hzero S hS, Real.arccos_zero]
  refine ⟨?_, fun S hS => ⟨hang S hS.onCircle, by rw [hang S hS.onCircle, hang B (onCircle_right hB.unit)]⟩⟩
  obtain ⟨p1, p2, p3⟩ := C146_pole A B C hp hX.unit hpole
  -- the foot is rejected
  have hrej : ∃ Q : V3 ℝ, closest_point_on_great_circle (A.fin, B.fin) C.fin = Q.fin ∧
      on_great_circle_path (A.fin, B.fin) Q.fin (fin ((len pA + len pB) / 2)) (fin (1e-8 : ℚ)) = false := by
    have hr2 : 0 < (len pA + len pB) / 2 := by linarith
    have far : ∀ s : ℝ, s ^ 2 = 1 → 1e-8 < |arcsin C.x| * ((len pA + len pB) / 2) →
        on_great_circle_path (A.fin, B.fin) (⟨s, 0, 0⟩ : V3 ℝ).fin (fin ((len pA + len pB) / 2)) (fin (1e-8 : ℚ)) = false := by
      intro s hs hf
      have hu : UnitVec (⟨s, 0, 0⟩ : V3 ℝ) := by unfold UnitVec; simp [hs]
      have hd : |arcsin (dot (dirOf (cross A B)) ⟨s, 0, 0⟩)| = |arcsin C.x| := by
        have : s = 1 ∨ s = -1 := sq_one hs
        rcases hn with h | h <;> rw [h] <;> rcases this with rfl | rfl <;> simp [dot, Real.arcsin_neg]
      unfold on_great_circle_path
      rw [on_great_circle_fin hp hu, abs_mul, hd, abs_of_pos hr2, decide_eq_false (by push_cast; norm_num at hf ⊢; exact hf), Bool.and_false]
    rcases hside with hf | ⟨h0, hshort⟩
    · have hne : C.x ≠ 0 := by
        intro h; rw [h, Real.arcsin_zero, abs_zero, zero_mul] at hf; norm_num at hf
      rcases lt_or_gt_of_ne hne with h | h
      · exact ⟨_, p2 h, far _ (by norm_num) hf⟩
      · exact ⟨_, p1 h, far _ (by norm_num) hf⟩
    · refine ⟨_, p3 h0, ?_⟩
      have hc : 1 / 2 < dot A B := by
        rw [← cos_angle_unit hA.unit hB.unit, ← Real.cos_pi_div_three]
        exact Real.cos_lt_cos_of_nonneg_of_le_pi (angle_nonneg A B) (by linarith [Real.pi_pos]) hshort
      have hs : len (B - A) < 1 := by
        have h1 := len_sub_sq hB.unit hA.unit
        rw [dot_comm B A] at h1
        nlinarith [len_nonneg (B - A)]
      have hs0 : 0 < len (B - A) := by
        apply len_pos
        intro h
        apply hp
        have hx := congrArg V3.x h; have hy := congrArg V3.y h; have hz := congrArg V3.z h
        simp at hx hy hz
        have : B = A := by ext <;> linarith
        rw [this, cross_self]
      have hl : len ((⟨0, 0, 0⟩ : V3 ℝ) - A) = 1 := by
        rw [show (⟨0, 0, 0⟩ : V3 ℝ) - A = (-1 : ℝ) • A by ext <;> simp, len_smul, hA.unit.len]; norm_num
      have hgt : ¬ (1 / len (B - A) ≤ 1) := by rw [div_le_one hs0]; linarith
      simp only [on_great_circle_path, xr, hl, XR.div_fin hs0.ne', Rat.cast_one, hgt, decide_false, Bool.false_and]
  obtain ⟨Q, hQ, hfalse⟩ := hrej
  have hd1 : great_circle_distance A.fin C.fin (fin ((len pA + len pB) / 2)) = _ := C18_eq_angle A C hA.unit.ne hX.unit.ne _
  have hd2 : great_circle_distance B.fin C.fin (fin ((len pA + len pB) / 2)) = _ := C18_eq_angle B C hB.unit.ne hX.unit.ne _
  unfold GeoPath.closest_point_on_path
  rw [closest_nvector_fin hA hB hX hQ]
  dsimp only
  rw [accept_fin hA hB, hfalse, hX.nv, normals_fin hA hB, average_radius_fin hA hB]
  simp only [Nvector.real, hd1, hd2, XR.lt_fin, decide_eq_true_eq, angle_comm A C, angle_comm B C, hang A (onCircle_left hA.unit),
    hang B (onCircle_right hB.unit), lt_irrefl, Bool.false_eq_true, if_false]
  exact at_to_geo hR hB
end
end Nv
