import Verif.Lemmas.Sphere
import Mathlib.Order.Bounds.Basic
import Mathlib.Analysis.SpecialFunctions.Trigonometric.Bounds

/-!
# C18 - C23: distances, cross track distance, closest point, membership of great circles and paths
-/

namespace Nv
open Spec Real
open XR (fin)

/-! ## C18 great circle distance -/

/-- **C18** the great circle distance is the radius times the angle between the n-vectors -/
theorem C18_eq_angle (A B : V3 ℝ) (hA : A ≠ 0) (hB : B ≠ 0) (r : ℝ) :
    great_circle_distance A.fin B.fin (fin r) = fin (angle A B * r) := by
  simp only [great_circle_distance, xr, atan2_cross_dot hA hB]

/-- **C18** `great_circle_distance` is a metric on positions (unit n-vectors), bounded by half the circumference -/
theorem C18_metric (r : ℝ) (hr : 0 < r) :
    ∃ d : V3 ℝ → V3 ℝ → ℝ,
      (∀ A B, UnitVec A → UnitVec B → great_circle_distance A.fin B.fin (fin r) = fin (d A B)) ∧
      (∀ A B, UnitVec A → UnitVec B → 0 ≤ d A B ∧ d A B ≤ π * r) ∧
      (∀ A B, UnitVec A → UnitVec B → d A B = d B A) ∧
      (∀ A B, UnitVec A → UnitVec B → (d A B = 0 ↔ A = B)) ∧
      (∀ A B C, UnitVec A → UnitVec B → UnitVec C → d A C ≤ d A B + d B C) := by
  refine ⟨fun A B => angle A B * r, fun A B hA hB => C18_eq_angle A B hA.ne hB.ne r, fun A B _ _ => ?_, fun A B _ _ => ?_,
    fun A B hA hB => ?_, fun A B C hA hB hC => ?_⟩
  · exact ⟨mul_nonneg (angle_nonneg A B) hr.le, mul_le_mul_of_nonneg_right (angle_le_pi A B) hr.le⟩
  · show angle A B * r = angle B A * r
    rw [angle_comm]
  · show angle A B * r = 0 ↔ _
    rw [← angle_eq_zero_iff hA hB, mul_eq_zero, or_iff_left hr.ne']
  · show angle A C * r ≤ angle A B * r + angle B C * r
    rw [← add_mul]; exact mul_le_mul_of_nonneg_right (angle_triangle hA hB hC) hr.le

/-- **C18** the largest distance is reached exactly by antipodes -/
theorem C18_max_iff_antipodal (A B : V3 ℝ) (hA : UnitVec A) (hB : UnitVec B) (r : ℝ) (hr : 0 < r) :
    great_circle_distance A.fin B.fin (fin r) = fin (π * r) ↔ B = -A := by
  rw [C18_eq_angle A B hA.ne hB.ne, XR.fin_inj]
  constructor
  · intro h
    have h := mul_right_cancel₀ hr.ne' h
    have hc := cos_angle_unit hA hB
    rw [h, Real.cos_pi] at hc
    exact eq_of_dot_eq_one hB hA.neg (by rw [dot_neg_right, dot_comm, ← hc]; norm_num)
  · rintro rfl
    rw [angle_unit hA hB, dot_neg_right, hA.dot, Real.arccos_neg_one]

/-! ## C19 Euclidean distance -/

/-- **C19** the Euclidean distance is the chord `2 r sin(θ/2)` of the great circle distance `r θ` -/
theorem C19_chord (A B : V3 ℝ) (hA : UnitVec A) (hB : UnitVec B) (r : ℝ) :
    ∃ θ, great_circle_distance A.fin B.fin (fin r) = fin (θ * r) ∧ 0 ≤ θ ∧ θ ≤ π ∧
      euclidean_distance A.fin B.fin (fin r) = fin (2 * r * sin (θ / 2)) := by
  refine ⟨angle A B, C18_eq_angle A B hA.ne hB.ne r, angle_nonneg A B, angle_le_pi A B, ?_⟩
  simp only [euclidean_distance, xr, len_sub_eq hA hB, XR.fin_inj]; ring

/-- **C19** the Euclidean distance is a metric (for all vectors) -/
theorem C19_metric (r : ℝ) (hr : 0 < r) :
    ∃ d : V3 ℝ → V3 ℝ → ℝ,
      (∀ A B, euclidean_distance A.fin B.fin (fin r) = fin (d A B)) ∧
      (∀ A B, 0 ≤ d A B) ∧ (∀ A B, d A B = d B A) ∧ (∀ A B, d A B = 0 ↔ A = B) ∧
      (∀ A B C, d A C ≤ d A B + d B C) := by
  refine ⟨fun A B => len (B - A) * r, fun A B => by simp only [euclidean_distance, xr], fun A B =>
    mul_nonneg (len_nonneg _) hr.le, fun A B => ?_, fun A B => ?_, fun A B C => ?_⟩
  · show len (B - A) * r = len (A - B) * r
    congr 1; unfold len; congr 1; simp; ring
  · show len (B - A) * r = 0 ↔ _
    rw [mul_eq_zero, or_iff_left hr.ne', len_eq_zero]
    constructor
    · intro h
      have hx := congrArg V3.x h; have hy := congrArg V3.y h; have hz := congrArg V3.z h
      simp at hx hy hz; ext <;> linarith
    · rintro rfl; ext <;> simp
  · show len (C - A) * r ≤ len (B - A) * r + len (C - B) * r
    rw [← add_mul]
    apply mul_le_mul_of_nonneg_right _ hr.le
    have : C - A = (B - A) + (C - B) := by ext <;> simp
    rw [this]; exact len_add_le _ _

/-- **C19** chord ≤ arc, and chord ≥ 2/π arc -/
theorem C19_compare (A B : V3 ℝ) (hA : UnitVec A) (hB : UnitVec B) (r : ℝ) (hr : 0 < r) :
    ∃ g e : ℝ, great_circle_distance A.fin B.fin (fin r) = fin g ∧ euclidean_distance A.fin B.fin (fin r) = fin e ∧
      e ≤ g ∧ 2 / π * g ≤ e := by
  obtain ⟨θ, h1, h2, h3, h4⟩ := C19_chord A B hA hB r
  refine ⟨_, _, h1, h4, ?_, ?_⟩
  · have := Real.sin_le (show 0 ≤ θ / 2 by linarith)
    nlinarith
  · have := Real.mul_le_sin (show 0 ≤ θ / 2 by linarith) (show θ / 2 ≤ π / 2 by linarith)
    calc 2 / π * (θ * r) = 2 * r * (2 / π * (θ / 2)) := by ring
      _ ≤ _ := by apply mul_le_mul_of_nonneg_left this; positivity

/-! ## C20 cross track distance -/

theorem great_circle_normal_fin {A B : V3 ℝ} (hp : ProperPath A B) :
    great_circle_normal A.fin B.fin = (dirOf (cross A B)).fin := by
  simp only [great_circle_normal, xr, unit_fin hp]

theorem neg_dot_range {c P : V3 ℝ} (hc : UnitVec c) (hP : UnitVec P) : -1 ≤ -dot c P ∧ -dot c P ≤ 1 := by
  constructor <;> linarith [dot_le_one hc hP, neg_one_le_dot hc hP]

theorem cross_track_fin {A B P : V3 ℝ} (hp : ProperPath A B) (hP : UnitVec P) (r : ℝ) :
    cross_track_distance (A.fin, B.fin) P.fin (radius := fin r) =
      .ok (fin (arcsin (-dot (dirOf (cross A B)) P) * r)) := by
  have h := neg_dot_range hp.dirOf_unit hP
  simp only [cross_track_distance, great_circle_normal_fin hp, xr, great_circle_cross_track_distance,
    XR.arcsin_fin h.1 h.2]
  rfl

/-- the first letter of the method decides -/
theorem cross_track_method (path : V3 XR × V3 XR) (P : V3 XR) (r : XR) (m : String) (c : Char) (cs : List Char)
    (hm : m.toList = c :: cs) :
    cross_track_distance path P m r = if c.toLower = 'e'
      then .ok (-(dot3 (great_circle_normal path.1 path.2) P) * r)
      else .ok (PyFloat.arcsin (-(dot3 (great_circle_normal path.1 path.2) P)) * r) := by
  unfold cross_track_distance; rw [hm]; rfl

/-- **C20** `|cross_track_distance|` is the least great circle distance from `P` to a position on the great circle -/
theorem C20_is_least_distance (A B P : V3 ℝ) (hp : ProperPath A B) (hP : UnitVec P) (r : ℝ) (hr : 0 < r) :
    ∃ x : ℝ, cross_track_distance (A.fin, B.fin) P.fin (radius := fin r) = .ok (fin x) ∧
      IsLeast {d | ∃ Q, OnCircle A B Q ∧ great_circle_distance P.fin Q.fin (fin r) = fin d} |x| := by
  refine ⟨_, cross_track_fin hp hP r, ?_⟩
  set c := dirOf (cross A B) with hc
  have hcu : UnitVec c := hp.dirOf_unit
  rw [abs_mul, abs_of_pos hr, Real.arcsin_neg, abs_neg]
  constructor
  · by_cases hne : cross P c = 0
    · -- any point of the circle will do
      have hA := cross_ne_zero_left hp
      refine ⟨dirOf A, ?_, ?_⟩
      · rw [onCircle_iff hp]; exact ⟨dirOf_unit hA, by rw [dot_dirOf_right, dot_cross_left_self, mul_zero]⟩
      · have hperp : dot c (dirOf A) = 0 := by
          rw [hc, dot_dirOf_right, dot_dirOf_left, dot_cross_left_self, mul_zero, mul_zero]
        have := pole_angle hcu hP hne (dirOf_unit hA) hperp
        rw [C18_eq_angle _ _ hP.ne (dirOf_unit hA).ne, this.1, this.2]
    · obtain ⟨h1, h2, h3, h4, h5, h6⟩ := foot hcu hP hne
      refine ⟨dirOf (cross c (cross P c)), ?_, ?_⟩
      · rw [onCircle_iff_normal hp]; exact ⟨dirOf_unit h1, h3⟩
      · rw [C18_eq_angle _ _ hP.ne (dirOf_unit h1).ne, h6]
  · rintro d ⟨Q, hQ, hd⟩
    rw [onCircle_iff_normal hp] at hQ
    rw [C18_eq_angle _ _ hP.ne hQ.1.ne, XR.fin_inj] at hd
    rw [← hd]
    exact mul_le_mul_of_nonneg_right (arcsin_le_angle hcu hP hQ.1 hQ.2) hr.le

/-- **C20** the cross track distance lies in `[-π/2 r, π/2 r]` and is zero exactly on the great circle -/
theorem C20_range_and_zero (A B P : V3 ℝ) (hp : ProperPath A B) (hP : UnitVec P) (r : ℝ) (hr : 0 < r) :
    ∃ x : ℝ, cross_track_distance (A.fin, B.fin) P.fin (radius := fin r) = .ok (fin x) ∧
      -(π / 2) * r ≤ x ∧ x ≤ π / 2 * r ∧ (x = 0 ↔ OnCircle A B P) := by
  refine ⟨_, cross_track_fin hp hP r, mul_le_mul_of_nonneg_right (Real.neg_pi_div_two_le_arcsin _) hr.le,
    mul_le_mul_of_nonneg_right (Real.arcsin_le_pi_div_two _) hr.le, ?_⟩
  rw [onCircle_iff_normal hp, mul_eq_zero, or_iff_left hr.ne', Real.arcsin_eq_zero_iff, neg_eq_zero]
  exact ⟨fun h => ⟨hP, h⟩, fun h => h.2⟩

/-- **C20** reversing the path changes the sign -/
theorem C20_reverse (A B P : V3 ℝ) (hp : ProperPath A B) (hP : UnitVec P) (r : ℝ) :
    ∃ x : ℝ, cross_track_distance (A.fin, B.fin) P.fin (radius := fin r) = .ok (fin x) ∧
      cross_track_distance (B.fin, A.fin) P.fin (radius := fin r) = .ok (fin (-x)) := by
  refine ⟨_, cross_track_fin hp hP r, ?_⟩
  rw [cross_track_fin hp.symm hP, cross_comm B A, dirOf_neg, dot_neg_left, neg_neg, Real.arcsin_neg, neg_mul, neg_neg]

/-- **C20** sign convention: positive to the right of the path, i.e. on the side away from `A × B` -/
theorem C20_sign (A B P : V3 ℝ) (hp : ProperPath A B) (hP : UnitVec P) (r : ℝ) (hr : 0 < r) :
    ∃ x : ℝ, cross_track_distance (A.fin, B.fin) P.fin (radius := fin r) = .ok (fin x) ∧
      (0 < x ↔ dot (cross A B) P < 0) := by
  refine ⟨_, cross_track_fin hp hP r, ?_⟩
  have hl := len_pos hp
  rw [mul_pos_iff_of_pos_right hr, Real.arcsin_pos, neg_pos, dot_dirOf_left]
  constructor
  · intro h; by_contra h'; push Not at h'; have := mul_nonneg (inv_nonneg.mpr hl.le) h'; linarith
  · intro h; exact mul_neg_of_pos_of_neg (inv_pos.mpr hl) h

/-- **C20** the Euclidean variant (any method starting with `e` or `E`) is `r sin` of the angle whose great circle
variant (any other nonempty method) is `r` times the angle; the empty method raises `IndexError`. -/
theorem C20_methods (A B P : V3 ℝ) (hp : ProperPath A B) (hP : UnitVec P) (r : ℝ) :
    ∃ θ : ℝ, -(π / 2) ≤ θ ∧ θ ≤ π / 2 ∧
      (∀ m c cs, String.toList m = c :: cs → Char.toLower c = 'e' →
        cross_track_distance (A.fin, B.fin) P.fin m (fin r) = .ok (fin (sin θ * r))) ∧
      (∀ m c cs, String.toList m = c :: cs → Char.toLower c ≠ 'e' →
        cross_track_distance (A.fin, B.fin) P.fin m (fin r) = .ok (fin (θ * r))) ∧
      cross_track_distance (A.fin, B.fin) P.fin "" (fin r) = .error .IndexError := by
  have h := neg_dot_range hp.dirOf_unit hP
  refine ⟨arcsin (-dot (dirOf (cross A B)) P), Real.neg_pi_div_two_le_arcsin _, Real.arcsin_le_pi_div_two _, ?_, ?_, rfl⟩
  · intro m c cs hm hc
    rw [cross_track_method _ _ _ m c cs hm, if_pos hc, Real.sin_arcsin h.1 h.2]
    simp only [great_circle_normal_fin hp, xr]
  · intro m c cs hm hc
    rw [cross_track_method _ _ _ m c cs hm, if_neg hc]
    simp only [great_circle_normal_fin hp, xr, XR.arcsin_fin h.1 h.2]

/-- **C20** a degenerate path (equal or antipodal endpoints) has cross track distance NaN -/
theorem C20_degenerate (A B P : V3 ℝ) (hp : ¬ ProperPath A B) (r : XR) :
    cross_track_distance (A.fin, B.fin) P.fin (radius := r) = .ok .nan := by
  have hz : cross A B = 0 := not_not.mp hp
  have : great_circle_normal A.fin B.fin = V3.nan := by
    rw [great_circle_normal, cross3_fin, hz, unit_zero_nan]
  simp only [cross_track_distance, this, xr, great_circle_cross_track_distance]
  rfl

/-! ## C21 closest point -/

/-- **C21** (part): when `P` is not a pole of the great circle, the result is a position on the great circle and no other
position on the great circle is nearer.  Missing: `P` a pole of the circle, where the claim is false
(`C21_pole_never_on_circle`). -/
theorem C21_closest_partial (A B P : V3 ℝ) (hp : ProperPath A B) (hP : UnitVec P)
    (hne : cross P (cross A B) ≠ 0) (r : ℝ) (hr : 0 < r) :
    ∃ C : V3 ℝ, closest_point_on_great_circle (A.fin, B.fin) P.fin = C.fin ∧ OnCircle A B C ∧
      ∃ d, great_circle_distance P.fin C.fin (fin r) = fin d ∧
        ∀ Q, OnCircle A B Q → ∃ d', great_circle_distance P.fin Q.fin (fin r) = fin d' ∧ d ≤ d' := by
  have hcu : UnitVec (dirOf (cross A B)) := hp.dirOf_unit
  have hl := len_pos hp
  have hne' : cross P (dirOf (cross A B)) ≠ 0 := by
    unfold dirOf; rw [cross_smul_right]; exact smul_ne_zero (inv_ne_zero hl.ne') hne
  obtain ⟨h1, h2, h3, h4, h5, h6⟩ := foot hcu hP hne'
  set c := dirOf (cross A B) with hc
  refine ⟨dirOf (cross c (cross P c)), ?_, ?_, _, C18_eq_angle _ _ hP.ne (dirOf_unit h1).ne r, ?_⟩
  · simp only [closest_point_on_great_circle, great_circle_normal_fin hp, xr, ← hc, unit_fin h1]
    rw [dot_comm, h4, XR.sign_pos h5]
    simp only [xr]
    congr 1; ext <;> simp
  · rw [onCircle_iff_normal hp]; exact ⟨dirOf_unit h1, h3⟩
  · intro Q hQ
    rw [onCircle_iff_normal hp] at hQ
    refine ⟨_, C18_eq_angle _ _ hP.ne hQ.1.ne r, ?_⟩
    rw [h6]
    exact mul_le_mul_of_nonneg_right (arcsin_le_angle hcu hP hQ.1 hQ.2) hr.le

/-- **C21** is false when `P` is a pole of the great circle: the result is then never a position on the great circle
(it is `±x-axis` off the circle, or the zero vector), and no NaN warns about it. -/
theorem C21_pole_never_on_circle (A B P : V3 ℝ) (hp : ProperPath A B) (hP : UnitVec P)
    (hpole : cross P (cross A B) = 0) :
    ∃ C : V3 ℝ, closest_point_on_great_circle (A.fin, B.fin) P.fin = C.fin ∧ ¬ OnCircle A B C := by
  have hz : cross P (dirOf (cross A B)) = 0 := by
    unfold dirOf; rw [cross_smul_right, hpole]; ext <;> simp
  have hz2 : cross (dirOf (cross A B)) (0 : V3 ℝ) = 0 := by ext <;> simp [cross]
  have e : closest_point_on_great_circle (A.fin, B.fin) P.fin =
      scale3 (⟨1, 0, 0⟩ : V3 ℝ).fin (PyFloat.sign (fin P.x)) := by
    simp only [closest_point_on_great_circle, great_circle_normal_fin hp, xr, hz, hz2, Rat.cast_one]
    congr 3; simp [dot]
  rw [e]
  have hcP : ∃ k : ℝ, cross A B = k • P := by
    refine ⟨dot P (cross A B), ?_⟩
    have h : cross P (cross P (cross A B)) = dot P (cross A B) • P - dot P P • cross A B := cross_cross' _ _ _
    rw [hpole, hP.dot] at h
    have hx := congrArg V3.x h; have hy := congrArg V3.y h; have hz := congrArg V3.z h
    generalize cross A B = w at *
    simp [cross] at hx hy hz
    ext <;> simp <;> linarith
  obtain ⟨k, hk⟩ := hcP
  have hk0 : k ≠ 0 := by rintro rfl; apply hp; rw [hk]; ext <;> simp
  rcases lt_trichotomy P.x 0 with h | h | h
  · rw [XR.sign_neg h, scale3_fin]
    refine ⟨_, rfl, ?_⟩
    rw [onCircle_iff hp, hk]
    rintro ⟨_, h2⟩; simp [dot] at h2; rcases h2 with h2 | h2
    · exact hk0 h2
    · linarith
  · rw [h, XR.sign_zero, scale3_fin]
    refine ⟨_, rfl, ?_⟩
    rintro ⟨hu, _⟩; simp [UnitVec] at hu
  · rw [XR.sign_pos h, scale3_fin]
    refine ⟨_, rfl, ?_⟩
    rw [onCircle_iff hp, hk]
    rintro ⟨_, h2⟩; simp [dot] at h2; rcases h2 with h2 | h2
    · exact hk0 h2
    · linarith

/-! ## C22 membership of the great circle -/

theorem on_great_circle_fin {A B P : V3 ℝ} (hp : ProperPath A B) (hP : UnitVec P) (r atol : ℝ) :
    on_great_circle (A.fin, B.fin) P.fin (fin r) (fin atol) =
      decide (|arcsin (dot (dirOf (cross A B)) P) * r| ≤ atol) := by
  simp only [on_great_circle, abs_cross_track, cross_track_fin hp hP, xr, Real.arcsin_neg, neg_mul, abs_neg]

/-- **C22** `on_great_circle` is true exactly when some position on the great circle is within `atol` of `P` -/
theorem C22_iff_within (A B P : V3 ℝ) (hp : ProperPath A B) (hP : UnitVec P) (r : ℝ) (hr : 0 < r) (atol : ℝ) :
    on_great_circle (A.fin, B.fin) P.fin (fin r) (fin atol) = true ↔
      ∃ Q d, OnCircle A B Q ∧ great_circle_distance P.fin Q.fin (fin r) = fin d ∧ d ≤ atol := by
  obtain ⟨x, hx, ⟨Q, hQ, hd⟩, hmin⟩ := C20_is_least_distance A B P hp hP r hr
  have e : on_great_circle (A.fin, B.fin) P.fin (fin r) (fin atol) = decide (|x| ≤ atol) := by
    simp only [on_great_circle, abs_cross_track, hx, xr]
  rw [e, decide_eq_true_eq]
  constructor
  · intro h; exact ⟨Q, |x|, hQ, hd, h⟩
  · rintro ⟨Q', d', hQ', hd', hle⟩; exact (hmin ⟨Q', hQ', hd'⟩).trans hle

/-- **C22** with zero tolerance: exactly when `P` is in the plane of the path -/
theorem C22_zero_tolerance (A B P : V3 ℝ) (hp : ProperPath A B) (hP : UnitVec P) (r : ℝ) (hr : 0 < r) :
    on_great_circle (A.fin, B.fin) P.fin (fin r) (fin 0) = true ↔ OnCircle A B P := by
  obtain ⟨x, hx, -, -, h0⟩ := C20_range_and_zero A B P hp hP r hr
  have e : on_great_circle (A.fin, B.fin) P.fin (fin r) (fin 0) = decide (|x| ≤ 0) := by
    simp only [on_great_circle, abs_cross_track, hx, xr]
  rw [e, decide_eq_true_eq, ← h0, abs_nonpos_iff]

/-- **C22** degenerate paths give `False` -/
theorem C22_degenerate (A B P : V3 ℝ) (hp : ¬ ProperPath A B) (r atol : XR) :
    on_great_circle (A.fin, B.fin) P.fin r atol = false := by
  simp only [on_great_circle, abs_cross_track, C20_degenerate A B P hp r, xr]

/-- **C22** enlarging the tolerance never turns `True` into `False` -/
theorem C22_monotone (A B P : V3 ℝ) (r : XR) (t t' : ℝ) (ht : t ≤ t')
    (h : on_great_circle (A.fin, B.fin) P.fin r (fin t) = true) :
    on_great_circle (A.fin, B.fin) P.fin r (fin t') = true := by
  unfold on_great_circle at *
  revert h
  cases abs_cross_track (A.fin, B.fin) P.fin r with
  | nan => intro h; exact h
  | ninf => intro h; rfl
  | pinf => intro h; exact h
  | fin x => simp only [xr, decide_eq_true_eq]; intro h; exact h.trans ht

/-! ## C23 membership of the path -/

theorem on_great_circle_path_fin {A B P : V3 ℝ} (hA : UnitVec A) (hB : UnitVec B) (hp : ProperPath A B) (hP : UnitVec P)
    (r atol : ℝ) :
    on_great_circle_path (A.fin, B.fin) P.fin (fin r) (fin atol) = true ↔
      dot A B ≤ dot P A ∧ dot A B ≤ dot P B ∧ on_great_circle (A.fin, B.fin) P.fin (fin r) (fin atol) = true := by
  have hs : 0 < len (B - A) := by
    apply len_pos
    intro h
    apply hp
    have hx := congrArg V3.x h; have hy := congrArg V3.y h; have hz := congrArg V3.z h
    simp at hx hy hz
    have : B = A := by ext <;> linarith
    rw [this, cross_self]
  have key : ∀ Q, UnitVec Q → (len (P - Q) / len (B - A) ≤ 1 ↔ dot A B ≤ dot P Q) := by
    intro Q hQ
    rw [div_le_one hs, ← pow_le_pow_iff_left₀ (len_nonneg _) hs.le two_ne_zero, len_sub_sq hP hQ, len_sub_sq hB hA,
      dot_comm B A]
    constructor <;> intro h <;> linarith
  simp only [on_great_circle_path, xr, XR.div_fin hs.ne', Bool.and_eq_true, decide_eq_true_eq, Rat.cast_one, key A hA,
    key B hB, and_assoc]

/-- coordinates of a point of the plane -/
theorem arc_coeff {A B P : V3 ℝ} (hA : UnitVec A) (hB : UnitVec B) {s t : ℝ} (e : P = s • A + t • B) :
    dot P A = s + t * dot A B ∧ dot P B = s * dot A B + t := by
  rw [e, dot_add_left, dot_add_left, dot_smul_left, dot_smul_left, dot_smul_left, dot_smul_left, hA.dot, hB.dot,
    dot_comm B A]
  constructor <;> ring

/-- the key inequality: one coefficient cannot be negative when the path is shorter than 120 degrees -/
theorem coeff_nonneg {x y c s t : ℝ} (hx : x = s + t * c) (hy : y = s * c + t) (hxc : c ≤ x) (hyc : c ≤ y)
    (hc : -1 / 2 < c) (hc1 : c < 1) (hn : s * x + t * y = 1) : 0 ≤ t := by
  by_contra ht
  push Not at ht
  have h1 : t * (1 - c ^ 2) = y - c * x := by rw [hx, hy]; ring
  have hpos : 0 < 1 - c ^ 2 := by nlinarith
  have h2 : y - c * x < 0 := by rw [← h1]; exact mul_neg_of_neg_of_pos ht hpos
  -- (y - c x)² = (1-c²)(1-x²)
  have h3 : (y - c * x) ^ 2 = (1 - c ^ 2) * (1 - x ^ 2) := by
    have : (s * x + t * y) * (1 - c ^ 2) = (1 - c ^ 2) := by rw [hn]; ring
    have hs : s * (1 - c ^ 2) = x - c * y := by rw [hx, hy]; ring
    have e : (x - c * y) * x + (y - c * x) * y = 1 - c ^ 2 := by rw [← hs, ← h1]; linarith
    linear_combination e
  have hx1 : x ^ 2 < 1 := by
    have : 0 < (y - c * x) ^ 2 := by nlinarith
    rw [h3] at this
    have := pos_of_mul_pos_of_pos_left this hpos.le
    linarith
  have hxlt : x < 1 := by nlinarith
  have h4 : c * (1 - x) ≤ y - c * x := by linarith
  have hcneg : c < 0 := by
    by_contra h; push Not at h; have : 0 ≤ c * (1 - x) := mul_nonneg h (by linarith); linarith
  have h5 : (y - c * x) ^ 2 ≤ c ^ 2 * (1 - x) ^ 2 := by nlinarith
  rw [h3] at h5
  have h6 : (1 - c ^ 2) * (1 + x) ≤ c ^ 2 * (1 - x) := by
    have : (1 - x) * ((1 - c ^ 2) * (1 + x)) ≤ (1 - x) * (c ^ 2 * (1 - x)) := by nlinarith
    exact le_of_mul_le_mul_left this (by linarith)
  nlinarith
where
  pos_of_mul_pos_of_pos_left {a b : ℝ} (h : 0 < a * b) (ha : 0 ≤ a) : 0 < b := by
    by_contra hb; push Not at hb; have := mul_nonpos_of_nonneg_of_nonpos ha hb; linarith

theorem ProperPath.dot_lt_one {A B : V3 ℝ} (hA : UnitVec A) (hB : UnitVec B) (hp : ProperPath A B) :
    dot A B ^ 2 < 1 := by
  have := lagrange A B
  rw [hA.len, hB.len] at this
  have hl := len_pos hp
  nlinarith

/-- **C23** (part): for paths shorter than 120 degrees `on_great_circle_path` with zero tolerance is true exactly on the
shorter arc between the endpoints.  Missing: longer paths, for which the claim is false
(`C23_long_path_counterexample`). -/
theorem C23_on_path_partial (A B P : V3 ℝ) (hA : UnitVec A) (hB : UnitVec B) (hp : ProperPath A B) (hP : UnitVec P)
    (hshort : angle A B < 2 * π / 3) (r : ℝ) (hr : 0 < r) :
    on_great_circle_path (A.fin, B.fin) P.fin (fin r) (fin 0) = true ↔ OnArc A B P := by
  rw [on_great_circle_path_fin hA hB hp hP, C22_zero_tolerance A B P hp hP r hr]
  have hc2 := ProperPath.dot_lt_one hA hB hp
  have hc1 : dot A B < 1 := by nlinarith
  have hcm : -1 < dot A B := by nlinarith
  have hhalf : -1 / 2 < dot A B := by
    rw [← cos_angle_unit hA hB]
    have : cos (2 * π / 3) = -1 / 2 := by
      rw [show 2 * π / 3 = π - π / 3 by ring, Real.cos_pi_sub, Real.cos_pi_div_three]; norm_num
    rw [← this]
    exact Real.cos_lt_cos_of_nonneg_of_le_pi (angle_nonneg A B) (by linarith [Real.pi_pos]) hshort
  constructor
  · rintro ⟨h1, h2, -, s, t, e⟩
    obtain ⟨ha, hb⟩ := arc_coeff hA hB e
    have hn : s * dot P A + t * dot P B = 1 := by
      rw [← hP.dot]; conv_rhs => rw [e, dot_add_left, dot_smul_left, dot_smul_left, ← e]
      rw [dot_comm P A, dot_comm P B]
    refine ⟨hP, s, t, ?_, ?_, e⟩
    · exact coeff_nonneg (s := t) (t := s) (x := dot P B) (y := dot P A) (by rw [hb]; ring) (by rw [ha]; ring) h2 h1 hhalf hc1
        (by linarith)
    · exact coeff_nonneg (s := s) (t := t) ha hb h1 h2 hhalf hc1 hn
  · rintro ⟨-, s, t, hs, ht, e⟩
    obtain ⟨ha, hb⟩ := arc_coeff hA hB e
    have hn : s * dot P A + t * dot P B = 1 := by
      rw [← hP.dot]; conv_rhs => rw [e, dot_add_left, dot_smul_left, dot_smul_left, ← e]
      rw [dot_comm P A, dot_comm P B]
    have h1 := dot_le_one hP hA; have h2 := dot_le_one hP hB
    rw [ha, hb] at hn
    -- s² + t² + 2 s t c = 1
    have hq : s ^ 2 + t ^ 2 + 2 * s * t * dot A B = 1 := by linear_combination hn
    refine ⟨?_, ?_, hP, s, t, e⟩
    · rw [ha]; exact arc_aux hs ht hq hcm hc1
    · rw [hb]; rw [show s * dot A B + t = t + s * dot A B by ring]
      exact arc_aux ht hs (by linarith) hcm hc1
where
  /-- `s ≥ 0`, `t ≥ 0` on the unit circle: `s + t c ≥ c` -/
  arc_aux {s t c : ℝ} (hs : 0 ≤ s) (ht : 0 ≤ t) (hq : s ^ 2 + t ^ 2 + 2 * s * t * c = 1) (hcm : -1 < c) (hc1 : c < 1) :
      c ≤ s + t * c := by
    by_cases hc : 0 ≤ c
    · -- (s+t)² ≥ 1 so s + t ≥ 1
      have h1 : 1 ≤ s + t := by
        by_contra h; push Not at h
        have : (s + t) ^ 2 < 1 := by nlinarith [add_nonneg hs ht]
        nlinarith [mul_nonneg (mul_nonneg hs ht) (sub_nonneg.mpr hc1.le)]
      nlinarith
    · push Not at hc
      -- suppose s + t c < c, i.e. s < c (1 - t), so t > 1; (s + t c)² = 1 - t²(1-c²)
      by_contra h
      push Not at h
      have e1 : (s + t * c) ^ 2 = 1 - t ^ 2 * (1 - c ^ 2) := by linear_combination hq
      have ht1 : 1 < t := by nlinarith
      have e2 : c ^ 2 < (s + t * c) ^ 2 := by nlinarith
      rw [e1] at e2
      nlinarith [mul_pos (show (0:ℝ) < 1 - c ^ 2 by nlinarith) (show (0:ℝ) < t ^ 2 - 1 by nlinarith)]

/-- **C23** is false for every path of at least 120 (and less than 180) degrees: the antipode of the path's midpoint is
not on the path, but the function says it is. -/
theorem C23_long_path_counterexample (A B : V3 ℝ) (hA : UnitVec A) (hB : UnitVec B) (hp : ProperPath A B)
    (hlong : 2 * π / 3 ≤ angle A B) (r : ℝ) (hr : 0 < r) :
    ∃ P : V3 ℝ, UnitVec P ∧ ¬ OnArc A B P ∧
      on_great_circle_path (A.fin, B.fin) P.fin (fin r) (fin 0) = true := by
  have hc2 := ProperPath.dot_lt_one hA hB hp
  have hc1 : dot A B < 1 := by nlinarith
  have hcm : -1 < dot A B := by nlinarith
  have hhalf : dot A B ≤ -1 / 2 := by
    rw [← cos_angle_unit hA hB]
    have : cos (2 * π / 3) = -1 / 2 := by
      rw [show 2 * π / 3 = π - π / 3 by ring, Real.cos_pi_sub, Real.cos_pi_div_three]; norm_num
    rw [← this]
    exact Real.cos_le_cos_of_nonneg_of_le_pi (by linarith [Real.pi_pos]) (angle_le_pi A B) hlong
  have hl2 : len (A + B) ^ 2 = 2 + 2 * dot A B := by
    rw [← dot_self, dot_add_left, dot_add_right, dot_add_right, hA.dot, hB.dot, dot_comm B A]; ring
  have hlp : 0 < len (A + B) := by
    rcases (len_nonneg (A + B)).lt_or_eq with h | h
    · exact h
    · rw [← h] at hl2; nlinarith
  have hu : UnitVec (dirOf (A + B)) := dirOf_unit (by intro h; rw [h, len_eq_zero.mpr rfl] at hlp; exact lt_irrefl _ hlp)
  set k := (len (A + B))⁻¹ with hk
  have hkp : 0 < k := inv_pos.mpr hlp
  have hk2 : k ^ 2 * (2 + 2 * dot A B) = 1 := by
    rw [← hl2, hk, inv_pow, inv_mul_cancel₀ (by positivity)]
  have e : -dirOf (A + B) = (-k) • A + (-k) • B := by
    unfold dirOf; rw [← hk]; ext <;> simp <;> ring
  refine ⟨-dirOf (A + B), hu.neg, ?_, ?_⟩
  · rintro ⟨-, s, t, hs, ht, e'⟩
    rw [e] at e'
    have h1 := arc_coeff hA hB e'
    have h2 := arc_coeff hA hB (rfl : (-k) • A + (-k) • B = (-k) • A + (-k) • B)
    rw [h2.1, h2.2] at h1
    have hsum : (s + t + 2 * k) * (1 + dot A B) = 0 := by linear_combination -h1.1 - h1.2
    rcases mul_eq_zero.mp hsum with h | h <;> linarith
  · rw [on_great_circle_path_fin hA hB hp hu.neg, C22_zero_tolerance A B _ hp hu.neg r hr]
    have h2 := arc_coeff hA hB e
    rw [h2.1, h2.2]
    have hke : k * (1 + dot A B) ≤ -dot A B := by
      apply abs_le_of_sq_le_sq' _ (by linarith) |>.2
      have : (k * (1 + dot A B)) ^ 2 = (1 + dot A B) / 2 := by
        linear_combination (1 + dot A B) / 2 * hk2
      rw [this]; nlinarith
    refine ⟨by linarith, by linarith, hu.neg, -k, -k, e⟩

/-- **C23** for any tolerance: `True` implies that `P` is within tolerance of the great circle and that neither endpoint
is farther from `P` than the other endpoint; the end points themselves are always on the path. -/
theorem C23_endpoints (A B : V3 ℝ) (hA : UnitVec A) (hB : UnitVec B) (hp : ProperPath A B) (r : ℝ) (hr : 0 < r) (t : ℝ)
    (ht : 0 ≤ t) :
    on_great_circle_path (A.fin, B.fin) A.fin (fin r) (fin t) = true ∧
    on_great_circle_path (A.fin, B.fin) B.fin (fin r) (fin t) = true := by
  have hc1 := dot_le_one hA hB
  constructor
  · rw [on_great_circle_path_fin hA hB hp hA]
    refine ⟨by rw [hA.dot]; exact hc1, le_rfl, C22_monotone _ _ _ _ 0 t ht ?_⟩
    exact (C22_zero_tolerance A B A hp hA r hr).mpr (onCircle_left hA)
  · rw [on_great_circle_path_fin hA hB hp hB]
    refine ⟨by rw [dot_comm], by rw [hB.dot]; exact hc1, C22_monotone _ _ _ _ 0 t ht ?_⟩
    exact (C22_zero_tolerance A B B hp hB r hr).mpr (onCircle_right hB)

/-- **C23** general tolerance, sound direction: a point reported on the path is within `atol` of the great circle and
no farther from either endpoint than the endpoints are from each other. -/
theorem C23_sound (A B P : V3 ℝ) (hA : UnitVec A) (hB : UnitVec B) (hp : ProperPath A B) (hP : UnitVec P) (r : ℝ)
    (hr : 0 < r) (atol : ℝ) (h : on_great_circle_path (A.fin, B.fin) P.fin (fin r) (fin atol) = true) :
    angle P A ≤ angle A B ∧ angle P B ≤ angle A B ∧
      ∃ Q, OnCircle A B Q ∧ angle P Q * r ≤ atol := by
  rw [on_great_circle_path_fin hA hB hp hP, C22_iff_within A B P hp hP r hr] at h
  obtain ⟨h1, h2, Q, d, hQ, hd, hle⟩ := h
  rw [C18_eq_angle _ _ hP.ne hQ.1.ne, XR.fin_inj] at hd
  rw [angle_unit hP hA, angle_unit hP hB, angle_unit hA hB]
  exact ⟨Real.arccos_le_arccos h1, Real.arccos_le_arccos h2, Q, hQ, by rw [hd]; exact hle⟩

/-! ## non-vacuity -/
theorem Spec.xy_proper : ProperPath ⟨1, 0, 0⟩ ⟨0, 1, 0⟩ := by
  intro h; have := congrArg V3.z h; simp [cross] at this
/-- a right-angled path, a point off it, its pole -/
example : UnitVec ⟨1, 0, 0⟩ ∧ UnitVec ⟨0, 1, 0⟩ ∧ ProperPath ⟨1, 0, 0⟩ ⟨0, 1, 0⟩ ∧ UnitVec ⟨0, 3 / 5, 4 / 5⟩ ∧
    cross (⟨0, 3 / 5, 4 / 5⟩ : V3 ℝ) (cross ⟨1, 0, 0⟩ ⟨0, 1, 0⟩) ≠ 0 ∧
    cross (⟨0, 0, 1⟩ : V3 ℝ) (cross ⟨1, 0, 0⟩ ⟨0, 1, 0⟩) = 0 ∧ angle ⟨1, 0, 0⟩ ⟨0, 1, 0⟩ < 2 * π / 3 := by
  refine ⟨by simp [UnitVec], by simp [UnitVec], xy_proper, by norm_num [UnitVec], ?_, ?_, ?_⟩
  · intro h; have := congrArg V3.x h; simp [cross] at this
  · ext <;> simp [cross]
  · rw [angle_unit (by simp [UnitVec]) (by simp [UnitVec])]
    simp [dot]; linarith [Real.pi_pos]
/-- a path of more than 120 degrees -/
example : UnitVec ⟨-4 / 5, 3 / 5, 0⟩ ∧ ProperPath ⟨1, 0, 0⟩ ⟨-4 / 5, 3 / 5, 0⟩ ∧
    2 * π / 3 ≤ angle ⟨1, 0, 0⟩ ⟨-4 / 5, 3 / 5, 0⟩ := by
  have hu : UnitVec ⟨-4 / 5, 3 / 5, 0⟩ := by norm_num [UnitVec]
  have hx : UnitVec ⟨1, 0, 0⟩ := by simp [UnitVec]
  refine ⟨hu, ?_, ?_⟩
  · intro h; have := congrArg V3.z h; norm_num [cross] at this
  · have hcos := cos_angle_unit hx hu
    by_contra h
    push Not at h
    have h2 : cos (2 * π / 3) = -1 / 2 := by
      rw [show 2 * π / 3 = π - π / 3 by ring, Real.cos_pi_sub, Real.cos_pi_div_three]; norm_num
    have := Real.cos_lt_cos_of_nonneg_of_le_pi (angle_nonneg ⟨1, 0, 0⟩ ⟨-4 / 5, 3 / 5, 0⟩) (by linarith [Real.pi_pos]) h
    rw [hcos, h2] at this
    norm_num [dot] at this

end Nv
