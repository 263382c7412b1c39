import Verif.Lemmas.Rot
import Verif.Spec.Sphere

/-!
# Spherical geometry over the reals
-/

namespace Nv.Spec
open Real

theorem cross_ne_zero_left {A B : V3 ℝ} (h : cross A B ≠ 0) : A ≠ 0 := by
  rintro rfl; apply h; ext <;> simp [cross]
theorem cross_ne_zero_right {A B : V3 ℝ} (h : cross A B ≠ 0) : B ≠ 0 := by
  rintro rfl; apply h; ext <;> simp [cross]

theorem UnitVec.neg {v : V3 ℝ} (h : UnitVec v) : UnitVec (-v) := by
  unfold UnitVec at *; simpa using h

theorem angle_comm (v w : V3 ℝ) : angle v w = angle w v := by
  unfold angle; rw [dot_comm, mul_comm]

theorem angle_self {v : V3 ℝ} (h : v ≠ 0) : angle v v = 0 := by
  unfold angle
  have := len_pos h
  rw [dot_self, pow_two, div_self (by positivity), Real.arccos_one]

/-- unit vectors: `|a - b|² = 2 - 2 a·b` -/
theorem len_sub_sq {a b : V3 ℝ} (ha : UnitVec a) (hb : UnitVec b) : len (a - b) ^ 2 = 2 - 2 * dot a b := by
  unfold UnitVec at ha hb
  rw [len_sq]; simp only [sub_x, sub_y, sub_z, dot]
  linear_combination ha + hb

theorem eq_of_dot_eq_one {a b : V3 ℝ} (ha : UnitVec a) (hb : UnitVec b) (h : dot a b = 1) : a = b := by
  have := len_sub_sq ha hb
  rw [h] at this
  have h0 : len (a - b) = 0 := by
    apply pow_eq_zero_iff two_ne_zero |>.mp; rw [this]; norm_num
  have := len_eq_zero.mp h0
  have hx := congrArg V3.x this; have hy := congrArg V3.y this; have hz := congrArg V3.z this
  simp at hx hy hz
  ext <;> linarith

theorem dot_le_one {a b : V3 ℝ} (ha : UnitVec a) (hb : UnitVec b) : dot a b ≤ 1 := by
  have := abs_le.mp (abs_dot_le a b); rw [ha.len, hb.len] at this; linarith [this.2]
theorem neg_one_le_dot {a b : V3 ℝ} (ha : UnitVec a) (hb : UnitVec b) : -1 ≤ dot a b := by
  have := abs_le.mp (abs_dot_le a b); rw [ha.len, hb.len] at this; linarith [this.1]

theorem angle_eq_zero_iff {a b : V3 ℝ} (ha : UnitVec a) (hb : UnitVec b) : angle a b = 0 ↔ a = b := by
  constructor
  · intro h
    have hc := cos_angle_unit ha hb
    rw [h, Real.cos_zero] at hc
    exact eq_of_dot_eq_one ha hb hc.symm
  · rintro rfl; exact angle_self ha.ne

/-- the spherical triangle inequality -/
theorem angle_triangle {a b c : V3 ℝ} (ha : UnitVec a) (hb : UnitVec b) (hc : UnitVec c) :
    angle a c ≤ angle a b + angle b c := by
  by_cases hp : π ≤ angle a b + angle b c
  · exact (angle_le_pi a c).trans hp
  push Not at hp
  have key : cos (angle a b + angle b c) ≤ cos (angle a c) := by
    rw [Real.cos_add, cos_angle_unit ha hb, cos_angle_unit hb hc, cos_angle_unit ha hc, sin_angle_unit ha hb,
      sin_angle_unit hb hc]
    have h1 : dot (cross a b) (cross b c) = dot a b * dot b c - dot a c * dot b b := by
      simp [dot, cross]; ring
    have h2 := (abs_le.mp (abs_dot_le (cross a b) (cross b c))).2
    rw [h1, hb.dot] at h2
    linarith
  by_contra hlt
  push Not at hlt
  have := Real.strictAntiOn_cos ⟨add_nonneg (angle_nonneg a b) (angle_nonneg b c), hp.le⟩
    ⟨angle_nonneg a c, angle_le_pi a c⟩ hlt
  linarith

/-- chord and angle -/
theorem len_sub_eq {a b : V3 ℝ} (ha : UnitVec a) (hb : UnitVec b) : len (b - a) = 2 * sin (angle a b / 2) := by
  have h0 : 0 ≤ sin (angle a b / 2) := Real.sin_nonneg_of_nonneg_of_le_pi
    (by linarith [angle_nonneg a b]) (by linarith [angle_le_pi a b, angle_nonneg a b])
  have h1 := len_sub_sq hb ha
  have hc := cos_angle_unit ha hb
  have h2 : cos (angle a b) = 1 - 2 * sin (angle a b / 2) ^ 2 := by
    have := Real.cos_two_mul (angle a b / 2)
    rw [show 2 * (angle a b / 2) = angle a b by ring] at this
    rw [this]; linarith [Real.sin_sq_add_cos_sq (angle a b / 2)]
  apply (sq_eq_sq₀ (len_nonneg _) (by linarith)).mp
  rw [h1, dot_comm, ← hc, h2]; ring

theorem len_add_le (v w : V3 ℝ) : len (v + w) ≤ len v + len w := by
  apply le_of_sq_le_sq _ (add_nonneg (len_nonneg v) (len_nonneg w))
  have h := (abs_le.mp (abs_dot_le v w)).2
  have : len (v + w) ^ 2 = len v ^ 2 + len w ^ 2 + 2 * dot v w := by
    rw [len_sq, len_sq, len_sq]; simp [dot]; ring
  rw [this]; nlinarith
where
  le_of_sq_le_sq {x y : ℝ} (h : x ^ 2 ≤ y ^ 2) (hy : 0 ≤ y) : x ≤ y := abs_le_of_sq_le_sq' h hy |>.2

/-- membership of the plane through `A`, `B` -/
theorem onCircle_iff {A B Q : V3 ℝ} (hp : ProperPath A B) : OnCircle A B Q ↔ UnitVec Q ∧ dot (cross A B) Q = 0 := by
  constructor
  · rintro ⟨hQ, s, t, rfl⟩
    refine ⟨hQ, ?_⟩
    rw [dot_add_right, dot_smul_right, dot_smul_right, dot_cross_left_self, dot_cross_right_self]; ring
  · rintro ⟨hQ, h⟩
    refine ⟨hQ, ?_⟩
    have hl : 0 < len (cross A B) := len_pos hp
    set c := cross A B with hc
    -- |c|² Q = ((Q × B)·c) A + ((A × Q)·c) B + (c·Q) c
    refine ⟨dot (cross Q B) c / len c ^ 2, dot (cross A Q) c / len c ^ 2, ?_⟩
    have hl2 : len c ^ 2 ≠ 0 := by positivity
    have key : len c ^ 2 • Q = dot (cross Q B) c • A + dot (cross A Q) c • B + dot c Q • c := by
      rw [← dot_self, hc]; ext <;> simp [dot, cross] <;> ring
    rw [h] at key
    have kx := congrArg V3.x key; have ky := congrArg V3.y key; have kz := congrArg V3.z key
    simp only [smul_x, smul_y, smul_z, add_x, add_y, add_z, zero_mul, add_zero] at kx ky kz
    ext <;> simp only [smul_x, smul_y, smul_z, add_x, add_y, add_z] <;> field_simp <;> linarith

theorem ProperPath.symm {A B : V3 ℝ} (h : ProperPath A B) : ProperPath B A := by
  unfold ProperPath at *
  intro h'; apply h; rw [cross_comm, h']; ext <;> simp

theorem OnArc.onCircle {A B Q : V3 ℝ} (h : OnArc A B Q) : OnCircle A B Q := by
  obtain ⟨h, s, t, _, _, e⟩ := h; exact ⟨h, s, t, e⟩

theorem onCircle_left {A B : V3 ℝ} (hA : UnitVec A) : OnCircle A B A := ⟨hA, 1, 0, by ext <;> simp⟩
theorem onCircle_right {A B : V3 ℝ} (hB : UnitVec B) : OnCircle A B B := ⟨hB, 0, 1, by ext <;> simp⟩

/-- unit normal of the great circle -/
theorem dot_dirOf_right (v w : V3 ℝ) : dot v (dirOf w) = (len w)⁻¹ * dot v w := by unfold dirOf; rw [dot_smul_right]
theorem dot_dirOf_left (v w : V3 ℝ) : dot (dirOf v) w = (len v)⁻¹ * dot v w := by unfold dirOf; rw [dot_smul_left]

theorem dirOf_neg (v : V3 ℝ) : dirOf (-v) = -dirOf v := by
  unfold dirOf
  have : len (-v) = len v := by unfold len; simp
  rw [this]; ext <;> simp

theorem ProperPath.dirOf_unit {A B : V3 ℝ} (h : ProperPath A B) : UnitVec (dirOf (cross A B)) := Spec.dirOf_unit h

theorem dot_normal_eq_zero {A B Q : V3 ℝ} (hp : ProperPath A B) :
    dot (dirOf (cross A B)) Q = 0 ↔ dot (cross A B) Q = 0 := by
  rw [dot_dirOf_left]
  have := len_pos hp
  constructor
  · intro h; exact (mul_eq_zero.mp h).resolve_left (inv_ne_zero this.ne')
  · intro h; rw [h, mul_zero]

theorem onCircle_iff_normal {A B Q : V3 ℝ} (hp : ProperPath A B) :
    OnCircle A B Q ↔ UnitVec Q ∧ dot (dirOf (cross A B)) Q = 0 := by
  rw [onCircle_iff hp, dot_normal_eq_zero hp]

/-- For a unit normal `c`, a unit `P` and a unit `Q ⟂ c`: `P·Q ≤ √(1-(c·P)²)` -/
theorem dot_le_of_perp {c P Q : V3 ℝ} (hc : UnitVec c) (hP : UnitVec P) (hQ : UnitVec Q) (h : dot c Q = 0) :
    dot P Q ^ 2 ≤ 1 - dot c P ^ 2 := by
  -- Q·P = Q·(P - (c·P)c), |P-(c·P)c|² = 1-(c·P)²
  have e : dot (P - dot c P • c) Q = dot P Q := by rw [dot_sub_left, dot_smul_left, h]; ring
  have l : len (P - dot c P • c) ^ 2 = 1 - dot c P ^ 2 := by
    rw [← dot_self, dot_sub_left, dot_sub_right, dot_sub_right, dot_smul_left, dot_smul_left, dot_smul_right,
      dot_smul_right, hP.dot, hc.dot, dot_comm P c]; ring
  have := abs_dot_le (P - dot c P • c) Q
  rw [e, hQ.len, mul_one] at this
  rw [← l, ← sq_abs]; exact pow_le_pow_left₀ (abs_nonneg _) this 2

theorem cos_arcsin_abs (x : ℝ) : cos |arcsin x| = √(1 - x ^ 2) := by
  rw [Real.cos_abs, Real.cos_arcsin]

/-- lower bound: every point of the great circle is at least `|arcsin (c·P)|` away from `P` -/
theorem arcsin_le_angle {c P Q : V3 ℝ} (hc : UnitVec c) (hP : UnitVec P) (hQ : UnitVec Q) (h : dot c Q = 0) :
    |arcsin (dot c P)| ≤ angle P Q := by
  have h1 := dot_le_of_perp hc hP hQ h
  have h2 : cos (angle P Q) ≤ cos |arcsin (dot c P)| := by
    rw [cos_angle_unit hP hQ, cos_arcsin_abs]
    exact Real.le_sqrt_of_sq_le h1
  by_contra hlt
  push Not at hlt
  have hb : |arcsin (dot c P)| ≤ π := by
    have := abs_le.mpr ⟨Real.neg_pi_div_two_le_arcsin (dot c P), Real.arcsin_le_pi_div_two (dot c P)⟩
    linarith [Real.pi_pos]
  have := Real.strictAntiOn_cos ⟨angle_nonneg P Q, angle_le_pi P Q⟩ ⟨abs_nonneg _, hb⟩ hlt
  linarith

/-- the foot of the perpendicular, when `P` is not a pole of the circle -/
theorem foot {c P : V3 ℝ} (hc : UnitVec c) (hP : UnitVec P) (hne : cross P c ≠ 0) :
    cross c (cross P c) ≠ 0 ∧ cross c (cross P c) = P - dot c P • c ∧ dot c (dirOf (cross c (cross P c))) = 0 ∧
      dot P (dirOf (cross c (cross P c))) = √(1 - dot c P ^ 2) ∧ 0 < √(1 - dot c P ^ 2) ∧
      angle P (dirOf (cross c (cross P c))) = |arcsin (dot c P)| := by
  have e : cross c (cross P c) = P - dot c P • c := by
    rw [cross_cross', hc.dot]; ext <;> simp
  have l : len (cross c (cross P c)) ^ 2 = 1 - dot c P ^ 2 := by
    rw [e, ← dot_self, dot_sub_left, dot_sub_right, dot_sub_right, dot_smul_left, dot_smul_left, dot_smul_right,
      dot_smul_right, hP.dot, hc.dot, dot_comm P c]; ring
  have l2 : len (cross P c) ^ 2 = 1 - dot c P ^ 2 := by
    rw [lagrange, hP.len, hc.len, dot_comm]; ring
  have hpos : 0 < 1 - dot c P ^ 2 := by rw [← l2]; have := len_pos hne; positivity
  have hne' : cross c (cross P c) ≠ 0 := by
    intro h; rw [h, len_eq_zero.mpr rfl] at l; linarith
  have hlen : len (cross c (cross P c)) = √(1 - dot c P ^ 2) := by
    rw [← l, Real.sqrt_sq (len_nonneg _)]
  have hd : dot P (dirOf (cross c (cross P c))) = √(1 - dot c P ^ 2) := by
    rw [dot_dirOf_right]
    have : dot P (cross c (cross P c)) = len (cross c (cross P c)) ^ 2 := by
      rw [l, e, dot_sub_right, dot_smul_right, hP.dot, dot_comm P c]; ring
    rw [this, ← hlen]
    have := len_pos hne'
    field_simp
  have hperp : dot c (dirOf (cross c (cross P c))) = 0 := by
    rw [dot_dirOf_right, dot_cross_self_left, mul_zero]
  refine ⟨hne', e, hperp, hd, Real.sqrt_pos.mpr hpos, ?_⟩
  have hu := dirOf_unit hne'
  rw [angle_unit hP hu, hd, ← cos_arcsin_abs, Real.arccos_cos (abs_nonneg _)]
  have := abs_le.mpr ⟨Real.neg_pi_div_two_le_arcsin (dot c P), Real.arcsin_le_pi_div_two (dot c P)⟩
  linarith [Real.pi_pos]

theorem sq_eq_one_iff_of_side {x : ℝ} (h : x ^ 2 = 1) : x = 1 ∨ x = -1 := by
  have : (x - 1) * (x + 1) = 0 := by linear_combination h
  rcases mul_eq_zero.mp this with h | h
  · left; linarith
  · right; linarith

/-- when `P` is a pole (`P ∥ c`), every point of the circle is a quarter turn away -/
theorem pole_angle {c P Q : V3 ℝ} (hc : UnitVec c) (hP : UnitVec P) (hpole : cross P c = 0) (hQ : UnitVec Q)
    (h : dot c Q = 0) : angle P Q = π / 2 ∧ |arcsin (dot c P)| = π / 2 := by
  have l2 : len (cross P c) ^ 2 = 1 - dot c P ^ 2 := by
    rw [lagrange, hP.len, hc.len, dot_comm]; ring
  rw [hpole, len_eq_zero.mpr rfl] at l2
  have hd2 : dot c P ^ 2 = 1 := by linarith
  have h1 := dot_le_of_perp hc hP hQ h
  have h0 : dot P Q = 0 := by
    apply pow_eq_zero_iff two_ne_zero |>.mp; nlinarith [sq_nonneg (dot P Q)]
  constructor
  · rw [angle_unit hP hQ, h0, Real.arccos_zero]
  · rcases sq_eq_one_iff_of_side hd2 with h | h
    · rw [h, Real.arcsin_one, abs_of_pos (by positivity)]
    · rw [h, Real.arcsin_neg_one, abs_neg, abs_of_pos (by positivity)]

end Nv.Spec
