import Verif.Props.Textbook

/-!
# C130: distances and azimuths obey spherical trigonometry

The azimuths at a corner of a triangle of positions on a sphere, and the great circle distances along its sides, are the angle and
the sides of a spherical triangle: law of cosines and law of sines, for every triangle.
-/

namespace Nv
open Spec Real
open XR (fin)

/-- the rectangular components of a point given by distance and azimuth -/
theorem reach_dot_reach {n e : V3 ℝ} (h : Frame n e) (d az d' az' : ℝ) :
    dot (reach n e d az) (reach n e d' az') = cos d * cos d' + sin d * sin d' * cos (az - az') := by
  have h1 := h.un.dot; have h2 := h.ue.dot; have h3 := h.perp; have h4 := h.cross_unit.dot
  have h5 : dot e n = 0 := by rw [dot_comm]; exact h3
  have h6 : dot n (cross n e) = 0 := dot_cross_self_left _ _
  have h7 : dot e (cross n e) = 0 := dot_cross_self_right _ _
  have h8 : dot (cross n e) n = 0 := dot_cross_left_self _ _
  have h9 : dot (cross n e) e = 0 := dot_cross_right_self _ _
  unfold reach
  simp only [dot_add_right, dot_smul_right, dot_add_left, dot_smul_left, h1, h2, h3, h4, h5, h6, h7, h8, h9]
  rw [Real.cos_sub]
  ring

/-- the volume spanned by the corner and the two points -/
theorem dot_cross_reach {n e : V3 ℝ} (h : Frame n e) (d az d' az' : ℝ) :
    dot n (cross (reach n e d az) (reach n e d' az')) = sin d * sin d' * sin (az - az') := by
  have h1 := h.un; have h2 := h.ue; have h3 := h.perp
  unfold UnitVec at h1 h2
  unfold dot at h3
  rw [Real.sin_sub]
  have e1 : dot n (cross e (cross n e)) = 1 := by
    unfold dot cross
    simp only
    linear_combination h1 * (e.x ^ 2 + e.y ^ 2 + e.z ^ 2) + h2 - (n.x * e.x + n.y * e.y + n.z * e.z) * h3
  have e2 : dot n (cross (reach n e d az) (reach n e d' az')) =
      sin d * sin d' * (sin az * cos az' - cos az * sin az') * dot n (cross e (cross n e)) := by
    unfold reach dot cross
    simp only [add_x, add_y, add_z, smul_x, smul_y, smul_z]
    ring
  rw [e2, e1, mul_one]

theorem triple_cycle (u v w : V3 ℝ) : dot u (cross v w) = dot v (cross w u) := by unfold dot cross; ring

section
variable {R : M3 ℝ} (hR : IsRotation R) {a r : ℝ} (ha : 0 < a) (hr : 0 < r)
include hR ha

theorem azimuth_reach {A Q : V3 ℝ} (hA : UnitVec A) (hQ : UnitVec Q) (hpole : cross (northPole R) A ≠ 0) :
    ∃ θ, n_EA_E_and_n_EB_E2azimuth A.fin Q.fin (fin a) (fin 0) R.fin = fin θ ∧
      Q = reach A (dirOf (cross (northPole R) A)) (angle A Q) θ := by
  have h29 := C29_inverse_direct_partial A Q hA hQ R hR hpole a ha
  rw [azimuth_offpole hA hQ hR hpole ha, C18_eq_angle _ _ hA.ne hQ.ne, mul_one, direct_offpole hA hpole, V3.fin_inj] at h29
  exact ⟨_, azimuth_offpole hA hQ hR hpole ha, h29.symm⟩

include hr

/-- **C130** the spherical law of cosines: of a triangle `ABC` with `A` not a pole, the side `BC` follows from the sides `AB`, `AC` and
the difference of the azimuths of `B` and `C` at `A` -/
theorem C130_cosines (A B C : V3 ℝ) (hA : UnitVec A) (hB : UnitVec B) (hC : UnitVec C) (hpole : cross (northPole R) A ≠ 0) :
    ∃ ab ac bc azB azC : ℝ,
      great_circle_distance A.fin B.fin (fin r) = fin ab ∧ great_circle_distance A.fin C.fin (fin r) = fin ac ∧
      great_circle_distance B.fin C.fin (fin r) = fin bc ∧
      n_EA_E_and_n_EB_E2azimuth A.fin B.fin (fin a) (fin 0) R.fin = fin azB ∧
      n_EA_E_and_n_EB_E2azimuth A.fin C.fin (fin a) (fin 0) R.fin = fin azC ∧
      cos (bc / r) = cos (ab / r) * cos (ac / r) + sin (ab / r) * sin (ac / r) * cos (azB - azC) := by
  obtain ⟨b, eb, rb⟩ := azimuth_reach hR ha hA hB hpole
  obtain ⟨c, ec, rc⟩ := azimuth_reach hR ha hA hC hpole
  refine ⟨_, _, _, b, c, C18_eq_angle A B hA.ne hB.ne r, C18_eq_angle A C hA.ne hC.ne r, C18_eq_angle B C hB.ne hC.ne r, eb, ec, ?_⟩
  rw [mul_div_assoc, mul_div_assoc, mul_div_assoc, div_self hr.ne', mul_one, mul_one, mul_one, cos_angle_unit hB hC]
  conv_lhs => rw [rb, rc]
  exact reach_dot_reach (frame_offpole hA hpole) _ _ _ _

/-- **C130** the spherical law of sines, with the orientation of the triangle: no corner a pole -/
theorem C130_sines (A B C : V3 ℝ) (hA : UnitVec A) (hB : UnitVec B) (hC : UnitVec C) (hpA : cross (northPole R) A ≠ 0)
    (hpB : cross (northPole R) B ≠ 0) (hpC : cross (northPole R) C ≠ 0) :
    ∃ ab ac bc azAB azAC azBA azBC azCA azCB : ℝ,
      great_circle_distance A.fin B.fin (fin r) = fin ab ∧ great_circle_distance A.fin C.fin (fin r) = fin ac ∧
      great_circle_distance B.fin C.fin (fin r) = fin bc ∧
      n_EA_E_and_n_EB_E2azimuth A.fin B.fin (fin a) (fin 0) R.fin = fin azAB ∧
      n_EA_E_and_n_EB_E2azimuth A.fin C.fin (fin a) (fin 0) R.fin = fin azAC ∧
      n_EA_E_and_n_EB_E2azimuth B.fin A.fin (fin a) (fin 0) R.fin = fin azBA ∧
      n_EA_E_and_n_EB_E2azimuth B.fin C.fin (fin a) (fin 0) R.fin = fin azBC ∧
      n_EA_E_and_n_EB_E2azimuth C.fin A.fin (fin a) (fin 0) R.fin = fin azCA ∧
      n_EA_E_and_n_EB_E2azimuth C.fin B.fin (fin a) (fin 0) R.fin = fin azCB ∧
      sin (ab / r) * sin (ac / r) * sin (azAB - azAC) = sin (ab / r) * sin (bc / r) * sin (azBC - azBA) ∧
      sin (ab / r) * sin (bc / r) * sin (azBC - azBA) = sin (ac / r) * sin (bc / r) * sin (azCA - azCB) := by
  obtain ⟨z1, e1, r1⟩ := azimuth_reach hR ha hA hB hpA
  obtain ⟨z2, e2, r2⟩ := azimuth_reach hR ha hA hC hpA
  obtain ⟨z3, e3, r3⟩ := azimuth_reach hR ha hB hA hpB
  obtain ⟨z4, e4, r4⟩ := azimuth_reach hR ha hB hC hpB
  obtain ⟨z5, e5, r5⟩ := azimuth_reach hR ha hC hA hpC
  obtain ⟨z6, e6, r6⟩ := azimuth_reach hR ha hC hB hpC
  refine ⟨_, _, _, z1, z2, z3, z4, z5, z6, C18_eq_angle A B hA.ne hB.ne r, C18_eq_angle A C hA.ne hC.ne r, C18_eq_angle B C hB.ne hC.ne r,
    e1, e2, e3, e4, e5, e6, ?_⟩
  rw [mul_div_assoc, mul_div_assoc, mul_div_assoc, div_self hr.ne', mul_one, mul_one, mul_one]
  have t1 := dot_cross_reach (frame_offpole hA hpA) (angle A B) z1 (angle A C) z2
  have t2 := dot_cross_reach (frame_offpole hB hpB) (angle B C) z4 (angle B A) z3
  have t3 := dot_cross_reach (frame_offpole hC hpC) (angle C A) z5 (angle C B) z6
  rw [← r1, ← r2] at t1
  rw [← r4, ← r3, angle_comm B A] at t2
  rw [← r5, ← r6, angle_comm C A, angle_comm C B] at t3
  have c1 := triple_cycle A B C
  have c2 := triple_cycle B C A
  constructor <;> linarith

omit ha in
/-- **C130** two travellers leaving the same place (not a pole) end up as far apart as the law of cosines says, wherever they go -/
theorem C130_apart (A : V3 ℝ) (hA : UnitVec A) (hpole : cross (northPole R) A ≠ 0) (d1 az1 d2 az2 : ℝ) :
    ∃ x : ℝ, great_circle_distance (n_EA_E_distance_and_azimuth2n_EB_E A.fin (fin (d1 / r)) (fin az1) R.fin)
        (n_EA_E_distance_and_azimuth2n_EB_E A.fin (fin (d2 / r)) (fin az2) R.fin) (fin r) = fin x ∧
      cos (x / r) = cos (d1 / r) * cos (d2 / r) + sin (d1 / r) * sin (d2 / r) * cos (az1 - az2) ∧ 0 ≤ x ∧ x ≤ π * r ∧
      (az2 = az1 → |d1 - d2| ≤ π * r → x = |d1 - d2|) ∧
      (az2 = az1 + π → 0 ≤ d1 + d2 → d1 + d2 ≤ π * r → x = d1 + d2) := by
  have hf := frame_offpole hA hpole
  have u1 := reach_unit hf (d1 / r) az1
  have u2 := reach_unit hf (d2 / r) az2
  rw [direct_offpole hA hpole, direct_offpole hA hpole]
  have e : cos (angle (reach A (dirOf (cross (northPole R) A)) (d1 / r) az1) (reach A (dirOf (cross (northPole R) A)) (d2 / r) az2)) =
      cos (d1 / r) * cos (d2 / r) + sin (d1 / r) * sin (d2 / r) * cos (az1 - az2) := by
    rw [cos_angle_unit u1 u2, reach_dot_reach hf]
  refine ⟨_, C18_eq_angle _ _ u1.ne u2.ne r, ?_⟩
  have h0 := angle_nonneg (reach A (dirOf (cross (northPole R) A)) (d1 / r) az1) (reach A (dirOf (cross (northPole R) A)) (d2 / r) az2)
  have hp := angle_le_pi (reach A (dirOf (cross (northPole R) A)) (d1 / r) az1) (reach A (dirOf (cross (northPole R) A)) (d2 / r) az2)
  generalize angle (reach A (dirOf (cross (northPole R) A)) (d1 / r) az1) (reach A (dirOf (cross (northPole R) A)) (d2 / r) az2) = θ at *
  refine ⟨by rw [mul_div_assoc, div_self hr.ne', mul_one, e], by positivity, by gcongr, ?_, ?_⟩
  · intro h hb
    rw [h, sub_self, Real.cos_zero, mul_one, ← Real.cos_sub, ← Real.cos_abs (d1 / r - d2 / r), ← sub_div, abs_div, abs_of_pos hr] at e
    have := Real.injOn_cos ⟨h0, hp⟩ ⟨by positivity, by rw [div_le_iff₀ hr]; exact hb⟩ e
    rw [this]; field_simp
  · intro h hb hb'
    rw [h, show az1 - (az1 + π) = -π by ring, Real.cos_neg, Real.cos_pi, mul_neg, mul_one, ← sub_eq_add_neg, ← Real.cos_add, ← add_div] at e
    have := Real.injOn_cos ⟨h0, hp⟩ ⟨by positivity, by rw [div_le_iff₀ hr]; exact hb'⟩ e
    rw [this]; field_simp

end

/-- **C130** the theorem of Pythagoras: the way to the closest point on the great circle, and along it to any other point `Q` of the
great circle, are the legs of a right triangle, whose hypotenuse is the way to `Q` -/
theorem C130_pythagoras (A B P Q : V3 ℝ) (hp : ProperPath A B) (hP : UnitVec P) (hne : cross P (cross A B) ≠ 0) (hQ : OnCircle A B Q)
    (r : ℝ) (hr : 0 < r) :
    ∃ (C : V3 ℝ) (x l h : ℝ), closest_point_on_great_circle (A.fin, B.fin) P.fin = C.fin ∧
      cross_track_distance (A.fin, B.fin) P.fin (radius := fin r) = .ok (fin x) ∧
      great_circle_distance C.fin Q.fin (fin r) = fin l ∧ great_circle_distance P.fin Q.fin (fin r) = fin h ∧
      great_circle_distance P.fin C.fin (fin r) = fin |x| ∧
      cos (h / r) = cos (x / r) * cos (l / r) := by
  have hcu : UnitVec (dirOf (cross A B)) := hp.dirOf_unit
  have hl := len_pos hp
  have hne' : cross P (dirOf (cross A B)) ≠ 0 := by
    unfold dirOf; rw [cross_smul_right]; exact smul_ne_zero (inv_ne_zero hl.ne') hne
  obtain ⟨h1, h2, h3, h4, h5, h6⟩ := foot hcu hP hne'
  obtain ⟨hQu, hQ0⟩ := (onCircle_iff_normal hp).mp hQ
  have hx := cross_track_fin hp hP r
  generalize hc : dirOf (cross A B) = c at *
  refine ⟨dirOf (cross c (cross P c)), _, _, _, ?_, hx, C18_eq_angle _ _ (dirOf_unit h1).ne hQu.ne r, C18_eq_angle _ _ hP.ne hQu.ne r, ?_, ?_⟩
  · simp only [closest_point_on_great_circle, great_circle_normal_fin hp, xr, hc, unit_fin h1]
    rw [dot_comm, h4, XR.sign_pos h5]
    simp only [xr]
    congr 1; ext <;> simp
  · rw [C18_eq_angle _ _ hP.ne (dirOf_unit h1).ne, h6, Real.arcsin_neg, abs_mul, abs_neg, abs_of_pos hr]
  · rw [mul_div_assoc, mul_div_assoc, mul_div_assoc, div_self hr.ne', mul_one, mul_one, mul_one, cos_angle_unit hP hQu,
      cos_angle_unit (dirOf_unit h1) hQu, Real.arcsin_neg, Real.cos_neg, Real.cos_arcsin, ← h4]
    have e : P = len (cross c (cross P c)) • dirOf (cross c (cross P c)) + dot c P • c := by
      have hL := len_pos h1
      have : len (cross c (cross P c)) • dirOf (cross c (cross P c)) = cross c (cross P c) := by
        unfold dirOf; ext <;> simp <;> field_simp
      rw [this]; conv_rhs => rw [h2]
      ext <;> simp
    have e1 : dot P Q = len (cross c (cross P c)) * dot (dirOf (cross c (cross P c))) Q := by
      conv_lhs => rw [e]
      rw [dot_add_left, dot_smul_left, dot_smul_left, hQ0]; ring
    have e2 : dot P (dirOf (cross c (cross P c))) = len (cross c (cross P c)) := by
      have g := (dirOf_unit h1).dot
      generalize dirOf (cross c (cross P c)) = D at *
      have e3 := congrArg (fun v => dot v D) e
      simp only [dot_add_left, dot_smul_left, h3, g, mul_one, mul_zero, add_zero] at e3
      exact e3
    rw [e1, e2]

/-- the hypotheses are met: the triangle of the null point, 90 degrees east on the equator and a point of latitude arcsin 4/5, default axes -/
example : UnitVec ⟨1, 0, 0⟩ ∧ UnitVec ⟨0, 1, 0⟩ ∧ UnitVec ⟨3 / 5, 0, 4 / 5⟩ ∧ cross (northPole Re) ⟨1, 0, 0⟩ ≠ 0 ∧
    cross (northPole Re) ⟨0, 1, 0⟩ ≠ 0 ∧ cross (northPole Re) ⟨3 / 5, 0, 4 / 5⟩ ≠ 0 := by
  have hnp : northPole Re = ⟨0, 0, 1⟩ := by unfold northPole Re app transp col0 col1 col2 dot; ext <;> simp
  rw [hnp]
  refine ⟨by norm_num [UnitVec], by norm_num [UnitVec], by norm_num [UnitVec], fun h => ?_, fun h => ?_, fun h => ?_⟩
  · have := congrArg V3.y h; norm_num [cross] at this
  · have := congrArg V3.x h; norm_num [cross] at this
  · have := congrArg V3.y h; norm_num [cross] at this

end Nv
