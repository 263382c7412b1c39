import Verif.Props.Triangle
import Verif.Props.Interp

/-!
# C156 Leaving a path

`C` is a position of the path from `A` to `B` (`interpolate`), `h` the course of the path there (the azimuth from `C` to `B`).  A traveller leaves
the path at `C` with the course `h + β` and travels the distance `d`.
-/

namespace Nv
open Spec Real
open XR (fin)

/-- the direction with azimuth `α` -/
noncomputable def ahead (n e : V3 ℝ) (α : ℝ) : V3 ℝ := cos α • cross n e + sin α • e

theorem reach_ahead (n e : V3 ℝ) (d α : ℝ) : reach n e d α = cos d • n + sin d • ahead n e α := rfl

/-- the normal of the great circle that leaves `n` with azimuth `θ` -/
theorem cross_reach {n e : V3 ℝ} (h : Frame n e) (d θ : ℝ) :
    cross n (reach n e d θ) = sin d • (sin θ • cross n e - cos θ • e) := by
  have h1 := h.un; have h2 := h.perp
  unfold UnitVec at h1
  unfold dot at h2
  unfold reach
  ext
  · simp [cross]; linear_combination (cos θ * sin d * n.x) * h2 - (cos θ * sin d * e.x) * h1
  · simp [cross]; linear_combination (cos θ * sin d * n.y) * h2 - (cos θ * sin d * e.y) * h1
  · simp [cross]; linear_combination (cos θ * sin d * n.z) * h2 - (cos θ * sin d * e.z) * h1

theorem side_unit {n e : V3 ℝ} (h : Frame n e) (θ : ℝ) : UnitVec (sin θ • cross n e - cos θ • e) := by
  have h1 := h.un; have h2 := h.perp; have h3 := h.ue; have h4 := h.cross_unit
  have h7 : dot e (cross n e) = 0 := dot_cross_self_right _ _
  have h8 := sin_sq_add_cos_sq θ
  generalize cross n e = m at *
  unfold UnitVec at *
  unfold dot at *
  simp
  linear_combination (sin θ) ^ 2 * h4 + (cos θ) ^ 2 * h3 - 2 * sin θ * cos θ * h7 + h8

theorem side_dot_reach {n e : V3 ℝ} (h : Frame n e) (d θ β : ℝ) :
    dot (sin θ • cross n e - cos θ • e) (reach n e d (θ + β)) = -(sin d * sin β) := by
  obtain ⟨-, r2, r3⟩ := reach_dot h d (θ + β)
  have : dot (sin θ • cross n e - cos θ • e) (reach n e d (θ + β)) =
      sin θ * dot (cross n e) (reach n e d (θ + β)) - cos θ * dot e (reach n e d (θ + β)) := by
    unfold dot; simp; ring
  rw [this, r2, r3, Real.sin_add, Real.cos_add]
  have := sin_sq_add_cos_sq θ
  linear_combination (-(sin d * sin β)) * this

/-- what remains of the position without its part across the path -/
theorem reach_along {n e : V3 ℝ} (d θ β : ℝ) :
    reach n e d (θ + β) + (sin d * sin β) • (sin θ • cross n e - cos θ • e) = cos d • n + (sin d * cos β) • ahead n e θ := by
  unfold reach ahead
  rw [Real.sin_add, Real.cos_add]
  have := sin_sq_add_cos_sq θ
  ext
  · simp; ring
  · simp; ring
  · simp; ring

/-! ## C156 -/

section
variable {A B C : V3 ℝ} (hA : UnitVec A) (hB : UnitVec B) (hp : ProperPath A B) {t : ℝ} (ht0 : 0 ≤ t) (ht1 : t < 1)
  (hC : interpolate (A.fin, B.fin) (fin t) = C.fin)
  {R : M3 ℝ} (hR : IsRotation R) (hpole : cross (northPole R) C ≠ 0) {a : ℝ} (ha : 0 < a) {h : ℝ}
  (hh : n_EA_E_and_n_EB_E2azimuth C.fin B.fin (fin a) (fin 0) R.fin = fin h)
include hA hB hp ht0 ht1 hC hR hpole ha hh

omit ht0 hR hpole ha hh in
theorem leave_point : UnitVec C ∧ ∃ k : ℝ, 0 < k ∧ cross C B = k • cross A B := by
  have hm : mix A B t ≠ 0 := by
    intro h0
    obtain ⟨h1, -⟩ := (mix_zero_iff hA hB t).1 h0
    apply hp
    rw [h1]; ext <;> simp [cross] <;> ring
  have hl := len_pos hm
  rw [interpolate_fin hm, V3.fin_inj] at hC
  refine ⟨hC ▸ dirOf_unit hm, (len (mix A B t))⁻¹ * (1 - t), mul_pos (inv_pos.2 hl) (by linarith), ?_⟩
  rw [← hC]
  unfold dirOf
  rw [mix_eq]
  generalize (len ((1 - t) • A + t • B))⁻¹ = k
  ext <;> simp [cross] <;> ring

/-- the frame at `C`: unit normal of the path and of the course -/
theorem leave_frame : Frame C (dirOf (cross (northPole R) C)) ∧
    dirOf (cross A B) = sin h • cross C (dirOf (cross (northPole R) C)) - cos h • dirOf (cross (northPole R) C) := by
  obtain ⟨hu, k, hk, e⟩ := leave_point hA hB hp ht1 hC
  have hf := frame_offpole hu hpole
  refine ⟨hf, ?_⟩
  obtain ⟨θ, e1, e2⟩ := azimuth_reach hR ha hu hB hpole
  rw [hh] at e1
  have e1 : h = θ := by injection e1
  subst e1
  rw [← dirOf_smul hk, ← e]
  have hne : cross C B ≠ 0 := by rw [e]; exact smul_ne_zero hk.ne' hp
  have hs0 : 0 ≤ sin (angle C B) := by rw [sin_angle_unit hu hB]; exact len_nonneg _
  have hcr := cross_reach hf (angle C B) h
  rw [← e2] at hcr
  have hs : 0 < sin (angle C B) := by
    rcases hs0.lt_or_eq with h1 | h1
    · exact h1
    · exfalso; apply hne; rw [hcr, ← h1]; ext <;> simp
  rw [hcr, dirOf_smul hs, dirOf_of_unit (side_unit hf h)]

/-- **C156** the cross track distance after `d` on a course that differs by `β` from the course of the path -/
theorem C156_cross_track (d β r : ℝ) :
    cross_track_distance (A.fin, B.fin) (n_EA_E_distance_and_azimuth2n_EB_E C.fin (fin d) (fin (h + β)) R.fin) (radius := fin r) =
      .ok (fin (arcsin (sin d * sin β) * r)) := by
  obtain ⟨hf, hc⟩ := leave_frame hA hB hp ht0 ht1 hC hR hpole ha hh
  rw [direct_offpole hf.un hpole]
  change cross_track_distance _ (reach C _ d (h + β)).fin (radius := fin r) = _
  rw [cross_track_fin hp (reach_unit hf _ _), hc, side_dot_reach hf, neg_neg]

/-- **C156** at right angles the cross track distance is the distance travelled, positive to the right and negative to the left of the path -/
theorem C156_right_angle (d : ℝ) (h0 : 0 ≤ d) (h1 : d ≤ π / 2) (r : ℝ) :
    cross_track_distance (A.fin, B.fin) (n_EA_E_distance_and_azimuth2n_EB_E C.fin (fin d) (fin (h + π / 2)) R.fin) (radius := fin r) =
      .ok (fin (d * r)) ∧
    cross_track_distance (A.fin, B.fin) (n_EA_E_distance_and_azimuth2n_EB_E C.fin (fin d) (fin (h - π / 2)) R.fin) (radius := fin r) =
      .ok (fin (-(d * r))) := by
  have e1 := C156_cross_track hA hB hp ht0 ht1 hC hR hpole ha hh d (π / 2) r
  have e2 := C156_cross_track hA hB hp ht0 ht1 hC hR hpole ha hh d (-(π / 2)) r
  rw [Real.sin_pi_div_two, mul_one, Real.arcsin_sin (by linarith [Real.pi_pos]) h1] at e1
  rw [Real.sin_neg, Real.sin_pi_div_two, mul_neg, mul_one, Real.arcsin_neg, Real.arcsin_sin (by linarith [Real.pi_pos]) h1, neg_mul] at e2
  exact ⟨e1, by rw [sub_eq_add_neg]; exact e2⟩

/-- **C156** keeping the course of the path, or turning round, the traveller stays on the great circle of the path -/
theorem C156_straight_on (d r : ℝ) (atol : ℝ) (hat : 0 ≤ atol) :
    on_great_circle (A.fin, B.fin) (n_EA_E_distance_and_azimuth2n_EB_E C.fin (fin d) (fin h) R.fin) (fin r) (fin atol) = true ∧
    on_great_circle (A.fin, B.fin) (n_EA_E_distance_and_azimuth2n_EB_E C.fin (fin d) (fin (h + π)) R.fin) (fin r) (fin atol) = true := by
  have e1 := C156_cross_track hA hB hp ht0 ht1 hC hR hpole ha hh d 0 r
  have e2 := C156_cross_track hA hB hp ht0 ht1 hC hR hpole ha hh d π r
  rw [add_zero, Real.sin_zero, mul_zero, Real.arcsin_zero, zero_mul] at e1
  rw [Real.sin_pi, mul_zero, Real.arcsin_zero, zero_mul] at e2
  constructor
  · simp only [on_great_circle, abs_cross_track, e1, xr, abs_zero]; simpa using hat
  · simp only [on_great_circle, abs_cross_track, e2, xr, abs_zero]; simpa using hat

theorem leave_closest (d β ρ s : ℝ) (hρ : 0 < ρ) (h1 : cos d = ρ * cos s) (h2 : sin d * cos β = ρ * sin s) :
    closest_point_on_great_circle (A.fin, B.fin) (n_EA_E_distance_and_azimuth2n_EB_E C.fin (fin d) (fin (h + β)) R.fin) =
      n_EA_E_distance_and_azimuth2n_EB_E C.fin (fin s) (fin h) R.fin := by
  obtain ⟨hf, hc⟩ := leave_frame hA hB hp ht0 ht1 hC hR hpole ha hh
  rw [direct_offpole hf.un hpole, direct_offpole hf.un hpole]
  change closest_point_on_great_circle _ (reach C _ d (h + β)).fin = (reach C _ s h).fin
  generalize dirOf (cross (northPole R) C) = e at *
  have hQ := reach_unit hf d (h + β)
  have hcu : UnitVec (dirOf (cross A B)) := hp.dirOf_unit
  have hal := reach_along (n := C) (e := e) d h β
  have hsd := side_dot_reach hf d h β
  rw [← hc] at hal hsd
  have hfoot : cross (dirOf (cross A B)) (cross (reach C e d (h + β)) (dirOf (cross A B))) = ρ • reach C e s h := by
    rw [cross_cross', hcu.dot, hsd]
    have e1 : (1:ℝ) • reach C e d (h + β) - (-(sin d * sin β)) • dirOf (cross A B) =
        reach C e d (h + β) + (sin d * sin β) • dirOf (cross A B) := by ext <;> simp
    rw [e1, hal, h1, h2, reach_ahead]
    ext <;> simp <;> ring
  have hu := reach_unit hf s h
  have hne : ρ • reach C e s h ≠ 0 := smul_ne_zero hρ.ne' hu.ne
  have hne' : cross (reach C e d (h + β)) (dirOf (cross A B)) ≠ 0 := by
    intro h0; rw [h0] at hfoot; apply hne; rw [← hfoot]; ext <;> simp [cross]
  obtain ⟨g1, g2, g3, g4, g5, g6⟩ := foot hcu hQ hne'
  simp only [closest_point_on_great_circle, great_circle_normal_fin hp, xr, unit_fin g1]
  rw [dot_comm, g4, XR.sign_pos g5]
  simp only [xr]
  rw [hfoot, dirOf_smul hρ, dirOf_of_unit hu]
  congr 1; ext <;> simp

/-- **C156** the closest point of the great circle: it lies `arctan(tan d cos β)` further along the path (`d` less than a quarter of the way round) -/
theorem C156_closest (d β : ℝ) (hd : |d| < π / 2) :
    closest_point_on_great_circle (A.fin, B.fin) (n_EA_E_distance_and_azimuth2n_EB_E C.fin (fin d) (fin (h + β)) R.fin) =
      n_EA_E_distance_and_azimuth2n_EB_E C.fin (fin (arctan (tan d * cos β))) (fin h) R.fin := by
  have hcd : 0 < cos d := Real.cos_pos_of_mem_Ioo ⟨by linarith [(abs_lt.1 hd).1], (abs_lt.1 hd).2⟩
  have hcs := Real.cos_arctan_pos (tan d * cos β)
  refine leave_closest hA hB hp ht0 ht1 hC hR hpole ha hh d β (cos d / cos (arctan (tan d * cos β))) _ (div_pos hcd hcs) ?_ ?_
  · field_simp
  · have e : sin (arctan (tan d * cos β)) = tan d * cos β * cos (arctan (tan d * cos β)) := by
      have := Real.tan_arctan (tan d * cos β)
      rw [Real.tan_eq_sin_div_cos] at this
      field_simp at this
      linarith
    rw [e, Real.tan_eq_sin_div_cos]
    field_simp

/-- **C156** after leaving at right angles the closest point is where the path was left -/
theorem C156_closest_right_angle (d : ℝ) (hd : |d| < π / 2) :
    closest_point_on_great_circle (A.fin, B.fin) (n_EA_E_distance_and_azimuth2n_EB_E C.fin (fin d) (fin (h + π / 2)) R.fin) = C.fin ∧
    closest_point_on_great_circle (A.fin, B.fin) (n_EA_E_distance_and_azimuth2n_EB_E C.fin (fin d) (fin (h - π / 2)) R.fin) = C.fin := by
  have hu := (leave_point hA hB hp ht1 hC).1
  have e0 : n_EA_E_distance_and_azimuth2n_EB_E C.fin (fin 0) (fin h) R.fin = C.fin := by
    rw [direct_offpole hu hpole, V3.fin_inj, Real.cos_zero, Real.sin_zero]
    ext <;> simp
  have e1 := C156_closest hA hB hp ht0 ht1 hC hR hpole ha hh d (π / 2) hd
  have e2 := C156_closest hA hB hp ht0 ht1 hC hR hpole ha hh d (-(π / 2)) hd
  rw [Real.cos_pi_div_two, mul_zero, Real.arctan_zero, e0] at e1
  rw [Real.cos_neg, Real.cos_pi_div_two, mul_zero, Real.arctan_zero, e0] at e2
  exact ⟨e1, by rw [sub_eq_add_neg]; exact e2⟩

end

end Nv
