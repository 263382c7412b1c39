import Verif.Props.Direct

/-!
# C143: the great circle problems at the poles, default axes and axes 'E'
-/

namespace Nv
open Spec Real
open XR (fin)

theorem northPole_Re : northPole Re = ⟨0, 0, 1⟩ := by unfold northPole Re app transp col0 col1 col2 dot; ext <;> simp

section
variable {s : ℝ} (hs : s = 1 ∨ s = -1)
include hs

theorem at_pole : cross (northPole Re) ⟨0, 0, s⟩ = 0 ∧ UnitVec (⟨0, 0, s⟩ : V3 ℝ) := by
  rw [northPole_Re]
  constructor
  · ext <;> simp [cross]
  · rcases hs with rfl | rfl <;> norm_num [UnitVec]

/-- **C143** leaving the north pole (`s = 1`) or the south pole (`s = -1`) with azimuth `az`: default axes -/
theorem C143_direct (d az : ℝ) :
    n_EA_E_distance_and_azimuth2n_EB_E (⟨0, 0, s⟩ : V3 ℝ).fin (fin d) (fin az) =
      (⟨sin d * sin az, s * (sin d * cos az), s * cos d⟩ : V3 ℝ).fin := by
  rw [R_e_fin]
  unfold n_EA_E_distance_and_azimuth2n_EB_E
  simp only [xr, V3.mk_fin, Rat.cast_one, Rat.cast_zero]
  rw [show app (transp Re) ⟨1, 0, 0⟩ = northPole Re from rfl, (at_pole hs).1, unit_zero_fin]
  simp only [xr, V3.fin_inj]
  ext <;> simp [cross] <;> ring

/-- **C143** the azimuth reported at the north pole (`s = 1`) or at the south pole (`s = -1`): on a sphere, default axes -/
theorem azimuth_at_pole (B : V3 ℝ) (hB : UnitVec B) (a : ℝ) (ha : 0 < a) :
    n_EA_E_and_n_EB_E2azimuth (⟨0, 0, s⟩ : V3 ℝ).fin B.fin (fin a) (fin 0) = fin (XR.atan2 (a * B.y) (a * -(s * B.x))) := by
  obtain ⟨hc, hn⟩ := at_pole hs
  rw [R_e_fin]
  obtain ⟨M, h1, h2, h3, h4⟩ := n_E2R_EN_pole ⟨0, 0, s⟩ hn.ne Re isRotation_Re hc
  rw [dirOf_of_unit hn] at h3
  have h4' : col1 M = ⟨0, 1, 0⟩ := by rw [h4]; unfold Re app transp col0 col1 col2 dot; ext <;> simp
  have h5 : col0 M = ⟨-s, 0, 0⟩ := by
    rw [← h2.cross12, h3, h4']; ext <;> simp [cross]
  unfold n_EA_E_and_n_EB_E2azimuth n_EA_E_and_n_EB_E2p_AB_E
  simp only [XR.lit_def, Rat.cast_zero, C09_n2p _ hn.ne _ _ Re isRotation_Re, C09_n2p _ hB.ne _ _ Re isRotation_Re, h1, xr]
  rw [show ∀ v : V3 ℝ, (len v)⁻¹ • v = dirOf v from fun _ => rfl, show ∀ v : V3 ℝ, (len v)⁻¹ • v = dirOf v from fun _ => rfl,
    dirOf_of_unit hn, dirOf_of_unit hB]
  have hx : ∀ v, (app (transp M) v).x = dot (col0 M) v := fun v => rfl
  have hy : ∀ v, (app (transp M) v).y = dot (col1 M) v := fun v => rfl
  rw [hx, hy, h4', h5]
  simp only [dot, sub_x, sub_y, sub_z, smul_x, smul_y, smul_z, sub_zero, mul_zero, zero_mul, add_zero, zero_add, one_mul]
  congr 2; ring

/-- **C143** the azimuth reported from a pole to the position reached with azimuth `az` is a quarter turn larger at the north pole and a
quarter turn smaller at the south pole -/
theorem C143_azimuth (d : ℝ) (hd0 : 0 < d) (hd : d < π) (az : ℝ) (a : ℝ) (ha : 0 < a) :
    ∃ (t : ℝ) (k : ℤ), n_EA_E_and_n_EB_E2azimuth (⟨0, 0, s⟩ : V3 ℝ).fin
      (n_EA_E_distance_and_azimuth2n_EB_E (⟨0, 0, s⟩ : V3 ℝ).fin (fin d) (fin az)) (fin a) (fin 0) = fin t ∧
      -π < t ∧ t ≤ π ∧ t = az + s * (π / 2) + k * (2 * π) := by
  have hsd := Real.sin_pos_of_pos_of_lt_pi hd0 hd
  have hss : s * s = 1 := by rcases hs with rfl | rfl <;> norm_num
  have hB : UnitVec (⟨sin d * sin az, s * (sin d * cos az), s * cos d⟩ : V3 ℝ) := by
    unfold UnitVec
    have h1 := sin_sq_add_cos_sq d
    have h2 := sin_sq_add_cos_sq az
    simp only
    linear_combination h1 + sin d ^ 2 * h2 + (sin d ^ 2 * cos az ^ 2 + cos d ^ 2) * hss
  rw [C143_direct hs, azimuth_at_pole hs _ hB a ha]
  set θ := az + s * (π / 2) with hθ
  obtain ⟨k, hk⟩ : ∃ k : ℤ, -π < θ + k * (2 * π) ∧ θ + k * (2 * π) ≤ π := by
    refine ⟨-toIocDiv Real.two_pi_pos (-π) θ, ?_⟩
    have h := sub_toIocDiv_zsmul_mem_Ioc Real.two_pi_pos (-π) θ
    rw [zsmul_eq_mul] at h
    push_cast
    constructor <;> linarith [h.1, h.2]
  have hc : cos (θ + k * (2 * π)) = -(s * sin az) := by
    rw [cos_add_int_mul_two_pi, hθ]
    rcases hs with rfl | rfl
    · rw [one_mul, cos_add_pi_div_two]; ring
    · rw [show az + -1 * (π / 2) = az - π / 2 by ring, cos_sub_pi_div_two]; ring
  have hsn : sin (θ + k * (2 * π)) = s * cos az := by
    rw [sin_add_int_mul_two_pi, hθ]
    rcases hs with rfl | rfl
    · rw [one_mul, sin_add_pi_div_two]; ring
    · rw [show az + -1 * (π / 2) = az - π / 2 by ring, sin_sub_pi_div_two]; ring
  refine ⟨θ + k * (2 * π), k, ?_, hk.1, hk.2, rfl⟩
  rw [XR.atan2_eq (r := a * sin d) (θ := θ + k * (2 * π)) (mul_pos ha hsd) hk.1 hk.2]
  · rw [hc]; ring
  · rw [hsn]; ring

/-- **C143** from a pole, going the great circle distance along the reported azimuth arrives at the position turned by a quarter turn about
the axis of the Earth (to the west) -/
theorem C143_inverse_direct (B : V3 ℝ) (hB : UnitVec B) (a : ℝ) (ha : 0 < a) :
    n_EA_E_distance_and_azimuth2n_EB_E (⟨0, 0, s⟩ : V3 ℝ).fin (great_circle_distance (⟨0, 0, s⟩ : V3 ℝ).fin B.fin (fin 1))
      (n_EA_E_and_n_EB_E2azimuth (⟨0, 0, s⟩ : V3 ℝ).fin B.fin (fin a) (fin 0)) = (⟨B.y, -B.x, B.z⟩ : V3 ℝ).fin := by
  obtain ⟨-, hn⟩ := at_pole hs
  have hss : s * s = 1 := by rcases hs with rfl | rfl <;> norm_num
  rw [C18_eq_angle _ _ hn.ne hB.ne, azimuth_at_pole hs B hB a ha, C143_direct hs, V3.fin_inj, mul_one]
  have hcos : cos (angle ⟨0, 0, s⟩ B) = s * B.z := by rw [cos_angle_unit hn hB]; simp [dot]
  have hsin0 : 0 ≤ sin (angle ⟨0, 0, s⟩ B) := sin_nonneg_of_nonneg_of_le_pi (angle_nonneg _ _) (angle_le_pi _ _)
  have hsin : sin (angle ⟨0, 0, s⟩ B) = √(B.x ^ 2 + B.y ^ 2) := by
    rw [eq_comm, Real.sqrt_eq_iff_mul_self_eq (by positivity) hsin0]
    have h1 := sin_sq_add_cos_sq (angle ⟨0, 0, s⟩ B)
    rw [hcos] at h1
    unfold UnitVec at hB
    linear_combination hB - h1 + B.z ^ 2 * hss
  have hr : √((a * -(s * B.x)) ^ 2 + (a * B.y) ^ 2) = a * √(B.x ^ 2 + B.y ^ 2) := by
    rw [show (a * -(s * B.x)) ^ 2 + (a * B.y) ^ 2 = a ^ 2 * (B.x ^ 2 + B.y ^ 2) by linear_combination a ^ 2 * B.x ^ 2 * hss,
      Real.sqrt_mul (by positivity), Real.sqrt_sq ha.le]
  have e1 := XR.sqrt_mul_cos_atan2 (a * B.y) (a * -(s * B.x))
  have e2 := XR.sqrt_mul_sin_atan2 (a * B.y) (a * -(s * B.x))
  rw [hr] at e1 e2
  rw [hcos, hsin]
  have e1' : √(B.x ^ 2 + B.y ^ 2) * cos (XR.atan2 (a * B.y) (a * -(s * B.x))) = -(s * B.x) :=
    mul_left_cancel₀ ha.ne' (by rw [← mul_assoc]; exact e1)
  have e2' : √(B.x ^ 2 + B.y ^ 2) * sin (XR.atan2 (a * B.y) (a * -(s * B.x))) = B.y :=
    mul_left_cancel₀ ha.ne' (by rw [← mul_assoc]; exact e2)
  rw [e1', e2']
  ext
  · rfl
  · simp only; linear_combination -B.x * hss
  · simp only; linear_combination B.z * hss

/-- **C143** with axes 'E' every course from a pole stays on the axis of the Earth: the result is a multiple of the pole -/
theorem C143_direct_E (d az : ℝ) :
    n_EA_E_distance_and_azimuth2n_EB_E (⟨s, 0, 0⟩ : V3 ℝ).fin (fin d) (fin az) R_E =
      (⟨s * cos d + sin d * sin az, 0, 0⟩ : V3 ℝ).fin := by
  rw [R_E_fin]
  unfold n_EA_E_distance_and_azimuth2n_EB_E
  simp only [xr, V3.mk_fin, Rat.cast_one, Rat.cast_zero]
  have h0 : cross (app (transp one) ⟨1, 0, 0⟩) (⟨s, 0, 0⟩ : V3 ℝ) = 0 := by
    ext <;> simp [cross, app, transp, one, col0, col1, col2, dot]
  rw [h0, unit_zero_fin]
  simp only [xr]
  rw [V3.fin_inj]
  ext <;> simp [cross]
  ring
end

/-- **C143** in particular no position of the Earth at a distance other than 0 is reached from the pole with azimuth 0 (axes 'E') -/
theorem C143_length_E (d : ℝ) (hd0 : 0 < d) (hd : d < π) :
    ∃ C : V3 ℝ, n_EA_E_distance_and_azimuth2n_EB_E (⟨1, 0, 0⟩ : V3 ℝ).fin (fin d) (fin 0) R_E = C.fin ∧ ¬ UnitVec C := by
  refine ⟨_, C143_direct_E (.inl rfl) d 0, ?_⟩
  unfold UnitVec
  simp only [sin_zero, mul_zero, add_zero, one_mul]
  have := Real.sin_pos_of_pos_of_lt_pi hd0 hd
  have := sin_sq_add_cos_sq d
  nlinarith

/-- the theorems apply to both poles: leaving the south pole with azimuth 90 degrees for a quarter of the circumference -/
example : ∃ B : V3 ℝ, n_EA_E_distance_and_azimuth2n_EB_E (⟨0, 0, -1⟩ : V3 ℝ).fin (fin (π / 2)) (fin (π / 2)) = B.fin ∧ B = ⟨1, 0, 0⟩ :=
  ⟨_, C143_direct (.inr rfl) _ _, by ext <;> simp⟩
end Nv
