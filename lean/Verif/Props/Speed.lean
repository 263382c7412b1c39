import Verif.Props.Shortest
import Verif.Props.Triangle
import Mathlib.Analysis.Real.Pi.Bounds

/-!
# C131: how far along the path an interpolated position is

`interpolate(path, t)` is a point of the chord, projected to the sphere: its distance from the start is not `t` times the length of the
path, but an explicit function of `t`, close to it for short paths.
-/

namespace Nv
open Spec Real
open XR (fin)

namespace Spec

/-- the angle from the start of a path of angular length `θ` to its interpolated point of parameter `t` -/
noncomputable def progress (θ t : ℝ) : ℝ := θ / 2 + arctan ((2 * t - 1) * tan (θ / 2))

end Spec

theorem cos_half_pos {θ : ℝ} (h0 : 0 ≤ θ) (h1 : θ < π) : 0 < cos (θ / 2) :=
  Real.cos_pos_of_mem_Ioo ⟨by linarith, by linarith⟩

/-- the interpolated point in terms of the start and the direction of departure -/
theorem mix_progress {A u : V3 ℝ} (hA : UnitVec A) (hu : UnitVec u) (hp : dot A u = 0) {θ : ℝ} (h0 : 0 ≤ θ) (h1 : θ < π) (t : ℝ) :
    mix A (cos θ • A + sin θ • u) t ≠ 0 ∧
    dirOf (mix A (cos θ • A + sin θ • u) t) = cos (progress θ t) • A + sin (progress θ t) • u := by
  have hc := cos_half_pos h0 h1
  obtain ⟨ψ, hψ⟩ : ∃ ψ, ψ = arctan ((2 * t - 1) * tan (θ / 2)) := ⟨_, rfl⟩
  have hcψ : 0 < cos ψ := by rw [hψ]; exact Real.cos_arctan_pos _
  have htan : sin ψ * cos (θ / 2) = (2 * t - 1) * sin (θ / 2) * cos ψ := by
    have h := Real.tan_arctan ((2 * t - 1) * tan (θ / 2))
    rw [← hψ, Real.tan_eq_sin_div_cos, Real.tan_eq_sin_div_cos] at h
    field_simp at h
    linarith
  have hδ : progress θ t = θ / 2 + ψ := by rw [progress, hψ]
  have e1 : sin θ = 2 * sin (θ / 2) * cos (θ / 2) := by rw [← Real.sin_two_mul]; congr 1; ring
  have e2 : cos θ = 2 * cos (θ / 2) ^ 2 - 1 := by rw [← Real.cos_two_mul]; congr 1; ring
  have e3 := Real.sin_sq_add_cos_sq (θ / 2)
  have hw : UnitVec (cos (progress θ t) • A + sin (progress θ t) • u) := by
    have g1 := hA; have g2 := hu; have g3 := hp
    unfold UnitVec at g1 g2 ⊢
    unfold dot at g3
    have hsc := Real.sin_sq_add_cos_sq (progress θ t)
    simp only [add_x, add_y, add_z, smul_x, smul_y, smul_z]
    linear_combination cos (progress θ t) ^ 2 * g1 + sin (progress θ t) ^ 2 * g2 + 2 * sin (progress θ t) * cos (progress θ t) * g3 + hsc
  have hk : 0 < cos (θ / 2) / cos ψ := by positivity
  have e : mix A (cos θ • A + sin θ • u) t = (cos (θ / 2) / cos ψ) • (cos (progress θ t) • A + sin (progress θ t) • u) := by
    have c1 : 1 - t + t * cos θ = cos (θ / 2) / cos ψ * cos (progress θ t) := by
      rw [hδ, Real.cos_add, e2]; field_simp
      linear_combination sin (θ / 2) * htan - cos ψ * (1 - 2 * t) * e3
    have c2 : t * sin θ = cos (θ / 2) / cos ψ * sin (progress θ t) := by
      rw [hδ, Real.sin_add, e1]; field_simp
      linear_combination -htan
    unfold mix
    ext
    · simp only [add_x, smul_x, sub_x]; linear_combination c1 * A.x + c2 * u.x
    · simp only [add_y, smul_y, sub_y]; linear_combination c1 * A.y + c2 * u.y
    · simp only [add_z, smul_z, sub_z]; linear_combination c1 * A.z + c2 * u.z
  rw [e]
  exact ⟨smul_ne_zero hk.ne' hw.ne, by rw [dirOf_smul hk, dirOf_of_unit hw]⟩

theorem angle_lt_pi {A B : V3 ℝ} (hA : UnitVec A) (hB : UnitVec B) (h : B ≠ -A) : angle A B < π := by
  refine lt_of_le_of_ne (angle_le_pi A B) fun e => h ?_
  have hc := cos_angle_unit hA hB
  rw [e, Real.cos_pi] at hc
  exact eq_of_dot_eq_one hB hA.neg (by rw [dot_neg_right, dot_comm, ← hc]; norm_num)

theorem progress_strict {θ : ℝ} (h0 : 0 < θ) (h1 : θ < π) {s t : ℝ} (h : s < t) : progress θ s < progress θ t := by
  have := Real.tan_pos_of_pos_of_lt_pi_div_two (x := θ / 2) (by linarith) (by linarith)
  unfold progress
  have := Real.arctan_strictMono (show (2 * s - 1) * tan (θ / 2) < (2 * t - 1) * tan (θ / 2) by nlinarith)
  linarith

theorem progress_mono {θ : ℝ} (h0 : 0 ≤ θ) (h1 : θ < π) {s t : ℝ} (h : s ≤ t) : progress θ s ≤ progress θ t := by
  have := Real.tan_nonneg_of_nonneg_of_le_pi_div_two (x := θ / 2) (by linarith) (by linarith)
  unfold progress
  have := Real.arctan_strictMono.monotone (show (2 * s - 1) * tan (θ / 2) ≤ (2 * t - 1) * tan (θ / 2) by nlinarith)
  linarith

theorem progress_ends {θ : ℝ} (h0 : 0 ≤ θ) (h1 : θ < π) : progress θ 0 = 0 ∧ progress θ (1 / 2) = θ / 2 ∧ progress θ 1 = θ := by
  unfold progress
  refine ⟨?_, ?_, ?_⟩
  · rw [show (2 * (0 : ℝ) - 1) * tan (θ / 2) = -tan (θ / 2) by ring, Real.arctan_neg, Real.arctan_tan (by linarith) (by linarith)]; ring
  · rw [show (2 * (1 / 2 : ℝ) - 1) * tan (θ / 2) = 0 by ring, Real.arctan_zero, add_zero]
  · rw [show (2 * (1 : ℝ) - 1) * tan (θ / 2) = tan (θ / 2) by ring, Real.arctan_tan (by linarith) (by linarith)]; ring

/-- the slope of the arctangent -/
theorem arctan_sub_le {x y : ℝ} (h : x ≤ y) : arctan y - arctan x ≤ y - x := by
  have key : Monotone fun z : ℝ => z - arctan z := by
    apply monotone_of_deriv_nonneg
    · exact differentiable_id.sub Real.differentiable_arctan
    · intro z
      have hd : HasDerivAt (fun z : ℝ => z - arctan z) (1 - 1 / (1 + z ^ 2)) z := (hasDerivAt_id z).sub (Real.hasDerivAt_arctan z)
      rw [hd.deriv, sub_nonneg, div_le_one (by positivity)]
      nlinarith [sq_nonneg z]
  have := key h
  simp only at this
  linarith

theorem le_arctan_sub {x y k : ℝ} (h : x ≤ y) (hx : -k ≤ x) (hy : y ≤ k) : (y - x) / (1 + k ^ 2) ≤ arctan y - arctan x := by
  have hk : 0 < 1 + k ^ 2 := by positivity
  have key : MonotoneOn (fun z : ℝ => arctan z - z / (1 + k ^ 2)) (Set.Icc (-k) k) := by
    apply monotoneOn_of_deriv_nonneg (convex_Icc _ _)
    · exact (Real.continuous_arctan.sub (continuous_id.div_const _)).continuousOn
    · exact (Real.differentiable_arctan.sub (differentiable_id.div_const _)).differentiableOn
    · intro z hz
      rw [interior_Icc] at hz
      have hd : HasDerivAt (fun z : ℝ => arctan z - z / (1 + k ^ 2)) (1 / (1 + z ^ 2) - 1 / (1 + k ^ 2)) z :=
        (Real.hasDerivAt_arctan z).sub ((hasDerivAt_id z).div_const _)
      rw [hd.deriv, sub_nonneg]
      apply one_div_le_one_div_of_le (by positivity)
      have : z ^ 2 ≤ k ^ 2 := sq_le_sq' hz.1.le hz.2.le
      linarith
  have := key ⟨hx, h.trans hy⟩ ⟨hx.trans h, hy⟩ h
  simp only at this
  rw [sub_div]
  linarith

/-- between `sin θ` and `2 tan (θ/2)` per unit of `t` -/
theorem progress_speed {θ : ℝ} (h0 : 0 ≤ θ) (h1 : θ < π) {s t : ℝ} (h : s ≤ t) :
    progress θ t - progress θ s ≤ 2 * tan (θ / 2) * (t - s) ∧
    (0 ≤ s → t ≤ 1 → sin θ * (t - s) ≤ progress θ t - progress θ s) := by
  have hT := Real.tan_nonneg_of_nonneg_of_le_pi_div_two (x := θ / 2) (by linarith) (by linarith)
  have hle : (2 * s - 1) * tan (θ / 2) ≤ (2 * t - 1) * tan (θ / 2) := by nlinarith
  constructor
  · have := arctan_sub_le hle
    unfold progress
    linarith
  · intro hs ht
    have := le_arctan_sub (k := tan (θ / 2)) hle (by nlinarith) (by nlinarith)
    have hc := cos_half_pos h0 h1
    have e : sin θ * (t - s) = ((2 * t - 1) * tan (θ / 2) - (2 * s - 1) * tan (θ / 2)) / (1 + tan (θ / 2) ^ 2) := by
      have e1 : sin θ = 2 * sin (θ / 2) * cos (θ / 2) := by rw [← Real.sin_two_mul]; congr 1; ring
      have e3 := Real.sin_sq_add_cos_sq (θ / 2)
      rw [e1, Real.tan_eq_sin_div_cos]
      field_simp
      rw [add_comm, e3]; ring
    unfold progress
    linarith

/-- the angle between two interpolated points -/
theorem angle_mix {A B : V3 ℝ} (hA : UnitVec A) (hB : UnitVec B) (hAB : B ≠ -A) {s t : ℝ} (hs : 0 ≤ s) (ht : t ≤ 1) (h : s ≤ t) :
    mix A B s ≠ 0 ∧ mix A B t ≠ 0 ∧
    angle (dirOf (mix A B s)) (dirOf (mix A B t)) = progress (angle A B) t - progress (angle A B) s := by
  have h0 := angle_nonneg A B
  have h1 := angle_lt_pi hA hB hAB
  obtain ⟨u, hu, hp, e⟩ := exists_tangent hA hB
  generalize angle A B = θ at *
  subst e
  obtain ⟨n1, e1⟩ := mix_progress hA hu hp h0 h1 s
  obtain ⟨n2, e2⟩ := mix_progress hA hu hp h0 h1 t
  refine ⟨n1, n2, ?_⟩
  have hc := cos_angle_unit (dirOf_unit n1) (dirOf_unit n2)
  have hm := progress_mono h0 h1 h
  have hm0 := progress_mono h0 h1 hs
  have hm1 := progress_mono h0 h1 ht
  rw [(progress_ends h0 h1).1] at hm0
  rw [(progress_ends h0 h1).2.2] at hm1
  apply Real.injOn_cos ⟨angle_nonneg _ _, angle_le_pi _ _⟩ ⟨by linarith, by linarith⟩
  rw [hc, e1, e2, Real.cos_sub]
  have g1 := hA.dot; have g2 := hu.dot
  simp only [dot_add_right, dot_smul_right, dot_add_left, dot_smul_left, g1, g2, hp, dot_comm u A]
  ring

/-- **C131** the distance between two interpolated positions of a path that does not join antipodes: with `θ` the angular length of
the path it is `r (arctan((2t-1) tan θ/2) - arctan((2s-1) tan θ/2))`, so that from `s` to `t` the position moves by at least
`r sin θ (t - s)` and at most `2 r tan(θ/2) (t - s)` -/
theorem C131_distance (A B : V3 ℝ) (hA : UnitVec A) (hB : UnitVec B) (hAB : B ≠ -A) (r : ℝ) (hr : 0 < r) (s t : ℝ) (hs : 0 ≤ s)
    (hst : s ≤ t) (ht : t ≤ 1) :
    ∃ D x : ℝ, great_circle_distance A.fin B.fin (fin r) = fin D ∧
      great_circle_distance (interpolate (A.fin, B.fin) (fin s)) (interpolate (A.fin, B.fin) (fin t)) (fin r) = fin x ∧
      x = r * (arctan ((2 * t - 1) * tan (D / r / 2)) - arctan ((2 * s - 1) * tan (D / r / 2))) ∧
      r * sin (D / r) * (t - s) ≤ x ∧ x ≤ 2 * r * tan (D / r / 2) * (t - s) := by
  obtain ⟨n1, n2, e⟩ := angle_mix hA hB hAB hs ht hst
  refine ⟨_, r * (progress (angle A B) t - progress (angle A B) s), C18_eq_angle A B hA.ne hB.ne r, ?_, ?_, ?_, ?_⟩
  · rw [interpolate_fin n1, interpolate_fin n2, C18_eq_angle _ _ (dirOf_unit n1).ne (dirOf_unit n2).ne, e, mul_comm]
  all_goals rw [mul_div_assoc, div_self hr.ne', mul_one]
  · unfold progress; ring
  · have := (progress_speed (angle_nonneg A B) (angle_lt_pi hA hB hAB) hst).2 hs ht
    rw [mul_assoc]
    exact mul_le_mul_of_nonneg_left this hr.le
  · have := (progress_speed (angle_nonneg A B) (angle_lt_pi hA hB hAB) hst).1
    calc _ ≤ r * (2 * tan (angle A B / 2) * (t - s)) := mul_le_mul_of_nonneg_left this hr.le
      _ = _ := by ring

/-- **C131** `t = 1/2` is half way, and the mean of the two end points -/
theorem C131_midpoint (A B : V3 ℝ) (hA : UnitVec A) (hB : UnitVec B) (hAB : B ≠ -A) (r : ℝ) :
    ∃ D : ℝ, great_circle_distance A.fin B.fin (fin r) = fin D ∧
      interpolate (A.fin, B.fin) (fin (1 / 2)) = mean_horizontal_position [A.fin, B.fin] ∧
      great_circle_distance A.fin (mean_horizontal_position [A.fin, B.fin]) (fin r) = fin (D / 2) ∧
      great_circle_distance (mean_horizontal_position [A.fin, B.fin]) B.fin (fin r) = fin (D / 2) := by
  have h0 := angle_nonneg A B
  have h1 := angle_lt_pi hA hB hAB
  obtain ⟨n1, n2, e⟩ := angle_mix hA hB hAB (s := 0) (t := 1 / 2) le_rfl (by norm_num) (by norm_num)
  obtain ⟨-, n3, e'⟩ := angle_mix hA hB hAB (s := 1 / 2) (t := 1) (by norm_num) le_rfl (by norm_num)
  obtain ⟨p0, p1, p2⟩ := progress_ends h0 h1
  rw [p0, p1, show mix A B 0 = A by unfold mix; ext <;> simp, dirOf_of_unit hA] at e
  rw [p1, p2, show mix A B 1 = B by unfold mix; ext <;> simp, dirOf_of_unit hB] at e'
  have hv : vsum [A, B] = (2 : ℝ) • mix A B (1 / 2) := by unfold mix; ext <;> simp [vsum] <;> ring
  have hm : mean_horizontal_position [A.fin, B.fin] = (dirOf (mix A B (1 / 2))).fin := by
    have := mean_fin [A, B] (by rw [hv]; exact smul_ne_zero (by norm_num) n2)
    rw [hv, dirOf_smul (by norm_num)] at this
    exact this
  refine ⟨_, C18_eq_angle A B hA.ne hB.ne r, ?_, ?_, ?_⟩
  · rw [hm, interpolate_fin n2]
  · rw [hm, C18_eq_angle _ _ hA.ne (dirOf_unit n2).ne, e, XR.fin_inj]; ring
  · rw [hm, C18_eq_angle _ _ (dirOf_unit n2).ne hB.ne, e', XR.fin_inj]; ring

/-- **C131** on a path of at most a tenth of the radius (637 km on the earth) a step of `t` is a step of the same fraction of the
length of the path, to a quarter of a percent -/
theorem C131_short (A B : V3 ℝ) (hA : UnitVec A) (hB : UnitVec B) (r D : ℝ) (hr : 0 < r)
    (hD : great_circle_distance A.fin B.fin (fin r) = fin D) (hshort : D ≤ r / 10) (s t : ℝ) (hs : 0 ≤ s) (hst : s ≤ t) (ht : t ≤ 1) :
    ∃ x : ℝ, great_circle_distance (interpolate (A.fin, B.fin) (fin s)) (interpolate (A.fin, B.fin) (fin t)) (fin r) = fin x ∧
      0.9975 * (D * (t - s)) ≤ x ∧ x ≤ 1.0025 * (D * (t - s)) := by
  have hD' : D = angle A B * r := (XR.fin_inj.mp ((C18_eq_angle A B hA.ne hB.ne r).symm.trans hD)).symm
  have h0 := angle_nonneg A B
  have hθ : angle A B ≤ 1 / 10 := by
    rw [hD'] at hshort
    by_contra h
    push Not at h
    nlinarith
  have hAB : B ≠ -A := by
    intro h
    have hc := cos_angle_unit hA hB
    rw [h, dot_neg_right, hA.dot] at hc
    have := Real.one_sub_sq_div_two_le_cos (x := angle A B)
    rw [h] at this hθ h0
    nlinarith
  obtain ⟨D', x, hD2, hx, -, h1, h2⟩ := C131_distance A B hA hB hAB r hr s t hs hst ht
  have e : D' = D := XR.fin_inj.mp (hD2.symm.trans hD)
  subst e
  refine ⟨x, hx, ?_, ?_⟩
  all_goals rw [hD', mul_div_assoc, div_self hr.ne', mul_one] at h1 h2
  all_goals rw [hD']
  all_goals generalize angle A B = θ at *
  · refine le_trans ?_ h1
    have hsin : 0.9975 * θ ≤ sin θ := by
      rcases eq_or_lt_of_le h0 with h | h
      · rw [← h]; simp
      · have := Real.sin_gt_sub_cube h
        nlinarith [mul_pos h h]
    have : 0 ≤ r * (t - s) := mul_nonneg hr.le (by linarith)
    nlinarith
  · refine h2.trans ?_
    have htan : 2 * tan (θ / 2) ≤ 1.0025 * θ := by
      have hs1 := Real.sin_le (show 0 ≤ θ / 2 by linarith)
      have hc1 := Real.one_sub_sq_div_two_le_cos (x := θ / 2)
      have hc : 0.99875 ≤ cos (θ / 2) := by nlinarith
      rw [Real.tan_eq_sin_div_cos, mul_div_assoc', div_le_iff₀ (by linarith)]
      nlinarith
    have : 0 ≤ r * (t - s) := mul_nonneg hr.le (by linarith)
    nlinarith

section
variable {R : M3 ℝ} (hR : IsRotation R)
include hR

/-- **C131** interpolation against the direct problem: leaving `A` (not a pole) with the azimuth of `B` and travelling the distance of
`C131_distance`, one arrives at the interpolated position; for every `t`, so also for extrapolation, which never gets farther than a
quarter of the circumference from the middle of the path -/
theorem C131_direct (A B : V3 ℝ) (hA : UnitVec A) (hB : UnitVec B) (hAB : B ≠ -A) (hpole : cross (northPole R) A ≠ 0)
    (a : ℝ) (ha : 0 < a) (t : ℝ) :
    ∃ θ az x : ℝ, great_circle_distance A.fin B.fin (fin 1) = fin θ ∧
      n_EA_E_and_n_EB_E2azimuth A.fin B.fin (fin a) (fin 0) R.fin = fin az ∧
      interpolate (A.fin, B.fin) (fin t) = n_EA_E_distance_and_azimuth2n_EB_E A.fin (fin x) (fin az) R.fin ∧
      x = θ / 2 + arctan ((2 * t - 1) * tan (θ / 2)) ∧ |x - θ / 2| < π / 2 := by
  obtain ⟨az, h1, h2⟩ := azimuth_reach hR ha hA hB hpole
  have hf := frame_offpole hA hpole
  have h0 := angle_nonneg A B
  have hlt := angle_lt_pi hA hB hAB
  refine ⟨angle A B, az, progress (angle A B) t, ?_, h1, ?_, rfl, ?_⟩
  · rw [C18_eq_angle _ _ hA.ne hB.ne, mul_one]
  · rw [direct_offpole hA hpole]
    change _ = (reach A _ _ az).fin
    have hu : UnitVec (cos az • cross A (dirOf (cross (northPole R) A)) + sin az • dirOf (cross (northPole R) A)) := by
      have := reach_unit hf (π / 2) az
      unfold reach at this
      rw [Real.cos_pi_div_two, Real.sin_pi_div_two] at this
      convert this using 1
      ext <;> simp
    have hpu : dot A (cos az • cross A (dirOf (cross (northPole R) A)) + sin az • dirOf (cross (northPole R) A)) = 0 := by
      rw [dot_add_right, dot_smul_right, dot_smul_right, hf.perp, dot_cross_self_left]; ring
    obtain ⟨m1, m2⟩ := mix_progress hA hu hpu h0 hlt t
    have e : mix A B t = mix A (cos (angle A B) • A +
        sin (angle A B) • (cos az • cross A (dirOf (cross (northPole R) A)) + sin az • dirOf (cross (northPole R) A))) t := by
      conv_lhs => rw [h2]
      rfl
    rw [← e] at m1 m2
    rw [interpolate_fin m1, m2]; rfl
  · unfold progress
    rw [add_sub_cancel_left, abs_lt]
    exact ⟨Real.neg_pi_div_two_lt_arctan _, Real.arctan_lt_pi_div_two _⟩

end

/-- **C131** `GeoPath.interpolate`: the same distances along the way between the two positions of a path object, whatever their kind,
and the depth changes in proportion to `t` -/
theorem C131_path (P : GeoPath XR) (A B pA pB : V3 ℝ) (zA zB a f : ℝ) (name : EllKey) (R : M3 ℝ)
    (hA : At P.point_a A zA pA (.real a f name R)) (hB : At P.point_b B zB pB (.real a f name R)) (hAB : B ≠ -A)
    (r : ℝ) (hr : 0 < r) (s t : ℝ) (hs : 0 ≤ s) (hst : s ≤ t) (ht : t ≤ 1) :
    ∃ (Ns Nt : V3 ℝ) (D x : ℝ),
      P.interpolate (fin s) = .ok (.real Ns (zA + s * (zB - zA)) (.real a f name R)) ∧
      P.interpolate (fin t) = .ok (.real Nt (zA + t * (zB - zA)) (.real a f name R)) ∧
      great_circle_distance A.fin B.fin (fin r) = fin D ∧ great_circle_distance Ns.fin Nt.fin (fin r) = fin x ∧
      x = r * (arctan ((2 * t - 1) * tan (D / r / 2)) - arctan ((2 * s - 1) * tan (D / r / 2))) ∧
      r * sin (D / r) * (t - s) ≤ x ∧ x ≤ 2 * r * tan (D / r / 2) * (t - s) := by
  obtain ⟨n1, n2, -⟩ := angle_mix hA.unit hB.unit hAB hs ht hst
  obtain ⟨D, x, h1, h2, h3⟩ := C131_distance A B hA.unit hB.unit hAB r hr s t hs hst ht
  rw [interpolate_fin n1, interpolate_fin n2] at h2
  exact ⟨_, _, D, x, geoPath_interpolate_fin hA hB s n1, geoPath_interpolate_fin hA hB t n2, h1, h2, h3⟩

/-- a quarter of the way by parameter is not a quarter of the way by distance: on a path of a quarter of the circumference
`t = 1/4` is `π/4 - arctan(1/2)` instead of `π/8` from the start -/
theorem C131_not_uniform :
    ∃ x : ℝ, great_circle_distance (⟨1, 0, 0⟩ : V3 ℝ).fin (interpolate ((⟨1, 0, 0⟩ : V3 ℝ).fin, (⟨0, 1, 0⟩ : V3 ℝ).fin) (fin (1 / 4))) (fin 1) = fin x ∧
      x = π / 4 - arctan (1 / 2) ∧ x < π / 8 := by
  have hA : UnitVec (⟨1, 0, 0⟩ : V3 ℝ) := by norm_num [UnitVec]
  have hB : UnitVec (⟨0, 1, 0⟩ : V3 ℝ) := by norm_num [UnitVec]
  have hAB : (⟨0, 1, 0⟩ : V3 ℝ) ≠ -⟨1, 0, 0⟩ := fun h => by have := congrArg V3.y h; norm_num at this
  obtain ⟨D, x, h1, h2, h3, -⟩ := C131_distance _ _ hA hB hAB 1 one_pos 0 (1 / 4) le_rfl (by norm_num) (by norm_num)
  have hD : D = π / 2 := by
    rw [C18_eq_angle _ _ hA.ne hB.ne, XR.fin_inj, angle_unit hA hB] at h1
    rw [← h1]; simp [dot]
  rw [(C25_endpoints _ _ hA hB).1] at h2
  refine ⟨x, h2, ?_, ?_⟩
  · rw [h3, hD, div_one, show π / 2 / 2 = π / 4 by ring, Real.tan_pi_div_four,
      show (2 * (1 / 4 : ℝ) - 1) * 1 = -(1 / 2) by norm_num, show (2 * (0 : ℝ) - 1) * 1 = -1 by norm_num, Real.arctan_neg, Real.arctan_neg,
      Real.arctan_one]; ring
  · rw [h3, hD, div_one, show π / 2 / 2 = π / 4 by ring, Real.tan_pi_div_four,
      show (2 * (1 / 4 : ℝ) - 1) * 1 = -(1 / 2) by norm_num, show (2 * (0 : ℝ) - 1) * 1 = -1 by norm_num, Real.arctan_neg, Real.arctan_neg,
      Real.arctan_one]
    have h := Real.arctan_add (x := 1 / 2) (y := 1 / 2) (by norm_num)
    have h4 : π / 4 < arctan ((1 / 2 + 1 / 2) / (1 - 1 / 2 * (1 / 2))) := by
      rw [← Real.arctan_one]; apply Real.arctan_strictMono; norm_num
    linarith

/-- the hypotheses of `C131_short` are met by a path that is not trivial -/
example : ∃ (A B : V3 ℝ) (D : ℝ), UnitVec A ∧ UnitVec B ∧ great_circle_distance A.fin B.fin (fin 6371009) = fin D ∧ D ≤ 6371009 / 10 ∧ 0 < D := by
  have hA : UnitVec (⟨1, 0, 0⟩ : V3 ℝ) := by norm_num [UnitVec]
  have hB : UnitVec (⟨cos (1 / 20), sin (1 / 20), 0⟩ : V3 ℝ) := by
    have := Real.sin_sq_add_cos_sq (1 / 20)
    unfold UnitVec; simp only; linarith
  refine ⟨_, _, 1 / 20 * 6371009, hA, hB, ?_, by norm_num, by norm_num⟩
  rw [C18_eq_angle _ _ hA.ne hB.ne, angle_unit hA hB]
  congr 2
  rw [show dot (⟨1, 0, 0⟩ : V3 ℝ) ⟨cos (1 / 20), sin (1 / 20), 0⟩ = cos (1 / 20) by simp [dot], Real.arccos_cos (by norm_num) (by linarith [Real.pi_gt_three])]

end Nv
