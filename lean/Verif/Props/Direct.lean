import Verif.Props.Interp

/-!
# C27 - C30: direct and inverse problem on the sphere, mean position
-/

namespace Nv
open Spec Real
open XR (fin)

/-! ## C27 -/

/-- east direction used by the direct problem, off the poles -/
theorem direct_offpole {n : V3 ℝ} (hn : UnitVec n) {R : M3 ℝ} (hp : cross (northPole R) n ≠ 0) (d az : ℝ) :
    n_EA_E_distance_and_azimuth2n_EB_E n.fin (fin d) (fin az) R.fin =
      (cos d • n + sin d • (cos az • cross n (dirOf (cross (northPole R) n)) + sin az • dirOf (cross (northPole R) n))).fin := by
  unfold n_EA_E_distance_and_azimuth2n_EB_E
  simp only [xr, V3.mk_fin, Rat.cast_one, Rat.cast_zero]
  rw [show app (transp R) ⟨1, 0, 0⟩ = northPole R from rfl, unit_fin hp]
  simp only [xr]

/-- orthonormal frame `n, e, n × e` -/
structure Frame (n e : V3 ℝ) : Prop where
  un : UnitVec n
  ue : UnitVec e
  perp : dot n e = 0

theorem Frame.cross_unit {n e : V3 ℝ} (h : Frame n e) : UnitVec (cross n e) := by
  rw [unitVec_iff_len]
  have : len (cross n e) ^ 2 = 1 ^ 2 := by rw [lagrange, h.un.len, h.ue.len, h.perp]; norm_num
  exact (sq_eq_sq₀ (len_nonneg _) zero_le_one).mp this

theorem frame_offpole {n : V3 ℝ} (hn : UnitVec n) {R : M3 ℝ} (hp : cross (northPole R) n ≠ 0) :
    Frame n (dirOf (cross (northPole R) n)) :=
  ⟨hn, dirOf_unit hp, by rw [dot_dirOf_right, dot_cross_self_right, mul_zero]⟩

/-- the point reached -/
noncomputable def reach (n e : V3 ℝ) (d az : ℝ) : V3 ℝ := cos d • n + sin d • (cos az • cross n e + sin az • e)

theorem reach_dot {n e : V3 ℝ} (h : Frame n e) (d az : ℝ) :
    dot n (reach n e d az) = cos d ∧ dot e (reach n e d az) = sin d * sin az ∧
      dot (cross n e) (reach n e d az) = sin d * cos az := by
  have h1 := h.un.dot; have h2 := h.ue.dot; have h3 := h.perp; have h4 := h.cross_unit.dot
  have h5 : dot e n = 0 := by rw [dot_comm]; exact h3
  have h6 : dot n (cross n e) = 0 := dot_cross_self_left _ _
  have h7 : dot e (cross n e) = 0 := dot_cross_self_right _ _
  have h8 : dot (cross n e) n = 0 := dot_cross_left_self _ _
  have h9 : dot (cross n e) e = 0 := dot_cross_right_self _ _
  unfold reach
  simp only [dot_add_right, dot_smul_right, h1, h2, h3, h4, h5, h6, h7, h8, h9]
  refine ⟨by ring, by ring, by ring⟩

theorem reach_unit {n e : V3 ℝ} (h : Frame n e) (d az : ℝ) : UnitVec (reach n e d az) := by
  obtain ⟨r1, r2, r3⟩ := reach_dot h d az
  have : dot (reach n e d az) (reach n e d az) = 1 := by
    conv_lhs => arg 1; unfold reach
    rw [dot_add_left, dot_smul_left, dot_smul_left, dot_add_left, dot_smul_left, dot_smul_left, r1, r2, r3]
    have := sin_sq_add_cos_sq d; have h2 := sin_sq_add_cos_sq az
    linear_combination this + sin d ^ 2 * h2
  unfold UnitVec; unfold dot at this; linarith

theorem reach_angle {n e : V3 ℝ} (h : Frame n e) {d : ℝ} (hd0 : 0 ≤ d) (hd : d ≤ π) (az : ℝ) : angle n (reach n e d az) = d := by
  rw [angle_unit h.un (reach_unit h d az), (reach_dot h d az).1, Real.arccos_cos hd0 hd]

/-- **C27** (part): from every position that is not a pole, in any frame orientation: the result is a unit vector at great
circle distance exactly `d`.  Missing: the poles (there the default axes still work, `C27_default_axes`, but `axes='E'` does
not, `C27_pole_counterexample`). -/
theorem C27_distance_partial (n : V3 ℝ) (hn : UnitVec n) (d : ℝ) (hd0 : 0 ≤ d) (hd : d ≤ π) (az : ℝ) (R : M3 ℝ)
    (hp : cross (northPole R) n ≠ 0) :
    ∃ B : V3 ℝ, n_EA_E_distance_and_azimuth2n_EB_E n.fin (fin d) (fin az) R.fin = B.fin ∧ UnitVec B ∧
      great_circle_distance n.fin B.fin (fin 1) = fin d := by
  have hf := frame_offpole hn hp
  refine ⟨_, direct_offpole hn hp d az, reach_unit hf d az, ?_⟩
  change great_circle_distance n.fin (reach n _ d az).fin (fin 1) = fin d
  rw [C18_eq_angle _ _ hn.ne (reach_unit hf d az).ne, reach_angle hf hd0 hd, mul_one]

/-- **C27** with the default axes, every position (poles included) -/
theorem C27_default_axes (n : V3 ℝ) (hn : UnitVec n) (d : ℝ) (hd0 : 0 ≤ d) (hd : d ≤ π) (az : ℝ) :
    ∃ B : V3 ℝ, n_EA_E_distance_and_azimuth2n_EB_E n.fin (fin d) (fin az) = B.fin ∧ UnitVec B ∧
      great_circle_distance n.fin B.fin (fin 1) = fin d := by
  rw [R_e_fin]
  by_cases hp : cross (northPole Re) n = 0
  · have hnp : northPole Re = ⟨0, 0, 1⟩ := by unfold northPole Re app transp col0 col1 col2 dot; ext <;> simp
    rw [hnp] at hp
    have hx : n.x = 0 := by have := congrArg V3.y hp; simpa [cross] using this
    have hy : n.y = 0 := by have := congrArg V3.x hp; simpa [cross] using this
    have hf : Frame n ⟨1, 0, 0⟩ := ⟨hn, by norm_num [UnitVec], by simp [dot, hx]⟩
    refine ⟨reach n ⟨1, 0, 0⟩ d az, ?_, reach_unit hf d az, ?_⟩
    · unfold n_EA_E_distance_and_azimuth2n_EB_E
      simp only [xr, V3.mk_fin, Rat.cast_one, Rat.cast_zero]
      rw [show app (transp Re) ⟨1, 0, 0⟩ = ⟨0, 0, 1⟩ from hnp, hp, unit_zero_fin]
      simp only [xr]; rfl
    · rw [C18_eq_angle _ _ hn.ne (reach_unit hf d az).ne, reach_angle hf hd0 hd, mul_one]
  · exact C27_distance_partial n hn d hd0 hd az Re hp

/-- **C27** fails at the poles for `axes='E'`: going a quarter turn with azimuth 0 "arrives" at the zero vector. -/
theorem C27_pole_counterexample (az : ℝ) (haz : sin az = 0) :
    E_rotation "E" = .ok (α := M3 XR) one.fin ∧
    n_EA_E_distance_and_azimuth2n_EB_E (⟨1, 0, 0⟩ : V3 ℝ).fin (fin (π / 2)) (fin az) one.fin = (0 : V3 ℝ).fin := by
  constructor
  · unfold E_rotation
    rw [if_neg (by decide), if_pos rfl, R_E_fin]
  · unfold n_EA_E_distance_and_azimuth2n_EB_E
    simp only [xr, V3.mk_fin, Rat.cast_one, Rat.cast_zero]
    have h0 : cross (app (transp one) ⟨1, 0, 0⟩) ⟨1, 0, 0⟩ = 0 := by
      ext <;> simp [cross, app, transp, one, col0, col1, col2, dot]
    rw [h0, unit_zero_fin]
    simp only [xr, haz, cos_pi_div_two]
    rw [V3.fin_inj]
    ext <;> simp [cross]

/-! ## C28 -/

theorem azimuth_offpole {n B : V3 ℝ} (hn : UnitVec n) (hB : UnitVec B) {R : M3 ℝ} (hR : IsRotation R)
    (hp : cross (northPole R) n ≠ 0) {a : ℝ} (ha : 0 < a) :
    n_EA_E_and_n_EB_E2azimuth n.fin B.fin (fin a) (fin 0) R.fin =
      fin (XR.atan2 (dot (dirOf (cross (northPole R) n)) B) (dot (cross n (dirOf (cross (northPole R) n))) B)) := by
  obtain ⟨M, h1, h2, h3, h4, h5⟩ := n_E2R_EN_offpole n R hR hp
  unfold n_EA_E_and_n_EB_E2azimuth n_EA_E_and_n_EB_E2p_AB_E
  simp only [XR.lit_def, Rat.cast_zero, C09_n2p n hn.ne _ _ R hR, C09_n2p B hB.ne _ _ R hR, h1, xr]
  rw [show (len n)⁻¹ • n = dirOf n from rfl, show (len B)⁻¹ • B = dirOf B from rfl, dirOf_of_unit hn, dirOf_of_unit hB]
  have hx : ∀ v, (app (transp M) v).x = dot (col0 M) v := fun v => rfl
  have hy : ∀ v, (app (transp M) v).y = dot (col1 M) v := fun v => rfl
  rw [hx, hy, h4, h5, dirOf_of_unit hn, sub_zero, dot_sub_right, dot_sub_right, dot_smul_right, dot_smul_right,
    dot_smul_right, dot_smul_right, dot_cross_left_self, dot_comm _ n, (frame_offpole hn hp).perp]
  simp only [mul_zero, sub_zero]
  rw [XR.atan2_scale ha]

/-- **C28** (part): the azimuth of the point reached is the azimuth travelled; from every position that is not a pole, in any
frame orientation.  Missing: starting at a pole, where the claim is false (`C28_pole_counterexample`). -/
theorem C28_azimuth_partial (n : V3 ℝ) (hn : UnitVec n) (d : ℝ) (hd0 : 0 < d) (hd : d < π) (az : ℝ) (haz : -π < az)
    (haz' : az ≤ π) (R : M3 ℝ) (hR : IsRotation R) (hp : cross (northPole R) n ≠ 0) (a : ℝ) (ha : 0 < a) :
    n_EA_E_and_n_EB_E2azimuth n.fin (n_EA_E_distance_and_azimuth2n_EB_E n.fin (fin d) (fin az) R.fin) (fin a) (fin 0) R.fin =
      fin az := by
  have hf := frame_offpole hn hp
  rw [direct_offpole hn hp d az]
  change n_EA_E_and_n_EB_E2azimuth n.fin (reach n _ d az).fin _ _ _ = _
  rw [azimuth_offpole hn (reach_unit hf d az) hR hp ha, (reach_dot hf d az).2.1, (reach_dot hf d az).2.2,
    XR.atan2_polar (Real.sin_pos_of_pos_of_lt_pi hd0 hd) haz haz']

/-- **C28** at the poles the two functions use different conventions: starting at the north pole with azimuth 0 (default
axes), the azimuth reported back is `π/2`. -/
theorem C28_pole_counterexample (d : ℝ) (hd0 : 0 < d) (hd : d < π) (a : ℝ) (ha : 0 < a) :
    n_EA_E_and_n_EB_E2azimuth (⟨0, 0, 1⟩ : V3 ℝ).fin
      (n_EA_E_distance_and_azimuth2n_EB_E (⟨0, 0, 1⟩ : V3 ℝ).fin (fin d) (fin 0)) (fin a) (fin 0) = fin (π / 2) := by
  have hnp : northPole Re = ⟨0, 0, 1⟩ := by unfold northPole Re app transp col0 col1 col2 dot; ext <;> simp
  have hc : cross (northPole Re) ⟨0, 0, 1⟩ = 0 := by rw [hnp]; ext <;> simp [cross]
  have hn : UnitVec ⟨0, 0, 1⟩ := by norm_num [UnitVec]
  have hs := Real.sin_pos_of_pos_of_lt_pi hd0 hd
  have hB : UnitVec ⟨0, sin d, cos d⟩ := by
    have := sin_sq_add_cos_sq d; unfold UnitVec; simp only; linarith
  have e1 : n_EA_E_distance_and_azimuth2n_EB_E (⟨0, 0, 1⟩ : V3 ℝ).fin (fin d) (fin 0) = (⟨0, sin d, cos d⟩ : V3 ℝ).fin := by
    rw [R_e_fin]
    unfold n_EA_E_distance_and_azimuth2n_EB_E
    simp only [xr, V3.mk_fin, Rat.cast_one, Rat.cast_zero]
    rw [show app (transp Re) ⟨1, 0, 0⟩ = northPole Re from rfl, hc, unit_zero_fin]
    simp only [xr, cos_zero, sin_zero, V3.fin_inj]
    ext <;> simp [cross]
  rw [e1, R_e_fin]
  obtain ⟨M, h1, h2, h3, h4⟩ := n_E2R_EN_pole ⟨0, 0, 1⟩ hn.ne Re isRotation_Re hc
  rw [dirOf_of_unit hn] at h3
  have h4' : col1 M = ⟨0, 1, 0⟩ := by rw [h4]; unfold Re app transp col0 col1 col2 dot; ext <;> simp
  have h5 : col0 M = ⟨-1, 0, 0⟩ := by
    rw [← h2.cross12, h3, h4']; ext <;> simp [cross]
  unfold n_EA_E_and_n_EB_E2azimuth n_EA_E_and_n_EB_E2p_AB_E
  simp only [XR.lit_def, Rat.cast_zero, C09_n2p _ hn.ne _ _ Re isRotation_Re, C09_n2p _ hB.ne _ _ Re isRotation_Re, h1, xr]
  rw [show ∀ v : V3 ℝ, (len v)⁻¹ • v = dirOf v from fun _ => rfl, show ∀ v : V3 ℝ, (len v)⁻¹ • v = dirOf v from fun _ => rfl,
    dirOf_of_unit hn, dirOf_of_unit hB]
  have hx : ∀ v, (app (transp M) v).x = dot (col0 M) v := fun v => rfl
  have hy : ∀ v, (app (transp M) v).y = dot (col1 M) v := fun v => rfl
  rw [hx, hy, h4', h5]
  simp only [dot, sub_x, sub_y, sub_z, smul_x, smul_y, smul_z, sub_zero, mul_zero, zero_mul, add_zero, zero_add, one_mul]
  have hpi := Real.pi_pos
  rw [XR.atan2_eq (r := a * sin d) (θ := π / 2) (mul_pos ha hs) (by linarith) (by linarith) (by simp) (by simp)]

/-! ## C29 -/

/-- **C29** (part): going the great circle distance along the reported azimuth arrives exactly at B, for every B (also B = A
and B antipodal to A) and every A that is not a pole.  Missing: A a pole, where the claim is false
(`C29_pole_counterexample`). -/
theorem C29_inverse_direct_partial (n B : V3 ℝ) (hn : UnitVec n) (hB : UnitVec B) (R : M3 ℝ) (hR : IsRotation R)
    (hp : cross (northPole R) n ≠ 0) (a : ℝ) (ha : 0 < a) :
    n_EA_E_distance_and_azimuth2n_EB_E n.fin (great_circle_distance n.fin B.fin (fin 1))
      (n_EA_E_and_n_EB_E2azimuth n.fin B.fin (fin a) (fin 0) R.fin) R.fin = B.fin := by
  have hf := frame_offpole hn hp
  rw [azimuth_offpole hn hB hR hp ha, C18_eq_angle _ _ hn.ne hB.ne, direct_offpole hn hp, V3.fin_inj, mul_one,
    cos_angle_unit hn hB, sin_angle_unit hn hB]
  generalize dirOf (cross (northPole R) n) = e at *
  -- |n × B| = √((n×e·B)² + (e·B)²)
  have hl : len (cross n B) = √((dot (cross n e) B) ^ 2 + (dot e B) ^ 2) := by
    rw [← Real.sqrt_sq (len_nonneg (cross n B)), lagrange, hn.len, hB.len]
    congr 1
    have hexp := expand hf B
    have : dot B B = 1 := hB.dot
    rw [hexp] at this
    simp only [dot_add_left, dot_add_right, dot_smul_left, dot_smul_right] at this
    have h1 := hf.un.dot; have h2 := hf.ue.dot; have h3 := hf.perp; have h4 := hf.cross_unit.dot
    have h5 : dot e n = 0 := by rw [dot_comm]; exact h3
    have h6 : dot n (cross n e) = 0 := dot_cross_self_left _ _
    have h7 : dot e (cross n e) = 0 := dot_cross_self_right _ _
    have h8 : dot (cross n e) n = 0 := dot_cross_left_self _ _
    have h9 : dot (cross n e) e = 0 := dot_cross_right_self _ _
    rw [h1, h2, h3, h4, h5, h6, h7, h8, h9] at this
    linear_combination -this
  rw [hl]
  have e1 := XR.sqrt_mul_cos_atan2 (dot e B) (dot (cross n e) B)
  have e2 := XR.sqrt_mul_sin_atan2 (dot e B) (dot (cross n e) B)
  have e3 := expand hf B
  have hx := congrArg V3.x e3; have hy := congrArg V3.y e3; have hz := congrArg V3.z e3
  simp only [add_x, smul_x, add_y, smul_y, add_z, smul_z] at hx hy hz
  ext
  · simp only [add_x, smul_x]; rw [hx]; linear_combination (cross n e).x * e1 + e.x * e2
  · simp only [add_y, smul_y]; rw [hy]; linear_combination (cross n e).y * e1 + e.y * e2
  · simp only [add_z, smul_z]; rw [hz]; linear_combination (cross n e).z * e1 + e.z * e2
where
  expand {n e : V3 ℝ} (hf : Frame n e) (B : V3 ℝ) : B = dot n B • n + dot (cross n e) B • cross n e + dot e B • e := by
    have key : ∀ n e B : V3 ℝ, (dot n n * dot e e - dot n e ^ 2) • B =
        (dot n B * dot e e - dot n e * dot e B) • n + dot (cross n e) B • cross n e +
          (dot e B * dot n n - dot n e * dot n B) • e := by
      intro n e B; ext <;> simp [dot, cross] <;> ring
    have := key n e B
    rw [hf.un.dot, hf.ue.dot, hf.perp] at this
    simp only [mul_one, zero_mul, sub_zero, ne_eq, OfNat.ofNat_ne_zero, not_false_eq_true, zero_pow] at this
    rw [← this]; ext <;> simp

/-- **C29** fails at the north pole: the azimuth function puts the point `(0, sin d, cos d)` at azimuth `π/2`, and going
that way arrives at `(sin d, 0, cos d)`. -/
theorem C29_pole_counterexample (d : ℝ) (hd0 : 0 < d) (hd : d < π) (a : ℝ) (ha : 0 < a) :
    ∃ B C : V3 ℝ, UnitVec B ∧ B ≠ C ∧
      n_EA_E_distance_and_azimuth2n_EB_E (⟨0, 0, 1⟩ : V3 ℝ).fin
        (great_circle_distance (⟨0, 0, 1⟩ : V3 ℝ).fin B.fin (fin 1))
        (n_EA_E_and_n_EB_E2azimuth (⟨0, 0, 1⟩ : V3 ℝ).fin B.fin (fin a) (fin 0)) = C.fin := by
  have hnp : northPole Re = ⟨0, 0, 1⟩ := by unfold northPole Re app transp col0 col1 col2 dot; ext <;> simp
  have hc : cross (northPole Re) ⟨0, 0, 1⟩ = 0 := by rw [hnp]; ext <;> simp [cross]
  have hn : UnitVec ⟨0, 0, 1⟩ := by norm_num [UnitVec]
  have hs := Real.sin_pos_of_pos_of_lt_pi hd0 hd
  have hB : UnitVec ⟨0, sin d, cos d⟩ := by
    have := sin_sq_add_cos_sq d; unfold UnitVec; simp only; linarith
  have e1 : n_EA_E_distance_and_azimuth2n_EB_E (⟨0, 0, 1⟩ : V3 ℝ).fin (fin d) (fin 0) = (⟨0, sin d, cos d⟩ : V3 ℝ).fin := by
    rw [R_e_fin]
    unfold n_EA_E_distance_and_azimuth2n_EB_E
    simp only [xr, V3.mk_fin, Rat.cast_one, Rat.cast_zero]
    rw [show app (transp Re) ⟨1, 0, 0⟩ = northPole Re from rfl, hc, unit_zero_fin]
    simp only [xr, cos_zero, sin_zero, V3.fin_inj]
    ext <;> simp [cross]
  have haz := C28_pole_counterexample d hd0 hd a ha
  rw [e1] at haz
  refine ⟨⟨0, sin d, cos d⟩, ⟨sin d, 0, cos d⟩, hB, ?_, ?_⟩
  · intro h; have := congrArg V3.y h; simp at this; linarith
  · rw [haz, C18_eq_angle _ _ hn.ne hB.ne, angle_unit hn hB]
    have : dot (⟨0, 0, 1⟩ : V3 ℝ) ⟨0, sin d, cos d⟩ = cos d := by simp [dot]
    rw [this, Real.arccos_cos hd0.le hd.le, mul_one, R_e_fin]
    unfold n_EA_E_distance_and_azimuth2n_EB_E
    simp only [xr, V3.mk_fin, Rat.cast_one, Rat.cast_zero]
    rw [show app (transp Re) ⟨1, 0, 0⟩ = northPole Re from rfl, hc, unit_zero_fin]
    simp only [xr, cos_pi_div_two, sin_pi_div_two, V3.fin_inj]
    ext <;> simp [cross]

/-- a position that is not a pole, default axes -/
example : UnitVec ⟨3/5, 0, 4/5⟩ ∧ cross (northPole Re) ⟨3/5, 0, 4/5⟩ ≠ 0 := by
  refine ⟨by norm_num [UnitVec], ?_⟩
  have hnp : northPole Re = ⟨0, 0, 1⟩ := by unfold northPole Re app transp col0 col1 col2 dot; ext <;> simp
  rw [hnp]; intro h; have := congrArg V3.y h; norm_num [cross] at this

/-! ## C30 mean position -/

/-- sum of a list of vectors -/
noncomputable def Spec.vsum (l : List (V3 ℝ)) : V3 ℝ :=
  ⟨(l.map V3.x).sum, (l.map V3.y).sum, (l.map V3.z).sum⟩

theorem foldl_add3 (l : List (V3 ℝ)) (v : V3 ℝ) : (l.map V3.fin).foldl add3 v.fin = (v + vsum l).fin := by
  induction l generalizing v with
  | nil => rw [List.map_nil, List.foldl_nil, V3.fin_inj]; ext <;> simp [vsum]
  | cons a l ih =>
    rw [List.map_cons, List.foldl_cons, add3_fin, ih, V3.fin_inj]
    ext <;> simp [vsum] <;> ring

theorem mean_fin (l : List (V3 ℝ)) (h : vsum l ≠ 0) : mean_horizontal_position (l.map V3.fin) = (dirOf (vsum l)).fin := by
  unfold mean_horizontal_position
  have := foldl_add3 l 0
  simp only [XR.lit_def, Rat.cast_zero, V3.mk_fin]
  rw [show (⟨0, 0, 0⟩ : V3 ℝ) = 0 from rfl, this]
  have e : 0 + vsum l = vsum l := by ext <;> simp
  rw [e, unit_fin h]

/-- sum of squared chord lengths to the positions -/
noncomputable def Spec.sumSqDist (l : List (V3 ℝ)) (x : V3 ℝ) : ℝ := (l.map fun b => len (x - b) ^ 2).sum

theorem sumSqDist_eq (l : List (V3 ℝ)) (x : V3 ℝ) :
    sumSqDist l x = l.length * len x ^ 2 + (l.map fun b => len b ^ 2).sum - 2 * dot x (vsum l) := by
  induction l with
  | nil => simp [sumSqDist, vsum, dot]
  | cons b l ih =>
    have h1 : len (x - b) ^ 2 = len x ^ 2 + len b ^ 2 - 2 * dot x b := by
      rw [len_sq, len_sq, len_sq]; simp [dot]; ring
    have h2 : dot x (vsum (b :: l)) = dot x b + dot x (vsum l) := by
      rw [← dot_add_right]; congr 1
    unfold sumSqDist at ih ⊢
    rw [List.map_cons, List.sum_cons, ih, h1, h2, List.map_cons, List.sum_cons, List.length_cons]
    push_cast; ring

/-- **C30** the mean is the unit vector that minimises the sum of squared chord distances, and the only one, whenever the
positions do not cancel -/
theorem C30_minimises (l : List (V3 ℝ)) (h : vsum l ≠ 0) :
    ∃ M : V3 ℝ, mean_horizontal_position (l.map V3.fin) = M.fin ∧ UnitVec M ∧
      ∀ x, UnitVec x → sumSqDist l M ≤ sumSqDist l x ∧ (sumSqDist l x = sumSqDist l M → x = M) := by
  have hu := dirOf_unit h
  have hl := len_pos h
  refine ⟨_, mean_fin l h, hu, fun x hx => ?_⟩
  have hM : dot (dirOf (vsum l)) (vsum l) = len (vsum l) := by
    rw [dot_dirOf_left, dot_self]; field_simp
  have hxs : dot x (vsum l) = len (vsum l) * dot x (dirOf (vsum l)) := by
    rw [dot_dirOf_right]; field_simp
  have hle := dot_le_one hx hu
  rw [sumSqDist_eq, sumSqDist_eq, hx.len, hu.len, hM, hxs]
  constructor
  · nlinarith
  · intro heq
    apply eq_of_dot_eq_one hx hu
    have : len (vsum l) * dot x (dirOf (vsum l)) = len (vsum l) * 1 := by linarith
    exact mul_left_cancel₀ hl.ne' this

/-- **C30** the order of the positions does not matter -/
theorem C30_order (l l' : List (V3 ℝ)) (h : l.Perm l') :
    mean_horizontal_position (l.map V3.fin) = mean_horizontal_position (l'.map V3.fin) := by
  have hs : vsum l = vsum l' := by
    unfold vsum; rw [(h.map V3.x).sum_eq, (h.map V3.y).sum_eq, (h.map V3.z).sum_eq]
  unfold mean_horizontal_position
  simp only [XR.lit_def, Rat.cast_zero, V3.mk_fin]
  rw [foldl_add3, foldl_add3, hs]

/-- **C30** copies of one position average to that position -/
theorem C30_copies (b : V3 ℝ) (hb : UnitVec b) (k : ℕ) :
    mean_horizontal_position ((List.replicate (k + 1) b).map V3.fin) = b.fin := by
  have hs : vsum (List.replicate (k + 1) b) = ((k : ℝ) + 1) • b := by
    unfold vsum; ext <;> simp
  have hk : (0:ℝ) < (k : ℝ) + 1 := by positivity
  rw [mean_fin _ (by rw [hs]; exact smul_ne_zero hk.ne' hb.ne), hs, dirOf_smul hk, dirOf_of_unit hb]

/-- **C30** the result is a unit vector for every list of positions; when the positions cancel (also for no positions at all)
it is the x-axis, without any NaN or warning -/
theorem C30_unit (l : List (V3 ℝ)) :
    ∃ M : V3 ℝ, mean_horizontal_position (l.map V3.fin) = M.fin ∧ UnitVec M ∧ (vsum l = 0 → M = ⟨1, 0, 0⟩) := by
  by_cases h : vsum l = 0
  · refine ⟨⟨1, 0, 0⟩, ?_, by norm_num [UnitVec], fun _ => rfl⟩
    unfold mean_horizontal_position
    simp only [XR.lit_def, Rat.cast_zero, V3.mk_fin, Rat.cast_one]
    have e : (⟨0, 0, 0⟩ : V3 ℝ) + 0 = 0 := by ext <;> simp
    rw [foldl_add3, h, e, unit_zero_fin]
  · exact ⟨_, mean_fin l h, dirOf_unit h, fun h' => absurd h' h⟩

/-- three positions that do not cancel -/
example : vsum [⟨1, 0, 0⟩, ⟨0, 1, 0⟩, ⟨3/5, 4/5, 0⟩] ≠ 0 := by
  intro h; have := congrArg V3.x h; norm_num [vsum] at this

end Nv
