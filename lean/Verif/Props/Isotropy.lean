import Verif.Props.Walk

/-!
# C122: no direction is special

The great circle functions commute with every rotation of the sphere, and everything else depends on the choice of coordinate
axes (`R_Ee`) only through the rotation between the two choices.
-/

namespace Nv
open Spec Real
open XR (fin)

/-- the vector in the rotated coordinate system -/
noncomputable def Spec.turned (Q : M3 ℝ) (v : V3 XR) : V3 XR := mulVec Q.fin v

@[simp] theorem turned_fin (Q : M3 ℝ) (v : V3 ℝ) : turned Q v.fin = (app Q v).fin := rfl
@[simp] theorem turned_nan (Q : M3 ℝ) : turned Q V3.nan = V3.nan := mulVec_nan _

section
variable {Q : M3 ℝ} (hQ : IsRotation Q)
include hQ

theorem app_eq_zero {v : V3 ℝ} : app Q v = 0 ↔ v = 0 := by
  constructor
  · intro h; by_contra hv; exact app_ne_zero hQ hv h
  · rintro rfl; ext <;> simp [app, dot]

theorem unit_turned_nan (v : V3 ℝ) : unit (app Q v).fin PyFloat.nan = turned Q (unit v.fin PyFloat.nan) := by
  by_cases hv : v = 0
  · rw [(app_eq_zero hQ).2 hv, hv, unit_zero_nan, turned_nan]
  · rw [unit_fin hv, unit_fin (app_ne_zero hQ hv), turned_fin, app_dirOf hQ]

theorem normal_cases (A B : V3 ℝ) :
    (cross A B = 0 ∧ great_circle_normal A.fin B.fin = V3.nan ∧ great_circle_normal (app Q A).fin (app Q B).fin = V3.nan) ∨
    (cross A B ≠ 0 ∧ great_circle_normal A.fin B.fin = (dirOf (cross A B)).fin ∧
      great_circle_normal (app Q A).fin (app Q B).fin = (app Q (dirOf (cross A B))).fin) := by
  unfold great_circle_normal
  rw [cross3_fin, cross3_fin, cross_app hQ, unit_turned_nan hQ]
  by_cases h : cross A B = 0
  · left; rw [h, unit_zero_nan, turned_nan]; exact ⟨rfl, rfl, rfl⟩
  · right; rw [unit_fin h, turned_fin]; exact ⟨h, rfl, rfl⟩

/-- **C122** distances on the sphere do not change when all positions are rotated; any two vectors, any radius -/
theorem C122_distances (A B : V3 ℝ) (r : XR) :
    great_circle_distance (turned Q A.fin) (turned Q B.fin) r = great_circle_distance A.fin B.fin r ∧
    euclidean_distance (turned Q A.fin) (turned Q B.fin) r = euclidean_distance A.fin B.fin r := by
  constructor
  · unfold great_circle_distance
    simp only [turned_fin, xr, cross_app hQ, len_app hQ, dot_app hQ]
  · unfold euclidean_distance
    simp only [turned_fin, xr, ← app_sub, len_app hQ]

/-- **C122** nor does the cross track distance (any method, any radius, equal end points included), and membership of a great
circle or of a path -/
theorem C122_cross_track (A B P : V3 ℝ) (method : String) (r atol : XR) :
    cross_track_distance (turned Q A.fin, turned Q B.fin) (turned Q P.fin) method r =
      cross_track_distance (A.fin, B.fin) P.fin method r ∧
    on_great_circle (turned Q A.fin, turned Q B.fin) (turned Q P.fin) r atol = on_great_circle (A.fin, B.fin) P.fin r atol ∧
    on_great_circle_path (turned Q A.fin, turned Q B.fin) (turned Q P.fin) r atol =
      on_great_circle_path (A.fin, B.fin) P.fin r atol := by
  have h1 : ∀ m, cross_track_distance (turned Q A.fin, turned Q B.fin) (turned Q P.fin) m r =
      cross_track_distance (A.fin, B.fin) P.fin m r := by
    intro m
    unfold cross_track_distance
    simp only [turned_fin]
    rcases normal_cases hQ A B with ⟨-, e1, e2⟩ | ⟨-, e1, e2⟩
    · rw [e1, e2, dot3_nan_left, dot3_nan_left]
    · rw [e1, e2, dot3_fin, dot3_fin, dot_app hQ]
  have h2 : on_great_circle (turned Q A.fin, turned Q B.fin) (turned Q P.fin) r atol = on_great_circle (A.fin, B.fin) P.fin r atol := by
    unfold on_great_circle abs_cross_track
    rw [h1]
  refine ⟨h1 method, h2, ?_⟩
  unfold on_great_circle_path
  rw [h2]
  simp only [turned_fin, xr, ← app_sub, len_app hQ]

/-- **C122** the normal of a path, interpolated positions and intersections turn with the positions (NaN stays NaN) -/
theorem C122_paths (A B C D : V3 ℝ) (t : ℝ) :
    great_circle_normal (turned Q A.fin) (turned Q B.fin) = turned Q (great_circle_normal A.fin B.fin) ∧
    interpolate (turned Q A.fin, turned Q B.fin) (fin t) = turned Q (interpolate (A.fin, B.fin) (fin t)) ∧
    intersect (turned Q A.fin, turned Q B.fin) (turned Q C.fin, turned Q D.fin) =
      turned Q (intersect (A.fin, B.fin) (C.fin, D.fin)) := by
  refine ⟨?_, ?_, ?_⟩
  · unfold great_circle_normal
    simp only [turned_fin, xr, cross_app hQ]
    exact unit_turned_nan hQ _
  · unfold interpolate
    simp only [turned_fin, xr, ← app_sub, ← app_smul, ← app_add]
    exact unit_turned_nan hQ _
  · unfold intersect
    simp only [turned_fin, xr, cross_app hQ]
    by_cases h : cross (cross A B) (cross C D) = 0
    · rw [h, show app Q (0 : V3 ℝ) = 0 from (app_eq_zero hQ).2 rfl]
      have e : unit (0 : V3 ℝ).fin XR.nan = V3.nan := unit_zero_nan
      rw [e]
      simp only [xr, turned_nan]
    · have h' := app_ne_zero hQ h
      rw [unit_fin h, unit_fin h', app_dirOf hQ]
      simp only [xr, dot_app hQ]
      rcases lt_trichotomy (dot (dirOf (cross (cross A B) (cross C D))) A) 0 with hs | hs | hs
      · rw [XR.sign_neg hs]; simp only [xr, app_smul, turned_fin]
      · rw [hs, XR.sign_zero]; simp only [xr, app_smul, turned_fin]
      · rw [XR.sign_pos hs]; simp only [xr, app_smul, turned_fin]

/-- **C122** so does the closest point of a great circle, unless the position is a pole of the circle (where the library's
result is arbitrary, C21) -/
theorem C122_closest (A B P : V3 ℝ) (h : cross A B = 0 ∨ cross P (cross A B) ≠ 0) :
    closest_point_on_great_circle (turned Q A.fin, turned Q B.fin) (turned Q P.fin) =
      turned Q (closest_point_on_great_circle (A.fin, B.fin) P.fin) := by
  unfold closest_point_on_great_circle
  simp only [turned_fin]
  rcases normal_cases hQ A B with ⟨-, e1, e2⟩ | ⟨e0, e1, e2⟩
  · rw [e1, e2]; simp only [xr, turned_nan]
  · rw [e1, e2]
    have h' := h.resolve_left e0
    simp only [xr, cross_app hQ]
    have hne : cross (dirOf (cross A B)) (cross P (dirOf (cross A B))) ≠ 0 := by
      have hl := len_pos e0
      have hP : cross P (dirOf (cross A B)) ≠ 0 := by
        unfold dirOf; rw [cross_smul_right]; exact smul_ne_zero (inv_ne_zero hl.ne') h'
      have hperp : dot (dirOf (cross A B)) (cross P (dirOf (cross A B))) = 0 := dot_cross_self_right _ _
      intro h0
      have := lagrange (dirOf (cross A B)) (cross P (dirOf (cross A B)))
      rw [h0, hperp, (dirOf_unit e0).len] at this
      have l0 : len (0 : V3 ℝ) = 0 := len_eq_zero.2 rfl
      rw [l0] at this
      have : len (cross P (dirOf (cross A B))) = 0 := by
        have := len_nonneg (cross P (dirOf (cross A B))); nlinarith
      exact hP (len_eq_zero.1 this)
    rw [unit_fin hne, unit_fin (app_ne_zero hQ hne), app_dirOf hQ]
    simp only [xr, dot_app hQ]
    rcases lt_trichotomy (dot (dirOf (cross (dirOf (cross A B)) (cross P (dirOf (cross A B))))) P) 0 with hs | hs | hs
    · rw [XR.sign_neg hs]; simp only [xr, app_smul, turned_fin]
    · rw [hs, XR.sign_zero]; simp only [xr, app_smul, turned_fin]
    · rw [XR.sign_pos hs]; simp only [xr, app_smul, turned_fin]

/-- **C122** and the mean position, unless the n-vectors cancel out -/
theorem C122_mean (l : List (V3 ℝ)) (h : vsum l ≠ 0) :
    mean_horizontal_position ((l.map V3.fin).map (turned Q)) = turned Q (mean_horizontal_position (l.map V3.fin)) := by
  have e1 : (l.map V3.fin).map (turned Q) = (l.map (app Q)).map V3.fin := by
    rw [List.map_map, List.map_map]; rfl
  have e2 : vsum (l.map (app Q)) = app Q (vsum l) := by
    clear h e1
    induction l with
    | nil => ext <;> simp [vsum, app, dot]
    | cons b l ih =>
      have hc : ∀ (b : V3 ℝ) (l : List (V3 ℝ)), vsum (b :: l) = b + vsum l := by
        intro b l; ext <;> simp [vsum]
      rw [List.map_cons, hc, hc, ih, app_add]
  rw [e1, mean_fin _ (by rw [e2]; exact app_ne_zero hQ h), e2, mean_fin _ h, turned_fin, app_dirOf hQ]

end

/-- **C122** the hypotheses are met: a rotation that moves the positions, a path and a position off its poles -/
example : IsRotation Re ∧ app Re ⟨1, 0, 0⟩ ≠ ⟨1, 0, 0⟩ ∧
    cross (⟨1, 1, 0⟩ : V3 ℝ) (cross ⟨1, 0, 0⟩ ⟨0, 1, 0⟩) ≠ 0 ∧ vsum [⟨1, 0, 0⟩, ⟨0, 1, 0⟩] ≠ 0 := by
  refine ⟨isRotation_Re, ?_, ?_, ?_⟩
  · intro h; have := congrArg V3.x h; norm_num [app, Re, dot] at this
  · intro h; have := congrArg V3.x h; norm_num [cross] at this
  · intro h; have := congrArg V3.x h; norm_num [vsum] at this

/-! ## The choice of coordinate axes -/

/-- the rotation from coordinates with the axes `R` to coordinates with the axes `R'` -/
noncomputable def Spec.fromTo (R R' : M3 ℝ) : M3 ℝ := mmul (transp R') R

section
variable {R R' : M3 ℝ} (hR : IsRotation R) (hR' : IsRotation R')
include hR hR'

theorem fromTo_rotation : IsRotation (fromTo R R') := hR'.transpose.mul hR

omit hR in
theorem app_fromTo (v : V3 ℝ) : app R' (app (fromTo R R') v) = app R v := by
  unfold fromTo; rw [app_mmul, hR'.app_trans]

omit hR' in
theorem trans_fromTo (v : V3 ℝ) : app (fromTo R R') (app (transp R) v) = app (transp R') v := by
  unfold fromTo; rw [app_mmul, hR.app_trans]

/-- **C122** n-vectors in other coordinates: latitude and longitude do not depend on the axes, and the n-vector of a latitude
and longitude turns with them -/
theorem C122_axes_lat_lon (n : V3 ℝ) (lat lon : ℝ) :
    n_E2lat_lon (turned (fromTo R R') n.fin) R'.fin = n_E2lat_lon n.fin R.fin ∧
    lat_lon2n_E (fin lat) (fin lon) R'.fin = turned (fromTo R R') (lat_lon2n_E (fin lat) (fin lon) R.fin) := by
  constructor
  · rw [turned_fin, n_E2lat_lon_fin, n_E2lat_lon_fin, app_fromTo hR']
  · rw [lat_lon2n_E_fin, lat_lon2n_E_fin, turned_fin, trans_fromTo hR]

/-- **C122** positions in other coordinates: n-vector and depth to Cartesian position -/
theorem C122_axes_n2p (n : V3 ℝ) (hn : n ≠ 0) (d a f : ℝ) (hf : f < 1) :
    n_EB_E2p_EB_E (turned (fromTo R R') n.fin) (fin d) (fin a) (fin f) R'.fin =
      turned (fromTo R R') (n_EB_E2p_EB_E n.fin (fin d) (fin a) (fin f) R.fin) := by
  have hQ := fromTo_rotation hR hR'
  rw [turned_fin, n2p_fin (app_ne_zero hQ hn) d a f hf hR', n2p_fin hn d a f hf hR, turned_fin, trans_fromTo hR, app_dirOf hQ,
    app_fromTo hR']

omit hR hR' in
theorem exists_k (p : V3 ℝ) (a f : ℝ) (ha : 0 < a) (hf : f < 1)
    (h : OutsideCore a f (app R p) ∨ OnAxisInsideCore a f (app R p)) :
    ∃ k, compute_k (fin a) (fin ((2 - f) * f)) (fin ((1 - (2 - f) * f) / a ^ 2 * (app R p).x ^ 2))
      (fin ((app R p).y ^ 2 + (app R p).z ^ 2)) = fin k ∧ 0 < k := by
  have hg : 0 < 1 - f := by linarith
  rcases h with h | ⟨hy, hz, hx, hin⟩
  · have hq : (1 - (2 - f) * f) / a ^ 2 * (app R p).x ^ 2 = (1 - f) ^ 2 * (app R p).x ^ 2 / a ^ 2 := by ring
    obtain ⟨k, hk, hk0, -⟩ := compute_k_fin (e2 := (2 - f) * f)
      (q := (1 - (2 - f) * f) / a ^ 2 * (app R p).x ^ 2) (Y2 := (app R p).y ^ 2 + (app R p).z ^ 2) ha
      (by rw [hq]; positivity) (by positivity) (by rw [hq]; exact h)
    exact ⟨k, hk, hk0⟩
  · have hxp : 0 < |(app R p).x| := abs_pos.mpr hx
    have he : 0 < (2 - f) * f := by
      by_contra h'; push Not at h'
      nlinarith [mul_pos hg hxp]
    have hq : (1 - (2 - f) * f) / a ^ 2 * (app R p).x ^ 2 = ((1 - f) * |(app R p).x| / a) ^ 2 := by
      rw [div_pow, mul_pow, sq_abs]; ring
    have hqs : √((1 - (2 - f) * f) / a ^ 2 * (app R p).x ^ 2) = (1 - f) * |(app R p).x| / a := by
      rw [hq, Real.sqrt_sq (by positivity)]
    have hk := compute_k_axis (a := a) (e2 := (2 - f) * f) (q := (1 - (2 - f) * f) / a ^ 2 * (app R p).x ^ 2)
      (Y2 := (app R p).y ^ 2 + (app R p).z ^ 2) ha he (by rw [hq]; positivity) (by positivity) (by rw [hy, hz]; simp)
      (by
        rw [hq, hy, hz]
        have : (1 - f) * |(app R p).x| / a < (2 - f) * f := by rw [div_lt_iff₀ ha]; linarith
        have := pow_lt_pow_left₀ this (by positivity) two_ne_zero
        simpa using this)
    rw [hqs] at hk
    exact ⟨_, hk, by positivity⟩

/-- **C122** Cartesian position to n-vector and depth, everywhere but at the centre (inside the core both are NaN) -/
theorem C122_axes_p2n (p : V3 ℝ) (hp : p ≠ 0) (a f : ℝ) (ha : 0 < a) (hf0 : 0 ≤ f) (hf : f < 1) :
    p_EB_E2n_EB_E (turned (fromTo R R') p.fin) (fin a) (fin f) R'.fin =
      (turned (fromTo R R') (p_EB_E2n_EB_E p.fin (fin a) (fin f) R.fin).1, (p_EB_E2n_EB_E p.fin (fin a) (fin f) R.fin).2) := by
  have hQ := fromTo_rotation hR hR'
  have key : ∀ m : V3 ℝ, m ≠ 0 → (⟨(equation23 (fin a) (fin f) (app R p).fin).1 * fin (app R p).x,
      (equation23 (fin a) (fin f) (app R p).fin).2.1 * fin (app R p).y,
      (equation23 (fin a) (fin f) (app R p).fin).2.1 * fin (app R p).z⟩ : V3 XR) = m.fin → _ := fun m hm h => by
    have e1 : p_EB_E2n_EB_E (turned (fromTo R R') p.fin) (fin a) (fin f) R'.fin =
        ((dirOf (app (transp R') m)).fin, (equation23 (fin a) (fin f) (app R p).fin).2.2) := by
      unfold p_EB_E2n_EB_E
      simp only [turned_fin, mulVec_fin, app_fromTo hR', V3.fin_x, V3.fin_y, V3.fin_z]
      rw [h, tr_fin, mulVec_fin, unit_fin (app_ne_zero hR'.transpose hm)]
    have e2 : p_EB_E2n_EB_E p.fin (fin a) (fin f) R.fin =
        ((dirOf (app (transp R) m)).fin, (equation23 (fin a) (fin f) (app R p).fin).2.2) := by
      unfold p_EB_E2n_EB_E
      simp only [mulVec_fin, V3.fin_x, V3.fin_y, V3.fin_z]
      rw [h, tr_fin, mulVec_fin, unit_fin (app_ne_zero hR.transpose hm)]
    exact (show p_EB_E2n_EB_E (turned (fromTo R R') p.fin) (fin a) (fin f) R'.fin =
      (turned (fromTo R R') (p_EB_E2n_EB_E p.fin (fin a) (fin f) R.fin).1, (p_EB_E2n_EB_E p.fin (fin a) (fin f) R.fin).2) by
        rw [e1, e2, turned_fin, ← app_dirOf hQ, trans_fromTo hR])
  by_cases hcore : OutsideCore a f (app R p) ∨ OnAxisInsideCore a f (app R p)
  · obtain ⟨k, hk, hk0⟩ := exists_k (R := R) p a f ha hf hcore
    obtain ⟨T, hT, -, h23⟩ := equation23_fin (app R p) ha hf0 hf (app_ne_zero hR hp) hk hk0
    have he : 0 ≤ (2 - f) * f := by nlinarith
    have hke : 0 < k + (2 - f) * f := by linarith
    refine key ⟨1 / T * (app R p).x, 1 / T * k / (k + (2 - f) * f) * (app R p).y,
      1 / T * k / (k + (2 - f) * f) * (app R p).z⟩ ?_ (by rw [h23]; simp only [xr, V3.mk_fin])
    intro h0
    have hx := congrArg V3.x h0
    have hy := congrArg V3.y h0
    have hz := congrArg V3.z h0
    simp only [zero_x, zero_y, zero_z, mul_eq_zero, div_eq_zero_iff, one_ne_zero, hT.ne', hk0.ne', hke.ne', false_or,
      or_false, or_self] at hx hy hz
    exact app_ne_zero hR hp (by ext <;> assumption)
  · rw [not_or] at hcore
    have hf' : 0 < f := by
      rcases hf0.lt_or_eq with h | h
      · exact h
      · exfalso
        apply hcore.1
        subst h
        exact outsideCore_of_len ha le_rfl one_pos (by have := len_pos (app_ne_zero hR hp); simpa using this)
    rw [C08_core_nan p a f ha hf' hf R hcore.1 hcore.2, turned_fin,
      C08_core_nan _ a f ha hf' hf R' (by rw [app_fromTo hR']; exact hcore.1) (by rw [app_fromTo hR']; exact hcore.2)]
    exact Prod.ext (turned_nan _).symm rfl

theorem fromTo_trans : mmul (fromTo R R') (transp R) = transp R' := by
  refine M3.ext_cols ?_ ?_ ?_
  · rw [col0_mmul]; unfold fromTo; rw [app_mmul]
    have : app R (col0 (transp R)) = ⟨1, 0, 0⟩ := by
      have := hR.app_trans ⟨1, 0, 0⟩
      have e : app (transp R) ⟨1, 0, 0⟩ = col0 (transp R) := by ext <;> simp [app, dot, col0, transp]
      rwa [e] at this
    rw [this]; ext <;> simp [app, dot, col0, transp]
  · rw [col1_mmul]; unfold fromTo; rw [app_mmul]
    have : app R (col1 (transp R)) = ⟨0, 1, 0⟩ := by
      have := hR.app_trans ⟨0, 1, 0⟩
      have e : app (transp R) ⟨0, 1, 0⟩ = col1 (transp R) := by ext <;> simp [app, dot, col1, transp]
      rwa [e] at this
    rw [this]; ext <;> simp [app, dot, col1, transp]
  · rw [col2_mmul]; unfold fromTo; rw [app_mmul]
    have : app R (col2 (transp R)) = ⟨0, 0, 1⟩ := by
      have := hR.app_trans ⟨0, 0, 1⟩
      have e : app (transp R) ⟨0, 0, 1⟩ = col2 (transp R) := by ext <;> simp [app, dot, col2, transp]
      rwa [e] at this
    rw [this]; ext <;> simp [app, dot, col2, transp]

theorem mdot_fromTo (X : M3 ℝ) : mdot (tr R'.fin) X.fin = mdot (fromTo R R').fin (mdot (tr R.fin) X.fin) := by
  rw [tr_fin, tr_fin, mdot_fin, mdot_fin, mdot_fin, ← mmul_assoc, fromTo_trans hR hR']

/-- **C122** the local frames North-East-Down and wander azimuth turn with the axes, poles included -/
theorem C122_axes_local (n : V3 ℝ) (hn : n ≠ 0) (wa : ℝ) :
    n_E2R_EN (turned (fromTo R R') n.fin) R'.fin = mdot (fromTo R R').fin (n_E2R_EN n.fin R.fin) ∧
    n_E_and_wa2R_EL (turned (fromTo R R') n.fin) (fin wa) R'.fin =
      mdot (fromTo R R').fin (n_E_and_wa2R_EL n.fin (fin wa) R.fin) := by
  constructor
  · have hX : ∃ X : M3 ℝ, ∀ R'' : M3 XR, ∀ v : V3 XR, mulVec R'' v = (app R n).fin → n_E2R_EN v R'' = mdot (tr R'') X.fin := by
      let C (y m : V3 ℝ) : M3 ℝ := ⟨⟨(cross y (-m)).x, y.x, (-m).x⟩, ⟨(cross y (-m)).y, y.y, (-m).y⟩, ⟨(cross y (-m)).z, y.z, (-m).z⟩⟩
      by_cases h0 : len (cross ⟨1, 0, 0⟩ (dirOf (app R n))) = 0
      · refine ⟨C ⟨0, 1, 0⟩ (dirOf (app R n)), fun R'' v hv => ?_⟩
        unfold n_E2R_EN
        rw [hv]
        simp only [xr, unit_fin (app_ne_zero hR hn), V3.mk_fin, Rat.cast_one, Rat.cast_zero, h0, decide_true, if_true]
        rfl
      · have h0' : cross ⟨1, 0, 0⟩ (dirOf (app R n)) ≠ 0 := fun h => h0 (len_eq_zero.2 h)
        refine ⟨C (dirOf (cross ⟨1, 0, 0⟩ (dirOf (app R n)))) (dirOf (app R n)), fun R'' v hv => ?_⟩
        unfold n_E2R_EN
        rw [hv]
        simp only [xr, unit_fin (app_ne_zero hR hn), V3.mk_fin, Rat.cast_one, Rat.cast_zero, h0, decide_false,
          Bool.false_eq_true, if_false, unit_fin h0']
        rfl
    obtain ⟨X, hX⟩ := hX
    rw [hX R'.fin _ (by rw [turned_fin, mulVec_fin, app_fromTo hR']), hX R.fin _ (mulVec_fin _ _), mdot_fromTo hR hR']
  · unfold n_E_and_wa2R_EL
    rw [(C122_axes_lat_lon hR hR' n 0 0).1, n_E2lat_lon_fin]
    simp only [XR.neg_fin, xyz2R_fin]
    exact mdot_fromTo hR hR' _

/-- **C122** delta vectors in Cartesian coordinates turn with the axes, and so does the position reached by a delta vector -/
theorem C122_axes_vectors (nA nB p : V3 ℝ) (hA : nA ≠ 0) (hB : nB ≠ 0) (zA zB a f : ℝ) (ha : 0 < a) (hf0 : 0 ≤ f) (hf : f < 1) :
    n_EA_E_and_n_EB_E2p_AB_E (turned (fromTo R R') nA.fin) (turned (fromTo R R') nB.fin) (fin zA) (fin zB) (fin a) (fin f) R'.fin =
      turned (fromTo R R') (n_EA_E_and_n_EB_E2p_AB_E nA.fin nB.fin (fin zA) (fin zB) (fin a) (fin f) R.fin) ∧
    ((∀ q : V3 ℝ, n_EB_E2p_EB_E nA.fin (fin zA) (fin a) (fin f) R.fin = q.fin → q + p ≠ 0) →
      n_EA_E_and_p_AB_E2n_EB_E (turned (fromTo R R') nA.fin) (turned (fromTo R R') p.fin) (fin zA) (fin a) (fin f) R'.fin =
        (turned (fromTo R R') (n_EA_E_and_p_AB_E2n_EB_E nA.fin p.fin (fin zA) (fin a) (fin f) R.fin).1,
          (n_EA_E_and_p_AB_E2n_EB_E nA.fin p.fin (fin zA) (fin a) (fin f) R.fin).2)) := by
  constructor
  · unfold n_EA_E_and_n_EB_E2p_AB_E
    rw [C122_axes_n2p hR hR' nA hA zA a f hf, C122_axes_n2p hR hR' nB hB zB a f hf, n2p_fin hA zA a f hf hR, n2p_fin hB zB a f hf hR]
    simp only [turned_fin, sub3_fin, app_sub]
  · intro hne
    unfold n_EA_E_and_p_AB_E2n_EB_E
    have e := n2p_fin hA zA a f hf hR
    have := C122_axes_p2n hR hR' _ (hne _ e) a f ha hf0 hf
    rw [C122_axes_n2p hR hR' nA hA zA a f hf, e]
    simp only [turned_fin, add3_fin, ← app_add] at this ⊢
    exact this

/-- **C122** azimuths do not depend on the axes, poles included -/
theorem C122_axes_azimuth (nA nB : V3 ℝ) (hA : nA ≠ 0) (hB : nB ≠ 0) (a f : ℝ) (ha : 0 < a) (hf0 : 0 ≤ f) (hf : f < 1) :
    n_EA_E_and_n_EB_E2azimuth (turned (fromTo R R') nA.fin) (turned (fromTo R R') nB.fin) (fin a) (fin f) R'.fin =
      n_EA_E_and_n_EB_E2azimuth nA.fin nB.fin (fin a) (fin f) R.fin := by
  unfold n_EA_E_and_n_EB_E2azimuth
  have e := (C122_axes_vectors hR hR' nA nB 0 hA hB 0 0 a f ha hf0 hf).1
  have l0 : (PyFloat.lit 0 : XR) = fin 0 := by simp only [xr, Rat.cast_zero]
  simp only [l0]
  rw [e, (C122_axes_local hR hR' nA hA 0).1]
  obtain ⟨M, hM, -⟩ := C12_R_EN_rotation nA hA R hR
  rw [hM]
  unfold n_EA_E_and_n_EB_E2p_AB_E
  rw [n2p_fin hA 0 a f hf hR, n2p_fin hB 0 a f hf hR]
  simp only [turned_fin, mdot_fin, tr_fin, mulVec_fin, sub3_fin, trans_mmul, app_mmul, (fromTo_rotation hR hR').trans_app]

/-- **C122** the great circle direct problem turns with the axes, away from the poles (at the poles the claim is false: the code
completes the frame with a fixed axis, see C27) -/
theorem C122_axes_direct (n : V3 ℝ) (hn : UnitVec n) (hp : cross (northPole R) n ≠ 0) (d az : ℝ) :
    n_EA_E_distance_and_azimuth2n_EB_E (turned (fromTo R R') n.fin) (fin d) (fin az) R'.fin =
      turned (fromTo R R') (n_EA_E_distance_and_azimuth2n_EB_E n.fin (fin d) (fin az) R.fin) := by
  have hQ := fromTo_rotation hR hR'
  have hN : northPole R' = app (fromTo R R') (northPole R) := (trans_fromTo hR (⟨1, 0, 0⟩ : V3 ℝ)).symm
  have hc : cross (northPole R') (app (fromTo R R') n) = app (fromTo R R') (cross (northPole R) n) := by
    rw [hN, cross_app hQ]
  rw [turned_fin, direct_offpole (unitVec_app hQ hn) (by rw [hc]; exact app_ne_zero hQ hp), direct_offpole hn hp, turned_fin, hc]
  simp only [app_add, app_smul, app_dirOf hQ, cross_app hQ]

/-! ### Objects -/

/-- the same latitude, longitude and depth in frames with other axes -/
theorem geo_two_axes (lat lon z a f : ℝ) (hf : f < 1) (name : EllKey) :
    ∃ n p : V3 ℝ, At (.geo (.real lat lon z (.real a f name R))) n z p (.real a f name R) ∧
      At (.geo (.real lat lon z (.real a f name R'))) (app (fromTo R R') n) z (app (fromTo R R') p) (.real a f name R') := by
  have hQ := fromTo_rotation hR hR'
  have e1 : lat_lon2n_E (fin lat) (fin lon) R.fin = (app (transp R) (geoNormal lat lon)).fin := lat_lon2n_E_fin lat lon R
  have e2 : lat_lon2n_E (fin lat) (fin lon) R'.fin = (app (fromTo R R') (app (transp R) (geoNormal lat lon))).fin := by
    rw [trans_fromTo hR]; exact lat_lon2n_E_fin lat lon R'
  obtain ⟨n, p, h, -⟩ := At.of_geo lat lon z a f hf name R hR
  obtain ⟨n', p', h', -⟩ := At.of_geo lat lon z a f hf name R' hR'
  have en : n = app (transp R) (geoNormal lat lon) := by
    have := congrArg Nvector.normal h.nv
    exact V3.fin_inj.1 (this.symm.trans e1)
  have en' : n' = app (fromTo R R') n := by
    have := congrArg Nvector.normal h'.nv
    rw [en]
    exact V3.fin_inj.1 (this.symm.trans e2)
  have ep : p = app (transp R) (posE a f (app R (dirOf n)) z) := by
    have h2 : (GeoPoint.to_nvector _).to_ecef_vector = _ := h.ec
    rw [show GeoPoint.to_nvector _ = _ from h.nv] at h2
    have h3 := congrArg ECEFvector.pvector h2
    change n_EB_E2p_EB_E n.fin (fin z) (fin a) (fin f) R.fin = p.fin at h3
    rw [n2p_fin h.unit.ne z a f hf hR] at h3
    exact (V3.fin_inj.1 h3).symm
  have ep' : p' = app (transp R') (posE a f (app R' (dirOf n')) z) := by
    have h2 : (GeoPoint.to_nvector _).to_ecef_vector = _ := h'.ec
    rw [show GeoPoint.to_nvector _ = _ from h'.nv] at h2
    have h3 := congrArg ECEFvector.pvector h2
    change n_EB_E2p_EB_E n'.fin (fin z) (fin a) (fin f) R'.fin = p'.fin at h3
    rw [n2p_fin h'.unit.ne z a f hf hR'] at h3
    exact (V3.fin_inj.1 h3).symm
  have ep2 : p' = app (fromTo R R') p := by
    rw [ep', ep, trans_fromTo hR, en', app_dirOf hQ, app_fromTo hR']
  subst en' ep2
  exact ⟨n, p, h, h'⟩

omit hR hR' in
/-- the objects `x` and `x'`, in frames with the axes `R` and `R'`, are at the same place -/
def Spec.SamePlace (R R' : M3 ℝ) (a f : ℝ) (name : EllKey) (x x' : Position XR) (n p : V3 ℝ) (z : ℝ) : Prop :=
  At x n z p (.real a f name R) ∧ At x' (app (fromTo R R') n) z (app (fromTo R R') p) (.real a f name R')

/-- the same for Cartesian positions outside the core -/
theorem ecef_two_axes (p : V3 ℝ) (a f : ℝ) (ha : 0 < a) (hf0 : 0 ≤ f) (hf : f < 1) (name : EllKey)
    (hcore : OutsideCore a f (app R p)) :
    ∃ (n : V3 ℝ) (z : ℝ), SamePlace R R' a f name (.ecef (.real p (.real a f name R)))
      (.ecef (.real (app (fromTo R R') p) (.real a f name R'))) n p z := by
  have hQ := fromTo_rotation hR hR'
  obtain ⟨n, z, h⟩ := At.of_ecef p a f ha hf0 hf name R hR hcore
  have hp : p ≠ 0 := by
    rintro rfl
    have h0 : app R (0 : V3 ℝ) = 0 := by ext <;> simp [app, dot]
    unfold OutsideCore at hcore
    rw [h0] at hcore
    simp at hcore
    nlinarith [sq_nonneg ((2 - f) * f)]
  refine ⟨n, z, h, ?_, unitVec_app hQ h.unit, rfl⟩
  have h1 := C122_axes_p2n hR hR' p hp a f ha hf0 hf
  have h2 := h.nv
  have e : p_EB_E2n_EB_E p.fin (fin a) (fin f) R.fin = (n.fin, fin z) :=
    Prod.ext (congrArg Nvector.normal h2) (congrArg Nvector.z h2)
  rw [e] at h1
  change ECEFvector.to_nvector _ = _
  unfold ECEFvector.to_nvector ECEFvector.real Nvector.real FrameE.real
  simp only [turned_fin] at h1 ⊢
  rw [h1]

/-- **C122** the delta vectors in the local frames do not depend on the axes of the frame in which the two positions are given:
objects of any class, poles included -/
theorem C122_axes_delta (a f : ℝ) (name : EllKey) (A A' B B' : Position XR) (nA pA nB pB : V3 ℝ) (zA zB wa : ℝ)
    (hA : SamePlace R R' a f name A A' nA pA zA) (hB : SamePlace R R' a f name B B' nB pB zB) :
    ∃ dN dL : V3 ℝ, delta_N A B = .ok (.real dN (FrameN A)) ∧ delta_N A' B' = .ok (.real dN (FrameN A')) ∧
      delta_L A B (fin wa) = .ok (.real dL (FrameL A (fin wa))) ∧ delta_L A' B' (fin wa) = .ok (.real dL (FrameL A' (fin wa))) := by
  have hQ := fromTo_rotation hR hR'
  obtain ⟨M, hM, -⟩ := C12_R_EN_rotation nA hA.1.unit.ne R hR
  obtain ⟨L, hL, -⟩ := C13_R_EL_rotation nA hA.1.unit.ne wa R hR
  obtain ⟨-, d1, d2⟩ := delta_fin hA.1.nv hA.1.ec hB.1.ec
  obtain ⟨-, d1', d2'⟩ := delta_fin hA.2.nv hA.2.ec hB.2.ec
  obtain ⟨l1, l2⟩ := C122_axes_local hR hR' nA hA.1.unit.ne wa
  rw [hM, mdot_fin, turned_fin] at l1
  rw [hL, mdot_fin, turned_fin] at l2
  have e : ∀ M : M3 ℝ, app (transp (mmul (fromTo R R') M)) (app (fromTo R R') pB - app (fromTo R R') pA) =
      app (transp M) (pB - pA) := by
    intro M
    rw [trans_mmul, app_mmul, ← app_sub, hQ.trans_app]
  have d1'' := d1' _ l1
  have d2'' := d2' wa _ l2
  rw [e] at d1'' d2''
  exact ⟨_, _, d1 M hM, d1'', d2 wa L hL, d2''⟩

/-- **C122** nor do the great circle results of a GeoPath: `track_distance`, `cross_track_distance` and `on_path` give the same
answers in both frames, with any explicit or default radius -/
theorem C122_axes_paths (G : Geodesic XR) (a f : ℝ) (name : EllKey) (P P' : GeoPath XR) (x x' : Position XR)
    (nA pA nB pB n p : V3 ℝ) (zA zB z : ℝ) (hA : SamePlace R R' a f name P.point_a P'.point_a nA pA zA)
    (hB : SamePlace R R' a f name P.point_b P'.point_b nB pB zB) (hx : SamePlace R R' a f name x x' n p z)
    (method : String) (radius : Option XR) (rtol atol : XR) :
    P.average_radius = P'.average_radius ∧
    (method.toList.take 2 ≠ ['e', 'x'] → method.toList.take 2 ≠ ['e', 'l'] →
      P.track_distance G method radius = P'.track_distance G method radius) ∧
    P.cross_track_distance x method radius = P'.cross_track_distance x' method radius ∧
    (method.toList.take 2 ≠ ['e', 'x'] → method.toList.take 2 ≠ ['e', 'l'] →
      P.on_path G x method rtol atol = P'.on_path G x' method rtol atol) := by
  have hQ := fromTo_rotation hR hR'
  have e1 : P.average_radius = P'.average_radius := by
    rw [average_radius_fin hA.1 hB.1, average_radius_fin hA.2 hB.2, len_app hQ, len_app hQ]
  have e2 := normals_fin hA.1 hB.1
  have e3 := normals_fin hA.2 hB.2
  have e4 : P.radiusOr radius = P'.radiusOr radius := by unfold GeoPath.radiusOr; rw [e1]
  refine ⟨e1, fun h1 h2 => ?_, ?_, fun h1 h2 => ?_⟩
  · have n1 : strTake method 2 ≠ "ex" := fun h => h1 (strTake_eq.1 h)
    have n2 : strTake method 2 ≠ "el" := fun h => h2 (strTake_eq.1 h)
    unfold GeoPath.track_distance
    have n3 : ¬(strTake method 2 = "ex" ∨ strTake method 2 = "el") := not_or.2 ⟨n1, n2⟩
    rw [if_neg n3, if_neg n3, e2, e3, e4]
    have hd := C122_distances hQ nA nB (P'.radiusOr radius)
    simp only [turned_fin] at hd
    simp only [hd.1, hd.2]
  · unfold GeoPath.cross_track_distance
    rw [e2, e3, e4, hx.1.nv, hx.2.nv]
    have := (C122_cross_track hQ nA nB n method (P'.radiusOr radius) (fin 0)).1
    simp only [turned_fin] at this
    exact this.symm
  · have n1 : strTake method 2 ≠ "ex" := fun h => h1 (strTake_eq.1 h)
    have n2 : strTake method 2 ≠ "el" := fun h => h2 (strTake_eq.1 h)
    have n3 : ¬(strTake method 2 = "ex" ∨ strTake method 2 = "el") := not_or.2 ⟨n1, n2⟩
    unfold GeoPath.on_path
    rw [if_neg n3, if_neg n3]
    unfold GeoPath.on_great_circle_path GeoPath.radiusOr GeoPath.nvectors
    rw [e2, e3, ← e1, hx.1.nv, hx.2.nv, hA.1.nv, hB.1.nv, hA.2.nv, hB.2.nv]
    have := (C122_cross_track hQ nA nB n method P.average_radius atol).2.2
    simp only [turned_fin] at this
    simp only [Nvector.real, Option.getD_none, this]

/-- **C122** nor do the distance and the two azimuths of the great circle inverse problem between two GeoPoints -/
theorem C122_axes_inverse (G : Geodesic XR) (a f : ℝ) (ha : 0 < a) (hf0 : 0 ≤ f) (hf : f < 1) (name : EllKey)
    (latA lonA zA latB lonB zB : ℝ) (unroll degrees : Bool) (method : String) (hm : method.toList.head? ≠ some 'e')
    (hcA : ∀ p, (Position.geo (.real latA lonA zA (.real a f name R))).to_ecef_vector = .real p (.real a f name R) →
      OutsideCore a f (app R p))
    (hcB : ∀ p, (Position.geo (.real latB lonB zB (.real a f name R))).to_ecef_vector = .real p (.real a f name R) →
      OutsideCore a f (app R p)) :
    (GeoPoint.real latA lonA zA (.real a f name R)).distance_and_azimuth G (.geo (.real latB lonB zB (.real a f name R)))
        unroll degrees method =
      (GeoPoint.real latA lonA zA (.real a f name R')).distance_and_azimuth G (.geo (.real latB lonB zB (.real a f name R')))
        unroll degrees method := by
  have hQ := fromTo_rotation hR hR'
  unfold GeoPoint.distance_and_azimuth
  have c1 : check_frames_pos (GeoPoint.real latA lonA zA (.real a f name R)).frame (.geo (.real latB lonB zB (.real a f name R))) = .ok () :=
    check_frames_real a f name R
  have c2 : check_frames_pos (GeoPoint.real latA lonA zA (.real a f name R')).frame (.geo (.real latB lonB zB (.real a f name R'))) = .ok () :=
    check_frames_real a f name R'
  rw [c1, c2]
  simp only [bind, Except.bind]
  rcases hl : method.toList with _ | ⟨c, cs⟩
  · rfl
  rw [hl] at hm
  have hc : c ≠ 'e' := by simpa using hm
  simp only [hc, if_false]
  obtain ⟨nA, pA, hA, hA'⟩ := geo_two_axes hR hR' latA lonA zA a f hf name
  obtain ⟨nB, pB, hB, hB'⟩ := geo_two_axes hR hR' latB lonB zB a f hf name
  obtain ⟨mA, wA, sA⟩ := ecef_two_axes hR hR' pA a f ha hf0 hf name (hcA _ hA.ec)
  obtain ⟨mB, wB, sB⟩ := ecef_two_axes hR hR' pB a f ha hf0 hf name (hcB _ hB.ec)
  obtain ⟨d1, -, i1, i1', -⟩ := C122_axes_delta hR hR' a f name _ _ _ _ mA pA mB pB wA wB 0 sA sB
  obtain ⟨d2, -, i2, i2', -⟩ := C122_axes_delta hR hR' a f name _ _ _ _ mB pB mA pA wB wA 0 sB sA
  have eA : (GeoPoint.real latA lonA zA (.real a f name R)).to_nvector.to_ecef_vector = .real pA (.real a f name R) := hA.ec
  have eB : (GeoPoint.real latB lonB zB (.real a f name R)).to_nvector.to_ecef_vector = .real pB (.real a f name R) := hB.ec
  have eA' : (GeoPoint.real latA lonA zA (.real a f name R')).to_nvector.to_ecef_vector =
    .real (app (fromTo R R') pA) (.real a f name R') := hA'.ec
  have eB' : (GeoPoint.real latB lonB zB (.real a f name R')).to_nvector.to_ecef_vector =
    .real (app (fromTo R R') pB) (.real a f name R') := hB'.ec
  have vA : (GeoPoint.real latA lonA zA (.real a f name R)).to_nvector.normal = nA.fin := congrArg Nvector.normal hA.nv
  have vB : (GeoPoint.real latB lonB zB (.real a f name R)).to_nvector.normal = nB.fin := congrArg Nvector.normal hB.nv
  have vA' : (GeoPoint.real latA lonA zA (.real a f name R')).to_nvector.normal = (app (fromTo R R') nA).fin := congrArg Nvector.normal hA'.nv
  have vB' : (GeoPoint.real latB lonB zB (.real a f name R')).to_nvector.normal = (app (fromTo R R') nB).fin := congrArg Nvector.normal hB'.nv
  have pl : ∀ (p : V3 ℝ) (F : FrameE XR), (ECEFvector.real p F).pvector = p.fin := fun _ _ => rfl
  unfold GeoPoint.distance_and_azimuth_greatcircle
  simp only [Position.to_nvector, eA, eB, eA', eB', vA, vB, vA', vB', i1, i1', i2, i2', bind, Except.bind, pl, length, norm3_fin,
    len_app hQ, Pvector.real]
  have hd := fun r => (C122_distances hQ nA nB r).1
  simp only [turned_fin] at hd
  simp only [hd]

omit hR hR' in
/-- **C122** every pair of GeoPoints with the same coordinates in two frames meets the hypotheses of the theorems above: here the
two kinds of axes the library knows -/
example (lat lon z : ℝ) : ∃ n p, SamePlace Re one 6378137 (1 / 298) (.str "x")
    (.geo (.real lat lon z (.real 6378137 (1 / 298) (.str "x") Re))) (.geo (.real lat lon z (.real 6378137 (1 / 298) (.str "x") one))) n p z :=
  geo_two_axes isRotation_Re isRotation_one lat lon z 6378137 (1 / 298) (by norm_num) (.str "x")

end

end Nv
