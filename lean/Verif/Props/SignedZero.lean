import Verif.Lemmas.Signed
import Verif.Props.Frames
import Verif.Props.Rotations
import Verif.Float.Vermeille

/-!
# C116: the sign of zero

`Sgn α` is the arithmetic `α` (exact `XR` or binary64 `F64 B`) with the sign bit of IEEE-754.  `v.val` forgets the signs of the zeros.  An
equation `(f v).val = f v.val` says that the function computes the same numbers whatever the signs of the zeros in its input are, and the numbers
that all other theorems of this project are about.
-/

namespace Nv
open Spec PyFloat Sgn

section
variable {α : Type} [PyFloat α]

/-! ## Functions that never see the sign of a zero, in every arithmetic -/

/-- **C116** conversions to n-vectors, directions, frames and positions -/
theorem C116_conversions (lat lon depth a f : Sgn α) (v n : V3 (Sgn α)) (R : M3 (Sgn α)) (zero : Sgn α) :
    (unit v zero).val = unit v.val zero.val ∧
    (lat_lon2n_E lat lon R).val = lat_lon2n_E lat.val lon.val R.val ∧
    (n_E2R_EN n R).val = n_E2R_EN n.val R.val ∧
    (n_EB_E2p_EB_E n depth a f R).val = n_EB_E2p_EB_E n.val depth.val a.val f.val R.val :=
  ⟨unit_val _ _, rfl, n_E2R_EN_val _ _, n_EB_E2p_EB_E_val _ _ _ _ _⟩

/-- **C116** the vector between two positions -/
theorem C116_delta (nA nB : V3 (Sgn α)) (zA zB a f : Sgn α) (R : M3 (Sgn α)) :
    (n_EA_E_and_n_EB_E2p_AB_E nA nB zA zB a f R).val = n_EA_E_and_n_EB_E2p_AB_E nA.val nB.val zA.val zB.val a.val f.val R.val := by
  unfold n_EA_E_and_n_EB_E2p_AB_E
  simp only [sub3_val, n_EB_E2p_EB_E_val]

theorem cross_track_distance_val (path : V3 (Sgn α) × V3 (Sgn α)) (b : V3 (Sgn α)) (method : String) (radius : Sgn α) :
    (cross_track_distance path b method radius).map Sgn.val = cross_track_distance (path.1.val, path.2.val) b.val method radius.val := by
  unfold cross_track_distance
  have e : (-(dot3 (great_circle_normal path.1 path.2) b)).val = -(dot3 (great_circle_normal path.1.val path.2.val) b.val) := by
    unfold great_circle_normal
    rw [neg_val, dot3_val, unit_val]; rfl
  cases method.toList with
  | nil => rfl
  | cons m l =>
    simp only
    split_ifs
    · simp only [Except.map, euclidean_cross_track_distance, mul_val, e]
    · simp only [Except.map, great_circle_cross_track_distance, mul_val, arcsin_val, e]

theorem abs_cross_track_val (path : V3 (Sgn α) × V3 (Sgn α)) (b : V3 (Sgn α)) (radius : Sgn α) :
    (abs_cross_track path b radius).val = abs_cross_track (path.1.val, path.2.val) b.val radius.val := by
  unfold abs_cross_track
  rw [← cross_track_distance_val]
  cases cross_track_distance path b "greatcircle" radius <;> rfl

/-- **C116** great circle paths -/
theorem C116_great_circles (path path' : V3 (Sgn α) × V3 (Sgn α)) (b : V3 (Sgn α)) (method : String) (radius atol ti : Sgn α) :
    (interpolate path ti).val = interpolate (path.1.val, path.2.val) ti.val ∧
    (intersect path path').val = intersect (path.1.val, path.2.val) (path'.1.val, path'.2.val) ∧
    intersect_warns path path' = intersect_warns (path.1.val, path.2.val) (path'.1.val, path'.2.val) ∧
    (cross_track_distance path b method radius).map Sgn.val = cross_track_distance (path.1.val, path.2.val) b.val method radius.val ∧
    on_great_circle path b radius atol = on_great_circle (path.1.val, path.2.val) b.val radius.val atol.val ∧
    on_great_circle_path path b radius atol = on_great_circle_path (path.1.val, path.2.val) b.val radius.val atol.val ∧
    (closest_point_on_great_circle path b).val = closest_point_on_great_circle (path.1.val, path.2.val) b.val ∧
    (euclidean_distance path.1 path.2 radius).val = euclidean_distance path.1.val path.2.val radius.val := by
  have hi : (intersect path path').val = intersect (path.1.val, path.2.val) (path'.1.val, path'.2.val) := by
    unfold intersect
    simp only [scale3_val, unit_val, cross3_val, sign_val, dot3_val, nan_val]
  have ho : on_great_circle path b radius atol = on_great_circle (path.1.val, path.2.val) b.val radius.val atol.val := by
    unfold on_great_circle
    rw [le_val, abs_cross_track_val]
  refine ⟨?_, hi, ?_, cross_track_distance_val _ _ _ _, ho, ?_, ?_, rfl⟩
  · unfold interpolate; simp only [unit_val, add3_val, scale3_val, sub3_val, nan_val]
  · unfold intersect_warns
    rw [← hi]; rfl
  · unfold on_great_circle_path
    rw [ho]
    simp only [le_val, div_val _ _ (norm3_mz _), norm3_val, sub3_val, lit_val]
  · unfold closest_point_on_great_circle great_circle_normal
    simp only [scale3_val, unit_val, cross3_val, sign_val, dot3_val, nan_val, lit_val]

/-- **C116** the direct problem and the mean -/
theorem C116_direct_and_mean (n : V3 (Sgn α)) (d az : Sgn α) (R : M3 (Sgn α)) (l : List (V3 (Sgn α))) :
    (n_EA_E_distance_and_azimuth2n_EB_E n d az R).val = n_EA_E_distance_and_azimuth2n_EB_E n.val d.val az.val R.val ∧
    (mean_horizontal_position l).val = mean_horizontal_position (l.map V3.val) := by
  constructor
  · unfold n_EA_E_distance_and_azimuth2n_EB_E
    simp only [add3_val, scale3_val, cross3_val, unit_val, mulVec_val, tr_val, V3.val_mk, lit_val, cos_val, sin_val]
  · have : ∀ v : V3 (Sgn α), (l.foldl add3 v).val = (l.map V3.val).foldl add3 v.val := by
      induction l with
      | nil => intro v; rfl
      | cons w l ih => intro v; simp only [List.foldl_cons, List.map_cons, ih, add3_val]
    unfold mean_horizontal_position
    rw [unit_val, this]; rfl

/-- **C116** comparisons -/
theorem C116_isclose (a b rtol atol : Sgn α) (en : Bool) : isclose a b rtol atol en = isclose a.val b.val rtol.val atol.val en := rfl

theorem allclose_val (l : List (Sgn α × Sgn α)) (rtol atol : Sgn α) (en : Bool) :
    allclose l rtol atol en = allclose (l.map fun p => (p.1.val, p.2.val)) rtol.val atol.val en := by
  unfold allclose
  rw [List.all_map]; rfl

/-- **C116** the great circle distance, except between zero vectors -/
theorem C116_great_circle_distance (nA nB : V3 (Sgn α)) (radius : Sgn α)
    (h : (eq (norm3 (cross3 nA.val nB.val)) (lit 0 : α) && eq (dot3 nA.val nB.val) (lit 0 : α)) = false) :
    (great_circle_distance nA nB radius).val = great_circle_distance nA.val nB.val radius.val := by
  unfold great_circle_distance
  rw [mul_val, arctan2_val]
  · rfl
  · rw [norm3_neg, Bool.false_or]; exact h

end

/-! ## Positions to n-vectors -/

/-- **C116** `p_EB_E2n_EB_E` in exact arithmetic, for every finite position (also in the core of the Earth, where it is NaN) -/
theorem C116_position (p : V3 (Sgn XR)) (a f : Sgn XR) (R : M3 (Sgn XR)) {q : V3 ℝ} {a' f' : ℝ} {R' : M3 ℝ} (hp : p.val = q.fin)
    (ha : a.val = .fin a') (a0 : 0 < a') (hf : f.val = .fin f') (hR : R.val = R'.fin) :
    (p_EB_E2n_EB_E p a f R).1.val = (p_EB_E2n_EB_E p.val a.val f.val R.val).1 ∧
      (p_EB_E2n_EB_E p a f R).2.val = (p_EB_E2n_EB_E p.val a.val f.val R.val).2 := by
  refine p_EB_E2n_EB_E_val p R ?_ ?_
  · rw [ha, XR.lit_zero_XR]; simp [xr]; exact a0.le
  · rw [hp, hR, ha, hf, XR.lit_zero_XR]
    obtain ⟨c, hc⟩ : ∃ c, coreOf (XR.fin a') (XR.fin f') (mulVec R'.fin q.fin) = XR.fin c := by
      unfold coreOf coreTerm eccentricity2
      simp only [xr]
      rw [XR.div_fin (by positivity), XR.div_fin (by positivity)]
      simp only [xr]
      exact ⟨_, rfl⟩
    rw [hc]
    by_cases h : c < 0
    · right
      simp only [xr]
      rw [XR.div_fin (by norm_num)]
      simp only [xr, decide_eq_false_iff_not]
      have : (c / ((6 : ℚ) : ℝ)) ^ 3 ≠ 0 := pow_ne_zero _ (div_ne_zero h.ne (by norm_num))
      exact mul_ne_zero (by norm_num) this
    · left; simp only [xr, decide_eq_false_iff_not]; exact h

/-! ## Angles -/

theorem XR.eq_zero_fin {x : XR} {u : ℝ} (h : x = .fin u) : PyFloat.eq x (lit 0) = decide (u = 0) := by
  rw [h, XR.lit_zero_XR]; rfl

/-- `np.arctan2` of two finite numbers with signed zeros: the angle of the point `(u, v)`, which is the angle without signed zeros except that it
is `-π` instead of `π` on the negative axis approached from below; at the origin it is 0, π or -π. -/
theorem arctan2_signed {y x : Sgn XR} {v u : ℝ} (hy : y.val = .fin v) (hx : x.val = .fin u) :
    ∃ θ : ℝ, (arctan2 y x).val = .fin θ ∧ -Real.pi ≤ θ ∧ θ ≤ Real.pi ∧ √(u ^ 2 + v ^ 2) * Real.cos θ = u ∧
      √(u ^ 2 + v ^ 2) * Real.sin θ = v ∧
      (¬ (u = 0 ∧ v = 0) → θ = XR.atan2 v u ∨ (v = 0 ∧ u < 0 ∧ y.neg = true ∧ θ = -Real.pi ∧ XR.atan2 v u = Real.pi)) ∧
      (u = 0 ∧ v = 0 → θ = 0 ∨ θ = Real.pi ∨ θ = -Real.pi) := by
  have hpi := Real.pi_pos
  have c1 := XR.sqrt_mul_cos_atan2 v u
  have c2 := XR.sqrt_mul_sin_atan2 v u
  have zy : y.isZero = decide (v = 0) := XR.eq_zero_fin hy
  have zx : x.isZero = decide (u = 0) := XR.eq_zero_fin hx
  have at0 : (arctan2 (lit 0) (lit (-1)) : XR) = .fin Real.pi := by
    have e : (arctan2 (lit 0) (lit (-1)) : XR) = .fin (XR.atan2 0 (-1)) := by
      simp only [xr]; norm_num
    rw [e, XR.atan2_eq one_pos (θ := Real.pi) (by linarith) le_rfl (by simp) (by simp)]
  have hE : (arctan2 y x).val = if y.isZero then (if x.isZero then atan2Zero y x else if y.neg then -arctan2 y.val x.val else arctan2 y.val x.val)
      else arctan2 y.val x.val := rfl
  have hA : arctan2 y.val x.val = .fin (XR.atan2 v u) := by rw [hy, hx]; simp only [xr]
  by_cases hv : v = 0
  · have zy' : y.isZero = true := by rw [zy]; simpa using hv
    by_cases hu : u = 0
    · have zx' : x.isZero = true := by rw [zx]; simpa using hu
      rw [hE, zy', zx']
      simp only [if_true]
      unfold atan2Zero
      rw [at0]
      subst hv hu
      have e0 : √((0 : ℝ) ^ 2 + 0 ^ 2) = 0 := by simp
      have hl : (lit 0 : XR) = .fin 0 := XR.lit_zero_XR
      rcases hxn : x.neg
      · refine ⟨0, by simpa using hl, by linarith, by linarith, by simp, by simp, by simp, by simp⟩
      · rcases hyn : y.neg
        · exact ⟨Real.pi, by simp, by linarith, le_rfl, by simp, by simp, by simp, by simp⟩
        · exact ⟨-Real.pi, by simp [xr], le_rfl, by linarith, by simp, by simp, by simp, by simp⟩
    · have zx' : x.isZero = false := by rw [zx]; simpa using hu
      rw [hE, zy', zx', hA]
      simp only [if_true]
      have hn : ¬ (u = 0 ∧ v = 0) := fun h => hu h.1
      rcases hyn : y.neg
      · exact ⟨XR.atan2 v u, by simp, XR.neg_pi_le_atan2 _ _, XR.atan2_le_pi _ _, c1, c2, fun _ => .inl rfl, fun h => absurd h.1 hu⟩
      · rcases lt_or_gt_of_ne hu with h | h
        · have hp : XR.atan2 v u = Real.pi :=
            XR.atan2_eq (r := -u) (by linarith) (by linarith) le_rfl (by simp) (by simp [hv])
          refine ⟨-Real.pi, by simp [xr, hp], le_rfl, by linarith, ?_, ?_, fun _ => .inr ⟨hv, h, rfl, rfl, hp⟩, fun h => absurd h.1 hu⟩
          · rw [hp] at c1; simpa using c1
          · rw [hp] at c2; simpa using c2
        · have h0 : XR.atan2 v u = 0 := XR.atan2_eq (r := u) h (by linarith) (by linarith) (by simp) (by simp [hv])
          refine ⟨0, by simp [xr, h0], by linarith, by linarith, ?_, ?_, fun _ => .inl h0.symm, fun h => absurd h.1 hu⟩
          · rw [h0] at c1; exact c1
          · rw [h0] at c2; exact c2
  · have zy' : y.isZero = false := by rw [zy]; simpa using hv
    rw [hE, zy', hA]
    exact ⟨XR.atan2 v u, by simp, XR.neg_pi_le_atan2 _ _, XR.atan2_le_pi _ _, c1, c2, fun _ => .inl rfl, fun h => absurd h.2 hv⟩

/-- no wander: the middle argument is not negative, so no sign can be seen except at the origin -/
theorem arctan2_signed_nonneg {y x : Sgn XR} {v u : ℝ} (hy : y.val = .fin v) (hx : x.val = .fin u) (h : 0 ≤ u) (h0 : ¬ (u = 0 ∧ v = 0)) :
    (arctan2 y x).val = .fin (XR.atan2 v u) := by
  obtain ⟨θ, h1, -, -, -, -, h2, -⟩ := arctan2_signed hy hx
  rcases h2 h0 with h2 | ⟨-, h3, -⟩
  · rw [h1, h2]
  · linarith

/-- **C116** latitude and longitude of a finite nonzero n-vector, whatever the signs of the zeros are: the latitude is the latitude of C03, the
longitude that of C03 except that it may be -180° instead of 180°, and 0°, 180° or -180° at the poles; everywhere, poles included, the pair is a
latitude and longitude of the n-vector, so that converting it back (in the signed arithmetic) gives the n-vector scaled to unit length. -/
theorem C116_lat_lon (n : V3 (Sgn XR)) (R : M3 (Sgn XR)) {m : V3 ℝ} {R' : M3 ℝ} (hn : n.val = m.fin) (hm : m ≠ 0) (hR : R.val = R'.fin)
    (hR' : IsRotation R') :
    ∃ lat lon : ℝ, (n_E2lat_lon n R).1.val = .fin lat ∧ (n_E2lat_lon n R).2.val = .fin lon ∧
      (n_E2lat_lon m.fin R'.fin).1 = .fin lat ∧
      (¬ ((app R' m).y = 0 ∧ (app R' m).z = 0) →
        (n_E2lat_lon m.fin R'.fin).2 = .fin lon ∨ ((n_E2lat_lon m.fin R'.fin).2 = .fin Real.pi ∧ lon = -Real.pi)) ∧
      ((app R' m).y = 0 ∧ (app R' m).z = 0 → lon = 0 ∨ lon = Real.pi ∨ lon = -Real.pi) ∧
      -Real.pi ≤ lon ∧ lon ≤ Real.pi ∧ geoNormal lat lon = app R' (dirOf m) ∧
      (lat_lon2n_E (n_E2lat_lon n R).1 (n_E2lat_lon n R).2 R).val = (dirOf m).fin := by
  have hval : (mulVec R n).val = (app R' m).fin := by rw [mulVec_val, hn, hR, mulVec_fin]
  obtain ⟨q, hq⟩ : ∃ q, q = app R' m := ⟨_, rfl⟩
  have hg := geoNormal_of_n m hm R' hR'
  have hlen : 0 < len q := by rw [hq, len_app hR']; exact len_pos hm
  have hll := n_E2lat_lon_fin m R'
  rw [← hq] at hval hg hll ⊢
  have vx : (mulVec R n).x.val = .fin q.x := congrArg V3.x hval
  have vy : (mulVec R n).y.val = .fin q.y := congrArg V3.y hval
  have vz : (mulVec R n).z.val = .fin q.z := congrArg V3.z hval
  have hs : (sqrt (powNat (mulVec R n).y 2 + powNat (mulVec R n).z 2) : Sgn XR).val = .fin (√(q.y ^ 2 + q.z ^ 2)) := by
    rw [sqrt_val, add_val, powNat_val, powNat_val, vy, vz]
    simp only [xr]
    rw [XR.sqrt_fin (by positivity)]
  have hq0 : ¬ (√(q.y ^ 2 + q.z ^ 2) = 0 ∧ q.x = 0) := by
    rintro ⟨h1, h2⟩
    rw [Real.sqrt_eq_zero (by positivity)] at h1
    unfold len at hlen
    rw [h2] at hlen
    have : (0 : ℝ) ^ 2 + q.y ^ 2 + q.z ^ 2 = 0 := by linarith
    rw [this] at hlen; simp at hlen
  have h1 := arctan2_signed_nonneg vx hs (Real.sqrt_nonneg _) hq0
  obtain ⟨lon, e2, b1, b2, s1, s2, o1, o2⟩ := arctan2_signed (x := -(mulVec R n).z) (u := -q.z) vy (by rw [neg_val, vz]; simp only [xr])
  obtain ⟨lat, hlat⟩ : ∃ lat, lat = XR.atan2 q.x (√(q.y ^ 2 + q.z ^ 2)) := ⟨_, rfl⟩
  rw [← hlat] at h1 hg hll
  have key : geoNormal lat lon = app R' (dirOf m) := by
    rw [← hg]
    -- both longitudes turn the equatorial part to the same point
    have c1 := XR.sqrt_mul_cos_atan2 q.y (-q.z)
    have c2 := XR.sqrt_mul_sin_atan2 q.y (-q.z)
    have c3 := XR.sqrt_mul_cos_atan2 q.x (√(q.y ^ 2 + q.z ^ 2))
    rw [← hlat, Real.sq_sqrt (by positivity)] at c3
    have e : √((-q.z) ^ 2 + q.y ^ 2) = √(q.y ^ 2 + q.z ^ 2) := by congr 1; ring
    have e3 : √(q.y ^ 2 + q.z ^ 2 + q.x ^ 2) = len q := by unfold len; congr 1; ring
    rw [e3] at c3
    rw [e] at c1 c2 s1 s2
    have i := mul_inv_cancel₀ hlen.ne'
    rw [← c3] at c1 c2 s1 s2
    unfold geoNormal
    have k1 : Real.sin lon * Real.cos lat = Real.sin (XR.atan2 q.y (-q.z)) * Real.cos lat := by
      apply mul_left_cancel₀ hlen.ne'; linarith
    have k2 : Real.cos lon * Real.cos lat = Real.cos (XR.atan2 q.y (-q.z)) * Real.cos lat := by
      apply mul_left_cancel₀ hlen.ne'; linarith
    rw [k1, k2]
  refine ⟨lat, lon, h1, e2, by rw [hll], ?_, ?_, b1, b2, key, ?_⟩
  · intro hp
    rw [hll]
    rcases o1 (fun h => hp ⟨h.2, by linarith [h.1]⟩) with h | ⟨-, -, -, h4, h5⟩
    · left; rw [h]
    · right; exact ⟨by rw [h5], h4⟩
  · intro hp
    exact o2 ⟨by rw [hp.2]; simp, hp.1⟩
  · rw [lat_lon2n_E_val]
    have t1 : (n_E2lat_lon n R).1.val = .fin lat := h1
    have t2 : (n_E2lat_lon n R).2.val = .fin lon := e2
    rw [t1, t2, hR, lat_lon2n_E_fin, key, hR'.trans_app]

/-- **C116** the local frame with wander azimuth, whatever the signs of the zeros are: off the poles the same matrix, everywhere a rotation matrix
whose third column is minus the n-vector -/
theorem C116_wander (n : V3 (Sgn XR)) (wa : Sgn XR) (R : M3 (Sgn XR)) {m : V3 ℝ} {w : ℝ} {R' : M3 ℝ} (hn : n.val = m.fin) (hm : m ≠ 0)
    (hw : wa.val = .fin w) (hR : R.val = R'.fin) (hR' : IsRotation R') :
    (¬ ((app R' m).y = 0 ∧ (app R' m).z = 0) → (n_E_and_wa2R_EL n wa R).val = n_E_and_wa2R_EL m.fin (.fin w) R'.fin) ∧
      ∃ M : M3 ℝ, (n_E_and_wa2R_EL n wa R).val = M.fin ∧ IsRotation M ∧ col2 M = -((len m)⁻¹ • m) := by
  obtain ⟨lat, lon, e1, e2, e3, e4, -, -, -, hg, -⟩ := C116_lat_lon n R hn hm hR hR'
  have hE : (n_E_and_wa2R_EL n wa R).val = mdot (tr R.val) (xyz2R (n_E2lat_lon n R).2.val (-(n_E2lat_lon n R).1.val) wa.val) := rfl
  rw [e1, e2, hw, hR] at hE
  constructor
  · intro hp
    rw [hE]
    unfold n_E_and_wa2R_EL
    dsimp only
    rw [e3]
    rcases e4 hp with h | ⟨h, h'⟩
    · rw [h]
    · rw [h, h']
      simp only [xr]
      rw [xyz2R_fin, xyz2R_fin, xyz_entries, xyz_entries]
      simp
  · simp only [xr] at hE
    rw [xyz2R_fin, mdot_fin] at hE
    refine ⟨_, hE, hR'.transpose.mul (C15_xyz2R _ _ _).2, ?_⟩
    rw [col2_mmul, xyz_entries]
    have e : (⟨Real.sin (-lat), -(Real.cos (-lat) * Real.sin lon), Real.cos (-lat) * Real.cos lon⟩ : V3 ℝ) = -geoNormal lat lon := by
      unfold geoNormal; ext <;> simp <;> ring
    show app (transp R') ⟨Real.sin (-lat), -(Real.cos (-lat) * Real.sin lon), Real.cos (-lat) * Real.cos lon⟩ = _
    rw [e, app_neg, hg, hR'.trans_app]; rfl

section
variable {α : Type} [PyFloat α] [SignLaws α]

/-- `np.arctan2` in every arithmetic, except at the origin: the sign of a zero can only turn `arctan2(0, x)`, `x` negative, into its negative -/
theorem arctan2_either (y x : Sgn α) (h : (eq y.val (lit 0) && eq x.val (lit 0)) = false) :
    (arctan2 y x).val = arctan2 y.val x.val ∨
      (eq y.val (lit 0) = true ∧ lt x.val (lit 0) = true ∧ y.neg = true ∧ (arctan2 y x).val = -arctan2 y.val x.val) := by
  have hE : (arctan2 y x).val = if eq y.val (lit 0) then (if eq x.val (lit 0) then atan2Zero y x else if y.neg then -arctan2 y.val x.val else
      arctan2 y.val x.val) else arctan2 y.val x.val := rfl
  rcases hy : eq y.val (lit 0)
  · left; rw [hE, hy]; rfl
  · rw [hy, Bool.true_and] at h
    rcases hn : y.neg
    · left; rw [hE, hy, h, hn]; rfl
    · have e : (arctan2 y x).val = -arctan2 y.val x.val := by rw [hE, hy, h, hn]; rfl
      rcases hl : lt x.val (lit 0)
      · left; rw [e]; exact SignLaws.arctan2_zero _ _ hy hl h
      · right; exact ⟨rfl, rfl, rfl, e⟩

theorem arctan2_same (y x : Sgn α) (hx : lt x.val (lit 0) = false) (h : (eq y.val (lit 0) && eq x.val (lit 0)) = false) :
    (arctan2 y x).val = arctan2 y.val x.val := by
  rcases arctan2_either y x h with h | ⟨-, h2, -⟩
  · exact h
  · rw [hx] at h2; cases h2

/-- **C116** in every arithmetic (so also in binary64): the latitude of a nonzero n-vector does not depend on the signs of its zeros; the longitude
off the poles does not either, except that it changes sign (180° against -180°) on the half meridian where `y` is a zero and the longitude is a half turn -/
theorem C116_lat_lon_any (n : V3 (Sgn α)) (R : M3 (Sgn α)) :
    ((eq (mulVec R.val n.val).x (lit 0) && eq (sqrt (powNat (mulVec R.val n.val).y 2 + powNat (mulVec R.val n.val).z 2)) (lit 0)) = false →
      (n_E2lat_lon n R).1.val = (n_E2lat_lon n.val R.val).1) ∧
    ((eq (mulVec R.val n.val).y (lit 0) && eq (-(mulVec R.val n.val).z) (lit 0)) = false →
      (n_E2lat_lon n R).2.val = (n_E2lat_lon n.val R.val).2 ∨
        (eq (mulVec R.val n.val).y (lit 0) = true ∧ lt (-(mulVec R.val n.val).z) (lit 0) = true ∧
          (n_E2lat_lon n R).2.val = -(n_E2lat_lon n.val R.val).2)) := by
  constructor
  · intro h
    exact arctan2_same _ _ (SignLaws.sqrt_nonneg _) h
  · intro h
    rcases arctan2_either (mulVec R n).y (-(mulVec R n).z) h with h | ⟨h1, h2, -, h3⟩
    · exact .inl h
    · exact .inr ⟨h1, h2, h3⟩

/-- **C116** azimuths, in every arithmetic: the same number, except that the azimuth of a target due south may be -180° instead of 180° -/
theorem C116_azimuth (p : V3 (Sgn α)) (h : (eq p.val.y (lit 0) && eq p.val.x (lit 0)) = false) :
    (azimuth p).val = azimuth p.val ∨
      (eq p.val.y (lit 0) = true ∧ lt p.val.x (lit 0) = true ∧ (azimuth p).val = -azimuth p.val) := by
  rcases arctan2_either p.y p.x h with h | ⟨h1, h2, -, h3⟩
  · exact .inl h
  · exact .inr ⟨h1, h2, h3⟩

/-- **C116** `n_EA_E_and_n_EB_E2azimuth` is the azimuth of the north, east, down vector, whose components do not depend on the signs of the zeros -/
theorem C116_azimuth_between (nA nB : V3 (Sgn α)) (a f : Sgn α) (R : M3 (Sgn α)) {p : V3 α}
    (hp : p = mulVec (tr (n_E2R_EN nA.val R.val)) (n_EA_E_and_n_EB_E2p_AB_E nA.val nB.val (lit 0) (lit 0) a.val f.val R.val))
    (h : (eq p.y (lit 0) && eq p.x (lit 0)) = false) :
    (n_EA_E_and_n_EB_E2azimuth nA nB a f R).val = n_EA_E_and_n_EB_E2azimuth nA.val nB.val a.val f.val R.val ∨
      (eq p.y (lit 0) = true ∧ lt p.x (lit 0) = true ∧
        (n_EA_E_and_n_EB_E2azimuth nA nB a f R).val = -n_EA_E_and_n_EB_E2azimuth nA.val nB.val a.val f.val R.val) := by
  obtain ⟨q, hq⟩ : ∃ q, q = mulVec (tr (n_E2R_EN nA R)) (n_EA_E_and_n_EB_E2p_AB_E nA nB (lit 0) (lit 0) a f R) := ⟨_, rfl⟩
  have hqp : q.val = p := by
    rw [hq, hp, mulVec_val, tr_val, n_E2R_EN_val, C116_delta]; rfl
  have e1 : n_EA_E_and_n_EB_E2azimuth nA nB a f R = azimuth q := by rw [hq]; rfl
  have e2 : n_EA_E_and_n_EB_E2azimuth nA.val nB.val a.val f.val R.val = azimuth p := by rw [hp]; rfl
  rw [e1, e2, ← hqp]
  rw [← hqp] at h
  exact C116_azimuth q h

/-- **C116** the length and elevation of a vector -/
theorem C116_length_elevation (p : V3 (Sgn α)) : (length p).val = length p.val ∧ (elevation p).val = elevation p.val := by
  refine ⟨rfl, ?_⟩
  unfold elevation length
  rw [arcsin_val, div_val _ _ (norm3_mz _)]; rfl

/-- **C116** `_base_angle` -/
theorem C116_base_angle (x : Sgn α) : (base_angle x).val = base_angle x.val := rfl

/-- **C116** Euler angles of a matrix, in every arithmetic: the middle angle is the same number; the outer ones are, except that a half turn may
have the other sign -/
theorem C116_euler (M : M3 (Sgn α)) :
    ((eq M.val.r0.z (lit 0) && eq (sqrt ((powNat M.val.r0.x 2 + powNat M.val.r0.y 2 + powNat M.val.r1.z 2 + powNat M.val.r2.z 2) / lit 2)) (lit 0)) = false →
      (R2xyz M).2.1.val = (R2xyz M.val).2.1) ∧
    ((eq (-M.val.r1.z) (lit 0) && eq M.val.r2.z (lit 0)) = false →
      (R2xyz M).1.val = (R2xyz M.val).1 ∨ (eq (-M.val.r1.z) (lit 0) = true ∧ lt M.val.r2.z (lit 0) = true ∧ (R2xyz M).1.val = -(R2xyz M.val).1)) ∧
    ((eq (-M.val.r0.y) (lit 0) && eq M.val.r0.x (lit 0)) = false →
      (R2xyz M).2.2.val = (R2xyz M.val).2.2 ∨
        (eq (-M.val.r0.y) (lit 0) = true ∧ lt M.val.r0.x (lit 0) = true ∧ (R2xyz M).2.2.val = -(R2xyz M.val).2.2)) := by
  have hs : (sqrt ((powNat M.r0.x 2 + powNat M.r0.y 2 + powNat M.r1.z 2 + powNat M.r2.z 2) / lit 2) : Sgn α).val =
      sqrt ((powNat M.val.r0.x 2 + powNat M.val.r0.y 2 + powNat M.val.r1.z 2 + powNat M.val.r2.z 2) / lit 2) := by
    rw [sqrt_val, div_val _ _ (lit_mz 2)]; rfl
  refine ⟨fun h => ?_, fun h => ?_, fun h => ?_⟩
  · have := arctan2_same M.r0.z (sqrt ((powNat M.r0.x 2 + powNat M.r0.y 2 + powNat M.r1.z 2 + powNat M.r2.z 2) / lit 2) : Sgn α)
      (SignLaws.sqrt_nonneg _) (by rw [hs]; exact h)
    rw [hs] at this; exact this
  · rcases arctan2_either (-M.r1.z) M.r2.z h with h | ⟨h1, h2, -, h3⟩
    · exact .inl h
    · exact .inr ⟨h1, h2, h3⟩
  · rcases arctan2_either (-M.r0.y) M.r0.x h with h | ⟨h1, h2, -, h3⟩
    · exact .inl h
    · exact .inr ⟨h1, h2, h3⟩

end

/-! ## The sign of a zero does show in a longitude -/

/-- the n-vector `(-1, ±0, ±0)`, that is `np.array([-1., ±0., ±0.])` -/
def westward (minus : Bool) : V3 (Sgn XR) := ⟨⟨.fin (-1), true⟩, ⟨.fin 0, minus⟩, ⟨.fin 0, minus⟩⟩

/-- **C116** the two n-vectors are equal numbers, yet the longitude of `(-1, 0, 0)` is π and that of `(-1, -0, -0)` is -π -/
theorem C116_counterexample :
    (westward true).val = (westward false).val ∧ (n_E2lat_lon (westward false) R_e).2.val = .fin Real.pi ∧
      (n_E2lat_lon (westward true) R_e).2.val = .fin (-Real.pi) := by
  have hpi := Real.pi_pos
  have at0 : XR.atan2 0 (-1) = Real.pi := XR.atan2_eq one_pos (θ := Real.pi) (by linarith) le_rfl (by simp) (by simp)
  have h0 : (lit 0 : XR) = .fin 0 := XR.lit_zero_XR
  have h1 : (lit 1 : XR) = .fin 1 := by change XR.fin ((1 : ℚ) : ℝ) = _; simp
  have h2 : (lit (-1) : XR) = .fin (-1) := by change XR.fin ((-1 : ℚ) : ℝ) = _; simp
  have hv (b : Bool) : (mulVec R_e (westward b)).val = (⟨0, 0, 1⟩ : V3 ℝ).fin := by
    rw [mulVec_val, R_e_val]
    simp only [westward, V3.val_mk, mulVec, dot3, R_e, h0, h1, h2, xr, V3.fin]
    norm_num
  have vy (b : Bool) : (mulVec R_e (westward b)).y.val = .fin 0 := congrArg V3.y (hv b)
  have vz (b : Bool) : (-(mulVec R_e (westward b)).z).val = .fin (-1) := by
    rw [neg_val]
    have : (mulVec R_e (westward b)).z.val = .fin 1 := congrArg V3.z (hv b)
    rw [this]; simp only [xr]
  have hy (b : Bool) : (mulVec R_e (westward b)).y.neg = b := by
    have z0 : ∀ c, ((⟨.fin 0, c⟩ : Sgn XR)).isZero = true := fun c => by
      change eq (XR.fin 0) (lit 0) = true
      rw [h0]; change decide ((0 : ℝ) = 0) = true; simp
    have zl : (lit 0 : Sgn XR) = ⟨.fin 0, false⟩ := by change (⟨lit 0, false⟩ : Sgn XR) = _; rw [h0]
    have ol : (lit 1 : Sgn XR) = ⟨.fin 1, false⟩ := by change (⟨lit 1, false⟩ : Sgn XR) = _; rw [h1]
    have o1 : (⟨.fin 1, false⟩ : Sgn XR).isNeg = false := by
      rw [← ol]; exact lit_isNeg (by norm_num)
    have m1 : (⟨.fin (-1), true⟩ : Sgn XR).isNeg = true := by
      change (if eq (XR.fin (-1)) (lit 0) then _ else lt (XR.fin (-1)) (lit 0)) = true
      rw [h0]
      change (if decide ((-1 : ℝ) = 0) = true then _ else decide ((-1 : ℝ) < 0)) = true
      norm_num
    have zn : ∀ c, ((⟨.fin 0, c⟩ : Sgn XR)).isNeg = c := fun c => by
      unfold isNeg; rw [z0]; rfl
    have e : (mulVec R_e (westward b)).y = lit 0 * ⟨.fin (-1), true⟩ + lit 1 * ⟨.fin 0, b⟩ + lit 0 * ⟨.fin 0, b⟩ := rfl
    have mz : ∀ x y : ℝ, x * y = 0 → (XR.fin x * XR.fin y : XR) = .fin 0 := fun x y h => by simp only [xr, h]
    have p1 : (lit 0 * ⟨.fin (-1), true⟩ : Sgn XR) = ⟨.fin 0, true⟩ := by
      rw [zl]; apply Sgn.ext
      · exact mz _ _ (by norm_num)
      · rw [mul_neg, zn, m1]; rfl
    have p2 : (lit 1 * ⟨.fin 0, b⟩ : Sgn XR) = ⟨.fin 0, b⟩ := by
      rw [ol]; apply Sgn.ext
      · exact mz _ _ (by norm_num)
      · rw [mul_neg, zn, o1]; simp
    have p3 : (lit 0 * ⟨.fin 0, b⟩ : Sgn XR) = ⟨.fin 0, b⟩ := by
      rw [zl]; apply Sgn.ext
      · exact mz _ _ (by norm_num)
      · rw [mul_neg, zn, zn]; simp
    have s0 : (XR.fin 0 + XR.fin 0 : XR) = .fin 0 := by simp only [xr]; norm_num
    have a1 : (⟨.fin 0, true⟩ + ⟨.fin 0, b⟩ : Sgn XR) = ⟨.fin 0, b⟩ := by
      apply Sgn.ext
      · exact s0
      · rw [Sgn.add_neg, z0, z0]; simp
    rw [e, p1, p2, p3, a1, Sgn.add_neg, z0]; simp
  have key (b : Bool) : (n_E2lat_lon (westward b) R_e).2.val = if b then .fin (-Real.pi) else .fin Real.pi := by
    have hE : (n_E2lat_lon (westward b) R_e).2 = arctan2 (mulVec R_e (westward b)).y (-(mulVec R_e (westward b)).z) := rfl
    have hA : ∀ y x : Sgn XR, y.val = .fin 0 → x.val = .fin (-1) → (arctan2 y x).val = if y.neg then .fin (-Real.pi) else .fin Real.pi := by
      intro y x hy hx
      have hD : (arctan2 y x).val = if eq y.val (lit 0) then (if eq x.val (lit 0) then atan2Zero y x else if y.neg then -arctan2 y.val x.val else
        arctan2 y.val x.val) else arctan2 y.val x.val := rfl
      rw [hD, XR.eq_zero_fin hy, XR.eq_zero_fin hx, hy, hx]
      simp only [xr, at0]
      norm_num
    rw [hE, hA _ _ (vy b) (vz b), hy]
  exact ⟨rfl, key false, key true⟩

/-! The hypotheses are met: the westward n-vector with negative zeros is a finite nonzero n-vector off the poles. -/
example : (westward true).val = (⟨-1, 0, 0⟩ : V3 ℝ).fin ∧ (⟨-1, 0, 0⟩ : V3 ℝ) ≠ 0 ∧ (R_e : M3 (Sgn XR)).val = Re.fin ∧ IsRotation Re ∧
    ¬ ((app Re ⟨-1, 0, 0⟩).y = 0 ∧ (app Re ⟨-1, 0, 0⟩).z = 0) := by
  refine ⟨rfl, ?_, by rw [R_e_val, R_e_fin], isRotation_Re, ?_⟩
  · intro h; have := congrArg V3.x h; simp at this
  · rintro ⟨-, h⟩; simp [app, Re, dot] at h
/-- a target due south -/
example : (eq (lit 0 : XR) (lit 0) && eq (lit (-1) : XR) (lit 0)) = false := by
  have h2 : (lit (-1) : XR) = .fin (-1) := by change XR.fin ((-1 : ℚ) : ℝ) = _; simp
  rw [XR.eq_zero_fin h2]; norm_num

end Nv
