import Verif.Props.FloatAzimuth
import Verif.Props.FloatDisplace
import Verif.Props.FloatInverse

/-!
# C138: the inverse problem followed by the direct problem in binary64
-/

namespace Nv
open Spec F64
variable (B : Binary64)
variable {R : M3 ℝ} {a δ : ℝ}

/-- `arctan2` of two numbers is a number -/
theorem arctan2_number (y x : ℝ) : ∃ t : ℝ, PyFloat.arctan2 (F64.fin y : F64 B) (F64.fin x) = F64.fin t := by
  rcases em (x = 0 ∧ y = 0) with h | h
  · have e : PyFloat.arctan2 (F64.fin y : F64 B) (F64.fin x) = rnd B XR.atan2Zero := if_pos h
    rw [e]
    refine ⟨_, rnd_fin ?_⟩
    have := XR.atan2Zero_range
    have := Real.pi_lt_four
    rw [abs_le]; constructor <;> norm_num <;> linarith
  · exact ⟨B.arctan2 y x, if_neg h⟩

/-- the heading at the start -/
theorem destination_quarter (N : M3 ℝ) (az : ℝ) : destination N (Real.pi / 2) az = Real.cos az • col0 N + Real.sin az • col1 N := by
  unfold destination; rw [Real.cos_pi_div_two, Real.sin_pi_div_two]; ext <;> simp

/-- a wrong azimuth matters in proportion to the sine of the distance -/
theorem destination_azimuth {N : M3 ℝ} (hN : IsRotation N) (d az az' : ℝ) (k : ℤ) :
    len (destination N d az' - destination N d az) ≤ |Real.sin d| * |az' - (az + k * (2 * Real.pi))| := by
  have e : destination N d az' - destination N d az =
      Real.sin d • (destination N (Real.pi / 2) az' - destination N (Real.pi / 2) (az + k * (2 * Real.pi))) := by
    rw [destination_quarter, destination_quarter, Real.cos_add_int_mul_two_pi, Real.sin_add_int_mul_two_pi]
    unfold destination; ext <;> simp <;> ring
  rw [e, len_smul]
  refine mul_le_mul_of_nonneg_left ?_ (abs_nonneg _)
  have := destination_lip hN (Real.pi / 2) (az + k * (2 * Real.pi)) (Real.pi / 2) az'
  rwa [sub_self, abs_zero, zero_add] at this

/-- a position in the local frame of another one -/
theorem split_position {u v : V3 ℝ} (hu : UnitVec u) (hv : UnitVec v) {N : M3 ℝ} (hN : IsRotation N) (h2 : col2 N = -u) :
    v = Real.cos (angle u v) • u + (dot (col0 N) v • col0 N + dot (col1 N) v • col1 N) ∧
      dot (col0 N) v ^ 2 + dot (col1 N) v ^ 2 = Real.sin (angle u v) ^ 2 ∧ 0 ≤ Real.sin (angle u v) := by
  have hf := frame_col hN
  have hm : -col2 N = u := by rw [h2]; ext <;> simp
  have hcr : cross (-col2 N) (col1 N) = col0 N := by rw [← hN.cross12]; ext <;> simp [cross] <;> ring
  have e := C29_inverse_direct_partial.expand hf v
  rw [hcr, hm] at e
  have hc : Real.cos (angle u v) = dot u v := cos_angle_unit hu hv
  have e' : v = Real.cos (angle u v) • u + (dot (col0 N) v • col0 N + dot (col1 N) v • col1 N) := by
    rw [hc]; conv_lhs => rw [e]
    ext <;> simp [dot_comm] <;> ring
  refine ⟨e', ?_, Real.sin_nonneg_of_nonneg_of_le_pi (angle_nonneg u v) (angle_le_pi u v)⟩
  have h1 : dot v v = 1 := hv.dot
  have h3 : dot v v = dot u v * dot u v + dot (col0 N) v * dot (col0 N) v + dot (col1 N) v * dot (col1 N) v := by
    conv_lhs => arg 1; rw [e']
    rw [hc]
    unfold dot; simp; ring
  have := Real.sin_sq_add_cos_sq (angle u v)
  rw [hc] at this
  nlinarith

/-- **C138** The inverse problem followed by the direct problem, both in rounded arithmetic: walking the computed distance in the computed
direction from A leads to B within `1.35e-13 + δ` (0.9 micrometres on the Earth), wherever B is: next to A, on A, or on the antipode.  `δ`
bounds the deviation of the lengths of the n-vectors from one; A is at least `2^-300` radians from the poles. -/
theorem C138_inverse_direct (hR : IsAxes R) {n m : V3 ℝ} (hn : IsF64V n) (hm : IsF64V m) (hδ : |len n - 1| ≤ δ) (hδm : |len m - 1| ≤ δ)
    (hδ' : δ ≤ 1e-6) (hp : (2 : ℝ) ^ (-300 : ℤ) * len n ≤ len (cross (northPole R) n)) (fa : IsF64 a) (a1 : 1 ≤ a) (a2 : a ≤ 1e10) :
    ∃ (d az : ℝ) (W : V3 ℝ), great_circle_distance (n.flt : V3 (F64 B)) m.flt (F64.fin 1) = F64.fin d ∧
      n_EA_E_and_n_EB_E2azimuth (n.flt : V3 (F64 B)) m.flt (F64.fin a) (F64.fin 0) R.flt = F64.fin az ∧
      n_EA_E_distance_and_azimuth2n_EB_E (n.flt : V3 (F64 B)) (F64.fin d) (F64.fin az) R.flt = W.flt ∧ IsF64V W ∧
      len (W - dirOf m) ≤ 1.35e-13 + δ := by
  have δ0 := (abs_nonneg _).trans hδ
  obtain ⟨n1, n2⟩ := abs_le.mp hδ
  obtain ⟨m1, m2⟩ := abs_le.mp hδm
  have ha : 0 < a := by linarith
  have nl : 0.9 ≤ len n := by norm_num at hδ' ⊢; linarith
  have nl2 : len n ≤ 1.1 := by norm_num at hδ' ⊢; linarith
  have ml : 0.9 ≤ len m := by norm_num at hδ' ⊢; linarith
  have ml2 : len m ≤ 1.1 := by norm_num at hδ' ⊢; linarith
  have n0 : n ≠ 0 := by rintro rfl; simp [len] at nl; norm_num at nl
  have m0 : m ≠ 0 := by rintro rfl; simp [len] at ml; norm_num at ml
  have hc : cross (northPole R) n ≠ 0 := by
    intro h
    rw [h, len_eq_zero.mpr rfl] at hp
    have : 0 < len n := len_pos n0
    exact absurd hp (not_le.mpr (by positivity))
  have hp' : (2 : ℝ) ^ (-500 : ℤ) ≤ len (cross (northPole R) n) := by
    refine le_trans ?_ hp
    have h1 : (2 : ℝ) ^ (-500 : ℤ) ≤ 2 ^ (-300 : ℤ) * 2 ^ (-1 : ℤ) := by
      rw [← zpow_add₀ (by norm_num)]; exact zpow_le_zpow_right₀ (by norm_num) (by norm_num)
    refine h1.trans (mul_le_mul_of_nonneg_left ?_ (by positivity))
    norm_num at nl ⊢; linarith
  obtain ⟨d, hd, ed⟩ := C72_great_circle_distance B hn hm nl nl2 ml ml2 isF64_one (by norm_num) (by norm_num)
  rw [mul_one, mul_one] at ed
  have un := dirOf_unit n0
  have um := dirOf_unit m0
  have eθ : angle n m = angle (dirOf n) (dirOf m) := by rw [angle_dirOf_left n0, angle_dirOf_right m0]
  rw [eθ] at ed
  -- the exact local frame and the azimuth
  have gA := geodetic_sphere (a := a) hR.rot ha n0
  have gB := geodetic_sphere (a := a) hR.rot ha m0
  obtain ⟨M, N, hM, fM, hN, c2, c1, -, cM⟩ := local_frame_flt B hR hn (pow500_le (le_trans (by norm_num) nl)) (nl2.trans (by norm_num)) (Or.inr hp)
  obtain ⟨Q, hQ, fQ, -, -, -⟩ := azimuth_vector B hR fa a1 a2 isF64_zero le_rfl (by norm_num) hn hm (pow500_le (le_trans (by norm_num) nl))
    (nl2.trans (by norm_num)) (pow500_le (le_trans (by norm_num) ml)) (ml2.trans (by norm_num)) hM fM hN cM gA gB
  obtain ⟨az, haz⟩ := arctan2_number B Q.y Q.x
  rw [haz] at hQ
  obtain ⟨N', hN', c2', c1', -, hC⟩ := C97_azimuth B hR fa a1 a2 isF64_zero le_rfl (by norm_num) hn hm (pow500_le (le_trans (by norm_num) nl))
    (nl2.trans (by norm_num)) (pow500_le (le_trans (by norm_num) ml)) (ml2.trans (by norm_num)) (Or.inr hp) gA gB
  have e : N' = N := rotation_ext hN' hN (by rw [(c1' hc).1, (c1 hc).1]) (by rw [c2', c2])
  subst e
  obtain ⟨W, N, h1, fW, hN2, c2'', c1'', -, hW, -⟩ := C96_destination B hR hn hδ hδ' hp' d az
  have e : N = N' := rotation_ext hN2 hN (by rw [c1'', (c1 hc).1]) (by rw [c2'', c2])
  subst e
  refine ⟨d, az, W, hd, hQ, h1, fW, ?_⟩
  obtain ⟨θ, hθ⟩ : ∃ θ, θ = angle (dirOf n) (dirOf m) := ⟨_, rfl⟩
  obtain ⟨s1, s2, s3⟩ := split_position un um hN c2
  rw [← hθ] at ed s1 s2 s3
  -- the azimuth costs little
  have key : len (destination N θ az - dirOf m) ≤ 1.2e-13 := by
    rcases le_or_gt 6e-14 (Real.sin θ) with hs | hs
    · have hs0 : 0 < Real.sin θ := lt_of_lt_of_le (by norm_num) hs
      obtain ⟨φ, hx, hy⟩ : ∃ φ : ℝ, dot (col0 N) (dirOf m) = Real.sin θ * Real.cos φ ∧ dot (col1 N) (dirOf m) = Real.sin θ * Real.sin φ := by
        obtain ⟨z, hz⟩ : ∃ z : ℂ, z = ⟨dot (col0 N) (dirOf m), dot (col1 N) (dirOf m)⟩ := ⟨_, rfl⟩
        have hz1 : ‖z‖ = Real.sin θ := by
          rw [hz, Complex.norm_def, Complex.normSq_mk, ← sq, ← sq, s2, Real.sqrt_sq hs0.le]
        refine ⟨z.arg, ?_, ?_⟩
        · rw [← hz1, Complex.norm_mul_cos_arg, hz]
        · rw [← hz1, Complex.norm_mul_sin_arg, hz]
      have hv : dirOf m = destination N θ φ := by
        rw [s1, hx, hy]; unfold destination; rw [c2]; ext <;> simp <;> ring
      have hlen : len (a • dirOf m - a • dirOf n) ≤ 2 * a := by
        have h := len_add_le (a • dirOf m) ((-a) • dirOf n)
        rw [show a • dirOf m + (-a) • dirOf n = a • dirOf m - a • dirOf n by ext <;> simp <;> ring, len_smul, len_smul, um.len, un.len, abs_neg, abs_of_pos ha] at h
        linarith
      have hm' : -col2 N = dirOf n := by rw [c2]; ext <;> simp
      have o0 : dot (col0 N) (dirOf n) = 0 := by
        have := hN.c02; rw [← hm']; unfold dot at this ⊢; simp; linarith
      have o1 : dot (col1 N) (dirOf n) = 0 := by
        have := hN.c12; rw [← hm']; unfold dot at this ⊢; simp; linarith
      have x0 : dot (col0 N) (a • dirOf m - a • dirOf n) = a * Real.sin θ * Real.cos φ := by
        have h : a * dot (col0 N) (dirOf n) = 0 := by rw [o0, mul_zero]
        rw [mul_assoc, ← hx]; unfold dot at h ⊢; simp; linear_combination -h
      have y0 : dot (col1 N) (a • dirOf m - a • dirOf n) = a * Real.sin θ * Real.sin φ := by
        have h : a * dot (col1 N) (dirOf n) = 0 := by rw [o1, mul_zero]
        rw [mul_assoc, ← hy]; unfold dot at h ⊢; simp; linear_combination -h
      have hah : 0 < a * Real.sin θ := mul_pos ha hs0
      have has : a * 6e-14 ≤ a * Real.sin θ := mul_le_mul_of_nonneg_left hs ha.le
      obtain ⟨az', k, h3, -, h4⟩ := hC (a * Real.sin θ) φ hah x0 y0 (by norm_num at has hlen ⊢; linarith)
      have : az' = az := by
        rw [hQ] at h3; exact (XR.fin.inj h3).symm
      subst this
      rw [hv]
      refine (destination_azimuth hN θ φ az' k).trans ?_
      rw [abs_of_pos hs0]
      have h5 : Real.sin θ * |az' - (φ + k * (2 * Real.pi))| ≤
          Real.sin θ * ((2.3e-14 * a + 1.2e-14 * len (a • dirOf m - a • dirOf n)) / (a * Real.sin θ) + 1.5e-15) :=
        mul_le_mul_of_nonneg_left h4 hs0.le
      have h6 : Real.sin θ * ((2.3e-14 * a + 1.2e-14 * len (a • dirOf m - a • dirOf n)) / (a * Real.sin θ) + 1.5e-15) =
          (2.3e-14 * a + 1.2e-14 * len (a • dirOf m - a • dirOf n)) / a + 1.5e-15 * Real.sin θ := by field_simp
      have h7 : (2.3e-14 * a + 1.2e-14 * len (a • dirOf m - a • dirOf n)) / a ≤ 4.7e-14 := by
        rw [div_le_iff₀ ha]; norm_num at hlen ⊢; linarith
      have h8 := Real.sin_le_one θ
      rw [h6] at h5
      norm_num at h5 h7 ⊢; linarith
    · have e1 : destination N θ az - dirOf m = Real.sin θ • destination N (Real.pi / 2) az +
          (-1 : ℝ) • (dot (col0 N) (dirOf m) • col0 N + dot (col1 N) (dirOf m) • col1 N) := by
        conv_lhs => rw [s1]
        rw [destination_quarter]; unfold destination; rw [c2]; ext <;> simp <;> ring
      have e2 : len (dot (col0 N) (dirOf m) • col0 N + dot (col1 N) (dirOf m) • col1 N) = Real.sin θ := by
        rw [← abs_of_nonneg s3, ← abs_of_nonneg (len_nonneg' _), ← sq_eq_sq_iff_abs_eq_abs, ← s2, len_sq]
        have h00 := hN.c00; have h11 := hN.c11; have h01 := hN.c01
        unfold dot at h00 h11 h01
        simp only [add_x, add_y, add_z, smul_x, smul_y, smul_z]
        linear_combination (dot (col0 N) (dirOf m)) ^ 2 * h00 + (dot (col1 N) (dirOf m)) ^ 2 * h11 +
          2 * dot (col0 N) (dirOf m) * dot (col1 N) (dirOf m) * h01
      have t := len_add_le (Real.sin θ • destination N (Real.pi / 2) az) ((-1 : ℝ) • (dot (col0 N) (dirOf m) • col0 N + dot (col1 N) (dirOf m) • col1 N))
      rw [← e1, len_smul, len_smul, e2, (destination_unit hN _ _).len, abs_of_nonneg s3, abs_neg, abs_one] at t
      norm_num at hs t ⊢; linarith
  have l1 := destination_lip hN θ az d az
  rw [sub_self, abs_zero, add_zero] at l1
  have t1 := len_add_le (W - destination N d az) (destination N d az - destination N θ az)
  have t2 := len_add_le (W - destination N θ az) (destination N θ az - dirOf m)
  rw [show W - destination N d az + (destination N d az - destination N θ az) = W - destination N θ az by ext <;> simp] at t1
  rw [show W - destination N θ az + (destination N θ az - dirOf m) = W - dirOf m by ext <;> simp] at t2
  norm_num at t1 t2 l1 ed hW key ⊢
  linarith

/-- the sine of the colatitude -/
theorem colatitude (hR : IsRotation R) (lat lon : ℝ) : len (cross (northPole R) (normalOf R lat lon)) = |Real.cos lat| := by
  unfold northPole normalOf
  rw [cross_app hR.transpose, len_app hR.transpose]
  have h : len (cross ⟨1, 0, 0⟩ (geoNormal lat lon)) ^ 2 = |Real.cos lat| ^ 2 := by
    rw [len_sq, sq_abs]
    unfold geoNormal cross
    have := Real.sin_sq_add_cos_sq lon
    simp
    linear_combination Real.cos lat ^ 2 * this
  exact (sq_eq_sq₀ (len_nonneg' _) (abs_nonneg _)).mp h

/-- **C138** the same for positions given by latitude and longitude: from A, anywhere at least `1e-14` radians from the poles, to B anywhere -/
theorem C138_lat_lon (hR : IsAxes R) (latA lonA latB lonB : ℝ) (hA : 1e-14 ≤ |Real.cos latA|) (fa : IsF64 a) (a1 : 1 ≤ a) (a2 : a ≤ 1e10) :
    ∃ (d az : ℝ) (W : V3 ℝ),
      great_circle_distance (lat_lon2n_E (F64.fin latA : F64 B) (F64.fin lonA) R.flt) (lat_lon2n_E (F64.fin latB) (F64.fin lonB) R.flt) (F64.fin 1) =
        F64.fin d ∧
      n_EA_E_and_n_EB_E2azimuth (lat_lon2n_E (F64.fin latA : F64 B) (F64.fin lonA) R.flt) (lat_lon2n_E (F64.fin latB) (F64.fin lonB) R.flt)
        (F64.fin a) (F64.fin 0) R.flt = F64.fin az ∧
      n_EA_E_distance_and_azimuth2n_EB_E (lat_lon2n_E (F64.fin latA : F64 B) (F64.fin lonA) R.flt) (F64.fin d) (F64.fin az) R.flt = W.flt ∧
      len (W - normalOf R latB lonB) ≤ 1.5e-13 := by
  obtain ⟨v, w, hv, hw, fv, fw, lv, lw, dv, dw, -⟩ := geo_normals_flt B hR latA lonA latB lonB
  have ku : 9.02 * uu ≤ 1.1e-15 := by unfold uu; norm_num
  have uA := normalOf_unit hR latA lonA
  have uB := normalOf_unit hR latB lonB
  have hc := colatitude hR.rot latA lonA
  have hx : |Real.cos latA| - 3.1e-15 ≤ len (cross (northPole R) v) := by
    have h1 := len_add_le (cross (northPole R) v) (cross (northPole R) (normalOf R latA lonA - v))
    have h2 := len_cross_le (northPole R) (normalOf R latA lonA - v)
    rw [(northPole_unit hR.rot).len, one_mul] at h2
    have h3 : len (normalOf R latA lonA - v) = len (v - normalOf R latA lonA) := by
      rw [show normalOf R latA lonA - v = (-1 : ℝ) • (v - normalOf R latA lonA) by ext <;> simp, len_smul, abs_neg, abs_one, one_mul]
    rw [show cross (northPole R) v + cross (northPole R) (normalOf R latA lonA - v) = cross (northPole R) (normalOf R latA lonA) by
      ext <;> simp [cross] <;> ring, hc] at h1
    linarith
  have l2 := (abs_le.mp lv).2
  have hp : (2 : ℝ) ^ (-300 : ℤ) * len v ≤ len (cross (northPole R) v) := by
    have h1 : (2 : ℝ) ^ (-300 : ℤ) ≤ 2 ^ (-60 : ℤ) := zpow_le_zpow_right₀ (by norm_num) (by norm_num)
    have h2 : (2 : ℝ) ^ (-60 : ℤ) ≤ 1e-15 := by norm_num
    have h3 : (2 : ℝ) ^ (-300 : ℤ) * len v ≤ 1e-15 * 1.1 :=
      mul_le_mul (h1.trans h2) (by norm_num at ku ⊢; linarith) (len_nonneg' v) (by norm_num)
    norm_num at h3 hA hx ⊢; linarith
  obtain ⟨d, az, W, h1, h2, h3, -, h4⟩ := C138_inverse_direct B hR fv fw (lv.trans ku) (lw.trans ku) (by norm_num) hp fa a1 a2
  refine ⟨d, az, W, by rw [hv, hw, h1], by rw [hv, hw, h2], by rw [hv, h3], ?_⟩
  have w0 : w ≠ 0 := by
    rintro rfl
    simp [len] at lw; norm_num at ku; linarith
  have h5 := len_dirOf_sub uB w0
  have t := len_add_le (W - dirOf w) (dirOf w - normalOf R latB lonB)
  rw [show W - dirOf w + (dirOf w - normalOf R latB lonB) = W - normalOf R latB lonB by ext <;> simp] at t
  norm_num at h4 h5 dw t ⊢
  linarith

theorem posE_sphere_depth (a d : ℝ) {m : V3 ℝ} (hm : UnitVec m) : posE a 0 m d = (a - d) • m := by
  have h : Dell 0 m = 1 := by
    unfold Dell UnitVec at *
    rw [Real.sqrt_eq_one]; linarith
  unfold posE
  rw [h]
  ext <;> simp <;> ring

theorem geodetic_sphere_depth (hR : IsRotation R) (ha : 0 < a) {n : V3 ℝ} (hn : UnitVec n) (d : ℝ) : Geodetic a 0 R n d ((a - d) • n) := by
  have h := geodetic_posE (d := d) ha (show (0 : ℝ) < 1 by norm_num) hR hn.ne
  rwa [posE_sphere_depth a d (unitVec_app hR (dirOf_unit hn.ne)), app_smul, hR.trans_app, dirOf_of_unit hn] at h

/-- **C138** `GeoPoint.distance_and_azimuth` followed by `GeoPoint.displace` (both `method='greatcircle'`, a spherical frame, axes 'e') in binary64:
the displaced point has the horizontal position of B within `1.1e-12 / c`, `c` a lower bound of the cosines of both latitudes, if A and B are not closer than
`8.2e-13 / c` radians to each other or to each other's antipodes -/
theorem C138_geo_point (G : Geodesic (F64 B)) (fa : IsF64 a) (a1 : 1 ≤ a) (a2 : a ≤ 1e10) (nmA nmB : EllKey) (latA lonA latB lonB : ℝ) {z : ℝ}
    (fz : IsF64 z) (d1 : z ≤ 0.4 * a) (d2 : -z ≤ 998 * a) {c : ℝ} (c0 : 1e-11 ≤ c) (cA : c ≤ |Real.cos latA|) (cB : c ≤ |Real.cos latB|)
    (hs : 8.2e-13 / c ≤ Real.sin (angle (normalOf Re latA lonA) (normalOf Re latB lonB))) (lu : Bool) :
    ∃ (d az az' : ℝ) (lat' lon' : ℝ) (β : F64 B),
      (Geo64 B a 0 Re nmA latA lonA z).distance_and_azimuth G (.geo (Geo64 B a 0 Re nmB latB lonB z)) lu false "greatcircle" =
        .ok (F64.fin d, F64.fin az, F64.fin az') ∧
      (Geo64 B a 0 Re nmA latA lonA z).displace G (F64.fin d) (F64.fin az) lu false "greatcircle" = .ok (Geo64 B a 0 Re nmA lat' lon' z, β) ∧
      len (normalOf Re lat' lon' - normalOf Re latB lonB) ≤ 1.1e-12 / c := by
  have hR : IsAxes Re := .inl rfl
  have ha : 0 < a := by linarith
  have c00 : 0 < c := lt_of_lt_of_le (by norm_num) c0
  have uA := normalOf_unit hR latA lonA
  have uB := normalOf_unit hR latB lonB
  obtain ⟨r, hr⟩ : ∃ r, r = a - z := ⟨_, rfl⟩
  have r0 : 0.6 * a ≤ r := by rw [hr]; norm_num at d1 ⊢; linarith
  have rp : 0 < r := lt_of_lt_of_le (by positivity) r0
  have hK : a + |z| + |z| ≤ 3 * r := by
    rw [hr]
    rcases abs_cases z with ⟨h, _⟩ | ⟨h, _⟩ <;> rw [h] <;> norm_num at d1 ⊢ <;> linarith
  have gA := geodetic_sphere_depth (a := a) hR.rot ha uA z
  have gB := geodetic_sphere_depth (a := a) hR.rot ha uB z
  rw [← hr] at gA gB
  have lA : len (r • normalOf Re latA lonA) = r := by rw [len_smul, uA.len, mul_one, abs_of_pos rp]
  have lB : len (r • normalOf Re latB lonB) = r := by rw [len_smul, uB.len, mul_one, abs_of_pos rp]
  have kA := colatitude hR.rot latA lonA
  have kB := colatitude hR.rot latB lonB
  have nz : ∀ {lat lon : ℝ}, c ≤ |Real.cos lat| → cross (northPole Re) (normalOf Re lat lon) ≠ 0 := by
    intro lat lon h h0
    have := colatitude hR.rot lat lon
    rw [h0, len_eq_zero.mpr rfl] at this
    linarith
  obtain ⟨N, hN⟩ := NorthEastDown.exists hR (nz cA (lon := lonA))
  obtain ⟨M, hM⟩ := NorthEastDown.exists hR (nz cB (lon := lonB))
  obtain ⟨θ, hθ⟩ : ∃ θ, θ = angle (normalOf Re latA lonA) (normalOf Re latB lonB) := ⟨_, rfl⟩
  rw [← hθ] at hs
  have hs0 : 0 < Real.sin θ := lt_of_lt_of_le (by positivity) hs
  have polar : ∀ {x y : ℝ}, x ^ 2 + y ^ 2 = Real.sin θ ^ 2 → ∃ φ : ℝ, x = Real.sin θ * Real.cos φ ∧ y = Real.sin θ * Real.sin φ := by
    intro x y h
    obtain ⟨w, hw⟩ : ∃ w : ℂ, w = ⟨x, y⟩ := ⟨_, rfl⟩
    have hw1 : ‖w‖ = Real.sin θ := by
      rw [hw, Complex.norm_def, Complex.normSq_mk, ← sq, ← sq, h, Real.sqrt_sq hs0.le]
    refine ⟨w.arg, ?_, ?_⟩
    · rw [← hw1, Complex.norm_mul_cos_arg, hw]
    · rw [← hw1, Complex.norm_mul_sin_arg, hw]
  have dA : dirOf (normalOf Re latA lonA) = normalOf Re latA lonA := dirOf_of_unit uA
  have dB : dirOf (normalOf Re latB lonB) = normalOf Re latB lonB := dirOf_of_unit uB
  have eA := hN.2.1
  rw [dA] at eA
  have eB := hM.2.1
  rw [dB] at eB
  obtain ⟨s1, s2, -⟩ := split_position uA uB hN.1 eA
  obtain ⟨-, t2, -⟩ := split_position uB uA hM.1 eB
  rw [angle_comm] at t2
  rw [← hθ] at s1 s2 t2
  obtain ⟨φ, x1, y1⟩ := polar s2
  have t2' : (-dot (col0 M) (normalOf Re latA lonA)) ^ 2 + (-dot (col1 M) (normalOf Re latA lonA)) ^ 2 = Real.sin θ ^ 2 := by
    rw [neg_sq, neg_sq]; exact t2
  obtain ⟨ψ, x2, y2⟩ := polar t2'
  have oA0 : dot (col0 N) (normalOf Re latA lonA) = 0 := by
    have := hN.1.c02; rw [eA] at this; unfold dot at this ⊢; simp at this; linarith
  have oA1 : dot (col1 N) (normalOf Re latA lonA) = 0 := by
    have := hN.1.c12; rw [eA] at this; unfold dot at this ⊢; simp at this; linarith
  have oB0 : dot (col0 M) (normalOf Re latB lonB) = 0 := by
    have := hM.1.c02; rw [eB] at this; unfold dot at this ⊢; simp at this; linarith
  have oB1 : dot (col1 M) (normalOf Re latB lonB) = 0 := by
    have := hM.1.c12; rw [eB] at this; unfold dot at this ⊢; simp at this; linarith
  have dd : ∀ k u v : V3 ℝ, dot k (r • v - r • u) = r * (dot k v - dot k u) := by
    intro k u v; unfold dot; simp; ring
  have hlen : len (r • normalOf Re latB lonB - r • normalOf Re latA lonA) ≤ 2 * r := by
    have h := len_add_le (r • normalOf Re latB lonB) ((-r) • normalOf Re latA lonA)
    rw [show r • normalOf Re latB lonB + (-r) • normalOf Re latA lonA = r • normalOf Re latB lonB - r • normalOf Re latA lonA by ext <;> simp <;> ring,
      len_smul, len_smul, uA.len, uB.len, abs_neg, abs_of_pos rp] at h
    linarith
  have c1 : c ≤ 1 := cA.trans (Real.abs_cos_le_one _)
  have hb : 7.8e-14 * (a + |z| + |z|) + 2.9e-13 * len (r • normalOf Re latB lonB - r • normalOf Re latA lonA) / c ≤ r * Real.sin θ := by
    have h1 : 2.9e-13 * len (r • normalOf Re latB lonB - r • normalOf Re latA lonA) / c ≤ 2.9e-13 * (2 * r) / c :=
      div_le_div_of_nonneg_right (mul_le_mul_of_nonneg_left hlen (by norm_num)) c00.le
    have h2 : r * (8.2e-13 / c) ≤ r * Real.sin θ := mul_le_mul_of_nonneg_left hs rp.le
    have h3 : 7.8e-14 * (a + |z| + |z|) ≤ 2.4e-13 * r / c := by
      rw [le_div_iff₀ c00]
      calc 7.8e-14 * (a + |z| + |z|) * c ≤ 7.8e-14 * (a + |z| + |z|) * 1 := mul_le_mul_of_nonneg_left c1 (by positivity)
        _ ≤ 2.4e-13 * r := by norm_num; linarith
    have h4 : 2.4e-13 * r / c + 2.9e-13 * (2 * r) / c = r * (8.2e-13 / c) := by field_simp; norm_num
    linarith
  have hrs : 0 < r * Real.sin θ := mul_pos rp hs0
  obtain ⟨d, az, az', j, k, h1, h2, h3, h4, -, -⟩ := C99_distance_and_azimuth B G hR fa a1 a2 isF64_zero le_rfl (by norm_num) nmA nmB latA lonA latB lonB
    fz fz d1 d1 d2 d2 gA gB hN hM (cA := c) (cB := c) (hA := r * Real.sin θ) (hB := r * Real.sin θ) (azA := φ) (azB := ψ)
    (le_trans (by norm_num) c0) (by rw [kA]; exact cA) (le_trans (by norm_num) c0) (by rw [kB]; exact cB) hrs hrs
    (by rw [dd, oA0, x1]; ring) (by rw [dd, oA1, y1]; ring) (by rw [dd, oB0, zero_sub, x2]; ring) (by rw [dd, oB1, zero_sub, y2]; ring) hb hb lu
  rw [← hθ, lA, lB, show (r + r) / 2 = r by ring] at h2
  obtain ⟨q, hq⟩ : ∃ q, q = d / r := ⟨_, rfl⟩
  have hqθ : |q - θ| ≤ 1.23e-13 := by
    have e : q - θ = (d - θ * r) / r := by rw [hq]; field_simp
    rw [e, abs_div, abs_of_pos rp, div_le_iff₀ rp]
    norm_num at h2 ⊢; linarith
  have hθ0 : 0 ≤ θ := by rw [hθ]; exact angle_nonneg _ _
  have hθπ : θ ≤ Real.pi := by rw [hθ]; exact angle_le_pi _ _
  have hq3 : |q| ≤ 3.15 := by
    have hp := Real.pi_lt_d4
    have hb1 := (abs_le.mp hqθ).1
    have hb2 := (abs_le.mp hqθ).2
    rw [abs_le]; constructor <;> norm_num at hp hb1 hb2 ⊢ <;> linarith
  obtain ⟨lat', lon', β, g1, -, -, g2, -, -⟩ := C109_displace B G fa a1 a2 isF64_zero le_rfl (by norm_num) nmA latA lonA fz d1 d2 gA hN (c := c)
    (le_trans (by norm_num) c0) (by rw [kA]; exact cA) (D := d) (by
      rw [lA, ← hq]
      have : 1e12 * 1e-11 ≤ 1e12 * c := mul_le_mul_of_nonneg_left c0 (by norm_num)
      norm_num at hq3 this ⊢; linarith) az lu
  refine ⟨d, az, az', lat', lon', β, h1, g1, ?_⟩
  rw [lA, ← hq] at g2
  have hv : normalOf Re latB lonB = destination N θ φ := by
    rw [s1, x1, y1]; unfold destination; rw [eA]; ext <;> simp <;> ring
  have l1 := destination_lip hN.1 θ az q az
  rw [sub_self, abs_zero, add_zero] at l1
  have l2 := destination_azimuth hN.1 θ φ az j
  rw [abs_of_pos hs0, ← hv] at l2
  have l3 : Real.sin θ * |az - (φ + j * (2 * Real.pi))| ≤ 1.9e-13 + 4.6e-13 / c := by
    refine (mul_le_mul_of_nonneg_left h4 hs0.le).trans ?_
    have e : Real.sin θ * ((6.1e-14 * (a + |z| + |z|) + 2.3e-13 * len (r • normalOf Re latB lonB - r • normalOf Re latA lonA) / c) / (r * Real.sin θ) + 1.5e-15) =
        (6.1e-14 * (a + |z| + |z|) + 2.3e-13 * len (r • normalOf Re latB lonB - r • normalOf Re latA lonA) / c) / r + 1.5e-15 * Real.sin θ := by
      field_simp
    rw [e]
    have h5 : (6.1e-14 * (a + |z| + |z|) + 2.3e-13 * len (r • normalOf Re latB lonB - r • normalOf Re latA lonA) / c) / r ≤ 1.83e-13 + 4.6e-13 / c := by
      rw [div_le_iff₀ rp]
      have h6 : 2.3e-13 * len (r • normalOf Re latB lonB - r • normalOf Re latA lonA) / c ≤ 2.3e-13 * (2 * r) / c :=
        div_le_div_of_nonneg_right (mul_le_mul_of_nonneg_left hlen (by norm_num)) c00.le
      have h7 : 2.3e-13 * (2 * r) / c = 4.6e-13 / c * r := by ring
      have h8 : 6.1e-14 * (a + |z| + |z|) ≤ 1.83e-13 * r := by norm_num; linarith
      linarith
    have := Real.sin_le_one θ
    norm_num at h5 ⊢; linarith
  have t1 := len_add_le (normalOf Re lat' lon' - destination N q az) (destination N q az - destination N θ az)
  have t3 := len_add_le (normalOf Re lat' lon' - destination N θ az) (destination N θ az - normalOf Re latB lonB)
  rw [show normalOf Re lat' lon' - destination N q az + (destination N q az - destination N θ az) = normalOf Re lat' lon' - destination N θ az by ext <;> simp] at t1
  rw [show normalOf Re lat' lon' - destination N θ az + (destination N θ az - normalOf Re latB lonB) = normalOf Re lat' lon' - normalOf Re latB lonB by ext <;> simp] at t3
  have g3 : 7.9e-14 * |q| / c ≤ 2.49e-13 / c := div_le_div_of_nonneg_right (by norm_num at hq3 ⊢; linarith) c00.le
  have g4 : 3.6e-13 ≤ 3.6e-13 / c := by rw [le_div_iff₀ c00]; linarith
  have g5 : 1.1e-12 / c = 3.6e-13 / c + 2.49e-13 / c + 4.6e-13 / c + 3.1e-14 / c := by field_simp; norm_num
  have g6 : 0 ≤ 3.1e-14 / c := by positivity
  rw [g5]
  norm_num at t1 t3 g2 l1 l2 l3 g3 g4 g6 hqθ ⊢
  linarith

/-- the hypotheses of C138 hold for the points (0, 0) and (0, 90 degrees) on the equator of a sphere with radius 6371000, ten metres down -/
example (G : Geodesic (F64 B)) := C138_geo_point B G (a := 6371000) (z := 10) (c := 1) (by simpa using isF64_int (n := 6371000) (by norm_num)) (by norm_num)
  (by norm_num) (.str "sphere") (.str "sphere") 0 0 0 (Real.pi / 2) (by simpa using isF64_int (n := 10) (by norm_num)) (by norm_num) (by norm_num) (by norm_num) (by simp) (by simp)
  (by
    have h : angle (normalOf Re 0 0) (normalOf Re 0 (Real.pi / 2)) = Real.pi / 2 := by
      have : dot (normalOf Re 0 0) (normalOf Re 0 (Real.pi / 2)) = 0 := by
        simp [normalOf, geoNormal, app, transp, col0, col1, col2, dot, Re]
      unfold angle
      rw [this, zero_div, Real.arccos_zero]
    rw [h, Real.sin_pi_div_two]; norm_num) true

example := C138_lat_lon B (R := Re) (a := 6371000) (.inl rfl) 0 0 1 2 (by simp; norm_num) (by simpa using isF64_int (n := 6371000) (by norm_num)) (by norm_num)
  (by norm_num)

end Nv
