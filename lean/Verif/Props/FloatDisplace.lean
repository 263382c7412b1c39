import Verif.Props.FloatInverse
import Verif.Props.FloatPaths

/-!
# C109: `GeoPoint.displace(method='greatcircle')` in binary64
-/

namespace Nv
open Spec F64
variable (B : Binary64)
variable {a f : ℝ}

/-- the destination as a geographic position seen from the start -/
theorem destination_geo {N : M3 ℝ} (hN : IsRotation N) : ∃ K : M3 ℝ, IsRotation K ∧ ∀ d az : ℝ, destination N d az = app K (geoNormal (Real.pi / 2 - d) (-az)) := by
  obtain ⟨K, hK⟩ : ∃ K : M3 ℝ, K = ⟨⟨-N.r0.z, -N.r0.y, -N.r0.x⟩, ⟨-N.r1.z, -N.r1.y, -N.r1.x⟩, ⟨-N.r2.z, -N.r2.y, -N.r2.x⟩⟩ := ⟨_, rfl⟩
  refine ⟨K, ?_, fun d az => ?_⟩
  · have h := hN
    obtain ⟨h0, h1, h2, h3, h4, h5, h6⟩ := h
    simp only [dot, col0, col1, col2] at h0 h1 h2 h3 h4 h5
    rw [hK]
    simp only [det, dot, cross] at h6
    constructor <;> simp only [dot, col0, col1, col2, det, cross] <;> linarith
  · rw [hK]
    unfold destination geoNormal app dot
    ext <;> simp [col0, col1, col2, Real.sin_pi_div_two_sub, Real.cos_pi_div_two_sub] <;> ring

theorem destination_lip {N : M3 ℝ} (hN : IsRotation N) (d az d' az' : ℝ) :
    len (destination N d' az' - destination N d az) ≤ |d' - d| + |az' - az| := by
  obtain ⟨K, hK, h⟩ := destination_geo hN
  rw [h, h, ← app_sub, len_app hK]
  refine (geoNormal_lip _ _ _ _).trans (le_of_eq ?_)
  rw [show Real.pi / 2 - d' - (Real.pi / 2 - d) = -(d' - d) by ring, show -az' - -az = -(az' - az) by ring, abs_neg, abs_neg]

/-- the destination seen from nearby positions -/
theorem destination_move {N M : M3 ℝ} {e0 e1 e2 : ℝ} (h0 : len (col0 M - col0 N) ≤ e0) (h1 : len (col1 M - col1 N) ≤ e1) (h2 : len (col2 M - col2 N) ≤ e2) (d az : ℝ) :
    len (destination M d az - destination N d az) ≤ e2 + |Real.sin d| * (e0 + e1) := by
  have e : destination M d az - destination N d az =
      (-Real.cos d) • (col2 M - col2 N) + Real.sin d • (Real.cos az • (col0 M - col0 N) + Real.sin az • (col1 M - col1 N)) := by
    unfold destination; ext <;> simp <;> ring
  rw [e]
  have t0 := len_add_le (Real.cos az • (col0 M - col0 N)) (Real.sin az • (col1 M - col1 N))
  have t1 := len_add_le ((-Real.cos d) • (col2 M - col2 N)) (Real.sin d • (Real.cos az • (col0 M - col0 N) + Real.sin az • (col1 M - col1 N)))
  rw [len_smul, len_smul] at t0 t1
  rw [abs_neg] at t1
  have a0 := mul_le_mul (Real.abs_cos_le_one az) h0 (len_nonneg' _) (by norm_num)
  have a1 := mul_le_mul (Real.abs_sin_le_one az) h1 (len_nonneg' _) (by norm_num)
  have a2 := mul_le_mul (Real.abs_cos_le_one d) h2 (len_nonneg' _) (by norm_num)
  have a3 := mul_le_mul_of_nonneg_left (show len (Real.cos az • (col0 M - col0 N) + Real.sin az • (col1 M - col1 N)) ≤ e0 + e1 by linarith) (abs_nonneg (Real.sin d))
  linarith

/-- the angle of a distance at the computed radius -/
theorem angle_of_distance_flt {D L l : ℝ} (l1 : 0.5 ≤ l) (hL : |L - l| ≤ 1.93e-14 * l) (hD : |D / l| ≤ 1e15) :
    ∃ t : ℝ, (F64.fin D / F64.fin L : F64 B) = F64.fin t ∧ |t - D / l| ≤ 1.95e-14 * |D / l| + 1e-50 := by
  have hu := uu_pos
  have l0 : 0 < l := by norm_num at l1; linarith
  obtain ⟨L1, L2⟩ := abs_le.mp hL
  norm_num at L1 L2
  have Lp : 0 < L := by linarith
  have h1 : |D / L - D / l| ≤ 1.931e-14 * |D / l| := by
    have e : D / L - D / l = (D / l) * ((l - L) / L) := by field_simp
    rw [e, abs_mul, mul_comm]
    refine mul_le_mul_of_nonneg_right ?_ (abs_nonneg _)
    rw [abs_div, abs_of_pos Lp, div_le_iff₀ Lp, abs_sub_comm]
    norm_num at hL ⊢; linarith
  have hθ := abs_nonneg (D / l)
  have h2 : |D / L| ≤ 1.001 * |D / l| := by
    have := abs_sub_abs_le_abs_sub (D / L) (D / l)
    norm_num at h1 ⊢; linarith
  refine ⟨_, fin_div Lp.ne' ?_, ?_⟩
  · have : |D / L| ≤ 1e16 := by norm_num at hD h2 ⊢; linarith
    exact this.trans (by norm_num)
  · have h3 := B.rounds.err_add (D / L)
    have h4 := abs_add_le (B.fl (D / L) - D / L) (D / L - D / l)
    rw [sub_add_sub_cancel] at h4
    have h5 : uu * |D / L| ≤ 1.2e-16 * (1.001 * |D / l|) := mul_le_mul (by unfold uu; norm_num) h2 (abs_nonneg _) (by norm_num)
    have h6 : eta ≤ 1e-50 := eta_small.trans (by norm_num)
    generalize (1e-50 : ℝ) = τ at *
    norm_num at h1 h5 ⊢
    linarith

/-- the computed radius at a position -/
theorem radius_at_flt {R : M3 ℝ} (hR : IsAxes R) (fa : IsF64 a) (a1 : 1 ≤ a) (a2 : a ≤ 1e10) (ff : IsF64 f) (f0 : 0 ≤ f) (f1 : f ≤ 0.01)
    (nm : EllKey) (lat lon : ℝ) {z : ℝ} (fz : IsF64 z) (d1 : z ≤ 0.4 * a) (d2 : -z ≤ 998 * a) {p : V3 ℝ} (hp : Geodetic a f R (normalOf R lat lon) z p) :
    ∃ L : ℝ, length (Geo64 B a f R nm lat lon z).to_ecef_vector.pvector = F64.fin L ∧ 0.5 ≤ len p ∧ |L - len p| ≤ 1.93e-14 * len p := by
  have ha : 0 < a := by linarith
  have hf : f < 1 := by norm_num at f1; linarith
  have hza : |z| ≤ 998 * a := by rw [abs_le]; norm_num at d1; constructor <;> linarith
  obtain ⟨⟨L, h1, -, h2⟩, -⟩ := ecef_length_flt B hR fa a1 a2 ff f0 f1 nm lat lon fz (by norm_num at a2 ⊢; linarith) hp
  obtain ⟨n0, hp'⟩ := hp.eq ha hf hR.rot
  have h3 : a * (1 - f) - z ≤ len p := by
    rw [hp', len_app hR.rot.transpose]
    exact posE_len_ge ha f0 hf (unitVec_app hR.rot (dirOf_unit n0))
  have h4 : 0.99 * a ≤ a * (1 - f) := by rw [mul_comm]; exact mul_le_mul_of_nonneg_left (by norm_num at f1 ⊢; linarith) ha.le
  refine ⟨L, h1, by norm_num at h4 d1 ⊢; linarith, h2.trans ?_⟩
  rcases abs_cases z with ⟨e, -⟩ | ⟨e, -⟩ <;> rw [e] <;> norm_num at h4 d1 ⊢ <;> linarith

/-- what `displace(method='greatcircle')` computes, for an azimuth in radians -/
theorem displace_position_flt (fa : IsF64 a) (a1 : 1 ≤ a) (a2 : a ≤ 1e10) (ff : IsF64 f) (f0 : 0 ≤ f) (f1 : f ≤ 0.01)
    (nm : EllKey) (lat lon : ℝ) {z : ℝ} (fz : IsF64 z) (d1 : z ≤ 0.4 * a) (d2 : -z ≤ 998 * a) {p : V3 ℝ} (hp : Geodetic a f Re (normalOf Re lat lon) z p)
    {N : M3 ℝ} (hN : NorthEastDown Re (normalOf Re lat lon) N) {c : ℝ} (c0 : 1e-12 ≤ c) (hc : c ≤ len (cross (northPole Re) (normalOf Re lat lon)))
    {D : ℝ} (hD : |D / len p| ≤ 1e12 * c) (az : ℝ) :
    ∃ lat' lon' : ℝ, Nvector.to_geo_point ⟨n_EA_E_distance_and_azimuth2n_EB_E (Geo64 B a f Re nm lat lon z).to_nvector.normal
          (F64.fin D / length (Geo64 B a f Re nm lat lon z).to_nvector.to_ecef_vector.pvector) (F64.fin az), F64.fin z, Frame64 B a f Re nm⟩ =
        Geo64 B a f Re nm lat' lon' z ∧ IsF64 lat' ∧ IsF64 lon' ∧
      len (normalOf Re lat' lon' - destination N (D / len p) az) ≤ 3.5e-14 + 7.9e-14 * |D / len p| / c ∧
      (0 ≤ D → D ≤ Real.pi * len p → |angle (normalOf Re lat lon) (normalOf Re lat' lon') * len p - D| ≤ 3e-14 * len p + 4e-14 * D) := by
  have hR : IsAxes Re := Or.inl rfl
  have hu := uu_pos
  have cp : 0 < c := lt_of_lt_of_le (by norm_num) c0
  obtain ⟨L, hL, l1, hLl⟩ := radius_at_flt B hR fa a1 a2 ff f0 f1 nm lat lon fz d1 d2 hp
  have uA := normalOf_unit hR lat lon
  have c1 : c ≤ 1 := by
    have := len_cross_le (northPole Re) (normalOf Re lat lon)
    rw [(northPole_unit hR.rot).len, uA.len, one_mul] at this
    linarith
  have lp : 0 < len p := by norm_num at l1; linarith
  obtain ⟨t, ht, hte⟩ := angle_of_distance_flt B l1 hLl (by norm_num at hD ⊢; linarith)
  obtain ⟨v, hv, fv, v0, lv, lv', dv, dv'⟩ := geo_near B hR lat lon
  have hcv : 0.9 * c ≤ len (cross (northPole Re) v) := by
    have t := len_add_le (cross (northPole Re) v) (cross (northPole Re) ((-1 : ℝ) • (v - normalOf Re lat lon)))
    rw [show cross (northPole Re) v + cross (northPole Re) ((-1 : ℝ) • (v - normalOf Re lat lon)) = cross (northPole Re) (normalOf Re lat lon) by
      ext <;> simp [cross] <;> ring] at t
    have t2 := len_cross_le (northPole Re) ((-1 : ℝ) • (v - normalOf Re lat lon))
    rw [(northPole_unit hR.rot).len, len_smul, abs_neg, abs_one, one_mul, one_mul] at t2
    norm_num at dv c0 ⊢
    linarith
  have hvc : cross (northPole Re) v ≠ 0 := by
    intro h0
    rw [h0, len_eq_zero.mpr rfl] at hcv
    linarith
  obtain ⟨W, M, w1, fW, rM, m2, m1, m0, w2, -⟩ := C96_destination B hR fv lv (by unfold uu; norm_num) (by
    refine le_trans ?_ hcv
    have q1 : (2 : ℝ) ^ (-500 : ℤ) ≤ 2 ^ (-60 : ℤ) := zpow_le_zpow_right₀ (by norm_num) (by norm_num)
    have q2 : (2 : ℝ) ^ (-60 : ℤ) ≤ 0.9 * 1e-12 := by norm_num
    exact (q1.trans q2).trans (mul_le_mul_of_nonneg_left c0 (by norm_num))) t az
  obtain ⟨v1, v0', v2⟩ := frame_move hR hN ⟨rM, m2, m1, m0⟩ uA cp hc hvc dv
  obtain ⟨θ, hθ⟩ : ∃ θ, θ = D / len p := ⟨_, rfl⟩
  rw [← hθ] at hte hD ⊢
  have θ0 := abs_nonneg θ
  have e1 := destination_move v0' v1 v2 t az
  have e2 := destination_lip hN.1 θ az t az
  rw [sub_self, abs_zero, add_zero] at e2
  have hτ : (1e-50 : ℝ) ≤ 1e-30 := by norm_num
  have ht1 : |t| ≤ 1.001 * |θ| + 1e-30 := by
    have := abs_sub_abs_le_abs_sub t θ
    generalize (1e-50 : ℝ) = τ at *
    norm_num at hte hτ ⊢; linarith
  have hs : |Real.sin t| ≤ 1.001 * |θ| + 1e-30 := Real.abs_sin_le_abs.trans ht1
  have hq : |θ| ≤ |θ| / c := by rw [le_div_iff₀ cp]; nlinarith
  have h9 : 9.02 * uu ≤ 1.01e-15 := by unfold uu; norm_num
  have hdest : len (W - destination N θ az) ≤ 1.6e-14 + 3.92e-14 * |θ| / c := by
    have h1 := len_add_le (W - destination M t az) (destination M t az - destination N t az)
    rw [show ∀ x y z : V3 ℝ, x - y + (y - z) = x - z from fun x y z => by ext <;> simp] at h1
    have h2 := len_add_le (W - destination N t az) (destination N t az - destination N θ az)
    rw [show ∀ x y z : V3 ℝ, x - y + (y - z) = x - z from fun x y z => by ext <;> simp] at h2
    have h3 : |Real.sin t| * (2 * 3.1e-15 / c + 2 * 3.1e-15 + 2 * 3.1e-15 / c) ≤ (1.001 * |θ| + 1e-30) * (1.87e-14 / c) := by
      refine mul_le_mul hs ?_ (by positivity) (by positivity)
      have : (2 * 3.1e-15 : ℝ) ≤ 2 * 3.1e-15 / c := by rw [le_div_iff₀ cp]; nlinarith
      have e : (1.87e-14 : ℝ) / c = 2 * 3.1e-15 / c + 2 * 3.1e-15 / c + 6.3e-15 / c := by rw [← add_div, ← add_div]; norm_num
      have : (2 * 3.1e-15 : ℝ) / c ≤ 6.3e-15 / c := div_le_div_of_nonneg_right (by norm_num) cp.le
      linarith
    have h4 : (1.001 * |θ| + 1e-30) * (1.87e-14 / c) = 1.001 * 1.87e-14 * (|θ| / c) + 1e-30 * 1.87e-14 / c := by ring
    have h5 : (1e-30 * 1.87e-14 : ℝ) / c ≤ 1e-20 := by
      rw [div_le_iff₀ cp]; norm_num at c0 ⊢; linarith
    rw [mul_div_assoc]
    generalize (1e-50 : ℝ) = τ at *
    norm_num at h4 h5 w2 hte hτ h9 ⊢
    norm_num at h3 e1
    linarith
  have hsm : 1.6e-14 + 3.92e-14 * |θ| / c ≤ 0.1 := by
    have : |θ| / c ≤ 1e12 := by rw [div_le_iff₀ cp]; exact hD
    rw [mul_div_assoc]
    norm_num at this ⊢; linarith
  obtain ⟨lat', lon', q1, q2, q3, q4⟩ := latlon_of_near B hR fW (destination_unit hN.1 θ az) hdest hsm
  refine ⟨lat', lon', ?_, q2, q3, ?_, ?_⟩
  · have hL' : length (Geo64 B a f Re nm lat lon z).to_nvector.to_ecef_vector.pvector = F64.fin L := hL
    have hv' : (Geo64 B a f Re nm lat lon z).to_nvector.normal = v.flt := hv
    rw [hL', hv', ht, R_e_flt, w1]
    change GeoPoint.mk (n_E2lat_lon W.flt Re.flt).1 (n_E2lat_lon W.flt Re.flt).2 (F64.fin z) (Frame64 B a f Re nm) = _
    rw [q1]; rfl
  · refine q4.trans ?_
    rw [mul_div_assoc, mul_div_assoc]
    have : 0 ≤ |θ| / c := by positivity
    norm_num; linarith
  · intro D0 D1
    have hDθ : D = θ * len p := by rw [hθ]; field_simp
    have t0 : 0 ≤ θ := by rw [hθ]; positivity
    have t1 : θ ≤ Real.pi := by rw [hθ, div_le_iff₀ lp]; exact D1
    rw [abs_of_nonneg t0] at hte
    have hπ := Real.pi_lt_d2
    have hε : len (W - destination M θ az) ≤ 8.82e-15 + 1.95e-14 * θ := by
      have h1 := len_add_le (W - destination M t az) (destination M t az - destination M θ az)
      rw [show ∀ x y z : V3 ℝ, x - y + (y - z) = x - z from fun x y z => by ext <;> simp] at h1
      have h2 := destination_lip rM θ az t az
      rw [sub_self, abs_zero, add_zero] at h2
      generalize (1e-50 : ℝ) = τ at *
      norm_num at w2 hte hτ h9 ⊢
      linarith
    obtain ⟨uC, aC⟩ := destination_spec rM t0 t1 az
    obtain ⟨lat2, lon2, r1, -, -, r4⟩ := latlon_of_near B hR fW uC hε (by norm_num at hπ ⊢; linarith)
    have r5 := q1.symm.trans r1
    obtain rfl : lat' = lat2 := fin_inj.mp (congrArg Prod.fst r5)
    obtain rfl : lon' = lon2 := fin_inj.mp (congrArg Prod.snd r5)
    have hm : -col2 M = dirOf v := by rw [m2]; ext <;> simp
    rw [hm] at aC
    have uv := dirOf_unit v0
    have uB := normalOf_unit hR lat' lon'
    have b1 := (angle_le_of_len uA dv' (by norm_num)).2
    have b2 := (angle_le_of_len uC r4 (by norm_num at hπ ⊢; linarith)).2
    generalize normalOf Re lat' lon' = Q at *
    generalize normalOf Re lat lon = A at *
    generalize destination M θ az = C at *
    have x1 := angle_triangle uA uv uB
    have x2 := angle_triangle uv uC uB
    have x3 := angle_triangle uv uA uC
    have x4 := angle_triangle uA uB uC
    rw [angle_comm A (dirOf v)] at x1
    rw [angle_comm C Q] at x2
    have key : |angle A Q - θ| ≤ 3e-14 + 4e-14 * θ := by
      norm_num at b1 b2
      rw [abs_le]; constructor <;> norm_num <;> linarith
    rw [hDθ, ← sub_mul, abs_mul, abs_of_pos lp]
    exact (mul_le_mul_of_nonneg_right key lp.le).trans (le_of_eq (by ring))

/-- **C109** `GeoPoint.displace(distance, azimuth, method='greatcircle')` in binary64 (axes 'e').  The result has the depth of the start; its horizontal
position is within `3.5e-14 + 7.9e-14 θ / c` of the position at the angle `θ = distance / radius` in the direction of the azimuth, where the radius is the
distance of the start from the centre and `c` the sine of its colatitude; its great circle distance from the start is the distance asked for within
`3e-14 radius + 4e-14 distance`; and the returned azimuth is, up to whole turns, the direction at the result of the chord from the start to it. -/
theorem C109_displace (G : Geodesic (F64 B)) (fa : IsF64 a) (a1 : 1 ≤ a) (a2 : a ≤ 1e10) (ff : IsF64 f) (f0 : 0 ≤ f) (f1 : f ≤ 0.01)
    (nm : EllKey) (lat lon : ℝ) {z : ℝ} (fz : IsF64 z) (d1 : z ≤ 0.4 * a) (d2 : -z ≤ 998 * a) {p : V3 ℝ} (hp : Geodetic a f Re (normalOf Re lat lon) z p)
    {N : M3 ℝ} (hN : NorthEastDown Re (normalOf Re lat lon) N) {c : ℝ} (c0 : 1e-12 ≤ c) (hc : c ≤ len (cross (northPole Re) (normalOf Re lat lon)))
    {D : ℝ} (hD : |D / len p| ≤ 1e12 * c) (az : ℝ) (lu : Bool) :
    ∃ (lat' lon' : ℝ) (β : F64 B), (Geo64 B a f Re nm lat lon z).displace G (F64.fin D) (F64.fin az) lu false "greatcircle" =
        .ok (Geo64 B a f Re nm lat' lon' z, β) ∧ IsF64 lat' ∧ IsF64 lon' ∧
      len (normalOf Re lat' lon' - destination N (D / len p) az) ≤ 3.5e-14 + 7.9e-14 * |D / len p| / c ∧
      (0 ≤ D → D ≤ Real.pi * len p → |angle (normalOf Re lat lon) (normalOf Re lat' lon') * len p - D| ≤ 3e-14 * len p + 4e-14 * D) ∧
      ∀ (q : V3 ℝ) (M : M3 ℝ) (c' h azB : ℝ), Geodetic a f Re (normalOf Re lat' lon') z q → NorthEastDown Re (normalOf Re lat' lon') M →
        1e-12 ≤ c' → c' ≤ len (cross (northPole Re) (normalOf Re lat' lon')) → 0 < h →
        dot (col0 M) (q - p) = h * Real.cos azB → dot (col1 M) (q - p) = h * Real.sin azB → 7.8e-14 * (a + |z|) + 2.9e-13 * len (q - p) / c' ≤ h →
        ∃ (x : ℝ) (k : ℤ), β = F64.fin x ∧ |x| ≤ 3.1416 ∧
          |x - (azB + k * (2 * Real.pi))| ≤ (6.1e-14 * (a + |z|) + 2.3e-13 * len (q - p) / c') / h + 6.6e-15 := by
  have hR : IsAxes Re := Or.inl rfl
  have z0 := abs_nonneg z
  obtain ⟨lat', lon', k1, k2, k3, k4, k5⟩ := displace_position_flt B fa a1 a2 ff f0 f1 nm lat lon fz d1 d2 hp hN c0 hc hD az
  have hd : ∃ d, delta_N (.geo (Geo64 B a f Re nm lat' lon' z)) (.ecef (Geo64 B a f Re nm lat lon z).to_nvector.to_ecef_vector) = .ok d := by
    refine ⟨⟨mulVec (tr (FrameN (.geo (Geo64 B a f Re nm lat' lon' z))).R_EN) (sub3 (Geo64 B a f Re nm lat lon z).to_nvector.to_ecef_vector.pvector
      (Geo64 B a f Re nm lat' lon' z).to_ecef_vector.pvector), FrameN (.geo (Geo64 B a f Re nm lat' lon' z))⟩, ?_⟩
    have hE : delta_E (.geo (Geo64 B a f Re nm lat' lon' z)) (.ecef (Geo64 B a f Re nm lat lon z).to_nvector.to_ecef_vector) =
        .ok ⟨sub3 (Geo64 B a f Re nm lat lon z).to_nvector.to_ecef_vector.pvector (Geo64 B a f Re nm lat' lon' z).to_ecef_vector.pvector, Frame64 B a f Re nm⟩ := by
      have hc : check_frames (Geo64 B a f Re nm lat lon z).to_nvector.to_ecef_vector.frame (Geo64 B a f Re nm lat' lon' z).to_ecef_vector.frame = .ok () :=
        check_self B hR fa a1 a2 ff f0 f1 nm nm
      simp only [delta_E, ECEFvector.sub, Position.to_ecef_vector]
      rw [hc]; rfl
    have hc : check_frames (Frame64 B a f Re nm) (FrameN (.geo (Geo64 B a f Re nm lat' lon' z))).nvector.frame = .ok () := check_self B hR fa a1 a2 ff f0 f1 nm nm
    simp only [delta_N, hE, bind, Except.bind, ECEFvector.change_frame]
    rw [hc]; rfl
  obtain ⟨d, hd⟩ := hd
  refine ⟨lat', lon', base_angle (Nv.azimuth d.pvector - PyFloat.pi), ?_, k2, k3, k4, k5, ?_⟩
  · change (Geo64 B a f Re nm lat lon z).displace_great_circle (F64.fin D) (F64.fin az) false = _
    unfold GeoPoint.displace_great_circle
    have k1' : Nvector.to_geo_point ⟨n_EA_E_distance_and_azimuth2n_EB_E (Geo64 B a f Re nm lat lon z).to_nvector.normal
          (F64.fin D / length (Geo64 B a f Re nm lat lon z).to_nvector.to_ecef_vector.pvector) (F64.fin az), (Geo64 B a f Re nm lat lon z).z,
          (Geo64 B a f Re nm lat lon z).frame⟩ = Geo64 B a f Re nm lat' lon' z := k1
    simp only [Bool.false_eq_true, if_false, k1', hd, bind, Except.bind, pure, Except.pure]
  · intro q M c' h azB hq hM c0' hc' hh hx hy hb
    have hza : |z| ≤ 998 * a := by rw [abs_le]; norm_num at d1; constructor <;> linarith
    have hz30 : |z| ≤ 1e30 := by norm_num at a2 ⊢; linarith
    obtain ⟨PA, eA, fPA, gPA⟩ := C90_to_ecef_vector B hR fa a1 a2 ff f0 f1 nm lat lon fz hz30 hp
    obtain ⟨PB, eB, fPB, gPB⟩ := C90_to_ecef_vector B hR fa a1 a2 ff f0 f1 nm lat' lon' fz hz30 hq
    obtain ⟨m, hm, fm, -, -, -, dm, -⟩ := geo_near B hR lat' lon'
    have hDl := delta_len hR a1 f0 f1 hq hp
    have nA := gPA.mono (e' := 4.9e-15 * (a + |z|)) (by norm_num; linarith)
    have nB := gPB.mono (e' := 4.9e-15 * (a + |z|)) (by norm_num; linarith)
    obtain ⟨Q, s1, fQ, s2, s3, -⟩ := delta_N_near B hR fa a1 a2 ff f0 f1 (posA := .geo (Geo64 B a f Re nm lat' lon' z))
      (posB := .ecef (Geo64 B a f Re nm lat lon z).to_nvector.to_ecef_vector) (S := a + |z|) (normalOf_unit hR lat' lon') fPB fPA eB eA rfl
      (by change n_E2R_EN (lat_lon2n_E (F64.fin lat' : F64 B) (F64.fin lon') Re.flt) Re.flt = _; rw [hm]) fm (dm.trans (by norm_num)) le_rfl
      (by norm_num at a2 ⊢; linarith) (by linarith) nB nA hM c0' hc'
    have hl : len (p - q) = len (q - p) := by
      rw [show p - q = (-1 : ℝ) • (q - p) by ext <;> simp, len_smul, abs_neg, abs_one, one_mul]
    have flip : ∀ u : V3 ℝ, dot u (p - q) = -dot u (q - p) := by intro u; unfold dot; simp; ring
    have cp : 0 < c' := lt_of_lt_of_le (by norm_num) c0'
    rw [hl, flip, hx, ← mul_neg, ← Real.cos_add_pi, mul_div_assoc] at s2
    rw [hl, flip, hy, ← mul_neg, ← Real.sin_add_pi, mul_div_assoc] at s3
    rw [mul_div_assoc] at hb ⊢
    obtain ⟨β, k, t1, t2, t3, t4⟩ := azimuth_of_near B fQ (by positivity) (div_nonneg (len_nonneg' _) cp.le) s2 s3 hh hb
    obtain ⟨y, m', y1, y2, y3, y4⟩ := base_angle_flt B (az := β) (t3.trans (by norm_num))
    have hdq : d = ⟨Q.flt, FrameN (.geo (Geo64 B a f Re nm lat' lon' z))⟩ := Except.ok.inj (hd.symm.trans s1)
    have hP : B.fl Real.pi ≤ 3.1416 := by
      have hpi := fl_pi (B := B)
      have hπ := Real.pi_lt_d6
      have : uu ≤ 1e-10 := by unfold uu; norm_num
      have h5 := (abs_le.mp hpi).2
      have h6 : uu * Real.pi ≤ 1e-10 * 3.2 := mul_le_mul this (by norm_num at hπ ⊢; linarith) Real.pi_pos.le (by norm_num)
      norm_num at hπ h6 ⊢
      linarith
    refine ⟨y, k + m' + 1, ?_, y3.trans hP, ?_⟩
    · rw [hdq]; change base_angle (Nv.azimuth (Q.flt : V3 (F64 B)) - PyFloat.pi) = _; rw [t1, y1]
    · have hu : 45 * uu ≤ 5.1e-15 := by unfold uu; norm_num
      have := abs_add_le (y - (β + Real.pi + m' * (2 * Real.pi))) (β - (azB + Real.pi + k * (2 * Real.pi)))
      rw [show y - (β + Real.pi + m' * (2 * Real.pi)) + (β - (azB + Real.pi + k * (2 * Real.pi))) = y - (azB + ((k + m' + 1 : ℤ) : ℝ) * (2 * Real.pi)) by
        push_cast; ring] at this
      norm_num at hu t4 y4 this ⊢
      linarith

/-- an angle in `[-π, π]` converted to degrees -/
theorem rad2deg_angle {x t E : ℝ} {m : ℤ} (hx : |x| ≤ 3.1416) (hb : |x - (t + m * (2 * Real.pi))| ≤ E) :
    ∃ y : ℝ, rad2deg (F64.fin x : F64 B) = F64.fin y ∧ |y - (t * (180 / Real.pi) + m * 360)| ≤ 57.3 * E + 6.1e-14 := by
  have hπ := Real.pi_gt_d4
  have q1 : 180 / Real.pi ≤ 57.3 := by rw [div_le_iff₀ Real.pi_pos]; norm_num at hπ ⊢; linarith
  have q0 : 0 ≤ 180 / Real.pi := by positivity
  obtain ⟨y, y1, -, y2⟩ := rad2deg_flt (B := B) (x := x) (hx.trans (by norm_num))
  refine ⟨y, y1, ?_⟩
  have e1 : |x * (180 / Real.pi)| ≤ 3.1416 * 57.3 := by
    rw [abs_mul, abs_of_nonneg q0]
    exact mul_le_mul hx q1 q0 (by norm_num)
  have e2 : |x * (180 / Real.pi) - (t * (180 / Real.pi) + m * 360)| ≤ 57.3 * E := by
    rw [show x * (180 / Real.pi) - (t * (180 / Real.pi) + m * 360) = (180 / Real.pi) * (x - (t + m * (2 * Real.pi))) by
      field_simp; ring, abs_mul, abs_of_nonneg q0]
    exact mul_le_mul q1 hb (abs_nonneg _) (by norm_num)
  have e3 := mul_le_mul_of_nonneg_left e1 (show (0 : ℝ) ≤ 3.002 * uu by have := uu_pos; positivity)
  have e4 : 3.002 * uu * (3.1416 * 57.3) + eta ≤ 6.1e-14 := by
    have h9 : 3.002 * uu * (3.1416 * 57.3) ≤ 6.05e-14 := by unfold uu; norm_num
    have h8 : eta ≤ 1e-20 := eta_small.trans (by norm_num)
    norm_num at h9 h8 ⊢; linarith
  have t' := abs_add_le (y - x * (180 / Real.pi)) (x * (180 / Real.pi) - (t * (180 / Real.pi) + m * 360))
  rw [sub_add_sub_cancel] at t'
  linarith

/-- **C109** the same with `degrees=True`: azimuths in degrees -/
theorem C109_displace_degrees (G : Geodesic (F64 B)) (fa : IsF64 a) (a1 : 1 ≤ a) (a2 : a ≤ 1e10) (ff : IsF64 f) (f0 : 0 ≤ f) (f1 : f ≤ 0.01)
    (nm : EllKey) (lat lon : ℝ) {z : ℝ} (fz : IsF64 z) (d1 : z ≤ 0.4 * a) (d2 : -z ≤ 998 * a) {p : V3 ℝ} (hp : Geodetic a f Re (normalOf Re lat lon) z p)
    {N : M3 ℝ} (hN : NorthEastDown Re (normalOf Re lat lon) N) {c : ℝ} (c0 : 1e-12 ≤ c) (hc : c ≤ len (cross (northPole Re) (normalOf Re lat lon)))
    {D : ℝ} (hD : |D / len p| ≤ 1e12 * c) {az : ℝ} (haz : |az| ≤ 10 ^ 50) (lu : Bool) :
    ∃ (lat' lon' : ℝ) (β : F64 B), (Geo64 B a f Re nm lat lon z).displace G (F64.fin D) (F64.fin az) lu true "greatcircle" =
        .ok (Geo64 B a f Re nm lat' lon' z, β) ∧ IsF64 lat' ∧ IsF64 lon' ∧
      len (normalOf Re lat' lon' - destination N (D / len p) (az * (Real.pi / 180))) ≤
        3.6e-14 + 7.9e-14 * |D / len p| / c + 3.4e-16 * |az * (Real.pi / 180)| ∧
      (0 ≤ D → D ≤ Real.pi * len p → |angle (normalOf Re lat lon) (normalOf Re lat' lon') * len p - D| ≤ 3e-14 * len p + 4e-14 * D) ∧
      ∀ (q : V3 ℝ) (M : M3 ℝ) (c' h azB : ℝ), Geodetic a f Re (normalOf Re lat' lon') z q → NorthEastDown Re (normalOf Re lat' lon') M →
        1e-12 ≤ c' → c' ≤ len (cross (northPole Re) (normalOf Re lat' lon')) → 0 < h →
        dot (col0 M) (q - p) = h * Real.cos azB → dot (col1 M) (q - p) = h * Real.sin azB → 7.8e-14 * (a + |z|) + 2.9e-13 * len (q - p) / c' ≤ h →
        ∃ (x : ℝ) (k : ℤ), β = F64.fin x ∧
          |x - (azB * (180 / Real.pi) + k * 360)| ≤ 57.3 * ((6.1e-14 * (a + |z|) + 2.3e-13 * len (q - p) / c') / h) + 4.5e-13 := by
  obtain ⟨r, r1, -, r2⟩ := deg2rad_flt (B := B) haz
  obtain ⟨lat', lon', β, k1, k2, k3, k4, k5, k6⟩ := C109_displace B G fa a1 a2 ff f0 f1 nm lat lon fz d1 d2 hp hN c0 hc hD r lu
  refine ⟨lat', lon', rad2deg β, ?_, k2, k3, ?_, k5, ?_⟩
  · change (Geo64 B a f Re nm lat lon z).displace_great_circle (F64.fin D) (F64.fin r) false = _ at k1
    change (Geo64 B a f Re nm lat lon z).displace_great_circle (F64.fin D) (F64.fin az) true = _
    generalize Geo64 B a f Re nm lat lon z = P at *
    unfold GeoPoint.displace_great_circle at k1 ⊢
    simp only [Bool.false_eq_true, if_false, if_true, r1] at k1 ⊢
    generalize delta_N (Position.geo _) (Position.ecef P.to_nvector.to_ecef_vector) = X at k1 ⊢
    cases X with
    | error e => exact absurd k1 (by simp [bind, Except.bind])
    | ok u =>
      simp only [bind, Except.bind, pure, Except.pure, Except.ok.injEq, Prod.mk.injEq] at k1 ⊢
      exact ⟨k1.1, by rw [k1.2]⟩
  · have h1 := len_add_le (normalOf Re lat' lon' - destination N (D / len p) r) (destination N (D / len p) r - destination N (D / len p) (az * (Real.pi / 180)))
    rw [show ∀ x y z : V3 ℝ, x - y + (y - z) = x - z from fun x y z => by ext <;> simp] at h1
    have h2 := destination_lip hN.1 (D / len p) (az * (Real.pi / 180)) (D / len p) r
    rw [sub_self, abs_zero, zero_add] at h2
    have h3 : 3.002 * uu * |az * (Real.pi / 180)| ≤ 3.4e-16 * |az * (Real.pi / 180)| := mul_le_mul_of_nonneg_right (by unfold uu; norm_num) (abs_nonneg _)
    have h4 : eta ≤ 1e-20 := eta_small.trans (by norm_num)
    norm_num at h3 h4 k4 r2 ⊢
    linarith
  · intro q M c' h azB b1 b2 b3 b4 b5 b6 b7 b8
    obtain ⟨x, k, x1, x2, x3⟩ := k6 q M c' h azB b1 b2 b3 b4 b5 b6 b7 b8
    obtain ⟨y, y1, y2⟩ := rad2deg_angle B x2 x3
    refine ⟨y, k, by rw [x1, y1], y2.trans ?_⟩
    norm_num; linarith

/-- a concrete case: 1000 km eastwards from the equator of the sphere of radius 6371000 -/
example (G : Geodesic (F64 B)) : ∃ (lat' lon' : ℝ) (β : F64 B),
    (Geo64 B 6371000 0 Re (.int 1) 0 0 0).displace G (F64.fin 1000000) (F64.fin 90) false true "greatcircle" = .ok (Geo64 B 6371000 0 Re (.int 1) lat' lon' 0, β) ∧
      len (normalOf Re lat' lon' - ⟨Real.cos (1000000 / 6371000), Real.sin (1000000 / 6371000), 0⟩) ≤ 6e-14 := by
  have h0 : IsF64 (6371000 : ℝ) := by simpa using isF64_int (n := 6371000) (by norm_num)
  have hn : normalOf Re 0 0 = ⟨1, 0, 0⟩ := by rw [normalOf_Re]; simp
  have hu : UnitVec (normalOf Re 0 0) := normalOf_unit (Or.inl rfl) 0 0
  have hg : Geodetic 6371000 0 Re (normalOf Re 0 0) 0 ((6371000 : ℝ) • normalOf Re 0 0) := by
    have := geodetic_sphere (a := 6371000) isRotation_Re (by norm_num) hu.ne
    rwa [dirOf_of_unit hu] at this
  have hl : len ((6371000 : ℝ) • normalOf Re 0 0) = 6371000 := by rw [len_smul, hu.len]; norm_num
  have hp : northPole Re = ⟨0, 0, 1⟩ := by unfold northPole app transp Re dot; ext <;> simp [col0, col1, col2]
  obtain ⟨lat', lon', β, h1, -, -, h2, -, -⟩ := C109_displace_degrees B G (a := 6371000) (f := 0) (p := (6371000 : ℝ) • normalOf Re 0 0) h0 (by norm_num) (by norm_num)
    isF64_zero le_rfl (by norm_num) (.int 1) 0 0 isF64_zero (by norm_num) (by norm_num) hg (equatorFrame_ned 0) (c := 1) (by norm_num)
    (by rw [hp, hn]; apply le_of_eq; unfold len; simp [cross]) (D := 1000000) (by rw [hl]; norm_num) (az := 90) (by norm_num) false
  refine ⟨lat', lon', β, h1, ?_⟩
  have e : destination (equatorFrame 0) (1000000 / len ((6371000 : ℝ) • normalOf Re 0 0)) (90 * (Real.pi / 180)) =
      ⟨Real.cos (1000000 / 6371000), Real.sin (1000000 / 6371000), 0⟩ := by
    rw [hl, show (90 : ℝ) * (Real.pi / 180) = Real.pi / 2 by ring]
    unfold destination equatorFrame
    ext <;> simp [col0, col1, col2]
  rw [e, hl] at h2
  have hπ := Real.pi_lt_d2
  have h3 : |(90 : ℝ) * (Real.pi / 180)| ≤ 2 := by rw [abs_of_pos (by positivity)]; norm_num at hπ ⊢; linarith
  refine h2.trans ?_
  rw [abs_of_pos (by norm_num : (0 : ℝ) < 1000000 / 6371000)]
  norm_num at h3 ⊢
  linarith

end Nv
