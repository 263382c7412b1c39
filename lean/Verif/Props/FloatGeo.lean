import Verif.Float.Degrees

/-!
# C89 - C91: degrees, and geographic points as ECEF vectors, in binary64

`geoNormal lat lon` is the exact unit normal at a latitude and longitude (in radians), `Geodetic` and the axes as in
`Props/FloatPosition.lean`, `Frame64` as in `Props/FloatFrames.lean`.
-/

namespace Nv
open Spec F64
variable (B : Binary64)
variable {a f : ℝ} {R : M3 ℝ}

/-! ## C89 -/

/-- **C89** `rad` in rounded arithmetic: relative error at most `3.4e-16` -/
theorem C89_rad {x : ℝ} (hx : |x| ≤ 10 ^ 50) :
    ∃ y : ℝ, rad [(F64.fin x : F64 B)] = .one (F64.fin y) ∧ IsF64 y ∧ |y - x * Real.pi / 180| ≤ 3.4e-16 * |x * Real.pi / 180| + 2 ^ (-1075 : ℤ) := by
  obtain ⟨y, h1, h2, h3⟩ := deg2rad_flt (B := B) hx
  refine ⟨y, by rw [rad, h1], h2, ?_⟩
  rw [mul_div_assoc]
  refine h3.trans ?_
  have e : 3.002 * uu ≤ 3.4e-16 := by unfold uu; norm_num
  have := mul_le_mul_of_nonneg_right e (abs_nonneg (x * (Real.pi / 180)))
  unfold eta
  linarith

/-- **C89** `deg` in rounded arithmetic: relative error at most `3.4e-16` -/
theorem C89_deg {x : ℝ} (hx : |x| ≤ 10 ^ 50) :
    ∃ y : ℝ, deg [(F64.fin x : F64 B)] = .one (F64.fin y) ∧ IsF64 y ∧ |y - x * 180 / Real.pi| ≤ 3.4e-16 * |x * 180 / Real.pi| + 2 ^ (-1075 : ℤ) := by
  obtain ⟨y, h1, h2, h3⟩ := rad2deg_flt (B := B) hx
  refine ⟨y, by rw [deg, h1], h2, ?_⟩
  rw [mul_div_assoc]
  refine h3.trans ?_
  have e : 3.002 * uu ≤ 3.4e-16 := by unfold uu; norm_num
  have := mul_le_mul_of_nonneg_right e (abs_nonneg (x * (180 / Real.pi)))
  unfold eta
  linarith

/-- **C89** the latitude and longitude in degrees of a point created in degrees: what was put in, up to a relative error of `6.8e-16` -/
theorem C89_latlon_deg {lat lon : ℝ} (h1 : |lat| ≤ 10 ^ 45) (h2 : |lon| ≤ 10 ^ 45) (z : F64 B) (F : FrameE (F64 B)) :
    ∃ lat' lon' : ℝ, (GeoPoint.new (F64.fin lat) (F64.fin lon) z F true).latitude_deg = F64.fin lat' ∧
      (GeoPoint.new (F64.fin lat) (F64.fin lon) z F true).longitude_deg = F64.fin lon' ∧
      |lat' - lat| ≤ 6.8e-16 * |lat| + 1 / 10 ^ 50 ∧ |lon' - lon| ≤ 6.8e-16 * |lon| + 1 / 10 ^ 50 := by
  have hp := Real.pi_pos
  have hp3 := Real.pi_gt_three
  have hp4 := Real.pi_lt_d2
  have hu := uu_pos
  have he := eta_small
  have he0 := eta_pos
  have key : ∀ x : ℝ, |x| ≤ 10 ^ 45 → ∃ y : ℝ, rad2deg (deg2rad (F64.fin x : F64 B)) = F64.fin y ∧ |y - x| ≤ 6.8e-16 * |x| + 1 / 10 ^ 50 := by
    intro x hx
    obtain ⟨r, e1, -, b1⟩ := deg2rad_flt (B := B) (x := x) (hx.trans (by norm_num))
    have hk : |x * (Real.pi / 180)| = |x| * (Real.pi / 180) := by rw [abs_mul, abs_of_pos (by positivity : 0 < Real.pi / 180)]
    rw [hk] at b1
    have hr : |r| ≤ (1 + 3.002 * uu) * (|x| * (Real.pi / 180)) + eta := by
      have := abs_sub_abs_le_abs_sub r (x * (Real.pi / 180))
      rw [hk] at this
      linarith
    have hu1 : uu ≤ 1 / 10 ^ 10 := by unfold uu; norm_num
    have hx0 := abs_nonneg x
    have hxp : |x| * (Real.pi / 180) ≤ |x| * 1 := mul_le_mul_of_nonneg_left (by linarith) hx0
    have hxp0 : 0 ≤ |x| * (Real.pi / 180) := by positivity
    have hr2 : |r| ≤ 10 ^ 50 := by
      have h5 : (1 + 3.002 * uu) * (|x| * (Real.pi / 180)) ≤ 2 * (|x| * (Real.pi / 180)) :=
        mul_le_mul_of_nonneg_right (by norm_num; linarith) hxp0
      have h6 : eta ≤ 1 := he.trans (by norm_num)
      linarith
    obtain ⟨y, e2, -, b2⟩ := rad2deg_flt (B := B) hr2
    refine ⟨y, by rw [e1, e2], ?_⟩
    have hk2 : |r * (180 / Real.pi)| = |r| * (180 / Real.pi) := by rw [abs_mul, abs_of_pos (by positivity : 0 < 180 / Real.pi)]
    rw [hk2] at b2
    have e60 : 180 / Real.pi ≤ 60 := by rw [div_le_iff₀ hp]; linarith
    have hq0 : 0 ≤ 180 / Real.pi := by positivity
    have h7 : |r| * (180 / Real.pi) ≤ (1 + 3.002 * uu) * |x| + 60 * eta := by
      have := mul_le_mul_of_nonneg_right hr hq0
      have e : ((1 + 3.002 * uu) * (|x| * (Real.pi / 180)) + eta) * (180 / Real.pi) = (1 + 3.002 * uu) * |x| + eta * (180 / Real.pi) := by
        field_simp
      rw [e] at this
      have := mul_le_mul_of_nonneg_left e60 he0.le
      linarith
    have h8 : |r * (180 / Real.pi) - x| ≤ 3.002 * uu * |x| + 60 * eta := by
      have e : r * (180 / Real.pi) - x = (r - x * (Real.pi / 180)) * (180 / Real.pi) := by field_simp
      rw [e, abs_mul, abs_of_pos (by positivity : 0 < 180 / Real.pi)]
      have := mul_le_mul_of_nonneg_right b1 hq0
      have e : (3.002 * uu * (|x| * (Real.pi / 180)) + eta) * (180 / Real.pi) = 3.002 * uu * |x| + eta * (180 / Real.pi) := by
        field_simp
      rw [e] at this
      have := mul_le_mul_of_nonneg_left e60 he0.le
      linarith
    have h9 := abs_sub_le y (r * (180 / Real.pi)) x
    have h10 := mul_le_mul_of_nonneg_left h7 (by positivity : 0 ≤ 3.002 * uu)
    have c1 : 3.002 * uu * (1 + 3.002 * uu) + 3.002 * uu ≤ 6.8e-16 := by unfold uu; norm_num
    have c2 := mul_le_mul_of_nonneg_right c1 hx0
    have c3 : 3.002 * uu * (60 * eta) ≤ 1 * (60 * eta) := mul_le_mul_of_nonneg_right (by unfold uu; norm_num) (by positivity)
    have c4 : 60 * eta + (60 * eta + eta) ≤ 1 / 10 ^ 50 := by
      have : (121 : ℝ) * (1 / 10 ^ 60) ≤ 1 / 10 ^ 50 := by norm_num
      linarith
    generalize (1 : ℝ) / 10 ^ 50 = q at *
    linarith only [h8, h9, h10, c2, c3, c4, b2]
  obtain ⟨y1, k1, b1⟩ := key lat h1
  obtain ⟨y2, k2, b2⟩ := key lon h2
  exact ⟨y1, y2, by simpa [GeoPoint.new, GeoPoint.latitude_deg] using k1, by simpa [GeoPoint.new, GeoPoint.longitude_deg] using k2, b1, b2⟩

/-! ## C90 -/

/-- the computed n-vector of a geographic point -/
theorem geo_normal_flt (hR : IsAxes R) (lat lon : ℝ) :
    ∃ v : V3 ℝ, lat_lon2n_E (F64.fin lat : F64 B) (F64.fin lon) R.flt = v.flt ∧ IsF64V v ∧ v ≠ 0 ∧ |len v - 1| ≤ 9.02 * uu ∧
      len (dirOf v - app (transp R) (geoNormal lat lon)) ≤ 18.04 * uu := by
  have hm := mulVec_tr_axes (B := B) hR (fin64V_geoFl (B := B) lat lon)
  have hl := geoFl_len (B := B) lat lon
  have hlen : len (app (transp R) (geoFl B lat lon)) = len (geoFl B lat lon) := len_app hR.rot.transpose _
  have hv0 : app (transp R) (geoFl B lat lon) ≠ 0 := by
    intro h0
    rw [h0, len_eq_zero.mpr rfl] at hlen
    rw [← hlen] at hl
    exact absurd hl (by rw [not_le]; unfold uu; norm_num)
  refine ⟨_, lat_lon2n_E_flt lat lon hR, ⟨hm.2.1.1, hm.2.2.1.1, hm.2.2.2.1⟩, hv0, by rw [hlen]; exact hl, ?_⟩
  refine (len_dirOf_sub (unitVec_app hR.rot.transpose (geoNormal_isUnit lat lon)) hv0).trans ?_
  rw [← app_sub, len_app hR.rot.transpose]
  have := geoFl_near (B := B) lat lon
  norm_num at this ⊢
  linarith only [this]

/-- moving the normal moves the point -/
theorem geodetic_move (hR : IsAxes R) (ha : 0 < a) (f0 : 0 ≤ f) (f1 : f ≤ 0.01) {n m p q : V3 ℝ} {d : ℝ} (hp : Geodetic a f R n d p)
    (hq : Geodetic a f R m d q) : len (p - q) ≤ (1.0102 * a + |d|) * len (dirOf n - dirOf m) := by
  norm_num at f1
  have hf : f < 1 := by linarith
  obtain ⟨n0, rfl⟩ := hp.eq ha hf hR.rot
  obtain ⟨m0, rfl⟩ := hq.eq ha hf hR.rot
  have := pos_close (d := d) (d' := d) ha f0 hf (unitVec_app hR.rot (dirOf_unit m0)) (unitVec_app hR.rot (dirOf_unit n0))
  rw [← app_sub, len_app hR.rot, sub_self, abs_zero, add_zero] at this
  rw [← app_sub, len_app hR.rot.transpose]
  refine this.trans (mul_le_mul_of_nonneg_right ?_ (len_nonneg' _))
  have : a / (1 - f) ≤ 1.0102 * a := by
    rw [div_le_iff₀ (by linarith)]
    norm_num
    nlinarith
  linarith

/-- **C90** `GeoPoint(lat, lon, z).to_ecef_vector()` (radians, any finite latitude and longitude): each component is within
`4.9e-15 a + 2.8e-15 |z|` of the exact point (31 nm on the surface of the Earth) -/
theorem C90_to_ecef_vector (hR : IsAxes R) (fa : IsF64 a) (a1 : 1 ≤ a) (a2 : a ≤ 1e10) (ff : IsF64 f) (f0 : 0 ≤ f) (f1 : f ≤ 0.01)
    (nm : EllKey) (lat lon : ℝ) {z : ℝ} (fz : IsF64 z) (hz : |z| ≤ 1e30) {p : V3 ℝ}
    (hp : Geodetic a f R (app (transp R) (geoNormal lat lon)) z p) :
    ∃ P : V3 ℝ, (GeoPoint.new (F64.fin lat) (F64.fin lon) (F64.fin z) (Frame64 B a f R nm)).to_ecef_vector = ⟨P.flt, Frame64 B a f R nm⟩ ∧
      IsF64V P ∧ CloseV P p (4.9e-15 * a + 2.8e-15 * |z|) := by
  have hu := uu_pos
  have ha : 0 < a := by linarith
  have hf : f < 1 := by norm_num at f1; linarith
  obtain ⟨v, h1, fv, v0, hl, hd⟩ := geo_normal_flt B hR lat lon
  obtain ⟨l1, l2⟩ := abs_le.mp hl
  have hu1 : 9.02 * uu ≤ 0.5 := by unfold uu; norm_num
  norm_num at hu1
  norm_num at l1 l2
  have v1 : (2 : ℝ) ^ (-500 : ℤ) ≤ len v := by
    have : (2 : ℝ) ^ (-500 : ℤ) ≤ 2 ^ (-1 : ℤ) := zpow_le_zpow_right₀ (by norm_num) (by norm_num)
    have e : (2 : ℝ) ^ (-1 : ℤ) = 1 / 2 := by norm_num
    rw [e] at this
    linarith only [this, l1, hu1]
  obtain ⟨P, h2, fP, hx, hy, hz'⟩ := n2p_flt (B := B) hR fa a1 a2 ff f0 f1 fz hz fv v1 (by
    have : (2 : ℝ) ≤ 10 ^ 60 := by norm_num
    linarith only [this, l2, hu1])
  have hg := geodetic_posE (d := z) ha hf hR.rot v0
  have hmv := geodetic_move hR ha f0 f1 hg hp
  rw [dirOf_of_unit (unitVec_app hR.rot.transpose (geoNormal_isUnit lat lon))] at hmv
  have hmv2 := hmv.trans (mul_le_mul_of_nonneg_left hd (by positivity))
  generalize app (transp R) (posE a f (app R (dirOf v)) z) = Q at *
  have hb : 25.3 * (uu * a) + 7.1 * (uu * |z|) + (1.0102 * a + |z|) * (18.04 * uu) ≤ 4.9e-15 * a + 2.8e-15 * |z| := by
    have e1 : 25.3 * uu + 1.0102 * (18.04 * uu) ≤ 4.9e-15 := by unfold uu; norm_num
    have e2 : 7.1 * uu + 18.04 * uu ≤ 2.8e-15 := by unfold uu; norm_num
    have e3 := mul_le_mul_of_nonneg_right e1 ha.le
    have e4 := mul_le_mul_of_nonneg_right e2 (abs_nonneg z)
    linarith only [e3, e4]
  refine ⟨P, ?_, fP, ?_, ?_, ?_⟩
  · simp only [GeoPoint.new, GeoPoint.to_ecef_vector, GeoPoint.to_nvector, Nvector.to_ecef_vector, Frame64, Bool.false_eq_true, if_false]
    rw [h1, h2]
  · have k := abs_x_le_len (Q - p)
    simp only [sub_x] at k
    have := abs_sub_le P.x Q.x p.x
    linarith
  · have k := abs_y_le_len (Q - p)
    simp only [sub_y] at k
    have := abs_sub_le P.y Q.y p.y
    linarith
  · have k := abs_z_le_len (Q - p)
    simp only [sub_z] at k
    have := abs_sub_le P.z Q.z p.z
    linarith

/-- **C90** with `degrees=True`: the conversion to radians adds at most `3.4e-16` of the angles, at the distance of the point from
the centre -/
theorem C90_to_ecef_vector_degrees (hR : IsAxes R) (fa : IsF64 a) (a1 : 1 ≤ a) (a2 : a ≤ 1e10) (ff : IsF64 f) (f0 : 0 ≤ f) (f1 : f ≤ 0.01)
    (nm : EllKey) {lat lon : ℝ} (h1 : |lat| ≤ 10 ^ 50) (h2 : |lon| ≤ 10 ^ 50) {z : ℝ} (fz : IsF64 z) (hz : |z| ≤ 1e30) {p : V3 ℝ}
    (hp : Geodetic a f R (app (transp R) (geoNormal (lat * (Real.pi / 180)) (lon * (Real.pi / 180)))) z p) :
    ∃ P : V3 ℝ, (GeoPoint.new (F64.fin lat) (F64.fin lon) (F64.fin z) (Frame64 B a f R nm) true).to_ecef_vector = ⟨P.flt, Frame64 B a f R nm⟩ ∧
      IsF64V P ∧ CloseV P p (5e-15 * a + 2.9e-15 * |z| +
        3.4e-16 * (|lat * (Real.pi / 180)| + |lon * (Real.pi / 180)|) * (1.0102 * a + |z|)) := by
  have ha : 0 < a := by linarith
  have hf : f < 1 := by norm_num at f1; linarith
  obtain ⟨φ, e1, -, b1⟩ := deg2rad_flt (B := B) h1
  obtain ⟨lam, e2, -, b2⟩ := deg2rad_flt (B := B) h2
  have n0 : app (transp R) (geoNormal φ lam) ≠ 0 := (unitVec_app hR.rot.transpose (geoNormal_isUnit φ lam)).ne
  have hg := geodetic_posE (d := z) ha hf hR.rot n0
  generalize app (transp R) (posE a f (app R (dirOf (app (transp R) (geoNormal φ lam)))) z) = Q at hg
  obtain ⟨P, k1, k2, k3⟩ := C90_to_ecef_vector B hR fa a1 a2 ff f0 f1 nm φ lam fz hz hg
  have hmv := geodetic_move hR ha f0 f1 hg hp
  rw [dirOf_of_unit (unitVec_app hR.rot.transpose (geoNormal_isUnit φ lam)),
    dirOf_of_unit (unitVec_app hR.rot.transpose (geoNormal_isUnit _ _)), ← app_sub, len_app hR.rot.transpose] at hmv
  have hgl := geoNormal_lip φ lam (lat * (Real.pi / 180)) (lon * (Real.pi / 180))
  generalize lat * (Real.pi / 180) = x at *
  generalize lon * (Real.pi / 180) = y at *
  have hsum : |φ - x| + |lam - y| ≤ 3.4e-16 * (|x| + |y|) + 2e-60 := by
    have e : 3.002 * uu ≤ 3.4e-16 := by unfold uu; norm_num
    have m1 := mul_le_mul_of_nonneg_right e (abs_nonneg x)
    have m2 := mul_le_mul_of_nonneg_right e (abs_nonneg y)
    have m3 := eta_small
    norm_num at m1 m2 m3 b1 b2 ⊢
    linarith only [m1, m2, m3, b1, b2]
  have hQ : len (Q - p) ≤ (1.0102 * a + |z|) * (3.4e-16 * (|x| + |y|) + 2e-60) :=
    hmv.trans (mul_le_mul_of_nonneg_left (hgl.trans hsum) (by positivity))
  have hfin : ∀ s t u : ℝ, |s - t| ≤ 4.9e-15 * a + 2.8e-15 * |z| → |t - u| ≤ len (Q - p) →
      |s - u| ≤ 5e-15 * a + 2.9e-15 * |z| + 3.4e-16 * (|x| + |y|) * (1.0102 * a + |z|) := by
    intro s t u c1 c2
    have := abs_sub_le s t u
    have g2 : (1.0102 * a + |z|) * (3.4e-16 * (|x| + |y|) + 2e-60) =
      3.4e-16 * (|x| + |y|) * (1.0102 * a + |z|) + 2e-60 * (1.0102 * a + |z|) := by ring
    rw [g2] at hQ
    have g3 : 2e-60 * (1.0102 * a + |z|) ≤ 1e-16 * a + 1e-16 * |z| := by
      have := abs_nonneg z
      norm_num
      linarith
    have g4 : (5e-15 : ℝ) * a + 2.9e-15 * |z| = 4.9e-15 * a + 2.8e-15 * |z| + (1e-16 * a + 1e-16 * |z|) := by norm_num; ring
    linarith only [this, c1, c2, hQ, g3, g4]
  refine ⟨P, ?_, k2, hfin _ _ _ k3.1 (by simpa using abs_x_le_len (Q - p)), hfin _ _ _ k3.2.1 (by simpa using abs_y_le_len (Q - p)),
    hfin _ _ _ k3.2.2 (by simpa using abs_z_le_len (Q - p))⟩
  rw [← k1]
  simp only [GeoPoint.new, if_true, Bool.false_eq_true, if_false]
  rw [e1, e2]

/-! ## C91 -/

/-- **C91** a geographic point turned into an ECEF vector and back: latitude, longitude and depth return up to rounding.  The
longitude is known up to a whole turn, with an error that grows like `1 / cos(lat)` (it is the same distance on the ground) -/
theorem C91_roundtrip (hR : IsAxes R) (fa : IsF64 a) (a1 : 1 ≤ a) (a2 : a ≤ 1e10) (ff : IsF64 f) (f0 : 0 ≤ f) (f1 : f ≤ 0.01)
    (nm : EllKey) {lat : ℝ} (lon : ℝ) (hb : |lat| ≤ Real.pi / 2) {z : ℝ} (fz : IsF64 z) (z1 : z ≤ 0.4 * a) (z2 : -z ≤ 998 * a) :
    ∃ lat' lon' z' : ℝ, (GeoPoint.new (F64.fin lat) (F64.fin lon) (F64.fin z) (Frame64 B a f R nm)).to_ecef_vector.to_geo_point =
        ⟨F64.fin lat', F64.fin lon', F64.fin z', Frame64 B a f R nm⟩ ∧ IsF64 lat' ∧ IsF64 lon' ∧ IsF64 z' ∧
      |lat' - lat| ≤ 3e-14 ∧ |z' - z| ≤ 1.1e-14 * a + 7e-15 * |z| ∧
      (2e-14 ≤ Real.cos lat → ∃ k : ℤ, |lon' - lon - k * (2 * Real.pi)| ≤ 3e-14 / Real.cos lat) := by
  have hu := uu_pos
  have ha : 0 < a := by linarith
  have hf : f < 1 := by norm_num at f1; linarith
  have hza : |z| ≤ 998 * a := by rw [abs_le]; norm_num at z1; constructor <;> linarith only [z1, z2, ha]
  have hz0 := abs_nonneg z
  obtain ⟨v, h1, fv, v0, hl, hd⟩ := geo_normal_flt B hR lat lon
  obtain ⟨l1, l2⟩ := abs_le.mp hl
  have hu1 : 9.02 * uu ≤ 0.5 := by unfold uu; norm_num
  norm_num at hu1
  norm_num at l1 l2
  have v1 : (2 : ℝ) ^ (-500 : ℤ) ≤ len v := by
    have : (2 : ℝ) ^ (-500 : ℤ) ≤ 2 ^ (-1 : ℤ) := zpow_le_zpow_right₀ (by norm_num) (by norm_num)
    have e : (2 : ℝ) ^ (-1 : ℤ) = 1 / 2 := by norm_num
    rw [e] at this
    linarith only [this, l1, hu1]
  obtain ⟨P, h2, fP, hx, hy, hz'⟩ := n2p_flt (B := B) hR fa a1 a2 ff f0 f1 fz (by norm_num at a2 ⊢; linarith only [hza, a2]) fv v1 (by
    have : (2 : ℝ) ≤ 10 ^ 60 := by norm_num
    linarith only [this, l2, hu1])
  have hg := geodetic_posE (d := z) ha hf hR.rot v0
  generalize app (transp R) (posE a f (app R (dirOf v)) z) = Q at *
  have hPQ : len (P - Q) ≤ 1.7321 * (25.3 * (uu * a) + 7.1 * (uu * |z|)) := len_le_of_comp hx hy hz'
  obtain ⟨η, hη⟩ : ∃ η, η = 1.7321 * (25.3 * (uu * a) + 7.1 * (uu * |z|)) := ⟨_, rfl⟩
  rw [← hη] at hPQ
  have hηa : η ≤ 0.0001 * a := by
    have e1 : uu * (1.7321 * (25.3 + 7.1 * 998)) ≤ 0.0001 := by unfold uu; norm_num
    have e2 := mul_le_mul_of_nonneg_right e1 ha.le
    have e3 := mul_le_mul_of_nonneg_left hza hu.le
    rw [hη]
    norm_num at e2 e3 ⊢
    linarith only [e2, e3]
  obtain ⟨w, D, h3, fw, fD, hw, hD⟩ := p2n_near (B := B) hR fa a1 a2 ff f0 f1 fP hg z1 z2 hPQ hηa
  have hq : η / (a + |z|) ≤ 43.83 * uu := by
    rw [div_le_iff₀ (by linarith), hη]
    have p1 : 0 ≤ uu * a := by positivity
    have p2 : 0 ≤ uu * |z| := by positivity
    norm_num
    linarith only [p1, p2]
  have hw2 : len (w - dirOf v) ≤ 142.3 * uu := by norm_num at hw hq ⊢; linarith only [hw, hq, hu]
  have hwn : len (w - app (transp R) (geoNormal lat lon)) ≤ 160.4 * uu := by
    have := len_add_le (w - dirOf v) (dirOf v - app (transp R) (geoNormal lat lon))
    rw [show w - dirOf v + (dirOf v - app (transp R) (geoNormal lat lon)) = w - app (transp R) (geoNormal lat lon) by ext <;> simp] at this
    norm_num at this hw2 hd ⊢
    linarith only [this, hw2, hd, hu]
  have hRw : len (app R w - geoNormal lat lon) ≤ 160.4 * uu := by
    have e : app R w - geoNormal lat lon = app R (w - app (transp R) (geoNormal lat lon)) := by
      rw [app_sub, hR.rot.app_trans]
    rw [e, len_app hR.rot]; exact hwn
  have hu2 : 160.4 * uu ≤ 2e-14 := by unfold uu; norm_num
  have lw : 1 / 2 ≤ len w ∧ len w ≤ 2 := by
    have t1 := len_add_le (app R w - geoNormal lat lon) (geoNormal lat lon)
    have t2 := len_add_le (geoNormal lat lon - app R w) (app R w)
    rw [show app R w - geoNormal lat lon + geoNormal lat lon = app R w by ext <;> simp, len_app hR.rot, len_geoNormal] at t1
    rw [show geoNormal lat lon - app R w + app R w = geoNormal lat lon by ext <;> simp, len_app hR.rot, len_geoNormal, len_sub_comm] at t2
    norm_num at hu2 hRw
    constructor <;> linarith only [t1, t2, hRw, hu2]
  obtain ⟨lat', lon', h4, f1', f2', c1, c2⟩ := n_E2lat_lon_flt (B := B) hR fw (le_trans (by norm_num) lw.1) (lw.2.trans (by norm_num))
  have hε : 160.4 * uu ≤ 1 / 2 := hu2.trans (by norm_num)
  obtain ⟨n1, n2⟩ := latlon_near hRw hε hb
  have hπ := Real.pi_lt_d4
  refine ⟨lat', lon', D, ?_, f1', f2', fD, ?_, ?_, ?_⟩
  · simp only [GeoPoint.new, GeoPoint.to_ecef_vector, GeoPoint.to_nvector, Nvector.to_ecef_vector, ECEFvector.to_geo_point,
      ECEFvector.to_nvector, Nvector.to_geo_point, Frame64, Bool.false_eq_true, if_false]
    rw [h1, h2, h3]
    dsimp only
    rw [h4]
  · have := abs_sub_le lat' (XR.atan2 (app R w).x (√((app R w).y ^ 2 + (app R w).z ^ 2))) lat
    have e : Real.pi / 2 * (160.4 * uu) ≤ 1.5708 * (160.4 * uu) := mul_le_mul_of_nonneg_right (by norm_num at hπ ⊢; linarith) (by positivity)
    have e2 : 1.5708 * (160.4 * uu) + 12.8 * uu ≤ 3e-14 := by unfold uu; norm_num
    linarith only [this, c1, n1, e, e2]
  · refine hD.trans ?_
    rw [hη]
    have e1 : 1.0004 * (1.7321 * (25.3 * uu)) + 49 * uu * 1.0001 ≤ 1.1e-14 := by unfold uu; norm_num
    have e2 : 1.0004 * (1.7321 * (7.1 * uu)) + 49 * uu ≤ 7e-15 := by unfold uu; norm_num
    have e3 := mul_le_mul_of_nonneg_right e1 ha.le
    have e4 := mul_le_mul_of_nonneg_right e2 hz0
    linarith only [e3, e4]
  · intro hc
    have c0 : 0 < Real.cos lat := lt_of_lt_of_le (by norm_num) hc
    have hu3 : 160.4 * uu < 2e-14 := by unfold uu; norm_num
    obtain ⟨k, hk⟩ := n2 (lt_of_lt_of_le hu3 hc)
    refine ⟨k, ?_⟩
    have t : |lon' - lon - k * (2 * Real.pi)| ≤ |lon' - XR.atan2 (app R w).y (-(app R w).z)| +
        |XR.atan2 (app R w).y (-(app R w).z) - lon - k * (2 * Real.pi)| := by
      have := abs_add_le (lon' - XR.atan2 (app R w).y (-(app R w).z)) (XR.atan2 (app R w).y (-(app R w).z) - lon - k * (2 * Real.pi))
      rwa [show lon' - XR.atan2 (app R w).y (-(app R w).z) + (XR.atan2 (app R w).y (-(app R w).z) - lon - k * (2 * Real.pi)) =
        lon' - lon - k * (2 * Real.pi) by ring] at this
    have cle := Real.cos_le_one lat
    have e1 : 13 * uu ≤ 13 * uu / Real.cos lat := by
      rw [le_div_iff₀ c0]; exact mul_le_of_le_one_right (by positivity) cle
    have e2 : Real.pi / 2 * (160.4 * uu / Real.cos lat) ≤ 1.5708 * (160.4 * uu / Real.cos lat) :=
      mul_le_mul_of_nonneg_right (by norm_num at hπ ⊢; linarith) (by positivity)
    have e3 : 13 * uu / Real.cos lat + 1.5708 * (160.4 * uu / Real.cos lat) = (13 * uu + 1.5708 * (160.4 * uu)) / Real.cos lat := by ring
    have e4 : (13 * uu + 1.5708 * (160.4 * uu)) / Real.cos lat ≤ 3e-14 / Real.cos lat :=
      div_le_div_of_nonneg_right (by unfold uu; norm_num) c0.le
    linarith only [t, c2, hk, e1, e2, e3, e4]

/-- the hypotheses of C90 and C91 are met by the WGS84 numbers of a point at 45 degrees -/
example : ∃ (lat z : ℝ) (p : V3 ℝ), |lat| ≤ Real.pi / 2 ∧ IsF64 z ∧ z ≠ 0 ∧ (2e-14 : ℝ) ≤ Real.cos lat ∧
    Geodetic 6378137 0.003 Re (app (transp Re) (geoNormal lat 1)) z p := by
  refine ⟨Real.pi / 4, -100, _, ?_, ?_, by norm_num, ?_, geodetic_posE (by norm_num) (by norm_num) isRotation_Re
    (unitVec_app isRotation_Re.transpose (geoNormal_isUnit _ _)).ne⟩
  · rw [abs_of_pos (by positivity)]; linarith [Real.pi_pos]
  · simpa using isF64_int (n := -100) (by norm_num)
  · rw [Real.cos_pi_div_four]
    have : (1 : ℝ) ≤ √2 := Real.one_le_sqrt.mpr (by norm_num)
    norm_num
    linarith

end Nv
