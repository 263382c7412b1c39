import Verif.Lemmas.Mirror
import Verif.Props.FloatGeo

/-!
# C120: mirror images to the last bit

The ellipsoid is symmetric about the equator and about every meridian plane.  The computed results have both symmetries exactly:
north and south, east and west are treated alike, bit for bit.
-/

namespace Nv.Spec
variable {α : Type} [PyFloat α]

/-- mirror image in the plane of the equator.  With the axes `"e"` the polar axis is the third one, with `"E"` the first. -/
def mirrorEquator (axes : String) (v : V3 α) : V3 α := if axes = "e" then ⟨v.x, v.y, -v.z⟩ else ⟨-v.x, v.y, v.z⟩

/-- mirror image in the plane of the meridian of Greenwich; the second axis points east of it -/
def mirrorMeridian (v : V3 α) : V3 α := ⟨v.x, -v.y, v.z⟩

end Nv.Spec

namespace Nv
open Spec PyFloat OddLaws

section
variable {α : Type} [PyFloat α] [MirrorLaws α] {axes : String} {R : M3 α}

/-- the signs that `mirrorEquator` changes -/
def signsNS (axes : String) : Bool × Bool × Bool := if axes = "e" then (false, false, true) else (true, false, false)

omit [MirrorLaws α] in
theorem mirrorEquator_eq (v : V3 α) : mirrorEquator axes v = flip3 (signsNS axes) v := by
  unfold mirrorEquator signsNS
  split_ifs <;> simp [flip3]

omit [MirrorLaws α] in
theorem mirrorMeridian_eq (v : V3 α) : mirrorMeridian v = flip3 (false, true, false) v := by
  simp [mirrorMeridian, flip3]

omit [MirrorLaws α] in
theorem axes_cases (h : E_rotation axes = .ok R) : (axes = "e" ∧ R = R_e) ∨ (axes = "E" ∧ R = R_E) := by
  unfold E_rotation at h
  split_ifs at h with h1 h2
  · left; exact ⟨h1, by simpa using h.symm⟩
  · right; exact ⟨h2, by simpa using h.symm⟩

theorem mirrors_NS (h : E_rotation axes = .ok R) : Mirrors R (signsNS axes) NSe := by
  rcases axes_cases h with ⟨rfl, rfl⟩ | ⟨rfl, rfl⟩
  · exact mirrors_Re _
  · exact mirrors_RE _

theorem mirrors_EW (h : E_rotation axes = .ok R) : Mirrors R (false, true, false) EWe := by
  rcases axes_cases h with ⟨rfl, rfl⟩ | ⟨rfl, rfl⟩
  · exact mirrors_Re _
  · exact mirrors_RE _

end

variable {B : Binary64} {axes : String} {R : M3 (F64 B)}

theorem axes_flt (h : E_rotation axes = .ok R) : ∃ Q : M3 ℝ, IsAxes Q ∧ R = Q.flt := by
  rcases axes_cases h with ⟨rfl, rfl⟩ | ⟨rfl, rfl⟩
  · exact ⟨_, Or.inl rfl, R_e_flt⟩
  · exact ⟨_, Or.inr rfl, R_E_flt⟩

/-- the n-vector of any latitude and longitude has a computed length that is not zero -/
theorem latlon_norm (hE : E_rotation axes = .ok R) (lat lon : F64 B) :
    eq (norm3 (mulVec R (lat_lon2n_E lat lon R))) (lit 0 : F64 B) = false := by
  obtain ⟨Q, hQ, rfl⟩ := axes_flt hE
  have bad : isfinite lat = false ∨ isfinite lon = false →
      eq (norm3 (mulVec Q.flt (lat_lon2n_E lat lon Q.flt))) (lit 0 : F64 B) = false := by
    rintro (h | h)
    · simp [lat_lon2n_E, mulVec, dot3, norm3, NanLaws.sin_not_finite _ h, NanLaws.cos_not_finite _ h]
    · simp [lat_lon2n_E, mulVec, dot3, norm3, NanLaws.sin_not_finite _ h, NanLaws.cos_not_finite _ h]
  cases lat with
  | fin lat =>
    cases lon with
    | fin lon =>
      obtain ⟨v, e, fv, -, hl, -⟩ := geo_normal_flt B hQ lat lon
      have hu : uu ≤ 1 / 100 := by unfold uu; norm_num
      obtain ⟨l1, l2⟩ := abs_le.mp hl
      change eq (norm3 (mulVec Q.flt (lat_lon2n_E (F64.fin lat : F64 B) (F64.fin lon) Q.flt))) (lit 0 : F64 B) = false
      rw [e, (mulVec_axes (B := B) hQ (fin64V_of_le fv (by
        have : (2 : ℝ) ≤ 10 ^ 60 := by norm_num
        linarith))).1]
      have hq := len_app hQ.rot v
      apply norm3_ne_zero
      · rw [hq]
        calc (2 : ℝ) ^ (-500 : ℤ) ≤ 2 ^ (-1 : ℤ) := zpow_le_zpow_right₀ (by norm_num) (by norm_num)
          _ ≤ len v := by norm_num; linarith
      · rw [hq]; exact le_pow500 (by linarith)
    | _ => exact bad (Or.inr rfl)
  | _ => exact bad (Or.inl rfl)

/-- the same for n-vectors of ordinary size -/
theorem finite_norm (hE : E_rotation axes = .ok R) {n : V3 ℝ} (hn : IsF64V n) (n1 : (2 : ℝ) ^ (-500 : ℤ) ≤ len n) (n2 : len n ≤ 10 ^ 60) :
    eq (norm3 (mulVec R n.flt)) (lit 0 : F64 B) = false := by
  obtain ⟨Q, hQ, rfl⟩ := axes_flt hE
  rw [(mulVec_axes (B := B) hQ (fin64V_of_le hn n2)).1]
  have e := len_app hQ.rot n
  exact norm3_ne_zero (by rw [e]; exact n1) (by rw [e]; exact n2.trans (calc (10 : ℝ) ^ 60 ≤ 2 ^ (200 : ℕ) := by norm_num
      _ ≤ 2 ^ (500 : ℕ) := pow_le_pow_right₀ (by norm_num) (by norm_num)))

variable (hB : SignSymmetric B) (hE : E_rotation axes = .ok R)
include hB hE

/-- **C120** the opposite latitude (longitude) has the n-vector mirrored in the equator (in the meridian of Greenwich) -/
theorem C120_lat_lon2n_E (lat lon : F64 B) :
    lat_lon2n_E (-lat) lon R = mirrorEquator axes (lat_lon2n_E lat lon R) ∧
    lat_lon2n_E lat (-lon) R = mirrorMeridian (lat_lon2n_E lat lon R) := by
  have := F64.mirrorLaws hB
  exact ⟨(latlon_NS (mirrors_NS hE) lat lon).trans (mirrorEquator_eq _).symm,
    (latlon_EW (mirrors_EW hE) lat lon).trans (mirrorMeridian_eq _).symm⟩

/-- **C120** positions: the mirrored n-vector at the same depth has the mirrored Cartesian position -/
theorem C120_position {n : V3 ℝ} (hn : IsF64V n) (n1 : (2 : ℝ) ^ (-500 : ℤ) ≤ len n) (n2 : len n ≤ 10 ^ 60) (depth a f : F64 B) :
    n_EB_E2p_EB_E (mirrorEquator axes n.flt) depth a f R = mirrorEquator axes (n_EB_E2p_EB_E n.flt depth a f R) ∧
    n_EB_E2p_EB_E (mirrorMeridian n.flt) depth a f R = mirrorMeridian (n_EB_E2p_EB_E n.flt depth a f R) := by
  have := F64.mirrorLaws hB
  have h := finite_norm hE hn n1 n2
  simp only [mirrorEquator_eq, mirrorMeridian_eq]
  exact ⟨n2p_flip (mirrors_NS hE) _ _ _ _ h, n2p_flip (mirrors_EW hE) _ _ _ _ h⟩

/-- **C120** geographic points, with any latitude, longitude and depth whatsoever -/
theorem C120_geo_to_ecef (F : FrameE (F64 B)) (hF : F.R_Ee = R) (lat lon z : F64 B) :
    (GeoPoint.to_ecef_vector ⟨-lat, lon, z, F⟩).pvector = mirrorEquator axes (GeoPoint.to_ecef_vector ⟨lat, lon, z, F⟩).pvector ∧
    (GeoPoint.to_ecef_vector ⟨lat, -lon, z, F⟩).pvector = mirrorMeridian (GeoPoint.to_ecef_vector ⟨lat, lon, z, F⟩).pvector := by
  have := F64.mirrorLaws hB
  have h := latlon_norm hE lat lon
  simp only [GeoPoint.to_ecef_vector, GeoPoint.to_nvector, Nvector.to_ecef_vector, hF, mirrorEquator_eq, mirrorMeridian_eq,
    latlon_NS (mirrors_NS hE), latlon_EW (mirrors_EW hE)]
  exact ⟨n2p_flip (mirrors_NS hE) _ _ _ _ h, n2p_flip (mirrors_EW hE) _ _ _ _ h⟩

/-- **C120** the vector between two mirrored points, in the local axes of the first: the north (east) component changes sign, the others
stay -/
theorem C120_delta_N (F : FrameE (F64 B)) (hF : F.R_Ee = R) (lat lon z lat' lon' z' : F64 B) :
    (delta_N (.geo ⟨-lat, lon, z, F⟩) (.geo ⟨-lat', lon', z', F⟩)).map (·.pvector) =
      ((delta_N (.geo ⟨lat, lon, z, F⟩) (.geo ⟨lat', lon', z', F⟩)).map fun d => ⟨-d.pvector.x, d.pvector.y, d.pvector.z⟩) ∧
    (delta_N (.geo ⟨lat, -lon, z, F⟩) (.geo ⟨lat', -lon', z', F⟩)).map (·.pvector) =
      ((delta_N (.geo ⟨lat, lon, z, F⟩) (.geo ⟨lat', lon', z', F⟩)).map fun d => ⟨d.pvector.x, -d.pvector.y, d.pvector.z⟩) := by
  have := F64.mirrorLaws hB
  have h := latlon_norm hE lat lon
  have h' := latlon_norm hE lat' lon'
  simp only [delta_N, delta_E, ECEFvector.sub, Position.to_ecef_vector, GeoPoint.to_ecef_vector, GeoPoint.to_nvector,
    Nvector.to_ecef_vector, ECEFvector.change_frame, FrameN, Position.to_nvector, LocalFrame.nvector, LocalFrame.R_EN, hF,
    latlon_NS (mirrors_NS hE), latlon_EW (mirrors_EW hE)]
  rw [n2p_flip (mirrors_NS hE) _ _ _ _ h, n2p_flip (mirrors_NS hE) _ _ _ _ h', n2p_flip (mirrors_EW hE) _ _ _ _ h,
    n2p_flip (mirrors_EW hE) _ _ _ _ h', sub3_flip, sub3_flip]
  cases hc : check_frames F F with
  | error e =>
    simp [hc, bind, Except.bind, Except.map]
  | ok u =>
    simp only [hc, bind, Except.bind, pure, Except.pure, Except.map, R_EN_NS (mirrors_NS hE) _ _ h, R_EN_EW (mirrors_EW hE) _ _ h]
    exact ⟨rfl, rfl⟩

omit hB in
theorem mulVec_y {n : V3 ℝ} (hn : IsF64V n) (n2 : len n ≤ 10 ^ 60) :
    ∃ v : V3 ℝ, mulVec R n.flt = v.flt ∧ IsF64V v ∧ len v = len n ∧ v.y = n.y := by
  obtain ⟨Q, hQ, rfl⟩ := axes_flt hE
  obtain ⟨e1, f1, f2, f3⟩ := mulVec_axes (B := B) hQ (fin64V_of_le hn n2)
  refine ⟨_, e1, ⟨f1.1, f2.1, f3.1⟩, len_app hQ.rot n, ?_⟩
  rcases hQ with rfl | rfl <;> simp [app, dot, Re, one]

/-- **C120** the mirrored n-vector has the opposite latitude and the same longitude, respectively the opposite longitude and the same
latitude (if its second component is zero it is its own mirror image in the meridian plane) -/
theorem C120_n_E2lat_lon {n : V3 ℝ} (hn : IsF64V n) (n1 : 1e-50 ≤ len n) (n2 : len n ≤ 10 ^ 25) :
    n_E2lat_lon (mirrorEquator axes n.flt) R = (-(n_E2lat_lon n.flt R).1, (n_E2lat_lon n.flt R).2) ∧
    (n.y ≠ 0 → n_E2lat_lon (mirrorMeridian n.flt) R = ((n_E2lat_lon n.flt R).1, -(n_E2lat_lon n.flt R).2)) := by
  have := F64.mirrorLaws hB
  obtain ⟨v, e, fv, hl, hy⟩ := mulVec_y hE hn (n2.trans (by norm_num))
  rw [mirrorEquator_eq, mirrorMeridian_eq]
  refine ⟨n2latlon_NS (mirrors_NS hE) _ ?_, fun h => n2latlon_EW (mirrors_EW hE) _ ?_⟩
  · rw [e]
    intro h0
    obtain ⟨x, y, z⟩ := v
    change eq (F64.fin x : F64 B) (lit 0) = true at h0
    rw [F64.lit_zero, F64.fin_eq] at h0
    obtain rfl : x = 0 := by simpa using h0
    change lt (lit 0) (sqrt (powNat (F64.fin y : F64 B) 2 + powNat (F64.fin z) 2)) = true
    have b : len (⟨0, y, z⟩ : V3 ℝ) ≤ 10 ^ 25 := by rw [hl]; exact n2
    have f60 : len (⟨0, y, z⟩ : V3 ℝ) ≤ 10 ^ 60 := b.trans (by norm_num)
    obtain ⟨-, fy, fz⟩ := fin64V_of_le fv f60
    rw [equatorial_flt B fy fz b, F64.lit_zero]
    have n0 : (2 : ℝ) ^ (-500 : ℤ) ≤ len (⟨0, y, z⟩ : V3 ℝ) := by
      rw [hl]
      refine le_trans ?_ n1
      calc (2 : ℝ) ^ (-500 : ℤ) ≤ 2 ^ (-200 : ℤ) := zpow_le_zpow_right₀ (by norm_num) (by norm_num)
        _ ≤ 1e-50 := by norm_num
    have l0 : 0 < len (⟨0, y, z⟩ : V3 ℝ) := lt_of_lt_of_le (by positivity) n0
    have hr := flNorm_rel B.rounds n0
    have hu1 : uu ≤ 1 / 10 ^ 10 := by unfold uu; norm_num
    have hul : uu * len (⟨0, y, z⟩ : V3 ℝ) ≤ 1 / 10 ^ 10 * len (⟨0, y, z⟩ : V3 ℝ) := mul_le_mul_of_nonneg_right hu1 l0.le
    have hNp : 0 < flNorm B.fl 0 y z := by
      dsimp only at hr
      linarith [(abs_le.mp hr).1]
    rw [F64.fin_lt]; simpa using hNp
  · rw [e]
    intro h0
    change eq (F64.fin v.y : F64 B) (lit 0) = true at h0
    rw [F64.lit_zero, F64.fin_eq, hy] at h0
    exact absurd (by simpa using h0) h

/-- **C120** positions outside the core: the mirrored position has the mirrored n-vector and the same depth -/
theorem C120_normal {a f : ℝ} (fa : IsF64 a) (a1 : 1 ≤ a) (a2 : a ≤ 1e10) (ff : IsF64 f)
    (f0 : 0 ≤ f) (f1 : f ≤ 0.01) {p : V3 ℝ} (hp : IsF64V p) (L1 : a / 2 ≤ len p) (L2 : len p ≤ 1000 * a) :
    let nd := p_EB_E2n_EB_E (p.flt : V3 (F64 B)) (F64.fin a) (F64.fin f) R
    p_EB_E2n_EB_E (mirrorEquator axes p.flt) (F64.fin a) (F64.fin f) R = (mirrorEquator axes nd.1, nd.2) ∧
    p_EB_E2n_EB_E (mirrorMeridian p.flt) (F64.fin a) (F64.fin f) R = (mirrorMeridian nd.1, nd.2) := by
  have := F64.mirrorLaws hB
  obtain ⟨Q, hQ, rfl⟩ := axes_flt hE
  have h : eq (norm3 (preUnit (p.flt : V3 (F64 B)) (F64.fin a) (F64.fin f) Q.flt)) (lit 0 : F64 B) = false := by
    obtain ⟨w, D, e1, e2⟩ := C119_antipode_normal_finite hB hQ fa a1 a2 ff f0 f1 hp L1 L2
    rw [flt_neg] at e2
    rcases Bool.eq_false_or_eq_true (eq (norm3 (preUnit (p.flt : V3 (F64 B)) (F64.fin a) (F64.fin f) Q.flt)) (lit 0 : F64 B)) with h | h
    · exfalso
      have hz : ∀ v v' : V3 (F64 B), eq (norm3 v) (lit 0 : F64 B) = true → eq (norm3 v') (lit 0 : F64 B) = true → unit v = unit v' := by
        intro v v' h h'
        simp only [unit, h, h', if_true]
      have e : preUnit (neg3 p.flt) (F64.fin a) (F64.fin f) Q.flt = flip3 (true, true, true) (preUnit p.flt (F64.fin a : F64 B) (F64.fin f) Q.flt) := by
        have hm : Mirrors (Q.flt : M3 (F64 B)) (true, true, true) (true, true, true) := by
          rcases axes_cases hE with ⟨-, h⟩ | ⟨-, h⟩ <;> rw [h]
          · exact mirrors_Re _
          · exact mirrors_RE _
        exact preUnit_flip hm p.flt _ _
      have k1 : (p_EB_E2n_EB_E (neg3 p.flt : V3 (F64 B)) (F64.fin a) (F64.fin f) Q.flt).1 =
          (p_EB_E2n_EB_E (p.flt : V3 (F64 B)) (F64.fin a) (F64.fin f) Q.flt).1 :=
        hz _ _ (by change eq (norm3 (preUnit (neg3 p.flt) (F64.fin a) (F64.fin f) Q.flt)) _ = true; rw [e, norm3_flip]; exact h) h
      rw [e1, e2] at k1
      have hw : -w = w := V3.flt_inj (B := B) k1
      obtain ⟨⟨n, d⟩, ⟨hn, hg, hd⟩, -⟩ := C76_exists_unique hQ a1 f0 f1 L1
      obtain ⟨w', D', e', -, -, h1, h2, h3, -⟩ := C76_p_EB_E2n_EB_E B hQ fa a1 a2 ff f0 f1 hp L1 L2 hn hg hd
      have : w' = w := V3.flt_inj (B := B) (congrArg Prod.fst (e'.symm.trans e1))
      subst this
      have z1 : w'.x = 0 := by have := congrArg V3.x hw; change -w'.x = w'.x at this; linarith
      have z2 : w'.y = 0 := by have := congrArg V3.y hw; change -w'.y = w'.y at this; linarith
      have z3 : w'.z = 0 := by have := congrArg V3.z hw; change -w'.z = w'.z at this; linarith
      rw [z1] at h1; rw [z2] at h2; rw [z3] at h3
      have bnd : ∀ {t : ℝ}, |0 - t| ≤ 3.7e-15 → t ^ 2 ≤ 1 / 100 := by
        intro t ht
        rw [zero_sub, abs_neg] at ht
        calc t ^ 2 = |t| ^ 2 := (sq_abs t).symm
          _ ≤ (1 / 10) ^ 2 := pow_le_pow_left₀ (abs_nonneg _) (ht.trans (by norm_num)) 2
          _ = 1 / 100 := by norm_num
      have b1 := bnd h1
      have b2 := bnd h2
      have b3 := bnd h3
      unfold UnitVec at hn
      linarith
    · exact h
  intro nd
  simp only [mirrorEquator_eq, mirrorMeridian_eq]
  exact ⟨Prod.ext (p2n_flip (mirrors_NS hE) _ _ _ h) (p2n_depth_flip (mirrors_NS hE) _ _ _),
    Prod.ext (p2n_flip (mirrors_EW hE) _ _ _ h) (p2n_depth_flip (mirrors_EW hE) _ _ _)⟩

/-- **C120** Cartesian positions to geographic points: the position mirrored in the equator has the opposite latitude, the one mirrored in
the meridian plane the opposite longitude (unless the second component of its n-vector is zero); everything else is the same -/
theorem C120_ecef_to_geo {a f : ℝ} (fa : IsF64 a) (a1 : 1 ≤ a) (a2 : a ≤ 1e10) (ff : IsF64 f)
    (f0 : 0 ≤ f) (f1 : f ≤ 0.01) {p : V3 ℝ} (hp : IsF64V p) (L1 : a / 2 ≤ len p) (L2 : len p ≤ 1000 * a) (nm : EllKey) :
    let F : FrameE (F64 B) := ⟨F64.fin a, F64.fin f, nm, R⟩
    let g := ECEFvector.to_geo_point ⟨p.flt, F⟩
    ECEFvector.to_geo_point ⟨mirrorEquator axes p.flt, F⟩ = ⟨-g.latitude, g.longitude, g.z, F⟩ ∧
    (eq (ECEFvector.to_nvector ⟨p.flt, F⟩).normal.y (lit 0) = false →
      ECEFvector.to_geo_point ⟨mirrorMeridian p.flt, F⟩ = ⟨g.latitude, -g.longitude, g.z, F⟩) := by
  intro F g
  obtain ⟨k1, k2⟩ := C120_normal hB hE fa a1 a2 ff f0 f1 hp L1 L2
  obtain ⟨Q, hQ, hRQ⟩ := axes_flt hE
  obtain ⟨⟨n, d⟩, ⟨hn, hg, hd⟩, -⟩ := C76_exists_unique hQ a1 f0 f1 L1
  obtain ⟨w, D, e, fw, -, h1, h2, h3, -⟩ := C76_p_EB_E2n_EB_E B hQ fa a1 a2 ff f0 f1 hp L1 L2 hn hg hd
  rw [← hRQ] at e
  have c1 : CloseV w n 3.7e-15 := ⟨h1, h2, h3⟩
  have c2 : CloseV n w 3.7e-15 := ⟨by rw [abs_sub_comm]; exact h1, by rw [abs_sub_comm]; exact h2, by rw [abs_sub_comm]; exact h3⟩
  have l2 := c1.len_le'
  have l1 := c2.len_le'
  rw [hn.len] at l1 l2
  have hn1 : (1e-50 : ℝ) ≤ len w := by norm_num at l1 ⊢; linarith
  have hn2 : len w ≤ 10 ^ 25 := by norm_num at l2 ⊢; linarith
  obtain ⟨m1, m2⟩ := C120_n_E2lat_lon hB hE fw hn1 hn2
  rw [e] at k1 k2
  simp only at k1 k2
  have e1 : ∀ q : V3 (F64 B), ECEFvector.to_geo_point ⟨q, F⟩ =
      (let nd := p_EB_E2n_EB_E q (F64.fin a) (F64.fin f) R
       let ll := n_E2lat_lon nd.1 R
       ⟨ll.1, ll.2, nd.2, F⟩) := fun q => rfl
  have e2 : ∀ q : V3 (F64 B), (ECEFvector.to_nvector ⟨q, F⟩).normal = (p_EB_E2n_EB_E q (F64.fin a) (F64.fin f) R).1 := fun q => rfl
  have hgd : g = ⟨(n_E2lat_lon w.flt R).1, (n_E2lat_lon w.flt R).2, F64.fin D, F⟩ := by
    change ECEFvector.to_geo_point ⟨p.flt, F⟩ = _
    rw [e1, e]
  rw [hgd]
  refine ⟨by rw [e1, k1]; simp only [m1], fun hy => ?_⟩
  rw [e2, e] at hy
  change eq (F64.fin w.y : F64 B) (lit 0) = false at hy
  rw [F64.lit_zero, F64.fin_eq] at hy
  have := m2 (by simpa using hy)
  rw [e1, k2]; simp only [this]

/-- **C120** the azimuth between positions mirrored in the meridian plane is the opposite one; due north and due south (a computed east
component of exactly zero) it is the same one -/
theorem C120_azimuth {n m : V3 ℝ} (hn : IsF64V n) (n1 : (2 : ℝ) ^ (-500 : ℤ) ≤ len n) (n2 : len n ≤ 10 ^ 60)
    (hm : IsF64V m) (m1 : (2 : ℝ) ^ (-500 : ℤ) ≤ len m) (m2 : len m ≤ 10 ^ 60) (a f : F64 B) :
    let az := n_EA_E_and_n_EB_E2azimuth n.flt m.flt a f R
    let az' := n_EA_E_and_n_EB_E2azimuth (mirrorMeridian n.flt) (mirrorMeridian m.flt) a f R
    az' = -az ∨ (az' = az ∧ ∃ x, az = arctan2 (lit 0) x) := by
  have := F64.mirrorLaws hB
  have h := finite_norm hE hn n1 n2
  have h' := finite_norm hE hm m1 m2
  intro az az'
  simp only [az, az', mirrorMeridian_eq, n_EA_E_and_n_EB_E2azimuth, n_EA_E_and_n_EB_E2p_AB_E]
  rw [n2p_flip (mirrors_EW hE) _ _ _ _ h, n2p_flip (mirrors_EW hE) _ _ _ _ h', sub3_flip, R_EN_EW (mirrors_EW hE) _ _ h]
  generalize mulVec (tr (n_E2R_EN n.flt R)) _ = q
  simp only [flip3, if_true, Bool.false_eq_true, if_false]
  rcases Bool.eq_false_or_eq_true (eq q.y (lit 0 : F64 B)) with h0 | h0
  · right
    have hy : q.y = lit 0 := by
      rw [F64.lit_zero] at h0 ⊢
      change XR.eq q.y (XR.fin 0) = true at h0
      revert h0
      cases q.y with
      | fin y => intro h0; exact congrArg XR.fin (by simpa [XR.eq] using h0)
      | _ => intro h0; simp [XR.eq] at h0
    rw [hy, MirrorLaws.o_zero]
    exact ⟨rfl, _, rfl⟩
  · left
    exact MirrorLaws.o_arctan2 _ _ (fun h1 => absurd h1 (by rw [h0]; simp))

end Nv
