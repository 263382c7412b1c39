import Verif.Float.Direct
import Verif.Props.FloatDistance
import Verif.Props.FloatGeo
import Verif.Props.FloatPolar

/-!
# C98: track distances of a `GeoPath` in binary64

The path is given by two `GeoPoint`s; the exact radius is the average distance of the two exact points from the centre of the ellipsoid.
-/

namespace Nv
open Spec F64
variable (B : Binary64)
variable {a f : ℝ} {R : M3 ℝ}

/-- the `GeoPoint` object with the given latitude, longitude (radians) and depth -/
noncomputable def Geo64 (a f : ℝ) (R : M3 ℝ) (nm : EllKey) (lat lon z : ℝ) : GeoPoint (F64 B) :=
  GeoPoint.new (F64.fin lat) (F64.fin lon) (F64.fin z) (Frame64 B a f R nm)

/-- the exact n-vector of a latitude and a longitude -/
noncomputable def Spec.normalOf (R : M3 ℝ) (lat lon : ℝ) : V3 ℝ := app (transp R) (geoNormal lat lon)

theorem normalOf_unit (hR : IsAxes R) (lat lon : ℝ) : UnitVec (normalOf R lat lon) := unitVec_app hR.rot.transpose (geoNormal_isUnit lat lon)

/-- the computed n-vectors of two positions are at nearly the exact angle -/
theorem geo_normals_flt (hR : IsAxes R) (latA lonA latB lonB : ℝ) :
    ∃ v w : V3 ℝ, lat_lon2n_E (F64.fin latA : F64 B) (F64.fin lonA) R.flt = v.flt ∧ lat_lon2n_E (F64.fin latB : F64 B) (F64.fin lonB) R.flt = w.flt ∧
      IsF64V v ∧ IsF64V w ∧ |len v - 1| ≤ 9.02 * uu ∧ |len w - 1| ≤ 9.02 * uu ∧
      len (v - normalOf R latA lonA) ≤ 3.1e-15 ∧ len (w - normalOf R latB lonB) ≤ 3.1e-15 ∧
      |angle v w - angle (normalOf R latA lonA) (normalOf R latB lonB)| ≤ 4.1e-15 := by
  obtain ⟨v, hv, fv, v0, lv, dv⟩ := geo_normal_flt B hR latA lonA
  obtain ⟨w, hw, fw, w0, lw, dw⟩ := geo_normal_flt B hR latB lonB
  have uA := normalOf_unit hR latA lonA
  have uB := normalOf_unit hR latB lonB
  have k : 18.04 * uu ≤ 1e-3 := by unfold uu; norm_num
  have key : ∀ {x m : V3 ℝ}, x ≠ 0 → |len x - 1| ≤ 9.02 * uu → len (dirOf x - m) ≤ 18.04 * uu → len (x - m) ≤ 3.1e-15 := by
    intro x m x0 lx dx
    have h1 := len_add_le (x - dirOf x) (dirOf x - m)
    rw [show x - dirOf x + (dirOf x - m) = x - m by ext <;> simp] at h1
    have h2 : len (x - dirOf x) = |len x - 1| := by
      have e : x - dirOf x = (len x - 1) • dirOf x := by
        have e := smul_dirOf x
        have ex := congrArg V3.x e; have ey := congrArg V3.y e; have ez := congrArg V3.z e
        simp at ex ey ez
        ext <;> simp <;> linarith
      rw [e, len_smul, (dirOf_unit x0).len, mul_one]
    have h3 : 9.02 * uu + 18.04 * uu ≤ 3.1e-15 := by unfold uu; norm_num
    linarith
  refine ⟨v, w, hv, hw, fv, fw, lv, lw, key v0 lv dv, key w0 lw dw, ?_⟩
  have a1 := (angle_le_of_len uA dv k).2
  have a2 := (angle_le_of_len uB dw k).2
  have uv := dirOf_unit v0
  have uw := dirOf_unit w0
  rw [← angle_dirOf_left v0, ← angle_dirOf_right w0]
  have t1 := angle_triangle uv uA uw
  have t2 := angle_triangle uA uB uw
  have t3 := angle_triangle uA uv uB
  have t4 := angle_triangle uv uw uB
  rw [angle_comm] at a2
  rw [angle_comm (normalOf R latA lonA) (dirOf v)] at t3
  rw [angle_comm (dirOf w) (normalOf R latB lonB)] at t4
  have h3 : 1.002 * (18.04 * uu) + 1.002 * (18.04 * uu) ≤ 4.1e-15 := by unfold uu; norm_num
  rw [abs_le]; unfold normalOf at *; constructor <;> linarith

/-- the distance from the centre of a computed ECEF vector -/
theorem ecef_length_flt (hR : IsAxes R) (fa : IsF64 a) (a1 : 1 ≤ a) (a2 : a ≤ 1e10) (ff : IsF64 f) (f0 : 0 ≤ f) (f1 : f ≤ 0.01)
    (nm : EllKey) (lat lon : ℝ) {z : ℝ} (fz : IsF64 z) (hz : |z| ≤ 1e15) {p : V3 ℝ} (hp : Geodetic a f R (normalOf R lat lon) z p) :
    App (length (Geo64 B a f R nm lat lon z).to_ecef_vector.pvector) (len p) (9.1e-15 * a + 5.5e-15 * |z|) ∧ len p ≤ a + |z| := by
  have ha : 0 < a := by linarith
  have hz0 := abs_nonneg z
  have hf : f < 1 := by norm_num at f1; linarith
  obtain ⟨P, h1, fP, cP⟩ := C90_to_ecef_vector B hR fa a1 a2 ff f0 f1 nm lat lon fz (hz.trans (by norm_num)) hp
  have lp : len p ≤ a + |z| := by
    obtain ⟨n0, hp'⟩ := hp.eq ha hf hR.rot
    rw [hp', len_app hR.rot.transpose]
    exact posE_len_le ha f0 hf (unitVec_app hR.rot (dirOf_unit n0))
  have hl : |len P - len p| ≤ 1.7321 * (4.9e-15 * a + 2.8e-15 * |z|) := by
    have h : len (P - p) ≤ 1.7321 * (4.9e-15 * a + 2.8e-15 * |z|) := len_le_of_comp cP.1 cP.2.1 cP.2.2
    have t1 := len_add_le (P - p) p
    rw [show P - p + p = P by ext <;> simp] at t1
    have t2 := len_add_le P ((-1 : ℝ) • (P - p))
    rw [show P + (-1 : ℝ) • (P - p) = p by ext <;> simp, len_smul, abs_neg, abs_one, one_mul] at t2
    rw [abs_le]; constructor <;> linarith
  obtain ⟨l1, l2⟩ := abs_le.mp hl
  have hP : len P ≤ 1.001 * (a + |z|) := by norm_num at l1 l2 ⊢; linarith
  obtain ⟨L, e1, fL, L0, hL⟩ := C88_length B (p := P) (hP.trans (by norm_num at hz a2 ⊢; linarith))
  refine ⟨⟨L, ?_, fL, ?_⟩, lp⟩
  · rw [← e1]; unfold Geo64; rw [h1]
  · have t := abs_add_le (L - len P) (len P - len p)
    rw [show L - len P + (len P - len p) = L - len p by ring] at t
    have k : (1 : ℝ) / 10 ^ 75 ≤ 1e-20 * a := by
      have : (1 : ℝ) / 10 ^ 75 ≤ 1e-20 * 1 := by norm_num
      exact this.trans (mul_le_mul_of_nonneg_left a1 (by norm_num))
    generalize (1 : ℝ) / 10 ^ 75 = τ at *
    have k2 := mul_le_mul_of_nonneg_left hP (show (0 : ℝ) ≤ 4.5e-16 by norm_num)
    norm_num at k k2 hl hL ⊢
    linarith

/-- half a sum in binary64 -/
theorem half_sum_flt {X Y : F64 B} {x y e S : ℝ} (hX : App X x e) (hY : App Y y e) (x0 : 0 ≤ x) (y0 : 0 ≤ y) (hS : x + y ≤ 2 * S) (S1 : 1 ≤ S)
    (S2 : S ≤ 1e20) (he : e ≤ S) : App ((X + Y) / lit 2) ((x + y) / 2) (1.01 * e + 3.5 * uu * S) ∧ App (lit 0.5 * (X + Y)) ((x + y) / 2) (1.01 * e + 3.5 * uu * S) := by
  have e0 := hX.nonneg_err
  have hu := uu_pos
  have hu1 : uu ≤ 1e-4 := by unfold uu; norm_num
  have hτ : (1 : ℝ) / 10 ^ 60 ≤ 1e-3 * (uu * S) := by
    have h1 : (1 : ℝ) / 10 ^ 60 ≤ 1e-3 * (uu * 1) := by unfold uu; norm_num
    exact h1.trans (by gcongr)
  have ue : uu * e ≤ 1e-4 * e := mul_le_mul_of_nonneg_right hu1 e0
  have ue' : uu * (uu * e) ≤ 1e-4 * (uu * e) := mul_le_mul_of_nonneg_right hu1 (by positivity)
  have uS : uu * (uu * S) ≤ 1e-4 * (uu * S) := mul_le_mul_of_nonneg_right hu1 (by positivity)
  have hs0 : 0 ≤ uu * S := by positivity
  have hs : App (X + Y) (x + y) (2.001 * e + 2.01 * uu * S) := by
    refine hX.add hY (b := 2 * S) (by rw [abs_of_nonneg (by linarith)]; exact hS) ?_ ?_
    · generalize (1 : ℝ) / 10 ^ 60 = τ at *
      rw [mul_add, mul_add]
      norm_num at ue hτ ⊢
      linarith
    · norm_num at S2 ⊢; linarith
  have h2 : App (lit 2 : F64 B) 2 0 := by rw [lit_two]; exact App.exact isF64_two
  have h5 : App (lit 0.5 : F64 B) (1 / 2) 0 := by
    have hf : IsF64 ((0.5 : ℚ) : ℝ) := by
      have := isF64_two_zpow (k := -1) (by norm_num)
      rw [show ((0.5 : ℚ) : ℝ) = 2 ^ (-1 : ℤ) by norm_num]
      exact this
    refine ⟨_, fin_lit (by norm_num), B.rounds.val _, ?_⟩
    rw [B.rounds.exact hf]; norm_num
  have hb : |(x + y) / 2| ≤ S := by rw [abs_of_nonneg (by linarith)]; linarith
  constructor
  · refine hs.div h2 (m := 2) (b := S) (by norm_num) (by norm_num) hb ?_ ?_
    · generalize (1 : ℝ) / 10 ^ 60 = τ at *
      rw [mul_add, mul_zero, add_zero, sub_zero]
      have : uu * ((2.001 * e + 2.01 * uu * S) / 2) ≤ 1.001 * (uu * e) + 1.01 * (uu * (uu * S)) := by
        have : uu * ((2.001 * e + 2.01 * uu * S) / 2) = 1.0005 * (uu * e) + 1.005 * (uu * (uu * S)) := by ring
        rw [this]
        have : 0 ≤ uu * e := by positivity
        have : 0 ≤ uu * (uu * S) := by positivity
        norm_num; linarith
      norm_num at ue uS hτ this ⊢
      linarith
    · rw [mul_zero, add_zero, sub_zero]
      have : uu * S ≤ 1e-4 * S := mul_le_mul_of_nonneg_right hu1 (by linarith)
      norm_num at this S2 ⊢; linarith
  · rw [show (x + y) / 2 = 1 / 2 * (x + y) by ring] at hb ⊢
    refine h5.mul hs (bx := 1 / 2) (bY := 2 * S) (b := S) (by norm_num) (by rw [abs_of_nonneg (by linarith)]; exact hS) hb ?_ ?_
    · generalize (1 : ℝ) / 10 ^ 60 = τ at *
      simp only [mul_zero, zero_mul, add_zero]
      rw [mul_add]
      have : uu * (1 / 2 * (2.001 * e + 2.01 * uu * S)) ≤ 1.001 * (uu * e) + 1.01 * (uu * (uu * S)) := by
        have : uu * (1 / 2 * (2.001 * e + 2.01 * uu * S)) = 1.0005 * (uu * e) + 1.005 * (uu * (uu * S)) := by ring
        rw [this]
        have : 0 ≤ uu * e := by positivity
        have : 0 ≤ uu * (uu * S) := by positivity
        norm_num; linarith
      norm_num at ue uS hτ this ⊢
      linarith
    · simp only [mul_zero, zero_mul, add_zero]
      have : uu * S ≤ 1e-4 * S := mul_le_mul_of_nonneg_right hu1 (by linarith)
      norm_num at this S2 ⊢; linarith

/-- the radius the code uses for a path: the average of the distances from the centre -/
theorem radius_flt (hR : IsAxes R) (fa : IsF64 a) (a1 : 1 ≤ a) (a2 : a ≤ 1e10) (ff : IsF64 f) (f0 : 0 ≤ f) (f1 : f ≤ 0.01)
    (nmA nmB : EllKey) (latA lonA latB lonB : ℝ) {zA zB : ℝ} (fA : IsF64 zA) (fB : IsF64 zB) (hA : |zA| ≤ 1e15) (hB : |zB| ≤ 1e15)
    (dA : zA ≤ 0.4 * a) (dB : zB ≤ 0.4 * a) {pA pB : V3 ℝ} (gA : Geodetic a f R (normalOf R latA lonA) zA pA)
    (gB : Geodetic a f R (normalOf R latB lonB) zB pB) :
    (∃ r : ℝ, (length (Geo64 B a f R nmA latA lonA zA).to_ecef_vector.pvector + length (Geo64 B a f R nmB latB lonB zB).to_ecef_vector.pvector) / lit 2 =
      F64.fin r ∧ IsF64 r ∧ |r - (len pA + len pB) / 2| ≤ 9.7e-15 * (a + |zA| + |zB|) ∧ 1e-20 ≤ r ∧ r ≤ 1e20 ∧ r ≤ 1.0001 * (a + |zA| + |zB|)) ∧
    (∃ r : ℝ, lit 0.5 * (length (Geo64 B a f R nmA latA lonA zA).to_ecef_vector.pvector + length (Geo64 B a f R nmB latB lonB zB).to_ecef_vector.pvector) =
      F64.fin r ∧ IsF64 r ∧ |r - (len pA + len pB) / 2| ≤ 9.7e-15 * (a + |zA| + |zB|) ∧ 1e-20 ≤ r ∧ r ≤ 1e20 ∧ r ≤ 1.0001 * (a + |zA| + |zB|)) := by
  have ha : 0 < a := by linarith
  have hf : f < 1 := by norm_num at f1; linarith
  have zA0 := abs_nonneg zA
  have zB0 := abs_nonneg zB
  obtain ⟨LA, lA⟩ := ecef_length_flt B hR fa a1 a2 ff f0 f1 nmA latA lonA fA hA gA
  obtain ⟨LB, lB⟩ := ecef_length_flt B hR fa a1 a2 ff f0 f1 nmB latB lonB fB hB gB
  have low : ∀ {lat lon z : ℝ} {p : V3 ℝ}, z ≤ 0.4 * a → Geodetic a f R (normalOf R lat lon) z p → 0.5 * a ≤ len p := by
    intro lat lon z p hz g
    obtain ⟨n0, hp'⟩ := g.eq ha hf hR.rot
    rw [hp', len_app hR.rot.transpose]
    have := posE_len_ge (d := z) ha f0 hf (unitVec_app hR.rot (dirOf_unit n0))
    have h2 := mul_le_mul_of_nonneg_left f1 ha.le
    norm_num at h2 hz ⊢
    linarith
  have wA := low dA gA
  have wB := low dB gB
  obtain ⟨S, hS⟩ : ∃ S, S = a + |zA| + |zB| := ⟨_, rfl⟩
  have pA0 := len_nonneg' pA
  have pB0 := len_nonneg' pB
  have hu : 3.5 * uu ≤ 4e-16 := by unfold uu; norm_num
  have S0 : 0 ≤ S := by rw [hS]; positivity
  obtain ⟨H1, H2⟩ := half_sum_flt B (S := S) (e := 9.1e-15 * S) (LA.mono (by rw [hS]; norm_num; linarith)) (LB.mono (by rw [hS]; norm_num; linarith)) pA0 pB0
    (by rw [hS]; linarith) (by rw [hS]; linarith) (by rw [hS]; norm_num at hA hB a2 ⊢; linarith) (by norm_num; linarith)
  rw [← hS]
  have uS := mul_le_mul_of_nonneg_right hu S0
  have fin : ∀ r : ℝ, |r - (len pA + len pB) / 2| ≤ 1.01 * (9.1e-15 * S) + 3.5 * uu * S →
      |r - (len pA + len pB) / 2| ≤ 9.7e-15 * S ∧ 1e-20 ≤ r ∧ r ≤ 1e20 ∧ r ≤ 1.0001 * S := by
    intro r hr
    have h1 : |r - (len pA + len pB) / 2| ≤ 9.7e-15 * S := by norm_num at hr uS ⊢; linarith
    obtain ⟨h2, h3⟩ := abs_le.mp h1
    have h4 : S ≤ 1e16 := by rw [hS]; norm_num at hA hB a2 ⊢; linarith
    have h6 : (len pA + len pB) / 2 ≤ S := by rw [hS]; linarith
    have h5 : r ≤ 1.0001 * S := by norm_num at h3 ⊢; linarith
    refine ⟨h1, ?_, ?_, h5⟩
    · by_contra hlt
      push Not at hlt
      -- the point is at least half the semi-major axis away, more than the error
      have k1 : |zA| ≤ 4 * len pA := by
        obtain ⟨n0, hp'⟩ := gA.eq ha hf hR.rot
        have g1 := posE_len_ge (d := zA) ha f0 hf (unitVec_app hR.rot (dirOf_unit n0))
        rw [← len_app hR.rot.transpose, ← hp'] at g1
        have f2 := mul_le_mul_of_nonneg_left f1 ha.le
        rcases abs_cases zA with ⟨e, -⟩ | ⟨e, -⟩ <;> rw [e] <;> norm_num at f2 dA wA ⊢ <;> linarith
      have k2 : |zB| ≤ 4 * len pB := by
        obtain ⟨n0, hp'⟩ := gB.eq ha hf hR.rot
        have g1 := posE_len_ge (d := zB) ha f0 hf (unitVec_app hR.rot (dirOf_unit n0))
        rw [← len_app hR.rot.transpose, ← hp'] at g1
        have f2 := mul_le_mul_of_nonneg_left f1 ha.le
        rcases abs_cases zB with ⟨e, -⟩ | ⟨e, -⟩ <;> rw [e] <;> norm_num at f2 dB wB ⊢ <;> linarith
      norm_num at hlt h2 wA wB
      linarith
    · norm_num at h4 h5 ⊢; linarith
  constructor
  · obtain ⟨r, e, fr, hr⟩ := H1
    obtain ⟨b1, b2, b3, b4⟩ := fin r hr
    exact ⟨r, e, fr, b1, b2, b3, b4⟩
  · obtain ⟨r, e, fr, hr⟩ := H2
    obtain ⟨b1, b2, b3, b4⟩ := fin r hr
    exact ⟨r, e, fr, b1, b2, b3, b4⟩

/-- the method names that select each formula -/
theorem take_gc : strTake "greatcircle" 2 = "gr" := by decide
theorem take_eu : strTake "euclidean" 2 = "eu" := by decide

/-- great circle distance between two geographic points with a given radius -/
theorem gc_points_flt (hR : IsAxes R) (latA lonA latB lonB : ℝ) {r : ℝ} (fr : IsF64 r) (r1 : 1e-20 ≤ r) (r2 : r ≤ 1e20) :
    ∃ d : ℝ, great_circle_distance (lat_lon2n_E (F64.fin latA : F64 B) (F64.fin lonA) R.flt) (lat_lon2n_E (F64.fin latB : F64 B) (F64.fin lonB) R.flt)
      (F64.fin r) = F64.fin d ∧ |d - angle (normalOf R latA lonA) (normalOf R latB lonB) * r| ≤ 1.02e-14 * r := by
  obtain ⟨v, w, hv, hw, fv, fw, lv, lw, -, -, ha⟩ := geo_normals_flt B hR latA lonA latB lonB
  obtain ⟨v1, v2⟩ := abs_le.mp lv
  obtain ⟨w1, w2⟩ := abs_le.mp lw
  have hu : 9.02 * uu ≤ 0.1 := by unfold uu; norm_num
  have r0 : 0 ≤ r := le_trans (by norm_num) r1
  obtain ⟨d, h1, h2⟩ := C72_great_circle_distance B fv fw (by norm_num at hu ⊢; linarith) (by norm_num at hu ⊢; linarith)
    (by norm_num at hu ⊢; linarith) (by norm_num at hu ⊢; linarith) fr r1 r2
  refine ⟨d, by rw [hv, hw, h1], ?_⟩
  have h3 : |angle v w * r - angle (normalOf R latA lonA) (normalOf R latB lonB) * r| ≤ 4.1e-15 * r := by
    rw [← sub_mul, abs_mul, abs_of_nonneg r0]
    exact mul_le_mul_of_nonneg_right ha r0
  have t := abs_add_le (d - angle v w * r) (angle v w * r - angle (normalOf R latA lonA) (normalOf R latB lonB) * r)
  rw [sub_add_sub_cancel] at t
  norm_num at h2 h3 ⊢
  linarith

/-- Euclidean distance between two geographic points with a given radius -/
theorem eu_points_flt (hR : IsAxes R) (latA lonA latB lonB : ℝ) {r : ℝ} (fr : IsF64 r) (r1 : 1e-20 ≤ r) (r2 : r ≤ 1e20) :
    ∃ d : ℝ, euclidean_distance (lat_lon2n_E (F64.fin latA : F64 B) (F64.fin lonA) R.flt) (lat_lon2n_E (F64.fin latB : F64 B) (F64.fin lonB) R.flt)
      (F64.fin r) = F64.fin d ∧ |d - len (normalOf R latB lonB - normalOf R latA lonA) * r| ≤ 8e-15 * r := by
  obtain ⟨v, w, hv, hw, fv, fw, lv, lw, cv, cw, -⟩ := geo_normals_flt B hR latA lonA latB lonB
  obtain ⟨v1, v2⟩ := abs_le.mp lv
  obtain ⟨w1, w2⟩ := abs_le.mp lw
  have hu : 9.02 * uu ≤ 1e-3 := by unfold uu; norm_num
  have r0 : 0 ≤ r := le_trans (by norm_num) r1
  obtain ⟨d, h1, h2⟩ := C73_euclidean_distance B (v := v) (w := w) (by norm_num at hu ⊢; linarith) (by norm_num at hu ⊢; linarith) fr r0 r2
  refine ⟨d, by rw [hv, hw, h1], ?_⟩
  generalize normalOf R latA lonA = A at *
  generalize normalOf R latB lonB = C at *
  have h4 : |len (w - v) - len (C - A)| ≤ 6.2e-15 := by
    have t1 := len_add_le (w - v) ((C - A) - (w - v))
    have t2 := len_add_le (C - A) ((w - v) - (C - A))
    rw [show w - v + ((C - A) - (w - v)) = C - A by ext <;> simp] at t1
    rw [show C - A + ((w - v) - (C - A)) = w - v by ext <;> simp] at t2
    have e1 : (w - v) - (C - A) = (w - C) + (-1 : ℝ) • (v - A) := by ext <;> simp <;> ring
    have e2 : (C - A) - (w - v) = (v - A) + (-1 : ℝ) • (w - C) := by ext <;> simp <;> ring
    have t3 := len_add_le (w - C) ((-1 : ℝ) • (v - A))
    have t4 := len_add_le (v - A) ((-1 : ℝ) • (w - C))
    rw [← e1, len_smul, abs_neg, abs_one, one_mul] at t3
    rw [← e2, len_smul, abs_neg, abs_one, one_mul] at t4
    norm_num at cv cw ⊢
    rw [abs_le]; constructor <;> linarith
  have h5 : len (w - v) ≤ 2.01 := by
    have t := len_add_le w ((-1 : ℝ) • v)
    rw [show w + (-1 : ℝ) • v = w - v by ext <;> simp <;> ring, len_smul, abs_neg, abs_one, one_mul] at t
    norm_num at hu ⊢; linarith
  have h3 : |len (w - v) * r - len (C - A) * r| ≤ 6.2e-15 * r := by
    rw [← sub_mul, abs_mul, abs_of_nonneg r0]
    exact mul_le_mul_of_nonneg_right h4 r0
  have h6 := mul_le_mul_of_nonneg_right h5 r0
  have h7 : (1e-50 : ℝ) ≤ 1e-20 * r := by
    have := mul_le_mul_of_nonneg_left r1 (show (0 : ℝ) ≤ 1e-20 by norm_num)
    refine le_trans ?_ this; norm_num
  generalize (1e-50 : ℝ) = τ at *
  have t := abs_add_le (d - len (w - v) * r) (len (w - v) * r - len (C - A) * r)
  rw [sub_add_sub_cancel] at t
  norm_num at h2 h3 h6 h7 ⊢
  linarith

/-- replacing the radius -/
theorem radius_swap {d t r r' c e S : ℝ} (ht0 : 0 ≤ t) (ht : t ≤ 3.15) (h : |d - t * r| ≤ c * r) (hr : |r - r'| ≤ 9.7e-15 * S) (hrS : r ≤ 1.0001 * S)
    (c0 : 0 ≤ c) (S0 : 0 ≤ S) (he : 1.0001 * c + 3.06e-14 ≤ e) : |d - t * r'| ≤ e * S := by
  have h1 : |t * r - t * r'| ≤ 3.15 * (9.7e-15 * S) := by
    rw [← mul_sub, abs_mul, abs_of_nonneg ht0]
    exact mul_le_mul ht hr (abs_nonneg _) (by norm_num)
  have h2 := mul_le_mul_of_nonneg_left hrS c0
  have h3 := mul_le_mul_of_nonneg_right he S0
  have t := abs_add_le (d - t * r) (t * r - t * r')
  rw [sub_add_sub_cancel] at t
  norm_num at h1 h2 h3 ⊢
  linarith

section
variable (G : Geodesic (F64 B)) (hR : IsAxes R) (nmA nmB : EllKey) (latA lonA latB lonB : ℝ) {zA zB : ℝ}
include hR

/-- the path between two geographic points -/
noncomputable def Path64 (a f : ℝ) (R : M3 ℝ) (nmA nmB : EllKey) (latA lonA zA latB lonB zB : ℝ) : GeoPath (F64 B) :=
  ⟨.geo (Geo64 B a f R nmA latA lonA zA), .geo (Geo64 B a f R nmB latB lonB zB)⟩

/-- **C98** great circle track distance with a given radius -/
theorem C98_greatcircle_radius {r : ℝ} (fr : IsF64 r) (r1 : 1e-20 ≤ r) (r2 : r ≤ 1e20) :
    ∃ d : ℝ, (Path64 B a f R nmA nmB latA lonA zA latB lonB zB).track_distance G "greatcircle" (some (F64.fin r)) = .ok (F64.fin d) ∧
      |d - angle (normalOf R latA lonA) (normalOf R latB lonB) * r| ≤ 1.02e-14 * r := by
  obtain ⟨d, h1, h2⟩ := gc_points_flt B hR latA lonA latB lonB fr r1 r2
  refine ⟨d, ?_, h2⟩
  unfold GeoPath.track_distance
  rw [take_gc, if_neg (by decide), if_neg (by decide)]
  exact congrArg Except.ok h1

/-- **C98** Euclidean track distance with a given radius -/
theorem C98_euclidean_radius {r : ℝ} (fr : IsF64 r) (r1 : 1e-20 ≤ r) (r2 : r ≤ 1e20) :
    ∃ d : ℝ, (Path64 B a f R nmA nmB latA lonA zA latB lonB zB).track_distance G "euclidean" (some (F64.fin r)) = .ok (F64.fin d) ∧
      |d - len (normalOf R latB lonB - normalOf R latA lonA) * r| ≤ 8e-15 * r := by
  obtain ⟨d, h1, h2⟩ := eu_points_flt B hR latA lonA latB lonB fr r1 r2
  refine ⟨d, ?_, h2⟩
  unfold GeoPath.track_distance
  rw [take_eu, if_neg (by decide), if_pos rfl]
  exact congrArg Except.ok h1

variable (fa : IsF64 a) (a1 : 1 ≤ a) (a2 : a ≤ 1e10) (ff : IsF64 f) (f0 : 0 ≤ f) (f1 : f ≤ 0.01)
  (fA : IsF64 zA) (fB : IsF64 zB) (hA : |zA| ≤ 1e15) (hB : |zB| ≤ 1e15) (dA : zA ≤ 0.4 * a) (dB : zB ≤ 0.4 * a) {pA pB : V3 ℝ}
  (gA : Geodetic a f R (normalOf R latA lonA) zA pA) (gB : Geodetic a f R (normalOf R latB lonB) zB pB)
include fa a1 a2 ff f0 f1 fA fB hA hB dA dB gA gB

/-- **C98** great circle track distance with the default radius: the angle between the exact normals times the average distance of the exact points
from the centre, within `4.1e-14 (a + |zA| + |zB|)` (0.3 micrometres on Earth) -/
theorem C98_greatcircle :
    ∃ d : ℝ, (Path64 B a f R nmA nmB latA lonA zA latB lonB zB).track_distance G = .ok (F64.fin d) ∧
      |d - angle (normalOf R latA lonA) (normalOf R latB lonB) * ((len pA + len pB) / 2)| ≤ 4.1e-14 * (a + |zA| + |zB|) := by
  obtain ⟨⟨r, e, fr, b1, b2, b3, b4⟩, -⟩ := radius_flt B hR fa a1 a2 ff f0 f1 nmA nmB latA lonA latB lonB fA fB hA hB dA dB gA gB
  obtain ⟨d, h1, h2⟩ := gc_points_flt B hR latA lonA latB lonB fr b2 b3
  refine ⟨d, ?_, ?_⟩
  · unfold GeoPath.track_distance
    rw [take_gc, if_neg (by decide), if_neg (by decide)]
    rw [← h1]
    unfold GeoPath.radiusOr GeoPath.average_radius GeoPath.ecef_vectors Path64
    simp only [Option.getD_none, Position.to_ecef_vector]
    rw [e]
    rfl
  · have hπ := Real.pi_lt_d2
    refine radius_swap (angle_nonneg _ _) ((angle_le_pi _ _).trans ?_) h2 b1 b4 (by norm_num) (by positivity) (by norm_num)
    norm_num at hπ ⊢; linarith

/-- **C98** Euclidean track distance with the default radius -/
theorem C98_euclidean :
    ∃ d : ℝ, (Path64 B a f R nmA nmB latA lonA zA latB lonB zB).track_distance G "euclidean" = .ok (F64.fin d) ∧
      |d - len (normalOf R latB lonB - normalOf R latA lonA) * ((len pA + len pB) / 2)| ≤ 3.9e-14 * (a + |zA| + |zB|) := by
  obtain ⟨⟨r, e, fr, b1, b2, b3, b4⟩, -⟩ := radius_flt B hR fa a1 a2 ff f0 f1 nmA nmB latA lonA latB lonB fA fB hA hB dA dB gA gB
  obtain ⟨d, h1, h2⟩ := eu_points_flt B hR latA lonA latB lonB fr b2 b3
  refine ⟨d, ?_, ?_⟩
  · unfold GeoPath.track_distance
    rw [take_eu, if_neg (by decide), if_pos rfl]
    rw [← h1]
    unfold GeoPath.radiusOr GeoPath.average_radius GeoPath.ecef_vectors Path64
    simp only [Option.getD_none, Position.to_ecef_vector]
    rw [e]
    rfl
  · refine radius_swap (len_nonneg' _) ?_ h2 b1 b4 (by norm_num) (by positivity) (by norm_num)
    have t := len_add_le (normalOf R latB lonB) ((-1 : ℝ) • normalOf R latA lonA)
    rw [show normalOf R latB lonB + (-1 : ℝ) • normalOf R latA lonA = normalOf R latB lonB - normalOf R latA lonA by ext <;> simp <;> ring, len_smul, abs_neg,
      abs_one, one_mul, (normalOf_unit hR latA lonA).len, (normalOf_unit hR latB lonB).len] at t
    norm_num at t ⊢; linarith

end

/-- the hypotheses are met by the points at latitude 0 longitude 0 and latitude 1 longitude 2, 1 below the surface, of the sphere of radius 6371000 -/
example (G : Geodesic (F64 B)) : ∃ d : ℝ, ∃ pA pB : V3 ℝ, (Path64 B 6371000 0 Re (.int 1) (.int 1) 0 0 0 1 2 1).track_distance G = .ok (F64.fin d) ∧
    |d - angle (normalOf Re 0 0) (normalOf Re 1 2) * ((len pA + len pB) / 2)| ≤ 4.1e-14 * (6371000 + |0| + |1|) := by
  have h0 : IsF64 (6371000 : ℝ) := by simpa using isF64_int (n := 6371000) (by norm_num)
  have k := fun (z lat lon : ℝ) => geodetic_posE (a := 6371000) (f := 0) (d := z) (n := normalOf Re lat lon) (R := Re) (by norm_num) (by norm_num) isRotation_Re
    (normalOf_unit (Or.inl rfl) lat lon).ne
  obtain ⟨d, hd⟩ := C98_greatcircle B G (Or.inl rfl) (.int 1) (.int 1) 0 0 1 2 h0 (by norm_num) (by norm_num) isF64_zero le_rfl (by norm_num) isF64_zero isF64_one
    (by norm_num) (by norm_num) (by norm_num) (by norm_num) (k 0 0 0) (k 1 1 2)
  exact ⟨d, _, _, hd⟩

end Nv
