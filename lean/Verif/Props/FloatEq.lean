import Verif.Float.Polar
import Verif.Float.AngleDiff

/-!
# C92, C93: `==` of position objects in binary64

`pyEq false x y` is Python's `x == y` for two different objects (`x is not y`).  The tolerances of `==` are `1e-14` absolute and
`1e-12` relative to the larger of the two numbers; the theorems are about data outside a narrow zone around the tolerances.
-/

namespace Nv
open Spec F64
variable (B : Binary64)
variable {a f : ℝ} {R : M3 ℝ}

/-- two numbers count as equal: closer than `9.9e-15`, or closer than `9.9e-13` of the larger one -/
def Within (x y : ℝ) : Prop := |x - y| ≤ 9.9e-15 ∨ |x - y| ≤ 9.9e-13 * max |x| |y|
/-- two numbers count as different: further apart than `1.01e-14` and than `1.01e-12` of the larger one -/
def Apart (x y : ℝ) : Prop := 1.01e-14 ≤ |x - y| ∧ 1.01e-12 * max |x| |y| ≤ |x - y|

theorem within_self (x : ℝ) : Within x x := .inl (by simp; norm_num)

theorem frame_eq (hR : IsAxes R) (fa : IsF64 a) (a1 : 1 ≤ a) (a2 : a ≤ 1e10) (ff : IsF64 f) (f0 : 0 ≤ f) (f1 : f ≤ 0.01) (nm nm' : EllKey) :
    (Frame64 B a f R nm).isEqualTo (Frame64 B a f R nm') = true := by
  have a2' : |a| ≤ 10 ^ 50 := by rw [abs_of_nonneg (by linarith)]; norm_num at a2 ⊢; linarith only [a2]
  have f1' : |f| ≤ 10 ^ 50 := by rw [abs_of_nonneg f0]; norm_num at f1 ⊢; linarith only [f1]
  exact frame_self hR fa a2' ff f1'

theorem eq3_true {v w : V3 ℝ} (fv : IsF64V v) (fw : IsF64V w) (lv : len v ≤ 10 ^ 50) (lw : len w ≤ 10 ^ 50)
    (hx : Within v.x w.x) (hy : Within v.y w.y) (hz : Within v.z w.z) : eqClose (pairs3 (v.flt : V3 (F64 B)) w.flt) = true := by
  unfold pairs3
  rw [eqClose_cons64, eqClose_cons64 (_, _) [_]]
  simp only [Bool.and_eq_true]
  exact ⟨isclose_true ((abs_x_le_len v).trans lv) ((abs_x_le_len w).trans lw) fv.1 fw.1 hx,
    isclose_true ((abs_y_le_len v).trans lv) ((abs_y_le_len w).trans lw) fv.2.1 fw.2.1 hy,
    isclose_true ((abs_z_le_len v).trans lv) ((abs_z_le_len w).trans lw) fv.2.2 fw.2.2 hz⟩

theorem eq3_false {v w : V3 ℝ} (fv : IsF64V v) (fw : IsF64V w) (lv : len v ≤ 10 ^ 50) (lw : len w ≤ 10 ^ 50)
    (h : Apart v.x w.x ∨ Apart v.y w.y ∨ Apart v.z w.z) : eqClose (pairs3 (v.flt : V3 (F64 B)) w.flt) = false := by
  unfold pairs3
  rw [eqClose_cons64, eqClose_cons64 (_, _) [_]]
  simp only [Bool.and_eq_false_iff]
  rcases h with h | h | h
  · exact .inl (isclose_false ((abs_x_le_len v).trans lv) ((abs_x_le_len w).trans lw) fv.1 fw.1 h.1 h.2)
  · exact .inr (.inl (isclose_false ((abs_y_le_len v).trans lv) ((abs_y_le_len w).trans lw) fv.2.1 fw.2.1 h.1 h.2))
  · exact .inr (.inr (isclose_false ((abs_z_le_len v).trans lv) ((abs_z_le_len w).trans lw) fv.2.2 fw.2.2 h.1 h.2))

/-! ## C92 -/

/-- **C92** n-vector objects on the same ellipsoid with close components and depth are equal -/
theorem C92_nvector_equal (hR : IsAxes R) (fa : IsF64 a) (a1 : 1 ≤ a) (a2 : a ≤ 1e10) (ff : IsF64 f) (f0 : 0 ≤ f) (f1 : f ≤ 0.01) (nm nm' : EllKey)
    {v w : V3 ℝ} (fv : IsF64V v) (fw : IsF64V w) (lv : len v ≤ 10 ^ 50) (lw : len w ≤ 10 ^ 50)
    {y z : ℝ} (fy : IsF64 y) (fz : IsF64 z) (by' : |y| ≤ 10 ^ 50) (bz : |z| ≤ 10 ^ 50)
    (hx : Within v.x w.x) (hy : Within v.y w.y) (hz : Within v.z w.z) (hd : Within y z) :
    pyEq false (.nvec ⟨v.flt, F64.fin y, Frame64 B a f R nm⟩) (.nvec ⟨w.flt, F64.fin z, Frame64 B a f R nm'⟩) = .ok true := by
  have h1 := eq3_true B fv fw lv lw hx hy hz
  have h2 := isclose_true (B := B) by' bz fy fz hd
  have h3 := frame_eq B hR fa a1 a2 ff f0 f1 nm nm'
  simp [pyEq, Obj.isEqualTo, Nvector.isEqualTo, h1, h2, h3, attrFalse]

/-- **C92** n-vector objects with a component or a depth that differs by more than the tolerance are different -/
theorem C92_nvector_different (nm nm' : EllKey) {a' f' : ℝ} {R' : M3 ℝ}
    {v w : V3 ℝ} (fv : IsF64V v) (fw : IsF64V w) (lv : len v ≤ 10 ^ 50) (lw : len w ≤ 10 ^ 50)
    {y z : ℝ} (fy : IsF64 y) (fz : IsF64 z) (by' : |y| ≤ 10 ^ 50) (bz : |z| ≤ 10 ^ 50)
    (h : Apart v.x w.x ∨ Apart v.y w.y ∨ Apart v.z w.z ∨ Apart y z) :
    pyEq false (.nvec ⟨v.flt, F64.fin y, Frame64 B a f R nm⟩) (.nvec ⟨w.flt, F64.fin z, Frame64 B a' f' R' nm'⟩) = .ok false := by
  rcases h with h | h | h | h
  · have := eq3_false B fv fw lv lw (.inl h)
    simp [pyEq, Obj.isEqualTo, Nvector.isEqualTo, this, attrFalse]
  · have := eq3_false B fv fw lv lw (.inr (.inl h))
    simp [pyEq, Obj.isEqualTo, Nvector.isEqualTo, this, attrFalse]
  · have := eq3_false B fv fw lv lw (.inr (.inr h))
    simp [pyEq, Obj.isEqualTo, Nvector.isEqualTo, this, attrFalse]
  · have := isclose_false (B := B) by' bz fy fz h.1 h.2
    simp [pyEq, Obj.isEqualTo, Nvector.isEqualTo, this, attrFalse]

/-- **C92** ECEF vectors on the same ellipsoid with close components are equal -/
theorem C92_ecef_equal (hR : IsAxes R) (fa : IsF64 a) (a1 : 1 ≤ a) (a2 : a ≤ 1e10) (ff : IsF64 f) (f0 : 0 ≤ f) (f1 : f ≤ 0.01) (nm nm' : EllKey)
    {v w : V3 ℝ} (fv : IsF64V v) (fw : IsF64V w) (lv : len v ≤ 10 ^ 50) (lw : len w ≤ 10 ^ 50)
    (hx : Within v.x w.x) (hy : Within v.y w.y) (hz : Within v.z w.z) :
    pyEq false (.ecef ⟨v.flt, Frame64 B a f R nm⟩) (.ecef ⟨w.flt, Frame64 B a f R nm'⟩) = .ok true := by
  have h1 := eq3_true B fv fw lv lw hx hy hz
  have h3 := frame_eq B hR fa a1 a2 ff f0 f1 nm nm'
  simp [pyEq, Obj.isEqualTo, h1, h3, attrFalse]

/-- **C92** ECEF vectors with a component that differs by more than the tolerance are different -/
theorem C92_ecef_different (nm nm' : EllKey) {a' f' : ℝ} {R' : M3 ℝ}
    {v w : V3 ℝ} (fv : IsF64V v) (fw : IsF64V w) (lv : len v ≤ 10 ^ 50) (lw : len w ≤ 10 ^ 50)
    (h : Apart v.x w.x ∨ Apart v.y w.y ∨ Apart v.z w.z) :
    pyEq false (.ecef ⟨v.flt, Frame64 B a f R nm⟩) (.ecef ⟨w.flt, Frame64 B a' f' R' nm'⟩) = .ok false := by
  have := eq3_false B fv fw lv lw h
  simp [pyEq, Obj.isEqualTo, this, attrFalse]

/-- **C92** geographic points on the same ellipsoid: latitudes and longitudes within `5e-15` of each other, modulo whole turns, and
close depths: equal -/
theorem C92_geo_equal (hR : IsAxes R) (fa : IsF64 a) (a1 : 1 ≤ a) (a2 : a ≤ 1e10) (ff : IsF64 f) (f0 : 0 ≤ f) (f1 : f ≤ 0.01) (nm nm' : EllKey)
    {lat lon lat' lon' : ℝ} (h1 : |lat| ≤ 7) (h2 : |lon| ≤ 7) (h3 : |lat'| ≤ 7) (h4 : |lon'| ≤ 7)
    {y z : ℝ} (fy : IsF64 y) (fz : IsF64 z) (by' : |y| ≤ 10 ^ 50) (bz : |z| ≤ 10 ^ 50)
    (hlat : ∃ k : ℤ, |lat - lat' - k * (2 * Real.pi)| ≤ 5e-15) (hlon : ∃ k : ℤ, |lon - lon' - k * (2 * Real.pi)| ≤ 5e-15) (hd : Within y z) :
    pyEq false (.geo ⟨F64.fin lat, F64.fin lon, F64.fin y, Frame64 B a f R nm⟩) (.geo ⟨F64.fin lat', F64.fin lon', F64.fin z, Frame64 B a f R nm'⟩) = .ok true := by
  obtain ⟨k, hk⟩ := hlat
  obtain ⟨j, hj⟩ := hlon
  have e1 := angle_eq_true (B := B) h1 h3 hk
  have e2 := angle_eq_true (B := B) h2 h4 hj
  have e3 := isclose_true (B := B) by' bz fy fz hd
  have e4 := frame_eq B hR fa a1 a2 ff f0 f1 nm nm'
  simp [pyEq, Obj.isEqualTo, GeoPoint.isEqualTo, e1, e2, e3, e4, attrFalse]

/-- **C92** geographic points with latitudes or longitudes more than `1.5e-14` apart modulo whole turns, or depths apart, are
different -/
theorem C92_geo_different (nm nm' : EllKey) {a' f' : ℝ} {R' : M3 ℝ}
    {lat lon lat' lon' : ℝ} (h1 : |lat| ≤ 7) (h2 : |lon| ≤ 7) (h3 : |lat'| ≤ 7) (h4 : |lon'| ≤ 7)
    {y z : ℝ} (fy : IsF64 y) (fz : IsF64 z) (by' : |y| ≤ 10 ^ 50) (bz : |z| ≤ 10 ^ 50)
    (h : (∀ k : ℤ, 1.5e-14 ≤ |lat - lat' - k * (2 * Real.pi)|) ∨ (∀ k : ℤ, 1.5e-14 ≤ |lon - lon' - k * (2 * Real.pi)|) ∨ Apart y z) :
    pyEq false (.geo ⟨F64.fin lat, F64.fin lon, F64.fin y, Frame64 B a f R nm⟩) (.geo ⟨F64.fin lat', F64.fin lon', F64.fin z, Frame64 B a' f' R' nm'⟩) = .ok false := by
  rcases h with h | h | h
  · have := angle_eq_false (B := B) h1 h3 h
    simp [pyEq, Obj.isEqualTo, GeoPoint.isEqualTo, this, attrFalse]
  · have := angle_eq_false (B := B) h2 h4 h
    simp [pyEq, Obj.isEqualTo, GeoPoint.isEqualTo, this, attrFalse]
  · have := isclose_false (B := B) by' bz fy fz h.1 h.2
    simp [pyEq, Obj.isEqualTo, GeoPoint.isEqualTo, this, attrFalse]

/-- **C92** a geographic point turned into an n-vector and back equals the original point -/
theorem C92_geo_nvector_geo (hR : IsAxes R) (fa : IsF64 a) (a1 : 1 ≤ a) (a2 : a ≤ 1e10) (ff : IsF64 f) (f0 : 0 ≤ f) (f1 : f ≤ 0.01) (nm : EllKey)
    {lat lon : ℝ} (hlat : IsF64 lat) (hb : |lat| ≤ Real.pi / 2) (hlon : |lon| ≤ 7) {z : ℝ} (fz : IsF64 z) (bz : |z| ≤ 10 ^ 50) :
    pyEq false (.geo (GeoPoint.mk (F64.fin lat) (F64.fin lon) (F64.fin z) (Frame64 B a f R nm)).to_nvector.to_geo_point)
      (.geo ⟨F64.fin lat, F64.fin lon, F64.fin z, Frame64 B a f R nm⟩) = .ok true := by
  obtain ⟨axes, hax⟩ := axes_is_E_rotation (B := B) hR
  obtain ⟨lat', lon', h1, h2, k, h3⟩ := C71_round_trip B lon hlat hb hax
  have hπ := Real.pi_lt_d2
  have e : (GeoPoint.mk (F64.fin lat) (F64.fin lon) (F64.fin z) (Frame64 B a f R nm)).to_nvector.to_geo_point =
      ⟨F64.fin lat', F64.fin lon', F64.fin z, Frame64 B a f R nm⟩ := by
    simp only [GeoPoint.to_nvector, Nvector.to_geo_point, Frame64]
    rw [h1]
  rw [e]
  have hlat' : |lat'| ≤ 7 := by
    have := abs_sub_abs_le_abs_sub lat' lat
    norm_num at h2 hπ
    linarith
  have hlon' : |lon'| ≤ 7 := by
    have e2 := (Prod.mk.inj h1).2
    have hf := mulVec_tr_axes (B := B) hR (fin64V_geoFl (B := B) lat lon)
    have hg := mulVec_axes (B := B) hR hf.2
    rw [hR.rot.app_trans] at hg
    rw [lat_lon2n_E_flt lat lon hR, hg.1] at e2
    have := arctan2_bound B (y := (geoFl B lat lon).y) (x := -(geoFl B lat lon).z) e2
    norm_num at this hπ
    linarith
  refine C92_geo_equal B hR fa a1 a2 ff f0 f1 nm nm hlat' hlon' (hb.trans (by norm_num at hπ; linarith)) hlon fz fz bz bz
    ⟨0, ?_⟩ ⟨k, h3.trans (by norm_num)⟩ (within_self z)
  simp only [Int.cast_zero, zero_mul, sub_zero]
  exact h2.trans (by norm_num)

/-! ## C93 -/

/-- the comparison of two numbers does not depend on their order if rounding does not depend on the sign (as in IEEE 754) -/
theorem isclose_symm (hs : ∀ x, B.fl (-x) = -B.fl x) {x y : ℝ} (hx : |x| ≤ 10 ^ 50) (hy : |y| ≤ 10 ^ 50) (fx : IsF64 x) (fy : IsF64 y) :
    eqClose [((F64.fin x : F64 B), F64.fin y)] = eqClose [((F64.fin y : F64 B), F64.fin x)] := by
  rw [isclose_flt hx hy fx fy, isclose_flt hy hx fy fx, max_comm |y| |x|, show y - x = -(x - y) by ring, hs, abs_neg]

theorem eq3_symm (hs : ∀ x, B.fl (-x) = -B.fl x) {v w : V3 ℝ} (fv : IsF64V v) (fw : IsF64V w) (lv : len v ≤ 10 ^ 50) (lw : len w ≤ 10 ^ 50) :
    eqClose (pairs3 (v.flt : V3 (F64 B)) w.flt) = eqClose (pairs3 (w.flt : V3 (F64 B)) v.flt) := by
  unfold pairs3
  rw [eqClose_cons64, eqClose_cons64 (_, _) [_], eqClose_cons64 _ [_, _], eqClose_cons64 (_, _) [_]]
  have h1 := isclose_symm B hs ((abs_x_le_len v).trans lv) ((abs_x_le_len w).trans lw) fv.1 fw.1
  have h2 := isclose_symm B hs ((abs_y_le_len v).trans lv) ((abs_y_le_len w).trans lw) fv.2.1 fw.2.1
  have h3 := isclose_symm B hs ((abs_z_le_len v).trans lv) ((abs_z_le_len w).trans lw) fv.2.2 fw.2.2
  simp only [V3.flt] at *
  rw [h1, h2, h3]

theorem axes_f64 (hR : IsAxes R) : (IsF64V R.r0 ∧ len R.r0 ≤ 10 ^ 50) ∧ (IsF64V R.r1 ∧ len R.r1 ≤ 10 ^ 50) ∧ (IsF64V R.r2 ∧ len R.r2 ≤ 10 ^ 50) := by
  have h0 := isF64_zero
  have h1 := isF64_one
  have h2 := isF64_neg_one
  have hl : (1 : ℝ) ≤ 10 ^ 50 := by norm_num
  rcases hR with rfl | rfl <;>
    simp [Re, one, IsF64V, len, h0, h1, h2, hl]

theorem frame_symm (hs : ∀ x, B.fl (-x) = -B.fl x) {a' f' : ℝ} {R' : M3 ℝ} (hR : IsAxes R) (hR' : IsAxes R') (fa : IsF64 a) (fa' : IsF64 a')
    (ff : IsF64 f) (ff' : IsF64 f') (a1 : |a| ≤ 10 ^ 50) (a1' : |a'| ≤ 10 ^ 50) (f1 : |f| ≤ 10 ^ 50) (f1' : |f'| ≤ 10 ^ 50) (nm nm' : EllKey) :
    (Frame64 B a f R nm).isEqualTo (Frame64 B a' f' R' nm') = (Frame64 B a' f' R' nm').isEqualTo (Frame64 B a f R nm) := by
  unfold FrameE.isEqualTo Frame64
  dsimp only
  rw [isclose_symm B hs a1 a1' fa fa', isclose_symm B hs f1 f1' ff ff']
  congr 1
  obtain ⟨⟨r0, l0⟩, ⟨r1, l1⟩, r2, l2⟩ := axes_f64 hR
  obtain ⟨⟨s0, m0⟩, ⟨s1, m1⟩, s2, m2⟩ := axes_f64 hR'
  have e0 := eq3_symm B hs r0 s0 l0 m0
  have e1 := eq3_symm B hs r1 s1 l1 m1
  have e2 := eq3_symm B hs r2 s2 l2 m2
  have hap : ∀ l l' : List (F64 B × F64 B), eqClose (l ++ l') = (eqClose l && eqClose l') := by
    intro l l'; simp [eqClose, allclose]
  unfold pairs9
  rw [hap, hap, hap, hap]
  change ((eqClose (pairs3 R.r0.flt R'.r0.flt) && eqClose (pairs3 R.r1.flt R'.r1.flt)) && eqClose (pairs3 R.r2.flt R'.r2.flt)) =
    ((eqClose (pairs3 R'.r0.flt R.r0.flt) && eqClose (pairs3 R'.r1.flt R.r1.flt)) && eqClose (pairs3 R'.r2.flt R.r2.flt))
  rw [e0, e1, e2]

/-- **C93** `==` of two n-vector objects with finite data does not depend on the order -/
theorem C93_nvector_symm (hs : ∀ x, B.fl (-x) = -B.fl x) {a' f' : ℝ} {R' : M3 ℝ} (hR : IsAxes R) (hR' : IsAxes R') (fa : IsF64 a) (fa' : IsF64 a')
    (ff : IsF64 f) (ff' : IsF64 f') (a1 : |a| ≤ 10 ^ 50) (a1' : |a'| ≤ 10 ^ 50) (f1 : |f| ≤ 10 ^ 50) (f1' : |f'| ≤ 10 ^ 50) (nm nm' : EllKey)
    {v w : V3 ℝ} (fv : IsF64V v) (fw : IsF64V w) (lv : len v ≤ 10 ^ 50) (lw : len w ≤ 10 ^ 50)
    {y z : ℝ} (fy : IsF64 y) (fz : IsF64 z) (by' : |y| ≤ 10 ^ 50) (bz : |z| ≤ 10 ^ 50) :
    pyEq false (.nvec ⟨v.flt, F64.fin y, Frame64 B a f R nm⟩) (.nvec ⟨w.flt, F64.fin z, Frame64 B a' f' R' nm'⟩) =
      pyEq false (.nvec ⟨w.flt, F64.fin z, Frame64 B a' f' R' nm'⟩) (.nvec ⟨v.flt, F64.fin y, Frame64 B a f R nm⟩) := by
  simp only [pyEq, Obj.isEqualTo, Nvector.isEqualTo, eq3_symm B hs fv fw lv lw, isclose_symm B hs by' bz fy fz,
    frame_symm B hs hR hR' fa fa' ff ff' a1 a1' f1 f1' nm nm']

/-- **C93** the same for ECEF vectors -/
theorem C93_ecef_symm (hs : ∀ x, B.fl (-x) = -B.fl x) {a' f' : ℝ} {R' : M3 ℝ} (hR : IsAxes R) (hR' : IsAxes R') (fa : IsF64 a) (fa' : IsF64 a')
    (ff : IsF64 f) (ff' : IsF64 f') (a1 : |a| ≤ 10 ^ 50) (a1' : |a'| ≤ 10 ^ 50) (f1 : |f| ≤ 10 ^ 50) (f1' : |f'| ≤ 10 ^ 50) (nm nm' : EllKey)
    {v w : V3 ℝ} (fv : IsF64V v) (fw : IsF64V w) (lv : len v ≤ 10 ^ 50) (lw : len w ≤ 10 ^ 50) :
    pyEq false (.ecef ⟨v.flt, Frame64 B a f R nm⟩) (.ecef ⟨w.flt, Frame64 B a' f' R' nm'⟩) =
      pyEq false (.ecef ⟨w.flt, Frame64 B a' f' R' nm'⟩) (.ecef ⟨v.flt, Frame64 B a f R nm⟩) := by
  simp only [pyEq, Obj.isEqualTo, eq3_symm B hs fv fw lv lw,
    frame_symm B hs hR hR' fa fa' ff ff' a1 a1' f1 f1' nm nm']

/-- **C93** for geographic points the order does not matter if the angles are outside the zone from `5e-15` to `1.5e-14` around the
tolerance.  (The full statement, without this hypothesis, is false: `C93_geo_not_symmetric`.) -/
theorem C93_geo_symm_partial (hs : ∀ x, B.fl (-x) = -B.fl x) {a' f' : ℝ} {R' : M3 ℝ} (hR : IsAxes R) (hR' : IsAxes R') (fa : IsF64 a) (fa' : IsF64 a')
    (ff : IsF64 f) (ff' : IsF64 f') (a1 : |a| ≤ 10 ^ 50) (a1' : |a'| ≤ 10 ^ 50) (f1 : |f| ≤ 10 ^ 50) (f1' : |f'| ≤ 10 ^ 50) (nm nm' : EllKey)
    {lat lon lat' lon' : ℝ} (h1 : |lat| ≤ 7) (h2 : |lon| ≤ 7) (h3 : |lat'| ≤ 7) (h4 : |lon'| ≤ 7)
    {y z : ℝ} (fy : IsF64 y) (fz : IsF64 z) (by' : |y| ≤ 10 ^ 50) (bz : |z| ≤ 10 ^ 50)
    (hlat : (∃ k : ℤ, |lat - lat' - k * (2 * Real.pi)| ≤ 5e-15) ∨ ∀ k : ℤ, 1.5e-14 ≤ |lat - lat' - k * (2 * Real.pi)|)
    (hlon : (∃ k : ℤ, |lon - lon' - k * (2 * Real.pi)| ≤ 5e-15) ∨ ∀ k : ℤ, 1.5e-14 ≤ |lon - lon' - k * (2 * Real.pi)|) :
    pyEq false (.geo ⟨F64.fin lat, F64.fin lon, F64.fin y, Frame64 B a f R nm⟩) (.geo ⟨F64.fin lat', F64.fin lon', F64.fin z, Frame64 B a' f' R' nm'⟩) =
      pyEq false (.geo ⟨F64.fin lat', F64.fin lon', F64.fin z, Frame64 B a' f' R' nm'⟩) (.geo ⟨F64.fin lat, F64.fin lon, F64.fin y, Frame64 B a f R nm⟩) := by
  have flip : ∀ (s t : ℝ) (k : ℤ), |t - s - ((-k : ℤ) : ℝ) * (2 * Real.pi)| = |s - t - k * (2 * Real.pi)| := by
    intro s t k
    rw [← abs_neg]; congr 1; push_cast; ring
  have key : ∀ s t : ℝ, |s| ≤ 7 → |t| ≤ 7 →
      ((∃ k : ℤ, |s - t - k * (2 * Real.pi)| ≤ 5e-15) ∨ ∀ k : ℤ, 1.5e-14 ≤ |s - t - k * (2 * Real.pi)|) →
      eqClose [(angleDiff (F64.fin s : F64 B) (F64.fin t), lit 0)] = eqClose [(angleDiff (F64.fin t : F64 B) (F64.fin s), lit 0)] := by
    intro s t hs ht h
    rcases h with ⟨k, hk⟩ | h
    · rw [angle_eq_true hs ht hk, angle_eq_true ht hs (k := -k) (by rw [flip]; exact hk)]
    · rw [angle_eq_false hs ht h, angle_eq_false ht hs (fun k => by
        have := h (-k)
        rw [flip t s k] at this; exact this)]
  simp only [pyEq, Obj.isEqualTo, GeoPoint.isEqualTo, key lat lat' h1 h3 hlat, key lon lon' h2 h4 hlon, isclose_symm B hs by' bz fy fz,
    frame_symm B hs hR hR' fa fa' ff ff' a1 a1' f1 f1' nm nm']

/-- **C93** inside that zone `p == q` and `q == p` can differ: two points on the equator, `183 * 2^-54 = 1.016e-14` of longitude
apart -/
theorem C93_geo_not_symmetric (hR : IsAxes R) (fa : IsF64 a) (a1 : 1 ≤ a) (a2 : a ≤ 1e10) (ff : IsF64 f) (f0 : 0 ≤ f) (f1 : f ≤ 0.01) (nm nm' : EllKey) :
    let p : Obj (F64 B) := .geo ⟨F64.fin 0, F64.fin (183 / 18014398509481984), F64.fin 0, Frame64 B a f R nm⟩
    let q : Obj (F64 B) := .geo ⟨F64.fin 0, F64.fin 0, F64.fin 0, Frame64 B a f R nm'⟩
    pyEq false p q = .ok false ∧ pyEq false q p = .ok true := by
  have hF : IsF64 (183 / 18014398509481984 : ℝ) := ⟨183, -54, by norm_num, by norm_num, by norm_num⟩
  have hd0 : (0 : ℝ) < 183 / 18014398509481984 := by norm_num
  obtain ⟨d, hd⟩ : ∃ d : ℝ, d = 183 / 18014398509481984 := ⟨_, rfl⟩
  rw [← hd] at hF hd0 ⊢
  obtain ⟨P, hP⟩ : ∃ P, P = B.fl Real.pi := ⟨_, rfl⟩
  obtain ⟨p1, p2⟩ := fl_pi_bounds (B := B)
  obtain ⟨hQ, fQ⟩ := two_pi_flt (B := B)
  rw [← hP] at p1 p2 hQ fQ
  norm_num at p1 p2
  have hds : d < 1 / 1000 := by rw [hd]; norm_num
  have hz0 : eqClose [((F64.fin 0 : F64 B), lit 0)] = true := by rw [lit_zero]; exact isclose_self (by simp) isF64_zero
  have hz1 : eqClose [((F64.fin 0 : F64 B), F64.fin 0)] = true := isclose_self (by simp) isF64_zero
  have hA0 : angleDiff (F64.fin 0 : F64 B) (F64.fin 0) = F64.fin 0 := by
    unfold angleDiff
    dsimp only
    rw [hQ, pi_flt, ← hP, fin_sub (by simp), sub_self, B.rounds.zero, fin_mod (by linarith) (by simp)]
    simp only [zero_div, Int.floor_zero, Int.cast_zero, mul_zero, sub_zero, B.rounds.zero]
    rw [fin_lt, if_neg]
    simp only [decide_eq_true_eq]; linarith
  have hA1 : angleDiff (F64.fin d : F64 B) (F64.fin 0) = F64.fin d := by
    unfold angleDiff
    dsimp only
    have hfl : ⌊d / (2 * P)⌋ = 0 := by
      rw [Int.floor_eq_zero_iff]
      exact ⟨by positivity, (div_lt_one (by linarith)).mpr (by linarith)⟩
    rw [hQ, pi_flt, ← hP, fin_sub (by rw [sub_zero, abs_of_pos hd0]; linarith), sub_zero, B.rounds.exact hF,
      fin_mod (by linarith) (by rw [hfl]; simp only [Int.cast_zero, mul_zero, sub_zero]; rw [abs_of_pos hd0]; linarith), hfl]
    simp only [Int.cast_zero, mul_zero, sub_zero, B.rounds.exact hF]
    rw [fin_lt, if_neg]
    simp only [decide_eq_true_eq]; linarith
  -- the rounded value of `2 pi - d`
  obtain ⟨i, hi⟩ := fQ.multiple' (k := 2) (by norm_num; linarith)
  have e50 : (2 : ℝ) ^ ((2 : ℤ) - 52) = 1 / 1125899906842624 := by norm_num
  rw [e50] at hi
  have hfl2 : B.fl (2 * P - d) = 2 * P - 11 / 1125899906842624 := by
    have hcand : IsF64 (2 * P - 11 / 1125899906842624) := by
      refine ⟨i - 11, -50, ?_, by norm_num, ?_⟩
      · have h1 : (i : ℝ) < 9007199254740992 := by
          have : (i : ℝ) * (1 / 1125899906842624) < 8 := by rw [← hi]; linarith
          linarith
        have h2 : (11 : ℝ) < i := by
          have : 6 < (i : ℝ) * (1 / 1125899906842624) := by rw [← hi]; linarith
          linarith
        have h1' : i < 9007199254740992 := by exact_mod_cast h1
        have h2' : 11 < i := by exact_mod_cast h2
        rw [abs_of_pos (by omega)]; omega
      · rw [hi]; push_cast
        have : (2 : ℝ) ^ (-50 : ℤ) = 1 / 1125899906842624 := by norm_num
        rw [this]; ring
    have hn := B.rounds.nearest (2 * P - d) _ hcand
    have e1 : |2 * P - 11 / 1125899906842624 - (2 * P - d)| = 7 / 18014398509481984 := by
      rw [show 2 * P - 11 / 1125899906842624 - (2 * P - d) = d - 11 / 1125899906842624 by ring, hd]
      norm_num
    rw [e1] at hn
    have hge : (4 : ℝ) ≤ B.fl (2 * P - d) := B.rounds.ge (by simpa using isF64_int (n := 4) (by norm_num)) (by linarith)
    obtain ⟨j, hj⟩ := (B.rounds.val (2 * P - d)).multiple' (k := 2) (by norm_num; linarith)
    rw [e50] at hj
    rw [hj, hi, hd] at hn
    obtain ⟨n1, n2⟩ := abs_le.mp hn
    have j1 : (i : ℝ) - 12 < j := by linarith
    have j2 : (j : ℝ) < i - 10 := by linarith
    have j1' : i - 12 < j := by exact_mod_cast j1
    have j2' : j < i - 10 := by exact_mod_cast j2
    have : j = i - 11 := by omega
    rw [hj, hi, this]; push_cast; ring
  have hF11 : IsF64 (11 / 1125899906842624 : ℝ) := ⟨11, -50, by norm_num, by norm_num, by norm_num⟩
  have hA2 : angleDiff (F64.fin 0 : F64 B) (F64.fin d) = F64.fin (11 / 1125899906842624) := by
    unfold angleDiff
    dsimp only
    have hfl : ⌊-d / (2 * P)⌋ = -1 := by
      rw [Int.floor_eq_iff]
      push_cast
      constructor
      · rw [le_div_iff₀ (by linarith)]; linarith
      · rw [div_lt_iff₀ (by linarith)]; linarith
    have e : -d - 2 * P * ((-1 : ℤ) : ℝ) = 2 * P - d := by push_cast; ring
    have hn : IsF64 (-d) := hF.neg
    rw [hQ, pi_flt, ← hP, fin_sub (by rw [zero_sub, abs_neg, abs_of_pos hd0]; linarith), zero_sub, B.rounds.exact hn,
      fin_mod (by linarith) (by rw [hfl, e, abs_of_pos (by linarith)]; linarith), hfl, e, hfl2, fin_lt, if_pos,
      fin_sub, show 2 * P - (2 * P - 11 / 1125899906842624) = 11 / 1125899906842624 by ring, B.rounds.exact hF11]
    · rw [show 2 * P - (2 * P - 11 / 1125899906842624) = 11 / 1125899906842624 by ring]; norm_num
    · simp only [decide_eq_true_eq]; linarith
  have hc1 : eqClose [((F64.fin d : F64 B), lit 0)] = false := by
    rw [lit_zero]
    refine isclose_false (by rw [abs_of_pos hd0]; linarith) (by norm_num) hF isF64_zero ?_ ?_
    · rw [sub_zero, abs_of_pos hd0, hd]; norm_num
    · rw [sub_zero, abs_zero, abs_of_pos hd0, max_eq_left hd0.le, hd]; norm_num
  have hc2 : eqClose [((F64.fin (11 / 1125899906842624) : F64 B), lit 0)] = true := by
    rw [lit_zero]
    refine isclose_true (by norm_num) (by norm_num) hF11 isF64_zero (.inl ?_)
    norm_num
  have e4 := frame_eq B hR fa a1 a2 ff f0 f1 nm' nm
  constructor
  · simp [pyEq, Obj.isEqualTo, GeoPoint.isEqualTo, hA0, hA1, hz0, hc1, attrFalse]
  · simp [pyEq, Obj.isEqualTo, GeoPoint.isEqualTo, hA0, hA2, hz0, hz1, hc2, e4, attrFalse]

/-! ## the hypotheses can be met -/

example : ∃ B : Binary64, ∀ x, B.fl (-x) = -B.fl x := exists_binary64_odd

example : ∃ (v w : V3 ℝ) (y z : ℝ), IsF64V v ∧ IsF64V w ∧ IsF64 y ∧ IsF64 z ∧ v ≠ w ∧ y ≠ z ∧
    Within v.x w.x ∧ Within v.y w.y ∧ Within v.z w.z ∧ Within y z := by
  refine ⟨⟨0, 1, 1⟩, ⟨(2 : ℝ) ^ (-50 : ℤ), 1, 1⟩, 1, 1 + (2 : ℝ) ^ (-50 : ℤ), ⟨isF64_zero, isF64_one, isF64_one⟩,
    ⟨isF64_two_zpow (by norm_num), isF64_one, isF64_one⟩, isF64_one, ?_, ?_, ?_, ?_, within_self _, within_self _, ?_⟩
  · exact ⟨2 ^ 50 + 1, -50, by norm_num, by norm_num, by norm_num⟩
  · intro h; have := congrArg V3.x h; norm_num at this
  · norm_num
  · left; norm_num
  · left; norm_num

example : ∃ lat lat' : ℝ, |lat| ≤ 7 ∧ |lat'| ≤ 7 ∧ lat ≠ lat' ∧ ∀ k : ℤ, 1.5e-14 ≤ |lat - lat' - k * (2 * Real.pi)| := by
  refine ⟨3, -3, by norm_num, by norm_num, by norm_num, fun k => ?_⟩
  have h1 := Real.pi_gt_d2
  have h2 := Real.pi_lt_d2
  by_cases hk : k ≤ 0
  · have : (k : ℝ) ≤ 0 := by exact_mod_cast hk
    rw [abs_of_nonneg (by nlinarith)]
    norm_num; nlinarith
  · have : (1 : ℝ) ≤ k := by exact_mod_cast (by omega : 1 ≤ k)
    rw [abs_of_nonpos (by nlinarith)]
    norm_num; nlinarith

end Nv
