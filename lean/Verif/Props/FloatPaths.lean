import Verif.Props.FloatIntersect
import Verif.Props.FloatTrack

/-!
# C106-C108: the methods of `GeoPath` between geographic points in binary64

`normalOf R lat lon` is the exact n-vector of the position; `s` is a lower bound of the sine of the exact length of the path.
-/

namespace Nv
open Spec F64
variable (B : Binary64)
variable {a f : ℝ} {R : M3 ℝ}

/-- the computed n-vector of a geographic point -/
theorem geo_near (hR : IsAxes R) (lat lon : ℝ) :
    ∃ v : V3 ℝ, lat_lon2n_E (F64.fin lat : F64 B) (F64.fin lon) R.flt = v.flt ∧ IsF64V v ∧ v ≠ 0 ∧ |len v - 1| ≤ 9.02 * uu ∧ len v ≤ 1.001 ∧
      len (v - normalOf R lat lon) ≤ 3.1e-15 ∧ len (dirOf v - normalOf R lat lon) ≤ 2.01e-15 := by
  obtain ⟨v, hv, fv, v0, lv, dv⟩ := geo_normal_flt B hR lat lon
  have h1 := len_add_le (v - dirOf v) (dirOf v - normalOf R lat lon)
  rw [show v - dirOf v + (dirOf v - normalOf R lat lon) = v - normalOf R lat lon by ext <;> simp] at h1
  have h2 : len (v - dirOf v) = |len v - 1| := by
    have e : v - dirOf v = (len v - 1) • dirOf v := by
      have e := smul_dirOf v
      have ex := congrArg V3.x e; have ey := congrArg V3.y e; have ez := congrArg V3.z e
      simp at ex ey ez
      ext <;> simp <;> linarith
    rw [e, len_smul, (dirOf_unit v0).len, mul_one]
  have h3 : 9.02 * uu + 18.04 * uu ≤ 3.1e-15 := by unfold uu; norm_num
  have h4 : 18.04 * uu ≤ 2.01e-15 := by unfold uu; norm_num
  have h5 : 9.02 * uu ≤ 0.001 := by unfold uu; norm_num
  have h6 := (abs_le.mp lv).2
  refine ⟨v, hv, fv, v0, lv, by norm_num at h5 h6 ⊢; linarith, ?_, dv.trans h4⟩
  have dv' : len (dirOf v - normalOf R lat lon) ≤ 18.04 * uu := dv
  linarith

/-- the vector product of perturbed vectors -/
theorem cross_move {v w A C : V3 ℝ} {e₁ e₂ L M : ℝ} (h1 : len (v - A) ≤ e₁) (h2 : len (w - C) ≤ e₂) (hA : len A ≤ L) (hw : len w ≤ M) :
    len (cross v w - cross A C) ≤ e₁ * M + L * e₂ := by
  have e : cross v w - cross A C = cross (v - A) w + cross A (w - C) := by ext <;> simp [cross] <;> ring
  rw [e]
  have t2 := len_add_le (cross (v - A) w) (cross A (w - C))
  have t3 := len_cross_le (v - A) w
  have t4 := len_cross_le A (w - C)
  have t5 := mul_le_mul h1 hw (len_nonneg' _) ((len_nonneg' _).trans h1)
  have t6 := mul_le_mul hA h2 (len_nonneg' _) ((len_nonneg' _).trans hA)
  linarith

theorem len_sub_ge {v w : V3 ℝ} {e : ℝ} (h : len (v - w) ≤ e) : len w - e ≤ len v := by
  have h1 := len_add_le v ((-1 : ℝ) • (v - w))
  rw [show v + (-1 : ℝ) • (v - w) = w by ext <;> simp, len_smul, abs_neg, abs_one, one_mul] at h1
  linarith

/-- the normal of a path between perturbed end points -/
theorem normal_move {v w A C : V3 ℝ} {s : ℝ} (hA : UnitVec A) (h1 : len (v - A) ≤ 3.1e-15) (h2 : len (w - C) ≤ 3.1e-15) (hw : len w ≤ 1.001)
    (s0 : 1e-8 ≤ s) (hs : s ≤ len (cross A C)) :
    cross v w ≠ 0 ∧ 0.999 * s ≤ len (cross v w) ∧ len (cross v w - cross A C) ≤ 6.21e-15 ∧ len (dirOf (cross v w) - dirOf (cross A C)) ≤ 1.25e-14 / s := by
  have sp : 0 < s := lt_of_lt_of_le (by norm_num) s0
  have h := cross_move h1 h2 hA.len.le hw
  have h' : len (cross v w - cross A C) ≤ 6.21e-15 := by norm_num at h ⊢; linarith
  have hg := len_sub_ge h'
  have hg' : 0.999 * s ≤ len (cross v w) := by norm_num at hg s0 ⊢; linarith
  have h0 : cross v w ≠ 0 := by intro h; rw [h, len_eq_zero.mpr rfl] at hg'; norm_num at hg'; linarith
  refine ⟨h0, hg', h', ?_⟩
  refine (len_dirOf_sub_le sp hs h0 h').trans ?_
  exact div_le_div_of_nonneg_right (by norm_num) sp.le

theorem dot_move {v w A C : V3 ℝ} {e₁ e₂ : ℝ} (h1 : len (v - A) ≤ e₁) (h2 : len (w - C) ≤ e₂) (hw : len w ≤ 1.001) (hA : len A ≤ 1) :
    |dot v w - dot A C| ≤ 1.001 * e₁ + e₂ := by
  have e : dot v w - dot A C = dot (v - A) w + dot A (w - C) := by unfold dot; simp; ring
  rw [e]
  have t1 := abs_add_le (dot (v - A) w) (dot A (w - C))
  have t2 := abs_dot_le (v - A) w
  have t3 := abs_dot_le A (w - C)
  have t4 := mul_le_mul h1 hw (len_nonneg' _) ((len_nonneg' _).trans h1)
  have t5 := mul_le_mul hA h2 (len_nonneg' _) (by norm_num)
  linarith

section
variable (hR : IsAxes R) (nmA nmB nmC : EllKey) (latA lonA latB lonB latC lonC : ℝ) (zA zB zC : ℝ)
include hR

/-- **C106** `GeoPath.cross_track_distance(point, radius=r)` between geographic points, for points within 52 degrees of the great circle:
within `3.6e-14 r / s` of the exact signed distance -/
theorem C106_cross_track_radius {s r : ℝ} (s0 : 1e-8 ≤ s) (hs : s ≤ len (cross (normalOf R latA lonA) (normalOf R latB lonB)))
    (h8 : |dot (dirOf (cross (normalOf R latA lonA) (normalOf R latB lonB))) (normalOf R latC lonC)| ≤ 0.79) (fr : IsF64 r) (r1 : 1e-20 ≤ r) (r2 : r ≤ 1e20) :
    ∃ d : ℝ, (Path64 B a f R nmA nmB latA lonA zA latB lonB zB).cross_track_distance (.geo (Geo64 B a f R nmC latC lonC zC)) "greatcircle" (some (F64.fin r)) = .ok (F64.fin d) ∧
      |d - Real.arcsin (-dot (dirOf (cross (normalOf R latA lonA) (normalOf R latB lonB))) (normalOf R latC lonC)) * r| ≤ 3.6e-14 / s * r := by
  have sp : 0 < s := lt_of_lt_of_le (by norm_num) s0
  have rp : 0 < r := lt_of_lt_of_le (by norm_num) r1
  obtain ⟨v, hv, fv, v0, lv, lv', dv, -⟩ := geo_near B hR latA lonA
  obtain ⟨w, hw, fw, w0, lw, lw', dw, -⟩ := geo_near B hR latB lonB
  obtain ⟨n, hn, fn, n0, ln, ln', -, dn⟩ := geo_near B hR latC lonC
  have uA := normalOf_unit hR latA lonA
  have uB := normalOf_unit hR latB lonB
  have uC := normalOf_unit hR latC lonC
  have s1 : s ≤ 1 := by
    have := len_cross_le (normalOf R latA lonA) (normalOf R latB lonB)
    rw [uA.len, uB.len, one_mul] at this; linarith
  have hc0 : cross (normalOf R latA lonA) (normalOf R latB lonB) ≠ 0 := by intro h; rw [h, len_eq_zero.mpr rfl] at hs; linarith
  obtain ⟨k0, k1, -, k2⟩ := normal_move uA dv dw lw' s0 hs
  obtain ⟨c, hc⟩ : ∃ c, c = dirOf (cross (normalOf R latA lonA) (normalOf R latB lonB)) := ⟨_, rfl⟩
  rw [← hc] at k2 h8 ⊢
  have cu : UnitVec c := by rw [hc]; exact dirOf_unit hc0
  have hdm := dot_move k2 dn (by rw [(dirOf_unit n0).len]; norm_num) cu.len.le
  have hse : 1.25e-14 / s ≤ 1.25e-6 := by rw [div_le_iff₀ sp]; norm_num at s0 ⊢; linarith
  have h9 : |dot (dirOf (cross v w)) (dirOf n)| ≤ 0.8 := by
    have := abs_sub_abs_le_abs_sub (dot (dirOf (cross v w)) (dirOf n)) (dot c (normalOf R latC lonC))
    norm_num at this hdm h8 hse ⊢; linarith
  obtain ⟨d, e1, e2⟩ := C94_greatcircle B fv fw fn (by norm_num at lv' ⊢; linarith) (by norm_num at lw' ⊢; linarith) (s := 0.999 * s) (by norm_num at s0 ⊢; linarith) k1 ln
    (by unfold uu; norm_num) fr r1 r2 h9
  refine ⟨d, ?_, ?_⟩
  · change Nv.cross_track_distance (lat_lon2n_E (F64.fin latA) (F64.fin lonA) R.flt, lat_lon2n_E (F64.fin latB) (F64.fin lonB) R.flt)
      (lat_lon2n_E (F64.fin latC) (F64.fin lonC) R.flt) "greatcircle" (F64.fin r) = _
    rw [hv, hw, hn]; exact e1
  have la := arcsin_lip (a := -dot (dirOf (cross v w)) (dirOf n)) (b := -dot c (normalOf R latC lonC)) (m := 0.8) (c := 0.6) (by rw [abs_neg]; exact h9)
    (by rw [abs_neg]; norm_num at h8 ⊢; linarith) (by norm_num) (by norm_num) (by norm_num)
  rw [show -dot (dirOf (cross v w)) (dirOf n) - -dot c (normalOf R latC lonC) = -(dot (dirOf (cross v w)) (dirOf n) - dot c (normalOf R latC lonC)) by ring, abs_neg] at la
  generalize Real.arcsin (-dot (dirOf (cross v w)) (dirOf n)) = α at *
  generalize Real.arcsin (-dot c (normalOf R latC lonC)) = β at *
  have q1 : |d - β * r| ≤ |d - α * r| + |α - β| * r := by
    have := abs_add_le (d - α * r) ((α - β) * r)
    rw [show d - α * r + (α - β) * r = d - β * r by ring, abs_mul, abs_of_pos rp] at this
    exact this
  have q2 : |α - β| ≤ (1.001 * (1.25e-14 / s) + 2.01e-15) / 0.6 := la.trans (div_le_div_of_nonneg_right hdm (by norm_num))
  have q3 := mul_le_mul_of_nonneg_right q2 rp.le
  refine (q1.trans (add_le_add e2 q3)).trans ?_
  rw [← add_mul]
  refine mul_le_mul_of_nonneg_right ?_ rp.le
  have q4 : 9e-15 / (0.999 * s) ≤ 9.1e-15 / s := by
    rw [div_le_div_iff₀ (by positivity) sp]
    norm_num; linarith
  have q5 : (1.001 * (1.25e-14 / s) + 2.01e-15) / 0.6 ≤ 2.09e-14 / s + 3.36e-15 := by
    have : 1.001 * (1.25e-14 / s) / 0.6 ≤ 2.09e-14 / s := by
      rw [show 1.001 * (1.25e-14 / s) / 0.6 = (1.001 * 1.25e-14 / 0.6) / s by ring]
      exact div_le_div_of_nonneg_right (by norm_num) sp.le
    rw [add_div]
    have : (2.01e-15 : ℝ) / 0.6 ≤ 3.36e-15 := by norm_num
    linarith
  have q6 : 1.67 * (9.02 * uu) + 3.36e-15 ≤ 5.9e-15 / s := by
    rw [le_div_iff₀ sp]
    have : 1.67 * (9.02 * uu) + 3.36e-15 ≤ 5.9e-15 := by unfold uu; norm_num
    have h0 : 0 ≤ 1.67 * (9.02 * uu) + 3.36e-15 := by have := uu_pos; positivity
    nlinarith
  have q7 : 9.1e-15 / s + 2.09e-14 / s + 5.9e-15 / s ≤ 3.6e-14 / s := by
    rw [← add_div, ← add_div]
    exact div_le_div_of_nonneg_right (by norm_num) sp.le
  linarith

/-- **C106** `GeoPath.cross_track_distance(point)`: the radius is the mean of the exact distances of the end points from the centre -/
theorem C106_cross_track (fa : IsF64 a) (a1 : 1 ≤ a) (a2 : a ≤ 1e10) (ff : IsF64 f) (f0 : 0 ≤ f) (f1 : f ≤ 0.01)
    (fA : IsF64 zA) (fB : IsF64 zB) (hA : |zA| ≤ 1e15) (hB : |zB| ≤ 1e15)
    (dA : zA ≤ 0.4 * a) (dB : zB ≤ 0.4 * a) {pA pB : V3 ℝ} (gA : Geodetic a f R (normalOf R latA lonA) zA pA)
    (gB : Geodetic a f R (normalOf R latB lonB) zB pB) {s : ℝ} (s0 : 1e-8 ≤ s) (hs : s ≤ len (cross (normalOf R latA lonA) (normalOf R latB lonB)))
    (h8 : |dot (dirOf (cross (normalOf R latA lonA) (normalOf R latB lonB))) (normalOf R latC lonC)| ≤ 0.79) :
    ∃ d : ℝ, (Path64 B a f R nmA nmB latA lonA zA latB lonB zB).cross_track_distance (.geo (Geo64 B a f R nmC latC lonC zC)) = .ok (F64.fin d) ∧
      |d - Real.arcsin (-dot (dirOf (cross (normalOf R latA lonA) (normalOf R latB lonB))) (normalOf R latC lonC)) * ((len pA + len pB) / 2)| ≤
        5.2e-14 / s * (a + |zA| + |zB|) := by
  have sp : 0 < s := lt_of_lt_of_le (by norm_num) s0
  have uA := normalOf_unit hR latA lonA
  have uB := normalOf_unit hR latB lonB
  have s1 : s ≤ 1 := by
    have := len_cross_le (normalOf R latA lonA) (normalOf R latB lonB)
    rw [uA.len, uB.len, one_mul] at this; linarith
  obtain ⟨⟨r, e, fr, b1, b2, b3, b4⟩, -⟩ := radius_flt B hR fa a1 a2 ff f0 f1 nmA nmB latA lonA latB lonB fA fB hA hB dA dB gA gB
  obtain ⟨d, h1, h2⟩ := C106_cross_track_radius B (a := a) (f := f) hR nmA nmB nmC latA lonA latB lonB latC lonC zA zB zC s0 hs h8 fr b2 b3
  refine ⟨d, ?_, ?_⟩
  · rw [← h1]
    unfold GeoPath.cross_track_distance
    congr 1
  have hβ : |Real.arcsin (-dot (dirOf (cross (normalOf R latA lonA) (normalOf R latB lonB))) (normalOf R latC lonC))| ≤ 1.58 := by
    have := Real.pi_lt_d2
    rw [abs_le]
    exact ⟨by linarith [Real.neg_pi_div_two_le_arcsin (-dot (dirOf (cross (normalOf R latA lonA) (normalOf R latB lonB))) (normalOf R latC lonC))],
      by linarith [Real.arcsin_le_pi_div_two (-dot (dirOf (cross (normalOf R latA lonA) (normalOf R latB lonB))) (normalOf R latC lonC))]⟩
  generalize Real.arcsin (-dot (dirOf (cross (normalOf R latA lonA) (normalOf R latB lonB))) (normalOf R latC lonC)) = β at *
  obtain ⟨S, hS⟩ : ∃ S, S = a + |zA| + |zB| := ⟨_, rfl⟩
  rw [← hS] at b1 b4 ⊢
  have S0 : 0 < S := by rw [hS]; have := abs_nonneg zA; have := abs_nonneg zB; linarith
  generalize (len pA + len pB) / 2 = r' at *
  have q1 := abs_add_le (d - β * r) (β * (r - r'))
  rw [show d - β * r + β * (r - r') = d - β * r' by ring, abs_mul] at q1
  have q2 := mul_le_mul hβ b1 (abs_nonneg _) (by norm_num)
  have q3 := mul_le_mul_of_nonneg_left b4 (show 0 ≤ 3.6e-14 / s by positivity)
  have q4 : 1.58 * (9.7e-15 * S) ≤ 1.54e-14 / s * S := by
    rw [← mul_assoc]
    refine mul_le_mul_of_nonneg_right ?_ S0.le
    rw [le_div_iff₀ sp]
    norm_num; linarith
  have q5 : 3.6e-14 / s * (1.0001 * S) + 1.54e-14 / s * S = (3.6e-14 * 1.0001 + 1.54e-14) / s * S := by ring
  have q6 : (3.6e-14 * 1.0001 + 1.54e-14) / s * S ≤ 5.2e-14 / s * S :=
    mul_le_mul_of_nonneg_right (div_le_div_of_nonneg_right (by norm_num) sp.le) S0.le
  linarith

/-- **C106** the absolute value of the cross track distance is, up to the same error, the least distance to a position of the great circle -/
theorem C106_least {s r : ℝ} (s0 : 1e-8 ≤ s) (hs : s ≤ len (cross (normalOf R latA lonA) (normalOf R latB lonB)))
    {D : ℝ} (hD : IsLeast {d | ∃ Q, OnCircle (normalOf R latA lonA) (normalOf R latB lonB) Q ∧ d = angle (normalOf R latC lonC) Q} D) (h9 : D ≤ 0.9)
    (fr : IsF64 r) (r1 : 1e-20 ≤ r) (r2 : r ≤ 1e20) :
    ∃ d : ℝ, (Path64 B a f R nmA nmB latA lonA zA latB lonB zB).cross_track_distance (.geo (Geo64 B a f R nmC latC lonC zC)) "greatcircle" (some (F64.fin r)) = .ok (F64.fin d) ∧
      |(|d|) - D * r| ≤ 3.6e-14 / s * r := by
  have rp : 0 < r := lt_of_lt_of_le (by norm_num) r1
  have uC := normalOf_unit hR latC lonC
  have hc0 : cross (normalOf R latA lonA) (normalOf R latB lonB) ≠ 0 := by intro h; rw [h, len_eq_zero.mpr rfl] at hs; norm_num at s0; linarith
  have hl := least_angle hc0 uC.ne
  rw [dirOf_of_unit uC] at hl
  have hDe := hD.unique hl
  rw [hDe] at h9 ⊢
  have hx := abs_dot_dir (dirOf_unit hc0) uC.ne
  rw [dirOf_of_unit uC] at hx
  have h8 : |dot (dirOf (cross (normalOf R latA lonA) (normalOf R latB lonB))) (normalOf R latC lonC)| ≤ 0.79 := by
    obtain ⟨x, hx'⟩ : ∃ x, x = -dot (dirOf (cross (normalOf R latA lonA) (normalOf R latB lonB))) (normalOf R latC lonC) := ⟨_, rfl⟩
    rw [← abs_neg, ← hx'] at hx ⊢
    rw [← hx'] at h9
    obtain ⟨x1, x2⟩ := abs_le.mp hx
    have e : |x| = Real.sin |Real.arcsin x| := by
      rcases le_total 0 x with h | h
      · rw [abs_of_nonneg h, abs_of_nonneg (Real.arcsin_nonneg.mpr h), Real.sin_arcsin x1 x2]
      · rw [abs_of_nonpos h, abs_of_nonpos (Real.arcsin_nonpos.mpr h), Real.sin_neg, Real.sin_arcsin x1 x2]
    rw [e]
    have h3 : Real.sin |Real.arcsin x| ≤ Real.sin 0.9 := by
      apply Real.sin_le_sin_of_le_of_le_pi_div_two
      · have := Real.pi_pos; linarith [abs_nonneg (Real.arcsin x)]
      · have := Real.pi_gt_three; norm_num; linarith
      · exact h9
    refine h3.trans ?_
    have hb := Real.sin_bound (x := 0.9) (by norm_num)
    have := (abs_le.mp hb).2
    have hle := Real.sin_lt (x := 0.9) (by norm_num)
    norm_num at this ⊢
    linarith
  obtain ⟨d, h1, h2⟩ := C106_cross_track_radius B (a := a) (f := f) hR nmA nmB nmC latA lonA latB lonB latC lonC zA zB zC s0 hs h8 fr r1 r2
  refine ⟨d, h1, ?_⟩
  generalize Real.arcsin (-dot (dirOf (cross (normalOf R latA lonA) (normalOf R latB lonB))) (normalOf R latC lonC)) = β at *
  rw [show |β| * r = |β * r| by rw [abs_mul, abs_of_pos rp]]
  exact (abs_abs_sub_abs_le_abs_sub d (β * r)).trans h2

end

/-! ## C107 -/

/-- two great circles meet in two points -/
theorem onBoth_eq {A1 A2 B1 B2 Q : V3 ℝ} (hw : cross (cross A1 A2) (cross B1 B2) ≠ 0) (h1 : OnCircle A1 A2 Q) (h2 : OnCircle B1 B2 Q) :
    Q = dirOf (cross (cross A1 A2) (cross B1 B2)) ∨ Q = -dirOf (cross (cross A1 A2) (cross B1 B2)) := by
  have hA : ProperPath A1 A2 := cross_ne_zero_left hw
  have hB : ProperPath B1 B2 := cross_ne_zero_right hw
  have h1' := (onCircle_iff hA).mp h1
  have h2' := (onCircle_iff hB).mp h2
  have hcr : cross Q (cross (cross A1 A2) (cross B1 B2)) = 0 := by
    rw [cross_cross', dot_comm Q, dot_comm Q, h1'.2, h2'.2]; ext <;> simp
  obtain ⟨c, hc⟩ := cross_eq_zero_smul hw hcr
  have hl := len_pos hw
  have hQ : Q = (c * len (cross (cross A1 A2) (cross B1 B2))) • dirOf (cross (cross A1 A2) (cross B1 B2)) := by
    rw [hc]; unfold dirOf; ext <;> simp <;> field_simp
  have hsq : (c * len (cross (cross A1 A2) (cross B1 B2))) ^ 2 = 1 := by
    have := congrArg len hQ
    rw [len_smul, h1'.1.len, (dirOf_unit hw).len, mul_one] at this
    rw [← sq_abs, ← this]; norm_num
  rcases sq_eq_one_iff_of_side hsq with h | h
  · left; rw [hQ, h]; ext <;> simp
  · right; rw [hQ, h]; ext <;> simp

/-- the mean of four depths -/
theorem mean4_flt {z1 z2 z3 z4 Z : ℝ} (f1 : IsF64 z1) (f2 : IsF64 z2) (f3 : IsF64 z3) (f4 : IsF64 z4) (hZ : |z1| + |z2| + |z3| + |z4| ≤ Z) (Z1 : Z ≤ 1e20) :
    ∃ z : ℝ, ((F64.fin z1 : F64 B) + F64.fin z2 + F64.fin z3 + F64.fin z4) / lit 4 = F64.fin z ∧ IsF64 z ∧
      |z - (z1 + z2 + z3 + z4) / 4| ≤ 1.2e-16 * Z + 1 / 10 ^ 50 := by
  have hu := uu_pos
  have u1 : uu ≤ 1e-6 := by unfold uu; norm_num
  have n1 := abs_nonneg z1; have n2 := abs_nonneg z2; have n3 := abs_nonneg z3; have n4 := abs_nonneg z4
  have Z0 : 0 ≤ Z := by linarith
  obtain ⟨g, hg⟩ : ∃ g, g = uu * Z := ⟨_, rfl⟩
  obtain ⟨τ, hτ⟩ : ∃ τ : ℝ, τ = 1 / 10 ^ 60 := ⟨_, rfl⟩
  obtain ⟨L, hL⟩ : ∃ L : ℝ, L = 10 ^ 60 := ⟨_, rfl⟩
  have τ0 : 0 < τ := by rw [hτ]; positivity
  have τ1 : τ ≤ 1 := by rw [hτ]; norm_num
  have L1 : 1e21 ≤ L := by rw [hL]; norm_num
  have g0 : 0 ≤ g := by rw [hg]; positivity
  have ug : uu * g ≤ 1e-6 * g := mul_le_mul_of_nonneg_right u1 g0
  have uτ : uu * τ ≤ 1e-6 * τ := mul_le_mul_of_nonneg_right u1 τ0.le
  have gZ : g ≤ 1e-6 * Z := by rw [hg]; exact mul_le_mul_of_nonneg_right u1 Z0
  have A1 : App (F64.fin z1 : F64 B) z1 0 := App.exact f1
  have A2 : App (F64.fin z2 : F64 B) z2 0 := App.exact f2
  have A3 : App (F64.fin z3 : F64 B) z3 0 := App.exact f3
  have A4 : App (F64.fin z4 : F64 B) z4 0 := App.exact f4
  have h4 : App (lit 4 : F64 B) 4 0 := by
    rw [lit_four]
    exact App.exact (by simpa using isF64_int (n := 4) (by norm_num))
  have b2 : |z1 + z2| ≤ Z := by have := abs_add_le z1 z2; linarith
  have b3 : |z1 + z2 + z3| ≤ Z := by have := abs_add_le z1 z2; have := abs_add_le (z1 + z2) z3; linarith
  have b4 : |z1 + z2 + z3 + z4| ≤ Z := by
    have := abs_add_le z1 z2; have := abs_add_le (z1 + z2) z3; have := abs_add_le (z1 + z2 + z3) z4; linarith
  have S2 := A1.add A2 b2 (e := g + τ) (by rw [← hτ, add_zero, add_zero, ← hg]; linarith) (by rw [← hL]; norm_num at Z1 L1 ⊢; linarith)
  have S3 := S2.add A3 b3 (e := 2.001 * g + 3 * τ) (by
    rw [← hτ, show g + τ + 0 + uu * (Z + (g + τ + 0)) + τ = g + uu * Z + uu * g + uu * τ + 2 * τ by ring, ← hg]
    norm_num at ug uτ ⊢; linarith) (by rw [← hL]; norm_num at gZ Z1 L1 ⊢; linarith)
  have S4 := S3.add A4 b4 (e := 3.003 * g + 5 * τ) (by
    rw [← hτ, show 2.001 * g + 3 * τ + 0 + uu * (Z + (2.001 * g + 3 * τ + 0)) + τ = 2.001 * g + uu * Z + 2.001 * (uu * g) + 3 * (uu * τ) + 4 * τ by ring, ← hg]
    norm_num at ug uτ ⊢; linarith) (by rw [← hL]; norm_num at gZ Z1 L1 ⊢; linarith)
  have b5 : |(z1 + z2 + z3 + z4) / 4| ≤ Z / 4 := by rw [abs_div, abs_of_pos (by norm_num : (0 : ℝ) < 4)]; linarith
  obtain ⟨z, e1, e2, e3⟩ := S4.div h4 (m := 4) (by norm_num) (by norm_num) b5 (e := 1.002 * g + 3 * τ) (by
    rw [← hτ, show (3.003 * g + 5 * τ + Z / 4 * 0) / (4 - 0) + uu * (Z / 4 + (3.003 * g + 5 * τ + Z / 4 * 0) / (4 - 0)) + τ =
      0.75075 * g + uu * Z / 4 + 0.75075 * (uu * g) + 1.25 * (uu * τ) + 2.25 * τ by ring, ← hg]
    norm_num at ug uτ ⊢; linarith) (by
    rw [← hL, mul_zero, add_zero, sub_zero]
    norm_num at gZ Z1 L1 ⊢; linarith)
  refine ⟨z, e1, e2, e3.trans ?_⟩
  have k1 : 1.002 * g ≤ 1.2e-16 * Z := by
    rw [hg, ← mul_assoc]
    exact mul_le_mul_of_nonneg_right (by unfold uu; norm_num) Z0
  have k2 : 3 * τ ≤ 1 / 10 ^ 50 := by rw [hτ]; norm_num
  linarith

section
variable (hR : IsAxes R) (nmA nmB nmC nmD : EllKey) (latA lonA latB lonB latC lonC latD lonD : ℝ) {zA zB zC zD : ℝ}
include hR

/-- **C107** `GeoPath.intersect(path)` between geographic points: the n-vector is within `3.6e-14 / s` per component of the intersection `C` of the exact
great circles in the hemisphere of the start point, the depth is the mean of the four depths.  `s` is a lower bound of the length of `(A × B) × (C × D)`, `t` of the
cosine of the angle between the start point and the intersection. -/
theorem C107_intersect (fA : IsF64 zA) (fB : IsF64 zB) (fC : IsF64 zC) (fD : IsF64 zD) (hZ : |zA| + |zB| + |zC| + |zD| ≤ 1e20) {s t : ℝ} (s0 : 1e-8 ≤ s)
    (hs : s ≤ len (cross (cross (normalOf R latA lonA) (normalOf R latB lonB)) (cross (normalOf R latC lonC) (normalOf R latD lonD))))
    (ht : ∀ Q, OnCircle (normalOf R latA lonA) (normalOf R latB lonB) Q → OnCircle (normalOf R latC lonC) (normalOf R latD lonD) Q → t ≤ |dot Q (normalOf R latA lonA)|)
    (hst : 2e-13 ≤ s * t) :
    ∃ (w C : V3 ℝ) (z : ℝ), (Path64 B a f R nmA nmB latA lonA zA latB lonB zB).intersect (Path64 B a f R nmC nmD latC lonC zC latD lonD zD) =
        .ok ⟨w.flt, F64.fin z, Frame64 B a f R nmA⟩ ∧ IsF64V w ∧ IsF64 z ∧
      OnCircle (normalOf R latA lonA) (normalOf R latB lonB) C ∧ OnCircle (normalOf R latC lonC) (normalOf R latD lonD) C ∧ 0 < dot C (normalOf R latA lonA) ∧
      CloseV w C (3.6e-14 / s) ∧ |z - (zA + zB + zC + zD) / 4| ≤ 1.2e-16 * (|zA| + |zB| + |zC| + |zD|) + 1 / 10 ^ 50 := by
  have sp : 0 < s := lt_of_lt_of_le (by norm_num) s0
  have t0 : 0 < t := by by_contra hh; push Not at hh; nlinarith
  obtain ⟨v1, e1, g1, v10, -, l1, d1, -⟩ := geo_near B hR latA lonA
  obtain ⟨v2, e2, g2, -, -, l2, d2, -⟩ := geo_near B hR latB lonB
  obtain ⟨v3, e3, g3, -, -, l3, d3, -⟩ := geo_near B hR latC lonC
  obtain ⟨v4, e4, g4, -, -, l4, d4, -⟩ := geo_near B hR latD lonD
  have uA := normalOf_unit hR latA lonA
  have uB := normalOf_unit hR latB lonB
  have uC := normalOf_unit hR latC lonC
  have uD := normalOf_unit hR latD lonD
  generalize normalOf R latA lonA = A at *
  generalize normalOf R latB lonB = A2 at *
  generalize normalOf R latC lonC = C1 at *
  generalize normalOf R latD lonD = C2 at *
  have x1 : len (cross v1 v2 - cross A A2) ≤ 6.21e-15 := by
    have := cross_move d1 d2 uA.len.le l2
    norm_num at this ⊢; linarith
  have x2 : len (cross v3 v4 - cross C1 C2) ≤ 6.21e-15 := by
    have := cross_move d3 d4 uC.len.le l4
    norm_num at this ⊢; linarith
  have k1 : len (cross A A2) ≤ 1 := by
    have := len_cross_le A A2
    rw [uA.len, uB.len] at this; linarith
  have k2 : len (cross C1 C2) ≤ 1 := by
    have := len_cross_le C1 C2
    rw [uC.len, uD.len] at this; linarith
  have k2' : len (cross v3 v4) ≤ 1.003 := by
    have := len_cross_le v3 v4
    have := mul_le_mul l3 l4 (len_nonneg' _) (by norm_num)
    norm_num at this ⊢; linarith
  have x3 : len (cross (cross v1 v2) (cross v3 v4) - cross (cross A A2) (cross C1 C2)) ≤ 1.25e-14 := by
    have := cross_move x1 x2 k1 k2'
    norm_num at this ⊢; linarith
  have k3 : len (cross (cross A A2) (cross C1 C2)) ≤ 1 := by
    have := len_cross_le (cross A A2) (cross C1 C2)
    have := mul_le_mul k1 k2 (len_nonneg' _) (by norm_num)
    linarith
  have s1 : s ≤ 1 := hs.trans k3
  have hg := len_sub_ge x3
  have hs' : 0.999 * s ≤ len (cross (cross v1 v2) (cross v3 v4)) := by norm_num at hg s0 ⊢; linarith
  have w0 : cross (cross A A2) (cross C1 C2) ≠ 0 := by intro h; rw [h, len_eq_zero.mpr rfl] at hs; linarith
  have w0' : cross (cross v1 v2) (cross v3 v4) ≠ 0 := by intro h; rw [h, len_eq_zero.mpr rfl] at hs'; norm_num at hs'; linarith
  obtain ⟨oA, oB⟩ := onCircle_w w0
  have hdir := len_dirOf_sub_le sp hs w0' x3
  have htd := ht _ oA oB
  have key := fun (Q : V3 ℝ) (h1 : OnCircle v1 v2 Q) (h2 : OnCircle v3 v4 Q) => onBoth_eq w0' h1 h2
  have uW := dirOf_unit w0
  have uW' := dirOf_unit w0'
  generalize dirOf (cross (cross A A2) (cross C1 C2)) = D at *
  generalize dirOf (cross (cross v1 v2) (cross v3 v4)) = D' at *
  have hst' : 2.9e-14 / s ≤ 0.15 * t := by
    rw [div_le_iff₀ sp]; norm_num at hst ⊢; linarith
  have hdd : |dot D' v1 - dot D A| ≤ 0.15 * t := by
    have h := dot_move hdir d1 l1 uW.len.le
    have h3 : 3.1e-15 ≤ 3.1e-15 / s := by
      rw [le_div_iff₀ sp]; norm_num; linarith
    have h4 : 1.001 * (2 * 1.25e-14 / s) + 3.1e-15 / s ≤ 2.9e-14 / s := by
      rw [show 1.001 * (2 * 1.25e-14 / s) + 3.1e-15 / s = (1.001 * 2 * 1.25e-14 + 3.1e-15) / s by ring]
      exact div_le_div_of_nonneg_right (by norm_num) sp.le
    linarith
  obtain ⟨w, C', hi, fw, -, oC1, oC2, hpos, -, hcl⟩ := C104_intersect B g1 g2 g3 g4 (s := 0.999 * s) (t := 0.8 * t) (by norm_num at l1 ⊢; linarith)
    (by norm_num at l2 ⊢; linarith) (by norm_num at l3 ⊢; linarith) (by norm_num at l4 ⊢; linarith) (by norm_num at s0 ⊢; linarith) hs' (by
      intro Q h1 h2
      have hQ : |dot Q v1| = |dot D' v1| := by
        rcases key Q h1 h2 with h | h
        · rw [h]
        · rw [h, dot_neg_left, abs_neg]
      rw [hQ]
      have := abs_sub_abs_le_abs_sub (dot D A) (dot D' v1)
      rw [abs_sub_comm] at hdd
      linarith) (by
      rw [show 0.999 * s * (0.8 * t) = 0.999 * 0.8 * (s * t) by ring]
      norm_num at hst ⊢; linarith)
  obtain ⟨z, hz, fz, bz⟩ := mean4_flt B fA fB fC fD le_rfl hZ
  have hI : (Path64 B a f R nmA nmB latA lonA zA latB lonB zB).intersect (Path64 B a f R nmC nmD latC lonC zC latD lonD zD) =
      .ok ⟨w.flt, F64.fin z, Frame64 B a f R nmA⟩ := by
    change Except.ok (⟨Nv.intersect (lat_lon2n_E (F64.fin latA) (F64.fin lonA) R.flt, lat_lon2n_E (F64.fin latB) (F64.fin lonB) R.flt)
      (lat_lon2n_E (F64.fin latC) (F64.fin lonC) R.flt, lat_lon2n_E (F64.fin latD) (F64.fin lonD) R.flt),
      (F64.fin zA + F64.fin zB + F64.fin zC + F64.fin zD) / lit 4, Frame64 B a f R nmA⟩ : Nvector (F64 B)) = _
    rw [e1, e2, e3, e4, hi, hz]
  obtain ⟨q1, q2⟩ := abs_le.mp hdd
  have hE : 9.4e-15 / (0.999 * s) + 2 * 1.25e-14 / s ≤ 3.6e-14 / s := by
    have : 9.4e-15 / (0.999 * s) ≤ 9.5e-15 / s := by
      rw [div_le_div_iff₀ (by positivity) sp]; norm_num; linarith
    have h2 : 9.5e-15 / s + 2 * 1.25e-14 / s ≤ 3.6e-14 / s := by
      rw [← add_div]
      exact div_le_div_of_nonneg_right (by norm_num) sp.le
    linarith
  have hDD : CloseV D' D (2 * 1.25e-14 / s) := Spec.CloseV.of_len hdir
  rcases key C' oC1 oC2 with h | h
  · rw [h] at hpos hcl
    have hp : 0 < dot D A := by
      by_contra hh; push Not at hh
      rw [abs_of_nonpos hh] at htd; linarith
    exact ⟨w, D, z, hI, fw, fz, oA, oB, hp, (hcl.trans hDD).mono hE, bz⟩
  · rw [h] at hpos hcl
    have hp : 0 < dot (-D) A := by
      rw [dot_neg_left] at hpos ⊢
      by_contra hh; push Not at hh
      rw [abs_of_nonneg (by linarith)] at htd; linarith
    exact ⟨w, -D, z, hI, fw, fz, oA.neg, oB.neg, hp, (hcl.trans hDD.neg).mono hE, bz⟩

end

/-- the interpolated depth -/
theorem mix_depth_flt {z1 z2 t T Z : ℝ} (f1 : IsF64 z1) (f2 : IsF64 z2) (ft : IsF64 t) (hZ : |z1| + |z2| ≤ Z) (Z1 : Z ≤ 1e20) (T1 : 1 ≤ T) (T2 : T ≤ 40) (ht : |t| ≤ T) :
    ∃ z : ℝ, (F64.fin z1 : F64 B) + (F64.fin z2 - F64.fin z1) * F64.fin t = F64.fin z ∧ IsF64 z ∧
      |z - (z1 + (z2 - z1) * t)| ≤ 4.5e-16 * T * Z + 1 / 10 ^ 50 := by
  have hu := uu_pos
  have u1 : uu ≤ 1e-6 := by unfold uu; norm_num
  have n1 := abs_nonneg z1; have n2 := abs_nonneg z2
  have Z0 : 0 ≤ Z := by linarith
  have TZ0 : 0 ≤ T * Z := mul_nonneg (by linarith) Z0
  obtain ⟨g, hg⟩ : ∃ g, g = uu * Z := ⟨_, rfl⟩
  obtain ⟨h, hh⟩ : ∃ h, h = T * g := ⟨_, rfl⟩
  obtain ⟨τ, hτ⟩ : ∃ τ : ℝ, τ = 1 / 10 ^ 60 := ⟨_, rfl⟩
  obtain ⟨L, hL⟩ : ∃ L : ℝ, L = 10 ^ 60 := ⟨_, rfl⟩
  have τ0 : 0 < τ := by rw [hτ]; positivity
  have τ1 : τ ≤ 1 := by rw [hτ]; norm_num
  have L1 : 1e30 ≤ L := by rw [hL]; norm_num
  have g0 : 0 ≤ g := by rw [hg]; positivity
  have h0 : 0 ≤ h := by rw [hh]; exact mul_nonneg (by linarith) g0
  have gh : g ≤ h := by rw [hh]; nlinarith
  have ug : uu * g ≤ 1e-6 * g := mul_le_mul_of_nonneg_right u1 g0
  have uh : uu * h ≤ 1e-6 * h := mul_le_mul_of_nonneg_right u1 h0
  have Tτ : T * τ ≤ 40 * τ := mul_le_mul_of_nonneg_right T2 τ0.le
  have Tτ0 : 0 ≤ T * τ := mul_nonneg (by linarith) τ0.le
  have uTτ : uu * (T * τ) ≤ 1e-6 * (T * τ) := mul_le_mul_of_nonneg_right u1 Tτ0
  have uτ : uu * τ ≤ 1e-6 * τ := mul_le_mul_of_nonneg_right u1 τ0.le
  have gZ : g ≤ 1e-6 * Z := by rw [hg]; exact mul_le_mul_of_nonneg_right u1 Z0
  have TZ : T * Z ≤ 40 * Z := mul_le_mul_of_nonneg_right T2 Z0
  have hTZ : h ≤ 1e-6 * (T * Z) := by
    rw [hh]
    have := mul_le_mul_of_nonneg_left gZ (by linarith : (0 : ℝ) ≤ T)
    linarith
  have euh : uu * (T * Z) = h := by rw [hh, hg]; ring
  have A1 : App (F64.fin z1 : F64 B) z1 0 := App.exact f1
  have A2 : App (F64.fin z2 : F64 B) z2 0 := App.exact f2
  have At : App (F64.fin t : F64 B) t 0 := App.exact ft
  have b2 : |z2 - z1| ≤ Z := by have := abs_sub z2 z1; linarith
  have S := A2.sub A1 b2 (e := g + τ) (by rw [← hτ, add_zero, add_zero, ← hg]; linarith) (by rw [← hL]; norm_num at Z1 L1 ⊢; linarith)
  have b3 : |(z2 - z1) * t| ≤ T * Z := by
    rw [abs_mul, mul_comm]; exact mul_le_mul ht b2 (abs_nonneg _) (by linarith)
  have M := S.mul At b2 ht b3 (e := 2.001 * h + 42 * τ) (by
    rw [← hτ, show Z * 0 + T * (g + τ) + (g + τ) * 0 + uu * (T * Z + (Z * 0 + T * (g + τ) + (g + τ) * 0)) + τ =
      T * g + T * τ + uu * (T * Z) + uu * (T * g) + uu * (T * τ) + τ by ring, euh, ← hh]
    norm_num at uh Tτ uTτ ⊢; linarith) (by
    rw [← hL, show T * Z + (Z * 0 + T * (g + τ) + (g + τ) * 0) = T * Z + T * g + T * τ by ring, ← hh]
    norm_num at hTZ Z1 L1 ⊢; linarith)
  have b4 : |z1 + (z2 - z1) * t| ≤ 2 * (T * Z) := by
    have := abs_add_le z1 ((z2 - z1) * t)
    have : Z ≤ T * Z := by nlinarith
    linarith
  obtain ⟨z, e1, e2, e3⟩ := A1.add M b4 (e := 4.003 * h + 50 * τ) (by
    rw [← hτ, show 0 + (2.001 * h + 42 * τ) + uu * (2 * (T * Z) + (0 + (2.001 * h + 42 * τ))) + τ =
      2.001 * h + 2 * (uu * (T * Z)) + 2.001 * (uu * h) + 42 * (uu * τ) + 43 * τ by ring, euh]
    norm_num at uh uτ ⊢; linarith) (by
    rw [← hL]
    norm_num at hTZ Z1 L1 ⊢; linarith)
  refine ⟨z, e1, e2, e3.trans ?_⟩
  have k1 : 4.003 * h ≤ 4.5e-16 * T * Z := by
    rw [hh, hg, show 4.003 * (T * (uu * Z)) = 4.003 * uu * (T * Z) by ring, mul_assoc (4.5e-16 : ℝ)]
    exact mul_le_mul_of_nonneg_right (by unfold uu; norm_num) TZ0
  have k2 : 50 * τ ≤ 1 / 10 ^ 50 := by rw [hτ]; norm_num
  linarith

section
variable (hR : IsAxes R) (fa : IsF64 a) (a1 : 1 ≤ a) (a2 : a ≤ 1e10) (ff : IsF64 f) (f0 : 0 ≤ f) (f1 : f ≤ 0.01)
  (nmA nmB nmC : EllKey) (latA lonA latB lonB latC lonC : ℝ) {zA zB : ℝ} (zC : ℝ)
include hR

include fa a1 a2 ff f0 f1 in
/-- **C107** `GeoPath.interpolate(ti)` between geographic points, `|ti| ≤ T ≤ 40`: the n-vector is within `5.7e-16 + 2.2e-14 T / s` of the exact interpolated position `C`,
the depth is interpolated linearly.  `s` is a lower bound of the length of `(1 - ti) A + ti B`. -/
theorem C107_interpolate (fA : IsF64 zA) (fB : IsF64 zB) (hZ : |zA| + |zB| ≤ 1e20) {s t T : ℝ} (ft : IsF64 t) (T1 : 1 ≤ T) (T2 : T ≤ 40) (ht : |t| ≤ T)
    (s0 : 1e-8 ≤ s) (hs : s ≤ len ((1 - t) • normalOf R latA lonA + t • normalOf R latB lonB)) :
    ∃ (w C : V3 ℝ) (z : ℝ), (Path64 B a f R nmA nmB latA lonA zA latB lonB zB).interpolate (F64.fin t) = .ok ⟨w.flt, F64.fin z, Frame64 B a f R nmA⟩ ∧
      IsF64V w ∧ IsF64 z ∧ Nv.interpolate ((normalOf R latA lonA).fin, (normalOf R latB lonB).fin) (XR.fin t) = C.fin ∧
      OnCircle (normalOf R latA lonA) (normalOf R latB lonB) C ∧ (0 ≤ t → t ≤ 1 → OnArc (normalOf R latA lonA) (normalOf R latB lonB) C) ∧
      CloseV w C (5.7e-16 + 2.2e-14 * T / s) ∧ |z - (zA + (zB - zA) * t)| ≤ 4.5e-16 * T * (|zA| + |zB|) + 1 / 10 ^ 50 := by
  have sp : 0 < s := lt_of_lt_of_le (by norm_num) s0
  obtain ⟨v1, e1, g1, v10, -, l1, d1, -⟩ := geo_near B hR latA lonA
  obtain ⟨v2, e2, g2, -, -, l2, d2, -⟩ := geo_near B hR latB lonB
  generalize normalOf R latA lonA = A at *
  generalize normalOf R latB lonB = C at *
  obtain ⟨z, hz, fz, bz⟩ := mix_depth_flt B fA fB ft le_rfl hZ T1 T2 ht
  have hm : len (mix v1 v2 t - mix A C t) ≤ 9.3e-15 * T := by
    have e : mix v1 v2 t - mix A C t = (1 - t) • (v1 - A) + t • (v2 - C) := by unfold mix; ext <;> simp <;> ring
    rw [e]
    have h := len_add_le ((1 - t) • (v1 - A)) (t • (v2 - C))
    rw [len_smul, len_smul] at h
    have h1 : |1 - t| ≤ 2 * T := by
      have := abs_sub 1 t; rw [abs_one] at this; linarith
    have h2 := mul_le_mul h1 d1 (len_nonneg' _) (by linarith)
    have h3 := mul_le_mul ht d2 (len_nonneg' _) (by linarith)
    norm_num at h2 h3 ⊢; linarith
  rw [← mix_eq] at hs
  have sT : 9.3e-15 * T ≤ 0.01 * s := by norm_num at s0 T2 ⊢; linarith
  have hg := len_sub_ge hm
  have hs' : 0.99 * s ≤ len (mix v1 v2 t) := by norm_num at hg sT ⊢; linarith
  have m0 : mix A C t ≠ 0 := by intro h; rw [h, len_eq_zero.mpr rfl] at hs; linarith
  have m0' : mix v1 v2 t ≠ 0 := by intro h; rw [h, len_eq_zero.mpr rfl] at hs'; norm_num at hs'; linarith
  obtain ⟨w, C', hi, fw, hx, -, -, cw⟩ := C105_interpolate B g1 g2 ft (by norm_num at l1 ⊢; linarith) (by norm_num at l2 ⊢; linarith) T1 T2 ht (s := 0.99 * s)
    (by norm_num at s0 ⊢; linarith) (by rw [← mix_eq]; exact hs') (by norm_num at s0 T2 ⊢; linarith)
  rw [interpolate_fin m0', V3.fin_inj] at hx
  have hd := len_dirOf_sub_le sp hs m0' hm
  rw [hx] at hd
  have hl := len_pos m0
  refine ⟨w, dirOf (mix A C t), z, ?_, fw, fz, interpolate_fin m0, ⟨dirOf_unit m0, (len (mix A C t))⁻¹ * (1 - t), (len (mix A C t))⁻¹ * t, ?_⟩, ?_, ?_, bz⟩
  · have c1 := check_self B hR fa a1 a2 ff f0 f1 nmB nmA
    have c2 := check_self B hR fa a1 a2 ff f0 f1 nmA nmB
    unfold GeoPath.interpolate
    unfold Nvector.sub Nvector.add Nvector.mul
    have n1 : (Path64 B a f R nmA nmB latA lonA zA latB lonB zB).nvectors.1 = ⟨v1.flt, F64.fin zA, Frame64 B a f R nmA⟩ := by rw [← e1]; rfl
    have n2 : (Path64 B a f R nmA nmB latA lonA zA latB lonB zB).nvectors.2 = ⟨v2.flt, F64.fin zB, Frame64 B a f R nmB⟩ := by rw [← e2]; rfl
    simp only [n1, n2, c1, c2, bind, Except.bind, pure, Except.pure]
    rw [← hi, ← hz]
    rfl
  · unfold dirOf; conv_lhs => rw [mix_eq A C t]
    ext <;> simp [mix_eq] <;> ring
  · intro h0 h1
    refine ⟨dirOf_unit m0, (len (mix A C t))⁻¹ * (1 - t), (len (mix A C t))⁻¹ * t,
      mul_nonneg (inv_nonneg.mpr hl.le) (by linarith), mul_nonneg (inv_nonneg.mpr hl.le) h0, ?_⟩
    unfold dirOf; conv_lhs => rw [mix_eq A C t]
    ext <;> simp [mix_eq] <;> ring
  · refine (cw.trans (Spec.CloseV.of_len hd)).mono ?_
    have h1 : 3.01e-15 * T / (0.99 * s) = 3.01e-15 / 0.99 * T / s := by field_simp
    have h2 : 3.01e-15 / 0.99 * T / s + 2 * (9.3e-15 * T) / s ≤ 2.2e-14 * T / s := by
      rw [← add_div]
      refine div_le_div_of_nonneg_right ?_ sp.le
      norm_num; linarith
    rw [h1]; linarith

/-- half the sum of two depths -/
theorem mean2_flt {z1 z2 Z : ℝ} (f1 : IsF64 z1) (f2 : IsF64 z2) (hZ : |z1| + |z2| ≤ Z) (Z1 : Z ≤ 1e20) :
    ∃ z : ℝ, ((F64.fin z1 : F64 B) + F64.fin z2) * lit 0.5 = F64.fin z ∧ IsF64 z ∧ |z - (z1 + z2) / 2| ≤ 1.2e-16 * Z + 1 / 10 ^ 50 := by
  have hu := uu_pos
  have u1 : uu ≤ 1e-6 := by unfold uu; norm_num
  have n1 := abs_nonneg z1; have n2 := abs_nonneg z2
  have Z0 : 0 ≤ Z := by linarith
  obtain ⟨g, hg⟩ : ∃ g, g = uu * Z := ⟨_, rfl⟩
  obtain ⟨τ, hτ⟩ : ∃ τ : ℝ, τ = 1 / 10 ^ 60 := ⟨_, rfl⟩
  obtain ⟨L, hL⟩ : ∃ L : ℝ, L = 10 ^ 60 := ⟨_, rfl⟩
  have τ0 : 0 < τ := by rw [hτ]; positivity
  have τ1 : τ ≤ 1 := by rw [hτ]; norm_num
  have L1 : 1e21 ≤ L := by rw [hL]; norm_num
  have g0 : 0 ≤ g := by rw [hg]; positivity
  have ug : uu * g ≤ 1e-6 * g := mul_le_mul_of_nonneg_right u1 g0
  have uτ : uu * τ ≤ 1e-6 * τ := mul_le_mul_of_nonneg_right u1 τ0.le
  have gZ : g ≤ 1e-6 * Z := by rw [hg]; exact mul_le_mul_of_nonneg_right u1 Z0
  have A1 : App (F64.fin z1 : F64 B) z1 0 := App.exact f1
  have A2 : App (F64.fin z2 : F64 B) z2 0 := App.exact f2
  have h5 : App (lit 0.5 : F64 B) (1 / 2) 0 := by
    have hf : IsF64 ((0.5 : ℚ) : ℝ) := ⟨1, -1, by norm_num, by norm_num, by norm_num⟩
    refine ⟨_, fin_lit (by norm_num), B.rounds.val _, ?_⟩
    rw [B.rounds.exact hf]; norm_num
  have b2 : |z1 + z2| ≤ Z := by have := abs_add_le z1 z2; linarith
  have S2 := A1.add A2 b2 (e := g + τ) (by rw [← hτ, add_zero, add_zero, ← hg]; linarith) (by rw [← hL]; norm_num at Z1 L1 ⊢; linarith)
  have b5 : |(z1 + z2) * (1 / 2)| ≤ Z / 2 := by rw [abs_mul, abs_of_pos (by norm_num : (0 : ℝ) < 1 / 2)]; linarith
  obtain ⟨z, e1, e2, e3⟩ := S2.mul h5 b2 (bY := 1 / 2) (by norm_num) b5 (e := 1.001 * g + 3 * τ) (by
    rw [← hτ, show Z * 0 + 1 / 2 * (g + τ) + (g + τ) * 0 + uu * (Z / 2 + (Z * 0 + 1 / 2 * (g + τ) + (g + τ) * 0)) + τ =
      0.5 * g + 0.5 * (uu * Z) + 0.5 * (uu * g) + 0.5 * (uu * τ) + 1.5 * τ by ring, ← hg]
    norm_num at ug uτ ⊢; linarith) (by
    rw [← hL]
    norm_num at gZ Z1 L1 ⊢; linarith)
  refine ⟨z, e1, e2, ?_⟩
  rw [show (z1 + z2) / 2 = (z1 + z2) * (1 / 2) by ring]
  refine e3.trans ?_
  have k1 : 1.001 * g ≤ 1.2e-16 * Z := by
    rw [hg, ← mul_assoc]
    exact mul_le_mul_of_nonneg_right (by unfold uu; norm_num) Z0
  have k2 : 3 * τ ≤ 1 / 10 ^ 50 := by rw [hτ]; norm_num
  linarith

/-- the geographic point of a computed n-vector -/
theorem latlon_of_near {w C : V3 ℝ} {e : ℝ} (fw : IsF64V w) (hC : UnitVec C) (h : len (w - C) ≤ e) (he : e ≤ 0.1) :
    ∃ lat lon : ℝ, n_E2lat_lon (w.flt : V3 (F64 B)) R.flt = (F64.fin lat, F64.fin lon) ∧ IsF64 lat ∧ IsF64 lon ∧ len (normalOf R lat lon - C) ≤ 2 * e + 2.9e-15 := by
  have hg := len_sub_ge h
  rw [hC.len] at hg
  have hw1 : 0.5 ≤ len w := by norm_num at he ⊢; linarith
  have w0 : w ≠ 0 := by rintro rfl; rw [len_eq_zero.mpr rfl] at hw1; norm_num at hw1
  have hw2 : len w ≤ 2 := by
    have := len_add_le (w - C) C
    rw [show w - C + C = w by ext <;> simp, hC.len] at this
    norm_num at he; linarith
  obtain ⟨lat, lon, h1, h2, h3, h4, h5⟩ := n_E2lat_lon_flt (B := B) hR fw (le_trans (by norm_num) hw1) (hw2.trans (by norm_num))
  refine ⟨lat, lon, h1, h2, h3, ?_⟩
  have hgn := geoNormal_of_n w w0 R hR.rot
  have hl := geoNormal_lip lat lon (XR.atan2 (app R w).x (√((app R w).y ^ 2 + (app R w).z ^ 2))) (XR.atan2 (app R w).y (-(app R w).z))
  rw [hgn] at hl
  have e1 : len (normalOf R lat lon - dirOf w) ≤ 12.8 * uu + 13 * uu := by
    have : normalOf R lat lon - dirOf w = app (transp R) (geoNormal lat lon - app R (dirOf w)) := by
      rw [app_sub, hR.rot.trans_app]; rfl
    rw [this, len_app hR.rot.transpose]
    linarith
  have e2 := len_dirOf_sub hC w0
  have e3 := len_add_le (normalOf R lat lon - dirOf w) (dirOf w - C)
  rw [show normalOf R lat lon - dirOf w + (dirOf w - C) = normalOf R lat lon - C by ext <;> simp] at e3
  have e4 : 12.8 * uu + 13 * uu ≤ 2.9e-15 := by unfold uu; norm_num
  linarith

omit hR in
/-- the computed n-vectors and the computed nearest n-vector of the great circle -/
theorem closest_parts (hR : IsAxes R) {s t : ℝ} (s0 : 1e-8 ≤ s)
    (hs : s ≤ len (cross (normalOf R latA lonA) (normalOf R latB lonB))) (t0 : 0 < t)
    (ht : t ≤ len (cross (normalOf R latC lonC) (dirOf (cross (normalOf R latA lonA) (normalOf R latB lonB))))) (hst : 1e-8 ≤ s * t ^ 2) :
    ∃ v1 v2 n w c C : V3 ℝ, lat_lon2n_E (F64.fin latA : F64 B) (F64.fin lonA) R.flt = v1.flt ∧ lat_lon2n_E (F64.fin latB : F64 B) (F64.fin lonB) R.flt = v2.flt ∧
      lat_lon2n_E (F64.fin latC : F64 B) (F64.fin lonC) R.flt = n.flt ∧
      (IsF64V v1 ∧ IsF64V v2 ∧ len v1 ≤ 1.001 ∧ len v2 ≤ 1.001 ∧ len (v1 - normalOf R latA lonA) ≤ 3.1e-15 ∧ len (v2 - normalOf R latB lonB) ≤ 3.1e-15 ∧ 0.999 * s ≤ len (cross v1 v2)) ∧
      Nv.closest_point_on_great_circle (v1.flt, v2.flt) (n.flt : V3 (F64 B)) = w.flt ∧ IsF64V w ∧
      (great_circle_normal (v1.flt : V3 (F64 B)) v2.flt = c.flt ∧ IsF64V c ∧ len c ≤ 1.0001 ∧ |dot c w| ≤ 8.6 * uu) ∧
      OnCircle (normalOf R latA lonA) (normalOf R latB lonB) C ∧
      (∀ Q, OnCircle (normalOf R latA lonA) (normalOf R latB lonB) Q → angle (normalOf R latC lonC) C ≤ angle (normalOf R latC lonC) Q) ∧
      len (w - C) ≤ 1.23e-13 / (s * t) ∧ 1.23e-13 / (s * t) ≤ 1e-4 ∧ s * t ≤ 1 := by
  have sp : 0 < s := lt_of_lt_of_le (by norm_num) s0
  obtain ⟨v1, e1, g1, -, -, l1, d1, -⟩ := geo_near B hR latA lonA
  obtain ⟨v2, e2, g2, -, -, l2, d2, -⟩ := geo_near B hR latB lonB
  obtain ⟨n, e3, g3, -, -, l3, d3, -⟩ := geo_near B hR latC lonC
  have uA := normalOf_unit hR latA lonA
  have uB := normalOf_unit hR latB lonB
  have uC := normalOf_unit hR latC lonC
  generalize normalOf R latA lonA = A at *
  generalize normalOf R latB lonB = A2 at *
  generalize normalOf R latC lonC = N at *
  have hc0 : cross A A2 ≠ 0 := by intro h; rw [h, len_eq_zero.mpr rfl] at hs; linarith
  obtain ⟨k0, k1, -, k2⟩ := normal_move uA d1 d2 l2 s0 hs
  have cu := dirOf_unit hc0
  have cu' := dirOf_unit k0
  have s1 : s ≤ 1 := by
    have := len_cross_le A A2
    rw [uA.len, uB.len, one_mul] at this; linarith
  have hcf := fun (t' : ℝ) (h1 : 0 < t') h2 h3 => closest_flt (B := B) g1 g2 g3 (by norm_num at l1 ⊢; linarith) (by norm_num at l2 ⊢; linarith) (by norm_num at l3 ⊢; linarith)
    (s := 0.999 * s) (t := t') (by norm_num at s0 ⊢; linarith) k1 h1 h2 h3
  obtain ⟨c, hc⟩ : ∃ c, c = dirOf (cross A A2) := ⟨_, rfl⟩
  obtain ⟨c', hc'⟩ : ∃ c', c' = dirOf (cross v1 v2) := ⟨_, rfl⟩
  rw [← hc] at k2 ht cu
  rw [← hc'] at k2 hcf cu'
  have t1 : t ≤ 1 := by
    have := len_cross_le N c
    rw [uC.len, cu.len, one_mul] at this; linarith
  have st0 : 0 < s * t := mul_pos sp t0
  have hst1 : 1e-8 ≤ s * t := by nlinarith
  have x1 : len (cross n c' - cross N c) ≤ 1.57e-14 / s := by
    have h := cross_move d3 k2 uC.len.le (cu'.len.le)
    have h3 : 3.1e-15 ≤ 3.1e-15 / s := by
      rw [le_div_iff₀ sp]; norm_num; linarith
    have h4 : 3.1e-15 / s + 1.25e-14 / s ≤ 1.57e-14 / s := by
      rw [← add_div]; exact div_le_div_of_nonneg_right (by norm_num) sp.le
    linarith
  have x1t : 1.57e-14 / s ≤ 0.001 * t := by
    rw [div_le_iff₀ sp]; norm_num at hst1 ⊢; linarith
  have ht' : 0.999 * t ≤ len (cross n c') := by
    have := len_sub_ge x1
    norm_num at this x1t ⊢; linarith
  obtain ⟨w, hw, fw, cw, cc, hcc1, hcc2, hcc3, hcc4⟩ := hcf (0.999 * t) (by positivity) ht' (by
    rw [show 0.999 * s * (0.999 * t) ^ 2 = 0.999 ^ 3 * (s * t ^ 2) by ring]
    norm_num at hst ⊢; linarith)
  have nl : len (cross n c') ≤ 1.001 := by
    have := len_cross_le n c'
    rw [cu'.len, mul_one] at this; linarith
  have x2 : len (cross c' (cross n c') - cross c (cross N c)) ≤ 2.83e-14 / s := by
    have h := cross_move k2 x1 cu.len.le nl
    refine h.trans ?_
    rw [show 1.25e-14 / s * 1.001 + 1 * (1.57e-14 / s) = (1.25e-14 * 1.001 + 1.57e-14) / s by ring]
    exact div_le_div_of_nonneg_right (by norm_num) sp.le
  have y0 := len_cross_unit (m := N) cu
  have y0' := len_cross_unit (m := n) cu'
  have y1 : t ≤ len (cross c (cross N c)) := by rw [y0]; exact ht
  have y2 : cross c' (cross n c') ≠ 0 := by
    intro h; rw [h, len_eq_zero.mpr rfl] at y0'; rw [← y0'] at ht'; norm_num at ht'; linarith
  have y3 := len_dirOf_sub_le t0 y1 y2 x2
  have hnc : cross N c ≠ 0 := by intro h; rw [h, len_eq_zero.mpr rfl] at ht; linarith
  obtain ⟨p1, p2, p3⟩ := nearest_dir cu hnc
  have cw' : len (w - dirOf (cross c' (cross n c'))) ≤ 1.7321 * (3.6e-14 / (0.999 * s * (0.999 * t))) := len_le_of_comp cw.1 cw.2.1 cw.2.2
  have hcl : len (w - dirOf (cross c (cross N c))) ≤ 1.23e-13 / (s * t) := by
    have h := len_add_le (w - dirOf (cross c' (cross n c'))) (dirOf (cross c' (cross n c')) - dirOf (cross c (cross N c)))
    rw [show ∀ x y z : V3 ℝ, x - y + (y - z) = x - z from fun x y z => by ext <;> simp] at h
    have h2 : 1.7321 * (3.6e-14 / (0.999 * s * (0.999 * t))) = 1.7321 * 3.6e-14 / 0.999 ^ 2 / (s * t) := by field_simp
    have h3 : 2 * (2.83e-14 / s) / t = 2 * 2.83e-14 / (s * t) := by field_simp
    have h4 : 1.7321 * 3.6e-14 / 0.999 ^ 2 / (s * t) + 2 * 2.83e-14 / (s * t) ≤ 1.23e-13 / (s * t) := by
      rw [← add_div]; exact div_le_div_of_nonneg_right (by norm_num) st0.le
    linarith
  have hse : 1.23e-13 / (s * t) ≤ 1e-4 := by rw [div_le_iff₀ st0]; norm_num at hst1 ⊢; linarith
  refine ⟨v1, v2, n, w, cc, dirOf (cross c (cross N c)), e1, e2, e3, ⟨g1, g2, l1, l2, d1, d2, k1⟩, hw, fw, ⟨hcc1, hcc2, hcc3, hcc4⟩, ?_, ?_, hcl, hse, by nlinarith⟩
  · rw [onCircle_iff_normal hc0, ← hc]
    exact ⟨p1, p2⟩
  · intro Q hQ
    rw [onCircle_iff_normal hc0, ← hc] at hQ
    exact p3 Q hQ.1 hQ.2

/-- **C108** `GeoPath.closest_point_on_great_circle(point)` between geographic points: the horizontal position is within `2.5e-13 / (s t)` of the nearest position
`C` of the exact great circle, the depth is the mean depth of the path.  `t` is a lower bound of the cosine of the distance of the point from the great circle. -/
theorem C108_closest_point (fA : IsF64 zA) (fB : IsF64 zB) (hZ : |zA| + |zB| ≤ 1e20) {s t : ℝ} (s0 : 1e-8 ≤ s)
    (hs : s ≤ len (cross (normalOf R latA lonA) (normalOf R latB lonB))) (t0 : 0 < t)
    (ht : t ≤ len (cross (normalOf R latC lonC) (dirOf (cross (normalOf R latA lonA) (normalOf R latB lonB))))) (hst : 1e-8 ≤ s * t ^ 2) :
    ∃ (lat lon z : ℝ) (C : V3 ℝ), (Path64 B a f R nmA nmB latA lonA zA latB lonB zB).closest_point_on_great_circle (.geo (Geo64 B a f R nmC latC lonC zC)) =
        ⟨F64.fin lat, F64.fin lon, F64.fin z, Frame64 B a f R nmC⟩ ∧ IsF64 lat ∧ IsF64 lon ∧ IsF64 z ∧
      OnCircle (normalOf R latA lonA) (normalOf R latB lonB) C ∧
      (∀ Q, OnCircle (normalOf R latA lonA) (normalOf R latB lonB) Q → angle (normalOf R latC lonC) C ≤ angle (normalOf R latC lonC) Q) ∧
      len (normalOf R lat lon - C) ≤ 2.5e-13 / (s * t) ∧ |z - (zA + zB) / 2| ≤ 1.2e-16 * (|zA| + |zB|) + 1 / 10 ^ 50 := by
  obtain ⟨v1, v2, n, w, c, C, e1, e2, e3, -, hw, fw, -, oC, nC, hcl, hse, st1⟩ := closest_parts B latA lonA latB lonB latC lonC hR s0 hs t0 ht hst
  have sp : 0 < s := lt_of_lt_of_le (by norm_num) s0
  have st0 : 0 < s * t := mul_pos sp t0
  obtain ⟨z, hz, fz, bz⟩ := mean2_flt B hR fA fB le_rfl hZ
  obtain ⟨lat, lon, q1, q2, q3, q4⟩ := latlon_of_near B hR fw oC.1 hcl (hse.trans (by norm_num))
  refine ⟨lat, lon, z, C, ?_, q2, q3, fz, oC, nC, ?_, bz⟩
  · change GeoPoint.mk
      (n_E2lat_lon (Nv.closest_point_on_great_circle (lat_lon2n_E (F64.fin latA) (F64.fin lonA) R.flt, lat_lon2n_E (F64.fin latB) (F64.fin lonB) R.flt)
        (lat_lon2n_E (F64.fin latC) (F64.fin lonC) R.flt)) R.flt).1
      (n_E2lat_lon (Nv.closest_point_on_great_circle (lat_lon2n_E (F64.fin latA) (F64.fin lonA) R.flt, lat_lon2n_E (F64.fin latB) (F64.fin lonB) R.flt)
        (lat_lon2n_E (F64.fin latC) (F64.fin lonC) R.flt)) R.flt).2
      ((F64.fin zA + F64.fin zB) * lit 0.5) (Frame64 B a f R nmC) = _
    rw [e1, e2, e3, hw, q1, hz]
  · refine q4.trans ?_
    have h1 : 2.9e-15 ≤ 2.9e-15 / (s * t) := by
      rw [le_div_iff₀ st0]
      norm_num; linarith
    have h2 : 2 * (1.23e-13 / (s * t)) + 2.9e-15 / (s * t) = (2 * 1.23e-13 + 2.9e-15) / (s * t) := by ring
    have h3 : (2 * 1.23e-13 + 2.9e-15) / (s * t) ≤ 2.5e-13 / (s * t) := div_le_div_of_nonneg_right (by norm_num) st0.le
    linarith

end

/-! ## concrete cases of the hypotheses -/

theorem normalOf_Re (lat lon : ℝ) : normalOf Re lat lon = ⟨Real.cos lat * Real.cos lon, Real.cos lat * Real.sin lon, Real.sin lat⟩ := by
  unfold normalOf geoNormal app transp Re dot col0 col1 col2
  ext <;> simp <;> ring

theorem equator_cross : cross (normalOf Re 0 0) (normalOf Re 0 1) = ⟨0, 0, Real.sin 1⟩ := by
  rw [normalOf_Re, normalOf_Re]; ext <;> simp [cross]

theorem sin_one_ge : (3 / 4 : ℝ) ≤ Real.sin 1 := by
  have := Real.sin_gt_sub_cube (x := 1) (by norm_num)
  norm_num at this; linarith

theorem equator_len : (3 / 4 : ℝ) ≤ len (cross (normalOf Re 0 0) (normalOf Re 0 1)) := by
  rw [equator_cross]
  have := abs_z_le_len (⟨0, 0, Real.sin 1⟩ : V3 ℝ)
  exact (sin_one_ge.trans (le_abs_self _)).trans this

theorem equator_normal : dirOf (cross (normalOf Re 0 0) (normalOf Re 0 1)) = ⟨0, 0, 1⟩ := by
  have h := sin_one_ge
  rw [equator_cross, show (⟨0, 0, Real.sin 1⟩ : V3 ℝ) = Real.sin 1 • ⟨0, 0, 1⟩ by ext <;> simp, dirOf_smul (by linarith)]
  unfold dirOf
  rw [show len (⟨0, 0, 1⟩ : V3 ℝ) = 1 by simp [len]]
  ext <;> simp

/-- C106: the equator from longitude 0 to longitude 1 rad, the point at latitude 1/2 rad -/
example : ∃ d : ℝ, (Path64 B 6371000 0 Re (.int 1) (.int 1) 0 0 0 0 1 0).cross_track_distance (.geo (Geo64 B 6371000 0 Re (.int 1) (1 / 2) 0 0)) "greatcircle" (some (F64.fin 6371000)) =
    .ok (F64.fin d) ∧ |d - Real.arcsin (-Real.sin (1 / 2)) * 6371000| ≤ 3.6e-14 / (3 / 4) * 6371000 := by
  have hd : dot (dirOf (cross (normalOf Re 0 0) (normalOf Re 0 1))) (normalOf Re (1 / 2) 0) = Real.sin (1 / 2) := by
    rw [equator_normal, normalOf_Re]; unfold dot; simp
  obtain ⟨d, h1, h2⟩ := C106_cross_track_radius B (a := 6371000) (f := 0) (R := Re) (Or.inl rfl) (.int 1) (.int 1) (.int 1) 0 0 0 1 (1 / 2) 0 0 0 0 (s := 3 / 4) (r := 6371000) (by norm_num)
    equator_len (by
      rw [hd, abs_of_nonneg (Real.sin_nonneg_of_nonneg_of_le_pi (by norm_num) (by have := Real.pi_gt_three; linarith))]
      have := Real.sin_lt (x := 1 / 2) (by norm_num)
      norm_num at this ⊢; linarith) (by simpa using isF64_int (n := 6371000) (by norm_num)) (by norm_num) (by norm_num)
  rw [hd] at h2
  exact ⟨d, h1, h2⟩

/-- C108: the same path and point -/
example : ∃ (lat lon z : ℝ) (C : V3 ℝ), (Path64 B 6371000 0 Re (.int 1) (.int 1) 0 0 0 0 1 0).closest_point_on_great_circle (.geo (Geo64 B 6371000 0 Re (.int 1) (1 / 2) 0 0)) =
    ⟨F64.fin lat, F64.fin lon, F64.fin z, Frame64 B 6371000 0 Re (.int 1)⟩ ∧ OnCircle (normalOf Re 0 0) (normalOf Re 0 1) C ∧
    len (normalOf Re lat lon - C) ≤ 2.5e-13 / (3 / 4 * (7 / 8)) := by
  obtain ⟨lat, lon, z, C, h1, -, -, -, h2, -, h3, -⟩ := C108_closest_point B (a := 6371000) (f := 0) (R := Re) (Or.inl rfl) (.int 1) (.int 1) (.int 1) 0 0 0 1 (1 / 2) 0 0
    isF64_zero isF64_zero (by norm_num) (s := 3 / 4) (t := 7 / 8) (by norm_num) equator_len (by norm_num) (by
      rw [equator_normal, normalOf_Re]
      have hcr : cross (⟨Real.cos (1 / 2) * Real.cos 0, Real.cos (1 / 2) * Real.sin 0, Real.sin (1 / 2)⟩ : V3 ℝ) ⟨0, 0, 1⟩ = ⟨0, -Real.cos (1 / 2), 0⟩ := by
        ext <;> simp [cross]
      rw [hcr]
      have h := abs_y_le_len (⟨0, -Real.cos (1 / 2), 0⟩ : V3 ℝ)
      have h2 := Real.one_sub_sq_div_two_le_cos (x := 1 / 2)
      rw [abs_neg] at h
      have h3 := le_abs_self (Real.cos (1 / 2))
      norm_num at h h2 h3 ⊢; linarith) (by norm_num)
  exact ⟨lat, lon, z, C, h1, h2, h3⟩

/-- C107: halfway along the same path, from depth 0 to depth 2 -/
example : ∃ (w C : V3 ℝ) (z : ℝ), (Path64 B 6371000 0 Re (.int 1) (.int 1) 0 0 0 0 1 2).interpolate (F64.fin (1 / 2)) = .ok ⟨w.flt, F64.fin z, Frame64 B 6371000 0 Re (.int 1)⟩ ∧
    OnArc (normalOf Re 0 0) (normalOf Re 0 1) C ∧ CloseV w C (5.7e-16 + 2.2e-14 * 1 / (1 / 2)) := by
  have h12 : IsF64 (1 / 2 : ℝ) := ⟨1, -1, by norm_num, by norm_num, by norm_num⟩
  obtain ⟨w, C, z, h1, -, -, -, -, h2, h3, -⟩ := C107_interpolate B (a := 6371000) (f := 0) (R := Re) (Or.inl rfl) (by simpa using isF64_int (n := 6371000) (by norm_num)) (by norm_num) (by norm_num)
    isF64_zero le_rfl (by norm_num) (.int 1) (.int 1) 0 0 0 1 isF64_zero isF64_two (by norm_num) (s := 1 / 2) (t := 1 / 2) (T := 1) h12 le_rfl (by norm_num)
    (by rw [abs_of_pos (by norm_num)]; norm_num) (by norm_num) (by
      rw [normalOf_Re, normalOf_Re]
      refine le_trans ?_ (abs_x_le_len _)
      refine le_trans ?_ (le_abs_self _)
      have := Real.cos_one_pos
      simp
      norm_num
      linarith)
  exact ⟨w, C, z, h1, h2 (by norm_num) (by norm_num), h3⟩

/-- C107: the equator and the meridian of longitude 1/2 rad -/
example : ∃ (w C : V3 ℝ) (z : ℝ), (Path64 B 6371000 0 Re (.int 1) (.int 1) 0 0 0 0 1 0).intersect (Path64 B 6371000 0 Re (.int 1) (.int 1) (1 / 2) (1 / 2) 0 (-1 / 2) (1 / 2) 0) =
    .ok ⟨w.flt, F64.fin z, Frame64 B 6371000 0 Re (.int 1)⟩ ∧ OnCircle (normalOf Re 0 0) (normalOf Re 0 1) C ∧
    OnCircle (normalOf Re (1 / 2) (1 / 2)) (normalOf Re (-1 / 2) (1 / 2)) C ∧ CloseV w C (3.6e-14 / (1 / 4)) := by
  have hs1 := sin_one_ge
  have hc : (7 / 8 : ℝ) ≤ Real.cos (1 / 2) := by
    have := Real.one_sub_sq_div_two_le_cos (x := 1 / 2)
    norm_num at this ⊢; linarith
  have hx : cross (normalOf Re (1 / 2) (1 / 2)) (normalOf Re (-1 / 2) (1 / 2)) = ⟨-(Real.sin 1 * Real.sin (1 / 2)), Real.sin 1 * Real.cos (1 / 2), 0⟩ := by
    have e : Real.sin 1 = 2 * Real.sin (1 / 2) * Real.cos (1 / 2) := by rw [← Real.sin_two_mul]; norm_num
    rw [normalOf_Re, normalOf_Re, e, show (-1 / 2 : ℝ) = -(1 / 2) by norm_num, Real.cos_neg, Real.sin_neg]
    ext <;> simp [cross] <;> ring
  have hw : cross (cross (normalOf Re 0 0) (normalOf Re 0 1)) (cross (normalOf Re (1 / 2) (1 / 2)) (normalOf Re (-1 / 2) (1 / 2))) =
      (-(Real.sin 1 * Real.sin 1)) • ⟨Real.cos (1 / 2), Real.sin (1 / 2), 0⟩ := by
    rw [equator_cross, hx]; ext <;> simp [cross] <;> ring
  have hu : UnitVec (⟨Real.cos (1 / 2), Real.sin (1 / 2), 0⟩ : V3 ℝ) := by
    unfold UnitVec
    simp
  have hne : cross (cross (normalOf Re 0 0) (normalOf Re 0 1)) (cross (normalOf Re (1 / 2) (1 / 2)) (normalOf Re (-1 / 2) (1 / 2))) ≠ 0 := by
    rw [hw]; exact smul_ne_zero (by nlinarith) hu.ne
  obtain ⟨w, C, z, h1, -, -, h2, h3, -, h4, -⟩ := C107_intersect B (a := 6371000) (f := 0) (R := Re) (Or.inl rfl) (.int 1) (.int 1) (.int 1) (.int 1) 0 0 0 1 (1 / 2) (1 / 2) (-1 / 2) (1 / 2)
    isF64_zero isF64_zero isF64_zero isF64_zero (by norm_num) (s := 1 / 4) (t := 7 / 8) (by norm_num) (by
      rw [hw, len_smul, hu.len, abs_neg, abs_of_pos (by nlinarith)]; nlinarith) (by
      intro Q q1 q2
      have hQ : |dot Q (normalOf Re 0 0)| = |Q.x| := by
        rw [normalOf_Re]; unfold dot; simp
      rw [hQ]
      have hd : dirOf (cross (cross (normalOf Re 0 0) (normalOf Re 0 1)) (cross (normalOf Re (1 / 2) (1 / 2)) (normalOf Re (-1 / 2) (1 / 2)))) =
          -⟨Real.cos (1 / 2), Real.sin (1 / 2), 0⟩ := by
        rw [hw, show (-(Real.sin 1 * Real.sin 1)) • (⟨Real.cos (1 / 2), Real.sin (1 / 2), 0⟩ : V3 ℝ) =
          (Real.sin 1 * Real.sin 1) • (-⟨Real.cos (1 / 2), Real.sin (1 / 2), 0⟩ : V3 ℝ) by ext <;> simp, dirOf_smul (by nlinarith), dirOf_of_unit hu.neg]
      have e := onBoth_eq hne q1 q2
      rw [hd] at e
      have : |Q.x| = Real.cos (1 / 2) := by
        rcases e with h | h
        · rw [h]; simp; linarith
        · rw [h]; simp; linarith
      rw [this]; exact hc) (by norm_num)
  exact ⟨w, C, z, h1, h2, h3, h4⟩

end Nv
