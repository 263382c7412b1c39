import Verif.Lemmas.Rot

/-!
# C01, C02, C03: latitude / longitude and n-vector

`R` ranges over all rotation matrices (`E_rotation('e')`, `E_rotation('E')` and any other orientation of the E frame).
In the `e` frame the x-axis points to the north pole and the y-axis to longitude +90 degrees.
-/

namespace Nv
open Spec Real

/-- specification: the unit normal at geodetic latitude / longitude, in the `e` frame (x north, y to 90° E,
z to longitude 180°) -/
noncomputable def Spec.geoNormal (lat lon : ℝ) : V3 ℝ := ⟨sin lat, sin lon * cos lat, -(cos lon * cos lat)⟩

theorem Spec.geoNormal_isUnit (lat lon : ℝ) : UnitVec (geoNormal lat lon) := by
  have h1 := Real.sin_sq_add_cos_sq lat
  have h2 := Real.sin_sq_add_cos_sq lon
  unfold UnitVec geoNormal
  linear_combination h1 + cos lat ^ 2 * h2

theorem lat_lon2n_E_fin (lat lon : ℝ) (R : M3 ℝ) :
    lat_lon2n_E (.fin lat) (.fin lon) R.fin = (app (transp R) (geoNormal lat lon)).fin := by
  simp only [lat_lon2n_E, xr, V3.mk_fin, geoNormal, neg_mul]

/-- **C01** `lat_lon2n_E` returns a unit vector along `(sin lat, sin lon cos lat, -cos lon cos lat)` rotated by
`R_Ee^T`. -/
theorem C01_lat_lon2n_E_unit (lat lon : ℝ) (R : M3 ℝ) (hR : IsRotation R) :
    ∃ n : V3 ℝ, lat_lon2n_E (.fin lat) (.fin lon) R.fin = n.fin ∧ UnitVec n ∧
      app R n = ⟨sin lat, sin lon * cos lat, -(cos lon * cos lat)⟩ := by
  refine ⟨_, lat_lon2n_E_fin lat lon R, unitVec_app hR.transpose (geoNormal_isUnit lat lon), ?_⟩
  rw [hR.app_trans]; rfl

/-- **C01** angles that differ by whole turns give the same n-vector -/
theorem C01_lat_lon2n_E_periodic (lat lon : ℝ) (j k : ℤ) (R : M3 ℝ) :
    lat_lon2n_E (.fin (lat + j * (2 * π))) (.fin (lon + k * (2 * π))) R.fin = lat_lon2n_E (.fin lat) (.fin lon) R.fin := by
  simp only [lat_lon2n_E_fin, geoNormal, Real.sin_add_int_mul_two_pi, Real.cos_add_int_mul_two_pi]

/-- **C01** with the default axes: x component north, etc.  (test: `lat = 0`, `lon = 0` is the z-axis of E) -/
theorem C01_lat_lon2n_E_default (lat lon : ℝ) :
    lat_lon2n_E (.fin lat) (.fin lon) = (⟨cos lon * cos lat, sin lon * cos lat, sin lat⟩ : V3 ℝ).fin := by
  rw [R_e_fin, lat_lon2n_E_fin]
  congr 1
  ext <;> simp [app, transp, geoNormal, Re, dot, col0, col1, col2]

/-- **C01** converse: two angle pairs strictly between the poles give the same n-vector only if they agree up to whole
turns of longitude. -/
theorem C01_lat_lon2n_E_injective {lat lon lat' lon' : ℝ} (R : M3 ℝ) (hR : IsRotation R)
    (h1 : -(π / 2) < lat) (h2 : lat < π / 2) (h1' : -(π / 2) < lat') (h2' : lat' < π / 2)
    (h : lat_lon2n_E (.fin lat) (.fin lon) R.fin = lat_lon2n_E (.fin lat') (.fin lon') R.fin) :
    lat = lat' ∧ ∃ k : ℤ, lon = lon' + k * (2 * π) := by
  rw [lat_lon2n_E_fin, lat_lon2n_E_fin, V3.fin_inj] at h
  have h := congrArg (app R) h
  rw [hR.app_trans, hR.app_trans] at h
  simp only [geoNormal, V3.mk.injEq] at h
  obtain ⟨hs, hy, hz⟩ := h
  have hl : lat = lat' := Real.injOn_sin ⟨h1.le, h2.le⟩ ⟨h1'.le, h2'.le⟩ hs
  subst hl
  refine ⟨rfl, ?_⟩
  have hc : cos lat ≠ 0 := (Real.cos_pos_of_mem_Ioo ⟨h1, h2⟩).ne'
  have hsl : sin lon = sin lon' := mul_right_cancel₀ hc hy
  have hcl : cos lon = cos lon' := mul_right_cancel₀ hc (neg_injective hz)
  have : cos (lon - lon') = 1 := by
    rw [Real.cos_sub, hsl, hcl]; linarith [Real.sin_sq_add_cos_sq lon']
  obtain ⟨k, hk⟩ := (Real.cos_eq_one_iff _).mp this
  exact ⟨k, by linarith⟩

theorem n_E2lat_lon_fin (n : V3 ℝ) (R : M3 ℝ) :
    n_E2lat_lon n.fin R.fin =
      (.fin (XR.atan2 (app R n).x (√((app R n).y ^ 2 + (app R n).z ^ 2))),
       .fin (XR.atan2 (app R n).y (-(app R n).z))) := by
  simp only [n_E2lat_lon, xr]
  rw [XR.sqrt_fin (by positivity)]
  simp only [xr]

/-- **C02** n-vector -> lat/lon -> n-vector returns the n-vector scaled to unit length, for every nonzero n-vector
(poles and date line included). -/
theorem C02_roundtrip (n : V3 ℝ) (hn : n ≠ 0) (R : M3 ℝ) (hR : IsRotation R) :
    lat_lon2n_E (n_E2lat_lon n.fin R.fin).1 (n_E2lat_lon n.fin R.fin).2 R.fin = ((len n)⁻¹ • n).fin := by
  rw [n_E2lat_lon_fin, lat_lon2n_E_fin, V3.fin_inj]
  have hlen : len (app R n) = len n := len_app hR n
  set m := app R n with hm
  have key : geoNormal (XR.atan2 m.x (√(m.y ^ 2 + m.z ^ 2))) (XR.atan2 m.y (-m.z)) = (len m)⁻¹ • m := by
    have hne : m ≠ 0 := app_ne_zero hR hn
    have hl := len_pos hne
    set ρ := √(m.y ^ 2 + m.z ^ 2) with hρ
    have hρ2 : ρ ^ 2 = m.y ^ 2 + m.z ^ 2 := Real.sq_sqrt (by positivity)
    have hr : √(ρ ^ 2 + m.x ^ 2) = len m := by
      rw [hρ2]; unfold len; congr 1; ring
    have hc := XR.sqrt_mul_cos_atan2 m.x ρ
    have hs := XR.sqrt_mul_sin_atan2 m.x ρ
    rw [hr] at hc hs
    have hρ' : √((-m.z) ^ 2 + m.y ^ 2) = ρ := by rw [hρ]; congr 1; ring
    have hc2 := XR.sqrt_mul_cos_atan2 m.y (-m.z)
    have hs2 := XR.sqrt_mul_sin_atan2 m.y (-m.z)
    rw [hρ'] at hc2 hs2
    have hi := mul_inv_cancel₀ hl.ne'
    unfold geoNormal
    ext
    · simp only [smul_x]; field_simp; linarith
    · simp only [smul_y]; field_simp
      linear_combination sin (XR.atan2 m.y (-m.z)) * hc + hs2
    · simp only [smul_z]; field_simp
      linear_combination -cos (XR.atan2 m.y (-m.z)) * hc - hc2
  rw [key, app_smul, hm, hR.trans_app, ← hm, hlen]

/-- **C02** unit n-vectors come back unchanged -/
theorem C02_roundtrip_unit (n : V3 ℝ) (hn : UnitVec n) (R : M3 ℝ) (hR : IsRotation R) :
    lat_lon2n_E (n_E2lat_lon n.fin R.fin).1 (n_E2lat_lon n.fin R.fin).2 R.fin = n.fin := by
  rw [C02_roundtrip n hn.ne R hR, hn.len]
  congr 1; ext <;> simp

/-- **C03** ranges: latitude in `[-π/2, π/2]`, longitude in `[-π, π]` and, off the polar axis, in `(-π, π]`.
At the poles the code returns `arctan2(±0, ±0)`. -/
theorem C03_ranges (n : V3 ℝ) (hn : n ≠ 0) (R : M3 ℝ) (hR : IsRotation R) :
    ∃ lat lon : ℝ, n_E2lat_lon n.fin R.fin = (.fin lat, .fin lon) ∧ -(π / 2) ≤ lat ∧ lat ≤ π / 2 ∧
      -π ≤ lon ∧ lon ≤ π ∧ (¬ ((app R n).y = 0 ∧ (app R n).z = 0) → -π < lon) := by
  refine ⟨_, _, n_E2lat_lon_fin n R, ?_⟩
  have hne : app R n ≠ 0 := app_ne_zero hR hn
  have h0 : ¬ (√((app R n).y ^ 2 + (app R n).z ^ 2) = 0 ∧ (app R n).x = 0) := by
    rintro ⟨h1, h2⟩
    apply hne
    rw [Real.sqrt_eq_zero (by positivity)] at h1
    ext
    · exact h2
    · exact pow_eq_zero_iff two_ne_zero |>.mp (by nlinarith [sq_nonneg (app R n).y, sq_nonneg (app R n).z])
    · exact pow_eq_zero_iff two_ne_zero |>.mp (by nlinarith [sq_nonneg (app R n).y, sq_nonneg (app R n).z])
  have h := abs_le.mp (XR.abs_atan2_le_pi_div_two h0 (Real.sqrt_nonneg _))
  refine ⟨h.1, h.2, XR.neg_pi_le_atan2 _ _, XR.atan2_le_pi _ _, fun hp => XR.neg_pi_lt_atan2 ?_⟩
  rintro ⟨a, b⟩; exact hp ⟨b, neg_eq_zero.mp a⟩

/-- **C03** strictly between the poles `n_E2lat_lon` inverts `lat_lon2n_E` -/
theorem C03_inverse (lat lon : ℝ) (h1 : -(π / 2) < lat) (h2 : lat < π / 2) (h3 : -π < lon) (h4 : lon ≤ π)
    (R : M3 ℝ) (hR : IsRotation R) :
    n_E2lat_lon (lat_lon2n_E (.fin lat) (.fin lon) R.fin) R.fin = (.fin lat, .fin lon) := by
  rw [lat_lon2n_E_fin, n_E2lat_lon_fin, hR.app_trans]
  have hc : 0 < cos lat := Real.cos_pos_of_mem_Ioo ⟨h1, h2⟩
  simp only [geoNormal]
  have e : √((sin lon * cos lat) ^ 2 + (-(cos lon * cos lat)) ^ 2) = cos lat := by
    rw [show (sin lon * cos lat) ^ 2 + (-(cos lon * cos lat)) ^ 2 = cos lat ^ 2 by
      linear_combination cos lat ^ 2 * Real.sin_sq_add_cos_sq lon, Real.sqrt_sq hc.le]
  rw [e, XR.atan2_eq one_pos (by linarith [Real.pi_pos]) (by linarith [Real.pi_pos]) (one_mul _).symm (one_mul _).symm,
    XR.atan2_eq hc h3 h4 (by ring) (by ring)]

/-- **C03** at the poles (any longitude) the latitude is still recovered, and the longitude returned is 0 or ±π -/
theorem C03_poles (lon : ℝ) (s : ℝ) (hs : s = 1 ∨ s = -1) (R : M3 ℝ) (hR : IsRotation R) :
    ∃ lon' : ℝ, n_E2lat_lon (lat_lon2n_E (.fin (s * (π / 2))) (.fin lon) R.fin) R.fin =
        (.fin (s * (π / 2)), .fin lon') ∧ (lon' = 0 ∨ lon' = π ∨ lon' = -π) := by
  rw [lat_lon2n_E_fin, n_E2lat_lon_fin, hR.app_trans]
  have hc : cos (s * (π / 2)) = 0 := by
    rcases hs with rfl | rfl
    · rw [one_mul, Real.cos_pi_div_two]
    · rw [neg_one_mul, Real.cos_neg, Real.cos_pi_div_two]
  simp only [geoNormal, hc, mul_zero, neg_zero]
  refine ⟨XR.atan2 0 0, ?_, ?_⟩
  · congr 2
    apply XR.atan2_eq one_pos
    · rcases hs with rfl | rfl <;> linarith [Real.pi_pos]
    · rcases hs with rfl | rfl <;> linarith [Real.pi_pos]
    · simp [hc]
    · simp
  · rw [XR.atan2_zero_zero]; exact XR.atan2Zero.2

/-! The hypotheses are met: the default axes, an oblique n-vector, a pole, Oslo-like angles. -/
example : IsRotation Re ∧ IsRotation one ∧ (⟨1, 2, -3⟩ : V3 ℝ) ≠ 0 ∧ app Re ⟨0, 0, 1⟩ = ⟨1, 0, 0⟩ := by
  refine ⟨isRotation_Re, isRotation_one, ?_, ?_⟩
  · intro h; have := congrArg V3.x h; simp at this
  · ext <;> simp [app, Re, dot]
example : -(π / 2) < π / 3 ∧ π / 3 < π / 2 ∧ -π < π ∧ π ≤ π := by
  refine ⟨?_, ?_, ?_, le_rfl⟩ <;> linarith [Real.pi_pos]

end Nv
