import Verif.Props.FloatDisplace

/-!
# C110: the vector between two geographic points in the local frame of the first one, in binary64
-/

namespace Nv
open Spec F64
variable (B : Binary64)
variable {a f : ℝ} {R : M3 ℝ}

/-- **C110** `pointA.delta_to(pointB)` (`delta_N`) for two `GeoPoint`s: the north, east and down components of the computed vector are those of the exact
vector between the exact positions, in the exact north-east-down frame at A, up to `2.7e-14 (a + |zA| + |zB|) + 1e-13 |AB| / c` (`c` is the sine of the
colatitude of A); and its azimuth is the direction from north over east of the horizontal part (of length `h`) of the exact vector. -/
theorem C110_delta_to (hR : IsAxes R) (fa : IsF64 a) (a1 : 1 ≤ a) (a2 : a ≤ 1e10) (ff : IsF64 f) (f0 : 0 ≤ f) (f1 : f ≤ 0.01)
    (nmA nmB : EllKey) (latA lonA latB lonB : ℝ) {zA zB : ℝ} (fA : IsF64 zA) (fB : IsF64 zB) (hA : |zA| ≤ 1e15) (hB : |zB| ≤ 1e15) {pA pB : V3 ℝ}
    (gA : Geodetic a f R (normalOf R latA lonA) zA pA) (gB : Geodetic a f R (normalOf R latB lonB) zB pB)
    {N : M3 ℝ} (hN : NorthEastDown R (normalOf R latA lonA) N) {c : ℝ} (c0 : 1e-12 ≤ c) (hc : c ≤ len (cross (northPole R) (normalOf R latA lonA))) :
    ∃ Q : V3 ℝ, delta_N (.geo (Geo64 B a f R nmA latA lonA zA)) (.geo (Geo64 B a f R nmB latB lonB zB)) =
        .ok ⟨Q.flt, FrameN (.geo (Geo64 B a f R nmA latA lonA zA))⟩ ∧ IsF64V Q ∧
      |Q.x - dot (col0 N) (pB - pA)| ≤ 2.7e-14 * (a + |zA| + |zB|) + 1e-13 * len (pB - pA) / c ∧
      |Q.y - dot (col1 N) (pB - pA)| ≤ 2.7e-14 * (a + |zA| + |zB|) + 1e-13 * len (pB - pA) / c ∧
      |Q.z - dot (col2 N) (pB - pA)| ≤ 2.7e-14 * (a + |zA| + |zB|) + 5e-14 * len (pB - pA) ∧
      ∀ h az : ℝ, 0 < h → dot (col0 N) (pB - pA) = h * Real.cos az → dot (col1 N) (pB - pA) = h * Real.sin az →
        7.8e-14 * (a + |zA| + |zB|) + 2.9e-13 * len (pB - pA) / c ≤ h →
        ∃ (az' : ℝ) (k : ℤ), azimuth (Q.flt : V3 (F64 B)) = F64.fin az' ∧ |az'| ≤ 3.1416 ∧
          |az' - (az + k * (2 * Real.pi))| ≤ (6.1e-14 * (a + |zA| + |zB|) + 2.3e-13 * len (pB - pA) / c) / h + 1.5e-15 := by
  have zA0 := abs_nonneg zA
  have zB0 := abs_nonneg zB
  obtain ⟨PA, eA, fPA, gPA⟩ := C90_to_ecef_vector B hR fa a1 a2 ff f0 f1 nmA latA lonA fA (hA.trans (by norm_num)) gA
  obtain ⟨PB, eB, fPB, gPB⟩ := C90_to_ecef_vector B hR fa a1 a2 ff f0 f1 nmB latB lonB fB (hB.trans (by norm_num)) gB
  obtain ⟨m, hm, fm, -, -, -, dm, -⟩ := geo_near B hR latA lonA
  have hDl := delta_len hR a1 f0 f1 gA gB
  have nA := gPA.mono (e' := 4.9e-15 * (a + |zA|)) (by norm_num; linarith)
  have nB := gPB.mono (e' := 4.9e-15 * (a + |zA| + |zB|)) (by norm_num; linarith)
  obtain ⟨Q, s1, fQ, s2, s3, s4⟩ := delta_N_near B hR fa a1 a2 ff f0 f1 (posA := .geo (Geo64 B a f R nmA latA lonA zA))
    (posB := .geo (Geo64 B a f R nmB latB lonB zB)) (S := a + |zA| + |zB|) (normalOf_unit hR latA lonA) fPA fPB eA eB rfl
    (by change n_E2R_EN (lat_lon2n_E (F64.fin latA : F64 B) (F64.fin lonA) R.flt) R.flt = _; rw [hm]) fm (dm.trans (by norm_num)) (by linarith)
    (by norm_num at a2 hA hB ⊢; linarith) (by linarith) nA nB hN c0 hc
  refine ⟨Q, s1, fQ, s2, s3, s4, ?_⟩
  intro h az hh hx hy hb
  have cp : 0 < c := lt_of_lt_of_le (by norm_num) c0
  rw [hx, mul_div_assoc] at s2
  rw [hy, mul_div_assoc] at s3
  rw [mul_div_assoc] at hb ⊢
  obtain ⟨x, k, t1, -, t3, t4⟩ := azimuth_of_near B fQ (by positivity) (div_nonneg (len_nonneg' _) cp.le) s2 s3 hh hb
  exact ⟨x, k, t1, t3, t4⟩

/-- a concrete case: from longitude 0 to longitude 1 on the equator of a sphere of radius 6371000; north is 0, east `6371000 sin 1` -/
example : ∃ Q : V3 ℝ, delta_N (.geo (Geo64 B 6371000 0 Re (.int 1) 0 0 0)) (.geo (Geo64 B 6371000 0 Re (.int 2) 0 1 0)) =
      .ok ⟨Q.flt, FrameN (.geo (Geo64 B 6371000 0 Re (.int 1) 0 0 0))⟩ ∧ |Q.x| ≤ 2e-6 ∧ |Q.y - 6371000 * Real.sin 1| ≤ 2e-6 := by
  have h0 : IsF64 (6371000 : ℝ) := by simpa using isF64_int (n := 6371000) (by norm_num)
  have hn : ∀ lon : ℝ, normalOf Re 0 lon = ⟨Real.cos lon, Real.sin lon, 0⟩ := by intro lon; rw [normalOf_Re]; simp
  have hp : northPole Re = ⟨0, 0, 1⟩ := by unfold northPole app transp Re dot; ext <;> simp [col0, col1, col2]
  have hu : ∀ lon : ℝ, UnitVec (normalOf Re 0 lon) := fun lon => normalOf_unit (Or.inl rfl) 0 lon
  have k : ∀ lon : ℝ, Geodetic 6371000 0 Re (normalOf Re 0 lon) 0 ((6371000 : ℝ) • normalOf Re 0 lon) := by
    intro lon
    have := geodetic_sphere (a := 6371000) isRotation_Re (by norm_num) (hu lon).ne
    rwa [dirOf_of_unit (hu lon)] at this
  obtain ⟨Q, h1, -, h2, h3, -⟩ := C110_delta_to B (R := Re) (Or.inl rfl) h0 (by norm_num) (by norm_num) isF64_zero le_rfl (by norm_num) (.int 1) (.int 2) 0 0 0 1
    isF64_zero isF64_zero (by norm_num) (by norm_num) (k 0) (k 1) (equatorFrame_ned 0) (c := 1) (by norm_num) (by
      rw [hp, hn]; apply le_of_eq; unfold len; simp [cross])
  have hD : len ((6371000 : ℝ) • normalOf Re 0 1 - (6371000 : ℝ) • normalOf Re 0 0) ≤ 12742000 := by
    have t := len_add_le ((6371000 : ℝ) • normalOf Re 0 1) ((-6371000 : ℝ) • normalOf Re 0 0)
    rw [show (6371000 : ℝ) • normalOf Re 0 1 + (-6371000 : ℝ) • normalOf Re 0 0 = (6371000 : ℝ) • normalOf Re 0 1 - (6371000 : ℝ) • normalOf Re 0 0 by
      ext <;> simp <;> ring, len_smul, len_smul, (hu 1).len, (hu 0).len] at t
    norm_num at t ⊢; linarith
  generalize hL : len ((6371000 : ℝ) • normalOf Re 0 1 - (6371000 : ℝ) • normalOf Re 0 0) = L at *
  refine ⟨Q, h1, ?_, ?_⟩
  · have e : dot (col0 (equatorFrame 0)) ((6371000 : ℝ) • normalOf Re 0 1 - (6371000 : ℝ) • normalOf Re 0 0) = 0 := by
      rw [hn, hn]; simp [equatorFrame, col0, dot]
    rw [e, sub_zero] at h2
    refine h2.trans ?_
    norm_num at hD ⊢; linarith
  · have e : dot (col1 (equatorFrame 0)) ((6371000 : ℝ) • normalOf Re 0 1 - (6371000 : ℝ) • normalOf Re 0 0) = 6371000 * Real.sin 1 := by
      rw [hn, hn]; simp [equatorFrame, col1, dot]
    rw [e] at h3
    refine h3.trans ?_
    norm_num at hD ⊢; linarith

end Nv
