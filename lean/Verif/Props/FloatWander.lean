import Verif.Float.Wander
import Verif.Props.FloatRotation

/-!
# C82, C83: latitude/longitude of any n-vector and wander-azimuth frames in binary64

`geoNormal lat lon` (`Spec/Sphere.lean`) is the exact unit normal at a latitude and longitude, `RotZ` the exact rotation about the
third axis.
-/

namespace Nv
open Spec F64
variable (B : Binary64)

variable {R : M3 ℝ} {n : V3 ℝ}

/-- **C82** `n_E2lat_lon` in rounded arithmetic, for n-vectors of any ordinary length: the latitude is within `1.5e-15` of the exact
one and the longitude within `1.5e-15` of an exact one, without a jump of a whole turn -/
theorem C82_n_E2lat_lon (hR : IsAxes R) (hn : IsF64V n) (n1 : 1e-50 ≤ len n) (n2 : len n ≤ 10 ^ 25) :
    ∃ lat lon φ lam : ℝ, n_E2lat_lon (n.flt : V3 (F64 B)) R.flt = (F64.fin lat, F64.fin lon) ∧ IsF64 lat ∧ IsF64 lon ∧
      app (transp R) (geoNormal φ lam) = dirOf n ∧ |φ| ≤ Real.pi / 2 ∧ |lam| ≤ Real.pi ∧
      (cross (northPole R) n ≠ 0 → -Real.pi < lam) ∧ |lat - φ| ≤ 1.5e-15 ∧ |lon - lam| ≤ 1.5e-15 := by
  have n0 : 0 < len n := lt_of_lt_of_le (by norm_num) n1
  have hnz : n ≠ 0 := by rintro rfl; rw [len_eq_zero.mpr rfl] at n0; exact lt_irrefl _ n0
  obtain ⟨lat, lon, e1, f1, f2, h1, h2⟩ := n_E2lat_lon_flt (B := B) hR hn n1 n2
  obtain ⟨φ, lam, g0, g1, g2, g3, g4, g5⟩ := C03_ranges n hnz R hR.rot
  rw [n_E2lat_lon_fin] at g0
  have g0' := Prod.mk.inj g0
  have k1 := XR.fin.inj g0'.1
  have k2 := XR.fin.inj g0'.2
  have hg := geoNormal_of_n n hnz R hR.rot
  rw [k1] at h1 hg
  rw [k2] at h2 hg
  refine ⟨lat, lon, φ, lam, e1, f1, f2, ?_, abs_le.mpr ⟨g1, g2⟩, abs_le.mpr ⟨g3, g4⟩, ?_, h1.trans (by unfold uu; norm_num), h2.trans (by unfold uu; norm_num)⟩
  · rw [hg, hR.rot.trans_app]
  · intro hc
    refine g5 ?_
    rintro ⟨hy, hz⟩
    apply hc
    have e : app (transp R) (app R n) = n := hR.rot.trans_app n
    rcases hR with rfl | rfl
    · simp [app, Re, dot] at hy hz
      ext <;> simp [cross, northPole, app, transp, Re, dot, col0, col1, col2, hy, hz]
    · simp [app, one, dot] at hy hz
      ext <;> simp [cross, northPole, app, transp, one, dot, col0, col1, col2, hy, hz]

/-- **C83** `n_E_and_wa2R_EL` in rounded arithmetic: however close the n-vector is to a pole, the entries are within `4.6e-15` of a
proper rotation whose last column is exactly down; away from the poles that rotation is the exact North-East-Down frame turned by
the wander azimuth -/
theorem C83_n_E_and_wa2R_EL (wa : ℝ) (hR : IsAxes R) (hn : IsF64V n) (n1 : 1e-50 ≤ len n) (n2 : len n ≤ 10 ^ 25) :
    ∃ W M : M3 ℝ, n_E_and_wa2R_EL (n.flt : V3 (F64 B)) (F64.fin wa) R.flt = W.flt ∧ IsF64M W ∧ NearRotation W 2.6e-14 ∧
      IsRotation M ∧ col2 M = -dirOf n ∧ CloseM W M 4.6e-15 ∧
      (cross (northPole R) n ≠ 0 → ∃ N : M3 ℝ, M = mmul N (RotZ wa) ∧ IsRotation N ∧ col2 N = -dirOf n ∧
        col1 N = dirOf (cross (northPole R) n) ∧ 0 < dot (col0 N) (northPole R)) := by
  have n0 : 0 < len n := lt_of_lt_of_le (by norm_num) n1
  have hnz : n ≠ 0 := by rintro rfl; rw [len_eq_zero.mpr rfl] at n0; exact lt_irrefl _ n0
  obtain ⟨W, M, h1, h2, h3, h4, h5⟩ := R_EL_flt (B := B) wa hR hn n1 n2
  obtain ⟨M', e1, -, e2⟩ := C13_R_EL_rotation n hnz wa R hR.rot
  have hMM : M' = M := M3.fin_inj.mp (e1.symm.trans h3)
  rw [hMM] at e2
  refine ⟨W, M, h1, h2, (nearRotation_of_close h5 h4 (by unfold uu; norm_num)).mono (by unfold uu; norm_num), h4, e2, ?_, ?_⟩
  · have hb : 41 * uu ≤ 4.6e-15 := by unfold uu; norm_num
    exact ⟨h5.1.mono hb, h5.2.1.mono hb, h5.2.2.mono hb⟩
  · intro hc
    obtain ⟨N, k1, k2⟩ := C13_R_EL_eq_R_EN_turned n wa R hR.rot hc
    obtain ⟨N', k1', hN, g2, g1, -⟩ := n_E2R_EN_offpole n R hR.rot hc
    obtain ⟨N'', k1'', -, -, -, -, g6⟩ := C12_R_EN_north_east n R hR.rot hc
    have a1 : N' = N := M3.fin_inj.mp (k1'.symm.trans k1)
    have a2 : N'' = N := M3.fin_inj.mp (k1''.symm.trans k1)
    rw [a1] at hN g2 g1
    rw [a2] at g6
    exact ⟨N, M3.fin_inj.mp (h3.symm.trans k2), hN, g2, g1, g6⟩

/-- **C83** the n-vector is recovered from the computed frame up to `4.6e-15` -/
theorem C83_R_EL2n_E (wa : ℝ) (hR : IsAxes R) (hn : IsF64V n) (n1 : 1e-50 ≤ len n) (n2 : len n ≤ 10 ^ 25) :
    ∃ w : V3 ℝ, R_EL2n_E (n_E_and_wa2R_EL (n.flt : V3 (F64 B)) (F64.fin wa) R.flt) = w.flt ∧ IsF64V w ∧ CloseV w (dirOf n) 4.6e-15 := by
  obtain ⟨W, M, hW, fW, -, hM, h2, ⟨c0, c1, c2⟩, -⟩ := C83_n_E_and_wa2R_EL B wa hR hn n1 n2
  have hT := hM.transpose
  have un : ∀ {v : V3 ℝ}, dot v v = 1 → len v = 1 := fun {v} hv => by
    unfold len; rw [Real.sqrt_eq_one]; rw [← hv]; unfold dot; ring
  have row : ∀ {v w : V3 ℝ}, CloseV v w 4.6e-15 → len w = 1 → len v ≤ 10 ^ 60 := by
    intro v w h hw
    have h1 := abs_le.mp (len_close h.1 h.2.1 h.2.2)
    rw [hw] at h1
    refine le_trans ?_ (by norm_num : (2 : ℝ) ≤ 10 ^ 60)
    have := h1.2
    norm_num at this ⊢
    linarith only [this]
  refine ⟨-col2 W, ?_, ⟨fW.1.2.2.neg, fW.2.1.2.2.neg, fW.2.2.2.2.neg⟩, ?_⟩
  · rw [hW]
    refine R_EL2n_E_flt B fW ?_
    intro v hv
    simp only [List.mem_cons, List.not_mem_nil, or_false] at hv
    rcases hv with rfl | rfl | rfl
    · exact row c0 (un hT.c00)
    · exact row c1 (un hT.c11)
    · exact row c2 (un hT.c22)
  · have e : dirOf n = -col2 M := by rw [h2]; ext <;> simp
    rw [e]
    have k : ∀ {a b : ℝ}, |a - b| ≤ 4.6e-15 → |-a - -b| ≤ 4.6e-15 := by
      intro a b h; rwa [show -a - -b = -(a - b) by ring, abs_neg]
    exact ⟨k c0.2.2, k c1.2.2, k c2.2.2⟩

/-- a non-trivial case of the hypotheses of C82 and C83, on the polar axis (axes 'e'): where `n_E2R_EN` switches branch -/
example : IsF64V (⟨0, 2 ^ (-80 : ℤ), 3⟩ : V3 ℝ) ∧ (1e-50 : ℝ) ≤ len (⟨0, 2 ^ (-80 : ℤ), 3⟩ : V3 ℝ) ∧ len (⟨0, 2 ^ (-80 : ℤ), 3⟩ : V3 ℝ) ≤ 10 ^ 25 := by
  refine ⟨⟨isF64_zero, isF64_two_zpow (by norm_num), by simpa using isF64_int (n := 3) (by norm_num)⟩, ?_, ?_⟩
  · have := abs_z_le_len (⟨0, 2 ^ (-80 : ℤ), 3⟩ : V3 ℝ)
    refine le_trans ?_ this
    norm_num
  · refine (len_le_of_comp (e := 3) (by simp) (by dsimp only; norm_num [abs_of_pos]) (by norm_num)).trans (by norm_num)

end Nv
