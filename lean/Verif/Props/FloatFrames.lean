import Verif.Float.Apply
import Verif.Float.Isclose
import Verif.Props.FloatDelta
import Verif.Props.FloatWander

/-!
# C86: vectors between positions in local frames, in binary64

`Frame64 a f R` is a reference frame object (any name) with the given numbers.  `Geodetic` and the axes as in
`Props/FloatPosition.lean`.
-/

namespace Nv
open Spec F64
variable (B : Binary64)
variable {a f : ℝ} {R : M3 ℝ}

/-- the frame object with the binary64 semi-major axis `a`, flattening `f` and axes `R` -/
def Frame64 (a f : ℝ) (R : M3 ℝ) (nm : EllKey) : FrameE (F64 B) := ⟨F64.fin a, F64.fin f, nm, R.flt⟩

theorem check_self (hR : IsAxes R) (fa : IsF64 a) (a1 : 1 ≤ a) (a2 : a ≤ 1e10) (ff : IsF64 f) (f0 : 0 ≤ f) (f1 : f ≤ 0.01) (nm nm' : EllKey) :
    check_frames (Frame64 B a f R nm) (Frame64 B a f R nm') = .ok () := by
  have a2' : |a| ≤ 10 ^ 50 := by rw [abs_of_nonneg (by linarith)]; norm_num at a2 ⊢; linarith only [a2]
  have f1' : |f| ≤ 10 ^ 50 := by rw [abs_of_nonneg f0]; norm_num at f1 ⊢; linarith only [f1]
  unfold check_frames
  rw [if_pos]
  exact frame_self hR fa a2' ff f1'

/-- **C86** `delta_E` of two position objects on the same ellipsoid never raises and is the exact vector between the points up to
the error of C84 -/
theorem C86_delta_E (hR : IsAxes R) (fa : IsF64 a) (a1 : 1 ≤ a) (a2 : a ≤ 1e10) (ff : IsF64 f) (f0 : 0 ≤ f) (f1 : f ≤ 0.01)
    (nm nm' : EllKey)
    {zA zB : ℝ} (fA : IsF64 zA) (fB : IsF64 zB) (hA : |zA| ≤ 1e30) (hB : |zB| ≤ 1e30) {nA nB : V3 ℝ} (hnA : IsF64V nA) (hnB : IsF64V nB)
    (A1 : (2 : ℝ) ^ (-500 : ℤ) ≤ len nA) (A2 : len nA ≤ 10 ^ 60) (B1 : (2 : ℝ) ^ (-500 : ℤ) ≤ len nB) (B2 : len nB ≤ 10 ^ 60)
    {pA pB : V3 ℝ} (gA : Geodetic a f R nA zA pA) (gB : Geodetic a f R nB zB pB) :
    ∃ (P : V3 ℝ) (nm'' : EllKey), delta_E (.nvec ⟨nA.flt, F64.fin zA, Frame64 B a f R nm⟩) (.nvec ⟨nB.flt, F64.fin zB, Frame64 B a f R nm'⟩) =
        .ok ⟨P.flt, Frame64 B a f R nm''⟩ ∧ IsF64V P ∧
      CloseV P (pB - pA) (5.7e-15 * a + 8e-16 * (|zA| + |zB|) + 1.2e-16 * len (pB - pA)) := by
  obtain ⟨P, h1, fP, hx, hy, hz⟩ := C84_delta_E B hR fa a1 a2 ff f0 f1 fA fB hA hB hnA hnB A1 A2 B1 B2 gA gB
  refine ⟨P, nm', ?_, fP, ?_, ?_, ?_⟩
  · simp only [delta_E, ECEFvector.sub, Position.to_ecef_vector, Nvector.to_ecef_vector]
    rw [check_self B hR fa a1 a2 ff f0 f1]
    rw [← h1]
    rfl
  · refine hx.trans (add_le_add_right (mul_le_mul_of_nonneg_left ?_ (by norm_num)) _)
    exact abs_x_le_len (pB - pA)
  · refine hy.trans (add_le_add_right (mul_le_mul_of_nonneg_left ?_ (by norm_num)) _)
    exact abs_y_le_len (pB - pA)
  · refine hz.trans (add_le_add_right (mul_le_mul_of_nonneg_left ?_ (by norm_num)) _)
    exact abs_z_le_len (pB - pA)

/-- the vector in a local frame given by a computed matrix `W` near the exact rotation `N` -/
theorem change_frame_flt {W N : M3 ℝ} {P q : V3 ℝ} {e₁ zz : ℝ} (a1 : 1 ≤ a) (a2 : a ≤ 1e10) (hzz : 0 ≤ zz) (hzb : zz ≤ 1e31)
    (hN : IsRotation N) (fW : IsF64M W) (fP : IsF64V P) (hW : CloseM W N e₁) (e0 : 0 ≤ e₁) (he : e₁ ≤ 5e-15)
    (hP : CloseV P q (5.7e-15 * a + 8e-16 * zz + 1.2e-16 * len q)) (hq : len q ≤ 2 * a + zz) :
    ∃ Q : V3 ℝ, mulVec (tr (W.flt : M3 (F64 B))) P.flt = Q.flt ∧ IsF64V Q ∧
      CloseV Q (app (transp N) q) (9.9e-15 * a + 1.4e-15 * zz + (1.7321 * e₁ + 6e-16) * len q) := by
  have ha : 0 < a := by linarith only [a1]
  have hq0 := len_nonneg' q
  obtain ⟨Q, h1, fQ, hQ⟩ := mulVec_tr_flt (B := B) hN fW fP hW hP (he.trans (by norm_num)) le_rfl (by
    norm_num at a2 hzb ⊢
    linarith only [hq, a2, hzb, hzz, hq0])
  refine ⟨Q, h1, fQ, hQ.mono ?_⟩
  have hu : uu ≤ 1.111e-16 := by unfold uu; norm_num
  have hk : 3.02 * uu + 1.7321 * e₁ ≤ 1e-14 := by norm_num at hu he ⊢; linarith only [hu, he]
  have hk0 : 0 ≤ 3.02 * uu + 1.7321 * e₁ := by have := uu_pos; positivity
  have e : 0 ≤ 5.7e-15 * a + 8e-16 * zz + 1.2e-16 * len q := by positivity
  have k1 : (3.02 * uu + 1.7321 * e₁) * (1.7321 * (5.7e-15 * a + 8e-16 * zz + 1.2e-16 * len q)) ≤
      1e-14 * (1.7321 * (5.7e-15 * a + 8e-16 * zz + 1.2e-16 * len q)) := mul_le_mul_of_nonneg_right hk (by positivity)
  have k2 := mul_le_mul_of_nonneg_right hu hq0
  have k3 : (1e-59 : ℝ) ≤ 1e-20 * a := by
    have : (1e-59 : ℝ) ≤ 1e-20 * 1 := by norm_num
    exact this.trans (mul_le_mul_of_nonneg_left a1 (by norm_num))
  rw [mul_add]
  generalize (1e-59 : ℝ) = τ at *
  norm_num at k1 k2 k3 hzz ⊢
  linarith only [k1, k2, k3, ha, hzz, hq0]

theorem delta_len {zA zB : ℝ} {nA nB pA pB : V3 ℝ} (hR : IsAxes R) (a1 : 1 ≤ a) (f0 : 0 ≤ f) (f1 : f ≤ 0.01)
    (gA : Geodetic a f R nA zA pA) (gB : Geodetic a f R nB zB pB) : len (pB - pA) ≤ 2 * a + (|zA| + |zB|) := by
  norm_num at f1
  have ha : 0 < a := by linarith
  obtain ⟨nA0, hpA⟩ := gA.eq ha (by linarith) hR.rot
  obtain ⟨nB0, hpB⟩ := gB.eq ha (by linarith) hR.rot
  have lA : len pA ≤ a + |zA| := by
    rw [hpA, len_app hR.rot.transpose]
    exact posE_len_le ha f0 (by linarith) (unitVec_app hR.rot (dirOf_unit nA0))
  have lB : len pB ≤ a + |zB| := by
    rw [hpB, len_app hR.rot.transpose]
    exact posE_len_le ha f0 (by linarith) (unitVec_app hR.rot (dirOf_unit nB0))
  have h := len_add_le pB ((-1 : ℝ) • pA)
  rw [len_smul] at h
  have e : pB + (-1 : ℝ) • pA = pB - pA := by ext <;> simp <;> ring
  rw [e] at h
  norm_num at h
  linarith only [h, lA, lB]

/-- **C86** `delta_N`: the components along North, East and Down at A of the exact vector from A to B, up to
`9.9e-15 a + 1.4e-15 (|zA| + |zB|) + 5e-15 |AB|` (at the surface of the earth: 64 nanometres plus 5 micrometres per 1000 km); A is at
least `2^-300` radians from the poles or exactly at one -/
theorem C86_delta_N (hR : IsAxes R) (fa : IsF64 a) (a1 : 1 ≤ a) (a2 : a ≤ 1e10) (ff : IsF64 f) (f0 : 0 ≤ f) (f1 : f ≤ 0.01)
    (nm nm' : EllKey)
    {zA zB : ℝ} (fA : IsF64 zA) (fB : IsF64 zB) (hA : |zA| ≤ 1e30) (hB : |zB| ≤ 1e30) {nA nB : V3 ℝ} (hnA : IsF64V nA) (hnB : IsF64V nB)
    (A1 : (2 : ℝ) ^ (-500 : ℤ) ≤ len nA) (A2 : len nA ≤ 10 ^ 60) (B1 : (2 : ℝ) ^ (-500 : ℤ) ≤ len nB) (B2 : len nB ≤ 10 ^ 60)
    (hp : cross (northPole R) nA = 0 ∨ (2 : ℝ) ^ (-300 : ℤ) * len nA ≤ len (cross (northPole R) nA))
    {pA pB : V3 ℝ} (gA : Geodetic a f R nA zA pA) (gB : Geodetic a f R nB zB pB) :
    ∃ (P : V3 ℝ) (N : M3 ℝ) (F : LocalFrame (F64 B)),
      delta_N (.nvec ⟨nA.flt, F64.fin zA, Frame64 B a f R nm⟩) (.nvec ⟨nB.flt, F64.fin zB, Frame64 B a f R nm'⟩) = .ok ⟨P.flt, F⟩ ∧ IsF64V P ∧
      IsRotation N ∧ col2 N = -dirOf nA ∧
      (cross (northPole R) nA ≠ 0 → col1 N = dirOf (cross (northPole R) nA) ∧ 0 < dot (col0 N) (northPole R)) ∧
      (cross (northPole R) nA = 0 → col1 N = app (transp R) ⟨0, 1, 0⟩) ∧
      CloseV P (app (transp N) (pB - pA)) (9.9e-15 * a + 1.4e-15 * (|zA| + |zB|) + 5e-15 * len (pB - pA)) := by
  obtain ⟨P, nm'', h1, fP, hP⟩ := C86_delta_E B hR fa a1 a2 ff f0 f1 nm nm' fA fB hA hB hnA hnB A1 A2 B1 B2 gA gB
  have hN : ∃ W : M3 ℝ, n_E2R_EN (nA.flt : V3 (F64 B)) R.flt = W.flt ∧ IsF64M W ∧ ∃ N : M3 ℝ, IsRotation N ∧ col2 N = -dirOf nA ∧
      (cross (northPole R) nA ≠ 0 → col1 N = dirOf (cross (northPole R) nA) ∧ 0 < dot (col0 N) (northPole R)) ∧
      (cross (northPole R) nA = 0 → col1 N = app (transp R) ⟨0, 1, 0⟩) ∧ CloseM W N 2.5e-15 := by
    rcases hp with hp | hp
    · obtain ⟨W, hW, fW, -, N, r1, r2, r3, r4⟩ := C81_n_E2R_EN_pole B hR hnA A1 A2 hp
      exact ⟨W, hW, fW, N, r1, r2, fun h => absurd hp h, fun _ => r3, r4⟩
    · obtain ⟨W, hW, fW, -, N, r1, r2, r3, r5, r4⟩ := C81_n_E2R_EN B hR hnA A1 A2 hp
      refine ⟨W, hW, fW, N, r1, r2, fun _ => ⟨r3, r5⟩, fun h => ?_, r4⟩
      exfalso
      have : 0 < len nA := lt_of_lt_of_le (by positivity) A1
      rw [h, len_eq_zero.mpr rfl] at hp
      exact absurd hp (not_le.mpr (by positivity))
  obtain ⟨W, hW, fW, N, r1, r2, r3, r4, cW⟩ := hN
  obtain ⟨Q, h2, fQ, hQ⟩ := change_frame_flt B a1 a2 (add_nonneg (abs_nonneg zA) (abs_nonneg zB)) (by norm_num at hA hB ⊢; linarith only [hA, hB])
    r1 fW fP cW (by norm_num) (by norm_num) hP (delta_len hR a1 f0 f1 gA gB)
  refine ⟨Q, N, FrameN (.nvec ⟨nA.flt, F64.fin zA, Frame64 B a f R nm⟩), ?_, fQ, r1, r2, r3, r4, hQ.mono ?_⟩
  · simp only [delta_N, h1, bind, Except.bind, ECEFvector.change_frame]
    have hc : check_frames (Frame64 B a f R nm'') (FrameN (.nvec ⟨nA.flt, F64.fin zA, Frame64 B a f R nm⟩)).nvector.frame = .ok () :=
      check_self B hR fa a1 a2 ff f0 f1 _ _
    have hr : (FrameN (.nvec ⟨nA.flt, F64.fin zA, Frame64 B a f R nm⟩)).R_EN = W.flt := hW
    rw [hc, hr, h2]
    rfl
  · have := mul_le_mul_of_nonneg_right (show (1.7321 * 2.5e-15 + 6e-16 : ℝ) ≤ 5e-15 by norm_num) (len_nonneg' (pB - pA))
    linarith only [this]

/-- **C86** `delta_L`: the components in the wander azimuth frame at A, however close A is to a pole, up to
`9.9e-15 a + 1.4e-15 (|zA| + |zB|) + 8.6e-15 |AB|` -/
theorem C86_delta_L (wa : ℝ) (hR : IsAxes R) (fa : IsF64 a) (a1 : 1 ≤ a) (a2 : a ≤ 1e10) (ff : IsF64 f) (f0 : 0 ≤ f) (f1 : f ≤ 0.01)
    (nm nm' : EllKey)
    {zA zB : ℝ} (fA : IsF64 zA) (fB : IsF64 zB) (hA : |zA| ≤ 1e30) (hB : |zB| ≤ 1e30) {nA nB : V3 ℝ} (hnA : IsF64V nA) (hnB : IsF64V nB)
    (A1 : 1e-50 ≤ len nA) (A2 : len nA ≤ 10 ^ 25) (B1 : (2 : ℝ) ^ (-500 : ℤ) ≤ len nB) (B2 : len nB ≤ 10 ^ 60)
    {pA pB : V3 ℝ} (gA : Geodetic a f R nA zA pA) (gB : Geodetic a f R nB zB pB) :
    ∃ (P : V3 ℝ) (M : M3 ℝ) (F : LocalFrame (F64 B)),
      delta_L (.nvec ⟨nA.flt, F64.fin zA, Frame64 B a f R nm⟩) (.nvec ⟨nB.flt, F64.fin zB, Frame64 B a f R nm'⟩) (F64.fin wa) =
        .ok ⟨P.flt, F⟩ ∧ IsF64V P ∧ IsRotation M ∧ col2 M = -dirOf nA ∧
      (cross (northPole R) nA ≠ 0 → ∃ N : M3 ℝ, M = mmul N (RotZ wa) ∧ IsRotation N ∧ col2 N = -dirOf nA ∧
        col1 N = dirOf (cross (northPole R) nA) ∧ 0 < dot (col0 N) (northPole R)) ∧
      CloseV P (app (transp M) (pB - pA)) (9.9e-15 * a + 1.4e-15 * (|zA| + |zB|) + 8.6e-15 * len (pB - pA)) := by
  have A1' : (2 : ℝ) ^ (-500 : ℤ) ≤ len nA := by
    refine le_trans ?_ A1
    have : (2 : ℝ) ^ (-500 : ℤ) ≤ 2 ^ (-200 : ℤ) := zpow_le_zpow_right₀ (by norm_num) (by norm_num)
    refine this.trans (by norm_num)
  have A2' : len nA ≤ 10 ^ 60 := A2.trans (by norm_num)
  obtain ⟨P, nm'', h1, fP, hP⟩ := C86_delta_E B hR fa a1 a2 ff f0 f1 nm nm' fA fB hA hB hnA hnB A1' A2' B1 B2 gA gB
  obtain ⟨W, M, hW, fW, -, r1, r2, cW, r3⟩ := C83_n_E_and_wa2R_EL B wa hR hnA A1 A2
  obtain ⟨Q, h2, fQ, hQ⟩ := change_frame_flt B a1 a2 (add_nonneg (abs_nonneg zA) (abs_nonneg zB)) (by norm_num at hA hB ⊢; linarith only [hA, hB])
    r1 fW fP cW (by norm_num) (by norm_num) hP (delta_len hR a1 f0 f1 gA gB)
  refine ⟨Q, M, FrameL (.nvec ⟨nA.flt, F64.fin zA, Frame64 B a f R nm⟩) (F64.fin wa), ?_, fQ, r1, r2, r3, hQ.mono ?_⟩
  · simp only [delta_L, h1, bind, Except.bind, ECEFvector.change_frame]
    have hc : check_frames (Frame64 B a f R nm'') (FrameL (.nvec ⟨nA.flt, F64.fin zA, Frame64 B a f R nm⟩) (F64.fin wa)).nvector.frame = .ok () :=
      check_self B hR fa a1 a2 ff f0 f1 _ _
    have hr : (FrameL (.nvec ⟨nA.flt, F64.fin zA, Frame64 B a f R nm⟩) (F64.fin wa)).R_EN = W.flt := hW
    rw [hc, hr, h2]
    rfl
  · have := mul_le_mul_of_nonneg_right (show (1.7321 * 4.6e-15 + 6e-16 : ℝ) ≤ 8.6e-15 by norm_num) (len_nonneg' (pB - pA))
    linarith only [this]

end Nv
