import Verif.Props.FloatDirect
import Verif.Props.FloatFrames

/-!
# C97: azimuths in binary64
-/

namespace Nv
open Spec F64
variable (B : Binary64)
variable {R : M3 ℝ} {a f : ℝ}

/-- the computed `arctan2` of approximate components of a vector of length `h` in the direction `θ` -/
theorem arctan2_dir {Y X : F64 B} {h θ e k : ℝ} (hh : 0 < h) (hY : App Y (h * Real.sin θ) e) (hX : App X (h * Real.cos θ) e) (he : e ≤ 0.35 * h)
    (hk : 2.23 * (e / h) + 13 * uu ≤ k) : ∃ m : ℤ, App (PyFloat.arctan2 Y X) (θ + m * (2 * Real.pi)) k := by
  have e0 := hY.nonneg_err
  have q0 : 0 ≤ e / h := div_nonneg e0 hh.le
  obtain ⟨q, hq⟩ : ∃ q, q = e / h := ⟨_, rfl⟩
  have hqe : e = q * h := by rw [hq]; field_simp
  have q1 : q ≤ 0.35 := by rw [hq, div_le_iff₀ hh]; exact he
  rw [← hq] at q0 hk
  obtain ⟨m, hm⟩ := App.arctan2_turn (r := h) (ρ := 1.4143 * q) (e := k) hY hX hh
    (by linear_combination (-h ^ 2) * Real.sin_sq_add_cos_sq θ) (by positivity) (by norm_num at q1 ⊢; linarith)
    (by rw [hqe]; nlinarith [mul_nonneg q0 hh.le, sq_nonneg (q * h)]) (by norm_num at hk ⊢; linarith)
  obtain ⟨j, hj⟩ : ∃ j : ℤ, XR.atan2 (h * Real.sin θ) (h * Real.cos θ) = θ + j * (2 * Real.pi) := by
    have hp : 0 < 2 * Real.pi := by linarith [Real.pi_pos]
    have hmem := toIocMod_mem_Ioc hp (-Real.pi) θ
    have hs := self_sub_toIocDiv_zsmul hp (-Real.pi) θ
    obtain ⟨j, hj⟩ : ∃ j, j = toIocDiv hp (-Real.pi) θ := ⟨_, rfl⟩
    rw [← hj] at hs
    rw [← hs] at hmem
    simp only [zsmul_eq_mul] at hmem
    refine ⟨-j, ?_⟩
    rw [XR.atan2_eq (θ := θ - j * (2 * Real.pi)) hh hmem.1 (by linarith [hmem.2]) (by rw [Real.cos_sub_int_mul_two_pi])
      (by rw [Real.sin_sub_int_mul_two_pi])]
    push_cast; ring
  rw [hj] at hm
  refine ⟨j + m, hm.of_eq ?_⟩
  push_cast; ring

/-- the local frame in rounded arithmetic, at a pole or at least `2^-300` radians from it -/
theorem local_frame_flt (hR : IsAxes R) {nA : V3 ℝ} (hnA : IsF64V nA) (A1 : (2 : ℝ) ^ (-500 : ℤ) ≤ len nA) (A2 : len nA ≤ 10 ^ 60)
    (hp : cross (northPole R) nA = 0 ∨ (2 : ℝ) ^ (-300 : ℤ) * len nA ≤ len (cross (northPole R) nA)) :
    ∃ (W N : M3 ℝ), n_E2R_EN (nA.flt : V3 (F64 B)) R.flt = W.flt ∧ IsF64M W ∧ IsRotation N ∧ col2 N = -dirOf nA ∧
      (cross (northPole R) nA ≠ 0 → col1 N = dirOf (cross (northPole R) nA) ∧ 0 < dot (col0 N) (northPole R)) ∧
      (cross (northPole R) nA = 0 → col1 N = app (transp R) ⟨0, 1, 0⟩) ∧ CloseM W N 2.5e-15 := by
  rcases hp with hp | hp
  · obtain ⟨W, hW, fW, -, N, r1, r2, r3, r4⟩ := C81_n_E2R_EN_pole B hR hnA A1 A2 hp
    exact ⟨W, N, hW, fW, r1, r2, fun h => absurd hp h, fun _ => r3, r4⟩
  · obtain ⟨W, hW, fW, -, N, r1, r2, r3, r5, r4⟩ := C81_n_E2R_EN B hR hnA A1 A2 hp
    refine ⟨W, N, hW, fW, r1, r2, fun _ => ⟨r3, r5⟩, fun h => ?_, r4⟩
    exfalso
    have : 0 < len nA := lt_of_lt_of_le (by positivity) A1
    rw [h, len_eq_zero.mpr rfl] at hp
    exact absurd hp (not_le.mpr (by positivity))

/-- the vector from A to B in the local frame of A -/
theorem azimuth_vector (hR : IsAxes R) (fa : IsF64 a) (a1 : 1 ≤ a) (a2 : a ≤ 1e10) (ff : IsF64 f) (f0 : 0 ≤ f) (f1 : f ≤ 0.01)
    {nA nB : V3 ℝ} (hnA : IsF64V nA) (hnB : IsF64V nB)
    (A1 : (2 : ℝ) ^ (-500 : ℤ) ≤ len nA) (A2 : len nA ≤ 10 ^ 60) (B1 : (2 : ℝ) ^ (-500 : ℤ) ≤ len nB) (B2 : len nB ≤ 10 ^ 60)
    {W N : M3 ℝ} (hW : n_E2R_EN (nA.flt : V3 (F64 B)) R.flt = W.flt) (fW : IsF64M W) (hN : IsRotation N) (cW : CloseM W N 2.5e-15)
    {pA pB : V3 ℝ} (gA : Geodetic a f R nA 0 pA) (gB : Geodetic a f R nB 0 pB) :
    ∃ Q : V3 ℝ, n_EA_E_and_n_EB_E2azimuth (nA.flt : V3 (F64 B)) nB.flt (F64.fin a) (F64.fin f) R.flt = PyFloat.arctan2 (F64.fin Q.y) (F64.fin Q.x) ∧
      IsF64V Q ∧ CloseV Q (app (transp N) (pB - pA)) (9.9e-15 * a + 5e-15 * len (pB - pA)) := by
  have z30 : |(0 : ℝ)| ≤ 1e30 := by rw [abs_zero]; norm_num
  have f00 : IsF64 (0 : ℝ) := isF64_zero
  obtain ⟨P, h1, fP, hx, hy, hz⟩ := C84_delta_E B hR fa a1 a2 ff f0 f1 f00 f00 z30 z30 hnA hnB A1 A2 B1 B2 gA gB
  have l0 := len_nonneg' (pB - pA)
  have hP : CloseV P (pB - pA) (5.7e-15 * a + 8e-16 * (|(0 : ℝ)| + |(0 : ℝ)|) + 1.2e-16 * len (pB - pA)) :=
    ⟨hx.trans (add_le_add_right (mul_le_mul_of_nonneg_left (abs_x_le_len (pB - pA)) (by norm_num)) _),
      hy.trans (add_le_add_right (mul_le_mul_of_nonneg_left (abs_y_le_len (pB - pA)) (by norm_num)) _),
      hz.trans (add_le_add_right (mul_le_mul_of_nonneg_left (abs_z_le_len (pB - pA)) (by norm_num)) _)⟩
  obtain ⟨Q, h2, fQ, hQ⟩ := change_frame_flt B a1 a2 (add_nonneg (abs_nonneg 0) (abs_nonneg 0)) (by norm_num)
    hN fW fP cW (by norm_num) (by norm_num) hP (delta_len hR a1 f0 f1 gA gB)
  refine ⟨Q, ?_, fQ, hQ.mono ?_⟩
  · unfold n_EA_E_and_n_EB_E2azimuth
    dsimp only
    rw [lit_zero, h1, hW, h2]
    rfl
  · have := mul_le_mul_of_nonneg_right (show (1.7321 * 2.5e-15 + 6e-16 : ℝ) ≤ 5e-15 by norm_num) l0
    rw [abs_zero]
    linarith only [this]

/-- **C97** the computed azimuth from A to B is the direction, counted from north towards east at A, of the horizontal part (length `h`) of the exact vector
from A to B, up to whole turns and `(2.3e-14 a + 1.2e-14 |AB|) / h + 1.5e-15`; A is exactly at a pole or at least `2^-300` radians from it -/
theorem C97_azimuth (hR : IsAxes R) (fa : IsF64 a) (a1 : 1 ≤ a) (a2 : a ≤ 1e10) (ff : IsF64 f) (f0 : 0 ≤ f) (f1 : f ≤ 0.01)
    {nA nB : V3 ℝ} (hnA : IsF64V nA) (hnB : IsF64V nB)
    (A1 : (2 : ℝ) ^ (-500 : ℤ) ≤ len nA) (A2 : len nA ≤ 10 ^ 60) (B1 : (2 : ℝ) ^ (-500 : ℤ) ≤ len nB) (B2 : len nB ≤ 10 ^ 60)
    (hp : cross (northPole R) nA = 0 ∨ (2 : ℝ) ^ (-300 : ℤ) * len nA ≤ len (cross (northPole R) nA))
    {pA pB : V3 ℝ} (gA : Geodetic a f R nA 0 pA) (gB : Geodetic a f R nB 0 pB) :
    ∃ N : M3 ℝ, IsRotation N ∧ col2 N = -dirOf nA ∧
      (cross (northPole R) nA ≠ 0 → col1 N = dirOf (cross (northPole R) nA) ∧ 0 < dot (col0 N) (northPole R)) ∧
      (cross (northPole R) nA = 0 → col1 N = app (transp R) ⟨0, 1, 0⟩) ∧
      ∀ h az : ℝ, 0 < h → dot (col0 N) (pB - pA) = h * Real.cos az → dot (col1 N) (pB - pA) = h * Real.sin az →
        3e-14 * a + 1.5e-14 * len (pB - pA) ≤ h →
        ∃ (az' : ℝ) (k : ℤ), n_EA_E_and_n_EB_E2azimuth (nA.flt : V3 (F64 B)) nB.flt (F64.fin a) (F64.fin f) R.flt = F64.fin az' ∧ IsF64 az' ∧
          |az' - (az + k * (2 * Real.pi))| ≤ (2.3e-14 * a + 1.2e-14 * len (pB - pA)) / h + 1.5e-15 := by
  obtain ⟨W, N, hW, fW, hN, r1, r2, r3, cW⟩ := local_frame_flt B hR hnA A1 A2 hp
  refine ⟨N, hN, r1, r2, r3, ?_⟩
  intro h az hh hx hy hb
  obtain ⟨Q, h1, fQ, q1, q2, -⟩ := azimuth_vector B hR fa a1 a2 ff f0 f1 hnA hnB A1 A2 B1 B2 hW fW hN cW gA gB
  have ex : (app (transp N) (pB - pA)).x = h * Real.cos az := by rw [← hx]; rfl
  have ey : (app (transp N) (pB - pA)).y = h * Real.sin az := by rw [← hy]; rfl
  rw [ex] at q1
  rw [ey] at q2
  have l0 := len_nonneg' (pB - pA)
  obtain ⟨e, he⟩ : ∃ e, e = 9.9e-15 * a + 5e-15 * len (pB - pA) := ⟨_, rfl⟩
  rw [← he] at q1 q2
  obtain ⟨k, az', h2, f2, h3⟩ := arctan2_dir B (k := (2.3e-14 * a + 1.2e-14 * len (pB - pA)) / h + 1.5e-15) hh ⟨_, rfl, fQ.2.1, q2⟩ ⟨_, rfl, fQ.1, q1⟩
    (by rw [he]; norm_num at hb ⊢; linarith) (by
      have : 2.23 * (e / h) = (2.23 * e) / h := by ring
      rw [this]
      have h4 : 2.23 * e / h ≤ (2.3e-14 * a + 1.2e-14 * len (pB - pA)) / h :=
        div_le_div_of_nonneg_right (by rw [he]; norm_num; linarith) hh.le
      have h5 : 13 * uu ≤ 1.5e-15 := by unfold uu; norm_num
      linarith)
  exact ⟨az', k, by rw [h1, h2], f2, h3⟩

end Nv

namespace Nv
open Spec F64
variable (B : Binary64)
variable {R : M3 ℝ} {a δ : ℝ}

theorem posE_sphere (a : ℝ) {m : V3 ℝ} (hm : UnitVec m) : posE a 0 m 0 = a • m := by
  have h : Dell 0 m = 1 := by
    unfold Dell UnitVec at *
    rw [Real.sqrt_eq_one]; linarith
  unfold posE
  rw [h]
  ext <;> simp

/-- on a sphere the point of depth zero is along the n-vector -/
theorem geodetic_sphere (hR : IsRotation R) (ha : 0 < a) {n : V3 ℝ} (hn : n ≠ 0) : Geodetic a 0 R n 0 (a • dirOf n) := by
  have h := geodetic_posE (d := 0) ha (show (0 : ℝ) < 1 by norm_num) hR hn
  rwa [posE_sphere a (unitVec_app hR (dirOf_unit hn)), app_smul, hR.trans_app] at h

/-- columns determine the rotation -/
theorem rotation_ext {N N' : M3 ℝ} (h : IsRotation N) (h' : IsRotation N') (h1 : col1 N = col1 N') (h2 : col2 N = col2 N') : N = N' := by
  have h0 : col0 N = col0 N' := by rw [← h.cross12, ← h'.cross12, h1, h2]
  unfold col0 at h0; unfold col1 at h1; unfold col2 at h2
  simp only [V3.mk.injEq] at h0 h1 h2
  ext <;> simp [h0, h1, h2]

/-- **C97** the computed azimuth (on a sphere) from the start to the computed destination of the direct problem is the azimuth asked for, up to whole turns
and `(8.2e-14 + 4.5 δ) / sin d` -/
theorem C97_direct_then_azimuth (hR : IsAxes R) {n : V3 ℝ} (hn : IsF64V n) (hδ : |len n - 1| ≤ δ) (hδ' : δ ≤ 1e-6)
    (hp : (2 : ℝ) ^ (-300 : ℤ) * len n ≤ len (cross (northPole R) n)) (fa : IsF64 a) (a1 : 1 ≤ a) (a2 : a ≤ 1e10)
    {d : ℝ} (hd0 : 0 ≤ d) (hd : d ≤ Real.pi) (hd1 : 1.1e-13 + 6 * δ ≤ Real.sin d) (az : ℝ) :
    ∃ (az' : ℝ) (k : ℤ), n_EA_E_and_n_EB_E2azimuth (n.flt : V3 (F64 B)) (n_EA_E_distance_and_azimuth2n_EB_E n.flt (F64.fin d) (F64.fin az) R.flt)
        (F64.fin a) (F64.fin 0) R.flt = F64.fin az' ∧ IsF64 az' ∧ |az' - (az + k * (2 * Real.pi))| ≤ (8.2e-14 + 4.5 * δ) / Real.sin d := by
  have δ0 := (abs_nonneg _).trans hδ
  obtain ⟨n1, n2⟩ := abs_le.mp hδ
  have ha : 0 < a := by linarith
  have nl : 0.9 ≤ len n := by norm_num at hδ' ⊢; linarith
  have nl2 : len n ≤ 1.1 := by norm_num at hδ' ⊢; linarith
  have n0 : n ≠ 0 := by rintro rfl; simp [len] at nl; norm_num at nl
  have hc : cross (northPole R) n ≠ 0 := by
    intro h
    rw [h, len_eq_zero.mpr rfl] at hp
    have : 0 < len n := len_pos n0
    exact absurd hp (not_le.mpr (by positivity))
  have hp' : (2 : ℝ) ^ (-500 : ℤ) ≤ len (cross (northPole R) n) := by
    refine le_trans ?_ hp
    have h1 : (2 : ℝ) ^ (-500 : ℤ) ≤ 2 ^ (-300 : ℤ) * 2 ^ (-1 : ℤ) := by
      rw [← zpow_add₀ (by norm_num)]; exact zpow_le_zpow_right₀ (by norm_num) (by norm_num)
    refine h1.trans (mul_le_mul_of_nonneg_left ?_ (by positivity))
    norm_num at nl ⊢; linarith
  obtain ⟨W, N, h1, fW, hN, c2, c1, -, hW, -⟩ := C96_destination B hR hn hδ hδ' hp' d az
  obtain ⟨M, N', hM, fM, hN', c2', c1', -, cM⟩ := local_frame_flt B hR hn (pow500_le (le_trans (by norm_num) nl)) (nl2.trans (by norm_num)) (Or.inr hp)
  have e : N' = N := rotation_ext hN' hN (by rw [(c1' hc).1, c1]) (by rw [c2', c2])
  subst e
  have hε : 7.8e-15 + δ ≤ 1e-3 := by norm_num at hδ' ⊢; linarith
  obtain ⟨k1, -⟩ := destination_near n0 hN c2 hd0 hd hε hW
  obtain ⟨w1, w2⟩ := abs_le.mp k1
  have wl : 0.9 ≤ len W := by norm_num at hδ' w1 ⊢; linarith
  have wl2 : len W ≤ 1.1 := by norm_num at hδ' w2 ⊢; linarith
  have W0 : W ≠ 0 := by rintro rfl; simp [len] at wl; norm_num at wl
  obtain ⟨Q, h2, fQ, q1, q2, -⟩ := azimuth_vector B hR fa a1 a2 isF64_zero le_rfl (by norm_num) hn fW (pow500_le (le_trans (by norm_num) nl))
    (nl2.trans (by norm_num)) (pow500_le (le_trans (by norm_num) wl)) (wl2.trans (by norm_num)) hM fM hN cM (geodetic_sphere hR.rot ha n0)
    (geodetic_sphere hR.rot ha W0)
  have un := dirOf_unit n0
  have uW := dirOf_unit W0
  have hPu := destination_unit hN d az
  have hlen : len (a • dirOf W - a • dirOf n) ≤ 2 * a := by
    have h := len_add_le (a • dirOf W) ((-a) • dirOf n)
    rw [show a • dirOf W + (-a) • dirOf n = a • dirOf W - a • dirOf n by ext <;> simp <;> ring, len_smul, len_smul, uW.len, un.len, abs_neg, abs_of_pos ha] at h
    linarith
  have hdir := len_dirOf_sub hPu W0
  have fr := frame_col hN
  obtain ⟨r1, r2, r3⟩ := reach_dot fr d az
  rw [← destination_reach hN] at r1 r2 r3
  have hcr : cross (-col2 N') (col1 N') = col0 N' := by rw [← hN.cross12]; ext <;> simp [cross] <;> ring
  rw [hcr] at r3
  have hm : -col2 N' = dirOf n := by rw [c2]; ext <;> simp
  -- horizontal components
  have comp : ∀ {c : V3 ℝ} {t : ℝ}, len c = 1 → dot c (dirOf n) = 0 → dot c (destination N' d az) = t →
      |dot c (a • dirOf W - a • dirOf n) - a * t| ≤ a * (1.56e-14 + 2 * δ) := by
    intro c t lc o ht
    have e1 : dot c (a • dirOf W - a • dirOf n) - a * t = a * dot c (dirOf W - destination N' d az) := by
      rw [← ht]
      have : a * dot c (dirOf n) = 0 := by rw [o, mul_zero]
      unfold dot at this ⊢; simp; linear_combination -this
    rw [e1, abs_mul, abs_of_pos ha]
    refine mul_le_mul_of_nonneg_left ?_ ha.le
    have := abs_dot_le c (dirOf W - destination N' d az)
    rw [lc, one_mul] at this
    norm_num at hW ⊢; linarith
  have hs : 0 < Real.sin d := by norm_num at hd1; linarith
  have u0 : len (col0 N') = 1 := len_of_dot hN.c00
  have u1 : len (col1 N') = 1 := len_of_dot hN.c11
  have o0 : dot (col0 N') (dirOf n) = 0 := by
    have := hN.c02; rw [← hm]; unfold dot at this ⊢; simp; linarith
  have o1 : dot (col1 N') (dirOf n) = 0 := by
    have := hN.c12; rw [← hm]; unfold dot at this ⊢; simp; linarith
  have x1 := comp u0 o0 r3
  have y1 := comp u1 o1 r2
  have ex : (app (transp N') (a • dirOf W - a • dirOf n)).x = dot (col0 N') (a • dirOf W - a • dirOf n) := rfl
  have ey : (app (transp N') (a • dirOf W - a • dirOf n)).y = dot (col1 N') (a • dirOf W - a • dirOf n) := rfl
  rw [ex] at q1
  rw [ey] at q2
  have tri : ∀ {u v w : ℝ}, |u - v| ≤ 9.9e-15 * a + 5e-15 * len (a • dirOf W - a • dirOf n) → |v - w| ≤ a * (1.56e-14 + 2 * δ) → |u - w| ≤ a * (3.56e-14 + 2 * δ) := by
    intro u v w p q
    have := abs_add_le (u - v) (v - w)
    rw [show u - v + (v - w) = u - w by ring] at this
    norm_num at p q hlen ⊢; linarith
  have X := tri q1 x1
  have Y := tri q2 y1
  rw [show a * (Real.sin d * Real.cos az) = a * Real.sin d * Real.cos az by ring] at X
  rw [show a * (Real.sin d * Real.sin az) = a * Real.sin d * Real.sin az by ring] at Y
  have hah : 0 < a * Real.sin d := mul_pos ha hs
  have hs1 := Real.sin_le_one d
  obtain ⟨k, az', h3, f3, h4⟩ := arctan2_dir B (k := (8.2e-14 + 4.5 * δ) / Real.sin d) hah ⟨_, rfl, fQ.2.1, Y⟩ ⟨_, rfl, fQ.1, X⟩
    (by
      have : a * (3.56e-14 + 2 * δ) ≤ a * (0.35 * Real.sin d) := mul_le_mul_of_nonneg_left (by norm_num at hd1 ⊢; linarith) ha.le
      linarith) (by
      have e3 : a * (3.56e-14 + 2 * δ) / (a * Real.sin d) = (3.56e-14 + 2 * δ) / Real.sin d := by field_simp
      rw [e3, le_div_iff₀ hs]
      have e4 : (2.23 * ((3.56e-14 + 2 * δ) / Real.sin d) + 13 * uu) * Real.sin d = 2.23 * (3.56e-14 + 2 * δ) + 13 * uu * Real.sin d := by field_simp
      rw [e4]
      have h5 : 13 * uu * Real.sin d ≤ 13 * uu * 1 := mul_le_mul_of_nonneg_left hs1 (by have := uu_pos; positivity)
      have h6 : 13 * uu ≤ 1.5e-15 := by unfold uu; norm_num
      norm_num at h6 ⊢
      linarith)
  exact ⟨az', k, by rw [h1, h2, h3], f3, h4⟩

/-- the hypotheses of C97 hold for the position (1, 0, 0) on the equator, with north along the z-axis, and a point a quarter of a degree away -/
example : IsF64V (⟨1, 0, 0⟩ : V3 ℝ) ∧ |len (⟨1, 0, 0⟩ : V3 ℝ) - 1| ≤ 0 ∧ (2 : ℝ) ^ (-300 : ℤ) * len (⟨1, 0, 0⟩ : V3 ℝ) ≤ len (cross (northPole Re) ⟨1, 0, 0⟩) ∧
    (1.1e-13 + 6 * 0 : ℝ) ≤ Real.sin (1 / 256) := by
  have l : len (⟨1, 0, 0⟩ : V3 ℝ) = 1 := by simp [len]
  have hnp : northPole Re = ⟨0, 0, 1⟩ := by unfold northPole Re app transp col0 col1 col2 dot; ext <;> simp
  refine ⟨⟨isF64_one, isF64_zero, isF64_zero⟩, by rw [l]; norm_num, ?_, ?_⟩
  · rw [hnp, l, mul_one]
    have : len (cross ⟨0, 0, 1⟩ ⟨1, 0, 0⟩ : V3 ℝ) = 1 := by simp [len, cross]
    rw [this]
    exact zpow_le_one_of_nonpos₀ (by norm_num) (by norm_num)
  · have := Real.sin_gt_sub_cube (x := 1 / 256) (by norm_num)
    norm_num at this ⊢
    linarith

end Nv
