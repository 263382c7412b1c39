import Verif.Float.Deltas
import Verif.Props.FloatPosition

/-!
# C84, C85: vectors between positions in binary64

Axes, `a`, `f` and `Geodetic` as in `Props/FloatPosition.lean`.
-/

namespace Nv
open Spec F64
variable (B : Binary64)
variable {a f : ℝ} {R : M3 ℝ}

/-! ## C84 -/

/-- **C84** the computed vector from A to B is within `5.7e-15 a + 8e-16 (|zA| + |zB|)` plus one rounding (`1.2e-16` of the component) of
the exact vector between the two points, in every component -/
theorem C84_delta_E (hR : IsAxes R) (fa : IsF64 a) (a1 : 1 ≤ a) (a2 : a ≤ 1e10) (ff : IsF64 f) (f0 : 0 ≤ f) (f1 : f ≤ 0.01)
    {zA zB : ℝ} (fA : IsF64 zA) (fB : IsF64 zB) (hA : |zA| ≤ 1e30) (hB : |zB| ≤ 1e30) {nA nB : V3 ℝ} (hnA : IsF64V nA) (hnB : IsF64V nB)
    (A1 : (2 : ℝ) ^ (-500 : ℤ) ≤ len nA) (A2 : len nA ≤ 10 ^ 60) (B1 : (2 : ℝ) ^ (-500 : ℤ) ≤ len nB) (B2 : len nB ≤ 10 ^ 60)
    {pA pB : V3 ℝ} (gA : Geodetic a f R nA zA pA) (gB : Geodetic a f R nB zB pB) :
    ∃ P : V3 ℝ, n_EA_E_and_n_EB_E2p_AB_E (nA.flt : V3 (F64 B)) nB.flt (F64.fin zA) (F64.fin zB) (F64.fin a) (F64.fin f) R.flt = P.flt ∧ IsF64V P ∧
      |P.x - (pB.x - pA.x)| ≤ 5.7e-15 * a + 8e-16 * (|zA| + |zB|) + 1.2e-16 * |pB.x - pA.x| ∧
      |P.y - (pB.y - pA.y)| ≤ 5.7e-15 * a + 8e-16 * (|zA| + |zB|) + 1.2e-16 * |pB.y - pA.y| ∧
      |P.z - (pB.z - pA.z)| ≤ 5.7e-15 * a + 8e-16 * (|zA| + |zB|) + 1.2e-16 * |pB.z - pA.z| := by
  have hu := uu_pos
  norm_num at f1
  have ha : 0 < a := by linarith
  obtain ⟨nA0, hpA⟩ := gA.eq ha (by linarith) hR.rot
  obtain ⟨nB0, hpB⟩ := gB.eq ha (by linarith) hR.rot
  have f1' : f ≤ 0.01 := by norm_num; linarith
  obtain ⟨PA, h1, k1, x1, y1, z1⟩ := n2p_flt (B := B) hR fa a1 a2 ff f0 f1' fA hA hnA A1 A2
  obtain ⟨PB, h2, k2, x2, y2, z2⟩ := n2p_flt (B := B) hR fa a1 a2 ff f0 f1' fB hB hnB B1 B2
  rw [← hpA] at x1 y1 z1
  rw [← hpB] at x2 y2 z2
  have lA : len pA ≤ a + |zA| := by
    rw [hpA, len_app hR.rot.transpose]
    exact posE_len_le ha f0 (by linarith) (unitVec_app hR.rot (dirOf_unit nA0))
  have lB : len pB ≤ a + |zB| := by
    rw [hpB, len_app hR.rot.transpose]
    exact posE_len_le ha f0 (by linarith) (unitVec_app hR.rot (dirOf_unit nB0))
  have key : ∀ {s t p q : ℝ}, IsF64 s → IsF64 t → |s - p| ≤ 25.3 * (uu * a) + 7.1 * (uu * |zA|) →
      |t - q| ≤ 25.3 * (uu * a) + 7.1 * (uu * |zB|) → |p| ≤ len pA → |q| ≤ len pB →
      ∃ r, (F64.fin t : F64 B) - F64.fin s = F64.fin r ∧ IsF64 r ∧
        |r - (q - p)| ≤ 5.7e-15 * a + 8e-16 * (|zA| + |zB|) + 1.2e-16 * |q - p| := by
    intro s t p q fs ft hs ht hp hq
    have e0 : |q - p| ≤ 1e31 := by
      have := abs_sub q p
      norm_num at hA hB a2 ⊢
      linarith only [this, hp, hq, lA, lB, hA, hB, a2]
    have p1 : 0 ≤ uu * a := mul_nonneg hu.le ha.le
    have p2 : 0 ≤ uu * |zA| := mul_nonneg hu.le (abs_nonneg _)
    have p3 : 0 ≤ uu * |zB| := mul_nonneg hu.le (abs_nonneg _)
    have us : uu ≤ 1.2e-16 := by unfold uu; norm_num
    have hsum : uu * a ≤ 1 ∧ uu * |zA| ≤ 1e30 ∧ uu * |zB| ≤ 1e30 := by
      refine ⟨?_, ?_, ?_⟩
      · calc uu * a ≤ uu * 1e10 := mul_le_mul_of_nonneg_left a2 hu.le
          _ ≤ 1 := by unfold uu; norm_num
      · calc uu * |zA| ≤ 1 * 1e30 := mul_le_mul (us.trans (by norm_num)) hA (abs_nonneg _) (by norm_num)
          _ ≤ _ := by norm_num
      · calc uu * |zB| ≤ 1 * 1e30 := mul_le_mul (us.trans (by norm_num)) hB (abs_nonneg _) (by norm_num)
          _ ≤ _ := by norm_num
    refine App.sub (b := |q - p|) (⟨t, rfl, ft, ht⟩ : App (F64.fin t : F64 B) q _) (⟨s, rfl, fs, hs⟩ : App (F64.fin s : F64 B) p _) le_rfl ?_ ?_
    · have q1 : uu * (2 * 25.3) * (1 + uu) ≤ 5.65e-15 := by unfold uu; norm_num
      have q2 : uu * 7.1 * (1 + uu) ≤ 8e-16 := by unfold uu; norm_num
      have r1 := mul_le_mul_of_nonneg_right q1 ha.le
      have r2 := mul_le_mul_of_nonneg_right q2 (abs_nonneg zA)
      have r3 := mul_le_mul_of_nonneg_right q2 (abs_nonneg zB)
      have r4 := mul_le_mul_of_nonneg_right us (abs_nonneg (q - p))
      have r5 : (1 / 10 ^ 60 : ℝ) ≤ 5e-17 * a := by
        have : (1 / 10 ^ 60 : ℝ) ≤ 5e-17 * 1 := by norm_num
        exact this.trans (mul_le_mul_of_nonneg_left a1 (by norm_num))
      have r6 : (5.65e-15 : ℝ) * a + 5e-17 * a = 5.7e-15 * a := by norm_num; ring
      linarith only [r1, r2, r3, r4, r5, r6]
    · obtain ⟨s1, s2, s3⟩ := hsum
      norm_num at s1 s2 s3 e0 ⊢
      linarith only [s1, s2, s3, e0]
  obtain ⟨X, hX, fX, bX⟩ := key k1.1 k2.1 x1 x2 (abs_x_le_len pA) (abs_x_le_len pB)
  obtain ⟨Y, hY, fY, bY⟩ := key k1.2.1 k2.2.1 y1 y2 (abs_y_le_len pA) (abs_y_le_len pB)
  obtain ⟨Z, hZ, fZ, bZ⟩ := key k1.2.2 k2.2.2 z1 z2 (abs_z_le_len pA) (abs_z_le_len pB)
  refine ⟨⟨X, Y, Z⟩, ?_, ⟨fX, fY, fZ⟩, bX, bY, bZ⟩
  unfold n_EA_E_and_n_EB_E2p_AB_E
  rw [h1, h2]
  change (⟨F64.fin PB.x - F64.fin PA.x, F64.fin PB.y - F64.fin PA.y, F64.fin PB.z - F64.fin PA.z⟩ : V3 (F64 B)) = _
  rw [hX, hY, hZ]
  rfl

/-- the vector from a position to itself is exactly zero -/
theorem C84_self (hR : IsAxes R) (fa : IsF64 a) (a1 : 1 ≤ a) (a2 : a ≤ 1e10) (ff : IsF64 f) (f0 : 0 ≤ f) (f1 : f ≤ 0.01)
    {z : ℝ} (fz : IsF64 z) (hz : |z| ≤ 1e30) {n : V3 ℝ} (hn : IsF64V n)
    (n1 : (2 : ℝ) ^ (-500 : ℤ) ≤ len n) (n2 : len n ≤ 10 ^ 60) :
    n_EA_E_and_n_EB_E2p_AB_E (n.flt : V3 (F64 B)) n.flt (F64.fin z) (F64.fin z) (F64.fin a) (F64.fin f) R.flt = (0 : V3 ℝ).flt := by
  obtain ⟨P, h1, -⟩ := n2p_flt (B := B) hR fa a1 a2 ff f0 f1 fz hz hn n1 n2
  unfold n_EA_E_and_n_EB_E2p_AB_E
  rw [h1]
  have h0 : ∀ x : ℝ, (F64.fin x : F64 B) - F64.fin x = F64.fin 0 := by
    intro x
    rw [fin_sub (by simp), sub_self, B.rounds.exact isF64_zero]
  change (⟨F64.fin P.x - F64.fin P.x, F64.fin P.y - F64.fin P.y, F64.fin P.z - F64.fin P.z⟩ : V3 (F64 B)) = _
  rw [h0, h0, h0]
  rfl

/-! ## C85 -/

set_option maxHeartbeats 1600000 in
/-- **C85** dead reckoning: from the position `(nA, zA)` and a vector `v`, the n-vector and depth computed for the point reached are those
of the point `pA + v`, up to `1.7e-14 + 3.5e-15 |zA|/a` in every component of the n-vector and `1.1e-14 a + 1.4e-15 |zA| + 5.8e-15 |d|`
in depth -/
theorem C85_dead_reckoning (hR : IsAxes R) (fa : IsF64 a) (a1 : 1 ≤ a) (a2 : a ≤ 1e10) (ff : IsF64 f) (f0 : 0 ≤ f) (f1 : f ≤ 0.01)
    {zA : ℝ} (fA : IsF64 zA) (hA : |zA| ≤ 1000 * a) {nA v : V3 ℝ} (hnA : IsF64V nA) (hv : IsF64V v)
    (A1 : (2 : ℝ) ^ (-500 : ℤ) ≤ len nA) (A2 : len nA ≤ 10 ^ 60)
    {pA n : V3 ℝ} {d : ℝ} (gA : Geodetic a f R nA zA pA) (hn : UnitVec n) (hg : Geodetic a f R n d (pA + v)) (d1 : d ≤ 0.4 * a) (d2 : -d ≤ 998 * a) :
    ∃ (w : V3 ℝ) (D : ℝ), n_EA_E_and_p_AB_E2n_EB_E (nA.flt : V3 (F64 B)) v.flt (F64.fin zA) (F64.fin a) (F64.fin f) R.flt =
        (w.flt, F64.fin D) ∧ IsF64V w ∧ IsF64 D ∧
      |w.x - n.x| ≤ 1.7e-14 + 3.5e-15 * (|zA| / a) ∧ |w.y - n.y| ≤ 1.7e-14 + 3.5e-15 * (|zA| / a) ∧
      |w.z - n.z| ≤ 1.7e-14 + 3.5e-15 * (|zA| / a) ∧
      |D - d| ≤ 1.1e-14 * a + 1.4e-15 * |zA| + 5.8e-15 * |d| := by
  have hu := uu_pos
  have f1' := f1
  norm_num at f1'
  have ha : 0 < a := by linarith
  have hf : f < 1 := by linarith
  obtain ⟨nA0, hpA⟩ := gA.eq ha hf hR.rot
  obtain ⟨n0, hq⟩ := hg.eq ha hf hR.rot
  obtain ⟨PA, h1, k1, x1, y1, z1⟩ := n2p_flt (B := B) hR fa a1 a2 ff f0 f1 fA
    (by norm_num at a2 hA ⊢; linarith only [hA, a2]) hnA A1 A2
  rw [← hpA] at x1 y1 z1
  have lq : len (pA + v) ≤ a + |d| := by
    rw [hq, len_app hR.rot.transpose]
    exact posE_len_le ha f0 hf (unitVec_app hR.rot (dirOf_unit n0))
  have hda : |d| ≤ 998 * a := by rw [abs_le]; norm_num at d1; constructor <;> linarith only [d1, d2, ha]
  have p1 : 0 ≤ uu * a := mul_nonneg hu.le ha.le
  have p2 : 0 ≤ uu * |zA| := mul_nonneg hu.le (abs_nonneg _)
  have p3 : 0 ≤ uu * |d| := mul_nonneg hu.le (abs_nonneg _)
  have us : uu ≤ 1.2e-16 := by unfold uu; norm_num
  have us2 : uu ≤ 0.001 := by unfold uu; norm_num
  have hua : uu * a ≤ 1 := by
    calc uu * a ≤ uu * 1e10 := mul_le_mul_of_nonneg_left a2 hu.le
      _ ≤ 1 := by unfold uu; norm_num
  have hz1 := mul_le_mul_of_nonneg_left hA hu.le
  have hd1 := mul_le_mul_of_nonneg_left hda hu.le
  obtain ⟨e, he⟩ : ∃ e, e = 26.4 * (uu * a) + 7.2 * (uu * |zA|) + 1.01 * (uu * |d|) := ⟨_, rfl⟩
  have key : ∀ {s t p : ℝ}, IsF64 s → IsF64 t → |s - p| ≤ 25.3 * (uu * a) + 7.1 * (uu * |zA|) → |p + t| ≤ len (pA + v) →
      ∃ r, (F64.fin s : F64 B) + F64.fin t = F64.fin r ∧ IsF64 r ∧ |r - (p + t)| ≤ e := by
    intro s t p fs ft hs hp
    refine App.add (b := a + |d|) (⟨s, rfl, fs, hs⟩ : App (F64.fin s : F64 B) p _) (App.exact ft) (hp.trans lq) ?_ ?_
    · have r5 : (1 / 10 ^ 60 : ℝ) ≤ 0.01 * (uu * a) := by
        have : (1 / 10 ^ 60 : ℝ) ≤ 0.01 * (uu * 1) := by unfold uu; norm_num
        refine this.trans ?_
        have := mul_le_mul_of_nonneg_left a1 hu.le
        norm_num at this ⊢
        linarith only [this]
      have r1 : uu * (uu * a) ≤ 0.001 * (uu * a) := mul_le_mul_of_nonneg_right us2 p1
      have r2 : uu * (uu * |zA|) ≤ 0.001 * (uu * |zA|) := mul_le_mul_of_nonneg_right us2 p2
      rw [he]
      norm_num at r1 r2 r5 ⊢
      linarith only [r1, r2, r5, p1, p2, p3]
    · norm_num at a2 hA hua hz1 ⊢
      linarith only [a2, hda, hua, hz1]
  obtain ⟨X, hX, fX, bX⟩ := key k1.1 hv.1 x1 (abs_x_le_len (pA + v))
  obtain ⟨Y, hY, fY, bY⟩ := key k1.2.1 hv.2.1 y1 (abs_y_le_len (pA + v))
  obtain ⟨Z, hZ, fZ, bZ⟩ := key k1.2.2 hv.2.2 z1 (abs_z_le_len (pA + v))
  have hη : len ((⟨X, Y, Z⟩ : V3 ℝ) - (pA + v)) ≤ 1.7321 * e := len_le_of_comp bX bY bZ
  have ηa : 1.7321 * e ≤ 0.0001 * a := by
    have e1 : uu * (1.7321 * (26.4 + 7.2 * 1000 + 1.01 * 998)) ≤ 0.0001 := by unfold uu; norm_num
    have e2 := mul_le_mul_of_nonneg_right e1 ha.le
    rw [he]
    norm_num at e2 hz1 hd1 ⊢
    linarith only [e2, hz1, hd1]
  obtain ⟨w, D, h3, fw, fD, hw, hD⟩ := p2n_near (B := B) hR fa a1 a2 ff f0 f1 (P := ⟨X, Y, Z⟩) ⟨fX, fY, fZ⟩ hg d1 d2 hη ηa
  have hdn : dirOf n = n := by
    unfold dirOf; rw [hn.len]; ext <;> simp
  rw [hdn] at hw
  have hpos : 0 < a + |d| := by have := abs_nonneg d; linarith only [this, ha]
  have hwb : len (w - n) ≤ 1.7e-14 + 3.5e-15 * (|zA| / a) := by
    have q1 : e / (a + |d|) ≤ 26.4 * uu + 7.2 * (uu * (|zA| / a)) := by
      rw [div_le_iff₀ hpos, he]
      have t1 : uu * |zA| = uu * (|zA| / a) * a := by field_simp
      have t2 : 0 ≤ uu * (|zA| / a) * |d| := by positivity
      norm_num at *
      nlinarith only [t1, t2, p3]
    have q2 : uu * (32.71 + 2.5 * (1.7321 * 26.4)) ≤ 1.7e-14 := by unfold uu; norm_num
    have q3 : uu * (2.5 * (1.7321 * 7.2)) ≤ 3.5e-15 := by unfold uu; norm_num
    have q4 := mul_le_mul_of_nonneg_right q3 (by positivity : 0 ≤ |zA| / a)
    have q5 : 1.7321 * e / (a + |d|) = 1.7321 * (e / (a + |d|)) := mul_div_assoc _ _ _
    rw [q5] at hw
    linarith only [hw, q1, q2, q4]
  refine ⟨w, D, ?_, fw, fD, (abs_x_le_len (w - n)).trans hwb, (abs_y_le_len (w - n)).trans hwb, (abs_z_le_len (w - n)).trans hwb, ?_⟩
  · unfold n_EA_E_and_p_AB_E2n_EB_E
    rw [h1]
    have : add3 (PA.flt : V3 (F64 B)) v.flt = (⟨X, Y, Z⟩ : V3 ℝ).flt := by
      change (⟨F64.fin PA.x + F64.fin v.x, F64.fin PA.y + F64.fin v.y, F64.fin PA.z + F64.fin v.z⟩ : V3 (F64 B)) = _
      rw [hX, hY, hZ]
      rfl
    simp only [this]
    exact h3
  · have q1 : uu * (1.0004 * (1.7321 * 26.4) + 49 * 1.0001) ≤ 1.1e-14 := by unfold uu; norm_num
    have q2 : uu * (1.0004 * (1.7321 * 7.2)) ≤ 1.4e-15 := by unfold uu; norm_num
    have q3 : uu * (1.0004 * (1.7321 * 1.01) + 49) ≤ 5.8e-15 := by unfold uu; norm_num
    have r1 := mul_le_mul_of_nonneg_right q1 ha.le
    have r2 := mul_le_mul_of_nonneg_right q2 (abs_nonneg zA)
    have r3 := mul_le_mul_of_nonneg_right q3 (abs_nonneg d)
    rw [he] at hD
    linarith only [hD, r1, r2, r3]

/-- a non-trivial case of the hypotheses: moving 1 km straight up from a point 10 m above the surface of the WGS84-sized ellipsoid -/
example (f : ℝ) (f1 : f < 1) : ∃ p : V3 ℝ, Geodetic 6378137 f Re ⟨0, 0, 1⟩ (-10) p ∧ Geodetic 6378137 f Re ⟨0, 0, 1⟩ (-1010) (p + ⟨0, 0, 1000⟩) := by
  have hn : (⟨0, 0, 1⟩ : V3 ℝ) ≠ 0 := by intro h; have := congrArg V3.z h; simp at this
  have hl : len (⟨0, 0, 1⟩ : V3 ℝ) = 1 := by unfold len; simp
  have g := geodetic_posE (a := 6378137) (f := f) (d := -10) (by norm_num) f1 isRotation_Re hn
  refine ⟨_, g, ?_⟩
  obtain ⟨S, h1, h2, h3⟩ := g
  refine ⟨S, h1, h2, ?_⟩
  rw [h3, hl]
  ext <;> simp
  ring

end Nv
