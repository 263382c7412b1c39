import Verif.Float.RoundTrip
import Verif.Props.FloatLatLon

/-!
# C75 - C78: n-vectors, depths and Cartesian positions in binary64

`R` is the exact matrix of one of the two choices of axes (`IsAxes`, the matrices `E_rotation` returns), `a` (between 1 and 1e10) and
`f` (between 0 and 0.01) are binary64 numbers.  `Geodetic a f R n d p` (`Spec/Ellipsoid.lean`) says that the point `p` lies `d` below
the surface point with outward normal `n`.
-/

namespace Nv
open Spec F64
variable (B : Binary64)

/-- the float matrices are those of `E_rotation` -/
theorem axes_is_E_rotation {R : M3 ℝ} (hR : IsAxes R) : ∃ axes, E_rotation axes = .ok (R.flt : M3 (F64 B)) := by
  rcases hR with rfl | rfl
  · exact ⟨"e", by rw [← R_e_flt]; rfl⟩
  · exact ⟨"E", by rw [← R_E_flt]; rfl⟩

variable {a f : ℝ} {R : M3 ℝ}

/-! ## C75 -/

/-- **C75** the computed position is within `2.9e-15 a + 8e-16 |d|` of the point with the geodetic coordinates `(n, d)`, in every
component; `n` need not have unit length -/
theorem C75_n_EB_E2p_EB_E (hR : IsAxes R) (fa : IsF64 a) (a1 : 1 ≤ a) (a2 : a ≤ 1e10) (ff : IsF64 f) (f0 : 0 ≤ f) (f1 : f ≤ 0.01)
    {d : ℝ} (fd : IsF64 d) (hd : |d| ≤ 1e30) {n : V3 ℝ} (hn : IsF64V n) (n1 : (2 : ℝ) ^ (-500 : ℤ) ≤ len n) (n2 : len n ≤ 10 ^ 60)
    {p : V3 ℝ} (hp : Geodetic a f R n d p) :
    ∃ P : V3 ℝ, n_EB_E2p_EB_E (n.flt : V3 (F64 B)) (F64.fin d) (F64.fin a) (F64.fin f) R.flt = P.flt ∧ IsF64V P ∧
      |P.x - p.x| ≤ 2.9e-15 * a + 8e-16 * |d| ∧ |P.y - p.y| ≤ 2.9e-15 * a + 8e-16 * |d| ∧
      |P.z - p.z| ≤ 2.9e-15 * a + 8e-16 * |d| := by
  obtain ⟨-, rfl⟩ := hp.eq (by linarith) (by norm_num at f1; linarith) hR.rot
  obtain ⟨P, h1, h2, hx, hy, hz⟩ := n2p_flt (B := B) hR fa a1 a2 ff f0 f1 fd hd hn n1 n2
  have hb : 25.3 * (uu * a) + 7.1 * (uu * |d|) ≤ 2.9e-15 * a + 8e-16 * |d| := by
    have e1 : 25.3 * uu ≤ 2.9e-15 := by unfold uu; norm_num
    have e2 : 7.1 * uu ≤ 8e-16 := by unfold uu; norm_num
    have := mul_le_mul_of_nonneg_right e1 (by linarith : (0 : ℝ) ≤ a)
    have := mul_le_mul_of_nonneg_right e2 (abs_nonneg d)
    linarith
  exact ⟨P, h1, h2, hx.trans hb, hy.trans hb, hz.trans hb⟩

/-- … and there is exactly one such point -/
theorem C75_exists_unique (hR : IsAxes R) (ha : 0 < a) (hf : f < 1) {d : ℝ} {n : V3 ℝ} (hn : n ≠ 0) : ∃! p, Geodetic a f R n d p :=
  ⟨_, geodetic_posE ha hf hR.rot hn, fun _ h => (h.eq ha hf hR.rot).2⟩

/-! ## C76 -/

theorem core_of_half (a1 : 1 ≤ a) (f0 : 0 ≤ f) (f1 : f ≤ 0.01) (hR : IsRotation R) {p : V3 ℝ} (L1 : a / 2 ≤ len p) :
    OutsideCore a f (app R p) := by
  norm_num at f1
  apply outsideCore_of_len (by linarith) f0 (by linarith)
  rw [len_app hR]
  have h1 : (2 - f) * f ≤ 0.02 := by norm_num; nlinarith
  have h2 := mul_le_mul_of_nonneg_left h1 (by linarith : 0 ≤ a)
  have h3 : (0.99 : ℝ) * (a / 2) ≤ (1 - f) * len p := mul_le_mul (by norm_num; linarith) L1 (by linarith) (by linarith)
  norm_num at h2 h3
  linarith

/-- **C76** the computed n-vector and depth of a point are those of the point up to `3.7e-15` in every component and `5.5e-15 |p|` in
depth -/
theorem C76_p_EB_E2n_EB_E (hR : IsAxes R) (fa : IsF64 a) (a1 : 1 ≤ a) (a2 : a ≤ 1e10) (ff : IsF64 f) (f0 : 0 ≤ f) (f1 : f ≤ 0.01)
    {p : V3 ℝ} (hp : IsF64V p) (L1 : a / 2 ≤ len p) (L2 : len p ≤ 1000 * a) {n : V3 ℝ} {d : ℝ} (hn : UnitVec n)
    (hg : Geodetic a f R n d p) (hd : d ≤ 0.96 * a) :
    ∃ (w : V3 ℝ) (D : ℝ), p_EB_E2n_EB_E (p.flt : V3 (F64 B)) (F64.fin a) (F64.fin f) R.flt = (w.flt, F64.fin D) ∧ IsF64V w ∧ IsF64 D ∧
      |w.x - n.x| ≤ 3.7e-15 ∧ |w.y - n.y| ≤ 3.7e-15 ∧ |w.z - n.z| ≤ 3.7e-15 ∧ |D - d| ≤ 5.5e-15 * len p := by
  have f1' := f1
  norm_num at f1'
  obtain ⟨m, w, d', D, h1, hm, h2, fw, fD, ⟨hx, hy, hz⟩, hD⟩ := p2n_flt (B := B) hR fa a1 a2 ff f0 f1 hp L1 L2
  obtain ⟨hn0, hpe⟩ := hg.eq (by linarith) (by linarith) hR.rot
  have he : (2 - f) * f ≤ 0.0199 := by
    have : (2 - f) * f = 1 - (1 - f) ^ 2 := by ring
    rw [this]; norm_num; nlinarith
  norm_num at he
  have hr := C07_roundtrip_simple n hn0 d a f (by linarith) f0 (by linarith) R hR.rot (by linarith) (by
    refine lt_of_le_of_lt hd ?_
    apply mul_lt_mul_of_pos_right _ (by linarith)
    norm_num; linarith)
  rw [n2p_fin hn0 d a f (by linarith) hR.rot, ← hpe, h1] at hr
  have e1 : m = n := by
    have := congrArg Prod.fst hr
    have e : ((len n)⁻¹ • n : V3 ℝ) = n := by rw [hn.len]; ext <;> simp
    rw [e] at this
    injection this with q1 q2 q3
    ext
    · exact XR.fin.inj q1
    · exact XR.fin.inj q2
    · exact XR.fin.inj q3
  have e2 : d' = d := XR.fin.inj (congrArg Prod.snd hr)
  subst e1 e2
  have e5 : 32.7 * uu ≤ 3.69e-15 := by unfold uu; norm_num
  have hb : ∀ {s t : ℝ}, |t| ≤ 1 → |s - t| ≤ 32.7 * uu * |t| + 1e-170 → |s - t| ≤ 3.7e-15 := by
    intro s t ht h
    have h4 : 32.7 * uu * |t| ≤ 32.7 * uu * 1 := mul_le_mul_of_nonneg_left ht (by linarith only [uu_pos])
    have h6 : (1e-170 : ℝ) ≤ 1e-20 := by norm_num
    have h7 : (1e-20 : ℝ) + 3.69e-15 ≤ 3.7e-15 := by norm_num
    rw [mul_one] at h4
    linarith only [h, h4, e5, h6, h7]
  have l1 := hn.len
  have e3 : 49 * uu ≤ 5.5e-15 := by unfold uu; norm_num
  exact ⟨w, D, h2, fw, fD, hb ((abs_x_le_len m).trans l1.le) hx, hb ((abs_y_le_len m).trans l1.le) hy,
    hb ((abs_z_le_len m).trans l1.le) hz, hD.trans (mul_le_mul_of_nonneg_right e3 (by linarith))⟩

/-- … and every such point has geodetic coordinates with that depth: the hypothesis on `n`, `d` can be met, and by one pair only -/
theorem C76_exists_unique (hR : IsAxes R) (a1 : 1 ≤ a) (f0 : 0 ≤ f) (f1 : f ≤ 0.01)
    {p : V3 ℝ} (L1 : a / 2 ≤ len p) : ∃! nd : V3 ℝ × ℝ, UnitVec nd.1 ∧ Geodetic a f R nd.1 nd.2 p ∧ nd.2 ≤ 0.96 * a := by
  have f1' := f1
  norm_num at f1'
  have ha : 0 < a := by linarith
  have hf : f < 1 := by linarith
  obtain ⟨m, d, h1, hm, -, hg, hd, -⟩ := p2n_exact ha f0 hf hR.rot (core_of_half a1 f0 f1 hR.rot L1)
  have he : (2 - f) * f ≤ 0.0199 := by
    have : (2 - f) * f = 1 - (1 - f) ^ 2 := by ring
    rw [this]; norm_num; nlinarith
  norm_num at he
  refine ⟨(m, d), ⟨hm, hg, ?_⟩, ?_⟩
  · have h3 : (d + len p) ≤ 1.02 * a := by
      have : (0.99 : ℝ) * (d + len p) ≤ a := by
        rcases le_or_gt 0 (d + len p) with h | h
        · refine le_trans (mul_le_mul_of_nonneg_right ?_ h) hd
          norm_num; linarith
        · norm_num; nlinarith
      norm_num at this ⊢
      linarith
    norm_num at h3 ⊢
    linarith
  · rintro ⟨n, d'⟩ ⟨hn, hg', hd'⟩
    dsimp only at hn hg' hd'
    obtain ⟨hn0, hpe⟩ := hg'.eq ha hf hR.rot
    have hr := C07_roundtrip_simple n hn0 d' a f ha f0 hf R hR.rot (by linarith) (by
      refine lt_of_le_of_lt hd' ?_
      apply mul_lt_mul_of_pos_right _ (by linarith)
      norm_num; linarith)
    rw [n2p_fin hn0 d' a f hf hR.rot, ← hpe, h1] at hr
    have e1 : m = n := by
      have := congrArg Prod.fst hr
      have e : ((len n)⁻¹ • n : V3 ℝ) = n := by rw [hn.len]; ext <;> simp
      rw [e] at this
      injection this with q1 q2 q3
      ext
      · exact XR.fin.inj q1
      · exact XR.fin.inj q2
      · exact XR.fin.inj q3
    have e2 : d = d' := XR.fin.inj (congrArg Prod.snd hr)
    rw [e1, e2]

/-! ## C77 -/

set_option maxHeartbeats 1600000 in
/-- **C77** Cartesian position to n-vector and depth and back, all in binary64: the position returns within
`1.1e-14 a + 1.4e-14 |p|` (0.16 micrometres at the surface of the earth) -/
theorem C77_roundtrip_position (hR : IsAxes R) (fa : IsF64 a) (a1 : 1 ≤ a) (a2 : a ≤ 1e10) (ff : IsF64 f) (f0 : 0 ≤ f)
    (f1 : f ≤ 0.01) {p : V3 ℝ} (hp : IsF64V p) (L1 : a / 2 ≤ len p) (L2 : len p ≤ 1000 * a) :
    ∃ (w : V3 ℝ) (D : ℝ) (P : V3 ℝ), p_EB_E2n_EB_E (p.flt : V3 (F64 B)) (F64.fin a) (F64.fin f) R.flt = (w.flt, F64.fin D) ∧
      n_EB_E2p_EB_E (w.flt : V3 (F64 B)) (F64.fin D) (F64.fin a) (F64.fin f) R.flt = P.flt ∧ IsF64V P ∧
      |P.x - p.x| ≤ 1.1e-14 * a + 1.4e-14 * len p ∧ |P.y - p.y| ≤ 1.1e-14 * a + 1.4e-14 * len p ∧
      |P.z - p.z| ≤ 1.1e-14 * a + 1.4e-14 * len p := by
  have hu := uu_pos
  have f1' := f1
  norm_num at f1'
  have ha : 0 < a := by linarith
  have hf : f < 1 := by linarith
  obtain ⟨m, w, d, D, h1, hm, h2, fw, fD, ⟨hx, hy, hz⟩, hD⟩ := p2n_flt (B := B) hR fa a1 a2 ff f0 f1 hp L1 L2
  obtain ⟨m', d', h1', -, hpe, -, b1, b2⟩ := p2n_exact (p := p) ha f0 hf hR.rot (core_of_half a1 f0 f1 hR.rot L1)
  rw [h1] at h1'
  have e1 : m = m' := by
    have := congrArg Prod.fst h1'
    injection this with q1 q2 q3
    ext
    · exact XR.fin.inj q1
    · exact XR.fin.inj q2
    · exact XR.fin.inj q3
  have e2 : d = d' := XR.fin.inj (congrArg Prod.snd h1')
  subst e1 e2
  have hlp : 0 < len p := by linarith
  -- the depth
  have hdp : |d| ≤ 0.0102 * a + len p := by
    have q : d + len p ≤ 1.0102 * a := by
      have : (0.99 : ℝ) * (d + len p) ≤ a := by
        refine le_trans (mul_le_mul_of_nonneg_right ?_ ?_) b1
        · norm_num; linarith
        · nlinarith
      norm_num at this ⊢
      linarith
    rw [abs_le]; norm_num at q ⊢
    constructor
    · nlinarith
    · linarith
  have hDp : |D| ≤ 0.0102 * a + 1.0001 * len p := by
    have : |D| ≤ |d| + |D - d| := by
      have := abs_add_le d (D - d); rwa [add_sub_cancel] at this
    have e : 49 * uu ≤ 0.0001 := by unfold uu; norm_num
    have := mul_le_mul_of_nonneg_right e hlp.le
    norm_num at *
    linarith
  -- the n-vector
  have hwm : len (w - m) ≤ 32.71 * uu := by
    have := len_sub_rel hm (by linarith only [hu] : (0 : ℝ) ≤ 32.7 * uu) (by norm_num) hx hy hz
    have e : 32.7 * uu + 1.7321 * 1e-170 ≤ 32.71 * uu := by unfold uu; norm_num
    exact this.trans e
  have hw1 : |len w - 1| ≤ 32.71 * uu := by
    have t1 := len_add_le (w - m) m
    have t2 := len_add_le (m - w) w
    have e1 : w - m + m = w := by ext <;> simp
    have e2 : m - w + w = m := by ext <;> simp
    rw [e1, hm.len] at t1
    rw [e2, hm.len, len_sub_comm] at t2
    rw [abs_le]; constructor <;> linarith only [t1, t2, hwm]
  have hus : 32.71 * uu ≤ 0.1 := by unfold uu; norm_num
  have hwl := abs_le.1 (hw1.trans hus)
  norm_num at hwl
  have hw0 : w ≠ 0 := by
    rintro rfl
    have : len (0 : V3 ℝ) = 0 := by unfold len; simp
    rw [this] at hwl; linarith only [hwl.1]
  have hdir := len_dirOf_sub hm hw0
  obtain ⟨P, h3, fP, kx, ky, kz⟩ := n2p_flt (B := B) (d := D) (n := w) hR fa a1 a2 ff f0 f1 fD (by
      norm_num at a2 hDp ⊢; linarith only [hDp, L2, a2]) fw
    (by
      have : (2 : ℝ) ^ (-500 : ℤ) ≤ 2 ^ (-1 : ℤ) := zpow_le_zpow_right₀ (by norm_num) (by norm_num)
      refine this.trans ?_
      norm_num; linarith only [hwl.1])
    (by linarith only [hwl.2, show (2 : ℝ) ≤ 10 ^ 60 by norm_num])
  refine ⟨w, D, P, h2, h3, fP, ?_⟩
  obtain ⟨Q, hQ⟩ : ∃ Q, Q = app (transp R) (posE a f (app R (dirOf w)) D) := ⟨_, rfl⟩
  rw [← hQ] at kx ky kz
  have hQp : len (Q - p) ≤ (a / (1 - f) + |d|) * (2 * (32.71 * uu)) + 49 * uu * len p := by
    have e : Q - p = app (transp R) (posE a f (app R (dirOf w)) D - posE a f (app R m) d) := by
      rw [app_sub, ← hQ, ← hpe, hR.rot.trans_app]
    rw [e, len_app hR.rot.transpose]
    refine (pos_close ha f0 hf (unitVec_app hR.rot hm) (unitVec_app hR.rot (dirOf_unit hw0))).trans ?_
    rw [← app_sub, len_app hR.rot]
    refine add_le_add (mul_le_mul_of_nonneg_left (by linarith only [hdir, hwm]) ?_) hD
    have : 0 < 1 - f := by linarith
    positivity
  have haf : a / (1 - f) ≤ 1.0102 * a := by
    have g : (0.99 : ℝ) ≤ 1 - f := by norm_num; linarith
    rw [div_le_iff₀ (by linarith)]
    norm_num at g ⊢
    nlinarith
  have hfin : 25.3 * (uu * a) + 7.1 * (uu * |D|) + ((a / (1 - f) + |d|) * (2 * (32.71 * uu)) + 49 * uu * len p) ≤
      1.1e-14 * a + 1.4e-14 * len p := by
    have q1 : (a / (1 - f) + |d|) * (2 * (32.71 * uu)) ≤ (1.0204 * a + len p) * (2 * (32.71 * uu)) := by
      apply mul_le_mul_of_nonneg_right _ (by linarith only [hu])
      norm_num at haf hdp ⊢; linarith only [haf, hdp]
    have q2 : uu * |D| ≤ uu * (0.0102 * a + 1.0001 * len p) := mul_le_mul_of_nonneg_left hDp hu.le
    have q3 : uu * (25.3 + 7.1 * 0.0102 + 2 * 32.71 * 1.0204) ≤ 1.1e-14 := by unfold uu; norm_num
    have q4 : uu * (7.1 * 1.0001 + 2 * 32.71 + 49) ≤ 1.4e-14 := by unfold uu; norm_num
    have q5 := mul_le_mul_of_nonneg_right q3 ha.le
    have q6 := mul_le_mul_of_nonneg_right q4 hlp.le
    linarith only [q1, q2, q5, q6]
  have fin1 : ∀ {s t r : ℝ}, |s - t| ≤ 25.3 * (uu * a) + 7.1 * (uu * |D|) → |t - r| ≤ len (Q - p) →
      |s - r| ≤ 1.1e-14 * a + 1.4e-14 * len p := by
    intro s t r g1 g2
    have := abs_add_le (s - t) (t - r)
    rw [sub_add_sub_cancel] at this
    linarith only [this, g1, g2, hQp, hfin]
  exact ⟨fin1 kx (abs_x_le_len (Q - p)), fin1 ky (abs_y_le_len (Q - p)), fin1 kz (abs_z_le_len (Q - p))⟩

/-! ## C78 -/

set_option maxHeartbeats 3200000 in
/-- **C78** n-vector and depth to Cartesian position and back, all in binary64: the direction returns within `1.6e-14` in every
component and the depth within `1.1e-14 a + 6.9e-15 |d|` -/
theorem C78_roundtrip_normal (hR : IsAxes R) (fa : IsF64 a) (a1 : 1 ≤ a) (a2 : a ≤ 1e10) (ff : IsF64 f) (f0 : 0 ≤ f)
    (f1 : f ≤ 0.01) {n : V3 ℝ} {d : ℝ} (hn : IsF64V n) (n1 : (2 : ℝ) ^ (-500 : ℤ) ≤ len n) (n2 : len n ≤ 10 ^ 60) (fd : IsF64 d)
    (d1 : d ≤ 0.4 * a) (d2 : -d ≤ 998 * a) :
    ∃ (P w : V3 ℝ) (D : ℝ), n_EB_E2p_EB_E (n.flt : V3 (F64 B)) (F64.fin d) (F64.fin a) (F64.fin f) R.flt = P.flt ∧
      p_EB_E2n_EB_E (P.flt : V3 (F64 B)) (F64.fin a) (F64.fin f) R.flt = (w.flt, F64.fin D) ∧ IsF64V w ∧ IsF64 D ∧
      |w.x - n.x / len n| ≤ 1.6e-14 ∧ |w.y - n.y / len n| ≤ 1.6e-14 ∧ |w.z - n.z / len n| ≤ 1.6e-14 ∧
      |D - d| ≤ 1.1e-14 * a + 6.9e-15 * |d| := by
  have hu := uu_pos
  have f1' := f1
  norm_num at f1'
  have ha : 0 < a := by linarith
  have hf : f < 1 := by linarith
  have hn0 : n ≠ 0 := by
    rintro rfl
    have : len (0 : V3 ℝ) = 0 := by unfold len; simp
    rw [this] at n1
    exact absurd n1 (by rw [not_le]; positivity)
  have hda : |d| ≤ 998 * a := by rw [abs_le]; norm_num at d1; constructor <;> linarith only [d1, d2, ha]
  obtain ⟨P, h1, fP, kx, ky, kz⟩ := n2p_flt (B := B) (d := d) (n := n) hR fa a1 a2 ff f0 f1 fd (by
      norm_num at a2 ⊢; linarith only [hda, a2]) hn n1 n2
  obtain ⟨Q, hQ⟩ : ∃ Q, Q = app (transp R) (posE a f (app R (dirOf n)) d) := ⟨_, rfl⟩
  rw [← hQ] at kx ky kz
  have hPQ : len (P - Q) ≤ 1.7321 * (25.3 * (uu * a) + 7.1 * (uu * |d|)) := len_le_of_comp kx ky kz
  have hdu := dirOf_unit hn0
  have hmu := unitVec_app hR.rot hdu
  -- size of the position
  have hQe : app R Q = posE a f (app R (dirOf n)) d := by rw [hQ, hR.rot.app_trans]
  have hDb := Dell_ge f0 hf hmu
  have hDp := Dell_pos hf hmu.ne
  have hQl1 : a * (1 - f) - d ≤ len Q := by
    have h := dot_le_len_mul (app R Q) (app R (dirOf n))
    rw [hmu.len, mul_one, len_app hR.rot, hQe, posE_eq, dot_sub_left, dot_surf hf hmu, ellB_self] at h
    have e : a * Dell f (app R (dirOf n)) ^ 2 / Dell f (app R (dirOf n)) = a * Dell f (app R (dirOf n)) := by field_simp
    have e2 : dot (d • app R (dirOf n)) (app R (dirOf n)) = d := by
      have := hmu
      unfold UnitVec at this
      simp only [dot, smul_x, smul_y, smul_z]
      linear_combination d * this
    rw [e, e2] at h
    have := mul_le_mul_of_nonneg_left hDb.1 ha.le
    linarith only [this, h]
  have hQl2 : len Q ≤ a + |d| := by
    rw [← len_app hR.rot, hQe, posE_eq]
    have e : posE a f (app R (dirOf n)) 0 - d • app R (dirOf n) = posE a f (app R (dirOf n)) 0 + (-d) • app R (dirOf n) := by
      ext <;> simp <;> ring
    rw [e]
    refine (len_add_le _ _).trans ?_
    have hl : ∀ (c : ℝ) (v : V3 ℝ), len (c • v) = |c| * len v := by
      intro c v
      unfold len
      simp only [smul_x, smul_y, smul_z]
      rw [show (c * v.x) ^ 2 + (c * v.y) ^ 2 + (c * v.z) ^ 2 = c ^ 2 * (v.x ^ 2 + v.y ^ 2 + v.z ^ 2) by ring, Real.sqrt_mul (sq_nonneg c), Real.sqrt_sq_eq_abs]
    rw [hl, hmu.len, abs_neg, mul_one]
    have hs : len (posE a f (app R (dirOf n)) 0) ≤ a := by
      have hD2 := Dell_sq f (app R (dirOf n))
      generalize app R (dirOf n) = m at *
      unfold len
      apply Real.sqrt_le_iff.mpr ⟨ha.le, ?_⟩
      have hg1 : (1 - f) ^ 2 ≤ 1 := by nlinarith
      have e1 : (posE a f m 0).x ^ 2 + (posE a f m 0).y ^ 2 + (posE a f m 0).z ^ 2 =
          a ^ 2 / Dell f m ^ 2 * ((1 - f) ^ 2 * ((1 - f) ^ 2 * m.x ^ 2) + m.y ^ 2 + m.z ^ 2) := by
        unfold posE; simp only [sub_zero]; field_simp
      rw [e1]
      have e2 : (1 - f) ^ 2 * ((1 - f) ^ 2 * m.x ^ 2) + m.y ^ 2 + m.z ^ 2 ≤ Dell f m ^ 2 := by
        rw [hD2]
        have : (1 - f) ^ 2 * ((1 - f) ^ 2 * m.x ^ 2) ≤ 1 * ((1 - f) ^ 2 * m.x ^ 2) := mul_le_mul_of_nonneg_right hg1 (by positivity)
        linarith only [this]
      calc _ ≤ a ^ 2 / Dell f m ^ 2 * Dell f m ^ 2 := mul_le_mul_of_nonneg_left e2 (by positivity)
        _ = a ^ 2 := by field_simp
    linarith only [hs]
  have hsm : 1.7321 * (25.3 * (uu * a) + 7.1 * (uu * |d|)) ≤ 0.0001 * a := by
    have e1 : uu * (1.7321 * (25.3 + 7.1 * 998)) ≤ 0.0001 := by unfold uu; norm_num
    have e2 := mul_le_mul_of_nonneg_right e1 ha.le
    have e3 := mul_le_mul_of_nonneg_left hda hu.le
    norm_num at e2 e3 ⊢
    linarith only [e2, e3]
  have hPl1 : len Q - 0.0001 * a ≤ len P := by
    have := len_add_le (Q - P) P
    have e : Q - P + P = Q := by ext <;> simp
    rw [e, len_sub_comm] at this
    linarith only [this, hPQ, hsm]
  have hPl2 : len P ≤ len Q + 0.0001 * a := by
    have := len_add_le (P - Q) Q
    have e : P - Q + Q = P := by ext <;> simp
    rw [e] at this
    linarith only [this, hPQ, hsm]
  have haf : 0.99 * a ≤ a * (1 - f) := by norm_num; nlinarith
  have L1 : a / 2 ≤ len P := by norm_num at haf hPl1 d1 ⊢; linarith only [haf, hPl1, hQl1, d1, ha]
  have L2 : len P ≤ 1000 * a := by norm_num at hPl2 ⊢; linarith only [hPl2, hQl2, hda, ha]
  obtain ⟨m, w, d', D, h2, hm, h3, fw, fD, ⟨hx, hy, hz⟩, hD⟩ := p2n_flt (B := B) hR fa a1 a2 ff f0 f1 fP L1 L2
  obtain ⟨m', d'', h2', -, hpe, -, b1, b2⟩ := p2n_exact (p := P) ha f0 hf hR.rot (core_of_half a1 f0 f1 hR.rot L1)
  rw [h2] at h2'
  have e1 : m = m' := by
    have := congrArg Prod.fst h2'
    injection this with q1 q2 q3
    ext
    · exact XR.fin.inj q1
    · exact XR.fin.inj q2
    · exact XR.fin.inj q3
  have e2 : d' = d'' := XR.fin.inj (congrArg Prod.snd h2')
  subst e1 e2
  have hd' : d' ≤ 1.0102 * a - len P := by
    have h0 : 0 ≤ d' + len P := le_trans (by nlinarith) b2
    have : (0.99 : ℝ) * (d' + len P) ≤ a := by
      refine le_trans (mul_le_mul_of_nonneg_right ?_ h0) b1
      norm_num; linarith only [f1']
    norm_num at this ⊢
    linarith only [this, ha]
  have hmu' := unitVec_app hR.rot hm
  obtain ⟨δ, hδ⟩ : ∃ δ, δ = len (m - dirOf n) := ⟨_, rfl⟩
  have hδ0 : 0 ≤ δ := by rw [hδ]; exact len_nonneg' _
  have hPe : len (posE a f (app R m) d' - posE a f (app R (dirOf n)) d) = len (P - Q) := by
    rw [← hpe, ← hQe, ← app_sub, len_app hR.rot]
  have hmm : len (app R m - app R (dirOf n)) = δ := by rw [← app_sub, len_app hR.rot, hδ]
  have hnc := normal_close (d := d) (d' := d') ha f0 hf hmu hmu'
  rw [hPe, hmm] at hnc
  have hg2 : 0.98 * a ≤ a * (1 - f) ^ 2 := by
    have : (0.98 : ℝ) ≤ (1 - f) ^ 2 := by norm_num; nlinarith
    have := mul_le_mul_of_nonneg_left this ha.le
    linarith only [this]
  have hcoef : 0.4 * (a + |d|) ≤ a * (1 - f) ^ 2 - (d + d') / 2 := by
    norm_num at hg2 hd' hPl1 haf d1 ⊢
    rcases abs_cases d with ⟨h, h'⟩ | ⟨h, h'⟩ <;> rw [h] <;> linarith only [hg2, hd', hPl1, hQl1, haf, d1, h', ha]
  have hδb : δ ≤ 109.6 * uu := by
    have q1 := mul_le_mul_of_nonneg_right hcoef hδ0
    have q2 : 0.4 * (a + |d|) * δ ≤ 0.4 * (a + |d|) * (109.6 * uu) := by
      have q3 : 0 ≤ uu * |d| := mul_nonneg hu.le (abs_nonneg d)
      have q4 : 0 ≤ uu * a := mul_nonneg hu.le ha.le
      norm_num at q1 hPQ ⊢
      linarith only [q1, hnc, hPQ, q3, q4]
    have hpos : 0 < 0.4 * (a + |d|) := by have := abs_nonneg d; norm_num; linarith only [this, ha]
    exact le_of_mul_le_mul_left q2 hpos
  -- the depth
  have dc1 := depth_close (d := d) (d' := d') ha hf hmu hmu'
  have dc2 := depth_close (d := d') (d' := d) ha hf hmu' hmu
  rw [len_sub_comm (posE a f (app R (dirOf n)) d), len_sub_comm (app R (dirOf n))] at dc2
  rw [hPe, hmm] at dc1 dc2
  have hd'a : d' ≤ a := by norm_num at hd' ⊢; linarith only [hd', L1, ha]
  have hδ2 : δ ^ 2 ≤ 0.0001 * uu := by
    have : δ ^ 2 ≤ (109.6 * uu) ^ 2 := pow_le_pow_left₀ hδ0 hδb 2
    refine this.trans ?_
    unfold uu; norm_num
  have hmx : ∀ t : ℝ, t ≤ a → max t 0 / 2 * δ ^ 2 ≤ a * (0.0001 * uu) := by
    intro t ht
    apply mul_le_mul _ hδ2 (sq_nonneg _) ha.le
    have : max t 0 ≤ a := max_le ht ha.le
    linarith only [this, ha]
  have hm1 := hmx d' hd'a
  have hm2 := hmx d (by norm_num at d1 ⊢; linarith only [d1, ha])
  have hdd : |D - d| ≤ 1.1e-14 * a + 6.9e-15 * |d| := by
    have q0 : |d' - d| ≤ len (P - Q) + a * (0.0001 * uu) := by
      rw [abs_le]; constructor <;> linarith only [dc1, dc2, hm1, hm2]
    have q1 := abs_add_le (D - d') (d' - d)
    rw [sub_add_sub_cancel] at q1
    have q2 : 49 * uu * len P ≤ 49 * uu * (1.0001 * a + |d|) := by
      apply mul_le_mul_of_nonneg_left _ (by linarith only [hu])
      norm_num at hPl2 ⊢; linarith only [hPl2, hQl2]
    have q3 : uu * (49 * 1.0001 + 0.0001 + 1.7321 * 25.3) ≤ 1.1e-14 := by unfold uu; norm_num
    have q4 : uu * (49 + 1.7321 * 7.1) ≤ 6.9e-15 := by unfold uu; norm_num
    have q5 := mul_le_mul_of_nonneg_right q3 ha.le
    have q6 := mul_le_mul_of_nonneg_right q4 (abs_nonneg d)
    linarith only [q0, q1, q2, q5, q6, hD, hPQ]
  have e5 : 32.7 * uu + 109.6 * uu ≤ 1.59e-14 := by unfold uu; norm_num
  have hb : ∀ {s t r : ℝ}, |t| ≤ 1 → |s - t| ≤ 32.7 * uu * |t| + 1e-170 → |t - r| ≤ δ → |s - r| ≤ 1.6e-14 := by
    intro s t r ht h h'
    have h4 : 32.7 * uu * |t| ≤ 32.7 * uu * 1 := mul_le_mul_of_nonneg_left ht (by linarith only [hu])
    have h6 : (1e-170 : ℝ) ≤ 1e-20 := by norm_num
    have h7 : (1e-20 : ℝ) + 1.59e-14 ≤ 1.6e-14 := by norm_num
    have h8 := abs_add_le (s - t) (t - r)
    rw [sub_add_sub_cancel] at h8
    rw [mul_one] at h4
    linarith only [h, h4, e5, h6, h7, h8, h', hδb]
  have l1 := hm.len
  have dx : ∀ c : ℝ, c / len n = (len n)⁻¹ * c := fun c => by rw [div_eq_mul_inv, mul_comm]
  refine ⟨P, w, D, h1, h3, fw, fD, hb ((abs_x_le_len m).trans l1.le) hx ?_, hb ((abs_y_le_len m).trans l1.le) hy ?_,
    hb ((abs_z_le_len m).trans l1.le) hz ?_, hdd⟩
  · rw [hδ, dx]; exact abs_x_le_len (m - dirOf n)
  · rw [hδ, dx]; exact abs_y_le_len (m - dirOf n)
  · rw [hδ, dx]; exact abs_z_le_len (m - dirOf n)

/-- the hypotheses are met by the WGS84 ellipsoid (with the rounded flattening) and, for example, a point 1 km below the pole -/
example : IsF64 6378137 ∧ IsF64 (B.fl (1 / 298.257223563)) ∧ 0 ≤ B.fl (1 / 298.257223563) ∧ B.fl (1 / 298.257223563) ≤ 0.01 ∧
    IsF64 1000 ∧ IsF64V ⟨0, 0, 1⟩ ∧ len ⟨0, 0, 1⟩ = 1 ∧ IsF64V ⟨0, 0, 6355752⟩ ∧ (6378137 : ℝ) / 2 ≤ len ⟨0, 0, 6355752⟩ ∧
    IsAxes Re := by
  have hi : ∀ k : ℤ, |k| < 2 ^ 53 → IsF64 (k : ℝ) := fun k hk => ⟨k, 0, hk, by norm_num, by simp⟩
  refine ⟨by simpa using hi 6378137 (by norm_num), B.rounds.val _, B.rounds.nonneg (by norm_num), ?_, by simpa using hi 1000 (by norm_num),
    ⟨isF64_zero, isF64_zero, isF64_one⟩, by unfold len; simp, ⟨isF64_zero, isF64_zero, by simpa using hi 6355752 (by norm_num)⟩, ?_, .inl rfl⟩
  · have h := B.rounds.nearest (1 / 298.257223563) (1 / 256) ⟨1, -8, by norm_num, by norm_num, by norm_num⟩
    have h2 := abs_le.1 h
    rw [abs_of_pos (by norm_num)] at h2
    norm_num at h2 ⊢
    linarith only [h2.2]
  · unfold len; rw [show (0 : ℝ) ^ 2 + 0 ^ 2 + 6355752 ^ 2 = 6355752 ^ 2 by norm_num, Real.sqrt_sq (by norm_num)]; norm_num

end Nv
