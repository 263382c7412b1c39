import Verif.Float.RoundTrip
import Verif.Props.Ellipsoid

/-!
# Positions that are nearly right

The geodetic coordinates computed in binary64 from a position `p` near the point with geodetic coordinates `(n, d)`.
-/

namespace Nv.F64
open Spec
variable {B : Binary64}

/-- the point `d` below the surface is at least `a(1-f) - d` from the centre … -/
theorem posE_len_ge {a f d : ℝ} {m : V3 ℝ} (ha : 0 < a) (f0 : 0 ≤ f) (hf : f < 1) (hm : UnitVec m) : a * (1 - f) - d ≤ len (posE a f m d) := by
  have hDb := Dell_ge f0 hf hm
  have hDp := Dell_pos hf hm.ne
  have h := dot_le_len_mul (posE a f m d) m
  rw [hm.len, mul_one, posE_eq, dot_sub_left, dot_surf hf hm, ellB_self] at h
  have e : a * Dell f m ^ 2 / Dell f m = a * Dell f m := by field_simp
  have e2 : dot (d • m) m = d := by
    have := hm
    unfold UnitVec at this
    simp only [dot, smul_x, smul_y, smul_z]
    linear_combination d * this
  rw [e, e2] at h
  rw [posE_eq]
  have := mul_le_mul_of_nonneg_left hDb.1 ha.le
  linarith only [this, h]

/-- … and at most `a + |d|` -/
theorem posE_len_le {a f d : ℝ} {m : V3 ℝ} (ha : 0 < a) (f0 : 0 ≤ f) (hf : f < 1) (hm : UnitVec m) : len (posE a f m d) ≤ a + |d| := by
  have hDp := Dell_pos hf hm.ne
  rw [posE_eq]
  have e : posE a f m 0 - d • m = posE a f m 0 + (-d) • m := by
    ext <;> simp <;> ring
  rw [e]
  refine (len_add_le _ _).trans ?_
  rw [len_smul, hm.len, abs_neg, mul_one]
  have hs : len (posE a f m 0) ≤ a := by
    have hD2 := Dell_sq f m
    unfold len
    apply Real.sqrt_le_iff.mpr ⟨ha.le, ?_⟩
    have hg1 : (1 - f) ^ 2 ≤ 1 := by nlinarith
    have e1 : (posE a f m 0).x ^ 2 + (posE a f m 0).y ^ 2 + (posE a f m 0).z ^ 2 =
        a ^ 2 / Dell f m ^ 2 * ((1 - f) ^ 2 * ((1 - f) ^ 2 * m.x ^ 2) + m.y ^ 2 + m.z ^ 2) := by
      unfold posE; simp only [sub_zero]; field_simp
    rw [e1]
    have e2 : (1 - f) ^ 2 * ((1 - f) ^ 2 * m.x ^ 2) + m.y ^ 2 + m.z ^ 2 ≤ Dell f m ^ 2 := by
      rw [hD2]
      have : (1 - f) ^ 2 * ((1 - f) ^ 2 * m.x ^ 2) ≤ 1 * ((1 - f) ^ 2 * m.x ^ 2) := mul_le_mul_of_nonneg_right hg1 (by positivity)
      linarith only [this]
    calc _ ≤ a ^ 2 / Dell f m ^ 2 * Dell f m ^ 2 := mul_le_mul_of_nonneg_left e2 (by positivity)
      _ = a ^ 2 := by field_simp
  linarith only [hs]

variable {a f : ℝ} {R : M3 ℝ}

set_option maxHeartbeats 1600000 in
/-- the computed n-vector and depth of a position `p` near the point `Q` with geodetic coordinates `(n, d)` -/
theorem p2n_near (hR : IsAxes R) (fa : IsF64 a) (a1 : 1 ≤ a) (a2 : a ≤ 1e10) (ff : IsF64 f) (f0 : 0 ≤ f)
    (f1 : f ≤ 0.01) {n P Q : V3 ℝ} {d η : ℝ} (fP : IsF64V P) (hg : Geodetic a f R n d Q) (d1 : d ≤ 0.4 * a) (d2 : -d ≤ 998 * a)
    (hη : len (P - Q) ≤ η) (ηa : η ≤ 0.0001 * a) :
    ∃ (w : V3 ℝ) (D : ℝ), p_EB_E2n_EB_E (P.flt : V3 (F64 B)) (fin a) (fin f) R.flt = (w.flt, fin D) ∧ IsF64V w ∧ IsF64 D ∧
      len (w - dirOf n) ≤ 32.71 * uu + 2.5 * (η / (a + |d|)) ∧ |D - d| ≤ 1.0004 * η + 49 * uu * (1.0001 * a + |d|) := by
  have hu := uu_pos
  have f1' := f1
  norm_num at f1'
  have ha : 0 < a := by linarith
  have hf : f < 1 := by linarith
  obtain ⟨hn0, hQ⟩ := hg.eq ha hf hR.rot
  have hη0 : 0 ≤ η := (len_nonneg' _).trans hη
  have hda : |d| ≤ 998 * a := by rw [abs_le]; norm_num at d1; constructor <;> linarith only [d1, d2, ha]
  have hdu := dirOf_unit hn0
  have hmu := unitVec_app hR.rot hdu
  have hQe : app R Q = posE a f (app R (dirOf n)) d := by rw [hQ, hR.rot.app_trans]
  have hQl1 : a * (1 - f) - d ≤ len Q := by rw [← len_app hR.rot, hQe]; exact posE_len_ge ha f0 hf hmu
  have hQl2 : len Q ≤ a + |d| := by rw [← len_app hR.rot, hQe]; exact posE_len_le ha f0 hf hmu
  have hPl1 : len Q - 0.0001 * a ≤ len P := by
    have := len_add_le (Q - P) P
    have e : Q - P + P = Q := by ext <;> simp
    rw [e, len_sub_comm] at this
    linarith only [this, hη, ηa]
  have hPl2 : len P ≤ len Q + 0.0001 * a := by
    have := len_add_le (P - Q) Q
    have e : P - Q + Q = P := by ext <;> simp
    rw [e] at this
    linarith only [this, hη, ηa]
  have haf : 0.99 * a ≤ a * (1 - f) := by norm_num; nlinarith
  have L1 : a / 2 ≤ len P := by norm_num at haf hPl1 d1 ⊢; linarith only [haf, hPl1, hQl1, d1, ha]
  have L2 : len P ≤ 1000 * a := by norm_num at hPl2 ⊢; linarith only [hPl2, hQl2, hda, ha]
  obtain ⟨m, w, d', D, h2, hm, h3, fw, fD, ⟨hx, hy, hz⟩, hD⟩ := p2n_flt (B := B) hR fa a1 a2 ff f0 f1 fP L1 L2
  have hcore : OutsideCore a f (app R P) := by
    apply outsideCore_of_len ha f0 hf
    rw [len_app hR.rot]
    have h1 : (2 - f) * f ≤ 0.02 := by norm_num; nlinarith
    have h2 := mul_le_mul_of_nonneg_left h1 ha.le
    have h3 : (0.99 : ℝ) * (a / 2) ≤ (1 - f) * len P := mul_le_mul (by norm_num; linarith) L1 (by linarith) (by linarith)
    norm_num at h2 h3
    linarith only [h2, h3, ha]
  obtain ⟨m', d'', h2', -, hpe, -, b1, b2⟩ := p2n_exact (p := P) ha f0 hf hR.rot hcore
  rw [h2] at h2'
  have e1 : m = m' := by
    have := congrArg Prod.fst h2'
    injection this with q1 q2 q3
    ext
    · exact XR.fin.inj q1
    · exact XR.fin.inj q2
    · exact XR.fin.inj q3
  have e2 : d' = d'' := XR.fin.inj (congrArg Prod.snd h2')
  subst e1 e2
  have hd' : d' ≤ 1.0102 * a - len P := by
    have h0 : 0 ≤ d' + len P := le_trans (by nlinarith) b2
    have : (0.99 : ℝ) * (d' + len P) ≤ a := by
      refine le_trans (mul_le_mul_of_nonneg_right ?_ h0) b1
      norm_num; linarith only [f1']
    norm_num at this ⊢
    linarith only [this, ha]
  have hmu' := unitVec_app hR.rot hm
  obtain ⟨δ, hδ⟩ : ∃ δ, δ = len (m - dirOf n) := ⟨_, rfl⟩
  have hδ0 : 0 ≤ δ := by rw [hδ]; exact len_nonneg' _
  have hPe : len (posE a f (app R m) d' - posE a f (app R (dirOf n)) d) = len (P - Q) := by
    rw [← hpe, ← hQe, ← app_sub, len_app hR.rot]
  have hmm : len (app R m - app R (dirOf n)) = δ := by rw [← app_sub, len_app hR.rot, hδ]
  have hnc := normal_close (d := d) (d' := d') ha f0 hf hmu hmu'
  rw [hPe, hmm] at hnc
  have hg2 : 0.98 * a ≤ a * (1 - f) ^ 2 := by
    have : (0.98 : ℝ) ≤ (1 - f) ^ 2 := by norm_num; nlinarith
    have := mul_le_mul_of_nonneg_left this ha.le
    linarith only [this]
  have hpos : 0 < a + |d| := by have := abs_nonneg d; linarith only [this, ha]
  have hcoef : 0.4 * (a + |d|) ≤ a * (1 - f) ^ 2 - (d + d') / 2 := by
    norm_num at hg2 hd' hPl1 haf d1 ⊢
    rcases abs_cases d with ⟨h, h'⟩ | ⟨h, h'⟩ <;> rw [h] <;> linarith only [hg2, hd', hPl1, hQl1, haf, d1, h', ha]
  have hδb : δ ≤ 2.5 * (η / (a + |d|)) := by
    have q1 := mul_le_mul_of_nonneg_right hcoef hδ0
    have q2 : δ * (a + |d|) ≤ 2.5 * η := by norm_num at q1 ⊢; linarith only [q1, hnc, hη]
    rw [← mul_div_assoc, le_div_iff₀ hpos]
    exact q2
  have hδη : a * δ ≤ 2.5 * η := by
    have q1 := mul_le_mul_of_nonneg_right hcoef hδ0
    have q2 := mul_nonneg (abs_nonneg d) hδ0
    norm_num at q1 ⊢; linarith only [q1, hnc, hη, q2]
  have hδs : δ ≤ 0.00025 := by
    have : a * δ ≤ a * 0.00025 := by norm_num at hδη ηa ⊢; linarith only [hδη, ηa]
    exact le_of_mul_le_mul_left this ha
  refine ⟨w, D, h3, fw, fD, ?_, ?_⟩
  · have hwm : len (w - m) ≤ 32.71 * uu := by
      have := len_sub_rel hm (by linarith only [hu] : (0 : ℝ) ≤ 32.7 * uu) (by norm_num) hx hy hz
      have e : 32.7 * uu + 1.7321 * 1e-170 ≤ 32.71 * uu := by unfold uu; norm_num
      exact this.trans e
    have t := len_add_le (w - m) (m - dirOf n)
    have e : w - m + (m - dirOf n) = w - dirOf n := by ext <;> simp
    rw [e, ← hδ] at t
    linarith only [t, hwm, hδb]
  · have dc1 := depth_close (d := d) (d' := d') ha hf hmu hmu'
    have dc2 := depth_close (d := d') (d' := d) ha hf hmu' hmu
    rw [len_sub_comm (posE a f (app R (dirOf n)) d), len_sub_comm (app R (dirOf n))] at dc2
    rw [hPe, hmm] at dc1 dc2
    have hd'a : d' ≤ a := by norm_num at hd' ⊢; linarith only [hd', L1, ha]
    have hmx : ∀ t : ℝ, t ≤ a → max t 0 / 2 * δ ^ 2 ≤ 0.0004 * η := by
      intro t ht
      have h1 : max t 0 ≤ a := max_le ht ha.le
      have h2 : max t 0 / 2 * δ ^ 2 ≤ a / 2 * δ ^ 2 := mul_le_mul_of_nonneg_right (by linarith only [h1]) (sq_nonneg _)
      have h3 : a * δ * δ ≤ 2.5 * η * 0.00025 := mul_le_mul hδη hδs hδ0 (by norm_num; linarith only [hη0])
      norm_num at h3 ⊢
      nlinarith only [h2, h3, hη0]
    have hm1 := hmx d' hd'a
    have hm2 := hmx d (by norm_num at d1 ⊢; linarith only [d1, ha])
    have q0 : |d' - d| ≤ 1.0004 * η := by
      rw [abs_le]; norm_num at hm1 hm2 ⊢; constructor <;> linarith only [dc1, dc2, hm1, hm2, hη]
    have q1 := abs_add_le (D - d') (d' - d)
    rw [sub_add_sub_cancel] at q1
    have q2 : 49 * uu * len P ≤ 49 * uu * (1.0001 * a + |d|) := by
      apply mul_le_mul_of_nonneg_left _ (by linarith only [hu])
      norm_num at hPl2 ⊢; linarith only [hPl2, hQl2]
    linarith only [q0, q1, q2, hD]

end Nv.F64
