import Verif.Props.FloatAzimuth
import Verif.Props.FloatTrack
import Verif.Float.AngleDiff

/-!
# C99: great circle distance and azimuths between geographic points in binary64
-/

namespace Nv
open Spec F64
variable (B : Binary64)
variable {a f : ℝ} {R : M3 ℝ}

/-- the columns of `N` are north, east and down at the position with normal `n` (not a pole) -/
def Spec.NorthEastDown (R : M3 ℝ) (n : V3 ℝ) (N : M3 ℝ) : Prop :=
  IsRotation N ∧ col2 N = -dirOf n ∧ col1 N = dirOf (cross (northPole R) n) ∧ 0 < dot (col0 N) (northPole R)

theorem Spec.NorthEastDown.exists (hR : IsAxes R) {n : V3 ℝ} (hc : cross (northPole R) n ≠ 0) : ∃ N, NorthEastDown R n N := by
  obtain ⟨N, e1, hN, h2, h1, -⟩ := n_E2R_EN_offpole n R hR.rot hc
  obtain ⟨N', e1', -, -, -, -, h6⟩ := C12_R_EN_north_east n R hR.rot hc
  have hNN : N' = N := M3.fin_inj.mp (e1'.symm.trans e1)
  rw [hNN] at h6
  exact ⟨N, hN, h2, h1, h6⟩

/-- north and east at nearby positions -/
theorem frame_move (hR : IsAxes R) {n m : V3 ℝ} {N M : M3 ℝ} {c ε : ℝ} (hN : NorthEastDown R n N) (hM : NorthEastDown R m M) (hn : UnitVec n) (c0 : 0 < c)
    (hc : c ≤ len (cross (northPole R) n)) (hmc : cross (northPole R) m ≠ 0) (hε : len (m - n) ≤ ε) :
    len (col1 M - col1 N) ≤ 2 * ε / c ∧ len (col0 M - col0 N) ≤ 2 * ε / c + 2 * ε ∧ len (col2 M - col2 N) ≤ 2 * ε := by
  obtain ⟨rN, n2, n1, -⟩ := hN
  obtain ⟨rM, m2, m1, -⟩ := hM
  have ε0 := (len_nonneg' _).trans hε
  have m0 : m ≠ 0 := by rintro rfl; apply hmc; ext <;> simp [cross]
  have np := (northPole_unit hR.rot).len
  have hd : len (cross (northPole R) m - cross (northPole R) n) ≤ ε := by
    have e : cross (northPole R) m - cross (northPole R) n = cross (northPole R) (m - n) := by ext <;> simp [cross] <;> ring
    rw [e]
    have := len_cross_le (northPole R) (m - n)
    rw [np, one_mul] at this
    exact this.trans hε
  have k1 : len (col1 M - col1 N) ≤ 2 * ε / c := by
    rw [n1, m1]; exact len_dirOf_sub_le c0 hc hmc hd
  have k2 : len (col2 M - col2 N) ≤ 2 * ε := by
    have h := len_dirOf_sub hn m0
    rw [n2, m2]
    have e : -dirOf m - -dirOf n = (-1 : ℝ) • (dirOf m - dirOf n) := by ext <;> simp <;> ring
    have e2 : dirOf n = n := by
      have := smul_dirOf n
      rw [hn.len] at this
      have : dirOf n = (1 : ℝ) • dirOf n := by ext <;> simp
      rw [this]; assumption
    rw [e, len_smul, abs_neg, abs_one, one_mul, e2]
    linarith
  refine ⟨k1, ?_, k2⟩
  have e : col0 M - col0 N = cross (col1 M - col1 N) (col2 M) + cross (col1 N) (col2 M - col2 N) := by
    rw [← rM.cross12, ← rN.cross12]; ext <;> simp [cross] <;> ring
  rw [e]
  refine (len_add_le _ _).trans ?_
  have t1 := len_cross_le (col1 M - col1 N) (col2 M)
  have t2 := len_cross_le (col1 N) (col2 M - col2 N)
  rw [len_of_dot rM.c22, mul_one] at t1
  rw [len_of_dot rN.c11, one_mul] at t2
  linarith

/-- a number reduced to the half turn on either side of zero -/
theorem base_angle_flt {az : ℝ} (hz : |az| ≤ 3.2) :
    ∃ (y : ℝ) (k : ℤ), base_angle ((F64.fin az : F64 B) - PyFloat.pi) = F64.fin y ∧ IsF64 y ∧ |y| ≤ B.fl Real.pi ∧
      |y - (az + Real.pi + k * (2 * Real.pi))| ≤ 45 * uu := by
  have hu := uu_pos
  have hu1 : uu ≤ 1 / 10 ^ 10 := by unfold uu; norm_num
  have hη := eta_small
  have hη0 := eta_pos
  have hηu : eta ≤ 0.001 * uu := hη.trans (by unfold uu; norm_num)
  obtain ⟨P, hP⟩ : ∃ P, P = B.fl Real.pi := ⟨_, rfl⟩
  obtain ⟨p1, p2⟩ := fl_pi_bounds (B := B)
  obtain ⟨hQ, fQ⟩ := two_pi_flt (B := B)
  have hpi := fl_pi (B := B)
  have hPF : IsF64 P := hP ▸ B.rounds.val _
  rw [← hP] at p1 p2 hQ fQ hpi
  have hπ1 := Real.pi_gt_d4
  have hπ2 := Real.pi_lt_d4
  have hpe : |P - Real.pi| ≤ 3.15 * uu := by
    refine hpi.trans ?_
    have : uu * Real.pi ≤ uu * 3.15 := mul_le_mul_of_nonneg_left (by norm_num at hπ2 ⊢; linarith) hu.le
    norm_num at this ⊢; linarith
  norm_num at p1 p2 hπ1 hπ2
  obtain ⟨z1, z2⟩ := abs_le.mp hz
  norm_num at z1 z2 hu1
  have step : ∀ {v b : ℝ}, |v| ≤ b → |B.fl v - v| ≤ (b + 0.001) * uu := by
    intro v b hv
    refine (B.rounds.err_add v).trans ?_
    have := mul_le_mul_of_nonneg_left hv hu.le
    norm_num at hηu ⊢; linarith
  -- az - pi
  obtain ⟨x1, hx1⟩ : ∃ x, x = B.fl (az - P) := ⟨_, rfl⟩
  have b1 : |az - P| ≤ 6.4 := by rw [abs_le]; norm_num; constructor <;> linarith
  have e1 := step b1
  rw [← hx1] at e1
  obtain ⟨e1a, e1b⟩ := abs_le.mp e1
  norm_num at e1a e1b
  -- + pi
  obtain ⟨x2, hx2⟩ : ∃ x, x = B.fl (x1 + P) := ⟨_, rfl⟩
  have b2 : |x1 + P| ≤ 3.3 := by rw [abs_le]; norm_num; constructor <;> linarith
  have e2 := step b2
  rw [← hx2] at e2
  obtain ⟨e2a, e2b⟩ := abs_le.mp e2
  norm_num at e2a e2b
  have Q0 : 0 < 2 * P := by linarith
  obtain ⟨m, hm⟩ : ∃ m : ℤ, m = ⌊x2 / (2 * P)⌋ := ⟨_, rfl⟩
  have m1 : (m : ℝ) ≤ x2 / (2 * P) := by rw [hm]; exact Int.floor_le _
  have m2 : x2 / (2 * P) < m + 1 := by rw [hm]; exact Int.lt_floor_add_one _
  rw [le_div_iff₀ Q0] at m1
  rw [div_lt_iff₀ Q0] at m2
  have mb : -1 ≤ m ∧ m ≤ 0 := by
    constructor
    · by_contra hc; push Not at hc
      have : (m : ℝ) + 1 ≤ -1 := by exact_mod_cast (by omega : m + 1 ≤ -1)
      nlinarith
    · by_contra hc; push Not at hc
      have : (1 : ℝ) ≤ m := by exact_mod_cast (by omega : 1 ≤ m)
      nlinarith
  have mb1 : (-1 : ℝ) ≤ m := by exact_mod_cast mb.1
  have mb2 : (m : ℝ) ≤ 0 := by exact_mod_cast mb.2
  obtain ⟨t, ht⟩ : ∃ t, t = x2 - 2 * P * m := ⟨_, rfl⟩
  have t0 : 0 ≤ t := by rw [ht]; linarith
  have t1 : t ≤ 2 * P := by rw [ht]; linarith
  obtain ⟨x3, hx3⟩ : ∃ x, x = B.fl t := ⟨_, rfl⟩
  have c0 : 0 ≤ x3 := hx3 ▸ B.rounds.nonneg t0
  have c1 : x3 ≤ 2 * P := hx3 ▸ B.rounds.le fQ t1
  have b3 : |t| ≤ 6.3 := by rw [abs_of_nonneg t0]; norm_num; linarith
  have e3 := step b3
  rw [← hx3] at e3
  obtain ⟨x4, hx4⟩ : ∃ x, x = B.fl (x3 - P) := ⟨_, rfl⟩
  have b4 : |x3 - P| ≤ 3.2 := by rw [abs_le]; norm_num; constructor <;> linarith
  have e4 := step b4
  rw [← hx4] at e4
  have d1 : x4 ≤ P := by rw [hx4]; exact B.rounds.le hPF (by linarith)
  have d2 : -P ≤ x4 := by rw [hx4]; exact B.rounds.ge hPF.neg (by linarith)
  refine ⟨x4, -m - 1, ?_, hx4 ▸ B.rounds.val _, by rw [← hP, abs_le]; exact ⟨d2, d1⟩, ?_⟩
  · unfold base_angle
    rw [hQ, pi_flt, ← hP, fin_sub (b1.trans (by norm_num)), ← hx1, fin_add (b2.trans (by norm_num)), ← hx2,
      fin_mod Q0 (by rw [← hm, ← ht]; exact b3.trans (by norm_num)), ← hm, ← ht, ← hx3, fin_sub (b4.trans (by norm_num)), ← hx4]
  · obtain ⟨p3, p4⟩ := abs_le.mp hpe
    obtain ⟨e3a, e3b⟩ := abs_le.mp e3
    obtain ⟨e4a, e4b⟩ := abs_le.mp e4
    norm_num at e3a e3b e4a e4b p3 p4
    have hmp : |2 * (m : ℝ) * (P - Real.pi)| ≤ 2 * (3.15 * uu) := by
      rw [abs_mul, abs_mul, abs_two]
      have : |(m : ℝ)| ≤ 1 := by rw [abs_le]; constructor <;> linarith
      have := mul_le_mul this hpe (abs_nonneg _) (by norm_num)
      linarith
    obtain ⟨q1, q2⟩ := abs_le.mp hmp
    push_cast
    rw [ht] at e3a e3b
    norm_num at q1 q2
    rw [abs_le]
    constructor <;> linarith

/-- the vector between two computed positions in the computed local frame of the first one, whose computed normal is `m` -/
theorem delta_N_near (hR : IsAxes R) (fa : IsF64 a) (a1 : 1 ≤ a) (a2 : a ≤ 1e10) (ff : IsF64 f) (f0 : 0 ≤ f) (f1 : f ≤ 0.01)
    {nmA nmB : EllKey} {posA posB : Position (F64 B)} {n m PA PB pA pB : V3 ℝ} {z S c : ℝ} (hn : UnitVec n) (fPA : IsF64V PA) (fPB : IsF64V PB)
    (eA : posA.to_ecef_vector = ⟨PA.flt, Frame64 B a f R nmA⟩) (eB : posB.to_ecef_vector = ⟨PB.flt, Frame64 B a f R nmB⟩)
    (hF : (FrameN posA).nvector.frame = Frame64 B a f R nmA) (hr : (FrameN posA).R_EN = n_E2R_EN (m.flt : V3 (F64 B)) R.flt)
    (fm : IsF64V m) (hml' : len (m - n) ≤ 2.5e-14) (hS : a + |z| ≤ S) (S2 : S ≤ 1e20) (hD : len (pB - pA) ≤ 2 * S)
    (cA : CloseV PA pA (4.9e-15 * (a + |z|))) (cB : CloseV PB pB (4.9e-15 * S)) {N : M3 ℝ} (hN : NorthEastDown R n N)
    (c0 : 1e-12 ≤ c) (hc : c ≤ len (cross (northPole R) n)) :
    ∃ Q : V3 ℝ, delta_N posA posB = .ok ⟨Q.flt, FrameN posA⟩ ∧ IsF64V Q ∧
      |Q.x - dot (col0 N) (pB - pA)| ≤ 2.7e-14 * S + 1e-13 * len (pB - pA) / c ∧
      |Q.y - dot (col1 N) (pB - pA)| ≤ 2.7e-14 * S + 1e-13 * len (pB - pA) / c ∧
      |Q.z - dot (col2 N) (pB - pA)| ≤ 2.7e-14 * S + 5e-14 * len (pB - pA) := by
  have hu := uu_pos
  have ha : 0 < a := by linarith
  have hz0 := abs_nonneg z
  have S0 : 1 ≤ S := by linarith
  have cp : 0 < c := lt_of_lt_of_le (by norm_num) c0
  have c1 : c ≤ 1 := by
    have := len_cross_le (northPole R) n
    rw [(northPole_unit hR.rot).len, hn.len, one_mul] at this
    linarith
  have D0 := len_nonneg' (pB - pA)
  -- the difference
  have hτ : (1 : ℝ) / 10 ^ 60 ≤ 1e-30 * S := by
    have : (1 : ℝ) / 10 ^ 60 ≤ 1e-30 * 1 := by norm_num
    exact this.trans (mul_le_mul_of_nonneg_left S0 (by norm_num))
  have key : ∀ {s t p q : ℝ}, IsF64 s → IsF64 t → |s - p| ≤ 4.9e-15 * (a + |z|) → |t - q| ≤ 4.9e-15 * S → |q - p| ≤ len (pB - pA) →
      ∃ r, (F64.fin t : F64 B) - F64.fin s = F64.fin r ∧ IsF64 r ∧ |r - (q - p)| ≤ 1.01e-14 * S := by
    intro s t p q fs ft hs ht hq
    have hs' : |s - p| ≤ 4.9e-15 * S := by norm_num at hs ⊢; linarith
    obtain ⟨r, h1, h2, h3⟩ := App.sub (B := B) (e := 1.01e-14 * S) ⟨t, rfl, ft, ht⟩ ⟨s, rfl, fs, hs'⟩ (hq.trans hD) (by
      have : uu * (2 * S + (4.9e-15 * S + 4.9e-15 * S)) ≤ 1.2e-16 * (2 * S + (4.9e-15 * S + 4.9e-15 * S)) :=
        mul_le_mul_of_nonneg_right (by unfold uu; norm_num) (by positivity)
      generalize (1 : ℝ) / 10 ^ 60 = τ at *
      norm_num at this hτ ⊢
      linarith) (by norm_num at S2 ⊢; linarith)
    exact ⟨r, h1, h2, h3⟩
  obtain ⟨x, ex, fx, bx⟩ := key fPA.1 fPB.1 cA.1 cB.1 (abs_x_le_len (pB - pA))
  obtain ⟨y, ey, fy, bY⟩ := key fPA.2.1 fPB.2.1 cA.2.1 cB.2.1 (abs_y_le_len (pB - pA))
  obtain ⟨w, ew, fw, bw⟩ := key fPA.2.2 fPB.2.2 cA.2.2 cB.2.2 (abs_z_le_len (pB - pA))
  have cP : CloseV ⟨x, y, w⟩ (pB - pA) (1.01e-14 * S) := ⟨bx, bY, bw⟩
  have ml : |len m - 1| ≤ 2.5e-14 := by
    have t1 := len_add_le (m - n) n
    rw [show m - n + n = m by ext <;> simp, hn.len] at t1
    have t2 := len_add_le m ((-1 : ℝ) • (m - n))
    rw [show m + (-1 : ℝ) • (m - n) = n by ext <;> simp, hn.len, len_smul, abs_neg, abs_one, one_mul] at t2
    rw [abs_le]; constructor <;> linarith
  obtain ⟨ml1, ml2⟩ := abs_le.mp ml
  norm_num at ml1 ml2
  have hcm : 0.9 * c ≤ len (cross (northPole R) m) := by
    have t := len_add_le (cross (northPole R) m) (cross (northPole R) ((-1 : ℝ) • (m - n)))
    rw [show cross (northPole R) m + cross (northPole R) ((-1 : ℝ) • (m - n)) = cross (northPole R) n by ext <;> simp [cross] <;> ring] at t
    have t2 := len_cross_le (northPole R) ((-1 : ℝ) • (m - n))
    rw [(northPole_unit hR.rot).len, len_smul, abs_neg, abs_one, one_mul, one_mul] at t2
    norm_num at hml' c0 ⊢
    linarith
  have hmc : cross (northPole R) m ≠ 0 := by
    intro h0
    rw [h0, len_eq_zero.mpr rfl] at hcm
    linarith
  have p500 := pow500_le (s := len m) (by norm_num; linarith)
  obtain ⟨W, hW, fW, -, M, rM, k2, k1, k5, cW⟩ := C81_n_E2R_EN B hR fm p500
    ((by linarith : len m ≤ 2).trans (by norm_num)) (by
      refine le_trans ?_ hcm
      have q1 : (2 : ℝ) ^ (-300 : ℤ) ≤ 2 ^ (-60 : ℤ) := zpow_le_zpow_right₀ (by norm_num) (by norm_num)
      have q2 : (2 : ℝ) ^ (-60 : ℤ) * 2 ≤ 0.9 * 1e-12 := by norm_num
      have q3 := mul_le_mul q1 (by linarith : len m ≤ 2) (len_nonneg' m) (by positivity)
      have q4 : (0.9 : ℝ) * 1e-12 ≤ 0.9 * c := mul_le_mul_of_nonneg_left c0 (by norm_num)
      exact (q3.trans q2).trans q4)
  obtain ⟨v1, v0, v2⟩ := frame_move hR hN ⟨rM, k2, k1, k5⟩ hn cp hc hmc hml'
  have hL : len (pB - pA) + 1.7321 * (1.01e-14 * S) ≤ 2.001 * S := by norm_num; linarith
  obtain ⟨Q, hQ, fQ, qx, qy, qz⟩ := mulVec_tr_flt (B := B) rM fW (P := ⟨x, y, w⟩) ⟨fx, fy, fw⟩ cW cP (by norm_num) hL (by norm_num at S2 ⊢; linarith)
  have hE : (3.02 * uu + 1.7321 * 2.5e-15) * (2.001 * S) + 1.7321 * (1.01e-14 * S) + 1e-59 ≤ 2.7e-14 * S := by
    have h1 : 3.02 * uu + 1.7321 * 2.5e-15 ≤ 4.68e-15 := by unfold uu; norm_num
    have h2 := mul_le_mul_of_nonneg_right h1 (show (0 : ℝ) ≤ 2.001 * S by linarith)
    have h3 : (1e-59 : ℝ) ≤ 1e-30 * S := by
      have : (1e-59 : ℝ) ≤ 1e-30 * 1 := by norm_num
      exact this.trans (mul_le_mul_of_nonneg_left S0 (by norm_num))
    generalize (1e-59 : ℝ) = τ at *
    norm_num at h2 h3 ⊢
    linarith
  have near_dot' : ∀ {u v : V3 ℝ} {k : ℝ}, len (u - v) ≤ k → k ≤ 1e-13 / c → |dot u (pB - pA) - dot v (pB - pA)| ≤ 1e-13 * len (pB - pA) / c := by
    intro u v k h1 h2
    have e : dot u (pB - pA) - dot v (pB - pA) = dot (u - v) (pB - pA) := by unfold dot; simp; ring
    rw [e]
    refine (abs_dot_le _ _).trans ((mul_le_mul_of_nonneg_right (h1.trans h2) D0).trans (le_of_eq (by ring)))
  have fin0 : ∀ {q s t : ℝ}, |q - s| ≤ (3.02 * uu + 1.7321 * 2.5e-15) * (2.001 * S) + 1.7321 * (1.01e-14 * S) + 1e-59 →
      |s - t| ≤ 1e-13 * len (pB - pA) / c → |q - t| ≤ 2.7e-14 * S + 1e-13 * len (pB - pA) / c := by
    intro q s t h1 h2
    have := abs_add_le (q - s) (s - t)
    rw [sub_add_sub_cancel] at this
    linarith
  refine ⟨Q, ?_, fQ, ?_, ?_, ?_⟩
  · have hsub : sub3 (PB.flt : V3 (F64 B)) PA.flt = V3.flt ⟨x, y, w⟩ := V3.ext ex ey ew
    have hc : check_frames (Frame64 B a f R nmB) (FrameN posA).nvector.frame = .ok () := by
      rw [hF]; exact check_self B hR fa a1 a2 ff f0 f1 _ _
    have hE : delta_E posA posB = .ok ⟨V3.flt ⟨x, y, w⟩, Frame64 B a f R nmB⟩ := by
      simp only [delta_E, ECEFvector.sub, eA, eB]
      rw [check_self B hR fa a1 a2 ff f0 f1, hsub]; rfl
    simp only [delta_N, hE, bind, Except.bind, ECEFvector.change_frame]
    rw [hc, hr, hW, hQ]
    rfl
  · exact fin0 qx (near_dot' v0 (by
      have : 2 * 2.5e-14 ≤ 2 * 2.5e-14 / c := (le_div_iff₀ cp).mpr (by nlinarith)
      rw [show (1e-13 : ℝ) / c = 2 * 2.5e-14 / c + 2 * 2.5e-14 / c by rw [← add_div]; norm_num]
      linarith))
  · exact fin0 qy (near_dot' v1 (div_le_div_of_nonneg_right (by norm_num) cp.le))
  · have e : |dot (col2 M) (pB - pA) - dot (col2 N) (pB - pA)| ≤ 5e-14 * len (pB - pA) := by
      rw [show dot (col2 M) (pB - pA) - dot (col2 N) (pB - pA) = dot (col2 M - col2 N) (pB - pA) by unfold dot; simp; ring]
      exact (abs_dot_le _ _).trans (mul_le_mul_of_nonneg_right (v2.trans (by norm_num)) D0)
    have := abs_add_le (Q.z - (app (transp M) (pB - pA)).z) (dot (col2 M) (pB - pA) - dot (col2 N) (pB - pA))
    rw [show Q.z - (app (transp M) (pB - pA)).z + (dot (col2 M) (pB - pA) - dot (col2 N) (pB - pA)) = Q.z - dot (col2 N) (pB - pA) by
      change Q.z - dot (col2 M) (pB - pA) + _ = _; ring] at this
    linarith

/-- the vector between two computed ECEF vectors in the computed local frame of the first one -/
theorem ecef_delta_N_flt (hR : IsAxes R) (fa : IsF64 a) (a1 : 1 ≤ a) (a2 : a ≤ 1e10) (ff : IsF64 f) (f0 : 0 ≤ f) (f1 : f ≤ 0.01)
    (nmA nmB : EllKey) {n PA PB pA pB : V3 ℝ} {z S c : ℝ} (hn : UnitVec n) (fPA : IsF64V PA) (fPB : IsF64V PB) (gA : Geodetic a f R n z pA)
    (d1 : z ≤ 0.4 * a) (d2 : -z ≤ 998 * a) (hS : a + |z| ≤ S) (S2 : S ≤ 1e20) (hD : len (pB - pA) ≤ 2 * S)
    (cA : CloseV PA pA (4.9e-15 * (a + |z|))) (cB : CloseV PB pB (4.9e-15 * S)) {N : M3 ℝ} (hN : NorthEastDown R n N)
    (c0 : 1e-12 ≤ c) (hc : c ≤ len (cross (northPole R) n)) :
    ∃ (Q : V3 ℝ) (F : LocalFrame (F64 B)), delta_N (.ecef ⟨PA.flt, Frame64 B a f R nmA⟩) (.ecef ⟨PB.flt, Frame64 B a f R nmB⟩) = .ok ⟨Q.flt, F⟩ ∧ IsF64V Q ∧
      |Q.x - dot (col0 N) (pB - pA)| ≤ 2.7e-14 * S + 1e-13 * len (pB - pA) / c ∧
      |Q.y - dot (col1 N) (pB - pA)| ≤ 2.7e-14 * S + 1e-13 * len (pB - pA) / c := by
  have ha : 0 < a := by linarith
  have hz0 := abs_nonneg z
  have hη : len (PA - pA) ≤ 1.7321 * (4.9e-15 * (a + |z|)) := len_le_of_comp cA.1 cA.2.1 cA.2.2
  have hza : |z| ≤ 998 * a := by rw [abs_le]; norm_num at d1; constructor <;> linarith
  obtain ⟨m, dd, hm, fm, -, hml, -⟩ := p2n_near (B := B) hR fa a1 a2 ff f0 f1 fPA gA d1 d2 hη (by norm_num; linarith)
  have e2 : dirOf n = n := by
    have := smul_dirOf n
    rw [hn.len] at this
    have : dirOf n = (1 : ℝ) • dirOf n := by ext <;> simp
    rw [this]; assumption
  have hml' : len (m - n) ≤ 2.5e-14 := by
    rw [e2] at hml
    refine hml.trans ?_
    have : 1.7321 * (4.9e-15 * (a + |z|)) / (a + |z|) = 1.7321 * 4.9e-15 := by field_simp
    rw [this]
    unfold uu; norm_num
  obtain ⟨Q, h1, h2, h3, h4, -⟩ := delta_N_near B hR fa a1 a2 ff f0 f1 (posA := .ecef ⟨PA.flt, Frame64 B a f R nmA⟩)
    (posB := .ecef ⟨PB.flt, Frame64 B a f R nmB⟩) hn fPA fPB rfl rfl rfl (by
      change n_E2R_EN (p_EB_E2n_EB_E (PA.flt : V3 (F64 B)) (F64.fin a) (F64.fin f) R.flt).1 R.flt = _
      rw [hm]) fm hml' hS S2 hD cA cB hN c0 hc
  exact ⟨Q, _, h1, h2, h3, h4⟩

/-- the computed azimuth of a vector from its computed components -/
theorem azimuth_of_near {Q : V3 ℝ} {S l h az : ℝ} (fQ : IsF64V Q) (S0 : 0 ≤ S) (l0 : 0 ≤ l) (q1 : |Q.x - h * Real.cos az| ≤ 2.7e-14 * S + 1e-13 * l)
    (q2 : |Q.y - h * Real.sin az| ≤ 2.7e-14 * S + 1e-13 * l) (hh : 0 < h) (hb : 7.8e-14 * S + 2.9e-13 * l ≤ h) :
    ∃ (az' : ℝ) (k : ℤ), azimuth (Q.flt : V3 (F64 B)) = F64.fin az' ∧ IsF64 az' ∧ |az'| ≤ 3.1416 ∧
      |az' - (az + k * (2 * Real.pi))| ≤ (6.1e-14 * S + 2.3e-13 * l) / h + 1.5e-15 := by
  obtain ⟨e, he⟩ : ∃ e, e = 2.7e-14 * S + 1e-13 * l := ⟨_, rfl⟩
  rw [← he] at q1 q2
  obtain ⟨k, az', h2, f2, h3⟩ := arctan2_dir B (k := (6.1e-14 * S + 2.3e-13 * l) / h + 1.5e-15) hh ⟨_, rfl, fQ.2.1, q2⟩ ⟨_, rfl, fQ.1, q1⟩
    (by rw [he]; norm_num at hb ⊢; linarith) (by
      have e1 : 2.23 * (e / h) = (2.23 * e) / h := by ring
      have e2 : (2.23 * e) / h ≤ (6.1e-14 * S + 2.3e-13 * l) / h := div_le_div_of_nonneg_right (by rw [he]; norm_num; linarith) hh.le
      have e3 : 13 * uu ≤ 1.5e-15 := by unfold uu; norm_num
      linarith)
  obtain ⟨b, θ, b1, -, b2, b3, -⟩ := C88_azimuth B Q
  have hab : az' = b := fin_inj.mp (h2.symm.trans b1)
  refine ⟨az', k, h2, f2, ?_, h3⟩
  have hπ := Real.pi_lt_d6
  obtain ⟨b4, b5⟩ := abs_le.mp b2
  obtain ⟨b6, b7⟩ := abs_le.mp b3
  rw [hab, abs_le]
  norm_num at b4 b5 hπ ⊢
  constructor <;> linarith

/-- the computed azimuth of the chord between two computed ECEF vectors -/
theorem chord_azimuth_flt (hR : IsAxes R) (fa : IsF64 a) (a1 : 1 ≤ a) (a2 : a ≤ 1e10) (ff : IsF64 f) (f0 : 0 ≤ f) (f1 : f ≤ 0.01)
    (nmA nmB : EllKey) {n PA PB pA pB : V3 ℝ} {z S c : ℝ} (hn : UnitVec n) (fPA : IsF64V PA) (fPB : IsF64V PB) (gA : Geodetic a f R n z pA)
    (d1 : z ≤ 0.4 * a) (d2 : -z ≤ 998 * a) (hS : a + |z| ≤ S) (S2 : S ≤ 1e20) (hD : len (pB - pA) ≤ 2 * S)
    (cA : CloseV PA pA (4.9e-15 * (a + |z|))) (cB : CloseV PB pB (4.9e-15 * S)) {N : M3 ℝ} (hN : NorthEastDown R n N)
    (c0 : 1e-12 ≤ c) (hc : c ≤ len (cross (northPole R) n)) {h az : ℝ} (hh : 0 < h)
    (hx : dot (col0 N) (pB - pA) = h * Real.cos az) (hy : dot (col1 N) (pB - pA) = h * Real.sin az)
    (hb : 7.8e-14 * S + 2.9e-13 * len (pB - pA) / c ≤ h) :
    ∃ (Q : V3 (F64 B)) (F : LocalFrame (F64 B)) (az' : ℝ) (k : ℤ),
      delta_N (.ecef ⟨PA.flt, Frame64 B a f R nmA⟩) (.ecef ⟨PB.flt, Frame64 B a f R nmB⟩) = .ok ⟨Q, F⟩ ∧ azimuth Q = F64.fin az' ∧ IsF64 az' ∧
      |az'| ≤ 3.1416 ∧ |az' - (az + k * (2 * Real.pi))| ≤ (6.1e-14 * S + 2.3e-13 * len (pB - pA) / c) / h + 1.5e-15 := by
  obtain ⟨Q, F, h1, fQ, q1, q2⟩ := ecef_delta_N_flt B hR fa a1 a2 ff f0 f1 nmA nmB hn fPA fPB gA d1 d2 hS S2 hD cA cB hN c0 hc
  rw [hx] at q1
  rw [hy] at q2
  have cp : 0 < c := lt_of_lt_of_le (by norm_num) c0
  have l0 : 0 ≤ len (pB - pA) / c := div_nonneg (len_nonneg' _) cp.le
  have S0 : 0 ≤ S := by linarith [abs_nonneg z]
  rw [mul_div_assoc] at q1 q2 hb ⊢
  generalize len (pB - pA) / c = l at *
  obtain ⟨az', k, h2, f2, h4, h3⟩ := azimuth_of_near B fQ S0 l0 q1 q2 hh hb
  exact ⟨_, F, az', k, h1, h2, f2, h4, h3⟩

/-- **C99** `GeoPoint.distance_and_azimuth(method='greatcircle')` in rounded arithmetic. The distance is the angle between the exact normals times the
average distance of the exact positions from the centre, within `4.1e-14 (a + |zA| + |zB|)`. The two azimuths are the directions, from north over east, of
the exact chord at A and at B; the error is a few times `1e-14` of the chord's horizontal part `h` there (`c` is the sine of the colatitude). -/
theorem C99_distance_and_azimuth (G : Geodesic (F64 B)) (hR : IsAxes R) (fa : IsF64 a) (a1 : 1 ≤ a) (a2 : a ≤ 1e10) (ff : IsF64 f) (f0 : 0 ≤ f)
    (f1 : f ≤ 0.01) (nmA nmB : EllKey) (latA lonA latB lonB : ℝ) {zA zB : ℝ} (fA : IsF64 zA) (fB : IsF64 zB)
    (dA : zA ≤ 0.4 * a) (dB : zB ≤ 0.4 * a) (uA : -zA ≤ 998 * a) (uB : -zB ≤ 998 * a) {pA pB : V3 ℝ}
    (gA : Geodetic a f R (normalOf R latA lonA) zA pA) (gB : Geodetic a f R (normalOf R latB lonB) zB pB)
    {N M : M3 ℝ} (hN : NorthEastDown R (normalOf R latA lonA) N) (hM : NorthEastDown R (normalOf R latB lonB) M)
    {cA cB hA hB azA azB : ℝ} (cA0 : 1e-12 ≤ cA) (hcA : cA ≤ len (cross (northPole R) (normalOf R latA lonA)))
    (cB0 : 1e-12 ≤ cB) (hcB : cB ≤ len (cross (northPole R) (normalOf R latB lonB))) (hA0 : 0 < hA) (hB0 : 0 < hB)
    (xA : dot (col0 N) (pB - pA) = hA * Real.cos azA) (yA : dot (col1 N) (pB - pA) = hA * Real.sin azA)
    (xB : dot (col0 M) (pB - pA) = hB * Real.cos azB) (yB : dot (col1 M) (pB - pA) = hB * Real.sin azB)
    (bA : 7.8e-14 * (a + |zA| + |zB|) + 2.9e-13 * len (pB - pA) / cA ≤ hA)
    (bB : 7.8e-14 * (a + |zA| + |zB|) + 2.9e-13 * len (pB - pA) / cB ≤ hB) (lu : Bool) :
    ∃ (d α β : ℝ) (j k : ℤ),
      (Geo64 B a f R nmA latA lonA zA).distance_and_azimuth G (.geo (Geo64 B a f R nmB latB lonB zB)) lu false "greatcircle" =
        .ok (F64.fin d, F64.fin α, F64.fin β) ∧
      |d - angle (normalOf R latA lonA) (normalOf R latB lonB) * ((len pA + len pB) / 2)| ≤ 4.1e-14 * (a + |zA| + |zB|) ∧
      |α| ≤ 3.1416 ∧ |α - (azA + j * (2 * Real.pi))| ≤ (6.1e-14 * (a + |zA| + |zB|) + 2.3e-13 * len (pB - pA) / cA) / hA + 1.5e-15 ∧
      |β| ≤ 3.1416 ∧ |β - (azB + k * (2 * Real.pi))| ≤ (6.1e-14 * (a + |zA| + |zB|) + 2.3e-13 * len (pB - pA) / cB) / hB + 6.6e-15 := by
  have zA0 := abs_nonneg zA
  have zB0 := abs_nonneg zB
  have hzA : |zA| ≤ 998 * a := by rw [abs_le]; norm_num at dA; constructor <;> linarith
  have hzB : |zB| ≤ 998 * a := by rw [abs_le]; norm_num at dB; constructor <;> linarith
  have wA : |zA| ≤ 1e15 := by norm_num at a2 ⊢; linarith
  have wB : |zB| ≤ 1e15 := by norm_num at a2 ⊢; linarith
  obtain ⟨-, r, e, fr, r1, r2, r3, r4⟩ := radius_flt B hR fa a1 a2 ff f0 f1 nmA nmB latA lonA latB lonB fA fB wA wB dA dB gA gB
  obtain ⟨d, k1, k2⟩ := gc_points_flt B hR latA lonA latB lonB fr r2 r3
  obtain ⟨PA, eA, fPA, gPA⟩ := C90_to_ecef_vector B hR fa a1 a2 ff f0 f1 nmA latA lonA fA (wA.trans (by norm_num)) gA
  obtain ⟨PB, eB, fPB, gPB⟩ := C90_to_ecef_vector B hR fa a1 a2 ff f0 f1 nmB latB lonB fB (wB.trans (by norm_num)) gB
  have hD := delta_len hR a1 f0 f1 gA gB
  obtain ⟨S, hS⟩ : ∃ S, S = a + |zA| + |zB| := ⟨_, rfl⟩
  rw [← hS] at bA bB r1 r4 ⊢
  have hD' : len (pB - pA) ≤ 2 * S := by rw [hS]; linarith
  have nA := gPA.mono (e' := 4.9e-15 * (a + |zA|)) (by norm_num; linarith)
  have nB := gPB.mono (e' := 4.9e-15 * (a + |zB|)) (by norm_num; linarith)
  have nA' := nA.mono (e' := 4.9e-15 * S) (by rw [hS]; norm_num)
  have nB' := nB.mono (e' := 4.9e-15 * S) (by rw [hS]; norm_num)
  have S2 : S ≤ 1e20 := by rw [hS]; norm_num at a2 ⊢; linarith
  obtain ⟨Q, F, α, j, q1, q2, q3, q4, q5⟩ := chord_azimuth_flt B hR fa a1 a2 ff f0 f1 nmA nmB (normalOf_unit hR latA lonA) fPA fPB gA dA uA
    (by rw [hS]; linarith) S2 hD' nA nB' hN cA0 hcA hA0 xA yA bA
  have hl : len (pA - pB) = len (pB - pA) := by
    rw [show pA - pB = (-1 : ℝ) • (pB - pA) by ext <;> simp, len_smul, abs_neg, abs_one, one_mul]
  have flip : ∀ u : V3 ℝ, dot u (pA - pB) = -dot u (pB - pA) := by intro u; unfold dot; simp; ring
  obtain ⟨Q', F', β, k, s1, s2, s3, s4, s5⟩ := chord_azimuth_flt B hR fa a1 a2 ff f0 f1 nmB nmA (normalOf_unit hR latB lonB) fPB fPA gB dB uB
    (S := S) (az := azB + Real.pi) (h := hB) (c := cB) (by rw [hS]; linarith) S2 (by rw [hl]; exact hD') nB nA' hM cB0 hcB hB0
    (by rw [flip, xB, Real.cos_add_pi]; ring) (by rw [flip, yB, Real.sin_add_pi]; ring) (by rw [hl]; exact bB)
  obtain ⟨y, m, t1, t2, t3, t4⟩ := base_angle_flt B (az := β) (s4.trans (by norm_num))
  rw [hl] at s5
  have hP : B.fl Real.pi ≤ 3.1416 := by
    have hpi := fl_pi (B := B)
    have hπ := Real.pi_lt_d6
    have : uu ≤ 1e-10 := by unfold uu; norm_num
    have h5 := (abs_le.mp hpi).2
    have h6 : uu * Real.pi ≤ 1e-10 * 3.2 := mul_le_mul this (by norm_num at hπ ⊢; linarith) Real.pi_pos.le (by norm_num)
    norm_num at hπ h6 ⊢
    linarith
  refine ⟨d, α, y, j, k + m + 1, ?_, ?_, q4, q5, t3.trans hP, ?_⟩
  · have hchk : check_frames_pos (Geo64 B a f R nmA latA lonA zA).frame (.geo (Geo64 B a f R nmB latB lonB zB)) = .ok () :=
      check_self B hR fa a1 a2 ff f0 f1 _ _
    have hgc : (Geo64 B a f R nmA latA lonA zA).distance_and_azimuth_greatcircle (.geo (Geo64 B a f R nmB latB lonB zB)) false =
        .ok (F64.fin d, F64.fin α, F64.fin y) := by
      have eA' : (Geo64 B a f R nmA latA lonA zA).to_nvector.to_ecef_vector = ⟨PA.flt, Frame64 B a f R nmA⟩ := eA
      have eB' : (Position.geo (Geo64 B a f R nmB latB lonB zB)).to_nvector.to_ecef_vector = ⟨PB.flt, Frame64 B a f R nmB⟩ := eB
      have e' : lit 0.5 * (length (PA.flt : V3 (F64 B)) + length PB.flt) = F64.fin r := by
        rw [← e]
        have e1 : (Geo64 B a f R nmA latA lonA zA).to_ecef_vector = ⟨PA.flt, Frame64 B a f R nmA⟩ := eA
        have e2 : (Geo64 B a f R nmB latB lonB zB).to_ecef_vector = ⟨PB.flt, Frame64 B a f R nmB⟩ := eB
        rw [e1, e2]
      have k1' : great_circle_distance (Geo64 B a f R nmA latA lonA zA).to_nvector.normal (Position.geo (Geo64 B a f R nmB latB lonB zB)).to_nvector.normal
          (F64.fin r) = F64.fin d := k1
      unfold GeoPoint.distance_and_azimuth_greatcircle
      simp only [eA', eB']
      rw [e', k1', q1, s1]
      simp only [bind, Except.bind, q2, s2, t1]
      rfl
    unfold GeoPoint.distance_and_azimuth
    rw [hchk, ← hgc]
    rfl
  · have hπ := Real.pi_lt_d2
    refine radius_swap (angle_nonneg _ _) ((angle_le_pi _ _).trans ?_) k2 r1 r4 (by norm_num) (by rw [hS]; positivity) (by norm_num)
    norm_num at hπ ⊢; linarith
  · have hu : 45 * uu ≤ 5.1e-15 := by unfold uu; norm_num
    have := abs_add_le (y - (β + Real.pi + m * (2 * Real.pi))) (β - (azB + Real.pi + k * (2 * Real.pi)))
    rw [show y - (β + Real.pi + m * (2 * Real.pi)) + (β - (azB + Real.pi + k * (2 * Real.pi))) = y - (azB + ((k + m + 1 : ℤ) : ℝ) * (2 * Real.pi)) by
      push_cast; ring] at this
    norm_num at hu s5 t4 this ⊢
    linarith

/-- **C99** the same with `degrees=True`: the two azimuths in degrees -/
theorem C99_distance_and_azimuth_degrees (G : Geodesic (F64 B)) (hR : IsAxes R) (fa : IsF64 a) (a1 : 1 ≤ a) (a2 : a ≤ 1e10) (ff : IsF64 f) (f0 : 0 ≤ f)
    (f1 : f ≤ 0.01) (nmA nmB : EllKey) (latA lonA latB lonB : ℝ) {zA zB : ℝ} (fA : IsF64 zA) (fB : IsF64 zB)
    (dA : zA ≤ 0.4 * a) (dB : zB ≤ 0.4 * a) (uA : -zA ≤ 998 * a) (uB : -zB ≤ 998 * a) {pA pB : V3 ℝ}
    (gA : Geodetic a f R (normalOf R latA lonA) zA pA) (gB : Geodetic a f R (normalOf R latB lonB) zB pB)
    {N M : M3 ℝ} (hN : NorthEastDown R (normalOf R latA lonA) N) (hM : NorthEastDown R (normalOf R latB lonB) M)
    {cA cB hA hB azA azB : ℝ} (cA0 : 1e-12 ≤ cA) (hcA : cA ≤ len (cross (northPole R) (normalOf R latA lonA)))
    (cB0 : 1e-12 ≤ cB) (hcB : cB ≤ len (cross (northPole R) (normalOf R latB lonB))) (hA0 : 0 < hA) (hB0 : 0 < hB)
    (xA : dot (col0 N) (pB - pA) = hA * Real.cos azA) (yA : dot (col1 N) (pB - pA) = hA * Real.sin azA)
    (xB : dot (col0 M) (pB - pA) = hB * Real.cos azB) (yB : dot (col1 M) (pB - pA) = hB * Real.sin azB)
    (bA : 7.8e-14 * (a + |zA| + |zB|) + 2.9e-13 * len (pB - pA) / cA ≤ hA)
    (bB : 7.8e-14 * (a + |zA| + |zB|) + 2.9e-13 * len (pB - pA) / cB ≤ hB) (lu : Bool) :
    ∃ (d α β : ℝ) (j k : ℤ),
      (Geo64 B a f R nmA latA lonA zA).distance_and_azimuth G (.geo (Geo64 B a f R nmB latB lonB zB)) lu true "greatcircle" =
        .ok (F64.fin d, F64.fin α, F64.fin β) ∧
      |d - angle (normalOf R latA lonA) (normalOf R latB lonB) * ((len pA + len pB) / 2)| ≤ 4.1e-14 * (a + |zA| + |zB|) ∧
      |α - (azA * (180 / Real.pi) + j * 360)| ≤ 57.3 * ((6.1e-14 * (a + |zA| + |zB|) + 2.3e-13 * len (pB - pA) / cA) / hA) + 1.5e-13 ∧
      |β - (azB * (180 / Real.pi) + k * 360)| ≤ 57.3 * ((6.1e-14 * (a + |zA| + |zB|) + 2.3e-13 * len (pB - pA) / cB) / hB) + 4.4e-13 := by
  obtain ⟨d, α, β, j, k, h, h1, h2, h3, h4, h5⟩ := C99_distance_and_azimuth B G hR fa a1 a2 ff f0 f1 nmA nmB latA lonA latB lonB fA fB dA dB uA uB gA gB hN hM
    cA0 hcA cB0 hcB hA0 hB0 xA yA xB yB bA bB lu
  have hπ := Real.pi_gt_d4
  have q1 : 180 / Real.pi ≤ 57.3 := by rw [div_le_iff₀ Real.pi_pos]; norm_num at hπ ⊢; linarith
  have q0 : 0 ≤ 180 / Real.pi := by positivity
  have key : ∀ {x t : ℝ} {m : ℤ} {E b : ℝ}, |x| ≤ 3.1416 → |x - (t + m * (2 * Real.pi))| ≤ E + b → 0 ≤ E + b →
      ∃ y : ℝ, rad2deg (F64.fin x : F64 B) = F64.fin y ∧ |y - (t * (180 / Real.pi) + m * 360)| ≤ 57.3 * E + (57.3 * b + 6.1e-14) := by
    intro x t m E b hx hb hE
    obtain ⟨y, y1, -, y2⟩ := rad2deg_flt (B := B) (x := x) (hx.trans (by norm_num))
    refine ⟨y, y1, ?_⟩
    have e1 : |x * (180 / Real.pi)| ≤ 3.1416 * 57.3 := by
      rw [abs_mul, abs_of_nonneg q0]
      exact mul_le_mul hx q1 q0 (by norm_num)
    have e2 : |x * (180 / Real.pi) - (t * (180 / Real.pi) + m * 360)| ≤ 57.3 * (E + b) := by
      rw [show x * (180 / Real.pi) - (t * (180 / Real.pi) + m * 360) = (180 / Real.pi) * (x - (t + m * (2 * Real.pi))) by
        field_simp; ring, abs_mul, abs_of_nonneg q0]
      exact mul_le_mul q1 hb (abs_nonneg _) (by norm_num)
    have e3 := mul_le_mul_of_nonneg_left e1 (show (0 : ℝ) ≤ 3.002 * uu by have := uu_pos; positivity)
    have e4 : 3.002 * uu * (3.1416 * 57.3) + eta ≤ 6.1e-14 := by
      have h9 : 3.002 * uu * (3.1416 * 57.3) ≤ 6.05e-14 := by unfold uu; norm_num
      have h8 : eta ≤ 1e-20 := eta_small.trans (by norm_num)
      norm_num at h9 h8 ⊢; linarith
    have t' := abs_add_le (y - x * (180 / Real.pi)) (x * (180 / Real.pi) - (t * (180 / Real.pi) + m * 360))
    rw [sub_add_sub_cancel] at t'
    linarith
  obtain ⟨x, x1, x2⟩ := key h2 h3 ((abs_nonneg _).trans h3)
  obtain ⟨y, y1, y2⟩ := key h4 h5 ((abs_nonneg _).trans h5)
  refine ⟨d, x, y, j, k, ?_, h1, x2.trans (by norm_num), y2.trans (by norm_num)⟩
  have conv : ∀ (p : GeoPoint (F64 B)) (q : Position (F64 B)) {A C D : F64 B}, p.distance_and_azimuth G q lu false "greatcircle" = .ok (A, C, D) →
      p.distance_and_azimuth G q lu true "greatcircle" = .ok (A, rad2deg C, rad2deg D) := by
    intro p q A C D hp
    have e : ∀ dg : Bool, p.distance_and_azimuth G q lu dg "greatcircle" =
        (check_frames_pos p.frame q >>= fun _ => p.distance_and_azimuth_greatcircle q dg) := fun _ => rfl
    rw [e] at hp ⊢
    cases hc : check_frames_pos p.frame q with
    | error e => rw [hc] at hp; exact absurd hp (by simp [bind, Except.bind])
    | ok u =>
      rw [hc] at hp
      change p.distance_and_azimuth_greatcircle q false = _ at hp
      change p.distance_and_azimuth_greatcircle q true = _
      unfold GeoPoint.distance_and_azimuth_greatcircle at hp ⊢
      cases hd1 : delta_N (.ecef p.to_nvector.to_ecef_vector) (.ecef q.to_nvector.to_ecef_vector) with
      | error e => exfalso; simp only [hd1] at hp; exact absurd hp (by simp [bind, Except.bind])
      | ok u =>
        cases hd2 : delta_N (.ecef q.to_nvector.to_ecef_vector) (.ecef p.to_nvector.to_ecef_vector) with
        | error e => exfalso; simp only [hd1, hd2] at hp; exact absurd hp (by simp [bind, Except.bind])
        | ok w =>
          simp only [hd1, hd2, bind, Except.bind, pure, Except.pure, if_true, Bool.false_eq_true, if_false, Except.ok.injEq, Prod.mk.injEq] at hp ⊢
          obtain ⟨r1, r2, r3⟩ := hp
          exact ⟨r1, by rw [r2], by rw [r3]⟩
  rw [conv _ _ h, x1, y1]

/-- north, east and down at longitude `lon` on the equator -/
noncomputable def equatorFrame (lon : ℝ) : M3 ℝ := ⟨⟨0, -Real.sin lon, -Real.cos lon⟩, ⟨0, Real.cos lon, -Real.sin lon⟩, ⟨1, 0, 0⟩⟩

theorem equatorFrame_ned (lon : ℝ) : NorthEastDown Re (normalOf Re 0 lon) (equatorFrame lon) := by
  have hn : normalOf Re 0 lon = ⟨Real.cos lon, Real.sin lon, 0⟩ := by
    unfold normalOf geoNormal app transp Re dot; ext <;> simp [col0, col1, col2]
  have hp : northPole Re = ⟨0, 0, 1⟩ := by unfold northPole app transp Re dot; ext <;> simp [col0, col1, col2]
  have h2 := Real.sin_sq_add_cos_sq lon
  have d1 : ∀ v : V3 ℝ, UnitVec v → dirOf v = v := by
    intro v hv
    have := smul_dirOf v
    rw [hv.len] at this
    have e : dirOf v = (1 : ℝ) • dirOf v := by ext <;> simp
    rw [e]; assumption
  rw [hn]
  refine ⟨?_, ?_, ?_, ?_⟩
  · constructor <;> simp [equatorFrame, col0, col1, col2, dot, det, cross] <;> nlinarith
  · rw [d1 _ (by unfold UnitVec; simp)]
    ext <;> simp [equatorFrame, col2]
  · rw [hp, d1 _ (by unfold UnitVec; simp [cross])]
    ext <;> simp [equatorFrame, col1, cross]
  · rw [hp]; simp [equatorFrame, col0, dot]

/-- a concrete case: from longitude 0 to longitude 1 on the equator of the sphere of radius 6371000 the two azimuths are east up to `6.7e-13` -/
example (G : Geodesic (F64 B)) : ∃ (d α β : ℝ) (j k : ℤ),
    (Geo64 B 6371000 0 Re (.int 1) 0 0 0).distance_and_azimuth G (.geo (Geo64 B 6371000 0 Re (.int 2) 0 1 0)) false false "greatcircle" =
      .ok (F64.fin d, F64.fin α, F64.fin β) ∧ |α - (Real.pi / 2 + j * (2 * Real.pi))| ≤ 7e-13 ∧ |β - (Real.pi / 2 + k * (2 * Real.pi))| ≤ 7e-13 := by
  have h0 : IsF64 (6371000 : ℝ) := by simpa using isF64_int (n := 6371000) (by norm_num)
  have hn : ∀ lon : ℝ, normalOf Re 0 lon = ⟨Real.cos lon, Real.sin lon, 0⟩ := by
    intro lon; unfold normalOf geoNormal app transp Re dot; ext <;> simp [col0, col1, col2]
  have hp : northPole Re = ⟨0, 0, 1⟩ := by unfold northPole app transp Re dot; ext <;> simp [col0, col1, col2]
  have hu : ∀ lon : ℝ, UnitVec (normalOf Re 0 lon) := fun lon => normalOf_unit (Or.inl rfl) 0 lon
  have d1 : ∀ v : V3 ℝ, UnitVec v → dirOf v = v := by
    intro v hv
    have := smul_dirOf v
    rw [hv.len] at this
    have e : dirOf v = (1 : ℝ) • dirOf v := by ext <;> simp
    rw [e]; assumption
  have k : ∀ lon : ℝ, Geodetic 6371000 0 Re (normalOf Re 0 lon) 0 ((6371000 : ℝ) • normalOf Re 0 lon) := by
    intro lon
    have := geodetic_sphere (a := 6371000) isRotation_Re (by norm_num) (hu lon).ne
    rwa [d1 _ (hu lon)] at this
  have hs := Real.sin_gt_sub_cube (x := 1) (by norm_num)
  have s1 : 0.7 ≤ Real.sin 1 := by norm_num at hs ⊢; linarith
  have hc1 : ∀ lon : ℝ, (1 : ℝ) ≤ len (cross (northPole Re) (normalOf Re 0 lon)) := by
    intro lon
    rw [hp, hn]
    apply le_of_eq
    unfold len
    simp [cross]
  have hD : len ((6371000 : ℝ) • normalOf Re 0 1 - (6371000 : ℝ) • normalOf Re 0 0) ≤ 12742000 := by
    have t := len_add_le ((6371000 : ℝ) • normalOf Re 0 1) ((-6371000 : ℝ) • normalOf Re 0 0)
    rw [show (6371000 : ℝ) • normalOf Re 0 1 + (-6371000 : ℝ) • normalOf Re 0 0 = (6371000 : ℝ) • normalOf Re 0 1 - (6371000 : ℝ) • normalOf Re 0 0 by
      ext <;> simp <;> ring, len_smul, len_smul, (hu 1).len, (hu 0).len] at t
    norm_num at t ⊢; linarith
  have hh : (0 : ℝ) < 6371000 * Real.sin 1 := by positivity
  have hL := len_nonneg' ((6371000 : ℝ) • normalOf Re 0 1 - (6371000 : ℝ) • normalOf Re 0 0)
  obtain ⟨d, α, β, j, m, h, -, -, h3, -, h4⟩ := C99_distance_and_azimuth B G (Or.inl rfl) h0 (by norm_num) (by norm_num) isF64_zero le_rfl (by norm_num)
    (.int 1) (.int 2) 0 0 0 1 isF64_zero isF64_zero (by norm_num) (by norm_num) (by norm_num) (by norm_num) (k 0) (k 1) (equatorFrame_ned 0)
    (equatorFrame_ned 1) (cA := 1) (cB := 1) (hA := 6371000 * Real.sin 1) (hB := 6371000 * Real.sin 1) (azA := Real.pi / 2) (azB := Real.pi / 2)
    (by norm_num) (hc1 0) (by norm_num) (hc1 1) hh hh
    (by rw [hn, hn]; simp [equatorFrame, col0, dot]) (by rw [hn, hn]; simp [equatorFrame, col1, dot])
    (by rw [hn, hn]; simp [equatorFrame, col0, dot]) (by rw [hn, hn]; simp [equatorFrame, col1, dot]; ring)
    (by norm_num at hD s1 ⊢; linarith) (by norm_num at hD s1 ⊢; linarith) false
  have e : (6.1e-14 * (6371000 + |0| + |0|) + 2.3e-13 * len ((6371000 : ℝ) • normalOf Re 0 1 - (6371000 : ℝ) • normalOf Re 0 0) / 1) /
      (6371000 * Real.sin 1) ≤ 6.9e-13 := by
    rw [div_le_iff₀ hh]
    norm_num at hD s1 ⊢
    nlinarith
  refine ⟨d, α, β, j, m, h, h3.trans ?_, h4.trans ?_⟩
  · norm_num at e ⊢; linarith
  · norm_num at e ⊢; linarith

end Nv
