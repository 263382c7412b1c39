import Verif.Float.Direct
import Verif.Props.FloatDistance
import Verif.Props.FloatRotation

/-!
# C96: the great circle direct problem in binary64

North and east of a position are the first two columns of the rotation `N` that the specification of the local frame (C12) fixes: its
last column is the direction down, its second one is the direction of pole `×` position.
-/

namespace Nv
open Spec F64
variable (B : Binary64)
variable {R : M3 ℝ} {n : V3 ℝ} {δ : ℝ}

/-- the direction of a position at a distance `d` in the direction `az` from north (column 0 of `N`) towards east (column 1 of `N`) -/
noncomputable def Spec.destination (N : M3 ℝ) (d az : ℝ) : V3 ℝ :=
  Real.cos d • (-col2 N) + Real.sin d • (Real.cos az • col0 N + Real.sin az • col1 N)

theorem destination_reach {N : M3 ℝ} (hN : IsRotation N) (d az : ℝ) : destination N d az = reach (-col2 N) (col1 N) d az := by
  have : cross (-col2 N) (col1 N) = col0 N := by rw [← hN.cross12]; ext <;> simp [cross] <;> ring
  unfold destination reach; rw [this]

theorem frame_col {N : M3 ℝ} (hN : IsRotation N) : Frame (-col2 N) (col1 N) := by
  refine ⟨?_, ?_, ?_⟩
  · have := hN.c22; unfold UnitVec; unfold dot at this; simp; linarith
  · have := hN.c11; unfold UnitVec; unfold dot at this; linarith
  · have := hN.c12; unfold dot at this ⊢; simp; linarith

/-- in exact arithmetic the destination is a position at the great circle distance `d` -/
theorem destination_spec {N : M3 ℝ} (hN : IsRotation N) {d : ℝ} (hd0 : 0 ≤ d) (hd : d ≤ Real.pi) (az : ℝ) :
    UnitVec (destination N d az) ∧ angle (-col2 N) (destination N d az) = d := by
  rw [destination_reach hN]
  exact ⟨reach_unit (frame_col hN) d az, reach_angle (frame_col hN) hd0 hd az⟩

theorem destination_unit {N : M3 ℝ} (hN : IsRotation N) (d az : ℝ) : UnitVec (destination N d az) := by
  rw [destination_reach hN]; exact reach_unit (frame_col hN) d az

/-- the computed destination, for a given computed east direction -/
theorem direct_of_east (hn : IsF64V n) (hδ : |len n - 1| ≤ δ) (hδ' : δ ≤ 1e-6) {N : M3 ℝ} (hN : IsRotation N) (hN2 : col2 N = -dirOf n)
    {E : V3 ℝ} (fE : IsF64V E) (hE : CloseV E (col1 N) (5.06 * uu))
    (he : unit (cross3 (mulVec (tr (R.flt : M3 (F64 B))) ⟨lit 1, lit 0, lit 0⟩) n.flt) = E.flt) (d az : ℝ) :
    ∃ W : V3 ℝ, n_EA_E_distance_and_azimuth2n_EB_E (n.flt : V3 (F64 B)) (F64.fin d) (F64.fin az) R.flt = W.flt ∧ IsF64V W ∧
      len (W - destination N d az) ≤ 7.8e-15 + δ ∧ CloseV W (destination N d az) (4.5e-15 + δ) := by
  obtain ⟨n1, n2⟩ := abs_le.mp hδ
  have nl : 0.9 ≤ len n := by norm_num at hδ' ⊢; linarith
  have n0 : n ≠ 0 := by rintro rfl; simp [len] at nl; norm_num at nl
  have hm : -col2 N = dirOf n := by rw [hN2]; ext <;> simp
  have fr := frame_col hN
  rw [hm] at fr
  have ho : dot n (col1 N) = 0 := by
    have h1 : len n * dot (dirOf n) (col1 N) = dot n (col1 N) := by rw [← dot_smul_left, smul_dirOf]
    rw [← h1, fr.perp, mul_zero]
  have h := reach_flt (B := B) hn fE (by norm_num at hδ' ⊢; linarith) fr.ue.len ho hE d az
  obtain ⟨W, hW, fW, w1, w2, w3⟩ := h.get
  have hr := reach_near n0 hδ fr.ue.len d az
  rw [← hm, ← destination_reach hN] at hr
  have hc : CloseV W (reach n (col1 N) d az) (40.4 * uu) := ⟨w1, w2, w3⟩
  have hl : len (W - reach n (col1 N) d az) ≤ 1.7321 * (40.4 * uu) := len_le_of_comp w1 w2 w3
  refine ⟨W, ?_, fW, ?_, ?_⟩
  · unfold n_EA_E_distance_and_azimuth2n_EB_E
    dsimp only
    rw [he, hW]
  · have := len_add_le (W - reach n (col1 N) d az) (reach n (col1 N) d az - destination N d az)
    rw [show W - reach n (col1 N) d az + (reach n (col1 N) d az - destination N d az) = W - destination N d az by ext <;> simp] at this
    have h3 : 1.7321 * (40.4 * uu) ≤ 7.8e-15 := by unfold uu; norm_num
    linarith
  · have h3 : 40.4 * uu ≤ 4.5e-15 := by unfold uu; norm_num
    exact (hc.trans (CloseV.of_len hr)).mono (by linarith)

/-- **C96** away from the poles the computed destination is within `4.5e-15 + δ` of the exact one in every component, where `δ` is the deviation of the
length of the starting position from one -/
theorem C96_destination (hR : IsAxes R) (hn : IsF64V n) (hδ : |len n - 1| ≤ δ) (hδ' : δ ≤ 1e-6)
    (hp : (2 : ℝ) ^ (-500 : ℤ) ≤ len (cross (northPole R) n)) (d az : ℝ) :
    ∃ (W : V3 ℝ) (N : M3 ℝ), n_EA_E_distance_and_azimuth2n_EB_E (n.flt : V3 (F64 B)) (F64.fin d) (F64.fin az) R.flt = W.flt ∧ IsF64V W ∧
      IsRotation N ∧ col2 N = -dirOf n ∧ col1 N = dirOf (cross (northPole R) n) ∧ 0 < dot (col0 N) (northPole R) ∧
      len (W - destination N d az) ≤ 7.8e-15 + δ ∧ CloseV W (destination N d az) (4.5e-15 + δ) := by
  obtain ⟨n1, n2⟩ := abs_le.mp hδ
  have hc : cross (northPole R) n ≠ 0 := by
    intro h
    rw [h, len_eq_zero.mpr rfl] at hp
    exact absurd hp (not_le.mpr (by positivity))
  obtain ⟨N, e1, hN, h2, h1, -⟩ := n_E2R_EN_offpole n R hR.rot hc
  obtain ⟨N', e1', -, -, -, -, h6⟩ := C12_R_EN_north_east n R hR.rot hc
  have hNN : N' = N := M3.fin_inj.mp (e1'.symm.trans e1)
  rw [hNN] at h6
  have nb : len n ≤ 1.1 := by norm_num at hδ' ⊢; linarith
  have hcl : len (cross (northPole R) n) ≤ 1000 := by
    have h := len_cross_le (northPole R) n
    have : len (northPole R) ≤ 1.1 := by
      have := northPole_unit hR.rot; rw [this.len]; norm_num
    have := mul_le_mul this nb (len_nonneg' n) (by norm_num)
    refine (h.trans this).trans (by norm_num)
  obtain ⟨E, hE, fE, cE, -⟩ := unit_close (B := B) hp (le_pow500 hcl)
  have he : unit (cross3 (mulVec (tr (R.flt : M3 (F64 B))) ⟨lit 1, lit 0, lit 0⟩) n.flt) = E.flt := by
    rw [cross_pole_flt hR (Fin64V.of_len hn (nb.trans (by norm_num))), hE]
  rw [← h1] at cE
  obtain ⟨W, w1, w2, w3, w4⟩ := direct_of_east B hn hδ hδ' hN h2 fE cE he d az
  exact ⟨W, N, w1, w2, hN, h2, h1, h6, w3, w4⟩

/-- **C96** with the default axes also from the poles exactly, where the code takes the x-axis for east -/
theorem C96_pole (hn : IsF64V n) (hδ : |len n - 1| ≤ δ) (hδ' : δ ≤ 1e-6) (hp : cross (northPole Re) n = 0) (d az : ℝ) :
    ∃ (W : V3 ℝ) (N : M3 ℝ), n_EA_E_distance_and_azimuth2n_EB_E (n.flt : V3 (F64 B)) (F64.fin d) (F64.fin az) = W.flt ∧ IsF64V W ∧
      IsRotation N ∧ col2 N = -dirOf n ∧ col1 N = ⟨1, 0, 0⟩ ∧
      len (W - destination N d az) ≤ 7.8e-15 + δ ∧ CloseV W (destination N d az) (4.5e-15 + δ) := by
  obtain ⟨n1, n2⟩ := abs_le.mp hδ
  have nb : len n ≤ 1.1 := by norm_num at hδ' ⊢; linarith
  have nl : 0.9 ≤ len n := by norm_num at hδ' ⊢; linarith
  have n0 : n ≠ 0 := by rintro rfl; simp [len] at nl; norm_num at nl
  have hnp : northPole Re = ⟨0, 0, 1⟩ := by unfold northPole Re app transp col0 col1 col2 dot; ext <;> simp
  have hp' := hp
  rw [hnp] at hp'
  have hx : n.x = 0 := by have := congrArg V3.y hp'; simpa [cross] using this
  have hu := dirOf_unit n0
  have hf : Frame (dirOf n) ⟨1, 0, 0⟩ := ⟨hu, by norm_num [UnitVec], by unfold dirOf; simp [dot, hx]⟩
  obtain ⟨N, hNd⟩ : ∃ N : M3 ℝ, N = ⟨⟨(cross (dirOf n) ⟨1, 0, 0⟩).x, 1, -(dirOf n).x⟩, ⟨(cross (dirOf n) ⟨1, 0, 0⟩).y, 0, -(dirOf n).y⟩,
    ⟨(cross (dirOf n) ⟨1, 0, 0⟩).z, 0, -(dirOf n).z⟩⟩ := ⟨_, rfl⟩
  have c0 : col0 N = cross (dirOf n) ⟨1, 0, 0⟩ := by rw [hNd]; rfl
  have c1 : col1 N = ⟨1, 0, 0⟩ := by rw [hNd]; rfl
  have c2 : col2 N = -dirOf n := by rw [hNd]; rfl
  have hN : IsRotation N := by
    have k := hu
    have dx : (dirOf n).x = 0 := by unfold dirOf; simp [hx]
    unfold UnitVec at k
    rw [dx] at k
    rw [hNd]
    constructor <;> simp [col0, col1, col2, dot, cross, dx, Spec.det] <;> first | ring1 | linear_combination k
  have f0 : IsF64 (0 : ℝ) := by simpa using isF64_int (n := 0) (by norm_num)
  have he : unit (cross3 (mulVec (tr (Re.flt : M3 (F64 B))) ⟨lit 1, lit 0, lit 0⟩) n.flt) = V3.flt ⟨1, 0, 0⟩ := by
    rw [cross_pole_flt (Or.inl rfl) (Fin64V.of_len hn (nb.trans (by norm_num))), hp, unit_zero_flt]
  have hu0 := uu_pos
  obtain ⟨W, w1, w2, w3, w4⟩ := direct_of_east B hn hδ hδ' hN c2 (E := ⟨1, 0, 0⟩) ⟨isF64_one, f0, f0⟩
    (by rw [c1]; refine ⟨?_, ?_, ?_⟩ <;> simp <;> linarith) he d az
  refine ⟨W, N, ?_, w2, hN, c2, c1, w3, w4⟩
  rw [R_e_flt]; exact w1

/-- the length of the computed destination and the distance it is at -/
theorem destination_near {W : V3 ℝ} (n0 : n ≠ 0) {N : M3 ℝ} (hN : IsRotation N) (hN2 : col2 N = -dirOf n) {d az ε : ℝ} (hd0 : 0 ≤ d) (hd : d ≤ Real.pi)
    (hε : ε ≤ 1e-3) (hW : len (W - destination N d az) ≤ ε) : |len W - 1| ≤ ε ∧ |angle n W - d| ≤ 1.002 * ε := by
  obtain ⟨hu, ha⟩ := destination_spec hN hd0 hd az
  have hm : -col2 N = dirOf n := by rw [hN2]; ext <;> simp
  rw [hm] at ha
  obtain ⟨W0, hA⟩ := angle_le_of_len hu hW hε
  constructor
  · have h1 := len_add_le (W - destination N d az) (destination N d az)
    rw [show W - destination N d az + destination N d az = W by ext <;> simp, hu.len] at h1
    have h2 := len_add_le W ((-1 : ℝ) • (W - destination N d az))
    rw [show W + (-1 : ℝ) • (W - destination N d az) = destination N d az by ext <;> simp, hu.len, len_smul, abs_neg, abs_one, one_mul] at h2
    rw [abs_le]; constructor <;> linarith
  · have un := dirOf_unit n0
    have uw := dirOf_unit W0
    have t1 := angle_triangle un uw hu
    have t2 := angle_triangle un hu uw
    rw [angle_dirOf_left n0 (w := dirOf W), angle_dirOf_right W0, ha] at t1
    rw [angle_dirOf_left n0 (w := dirOf W), angle_dirOf_right W0, ha] at t2
    rw [angle_dirOf_left W0] at t1
    rw [angle_dirOf_right W0, angle_comm (destination N d az)] at t2
    rw [abs_le]; constructor <;> linarith

/-- **C96** the computed destination has unit length and is at the great circle distance `d`, both up to `7.9e-15 + 1.002 δ` -/
theorem C96_distance (hR : IsAxes R) (hn : IsF64V n) (hδ : |len n - 1| ≤ δ) (hδ' : δ ≤ 1e-6)
    (hp : (2 : ℝ) ^ (-500 : ℤ) ≤ len (cross (northPole R) n)) {d : ℝ} (hd0 : 0 ≤ d) (hd : d ≤ Real.pi) (az : ℝ) :
    ∃ W : V3 ℝ, n_EA_E_distance_and_azimuth2n_EB_E (n.flt : V3 (F64 B)) (F64.fin d) (F64.fin az) R.flt = W.flt ∧ IsF64V W ∧
      |len W - 1| ≤ 7.8e-15 + δ ∧ |angle n W - d| ≤ 7.9e-15 + 1.002 * δ := by
  obtain ⟨W, N, h1, h2, h3, h4, -, -, h5, -⟩ := C96_destination B hR hn hδ hδ' hp d az
  have δ0 := (abs_nonneg _).trans hδ
  have n0 : n ≠ 0 := by rintro rfl; simp [len] at hδ; norm_num at hδ'; linarith
  obtain ⟨k1, k2⟩ := destination_near n0 h3 h4 hd0 hd (by norm_num at hδ' ⊢; linarith) h5
  exact ⟨W, h1, h2, k1, k2.trans (by norm_num; linarith)⟩

/-- **C96** the library's own great circle distance from the start to the destination is the distance asked for, up to `1.4e-14 + 1.002 δ` times
the radius -/
theorem C96_there_and_back (hR : IsAxes R) (hn : IsF64V n) (hδ : |len n - 1| ≤ δ) (hδ' : δ ≤ 1e-6)
    (hp : (2 : ℝ) ^ (-500 : ℤ) ≤ len (cross (northPole R) n)) {d : ℝ} (hd0 : 0 ≤ d) (hd : d ≤ Real.pi) (az : ℝ)
    {r : ℝ} (fr : IsF64 r) (r1 : 1e-20 ≤ r) (r2 : r ≤ 1e20) :
    ∃ x : ℝ, great_circle_distance (n.flt : V3 (F64 B)) (n_EA_E_distance_and_azimuth2n_EB_E n.flt (F64.fin d) (F64.fin az) R.flt) (F64.fin r) = F64.fin x ∧
      |x - d * r| ≤ (1.4e-14 + 1.002 * δ) * r := by
  obtain ⟨W, h1, h2, h3, h4⟩ := C96_distance B hR hn hδ hδ' hp hd0 hd az
  have rp : 0 < r := lt_of_lt_of_le (by norm_num) r1
  obtain ⟨n1, n2⟩ := abs_le.mp hδ
  obtain ⟨w1, w2⟩ := abs_le.mp h3
  rw [h1]
  obtain ⟨x, hx, hb⟩ := C72_great_circle_distance B hn h2 (by norm_num at hδ' ⊢; linarith) (by norm_num at hδ' ⊢; linarith)
    (by norm_num at hδ' w1 ⊢; linarith) (by norm_num at hδ' w2 ⊢; linarith) fr r1 r2
  refine ⟨x, hx, ?_⟩
  have h5 := mul_le_mul_of_nonneg_right h4 rp.le
  rw [← abs_of_pos rp, ← abs_mul, abs_of_pos rp, sub_mul] at h5
  have := abs_add_le (x - angle n W * r) (angle n W * r - d * r)
  rw [show x - angle n W * r + (angle n W * r - d * r) = x - d * r by ring] at this
  refine this.trans ((add_le_add hb h5).trans (le_of_eq ?_) |>.trans (mul_le_mul_of_nonneg_right (?_ : 6e-15 + (7.9e-15 + 1.002 * δ) ≤ _) rp.le))
  · ring
  · norm_num; linarith

/-- **C96** fails at the poles for `axes='E'`: the code takes the pole itself for east, and with azimuth 0 only the length of the position changes -/
theorem C96_pole_axes_E (d : ℝ) :
    n_EA_E_distance_and_azimuth2n_EB_E (V3.flt ⟨1, 0, 0⟩ : V3 (F64 B)) (F64.fin d) (F64.fin 0) R_E = V3.flt ⟨B.cos d, 0, 0⟩ := by
  have fs : Fin64 (B.sin d) := by
    have h := libm_close (b := 1) (e := 1) (B.sin_close d) (Real.abs_sin_le_one d) (by unfold uu; norm_num)
    exact fin64_of_le (B.sin_val d) (by have := abs_sub_abs_le_abs_sub (B.sin d) (Real.sin d); have := Real.abs_sin_le_one d; linarith [show (2 : ℝ) ≤ 10 ^ 60 by norm_num])
  have fc : Fin64 (B.cos d) := by
    have h := libm_close (b := 1) (e := 1) (B.cos_close d) (Real.abs_cos_le_one d) (by unfold uu; norm_num)
    exact fin64_of_le (B.cos_val d) (by have := abs_sub_abs_le_abs_sub (B.cos d) (Real.cos d); have := Real.abs_cos_le_one d; linarith [show (2 : ℝ) ≤ 10 ^ 60 by norm_num])
  have hnp : cross (northPole one) ⟨1, 0, 0⟩ = 0 := by unfold northPole one app transp col0 col1 col2 dot cross; ext <;> simp
  have he : unit (cross3 (mulVec (tr (one.flt : M3 (F64 B))) ⟨lit 1, lit 0, lit 0⟩) (V3.flt ⟨1, 0, 0⟩)) = V3.flt ⟨1, 0, 0⟩ := by
    rw [cross_pole_flt (Or.inr rfl) ⟨fin64_one, fin64_zero, fin64_zero⟩, hnp, unit_zero_flt]
  unfold n_EA_E_distance_and_azimuth2n_EB_E
  rw [R_E_flt, he]
  simp only [cross3, add3, scale3, V3.flt, fin_sin, fin_cos, B.sin_zero, B.cos_zero, zero_mul', mul_zero', one_mul' fin64_one, one_mul' fc, one_mul' fs,
    sub_zero' fin64_zero, add_zero' fin64_zero, add_zero' fc, fin_neg, neg_zero]

/-- a non-trivial case of the hypotheses of C96: a position of doubles on the meridian 45 degrees east of the x-axis, about 1e-7 from unit length -/
example : ∃ n : V3 ℝ, IsF64V n ∧ |len n - 1| ≤ 1e-6 ∧ (2 : ℝ) ^ (-500 : ℤ) ≤ len (cross (northPole Re) n) ∧ n.z ≠ 0 := by
  have f1 : IsF64 ((741455 : ℝ) / 2 ^ 20) := ⟨741455, -20, by norm_num, by norm_num, by norm_num⟩
  have f2 : IsF64 ((1 : ℝ) / 2 ^ 10) := ⟨1, -10, by norm_num, by norm_num, by norm_num⟩
  refine ⟨⟨741455 / 2 ^ 20, 741455 / 2 ^ 20, 1 / 2 ^ 10⟩, ⟨f1, f1, f2⟩, ?_, ?_, by norm_num⟩
  · have h1 : 1 - 1e-6 ≤ len (⟨741455 / 2 ^ 20, 741455 / 2 ^ 20, 1 / 2 ^ 10⟩ : V3 ℝ) := Real.le_sqrt_of_sq_le (by norm_num)
    have h2 : len (⟨741455 / 2 ^ 20, 741455 / 2 ^ 20, 1 / 2 ^ 10⟩ : V3 ℝ) ≤ 1 + 1e-6 := Real.sqrt_le_iff.mpr ⟨by norm_num, by norm_num⟩
    rw [abs_le]; constructor <;> linarith
  · refine pow500_le ?_
    have hnp : northPole Re = ⟨0, 0, 1⟩ := by unfold northPole Re app transp col0 col1 col2 dot; ext <;> simp
    rw [hnp]
    exact Real.le_sqrt_of_sq_le (by norm_num [cross])

end Nv
