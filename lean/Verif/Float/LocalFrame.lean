import Verif.Float.Euler
import Verif.Float.Position

/-!
# North, East, Down in binary64
-/

namespace Nv
open Spec F64

theorem f64_eq_zero {z : ℝ} (h : IsF64 z) (hz : |z| ≤ eta) : z = 0 := by
  obtain ⟨m, e, hm, he, rfl⟩ := h
  rcases eq_or_ne m 0 with rfl | h0
  · simp
  · exfalso
    have h1 : (1 : ℝ) ≤ |(m : ℝ)| := by exact_mod_cast Int.one_le_abs h0
    have hp : (0 : ℝ) < (2 : ℝ) ^ e := by positivity
    rw [abs_mul, abs_of_pos hp] at hz
    have h2 : (2 : ℝ) ^ (-1074 : ℤ) ≤ (2 : ℝ) ^ e := zpow_le_zpow_right₀ (by norm_num) he
    rw [two_eta] at h2
    have h3 := mul_le_mul_of_nonneg_right h1 hp.le
    linarith only [h2, h3, hz, eta_pos]

theorem Spec.CloseV.mono {v w : V3 ℝ} {e e' : ℝ} (h : CloseV v w e) (he : e ≤ e') : CloseV v w e' := ⟨h.1.trans he, h.2.1.trans he, h.2.2.trans he⟩

theorem closeV_axes_tr {R : M3 ℝ} (hR : IsAxes R) {v w : V3 ℝ} {e : ℝ} (h : CloseV v w e) : CloseV (app (transp R) v) (app (transp R) w) e := by
  obtain ⟨h1, h2, h3⟩ := h
  rcases hR with rfl | rfl
  · refine ⟨?_, ?_, ?_⟩
    · simpa [app, Re, dot, transp, col0, col1, col2, abs_sub_comm, neg_add_eq_sub] using h3
    · simpa [app, Re, dot, transp, col0, col1, col2] using h2
    · simpa [app, Re, dot, transp, col0, col1, col2] using h1
  · refine ⟨?_, ?_, ?_⟩
    · simpa [app, one, dot, transp, col0, col1, col2] using h1
    · simpa [app, one, dot, transp, col0, col1, col2] using h2
    · simpa [app, one, dot, transp, col0, col1, col2] using h3

theorem closeM_of_cols {M N : M3 ℝ} {e : ℝ} (h0 : CloseV (col0 M) (col0 N) e) (h1 : CloseV (col1 M) (col1 N) e) (h2 : CloseV (col2 M) (col2 N) e) :
    CloseM M N e :=
  ⟨⟨h0.1, h1.1, h2.1⟩, ⟨h0.2.1, h1.2.1, h2.2.1⟩, ⟨h0.2.2, h1.2.2, h2.2.2⟩⟩

section
variable {B : Binary64}

/-- `mdot` acts on columns -/
theorem mdot_ofCols {A : M3 (F64 B)} (a b c : V3 (F64 B)) : mdot A (ofCols a b c) = ofCols (mulVec A a) (mulVec A b) (mulVec A c) := rfl

/-- turning the axes of a matrix given by finite columns -/
theorem mdot_tr_axes {R : M3 ℝ} (hR : IsAxes R) {a b c : V3 ℝ} (ha : Fin64V a) (hb : Fin64V b) (hc : Fin64V c) :
    ∃ W : M3 ℝ, mdot (tr (R.flt : M3 (F64 B))) (ofCols a.flt b.flt c.flt) = W.flt ∧ IsF64M W ∧
      col0 W = app (transp R) a ∧ col1 W = app (transp R) b ∧ col2 W = app (transp R) c := by
  obtain ⟨a1, ⟨a2, -⟩, ⟨a3, -⟩, ⟨a4, -⟩⟩ := mulVec_tr_axes (B := B) hR ha
  obtain ⟨b1, ⟨b2, -⟩, ⟨b3, -⟩, ⟨b4, -⟩⟩ := mulVec_tr_axes (B := B) hR hb
  obtain ⟨c1, ⟨c2, -⟩, ⟨c3, -⟩, ⟨c4, -⟩⟩ := mulVec_tr_axes (B := B) hR hc
  refine ⟨⟨⟨(app (transp R) a).x, (app (transp R) b).x, (app (transp R) c).x⟩, ⟨(app (transp R) a).y, (app (transp R) b).y, (app (transp R) c).y⟩,
    ⟨(app (transp R) a).z, (app (transp R) b).z, (app (transp R) c).z⟩⟩, ?_, ⟨⟨a2, b2, c2⟩, ⟨a3, b3, c3⟩, ⟨a4, b4, c4⟩⟩, rfl, rfl, rfl⟩
  rw [mdot_ofCols, a1, b1, c1]; rfl

/-- the `East` direction `(1, 0, 0) × u` is exact -/
theorem cross3_e1 {u : V3 ℝ} (h : Fin64V u) : cross3 (⟨lit 1, lit 0, lit 0⟩ : V3 (F64 B)) u.flt = (⟨0, -u.z, u.y⟩ : V3 ℝ).flt := by
  obtain ⟨h1, h2, h3⟩ := h
  unfold cross3 V3.flt
  simp only [lit_zero, lit_one, zero_mul', one_mul' h2, one_mul' h3, sub_zero' fin64_zero, zero_sub' h3, sub_zero' h2]

theorem fin64V_of_close {v w : V3 ℝ} {e : ℝ} (h : CloseV v w e) (fv : IsF64V v) (hw : len w ≤ 1) (he : e ≤ 1) : Fin64V v := by
  obtain ⟨h1, h2, h3⟩ := h
  have b : ∀ {s t : ℝ}, |s - t| ≤ e → |t| ≤ 1 → |s| ≤ 10 ^ 60 := by
    intro s t h ht
    have := abs_sub_abs_le_abs_sub s t
    have h5 : (2 : ℝ) ≤ 10 ^ 60 := by norm_num
    linarith
  exact ⟨fin64_of_le fv.1 (b h1 ((abs_x_le_len w).trans hw)), fin64_of_le fv.2.1 (b h2 ((abs_y_le_len w).trans hw)),
    fin64_of_le fv.2.2 (b h3 ((abs_z_le_len w).trans hw))⟩

/-- the down vector -/
theorem unit_close {m : V3 ℝ} (h1 : (2 : ℝ) ^ (-500 : ℤ) ≤ len m) (h2 : len m ≤ (2 : ℝ) ^ (500 : ℕ)) :
    ∃ u : V3 ℝ, unit (m.flt : V3 (F64 B)) = u.flt ∧ IsF64V u ∧ CloseV u (dirOf m) (5.06 * uu) ∧
      |u.x - (dirOf m).x| ≤ 5.05 * uu * |(dirOf m).x| + eta ∧ |u.y - (dirOf m).y| ≤ 5.05 * uu * |(dirOf m).y| + eta ∧
      |u.z - (dirOf m).z| ≤ 5.05 * uu * |(dirOf m).z| + eta := by
  obtain ⟨u, hu, fu, h3, h4, h5⟩ := unit_flt (B := B) h1 h2
  have e : ∀ t : ℝ, t / len m = (len m)⁻¹ * t := fun t => by rw [div_eq_inv_mul]
  rw [e] at h3 h4 h5
  have l1 : len (dirOf m) = 1 := by
    have hm : m ≠ 0 := by
      rintro rfl
      have : len (0 : V3 ℝ) = 0 := len_eq_zero.mpr rfl
      rw [this] at h1
      exact absurd h1 (not_le.mpr (by positivity))
    exact (dirOf_unit hm).len
  have hη := eta_small
  have k : ∀ {s t : ℝ}, |t| ≤ 1 → |s - t| ≤ 5.05 * uu * |t| + eta → |s - t| ≤ 5.06 * uu := by
    intro s t ht h
    have h6 : 5.05 * uu * |t| ≤ 5.05 * uu * 1 := mul_le_mul_of_nonneg_left ht (by unfold uu; norm_num)
    have h7 : (1 : ℝ) / 10 ^ 60 ≤ 0.01 * uu := by unfold uu; norm_num
    linarith only [h, h6, h7, hη]
  exact ⟨u, hu, fu, ⟨k ((abs_x_le_len _).trans l1.le) h3, k ((abs_y_le_len _).trans l1.le) h4, k ((abs_z_le_len _).trans l1.le) h5⟩, h3, h4, h5⟩

theorem RelS.of_close {s t k d : ℝ} (fs : IsF64 s) (h : |s - t| ≤ k * uu * |t| + d) : RelS (F64.fin s : F64 B) t k d := ⟨s, rfl, fs, h⟩

/-- one component of a vector product of two unit vectors -/
theorem cross_comp {P Q S T : F64 B} {p q s t : ℝ} (hP : RelS P p 15.2 1e-105) (hQ : RelS Q q 5.05 1e-200) (hS : RelS S s 15.2 1e-105)
    (hT : RelS T t 5.05 1e-200) (h1 : p ^ 2 + s ^ 2 ≤ 1) (h2 : q ^ 2 + t ^ 2 ≤ 1) : App (P * Q - S * T) (p * q - s * t) (22.4 * uu) := by
  have one : ∀ {a b : ℝ}, a ^ 2 + b ^ 2 ≤ 1 → |a| ≤ 1 := by
    intro a b h; exact abs_le_of_sq_le_sq (by nlinarith [sq_nonneg b]) zero_le_one
  have hp := one h1
  have hq := one h2
  have hs : |s| ≤ 1 := one (b := p) (by linarith)
  have ht : |t| ≤ 1 := one (b := q) (by linarith)
  have m1 := hP.mul1 hQ hp hq (k := 21.3) (d := 1e-104) (by norm_num) (by norm_num) (by norm_num) (by norm_num) (by norm_num) (by norm_num) (by norm_num) (by norm_num)
    (by norm_num) (by norm_num)
  have m2 := hS.mul1 hT hs ht (k := 21.3) (d := 1e-104) (by norm_num) (by norm_num) (by norm_num) (by norm_num) (by norm_num) (by norm_num) (by norm_num) (by norm_num)
    (by norm_num) (by norm_num)
  exact m1.sub_app m2 (prod_sum_le h1 h2) (by norm_num) rfl (by norm_num) (by norm_num) (by norm_num)
    (mul_le_mul_of_nonneg_right (by norm_num) uu_pos.le)

theorem unit_pairs {v : V3 ℝ} (h : len v = 1) : v.x ^ 2 + v.y ^ 2 ≤ 1 ∧ v.x ^ 2 + v.z ^ 2 ≤ 1 ∧ v.y ^ 2 + v.z ^ 2 ≤ 1 := by
  have hs : v.x ^ 2 + v.y ^ 2 + v.z ^ 2 = 1 := by
    unfold len at h; exact Real.sqrt_eq_one.mp h
  exact ⟨by nlinarith [sq_nonneg v.z], by nlinarith [sq_nonneg v.y], by nlinarith [sq_nonneg v.x]⟩

set_option maxHeartbeats 1600000 in
/-- North, East, Down away from the poles -/
theorem R_EN_flt_off {n : V3 ℝ} {R : M3 ℝ} (hR : IsAxes R) (hn : IsF64V n) (n1 : (2 : ℝ) ^ (-500 : ℤ) ≤ len n) (n2 : len n ≤ 10 ^ 60)
    (hp : (2 : ℝ) ^ (-300 : ℤ) * len n ≤ len (cross (northPole R) n)) {N : M3 ℝ} (hN : IsRotation N) (hN2 : col2 N = -dirOf n)
    (hN1 : col1 N = dirOf (cross (northPole R) n)) :
    ∃ W : M3 ℝ, n_E2R_EN (n.flt : V3 (F64 B)) R.flt = W.flt ∧ IsF64M W ∧ CloseM W N (22.4 * uu) := by
  have hu := uu_pos
  have hrot := hR.rot
  have n0 : 0 < len n := lt_of_lt_of_le (by positivity) n1
  have hnz : n ≠ 0 := by rintro rfl; rw [len_eq_zero.mpr rfl] at n0; exact lt_irrefl _ n0
  obtain ⟨m1, mf⟩ := mulVec_axes (B := B) hR (fin64V_of_le hn n2)
  obtain ⟨m, hm⟩ : ∃ m, m = app R n := ⟨_, rfl⟩
  rw [← hm] at m1 mf
  have lm : len m = len n := by rw [hm, len_app hrot]
  have mz : m ≠ 0 := by rw [hm]; exact app_ne_zero hrot hnz
  have e60 : (10 : ℝ) ^ 60 ≤ 2 ^ (500 : ℕ) := by
    calc (10 : ℝ) ^ 60 ≤ 2 ^ (200 : ℕ) := by norm_num
      _ ≤ _ := pow_le_pow_right₀ (by norm_num) (by norm_num)
  obtain ⟨u, hu1, fu, cu, ux, uy, uz⟩ := unit_close (B := B) (m := m) (by rw [lm]; exact n1) (by rw [lm]; exact n2.trans e60)
  obtain ⟨q, hq⟩ : ∃ q, q = dirOf m := ⟨_, rfl⟩
  rw [← hq] at cu ux uy uz
  have lq : len q = 1 := by rw [hq]; exact (dirOf_unit mz).len
  have fu64 : Fin64V u := fin64V_of_close cu fu lq.le (by unfold uu; norm_num)
  -- east
  obtain ⟨s, hs⟩ : ∃ s, s = len (cross ⟨1, 0, 0⟩ q) := ⟨_, rfl⟩
  have e1 : cross (⟨1, 0, 0⟩ : V3 ℝ) q = ⟨0, -q.z, q.y⟩ := by ext <;> simp [cross]
  have hs1 : s ≤ 1 := by
    rw [hs, e1]
    unfold len
    have := (unit_pairs lq).2.2
    exact Real.sqrt_le_iff.mpr ⟨zero_le_one, by nlinarith⟩
  have hcp : cross (northPole R) n = len n • app (transp R) (cross ⟨1, 0, 0⟩ q) := by
    rw [← cross_pole hrot, ← app_smul, ← cross_smul_right, hq, ← hm]
    congr 2
    unfold dirOf
    rw [lm]
    ext <;> simp [n0.ne']
  have hs2 : (2 : ℝ) ^ (-300 : ℤ) ≤ s := by
    rw [hcp, len_smul, abs_of_pos n0, len_app hrot.transpose, ← hs, mul_comm] at hp
    exact le_of_mul_le_mul_left hp n0
  have s0 : 0 < s := lt_of_lt_of_le (by positivity) hs2
  obtain ⟨E, hE⟩ : ∃ E, E = dirOf (cross ⟨1, 0, 0⟩ q) := ⟨_, rfl⟩
  have hcz : cross (⟨1, 0, 0⟩ : V3 ℝ) q ≠ 0 := by
    intro h; rw [h, len_eq_zero.mpr rfl] at hs; exact s0.ne' hs
  have lE : len E = 1 := by rw [hE]; exact (dirOf_unit hcz).len
  have hEc : E = ⟨0, s⁻¹ * -q.z, s⁻¹ * q.y⟩ := by rw [hE]; unfold dirOf; rw [← hs, e1]; ext <;> simp
  have hη := eta_tiny
  rw [show (1 : ℝ) / 10 ^ 200 = 1e-200 by norm_num] at hη
  have sinv : s⁻¹ ≤ 2 ^ (300 : ℕ) := by
    rw [inv_le_comm₀ s0 (by positivity)]
    refine le_trans (le_of_eq ?_) hs2
    rw [show (-300 : ℤ) = -((300 : ℕ) : ℤ) by norm_num, zpow_neg, zpow_natCast]
  have hT : s⁻¹ * eta ≤ 1e-109 := by
    calc s⁻¹ * eta ≤ 2 ^ (300 : ℕ) * 1e-200 := mul_le_mul sinv hη eta_pos.le (by positivity)
      _ ≤ _ := by rw [show (300 : ℕ) = 150 + 150 from rfl, pow_add]; norm_num
  have si0 : 0 ≤ s⁻¹ := inv_nonneg.mpr s0.le
  have sc : ∀ {a b : ℝ}, |a - b| ≤ 5.05 * uu * |b| + eta → |s⁻¹ * a - s⁻¹ * b| ≤ 5.05 * uu * |s⁻¹ * b| + 1e-109 := by
    intro a b h
    rw [← mul_sub, abs_mul, abs_mul, abs_of_nonneg si0]
    have := mul_le_mul_of_nonneg_left h si0
    linarith only [this, hT]
  have l499 : (2 : ℝ) ^ (-499 : ℤ) ≤ s := le_trans (zpow_le_zpow_right₀ (by norm_num) (by norm_num)) hs2
  have l499' : s ≤ (2 : ℝ) ^ (499 : ℕ) := hs1.trans (one_le_pow₀ (by norm_num))
  obtain ⟨w, hw, fw, wx, wy, wz⟩ := unit_near' (B := B) (V := ⟨0, -u.z, u.y⟩) (v := ⟨0, s⁻¹ * -u.z, s⁻¹ * u.y⟩) (m := E) (l := s)
    (by ext <;> simp [s0.ne']) l499 l499' lE (c := 5.05) (t := 1e-109) (by norm_num) (by norm_num) (by norm_num) (by norm_num)
    (by rw [hEc]; simp; norm_num)
    (by rw [hEc]; exact sc (by rw [show -u.z - -q.z = -(u.z - q.z) by ring, abs_neg, abs_neg]; exact uz))
    (by rw [hEc]; exact sc uy)
  have wE : ∀ {a b : ℝ}, |a - b| ≤ (2 * 5.05 + 5.06) * uu * |b| + 10 * 1e-109 + eta → |a - b| ≤ 15.2 * uu * |b| + 1e-105 := by
    intro a b h
    have b0 : 0 ≤ uu * |b| := by positivity
    have h7 : (10 : ℝ) * 1e-109 + 1e-200 ≤ 1e-105 := by norm_num
    generalize (1e-105 : ℝ) = t5 at *
    generalize (1e-109 : ℝ) = t9 at *
    generalize (1e-200 : ℝ) = t2 at *
    norm_num at h ⊢
    linarith only [h, b0, h7, hη]
  have wx' := wE wx
  have wy' := wE wy
  have wz' := wE wz
  have cw : CloseV w E (22.4 * uu) := by
    have k : ∀ {a b : ℝ}, |b| ≤ 1 → |a - b| ≤ 15.2 * uu * |b| + 1e-105 → |a - b| ≤ 22.4 * uu := by
      intro a b hb h
      have h6 : 15.2 * uu * |b| ≤ 15.2 * uu * 1 := mul_le_mul_of_nonneg_left hb (by unfold uu; norm_num)
      have h7 : (1e-105 : ℝ) ≤ 0.01 * uu := by unfold uu; norm_num
      linarith only [h, h6, h7, hu]
    exact ⟨k ((abs_x_le_len _).trans lE.le) wx', k ((abs_y_le_len _).trans lE.le) wy', k ((abs_z_le_len _).trans lE.le) wz'⟩
  -- north
  have rwx := RelS.of_close (B := B) fw.1 wx'
  have rwy := RelS.of_close (B := B) fw.2.1 wy'
  have rwz := RelS.of_close (B := B) fw.2.2 wz'
  have du : ∀ {a b : ℝ}, IsF64 a → |a - b| ≤ 5.05 * uu * |b| + eta → RelS (F64.fin (-a) : F64 B) (-b) 5.05 1e-200 := by
    intro a b fa h
    exact RelS.neg (X := F64.fin a) (RelS.of_close fa (by linarith only [h, hη]))
  have rux := du fu.1 ux
  have ruy := du fu.2.1 uy
  have ruz := du fu.2.2 uz
  obtain ⟨E1, E2, E3⟩ := unit_pairs lE
  have lq' : len (⟨-q.x, -q.y, -q.z⟩ : V3 ℝ) = 1 := by rw [← lq]; unfold len; simp
  obtain ⟨Q1, Q2, Q3⟩ := unit_pairs lq'
  dsimp only at Q1 Q2 Q3
  have sw : ∀ {a b : ℝ}, a ^ 2 + b ^ 2 ≤ 1 → b ^ 2 + a ^ 2 ≤ 1 := fun h => by linarith
  have hx := cross_comp rwy ruz rwz ruy E3 (sw Q3)
  have hy := cross_comp rwz rux rwx ruz (sw E2) Q2
  have hz := cross_comp rwx ruy rwy rux E1 (sw Q1)
  obtain ⟨g, hg, fg, g1, g2, g3⟩ := App3.get (V := cross3 (w.flt : V3 (F64 B)) (neg3 u.flt)) (v := cross E (-q)) ⟨hx, hy, hz⟩
  have cg : CloseV g (cross E (-q)) (22.4 * uu) := ⟨g1, g2, g3⟩
  -- orthogonality of the exact vectors
  have hEq : dot E (-q) = 0 := by
    rw [dot_neg_right, hEc]; simp [dot]; ring
  have lg : len (cross E (-q)) ≤ 1 := by
    have hl := lagrange E (-q)
    have lqn : len (-q) = 1 := lq'
    rw [hEq, lE, lqn] at hl
    have : len (cross E (-q)) ^ 2 = 1 := by rw [hl]; norm_num
    exact (abs_le_of_sq_le_sq (by rw [this]; norm_num) zero_le_one).trans' (le_abs_self _)
  have cn : CloseV (-u) (-q) (22.4 * uu) := by
    have b : 5.06 * uu ≤ 22.4 * uu := mul_le_mul_of_nonneg_right (by norm_num) hu.le
    have k : ∀ {a b : ℝ}, |a - b| ≤ 5.06 * uu → |-a - -b| ≤ 5.06 * uu := by
      intro a b h; rwa [show -a - -b = -(a - b) by ring, abs_neg]
    exact ⟨(k cu.1).trans b, (k cu.2.1).trans b, (k cu.2.2).trans b⟩
  have small : 22.4 * uu ≤ 1 := by unfold uu; norm_num
  have fnu : IsF64V (-u) := ⟨fu.1.neg, fu.2.1.neg, fu.2.2.neg⟩
  obtain ⟨W, hW, fW, W0, W1, W2⟩ := mdot_tr_axes (B := B) hR (fin64V_of_close cg fg lg small) (fin64V_of_close cw fw lE.le small)
    (fin64V_of_close cn fnu lq'.le small)
  refine ⟨W, ?_, fW, ?_⟩
  · rw [← hW]
    unfold n_E2R_EN
    dsimp only
    rw [m1, hu1, cross3_e1 fu64, hw]
    have hbr : norm3 ((⟨0, -u.z, u.y⟩ : V3 ℝ).flt : V3 (F64 B)) = F64.fin (flNorm B.fl 0 (-u.z) u.y) ∧ flNorm B.fl 0 (-u.z) u.y ≠ 0 := by
      obtain ⟨v, hv⟩ : ∃ v : V3 ℝ, v = ⟨0, -u.z, u.y⟩ := ⟨_, rfl⟩
      have hl := len_close_rel (v := (⟨0, -q.z, q.y⟩ : V3 ℝ)) (w := v) (ε := 5.05 * uu) (t := eta) (by positivity) eta_pos.le
        (by rw [hv]; simp only [sub_self, abs_zero, mul_zero, zero_add]; exact eta_pos.le)
        (by rw [hv]; simp only; rw [show -u.z - -q.z = -(u.z - q.z) by ring, abs_neg, abs_neg]; exact uz)
        (by rw [hv]; exact uy)
      rw [← e1, ← hs] at hl
      have hl' := abs_le.mp hl
      have t1 : 5.05 * uu * s ≤ 0.1 * s := mul_le_mul_of_nonneg_right (by unfold uu; norm_num) s0.le
      have t2 : 1.7321 * eta ≤ 0.1 * s := by
        have h4 : eta ≤ 2 ^ (-100 : ℤ) * 2 ^ (-300 : ℤ) := by
          rw [← zpow_add₀ (by norm_num)]; exact eta_le (by norm_num)
        have h5 : (2 : ℝ) ^ (-100 : ℤ) ≤ 0.01 := by norm_num
        have h6 := h4.trans (mul_le_mul h5 hs2 (by positivity) (by norm_num))
        linarith only [h6, s0]
      have v1 : 0.5 * s ≤ len v := by norm_num at t1 t2 hl' ⊢; linarith only [t1, t2, hl'.1, s0]
      have v2 : len v ≤ 2 := by norm_num at t1 t2 hl' ⊢; linarith only [t1, t2, hl'.2, hs1]
      have v3 : (2 : ℝ) ^ (-500 : ℤ) ≤ len v := by
        refine le_trans ?_ v1
        have a1 : (2 : ℝ) ^ (-301 : ℤ) ≤ 0.5 * s := by
          have : (2 : ℝ) ^ (-301 : ℤ) = 0.5 * 2 ^ (-300 : ℤ) := by
            rw [show (-301 : ℤ) = -1 + -300 by norm_num, zpow_add₀ (by norm_num)]; norm_num
          rw [this]; exact mul_le_mul_of_nonneg_left hs2 (by norm_num)
        exact le_trans (zpow_le_zpow_right₀ (by norm_num) (by norm_num)) a1
      have hN := flNorm_rel B.rounds v3
      have hfin := norm3_flt (B := B) (v := v) (v2.trans (by norm_num))
      rw [hv] at hfin hN v1
      refine ⟨hfin, ?_⟩
      have t3 : 4.03 * uu ≤ 0.1 := by unfold uu; norm_num
      have vp : 0 < len (⟨0, -u.z, u.y⟩ : V3 ℝ) := lt_of_lt_of_le (by positivity) v1
      have t4 := mul_le_mul_of_nonneg_right t3 vp.le
      have := (abs_le.mp hN).1
      dsimp only at this
      intro h0
      rw [h0] at this
      norm_num at this t4
      linarith only [this, t4, vp]
    rw [hbr.1, lit_zero, fin_eq, if_neg (by simp [hbr.2])]
    rw [hg]; rfl
  · have c2 : app (transp R) (-q) = -dirOf n := by
      rw [app_neg, hq, hm, app_dirOf hrot, hrot.trans_app]
    have c1 : app (transp R) E = dirOf (cross (northPole R) n) := by
      rw [hcp, dirOf_smul n0, hE, app_dirOf hrot.transpose]
    have c0 : app (transp R) (cross E (-q)) = col0 N := by
      rw [← cross_app hrot.transpose, c1, c2, ← hN1, ← hN2, hN.cross12]
    refine closeM_of_cols ?_ ?_ ?_
    · rw [W0, ← c0]; exact closeV_axes_tr hR cg
    · rw [W1, hN1, ← c1]; exact closeV_axes_tr hR cw
    · rw [W2, hN2, ← c2]; exact closeV_axes_tr hR cn

set_option maxHeartbeats 1600000 in
/-- North, East, Down at a pole -/
theorem R_EN_flt_pole {n : V3 ℝ} {R : M3 ℝ} (hR : IsAxes R) (hn : IsF64V n) (n1 : (2 : ℝ) ^ (-500 : ℤ) ≤ len n) (n2 : len n ≤ 10 ^ 60)
    (hp : cross (northPole R) n = 0) {N : M3 ℝ} (hN : IsRotation N) (hN2 : col2 N = -dirOf n)
    (hN1 : col1 N = app (transp R) ⟨0, 1, 0⟩) :
    ∃ W : M3 ℝ, n_E2R_EN (n.flt : V3 (F64 B)) R.flt = W.flt ∧ IsF64M W ∧ CloseM W N (22.4 * uu) := by
  have hu := uu_pos
  have hrot := hR.rot
  have n0 : 0 < len n := lt_of_lt_of_le (by positivity) n1
  have hnz : n ≠ 0 := by rintro rfl; rw [len_eq_zero.mpr rfl] at n0; exact lt_irrefl _ n0
  obtain ⟨m1, mf⟩ := mulVec_axes (B := B) hR (fin64V_of_le hn n2)
  obtain ⟨m, hm⟩ : ∃ m, m = app R n := ⟨_, rfl⟩
  rw [← hm] at m1 mf
  have lm : len m = len n := by rw [hm, len_app hrot]
  have mz : m ≠ 0 := by rw [hm]; exact app_ne_zero hrot hnz
  have e60 : (10 : ℝ) ^ 60 ≤ 2 ^ (500 : ℕ) := by
    calc (10 : ℝ) ^ 60 ≤ 2 ^ (200 : ℕ) := by norm_num
      _ ≤ _ := pow_le_pow_right₀ (by norm_num) (by norm_num)
  obtain ⟨u, hu1, fu, cu, ux, uy, uz⟩ := unit_close (B := B) (m := m) (by rw [lm]; exact n1) (by rw [lm]; exact n2.trans e60)
  obtain ⟨q, hq⟩ : ∃ q, q = dirOf m := ⟨_, rfl⟩
  rw [← hq] at cu ux uy uz
  have lq : len q = 1 := by rw [hq]; exact (dirOf_unit mz).len
  have fu64 : Fin64V u := fin64V_of_close cu fu lq.le (by unfold uu; norm_num)
  have hc0 : cross (⟨1, 0, 0⟩ : V3 ℝ) m = 0 := by
    have := cross_pole hrot n
    rw [hp, ← hm] at this
    have h2 := hrot.app_trans (cross ⟨1, 0, 0⟩ m)
    rw [this] at h2
    rw [← h2]; ext <;> simp [app, dot]
  have qy : q.y = 0 := by
    have := congrArg V3.z hc0
    simp [cross] at this
    rw [hq]; simp [dirOf, this]
  have qz : q.z = 0 := by
    have := congrArg V3.y hc0
    simp [cross] at this
    rw [hq]; simp [dirOf, this]
  rw [qy, sub_zero, abs_zero, mul_zero, zero_add] at uy
  rw [qz, sub_zero, abs_zero, mul_zero, zero_add] at uz
  have u2 := f64_eq_zero fu.2.1 uy
  have u3 := f64_eq_zero fu.2.2 uz
  have fx := fu64.1
  have hue : u = ⟨u.x, 0, 0⟩ := by ext <;> simp [u2, u3]
  have hqe : q = ⟨q.x, 0, 0⟩ := by ext <;> simp [qy, qz]
  have cuu : |u.x - q.x| ≤ 22.4 * uu := cu.1.trans (mul_le_mul_of_nonneg_right (by norm_num) hu.le)
  have z0 : (0 : ℝ) ≤ 22.4 * uu := by positivity
  obtain ⟨W, hW, fW, W0, W1, W2⟩ := mdot_tr_axes (B := B) hR (a := ⟨0, 0, u.x⟩) (b := ⟨0, 1, 0⟩) (c := ⟨-u.x, 0, 0⟩)
    ⟨fin64_zero, fin64_zero, fx⟩ ⟨fin64_zero, fin64_one, fin64_zero⟩ ⟨fx.neg, fin64_zero, fin64_zero⟩
  refine ⟨W, ?_, fW, ?_⟩
  · rw [← hW]
    unfold n_E2R_EN
    dsimp only
    rw [m1, hu1, cross3_e1 fu64, u2, u3, neg_zero]
    have hnorm : norm3 ((⟨0, 0, 0⟩ : V3 ℝ).flt : V3 (F64 B)) = F64.fin 0 := by
      have h := norm3_flt (B := B) (v := ⟨0, 0, 0⟩) (by rw [show len (⟨0, 0, 0⟩ : V3 ℝ) = 0 from len_eq_zero.mpr rfl]; positivity)
      rw [h]; unfold flNorm
      simp [B.rounds.zero]
    rw [hnorm, lit_zero, fin_eq, if_pos (by simp)]
    congr 1
    rw [hue, lit_one]
    unfold neg3 cross3 ofCols V3.flt
    dsimp only
    simp only [fin_neg, neg_zero, zero_mul', mul_zero', one_mul' fx.neg, sub_zero' fin64_zero, zero_sub' fx.neg, neg_neg]
  · have c2 : app (transp R) (-q) = -dirOf n := by
      rw [app_neg, hq, hm, app_dirOf hrot, hrot.trans_app]
    have c0 : app (transp R) (cross ⟨0, 1, 0⟩ (-q)) = col0 N := by
      rw [← cross_app hrot.transpose, ← hN1, c2, ← hN2, hN.cross12]
    have neg : |-u.x - -q.x| ≤ 22.4 * uu := by rwa [show -u.x - -q.x = -(u.x - q.x) by ring, abs_neg]
    refine closeM_of_cols ?_ ?_ ?_
    · rw [W0, ← c0]
      refine closeV_axes_tr hR ⟨?_, ?_, ?_⟩ <;> rw [hqe] <;> simp [cross, z0]
      rwa [abs_sub_comm, abs_sub_comm]
    · rw [W1, hN1]
      refine closeV_axes_tr hR ⟨?_, ?_, ?_⟩ <;> simp [z0]
    · rw [W2, hN2, ← c2]
      refine closeV_axes_tr hR ⟨neg, ?_, ?_⟩ <;> rw [hqe] <;> simp [z0]

end

end Nv
