import Verif.Props.Leave
import Verif.Props.GeoPath

/-!
# C157 Latitudes and courses along a path
-/

namespace Nv
open Spec Real
open XR (fin)

/-! ## The latitude reported for a position -/

theorem lat_of {n : V3 ℝ} (hn : UnitVec n) {R : M3 ℝ} (hR : IsRotation R) {lat lon : ℝ}
    (h : n_E2lat_lon n.fin R.fin = (fin lat, fin lon)) :
    sin lat = dot (northPole R) n ∧ cos lat = len (cross (northPole R) n) ∧ -(π / 2) ≤ lat ∧ lat ≤ π / 2 := by
  obtain ⟨lat', lon', h', r1, r2, -⟩ := C03_ranges n hn.ne R hR
  have e := C02_roundtrip_unit n hn R hR
  rw [h] at h' e
  have e0 : lat = lat' := by injection (congrArg Prod.fst h')
  rw [← e0] at r1 r2
  change lat_lon2n_E (fin lat) (fin lon) R.fin = _ at e
  rw [lat_lon2n_E_fin, V3.fin_inj] at e
  have hs : sin lat = dot (northPole R) n := by
    unfold northPole
    rw [← e, dot_app hR.transpose]
    simp [dot, geoNormal]
  have hc : 0 ≤ cos lat := Real.cos_nonneg_of_neg_pi_div_two_le_of_le r1 r2
  refine ⟨hs, ?_, r1, r2⟩
  have hl := lagrange (northPole R) n
  rw [(northPole_unit hR).len, hn.len, ← hs] at hl
  have hcs := sin_sq_add_cos_sq lat
  rw [← abs_of_nonneg hc, ← abs_of_nonneg (len_nonneg (cross (northPole R) n)), ← sq_eq_sq_iff_abs_eq_abs]
  linarith

/-! ## Clairaut's relation and the highest latitude -/

section
variable {A B C : V3 ℝ} (hA : UnitVec A) (hB : UnitVec B) (hp : ProperPath A B) {t : ℝ} (ht0 : 0 ≤ t) (ht1 : t < 1)
  (hC : interpolate (A.fin, B.fin) (fin t) = C.fin)
  {R : M3 ℝ} (hR : IsRotation R) (hpole : cross (northPole R) C ≠ 0) {a : ℝ} (ha : 0 < a) {h : ℝ}
  (hh : n_EA_E_and_n_EB_E2azimuth C.fin B.fin (fin a) (fin 0) R.fin = fin h)
  {lat lon : ℝ} (hl : n_E2lat_lon C.fin R.fin = (fin lat, fin lon))
include hA hB hp ht0 ht1 hC hR hpole ha hh hl

/-- the inclination of the great circle -/
theorem clairaut_normal : sin h * cos lat = dot (dirOf (cross A B)) (northPole R) ∧ 0 < cos lat := by
  obtain ⟨hf, e⟩ := leave_frame hA hB hp ht0 ht1 hC hR hpole ha hh
  obtain ⟨-, hc, -⟩ := lat_of hf.un hR hl
  have hlp := len_pos hpole
  refine ⟨?_, by rw [hc]; exact hlp⟩
  have h1 : dot (dirOf (cross (northPole R) C)) (northPole R) = 0 := by
    rw [dot_dirOf_left, dot_cross_left_self, mul_zero]
  have h2 : dot (cross C (dirOf (cross (northPole R) C))) (northPole R) = len (cross (northPole R) C) := by
    have e1 : dot (cross C (dirOf (cross (northPole R) C))) (northPole R) = dot (dirOf (cross (northPole R) C)) (cross (northPole R) C) := by
      unfold dot cross; ring
    rw [e1, dot_dirOf_left, dot_self]
    field_simp
  have : dot (sin h • cross C (dirOf (cross (northPole R) C)) - cos h • dirOf (cross (northPole R) C)) (northPole R) =
      sin h * dot (cross C (dirOf (cross (northPole R) C))) (northPole R) - cos h * dot (dirOf (cross (northPole R) C)) (northPole R) := by
    unfold dot; simp; ring
  rw [e, this, h1, h2, hc]
  ring

/-- **C157** Clairaut's relation at any two positions of the path; the path heads east of north everywhere, or west of north everywhere, or along a
meridian everywhere -/
theorem C157_clairaut {C' : V3 ℝ} {t' : ℝ} (ht0' : 0 ≤ t') (ht1' : t' < 1) (hC' : interpolate (A.fin, B.fin) (fin t') = C'.fin)
    (hpole' : cross (northPole R) C' ≠ 0) {h' : ℝ} (hh' : n_EA_E_and_n_EB_E2azimuth C'.fin B.fin (fin a) (fin 0) R.fin = fin h')
    {lat' lon' : ℝ} (hl' : n_E2lat_lon C'.fin R.fin = (fin lat', fin lon')) :
    sin h * cos lat = sin h' * cos lat' ∧ (0 < sin h ↔ 0 < sin h') ∧ (sin h < 0 ↔ sin h' < 0) ∧ (sin h = 0 ↔ sin h' = 0) := by
  obtain ⟨e, p⟩ := clairaut_normal hA hB hp ht0 ht1 hC hR hpole ha hh hl
  obtain ⟨e', p'⟩ := clairaut_normal hA hB hp ht0' ht1' hC' hR hpole' ha hh' hl'
  have ee : sin h * cos lat = sin h' * cos lat' := e.trans e'.symm
  refine ⟨ee, ?_, ?_, ?_⟩
  · rw [← mul_pos_iff_of_pos_right p, ← mul_pos_iff_of_pos_right (a := sin h') p', ee]
  · constructor <;> intro h0 <;> nlinarith
  · constructor
    · intro h0; rw [h0, zero_mul] at ee; exact (mul_eq_zero.1 ee.symm).resolve_right p'.ne'
    · intro h0; rw [h0, zero_mul] at ee; exact (mul_eq_zero.1 ee).resolve_right p.ne'

/-- **C157** the great circle never gets nearer to a pole than Clairaut's constant says -/
theorem C157_highest {Q : V3 ℝ} (hQ : OnCircle A B Q) {latQ lonQ : ℝ} (hlQ : n_E2lat_lon Q.fin R.fin = (fin latQ, fin lonQ)) :
    |sin h * cos lat| ≤ cos latQ := by
  obtain ⟨e, -⟩ := clairaut_normal hA hB hp ht0 ht1 hC hR hpole ha hh hl
  obtain ⟨uQ, pQ⟩ := (onCircle_iff_normal hp).1 hQ
  obtain ⟨sQ, cQ, r1, r2⟩ := lat_of uQ hR hlQ
  have hc : 0 ≤ cos latQ := Real.cos_nonneg_of_neg_pi_div_two_le_of_le r1 r2
  have hN : UnitVec (dirOf (cross A B)) := hp.dirOf_unit
  have hk := northPole_unit hR
  rw [e, ← abs_of_nonneg hc]
  apply sq_le_sq.1
  have hcs := sin_sq_add_cos_sq latQ
  -- Bessel's inequality for the orthonormal vectors `N`, `Q`
  have hb : dot (dirOf (cross A B)) (northPole R) ^ 2 + dot (northPole R) Q ^ 2 ≤ 1 := by
    generalize dirOf (cross A B) = N at *
    generalize northPole R = k at *
    have h0 : 0 ≤ dot (k - dot N k • N - dot k Q • Q) (k - dot N k • N - dot k Q • Q) := by rw [dot_self]; positivity
    have e1 : dot (k - dot N k • N - dot k Q • Q) (k - dot N k • N - dot k Q • Q) =
        dot k k + dot N k ^ 2 * dot N N + dot k Q ^ 2 * dot Q Q - 2 * dot N k ^ 2 - 2 * dot k Q ^ 2 + 2 * dot N k * dot k Q * dot N Q := by
      unfold dot; simp; ring
    rw [e1, hk.dot, hN.dot, uQ.dot, pQ] at h0
    linarith
  rw [← sQ] at hb
  linarith

/-- **C157** the latitude at `C` is an extreme one (no position of the great circle is nearer to a pole) exactly if the path heads due east or due
west there -/
theorem C157_vertex :
    (∀ (Q : V3 ℝ) (latQ lonQ : ℝ), OnCircle A B Q → n_E2lat_lon Q.fin R.fin = (fin latQ, fin lonQ) → |latQ| ≤ |lat|) ↔ cos h = 0 := by
  obtain ⟨e, p⟩ := clairaut_normal hA hB hp ht0 ht1 hC hR hpole ha hh hl
  obtain ⟨hu, k, hk, ek⟩ := leave_point hA hB hp ht1 hC
  obtain ⟨sC, cC, r1, r2⟩ := lat_of hu hR hl
  constructor
  · intro hall
    by_contra hch
    -- the vertex of the great circle
    have hN : UnitVec (dirOf (cross A B)) := hp.dirOf_unit
    have hkp := northPole_unit hR
    have hlt : dot (dirOf (cross A B)) (northPole R) ^ 2 < cos lat ^ 2 := by
      rw [← e, mul_pow]
      have h1 := sin_sq_add_cos_sq h
      have h2 : 0 < cos h ^ 2 := by positivity
      have h3 : 0 < cos lat ^ 2 := by positivity
      nlinarith
    have hcs := sin_sq_add_cos_sq lat
    set N := dirOf (cross A B) with hNdef
    set kp := northPole R with hkdef
    have hv : dot kp (kp - dot N kp • N) = 1 - dot N kp ^ 2 := by
      have : dot kp (kp - dot N kp • N) = dot kp kp - dot N kp ^ 2 := by unfold dot; simp; ring
      rw [this, hkp.dot]
    have hvpos : 0 < 1 - dot N kp ^ 2 := by nlinarith [sq_nonneg (sin lat)]
    have hvne : kp - dot N kp • N ≠ 0 := by
      intro h0; rw [h0, show dot kp 0 = 0 by simp [dot]] at hv; linarith
    have hvlen : len (kp - dot N kp • N) ^ 2 = 1 - dot N kp ^ 2 := by
      have : dot (kp - dot N kp • N) (kp - dot N kp • N) = dot kp kp - 2 * dot N kp ^ 2 + dot N kp ^ 2 * dot N N := by unfold dot; simp; ring
      rw [← dot_self, this, hkp.dot, hN.dot]; ring
    have hQ : OnCircle A B (dirOf (kp - dot N kp • N)) := by
      rw [onCircle_iff_normal hp]
      refine ⟨dirOf_unit hvne, ?_⟩
      have : dot N (kp - dot N kp • N) = dot N kp - dot N kp * dot N N := by unfold dot; simp; ring
      rw [← hNdef, dot_dirOf_right, this, hN.dot]; ring
    obtain ⟨latQ, lonQ, hlQ, -⟩ := C03_ranges _ (dirOf_unit hvne).ne R hR
    obtain ⟨sQ, cQ, q1, q2⟩ := lat_of (dirOf_unit hvne) hR hlQ
    have hb := hall _ latQ lonQ hQ hlQ
    have hsQ : sin latQ ^ 2 = 1 - dot N kp ^ 2 := by
      rw [sQ, ← hkdef, dot_dirOf_right, hv, ← hvlen]
      have := len_pos hvne
      field_simp
    have hcos : cos lat ≤ cos latQ := by
      rw [← Real.cos_abs lat, ← Real.cos_abs latQ]
      exact Real.cos_le_cos_of_nonneg_of_le_pi (abs_nonneg _) (abs_le.2 ⟨by linarith [Real.pi_pos], by linarith [Real.pi_pos]⟩) hb
    have hcsQ := sin_sq_add_cos_sq latQ
    nlinarith
  · intro hch Q latQ lonQ hQ hlQ
    have hb := C157_highest hA hB hp ht0 ht1 hC hR hpole ha hh hl hQ hlQ
    have hs : |sin h| = 1 := by
      have h1 := sin_sq_add_cos_sq h
      rw [hch] at h1
      rw [← sq_eq_sq₀ (abs_nonneg _) zero_le_one, sq_abs]; linarith
    rw [abs_mul, hs, one_mul, abs_of_pos p] at hb
    obtain ⟨uQ, -⟩ := (onCircle_iff_normal hp).1 hQ
    obtain ⟨-, -, q1, q2⟩ := lat_of uQ hR hlQ
    by_contra hlt
    push Not at hlt
    have := Real.cos_lt_cos_of_nonneg_of_le_pi (abs_nonneg lat) (abs_le.2 ⟨by linarith [Real.pi_pos], by linarith [Real.pi_pos]⟩ : |latQ| ≤ π) hlt
    rw [Real.cos_abs, Real.cos_abs] at this
    linarith

end

end Nv
