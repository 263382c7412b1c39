import Verif.Float.GreatCircle
import Verif.Props.Distance

/-!
# C94, C95: cross track distance and `on_great_circle` in binary64

`c = dirOf (cross a b)` is the exact normal of the path from `a` to `b`.  `s` is a lower bound of `|a × b|` (the sine of the length of
the path): the rounding error grows like `1 / s`.  `δ` is an upper bound of the deviation of the length of `n` from one.
-/

namespace Nv
open Spec F64
variable (B : Binary64)

theorem dot_dir (c n : V3 ℝ) : dot c n = len n * dot c (dirOf n) := by
  rw [← dot_smul_right, smul_dirOf]

theorem abs_dot_dir {c n : V3 ℝ} (hc : UnitVec c) (hn : n ≠ 0) : |dot c (dirOf n)| ≤ 1 := by
  have := abs_dot_le c (dirOf n)
  rwa [hc.len, (dirOf_unit hn).len, one_mul] at this

/-- the computed sine against the exact one of the direction of `n` -/
theorem sin_theta_dir {a b n : V3 ℝ} {s δ : ℝ} (fa : IsF64V a) (fb : IsF64V b) (fn : IsF64V n) (a2 : len a ≤ 1.1) (b2 : len b ≤ 1.1)
    (s0 : 1e-9 ≤ s) (hs : s ≤ len (cross a b)) (hδ : |len n - 1| ≤ δ) (hδ' : δ ≤ 1e-6) :
    App (-(dot3 (great_circle_normal (a.flt : V3 (F64 B)) b.flt) n.flt)) (-dot (dirOf (cross a b)) (dirOf n)) (42.4 * uu / s + δ) := by
  have sp : 0 < s := lt_of_lt_of_le (by norm_num) s0
  have hc0 : cross a b ≠ 0 := by intro h; rw [h] at hs; simp [len] at hs; linarith
  obtain ⟨n1, n2⟩ := abs_le.mp hδ
  have nl : 0.9 ≤ len n := by norm_num at hδ' ⊢; linarith
  have n0 : n ≠ 0 := by rintro rfl; simp [len] at nl; norm_num at nl
  refine (sin_theta_flt (B := B) fa fb fn a2 b2 (by norm_num at hδ' ⊢; linarith) s0 hs).shift (b := δ) ?_ le_rfl
  rw [dot_dir _ n, show -(len n * dot (dirOf (cross a b)) (dirOf n)) - -dot (dirOf (cross a b)) (dirOf n) =
    -((len n - 1) * dot (dirOf (cross a b)) (dirOf n)) by ring, abs_neg, abs_mul]
  have := mul_le_mul hδ (abs_dot_dir (dirOf_unit hc0) n0) (abs_nonneg _) ((abs_nonneg _).trans hδ)
  linarith

theorem s_le {a b : V3 ℝ} {s : ℝ} (a2 : len a ≤ 1.1) (b2 : len b ≤ 1.1) (hs : s ≤ len (cross a b)) : s ≤ 1.21 := by
  have := len_cross_le a b
  have := mul_le_mul a2 b2 (len_nonneg' b) (by norm_num)
  norm_num at *; linarith

/-- **C94** the Euclidean cross track distance in rounded arithmetic -/
theorem C94_euclidean {a b n : V3 ℝ} {s δ : ℝ} (fa : IsF64V a) (fb : IsF64V b) (fn : IsF64V n) (a2 : len a ≤ 1.1) (b2 : len b ≤ 1.1)
    (s0 : 1e-9 ≤ s) (hs : s ≤ len (cross a b)) (hδ : |len n - 1| ≤ δ) (hδ' : δ ≤ 1e-6) {R : ℝ} (fR : IsF64 R) (R1 : 1e-20 ≤ R) (R2 : R ≤ 1e20) :
    ∃ d, cross_track_distance (a.flt, b.flt) (n.flt : V3 (F64 B)) "euclidean" (F64.fin R) = .ok (F64.fin d) ∧
      |d - -dot (dirOf (cross a b)) (dirOf n) * R| ≤ (4.9e-15 / s + 1.001 * δ) * R := by
  have sp : 0 < s := lt_of_lt_of_le (by norm_num) s0
  have hs2 := s_le a2 b2 hs
  have hc0 : cross a b ≠ 0 := by intro h; rw [h] at hs; simp [len] at hs; linarith
  have δ0 : 0 ≤ δ := (abs_nonneg _).trans hδ
  obtain ⟨n1, n2⟩ := abs_le.mp hδ
  have nl : 0.9 ≤ len n := by norm_num at hδ' ⊢; linarith
  have n0 : n ≠ 0 := by rintro rfl; simp [len] at nl; norm_num at nl
  have h := sin_theta_dir B fa fb fn a2 b2 s0 hs hδ hδ'
  have hx : |(-dot (dirOf (cross a b)) (dirOf n))| ≤ 1 := by rw [abs_neg]; exact abs_dot_dir (dirOf_unit hc0) n0
  have hR0 : 0 < R := lt_of_lt_of_le (by norm_num) R1
  have hu := uu_pos
  obtain ⟨ε, hε⟩ : ∃ ε, ε = 42.4 * uu / s + δ := ⟨_, rfl⟩
  have ε1 : ε ≤ 1e-5 := by
    have : 42.4 * uu / s ≤ 5e-6 := by
      rw [div_le_iff₀ sp]
      have : 42.4 * uu ≤ 5e-6 * 1e-9 := by unfold uu; norm_num
      norm_num at this s0 ⊢; linarith
    rw [hε]; norm_num at this hδ' ⊢; linarith
  have ε0 : 0 ≤ ε := by rw [hε]; positivity
  rw [← hε] at h
  have e1 : ∀ r : ℝ, 1 * 0 + r * ε + ε * 0 + uu * (r + (1 * 0 + r * ε + ε * 0)) + 1 / 10 ^ 60 = r * ε + uu * r + uu * r * ε + 1 / 10 ^ 60 := fun r => by ring
  obtain ⟨d, h1, -, h3⟩ := h.mul (App.exact fR) hx (le_refl |R|) (b := R) (e := (4.9e-15 / s + 1.001 * δ) * R)
    (by rw [abs_mul, abs_of_pos hR0]; exact mul_le_of_le_one_left hR0.le hx) (by
      rw [abs_of_pos hR0, e1]
      have q1 : (1 : ℝ) / 10 ^ 60 ≤ 1e-40 * R := by
        have := mul_le_mul_of_nonneg_left R1 (show (0:ℝ) ≤ 1e-40 by norm_num)
        norm_num at this ⊢; linarith
      have q2 : ε + uu + uu * ε + 1e-40 ≤ 4.9e-15 / s + 1.001 * δ := by
        have a1 : uu * ε ≤ uu * 1e-5 := mul_le_mul_of_nonneg_left ε1 hu.le
        have a2 : (uu + uu * 1e-5 + 1e-40) ≤ 1.3 * uu / s := by
          rw [le_div_iff₀ sp]
          have : (uu + uu * 1e-5 + 1e-40) * s ≤ (uu + uu * 1e-5 + 1e-40) * 1.21 := mul_le_mul_of_nonneg_left hs2 (by positivity)
          have : (uu + uu * 1e-5 + 1e-40) * 1.21 ≤ 1.3 * uu := by unfold uu; norm_num
          linarith
        have a3 : 42.4 * uu / s + 1.3 * uu / s ≤ 4.9e-15 / s := by
          rw [← add_div]
          exact div_le_div_of_nonneg_right (by unfold uu; norm_num) sp.le
        rw [hε]
        rw [hε] at a1
        linarith
      have q3 := mul_le_mul_of_nonneg_right q2 hR0.le
      nlinarith) (by
      rw [abs_of_pos hR0]
      have : R * ε ≤ 1e20 * 1e-5 := mul_le_mul R2 ε1 ε0 (by norm_num)
      norm_num at this R2 ⊢; linarith)
  refine ⟨d, ?_, h3⟩
  rw [← h1]
  rfl

theorem toList_gc : "greatcircle".toList = ['g', 'r', 'e', 'a', 't', 'c', 'i', 'r', 'c', 'l', 'e'] := by decide

/-- `arcsin` of a computed sine, times the radius -/
theorem arcsin_mul_flt {X : F64 B} {x ε R m c : ℝ} (hX : App X x ε) (hx : |x| + ε ≤ m) (hc : 0.5 ≤ c) (hm : m ^ 2 + c ^ 2 ≤ 1)
    (hε : ε ≤ 1e-4) (fR : IsF64 R) (R1 : 1e-20 ≤ R) (R2 : R ≤ 1e20) :
    ∃ d, PyFloat.arcsin X * F64.fin R = F64.fin d ∧ |d - Real.arcsin x * R| ≤ (1.0001 * ε / c + 5.01 * uu * |Real.arcsin x| + 1e-35) * R := by
  obtain ⟨t, rfl, ft, ht⟩ := hX
  have ε0 : 0 ≤ ε := (abs_nonneg _).trans ht
  have hu := uu_pos
  have hR0 : 0 < R := lt_of_lt_of_le (by norm_num) R1
  have hc0 : 0 < c := lt_of_lt_of_le (by norm_num) hc
  have hx1 : |x| ≤ m := by linarith
  have ht1 : |t| ≤ m := by
    have := abs_sub_abs_le_abs_sub t x
    linarith
  have hm0 : 0 ≤ m := (abs_nonneg _).trans hx1
  have hm1 : m ≤ 1 := by nlinarith
  obtain ⟨t1, t2⟩ := abs_le.mp (ht1.trans hm1)
  have hl := arcsin_lip ht1 hx1 hc0 hm hm1
  have hl2 : |Real.arcsin t - Real.arcsin x| ≤ ε / c := hl.trans (div_le_div_of_nonneg_right ht hc0.le)
  have hq : ε / c ≤ 2 * ε := by
    rw [div_le_iff₀ hc0]
    nlinarith
  obtain ⟨A, hA⟩ : ∃ A, A = |Real.arcsin x| := ⟨_, rfl⟩
  have hA0 : 0 ≤ A := hA ▸ abs_nonneg _
  have hA2 : A ≤ 2 := by
    rw [hA, abs_le]
    have := Real.pi_lt_d2
    exact ⟨by linarith [Real.neg_pi_div_two_le_arcsin x], by linarith [Real.arcsin_le_pi_div_two x]⟩
  have hT : |Real.arcsin t| ≤ A + ε / c := by
    have := abs_sub_abs_le_abs_sub (Real.arcsin t) (Real.arcsin x)
    rw [hA]; linarith
  have hB : |B.arcsin t - Real.arcsin t| ≤ 4 * uu * (A + ε / c) + 1e-60 :=
    libm_close (B.arcsin_close t t1 t2) hT (by norm_num)
  have hD : |B.arcsin t - Real.arcsin x| ≤ ε / c + 4 * uu * (A + ε / c) + 1e-60 := by
    have := abs_sub_le (B.arcsin t) (Real.arcsin t) (Real.arcsin x)
    linarith
  obtain ⟨ω, hω⟩ : ∃ ω, ω = ε / c + 4 * uu * (A + ε / c) + 1e-60 := ⟨_, rfl⟩
  rw [← hω] at hD
  have q0 : 0 ≤ ε / c := by positivity
  have hu1 : uu ≤ 1e-10 := by unfold uu; norm_num
  have ω1 : ω ≤ 1e-3 := by
    have : 4 * uu * (A + ε / c) ≤ 4 * 1e-10 * (2 + 2 * 1e-4) :=
      mul_le_mul (by linarith) (by linarith) (by positivity) (by norm_num)
    rw [hω]; norm_num at this hε ⊢; linarith
  have ω0 : 0 ≤ ω := (abs_nonneg _).trans hD
  have hApp : App (F64.fin (B.arcsin t) : F64 B) (Real.arcsin x) ω := ⟨_, rfl, B.arcsin_val t, hD⟩
  obtain ⟨d, h1, -, h3⟩ := hApp.mul (App.exact fR) (le_of_eq hA.symm) (le_refl |R|) (b := A * R)
    (e := (1.0001 * ε / c + 5.01 * uu * A + 1e-35) * R) (by rw [abs_mul, abs_of_pos hR0, hA]) (by
      rw [abs_of_pos hR0]
      have q1 : (1 : ℝ) / 10 ^ 60 ≤ 1e-40 * R := by
        have := mul_le_mul_of_nonneg_left R1 (show (0:ℝ) ≤ 1e-40 by norm_num)
        norm_num at this ⊢; linarith
      have q2 : ω + uu * A + uu * ω + 1e-40 ≤ 1.0001 * ε / c + 5.01 * uu * A + 1e-35 := by
        have a1 : uu * ω = uu * (ε / c) + 4 * uu * uu * (A + ε / c) + uu * 1e-60 := by rw [hω]; ring
        have a2 : uu * (ε / c) ≤ 1e-10 * (ε / c) := mul_le_mul_of_nonneg_right hu1 q0
        have a3 : 4 * uu * uu * (A + ε / c) ≤ 4 * 1e-10 * uu * (A + ε / c) := by
          apply mul_le_mul_of_nonneg_right _ (by positivity)
          apply mul_le_mul_of_nonneg_right _ hu.le
          linarith
        have a4 : 0 ≤ uu * A := by positivity
        have a5 : uu * 1e-60 ≤ 1e-60 := by nlinarith
        rw [a1, hω, mul_div_assoc]
        norm_num at a2 a3 a5 ⊢
        nlinarith
      have q3 := mul_le_mul_of_nonneg_right q2 hR0.le
      nlinarith) (by
      rw [abs_of_pos hR0]
      have a1 : R * ω ≤ 1e20 * 1e-3 := mul_le_mul R2 ω1 ω0 (by norm_num)
      have a2 : A * R ≤ 2 * 1e20 := mul_le_mul hA2 R2 hR0.le (by norm_num)
      norm_num at a1 a2 ⊢; linarith)
  refine ⟨d, ?_, ?_⟩
  · rw [fin_arcsin t1 t2, h1]
  · rw [← hA]; exact h3

/-- **C94** the great circle cross track distance in rounded arithmetic, for positions within 53 degrees of the circle -/
theorem C94_greatcircle {a b n : V3 ℝ} {s δ : ℝ} (fa : IsF64V a) (fb : IsF64V b) (fn : IsF64V n) (a2 : len a ≤ 1.1) (b2 : len b ≤ 1.1)
    (s0 : 1e-9 ≤ s) (hs : s ≤ len (cross a b)) (hδ : |len n - 1| ≤ δ) (hδ' : δ ≤ 1e-6) {R : ℝ} (fR : IsF64 R) (R1 : 1e-20 ≤ R) (R2 : R ≤ 1e20)
    (h8 : |dot (dirOf (cross a b)) (dirOf n)| ≤ 0.8) :
    ∃ d, cross_track_distance (a.flt, b.flt) (n.flt : V3 (F64 B)) (radius := F64.fin R) = .ok (F64.fin d) ∧
      |d - Real.arcsin (-dot (dirOf (cross a b)) (dirOf n)) * R| ≤ (9e-15 / s + 1.67 * δ) * R := by
  have sp : 0 < s := lt_of_lt_of_le (by norm_num) s0
  have hs2 := s_le a2 b2 hs
  have δ0 : 0 ≤ δ := (abs_nonneg _).trans hδ
  have hu := uu_pos
  have hR0 : 0 < R := lt_of_lt_of_le (by norm_num) R1
  have h := sin_theta_dir B fa fb fn a2 b2 s0 hs hδ hδ'
  have ε1 : 42.4 * uu / s + δ ≤ 1e-5 := by
    have : 42.4 * uu / s ≤ 5e-6 := by
      rw [div_le_iff₀ sp]
      have : 42.4 * uu ≤ 5e-6 * 1e-9 := by unfold uu; norm_num
      norm_num at this s0 ⊢; linarith
    norm_num at this hδ' ⊢; linarith
  obtain ⟨d, h1, h2⟩ := arcsin_mul_flt B h (m := 0.80001) (c := 0.59998) (R := R) (by rw [abs_neg]; norm_num at ε1 h8 ⊢; linarith) (by norm_num)
    (by norm_num) (by norm_num at ε1 ⊢; linarith) fR R1 R2
  refine ⟨d, ?_, h2.trans (mul_le_mul_of_nonneg_right ?_ hR0.le)⟩
  · rw [← h1]
    simp only [cross_track_distance, toList_gc]
    rfl
  have hA : |Real.arcsin (-dot (dirOf (cross a b)) (dirOf n))| ≤ 1.58 := by
    have := Real.pi_lt_d2
    rw [abs_le]
    exact ⟨by linarith [Real.neg_pi_div_two_le_arcsin (-dot (dirOf (cross a b)) (dirOf n))], by linarith [Real.arcsin_le_pi_div_two (-dot (dirOf (cross a b)) (dirOf n))]⟩
  have a1 : 5.01 * uu * |Real.arcsin (-dot (dirOf (cross a b)) (dirOf n))| ≤ 5.01 * uu * 1.58 := mul_le_mul_of_nonneg_left hA (by positivity)
  have a2 : 5.01 * uu * 1.58 + 1e-35 ≤ 9.7 * uu / s := by
    rw [le_div_iff₀ sp]
    have : (5.01 * uu * 1.58 + 1e-35) * s ≤ (5.01 * uu * 1.58 + 1e-35) * 1.21 := mul_le_mul_of_nonneg_left hs2 (by positivity)
    have : (5.01 * uu * 1.58 + 1e-35) * 1.21 ≤ 9.7 * uu := by unfold uu; norm_num
    linarith
  have a3 : 1.0001 * (42.4 * uu / s + δ) / 0.59998 = (1.0001 * 42.4 / 0.59998) * uu / s + 1.0001 / 0.59998 * δ := by ring
  have a4 : 1.0001 / 0.59998 * δ ≤ 1.67 * δ := mul_le_mul_of_nonneg_right (by norm_num) δ0
  have a5 : (1.0001 * 42.4 / 0.59998) * uu / s + 9.7 * uu / s ≤ 9e-15 / s := by
    rw [← add_div]
    exact div_le_div_of_nonneg_right (by unfold uu; norm_num) sp.le
  rw [a3]
  linarith

/-- the smallest angle between `n` and a position on the great circle -/
theorem least_angle {a b n : V3 ℝ} (hp : cross a b ≠ 0) (hn : n ≠ 0) :
    IsLeast {d | ∃ Q, OnCircle a b Q ∧ d = angle n Q} |Real.arcsin (-dot (dirOf (cross a b)) (dirOf n))| := by
  have hP := dirOf_unit hn
  have e : ∀ {Q : V3 ℝ}, UnitVec Q → angle n Q = angle (dirOf n) Q := by
    intro Q hQ
    have l0 := len_pos hn
    unfold angle
    rw [dot_dirOf_left, hP.len]
    congr 1
    field_simp
  obtain ⟨x, hx, ⟨Q, hQ, hd⟩, hmin⟩ := C20_is_least_distance a b (dirOf n) hp hP 1 one_pos
  rw [cross_track_fin hp hP, Except.ok.injEq, XR.fin_inj, mul_one] at hx
  rw [hx]
  rw [C18_eq_angle _ _ hP.ne hQ.1.ne, XR.fin_inj, mul_one] at hd
  refine ⟨⟨Q, hQ, by rw [e hQ.1, hd]⟩, ?_⟩
  rintro d ⟨Q', hQ', rfl⟩
  refine hmin ⟨Q', hQ', ?_⟩
  rw [C18_eq_angle _ _ hP.ne hQ'.1.ne, XR.fin_inj, mul_one, e hQ'.1]

/-- **C94** the size of the computed distance is the smallest distance to a position on the great circle, up to rounding -/
theorem C94_least {a b n : V3 ℝ} {s δ : ℝ} (fa : IsF64V a) (fb : IsF64V b) (fn : IsF64V n) (a2 : len a ≤ 1.1) (b2 : len b ≤ 1.1)
    (s0 : 1e-9 ≤ s) (hs : s ≤ len (cross a b)) (hδ : |len n - 1| ≤ δ) (hδ' : δ ≤ 1e-6) {R : ℝ} (fR : IsF64 R) (R1 : 1e-20 ≤ R) (R2 : R ≤ 1e20)
    {D : ℝ} (hD : IsLeast {d | ∃ Q, OnCircle a b Q ∧ d = angle n Q} D) (h8 : D ≤ 0.92) :
    ∃ d, cross_track_distance (a.flt, b.flt) (n.flt : V3 (F64 B)) (radius := F64.fin R) = .ok (F64.fin d) ∧
      |(|d|) - D * R| ≤ (9e-15 / s + 1.67 * δ) * R := by
  have hc0 : cross a b ≠ 0 := by intro h; rw [h] at hs; simp [len] at hs; norm_num at s0; linarith
  obtain ⟨n1, n2⟩ := abs_le.mp hδ
  have nl : 0.9 ≤ len n := by norm_num at hδ' ⊢; linarith
  have n0 : n ≠ 0 := by rintro rfl; simp [len] at nl; norm_num at nl
  have hR0 : 0 < R := lt_of_lt_of_le (by norm_num) R1
  have e := hD.unique (least_angle hc0 n0)
  have h8' : |dot (dirOf (cross a b)) (dirOf n)| ≤ 0.8 := by
    rw [e, ← abs_neg (Real.arcsin _), ← Real.arcsin_neg, neg_neg] at h8
    obtain ⟨k1, k2⟩ := abs_le.mp h8
    have hx := abs_le.mp (abs_dot_dir (dirOf_unit hc0) n0)
    have hs1 := Real.sin_arcsin hx.1 hx.2
    have hb : Real.sin 0.92 ≤ 0.8 := by
      have := Real.sin_bound (x := 0.92) (by norm_num)
      have := (abs_le.mp this).2
      norm_num at this ⊢
      linarith
    have hπ := Real.pi_gt_d2
    rw [abs_le]
    constructor
    · have := Real.sin_le_sin_of_le_of_le_pi_div_two (x := -0.92) (y := Real.arcsin (dot (dirOf (cross a b)) (dirOf n))) (by linarith) (Real.arcsin_le_pi_div_two _) (by linarith)
      rw [Real.sin_neg, hs1] at this
      linarith
    · have := Real.sin_le_sin_of_le_of_le_pi_div_two (x := Real.arcsin (dot (dirOf (cross a b)) (dirOf n))) (y := 0.92) (Real.neg_pi_div_two_le_arcsin _) (by linarith) k2
      rw [hs1] at this
      linarith
  obtain ⟨d, h1, h2⟩ := C94_greatcircle B fa fb fn a2 b2 s0 hs hδ hδ' fR R1 R2 h8'
  refine ⟨d, h1, le_trans ?_ h2⟩
  have := abs_abs_sub_abs_le_abs_sub d (Real.arcsin (-dot (dirOf (cross a b)) (dirOf n)) * R)
  rwa [abs_mul, abs_of_pos hR0, ← e] at this

/-- **C94** far from the circle the result can be NaN: the position above the north pole of the path from the x-axis to the y-axis
whose length is one ulp above one, as far as 90 degrees can be -/
theorem C94_nan {R : F64 B} :
    cross_track_distance (V3.flt ⟨1, 0, 0⟩, V3.flt ⟨0, 1, 0⟩) (V3.flt ⟨0, 0, 1 + 2 ^ (-52 : ℤ)⟩ : V3 (F64 B)) (radius := R) =
      .ok PyFloat.nan := by
  have e52 : IsF64 (1 + (2 : ℝ) ^ (-52 : ℤ)) := ⟨2 ^ 52 + 1, -52, by norm_num, by norm_num, by norm_num⟩
  have f52 : Fin64 (1 + (2 : ℝ) ^ (-52 : ℤ)) := fin64_of_le e52 (by norm_num)
  have hc : cross3 (V3.flt ⟨1, 0, 0⟩ : V3 (F64 B)) (V3.flt ⟨0, 1, 0⟩) = V3.flt ⟨0, 0, 1⟩ := by
    unfold cross3 V3.flt
    simp only [zero_mul', mul_zero', one_mul' fin64_one, sub_zero' fin64_zero, sub_zero' fin64_one]
  have hl : len (⟨0, 0, 1⟩ : V3 ℝ) = 1 := by simp [len]
  have hN : flNorm B.fl 0 0 1 = 1 := by
    unfold flNorm
    have f1 := B.rounds.exact isF64_one
    simp [B.rounds.zero, f1]
  have hg : great_circle_normal (V3.flt ⟨1, 0, 0⟩ : V3 (F64 B)) (V3.flt ⟨0, 1, 0⟩) = V3.flt ⟨0, 0, 1⟩ := by
    have hd : ∀ x : ℝ, Fin64 x → (F64.fin x / F64.fin 1 : F64 B) = F64.fin x := by
      intro x hx
      change round B (XR.div (.fin x) (.fin 1)) = _
      rw [XR.div, if_neg one_ne_zero, div_one]; exact rnd_exact hx
    rw [great_circle_normal, hc]
    unfold unit
    have ht := addTiny_flNorm (B := B) (v := ⟨0, 0, 1⟩) (by rw [hN]; norm_num) (by rw [hN]; exact one_le_pow₀ (by norm_num))
    dsimp only at ht ⊢
    rw [norm3_wide (by rw [hl]; exact one_le_pow₀ (by norm_num)), ht, lit_zero, fin_eq, if_neg (by simp [hN])]
    simp only [hN]
    unfold div3 V3.flt
    simp only [hd 0 fin64_zero, hd 1 fin64_one]
  have hd : -(dot3 (V3.flt ⟨0, 0, 1⟩ : V3 (F64 B)) (V3.flt ⟨0, 0, 1 + (2 : ℝ) ^ (-52 : ℤ)⟩)) = F64.fin (-(1 + (2 : ℝ) ^ (-52 : ℤ))) := by
    unfold dot3 V3.flt
    simp only [zero_mul', mul_zero', one_mul' f52, zero_add' fin64_zero, zero_add' f52, fin_neg]
  have hn : (PyFloat.arcsin (F64.fin (-(1 + (2 : ℝ) ^ (-52 : ℤ)))) : F64 B) = PyFloat.nan :=
    if_pos (Or.inl (by norm_num))
  simp only [cross_track_distance, toList_gc, hg, hd]
  rw [if_neg (by decide)]
  rw [great_circle_cross_track_distance, hn]
  rfl

/-! ## C95 -/

theorem sin92 : 0.78 ≤ Real.sin 0.92 := by
  have := Real.sin_bound (x := 0.92) (by norm_num)
  have := (abs_le.mp this).1
  norm_num at this ⊢
  linarith

theorem abs_cross_track_flt {a b n : V3 ℝ} {R d : F64 B} (h : cross_track_distance (a.flt, b.flt) (n.flt : V3 (F64 B)) (radius := R) = .ok d) :
    abs_cross_track (a.flt, b.flt) n.flt R = PyFloat.abs d := by
  unfold abs_cross_track; rw [h]

/-- **C95** a position whose distance from the great circle is below the tolerance by more than the rounding error is on it -/
theorem C95_on {a b n : V3 ℝ} {s δ : ℝ} (fa : IsF64V a) (fb : IsF64V b) (fn : IsF64V n) (a2 : len a ≤ 1.1) (b2 : len b ≤ 1.1)
    (s0 : 1e-9 ≤ s) (hs : s ≤ len (cross a b)) (hδ : |len n - 1| ≤ δ) (hδ' : δ ≤ 1e-6) {R : ℝ} (fR : IsF64 R) (R1 : 1e-20 ≤ R) (R2 : R ≤ 1e20)
    {t : ℝ} (ht : t ≤ 0.92 * R) {Q : V3 ℝ} (hQ : OnCircle a b Q) (hd : angle n Q * R + (9e-15 / s + 1.67 * δ) * R ≤ t) :
    on_great_circle (a.flt, b.flt) (n.flt : V3 (F64 B)) (F64.fin R) (F64.fin t) = true := by
  have sp : 0 < s := lt_of_lt_of_le (by norm_num) s0
  have hc0 : cross a b ≠ 0 := by intro h; rw [h] at hs; simp [len] at hs; linarith
  obtain ⟨n1, n2⟩ := abs_le.mp hδ
  have δ0 : 0 ≤ δ := (abs_nonneg _).trans hδ
  have nl : 0.9 ≤ len n := by norm_num at hδ' ⊢; linarith
  have n0 : n ≠ 0 := by rintro rfl; simp [len] at nl; norm_num at nl
  have hR0 : 0 < R := lt_of_lt_of_le (by norm_num) R1
  have hL := least_angle hc0 n0
  obtain ⟨D, hD⟩ : ∃ D, D = |Real.arcsin (-dot (dirOf (cross a b)) (dirOf n))| := ⟨_, rfl⟩
  rw [← hD] at hL
  have hDQ := hL.2 ⟨Q, hQ, rfl⟩
  have hDR := mul_le_mul_of_nonneg_right hDQ hR0.le
  have hE : 0 ≤ (9e-15 / s + 1.67 * δ) * R := by positivity
  obtain ⟨d, h1, h2⟩ := C94_least B fa fb fn a2 b2 s0 hs hδ hδ' fR R1 R2 hL (by
    have : D * R ≤ 0.92 * R := by linarith
    exact le_of_mul_le_mul_right this hR0)
  rw [on_great_circle, abs_cross_track_flt B h1, fin_abs, fin_le, decide_eq_true_eq]
  have := (abs_le.mp h2).2
  linarith

/-- **C95** a position whose distance from every position of the great circle is above the tolerance by more than the rounding error
is not on it -/
theorem C95_off {a b n : V3 ℝ} {s δ : ℝ} (fa : IsF64V a) (fb : IsF64V b) (fn : IsF64V n) (a2 : len a ≤ 1.1) (b2 : len b ≤ 1.1)
    (s0 : 1e-9 ≤ s) (hs : s ≤ len (cross a b)) (hδ : |len n - 1| ≤ δ) (hδ' : δ ≤ 1e-6) {R : ℝ} (fR : IsF64 R) (R1 : 1e-20 ≤ R) (R2 : R ≤ 1e20)
    {t : ℝ} (ht : t ≤ 0.75 * R) (hd : ∀ Q, OnCircle a b Q → t + (9e-15 / s + 1.67 * δ) * R < angle n Q * R) :
    on_great_circle (a.flt, b.flt) (n.flt : V3 (F64 B)) (F64.fin R) (F64.fin t) = false := by
  have sp : 0 < s := lt_of_lt_of_le (by norm_num) s0
  have hc0 : cross a b ≠ 0 := by intro h; rw [h] at hs; simp [len] at hs; linarith
  obtain ⟨n1, n2⟩ := abs_le.mp hδ
  have nl : 0.9 ≤ len n := by norm_num at hδ' ⊢; linarith
  have n0 : n ≠ 0 := by rintro rfl; simp [len] at nl; norm_num at nl
  have hR0 : 0 < R := lt_of_lt_of_le (by norm_num) R1
  have hu := uu_pos
  have hL := least_angle hc0 n0
  obtain ⟨D, hD⟩ : ∃ D, D = |Real.arcsin (-dot (dirOf (cross a b)) (dirOf n))| := ⟨_, rfl⟩
  rw [← hD] at hL
  obtain ⟨Q, hQ, hDQ⟩ := hL.1
  have hdQ := hd Q hQ
  rw [← hDQ] at hdQ
  by_cases h92 : D ≤ 0.92
  · obtain ⟨d, h1, h2⟩ := C94_least B fa fb fn a2 b2 s0 hs hδ hδ' fR R1 R2 hL h92
    rw [on_great_circle, abs_cross_track_flt B h1, fin_abs, fin_le, decide_eq_false_iff_not, not_le]
    have := (abs_le.mp h2).1
    linarith
  · push Not at h92
    have hx := abs_dot_dir (dirOf_unit hc0) n0
    obtain ⟨x, hxe⟩ : ∃ x, x = -dot (dirOf (cross a b)) (dirOf n) := ⟨_, rfl⟩
    have hx1 : |x| ≤ 1 := by rw [hxe, abs_neg]; exact hx
    have hX := sin_theta_dir B fa fb fn a2 b2 s0 hs hδ hδ'
    rw [← hxe] at hX hD
    obtain ⟨τ, e1, fτ, hτ⟩ := hX
    have hbig : 0.78 ≤ |x| := by
      have hπ := Real.pi_gt_d2
      have hsD : Real.sin D = |x| := by
        rw [hD]
        rcases le_total 0 x with h | h
        · rw [abs_of_nonneg (Real.arcsin_nonneg.mpr h), Real.sin_arcsin (by linarith) ((le_abs_self x).trans hx1), abs_of_nonneg h]
        · rw [abs_of_nonpos (Real.arcsin_nonpos.mpr h), Real.sin_neg, Real.sin_arcsin (by linarith [(abs_le.mp hx1).1]) (by linarith), abs_of_nonpos h]
      have hD2 : D ≤ Real.pi / 2 := by
        rw [hD, abs_le]
        exact ⟨by linarith [Real.neg_pi_div_two_le_arcsin x], Real.arcsin_le_pi_div_two x⟩
      have := Real.sin_le_sin_of_le_of_le_pi_div_two (x := 0.92) (y := D) (by linarith) hD2 h92.le
      rw [hsD] at this
      exact sin92.trans this
    have ε1 : 42.4 * uu / s + δ ≤ 1e-5 := by
      have : 42.4 * uu / s ≤ 5e-6 := by
        rw [div_le_iff₀ sp]
        have : 42.4 * uu ≤ 5e-6 * 1e-9 := by unfold uu; norm_num
        norm_num at this s0 ⊢; linarith
      norm_num at this hδ' ⊢; linarith
    have hτb : 0.77 ≤ |τ| := by
      have := abs_sub_abs_le_abs_sub x τ
      rw [abs_sub_comm] at this
      norm_num at this hbig ε1 ⊢
      linarith
    have hct : cross_track_distance (a.flt, b.flt) (n.flt : V3 (F64 B)) (radius := F64.fin R) = .ok (PyFloat.arcsin (F64.fin τ) * F64.fin R) := by
      simp only [cross_track_distance, toList_gc, e1]
      rfl
    by_cases h1 : |τ| ≤ 1
    · obtain ⟨t1, t2⟩ := abs_le.mp h1
      have hA : 0.77 ≤ |Real.arcsin τ| := by
        have key : ∀ y : ℝ, 0 ≤ y → y ≤ 1 → y ≤ Real.arcsin y := by
          intro y h0 h1
          have := Real.sin_le (Real.arcsin_nonneg.mpr h0)
          rwa [Real.sin_arcsin (by linarith) h1] at this
        rcases le_total 0 τ with h | h
        · rw [abs_of_nonneg (Real.arcsin_nonneg.mpr h)]
          rw [abs_of_nonneg h] at hτb
          exact hτb.trans (key τ h t2)
        · rw [abs_of_nonpos (Real.arcsin_nonpos.mpr h), ← Real.arcsin_neg]
          rw [abs_of_nonpos h] at hτb
          exact hτb.trans (key (-τ) (by linarith) (by linarith))
      have hA2 : |Real.arcsin τ| ≤ 1.58 := by
        have := Real.pi_lt_d2
        rw [abs_le]
        exact ⟨by linarith [Real.neg_pi_div_two_le_arcsin τ], by linarith [Real.arcsin_le_pi_div_two τ]⟩
      have hB : |B.arcsin τ - Real.arcsin τ| ≤ 1e-10 :=
        libm_close (B.arcsin_close τ t1 t2) hA2 (by unfold uu; norm_num)
      have hApp : App (F64.fin (B.arcsin τ) : F64 B) (Real.arcsin τ) 1e-10 := ⟨_, rfl, B.arcsin_val τ, hB⟩
      obtain ⟨d, k1, -, k3⟩ := hApp.mul (App.exact fR) hA2 (le_refl |R|) (b := 1.58 * R) (e := 1e-9 * R) (by
          rw [abs_mul, abs_of_pos hR0]; exact mul_le_mul_of_nonneg_right hA2 hR0.le) (by
          rw [abs_of_pos hR0]
          have q1 : (1 : ℝ) / 10 ^ 60 ≤ 1e-40 * R := by
            have := mul_le_mul_of_nonneg_left R1 (show (0:ℝ) ≤ 1e-40 by norm_num)
            norm_num at this ⊢; linarith
          have hu1 : uu ≤ 1e-10 := by unfold uu; norm_num
          have := mul_le_mul_of_nonneg_right hu1 (show 0 ≤ 1.58 * R + R * 1e-10 by positivity)
          norm_num at this q1 ⊢
          linarith) (by
          rw [abs_of_pos hR0]
          norm_num at R2 ⊢; linarith)
      rw [on_great_circle, abs_cross_track_flt B hct, fin_arcsin t1 t2, k1, fin_abs, fin_le, decide_eq_false_iff_not, not_le]
      have j1 := abs_sub_abs_le_abs_sub (Real.arcsin τ * R) d
      rw [abs_sub_comm, abs_mul, abs_of_pos hR0] at j1
      have j2 := mul_le_mul_of_nonneg_right hA hR0.le
      norm_num at j1 j2 k3 ht ⊢
      linarith
    · have hn : (PyFloat.arcsin (F64.fin τ) : F64 B) = PyFloat.nan := by
        refine if_pos ?_
        by_contra hh
        push Not at hh
        exact h1 (abs_le.mpr hh)
      rw [on_great_circle, abs_cross_track_flt B hct, hn]
      rfl

/-! ### the default tolerance is below the rounding error -/

theorem fl_round {x : ℝ} {n : ℤ} (h1 : 1 / 4 ≤ x) (hn : |n| < 2 ^ 53) (h2 : |(n : ℝ) / 18014398509481984 - x| * 2 < 1 / 18014398509481984) :
    B.fl x = n / 18014398509481984 := by
  have e54 : (2 : ℝ) ^ (-2 - 52 : ℤ) = 1 / 18014398509481984 := by norm_num
  have hF : IsF64 ((n : ℝ) / 18014398509481984) := ⟨n, -54, hn, by norm_num, by norm_num; ring⟩
  have hge : (2 : ℝ) ^ (-2 : ℤ) ≤ B.fl x := B.rounds.ge (isF64_two_zpow (by norm_num)) (by norm_num; linarith)
  obtain ⟨j, hj⟩ := (B.rounds.val x).multiple' hge
  rw [e54] at hj
  have hk := B.rounds.nearest x _ hF
  have t := abs_sub_le (B.fl x) x ((n : ℝ) / 18014398509481984)
  rw [abs_sub_comm x] at t
  have h3 : |B.fl x - (n : ℝ) / 18014398509481984| < 1 / 18014398509481984 := by linarith
  rw [hj, show (j : ℝ) * (1 / 18014398509481984) - n / 18014398509481984 = (j - n : ℝ) / 18014398509481984 by ring, abs_div] at h3
  have h4 : |(j - n : ℝ)| < 1 := by
    rw [abs_of_pos (show (0:ℝ) < 18014398509481984 by norm_num)] at h3
    exact (div_lt_div_iff_of_pos_right (by norm_num)).mp h3
  have h5 : |j - n| < 1 := by exact_mod_cast h4
  have h6 : j = n := by have := Int.abs_lt_one_iff.mp h5; omega
  rw [hj, h6]; ring

theorem mul_round {x y : ℝ} {n : ℤ} (h1 : 1 / 4 ≤ x * y ∧ x * y ≤ 1) (hn : |n| < 2 ^ 53) (h2 : |(n : ℝ) / 18014398509481984 - x * y| * 2 < 1 / 18014398509481984) :
    (F64.fin x * F64.fin y : F64 B) = F64.fin (n / 18014398509481984) := by
  rw [fin_mul (by rw [abs_of_nonneg (by linarith)]; linarith [h1.2, (by norm_num : (1:ℝ) ≤ 10 ^ 60)]), fl_round B h1.1 hn h2]

theorem sub_exact54 {x y : ℝ} {n : ℤ} (hn : |n| < 2 ^ 53) (h : x - y = n / 18014398509481984) :
    (F64.fin x - F64.fin y : F64 B) = F64.fin (n / 18014398509481984) := by
  have hF : IsF64 ((n : ℝ) / 18014398509481984) := ⟨n, -54, hn, by norm_num, by norm_num; ring⟩
  have hb : |(n : ℝ) / 18014398509481984| ≤ 10 ^ 60 := by
    have : |(n : ℝ)| < 2 ^ 53 := by exact_mod_cast hn
    rw [abs_div, div_le_iff₀ (by norm_num), abs_of_pos (show (0:ℝ) < 18014398509481984 by norm_num)]
    norm_num at this ⊢; linarith
  rw [fin_sub (by rwa [h]), h, B.rounds.exact hF]

/-- **C95** the starting point of a path of 5.8 km (two n-vectors of unit length up to `1e-16`) is not on the great circle through its
end points, according to `on_great_circle` with the default tolerance of `1e-8` m -/
theorem C95_endpoint_not_on :
    let a : V3 ℝ := ⟨(5388901161705264 / 9007199254740992), (4674258357689526 / 9007199254740992), (5499153706666869 / 9007199254740992)⟩
    let b : V3 ℝ := ⟨(5395175250412861 / 9007199254740992), (4669446135188819 / 9007199254740992), (5497089704790108 / 9007199254740992)⟩
    IsF64V a ∧ IsF64V b ∧ |len a ^ 2 - 1| ≤ 2e-16 ∧ |len b ^ 2 - 1| ≤ 2e-16 ∧ 9e-4 ≤ len (cross a b) ∧ len (cross a b) ≤ 9.1e-4 ∧
      on_great_circle (a.flt, b.flt) (a.flt : V3 (F64 B)) = false := by
  intro a b
  have hu := uu_pos
  have fa : IsF64V a := ⟨⟨5388901161705264, -53, by norm_num, by norm_num, by norm_num [a]⟩, ⟨4674258357689526, -53, by norm_num, by norm_num, by norm_num [a]⟩,
    ⟨5499153706666869, -53, by norm_num, by norm_num, by norm_num [a]⟩⟩
  have fb : IsF64V b := ⟨⟨5395175250412861, -53, by norm_num, by norm_num, by norm_num [b]⟩, ⟨4669446135188819, -53, by norm_num, by norm_num, by norm_num [b]⟩,
    ⟨5497089704790108, -53, by norm_num, by norm_num, by norm_num [b]⟩⟩
  have la : |len a ^ 2 - 1| ≤ 2e-16 := by rw [len_sq]; simp only [a]; norm_num [abs_le]
  have lb : |len b ^ 2 - 1| ≤ 2e-16 := by rw [len_sq]; simp only [b]; norm_num [abs_le]
  refine ⟨fa, fb, la, lb, ?_, ?_, ?_⟩
  · unfold len cross; simp only [a, b]; exact Real.le_sqrt_of_sq_le (by norm_num)
  · unfold len cross; simp only [a, b]; exact Real.sqrt_le_iff.mpr ⟨by norm_num, by norm_num⟩
  have m12 : (F64.fin (4674258357689526 / 9007199254740992) * F64.fin (5497089704790108 / 9007199254740992) : F64 B) = F64.fin (5705395599427779 / 18014398509481984) := mul_round B (n := 5705395599427779) (by norm_num) (by norm_num) (by norm_num)
  have m21 : (F64.fin (5499153706666869 / 9007199254740992) * F64.fin (4669446135188819 / 9007199254740992) : F64 B) = F64.fin (5701661814329046 / 18014398509481984) := mul_round B (n := 5701661814329046) (by norm_num) (by norm_num) (by norm_num)
  have m20 : (F64.fin (5499153706666869 / 9007199254740992) * F64.fin (5395175250412861 / 9007199254740992) : F64 B) = F64.fin (6587818729736403 / 18014398509481984) := mul_round B (n := 6587818729736403) (by norm_num) (by norm_num) (by norm_num)
  have m02 : (F64.fin (5388901161705264 / 9007199254740992) * F64.fin (5497089704790108 / 9007199254740992) : F64 B) = F64.fin (6577687971219039 / 18014398509481984) := mul_round B (n := 6577687971219039) (by norm_num) (by norm_num) (by norm_num)
  have m01 : (F64.fin (5388901161705264 / 9007199254740992) * F64.fin (4669446135188819 / 9007199254740992) : F64 B) = F64.fin (5587349183864095 / 18014398509481984) := mul_round B (n := 5587349183864095) (by norm_num) (by norm_num) (by norm_num)
  have m10 : (F64.fin (4674258357689526 / 9007199254740992) * F64.fin (5395175250412861 / 9007199254740992) : F64 B) = F64.fin (5599619213967787 / 18014398509481984) := mul_round B (n := 5599619213967787) (by norm_num) (by norm_num) (by norm_num)
  have d0 : (F64.fin (5705395599427779 / 18014398509481984) - F64.fin (5701661814329046 / 18014398509481984) : F64 B) = F64.fin (3733785098733 / 18014398509481984) := sub_exact54 B (n := 3733785098733) (by norm_num) (by norm_num)
  have d1 : (F64.fin (6587818729736403 / 18014398509481984) - F64.fin (6577687971219039 / 18014398509481984) : F64 B) = F64.fin (10130758517364 / 18014398509481984) := sub_exact54 B (n := 10130758517364) (by norm_num) (by norm_num)
  have d2 : (F64.fin (5587349183864095 / 18014398509481984) - F64.fin (5599619213967787 / 18014398509481984) : F64 B) = F64.fin (-12270030103692 / 18014398509481984) := by
    have := sub_exact54 B (x := 5587349183864095 / 18014398509481984) (y := 5599619213967787 / 18014398509481984) (n := -12270030103692) (by norm_num) (by norm_num)
    push_cast at this
    exact this
  obtain ⟨w, hw⟩ : ∃ w : V3 ℝ, w = ⟨(3733785098733 / 18014398509481984), (10130758517364 / 18014398509481984), (-12270030103692 / 18014398509481984)⟩ := ⟨_, rfl⟩
  have hc : cross3 (a.flt : V3 (F64 B)) b.flt = w.flt := by
    rw [hw]
    unfold cross3 V3.flt
    simp only [a, b]
    rw [m12, m21, m20, m02, m01, m10, d0, d1, d2]
  have fw : IsF64V w := by
    rw [hw]
    exact ⟨⟨3733785098733, -54, by norm_num, by norm_num, by norm_num⟩, ⟨10130758517364, -54, by norm_num, by norm_num, by norm_num⟩,
      ⟨-12270030103692, -54, by norm_num, by norm_num, by norm_num⟩⟩
  have w1 : 9.07e-4 ≤ len w := by rw [hw]; unfold len; exact Real.le_sqrt_of_sq_le (by norm_num)
  have w2 : len w ≤ 9.08e-4 := by rw [hw]; unfold len; exact Real.sqrt_le_iff.mpr ⟨by norm_num, by norm_num⟩
  have w0 : w ≠ 0 := by intro h; rw [h] at w1; simp [len] at w1; norm_num at w1
  have b1 : (2 : ℝ) ^ (-500 : ℤ) ≤ len w := pow500_le (le_trans (by norm_num) w1)
  have b2 : len w ≤ (2 : ℝ) ^ (500 : ℕ) := le_pow500 (w2.trans (by norm_num))
  obtain ⟨u, g1, fu, g2, -⟩ := unit_close (B := B) b1 b2
  have hg : great_circle_normal (a.flt : V3 (F64 B)) b.flt = u.flt := by
    rw [great_circle_normal, hc, unit_arg b1 b2, g1]
  have la2 : len a ≤ 1.1 := by
    have h1 := (abs_le.mp la).2
    have h2 : len a ^ 2 ≤ 1.1 ^ 2 := by norm_num at h1 ⊢; linarith
    exact abs_le_of_sq_le_sq' h2 (by norm_num) |>.2
  obtain ⟨τ, e1, fτ, hτ⟩ := (app_row (B := B) fu fa g2 (P := a) (q := a) (e₂ := 0) ⟨by simp, by simp, by simp⟩ (dirOf_unit w0).len (by unfold uu; norm_num) (L := 1.1)
    (by linarith) (by norm_num)).neg
  have hE : (3.02 * uu + 1.7321 * (5.06 * uu)) * 1.1 + 1.7321 * 0 + 1e-59 ≤ 2e-15 := by unfold uu; norm_num
  have hτ' := hτ.trans hE
  have hdw : dot w a = 2791690876694907 / 40564819207303340847894502572032 := by
    rw [hw]; unfold dot; simp only [a]; norm_num
  have hx1 : 7.5e-14 ≤ dot (dirOf w) a := by
    rw [dot_dirOf_left, hdw]
    have l0 := len_pos w0
    rw [inv_mul_eq_div, le_div_iff₀ l0]
    norm_num at w2 ⊢; linarith
  have hx2 : dot (dirOf w) a ≤ 1e-13 := by
    rw [dot_dirOf_left, hdw]
    have l0 := len_pos w0
    rw [inv_mul_eq_div, div_le_iff₀ l0]
    norm_num at w1 ⊢; linarith
  obtain ⟨q1, q2⟩ := abs_le.mp hτ'
  have t1 : -1 ≤ τ := by norm_num at q1 hx2 ⊢; linarith
  have t2 : τ ≤ 1 := by norm_num at q2 hx1 ⊢; linarith
  have hτ7 : 7.3e-14 ≤ |Real.arcsin τ| := by
    have h0 : 7.3e-14 ≤ -τ := by norm_num at q2 hx1 ⊢; linarith
    have := Real.sin_le (Real.arcsin_nonneg.mpr (show 0 ≤ -τ by norm_num at h0; linarith))
    rw [Real.sin_arcsin (by linarith) (by linarith), Real.arcsin_neg] at this
    exact h0.trans (this.trans (neg_le_abs _))
  have hct : cross_track_distance (a.flt, b.flt) (a.flt : V3 (F64 B)) (radius := radius_default) = .ok (PyFloat.arcsin (F64.fin τ) * F64.fin 6371009) := by
    have hr : (radius_default : F64 B) = F64.fin 6371009 := by
      unfold radius_default
      simpa using lit_int (B := B) (n := 6371009) (by norm_num)
    simp only [cross_track_distance, toList_gc, hg, e1, hr]
    rfl
  have hA2 : |Real.arcsin τ| ≤ 1.58 := by
    have := Real.pi_lt_d2
    rw [abs_le]
    exact ⟨by linarith [Real.neg_pi_div_two_le_arcsin τ], by linarith [Real.arcsin_le_pi_div_two τ]⟩
  have hB : |B.arcsin τ - Real.arcsin τ| ≤ 7 * uu :=
    libm_close (B.arcsin_close τ t1 t2) hA2 (by unfold uu; norm_num)
  have hApp : App (F64.fin (B.arcsin τ) : F64 B) (Real.arcsin τ) (7 * uu) := ⟨_, rfl, B.arcsin_val τ, hB⟩
  have fR : IsF64 (6371009 : ℝ) := by simpa using isF64_int (n := 6371009) (by norm_num)
  obtain ⟨d, k1, -, k3⟩ := hApp.mul (App.exact fR) hA2 (bY := 6371009) (by norm_num) (b := 1.58 * 6371009) (e := 1e-8) (by
      rw [abs_mul, abs_of_pos (show (0:ℝ) < 6371009 by norm_num)]; exact mul_le_mul_of_nonneg_right hA2 (by norm_num)) (by
      unfold uu; norm_num) (by unfold uu; norm_num)
  have hl : (lit 1e-8 : F64 B) = F64.fin (B.fl 1e-8) := by
    have := fin_lit (B := B) (q := 1e-8) (by norm_num)
    rw [this]; norm_num
  have hl2 : B.fl 1e-8 ≤ 2e-8 := by
    have := B.rounds.err_add 1e-8
    have h2 := (abs_le.mp this).2
    have he := eta_small
    unfold uu at h2
    norm_num at h2 he ⊢
    linarith
  rw [on_great_circle, abs_cross_track_flt B hct, fin_arcsin t1 t2, k1, fin_abs, hl, fin_le, decide_eq_false_iff_not, not_le]
  have j1 := abs_sub_abs_le_abs_sub (Real.arcsin τ * 6371009) d
  rw [abs_sub_comm, abs_mul, abs_of_pos (show (0:ℝ) < 6371009 by norm_num)] at j1
  norm_num at j1 k3 hτ7 hl2 ⊢
  linarith

/-- a position 3.1 km north of the equator, of doubles, its length 1.2e-7 away from one -/
theorem cross_witness : IsF64V (⟨1, 0, 0⟩ : V3 ℝ) ∧ IsF64V (⟨0, 1, 0⟩ : V3 ℝ) ∧ IsF64V (⟨1, 0, 2 ^ (-11 : ℤ)⟩ : V3 ℝ) ∧
    len (⟨1, 0, 0⟩ : V3 ℝ) ≤ 1.1 ∧ len (⟨0, 1, 0⟩ : V3 ℝ) ≤ 1.1 ∧ (1 : ℝ) ≤ len (cross ⟨1, 0, 0⟩ ⟨0, 1, 0⟩) ∧
    |len (⟨1, 0, 2 ^ (-11 : ℤ)⟩ : V3 ℝ) - 1| ≤ 1.2e-7 := by
  have f0 : IsF64 (0 : ℝ) := by simpa using isF64_int (n := 0) (by norm_num)
  have f1 : IsF64 (1 : ℝ) := by simpa using isF64_int (n := 1) (by norm_num)
  have f2 : IsF64 ((2 : ℝ) ^ (-11 : ℤ)) := ⟨1, -11, by norm_num, by norm_num, by norm_num⟩
  refine ⟨⟨f1, f0, f0⟩, ⟨f0, f1, f0⟩, ⟨f1, f0, f2⟩, by simp [len]; norm_num, by simp [len]; norm_num, by simp [len, cross], ?_⟩
  have h1 : (1 : ℝ) ≤ len (⟨1, 0, 2 ^ (-11 : ℤ)⟩ : V3 ℝ) := Real.le_sqrt_of_sq_le (by norm_num)
  have h2 : len (⟨1, 0, 2 ^ (-11 : ℤ)⟩ : V3 ℝ) ≤ 1 + 1.2e-7 := Real.sqrt_le_iff.mpr ⟨by norm_num, by norm_num⟩
  rw [abs_le]; constructor <;> norm_num at h1 h2 ⊢ <;> linarith

/-- non-vacuity of `C94_least` and `C95_off`: that position is about 3.1 km from the equator, and not on it with a tolerance of one km -/
example : on_great_circle (V3.flt ⟨1, 0, 0⟩, V3.flt ⟨0, 1, 0⟩) (V3.flt ⟨1, 0, 2 ^ (-11 : ℤ)⟩ : V3 (F64 B)) (F64.fin 6371009) (F64.fin 1000) = false := by
  obtain ⟨fa, fb, fn, a2, b2, hs, hδ⟩ := cross_witness
  have fR : IsF64 (6371009 : ℝ) := by simpa using isF64_int (n := 6371009) (by norm_num)
  refine C95_off B fa fb fn a2 b2 (by norm_num) hs hδ (by norm_num) fR (by norm_num) (by norm_num) (by norm_num) ?_
  intro Q hQ
  have hc : cross (⟨1, 0, 0⟩ : V3 ℝ) ⟨0, 1, 0⟩ = ⟨0, 0, 1⟩ := by simp [cross]
  have h := (least_angle (a := ⟨1, 0, 0⟩) (b := ⟨0, 1, 0⟩) (n := ⟨1, 0, 2 ^ (-11 : ℤ)⟩) (by rw [hc]; intro h; simp [V3.ext_iff] at h)
    (by intro h; simp [V3.ext_iff] at h)).2 ⟨Q, hQ, rfl⟩
  have hu : UnitVec (⟨0, 0, 1⟩ : V3 ℝ) := by simp [UnitVec, dot]
  rw [hc, dirOf_of_unit hu, Real.arcsin_neg, abs_neg] at h
  have hd : dot (⟨0, 0, 1⟩ : V3 ℝ) (dirOf ⟨1, 0, 2 ^ (-11 : ℤ)⟩) = (len ⟨1, 0, 2 ^ (-11 : ℤ)⟩)⁻¹ * 2 ^ (-11 : ℤ) := by
    rw [dot_comm, dot_dirOf_left]; simp [dot]
  have h2 := (abs_le.mp hδ).2
  have h1 := (abs_le.mp hδ).1
  have l0 : 0 < len (⟨1, 0, 2 ^ (-11 : ℤ)⟩ : V3 ℝ) := by norm_num at h1 ⊢; linarith
  have hd2 : 4.8e-4 ≤ dot (⟨0, 0, 1⟩ : V3 ℝ) (dirOf ⟨1, 0, 2 ^ (-11 : ℤ)⟩) := by
    rw [hd, inv_mul_eq_div, le_div_iff₀ l0]; norm_num at h2 ⊢; linarith
  have hx : |dot (⟨0, 0, 1⟩ : V3 ℝ) (dirOf ⟨1, 0, 2 ^ (-11 : ℤ)⟩)| ≤ 1 := abs_dot_dir hu (by intro h; simp [V3.ext_iff] at h)
  have h3 := Real.sin_le (Real.arcsin_nonneg.mpr (show 0 ≤ dot (⟨0, 0, 1⟩ : V3 ℝ) (dirOf ⟨1, 0, 2 ^ (-11 : ℤ)⟩) from le_trans (by norm_num) hd2))
  rw [Real.sin_arcsin (abs_le.mp hx).1 (abs_le.mp hx).2] at h3
  have h4 := (hd2.trans h3).trans ((le_abs_self _).trans h)
  generalize angle _ Q = θ at h4 ⊢
  norm_num at h4 ⊢
  linarith

end Nv
