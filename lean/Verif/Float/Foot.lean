import Verif.Float.Direct
import Verif.Float.Apply

/-!
# The foot of the perpendicular on a great circle

Errors of `dot` and `cross` relative to the lengths of the arguments, and the distance of the computed `unit(cross(c, d))` from the plane perpendicular to `c`.
-/

namespace Nv
open Spec F64
variable {B : Binary64}

/-- the error of a difference of two products -/
theorem sub_prod_flt {a b c d L : ℝ} (fa : IsF64 a) (fb : IsF64 b) (fc : IsF64 c) (fd : IsF64 d) (hL : |a * b| + |c * d| ≤ L) (L1 : L ≤ 10) :
    App ((F64.fin a : F64 B) * F64.fin b - F64.fin c * F64.fin d) (a * b - c * d) (2.01 * uu * L + 1e-59) := by
  have hu := uu_pos
  have u1 : uu ≤ 1e-6 := by unfold uu; norm_num
  have n1 := abs_nonneg (a * b); have n2 := abs_nonneg (c * d)
  have L0 : 0 ≤ L := by linarith
  obtain ⟨g, hg⟩ : ∃ g, g = uu * L := ⟨_, rfl⟩
  obtain ⟨τ, hτ⟩ : ∃ τ : ℝ, τ = 1 / 10 ^ 60 := ⟨_, rfl⟩
  have h59 : (1e-59 : ℝ) = 10 * τ := by rw [hτ]; norm_num
  have τ0 : 0 < τ := by rw [hτ]; positivity
  have τ1 : τ ≤ 1 := by rw [hτ]; norm_num
  have g0 : 0 ≤ g := by rw [hg]; positivity
  have ug : uu * g ≤ 1e-6 * g := mul_le_mul_of_nonneg_right u1 g0
  have uτ : uu * τ ≤ 1e-6 * τ := mul_le_mul_of_nonneg_right u1 τ0.le
  have gL : g ≤ 1e-6 * L := by rw [hg]; exact mul_le_mul_of_nonneg_right u1 L0
  have P1 := app_mul_exact (B := B) fa fb le_rfl (by have : (10 : ℝ) ≤ 10 ^ 60 := by norm_num
                                                     linarith) (e := uu * |a * b| + τ) (by rw [hτ])
  have P2 := app_mul_exact (B := B) fc fd le_rfl (by have : (10 : ℝ) ≤ 10 ^ 60 := by norm_num
                                                     linarith) (e := uu * |c * d| + τ) (by rw [hτ])
  have hs : uu * |a * b| + uu * |c * d| ≤ g := by rw [hg, ← mul_add]; exact mul_le_mul_of_nonneg_left hL hu.le
  have e1 : 0 ≤ uu * |a * b| := by positivity
  have e2 : 0 ≤ uu * |c * d| := by positivity
  have hD : |a * b - c * d| ≤ L := (abs_sub _ _).trans hL
  rw [h59, show 2.01 * uu * L = 2.01 * g by rw [hg]; ring]
  generalize uu * |a * b| = ea at *
  generalize uu * |c * d| = ec at *
  refine P1.sub P2 hD ?_ ?_
  · rw [← hτ]
    have h3 : uu * (L + (ea + τ + (ec + τ))) ≤ uu * (L + (g + 2 * τ)) := mul_le_mul_of_nonneg_left (by linarith) hu.le
    rw [show uu * (L + (g + 2 * τ)) = uu * L + uu * g + 2 * (uu * τ) by ring, ← hg] at h3
    norm_num at ug uτ h3 ⊢
    linarith
  · have big : (100 : ℝ) ≤ 10 ^ 60 := by norm_num
    generalize (10 : ℝ) ^ 60 = K at big ⊢
    norm_num at gL ⊢
    linarith

theorem two_prod_le {a b c d : ℝ} {L M : ℝ} (h1 : a ^ 2 + c ^ 2 ≤ L ^ 2) (h2 : b ^ 2 + d ^ 2 ≤ M ^ 2) (L0 : 0 ≤ L) (M0 : 0 ≤ M) : |a * b| + |c * d| ≤ L * M := by
  rw [abs_mul, abs_mul]
  have h : (|a| * |b| + |c| * |d|) ^ 2 ≤ (L * M) ^ 2 := by
    have e1 : (|a| * |b| + |c| * |d|) ^ 2 ≤ (|a| ^ 2 + |c| ^ 2) * (|b| ^ 2 + |d| ^ 2) := by nlinarith [sq_nonneg (|a| * |d| - |c| * |b|)]
    rw [sq_abs, sq_abs, sq_abs, sq_abs] at e1
    have e2 := mul_le_mul h1 h2 (by positivity) (sq_nonneg L)
    rw [mul_pow]; linarith
  exact (abs_le_of_sq_le_sq' h (by positivity)).2

/-- the error of a vector product relative to the lengths -/
theorem cross_rel_flt {v w : V3 ℝ} (fv : IsF64V v) (fw : IsF64V w) (v1 : len v ≤ 2) (w1 : len w ≤ 2) :
    ∃ q : V3 ℝ, cross3 (v.flt : V3 (F64 B)) w.flt = q.flt ∧ IsF64V q ∧ len (q - cross v w) ≤ 3.49 * uu * (len v * len w) + 1e-58 := by
  have lv := len_nonneg' v
  have lw := len_nonneg' w
  have hL : len v * len w ≤ 10 := by have := mul_le_mul v1 w1 lw (by norm_num); linarith
  have sv : v.x ^ 2 + v.y ^ 2 + v.z ^ 2 = len v ^ 2 := by rw [len_sq]
  have sw : w.x ^ 2 + w.y ^ 2 + w.z ^ 2 = len w ^ 2 := by rw [len_sq]
  have X := sub_prod_flt (B := B) fv.2.1 fw.2.2 fv.2.2 fw.2.1 (L := len v * len w) (two_prod_le (by nlinarith [sq_nonneg v.x]) (by nlinarith [sq_nonneg w.x]) lv lw) hL
  have Y := sub_prod_flt (B := B) fv.2.2 fw.1 fv.1 fw.2.2 (L := len v * len w) (two_prod_le (by nlinarith [sq_nonneg v.y]) (by nlinarith [sq_nonneg w.y]) lv lw) hL
  have Z := sub_prod_flt (B := B) fv.1 fw.2.1 fv.2.1 fw.1 (L := len v * len w) (two_prod_le (by nlinarith [sq_nonneg v.z]) (by nlinarith [sq_nonneg w.z]) lv lw) hL
  obtain ⟨q, hq, fq, q1, q2, q3⟩ := App3.get (V := cross3 (v.flt : V3 (F64 B)) w.flt) (v := cross v w) ⟨X, Y, Z⟩
  refine ⟨q, hq, fq, ?_⟩
  have hd : len (q - cross v w) ≤ 1.7321 * (2.01 * uu * (len v * len w) + 1e-59) := len_le_of_comp q1 q2 q3
  refine hd.trans ?_
  have h0 : 0 ≤ uu * (len v * len w) := mul_nonneg uu_pos.le (mul_nonneg lv lw)
  have h58 : (1e-58 : ℝ) = 10 * 1e-59 := by norm_num
  have h59 : (0 : ℝ) < 1e-59 := by norm_num
  rw [h58]
  generalize (1e-59 : ℝ) = τ at *
  norm_num
  linarith

/-- the error of a scalar product relative to the lengths -/
theorem dot_rel_flt {v w : V3 ℝ} (fv : IsF64V v) (fw : IsF64V w) (v1 : len v ≤ 2) (w1 : len w ≤ 2) :
    App (dot3 (v.flt : V3 (F64 B)) w.flt) (dot v w) (3.02 * uu * (len v * len w) + 1e-58) := by
  have hu := uu_pos
  have u1 : uu ≤ 1e-6 := by unfold uu; norm_num
  have lv := len_nonneg' v
  have lw := len_nonneg' w
  obtain ⟨L, hLe⟩ : ∃ L, L = len v * len w := ⟨_, rfl⟩
  have hL : L ≤ 10 := by have := mul_le_mul v1 w1 lw (by norm_num); linarith
  have L0 : 0 ≤ L := by rw [hLe]; positivity
  obtain ⟨g, hg⟩ : ∃ g, g = uu * L := ⟨_, rfl⟩
  obtain ⟨τ, hτ⟩ : ∃ τ : ℝ, τ = 1 / 10 ^ 60 := ⟨_, rfl⟩
  have h58 : (1e-58 : ℝ) = 100 * τ := by rw [hτ]; norm_num
  have τ0 : 0 < τ := by rw [hτ]; positivity
  have τ1 : τ ≤ 1 := by rw [hτ]; norm_num
  have g0 : 0 ≤ g := by rw [hg]; positivity
  have ug : uu * g ≤ 1e-6 * g := mul_le_mul_of_nonneg_right u1 g0
  have uτ : uu * τ ≤ 1e-6 * τ := mul_le_mul_of_nonneg_right u1 τ0.le
  have gL : g ≤ 1e-6 * L := by rw [hg]; exact mul_le_mul_of_nonneg_right u1 L0
  have big : (100 : ℝ) ≤ 10 ^ 60 := by norm_num
  have a1 := abs_nonneg (v.x * w.x); have a2 := abs_nonneg (v.y * w.y); have a3 := abs_nonneg (v.z * w.z)
  -- the absolute values of the products add up to at most `L`
  have hP : |v.x * w.x| + |v.y * w.y| + |v.z * w.z| ≤ L := by
    have h := abs_dot_le (⟨|v.x|, |v.y|, |v.z|⟩ : V3 ℝ) ⟨|w.x|, |w.y|, |w.z|⟩
    have e1 : len (⟨|v.x|, |v.y|, |v.z|⟩ : V3 ℝ) = len v := by simp [len, sq_abs]
    have e2 : len (⟨|w.x|, |w.y|, |w.z|⟩ : V3 ℝ) = len w := by simp [len, sq_abs]
    rw [e1, e2, ← hLe] at h
    refine le_trans (le_of_eq ?_) ((le_abs_self _).trans h)
    rw [abs_mul, abs_mul, abs_mul]; rfl
  have p1 := app_mul_exact (B := B) fv.1 fw.1 le_rfl (by linarith) (e := uu * |v.x * w.x| + τ) (by rw [hτ])
  have p2 := app_mul_exact (B := B) fv.2.1 fw.2.1 le_rfl (by linarith) (e := uu * |v.y * w.y| + τ) (by rw [hτ])
  have p3 := app_mul_exact (B := B) fv.2.2 fw.2.2 le_rfl (by linarith) (e := uu * |v.z * w.z| + τ) (by rw [hτ])
  have hs : uu * |v.x * w.x| + uu * |v.y * w.y| + uu * |v.z * w.z| ≤ g := by
    rw [hg, ← mul_add, ← mul_add]; exact mul_le_mul_of_nonneg_left hP hu.le
  have e1 : 0 ≤ uu * |v.x * w.x| := by positivity
  have e2 : 0 ≤ uu * |v.y * w.y| := by positivity
  have e3 : 0 ≤ uu * |v.z * w.z| := by positivity
  have b12 : |v.x * w.x + v.y * w.y| ≤ L := (abs_add_le _ _).trans (by linarith)
  have b123 : |v.x * w.x + v.y * w.y + v.z * w.z| ≤ L := (abs_add_three _ _ _).trans hP
  generalize uu * |v.x * w.x| = ex at *
  generalize uu * |v.y * w.y| = ey at *
  generalize uu * |v.z * w.z| = ez at *
  obtain ⟨K, hK⟩ : ∃ K : ℝ, K = 10 ^ 60 := ⟨_, rfl⟩
  rw [← hK] at big
  have s12 := p1.add p2 b12 (e := ex + ey + 1.001 * g + 4 * τ) (by
    rw [← hτ]
    have h3 : uu * (L + (ex + τ + (ey + τ))) ≤ uu * (L + (g + 2 * τ)) := mul_le_mul_of_nonneg_left (by linarith) hu.le
    rw [show uu * (L + (g + 2 * τ)) = uu * L + uu * g + 2 * (uu * τ) by ring, ← hg] at h3
    norm_num at ug uτ h3 ⊢
    linarith) (by rw [← hK]; norm_num at gL ⊢; linarith)
  have s123 := s12.add p3 b123 (e := 3.02 * g + 100 * τ) (by
    rw [← hτ]
    have h3 : uu * (L + (ex + ey + 1.001 * g + 4 * τ + (ez + τ))) ≤ uu * (L + (2.001 * g + 5 * τ)) :=
      mul_le_mul_of_nonneg_left (by norm_num; linarith) hu.le
    rw [show uu * (L + (2.001 * g + 5 * τ)) = uu * L + 2.001 * (uu * g) + 5 * (uu * τ) by ring, ← hg] at h3
    norm_num at ug uτ h3 ⊢
    linarith) (by rw [← hK]; norm_num at gL ⊢; linarith)
  rw [h58, ← hLe, show 3.02 * uu * L = 3.02 * g by rw [hg]; ring]
  exact s123

theorem V3.flt_inj {v w : V3 ℝ} (h : (v.flt : V3 (F64 B)) = w.flt) : v = w := by
  have hx := congrArg V3.x h; have hy := congrArg V3.y h; have hz := congrArg V3.z h
  exact V3.ext ((F64.fin_inj (x := v.x) (y := w.x)).mp hx) ((F64.fin_inj (x := v.y) (y := w.y)).mp hy) ((F64.fin_inj (x := v.z) (y := w.z)).mp hz)

theorem dot_cross_self (c d : V3 ℝ) : dot c (cross c d) = 0 := by unfold dot cross; simp; ring

/-- the computed direction of `c × d` is perpendicular to `c` up to 8.6 roundings, whatever the error of `d` is -/
theorem foot_dot {c d q w : V3 ℝ} (fc : IsF64V c) (fd : IsF64V d) (c1 : |len c - 1| ≤ 1e-4) (d0 : 1e-6 ≤ len d) (d1 : len d ≤ 1.1) (hcd : |dot c d| ≤ 1e-3 * len d)
    (hq : cross3 (c.flt : V3 (F64 B)) d.flt = q.flt) (hw : unit (q.flt : V3 (F64 B)) = w.flt) : |dot c w| ≤ 8.6 * uu := by
  have hu := uu_pos
  have u1 : uu ≤ 1e-10 := by unfold uu; norm_num
  obtain ⟨l1, l2⟩ := abs_le.mp c1
  obtain ⟨q', hq', -, bq⟩ := cross_rel_flt (B := B) fc fd (by norm_num at l2 ⊢; linarith) (by norm_num at d1 ⊢; linarith)
  rw [hq] at hq'
  obtain rfl := V3.flt_inj hq'
  obtain ⟨l, hl⟩ : ∃ l, l = len c := ⟨_, rfl⟩
  obtain ⟨m, hm⟩ : ∃ m, m = len d := ⟨_, rfl⟩
  rw [← hl, ← hm] at bq
  rw [← hl] at l1 l2
  rw [← hm] at d0 d1 hcd
  have mp : 0 < m := lt_of_lt_of_le (by norm_num) d0
  have lp : 0 < l := by norm_num at l1; linarith
  have h58 : (1e-58 : ℝ) ≤ 1e-30 * m := by
    have := mul_le_mul_of_nonneg_left d0 (show (0 : ℝ) ≤ 1e-30 by norm_num)
    exact le_trans (by norm_num) this
  have h58' : (1e-58 : ℝ) ≤ 1e-6 * uu * m := by
    have h1 : (1e-30 : ℝ) ≤ 1e-6 * uu := by unfold uu; norm_num
    exact h58.trans (mul_le_mul_of_nonneg_right h1 mp.le)
  have bq' : len (q - cross c d) ≤ 3.4905 * uu * m := by
    have h1 : l * m ≤ 1.0001 * m := mul_le_mul_of_nonneg_right (by norm_num at l2 ⊢; linarith) mp.le
    have h2 := mul_le_mul_of_nonneg_left h1 (show 0 ≤ 3.49 * uu by positivity)
    have h3 : 0 ≤ uu * m := by positivity
    generalize (1e-58 : ℝ) = τ at *
    rw [show 3.49 * uu * (1.0001 * m) = 3.49 * 1.0001 * (uu * m) by ring] at h2
    rw [show 1e-6 * uu * m = 1e-6 * (uu * m) by ring] at h58'
    rw [show 3.4905 * uu * m = 3.4905 * (uu * m) by ring]
    norm_num at h2 h58' ⊢
    linarith
  -- the length of the product
  have lc : 0.9998 * m ≤ len (cross c d) := by
    have h1 := lagrange c d
    rw [← hl, ← hm] at h1
    have h2 : (dot c d) ^ 2 ≤ (1e-3 * m) ^ 2 := by rw [← sq_abs]; exact pow_le_pow_left₀ (abs_nonneg _) hcd 2
    have h3 : 0.9998 ≤ l ^ 2 := by norm_num at l1 ⊢; nlinarith
    have h4 := mul_le_mul_of_nonneg_right h3 (sq_nonneg m)
    have h5 : (0.9998 * m) ^ 2 ≤ len (cross c d) ^ 2 := by
      rw [h1]; norm_num at h2 h4 ⊢; nlinarith [sq_nonneg m]
    exact (abs_le_of_sq_le_sq' h5 (len_nonneg' _)).2
  have lq : 0.9997 * m ≤ len q := by
    have h1 := len_add_le q ((-1 : ℝ) • (q - cross c d))
    rw [show q + (-1 : ℝ) • (q - cross c d) = cross c d by ext <;> simp, len_smul, abs_neg, abs_one, one_mul] at h1
    have h2 : 3.4905 * uu * m ≤ 3.4905 * 1e-10 * m := mul_le_mul_of_nonneg_right (by norm_num at u1 ⊢; linarith) mp.le
    norm_num at h1 h2 lc bq' ⊢
    linarith
  have lqp : 0 < len q := by norm_num at lq; linarith
  have q0 : q ≠ 0 := by rintro rfl; rw [len_eq_zero.mpr rfl] at lqp; exact lt_irrefl _ lqp
  have lq2 : len q ≤ 2 := by
    have h1 := len_add_le (q - cross c d) (cross c d)
    rw [show q - cross c d + cross c d = q by ext <;> simp] at h1
    have h2 := len_cross_le c d
    rw [← hl, ← hm] at h2
    have h3 := mul_le_mul (show l ≤ 1.0001 by norm_num at l2 ⊢; linarith) d1 mp.le (by norm_num)
    have h4 : 3.4905 * uu * m ≤ 3.4905 * 1e-10 * 1.1 := mul_le_mul (by norm_num at u1 ⊢; linarith) d1 mp.le (by norm_num)
    norm_num at h1 h3 h4 bq' ⊢
    linarith
  -- the scalar product with the exact direction
  have hdq : |dot c (dirOf q)| ≤ 3.495 * uu := by
    have e1 : dot c q = dot c (q - cross c d) := by
      have := dot_cross_self c d
      unfold dot at *; simp; linarith
    have h1 := abs_dot_le c (q - cross c d)
    rw [← e1, ← hl] at h1
    have h2 : l * len (q - cross c d) ≤ 1.0001 * (3.4905 * uu * m) := mul_le_mul (by norm_num at l2 ⊢; linarith) bq' (len_nonneg' _) (by norm_num)
    rw [dot_dirOf_right, abs_mul, abs_of_pos (inv_pos.mpr lqp), inv_mul_le_iff₀ lqp]
    have h3 := mul_le_mul_of_nonneg_left lq (show 0 ≤ 3.495 * uu by positivity)
    rw [show 3.495 * uu * (0.9997 * m) = 3.495 * 0.9997 * (uu * m) by ring] at h3
    rw [show 1.0001 * (3.4905 * uu * m) = 1.0001 * 3.4905 * (uu * m) by ring] at h2
    have h4 : 0 ≤ uu * m := by positivity
    rw [mul_comm (len q)]
    norm_num at h2 h3 ⊢
    linarith
  obtain ⟨w', hw', -, c1', c2', c3'⟩ := unit_flt (B := B) (v := q) (pow500_le (by norm_num at lq d0 ⊢; linarith)) (le_pow500 (lq2.trans (by norm_num)))
  rw [hw] at hw'
  obtain rfl := V3.flt_inj hw'
  have ed : dirOf q = ⟨q.x / len q, q.y / len q, q.z / len q⟩ := by
    unfold dirOf; ext <;> simp <;> ring
  have up := dirOf_unit q0
  obtain ⟨p, hp⟩ : ∃ p, p = dirOf q := ⟨_, rfl⟩
  rw [← hp] at hdq up
  have px : q.x / len q = p.x := by rw [hp, ed]
  have py : q.y / len q = p.y := by rw [hp, ed]
  have pz : q.z / len q = p.z := by rw [hp, ed]
  rw [px] at c1'; rw [py] at c2'; rw [pz] at c3'
  have hP : |c.x| * |p.x| + |c.y| * |p.y| + |c.z| * |p.z| ≤ l := by
    have h := abs_dot_le (⟨|c.x|, |c.y|, |c.z|⟩ : V3 ℝ) ⟨|p.x|, |p.y|, |p.z|⟩
    have e1 : len (⟨|c.x|, |c.y|, |c.z|⟩ : V3 ℝ) = l := by rw [hl]; simp [len, sq_abs]
    have e2 : len (⟨|p.x|, |p.y|, |p.z|⟩ : V3 ℝ) = 1 := by rw [← up.len]; simp [len, sq_abs]
    rw [e1, e2, mul_one] at h
    exact (le_abs_self _).trans h
  have cx : |c.x| ≤ 2 := (abs_x_le_len c).trans (by rw [← hl]; norm_num at l2 ⊢; linarith)
  have cy : |c.y| ≤ 2 := (abs_y_le_len c).trans (by rw [← hl]; norm_num at l2 ⊢; linarith)
  have cz : |c.z| ≤ 2 := (abs_z_le_len c).trans (by rw [← hl]; norm_num at l2 ⊢; linarith)
  have hη : 6 * eta ≤ 1e-3 * uu := by
    have h1 := mul_le_mul_of_nonneg_left eta_small (show (0 : ℝ) ≤ 6 by norm_num)
    have h2 : (6 : ℝ) * (1 / 10 ^ 60) ≤ 1e-3 * uu := by unfold uu; norm_num
    exact h1.trans h2
  have hη0 := eta_pos
  have e : dot c w = dot c p + (c.x * (w.x - p.x) + c.y * (w.y - p.y) + c.z * (w.z - p.z)) := by unfold dot; ring
  rw [e]
  have t1 := abs_add_le (dot c p) (c.x * (w.x - p.x) + c.y * (w.y - p.y) + c.z * (w.z - p.z))
  have t2 := abs_add_three (c.x * (w.x - p.x)) (c.y * (w.y - p.y)) (c.z * (w.z - p.z))
  rw [abs_mul, abs_mul, abs_mul] at t2
  have t3 := mul_le_mul_of_nonneg_left c1' (abs_nonneg c.x)
  have t4 := mul_le_mul_of_nonneg_left c2' (abs_nonneg c.y)
  have t5 := mul_le_mul_of_nonneg_left c3' (abs_nonneg c.z)
  have t6 := mul_le_mul_of_nonneg_left hP (show 0 ≤ 5.05 * uu by positivity)
  have k1 := mul_le_mul_of_nonneg_right cx hη0.le
  have k2 := mul_le_mul_of_nonneg_right cy hη0.le
  have k3 := mul_le_mul_of_nonneg_right cz hη0.le
  have k4 : 5.05 * uu * l ≤ 5.05 * uu * 1.0001 := mul_le_mul_of_nonneg_left (by norm_num at l2 ⊢; linarith) (by positivity)
  have t7 : |c.x| * (5.05 * uu * |p.x| + eta) + |c.y| * (5.05 * uu * |p.y| + eta) + |c.z| * (5.05 * uu * |p.z| + eta) =
      5.05 * uu * (|c.x| * |p.x| + |c.y| * |p.y| + |c.z| * |p.z|) + (|c.x| * eta + |c.y| * eta + |c.z| * eta) := by ring
  generalize |c.x| * (5.05 * uu * |p.x| + eta) = T1 at *
  generalize |c.y| * (5.05 * uu * |p.y| + eta) = T2 at *
  generalize |c.z| * (5.05 * uu * |p.z| + eta) = T3 at *
  generalize 5.05 * uu * (|c.x| * |p.x| + |c.y| * |p.y| + |c.z| * |p.z|) = T4 at *
  norm_num at k4 hη hdq ⊢
  linarith

end Nv
