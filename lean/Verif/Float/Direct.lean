import Verif.Float.Wander
import Verif.Float.GreatCircle
import Verif.Props.Direct

/-!
# The great circle direct problem with rounded arithmetic
-/

namespace Nv
open Spec F64
variable {B : Binary64}

theorem Fin64V.of_len {n : V3 ℝ} (hn : IsF64V n) (h : len n ≤ 10 ^ 60) : Fin64V n :=
  ⟨fin64_of_le hn.1 ((abs_x_le_len n).trans h), fin64_of_le hn.2.1 ((abs_y_le_len n).trans h), fin64_of_le hn.2.2 ((abs_z_le_len n).trans h)⟩

/-- the product with the pole is exact -/
theorem cross_pole_flt {R : M3 ℝ} (hR : IsAxes R) {n : V3 ℝ} (h : Fin64V n) :
    cross3 (mulVec (tr (R.flt : M3 (F64 B))) ⟨lit 1, lit 0, lit 0⟩) n.flt = (cross (northPole R) n).flt := by
  have e1 : (⟨lit 1, lit 0, lit 0⟩ : V3 (F64 B)) = (⟨1, 0, 0⟩ : V3 ℝ).flt := by rw [lit_one, lit_zero]; rfl
  obtain ⟨m1, -⟩ := mulVec_tr_axes (B := B) hR (v := ⟨1, 0, 0⟩) ⟨fin64_one, fin64_zero, fin64_zero⟩
  obtain ⟨h1, h2, h3⟩ := h
  rw [e1, m1]
  rcases hR with rfl | rfl
  · have : app (transp Re) ⟨1, 0, 0⟩ = ⟨0, 0, 1⟩ := by ext <;> simp [app, transp, Re, dot, col0, col1, col2]
    rw [northPole, this]
    simp only [cross3, V3.flt, zero_mul', one_mul' h1, one_mul' h2, sub_zero' fin64_zero, zero_sub' h2, sub_zero' h1, cross]
    simp
  · have : app (transp one) ⟨1, 0, 0⟩ = ⟨1, 0, 0⟩ := by ext <;> simp [app, transp, one, dot, col0, col1, col2]
    rw [northPole, this]
    simp only [cross3, V3.flt, zero_mul', one_mul' h2, one_mul' h3, sub_zero' fin64_zero, zero_sub' h3, sub_zero' h2, cross]
    simp

/-- the vector product of a position with a computed unit vector -/
theorem cross_near_flt {n E e : V3 ℝ} (hn : IsF64V n) (hE : IsF64V E) (n2 : len n ≤ 1.0001) (he : len e = 1) (hc : CloseV E e (5.06 * uu)) :
    App3 (cross3 (n.flt : V3 (F64 B)) E.flt) (cross n e) (13.15 * uu) := by
  have hu := uu_pos
  obtain ⟨c1, c2, c3⟩ := hc
  have x1 := (abs_x_le_len n).trans n2
  have y1 := (abs_y_le_len n).trans n2
  have z1 := (abs_z_le_len n).trans n2
  have ex := (abs_x_le_len e).trans he.le
  have ey := (abs_y_le_len e).trans he.le
  have ez := (abs_z_le_len e).trans he.le
  have m : ∀ {a S s : ℝ}, IsF64 a → IsF64 S → |a| ≤ 1.0001 → |s| ≤ 1 → |S - s| ≤ 5.06 * uu → App (F64.fin a * F64.fin S : F64 B) (a * s) (6.065 * uu) ∧ |a * s| ≤ 1.0001 := by
    intro a S s fa fS ha hs h
    have hb := abs_mul_le' ha hs (show (1.0001 : ℝ) * 1 ≤ 1.0001 by norm_num)
    exact ⟨(App.exact (B := B) fa).mul (⟨S, rfl, fS, h⟩ : App (F64.fin S : F64 B) s (5.06 * uu)) ha hs hb (by unfold uu; norm_num) (by unfold uu; norm_num), hb⟩
  have hl : len (cross n e) ≤ 1.0001 := by have := len_cross_le n e; rw [he, mul_one] at this; exact this.trans n2
  have k : ∀ {X Y : F64 B} {x y : ℝ}, App X x (6.065 * uu) → App Y y (6.065 * uu) → |x - y| ≤ 1.0001 → App (X - Y) (x - y) (13.15 * uu) := by
    intro X Y x y hX hY hb
    exact hX.sub hY hb (by unfold uu; norm_num) (by unfold uu; norm_num)
  have hx := (abs_x_le_len (cross n e)).trans hl
  have hy := (abs_y_le_len (cross n e)).trans hl
  have hz := (abs_z_le_len (cross n e)).trans hl
  exact ⟨k (m hn.2.1 hE.2.2 y1 ez c3).1 (m hn.2.2 hE.2.1 z1 ey c2).1 hx, k (m hn.2.2 hE.1 z1 ex c1).1 (m hn.1 hE.2.2 x1 ez c3).1 hy,
    k (m hn.1 hE.2.1 x1 ey c2).1 (m hn.2.1 hE.1 y1 ex c1).1 hz⟩

/-- the direction of travel -/
theorem comb1_flt {X Y C S : F64 B} {x y c s : ℝ} (hX : App X x (13.15 * uu)) (hY : App Y y (5.06 * uu)) (hC : App C c (4.01 * uu)) (hS : App S s (4.01 * uu))
    (hx : |x| ≤ 1.001) (hy : |y| ≤ 1) (hc : |c| ≤ 1) (hs : |s| ≤ 1) (hb : |x * c + y * s| ≤ 1.001) :
    App (X * C + Y * S) (x * c + y * s) (29.3 * uu) := by
  have h1 := hX.mul hC hx hc (abs_mul_le' hx hc (show (1.001 : ℝ) * 1 ≤ 1.001 by norm_num)) (e := 18.18 * uu) (by unfold uu; norm_num) (by unfold uu; norm_num)
  have h2 := hY.mul hS hy hs (abs_mul_le' hy hs (show (1 : ℝ) * 1 ≤ 1 by norm_num)) (e := 10.08 * uu) (by unfold uu; norm_num) (by unfold uu; norm_num)
  exact h1.add h2 hb (by unfold uu; norm_num) (by unfold uu; norm_num)

/-- the destination -/
theorem comb2_flt {X Y C S : F64 B} {x y c s : ℝ} (hX : App X x 0) (hY : App Y y (29.3 * uu)) (hC : App C c (4.01 * uu)) (hS : App S s (4.01 * uu))
    (hx : |x| ≤ 1.001) (hy : |y| ≤ 1.001) (hc : |c| ≤ 1) (hs : |s| ≤ 1) (hb : |x * c + y * s| ≤ 1.001) :
    App (X * C + Y * S) (x * c + y * s) (40.4 * uu) := by
  have h1 := hX.mul hC hx hc (abs_mul_le' hx hc (show (1.001 : ℝ) * 1 ≤ 1.001 by norm_num)) (e := 5.02 * uu) (by unfold uu; norm_num) (by unfold uu; norm_num)
  have h2 := hY.mul hS hy hs (abs_mul_le' hy hs (show (1.001 : ℝ) * 1 ≤ 1.001 by norm_num)) (e := 34.33 * uu) (by unfold uu; norm_num) (by unfold uu; norm_num)
  exact h1.add h2 hb (by unfold uu; norm_num) (by unfold uu; norm_num)

/-- a combination of two orthogonal vectors of length at most `L` with a cosine and a sine -/
theorem len_comb_le {v w : V3 ℝ} {L c s : ℝ} (hv : len v ≤ L) (hw : len w ≤ L) (ho : dot v w = 0) (hcs : c ^ 2 + s ^ 2 = 1) :
    len (c • v + s • w) ≤ L := by
  have L0 := (len_nonneg' v).trans hv
  have e : len (c • v + s • w) ^ 2 = c ^ 2 * len v ^ 2 + s ^ 2 * len w ^ 2 := by
    have ho' : 2 * (c * s) * dot v w = 0 := by rw [ho, mul_zero]
    simp only [len_sq]
    unfold dot at ho'
    simp only [add_x, add_y, add_z, smul_x, smul_y, smul_z]
    linear_combination ho'
  have h1 := mul_le_mul_of_nonneg_left (pow_le_pow_left₀ (len_nonneg' v) hv 2) (sq_nonneg c)
  have h2 := mul_le_mul_of_nonneg_left (pow_le_pow_left₀ (len_nonneg' w) hw 2) (sq_nonneg s)
  exact abs_le_of_sq_le_sq' (by rw [e]; calc c ^ 2 * len v ^ 2 + s ^ 2 * len w ^ 2 ≤ (c ^ 2 + s ^ 2) * L ^ 2 := by linarith
    _ = L ^ 2 := by rw [hcs, one_mul]) L0 |>.2

/-- the destination, from a computed east direction -/
theorem reach_flt {n E e : V3 ℝ} (hn : IsF64V n) (hE : IsF64V E) (n2 : len n ≤ 1.0001) (he : len e = 1) (ho : dot n e = 0) (hc : CloseV E e (5.06 * uu)) (d az : ℝ) :
    App3 (add3 (scale3 (n.flt : V3 (F64 B)) (PyFloat.cos (F64.fin d))) (scale3 (add3 (scale3 (cross3 n.flt E.flt) (PyFloat.cos (F64.fin az)))
      (scale3 E.flt (PyFloat.sin (F64.fin az)))) (PyFloat.sin (F64.fin d)))) (reach n e d az) (40.4 * uu) := by
  have hN := cross_near_flt (B := B) hn hE n2 he hc
  have t := fun x => App.sin (B := B) (e := 4.01 * uu) x (by unfold uu; norm_num)
  have u := fun x => App.cos (B := B) (e := 4.01 * uu) x (by unfold uu; norm_num)
  have s1 := Real.abs_sin_le_one
  have c1 := Real.abs_cos_le_one
  have hl : len (cross n e) ≤ 1.001 := by have := len_cross_le n e; rw [he, mul_one] at this; exact (this.trans n2).trans (by norm_num)
  have n3 : len n ≤ 1.001 := n2.trans (by norm_num)
  have o1 : dot (cross n e) e = 0 := by unfold dot cross; ring
  obtain ⟨D, hD⟩ : ∃ D, D = Real.cos az • cross n e + Real.sin az • e := ⟨_, rfl⟩
  have hDl : len D ≤ 1.001 := by rw [hD]; exact len_comb_le hl (by rw [he]; norm_num) o1 (Real.cos_sq_add_sin_sq az)
  have o2 : dot n D = 0 := by
    have : dot n D = Real.cos az * dot n (cross n e) + Real.sin az * dot n e := by
      rw [hD]; unfold dot; simp only [add_x, add_y, add_z, smul_x, smul_y, smul_z]; ring
    rw [this, ho, show dot n (cross n e) = 0 by unfold dot cross; ring]; ring
  have hRl : len (reach n e d az) ≤ 1.001 := by unfold reach; rw [← hD]; exact len_comb_le n3 hDl o2 (Real.cos_sq_add_sin_sq d)
  have hR : reach n e d az = Real.cos d • n + Real.sin d • D := by rw [hD]; rfl
  obtain ⟨k1, k2, k3⟩ := hN
  have comp : ∀ {F : V3 ℝ → ℝ} {f : V3 (F64 B) → F64 B}, (∀ v, |F v| ≤ len v) → (∀ v w, F (v + w) = F v + F w) → (∀ (c : ℝ) v, F (c • v) = c * F v) →
      App (f (cross3 n.flt E.flt)) (F (cross n e)) (13.15 * uu) → App (f E.flt) (F e) (5.06 * uu) → App (f n.flt) (F n) 0 →
      App (f n.flt * PyFloat.cos (F64.fin d) + (f (cross3 n.flt E.flt) * PyFloat.cos (F64.fin az) + f E.flt * PyFloat.sin (F64.fin az)) * PyFloat.sin (F64.fin d))
        (F (reach n e d az)) (40.4 * uu) := by
    intro F f hF ha hs a1 a2 a3
    have eD : F (cross n e) * Real.cos az + F e * Real.sin az = F D := by rw [hD, ha, hs, hs]; ring
    have eR : F n * Real.cos d + F D * Real.sin d = F (reach n e d az) := by rw [hR, ha, hs, hs]; ring
    have b1 := comb1_flt a1 a2 (u az) (t az) ((hF _).trans hl) ((hF _).trans he.le) (c1 az) (s1 az) (by rw [eD]; exact (hF _).trans hDl)
    rw [eD] at b1
    have b2 := comb2_flt a3 b1 (u d) (t d) ((hF _).trans n3) ((hF _).trans hDl) (c1 d) (s1 d) (by rw [eR]; exact (hF _).trans hRl)
    rwa [eR] at b2
  exact ⟨comp (F := V3.x) (f := V3.x) abs_x_le_len (fun _ _ => rfl) (fun _ _ => rfl) k1 ⟨_, rfl, hE.1, hc.1⟩ (App.exact hn.1),
    comp (F := V3.y) (f := V3.y) abs_y_le_len (fun _ _ => rfl) (fun _ _ => rfl) k2 ⟨_, rfl, hE.2.1, hc.2.1⟩ (App.exact hn.2.1),
    comp (F := V3.z) (f := V3.z) abs_z_le_len (fun _ _ => rfl) (fun _ _ => rfl) k3 ⟨_, rfl, hE.2.2, hc.2.2⟩ (App.exact hn.2.2)⟩

theorem angle_dirOf_left {v w : V3 ℝ} (hv : v ≠ 0) : angle (dirOf v) w = angle v w := by
  have l0 := len_pos hv
  unfold angle
  rw [dot_dirOf_left, (dirOf_unit hv).len]
  congr 1
  field_simp

theorem angle_dirOf_right {v w : V3 ℝ} (hw : w ≠ 0) : angle v (dirOf w) = angle v w := by
  rw [angle_comm, angle_dirOf_left hw, angle_comm]

/-- the angle between a unit vector and a vector that is close to it -/
theorem angle_le_of_len {W P : V3 ℝ} {ε : ℝ} (hP : UnitVec P) (h : len (W - P) ≤ ε) (hε : ε ≤ 1e-3) : W ≠ 0 ∧ angle W P ≤ 1.002 * ε := by
  have ε0 := (len_nonneg' _).trans h
  have lW : 1 - ε ≤ len W := by
    have := len_add_le W (P - W)
    rw [show W + (P - W) = P by ext <;> simp, hP.len, show P - W = (-1 : ℝ) • (W - P) by ext <;> simp, len_smul, abs_neg, abs_one, one_mul] at this
    linarith
  have W0 : W ≠ 0 := by rintro rfl; simp [len] at lW; norm_num at hε; linarith
  refine ⟨W0, ?_⟩
  have hWP : W = P + (W - P) := by ext <;> simp
  have c1 : cross W P = cross (W - P) P := by ext <;> simp [cross] <;> ring
  have hc : len (cross W P) ≤ ε := by
    rw [c1]; refine (len_cross_le _ _).trans ?_; rw [hP.len, mul_one]; exact h
  have hd : 0 < dot W P := by
    have e : dot W P = 1 + dot (W - P) P := by
      rw [← hP.dot]; unfold dot; simp; ring
    have := abs_le.mp (abs_dot_le (W - P) P)
    rw [hP.len, mul_one] at this
    rw [e]; norm_num at hε; linarith
  have hs := sin_angle W0 hP.ne
  have hco := cos_angle W0 hP.ne
  rw [hP.len, mul_one] at hs hco
  obtain ⟨θ, hθ⟩ : ∃ θ, θ = angle W P := ⟨_, rfl⟩
  rw [← hθ] at hs hco ⊢
  have t0 : 0 ≤ θ := hθ ▸ angle_nonneg _ _
  have tπ : θ ≤ Real.pi := hθ ▸ angle_le_pi _ _
  have lp := len_pos W0
  have cp : 0 < Real.cos θ := by
    by_contra hn; push Not at hn
    have := mul_nonpos_of_nonneg_of_nonpos lp.le hn
    linarith
  have t2 : θ ≤ Real.pi / 2 := by
    by_contra hn; push Not at hn
    have := Real.cos_nonpos_of_pi_div_two_le_of_le hn.le (by linarith [Real.pi_pos])
    linarith
  have s1 : 0.999 * Real.sin θ ≤ ε := by
    have s0 : 0 ≤ Real.sin θ := Real.sin_nonneg_of_nonneg_of_le_pi t0 tπ
    have : (1 - ε) * Real.sin θ ≤ len W * Real.sin θ := mul_le_mul_of_nonneg_right lW s0
    have h3 : 0.999 * Real.sin θ ≤ (1 - ε) * Real.sin θ := mul_le_mul_of_nonneg_right (by norm_num at hε ⊢; linarith) s0
    linarith
  have s2 := Real.mul_le_sin t0 t2
  have hπ := Real.pi_lt_d2
  have t3 : θ ≤ 2e-3 := by
    have : 0.63 * θ ≤ 2 / Real.pi * θ := mul_le_mul_of_nonneg_right (by rw [le_div_iff₀ Real.pi_pos]; linarith) t0
    norm_num at hε ⊢ s1; linarith
  rcases t0.eq_or_lt with h0 | h0
  · rw [← h0]; linarith
  have s3 := Real.sin_gt_sub_cube h0
  have s4 : θ ^ 3 / 6 ≤ 0.000001 * θ := by
    have : θ ^ 2 ≤ (2e-3) ^ 2 := pow_le_pow_left₀ t0 t3 2
    have := mul_le_mul_of_nonneg_right this t0
    norm_num at this ⊢
    rw [show θ ^ 3 = θ ^ 2 * θ by ring]; linarith
  norm_num at s1 s4 ⊢
  linarith

theorem unit_zero_flt : unit (V3.flt 0 : V3 (F64 B)) = V3.flt ⟨1, 0, 0⟩ := by
  have hn : norm3 (V3.flt 0 : V3 (F64 B)) = F64.fin 0 := by
    change norm3 (⟨F64.fin 0, F64.fin 0, F64.fin 0⟩ : V3 (F64 B)) = _
    unfold norm3
    dsimp only
    rw [zero_mul', zero_add' fin64_zero, zero_add' fin64_zero, fin_sqrt le_rfl (by norm_num), Real.sqrt_zero, B.rounds.zero]
  unfold unit
  dsimp only
  rw [hn, lit_zero, lit_one, fin_eq, if_pos (by simp), one_mul' fin64_one, zero_mul']
  rfl

/-- the effect of a position that is not exactly of unit length -/
theorem reach_near {n e : V3 ℝ} {δ : ℝ} (hn : n ≠ 0) (hδ : |len n - 1| ≤ δ) (he : len e = 1) (d az : ℝ) :
    len (reach n e d az - reach (dirOf n) e d az) ≤ δ := by
  obtain ⟨m, hm⟩ : ∃ m, m = dirOf n := ⟨_, rfl⟩
  have hu : UnitVec m := hm ▸ dirOf_unit hn
  have hnm : n = len n • m := by rw [hm]; exact (smul_dirOf n).symm
  have e1 : reach n e d az - reach m e d az = (len n - 1) • (Real.cos d • m + (Real.sin d * Real.cos az) • cross m e) := by
    have : cross n e = len n • cross m e := by
      conv_lhs => rw [hnm]
      ext <;> simp [cross] <;> ring
    unfold reach
    rw [this]
    conv_lhs => rw [hnm]
    rw [len_smul, hu.len, mul_one, abs_of_nonneg (len_nonneg' n)]
    ext <;> simp <;> ring
  rw [← hm, e1, len_smul]
  have h1 : len (Real.cos d • m + (Real.sin d * Real.cos az) • cross m e) ≤ 1 := by
    have hc : len (cross m e) ≤ 1 := by have := len_cross_le m e; rw [he, hu.len, mul_one] at this; exact this
    have h2 : len (Real.cos az • cross m e) ≤ 1 := by
      rw [len_smul]; exact mul_le_one₀ (Real.abs_cos_le_one az) (len_nonneg' _) hc
    have o : dot m (Real.cos az • cross m e) = 0 := by unfold dot cross; simp; ring
    have := len_comb_le hu.len.le h2 o (Real.cos_sq_add_sin_sq d)
    rwa [show Real.sin d • Real.cos az • cross m e = (Real.sin d * Real.cos az) • cross m e by ext <;> simp [mul_assoc]] at this
  calc _ ≤ δ * 1 := mul_le_mul hδ h1 (len_nonneg' _) ((abs_nonneg _).trans hδ)
    _ = δ := mul_one δ

end Nv
