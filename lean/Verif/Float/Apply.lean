import Verif.Float.Wander

/-!
# Scalar products and matrix-vector products of any size
-/

namespace Nv
open Spec F64
variable {B : Binary64}

theorem sum_abs_mul_le (v w : V3 ℝ) : |v.x * w.x| + |v.y * w.y| + |v.z * w.z| ≤ len v * len w := by
  have h := abs_dot_le ⟨|v.x|, |v.y|, |v.z|⟩ ⟨|w.x|, |w.y|, |w.z|⟩
  rw [len_abs, len_abs] at h
  refine le_trans ?_ h
  refine le_trans (le_of_eq ?_) (le_abs_self _)
  simp only [dot, abs_mul]

/-- the sum of three products -/
theorem app_dot3' {v w : V3 ℝ} (hv : IsF64V v) (hw : IsF64V w) (hl : len v * len w ≤ 10 ^ 58) :
    App (dot3 (v.flt : V3 (F64 B)) w.flt) (dot v w) (3.01 * uu * (len v * len w) + 1e-59) := by
  have hs := sum_abs_mul_le v w
  have hu := uu_pos
  have us : uu ≤ 0.0001 := by unfold uu; norm_num
  obtain ⟨L, hL⟩ : ∃ L, L = len v * len w := ⟨_, rfl⟩
  rw [← hL] at hs hl ⊢
  have a1 := abs_nonneg (v.x * w.x)
  have a2 := abs_nonneg (v.y * w.y)
  have a3 := abs_nonneg (v.z * w.z)
  obtain ⟨p, hp⟩ : ∃ p, p = |v.x * w.x| := ⟨_, rfl⟩
  obtain ⟨q, hq⟩ : ∃ q, q = |v.y * w.y| := ⟨_, rfl⟩
  obtain ⟨r, hr⟩ : ∃ r, r = |v.z * w.z| := ⟨_, rfl⟩
  have bx : |v.x * w.x| ≤ p := hp.ge
  have bY : |v.y * w.y| ≤ q := hq.ge
  have bz : |v.z * w.z| ≤ r := hr.ge
  rw [← hp] at a1 hs
  rw [← hq] at a2 hs
  rw [← hr] at a3 hs
  have u1 := mul_nonneg hu.le a1
  have u2 := mul_nonneg hu.le a2
  have u3 := mul_nonneg hu.le a3
  have v1 := mul_le_mul_of_nonneg_right us u1
  have v2 := mul_le_mul_of_nonneg_right us u2
  have v3 := mul_le_mul_of_nonneg_right us u3
  have w1 := mul_le_mul_of_nonneg_right us a1
  have w2 := mul_le_mul_of_nonneg_right us a2
  have w3 := mul_le_mul_of_nonneg_right us a3
  have hL2 := mul_le_mul_of_nonneg_left hs hu.le
  have t0 : uu * (1 / 10 ^ 60) ≤ 0.0001 * (1 / 10 ^ 60) := mul_le_mul_of_nonneg_right us (by norm_num)
  have t1 : (1 / 10 ^ 60 : ℝ) ≤ 1 := by norm_num
  have t2 : 10 * (1 / 10 ^ 60 : ℝ) ≤ 1e-59 := by norm_num
  have t3 : (10 : ℝ) ^ 58 + 10 ^ 58 ≤ 10 ^ 60 := by norm_num
  have t4 : (1 : ℝ) ≤ 10 ^ 56 ∧ (100 : ℝ) * 10 ^ 56 = 10 ^ 58 := by norm_num
  have t5 : (0 : ℝ) ≤ 1 / 10 ^ 60 := by norm_num
  have h1 := app_mul_exact (B := B) hv.1 hw.1 bx (e := uu * p + (1 / 10 ^ 60)) (by linarith only [hs, hl, t3, a2, a3, a1]) (by linarith only)
  have h2 := app_mul_exact (B := B) hv.2.1 hw.2.1 bY (e := uu * q + (1 / 10 ^ 60)) (by linarith only [hs, hl, t3, a2, a3, a1]) (by linarith only)
  have h3 := app_mul_exact (B := B) hv.2.2 hw.2.2 bz (e := uu * r + (1 / 10 ^ 60)) (by linarith only [hs, hl, t3, a2, a3, a1]) (by linarith only)
  norm_num at v1 v2 v3 w1 w2 w3 t0
  have h12 := h1.add h2 (b := p + q) (e := 2.001 * (uu * p) + 2.001 * (uu * q) + 3.1 * (1 / 10 ^ 60)) ((abs_add_le _ _).trans (by linarith only [bx, bY]))
    (by norm_num; linarith only [v1, v2, t0, u1, u2, t5]) (by linarith only [w1, w2, hs, hl, a1, a2, a3, t1, t3, t4])
  refine h12.add h3 (b := p + q + r) ((abs_add_three _ _ _).trans (by linarith only [bx, bY, bz])) ?_ ?_
  · norm_num
    linarith only [v1, v2, v3, t0, t2, u1, u2, u3, t5, hL2]
  · norm_num
    linarith only [w1, w2, w3, hs, hl, a1, a2, a3, t1, t3, t4]

theorem Spec.CloseV.len_le' {v w : V3 ℝ} {e : ℝ} (h : CloseV v w e) : len v ≤ len w + 1.7321 * e := by
  have t := len_add_le (v - w) w
  have e1 : v - w + w = v := by ext <;> simp
  rw [e1] at t
  linarith only [t, h.len_le]

/-- one component of a product with a matrix whose rows are close to unit vectors -/
theorem app_row {w P c q : V3 ℝ} {e₁ e₂ L : ℝ} (fw : IsF64V w) (fP : IsF64V P) (hw : CloseV w c e₁) (hP : CloseV P q e₂) (hc : len c = 1)
    (he : e₁ ≤ 0.0001) (hL : len q + 1.7321 * e₂ ≤ L) (hL' : L ≤ 10 ^ 57) :
    App (dot3 (w.flt : V3 (F64 B)) P.flt) (dot c q) ((3.02 * uu + 1.7321 * e₁) * L + 1.7321 * e₂ + 1e-59) := by
  have hu := uu_pos
  have e1' : 0 ≤ e₁ := (abs_nonneg _).trans hw.1
  have lw : len w ≤ 1.001 := by
    have := hw.len_le'
    rw [hc] at this
    norm_num at this he ⊢
    linarith only [this, he]
  have lP : len P ≤ L := hP.len_le'.trans hL
  have hP0 := len_nonneg' P
  have hwP : len w * len P ≤ 1.001 * L := mul_le_mul lw lP hP0 (by norm_num)
  have L0 : 0 ≤ L := hP0.trans lP
  have h := app_dot3' (B := B) fw fP (hwP.trans (by
    have : (1.001 : ℝ) * 10 ^ 57 ≤ 10 ^ 58 := by norm_num
    refine le_trans (mul_le_mul_of_nonneg_left hL' (by norm_num)) this))
  refine h.shift (b := 1.7321 * e₁ * L + 1.7321 * e₂) ?_ ?_
  · have e3 : dot w P - dot c q = dot P (w - c) + dot c (P - q) := by
      simp only [dot, sub_x, sub_y, sub_z]; ring
    rw [e3]
    refine (abs_add_le _ _).trans ?_
    have b1 := hw.dot_le (u := P)
    have b2 := hP.dot_le (u := c)
    rw [hc, mul_one] at b2
    have b3 := mul_le_mul_of_nonneg_right lP e1'
    norm_num at b1 b2 ⊢
    linarith only [b1, b2, b3]
  · have := mul_le_mul_of_nonneg_left hwP (show 0 ≤ 3.01 * uu by linarith only [hu])
    have k := mul_nonneg hu.le L0
    norm_num at this ⊢
    linarith only [this, k]

theorem len_of_dot {v : V3 ℝ} (hv : dot v v = 1) : len v = 1 := by
  unfold len; rw [Real.sqrt_eq_one]; rw [← hv]; unfold dot; ring

/-- `M.T p` for a computed rotation matrix and a computed vector -/
theorem mulVec_tr_flt {W N : M3 ℝ} {P q : V3 ℝ} {e₁ e₂ L : ℝ} (hN : IsRotation N) (fW : IsF64M W) (fP : IsF64V P) (hW : CloseM W N e₁)
    (hP : CloseV P q e₂) (he : e₁ ≤ 0.0001) (hL : len q + 1.7321 * e₂ ≤ L) (hL' : L ≤ 10 ^ 57) :
    ∃ Q : V3 ℝ, mulVec (tr (W.flt : M3 (F64 B))) P.flt = Q.flt ∧ IsF64V Q ∧
      CloseV Q (app (transp N) q) ((3.02 * uu + 1.7321 * e₁) * L + 1.7321 * e₂ + 1e-59) := by
  obtain ⟨k0, k1, k2⟩ := hW.cols
  obtain ⟨x, hx, fx, bx⟩ := app_row (B := B) (w := col0 W) (c := col0 N) ⟨fW.1.1, fW.2.1.1, fW.2.2.1⟩ fP k0 hP (len_of_dot hN.c00) he hL hL'
  obtain ⟨y, hy, fy, bY⟩ := app_row (B := B) (w := col1 W) (c := col1 N) ⟨fW.1.2.1, fW.2.1.2.1, fW.2.2.2.1⟩ fP k1 hP (len_of_dot hN.c11) he hL hL'
  obtain ⟨z, hz, fz, bz⟩ := app_row (B := B) (w := col2 W) (c := col2 N) ⟨fW.1.2.2, fW.2.1.2.2, fW.2.2.2.2⟩ fP k2 hP (len_of_dot hN.c22) he hL hL'
  refine ⟨⟨x, y, z⟩, ?_, ⟨fx, fy, fz⟩, bx, bY, bz⟩
  exact V3.ext hx hy hz

/-- `M p` for a computed rotation matrix and a computed vector -/
theorem mulVec_flt {W N : M3 ℝ} {P q : V3 ℝ} {e₁ e₂ L : ℝ} (hN : IsRotation N) (fW : IsF64M W) (fP : IsF64V P) (hW : CloseM W N e₁)
    (hP : CloseV P q e₂) (he : e₁ ≤ 0.0001) (hL : len q + 1.7321 * e₂ ≤ L) (hL' : L ≤ 10 ^ 57) :
    ∃ Q : V3 ℝ, mulVec (W.flt : M3 (F64 B)) P.flt = Q.flt ∧ IsF64V Q ∧
      CloseV Q (app N q) ((3.02 * uu + 1.7321 * e₁) * L + 1.7321 * e₂ + 1e-59) := by
  have hT := hN.transpose
  obtain ⟨x, hx, fx, bx⟩ := app_row (B := B) (w := W.r0) (c := N.r0) fW.1 fP hW.1 hP (len_of_dot hT.c00) he hL hL'
  obtain ⟨y, hy, fy, bY⟩ := app_row (B := B) (w := W.r1) (c := N.r1) fW.2.1 fP hW.2.1 hP (len_of_dot hT.c11) he hL hL'
  obtain ⟨z, hz, fz, bz⟩ := app_row (B := B) (w := W.r2) (c := N.r2) fW.2.2 fP hW.2.2 hP (len_of_dot hT.c22) he hL hL'
  exact ⟨⟨x, y, z⟩, V3.ext hx hy hz, ⟨fx, fy, fz⟩, bx, bY, bz⟩

end Nv

namespace Nv
open Spec F64
variable {B : Binary64}

/-- the product of two computed rotation matrices -/
theorem mdot_flt {W W' N N' : M3 ℝ} {e e' k : ℝ} (hN : IsRotation N) (hN' : IsRotation N') (fW : IsF64M W) (fW' : IsF64M W')
    (hW : CloseM W N e) (hW' : CloseM W' N' e') (he : e ≤ 0.0001) (he' : e' ≤ 0.0001)
    (hk : (3.02 * uu + 1.7321 * e) * (1 + 1.7321 * e') + 1.7321 * e' + 1e-59 ≤ k) :
    ∃ V : M3 ℝ, mdot (W.flt : M3 (F64 B)) W'.flt = V.flt ∧ IsF64M V ∧ CloseM V (mmul N N') k := by
  have hT := hN.transpose
  obtain ⟨k0, k1, k2⟩ := hW'.cols
  have f0 : IsF64V (col0 W') := ⟨fW'.1.1, fW'.2.1.1, fW'.2.2.1⟩
  have f1 : IsF64V (col1 W') := ⟨fW'.1.2.1, fW'.2.1.2.1, fW'.2.2.2.1⟩
  have f2 : IsF64V (col2 W') := ⟨fW'.1.2.2, fW'.2.1.2.2, fW'.2.2.2.2⟩
  have row : ∀ {w c : V3 ℝ}, IsF64V w → CloseV w c e → len c = 1 →
      ∃ v : V3 ℝ, (⟨dot3 (w.flt : V3 (F64 B)) (col0 W').flt, dot3 w.flt (col1 W').flt, dot3 w.flt (col2 W').flt⟩ : V3 (F64 B)) = v.flt ∧ IsF64V v ∧
        CloseV v ⟨dot c (col0 N'), dot c (col1 N'), dot c (col2 N')⟩ k := by
    intro w c fw cw lc
    have col : ∀ {P q : V3 ℝ}, IsF64V P → CloseV P q e' → len q = 1 → App (dot3 (w.flt : V3 (F64 B)) P.flt) (dot c q) k := by
      intro P q fP hP lq
      refine (app_row (B := B) fw fP cw hP lc he (L := 1 + 1.7321 * e') (by rw [lq]) ?_).mono hk
      refine le_trans ?_ (by norm_num : (2 : ℝ) ≤ 10 ^ 57)
      norm_num at he' ⊢
      linarith only [he']
    obtain ⟨x, hx, fx, bx⟩ := col f0 k0 (len_of_dot hN'.c00)
    obtain ⟨y, hy, fy, bY⟩ := col f1 k1 (len_of_dot hN'.c11)
    obtain ⟨z, hz, fz, bz⟩ := col f2 k2 (len_of_dot hN'.c22)
    exact ⟨⟨x, y, z⟩, V3.ext hx hy hz, ⟨fx, fy, fz⟩, bx, bY, bz⟩
  obtain ⟨v0, h0, g0, c0⟩ := row fW.1 hW.1 (len_of_dot hT.c00)
  obtain ⟨v1, h1, g1, c1⟩ := row fW.2.1 hW.2.1 (len_of_dot hT.c11)
  obtain ⟨v2, h2, g2, c2⟩ := row fW.2.2 hW.2.2 (len_of_dot hT.c22)
  refine ⟨⟨v0, v1, v2⟩, ?_, ⟨g0, g1, g2⟩, c0, c1, c2⟩
  have : mdot (W.flt : M3 (F64 B)) W'.flt = ⟨v0.flt, v1.flt, v2.flt⟩ := by rw [← h0, ← h1, ← h2]; rfl
  exact this

/-- through a computed rotation and back: `M (M.T p)` and `M.T (M p)` -/
theorem there_and_back {W N : M3 ℝ} {P : V3 ℝ} {e k : ℝ} (hN : IsRotation N) (fW : IsF64M W) (fP : IsF64V P) (hW : CloseM W N e)
    (e0 : 0 ≤ e) (he : e ≤ 0.00001) (hP : len P ≤ 10 ^ 50) (hk : 2.7323 * (3.02 * uu + 1.7321 * e) ≤ k) :
    (∃ Q S : V3 ℝ, mulVec (tr (W.flt : M3 (F64 B))) P.flt = Q.flt ∧ mulVec (W.flt : M3 (F64 B)) Q.flt = S.flt ∧ IsF64V S ∧
      CloseV S P (k * len P + 1e-58)) ∧
    (∃ Q S : V3 ℝ, mulVec (W.flt : M3 (F64 B)) P.flt = Q.flt ∧ mulVec (tr (W.flt : M3 (F64 B))) Q.flt = S.flt ∧ IsF64V S ∧
      CloseV S P (k * len P + 1e-58)) := by
  have hP0 := len_nonneg' P
  have hu := uu_pos
  obtain ⟨κ, hκ⟩ : ∃ κ, κ = 3.02 * uu + 1.7321 * e := ⟨_, rfl⟩
  have κ0 : 0 ≤ κ := by rw [hκ]; positivity
  have κs : κ ≤ 0.00002 := by
    have : 3.02 * uu ≤ 0.000001 := by unfold uu; norm_num
    rw [hκ]; norm_num at this he ⊢; linarith only [this, he]
  have hc : CloseV P P 0 := ⟨by simp, by simp, by simp⟩
  have hl : len P + 1.7321 * 0 ≤ len P := by rw [mul_zero, add_zero]
  have t0 : (0 : ℝ) ≤ 1e-59 ∧ (1e-59 : ℝ) ≤ 1 ∧ 4 * (1e-59 : ℝ) ≤ 1e-58 := by norm_num
  have l57 : (10 : ℝ) ^ 50 + 10 ^ 50 + 10 ≤ 10 ^ 57 := by norm_num
  have kP := mul_nonneg κ0 hP0
  have kP2 := mul_le_mul_of_nonneg_right κs kP
  have kP3 := mul_le_mul_of_nonneg_right κs hP0
  have hkP := mul_le_mul_of_nonneg_right (hκ ▸ hk) hP0
  have t1 : κ * 1e-59 ≤ 0.00002 * 1e-59 := mul_le_mul_of_nonneg_right κs t0.1
  constructor
  · obtain ⟨Q, h1, fQ, hQ⟩ := mulVec_tr_flt (B := B) hN fW fP hW hc (he.trans (by norm_num)) hl (hP.trans (by norm_num))
    rw [← hκ, mul_zero, add_zero] at hQ
    obtain ⟨S, h2, fS, hS⟩ := mulVec_flt (B := B) hN fW fQ hW hQ (he.trans (by norm_num)) le_rfl (by
      rw [len_app hN.transpose]
      generalize (1e-59 : ℝ) = τ at *
      norm_num at kP3 ⊢
      linarith only [hP, l57, t0.2.1, kP3, kP2, hP0])
    rw [hN.app_trans, len_app hN.transpose, ← hκ] at hS
    refine ⟨Q, S, h1, h2, fS, hS.mono ?_⟩
    generalize (1e-59 : ℝ) = τ at *
    generalize (1e-58 : ℝ) = σ at *
    norm_num at kP2 t1 hkP ⊢
    linarith only [kP2, t1, hkP, t0.1, t0.2.2, kP]
  · obtain ⟨Q, h1, fQ, hQ⟩ := mulVec_flt (B := B) hN fW fP hW hc (he.trans (by norm_num)) hl (hP.trans (by norm_num))
    rw [← hκ, mul_zero, add_zero] at hQ
    obtain ⟨S, h2, fS, hS⟩ := mulVec_tr_flt (B := B) hN fW fQ hW hQ (he.trans (by norm_num)) le_rfl (by
      rw [len_app hN]
      generalize (1e-59 : ℝ) = τ at *
      norm_num at kP3 ⊢
      linarith only [hP, l57, t0.2.1, kP3, kP2, hP0])
    rw [hN.trans_app, len_app hN, ← hκ] at hS
    refine ⟨Q, S, h1, h2, fS, hS.mono ?_⟩
    generalize (1e-59 : ℝ) = τ at *
    generalize (1e-58 : ℝ) = σ at *
    norm_num at kP2 t1 hkP ⊢
    linarith only [kP2, t1, hkP, t0.1, t0.2.2, kP]

end Nv
