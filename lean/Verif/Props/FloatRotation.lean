import Verif.Float.LocalFrame
import Verif.Props.FloatUnit

/-!
# C79 - C81: rotation matrices, Euler angles and local frames in binary64

`RotX`, `RotY`, `RotZ` (`Props/Rotations.lean`) are the exact elementary rotations, `CloseM` and `NearRotation` are in
`Spec/Close.lean`.
-/

namespace Nv
open Spec F64
variable (B : Binary64)

/-! ## C79 -/

theorem Spec.CloseM.mono {M N : M3 ℝ} {e e' : ℝ} (h : CloseM M N e) (he : e ≤ e') : CloseM M N e' := by
  obtain ⟨⟨a1, a2, a3⟩, ⟨b1, b2, b3⟩, ⟨c1, c2, c3⟩⟩ := h
  exact ⟨⟨a1.trans he, a2.trans he, a3.trans he⟩, ⟨b1.trans he, b2.trans he, b3.trans he⟩, ⟨c1.trans he, c2.trans he, c3.trans he⟩⟩
theorem Spec.NearRotation.mono {M : M3 ℝ} {e e' : ℝ} (h : NearRotation M e) (he : e ≤ e') : NearRotation M e' :=
  ⟨h.c00.trans he, h.c11.trans he, h.c22.trans he, h.c01.trans he, h.c02.trans he, h.c12.trans he, h.det.trans he⟩

/-- **C79** for every finite angles the computed `xyz2R` is within `1.7e-15` of the exact rotation in every entry -/
theorem C79_xyz2R (x y z : ℝ) : ∃ W : M3 ℝ, xyz2R (F64.fin x : F64 B) (F64.fin y) (F64.fin z) = W.flt ∧ IsF64M W ∧
    CloseM W (mmul (mmul (RotX x) (RotY y)) (RotZ z)) 1.7e-15 ∧ NearRotation W 1e-14 := by
  obtain ⟨W, h1, h2, h3⟩ := (xyz2R_flt (B := B) x y z).get
  refine ⟨W, h1, h2, h3.mono (by unfold uu; norm_num), ?_⟩
  exact (nearRotation_of_close h3 (((isRotation_RotX x).mul (isRotation_RotY y)).mul (isRotation_RotZ z))
    (by unfold uu; norm_num)).mono (by unfold uu; norm_num)

/-- **C79** the same for `zyx2R` -/
theorem C79_zyx2R (z y x : ℝ) : ∃ W : M3 ℝ, zyx2R (F64.fin z : F64 B) (F64.fin y) (F64.fin x) = W.flt ∧ IsF64M W ∧
    CloseM W (mmul (mmul (RotZ z) (RotY y)) (RotX x)) 1.7e-15 ∧ NearRotation W 1e-14 := by
  obtain ⟨W, h1, h2, h3⟩ := (zyx2R_flt (B := B) z y x).get
  refine ⟨W, h1, h2, h3.mono (by unfold uu; norm_num), ?_⟩
  exact (nearRotation_of_close h3 (((isRotation_RotZ z).mul (isRotation_RotY y)).mul (isRotation_RotX x))
    (by unfold uu; norm_num)).mono (by unfold uu; norm_num)

/-- **C79** all angles zero give the exact identity matrix -/
theorem C79_zero : xyz2R (F64.fin 0 : F64 B) (F64.fin 0) (F64.fin 0) = M3.flt Spec.one ∧
    zyx2R (F64.fin 0 : F64 B) (F64.fin 0) (F64.fin 0) = M3.flt Spec.one := by
  have n0 : (-(F64.fin 0) : F64 B) = F64.fin 0 := by rw [fin_neg, neg_zero]
  have a0 : (F64.fin 0 + F64.fin 0 : F64 B) = F64.fin 0 := zero_add' fin64_zero
  have a1 : (F64.fin 0 + F64.fin 1 : F64 B) = F64.fin 1 := zero_add' fin64_one
  have a2 : (F64.fin 1 + F64.fin 0 : F64 B) = F64.fin 1 := add_zero' fin64_one
  have m1 : (F64.fin 1 * F64.fin 1 : F64 B) = F64.fin 1 := one_mul' fin64_one
  have n1 : (-(F64.fin 1) : F64 B) = F64.fin (-1) := fin_neg 1
  constructor <;>
  simp only [xyz2R, zyx2R, fin_sin, fin_cos, B.sin_zero, B.cos_zero, n0, n1, zero_mul', mul_zero', m1, a0, a1, a2] <;> rfl

/-! ## C80 -/

/-- **C80** the Euler angles read off the computed `xyz2R` are the original angles up to `3.7e-15`, for all binary64 angles in the
principal ranges, with no loss near gimbal lock and no jump of a whole turn -/
theorem C80_R2xyz_xyz2R {x y z : ℝ} (fx : IsF64 x) (fy : IsF64 y) (fz : IsF64 z) (hx : |x| ≤ Real.pi) (hy : |y| ≤ Real.pi / 2)
    (hz : |z| ≤ Real.pi) :
    ∃ x' y' z' : ℝ, R2xyz (xyz2R (F64.fin x : F64 B) (F64.fin y) (F64.fin z)) = (F64.fin x', F64.fin y', F64.fin z') ∧
      IsF64 x' ∧ IsF64 y' ∧ IsF64 z' ∧ |x' - x| ≤ 3.7e-15 ∧ |y' - y| ≤ 3.7e-15 ∧ |z' - z| ≤ 3.7e-15 := by
  have c := fun t => relS_cos (B := B) t
  have s := fun t => relS_sin (B := B) t
  have nn : ∀ t, |-Real.cos t| ≤ 1 := fun t => by rw [abs_neg]; exact abs_cos1 t
  have e : ∀ a b : ℝ, -a * b = -(a * b) := fun a b => by ring
  have h := R2xyz_flt (B := B) (M := xyz2R (F64.fin x) (F64.fin y) (F64.fin z)) fx fz fy hx hy hz
    (rel_p2 (c y) (c z) (abs_cos1 y) (abs_cos1 z)) (e _ _ ▸ rel_p2 (c y).neg (s z) (nn y) (abs_sin1 z)) (s y)
    (e _ _ ▸ rel_p2 (c y).neg (s x) (nn y) (abs_sin1 x)) (rel_p2 (c y) (c x) (abs_cos1 y) (abs_cos1 x))
  obtain ⟨⟨x', h1, f1, d1⟩, ⟨y', h2, f2, d2⟩, ⟨z', h3, f3, d3⟩⟩ := h
  have hb : 33 * uu ≤ 3.7e-15 := by unfold uu; norm_num
  exact ⟨x', y', z', Prod.ext h1 (Prod.ext h2 h3), f1, f2, f3, d1.trans hb, d2.trans hb, d3.trans hb⟩

/-- **C80** the same for `R2zyx` and `zyx2R` -/
theorem C80_R2zyx_zyx2R {z y x : ℝ} (fz : IsF64 z) (fy : IsF64 y) (fx : IsF64 x) (hz : |z| ≤ Real.pi) (hy : |y| ≤ Real.pi / 2)
    (hx : |x| ≤ Real.pi) :
    ∃ z' y' x' : ℝ, R2zyx (zyx2R (F64.fin z : F64 B) (F64.fin y) (F64.fin x)) = (F64.fin z', F64.fin y', F64.fin x') ∧
      IsF64 z' ∧ IsF64 y' ∧ IsF64 x' ∧ |z' - z| ≤ 3.7e-15 ∧ |y' - y| ≤ 3.7e-15 ∧ |x' - x| ≤ 3.7e-15 := by
  have c := fun t => relS_cos (B := B) t
  have s := fun t => relS_sin (B := B) t
  have h := R2xyz_flt (B := B) (M := tr (zyx2R (F64.fin z) (F64.fin y) (F64.fin x))) fx.neg fz.neg fy.neg (by rwa [abs_neg]) (by rwa [abs_neg])
    (by rwa [abs_neg])
    (by rw [Real.cos_neg, Real.cos_neg, mul_comm]; exact rel_p2 (c z) (c y) (abs_cos1 z) (abs_cos1 y))
    (by rw [Real.cos_neg, Real.sin_neg, mul_neg, neg_neg, mul_comm]; exact rel_p2 (s z) (c y) (abs_sin1 z) (abs_cos1 y))
    (by rw [Real.sin_neg]; exact (s y).neg)
    (by rw [Real.cos_neg, Real.sin_neg, mul_neg, neg_neg]; exact rel_p2 (c y) (s x) (abs_cos1 y) (abs_sin1 x))
    (by rw [Real.cos_neg, Real.cos_neg]; exact rel_p2 (c y) (c x) (abs_cos1 y) (abs_cos1 x))
  obtain ⟨⟨x', h1, f1, d1⟩, ⟨y', h2, f2, d2⟩, ⟨z', h3, f3, d3⟩⟩ := h
  have hb : 33 * uu ≤ 3.7e-15 := by unfold uu; norm_num
  have neg : ∀ {a b : ℝ}, |a - -b| ≤ 33 * uu → |-a - b| ≤ 3.7e-15 := by
    intro a b h
    rw [show -a - b = -(a - -b) by ring, abs_neg]; exact h.trans hb
  refine ⟨-z', -y', -x', ?_, f3.neg, f2.neg, f1.neg, neg d3, neg d2, neg d1⟩
  have e1 := congrArg (fun t : F64 B => -t) h1
  have e2 := congrArg (fun t : F64 B => -t) h2
  have e3 := congrArg (fun t : F64 B => -t) h3
  exact Prod.ext e3 (Prod.ext e2 e1)

/-- the binary64 number nearest to a right angle is in the range of C80 -/
example : IsF64 (884279719003555 / 562949953421312) ∧ |(884279719003555 / 562949953421312 : ℝ)| ≤ Real.pi / 2 := by
  constructor
  · refine ⟨884279719003555, -49, by norm_num, by norm_num, ?_⟩
    norm_num
  · have := Real.pi_gt_d20
    rw [abs_of_pos (by norm_num)]
    norm_num at this ⊢
    linarith

/-! ## C81 -/

variable {R : M3 ℝ} {n : V3 ℝ}

/-- **C81** away from the poles (at least `2^-300` radians) the computed `n_E2R_EN` is within `2.5e-15` in every entry of the rotation whose
columns are north, the unit vector along pole `×` `n`, and `-n / |n|` -/
theorem C81_n_E2R_EN (hR : IsAxes R) (hn : IsF64V n) (n1 : (2 : ℝ) ^ (-500 : ℤ) ≤ len n) (n2 : len n ≤ 10 ^ 60)
    (hp : (2 : ℝ) ^ (-300 : ℤ) * len n ≤ len (cross (northPole R) n)) :
    ∃ W : M3 ℝ, n_E2R_EN (n.flt : V3 (F64 B)) R.flt = W.flt ∧ IsF64M W ∧ NearRotation W 1.4e-14 ∧
      ∃ N : M3 ℝ, IsRotation N ∧ col2 N = -dirOf n ∧ col1 N = dirOf (cross (northPole R) n) ∧ 0 < dot (col0 N) (northPole R) ∧
        CloseM W N 2.5e-15 := by
  have n0 : 0 < len n := lt_of_lt_of_le (by positivity) n1
  have hc : cross (northPole R) n ≠ 0 := by
    intro h
    rw [h, len_eq_zero.mpr rfl] at hp
    exact absurd hp (not_le.mpr (by positivity))
  obtain ⟨N, e1, hN, h2, h1, -⟩ := n_E2R_EN_offpole n R hR.rot hc
  obtain ⟨N', e1', -, -, -, -, h6⟩ := C12_R_EN_north_east n R hR.rot hc
  have hNN : N' = N := M3.fin_inj.mp (e1'.symm.trans e1)
  rw [hNN] at h6
  obtain ⟨W, hW, fW, cW⟩ := R_EN_flt_off (B := B) hR hn n1 n2 hp hN h2 h1
  exact ⟨W, hW, fW, (nearRotation_of_close cW hN (by unfold uu; norm_num)).mono (by unfold uu; norm_num), N, hN, h2, h1, h6,
    cW.mono (by unfold uu; norm_num)⟩

/-- **C81** exactly at a pole the East column is the exact unit vector the documentation promises -/
theorem C81_n_E2R_EN_pole (hR : IsAxes R) (hn : IsF64V n) (n1 : (2 : ℝ) ^ (-500 : ℤ) ≤ len n) (n2 : len n ≤ 10 ^ 60)
    (hp : cross (northPole R) n = 0) :
    ∃ W : M3 ℝ, n_E2R_EN (n.flt : V3 (F64 B)) R.flt = W.flt ∧ IsF64M W ∧ NearRotation W 1.4e-14 ∧
      ∃ N : M3 ℝ, IsRotation N ∧ col2 N = -dirOf n ∧ col1 N = app (transp R) ⟨0, 1, 0⟩ ∧ CloseM W N 2.5e-15 := by
  have n0 : 0 < len n := lt_of_lt_of_le (by positivity) n1
  have hnz : n ≠ 0 := by rintro rfl; rw [len_eq_zero.mpr rfl] at n0; exact lt_irrefl _ n0
  obtain ⟨N, -, hN, h2, h1⟩ := n_E2R_EN_pole n hnz R hR.rot hp
  obtain ⟨W, hW, fW, cW⟩ := R_EN_flt_pole (B := B) hR hn n1 n2 hp hN h2 h1
  exact ⟨W, hW, fW, (nearRotation_of_close cW hN (by unfold uu; norm_num)).mono (by unfold uu; norm_num), N, hN, h2, h1,
    cW.mono (by unfold uu; norm_num)⟩

/-- `R_EN2n_E` negates the last column, exactly -/
theorem R_EL2n_E_flt {W : M3 ℝ} (fW : IsF64M W) (hb : ∀ v ∈ [W.r0, W.r1, W.r2], len v ≤ 10 ^ 60) :
    R_EL2n_E (W.flt : M3 (F64 B)) = (-col2 W).flt := by
  obtain ⟨f0, f1, f2⟩ := fW
  obtain ⟨-, -, a⟩ := fin64V_of_le f0 (hb _ (by simp))
  obtain ⟨-, -, b⟩ := fin64V_of_le f1 (hb _ (by simp))
  obtain ⟨-, -, c⟩ := fin64V_of_le f2 (hb _ (by simp))
  unfold R_EL2n_E mulVec dot3 M3.flt V3.flt
  simp only [lit_zero, lit_neg_one, mul_zero', mul_neg_one' a, mul_neg_one' b, mul_neg_one' c, zero_add' fin64_zero, zero_add' a.neg, zero_add' b.neg,
    zero_add' c.neg]
  rfl

/-- **C81** the n-vector is recovered from its computed local frame up to `2.5e-15` -/
theorem C81_R_EN2n_E (hR : IsAxes R) (hn : IsF64V n) (n1 : (2 : ℝ) ^ (-500 : ℤ) ≤ len n) (n2 : len n ≤ 10 ^ 60)
    (hp : cross (northPole R) n = 0 ∨ (2 : ℝ) ^ (-300 : ℤ) * len n ≤ len (cross (northPole R) n)) :
    ∃ w : V3 ℝ, R_EN2n_E (n_E2R_EN (n.flt : V3 (F64 B)) R.flt) = w.flt ∧ IsF64V w ∧ CloseV w (dirOf n) 2.5e-15 := by
  have main : ∃ W N : M3 ℝ, n_E2R_EN (n.flt : V3 (F64 B)) R.flt = W.flt ∧ IsF64M W ∧ IsRotation N ∧ col2 N = -dirOf n ∧ CloseM W N 2.5e-15 := by
    rcases hp with hp | hp
    · obtain ⟨W, h1, h2, -, N, h3, h4, -, h5⟩ := C81_n_E2R_EN_pole B hR hn n1 n2 hp
      exact ⟨W, N, h1, h2, h3, h4, h5⟩
    · obtain ⟨W, h1, h2, -, N, h3, h4, -, -, h5⟩ := C81_n_E2R_EN B hR hn n1 n2 hp
      exact ⟨W, N, h1, h2, h3, h4, h5⟩
  obtain ⟨W, N, hW, fW, hN, h2, c0, c1, c2⟩ := main
  have hT := hN.transpose
  have row : ∀ {v w : V3 ℝ}, CloseV v w 2.5e-15 → len w = 1 → len v ≤ 10 ^ 60 := by
    intro v w h hw
    have h1 := abs_le.mp (len_close h.1 h.2.1 h.2.2)
    rw [hw] at h1
    refine le_trans ?_ (by norm_num : (2 : ℝ) ≤ 10 ^ 60)
    have := h1.2
    norm_num at this ⊢
    linarith only [this]
  have un : ∀ {v : V3 ℝ}, dot v v = 1 → len v = 1 := fun {v} hv => by
    unfold len; rw [Real.sqrt_eq_one]; rw [← hv]; unfold dot; ring
  refine ⟨-col2 W, ?_, ⟨fW.1.2.2.neg, fW.2.1.2.2.neg, fW.2.2.2.2.neg⟩, ?_⟩
  · rw [hW]
    refine R_EL2n_E_flt B fW ?_
    intro v hv
    simp only [List.mem_cons, List.not_mem_nil, or_false] at hv
    rcases hv with rfl | rfl | rfl
    · exact row c0 (un hT.c00)
    · exact row c1 (un hT.c11)
    · exact row c2 (un hT.c22)
  · have e : dirOf n = -col2 N := by rw [h2]; ext <;> simp
    rw [e]
    have k : ∀ {a b : ℝ}, |a - b| ≤ 2.5e-15 → |-a - -b| ≤ 2.5e-15 := by
      intro a b h; rwa [show -a - -b = -(a - b) by ring, abs_neg]
    exact ⟨k c0.2.2, k c1.2.2, k c2.2.2⟩

/-- one plus something tiny rounds to one -/
theorem fl_one_add {t : ℝ} (h0 : 0 ≤ t) (h1 : t ≤ 2 ^ (-60 : ℤ)) : B.fl (1 + t) = 1 := by
  have hg : 1 ≤ B.fl (1 + t) := B.rounds.ge isF64_one (by linarith)
  obtain ⟨j, hj⟩ := (B.rounds.val (1 + t)).multiple (k := 0) (by simpa using hg)
  have hn := B.rounds.nearest (1 + t) 1 isF64_one
  rw [show 1 - (1 + t) = -t by ring, abs_neg, abs_of_nonneg h0] at hn
  have hn' := (abs_le.mp hn).2
  norm_num at hj h1
  rw [hj] at hn' hg ⊢
  have j1 : (9007199254740992 : ℝ) ≤ j := by linarith
  have j2 : (j : ℝ) < 9007199254740993 := by linarith
  have j1' : (9007199254740992 : ℤ) ≤ j := by exact_mod_cast j1
  have j2' : j < (9007199254740993 : ℤ) := by exact_mod_cast j2
  have : j = 9007199254740992 := by omega
  rw [this]; norm_num

/-- `unit` leaves a vector `(1, y, 0)` with tiny `y` as it is -/
theorem unit_one_tiny {y : ℝ} (fy : IsF64 y) (y0 : 0 ≤ y) (hy : y ≤ (2 : ℝ) ^ (-500 : ℤ)) :
    unit (V3.flt ⟨1, y, 0⟩ : V3 (F64 B)) = V3.flt ⟨1, y, 0⟩ := by
  have a1 : (2 : ℝ) ^ (-500 : ℤ) ≤ 2 ^ (-60 : ℤ) := zpow_le_zpow_right₀ (by norm_num) (by norm_num)
  have a2 : (2 : ℝ) ^ (-60 : ℤ) ≤ 1 := by norm_num
  have y1 : y ≤ 1 := by linarith only [a1, a2, hy]
  have yy : y * y ≤ 2 ^ (-60 : ℤ) := by
    have := mul_le_mul hy y1 y0 (by positivity)
    linarith only [this, a1]
  have f0 := B.rounds.nonneg (mul_self_nonneg y)
  have fyy : B.fl (y * y) ≤ 2 ^ (-60 : ℤ) := B.rounds.le (isF64_two_zpow (by norm_num)) yy
  have nb : |y * y| ≤ 10 ^ 60 := by
    rw [abs_of_nonneg (mul_self_nonneg y)]
    exact yy.trans (a2.trans (by norm_num))
  have big : |1 + B.fl (y * y)| ≤ 10 ^ 60 := by
    rw [abs_of_nonneg (by linarith)]
    refine le_trans ?_ (by norm_num : (2 : ℝ) ≤ 10 ^ 60)
    linarith only [fyy, a2]
  have hn : norm3 (V3.flt ⟨1, y, 0⟩ : V3 (F64 B)) = F64.fin 1 := by
    unfold norm3 V3.flt
    dsimp only
    rw [one_mul' fin64_one, zero_mul', fin_mul nb, fin_add big, fl_one_add B f0 fyy, add_zero' fin64_one, fin_sqrt zero_le_one (by norm_num),
      Real.sqrt_one, B.rounds.exact isF64_one]
  have ht : (PyFloat.addTiny (F64.fin 1 : F64 B)) = F64.fin 1 := by
    have a3 : (2 : ℝ) ^ (-1022 : ℤ) ≤ 2 ^ (-60 : ℤ) := zpow_le_zpow_right₀ (by norm_num) (by norm_num)
    change rnd B (1 + (2 : ℝ) ^ (-1022 : ℤ)) = _
    rw [rnd_fin, fl_one_add B (by positivity) a3]
    rw [abs_of_nonneg (by positivity)]
    refine le_trans ?_ (by norm_num : (2 : ℝ) ≤ 10 ^ 60)
    linarith only [a3, a2]
  unfold unit
  dsimp only
  rw [hn, lit_zero, fin_eq, if_neg (by simp), ht]
  unfold div3 V3.flt
  dsimp only
  rw [fin_div one_ne_zero (by norm_num), fin_div one_ne_zero (by rw [div_one, abs_of_nonneg y0]; exact y1.trans (by norm_num)),
    fin_div one_ne_zero (by norm_num), div_one, div_one, div_one, B.rounds.exact isF64_one, B.rounds.exact fy, B.rounds.exact isF64_zero]

/-- the size of a subnormal square: `361/256` units round to one -/
theorem fl_square_unit : B.fl (19 * (2 : ℝ) ^ (-541 : ℤ) * (19 * 2 ^ (-541 : ℤ))) = 2 ^ (-1074 : ℤ) := by
  have e : 19 * (2 : ℝ) ^ (-541 : ℤ) * (19 * 2 ^ (-541 : ℤ)) = 361 / 256 * 2 ^ (-1074 : ℤ) := by
    have : (2 : ℝ) ^ (-541 : ℤ) * 2 ^ (-541 : ℤ) = 1 / 256 * 2 ^ (-1074 : ℤ) := by
      rw [← zpow_add₀ (by norm_num), show (-541 : ℤ) + -541 = -8 + -1074 by norm_num, zpow_add₀ (by norm_num)]
      norm_num
    linear_combination 361 * this
  rw [e]
  obtain ⟨j, hj⟩ := (B.rounds.val (361 / 256 * 2 ^ (-1074 : ℤ))).multiple_min
  have hn := B.rounds.nearest (361 / 256 * 2 ^ (-1074 : ℤ)) _ (isF64_two_zpow (k := -1074) le_rfl)
  rw [hj] at hn ⊢
  obtain ⟨T, hT⟩ : ∃ T, T = (2 : ℝ) ^ (-1074 : ℤ) := ⟨_, rfl⟩
  rw [← hT] at hn ⊢
  have T0 : 0 < T := by rw [hT]; positivity
  rw [show T - 361 / 256 * T = -(105 / 256 * T) by ring, abs_neg, abs_of_pos (by positivity : 0 < 105 / 256 * T), ← sub_mul, abs_mul, abs_of_pos T0] at hn
  have h2 := le_of_mul_le_mul_right hn T0
  obtain ⟨h3, h4⟩ := abs_le.mp h2
  have j1 : (0 : ℝ) < j := by linarith
  have j2 : (j : ℝ) < 2 := by linarith
  have j1' : (0 : ℤ) < j := by exact_mod_cast j1
  have j2' : j < (2 : ℤ) := by exact_mod_cast j2
  have : j = 1 := by omega
  rw [this]; simp

/-- **C81** closer to the pole the claim is false: for `n = (1, 19 2^-541, 0)` (axes 'E') the computed east column has length `19/16` -/
theorem C81_near_pole_counterexample :
    ∃ W : M3 ℝ, n_E2R_EN (V3.flt ⟨1, 19 * (2 : ℝ) ^ (-541 : ℤ), 0⟩ : V3 (F64 B)) R_E = W.flt ∧ col1 W = ⟨0, 0, 19 / 16⟩ ∧ ¬ NearRotation W 0.4 := by
  obtain ⟨y, hy⟩ : ∃ y, y = 19 * (2 : ℝ) ^ (-541 : ℤ) := ⟨_, rfl⟩
  have fy : IsF64 y := by rw [hy]; exact ⟨19, -541, by norm_num, by norm_num, by norm_num⟩
  have y0 : 0 ≤ y := by rw [hy]; positivity
  have y500 : y ≤ (2 : ℝ) ^ (-500 : ℤ) := by
    rw [hy]
    calc 19 * (2 : ℝ) ^ (-541 : ℤ) ≤ 2 ^ (41 : ℤ) * 2 ^ (-541 : ℤ) := mul_le_mul_of_nonneg_right (by norm_num) (by positivity)
      _ = _ := by rw [← zpow_add₀ (by norm_num)]; norm_num
  have y1 : y ≤ 1 := y500.trans (zpow_le_one_of_nonpos₀ (by norm_num) (by norm_num))
  have f64y : Fin64 y := fin64_of_le fy (by rw [abs_of_nonneg y0]; exact y1.trans (by norm_num))
  have fu : Fin64V (⟨1, y, 0⟩ : V3 ℝ) := ⟨fin64_one, f64y, fin64_zero⟩
  obtain ⟨m1, -⟩ := mulVec_axes (B := B) (R := one) (Or.inr rfl) fu
  have eapp : app one (⟨1, y, 0⟩ : V3 ℝ) = ⟨1, y, 0⟩ := by ext <;> simp [app, one, dot]
  rw [eapp] at m1
  have hsq : (F64.fin y * F64.fin y : F64 B) = F64.fin (2 ^ (-1074 : ℤ)) := by
    rw [fin_mul, hy, fl_square_unit]
    rw [abs_of_nonneg (mul_self_nonneg y)]
    exact (mul_le_one₀ y1 y0 y1).trans (by norm_num)
  have t1 : (2 : ℝ) ^ (-1074 : ℤ) ≤ 1 := zpow_le_one_of_nonpos₀ (by norm_num) (by norm_num)
  have t0 : (0 : ℝ) ≤ 2 ^ (-1074 : ℤ) := by positivity
  have ft : Fin64 ((2 : ℝ) ^ (-1074 : ℤ)) := fin64_of_le (isF64_two_zpow le_rfl) (by rw [abs_of_nonneg t0]; exact t1.trans (by norm_num))
  have hsqrt : Real.sqrt ((2 : ℝ) ^ (-1074 : ℤ)) = 2 ^ (-537 : ℤ) := by
    rw [show (-1074 : ℤ) = -537 + -537 by norm_num, zpow_add₀ (by norm_num)]
    exact Real.sqrt_mul_self (by positivity)
  have hnorm : norm3 (V3.flt ⟨0, -0, y⟩ : V3 (F64 B)) = F64.fin (2 ^ (-537 : ℤ)) := by
    unfold norm3 V3.flt
    dsimp only
    rw [neg_zero, zero_mul', hsq, zero_add' fin64_zero, zero_add' ft, fin_sqrt t0 (t1.trans (by norm_num)), hsqrt,
      B.rounds.exact (isF64_two_zpow (by norm_num))]
  have p0 : (2 : ℝ) ^ (-537 : ℤ) ≠ 0 := by positivity
  have hfln : flNorm B.fl 0 (-0) y = 2 ^ (-537 : ℤ) := by
    have := norm3_flt (B := B) (v := ⟨0, -0, y⟩) (by
      have : len (⟨0, -0, y⟩ : V3 ℝ) = y := by unfold len; simp [Real.sqrt_sq y0]
      rw [this]; exact y1.trans (by norm_num))
    rw [hnorm] at this
    exact (fin_inj.mp this).symm
  have htiny : (PyFloat.addTiny (F64.fin (2 ^ (-537 : ℤ)) : F64 B)) = F64.fin (2 ^ (-537 : ℤ)) := by
    have := addTiny_flNorm (B := B) (v := ⟨0, -0, y⟩) (by dsimp only; rw [hfln]; exact p0) (by
      dsimp only; rw [hfln]; exact (zpow_le_one_of_nonpos₀ (by norm_num) (by norm_num)).trans (one_le_pow₀ (by norm_num)))
    dsimp only at this
    rwa [hfln] at this
  have hdiv : y / 2 ^ (-537 : ℤ) = 19 / 16 := by
    rw [hy, div_eq_iff p0, show (-541 : ℤ) = -4 + -537 by norm_num, zpow_add₀ (by norm_num)]
    norm_num
    ring
  have f19 : IsF64 (19 / 16 : ℝ) := ⟨19, -4, by norm_num, by norm_num, by norm_num⟩
  have hunit : unit (V3.flt ⟨0, -0, y⟩ : V3 (F64 B)) = V3.flt ⟨0, 0, 19 / 16⟩ := by
    unfold unit
    dsimp only
    rw [hnorm, lit_zero, fin_eq, if_neg (by simp [p0]), htiny]
    unfold div3 V3.flt
    dsimp only
    rw [neg_zero, fin_div p0 (by simp), zero_div, B.rounds.zero, fin_div p0 (by rw [hdiv]; norm_num), hdiv, B.rounds.exact f19]
  have fE : Fin64V (⟨0, 0, 19 / 16⟩ : V3 ℝ) := ⟨fin64_zero, fin64_zero, fin64_of_le f19 (by norm_num)⟩
  have fD : Fin64V (⟨-1, -y, 0⟩ : V3 ℝ) := ⟨fin64_one.neg, f64y.neg, fin64_zero⟩
  obtain ⟨P, hP, bP⟩ : ∃ P : ℝ, (F64.fin (19 / 16) * F64.fin (-1) : F64 B) = F64.fin P ∧ Fin64 P :=
    ⟨_, mul_neg_one' fE.2.2, fE.2.2.neg⟩
  obtain ⟨Q, hQ, bQ⟩ : ∃ Q : ℝ, (F64.fin (19 / 16) * F64.fin (-y) : F64 B) = F64.fin Q ∧ Fin64 Q := by
    have hb : |19 / 16 * -y| ≤ 2 := by rw [abs_mul, abs_neg, abs_of_nonneg y0, abs_of_pos (by norm_num)]; linarith
    refine ⟨_, fin_mul (hb.trans (by norm_num)), B.rounds.val _, ?_⟩
    have h1 := B.rounds.le (x := 19 / 16 * -y) isF64_two (by linarith [(abs_le.mp hb).2])
    have h2 := B.rounds.ge (x := 19 / 16 * -y) isF64_two.neg (by linarith [(abs_le.mp hb).1])
    have : |B.fl (19 / 16 * -y)| ≤ 2 := abs_le.mpr ⟨h2, h1⟩
    have h3 : (2 : ℝ) < 2 ^ (1024 : ℤ) := by
      calc (2 : ℝ) = 2 ^ (1 : ℤ) := by norm_num
        _ < _ := zpow_lt_zpow_right₀ (by norm_num) (by norm_num)
    exact lt_of_le_of_lt this h3
  have fN : Fin64V (⟨-Q, P, 0⟩ : V3 ℝ) := ⟨bQ.neg, bP, fin64_zero⟩
  obtain ⟨W, hW, -, W0, W1, W2⟩ := mdot_tr_axes (B := B) (R := one) (Or.inr rfl) fN fE fD
  have c1 : col1 W = ⟨0, 0, 19 / 16⟩ := by rw [W1]; ext <;> simp [app, transp, one, dot, col0, col1, col2]
  refine ⟨W, ?_, c1, ?_⟩
  · rw [← hW, R_E_flt, ← hy]
    unfold n_E2R_EN
    dsimp only
    rw [m1, unit_one_tiny B fy y0 y500, cross3_e1 fu]
    dsimp only
    rw [hnorm, lit_zero, fin_eq, if_neg (by simp [p0]), hunit]
    congr 1
    unfold neg3 cross3 V3.flt
    dsimp only
    simp only [fin_neg, neg_zero, zero_mul', mul_zero', hP, hQ, zero_sub' bQ, sub_zero' bP, sub_zero' fin64_zero]
  · intro h
    have := h.c11
    rw [c1] at this
    norm_num [dot, abs_le] at this

/-- a non-trivial case of the hypotheses of C81: (1, 2, 2), at latitude arcsin(2/3), for the default axes 'e' -/
example : IsF64V (⟨1, 2, 2⟩ : V3 ℝ) ∧ len (⟨1, 2, 2⟩ : V3 ℝ) = 3 ∧
    (2 : ℝ) ^ (-300 : ℤ) * len (⟨1, 2, 2⟩ : V3 ℝ) ≤ len (cross (northPole Re) ⟨1, 2, 2⟩) := by
  have l : len (⟨1, 2, 2⟩ : V3 ℝ) = 3 := by
    unfold len; rw [show (1 : ℝ) ^ 2 + 2 ^ 2 + 2 ^ 2 = 3 ^ 2 by norm_num]; exact Real.sqrt_sq (by norm_num)
  refine ⟨⟨isF64_one, isF64_two, isF64_two⟩, l, ?_⟩
  have e : cross (northPole Re) (⟨1, 2, 2⟩ : V3 ℝ) = ⟨-2, 1, 0⟩ := by
    ext <;> simp [cross, northPole, app, transp, Re, dot, col0, col1, col2]
  rw [l, e]
  have h1 : (2 : ℝ) ^ (-300 : ℤ) ≤ 2 ^ (-2 : ℤ) := zpow_le_zpow_right₀ (by norm_num) (by norm_num)
  have h2 : 1 ≤ len (⟨-2, 1, 0⟩ : V3 ℝ) := by
    unfold len; rw [Real.one_le_sqrt]; norm_num
  have h3 : (2 : ℝ) ^ (-300 : ℤ) ≤ 1 / 4 := h1.trans (by norm_num)
  linarith only [h2, h3]

end Nv
