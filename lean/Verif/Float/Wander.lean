import Verif.Float.LocalFrame
import Verif.Props.FloatLatLon

/-!
# Latitude and longitude of an arbitrary n-vector, and wander-azimuth frames, in binary64
-/

namespace Nv
open Spec F64

section
variable {B : Binary64}

/-- the computed `arctan2` of any two finite numbers (both zero included) -/
theorem arctan2_any (y x : ℝ) : App (PyFloat.arctan2 (F64.fin y : F64 B) (F64.fin x)) (XR.atan2 y x) (13 * uu) := by
  by_cases h : x = 0 ∧ y = 0
  · obtain ⟨rfl, rfl⟩ := h
    rw [XR.atan2_zero_zero]
    have e : (PyFloat.arctan2 (F64.fin 0 : F64 B) (F64.fin 0)) = rnd B XR.atan2Zero := if_pos ⟨rfl, rfl⟩
    have hb : |(XR.atan2Zero : ℝ)| ≤ 3.15 := by
      have := abs_le.mpr XR.atan2Zero_range
      exact this.trans Real.pi_lt_d2.le
    rw [e, rnd_fin (hb.trans (by norm_num))]
    refine ⟨_, rfl, B.rounds.val _, fl_close (B := B) (ex := 0) (b := 3.15) (by simp) hb ?_⟩
    unfold uu; norm_num
  · exact arctan2_close' h le_rfl

/-- latitude and longitude of an n-vector of any ordinary length -/
theorem n_E2lat_lon_flt {n : V3 ℝ} {R : M3 ℝ} (hR : IsAxes R) (hn : IsF64V n) (n1 : 1e-50 ≤ len n) (n2 : len n ≤ 10 ^ 25) :
    ∃ lat lon : ℝ, n_E2lat_lon (n.flt : V3 (F64 B)) R.flt = (F64.fin lat, F64.fin lon) ∧ IsF64 lat ∧ IsF64 lon ∧
      |lat - XR.atan2 (app R n).x (√((app R n).y ^ 2 + (app R n).z ^ 2))| ≤ 12.8 * uu ∧
      |lon - XR.atan2 (app R n).y (-(app R n).z)| ≤ 13 * uu := by
  have n60 : len n ≤ 10 ^ 60 := n2.trans (by norm_num)
  obtain ⟨m1, fm⟩ := mulVec_axes (B := B) hR (fin64V_of_le hn n60)
  have hl := len_app hR.rot n
  unfold n_E2lat_lon
  dsimp only
  rw [m1]
  generalize app R n = v at *
  obtain ⟨x, y, z⟩ := v
  obtain ⟨fx, fy, fz⟩ := fm
  unfold V3.flt
  dsimp only at *
  have hs : len (⟨0, y, z⟩ : V3 ℝ) = √(y ^ 2 + z ^ 2) := by unfold len; simp
  have s0 : 0 ≤ √(y ^ 2 + z ^ 2) := Real.sqrt_nonneg _
  have hsq : √(y ^ 2 + z ^ 2) ^ 2 = y ^ 2 + z ^ 2 := Real.sq_sqrt (by positivity)
  have hrr : len n ^ 2 = √(y ^ 2 + z ^ 2) ^ 2 + x ^ 2 := by
    rw [← hl, hsq]; unfold len; rw [Real.sq_sqrt (by positivity)]; ring
  have hle : √(y ^ 2 + z ^ 2) ≤ len n := by
    refine (abs_le_of_sq_le_sq (b := len n) ?_ (by linarith)).trans' (le_abs_self _)
    nlinarith [sq_nonneg x]
  rw [equatorial_flt B fy fz (by rw [hs]; exact hle.trans n2), fin_neg]
  have hu := uu_pos
  have n0 : 0 < len n := lt_of_lt_of_le (by norm_num) n1
  have hE := flNorm_close B.rounds ⟨0, y, z⟩
  rw [hs] at hE
  dsimp only at hE
  have hE2 : |flNorm B.fl 0 y z - √(y ^ 2 + z ^ 2)| ≤ 4.03 * uu * len n := by
    refine hE.trans ?_
    have h1 := mul_le_mul_of_nonneg_left hle (by positivity : 0 ≤ 4.02 * uu)
    have h2 : 0.01 * uu * 1e-50 ≤ 0.01 * uu * len n := mul_le_mul_of_nonneg_left n1 (by positivity)
    have h3 : (1 : ℝ) / 10 ^ 75 ≤ 0.01 * uu * 1e-50 := by unfold uu; norm_num
    have h4 := h3.trans h2
    generalize (1 : ℝ) / 10 ^ 75 = q at *
    norm_num at h1 h4 ⊢
    linarith only [h1, h4]
  have X : App (F64.fin (flNorm B.fl 0 y z) : F64 B) (√(y ^ 2 + z ^ 2)) (4.03 * uu * len n) := ⟨_, rfl, B.rounds.val _, hE2⟩
  have Y : App (F64.fin x : F64 B) x 0 := App.exact fx.1
  obtain ⟨lat, h1, h2, h3⟩ := Y.arctan2_right X (r := len n) (ρ := 4.03 * uu) (e := 12.8 * uu) s0 (by
      intro v hv
      rw [fin_inj] at hv
      rw [← hv]; exact flNorm_nonneg B.rounds _ _ _) n0 hrr (by positivity) (by unfold uu; norm_num)
    (by norm_num) (by norm_num; linarith)
  obtain ⟨lon, g1, g2, g3⟩ := arctan2_any (B := B) y (-z)
  exact ⟨lat, lon, by rw [h1, g1], h2, g2, h3, g3⟩

/-- how fast a combination of sine and cosine changes -/
theorem sincos_lip {a b p q : ℝ} (h : p ^ 2 + q ^ 2 ≤ 1) : |(Real.sin a - Real.sin b) * p + (Real.cos a - Real.cos b) * q| ≤ |a - b| := by
  rw [Real.sin_sub_sin, Real.cos_sub_cos]
  have h1 : |Real.cos ((a + b) / 2) * p - Real.sin ((a + b) / 2) * q| ≤ 1 := by
    have h2 := prod_sum_le (cs2 ((a + b) / 2)) h
    exact (abs_sub _ _).trans h2
  rw [show 2 * Real.sin ((a - b) / 2) * Real.cos ((a + b) / 2) * p + -2 * Real.sin ((a + b) / 2) * Real.sin ((a - b) / 2) * q =
    2 * Real.sin ((a - b) / 2) * (Real.cos ((a + b) / 2) * p - Real.sin ((a + b) / 2) * q) by ring, abs_mul, abs_mul, abs_two]
  have h3 : |Real.sin ((a - b) / 2)| ≤ |(a - b) / 2| := Real.abs_sin_le_abs
  rw [abs_div, abs_two] at h3
  calc 2 * |Real.sin ((a - b) / 2)| * |Real.cos ((a + b) / 2) * p - Real.sin ((a + b) / 2) * q| ≤ 2 * |Real.sin ((a - b) / 2)| * 1 :=
        mul_le_mul_of_nonneg_left h1 (by positivity)
    _ ≤ _ := by linarith

theorem Spec.CloseV.trans {u v w : V3 ℝ} {d e : ℝ} (h : CloseV u v d) (g : CloseV v w e) : CloseV u w (d + e) :=
  ⟨(abs_sub_le _ _ _).trans (add_le_add h.1 g.1), (abs_sub_le _ _ _).trans (add_le_add h.2.1 g.2.1),
    (abs_sub_le _ _ _).trans (add_le_add h.2.2 g.2.2)⟩
theorem Spec.CloseM.trans {u v w : M3 ℝ} {d e : ℝ} (h : CloseM u v d) (g : CloseM v w e) : CloseM u w (d + e) :=
  ⟨h.1.trans g.1, h.2.1.trans g.2.1, h.2.2.trans g.2.2⟩

/-- changing the first angle -/
theorem xyz_lip_x (x x' y z : ℝ) :
    CloseM (mmul (mmul (RotX x) (RotY y)) (RotZ z)) (mmul (mmul (RotX x') (RotY y)) (RotZ z)) |x - x'| := by
  rw [xyz_entries, xyz_entries]
  have sy := Real.sin_sq_add_cos_sq y
  have sz := Real.sin_sq_add_cos_sq z
  have h0 := abs_nonneg (x - x')
  have b1 : (Real.sin y * Real.cos z) ^ 2 + Real.sin z ^ 2 ≤ 1 := by nlinarith [mul_nonneg (sq_nonneg (Real.cos y)) (sq_nonneg (Real.cos z))]
  have b2 : (Real.sin y * Real.sin z) ^ 2 + Real.cos z ^ 2 ≤ 1 := by nlinarith [mul_nonneg (sq_nonneg (Real.cos y)) (sq_nonneg (Real.sin z))]
  have b3 : Real.cos y ^ 2 + 0 ^ 2 ≤ 1 := by nlinarith [sq_nonneg (Real.sin y)]
  refine ⟨⟨by simpa using h0, by simpa using h0, by simpa using h0⟩, ⟨?_, ?_, ?_⟩, ⟨?_, ?_, ?_⟩⟩ <;> dsimp only
  · convert sincos_lip (a := x) (b := x') (p := Real.sin y * Real.cos z) (q := Real.sin z) b1 using 2; ring
  · convert sincos_lip (a := x) (b := x') (p := -(Real.sin y * Real.sin z)) (q := Real.cos z) (by rw [neg_sq]; exact b2) using 2; ring
  · convert sincos_lip (a := x) (b := x') (p := -Real.cos y) (q := 0) (by rw [neg_sq]; exact b3) using 2; ring
  · convert sincos_lip (a := x) (b := x') (p := Real.sin z) (q := -(Real.sin y * Real.cos z)) (by rw [neg_sq]; linarith) using 2; ring
  · convert sincos_lip (a := x) (b := x') (p := Real.cos z) (q := Real.sin y * Real.sin z) (by linarith) using 2; ring
  · convert sincos_lip (a := x) (b := x') (p := 0) (q := Real.cos y) (by linarith) using 2; ring

/-- changing the second angle -/
theorem xyz_lip_y (x y y' z : ℝ) :
    CloseM (mmul (mmul (RotX x) (RotY y)) (RotZ z)) (mmul (mmul (RotX x) (RotY y')) (RotZ z)) |y - y'| := by
  rw [xyz_entries, xyz_entries]
  have one : ∀ {t : ℝ}, |t| ≤ 1 → t ^ 2 + 0 ^ 2 ≤ 1 := by
    intro t h; have := sq_le_of_abs_le h; linarith
  have sn : ∀ {t : ℝ}, |t| ≤ 1 → |(Real.sin y - Real.sin y') * t| ≤ |y - y'| := by
    intro t h; simpa using sincos_lip (a := y) (b := y') (p := t) (q := 0) (one h)
  have cn : ∀ {t : ℝ}, |t| ≤ 1 → |(Real.cos y - Real.cos y') * t| ≤ |y - y'| := by
    intro t h; simpa using sincos_lip (a := y) (b := y') (p := 0) (q := t) (by have := one h; linarith)
  have s := abs_sin1; have c := abs_cos1
  have ng : ∀ {t : ℝ}, |t| ≤ 1 → |-t| ≤ 1 := by intro t h; rwa [abs_neg]
  refine ⟨⟨?_, ?_, ?_⟩, ⟨?_, ?_, ?_⟩, ⟨?_, ?_, ?_⟩⟩ <;> dsimp only
  · convert cn (c z) using 2; ring
  · convert cn (ng (s z)) using 2; ring
  · convert sn (t := 1) (by simp) using 2; ring
  · convert sn (abs_mul1 (s x) (c z)) using 2; ring
  · convert sn (ng (abs_mul1 (s x) (s z))) using 2; ring
  · convert cn (ng (s x)) using 2; ring
  · convert sn (ng (abs_mul1 (c x) (c z))) using 2; ring
  · convert sn (abs_mul1 (c x) (s z)) using 2; ring
  · convert cn (c x) using 2; ring

/-- rows close, columns close -/
theorem Spec.CloseM.cols {M N : M3 ℝ} {e : ℝ} (h : CloseM M N e) : CloseV (col0 M) (col0 N) e ∧ CloseV (col1 M) (col1 N) e ∧ CloseV (col2 M) (col2 N) e := by
  obtain ⟨⟨a1, a2, a3⟩, ⟨b1, b2, b3⟩, ⟨c1, c2, c3⟩⟩ := h
  exact ⟨⟨a1, b1, c1⟩, ⟨a2, b2, c2⟩, ⟨a3, b3, c3⟩⟩

/-- the wander-azimuth frame -/
theorem R_EL_flt {n : V3 ℝ} {R : M3 ℝ} (wa : ℝ) (hR : IsAxes R) (hn : IsF64V n) (n1 : 1e-50 ≤ len n) (n2 : len n ≤ 10 ^ 25) :
    ∃ W M : M3 ℝ, n_E_and_wa2R_EL (n.flt : V3 (F64 B)) (F64.fin wa) R.flt = W.flt ∧ IsF64M W ∧
      n_E_and_wa2R_EL n.fin (XR.fin wa) R.fin = M.fin ∧ IsRotation M ∧ CloseM W M (41 * uu) := by
  obtain ⟨lat, lon, e1, -, -, h1, h2⟩ := n_E2lat_lon_flt (B := B) hR hn n1 n2
  obtain ⟨V, hV, fV, cV⟩ := (xyz2R_flt (B := B) lon (-lat) wa).get
  have hN := (C15_xyz2R (XR.atan2 (app R n).y (-(app R n).z)) (-XR.atan2 (app R n).x (√((app R n).y ^ 2 + (app R n).z ^ 2))) wa).2
  have hu := uu_pos
  have c2 := xyz_lip_x lon (XR.atan2 (app R n).y (-(app R n).z)) (-lat) wa
  have c3 := xyz_lip_y (XR.atan2 (app R n).y (-(app R n).z)) (-lat) (-XR.atan2 (app R n).x (√((app R n).y ^ 2 + (app R n).z ^ 2))) wa
  have cc := (cV.trans c2).trans c3
  have hb : 15.1 * uu + |lon - XR.atan2 (app R n).y (-(app R n).z)| +
      |-lat - -XR.atan2 (app R n).x (√((app R n).y ^ 2 + (app R n).z ^ 2))| ≤ 41 * uu := by
    rw [show -lat - -XR.atan2 (app R n).x (√((app R n).y ^ 2 + (app R n).z ^ 2)) = -(lat - XR.atan2 (app R n).x (√((app R n).y ^ 2 + (app R n).z ^ 2))) by ring,
      abs_neg]
    linarith
  obtain ⟨d0, d1, d2⟩ := cc.cols
  have un : ∀ {v : V3 ℝ}, dot v v = 1 → len v = 1 := fun {v} hv => by
    unfold len; rw [Real.sqrt_eq_one]; rw [← hv]; unfold dot; ring
  have fin : ∀ {v w : V3 ℝ}, CloseV v w (15.1 * uu + |lon - XR.atan2 (app R n).y (-(app R n).z)| +
      |-lat - -XR.atan2 (app R n).x (√((app R n).y ^ 2 + (app R n).z ^ 2))|) → IsF64V v → len w = 1 → Fin64V v := by
    intro v w h fv hw
    exact fin64V_of_close h fv hw.le (hb.trans (by unfold uu; norm_num))
  obtain ⟨W, hW, fW, w0, w1, w2⟩ := mdot_tr_axes (B := B) hR (a := col0 V) (b := col1 V) (c := col2 V)
    (fin d0 ⟨fV.1.1, fV.2.1.1, fV.2.2.1⟩ (un hN.c00)) (fin d1 ⟨fV.1.2.1, fV.2.1.2.1, fV.2.2.2.1⟩ (un hN.c11)) (fin d2 ⟨fV.1.2.2, fV.2.1.2.2, fV.2.2.2.2⟩ (un hN.c22))
  refine ⟨W, mmul (transp R) (mmul (mmul (RotX (XR.atan2 (app R n).y (-(app R n).z)))
    (RotY (-XR.atan2 (app R n).x (√((app R n).y ^ 2 + (app R n).z ^ 2))))) (RotZ wa)), ?_, fW, ?_, hR.rot.transpose.mul hN, ?_⟩
  · rw [← hW]
    unfold n_E_and_wa2R_EL
    rw [e1]
    dsimp only
    rw [fin_neg, hV]; rfl
  · unfold n_E_and_wa2R_EL
    rw [n_E2lat_lon_fin]
    simp only [xr]
    rw [xyz2R_fin, mdot_fin]
  · refine closeM_of_cols ?_ ?_ ?_
    · rw [w0, col0_mmul]; exact (closeV_axes_tr hR d0).mono hb
    · rw [w1, col1_mmul]; exact (closeV_axes_tr hR d1).mono hb
    · rw [w2, col2_mmul]; exact (closeV_axes_tr hR d2).mono hb

end
end Nv
