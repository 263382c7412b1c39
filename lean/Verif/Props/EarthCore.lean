import Verif.Props.Ellipsoid

/-!
# C08 - C11: the core of the Earth, the spherical Earth, delta vectors
-/

namespace Nv
open Spec Real
open XR (fin)

/-! ## C08: which positions can be converted -/

theorem compute_k_nan_of_t {a e2 q Y2 p r : ℝ} {s : XR} (ha : a ≠ 0) (hp : p = Y2 / a ^ 2)
    (hr : r = (p + q - e2 ^ 2) / 6) (hs : fin (e2 ^ 2 * p * q) / fin (4 * r ^ 3) = s)
    (ht : fin r * (fin 1 + nthroot (fin 1 + s + PyFloat.sqrt (s * (fin 2 + s))) 3 +
      fin 1 / nthroot (fin 1 + s + PyFloat.sqrt (s * (fin 2 + s))) 3) = XR.nan) :
    compute_k (fin a) (fin e2) (fin q) (fin Y2) = XR.nan := by
  have ha2 : a ^ 2 ≠ 0 := pow_ne_zero 2 ha
  have h6 : ((6 : ℚ) : ℝ) ≠ 0 := by norm_num
  have q1 : ((1 : ℚ) : ℝ) = 1 := by norm_num
  have q2 : ((2 : ℚ) : ℝ) = 2 := by norm_num
  have q4 : ((4 : ℚ) : ℝ) = 4 := by norm_num
  have q6 : ((6 : ℚ) : ℝ) = 6 := by norm_num
  unfold compute_k
  simp only [xr, XR.div_fin ha2, ← hp, XR.div_fin h6]
  rw [q6, ← hr, q4, hs]
  simp only [xr, q1, q2]
  rw [ht]
  simp only [powNat, xr]

theorem nthroot_pinf (n : ℕ) : nthroot XR.pinf n = XR.pinf := by
  unfold nthroot
  have h1 : PyFloat.rootn n XR.pinf = XR.pinf := rfl
  have h2 : PyFloat.lt (PyFloat.lit EPS * PyFloat.abs XR.pinf) (PyFloat.lit 1 : XR) = false := by
    have : (PyFloat.lit EPS * PyFloat.abs XR.pinf : XR) = XR.pinf := by
      show XR.signInf ((EPS : ℚ) : ℝ) = _
      unfold XR.signInf EPS
      rw [if_pos (by norm_num)]
    rw [this]; rfl
  simp only [h1, h2, Bool.and_false, Bool.false_eq_true, if_false]

/-- strictly off the axis and the equatorial plane, in the closed core: NaN -/
theorem compute_k_nan {a e2 q Y2 : ℝ} (ha : 0 < a) (he : 0 < e2) (hq : 0 < q) (hY : 0 < Y2)
    (hr : Y2 / a ^ 2 + q ≤ e2 ^ 2) : compute_k (fin a) (fin e2) (fin q) (fin Y2) = XR.nan := by
  obtain ⟨p, hp⟩ : ∃ p, p = Y2 / a ^ 2 := ⟨_, rfl⟩
  have hp0 : 0 < p := by rw [hp]; positivity
  rw [← hp] at hr
  obtain ⟨r, hrdef⟩ : ∃ r, r = (p + q - e2 ^ 2) / 6 := ⟨_, rfl⟩
  have hr0 : r ≤ 0 := by rw [hrdef]; linarith
  have hnum : 0 < e2 ^ 2 * p * q := by positivity
  rcases hr0.lt_or_eq with hneg | hzero
  · have hr3 : r ^ 3 < 0 := by
      have h2 : 0 < r ^ 2 := by have := hneg.ne; positivity
      nlinarith
    have hden : 4 * r ^ 3 ≠ 0 := by linarith
    refine compute_k_nan_of_t ha.ne' hp hrdef (XR.div_fin hden) ?_
    obtain ⟨s, hs⟩ : ∃ s, s = e2 ^ 2 * p * q / (4 * r ^ 3) := ⟨_, rfl⟩
    have hsneg : s < 0 := by rw [hs]; apply div_neg_of_pos_of_neg hnum; linarith
    rw [← hs]
    simp only [xr]
    by_cases h2 : s * (2 + s) < 0
    · rw [XR.sqrt_fin_neg h2]; simp only [xr, nthroot_nan]
    · push Not at h2
      rw [XR.sqrt_fin h2]
      simp only [xr]
      have hs2 : s ≤ -2 := by
        by_contra h; push Not at h
        nlinarith
      have : 1 + s + √(s * (2 + s)) < 0 := by
        have h3 : √(s * (2 + s)) < -1 - s := by
          rw [Real.sqrt_lt' (by linarith)]; nlinarith
        linarith
      rw [nthroot_neg this (by norm_num)]
      simp only [xr]
  · refine compute_k_nan_of_t ha.ne' hp hrdef (s := XR.pinf) ?_ ?_
    · rw [hzero, XR.div_fin_eq, if_pos (by norm_num)]
      unfold XR.signInf; rw [if_pos hnum]
    · have h1 : (fin 2 + XR.pinf) = XR.pinf := rfl
      have h2 : (XR.pinf * XR.pinf) = XR.pinf := rfl
      have h3 : PyFloat.sqrt XR.pinf = XR.pinf := rfl
      have h4 : (fin 1 + XR.pinf) = XR.pinf := rfl
      have h5 : (XR.pinf + XR.pinf) = XR.pinf := rfl
      have h6 : (fin 1 / XR.pinf) = fin 0 := rfl
      have h7 : (XR.pinf + fin 0) = XR.pinf := rfl
      rw [h1, h2, h3, h4, h5, nthroot_pinf, h4, h6, h7, hzero]
      show XR.signInf 0 = _
      simp [XR.signInf]

/-- on the boundary of the core in the equatorial plane or on the axis: NaN -/
theorem compute_k_boundary {a e2 q Y2 : ℝ} (ha : 0 < a) (hpq : Y2 / a ^ 2 * q = 0)
    (hr : Y2 / a ^ 2 + q = e2 ^ 2) : compute_k (fin a) (fin e2) (fin q) (fin Y2) = XR.nan := by
  refine compute_k_nan_of_t (s := XR.nan) ha.ne' rfl rfl ?_ ?_
  · rw [hr, mul_assoc, hpq]; simp [XR.zero_div_zero]
  · simp only [xr, nthroot_nan]

/-- inside the core in the equatorial plane or on the axis: `k = √q` -/
theorem compute_k_axis {a e2 q Y2 : ℝ} (ha : 0 < a) (he : 0 < e2) (hq : 0 ≤ q) (hY : 0 ≤ Y2) (hpq : Y2 / a ^ 2 * q = 0)
    (hr : Y2 / a ^ 2 + q < e2 ^ 2) : compute_k (fin a) (fin e2) (fin q) (fin Y2) = fin (√q) := by
  obtain ⟨p, hp⟩ : ∃ p, p = Y2 / a ^ 2 := ⟨_, rfl⟩
  have hp0 : 0 ≤ p := by rw [hp]; positivity
  rw [← hp] at hr hpq
  obtain ⟨r, hrdef⟩ : ∃ r, r = (p + q - e2 ^ 2) / 6 := ⟨_, rfl⟩
  have hr0 : r < 0 := by rw [hrdef]; linarith
  have he2 : 0 < e2 ^ 2 := by positivity
  have hv : √((3 * r) ^ 2 + e2 ^ 2 * q) = q - 3 * r := by
    have h1 : (3 * r) ^ 2 + e2 ^ 2 * q = (q - 3 * r) ^ 2 := by
      rw [hrdef]
      linear_combination hpq
    rw [h1, Real.sqrt_sq (by linarith)]
  have := compute_k_eval (a := a) (e2 := e2) (q := q) (Y2 := Y2) (p := p) (r := r) (s := 0) (σ := 0) (c := 1) (t := 1)
    (u := 3 * r) (v := q - 3 * r) (w := 0) ha.ne' hp hrdef hr0.ne (by rw [mul_assoc, hpq]; simp) (by norm_num) (by norm_num)
    (by norm_num) (by norm_num) (by norm_num) (by ring) (by positivity) hv.symm (by linarith) (by ring_nf) (by linarith)
  rw [this, XR.fin_inj, sub_zero]
  congr 1; ring

theorem p2n_nan_of_k {a f : ℝ} (p : V3 ℝ) (R : M3 ℝ) (ha : 0 < a)
    (hk : compute_k (fin a) (fin ((2 - f) * f)) (fin ((1 - (2 - f) * f) / a ^ 2 * (app R p).x ^ 2))
      (fin ((app R p).y ^ 2 + (app R p).z ^ 2)) = XR.nan) :
    p_EB_E2n_EB_E p.fin (fin a) (fin f) R.fin = (V3.nan, XR.nan) := by
  have ha2 : a ^ 2 ≠ 0 := by positivity
  unfold p_EB_E2n_EB_E equation23 eccentricity2
  simp only [xr, XR.div_fin ha2, Rat.cast_one, Rat.cast_ofNat]
  rw [hk]
  simp only [xr, powNat]
  have : (⟨XR.nan, XR.nan, XR.nan⟩ : V3 XR) = V3.nan := rfl
  rw [this]
  simp only [xr]

theorem p2n_nan_of_k0 {a f : ℝ} (p : V3 ℝ) (R : M3 ℝ) (ha : 0 < a) (hf0 : 0 < f) (hf : f < 1)
    (hx : (app R p).x = 0)
    (hk : compute_k (fin a) (fin ((2 - f) * f)) (fin ((1 - (2 - f) * f) / a ^ 2 * (app R p).x ^ 2))
      (fin ((app R p).y ^ 2 + (app R p).z ^ 2)) = fin 0) :
    p_EB_E2n_EB_E p.fin (fin a) (fin f) R.fin = (V3.nan, XR.nan) := by
  have ha2 : a ^ 2 ≠ 0 := by positivity
  have he : 0 < (2 - f) * f := by nlinarith
  have he1 : (2 - f) * f - 1 < 0 := by nlinarith [sq_nonneg (1 - f), mul_pos (sub_pos.mpr hf) (sub_pos.mpr hf)]
  unfold p_EB_E2n_EB_E equation23 eccentricity2
  simp only [xr, XR.div_fin ha2, Rat.cast_one, Rat.cast_ofNat]
  rw [hk, XR.sqrt_fin (by positivity)]
  simp only [xr, zero_add, zero_mul, XR.div_fin he.ne', zero_div]
  rw [hx]
  have h0 : PyFloat.sqrt (fin ((0:ℝ) ^ 2 + 0 ^ 2)) = fin 0 := by rw [XR.sqrt_fin (by positivity)]; norm_num
  rw [h0]
  have h1 : (fin 1 / fin 0) = XR.pinf := by
    rw [XR.div_fin_eq, if_pos rfl]; simp [XR.signInf]
  have h2 : (fin ((2 - f) * f - 1) / fin 0) = XR.ninf := by
    rw [XR.div_fin_eq, if_pos rfl]; unfold XR.signInf; rw [if_neg (by linarith), if_pos he1]
  have h3 : (XR.pinf * fin 0) = XR.nan := by show XR.signInf 0 = _; simp [XR.signInf]
  have h4 : (XR.ninf * fin 0) = XR.nan := by show XR.signInf (-0) = _; simp [XR.signInf]
  rw [h1, h2, h3, h4]
  simp only [xr]
  have : (⟨XR.nan, XR.nan, XR.nan⟩ : V3 XR) = V3.nan := rfl
  rw [this]
  simp only [xr]

/-- the positions of the Earth axis that the code can convert although they are in the core -/
def Spec.OnAxisInsideCore (a f : ℝ) (P : V3 ℝ) : Prop :=
  P.y = 0 ∧ P.z = 0 ∧ P.x ≠ 0 ∧ (1 - f) * |P.x| < a * ((2 - f) * f)

/-- **C08** (part): outside the core, and on the polar axis inside it, the result is a finite unit n-vector and a depth
that reproduce the position.  Missing: the rest of the core, where the claim is false (`C08_core_nan`). -/
theorem C08_nonsingular_partial (p : V3 ℝ) (a f : ℝ) (ha : 0 < a) (hf0 : 0 ≤ f) (hf : f < 1) (R : M3 ℝ) (hR : IsRotation R)
    (h : OutsideCore a f (app R p) ∨ OnAxisInsideCore a f (app R p)) :
    ∃ (n : V3 ℝ) (d : ℝ), p_EB_E2n_EB_E p.fin (fin a) (fin f) R.fin = (n.fin, fin d) ∧ UnitVec n ∧
      n_EB_E2p_EB_E n.fin (fin d) (fin a) (fin f) R.fin = p.fin := by
  rcases h with h | ⟨hy, hz, hx, hin⟩
  · exact C06_roundtrip p a f ha hf0 hf R hR h
  · have hp : p ≠ 0 := by
      rintro rfl
      apply hx; simp [app, dot]
    have hg : 0 < 1 - f := by linarith
    have hxp : 0 < |(app R p).x| := abs_pos.mpr hx
    have he : 0 < (2 - f) * f := by
      by_contra h'; push Not at h'
      nlinarith [mul_pos hg hxp]
    have hq : (1 - (2 - f) * f) / a ^ 2 * (app R p).x ^ 2 = ((1 - f) * |(app R p).x| / a) ^ 2 := by
      rw [div_pow, mul_pow, sq_abs]; ring
    have hqs : √((1 - (2 - f) * f) / a ^ 2 * (app R p).x ^ 2) = (1 - f) * |(app R p).x| / a := by
      rw [hq, Real.sqrt_sq (by positivity)]
    have hk := compute_k_axis (a := a) (e2 := (2 - f) * f) (q := (1 - (2 - f) * f) / a ^ 2 * (app R p).x ^ 2)
      (Y2 := (app R p).y ^ 2 + (app R p).z ^ 2) ha he (by rw [hq]; positivity) (by positivity) (by rw [hy, hz]; simp)
      (by
        rw [hq, hy, hz]
        have : (1 - f) * |(app R p).x| / a < (2 - f) * f := by rw [div_lt_iff₀ ha]; linarith
        have := pow_lt_pow_left₀ this (by positivity) two_ne_zero
        simpa using this)
    rw [hqs] at hk
    have hk0 : 0 < (1 - f) * |(app R p).x| / a := by positivity
    obtain ⟨m, T, h1, hm, hT, hx', hy', hz'⟩ := p2n_of_k p hR ha hf0 hf hp hk hk0
    refine ⟨_, _, h1, unitVec_app hR.transpose hm, ?_⟩
    rw [n2p_fin (unitVec_app hR.transpose hm).ne _ a f hf hR, dirOf_of_unit (unitVec_app hR.transpose hm), hR.app_trans,
      posE_back ha hf0 hf hk0 hT hx' hy' hz' ?_, hR.trans_app]
    rw [hy, hz]
    have : (1 - f) ^ 2 * (app R p).x ^ 2 / a ^ 2 = ((1 - f) * |(app R p).x| / a) ^ 2 := by
      rw [div_pow, mul_pow, sq_abs]
    rw [this]; ring

/-- **C08** is false in the rest of the core of an oblate Earth (about 43 km around the centre for WGS84): everything the
function returns is NaN. -/
theorem C08_core_nan (p : V3 ℝ) (a f : ℝ) (ha : 0 < a) (hf0 : 0 < f) (hf : f < 1) (R : M3 ℝ)
    (h1 : ¬ OutsideCore a f (app R p)) (h2 : ¬ OnAxisInsideCore a f (app R p)) :
    p_EB_E2n_EB_E p.fin (fin a) (fin f) R.fin = (⟨XR.nan, XR.nan, XR.nan⟩, XR.nan) := by
  change _ = (V3.nan, XR.nan)
  obtain ⟨P, hP⟩ : ∃ P, P = app R p := ⟨_, rfl⟩
  have hg : 0 < 1 - f := by linarith
  have he : 0 < (2 - f) * f := by nlinarith
  have ha2 : 0 < a ^ 2 := by positivity
  rw [← hP] at h1 h2
  have hq : (1 - (2 - f) * f) / a ^ 2 * P.x ^ 2 = (1 - f) ^ 2 * P.x ^ 2 / a ^ 2 := by ring
  have hq2 : (1 - f) ^ 2 * P.x ^ 2 / a ^ 2 = ((1 - f) * |P.x| / a) ^ 2 := by
    rw [div_pow, mul_pow, sq_abs]
  have hq0 : 0 ≤ (1 - (2 - f) * f) / a ^ 2 * P.x ^ 2 := by rw [hq]; positivity
  unfold OutsideCore at h1
  push Not at h1
  rw [← hq] at h1
  by_cases hY : P.y ^ 2 + P.z ^ 2 = 0
  · have hy : P.y = 0 := pow_eq_zero_iff two_ne_zero |>.mp (by nlinarith [sq_nonneg P.y, sq_nonneg P.z])
    have hz : P.z = 0 := pow_eq_zero_iff two_ne_zero |>.mp (by nlinarith [sq_nonneg P.y, sq_nonneg P.z])
    by_cases hx : P.x = 0
    · apply p2n_nan_of_k0 p R ha hf0 hf (by rw [← hP, hx])
      rw [← hP, compute_k_axis ha he hq0 (by positivity) (by rw [hY]; simp) (by rw [hx, hY]; simp; positivity), hx]
      simp
    · -- boundary on the axis
      apply p2n_nan_of_k p R ha
      rw [← hP]
      refine compute_k_boundary ha (by rw [hY]; simp) ?_
      apply le_antisymm h1
      rw [hY, hq, hq2]
      have hnot : a * ((2 - f) * f) ≤ (1 - f) * |P.x| := by
        by_contra h; push Not at h
        exact h2 ⟨hy, hz, hx, h⟩
      have : (2 - f) * f ≤ (1 - f) * |P.x| / a := by rw [le_div_iff₀ ha]; linarith
      have := pow_le_pow_left₀ he.le this 2
      simpa using this
  · have hYp : 0 < P.y ^ 2 + P.z ^ 2 := lt_of_le_of_ne (by positivity) (Ne.symm hY)
    by_cases hx : P.x = 0
    · rcases h1.lt_or_eq with hlt | heq
      · apply p2n_nan_of_k0 p R ha hf0 hf (by rw [← hP, hx])
        rw [← hP, compute_k_axis ha he hq0 hYp.le (by rw [hx]; simp) hlt, hx]; simp
      · apply p2n_nan_of_k p R ha
        rw [← hP]
        exact compute_k_boundary ha (by rw [hx]; simp) heq
    · apply p2n_nan_of_k p R ha
      rw [← hP]
      refine compute_k_nan ha he ?_ hYp h1
      rw [hq]
      have : 0 < P.x ^ 2 := by positivity
      positivity

/-- **C08** holds without exception on a spherical Earth -/
theorem C08_sphere (p : V3 ℝ) (hp : p ≠ 0) (a : ℝ) (ha : 0 < a) (R : M3 ℝ) (hR : IsRotation R) :
    ∃ (n : V3 ℝ) (d : ℝ), p_EB_E2n_EB_E p.fin (fin a) (fin 0) R.fin = (n.fin, fin d) ∧ UnitVec n ∧
      n_EB_E2p_EB_E n.fin (fin d) (fin a) (fin 0) R.fin = p.fin := by
  refine C06_roundtrip_far p a 0 ha le_rfl one_pos R hR ?_
  have := len_pos hp
  simpa using this

/-- witness: a point 1 km from the centre in the equatorial plane of WGS84 gives NaN -/
example : p_EB_E2n_EB_E (⟨0, 1000, 0⟩ : V3 ℝ).fin (fin 6378137) (fin (1 / 298.257223563)) (one).fin =
    (⟨XR.nan, XR.nan, XR.nan⟩, XR.nan) := by
  apply C08_core_nan _ _ _ (by norm_num) (by norm_num) (by norm_num)
  · unfold OutsideCore; norm_num [app, dot, one]
  · unfold OnAxisInsideCore; norm_num [app, dot, one]

/-- witness: an ordinary position satisfies the hypotheses of C06 and C08 -/
example : OutsideCore 6378137 (1 / 298.257223563) (app one ⟨4000000, 3000000, 4000000⟩) := by
  unfold OutsideCore; norm_num [app, dot, one]

/-- witness for C07: depth of 11 km and a satellite at 20 000 km -/
example : (2 - 1 / 298.257223563) * (1 / 298.257223563) < (1 / 2 : ℝ) ∧
    (11000 : ℝ) < (1 - 2 * ((2 - 1 / 298.257223563) * (1 / 298.257223563))) * 6378137 ∧
    (-20000000 : ℝ) < (1 - 2 * ((2 - 1 / 298.257223563) * (1 / 298.257223563))) * 6378137 := by norm_num

/-! ## C09 -/

/-- **C09** spherical Earth: position to n-vector -/
theorem C09_p2n (p : V3 ℝ) (hp : p ≠ 0) (a : ℝ) (ha : 0 < a) (R : M3 ℝ) (hR : IsRotation R) :
    p_EB_E2n_EB_E p.fin (fin a) (fin 0) R.fin = (((len p)⁻¹ • p).fin, fin (a - len p)) := by
  have hl := len_pos hp
  have hcore : OutsideCore a 0 (app R p) :=
    outsideCore_of_len ha le_rfl one_pos (by rw [len_app hR]; simpa using hl)
  obtain ⟨m, T, k, h1, hm, hT, hk, hx, hy, hz, hell⟩ := p2n_outside_core p a 0 ha le_rfl one_pos R hR hcore
  have e : ((2:ℝ) - 0) * 0 = 0 := by norm_num
  rw [e, add_zero] at hy hz
  rw [e, add_zero] at h1 hell
  have hPm : app R p = T • m := by
    ext
    · exact hx
    · rw [hy]; simp only [smul_y]; field_simp
    · rw [hz]; simp only [smul_z]; field_simp
  have hTl : T = len p := by
    rw [← len_app hR, hPm, len_smul, hm.len, mul_one, abs_of_pos hT]
  have hk2 : k ^ 2 = (len p / a) ^ 2 := by
    have h2 := len_sq (app R p)
    rw [len_app hR] at h2
    rw [div_pow, h2]
    have hkk : k ^ 2 ≠ 0 := by positivity
    apply mul_left_cancel₀ hkk
    rw [show k ^ 2 * k ^ 2 = k ^ 2 * k ^ 2 from rfl, ← hell]
    ring
  have hk' : k = len p / a := (sq_eq_sq₀ hk.le (by positivity)).mp hk2
  have hm' : app (transp R) m = (len p)⁻¹ • p := by
    have : m = (len p)⁻¹ • app R p := by
      rw [hPm, hTl]; ext <;> simp <;> field_simp
    rw [this, app_smul, hR.trans_app]
  rw [h1, hm', hTl, hk']
  congr 2
  field_simp; ring

/-- **C09** spherical Earth: n-vector to position -/
theorem C09_n2p (n : V3 ℝ) (hn : n ≠ 0) (d a : ℝ) (R : M3 ℝ) (hR : IsRotation R) :
    n_EB_E2p_EB_E n.fin (fin d) (fin a) (fin 0) R.fin = ((a - d) • ((len n)⁻¹ • n)).fin := by
  rw [n2p_fin hn d a 0 one_pos hR, V3.fin_inj]
  have hmu : UnitVec (app R (dirOf n)) := unitVec_app hR (dirOf_unit hn)
  have hD : Dell 0 (app R (dirOf n)) = 1 := by
    unfold Dell; unfold UnitVec at hmu
    rw [show (1 - (0:ℝ)) ^ 2 * (app R (dirOf n)).x ^ 2 + (app R (dirOf n)).y ^ 2 + (app R (dirOf n)).z ^ 2 = 1 by
      linear_combination hmu, Real.sqrt_one]
  have : posE a 0 (app R (dirOf n)) d = (a - d) • app R (dirOf n) := by
    unfold posE; rw [hD]; ext <;> simp
  rw [this, app_smul, hR.trans_app]; rfl

/-! ## C10 -/

/-- **C10** -/
theorem C10_delta (nA nB nC : V3 ℝ) (hA : nA ≠ 0) (hB : nB ≠ 0) (hC : nC ≠ 0) (zA zB zC a f : ℝ) (hf : f < 1) (R : M3 ℝ)
    (hR : IsRotation R) :
    ∃ AB BA BC AC : V3 ℝ,
      n_EA_E_and_n_EB_E2p_AB_E nA.fin nB.fin (fin zA) (fin zB) (fin a) (fin f) R.fin = AB.fin ∧
      n_EA_E_and_n_EB_E2p_AB_E nB.fin nA.fin (fin zB) (fin zA) (fin a) (fin f) R.fin = BA.fin ∧
      n_EA_E_and_n_EB_E2p_AB_E nB.fin nC.fin (fin zB) (fin zC) (fin a) (fin f) R.fin = BC.fin ∧
      n_EA_E_and_n_EB_E2p_AB_E nA.fin nC.fin (fin zA) (fin zC) (fin a) (fin f) R.fin = AC.fin ∧
      BA = -AB ∧ AB + BC = AC ∧
      ∃ pA pB : V3 ℝ, n_EB_E2p_EB_E nA.fin (fin zA) (fin a) (fin f) R.fin = pA.fin ∧
        n_EB_E2p_EB_E nB.fin (fin zB) (fin a) (fin f) R.fin = pB.fin ∧ AB = pB - pA := by
  simp only [n_EA_E_and_n_EB_E2p_AB_E, n2p_fin hA _ _ _ hf hR, n2p_fin hB _ _ _ hf hR, n2p_fin hC _ _ _ hf hR, xr]
  refine ⟨_, _, _, _, rfl, rfl, rfl, rfl, ?_, ?_, _, _, rfl, rfl, rfl⟩
  · ext <;> simp
  · ext <;> simp

/-- **C10** zero exactly for equal positions: for points above the evolute and outside the core, the delta is zero iff the
horizontal positions and the depths agree -/
theorem C10_zero_iff (nA nB : V3 ℝ) (hA : nA ≠ 0) (hB : nB ≠ 0) (zA zB a f : ℝ) (ha : 0 < a) (hf0 : 0 ≤ f) (hf : f < 1)
    (he : (2 - f) * f < 1 / 2) (hzA : zA < (1 - 2 * ((2 - f) * f)) * a) (hzB : zB < (1 - 2 * ((2 - f) * f)) * a)
    (R : M3 ℝ) (hR : IsRotation R) :
    n_EA_E_and_n_EB_E2p_AB_E nA.fin nB.fin (fin zA) (fin zB) (fin a) (fin f) R.fin = (0 : V3 ℝ).fin ↔
      (len nA)⁻¹ • nA = (len nB)⁻¹ • nB ∧ zA = zB := by
  have rA := C07_roundtrip_simple nA hA zA a f ha hf0 hf R hR he hzA
  have rB := C07_roundtrip_simple nB hB zB a f ha hf0 hf R hR he hzB
  unfold n_EA_E_and_n_EB_E2p_AB_E
  constructor
  · intro h
    have : n_EB_E2p_EB_E nA.fin (fin zA) (fin a) (fin f) R.fin = n_EB_E2p_EB_E nB.fin (fin zB) (fin a) (fin f) R.fin := by
      rw [n2p_fin hA _ _ _ hf hR, n2p_fin hB _ _ _ hf hR] at h ⊢
      simp only [xr, V3.fin_inj] at h ⊢
      have hx := congrArg V3.x h; have hy := congrArg V3.y h; have hz := congrArg V3.z h
      simp only [sub_x, sub_y, sub_z, zero_x, zero_y, zero_z] at hx hy hz
      ext <;> linarith
    rw [this, rB] at rA
    simp only [Prod.mk.injEq, V3.fin_inj, XR.fin_inj] at rA
    exact ⟨rA.1.symm, rA.2.symm⟩
  · rintro ⟨h1, rfl⟩
    rw [n2p_fin hA _ _ _ hf hR, n2p_fin hB _ _ _ hf hR]
    simp only [xr, V3.fin_inj]
    rw [show dirOf nA = dirOf nB from h1]
    ext <;> simp

/-! ## C11 -/

/-- **C11** dead reckoning with the delta from A to B arrives at B -/
theorem C11_inverse (nA nB : V3 ℝ) (hA : nA ≠ 0) (hB : nB ≠ 0) (zA zB a f : ℝ) (ha : 0 < a) (hf0 : 0 ≤ f) (hf : f < 1)
    (he : (2 - f) * f < 1 / 2) (hzB : zB < (1 - 2 * ((2 - f) * f)) * a) (R : M3 ℝ) (hR : IsRotation R) :
    n_EA_E_and_p_AB_E2n_EB_E nA.fin
      (n_EA_E_and_n_EB_E2p_AB_E nA.fin nB.fin (fin zA) (fin zB) (fin a) (fin f) R.fin) (fin zA) (fin a) (fin f) R.fin =
      (((len nB)⁻¹ • nB).fin, fin zB) := by
  rw [← C07_roundtrip_simple nB hB zB a f ha hf0 hf R hR he hzB]
  unfold n_EA_E_and_p_AB_E2n_EB_E n_EA_E_and_n_EB_E2p_AB_E
  simp only [n2p_fin hA _ _ _ hf hR, n2p_fin hB _ _ _ hf hR, xr]
  congr 2
  ext <;> simp

/-- **C11** conversely, the delta from A to the computed B is the given delta, when the end point is outside the core -/
theorem C11_delta (nA p : V3 ℝ) (hA : nA ≠ 0) (zA a f : ℝ) (ha : 0 < a) (hf0 : 0 ≤ f) (hf : f < 1)
    (R : M3 ℝ) (hR : IsRotation R)
    (hcore : ∀ pA : V3 ℝ, n_EB_E2p_EB_E nA.fin (fin zA) (fin a) (fin f) R.fin = pA.fin → OutsideCore a f (app R (pA + p))) :
    ∃ (nB : V3 ℝ) (zB : ℝ), n_EA_E_and_p_AB_E2n_EB_E nA.fin p.fin (fin zA) (fin a) (fin f) R.fin = (nB.fin, fin zB) ∧
      UnitVec nB ∧
      n_EA_E_and_n_EB_E2p_AB_E nA.fin nB.fin (fin zA) (fin zB) (fin a) (fin f) R.fin = p.fin := by
  have e := n2p_fin hA zA a f hf hR
  obtain ⟨n, d, h1, hu, h2⟩ := C06_roundtrip _ a f ha hf0 hf R hR (hcore _ e)
  refine ⟨n, d, ?_, hu, ?_⟩
  · unfold n_EA_E_and_p_AB_E2n_EB_E
    simp only [e, xr]; exact h1
  · unfold n_EA_E_and_n_EB_E2p_AB_E
    simp only [h2, e, xr, V3.fin_inj]
    ext <;> simp

end Nv
