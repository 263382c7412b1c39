import Verif.Lemmas.Position
import Verif.Props.Rotations

/-!
# C04 - C11: n-vectors and Cartesian positions on the ellipsoid

`R` is any rotation matrix, `a > 0` the semi-major axis, `f < 1` the flattening.
-/

namespace Nv
open Spec Real
open XR (fin)

/-! ## C04 -/

/-- **C04** at depth 0 the position lies on the ellipsoid, and the n-vector is an outward normal there: a positive
multiple of the gradient. -/
theorem C04_on_surface (n : V3 ℝ) (hn : n ≠ 0) (a f : ℝ) (ha : 0 < a) (hf : f < 1) (R : M3 ℝ) (hR : IsRotation R) :
    ∃ p : V3 ℝ, n_EB_E2p_EB_E n.fin (fin 0) (fin a) (fin f) R.fin = p.fin ∧ OnEllipsoid a f (app R p) ∧
      ∃ c : ℝ, 0 < c ∧ app R n = c • gradEllipsoid a f (app R p) := by
  refine ⟨_, n2p_fin hn 0 a f hf hR, ?_⟩
  rw [hR.app_trans]
  have hmu : UnitVec (app R (dirOf n)) := unitVec_app hR (dirOf_unit hn)
  have hnl := len_pos hn
  have hn' : app R n = len n • app R (dirOf n) := by rw [← app_smul, smul_dirOf]
  rw [hn']
  generalize app R (dirOf n) = m at *
  have hD := Dell_pos hf hmu.ne
  have hD2 := Dell_sq f m
  have hg : 0 < 1 - f := by linarith
  constructor
  · unfold OnEllipsoid posE
    simp only [sub_zero]
    have : (a / Dell f m * (1 - f) ^ 2 * m.x / (a * (1 - f))) ^ 2 + (a / Dell f m * m.y / a) ^ 2 +
        (a / Dell f m * m.z / a) ^ 2 = ((1 - f) ^ 2 * m.x ^ 2 + m.y ^ 2 + m.z ^ 2) / Dell f m ^ 2 := by
      field_simp
    rw [this, ← hD2]; field_simp
  · refine ⟨len n * (a * Dell f m), by positivity, ?_⟩
    unfold gradEllipsoid posE
    ext
    · simp only [smul_x, sub_zero]; field_simp
    · simp only [smul_y, sub_zero]; field_simp
    · simp only [smul_z, sub_zero]; field_simp

/-- **C04** at depth `d` the position is the surface point moved by `-d` along the unit normal -/
theorem C04_depth (n : V3 ℝ) (hn : n ≠ 0) (d a f : ℝ) (hf : f < 1) (R : M3 ℝ) (hR : IsRotation R) :
    ∃ p0 p : V3 ℝ, n_EB_E2p_EB_E n.fin (fin 0) (fin a) (fin f) R.fin = p0.fin ∧
      n_EB_E2p_EB_E n.fin (fin d) (fin a) (fin f) R.fin = p.fin ∧ p = p0 - d • ((len n)⁻¹ • n) := by
  refine ⟨_, _, n2p_fin hn 0 a f hf hR, n2p_fin hn d a f hf hR, ?_⟩
  have e : ((len n)⁻¹ • n : V3 ℝ) = app (transp R) (app R (dirOf n)) := by rw [hR.trans_app]; rfl
  rw [e, ← app_smul, ← app_sub]
  congr 1
  unfold posE
  ext <;> simp <;> ring

/-- **C04** the polar and equatorial radii: the pole is at `a (1-f)`, points of the equator at `a` -/
theorem C04_radii (a f : ℝ) (hf : f < 1) (R : M3 ℝ) (hR : IsRotation R) (n : V3 ℝ) (hn : UnitVec n) :
    (app R n = ⟨1, 0, 0⟩ → ∃ p, n_EB_E2p_EB_E n.fin (fin 0) (fin a) (fin f) R.fin = V3.fin p ∧ p = (a * (1 - f)) • n) ∧
    ((app R n).x = 0 → ∃ p, n_EB_E2p_EB_E n.fin (fin 0) (fin a) (fin f) R.fin = V3.fin p ∧ p = a • n) := by
  have hg : 0 < 1 - f := by linarith
  have hmu : UnitVec (app R n) := unitVec_app hR hn
  constructor
  · intro h
    refine ⟨_, n2p_fin hn.ne 0 a f hf hR, ?_⟩
    rw [dirOf_of_unit hn, h]
    have hD : Dell f ⟨1, 0, 0⟩ = 1 - f := by
      unfold Dell; simp; exact Real.sqrt_sq hg.le
    have : posE a f ⟨1, 0, 0⟩ 0 = (a * (1 - f)) • (⟨1, 0, 0⟩ : V3 ℝ) := by
      unfold posE; rw [hD]; ext <;> simp <;> field_simp
    rw [this, app_smul, ← h, hR.trans_app]
  · intro h
    refine ⟨_, n2p_fin hn.ne 0 a f hf hR, ?_⟩
    rw [dirOf_of_unit hn]
    have hD : Dell f (app R n) = 1 := by
      unfold Dell; unfold UnitVec at hmu; rw [h] at hmu ⊢
      rw [show (1 - f) ^ 2 * 0 ^ 2 + (app R n).y ^ 2 + (app R n).z ^ 2 = 1 by linarith, Real.sqrt_one]
    have : posE a f (app R n) 0 = a • app R n := by
      unfold posE; rw [hD]; ext <;> simp [h]
    rw [this, app_smul, hR.trans_app]

/-! ## C05 -/

/-- **C05** only the direction of the n-vector matters -/
theorem C05_scale_invariant (c : ℝ) (hc : 0 < c) (n : V3 ℝ) (hn : n ≠ 0) (d a f : ℝ) (hf : f < 1) (R : M3 ℝ)
    (hR : IsRotation R) :
    n_EB_E2p_EB_E (c • n).fin (fin d) (fin a) (fin f) R.fin = n_EB_E2p_EB_E n.fin (fin d) (fin a) (fin f) R.fin ∧
    n_E2lat_lon (c • n).fin R.fin = n_E2lat_lon n.fin R.fin ∧
    n_E2R_EN (c • n).fin R.fin = n_E2R_EN n.fin R.fin := by
  have hcn : c • n ≠ 0 := smul_ne_zero hc.ne' hn
  refine ⟨?_, ?_, ?_⟩
  · rw [n2p_fin hcn d a f hf hR, n2p_fin hn d a f hf hR, dirOf_smul hc]
  · rw [n_E2lat_lon_fin, n_E2lat_lon_fin, app_smul]
    simp only [smul_x, smul_y, smul_z]
    have h1 : √((c * (app R n).y) ^ 2 + (c * (app R n).z) ^ 2) = c * √((app R n).y ^ 2 + (app R n).z ^ 2) := by
      rw [show (c * (app R n).y) ^ 2 + (c * (app R n).z) ^ 2 = c ^ 2 * ((app R n).y ^ 2 + (app R n).z ^ 2) by ring,
        Real.sqrt_mul (sq_nonneg c), Real.sqrt_sq hc.le]
    rw [h1, XR.atan2_scale hc, ← mul_neg, XR.atan2_scale hc]
  · have hu : unit (mulVec R.fin (c • n).fin) = unit (mulVec R.fin n.fin) := by
      rw [mulVec_fin, mulVec_fin, unit_fin (app_ne_zero hR hcn), unit_fin (app_ne_zero hR hn), app_smul, dirOf_smul hc]
    simp only [n_E2R_EN, hu]

/-! ## C06 -/

/-- core of C06 with the default `compute_k` hypothesis discharged -/
theorem p2n_outside_core (p : V3 ℝ) (a f : ℝ) (ha : 0 < a) (hf0 : 0 ≤ f) (hf : f < 1) (R : M3 ℝ) (hR : IsRotation R)
    (hcore : OutsideCore a f (app R p)) :
    ∃ (m : V3 ℝ) (T k : ℝ), p_EB_E2n_EB_E p.fin (fin a) (fin f) R.fin =
        ((app (transp R) m).fin, fin (-((k + (2 - f) * f - 1) / k * T))) ∧
      UnitVec m ∧ 0 < T ∧ 0 < k ∧ (app R p).x = T * m.x ∧ (app R p).y = T * (k + (2 - f) * f) / k * m.y ∧
      (app R p).z = T * (k + (2 - f) * f) / k * m.z ∧
      ((app R p).y ^ 2 + (app R p).z ^ 2) / a ^ 2 * k ^ 2 +
        (1 - f) ^ 2 * (app R p).x ^ 2 / a ^ 2 * (k + (2 - f) * f) ^ 2 = k ^ 2 * (k + (2 - f) * f) ^ 2 := by
  have hp : p ≠ 0 := by
    rintro rfl
    have h0 : app R (0 : V3 ℝ) = 0 := by ext <;> simp [app, dot]
    unfold OutsideCore at hcore
    rw [h0] at hcore
    simp at hcore
    nlinarith [sq_nonneg ((2 - f) * f)]
  have hq : (1 - (2 - f) * f) / a ^ 2 * (app R p).x ^ 2 = (1 - f) ^ 2 * (app R p).x ^ 2 / a ^ 2 := by ring
  obtain ⟨k, hk, hk0, hell⟩ := compute_k_fin (e2 := (2 - f) * f)
    (q := (1 - (2 - f) * f) / a ^ 2 * (app R p).x ^ 2) (Y2 := (app R p).y ^ 2 + (app R p).z ^ 2) ha
    (by rw [hq]; positivity) (by positivity) (by rw [hq]; exact hcore)
  obtain ⟨m, T, h1, h2, h3, h4, h5, h6⟩ := p2n_of_k p hR ha hf0 hf hp hk hk0
  rw [hq] at hell
  exact ⟨m, T, k, h1, h2, h3, hk0, h4, h5, h6, hell⟩

/-- **C06** outside the core, `p_EB_E2n_EB_E` returns a unit n-vector and a depth whose position is exactly `p` -/
theorem C06_roundtrip (p : V3 ℝ) (a f : ℝ) (ha : 0 < a) (hf0 : 0 ≤ f) (hf : f < 1) (R : M3 ℝ) (hR : IsRotation R)
    (hcore : OutsideCore a f (app R p)) :
    ∃ (n : V3 ℝ) (d : ℝ), p_EB_E2n_EB_E p.fin (fin a) (fin f) R.fin = (n.fin, fin d) ∧ UnitVec n ∧
      n_EB_E2p_EB_E n.fin (fin d) (fin a) (fin f) R.fin = p.fin := by
  obtain ⟨m, T, k, h1, hm, hT, hk, hx, hy, hz, hell⟩ := p2n_outside_core p a f ha hf0 hf R hR hcore
  refine ⟨_, _, h1, unitVec_app hR.transpose hm, ?_⟩
  rw [n2p_fin (unitVec_app hR.transpose hm).ne _ a f hf hR, dirOf_of_unit (unitVec_app hR.transpose hm), hR.app_trans,
    posE_back ha hf0 hf hk hT hx hy hz hell, hR.trans_app]

/-- a simple sufficient condition: distance from the centre larger than `a e²/(1-f)` (42.8 km for WGS84) -/
theorem outsideCore_of_len {a f : ℝ} (ha : 0 < a) (hf0 : 0 ≤ f) (hf : f < 1) {P : V3 ℝ}
    (h : a * ((2 - f) * f) < (1 - f) * len P) : OutsideCore a f P := by
  have he : 0 ≤ (2 - f) * f := by nlinarith
  have h2 : (a * ((2 - f) * f)) ^ 2 < ((1 - f) * len P) ^ 2 := by
    apply pow_lt_pow_left₀ h (by positivity) two_ne_zero
  unfold OutsideCore
  rw [← add_div, lt_div_iff₀ (by positivity)]
  rw [mul_pow, mul_pow (1 - f), len_sq] at h2
  have hg1 : (1 - f) ^ 2 ≤ 1 := by nlinarith
  nlinarith [sq_nonneg P.y, sq_nonneg P.z, mul_nonneg (sub_nonneg.mpr hg1) (add_nonneg (sq_nonneg P.y) (sq_nonneg P.z))]

/-- **C06** in particular for every position farther than `a e²/(1-f)` from the centre -/
theorem C06_roundtrip_far (p : V3 ℝ) (a f : ℝ) (ha : 0 < a) (hf0 : 0 ≤ f) (hf : f < 1) (R : M3 ℝ) (hR : IsRotation R)
    (hfar : a * ((2 - f) * f) < (1 - f) * len p) :
    ∃ (n : V3 ℝ) (d : ℝ), p_EB_E2n_EB_E p.fin (fin a) (fin f) R.fin = (n.fin, fin d) ∧ UnitVec n ∧
      n_EB_E2p_EB_E n.fin (fin d) (fin a) (fin f) R.fin = p.fin :=
  C06_roundtrip p a f ha hf0 hf R hR (outsideCore_of_len ha hf0 hf (by rwa [len_app hR]))

/-! ## C07 -/

/-- **C07** exact conditions: the point is above the evolute (`depth < (1-f)² N`, `N = a/√((1-f)²nx²+ny²+nz²)`) and
outside the core. -/
theorem C07_roundtrip (n : V3 ℝ) (hn : n ≠ 0) (d a f : ℝ) (ha : 0 < a) (hf0 : 0 ≤ f) (hf : f < 1) (R : M3 ℝ)
    (hR : IsRotation R) (m : V3 ℝ) (hm : m = app R ((len n)⁻¹ • n))
    (hd : d < (1 - f) ^ 2 * (a / √((1 - f) ^ 2 * m.x ^ 2 + m.y ^ 2 + m.z ^ 2)))
    (hcore : ∀ p : V3 ℝ, n_EB_E2p_EB_E n.fin (fin d) (fin a) (fin f) R.fin = p.fin → OutsideCore a f (app R p)) :
    p_EB_E2n_EB_E (n_EB_E2p_EB_E n.fin (fin d) (fin a) (fin f) R.fin) (fin a) (fin f) R.fin =
      (((len n)⁻¹ • n).fin, fin d) := by
  have hmu : UnitVec m := by rw [hm]; exact unitVec_app hR (dirOf_unit hn)
  have hD := Dell_pos hf hmu.ne
  have hD2 := Dell_sq f m
  have hg : 0 < 1 - f := by linarith
  have he : 0 ≤ (2 - f) * f := by nlinarith
  have e0 := n2p_fin hn d a f hf hR
  have hcore' := hcore _ e0
  rw [e0]
  change d < (1 - f) ^ 2 * (a / Dell f m) at hd
  rw [show dirOf n = (len n)⁻¹ • n from rfl, ← hm] at hcore' ⊢
  obtain ⟨m', T, k, h1, hm', hT, hk, hx, hy, hz, hell⟩ := p2n_outside_core _ a f ha hf0 hf R hR hcore'
  rw [h1]
  rw [hR.app_trans] at hx hy hz hell
  obtain ⟨N, hN⟩ : ∃ N, N = a / Dell f m := ⟨_, rfl⟩
  have hNp : 0 < N := by rw [hN]; positivity
  rw [← hN] at hd
  -- the true k
  obtain ⟨k0, hk0⟩ : ∃ k0, k0 = (1 - f) ^ 2 - d / N := ⟨_, rfl⟩
  have hk0p : 0 < k0 := by
    rw [hk0, sub_pos, div_lt_iff₀ hNp]; exact hd
  have hdk : d = N * ((1 - f) ^ 2 - k0) := by rw [hk0]; field_simp; ring
  have px : (posE a f m d).x = N * k0 * m.x := by unfold posE; rw [← hN]; simp only; rw [hdk]; ring
  have py : (posE a f m d).y = N * (k0 + (2 - f) * f) * m.y := by unfold posE; rw [← hN]; simp only; rw [hdk]; ring
  have pz : (posE a f m d).z = N * (k0 + (2 - f) * f) * m.z := by unfold posE; rw [← hN]; simp only; rw [hdk]; ring
  have hNa : N ^ 2 * ((1 - f) ^ 2 * m.x ^ 2 + m.y ^ 2 + m.z ^ 2) = a ^ 2 := by
    rw [← hD2, hN]; field_simp
  have hell0 : ((posE a f m d).y ^ 2 + (posE a f m d).z ^ 2) / a ^ 2 * k0 ^ 2 +
        (1 - f) ^ 2 * (posE a f m d).x ^ 2 / a ^ 2 * (k0 + (2 - f) * f) ^ 2 = k0 ^ 2 * (k0 + (2 - f) * f) ^ 2 := by
    rw [px, py, pz]
    have ha2 : a ^ 2 ≠ 0 := by positivity
    calc _ = k0 ^ 2 * (k0 + (2 - f) * f) ^ 2 * (N ^ 2 * ((1 - f) ^ 2 * m.x ^ 2 + m.y ^ 2 + m.z ^ 2)) / a ^ 2 := by ring
      _ = _ := by rw [hNa]; field_simp
  have hkk : k = k0 := k_unique he (by positivity) (by positivity) hk hk0p hell hell0
  rw [hkk] at hy hz ⊢
  have hke : 0 < k0 + (2 - f) * f := by linarith
  rw [px] at hx; rw [py] at hy; rw [pz] at hz
  -- T = N k0
  have hT' : T = N * k0 := by
    have hTx : T * m'.x = N * k0 * m.x := hx.symm
    have hTy : T * m'.y = N * k0 * m.y := by
      apply mul_left_cancel₀ hke.ne'
      have h2 : T * (k0 + (2 - f) * f) / k0 * m'.y * k0 = (k0 + (2 - f) * f) * (T * m'.y) := by
        rw [div_mul_eq_mul_div, div_mul_cancel₀ _ hk0p.ne']; ring
      rw [← h2, ← hy]; ring
    have hTz : T * m'.z = N * k0 * m.z := by
      apply mul_left_cancel₀ hke.ne'
      have h2 : T * (k0 + (2 - f) * f) / k0 * m'.z * k0 = (k0 + (2 - f) * f) * (T * m'.z) := by
        rw [div_mul_eq_mul_div, div_mul_cancel₀ _ hk0p.ne']; ring
      rw [← h2, ← hz]; ring
    have h2 : T ^ 2 = (N * k0) ^ 2 := by
      unfold UnitVec at hmu hm'
      calc T ^ 2 = T ^ 2 * (m'.x ^ 2 + m'.y ^ 2 + m'.z ^ 2) := by rw [hm', mul_one]
        _ = (T * m'.x) ^ 2 + (T * m'.y) ^ 2 + (T * m'.z) ^ 2 := by ring
        _ = (N * k0) ^ 2 * (m.x ^ 2 + m.y ^ 2 + m.z ^ 2) := by rw [hTx, hTy, hTz]; ring
        _ = _ := by rw [hmu, mul_one]
    exact (sq_eq_sq₀ hT.le (by positivity)).mp h2
  have hmm : m' = m := by
    rw [hT'] at hx hy hz
    have hNk : N * k0 ≠ 0 := by positivity
    ext
    · exact (mul_left_cancel₀ hNk hx).symm
    · have : N * (k0 + (2 - f) * f) ≠ 0 := by positivity
      apply mul_left_cancel₀ this
      rw [hy]; field_simp
    · have : N * (k0 + (2 - f) * f) ≠ 0 := by positivity
      apply mul_left_cancel₀ this
      rw [hz]; field_simp
  rw [hmm, hT', hm, hR.trans_app]
  congr 2
  rw [hdk]; field_simp; ring

/-- positions no deeper than `(1 - 2e²) a` are above the evolute and outside the core -/
theorem above_of_simple (n : V3 ℝ) (hn : n ≠ 0) (d a f : ℝ) (ha : 0 < a) (hf0 : 0 ≤ f) (hf : f < 1) (R : M3 ℝ)
    (hR : IsRotation R) (he : (2 - f) * f < 1 / 2) (hd : d < (1 - 2 * ((2 - f) * f)) * a) :
    d < (1 - f) ^ 2 * (a / Dell f (app R (dirOf n))) ∧
    ∀ p : V3 ℝ, n_EB_E2p_EB_E n.fin (fin d) (fin a) (fin f) R.fin = p.fin → OutsideCore a f (app R p) := by
  have hmu : UnitVec (app R (dirOf n)) := unitVec_app hR (dirOf_unit hn)
  have hD := Dell_pos hf hmu.ne
  have hD2 := Dell_sq f (app R (dirOf n))
  have he0 : 0 ≤ (2 - f) * f := by nlinarith
  have hD1 : Dell f (app R (dirOf n)) ≤ 1 := by
    apply abs_le_of_sq_le_sq' _ zero_le_one |>.2
    rw [hD2]; unfold UnitVec at hmu
    have hg1 : (1 - f) ^ 2 ≤ 1 := by nlinarith
    nlinarith [mul_nonneg (sub_nonneg.mpr hg1) (sq_nonneg (app R (dirOf n)).x)]
  obtain ⟨N, hN⟩ : ∃ N, N = a / Dell f (app R (dirOf n)) := ⟨_, rfl⟩
  have haN : a ≤ N := by rw [hN, le_div_iff₀ hD]; nlinarith
  have hdN : d < (1 - 2 * ((2 - f) * f)) * N := lt_of_lt_of_le hd (mul_le_mul_of_nonneg_left haN (by linarith))
  have hNp : 0 < N := lt_of_lt_of_le ha haN
  constructor
  · rw [← hN]
    calc d < _ := hdN
      _ ≤ (1 - f) ^ 2 * N := by apply mul_le_mul_of_nonneg_right _ hNp.le; nlinarith
  · intro p hp
    rw [n2p_fin hn d a f hf hR, V3.fin_inj] at hp
    rw [← hp, hR.app_trans]
    generalize app R (dirOf n) = m at *
    obtain ⟨k0, hk0⟩ : ∃ k0, k0 = (1 - f) ^ 2 - d / N := ⟨_, rfl⟩
    have hk0p : (2 - f) * f < k0 := by
      rw [hk0]
      have : d / N < 1 - 2 * ((2 - f) * f) := by rw [div_lt_iff₀ hNp]; exact hdN
      nlinarith
    have hdk : d = N * ((1 - f) ^ 2 - k0) := by rw [hk0]; field_simp; ring
    have px : (posE a f m d).x = N * k0 * m.x := by unfold posE; rw [← hN]; simp only; rw [hdk]; ring
    have py : (posE a f m d).y = N * (k0 + (2 - f) * f) * m.y := by unfold posE; rw [← hN]; simp only; rw [hdk]; ring
    have pz : (posE a f m d).z = N * (k0 + (2 - f) * f) * m.z := by unfold posE; rw [← hN]; simp only; rw [hdk]; ring
    have hNa : N ^ 2 * ((1 - f) ^ 2 * m.x ^ 2 + m.y ^ 2 + m.z ^ 2) = a ^ 2 := by
      rw [← hD2, hN]; field_simp
    unfold OutsideCore
    rw [px, py, pz, ← add_div, lt_div_iff₀ (by positivity)]
    have h1 : k0 ^ 2 * a ^ 2 ≤ (N * (k0 + (2 - f) * f) * m.y) ^ 2 + (N * (k0 + (2 - f) * f) * m.z) ^ 2 +
        (1 - f) ^ 2 * (N * k0 * m.x) ^ 2 := by
      rw [← hNa]
      have h3 : k0 ^ 2 ≤ (k0 + (2 - f) * f) ^ 2 := pow_le_pow_left₀ (by linarith) (by linarith) 2
      have h4 : 0 ≤ N ^ 2 * (m.y ^ 2 + m.z ^ 2) := by positivity
      nlinarith [mul_le_mul_of_nonneg_right h3 h4]
    have h2 : ((2 - f) * f) ^ 2 < k0 ^ 2 := pow_lt_pow_left₀ hk0p he0 two_ne_zero
    nlinarith [mul_lt_mul_of_pos_right h2 (show 0 < a ^ 2 by positivity)]


/-- **C07** simple sufficient condition: `depth < (1 - 2e²) a` (6.29e6 m for WGS84), any height above -/
theorem C07_roundtrip_simple (n : V3 ℝ) (hn : n ≠ 0) (d a f : ℝ) (ha : 0 < a) (hf0 : 0 ≤ f) (hf : f < 1) (R : M3 ℝ)
    (hR : IsRotation R) (he : (2 - f) * f < 1 / 2) (hd : d < (1 - 2 * ((2 - f) * f)) * a) :
    p_EB_E2n_EB_E (n_EB_E2p_EB_E n.fin (fin d) (fin a) (fin f) R.fin) (fin a) (fin f) R.fin =
      (((len n)⁻¹ • n).fin, fin d) := by
  obtain ⟨h1, h2⟩ := above_of_simple n hn d a f ha hf0 hf R hR he hd
  exact C07_roundtrip n hn d a f ha hf0 hf R hR _ rfl h1 h2

end Nv
