import Verif.Lemmas.Prolate
import Verif.Props.Convert

/-!
# C150: prolate bodies

`FrameE` accepts a negative flattening (polar radius longer than the equatorial one).  C06, C07, C08 and C125 carry over, with the other centre of
curvature: a depth is recovered when it is less than the distance from the surface to the polar axis along the normal.
-/

namespace Nv
open Spec Real
open XR (fin)

/-- **C150** outside the core, a Cartesian position becomes a unit n-vector and a depth that describe exactly that position; the depth is up to sign the
distance to the ellipsoid, the surface point of the n-vector is the one nearest point of the ellipsoid, and the depth is negative exactly outside the ellipsoid,
zero exactly on it, positive exactly inside -/
theorem C150_from_position (p : V3 ℝ) (a f : ℝ) (ha : 0 < a) (hf : f < 0) (R : M3 ℝ) (hR : IsRotation R)
    (h : OutsideCore a f (app R p)) :
    ∃ (n s : V3 ℝ) (d : ℝ), p_EB_E2n_EB_E p.fin (fin a) (fin f) R.fin = (n.fin, fin d) ∧ UnitVec n ∧
      n_EB_E2p_EB_E n.fin (fin d) (fin a) (fin f) R.fin = p.fin ∧
      n_EB_E2p_EB_E n.fin (fin 0) (fin a) (fin f) R.fin = s.fin ∧ NearestOnEllipsoid a f R p s |d| ∧
      (∀ x, NearestOnEllipsoid a f R p x |d| → x = s) ∧
      (d < 0 ↔ 1 < level a f (app R p)) ∧ (d = 0 ↔ OnEllipsoid a f (app R p)) ∧ (0 < d ↔ level a f (app R p) < 1) := by
  have hf1 : f < 1 := by linarith
  obtain ⟨m, T, k, h1, hm, hT, hk, hke, hx, hy, hz, hell⟩ := p2n_prolate p a f ha hf R hR h
  have hD := Dell_of_k ha hk hke.ne' hT hx hy hz hell
  have hpos := posE_back_any ha hk hT hD hx hy hz
  obtain ⟨d, hd⟩ : ∃ d, d = -((k + (2 - f) * f - 1) / k * T) := ⟨_, rfl⟩
  rw [← hd] at hpos h1
  have hdD : d * Dell f m = a - a * (k + (2 - f) * f) := by rw [hd, hD]; field_simp; ring
  have hlt2 : d * Dell f m < a := by rw [hdD]; linarith [mul_pos ha hke]
  have hlt1 : d * Dell f m < a * (1 - f) ^ 2 := by rw [hdD]; nlinarith [mul_pos ha hk]
  have hn := (unitVec_app hR.transpose hm)
  have hp : p = app (transp R) (posE a f m d) := by rw [hpos, hR.trans_app]
  have hs := posE_side_prolate ha hf.le hm hlt2.le
  rw [hpos] at hs
  have e0 := n2p_fin hn.ne 0 a f hf1 hR
  rw [dirOf_of_unit hn, hR.app_trans] at e0
  have ed := n2p_fin hn.ne d a f hf1 hR
  rw [dirOf_of_unit hn, hR.app_trans, ← hp] at ed
  refine ⟨_, _, d, h1, hn, ed, e0, ⟨?_, ?_, ?_⟩, ?_, hs⟩
  · obtain ⟨q, hq, h2, -⟩ := C04_on_surface _ hn.ne a f ha hf1 R hR
    rw [e0, V3.fin_inj] at hq
    rw [hq]; exact h2
  · rw [hp, len_sub_app hR, hR.app_trans]
    have : posE a f m d - posE a f m 0 = (-d) • m := by
      unfold posE; ext <;> simp <;> ring
    rw [this, len_smul, abs_neg, hm.len, mul_one]
  · intro x hx
    rw [hp, len_sub_app hR]
    exact (posE_nearest_any ha hf1 hm hlt1 hlt2 hx).1
  · rintro x ⟨hx, hl, -⟩
    rw [hp, len_sub_app hR] at hl
    rw [← (posE_nearest_any ha hf1 hm hlt1 hlt2 hx).2 hl.le, hR.trans_app]

/-- **C150** in particular for every position farther than `a |e²|` from the centre -/
theorem C150_far (p : V3 ℝ) (a f : ℝ) (ha : 0 < a) (hf : f < 0) (R : M3 ℝ) (hR : IsRotation R)
    (hfar : a * |(2 - f) * f| < len p) :
    ∃ (n : V3 ℝ) (d : ℝ), p_EB_E2n_EB_E p.fin (fin a) (fin f) R.fin = (n.fin, fin d) ∧ UnitVec n ∧
      n_EB_E2p_EB_E n.fin (fin d) (fin a) (fin f) R.fin = p.fin := by
  have hcore : OutsideCore a f (app R p) := by
    have h2 := pow_lt_pow_left₀ hfar (by positivity) two_ne_zero
    rw [← len_app hR p, len_sq, mul_pow, sq_abs] at h2
    unfold OutsideCore
    rw [← add_div, lt_div_iff₀ (by positivity)]
    have hg1 : 1 ≤ (1 - f) ^ 2 := by nlinarith
    nlinarith [mul_nonneg (sub_nonneg.mpr hg1) (sq_nonneg (app R p).x)]
  obtain ⟨n, -, d, h1, h2, h3, -⟩ := C150_from_position p a f ha hf R hR hcore
  exact ⟨n, d, h1, h2, h3⟩

/-- **C150** n-vector and depth to position and back: exact as long as the depth is less than the distance along the normal to the polar axis and the position is
outside the core -/
theorem C150_from_nvector (n : V3 ℝ) (hn : n ≠ 0) (d a f : ℝ) (ha : 0 < a) (hf : f < 0) (R : M3 ℝ)
    (hR : IsRotation R) (m : V3 ℝ) (hm : m = app R ((len n)⁻¹ • n))
    (hd : d < a / √((1 - f) ^ 2 * m.x ^ 2 + m.y ^ 2 + m.z ^ 2))
    (hcore : ∀ p : V3 ℝ, n_EB_E2p_EB_E n.fin (fin d) (fin a) (fin f) R.fin = p.fin → OutsideCore a f (app R p)) :
    p_EB_E2n_EB_E (n_EB_E2p_EB_E n.fin (fin d) (fin a) (fin f) R.fin) (fin a) (fin f) R.fin =
      (((len n)⁻¹ • n).fin, fin d) := by
  have hf1 : f < 1 := by linarith
  have hmu : UnitVec m := by rw [hm]; exact unitVec_app hR (dirOf_unit hn)
  have hD := Dell_pos hf1 hmu.ne
  have hD2 := Dell_sq f m
  have hg : 0 < 1 - f := by linarith
  have he : (2 - f) * f < 0 := mul_neg_of_pos_of_neg (by linarith) hf
  have e0 := n2p_fin hn d a f hf1 hR
  have hcore' := hcore _ e0
  rw [e0]
  change d < a / Dell f m at hd
  rw [show dirOf n = (len n)⁻¹ • n from rfl, ← hm] at hcore' ⊢
  obtain ⟨m', T, k, h1, hm', hT, hk, hke1, hx, hy, hz, hell⟩ := p2n_prolate _ a f ha hf R hR hcore'
  rw [h1]
  rw [hR.app_trans] at hx hy hz hell
  obtain ⟨N, hN⟩ : ∃ N, N = a / Dell f m := ⟨_, rfl⟩
  have hNp : 0 < N := by rw [hN]; positivity
  rw [← hN] at hd
  obtain ⟨k0, hk0⟩ : ∃ k0, k0 = (1 - f) ^ 2 - d / N := ⟨_, rfl⟩
  have hke : 0 < k0 + (2 - f) * f := by
    have : d / N < 1 := by rw [div_lt_iff₀ hNp]; linarith
    rw [hk0]; nlinarith
  have hk0p : 0 < k0 := by linarith
  have hdk : d = N * ((1 - f) ^ 2 - k0) := by rw [hk0]; field_simp; ring
  have px : (posE a f m d).x = N * k0 * m.x := by unfold posE; rw [← hN]; simp only; rw [hdk]; ring
  have py : (posE a f m d).y = N * (k0 + (2 - f) * f) * m.y := by unfold posE; rw [← hN]; simp only; rw [hdk]; ring
  have pz : (posE a f m d).z = N * (k0 + (2 - f) * f) * m.z := by unfold posE; rw [← hN]; simp only; rw [hdk]; ring
  have hNa : N ^ 2 * ((1 - f) ^ 2 * m.x ^ 2 + m.y ^ 2 + m.z ^ 2) = a ^ 2 := by
    rw [← hD2, hN]; field_simp
  have hell0 : ((posE a f m d).y ^ 2 + (posE a f m d).z ^ 2) / a ^ 2 * k0 ^ 2 +
        (1 - f) ^ 2 * (posE a f m d).x ^ 2 / a ^ 2 * (k0 + (2 - f) * f) ^ 2 = k0 ^ 2 * (k0 + (2 - f) * f) ^ 2 := by
    rw [px, py, pz]
    have ha2 : a ^ 2 ≠ 0 := by positivity
    calc _ = k0 ^ 2 * (k0 + (2 - f) * f) ^ 2 * (N ^ 2 * ((1 - f) ^ 2 * m.x ^ 2 + m.y ^ 2 + m.z ^ 2)) / a ^ 2 := by ring
      _ = _ := by rw [hNa]; field_simp
  have hkk : k = k0 := k_unique_prolate he.le (by positivity) (by positivity) hke1 hke hell hell0
  rw [hkk] at hy hz ⊢
  rw [px] at hx; rw [py] at hy; rw [pz] at hz
  obtain ⟨e, hedef⟩ : ∃ e, e = k0 + (2 - f) * f := ⟨_, rfl⟩
  rw [← hedef] at hy hz hke ⊢
  have hTx : T * m'.x = N * k0 * m.x := hx.symm
  have hTy : T * m'.y = N * k0 * m.y := by
    field_simp at hy; linarith
  have hTz : T * m'.z = N * k0 * m.z := by
    field_simp at hz; linarith
  have hT' : T = N * k0 := by
    have h2 : T ^ 2 = (N * k0) ^ 2 := by
      unfold UnitVec at hmu hm'
      calc T ^ 2 = T ^ 2 * (m'.x ^ 2 + m'.y ^ 2 + m'.z ^ 2) := by rw [hm', mul_one]
        _ = (T * m'.x) ^ 2 + (T * m'.y) ^ 2 + (T * m'.z) ^ 2 := by ring
        _ = (N * k0) ^ 2 * (m.x ^ 2 + m.y ^ 2 + m.z ^ 2) := by rw [hTx, hTy, hTz]; ring
        _ = _ := by rw [hmu, mul_one]
    exact (sq_eq_sq₀ hT.le (by positivity)).mp h2
  have hmm : m' = m := by
    rw [hT'] at hTx hTy hTz
    have hNk : N * k0 ≠ 0 := by positivity
    ext
    · exact mul_left_cancel₀ hNk hTx
    · exact mul_left_cancel₀ hNk hTy
    · exact mul_left_cancel₀ hNk hTz
  rw [hmm, hT', hm, hR.trans_app]
  congr 2
  rw [hdk, hedef]; field_simp; ring

/-- **C150** every height, and every depth less than `a (1 - |e²|) / (1 - f)`, is recovered exactly when the flattening is between `1 - √2` and 0 -/
theorem C150_from_nvector_simple (n : V3 ℝ) (hn : n ≠ 0) (d a f : ℝ) (ha : 0 < a) (hf : f < 0) (R : M3 ℝ)
    (hR : IsRotation R) (he1 : |(2 - f) * f| < 1) (hd : d * (1 - f) < a * (1 - |(2 - f) * f|)) :
    p_EB_E2n_EB_E (n_EB_E2p_EB_E n.fin (fin d) (fin a) (fin f) R.fin) (fin a) (fin f) R.fin =
      (((len n)⁻¹ • n).fin, fin d) := by
  have hf1 : f < 1 := by linarith
  have he : (2 - f) * f < 0 := mul_neg_of_pos_of_neg (by linarith) hf
  have hea : |(2 - f) * f| = -((2 - f) * f) := abs_of_neg he
  have hmu : UnitVec (app R (dirOf n)) := unitVec_app hR (dirOf_unit hn)
  have hD := Dell_pos hf1 hmu.ne
  have hD2 := Dell_sq f (app R (dirOf n))
  have hg : 0 < 1 - f := by linarith
  have hg1 : 1 ≤ (1 - f) ^ 2 := by nlinarith
  have e0 := n2p_fin hn d a f hf1 hR
  obtain ⟨m, hm⟩ : ∃ m, m = app R (dirOf n) := ⟨_, rfl⟩
  rw [← hm] at hmu hD hD2 e0
  have hDg : Dell f m ≤ 1 - f := by
    apply abs_le_of_sq_le_sq' _ hg.le |>.2
    rw [hD2]; unfold UnitVec at hmu
    nlinarith [mul_nonneg (sub_nonneg.mpr hg1) (add_nonneg (sq_nonneg m.y) (sq_nonneg m.z))]
  -- `d D < a (1 - |e²|)`
  have hpos1 : 0 < a * (1 - |(2 - f) * f|) := mul_pos ha (by linarith)
  have hdD : d * Dell f m < a * (1 - |(2 - f) * f|) := by
    rcases le_or_gt d 0 with h | h
    · have := mul_nonpos_of_nonpos_of_nonneg h hD.le
      linarith
    · have := mul_le_mul_of_nonneg_left hDg h.le
      linarith
  refine C150_from_nvector n hn d a f ha hf R hR m hm ?_ ?_
  · change d < a / Dell f m
    rw [lt_div_iff₀ hD]
    have := mul_nonneg ha.le (abs_nonneg ((2 - f) * f))
    linarith
  · intro p hp
    rw [e0, V3.fin_inj] at hp
    rw [← hp, hR.app_trans]
    obtain ⟨c, hc⟩ : ∃ c, c = 1 - d * Dell f m / a := ⟨_, rfl⟩
    have hce : |(2 - f) * f| < c := by
      rw [hc]
      have : d * Dell f m / a < 1 - |(2 - f) * f| := by rw [div_lt_iff₀ ha]; linarith
      linarith
    have hdc : d = (1 - c) * a / Dell f m := by rw [hc]; field_simp; ring
    have px : (posE a f m d).x = a / Dell f m * (c - (2 - f) * f) * m.x := by
      unfold posE; simp only; rw [hdc]; ring
    have py : (posE a f m d).y = a / Dell f m * c * m.y := by
      unfold posE; simp only; rw [hdc]; ring
    have pz : (posE a f m d).z = a / Dell f m * c * m.z := by
      unfold posE; simp only; rw [hdc]; ring
    unfold OutsideCore
    rw [px, py, pz]
    have e : ((a / Dell f m * c * m.y) ^ 2 + (a / Dell f m * c * m.z) ^ 2) / a ^ 2 +
        (1 - f) ^ 2 * (a / Dell f m * (c - (2 - f) * f) * m.x) ^ 2 / a ^ 2 =
        (c ^ 2 * (m.y ^ 2 + m.z ^ 2) + (c - (2 - f) * f) ^ 2 * ((1 - f) ^ 2 * m.x ^ 2)) / Dell f m ^ 2 := by
      field_simp
    rw [e, lt_div_iff₀ (by positivity)]
    have hc0 : 0 < c := lt_of_le_of_lt (abs_nonneg _) hce
    have h1 : ((2 - f) * f) ^ 2 < c ^ 2 := by
      rw [← sq_abs ((2 - f) * f)]; exact pow_lt_pow_left₀ hce (abs_nonneg _) two_ne_zero
    have h2 : c ^ 2 ≤ (c - (2 - f) * f) ^ 2 := pow_le_pow_left₀ hc0.le (by linarith) 2
    have hDp : 0 < Dell f m ^ 2 := by positivity
    calc ((2 - f) * f) ^ 2 * Dell f m ^ 2 < c ^ 2 * Dell f m ^ 2 := mul_lt_mul_of_pos_right h1 hDp
      _ = c ^ 2 * (m.y ^ 2 + m.z ^ 2) + c ^ 2 * ((1 - f) ^ 2 * m.x ^ 2) := by rw [hD2]; ring
      _ ≤ _ := by
        have := mul_le_mul_of_nonneg_right h2 (show 0 ≤ (1 - f) ^ 2 * m.x ^ 2 by positivity)
        linarith

/-- **C150** on the polar axis inside the core the position is still described exactly: by the pole on its side and the depth below that pole -/
theorem C150_axis (p : V3 ℝ) (a f : ℝ) (ha : 0 < a) (hf : f < 0) (R : M3 ℝ) (hR : IsRotation R)
    (hy : (app R p).y = 0) (hz : (app R p).z = 0) (hx : (app R p).x ≠ 0) (hin : (1 - f) * |(app R p).x| < a * |(2 - f) * f|) :
    ∃ (n : V3 ℝ) (d : ℝ), p_EB_E2n_EB_E p.fin (fin a) (fin f) R.fin = (n.fin, fin d) ∧ UnitVec n ∧ p = len p • n ∧
      d = a * (1 - f) - len p ∧ n_EB_E2p_EB_E n.fin (fin d) (fin a) (fin f) R.fin = p.fin := by
  have hf1 : f < 1 := by linarith
  have hg : 0 < 1 - f := by linarith
  have he : (2 - f) * f < 0 := mul_neg_of_pos_of_neg (by linarith) hf
  have hp : p ≠ 0 := by
    rintro rfl
    apply hx; simp [app, dot]
  have hxp : 0 < |(app R p).x| := abs_pos.mpr hx
  have hlen : len p = |(app R p).x| := by
    rw [← len_app hR p]; unfold len; rw [hy, hz]
    simp [Real.sqrt_sq_eq_abs]
  have hq : (1 - (2 - f) * f) / a ^ 2 * (app R p).x ^ 2 = ((1 - f) * |(app R p).x| / a) ^ 2 := by
    rw [div_pow, mul_pow, sq_abs]; ring
  have hqs : √((1 - (2 - f) * f) / a ^ 2 * (app R p).x ^ 2) = (1 - f) * |(app R p).x| / a := by
    rw [hq, Real.sqrt_sq (by positivity)]
  have hlt : (1 - f) * |(app R p).x| / a < |(2 - f) * f| := by rw [div_lt_iff₀ ha]; linarith
  have hlt2 := pow_lt_pow_left₀ hlt (by positivity) two_ne_zero
  rw [sq_abs] at hlt2
  have hk := compute_k_flat (a := a) (e2 := (2 - f) * f) (q := (1 - (2 - f) * f) / a ^ 2 * (app R p).x ^ 2)
    (Y2 := (app R p).y ^ 2 + (app R p).z ^ 2) ha he.ne (by rw [hq]; positivity) (by rw [hy, hz]; simp)
    (by rw [hq, hy, hz]; simpa using hlt2.ne)
    (by
      rw [hq, hy, hz]
      have h1 : 0 ≤ ((1 - f) * |(app R p).x| / a) ^ 2 := by positivity
      have h2 : 0 < ((2 - f) * f) ^ 2 := by nlinarith
      simp only [ne_eq, OfNat.ofNat_ne_zero, not_false_eq_true, zero_pow, add_zero, zero_div, sub_zero]
      linarith)
  rw [hqs] at hk
  have hk0 : 0 < (1 - f) * |(app R p).x| / a := by positivity
  have hke : (1 - f) * |(app R p).x| / a + (2 - f) * f ≠ 0 := by
    rw [abs_of_neg he] at hlt
    intro h; linarith
  obtain ⟨m, T, h1, hm, hT, hx', hy', hz'⟩ := p2n_of_k_any p hR ha hp hk hk0 hke
  have hell : ((app R p).y ^ 2 + (app R p).z ^ 2) / a ^ 2 * ((1 - f) * |(app R p).x| / a) ^ 2 +
      (1 - f) ^ 2 * (app R p).x ^ 2 / a ^ 2 * ((1 - f) * |(app R p).x| / a + (2 - f) * f) ^ 2 =
      ((1 - f) * |(app R p).x| / a) ^ 2 * ((1 - f) * |(app R p).x| / a + (2 - f) * f) ^ 2 := by
    rw [hy, hz]
    have : (1 - f) ^ 2 * (app R p).x ^ 2 / a ^ 2 = ((1 - f) * |(app R p).x| / a) ^ 2 := by
      rw [div_pow, mul_pow, sq_abs]
    rw [this]; ring
  have hD := Dell_of_k ha hk0 hke hT hx' hy' hz' hell
  have hpos := posE_back_any ha hk0 hT hD hx' hy' hz'
  have hmy : m.y = 0 := by
    rw [hy] at hy'
    rcases mul_eq_zero.mp hy'.symm with h | h
    · exfalso; rw [div_eq_zero_iff] at h
      rcases h with h | h
      · exact (mul_ne_zero hT.ne' hke) h
      · exact hk0.ne' h
    · exact h
  have hmz : m.z = 0 := by
    rw [hz] at hz'
    rcases mul_eq_zero.mp hz'.symm with h | h
    · exfalso; rw [div_eq_zero_iff] at h
      rcases h with h | h
      · exact (mul_ne_zero hT.ne' hke) h
      · exact hk0.ne' h
    · exact h
  have hmx : |m.x| = 1 := by
    unfold UnitVec at hm; rw [hmy, hmz] at hm
    rw [← sq_eq_sq₀ (abs_nonneg _) zero_le_one, sq_abs]; linarith
  have hTx : T = |(app R p).x| := by rw [hx', abs_mul, hmx, mul_one, abs_of_pos hT]
  have hn := unitVec_app hR.transpose hm
  refine ⟨_, _, h1, hn, ?_, ?_, ?_⟩
  · rw [hlen, ← hTx, ← app_smul]
    have : T • m = app R p := by
      ext
      · rw [smul_x, hx']
      · rw [smul_y, hmy, hy]; ring
      · rw [smul_z, hmz, hz]; ring
    rw [this, hR.trans_app]
  · rw [hlen, hTx]; field_simp; ring
  · rw [n2p_fin hn.ne _ a f hf1 hR, dirOf_of_unit hn, hR.app_trans, hpos, hR.trans_app]

/-- the equatorial plane inside the core: `k = 0` and the division fails -/
theorem p2n_nan_of_k0_prolate {a f : ℝ} (p : V3 ℝ) (R : M3 ℝ) (ha : 0 < a) (hf : f < 0) (hx : (app R p).x = 0)
    (hk : compute_k (fin a) (fin ((2 - f) * f)) (fin ((1 - (2 - f) * f) / a ^ 2 * (app R p).x ^ 2))
      (fin ((app R p).y ^ 2 + (app R p).z ^ 2)) = fin 0) :
    p_EB_E2n_EB_E p.fin (fin a) (fin f) R.fin = (V3.nan, XR.nan) := by
  have ha2 : a ^ 2 ≠ 0 := by positivity
  have he : (2 - f) * f < 0 := mul_neg_of_pos_of_neg (by linarith) hf
  have he1 : (2 - f) * f - 1 < 0 := by linarith
  unfold p_EB_E2n_EB_E equation23 eccentricity2
  simp only [xr, XR.div_fin ha2, Rat.cast_one, Rat.cast_ofNat]
  rw [hk, XR.sqrt_fin (by positivity)]
  simp only [xr, zero_add, zero_mul, XR.div_fin he.ne, zero_div]
  rw [hx]
  have h0 : PyFloat.sqrt (fin ((0:ℝ) ^ 2 + 0 ^ 2)) = fin 0 := by rw [XR.sqrt_fin (by positivity)]; norm_num
  rw [h0]
  have h1 : (fin 1 / fin 0) = XR.pinf := by
    rw [XR.div_fin_eq, if_pos rfl]; simp [XR.signInf]
  have h2 : (fin ((2 - f) * f - 1) / fin 0) = XR.ninf := by
    rw [XR.div_fin_eq, if_pos rfl]; unfold XR.signInf; rw [if_neg (by linarith), if_pos he1]
  have h3 : (XR.pinf * fin 0) = XR.nan := by show XR.signInf 0 = _; simp [XR.signInf]
  have h4 : (XR.ninf * fin 0) = XR.nan := by show XR.signInf (-0) = _; simp [XR.signInf]
  rw [h1, h2, h3, h4]
  simp only [xr]
  have : (⟨XR.nan, XR.nan, XR.nan⟩ : V3 XR) = V3.nan := rfl
  rw [this]
  simp only [xr]

/-- `compute_k_nan` needs `e² ≠ 0` only -/
theorem compute_k_nan_prolate {a e2 q Y2 : ℝ} (ha : 0 < a) (he : e2 < 0) (hq : 0 < q) (hY : 0 < Y2)
    (hr : Y2 / a ^ 2 + q ≤ e2 ^ 2) : compute_k (fin a) (fin e2) (fin q) (fin Y2) = XR.nan := by
  obtain ⟨p, hp⟩ : ∃ p, p = Y2 / a ^ 2 := ⟨_, rfl⟩
  have hp0 : 0 < p := by rw [hp]; positivity
  rw [← hp] at hr
  obtain ⟨r, hrdef⟩ : ∃ r, r = (p + q - e2 ^ 2) / 6 := ⟨_, rfl⟩
  have hr0 : r ≤ 0 := by rw [hrdef]; linarith
  have he2 : 0 < e2 ^ 2 := by nlinarith
  have hnum : 0 < e2 ^ 2 * p * q := by positivity
  rcases hr0.lt_or_eq with hneg | hzero
  · have hr3 : r ^ 3 < 0 := by
      have h2 : 0 < r ^ 2 := by have := hneg.ne; positivity
      nlinarith
    have hden : 4 * r ^ 3 ≠ 0 := by linarith
    refine compute_k_nan_of_t ha.ne' hp hrdef (XR.div_fin hden) ?_
    obtain ⟨s, hs⟩ : ∃ s, s = e2 ^ 2 * p * q / (4 * r ^ 3) := ⟨_, rfl⟩
    have hsneg : s < 0 := by rw [hs]; apply div_neg_of_pos_of_neg hnum; linarith
    rw [← hs]
    simp only [xr]
    by_cases h2 : s * (2 + s) < 0
    · rw [XR.sqrt_fin_neg h2]; simp only [xr, nthroot_nan]
    · push Not at h2
      rw [XR.sqrt_fin h2]
      simp only [xr]
      have hs2 : s ≤ -2 := by
        by_contra h; push Not at h
        nlinarith
      have : 1 + s + √(s * (2 + s)) < 0 := by
        have h3 : √(s * (2 + s)) < -1 - s := by
          rw [Real.sqrt_lt' (by linarith)]; nlinarith
        linarith
      rw [nthroot_neg this (by norm_num)]
      simp only [xr]
  · refine compute_k_nan_of_t ha.ne' hp hrdef (s := XR.pinf) ?_ ?_
    · rw [hzero, XR.div_fin_eq, if_pos (by norm_num)]
      unfold XR.signInf; rw [if_pos hnum]
    · have h1 : (fin 2 + XR.pinf) = XR.pinf := rfl
      have h2 : (XR.pinf * XR.pinf) = XR.pinf := rfl
      have h3 : PyFloat.sqrt XR.pinf = XR.pinf := rfl
      have h4 : (fin 1 + XR.pinf) = XR.pinf := rfl
      have h5 : (XR.pinf + XR.pinf) = XR.pinf := rfl
      have h6 : (fin 1 / XR.pinf) = fin 0 := rfl
      have h7 : (XR.pinf + fin 0) = XR.pinf := rfl
      rw [h1, h2, h3, h4, h5, nthroot_pinf, h4, h6, h7, hzero]
      show XR.signInf 0 = _
      simp [XR.signInf]

/-- **C150** everywhere else in the core all the results are NaN -/
theorem C150_core_nan (p : V3 ℝ) (a f : ℝ) (ha : 0 < a) (hf : f < 0) (R : M3 ℝ)
    (h1 : ¬ OutsideCore a f (app R p))
    (h2 : ¬ ((app R p).y = 0 ∧ (app R p).z = 0 ∧ (app R p).x ≠ 0 ∧ (1 - f) * |(app R p).x| < a * |(2 - f) * f|)) :
    p_EB_E2n_EB_E p.fin (fin a) (fin f) R.fin = (⟨XR.nan, XR.nan, XR.nan⟩, XR.nan) := by
  change _ = (V3.nan, XR.nan)
  obtain ⟨P, hP⟩ : ∃ P, P = app R p := ⟨_, rfl⟩
  have hg : 0 < 1 - f := by linarith
  have he : (2 - f) * f < 0 := mul_neg_of_pos_of_neg (by linarith) hf
  have he2 : 0 < ((2 - f) * f) ^ 2 := by nlinarith
  have ha2 : 0 < a ^ 2 := by positivity
  rw [← hP] at h1 h2
  have hq : (1 - (2 - f) * f) / a ^ 2 * P.x ^ 2 = (1 - f) ^ 2 * P.x ^ 2 / a ^ 2 := by ring
  have hq2 : (1 - f) ^ 2 * P.x ^ 2 / a ^ 2 = ((1 - f) * |P.x| / a) ^ 2 := by
    rw [div_pow, mul_pow, sq_abs]
  have hq0 : 0 ≤ (1 - (2 - f) * f) / a ^ 2 * P.x ^ 2 := by rw [hq]; positivity
  unfold OutsideCore at h1
  push Not at h1
  rw [← hq] at h1
  by_cases hY : P.y ^ 2 + P.z ^ 2 = 0
  · have hy : P.y = 0 := pow_eq_zero_iff two_ne_zero |>.mp (by nlinarith [sq_nonneg P.y, sq_nonneg P.z])
    have hz : P.z = 0 := pow_eq_zero_iff two_ne_zero |>.mp (by nlinarith [sq_nonneg P.y, sq_nonneg P.z])
    by_cases hx : P.x = 0
    · apply p2n_nan_of_k0_prolate p R ha hf (by rw [← hP, hx])
      rw [← hP, compute_k_flat ha he.ne hq0 (by rw [hY]; simp)
        (by rw [hY, hx]; simpa using he2.ne) (by rw [hY, hx]; simpa using he2), hx]
      simp
    · apply p2n_nan_of_k p R ha
      rw [← hP]
      refine compute_k_boundary ha (by rw [hY]; simp) ?_
      apply le_antisymm h1
      rw [hY, hq, hq2]
      have hnot : a * |(2 - f) * f| ≤ (1 - f) * |P.x| := by
        by_contra h; push Not at h
        exact h2 ⟨hy, hz, hx, h⟩
      have : |(2 - f) * f| ≤ (1 - f) * |P.x| / a := by rw [le_div_iff₀ ha]; linarith
      have := pow_le_pow_left₀ (abs_nonneg _) this 2
      rw [sq_abs] at this
      simpa using this
  · have hYp : 0 < P.y ^ 2 + P.z ^ 2 := lt_of_le_of_ne (by positivity) (Ne.symm hY)
    by_cases hx : P.x = 0
    · rcases h1.lt_or_eq with hlt | heq
      · apply p2n_nan_of_k0_prolate p R ha hf (by rw [← hP, hx])
        rw [← hP, compute_k_flat ha he.ne hq0 (by rw [hx]; simp) hlt.ne (by linarith), hx]; simp
      · apply p2n_nan_of_k p R ha
        rw [← hP]
        exact compute_k_boundary ha (by rw [hx]; simp) heq
    · apply p2n_nan_of_k p R ha
      rw [← hP]
      refine compute_k_nan_prolate ha he ?_ hYp h1
      rw [hq]
      have : 0 < P.x ^ 2 := by positivity
      positivity

/-- **C150** on a body so long that `(1-f)² ≥ 2` (`f ≤ 1 - √2`) the core reaches the surface: every position of the equator gives NaN -/
theorem C150_equator_nan (p : V3 ℝ) (a f : ℝ) (ha : 0 < a) (hf : f < 0) (hlong : 1 ≤ |(2 - f) * f|) (R : M3 ℝ)
    (hx : (app R p).x = 0) (hp : OnEllipsoid a f (app R p)) :
    p_EB_E2n_EB_E p.fin (fin a) (fin f) R.fin = (⟨XR.nan, XR.nan, XR.nan⟩, XR.nan) := by
  refine C150_core_nan p a f ha hf R ?_ (fun h => h.2.2.1 hx)
  unfold OnEllipsoid at hp
  unfold OutsideCore
  rw [hx] at hp ⊢
  have h1 : ((app R p).y ^ 2 + (app R p).z ^ 2) / a ^ 2 = 1 := by
    rw [add_div, ← div_pow, ← div_pow]; simpa using hp
  rw [h1]
  have : 1 ≤ ((2 - f) * f) ^ 2 := by
    rw [← sq_abs]; exact one_le_pow₀ hlong
  simp only [ne_eq, OfNat.ofNat_ne_zero, not_false_eq_true, zero_pow, mul_zero, zero_div, add_zero, not_lt]
  exact this

/-! ## Objects -/

theorem ecef_describes_prolate {p : V3 ℝ} {a f : ℝ} (ha : 0 < a) (hf : f < 0) (name : EllKey) {R : M3 ℝ}
    (hR : IsRotation R) (hcore : OutsideCore a f (app R p)) :
    ∃ (n : V3 ℝ) (z : ℝ), n ≠ 0 ∧ (ECEFvector.real p (.real a f name R)).to_nvector = .real n z (.real a f name R) ∧
      (Nvector.real n z (.real a f name R)).to_ecef_vector = .real p (.real a f name R) := by
  obtain ⟨n, -, d, h1, hu, h2, -⟩ := C150_from_position p a f ha hf R hR hcore
  refine ⟨n, d, hu.ne, ?_, ?_⟩
  · unfold ECEFvector.to_nvector ECEFvector.real Nvector.real FrameE.real; simp only [h1]
  · unfold Nvector.to_ecef_vector ECEFvector.real Nvector.real FrameE.real; simp only [h2]

theorem Spec.Describes.call_prolate {p : V3 ℝ} {a f : ℝ} (ha : 0 < a) (hf : f < 0) {name : EllKey} {R : M3 ℝ}
    (hR : IsRotation R) (hcore : OutsideCore a f (app R p)) {x : Position XR} (h : Describes p (.real a f name R) x)
    (c : Conv) : Describes p (.real a f name R) (c.call x) := by
  have hf1 : f < 1 := by linarith
  obtain ⟨n, z, hn0, hn, hp⟩ := ecef_describes_prolate ha hf name hR hcore
  have hx := h.to_ecef
  cases c with
  | to_ecef_vector => exact hx
  | to_nvector =>
    cases x with
    | geo g =>
      obtain ⟨lat, lon, w, rfl, hg⟩ := h
      obtain ⟨m, hm, hu, -⟩ := geoPoint_to_nvector lat lon w a f name R hR
      exact ⟨m, w, hu.ne, hm, hg⟩
    | nvec m => exact h
    | ecef q =>
      refine ⟨n, z, hn0, ?_, ?_⟩
      · change q.to_nvector = _; rw [show q = _ from h, hn]
      · change q.to_nvector.to_ecef_vector = _; rw [show q = _ from h, hn, hp]
    | pvec q =>
      refine ⟨n, z, hn0, ?_, ?_⟩
      · change q.to_ecef_vector.to_nvector = _; rw [show q.to_ecef_vector = _ from h, hn]
      · change q.to_ecef_vector.to_nvector.to_ecef_vector = _; rw [show q.to_ecef_vector = _ from h, hn, hp]
  | to_geo_point =>
    have key := nvector_geo_describes hn0 z a f hf1 name hR hp
    cases x with
    | geo g => exact h
    | nvec m =>
      obtain ⟨m, w, hm0, rfl, hm⟩ := h
      exact nvector_geo_describes hm0 w a f hf1 name hR hm
    | ecef q =>
      change Describes _ _ (.geo q.to_nvector.to_geo_point)
      rw [show q = _ from h, hn]; exact key
    | pvec q =>
      change Describes _ _ (.geo q.to_ecef_vector.to_nvector.to_geo_point)
      rw [show q.to_ecef_vector = _ from h, hn]; exact key

/-- **C150** no chain of object conversions, however long, moves a position outside the core -/
theorem C150_chain (p : V3 ℝ) (a f : ℝ) (ha : 0 < a) (hf : f < 0) (name : EllKey) (R : M3 ℝ)
    (hR : IsRotation R) (hcore : OutsideCore a f (app R p)) (x : Position XR) (h : Describes p (.real a f name R) x)
    (chain : List Conv) :
    (chain.foldl (fun y c => c.call y) x).to_ecef_vector = .real p (.real a f name R) := by
  have : Describes p (.real a f name R) (chain.foldl (fun y c => c.call y) x) := by
    induction chain generalizing x with
    | nil => exact h
    | cons c l ih => exact ih _ (h.call_prolate ha hf hR hcore c)
  exact this.to_ecef

/-- **C150** GeoPoint → ECEFvector → GeoPoint on a body with flattening between `1 - √2` and 0 -/
theorem C150_geo_ecef_geo (lat lon z a f : ℝ) (ha : 0 < a) (hf : f < 0) (he1 : |(2 - f) * f| < 1)
    (hz : z * (1 - f) < a * (1 - |(2 - f) * f|)) (name : EllKey) (R : M3 ℝ) (hR : IsRotation R)
    (h1 : -(π / 2) < lat) (h2 : lat < π / 2) (h3 : -π < lon) (h4 : lon ≤ π) :
    (GeoPoint.real lat lon z (.real a f name R)).to_ecef_vector.to_geo_point = .real lat lon z (.real a f name R) := by
  obtain ⟨n, hn, hu, -⟩ := geoPoint_to_nvector lat lon z a f name R hR
  have hn' : (GeoPoint.real lat lon z (.real a f name R)).to_nvector = .real n z (.real a f name R) := hn
  have h : (Nvector.real n z (.real a f name R)).to_ecef_vector.to_nvector = .real ((len n)⁻¹ • n) z (.real a f name R) := by
    have h := C150_from_nvector_simple n hu.ne z a f ha hf R hR he1 hz
    unfold Nvector.to_ecef_vector ECEFvector.to_nvector Nvector.real FrameE.real
    simp only [h]
  have h' := C45_geo_nvector_geo lat lon z a f name R hR h1 h2 h3 h4
  unfold GeoPoint.to_ecef_vector ECEFvector.to_geo_point
  rw [hn', h, show (len n)⁻¹ • n = n from dirOf_of_unit hu, ← hn', h']

end Nv
