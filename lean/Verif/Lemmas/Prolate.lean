import Verif.Props.Nearest

/-!
# Vermeille's closed form on a prolate ellipsoid (negative flattening, `e² < 0`)
-/

namespace Nv
open Spec
open XR (fin)

/-- off the polar axis and outside the core, the code's root `k` of the ellipse equation is the one with `k + e² > 0` -/
theorem prolate_kappa_pos {p q e2 k : ℝ} (he : e2 < 0) (hp : 0 < p) (hq : 0 ≤ q) (hk : 0 < k) (hcore : e2 ^ 2 < p + q)
    (hell : p * k ^ 2 + q * (k + e2) ^ 2 = k ^ 2 * (k + e2) ^ 2) : 0 < k + e2 := by
  by_contra hn
  push Not at hn
  rcases hn.lt_or_eq with hlt | heq
  · obtain ⟨m, hm⟩ : ∃ m, m = -(k + e2) := ⟨_, rfl⟩
    have hmp : 0 < m := by linarith
    have hs : (k + e2) ^ 2 = m ^ 2 := by rw [hm]; ring
    rw [hs] at hell
    have hke : -e2 = k + m := by linarith
    have he2 : e2 ^ 2 = (k + m) ^ 2 := by rw [← hke]; ring
    have hk2 : 0 < k ^ 2 := by positivity
    have hm2 : 0 < m ^ 2 := by positivity
    have hkm : 0 < k * m := by positivity
    rcases le_total m k with h | h
    · have h2 : m ^ 2 ≤ k ^ 2 := pow_le_pow_left₀ hmp.le h 2
      have h3 : (p + q) * m ^ 2 ≤ k ^ 2 * m ^ 2 := by nlinarith
      have h4 : p + q ≤ k ^ 2 := le_of_mul_le_mul_right h3 hm2
      nlinarith
    · have h2 : k ^ 2 ≤ m ^ 2 := pow_le_pow_left₀ hk.le h 2
      have h3 : (p + q) * k ^ 2 ≤ m ^ 2 * k ^ 2 := by nlinarith
      have h4 : p + q ≤ m ^ 2 := le_of_mul_le_mul_right h3 hk2
      nlinarith
  · rw [heq] at hell
    have : 0 < p * k ^ 2 := by positivity
    nlinarith

/-- on the polar axis (off the boundary of the core), and in the equatorial plane inside the core: `k = √q` -/
theorem compute_k_flat {a e2 q Y2 : ℝ} (ha : 0 < a) (he : e2 ≠ 0) (hq : 0 ≤ q) (hpq : Y2 / a ^ 2 * q = 0)
    (hr : Y2 / a ^ 2 + q ≠ e2 ^ 2) (hv0 : 0 < q - Y2 / a ^ 2 + e2 ^ 2) :
    compute_k (fin a) (fin e2) (fin q) (fin Y2) = fin (√q) := by
  obtain ⟨p, hp⟩ : ∃ p, p = Y2 / a ^ 2 := ⟨_, rfl⟩
  rw [← hp] at hr hpq hv0
  obtain ⟨r, hrdef⟩ : ∃ r, r = (p + q - e2 ^ 2) / 6 := ⟨_, rfl⟩
  have hr0 : r ≠ 0 := by
    intro h; apply hr; rw [hrdef] at h; linarith
  have he2 : 0 < e2 ^ 2 := by positivity
  have hv' : 0 < q - 3 * r := by rw [hrdef]; linarith
  have hv : √((3 * r) ^ 2 + e2 ^ 2 * q) = q - 3 * r := by
    have h1 : (3 * r) ^ 2 + e2 ^ 2 * q = (q - 3 * r) ^ 2 := by
      rw [hrdef]
      linear_combination hpq
    rw [h1, Real.sqrt_sq hv'.le]
  have := compute_k_eval (a := a) (e2 := e2) (q := q) (Y2 := Y2) (p := p) (r := r) (s := 0) (σ := 0) (c := 1) (t := 1)
    (u := 3 * r) (v := q - 3 * r) (w := 0) ha.ne' hp hrdef hr0 (by rw [mul_assoc, hpq]; simp) (by norm_num) (by norm_num)
    (by norm_num) (by norm_num) (by norm_num) (by ring) (by positivity) hv.symm hv'.ne' (by ring_nf) (by linarith)
  rw [this, XR.fin_inj, sub_zero]
  congr 1; ring

/-- outside the core of a prolate ellipsoid -/
theorem compute_k_prolate {a e2 q Y2 : ℝ} (ha : 0 < a) (he : e2 < 0) (hq : 0 ≤ q) (hY : 0 ≤ Y2)
    (hr : e2 ^ 2 < Y2 / a ^ 2 + q) :
    ∃ k : ℝ, compute_k (fin a) (fin e2) (fin q) (fin Y2) = fin k ∧ 0 < k ∧ 0 < k + e2 ∧
      Y2 / a ^ 2 * k ^ 2 + q * (k + e2) ^ 2 = k ^ 2 * (k + e2) ^ 2 := by
  rcases hY.lt_or_eq with hYp | hY0
  · obtain ⟨k, h1, h2, h3⟩ := compute_k_fin ha hq hY hr
    exact ⟨k, h1, h2, prolate_kappa_pos he (by positivity) hq h2 hr h3, h3⟩
  · subst hY0
    simp only [zero_div, zero_add] at hr
    have hlt : -e2 < √q := Real.lt_sqrt_of_sq_lt (by rw [neg_sq]; exact hr)
    refine ⟨√q, compute_k_flat ha he.ne hq (by simp) (by simp; exact hr.ne')
      (by have := pow_pos (neg_pos.mpr he) 2; rw [neg_sq] at this; simp; linarith), by linarith, by linarith, ?_⟩
    rw [Real.sq_sqrt hq]; ring

/-- the solution of the ellipse equation with `k + e² > 0` is unique -/
theorem k_unique_prolate {p q e2 k k' : ℝ} (he : e2 ≤ 0) (hp : 0 ≤ p) (hq : 0 ≤ q) (hk : 0 < k + e2) (hk' : 0 < k' + e2)
    (h : p * k ^ 2 + q * (k + e2) ^ 2 = k ^ 2 * (k + e2) ^ 2)
    (h' : p * k' ^ 2 + q * (k' + e2) ^ 2 = k' ^ 2 * (k' + e2) ^ 2) : k = k' := by
  have := k_unique (p := q) (q := p) (e2 := -e2) (k := k + e2) (k' := k' + e2) (by linarith) hq hp hk hk'
    (by rw [add_neg_cancel_right]; linarith) (by rw [add_neg_cancel_right]; linarith)
  linarith

/-- `equation23` when `k > 0` and `k + e² ≠ 0`, for a flattening of either sign -/
theorem equation23_any {a f k : ℝ} (P : V3 ℝ) (ha : 0 < a) (hP : P ≠ 0)
    (hk : compute_k (fin a) (fin ((2 - f) * f)) (fin ((1 - (2 - f) * f) / a ^ 2 * P.x ^ 2)) (fin (P.y ^ 2 + P.z ^ 2)) = fin k)
    (hk0 : 0 < k) (hke : k + (2 - f) * f ≠ 0) :
    ∃ T : ℝ, 0 < T ∧ T ^ 2 = (k / (k + (2 - f) * f)) ^ 2 * (P.y ^ 2 + P.z ^ 2) + P.x ^ 2 ∧
      equation23 (fin a) (fin f) P.fin = (fin (1 / T), fin (1 / T * k / (k + (2 - f) * f)),
        fin (-((k + (2 - f) * f - 1) / k * T))) := by
  have ha2 : a ^ 2 ≠ 0 := by positivity
  have hY : 0 ≤ P.y ^ 2 + P.z ^ 2 := by positivity
  obtain ⟨Y, hYdef⟩ : ∃ Y, Y = √(P.y ^ 2 + P.z ^ 2) := ⟨_, rfl⟩
  have hY2 : Y ^ 2 = P.y ^ 2 + P.z ^ 2 := by rw [hYdef, Real.sq_sqrt hY]
  have hT2pos : 0 < (k * Y / (k + (2 - f) * f)) ^ 2 + P.x ^ 2 := by
    by_contra h
    push Not at h
    have h1 := sq_nonneg (k * Y / (k + (2 - f) * f)); have h2 := sq_nonneg P.x
    have hx : P.x = 0 := pow_eq_zero_iff two_ne_zero |>.mp (by linarith)
    have h3 : k * Y / (k + (2 - f) * f) = 0 := pow_eq_zero_iff two_ne_zero |>.mp (by linarith)
    have hY0 : Y = 0 := by
      rcases div_eq_zero_iff.mp h3 with h | h
      · exact (mul_eq_zero.mp h).resolve_left hk0.ne'
      · exact absurd h hke
    rw [hY0] at hY2
    apply hP
    ext
    · exact hx
    · exact pow_eq_zero_iff two_ne_zero |>.mp (by nlinarith [sq_nonneg P.y, sq_nonneg P.z])
    · exact pow_eq_zero_iff two_ne_zero |>.mp (by nlinarith [sq_nonneg P.y, sq_nonneg P.z])
  refine ⟨√((k * Y / (k + (2 - f) * f)) ^ 2 + P.x ^ 2), Real.sqrt_pos.mpr hT2pos, ?_, ?_⟩
  · rw [Real.sq_sqrt hT2pos.le, ← hY2, div_pow, mul_pow, div_pow]; ring
  · have hT := Real.sqrt_pos.mpr hT2pos
    unfold equation23 eccentricity2
    simp only [xr, XR.div_fin ha2, Rat.cast_one, Rat.cast_ofNat]
    rw [hk, XR.sqrt_fin hY, ← hYdef]
    simp only [xr, XR.div_fin hke]
    rw [XR.sqrt_fin hT2pos.le]
    simp only [xr, XR.div_fin hT.ne', XR.div_fin hk0.ne', XR.div_fin hke]

/-- `p_EB_E2n_EB_E` when `k > 0` and `k + e² ≠ 0` -/
theorem p2n_of_k_any {a f k : ℝ} (p : V3 ℝ) {R : M3 ℝ} (hR : IsRotation R) (ha : 0 < a) (hp : p ≠ 0)
    (hk : compute_k (fin a) (fin ((2 - f) * f)) (fin ((1 - (2 - f) * f) / a ^ 2 * (app R p).x ^ 2))
      (fin ((app R p).y ^ 2 + (app R p).z ^ 2)) = fin k)
    (hk0 : 0 < k) (hke : k + (2 - f) * f ≠ 0) :
    ∃ (m : V3 ℝ) (T : ℝ), p_EB_E2n_EB_E p.fin (fin a) (fin f) R.fin =
        ((app (transp R) m).fin, fin (-((k + (2 - f) * f - 1) / k * T))) ∧
      UnitVec m ∧ 0 < T ∧ (app R p).x = T * m.x ∧ (app R p).y = T * (k + (2 - f) * f) / k * m.y ∧
      (app R p).z = T * (k + (2 - f) * f) / k * m.z := by
  obtain ⟨T, hT, hT2, h23⟩ := equation23_any (app R p) ha (app_ne_zero hR hp) hk hk0 hke
  obtain ⟨P, hPdef⟩ : ∃ P, P = app R p := ⟨_, rfl⟩
  rw [← hPdef] at hT2 h23 hk ⊢
  obtain ⟨e, hedef⟩ : ∃ e, e = k + (2 - f) * f := ⟨_, rfl⟩
  rw [← hedef] at hke hT2 h23 ⊢
  obtain ⟨m, hm⟩ : ∃ m : V3 ℝ, m = ⟨1 / T * P.x, 1 / T * k / e * P.y, 1 / T * k / e * P.z⟩ :=
    ⟨_, rfl⟩
  have hu : UnitVec m := by
    rw [hm]; unfold UnitVec
    have : (1 / T * P.x) ^ 2 + (1 / T * k / e * P.y) ^ 2 + (1 / T * k / e * P.z) ^ 2 =
        1 / T ^ 2 * ((k / e) ^ 2 * (P.y ^ 2 + P.z ^ 2) + P.x ^ 2) := by
      field_simp; ring
    rw [this, ← hT2]; field_simp
  refine ⟨m, T, ?_, hu, hT, ?_, ?_, ?_⟩
  · unfold p_EB_E2n_EB_E
    simp only [xr, ← hPdef]
    rw [h23]
    simp only [xr, V3.mk_fin, ← hm]
    rw [unit_fin (unitVec_app hR.transpose hu).ne, dirOf_of_unit (unitVec_app hR.transpose hu)]
  · rw [hm]; field_simp
  · rw [hm]; field_simp
  · rw [hm]; field_simp

/-- the size of the normal vector scaled to the ellipsoid, from a solution of the ellipse equation -/
theorem Dell_of_k {a f k T : ℝ} {m P : V3 ℝ} (ha : 0 < a) (hk0 : 0 < k) (hke : k + (2 - f) * f ≠ 0) (hT : 0 < T)
    (hx : P.x = T * m.x) (hy : P.y = T * (k + (2 - f) * f) / k * m.y) (hz : P.z = T * (k + (2 - f) * f) / k * m.z)
    (hell : (P.y ^ 2 + P.z ^ 2) / a ^ 2 * k ^ 2 + (1 - f) ^ 2 * P.x ^ 2 / a ^ 2 * (k + (2 - f) * f) ^ 2 =
      k ^ 2 * (k + (2 - f) * f) ^ 2) : Dell f m = a * k / T := by
  have h1 : Dell f m ^ 2 = (a * k / T) ^ 2 := by
    rw [Dell_sq]
    rw [hx, hy, hz] at hell
    generalize k + (2 - f) * f = e at *
    field_simp at hell
    field_simp
    linarith
  have h2 : 0 ≤ a * k / T := by positivity
  exact (sq_eq_sq₀ (Real.sqrt_nonneg _) h2).mp h1

theorem posE_back_any {a f k T : ℝ} {m P : V3 ℝ} (ha : 0 < a) (hk0 : 0 < k) (hT : 0 < T) (hD : Dell f m = a * k / T)
    (hx : P.x = T * m.x) (hy : P.y = T * (k + (2 - f) * f) / k * m.y) (hz : P.z = T * (k + (2 - f) * f) / k * m.z) :
    posE a f m (-((k + (2 - f) * f - 1) / k * T)) = P := by
  unfold posE
  rw [hD]
  ext
  · rw [hx]; field_simp; ring
  · rw [hy]; field_simp; ring
  · rw [hz]; field_simp; ring

/-- everything `p_EB_E2n_EB_E` does outside the core of a prolate ellipsoid -/
theorem p2n_prolate (p : V3 ℝ) (a f : ℝ) (ha : 0 < a) (hf : f < 0) (R : M3 ℝ) (hR : IsRotation R)
    (hcore : OutsideCore a f (app R p)) :
    ∃ (m : V3 ℝ) (T k : ℝ), p_EB_E2n_EB_E p.fin (fin a) (fin f) R.fin =
        ((app (transp R) m).fin, fin (-((k + (2 - f) * f - 1) / k * T))) ∧
      UnitVec m ∧ 0 < T ∧ 0 < k ∧ 0 < k + (2 - f) * f ∧ (app R p).x = T * m.x ∧ (app R p).y = T * (k + (2 - f) * f) / k * m.y ∧
      (app R p).z = T * (k + (2 - f) * f) / k * m.z ∧
      ((app R p).y ^ 2 + (app R p).z ^ 2) / a ^ 2 * k ^ 2 +
        (1 - f) ^ 2 * (app R p).x ^ 2 / a ^ 2 * (k + (2 - f) * f) ^ 2 = k ^ 2 * (k + (2 - f) * f) ^ 2 := by
  have hp : p ≠ 0 := by
    rintro rfl
    have h0 : app R (0 : V3 ℝ) = 0 := by ext <;> simp [app, dot]
    unfold OutsideCore at hcore
    rw [h0] at hcore
    simp at hcore
    nlinarith [sq_nonneg ((2 - f) * f)]
  have he : (2 - f) * f < 0 := mul_neg_of_pos_of_neg (by linarith) hf
  have hq : (1 - (2 - f) * f) / a ^ 2 * (app R p).x ^ 2 = (1 - f) ^ 2 * (app R p).x ^ 2 / a ^ 2 := by ring
  obtain ⟨k, hk, hk0, hke, hell⟩ := compute_k_prolate (e2 := (2 - f) * f)
    (q := (1 - (2 - f) * f) / a ^ 2 * (app R p).x ^ 2) (Y2 := (app R p).y ^ 2 + (app R p).z ^ 2) ha he
    (by rw [hq]; positivity) (by positivity) (by rw [hq]; exact hcore)
  obtain ⟨m, T, h1, h2, h3, h4, h5, h6⟩ := p2n_of_k_any p hR ha hp hk hk0 hke.ne'
  rw [hq] at hell
  exact ⟨m, T, k, h1, h2, h3, hk0, hke, h4, h5, h6, hell⟩

/-- the foot of the normal is the nearest point of the ellipsoid above both centres of curvature -/
theorem posE_nearest_any {a f d : ℝ} (ha : 0 < a) (hf : f < 1) {m : V3 ℝ} (hm : UnitVec m)
    (hd1 : d * Dell f m < a * (1 - f) ^ 2) (hd2 : d * Dell f m < a) {X : V3 ℝ} (hX : OnEllipsoid a f X) :
    |d| ≤ len (posE a f m d - X) ∧ (len (posE a f m d - X) ≤ |d| → X = posE a f m 0) := by
  have hg : 0 < 1 - f := by linarith
  have hag : 0 < a * (1 - f) ^ 2 := by positivity
  have key := posE_dist (d := d) ha hf hm hX
  have hl : (posE a f m d - X).x ^ 2 + (posE a f m d - X).y ^ 2 + (posE a f m d - X).z ^ 2 = len (posE a f m d - X) ^ 2 :=
    (Real.sq_sqrt (by positivity)).symm
  rw [hl] at key
  have c1 : 0 < 1 - d * Dell f m / (a * (1 - f) ^ 2) := by
    rw [sub_pos, div_lt_one hag]; exact hd1
  have c2 : 0 < 1 - d * Dell f m / a := by
    rw [sub_pos, div_lt_one ha]; linarith
  have t1 := mul_nonneg c1.le (sq_nonneg (X.x - (posE a f m 0).x))
  have t2 := mul_nonneg c2.le (add_nonneg (sq_nonneg (X.y - (posE a f m 0).y)) (sq_nonneg (X.z - (posE a f m 0).z)))
  have hlen : 0 ≤ len (posE a f m d - X) := Real.sqrt_nonneg _
  constructor
  · apply abs_le_of_sq_le_sq _ hlen
    linarith
  · intro hle
    have h1 : len (posE a f m d - X) ^ 2 ≤ d ^ 2 := by
      rw [← sq_abs d]; exact pow_le_pow_left₀ hlen hle 2
    have z1 : (1 - d * Dell f m / (a * (1 - f) ^ 2)) * (X.x - (posE a f m 0).x) ^ 2 = 0 := by linarith
    have z2 : (1 - d * Dell f m / a) * ((X.y - (posE a f m 0).y) ^ 2 + (X.z - (posE a f m 0).z) ^ 2) = 0 := by linarith
    have w1 := (mul_eq_zero.mp z1).resolve_left c1.ne'
    have w2 := (mul_eq_zero.mp z2).resolve_left c2.ne'
    have w3 := sq_nonneg (X.y - (posE a f m 0).y)
    have w4 := sq_nonneg (X.z - (posE a f m 0).z)
    ext
    · exact sub_eq_zero.mp (pow_eq_zero_iff two_ne_zero |>.mp w1)
    · exact sub_eq_zero.mp (pow_eq_zero_iff two_ne_zero |>.mp (by linarith))
    · exact sub_eq_zero.mp (pow_eq_zero_iff two_ne_zero |>.mp (by linarith))

/-- the sign of the depth is the side of the ellipsoid, on a prolate ellipsoid -/
theorem posE_side_prolate {a f d : ℝ} (ha : 0 < a) (hf : f ≤ 0) {m : V3 ℝ} (hm : UnitVec m) (hd : d * Dell f m ≤ a) :
    (d < 0 ↔ 1 < level a f (posE a f m d)) ∧ (d = 0 ↔ level a f (posE a f m d) = 1) ∧ (0 < d ↔ level a f (posE a f m d) < 1) := by
  have hf1 : f < 1 := by linarith
  have hD := Dell_pos hf1 hm.ne
  have hg : 0 < 1 - f := by linarith
  have hg1 : 1 ≤ (1 - f) ^ 2 := by nlinarith
  have hg2 : 0 < (1 - f) ^ 2 := by positivity
  have key := level_posE (d := d) ha hf1 hm
  have hq : 0 < 2 / Dell f m - d / a * (m.x ^ 2 / (1 - f) ^ 2 + m.y ^ 2 + m.z ^ 2) := by
    unfold UnitVec at hm
    have hQ0 : 0 ≤ m.x ^ 2 / (1 - f) ^ 2 + m.y ^ 2 + m.z ^ 2 := by positivity
    have hQ : m.x ^ 2 / (1 - f) ^ 2 + m.y ^ 2 + m.z ^ 2 ≤ 1 := by
      have : m.x ^ 2 / (1 - f) ^ 2 ≤ m.x ^ 2 := div_le_self (sq_nonneg _) hg1
      linarith
    rcases le_or_gt d 0 with h | h
    · have : d / a * (m.x ^ 2 / (1 - f) ^ 2 + m.y ^ 2 + m.z ^ 2) ≤ 0 :=
        mul_nonpos_of_nonpos_of_nonneg (div_nonpos_of_nonpos_of_nonneg h ha.le) hQ0
      have : 0 < 2 / Dell f m := by positivity
      linarith
    · have h1 : d / a * (m.x ^ 2 / (1 - f) ^ 2 + m.y ^ 2 + m.z ^ 2) ≤ d / a * 1 :=
        mul_le_mul_of_nonneg_left hQ (by positivity)
      have h2 : d / a * 1 ≤ 1 / Dell f m := by
        rw [mul_one, div_le_div_iff₀ ha hD]
        linarith
      have h3 : 1 / Dell f m < 2 / Dell f m := by
        apply div_lt_div_of_pos_right _ hD; norm_num
      linarith
  generalize 2 / Dell f m - d / a * (m.x ^ 2 / (1 - f) ^ 2 + m.y ^ 2 + m.z ^ 2) = q at *
  generalize level a f (posE a f m d) = L at *
  have hL : L = 1 - d * (q / a) := by
    have : -(d / a) * q = -(d * (q / a)) := by ring
    linarith
  have hqa : 0 < q / a := by positivity
  generalize q / a = t at *
  subst hL
  rcases lt_trichotomy d 0 with h | h | h
  · have := mul_neg_of_neg_of_pos h hqa
    refine ⟨⟨fun _ => by linarith, fun _ => h⟩, ⟨fun e => absurd e h.ne, fun e => ?_⟩, ⟨fun e => absurd e h.not_gt, fun e => ?_⟩⟩ <;> linarith
  · subst h
    simp
  · have := mul_pos h hqa
    refine ⟨⟨fun e => absurd e h.not_gt, fun e => ?_⟩, ⟨fun e => absurd e h.ne', fun e => ?_⟩, ⟨fun _ => by linarith, fun _ => h⟩⟩ <;> linarith

end Nv
