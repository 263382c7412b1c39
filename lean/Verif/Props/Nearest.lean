import Verif.Props.EarthCore
import Verif.Props.Vectors
import Verif.Lemmas.Geodetic

/-!
# C125: the depth is the distance to the ellipsoid

A position is `|depth|` away from the nearest point of the reference ellipsoid, that nearest point is the one with the same n-vector at depth 0,
and the sign of the depth says on which side of the ellipsoid the position is.
-/

namespace Nv
open Spec Real
open XR (fin)

namespace Spec

/-- the left hand side of the equation of the ellipsoid, for a position in the `e` frame: 1 on the surface, more outside, less inside -/
noncomputable def level (a f : ℝ) (P : V3 ℝ) : ℝ := (P.x / (a * (1 - f))) ^ 2 + (P.y / a) ^ 2 + (P.z / a) ^ 2

/-- `s` is a point of the ellipsoid, at distance `r` from `p`, and no point of the ellipsoid is nearer to `p` -/
def NearestOnEllipsoid (a f : ℝ) (R : M3 ℝ) (p s : V3 ℝ) (r : ℝ) : Prop :=
  OnEllipsoid a f (app R s) ∧ len (p - s) = r ∧ ∀ x : V3 ℝ, OnEllipsoid a f (app R x) → r ≤ len (p - x)

end Spec

/-- the squared distance of a point `X` of the ellipsoid to the position with unit normal `m` and depth `d` -/
theorem posE_dist {a f d : ℝ} (ha : 0 < a) (hf : f < 1) {m X : V3 ℝ} (hm : UnitVec m) (hX : OnEllipsoid a f X) :
    (posE a f m d - X).x ^ 2 + (posE a f m d - X).y ^ 2 + (posE a f m d - X).z ^ 2 = d ^ 2 +
      (1 - d * Dell f m / (a * (1 - f) ^ 2)) * (X.x - (posE a f m 0).x) ^ 2 +
      (1 - d * Dell f m / a) * ((X.y - (posE a f m 0).y) ^ 2 + (X.z - (posE a f m 0).z) ^ 2) := by
  have hD := Dell_pos hf hm.ne
  have hD2 := Dell_sq f m
  have hg : 0 < 1 - f := by linarith
  unfold UnitVec at hm
  unfold OnEllipsoid at hX
  simp only [posE, sub_x, sub_y, sub_z, sub_zero]
  generalize Dell f m = D at *
  generalize 1 - f = g at *
  obtain ⟨x, y, z⟩ := X
  obtain ⟨u, v, w⟩ := m
  simp only at *
  have hX' : x ^ 2 + g ^ 2 * y ^ 2 + g ^ 2 * z ^ 2 = a ^ 2 * g ^ 2 := by
    field_simp at hX
    linarith
  have key : ((a / D * g ^ 2 - d) * u - x) ^ 2 + ((a / D - d) * v - y) ^ 2 + ((a / D - d) * w - z) ^ 2 -
      (d ^ 2 + (1 - d * D / (a * g ^ 2)) * (x - a / D * g ^ 2 * u) ^ 2 +
        (1 - d * D / a) * ((y - a / D * v) ^ 2 + (z - a / D * w) ^ 2)) =
      d ^ 2 * (u ^ 2 + v ^ 2 + w ^ 2 - 1) + d * D / (a * g ^ 2) * (x ^ 2 + g ^ 2 * y ^ 2 + g ^ 2 * z ^ 2 - a ^ 2 * g ^ 2) -
        d * a / D * (g ^ 2 * u ^ 2 + v ^ 2 + w ^ 2 - D ^ 2) := by
    field_simp
    ring
  rw [hm, hX', ← hD2] at key
  linarith

/-- the level of the position with unit normal `m` and depth `d` -/
theorem level_posE {a f d : ℝ} (ha : 0 < a) (hf : f < 1) {m : V3 ℝ} (hm : UnitVec m) :
    level a f (posE a f m d) - 1 =
      -(d / a) * (2 / Dell f m - d / a * (m.x ^ 2 / (1 - f) ^ 2 + m.y ^ 2 + m.z ^ 2)) := by
  have hD := Dell_pos hf hm.ne
  have hD2 := Dell_sq f m
  have hg : 0 < 1 - f := by linarith
  unfold UnitVec at hm
  simp only [posE, level]
  generalize Dell f m = D at *
  generalize 1 - f = g at *
  obtain ⟨u, v, w⟩ := m
  simp only at *
  have key : ((a / D * g ^ 2 - d) * u / (a * g)) ^ 2 + ((a / D - d) * v / a) ^ 2 + ((a / D - d) * w / a) ^ 2 - 1 -
      -(d / a) * (2 / D - d / a * (u ^ 2 / g ^ 2 + v ^ 2 + w ^ 2)) =
      1 / D ^ 2 * (g ^ 2 * u ^ 2 + v ^ 2 + w ^ 2 - D ^ 2) - 2 * d / (a * D) * (u ^ 2 + v ^ 2 + w ^ 2 - 1) := by
    field_simp
    ring
  rw [hm, ← hD2] at key
  linarith

/-- **the geometry**: as long as `d` is at most the depth of the centre of curvature, the foot of the normal is the nearest point of the ellipsoid,
and the only one if `d` is less than that -/
theorem posE_nearest {a f d : ℝ} (ha : 0 < a) (hf0 : 0 ≤ f) (hf : f < 1) {m : V3 ℝ} (hm : UnitVec m)
    (hd : d * Dell f m ≤ a * (1 - f) ^ 2) {X : V3 ℝ} (hX : OnEllipsoid a f X) :
    |d| ≤ len (posE a f m d - X) ∧
      (d * Dell f m < a * (1 - f) ^ 2 → len (posE a f m d - X) ≤ |d| → X = posE a f m 0) := by
  have hg : 0 < 1 - f := by linarith
  have hg1 : (1 - f) ^ 2 ≤ 1 := by nlinarith
  have hag : 0 < a * (1 - f) ^ 2 := by positivity
  have hag' : a * (1 - f) ^ 2 ≤ a := by nlinarith
  have key := posE_dist (d := d) ha hf hm hX
  have hl : (posE a f m d - X).x ^ 2 + (posE a f m d - X).y ^ 2 + (posE a f m d - X).z ^ 2 = len (posE a f m d - X) ^ 2 :=
    (Real.sq_sqrt (by positivity)).symm
  rw [hl] at key
  have c1 : 0 ≤ 1 - d * Dell f m / (a * (1 - f) ^ 2) := by
    rw [sub_nonneg, div_le_one hag]; exact hd
  have c2 : 0 ≤ 1 - d * Dell f m / a := by
    rw [sub_nonneg, div_le_one ha]; linarith
  have t1 := mul_nonneg c1 (sq_nonneg (X.x - (posE a f m 0).x))
  have t2 := mul_nonneg c2 (add_nonneg (sq_nonneg (X.y - (posE a f m 0).y)) (sq_nonneg (X.z - (posE a f m 0).z)))
  have hlen : 0 ≤ len (posE a f m d - X) := Real.sqrt_nonneg _
  constructor
  · apply abs_le_of_sq_le_sq _ hlen
    linarith
  · intro hs hle
    have c1' : 0 < 1 - d * Dell f m / (a * (1 - f) ^ 2) := by
      rw [sub_pos, div_lt_one hag]; exact hs
    have c2' : 0 < 1 - d * Dell f m / a := by
      rw [sub_pos, div_lt_one ha]; linarith
    have h1 : len (posE a f m d - X) ^ 2 ≤ d ^ 2 := by
      rw [← sq_abs d]; exact pow_le_pow_left₀ hlen hle 2
    have z1 : (1 - d * Dell f m / (a * (1 - f) ^ 2)) * (X.x - (posE a f m 0).x) ^ 2 = 0 := by linarith
    have z2 : (1 - d * Dell f m / a) * ((X.y - (posE a f m 0).y) ^ 2 + (X.z - (posE a f m 0).z) ^ 2) = 0 := by linarith
    have w1 := (mul_eq_zero.mp z1).resolve_left c1'.ne'
    have w2 := (mul_eq_zero.mp z2).resolve_left c2'.ne'
    have w3 := sq_nonneg (X.y - (posE a f m 0).y)
    have w4 := sq_nonneg (X.z - (posE a f m 0).z)
    ext
    · exact sub_eq_zero.mp (pow_eq_zero_iff two_ne_zero |>.mp w1)
    · exact sub_eq_zero.mp (pow_eq_zero_iff two_ne_zero |>.mp (by linarith))
    · exact sub_eq_zero.mp (pow_eq_zero_iff two_ne_zero |>.mp (by linarith))

/-- the sign of the depth is the side of the ellipsoid -/
theorem posE_side {a f d : ℝ} (ha : 0 < a) (hf0 : 0 ≤ f) (hf : f < 1) {m : V3 ℝ} (hm : UnitVec m)
    (hd : d * Dell f m ≤ a * (1 - f) ^ 2) :
    (d < 0 ↔ 1 < level a f (posE a f m d)) ∧ (d = 0 ↔ level a f (posE a f m d) = 1) ∧ (0 < d ↔ level a f (posE a f m d) < 1) := by
  have hD := Dell_pos hf hm.ne
  have hg : 0 < 1 - f := by linarith
  have hg1 : (1 - f) ^ 2 ≤ 1 := by nlinarith
  have hg2 : 0 < (1 - f) ^ 2 := by positivity
  have key := level_posE (d := d) ha hf hm
  have hq : 0 < 2 / Dell f m - d / a * (m.x ^ 2 / (1 - f) ^ 2 + m.y ^ 2 + m.z ^ 2) := by
    unfold UnitVec at hm
    have hQ0 : 0 ≤ m.x ^ 2 / (1 - f) ^ 2 + m.y ^ 2 + m.z ^ 2 := by positivity
    have hQ : m.x ^ 2 / (1 - f) ^ 2 + m.y ^ 2 + m.z ^ 2 ≤ 1 / (1 - f) ^ 2 := by
      rw [le_div_iff₀ hg2, add_mul, add_mul, div_mul_cancel₀ _ hg2.ne']
      nlinarith [sq_nonneg m.y, sq_nonneg m.z]
    rcases le_or_gt d 0 with h | h
    · have : d / a * (m.x ^ 2 / (1 - f) ^ 2 + m.y ^ 2 + m.z ^ 2) ≤ 0 :=
        mul_nonpos_of_nonpos_of_nonneg (div_nonpos_of_nonpos_of_nonneg h ha.le) hQ0
      have : 0 < 2 / Dell f m := by positivity
      linarith
    · have h1 : d / a * (m.x ^ 2 / (1 - f) ^ 2 + m.y ^ 2 + m.z ^ 2) ≤ d / a * (1 / (1 - f) ^ 2) :=
        mul_le_mul_of_nonneg_left hQ (by positivity)
      have h2 : d / a * (1 / (1 - f) ^ 2) ≤ 1 / Dell f m := by
        rw [div_mul_div_comm, mul_one, div_le_div_iff₀ (by positivity) hD]
        linarith
      have h3 : 1 / Dell f m < 2 / Dell f m := by
        apply div_lt_div_of_pos_right _ hD; norm_num
      linarith
  generalize 2 / Dell f m - d / a * (m.x ^ 2 / (1 - f) ^ 2 + m.y ^ 2 + m.z ^ 2) = q at *
  generalize level a f (posE a f m d) = L at *
  have hL : L = 1 - d * (q / a) := by
    have : -(d / a) * q = -(d * (q / a)) := by ring
    linarith
  have hqa : 0 < q / a := by positivity
  generalize q / a = t at *
  subst hL
  rcases lt_trichotomy d 0 with h | h | h
  · have := mul_neg_of_neg_of_pos h hqa
    refine ⟨⟨fun _ => by linarith, fun _ => h⟩, ⟨fun e => absurd e h.ne, fun e => ?_⟩, ⟨fun e => absurd e h.not_gt, fun e => ?_⟩⟩ <;> linarith
  · subst h
    simp
  · have := mul_pos h hqa
    refine ⟨⟨fun e => absurd e h.not_gt, fun e => ?_⟩, ⟨fun e => absurd e h.ne', fun e => ?_⟩, ⟨fun _ => by linarith, fun _ => h⟩⟩ <;> linarith

/-- pulling a distance back from the `e` frame -/
theorem len_sub_app {R : M3 ℝ} (hR : IsRotation R) (P x : V3 ℝ) : len (app (transp R) P - x) = len (P - app R x) := by
  rw [← len_app hR (app (transp R) P - x), app_sub, hR.app_trans]

/-- **C125** a position given by an n-vector and a depth is `|depth|` away from the ellipsoid, and the surface point of the same n-vector is the
point of the ellipsoid nearest to it, for every height above the ellipsoid and every depth down to `a (1-f)²` (6335 km for WGS84) -/
theorem C125_from_nvector (n : V3 ℝ) (hn : n ≠ 0) (d a f : ℝ) (ha : 0 < a) (hf0 : 0 ≤ f) (hf : f < 1) (R : M3 ℝ) (hR : IsRotation R)
    (hd : d ≤ a * (1 - f) ^ 2) :
    ∃ p s : V3 ℝ, n_EB_E2p_EB_E n.fin (fin d) (fin a) (fin f) R.fin = p.fin ∧
      n_EB_E2p_EB_E n.fin (fin 0) (fin a) (fin f) R.fin = s.fin ∧ NearestOnEllipsoid a f R p s |d| ∧
      (d < 0 ↔ 1 < level a f (app R p)) ∧ (d = 0 ↔ OnEllipsoid a f (app R p)) ∧ (0 < d ↔ level a f (app R p) < 1) := by
  have hmu : UnitVec (app R (dirOf n)) := unitVec_app hR (dirOf_unit hn)
  have hag : 0 ≤ a * (1 - f) ^ 2 := by positivity
  obtain ⟨hDg, hD1⟩ := Dell_ge hf0 hf hmu
  have hDp := Dell_pos hf hmu.ne
  have hdD : d * Dell f (app R (dirOf n)) ≤ a * (1 - f) ^ 2 := by
    rcases le_or_gt d 0 with h | h
    · exact (mul_nonpos_of_nonpos_of_nonneg h hDp.le).trans hag
    · have := mul_le_mul_of_nonneg_left hD1 h.le
      linarith
  have hs := posE_side ha hf0 hf hmu hdD
  refine ⟨_, _, n2p_fin hn d a f hf hR, n2p_fin hn 0 a f hf hR, ⟨?_, ?_, ?_⟩, ?_⟩
  · obtain ⟨p, h1, h2, -⟩ := C04_on_surface n hn a f ha hf R hR
    rw [n2p_fin hn 0 a f hf hR, V3.fin_inj] at h1
    rw [h1]; exact h2
  · rw [len_sub_app hR, hR.app_trans]
    have : posE a f (app R (dirOf n)) d - posE a f (app R (dirOf n)) 0 = (-d) • app R (dirOf n) := by
      unfold posE; ext <;> simp <;> ring
    rw [this, len_smul, abs_neg, hmu.len, mul_one]
  · intro x hx
    rw [len_sub_app hR]
    exact (posE_nearest ha hf0 hf hmu hdD hx).1
  · rw [hR.app_trans]
    exact hs

/-- **C125** is false far below: deeper than the polar radius, off the equator, some point of the ellipsoid is nearer than `d` -/
theorem C125_too_deep_counterexample (n : V3 ℝ) (hn : n ≠ 0) (d a f : ℝ) (ha : 0 < a) (hf0 : 0 ≤ f) (hf : f < 1) (R : M3 ℝ) (hR : IsRotation R)
    (hlat : (app R n).x ≠ 0) (hd : a * (1 - f) < d) :
    ∃ p x : V3 ℝ, n_EB_E2p_EB_E n.fin (fin d) (fin a) (fin f) R.fin = p.fin ∧ OnEllipsoid a f (app R x) ∧ len (p - x) < |d| := by
  have hmu : UnitVec (app R (dirOf n)) := unitVec_app hR (dirOf_unit hn)
  have hg : 0 < 1 - f := by linarith
  have hag : 0 < a * (1 - f) ^ 2 := by positivity
  have hd0 : 0 < d := lt_trans (by positivity) hd
  have hmx : (app R (dirOf n)).x ≠ 0 := by
    unfold dirOf
    rw [app_smul, smul_x]
    exact mul_ne_zero (inv_ne_zero (len_pos hn).ne') hlat
  obtain ⟨hDg, hD1⟩ := Dell_ge hf0 hf hmu
  have hDp := Dell_pos hf hmu.ne
  obtain ⟨S, hS, hSon, -⟩ := C04_on_surface n hn a f ha hf R hR
  rw [n2p_fin hn 0 a f hf hR, V3.fin_inj] at hS
  rw [← hS, hR.app_trans] at hSon
  have hp := n2p_fin hn d a f hf hR
  generalize app R (dirOf n) = m at *
  have hSx : (posE a f m 0).x ≠ 0 := by
    unfold posE
    simp only [sub_zero]
    exact mul_ne_zero (mul_pos (div_pos ha hDp) (by positivity)).ne' hmx
  have hXon : OnEllipsoid a f ⟨-(posE a f m 0).x, (posE a f m 0).y, (posE a f m 0).z⟩ := by
    unfold OnEllipsoid at hSon ⊢
    simp only [neg_div, neg_sq]
    exact hSon
  refine ⟨_, app (transp R) ⟨-(posE a f m 0).x, (posE a f m 0).y, (posE a f m 0).z⟩, hp, by rw [hR.app_trans]; exact hXon, ?_⟩
  rw [len_sub_app hR, hR.app_trans]
  have key := posE_dist (d := d) ha hf hmu hXon
  have hl : ∀ v : V3 ℝ, v.x ^ 2 + v.y ^ 2 + v.z ^ 2 = len v ^ 2 := fun v => (Real.sq_sqrt (by positivity)).symm
  rw [hl] at key
  simp only [sub_self] at key
  have c1 : 1 - d * Dell f m / (a * (1 - f) ^ 2) < 0 := by
    rw [sub_neg, one_lt_div hag]
    calc a * (1 - f) ^ 2 = a * (1 - f) * (1 - f) := by ring
      _ < d * (1 - f) := mul_lt_mul_of_pos_right hd hg
      _ ≤ d * Dell f m := mul_le_mul_of_nonneg_left hDg hd0.le
  have c2 : 0 < (-(posE a f m 0).x - (posE a f m 0).x) ^ 2 := by
    have : -(posE a f m 0).x - (posE a f m 0).x ≠ 0 := by
      intro h; apply hSx; linarith
    positivity
  have := mul_neg_of_neg_of_pos c1 c2
  apply lt_of_pow_lt_pow_left₀ 2 (abs_nonneg d)
  rw [sq_abs]
  linarith

/-- wherever `p_EB_E2n_EB_E` gives a result at all, the depth is less than that of the centre of curvature -/
theorem p2n_curvature (p : V3 ℝ) (a f : ℝ) (ha : 0 < a) (hf0 : 0 ≤ f) (hf : f < 1) (R : M3 ℝ) (hR : IsRotation R)
    (h : OutsideCore a f (app R p) ∨ OnAxisInsideCore a f (app R p)) :
    ∃ (m : V3 ℝ) (d : ℝ), p_EB_E2n_EB_E p.fin (fin a) (fin f) R.fin = ((app (transp R) m).fin, fin d) ∧ UnitVec m ∧
      posE a f m d = app R p ∧ d * Dell f m < a * (1 - f) ^ 2 := by
  have hg : 0 < 1 - f := by linarith
  obtain ⟨m, T, k, h1, hm, hT, hk, hx, hy, hz, hell⟩ : ∃ (m : V3 ℝ) (T k : ℝ), p_EB_E2n_EB_E p.fin (fin a) (fin f) R.fin =
        ((app (transp R) m).fin, fin (-((k + (2 - f) * f - 1) / k * T))) ∧
      UnitVec m ∧ 0 < T ∧ 0 < k ∧ (app R p).x = T * m.x ∧ (app R p).y = T * (k + (2 - f) * f) / k * m.y ∧
      (app R p).z = T * (k + (2 - f) * f) / k * m.z ∧
      ((app R p).y ^ 2 + (app R p).z ^ 2) / a ^ 2 * k ^ 2 +
        (1 - f) ^ 2 * (app R p).x ^ 2 / a ^ 2 * (k + (2 - f) * f) ^ 2 = k ^ 2 * (k + (2 - f) * f) ^ 2 := by
    rcases h with h | ⟨hy, hz, hx, hin⟩
    · exact p2n_outside_core p a f ha hf0 hf R hR h
    · have hp : p ≠ 0 := by
        rintro rfl
        apply hx; simp [app, dot]
      have hxp : 0 < |(app R p).x| := abs_pos.mpr hx
      have he : 0 < (2 - f) * f := by
        by_contra h'; push Not at h'
        nlinarith [mul_pos hg hxp]
      have hq : (1 - (2 - f) * f) / a ^ 2 * (app R p).x ^ 2 = ((1 - f) * |(app R p).x| / a) ^ 2 := by
        rw [div_pow, mul_pow, sq_abs]; ring
      have hqs : √((1 - (2 - f) * f) / a ^ 2 * (app R p).x ^ 2) = (1 - f) * |(app R p).x| / a := by
        rw [hq, Real.sqrt_sq (by positivity)]
      have hk := compute_k_axis (a := a) (e2 := (2 - f) * f) (q := (1 - (2 - f) * f) / a ^ 2 * (app R p).x ^ 2)
        (Y2 := (app R p).y ^ 2 + (app R p).z ^ 2) ha he (by rw [hq]; positivity) (by positivity) (by rw [hy, hz]; simp)
        (by
          rw [hq, hy, hz]
          have : (1 - f) * |(app R p).x| / a < (2 - f) * f := by rw [div_lt_iff₀ ha]; linarith
          have := pow_lt_pow_left₀ this (by positivity) two_ne_zero
          simpa using this)
      rw [hqs] at hk
      have hk0 : 0 < (1 - f) * |(app R p).x| / a := by positivity
      obtain ⟨m, T, h1, hm, hT, hx', hy', hz'⟩ := p2n_of_k p hR ha hf0 hf hp hk hk0
      refine ⟨m, T, _, h1, hm, hT, hk0, hx', hy', hz', ?_⟩
      rw [hy, hz]
      have : (1 - f) ^ 2 * (app R p).x ^ 2 / a ^ 2 = ((1 - f) * |(app R p).x| / a) ^ 2 := by
        rw [div_pow, mul_pow, sq_abs]
      rw [this]; ring
  refine ⟨m, _, h1, hm, posE_back ha hf0 hf hk hT hx hy hz hell, ?_⟩
  have hback := posE_back ha hf0 hf hk hT hx hy hz hell
  have hD := Dell_pos hf hm.ne
  have he : 0 ≤ (2 - f) * f := by nlinarith
  have hD2 : Dell f m = a * k / T := by
    have h1 : Dell f m ^ 2 = (a * k / T) ^ 2 := by
      rw [Dell_sq]
      rw [hx, hy, hz] at hell
      have hke' : (k + f * (2 - f)) ^ 2 ≠ 0 := by
        have : 0 < k + f * (2 - f) := by rw [mul_comm f]; linarith
        positivity
      field_simp at hell
      field_simp
      apply mul_left_cancel₀ hke'
      linarith
    have h2 : 0 ≤ a * k / T := by positivity
    exact (sq_eq_sq₀ (Real.sqrt_nonneg _) h2).mp h1
  rw [hD2]
  have : -((k + (2 - f) * f - 1) / k * T) * (a * k / T) = a * (1 - f) ^ 2 - a * k := by
    field_simp; ring
  rw [this]
  have := mul_pos ha hk
  linarith

/-- **C125** wherever a Cartesian position has an n-vector and a depth at all (outside the core of C08, or on the polar axis), the depth is up to sign its
distance to the ellipsoid, the surface point of its n-vector is the one nearest point of the ellipsoid, and it is negative exactly outside the ellipsoid, zero
exactly on it, positive exactly inside -/
theorem C125_from_position (p : V3 ℝ) (a f : ℝ) (ha : 0 < a) (hf0 : 0 ≤ f) (hf : f < 1) (R : M3 ℝ) (hR : IsRotation R)
    (h : OutsideCore a f (app R p) ∨ OnAxisInsideCore a f (app R p)) :
    ∃ (n s : V3 ℝ) (d : ℝ), p_EB_E2n_EB_E p.fin (fin a) (fin f) R.fin = (n.fin, fin d) ∧
      n_EB_E2p_EB_E n.fin (fin 0) (fin a) (fin f) R.fin = s.fin ∧ NearestOnEllipsoid a f R p s |d| ∧
      (∀ x, NearestOnEllipsoid a f R p x |d| → x = s) ∧
      (d < 0 ↔ 1 < level a f (app R p)) ∧ (d = 0 ↔ OnEllipsoid a f (app R p)) ∧ (0 < d ↔ level a f (app R p) < 1) := by
  obtain ⟨m, d, h1, hm, hpos, hd⟩ := p2n_curvature p a f ha hf0 hf R hR h
  have hn := (unitVec_app hR.transpose hm)
  have hp : p = app (transp R) (posE a f m d) := by rw [hpos, hR.trans_app]
  have hs := posE_side ha hf0 hf hm hd.le
  rw [hpos] at hs
  have e0 := n2p_fin hn.ne 0 a f hf hR
  rw [dirOf_of_unit hn, hR.app_trans] at e0
  refine ⟨_, _, d, h1, e0, ⟨?_, ?_, ?_⟩, ?_, hs⟩
  · obtain ⟨q, hq, h2, -⟩ := C04_on_surface _ hn.ne a f ha hf R hR
    rw [e0, V3.fin_inj] at hq
    rw [hq]; exact h2
  · rw [hp, len_sub_app hR, hR.app_trans]
    have : posE a f m d - posE a f m 0 = (-d) • m := by
      unfold posE; ext <;> simp <;> ring
    rw [this, len_smul, abs_neg, hm.len, mul_one]
  · intro x hx
    rw [hp, len_sub_app hR]
    exact (posE_nearest ha hf0 hf hm hd.le hx).1
  · rintro x ⟨hx, hl, -⟩
    rw [hp, len_sub_app hR] at hl
    rw [← (posE_nearest ha hf0 hf hm hd.le hx).2 hd hl.le, hR.trans_app]

/-- **C125** for objects: the depth of the GeoPoint (and of the Nvector) made from an ECEFvector -/
theorem C125_objects (p : V3 ℝ) (a f : ℝ) (ha : 0 < a) (hf0 : 0 ≤ f) (hf : f < 1) (name : EllKey) (R : M3 ℝ) (hR : IsRotation R)
    (h : OutsideCore a f (app R p) ∨ OnAxisInsideCore a f (app R p)) :
    ∃ (s : V3 ℝ) (d : ℝ), (ECEFvector.real p (.real a f name R)).to_nvector.z = fin d ∧
      (ECEFvector.real p (.real a f name R)).to_geo_point.z = fin d ∧ NearestOnEllipsoid a f R p s |d| ∧
      (d < 0 ↔ 1 < level a f (app R p)) ∧ (d = 0 ↔ OnEllipsoid a f (app R p)) ∧ (0 < d ↔ level a f (app R p) < 1) := by
  obtain ⟨n, s, d, h1, h2, h3, -, h4⟩ := C125_from_position p a f ha hf0 hf R hR h
  have e : (ECEFvector.real p (.real a f name R)).to_nvector = .real n d (.real a f name R) := by
    unfold ECEFvector.to_nvector ECEFvector.real FrameE.real
    simp only [h1]; rfl
  refine ⟨s, d, by rw [e]; rfl, ?_, h3, h4⟩
  unfold ECEFvector.to_geo_point
  rw [e]; rfl

/-- witnesses: depth 11 km and height 20 000 km are within the bound for WGS84; a point of the axis 1 km from the centre is convertible -/
example : (11000 : ℝ) ≤ 6378137 * (1 - 1 / 298.257223563) ^ 2 ∧ (-20000000 : ℝ) ≤ 6378137 * (1 - 1 / 298.257223563) ^ 2 := by norm_num
example : OnAxisInsideCore 6378137 (1 / 298.257223563) (app one ⟨1000, 0, 0⟩) := by
  unfold OnAxisInsideCore; norm_num [app, dot, one]

end Nv
