import Verif.Props.Attitude
import Verif.Props.Nearest
import Verif.Props.GeoPath
import Verif.Props.SphereMethods
import Verif.Props.ShortestSharp

/-!
# C159: elevations and the horizon

`delta_N(A, B)` (objects.py:89-123) gives the vector from A to B in the axes north, east, down of A, and `Pvector.elevation`
(objects.py:709-715) its elevation.  As the third axis points down, the elevation is counted downwards: it is positive for what lies below the
horizontal plane of A ("Positive downwards in a NED frame", objects.py:711).
-/

namespace Nv
open Spec Real
open XR (fin)

/-! ## Specification -/

/-- `delta_N` from A to B has the length `l` and the elevation `e` -/
def Spec.SeenAt (A B : Position XR) (l e : ℝ) : Prop :=
  ∃ d : Pvector XR, delta_N A B = .ok d ∧ d.frame = FrameN A ∧ length d.pvector = fin l ∧ elevation d.pvector = fin e

/-! ## Geometry -/

/-- the tangent plane of an ellipsoid supports it -/
theorem support {a f : ℝ} (ha : 0 < a) (hf : f < 1) {m : V3 ℝ} (hm : UnitVec m) (X : V3 ℝ) :
    a * Dell f m - dot m X = a * Dell f m / 2 * (1 - level a f X + level a f (X - posE a f m 0)) := by
  have hD := Dell_pos hf hm.ne
  have hD2 := Dell_sq f m
  have hg : 0 < 1 - f := by linarith
  simp only [posE, level, sub_x, sub_y, sub_z, sub_zero, dot]
  generalize Dell f m = D at *
  generalize 1 - f = g at *
  obtain ⟨u, v, w⟩ := m
  obtain ⟨x, y, z⟩ := X
  simp only at *
  have key : a * D / 2 * (1 - ((x / (a * g)) ^ 2 + (y / a) ^ 2 + (z / a) ^ 2) +
      (((x - a / D * g ^ 2 * u) / (a * g)) ^ 2 + ((y - a / D * v) / a) ^ 2 + ((z - a / D * w) / a) ^ 2)) -
      (a * D - (u * x + v * y + w * z)) = a / (2 * D) * (g ^ 2 * u ^ 2 + v ^ 2 + w ^ 2 - D ^ 2) := by
    field_simp
    ring
  rw [← hD2, sub_self, mul_zero] at key
  linarith

theorem level_nonneg (a f : ℝ) (X : V3 ℝ) : 0 ≤ level a f X := by unfold level; positivity

theorem level_eq_zero {a f : ℝ} (ha : 0 < a) (hf : f < 1) {X : V3 ℝ} (h : level a f X = 0) : X = 0 := by
  have hg : 0 < 1 - f := by linarith
  unfold level at h
  have h1 := sq_nonneg (X.x / (a * (1 - f)))
  have h2 := sq_nonneg (X.y / a)
  have h3 := sq_nonneg (X.z / a)
  have e1 := (div_eq_zero_iff.mp (pow_eq_zero_iff two_ne_zero |>.mp (show (X.x / (a * (1 - f))) ^ 2 = 0 by linarith))).resolve_right
    (by positivity)
  have e2 := (div_eq_zero_iff.mp (pow_eq_zero_iff two_ne_zero |>.mp (show (X.y / a) ^ 2 = 0 by linarith))).resolve_right ha.ne'
  have e3 := (div_eq_zero_iff.mp (pow_eq_zero_iff two_ne_zero |>.mp (show (X.z / a) ^ 2 = 0 by linarith))).resolve_right ha.ne'
  ext <;> assumption

theorem dot_posE {a f d : ℝ} (hf : f < 1) {m : V3 ℝ} (hm : UnitVec m) : dot m (posE a f m d) = a * Dell f m - d := by
  have hD := Dell_pos hf hm.ne
  have hD2 := Dell_sq f m
  unfold UnitVec at hm
  have : dot m (posE a f m d) = a / Dell f m * ((1 - f) ^ 2 * m.x ^ 2 + m.y ^ 2 + m.z ^ 2) - d * (m.x ^ 2 + m.y ^ 2 + m.z ^ 2) := by
    unfold dot posE; simp only; ring
  rw [this, hm, ← hD2]
  field_simp

theorem posE_sub {a f d : ℝ} (m : V3 ℝ) : posE a f m d = posE a f m 0 - d • m := by
  ext <;> simp [posE] <;> ring

theorem Dell_le_one {f : ℝ} (hf0 : 0 ≤ f) (hf : f < 1) {m : V3 ℝ} (hm : UnitVec m) : Dell f m ≤ 1 := by
  unfold Dell
  rw [show (1 : ℝ) = √1 from Real.sqrt_one.symm]
  apply Real.sqrt_le_sqrt
  rw [Real.sqrt_one]
  unfold UnitVec at hm
  nlinarith [sq_nonneg m.x, mul_nonneg hf0 (sq_nonneg m.x), mul_nonneg (mul_nonneg hf0 (sub_nonneg.mpr hf.le)) (sq_nonneg m.x)]

/-- **the horizon**: what is not higher lies below the horizontal plane -/
theorem below_plane {a f zA zB : ℝ} (ha : 0 < a) (hf0 : 0 ≤ f) (hf : f < 1) {m m' : V3 ℝ} (hm : UnitVec m) (hm' : UnitVec m')
    (hA : zA ≤ 0) (hAB : zA ≤ zB) (hB : zB ≤ a * (1 - f) ^ 2) (hne : posE a f m zA ≠ posE a f m' zB) :
    dot m (posE a f m' zB) < dot m (posE a f m zA) := by
  have hD := mul_pos ha (Dell_pos hf hm.ne)
  have hg2 : 0 < a * (1 - f) ^ 2 := by have : 0 < 1 - f := by linarith
                                       positivity
  rw [dot_posE hf hm]
  rcases lt_or_ge 0 zB with h | h
  · have hl : level a f (posE a f m' zB) < 1 :=
      (posE_side ha hf0 hf hm' ((mul_le_of_le_one_right h.le (Dell_le_one hf0 hf hm')).trans hB)).2.2.mp h
    have e := support ha hf hm (posE a f m' zB)
    have : 0 < a * Dell f m / 2 * (1 - level a f (posE a f m' zB) + level a f (posE a f m' zB - posE a f m 0)) :=
      mul_pos (by linarith) (by linarith [level_nonneg a f (posE a f m' zB - posE a f m 0)])
    linarith
  · have hl : level a f (posE a f m' 0) = 1 := (posE_side ha hf0 hf hm' (by rw [zero_mul]; exact hg2.le)).2.1.mp rfl
    have e := support ha hf hm (posE a f m' 0)
    rw [hl, sub_self, zero_add] at e
    have h0 := level_nonneg a f (posE a f m' 0 - posE a f m 0)
    have hc := dot_le_one hm hm'
    rw [posE_sub m', dot_sub_right, dot_smul_right]
    have h1 : 0 ≤ a * Dell f m / 2 * level a f (posE a f m' 0 - posE a f m 0) := mul_nonneg (by linarith) h0
    have h2 : 0 ≤ -zB * (1 - dot m m') := mul_nonneg (by linarith) (by linarith)
    by_contra hcon
    have e1 : a * Dell f m / 2 * level a f (posE a f m' 0 - posE a f m 0) = 0 := by nlinarith
    have e2 : -zB * (1 - dot m m') = 0 := by nlinarith
    have e3 : zA = zB := by nlinarith
    have hS : posE a f m' 0 = posE a f m 0 := by
      have := level_eq_zero ha hf ((mul_eq_zero.mp e1).resolve_left (by linarith))
      have hx := congrArg V3.x this; have hy := congrArg V3.y this; have hz := congrArg V3.z this
      simp only [sub_x, sub_y, sub_z] at hx hy hz
      ext
      · exact sub_eq_zero.mp hx
      · exact sub_eq_zero.mp hy
      · exact sub_eq_zero.mp hz
    apply hne
    rw [posE_sub m, posE_sub m', hS, e3]
    rcases mul_eq_zero.mp e2 with h3 | h3
    · rw [neg_eq_zero.mp h3]; ext <;> simp
    · rw [eq_of_dot_eq_one hm hm' (by linarith)]

/-! ## The model -/

section
variable {A B : Position XR} {n n' pA pB : V3 ℝ} {zA zB a f : ℝ} {name : EllKey} {R : M3 ℝ}

theorem seen_down (hR : IsRotation R) (hA : At A n zA pA (.real a f name R)) (hB : At B n' zB pB (.real a f name R)) :
    ∃ d : V3 ℝ, delta_N A B = .ok (.real d (FrameN A)) ∧ len d = len (pB - pA) ∧ d.z = dot n (pA - pB) := by
  obtain ⟨M, hM, hrot, hcol⟩ := C12_R_EN_rotation n hA.unit.ne R hR
  have hcol' : col2 M = -n := by
    rw [hcol]; congr 1
    exact dirOf_of_unit hA.unit
  refine ⟨_, (delta_fin hA.nv hA.ec hB.ec).2.1 M hM, len_app hrot.transpose _, ?_⟩
  change dot (col2 M) (pB - pA) = _
  rw [hcol', dot_neg_left, dot_sub_right, dot_sub_right]; ring

theorem seen_at (hR : IsRotation R) (hA : At A n zA pA (.real a f name R)) (hB : At B n' zB pB (.real a f name R)) (hne : pA ≠ pB) :
    ∃ l e : ℝ, SeenAt A B l e ∧ l = len (pB - pA) ∧ 0 < l ∧ -(π / 2) ≤ e ∧ e ≤ π / 2 ∧ l * sin e = dot n (pA - pB) := by
  obtain ⟨d, h1, h2, h3⟩ := seen_down hR hA hB
  have hd : d ≠ 0 := by
    rintro rfl
    rw [len_eq_zero.mpr rfl] at h2
    have := len_eq_zero.mp h2.symm
    have hx := congrArg V3.x this; have hy := congrArg V3.y this; have hz := congrArg V3.z this
    simp only [sub_x, sub_y, sub_z] at hx hy hz
    apply hne
    ext
    · exact (sub_eq_zero.mp hx).symm
    · exact (sub_eq_zero.mp hy).symm
    · exact (sub_eq_zero.mp hz).symm
  obtain ⟨l, az, el, e1, -, e2, e3, e4, -, -, -, e5, e6, e7⟩ := C42_spherical d hd
  refine ⟨l, el, ⟨_, h1, rfl, e1, e2⟩, e3.trans h2, e4, e5, e6, ?_⟩
  rw [← h3]
  exact (congrArg V3.z e7).symm

theorem SeenAt_unique {l e l' e' : ℝ} (h : SeenAt A B l e) (h' : SeenAt A B l' e') : l = l' ∧ e = e' := by
  obtain ⟨d, h1, -, h2, h3⟩ := h
  obtain ⟨d', h1', -, h2', h3'⟩ := h'
  rw [h1] at h1'
  injection h1' with h; subst h
  rw [h2] at h2'; rw [h3] at h3'
  exact ⟨XR.fin.inj h2', XR.fin.inj h3'⟩

/-- **C159** the sign of the elevation: it is positive for positions below the horizontal plane of A, negative for positions above it.
`n` is the n-vector of A -/
theorem C159_sign (hR : IsRotation R) (hA : At A n zA pA (.real a f name R)) (hB : At B n' zB pB (.real a f name R)) (hne : pA ≠ pB) :
    ∃ l e : ℝ, SeenAt A B l e ∧ l = len (pB - pA) ∧ -(π / 2) ≤ e ∧ e ≤ π / 2 ∧ l * sin e = dot n (pA - pB) ∧
      (0 < e ↔ dot n pB < dot n pA) ∧ (e < 0 ↔ dot n pA < dot n pB) := by
  obtain ⟨l, e, h1, h2, h3, h4, h5, h6⟩ := seen_at hR hA hB hne
  rw [dot_sub_right] at h6
  have hp := Real.pi_pos
  refine ⟨l, e, h1, h2, h4, h5, by rw [dot_sub_right]; exact h6, ?_, ?_⟩
  · constructor
    · intro h
      have := mul_pos h3 (Real.sin_pos_of_pos_of_lt_pi h (by linarith)); linarith
    · intro h
      by_contra hc
      have := mul_nonpos_of_nonneg_of_nonpos h3.le (Real.sin_nonpos_of_nonpos_of_neg_pi_le (not_lt.mp hc) (by linarith)); linarith
  · constructor
    · intro h
      have := mul_neg_of_pos_of_neg h3 (Real.sin_neg_of_neg_of_neg_pi_lt h (by linarith)); linarith
    · intro h
      by_contra hc
      have := mul_nonneg h3.le (Real.sin_nonneg_of_nonneg_of_le_pi (not_lt.mp hc) (by linarith)); linarith

end

section
variable {a f : ℝ} {name : EllKey} {R : M3 ℝ} (hR : IsRotation R)
include hR

/-- **C159** straight up and straight down: the elevation of a position vertically above is -90°, vertically below it is +90° -/
theorem C159_vertical (hf : f < 1) (lat lon zA zB : ℝ) :
    let A := Position.geo (.real lat lon zA (.real a f name R))
    let B := Position.geo (.real lat lon zB (.real a f name R))
    (zB < zA → SeenAt A B (zA - zB) (-(π / 2))) ∧ (zA < zB → SeenAt A B (zB - zA) (π / 2)) := by
  intro A B
  obtain ⟨n, pA, hA, gA⟩ := At.of_geo lat lon zA a f hf name R hR
  obtain ⟨n', pB, hB, gB⟩ := At.of_geo lat lon zB a f hf name R hR
  have hn : n' = n := by
    rw [← hR.trans_app n, ← hR.trans_app n', gA, gB]
  subst hn
  have eA := at_geo_posE hf hR hA
  have eB := at_geo_posE hf hR hB
  obtain ⟨d, h1, h2, h3⟩ := seen_down hR hA hB
  have hv : pB - pA = (zA - zB) • n' := by
    have : posE a f (app R n') zB - posE a f (app R n') zA = app R ((zA - zB) • n') := by
      rw [posE_sub _ (d := zA), posE_sub _ (d := zB), app_smul]
      ext <;> simp <;> ring
    rw [eA, eB, ← app_sub, this, hR.trans_app]
  have hv' : pA - pB = (zB - zA) • n' := by
    have hx := congrArg V3.x hv; have hy := congrArg V3.y hv; have hz := congrArg V3.z hv
    simp only [sub_x, sub_y, sub_z, smul_x, smul_y, smul_z] at hx hy hz
    ext <;> simp only [sub_x, sub_y, sub_z, smul_x, smul_y, smul_z] <;> linarith
  have hl : len d = |zA - zB| := by rw [h2, hv, len_smul, hA.unit.len, mul_one]
  have hz : d.z = zB - zA := by
    rw [h3, hv', dot_smul_right, dot_self, hA.unit.len]; ring
  have hp := Real.pi_pos
  have hlen : length d.fin = fin |zA - zB| := by unfold length; rw [norm3_fin, hl]
  constructor
  · intro h
    rw [abs_of_pos (by linarith)] at hl hlen
    exact ⟨_, h1, rfl, hlen, elevation_of (by linarith) (by linarith) (by linarith) hl (by rw [hz, Real.sin_neg, Real.sin_pi_div_two]; ring)⟩
  · intro h
    rw [abs_of_neg (by linarith), neg_sub] at hl hlen
    exact ⟨_, h1, rfl, hlen, elevation_of (by linarith) (by linarith) (by linarith) hl (by rw [hz, Real.sin_pi_div_two]; ring)⟩

/-- **C159** the horizon: seen from a position on or above an ellipsoid, every other position that is not higher lies below the horizontal
plane, so its elevation is positive -/
theorem C159_horizon (ha : 0 < a) (hf0 : 0 ≤ f) (hf : f < 1) (latA lonA zA latB lonB zB : ℝ) (hzA : zA ≤ 0) (hzAB : zA ≤ zB)
    (hzB : zB ≤ a * (1 - f) ^ 2) :
    let A := Position.geo (.real latA lonA zA (.real a f name R))
    let B := Position.geo (.real latB lonB zB (.real a f name R))
    A.to_ecef_vector ≠ B.to_ecef_vector → ∃ l e : ℝ, SeenAt A B l e ∧ 0 < l ∧ 0 < e ∧ e ≤ π / 2 := by
  intro A B hne
  obtain ⟨n, pA, hA, gA⟩ := At.of_geo latA lonA zA a f hf name R hR
  obtain ⟨n', pB, hB, gB⟩ := At.of_geo latB lonB zB a f hf name R hR
  have eA := at_geo_posE hf hR hA
  have eB := at_geo_posE hf hR hB
  have hne' : pA ≠ pB := by
    rintro rfl
    exact hne (hA.ec.trans hB.ec.symm)
  have hm := unitVec_app hR hA.unit
  have hm' := unitVec_app hR hB.unit
  have key := below_plane ha hf0 hf hm hm' hzA hzAB hzB (by
    intro h; apply hne'; rw [eA, eB, h])
  rw [← dot_app hR.transpose (app R n) (posE a f (app R n') zB), ← dot_app hR.transpose (app R n) (posE a f (app R n) zA), ← eA, ← eB,
    hR.trans_app] at key
  obtain ⟨l, e, h1, h2, -, h4, -, h6, -⟩ := C159_sign hR hA hB hne'
  obtain ⟨l', e', h1', -, h3', -⟩ := seen_at hR hA hB hne'
  obtain ⟨rfl, rfl⟩ := SeenAt_unique h1 h1'
  exact ⟨l, e, h1, h3', h6.mpr key, h4⟩

end

/-! ## Spheres -/

theorem sum_elevations {rA rB L e₁ e₂ θ : ℝ} (hA : 0 < rA) (hB : 0 < rB) (hL : 0 < L) (hθ0 : 0 ≤ θ) (hθ : θ ≤ π)
    (hLL : L ^ 2 = rA ^ 2 + rB ^ 2 - 2 * rA * rB * cos θ) (h1 : -(π / 2) ≤ e₁) (h1' : e₁ ≤ π / 2) (h2 : -(π / 2) ≤ e₂) (h2' : e₂ ≤ π / 2)
    (s1 : L * sin e₁ = rA - rB * cos θ) (s2 : L * sin e₂ = rB - rA * cos θ) : e₁ + e₂ = θ := by
  have hs := Real.sin_nonneg_of_nonneg_of_le_pi hθ0 hθ
  have hcos {e x : ℝ} (hx : 0 ≤ x) (h : -(π / 2) ≤ e) (h' : e ≤ π / 2) (hh : (L * sin e) ^ 2 + x ^ 2 = L ^ 2) : L * cos e = x := by
    have hc := Real.cos_nonneg_of_neg_pi_div_two_le_of_le h h'
    have : (L * cos e) ^ 2 = x ^ 2 := by
      have := Real.sin_sq_add_cos_sq e
      have e1 : (L * cos e) ^ 2 = L ^ 2 * (sin e ^ 2 + cos e ^ 2) - (L * sin e) ^ 2 := by ring
      rw [e1, this]; linarith
    exact (pow_left_inj₀ (mul_nonneg hL.le hc) hx two_ne_zero).mp this
  have hsc := Real.sin_sq_add_cos_sq θ
  have c1 : L * cos e₁ = rB * sin θ := hcos (mul_nonneg hB.le hs) h1 h1' (by
    rw [s1, hLL]; linear_combination rB ^ 2 * hsc)
  have c2 : L * cos e₂ = rA * sin θ := hcos (mul_nonneg hA.le hs) h2 h2' (by
    rw [s2, hLL]; linear_combination rA ^ 2 * hsc)
  have hLne : L ^ 2 ≠ 0 := by positivity
  have S : sin (e₁ + e₂) = sin θ := by
    apply mul_left_cancel₀ hLne
    rw [Real.sin_add]
    calc L ^ 2 * (sin e₁ * cos e₂ + cos e₁ * sin e₂) = (L * sin e₁) * (L * cos e₂) + (L * cos e₁) * (L * sin e₂) := by ring
      _ = L ^ 2 * sin θ := by rw [s1, s2, c1, c2, hLL]; ring
  have C : cos (e₁ + e₂) = cos θ := by
    apply mul_left_cancel₀ hLne
    rw [Real.cos_add]
    calc L ^ 2 * (cos e₁ * cos e₂ - sin e₁ * sin e₂) = (L * cos e₁) * (L * cos e₂) - (L * sin e₁) * (L * sin e₂) := by ring
      _ = L ^ 2 * cos θ := by rw [s1, s2, c1, c2, hLL]; linear_combination (rA * rB) * hsc
  obtain ⟨k, hk⟩ := turns_of_trig C S
  have hp := Real.pi_pos
  have k1 : k < 1 := by
    by_contra hc
    have : (1 : ℝ) ≤ k := by exact_mod_cast not_lt.mp hc
    nlinarith
  have k2 : -1 < k ∨ k = -1 := by
    rcases lt_or_ge (-1) k with h | h
    · exact .inl h
    · right
      have h' : (k : ℝ) ≤ -1 := by exact_mod_cast h
      by_contra hc
      have h'' : (k : ℝ) ≤ -2 := by exact_mod_cast (show k ≤ -2 by omega)
      nlinarith
  rcases k2 with h | h
  · have : k = 0 := by omega
    rw [hk, this]; simp
  · exfalso
    rw [h] at hk
    push_cast at hk
    have hθ' : θ = π := by linarith
    have he : e₁ = -(π / 2) := by linarith
    rw [hθ', he, Real.sin_neg, Real.sin_pi_div_two, Real.cos_pi] at s1
    linarith

section
variable {a : ℝ} {name : EllKey} {R : M3 ℝ} (hR : IsRotation R)
include hR

/-- **C159** on a sphere: with `θ` the central angle (the great circle distance over the radius) and `rA`, `rB` the distances to the centre,
the elevation of B seen from A has the sine `(rA - rB cos θ)/l`; it and the elevation of A seen from B add up to `θ` -/
theorem C159_sphere (latA lonA zA latB lonB zB : ℝ) (hzA : zA < a) (hzB : zB < a) :
    let A := Position.geo (.real latA lonA zA (.real a 0 name R))
    let B := Position.geo (.real latB lonB zB (.real a 0 name R))
    let θ := angle (geoNormal latA lonA) (geoNormal latB lonB)
    zA ≠ zB ∨ θ ≠ 0 → ∃ l eAB eBA : ℝ, SeenAt A B l eAB ∧ SeenAt B A l eBA ∧ 0 < l ∧
      l ^ 2 = (a - zA) ^ 2 + (a - zB) ^ 2 - 2 * (a - zA) * (a - zB) * cos θ ∧
      l * sin eAB = (a - zA) - (a - zB) * cos θ ∧ l * sin eBA = (a - zB) - (a - zA) * cos θ ∧
      eAB + eBA = θ ∧ (zA = zB → eAB = θ / 2 ∧ eBA = θ / 2) := by
  intro A B θ hne
  have hA := sphere_atR hR name a latA lonA zA
  have hB := sphere_atR hR name a latB lonB zB
  have uA := geoNormal_isUnit latA lonA
  have uB := geoNormal_isUnit latB lonB
  set m := geoNormal latA lonA
  set m' := geoNormal latB lonB
  have hc : dot (app (transp R) m) (app (transp R) m') = cos θ := by rw [dot_app hR.transpose, cos_angle_unit uA uB]
  have hc' : dot (app (transp R) m') (app (transp R) m) = cos θ := by rw [dot_comm, hc]
  have hLL : len ((a - zB) • app (transp R) m' - (a - zA) • app (transp R) m) ^ 2 =
      (a - zA) ^ 2 + (a - zB) ^ 2 - 2 * (a - zA) * (a - zB) * cos θ := by
    have sA : dot (app (transp R) m) (app (transp R) m) = 1 := by rw [dot_self, hA.unit.len]; norm_num
    have sB : dot (app (transp R) m') (app (transp R) m') = 1 := by rw [dot_self, hB.unit.len]; norm_num
    rw [← dot_self]
    simp only [dot_sub_left, dot_sub_right, dot_smul_left, dot_smul_right, hc, hc', sA, sB]
    ring
  have hpos : 0 < (a - zA) ^ 2 + (a - zB) ^ 2 - 2 * (a - zA) * (a - zB) * cos θ := by
    have e : (a - zA) ^ 2 + (a - zB) ^ 2 - 2 * (a - zA) * (a - zB) * cos θ =
        (zA - zB) ^ 2 + 2 * ((a - zA) * (a - zB)) * (1 - cos θ) := by ring
    rw [e]
    have hr : 0 < (a - zA) * (a - zB) := mul_pos (by linarith) (by linarith)
    have h1 := Real.cos_le_one θ
    rcases hne with h | h
    · have : 0 < (zA - zB) ^ 2 := by have := sub_ne_zero.mpr h; positivity
      have : 0 ≤ 2 * ((a - zA) * (a - zB)) * (1 - cos θ) := mul_nonneg (by linarith) (by linarith)
      linarith
    · have h2 : cos θ < 1 := by
        rw [← Real.cos_zero]
        exact Real.cos_lt_cos_of_nonneg_of_le_pi le_rfl (angle_le_pi _ _) (lt_of_le_of_ne (angle_nonneg _ _) h.symm)
      have : 0 < 2 * ((a - zA) * (a - zB)) * (1 - cos θ) := mul_pos (by linarith) (by linarith)
      have := sq_nonneg (zA - zB)
      linarith
  have hp : (a - zA) • app (transp R) m ≠ (a - zB) • app (transp R) m' := by
    intro h
    rw [← hLL, h] at hpos
    have : (a - zB) • app (transp R) m' - (a - zB) • app (transp R) m' = 0 := by ext <;> simp
    rw [this, len_eq_zero.mpr rfl] at hpos
    norm_num at hpos
  obtain ⟨l, e, s1, s2, s3, s4, s5, s6⟩ := seen_at hR hA hB hp
  obtain ⟨l', e', t1, t2, t3, t4, t5, t6⟩ := seen_at hR hB hA hp.symm
  have hl : l' = l := by
    rw [t2, s2]
    rw [show (a - zA) • app (transp R) m - (a - zB) • app (transp R) m' =
      (-1 : ℝ) • ((a - zB) • app (transp R) m' - (a - zA) • app (transp R) m) by ext <;> simp, len_smul]
    norm_num
  subst hl
  have q1 : l' * sin e = (a - zA) - (a - zB) * cos θ := by
    rw [s6, dot_sub_right, dot_smul_right, dot_smul_right, hc, dot_self, hA.unit.len]; ring
  have q2 : l' * sin e' = (a - zB) - (a - zA) * cos θ := by
    rw [t6, dot_sub_right, dot_smul_right, dot_smul_right, hc', dot_self, hB.unit.len]; ring
  rw [← s2] at hLL
  have hsum := sum_elevations (by linarith : 0 < a - zA) (by linarith : 0 < a - zB) s3 (angle_nonneg _ _) (angle_le_pi _ _) hLL s4 s5 t4 t5 q1 q2
  refine ⟨l', e, e', s1, t1, s3, hLL, q1, q2, hsum, ?_⟩
  intro hz
  subst hz
  have : e = e' := by
    apply Real.injOn_sin ⟨s4, s5⟩ ⟨t4, t5⟩
    apply mul_left_cancel₀ s3.ne'
    rw [q1, q2]
  subst this
  constructor <;> linarith

end

end Nv
