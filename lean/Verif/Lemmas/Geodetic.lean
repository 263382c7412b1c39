import Verif.Lemmas.Position
import Verif.Lemmas.Sphere

/-!
# Sensitivity of the geodetic position: how the position moves with normal and depth, and back
-/

namespace Nv
open Spec

section
variable {a f d d' : ℝ} {m m' : V3 ℝ}

/-- the bilinear form of the ellipsoid -/
noncomputable def ellB (f : ℝ) (m m' : V3 ℝ) : ℝ := (1 - f) ^ 2 * (m.x * m'.x) + m.y * m'.y + m.z * m'.z

theorem ellB_le (f : ℝ) (m m' : V3 ℝ) : ellB f m m' ≤ Dell f m * Dell f m' := by
  have h0 : 0 ≤ Dell f m * Dell f m' := mul_nonneg (Real.sqrt_nonneg _) (Real.sqrt_nonneg _)
  apply abs_le_of_sq_le_sq' _ h0 |>.2
  rw [mul_pow, Dell_sq, Dell_sq]
  unfold ellB
  have h1 : 0 ≤ (1 - f) ^ 2 := sq_nonneg _
  nlinarith [mul_nonneg h1 (sq_nonneg (m.x * m'.y - m.y * m'.x)), mul_nonneg h1 (sq_nonneg (m.x * m'.z - m.z * m'.x)), sq_nonneg (m.y * m'.z - m.z * m'.y)]

theorem Dell_ge {f : ℝ} (f0 : 0 ≤ f) (f1 : f < 1) {m : V3 ℝ} (hm : UnitVec m) : 1 - f ≤ Dell f m ∧ Dell f m ≤ 1 := by
  have hD2 := Dell_sq f m
  have hD0 : 0 ≤ Dell f m := Real.sqrt_nonneg _
  unfold UnitVec at hm
  have hg1 : (1 - f) ^ 2 ≤ 1 := by nlinarith
  have x0 := sq_nonneg m.x; have y0 := sq_nonneg m.y; have z0 := sq_nonneg m.z
  have h1 : (1 - f) ^ 2 * m.x ^ 2 ≤ 1 * m.x ^ 2 := mul_le_mul_of_nonneg_right hg1 x0
  have h2 : (1 - f) ^ 2 * (m.y ^ 2 + m.z ^ 2) ≤ 1 * (m.y ^ 2 + m.z ^ 2) := mul_le_mul_of_nonneg_right hg1 (by linarith)
  constructor
  · apply abs_le_of_sq_le_sq' _ hD0 |>.2
    rw [hD2]
    have : (1 - f) ^ 2 * (m.x ^ 2 + m.y ^ 2 + m.z ^ 2) = (1 - f) ^ 2 := by rw [hm, mul_one]
    linarith
  · apply abs_le_of_sq_le_sq' _ zero_le_one |>.2
    rw [hD2]; linarith

/-- lower bound for `D D' - m·Am'` -/
theorem ellB_gap (f0 : 0 ≤ f) (f1 : f < 1) (hm : UnitVec m) (hm' : UnitVec m') :
    (1 - f) ^ 2 * (1 - dot m m') ≤ Dell f m * Dell f m' - ellB f m m' := by
  have e1 := Dell_sq f m
  have e2 := Dell_sq f m'
  have D0 : 0 ≤ Dell f m := Real.sqrt_nonneg _
  have D0' : 0 ≤ Dell f m' := Real.sqrt_nonneg _
  have hg1 : (1 - f) ^ 2 ≤ 1 := by nlinarith
  have g0 : 0 ≤ (1 - f) ^ 2 := sq_nonneg _
  have hc : ellB f m m' = (1 - f) ^ 2 * (m.x * m'.x) + m.y * m'.y + m.z * m'.z := rfl
  unfold UnitVec at hm hm'
  generalize (1 - f) ^ 2 = g at *
  -- `D² = g + (1-g)(y²+z²)`
  have q1 : Dell f m ^ 2 = g + (1 - g) * (m.y ^ 2 + m.z ^ 2) := by rw [e1]; linear_combination g * hm
  have q2 : Dell f m' ^ 2 = g + (1 - g) * (m'.y ^ 2 + m'.z ^ 2) := by rw [e2]; linear_combination g * hm'
  have hq : ellB f m m' = g * dot m m' + (1 - g) * (m.y * m'.y + m.z * m'.z) := by rw [hc]; unfold dot; ring
  rw [hq]
  suffices h : g + (1 - g) * (m.y * m'.y + m.z * m'.z) ≤ Dell f m * Dell f m' by linarith
  apply abs_le_of_sq_le_sq' _ (mul_nonneg D0 D0') |>.2
  rw [mul_pow, q1, q2]
  have h1 : 0 ≤ 1 - g := by linarith
  have s1 : 0 ≤ g * (1 - g) * ((m.y - m'.y) ^ 2 + (m.z - m'.z) ^ 2) := by positivity
  have s2 : 0 ≤ (1 - g) ^ 2 * (m.y * m'.z - m.z * m'.y) ^ 2 := by positivity
  nlinarith

/-- the position at depth `d` is the surface point moved along the normal -/
theorem posE_eq (a f d : ℝ) (m : V3 ℝ) : posE a f m d = posE a f m 0 - d • m := by
  unfold posE; ext <;> simp <;> ring

theorem dot_surf (hf : f < 1) (hm : UnitVec m) (m' : V3 ℝ) : dot (posE a f m 0) m' = a * ellB f m m' / Dell f m := by
  have := Dell_pos hf hm.ne
  unfold posE dot ellB
  field_simp
  ring

theorem ellB_self (f : ℝ) (m : V3 ℝ) : ellB f m m = Dell f m ^ 2 := by rw [Dell_sq]; unfold ellB; ring
theorem ellB_comm (f : ℝ) (m m' : V3 ℝ) : ellB f m m' = ellB f m' m := by unfold ellB; ring

/-- no surface point is farther along `m` than the one with normal `m` -/
theorem surf_support (ha : 0 < a) (hf : f < 1) (hm : UnitVec m) (hm' : UnitVec m') : dot (posE a f m' 0) m ≤ dot (posE a f m 0) m := by
  have h1 := Dell_pos hf hm.ne
  have h2 := Dell_pos hf hm'.ne
  rw [dot_surf hf hm', dot_surf hf hm, ellB_self, pow_two, ← mul_assoc, mul_div_assoc, mul_div_assoc, div_self h1.ne', mul_one]
  apply mul_le_mul_of_nonneg_left _ ha.le
  rw [div_le_iff₀ h2, mul_comm (Dell f m)]
  exact ellB_le f m' m

theorem len_sub_sq' (hm : UnitVec m) (hm' : UnitVec m') : len (m' - m) ^ 2 = 2 * (1 - dot m m') := by
  rw [len_sub_sq hm' hm, dot_comm]; ring

/-- the normal turns at most at the rate of the largest curvature -/
theorem surf_mono (ha : 0 < a) (f0 : 0 ≤ f) (f1 : f < 1) (hm : UnitVec m) (hm' : UnitVec m') :
    a * (1 - f) ^ 2 * len (m' - m) ^ 2 ≤ dot (posE a f m' 0 - posE a f m 0) (m' - m) := by
  have h1 := Dell_pos f1 hm.ne
  have h2 := Dell_pos f1 hm'.ne
  have hb1 := (Dell_ge f0 f1 hm).2
  have hb2 := (Dell_ge f0 f1 hm').2
  have hg := ellB_gap f0 f1 hm hm'
  have hd := dot_le_one hm hm'
  rw [len_sub_sq' hm hm', dot_sub_left, dot_sub_right, dot_sub_right, dot_surf f1 hm', dot_surf f1 hm', dot_surf f1 hm, dot_surf f1 hm, ellB_self, ellB_self,
    ellB_comm f m' m]
  generalize Dell f m = D at *
  generalize Dell f m' = D' at *
  generalize ellB f m m' = c at *
  have e : a * D' ^ 2 / D' - a * c / D' - (a * c / D - a * D ^ 2 / D) = a * ((D * D' - c) * ((D + D') / (D * D'))) := by
    field_simp; ring
  rw [e, mul_assoc]
  apply mul_le_mul_of_nonneg_left _ ha.le
  have hs : 2 ≤ (D + D') / (D * D') := by
    rw [le_div_iff₀ (by positivity)]
    nlinarith
  have hn : 0 ≤ (1 - f) ^ 2 * (1 - dot m m') := mul_nonneg (sq_nonneg _) (by linarith)
  calc (1 - f) ^ 2 * (2 * (1 - dot m m')) = (1 - f) ^ 2 * (1 - dot m m') * 2 := by ring
    _ ≤ _ := mul_le_mul hg hs (by norm_num) (hn.trans hg)

/-- the surface point moves at most at the rate of the largest radius of curvature -/
theorem surf_lip (ha : 0 < a) (f0 : 0 ≤ f) (f1 : f < 1) (hm : UnitVec m) (hm' : UnitVec m') :
    (1 - f) * len (posE a f m' 0 - posE a f m 0) ≤ a * len (m' - m) := by
  have h1 := Dell_pos f1 hm.ne
  have h2 := Dell_pos f1 hm'.ne
  have hb1 := (Dell_ge f0 f1 hm).1
  have hb2 := (Dell_ge f0 f1 hm').1
  have g0 : 0 ≤ 1 - f := by linarith
  have hg1 : (1 - f) ^ 2 ≤ 1 := by nlinarith
  apply abs_le_of_sq_le_sq' _ (mul_nonneg ha.le (len_nonneg _)) |>.2
  rw [mul_pow, mul_pow, len_sub_sq' hm hm', len_sq]
  have e1 := Dell_sq f m
  have e2 := Dell_sq f m'
  have hc : ellB f m m' = (1 - f) ^ 2 * (m.x * m'.x) + m.y * m'.y + m.z * m'.z := rfl
  have hle := ellB_le f m m'
  obtain ⟨D, hD⟩ : ∃ D, D = Dell f m := ⟨_, rfl⟩
  obtain ⟨D', hD'⟩ : ∃ D', D' = Dell f m' := ⟨_, rfl⟩
  rw [← hD] at h1 hb1 e1 hle
  rw [← hD'] at h2 hb2 e2 hle
  generalize ellB f m m' = c at *
  have hx : ((posE a f m' 0 - posE a f m 0).x) ^ 2 ≤ a ^ 2 * ((1 - f) * m'.x / D' - (1 - f) * m.x / D) ^ 2 := by
    have : (posE a f m' 0 - posE a f m 0).x = a * (1 - f) * ((1 - f) * m'.x / D' - (1 - f) * m.x / D) := by
      simp only [posE, sub_x, ← hD, ← hD']; ring
    rw [this, mul_pow, mul_pow, mul_assoc]
    apply mul_le_mul_of_nonneg_left _ (sq_nonneg a)
    calc _ ≤ 1 * ((1 - f) * m'.x / D' - (1 - f) * m.x / D) ^ 2 := mul_le_mul_of_nonneg_right hg1 (sq_nonneg _)
      _ = _ := one_mul _
  have hy : ((posE a f m' 0 - posE a f m 0).y) ^ 2 = a ^ 2 * (m'.y / D' - m.y / D) ^ 2 := by
    have : (posE a f m' 0 - posE a f m 0).y = a * (m'.y / D' - m.y / D) := by
      simp only [posE, sub_y, ← hD, ← hD']; ring
    rw [this, mul_pow]
  have hz : ((posE a f m' 0 - posE a f m 0).z) ^ 2 = a ^ 2 * (m'.z / D' - m.z / D) ^ 2 := by
    have : (posE a f m' 0 - posE a f m 0).z = a * (m'.z / D' - m.z / D) := by
      simp only [posE, sub_z, ← hD, ← hD']; ring
    rw [this, mul_pow]
  have hu : ((1 - f) * m'.x / D' - (1 - f) * m.x / D) ^ 2 + (m'.y / D' - m.y / D) ^ 2 + (m'.z / D' - m.z / D) ^ 2 = 2 * (D * D' - c) / (D * D') := by
    have k1 : ((1 - f) * m'.x / D' - (1 - f) * m.x / D) ^ 2 + (m'.y / D' - m.y / D) ^ 2 + (m'.z / D' - m.z / D) ^ 2 =
        ((1 - f) ^ 2 * m'.x ^ 2 + m'.y ^ 2 + m'.z ^ 2) / D' ^ 2 + ((1 - f) ^ 2 * m.x ^ 2 + m.y ^ 2 + m.z ^ 2) / D ^ 2 -
          2 * ((1 - f) ^ 2 * (m.x * m'.x) + m.y * m'.y + m.z * m'.z) / (D * D') := by field_simp; ring
    rw [k1, ← e1, ← e2, ← hc]; field_simp; ring
  have hdd : D ^ 2 + D' ^ 2 - 2 * c ≤ 2 * (1 - dot m m') := by
    have k : D ^ 2 + D' ^ 2 - 2 * c = (1 - f) ^ 2 * (m'.x - m.x) ^ 2 + (m'.y - m.y) ^ 2 + (m'.z - m.z) ^ 2 := by rw [e1, e2, hc]; ring
    have k2 : 2 * (1 - dot m m') = (m'.x - m.x) ^ 2 + (m'.y - m.y) ^ 2 + (m'.z - m.z) ^ 2 := by
      unfold UnitVec at hm hm'; unfold dot; linear_combination (-1) * hm - hm'
    rw [k, k2]
    have := mul_le_mul_of_nonneg_right hg1 (sq_nonneg (m'.x - m.x))
    linarith
  have hDD : 2 * (D * D' - c) ≤ 2 * (1 - dot m m') := by nlinarith [sq_nonneg (D - D')]
  have hcn : 0 ≤ D * D' - c := by linarith
  have hDDg : (1 - f) ^ 2 ≤ D * D' := by
    rw [pow_two]; exact mul_le_mul hb1 hb2 g0 h1.le
  have hsum : ((posE a f m' 0 - posE a f m 0).x) ^ 2 + ((posE a f m' 0 - posE a f m 0).y) ^ 2 + ((posE a f m' 0 - posE a f m 0).z) ^ 2 ≤
      a ^ 2 * (2 * (D * D' - c) / (D * D')) := by
    rw [← hu, hy, hz]; linarith
  calc _ ≤ (1 - f) ^ 2 * (a ^ 2 * (2 * (D * D' - c) / (D * D'))) := mul_le_mul_of_nonneg_left hsum (sq_nonneg _)
    _ = a ^ 2 * ((1 - f) ^ 2 / (D * D') * (2 * (D * D' - c))) := by field_simp
    _ ≤ a ^ 2 * (1 * (2 * (D * D' - c))) := by
      apply mul_le_mul_of_nonneg_left _ (sq_nonneg a)
      apply mul_le_mul_of_nonneg_right _ (by linarith)
      rw [div_le_one (by positivity)]; exact hDDg
    _ ≤ _ := by
      rw [one_mul]
      exact mul_le_mul_of_nonneg_left hDD (sq_nonneg a)

theorem dot_le_len_mul (v w : V3 ℝ) : dot v w ≤ len v * len w := (le_abs_self _).trans (abs_dot_le v w)

/-- nearby positions have nearby normals (above the evolute) -/
theorem normal_close (ha : 0 < a) (f0 : 0 ≤ f) (f1 : f < 1) (hm : UnitVec m) (hm' : UnitVec m') :
    (a * (1 - f) ^ 2 - (d + d') / 2) * len (m' - m) ≤ len (posE a f m' d' - posE a f m d) := by
  have h := surf_mono ha f0 f1 hm hm'
  have e : dot (posE a f m' d' - posE a f m d) (m' - m) = dot (posE a f m' 0 - posE a f m 0) (m' - m) - (d + d') / 2 * len (m' - m) ^ 2 := by
    rw [posE_eq a f d', posE_eq a f d, len_sub_sq' hm hm']
    unfold UnitVec at hm hm'
    simp only [dot, sub_x, sub_y, sub_z, smul_x, smul_y, smul_z]
    linear_combination (-d) * hm - d' * hm'
  have hc := dot_le_len_mul (posE a f m' d' - posE a f m d) (m' - m)
  rw [e] at hc
  rcases eq_or_lt_of_le (len_nonneg (m' - m)) with h0 | h0
  · rw [← h0, mul_zero]; exact len_nonneg _
  · by_contra hn
    push Not at hn
    have := mul_lt_mul_of_pos_right hn h0
    nlinarith

/-- nearby positions have nearby depths -/
theorem depth_close (ha : 0 < a) (f1 : f < 1) (hm : UnitVec m) (hm' : UnitVec m') :
    d' - d ≤ len (posE a f m' d' - posE a f m d) + max d' 0 / 2 * len (m' - m) ^ 2 := by
  have hs := surf_support ha f1 hm hm'
  have e : dot (posE a f m' d' - posE a f m d) m = dot (posE a f m' 0) m - dot (posE a f m 0) m + (d - d' * dot m m') := by
    rw [posE_eq a f d', posE_eq a f d]
    unfold UnitVec at hm
    simp only [dot, sub_x, sub_y, sub_z, smul_x, smul_y, smul_z]
    linear_combination d * hm
  have hl := dot_le_len_mul (posE a f m d - posE a f m' d') m
  rw [hm.len, mul_one] at hl
  have e2 : dot (posE a f m d - posE a f m' d') m = - dot (posE a f m' d' - posE a f m d) m := by simp only [dot, sub_x, sub_y, sub_z]; ring
  have e3 : len (posE a f m d - posE a f m' d') = len (posE a f m' d' - posE a f m d) := by
    unfold len; simp only [sub_x, sub_y, sub_z]; congr 1; ring
  rw [e2, e3, e] at hl
  rw [len_sub_sq' hm hm']
  have hd := dot_le_one hm hm'
  have hmax : d' * (1 - dot m m') ≤ max d' 0 * (1 - dot m m') := mul_le_mul_of_nonneg_right (le_max_left _ _) (by linarith)
  linarith

theorem len_sub_comm (v w : V3 ℝ) : len (v - w) = len (w - v) := by
  unfold len; simp only [sub_x, sub_y, sub_z]; congr 1; ring

/-- the position moves little with normal and depth -/
theorem pos_close (ha : 0 < a) (f0 : 0 ≤ f) (f1 : f < 1) (hm : UnitVec m) (hm' : UnitVec m') :
    len (posE a f m' d' - posE a f m d) ≤ (a / (1 - f) + |d|) * len (m' - m) + |d' - d| := by
  have h := surf_lip ha f0 f1 hm hm'
  have e : posE a f m' d' - posE a f m d = (posE a f m' 0 - posE a f m 0) + ((-d) • (m' - m) + (d - d') • m') := by
    rw [posE_eq a f d', posE_eq a f d]; ext <;> simp <;> ring
  rw [e]
  refine (len_add_le _ _).trans ?_
  have h2 := len_add_le ((-d) • (m' - m)) ((d - d') • m')
  have hl : ∀ (c : ℝ) (v : V3 ℝ), len (c • v) = |c| * len v := by
    intro c v
    unfold len
    simp only [smul_x, smul_y, smul_z]
    rw [show (c * v.x) ^ 2 + (c * v.y) ^ 2 + (c * v.z) ^ 2 = c ^ 2 * (v.x ^ 2 + v.y ^ 2 + v.z ^ 2) by ring, Real.sqrt_mul (sq_nonneg c), Real.sqrt_sq_eq_abs]
  rw [hl, hl, hm'.len, abs_neg, mul_one, abs_sub_comm d d'] at h2
  have g : 0 < 1 - f := by linarith
  have h3 : len (posE a f m' 0 - posE a f m 0) ≤ a / (1 - f) * len (m' - m) := by
    rw [div_mul_eq_mul_div, le_div_iff₀ g]; linarith
  linarith

/-- geodetic coordinates determine the point -/
theorem Spec.Geodetic.eq {a f d : ℝ} {n p : V3 ℝ} {R : M3 ℝ} (ha : 0 < a) (hf : f < 1) (hR : IsRotation R) (h : Geodetic a f R n d p) :
    n ≠ 0 ∧ p = app (transp R) (posE a f (app R (dirOf n)) d) := by
  obtain ⟨S, hS, ⟨c, hc, hn⟩, rfl⟩ := h
  have hg : 0 < 1 - f := by linarith
  obtain ⟨Q, hQ⟩ : ∃ Q, Q = app R S := ⟨_, rfl⟩
  rw [← hQ] at hS hn
  have hn0 : n ≠ 0 := by
    rintro rfl
    have h0 : app R 0 = 0 := by unfold app dot; ext <;> simp
    rw [h0] at hn
    have hx := congrArg V3.x hn
    have hy := congrArg V3.y hn
    have hz := congrArg V3.z hn
    simp only [zero_x, zero_y, zero_z, smul_x, smul_y, smul_z, gradEllipsoid] at hx hy hz
    have x0 : Q.x = 0 := by
      rcases mul_eq_zero.1 hx.symm with h | h
      · linarith
      · rcases div_eq_zero_iff.1 h with h | h
        · exact h
        · exact absurd h (by positivity)
    have y0 : Q.y = 0 := by
      rcases mul_eq_zero.1 hy.symm with h | h
      · linarith
      · rcases div_eq_zero_iff.1 h with h | h
        · exact h
        · exact absurd h (by positivity)
    have z0 : Q.z = 0 := by
      rcases mul_eq_zero.1 hz.symm with h | h
      · linarith
      · rcases div_eq_zero_iff.1 h with h | h
        · exact h
        · exact absurd h (by positivity)
    unfold OnEllipsoid at hS
    rw [x0, y0, z0] at hS
    norm_num at hS
  refine ⟨hn0, ?_⟩
  have hl := len_pos hn0
  obtain ⟨k, hk⟩ : ∃ k, k = (len n)⁻¹ * c := ⟨_, rfl⟩
  have k0 : 0 < k := by rw [hk]; positivity
  have hm : app R (dirOf n) = k • gradEllipsoid a f Q := by
    have : dirOf n = (len n)⁻¹ • n := rfl
    rw [this, app_smul, hn, hk]
    ext <;> simp <;> ring
  have hD : Dell f (app R (dirOf n)) = k / a := by
    unfold Dell
    rw [hm]
    simp only [gradEllipsoid, smul_x, smul_y, smul_z]
    unfold OnEllipsoid at hS
    have : (1 - f) ^ 2 * (k * (Q.x / (a * (1 - f)) ^ 2)) ^ 2 + (k * (Q.y / a ^ 2)) ^ 2 + (k * (Q.z / a ^ 2)) ^ 2 =
        (k / a) ^ 2 * ((Q.x / (a * (1 - f))) ^ 2 + (Q.y / a) ^ 2 + (Q.z / a) ^ 2) := by field_simp
    rw [this, hS, mul_one, Real.sqrt_sq (by positivity)]
  have hS0 : posE a f (app R (dirOf n)) 0 = Q := by
    unfold posE
    rw [hD, hm]
    ext <;> simp [gradEllipsoid] <;> field_simp
  rw [posE_eq, hS0, app_sub, hQ, hR.trans_app, app_smul, hR.trans_app]
  rfl

/-- … and every normal and depth give a point -/
theorem geodetic_posE {a f d : ℝ} {n : V3 ℝ} {R : M3 ℝ} (ha : 0 < a) (hf : f < 1) (hR : IsRotation R) (hn0 : n ≠ 0) :
    Geodetic a f R n d (app (transp R) (posE a f (app R (dirOf n)) d)) := by
  have hg : 0 < 1 - f := by linarith
  have hmu : UnitVec (app R (dirOf n)) := unitVec_app hR (dirOf_unit hn0)
  have hl := len_pos hn0
  refine ⟨app (transp R) (posE a f (app R (dirOf n)) 0), ?_, ?_, ?_⟩
  · rw [hR.app_trans]
    have hD := Dell_pos hf hmu.ne
    have hD2 := Dell_sq f (app R (dirOf n))
    generalize app R (dirOf n) = m at *
    unfold OnEllipsoid posE
    simp only [sub_zero]
    have : (a / Dell f m * (1 - f) ^ 2 * m.x / (a * (1 - f))) ^ 2 + (a / Dell f m * m.y / a) ^ 2 +
        (a / Dell f m * m.z / a) ^ 2 = ((1 - f) ^ 2 * m.x ^ 2 + m.y ^ 2 + m.z ^ 2) / Dell f m ^ 2 := by
      field_simp
    rw [this, ← hD2]; field_simp
  · rw [hR.app_trans]
    have hn' : app R n = len n • app R (dirOf n) := by rw [← app_smul, smul_dirOf]
    rw [hn']
    have hD := Dell_pos hf hmu.ne
    generalize app R (dirOf n) = m at *
    refine ⟨len n * (a * Dell f m), by positivity, ?_⟩
    unfold gradEllipsoid posE
    ext
    · simp only [smul_x, sub_zero]; field_simp
    · simp only [smul_y, sub_zero]; field_simp
    · simp only [smul_z, sub_zero]; field_simp
  · rw [posE_eq, app_sub, app_smul, hR.trans_app]
    rfl

end

end Nv
