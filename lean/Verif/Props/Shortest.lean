import Verif.Props.Stability
import Mathlib.Topology.UniformSpace.HeineCantor
import Mathlib.Topology.MetricSpace.ProperSpace.Real

/-!
# C129: the great circle distance and the shortest way over the ellipsoid

Lengths of paths are defined as suprema of the lengths of inscribed polygons, so that nothing depends on a theory of geodesics.
-/

namespace Nv
open Spec Real
open XR (fin)

namespace Spec

/-- a path from `p` to `q`, at the depth `d` all the way (`d = 0`: over the surface of the ellipsoid) -/
structure LevelPath (a f : ℝ) (R : M3 ℝ) (d : ℝ) (p q : V3 ℝ) (γ : ℝ → V3 ℝ) : Prop where
  cx : ContinuousOn (fun t => (γ t).x) (Set.Icc 0 1)
  cy : ContinuousOn (fun t => (γ t).y) (Set.Icc 0 1)
  cz : ContinuousOn (fun t => (γ t).z) (Set.Icc 0 1)
  start : γ 0 = p
  finish : γ 1 = q
  level : ∀ t, 0 ≤ t → t ≤ 1 → ∃ n, Geodetic a f R n d (γ t)

/-- no inscribed polygon of the path is longer than `L` -/
def LengthAtMost (γ : ℝ → V3 ℝ) (L : ℝ) : Prop :=
  ∀ (N : ℕ) (u : ℕ → ℝ), Monotone u → (∀ i, 0 ≤ u i ∧ u i ≤ 1) → ∑ i ∈ Finset.range N, len (γ (u (i + 1)) - γ (u i)) ≤ L

/-- `L` is the length of the shortest path at the depth `d` from `p` to `q` -/
def IsShortest (a f : ℝ) (R : M3 ℝ) (d : ℝ) (p q : V3 ℝ) (L : ℝ) : Prop :=
  (∃ γ, LevelPath a f R d p q γ ∧ LengthAtMost γ L) ∧ ∀ γ L', LevelPath a f R d p q γ → LengthAtMost γ L' → L ≤ L'

end Spec

theorem len_le_abs (v : V3 ℝ) : len v ≤ |v.x| + |v.y| + |v.z| := by
  apply Real.sqrt_le_iff.mpr
  refine ⟨by positivity, ?_⟩
  have h1 := abs_nonneg v.x; have h2 := abs_nonneg v.y; have h3 := abs_nonneg v.z
  have e1 := sq_abs v.x; have e2 := sq_abs v.y; have e3 := sq_abs v.z
  have m1 := mul_nonneg h1 h2; have m2 := mul_nonneg h1 h3; have m3 := mul_nonneg h2 h3
  nlinarith

/-- an angle is little more than its chord -/
theorem angle_chord {v w : V3 ℝ} (hv : UnitVec v) (hw : UnitVec w) : angle v w * (1 - len (w - v) / 2) ≤ len (w - v) := by
  rw [len_sub_eq hv hw]
  have h0 := angle_nonneg v w
  have hp := angle_le_pi v w
  generalize angle v w = θ at *
  have hs0 : 0 ≤ sin (θ / 2) := Real.sin_nonneg_of_nonneg_of_le_pi (by linarith) (by linarith)
  have hc0 : 0 ≤ cos (θ / 2) := Real.cos_nonneg_of_neg_pi_div_two_le_of_le (by linarith) (by linarith)
  have hs1 := Real.sin_le_one (θ / 2)
  have hsc := Real.sin_sq_add_cos_sq (θ / 2)
  have hc : 1 - sin (θ / 2) ≤ cos (θ / 2) := by
    apply le_of_sq_le_sq _ hc0
    nlinarith
  have ht : θ / 2 * cos (θ / 2) ≤ sin (θ / 2) := by
    rcases eq_or_lt_of_le hp with h | h
    · rw [h, Real.cos_pi_div_two, Real.sin_pi_div_two]; norm_num
    · have hcp : 0 < cos (θ / 2) := Real.cos_pos_of_mem_Ioo ⟨by linarith, by linarith⟩
      have := Real.le_tan (show 0 ≤ θ / 2 by linarith) (show θ / 2 < π / 2 by linarith)
      rwa [Real.tan_eq_sin_div_cos, le_div_iff₀ hcp] at this
  have := mul_le_mul_of_nonneg_left hc h0
  nlinarith

/-- a path whose normals turn no faster than it moves is at least as long as the angle between the normals at its ends -/
theorem path_ge_angle {γ m : ℝ → V3 ℝ} {k L : ℝ} (hk : 0 < k) (cx : ContinuousOn (fun t => (γ t).x) (Set.Icc 0 1))
    (cy : ContinuousOn (fun t => (γ t).y) (Set.Icc 0 1)) (cz : ContinuousOn (fun t => (γ t).z) (Set.Icc 0 1))
    (hm : ∀ t, 0 ≤ t → t ≤ 1 → UnitVec (m t))
    (hl : ∀ s t, 0 ≤ s → s ≤ 1 → 0 ≤ t → t ≤ 1 → k * len (m t - m s) ≤ len (γ t - γ s)) (hL : LengthAtMost γ L) :
    k * angle (m 0) (m 1) ≤ L := by
  have hθ := angle_nonneg (m 0) (m 1)
  -- fine polygons
  have key : ∀ ε, 0 < ε → ε ≤ 1 → k * angle (m 0) (m 1) * (1 - ε / 2) ≤ L := by
    intro ε e0 e1
    have un : ∀ g : ℝ → ℝ, ContinuousOn g (Set.Icc 0 1) → ∃ δ > 0, ∀ s t, 0 ≤ s → s ≤ 1 → 0 ≤ t → t ≤ 1 → |s - t| < δ → |g s - g t| < k * ε / 3 := by
      intro g hg
      obtain ⟨δ, d0, h⟩ := Metric.uniformContinuousOn_iff.mp (isCompact_Icc.uniformContinuousOn_of_continuous hg) (k * ε / 3) (by positivity)
      exact ⟨δ, d0, fun s t s0 s1 t0 t1 hst => h s ⟨s0, s1⟩ t ⟨t0, t1⟩ hst⟩
    obtain ⟨δ1, p1, h1⟩ := un _ cx
    obtain ⟨δ2, p2, h2⟩ := un _ cy
    obtain ⟨δ3, p3, h3⟩ := un _ cz
    obtain ⟨n, hn⟩ := exists_nat_one_div_lt (lt_min p1 (lt_min p2 p3))
    obtain ⟨u, hu⟩ : ∃ u : ℕ → ℝ, u = fun i : ℕ => min ((i : ℝ) / (n + 1)) 1 := ⟨_, rfl⟩
    have hn0 : (0 : ℝ) < n + 1 := by positivity
    have hu01 : ∀ i, 0 ≤ u i ∧ u i ≤ 1 := by
      intro i; rw [hu]; exact ⟨le_min (by positivity) (by norm_num), min_le_right _ _⟩
    have hmono : Monotone u := by
      intro i j hij
      rw [hu]
      exact min_le_min_right _ (div_le_div_of_nonneg_right (by exact_mod_cast hij) hn0.le)
    have hstep : ∀ i, |u (i + 1) - u i| < min δ1 (min δ2 δ3) := by
      intro i
      refine lt_of_le_of_lt ?_ hn
      rw [hu]
      simp only [Nat.cast_add, Nat.cast_one]
      refine (abs_min_sub_min_le_max _ _ _ _).trans ?_
      rw [sub_self, abs_zero, show ((i : ℝ) + 1) / (n + 1) - i / (n + 1) = 1 / (n + 1) by ring, abs_of_pos (by positivity)]
      exact max_le le_rfl (by positivity)
    have hchord : ∀ i, len (m (u (i + 1)) - m (u i)) ≤ ε := by
      intro i
      obtain ⟨a0, a1⟩ := hu01 i
      obtain ⟨b0, b1⟩ := hu01 (i + 1)
      have hs := hstep i
      rw [lt_min_iff, lt_min_iff] at hs
      have q1 := h1 _ _ b0 b1 a0 a1 hs.1
      have q2 := h2 _ _ b0 b1 a0 a1 hs.2.1
      have q3 := h3 _ _ b0 b1 a0 a1 hs.2.2
      have q := len_le_abs (γ (u (i + 1)) - γ (u i))
      simp only [sub_x, sub_y, sub_z] at q
      have := hl _ _ a0 a1 b0 b1
      have : k * len (m (u (i + 1)) - m (u i)) ≤ k * ε := by linarith
      exact le_of_mul_le_mul_left this hk
    have hsum : ∀ j : ℕ, k * angle (m (u 0)) (m (u j)) * (1 - ε / 2) ≤ ∑ i ∈ Finset.range j, len (γ (u (i + 1)) - γ (u i)) := by
      intro j
      induction j with
      | zero =>
        have := angle_self (hm _ (hu01 0).1 (hu01 0).2).ne
        rw [this]; simp
      | succ j ih =>
        rw [Finset.sum_range_succ]
        obtain ⟨a0, a1⟩ := hu01 j
        obtain ⟨b0, b1⟩ := hu01 (j + 1)
        have t := angle_triangle (hm _ (hu01 0).1 (hu01 0).2) (hm _ a0 a1) (hm _ b0 b1)
        have c := angle_chord (hm _ a0 a1) (hm _ b0 b1)
        have c' := hchord j
        have l := hl _ _ a0 a1 b0 b1
        have an := angle_nonneg (m (u j)) (m (u (j + 1)))
        have s1 : angle (m (u j)) (m (u (j + 1))) * (1 - ε / 2) ≤ len (m (u (j + 1)) - m (u j)) :=
          (mul_le_mul_of_nonneg_left (by linarith) an).trans c
        have s2 := mul_le_mul_of_nonneg_left s1 hk.le
        have s3 := mul_le_mul_of_nonneg_left t (mul_nonneg hk.le (show 0 ≤ 1 - ε / 2 by linarith))
        nlinarith
    have h := (hsum (n + 1)).trans (hL (n + 1) u hmono hu01)
    have e0' : u 0 = 0 := by rw [hu]; simp
    have e1' : u (n + 1) = 1 := by
      rw [hu]
      simp only [Nat.cast_add, Nat.cast_one]
      rw [div_self hn0.ne', min_self]
    rwa [e0', e1'] at h
  apply le_of_forall_pos_le_add
  intro e e0
  have hkθ : 0 ≤ k * angle (m 0) (m 1) := by positivity
  generalize k * angle (m 0) (m 1) = x at *
  have hx : 0 < x + 1 := by linarith
  have h := key (min 1 (e / (x + 1))) (lt_min (by norm_num) (by positivity)) (min_le_left _ _)
  have h2 : x * min 1 (e / (x + 1)) ≤ e := by
    have : x * min 1 (e / (x + 1)) ≤ x * (e / (x + 1)) := mul_le_mul_of_nonneg_left (min_le_right _ _) hkθ
    refine this.trans ?_
    rw [mul_div_assoc', div_le_iff₀ hx]; nlinarith
  nlinarith

/-- a unit vector perpendicular to a given one -/
theorem exists_perp {A : V3 ℝ} (hA : UnitVec A) : ∃ T, UnitVec T ∧ dot A T = 0 := by
  by_cases h : cross ⟨1, 0, 0⟩ A = 0
  · refine ⟨⟨0, 1, 0⟩, by simp [UnitVec], ?_⟩
    have := congrArg V3.z h
    simp [cross] at this
    simp [dot, this]
  · exact ⟨_, dirOf_unit h, by rw [dot_dirOf_right, dot_cross_self_right, mul_zero]⟩

/-- the direction in which the great circle leaves -/
theorem exists_tangent {A B : V3 ℝ} (hA : UnitVec A) (hB : UnitVec B) :
    ∃ T, UnitVec T ∧ dot A T = 0 ∧ B = cos (angle A B) • A + sin (angle A B) • T := by
  have hc := cos_angle_unit hA hB
  generalize angle A B = θ at *
  have hsc := Real.sin_sq_add_cos_sq θ
  have hA2 := hA
  have hB2 := hB
  unfold UnitVec at hA2 hB2
  unfold dot at hc
  by_cases hs : sin θ = 0
  · obtain ⟨T, hT, hp⟩ := exists_perp hA
    refine ⟨T, hT, hp, ?_⟩
    rw [hs] at hsc ⊢
    have h : (B.x - cos θ * A.x) ^ 2 + (B.y - cos θ * A.y) ^ 2 + (B.z - cos θ * A.z) ^ 2 = 0 := by
      linear_combination hB2 + 2 * cos θ * hc + cos θ ^ 2 * hA2 - hsc
    have x0 := sq_nonneg (B.x - cos θ * A.x); have y0 := sq_nonneg (B.y - cos θ * A.y); have z0 := sq_nonneg (B.z - cos θ * A.z)
    have hx : B.x - cos θ * A.x = 0 := pow_eq_zero_iff two_ne_zero |>.mp (by linarith)
    have hy : B.y - cos θ * A.y = 0 := pow_eq_zero_iff two_ne_zero |>.mp (by linarith)
    have hz : B.z - cos θ * A.z = 0 := pow_eq_zero_iff two_ne_zero |>.mp (by linarith)
    ext <;> simp <;> linarith
  · refine ⟨(sin θ)⁻¹ • (B - cos θ • A), ?_, ?_, ?_⟩
    · unfold UnitVec
      simp only [smul_x, smul_y, smul_z, sub_x, sub_y, sub_z]
      field_simp
      linear_combination hB2 + 2 * cos θ * hc + cos θ ^ 2 * hA2 - hsc
    · unfold dot
      simp only [smul_x, smul_y, smul_z, sub_x, sub_y, sub_z]
      linear_combination (sin θ)⁻¹ * (-hc - cos θ * hA2)
    · ext
      · simp only [add_x, smul_x, sub_x]; field_simp; ring
      · simp only [add_y, smul_y, sub_y]; field_simp; ring
      · simp only [add_z, smul_z, sub_z]; field_simp; ring

section
variable {a f : ℝ} (ha : 0 < a) (hf0 : 0 ≤ f) (hf : f < 1) {R : M3 ℝ} (hR : IsRotation R)
include ha hf0 hf hR

/-- the unit normal at a point of given depth -/
theorem geodetic_unit {d : ℝ} {p : V3 ℝ} (h : ∃ n, Geodetic a f R n d p) : ∃ m, UnitVec m ∧ p = app (transp R) (posE a f m d) := by
  obtain ⟨n, hn⟩ := h
  obtain ⟨h0, e⟩ := hn.eq ha hf hR
  exact ⟨_, unitVec_app hR (dirOf_unit h0), e⟩

/-- every path at the depth `d` is at least as long as `(a(1-f)² - d)` times the angle between the normals at its ends -/
theorem level_path_ge {d L : ℝ} (hd : d < a * (1 - f) ^ 2) {A B p q : V3 ℝ} (hA : UnitVec A) (hB : UnitVec B)
    (hp : p = app (transp R) (posE a f (app R A) d)) (hq : q = app (transp R) (posE a f (app R B) d)) {γ : ℝ → V3 ℝ}
    (hγ : LevelPath a f R d p q γ) (hL : LengthAtMost γ L) : (a * (1 - f) ^ 2 - d) * angle A B ≤ L := by
  have hk : 0 < a * (1 - f) ^ 2 - d := by linarith
  have inj : ∀ m m' : V3 ℝ, UnitVec m → UnitVec m' → (a * (1 - f) ^ 2 - d) * len (m' - m) ≤
      len (app (transp R) (posE a f m' d) - app (transp R) (posE a f m d)) := by
    intro m m' h h'
    have := normal_close (a := a) (f := f) (d := d) (d' := d) ha hf0 hf h h'
    rw [← app_sub, len_app hR.transpose]
    rwa [show (d + d) / 2 = d by ring] at this
  have ex : ∀ t : ℝ, ∃ m, 0 ≤ t → t ≤ 1 → UnitVec m ∧ γ t = app (transp R) (posE a f m d) := by
    intro t
    by_cases h : 0 ≤ t ∧ t ≤ 1
    · obtain ⟨m, h1, h2⟩ := geodetic_unit ha hf0 hf hR (hγ.level t h.1 h.2)
      exact ⟨m, fun _ _ => ⟨h1, h2⟩⟩
    · exact ⟨0, fun h0 h1 => absurd ⟨h0, h1⟩ h⟩
  choose m hm using ex
  have huniq : ∀ m m' : V3 ℝ, UnitVec m → UnitVec m' → app (transp R) (posE a f m d) = app (transp R) (posE a f m' d) → m' = m := by
    intro m m' h h' e
    have := inj m m' h h'
    rw [e, show app (transp R) (posE a f m' d) - app (transp R) (posE a f m' d) = 0 by ext <;> simp,
      show len (0 : V3 ℝ) = 0 from len_eq_zero.mpr rfl] at this
    have h0 : len (m' - m) = 0 := le_antisymm (by_contra fun hh => by
      push Not at hh; nlinarith) (len_nonneg _)
    have := len_eq_zero.mp h0
    have hx := congrArg V3.x this; have hy := congrArg V3.y this; have hz := congrArg V3.z this
    simp at hx hy hz
    ext <;> linarith
  have e0 : m 0 = app R A := by
    obtain ⟨u, e⟩ := hm 0 le_rfl zero_le_one
    rw [hγ.start, hp] at e
    exact huniq _ _ (unitVec_app hR hA) u e
  have e1 : m 1 = app R B := by
    obtain ⟨u, e⟩ := hm 1 zero_le_one le_rfl
    rw [hγ.finish, hq] at e
    exact huniq _ _ (unitVec_app hR hB) u e
  have h := path_ge_angle hk hγ.cx hγ.cy hγ.cz (m := m) (fun t h0 h1 => (hm t h0 h1).1) (fun s t s0 s1 t0 t1 => by
    rw [(hm t t0 t1).2, (hm s s0 s1).2]; exact inj _ _ (hm s s0 s1).1 (hm t t0 t1).1) hL
  rwa [e0, e1, angle_app hR] at h

/-- there is a path at the depth `d <= 0` that is no longer than `a/(1-f) - d` times the angle -/
theorem level_path_le {d : ℝ} (hd : d ≤ 0) {A B p q : V3 ℝ} (hA : UnitVec A) (hB : UnitVec B)
    (hp : p = app (transp R) (posE a f (app R A) d)) (hq : q = app (transp R) (posE a f (app R B) d)) :
    ∃ γ, LevelPath a f R d p q γ ∧ LengthAtMost γ ((a / (1 - f) - d) * angle A B) := by
  obtain ⟨T, hT, hAT, hBT⟩ := exists_tangent (unitVec_app hR hA) (unitVec_app hR hB)
  rw [angle_app hR] at hBT
  have hθ := angle_nonneg A B
  generalize angle A B = θ at *
  have hA' := unitVec_app hR hA
  generalize app R A = A' at *
  obtain ⟨m, hm⟩ : ∃ m : ℝ → V3 ℝ, m = fun t => cos (t * θ) • A' + sin (t * θ) • T := ⟨_, rfl⟩
  have hmu : ∀ t, UnitVec (m t) := by
    intro t
    have h1 := hA'; have h2 := hT; have h3 := hAT
    unfold UnitVec at h1 h2 ⊢
    unfold dot at h3
    have hsc := Real.sin_sq_add_cos_sq (t * θ)
    rw [hm]
    simp only [add_x, add_y, add_z, smul_x, smul_y, smul_z]
    linear_combination cos (t * θ) ^ 2 * h1 + sin (t * θ) ^ 2 * h2 + 2 * sin (t * θ) * cos (t * θ) * h3 + hsc
  have hml : ∀ s t, len (m t - m s) ≤ θ * |t - s| := by
    intro s t
    apply Real.sqrt_le_iff.mpr
    refine ⟨by positivity, ?_⟩
    rw [mul_pow, sq_abs]
    have h1 := hA'; have h2 := hT; have h3 := hAT
    unfold UnitVec at h1 h2
    unfold dot at h3
    have hsc := Real.sin_sq_add_cos_sq (t * θ)
    have hsc' := Real.sin_sq_add_cos_sq (s * θ)
    have hcs := Real.cos_sub (t * θ) (s * θ)
    have hle := Real.one_sub_sq_div_two_le_cos (x := t * θ - s * θ)
    have e : (m t - m s).x ^ 2 + (m t - m s).y ^ 2 + (m t - m s).z ^ 2 = 2 - 2 * cos (t * θ - s * θ) := by
      rw [hm, hcs]
      simp only [add_x, add_y, add_z, smul_x, smul_y, smul_z, sub_x, sub_y, sub_z]
      linear_combination (cos (t * θ) - cos (s * θ)) ^ 2 * h1 + (sin (t * θ) - sin (s * θ)) ^ 2 * h2 +
        2 * (sin (t * θ) - sin (s * θ)) * (cos (t * θ) - cos (s * θ)) * h3 + hsc + hsc'
    rw [e]
    nlinarith
  have hg : 0 < 1 - f := by linarith
  have hK : 0 ≤ a / (1 - f) - d := by have : 0 < a / (1 - f) := by positivity
                                      linarith
  have hlip : ∀ s t, len (app (transp R) (posE a f (m t) d) - app (transp R) (posE a f (m s) d)) ≤ (a / (1 - f) - d) * θ * |t - s| := by
    intro s t
    have := pos_close (a := a) (f := f) (d := d) (d' := d) ha hf0 hf (hmu s) (hmu t)
    rw [sub_self, abs_zero, add_zero, abs_of_nonpos hd, ← sub_eq_add_neg] at this
    rw [← app_sub, len_app hR.transpose, mul_assoc]
    exact this.trans (mul_le_mul_of_nonneg_left (hml s t) hK)
  have comp : ∀ g : V3 ℝ → ℝ, (∀ v w, |g v - g w| ≤ len (v - w)) →
      ContinuousOn (fun t => g (app (transp R) (posE a f (m t) d))) (Set.Icc 0 1) := by
    intro g hg'
    apply Continuous.continuousOn
    apply LipschitzWith.continuous (K := Real.toNNReal ((a / (1 - f) - d) * θ))
    apply LipschitzWith.of_dist_le_mul
    intro x y
    rw [Real.dist_eq, Real.dist_eq, Real.coe_toNNReal _ (by positivity)]
    exact (hg' _ _).trans (hlip y x)
  refine ⟨fun t => app (transp R) (posE a f (m t) d), ⟨?_, ?_, ?_, ?_, ?_, ?_⟩, ?_⟩
  · exact comp V3.x (fun v w => Real.abs_le_sqrt (by simp only [sub_x]; nlinarith [sq_nonneg (v - w).y, sq_nonneg (v - w).z]))
  · exact comp V3.y (fun v w => Real.abs_le_sqrt (by simp only [sub_y]; nlinarith [sq_nonneg (v - w).x, sq_nonneg (v - w).z]))
  · exact comp V3.z (fun v w => Real.abs_le_sqrt (by simp only [sub_z]; nlinarith [sq_nonneg (v - w).x, sq_nonneg (v - w).y]))
  · simp only [hp, hm, zero_mul, Real.cos_zero, Real.sin_zero]
    congr 2; ext <;> simp
  · simp only [hq, hm, one_mul, hBT]
  · intro t _ _
    refine ⟨app (transp R) (m t), ?_⟩
    have h := geodetic_posE (d := d) (n := app (transp R) (m t)) ha hf hR (unitVec_app hR.transpose (hmu t)).ne
    rwa [dirOf_of_unit (unitVec_app hR.transpose (hmu t)), hR.app_trans] at h
  · intro N u hu h01
    have tel : ∀ j : ℕ, ∑ i ∈ Finset.range j, len (app (transp R) (posE a f (m (u (i + 1))) d) - app (transp R) (posE a f (m (u i)) d)) ≤
        (a / (1 - f) - d) * θ * (u j - u 0) := by
      intro j
      induction j with
      | zero => simp
      | succ j ih =>
        rw [Finset.sum_range_succ]
        have h := hlip (u j) (u (j + 1))
        rw [abs_of_nonneg (by linarith [hu (Nat.le_succ j)])] at h
        linarith
    refine (tel N).trans ?_
    have h1 := (h01 N).2
    have h0 := (h01 0).1
    have : 0 ≤ (a / (1 - f) - d) * θ := by positivity
    nlinarith

/-- the distance of a point of depth `d <= 0` from the centre lies between those above a pole and above the equator -/
theorem len_pos_bounds {d : ℝ} (hd : d ≤ 0) {m : V3 ℝ} (hm : UnitVec m) :
    a * (1 - f) - d ≤ len (app (transp R) (posE a f m d)) ∧ len (app (transp R) (posE a f m d)) ≤ a - d := by
  rw [len_app hR.transpose]
  have hD := Dell_pos hf hm.ne
  have hb := Dell_ge hf0 hf hm
  have hD2 := Dell_sq f m
  have hl : len m = 1 := hm.len
  constructor
  · have h := dot_le_len_mul (posE a f m d) m
    rw [hl, mul_one] at h
    have e : dot (posE a f m d) m = a * Dell f m - d := by
      have h1 := dot_surf (a := a) hf hm m
      rw [ellB_self] at h1
      have h2 : dot (posE a f m d) m = dot (posE a f m 0) m - d := by
        have := hm
        unfold UnitVec at this
        rw [posE_eq]; unfold dot; simp only [sub_x, sub_y, sub_z, smul_x, smul_y, smul_z]
        linear_combination -d * this
      rw [h2, h1]; field_simp
    rw [e] at h
    nlinarith
  · rw [posE_eq]
    have h0 : len (posE a f m 0) ≤ a := by
      apply Real.sqrt_le_iff.mpr
      refine ⟨ha.le, ?_⟩
      unfold posE
      simp only [sub_zero]
      have e : (a / Dell f m * (1 - f) ^ 2 * m.x) ^ 2 + (a / Dell f m * m.y) ^ 2 + (a / Dell f m * m.z) ^ 2 =
          a ^ 2 * ((1 - f) ^ 2 * ((1 - f) ^ 2 * m.x ^ 2) + m.y ^ 2 + m.z ^ 2) / Dell f m ^ 2 := by field_simp
      rw [e, div_le_iff₀ (by positivity), hD2]
      apply mul_le_mul_of_nonneg_left _ (sq_nonneg a)
      have h1 : (1 - f) ^ 2 ≤ 1 := by nlinarith
      have h2 : 0 ≤ (1 - f) ^ 2 * m.x ^ 2 := by positivity
      nlinarith
    have h1 := len_add_le (posE a f m 0) ((-d) • m)
    rw [len_smul, hl, mul_one, abs_of_nonneg (by linarith)] at h1
    rw [show posE a f m 0 - d • m = posE a f m 0 + (-d) • m by ext <;> simp <;> ring]
    linarith

/-- with any radius between the polar and the equatorial one, both raised by the height `-d` -/
theorem arc_within {d r : ℝ} (hd : d ≤ 0) (hr0 : a * (1 - f) - d ≤ r) (hr1 : r ≤ a - d) {A B p q : V3 ℝ} (hA : UnitVec A)
    (hB : UnitVec B) (hp : p = app (transp R) (posE a f (app R A) d)) (hq : q = app (transp R) (posE a f (app R B) d)) :
    (∀ γ L, LevelPath a f R d p q γ → LengthAtMost γ L → (1 - f) ^ 2 * (angle A B * r) ≤ L) ∧
    ∃ γ, LevelPath a f R d p q γ ∧ LengthAtMost γ (angle A B * r / (1 - f) ^ 2) := by
  have hg : 0 < 1 - f := by linarith
  have hg2 : (1 - f) ^ 2 ≤ 1 := by nlinarith
  have hg2' : 0 < (1 - f) ^ 2 := by positivity
  have hθ := angle_nonneg A B
  constructor
  · intro γ L hγ hL
    have h := level_path_ge ha hf0 hf hR (d := d) (by nlinarith [mul_pos ha hg2']) hA hB hp hq hγ hL
    refine le_trans ?_ h
    have h1 : (1 - f) ^ 2 * r ≤ a * (1 - f) ^ 2 - d := by nlinarith
    calc (1 - f) ^ 2 * (angle A B * r) = (1 - f) ^ 2 * r * angle A B := by ring
      _ ≤ _ := mul_le_mul_of_nonneg_right h1 hθ
  · obtain ⟨γ, h1, h2⟩ := level_path_le ha hf0 hf hR hd hA hB hp hq
    refine ⟨γ, h1, fun N u hu h01 => (h2 N u hu h01).trans ?_⟩
    rw [le_div_iff₀ hg2']
    have e : (a / (1 - f) - d) * (1 - f) ^ 2 ≤ r := by
      have : (a / (1 - f) - d) * (1 - f) ^ 2 = a * (1 - f) - d * (1 - f) ^ 2 := by field_simp
      rw [this]; nlinarith
    calc (a / (1 - f) - d) * angle A B * (1 - f) ^ 2 = (a / (1 - f) - d) * (1 - f) ^ 2 * angle A B := by ring
      _ ≤ r * angle A B := mul_le_mul_of_nonneg_right e hθ
      _ = angle A B * r := mul_comm _ _

/-- **C129** `great_circle_distance` with any radius: the ratio of the lengths of the paths at the height `-d` to the result lies
between those of the smallest and the largest radius of curvature, raised by the height, to the radius -/
theorem C129_any_radius (d r : ℝ) (hd : d ≤ 0) (hr : 0 < r) (A B : V3 ℝ) (hA : UnitVec A) (hB : UnitVec B) :
    ∃ x p q, great_circle_distance A.fin B.fin (fin r) = fin x ∧
      n_EB_E2p_EB_E A.fin (fin d) (fin a) (fin f) R.fin = p.fin ∧ n_EB_E2p_EB_E B.fin (fin d) (fin a) (fin f) R.fin = q.fin ∧
      (∀ γ L, LevelPath a f R d p q γ → LengthAtMost γ L → (a * (1 - f) ^ 2 - d) / r * x ≤ L) ∧
      ∃ γ, LevelPath a f R d p q γ ∧ LengthAtMost γ ((a / (1 - f) - d) / r * x) := by
  refine ⟨_, _, _, C18_eq_angle A B hA.ne hB.ne r, n2p_fin hA.ne d a f hf hR, n2p_fin hB.ne d a f hf hR, ?_, ?_⟩
  all_goals rw [dirOf_of_unit hA, dirOf_of_unit hB]
  · intro γ L hγ hL
    have hg : 0 < 1 - f := by linarith
    have h := level_path_ge ha hf0 hf hR (d := d) (by have := mul_pos ha (pow_pos hg 2); linarith) hA hB rfl rfl hγ hL
    have e : (a * (1 - f) ^ 2 - d) / r * (angle A B * r) = (a * (1 - f) ^ 2 - d) * angle A B := by field_simp
    rwa [e]
  · have e : (a / (1 - f) - d) / r * (angle A B * r) = (a / (1 - f) - d) * angle A B := by field_simp
    rw [e]
    exact level_path_le ha hf0 hf hR hd hA hB rfl rfl

/-- **C129** `great_circle_distance` with any radius between the polar and the equatorial one (both raised by the height, if the two
positions are at the same height above the ellipsoid): every path between the two positions at that height is at least `(1 - f)²` times
as long, and some path is at most `(1 - f)⁻²` times as long -/
theorem C129_core (d r : ℝ) (hd : d ≤ 0) (hr0 : a * (1 - f) - d ≤ r) (hr1 : r ≤ a - d) (A B : V3 ℝ) (hA : UnitVec A) (hB : UnitVec B) :
    ∃ x p q, great_circle_distance A.fin B.fin (fin r) = fin x ∧
      n_EB_E2p_EB_E A.fin (fin d) (fin a) (fin f) R.fin = p.fin ∧ n_EB_E2p_EB_E B.fin (fin d) (fin a) (fin f) R.fin = q.fin ∧
      (∀ γ L, LevelPath a f R d p q γ → LengthAtMost γ L → (1 - f) ^ 2 * x ≤ L) ∧
      ∃ γ, LevelPath a f R d p q γ ∧ LengthAtMost γ (x / (1 - f) ^ 2) := by
  refine ⟨_, _, _, C18_eq_angle A B hA.ne hB.ne r, n2p_fin hA.ne d a f hf hR, n2p_fin hB.ne d a f hf hR, ?_⟩
  rw [dirOf_of_unit hA, dirOf_of_unit hB]
  exact arc_within ha hf0 hf hR hd hr0 hr1 hA hB rfl rfl

/-- the same for the path object between two `GeoPoint`s at the same height, whose radius is by default the mean of the distances of the
two positions from the centre -/
theorem C129_track_distance (G : Geodesic XR) (name : EllKey) (lat1 lon1 lat2 lon2 d : ℝ) (hd : d ≤ 0) (m : String)
    (hx : m.toList.take 2 ≠ ['e', 'x']) (hl : m.toList.take 2 ≠ ['e', 'l']) (hu : m.toList.take 2 ≠ ['e', 'u']) :
    ∃ x p q,
      (Position.geo (.real lat1 lon1 d (.real a f name R))).to_ecef_vector = .real p (.real a f name R) ∧
      (Position.geo (.real lat2 lon2 d (.real a f name R))).to_ecef_vector = .real q (.real a f name R) ∧
      (GeoPath.mk (.geo (.real lat1 lon1 d (.real a f name R))) (.geo (.real lat2 lon2 d (.real a f name R)))).track_distance G m = .ok (fin x) ∧
      (∀ γ L, LevelPath a f R d p q γ → LengthAtMost γ L → (1 - f) ^ 2 * x ≤ L) ∧
      (∃ γ, LevelPath a f R d p q γ ∧ LengthAtMost γ (x / (1 - f) ^ 2)) := by
  obtain ⟨A, p, hAt, -⟩ := Spec.At.of_geo lat1 lon1 d a f hf name R hR
  obtain ⟨B, q, hBt, -⟩ := Spec.At.of_geo lat2 lon2 d a f hf name R hR
  have key : ∀ (lat lon : ℝ) (n p : V3 ℝ), Spec.At (.geo (.real lat lon d (.real a f name R))) n d p (.real a f name R) →
      p = app (transp R) (posE a f (app R n) d) := by
    intro lat lon n p h
    have h1 := h.ec
    have h2 : (Position.geo (.real lat lon d (.real a f name R))).to_ecef_vector =
        (Position.geo (.real lat lon d (.real a f name R))).to_nvector.to_ecef_vector := rfl
    rw [h2, h.nv] at h1
    have h3 : (Nvector.real n d (.real a f name R)).to_ecef_vector = .real (app (transp R) (posE a f (app R n) d)) (.real a f name R) := by
      unfold Nvector.to_ecef_vector Nvector.real FrameE.real ECEFvector.real
      simp only [n2p_fin h.unit.ne d a f hf hR, dirOf_of_unit h.unit]
    rw [h3] at h1
    have h4 := congrArg ECEFvector.pvector h1
    exact (V3.fin_inj.mp h4).symm
  have ep := key _ _ _ _ hAt
  have eq := key _ _ _ _ hBt
  have hbp := len_pos_bounds ha hf0 hf hR hd (unitVec_app hR hAt.unit)
  have hbq := len_pos_bounds ha hf0 hf hR hd (unitVec_app hR hBt.unit)
  rw [← ep] at hbp
  rw [← eq] at hbq
  refine ⟨_, p, q, hAt.ec, hBt.ec, ((C46_sphere G (GeoPath.mk _ _) A B p q d d _ hAt hBt m 0).2 hx hl hu).2, ?_⟩
  exact arc_within ha hf0 hf hR hd (by linarith [hbp.1, hbq.1]) (by linarith [hbp.2, hbq.2]) hAt.unit hBt.unit ep eq

/-- the two distances that `track_distance` offers between points on the ellipsoid: if geographiclib's inverse problem gives the length
of the shortest way, as it says, then `"ellipsoid"` and `"greatcircle"` differ by at most the factor `(1 - f)²` -/
theorem C129_two_methods (G : Geodesic XR) (name : EllKey) (lat1 lon1 lat2 lon2 s az1 az2 : ℝ) (p q : V3 ℝ)
    (hp : (Position.geo (.real lat1 lon1 0 (.real a f name R))).to_ecef_vector = .real p (.real a f name R))
    (hq : (Position.geo (.real lat2 lon2 0 (.real a f name R))).to_ecef_vector = .real q (.real a f name R))
    (hG : G.inverse (fin a) (fin f) (rad2deg (fin lat1)) (rad2deg (fin lon1)) (rad2deg (fin lat2)) (rad2deg (fin lon2)) false =
      .ok (fin s, fin az1, fin az2))
    (hs : IsShortest a f R 0 p q s) :
    ∃ x,
      (GeoPath.mk (.geo (.real lat1 lon1 0 (.real a f name R))) (.geo (.real lat2 lon2 0 (.real a f name R)))).track_distance G "ellipsoid" = .ok (fin s) ∧
      (GeoPath.mk (.geo (.real lat1 lon1 0 (.real a f name R))) (.geo (.real lat2 lon2 0 (.real a f name R)))).track_distance G "greatcircle" = .ok (fin x) ∧
      (1 - f) ^ 2 * x ≤ s ∧ (1 - f) ^ 2 * s ≤ x := by
  obtain ⟨x, p', q', hp', hq', ht, hge, hle⟩ := C129_track_distance ha hf0 hf hR G name lat1 lon1 lat2 lon2 0 le_rfl "greatcircle"
    (by decide) (by decide) (by decide)
  have e1 : p' = p := V3.fin_inj.mp (congrArg ECEFvector.pvector (hp'.symm.trans hp))
  have e2 : q' = q := V3.fin_inj.mp (congrArg ECEFvector.pvector (hq'.symm.trans hq))
  subst e1 e2
  refine ⟨x, ?_, ht, ?_, ?_⟩
  · rw [C46_exact G (GeoPath.mk _ _) lat1 lon1 0 lat2 lon2 0 a f name R rfl rfl "ellipsoid" (.inr (by decide)) none]
    rw [show a - (0 + 0) / 2 = a by ring, hG]; rfl
  · obtain ⟨γ, h1, h2⟩ := hs.1
    exact hge γ s h1 h2
  · obtain ⟨γ, h1, h2⟩ := hle
    have := hs.2 γ _ h1 h2
    rw [le_div_iff₀ (by have : 0 < 1 - f := by linarith
                        positivity)] at this
    linarith

end

/-- on WGS 84 the factor is less than 0.68 percent -/
theorem C129_wgs84 : 1 / (1 - (1 : ℝ) / 298.257223563) ^ 2 < 1.0068 ∧ 0.9932 < (1 - (1 : ℝ) / 298.257223563) ^ 2 := by norm_num

/-- on WGS 84, with the default radius 6371009 m of `great_circle_distance`, between two points on the ellipsoid: within 0.56 percent,
the ratios being those of the smallest and the largest radius of curvature to the default radius -/
theorem C129_default (A B : V3 ℝ) (hA : UnitVec A) (hB : UnitVec B) (R : M3 ℝ) (hR : IsRotation R) :
    ∃ x p q, great_circle_distance A.fin B.fin = fin x ∧
      n_EB_E2p_EB_E A.fin (R_Ee := R.fin) = p.fin ∧ n_EB_E2p_EB_E B.fin (R_Ee := R.fin) = q.fin ∧
      (∀ γ L, LevelPath 6378137 (1 / 298.257223563) R 0 p q γ → LengthAtMost γ L → 0.9944 * x ≤ L) ∧
      ∃ γ, LevelPath 6378137 (1 / 298.257223563) R 0 p q γ ∧ LengthAtMost γ (1.0045 * x) := by
  obtain ⟨x, p, q, h1, h2, h3, h4, h5⟩ := C129_any_radius (a := 6378137) (f := 1 / 298.257223563) (by norm_num) (by norm_num) (by norm_num) hR 0 6371009 le_rfl (by norm_num) A B hA hB
  have hx : 0 ≤ x := by
    rw [C18_eq_angle A B hA.ne hB.ne] at h1
    have := XR.fin.inj h1
    rw [← this]
    have := angle_nonneg A B
    positivity
  have a84 : (a_WGS84 : XR) = fin 6378137 := by unfold a_WGS84; norm_num [xr]
  have f84 : (f_WGS84 : XR) = fin (1 / 298.257223563) := by
    unfold f_WGS84; simp only [xr]; rw [XR.div_fin (by norm_num)]; norm_num
  have lit_zero : (lit 0 : XR) = fin 0 := by norm_num [xr]
  refine ⟨x, p, q, ?_, ?_, ?_, fun γ L hγ hL => le_trans ?_ (h4 γ L hγ hL), ?_⟩
  · rw [← h1]; congr 1
  · rw [← h2, a84, f84, lit_zero]
  · rw [← h3, a84, f84, lit_zero]
  · exact mul_le_mul_of_nonneg_right (by norm_num) hx
  · obtain ⟨γ, g1, g2⟩ := h5
    refine ⟨γ, g1, fun N u hu h01 => (g2 N u hu h01).trans ?_⟩
    exact mul_le_mul_of_nonneg_right (by norm_num) hx

/-- the hypotheses are met: ten kilometres above the WGS 84 ellipsoid, from the null point to the north pole with the default radius
raised by as much -/
example : (-10000 : ℝ) ≤ 0 ∧ (6378137 : ℝ) * (1 - 1 / 298.257223563) - -10000 ≤ 6381009 ∧ (6381009 : ℝ) ≤ 6378137 - -10000 ∧
    UnitVec ⟨0, 0, -1⟩ ∧ UnitVec ⟨1, 0, 0⟩ := by
  refine ⟨by norm_num, by norm_num, by norm_num, ?_, ?_⟩ <;> simp [UnitVec]

/-- on a sphere (`f = 0`) the great circle distance is the length of the shortest way, at every height -/
theorem C129_sphere (a d : ℝ) (ha : 0 < a) (hd : d ≤ 0) (A B : V3 ℝ) (hA : UnitVec A) (hB : UnitVec B) (R : M3 ℝ) (hR : IsRotation R) :
    ∃ x p q, great_circle_distance A.fin B.fin (fin (a - d)) = fin x ∧
      n_EB_E2p_EB_E A.fin (fin d) (fin a) (fin 0) R.fin = p.fin ∧ n_EB_E2p_EB_E B.fin (fin d) (fin a) (fin 0) R.fin = q.fin ∧
      IsShortest a 0 R d p q x := by
  obtain ⟨x, p, q, h1, h2, h3, h4, h5⟩ := C129_core (f := 0) ha le_rfl (by norm_num) hR d (a - d) hd (by linarith) le_rfl A B hA hB
  refine ⟨x, p, q, h1, h2, h3, ?_, fun γ L hγ hL => ?_⟩
  · simpa using h5
  · simpa using h4 γ L hγ hL

end Nv
