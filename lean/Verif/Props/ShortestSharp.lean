import Verif.Props.Shortest
import Mathlib.Analysis.Calculus.MeanValue
import Mathlib.Analysis.SpecialFunctions.Trigonometric.Deriv
import Mathlib.Analysis.SpecialFunctions.Sqrt

/-!
# C129: the bounds cannot be improved

Along a meridian the great circle distance of `GeoPath.track_distance` exceeds the shortest way most at the equator, and falls short of it
most at the poles.
-/

namespace Nv
open Spec Real
open XR (fin)

/-- a curve with bounded speed is no longer than that speed -/
theorem lengthAtMost_of_speed {P : ℝ → V3 ℝ} {K : ℝ} (hK : 0 ≤ K)
    (h : ∀ s t, 0 ≤ s → s ≤ 1 → 0 ≤ t → t ≤ 1 → len (P t - P s) ≤ K * |t - s|) :
    LengthAtMost P K ∧ ContinuousOn (fun t => (P t).x) (Set.Icc 0 1) ∧ ContinuousOn (fun t => (P t).y) (Set.Icc 0 1) ∧
      ContinuousOn (fun t => (P t).z) (Set.Icc 0 1) := by
  have comp : ∀ g : V3 ℝ → ℝ, (∀ v w, |g v - g w| ≤ len (v - w)) → ContinuousOn (fun t => g (P t)) (Set.Icc 0 1) := by
    intro g hg
    apply LipschitzOnWith.continuousOn (K := Real.toNNReal K)
    apply LipschitzOnWith.of_dist_le_mul
    intro x hx y hy
    rw [Real.dist_eq, Real.dist_eq, Real.coe_toNNReal _ hK]
    exact (hg _ _).trans (h y x hy.1 hy.2 hx.1 hx.2)
  refine ⟨?_, ?_, ?_, ?_⟩
  · intro N u hu h01
    have tel : ∀ j : ℕ, ∑ i ∈ Finset.range j, len (P (u (i + 1)) - P (u i)) ≤ K * (u j - u 0) := by
      intro j
      induction j with
      | zero => simp
      | succ j ih =>
        rw [Finset.sum_range_succ]
        have h := h (u j) (u (j + 1)) (h01 _).1 (h01 _).2 (h01 _).1 (h01 _).2
        rw [abs_of_nonneg (by linarith [hu (Nat.le_succ j)])] at h
        linarith
    refine (tel N).trans ?_
    have h1 := (h01 N).2
    have h0 := (h01 0).1
    nlinarith
  · exact comp V3.x (fun v w => Real.abs_le_sqrt (by simp only [sub_x]; nlinarith [sq_nonneg (v - w).y, sq_nonneg (v - w).z]))
  · exact comp V3.y (fun v w => Real.abs_le_sqrt (by simp only [sub_y]; nlinarith [sq_nonneg (v - w).x, sq_nonneg (v - w).z]))
  · exact comp V3.z (fun v w => Real.abs_le_sqrt (by simp only [sub_z]; nlinarith [sq_nonneg (v - w).x, sq_nonneg (v - w).y]))

section
variable {a f : ℝ} (ha : 0 < a) (hf0 : 0 ≤ f) (hf : f < 1)

theorem Dell_geoNormal (f φ : ℝ) : Dell f (geoNormal φ 0) = √((1 - f) ^ 2 * sin φ ^ 2 + cos φ ^ 2) := by
  unfold Dell geoNormal; simp

include ha hf0 hf

/-- the meridian at the longitude 0, at the latitudes up to `t`: the speed is at most the radius of curvature at the latitude `t` -/
theorem meridian_speed {t : ℝ} (ht1 : t < π / 2) {φ ψ : ℝ} (hφ : |φ| ≤ t) (hψ : |ψ| ≤ t) :
    len (posE a f (geoNormal ψ 0) 0 - posE a f (geoNormal φ 0) 0) ≤ a * (1 - f) ^ 2 / cos t ^ 3 * |ψ - φ| := by
  have ht0 : 0 ≤ t := (abs_nonneg _).trans hφ
  have hct : 0 < cos t := cos_pos_of_mem_Ioo ⟨by linarith, ht1⟩
  have hg : 0 < 1 - f := by linarith
  obtain ⟨w, hw⟩ : ∃ w : V3 ℝ, w = posE a f (geoNormal ψ 0) 0 - posE a f (geoNormal φ 0) 0 := ⟨_, rfl⟩
  rw [← hw]
  have hK : 0 ≤ a * (1 - f) ^ 2 / cos t ^ 3 := by positivity
  rcases eq_or_lt_of_le (len_nonneg w) with h0 | h0
  · rw [← h0]; positivity
  obtain ⟨h, hh⟩ : ∃ h : ℝ → ℝ, h = fun θ => w.x * (a * (1 - f) ^ 2 * (sin θ / √((1 - f) ^ 2 * sin θ ^ 2 + cos θ ^ 2))) -
      w.z * (a * (cos θ / √((1 - f) ^ 2 * sin θ ^ 2 + cos θ ^ 2))) := ⟨_, rfl⟩
  have hval : ∀ θ, dot w (posE a f (geoNormal θ 0) 0) = h θ := by
    intro θ
    rw [hh]
    unfold posE
    rw [Dell_geoNormal]
    unfold dot geoNormal
    simp
    ring
  have hder : ∀ θ ∈ Set.Icc (-t) t, HasDerivWithinAt h
      ((w.x * cos θ + w.z * sin θ) * (a * (1 - f) ^ 2 / √((1 - f) ^ 2 * sin θ ^ 2 + cos θ ^ 2) ^ 3)) (Set.Icc (-t) t) θ := by
    intro θ hθ
    apply HasDerivAt.hasDerivWithinAt
    have hsc := Real.sin_sq_add_cos_sq θ
    have hS : 0 < (1 - f) ^ 2 * sin θ ^ 2 + cos θ ^ 2 := by
      have hc : 0 < cos θ := cos_pos_of_mem_Ioo ⟨by linarith [hθ.1], by linarith [hθ.2]⟩
      positivity
    have hD := Real.sqrt_pos.mpr hS
    have hD2 := Real.sq_sqrt hS.le
    have d1 : HasDerivAt (fun θ => (1 - f) ^ 2 * sin θ ^ 2 + cos θ ^ 2) ((1 - f) ^ 2 * (2 * sin θ * cos θ) - 2 * cos θ * sin θ) θ := by
      have e1 := ((Real.hasDerivAt_sin θ).pow 2).const_mul ((1 - f) ^ 2)
      have e2 := (Real.hasDerivAt_cos θ).pow 2
      exact (e1.add e2).congr_deriv (by simp; ring)
    have d2 := d1.sqrt hS.ne'
    have d3 := (Real.hasDerivAt_sin θ).div d2 hD.ne'
    have d4 := (Real.hasDerivAt_cos θ).div d2 hD.ne'
    have d5 := ((d3.const_mul (a * (1 - f) ^ 2)).const_mul w.x).sub ((d4.const_mul a).const_mul w.z)
    rw [hh]
    refine d5.congr_deriv ?_
    generalize √((1 - f) ^ 2 * sin θ ^ 2 + cos θ ^ 2) = D at *
    have q3 : (cos θ * D - sin θ * (((1 - f) ^ 2 * (2 * sin θ * cos θ) - 2 * cos θ * sin θ) / (2 * D))) / D ^ 2 = cos θ / D ^ 3 := by
      field_simp
      linear_combination cos θ * hD2 + cos θ * hsc
    have q4 : (-sin θ * D - cos θ * (((1 - f) ^ 2 * (2 * sin θ * cos θ) - 2 * cos θ * sin θ) / (2 * D))) / D ^ 2 =
        -((1 - f) ^ 2 * sin θ) / D ^ 3 := by
      field_simp
      linear_combination -sin θ * hD2 - (1 - f) ^ 2 * sin θ * hsc
    rw [q3, q4]
    ring
  have hbound : ∀ θ ∈ Set.Icc (-t) t, ‖(w.x * cos θ + w.z * sin θ) * (a * (1 - f) ^ 2 / √((1 - f) ^ 2 * sin θ ^ 2 + cos θ ^ 2) ^ 3)‖ ≤
      len w * (a * (1 - f) ^ 2 / cos t ^ 3) := by
    intro θ hθ
    have hsc := Real.sin_sq_add_cos_sq θ
    have hcθ : cos t ≤ cos θ := by
      rw [← cos_abs θ]
      exact cos_le_cos_of_nonneg_of_le_pi (abs_nonneg _) (by linarith) (abs_le.2 hθ)
    have hD : cos t ≤ √((1 - f) ^ 2 * sin θ ^ 2 + cos θ ^ 2) := by
      apply Real.le_sqrt_of_sq_le
      nlinarith [sq_nonneg ((1 - f) * sin θ)]
    have h1 : |w.x * cos θ + w.z * sin θ| ≤ len w := by
      apply Real.abs_le_sqrt
      nlinarith [sq_nonneg (w.x * sin θ - w.z * cos θ), sq_nonneg w.y]
    rw [norm_mul, Real.norm_eq_abs, Real.norm_eq_abs, abs_of_nonneg (a := a * _ / _) (by positivity)]
    have h2 : cos t ^ 3 ≤ √((1 - f) ^ 2 * sin θ ^ 2 + cos θ ^ 2) ^ 3 := pow_le_pow_left₀ hct.le hD 3
    have h3 : a * (1 - f) ^ 2 / √((1 - f) ^ 2 * sin θ ^ 2 + cos θ ^ 2) ^ 3 ≤ a * (1 - f) ^ 2 / cos t ^ 3 :=
      div_le_div_of_nonneg_left (by positivity) (by positivity) h2
    exact mul_le_mul h1 h3 (by positivity) (len_nonneg _)
  have key := (convex_Icc (-t) t).norm_image_sub_le_of_norm_hasDerivWithin_le hder hbound (abs_le.1 hφ) (abs_le.1 hψ)
  rw [Real.norm_eq_abs, Real.norm_eq_abs, ← hval, ← hval] at key
  have e : dot w (posE a f (geoNormal ψ 0) 0) - dot w (posE a f (geoNormal φ 0) 0) = len w ^ 2 := by
    rw [← dot_self, show dot w w = dot w (posE a f (geoNormal ψ 0) 0 - posE a f (geoNormal φ 0) 0) by rw [← hw]]
    unfold dot; simp only [sub_x, sub_y, sub_z]; ring
  rw [e, abs_of_nonneg (sq_nonneg _)] at key
  have : len w * len w ≤ len w * (a * (1 - f) ^ 2 / cos t ^ 3 * |ψ - φ|) := by
    calc len w * len w = len w ^ 2 := by ring
      _ ≤ _ := key
      _ = _ := by ring
  exact le_of_mul_le_mul_left this h0

end

/-- the point of a `GeoPoint` on the ellipsoid -/
theorem at_geo_posE {a f : ℝ} (hf : f < 1) {R : M3 ℝ} (hR : IsRotation R) {name : EllKey} {lat lon d : ℝ} {n p : V3 ℝ}
    (h : Spec.At (.geo (.real lat lon d (.real a f name R))) n d p (.real a f name R)) : p = app (transp R) (posE a f (app R n) d) := by
  have h1 := h.ec
  have h2 : (Position.geo (.real lat lon d (.real a f name R))).to_ecef_vector =
      (Position.geo (.real lat lon d (.real a f name R))).to_nvector.to_ecef_vector := rfl
  rw [h2, h.nv] at h1
  have h3 : (Nvector.real n d (.real a f name R)).to_ecef_vector = .real (app (transp R) (posE a f (app R n) d)) (.real a f name R) := by
    unfold Nvector.to_ecef_vector Nvector.real FrameE.real ECEFvector.real
    simp only [n2p_fin h.unit.ne d a f hf hR, dirOf_of_unit h.unit]
  rw [h3] at h1
  exact (V3.fin_inj.mp (congrArg ECEFvector.pvector h1)).symm

theorem exists_small {g : ℝ → ℝ} (hg : Continuous g) {y δ : ℝ} (h0 : y < g 0) (hδ : 0 < δ) : ∃ t, 0 < t ∧ t < δ ∧ y < g t := by
  have h1 : ∀ᶠ t in nhds (0 : ℝ), y < g t := hg.continuousAt.eventually (lt_mem_nhds h0)
  have h2 : ∀ᶠ t in nhdsWithin (0 : ℝ) (Set.Ioi 0), y < g t ∧ t ∈ Set.Ioo 0 δ :=
    (h1.filter_mono nhdsWithin_le_nhds).and (Ioo_mem_nhdsGT hδ)
  obtain ⟨t, h3, h4⟩ := h2.exists
  exact ⟨t, h4.1, h4.2, h3⟩

/-- north and south of the equator -/
theorem sharp_equator (G : Geodesic XR) (a f : ℝ) (ha : 0 < a) (hf0 : 0 ≤ f) (hf : f < 1) (R : M3 ℝ) (hR : IsRotation R) (name : EllKey)
    (δ : ℝ) (hδ : 0 < δ) (c : ℝ) (hc : (1 - f) ^ 2 < c) :
    ∃ lat, 0 < lat ∧ lat < δ ∧ ∃ x p q,
      (Position.geo (.real lat 0 0 (.real a f name R))).to_ecef_vector = .real p (.real a f name R) ∧
      (Position.geo (.real (-lat) 0 0 (.real a f name R))).to_ecef_vector = .real q (.real a f name R) ∧
      (GeoPath.mk (.geo (.real lat 0 0 (.real a f name R))) (.geo (.real (-lat) 0 0 (.real a f name R)))).track_distance G "greatcircle" =
        .ok (fin x) ∧ 0 < x ∧ ∃ γ, LevelPath a f R 0 p q γ ∧ LengthAtMost γ (c * x) := by
  have hg : 0 < 1 - f := by linarith
  have hg1 : 1 - f ≤ 1 := by linarith
  have hpi := Real.pi_pos
  have hc0 : 0 < c := lt_trans (by positivity) hc
  obtain ⟨t, t0, t1, t2⟩ := exists_small (g := fun t => c * cos t ^ 4) (by fun_prop) (y := (1 - f) ^ 2) (δ := min δ (π / 2)) (by simpa using hc)
    (lt_min hδ (by positivity))
  have tp : t < π / 2 := lt_of_lt_of_le t1 (min_le_right _ _)
  have hct : 0 < cos t := cos_pos_of_mem_Ioo ⟨by linarith, tp⟩
  obtain ⟨A, p, hA, eA⟩ := Spec.At.of_geo t 0 0 a f hf name R hR
  obtain ⟨B, q, hB, eB⟩ := Spec.At.of_geo (-t) 0 0 a f hf name R hR
  have ep := at_geo_posE hf hR hA
  have eq := at_geo_posE hf hR hB
  rw [eA] at ep
  rw [eB] at eq
  have hang : angle A B = 2 * t := by
    rw [← angle_app hR, eA, eB, angle_unit (geoNormal_isUnit _ _) (geoNormal_isUnit _ _),
      ← arccos_cos (x := 2 * t) (by linarith) (by linarith), cos_two_mul']
    congr 1
    simp [dot, geoNormal]; ring
  have hlen : ∀ φ : ℝ, cos φ = cos t → a * cos t ≤ len (app (transp R) (posE a f (geoNormal φ 0) 0)) := by
    intro φ h
    rw [len_app hR.transpose]
    apply Real.le_sqrt_of_sq_le
    unfold posE
    rw [Dell_geoNormal]
    have hsc := Real.sin_sq_add_cos_sq φ
    have hS : 0 < (1 - f) ^ 2 * sin φ ^ 2 + cos φ ^ 2 := by rw [h]; positivity
    have hS1 : (1 - f) ^ 2 * sin φ ^ 2 + cos φ ^ 2 ≤ 1 := by
      have h1 : (1 - f) ^ 2 ≤ 1 := by nlinarith
      nlinarith [mul_le_mul_of_nonneg_right h1 (sq_nonneg (sin φ))]
    have hD := Real.sqrt_pos.mpr hS
    have hD1 : √((1 - f) ^ 2 * sin φ ^ 2 + cos φ ^ 2) ≤ 1 := Real.sqrt_le_one.mpr hS1
    have h3 : a ≤ a / √((1 - f) ^ 2 * sin φ ^ 2 + cos φ ^ 2) := (le_div_iff₀ hD).2 (by nlinarith)
    have h4 : (geoNormal φ 0).z ^ 2 = cos t ^ 2 := by simp [geoNormal, h]
    simp only [sub_zero]
    rw [mul_pow (_ / _) (geoNormal φ 0).z, h4, mul_pow]
    have h5 : a ^ 2 ≤ (a / √((1 - f) ^ 2 * sin φ ^ 2 + cos φ ^ 2)) ^ 2 := pow_le_pow_left₀ ha.le h3 2
    nlinarith [mul_le_mul_of_nonneg_right h5 (sq_nonneg (cos t)), sq_nonneg (a / √((1 - f) ^ 2 * sin φ ^ 2 + cos φ ^ 2) * (1 - f) ^ 2 * (geoNormal φ 0).x),
      sq_nonneg (a / √((1 - f) ^ 2 * sin φ ^ 2 + cos φ ^ 2) * (geoNormal φ 0).y)]
  have lp := hlen t rfl
  have lq := hlen (-t) (cos_neg t)
  rw [← ep] at lp
  rw [← eq] at lq
  have hr : a * cos t ≤ (len p + len q) / 2 := by linarith
  have hr0 : 0 < (len p + len q) / 2 := lt_of_lt_of_le (by positivity) hr
  refine ⟨t, t0, lt_of_lt_of_le t1 (min_le_left _ _), _, p, q, hA.ec, hB.ec,
    ((C46_sphere G (GeoPath.mk _ _) A B p q 0 0 _ hA hB "greatcircle" 0).2 (by decide) (by decide) (by decide)).2, ?_, ?_⟩
  · rw [hang]; positivity
  obtain ⟨l1, cx, cy, cz⟩ := lengthAtMost_of_speed (P := fun s => app (transp R) (posE a f (geoNormal (t - 2 * t * s) 0) 0))
    (K := a * (1 - f) ^ 2 / cos t ^ 3 * (2 * t)) (by positivity) (by
      intro s s' h0 h1 h0' h1'
      have := meridian_speed ha hf0 hf tp (φ := t - 2 * t * s) (ψ := t - 2 * t * s') (abs_le.2 ⟨by nlinarith, by nlinarith⟩)
        (abs_le.2 ⟨by nlinarith, by nlinarith⟩)
      rw [← app_sub, len_app hR.transpose]
      refine this.trans_eq ?_
      rw [show t - 2 * t * s' - (t - 2 * t * s) = -(2 * t * (s' - s)) by ring, abs_neg, abs_mul, abs_of_pos (by linarith : 0 < 2 * t)]
      ring)
  refine ⟨_, ⟨cx, cy, cz, ?_, ?_, ?_⟩, fun N u h1 h2 => (l1 N u h1 h2).trans ?_⟩
  · simp [ep]
  · simp only [eq]; congr 4; ring
  · intro s _ _
    have hu := geoNormal_isUnit (t - 2 * t * s) 0
    refine ⟨app (transp R) (geoNormal (t - 2 * t * s) 0), ?_⟩
    have h := geodetic_posE (d := 0) (n := app (transp R) (geoNormal (t - 2 * t * s) 0)) ha hf hR (unitVec_app hR.transpose hu).ne
    rwa [dirOf_of_unit (unitVec_app hR.transpose hu), hR.app_trans] at h
  · rw [hang]
    have h1 : a * (1 - f) ^ 2 / cos t ^ 3 ≤ c * ((len p + len q) / 2) := by
      rw [div_le_iff₀ (by positivity)]
      have : a * (1 - f) ^ 2 ≤ c * (a * cos t) * cos t ^ 3 := by
        have := mul_le_mul_of_nonneg_left t2.le ha.le
        linarith only [this, (by ring : c * (a * cos t) * cos t ^ 3 = a * (c * cos t ^ 4))]
      exact this.trans (mul_le_mul_of_nonneg_right (mul_le_mul_of_nonneg_left hr hc0.le) (by positivity))
    calc a * (1 - f) ^ 2 / cos t ^ 3 * (2 * t) ≤ c * ((len p + len q) / 2) * (2 * t) := mul_le_mul_of_nonneg_right h1 (by linarith)
      _ = _ := by ring

/-- on opposite sides of a pole -/
theorem sharp_pole (G : Geodesic XR) (a f : ℝ) (ha : 0 < a) (hf0 : 0 ≤ f) (hf : f < 1) (R : M3 ℝ) (hR : IsRotation R) (name : EllKey)
    (δ : ℝ) (hδ : 0 < δ) (c : ℝ) (hc : c < 1 / (1 - f) ^ 2) :
    ∃ lat, π / 2 - δ < lat ∧ lat < π / 2 ∧ ∃ x p q,
      (Position.geo (.real lat 0 0 (.real a f name R))).to_ecef_vector = .real p (.real a f name R) ∧
      (Position.geo (.real lat π 0 (.real a f name R))).to_ecef_vector = .real q (.real a f name R) ∧
      (GeoPath.mk (.geo (.real lat 0 0 (.real a f name R))) (.geo (.real lat π 0 (.real a f name R)))).track_distance G "greatcircle" =
        .ok (fin x) ∧ 0 < x ∧ ∀ γ L, LevelPath a f R 0 p q γ → LengthAtMost γ L → c * x ≤ L := by
  have hg : 0 < 1 - f := by linarith
  have hg1 : 1 - f ≤ 1 := by linarith
  have hpi := Real.pi_pos
  have hc' : c * (1 - f) ^ 2 < 1 := (lt_div_iff₀ (by positivity)).1 hc
  obtain ⟨t, t0, t1, t2⟩ := exists_small (g := fun t => cos t - |c| * sin t - c * (1 - f) ^ 2) (by fun_prop) (y := 0) (δ := min δ (π / 2))
    (by simpa using hc') (lt_min hδ (by positivity))
  have tp : t < π / 2 := lt_of_lt_of_le t1 (min_le_right _ _)
  have hct : 0 < cos t := cos_pos_of_mem_Ioo ⟨by linarith, tp⟩
  have hst : 0 < sin t := sin_pos_of_pos_of_lt_pi t0 (by linarith)
  obtain ⟨A, p, hA, eA⟩ := Spec.At.of_geo (π / 2 - t) 0 0 a f hf name R hR
  obtain ⟨B, q, hB, eB⟩ := Spec.At.of_geo (π / 2 - t) π 0 a f hf name R hR
  have ep := at_geo_posE hf hR hA
  have eq := at_geo_posE hf hR hB
  have nA : app R A = ⟨cos t, 0, -sin t⟩ := by rw [eA]; simp [geoNormal, sin_pi_div_two_sub, cos_pi_div_two_sub]
  have nB : app R B = ⟨cos t, 0, sin t⟩ := by rw [eB]; simp [geoNormal, sin_pi_div_two_sub, cos_pi_div_two_sub]
  rw [nA] at ep
  rw [nB] at eq
  have hang : angle A B = 2 * t := by
    rw [← angle_app hR, angle_unit (unitVec_app hR hA.unit) (unitVec_app hR hB.unit), nA, nB,
      ← arccos_cos (x := 2 * t) (by linarith) (by linarith), cos_two_mul']
    congr 1
    simp [dot]; ring
  obtain ⟨D, hD⟩ : ∃ D, D = √((1 - f) ^ 2 * cos t ^ 2 + sin t ^ 2) := ⟨_, rfl⟩
  have hDp : 0 < D := by rw [hD]; apply Real.sqrt_pos.mpr; positivity
  have dA : Dell f (⟨cos t, 0, -sin t⟩ : V3 ℝ) = D := by rw [hD]; unfold Dell; simp
  have dB : Dell f (⟨cos t, 0, sin t⟩ : V3 ℝ) = D := by rw [hD]; unfold Dell; simp
  have hup : ∀ v : V3 ℝ, v.x = a / D * (1 - f) ^ 2 * cos t → v.y = 0 → v.z ^ 2 = (a / D * sin t) ^ 2 → len v ≤ a / D * ((1 - f) ^ 2 + sin t) := by
    intro v hx hy hz
    apply Real.sqrt_le_iff.mpr
    refine ⟨by positivity, ?_⟩
    rw [hx, hy, hz]
    have h1 := cos_sq_le_one t
    have : ((1 - f) ^ 2 * cos t) ^ 2 + sin t ^ 2 ≤ ((1 - f) ^ 2 + sin t) ^ 2 := by
      have : ((1 - f) ^ 2) ^ 2 * cos t ^ 2 ≤ ((1 - f) ^ 2) ^ 2 * 1 := mul_le_mul_of_nonneg_left h1 (by positivity)
      nlinarith [mul_pos (pow_pos hg 2) hst]
    nlinarith [mul_le_mul_of_nonneg_left this (sq_nonneg (a / D))]
  have lp : len p ≤ a / D * ((1 - f) ^ 2 + sin t) := by
    rw [ep, len_app hR.transpose]
    apply hup <;> simp only [posE, dA, sub_zero] <;> ring
  have lq : len q ≤ a / D * ((1 - f) ^ 2 + sin t) := by
    rw [eq, len_app hR.transpose]
    apply hup <;> simp only [posE, dB, sub_zero] <;> ring
  have hpp : 0 < len p := by
    have := (len_pos_bounds ha hf0 hf hR (d := 0) le_rfl (m := ⟨cos t, 0, -sin t⟩) (by rw [← nA]; exact unitVec_app hR hA.unit)).1
    rw [← ep] at this
    nlinarith
  have hqp : 0 < len q := by
    have := (len_pos_bounds ha hf0 hf hR (d := 0) le_rfl (m := ⟨cos t, 0, sin t⟩) (by rw [← nB]; exact unitVec_app hR hB.unit)).1
    rw [← eq] at this
    nlinarith
  have hchord : len (q - p) = a / D * sin t * 2 := by
    rw [ep, eq, ← app_sub, len_app hR.transpose]
    rw [show posE a f ⟨cos t, 0, sin t⟩ 0 - posE a f ⟨cos t, 0, -sin t⟩ 0 = (a / D * sin t * 2) • (⟨0, 0, 1⟩ : V3 ℝ) by
      ext <;> simp only [posE, dA, dB, sub_x, sub_y, sub_z, smul_x, smul_y, smul_z] <;> ring, len_smul, abs_of_pos (by positivity)]
    rw [show len (⟨0, 0, 1⟩ : V3 ℝ) = 1 by unfold len; simp, mul_one]
  refine ⟨π / 2 - t, by have := lt_of_lt_of_le t1 (min_le_left δ _); linarith, by linarith, _, p, q, hA.ec, hB.ec,
    ((C46_sphere G (GeoPath.mk _ _) A B p q 0 0 _ hA hB "greatcircle" 0).2 (by decide) (by decide) (by decide)).2, ?_, ?_⟩
  · rw [hang]; positivity
  intro γ L hγ hL
  have h1 := hL 1 (fun i => if i = 0 then 0 else 1) (by
    intro i j hij
    dsimp only
    split_ifs with h1 h2 h2 <;> first | omega | norm_num) (by intro i; split_ifs <;> norm_num)
  simp [hγ.start, hγ.finish] at h1
  refine le_trans ?_ h1
  rw [hang, hchord]
  have hx : t * cos t ≤ sin t := by
    have := Real.lt_tan t0 tp
    rw [tan_eq_sin_div_cos, lt_div_iff₀ hct] at this
    exact this.le
  have h2 : c * ((len p + len q) / 2) ≤ a / D * cos t := by
    rcases le_or_gt c 0 with h | h
    · have : c * ((len p + len q) / 2) ≤ 0 := mul_nonpos_of_nonpos_of_nonneg h (by linarith)
      exact this.trans (by positivity)
    · rw [abs_of_pos h] at t2
      calc c * ((len p + len q) / 2) ≤ c * (a / D * ((1 - f) ^ 2 + sin t)) := mul_le_mul_of_nonneg_left (by linarith) h.le
        _ = a / D * (c * (1 - f) ^ 2 + c * sin t) := by ring
        _ ≤ a / D * cos t := mul_le_mul_of_nonneg_left (by linarith) (by positivity)
  calc c * (2 * t * ((len p + len q) / 2)) = 2 * t * (c * ((len p + len q) / 2)) := by ring
    _ ≤ 2 * t * (a / D * cos t) := mul_le_mul_of_nonneg_left h2 (by linarith)
    _ = a / D * (t * cos t) * 2 := by ring
    _ ≤ a / D * sin t * 2 := by
      have := mul_le_mul_of_nonneg_left hx (by positivity : 0 ≤ a / D)
      linarith


/-- **C129** the bounds of `C129_track_distance` cannot be improved, for any ellipsoid and however near the positions are.  Two positions
north and south of the equator: the great circle distance is nearly `1 / (1 - f)²` times the length of some path.  Two positions on opposite
sides of a pole: it is nearly only `(1 - f)²` times the length of every path. -/
theorem C129_sharp (G : Geodesic XR) (a f : ℝ) (ha : 0 < a) (hf0 : 0 ≤ f) (hf : f < 1) (R : M3 ℝ) (hR : IsRotation R) (name : EllKey)
    (δ : ℝ) (hδ : 0 < δ) (c : ℝ) :
    ((1 - f) ^ 2 < c → ∃ lat, 0 < lat ∧ lat < δ ∧ ∃ x p q,
      (Position.geo (.real lat 0 0 (.real a f name R))).to_ecef_vector = .real p (.real a f name R) ∧
      (Position.geo (.real (-lat) 0 0 (.real a f name R))).to_ecef_vector = .real q (.real a f name R) ∧
      (GeoPath.mk (.geo (.real lat 0 0 (.real a f name R))) (.geo (.real (-lat) 0 0 (.real a f name R)))).track_distance G "greatcircle" =
        .ok (fin x) ∧ 0 < x ∧ ∃ γ, LevelPath a f R 0 p q γ ∧ LengthAtMost γ (c * x)) ∧
    (c < 1 / (1 - f) ^ 2 → ∃ lat, π / 2 - δ < lat ∧ lat < π / 2 ∧ ∃ x p q,
      (Position.geo (.real lat 0 0 (.real a f name R))).to_ecef_vector = .real p (.real a f name R) ∧
      (Position.geo (.real lat π 0 (.real a f name R))).to_ecef_vector = .real q (.real a f name R) ∧
      (GeoPath.mk (.geo (.real lat 0 0 (.real a f name R))) (.geo (.real lat π 0 (.real a f name R)))).track_distance G "greatcircle" =
        .ok (fin x) ∧ 0 < x ∧ ∀ γ L, LevelPath a f R 0 p q γ → LengthAtMost γ L → c * x ≤ L) :=
  ⟨sharp_equator G a f ha hf0 hf R hR name δ hδ c, sharp_pole G a f ha hf0 hf R hR name δ hδ c⟩

/-- WGS84: some great circle distance is more than 1.0066 times the length of a path, another less than 0.9934 times that of every path -/
example (G : Geodesic XR) (name : EllKey) := C129_sharp G 6378137 (1 / 298.257223563) (by norm_num) (by norm_num) (by norm_num) Re isRotation_Re name
  1e-3 (by norm_num) (1 / 1.0066)
example : (1 - (1 : ℝ) / 298.257223563) ^ 2 < 1 / 1.0066 ∧ 1 / (0.9934 : ℝ) < 1 / (1 - (1 : ℝ) / 298.257223563) ^ 2 := by norm_num

end Nv
