import Verif.Props.Latitudes
import Verif.Props.Convert

/-!
# C157 Great circle paths bend towards the pole
-/

namespace Nv
open Spec Real
open XR (fin)

theorem mix_len_sq {A B : V3 ℝ} (hA : UnitVec A) (hB : UnitVec B) (t : ℝ) :
    len (mix A B t) ^ 2 = 1 - 2 * (t * (1 - t)) * (1 - dot A B) := by
  have e : dot (mix A B t) (mix A B t) = (1 - t) ^ 2 * dot A A + t ^ 2 * dot B B + 2 * (t * (1 - t)) * dot A B := by
    rw [mix_eq]; unfold dot; simp; ring
  rw [← dot_self, e, hA.dot, hB.dot]; ring

theorem dot_mix (k A B : V3 ℝ) (t : ℝ) : dot k (mix A B t) = (1 - t) * dot k A + t * dot k B := by
  rw [mix_eq]; unfold dot; simp; ring

/-- both ends on one side of a plane that does not contain the centre: so is the path between them -/
theorem mix_side {k A B : V3 ℝ} (hA : UnitVec A) (hB : UnitVec B) {s t : ℝ} (hs : 0 < s) (h1 : s ≤ dot k A) (h2 : s ≤ dot k B) (ht0 : 0 ≤ t)
    (ht1 : t ≤ 1) : mix A B t ≠ 0 ∧ s ≤ dot k (dirOf (mix A B t)) ∧ (0 < t → t < 1 → A ≠ B → s < dot k (dirOf (mix A B t))) := by
  have hn : s ≤ dot k (mix A B t) := by rw [dot_mix]; nlinarith
  have hne : mix A B t ≠ 0 := by
    intro h0; rw [h0, show dot k 0 = 0 by simp [dot]] at hn; linarith
  have hl := len_pos hne
  have hsq := mix_len_sq hA hB t
  have hAB : dot A B ≤ 1 := by
    have := lagrange A B
    rw [hA.len, hB.len] at this
    nlinarith [sq_nonneg (len (cross A B))]
  have hle : len (mix A B t) ≤ 1 := by
    rw [← sq_le_one_iff₀ hl.le, hsq]
    nlinarith [mul_nonneg (mul_nonneg ht0 (sub_nonneg.2 ht1)) (sub_nonneg.2 hAB)]
  refine ⟨hne, ?_, fun p0 p1 hd => ?_⟩
  · rw [dot_dirOf_right, inv_mul_eq_div, le_div_iff₀ hl]; nlinarith
  · have hAB' : dot A B < 1 := lt_of_le_of_ne hAB fun h => hd (eq_of_dot_eq_one hA hB h)
    have hlt : len (mix A B t) < 1 := by
      rw [← sq_lt_one_iff₀ hl.le, hsq]
      nlinarith [mul_pos (mul_pos p0 (sub_pos.2 p1)) (sub_pos.2 hAB')]
    rw [dot_dirOf_right, inv_mul_eq_div, lt_div_iff₀ hl]; nlinarith

/-- the same for the latitudes reported, both hemispheres -/
theorem mix_latitude {A B : V3 ℝ} (hA : UnitVec A) (hB : UnitVec B) {R : M3 ℝ} (hR : IsRotation R) {φ t : ℝ} (h0 : 0 < φ) (h1 : φ ≤ π / 2)
    (ht0 : 0 ≤ t) (ht1 : t ≤ 1) :
    (sin φ ≤ dot (northPole R) A → sin φ ≤ dot (northPole R) B → mix A B t ≠ 0 ∧ ∀ lat lon : ℝ,
      n_E2lat_lon (dirOf (mix A B t)).fin R.fin = (fin lat, fin lon) → φ ≤ lat ∧ (0 < t → t < 1 → A ≠ B → φ < lat)) ∧
    (dot (northPole R) A ≤ -sin φ → dot (northPole R) B ≤ -sin φ → mix A B t ≠ 0 ∧ ∀ lat lon : ℝ,
      n_E2lat_lon (dirOf (mix A B t)).fin R.fin = (fin lat, fin lon) → lat ≤ -φ ∧ (0 < t → t < 1 → A ≠ B → lat < -φ)) := by
  have hs : 0 < sin φ := Real.sin_pos_of_pos_of_lt_pi h0 (by linarith [Real.pi_pos])
  constructor
  · intro p q
    obtain ⟨hne, c1, c2⟩ := mix_side hA hB hs p q ht0 ht1
    refine ⟨hne, fun lat lon e => ?_⟩
    obtain ⟨e1, -, r1, r2⟩ := lat_of (dirOf_unit hne) hR e
    rw [← e1] at c1 c2
    constructor
    · exact (Real.strictMonoOn_sin.le_iff_le ⟨by linarith [Real.pi_pos], h1⟩ ⟨r1, r2⟩).1 c1
    · intro p0 p1 hd
      exact (Real.strictMonoOn_sin.lt_iff_lt ⟨by linarith [Real.pi_pos], h1⟩ ⟨r1, r2⟩).1 (c2 p0 p1 hd)
  · intro p q
    obtain ⟨hne, c1, c2⟩ := mix_side (k := -northPole R) hA hB hs (by rw [dot_neg_left]; linarith) (by rw [dot_neg_left]; linarith) ht0 ht1
    refine ⟨hne, fun lat lon e => ?_⟩
    obtain ⟨e1, -, r1, r2⟩ := lat_of (dirOf_unit hne) hR e
    rw [dot_neg_left, ← e1, ← Real.sin_neg] at c1 c2
    have r3 : -lat ∈ Set.Icc (-(π / 2)) (π / 2) := ⟨by linarith, by linarith⟩
    constructor
    · have := (Real.strictMonoOn_sin.le_iff_le ⟨by linarith [Real.pi_pos], h1⟩ r3).1 c1
      linarith
    · intro p0 p1 hd
      have := (Real.strictMonoOn_sin.lt_iff_lt ⟨by linarith [Real.pi_pos], h1⟩ r3).1 (c2 p0 p1 hd)
      linarith

theorem dot_pole_geo {R : M3 ℝ} (hR : IsRotation R) {n : V3 ℝ} {lat lon : ℝ} (h : app R n = geoNormal lat lon) : dot (northPole R) n = sin lat := by
  have e : n = app (transp R) (geoNormal lat lon) := by rw [← h, hR.trans_app]
  unfold northPole
  rw [e, dot_app hR.transpose]
  simp [dot, geoNormal]

/-- **C157** paths bend towards the pole: if both ends lie at least at the latitude `φ > 0` north, so does every position of the path between them,
and farther north unless it is an end (or the ends coincide); in the southern hemisphere farther south.  For every ellipsoid, all depths, all axes. -/
theorem C157_poleward (a f : ℝ) (hf : f < 1) (name : EllKey) {R : M3 ℝ} (hR : IsRotation R) (latA lonA zA latB lonB zB φ t : ℝ) (h0 : 0 < φ)
    (h1 : φ ≤ π / 2) (hA : |latA| ≤ π / 2) (hB : |latB| ≤ π / 2) (ht0 : 0 ≤ t) (ht1 : t ≤ 1) :
    let F := FrameE.real a f name R
    let path := GeoPath.mk (.geo (.real latA lonA zA F)) (.geo (.real latB lonB zB F))
    (φ ≤ latA → φ ≤ latB → ∃ (N : Nvector XR) (lat lon : ℝ), path.interpolate (fin t) = .ok N ∧
      N.to_geo_point = .real lat lon (zA + t * (zB - zA)) F ∧ φ ≤ lat ∧
      (0 < t → t < 1 → lat_lon2n_E (fin latA) (fin lonA) R.fin ≠ lat_lon2n_E (fin latB) (fin lonB) R.fin → φ < lat)) ∧
    (latA ≤ -φ → latB ≤ -φ → ∃ (N : Nvector XR) (lat lon : ℝ), path.interpolate (fin t) = .ok N ∧
      N.to_geo_point = .real lat lon (zA + t * (zB - zA)) F ∧ lat ≤ -φ ∧
      (0 < t → t < 1 → lat_lon2n_E (fin latA) (fin lonA) R.fin ≠ lat_lon2n_E (fin latB) (fin lonB) R.fin → lat < -φ)) := by
  intro F path
  obtain ⟨nA, pA, atA, gA⟩ := At.of_geo latA lonA zA a f hf name R hR
  obtain ⟨nB, pB, atB, gB⟩ := At.of_geo latB lonB zB a f hf name R hR
  have eA : lat_lon2n_E (fin latA) (fin lonA) R.fin = nA.fin := by rw [lat_lon2n_E_fin, ← gA, hR.trans_app]
  have eB : lat_lon2n_E (fin latB) (fin lonB) R.fin = nB.fin := by rw [lat_lon2n_E_fin, ← gB, hR.trans_app]
  have dA := dot_pole_geo hR gA
  have dB := dot_pole_geo hR gB
  obtain ⟨m1, m2⟩ := mix_latitude atA.unit atB.unit hR h0 h1 ht0 ht1
  obtain ⟨a1, a2⟩ := abs_le.1 hA
  obtain ⟨b1, b2⟩ := abs_le.1 hB
  have hneq : nA.fin ≠ nB.fin → nA ≠ nB := fun h e => h (by rw [e])
  have hmono := Real.strictMonoOn_sin.monotoneOn
  have main : mix nA nB t ≠ 0 → ∃ lat lon : ℝ, n_E2lat_lon (dirOf (mix nA nB t)).fin R.fin = (fin lat, fin lon) ∧
      path.interpolate (fin t) = .ok (.real (dirOf (mix nA nB t)) (zA + t * (zB - zA)) F) ∧
      (Nvector.real (dirOf (mix nA nB t)) (zA + t * (zB - zA)) F).to_geo_point = .real lat lon (zA + t * (zB - zA)) F := by
    intro hne
    obtain ⟨lat, lon, hll, -⟩ := C03_ranges _ (dirOf_unit hne).ne R hR
    refine ⟨lat, lon, hll, geoPath_interpolate_fin atA atB t hne, ?_⟩
    unfold Nvector.to_geo_point Nvector.real
    change (GeoPoint.mk (n_E2lat_lon (dirOf (mix nA nB t)).fin R.fin).1 (n_E2lat_lon (dirOf (mix nA nB t)).fin R.fin).2 _ _ : GeoPoint XR) = _
    rw [hll]; rfl
  rw [eA, eB]
  constructor
  · intro p q
    obtain ⟨hne, hall⟩ := m1 (by rw [dA]; exact hmono ⟨by linarith, h1⟩ ⟨a1, a2⟩ p) (by rw [dB]; exact hmono ⟨by linarith, h1⟩ ⟨b1, b2⟩ q)
    obtain ⟨lat, lon, e1, e2, e3⟩ := main hne
    obtain ⟨c1, c2⟩ := hall lat lon e1
    exact ⟨_, lat, lon, e2, e3, c1, fun p0 p1 hd => c2 p0 p1 (hneq hd)⟩
  · intro p q
    rw [← Real.sin_neg] at m2
    obtain ⟨hne, hall⟩ := m2 (by rw [dA]; exact hmono ⟨a1, a2⟩ ⟨by linarith, by linarith⟩ p) (by rw [dB]; exact hmono ⟨b1, b2⟩ ⟨by linarith, by linarith⟩ q)
    obtain ⟨lat, lon, e1, e2, e3⟩ := main hne
    obtain ⟨c1, c2⟩ := hall lat lon e1
    exact ⟨_, lat, lon, e2, e3, c1, fun p0 p1 hd => c2 p0 p1 (hneq hd)⟩

end Nv
