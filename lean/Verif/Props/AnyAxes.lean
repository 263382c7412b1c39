import Verif.Props.Displace
import Verif.Props.AtPole

/-!
# C144: great circle displacement in frames of every orientation
-/

namespace Nv
open Spec Real
open XR (fin)

theorem strTake_ne {method : String} (hm : method.toList.head? ≠ some 'e') : ¬ strTake method 1 = "e" := by
  intro h
  apply hm
  unfold strTake at h
  rcases hh : method.toList with _ | ⟨c, cs⟩
  · rw [hh] at h; exact absurd h (by decide)
  · rw [hh] at h
    have := congrArg String.toList h
    simp at this
    simp [this]

/-- **C144** whatever the axes of the frame, `displace` by the great circle method never raises, keeps depth and frame and covers exactly the
given distance; and the azimuth is measured from the direction in which the third axis of the frame E points (which is north only for the
default axes): `east` is perpendicular to that direction and to the position -/
theorem C144_displace (G : Geodesic XR) (lat lon z a f : ℝ) (hf : f < 1) (name : EllKey) (R : M3 ℝ) (hR : IsRotation R) (method : String)
    (hm : method.toList.head? ≠ some 'e') (nA pA : V3 ℝ)
    (hA : At (.geo (.real lat lon z (.real a f name R))) nA z pA (.real a f name R))
    (hpA : 0 < len pA) (d az : ℝ) (hd0 : 0 ≤ d) (hd : d ≤ π * len pA) :
    ∃ (q : GeoPoint XR) (azB : ℝ) (nB : V3 ℝ),
      (GeoPoint.real lat lon z (.real a f name R)).displace G (fin d) (fin az) (method := method) = .ok (q, fin azB) ∧
      q.to_nvector = .real nB z (.real a f name R) ∧ UnitVec nB ∧
      great_circle_distance nA.fin nB.fin (fin (len pA)) = fin d ∧
      ((nA.x ≠ 0 ∨ nA.y ≠ 0) → ∃ east : V3 ℝ, UnitVec east ∧ dot east nA = 0 ∧ dot east ⟨0, 0, 1⟩ = 0 ∧ 0 < dot (cross nA east) ⟨0, 0, 1⟩ ∧
        nB = cos (d / len pA) • nA + sin (d / len pA) • (cos az • cross nA east + sin az • east)) := by
  have hdd : d / len pA ≤ π := by rw [div_le_iff₀ hpA]; exact hd
  obtain ⟨nB, hB, huB, hdist⟩ := C27_default_axes nA hA.unit (d / len pA) (by positivity) hdd az
  obtain ⟨q, azB, hq, -, hqn, -⟩ := displace_gc_fin hf hR hA hpA.ne' huB d az hB
  have hgc := C18_eq_angle nA nB hA.unit.ne huB.ne
  refine ⟨q, azB, nB, ?_, hqn, huB, ?_, ?_⟩
  · unfold GeoPoint.displace
    rw [if_neg (strTake_ne hm)]
    exact hq
  · rw [hgc 1, mul_one] at hdist
    rw [hgc, XR.fin.inj hdist, div_mul_cancel₀ _ hpA.ne']
  · intro hxy
    have hp : cross (northPole Re) nA ≠ 0 := by
      rw [northPole_Re]
      intro h
      have h1 := congrArg V3.x h
      have h2 := congrArg V3.y h
      simp [cross] at h1 h2
      exact hxy.elim (fun h' => h' h2) (fun h' => h' h1)
    have hfr := frame_offpole hA.unit hp
    have hcr : cross (northPole Re) nA = ⟨-nA.y, nA.x, 0⟩ := by rw [northPole_Re]; ext <;> simp [cross]
    refine ⟨dirOf (cross (northPole Re) nA), hfr.ue, by rw [dot_comm]; exact hfr.perp, ?_, ?_, ?_⟩
    · rw [hcr]; simp [dirOf, dot]
    · have hl := len_pos hp
      have e : dot (cross nA (dirOf (cross (northPole Re) nA))) ⟨0, 0, 1⟩ = (len (cross (northPole Re) nA))⁻¹ * (nA.x ^ 2 + nA.y ^ 2) := by
        unfold dirOf
        rw [hcr]; simp [cross, dot]; ring
      rw [e]
      apply mul_pos (inv_pos.2 hl)
      rcases hxy with h | h
      · have := sq_pos_of_ne_zero h; have := sq_nonneg nA.y; linarith
      · have := sq_pos_of_ne_zero h; have := sq_nonneg nA.x; linarith
    · rw [R_e_fin, direct_offpole hA.unit hp] at hB
      exact (V3.fin_inj.1 hB).symm

/-- **C144** so with axes 'E' azimuth 0 is not the direction of the north pole but of latitude 0, longitude 180 degrees: going there the right
distance with azimuth 0 arrives there, from every position but the opposite one (latitude 0, longitude 0) -/
theorem C144_axes_E (G : Geodesic XR) (lat lon z a f : ℝ) (hf : f < 1) (name : EllKey) (method : String)
    (hm : method.toList.head? ≠ some 'e') (nA pA : V3 ℝ)
    (hA : At (.geo (.real lat lon z (.real a f name one))) nA z pA (.real a f name one))
    (hpA : 0 < len pA) (hxy : nA.x ≠ 0 ∨ nA.y ≠ 0) :
    (GeoPoint.real 0 π z (.real a f name one)).to_nvector = .real ⟨0, 0, 1⟩ z (.real a f name one) ∧
    ∃ (d : ℝ) (q : GeoPoint XR) (azB : ℝ), great_circle_distance nA.fin (⟨0, 0, 1⟩ : V3 ℝ).fin (fin (len pA)) = fin d ∧
      (GeoPoint.real lat lon z (.real a f name one)).displace G (fin d) (fin 0) (method := method) = .ok (q, fin azB) ∧
      q.to_nvector = (GeoPoint.real 0 π z (.real a f name one)).to_nvector := by
  have hone : IsRotation one := by
    constructor <;> norm_num [one, col0, col1, col2, dot, Spec.det, cross]
  have hN : (GeoPoint.real 0 π z (.real a f name one)).to_nvector = .real ⟨0, 0, 1⟩ z (.real a f name one) := by
    unfold GeoPoint.to_nvector GeoPoint.real FrameE.real Nvector.real
    simp only [lat_lon2n_E_fin]
    congr 2
    ext <;> simp [app, transp, one, geoNormal, col0, col1, col2, dot]
  have uz : UnitVec (⟨0, 0, 1⟩ : V3 ℝ) := by norm_num [UnitVec]
  refine ⟨hN, ?_⟩
  have hgc := C18_eq_angle nA ⟨0, 0, 1⟩ hA.unit.ne uz.ne (len pA)
  have hle := angle_le_pi nA ⟨0, 0, 1⟩
  have hge := angle_nonneg nA ⟨0, 0, 1⟩
  obtain ⟨q, azB, nB, h1, h2, h3, h4, h5⟩ := C144_displace G lat lon z a f hf name one hone method hm nA pA hA hpA
    (angle nA ⟨0, 0, 1⟩ * len pA) 0 (by positivity) (mul_le_mul_of_nonneg_right hle hpA.le)
  refine ⟨_, q, azB, hgc, h1, ?_⟩
  rw [h2, hN]
  obtain ⟨e, ue, e1, e2, e3, e4⟩ := h5 hxy
  rw [mul_div_assoc, div_self hpA.ne', mul_one, cos_zero, sin_zero] at e4
  have hc := cos_angle_unit hA.unit uz
  have hsn := sin_sq_add_cos_sq (angle nA ⟨0, 0, 1⟩)
  have hs0 : 0 ≤ sin (angle nA ⟨0, 0, 1⟩) := sin_nonneg_of_nonneg_of_le_pi hge hle
  have hfr : Frame nA e := ⟨hA.unit, ue, by rw [dot_comm]; exact e1⟩
  -- the third axis in the frame `nA, e, nA × e`
  have hdec := C29_inverse_direct_partial.expand hfr ⟨0, 0, 1⟩
  rw [e2] at hdec
  have hsq : dot (cross nA e) ⟨0, 0, 1⟩ ^ 2 = sin (angle nA ⟨0, 0, 1⟩) ^ 2 := by
    have h6 : dot (⟨0, 0, 1⟩ : V3 ℝ) ⟨0, 0, 1⟩ = 1 := uz.dot
    have h7 : dot (⟨0, 0, 1⟩ : V3 ℝ) ⟨0, 0, 1⟩ = dot nA ⟨0, 0, 1⟩ ^ 2 + dot (cross nA e) ⟨0, 0, 1⟩ ^ 2 := by
      conv_lhs => arg 1; rw [hdec]
      rw [dot_add_left, dot_add_left, dot_smul_left, dot_smul_left, dot_smul_left]; ring
    rw [h6, ← hc] at h7
    linarith
  have hlen : dot (cross nA e) ⟨0, 0, 1⟩ = sin (angle nA ⟨0, 0, 1⟩) := by
    nlinarith
  have key : nB = ⟨0, 0, 1⟩ := by
    rw [e4, hc, ← hlen]
    conv_rhs => rw [hdec]
    ext <;> simp
  rw [key]

/-- the hypotheses are met by latitude 30, longitude 0 degrees on a sphere -/
example : ∃ nA pA : V3 ℝ, At (.geo (.real (π / 6) 0 0 (.real 6371000 0 (.str "sphere") one))) nA 0 pA (.real 6371000 0 (.str "sphere") one) ∧
    (nA.x ≠ 0 ∨ nA.y ≠ 0) := by
  have hone : IsRotation one := by
    constructor <;> norm_num [one, col0, col1, col2, dot, Spec.det, cross]
  obtain ⟨n, hn, hu, hg⟩ := geoPoint_to_nvector (π / 6) 0 0 6371000 0 (.str "sphere") one hone
  obtain ⟨p, hp⟩ := At.of_nvec n hu 0 6371000 0 (by norm_num) (.str "sphere") one hone
  refine ⟨n, p, ⟨hn, hu, ?_⟩, .inl ?_⟩
  · change (GeoPoint.to_nvector _).to_ecef_vector = _
    have hn' : (GeoPoint.real (π / 6) 0 0 (.real 6371000 0 (.str "sphere") one)).to_nvector = _ := hn
    rw [hn']; exact hp.ec
  · have := congrArg V3.x hg
    simp [app, one, dot, geoNormal] at this
    rw [this]; norm_num

end Nv
