import Verif.Props.GeoPath
import Verif.Props.Paths

/-!
# C64: the methods of GeoPath are the great circle functions at the mean radius and the mean depth
-/

namespace Nv
open Spec Real
open XR (fin)

section
variable {P : GeoPath XR} {A B pA pB : V3 ℝ} {zA zB : ℝ} {F : FrameE XR}

theorem radius_default_eq (hA : At P.point_a A zA pA F) (hB : At P.point_b B zB pB F) (r : Option ℝ) :
    P.radiusOr (r.map fin) = fin (r.getD ((len pA + len pB) / 2)) := by
  unfold GeoPath.radiusOr
  cases r with
  | none => simp only [Option.map_none, Option.getD_none, average_radius_fin hA hB]
  | some x => rfl

/-- **C64** `cross_track_distance`: a signed number whose absolute value is the least great circle distance from the point
to the great circle through the two ends, positive on the right of the path, on the sphere of the given radius or by
default of the mean distance of the two ends from the centre -/
theorem C64_cross_track (hA : At P.point_a A zA pA F) (hB : At P.point_b B zB pB F) (hp : ProperPath A B) (X : Position XR)
    (C pC : V3 ℝ) (zC : ℝ) (F' : FrameE XR) (hX : At X C zC pC F') (r : Option ℝ) (ρ : ℝ)
    (hρ : ρ = r.getD ((len pA + len pB) / 2)) (hpos : 0 < ρ) :
    ∃ x : ℝ, P.cross_track_distance X (radius := r.map fin) = .ok (fin x) ∧
      IsLeast {d | ∃ Q, OnCircle A B Q ∧ great_circle_distance C.fin Q.fin (fin ρ) = fin d} |x| ∧
      (0 < x ↔ dot (cross A B) C < 0) := by
  obtain ⟨x, hx, hl⟩ := C20_is_least_distance A B C hp hX.unit ρ hpos
  obtain ⟨x', hx', hs⟩ := C20_sign A B C hp hX.unit ρ hpos
  rw [hx] at hx'
  obtain rfl : x = x' := by simpa using hx'
  refine ⟨x, ?_, hl, hs⟩
  unfold GeoPath.cross_track_distance
  rw [normals_fin hA hB, hX.nv, radius_default_eq hA hB, ← hρ]
  exact hx

/-- **C64** the Euclidean variant is `ρ sin θ` where the great circle variant is `ρ θ` -/
theorem C64_cross_track_euclidean (hA : At P.point_a A zA pA F) (hB : At P.point_b B zB pB F) (hp : ProperPath A B)
    (X : Position XR) (C pC : V3 ℝ) (zC : ℝ) (F' : FrameE XR) (hX : At X C zC pC F') (r : Option ℝ) (ρ : ℝ)
    (hρ : ρ = r.getD ((len pA + len pB) / 2)) :
    ∃ θ : ℝ, P.cross_track_distance X (radius := r.map fin) = .ok (fin (θ * ρ)) ∧
      P.cross_track_distance X "euclidean" (r.map fin) = .ok (fin (sin θ * ρ)) := by
  obtain ⟨θ, -, -, h1, h2, -⟩ := C20_methods A B C hp hX.unit ρ
  refine ⟨θ, ?_, ?_⟩ <;> unfold GeoPath.cross_track_distance <;>
    rw [normals_fin hA hB, hX.nv, radius_default_eq hA hB, ← hρ]
  · exact h2 "greatcircle" 'g' "reatcircle".toList (by decide) (by decide)
  · exact h1 "euclidean" 'e' "uclidean".toList (by decide) (by decide)

/-- **C64** `on_great_circle(point, atol)` is True exactly when some position of the great circle is within `atol` of the
point, on the sphere of the mean radius -/
theorem C64_on_great_circle (hA : At P.point_a A zA pA F) (hB : At P.point_b B zB pB F) (hp : ProperPath A B)
    (X : Position XR) (C pC : V3 ℝ) (zC : ℝ) (F' : FrameE XR) (hX : At X C zC pC F')
    (hpos : 0 < len pA + len pB) (atol : ℝ) (hat : 0 ≤ atol) :
    ∃ b, P.on_great_circle X (fin atol) = .ok b ∧
      (b = true ↔ ∃ Q d, OnCircle A B Q ∧
        great_circle_distance C.fin Q.fin (fin ((len pA + len pB) / 2)) = fin d ∧ d ≤ atol) := by
  obtain ⟨x, hx, ⟨⟨Q, hQ, hd⟩, hmin⟩, -⟩ := C64_cross_track hA hB hp X C pC zC F' hX none _ rfl (by simp; linarith)
  simp only [Option.map_none, Option.getD_none] at hx hd hmin
  refine ⟨isclose (PyFloat.abs (fin x)) (lit 0) (atol := fin atol), ?_, ?_⟩
  · unfold GeoPath.on_great_circle
    rw [hx]; rfl
  · have e : isclose (PyFloat.abs (fin x)) (lit 0) (atol := fin atol) =
        isclose (fin |x|) (fin 0) (fin (1e-9 : ℚ)) (fin atol) := by
      simp only [xr]; norm_num
    rw [e, C34_finite, sub_zero, abs_abs, abs_zero, max_eq_left (abs_nonneg x), le_max_iff]
    have hx0 := abs_nonneg x
    constructor
    · rintro (h | h)
      · exact ⟨Q, _, hQ, hd, h⟩
      · refine ⟨Q, _, hQ, hd, ?_⟩
        norm_num at h
        have : |x| = 0 := by linarith
        rw [this]; exact hat
    · rintro ⟨Q', d', hQ', hd', hle⟩
      exact .inl ((hmin ⟨Q', hQ', hd'⟩).trans hle)

/-- **C64** `closest_point_on_great_circle(point)`, for a point that is not a pole of the great circle: the position of
the great circle nearest to the point, at the mean depth of the two ends, in the frame of the point -/
theorem C64_closest (hA : At P.point_a A zA pA F) (hB : At P.point_b B zB pB F) (hp : ProperPath A B)
    (X : Position XR) (C pC : V3 ℝ) (zC a f : ℝ) (name : EllKey) (R : M3 ℝ) (hR : IsRotation R)
    (hX : At X C zC pC (.real a f name R)) (hne : cross C (cross A B) ≠ 0) (r : ℝ) (hr : 0 < r) :
    ∃ Q : V3 ℝ, (P.closest_point_on_great_circle X).to_nvector = .real Q ((zA + zB) / 2) (.real a f name R) ∧
      OnCircle A B Q ∧ ∃ d, great_circle_distance C.fin Q.fin (fin r) = fin d ∧
        ∀ S, OnCircle A B S → ∃ d', great_circle_distance C.fin S.fin (fin r) = fin d' ∧ d ≤ d' := by
  obtain ⟨Q, hQ, hon, d, hd, hmin⟩ := C21_closest_partial A B C hp hX.unit hne r hr
  refine ⟨Q, ?_, hon, d, hd, hmin⟩
  unfold GeoPath.closest_point_on_great_circle
  rw [closest_nvector_fin hA hB hX hQ, C45_nvector_geo_nvector Q hon.1.ne _ a f name R hR]
  exact congrArg (fun v => Nvector.real v _ _) (dirOf_of_unit hon.1)

/-- **C64** `intersect`: a position on both great circles, at the mean of the four depths, in the frame of the first end.
Excluded as for C24: an intersection exactly 90 degrees from the first end. -/
theorem C64_intersect (P' : GeoPath XR) (A' B' pA' pB' : V3 ℝ) (zA' zB' : ℝ) (F' : FrameE XR)
    (hA : At P.point_a A zA pA F) (hB : At P.point_b B zB pB F) (hA' : At P'.point_a A' zA' pA' F')
    (hB' : At P'.point_b B' zB' pB' F') (hp : ProperPath A B) (hp' : ProperPath A' B') (hne : ¬ SameCircle A B A' B')
    (hq : ∀ Q, OnCircle A B Q → OnCircle A' B' Q → dot Q A ≠ 0)
    (hloc : ∀ p, P.point_a ≠ .pvec p) :
    ∃ C : V3 ℝ, P.intersect P' = .ok (.real C ((zA + zB + zA' + zB') / 4) F) ∧ OnCircle A B C ∧ OnCircle A' B' C ∧
      angle A C ≤ angle A (-C) := by
  obtain ⟨C, hC, h1, h2, -, h3, -⟩ := C24_intersection_partial A B A' B' hp hp' hne hq
  refine ⟨C, ?_, h1, h2, h3⟩
  have hfr : GeoPath.frameOf P.point_a = .ok F := by
    have hec := hA.ec
    have hnv := hA.nv
    revert hec hnv hloc
    cases P.point_a with
    | pvec p => intro h; exact absurd rfl (h p)
    | geo p => intro _ h _; exact congrArg Except.ok (congrArg ECEFvector.frame h)
    | nvec p => intro _ h _; exact congrArg Except.ok (congrArg ECEFvector.frame h)
    | ecef p => intro _ h _; exact congrArg Except.ok (congrArg ECEFvector.frame h)
  have hz : ((fin zA + fin zB + fin zA' + fin zB') / lit 4 : XR) = fin ((zA + zB + zA' + zB') / 4) := by
    simp only [xr]; rw [XR.div_fin (by norm_num)]; norm_num
  unfold GeoPath.intersect
  rw [normals_fin hA hB, normals_fin hA' hB', hC, hfr]
  unfold GeoPath.nvectors
  rw [hA.nv, hB.nv, hA'.nv, hB'.nv]
  simp only [Nvector.real, hz]
  rfl

/-- **C64** a path whose first end is a position in a local frame cannot be intersected: the local frame has no
`Nvector` constructor -/
theorem C64_intersect_local (P' : GeoPath XR) (p : Pvector XR) (h : P.point_a = .pvec p) :
    P.intersect P' = .error .AttributeError := by
  unfold GeoPath.intersect; rw [h]; rfl
end

/-- **C64** `on_path` with a method starting with `ex` or `el`: the point is on the path exactly when its depth agrees with
the mean depth of the ends and either its geodesic distance from the first end is zero within `atol`, or this distance is
at most that of the two ends and the azimuths at the first end agree within the tolerances.  `sB, azB` and `sC, azC` are
geographiclib's distance and azimuth (in degrees) from the first end to the second and to the point. -/
theorem C64_ellipsoid_path (G : Geodesic XR) (P : GeoPath XR) (X : Position XR)
    (latA lonA zA latB lonB zB latC lonC zC a f : ℝ) (name : EllKey) (R : M3 ℝ)
    (hA : P.point_a.to_geo_point = .real latA lonA zA (.real a f name R))
    (hB : P.point_b.to_geo_point = .real latB lonB zB (.real a f name R))
    (hC : X.to_geo_point = .real latC lonC zC (.real a f name R))
    (sB azB sC azC : ℝ) (zB' zC' : XR)
    (hgB : G.inverse (fin (a - (zA + zB) / 2)) (fin f) (rad2deg (fin latA)) (rad2deg (fin lonA)) (rad2deg (fin latB))
      (rad2deg (fin lonB)) false = .ok (fin sB, fin azB, zB'))
    (hgC : G.inverse (fin (a - (zA + zC) / 2)) (fin f) (rad2deg (fin latA)) (rad2deg (fin lonA)) (rad2deg (fin latC))
      (rad2deg (fin lonC)) false = .ok (fin sC, fin azC, zC'))
    (m : String) (hm : m.toList.take 2 = ['e', 'x'] ∨ m.toList.take 2 = ['e', 'l']) (rtol atol : ℝ) (hat : 0 ≤ atol)
    (hsC : 0 ≤ sC) :
    ∃ b, P.on_path G X m (fin rtol) (fin atol) = .ok b ∧
      (b = true ↔ |(zA + zB) / 2 - zC| ≤ max atol (rtol * max |(zA + zB) / 2| |zC|) ∧
        (sC ≤ atol ∨ (sC ≤ sB ∧ |azC * (π / 180) - azB * (π / 180)| ≤
          max atol (rtol * max |azC * (π / 180)| |azB * (π / 180)|)))) := by
  have hc := check_frames_real a f name R
  have hm' : strTake m 2 = "ex" ∨ strTake m 2 = "el" := by
    rcases hm with h | h
    · exact .inl (strTake_eq.2 h)
    · exact .inr (strTake_eq.2 h)
  have hz : ∀ x y : ℝ, (lit 0.5 * (fin x + fin y) : XR) = fin ((x + y) / 2) := by
    intro x y; simp [xr]; ring
  have hz' : ∀ x y : ℝ, ((fin x + fin y) * lit 0.5 : XR) = fin ((x + y) / 2) := by
    intro x y; simp [xr]; ring
  have hsub : ∀ x y : ℝ, (fin x - fin y : XR) = fin (x - y) := by intro x y; simp only [xr]
  have ht : "ellipsoid".toList = 'e' :: "llipsoid".toList := by decide
  refine ⟨isclose (fin ((zA + zB) / 2)) (fin zC) (fin rtol) (fin atol) &&
    (isclose (fin sC) (lit 0) (atol := fin atol) ||
      (PyFloat.le (fin sC) (fin sB) && isclose (deg2rad (fin azC)) (deg2rad (fin azB)) (fin rtol) (fin atol))), ?_, ?_⟩
  · unfold GeoPath.on_path
    rw [if_pos hm']
    unfold GeoPath.on_ellipsoid_path GeoPath.geo_points
    rw [hA, hB, hC]
    unfold GeoPoint.distance_and_azimuth check_frames_pos
    simp only [GeoPoint.real, hc, ht, if_true, GeoPoint.distance_and_azimuth_ellipsoid, Position.to_geo_point, hz, hz',
      FrameE.inverse, FrameE.inverse', FrameE.real, hsub, Bool.false_eq_true, if_false, hgB, hgC, bind, Except.bind, pure,
      Except.pure]
    have hc' : check_frames (⟨fin a, fin f, name, R.fin⟩ : FrameE XR) ⟨fin a, fin f, name, R.fin⟩ = .ok () := hc
    rw [hc']
  · have e : (isclose (fin sC) (lit 0) (atol := fin atol) : Bool) = isclose (fin sC) (fin 0) (fin (1e-9 : ℚ)) (fin atol) := by
      simp only [xr]; norm_num
    have e0 : isclose (fin sC) (fin 0) (fin (1e-9 : ℚ)) (fin atol) = true ↔ sC ≤ atol := by
      rw [C34_finite, sub_zero, abs_zero, abs_of_nonneg hsC, max_eq_left hsC, le_max_iff]
      constructor
      · rintro (h | h)
        · exact h
        · norm_num at h; linarith
      · exact .inl
    rw [e, deg2rad_fin, deg2rad_fin, Bool.and_eq_true, Bool.or_eq_true, Bool.and_eq_true, C34_finite, e0, C34_finite,
      XR.le_fin, decide_eq_true_eq]

/-- **C64** a weakness of the ellipsoidal test: azimuths are compared as numbers, not modulo a turn, so a point straight
south of the first end for which geographiclib reports -180 degrees is not on a path for which it reports +180 degrees,
although both are the same direction -/
theorem C64_south_counterexample (G : Geodesic XR) (P : GeoPath XR) (X : Position XR)
    (latA lonA latB lonB latC lonC z a f : ℝ) (name : EllKey) (R : M3 ℝ)
    (hA : P.point_a.to_geo_point = .real latA lonA z (.real a f name R))
    (hB : P.point_b.to_geo_point = .real latB lonB z (.real a f name R))
    (hC : X.to_geo_point = .real latC lonC z (.real a f name R)) (sB sC : ℝ) (zB' zC' : XR)
    (hgB : G.inverse (fin (a - (z + z) / 2)) (fin f) (rad2deg (fin latA)) (rad2deg (fin lonA)) (rad2deg (fin latB))
      (rad2deg (fin lonB)) false = .ok (fin sB, fin 180, zB'))
    (hgC : G.inverse (fin (a - (z + z) / 2)) (fin f) (rad2deg (fin latA)) (rad2deg (fin lonA)) (rad2deg (fin latC))
      (rad2deg (fin lonC)) false = .ok (fin sC, fin (-180), zC')) (h1 : 1 ≤ sC) (_ : sC ≤ sB) :
    P.on_path G X "ellipsoid" = .ok false := by
  obtain ⟨b, hb, hiff⟩ := C64_ellipsoid_path G P X latA lonA z latB lonB z latC lonC z a f name R hA hB hC sB 180 sC (-180)
    zB' zC' hgB hgC "ellipsoid" (.inr (by decide)) (1e-6 : ℚ) (1e-8 : ℚ) (by norm_num) (by linarith)
  have : b = false := by
    rw [← Bool.not_eq_true, hiff]
    rintro ⟨-, h | ⟨-, h⟩⟩
    · norm_num at h; linarith
    · have e1 : (-180 : ℝ) * (π / 180) = -π := by ring
      have e2 : (180 : ℝ) * (π / 180) = π := by ring
      rw [e1, e2, abs_neg, max_self, show -π - π = -(2 * π) by ring, abs_neg, abs_of_pos (by positivity),
        abs_of_pos Real.pi_pos, le_max_iff] at h
      have := Real.two_le_pi
      rcases h with h | h <;> norm_num at h <;> linarith
  rw [this] at hb
  exact hb

/-! ## non-vacuity: the quarter of the equator from longitude 0 to 90 degrees, and a meridian -/
example (a f : ℝ) (hf : f < 1) (name : EllKey) :
    ∃ pA pB, At (.nvec (.real ⟨1, 0, 0⟩ 0 (.real a f name one))) ⟨1, 0, 0⟩ 0 pA (.real a f name one) ∧
      At (.nvec (.real ⟨0, 1, 0⟩ 0 (.real a f name one))) ⟨0, 1, 0⟩ 0 pB (.real a f name one) ∧
      ProperPath ⟨1, 0, 0⟩ ⟨0, 1, 0⟩ := by
  obtain ⟨pA, hA⟩ := At.of_nvec ⟨1, 0, 0⟩ (by norm_num [UnitVec]) 0 a f hf name one isRotation_one
  obtain ⟨pB, hB⟩ := At.of_nvec ⟨0, 1, 0⟩ (by norm_num [UnitVec]) 0 a f hf name one isRotation_one
  exact ⟨pA, pB, hA, hB, xy_proper⟩

end Nv
