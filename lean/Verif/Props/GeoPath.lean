import Verif.Props.Convert
import Verif.Props.Interp

/-!
# C46, C47, C48: GeoPath
-/

namespace Nv
open Spec Real
open XR (fin)

/-- the position object `x` in the frame `F` has the n-vector `n`, the depth `z` and is at the point `p` -/
structure Spec.At (x : Position XR) (n : V3 ℝ) (z : ℝ) (p : V3 ℝ) (F : FrameE XR) : Prop where
  nv : x.to_nvector = .real n z F
  unit : UnitVec n
  ec : x.to_ecef_vector = .real p F

/-- every GeoPoint with real coordinates, and every Nvector of unit length, is somewhere -/
theorem Spec.At.of_geo (lat lon z a f : ℝ) (hf : f < 1) (name : EllKey) (R : M3 ℝ) (hR : IsRotation R) :
    ∃ n p, At (.geo (.real lat lon z (.real a f name R))) n z p (.real a f name R) ∧ app R n = geoNormal lat lon := by
  obtain ⟨n, hn, hu, hg⟩ := geoPoint_to_nvector lat lon z a f name R hR
  obtain ⟨p, hp⟩ := geoPoint_to_ecef lat lon z a f hf name R hR
  exact ⟨n, p, ⟨hn, hu, hp⟩, hg⟩
theorem Spec.At.of_nvec (n : V3 ℝ) (hn : UnitVec n) (z a f : ℝ) (hf : f < 1) (name : EllKey) (R : M3 ℝ) (hR : IsRotation R) :
    ∃ p, At (.nvec (.real n z (.real a f name R))) n z p (.real a f name R) := by
  refine ⟨app (transp R) (posE a f (app R (dirOf n)) z), rfl, hn, ?_⟩
  change Nvector.to_ecef_vector _ = _
  unfold Nvector.to_ecef_vector Nvector.real FrameE.real ECEFvector.real
  simp only [n2p_fin hn.ne z a f hf hR]
theorem Spec.At.of_ecef (p : V3 ℝ) (a f : ℝ) (ha : 0 < a) (hf0 : 0 ≤ f) (hf : f < 1) (name : EllKey) (R : M3 ℝ)
    (hR : IsRotation R) (hcore : OutsideCore a f (app R p)) :
    ∃ n z, At (.ecef (.real p (.real a f name R))) n z p (.real a f name R) := by
  obtain ⟨n, d, h1, hu, h2⟩ := C06_roundtrip p a f ha hf0 hf R hR hcore
  refine ⟨n, d, ?_, hu, rfl⟩
  change ECEFvector.to_nvector _ = _
  unfold ECEFvector.to_nvector ECEFvector.real Nvector.real FrameE.real; simp only [h1]

/-! ## C46 -/

section
variable {P : GeoPath XR} {A B pA pB : V3 ℝ} {zA zB : ℝ} {F : FrameE XR}

theorem average_radius_fin (hA : At P.point_a A zA pA F) (hB : At P.point_b B zB pB F) :
    P.average_radius = fin ((len pA + len pB) / 2) := by
  unfold GeoPath.average_radius GeoPath.ecef_vectors length
  rw [hA.ec, hB.ec]
  simp only [ECEFvector.real, xr]
  rw [XR.div_fin (by norm_num)]; norm_num

theorem normals_fin (hA : At P.point_a A zA pA F) (hB : At P.point_b B zB pB F) :
    P.nvector_normals = (A.fin, B.fin) := by
  unfold GeoPath.nvector_normals GeoPath.nvectors
  rw [hA.nv, hB.nv]; rfl
end

/-- the first two letters of `method` select the algorithm -/
theorem strTake_two {m : String} {c d : Char} {cs : List Char} (h : m.toList = c :: d :: cs) :
    strTake m 2 = String.ofList [c, d] := by unfold strTake; rw [h]; rfl
theorem strTake_eq {m : String} {c d : Char} : strTake m 2 = String.ofList [c, d] ↔ m.toList.take 2 = [c, d] := by
  unfold strTake; exact ⟨fun h => by simpa using congrArg String.toList h, fun h => by rw [h]⟩

/-- **C46** methods starting with `ex` or `el` give the length of the geodesic between the two GeoPoints at their mean
depth; the radius is ignored -/
theorem C46_exact (G : Geodesic XR) (P : GeoPath XR) (latA lonA zA latB lonB zB a f : ℝ) (name : EllKey) (R : M3 ℝ)
    (hA : P.point_a.to_geo_point = .real latA lonA zA (.real a f name R))
    (hB : P.point_b.to_geo_point = .real latB lonB zB (.real a f name R))
    (m : String) (hm : m.toList.take 2 = ['e', 'x'] ∨ m.toList.take 2 = ['e', 'l']) (radius : Option XR) :
    P.track_distance G m radius =
      (G.inverse (fin (a - (zA + zB) / 2)) (fin f) (rad2deg (fin latA)) (rad2deg (fin lonA)) (rad2deg (fin latB))
        (rad2deg (fin lonB)) false).map (fun r => r.1) := by
  have hc := check_frames_real a f name R
  have hm' : strTake m 2 = "ex" ∨ strTake m 2 = "el" := by
    rcases hm with h | h
    · exact .inl (strTake_eq.2 h)
    · exact .inr (strTake_eq.2 h)
  have hz : (lit 0.5 * (fin zA + fin zB) : XR) = fin ((zA + zB) / 2) := by
    simp [xr]; ring
  have hsub : (fin a - fin ((zA + zB) / 2) : XR) = fin (a - (zA + zB) / 2) := by simp only [xr]
  unfold GeoPath.track_distance
  rw [if_pos hm']
  unfold GeoPath.geo_points
  rw [hA, hB]
  unfold GeoPoint.distance_and_azimuth check_frames_pos
  simp only [GeoPoint.real, hc]
  have ht : "ellipsoid".toList = 'e' :: "llipsoid".toList := by decide
  rw [ht]
  simp only [if_true, GeoPoint.distance_and_azimuth_ellipsoid, Position.to_geo_point, hz, FrameE.inverse, FrameE.inverse',
    FrameE.real, hsub, Bool.false_eq_true, if_false]
  generalize G.inverse _ _ _ _ _ _ _ = r
  rcases r with e | ⟨s, x, y⟩ <;> rfl

/-- **C46** the other methods: `eu` gives the chord, everything else the arc, times the radius, which is by default the
mean distance of the two positions from the centre of the earth -/
theorem C46_sphere (G : Geodesic XR) (P : GeoPath XR) (A B pA pB : V3 ℝ) (zA zB : ℝ) (F : FrameE XR)
    (hA : At P.point_a A zA pA F) (hB : At P.point_b B zB pB F) (m : String) (r : ℝ) :
    (m.toList.take 2 = ['e', 'u'] →
      P.track_distance G m (some (fin r)) = .ok (fin (len (B - A) * r)) ∧
      P.track_distance G m = .ok (fin (len (B - A) * ((len pA + len pB) / 2)))) ∧
    (m.toList.take 2 ≠ ['e', 'x'] → m.toList.take 2 ≠ ['e', 'l'] → m.toList.take 2 ≠ ['e', 'u'] →
      P.track_distance G m (some (fin r)) = .ok (fin (angle A B * r)) ∧
      P.track_distance G m = .ok (fin (angle A B * ((len pA + len pB) / 2)))) := by
  have hr := average_radius_fin hA hB
  have hn := normals_fin hA hB
  have heu : ∀ x : ℝ, euclidean_distance A.fin B.fin (fin x) = fin (len (B - A) * x) := by
    intro x; simp only [euclidean_distance, xr]
  have ex : "ex" = String.ofList ['e', 'x'] := by decide
  have el : "el" = String.ofList ['e', 'l'] := by decide
  have eu : "eu" = String.ofList ['e', 'u'] := by decide
  constructor
  · intro h
    have h1 : ¬ (strTake m 2 = "ex" ∨ strTake m 2 = "el") := by
      rw [ex, el, strTake_eq, strTake_eq, h]; decide
    have h2 : strTake m 2 = "eu" := by rw [eu, strTake_eq]; exact h
    unfold GeoPath.track_distance GeoPath.radiusOr
    simp only [if_neg h1, if_pos h2, hn, Option.getD, hr, heu, and_self]
  · intro hx hl hu
    have h1 : ¬ (strTake m 2 = "ex" ∨ strTake m 2 = "el") := by
      rw [ex, el, strTake_eq, strTake_eq]; tauto
    have h2 : ¬ strTake m 2 = "eu" := by rw [eu, strTake_eq]; exact hu
    unfold GeoPath.track_distance GeoPath.radiusOr
    simp only [if_neg h1, if_neg h2, hn, Option.getD, hr, C18_eq_angle A B hA.unit.ne hB.unit.ne, and_self]

/-- **C46** great circle and Euclidean track distances do not depend on the direction of the path -/
theorem C46_symmetric (G : Geodesic XR) (P : GeoPath XR) (A B pA pB : V3 ℝ) (zA zB : ℝ) (F : FrameE XR)
    (hA : At P.point_a A zA pA F) (hB : At P.point_b B zB pB F) (m : String) (hx : m.toList.take 2 ≠ ['e', 'x'])
    (hl : m.toList.take 2 ≠ ['e', 'l']) :
    P.track_distance G m = (GeoPath.mk P.point_b P.point_a).track_distance G m ∧
    ∀ r : ℝ, P.track_distance G m (some (fin r)) = (GeoPath.mk P.point_b P.point_a).track_distance G m (some (fin r)) := by
  have hl' : len (B - A) = len (A - B) := by
    rw [show B - A = (-1 : ℝ) • (A - B) by ext <;> simp, len_smul]; norm_num
  have h1 := fun r => C46_sphere G P A B pA pB zA zB F hA hB m r
  have h2 := fun r => C46_sphere G ⟨P.point_b, P.point_a⟩ B A pB pA zB zA F hB hA m r
  by_cases hu : m.toList.take 2 = ['e', 'u']
  · refine ⟨?_, fun r => ?_⟩
    · rw [((h1 0).1 hu).2, ((h2 0).1 hu).2, hl', add_comm (len pA)]
    · rw [((h1 r).1 hu).1, ((h2 r).1 hu).1, hl']
  · refine ⟨?_, fun r => ?_⟩
    · rw [((h1 0).2 hx hl hu).2, ((h2 0).2 hx hl hu).2, angle_comm, add_comm (len pA)]
    · rw [((h1 r).2 hx hl hu).1, ((h2 r).2 hx hl hu).1, angle_comm]

example : "euclidean".toList.take 2 = ['e', 'u'] ∧ "greatcircle".toList.take 2 ≠ ['e', 'x'] ∧
    "exact".toList.take 2 = ['e', 'x'] ∧ "ellipsoid".toList.take 2 = ['e', 'l'] := by decide

/-! ## C48 -/

theorem on_path_greatcircle {G : Geodesic XR} {P : GeoPath XR} {A B pA pB : V3 ℝ} {zA zB : ℝ} {F : FrameE XR}
    (hA : At P.point_a A zA pA F) (hB : At P.point_b B zB pB F) (Q : Position XR) (C : V3 ℝ) (z : ℝ) (F' : FrameE XR)
    (hQ : Q.to_nvector = .real C z F') (m : String) (hx : m.toList.take 2 ≠ ['e', 'x'])
    (hl : m.toList.take 2 ≠ ['e', 'l']) (rtol atol : ℝ) :
    P.on_path G Q m (fin rtol) (fin atol) =
      .ok (on_great_circle_path (A.fin, B.fin) C.fin (fin ((len pA + len pB) / 2)) (fin atol) &&
        isclose (fin z) (fin ((zA + zB) / 2)) (fin rtol) (fin atol)) := by
  have ex : "ex" = String.ofList ['e', 'x'] := by decide
  have el : "el" = String.ofList ['e', 'l'] := by decide
  have h1 : ¬ (strTake m 2 = "ex" ∨ strTake m 2 = "el") := by
    rw [ex, el, strTake_eq, strTake_eq]; tauto
  have hz : ((fin zA + fin zB) * lit 0.5 : XR) = fin ((zA + zB) / 2) := by
    simp [xr]; ring
  unfold GeoPath.on_path GeoPath.on_great_circle_path GeoPath.radiusOr
  rw [if_neg h1, hQ, normals_fin hA hB, Option.getD, average_radius_fin hA hB]
  unfold GeoPath.nvectors
  rw [hA.nv, hB.nv]
  simp only [Nvector.real, hz]

/-- the n-vector and depth of an interpolated point -/
theorem geoPath_interpolate_fin {P : GeoPath XR} {A B pA pB : V3 ℝ} {zA zB a f : ℝ} {name : EllKey} {R : M3 ℝ}
    (hA : At P.point_a A zA pA (.real a f name R)) (hB : At P.point_b B zB pB (.real a f name R)) (t : ℝ)
    (h : mix A B t ≠ 0) :
    P.interpolate (fin t) = .ok (.real (dirOf (mix A B t)) (zA + t * (zB - zA)) (.real a f name R)) := by
  have hc := check_frames_real a f name R
  unfold GeoPath.interpolate GeoPath.nvectors
  rw [hA.nv, hB.nv]
  have hi := interpolate_fin h
  unfold interpolate at hi
  simp only [Nvector.sub, Nvector.mul, Nvector.add, Nvector.real, hc, bind, Except.bind, pure, Except.pure, hi]
  simp only [xr]
  rw [mul_comm (zB - zA) t]

/-- **C48** (part): every interpolated point of a proper path is on the path, endpoints included, if the two positions are
at the same depth.  Missing: different depths, for which the claim is false (`C48_depth_counterexample`). -/
theorem C48_on_path_partial (G : Geodesic XR) (P : GeoPath XR) (A B pA pB : V3 ℝ) (z a f : ℝ) (name : EllKey) (R : M3 ℝ)
    (hA : At P.point_a A z pA (.real a f name R)) (hB : At P.point_b B z pB (.real a f name R)) (hp : ProperPath A B)
    (t : ℝ) (ht0 : 0 ≤ t) (ht1 : t ≤ 1) (m : String) (hx : m.toList.take 2 ≠ ['e', 'x'])
    (hl : m.toList.take 2 ≠ ['e', 'l']) (rtol atol : ℝ) (hat : 0 ≤ atol) :
    ∃ Q, P.interpolate (fin t) = .ok Q ∧ P.on_path G (.nvec Q) m (fin rtol) (fin atol) = .ok true := by
  have hne : ¬ (B = -A ∧ t = 1 / 2) := by
    rintro ⟨rfl, -⟩
    apply hp
    rw [show -A = (-1 : ℝ) • A by ext <;> simp, cross_smul_right, cross_self]; ext <;> simp
  have hmix : mix A B t ≠ 0 := fun h => hne ((mix_zero_iff hA.unit hB.unit t).1 h)
  refine ⟨_, geoPath_interpolate_fin hA hB t hmix, ?_⟩
  rw [on_path_greatcircle hA hB _ _ _ _ rfl m hx hl rtol atol]
  obtain ⟨Q, hQ, harc⟩ := C25_on_arc A B hA.unit hB.unit t ht0 ht1 hne
  rw [interpolate_fin hmix, V3.fin_inj] at hQ
  rw [hQ]
  have hzz : z + t * (z - z) = (z + z) / 2 := by ring
  rw [hzz, C34_refl (fin ((z + z) / 2)) nofun rtol atol hat, Bool.and_true]
  congr 1
  rw [on_great_circle_path_fin hA.unit hB.unit hp harc.1]
  have hadd := arc_additive hA.unit hB.unit hp harc
  refine ⟨?_, ?_, ?_⟩
  · rw [← cos_angle_unit hA.unit hB.unit, ← cos_angle_unit harc.1 hA.unit]
    apply Real.cos_le_cos_of_nonneg_of_le_pi (angle_nonneg _ _) (angle_le_pi _ _)
    rw [angle_comm Q A]; linarith [angle_nonneg Q B]
  · rw [← cos_angle_unit hA.unit hB.unit, ← cos_angle_unit harc.1 hB.unit]
    apply Real.cos_le_cos_of_nonneg_of_le_pi (angle_nonneg _ _) (angle_le_pi _ _)
    linarith [angle_nonneg A Q]
  · rw [on_great_circle_fin hp harc.1, decide_eq_true_eq, ((onCircle_iff_normal hp).1 harc.onCircle).2]
    simpa using hat

/-- **C48** is false for positions at different depths: `on_path` compares the depth with the mean of the end depths, so
even the endpoints themselves are not on the path -/
theorem C48_depth_counterexample (G : Geodesic XR) (P : GeoPath XR) (A B pA pB : V3 ℝ) (a f : ℝ) (name : EllKey) (R : M3 ℝ)
    (hA : At P.point_a A 0 pA (.real a f name R)) (hB : At P.point_b B 2 pB (.real a f name R)) :
    ∃ Q, P.interpolate (fin 0) = .ok Q ∧ P.on_path G (.nvec Q) = .ok false ∧ P.on_path G P.point_a = .ok false := by
  have hmix : mix A B 0 = A := by rw [mix_eq]; ext <;> simp
  have hi := geoPath_interpolate_fin hA hB 0 (by rw [hmix]; exact hA.unit.ne)
  have hclose : isclose (fin 0) (fin ((0 + 2) / 2)) (fin (1e-6 : ℚ)) (fin (1e-8 : ℚ)) = false := by
    rw [← Bool.not_eq_true, C34_finite]; norm_num
  have hx : "greatcircle".toList.take 2 ≠ ['e', 'x'] := by decide
  have hl : "greatcircle".toList.take 2 ≠ ['e', 'l'] := by decide
  refine ⟨_, hi, ?_, ?_⟩
  · have := on_path_greatcircle (G := G) hA hB (.nvec (.real (dirOf (mix A B 0)) (0 + 0 * (2 - 0)) (.real a f name R))) _ _ _ rfl
      "greatcircle" hx hl (1e-6 : ℚ) (1e-8 : ℚ)
    rw [zero_mul, add_zero] at this ⊢
    rw [hclose, Bool.and_false] at this
    exact this
  · have := on_path_greatcircle (G := G) hA hB P.point_a _ _ _ hA.nv "greatcircle" hx hl (1e-6 : ℚ) (1e-8 : ℚ)
    rw [hclose, Bool.and_false] at this
    exact this

/-! ## C47 -/

/-- a point of the circle that is not on the arc is nearest to an endpoint of the arc -/
theorem arc_max {A B Q S : V3 ℝ} (hA : UnitVec A) (hB : UnitVec B) (hp : ProperPath A B) (hQ : OnCircle A B Q)
    (hQn : ¬ OnArc A B Q) (hS : OnArc A B S) : dot Q S ≤ max (dot Q A) (dot Q B) := by
  obtain ⟨hQu, q1, q2, hq⟩ := hQ
  obtain ⟨hSu, x, y, hx, hy, hs⟩ := hS
  have hc2 := ProperPath.dot_lt_one hA hB hp
  have hc1 : dot A B < 1 := by nlinarith
  obtain ⟨hqa, hqb⟩ := arc_coeff hA hB hq
  obtain ⟨hsa, hsb⟩ := arc_coeff hA hB hs
  have hQS : dot Q S = x * dot Q A + y * dot Q B := by rw [hs, dot_add_right, dot_smul_right, dot_smul_right]
  have hSA := dot_le_one hSu hA
  have hSB := dot_le_one hSu hB
  have hSA' := neg_one_le_dot hSu hA
  have hxy : 1 ≤ x + y := by
    have h1 : dot S S = 1 := hSu.dot
    have h2 : dot S S = x * dot S A + y * dot S B := by
      conv_lhs => arg 2; rw [hs]
      rw [dot_add_right, dot_smul_right, dot_smul_right]
    nlinarith
  have hneg : q1 < 0 ∨ q2 < 0 := by
    by_contra h
    push Not at h
    exact hQn ⟨hQu, q1, q2, h.1, h.2, hq⟩
  -- the two expansions
  have ea : dot Q S = dot S A * dot Q A + q2 * y * (1 - dot A B ^ 2) := by rw [hQS, hqa, hqb, hsa]; ring
  have eb : dot Q S = dot S B * dot Q B + q1 * x * (1 - dot A B ^ 2) := by rw [hQS, hqa, hqb, hsb]; ring
  have hpos : 0 < 1 - dot A B ^ 2 := by linarith
  have ha : q2 ≤ 0 → 0 ≤ dot Q A → dot Q S ≤ dot Q A := by
    intro h h'
    rw [ea]
    have h1 : q2 * y * (1 - dot A B ^ 2) ≤ 0 :=
      mul_nonpos_of_nonpos_of_nonneg (mul_nonpos_of_nonpos_of_nonneg h hy) hpos.le
    nlinarith [mul_le_mul_of_nonneg_right hSA h']
  have hb : q1 ≤ 0 → 0 ≤ dot Q B → dot Q S ≤ dot Q B := by
    intro h h'
    rw [eb]
    have h1 : q1 * x * (1 - dot A B ^ 2) ≤ 0 :=
      mul_nonpos_of_nonpos_of_nonneg (mul_nonpos_of_nonpos_of_nonneg h hx) hpos.le
    nlinarith [mul_le_mul_of_nonneg_right hSB h']
  have hmneg : dot Q A < 0 → dot Q B < 0 → dot Q S ≤ max (dot Q A) (dot Q B) := by
    intro h h'
    have hm : max (dot Q A) (dot Q B) < 0 := max_lt h h'
    have h1 := mul_le_mul_of_nonneg_left (le_max_left (dot Q A) (dot Q B)) hx
    have h2 := mul_le_mul_of_nonneg_left (le_max_right (dot Q A) (dot Q B)) hy
    nlinarith
  generalize dot A B = c at *
  generalize dot Q A = u at *
  generalize dot Q B = v at *
  generalize dot Q S = w at *
  rcases hneg with h1 | h2
  · rcases le_or_gt 0 v with hv | hv
    · exact le_max_of_le_right (hb h1.le hv)
    · rcases lt_or_ge u 0 with hu | hu
      · exact hmneg hu hv
      · rcases le_or_gt q2 0 with hq2 | hq2
        · exact le_max_of_le_left (ha hq2 hu)
        · exfalso
          have hc0 : 0 < c := by
            by_contra hh; push Not at hh
            have := mul_nonneg_of_nonpos_of_nonpos h1.le hh
            linarith
          nlinarith [mul_le_mul_of_nonneg_left (show -q1 ≤ q2 * c by linarith) hc0.le]
  · rcases le_or_gt 0 u with hu | hu
    · exact le_max_of_le_left (ha h2.le hu)
    · rcases lt_or_ge v 0 with hv | hv
      · exact hmneg hu hv
      · rcases le_or_gt q1 0 with hq1 | hq1
        · exact le_max_of_le_right (hb hq1 hv)
        · exfalso
          have hc0 : 0 < c := by
            by_contra hh; push Not at hh
            have := mul_nonneg_of_nonpos_of_nonpos h2.le hh
            linarith
          nlinarith [mul_le_mul_of_nonneg_left (show -q2 ≤ q1 * c by linarith) hc0.le]

/-- the nearest point of the circle, and distances from `C` in terms of it -/
theorem closest_foot {A B C : V3 ℝ} (hp : ProperPath A B) (hC : UnitVec C) (hne : cross C (cross A B) ≠ 0) :
    ∃ (Q : V3 ℝ) (k : ℝ), closest_point_on_great_circle (A.fin, B.fin) C.fin = Q.fin ∧ OnCircle A B Q ∧ 0 < k ∧
      ∀ S, OnCircle A B S → dot C S = k * dot Q S := by
  have hcu : UnitVec (dirOf (cross A B)) := hp.dirOf_unit
  have hl := len_pos hp
  have hne' : cross C (dirOf (cross A B)) ≠ 0 := by
    unfold dirOf; rw [cross_smul_right]; exact smul_ne_zero (inv_ne_zero hl.ne') hne
  obtain ⟨h1, h2, h3, h4, h5, h6⟩ := foot hcu hC hne'
  obtain ⟨c, hc⟩ : ∃ c, c = dirOf (cross A B) := ⟨_, rfl⟩
  rw [← hc] at h1 h2 h3 h4 h5
  refine ⟨dirOf (cross c (cross C c)), len (cross c (cross C c)), ?_, ?_, len_pos h1, ?_⟩
  · simp only [closest_point_on_great_circle, great_circle_normal_fin hp, xr, ← hc, unit_fin h1]
    rw [dot_comm, h4, XR.sign_pos h5]
    simp only [xr]
    congr 1; ext <;> simp
  · rw [onCircle_iff_normal hp, ← hc]; exact ⟨dirOf_unit h1, h3⟩
  · intro S hS
    rw [onCircle_iff_normal hp, ← hc] at hS
    rw [← dot_smul_left, smul_dirOf, h2, show C - dot c C • c = C + (-dot c C) • c by ext <;> simp <;> ring,
      dot_add_left, dot_smul_left, hS.2]; ring

/-- the n-vector of the GeoPoint of a position is that of the position -/
theorem at_to_geo {x : Position XR} {n p : V3 ℝ} {z a f : ℝ} {name : EllKey} {R : M3 ℝ} (hR : IsRotation R)
    (h : At x n z p (.real a f name R)) : x.to_geo_point.to_nvector = .real n z (.real a f name R) := by
  have key : ∀ y : Nvector XR, y = .real n z (.real a f name R) → y.to_geo_point.to_nvector = .real n z (.real a f name R) := by
    rintro y rfl
    rw [C45_nvector_geo_nvector n h.unit.ne z a f name R hR]
    exact congrArg (fun v => Nvector.real v z _) (dirOf_of_unit h.unit)
  cases x with
  | geo g => exact h.nv
  | nvec y => exact key _ h.nv
  | ecef y => exact key _ h.nv
  | pvec y => exact key _ h.nv

theorem closest_nvector_fin {P : GeoPath XR} {A B pA pB : V3 ℝ} {zA zB : ℝ} {F : FrameE XR}
    (hA : At P.point_a A zA pA F) (hB : At P.point_b B zB pB F) {X : Position XR} {C pC : V3 ℝ} {zC : ℝ} {F' : FrameE XR}
    (hX : At X C zC pC F') {Q : V3 ℝ} (hQ : closest_point_on_great_circle (A.fin, B.fin) C.fin = Q.fin) :
    P.closest_nvector X = .real Q ((zA + zB) / 2) F' := by
  have hz : ((fin zA + fin zB) * lit 0.5 : XR) = fin ((zA + zB) / 2) := by
    simp [xr]; ring
  unfold GeoPath.closest_nvector
  rw [normals_fin hA hB, hX.nv]
  unfold GeoPath.nvectors
  rw [hA.nv, hB.nv]
  simp only [Nvector.real, hQ, hz]

/-- **C47** (part): on paths shorter than 120 degrees the result of `closest_point_on_path` is a point of the segment, at
the mean depth of the path's ends or at the depth of one of them, and no point of the segment is nearer on the sphere.
Missing: the two poles of the path's great circle and longer paths; there the claim is false (`C47_pole_counterexample`,
`C47_long_path_counterexample`). -/
theorem C47_nearest_partial (P : GeoPath XR) (A B C pA pB pC : V3 ℝ) (zA zB zC a f : ℝ) (name : EllKey) (R : M3 ℝ)
    (hR : IsRotation R)
    (hA : At P.point_a A zA pA (.real a f name R)) (hB : At P.point_b B zB pB (.real a f name R)) (X : Position XR)
    (hX : At X C zC pC (.real a f name R)) (hp : ProperPath A B) (hshort : angle A B < 2 * π / 3)
    (hne : cross C (cross A B) ≠ 0) (hr : 0 < len pA + len pB) (r : ℝ) (hr' : 0 < r) :
    ∃ (Q : V3 ℝ) (z : ℝ), (P.closest_point_on_path X).to_nvector = .real Q z (.real a f name R) ∧ OnArc A B Q ∧
      (z = (zA + zB) / 2 ∨ Q = A ∧ z = zA ∨ Q = B ∧ z = zB) ∧
      ∃ d, great_circle_distance C.fin Q.fin (fin r) = fin d ∧
        ∀ S, OnArc A B S → ∃ d', great_circle_distance C.fin S.fin (fin r) = fin d' ∧ d ≤ d' := by
  obtain ⟨Q, k, hQ, hcirc, hk, hdot⟩ := closest_foot hp hX.unit hne
  have hnv := closest_nvector_fin hA hB hX hQ
  have hr2 : 0 < (len pA + len pB) / 2 := by linarith
  -- the acceptance test is exactly "on the arc"
  have htest : P.on_great_circle_path (.nvec (.real Q ((zA + zB) / 2) (.real a f name R))) none (lit 1e-6) (lit 1e-8) = true ↔
      OnArc A B Q := by
    have hx : "greatcircle".toList.take 2 ≠ ['e', 'x'] := by decide
    have hl : "greatcircle".toList.take 2 ≠ ['e', 'l'] := by decide
    have e := on_path_greatcircle (G := ⟨fun _ _ _ _ _ _ _ => .error .ValueError, fun _ _ _ _ _ _ _ => .error .ValueError⟩)
      hA hB (.nvec (.real Q ((zA + zB) / 2) (.real a f name R))) Q _ _ rfl "greatcircle" hx hl (1e-6 : ℚ) (1e-8 : ℚ)
    have e' : P.on_great_circle_path (.nvec (.real Q ((zA + zB) / 2) (.real a f name R))) none (lit 1e-6) (lit 1e-8) =
      (on_great_circle_path (A.fin, B.fin) Q.fin (fin ((len pA + len pB) / 2)) (fin (1e-8 : ℚ)) &&
        isclose (fin ((zA + zB) / 2)) (fin ((zA + zB) / 2)) (fin (1e-6 : ℚ)) (fin (1e-8 : ℚ))) := Except.ok.inj e
    rw [e', C34_refl (fin ((zA + zB) / 2)) nofun _ _ (by norm_num), Bool.and_true]
    rw [← C23_on_path_partial A B Q hA.unit hB.unit hp hcirc.1 hshort _ hr2,
      on_great_circle_path_fin hA.unit hB.unit hp hcirc.1, on_great_circle_path_fin hA.unit hB.unit hp hcirc.1,
      on_great_circle_fin hp hcirc.1, on_great_circle_fin hp hcirc.1, ((onCircle_iff_normal hp).1 hcirc).2]
    norm_num
  have hmono : ∀ {S T : V3 ℝ}, UnitVec S → UnitVec T → dot C T ≤ dot C S → angle C S * r ≤ angle C T * r := by
    intro S T hS hT h
    apply mul_le_mul_of_nonneg_right _ hr'.le
    rw [angle_unit hX.unit hS, angle_unit hX.unit hT]
    exact Real.arccos_le_arccos h
  unfold GeoPath.closest_point_on_path
  rw [hnv]
  by_cases harc : OnArc A B Q
  · rw [if_pos (htest.2 harc)]
    refine ⟨Q, (zA + zB) / 2, ?_, harc, .inl rfl, _, C18_eq_angle _ _ hX.unit.ne harc.1.ne r, ?_⟩
    · rw [C45_nvector_geo_nvector Q harc.1.ne _ a f name R hR]
      exact congrArg (fun v => Nvector.real v _ _) (dirOf_of_unit harc.1)
    · intro S hS
      refine ⟨_, C18_eq_angle _ _ hX.unit.ne hS.1.ne r, hmono harc.1 hS.1 ?_⟩
      rw [hdot S hS.onCircle, hdot Q hcirc, hcirc.1.dot]
      nlinarith [dot_le_one hcirc.1 hS.1]
  · rw [if_neg (fun h => harc (htest.1 h))]
    have hmax : ∀ S, OnArc A B S → dot C S ≤ max (dot C A) (dot C B) := by
      intro S hS
      rw [hdot S hS.onCircle, hdot A (onCircle_left hA.unit), hdot B (onCircle_right hB.unit),
        ← mul_max_of_nonneg _ _ hk.le]
      exact mul_le_mul_of_nonneg_left (arc_max hA.unit hB.unit hp hcirc harc hS) hk.le
    have hd1 : great_circle_distance A.fin C.fin (fin ((len pA + len pB) / 2)) = _ :=
      C18_eq_angle A C hA.unit.ne hX.unit.ne _
    have hd2 : great_circle_distance B.fin C.fin (fin ((len pA + len pB) / 2)) = _ :=
      C18_eq_angle B C hB.unit.ne hX.unit.ne _
    rw [hX.nv, normals_fin hA hB, average_radius_fin hA hB]
    simp only [Nvector.real, hd1, hd2, XR.lt_fin, decide_eq_true_eq]
    have hcmp : angle A C * ((len pA + len pB) / 2) < angle B C * ((len pA + len pB) / 2) ↔ dot C B < dot C A := by
      rw [mul_lt_mul_iff_left₀ hr2, angle_comm A C, angle_comm B C, angle_unit hX.unit hA.unit, angle_unit hX.unit hB.unit]
      exact Real.strictAntiOn_arccos.lt_iff_gt ⟨neg_one_le_dot hX.unit hA.unit, dot_le_one hX.unit hA.unit⟩
        ⟨neg_one_le_dot hX.unit hB.unit, dot_le_one hX.unit hB.unit⟩
    by_cases hlt : dot C B < dot C A
    · rw [if_pos (hcmp.2 hlt)]
      refine ⟨A, zA, at_to_geo hR hA, ⟨hA.unit, 1, 0, by norm_num, le_rfl, by ext <;> simp⟩, .inr (.inl ⟨rfl, rfl⟩), _,
        C18_eq_angle _ _ hX.unit.ne hA.unit.ne r, ?_⟩
      intro S hS
      refine ⟨_, C18_eq_angle _ _ hX.unit.ne hS.1.ne r, hmono hA.unit hS.1 ?_⟩
      have := hmax S hS
      rwa [max_eq_left hlt.le] at this
    · rw [if_neg (fun h => hlt (hcmp.1 h))]
      refine ⟨B, zB, at_to_geo hR hB, ⟨hB.unit, 0, 1, le_rfl, by norm_num, by ext <;> simp⟩, .inr (.inr ⟨rfl, rfl⟩), _,
        C18_eq_angle _ _ hX.unit.ne hB.unit.ne r, ?_⟩
      intro S hS
      refine ⟨_, C18_eq_angle _ _ hX.unit.ne hS.1.ne r, hmono hB.unit hS.1 ?_⟩
      have := hmax S hS
      rwa [max_eq_right (not_lt.1 hlt)] at this

theorem accept_fin {P : GeoPath XR} {A B pA pB : V3 ℝ} {zA zB : ℝ} {F : FrameE XR}
    (hA : At P.point_a A zA pA F) (hB : At P.point_b B zB pB F) (Q : V3 ℝ) (F' : FrameE XR) :
    P.on_great_circle_path (.nvec (.real Q ((zA + zB) / 2) F')) none (lit 1e-6) (lit 1e-8) =
      on_great_circle_path (A.fin, B.fin) Q.fin (fin ((len pA + len pB) / 2)) (fin (1e-8 : ℚ)) := by
  have hx : "greatcircle".toList.take 2 ≠ ['e', 'x'] := by decide
  have hl : "greatcircle".toList.take 2 ≠ ['e', 'l'] := by decide
  have e := on_path_greatcircle (G := ⟨fun _ _ _ _ _ _ _ => .error .ValueError, fun _ _ _ _ _ _ _ => .error .ValueError⟩)
    hA hB (.nvec (.real Q ((zA + zB) / 2) F')) Q _ _ rfl "greatcircle" hx hl (1e-6 : ℚ) (1e-8 : ℚ)
  have e' := Except.ok.inj e
  rw [C34_refl (fin ((zA + zB) / 2)) nofun _ _ (by norm_num), Bool.and_true] at e'
  exact e'

/-- **C47** is false on every path of 120 degrees or more: for some position the result is outside the segment -/
theorem C47_long_path_counterexample (P : GeoPath XR) (A B pA pB : V3 ℝ) (zA zB a f : ℝ) (hf : f < 1) (name : EllKey)
    (R : M3 ℝ) (hR : IsRotation R)
    (hA : At P.point_a A zA pA (.real a f name R)) (hB : At P.point_b B zB pB (.real a f name R))
    (hp : ProperPath A B) (hlong : 2 * π / 3 ≤ angle A B) (hr : 0 < len pA + len pB) :
    ∃ (X : Position XR) (Q : V3 ℝ) (z : ℝ), (P.closest_point_on_path X).to_nvector = .real Q z (.real a f name R) ∧
      ¬ OnArc A B Q := by
  obtain ⟨C, hC, hnot, hacc⟩ := C23_long_path_counterexample A B hA.unit hB.unit hp hlong ((len pA + len pB) / 2) (by linarith)
  rw [on_great_circle_path_fin hA.unit hB.unit hp hC, C22_zero_tolerance A B C hp hC _ (by linarith)] at hacc
  obtain ⟨hacc1, hacc2, hcirc⟩ := hacc
  have hne : cross C (cross A B) ≠ 0 := by
    intro h
    have h1 := lagrange C (cross A B)
    rw [h, dot_comm, ((onCircle_iff hp).1 hcirc).2, hC.len, len_eq_zero.2 rfl] at h1
    have := len_pos hp
    nlinarith
  obtain ⟨p, hX⟩ := At.of_nvec C hC 0 a f hf name R hR
  obtain ⟨Q, k, hQ, hQc, hk, hdot⟩ := closest_foot hp hC hne
  have hQC : Q = C := by
    have h1 := hdot Q hQc
    have h2 := hdot C hcirc
    rw [hQc.1.dot, dot_comm] at h1
    rw [hC.dot, h1] at h2
    have : k = 1 := by nlinarith
    exact eq_of_dot_eq_one hQc.1 hC (by rw [h1, this]; norm_num)
  rw [hQC] at hQ hQc
  refine ⟨.nvec (.real C 0 (.real a f name R)), C, (zA + zB) / 2, ?_, hnot⟩
  unfold GeoPath.closest_point_on_path
  rw [closest_nvector_fin hA hB hX hQ]
  rw [if_pos]
  · rw [C45_nvector_geo_nvector C hC.ne _ a f name R hR]
    exact congrArg (fun v => Nvector.real v _ _) (dirOf_of_unit hC)
  · rw [accept_fin hA hB, on_great_circle_path_fin hA.unit hB.unit hp hC, on_great_circle_fin hp hC,
      ((onCircle_iff_normal hp).1 hcirc).2]
    refine ⟨hacc1, hacc2, ?_⟩
    norm_num

/-- **C47** is false at a pole of the path's great circle.  For the position above the north pole (default axes) and the
equator segment from longitude 0 to 90 degrees, `closest_point_on_path` returns the same answer as for the opposite
segment from 180 to 270 degrees, although the two have no point in common. -/
theorem C47_pole_counterexample (a f : ℝ) (hf : f < 1) (name : EllKey) (R : M3 ℝ) (hR : IsRotation R) (x y n : V3 ℝ)
    (hx : x = ⟨1, 0, 0⟩) (hy : y = ⟨0, 1, 0⟩) (hn : n = ⟨0, 0, 1⟩) :
    let at0 (v : V3 ℝ) : Position XR := .nvec (.real v 0 (.real a f name R))
    (GeoPath.mk (at0 x) (at0 y)).closest_point_on_path (at0 n) =
      (GeoPath.mk (at0 (-x)) (at0 (-y))).closest_point_on_path (at0 n) ∧
    ∀ Q, ¬ (OnArc x y Q ∧ OnArc (-x) (-y) Q) := by
  intro at0
  have ux : UnitVec x := by subst hx; norm_num [UnitVec]
  have uy : UnitVec y := by subst hy; norm_num [UnitVec]
  have un : UnitVec n := by subst hn; norm_num [UnitVec]
  constructor
  · -- the foot is the zero vector, and it is accepted
    have key : ∀ s : ℝ, s ^ 2 = 1 → closest_point_on_great_circle ((s • x).fin, (s • y).fin) n.fin = (0 : V3 ℝ).fin ∧
        ∀ r : ℝ, on_great_circle_path ((s • x).fin, (s • y).fin) (0 : V3 ℝ).fin (fin r) (fin (1e-8 : ℚ)) = true := by
      intro s hs
      have hc : cross (s • x) (s • y) = n := by
        subst hx hy hn; ext <;> simp [cross]; nlinarith
      have hcn : ProperPath (s • x) (s • y) := by unfold ProperPath; rw [hc]; exact un.ne
      have hd : dirOf (cross (s • x) (s • y)) = n := by rw [hc, dirOf_of_unit un]
      have hl : len (s • y - s • x) = √2 := by
        subst hx hy; unfold len; congr 1; simp; nlinarith
      have hlx : ∀ v, UnitVec v → len ((0 : V3 ℝ) - s • v) = 1 := by
        intro v hv
        rw [show (0 : V3 ℝ) - s • v = (-s) • v by ext <;> simp, len_smul, hv.len, abs_neg, mul_one]
        exact abs_eq_of_sq hs
      have h2 : √2 ≠ 0 := by positivity
      have h2' : 1 / √2 ≤ 1 := by
        rw [div_le_one (by positivity)]
        exact Real.one_le_sqrt.2 (by norm_num)
      constructor
      · have hz : cross n (cross n n) = 0 := by rw [cross_self]; ext <;> simp [cross]
        simp only [closest_point_on_great_circle, great_circle_normal_fin hcn, hd, xr, hz]
        have hdot : dot ⟨((1 : ℚ) : ℝ), 0, 0⟩ n = 0 := by subst hn; simp [dot]
        rw [hdot, XR.sign_zero, scale3_fin]
        congr 1; ext <;> simp
      · intro r
        have hz0 : dot n (0 : V3 ℝ) = 0 := by simp [dot]
        have hon : on_great_circle ((s • x).fin, (s • y).fin) (0 : V3 ℝ).fin (fin r) (fin (1e-8 : ℚ)) = true := by
          unfold on_great_circle abs_cross_track
          rw [cross_track_method _ _ _ "greatcircle" 'g' "reatcircle".toList (by decide)]
          rw [if_neg (by decide)]
          simp only [great_circle_normal_fin hcn, hd, xr, hz0]
          rw [XR.arcsin_fin (by norm_num) (by norm_num)]
          simp only [xr]
          norm_num
        simp only [on_great_circle_path, xr, hl, hlx x ux, hlx y uy, XR.div_fin h2, hon]
        simpa using h2'
    have hneg : ∀ v : V3 ℝ, -v = (-1 : ℝ) • v := by intro v; ext <;> simp
    have hone : ∀ v : V3 ℝ, (1 : ℝ) • v = v := by intro v; ext <;> simp
    obtain ⟨k1, k1'⟩ := key 1 (by norm_num)
    obtain ⟨k2, k2'⟩ := key (-1) (by norm_num)
    rw [hone, hone] at k1 k1'
    rw [← hneg, ← hneg] at k2 k2'
    obtain ⟨px, hX⟩ := At.of_nvec x ux 0 a f hf name R hR
    obtain ⟨py, hY⟩ := At.of_nvec y uy 0 a f hf name R hR
    obtain ⟨qx, hX'⟩ := At.of_nvec (-x) ux.neg 0 a f hf name R hR
    obtain ⟨qy, hY'⟩ := At.of_nvec (-y) uy.neg 0 a f hf name R hR
    obtain ⟨pn, hN⟩ := At.of_nvec n un 0 a f hf name R hR
    have r1 : (GeoPath.mk (at0 x) (at0 y)).closest_point_on_path (at0 n) =
        (Nvector.real 0 ((0 + 0) / 2) (.real a f name R)).to_geo_point := by
      unfold GeoPath.closest_point_on_path
      rw [closest_nvector_fin (P := ⟨at0 x, at0 y⟩) hX hY hN k1, if_pos]
      rw [accept_fin (P := ⟨at0 x, at0 y⟩) hX hY]; exact k1' _
    have r2 : (GeoPath.mk (at0 (-x)) (at0 (-y))).closest_point_on_path (at0 n) =
        (Nvector.real 0 ((0 + 0) / 2) (.real a f name R)).to_geo_point := by
      unfold GeoPath.closest_point_on_path
      rw [closest_nvector_fin (P := ⟨at0 (-x), at0 (-y)⟩) hX' hY' hN k2, if_pos]
      rw [accept_fin (P := ⟨at0 (-x), at0 (-y)⟩) hX' hY']; exact k2' _
    rw [r1, r2]
  · rintro Q ⟨⟨hQ, s, t, hs, ht, e⟩, _, s', t', hs', ht', e'⟩
    subst hx hy
    rw [e'] at hQ
    have h1 := congrArg V3.x (e.symm.trans e')
    have h2 := congrArg V3.y (e.symm.trans e')
    simp at h1 h2
    have hs0 : s' = 0 := by linarith
    have ht0 : t' = 0 := by linarith
    rw [hs0, ht0] at hQ
    simp [UnitVec] at hQ
where
  abs_eq_of_sq {s : ℝ} (h : s ^ 2 = 1) : |s| = 1 := by
    rcases sq_eq_one_iff_of_side h with h | h <;> rw [h] <;> norm_num

end Nv
