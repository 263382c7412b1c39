import Verif.Props.Crossing

/-!
# C158 for `GeoPath`
-/

namespace Nv
open Spec Real
open XR (fin)

/-- `GeoPath.intersect` from the result for the n-vectors -/
theorem path_intersect_of {P P' : GeoPath XR} {A B A' B' pA pB pA' pB' C : V3 ℝ} {zA zB zA' zB' : ℝ} {F F' : FrameE XR}
    (hA : At P.point_a A zA pA F) (hB : At P.point_b B zB pB F) (hA' : At P'.point_a A' zA' pA' F')
    (hB' : At P'.point_b B' zB' pB' F') (hloc : ∀ p, P.point_a ≠ .pvec p)
    (hC : intersect (A.fin, B.fin) (A'.fin, B'.fin) = C.fin) :
    P.intersect P' = .ok (.real C ((zA + zB + zA' + zB') / 4) F) := by
  have hfr : GeoPath.frameOf P.point_a = .ok F := by
    have hec := hA.ec
    have hnv := hA.nv
    revert hec hnv hloc
    cases P.point_a with
    | pvec p => intro h; exact absurd rfl (h p)
    | geo p => intro _ h _; exact congrArg Except.ok (congrArg ECEFvector.frame h)
    | nvec p => intro _ h _; exact congrArg Except.ok (congrArg ECEFvector.frame h)
    | ecef p => intro _ h _; exact congrArg Except.ok (congrArg ECEFvector.frame h)
  have hz : ((fin zA + fin zB + fin zA' + fin zB') / lit 4 : XR) = fin ((zA + zB + zA' + zB') / 4) := by
    simp only [xr]; rw [XR.div_fin (by norm_num)]; norm_num
  unfold GeoPath.intersect
  rw [normals_fin hA hB, normals_fin hA' hB', hC, hfr]
  unfold GeoPath.nvectors
  rw [hA.nv, hB.nv, hA'.nv, hB'.nv]
  simp only [Nvector.real, hz]
  rfl

theorem path_cross_track_fin {P : GeoPath XR} {A B pA pB C pC : V3 ℝ} {zA zB zC : ℝ} {F F' : FrameE XR} {X : Position XR}
    (hA : At P.point_a A zA pA F) (hB : At P.point_b B zB pB F) (hX : At X C zC pC F') (hp : ProperPath A B) :
    P.cross_track_distance X = .ok (fin (arcsin (-dot (dirOf (cross A B)) C) * ((len pA + len pB) / 2))) := by
  have e := radius_default_eq hA hB (r := none)
  simp only [Option.map_none, Option.getD_none] at e
  unfold GeoPath.cross_track_distance
  rw [normals_fin hA hB, hX.nv, e]
  exact cross_track_fin hp hX.unit _

/-- the sign of `GeoPath.cross_track_distance` is the one on the sphere of any other radius -/
theorem path_cross_track_sign {P : GeoPath XR} {A B pA pB C pC : V3 ℝ} {zA zB zC : ℝ} {F F' : FrameE XR} {X : Position XR}
    (hA : At P.point_a A zA pA F) (hB : At P.point_b B zB pB F) (hX : At X C zC pC F') (hp : ProperPath A B)
    {b : ℝ} (h : P.cross_track_distance X = .ok (fin b)) (r : ℝ) :
    ∃ k : ℝ, k * ((len pA + len pB) / 2) = b ∧ cross_track_distance (A.fin, B.fin) C.fin (radius := fin r) = .ok (fin (k * r)) := by
  rw [path_cross_track_fin hA hB hX hp, Except.ok.injEq, XR.fin_inj] at h
  exact ⟨_, h, cross_track_fin hp hX.unit r⟩

/-- **C158** two `GeoPath`s in a region whose ends lie on different sides of the other one -/
theorem C158_objects {u : V3 ℝ} (hu : UnitVec u) {r x : ℝ} (hr : 0 < r) (hx : x < π / 4 * r) {P P' : GeoPath XR}
    {A B A' B' pA pB pA' pB' : V3 ℝ} {zA zB zA' zB' a f a' f' : ℝ} {name name' : EllKey} {R R' : M3 ℝ}
    (hA : At P.point_a A zA pA (.real a f name R)) (hB : At P.point_b B zB pB (.real a f name R))
    (hA' : At P'.point_a A' zA' pA' (.real a' f' name' R')) (hB' : At P'.point_b B' zB' pB' (.real a' f' name' R'))
    (hloc : ∀ p, P.point_a ≠ .pvec p) (hpos : 0 < len pA + len pB) (hpos' : 0 < len pA' + len pB')
    (wA : Within u r x A) (wB : Within u r x B) (wA' : Within u r x A') (wB' : Within u r x B') (hp : ProperPath A B) (hp' : ProperPath A' B')
    {a1 a2 b1 b2 : ℝ} (h1 : P.cross_track_distance P'.point_a = .ok (fin b1)) (h2 : P.cross_track_distance P'.point_b = .ok (fin b2))
    (hb : b1 * b2 < 0) (h3 : P'.cross_track_distance P.point_a = .ok (fin a1)) (h4 : P'.cross_track_distance P.point_b = .ok (fin a2))
    (ha : a1 * a2 < 0) :
    ∃ (C : V3 ℝ) (s t : ℝ), 0 < s ∧ s < 1 ∧ 0 < t ∧ t < 1 ∧ Within u r x C ∧
      P.intersect P' = .ok (.real C ((zA + zB + zA' + zB') / 4) (.real a f name R)) ∧
      P.interpolate (fin s) = .ok (.real C (zA + s * (zB - zA)) (.real a f name R)) ∧
      P'.interpolate (fin t) = .ok (.real C (zA' + t * (zB' - zA')) (.real a' f' name' R')) := by
  have conv : ∀ {k l m n ρ : ℝ}, 0 < ρ → k * ρ = m → l * ρ = n → m * n < 0 → (k * r) * (l * r) < 0 := by
    intro k l m n ρ hρ e1 e2 hn
    rw [← e1, ← e2] at hn
    have : k * l < 0 := by
      by_contra hc
      nlinarith [mul_nonneg (not_lt.1 hc) (mul_pos hρ hρ).le]
    nlinarith [mul_pos hr hr]
  obtain ⟨k1, e1, g1⟩ := path_cross_track_sign hA hB hA' hp h1 r
  obtain ⟨k2, e2, g2⟩ := path_cross_track_sign hA hB hB' hp h2 r
  obtain ⟨k3, e3, g3⟩ := path_cross_track_sign hA' hB' hA hp' h3 r
  obtain ⟨k4, e4, g4⟩ := path_cross_track_sign hA' hB' hB hp' h4 r
  obtain ⟨C, s, t, s0, s1, t0, t1, is, it, wC, hI, -, -⟩ := C158_region hu hr hx wA wB wA' wB' hp hp' g1 g2
    (conv (half_pos hpos) e1 e2 hb) g3 g4 (conv (half_pos hpos') e3 e4 ha)
  obtain ⟨c1, m1, -⟩ := onCircle_interpolate hA.unit hB.unit hp is
  obtain ⟨c2, m2, -⟩ := onCircle_interpolate hA'.unit hB'.unit hp' it
  refine ⟨C, s, t, s0, s1, t0, t1, wC, path_intersect_of hA hB hA' hB' hloc hI, ?_, ?_⟩
  · rw [geoPath_interpolate_fin hA hB s m1, ← c1]
  · rw [geoPath_interpolate_fin hA' hB' t m2, ← c2]

end Nv
