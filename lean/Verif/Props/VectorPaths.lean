import Verif.Props.VectorGeo

/-!
# C66: GeoPath on vectors

`a 0, …, a (na-1)` are the positions of `point_a` and `b 0, …, b (nb-1)` those of `point_b`; they make the `k` paths
`pathAt na nb a b j`.
-/

namespace Nv.ND
open PyFloat

section
variable {α : Type} [PyFloat α]

/-- path `j` of the paths from the positions `a` to the positions `b` -/
def Spec.pathAt (na nb : ℕ) (a b : ℕ → Nv.Position α) (j : ℕ) : Nv.GeoPath α := ⟨a (bi na j), b (bi nb j)⟩
open Spec (pathAt)

variable {sa sb : Bool} {na nb k : ℕ} {P : GeoPath α} {a b : ℕ → Nv.Position α}

theorem avg_radius (hA : IsPos sa na P.point_a a) (hB : IsPos sb nb P.point_b b) (hb : Bc na nb k) (hk : 0 < k) :
    ∃ R, P.average_radius = .ok R ∧ IsVal (sa && sb) R k (fun j => (pathAt na nb a b j).average_radius) := by
  obtain ⟨EA, eEA, hEA⟩ := C60_to_ecef_vector hA (hb.pos hk).1
  obtain ⟨EB, eEB, hEB⟩ := C60_to_ecef_vector hB (hb.pos hk).2
  obtain ⟨LA, eLA, hLA⟩ := C60_length hEA.pvector hEA.one
  obtain ⟨LB, eLB, hLB⟩ := C60_length hEB.pvector hEB.one
  rw [← hEA.scalar] at eLA
  rw [← hEB.scalar] at eLB
  obtain ⟨S, eS, hS⟩ := map2_vals (· + ·) hLA hLB hb
  refine ⟨S.map (· / lit 2), ?_, hS.map _⟩
  unfold GeoPath.average_radius
  simp only [eEA, eEB, eLA, eLB, eS, bind, Except.bind]; rfl

/-! ## track_distance -/

/-- the last two lines of `track_distance` -/
theorem first_of {t : Bool} {X : Arr α} {o : ℕ} {x : ℕ → α} (hX : IsVec X o x) (ht : t = true → o = 1) {s : List ℕ}
    (hs : s = if t then [] else [o]) :
    ∃ Y, (if s = [] then X.row 0 else pure X) = .ok Y ∧ IsVal t Y o x := by
  subst hs
  cases t
  · exact ⟨X, rfl, hX⟩
  · obtain rfl := ht rfl
    exact row0_scalar hX

theorem euclidean_any {A B R : Arr α} {n m l k o : ℕ} {t : Bool} {c d : ℕ → V3 α} {r : ℕ → α} (hA : IsCols A n c)
    (hB : IsCols B m d) (hb : Bc n m k) (hR : IsVal t R l r) (ho : Bc k l o) :
    ∃ X, euclidean_distanceA A B R = .ok X ∧
      IsVec X o (fun j => Nv.euclidean_distance (c (bi n j)) (d (bi m j)) (r (bi l j))) := by
  obtain ⟨S, eS, hS⟩ := map2_cols (· - ·) hB hA hb.symm
  obtain ⟨N, eN, hN⟩ := norm0_cols hS
  have hN' : IsVal false N.ravel k _ := ravel_vec hN
  obtain ⟨X, eX, hX⟩ := map2_vals (· * ·) hN' hR ho
  refine ⟨X, ?_, hX.congr fun j hj => ?_⟩
  · unfold euclidean_distanceA
    simp only [eS, eN, eX, bind, Except.bind]
  · simp only [bi_bi hb ho hj, bi_bi hb.symm ho hj]; rfl

/-- **C66** `track_distance` of `k` paths: element `j` is the distance along path `j`, for the ellipsoidal and the euclidean
method, and for the great circle method if all paths start at one position -/
theorem C66_track_distance_partial (hA : IsPos sa na P.point_a a) (hB : IsPos sb nb P.point_b b) (hb : Bc na nb k) (hk : 0 < k)
    (G : Geodesic α) (method : String)
    (hm : strTake method 2 = "ex" ∨ strTake method 2 = "el" ∨ strTake method 2 = "eu" ∨ na = 1) {x : ℕ → α}
    (hx : ∀ j < k, (pathAt na nb a b j).track_distance G method none = .ok (x j)) :
    ∃ X, P.track_distance G method none = .ok X ∧ IsVal (sa && sb) X k x := by
  obtain ⟨p1, p2⟩ := hb.pos hk
  unfold GeoPath.track_distance
  by_cases he : strTake method 2 = "ex" ∨ strTake method 2 = "el"
  · obtain ⟨GA, eGA, hGA⟩ := C60_to_geo_point hA p1
    obtain ⟨GB, eGB, hGB⟩ := C60_to_geo_point hB p2
    have hex : ∀ j < k, ∃ u : α × α × α, (a (bi na j)).to_geo_point.distance_and_azimuth G (.geo (b (bi nb j)).to_geo_point) =
        .ok u ∧ u.1 = x j := by
      intro j hj
      have := hx j hj
      unfold Nv.GeoPath.track_distance at this
      rw [if_pos he] at this
      simp only [pathAt, Nv.GeoPath.geo_points] at this
      revert this
      cases (a (bi na j)).to_geo_point.distance_and_azimuth G (.geo (b (bi nb j)).to_geo_point) with
      | error e => intro h; cases h
      | ok u => intro h; exact ⟨u, rfl, Except.ok.inj h⟩
    haveI : Nonempty α := ⟨lit 0⟩
    choose! u hu hux using hex
    obtain ⟨X, Y, Z, e, hX, -, -⟩ := C65_distance_and_azimuth_partial hGA (.geo hGB fun _ _ => rfl) hb hk G false false
      "ellipsoid" (.inl (by decide)) hu
    refine ⟨X, ?_, hX.congr hux⟩
    simp only [he, if_true, eGA, eGB, e, bind, Except.bind]; rfl
  · obtain ⟨R, eR, hR⟩ := avg_radius hA hB hb hk
    obtain ⟨NA, eNA, hNA⟩ := C60_to_nvector hA p1
    obtain ⟨NB, eNB, hNB⟩ := C60_to_nvector hB p2
    have hst : (sa && sb) = true → k = 1 := fun h => by rw [h] at hR; exact hR.one
    simp only [if_neg he, GeoPath.radiusOr, eR, eNA, eNB, bind, Except.bind]
    by_cases hu : strTake method 2 = "eu"
    · obtain ⟨X, eX, hX⟩ := euclidean_any hNA.normal hNB.normal hb hR (.self k)
      obtain ⟨Y, eY, hY⟩ := first_of hX hst hR.shape
      refine ⟨Y, ?_, hY.congr fun j hj => ?_⟩
      · simp only [if_pos hu, eX]; exact eY
      · have := hx j hj
        unfold Nv.GeoPath.track_distance at this
        rw [if_neg he, if_pos hu] at this
        rw [bi_self hj]
        exact Except.ok.inj this
    · obtain rfl : na = 1 := by tauto
      obtain rfl : k = nb := by obtain ⟨b1, b2, b3⟩ := hb; omega
      obtain ⟨X, eX, hX⟩ := great_circle_one hNA.normal hNB.normal hR (.self k)
      obtain ⟨Y, eY, hY⟩ := first_of hX hst hR.shape
      refine ⟨Y, ?_, hY.congr fun j hj => ?_⟩
      · simp only [if_neg hu, eX]; exact eY
      · have := hx j hj
        unfold Nv.GeoPath.track_distance at this
        rw [if_neg he, if_neg hu] at this
        rw [← Except.ok.inj this]
        simp only [bi_self hj]
        simp only [pathAt, bi_one, Nv.GeoPath.radiusOr, Option.getD_none, Nv.GeoPath.nvector_normals, Nv.GeoPath.nvectors, bi_self hj]

/-- **C66** is false for the great circle method (the default): with `n ≥ 2` starting points `track_distance()` raises
`ValueError` -/
theorem C66_track_distance_counterexample (hA : IsPos sa na P.point_a a) (hB : IsPos sb nb P.point_b b) (hb : Bc na nb k)
    (hn : 2 ≤ na) (hm : 0 < nb) (G : Geodesic α) : P.track_distance G "greatcircle" none = .error .ValueError := by
  have hk : 0 < k := by obtain ⟨b1, b2, b3⟩ := hb; omega
  have hs : sa = false := by
    cases sa
    · rfl
    · have := C60_scalar_one hA; omega
  obtain ⟨R, eR, hR⟩ := avg_radius hA hB hb hk
  obtain ⟨NA, eNA, hNA⟩ := C60_to_nvector hA (by omega)
  obtain ⟨NB, eNB, hNB⟩ := C60_to_nvector hB hm
  have eX := great_circle_many hNA.normal hNB.normal hb (by rw [hR.shape, hs]; rfl) hn hm
  unfold GeoPath.track_distance
  rw [if_neg (by decide)]
  simp only [GeoPath.radiusOr, eR, eNA, eNB, bind, Except.bind]
  rw [if_neg (by decide), eX]

/-- **C66** is false when a radius is given: whatever the number of paths, `track_distance(method, radius=r)` returns the one
number belonging to the first path -/
theorem C66_track_distance_radius_counterexample (hA : IsPos sa na P.point_a a) (hB : IsPos sb nb P.point_b b) (hb : Bc na nb k)
    (hk : 0 < k) (G : Geodesic α) (method : String) (hm : strTake method 2 = "eu") (r : α) :
    ∃ X, P.track_distance G method (some (scalar r)) = .ok X ∧ X.shape = [] ∧
      (pathAt na nb a b 0).track_distance G method (some r) = .ok (X.get []) := by
  obtain ⟨p1, p2⟩ := hb.pos hk
  obtain ⟨NA, eNA, hNA⟩ := C60_to_nvector hA p1
  obtain ⟨NB, eNB, hNB⟩ := C60_to_nvector hB p2
  obtain ⟨X, eX, hX⟩ := euclidean_any hNA.normal hNB.normal hb (IsVal.scalar r) (.one k)
  have hne : ¬ (strTake method 2 = "ex" ∨ strTake method 2 = "el") := by rw [hm]; decide
  refine ⟨⟨[], fun idx => X.get (0 :: idx)⟩, ?_, rfl, ?_⟩
  · unfold GeoPath.track_distance
    simp only [if_neg hne, GeoPath.radiusOr, eNA, eNB, bind, Except.bind, if_pos hm, eX]
    show X.row 0 = _
    unfold Arr.row
    rw [hX.shape]
    simp only [if_pos hk]
  · unfold Nv.GeoPath.track_distance
    rw [if_neg hne, if_pos hm]
    show _ = Except.ok (X.get [0])
    rw [hX.val 0 hk]
    rfl

/-! ## cross_track_distance -/

theorem cross_track_any {A1 A2 B R : Arr α} {m l o : ℕ} {t : Bool} {a1 a2 c : ℕ → V3 α} {r : ℕ → α}
    (h1 : IsCols A1 na a1) (h2 : IsCols A2 nb a2) (hB : IsCols B m c) (hb : Bc na nb k) (hR : IsVal t R l r)
    (hl : l = k ∨ l = 1) (ho : Bc k m o) (hone : k = 1 ∨ m = 1) (method : String) (ch : Char) (cs : List Char)
    (hm : method.toList = ch :: cs) :
    ∃ X, cross_track_distanceA A1 A2 B method R = .ok X ∧
      IsVec X o (fun j => ctd ch (r (bi l j)) (a1 (bi na j)) (a2 (bi nb j)) (c (bi m j))) := by
  obtain ⟨C, eC, hC⟩ := C52_great_circle_normal h1 h2 hb
  obtain ⟨D, eD, sD, hD⟩ := dot_T_cols hC hB
  obtain ⟨s, v⟩ := ravel_22 (A := D.map (fun x => -x)) sD
  have hV : IsVal false (D.map (fun x => -x)).ravel o
      (fun j => -(dot3 (Nv.great_circle_normal (a1 (bi na (bi k j))) (a2 (bi nb (bi k j)))) (c (bi m j)))) := by
    rcases hone with rfl | rfl
    · obtain rfl : o = m := by obtain ⟨x1, x2, x3⟩ := ho; omega
      refine ⟨by rw [s, one_mul], fun j hj => ?_⟩
      have := v 0 (by norm_num) j hj
      rw [zero_mul, zero_add] at this
      rw [this, bi_self hj]
      show -(D.get [0, j]) = _
      rw [hD 0 (by norm_num) j hj]; rfl
    · obtain rfl : o = k := by obtain ⟨x1, x2, x3⟩ := ho; omega
      refine ⟨by rw [s, mul_one], fun j hj => ?_⟩
      have := v j hj 0 (by norm_num)
      rw [mul_one, add_zero] at this
      rw [this, bi_self hj]
      show -(D.get [j, 0]) = _
      rw [hD j hj 0 (by norm_num)]; rfl
  have hlo : Bc o l o := ⟨.inl rfl, by obtain ⟨x1, x2, x3⟩ := ho; omega, .inl rfl⟩
  unfold cross_track_distanceA
  simp only [eC, eD, bind, Except.bind, hm]
  by_cases he : ch.toLower = 'e'
  · obtain ⟨X, eX, hX⟩ := map2_vals (fun s r => euclidean_cross_track_distance s r) hV hR hlo
    refine ⟨X, by rw [if_pos he]; exact eX, hX.congr fun j hj => ?_⟩
    simp only [bi_self hj, bi_bi hb ho hj, bi_bi hb.symm ho hj, ctd, if_pos he]
  · obtain ⟨X, eX, hX⟩ := map2_vals (fun s r => great_circle_cross_track_distance s r) hV hR hlo
    refine ⟨X, by rw [if_neg he]; exact eX, hX.congr fun j hj => ?_⟩
    simp only [bi_self hj, bi_bi hb ho hj, bi_bi hb.symm ho hj, ctd, if_neg he]

/-- the last lines of `cross_track_distance` and `_on_great_circle_path` -/
theorem single_of {β : Type} {t : Bool} {X : Arr β} {o : ℕ} {x : ℕ → β} (hX : IsVec X o x) {s : List ℕ} (hs : s = [] ↔ t = true) :
    ∃ Y, (if s = [] ∧ prod X.shape = 1 then X.row 0 else pure X) = .ok Y ∧ IsVal (t && decide (o = 1)) Y o x := by
  have hp : prod X.shape = o := by rw [hX.shape]; simp [prod]
  by_cases h : s = [] ∧ prod X.shape = 1
  · obtain rfl : o = 1 := by rw [← hp]; exact h.2
    obtain ⟨Y, eY, hY⟩ := row0_scalar hX
    refine ⟨Y, by rw [if_pos h]; exact eY, ?_⟩
    rw [hs.mp h.1]; exact hY
  · refine ⟨X, by rw [if_neg h]; rfl, ?_⟩
    have : (t && decide (o = 1)) = false := by
      rw [hp, hs] at h
      cases t
      · rfl
      · simpa using h
    rw [this]; exact hX

omit [PyFloat α] in
theorem IsVal.scalar_iff {t : Bool} {A : Arr α} {n : ℕ} {r : ℕ → α} (h : IsVal t A n r) : A.shape = [] ↔ t = true := by
  rw [h.shape]; cases t <;> simp

/-- **C66** `cross_track_distance(point, method)` for one path and several points, or several paths and one point: element `j`
is the cross track distance of path `j` and point `j` -/
theorem C66_cross_track_distance_partial (hA : IsPos sa na P.point_a a) (hB : IsPos sb nb P.point_b b) (hb : Bc na nb k)
    {sc : Bool} {m o : ℕ} {Q : Position α} {c} (hC : IsPos sc m Q c) (ho : Bc k m o) (ho0 : 0 < o) (hone : k = 1 ∨ m = 1)
    (method : String) {x : ℕ → α}
    (hx : ∀ j < o, (pathAt na nb a b j).cross_track_distance (c (bi m j)) method none = .ok (x j)) :
    ∃ X, P.cross_track_distance Q method none = .ok X ∧ IsVal (sa && sb && decide (o = 1)) X o x := by
  obtain ⟨k0, m0⟩ := ho.pos ho0
  obtain ⟨p1, p2⟩ := hb.pos k0
  obtain ⟨R, eR, hR⟩ := avg_radius hA hB hb k0
  obtain ⟨NA, eNA, hNA⟩ := C60_to_nvector hA p1
  obtain ⟨NB, eNB, hNB⟩ := C60_to_nvector hB p2
  obtain ⟨NC, eNC, hNC⟩ := C60_to_nvector hC m0
  cases hl : method.toList with
  | nil =>
    exfalso
    have := hx 0 ho0
    unfold Nv.GeoPath.cross_track_distance Nv.cross_track_distance at this
    rw [hl] at this
    cases this
  | cons ch cs =>
    obtain ⟨X, eX, hX⟩ := cross_track_any hNA.normal hNB.normal hNC.normal hb hR (.inl rfl) ho hone method ch cs hl
    obtain ⟨Y, eY, hY⟩ := single_of hX hR.scalar_iff
    refine ⟨Y, ?_, hY.congr fun j hj => ?_⟩
    · unfold GeoPath.cross_track_distance
      simp only [GeoPath.radiusOr, eR, eNA, eNB, eNC, eX, bind, Except.bind]
      exact eY
    · have := hx j hj
      unfold Nv.GeoPath.cross_track_distance at this
      have e := ctd_eq method ch cs hl ((pathAt na nb a b j).radiusOr none) (a (bi na j)).to_nvector.normal
        (b (bi nb j)).to_nvector.normal (c (bi m j)).to_nvector.normal
      rw [show Nv.cross_track_distance (pathAt na nb a b j).nvector_normals (c (bi m j)).to_nvector.normal method
        ((pathAt na nb a b j).radiusOr none) = _ from e] at this
      rw [← Except.ok.inj this]
      have hpk : pathAt na nb a b (bi k j) = pathAt na nb a b j := by
        unfold pathAt; rw [bi_bi hb ho hj, bi_bi hb.symm ho hj]
      simp only [hpk]; rfl

theorem cross_track_many {A1 A2 B R : Arr α} {a1 a2 c : ℕ → V3 α}
    (h1 : IsCols A1 na a1) (h2 : IsCols A2 nb a2) (hB : IsCols B k c) (hb : Bc na nb k) (hR : R.shape = [k])
    (hk : 2 ≤ k) (method : String) (hm : method.toList ≠ []) : cross_track_distanceA A1 A2 B method R = .error .ValueError := by
  obtain ⟨C, eC, hC⟩ := C52_great_circle_normal h1 h2 hb
  obtain ⟨D, eD, sD, hD⟩ := dot_T_cols hC hB
  obtain ⟨s, v⟩ := ravel_22 (A := D.map (fun x => -x)) sD
  unfold cross_track_distanceA
  simp only [eC, eD, bind, Except.bind]
  cases hl : method.toList with
  | nil => exact absurd hl hm
  | cons ch cs =>
    simp only
    have n1 : k * k ≠ k := by nlinarith
    have n2 : k * k ≠ 1 := by nlinarith
    split
    · exact map2_error _ s hR n1 n2 (by omega)
    · exact map2_error _ s hR n1 n2 (by omega)

/-- **C66** is false for `k ≥ 2` paths and as many points: `cross_track_distance` raises `ValueError` -/
theorem C66_cross_track_distance_counterexample (hA : IsPos sa na P.point_a a) (hB : IsPos sb nb P.point_b b) (hb : Bc na nb k)
    {sc : Bool} {Q : Position α} {c} (hC : IsPos sc k Q c) (hk : 2 ≤ k) (method : String) (hm : method.toList ≠ []) :
    P.cross_track_distance Q method none = .error .ValueError := by
  have k0 : 0 < k := by omega
  obtain ⟨p1, p2⟩ := hb.pos k0
  obtain ⟨R, eR, hR⟩ := avg_radius hA hB hb k0
  obtain ⟨NA, eNA, hNA⟩ := C60_to_nvector hA p1
  obtain ⟨NB, eNB, hNB⟩ := C60_to_nvector hB p2
  obtain ⟨NC, eNC, hNC⟩ := C60_to_nvector hC k0
  have hs : (sa && sb) = false := by
    cases h : (sa && sb)
    · rfl
    · rw [h] at hR; have := hR.one; omega
  have eX := cross_track_many hNA.normal hNB.normal hNC.normal hb (by rw [hR.shape, hs]; rfl) hk method hm
  unfold GeoPath.cross_track_distance
  simp only [GeoPath.radiusOr, eR, eNA, eNB, eNC, eX, bind, Except.bind]

/-! ## on_great_circle and on_path -/

/-- **C66** `on_great_circle(point, atol)` -/
theorem C66_on_great_circle_partial (hA : IsPos sa na P.point_a a) (hB : IsPos sb nb P.point_b b) (hb : Bc na nb k)
    {sc : Bool} {m o : ℕ} {Q : Position α} {c} (hC : IsPos sc m Q c) (ho : Bc k m o) (ho0 : 0 < o) (hone : k = 1 ∨ m = 1)
    (atol : α) {x : ℕ → Bool} (hx : ∀ j < o, (pathAt na nb a b j).on_great_circle (c (bi m j)) atol = .ok (x j)) :
    ∃ X, P.on_great_circle Q atol = .ok X ∧ IsVal (sa && sb && decide (o = 1)) X o x := by
  have hex : ∀ j < o, ∃ d, (pathAt na nb a b j).cross_track_distance (c (bi m j)) "greatcircle" none = .ok d ∧
      isclose (PyFloat.abs d) (lit 0) (atol := atol) = x j := by
    intro j hj
    have := hx j hj
    unfold Nv.GeoPath.on_great_circle at this
    revert this
    cases (pathAt na nb a b j).cross_track_distance (c (bi m j)) "greatcircle" none with
    | error e => intro h; cases h
    | ok u => intro h; exact ⟨u, rfl, Except.ok.inj h⟩
  haveI : Nonempty α := ⟨lit 0⟩
  choose! d hd hdx using hex
  obtain ⟨X, eX, hX⟩ := C66_cross_track_distance_partial hA hB hb hC ho ho0 hone "greatcircle" hd
  refine ⟨(X.map PyFloat.abs).map fun x => isclose x (lit 0) (atol := atol), ?_, ((hX.map PyFloat.abs).map _).congr hdx⟩
  unfold GeoPath.on_great_circle
  simp only [eX, bind, Except.bind]; rfl

theorem on_great_circle_path_any {A1 A2 B R : Arr α} {m o : ℕ} {t : Bool} {a1 a2 c : ℕ → V3 α} {r : ℕ → α}
    (h1 : IsCols A1 na a1) (h2 : IsCols A2 nb a2) (hB : IsCols B m c) (hb : Bc na nb k) (hR : IsVal t R k r)
    (ho : Bc k m o) (hone : k = 1 ∨ m = 1) (atol : α) :
    ∃ X, on_great_circle_pathA A1 A2 B R atol = .ok X ∧
      IsVec X o (fun j => Nv.on_great_circle_path (a1 (bi na j), a2 (bi nb j)) (c (bi m j)) (r (bi k j)) atol) := by
  obtain ⟨b1, b2, b3⟩ := id hb
  obtain ⟨c1, c2, c3⟩ := id ho
  obtain ⟨S, eS, hS⟩ := map2_cols (· - ·) h2 h1 hb.symm
  obtain ⟨N, eN, hN⟩ := norm0_cols hS
  obtain ⟨k1, hk1⟩ : ∃ k1, Bc m na k1 := by
    by_cases h : m = 1
    · exact ⟨na, .inr h, .inl rfl, .inr rfl⟩
    · exact ⟨m, .inl rfl, by omega, .inl rfl⟩
  obtain ⟨k2, hk2⟩ : ∃ k2, Bc m nb k2 := by
    by_cases h : m = 1
    · exact ⟨nb, .inr h, .inl rfl, .inr rfl⟩
    · exact ⟨m, .inl rfl, by omega, .inl rfl⟩
  have ho1 : Bc k1 k o := by obtain ⟨d1, d2, d3⟩ := hk1; exact ⟨by omega, by omega, by omega⟩
  have ho2 : Bc k2 k o := by obtain ⟨d1, d2, d3⟩ := hk2; exact ⟨by omega, by omega, by omega⟩
  obtain ⟨S1, eS1, hS1⟩ := map2_cols (· - ·) hB h1 hk1
  obtain ⟨N1, eN1, hN1⟩ := norm0_cols hS1
  obtain ⟨S2, eS2, hS2⟩ := map2_cols (· - ·) hB h2 hk2
  obtain ⟨N2, eN2, hN2⟩ := norm0_cols hS2
  obtain ⟨T1, eT1, hT1⟩ := map2_vec (· / ·) hN1 hN ho1
  obtain ⟨T2, eT2, hT2⟩ := map2_vec (· / ·) hN2 hN ho2
  obtain ⟨M, eM, hM⟩ := map2_vec' (· && ·) (hT1.map (le · (lit 1))) (hT2.map (le · (lit 1)))
  obtain ⟨X, eX, hX⟩ := cross_track_any h1 h2 hB hb hR (.inl rfl) ho hone "greatcircle" 'g' "reatcircle".toList (by decide)
  have hO : on_great_circleA A1 A2 B R atol = .ok ((X.map PyFloat.abs).map (le · atol)) := by
    unfold on_great_circleA
    simp only [eX, bind, Except.bind, pure, Except.pure]
  obtain ⟨Y, eY, hY⟩ := map2_vec' (· && ·) hM ((hX.map PyFloat.abs).map (le · atol))
  refine ⟨Y, ?_, hY.congr fun j hj => ?_⟩
  · unfold on_great_circle_pathA
    simp only [eS, eN, eS1, eN1, eS2, eN2, eT1, eT2, eM, hO, eY, bind, Except.bind]
  · have x1 : bi na (bi k j) = bi na j := bi_bi hb ho hj
    have x2 : bi nb (bi k j) = bi nb j := bi_bi hb.symm ho hj
    have x3 : bi m (bi k1 j) = bi m j := bi_bi hk1 ho1 hj
    have x4 : bi na (bi k1 j) = bi na j := bi_bi hk1.symm ho1 hj
    have x5 : bi m (bi k2 j) = bi m j := bi_bi hk2 ho2 hj
    have x6 : bi nb (bi k2 j) = bi nb j := bi_bi hk2.symm ho2 hj
    simp only [x1, x2, x3, x4, x5, x6]
    unfold Nv.on_great_circle_path Nv.on_great_circle abs_cross_track
    rw [ctd_eq "greatcircle" 'g' "reatcircle".toList (by decide)]
    rfl

/-- **C66** `on_path` by the great circle method -/
theorem C66_on_great_circle_path_partial (hA : IsPos sa na P.point_a a) (hB : IsPos sb nb P.point_b b) (hb : Bc na nb k)
    {sc : Bool} {m o : ℕ} {Q : Position α} {c} (hC : IsPos sc m Q c) (ho : Bc k m o) (ho0 : 0 < o) (hone : k = 1 ∨ m = 1)
    (rtol atol : α) :
    ∃ X, P.on_great_circle_path Q none rtol atol = .ok X ∧
      IsVal (sa && sb && decide (o = 1)) X o
        (fun j => (pathAt na nb a b j).on_great_circle_path (c (bi m j)) none rtol atol) := by
  obtain ⟨k0, m0⟩ := ho.pos ho0
  obtain ⟨p1, p2⟩ := hb.pos k0
  obtain ⟨R, eR, hR⟩ := avg_radius hA hB hb k0
  obtain ⟨NA, eNA, hNA⟩ := C60_to_nvector hA p1
  obtain ⟨NB, eNB, hNB⟩ := C60_to_nvector hB p2
  obtain ⟨NC, eNC, hNC⟩ := C60_to_nvector hC m0
  obtain ⟨Z, eZ, hZ⟩ := depth_map2 (· + ·) hNA.z hNB.z hb
  obtain ⟨tz, mz, rz, vz, ez, wz, -, -⟩ := depth_vals (hZ.map (· * lit 0.5))
  obtain ⟨tc, mc, rc, vc, ec, wc, -, -⟩ := depth_vals hNC.z
  obtain ⟨c1, c2, c3⟩ := id ho
  obtain ⟨l, hl⟩ : ∃ l, Bc mc mz l := by
    by_cases h : mc = 1
    · exact ⟨mz, .inr h, .inl rfl, .inr rfl⟩
    · exact ⟨mc, .inl rfl, by omega, .inl rfl⟩
  have hlo : Bc o l o := by obtain ⟨d1, d2, d3⟩ := hl; exact ⟨.inl rfl, by omega, .inl rfl⟩
  obtain ⟨W, eW, hW⟩ := map2_vals (fun x y => isclose x y rtol atol) vc vz hl
  obtain ⟨X, eX, hX⟩ := on_great_circle_path_any hNA.normal hNB.normal hNC.normal hb hR ho hone atol
  have hX' : IsVal false X o _ := hX
  obtain ⟨V, eV, hV⟩ := map2_vals (· && ·) hX' hW hlo
  have hV' : IsVec V o _ := hV
  obtain ⟨Y, eY, hY⟩ := single_of hV' hR.scalar_iff
  refine ⟨Y, ?_, hY.congr fun j hj => ?_⟩
  · unfold GeoPath.on_great_circle_path
    simp only [GeoPath.radiusOr, eR, eNA, eNB, eNC, eZ, eW, eX, eV, bind, Except.bind]
    exact eY
  · have hpk : pathAt na nb a b (bi k j) = pathAt na nb a b j := by
      unfold pathAt; rw [bi_bi hb ho hj, bi_bi hb.symm ho hj]
    have y1 : bi mc (bi l j) = bi mc (bi m j) := by
      rw [bi_bi hl hlo.symm hj]
      rcases ec with rfl | rfl
      · unfold bi; split <;> rfl
      · rfl
    have y2 : bi mz (bi l j) = bi mz (bi k j) := by
      rw [bi_bi hl.symm hlo.symm hj]
      rcases ez with rfl | rfl
      · unfold bi; split <;> rfl
      · rfl
    simp only [bi_self hj, hpk, y1, y2]
    rw [wc _ (ho.lt' hj), wz _ (ho.lt hj)]
    simp only [bi_bi hb ho hj, bi_bi hb.symm ho hj]
    rfl

/-- **C66** `on_path` by the ellipsoid method: any numbers of paths and points -/
theorem C66_on_ellipsoid_path (hA : IsPos sa na P.point_a a) (hB : IsPos sb nb P.point_b b) (hb : Bc na nb k)
    {sc : Bool} {m o : ℕ} {Q : Position α} {c} (hC : IsPos sc m Q c) (ho : Bc k m o) (ho0 : 0 < o)
    (G : Geodesic α) (rtol atol : α) {x : ℕ → Bool}
    (hx : ∀ j < o, (pathAt na nb a b j).on_ellipsoid_path G (c (bi m j)) rtol atol = .ok (x j)) :
    ∃ X, P.on_ellipsoid_path G Q rtol atol = .ok X ∧ IsVal (sa && sb && sc) X o x := by
  obtain ⟨k0, m0⟩ := ho.pos ho0
  obtain ⟨p1, p2⟩ := hb.pos k0
  obtain ⟨b1, b2, b3⟩ := id hb
  obtain ⟨c1, c2, c3⟩ := id ho
  obtain ⟨GA, eGA, hGA⟩ := C60_to_geo_point hA p1
  obtain ⟨GB, eGB, hGB⟩ := C60_to_geo_point hB p2
  obtain ⟨GC, eGC, hGC⟩ := C60_to_geo_point hC m0
  obtain ⟨k2, hk2⟩ : ∃ k2, Bc na m k2 := by
    by_cases h : na = 1
    · exact ⟨m, .inr h, .inl rfl, .inr rfl⟩
    · exact ⟨na, .inl rfl, by omega, .inl rfl⟩
  have hk2o : Bc k k2 o := by obtain ⟨d1, d2, d3⟩ := hk2; exact ⟨by omega, by omega, by omega⟩
  have k20 := (hk2o.pos ho0).2
  -- the calls on the elements
  have hab : ∀ j < k, ∃ u : α × α × α,
      (a (bi na j)).to_geo_point.distance_and_azimuth G (.geo (b (bi nb j)).to_geo_point) = .ok u := by
    intro j hj
    obtain ⟨i, hi, hij⟩ : ∃ i < o, bi k i = j := by
      rcases c1 with rfl | rfl
      · exact ⟨j, hj, bi_self hj⟩
      · exact ⟨0, ho0, by rw [bi_one]; omega⟩
    have := hx i hi
    unfold Nv.GeoPath.on_ellipsoid_path at this
    simp only [pathAt, Nv.GeoPath.geo_points] at this
    rw [← bi_bi hb ho hi, ← bi_bi hb.symm ho hi, hij] at this
    revert this
    cases (a (bi na j)).to_geo_point.distance_and_azimuth G (.geo (b (bi nb j)).to_geo_point) with
    | error e => intro h; cases h
    | ok u => intro _; exact ⟨u, rfl⟩
  have hac : ∀ j < k2, ∃ u : α × α × α,
      (a (bi na j)).to_geo_point.distance_and_azimuth G (.geo (c (bi m j)).to_geo_point) = .ok u := by
    intro j hj
    obtain ⟨i, hi, hij⟩ : ∃ i < o, bi k2 i = j := by
      rcases hk2o.right with h | h
      · exact ⟨j, by omega, bi_self hj⟩
      · subst h; exact ⟨0, ho0, by rw [bi_one]; omega⟩
    have := hx i hi
    unfold Nv.GeoPath.on_ellipsoid_path at this
    simp only [pathAt, Nv.GeoPath.geo_points] at this
    have e1 : bi na i = bi na j := by rw [← bi_bi hk2 hk2o.symm hi, hij]
    have e2 : bi m i = bi m j := by rw [← bi_bi hk2.symm hk2o.symm hi, hij]
    rw [e1, e2] at this
    revert this
    cases (a (bi na j)).to_geo_point.distance_and_azimuth G (.geo (b (bi nb i)).to_geo_point) with
    | error e => intro h; cases h
    | ok w =>
      cases (a (bi na j)).to_geo_point.distance_and_azimuth G (.geo (c (bi m j)).to_geo_point) with
      | error e => intro h; cases h
      | ok u => intro _; exact ⟨u, rfl⟩
  haveI : Nonempty α := ⟨lit 0⟩
  choose! u hu using hab
  choose! w hw using hac
  obtain ⟨X1, Y1, Z1, e1, hX1, hY1, -⟩ := C65_distance_and_azimuth_partial hGA (.geo hGB fun _ _ => rfl) hb k0 G false false
    "ellipsoid" (.inl (by decide)) hu
  obtain ⟨X2, Y2, Z2, e2, hX2, hY2, -⟩ := C65_distance_and_azimuth_partial hGA (.geo hGC fun _ _ => rfl) hk2 k20 G false false
    "ellipsoid" (.inl (by decide)) hw
  obtain ⟨Z, eZ, hZ⟩ := map2_vals (· + ·) hGA.z hGB.z hb
  obtain ⟨T1, f1, hT1⟩ := map2_vals (fun x y => isclose x y rtol atol) (hZ.map (· * lit 0.5)) hGC.z ho
  obtain ⟨T2, f2, hT2⟩ := map2_vals (fun x y => le y x) hX1 hX2 hk2o
  obtain ⟨T3, f3, hT3⟩ := map2_vals (fun x y => isclose x y rtol atol) hY2 hY1 hk2o.symm
  obtain ⟨T4, f4, hT4⟩ := map2_vals (· && ·) hT2 hT3 (.self o)
  obtain ⟨T5, f5, hT5⟩ := map2_vals (· || ·) (hX2.map fun x => isclose x (lit 0) (atol := atol)) hT4 hk2o.rightk
  obtain ⟨T6, f6, hT6⟩ := map2_vals (· && ·) hT1 hT5 (.self o)
  have hs : (sa && sb && sc && (sa && sc && (sa && sb && (sa && sc) && (sa && sc && (sa && sb))))) = (sa && sb && sc) := by
    cases sa <;> cases sb <;> cases sc <;> rfl
  rw [hs] at hT6
  refine ⟨T6, ?_, hT6.congr fun j hj => ?_⟩
  · unfold GeoPath.on_ellipsoid_path
    simp only [eGA, eGB, eGC, eZ, e1, e2, f1, f2, f3, f4, f5, f6, bind, Except.bind]
  · have := hx j hj
    unfold Nv.GeoPath.on_ellipsoid_path at this
    simp only [pathAt, Nv.GeoPath.geo_points] at this
    have q1 := hu (bi k j) (ho.lt hj)
    rw [bi_bi hb ho hj, bi_bi hb.symm ho hj] at q1
    have q2 := hw (bi k2 j) (hk2o.lt' hj)
    rw [bi_bi hk2 hk2o.symm hj, bi_bi hk2.symm hk2o.symm hj] at q2
    rw [q1] at this
    simp only [bind, Except.bind] at this
    rw [q2] at this
    rw [← Except.ok.inj this]
    simp only [bi_self hj, bi_bi hb ho hj, bi_bi hb.symm ho hj]

/-- **C66** is false for `k ≥ 2` paths and as many points: `on_path` raises `ValueError` by the great circle method -/
theorem C66_on_great_circle_path_counterexample (hA : IsPos sa na P.point_a a) (hB : IsPos sb nb P.point_b b) (hb : Bc na nb k)
    {sc : Bool} {Q : Position α} {c} (hC : IsPos sc k Q c) (hk : 2 ≤ k) (rtol atol : α) :
    P.on_great_circle_path Q none rtol atol = .error .ValueError := by
  have k0 : 0 < k := by omega
  obtain ⟨p1, p2⟩ := hb.pos k0
  obtain ⟨b1, b2, b3⟩ := id hb
  obtain ⟨R, eR, hR⟩ := avg_radius hA hB hb k0
  obtain ⟨NA, eNA, hNA⟩ := C60_to_nvector hA p1
  obtain ⟨NB, eNB, hNB⟩ := C60_to_nvector hB p2
  obtain ⟨NC, eNC, hNC⟩ := C60_to_nvector hC k0
  have hs : (sa && sb) = false := by
    cases h : (sa && sb)
    · rfl
    · rw [h] at hR; have := hR.one; omega
  obtain ⟨Z, eZ, hZ⟩ := depth_map2 (· + ·) hNA.z hNB.z hb
  obtain ⟨tz, mz, rz, vz, ez, wz, -, -⟩ := depth_vals (hZ.map (· * lit 0.5))
  obtain ⟨tc, mc, rc, vc, ec, wc, -, -⟩ := depth_vals hNC.z
  obtain ⟨l, hl⟩ : ∃ l, Bc mc mz l := by
    by_cases h : mc = 1
    · exact ⟨mz, .inr h, .inl rfl, .inr rfl⟩
    · exact ⟨mc, .inl rfl, by omega, .inl rfl⟩
  obtain ⟨W, eW, hW⟩ := map2_vals (fun x y => isclose x y rtol atol) vc vz hl
  obtain ⟨S, eS, hS⟩ := map2_cols (· - ·) hNB.normal hNA.normal hb.symm
  obtain ⟨N, eN, hN⟩ := norm0_cols hS
  obtain ⟨S1, eS1, hS1⟩ := map2_cols (· - ·) hNC.normal hNA.normal (⟨.inl rfl, b1, .inl rfl⟩ : Bc k na k)
  obtain ⟨N1, eN1, hN1⟩ := norm0_cols hS1
  obtain ⟨S2, eS2, hS2⟩ := map2_cols (· - ·) hNC.normal hNB.normal (⟨.inl rfl, b2, .inl rfl⟩ : Bc k nb k)
  obtain ⟨N2, eN2, hN2⟩ := norm0_cols hS2
  obtain ⟨T1, eT1, hT1⟩ := map2_vec' (· / ·) hN1 hN
  obtain ⟨T2, eT2, hT2⟩ := map2_vec' (· / ·) hN2 hN
  obtain ⟨M, eM, hM⟩ := map2_vec' (· && ·) (hT1.map (le · (lit 1))) (hT2.map (le · (lit 1)))
  have eX := cross_track_many hNA.normal hNB.normal hNC.normal hb (by rw [hR.shape, hs]; rfl) hk "greatcircle" (by decide)
  unfold GeoPath.on_great_circle_path on_great_circle_pathA on_great_circleA
  simp only [GeoPath.radiusOr, eR, eNA, eNB, eNC, eZ, eW, eS, eN, eS1, eN1, eS2, eN2, eT1, eT2, eM, eX, bind, Except.bind]

/-! ## interpolate -/

/-- **C66** `interpolate(ti)` for one or several paths and one or several times: position `j` of the result is the result of
the call for path `j` and time `j` -/
theorem C66_interpolate (hA : IsPos sa na P.point_a a) (hB : IsPos sb nb P.point_b b) (hb : Bc na nb k)
    {st : Bool} {m o : ℕ} {T : Arr α} {t : ℕ → α} (hT : IsVal st T m t) (ho : Bc k m o) (ho0 : 0 < o) :
    (∃ Q q, P.interpolate T = .ok Q ∧ IsNvec (sa && sb && st) o Q q ∧
      ∀ j < o, (pathAt na nb a b j).interpolate (t (bi m j)) = .ok (q j)) ∨
    (P.interpolate T = .error .ValueError ∧
      ∀ j < o, (pathAt na nb a b j).interpolate (t (bi m j)) = .error .ValueError) := by
  obtain ⟨k0, m0⟩ := ho.pos ho0
  obtain ⟨p1, p2⟩ := hb.pos k0
  obtain ⟨NA, eNA, hNA⟩ := C60_to_nvector hA p1
  obtain ⟨NB, eNB, hNB⟩ := C60_to_nvector hB p2
  have hbo : Bc na o o := by obtain ⟨b1, b2, b3⟩ := hb; obtain ⟨c1, c2, c3⟩ := ho; exact ⟨by omega, .inl rfl, .inr rfl⟩
  unfold GeoPath.interpolate
  simp only [eNA, eNB, bind, Except.bind]
  rcases C60_nvec_sub hNB hNA hb.symm with ⟨D, d, e1, e2, e3⟩ | ⟨e1, e2⟩
  · rw [e1]
    obtain ⟨E, e, f1, f2, f3⟩ := C60_nvec_mul e2 hT ho
    simp only [f1]
    have hd : ∀ j < o, ((b (bi nb j)).to_nvector).sub ((a (bi na j)).to_nvector) = .ok (d (bi k j)) := fun j hj => by
      have := e3 (bi k j) (ho.lt hj)
      rw [bi_bi hb ho hj, bi_bi hb.symm ho hj] at this; exact this
    rcases C60_nvec_add hNA f2 hbo with ⟨Q, q, g1, g2, g3⟩ | ⟨g1, g2⟩
    · rw [g1]
      obtain ⟨U, eU, hU⟩ := C52_unit g2.normal nan
      have hs : (sa && (sb && sa && st)) = (sa && sb && st) := by cases sa <;> cases sb <;> cases st <;> rfl
      refine .inl ⟨{ Q with normal := U }, fun j => { q j with normal := Nv.unit (q j).normal nan }, ?_, ⟨hU, ?_, g2.frame⟩,
        fun j hj => ?_⟩
      · simp only [eU]; rfl
      · rw [← hs]; exact g2.z
      · unfold Nv.GeoPath.interpolate
        have h1 := f3 j hj
        have h2 := g3 j hj
        rw [bi_self hj] at h2
        simp only [pathAt, Nv.GeoPath.nvectors, hd j hj, h1, h2, bind, Except.bind]; rfl
    · refine .inr ⟨by rw [g1], fun j hj => ?_⟩
      unfold Nv.GeoPath.interpolate
      have h1 := f3 j hj
      have h2 := g2 j hj
      rw [bi_self hj] at h2
      simp only [pathAt, Nv.GeoPath.nvectors, hd j hj, h1, h2, bind, Except.bind]
  · refine .inr ⟨by rw [e1], fun j hj => ?_⟩
    have := e2 (bi k j) (ho.lt hj)
    rw [bi_bi hb ho hj, bi_bi hb.symm ho hj] at this
    unfold Nv.GeoPath.interpolate
    simp only [pathAt, Nv.GeoPath.nvectors, this, bind, Except.bind]

/-! ## intersect and the closest points: one path and one position only -/

theorem frameOf_eq {s : Bool} {n : ℕ} {Q : Position α} {c} (h : IsPos s n Q c) {j : ℕ} (hj : j < n) :
    GeoPath.frameOf Q = Nv.GeoPath.frameOf (c j) := by
  cases h with
  | geo h e => rw [e j hj]; show Except.ok _ = Except.ok _; rw [h.frame j hj]
  | nvec h e => rw [e j hj]; show Except.ok _ = Except.ok _; rw [h.frame j hj]
  | ecef h e => rw [e j hj]; show Except.ok _ = Except.ok _; rw [h.frame j hj]
  | pvec h e => rw [e j hj]; rfl

/-- **C66** `intersect` of one path with one path -/
theorem C66_intersect_partial (hA : IsPos sa 1 P.point_a a) (hB : IsPos sb 1 P.point_b b) {sc sd : Bool} {Q : GeoPath α}
    {c d : ℕ → Nv.Position α} (hC : IsPos sc 1 Q.point_a c) (hD : IsPos sd 1 Q.point_b d) {q : Nv.Nvector α}
    (hq : (pathAt 1 1 a b 0).intersect (pathAt 1 1 c d 0) = .ok q) :
    ∃ X, P.intersect Q = .ok X ∧ IsNvec (sa && sb && sc && sd) 1 X (fun _ => q) := by
  have h1 : 0 < 1 := by norm_num
  obtain ⟨NA, eNA, hNA⟩ := C60_to_nvector hA h1
  obtain ⟨NB, eNB, hNB⟩ := C60_to_nvector hB h1
  obtain ⟨NC, eNC, hNC⟩ := C60_to_nvector hC h1
  obtain ⟨ND, eND, hND⟩ := C60_to_nvector hD h1
  obtain ⟨X, eX, hX⟩ := C53_intersect_partial hNA.normal hNB.normal hNC.normal hND.normal
  obtain ⟨Z1, eZ1, hZ1⟩ := depth_map2 (· + ·) hNA.z hNB.z (.self 1)
  obtain ⟨Z2, eZ2, hZ2⟩ := depth_map2 (· + ·) hZ1 hNC.z (.self 1)
  obtain ⟨Z3, eZ3, hZ3⟩ := depth_map2 (· + ·) hZ2 hND.z (.self 1)
  have eF := frameOf_eq hA h1
  unfold Nv.GeoPath.intersect at hq
  cases hF : Nv.GeoPath.frameOf (a 0) with
  | error e =>
    simp only [pathAt, bi_one, hF, bind, Except.bind] at hq
    cases hq
  | ok F =>
    simp only [pathAt, bi_one, hF, bind, Except.bind] at hq
    have hq := Except.ok.inj hq
    rw [hF] at eF
    refine ⟨⟨X, Z3.map (· / lit 4), F⟩, ?_, ⟨?_, ?_, fun j _ => ?_⟩⟩
    · unfold GeoPath.intersect
      simp only [eNA, eNB, eNC, eND, eX, eZ1, eZ2, eZ3, eF, bind, Except.bind]; rfl
    · rw [← hq]; exact hX
    · rw [← hq]
      exact (hZ3.map (· / lit 4)).congr fun j hj => by
        obtain rfl : j = 0 := by omega
        rfl
    · rw [← hq]

/-- **C66** is false for several paths: unless there is one intersection, or three, `intersect` raises `ValueError` -/
theorem C66_intersect_counterexample {n m o : ℕ} (hA : IsPos sa n P.point_a a) (hB : IsPos sb n P.point_b b) {sc sd : Bool}
    {Q : GeoPath α} {c d : ℕ → Nv.Position α} (hC : IsPos sc m Q.point_a c) (hD : IsPos sd m Q.point_b d) (hb : Bc n m o)
    (ho0 : 0 < o) (h1 : o ≠ 1) (h3 : o ≠ 3) : P.intersect Q = .error .ValueError := by
  obtain ⟨n0, m0⟩ := hb.pos ho0
  obtain ⟨NA, eNA, hNA⟩ := C60_to_nvector hA n0
  obtain ⟨NB, eNB, hNB⟩ := C60_to_nvector hB n0
  obtain ⟨NC, eNC, hNC⟩ := C60_to_nvector hC m0
  obtain ⟨ND, eND, hND⟩ := C60_to_nvector hD m0
  have eX := (C53_intersect_general hNA.normal hNB.normal hNC.normal hND.normal hb).1 h1 h3
  unfold GeoPath.intersect
  simp only [eNA, eNB, eNC, eND, eX, bind, Except.bind]

theorem closest_nvector_one (hA : IsPos sa 1 P.point_a a) (hB : IsPos sb 1 P.point_b b) {sc : Bool} {Q : Position α} {c}
    (hC : IsPos sc 1 Q c) :
    ∃ X, P.closest_nvector Q = .ok X ∧ IsNvec (sa && sb) 1 X (fun _ => (pathAt 1 1 a b 0).closest_nvector (c 0)) := by
  have h1 : 0 < 1 := by norm_num
  obtain ⟨NA, eNA, hNA⟩ := C60_to_nvector hA h1
  obtain ⟨NB, eNB, hNB⟩ := C60_to_nvector hB h1
  obtain ⟨NC, eNC, hNC⟩ := C60_to_nvector hC h1
  obtain ⟨X, eX, hX⟩ := C53_closest_point_partial hNA.normal hNB.normal hNC.normal
  obtain ⟨Z, eZ, hZ⟩ := depth_map2 (· + ·) hNA.z hNB.z (.self 1)
  refine ⟨⟨X, Z.map (· * lit 0.5), NC.frame⟩, ?_, ⟨hX, (hZ.map (· * lit 0.5)).congr fun j hj => ?_, fun j hj => ?_⟩⟩
  · unfold GeoPath.closest_nvector
    simp only [eNA, eNB, eNC, eX, eZ, bind, Except.bind]; rfl
  · obtain rfl : j = 0 := by omega
    rfl
  · exact hNC.frame 0 h1

/-- **C66** `closest_point_on_great_circle` for one path and one position -/
theorem C66_closest_point_on_great_circle_partial (hA : IsPos sa 1 P.point_a a) (hB : IsPos sb 1 P.point_b b) {sc : Bool}
    {Q : Position α} {c} (hC : IsPos sc 1 Q c) :
    ∃ X, P.closest_point_on_great_circle Q = .ok X ∧
      IsGeo (sa && sb) 1 X (fun _ => (pathAt 1 1 a b 0).closest_point_on_great_circle (c 0)) := by
  obtain ⟨N, eN, hN⟩ := closest_nvector_one hA hB hC
  obtain ⟨X, eX, hX⟩ := C60_nvec_to_geo hN (by norm_num)
  refine ⟨X, ?_, hX⟩
  unfold GeoPath.closest_point_on_great_circle
  simp only [eN, eX, bind, Except.bind]

theorem truth_val {t : Bool} {A : Arr Bool} {r} (h : IsVal t A 1 r) : truth A = .ok (r 0) := by
  unfold truth
  rw [h.shape]
  cases t
  · have e : A.get [0] = r 0 := h.val 0 (by norm_num)
    simp [prod, unravel, e]
  · have e : A.get [] = r 0 := h.2.2
    simp [prod, unravel, e]

/-- **C66** `closest_point_on_path` for one path and one position: the result is a scalar position if the chosen one is -/
theorem C66_closest_point_on_path_partial (hA : IsPos sa 1 P.point_a a) (hB : IsPos sb 1 P.point_b b) {sc : Bool}
    {Q : Position α} {c} (hC : IsPos sc 1 Q c) :
    ∃ X s, P.closest_point_on_path Q = .ok X ∧ IsGeo s 1 X (fun _ => (pathAt 1 1 a b 0).closest_point_on_path (c 0)) ∧
      (s = (sa && sb) ∨ s = sa ∨ s = sb) := by
  have h1 : 0 < 1 := by norm_num
  obtain ⟨N, eN, hN⟩ := closest_nvector_one hA hB hC
  obtain ⟨T, eT, hT⟩ := C66_on_great_circle_path_partial hA hB (.self 1) (.nvec hN fun _ _ => rfl) (.self 1) h1 (.inl rfl)
    (lit 1e-6) (lit 1e-8)
  have tT := truth_val hT
  unfold GeoPath.closest_point_on_path Nv.GeoPath.closest_point_on_path
  simp only [eN, eT, tT, bind, Except.bind]
  cases ht : (pathAt 1 1 a b 0).on_great_circle_path (.nvec ((pathAt 1 1 a b 0).closest_nvector (c 0))) none (lit 1e-6) (lit 1e-8) with
  | true =>
    obtain ⟨X, eX, hX⟩ := C60_nvec_to_geo hN h1
    exact ⟨X, _, by rw [if_pos rfl]; exact eX, by simpa using hX, .inl rfl⟩
  | false =>
    obtain ⟨NA, eNA, hNA⟩ := C60_to_nvector hA h1
    obtain ⟨NB, eNB, hNB⟩ := C60_to_nvector hB h1
    obtain ⟨NC, eNC, hNC⟩ := C60_to_nvector hC h1
    obtain ⟨R, eR, hR⟩ := avg_radius hA hB (.self 1) h1
    obtain ⟨D1, e1, hD1⟩ := great_circle_one hNA.normal hNC.normal hR (.self 1)
    obtain ⟨D2, e2, hD2⟩ := great_circle_one hNB.normal hNC.normal hR (.self 1)
    obtain ⟨L, eL, hL⟩ := map2_vec' lt hD1 hD2
    have hL' : IsVal false L 1 _ := hL
    have tL := truth_val hL'
    simp only [bi_one] at tL
    simp only [eNA, eNB, eNC, eR, e1, e2, eL, tL, Bool.false_eq_true, if_false]
    cases hlt : lt (Nv.great_circle_distance (a 0).to_nvector.normal (c 0).to_nvector.normal (pathAt 1 1 a b 0).average_radius)
        (Nv.great_circle_distance (b 0).to_nvector.normal (c 0).to_nvector.normal (pathAt 1 1 a b 0).average_radius) with
    | true =>
      obtain ⟨X, eX, hX⟩ := C60_to_geo_point hA h1
      refine ⟨X, sa, by rw [if_pos rfl]; exact eX, hX.congr fun j hj => ?_, .inr (.inl rfl)⟩
      obtain rfl : j = 0 := by omega
      show _ = if lt (Nv.great_circle_distance (a 0).to_nvector.normal (c 0).to_nvector.normal (pathAt 1 1 a b 0).average_radius)
        (Nv.great_circle_distance (b 0).to_nvector.normal (c 0).to_nvector.normal (pathAt 1 1 a b 0).average_radius) then _ else _
      rw [hlt]; rfl
    | false =>
      obtain ⟨X, eX, hX⟩ := C60_to_geo_point hB h1
      refine ⟨X, sb, by simpa using eX, hX.congr fun j hj => ?_, .inr (.inr rfl)⟩
      obtain rfl : j = 0 := by omega
      show _ = if lt (Nv.great_circle_distance (a 0).to_nvector.normal (c 0).to_nvector.normal (pathAt 1 1 a b 0).average_radius)
        (Nv.great_circle_distance (b 0).to_nvector.normal (c 0).to_nvector.normal (pathAt 1 1 a b 0).average_radius) then _ else _
      rw [hlt]; rfl

/-- **C66** is false for several positions: unless there is one result, or three, the closest point methods raise
`ValueError` -/
theorem C66_closest_point_counterexample {n m o : ℕ} (hA : IsPos sa n P.point_a a) (hB : IsPos sb n P.point_b b) {sc : Bool}
    {Q : Position α} {c} (hC : IsPos sc m Q c) (hb : Bc n m o) (ho0 : 0 < o) (h1 : o ≠ 1) (h3 : o ≠ 3) :
    P.closest_point_on_great_circle Q = .error .ValueError ∧ P.closest_point_on_path Q = .error .ValueError := by
  obtain ⟨n0, m0⟩ := hb.pos ho0
  obtain ⟨NA, eNA, hNA⟩ := C60_to_nvector hA n0
  obtain ⟨NB, eNB, hNB⟩ := C60_to_nvector hB n0
  obtain ⟨NC, eNC, hNC⟩ := C60_to_nvector hC m0
  obtain ⟨Z, eZ, hZ⟩ := depth_map2 (· + ·) hNA.z hNB.z (.self n)
  have eX := (C53_closest_point_general hNA.normal hNB.normal hNC.normal hb).1 h1 h3
  have e : P.closest_nvector Q = .error .ValueError := by
    unfold GeoPath.closest_nvector
    simp only [eNA, eNB, eNC, eX, eZ, bind, Except.bind]
  constructor
  · unfold GeoPath.closest_point_on_great_circle; rw [e]; rfl
  · unfold GeoPath.closest_point_on_path; rw [e]; rfl

end

/-! ## The hypotheses are met -/

section
open XR (fin)

/-- three paths from one position to three others -/
noncomputable def threePaths : GeoPath XR := ⟨.geo oneGeo, .geo threeGeo⟩

/-- three track distances -/
example (G : Geodesic XR) : ∃ X x, threePaths.track_distance G "greatcircle" none = .ok X ∧ IsVal false X 3 x := by
  obtain ⟨X, h1, h2⟩ := C66_track_distance_partial (P := threePaths) oneGeo_pos threeGeo_pos (.one' 3) (by norm_num) G
    "greatcircle" (by decide) (x := _) (fun j _ => rfl)
  exact ⟨X, _, h1, h2⟩

/-- three cross track distances of one point -/
example : ∃ X x, threePaths.cross_track_distance (.geo oneGeo) "greatcircle" none = .ok X ∧ IsVal false X 3 x := by
  obtain ⟨X, h1, h2⟩ := C66_cross_track_distance_partial (P := threePaths) oneGeo_pos threeGeo_pos (.one' 3) oneGeo_pos (.one 3)
    (by norm_num) (.inr rfl) "greatcircle" (x := _) (fun j _ => ctd_eq _ 'g' "reatcircle".toList (by decide) _ _ _ _)
  exact ⟨X, _, h1, h2⟩

/-- three paths and three points -/
example : threePaths.cross_track_distance (.geo threeGeo) "greatcircle" none = .error .ValueError :=
  C66_cross_track_distance_counterexample oneGeo_pos threeGeo_pos (.one' 3) threeGeo_pos (by norm_num) _ (by decide)

/-- the reversed paths have three starting points -/
example (G : Geodesic XR) : (⟨.geo threeGeo, .geo oneGeo⟩ : GeoPath XR).track_distance G "greatcircle" none = .error .ValueError :=
  C66_track_distance_counterexample threeGeo_pos oneGeo_pos (.one 3) (by norm_num) (by norm_num) G

theorem threeGeo_geo : IsGeo false 3 threeGeo (fun j => ⟨fin j, fin 1, fin 0, threeGeo.frame⟩) :=
  ⟨⟨rfl, fun _ _ => rfl⟩, ⟨rfl, fun _ _ => rfl⟩, ⟨rfl, fun _ _ => rfl⟩, fun _ _ => rfl⟩

/-- and so has `distance_and_azimuth` -/
example (G : Geodesic XR) : threeGeo.distance_and_azimuth G (.geo oneGeo) false false "greatcircle" = .error .ValueError :=
  C65_distance_and_azimuth_counterexample (s := false) (n := 3) (m := 1) (k := 3) threeGeo_geo oneGeo_pos (.one 3) (by norm_num) (by norm_num) G _ _ _ 'g'
    "reatcircle".toList (by decide) (by decide) (check_frames_real _ _ _ _)

/-- three midpoints -/
example : ∃ Q q, threePaths.interpolate (scalar (fin 0.5)) = .ok Q ∧ IsNvec false 3 Q q := by
  rcases C66_interpolate (P := threePaths) oneGeo_pos threeGeo_pos (.one' 3) (IsVal.scalar (fin 0.5)) (.one 3) (by norm_num)
    with ⟨Q, q, h1, h2, -⟩ | ⟨-, h⟩
  · exact ⟨Q, q, h1, h2⟩
  · exfalso
    have := h 0 (by norm_num)
    have hc := check_frames_real 6378137 (1 / 298.257223563) (.str "WGS84") Spec.one
    unfold Nv.GeoPath.interpolate Nv.Nvector.sub at this
    have h1 : check_frames (Spec.pathAt 1 3 (fun _ => .geo ⟨fin 1, fin 2, fin 3, oneGeo.frame⟩)
      (fun j => .geo ⟨fin j, fin 1, fin 0, threeGeo.frame⟩) 0).nvectors.2.frame (Spec.pathAt 1 3
      (fun _ => .geo ⟨fin 1, fin 2, fin 3, oneGeo.frame⟩)
      (fun j => .geo ⟨fin j, fin 1, fin 0, threeGeo.frame⟩) 0).nvectors.1.frame = .ok () := hc
    rw [h1] at this
    simp only [bind, Except.bind, pure, Except.pure, Nv.Nvector.mul, Nv.Nvector.add] at this
    have h2 : check_frames (Spec.pathAt 1 3 (fun _ => .geo ⟨fin 1, fin 2, fin 3, oneGeo.frame⟩)
      (fun j => .geo ⟨fin j, fin 1, fin 0, threeGeo.frame⟩) 0).nvectors.1.frame (Spec.pathAt 1 3
      (fun _ => .geo ⟨fin 1, fin 2, fin 3, oneGeo.frame⟩)
      (fun j => .geo ⟨fin j, fin 1, fin 0, threeGeo.frame⟩) 0).nvectors.2.frame = .ok () := hc
    rw [h2] at this
    cases this

end
end Nv.ND
