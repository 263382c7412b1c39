import Verif.Lemmas.Missing

/-!
# C114: missing values (NaN) are never turned into numbers
-/

namespace Nv
open Spec PyFloat

section
variable {α : Type} [PyFloat α] [NanLaws α]

theorem lat_lon2n_E_nan {lat lon : α} (R : M3 α) (h : isfinite lat = false ∨ isfinite lon = false) : AllNaN (lat_lon2n_E lat lon R) := by
  apply mulVec_missing
  rcases h with h | h
  · left; exact NanLaws.sin_not_finite _ h
  · right; left; simp [NanLaws.sin_not_finite _ h]

theorem n_E2lat_lon_nan {n : V3 α} (R : M3 α) (h : SomeNaN n) : n_E2lat_lon n R = (nan, nan) := by
  obtain ⟨h1, h2, h3⟩ := mulVec_missing R h
  simp [n_E2lat_lon, h1, h2, h3]

theorem n_E2R_EN_nan {n : V3 α} (R : M3 α) (h : SomeNaN n) : AllNaNM (n_E2R_EN n R) := by
  obtain ⟨h1, h2, h3⟩ := unit_missing (lit 1) (mulVec_missing R h).some
  apply mdot_missing
  have hc : AllNaN (cross3 (⟨lit 1, lit 0, lit 0⟩ : V3 α) (unit (mulVec R n))) := by simp [cross3, AllNaN, h1, h2, h3]
  have hn := norm3_missing hc.some
  have hu := unit_missing (lit 1) hc.some
  simp only [hn, NanLaws.nan_eq, Bool.false_eq_true, if_false]
  generalize unit (cross3 (⟨lit 1, lit 0, lit 0⟩ : V3 α) (unit (mulVec R n))) = e at hu
  obtain ⟨h4, h5, h6⟩ := hu
  simp [ofCols, neg3, AllNaNM, AllNaN, h1, h2, h3, cross3, h4, h5, h6]

theorem n2p_nan {n : V3 α} {depth a f : α} (R : M3 α) (h : SomeNaN n ∨ depth = nan ∨ a = nan ∨ f = nan) :
    AllNaN (n_EB_E2p_EB_E n depth a f R) := by
  apply mulVec_missing
  rcases h with h | h | h | h
  · left; simp [sub3, scale3, (unit_missing (lit 1) (mulVec_missing R h).some).1]
  · left; simp [sub3, scale3, h]
  · left; simp [sub3, scale3, h]
  · left; simp [sub3, scale3, h]

theorem compute_k_nan' (a e q y : α) (h : a = nan ∨ e = nan ∨ q = nan ∨ y = nan) : compute_k a e q y = nan := by
  have h6 : powi (nan : α) 2 = nan := NanLaws.powi_nan 1
  rcases h with h | h | h | h <;> simp [compute_k, h, h6, powNat_two_nan, powNat_three_nan]

theorem equation23_nan {a f : α} {p : V3 α} (h : a = nan ∨ f = nan ∨ SomeNaN p) : equation23 a f p = (nan, nan, nan) := by
  have hk : compute_k a (eccentricity2 f) ((lit 1 - eccentricity2 f) / powi a 2 * powNat p.x 2) (powNat p.y 2 + powNat p.z 2) = nan := by
    apply compute_k_nan'
    rcases h with h | h | h | h | h <;> simp [h, eccentricity2, powNat_two_nan]
  simp [equation23, hk, powNat_two_nan]

theorem p2n_nan {p : V3 α} {a f : α} (R : M3 α) (h : SomeNaN p ∨ a = nan ∨ f = nan) :
    AllNaN (p_EB_E2n_EB_E p a f R).1 ∧ (p_EB_E2n_EB_E p a f R).2 = nan := by
  have hq : equation23 a f (mulVec R p) = (nan, nan, nan) := by
    apply equation23_nan
    rcases h with h | h | h
    · exact .inr (.inr (mulVec_missing R h).some)
    · exact .inl h
    · exact .inr (.inl h)
  simp only [p_EB_E2n_EB_E, hq, and_true]
  exact unit_missing _ (mulVec_missing _ (.inl (by simp))).some

theorem p_AB_nan {n m : V3 α} {z w a f : α} (R : M3 α) (h : SomeNaN n ∨ SomeNaN m ∨ z = nan ∨ w = nan ∨ a = nan ∨ f = nan) :
    AllNaN (n_EA_E_and_n_EB_E2p_AB_E n m z w a f R) := by
  have key : AllNaN (n_EB_E2p_EB_E n z a f R) ∨ AllNaN (n_EB_E2p_EB_E m w a f R) := by
    rcases h with h | h | h | h | h | h
    · exact .inl (n2p_nan R (.inl h))
    · exact .inr (n2p_nan R (.inl h))
    · exact .inl (n2p_nan R (.inr (.inl h)))
    · exact .inr (n2p_nan R (.inr (.inl h)))
    · exact .inl (n2p_nan R (.inr (.inr (.inl h))))
    · exact .inl (n2p_nan R (.inr (.inr (.inr h))))
  rcases key with ⟨h1, h2, h3⟩ | ⟨h1, h2, h3⟩ <;> simp [n_EA_E_and_n_EB_E2p_AB_E, sub3, AllNaN, h1, h2, h3]

theorem normal_nan {A C : V3 α} (h : SomeNaN A ∨ SomeNaN C) : AllNaN (great_circle_normal A C) := by
  rcases h with h | h
  · exact unit_missing _ (cross3_missing_left _ h)
  · exact unit_missing _ (cross3_missing_right _ h)

theorem cross_track_nan {A C P : V3 α} {r : α} (method : String) {d : α} (h : SomeNaN A ∨ SomeNaN C ∨ SomeNaN P ∨ r = nan)
    (hd : cross_track_distance (A, C) P method r = .ok d) : d = nan := by
  have hs : r = nan ∨ -(dot3 (great_circle_normal A C) P) = nan := by
    rcases h with h | h | h | h
    · right; rw [dot3_missing_left _ (normal_nan (.inl h)).some]; simp
    · right; rw [dot3_missing_left _ (normal_nan (.inr h)).some]; simp
    · right; rw [dot3_missing_right _ h]; simp
    · exact .inl h
  unfold cross_track_distance at hd
  simp only at hd
  split at hd
  · simp at hd
  · split at hd
    · simp only [Except.ok.injEq, euclidean_cross_track_distance] at hd
      rcases hs with hs | hs <;> simp [← hd, hs]
    · simp only [Except.ok.injEq, great_circle_cross_track_distance] at hd
      rcases hs with hs | hs <;> simp [← hd, hs]

theorem on_great_circle_nan {A C P : V3 α} {r atol : α} (h : SomeNaN A ∨ SomeNaN C ∨ SomeNaN P ∨ r = nan ∨ atol = nan) :
    on_great_circle (A, C) P r atol = false := by
  have key : abs_cross_track (A, C) P r = nan ∨ atol = nan := by
    have : (SomeNaN A ∨ SomeNaN C ∨ SomeNaN P ∨ r = nan) ∨ atol = nan := by tauto
    rcases this with h | h
    · left
      unfold abs_cross_track
      split
      · next d hd => rw [cross_track_nan _ h hd]; simp
      · rfl
    · exact .inr h
  rcases key with h | h <;> simp [on_great_circle, h]

theorem on_gc_path_nan {path : V3 α × V3 α} {P : V3 α} (r atol : α) (h : SomeNaN path.1 ∨ SomeNaN path.2 ∨ SomeNaN P) :
    on_great_circle_path path P r atol = false := by
  have : on_great_circle (path.1, path.2) P r atol = false := by
    apply on_great_circle_nan
    rcases h with h | h | h
    · exact .inl h
    · exact .inr (.inl h)
    · exact .inr (.inr (.inl h))
  simp [on_great_circle_path, this]

theorem closest_nan {A C P : V3 α} (h : SomeNaN A ∨ SomeNaN C ∨ SomeNaN P) : AllNaN (closest_point_on_great_circle (A, C) P) := by
  have : AllNaN (unit (cross3 (great_circle_normal A C) (cross3 P (great_circle_normal A C)))) := by
    apply unit_missing
    rcases h with h | h | h
    · exact cross3_missing_left _ (normal_nan (.inl h)).some
    · exact cross3_missing_left _ (normal_nan (.inr h)).some
    · exact cross3_missing_right _ (cross3_missing_left _ h)
  obtain ⟨h1, h2, h3⟩ := this
  simp [closest_point_on_great_circle, scale3, AllNaN, h1, h2, h3]

theorem gcd_nan {A C : V3 α} {r : α} (h : SomeNaN A ∨ SomeNaN C ∨ r = nan) : great_circle_distance A C r = nan := by
  rcases h with h | h | h
  · simp [great_circle_distance, dot3_missing_left _ h]
  · simp [great_circle_distance, dot3_missing_right _ h]
  · simp [great_circle_distance, h]

theorem eucl_nan {A C : V3 α} {r : α} (h : SomeNaN A ∨ SomeNaN C ∨ r = nan) : euclidean_distance A C r = nan := by
  rcases h with h | h | h
  · simp [euclidean_distance, norm3_missing (sub3_missing_right _ h)]
  · simp [euclidean_distance, norm3_missing (sub3_missing_left _ h)]
  · simp [euclidean_distance, h]

theorem azimuth_nan {A C : V3 α} {a f : α} (R : M3 α) (h : SomeNaN A ∨ SomeNaN C ∨ a = nan ∨ f = nan) :
    n_EA_E_and_n_EB_E2azimuth A C a f R = nan := by
  have := mulVec_missing (tr (n_E2R_EN A R)) (p_AB_nan (z := lit 0) (w := lit 0) R (by tauto) : AllNaN (n_EA_E_and_n_EB_E2p_AB_E A C (lit 0) (lit 0) a f R)).some
  simp [n_EA_E_and_n_EB_E2azimuth, this.1]

theorem reach_nan {A : V3 α} {d az : α} (R : M3 α) (h : SomeNaN A ∨ isfinite d = false ∨ isfinite az = false) :
    AllNaN (n_EA_E_distance_and_azimuth2n_EB_E A d az R) := by
  rcases h with h | h | h
  · obtain ⟨h1, h2, h3⟩ := unit_missing (lit 1) (cross3_missing_right (mulVec (tr R) ⟨lit 1, lit 0, lit 0⟩) h)
    simp [n_EA_E_distance_and_azimuth2n_EB_E, add3, scale3, AllNaN, h1, h2, h3]
  · simp [n_EA_E_distance_and_azimuth2n_EB_E, add3, scale3, AllNaN, NanLaws.cos_not_finite _ h]
  · simp [n_EA_E_distance_and_azimuth2n_EB_E, add3, scale3, AllNaN, NanLaws.cos_not_finite _ h]

theorem foldl_nan (l : List (V3 α)) (s : V3 α) (h : SomeNaN s ∨ ∃ v ∈ l, SomeNaN v) : SomeNaN (l.foldl add3 s) := by
  induction l generalizing s with
  | nil => simpa using h
  | cons x l ih =>
    apply ih
    rcases h with h | ⟨v, hv, h⟩
    · exact .inl (add3_missing_left _ h)
    · rcases List.mem_cons.1 hv with rfl | hv
      · exact .inl (add3_missing_right _ h)
      · exact .inr ⟨v, hv, h⟩

theorem interpolate_nan {A C : V3 α} {t : α} (h : SomeNaN A ∨ SomeNaN C ∨ t = nan) : AllNaN (interpolate (A, C) t) := by
  apply unit_missing
  rcases h with h | h | h
  · exact add3_missing_left _ h
  · apply add3_missing_right
    rcases sub3_missing_left A h with h | h | h <;> simp [scale3, SomeNaN, h]
  · left; simp [add3, scale3, h]

theorem intersect_nan {A C D E : V3 α} (h : SomeNaN A ∨ SomeNaN C ∨ SomeNaN D ∨ SomeNaN E) : AllNaN (intersect (A, C) (D, E)) := by
  have : AllNaN (unit (cross3 (cross3 A C) (cross3 D E)) nan) := by
    apply unit_missing
    rcases h with h | h | h | h
    · exact cross3_missing_left _ (cross3_missing_left _ h)
    · exact cross3_missing_left _ (cross3_missing_right _ h)
    · exact cross3_missing_right _ (cross3_missing_left _ h)
    · exact cross3_missing_right _ (cross3_missing_right _ h)
  obtain ⟨h1, h2, h3⟩ := this
  simp [intersect, scale3, AllNaN, h1, h2, h3]


/-! ### Objects -/

/-- the horizontal position is missing -/
def Spec.HorizontalMissing : Position α → Prop
  | .geo p => isfinite p.latitude = false ∨ isfinite p.longitude = false
  | .nvec p => SomeNaN p.normal
  | .ecef p => SomeNaN p.pvector
  | .pvec p => SomeNaN p.pvector

/-- the horizontal position or the depth is missing -/
def Spec.Missing : Position α → Prop
  | .geo p => isfinite p.latitude = false ∨ isfinite p.longitude = false ∨ p.z = nan
  | .nvec p => SomeNaN p.normal ∨ p.z = nan
  | .ecef p => SomeNaN p.pvector
  | .pvec p => SomeNaN p.pvector

omit [NanLaws α] in
theorem Spec.HorizontalMissing.missing {p : Position α} (h : HorizontalMissing p) : Missing p := by
  cases p with
  | geo p => rcases h with h | h; exacts [.inl h, .inr (.inl h)]
  | nvec p => exact .inl h
  | ecef p => exact h
  | pvec p => exact h

theorem to_ecef_nan {p : Position α} (h : Missing p) : SomeNaN p.to_ecef_vector.pvector := by
  cases p with
  | geo p =>
    apply AllNaN.some
    apply n2p_nan
    rcases h with h | h | h
    · exact .inl (lat_lon2n_E_nan _ (.inl h)).some
    · exact .inl (lat_lon2n_E_nan _ (.inr h)).some
    · exact .inr (.inl h)
  | nvec p =>
    apply AllNaN.some
    apply n2p_nan
    rcases h with h | h
    · exact .inl h
    · exact .inr (.inl h)
  | ecef p => exact h
  | pvec p => exact (mulVec_missing _ h).some

theorem to_nvector_nan {p : Position α} (h : HorizontalMissing p) : SomeNaN p.to_nvector.normal := by
  cases p with
  | geo p => exact (lat_lon2n_E_nan _ h).some
  | nvec p => exact h
  | ecef p => exact (p2n_nan _ (.inl h)).1.some
  | pvec p => exact (p2n_nan _ (.inl (mulVec_missing _ h).some)).1.some

theorem to_nvector_missing {p : Position α} (h : Missing p) : SomeNaN p.to_nvector.normal ∨ p.to_nvector.z = nan := by
  cases p with
  | geo p =>
    rcases h with h | h | h
    · exact .inl (to_nvector_nan (p := .geo p) (.inl h))
    · exact .inl (to_nvector_nan (p := .geo p) (.inr h))
    · exact .inr h
  | nvec p => exact h
  | ecef p => exact .inl (p2n_nan _ (.inl h)).1.some
  | pvec p => exact .inl (p2n_nan _ (.inl (mulVec_missing _ h).some)).1.some

/-- the latitude and the longitude of a missing position are missing -/
theorem to_geo_nan {p : Position α} (h : HorizontalMissing p) : isfinite p.to_geo_point.latitude = false ∨ isfinite p.to_geo_point.longitude = false := by
  cases p with
  | geo p => exact h
  | nvec p => left; change isfinite (n_E2lat_lon p.normal p.frame.R_Ee).1 = false; rw [n_E2lat_lon_nan _ h]; simp
  | ecef p =>
    left; change isfinite (n_E2lat_lon (p_EB_E2n_EB_E p.pvector p.frame.a p.frame.f p.frame.R_Ee).1 p.frame.R_Ee).1 = false
    rw [n_E2lat_lon_nan _ (p2n_nan _ (.inl h)).1.some]; simp
  | pvec p =>
    left
    change isfinite (n_E2lat_lon (p_EB_E2n_EB_E (mulVec p.frame.R_EN p.pvector) _ _ _).1 _).1 = false
    rw [n_E2lat_lon_nan _ (p2n_nan _ (.inl (mulVec_missing _ h).some)).1.some]; simp

theorem sub_pvector {s o d : ECEFvector α} (h : s.sub o = .ok d) : d.pvector = sub3 s.pvector o.pvector := by
  unfold ECEFvector.sub at h
  cases hc : check_frames s.frame o.frame with
  | error e => simp [hc, bind, Except.bind] at h
  | ok u => simp only [hc, bind, Except.bind, pure, Except.pure, Except.ok.injEq] at h; rw [← h]

theorem delta_E_nan {a b : Position α} {d : ECEFvector α} (h : Missing a ∨ Missing b) (hd : delta_E a b = .ok d) : SomeNaN d.pvector := by
  rw [sub_pvector hd]
  rcases h with h | h
  · exact sub3_missing_right _ (to_ecef_nan h)
  · exact sub3_missing_left _ (to_ecef_nan h)

theorem delta_N_nan {a b : Position α} {d : Pvector α} (h : Missing a ∨ Missing b) (hd : delta_N a b = .ok d) : AllNaN d.pvector := by
  unfold delta_N at hd
  cases he : delta_E a b with
  | error e => simp [he, bind, Except.bind] at hd
  | ok e =>
    simp only [he, bind, Except.bind] at hd
    unfold ECEFvector.change_frame at hd
    cases hc : check_frames e.frame (FrameN a).nvector.frame with
    | error e => simp [hc, bind, Except.bind] at hd
    | ok u =>
      simp only [hc, bind, Except.bind, pure, Except.pure, Except.ok.injEq] at hd
      rw [← hd]
      exact mulVec_missing _ (delta_E_nan h he)


theorem base_angle_nan : base_angle (nan : α) = nan := by simp [base_angle]
theorem rad2deg_nan : rad2deg (nan : α) = nan := by simp [rad2deg]

theorem inverse_nan {p : GeoPoint α} {q : Position α} {degrees : Bool} {r : α × α × α} (h : Missing (.geo p) ∨ Missing q)
    (hr : p.distance_and_azimuth_greatcircle q degrees = .ok r) : r = (nan, nan, nan) := by
  have ep : SomeNaN p.to_nvector.to_ecef_vector.pvector ∨ SomeNaN q.to_nvector.to_ecef_vector.pvector := by
    have key : ∀ n : Nvector α, SomeNaN n.normal ∨ n.z = nan → SomeNaN n.to_ecef_vector.pvector := by
      intro n hn
      apply AllNaN.some
      apply n2p_nan
      rcases hn with hn | hn
      · exact .inl hn
      · exact .inr (.inl hn)
    rcases h with h | h
    · exact .inl (key _ (to_nvector_missing h))
    · exact .inr (key _ (to_nvector_missing h))
  unfold GeoPoint.distance_and_azimuth_greatcircle at hr
  simp only at hr
  cases h1 : delta_N (.ecef p.to_nvector.to_ecef_vector) (.ecef q.to_nvector.to_ecef_vector) with
  | error e => simp [h1, bind, Except.bind] at hr
  | ok d1 =>
    cases h2 : delta_N (.ecef q.to_nvector.to_ecef_vector) (.ecef p.to_nvector.to_ecef_vector) with
    | error e => simp [h1, h2, bind, Except.bind] at hr
    | ok d2 =>
      have n1 := delta_N_nan (a := .ecef p.to_nvector.to_ecef_vector) (b := .ecef q.to_nvector.to_ecef_vector) ep h1
      have n2 := delta_N_nan (a := .ecef q.to_nvector.to_ecef_vector) (b := .ecef p.to_nvector.to_ecef_vector) (ep.symm) h2
      have hl : length p.to_nvector.to_ecef_vector.pvector + length q.to_nvector.to_ecef_vector.pvector = nan := by
        rcases ep with h | h <;> simp [length, norm3_missing h]
      have hg : great_circle_distance p.to_nvector.normal q.to_nvector.normal (nan : α) = nan := gcd_nan (.inr (.inr rfl))
      simp only [h1, h2, bind, Except.bind, pure, Except.pure, hl, NanLaws.mul_nan, hg, azimuth, n1.1, n2.1, NanLaws.arctan2_nan, NanLaws.nan_sub,
        base_angle_nan, rad2deg_nan, ite_self, Except.ok.injEq] at hr
      exact hr.symm

theorem displace_nan {p : GeoPoint α} {distance az : α} {degrees : Bool} {r : GeoPoint α × α}
    (h : Missing (.geo p) ∨ distance = nan ∨ az = nan) (hr : p.displace_great_circle distance az degrees = .ok r) :
    r.1.latitude = nan ∧ r.1.longitude = nan ∧ r.2 = nan := by
  unfold GeoPoint.displace_great_circle at hr
  simp only at hr
  generalize hm : (n_EA_E_distance_and_azimuth2n_EB_E p.to_nvector.normal (distance / length p.to_nvector.to_ecef_vector.pvector)
    (if degrees = true then deg2rad az else az)) = m at hr
  have hn : AllNaN m := by
    rw [← hm]
    apply reach_nan
    rcases h with h | h | h
    · have := to_ecef_nan h
      right; left
      have h2 : length p.to_nvector.to_ecef_vector.pvector = nan := norm3_missing this
      simp [h2]
    · right; left; simp [h]
    · right; right; cases degrees <;> simp [h, deg2rad]
  have hg : n_E2lat_lon m p.frame.R_Ee = (nan, nan) := n_E2lat_lon_nan _ hn.some
  have hp : Nvector.to_geo_point ⟨m, p.z, p.frame⟩ = (⟨nan, nan, p.z, p.frame⟩ : GeoPoint α) := by
    simp only [Nvector.to_geo_point, hg]
  rw [hp] at hr
  cases h1 : delta_N (.geo (⟨nan, nan, p.z, p.frame⟩ : GeoPoint α)) (.ecef p.to_nvector.to_ecef_vector) with
  | error e => simp [h1, bind, Except.bind] at hr
  | ok d =>
    have n1 := delta_N_nan (a := .geo (⟨nan, nan, p.z, p.frame⟩ : GeoPoint α)) (b := .ecef p.to_nvector.to_ecef_vector)
      (.inl (.inl (NanLaws.isfinite_nan))) h1
    simp only [h1, bind, Except.bind, pure, Except.pure, azimuth, n1.1, NanLaws.arctan2_nan, NanLaws.nan_sub, base_angle_nan, rad2deg_nan, ite_self,
      Except.ok.injEq] at hr
    rw [← hr]
    exact ⟨rfl, rfl, rfl⟩

theorem average_radius_nan {P : GeoPath α} (h : Missing P.point_a ∨ Missing P.point_b) : P.average_radius = nan := by
  unfold GeoPath.average_radius GeoPath.ecef_vectors length
  rcases h with h | h
  · simp [norm3_missing (to_ecef_nan h)]
  · simp [norm3_missing (to_ecef_nan h)]

theorem eqClose_nan {l : List (α × α)} (h : ∃ p ∈ l, p.1 = nan ∨ p.2 = nan) : eqClose l = false := by
  obtain ⟨p, hp, h⟩ := h
  unfold eqClose allclose
  rw [List.all_eq_false]
  refine ⟨p, hp, ?_⟩
  rcases h with h | h <;> simp [h, isclose, npIsclose]

theorem angleDiff_nan_left (y : α) : angleDiff nan y = nan := by simp [angleDiff]

end

section
variable (B : Binary64)

/-- **C114** conversion between latitude/longitude and n-vector -/
theorem C114_lat_lon (lat lon : F64 B) (n : V3 (F64 B)) (R : M3 (F64 B)) :
    (isfinite lat = false ∨ isfinite lon = false → AllNaN (lat_lon2n_E lat lon R)) ∧
    (SomeNaN n → n_E2lat_lon n R = (nan, nan)) ∧
    (SomeNaN n → AllNaNM (n_E2R_EN n R)) :=
  ⟨lat_lon2n_E_nan R, n_E2lat_lon_nan R, n_E2R_EN_nan R⟩

/-- **C114** conversion between n-vector and depth and the cartesian position, and delta vectors -/
theorem C114_position (n m p : V3 (F64 B)) (z w a f : F64 B) (R : M3 (F64 B)) :
    (SomeNaN n ∨ z = nan ∨ a = nan ∨ f = nan → AllNaN (n_EB_E2p_EB_E n z a f R)) ∧
    (SomeNaN p ∨ a = nan ∨ f = nan → AllNaN (p_EB_E2n_EB_E p a f R).1 ∧ (p_EB_E2n_EB_E p a f R).2 = nan) ∧
    (SomeNaN n ∨ SomeNaN m ∨ z = nan ∨ w = nan ∨ a = nan ∨ f = nan → AllNaN (n_EA_E_and_n_EB_E2p_AB_E n m z w a f R)) ∧
    (SomeNaN n ∨ SomeNaN p ∨ z = nan ∨ a = nan ∨ f = nan →
      AllNaN (n_EA_E_and_p_AB_E2n_EB_E n p z a f R).1 ∧ (n_EA_E_and_p_AB_E2n_EB_E n p z a f R).2 = nan) := by
  refine ⟨n2p_nan R, p2n_nan R, p_AB_nan R, fun h => ?_⟩
  apply p2n_nan
  rcases h with h | h | h | h | h
  · exact .inl (add3_missing_left _ (n2p_nan R (.inl h)).some)
  · exact .inl (add3_missing_right _ h)
  · exact .inl (add3_missing_left _ (n2p_nan R (.inr (.inl h))).some)
  · exact .inr (.inl h)
  · exact .inr (.inr h)

/-- **C114** distances, azimuth, direct problem and mean -/
theorem C114_distance (n m : V3 (F64 B)) (r a f d az : F64 B) (R : M3 (F64 B)) (l : List (V3 (F64 B))) :
    (SomeNaN n ∨ SomeNaN m ∨ r = nan → great_circle_distance n m r = nan ∧ euclidean_distance n m r = nan) ∧
    (SomeNaN n ∨ SomeNaN m ∨ a = nan ∨ f = nan → n_EA_E_and_n_EB_E2azimuth n m a f R = nan) ∧
    (SomeNaN n ∨ isfinite d = false ∨ isfinite az = false → AllNaN (n_EA_E_distance_and_azimuth2n_EB_E n d az R)) ∧
    ((∃ v ∈ l, SomeNaN v) → AllNaN (mean_horizontal_position l)) :=
  ⟨fun h => ⟨gcd_nan h, eucl_nan h⟩, azimuth_nan R, reach_nan R, fun h => unit_missing _ (foldl_nan _ _ (.inr h))⟩

/-- **C114** great circles: the numbers are NaN (with a warning of `intersect`) and the predicates False -/
theorem C114_great_circle (A C D E P : V3 (F64 B)) (r t atol : F64 B) (method : String) :
    (SomeNaN A ∨ SomeNaN C ∨ t = nan → AllNaN (interpolate (A, C) t)) ∧
    (SomeNaN A ∨ SomeNaN C ∨ SomeNaN D ∨ SomeNaN E → AllNaN (intersect (A, C) (D, E)) ∧ intersect_warns (A, C) (D, E) = true) ∧
    (∀ d, SomeNaN A ∨ SomeNaN C ∨ SomeNaN P ∨ r = nan → cross_track_distance (A, C) P method r = .ok d → d = nan) ∧
    (SomeNaN A ∨ SomeNaN C ∨ SomeNaN P → AllNaN (closest_point_on_great_circle (A, C) P)) ∧
    (SomeNaN A ∨ SomeNaN C ∨ SomeNaN P ∨ r = nan ∨ atol = nan →
      on_great_circle (A, C) P r atol = false ∧ on_great_circle_path (A, C) P r atol = false) := by
  refine ⟨interpolate_nan, fun h => ⟨intersect_nan h, ?_⟩, fun d h hd => cross_track_nan _ h hd, closest_nan, fun h => ⟨on_great_circle_nan h, ?_⟩⟩
  · obtain ⟨h1, -, -⟩ := intersect_nan h
    simp [intersect_warns, h1]
  · simp [on_great_circle_path, on_great_circle_nan h]

/-- **C114** positions of every class: delta vectors and both great circle problems.  (Arguments of different frames raise.) -/
theorem C114_objects (p : GeoPoint (F64 B)) (a b : Position (F64 B)) (distance az : F64 B) (degrees : Bool) :
    (Missing a → SomeNaN a.to_ecef_vector.pvector) ∧
    (Missing a ∨ Missing b → ∀ d, delta_N a b = .ok d → AllNaN d.pvector) ∧
    (Missing (.geo p) ∨ Missing b → ∀ r, p.distance_and_azimuth_greatcircle b degrees = .ok r → r = (nan, nan, nan)) ∧
    (Missing (.geo p) ∨ distance = nan ∨ az = nan → ∀ r, p.displace_great_circle distance az degrees = .ok r →
      r.1.latitude = nan ∧ r.1.longitude = nan ∧ r.2 = nan) :=
  ⟨to_ecef_nan, fun h _ hd => delta_N_nan h hd, fun h _ hr => inverse_nan h hr, fun h _ hr => displace_nan h hr⟩

/-- **C114** paths -/
theorem C114_paths (P Q : GeoPath (F64 B)) (c : Position (F64 B)) (t : F64 B) (radius : Option (F64 B)) (method : String) (G : Geodesic (F64 B)) :
    (HorizontalMissing P.point_a ∨ HorizontalMissing P.point_b ∨ HorizontalMissing c →
      (∀ d, P.cross_track_distance c method radius = .ok d → d = nan) ∧
      (P.closest_point_on_great_circle c).latitude = nan ∧ (P.closest_point_on_great_circle c).longitude = nan) ∧
    (HorizontalMissing P.point_a ∨ HorizontalMissing P.point_b →
      (∀ d, ¬ (strTake method 2 = "ex" ∨ strTake method 2 = "el") → P.track_distance G method radius = .ok d → d = nan)) ∧
    (HorizontalMissing P.point_a ∨ HorizontalMissing P.point_b ∨ HorizontalMissing Q.point_a ∨ HorizontalMissing Q.point_b →
      ∀ n, P.intersect Q = .ok n → AllNaN n.normal) ∧
    (HorizontalMissing P.point_a ∨ HorizontalMissing P.point_b ∨ t = nan → ∀ n, P.interpolate t = .ok n → AllNaN n.normal) := by
  refine ⟨fun h => ⟨fun d hd => ?_, ?_⟩, fun h d hm hd => ?_, fun h n hn => ?_, fun h n hn => ?_⟩
  · refine cross_track_nan method ?_ hd
    rcases h with h | h | h
    · exact .inl (to_nvector_nan h)
    · exact .inr (.inl (to_nvector_nan h))
    · exact .inr (.inr (.inl (to_nvector_nan h)))
  · have hc : AllNaN (closest_point_on_great_circle P.nvector_normals c.to_nvector.normal) := by
      apply closest_nan
      rcases h with h | h | h
      · exact .inl (to_nvector_nan h)
      · exact .inr (.inl (to_nvector_nan h))
      · exact .inr (.inr (to_nvector_nan h))
    have : n_E2lat_lon (closest_point_on_great_circle P.nvector_normals c.to_nvector.normal) c.to_nvector.frame.R_Ee = (nan, nan) :=
      n_E2lat_lon_nan _ hc.some
    simp [GeoPath.closest_point_on_great_circle, GeoPath.closest_nvector, Nvector.to_geo_point, this]
  · have hn : SomeNaN P.nvector_normals.1 ∨ SomeNaN P.nvector_normals.2 := by
      rcases h with h | h
      · exact .inl (to_nvector_nan h)
      · exact .inr (to_nvector_nan h)
    unfold GeoPath.track_distance at hd
    rw [if_neg hm] at hd
    simp only at hd
    split at hd
    · rw [eucl_nan (by tauto)] at hd; simpa using hd.symm
    · rw [gcd_nan (by tauto)] at hd; simpa using hd.symm
  · unfold GeoPath.intersect at hn
    simp only at hn
    cases hf : GeoPath.frameOf P.point_a with
    | error e => simp [hf, bind, Except.bind] at hn
    | ok F =>
      simp only [hf, bind, Except.bind, pure, Except.pure, Except.ok.injEq] at hn
      rw [← hn]
      apply intersect_nan
      rcases h with h | h | h | h
      · exact .inl (to_nvector_nan h)
      · exact .inr (.inl (to_nvector_nan h))
      · exact .inr (.inr (.inl (to_nvector_nan h)))
      · exact .inr (.inr (.inr (to_nvector_nan h)))
  · unfold GeoPath.interpolate Nvector.sub Nvector.mul Nvector.add at hn
    cases h1 : check_frames P.nvectors.2.frame P.nvectors.1.frame with
    | error e => simp [h1, bind, Except.bind] at hn
    | ok u =>
      cases h2 : check_frames P.nvectors.1.frame P.nvectors.2.frame with
      | error e => simp [h1, h2, bind, Except.bind, pure, Except.pure] at hn
      | ok u' =>
        simp only [h1, h2, bind, Except.bind, pure, Except.pure, Except.ok.injEq] at hn
        rw [← hn]
        refine interpolate_nan (A := P.nvectors.1.normal) (C := P.nvectors.2.normal) (t := t) ?_
        rcases h with h | h | h
        · exact .inl (to_nvector_nan h)
        · exact .inr (.inl (to_nvector_nan h))
        · exact .inr (.inr h)

/-- **C114** a missing position is on no great circle and on no great circle path, and nothing is on a path with a missing end -/
theorem C114_on_path (P : GeoPath (F64 B)) (c : Position (F64 B)) (rtol atol : F64 B) (method : String) (G : Geodesic (F64 B))
    (hm : ¬ (strTake method 2 = "ex" ∨ strTake method 2 = "el")) :
    (HorizontalMissing P.point_a ∨ HorizontalMissing P.point_b ∨ HorizontalMissing c → P.on_great_circle c atol = .ok false) ∧
    (Missing P.point_a ∨ Missing P.point_b ∨ Missing c → P.on_path G c method rtol atol = .ok false) := by
  constructor
  · intro h
    have hn : SomeNaN P.nvector_normals.1 ∨ SomeNaN P.nvector_normals.2 ∨ SomeNaN c.to_nvector.normal := by
      rcases h with h | h | h
      · exact .inl (to_nvector_nan h)
      · exact .inr (.inl (to_nvector_nan h))
      · exact .inr (.inr (to_nvector_nan h))
    unfold GeoPath.on_great_circle
    cases hd : P.cross_track_distance c with
    | error e =>
      exfalso
      unfold GeoPath.cross_track_distance cross_track_distance at hd
      simp only at hd
      split at hd
      · next h => simp at h
      · split at hd <;> simp at hd
    | ok d =>
      have := cross_track_nan (A := P.nvector_normals.1) (C := P.nvector_normals.2) "greatcircle" (by tauto) hd
      simp only [this, bind, Except.bind, pure, Except.pure, NanLaws.abs_nan, isclose_missing_left]
  · intro h
    unfold GeoPath.on_path
    rw [if_neg hm]
    unfold GeoPath.on_great_circle_path
    simp only [Except.ok.injEq]
    have ho : ∀ r t : F64 B, SomeNaN P.nvector_normals.1 ∨ SomeNaN P.nvector_normals.2 ∨ SomeNaN c.to_nvector.normal →
        on_great_circle_path P.nvector_normals c.to_nvector.normal r t = false := fun r t h => on_gc_path_nan r t h
    rcases h with h | h | h
    · rcases to_nvector_missing h with h | h
      · simp [ho _ _ (.inl h)]
      · have : P.nvectors.1.z = nan := h
        simp [this, isclose_missing_right]
    · rcases to_nvector_missing h with h | h
      · simp [ho _ _ (.inr (.inl h))]
      · have : P.nvectors.2.z = nan := h
        simp [this, isclose_missing_right]
    · rcases to_nvector_missing h with h | h
      · simp [ho _ _ (.inr (.inr h))]
      · simp [h, isclose_missing_left]

/-- **C114** the exception: the point of a path closest to a missing position is always its end `positionB` -/
theorem C114_closest_point_on_path_counterexample (P : GeoPath (F64 B)) (c : Position (F64 B)) (h : HorizontalMissing c) :
    P.closest_point_on_path c = P.point_b.to_geo_point := by
  have hn := to_nvector_nan h
  have hc : AllNaN (P.closest_nvector c).normal := closest_nan (.inr (.inr hn))
  have ho : ∀ (r : Option (F64 B)) (t u : F64 B), P.on_great_circle_path (.nvec (P.closest_nvector c)) r t u = false := by
    intro r t u
    unfold GeoPath.on_great_circle_path
    have := on_gc_path_nan (path := P.nvector_normals) (P.radiusOr r) u (.inr (.inr hc.some))
    have e : (Position.nvec (P.closest_nvector c)).to_nvector = P.closest_nvector c := rfl
    simp [e, this]
  unfold GeoPath.closest_point_on_path
  simp only [ho, Bool.false_eq_true, if_false]
  rw [gcd_nan (.inr (.inl hn))]
  simp

/-- **C114** a missing position is equal to no other object -/
theorem C114_equality (p : GeoPoint (F64 B)) (n : Nvector (F64 B)) (e : ECEFvector (F64 B)) (v : Pvector (F64 B)) (y : Obj (F64 B)) :
    (p.latitude = nan ∨ p.longitude = nan ∨ p.z = nan → pyEq false (.geo p) y = .ok false ∧ pyNe false (.geo p) y = .ok true) ∧
    (SomeNaN n.normal ∨ n.z = nan → pyEq false (.nvec n) y = .ok false ∧ pyNe false (.nvec n) y = .ok true) ∧
    (SomeNaN e.pvector → pyEq false (.ecef e) y = .ok false ∧ pyNe false (.ecef e) y = .ok true) ∧
    (SomeNaN v.pvector → pyEq false (.pvec v) y = .ok false ∧ pyNe false (.pvec v) y = .ok true) := by
  have h3 : ∀ v w : V3 (F64 B), SomeNaN v ∨ SomeNaN w → eqClose (pairs3 v w) = false := by
    intro v w h
    apply eqClose_nan
    rcases h with (h | h | h) | (h | h | h) <;> simp [pairs3, h]
  have hne : ∀ x y : Obj (F64 B), pyEq false x y = .ok false → pyNe false x y = .ok true := by
    intro x y h
    simp [pyNe, h, bind, Except.bind, pure, Except.pure]
  have both : ∀ x y : Obj (F64 B), pyEq false x y = .ok false → pyEq false x y = .ok false ∧ pyNe false x y = .ok true :=
    fun x y h => ⟨h, hne x y h⟩
  refine ⟨fun h => both _ _ ?_, fun h => both _ _ ?_, fun h => both _ _ ?_, fun h => both _ _ ?_⟩
  · cases y <;> try rfl
    next q =>
    have : p.isEqualTo q = false := by
      unfold GeoPoint.isEqualTo
      rcases h with h | h | h
      · rw [h, angleDiff_nan_left, eqClose_nan (l := [(nan, lit 0)]) (by simp)]; simp
      · rw [h, angleDiff_nan_left, eqClose_nan (l := [(nan, lit 0)]) (by simp)]; simp
      · rw [h, eqClose_nan (l := [(nan, q.z)]) (by simp)]; simp
    simp [pyEq, Obj.isEqualTo, this, attrFalse]
  · cases y <;> try rfl
    next q =>
    have : n.isEqualTo q = false := by
      unfold Nvector.isEqualTo
      rcases h with h | h
      · rw [h3 _ _ (.inl h)]; simp
      · rw [h, eqClose_nan (l := [(nan, q.z)]) (by simp)]; simp
    simp [pyEq, Obj.isEqualTo, this, attrFalse]
  · cases y <;> try rfl
    next q => simp [pyEq, Obj.isEqualTo, h3 _ _ (.inl h), attrFalse]
  · cases y <;> try rfl
    next q => simp [pyEq, Obj.isEqualTo, h3 _ _ (.inl h), attrFalse]

/-- the hypotheses are met: a position without longitude, which is still a position that can be converted; and one of its coordinates is
not missing -/
example : ∃ p : GeoPoint (F64 B), p.latitude = lit 0 ∧ HorizontalMissing (.geo p) ∧ AllNaN p.to_nvector.normal ∧ p.to_nvector.z = lit 7 :=
  ⟨⟨lit 0, nan, lit 7, ⟨a_WGS84, f_WGS84, .str "WGS84", R_e⟩⟩, rfl, .inr rfl, lat_lon2n_E_nan _ (.inr rfl), rfl⟩

/-- paths with a missing end point exist on which the functions return: `interpolate` gives NaN, `on_path` False -/
example (lon : F64 B) : ∃ P : GeoPath (F64 B), HorizontalMissing P.point_a ∧
    AllNaN (great_circle_normal P.nvector_normals.1 P.nvector_normals.2) :=
  ⟨⟨.geo ⟨nan, lon, lit 0, ⟨a_WGS84, f_WGS84, .str "WGS84", R_e⟩⟩, .nvec ⟨⟨lit 1, lit 0, lit 0⟩, lit 0, ⟨a_WGS84, f_WGS84, .str "WGS84", R_e⟩⟩⟩,
    .inl rfl, normal_nan (.inl (lat_lon2n_E_nan _ (.inl rfl)).some)⟩

end
end Nv
