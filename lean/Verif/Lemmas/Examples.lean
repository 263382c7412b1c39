import Verif.Model.Examples

/-!
# The two solutions of the worked examples run the same operations

Lemmas for C154 that hold for every kind of numbers.
-/

namespace Nv.Examples
variable {α : Type} [PyFloat α]
open PyFloat

/-- the frame `FrameE(a, f)` -/
def frameOf (a f : α) : FrameE α := ⟨a, f, .str "WGS84", R_e⟩

theorem new_axes (a f : α) : FrameE.new (some a) (some f) = .ok (frameOf a f) := rfl

theorem wgs84_lookup : (get_ellipsoid (.str "WGS84") : Except PyErr (Ellipsoid α)) =
    .ok ⟨lit 6378137.0, lit 1 / lit 298.257223563, "GRS80 / WGS84  (NAD83)"⟩ := by
  have h1 : normName "WGS84" = "wgs84" := by decide
  have h2 : ELLIPSOID_IX.lookup "wgs84" = some 18 := by decide
  unfold get_ellipsoid
  simp only [h1, h2]
  rfl

theorem lit_a : (lit 6378137.0 : α) = a_WGS84 := by
  unfold a_WGS84; norm_num

theorem new_wgs84 : (FrameE.new : Except PyErr (FrameE α)) = .ok (frameOf a_WGS84 f_WGS84) := by
  unfold FrameE.new
  simp only [wgs84_lookup, lit_a, bind, Except.bind, pure, Except.pure]
  rfl

theorem ex1_same (h : check_frames (frameOf (a_WGS84 : α) f_WGS84) (frameOf a_WGS84 f_WGS84) = .ok ()) (latA lonA zA latB lonB zB : α) :
    ex1_obj latA lonA zA latB lonB zB = .ok (ex1_fun latA lonA zA latB lonB zB) := by
  unfold ex1_obj
  rw [new_wgs84]
  simp only [bind, Except.bind, pure, Except.pure, FrameE.GeoPoint, GeoPoint.create, default_frame, GeoPoint.new, delta_N, delta_E, ECEFvector.sub,
    ECEFvector.change_frame, Position.to_ecef_vector, GeoPoint.to_ecef_vector, Nvector.to_ecef_vector, GeoPoint.to_nvector, h, FrameN, LocalFrame.nvector,
    Position.to_nvector, if_true]
  rfl

theorem ex2_same {a f : α} (h : check_frames (frameOf a f) (frameOf a f) = .ok ()) (v : V3 α) (z yaw pitch roll : α) (p : V3 α) :
    ex2_obj a f v z yaw pitch roll p = .ok (ex2_fun a f v z yaw pitch roll p) := by
  unfold ex2_obj
  rw [new_axes]
  simp only [bind, Except.bind, pure, Except.pure, FrameE.Nvector, Nvector.create, default_frame, ECEFvector.add, Nvector.to_ecef_vector,
    Pvector.to_ecef_vector, LocalFrame.Pvector, FrameB, LocalFrame.nvector, Position.to_nvector, if_true, h]
  rfl

theorem ex3_same (p : V3 α) : ex3_obj p = .ok (ex3_fun p) := by
  unfold ex3_obj ex3_fun
  rw [new_wgs84, lit_a]
  rfl

theorem ex4_same (lat lon ht : α) : ex4_obj lat lon ht = .ok (ex4_fun lat lon ht) := by
  unfold ex4_obj ex4_fun
  rw [new_wgs84, lit_a]
  rfl

/-- the sum that example 6 normalises -/
def ex6_sum (lat0 lon0 lat1 lon1 t0 t1 ti : α) : V3 α :=
  add3 (lat_lon2n_E (deg2rad lat0) (deg2rad lon0))
    (scale3 (sub3 (lat_lon2n_E (deg2rad lat1) (deg2rad lon1)) (lat_lon2n_E (deg2rad lat0) (deg2rad lon0))) ((ti - t0) / (t1 - t0)))

theorem ex6_obj_eq (h : check_frames (frameOf (a_WGS84 : α) f_WGS84) (frameOf a_WGS84 f_WGS84) = .ok ()) (lat0 lon0 lat1 lon1 t0 t1 ti : α) :
    ex6_obj lat0 lon0 lat1 lon1 t0 t1 ti = .ok (rad2deg (n_E2lat_lon (unit (ex6_sum lat0 lon0 lat1 lon1 t0 t1 ti) nan)).1,
      rad2deg (n_E2lat_lon (unit (ex6_sum lat0 lon0 lat1 lon1 t0 t1 ti) nan)).2) := by
  unfold ex6_obj
  rw [new_wgs84]
  simp only [bind, Except.bind, pure, Except.pure, FrameE.GeoPoint, GeoPoint.create, default_frame, GeoPoint.new, GeoPath.interpolate, Nvector.sub,
    GeoPath.nvectors, Position.to_nvector, GeoPoint.to_nvector, h, Nvector.mul, Nvector.add, if_true]
  rfl

theorem ex6_fun_eq (hc : ∀ x y : α, x * y = y * x) (lat0 lon0 lat1 lon1 t0 t1 ti : α) :
    ex6_fun lat0 lon0 lat1 lon1 t0 t1 ti = (rad2deg (n_E2lat_lon (unit (ex6_sum lat0 lon0 lat1 lon1 t0 t1 ti))).1,
      rad2deg (n_E2lat_lon (unit (ex6_sum lat0 lon0 lat1 lon1 t0 t1 ti))).2) := by
  unfold ex6_fun ex6_sum scale3
  simp only [hc _ ((ti - t0) / (t1 - t0))]

/-- `unit` looks at its second argument only for vectors of norm 0 -/
theorem unit_nonzero {v : V3 α} (h : eq (norm3 v) (lit 0) = false) (c d : α) : unit v c = unit v d := by
  unfold unit; dsimp only; rw [h]; rfl

theorem unit_zero {v : V3 α} (h : eq (norm3 v) (lit 0) = true) (c : α) : unit v c = ⟨lit 1 * c, lit 0 * c, lit 0 * c⟩ := by
  unfold unit; dsimp only; rw [h]; rfl

theorem mapM_ok {β γ : Type} (l : List β) (g : β → γ) : (l.mapM fun b => (Except.ok (g b) : Except PyErr γ)) = .ok (l.map g) := by
  induction l with
  | nil => rfl
  | cons b l ih => rw [List.mapM_cons, ih]; rfl

theorem ex6_vec_same (S : Scipy α (V3 α × α)) (S' : Scipy α (V3 α)) (lats lons t ti : List α) :
    ex6_obj_vec S lats lons t ti = ex6_fun_vec S' lats lons t ti := by
  unfold ex6_obj_vec ex6_fun_vec
  rw [new_wgs84]
  simp only [bind, Except.bind, pure, Except.pure, FrameE.GeoPoint, GeoPoint.create, default_frame]
  rw [mapM_ok]
  simp only [List.map_map]
  have hn : (Nvector.normal ∘ GeoPoint.to_nvector) ∘ (fun p : α × α => GeoPoint.new p.1 p.2 (lit 0) (frameOf a_WGS84 f_WGS84) true) =
      fun p => lat_lon2n_E (deg2rad p.1) (deg2rad p.2) := rfl
  have hz : (Nvector.z ∘ GeoPoint.to_nvector) ∘ (fun p : α × α => GeoPoint.new p.1 p.2 (lit 0) (frameOf a_WGS84 f_WGS84) true) = fun _ => lit 0 := rfl
  simp only [Function.comp_assoc] at hn hz ⊢
  rw [hn, hz]
  obtain ⟨l, hl⟩ : ∃ l : List (V3 α), l = (lats.zip lons).map fun p => lat_lon2n_E (deg2rad p.1) (deg2rad p.2) := ⟨_, rfl⟩
  have hl2 : ((lats.zip lons).map fun _ => (lit 0 : α)) = l.map fun _ => lit 0 := by rw [hl, List.map_map]; rfl
  rw [hl2, ← hl]
  unfold Nvector_interpolate interp_nvectors
  have hv : vstackDepth l (.vector (l.map fun _ => lit 0)) = .ok (l.map fun n => (n, (lit 0 : α))) := by
    unfold vstackDepth
    dsimp only
    rw [if_pos (by simp)]
    congr 1
    rw [show l.zip (l.map fun _ => (lit 0 : α)) = (l.map id).zip (l.map fun _ => (lit 0 : α)) by rw [List.map_id], List.zip_map']
    rfl
  rw [hv]
  simp only [bind, Except.bind, pure, Except.pure, interp_vectors, lt_irrefl, if_false, if_true, interp1dLinear, List.length_map]
  by_cases hlen : t.length = l.length
  · simp only [hlen, if_true]
    have hs : (t.zip (l.map fun n => (n, (lit 0 : α)))).mergeSort (fun a b => le a.1 b.1) =
        ((t.zip l).mergeSort (fun a b => le a.1 b.1)).map fun p => (p.1, (p.2, (lit 0 : α))) := by
      have hm := List.map_mergeSort (r := fun a b : α × V3 α => le a.1 b.1) (s := fun a b : α × V3 α × α => le a.1 b.1)
        (f := fun p => (p.1, (p.2, (lit 0 : α)))) (l := t.zip l) (fun _ _ _ _ => rfl)
      rw [hm]
      congr 1
      conv_lhs => rw [show t = t.map id by rw [List.map_id]]
      rw [List.zip_map]
      rfl
    rw [hs]
    congr 1
    rw [List.map_map, List.map_map, List.zip_map', List.map_map, List.map_map, List.map_map]
    refine List.map_congr_left fun x _ => ?_
    simp only [Function.comp_apply, Rows.build, List.map_map, Nvector.to_geo_point, GeoPoint.latitude_deg, GeoPoint.longitude_deg]
    rfl
  · simp only [hlen, if_false]

/-- the second functional way of example 9 runs the operations of the object-oriented one -/
theorem ex9_same (latA1 lonA1 latA2 lonA2 latB1 lonB1 latB2 lonB2 : α) :
    ex9_obj latA1 lonA1 latA2 lonA2 latB1 lonB1 latB2 lonB2 = .ok (ex9_fun' latA1 lonA1 latA2 lonA2 latB1 lonB1 latB2 lonB2) := by
  unfold ex9_obj GeoPoint.create default_frame
  simp only [new_wgs84]
  rfl

theorem ex10_same (r latA1 lonA1 latA2 lonA2 latB lonB : α) :
    ex10_fun r latA1 lonA1 latA2 lonA2 latB lonB = .ok (ex10_alt3 r latA1 lonA1 latA2 lonA2 latB lonB) := rfl

end Nv.Examples
