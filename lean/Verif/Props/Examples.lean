import Verif.Lemmas.Examples
import Verif.Props.FloatFrames
import Verif.Props.ScalarObjects
import Verif.Props.Defaults
import Verif.Props.FloatLatLon
import Verif.Props.Missing

/-!
# C154: the object-oriented and the functional solutions of the documented examples agree

`Verif.Model.Examples` has the programs.  Where the two solutions run the same operations the results are identical, bit by bit, whatever the numbers are
(NaN and infinities included); this part is proved for every kind of numbers, for exact numbers and for binary64.
-/

namespace Nv
open Spec
open ND (Arr)

/-! ## Identical whatever the arithmetic -/

section
variable {α : Type} [PyFloat α]

/-- **C154** examples 3 and 4 -/
theorem C154_position_and_ecef (p : V3 α) (lat lon h : α) :
    Examples.ex3_obj p = .ok (Examples.ex3_fun p) ∧ Examples.ex4_obj lat lon h = .ok (Examples.ex4_fun lat lon h) :=
  ⟨Examples.ex3_same p, Examples.ex4_same lat lon h⟩

/-- **C154** the vectorized solutions of example 6, for tracks of any length and any times -/
theorem C154_interpolated_vectorized (S : Scipy α (V3 α × α)) (S' : Scipy α (V3 α)) (lats lons t ti : List α) :
    Examples.ex6_obj_vec S lats lons t ti = Examples.ex6_fun_vec S' lats lons t ti := Examples.ex6_vec_same S S' lats lons t ti

/-- **C154** example 7 for any number of positions: the object-oriented solution gives two numbers (not arrays), those of the second functional way -/
theorem C154_mean {n : ℕ} (hn : 0 < n) {lat lon : Arr α} {p q : ℕ → α} (h1 : ND.IsVec lat n p) (h2 : ND.IsVec lon n q) :
    ∃ A B : Arr α, Examples.ex7_obj lat lon = .ok (A, B) ∧ A.shape = [] ∧ B.shape = [] ∧
      (A.get [], B.get []) = Examples.ex7_fun' ((List.range n).map fun j => lat_lon2n_E (deg2rad (p j)) (deg2rad (q j))) := by
  have h3 : ND.IsVal (α := α) true ⟨[], fun _ => PyFloat.lit 0⟩ 1 (fun _ => PyFloat.lit 0) := ⟨rfl, rfl, rfl⟩
  obtain ⟨P, eP, hP⟩ := ND.C60_GeoPoint (s1 := false) (s2 := false) h1 h2 h3 (.self n) ⟨.inl rfl, .inr rfl, .inl rfl⟩
    (Examples.frameOf (a_WGS84 : α) f_WGS84) true
  obtain ⟨Q, eQ, hQ⟩ := ND.C60_geo_to_nvector hP
  have hz : Q.z.shape = [n] := by
    have : Q.z = P.z := by
      unfold ND.GeoPoint.to_nvector at eQ
      cases h : ND.lat_lon2n_E P.latitude P.longitude P.frame.R_Ee with
      | error e => rw [h] at eQ; simp [bind, Except.bind] at eQ
      | ok X =>
        rw [h] at eQ
        simp only [bind, Except.bind, pure, Except.pure, Except.ok.injEq] at eQ
        rw [← eQ]
    rw [this]
    exact (show ND.IsVec P.z n _ from hP.z).shape
  obtain ⟨M, eM, hM⟩ := ND.C60_mean hQ hz
  obtain ⟨g, eg, hg⟩ := ND.C60_nvec_to_geo hM Nat.one_pos
  have hF : Q.frame = Examples.frameOf (a_WGS84 : α) f_WGS84 := (hQ.frame 0 hn).symm
  have hlat : g.latitude.shape = [] ∧ 1 = 1 ∧ g.latitude.get [] = _ := hg.lat
  have hlon : g.longitude.shape = [] ∧ 1 = 1 ∧ g.longitude.get [] = _ := hg.lon
  refine ⟨g.latitude.map rad2deg, g.longitude.map rad2deg, ?_, hlat.1, hlon.1, ?_⟩
  · unfold Examples.ex7_obj
    rw [Examples.new_wgs84]
    simp only [bind, Except.bind, pure, Except.pure, eP, eQ, eM, eg]
  · show (rad2deg (g.latitude.get []), rad2deg (g.longitude.get [])) = _
    rw [hlat.2.2, hlon.2.2]
    have hl : (List.range n).map (fun j => (Nv.GeoPoint.new (p (ND.bi n j)) (q (ND.bi n j)) (PyFloat.lit 0)
        (Examples.frameOf (a_WGS84 : α) f_WGS84) true).to_nvector.normal) =
        (List.range n).map fun j => lat_lon2n_E (deg2rad (p j)) (deg2rad (q j)) := by
      refine List.map_congr_left fun j hj => ?_
      rw [ND.bi_self (List.mem_range.mp hj)]
      rfl
    rw [hF]
    unfold Examples.ex7_fun'
    rw [← hl]
    rfl

/-- **C154** example 9: `GeoPath.intersect` and `nv.intersect` -/
theorem C154_intersection (latA1 lonA1 latA2 lonA2 latB1 lonB1 latB2 lonB2 : α) :
    Examples.ex9_obj latA1 lonA1 latA2 lonA2 latB1 lonB1 latB2 lonB2 = .ok (Examples.ex9_fun' latA1 lonA1 latA2 lonA2 latB1 lonB1 latB2 lonB2) :=
  Examples.ex9_same ..

/-- **C154** example 10: the functional solution and its alternative 3 -/
theorem C154_cross_track_by_hand (r latA1 lonA1 latA2 lonA2 latB lonB : α) :
    Examples.ex10_fun r latA1 lonA1 latA2 lonA2 latB lonB = .ok (Examples.ex10_alt3 r latA1 lonA1 latA2 lonA2 latB lonB) := Examples.ex10_same ..

end

/-! ## Identical for exact numbers and for binary64 -/

theorem Examples.check_exact (a f : ℝ) : check_frames (Examples.frameOf (XR.fin a) (XR.fin f)) (Examples.frameOf (XR.fin a) (XR.fin f)) = .ok () := by
  have h := check_frames_real a f (.str "WGS84") Re
  unfold FrameE.real at h
  rw [← R_e_fin] at h
  exact h

theorem Examples.check_wgs84 : check_frames (Examples.frameOf (a_WGS84 : XR) f_WGS84) (Examples.frameOf a_WGS84 f_WGS84) = .ok () := by
  rw [a_default, f_default]
  exact Examples.check_exact _ _

section
variable {B : Binary64}

theorem Examples.check_float {a f : ℝ} (fa : IsF64 a) (a2 : |a| ≤ 10 ^ 50) (ff : IsF64 f) (f1 : |f| ≤ 10 ^ 50) :
    check_frames (Examples.frameOf (F64.fin a : F64 B) (F64.fin f)) (Examples.frameOf (F64.fin a) (F64.fin f)) = .ok () := by
  have h := frame_self (B := B) (nm := .str "WGS84") (nm' := .str "WGS84") (.inl rfl : IsAxes Re) fa a2 ff f1
  rw [← R_e_flt] at h
  unfold check_frames
  rw [if_pos]
  exact h

end

/-- **C154** example 1, exact numbers -/
theorem C154_delta_exact (latA lonA zA latB lonB zB : XR) :
    Examples.ex1_obj latA lonA zA latB lonB zB = .ok (Examples.ex1_fun latA lonA zA latB lonB zB) := Examples.ex1_same Examples.check_wgs84 ..

/-- **C154** example 2, exact numbers: any ellipsoid -/
theorem C154_body_exact (a f : ℝ) (v : V3 XR) (z yaw pitch roll : XR) (p : V3 XR) :
    Examples.ex2_obj (XR.fin a) (XR.fin f) v z yaw pitch roll p = .ok (Examples.ex2_fun (XR.fin a) (XR.fin f) v z yaw pitch roll p) :=
  Examples.ex2_same (Examples.check_exact a f) ..

theorem XR.mul_comm_ex (x y : XR) : x * y = y * x := by
  change XR.mul x y = XR.mul y x
  cases x <;> cases y <;> simp [XR.mul, _root_.mul_comm]

theorem F64.mul_comm_ex {B : Binary64} (x y : F64 B) : x * y = y * x := by
  change F64.round B (XR.mul x y) = F64.round B (XR.mul y x)
  congr 1
  exact XR.mul_comm_ex x y

section
variable {B : Binary64}

theorem F64.a_WGS84_fin : (a_WGS84 : F64 B) = F64.fin 6378137 := by
  unfold a_WGS84
  have := F64.lit_int (B := B) (n := 6378137) (by norm_num)
  push_cast at this
  exact this

theorem F64.f_WGS84_fin : ∃ f : ℝ, (f_WGS84 : F64 B) = F64.fin f ∧ IsF64 f ∧ |f| ≤ 1 := by
  unfold f_WGS84
  have e : (PyFloat.lit 298.257223563 : F64 B) = F64.fin (B.fl ((298.257223563 : ℚ) : ℝ)) := F64.fin_lit (by norm_num [abs_of_pos])
  have h1 : (2 : ℝ) ≤ B.fl ((298.257223563 : ℚ) : ℝ) := B.rounds.ge isF64_two (by norm_num)
  have hb : |(1 : ℝ) / B.fl ((298.257223563 : ℚ) : ℝ)| ≤ 1 := by
    rw [abs_of_nonneg (by positivity), div_le_one (by linarith)]
    linarith
  refine ⟨B.fl (1 / B.fl ((298.257223563 : ℚ) : ℝ)), ?_, B.rounds.val _, ?_⟩
  · rw [e, F64.lit_one, F64.fin_div (by linarith : B.fl ((298.257223563 : ℚ) : ℝ) ≠ 0) (hb.trans (by norm_num))]
  · rw [abs_of_nonneg (B.rounds.nonneg (by positivity))]
    exact B.rounds.le isF64_one ((le_abs_self _).trans hb)

theorem Examples.check_wgs84_float : check_frames (Examples.frameOf (a_WGS84 : F64 B) f_WGS84) (Examples.frameOf a_WGS84 f_WGS84) = .ok () := by
  obtain ⟨f, hf, ff, f1⟩ := F64.f_WGS84_fin (B := B)
  rw [F64.a_WGS84_fin, hf]
  refine Examples.check_float ?_ (by norm_num) ff (f1.trans (by norm_num))
  have := isF64_int (n := 6378137) (by norm_num)
  push_cast at this
  exact this

/-- **C154** example 1, binary64 -/
theorem C154_delta_float (latA lonA zA latB lonB zB : F64 B) :
    Examples.ex1_obj latA lonA zA latB lonB zB = .ok (Examples.ex1_fun latA lonA zA latB lonB zB) := Examples.ex1_same Examples.check_wgs84_float ..

/-- **C154** example 2, binary64: any ellipsoid of at most `1e50` metres -/
theorem C154_body_float {a f : ℝ} (fa : IsF64 a) (a2 : |a| ≤ 1e50) (ff : IsF64 f) (f1 : |f| ≤ 1e50) (v : V3 (F64 B)) (z yaw pitch roll : F64 B)
    (p : V3 (F64 B)) : Examples.ex2_obj (F64.fin a) (F64.fin f) v z yaw pitch roll p = .ok (Examples.ex2_fun (F64.fin a) (F64.fin f) v z yaw pitch roll p) :=
  Examples.ex2_same (Examples.check_float fa (by norm_num at a2 ⊢; exact a2) ff (by norm_num at f1 ⊢; exact f1)) ..

end

/-! ## Identical, or NaN where the functional solution makes a position up -/

section
variable {α : Type} [PyFloat α] [NanLaws α]

theorem Examples.rad2deg_nan : rad2deg (PyFloat.nan : α) = PyFloat.nan := by
  simp [rad2deg]

theorem Examples.latlon_nan {v : V3 α} (h : PyFloat.eq (norm3 v) (PyFloat.lit 0) = true) :
    n_E2lat_lon (unit v PyFloat.nan) = (PyFloat.nan, PyFloat.nan) := by
  rw [Examples.unit_zero h]
  exact n_E2lat_lon_nan _ (.inl (NanLaws.mul_nan _))

theorem Examples.ex6_cases (h : check_frames (Examples.frameOf (a_WGS84 : α) f_WGS84) (Examples.frameOf a_WGS84 f_WGS84) = .ok ())
    (hc : ∀ x y : α, x * y = y * x) (lat0 lon0 lat1 lon1 t0 t1 ti : α) :
    Examples.ex6_obj lat0 lon0 lat1 lon1 t0 t1 ti = .ok
      (if PyFloat.eq (norm3 (Examples.ex6_sum lat0 lon0 lat1 lon1 t0 t1 ti)) (PyFloat.lit 0) then (PyFloat.nan, PyFloat.nan)
        else Examples.ex6_fun lat0 lon0 lat1 lon1 t0 t1 ti) := by
  rw [Examples.ex6_obj_eq h, Examples.ex6_fun_eq hc]
  cases hz : PyFloat.eq (norm3 (Examples.ex6_sum lat0 lon0 lat1 lon1 t0 t1 ti)) (PyFloat.lit 0) with
  | true => rw [Examples.latlon_nan hz, Examples.rad2deg_nan]; rfl
  | false => rw [Examples.unit_nonzero hz _ (PyFloat.lit 1)]; rfl

/-- **C154** example 9, the functional solution without `nv.intersect`: the same result bit by bit, or the other two are NaN -/
theorem C154_intersection_by_hand (latA1 lonA1 latA2 lonA2 latB1 lonB1 latB2 lonB2 : α) :
    Examples.ex9_obj latA1 lonA1 latA2 lonA2 latB1 lonB1 latB2 lonB2 = .ok (Examples.ex9_fun latA1 lonA1 latA2 lonA2 latB1 lonB1 latB2 lonB2) ∨
    Examples.ex9_obj latA1 lonA1 latA2 lonA2 latB1 lonB1 latB2 lonB2 = .ok (PyFloat.nan, PyFloat.nan) := by
  rw [Examples.ex9_same]
  unfold Examples.ex9_fun Examples.ex9_fun' intersect
  dsimp only
  obtain ⟨c, hcc⟩ : ∃ c, c = cross3 (cross3 (lat_lon2n_E (deg2rad latA1) (deg2rad lonA1)) (lat_lon2n_E (deg2rad latA2) (deg2rad lonA2)))
      (cross3 (lat_lon2n_E (deg2rad latB1) (deg2rad lonB1)) (lat_lon2n_E (deg2rad latB2) (deg2rad lonB2))) := ⟨_, rfl⟩
  rw [← hcc]
  cases hz : PyFloat.eq (norm3 c) (PyFloat.lit 0) with
  | true =>
    right
    have hn : SomeNaN (scale3 (unit c PyFloat.nan) (PyFloat.sign (dot3 (unit c PyFloat.nan) (lat_lon2n_E (deg2rad latA1) (deg2rad lonA1))))) := by
      rw [Examples.unit_zero hz]
      left
      simp [scale3]
    rw [n_E2lat_lon_nan _ hn, Examples.rad2deg_nan]
  | false => left; rw [Examples.unit_nonzero hz _ (PyFloat.lit 1)]

end

/-- **C154** example 6, exact numbers: the same result bit by bit, or NaN -/
theorem C154_interpolated_exact (lat0 lon0 lat1 lon1 t0 t1 ti : XR) :
    Examples.ex6_obj lat0 lon0 lat1 lon1 t0 t1 ti = .ok (Examples.ex6_fun lat0 lon0 lat1 lon1 t0 t1 ti) ∨
    Examples.ex6_obj lat0 lon0 lat1 lon1 t0 t1 ti = .ok (XR.nan, XR.nan) := by
  rw [Examples.ex6_cases Examples.check_wgs84 XR.mul_comm_ex]
  split
  · exact .inr rfl
  · exact .inl rfl

/-- **C154** example 6, binary64 -/
theorem C154_interpolated_float {B : Binary64} (lat0 lon0 lat1 lon1 t0 t1 ti : F64 B) :
    Examples.ex6_obj lat0 lon0 lat1 lon1 t0 t1 ti = .ok (Examples.ex6_fun lat0 lon0 lat1 lon1 t0 t1 ti) ∨
    Examples.ex6_obj lat0 lon0 lat1 lon1 t0 t1 ti = .ok (PyFloat.nan, PyFloat.nan) := by
  rw [Examples.ex6_cases Examples.check_wgs84_float F64.mul_comm_ex]
  split
  · exact .inr rfl
  · exact .inl rfl

/-! ## Example 7: adding one after the other -/

theorem XR.zero_add_ex (x : XR) : (PyFloat.lit 0 : XR) + x = x := by
  rw [lit_zero]
  change XR.add (XR.fin 0) x = x
  cases x <;> simp [XR.add]

/-- **C154** example 7, exact numbers: both functional ways -/
theorem C154_sum_exact (first : V3 XR) (rest : List (V3 XR)) : Examples.ex7_fun first rest = Examples.ex7_fun' (first :: rest) := by
  unfold Examples.ex7_fun Examples.ex7_fun' mean_horizontal_position
  rw [List.foldl_cons]
  simp only [add3, XR.zero_add_ex]

theorem F64.zero_add_sum {B : Binary64} (x y : F64 B) : (PyFloat.lit 0 : F64 B) + (x + y) = x + y := by
  rw [F64.lit_zero]
  change F64.round B (XR.add (XR.fin 0) (F64.round B (XR.add x y))) = F64.round B (XR.add x y)
  generalize XR.add x y = X
  cases X with
  | fin x =>
    change F64.round B (XR.add (XR.fin 0) (F64.rnd B x)) = F64.rnd B x
    by_cases h : |B.fl x| < (2 : ℝ) ^ (1024 : ℤ)
    · have e : F64.rnd B x = XR.fin (B.fl x) := if_pos h
      rw [e]
      change F64.rnd B (0 + B.fl x) = _
      have e2 : B.fl (0 + B.fl x) = B.fl x := by rw [zero_add]; exact B.rounds.exact (B.rounds.val x)
      unfold F64.rnd
      rw [e2]
      exact if_pos h
    · have e : F64.rnd B x = XR.signInf x := if_neg h
      rw [e]
      unfold XR.signInf
      split_ifs <;> rfl
  | _ => rfl

/-- **C154** example 7, binary64: both functional ways, for the n-vector of any latitude and longitude -/
theorem C154_sum_float {B : Binary64} (lat lon : F64 B) (rest : List (V3 (F64 B))) :
    Examples.ex7_fun (lat_lon2n_E lat lon) rest = Examples.ex7_fun' (lat_lon2n_E lat lon :: rest) := by
  unfold Examples.ex7_fun Examples.ex7_fun' mean_horizontal_position
  rw [List.foldl_cons]
  simp only [add3, lat_lon2n_E, mulVec, dot3, F64.zero_add_sum]

end Nv
