import Verif.Props.FloatSymmetry
import Verif.Props.FloatClosestPath

/-!
# C119, the closest point of a path between geographic points
-/

namespace Nv
open Spec F64

variable {B : Binary64} {a f : ℝ} {R : M3 ℝ}

/-- **C119** geographic points: the closest point of a path is the same, to the last bit, for the path and the reversed path, unless the
position is equally far from both ends within `2.1e-14` rad -/
theorem C119_closest_between_points (hS : SignSymmetric B) (hR : IsAxes R) (nmA nmB nmC : EllKey) (latA lonA latB lonB latC lonC zC : ℝ)
    (fa : IsF64 a) (a1 : 1 ≤ a) (a2 : a ≤ 1e10) (ff : IsF64 f) (f0 : 0 ≤ f) (f1 : f ≤ 0.01)
    {zA zB : ℝ} (fA : IsF64 zA) (fB : IsF64 zB) (hA : |zA| ≤ 1e15) (hB : |zB| ≤ 1e15) (dA : zA ≤ 0.4 * a) (dB : zB ≤ 0.4 * a)
    (h : 2.1e-14 ≤ |angle (normalOf R latA lonA) (normalOf R latC lonC) - angle (normalOf R latB lonB) (normalOf R latC lonC)|) :
    GeoPath.closest_point_on_path (reversed (Path64 B a f R nmA nmB latA lonA zA latB lonB zB)) (.geo (Geo64 B a f R nmC latC lonC zC)) =
      (Path64 B a f R nmA nmB latA lonA zA latB lonB zB).closest_point_on_path (.geo (Geo64 B a f R nmC latC lonC zC)) := by
  apply C119_closest_point_on_path hS
  have ha : 0 < a := by linarith
  have hf : f < 1 := by norm_num at f1; linarith
  obtain ⟨⟨r, er, fr, -, b2, b3, -⟩, -⟩ := radius_flt B hR fa a1 a2 ff f0 f1 nmA nmB latA lonA latB lonB fA fB hA hB dA dB
    (geodetic_posE ha hf hR.rot (normalOf_unit hR latA lonA).ne) (geodetic_posE ha hf hR.rot (normalOf_unit hR latB lonB).ne)
  have rp : 0 < r := lt_of_lt_of_le (by norm_num) b2
  have gA := gc_points_flt B hR latA lonA latC lonC fr b2 b3
  have gB := gc_points_flt B hR latB lonB latC lonC fr b2 b3
  have er' : (Path64 B a f R nmA nmB latA lonA zA latB lonB zB).average_radius = F64.fin r := er
  intro d
  have eA : d (Path64 B a f R nmA nmB latA lonA zA latB lonB zB).point_a =
      great_circle_distance (lat_lon2n_E (F64.fin latA : F64 B) (F64.fin lonA) R.flt) (lat_lon2n_E (F64.fin latC) (F64.fin lonC) R.flt) (F64.fin r) := by
    simp only [d, er']; rfl
  have eB : d (Path64 B a f R nmA nmB latA lonA zA latB lonB zB).point_b =
      great_circle_distance (lat_lon2n_E (F64.fin latB : F64 B) (F64.fin lonB) R.flt) (lat_lon2n_E (F64.fin latC) (F64.fin lonC) R.flt) (F64.fin r) := by
    simp only [d, er']; rfl
  rw [eA, eB]
  rcases le_abs.mp h with h | h
  · right; exact (gc_lt B rp gB gA).1 (by linarith)
  · left; exact (gc_lt B rp gA gB).1 (by linarith)

/-- the hypotheses hold e.g. for a position at the first end of a path along the equator -/
example (hS : SignSymmetric B) :
    GeoPath.closest_point_on_path (reversed (Path64 B 6371000 0 Re (.int 1) (.int 1) 0 0 0 0 1 0)) (.geo (Geo64 B 6371000 0 Re (.int 1) 0 0 0)) =
      (Path64 B 6371000 0 Re (.int 1) (.int 1) 0 0 0 0 1 0).closest_point_on_path (.geo (Geo64 B 6371000 0 Re (.int 1) 0 0 0)) := by
  apply C119_closest_between_points hS (Or.inl rfl) _ _ _ _ _ _ _ _ _ _
    (by simpa using isF64_int (n := 6371000) (by norm_num)) (by norm_num) (by norm_num) isF64_zero le_rfl (by norm_num)
    isF64_zero isF64_zero (by norm_num) (by norm_num) (by norm_num) (by norm_num)
  have h1 := (normalOf_unit (R := Re) (Or.inl rfl) 0 1)
  have h2 := (normalOf_unit (R := Re) (Or.inl rfl) 0 0)
  have e : angle (normalOf Re 0 1) (normalOf Re 0 0) = 1 := by
    unfold angle
    rw [h1.len, h2.len, normalOf_Re, normalOf_Re]
    simp [dot]
    exact Real.arccos_cos (by norm_num) (by linarith [Real.pi_gt_three])
  rw [angle_self h2.ne, e]
  norm_num

end Nv
