import Verif.Props.Leave
import Verif.Props.SphereMethods
import Verif.Props.GeoPath

/-!
# C156 Leaving a path, with the classes
-/

namespace Nv
open Spec Real
open XR (fin)

/-- **C156** on a sphere: `C = path.interpolate(t).to_geo_point()`, `s, h, _ = C.distance_and_azimuth(B, method='greatcircle')`,
`Q, _ = C.displace(d, h + β, method='greatcircle')`, then `path.cross_track_distance(Q)` and `path.closest_point_on_great_circle(Q)` -/
theorem C156_objects (G : Geodesic XR) (a z : ℝ) (ha : 0 < a) (hz : z < a) (name : EllKey) (latA lonA latB lonB : ℝ)
    (hlB : |latB| < π / 2) (hp : ProperPath (geoNormal latA lonA) (geoNormal latB lonB)) (t : ℝ) (ht0 : 0 ≤ t) (ht1 : t < 1)
    (method : String) (c : Char) (cs : List Char) (hm : method.toList = c :: cs) (hc : c ≠ 'e') :
    let F := FrameE.real a 0 name Re
    let B := GeoPoint.real latB lonB z F
    let path := GeoPath.mk (.geo (.real latA lonA z F)) (.geo B)
    ∃ (N : Nvector XR) (latC lonC : ℝ), path.interpolate (fin t) = .ok N ∧ N.to_geo_point = .real latC lonC z F ∧
      (|latC| < π / 2 → ∃ s h h' : ℝ,
        (GeoPoint.real latC lonC z F).distance_and_azimuth G (.geo B) (method := method) = .ok (fin s, fin h, fin h') ∧
        ∀ d β : ℝ, ∃ latQ lonQ azQ : ℝ,
          (GeoPoint.real latC lonC z F).displace G (fin d) (fin (h + β)) (method := method) = .ok (.real latQ lonQ z F, fin azQ) ∧
          path.cross_track_distance (.geo (.real latQ lonQ z F)) = .ok (fin (arcsin (sin (d / (a - z)) * sin β) * (a - z))) ∧
          (|d| < π / 2 * (a - z) → cos β = 0 →
            (path.closest_point_on_great_circle (.geo (.real latQ lonQ z F))).to_nvector = (GeoPoint.real latC lonC z F).to_nvector)) := by
  intro F B path
  have hR := isRotation_Re
  have hrad : 0 < a - z := by linarith
  have hAat := sphere_atR hR name a latA lonA z
  have hBat := sphere_atR hR name a latB lonB z
  have hA := hAat.unit
  have hB := hBat.unit
  have hpp : ProperPath (app (transp Re) (geoNormal latA lonA)) (app (transp Re) (geoNormal latB lonB)) := by
    unfold ProperPath
    rw [cross_app hR.transpose]
    intro h0
    apply hp
    have := congrArg (app Re) h0
    rw [hR.app_trans] at this
    rw [this]; ext <;> simp [app, dot]
  generalize hnA : app (transp Re) (geoNormal latA lonA) = nA at *
  generalize hnB : app (transp Re) (geoNormal latB lonB) = nB at *
  have hmx : mix nA nB t ≠ 0 := by
    intro h0
    obtain ⟨h1, -⟩ := (mix_zero_iff hA hB t).1 h0
    apply hpp
    rw [h1]; ext <;> simp [cross] <;> ring
  have hC := interpolate_fin hmx
  have hCu := dirOf_unit hmx
  have hI : path.interpolate (fin t) = .ok (.real (dirOf (mix nA nB t)) (z + t * (z - z)) F) := geoPath_interpolate_fin hAat hBat t hmx
  rw [sub_self, mul_zero, add_zero] at hI
  generalize dirOf (mix nA nB t) = nC at *
  obtain ⟨latC, lonC, hll, -⟩ := C03_ranges nC hCu.ne Re hR
  have hgp : (Nvector.real nC z F).to_geo_point = .real latC lonC z F := by
    unfold Nvector.to_geo_point Nvector.real
    change (GeoPoint.mk (n_E2lat_lon nC.fin Re.fin).1 (n_E2lat_lon nC.fin Re.fin).2 _ _ : GeoPoint XR) = _
    rw [hll]; rfl
  have hnv : (GeoPoint.real latC lonC z F).to_nvector = .real nC z F := by
    rw [← hgp, C45_nvector_geo_nvector nC hCu.ne z a 0 name Re hR]
    exact congrArg (fun v => Nvector.real v z F) (dirOf_of_unit hCu)
  refine ⟨_, latC, lonC, hI, hgp, fun hlC => ?_⟩
  obtain ⟨l1, l2⟩ := abs_lt.1 hlC
  obtain ⟨l3, l4⟩ := abs_lt.1 hlB
  obtain ⟨h', e, -⟩ := C126_distance_and_azimuth G a z ha hz name latC lonC latB lonB l1 l2 l3 l4 method c cs hm hc
  have haz := C126_azimuth hR latC lonC latB lonB a ha l1 l2
  have hnC : nC = app (transp Re) (geoNormal latC lonC) := by
    have := hnv.symm.trans (sphere_nv hR name a latC lonC z)
    exact V3.fin_inj.1 (congrArg Nvector.normal this)
  rw [lat_lon2n_E_fin, lat_lon2n_E_fin, ← hnC, hnB] at haz
  refine ⟨_, _, h', e, fun d β => ?_⟩
  generalize XR.atan2 (sin (lonB - lonC) * cos latB) (cos latC * sin latB - sin latC * cos latB * cos (lonB - lonC)) = h at *
  have hm' : method.toList.head? ≠ some 'e' := by rw [hm]; simpa using hc
  obtain ⟨hpole, -, latQ, lonQ, azQ, eQ, nQ, -⟩ := sphere_displace G ha hz name hm' l1 l2 hnv d (h + β)
  refine ⟨latQ, lonQ, azQ, eQ, ?_, fun hd hβ => ?_⟩
  · have hx := C156_cross_track hA hB hpp ht0 ht1 hC hR hpole ha haz (d / (a - z)) β (a - z)
    rw [direct_offpole hCu hpole] at hx
    unfold GeoPath.cross_track_distance
    have hav : path.average_radius = fin (a - z) := by
      rw [average_radius_fin hAat hBat, len_smul, len_smul, hA.len, hB.len, abs_of_pos hrad]
      congr 1; ring
    rw [normals_fin hAat hBat]
    change Nv.cross_track_distance _ (GeoPoint.to_nvector _).normal _ path.average_radius = _
    rw [nQ, hav]
    exact hx
  · have hd' : |d / (a - z)| < π / 2 := by rw [abs_div, abs_of_pos hrad, div_lt_iff₀ hrad]; exact hd
    have hx := C156_closest hA hB hpp ht0 ht1 hC hR hpole ha haz (d / (a - z)) β hd'
    rw [hβ, mul_zero, Real.arctan_zero, direct_offpole hCu hpole, direct_offpole hCu hpole, Real.cos_zero, Real.sin_zero] at hx
    have e0 : (1:ℝ) • nC + (0:ℝ) • (cos h • cross nC (dirOf (cross (northPole Re) nC)) + sin h • dirOf (cross (northPole Re) nC)) = nC := by
      ext <;> simp
    rw [e0] at hx
    have hQat : At (.geo (.real latQ lonQ z F)) (reach nC (dirOf (cross (northPole Re) nC)) (d / (a - z)) (h + β)) z
        ((a - z) • reach nC (dirOf (cross (northPole Re) nC)) (d / (a - z)) (h + β)) F :=
      sphere_at name (reach_unit (frame_offpole hCu hpole) _ _) nQ
    unfold GeoPath.closest_point_on_great_circle
    rw [closest_nvector_fin hAat hBat hQat hx, show (z + z) / 2 = z by ring, hgp]

end Nv
