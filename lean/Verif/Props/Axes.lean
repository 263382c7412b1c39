import Verif.Props.Convert

/-!
# C62, C63: where the origin of a local frame is, and what the axes of frame E and of the local frames are
-/

namespace Nv
open Spec Real
open XR (fin)

/-! ## C62 -/

/-- **C62** the origin of `FrameN(point)` and `FrameL(point)` is at the surface point of the n-vector of `point`: the
position itself is `z` below it along the normal -/
theorem C62_origin (pt : Position XR) (n : V3 ℝ) (z wa a f : ℝ) (ha : 0 < a) (hf : f < 1) (name : EllKey) (R : M3 ℝ)
    (hR : IsRotation R) (hpt : pt.to_nvector = .real n z (.real a f name R)) (hn : UnitVec n) (F : LocalFrame XR)
    (hF : F = FrameN pt ∨ F = FrameL pt (fin wa)) :
    ∃ o p : V3 ℝ, F.nvector.to_ecef_vector = .real o (.real a f name R) ∧ OnEllipsoid a f (app R o) ∧
      pt.to_nvector.to_ecef_vector = .real p (.real a f name R) ∧ p = o - z • n := by
  obtain ⟨o, p, ho, hp, e⟩ := C04_depth n hn.ne z a f hf R hR
  obtain ⟨o', ho', hs, -⟩ := C04_on_surface n hn.ne a f ha hf R hR
  obtain rfl : o = o' := V3.fin_inj.mp (ho.symm.trans ho')
  have hd : (len n)⁻¹ • n = n := dirOf_of_unit hn
  rw [hd] at e
  have hz : (lit 0 : XR) = fin 0 := by simp [xr]
  have hN : F.nvector = .real n 0 (.real a f name R) := by
    rcases hF with rfl | rfl
    · show (⟨pt.to_nvector.normal, lit 0, pt.to_nvector.frame⟩ : Nvector XR) = _
      rw [hpt, hz]; rfl
    · show (⟨pt.to_nvector.normal, lit 0, pt.to_nvector.frame⟩ : Nvector XR) = _
      rw [hpt, hz]; rfl
  refine ⟨o, p, ?_, hs, ?_, e⟩
  · rw [hN]
    show (⟨n_EB_E2p_EB_E n.fin (fin 0) (fin a) (fin f) R.fin, _⟩ : ECEFvector XR) = _
    rw [ho]; rfl
  · rw [hpt]
    show (⟨n_EB_E2p_EB_E n.fin (fin z) (fin a) (fin f) R.fin, _⟩ : ECEFvector XR) = _
    rw [hp]; rfl

/-- **C62** hence the depth of the point does not matter for `FrameN` and `FrameL` -/
theorem C62_depth_ignored (p q : Nvector XR) (wa : XR) (hn : p.normal = q.normal) (hF : p.frame = q.frame) :
    FrameN (.nvec p) = FrameN (.nvec q) ∧ FrameL (.nvec p) wa = FrameL (.nvec q) wa := by
  unfold FrameN FrameL Position.to_nvector
  simp only [hn, hF, and_self]

/-- **C62** the origin of `FrameB(point)` is the position itself -/
theorem C62_body_origin (pt : Position XR) (yaw pitch roll : XR) (degrees : Bool) :
    (FrameB pt yaw pitch roll degrees).nvector = pt.to_nvector := by
  unfold FrameB LocalFrame.nvector
  cases degrees <;> rfl

/-- **C62** body frames at different depths are different -/
theorem C62_body_depth (n : V3 ℝ) (z z' : ℝ) (F : FrameE XR) (yaw pitch roll : XR) (degrees : Bool)
    (hz : max (1 / 10 ^ 14) (1 / 10 ^ 12 * max |z| |z'|) < |z - z'|) :
    pyEq false (.frame (FrameB (.nvec (.real n z F)) yaw pitch roll degrees))
      (.frame (FrameB (.nvec (.real n z' F)) yaw pitch roll degrees)) = .ok false := by
  have h : (Nvector.real n z F).isEqualTo (Nvector.real n z' F) = false := by
    have : eqClose [(fin z, fin z')] = false := by
      rw [← Bool.not_eq_true, eqClose_fin]; exact not_le.mpr hz
    unfold Nvector.isEqualTo Nvector.real
    simp [this]
  have hB : ∀ y p r, (LocalFrame.B (Nvector.real n z F) y p r).isEqualTo (.B (Nvector.real n z' F) y p r) = .ok false := by
    intro y p r
    unfold LocalFrame.isEqualTo
    simp [h]
  have key : ∀ y p r, pyEq false (.frame (LocalFrame.B (Nvector.real n z F) y p r))
      (.frame (LocalFrame.B (Nvector.real n z' F) y p r)) = .ok false := by
    intro y p r
    show attrFalse ((LocalFrame.B (Nvector.real n z F) y p r).isEqualTo (.B (Nvector.real n z' F) y p r)) = _
    rw [hB]; rfl
  cases degrees
  · exact key _ _ _
  · exact key _ _ _

/-- a dive of one metre -/
example (n : V3 ℝ) (F : FrameE XR) : pyEq false (.frame (FrameB (.nvec (.real n 0 F))))
    (.frame (FrameB (.nvec (.real n 1 F)))) = .ok false :=
  C62_body_depth n 0 1 F _ _ _ _ (by rw [max_lt_iff]; norm_num)

/-! ## C63 -/

/-- radius of curvature in the prime vertical -/
noncomputable def Spec.primeVertical (a f lat : ℝ) : ℝ := a / √(1 - f * (2 - f) * sin lat ^ 2)

/-- **C63** with axes 'e' the z-axis points to the North Pole and the x-axis to latitude = longitude = 0: the textbook
n-vector and the textbook geodetic to ECEF conversion (height = -z) -/
theorem C63_axes_e (a f lat lon z : ℝ) (hf : f < 1) (name : EllKey) :
    ∃ F : FrameE XR, FrameE.new (some (fin a)) (some (fin f)) name "e" = .ok F ∧
      (GeoPoint.to_nvector ⟨fin lat, fin lon, fin z, F⟩).normal =
        (⟨cos lat * cos lon, cos lat * sin lon, sin lat⟩ : V3 ℝ).fin ∧
      (GeoPoint.to_ecef_vector ⟨fin lat, fin lon, fin z, F⟩).pvector =
        (⟨(primeVertical a f lat - z) * cos lat * cos lon, (primeVertical a f lat - z) * cos lat * sin lon,
          (primeVertical a f lat * (1 - f) ^ 2 - z) * sin lat⟩ : V3 ℝ).fin := by
  refine ⟨⟨fin a, fin f, name, R_e⟩, rfl, ?_, ?_⟩
  · show lat_lon2n_E (fin lat) (fin lon) = _
    rw [C01_lat_lon2n_E_default, mul_comm (cos lon), mul_comm (sin lon)]
  · have hn : UnitVec (app (transp Re) (geoNormal lat lon)) := unitVec_app isRotation_Re.transpose (geoNormal_isUnit _ _)
    show n_EB_E2p_EB_E (lat_lon2n_E (fin lat) (fin lon) R_e) (fin z) (fin a) (fin f) R_e = _
    rw [R_e_fin, lat_lon2n_E_fin, n2p_fin hn.ne z a f hf isRotation_Re, dirOf_of_unit hn, isRotation_Re.app_trans]
    have hD : Dell f (geoNormal lat lon) = √(1 - f * (2 - f) * sin lat ^ 2) := by
      unfold Dell geoNormal
      congr 1
      linear_combination cos lat ^ 2 * Real.sin_sq_add_cos_sq lon + Real.sin_sq_add_cos_sq lat
    congr 1
    unfold posE primeVertical
    rw [hD]
    unfold geoNormal
    ext <;> simp [app, transp, Re, dot, col0, col1, col2] <;> ring

/-- **C63** with axes 'E' the x-axis points to the North Pole and the y-axis to longitude +90 degrees on the equator; the
Cartesian coordinates are those of axes 'e' permuted -/
theorem C63_axes_E (a f lat lon z : ℝ) (hf : f < 1) (name : EllKey) :
    ∃ F F' : FrameE XR, FrameE.new (some (fin a)) (some (fin f)) name "E" = .ok F ∧
      FrameE.new (some (fin a)) (some (fin f)) name "e" = .ok F' ∧
      (GeoPoint.to_nvector ⟨fin lat, fin lon, fin z, F⟩).normal =
        (⟨sin lat, cos lat * sin lon, -(cos lat * cos lon)⟩ : V3 ℝ).fin ∧
      ∃ p : V3 ℝ, (GeoPoint.to_ecef_vector ⟨fin lat, fin lon, fin z, F'⟩).pvector = p.fin ∧
        (GeoPoint.to_ecef_vector ⟨fin lat, fin lon, fin z, F⟩).pvector = (⟨p.z, p.y, -p.x⟩ : V3 ℝ).fin := by
  refine ⟨⟨fin a, fin f, name, R_E⟩, ⟨fin a, fin f, name, R_e⟩, rfl, rfl, ?_, ?_⟩
  · show lat_lon2n_E (fin lat) (fin lon) R_E = _
    rw [R_E_fin, lat_lon2n_E_fin]
    congr 1
    ext <;> simp [app, transp, geoNormal, one, dot, col0, col1, col2] <;> ring
  · have hn : UnitVec (app (transp Re) (geoNormal lat lon)) := unitVec_app isRotation_Re.transpose (geoNormal_isUnit _ _)
    have hn1 : UnitVec (app (transp one) (geoNormal lat lon)) := unitVec_app isRotation_one.transpose (geoNormal_isUnit _ _)
    refine ⟨app (transp Re) (posE a f (geoNormal lat lon) z), ?_, ?_⟩
    · show n_EB_E2p_EB_E (lat_lon2n_E (fin lat) (fin lon) R_e) (fin z) (fin a) (fin f) R_e = _
      rw [R_e_fin, lat_lon2n_E_fin, n2p_fin hn.ne z a f hf isRotation_Re, dirOf_of_unit hn, isRotation_Re.app_trans]
    · show n_EB_E2p_EB_E (lat_lon2n_E (fin lat) (fin lon) R_E) (fin z) (fin a) (fin f) R_E = _
      rw [R_E_fin, lat_lon2n_E_fin, n2p_fin hn1.ne z a f hf isRotation_one, dirOf_of_unit hn1, isRotation_one.app_trans]
      congr 1
      ext <;> simp [app, transp, Re, one, dot, col0, col1, col2]

/-- the textbook North-East-Down directions for the axes 'e' (x to latitude = longitude = 0, z to the pole) -/
noncomputable def Spec.north (lat lon : ℝ) : V3 ℝ := ⟨-(sin lat * cos lon), -(sin lat * sin lon), cos lat⟩
noncomputable def Spec.east (_lat lon : ℝ) : V3 ℝ := ⟨-sin lon, cos lon, 0⟩
noncomputable def Spec.down (lat lon : ℝ) : V3 ℝ := ⟨-(cos lat * cos lon), -(cos lat * sin lon), -sin lat⟩

/-- **C63** the columns of the matrix of `FrameN` are North, East and Down at every latitude strictly between the poles -/
theorem C63_ned (a f lat lon z : ℝ) (name : EllKey) (h1 : -(π / 2) < lat) (h2 : lat < π / 2) :
    ∃ (F : FrameE XR) (M : M3 ℝ), FrameE.new (some (fin a)) (some (fin f)) name "e" = .ok F ∧
      (FrameN (.geo ⟨fin lat, fin lon, fin z, F⟩)).R_EN = M.fin ∧
      (FrameL (.geo ⟨fin lat, fin lon, fin z, F⟩)).R_EN = M.fin ∧
      col0 M = north lat lon ∧ col1 M = east lat lon ∧ col2 M = down lat lon := by
  have hc : 0 < cos lat := Real.cos_pos_of_mem_Ioo ⟨h1, h2⟩
  have hls := Real.sin_sq_add_cos_sq lat
  have hlo := Real.sin_sq_add_cos_sq lon
  obtain ⟨n, hn⟩ : ∃ n : V3 ℝ, n = ⟨cos lon * cos lat, sin lon * cos lat, sin lat⟩ := ⟨_, rfl⟩
  have hu : UnitVec n := by
    rw [hn]; unfold UnitVec; linear_combination hls + cos lat ^ 2 * hlo
  have hpole : northPole Re = ⟨0, 0, 1⟩ := by
    ext <;> simp [northPole, app, transp, Re, dot, col0, col1, col2]
  have hcr : cross (northPole Re) n = cos lat • (east lat lon) := by
    rw [hpole, hn]; unfold east
    ext <;> simp [cross] <;> ring
  have heu : UnitVec (east lat lon) := by
    unfold UnitVec east; linear_combination hlo
  have hp : cross (northPole Re) n ≠ 0 := by
    rw [hcr]; exact smul_ne_zero hc.ne' heu.ne
  obtain ⟨M, hM, -, e2, e1, e0⟩ := n_E2R_EN_offpole n Re isRotation_Re hp
  rw [hcr, dirOf_smul hc, dirOf_of_unit heu] at e1 e0
  rw [dirOf_of_unit hu] at e0 e2
  have hnv : (GeoPoint.to_nvector ⟨fin lat, fin lon, fin z, ⟨fin a, fin f, name, R_e⟩⟩).normal = n.fin := by
    show lat_lon2n_E (fin lat) (fin lon) = _
    rw [C01_lat_lon2n_E_default, hn]
  have hz : (lit 0 : XR) = fin 0 := by simp [xr]
  refine ⟨⟨fin a, fin f, name, R_e⟩, M, rfl, ?_, ?_, ?_, ?_, ?_⟩
  · show n_E2R_EN (GeoPoint.to_nvector ⟨fin lat, fin lon, fin z, ⟨fin a, fin f, name, R_e⟩⟩).normal R_e = _
    rw [hnv, R_e_fin, hM]
  · show n_E_and_wa2R_EL (GeoPoint.to_nvector ⟨fin lat, fin lon, fin z, ⟨fin a, fin f, name, R_e⟩⟩).normal (lit 0) R_e = _
    rw [hnv, R_e_fin, hz, C13_R_EL_zero n Re isRotation_Re hp, hM]
  · rw [e0, hn]; unfold east north
    ext
    · simp [cross]
    · simp [cross]
    · simp only [cross]; linear_combination cos lat * hlo
  · exact e1
  · rw [e2, hn]; unfold down
    ext <;> simp <;> ring

/-- **C63** axes 'E': at latitude = longitude = 0 the frames N, L and B (zero angles) have the orientation of frame E -/
theorem C63_identity_at_origin (a f z : ℝ) (name : EllKey) :
    ∃ F : FrameE XR, FrameE.new (some (fin a)) (some (fin f)) name "E" = .ok F ∧
      (FrameN (.geo ⟨fin 0, fin 0, fin z, F⟩)).R_EN = one.fin ∧ (FrameL (.geo ⟨fin 0, fin 0, fin z, F⟩)).R_EN = one.fin ∧
      (FrameB (.geo ⟨fin 0, fin 0, fin z, F⟩)).R_EN = one.fin := by
  obtain ⟨n, hn⟩ : ∃ n : V3 ℝ, n = ⟨0, 0, -1⟩ := ⟨_, rfl⟩
  have hu : UnitVec n := by rw [hn]; simp [UnitVec]
  have hpole : northPole one = ⟨1, 0, 0⟩ := by
    ext <;> simp [northPole, app, transp, one, dot, col0, col1, col2]
  have hcr : cross (northPole one) n = ⟨0, 1, 0⟩ := by
    rw [hpole, hn]; ext <;> simp [cross]
  have heu : UnitVec (⟨0, 1, 0⟩ : V3 ℝ) := by simp [UnitVec]
  have hp : cross (northPole one) n ≠ 0 := by rw [hcr]; exact heu.ne
  obtain ⟨M, hM, -, e2, e1, e0⟩ := n_E2R_EN_offpole n one isRotation_one hp
  rw [hcr, dirOf_of_unit heu] at e1 e0
  rw [dirOf_of_unit hu] at e0 e2
  have hM1 : M = one := by
    rw [hn] at e2 e0
    have a0 := congrArg V3.x e0; have a1 := congrArg V3.y e0; have a2 := congrArg V3.z e0
    have b0 := congrArg V3.x e1; have b1 := congrArg V3.y e1; have b2 := congrArg V3.z e1
    have c0 := congrArg V3.x e2; have c1 := congrArg V3.y e2; have c2 := congrArg V3.z e2
    simp [col0, col1, col2, cross] at a0 a1 a2 b0 b1 b2 c0 c1 c2
    ext <;> simp [one, *]
  have hz : (lit 0 : XR) = fin 0 := by simp [xr]
  have hnv : (GeoPoint.to_nvector ⟨fin 0, fin 0, fin z, ⟨fin a, fin f, name, R_E⟩⟩).normal = n.fin := by
    show lat_lon2n_E (fin 0) (fin 0) R_E = _
    rw [R_E_fin, lat_lon2n_E_fin, hn]
    congr 1
    ext <;> simp [app, transp, geoNormal, one, dot, col0, col1, col2]
  refine ⟨⟨fin a, fin f, name, R_E⟩, rfl, ?_, ?_, ?_⟩
  · show n_E2R_EN (GeoPoint.to_nvector ⟨fin 0, fin 0, fin z, ⟨fin a, fin f, name, R_E⟩⟩).normal R_E = _
    rw [hnv, R_E_fin, hM, hM1]
  · show n_E_and_wa2R_EL (GeoPoint.to_nvector ⟨fin 0, fin 0, fin z, ⟨fin a, fin f, name, R_E⟩⟩).normal (lit 0) R_E = _
    rw [hnv, R_E_fin, hz, C13_R_EL_zero n one isRotation_one hp, hM, hM1]
  · show mdot (n_E2R_EN (GeoPoint.to_nvector ⟨fin 0, fin 0, fin z, ⟨fin a, fin f, name, R_E⟩⟩).normal R_E)
      (zyx2R (lit 0) (lit 0) (lit 0)) = _
    rw [hnv, R_E_fin, hM, hM1, hz, zyx2R_fin, mdot_fin, one_mmul]
    congr 1
    ext <;> simp [mmul, RotZ, RotY, RotX, one, dot, col0, col1, col2]

end Nv
