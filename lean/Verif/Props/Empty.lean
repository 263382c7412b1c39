import Verif.Props.Lengths

/-!
# C135: calls without positions

What the functions do with arrays of length zero (`np.array([])`, `3 x 0` arrays of n-vectors).
-/

namespace Nv.ND
open PyFloat

section
variable {α : Type} [PyFloat α]

/-- vectors of length zero combined with numbers and one-element vectors -/
theorem bshapes_empty {l : List (List ℕ)} (h0 : [0] ∈ l) (h : ∀ s ∈ l, s = [] ∨ s = [0] ∨ s = [1]) : bshapes l = .ok [0] := by
  have key : ∀ (l : List (List ℕ)) (s : List ℕ), (∀ t ∈ l, t = [] ∨ t = [0] ∨ t = [1]) → (s = [] ∨ s = [0] ∨ s = [1]) →
      (s = [0] ∨ [0] ∈ l) → l.foldlM bshape s = .ok [0] := by
    intro l
    induction l with
    | nil =>
      intro s _ _ h
      rcases h with rfl | h
      · rfl
      · cases h
    | cons t l ih =>
      intro s hl hs h
      rw [List.foldlM_cons]
      have ht := hl t (by simp)
      have hl' : ∀ t' ∈ l, t' = [] ∨ t' = [0] ∨ t' = [1] := fun t' ht' => hl t' (by simp [ht'])
      rcases hs with rfl | rfl | rfl
      · rw [bshape_0n]
        refine ih t hl' ht ?_
        rcases h with h | h
        · cases h
        · rcases List.mem_cons.mp h with h | h
          · exact .inl h.symm
          · exact .inr h
      · rcases ht with rfl | rfl | rfl
        all_goals exact ih [0] hl' (.inr (.inl rfl)) (.inl rfl)
      · rcases ht with rfl | rfl | rfl
        · exact ih [1] hl' (.inr (.inr rfl)) (by
            rcases h with h | h
            · cases h
            · rcases List.mem_cons.mp h with h | h
              · cases h
              · exact .inr h)
        · exact ih [0] hl' (.inr (.inl rfl)) (.inl rfl)
        · exact ih [1] hl' (.inr (.inr rfl)) (by
            rcases h with h | h
            · cases h
            · rcases List.mem_cons.mp h with h | h
              · cases h
              · exact .inr h)
  exact key l [] h (.inl rfl) (.inr h0)

/-- **C135** `FrameE.inverse` and `FrameE.direct` of no positions raise `ValueError` -/
theorem C135_geodesic {A1 A2 A3 A4 A5 : Arr α} (h0 : [0] ∈ [A1.shape, A2.shape, A3.shape, A4.shape, A5.shape])
    (h : ∀ s ∈ [A1.shape, A2.shape, A3.shape, A4.shape, A5.shape], s = [] ∨ s = [0] ∨ s = [1]) (G : Geodesic α) (F : FrameE α)
    (long_unroll degrees : Bool) :
    inverse G F A1 A2 A3 A4 A5 long_unroll degrees = .error .ValueError ∧
      direct G F A1 A2 A3 A4 A5 long_unroll degrees = .error .ValueError := by
  have e := bshapes_empty h0 h
  constructor
  · unfold inverse
    cases degrees
    · simp only [Bool.false_eq_true, if_false, Arr.map, e, zipMap, bind, Except.bind]
    · simp only [if_true, e, zipMap, bind, Except.bind]
  · unfold direct
    cases degrees
    · simp only [Bool.false_eq_true, if_false, Arr.map, e, zipMap, bind, Except.bind]
    · simp only [if_true, e, zipMap, bind, Except.bind]

/-- **C135** the conversions of no n-vectors raise `IndexError` -/
theorem C135_conversions {A depth wa : Arr α} {r : ℕ} (hA : A.shape = [r, 0]) (B zA zB P : Arr α) (a f : α) (R : M3 α) :
    n_E2lat_lon A R = .error .IndexError ∧ n_E2R_EN A R = .error .IndexError ∧ n_E_and_wa2R_EL A wa R = .error .IndexError ∧
    n_EB_E2p_EB_E A depth a f R = .error .IndexError ∧ n_EA_E_and_n_EB_E2p_AB_E A B zA zB a f R = .error .IndexError ∧
    n_EA_E_and_n_EB_E2azimuth A B a f R = .error .IndexError ∧ n_EA_E_and_p_AB_E2n_EB_E A P zA a f R = .error .IndexError := by
  have h1 := fun depth => (C52_no_columns (depth := depth) hA a f R).1
  have h2 := (C52_no_columns (depth := depth) hA a f R).2
  have h3 : ∀ zA zB, n_EA_E_and_n_EB_E2p_AB_E A B zA zB a f R = .error .IndexError := fun zA zB => by
    unfold n_EA_E_and_n_EB_E2p_AB_E; rw [h1]; rfl
  refine ⟨h2.1, h2.2, ?_, h1 _, h3 _ _, ?_, ?_⟩
  · unfold n_E_and_wa2R_EL; rw [h2.1]; rfl
  · unfold n_EA_E_and_n_EB_E2azimuth; rw [h3]; rfl
  · unfold n_EA_E_and_p_AB_E2n_EB_E; rw [h1]; rfl

/-- **C135** the other functions return arrays without elements -/
theorem C135_empty {A B C : Arr α} (hA : A.shape = [3, 0]) (hB : B.shape = [3, 0]) (hC : C.shape = [3, 0])
    {lat lon ti dist az : Arr α} (hlat : lat.shape = [0]) (hlon : lon.shape = [0]) (ht : ti.shape = [0]) (hd : dist.shape = [0])
    (haz : az.shape = [0]) (a f radius nz : α) (R : M3 α) :
    (∃ X, lat_lon2n_E lat lon R = .ok X ∧ X.shape = [3, 0]) ∧
    (∃ X, unit A nz = .ok X ∧ X.shape = [3, 0]) ∧
    (∃ X D, p_EB_E2n_EB_E A a f R = .ok (X, D) ∧ X.shape = [3, 0] ∧ D.shape = [0]) ∧
    (∃ X, interpolate A B ti = .ok X ∧ X.shape = [3, 0]) ∧
    (∃ X, great_circle_normal A B = .ok X ∧ X.shape = [3, 0]) ∧
    (∃ X, euclidean_distance A B radius = .ok X ∧ X.shape = [0]) ∧
    (∃ X, great_circle_distance A B radius = .ok X ∧ X.shape = [0]) ∧
    (∃ X, cross_track_distance A B C "greatcircle" radius = .ok X ∧ X.shape = [0]) ∧
    (∃ X, n_EA_E_distance_and_azimuth2n_EB_E A dist az R = .ok X ∧ X.shape = [3, 0]) := by
  have cA := IsCols.of A 0 hA
  have cB := IsCols.of B 0 hB
  have cC := IsCols.of C 0 hC
  have b0 : Bc 0 0 0 := .self 0
  obtain ⟨X1, e1, h1⟩ := C52_lat_lon2n_E (IsVec.of lat 0 hlat).row (IsVec.of lon 0 hlon).row (.inl rfl) R
  obtain ⟨X2, e2, h2⟩ := C52_unit cA nz
  obtain ⟨X3, D3, e3, h3, d3⟩ := C52_p_EB_E2n_EB_E cA a f R
  obtain ⟨X4, e4, h4⟩ := C52_interpolate cA cB (IsVec.of ti 0 ht).row b0 (.inl rfl)
  obtain ⟨X5, e5, h5⟩ := C52_great_circle_normal cA cB b0
  obtain ⟨X6, e6, h6⟩ := C52_euclidean_distance cA cB b0 radius
  obtain ⟨X8, e8, s8, -⟩ := C53_cross_track_distance cA cB cC "greatcircle" 'g' "reatcircle".toList (by decide) radius
  obtain ⟨X9, e9, h9⟩ := C52_n_EA_E_distance_and_azimuth2n_EB_E cA (IsVec.of dist 0 hd).row (IsVec.of az 0 haz).row (.inl rfl)
    (.inl rfl) R
  refine ⟨⟨X1, e1, h1.shape⟩, ⟨X2, e2, h2.shape⟩, ⟨X3, D3, e3, h3.shape, d3.shape⟩, ⟨X4, e4, h4.shape⟩, ⟨X5, e5, h5.shape⟩,
    ⟨X6, e6, h6.shape⟩, ?_, ⟨X8, e8, s8⟩, ⟨X9, e9, h9.shape⟩⟩
  obtain ⟨X, eX, hX⟩ := C53_great_circle_distance cA cB b0 radius
  exact ⟨X, eX, hX.1⟩

/-- **C135** a `GeoPoint` of no positions can be made and turned into an `Nvector`, but not into an ECEF vector; it cannot be
displaced, and it has no distance to other positions -/
theorem C135_GeoPoint {lat lon z : Arr α} (hlat : lat.shape = [0]) (hlon : lon.shape = [0] ∨ lon.shape = [])
    (hz : z.shape = [0] ∨ z.shape = []) (F : FrameE α) (G : Geodesic α) (distance azimuth : Arr α)
    (hd : distance.shape = [] ∨ distance.shape = [0]) (ha : azimuth.shape = [] ∨ azimuth.shape = [0]) (degrees long_unroll deg : Bool) :
    ∃ P, GeoPoint.new lat lon z F degrees = .ok P ∧ P.latitude.shape = [0] ∧
      (∃ N, P.to_nvector = .ok N ∧ N.normal.shape = [3, 0] ∧ N.to_ecef_vector = .error .IndexError ∧
        N.to_geo_point = .error .IndexError) ∧
      (Position.geo P).to_ecef_vector = .error .IndexError ∧
      P.displace G distance azimuth long_unroll deg "ellipsoid" = .error .ValueError ∧
      P.displace G distance azimuth long_unroll deg "greatcircle" = .error .IndexError := by
  have hsh : ∀ A : Arr α, (if degrees then A.map deg2rad else A).shape = A.shape := fun A => by cases degrees <;> rfl
  have e1 : bshape lat.shape lon.shape = .ok [0] := by
    rw [hlat]; rcases hlon with h | h <;> rw [h] <;> rfl
  have e2 : bshape [0] z.shape = .ok [0] := by rcases hz with h | h <;> rw [h] <;> rfl
  obtain ⟨P, eP, s1, s2, s3⟩ : ∃ P, GeoPoint.new lat lon z F degrees = .ok P ∧ P.latitude.shape = [0] ∧
      P.longitude.shape = [0] ∧ P.z.shape = [0] := by
    unfold GeoPoint.new
    simp only [hsh, e1, e2, bind, Except.bind, pure, Except.pure]
    exact ⟨_, rfl, rfl, rfl, rfl⟩
  obtain ⟨X, eX, hX⟩ := C52_lat_lon2n_E (IsVec.of P.latitude 0 s1).row (IsVec.of P.longitude 0 s2).row (.inl rfl) P.frame.R_Ee
  have eN : P.to_nvector = .ok ⟨X, P.z, P.frame⟩ := by
    unfold GeoPoint.to_nvector; rw [eX]; rfl
  have eE : (⟨X, P.z, P.frame⟩ : Nvector α).to_ecef_vector = .error .IndexError := by
    unfold Nvector.to_ecef_vector
    rw [(C52_no_columns hX.shape _ _ _).1]; rfl
  have eG : (⟨X, P.z, P.frame⟩ : Nvector α).to_geo_point = .error .IndexError := by
    unfold Nvector.to_geo_point
    rw [(C52_no_columns (depth := P.z) hX.shape P.frame.a P.frame.f _).2.1]; rfl
  refine ⟨P, eP, s1, ⟨_, eN, hX.shape, eE, eG⟩, ?_, ?_, ?_⟩
  · show (do (← P.to_nvector).to_ecef_vector) = _
    rw [eN]; exact eE
  · unfold GeoPoint.displace
    rw [if_pos (by decide)]
    unfold GeoPoint.displace_ellipsoid
    have := fun az : Arr α => fun (hz' : az.shape = azimuth.shape) =>
      (C135_geodesic (A1 := P.latitude.map rad2deg) (A2 := P.longitude.map rad2deg) (A3 := az) (A4 := distance) (A5 := P.z)
      (by simp [Arr.map, s1]) (by
        intro s hs
        simp only [List.mem_cons, List.not_mem_nil, or_false, Arr.map, s1, s2, s3, hz'] at hs
        rcases hs with rfl | rfl | rfl | rfl | rfl
        · simp
        · simp
        · rcases ha with h | h <;> simp [h]
        · rcases hd with h | h <;> simp [h]
        · simp) G P.frame long_unroll true).2
    cases deg
    · simp only [Bool.false_eq_true, if_false]
      rw [this (azimuth.map rad2deg) rfl]; rfl
    · simp only [if_true]
      rw [this azimuth rfl]; rfl
  · unfold GeoPoint.displace
    rw [if_neg (by decide)]
    unfold GeoPoint.displace_great_circle
    simp only [eN, eE, bind, Except.bind]

end

/-- **C135** but the mean of no positions is a position: the x-axis of frame E, with the depth NaN -/
theorem C135_mean {A z : Arr XR} (hA : A.shape = [3, 0]) (hz : z.shape = [0]) (F : FrameE XR) :
    ∃ N, (⟨A, z, F⟩ : Nvector XR).mean = .ok N ∧ IsCols N.normal 1 (fun _ => (⟨1, 0, 0⟩ : V3 ℝ).fin) ∧
      N.z.shape = [] ∧ N.z.get [] = XR.nan := by
  obtain ⟨X, e, h⟩ := C52_mean_horizontal_position (IsCols.of A 0 hA)
  refine ⟨⟨X, meanAll z, F⟩, by unfold Nvector.mean; rw [e]; rfl, h.congr fun j _ => ?_, rfl, ?_⟩
  · have : (⟨lit 0, lit 0, lit 0⟩ : V3 XR) = (0 : V3 ℝ).fin := by ext <;> simp [xr, V3.fin]
    show Nv.unit (⟨lit 0, lit 0, lit 0⟩ : V3 XR) = _
    rw [this, unit_zero]
  · show ((List.range (prod z.shape)).foldl _ _ / _ : XR) = _
    rw [hz]
    simp [prod, xr, XR.zero_div_zero]

/-- the hypotheses are met -/
example (x : XR) : (⟨[3, 0], fun _ => x⟩ : Arr XR).shape = [3, 0] ∧ [0] ∈ [[0], [], ([0] : List ℕ)] ∧
    ∀ s ∈ [[0], [], ([1] : List ℕ)], s = [] ∨ s = [0] ∨ s = [1] := ⟨rfl, by simp, by simp⟩

end Nv.ND
