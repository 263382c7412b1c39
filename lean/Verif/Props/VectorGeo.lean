import Verif.Props.Geodesics
import Verif.Props.Sizes

/-!
# C65: displace and distance_and_azimuth on vectors
-/

namespace Nv.ND
open PyFloat

section
variable {α : Type} [PyFloat α]

theorem Spec.Fits.bc {k n : ℕ} {ns : List ℕ} (h : Spec.Fits k ns) (hn : n ∈ ns) : Bc k n k :=
  ⟨.inl rfl, h.each n hn, .inl rfl⟩

theorem bi_fits {k n : ℕ} {ns : List ℕ} (h : Spec.Fits k ns) (hn : n ∈ ns) {j : ℕ} (hj : j < k) : bi n (bi k j) = bi n j := by
  rw [bi_self hj]

/-- **C65** `displace(method='ellipsoid')` on vectors: point and azimuth `j` are those of the call on element `j` of the
position, the distances and the azimuths; numbers if all of them are numbers -/
theorem C65_displace_ellipsoid {s sd sa : Bool} {n nd na k : ℕ} {P : GeoPoint α} {g} {D A : Arr α} {d a : ℕ → α}
    (hP : IsGeo s n P g) (hD : IsVal sd D nd d) (hA : IsVal sa A na a) (hf : Spec.Fits k [n, nd, na]) (hk : 0 < k)
    (G : Geodesic α) (long_unroll degrees : Bool) {q : ℕ → Nv.GeoPoint α × α}
    (hq : ∀ j < k, (g (bi n j)).displace_ellipsoid G (d (bi nd j)) (a (bi na j)) long_unroll degrees = .ok (q j)) :
    ∃ Q B, P.displace_ellipsoid G D A long_unroll degrees = .ok (Q, B) ∧ IsGeo (s && sd && sa) k Q (fun j => (q j).1) ∧
      IsVal (s && sd && sa) B k (fun j => (q j).2) := by
  haveI : Nonempty α := ⟨lit 0⟩
  have hf5 : Spec.Fits k [n, n, na, nd, n] := by
    refine ⟨fun m hm => hf.each m ?_, ?_⟩
    · simp only [List.mem_cons, List.not_mem_nil, or_false] at hm ⊢; tauto
    · have := hf.some; simp only [List.mem_cons, List.not_mem_nil, or_false] at this ⊢; tauto
  obtain ⟨A', a', hA', eA', ea'⟩ : ∃ (A' : Arr α) (a' : ℕ → α), IsVal sa A' na a' ∧
      (if degrees then A else A.map rad2deg) = A' ∧ ∀ j, a' j = if degrees then a j else rad2deg (a j) := by
    cases degrees
    · exact ⟨A.map rad2deg, _, hA.map rad2deg, rfl, fun _ => rfl⟩
    · exact ⟨A, a, hA, rfl, fun _ => rfl⟩
  have hex : ∀ j < k, ∃ u, P.frame.direct G (rad2deg (g (bi n j)).latitude) (rad2deg (g (bi n j)).longitude) (a' (bi na j))
      (d (bi nd j)) (g (bi n j)).z long_unroll true = .ok u ∧
      (Nv.GeoPoint.new u.1 u.2.1 (g (bi n j)).z P.frame true, if degrees then u.2.2 else deg2rad u.2.2) = q j := by
    intro j hj
    have := hq j hj
    unfold Nv.GeoPoint.displace_ellipsoid Nv.GeoPoint.latitude_deg Nv.GeoPoint.longitude_deg at this
    rw [hP.frame _ (hf.lt (by simp) hj), ← ea'] at this
    simp only [bind, Except.bind] at this
    cases h0 : P.frame.direct G (rad2deg (g (bi n j)).latitude) (rad2deg (g (bi n j)).longitude) (a' (bi na j))
      (d (bi nd j)) (g (bi n j)).z long_unroll true with
    | error e => rw [h0] at this; cases this
    | ok u =>
      rw [h0] at this
      refine ⟨u, rfl, ?_⟩
      cases degrees
      · exact Except.ok.inj this
      · exact Except.ok.inj this
  choose! u hu huq using hex
  obtain ⟨X, Y, Z, e, hX, hY, hZ⟩ := C65_direct (hP.lat.map rad2deg) (hP.lon.map rad2deg) hA' hD hP.z hf5 hk G P.frame
    long_unroll true hu
  obtain ⟨Q, eQ, hQ⟩ := C60_GeoPoint hX hY hP.z (.self k) (hf.bc (by simp)) P.frame true
  have hs : (s && s && sa && sd && s && (s && s && sa && sd && s) && s) = (s && sd && sa) := by
    cases s <;> cases sd <;> cases sa <;> rfl
  have hs' : (s && s && sa && sd && s) = (s && sd && sa) := by cases s <;> cases sd <;> cases sa <;> rfl
  rw [hs] at hQ
  rw [hs'] at hZ
  have hQ' : IsGeo (s && sd && sa) k Q (fun j => (q j).1) := hQ.congr fun j hj => by
    rw [← huq j hj]; simp only [bi_self hj]
  cases degrees
  · refine ⟨Q, Z.map deg2rad, ?_, hQ', (hZ.map deg2rad).congr fun j hj => by rw [← huq j hj]; rfl⟩
    unfold GeoPoint.displace_ellipsoid
    first
      | (simp only [eA', e, eQ, bind, Except.bind]; rfl)
      | (simp only [if_true] at eA' ⊢
         simp only [eA', e, eQ, bind, Except.bind]; rfl)
  · refine ⟨Q, Z, ?_, hQ', hZ.congr fun j hj => by rw [← huq j hj]; rfl⟩
    unfold GeoPoint.displace_ellipsoid
    first
      | (simp only [eA', e, eQ, bind, Except.bind]; rfl)
      | (simp only [if_true] at eA' ⊢
         simp only [eA', e, eQ, bind, Except.bind]; rfl)

theorem check_frames_pos_eq {s : Bool} {n : ℕ} {P : Position α} {g} (h : IsPos s n P g) (F : FrameE α) {j : ℕ} (hj : j < n) :
    check_frames_pos F P = Nv.check_frames_pos F (g j) := by
  cases h with
  | geo h e => rw [e j hj]; show check_frames _ _ = check_frames _ _; rw [h.frame j hj]
  | nvec h e => rw [e j hj]; show check_frames _ _ = check_frames _ _; rw [h.frame j hj]
  | ecef h e => rw [e j hj]; show check_frames _ _ = check_frames _ _; rw [h.frame j hj]
  | pvec h e => rw [e j hj]; rfl

/-- **C65** `distance_and_azimuth(method='ellipsoid')` on vectors, for the point of any class -/
theorem C65_distance_and_azimuth_ellipsoid {s t : Bool} {n m k : ℕ} {P : GeoPoint α} {g} {Q : Position α} {q}
    (hP : IsGeo s n P g) (hQ : IsPos t m Q q) (hb : Bc n m k) (hk : 0 < k)
    (G : Geodesic α) (long_unroll degrees : Bool) {r : ℕ → α × α × α}
    (hr : ∀ j < k, (g (bi n j)).distance_and_azimuth_ellipsoid G (q (bi m j)) long_unroll degrees = .ok (r j)) :
    ∃ X Y Z, P.distance_and_azimuth_ellipsoid G Q long_unroll degrees = .ok (X, Y, Z) ∧
      IsVal (s && t) X k (fun j => (r j).1) ∧ IsVal (s && t) Y k (fun j => (r j).2.1) ∧ IsVal (s && t) Z k (fun j => (r j).2.2) := by
  obtain ⟨R, eR, hR⟩ := C60_to_geo_point hQ (hb.pos hk).2
  obtain ⟨z, ez, hz⟩ := map2_vals (· + ·) hP.z hR.z hb
  have hf5 : Spec.Fits k [n, n, m, m, k] := by
    refine ⟨fun l hl => ?_, .inr (by simp)⟩
    simp only [List.mem_cons, List.not_mem_nil, or_false] at hl
    obtain ⟨b1, b2, b3⟩ := hb
    omega
  have hs : (s && s && t && t && (s && t)) = (s && t) := by cases s <;> cases t <;> rfl
  have hz' := hz.map (lit 0.5 * ·)
  have hfr : ∀ j < k, (g (bi n j)).frame = P.frame := fun j hj => hP.frame _ (hb.lt hj)
  unfold GeoPoint.distance_and_azimuth_ellipsoid
  rw [eR]
  cases degrees
  · obtain ⟨X, Y, Z, e, hX, hY, hZ⟩ := C65_inverse hP.lat hP.lon hR.lat hR.lon hz' hf5 hk G P.frame long_unroll false (g := r)
      (fun j hj => by
        have := hr j hj
        unfold Nv.GeoPoint.distance_and_azimuth_ellipsoid at this
        simp only [Bool.false_eq_true, if_false, hfr j hj] at this
        simp only [bi_self hj]
        exact this)
    rw [hs] at hX hY hZ
    refine ⟨X, Y, Z, ?_, hX, hY, hZ⟩
    simp only [bind, Except.bind, ez, Bool.false_eq_true, if_false]
    exact e
  · obtain ⟨X, Y, Z, e, hX, hY, hZ⟩ := C65_inverse (hP.lat.map rad2deg) (hP.lon.map rad2deg) (hR.lat.map rad2deg)
      (hR.lon.map rad2deg) hz' hf5 hk G P.frame long_unroll true (g := r)
      (fun j hj => by
        have := hr j hj
        unfold Nv.GeoPoint.distance_and_azimuth_ellipsoid at this
        simp only [if_true, hfr j hj] at this
        simp only [bi_self hj]
        exact this)
    rw [hs] at hX hY hZ
    refine ⟨X, Y, Z, ?_, hX, hY, hZ⟩
    simp only [bind, Except.bind, ez, if_true]
    exact e

/-! ## great circles -/

/-- **C52** `n_EA_E_distance_and_azimuth2n_EB_E` for `n` positions, `mD` distances and `mA` azimuths -/
theorem C52_n_EA_E_distance_and_azimuth2n_EB_E_any {A dist az : Arr α} {n mD mA l k : ℕ} {c : ℕ → V3 α} {s t : ℕ → α}
    (hA : IsCols A n c) (hd : IsRow dist mD s) (ha : IsRow az mA t) (hl : Bc n mA l) (hk : Bc l mD k) (R : M3 α) :
    ∃ X, n_EA_E_distance_and_azimuth2n_EB_E A dist az R = .ok X ∧
      IsCols X k (fun j => Nv.n_EA_E_distance_and_azimuth2n_EB_E (c (bi n j)) (s (bi mD j)) (t (bi mA j)) R) := by
  obtain ⟨P, eP, hP⟩ := dot_ofM3T R (ofV3_cols (⟨lit 1, lit 0, lit 0⟩ : V3 α))
  obtain ⟨C, eC, hC⟩ := cross0_cols hP hA (.one' n)
  obtain ⟨E, eE, hE⟩ := unit_cols hC (lit 1)
  obtain ⟨N, eN, hN⟩ := cross0_cols' hA hE
  obtain ⟨l', hl'⟩ : ∃ l', Bc n mD l' := by
    obtain ⟨h1, h2, h3⟩ := hl; obtain ⟨i1, i2, i3⟩ := hk
    by_cases h : n = 1
    · exact ⟨mD, .inr h, .inl rfl, .inr rfl⟩
    · exact ⟨n, .inl rfl, by omega, .inl rfl⟩
  have hs : Bc l' k k := by
    obtain ⟨h1, h2, h3⟩ := hl; obtain ⟨i1, i2, i3⟩ := hk; obtain ⟨j1, j2, j3⟩ := hl'
    exact ⟨by omega, .inl rfl, .inr rfl⟩
  obtain ⟨X1, e1, h1⟩ := map2_col_row (· * ·) hN (ha.map cos) hl
  obtain ⟨X2, e2, h2⟩ := map2_col_row (· * ·) hE (ha.map sin) hl
  obtain ⟨X3, e3, h3⟩ := map2_cols' (· + ·) h1 h2
  obtain ⟨X4, e4, h4⟩ := map2_col_row (· * ·) hA (hd.map cos) hl'
  obtain ⟨X5, e5, h5⟩ := map2_col_row (· * ·) h3 (hd.map sin) hk
  obtain ⟨X6, e6, h6⟩ := map2_cols (· + ·) h4 h5 hs
  refine ⟨X6, ?_, h6.congr fun j hj => ?_⟩
  · unfold n_EA_E_distance_and_azimuth2n_EB_E
    simp only [eP, eC, eE, eN, e1, e2, e3, e4, e5, e6, bind, Except.bind]
  · have b1 : bi n (bi l j) = bi n j := bi_bi hl hk hj
    have b2 : bi mA (bi l j) = bi mA j := bi_bi hl.symm hk hj
    have b3 : bi n (bi l' j) = bi n j := bi_bi hl' hs hj
    have b4 : bi mD (bi l' j) = bi mD j := bi_bi hl'.symm hs hj
    have b5 : bi n (bi n j) = bi n j := by unfold bi; split <;> rfl
    simp only [bi_self hj, b1, b2, b3, b4, b5]
    rfl

/-- **C65** `displace(method='greatcircle')` on vectors: point and azimuth `j` are those of the call on element `j` of the
position, the distances and the azimuths.  A scalar position displaced by one-element vectors gives a scalar position. -/
theorem C65_displace_great_circle {s sd sa : Bool} {n nd na k : ℕ} {P : GeoPoint α} {g} {D A : Arr α} {d a : ℕ → α}
    (hP : IsGeo s n P g) (hD : IsVal sd D nd d) (hA : IsVal sa A na a) (hf : Spec.Fits k [n, nd, na]) (hk : 0 < k)
    (degrees : Bool) :
    (∃ Q B, ∃ q : ℕ → Nv.GeoPoint α × α, P.displace_great_circle D A degrees = .ok (Q, B) ∧ IsGeo (s && decide (k = 1)) k Q (fun j => (q j).1) ∧
      IsVal (s && decide (k = 1)) B k (fun j => (q j).2) ∧
      ∀ j < k, (g (bi n j)).displace_great_circle (d (bi nd j)) (a (bi na j)) degrees = .ok (q j)) ∨
    (P.displace_great_circle D A degrees = .error .ValueError ∧
      ∀ j < k, (g (bi n j)).displace_great_circle (d (bi nd j)) (a (bi na j)) degrees = .error .ValueError) := by
  have hn : 0 < n := by have := hf.each n (by simp); omega
  have hn0 := hf.each n (by simp)
  have hd0 := hf.each nd (by simp)
  have ha0 := hf.each na (by simp)
  have hk0 : k = 1 ∨ k = n ∨ k = nd ∨ k = na := by
    have := hf.some; simp only [List.mem_cons, List.not_mem_nil, or_false] at this; exact this
  obtain ⟨NA, eNA, hNA⟩ := C60_geo_to_nvector hP
  obtain ⟨EA, eEA, hEA⟩ := C60_nvec_to_ecef hNA hn
  obtain ⟨L, eL, hL⟩ := C60_length hEA.pvector hEA.one
  have hLs : length EA.pvector EA.scalar = .ok L := by rw [hEA.scalar]; exact eL
  obtain ⟨ld, hld⟩ : ∃ l, Bc nd n l := by
    by_cases h : nd = 1
    · exact ⟨n, .inr h, .inl rfl, .inr rfl⟩
    · exact ⟨nd, .inl rfl, by omega, .inl rfl⟩
  obtain ⟨DR, eDR, hDR⟩ := map2_vals (· / ·) hD hL hld
  obtain ⟨A', a', hA', eA', ea'⟩ : ∃ (A' : Arr α) (a' : ℕ → α), IsVal sa A' na a' ∧
      (if degrees then A.map deg2rad else A) = A' ∧ ∀ j, a' j = if degrees then deg2rad (a j) else a j := by
    cases degrees
    · exact ⟨A, a, hA, rfl, fun _ => rfl⟩
    · exact ⟨A.map deg2rad, _, hA.map deg2rad, rfl, fun _ => rfl⟩
  obtain ⟨l, hl⟩ : ∃ l, Bc n na l := by
    by_cases h : n = 1
    · exact ⟨na, .inr h, .inl rfl, .inr rfl⟩
    · exact ⟨n, .inl rfl, by omega, .inl rfl⟩
  have hlk : Bc l ld k := by
    obtain ⟨x1, x2, x3⟩ := hld; obtain ⟨y1, y2, y3⟩ := hl
    exact ⟨by omega, by omega, by omega⟩
  obtain ⟨NB, eNB, hNB⟩ := C52_n_EA_E_distance_and_azimuth2n_EB_E_any hNA.normal hDR.row hA'.row hl hlk R_e
  have hbd : ∀ j < k, bi nd (bi ld j) = bi nd j := fun j hj => bi_bi hld hlk.symm hj
  have hbn : ∀ j < k, bi n (bi ld j) = bi n j := fun j hj => bi_bi hld.symm hlk.symm hj
  have hs1 : s = true → n = 1 := by rintro rfl; exact hP.lat.one
  obtain ⟨nb, hnb⟩ : ∃ nb : ℕ → Nv.Nvector α, ∀ j, nb j = ⟨Nv.n_EA_E_distance_and_azimuth2n_EB_E
      (g (bi n j)).to_nvector.normal (d (bi nd j) / Nv.length (g (bi n j)).to_nvector.to_ecef_vector.pvector) (a' (bi na j)),
      (g (bi n j)).z, (g (bi n j)).frame⟩ := ⟨fun j => _, fun j => rfl⟩
  have hB : IsNvec (s && decide (k = 1)) k ⟨NB, P.z, P.frame⟩ nb := by
    refine ⟨hNB.congr fun j hj => ?_, ?_, fun j hj => ?_⟩
    · simp only [hnb, hbd j hj, hbn j hj]
    · by_cases hkn : k = n
      · subst hkn
        have e : (s && decide (k = 1)) = s := by
          cases s
          · rfl
          · simp [hs1 rfl]
        rw [e]
        exact .inl (hP.z.congr fun j hj => by simp only [hnb, bi_self hj])
      · have hn1 : n = 1 := by omega
        subst hn1
        refine .inr ⟨by simp [hkn], hkn, s, _, hP.z, fun j hj => by simp only [hnb]; rfl⟩
    · simp only [hnb]; exact hP.frame _ (hf.lt (by simp) hj)
  obtain ⟨QB, eQB, hQB⟩ := C60_nvec_to_geo hB hk
  have hPb : IsPos (s && decide (k = 1)) k (.geo QB) (fun j => .geo (nb j).to_geo_point) := .geo hQB fun j _ => rfl
  have hPa : IsPos s n (.ecef EA) (fun j => .ecef (g j).to_nvector.to_ecef_vector) := .ecef hEA fun j _ => rfl
  have hsc : ((s && decide (k = 1)) && s) = (s && decide (k = 1)) := by cases s <;> simp
  have scal : ∀ j < k, (g (bi n j)).displace_great_circle (d (bi nd j)) (a (bi na j)) degrees = (do
      let dl ← Nv.delta_N (.geo (nb j).to_geo_point) (.ecef (g (bi n j)).to_nvector.to_ecef_vector)
      let azimuth_b := base_angle (Nv.azimuth dl.pvector - pi)
      if degrees then pure ((nb j).to_geo_point, rad2deg azimuth_b) else pure ((nb j).to_geo_point, azimuth_b)) := by
    intro j hj
    unfold Nv.GeoPoint.displace_great_circle
    simp only [hnb, ea']
  have arr : P.displace_great_circle D A degrees = (do
      let d ← delta_N (.geo QB) (.ecef EA)
      let azimuth_b := ((← ND.azimuth d.pvector d.scalar).map (· - pi)).map base_angle
      if degrees then pure (QB, azimuth_b.map rad2deg) else pure (QB, azimuth_b)) := by
    unfold GeoPoint.displace_great_circle
    simp only [eNA, eEA, hLs, eDR, eA', eNB, eQB, bind, Except.bind]
  rcases C60_delta_N hPb hPa (⟨.inl rfl, hn0, .inl rfl⟩ : Bc k n k) hk with ⟨V, v, e1, e2, e3⟩ | ⟨e1, e2⟩
  · left
    rw [hsc] at e2
    obtain ⟨⟨mv, lv, cv, fv, hcv, hfv, hbv, hsv, hov, hgv⟩, hV⟩ := e2
    obtain ⟨Z, eZ, hZ, -⟩ := C60_azimuth hV hov
    have hZ' := (hZ.map (· - pi)).map base_angle
    have e4 : ∀ j < k, Nv.delta_N (.geo (nb j).to_geo_point) (.ecef (g (bi n j)).to_nvector.to_ecef_vector) = .ok (v j) := by
      intro j hj
      have := e3 j hj
      simp only [bi_self hj] at this
      exact this
    rw [← hsv] at eZ
    cases degrees
    · refine ⟨QB, (Z.map (· - pi)).map base_angle, fun j => ((nb j).to_geo_point, base_angle (Nv.azimuth (v j).pvector - pi)),
        ?_, hQB, hZ', fun j hj => ?_⟩
      · rw [arr]; simp only [e1, eZ, bind, Except.bind]; rfl
      · rw [scal j hj]; simp only [e4 j hj, bind, Except.bind]; rfl
    · refine ⟨QB, ((Z.map (· - pi)).map base_angle).map rad2deg,
        fun j => ((nb j).to_geo_point, rad2deg (base_angle (Nv.azimuth (v j).pvector - pi))),
        ?_, hQB, hZ'.map rad2deg, fun j hj => ?_⟩
      · rw [arr]; simp only [e1, eZ, bind, Except.bind]; rfl
      · rw [scal j hj]; simp only [e4 j hj, bind, Except.bind]; rfl
  · right
    refine ⟨by rw [arr, e1]; rfl, fun j hj => ?_⟩
    rw [scal j hj]
    have := e2 j hj
    simp only [bi_self hj] at this
    rw [this]; rfl

/-- the angles between `n` and `m` n-vectors that `great_circle_distance` multiplies by the radius: `n` times as many as
there are pairs -/
theorem theta_any {A B : Arr α} {n m k : ℕ} {c d : ℕ → V3 α} (hA : IsCols A n c) (hB : IsCols B m d) (hk : Bc n m k) :
    ∃ T : Arr α, T.shape = [n * k] ∧ (∀ R, great_circle_distanceA A B R = map2 (· * ·) T R) ∧
      (n = 1 → ∀ j < k, T.get [j] = arctan2 (norm3 (cross3 (c 0) (d (bi m j)))) (dot3 (c 0) (d (bi m j)))) := by
  obtain ⟨C, eC, hC⟩ := cross0_cols hA hB hk
  obtain ⟨N, eN, hN⟩ := norm0_cols hC
  obtain ⟨D, eD, sD, hD⟩ := dot_T_cols hA hB
  obtain ⟨Y, eY, sY, hY⟩ : ∃ Y, map2 arctan2 N D = .ok Y ∧ Y.shape = [n, k] ∧ ∀ i < n, ∀ j < k, Y.get [i, j] =
      arctan2 (norm3 (cross3 (c (bi n j)) (d (bi m j)))) (dot3 (c i) (d (bi m j))) := by
    unfold map2
    rw [hN.shape, sD, bshape_12, bdim_ok hk.rightk.symm]
    refine ⟨_, rfl, rfl, fun i hi j hj => ?_⟩
    simp only [bidx_12, bidx_22]
    rw [hN.val _ (by rw [bi_self hj]; exact hj), hD _ (by rw [bi_self hi]; exact hi) _ (hk.lt' hj), bi_self hj, bi_self hi]
  obtain ⟨s, v⟩ := ravel_22 (A := Y) sY
  refine ⟨Y.ravel, s, fun R => ?_, fun h1 j hj => ?_⟩
  · unfold great_circle_distanceA
    simp only [eC, eN, eD, eY, bind, Except.bind]
  · subst h1
    have := v 0 (by norm_num) j hj
    rw [zero_mul, zero_add] at this
    rw [this, hY 0 (by norm_num) j hj]; rfl

/-- one position A -/
theorem great_circle_one {A B R : Arr α} {m l k : ℕ} {t : Bool} {c d : ℕ → V3 α} {r : ℕ → α} (hA : IsCols A 1 c)
    (hB : IsCols B m d) (hR : IsVal t R l r) (hb : Bc m l k) :
    ∃ X, great_circle_distanceA A B R = .ok X ∧
      IsVec X k (fun j => Nv.great_circle_distance (c 0) (d (bi m j)) (r (bi l j))) := by
  obtain ⟨T, sT, eT, vT⟩ := theta_any hA hB (.one' m)
  have hT : IsVal false T m (fun j => arctan2 (norm3 (cross3 (c 0) (d j))) (dot3 (c 0) (d j))) :=
    ⟨by rw [sT, one_mul], fun j hj => by rw [vT rfl j hj, bi_self hj]⟩
  obtain ⟨X, eX, hX⟩ := map2_vals (· * ·) hT hR hb
  exact ⟨X, by rw [eT, eX], hX⟩

omit [PyFloat α] in
theorem map2_error {β γ : Type} {A : Arr α} {B : Arr β} {n m : ℕ} (f : α → β → γ) (hA : A.shape = [n]) (hB : B.shape = [m])
    (h : n ≠ m) (h1 : n ≠ 1) (h2 : m ≠ 1) : map2 f A B = .error .ValueError := by
  unfold map2
  rw [hA, hB, bshape_11, bdim_error h h1 h2]; rfl

/-- `n ≥ 2` positions A and a radius per pair -/
theorem great_circle_many {A B R : Arr α} {n m k : ℕ} {c d : ℕ → V3 α} (hA : IsCols A n c) (hB : IsCols B m d)
    (hk : Bc n m k) (hR : R.shape = [k]) (hn : 2 ≤ n) (hm : 0 < m) : great_circle_distanceA A B R = .error .ValueError := by
  obtain ⟨T, sT, eT, -⟩ := theta_any hA hB hk
  have hk2 : 2 ≤ k := by obtain ⟨b1, b2, b3⟩ := hk; omega
  rw [eT]
  refine map2_error _ sT hR (fun h => ?_) (fun h => ?_) (by omega) <;> nlinarith

/-- **C65** `distance_and_azimuth(method='greatcircle')` from one position to one or several -/
theorem C65_distance_and_azimuth_greatcircle_partial {s t : Bool} {m : ℕ} {P : GeoPoint α} {g} {Q : Position α} {q}
    (hP : IsGeo s 1 P g) (hQ : IsPos t m Q q) (hm : 0 < m) (degrees : Bool) :
    (∃ X Y Z, ∃ r : ℕ → α × α × α, P.distance_and_azimuth_greatcircle Q degrees = .ok (X, Y, Z) ∧
      IsVal (s && t) X m (fun j => (r j).1) ∧ IsVal (s && t) Y m (fun j => (r j).2.1) ∧ IsVal (s && t) Z m (fun j => (r j).2.2) ∧
      ∀ j < m, (g 0).distance_and_azimuth_greatcircle (q j) degrees = .ok (r j)) ∨
    (P.distance_and_azimuth_greatcircle Q degrees = .error .ValueError ∧
      ∀ j < m, (g 0).distance_and_azimuth_greatcircle (q j) degrees = .error .ValueError) := by
  obtain ⟨NA, eNA, hNA⟩ := C60_geo_to_nvector hP
  obtain ⟨NB, eNB, hNB⟩ := C60_to_nvector hQ hm
  obtain ⟨EA, eEA, hEA⟩ := C60_nvec_to_ecef hNA (by norm_num)
  obtain ⟨EB, eEB, hEB⟩ := C60_nvec_to_ecef hNB hm
  obtain ⟨LA, eLA, hLA⟩ := C60_length hEA.pvector hEA.one
  obtain ⟨LB, eLB, hLB⟩ := C60_length hEB.pvector hEB.one
  rw [← hEA.scalar] at eLA
  rw [← hEB.scalar] at eLB
  obtain ⟨S, eS, hS⟩ := map2_vals (· + ·) hLA hLB (.one' m)
  have hR := hS.map (lit 0.5 * ·)
  obtain ⟨X, eX, hX⟩ := great_circle_one hNA.normal hNB.normal hR (.self m)
  have hPa : IsPos s 1 (.ecef EA) (fun j => .ecef (g j).to_nvector.to_ecef_vector) := .ecef hEA fun j _ => rfl
  have hPb : IsPos t m (.ecef EB) (fun j => .ecef (q j).to_nvector.to_ecef_vector) := .ecef hEB fun j _ => rfl
  have arr : P.distance_and_azimuth_greatcircle Q degrees = (do
      let d_ab ← delta_N (.ecef EA) (.ecef EB)
      let azimuth_a ← ND.azimuth d_ab.pvector d_ab.scalar
      let d_ba ← delta_N (.ecef EB) (.ecef EA)
      let azimuth_b := ((← ND.azimuth d_ba.pvector d_ba.scalar).map (· - pi)).map base_angle
      let azimuth_a := if degrees then azimuth_a.map rad2deg else azimuth_a
      let azimuth_b := if degrees then azimuth_b.map rad2deg else azimuth_b
      if (S.map (lit 0.5 * ·)).shape = [] then pure (← X.row 0, azimuth_a, azimuth_b) else pure (X, azimuth_a, azimuth_b)) := by
    unfold GeoPoint.distance_and_azimuth_greatcircle
    simp only [eNA, eNB, eEA, eEB, eLA, eLB, eS, eX, bind, Except.bind]
  rcases C60_delta_N hPa hPb (.one' m) hm with ⟨V, v, e1, ⟨e2, e3⟩, e4⟩ | ⟨e1, e2⟩
  · rcases C60_delta_N hPb hPa (.one m) hm with ⟨W, w, f1, ⟨f2, f3⟩, f4⟩ | ⟨f1, f2⟩
    · left
      obtain ⟨-, -, -, -, -, -, -, hsv, hov, -⟩ := e2
      obtain ⟨-, -, -, -, -, -, -, hsw, how, -⟩ := f2
      obtain ⟨Y, eY, hY, -⟩ := C60_azimuth e3 hov
      obtain ⟨Z, eZ, hZ, -⟩ := C60_azimuth f3 how
      rw [← hsv] at eY
      rw [← hsw] at eZ
      rw [Bool.and_comm] at hZ
      have hZ' := (hZ.map (· - pi)).map base_angle
      obtain ⟨X', eX', hX'⟩ : ∃ X' : Arr α, (if (S.map (lit 0.5 * ·)).shape = [] then X.row 0 else .ok X) = .ok X' ∧
          IsVal (s && t) X' m (fun j => Nv.great_circle_distance (g 0).to_nvector.normal (q j).to_nvector.normal
            (lit 0.5 * (Nv.length (g 0).to_nvector.to_ecef_vector.pvector + Nv.length (q j).to_nvector.to_ecef_vector.pvector))) := by
        rw [hR.shape]
        have hX2 := hX.congr (c' := fun j => Nv.great_circle_distance (g 0).to_nvector.normal (q j).to_nvector.normal
            (lit 0.5 * (Nv.length (g 0).to_nvector.to_ecef_vector.pvector + Nv.length (q j).to_nvector.to_ecef_vector.pvector)))
            (fun j hj => by simp only [bi_self hj, bi_one])
        cases hst : (s && t) with
        | false => exact ⟨X, rfl, hX2⟩
        | true =>
          have : m = 1 := by rw [hst] at hR; exact hR.one
          subst this
          obtain ⟨X', e, h⟩ := row0_scalar hX2
          exact ⟨X', e, h⟩
      refine ⟨X', if degrees then Y.map rad2deg else Y,
        if degrees then ((Z.map (· - pi)).map base_angle).map rad2deg else (Z.map (· - pi)).map base_angle,
        fun j => (Nv.great_circle_distance (g 0).to_nvector.normal (q j).to_nvector.normal
            (lit 0.5 * (Nv.length (g 0).to_nvector.to_ecef_vector.pvector + Nv.length (q j).to_nvector.to_ecef_vector.pvector)),
          if degrees then rad2deg (Nv.azimuth (v j).pvector) else Nv.azimuth (v j).pvector,
          if degrees then rad2deg (base_angle (Nv.azimuth (w j).pvector - pi)) else base_angle (Nv.azimuth (w j).pvector - pi)),
        ?_, hX', ?_, ?_, fun j hj => ?_⟩
      · rw [arr]
        simp only [e1, eY, f1, eZ, bind, Except.bind]
        revert eX'
        split
        · intro h; rw [h]; rfl
        · intro h; cases h; rfl
      · cases degrees
        · exact hY
        · exact hY.map rad2deg
      · cases degrees
        · exact hZ'
        · exact hZ'.map rad2deg
      · unfold Nv.GeoPoint.distance_and_azimuth_greatcircle
        have e5 := e4 j hj
        have f5 := f4 j hj
        simp only [bi_self hj, bi_one] at e5 f5
        simp only [e5, f5, bind, Except.bind]
        cases degrees <;> rfl
    · right
      obtain ⟨-, -, -, -, -, -, -, hsv, hov, -⟩ := e2
      obtain ⟨Y, eY, hY, -⟩ := C60_azimuth e3 hov
      rw [← hsv] at eY
      refine ⟨?_, fun j hj => ?_⟩
      · rw [arr]
        simp only [e1, eY, f1, bind, Except.bind]
      · unfold Nv.GeoPoint.distance_and_azimuth_greatcircle
        have e5 := e4 j hj
        have f5 := f2 j hj
        simp only [bi_self hj, bi_one] at e5 f5
        simp only [e5, f5, bind, Except.bind]
  · right
    refine ⟨by rw [arr, e1]; rfl, fun j hj => ?_⟩
    unfold Nv.GeoPoint.distance_and_azimuth_greatcircle
    have e5 := e2 j hj
    simp only [bi_self hj, bi_one] at e5
    simp only [e5, bind, Except.bind]

/-- **C65** is false for the great circle method and a vector of two or more positions: the call raises `ValueError` whatever
the other point is -/
theorem C65_distance_and_azimuth_greatcircle_counterexample {s t : Bool} {n m k : ℕ} {P : GeoPoint α} {g} {Q : Position α} {q}
    (hP : IsGeo s n P g) (hQ : IsPos t m Q q) (hb : Bc n m k) (hn : 2 ≤ n) (hm : 0 < m) (degrees : Bool) :
    P.distance_and_azimuth_greatcircle Q degrees = .error .ValueError := by
  have hs : s = false := by
    cases s
    · rfl
    · have := hP.lat.one; omega
  obtain ⟨NA, eNA, hNA⟩ := C60_geo_to_nvector hP
  obtain ⟨NB, eNB, hNB⟩ := C60_to_nvector hQ hm
  obtain ⟨EA, eEA, hEA⟩ := C60_nvec_to_ecef hNA (by omega)
  obtain ⟨EB, eEB, hEB⟩ := C60_nvec_to_ecef hNB hm
  obtain ⟨LA, eLA, hLA⟩ := C60_length hEA.pvector hEA.one
  obtain ⟨LB, eLB, hLB⟩ := C60_length hEB.pvector hEB.one
  rw [← hEA.scalar] at eLA
  rw [← hEB.scalar] at eLB
  obtain ⟨S, eS, hS⟩ := map2_vals (· + ·) hLA hLB hb
  have hR := hS.map (lit 0.5 * ·)
  have eX := great_circle_many hNA.normal hNB.normal hb (by rw [hR.shape, hs]; rfl) hn hm
  unfold GeoPoint.distance_and_azimuth_greatcircle
  simp only [eNA, eNB, eEA, eEB, eLA, eLB, eS, eX, bind, Except.bind]

/-! ## the public methods -/

/-- **C65** `displace` on vectors: whenever the calls on the elements succeed, so does the call on the vectors, and element `j`
of its results is the result of the call on element `j` of the position, the distances and the azimuths -/
theorem C65_displace {s sd sa : Bool} {n nd na k : ℕ} {P : GeoPoint α} {g} {D A : Arr α} {d a : ℕ → α}
    (hP : IsGeo s n P g) (hD : IsVal sd D nd d) (hA : IsVal sa A na a) (hf : Spec.Fits k [n, nd, na]) (hk : 0 < k)
    (G : Geodesic α) (long_unroll degrees : Bool) (method : String) {q : ℕ → Nv.GeoPoint α × α}
    (hq : ∀ j < k, (g (bi n j)).displace G (d (bi nd j)) (a (bi na j)) long_unroll degrees method = .ok (q j)) :
    ∃ Q B t, P.displace G D A long_unroll degrees method = .ok (Q, B) ∧ IsGeo t k Q (fun j => (q j).1) ∧
      IsVal t B k (fun j => (q j).2) ∧ t = if strTake method 1 = "e" then s && sd && sa else s && decide (k = 1) := by
  unfold GeoPoint.displace
  unfold Nv.GeoPoint.displace at hq
  by_cases hm : strTake method 1 = "e"
  · simp only [hm, if_true] at hq ⊢
    obtain ⟨Q, B, h1, h2, h3⟩ := C65_displace_ellipsoid hP hD hA hf hk G long_unroll degrees hq
    exact ⟨Q, B, _, h1, h2, h3, rfl⟩
  · simp only [hm, if_false] at hq ⊢
    rcases C65_displace_great_circle hP hD hA hf hk degrees with ⟨Q, B, q', h1, h2, h3, h4⟩ | ⟨h1, h2⟩
    · have e : ∀ j < k, q' j = q j := fun j hj => by
        have := h4 j hj; rw [hq j hj] at this; exact (Except.ok.inj this).symm
      exact ⟨Q, B, _, h1, h2.congr fun j hj => by rw [e j hj], h3.congr fun j hj => by rw [e j hj], rfl⟩
    · have := h2 0 hk; rw [hq 0 hk] at this; cases this

/-- **C65** `distance_and_azimuth` on vectors, for the ellipsoid method, and for the great circle method from one position -/
theorem C65_distance_and_azimuth_partial {s t : Bool} {n m k : ℕ} {P : GeoPoint α} {g} {Q : Position α} {q}
    (hP : IsGeo s n P g) (hQ : IsPos t m Q q) (hb : Bc n m k) (hk : 0 < k)
    (G : Geodesic α) (long_unroll degrees : Bool) (method : String) {r : ℕ → α × α × α}
    (hm : method.toList.head? = some 'e' ∨ n = 1)
    (hr : ∀ j < k, (g (bi n j)).distance_and_azimuth G (q (bi m j)) long_unroll degrees method = .ok (r j)) :
    ∃ X Y Z, P.distance_and_azimuth G Q long_unroll degrees method = .ok (X, Y, Z) ∧
      IsVal (s && t) X k (fun j => (r j).1) ∧ IsVal (s && t) Y k (fun j => (r j).2.1) ∧ IsVal (s && t) Z k (fun j => (r j).2.2) := by
  have hc : ∀ j < k, Nv.check_frames_pos (g (bi n j)).frame (q (bi m j)) = check_frames_pos P.frame Q := fun j hj => by
    rw [hP.frame _ (hb.lt hj), ← check_frames_pos_eq hQ P.frame (hb.lt' hj)]
  have hc0 : check_frames_pos P.frame Q = .ok () := by
    have := hr 0 hk
    unfold Nv.GeoPoint.distance_and_azimuth at this
    rw [hc 0 hk] at this
    cases h : check_frames_pos P.frame Q with
    | ok u => rfl
    | error e => rw [h] at this; cases this
  unfold GeoPoint.distance_and_azimuth
  rw [hc0]
  cases hl : method.toList with
  | nil =>
    exfalso
    have := hr 0 hk
    unfold Nv.GeoPoint.distance_and_azimuth at this
    rw [hc 0 hk, hc0, hl] at this
    cases this
  | cons ch cs =>
    have hr' : ∀ j < k, (if ch = 'e' then (g (bi n j)).distance_and_azimuth_ellipsoid G (q (bi m j)) long_unroll degrees
        else (g (bi n j)).distance_and_azimuth_greatcircle (q (bi m j)) degrees) = .ok (r j) := by
      intro j hj
      have := hr j hj
      unfold Nv.GeoPoint.distance_and_azimuth at this
      rw [hc j hj, hc0, hl] at this
      exact this
    simp only [bind, Except.bind]
    by_cases he : ch = 'e'
    · simp only [he, if_true] at hr' ⊢
      exact C65_distance_and_azimuth_ellipsoid hP hQ hb hk G long_unroll degrees hr'
    · simp only [he, if_false] at hr' ⊢
      have hn1 : n = 1 := by
        rcases hm with h | h
        · rw [hl] at h; simp at h; exact absurd h he
        · exact h
      subst hn1
      obtain rfl : k = m := by obtain ⟨b1, b2, b3⟩ := hb; omega
      rcases C65_distance_and_azimuth_greatcircle_partial hP hQ hk degrees with ⟨X, Y, Z, r', h1, h2, h3, h4, h5⟩ | ⟨h1, h2⟩
      · have e : ∀ j < k, r' j = r j := fun j hj => by
          have := hr' j hj; rw [bi_self hj, bi_one, h5 j hj] at this; exact Except.ok.inj this
        exact ⟨X, Y, Z, h1, h2.congr fun j hj => by rw [e j hj], h3.congr fun j hj => by rw [e j hj],
          h4.congr fun j hj => by rw [e j hj]⟩
      · have := hr' 0 hk; rw [bi_self hk, bi_one, h2 0 hk] at this; cases this

/-- **C65** with any other method and `n ≥ 2` positions the call always raises `ValueError` -/
theorem C65_distance_and_azimuth_counterexample {s t : Bool} {n m k : ℕ} {P : GeoPoint α} {g} {Q : Position α} {q}
    (hP : IsGeo s n P g) (hQ : IsPos t m Q q) (hb : Bc n m k) (hn : 2 ≤ n) (hm : 0 < m)
    (G : Geodesic α) (long_unroll degrees : Bool) (method : String) (ch : Char) (cs : List Char)
    (hl : method.toList = ch :: cs) (hc : ch ≠ 'e') (hf : check_frames_pos P.frame Q = .ok ()) :
    P.distance_and_azimuth G Q long_unroll degrees method = .error .ValueError := by
  unfold GeoPoint.distance_and_azimuth
  rw [hf, hl]
  simp only [bind, Except.bind, hc, if_false]
  exact C65_distance_and_azimuth_greatcircle_counterexample hP hQ hb hn hm degrees

end
end Nv.ND
