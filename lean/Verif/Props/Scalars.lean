import Verif.Props.Columns
import Verif.Spec.ArrayObjects

/-!
# C60: scalar positions stay scalar, vectors of n positions stay vectors of n positions
-/

namespace Nv.ND
open PyFloat

section
variable {α β γ : Type}

/-! ## values -/

theorem IsVal.row {s : Bool} {A : Arr α} {n : ℕ} {r} (h : IsVal s A n r) : IsRow A n r := by
  cases s
  · exact IsVec.row h
  · exact .inl h

theorem IsVal.one {A : Arr α} {n : ℕ} {r} (h : IsVal true A n r) : n = 1 := h.2.1

theorem IsVal.congr {s : Bool} {A : Arr α} {n : ℕ} {r r' : ℕ → α} (h : IsVal s A n r) (hc : ∀ j < n, r j = r' j) :
    IsVal s A n r' := by
  cases s
  · exact IsVec.congr h hc
  · obtain ⟨h1, h2, h3⟩ := h
    exact ⟨h1, h2, by rw [h3, hc 0 (by omega)]⟩

theorem IsVal.shape {s : Bool} {A : Arr α} {n : ℕ} {r} (h : IsVal s A n r) : A.shape = if s then [] else [n] := by
  cases s
  · exact IsVec.shape h
  · exact h.1

theorem IsVal.map {s : Bool} {A : Arr α} {n : ℕ} {r} (h : IsVal s A n r) (f : α → β) : IsVal s (A.map f) n (fun j => f (r j)) := by
  cases s
  · exact IsVec.map h f
  · exact ⟨h.1, h.2.1, congrArg f h.2.2⟩

theorem IsVal.scalar (x : α) : IsVal true (ND.scalar x) 1 (fun _ => x) := ⟨rfl, rfl, rfl⟩

/-- an element read through broadcasting to a vector or to a scalar -/
theorem IsVal.read {s : Bool} {A : Arr α} {n : ℕ} {r} (h : IsVal s A n r) {j : ℕ} (hj : bi n j < n) :
    A.get (bidx A.shape [j]) = r (bi n j) := by
  cases s
  · have h : IsVec A n r := h
    rw [h.shape, bidx_11, h.val _ hj]
  · obtain ⟨h1, rfl, h3⟩ := h
    rw [h1, bidx_0, h3, bi_one]

theorem bshape_vals {s t : Bool} {A : Arr α} {B : Arr β} {n m k : ℕ} {q r} (hA : IsVal s A n q) (hB : IsVal t B m r)
    (h : Bc n m k) : bshape A.shape B.shape = .ok (if s && t then [] else [k]) := by
  rw [hA.shape, hB.shape]
  cases s <;> cases t
  · simp only [Bool.false_eq_true, if_false, bshape_11, bdim_ok h]; rfl
  · obtain rfl := hB.one
    obtain rfl : k = n := by obtain ⟨h1, h2, h3⟩ := h; omega
    exact bshape_n0 _
  · obtain rfl := hA.one
    obtain rfl : k = m := by obtain ⟨h1, h2, h3⟩ := h; omega
    exact bshape_0n _
  · rfl

/-- operators on scalars and vectors: the result is a scalar if both are -/
theorem map2_vals {s t : Bool} {A : Arr α} {B : Arr β} {n m k : ℕ} {q r} (f : α → β → γ) (hA : IsVal s A n q)
    (hB : IsVal t B m r) (h : Bc n m k) :
    ∃ X, map2 f A B = .ok X ∧ IsVal (s && t) X k (fun j => f (q (bi n j)) (r (bi m j))) := by
  refine ⟨⟨if s && t then [] else [k], fun i => f (A.get (bidx A.shape i)) (B.get (bidx B.shape i))⟩, ?_, ?_⟩
  · unfold map2; rw [bshape_vals hA hB h]; rfl
  · have hv : ∀ j < k, f (A.get (bidx A.shape [j])) (B.get (bidx B.shape [j])) = f (q (bi n j)) (r (bi m j)) :=
      fun j hj => by rw [hA.read (h.lt hj), hB.read (h.lt' hj)]
    cases s <;> cases t
    · exact ⟨rfl, hv⟩
    · exact ⟨rfl, hv⟩
    · exact ⟨rfl, hv⟩
    · obtain ⟨a1, rfl, a3⟩ := hA
      obtain ⟨b1, rfl, b3⟩ := hB
      obtain rfl : k = 1 := by obtain ⟨h1, h2, h3⟩ := h; omega
      refine ⟨rfl, rfl, ?_⟩
      simp only [a1, b1, bidx_0, a3, b3, bi_one]

theorem broadcast_val {s s' : Bool} {A : Arr α} {n k : ℕ} {r} (hA : IsVal s A n r) (h : n = k ∨ n = 1)
    (hs : s' = true → s = true ∧ k = 1) :
    IsVal s' (A.broadcastTo (if s' then [] else [k])) k (fun j => r (bi n j)) := by
  cases s'
  · refine ⟨rfl, fun j hj => ?_⟩
    exact hA.read (by unfold bi; split <;> omega)
  · obtain ⟨rfl, rfl⟩ := hs rfl
    obtain ⟨h1, rfl, h3⟩ := hA
    refine ⟨rfl, rfl, ?_⟩
    show A.get (bidx A.shape []) = _
    rw [h1, bidx_0, h3]; rfl

/-- `A[0]` of a vector of one element is a scalar -/
theorem row0_scalar {A : Arr α} {r} (h : IsVec A 1 r) : ∃ X, A.row 0 = .ok X ∧ IsVal true X 1 r := by
  unfold Arr.row
  rw [h.shape]
  exact ⟨_, rfl, rfl, rfl, h.val 0 (by norm_num)⟩

theorem IsDepth.row {s : Bool} {A : Arr α} {n : ℕ} {r : ℕ → α} (h : IsDepth s A n r) :
    ∃ (t : Bool) (m : ℕ) (r' : ℕ → α), IsVal t A m r' ∧ (m = n ∨ m = 1) ∧ (∀ j < n, r' (bi m j) = r j) ∧
      (s = true → t = true) ∧ (t = true → n = 1 → s = true) := by
  rcases h with h | ⟨hs, hn, t, z, h0, hv⟩
  · refine ⟨s, n, r, h, .inl rfl, fun j hj => by rw [bi_self hj], id, fun h _ => h⟩
  · exact ⟨t, 1, z, h0, .inr rfl, fun j hj => hv j hj, fun h => absurd (hs.symm.trans h) (by simp), fun _ h => absurd h hn⟩

theorem IsDepth.one {A : Arr α} {n : ℕ} {r : ℕ → α} (h : IsDepth true A n r) : n = 1 := by
  rcases h with h | ⟨h, -⟩
  · exact h.one
  · cases h
theorem IsDepth.congr {s : Bool} {A : Arr α} {n : ℕ} {r r' : ℕ → α} (h : IsDepth s A n r) (hc : ∀ j < n, r j = r' j) :
    IsDepth s A n r' := by
  rcases h with h | ⟨hs, hn, t, z, h0, hv⟩
  · exact .inl (h.congr hc)
  · exact .inr ⟨hs, hn, t, z, h0, fun j hj => (hv j hj).trans (hc j hj)⟩
end

section
variable {α : Type} [PyFloat α]

/-! ## constructors -/

/-- **C60** `GeoPoint(latitude, longitude, z)`: scalars give a scalar position, otherwise the vectors (and scalars) are
combined to a vector of positions -/
theorem C60_GeoPoint {lat lon z : Arr α} {s1 s2 s3 : Bool} {n1 n2 n3 m k : ℕ} {p q r : ℕ → α} (h1 : IsVal s1 lat n1 p)
    (h2 : IsVal s2 lon n2 q) (h3 : IsVal s3 z n3 r) (hm : Bc n1 n2 m) (hk : Bc m n3 k) (F : FrameE α) (degrees : Bool) :
    ∃ P, GeoPoint.new lat lon z F degrees = .ok P ∧
      IsGeo (s1 && s2 && s3) k P (fun j => Nv.GeoPoint.new (p (bi n1 j)) (q (bi n2 j)) (r (bi n3 j)) F degrees) := by
  have key : ∀ {lat lon : Arr α} {p q : ℕ → α}, IsVal s1 lat n1 p → IsVal s2 lon n2 q →
      ∃ P, (do
        let s ← bshape lat.shape lon.shape
        let s ← bshape s z.shape
        pure (⟨lat.broadcastTo s, lon.broadcastTo s, z.broadcastTo s, F⟩ : GeoPoint α)) = .ok P ∧
      IsGeo (s1 && s2 && s3) k P (fun j => ⟨p (bi n1 j), q (bi n2 j), r (bi n3 j), F⟩) := by
    intro lat lon p q h1 h2
    have e1 := bshape_vals h1 h2 hm
    obtain ⟨X, eX, hX⟩ := map2_vals (fun a _ => a) h1 h2 hm
    have e2 : bshape (if s1 && s2 then [] else [m]) z.shape = .ok (if s1 && s2 && s3 then [] else [k]) := by
      rw [← hX.shape]; exact bshape_vals hX h3 hk
    refine ⟨⟨lat.broadcastTo (if s1 && s2 && s3 then [] else [k]), lon.broadcastTo (if s1 && s2 && s3 then [] else [k]),
      z.broadcastTo (if s1 && s2 && s3 then [] else [k]), F⟩, by simp only [e1, e2, bind, Except.bind, pure, Except.pure],
      ?_, ?_, ?_, fun _ _ => rfl⟩
    · refine broadcast_val h1 ?_ ?_
      · obtain ⟨a1, a2, a3⟩ := hm; obtain ⟨b1, b2, b3⟩ := hk; omega
      · intro h
        simp only [Bool.and_eq_true] at h
        obtain ⟨⟨rfl, rfl⟩, rfl⟩ := h
        have := h1.one; have := h2.one; have := h3.one
        obtain ⟨a1, a2, a3⟩ := hm; obtain ⟨b1, b2, b3⟩ := hk
        exact ⟨rfl, by omega⟩
    · refine broadcast_val h2 ?_ ?_
      · obtain ⟨a1, a2, a3⟩ := hm; obtain ⟨b1, b2, b3⟩ := hk; omega
      · intro h
        simp only [Bool.and_eq_true] at h
        obtain ⟨⟨rfl, rfl⟩, rfl⟩ := h
        have := h1.one; have := h2.one; have := h3.one
        obtain ⟨a1, a2, a3⟩ := hm; obtain ⟨b1, b2, b3⟩ := hk
        exact ⟨rfl, by omega⟩
    · refine broadcast_val h3 ?_ ?_
      · obtain ⟨b1, b2, b3⟩ := hk; omega
      · intro h
        simp only [Bool.and_eq_true] at h
        obtain ⟨⟨rfl, rfl⟩, rfl⟩ := h
        have := h1.one; have := h2.one; have := h3.one
        obtain ⟨a1, a2, a3⟩ := hm; obtain ⟨b1, b2, b3⟩ := hk
        exact ⟨rfl, by omega⟩
  unfold GeoPoint.new
  cases degrees
  · simp only [Nv.GeoPoint.new, Bool.false_eq_true, if_false]; exact key h1 h2
  · simp only [Nv.GeoPoint.new, if_true]; exact key (h1.map deg2rad) (h2.map deg2rad)

omit [PyFloat α] in
/-- **C60** a GeoPoint is a scalar position exactly when it says so -/
theorem C60_geo_scalar {s : Bool} {n : ℕ} {P : GeoPoint α} {g} (h : IsGeo s n P g) : P.scalar = s := by
  unfold GeoPoint.scalar
  rw [h.lat.shape, h.lon.shape, h.z.shape]
  cases s
  · simp
  · simp [prod]

omit [PyFloat α] in
/-- **C60** an Nvector is a scalar position exactly when it says so -/
theorem C60_nvec_scalar {s : Bool} {n : ℕ} {P : Nvector α} {g} (h : IsNvec s n P g) : P.isScalar = .ok s := by
  unfold Nvector.isScalar oneColumn
  rw [h.normal.shape]
  rcases h.z with hz | ⟨hs, hn, t, z, h0, -⟩
  · rw [hz.shape]
    cases s
    · simp
    · have := hz.one; simp [this]
  · rw [h0.shape, hs]; cases t <;> simp [hn]

omit [PyFloat α] in
/-- **C60** `ECEFvector(p)` and `frame.Pvector(p)` are scalar positions exactly when `p` has one column -/
theorem C60_ECEFvector {A : Arr α} {n : ℕ} {c : ℕ → V3 α} (hA : IsCols A n c) (F : FrameE α) :
    ∃ P, ECEFvector.new A F = .ok P ∧ IsEcef (n = 1) n P (fun j => ⟨c j, F⟩) := by
  refine ⟨⟨A, F, n = 1⟩, ?_, hA, rfl, fun h => by simpa using h, fun _ _ => rfl⟩
  unfold ECEFvector.new oneColumn
  rw [hA.shape]
  rfl

/-! ## conversions -/

/-- **C60** GeoPoint → Nvector -/
theorem C60_geo_to_nvector {s : Bool} {n : ℕ} {P : GeoPoint α} {g} (h : IsGeo s n P g) :
    ∃ Q, P.to_nvector = .ok Q ∧ IsNvec s n Q (fun j => (g j).to_nvector) := by
  obtain ⟨X, eX, hX⟩ := C52_lat_lon2n_E h.lat.row h.lon.row (.inl rfl) P.frame.R_Ee
  refine ⟨⟨X, P.z, P.frame⟩, ?_, ?_, ?_, ?_⟩
  · unfold GeoPoint.to_nvector; rw [eX]; rfl
  · exact hX.congr fun j hj => by unfold Nv.GeoPoint.to_nvector; simp only [bi_self hj, h.frame j hj]
  · exact .inl h.z
  · exact h.frame

/-- **C60** Nvector → ECEFvector -/
theorem C60_nvec_to_ecef {s : Bool} {n : ℕ} {P : Nvector α} {g} (h : IsNvec s n P g) (hn : 0 < n) :
    ∃ Q, P.to_ecef_vector = .ok Q ∧ IsEcef s n Q (fun j => (g j).to_ecef_vector) := by
  obtain ⟨t, m, r', hz, hm, hr, -, -⟩ := h.z.row
  obtain ⟨X, eX, hX⟩ := C52_n_EB_E2p_EB_E h.normal hz.row hn ⟨.inl rfl, hm, .inl rfl⟩ P.frame.a P.frame.f P.frame.R_Ee
  refine ⟨⟨X, P.frame, s⟩, ?_, ?_, rfl, ?_, h.frame⟩
  · unfold Nvector.to_ecef_vector; rw [eX, C60_nvec_scalar h]; rfl
  · exact hX.congr fun j hj => by unfold Nv.Nvector.to_ecef_vector; simp only [bi_self hj, h.frame j hj, hr j hj]
  · rintro rfl; exact h.z.one

/-- **C60** Nvector → GeoPoint -/
theorem C60_nvec_to_geo {s : Bool} {n : ℕ} {P : Nvector α} {g} (h : IsNvec s n P g) (hn : 0 < n) :
    ∃ Q, P.to_geo_point = .ok Q ∧ IsGeo s n Q (fun j => (g j).to_geo_point) := by
  obtain ⟨t, m, r', hz, hm, hr, hst, hts⟩ := h.z.row
  obtain ⟨lat, lon, e, hlat, hlon⟩ := C52_n_E2lat_lon h.normal hn P.frame.R_Ee
  have conv : ∀ {s'} {Q : GeoPoint α}, s' = s → IsGeo s' n Q (fun j => Nv.GeoPoint.new ((Nv.n_E2lat_lon (g (bi n j)).normal P.frame.R_Ee).1)
      ((Nv.n_E2lat_lon (g (bi n j)).normal P.frame.R_Ee).2) (r' (bi m j)) P.frame false) →
      IsGeo s n Q (fun j => (g j).to_geo_point) := by
    rintro s' Q rfl hQ
    refine ⟨hQ.lat.congr ?_, hQ.lon.congr ?_, hQ.z.congr ?_, fun j hj => ?_⟩
    · intro j hj; simp only [Nv.GeoPoint.new, Nv.Nvector.to_geo_point, bi_self hj, h.frame j hj, Bool.false_eq_true, if_false]
    · intro j hj; simp only [Nv.GeoPoint.new, Nv.Nvector.to_geo_point, bi_self hj, h.frame j hj, Bool.false_eq_true, if_false]
    · intro j hj
      simp only [Nv.GeoPoint.new, Nv.Nvector.to_geo_point, hr j hj, Bool.false_eq_true, if_false]
    · rw [← hQ.frame j hj]
      simp only [Nv.GeoPoint.new, Nv.Nvector.to_geo_point, h.frame j hj, Bool.false_eq_true, if_false]
  unfold Nvector.to_geo_point
  rw [e, C60_nvec_scalar h]
  cases s
  · obtain ⟨Q, eQ, hQ⟩ := C60_GeoPoint (s1 := false) (s2 := false) hlat hlon hz (.self n) ⟨.inl rfl, hm, .inl rfl⟩ P.frame false
    exact ⟨Q, by simp only [bind, Except.bind, Bool.false_eq_true, if_false, eQ], conv (by simp) hQ⟩
  · obtain rfl := h.z.one
    obtain ⟨la, ela, hla⟩ := row0_scalar hlat
    obtain ⟨lo, elo, hlo⟩ := row0_scalar hlon
    have ht := hst rfl
    subst ht
    obtain ⟨Q, eQ, hQ⟩ := C60_GeoPoint hla hlo hz (.self 1) ⟨.inl rfl, hm, .inl rfl⟩ P.frame false
    exact ⟨Q, by simp only [bind, Except.bind, if_true, ela, elo, eQ], conv (by simp) hQ⟩

/-- **C60** ECEFvector → Nvector -/
theorem C60_ecef_to_nvector {s : Bool} {n : ℕ} {P : ECEFvector α} {g} (h : IsEcef s n P g) :
    ∃ Q, P.to_nvector = .ok Q ∧ IsNvec s n Q (fun j => (g j).to_nvector) := by
  obtain ⟨X, D, e, hX, hD⟩ := C52_p_EB_E2n_EB_E h.pvector P.frame.a P.frame.f P.frame.R_Ee
  have hX' : IsCols X n (fun j => ((g j).to_nvector).normal) :=
    hX.congr fun j hj => by unfold Nv.ECEFvector.to_nvector; simp only [h.frame j hj]
  have hD' : IsVec D n (fun j => ((g j).to_nvector).z) :=
    hD.congr fun j hj => by unfold Nv.ECEFvector.to_nvector; simp only [h.frame j hj]
  have hF : ∀ j < n, ((g j).to_nvector).frame = P.frame := h.frame
  unfold ECEFvector.to_nvector
  rw [e, h.scalar]
  cases s
  · exact ⟨_, rfl, hX', .inl hD', hF⟩
  · obtain rfl := h.one rfl
    obtain ⟨d, ed, hd⟩ := row0_scalar hD'
    refine ⟨⟨X, d, P.frame⟩, ?_, hX', .inl hd, hF⟩
    simp only [bind, Except.bind, if_true, ed]; rfl

/-! ## local frames -/

theorem swap_pages {A : Arr α} {n : ℕ} {M : ℕ → M3 α} (hA : IsPages A n M) :
    ∃ S, swapaxes01 A = .ok S ∧ IsPages S n (fun j => tr (M j)) := by
  have hs := hA.shape
  unfold swapaxes01
  by_cases hn : n = 1
  · rw [if_pos hn] at hs
    rw [hs]
    refine ⟨_, rfl, ?_, fun j hj => ?_⟩
    · rw [if_pos hn]
    · rw [← hA.page j hj]
      simp only [if_pos hn]
      rfl
  · rw [if_neg hn] at hs
    rw [hs]
    refine ⟨_, rfl, ?_, fun j hj => ?_⟩
    · rw [if_neg hn]
    · rw [← hA.page j hj]
      simp only [if_neg hn]
      rfl

theorem tr_tr (M : M3 α) : tr (tr M) = M := rfl

/-- `mdot(M, p[:, None, ...]).reshape(3, -1)` of `n` matrices and `m` columns -/
theorem mdot_cols {A B : Arr α} {n m k : ℕ} {M : ℕ → M3 α} {c : ℕ → V3 α} (hA : IsPages A n M)
    (hB : IsCols B m c) (h : Bc n m k) :
    ∃ B' X Y, B.newaxis1 = .ok B' ∧ mdot A B' = .ok X ∧ X.reshape 3 = .ok Y ∧
      IsCols Y k (fun j => mulVec (M (bi n j)) (c (bi m j))) := by
  obtain ⟨S, eS, hS⟩ := swap_pages hA
  have eT : swapaxes01 S = .ok A := by
    unfold swapaxes01 at eS ⊢
    have hs := hA.shape
    obtain ⟨sh, gt⟩ := A
    simp only at hs eS
    subst hs
    by_cases hn : n = 1
    · simp only [if_pos hn] at eS
      obtain rfl := Except.ok.inj eS
      simp only [if_pos hn, Except.ok.injEq, Arr.mk.injEq, true_and]
      funext idx
      rcases idx with _ | ⟨i, _ | ⟨j, r⟩⟩ <;> rfl
    · simp only [if_neg hn] at eS
      obtain rfl := Except.ok.inj eS
      simp only [if_neg hn, Except.ok.injEq, Arr.mk.injEq, true_and]
      funext idx
      rcases idx with _ | ⟨i, _ | ⟨j, r⟩⟩ <;> rfl
  obtain ⟨B', eB', -⟩ := newaxis1_cols hB
  obtain ⟨X, eX, hXs, hXv⟩ := mdot_swap_cols hS eT hB eB' h
  obtain ⟨Y, eY, hY⟩ := reshape3 hXs
  exact ⟨B', X, Y, eB', eX, eY, hY.congr fun j hj => by rw [hXv j hj, tr_tr]⟩

/-- `mdot` of `n` and `m` matrices -/
theorem mdot_pages {A B : Arr α} {n m k : ℕ} {M N : ℕ → M3 α} (hA : IsPages A n M) (hB : IsPages B m N) (h : Bc n m k) :
    ∃ X, mdot A B = .ok X ∧ IsPages X k (fun j => Nv.mdot (M (bi n j)) (N (bi m j))) := by
  have sA := hA.shape
  have sB := hB.shape
  have pA := fun j (hj : j < n) => hA.page j hj
  have pB := fun j (hj : j < m) => hB.page j hj
  unfold mdot
  by_cases hn : n = 1 <;> by_cases hm : m = 1
  · obtain rfl : k = 1 := by obtain ⟨h1, h2, h3⟩ := h; omega
    rw [if_pos hn] at sA
    rw [if_pos hm] at sB
    rw [sA, sB]
    refine ⟨_, rfl, rfl, fun j hj => ?_⟩
    rw [← pA _ (h.lt hj), ← pB _ (h.lt' hj)]
    simp only [if_pos hn, if_pos hm, if_true, bidx_0]
    rfl
  · obtain rfl : k = m := by obtain ⟨h1, h2, h3⟩ := h; omega
    rw [if_pos hn] at sA
    rw [if_neg hm] at sB
    rw [sA, sB]
    simp only [bshape_0n, if_true, bind, Except.bind, pure, Except.pure]
    refine ⟨_, rfl, by rw [if_neg hm], fun j hj => ?_⟩
    rw [← pA _ (h.lt hj), ← pB _ (h.lt' hj)]
    simp only [if_pos hn, if_neg hm, bidx_0, bidx_11]
    rfl
  · obtain rfl : k = n := by obtain ⟨h1, h2, h3⟩ := h; omega
    rw [if_neg hn] at sA
    rw [if_pos hm] at sB
    rw [sA, sB]
    simp only [bshape_n0, if_true, bind, Except.bind, pure, Except.pure]
    refine ⟨_, rfl, by rw [if_neg hn], fun j hj => ?_⟩
    rw [← pA _ (h.lt hj), ← pB _ (h.lt' hj)]
    simp only [if_neg hn, if_pos hm, bidx_0, bidx_11]
    rfl
  · have hk : k ≠ 1 := by obtain ⟨h1, h2, h3⟩ := h; omega
    rw [if_neg hn] at sA
    rw [if_neg hm] at sB
    rw [sA, sB]
    simp only [bshape_11, bdim_ok h, if_true, bind, Except.bind, pure, Except.pure]
    refine ⟨_, rfl, by rw [if_neg hk], fun j hj => ?_⟩
    rw [← pA _ (h.lt hj), ← pB _ (h.lt' hj)]
    simp only [if_neg hn, if_neg hm, if_neg hk, bidx_11]
    rfl

omit [PyFloat α] in
theorem IsLocal.frame [PyFloat α] {n : ℕ} {F : LocalFrame α} {f} (h : IsLocal n F f) :
    ∀ j < n, (f j).nvector.frame = F.nvector.frame := by
  intro j hj
  cases h with
  | N hp h => rw [h j hj]; exact hp.frame j hj
  | L hp hw hb h => rw [h j hj]; exact hp.frame _ (hb.lt hj)
  | B hp hy ht hr h1 h2 hb h => rw [h j hj]; exact hp.frame _ (hb.lt hj)

theorem Bc.pos {n m k : ℕ} (h : Bc n m k) (hk : 0 < k) : 0 < n ∧ 0 < m := by
  obtain ⟨h1, h2, h3⟩ := h; omega

/-- **C60** the rotation matrices of a local frame are those of its members -/
theorem C60_R_EN {n : ℕ} {F : LocalFrame α} {f} (h : IsLocal n F f) (hn : 0 < n) :
    ∃ X, F.R_EN = .ok X ∧ IsPages X n (fun j => (f j).R_EN) := by
  cases h with
  | N hp h =>
    rename_i s p q
    obtain ⟨X, eX, hX⟩ := C52_n_E2R_EN hp.normal hn p.frame.R_Ee
    refine ⟨X, eX, hX.shape, fun j hj => (hX.page j hj).trans ?_⟩
    rw [h j hj]; unfold Nv.LocalFrame.R_EN; simp only [hp.frame j hj]
  | L hp hw hb h =>
    rename_i s m l p q A w
    obtain ⟨X, eX, hX⟩ := C52_n_E_and_wa2R_EL hp.normal hw (hb.pos hn).1 hb p.frame.R_Ee
    refine ⟨X, eX, hX.shape, fun j hj => (hX.page j hj).trans ?_⟩
    rw [h j hj]; unfold Nv.LocalFrame.R_EN; simp only [hp.frame _ (hb.lt hj)]
  | B hp hy ht hr h1 h2 hb h =>
    rename_i s m ly lp lr l1 l p q Y P R y t r
    obtain ⟨X, eX, hX⟩ := C52_n_E2R_EN hp.normal (hb.pos hn).1 p.frame.R_Ee
    obtain ⟨Z, eZ, hZ⟩ := C52_zyx2R hr ht hy h1 h2
    obtain ⟨W, eW, hW⟩ := mdot_pages hX hZ hb
    refine ⟨W, ?_, hW.shape, fun j hj => (hW.page j hj).trans ?_⟩
    · unfold LocalFrame.R_EN
      simp only [eX, eZ, eW, bind, Except.bind]
    · rw [h j hj]; unfold Nv.LocalFrame.R_EN
      simp only [hp.frame _ (hb.lt hj)]
      have e1 : bi ly (bi l j) = bi ly j := by
        obtain ⟨a1, a2, a3⟩ := h2; obtain ⟨b1, b2, b3⟩ := hb; unfold bi; split_ifs <;> omega
      have e2 : bi lp (bi l j) = bi lp j := by
        obtain ⟨a1, a2, a3⟩ := h2; obtain ⟨b1, b2, b3⟩ := hb; obtain ⟨c1, c2, c3⟩ := h1; unfold bi; split_ifs <;> omega
      have e3 : bi lr (bi l j) = bi lr j := by
        obtain ⟨a1, a2, a3⟩ := h2; obtain ⟨b1, b2, b3⟩ := hb; obtain ⟨c1, c2, c3⟩ := h1; unfold bi; split_ifs <;> omega
      rw [e1, e2, e3]

/-- **C60** Pvector → ECEFvector -/
theorem C60_pvec_to_ecef {s : Bool} {n : ℕ} {P : Pvector α} {g} (h : IsPvec s n P g) (hn : 0 < n) :
    ∃ Q, P.to_ecef_vector = .ok Q ∧ IsEcef s n Q (fun j => (g j).to_ecef_vector) := by
  obtain ⟨m, l, c, f, hc, hf, hb, hs, hs1, hg⟩ := h
  obtain ⟨R, eR, hR⟩ := C60_R_EN hf (hb.pos hn).2
  obtain ⟨B', X, Y, e1, e2, e3, hY⟩ := mdot_cols hR hc hb.symm
  refine ⟨⟨Y, P.frame.nvector.frame, P.scalar⟩, ?_, ?_, hs, hs1, ?_⟩
  · unfold Pvector.to_ecef_vector
    simp only [eR, e1, e2, e3, bind, Except.bind]; rfl
  · exact hY.congr fun j hj => by rw [hg j hj]; rfl
  · intro j hj; rw [hg j hj]; exact hf.frame _ (hb.lt' hj)

/-- **C60** ECEFvector → Pvector, with one column per position; a scalar position needs a frame with one origin -/
theorem C60_change_frame {s : Bool} {n l k : ℕ} {P : ECEFvector α} {F : LocalFrame α} {g f} (h : IsEcef s n P g)
    (hF : IsLocal l F f) (hb : Bc n l k) (hk : 0 < k) (hl : s = true → l = 1)
    (hc : check_frames P.frame F.nvector.frame = .ok ()) :
    ∃ Q q, P.change_frame F = .ok Q ∧ (IsPvec s k Q q ∧ IsCols Q.pvector k fun j => (q j).pvector) ∧
      ∀ j < k, (g (bi n j)).change_frame (f (bi l j)) = .ok (q j) := by
  obtain ⟨R, eR, hR⟩ := C60_R_EN hF (hb.pos hk).2
  obtain ⟨S, eS, hS⟩ := swap_pages hR
  obtain ⟨B', X, Y, e1, e2, e3, hY⟩ := mdot_cols hS h.pvector hb.symm
  have hsk : s = true → k = 1 := by
    intro hs; have := h.one hs; have := hl hs; obtain ⟨b1, b2, b3⟩ := hb; omega
  refine ⟨⟨Y, F, P.scalar⟩, fun j => ⟨mulVec (tr (f (bi l j)).R_EN) (g (bi n j)).pvector, f (bi l j)⟩, ?_,
    ⟨⟨k, l, _, f, hY, hF, hb.rightk.symm, h.scalar, hsk, fun j hj => by rw [bi_self hj]⟩, hY⟩, ?_⟩
  · unfold ECEFvector.change_frame
    simp only [hc, eR, eS, e1, e2, e3, bind, Except.bind]; rfl
  · intro j hj
    unfold Nv.ECEFvector.change_frame
    rw [h.frame _ (hb.lt hj), hF.frame _ (hb.lt' hj), hc]
    rfl

end

end Nv.ND
