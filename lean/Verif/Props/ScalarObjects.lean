import Verif.Props.Scalars
import Verif.Lemmas.Objects

/-!
# C60 for positions of any class: conversions, attributes, frames, delta vectors and arithmetic
-/

namespace Nv.ND
open PyFloat

section
variable {α : Type} [PyFloat α]

omit [PyFloat α] in
theorem IsGeo.congr {s : Bool} {n : ℕ} {P : GeoPoint α} {g g' : ℕ → Nv.GeoPoint α} (h : IsGeo s n P g)
    (hc : ∀ j < n, g j = g' j) : IsGeo s n P g' :=
  ⟨h.lat.congr fun j hj => by rw [hc j hj], h.lon.congr fun j hj => by rw [hc j hj],
    h.z.congr fun j hj => by rw [hc j hj], fun j hj => by rw [← hc j hj, h.frame j hj]⟩
omit [PyFloat α] in
theorem IsNvec.congr {s : Bool} {n : ℕ} {P : Nvector α} {g g' : ℕ → Nv.Nvector α} (h : IsNvec s n P g)
    (hc : ∀ j < n, g j = g' j) : IsNvec s n P g' :=
  ⟨h.normal.congr fun j hj => by rw [hc j hj], h.z.congr fun j hj => by rw [hc j hj],
    fun j hj => by rw [← hc j hj, h.frame j hj]⟩
omit [PyFloat α] in
theorem IsEcef.congr {s : Bool} {n : ℕ} {P : ECEFvector α} {g g' : ℕ → Nv.ECEFvector α} (h : IsEcef s n P g)
    (hc : ∀ j < n, g j = g' j) : IsEcef s n P g' :=
  ⟨h.pvector.congr fun j hj => by rw [hc j hj], h.scalar, h.one, fun j hj => by rw [← hc j hj, h.frame j hj]⟩

omit [PyFloat α] in
/-- **C60** a scalar position is one position -/
theorem C60_scalar_one {n : ℕ} {P : Position α} {g} (h : IsPos true n P g) : n = 1 := by
  cases h with
  | geo h e => exact h.lat.one
  | nvec h e => exact h.z.one
  | ecef h e => exact h.one rfl
  | pvec h e => obtain ⟨_, _, _, _, _, _, _, _, h1, _⟩ := h; exact h1 rfl

/-- **C60** `to_ecef_vector()` of a position of any class -/
theorem C60_to_ecef_vector {s : Bool} {n : ℕ} {P : Position α} {g} (h : IsPos s n P g) (hn : 0 < n) :
    ∃ Q, P.to_ecef_vector = .ok Q ∧ IsEcef s n Q (fun j => (g j).to_ecef_vector) := by
  cases h with
  | geo h e =>
    obtain ⟨Q, eQ, hQ⟩ := C60_geo_to_nvector h
    obtain ⟨X, eX, hX⟩ := C60_nvec_to_ecef hQ hn
    refine ⟨X, ?_, hX.congr fun j hj => by rw [e j hj]; rfl⟩
    show (do (← GeoPoint.to_nvector _).to_ecef_vector) = _
    rw [eQ]; exact eX
  | nvec h e =>
    obtain ⟨X, eX, hX⟩ := C60_nvec_to_ecef h hn
    exact ⟨X, eX, hX.congr fun j hj => by rw [e j hj]; rfl⟩
  | ecef h e => exact ⟨_, rfl, h.congr fun j hj => by rw [e j hj]; rfl⟩
  | pvec h e =>
    obtain ⟨X, eX, hX⟩ := C60_pvec_to_ecef h hn
    exact ⟨X, eX, hX.congr fun j hj => by rw [e j hj]; rfl⟩

/-- **C60** `to_nvector()` of a position of any class -/
theorem C60_to_nvector {s : Bool} {n : ℕ} {P : Position α} {g} (h : IsPos s n P g) (hn : 0 < n) :
    ∃ Q, P.to_nvector = .ok Q ∧ IsNvec s n Q (fun j => (g j).to_nvector) := by
  cases h with
  | geo h e =>
    obtain ⟨X, eX, hX⟩ := C60_geo_to_nvector h
    exact ⟨X, eX, hX.congr fun j hj => by rw [e j hj]; rfl⟩
  | nvec h e => exact ⟨_, rfl, h.congr fun j hj => by rw [e j hj]; rfl⟩
  | ecef h e =>
    obtain ⟨X, eX, hX⟩ := C60_ecef_to_nvector h
    exact ⟨X, eX, hX.congr fun j hj => by rw [e j hj]; rfl⟩
  | pvec h e =>
    obtain ⟨Q, eQ, hQ⟩ := C60_pvec_to_ecef h hn
    obtain ⟨X, eX, hX⟩ := C60_ecef_to_nvector hQ
    refine ⟨X, ?_, hX.congr fun j hj => by rw [e j hj]; rfl⟩
    show (do (← Pvector.to_ecef_vector _).to_nvector) = _
    rw [eQ]; exact eX

/-- **C60** `to_geo_point()` of a position of any class -/
theorem C60_to_geo_point {s : Bool} {n : ℕ} {P : Position α} {g} (h : IsPos s n P g) (hn : 0 < n) :
    ∃ Q, P.to_geo_point = .ok Q ∧ IsGeo s n Q (fun j => (g j).to_geo_point) := by
  cases h with
  | geo h e => exact ⟨_, rfl, h.congr fun j hj => by rw [e j hj]; rfl⟩
  | nvec h e =>
    obtain ⟨X, eX, hX⟩ := C60_nvec_to_geo h hn
    exact ⟨X, eX, hX.congr fun j hj => by rw [e j hj]; rfl⟩
  | ecef h e =>
    obtain ⟨Q, eQ, hQ⟩ := C60_ecef_to_nvector h
    obtain ⟨X, eX, hX⟩ := C60_nvec_to_geo hQ hn
    refine ⟨X, ?_, hX.congr fun j hj => by rw [e j hj]; rfl⟩
    show (do (← ECEFvector.to_nvector _).to_geo_point) = _
    rw [eQ]; exact eX
  | pvec h e =>
    obtain ⟨R, eR, hR⟩ := C60_pvec_to_ecef h hn
    obtain ⟨Q, eQ, hQ⟩ := C60_ecef_to_nvector hR
    obtain ⟨X, eX, hX⟩ := C60_nvec_to_geo hQ hn
    refine ⟨X, ?_, hX.congr fun j hj => by rw [e j hj]; rfl⟩
    show (do (← (← Pvector.to_ecef_vector _).to_nvector).to_geo_point) = _
    rw [eR]
    show (do (← ECEFvector.to_nvector _).to_geo_point) = _
    rw [eQ]; exact eX

/-! ## any sequence of conversions -/

/-- the three conversions `to_geo_point()`, `to_nvector()`, `to_ecef_vector()` -/
inductive Conversion where
  | to_geo_point
  | to_nvector
  | to_ecef_vector

/-- one conversion of an object holding arrays -/
def Position.convert (P : Position α) : Conversion → Except PyErr (Position α)
  | .to_geo_point => do pure (.geo (← P.to_geo_point))
  | .to_nvector => do pure (.nvec (← P.to_nvector))
  | .to_ecef_vector => do pure (.ecef (← P.to_ecef_vector))

/-- one conversion of a single position -/
def _root_.Nv.Position.convert (p : Nv.Position α) : Conversion → Nv.Position α
  | .to_geo_point => .geo p.to_geo_point
  | .to_nvector => .nvec p.to_nvector
  | .to_ecef_vector => .ecef p.to_ecef_vector

/-- **C60** whatever conversions are applied in a row, a scalar position stays scalar, a vector of `n` positions stays a
vector of `n` positions, and every position is converted as it would be alone -/
theorem C60_conversions {s : Bool} {n : ℕ} {P : Position α} {g} (h : IsPos s n P g) (hn : 0 < n) (cs : List Conversion) :
    ∃ Q, cs.foldlM Position.convert P = .ok Q ∧ IsPos s n Q (fun j => cs.foldl Nv.Position.convert (g j)) := by
  induction cs generalizing P g with
  | nil => exact ⟨P, rfl, h⟩
  | cons c cs ih =>
    have step : ∃ Q, P.convert c = .ok Q ∧ IsPos s n Q (fun j => (g j).convert c) := by
      cases c
      · obtain ⟨Q, eQ, hQ⟩ := C60_to_geo_point h hn
        exact ⟨.geo Q, by simp only [Position.convert, eQ, bind, Except.bind, pure, Except.pure], .geo hQ fun j _ => rfl⟩
      · obtain ⟨Q, eQ, hQ⟩ := C60_to_nvector h hn
        exact ⟨.nvec Q, by simp only [Position.convert, eQ, bind, Except.bind, pure, Except.pure], .nvec hQ fun j _ => rfl⟩
      · obtain ⟨Q, eQ, hQ⟩ := C60_to_ecef_vector h hn
        exact ⟨.ecef Q, by simp only [Position.convert, eQ, bind, Except.bind, pure, Except.pure], .ecef hQ fun j _ => rfl⟩
    obtain ⟨Q, eQ, hQ⟩ := step
    obtain ⟨R, eR, hR⟩ := ih hQ
    refine ⟨R, ?_, hR⟩
    rw [List.foldlM_cons, eQ]
    exact eR

/-! ## attributes -/

/-- **C60** `length` is a number for a scalar position and a vector of numbers otherwise -/
theorem C60_length {s : Bool} {n : ℕ} {A : Arr α} {c : ℕ → V3 α} (hA : IsCols A n c) (hs : s = true → n = 1) :
    ∃ X, length A s = .ok X ∧ IsVal s X n (fun j => Nv.length (c j)) := by
  obtain ⟨L, eL, hL⟩ := norm0_cols hA
  unfold length
  rw [eL]
  cases s
  · exact ⟨L, rfl, hL⟩
  · obtain rfl := hs rfl
    exact row0_scalar hL

/-- **C60** `azimuth` and `azimuth_deg` -/
theorem C60_azimuth {s : Bool} {n : ℕ} {A : Arr α} {c : ℕ → V3 α} (hA : IsCols A n c) (hs : s = true → n = 1) :
    ∃ X, azimuth A s = .ok X ∧ IsVal s X n (fun j => Nv.azimuth (c j)) ∧
      IsVal s (X.map rad2deg) n (fun j => rad2deg (Nv.azimuth (c j))) := by
  obtain ⟨⟨r0, e0, h0⟩, ⟨r1, e1, h1⟩, r2, e2, h2⟩ := row_cols hA
  obtain ⟨L, eL, hL⟩ := map2_vec' arctan2 h1 h0
  unfold azimuth
  simp only [e0, e1, eL, bind, Except.bind]
  cases s
  · exact ⟨L, rfl, hL, hL.map _⟩
  · obtain rfl := hs rfl
    obtain ⟨X, eX, hX⟩ := row0_scalar hL
    exact ⟨X, eX, hX, hX.map _⟩

/-- **C60** `elevation` and `elevation_deg` -/
theorem C60_elevation {s : Bool} {n : ℕ} {A : Arr α} {c : ℕ → V3 α} (hA : IsCols A n c) (hs : s = true → n = 1) :
    ∃ X, elevation A s = .ok X ∧ IsVal s X n (fun j => Nv.elevation (c j)) ∧
      IsVal s (X.map rad2deg) n (fun j => rad2deg (Nv.elevation (c j))) := by
  obtain ⟨⟨r0, e0, h0⟩, ⟨r1, e1, h1⟩, r2, e2, h2⟩ := row_cols hA
  obtain ⟨L, eL, hL⟩ := C60_length hA hs
  have h2' : IsVal false r2 n (fun j => (c j).z) := h2
  obtain ⟨Q, eQ, hQ⟩ := map2_vals (· / ·) h2' hL (.self n)
  have hE : IsVec (Q.map arcsin) n (fun j => Nv.elevation (c j)) := by
    have := hQ.map arcsin
    rw [Bool.false_and] at this
    exact this.congr fun j hj => by simp only [bi_self hj, Nv.elevation]
  unfold elevation
  simp only [e2, eL, eQ, bind, Except.bind]
  cases s
  · exact ⟨_, rfl, hE, hE.map _⟩
  · obtain rfl := hs rfl
    obtain ⟨X, eX, hX⟩ := row0_scalar hE
    exact ⟨X, eX, hX, hX.map _⟩

/-! ## local frames -/

omit [PyFloat α] in
theorem origin_nvec {s : Bool} {n : ℕ} {P : Nvector α} {g} (h : IsNvec s n P g) (x : α) :
    IsNvec (decide (n = 1)) n ⟨P.normal, ND.scalar x, P.frame⟩ (fun j => ⟨(g j).normal, x, (g j).frame⟩) := by
  refine ⟨h.normal, ?_, h.frame⟩
  by_cases hn : n = 1
  · subst hn; exact .inl ⟨rfl, rfl, rfl⟩
  · exact .inr ⟨by simp [hn], hn, true, fun _ => x, ⟨rfl, rfl, rfl⟩, fun _ _ => rfl⟩

/-- **C60** `FrameN(point)` of `n` positions holds their `n` North-East-Down frames -/
theorem C60_FrameN {s : Bool} {n : ℕ} {P : Position α} {g} (h : IsPos s n P g) (hn : 0 < n) :
    ∃ F, FrameN P = .ok F ∧ IsLocal n F (fun j => Nv.FrameN (g j)) := by
  obtain ⟨Q, eQ, hQ⟩ := C60_to_nvector h hn
  exact ⟨.N ⟨Q.normal, ND.scalar (lit 0), Q.frame⟩, by simp only [FrameN, eQ, bind, Except.bind, pure, Except.pure],
    .N (origin_nvec hQ (lit 0)) fun j _ => rfl⟩

/-- **C60** `FrameL(point, wander_azimuth)` -/
theorem C60_FrameL {s : Bool} {n m k : ℕ} {P : Position α} {g} {W : Arr α} {w} (h : IsPos s n P g) (hw : IsRow W m w)
    (hb : Bc n m k) (hk : 0 < k) :
    ∃ F, FrameL P W = .ok F ∧ IsLocal k F (fun j => Nv.FrameL (g (bi n j)) (w (bi m j))) := by
  obtain ⟨Q, eQ, hQ⟩ := C60_to_nvector h (hb.pos hk).1
  exact ⟨.L ⟨Q.normal, ND.scalar (lit 0), Q.frame⟩ W, by simp only [FrameL, eQ, bind, Except.bind, pure, Except.pure],
    .L (origin_nvec hQ (lit 0)) hw hb fun j _ => rfl⟩

/-- **C60** `FrameB(point, yaw, pitch, roll, degrees)` -/
theorem C60_FrameB {s : Bool} {n ly lp lr l1 l k : ℕ} {P : Position α} {g} {Y T R : Arr α} {y t r : ℕ → α}
    (h : IsPos s n P g) (hy : IsRow Y ly y) (ht : IsRow T lp t) (hr : IsRow R lr r) (h1 : Bc lr lp l1) (h2 : Bc l1 ly l)
    (hb : Bc n l k) (hk : 0 < k) (degrees : Bool) :
    ∃ F, FrameB P Y T R degrees = .ok F ∧
      IsLocal k F (fun j => Nv.FrameB (g (bi n j)) (y (bi ly j)) (t (bi lp j)) (r (bi lr j)) degrees) := by
  obtain ⟨Q, eQ, hQ⟩ := C60_to_nvector h (hb.pos hk).1
  cases degrees
  · exact ⟨.B Q Y T R, by simp only [FrameB, eQ, bind, Except.bind, pure, Except.pure, Bool.false_eq_true, if_false],
      .B hQ hy ht hr h1 h2 hb fun j _ => rfl⟩
  · exact ⟨.B Q (Y.map deg2rad) (T.map deg2rad) (R.map deg2rad),
      by simp only [FrameB, eQ, bind, Except.bind, pure, Except.pure, if_true],
      .B hQ (hy.map deg2rad) (ht.map deg2rad) (hr.map deg2rad) h1 h2 hb fun j _ => rfl⟩

/-! ## ECEF arithmetic and delta vectors -/

theorem and_one {sa sb : Bool} {n m k : ℕ} (ha : sa = true → n = 1) (hb : sb = true → m = 1) (h : Bc n m k) :
    (sa && sb) = true → k = 1 := by
  intro hs
  simp only [Bool.and_eq_true] at hs
  have := ha hs.1; have := hb hs.2
  obtain ⟨b1, b2, b3⟩ := h; omega

/-- **C60** `a + b` of ECEF vectors: scalar if both are; the same `ValueError` as for each pair if the frames differ -/
theorem C60_ecef_add {sa sb : Bool} {n m k : ℕ} {A B : ECEFvector α} {a b} (hA : IsEcef sa n A a) (hB : IsEcef sb m B b)
    (h : Bc n m k) :
    (∃ Q q, A.add B = .ok Q ∧ IsEcef (sa && sb) k Q q ∧ ∀ j < k, (a (bi n j)).add (b (bi m j)) = .ok (q j)) ∨
      (A.add B = .error .ValueError ∧ ∀ j < k, (a (bi n j)).add (b (bi m j)) = .error .ValueError) := by
  have hf : ∀ j < k, check_frames (a (bi n j)).frame (b (bi m j)).frame = check_frames A.frame B.frame := fun j hj => by
    rw [hA.frame _ (h.lt hj), hB.frame _ (h.lt' hj)]
  unfold ECEFvector.add Nv.ECEFvector.add
  rcases hc : A.frame.isEqualTo B.frame with _ | _
  · have hc : check_frames A.frame B.frame = .error .ValueError := by unfold check_frames; rw [hc]; rfl
    exact .inr ⟨by rw [hc]; rfl, fun j hj => by rw [hf j hj, hc]; rfl⟩
  · have hc : check_frames A.frame B.frame = .ok () := by unfold check_frames; rw [hc]; rfl
    obtain ⟨X, eX, hX⟩ := map2_cols (· + ·) hA.pvector hB.pvector h
    refine .inl ⟨⟨X, A.frame, A.scalar && B.scalar⟩, fun j => ⟨add3 (a (bi n j)).pvector (b (bi m j)).pvector,
      (a (bi n j)).frame⟩, ?_, ⟨hX, ?_, and_one hA.one hB.one h, fun j hj => hA.frame _ (h.lt hj)⟩, fun j hj => ?_⟩
    · simp only [hc, eX, bind, Except.bind]; rfl
    · simp only [hA.scalar, hB.scalar]
    · rw [hf j hj, hc]; rfl

/-- **C60** `a - b` of ECEF vectors -/
theorem C60_ecef_sub {sa sb : Bool} {n m k : ℕ} {A B : ECEFvector α} {a b} (hA : IsEcef sa n A a) (hB : IsEcef sb m B b)
    (h : Bc n m k) :
    (∃ Q q, A.sub B = .ok Q ∧ Q.frame = A.frame ∧ IsEcef (sa && sb) k Q q ∧
        ∀ j < k, (a (bi n j)).sub (b (bi m j)) = .ok (q j)) ∧ check_frames A.frame B.frame = .ok () ∨
      (A.sub B = .error .ValueError ∧ ∀ j < k, (a (bi n j)).sub (b (bi m j)) = .error .ValueError) := by
  have hf : ∀ j < k, check_frames (a (bi n j)).frame (b (bi m j)).frame = check_frames A.frame B.frame := fun j hj => by
    rw [hA.frame _ (h.lt hj), hB.frame _ (h.lt' hj)]
  unfold ECEFvector.sub Nv.ECEFvector.sub
  rcases hc : A.frame.isEqualTo B.frame with _ | _
  · have hc : check_frames A.frame B.frame = .error .ValueError := by unfold check_frames; rw [hc]; rfl
    exact .inr ⟨by rw [hc]; rfl, fun j hj => by rw [hf j hj, hc]; rfl⟩
  · have hc : check_frames A.frame B.frame = .ok () := by unfold check_frames; rw [hc]; rfl
    obtain ⟨X, eX, hX⟩ := map2_cols (· - ·) hA.pvector hB.pvector h
    refine .inl ⟨⟨⟨X, A.frame, A.scalar && B.scalar⟩, fun j => ⟨sub3 (a (bi n j)).pvector (b (bi m j)).pvector,
      (a (bi n j)).frame⟩, ?_, rfl, ⟨hX, ?_, and_one hA.one hB.one h, fun j hj => hA.frame _ (h.lt hj)⟩, fun j hj => ?_⟩, hc⟩
    · simp only [hc, eX, bind, Except.bind]; rfl
    · simp only [hA.scalar, hB.scalar]
    · rw [hf j hj, hc]; rfl

/-- **C60** `-a` of ECEF vectors -/
theorem C60_ecef_neg {s : Bool} {n : ℕ} {A : ECEFvector α} {a} (hA : IsEcef s n A a) :
    IsEcef s n A.neg (fun j => (a j).neg) :=
  ⟨hA.pvector.map _, hA.scalar, hA.one, hA.frame⟩

/-- **C60** `delta_E(a, b)` of `n` and `m` positions (equal numbers or one of them one): the vectors between the pairs, a
scalar if both positions are; if the frames differ the call raises `ValueError` as it does for each pair -/
theorem C60_delta_E {sa sb : Bool} {n m k : ℕ} {A B : Position α} {a b} (hA : IsPos sa n A a) (hB : IsPos sb m B b)
    (h : Bc n m k) (hk : 0 < k) :
    (∃ Q q, delta_E A B = .ok Q ∧ IsEcef (sa && sb) k Q q ∧ ∀ j < k, Nv.delta_E (a (bi n j)) (b (bi m j)) = .ok (q j)) ∨
      (delta_E A B = .error .ValueError ∧ ∀ j < k, Nv.delta_E (a (bi n j)) (b (bi m j)) = .error .ValueError) := by
  obtain ⟨X, eX, hX⟩ := C60_to_ecef_vector hA (h.pos hk).1
  obtain ⟨Y, eY, hY⟩ := C60_to_ecef_vector hB (h.pos hk).2
  have e : delta_E A B = Y.sub X := by simp only [delta_E, eX, eY, bind, Except.bind]
  rw [e]
  rcases C60_ecef_sub hY hX h.symm with ⟨⟨Q, q, e1, -, e2, e3⟩, -⟩ | h
  · exact .inl ⟨Q, q, e1, by rw [Bool.and_comm]; exact e2, e3⟩
  · exact .inr h


theorem frame_eq (p : Nv.Position α) : p.to_nvector.frame = p.to_ecef_vector.frame := by cases p <;> rfl

/-- the common part of `delta_N` and `delta_L` -/
theorem delta_local {sa sb : Bool} {n m k l : ℕ} {A B : Position α} {a b} {F : LocalFrame α} {f : ℕ → Nv.LocalFrame α}
    (hA : IsPos sa n A a) (hB : IsPos sb m B b) (h : Bc n m k) (hF : IsLocal l F f) {o : ℕ} (hl : Bc k l o) (ho : 0 < o)
    (hs : (sa && sb) = true → l = 1) (hfr : ∃ i < n, ∃ j < l, (f j).nvector.frame = (a i).to_nvector.frame) :
    (∃ Q q, (do let d ← delta_E A B; d.change_frame F) = .ok Q ∧
        (IsPvec (sa && sb) o Q q ∧ IsCols Q.pvector o fun j => (q j).pvector) ∧
        ∀ j < o, (do let d ← Nv.delta_E (a (bi n (bi k j))) (b (bi m (bi k j))); d.change_frame (f (bi l j))) = .ok (q j)) ∨
      ((do let d ← delta_E A B; d.change_frame F) = .error .ValueError ∧
        ∀ j < o, (do let d ← Nv.delta_E (a (bi n (bi k j))) (b (bi m (bi k j))); d.change_frame (f (bi l j))) =
          .error .ValueError) := by
  have hk := (hl.pos ho).1
  obtain ⟨X, eX, hX⟩ := C60_to_ecef_vector hA (h.pos hk).1
  obtain ⟨Y, eY, hY⟩ := C60_to_ecef_vector hB (h.pos hk).2
  have e : delta_E A B = Y.sub X := by simp only [delta_E, eX, eY, bind, Except.bind]
  obtain ⟨i, hi, j0, hj0, hij⟩ := hfr
  have eF : F.nvector.frame = X.frame := by
    rw [← hF.frame j0 hj0, hij, frame_eq, ← hX.frame i hi]
  rcases C60_ecef_sub hY hX h.symm with ⟨⟨D, d, e1, e2, e3, e4⟩, hc⟩ | ⟨e1, e2⟩
  · rw [Bool.and_comm] at e3
    obtain ⟨Q, q, q1, q2, q3⟩ := C60_change_frame e3 hF hl ho hs (by rw [e2, eF]; exact hc)
    refine .inl ⟨Q, q, ?_, q2, fun j hj => ?_⟩
    · rw [e, e1]; exact q1
    · show (do let d ← Nv.ECEFvector.sub (b (bi m (bi k j))).to_ecef_vector (a (bi n (bi k j))).to_ecef_vector; _) = _
      rw [e4 _ (hl.lt hj)]; exact q3 j hj
  · refine .inr ⟨by rw [e, e1]; rfl, fun j hj => ?_⟩
    show (do let d ← Nv.ECEFvector.sub (b (bi m (bi k j))).to_ecef_vector (a (bi n (bi k j))).to_ecef_vector; _) = _
    rw [e2 _ (hl.lt hj)]; rfl

/-- **C60** `delta_N(a, b)`, also called `a.delta_to(b)` -/
theorem C60_delta_N {sa sb : Bool} {n m k : ℕ} {A B : Position α} {a b} (hA : IsPos sa n A a) (hB : IsPos sb m B b)
    (h : Bc n m k) (hk : 0 < k) :
    (∃ Q q, delta_N A B = .ok Q ∧ (IsPvec (sa && sb) k Q q ∧ IsCols Q.pvector k fun j => (q j).pvector) ∧
      ∀ j < k, Nv.delta_N (a (bi n j)) (b (bi m j)) = .ok (q j)) ∨
      (delta_N A B = .error .ValueError ∧ ∀ j < k, Nv.delta_N (a (bi n j)) (b (bi m j)) = .error .ValueError) := by
  obtain ⟨F, eF, hF⟩ := C60_FrameN hA (h.pos hk).1
  have e : delta_N A B = (do let d ← delta_E A B; d.change_frame F) := by
    unfold delta_N; rw [eF]; rfl
  have hn := (h.pos hk).1
  rw [e]
  have hs1 : (sa && sb) = true → n = 1 := by
    intro hs
    simp only [Bool.and_eq_true] at hs
    obtain ⟨rfl, -⟩ := hs
    exact C60_scalar_one hA
  rcases delta_local hA hB h hF h.leftk.symm hk hs1 ⟨0, hn, 0, hn, rfl⟩ with ⟨Q, q, e1, e2, e3⟩ | ⟨e1, e2⟩
  · refine .inl ⟨Q, q, e1, e2, fun j hj => ?_⟩
    have := e3 j hj
    rw [bi_self hj] at this; exact this
  · refine .inr ⟨e1, fun j hj => ?_⟩
    have := e2 j hj
    rw [bi_self hj] at this; exact this

/-- **C60** `delta_L(a, b, wander_azimuth)`.  The wander azimuth is one number, or one per position; two scalar positions
need one number. -/
theorem C60_delta_L {sa sb : Bool} {n m k mw l o : ℕ} {A B : Position α} {a b} {W : Arr α} {w : ℕ → α} (hA : IsPos sa n A a)
    (hB : IsPos sb m B b) (h : Bc n m k) (hw : IsRow W mw w) (hl : Bc n mw l) (ho : Bc k l o) (ho0 : 0 < o)
    (hs : (sa && sb) = true → mw = 1) :
    (∃ Q q, delta_L A B W = .ok Q ∧
        (IsPvec (sa && sb) o Q q ∧ IsCols Q.pvector o fun j => (q j).pvector) ∧
        ∀ j < o, Nv.delta_L (a (bi n j)) (b (bi m j)) (w (bi mw j)) = .ok (q j)) ∨
      (delta_L A B W = .error .ValueError ∧
        ∀ j < o, Nv.delta_L (a (bi n j)) (b (bi m j)) (w (bi mw j)) = .error .ValueError) := by
  have hl0 := (ho.pos ho0).2
  have hn := (hl.pos hl0).1
  obtain ⟨F, eF, hF⟩ := C60_FrameL hA hw hl hl0
  have e : delta_L A B W = (do let d ← delta_E A B; d.change_frame F) := by
    unfold delta_L; rw [eF]; rfl
  have b1 : ∀ j < o, bi n (bi k j) = bi n j := fun j hj => bi_bi h ho hj
  have b2 : ∀ j < o, bi m (bi k j) = bi m j := fun j hj => bi_bi h.symm ho hj
  have b3 : ∀ j < o, bi n (bi l j) = bi n j := fun j hj => bi_bi hl ho.symm hj
  have b4 : ∀ j < o, bi mw (bi l j) = bi mw j := fun j hj => bi_bi hl.symm ho.symm hj
  rw [e]
  have hs1 : (sa && sb) = true → l = 1 := by
    intro hs'
    have := hs hs'
    simp only [Bool.and_eq_true] at hs'
    obtain ⟨rfl, -⟩ := hs'
    have := C60_scalar_one hA
    obtain ⟨x1, x2, x3⟩ := hl; omega
  rcases delta_local hA hB h hF ho ho0 hs1 ⟨bi n 0, hl.lt hl0, 0, hl0, rfl⟩ with ⟨Q, q, e1, e2, e3⟩ | ⟨e1, e2⟩
  · refine .inl ⟨Q, q, e1, e2, fun j hj => ?_⟩
    have := e3 j hj
    rw [b1 j hj, b2 j hj, b3 j hj, b4 j hj] at this; exact this
  · refine .inr ⟨e1, fun j hj => ?_⟩
    have := e2 j hj
    rw [b1 j hj, b2 j hj, b3 j hj, b4 j hj] at this; exact this

/-! ## Nvector arithmetic -/

omit [PyFloat α] in
theorem depth_vals {s : Bool} {A : Arr α} {n : ℕ} {r : ℕ → α} (h : IsDepth s A n r) :
    ∃ (t : Bool) (m : ℕ) (r' : ℕ → α), IsVal t A m r' ∧ (m = n ∨ m = 1) ∧ (∀ j < n, r' (bi m j) = r j) ∧
      (m = n → t = s) ∧ (m ≠ n → s = false) := by
  rcases h with h | ⟨hs, hn, t, z, h0, hv⟩
  · exact ⟨s, n, r, h, .inl rfl, fun j hj => by rw [bi_self hj], fun _ => rfl, fun h => absurd rfl h⟩
  · exact ⟨t, 1, z, h0, .inr rfl, fun j hj => hv j hj, fun h => absurd h.symm hn, fun _ => hs⟩

omit [PyFloat α] in
/-- depths combined by `+`, `-`, `*` or `/` -/
theorem depth_map2 {sa sb : Bool} {A B : Arr α} {n m k : ℕ} {q r : ℕ → α} (f : α → α → α) (hA : IsDepth sa A n q)
    (hB : IsDepth sb B m r) (h : Bc n m k) :
    ∃ X, map2 f A B = .ok X ∧ IsDepth (sa && sb) X k (fun j => f (q (bi n j)) (r (bi m j))) := by
  obtain ⟨ta, ma, qa, va, ea, ra, a1, a2⟩ := depth_vals hA
  obtain ⟨tb, mb, qb, vb, eb, rb, b1, b2⟩ := depth_vals hB
  have ha1 : sa = true → n = 1 := by rintro rfl; exact hA.one
  have hb1 : sb = true → m = 1 := by rintro rfl; exact hB.one
  obtain ⟨l, hl⟩ : ∃ l, Bc ma mb l := by
    obtain ⟨x1, x2, x3⟩ := h
    by_cases hm : ma = 1
    · exact ⟨mb, .inr hm, .inl rfl, .inr rfl⟩
    · exact ⟨ma, .inl rfl, by omega, .inl rfl⟩
  obtain ⟨X, eX, hX⟩ := map2_vals f va vb hl
  refine ⟨X, eX, ?_⟩
  have hval : ∀ j < k, f (qa (bi ma (bi l j))) (qb (bi mb (bi l j))) = f (q (bi n j)) (r (bi m j)) := by
    intro j hj
    rw [← ra _ (h.lt hj), ← rb _ (h.lt' hj)]
    have e1 : bi ma (bi l j) = bi ma (bi n j) := by
      obtain ⟨x1, x2, x3⟩ := h; obtain ⟨y1, y2, y3⟩ := hl; unfold bi; split_ifs <;> omega
    have e2 : bi mb (bi l j) = bi mb (bi m j) := by
      obtain ⟨x1, x2, x3⟩ := h; obtain ⟨y1, y2, y3⟩ := hl; unfold bi; split_ifs <;> omega
    rw [e1, e2]
  by_cases hlk : l = k
  · subst hlk
    have hs : (ta && tb) = (sa && sb) := by
      by_cases c1 : ma = n <;> by_cases c2 : mb = m
      · rw [a1 c1, b1 c2]
      · have : sb = false := b2 c2
        have hm1 : mb = 1 := by omega
        subst this
        rw [a1 c1, Bool.and_false]
        by_contra hc
        have : sa = true := by cases sa <;> simp_all
        have := ha1 this
        obtain ⟨x1, x2, x3⟩ := h; obtain ⟨y1, y2, y3⟩ := hl; omega
      · have : sa = false := a2 c1
        have hm1 : ma = 1 := by omega
        subst this
        rw [b1 c2, Bool.false_and]
        by_contra hc
        have : sb = true := by cases sb <;> simp_all
        have := hb1 this
        obtain ⟨x1, x2, x3⟩ := h; obtain ⟨y1, y2, y3⟩ := hl; omega
      · obtain ⟨x1, x2, x3⟩ := h; obtain ⟨y1, y2, y3⟩ := hl; omega
    rw [hs] at hX
    refine .inl (hX.congr fun j hj => ?_)
    rw [← hval j hj, bi_self hj]
  · have hl1 : l = 1 := by obtain ⟨x1, x2, x3⟩ := h; obtain ⟨y1, y2, y3⟩ := hl; omega
    subst hl1
    refine .inr ⟨?_, fun h => hlk h.symm, _, _, hX, fun j hj => ?_⟩
    · by_contra hc
      have : sa = true ∧ sb = true := by cases sa <;> cases sb <;> simp_all
      have e1 := ha1 this.1; have e2 := hb1 this.2
      obtain ⟨x1, x2, x3⟩ := h; omega
    · show f (qa (bi ma 0)) (qb (bi mb 0)) = f (q (bi n j)) (r (bi m j))
      rw [← hval j hj, bi_one]

/-- **C60** `a + b` of Nvectors -/
theorem C60_nvec_add {sa sb : Bool} {n m k : ℕ} {A B : Nvector α} {a b} (hA : IsNvec sa n A a) (hB : IsNvec sb m B b)
    (h : Bc n m k) :
    (∃ Q q, A.add B = .ok Q ∧ IsNvec (sa && sb) k Q q ∧ ∀ j < k, (a (bi n j)).add (b (bi m j)) = .ok (q j)) ∨
      (A.add B = .error .ValueError ∧ ∀ j < k, (a (bi n j)).add (b (bi m j)) = .error .ValueError) := by
  have hf : ∀ j < k, check_frames (a (bi n j)).frame (b (bi m j)).frame = check_frames A.frame B.frame := fun j hj => by
    rw [hA.frame _ (h.lt hj), hB.frame _ (h.lt' hj)]
  unfold Nvector.add Nv.Nvector.add
  rcases hc : A.frame.isEqualTo B.frame with _ | _
  · have hc : check_frames A.frame B.frame = .error .ValueError := by unfold check_frames; rw [hc]; rfl
    exact .inr ⟨by rw [hc]; rfl, fun j hj => by rw [hf j hj, hc]; rfl⟩
  · have hc : check_frames A.frame B.frame = .ok () := by unfold check_frames; rw [hc]; rfl
    obtain ⟨X, eX, hX⟩ := map2_cols (· + ·) hA.normal hB.normal h
    obtain ⟨Z, eZ, hZ⟩ := depth_map2 (· + ·) hA.z hB.z h
    refine .inl ⟨⟨X, Z, A.frame⟩, fun j => ⟨add3 (a (bi n j)).normal (b (bi m j)).normal,
      (a (bi n j)).z + (b (bi m j)).z, (a (bi n j)).frame⟩, ?_, ⟨hX, hZ, fun j hj => hA.frame _ (h.lt hj)⟩, fun j hj => ?_⟩
    · simp only [hc, eX, eZ, bind, Except.bind]; rfl
    · rw [hf j hj, hc]; rfl

/-- **C60** `a - b` of Nvectors -/
theorem C60_nvec_sub {sa sb : Bool} {n m k : ℕ} {A B : Nvector α} {a b} (hA : IsNvec sa n A a) (hB : IsNvec sb m B b)
    (h : Bc n m k) :
    (∃ Q q, A.sub B = .ok Q ∧ IsNvec (sa && sb) k Q q ∧ ∀ j < k, (a (bi n j)).sub (b (bi m j)) = .ok (q j)) ∨
      (A.sub B = .error .ValueError ∧ ∀ j < k, (a (bi n j)).sub (b (bi m j)) = .error .ValueError) := by
  have hf : ∀ j < k, check_frames (a (bi n j)).frame (b (bi m j)).frame = check_frames A.frame B.frame := fun j hj => by
    rw [hA.frame _ (h.lt hj), hB.frame _ (h.lt' hj)]
  unfold Nvector.sub Nv.Nvector.sub
  rcases hc : A.frame.isEqualTo B.frame with _ | _
  · have hc : check_frames A.frame B.frame = .error .ValueError := by unfold check_frames; rw [hc]; rfl
    exact .inr ⟨by rw [hc]; rfl, fun j hj => by rw [hf j hj, hc]; rfl⟩
  · have hc : check_frames A.frame B.frame = .ok () := by unfold check_frames; rw [hc]; rfl
    obtain ⟨X, eX, hX⟩ := map2_cols (· - ·) hA.normal hB.normal h
    obtain ⟨Z, eZ, hZ⟩ := depth_map2 (· - ·) hA.z hB.z h
    refine .inl ⟨⟨X, Z, A.frame⟩, fun j => ⟨sub3 (a (bi n j)).normal (b (bi m j)).normal,
      (a (bi n j)).z - (b (bi m j)).z, (a (bi n j)).frame⟩, ?_, ⟨hX, hZ, fun j hj => hA.frame _ (h.lt hj)⟩, fun j hj => ?_⟩
    · simp only [hc, eX, eZ, bind, Except.bind]; rfl
    · rw [hf j hj, hc]; rfl

omit [PyFloat α] in
theorem IsDepth.map {s : Bool} {A : Arr α} {n : ℕ} {r : ℕ → α} (h : IsDepth s A n r) (f : α → α) :
    IsDepth s (A.map f) n (fun j => f (r j)) := by
  rcases h with h | ⟨hs, hn, t, z, h0, hv⟩
  · exact .inl (h.map f)
  · exact .inr ⟨hs, hn, t, _, h0.map f, fun j hj => congrArg f (hv j hj)⟩

/-- **C60** `-a` of Nvectors -/
theorem C60_nvec_neg {s : Bool} {n : ℕ} {A : Nvector α} {a} (hA : IsNvec s n A a) :
    IsNvec s n A.neg (fun j => (a j).neg) :=
  ⟨hA.normal.map _, hA.z.map _, hA.frame⟩

/-- **C60** `a * c` for a number or a vector of numbers `c`: scalar if the position and the factor are -/
theorem C60_nvec_mul {s t : Bool} {n m k : ℕ} {A : Nvector α} {C : Arr α} {a c} (hA : IsNvec s n A a) (hC : IsVal t C m c)
    (h : Bc n m k) :
    ∃ Q q, A.mul C = .ok Q ∧ IsNvec (s && t) k Q q ∧ ∀ j < k, (a (bi n j)).mul (.num (c (bi m j))) = .ok (q j) := by
  obtain ⟨X, eX, hX⟩ := map2_col_row (· * ·) hA.normal hC.row h
  obtain ⟨Z, eZ, hZ⟩ := depth_map2 (· * ·) hA.z (.inl hC) h
  exact ⟨⟨X, Z, A.frame⟩, fun j => ⟨scale3 (a (bi n j)).normal (c (bi m j)), (a (bi n j)).z * c (bi m j), (a (bi n j)).frame⟩,
    by simp only [Nvector.mul, eX, eZ, bind, Except.bind]; rfl, ⟨hX, hZ, fun j hj => hA.frame _ (h.lt hj)⟩, fun j _ => rfl⟩

/-- **C60** `a / c` -/
theorem C60_nvec_div {s t : Bool} {n m k : ℕ} {A : Nvector α} {C : Arr α} {a c} (hA : IsNvec s n A a) (hC : IsVal t C m c)
    (h : Bc n m k) :
    ∃ Q q, A.div C = .ok Q ∧ IsNvec (s && t) k Q q ∧ ∀ j < k, (a (bi n j)).div (.num (c (bi m j))) = .ok (q j) := by
  obtain ⟨X, eX, hX⟩ := map2_col_row (· / ·) hA.normal hC.row h
  obtain ⟨Z, eZ, hZ⟩ := depth_map2 (· / ·) hA.z (.inl hC) h
  exact ⟨⟨X, Z, A.frame⟩, fun j => ⟨div3 (a (bi n j)).normal (c (bi m j)), (a (bi n j)).z / c (bi m j), (a (bi n j)).frame⟩,
    by simp only [Nvector.div, eX, eZ, bind, Except.bind]; rfl, ⟨hX, hZ, fun j hj => hA.frame _ (h.lt hj)⟩, fun j _ => rfl⟩

/-- **C60** `unit()` -/
theorem C60_nvec_unit {s : Bool} {n : ℕ} {A : Nvector α} {a} (hA : IsNvec s n A a) :
    ∃ Q, A.unit = .ok Q ∧ IsNvec s n Q (fun j => (a j).unit) := by
  obtain ⟨X, eX, hX⟩ := C52_unit hA.normal (lit 1)
  exact ⟨{ A with normal := X }, by unfold Nvector.unit; rw [eX]; rfl, hX, hA.z, hA.frame⟩

/-- **C60** `mean()` of `n` positions with `n` depths is one scalar position: the mean horizontal position and the mean
of the depths -/
theorem C60_mean {n : ℕ} {A : Nvector α} {a} (hA : IsNvec false n A a) (hz : A.z.shape = [n]) :
    ∃ Q, A.mean = .ok Q ∧ IsNvec true 1 Q (fun _ => ⟨Nv.mean_horizontal_position ((List.range n).map fun j => (a j).normal),
      ((List.range n).map fun j => (a j).z).foldl (· + ·) (lit 0) / lit n, A.frame⟩) := by
  obtain ⟨X, eX, hX⟩ := C52_mean_horizontal_position hA.normal
  refine ⟨⟨X, meanAll A.z, A.frame⟩, by unfold Nvector.mean; rw [eX]; rfl, hX, .inl ⟨rfl, rfl, ?_⟩, fun _ _ => rfl⟩
  have hv : ∀ j < n, A.z.get [j] = (a j).z := by
    rcases hA.z with h | ⟨-, hn, t, z, h0, hv⟩
    · exact IsVec.val h
    · rw [h0.shape] at hz
      cases t
      · simp only [Bool.false_eq_true, if_false, List.cons.injEq, and_true] at hz
        exact absurd hz.symm hn
      · simp at hz
  have hp : prod A.z.shape = n := by rw [hz]; simp [prod]
  show _ / _ = _ / _
  rw [hp, List.foldl_map]
  congr 1
  refine List.foldl_ext _ _ _ fun acc j hj => ?_
  rw [List.mem_range] at hj
  rw [hz, ← hv j hj]
  simp [unravel, prod]

/-- **C60** `mean()` of positions with one common depth is one scalar position -/
theorem C60_mean_common {s : Bool} {n : ℕ} {A : Nvector α} {a} (hA : IsNvec s n A a) (hz : A.z.shape = []) :
    ∃ Q, A.mean = .ok Q ∧ IsNvec true 1 Q (fun _ => ⟨Nv.mean_horizontal_position ((List.range n).map fun j => (a j).normal),
      (lit 0 + A.z.get []) / lit 1, A.frame⟩) := by
  obtain ⟨X, eX, hX⟩ := C52_mean_horizontal_position hA.normal
  refine ⟨⟨X, meanAll A.z, A.frame⟩, by unfold Nvector.mean; rw [eX]; rfl, hX, .inl ⟨rfl, rfl, ?_⟩, fun _ _ => rfl⟩
  show _ / _ = _ / _
  rw [hz]
  simp [prod, unravel]

/-! ## The limit of the claim -/

/-- **C60** an ECEF vector of one ellipsoid expressed in a local frame of another: the same `ValueError` as for each pair -/
theorem C60_change_frame_other_ellipsoid {s : Bool} {n l k : ℕ} {P : ECEFvector α} {F : LocalFrame α} {g f}
    (h : IsEcef s n P g) (hF : IsLocal l F f) (hl : Bc n l k) (hne : P.frame.isEqualTo F.nvector.frame = false) :
    P.change_frame F = .error .ValueError ∧
      ∀ j < k, (g (bi n j)).change_frame (f (bi l j)) = .error .ValueError := by
  have hc : check_frames P.frame F.nvector.frame = .error .ValueError := by unfold check_frames; rw [hne]; rfl
  refine ⟨by unfold ECEFvector.change_frame; rw [hc]; rfl, fun j hj => ?_⟩
  unfold Nv.ECEFvector.change_frame
  rw [h.frame _ (hl.lt hj), hF.frame _ (hl.lt' hj), hc]; rfl

/-- **C60, counterexample** a scalar ECEF vector expressed in a frame with `l ≥ 2` origins: the result has `l` columns but
still says that it is scalar, and `length` returns only the first of the `l` lengths.  (objects.py:773 passes
`scalar=self.scalar`.) -/
theorem C60_change_frame_counterexample {l : ℕ} {P : ECEFvector α} {F : LocalFrame α} {g f} (h : IsEcef true 1 P g)
    (hF : IsLocal l F f) (hl : 2 ≤ l) (hc : check_frames P.frame F.nvector.frame = .ok ()) :
    ∃ Q, P.change_frame F = .ok Q ∧ Q.scalar = true ∧ Q.pvector.shape = [3, l] ∧
      ∃ x, length Q.pvector Q.scalar = .ok x ∧ x.shape = [] := by
  have hl0 : 0 < l := by omega
  obtain ⟨R, eR, hR⟩ := C60_R_EN hF hl0
  obtain ⟨S, eS, hS⟩ := swap_pages hR
  obtain ⟨B', X, Y, e1, e2, e3, hY⟩ := mdot_cols hS h.pvector (.one l)
  obtain ⟨L, eL, hL⟩ := norm0_cols hY
  refine ⟨⟨Y, F, P.scalar⟩, ?_, h.scalar, hY.shape, ⟨[], fun idx => L.get (0 :: idx)⟩, ?_, rfl⟩
  · unfold ECEFvector.change_frame
    simp only [hc, eR, eS, e1, e2, e3, bind, Except.bind]; rfl
  · show length Y P.scalar = _
    unfold length
    rw [eL, h.scalar]
    show L.row 0 = _
    unfold Arr.row
    rw [hL.shape]
    simp only [if_pos hl0]

end

/-! ## The hypotheses are met -/

section
open XR (fin)

/-- three positions with different latitudes on one meridian, on the WGS84 ellipsoid -/
noncomputable def threeGeo : GeoPoint XR :=
  ⟨⟨[3], fun i => fin (i.headD 0)⟩, ⟨[3], fun _ => fin 1⟩, ⟨[3], fun _ => fin 0⟩,
    .real 6378137 (1 / 298.257223563) (.str "WGS84") Spec.one⟩

/-- a scalar position -/
noncomputable def oneGeo : GeoPoint XR :=
  ⟨scalar (fin 1), scalar (fin 2), scalar (fin 3), .real 6378137 (1 / 298.257223563) (.str "WGS84") Spec.one⟩

theorem threeGeo_pos : IsPos false 3 (.geo threeGeo) (fun j => .geo ⟨fin j, fin 1, fin 0, threeGeo.frame⟩) :=
  .geo ⟨⟨rfl, fun _ _ => rfl⟩, ⟨rfl, fun _ _ => rfl⟩, ⟨rfl, fun _ _ => rfl⟩, fun _ _ => rfl⟩ fun _ _ => rfl
theorem oneGeo_pos : IsPos true 1 (.geo oneGeo) (fun _ => .geo ⟨fin 1, fin 2, fin 3, oneGeo.frame⟩) :=
  .geo ⟨⟨rfl, rfl, rfl⟩, ⟨rfl, rfl, rfl⟩, ⟨rfl, rfl, rfl⟩, fun _ _ => rfl⟩ fun _ _ => rfl

/-- the vectors from one position to three others: three vectors, not a scalar -/
example : ∃ Q q, delta_N (.geo oneGeo) (.geo threeGeo) = .ok Q ∧ IsPvec false 3 Q q := by
  rcases C60_delta_N oneGeo_pos threeGeo_pos (.one' 3) (by norm_num) with ⟨Q, q, h1, ⟨h2, -⟩, -⟩ | ⟨-, h⟩
  · exact ⟨Q, q, h1, h2⟩
  · exfalso
    have := h 0 (by norm_num)
    unfold Nv.delta_N Nv.delta_E Nv.ECEFvector.sub at this
    have hc := check_frames_real 6378137 (1 / 298.257223563) (.str "WGS84") Spec.one
    have h1 : check_frames (Nv.Position.geo ⟨fin ((bi 3 0 : ℕ) : ℝ), fin 1, fin 0, threeGeo.frame⟩).to_ecef_vector.frame
      (Nv.Position.geo ⟨fin 1, fin 2, fin 3, oneGeo.frame⟩).to_ecef_vector.frame = .ok () := hc
    rw [h1] at this
    simp only [bind, Except.bind, pure, Except.pure] at this
    unfold Nv.ECEFvector.change_frame at this
    have h2 : check_frames (Nv.Position.geo ⟨fin ((bi 3 0 : ℕ) : ℝ), fin 1, fin 0, threeGeo.frame⟩).to_ecef_vector.frame
      (Nv.FrameN (Nv.Position.geo ⟨fin 1, fin 2, fin 3, oneGeo.frame⟩)).nvector.frame = .ok () := hc
    rw [h2] at this
    simp [bind, Except.bind, pure, Except.pure] at this

example : ∃ Q, [Conversion.to_ecef_vector, .to_geo_point, .to_nvector].foldlM Position.convert (.geo threeGeo) = .ok Q ∧
    ∃ q, IsPos false 3 Q q := by
  obtain ⟨Q, h1, h2⟩ := C60_conversions threeGeo_pos (by norm_num) [.to_ecef_vector, .to_geo_point, .to_nvector]
  exact ⟨Q, h1, _, h2⟩

end

end Nv.ND
