import Verif.Props.Geodesics
import Verif.Props.Sizes

/-!
# C134: arrays of lengths that do not fit are rejected
-/

namespace Nv.ND
open PyFloat

/-- two lengths that neither agree nor are one -/
structure Spec.Clash (n m : ℕ) : Prop where
  ne : n ≠ m
  left : n ≠ 1
  right : m ≠ 1

theorem Spec.Clash.symm {n m : ℕ} (h : Spec.Clash n m) : Spec.Clash m n := ⟨h.ne.symm, h.right, h.left⟩

theorem bshape_clash {n m : ℕ} (h : Spec.Clash n m) (s t : List ℕ) : bshape (s ++ [n]) (t ++ [m]) = .error .ValueError := by
  unfold bshape
  rw [List.reverse_append, List.reverse_append]
  show (do let r ← bshapeRev (n :: s.reverse) (m :: t.reverse); pure r.reverse) = _
  unfold bshapeRev
  rw [bdim_error h.ne h.left h.right]; rfl

section
variable {α β γ : Type}

theorem map2_clash (f : α → β → γ) {n m : ℕ} (h : Spec.Clash n m) {A : Arr α} {B : Arr β} {s t : List ℕ}
    (hA : A.shape = s ++ [n]) (hB : B.shape = t ++ [m]) : map2 f A B = .error .ValueError := by
  unfold map2
  rw [hA, hB, bshape_clash h]; rfl

theorem IsCols.last {A : Arr α} {n : ℕ} {c} (h : IsCols A n c) : A.shape = [3] ++ [n] := h.shape
theorem IsVec.last {A : Arr α} {n : ℕ} {c} (h : IsVec A n c) : A.shape = [] ++ [n] := h.shape
theorem IsRow.last {A : Arr α} {n : ℕ} {c} (h : IsRow A n c) (hn : n ≠ 1) : ∃ s, A.shape = s ++ [n] := by
  rcases h.shape with ⟨-, h⟩ | h | h
  · exact absurd h hn
  · exact ⟨[], h⟩
  · exact ⟨[1], h⟩

theorem map2_clash_rows (f : α → β → γ) {n m : ℕ} (h : Spec.Clash n m) {A : Arr α} {B : Arr β} {p q}
    (hA : IsRow A n p) (hB : IsRow B m q) : map2 f A B = .error .ValueError := by
  obtain ⟨s, hs⟩ := hA.last h.left
  obtain ⟨t, ht⟩ := hB.last h.right
  exact map2_clash f h hs ht

theorem map2_clash_col_row (f : α → β → γ) {n m : ℕ} (h : Spec.Clash n m) {A : Arr α} {B : Arr β} {p q}
    (hA : IsCols A n p) (hB : IsRow B m q) : map2 f A B = .error .ValueError := by
  obtain ⟨t, ht⟩ := hB.last h.right
  exact map2_clash f h hA.last ht

theorem map2_clash_row_col (f : α → β → γ) {n m : ℕ} (h : Spec.Clash n m) {A : Arr α} {B : Arr β} {p q}
    (hA : IsRow A n p) (hB : IsCols B m q) : map2 f A B = .error .ValueError := by
  obtain ⟨t, ht⟩ := hA.last h.left
  exact map2_clash f h ht hB.last

theorem map2_clash_cols (f : α → β → γ) {n m : ℕ} (h : Spec.Clash n m) {A : Arr α} {B : Arr β} {p q}
    (hA : IsCols A n p) (hB : IsCols B m q) : map2 f A B = .error .ValueError := map2_clash f h hA.last hB.last
end

section
variable {α : Type} [PyFloat α]

theorem cross0_clash {n m : ℕ} (h : Spec.Clash n m) {A B : Arr α} {p q} (hA : IsCols A n p) (hB : IsCols B m q) :
    cross0 A B = .error .ValueError := by
  unfold cross0
  rw [hA.shape, hB.shape]
  show (do let r ← bshape ([] ++ [n]) ([] ++ [m]); _) = _
  rw [bshape_clash h]; rfl

/-- **C134** latitudes and longitudes -/
theorem C134_lat_lon2n_E {n m : ℕ} (h : Spec.Clash n m) {lat lon : Arr α} {p q : ℕ → α} (hlat : IsRow lat n p)
    (hlon : IsRow lon m q) (R : M3 α) : lat_lon2n_E lat lon R = .error .ValueError := by
  unfold lat_lon2n_E
  rw [map2_clash_rows _ h.symm (hlon.map sin) (hlat.map cos)]; rfl

/-- **C134** n-vectors and depths -/
theorem C134_n_EB_E2p_EB_E {n m : ℕ} (h : Spec.Clash n m) (hn : 0 < n) {A depth : Arr α} {c : ℕ → V3 α} {z : ℕ → α}
    (hA : IsCols A n c) (hz : IsRow depth m z) (a f : α) (R : M3 α) :
    n_EB_E2p_EB_E A depth a f R = .error .ValueError := by
  obtain ⟨B, eB, hB⟩ := dot_ofM3 R hA
  obtain ⟨U, eU, hU⟩ := unit_cols hB (lit 1)
  obtain ⟨S, eS, hS⟩ := vstack3_rows (IsRow.scalar (lit 1 : α)) (IsRow.scalar (lit 1 - f)) (IsRow.scalar (lit 1 - f))
  obtain ⟨D, eD, hD⟩ := map2_cols_const (· / ·) hU hS
  obtain ⟨N, eN, hN⟩ := norm0k_row hD
  obtain ⟨s, es, hs⟩ := map2_rows (· / ·) (IsRow.scalar (a * (lit 1 - f))) hN (.one' n)
  obtain ⟨q, eq, hq⟩ := map2_row_col' (· * ·) hs hU
  obtain ⟨P, eP, hP⟩ := map2_cols_const (· / ·) hq (hS.map (powNat · 2))
  unfold n_EB_E2p_EB_E
  simp only [check_ok hA hn, eB, eU, eS, eD, eN, es, eq, eP, map2_clash_col_row (· * ·) h hU hz, bind, Except.bind]

/-- **C134** positions A and positions B of `n_EA_E_and_n_EB_E2p_AB_E` and of `n_EA_E_and_n_EB_E2azimuth` -/
theorem C134_n_EA_E_and_n_EB_E2p_AB_E {n m : ℕ} (h : Spec.Clash n m) (hn : 0 < n) (hm : 0 < m) {A B zA zB : Arr α}
    {lA lB : ℕ} {c d : ℕ → V3 α} {p q : ℕ → α} (hA : IsCols A n c) (hB : IsCols B m d) (hzA : IsRow zA lA p) (hzB : IsRow zB lB q)
    (h1 : lA = n ∨ lA = 1) (h2 : lB = m ∨ lB = 1) (a f : α) (R : M3 α) :
    n_EA_E_and_n_EB_E2p_AB_E A B zA zB a f R = .error .ValueError := by
  obtain ⟨X, eX, hX⟩ := C52_n_EB_E2p_EB_E hA hzA hn ⟨.inl rfl, h1, .inl rfl⟩ a f R
  obtain ⟨Y, eY, hY⟩ := C52_n_EB_E2p_EB_E hB hzB hm ⟨.inl rfl, h2, .inl rfl⟩ a f R
  unfold n_EA_E_and_n_EB_E2p_AB_E
  simp only [eX, eY, bind, Except.bind, map2_clash_cols (· - ·) h.symm hY hX]

/-- **C134** positions A and positions B of the azimuth -/
theorem C134_n_EA_E_and_n_EB_E2azimuth {n m : ℕ} (h : Spec.Clash n m) (hn : 0 < n) (hm : 0 < m) {A B : Arr α}
    {c d : ℕ → V3 α} (hA : IsCols A n c) (hB : IsCols B m d) (a f : α) (R : M3 α) :
    n_EA_E_and_n_EB_E2azimuth A B a f R = .error .ValueError := by
  unfold n_EA_E_and_n_EB_E2azimuth
  rw [C134_n_EA_E_and_n_EB_E2p_AB_E h hn hm hA hB (IsRow.scalar (lit 0 : α)) (IsRow.scalar (lit 0 : α)) (.inr rfl) (.inr rfl)]
  rfl

/-- **C134** positions and vectors between positions -/
theorem C134_n_EA_E_and_p_AB_E2n_EB_E {n m : ℕ} (h : Spec.Clash n m) (hn : 0 < n) {A P zA : Arr α} {lA : ℕ} {c d : ℕ → V3 α}
    {p : ℕ → α} (hA : IsCols A n c) (hP : IsCols P m d) (hz : IsRow zA lA p) (h1 : lA = n ∨ lA = 1) (a f : α) (R : M3 α) :
    n_EA_E_and_p_AB_E2n_EB_E A P zA a f R = .error .ValueError := by
  obtain ⟨X, eX, hX⟩ := C52_n_EB_E2p_EB_E hA hz hn ⟨.inl rfl, h1, .inl rfl⟩ a f R
  unfold n_EA_E_and_p_AB_E2n_EB_E
  simp only [eX, bind, Except.bind, map2_clash_cols (· + ·) h hX hP]

/-- **C134** the two ends of the paths -/
theorem C134_path_ends {n m : ℕ} (h : Spec.Clash n m) {A B C D ti : Arr α} {c d : ℕ → V3 α} (hA : IsCols A n c)
    (hB : IsCols B m d) (method : String) (radius atol : α) :
    interpolate A B ti = .error .ValueError ∧ intersect A B C D = .error .ValueError ∧
    great_circle_normal A B = .error .ValueError ∧ cross_track_distance A B C method radius = .error .ValueError ∧
    on_great_circle A B C radius atol = .error .ValueError ∧ on_great_circle_path A B C radius atol = .error .ValueError ∧
    closest_point_on_great_circle A B C = .error .ValueError ∧ great_circle_distance A B radius = .error .ValueError ∧
    euclidean_distance A B radius = .error .ValueError := by
  have e1 : cross0 A B = .error .ValueError := cross0_clash h hA hB
  have e2 : great_circle_normal A B = .error .ValueError := by unfold great_circle_normal; rw [e1]; rfl
  have e3 : ∀ method, cross_track_distance A B C method radius = .error .ValueError := fun method => by
    unfold cross_track_distance; rw [e2]; rfl
  refine ⟨?_, ?_, e2, e3 _, ?_, ?_, ?_, ?_, ?_⟩
  · unfold interpolate; rw [map2_clash_cols _ h.symm hB hA]; rfl
  · unfold intersect; rw [e1]; rfl
  · unfold on_great_circle; rw [e3]; rfl
  · unfold on_great_circle_path; rw [map2_clash_cols _ h.symm hB hA]; rfl
  · unfold closest_point_on_great_circle; rw [e2]; rfl
  · unfold great_circle_distance; rw [e1]; rfl
  · unfold euclidean_distance; rw [map2_clash_cols _ h.symm hB hA]; rfl

/-- **C134** paths and times -/
theorem C134_interpolate {n m : ℕ} (h : Spec.Clash n m) {A B ti : Arr α} {c d : ℕ → V3 α} {t : ℕ → α} (hA : IsCols A n c)
    (hB : IsCols B n d) (ht : IsRow ti m t) : interpolate A B ti = .error .ValueError := by
  obtain ⟨D, eD, hD⟩ := map2_cols' (· - ·) hB hA
  unfold interpolate
  simp only [eD, bind, Except.bind, map2_clash_row_col (fun t x => x * t) h.symm ht hD]

/-- **C134** paths and points -/
theorem C134_path_points {n m : ℕ} (h : Spec.Clash n m) {A B C : Arr α} {c d e : ℕ → V3 α} (hA : IsCols A n c)
    (hB : IsCols B n d) (hC : IsCols C m e) (radius atol : α) :
    on_great_circle_path A B C radius atol = .error .ValueError ∧ closest_point_on_great_circle A B C = .error .ValueError := by
  constructor
  · obtain ⟨D, eD, hD⟩ := map2_cols' (· - ·) hB hA
    obtain ⟨N, eN, hN⟩ := norm0_cols hD
    unfold on_great_circle_path
    simp only [eD, eN, bind, Except.bind, map2_clash_cols (· - ·) h.symm hC hA]
  · obtain ⟨D, eD, hD⟩ := C52_great_circle_normal hA hB (.self n)
    unfold closest_point_on_great_circle
    simp only [eD, bind, Except.bind, cross0_clash h.symm hC hD]

/-- **C134** two numbers of paths -/
theorem C134_intersect {n m : ℕ} (h : Spec.Clash n m) {A B C D : Arr α} {a b c d : ℕ → V3 α} (hA : IsCols A n a)
    (hB : IsCols B n b) (hC : IsCols C m c) (hD : IsCols D m d) : intersect A B C D = .error .ValueError := by
  obtain ⟨X, eX, hX⟩ := cross0_cols' hA hB
  obtain ⟨Y, eY, hY⟩ := cross0_cols' hC hD
  unfold intersect
  simp only [eX, eY, bind, Except.bind, cross0_clash h hX hY]

/-- **C134** `cross_track_distance` and `on_great_circle` are the only calls that accept such lengths: `n` paths and `m` points
give `n * m` results, all paths with all points -/
theorem C134_all_pairs {n m : ℕ} {A B C : Arr α} {a b c : ℕ → V3 α} (hA : IsCols A n a) (hB : IsCols B n b)
    (hC : IsCols C m c) (radius atol : α) :
    (∃ X, cross_track_distance A B C "greatcircle" radius = .ok X ∧ X.shape = [n * m] ∧ ∀ i < n, ∀ j < m,
      Nv.cross_track_distance (a i, b i) (c j) "greatcircle" radius = .ok (X.get [i * m + j])) ∧
    ∃ X, on_great_circle A B C radius atol = .ok X ∧ X.shape = [n * m] ∧ ∀ i < n, ∀ j < m,
      Nv.on_great_circle (a i, b i) (c j) radius atol = X.get [i * m + j] := by
  obtain ⟨X, e, s, v⟩ := C53_cross_track_distance hA hB hC "greatcircle" 'g' "reatcircle".toList (by decide) radius
  have v' : ∀ i < n, ∀ j < m, Nv.cross_track_distance (a i, b i) (c j) "greatcircle" radius = .ok (X.get [i * m + j]) :=
    fun i hi j hj => by
      rw [v i hi j hj, ctd_eq "greatcircle" 'g' "reatcircle".toList (by decide)]
  refine ⟨⟨X, e, s, v'⟩, ⟨(X.map PyFloat.abs).map (le · atol), ?_, s, fun i hi j hj => ?_⟩⟩
  · unfold on_great_circle
    rw [e]; rfl
  · unfold Nv.on_great_circle abs_cross_track
    rw [v' i hi j hj]; rfl

/-- **C134** positions and azimuths of the direct problem -/
theorem C134_azimuths {n m : ℕ} (h : Spec.Clash n m) {A dist az : Arr α} {c : ℕ → V3 α} {t : ℕ → α}
    (hA : IsCols A n c) (ha : IsRow az m t) (R : M3 α) :
    n_EA_E_distance_and_azimuth2n_EB_E A dist az R = .error .ValueError := by
  obtain ⟨P, eP, hP⟩ := dot_ofM3T R (ofV3_cols (⟨lit 1, lit 0, lit 0⟩ : V3 α))
  obtain ⟨C, eC, hC⟩ := cross0_cols hP hA (.one' n)
  obtain ⟨E, eE, hE⟩ := unit_cols hC (lit 1)
  obtain ⟨N, eN, hN⟩ := cross0_cols' hA hE
  unfold n_EA_E_distance_and_azimuth2n_EB_E
  simp only [eP, eC, eE, eN, map2_clash_col_row (· * ·) h hN (ha.map cos), bind, Except.bind]

/-- **C134** positions and distances of the direct problem -/
theorem C134_distances {n m l : ℕ} (h : Spec.Clash n m) {A dist az : Arr α} {c : ℕ → V3 α} {s t : ℕ → α}
    (hA : IsCols A n c) (hd : IsRow dist m s) (ha : IsRow az l t) (hl : l = n ∨ l = 1) (R : M3 α) :
    n_EA_E_distance_and_azimuth2n_EB_E A dist az R = .error .ValueError := by
  obtain ⟨P, eP, hP⟩ := dot_ofM3T R (ofV3_cols (⟨lit 1, lit 0, lit 0⟩ : V3 α))
  obtain ⟨C, eC, hC⟩ := cross0_cols hP hA (.one' n)
  obtain ⟨E, eE, hE⟩ := unit_cols hC (lit 1)
  obtain ⟨N, eN, hN⟩ := cross0_cols' hA hE
  have bA : Bc n l n := ⟨.inl rfl, hl, .inl rfl⟩
  obtain ⟨X1, e1, h1⟩ := map2_col_row (· * ·) hN (ha.map cos) bA
  obtain ⟨X2, e2, h2⟩ := map2_col_row (· * ·) hE (ha.map sin) bA
  obtain ⟨X3, e3, h3⟩ := map2_cols' (· + ·) h1 h2
  unfold n_EA_E_distance_and_azimuth2n_EB_E
  simp only [eP, eC, eE, eN, e1, e2, e3, map2_clash_col_row (· * ·) h hA (hd.map cos), bind, Except.bind]

/-- broadcasting fails with `ValueError` and with nothing else -/
theorem bshapeRev_error : ∀ (s t : List ℕ) (e : PyErr), bshapeRev s t = .error e → e = .ValueError
  | [], t, e => fun h => by unfold bshapeRev at h; cases h
  | m :: s, [], e => fun h => by unfold bshapeRev at h; cases h
  | m :: s, n :: t, e => fun h => by
    unfold bshapeRev at h
    have hd : ∀ e, bdim m n = .error e → e = .ValueError := fun e he => by
      unfold bdim at he; split_ifs at he; exact (Except.error.inj he).symm
    rcases hb : bdim m n with e' | d
    · rw [hb] at h
      obtain rfl : e' = e := Except.error.inj h
      exact hd _ hb
    · rw [hb] at h
      rcases hr : bshapeRev s t with e' | r
      · rw [hr] at h
        obtain rfl : e' = e := Except.error.inj h
        exact bshapeRev_error s t _ hr
      · rw [hr] at h; cases h

theorem bshape_error {s t : List ℕ} {e : PyErr} (h : bshape s t = .error e) : e = .ValueError := by
  unfold bshape at h
  rcases hr : bshapeRev s.reverse t.reverse with e' | r
  · rw [hr] at h
    obtain rfl : e' = e := Except.error.inj h
    exact bshapeRev_error _ _ _ hr
  · rw [hr] at h; cases h

/-- the last axis of a broadcast shape -/
theorem bshape_last {s t r : List ℕ} {n : ℕ} (hn : n ≠ 1) (h : bshape s t = .ok r)
    (hst : (∃ s', s = s' ++ [n]) ∨ ∃ t', t = t' ++ [n]) : ∃ r', r = r' ++ [n] := by
  unfold bshape at h
  rcases hr : bshapeRev s.reverse t.reverse with e' | q
  · rw [hr] at h; cases h
  rw [hr] at h
  obtain rfl : q.reverse = r := Except.ok.inj h
  suffices ∃ q', q = n :: q' by
    obtain ⟨q', rfl⟩ := this
    exact ⟨q'.reverse, by simp⟩
  have key : ∀ {s t q : List ℕ}, bshapeRev s t = .ok q → ((∃ s', s = n :: s') ∨ ∃ t', t = n :: t') → ∃ q', q = n :: q' := by
    intro s t q h hst
    cases s with
    | nil =>
      unfold bshapeRev at h
      obtain rfl := Except.ok.inj h
      rcases hst with ⟨_, h⟩ | h
      · cases h
      · exact h
    | cons a s =>
      cases t with
      | nil =>
        unfold bshapeRev at h
        obtain rfl := Except.ok.inj h
        rcases hst with h | ⟨_, h⟩
        · exact h
        · cases h
      | cons b t =>
        unfold bshapeRev at h
        rcases hb : bdim a b with e' | d
        · rw [hb] at h; cases h
        rw [hb] at h
        rcases hr : bshapeRev s t with e' | r
        · rw [hr] at h; cases h
        rw [hr] at h
        obtain rfl : d :: r = q := Except.ok.inj h
        have hB := bdim_eq_ok.mp hb
        refine ⟨r, ?_⟩
        have : d = n := by
          obtain ⟨h1, h2, h3⟩ := hB
          rcases hst with ⟨s', h⟩ | ⟨s', h⟩
          · obtain ⟨rfl, -⟩ := List.cons.inj h
            rcases h1 with h1 | h1
            · exact h1.symm
            · exact absurd h1 hn
          · obtain ⟨rfl, -⟩ := List.cons.inj h
            rcases h2 with h1 | h1
            · exact h1.symm
            · exact absurd h1 hn
        rw [this]
  refine key hr ?_
  rcases hst with ⟨s', rfl⟩ | ⟨s', rfl⟩
  · exact .inl ⟨s'.reverse, by simp⟩
  · exact .inr ⟨s'.reverse, by simp⟩

theorem foldlM_last {n : ℕ} (hn : n ≠ 1) : ∀ (l : List (List ℕ)) (s r : List ℕ), l.foldlM bshape s = .ok r →
    ((∃ s', s = s' ++ [n]) ∨ ∃ t ∈ l, ∃ t', t = t' ++ [n]) → ∃ r', r = r' ++ [n]
  | [], s, r, h, hs => by
    obtain rfl : s = r := Except.ok.inj h
    rcases hs with h | ⟨_, h, _⟩
    · exact h
    · cases h
  | t :: l, s, r, h, hs => by
    rw [List.foldlM_cons] at h
    rcases hb : bshape s t with e | q
    · rw [hb] at h; cases h
    rw [hb] at h
    refine foldlM_last hn l q r h ?_
    rcases hs with h | ⟨t', ht, h⟩
    · exact .inl (bshape_last hn hb (.inl h))
    · rcases List.mem_cons.mp ht with rfl | ht
      · exact .inl (bshape_last hn hb (.inr h))
      · exact .inr ⟨t', ht, h⟩

theorem foldlM_error : ∀ (l : List (List ℕ)) (s : List ℕ) (e : PyErr), l.foldlM bshape s = .error e → e = .ValueError
  | [], s, e, h => by cases h
  | t :: l, s, e, h => by
    rw [List.foldlM_cons] at h
    rcases hb : bshape s t with e' | q
    · rw [hb] at h
      obtain rfl : e' = e := Except.error.inj h
      exact bshape_error hb
    · rw [hb] at h
      exact foldlM_error l q e h

/-- shapes two of which clash in the last axis -/
theorem bshapes_clash {n m : ℕ} (h : Spec.Clash n m) {l : List (List ℕ)} {s t : List ℕ} (hs : s ++ [n] ∈ l) (ht : t ++ [m] ∈ l) :
    bshapes l = .error .ValueError := by
  unfold bshapes
  rcases hr : l.foldlM bshape [] with e | r
  · rw [foldlM_error l [] e hr]
  · obtain ⟨r1, h1⟩ := foldlM_last h.left l [] r hr (.inr ⟨_, hs, _, rfl⟩)
    obtain ⟨r2, h2⟩ := foldlM_last h.right l [] r hr (.inr ⟨_, ht, _, rfl⟩)
    rw [h1] at h2
    have := (List.append_inj' h2 rfl).2
    exact absurd (List.cons.inj this).1 h.ne

/-- **C134** any two of the arguments of `FrameE.inverse` and `FrameE.direct`: the arrays may have any shape, the last axes
of two of them clash -/
theorem C134_geodesic {n m : ℕ} (h : Spec.Clash n m) {A1 A2 A3 A4 A5 : Arr α} {s t : List ℕ}
    (hs : s ++ [n] ∈ [A1.shape, A2.shape, A3.shape, A4.shape, A5.shape])
    (ht : t ++ [m] ∈ [A1.shape, A2.shape, A3.shape, A4.shape, A5.shape]) (G : Geodesic α) (F : FrameE α)
    (long_unroll degrees : Bool) :
    inverse G F A1 A2 A3 A4 A5 long_unroll degrees = .error .ValueError ∧
      direct G F A1 A2 A3 A4 A5 long_unroll degrees = .error .ValueError := by
  have e := bshapes_clash h hs ht
  constructor
  · unfold inverse
    cases degrees
    · simp only [Bool.false_eq_true, if_false, Arr.map, e, bind, Except.bind]
    · simp only [if_true, e, bind, Except.bind]
  · unfold direct
    cases degrees
    · simp only [Bool.false_eq_true, if_false, Arr.map, e, bind, Except.bind]
    · simp only [if_true, e, bind, Except.bind]

/-- **C134** any two of latitude, longitude and depth of `GeoPoint(latitude, longitude, z)` -/
theorem C134_GeoPoint {n m : ℕ} (h : Spec.Clash n m) {lat lon z : Arr α} {s t : List ℕ}
    (hs : s ++ [n] ∈ [lat.shape, lon.shape, z.shape]) (ht : t ++ [m] ∈ [lat.shape, lon.shape, z.shape]) (F : FrameE α)
    (degrees : Bool) : GeoPoint.new lat lon z F degrees = .error .ValueError := by
  have e := bshapes_clash h hs ht
  unfold bshapes at e
  simp only [List.foldlM_cons, List.foldlM_nil, bshape_0n] at e
  have e' : (do let s ← bshape lat.shape lon.shape; bshape s z.shape) = .error .ValueError := by
    simp only [bind_pure] at e; exact e
  unfold GeoPoint.new
  have hsh : ∀ A : Arr α, (if degrees then A.map deg2rad else A).shape = A.shape := fun A => by cases degrees <;> rfl
  simp only [hsh]
  rcases h1 : bshape lat.shape lon.shape with e1 | r
  · rw [h1] at e'; rw [show e1 = _ from Except.error.inj e']; rfl
  · rw [h1] at e'
    have e' : bshape r z.shape = .error .ValueError := e'
    simp only [e', bind, Except.bind]

/-- **C134** any two of the angles of `xyz2R` and `zyx2R` -/
theorem C134_angles {n m : ℕ} (h : Spec.Clash n m) {x y z : Arr α} {s t : List ℕ}
    (hs : s ++ [n] ∈ [x.shape, y.shape, z.shape]) (ht : t ++ [m] ∈ [x.shape, y.shape, z.shape]) :
    xyz2R x y z = .error .ValueError ∧ zyx2R z y x = .error .ValueError := by
  have e := bshapes_clash h hs ht
  unfold bshapes at e
  simp only [List.foldlM_cons, List.foldlM_nil, bshape_0n] at e
  have e' : (do let s ← bshape x.shape y.shape; bshape s z.shape) = .error .ValueError := by
    simp only [bind_pure] at e; exact e
  have key : ∀ b : α → α → α → M3 α, matrices b x y z = .error .ValueError := fun b => by
    unfold matrices
    rcases h1 : bshape x.shape y.shape with e1 | r
    · rw [h1] at e'; rw [show e1 = _ from Except.error.inj e']; rfl
    · rw [h1] at e'
      have e' : bshape r z.shape = .error .ValueError := e'
      simp only [e', bind, Except.bind]
  exact ⟨key _, key _⟩

/-- **C134** positions and wander azimuths -/
theorem C134_n_E_and_wa2R_EL {n m : ℕ} (h : Spec.Clash n m) (hn : 0 < n) {A wa : Arr α} {c : ℕ → V3 α} {w : ℕ → α}
    (hA : IsCols A n c) (hw : IsRow wa m w) (R : M3 α) : n_E_and_wa2R_EL A wa R = .error .ValueError := by
  obtain ⟨lat, lon, e, hlat, hlon⟩ := C52_n_E2lat_lon hA hn R
  obtain ⟨t, ht⟩ := hw.last h.right
  have := (C134_angles h (x := lon) (y := lat.map (fun x => -x)) (z := wa) (s := []) (t := t)
    (by rw [hlon.shape]; simp) (by rw [ht]; simp)).1
  unfold n_E_and_wa2R_EL
  simp only [e, this, bind, Except.bind]

/-- **C134** sums and differences of position objects -/
theorem C134_add_sub {n m : ℕ} (h : Spec.Clash n m) {sa sb sc sd : Bool} {A B : ECEFvector α} {C D : Nvector α} {a b c d}
    (hA : IsEcef sa n A a) (hB : IsEcef sb m B b) (hC : IsNvec sc n C c) (hD : IsNvec sd m D d) :
    A.add B = .error .ValueError ∧ A.sub B = .error .ValueError ∧ C.add D = .error .ValueError ∧
      C.sub D = .error .ValueError := by
  have key : ∀ F G : FrameE α, check_frames F G = .ok () ∨ check_frames F G = .error .ValueError := fun F G => by
    unfold check_frames; split
    · exact .inl rfl
    · exact .inr rfl
  refine ⟨?_, ?_, ?_, ?_⟩
  · unfold ECEFvector.add
    rcases key A.frame B.frame with e | e
    · simp only [e, map2_clash_cols (· + ·) h hA.pvector hB.pvector, bind, Except.bind]
    · rw [e]; rfl
  · unfold ECEFvector.sub
    rcases key A.frame B.frame with e | e
    · simp only [e, map2_clash_cols (· - ·) h hA.pvector hB.pvector, bind, Except.bind]
    · rw [e]; rfl
  · unfold Nvector.add
    rcases key C.frame D.frame with e | e
    · simp only [e, map2_clash_cols (· + ·) h hC.normal hD.normal, bind, Except.bind]
    · rw [e]; rfl
  · unfold Nvector.sub
    rcases key C.frame D.frame with e | e
    · simp only [e, map2_clash_cols (· - ·) h hC.normal hD.normal, bind, Except.bind]
    · rw [e]; rfl

/-- **C134** two numbers of positions of any classes: the vectors between them, also in local frames, are rejected -/
theorem C134_delta {n m : ℕ} (h : Spec.Clash n m) (hn : 0 < n) (hm : 0 < m) {sa sb : Bool} {A B : Position α} {a b}
    (hA : IsPos sa n A a) (hB : IsPos sb m B b) (W : Arr α) :
    delta_E A B = .error .ValueError ∧ delta_N A B = .error .ValueError ∧ delta_L A B W = .error .ValueError := by
  obtain ⟨X, eX, hX⟩ := C60_to_ecef_vector hA hn
  obtain ⟨Y, eY, hY⟩ := C60_to_ecef_vector hB hm
  obtain ⟨N, eN, hN⟩ := C60_to_nvector hA hn
  have e : delta_E A B = .error .ValueError := by
    unfold delta_E
    simp only [eX, eY, bind, Except.bind]
    exact (C134_add_sub h.symm hY hX (C := ⟨Y.pvector, ND.scalar (lit 0), Y.frame⟩) (D := ⟨X.pvector, ND.scalar (lit 0), X.frame⟩)
      (sc := false) (sd := false) (c := fun j => ⟨(b j).to_ecef_vector.pvector, lit 0, Y.frame⟩)
      (d := fun j => ⟨(a j).to_ecef_vector.pvector, lit 0, X.frame⟩)
      ⟨hY.pvector, .inr ⟨rfl, h.right, true, fun _ => lit 0, ⟨rfl, rfl, rfl⟩, fun _ _ => rfl⟩, fun _ _ => rfl⟩
      ⟨hX.pvector, .inr ⟨rfl, h.left, true, fun _ => lit 0, ⟨rfl, rfl, rfl⟩, fun _ _ => rfl⟩, fun _ _ => rfl⟩).2.1
  refine ⟨e, ?_, ?_⟩
  · unfold delta_N; rw [e]; rfl
  · unfold delta_L FrameL
    simp only [eN, e, bind, Except.bind, pure, Except.pure]

/-- the hypotheses are met: two positions against three -/
example (x : α) : Spec.Clash 2 3 ∧ IsCols (⟨[3, 2], fun _ => x⟩ : Arr α) 2 (fun _ => ⟨x, x, x⟩) ∧
    IsRow (⟨[3], fun _ => x⟩ : Arr α) 3 (fun _ => x) ∧ ([] : List ℕ) ++ [2] ∈ [(⟨[2], fun _ => x⟩ : Arr α).shape, [3], []] :=
  ⟨⟨by decide, by decide, by decide⟩, ⟨rfl, fun _ _ => rfl⟩, .inr (.inl ⟨rfl, fun _ _ => rfl⟩), by simp⟩

example (x : α) : lat_lon2n_E (⟨[2], fun _ => x⟩ : Arr α) ⟨[3], fun _ => x⟩ = .error .ValueError :=
  C134_lat_lon2n_E (n := 2) (m := 3) ⟨by decide, by decide, by decide⟩ (p := fun _ => x) (q := fun _ => x)
    (.inr (.inl ⟨rfl, fun _ _ => rfl⟩)) (.inr (.inl ⟨rfl, fun _ _ => rfl⟩)) R_e

end
end Nv.ND
