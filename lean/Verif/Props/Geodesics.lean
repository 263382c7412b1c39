import Verif.Props.ScalarObjects
import Verif.ND.Paths
import Mathlib.Data.List.GetD

/-!
# C65: the geodesic problems on vectors
-/

namespace Nv.ND
open PyFloat

/-- vectors (or numbers) of the lengths `ns` combine to `k` results -/
structure Spec.Fits (k : ℕ) (ns : List ℕ) : Prop where
  each : ∀ n ∈ ns, n = k ∨ n = 1
  some : k = 1 ∨ k ∈ ns

section
variable {α β : Type}

/-- broadcasting of numbers (`true`) and vectors of the given lengths -/
theorem bshapes_ok {k : ℕ} : ∀ (l : List (Bool × ℕ)), (∀ p ∈ l, p.1 = true → p.2 = 1) → Spec.Fits k (l.map Prod.snd) →
    bshapes (l.map fun p => if p.1 then [] else [p.2]) = .ok (if l.all Prod.fst then [] else [k]) := by
  intro l hs hf
  have key : ∀ (l : List (Bool × ℕ)) (s0 : Bool) (m0 : ℕ), (∀ p ∈ l, p.1 = true → p.2 = 1) → (s0 = true → m0 = 1) →
      (∀ p ∈ l, p.2 = k ∨ p.2 = 1) → (m0 = k ∨ m0 = 1) →
      ∃ m, (l.map fun p => if p.1 then [] else [p.2]).foldlM bshape (if s0 then [] else [m0]) =
        .ok (if s0 && l.all Prod.fst then [] else [m]) ∧ (m = k ∨ m = 1) ∧ ((m0 = k ∨ k ∈ l.map Prod.snd) → m = k) := by
    intro l
    induction l with
    | nil => intro s0 m0 _ _ _ hm; exact ⟨m0, by simp [pure, Except.pure], hm, fun h => by simpa using h⟩
    | cons p l ih =>
      intro s0 m0 hs h0 hl hm
      obtain ⟨t, n⟩ := p
      have hn := hl (t, n) (by simp)
      have ht := hs (t, n) (by simp)
      simp only at hn ht
      obtain ⟨l1, hb⟩ : ∃ l1, Bc m0 n l1 := by
        by_cases h1 : m0 = 1
        · exact ⟨n, .inr h1, .inl rfl, .inr rfl⟩
        · exact ⟨m0, .inl rfl, by omega, .inl rfl⟩
      have e : bshape (if s0 then [] else [m0]) (if t then [] else [n]) = .ok (if s0 && t then [] else [l1]) := by
        cases s0 <;> cases t
        · simp only [Bool.false_eq_true, if_false, bshape_11, bdim_ok hb]; rfl
        · have := ht rfl; subst this
          obtain rfl : l1 = m0 := by obtain ⟨h1, h2, h3⟩ := hb; omega
          exact bshape_n0 _
        · have := h0 rfl; subst this
          obtain rfl : l1 = n := by obtain ⟨h1, h2, h3⟩ := hb; omega
          exact bshape_0n _
        · rfl
      obtain ⟨m, e1, e2, e3⟩ := ih (s0 && t) l1 (fun p hp => hs p (by simp [hp]))
        (fun h => by
          simp only [Bool.and_eq_true] at h
          have := h0 h.1; have := ht h.2
          obtain ⟨h1, h2, h3⟩ := hb; omega)
        (fun p hp => hl p (by simp [hp])) (by obtain ⟨h1, h2, h3⟩ := hb; omega)
      refine ⟨m, ?_, e2, fun h => e3 ?_⟩
      · rw [List.map_cons, List.foldlM_cons, e, List.all_cons, ← Bool.and_assoc]
        exact e1
      · simp only [List.map_cons, List.mem_cons] at h
        rcases h with h | h | h
        · left; obtain ⟨h1, h2, h3⟩ := hb; omega
        · left; obtain ⟨h1, h2, h3⟩ := hb; omega
        · exact .inr h
  obtain ⟨m, e1, e2, e3⟩ := key l true 1 hs (fun _ => rfl) (fun p hp => hf.each _ (List.mem_map_of_mem hp)) (.inr rfl)
  have hm : m = k := e3 (by rcases hf.some with h | h; exact .inl h.symm; exact .inr h)
  subst hm
  rw [Bool.true_and] at e1
  exact e1

theorem Spec.Fits.lt {k : ℕ} {ns : List ℕ} (h : Spec.Fits k ns) {n : ℕ} (hn : n ∈ ns) {j : ℕ} (hj : j < k) : bi n j < n := by
  have := h.each n hn
  unfold bi; split <;> omega

/-- reading through broadcasting, in the scalar and in the vector case -/
theorem IsVal.read_any {s t : Bool} {A : Arr α} {n k : ℕ} {r} (h : IsVal s A n r) (ht : t = true → s = true) {j : ℕ}
    (hj : bi n j < n) (h1 : t = true → j = 0) : A.get (bidx A.shape (if t then [] else [j])) = r (bi n j) := by
  cases t
  · exact h.read hj
  · obtain rfl := ht rfl
    obtain ⟨a, rfl, b⟩ := h
    obtain rfl := h1 rfl
    rw [a, bidx_0, b]; rfl

theorem mapM_ok {f : ℕ → Except PyErr β} {g : ℕ → β} : ∀ (l : List ℕ), (∀ j ∈ l, f j = .ok (g j)) →
    l.mapM f = .ok (l.map g) := by
  intro l
  induction l with
  | nil => intro _; rfl
  | cons x l ih =>
    intro h
    rw [List.mapM_cons, h x (by simp), ih fun j hj => h j (by simp [hj])]
    rfl

theorem mapM_error {f : ℕ → Except PyErr β} : ∀ (l : List ℕ), (∃ j ∈ l, ∃ e, f j = .error e) → ∃ e, l.mapM f = .error e := by
  intro l
  induction l with
  | nil => rintro ⟨j, hj, _⟩; simp at hj
  | cons x l ih =>
    rintro ⟨j, hj, e, he⟩
    rw [List.mapM_cons]
    cases hx : f x with
    | error e => exact ⟨e, rfl⟩
    | ok v =>
      have hj' : j ∈ l := by
        rcases List.mem_cons.mp hj with rfl | h
        · rw [hx] at he; cases he
        · exact h
      obtain ⟨e', he'⟩ := ih ⟨j, hj', e, he⟩
      exact ⟨e', by rw [he']; rfl⟩

theorem zipMap_ok {f : List ℕ → Except PyErr β} {g : ℕ → β} {t : Bool} {k : ℕ} (hk : 0 < k) (ht : t = true → k = 1)
    (h : ∀ j < k, f (if t then [] else [j]) = .ok (g j)) :
    zipMap (if t then [] else [k]) f = .ok ((List.range k).map g) := by
  cases t
  · obtain ⟨k, rfl⟩ : ∃ k', k = k' + 1 := ⟨k - 1, by omega⟩
    show (List.range (k + 1)).mapM (fun j => f [j]) = _
    exact mapM_ok _ fun j hj => h j (List.mem_range.mp hj)
  · obtain rfl := ht rfl
    show (do pure [← f []]) = _
    rw [show f [] = .ok (g 0) from h 0 (by norm_num)]; rfl

theorem zipMap_error {f : List ℕ → Except PyErr β} {t : Bool} {k : ℕ} (hk : 0 < k) (ht : t = true → k = 1)
    (h : ∃ j < k, ∃ e, f (if t then [] else [j]) = .error e) : ∃ e, zipMap (if t then [] else [k]) f = .error e := by
  cases t
  · obtain ⟨k, rfl⟩ : ∃ k', k = k' + 1 := ⟨k - 1, by omega⟩
    obtain ⟨j, hj, h⟩ := h
    exact mapM_error _ ⟨j, List.mem_range.mpr hj, h⟩
  · obtain ⟨j, hj, e, h⟩ := h
    exact ⟨e, by show (do pure [← f []]) = _; rw [show f [] = .error e from h]; rfl⟩
end

section
variable {α : Type} [PyFloat α]

theorem column_vec {β : Type} {k : ℕ} (g : ℕ → β) (f : β → α) : IsVec (column ((List.range k).map g) f) k (fun j => f (g j)) := by
  refine ⟨by simp [column], fun j hj => ?_⟩
  show (((List.range k).map g).map f).getD j (lit 0) = _
  rw [List.getD_eq_getElem _ _ (by simpa using hj)]
  simp

theorem results_ok {t : Bool} {k : ℕ} {X Y Z : Arr α} {x y z : ℕ → α} (ht : t = true → k = 1) (hX : IsVec X k x)
    (hY : IsVec Y k y) (hZ : IsVec Z k z) :
    ∃ X' Y' Z', results (if t then [] else [k]) X Y Z = .ok (X', Y', Z') ∧ IsVal t X' k x ∧ IsVal t Y' k y ∧ IsVal t Z' k z := by
  cases t
  · exact ⟨X, Y, Z, rfl, hX, hY, hZ⟩
  · obtain rfl := ht rfl
    obtain ⟨X', e1, h1⟩ := row0_scalar hX
    obtain ⟨Y', e2, h2⟩ := row0_scalar hY
    obtain ⟨Z', e3, h3⟩ := row0_scalar hZ
    refine ⟨X', Y', Z', ?_, h1, h2, h3⟩
    simp only [results, if_true, e1, e2, e3, bind, Except.bind, pure, Except.pure]

/-- the five arguments of `inverse` and `direct` -/
structure Five (A1 A2 A3 A4 A5 : Arr α) (s : Bool) (k : ℕ) (r1 r2 r3 r4 r5 : ℕ → α) : Prop where
  shape : bshapes [A1.shape, A2.shape, A3.shape, A4.shape, A5.shape] = .ok (if s then [] else [k])
  one : s = true → k = 1
  v1 : ∀ j < k, A1.get (bidx A1.shape (if s then [] else [j])) = r1 j
  v2 : ∀ j < k, A2.get (bidx A2.shape (if s then [] else [j])) = r2 j
  v3 : ∀ j < k, A3.get (bidx A3.shape (if s then [] else [j])) = r3 j
  v4 : ∀ j < k, A4.get (bidx A4.shape (if s then [] else [j])) = r4 j
  v5 : ∀ j < k, A5.get (bidx A5.shape (if s then [] else [j])) = r5 j

omit [PyFloat α] in
theorem five {A1 A2 A3 A4 A5 : Arr α} {s1 s2 s3 s4 s5 : Bool} {n1 n2 n3 n4 n5 k : ℕ} {r1 r2 r3 r4 r5 : ℕ → α}
    (h1 : IsVal s1 A1 n1 r1) (h2 : IsVal s2 A2 n2 r2) (h3 : IsVal s3 A3 n3 r3) (h4 : IsVal s4 A4 n4 r4)
    (h5 : IsVal s5 A5 n5 r5) (hf : Spec.Fits k [n1, n2, n3, n4, n5]) :
    Five A1 A2 A3 A4 A5 (s1 && s2 && s3 && s4 && s5) k (fun j => r1 (bi n1 j)) (fun j => r2 (bi n2 j))
      (fun j => r3 (bi n3 j)) (fun j => r4 (bi n4 j)) (fun j => r5 (bi n5 j)) := by
  have o1 : s1 = true → n1 = 1 := by rintro rfl; exact h1.one
  have o2 : s2 = true → n2 = 1 := by rintro rfl; exact h2.one
  have o3 : s3 = true → n3 = 1 := by rintro rfl; exact h3.one
  have o4 : s4 = true → n4 = 1 := by rintro rfl; exact h4.one
  have o5 : s5 = true → n5 = 1 := by rintro rfl; exact h5.one
  have hone : (s1 && s2 && s3 && s4 && s5) = true → k = 1 := by
    intro h
    simp only [Bool.and_eq_true] at h
    obtain ⟨⟨⟨⟨a, b⟩, c⟩, d⟩, e⟩ := h
    rcases hf.some with h | h
    · exact h
    · simp only [List.mem_cons, List.not_mem_nil, or_false] at h
      have := o1 a; have := o2 b; have := o3 c; have := o4 d; have := o5 e
      omega
  have t1 : (s1 && s2 && s3 && s4 && s5) = true → s1 = true := fun h => by
    simp only [Bool.and_eq_true] at h; exact h.1.1.1.1
  have t2 : (s1 && s2 && s3 && s4 && s5) = true → s2 = true := fun h => by
    simp only [Bool.and_eq_true] at h; exact h.1.1.1.2
  have t3 : (s1 && s2 && s3 && s4 && s5) = true → s3 = true := fun h => by
    simp only [Bool.and_eq_true] at h; exact h.1.1.2
  have t4 : (s1 && s2 && s3 && s4 && s5) = true → s4 = true := fun h => by
    simp only [Bool.and_eq_true] at h; exact h.1.2
  have t5 : (s1 && s2 && s3 && s4 && s5) = true → s5 = true := fun h => by
    simp only [Bool.and_eq_true] at h; exact h.2
  refine ⟨?_, hone, ?_, ?_, ?_, ?_, ?_⟩
  · have := bshapes_ok (k := k) [(s1, n1), (s2, n2), (s3, n3), (s4, n4), (s5, n5)] (by
      intro p hp h
      simp only [List.mem_cons, List.not_mem_nil, or_false] at hp
      rcases hp with rfl | rfl | rfl | rfl | rfl
      exacts [o1 h, o2 h, o3 h, o4 h, o5 h]) hf
    have e : List.all [(s1, n1), (s2, n2), (s3, n3), (s4, n4), (s5, n5)] Prod.fst = (s1 && s2 && s3 && s4 && s5) := by
      simp only [List.all_cons, List.all_nil, Bool.and_true, Bool.and_assoc]
    rw [e] at this
    simp only [List.map_cons, List.map_nil] at this
    rw [h1.shape, h2.shape, h3.shape, h4.shape, h5.shape, this]
  · exact fun j hj => h1.read_any (k := k) t1 (hf.lt (by simp) hj) (fun h => by have := hone h; omega)
  · exact fun j hj => h2.read_any (k := k) t2 (hf.lt (by simp) hj) (fun h => by have := hone h; omega)
  · exact fun j hj => h3.read_any (k := k) t3 (hf.lt (by simp) hj) (fun h => by have := hone h; omega)
  · exact fun j hj => h4.read_any (k := k) t4 (hf.lt (by simp) hj) (fun h => by have := hone h; omega)
  · exact fun j hj => h5.read_any (k := k) t5 (hf.lt (by simp) hj) (fun h => by have := hone h; omega)

/-- **C65** `FrameE.inverse` on numbers and vectors: element `j` of the results is what the call on the elements `j` of the
arguments returns (numbers if all arguments are numbers) -/
theorem C65_inverse {A1 A2 A3 A4 A5 : Arr α} {s1 s2 s3 s4 s5 : Bool} {n1 n2 n3 n4 n5 k : ℕ} {r1 r2 r3 r4 r5 : ℕ → α}
    (h1 : IsVal s1 A1 n1 r1) (h2 : IsVal s2 A2 n2 r2) (h3 : IsVal s3 A3 n3 r3) (h4 : IsVal s4 A4 n4 r4)
    (h5 : IsVal s5 A5 n5 r5) (hf : Spec.Fits k [n1, n2, n3, n4, n5]) (hk : 0 < k) (G : Geodesic α) (F : FrameE α)
    (long_unroll degrees : Bool) {g : ℕ → α × α × α}
    (hg : ∀ j < k, F.inverse G (r1 (bi n1 j)) (r2 (bi n2 j)) (r3 (bi n3 j)) (r4 (bi n4 j)) (r5 (bi n5 j)) long_unroll degrees =
      .ok (g j)) :
    ∃ X Y Z, inverse G F A1 A2 A3 A4 A5 long_unroll degrees = .ok (X, Y, Z) ∧
      IsVal (s1 && s2 && s3 && s4 && s5) X k (fun j => (g j).1) ∧ IsVal (s1 && s2 && s3 && s4 && s5) Y k (fun j => (g j).2.1) ∧
      IsVal (s1 && s2 && s3 && s4 && s5) Z k (fun j => (g j).2.2) := by
  cases degrees
  · have H := five (h1.map rad2deg) (h2.map rad2deg) (h3.map rad2deg) (h4.map rad2deg) h5 hf
    have hex : ∀ j < k, ∃ u, F.inverse' G (rad2deg (r1 (bi n1 j))) (rad2deg (r2 (bi n2 j))) (rad2deg (r3 (bi n3 j)))
        (rad2deg (r4 (bi n4 j))) (r5 (bi n5 j)) long_unroll = .ok u ∧ (u.1, deg2rad u.2.1, deg2rad u.2.2) = g j := by
      intro j hj
      have := hg j hj
      simp only [FrameE.inverse, Bool.false_eq_true, if_false] at this
      revert this
      cases F.inverse' G (rad2deg (r1 (bi n1 j))) (rad2deg (r2 (bi n2 j))) (rad2deg (r3 (bi n3 j)))
        (rad2deg (r4 (bi n4 j))) (r5 (bi n5 j)) long_unroll with
      | error e => intro h; cases h
      | ok u => intro h; exact ⟨u, rfl, Except.ok.inj h⟩
    haveI : Nonempty α := ⟨lit 0⟩
    choose! u hu hug using hex
    have hz := zipMap_ok (f := fun i => F.inverse' G ((A1.map rad2deg).get (bidx (A1.map rad2deg).shape i))
      ((A2.map rad2deg).get (bidx (A2.map rad2deg).shape i)) ((A3.map rad2deg).get (bidx (A3.map rad2deg).shape i))
      ((A4.map rad2deg).get (bidx (A4.map rad2deg).shape i)) (A5.get (bidx A5.shape i)) long_unroll) (g := u) hk H.one
      (fun j hj => by simp only [H.v1 j hj, H.v2 j hj, H.v3 j hj, H.v4 j hj, H.v5 j hj, hu j hj])
    obtain ⟨X, Y, Z, e, hX, hY, hZ⟩ := results_ok H.one (column_vec (k := k) u (·.1))
      ((column_vec (k := k) u (·.2.1)).map deg2rad) ((column_vec (k := k) u (·.2.2)).map deg2rad)
    refine ⟨X, Y, Z, ?_, hX.congr fun j hj => ?_, hY.congr fun j hj => ?_, hZ.congr fun j hj => ?_⟩
    · unfold inverse
      simp only [Bool.false_eq_true, if_false, H.shape, hz, bind, Except.bind]
      exact e
    all_goals simp only [← hug j hj]
  · have H := five h1 h2 h3 h4 h5 hf
    simp only [FrameE.inverse, if_true] at hg
    have hz := zipMap_ok (f := fun i => F.inverse' G (A1.get (bidx A1.shape i)) (A2.get (bidx A2.shape i))
      (A3.get (bidx A3.shape i)) (A4.get (bidx A4.shape i)) (A5.get (bidx A5.shape i)) long_unroll) (g := g) hk H.one
      (fun j hj => by simp only [H.v1 j hj, H.v2 j hj, H.v3 j hj, H.v4 j hj, H.v5 j hj, hg j hj])
    obtain ⟨X, Y, Z, e, hX, hY, hZ⟩ := results_ok H.one (column_vec (k := k) g (·.1)) (column_vec (k := k) g (·.2.1))
      (column_vec (k := k) g (·.2.2))
    refine ⟨X, Y, Z, ?_, hX, hY, hZ⟩
    unfold inverse
    simp only [if_true, H.shape, hz, bind, Except.bind]
    exact e

/-- **C65** `FrameE.direct` on numbers and vectors -/
theorem C65_direct {A1 A2 A3 A4 A5 : Arr α} {s1 s2 s3 s4 s5 : Bool} {n1 n2 n3 n4 n5 k : ℕ} {r1 r2 r3 r4 r5 : ℕ → α}
    (h1 : IsVal s1 A1 n1 r1) (h2 : IsVal s2 A2 n2 r2) (h3 : IsVal s3 A3 n3 r3) (h4 : IsVal s4 A4 n4 r4)
    (h5 : IsVal s5 A5 n5 r5) (hf : Spec.Fits k [n1, n2, n3, n4, n5]) (hk : 0 < k) (G : Geodesic α) (F : FrameE α)
    (long_unroll degrees : Bool) {g : ℕ → α × α × α}
    (hg : ∀ j < k, F.direct G (r1 (bi n1 j)) (r2 (bi n2 j)) (r3 (bi n3 j)) (r4 (bi n4 j)) (r5 (bi n5 j)) long_unroll degrees =
      .ok (g j)) :
    ∃ X Y Z, direct G F A1 A2 A3 A4 A5 long_unroll degrees = .ok (X, Y, Z) ∧
      IsVal (s1 && s2 && s3 && s4 && s5) X k (fun j => (g j).1) ∧ IsVal (s1 && s2 && s3 && s4 && s5) Y k (fun j => (g j).2.1) ∧
      IsVal (s1 && s2 && s3 && s4 && s5) Z k (fun j => (g j).2.2) := by
  cases degrees
  · have H := five (h1.map rad2deg) (h2.map rad2deg) (h3.map rad2deg) h4 h5 hf
    have hex : ∀ j < k, ∃ u, F.direct' G (rad2deg (r1 (bi n1 j))) (rad2deg (r2 (bi n2 j))) (rad2deg (r3 (bi n3 j)))
        (r4 (bi n4 j)) (r5 (bi n5 j)) long_unroll = .ok u ∧ (deg2rad u.1, deg2rad u.2.1, deg2rad u.2.2) = g j := by
      intro j hj
      have := hg j hj
      simp only [FrameE.direct, Bool.false_eq_true, if_false] at this
      revert this
      cases F.direct' G (rad2deg (r1 (bi n1 j))) (rad2deg (r2 (bi n2 j))) (rad2deg (r3 (bi n3 j)))
        (r4 (bi n4 j)) (r5 (bi n5 j)) long_unroll with
      | error e => intro h; cases h
      | ok u => intro h; exact ⟨u, rfl, Except.ok.inj h⟩
    haveI : Nonempty α := ⟨lit 0⟩
    choose! u hu hug using hex
    have hz := zipMap_ok (f := fun i => F.direct' G ((A1.map rad2deg).get (bidx (A1.map rad2deg).shape i))
      ((A2.map rad2deg).get (bidx (A2.map rad2deg).shape i)) ((A3.map rad2deg).get (bidx (A3.map rad2deg).shape i))
      (A4.get (bidx A4.shape i)) (A5.get (bidx A5.shape i)) long_unroll) (g := u) hk H.one
      (fun j hj => by simp only [H.v1 j hj, H.v2 j hj, H.v3 j hj, H.v4 j hj, H.v5 j hj, hu j hj])
    obtain ⟨X, Y, Z, e, hX, hY, hZ⟩ := results_ok H.one ((column_vec (k := k) u (·.1)).map deg2rad)
      ((column_vec (k := k) u (·.2.1)).map deg2rad) ((column_vec (k := k) u (·.2.2)).map deg2rad)
    refine ⟨X, Y, Z, ?_, hX.congr fun j hj => ?_, hY.congr fun j hj => ?_, hZ.congr fun j hj => ?_⟩
    · unfold direct
      simp only [Bool.false_eq_true, if_false, H.shape, hz, bind, Except.bind]
      exact e
    all_goals simp only [← hug j hj]
  · have H := five h1 h2 h3 h4 h5 hf
    simp only [FrameE.direct, if_true] at hg
    have hz := zipMap_ok (f := fun i => F.direct' G (A1.get (bidx A1.shape i)) (A2.get (bidx A2.shape i))
      (A3.get (bidx A3.shape i)) (A4.get (bidx A4.shape i)) (A5.get (bidx A5.shape i)) long_unroll) (g := g) hk H.one
      (fun j hj => by simp only [H.v1 j hj, H.v2 j hj, H.v3 j hj, H.v4 j hj, H.v5 j hj, hg j hj])
    obtain ⟨X, Y, Z, e, hX, hY, hZ⟩ := results_ok H.one (column_vec (k := k) g (·.1)) (column_vec (k := k) g (·.2.1))
      (column_vec (k := k) g (·.2.2))
    refine ⟨X, Y, Z, ?_, hX, hY, hZ⟩
    unfold direct
    simp only [if_true, H.shape, hz, bind, Except.bind]
    exact e

/-- **C65** if the call fails for one element, the whole call fails -/
theorem C65_inverse_error {A1 A2 A3 A4 A5 : Arr α} {s1 s2 s3 s4 s5 : Bool} {n1 n2 n3 n4 n5 k : ℕ} {r1 r2 r3 r4 r5 : ℕ → α}
    (h1 : IsVal s1 A1 n1 r1) (h2 : IsVal s2 A2 n2 r2) (h3 : IsVal s3 A3 n3 r3) (h4 : IsVal s4 A4 n4 r4)
    (h5 : IsVal s5 A5 n5 r5) (hf : Spec.Fits k [n1, n2, n3, n4, n5]) (G : Geodesic α) (F : FrameE α)
    (long_unroll degrees : Bool) {j : ℕ} (hj : j < k) {e : PyErr}
    (hg : F.inverse G (r1 (bi n1 j)) (r2 (bi n2 j)) (r3 (bi n3 j)) (r4 (bi n4 j)) (r5 (bi n5 j)) long_unroll degrees = .error e) :
    ∃ e, inverse G F A1 A2 A3 A4 A5 long_unroll degrees = .error e := by
  have hk : 0 < k := by omega
  cases degrees
  · have H := five (h1.map rad2deg) (h2.map rad2deg) (h3.map rad2deg) (h4.map rad2deg) h5 hf
    have hu : F.inverse' G (rad2deg (r1 (bi n1 j))) (rad2deg (r2 (bi n2 j))) (rad2deg (r3 (bi n3 j)))
        (rad2deg (r4 (bi n4 j))) (r5 (bi n5 j)) long_unroll = .error e := by
      simp only [FrameE.inverse, Bool.false_eq_true, if_false] at hg
      revert hg
      cases F.inverse' G (rad2deg (r1 (bi n1 j))) (rad2deg (r2 (bi n2 j))) (rad2deg (r3 (bi n3 j)))
        (rad2deg (r4 (bi n4 j))) (r5 (bi n5 j)) long_unroll with
      | error e => intro h; exact h
      | ok u => intro h; cases h
    obtain ⟨e', hz⟩ := zipMap_error (f := fun i => F.inverse' G ((A1.map rad2deg).get (bidx (A1.map rad2deg).shape i))
      ((A2.map rad2deg).get (bidx (A2.map rad2deg).shape i)) ((A3.map rad2deg).get (bidx (A3.map rad2deg).shape i))
      ((A4.map rad2deg).get (bidx (A4.map rad2deg).shape i)) (A5.get (bidx A5.shape i)) long_unroll) hk H.one
      ⟨j, hj, e, by simp only [H.v1 j hj, H.v2 j hj, H.v3 j hj, H.v4 j hj, H.v5 j hj, hu]⟩
    refine ⟨e', ?_⟩
    unfold inverse
    simp only [Bool.false_eq_true, if_false, H.shape, hz, bind, Except.bind]
  · have H := five h1 h2 h3 h4 h5 hf
    simp only [FrameE.inverse, if_true] at hg
    obtain ⟨e', hz⟩ := zipMap_error (f := fun i => F.inverse' G (A1.get (bidx A1.shape i)) (A2.get (bidx A2.shape i))
      (A3.get (bidx A3.shape i)) (A4.get (bidx A4.shape i)) (A5.get (bidx A5.shape i)) long_unroll) hk H.one
      ⟨j, hj, e, by simp only [H.v1 j hj, H.v2 j hj, H.v3 j hj, H.v4 j hj, H.v5 j hj, hg]⟩
    refine ⟨e', ?_⟩
    unfold inverse
    simp only [if_true, H.shape, hz, bind, Except.bind]

/-- **C65** if `FrameE.direct` fails for one element, the whole call fails -/
theorem C65_direct_error {A1 A2 A3 A4 A5 : Arr α} {s1 s2 s3 s4 s5 : Bool} {n1 n2 n3 n4 n5 k : ℕ} {r1 r2 r3 r4 r5 : ℕ → α}
    (h1 : IsVal s1 A1 n1 r1) (h2 : IsVal s2 A2 n2 r2) (h3 : IsVal s3 A3 n3 r3) (h4 : IsVal s4 A4 n4 r4)
    (h5 : IsVal s5 A5 n5 r5) (hf : Spec.Fits k [n1, n2, n3, n4, n5]) (G : Geodesic α) (F : FrameE α)
    (long_unroll degrees : Bool) {j : ℕ} (hj : j < k) {e : PyErr}
    (hg : F.direct G (r1 (bi n1 j)) (r2 (bi n2 j)) (r3 (bi n3 j)) (r4 (bi n4 j)) (r5 (bi n5 j)) long_unroll degrees = .error e) :
    ∃ e, direct G F A1 A2 A3 A4 A5 long_unroll degrees = .error e := by
  have hk : 0 < k := by omega
  cases degrees
  · have H := five (h1.map rad2deg) (h2.map rad2deg) (h3.map rad2deg) h4 h5 hf
    have hu : F.direct' G (rad2deg (r1 (bi n1 j))) (rad2deg (r2 (bi n2 j))) (rad2deg (r3 (bi n3 j)))
        (r4 (bi n4 j)) (r5 (bi n5 j)) long_unroll = .error e := by
      simp only [FrameE.direct, Bool.false_eq_true, if_false] at hg
      revert hg
      cases F.direct' G (rad2deg (r1 (bi n1 j))) (rad2deg (r2 (bi n2 j))) (rad2deg (r3 (bi n3 j)))
        (r4 (bi n4 j)) (r5 (bi n5 j)) long_unroll with
      | error e => intro h; exact h
      | ok u => intro h; cases h
    obtain ⟨e', hz⟩ := zipMap_error (f := fun i => F.direct' G ((A1.map rad2deg).get (bidx (A1.map rad2deg).shape i))
      ((A2.map rad2deg).get (bidx (A2.map rad2deg).shape i)) ((A3.map rad2deg).get (bidx (A3.map rad2deg).shape i))
      (A4.get (bidx A4.shape i)) (A5.get (bidx A5.shape i)) long_unroll) hk H.one
      ⟨j, hj, e, by simp only [H.v1 j hj, H.v2 j hj, H.v3 j hj, H.v4 j hj, H.v5 j hj, hu]⟩
    refine ⟨e', ?_⟩
    unfold direct
    simp only [Bool.false_eq_true, if_false, H.shape, hz, bind, Except.bind]
  · have H := five h1 h2 h3 h4 h5 hf
    simp only [FrameE.direct, if_true] at hg
    obtain ⟨e', hz⟩ := zipMap_error (f := fun i => F.direct' G (A1.get (bidx A1.shape i)) (A2.get (bidx A2.shape i))
      (A3.get (bidx A3.shape i)) (A4.get (bidx A4.shape i)) (A5.get (bidx A5.shape i)) long_unroll) hk H.one
      ⟨j, hj, e, by simp only [H.v1 j hj, H.v2 j hj, H.v3 j hj, H.v4 j hj, H.v5 j hj, hg]⟩
    refine ⟨e', ?_⟩
    unfold direct
    simp only [if_true, H.shape, hz, bind, Except.bind]

end
end Nv.ND
