import Verif.Props.Columns
import Verif.Lemmas.Fin

/-!
# C53: the sizes of results for vector inputs

The documentation promises `max(n, m)` results.  For each of the functions the exact result is given: when it is the
documented one, and what is returned or raised otherwise.
-/

namespace Nv.ND

variable {α : Type} [PyFloat α]
open PyFloat

/-- a `p x q` array, raveled -/
theorem ravel_22 {β : Type} {A : Arr β} {p q : ℕ} (hA : A.shape = [p, q]) :
    A.ravel.shape = [p * q] ∧ ∀ i < p, ∀ j < q, A.ravel.get [i * q + j] = A.get [i, j] := by
  unfold Arr.ravel
  rw [hA]
  refine ⟨by simp [prod], fun i hi j hj => ?_⟩
  have hq : 0 < q := by omega
  simp only [unravel, prod, List.foldr_cons, List.foldr_nil, mul_one, Nat.div_one]
  rw [show (i * q + j) / q = i by
      rw [Nat.add_comm, Nat.add_mul_div_right _ _ hq, Nat.div_eq_of_lt hj, zero_add],
    show (i * q + j) % q = j by rw [Nat.add_comm, Nat.add_mul_mod_self_right, Nat.mod_eq_of_lt hj]]

theorem ravel_row {β : Type} {A : Arr β} {q : ℕ} {r : ℕ → β} (hA : A.shape = [1, q]) (h : ∀ j < q, A.get [0, j] = r j) :
    IsVec A.ravel q r := by
  obtain ⟨h1, h2⟩ := ravel_22 hA
  refine ⟨by rw [h1, one_mul], fun j hj => ?_⟩
  have := h2 0 (by norm_num) j hj
  rw [zero_mul, zero_add] at this
  rw [this, h j hj]

theorem ravel_column {β : Type} {A : Arr β} {p : ℕ} {r : ℕ → β} (hA : A.shape = [p, 1]) (h : ∀ i < p, A.get [i, 0] = r i) :
    IsVec A.ravel p r := by
  obtain ⟨h1, h2⟩ := ravel_22 hA
  refine ⟨by rw [h1, mul_one], fun i hi => ?_⟩
  have := h2 i hi 0 (by norm_num)
  rw [mul_one, add_zero] at this
  rw [this, h i hi]

/-! ## great_circle_distance -/

/-- **C53** what `great_circle_distance` returns on `n` and `m` columns: `n * k` numbers, where `k` is the documented size;
number `i * k + j` mixes the sine of pair `j` with the cosine of column `i` of A and column `j` of B. -/
theorem C53_great_circle_distance {A B : Arr α} {n m k : ℕ} {c d : ℕ → V3 α} (hA : IsCols A n c) (hB : IsCols B m d)
    (hk : Bc n m k) (radius : α) :
    ∃ X, great_circle_distance A B radius = .ok X ∧ X.shape = [n * k] ∧
      ∀ i < n, ∀ j < k, X.get [i * k + j] =
        arctan2 (norm3 (cross3 (c (bi n j)) (d (bi m j)))) (dot3 (c i) (d (bi m j))) * radius := by
  obtain ⟨C, eC, hC⟩ := cross0_cols hA hB hk
  obtain ⟨N, eN, hN⟩ := norm0_cols hC
  obtain ⟨D, eD, sD, hD⟩ := dot_T_cols hA hB
  obtain ⟨Y, eY, sY, hY⟩ : ∃ Y, map2 arctan2 N D = .ok Y ∧ Y.shape = [n, k] ∧ ∀ i < n, ∀ j < k, Y.get [i, j] =
      arctan2 (norm3 (cross3 (c (bi n j)) (d (bi m j)))) (dot3 (c i) (d (bi m j))) := by
    unfold map2
    rw [hN.shape, sD, bshape_12, bdim_ok hk.rightk.symm]
    refine ⟨_, rfl, rfl, fun i hi j hj => ?_⟩
    simp only [bidx_12, bidx_22, bi_self hi, bi_self hj, hN.val j hj, hD i hi _ (hk.lt' hj)]
  obtain ⟨s, v⟩ := ravel_22 sY
  refine ⟨Y.ravel.map (· * radius), ?_, s, fun i hi j hj => ?_⟩
  · unfold great_circle_distance
    simp only [eC, eN, eD, eY, bind, Except.bind, pure, Except.pure]
  · unfold Arr.map
    simp only [v i hi j hj, hY i hi j hj]

/-- **C53** the documented behaviour holds when A is a single position -/
theorem C53_great_circle_distance_partial {A B : Arr α} {m : ℕ} {c d : ℕ → V3 α} (hA : IsCols A 1 c) (hB : IsCols B m d)
    (radius : α) :
    ∃ X, great_circle_distance A B radius = .ok X ∧ IsVec X m (fun j => Nv.great_circle_distance (c 0) (d j) radius) := by
  obtain ⟨X, e, s, v⟩ := C53_great_circle_distance hA hB (.one' m) radius
  refine ⟨X, e, by rw [s, one_mul], fun j hj => ?_⟩
  have := v 0 (by norm_num) j hj
  rw [zero_mul, zero_add] at this
  rw [this, bi_self hj]; rfl

/-- **C53** is false for every other size: with `n ≥ 2` positions A there are more results than documented (`n` times as
many) -/
theorem C53_great_circle_distance_counterexample {A B : Arr α} {n m k : ℕ} {c d : ℕ → V3 α} (hA : IsCols A n c)
    (hB : IsCols B m d) (hk : Bc n m k) (hn : 2 ≤ n) (hm : 0 < m) (radius : α) :
    ∃ X, great_circle_distance A B radius = .ok X ∧ X.shape = [n * max n m] ∧ X.shape ≠ [max n m] := by
  obtain ⟨X, e, s, -⟩ := C53_great_circle_distance hA hB hk radius
  have hkm : k = max n m := by obtain ⟨h1, h2, h3⟩ := hk; omega
  subst hkm
  refine ⟨X, e, s, ?_⟩
  rw [s]
  intro h
  have h' : n * max n m = max n m := by simpa using h
  have : 0 < max n m := by omega
  nlinarith

/-! ## cross_track_distance and on_great_circle -/

/-- the cross track distance of path column `i` and point column `j` -/
def ctd (method : Char) (radius : α) (a1 a2 b : V3 α) : α :=
  let s := -(dot3 (Nv.great_circle_normal a1 a2) b)
  if method.toLower = 'e' then euclidean_cross_track_distance s radius else great_circle_cross_track_distance s radius

/-- `ctd` is the result of the scalar function -/
theorem ctd_eq (method : String) (ch : Char) (cs : List Char) (h : method.toList = ch :: cs) (radius : α) (a1 a2 b : V3 α) :
    Nv.cross_track_distance (a1, a2) b method radius = .ok (ctd ch radius a1 a2 b) := by
  unfold Nv.cross_track_distance ctd
  rw [h]
  simp only
  split <;> rfl

/-- **C53** what `cross_track_distance` returns for `n` paths and `m` points: all `n * m` pairs, row by row -/
theorem C53_cross_track_distance {A1 A2 B : Arr α} {n m : ℕ} {a1 a2 b : ℕ → V3 α} (h1 : IsCols A1 n a1) (h2 : IsCols A2 n a2)
    (hB : IsCols B m b) (method : String) (ch : Char) (cs : List Char) (hm : method.toList = ch :: cs) (radius : α) :
    ∃ X, cross_track_distance A1 A2 B method radius = .ok X ∧ X.shape = [n * m] ∧
      ∀ i < n, ∀ j < m, X.get [i * m + j] = ctd ch radius (a1 i) (a2 i) (b j) := by
  obtain ⟨C, eC, hC⟩ := C52_great_circle_normal h1 h2 (.self n)
  obtain ⟨D, eD, sD, hD⟩ := dot_T_cols hC hB
  obtain ⟨s, v⟩ := ravel_22 (A := D.map (fun x => -x)) sD
  have key : ∀ i < n, ∀ j < m, (D.map (fun x => -x)).ravel.get [i * m + j] =
      -(dot3 (Nv.great_circle_normal (a1 i) (a2 i)) (b j)) := by
    intro i hi j hj
    rw [v i hi j hj]
    unfold Arr.map
    simp only [hD i hi j hj, bi_self hi]
  unfold cross_track_distance
  simp only [eC, eD, bind, Except.bind, pure, Except.pure, hm]
  by_cases he : ch.toLower = 'e'
  · rw [if_pos he]
    refine ⟨_, rfl, s, fun i hi j hj => ?_⟩
    unfold ctd
    rw [if_pos he, ← key i hi j hj]; rfl
  · rw [if_neg he]
    refine ⟨_, rfl, s, fun i hi j hj => ?_⟩
    unfold ctd
    rw [if_neg he, ← key i hi j hj]; rfl

/-- **C53** the documented behaviour holds for one path or one point -/
theorem C53_cross_track_distance_partial {A1 A2 B : Arr α} {n m k : ℕ} {a1 a2 b : ℕ → V3 α} (h1 : IsCols A1 n a1)
    (h2 : IsCols A2 n a2) (hB : IsCols B m b) (method : String) (ch : Char) (cs : List Char)
    (hm : method.toList = ch :: cs) (radius : α) (hk : Bc n m k) (hone : n = 1 ∨ m = 1) :
    ∃ X, cross_track_distance A1 A2 B method radius = .ok X ∧
      IsVec X k (fun j => ctd ch radius (a1 (bi n j)) (a2 (bi n j)) (b (bi m j))) := by
  obtain ⟨X, e, s, v⟩ := C53_cross_track_distance h1 h2 hB method ch cs hm radius
  rcases hone with rfl | rfl
  · obtain rfl : k = m := by obtain ⟨h1, h2, h3⟩ := hk; omega
    refine ⟨X, e, by rw [s, one_mul], fun j hj => ?_⟩
    have := v 0 (by norm_num) j hj
    rw [zero_mul, zero_add] at this
    rw [this, bi_self hj]; rfl
  · obtain rfl : k = n := by obtain ⟨h1, h2, h3⟩ := hk; omega
    refine ⟨X, e, by rw [s, mul_one], fun j hj => ?_⟩
    have := v j hj 0 (by norm_num)
    rw [mul_one, add_zero] at this
    rw [this, bi_self hj]; rfl

/-- **C53** is false for `n ≥ 2` paths and as many points: `n * n` results -/
theorem C53_cross_track_distance_counterexample {A1 A2 B : Arr α} {n : ℕ} {a1 a2 b : ℕ → V3 α} (h1 : IsCols A1 n a1)
    (h2 : IsCols A2 n a2) (hB : IsCols B n b) (hn : 2 ≤ n) (radius : α) :
    ∃ X, cross_track_distance A1 A2 B "greatcircle" radius = .ok X ∧ X.shape = [n * n] ∧ X.shape ≠ [n] := by
  obtain ⟨X, e, s, -⟩ := C53_cross_track_distance h1 h2 hB "greatcircle" 'g' "reatcircle".toList (by decide) radius
  refine ⟨X, e, s, ?_⟩
  rw [s]
  intro h
  have : n * n = n := by simpa using h
  nlinarith

/-- **C53** `on_great_circle_path` raises for `n ≥ 2` paths and as many points (documented: `n` results) -/
theorem C53_on_great_circle_path_counterexample {A1 A2 B : Arr α} {n : ℕ} {a1 a2 b : ℕ → V3 α} (h1 : IsCols A1 n a1)
    (h2 : IsCols A2 n a2) (hB : IsCols B n b) (hn : 2 ≤ n) (radius atol : α) :
    on_great_circle_path A1 A2 B radius atol = .error .ValueError := by
  obtain ⟨S, eS, hS⟩ := map2_cols' (· - ·) h2 h1
  obtain ⟨N, eN, hN⟩ := norm0_cols hS
  obtain ⟨S1, eS1, hS1⟩ := map2_cols' (· - ·) hB h1
  obtain ⟨N1, eN1, hN1⟩ := norm0_cols hS1
  obtain ⟨S2, eS2, hS2⟩ := map2_cols' (· - ·) hB h2
  obtain ⟨N2, eN2, hN2⟩ := norm0_cols hS2
  obtain ⟨T1, eT1, hT1⟩ := map2_vec' (· / ·) hN1 hN
  obtain ⟨T2, eT2, hT2⟩ := map2_vec' (· / ·) hN2 hN
  obtain ⟨M, eM, hM⟩ := map2_vec' (· && ·) (hT1.map (le · (lit 1))) (hT2.map (le · (lit 1)))
  obtain ⟨X, eX, sX, -⟩ := C53_cross_track_distance h1 h2 hB "greatcircle" 'g' "reatcircle".toList (by decide) radius
  have hX : on_great_circle A1 A2 B radius atol = .ok ((X.map PyFloat.abs).map (le · atol)) := by
    unfold on_great_circle
    simp only [eX, bind, Except.bind, pure, Except.pure]
  unfold on_great_circle_path
  simp only [eS, eN, eS1, eN1, eS2, eN2, eT1, eT2, eM, hX, bind, Except.bind]
  unfold map2
  have : ((X.map PyFloat.abs).map (le · atol)).shape = [n * n] := sX
  rw [hM.shape, this, bshape_11, bdim_error (by nlinarith) (by omega) (by nlinarith)]
  rfl

/-- **C53** `on_great_circle_path` gives the documented results for one path or one point -/
theorem C53_on_great_circle_path_partial {A1 A2 B : Arr α} {n m k : ℕ} {a1 a2 b : ℕ → V3 α} (h1 : IsCols A1 n a1)
    (h2 : IsCols A2 n a2) (hB : IsCols B m b) (hk : Bc n m k) (hone : n = 1 ∨ m = 1) (radius atol : α) :
    ∃ X, on_great_circle_path A1 A2 B radius atol = .ok X ∧
      IsVec X k (fun j => Nv.on_great_circle_path (a1 (bi n j), a2 (bi n j)) (b (bi m j)) radius atol) := by
  obtain ⟨S, eS, hS⟩ := map2_cols' (· - ·) h2 h1
  obtain ⟨N, eN, hN⟩ := norm0_cols hS
  obtain ⟨S1, eS1, hS1⟩ := map2_cols (· - ·) hB h1 hk.symm
  obtain ⟨N1, eN1, hN1⟩ := norm0_cols hS1
  obtain ⟨S2, eS2, hS2⟩ := map2_cols (· - ·) hB h2 hk.symm
  obtain ⟨N2, eN2, hN2⟩ := norm0_cols hS2
  obtain ⟨T1, eT1, hT1⟩ := map2_vec (· / ·) hN1 hN hk.leftk.symm
  obtain ⟨T2, eT2, hT2⟩ := map2_vec (· / ·) hN2 hN hk.leftk.symm
  obtain ⟨M, eM, hM⟩ := map2_vec' (· && ·) (hT1.map (le · (lit 1))) (hT2.map (le · (lit 1)))
  obtain ⟨X, eX, hX⟩ := C53_cross_track_distance_partial h1 h2 hB "greatcircle" 'g' "reatcircle".toList (by decide) radius
    hk hone
  have hO : on_great_circle A1 A2 B radius atol = .ok ((X.map PyFloat.abs).map (le · atol)) := by
    unfold on_great_circle
    simp only [eX, bind, Except.bind, pure, Except.pure]
  obtain ⟨Y, eY, hY⟩ := map2_vec' (· && ·) hM ((hX.map PyFloat.abs).map (le · atol))
  refine ⟨Y, ?_, hY.congr fun j hj => ?_⟩
  · unfold on_great_circle_path
    simp only [eS, eN, eS1, eN1, eS2, eN2, eT1, eT2, eM, hO, eY, bind, Except.bind]
  · simp only [bi_self hj]
    unfold Nv.on_great_circle_path Nv.on_great_circle abs_cross_track
    rw [ctd_eq "greatcircle" 'g' "reatcircle".toList (by decide)]
    rfl

/-! ## intersect and closest_point_on_great_circle -/

/-- **C53** what `intersect` returns for `n`-column path A and `m`-column path B with `k = max n m` columns:
for one column the documented point, for three a `3 x 3` array whose entry `(i, j)` is component `i` of the candidate of
pair `j` with the sign of candidate `i`, otherwise `ValueError`. -/
theorem C53_intersect_general {A1 A2 B1 B2 : Arr α} {n m k : ℕ} {a1 a2 b1 b2 : ℕ → V3 α} (h1 : IsCols A1 n a1)
    (h2 : IsCols A2 n a2) (h3 : IsCols B1 m b1) (h4 : IsCols B2 m b2) (hk : Bc n m k) :
    (k ≠ 1 → k ≠ 3 → intersect A1 A2 B1 B2 = .error .ValueError) ∧
    (k = 3 → ∃ X, intersect A1 A2 B1 B2 = .ok X ∧ X.shape = [3, 3] ∧ ∀ i < 3, ∀ j < 3, X.get [i, j] =
      let C := fun j => Nv.unit (cross3 (cross3 (a1 (bi n j)) (a2 (bi n j))) (cross3 (b1 (bi m j)) (b2 (bi m j)))) nan
      M3.entry (ofCols (C 0) (C 1) (C 2)) i j * sign (dot3 (C i) (a1 (bi n j)))) := by
  obtain ⟨P, eP, hP⟩ := cross0_cols' h1 h2
  obtain ⟨Q, eQ, hQ⟩ := cross0_cols' h3 h4
  obtain ⟨C, eC, hC⟩ := cross0_cols hP hQ hk
  obtain ⟨U, eU, hU⟩ := unit_cols hC nan
  obtain ⟨D, eD, sD, hD⟩ := dot_T_cols hU h1
  have e : intersect A1 A2 B1 B2 = map2 (fun s x => x * s) (D.map sign) U := by
    unfold intersect
    simp only [eP, eQ, eC, eU, eD, bind, Except.bind]
  have sM : (D.map sign).shape = [k, n] := sD
  constructor
  · intro hk1 hk3
    rw [e]
    unfold map2
    rw [sM, hU.shape, bshape_22, bdim_ok hk.leftk, bdim_error hk3 hk1 (by norm_num)]
    rfl
  · rintro rfl
    rw [e]
    unfold map2
    rw [sM, hU.shape, bshape_22, bdim_ok hk.leftk, bdim_33]
    refine ⟨_, rfl, rfl, fun i hi j hj => ?_⟩
    simp only [bidx_22, bi_3]
    simp only [Arr.map]
    rw [hD i hi _ (hk.lt hj)]
    congr 1
    have g0 := hU.get0 hj
    have g1 := hU.get1 hj
    have g2 := hU.get2 hj
    interval_cases i <;> interval_cases j <;> first | exact g0 | exact g1 | exact g2

/-- **C53** the documented behaviour of `intersect` holds for one column -/
theorem C53_intersect_partial {A1 A2 B1 B2 : Arr α} {a1 a2 b1 b2 : ℕ → V3 α} (h1 : IsCols A1 1 a1) (h2 : IsCols A2 1 a2)
    (h3 : IsCols B1 1 b1) (h4 : IsCols B2 1 b2) :
    ∃ X, intersect A1 A2 B1 B2 = .ok X ∧ IsCols X 1 (fun _ => Nv.intersect (a1 0, a2 0) (b1 0, b2 0)) := by
  obtain ⟨P, eP, hP⟩ := cross0_cols' h1 h2
  obtain ⟨Q, eQ, hQ⟩ := cross0_cols' h3 h4
  obtain ⟨C, eC, hC⟩ := cross0_cols' hP hQ
  obtain ⟨U, eU, hU⟩ := unit_cols hC nan
  obtain ⟨D, eD, sD, hD⟩ := dot_T_cols hU h1
  have hDr : IsRow D 1 (fun _ => dot3 (Nv.unit (cross3 (cross3 (a1 0) (a2 0)) (cross3 (b1 0) (b2 0))) nan) (a1 0)) :=
    .inr (.inr ⟨sD, fun j hj => by obtain rfl : j = 0 := by omega
                                   exact hD 0 (by norm_num) 0 (by norm_num)⟩)
  obtain ⟨X, eX, hX⟩ := map2_row_col' (fun s x => x * s) (hDr.map sign) hU
  refine ⟨X, ?_, hX.congr fun j hj => ?_⟩
  · unfold intersect
    simp only [eP, eQ, eC, eU, eD, eX, bind, Except.bind]
  · obtain rfl : j = 0 := by omega
    rfl

/-- **C53** what `closest_point_on_great_circle` returns for `n` paths and `m` points, `k = max n m` -/
theorem C53_closest_point_general {A1 A2 B : Arr α} {n m k : ℕ} {a1 a2 b : ℕ → V3 α} (h1 : IsCols A1 n a1)
    (h2 : IsCols A2 n a2) (hB : IsCols B m b) (hk : Bc n m k) :
    (k ≠ 1 → k ≠ 3 → closest_point_on_great_circle A1 A2 B = .error .ValueError) ∧
    (k = 3 → ∃ X, closest_point_on_great_circle A1 A2 B = .ok X ∧ X.shape = [3, 3] ∧ ∀ i < 3, ∀ j < 3, X.get [i, j] =
      let N := fun j => Nv.great_circle_normal (a1 (bi n j)) (a2 (bi n j))
      let C := fun j => Nv.unit (cross3 (N j) (cross3 (b (bi m j)) (N j)))
      M3.entry (ofCols (C 0) (C 1) (C 2)) i j * sign (dot3 (C i) (b (bi m j)))) := by
  obtain ⟨N, eN, hN⟩ := C52_great_circle_normal h1 h2 (.self n)
  obtain ⟨C2, eC2, hC2⟩ := cross0_cols hB hN hk.symm
  obtain ⟨C, eC, hC⟩ := cross0_cols hN hC2 hk.leftk
  obtain ⟨U, eU, hU⟩ := unit_cols hC (lit 1)
  obtain ⟨D, eD, sD, hD⟩ := dot_T_cols hU hB
  have e : closest_point_on_great_circle A1 A2 B = map2 (· * ·) U (D.map sign) := by
    unfold closest_point_on_great_circle
    simp only [eN, eC2, eC, eU, eD, bind, Except.bind]
  have sM : (D.map sign).shape = [k, m] := sD
  constructor
  · intro hk1 hk3
    rw [e]
    unfold map2
    rw [sM, hU.shape, bshape_22, bdim_ok hk.rightk.symm, bdim_error (Ne.symm hk3) (by norm_num) hk1]
    rfl
  · rintro rfl
    rw [e]
    unfold map2
    rw [sM, hU.shape, bshape_22, bdim_ok hk.rightk.symm, bdim_33]
    refine ⟨_, rfl, rfl, fun i hi j hj => ?_⟩
    simp only [bidx_22, bi_3]
    simp only [Arr.map]
    rw [hD i hi _ (hk.lt' hj)]
    have hb : ∀ j, bi n (bi n j) = bi n j := fun j => by unfold bi; split_ifs <;> rfl
    have g0 := hU.get0 hj
    have g1 := hU.get1 hj
    have g2 := hU.get2 hj
    simp only [hb, bi_self hj] at g0 g1 g2
    simp only [hb, bi_self hi]
    congr 1
    interval_cases i <;> interval_cases j <;> first | exact g0 | exact g1 | exact g2

/-- **C53** the documented behaviour of `closest_point_on_great_circle` holds for one column -/
theorem C53_closest_point_partial {A1 A2 B : Arr α} {a1 a2 b : ℕ → V3 α} (h1 : IsCols A1 1 a1) (h2 : IsCols A2 1 a2)
    (hB : IsCols B 1 b) :
    ∃ X, closest_point_on_great_circle A1 A2 B = .ok X ∧
      IsCols X 1 (fun _ => Nv.closest_point_on_great_circle (a1 0, a2 0) (b 0)) := by
  obtain ⟨N, eN, hN⟩ := C52_great_circle_normal h1 h2 (.self 1)
  obtain ⟨C2, eC2, hC2⟩ := cross0_cols' hB hN
  obtain ⟨C, eC, hC⟩ := cross0_cols' hN hC2
  obtain ⟨U, eU, hU⟩ := unit_cols hC (lit 1)
  obtain ⟨D, eD, sD, hD⟩ := dot_T_cols hU hB
  have hDr : IsRow D 1 (fun _ => D.get [0, 0]) :=
    .inr (.inr ⟨sD, fun j hj => by obtain rfl : j = 0 := by omega
                                   rfl⟩)
  obtain ⟨X, eX, hX⟩ := map2_col_row' (· * ·) hU (hDr.map sign)
  refine ⟨X, ?_, hX.congr fun j hj => ?_⟩
  · unfold closest_point_on_great_circle
    simp only [eN, eC2, eC, eU, eD, eX, bind, Except.bind]
  · obtain rfl : j = 0 := by omega
    rw [hD 0 (by norm_num) 0 (by norm_num)]
    rfl

/-! ## Concrete cases -/

/-- the `3 x n` array with given columns -/
def arrOf (n : ℕ) (c : ℕ → V3 α) : Arr α :=
  ⟨[3, n], fun i => match i with
    | [0, j] => (c j).x
    | [1, j] => (c j).y
    | [_, j] => (c j).z
    | _ => (c 0).x⟩

omit [PyFloat α] in
theorem arrOf_cols (n : ℕ) (c : ℕ → V3 α) : IsCols (arrOf n c) n c := ⟨rfl, fun _ _ => rfl⟩

open XR (fin)

/-- **C53** `intersect` with three path B columns returns a wrong point: path A is the equator and the first path B is the
meridian through `(3/5, 4/5, 0)`; the documented intersection is `(3/5, 4/5, 0)`, the first column of the result is
`(3/5, -4/5, 0)`, which is not even on path B. -/
theorem C53_intersect_three_columns_counterexample :
    ∃ (b1 b2 : ℕ → V3 XR) (X : Arr XR),
      intersect (arrOf 1 fun _ => ⟨fin 1, fin 0, fin 0⟩) (arrOf 1 fun _ => ⟨fin 0, fin 1, fin 0⟩) (arrOf 3 b1) (arrOf 3 b2) = .ok X ∧
      X.shape = [3, 3] ∧
      X.get [0, 0] = fin (3 / 5) ∧ X.get [1, 0] = fin (-(4 / 5)) ∧ X.get [2, 0] = fin 0 ∧
      Nv.intersect (⟨fin 1, fin 0, fin 0⟩, ⟨fin 0, fin 1, fin 0⟩) (b1 0, b2 0) = ⟨fin (3 / 5), fin (4 / 5), fin 0⟩ := by
  have hc1 : cross3 (cross3 (⟨fin 1, fin 0, fin 0⟩ : V3 XR) ⟨fin 0, fin 1, fin 0⟩)
      (cross3 ⟨fin (3 / 5), fin (4 / 5), fin 0⟩ ⟨fin 0, fin 0, fin 1⟩) = (⟨3 / 5, 4 / 5, 0⟩ : V3 ℝ).fin := by
    simp only [cross3, xr, V3.fin]; norm_num
  have hc2 : cross3 (cross3 (⟨fin 1, fin 0, fin 0⟩ : V3 XR) ⟨fin 0, fin 1, fin 0⟩)
      (cross3 ⟨fin 0, fin 0, fin 1⟩ ⟨fin (3 / 5), fin (4 / 5), fin 0⟩) = (⟨-(3 / 5), -(4 / 5), 0⟩ : V3 ℝ).fin := by
    simp only [cross3, xr, V3.fin]; norm_num
  have l1 : Spec.len (⟨3 / 5, 4 / 5, 0⟩ : V3 ℝ) = 1 := by
    unfold Spec.len; norm_num
  have l2 : Spec.len (⟨-(3 / 5), -(4 / 5), 0⟩ : V3 ℝ) = 1 := by
    unfold Spec.len; norm_num
  have u1 : Nv.unit (⟨3 / 5, 4 / 5, 0⟩ : V3 ℝ).fin nan = (⟨3 / 5, 4 / 5, 0⟩ : V3 ℝ).fin := by
    rw [unit_fin (by intro h; rw [h, Spec.len_eq_zero.mpr rfl] at l1; norm_num at l1)]
    unfold Spec.dirOf; rw [l1, inv_one]; simp only [V3.fin, Spec.smul_x, Spec.smul_y, Spec.smul_z, one_mul]
  have u2 : Nv.unit (⟨-(3 / 5), -(4 / 5), 0⟩ : V3 ℝ).fin nan = (⟨-(3 / 5), -(4 / 5), 0⟩ : V3 ℝ).fin := by
    rw [unit_fin (by intro h; rw [h, Spec.len_eq_zero.mpr rfl] at l2; norm_num at l2)]
    unfold Spec.dirOf; rw [l2, inv_one]; simp only [V3.fin, Spec.smul_x, Spec.smul_y, Spec.smul_z, one_mul]
  obtain ⟨b1, hb1⟩ : ∃ b1 : ℕ → V3 XR, b1 = fun j => if j = 1 then ⟨fin 0, fin 0, fin 1⟩ else ⟨fin (3 / 5), fin (4 / 5), fin 0⟩ :=
    ⟨_, rfl⟩
  obtain ⟨b2, hb2⟩ : ∃ b2 : ℕ → V3 XR, b2 = fun j => if j = 1 then ⟨fin (3 / 5), fin (4 / 5), fin 0⟩ else ⟨fin 0, fin 0, fin 1⟩ :=
    ⟨_, rfl⟩
  obtain ⟨X, e, s, v⟩ := (C53_intersect_general (arrOf_cols 1 fun _ => (⟨fin 1, fin 0, fin 0⟩ : V3 XR))
    (arrOf_cols 1 fun _ => ⟨fin 0, fin 1, fin 0⟩) (arrOf_cols 3 b1) (arrOf_cols 3 b2) (.one' 3)).2 rfl
  have C0 : ∀ j, j ≠ 1 → Nv.unit (cross3 (cross3 (⟨fin 1, fin 0, fin 0⟩ : V3 XR) ⟨fin 0, fin 1, fin 0⟩) (cross3 (b1 j) (b2 j))) nan =
      (⟨3 / 5, 4 / 5, 0⟩ : V3 ℝ).fin := fun j hj => by
    rw [hb1, hb2]; simp only [if_neg hj]; rw [hc1, u1]
  have C1 : Nv.unit (cross3 (cross3 (⟨fin 1, fin 0, fin 0⟩ : V3 XR) ⟨fin 0, fin 1, fin 0⟩) (cross3 (b1 1) (b2 1))) nan =
      (⟨-(3 / 5), -(4 / 5), 0⟩ : V3 ℝ).fin := by
    rw [hb1, hb2]; simp only [if_true]; rw [hc2, u2]
  have e3 : ∀ j, bi 3 j = j := fun j => rfl
  have d0 : dot3 (⟨3 / 5, 4 / 5, 0⟩ : V3 ℝ).fin (⟨fin 1, fin 0, fin 0⟩ : V3 XR) = fin (3 / 5) := by
    simp only [dot3, xr, V3.fin]; norm_num
  have d1 : dot3 (⟨-(3 / 5), -(4 / 5), 0⟩ : V3 ℝ).fin (⟨fin 1, fin 0, fin 0⟩ : V3 XR) = fin (-(3 / 5)) := by
    simp only [dot3, xr, V3.fin]; norm_num
  refine ⟨b1, b2, X, e, s, ?_, ?_, ?_, ?_⟩
  · rw [v 0 (by norm_num) 0 (by norm_num)]
    simp only [e3, C0 0 (by norm_num), C0 2 (by norm_num), C1, d0]
    rw [XR.sign_pos (by norm_num)]
    simp only [M3.entry, ofCols, V3.fin, if_true, xr]; norm_num
  · rw [v 1 (by norm_num) 0 (by norm_num)]
    simp only [e3, C0 0 (by norm_num), C0 2 (by norm_num), C1, d1]
    rw [XR.sign_neg (by norm_num)]
    simp only [M3.entry, ofCols, V3.fin, if_true, if_neg one_ne_zero, xr]; norm_num
  · rw [v 2 (by norm_num) 0 (by norm_num)]
    simp only [e3, C0 0 (by norm_num), C0 2 (by norm_num), C1, d0]
    rw [XR.sign_pos (by norm_num)]
    simp only [M3.entry, ofCols, V3.fin, if_true, if_neg (by norm_num : ¬ (2 : ℕ) = 0), if_neg (by norm_num : ¬ (2 : ℕ) = 1), xr]; norm_num
  · unfold Nv.intersect
    simp only [C0 0 (by norm_num), d0]
    rw [XR.sign_pos (by norm_num)]
    simp only [scale3, V3.fin, xr]; norm_num

end Nv.ND
