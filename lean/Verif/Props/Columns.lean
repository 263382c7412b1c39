import Verif.Lemmas.ND
import Mathlib.Tactic.IntervalCases

/-!
# C52: calls on arrays are columnwise

For every element type (in particular binary64 floats as well as the exact numbers of the other theorems), every number of
columns and all values.  A result with `k` columns belongs, column by column, to the scalar call on the corresponding
columns of the arguments; an argument with a single column is used for every result (`bi`).
-/

namespace Nv.ND

variable {α : Type} [PyFloat α]
open PyFloat

/-- **C52** `unit` -/
theorem C52_unit {A : Arr α} {n : ℕ} {c : ℕ → V3 α} (hA : IsCols A n c) (nz : α) :
    ∃ X, unit A nz = .ok X ∧ IsCols X n (fun j => Nv.unit (c j) nz) := unit_cols hA nz

/-- **C52** `lat_lon2n_E` for a longitude per latitude, or one longitude for all latitudes -/
theorem C52_lat_lon2n_E {lat lon : Arr α} {n m : ℕ} {p q : ℕ → α} (hlat : IsRow lat n p) (hlon : IsRow lon m q)
    (h : m = n ∨ m = 1) (R : M3 α) :
    ∃ X, lat_lon2n_E lat lon R = .ok X ∧ IsCols X n (fun j => Nv.lat_lon2n_E (p j) (q (bi m j)) R) := by
  have hb : Bc m n n := ⟨h, .inl rfl, .inr rfl⟩
  obtain ⟨Y, eY, hY⟩ := map2_rows (· * ·) (hlon.map sin) (hlat.map cos) hb
  obtain ⟨Z, eZ, hZ⟩ := map2_rows (· * ·) (hlon.map (fun x => -cos x)) (hlat.map cos) hb
  obtain ⟨V, eV, hV⟩ := vstack3_rows (hlat.map sin) hY hZ
  obtain ⟨X, eX, hX⟩ := dot_ofM3T R hV
  refine ⟨X, ?_, hX.congr fun j hj => ?_⟩
  · unfold lat_lon2n_E
    simp only [eY, eZ, eV, eX, bind, Except.bind]
  · simp only [bi_self hj]; rfl

/-- **C52** `n_EB_E2p_EB_E`, with one depth per position, one depth for all positions or one position at several depths -/
theorem C52_n_EB_E2p_EB_E {A depth : Arr α} {n m k : ℕ} {c : ℕ → V3 α} {z : ℕ → α} (hA : IsCols A n c)
    (hz : IsRow depth m z) (hn : 0 < n) (hk : Bc n m k) (a f : α) (R : M3 α) :
    ∃ X, n_EB_E2p_EB_E A depth a f R = .ok X ∧
      IsCols X k (fun j => Nv.n_EB_E2p_EB_E (c (bi n j)) (z (bi m j)) a f R) := by
  obtain ⟨B, eB, hB⟩ := dot_ofM3 R hA
  obtain ⟨U, eU, hU⟩ := unit_cols hB (lit 1)
  obtain ⟨S, eS, hS⟩ := vstack3_rows (IsRow.scalar (lit 1 : α)) (IsRow.scalar (lit 1 - f)) (IsRow.scalar (lit 1 - f))
  obtain ⟨D, eD, hD⟩ := map2_cols_const (· / ·) hU hS
  obtain ⟨N, eN, hN⟩ := norm0k_row hD
  obtain ⟨s, es, hs⟩ := map2_rows (· / ·) (IsRow.scalar (a * (lit 1 - f))) hN (.one' n)
  obtain ⟨q, eq, hq⟩ := map2_row_col' (· * ·) hs hU
  obtain ⟨P, eP, hP⟩ := map2_cols_const (· / ·) hq (hS.map (powNat · 2))
  obtain ⟨W, eW, hW⟩ := map2_col_row (· * ·) hU hz hk
  obtain ⟨V, eV, hV⟩ := map2_cols (· - ·) hP hW hk.leftk
  obtain ⟨X, eX, hX⟩ := dot_ofM3T R hV
  refine ⟨X, ?_, hX.congr fun j hj => ?_⟩
  · unfold n_EB_E2p_EB_E
    simp only [check_ok hA hn, eB, eU, eS, eD, eN, es, eq, eP, eW, eV, eX, bind, Except.bind]
  · simp only [bi_self hj, bi_self (hk.lt hj)]; rfl

/-- **C52** `p_EB_E2n_EB_E`: the n-vectors and the depths -/
theorem C52_p_EB_E2n_EB_E {A : Arr α} {n : ℕ} {c : ℕ → V3 α} (hA : IsCols A n c) (a f : α) (R : M3 α) :
    ∃ X D, p_EB_E2n_EB_E A a f R = .ok (X, D) ∧ IsCols X n (fun j => (Nv.p_EB_E2n_EB_E (c j) a f R).1) ∧
      IsVec D n (fun j => (Nv.p_EB_E2n_EB_E (c j) a f R).2) := by
  obtain ⟨B, eB, hB⟩ := dot_ofM3 R hA
  obtain ⟨⟨x, ex, hx⟩, ⟨y, ey, hy⟩, ⟨z, ez, hz⟩⟩ := row_cols hB
  obtain ⟨E1, E2, E3, eE, hE1, hE2, hE3⟩ : ∃ E1 E2 E3, equation23 a f B = .ok (E1, E2, E3) ∧
      IsVec E1 n (fun j => (Nv.equation23 a f (mulVec R (c j))).1) ∧
      IsVec E2 n (fun j => (Nv.equation23 a f (mulVec R (c j))).2.1) ∧
      IsVec E3 n (fun j => (Nv.equation23 a f (mulVec R (c j))).2.2) := by
    unfold equation23
    simp only [ex, ey, ez, bind, Except.bind, pure, Except.pure]
    refine ⟨_, _, _, rfl, ⟨hx.shape, fun j hj => ?_⟩, ⟨hx.shape, fun j hj => ?_⟩, ⟨hx.shape, fun j hj => ?_⟩⟩ <;>
      simp only [hx.val j hj, hy.val j hj, hz.val j hj]
  obtain ⟨X1, e1, h1⟩ := map2_vec' (· * ·) hE1 hx
  obtain ⟨X2, e2, h2⟩ := map2_vec' (· * ·) hE2 hy
  obtain ⟨X3, e3, h3⟩ := map2_vec' (· * ·) hE2 hz
  obtain ⟨V, eV, hV⟩ := vstack3_rows h1.row h2.row h3.row
  obtain ⟨W, eW, hW⟩ := dot_ofM3T R hV
  obtain ⟨U, eU, hU⟩ := unit_cols hW (lit 1)
  refine ⟨U, E3, ?_, hU, hE3⟩
  unfold p_EB_E2n_EB_E
  simp only [eB, eE, ex, ey, ez, e1, e2, e3, eV, eW, eU, bind, Except.bind, pure, Except.pure]

/-- **C52** `n_EA_E_and_n_EB_E2p_AB_E`, with one depth per position or one depth for all positions -/
theorem C52_n_EA_E_and_n_EB_E2p_AB_E {A B zA zB : Arr α} {n m mA mB k : ℕ} {c d : ℕ → V3 α} {p q : ℕ → α}
    (hA : IsCols A n c) (hB : IsCols B m d) (hzA : IsRow zA mA p) (hzB : IsRow zB mB q) (hn : 0 < n) (hm : 0 < m)
    (hmA : mA = n ∨ mA = 1) (hmB : mB = m ∨ mB = 1) (hk : Bc n m k) (a f : α) (R : M3 α) :
    ∃ X, n_EA_E_and_n_EB_E2p_AB_E A B zA zB a f R = .ok X ∧
      IsCols X k (fun j => Nv.n_EA_E_and_n_EB_E2p_AB_E (c (bi n j)) (d (bi m j)) (p (bi mA j)) (q (bi mB j)) a f R) := by
  obtain ⟨P, eP, hP⟩ := C52_n_EB_E2p_EB_E hA hzA hn ⟨.inl rfl, hmA, .inl rfl⟩ a f R
  obtain ⟨Q, eQ, hQ⟩ := C52_n_EB_E2p_EB_E hB hzB hm ⟨.inl rfl, hmB, .inl rfl⟩ a f R
  obtain ⟨X, eX, hX⟩ := map2_cols (· - ·) hQ hP hk.symm
  refine ⟨X, ?_, hX.congr fun j hj => ?_⟩
  · unfold n_EA_E_and_n_EB_E2p_AB_E
    simp only [eP, eQ, eX, bind, Except.bind]
  · simp only [bi_self (hk.lt hj), bi_self (hk.lt' hj)]
    rw [show bi mA (bi n j) = bi mA j by unfold bi; split_ifs <;> omega,
      show bi mB (bi m j) = bi mB j by unfold bi; split_ifs <;> omega]
    rfl

/-- **C52** `n_EA_E_and_p_AB_E2n_EB_E` -/
theorem C52_n_EA_E_and_p_AB_E2n_EB_E {A P zA : Arr α} {n m mA k : ℕ} {c d : ℕ → V3 α} {p : ℕ → α}
    (hA : IsCols A n c) (hP : IsCols P m d) (hzA : IsRow zA mA p) (hn : 0 < n)
    (hmA : mA = n ∨ mA = 1) (hk : Bc n m k) (a f : α) (R : M3 α) :
    ∃ X D, n_EA_E_and_p_AB_E2n_EB_E A P zA a f R = .ok (X, D) ∧
      IsCols X k (fun j => (Nv.n_EA_E_and_p_AB_E2n_EB_E (c (bi n j)) (d (bi m j)) (p (bi mA j)) a f R).1) ∧
      IsVec D k (fun j => (Nv.n_EA_E_and_p_AB_E2n_EB_E (c (bi n j)) (d (bi m j)) (p (bi mA j)) a f R).2) := by
  obtain ⟨Q, eQ, hQ⟩ := C52_n_EB_E2p_EB_E hA hzA hn ⟨.inl rfl, hmA, .inl rfl⟩ a f R
  obtain ⟨S, eS, hS⟩ := map2_cols (· + ·) hQ hP hk
  obtain ⟨X, D, eX, hX, hD⟩ := C52_p_EB_E2n_EB_E hS a f R
  have key : ∀ j < k, (Nv.n_EB_E2p_EB_E (c (bi n (bi n j))) (p (bi mA (bi n j))) a f R).map2 (· + ·) (d (bi m j)) =
      add3 (Nv.n_EB_E2p_EB_E (c (bi n j)) (p (bi mA j)) a f R) (d (bi m j)) := by
    intro j hj
    rw [bi_self (hk.lt hj), show bi mA (bi n j) = bi mA j by unfold bi; split_ifs <;> omega]; rfl
  refine ⟨X, D, ?_, hX.congr fun j hj => ?_, hD.congr fun j hj => ?_⟩
  · unfold n_EA_E_and_p_AB_E2n_EB_E
    simp only [eQ, eS, eX, bind, Except.bind]
  · simp only [key j hj]; rfl
  · simp only [key j hj]; rfl

/-- **C52** `interpolate` with one time per path or one time for all paths -/
theorem C52_interpolate {A B ti : Arr α} {n m k mt : ℕ} {c d : ℕ → V3 α} {t : ℕ → α} (hA : IsCols A n c)
    (hB : IsCols B m d) (ht : IsRow ti mt t) (hk : Bc n m k) (hmt : mt = k ∨ mt = 1) :
    ∃ X, interpolate A B ti = .ok X ∧
      IsCols X k (fun j => Nv.interpolate (c (bi n j), d (bi m j)) (t (bi mt j))) := by
  obtain ⟨S, eS, hS⟩ := map2_cols (· - ·) hB hA hk.symm
  obtain ⟨D, eD, hD⟩ := map2_row_col (fun t x => x * t) ht hS ⟨hmt, .inl rfl, .inr rfl⟩
  obtain ⟨P, eP, hP⟩ := map2_cols (· + ·) hA hD hk.leftk
  obtain ⟨X, eX, hX⟩ := unit_cols hP nan
  refine ⟨X, ?_, hX.congr fun j hj => ?_⟩
  · unfold interpolate
    simp only [eS, eD, eP, eX, bind, Except.bind]
  · simp only [bi_self hj]; rfl

/-- **C52** `great_circle_normal` -/
theorem C52_great_circle_normal {A B : Arr α} {n m k : ℕ} {c d : ℕ → V3 α} (hA : IsCols A n c) (hB : IsCols B m d)
    (hk : Bc n m k) :
    ∃ X, great_circle_normal A B = .ok X ∧ IsCols X k (fun j => Nv.great_circle_normal (c (bi n j)) (d (bi m j))) := by
  obtain ⟨C, eC, hC⟩ := cross0_cols hA hB hk
  obtain ⟨X, eX, hX⟩ := unit_cols hC nan
  refine ⟨X, ?_, hX⟩
  unfold great_circle_normal
  simp only [eC, eX, bind, Except.bind]

omit [PyFloat α] in
theorem ravel_vec {A : Arr α} {n : ℕ} {r : ℕ → α} (hA : IsVec A n r) : IsVec A.ravel n r := by
  unfold Arr.ravel
  rw [hA.shape]
  refine ⟨by simp [prod], fun j hj => ?_⟩
  simp only [unravel, prod, List.foldr_nil, Nat.div_one]
  exact hA.val j hj

/-- **C52** `euclidean_distance` -/
theorem C52_euclidean_distance {A B : Arr α} {n m k : ℕ} {c d : ℕ → V3 α} (hA : IsCols A n c) (hB : IsCols B m d)
    (hk : Bc n m k) (radius : α) :
    ∃ X, euclidean_distance A B radius = .ok X ∧
      IsVec X k (fun j => Nv.euclidean_distance (c (bi n j)) (d (bi m j)) radius) := by
  obtain ⟨S, eS, hS⟩ := map2_cols (· - ·) hB hA hk.symm
  obtain ⟨N, eN, hN⟩ := norm0_cols hS
  refine ⟨N.ravel.map (· * radius), ?_, (ravel_vec hN).map (· * radius)⟩
  unfold euclidean_distance
  simp only [eS, eN, bind, Except.bind, pure, Except.pure]

/-- **C52** `n_E2lat_lon` -/
theorem C52_n_E2lat_lon {A : Arr α} {n : ℕ} {c : ℕ → V3 α} (hA : IsCols A n c) (hn : 0 < n) (R : M3 α) :
    ∃ lat lon, n_E2lat_lon A R = .ok (lat, lon) ∧ IsVec lat n (fun j => (Nv.n_E2lat_lon (c j) R).1) ∧
      IsVec lon n (fun j => (Nv.n_E2lat_lon (c j) R).2) := by
  obtain ⟨B, eB, hB⟩ := dot_ofM3 R hA
  obtain ⟨⟨x, ex, hx⟩, ⟨y, ey, hy⟩, ⟨z, ez, hz⟩⟩ := row_cols hB
  obtain ⟨L, eL, hL⟩ := map2_vec' arctan2 hy (hz.map (fun x => -x))
  obtain ⟨Q, eQ, hQ⟩ := map2_vec' (· + ·) (hy.map (powNat · 2)) (hz.map (powNat · 2))
  obtain ⟨M, eM, hM⟩ := map2_vec' arctan2 hx (hQ.map sqrt)
  refine ⟨M, L, ?_, hM, hL⟩
  unfold n_E2lat_lon
  simp only [check_ok hA hn, eB, ex, ey, ez, eL, eQ, eM, bind, Except.bind, pure, Except.pure]

/-- **C52** `n_EA_E_distance_and_azimuth2n_EB_E` with one distance and one azimuth per position or for all positions -/
theorem C52_n_EA_E_distance_and_azimuth2n_EB_E {A dist az : Arr α} {n mD mA : ℕ} {c : ℕ → V3 α} {s t : ℕ → α}
    (hA : IsCols A n c) (hd : IsRow dist mD s) (ha : IsRow az mA t) (hD : mD = n ∨ mD = 1) (hT : mA = n ∨ mA = 1)
    (R : M3 α) :
    ∃ X, n_EA_E_distance_and_azimuth2n_EB_E A dist az R = .ok X ∧
      IsCols X n (fun j => Nv.n_EA_E_distance_and_azimuth2n_EB_E (c j) (s (bi mD j)) (t (bi mA j)) R) := by
  obtain ⟨P, eP, hP⟩ := dot_ofM3T R (ofV3_cols (⟨lit 1, lit 0, lit 0⟩ : V3 α))
  obtain ⟨C, eC, hC⟩ := cross0_cols hP hA (.one' n)
  obtain ⟨E, eE, hE⟩ := unit_cols hC (lit 1)
  obtain ⟨N, eN, hN⟩ := cross0_cols' hA hE
  have bD : Bc n mD n := ⟨.inl rfl, hD, .inl rfl⟩
  have bA : Bc n mA n := ⟨.inl rfl, hT, .inl rfl⟩
  obtain ⟨X1, e1, h1⟩ := map2_col_row (· * ·) hN (ha.map cos) bA
  obtain ⟨X2, e2, h2⟩ := map2_col_row (· * ·) hE (ha.map sin) bA
  obtain ⟨X3, e3, h3⟩ := map2_cols' (· + ·) h1 h2
  obtain ⟨X4, e4, h4⟩ := map2_col_row (· * ·) hA (hd.map cos) bD
  obtain ⟨X5, e5, h5⟩ := map2_col_row (· * ·) h3 (hd.map sin) bD
  obtain ⟨X6, e6, h6⟩ := map2_cols' (· + ·) h4 h5
  refine ⟨X6, ?_, h6.congr fun j hj => ?_⟩
  · unfold n_EA_E_distance_and_azimuth2n_EB_E
    simp only [eP, eC, eE, eN, e1, e2, e3, e4, e5, e6, bind, Except.bind]
  · simp only [bi_self hj]; rfl

/-- a `3 x 3 x n` array with the pages `M 0, …, M (n-1)` -/
structure IsP3 (A : Arr α) (n : ℕ) (M : ℕ → M3 α) : Prop where
  shape : A.shape = [3, 3, n]
  page : ∀ j < n, A.page j = M j

omit [PyFloat α] in
theorem newaxis1_cols {A : Arr α} {n : ℕ} {c : ℕ → V3 α} (hA : IsCols A n c) :
    ∃ X, A.newaxis1 = .ok X ∧ X.shape = [3, 1, n] ∧ ∀ i k j, X.get [i, k, j] = A.get [i, j] := by
  unfold Arr.newaxis1
  rw [hA.shape]
  exact ⟨_, rfl, rfl, fun _ _ _ => rfl⟩

omit [PyFloat α] in
theorem hstack3_cols {A B C A' B' C' : Arr α} {n : ℕ} {c d e : ℕ → V3 α} (hA : IsCols A n c) (hB : IsCols B n d)
    (hC : IsCols C n e) (eA : A.newaxis1 = .ok A') (eB : B.newaxis1 = .ok B') (eC : C.newaxis1 = .ok C') :
    ∃ X, hstack3 A' B' C' = .ok X ∧ IsP3 X n (fun j => ofCols (c j) (d j) (e j)) := by
  obtain ⟨_, h1, s1, g1⟩ := newaxis1_cols hA
  obtain ⟨_, h2, s2, g2⟩ := newaxis1_cols hB
  obtain ⟨_, h3, s3, g3⟩ := newaxis1_cols hC
  obtain rfl := Except.ok.inj (eA.symm.trans h1)
  obtain rfl := Except.ok.inj (eB.symm.trans h2)
  obtain rfl := Except.ok.inj (eC.symm.trans h3)
  unfold hstack3 hcat
  simp only [s1, s2, s3, and_self, if_true, bind, Except.bind]
  refine ⟨_, rfl, rfl, fun j hj => ?_⟩
  unfold Arr.page ofCols
  simp [g1, g2, g3, hA.get0 hj, hA.get1 hj, hA.get2 hj, hB.get0 hj, hB.get1 hj, hB.get2 hj, hC.get0 hj, hC.get1 hj,
    hC.get2 hj]

theorem mdot_const_pages {B X : Arr α} {n : ℕ} {M : ℕ → M3 α} (R : M3 α) (hB : IsP3 B n M)
    (hX : swapaxes01 (ofM3 R) = .ok X) :
    ∃ Y, mdot X B = .ok Y ∧ IsP3 Y n (fun j => Nv.mdot (tr R) (M j)) := by
  unfold swapaxes01 ofM3 at hX
  obtain rfl := Except.ok.inj hX
  unfold mdot
  rw [hB.shape]
  simp only [bshape_0n, if_true, bind, Except.bind, pure, Except.pure]
  refine ⟨_, rfl, rfl, fun j hj => ?_⟩
  rw [← hB.page j hj]
  unfold Arr.page
  simp only [bidx_0, bidx_11, bi_self hj]
  rfl

omit [PyFloat α] in
theorem squeeze_pages {A : Arr α} {n : ℕ} {M : ℕ → M3 α} (hA : IsP3 A n M) : IsPages A.squeeze n M := by
  constructor
  · unfold Arr.squeeze
    rw [hA.shape]
    by_cases h : n = 1 <;> simp [h]
  · intro j hj
    rw [← hA.page j hj]
    unfold Arr.squeeze Arr.page
    rw [hA.shape]
    by_cases h : n = 1
    · subst h
      obtain rfl : j = 0 := by omega
      simp [unsqueeze]
    · simp [unsqueeze, h]

/-- **C52** `n_E2R_EN` (a `3 x 3` array for one column) -/
theorem C52_n_E2R_EN {A : Arr α} {n : ℕ} {c : ℕ → V3 α} (hA : IsCols A n c) (hn : 0 < n) (R : M3 α) :
    ∃ X, n_E2R_EN A R = .ok X ∧ IsPages X n (fun j => Nv.n_E2R_EN (c j) R) := by
  obtain ⟨B, eB, hB⟩ := dot_ofM3 R hA
  obtain ⟨U, eU, hU⟩ := unit_cols hB (lit 1)
  have hNz := hU.map (fun x => -x)
  obtain ⟨D, eD, hD⟩ := cross0_cols (ofV3_cols (⟨lit 1, lit 0, lit 0⟩ : V3 α)) hU (.one' n)
  obtain ⟨N, eN, hN⟩ := norm0_cols hD
  obtain ⟨Y, eY, hY⟩ := unit_cols hD (lit 1)
  obtain ⟨Ny, eNy⟩ : ∃ Ny : Arr α, Ny = setOnPoles Y N := ⟨_, rfl⟩
  have hNy : IsCols Ny n (fun j => if eq (norm3 (cross3 ⟨lit 1, lit 0, lit 0⟩ (Nv.unit (mulVec R (c j))))) (lit 0)
      then ⟨lit 0, lit 1, lit 0⟩ else Nv.unit (cross3 ⟨lit 1, lit 0, lit 0⟩ (Nv.unit (mulVec R (c j))))) := by
    subst eNy
    refine ⟨hY.shape, fun j hj => ?_⟩
    unfold setOnPoles
    simp only [hN.val j hj, bi_self hj, zero_ne_one, if_false, if_true, OfNat.ofNat_ne_one]
    split
    · rfl
    · rw [hY.get0 hj, hY.get1 hj, hY.get2 hj]; simp only [bi_self hj]
  obtain ⟨Nx, eNx, hNx⟩ := cross0_cols' hNy hNz
  obtain ⟨X', ex, -⟩ := newaxis1_cols hNx
  obtain ⟨Y', ey, -⟩ := newaxis1_cols hNy
  obtain ⟨Z', ez, -⟩ := newaxis1_cols hNz
  obtain ⟨H, eH, hH⟩ := hstack3_cols hNx hNy hNz ex ey ez
  obtain ⟨S, eS⟩ : ∃ S, swapaxes01 (ofM3 R) = .ok S := ⟨_, rfl⟩
  obtain ⟨P, eP, hP⟩ := mdot_const_pages R hH eS
  refine ⟨P.squeeze, ?_, squeeze_pages ⟨hP.shape, fun j hj => ?_⟩⟩
  · unfold n_E2R_EN
    simp only [check_ok hA hn, eB, eU, eD, eN, eY, bind, Except.bind, pure, Except.pure]
    rw [← eNy]
    simp only [eNx, ex, ey, ez, eH, eS, eP]
  · rw [hP.page j hj]; rfl

/-- **C52** `mean_horizontal_position`: one column, the mean of the list of the columns -/
theorem C52_mean_horizontal_position {A : Arr α} {n : ℕ} {c : ℕ → V3 α} (hA : IsCols A n c) :
    ∃ X, mean_horizontal_position A = .ok X ∧
      IsCols X 1 (fun _ => Nv.mean_horizontal_position ((List.range n).map c)) := by
  have key : ∀ (l : List ℕ), (∀ j ∈ l, j < n) → ∀ acc : V3 α,
      (⟨l.foldl (fun a j => a + A.get [0, j]) acc.x, l.foldl (fun a j => a + A.get [1, j]) acc.y,
        l.foldl (fun a j => a + A.get [2, j]) acc.z⟩ : V3 α) = (l.map c).foldl add3 acc := by
    intro l
    induction l with
    | nil => intro _ acc; rfl
    | cons j l ih =>
      intro h acc
      have hj := h j (by simp)
      simp only [List.foldl_cons, List.map_cons, hA.get0 hj, hA.get1 hj, hA.get2 hj]
      exact ih (fun i hi => h i (by simp [hi])) (add3 acc (c j))
  obtain ⟨S, eS, hs⟩ : ∃ S, sumAxis1 A = .ok S ∧ S = ⟨[3], fun idx => match idx with
    | i :: _ => (List.range n).foldl (fun acc j => acc + A.get [i, j]) (lit 0)
    | _ => lit 0⟩ := by
    unfold sumAxis1; rw [hA.shape]; exact ⟨_, rfl, rfl⟩
  obtain ⟨Q, eQ, hQ⟩ : ∃ Q, S.reshape31 = .ok Q ∧ IsCols Q 1 (fun _ => ((List.range n).map c).foldl add3
      ⟨lit 0, lit 0, lit 0⟩) := by
    subst hs
    unfold Arr.reshape31
    rw [if_pos (by simp [prod])]
    unfold Arr.reshape
    rw [if_pos (by simp [prod])]
    refine ⟨_, rfl, by simp [prod], fun j hj => ?_⟩
    obtain rfl : j = 0 := by omega
    rw [← key _ (fun j hj => List.mem_range.mp hj)]
    simp [prod, unravel]
  obtain ⟨X, eX, hX⟩ := unit_cols hQ (lit 1)
  refine ⟨X, ?_, hX⟩
  unfold mean_horizontal_position
  simp only [eS, eQ, eX, bind, Except.bind]

omit [PyFloat α] in
theorem reshape3 {A : Arr α} {k : ℕ} (hA : A.shape = [3, 1, k]) :
    ∃ X, A.reshape 3 = .ok X ∧ IsCols X k (fun j => ⟨A.get [0, 0, j], A.get [1, 0, j], A.get [2, 0, j]⟩) := by
  have hp : prod A.shape = 3 * k := by rw [hA]; simp [prod]
  unfold Arr.reshape
  rw [hp, if_pos ⟨by norm_num, Nat.mul_mod_right 3 k⟩]
  refine ⟨_, rfl, by simp, fun j hj => ?_⟩
  have hk : 3 * k / 3 = k := Nat.mul_div_cancel_left k (by norm_num)
  have e : ∀ i, unravel A.shape (i * k + j) = [i, 0, j] := by
    intro i
    rw [hA]
    simp only [unravel, prod, List.foldr_cons, List.foldr_nil, mul_one, one_mul, Nat.div_one]
    have hk0 : 0 < k := by omega
    rw [show (i * k + j) / k = i by
        rw [Nat.add_comm, Nat.add_mul_div_right _ _ hk0, Nat.div_eq_of_lt hj, zero_add],
      show (i * k + j) % k = j by rw [Nat.add_comm, Nat.add_mul_mod_self_right, Nat.mod_eq_of_lt hj],
      Nat.div_eq_of_lt hj, Nat.mod_eq_of_lt hj]
  simp only [hk, e]

/-- `mdot(np.swapaxes(M, 1, 0), p[:, None, ...])` of `n` matrices and `m` columns -/
theorem mdot_swap_cols {A S B B' : Arr α} {n m k : ℕ} {M : ℕ → M3 α} {c : ℕ → V3 α} (hA : IsPages A n M)
    (hS : swapaxes01 A = .ok S) (hB : IsCols B m c) (hB' : B.newaxis1 = .ok B') (h : Bc n m k) :
    ∃ X, mdot S B' = .ok X ∧ X.shape = [3, 1, k] ∧
      ∀ j < k, (⟨X.get [0, 0, j], X.get [1, 0, j], X.get [2, 0, j]⟩ : V3 α) = mulVec (tr (M (bi n j))) (c (bi m j)) := by
  obtain ⟨_, e, s, g⟩ := newaxis1_cols hB
  obtain rfl := Except.ok.inj (hB'.symm.trans e)
  unfold swapaxes01 at hS
  rw [hA.shape] at hS
  by_cases hn : n = 1
  · subst hn
    simp only [if_true] at hS
    obtain rfl := Except.ok.inj hS
    unfold mdot
    rw [s]
    obtain rfl : k = m := by obtain ⟨h1, h2, h3⟩ := h; omega
    simp only [bshape_0n, if_true, bind, Except.bind, pure, Except.pure]
    refine ⟨_, rfl, rfl, fun j hj => ?_⟩
    have hp := hA.page 0 (by norm_num)
    simp only [if_true] at hp
    rw [bi_one, ← hp]
    unfold mulVec dot3
    rw [bi_self hj, ← hB.get0 hj, ← hB.get1 hj, ← hB.get2 hj]
    simp only [bidx_0, bidx_11, g, bi_self hj]
    rfl
  · simp only [if_neg hn] at hS
    obtain rfl := Except.ok.inj hS
    unfold mdot
    rw [s]
    simp only [bshape_11, bdim_ok h, if_true, bind, Except.bind, pure, Except.pure]
    refine ⟨_, rfl, rfl, fun j hj => ?_⟩
    have hp := hA.page _ (h.lt hj)
    simp only [if_neg hn] at hp
    rw [← hp]
    unfold mulVec dot3
    rw [← hB.get0 (h.lt' hj), ← hB.get1 (h.lt' hj), ← hB.get2 (h.lt' hj)]
    simp only [bidx_11, g]
    rfl

/-- **C52** `n_EA_E_and_n_EB_E2azimuth` -/
theorem C52_n_EA_E_and_n_EB_E2azimuth {A B : Arr α} {n m k : ℕ} {c d : ℕ → V3 α} (hA : IsCols A n c) (hB : IsCols B m d)
    (hn : 0 < n) (hm : 0 < m) (hk : Bc n m k) (a f : α) (R : M3 α) :
    ∃ X, n_EA_E_and_n_EB_E2azimuth A B a f R = .ok X ∧
      IsVec X k (fun j => Nv.n_EA_E_and_n_EB_E2azimuth (c (bi n j)) (d (bi m j)) a f R) := by
  obtain ⟨P, eP, hP⟩ := C52_n_EA_E_and_n_EB_E2p_AB_E hA hB (IsRow.scalar (lit 0 : α)) (IsRow.scalar (lit 0 : α)) hn hm
    (.inr rfl) (.inr rfl) hk a f R
  obtain ⟨N, eN, hN⟩ := C52_n_E2R_EN hA hn R
  obtain ⟨S, eS⟩ : ∃ S, swapaxes01 N = .ok S := by
    unfold swapaxes01; rw [hN.shape]; split_ifs <;> exact ⟨_, rfl⟩
  obtain ⟨P', eP', -⟩ := newaxis1_cols hP
  obtain ⟨Q, eQ, hQs, hQ⟩ := mdot_swap_cols hN eS hP eP' hk.leftk
  obtain ⟨V, eV, hV⟩ := reshape3 hQs
  obtain ⟨⟨x, ex, hx⟩, ⟨y, ey, hy⟩, -⟩ := row_cols hV
  obtain ⟨Z, eZ, hZ⟩ := map2_vec' arctan2 hy hx
  refine ⟨Z, ?_, hZ.congr fun j hj => ?_⟩
  · unfold n_EA_E_and_n_EB_E2azimuth
    simp only [eP, eN, eS, eP', eQ, eV, ex, ey, eZ, bind, Except.bind]
  · have h := hQ j hj
    have h0 := congrArg V3.x h
    have h1 := congrArg V3.y h
    simp only at h0 h1
    rw [h0, h1, bi_self hj]; rfl

/-- the entries of pages, at a row index or at a page index -/
theorem IsPages.entry {A : Arr α} {n : ℕ} {M : ℕ → M3 α} (hA : IsPages A n M) {i k : ℕ} (hi : i < 3) (hk : k < 3) {j : ℕ}
    (hj : j < n) : A.get (if n = 1 then [i, k] else [i, k, j]) = M3.entry (M j) i k := by
  have h := hA.page j hj
  rw [← h]
  unfold M3.entry
  interval_cases i <;> interval_cases k <;> rfl

omit [PyFloat α] in
/-- the shape of three rows after broadcasting -/
theorem bshape_rows {A B : Arr α} {n m k : ℕ} {p q} (hA : IsRow A n p) (hB : IsRow B m q) (h : Bc n m k) :
    ∃ s, bshape A.shape B.shape = .ok s ∧ ((s = [] ∧ k = 1) ∨ s = [k] ∨ s = [1, k]) := by
  obtain ⟨X, e, hX⟩ := map2_rows (fun a _ => a) hA hB h
  unfold map2 at e
  cases hs : bshape A.shape B.shape with
  | error => rw [hs] at e; cases e
  | ok s =>
    rw [hs] at e
    obtain rfl := Except.ok.inj e
    exact ⟨s, rfl, hX.shape⟩

theorem bshapeRev_len : ∀ {s t r : List ℕ}, bshapeRev s t = .ok r → s.length ≤ r.length ∧ t.length ≤ r.length
  | [], t, r, h => by
    simp only [bshapeRev, Except.ok.injEq] at h; subst h; simp
  | a :: s, [], r, h => by
    simp only [bshapeRev, Except.ok.injEq] at h; subst h; simp
  | a :: s, b :: t, r, h => by
    simp only [bshapeRev, bind, Except.bind, pure, Except.pure] at h
    cases h1 : bdim a b with
    | error => rw [h1] at h; cases h
    | ok d =>
      rw [h1] at h
      cases h2 : bshapeRev s t with
      | error => rw [h2] at h; cases h
      | ok q =>
        rw [h2] at h
        obtain rfl := Except.ok.inj h
        have := bshapeRev_len h2
        simp only [List.length_cons]; omega

theorem bshape_len {s t r : List ℕ} (h : bshape s t = .ok r) : s.length ≤ r.length ∧ t.length ≤ r.length := by
  unfold bshape at h
  simp only [bind, Except.bind, pure, Except.pure] at h
  cases h1 : bshapeRev s.reverse t.reverse with
  | error => rw [h1] at h; cases h
  | ok q =>
    rw [h1] at h
    obtain rfl := Except.ok.inj h
    simpa using bshapeRev_len h1

omit [PyFloat α] in
theorem IsRow.read1 {A : Arr α} {n : ℕ} {r} (h : IsRow A n r) {j : ℕ} (hj : bi n j < n)
    (hs : A.shape.length ≤ 1) : A.get (bidx A.shape [j]) = r (bi n j) := by
  rcases h with ⟨ha, hn, hv⟩ | ⟨ha, hv⟩ | ⟨ha, hv⟩
  · subst hn; rw [ha, bidx_0, hv]; rfl
  · rw [ha, bidx_11, hv _ hj]
  · rw [ha] at hs; simp at hs

omit [PyFloat α] in
theorem bi_bi {n m k l j : ℕ} (h : Bc n m k) (h' : Bc k l j) {i : ℕ} (hi : i < j) : bi n (bi k i) = bi n i := by
  obtain ⟨a, b, c⟩ := h
  unfold bi; split_ifs <;> omega

theorem matrices_rows (build : α → α → α → M3 α) {x y z : Arr α} {n m l k1 k : ℕ} {p q r : ℕ → α} (hx : IsRow x n p)
    (hy : IsRow y m q) (hz : IsRow z l r) (h1 : Bc n m k1) (h2 : Bc k1 l k) :
    ∃ X, matrices build x y z = .ok X ∧ IsPages X k (fun j => build (p (bi n j)) (q (bi m j)) (r (bi l j))) := by
  obtain ⟨Y, eY, hY⟩ := map2_rows (fun a _ => a) hx hy h1
  obtain ⟨s1, es1, hs1⟩ := bshape_rows hx hy h1
  have hY1 : Y.shape = s1 := by
    unfold map2 at eY; rw [es1] at eY; obtain rfl := Except.ok.inj eY; rfl
  obtain ⟨s, es, hs⟩ := bshape_rows hY hz h2
  rw [hY1] at es
  have l1 := bshape_len es1
  have l2 := bshape_len es
  have bn : ∀ {j}, j < k → bi n j < n := fun {j} hj => by rw [← bi_bi h1 h2 hj]; exact h1.lt (h2.lt hj)
  have bm : ∀ {j}, j < k → bi m j < m := fun {j} hj => by rw [← bi_bi h1.symm h2 hj]; exact h1.lt' (h2.lt hj)
  have bl : ∀ {j}, j < k → bi l j < l := fun {j} hj => h2.lt' hj
  unfold matrices
  simp only [es1, es, bind, Except.bind, pure, Except.pure]
  refine ⟨_, rfl, ?_, fun j hj => ?_⟩
  · unfold Arr.squeeze
    rcases hs with ⟨rfl, rfl⟩ | rfl | rfl
    · rfl
    · by_cases hk : k = 1 <;> simp [hk]
    · by_cases hk : k = 1 <;> simp [hk]
  · have hB : ∀ i c, M3.entry (build (p (bi n j)) (q (bi m j)) (r (bi l j))) i c =
        M3.entry (build (p (bi n j)) (q (bi m j)) (r (bi l j))) i c := fun _ _ => rfl
    obtain ⟨B, eB⟩ : ∃ B, B = build (p (bi n j)) (q (bi m j)) (r (bi l j)) := ⟨_, rfl⟩
    have fin : ∀ e : ℕ → ℕ → α, (∀ i k, e i k = M3.entry B i k) →
      (⟨⟨e 0 0, e 0 1, e 0 2⟩, ⟨e 1 0, e 1 1, e 1 2⟩, ⟨e 2 0, e 2 1, e 2 2⟩⟩ : M3 α) = B := by
      intro e he; simp only [he]; rfl
    rw [← eB]
    intro e
    refine fin e fun i c => ?_
    change Arr.get (Arr.squeeze _) _ = _
    unfold Arr.squeeze
    rw [eB]
    have lx : x.shape.length ≤ s.length := by omega
    have ly : y.shape.length ≤ s.length := by omega
    have lz : z.shape.length ≤ s.length := by omega
    rcases hs with ⟨rfl, rfl⟩ | rfl | rfl
    · obtain rfl : j = 0 := by omega
      have e1 := hx.read1 (bn hj) (lx.trans (by simp))
      have e2 := hy.read1 (bm hj) (ly.trans (by simp))
      have e3 := hz.read1 (bl hj) (lz.trans (by simp))
      simp [unsqueeze, e1, e2, e3]
    · have e1 := hx.read1 (bn hj) lx
      have e2 := hy.read1 (bm hj) ly
      have e3 := hz.read1 (bl hj) lz
      by_cases hk : k = 1
      · subst hk
        obtain rfl : j = 0 := by omega
        simp [unsqueeze, e1, e2, e3]
      · simp [unsqueeze, e1, e2, e3, hk]
    · have e1 := hx.read (i := 0) (bn hj)
      have e2 := hy.read (i := 0) (bm hj)
      have e3 := hz.read (i := 0) (bl hj)
      by_cases hk : k = 1
      · subst hk
        obtain rfl : j = 0 := by omega
        simp [unsqueeze, e1, e2, e3]
      · simp [unsqueeze, e1, e2, e3, hk]

/-- **C52** `xyz2R` -/
theorem C52_xyz2R {x y z : Arr α} {n m l k1 k : ℕ} {p q r : ℕ → α} (hx : IsRow x n p) (hy : IsRow y m q)
    (hz : IsRow z l r) (h1 : Bc n m k1) (h2 : Bc k1 l k) :
    ∃ X, xyz2R x y z = .ok X ∧ IsPages X k (fun j => Nv.xyz2R (p (bi n j)) (q (bi m j)) (r (bi l j))) :=
  matrices_rows Nv.xyz2R hx hy hz h1 h2

/-- **C52** `zyx2R` -/
theorem C52_zyx2R {x y z : Arr α} {n m l k1 k : ℕ} {p q r : ℕ → α} (hx : IsRow x n p) (hy : IsRow y m q)
    (hz : IsRow z l r) (h1 : Bc n m k1) (h2 : Bc k1 l k) :
    ∃ X, zyx2R z y x = .ok X ∧ IsPages X k (fun j => Nv.zyx2R (r (bi l j)) (q (bi m j)) (p (bi n j))) :=
  matrices_rows (fun x y z => Nv.zyx2R z y x) hx hy hz h1 h2

theorem mdot_T_pages {B : Arr α} {n : ℕ} {M : ℕ → M3 α} (R : M3 α) (hB : IsPages B n M) :
    ∃ Y, mdot (ofM3 R).T B = .ok Y ∧ IsPages Y.squeeze n (fun j => Nv.mdot (tr R) (M j)) := by
  have hp := fun j (hj : j < n) => hB.page j hj
  by_cases hn : n = 1
  · have hs := hB.shape
    rw [if_pos hn] at hs
    unfold mdot
    rw [hs]
    refine ⟨_, rfl, ?_, fun j hj => ?_⟩
    · rw [if_pos hn]; try rfl
    · rw [← hp j hj]
      simp only [if_pos hn]
      rfl
  · have hs := hB.shape
    rw [if_neg hn] at hs
    have h3 : IsP3 B n M := ⟨hs, fun j hj => by rw [← hp j hj]; simp only [if_neg hn]; rfl⟩
    obtain ⟨S, eS⟩ : ∃ S, swapaxes01 (ofM3 R) = .ok S := ⟨_, rfl⟩
    obtain ⟨Y, eY, hY⟩ := mdot_const_pages R h3 eS
    refine ⟨_, ?_, squeeze_pages hY⟩
    rw [← eY]
    unfold swapaxes01 ofM3 at eS
    obtain rfl := Except.ok.inj eS
    unfold mdot
    rw [hs]
    congr 2

/-- **C52** `n_E_and_wa2R_EL`: one wander azimuth per position, one for all, or several at one position -/
theorem C52_n_E_and_wa2R_EL {A wa : Arr α} {n m k : ℕ} {c : ℕ → V3 α} {w : ℕ → α} (hA : IsCols A n c) (hw : IsRow wa m w)
    (hn : 0 < n) (hk : Bc n m k) (R : M3 α) :
    ∃ X, n_E_and_wa2R_EL A wa R = .ok X ∧ IsPages X k (fun j => Nv.n_E_and_wa2R_EL (c (bi n j)) (w (bi m j)) R) := by
  obtain ⟨lat, lon, e, hlat, hlon⟩ := C52_n_E2lat_lon hA hn R
  obtain ⟨Y, eY, hY⟩ := C52_xyz2R hlon.row (hlat.map (fun x => -x)).row hw (.self n) hk
  obtain ⟨Z, eZ, hZ⟩ := mdot_T_pages R hY
  refine ⟨_, ?_, hZ⟩
  unfold n_E_and_wa2R_EL
  simp only [e, eY, eZ, bind, Except.bind, pure, Except.pure]

/-- **C52** `R_EL2n_E` and `R_EN2n_E` -/
theorem C52_R_EL2n_E {A : Arr α} {n : ℕ} {M : ℕ → M3 α} (hA : IsPages A n M) :
    ∃ X, R_EL2n_E A = .ok X ∧ IsCols X n (fun j => Nv.R_EL2n_E (M j)) := by
  obtain ⟨V, eV, hV⟩ := vstack3_rows (IsRow.scalar (lit 0 : α)) (IsRow.scalar (lit 0 : α)) (IsRow.scalar (lit (-1) : α))
  have hp := fun j (hj : j < n) => hA.page j hj
  have hs := hA.shape
  have v0 : V.get [0, 0] = lit 0 := hV.get0 (j := 0) (by norm_num)
  have v1 : V.get [1, 0] = lit 0 := hV.get1 (j := 0) (by norm_num)
  have v2 : V.get [2, 0] = lit (-1) := hV.get2 (j := 0) (by norm_num)
  by_cases hn : n = 1
  · subst hn
    rw [if_pos rfl] at hs
    obtain ⟨Y, eY, hY, hc⟩ : ∃ Y, mdot A V = .ok Y ∧ Y.shape = [3, 1] ∧ (⟨Y.get [0, 0], Y.get [1, 0], Y.get [2, 0]⟩ : V3 α) =
        Nv.R_EL2n_E (M 0) := by
      unfold mdot
      rw [hs, hV.shape]
      refine ⟨_, rfl, rfl, ?_⟩
      rw [← hp 0 (by norm_num)]
      unfold Nv.R_EL2n_E mulVec dot3
      simp only [sum1, show List.range 3 = [0, 1, 2] from rfl, List.map_cons, List.map_nil, List.foldl_cons, List.foldl_nil,
        bidx_0, v0, v1, v2]
      rfl
    obtain ⟨X, eX, hX⟩ : ∃ X, Y.reshape 3 = .ok X ∧ IsCols X 1 (fun _ => Nv.R_EL2n_E (M 0)) := by
      unfold Arr.reshape
      rw [hY]
      rw [if_pos (by simp [prod])]
      refine ⟨_, rfl, by simp [prod], fun j hj => ?_⟩
      obtain rfl : j = 0 := by omega
      rw [← hc]
      simp [prod, unravel]
    refine ⟨X, ?_, hX.congr fun j hj => by obtain rfl : j = 0 := by omega
                                           rfl⟩
    unfold R_EL2n_E
    simp only [eV, eY, eX, bind, Except.bind]
  · rw [if_neg hn] at hs
    obtain ⟨Y, eY, hY, hc⟩ : ∃ Y, mdot A V = .ok Y ∧ Y.shape = [3, 1, n] ∧ ∀ j < n,
        (⟨Y.get [0, 0, j], Y.get [1, 0, j], Y.get [2, 0, j]⟩ : V3 α) = Nv.R_EL2n_E (M j) := by
      unfold mdot
      rw [hs, hV.shape]
      simp only [bshape_n0, if_true, bind, Except.bind, pure, Except.pure]
      refine ⟨_, rfl, rfl, fun j hj => ?_⟩
      rw [← hp j hj]
      unfold Nv.R_EL2n_E mulVec dot3
      simp only [sum1, show List.range 3 = [0, 1, 2] from rfl, List.map_cons, List.map_nil, List.foldl_cons, List.foldl_nil,
        bidx_0, bidx_11, bi_self hj, if_neg hn, v0, v1, v2]
    obtain ⟨X, eX, hX⟩ := reshape3 hY
    refine ⟨X, ?_, hX.congr hc⟩
    unfold R_EL2n_E
    simp only [eV, eY, eX, bind, Except.bind]

theorem at2_pages {A : Arr α} {n : ℕ} {M : ℕ → M3 α} (hA : IsPages A n M) {i k : ℕ} (hi : i < 3) (hk : k < 3) :
    ∃ X, Arr.at2 A i k = .ok X ∧ IsRow X n (fun j => M3.entry (M j) i k) ∧ X.shape = if n = 1 then [] else [n] := by
  have hs := hA.shape
  have he := fun j (hj : j < n) => hA.entry hi hk hj
  unfold Arr.at2 Arr.row
  by_cases hn : n = 1
  · subst hn
    simp only [if_true] at hs he ⊢
    simp only [hs, hi, hk, if_true, bind, Except.bind]
    exact ⟨_, rfl, .inl ⟨rfl, rfl, he 0 (by norm_num)⟩, rfl⟩
  · simp only [if_neg hn] at hs he ⊢
    simp only [hs, hi, hk, if_true, bind, Except.bind]
    exact ⟨_, rfl, .inr (.inl ⟨rfl, fun j hj => he j hj⟩), rfl⟩

/-- **C52** `R2xyz` -/
theorem C52_R2xyz {A : Arr α} {n : ℕ} {M : ℕ → M3 α} (hA : IsPages A n M) :
    ∃ x y z, R2xyz A = .ok (x, y, z) ∧ IsRow x n (fun j => (Nv.R2xyz (M j)).1) ∧
      IsRow y n (fun j => (Nv.R2xyz (M j)).2.1) ∧ IsRow z n (fun j => (Nv.R2xyz (M j)).2.2) := by
  obtain ⟨r00, e00, h00, -⟩ := at2_pages hA (i := 0) (k := 0) (by norm_num) (by norm_num)
  obtain ⟨r01, e01, h01, -⟩ := at2_pages hA (i := 0) (k := 1) (by norm_num) (by norm_num)
  obtain ⟨r02, e02, h02, -⟩ := at2_pages hA (i := 0) (k := 2) (by norm_num) (by norm_num)
  obtain ⟨r12, e12, h12, -⟩ := at2_pages hA (i := 1) (k := 2) (by norm_num) (by norm_num)
  obtain ⟨r22, e22, h22, -⟩ := at2_pages hA (i := 2) (k := 2) (by norm_num) (by norm_num)
  obtain ⟨z, ez, hz⟩ := map2_rows arctan2 (h01.map (fun x => -x)) h00 (.self n)
  obtain ⟨x, ex, hx⟩ := map2_rows arctan2 (h12.map (fun x => -x)) h22 (.self n)
  obtain ⟨s1, e1, h1⟩ := map2_rows (· + ·) (h00.map (powNat · 2)) (h01.map (powNat · 2)) (.self n)
  obtain ⟨s2, e2, h2⟩ := map2_rows (· + ·) h1 (h12.map (powNat · 2)) (.self n)
  obtain ⟨s3, e3, h3⟩ := map2_rows (· + ·) h2 (h22.map (powNat · 2)) (.self n)
  obtain ⟨y, ey, hy⟩ := map2_rows arctan2 h02 (h3.map (fun s => sqrt (s / lit 2))) (.self n)
  refine ⟨x, y, z, ?_, hx.congr fun j hj => ?_, hy.congr fun j hj => ?_, hz.congr fun j hj => ?_⟩
  · unfold R2xyz
    simp only [e00, e01, e02, e12, e22, ez, ex, e1, e2, e3, ey, bind, Except.bind, pure, Except.pure]
  · simp only [bi_self hj]; rfl
  · simp only [bi_self hj]; rfl
  · simp only [bi_self hj]; rfl

/-- **C52** `R2zyx` -/
theorem C52_R2zyx {A : Arr α} {n : ℕ} {M : ℕ → M3 α} (hA : IsPages A n M) :
    ∃ z y x, R2zyx A = .ok (z, y, x) ∧ IsRow z n (fun j => (Nv.R2zyx (M j)).1) ∧
      IsRow y n (fun j => (Nv.R2zyx (M j)).2.1) ∧ IsRow x n (fun j => (Nv.R2zyx (M j)).2.2) := by
  obtain ⟨S, eS, hS⟩ : ∃ S, swapaxes01 A = .ok S ∧ IsPages S n (fun j => tr (M j)) := by
    have hs := hA.shape
    unfold swapaxes01
    by_cases hn : n = 1
    · rw [if_pos hn] at hs
      rw [hs]
      refine ⟨_, rfl, by rw [if_pos hn], fun j hj => ?_⟩
      rw [← hA.page j hj]
      simp only [if_pos hn]
      rfl
    · rw [if_neg hn] at hs
      rw [hs]
      refine ⟨_, rfl, by rw [if_neg hn], fun j hj => ?_⟩
      rw [← hA.page j hj]
      simp only [if_neg hn]
      rfl
  obtain ⟨x, y, z, e, hx, hy, hz⟩ := C52_R2xyz hS
  refine ⟨_, _, _, ?_, hz.map (fun x => -x), hy.map (fun x => -x), hx.map (fun x => -x)⟩
  unfold R2zyx
  simp only [eS, e, bind, Except.bind, pure, Except.pure]

/-- a scalar latitude with several longitudes is rejected, although several latitudes with a scalar longitude are accepted -/
theorem C52_lat_lon_scalar_latitude {lat lon : Arr α} {n : ℕ} (hlat : lat.shape = []) (hlon : lon.shape = [n]) (hn : 2 ≤ n)
    (R : M3 α) : lat_lon2n_E lat lon R = .error .ValueError := by
  unfold lat_lon2n_E map2 Arr.map
  simp only [hlat, hlon, bshape_n0, bind, Except.bind, pure, Except.pure]
  unfold vstack3 vcat Arr.atleast2d
  simp only [hlat, bind, Except.bind]
  rw [if_neg (by omega)]

/-- arrays without columns are rejected by every function that checks the length of the first n-vector -/
theorem C52_no_columns {A depth : Arr α} {r : ℕ} (hA : A.shape = [r, 0]) (a f : α) (R : M3 α) :
    n_EB_E2p_EB_E A depth a f R = .error .IndexError ∧ n_E2lat_lon A R = .error .IndexError ∧
    n_E2R_EN A R = .error .IndexError := by
  have h : check_length_deviation A = .error .IndexError := by unfold check_length_deviation; rw [hA]; rfl
  refine ⟨?_, ?_, ?_⟩
  · unfold n_EB_E2p_EB_E; rw [h]; rfl
  · unfold n_E2lat_lon; rw [h]; rfl
  · unfold n_E2R_EN; rw [h]; rfl

/-- the hypotheses are met: a `3 x 2` array, two depths -/
example (x : α) : IsCols (⟨[3, 2], fun _ => x⟩ : Arr α) 2 (fun _ => ⟨x, x, x⟩) ∧ IsRow (⟨[2], fun _ => x⟩ : Arr α) 2 (fun _ => x) ∧
    Bc 2 2 2 ∧ Bc 1 2 2 := ⟨⟨rfl, fun _ _ => rfl⟩, .inr (.inl ⟨rfl, fun _ _ => rfl⟩), .self 2, .one' 2⟩

end Nv.ND
