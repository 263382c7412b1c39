import Verif.ND.Core
import Verif.Spec.Array

/-! Columnwise rules for the array operations -/

namespace Nv

/-- elementwise function on columns -/
def V3.map2 {α β γ : Type} (f : α → β → γ) (v : V3 α) (w : V3 β) : V3 γ := ⟨f v.x w.x, f v.y w.y, f v.z w.z⟩
/-- elementwise function of a column and a number -/
def V3.mapS {α β γ : Type} (f : α → β → γ) (v : V3 α) (s : β) : V3 γ := ⟨f v.x s, f v.y s, f v.z s⟩
/-- elementwise function -/
def V3.map {α β : Type} (f : α → β) (v : V3 α) : V3 β := ⟨f v.x, f v.y, f v.z⟩

namespace ND

theorem bi_self {n j : ℕ} (h : j < n) : bi n j = j := by unfold bi; split <;> omega
theorem bi_one (j : ℕ) : bi 1 j = 0 := rfl

theorem Bc.self (n : ℕ) : Bc n n n := ⟨.inl rfl, .inl rfl, .inl rfl⟩
theorem Bc.one (n : ℕ) : Bc n 1 n := ⟨.inl rfl, .inr rfl, .inl rfl⟩
theorem Bc.one' (n : ℕ) : Bc 1 n n := ⟨.inr rfl, .inl rfl, .inr rfl⟩
theorem Bc.symm {n m k : ℕ} (h : Bc n m k) : Bc m n k := ⟨h.right, h.left, h.eq.symm⟩
theorem Bc.leftk {n m k : ℕ} (h : Bc n m k) : Bc n k k := ⟨h.left, .inl rfl, .inr rfl⟩
theorem Bc.rightk {n m k : ℕ} (h : Bc n m k) : Bc m k k := ⟨h.right, .inl rfl, .inr rfl⟩
theorem Bc.lt {n m k j : ℕ} (h : Bc n m k) (hj : j < k) : bi n j < n := by
  unfold bi; rcases h.left with h | h <;> split <;> omega
theorem Bc.lt' {n m k j : ℕ} (h : Bc n m k) (hj : j < k) : bi m j < m := h.symm.lt hj

theorem bdim_ok {n m k : ℕ} (h : Bc n m k) : bdim n m = .ok k := by
  obtain ⟨h1, h2, h3⟩ := h
  unfold bdim
  split_ifs <;> simp_all <;> omega

/-- the converse: broadcasting succeeds only for compatible sizes -/
theorem bdim_eq_ok {n m k : ℕ} : bdim n m = .ok k ↔ Bc n m k := by
  refine ⟨fun h => ?_, bdim_ok⟩
  unfold bdim at h
  split_ifs at h <;> simp only [Except.ok.injEq, reduceCtorEq] at h <;> subst h <;> constructor <;> simp_all

theorem bdim_error {n m : ℕ} (h1 : n ≠ m) (h2 : n ≠ 1) (h3 : m ≠ 1) : bdim n m = .error .ValueError := by
  unfold bdim; simp [h1, h2, h3]

theorem bdim_33 : bdim 3 3 = .ok 3 := rfl

theorem bshape_22 (a b c d : ℕ) : bshape [a, b] [c, d] = (do let k ← bdim b d; let l ← bdim a c; pure [l, k]) := by
  simp only [bshape, List.reverse_cons, List.reverse_nil, List.nil_append, List.cons_append, bshapeRev]
  cases bdim b d <;> cases bdim a c <;> rfl
theorem bshape_21 (a b d : ℕ) : bshape [a, b] [d] = (do let k ← bdim b d; pure [a, k]) := by
  simp only [bshape, List.reverse_cons, List.reverse_nil, List.nil_append, List.cons_append, bshapeRev]
  cases bdim b d <;> rfl
theorem bshape_12 (b c d : ℕ) : bshape [b] [c, d] = (do let k ← bdim b d; pure [c, k]) := by
  simp only [bshape, List.reverse_cons, List.reverse_nil, List.nil_append, List.cons_append, bshapeRev]
  cases bdim b d <;> rfl
theorem bshape_11 (b d : ℕ) : bshape [b] [d] = (do let k ← bdim b d; pure [k]) := by
  simp only [bshape, List.reverse_cons, List.reverse_nil, List.nil_append, bshapeRev]
  cases bdim b d <;> rfl
theorem bshape_n0 (s : List ℕ) : bshape s [] = .ok s := by
  unfold bshape
  cases h : s.reverse with
  | nil => simp at h; subst h; rfl
  | cons a l =>
    simp only [List.reverse_nil, bshapeRev]
    change Except.ok (a :: l).reverse = _
    rw [← h, List.reverse_reverse]
theorem bshape_0n (s : List ℕ) : bshape [] s = .ok s := by
  unfold bshape
  simp only [List.reverse_nil, bshapeRev]
  change Except.ok s.reverse.reverse = _
  rw [List.reverse_reverse]

theorem bidx_22 (a b i j : ℕ) : bidx [a, b] [i, j] = [bi a i, bi b j] := rfl
theorem bidx_12 (b i j : ℕ) : bidx [b] [i, j] = [bi b j] := rfl
theorem bidx_11 (b j : ℕ) : bidx [b] [j] = [bi b j] := rfl
theorem bidx_0 (s : List ℕ) : bidx [] s = [] := by simp [bidx]
theorem bi_3 (i : ℕ) : bi 3 i = i := rfl

section
variable {α β γ : Type}

theorem IsCols.congr {A : Arr α} {n : ℕ} {c c' : ℕ → V3 α} (h : IsCols A n c) (hc : ∀ j < n, c j = c' j) : IsCols A n c' :=
  ⟨h.shape, fun j hj => (h.col j hj).trans (hc j hj)⟩
theorem IsVec.congr {A : Arr α} {n : ℕ} {c c' : ℕ → α} (h : IsVec A n c) (hc : ∀ j < n, c j = c' j) : IsVec A n c' :=
  ⟨h.shape, fun j hj => (h.val j hj).trans (hc j hj)⟩
theorem IsRow.shape {A : Arr α} {n : ℕ} {r : ℕ → α} (h : IsRow A n r) :
    (A.shape = [] ∧ n = 1) ∨ A.shape = [n] ∨ A.shape = [1, n] := by
  rcases h with ⟨h, h', -⟩ | ⟨h, -⟩ | ⟨h, -⟩
  · exact .inl ⟨h, h'⟩
  · exact .inr (.inl h)
  · exact .inr (.inr h)

theorem IsRow.val {A : Arr α} {n : ℕ} {r : ℕ → α} (h : IsRow A n r) : ∀ j < n, A.get (bidx A.shape [0, j]) = r j := by
  intro j hj
  rcases h with ⟨h, h', h2⟩ | ⟨h, h2⟩ | ⟨h, h2⟩
  · obtain rfl : j = 0 := by omega
    rw [h, bidx_0, h2]
  · rw [h, bidx_12, bi_self hj, h2 j hj]
  · rw [h, bidx_22, bi_self hj, ← h2 j hj]; rfl

theorem IsRow.mk' {A : Arr α} {n : ℕ} {r : ℕ → α} (h : (A.shape = [] ∧ n = 1) ∨ A.shape = [n] ∨ A.shape = [1, n])
    (hv : ∀ j < n, A.get (bidx A.shape [0, j]) = r j) : IsRow A n r := by
  rcases h with ⟨h, h'⟩ | h | h
  · refine .inl ⟨h, h', ?_⟩
    rw [← hv 0 (by omega), h, bidx_0]
  · refine .inr (.inl ⟨h, fun j hj => ?_⟩)
    rw [← hv j hj, h, bidx_12, bi_self hj]
  · refine .inr (.inr ⟨h, fun j hj => ?_⟩)
    rw [← hv j hj, h, bidx_22, bi_self hj]; rfl

theorem IsRow.congr {A : Arr α} {n : ℕ} {c c' : ℕ → α} (h : IsRow A n c) (hc : ∀ j < n, c j = c' j) : IsRow A n c' :=
  .mk' h.shape fun j hj => (h.val j hj).trans (hc j hj)

theorem IsCols.of (A : Arr α) (n : ℕ) (h : A.shape = [3, n]) : IsCols A n A.col := ⟨h, fun _ _ => rfl⟩
theorem IsVec.of (A : Arr α) (n : ℕ) (h : A.shape = [n]) : IsVec A n (fun j => A.get [j]) := ⟨h, fun _ _ => rfl⟩

theorem IsCols.get0 {A : Arr α} {n : ℕ} {c} (h : IsCols A n c) {j} (hj : j < n) : A.get [0, j] = (c j).x :=
  congrArg V3.x (h.col j hj)
theorem IsCols.get1 {A : Arr α} {n : ℕ} {c} (h : IsCols A n c) {j} (hj : j < n) : A.get [1, j] = (c j).y :=
  congrArg V3.y (h.col j hj)
theorem IsCols.get2 {A : Arr α} {n : ℕ} {c} (h : IsCols A n c) {j} (hj : j < n) : A.get [2, j] = (c j).z :=
  congrArg V3.z (h.col j hj)

theorem IsRow.scalar (x : α) : IsRow (scalar x) 1 (fun _ => x) := .inl ⟨rfl, rfl, rfl⟩
theorem IsVec.row {A : Arr α} {n : ℕ} {r} (h : IsVec A n r) : IsRow A n r := .inr (.inl ⟨h.shape, h.val⟩)

theorem IsRow.map {A : Arr α} {n : ℕ} {r} (h : IsRow A n r) (f : α → β) : IsRow (A.map f) n (fun j => f (r j)) :=
  .mk' h.shape (fun j hj => congrArg f (h.val j hj))
theorem IsVec.map {A : Arr α} {n : ℕ} {r} (h : IsVec A n r) (f : α → β) : IsVec (A.map f) n (fun j => f (r j)) :=
  ⟨h.shape, fun j hj => congrArg f (h.val j hj)⟩
theorem IsCols.map {A : Arr α} {n : ℕ} {c} (h : IsCols A n c) (f : α → β) : IsCols (A.map f) n (fun j => (c j).map f) :=
  ⟨h.shape, fun j hj => by rw [← h.col j hj]; rfl⟩

/-- a broadcast row, read at any row index -/
theorem IsRow.read {A : Arr α} {n : ℕ} {r} (h : IsRow A n r) {i j : ℕ} (hj : bi n j < n) :
    A.get (bidx A.shape [i, j]) = r (bi n j) := by
  rw [← h.val _ hj]
  have e : bi n (bi n j) = bi n j := bi_self hj
  rcases h.shape with ⟨hs, -⟩ | hs | hs
  · rw [hs, bidx_0, bidx_0]
  · rw [hs, bidx_12, bidx_12, e]
  · rw [hs, bidx_22, bidx_22, e]; rfl

theorem map2_cols {A : Arr α} {B : Arr β} {n m k : ℕ} {c d} (f : α → β → γ) (hA : IsCols A n c) (hB : IsCols B m d)
    (h : Bc n m k) : ∃ X, map2 f A B = .ok X ∧ IsCols X k (fun j => (c (bi n j)).map2 f (d (bi m j))) := by
  refine ⟨⟨[3, k], fun i => f (A.get (bidx A.shape i)) (B.get (bidx B.shape i))⟩, ?_, ?_⟩
  · unfold map2
    rw [hA.shape, hB.shape, bshape_22, bdim_ok h, bdim_33]; rfl
  · refine ⟨rfl, fun j hj => ?_⟩
    unfold V3.map2
    simp only [hA.shape, hB.shape, bidx_22, bi_3, hA.get0 (h.lt hj), hA.get1 (h.lt hj), hA.get2 (h.lt hj),
      hB.get0 (h.lt' hj), hB.get1 (h.lt' hj), hB.get2 (h.lt' hj)]

theorem map2_col_row {A : Arr α} {B : Arr β} {n m k : ℕ} {c r} (f : α → β → γ) (hA : IsCols A n c) (hB : IsRow B m r)
    (h : Bc n m k) : ∃ X, map2 f A B = .ok X ∧ IsCols X k (fun j => (c (bi n j)).mapS f (r (bi m j))) := by
  refine ⟨⟨[3, k], fun i => f (A.get (bidx A.shape i)) (B.get (bidx B.shape i))⟩, ?_, ?_⟩
  · unfold map2
    rw [hA.shape]
    rcases hB.shape with ⟨hs, hm⟩ | hs | hs
    · have : n = k := by subst hm; rcases h with ⟨h1, h2, h3⟩; omega
      rw [hs, bshape_n0, this]; rfl
    · rw [hs, bshape_21, bdim_ok h]; rfl
    · rw [hs, bshape_22, bdim_ok h]; rfl
  · refine ⟨rfl, fun j hj => ?_⟩
    unfold V3.mapS
    simp only [hB.read (h.lt' hj)]
    simp only [hA.shape, bidx_22, bi_3, hA.get0 (h.lt hj), hA.get1 (h.lt hj), hA.get2 (h.lt hj)]

theorem map2_row_col {A : Arr α} {B : Arr β} {n m k : ℕ} {c r} (f : α → β → γ) (hA : IsRow A n r) (hB : IsCols B m c)
    (h : Bc n m k) : ∃ X, map2 f A B = .ok X ∧ IsCols X k (fun j => (c (bi m j)).mapS (fun x y => f y x) (r (bi n j))) := by
  refine ⟨⟨[3, k], fun i => f (A.get (bidx A.shape i)) (B.get (bidx B.shape i))⟩, ?_, ?_⟩
  · unfold map2
    rw [hB.shape]
    rcases hA.shape with ⟨hs, hm⟩ | hs | hs
    · have : m = k := by subst hm; rcases h with ⟨h1, h2, h3⟩; omega
      rw [hs, bshape_0n, this]; rfl
    · rw [hs, bshape_12, bdim_ok h]; rfl
    · rw [hs, bshape_22, bdim_ok h]; rfl
  · refine ⟨rfl, fun j hj => ?_⟩
    unfold V3.mapS
    simp only [hA.read (h.lt hj)]
    simp only [hB.shape, bidx_22, bi_3, hB.get0 (h.lt' hj), hB.get1 (h.lt' hj), hB.get2 (h.lt' hj)]

theorem map2_vec {A : Arr α} {B : Arr β} {n m k : ℕ} {q r} (f : α → β → γ) (hA : IsVec A n q) (hB : IsVec B m r)
    (h : Bc n m k) : ∃ X, map2 f A B = .ok X ∧ IsVec X k (fun j => f (q (bi n j)) (r (bi m j))) := by
  refine ⟨⟨[k], fun i => f (A.get (bidx A.shape i)) (B.get (bidx B.shape i))⟩, ?_, ?_⟩
  · unfold map2
    rw [hA.shape, hB.shape, bshape_11, bdim_ok h]; rfl
  · refine ⟨rfl, fun j hj => ?_⟩
    simp only [hA.shape, hB.shape, bidx_11, hA.val _ (h.lt hj), hB.val _ (h.lt' hj)]

theorem map2_rows {A : Arr α} {B : Arr β} {n m k : ℕ} {q r} (f : α → β → γ) (hA : IsRow A n q) (hB : IsRow B m r)
    (h : Bc n m k) : ∃ X, map2 f A B = .ok X ∧ IsRow X k (fun j => f (q (bi n j)) (r (bi m j))) := by
  have e : ∀ s, bshape A.shape B.shape = .ok s → map2 f A B =
      .ok ⟨s, fun i => f (A.get (bidx A.shape i)) (B.get (bidx B.shape i))⟩ := by
    intro s hs; unfold map2; rw [hs]; rfl
  have hr : ∀ j, bidx [k] [0, j] = [bi k j] := fun j => rfl
  have hA' := hA; have hB' := hB
  obtain ⟨h1, h2, h3⟩ := id h
  rcases hA with ⟨ha, rfl, va⟩ | ⟨ha, va⟩ | ⟨ha, va⟩ <;> rcases hB with ⟨hb, rfl, vb⟩ | ⟨hb, vb⟩ | ⟨hb, vb⟩
  · obtain rfl : k = 1 := by omega
    refine ⟨_, e [] (by rw [ha, hb]; rfl), .inl ⟨rfl, rfl, ?_⟩⟩
    simp only [ha, hb, bidx_0, va, vb]; rfl
  · obtain rfl : k = m := by omega
    refine ⟨_, e [k] (by rw [ha, hb, bshape_0n]), .inr (.inl ⟨rfl, fun j hj => ?_⟩)⟩
    simp only [ha, hb, bidx_0, bidx_11, bi_self hj, va, vb j hj, bi_one]
  · obtain rfl : k = m := by omega
    refine ⟨_, e [1, k] (by rw [ha, hb, bshape_0n]), .inr (.inr ⟨rfl, fun j hj => ?_⟩)⟩
    simp only [ha, hb, bidx_0, bidx_22, bi_self hj, va, vb j hj, bi_one]
  · obtain rfl : k = n := by omega
    refine ⟨_, e [k] (by rw [ha, hb, bshape_n0]), .inr (.inl ⟨rfl, fun j hj => ?_⟩)⟩
    simp only [ha, hb, bidx_0, bidx_11, bi_self hj, vb, va j hj, bi_one]
  · refine ⟨_, e [k] (by rw [ha, hb, bshape_11, bdim_ok h]; rfl), .inr (.inl ⟨rfl, fun j hj => ?_⟩)⟩
    simp only [ha, hb, bidx_11, va _ (h.lt hj), vb _ (h.lt' hj)]
  · refine ⟨_, e [1, k] (by rw [ha, hb, bshape_12, bdim_ok h]; rfl), .inr (.inr ⟨rfl, fun j hj => ?_⟩)⟩
    simp only [ha, hb, bidx_22, bidx_12, bi_one, va _ (h.lt hj), vb _ (h.lt' hj)]
  · obtain rfl : k = n := by omega
    refine ⟨_, e [1, k] (by rw [ha, hb, bshape_n0]), .inr (.inr ⟨rfl, fun j hj => ?_⟩)⟩
    simp only [ha, hb, bidx_0, bidx_22, bi_self hj, vb, va j hj, bi_one]
  · refine ⟨_, e [1, k] (by rw [ha, hb, bshape_21, bdim_ok h]; rfl), .inr (.inr ⟨rfl, fun j hj => ?_⟩)⟩
    simp only [ha, hb, bidx_22, bidx_12, bi_one, va _ (h.lt hj), vb _ (h.lt' hj)]
  · refine ⟨_, e [1, k] (by rw [ha, hb, bshape_22, bdim_ok h]; rfl), .inr (.inr ⟨rfl, fun j hj => ?_⟩)⟩
    simp only [ha, hb, bidx_22, bi_one, va _ (h.lt hj), vb _ (h.lt' hj)]

/-- same number of columns: no broadcasting -/
theorem map2_cols' {A : Arr α} {B : Arr β} {n : ℕ} {c d} (f : α → β → γ) (hA : IsCols A n c) (hB : IsCols B n d) :
    ∃ X, map2 f A B = .ok X ∧ IsCols X n (fun j => (c j).map2 f (d j)) := by
  obtain ⟨X, h, hX⟩ := map2_cols f hA hB (.self n)
  exact ⟨X, h, hX.congr fun j hj => by rw [bi_self hj]⟩
theorem map2_vec' {A : Arr α} {B : Arr β} {n : ℕ} {c d} (f : α → β → γ) (hA : IsVec A n c) (hB : IsVec B n d) :
    ∃ X, map2 f A B = .ok X ∧ IsVec X n (fun j => f (c j) (d j)) := by
  obtain ⟨X, h, hX⟩ := map2_vec f hA hB (.self n)
  exact ⟨X, h, hX.congr fun j hj => by rw [bi_self hj]⟩
theorem map2_col_row' {A : Arr α} {B : Arr β} {n : ℕ} {c d} (f : α → β → γ) (hA : IsCols A n c) (hB : IsRow B n d) :
    ∃ X, map2 f A B = .ok X ∧ IsCols X n (fun j => (c j).mapS f (d j)) := by
  obtain ⟨X, h, hX⟩ := map2_col_row f hA hB (.self n)
  exact ⟨X, h, hX.congr fun j hj => by rw [bi_self hj]⟩
theorem map2_row_col' {A : Arr α} {B : Arr β} {n : ℕ} {c d} (f : α → β → γ) (hA : IsRow A n d) (hB : IsCols B n c) :
    ∃ X, map2 f A B = .ok X ∧ IsCols X n (fun j => (c j).mapS (fun x y => f y x) (d j)) := by
  obtain ⟨X, h, hX⟩ := map2_row_col f hA hB (.self n)
  exact ⟨X, h, hX.congr fun j hj => by rw [bi_self hj]⟩
/-- a fixed column against `n` columns -/
theorem map2_cols_const {A : Arr α} {B : Arr β} {n : ℕ} {c d} (f : α → β → γ) (hA : IsCols A n c) (hB : IsCols B 1 d) :
    ∃ X, map2 f A B = .ok X ∧ IsCols X n (fun j => (c j).map2 f (d 0)) := by
  obtain ⟨X, h, hX⟩ := map2_cols f hA hB (.one n)
  exact ⟨X, h, hX.congr fun j hj => by rw [bi_self hj, bi_one]⟩
theorem map2_const_col {A : Arr α} {B : Arr β} {n : ℕ} {c r} (f : α → β → γ) (hA : IsRow A 1 r) (hB : IsCols B n c) :
    ∃ X, map2 f A B = .ok X ∧ IsCols X n (fun j => (c j).mapS (fun x y => f y x) (r 0)) := by
  obtain ⟨X, h, hX⟩ := map2_row_col f hA hB (.one' n)
  exact ⟨X, h, hX.congr fun j hj => by rw [bi_self hj, bi_one]⟩

theorem row_cols {A : Arr α} {n : ℕ} {c} (hA : IsCols A n c) :
    (∃ X, A.row 0 = .ok X ∧ IsVec X n (fun j => (c j).x)) ∧ (∃ X, A.row 1 = .ok X ∧ IsVec X n (fun j => (c j).y)) ∧
    ∃ X, A.row 2 = .ok X ∧ IsVec X n (fun j => (c j).z) := by
  unfold Arr.row
  rw [hA.shape]
  exact ⟨⟨_, rfl, rfl, fun j hj => hA.get0 hj⟩, ⟨_, rfl, rfl, fun j hj => hA.get1 hj⟩, ⟨_, rfl, rfl, fun j hj => hA.get2 hj⟩⟩

/-- `np.vstack` of three rows of equal length -/
theorem vstack3_rows {A B C : Arr α} {n : ℕ} {p q r} (hA : IsRow A n p) (hB : IsRow B n q) (hC : IsRow C n r) :
    ∃ X, vstack3 A B C = .ok X ∧ IsCols X n (fun j => ⟨p j, q j, r j⟩) := by
  have key : ∀ {A : Arr α} {p}, IsRow A n p → A.atleast2d.shape = [1, n] ∧ ∀ j < n, A.atleast2d.get [0, j] = p j := by
    intro A p h
    have hv := h.val
    unfold Arr.atleast2d
    rcases h.shape with ⟨hs, hn⟩ | hs | hs
    · subst hn; rw [hs] at hv ⊢
      exact ⟨rfl, fun j hj => by rw [← hv j hj, bidx_0]⟩
    · rw [hs] at hv ⊢
      exact ⟨rfl, fun j hj => by rw [← hv j hj, bidx_12, bi_self hj]; rfl⟩
    · rw [hs] at hv ⊢
      exact ⟨hs, fun j hj => by rw [← hv j hj, bidx_22, bi_self hj]; rfl⟩
  obtain ⟨a1, a2⟩ := key hA
  obtain ⟨b1, b2⟩ := key hB
  obtain ⟨c1, c2⟩ := key hC
  refine ⟨⟨[3, n], fun idx => match idx with
        | i :: r => if i < 2 then (if i < 1 then A.atleast2d.get (i :: r) else B.atleast2d.get ((i - 1) :: r))
            else C.atleast2d.get ((i - 2) :: r)
        | r => A.atleast2d.get r⟩, ?_, ?_⟩
  · unfold vstack3 vcat
    simp only [a1, b1, if_true, bind, Except.bind, c1]
    congr 2
    funext idx
    cases idx <;> rfl
  · refine ⟨rfl, fun j hj => ?_⟩
    simp [a2 j hj, b2 j hj, c2 j hj]

section
variable [PyFloat α]

theorem norm0_cols {A : Arr α} {n : ℕ} {c} (hA : IsCols A n c) : ∃ X, norm0 A = .ok X ∧ IsVec X n (fun j => norm3 (c j)) := by
  unfold norm0
  rw [hA.shape]
  refine ⟨_, rfl, rfl, fun j hj => ?_⟩
  unfold norm3
  rw [← hA.get0 hj, ← hA.get1 hj, ← hA.get2 hj]
  rfl

theorem norm0k_cols {A : Arr α} {n : ℕ} {c} (hA : IsCols A n c) :
    ∃ X, norm0k A = .ok X ∧ X.shape = [1, n] ∧ (∀ j < n, X.get [0, j] = norm3 (c j)) := by
  unfold norm0k
  rw [hA.shape]
  refine ⟨_, rfl, rfl, fun j hj => ?_⟩
  unfold norm3
  rw [← hA.get0 hj, ← hA.get1 hj, ← hA.get2 hj]
  rfl

theorem norm0k_row {A : Arr α} {n : ℕ} {c} (hA : IsCols A n c) :
    ∃ X, norm0k A = .ok X ∧ IsRow X n (fun j => norm3 (c j)) := by
  obtain ⟨X, h, hs, hv⟩ := norm0k_cols hA
  exact ⟨X, h, .inr (.inr ⟨hs, hv⟩)⟩

theorem unit_cols {A : Arr α} {n : ℕ} {c} (hA : IsCols A n c) (nz : α) :
    ∃ X, unit A nz = .ok X ∧ IsCols X n (fun j => Nv.unit (c j) nz) := by
  obtain ⟨N, hN, hNs, hNv⟩ := norm0k_cols hA
  have hNr : IsRow N n (fun j => norm3 (c j)) :=
    .inr (.inr ⟨hNs, hNv⟩)
  obtain ⟨U, hU, hUc⟩ := map2_col_row' (· / ·) hA (hNr.map PyFloat.addTiny)
  unfold unit
  simp only [hN, hU, hA.shape, bind, Except.bind, pure, Except.pure]
  refine ⟨_, rfl, hUc.shape, fun j hj => ?_⟩
  unfold Nv.unit
  simp only [hNv j hj, one_ne_zero, if_false, if_true, OfNat.ofNat_ne_zero]
  split
  · rfl
  · rw [hUc.get0 hj, hUc.get1 hj, hUc.get2 hj]; rfl

theorem cross0_cols {A B : Arr α} {n m k : ℕ} {c d} (hA : IsCols A n c) (hB : IsCols B m d) (h : Bc n m k) :
    ∃ X, cross0 A B = .ok X ∧ IsCols X k (fun j => cross3 (c (bi n j)) (d (bi m j))) := by
  unfold cross0
  rw [hA.shape, hB.shape]
  simp only [bshape_11, bdim_ok h, bind, Except.bind, pure, Except.pure]
  refine ⟨_, rfl, rfl, fun j hj => ?_⟩
  unfold cross3
  simp only [bidx_11, hA.get0 (h.lt hj), hA.get1 (h.lt hj), hA.get2 (h.lt hj),
      hB.get0 (h.lt' hj), hB.get1 (h.lt' hj), hB.get2 (h.lt' hj)]
  rfl

theorem cross0_cols' {A B : Arr α} {n : ℕ} {c d} (hA : IsCols A n c) (hB : IsCols B n d) :
    ∃ X, cross0 A B = .ok X ∧ IsCols X n (fun j => cross3 (c j) (d j)) := by
  obtain ⟨X, h, hX⟩ := cross0_cols hA hB (.self n)
  exact ⟨X, h, hX.congr fun j hj => by rw [bi_self hj]⟩

theorem dot_ofM3 {A : Arr α} {n : ℕ} {c} (M : M3 α) (hA : IsCols A n c) :
    ∃ X, dot (ofM3 M) A = .ok X ∧ IsCols X n (fun j => mulVec M (c j)) := by
  unfold dot
  rw [hA.shape]
  refine ⟨_, rfl, rfl, fun j hj => ?_⟩
  unfold mulVec dot3
  rw [← hA.get0 hj, ← hA.get1 hj, ← hA.get2 hj]
  rfl

theorem dot_ofM3T {A : Arr α} {n : ℕ} {c} (M : M3 α) (hA : IsCols A n c) :
    ∃ X, dot (ofM3 M).T A = .ok X ∧ IsCols X n (fun j => mulVec (tr M) (c j)) := by
  unfold dot
  rw [hA.shape]
  refine ⟨_, rfl, rfl, fun j hj => ?_⟩
  unfold mulVec dot3
  rw [← hA.get0 hj, ← hA.get1 hj, ← hA.get2 hj]
  rfl

/-- `dot(A.T, B)` of two arrays of columns: all pairs -/
theorem dot_T_cols {A B : Arr α} {n m : ℕ} {c d} (hA : IsCols A n c) (hB : IsCols B m d) :
    ∃ X, dot A.T B = .ok X ∧ X.shape = [n, m] ∧ ∀ i < n, ∀ j < m, X.get [i, j] = dot3 (c i) (d j) := by
  unfold dot Arr.T
  rw [hA.shape, hB.shape]
  refine ⟨_, rfl, rfl, fun i hi j hj => ?_⟩
  unfold dot3
  rw [← hA.get0 hi, ← hA.get1 hi, ← hA.get2 hi, ← hB.get0 hj, ← hB.get1 hj, ← hB.get2 hj]
  rfl

theorem ofV3_cols (v : V3 α) : IsCols (ofV3 v) 1 (fun _ => v) := ⟨rfl, fun _ _ => rfl⟩

theorem check_ok {A : Arr α} {n : ℕ} {c} (hA : IsCols A n c) (hn : 0 < n) : check_length_deviation A = .ok () := by
  unfold check_length_deviation
  rw [hA.shape]
  obtain ⟨m, rfl⟩ : ∃ m, n = m + 1 := ⟨n - 1, by omega⟩
  rfl

end
end
end ND
end Nv
