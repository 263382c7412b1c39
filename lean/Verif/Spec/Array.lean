import Verif.ND.Array

/-! What it means that an array consists of given columns, elements or pages -/

namespace Nv.ND

/-- the column that belongs to result `j` when an array has `n` columns: a single column is used for every result -/
def bi (n j : ℕ) : ℕ := if n = 1 then 0 else j

/-- `n` and `m` columns combine to `k` columns: equal numbers, or one of them is one -/
structure Bc (n m k : ℕ) : Prop where
  left : n = k ∨ n = 1
  right : m = k ∨ m = 1
  eq : k = n ∨ k = m

variable {α : Type}

/-- `A` is the `3 x n` array with the columns `c 0, …, c (n-1)` -/
structure IsCols (A : Arr α) (n : ℕ) (c : ℕ → V3 α) : Prop where
  shape : A.shape = [3, n]
  col : ∀ j < n, (⟨A.get [0, j], A.get [1, j], A.get [2, j]⟩ : V3 α) = c j

/-- `A` is the vector of the `n` elements `r 0, …, r (n-1)` -/
structure IsVec (A : Arr α) (n : ℕ) (r : ℕ → α) : Prop where
  shape : A.shape = [n]
  val : ∀ j < n, A.get [j] = r j

/-- `A` is a scalar (`n = 1`), a vector of length `n` or a `1 x n` array, with the elements `r 0, …, r (n-1)` -/
def IsRow (A : Arr α) (n : ℕ) (r : ℕ → α) : Prop :=
  (A.shape = [] ∧ n = 1 ∧ A.get [] = r 0) ∨ (A.shape = [n] ∧ ∀ j < n, A.get [j] = r j) ∨
    (A.shape = [1, n] ∧ ∀ j < n, A.get [0, j] = r j)

/-- `A` holds the `n` matrices `M 0, …, M (n-1)`: a `3 x 3 x n` array or, for `n = 1`, a `3 x 3` array -/
structure IsPages (A : Arr α) (n : ℕ) (M : ℕ → M3 α) : Prop where
  shape : A.shape = if n = 1 then [3, 3] else [3, 3, n]
  page : ∀ j < n, let e := fun i k => A.get (if n = 1 then [i, k] else [i, k, j])
    (⟨⟨e 0 0, e 0 1, e 0 2⟩, ⟨e 1 0, e 1 1, e 1 2⟩, ⟨e 2 0, e 2 1, e 2 2⟩⟩ : M3 α) = M j

end Nv.ND
