import Verif.ND.Objects
import Verif.Spec.Array

/-!
What it means that an object holding arrays represents `n` positions, and that it is a scalar or a vector.  The positions
`p 0, …, p (n-1)` are those of `Verif.Model.Objects`.  `s` says whether the object is a scalar position; scalar positions
hold exactly one position.
-/

namespace Nv.ND
variable {α : Type}

/-- an attribute: a scalar (0-d) if `s`, otherwise a vector of length `n` -/
def IsVal (s : Bool) (A : Arr α) (n : ℕ) (r : ℕ → α) : Prop :=
  if s then A.shape = [] ∧ n = 1 ∧ A.get [] = r 0 else IsVec A n r

/-- the depth of an Nvector: one depth per position, or one common depth (a number or an array with one number) for
several positions -/
def IsDepth (s : Bool) (A : Arr α) (n : ℕ) (r : ℕ → α) : Prop :=
  IsVal s A n r ∨ s = false ∧ n ≠ 1 ∧ ∃ (t : Bool) (z : ℕ → α), IsVal t A 1 z ∧ ∀ j < n, z 0 = r j

/-- `P` holds the GeoPoints `g 0, …, g (n-1)` -/
structure IsGeo (s : Bool) (n : ℕ) (P : GeoPoint α) (g : ℕ → Nv.GeoPoint α) : Prop where
  lat : IsVal s P.latitude n fun j => (g j).latitude
  lon : IsVal s P.longitude n fun j => (g j).longitude
  z : IsVal s P.z n fun j => (g j).z
  frame : ∀ j < n, (g j).frame = P.frame

/-- `P` holds the Nvectors `g 0, …, g (n-1)` -/
structure IsNvec (s : Bool) (n : ℕ) (P : Nvector α) (g : ℕ → Nv.Nvector α) : Prop where
  normal : IsCols P.normal n fun j => (g j).normal
  z : IsDepth s P.z n fun j => (g j).z
  frame : ∀ j < n, (g j).frame = P.frame

/-- `P` holds the ECEF vectors `g 0, …, g (n-1)` -/
structure IsEcef (s : Bool) (n : ℕ) (P : ECEFvector α) (g : ℕ → Nv.ECEFvector α) : Prop where
  pvector : IsCols P.pvector n fun j => (g j).pvector
  scalar : P.scalar = s
  one : s = true → n = 1
  frame : ∀ j < n, (g j).frame = P.frame

/-- `F` holds the local frames `g 0, …, g (n-1)`: origins and angles may be one per frame or one for all -/
inductive IsLocal (n : ℕ) : LocalFrame α → (ℕ → Nv.LocalFrame α) → Prop where
  | N {s : Bool} {p : Nvector α} {q : ℕ → Nv.Nvector α} {g} (hp : IsNvec s n p q) (h : ∀ j < n, g j = .N (q j)) :
      IsLocal n (.N p) g
  | L {s : Bool} {m l : ℕ} {p : Nvector α} {q : ℕ → Nv.Nvector α} {A : Arr α} {w : ℕ → α} {g} (hp : IsNvec s m p q)
      (hw : IsRow A l w) (hb : Bc m l n) (h : ∀ j < n, g j = .L (q (bi m j)) (w (bi l j))) : IsLocal n (.L p A) g
  | B {s : Bool} {m ly lp lr l1 l : ℕ} {p : Nvector α} {q : ℕ → Nv.Nvector α} {Y P R : Arr α} {y t r : ℕ → α} {g}
      (hp : IsNvec s m p q) (hy : IsRow Y ly y) (ht : IsRow P lp t) (hr : IsRow R lr r) (h1 : Bc lr lp l1) (h2 : Bc l1 ly l)
      (hb : Bc m l n) (h : ∀ j < n, g j = .B (q (bi m j)) (y (bi ly j)) (t (bi lp j)) (r (bi lr j))) :
      IsLocal n (.B p Y P R) g

/-- `P` holds the Pvectors `g 0, …, g (n-1)`: one or several vectors in one or several frames -/
def IsPvec (s : Bool) (n : ℕ) (P : Pvector α) (g : ℕ → Nv.Pvector α) : Prop :=
  ∃ (m l : ℕ) (c : ℕ → V3 α) (f : ℕ → Nv.LocalFrame α), IsCols P.pvector m c ∧ IsLocal l P.frame f ∧ Bc m l n ∧
    P.scalar = s ∧ (s = true → n = 1) ∧ ∀ j < n, g j = ⟨c (bi m j), f (bi l j)⟩

/-- `P` holds the positions `g 0, …, g (n-1)` of one class -/
inductive IsPos (s : Bool) (n : ℕ) : Position α → (ℕ → Nv.Position α) → Prop where
  | geo {P q g} (h : IsGeo s n P q) (e : ∀ j < n, g j = .geo (q j)) : IsPos s n (.geo P) g
  | nvec {P q g} (h : IsNvec s n P q) (e : ∀ j < n, g j = .nvec (q j)) : IsPos s n (.nvec P) g
  | ecef {P q g} (h : IsEcef s n P q) (e : ∀ j < n, g j = .ecef (q j)) : IsPos s n (.ecef P) g
  | pvec {P q g} (h : IsPvec s n P q) (e : ∀ j < n, g j = .pvec (q j)) : IsPos s n (.pvec P) g

end Nv.ND
