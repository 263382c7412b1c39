import Verif.Mem.Threads
import Verif.Spec.Memory

/-!
# Specification: calls in several threads
-/

namespace Nv.Spec
open Nv.Mem

variable {α : Type} [PyFloat α] {ρ γ : Type}

/-- the thread makes a step again and again -/
def Fair (σ : ℕ → Option (Event α)) : Prop := ∀ n, ∃ k, n ≤ k ∧ σ k = none

/-- the `Nvector` object number `k` is made by the thread `me` -/
def MadeByMe (s : Threads α ρ) (σ : ℕ → Option (Event α)) (k : ℕ) : Prop :=
  ∃ t, σ t = none ∧ (s.play σ t).mem.nvecs.length ≤ k ∧ k < (s.play σ (t + 1)).mem.nvecs.length

/-- other threads call `n.unit()` only for objects `n` that are not in `K` and that are not made by `me` -/
def LeavesAlone (s : Threads α ρ) (σ : ℕ → Option (Event α)) (K : NRef → Prop) : Prop :=
  ∀ t i c n, σ t = some (.start i c) → CallsUnit n c → ¬ K n ∧ ¬ MadeByMe s σ n.id

/-- the result has the value `s`, or is the exception `s` -/
def Agrees (rd : Heap α → ρ → Option γ) (h : Heap α) : Except PyErr ρ → Except PyErr γ → Prop
  | .ok r, .ok v => rd h r = some v
  | .error e, .error e' => e = e'
  | _, _ => False

/-- `m` is started in the memory `h` and gets the `Nvector` objects `K`.  Whatever other threads do, as long as they do not call `unit()`
of an object in `K` or of an object that `m` makes, `m` comes to an end: it returns an array or object with the value `s`, or raises
the exception `s`, and the result keeps this value. -/
def ThreadSafe (rd : Heap α → ρ → Option γ) (h : Heap α) (K : NRef → Prop) (m : M α ρ) (s : Except PyErr γ) : Prop :=
  ∀ σ, Fair σ → LeavesAlone (.init h m) σ K →
    ∃ n r, ∀ k, n ≤ k → ((Threads.init h m).play σ k).me = .done r ∧ Agrees rd ((Threads.init h m).play σ k).mem r s

end Nv.Spec
