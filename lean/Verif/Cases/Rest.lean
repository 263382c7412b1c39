import Verif.Cases.FloatMore
import Verif.Props.Containers
import Verif.Props.Repr
import Verif.Props.Frames
import Verif.Props.SignedZero

/-! # Concrete cases: the remaining theorems -/

namespace Nv.Cases.Flt
open Spec F64
variable (B : Binary64)

/-! ## C139: the traverse 1000 m up, 2000 m down, 1000 m up -/
example : True := by
  obtain ⟨start, p, legs, hs, hl, hF, hS, hc⟩ := traverse_witness B (wf B)
  have hF' : ∀ v ∈ legs, IsF64V v := fun v hv => (hF v hv).1
  have hk : legs.length ≤ 10 ^ 9 := by rw [hl]; norm_num
  have t1 := C139_traverse B ax wa1 a1 a2 (ff B) (f0 B) (f1 B) (L := 6379137) (by norm_num) hs legs hF' hS hk
  have t2 := C139_closed B ax wa1 a1 a2 (ff B) (f0 B) (f1 B) (L := 6379137) (by norm_num) hs legs hF' hS hk hc
  have t3 := C139_reorder B ax wa1 a1 a2 (ff B) (f0 B) (f1 B) (L := 6379137) (by norm_num) hs legs legs (.refl _) hF' (fun l h => hS l (h.elim id id)) hk
  match legs, hl, hF', hS with
  | [u, v, w], _, hF', hS =>
    have q0 := hS [] (by simp)
    have q1 := hS [u] (by simp)
    have t4 := C139_leg B ax wa1 a1 a2 (ff B) (f0 B) (f1 B) (L := 6379137) (hF' u (by simp)) q0.2 (by norm_num)
      (le_trans (by norm_num) q1.1) q1.2 hs
    trivial

/-! ## C31: the computed norm of (0, 0, 1) is 1 -/
example : True := by
  obtain ⟨fl, h⟩ := exists_roundsToNearest
  have h0 : flNorm fl 0 0 1 = 1 := by
    unfold flNorm
    simp [h.exact isF64_zero, h.exact isF64_one]
  have := C31_tiny_absorbed fl h 0 0 1 (by rw [h0]; norm_num)
  trivial

/-! ## C119: the antipode of (0, 0, 1); displacements there and back -/
example : ∃ (B : Binary64) (_ : SignSymmetric B), True := by
  obtain ⟨B, hB⟩ := exists_signSymmetric
  have e := C119_antipode_position hB (⟨0, 0, 1⟩ : V3 ℝ).flt (F64.fin 1000) (F64.fin 6378137) (F64.fin (wf B)) Re.flt
  obtain ⟨p, hp⟩ := geo B v vne 1000
  obtain ⟨q, hq⟩ := geo B w wne (-1000)
  obtain ⟨P, nm, h, -⟩ := C86_delta_E B ax wa1 a1 a2 (ff B) (f0 B) (f1 B) (.int 1) (.int 2) f1000 f1000.neg (by norm_num) (by norm_num) fv fw v500 v60
    w500 w60 hp hq
  obtain ⟨P', nm', h', -⟩ := C86_delta_E B ax wa1 a1 a2 (ff B) (f0 B) (f1 B) (.int 2) (.int 1) f1000.neg f1000 (by norm_num) (by norm_num) fw fv w500 w60
    v500 v60 hq hp
  have d := C119_delta_E hB h h'
  exact ⟨B, hB, trivial⟩

/-! ## C56, C113 -/
section
variable {L : Type}
/-- `{'k': (np.array([x]),)}` -/
abbrev nested (x : L) : PyVal String L := .dict [("k", .tuple [.obj (.list [.leaf x])])]
theorem plainNested (x : L) : PlainArrays (nested x) :=
  .dict _ (by simpa using .tuple _ (by simpa using .array _ (.list _ (by simp [Plain.leaf]))))
example (x : L) := C56_idempotent_partial (plainNested x)
example (x : L) := C56_unchanged (v := (.dict [("k", .list [.leaf x])] : PyVal String L)) (.dict _ (by simpa using .list _ (by simp [Plain.leaf])))
open PyHeap
abbrev mem (x : L) : Heap String L := [.leaf x, .obj (.node [.ref 0]), .tuple [1], .dict [("k", 2)], .dict [("other", 3)]]
theorem denNested (x : L) : Den (mem x) 3 (nested x) := .dict rfl (.cons (.tuple rfl (.cons (.obj rfl (.node (.cons (.ref (.leaf rfl)) .nil))) .nil)) .nil)
theorem denOther (x : L) : Den (mem x) 4 (.dict [("other", nested x)]) := .dict rfl (.cons (denNested x) .nil)
/-- another dict, at 4, contains the dict at 3 that is converted -/
example (x : L) : True := by
  obtain ⟨n, hn⟩ := exists_depth (C56_plain_partial (plainNested x))
  obtain ⟨h', r', e, -⟩ := runs n (mem x) 3 _ (denNested x) (plainNested x) hn
  have t1 := C113_in_place (denNested x) (plainNested x) hn e rfl
  have t2 := C113_only_dicts (denNested x) (plainNested x) hn e 4 _ rfl
  have t3 := C113_others (denNested x) (plainNested x) hn e 4 _ (denOther x) (.dict _ (by simpa using plainNested x))
  have t4 := C113_frame (denNested x) (plainNested x) hn e 4 (by simp [mem]) (by
    have hno : ∀ y : Nat, Reach (mem x) 3 y → y = 0 ∨ y = 1 ∨ y = 2 ∨ y = 3 := by
      intro y hy
      induction hy with
      | refl => simp
      | step _ e hc ih =>
        rcases ih with rfl | rfl | rfl | rfl <;> simp at e <;> subst e <;> simp [refs, treeRefs, treesRefs] at hc <;> simp [hc]
    exact fun h => by simpa using hno 4 h)
  trivial
end

/-! ## C38, C140 -/
section
open Nv.Repr
example (F : FrameE ℤ) (h : nameOk F.name) : repr (frameVal tally tally F) ≠ repr (frameVal tally tally { F with a := F.a + 1 }) := by
  rw [Ne, C140_FrameE prints_tally prints_tally F { F with a := F.a + 1 } h h]
  intro e
  have := congrArg FrameE.a e
  simp at this
/-- a list and a tuple print the same text -/
example := (C140_text (.list [.atom "1".toList]) (.tuple [.atom "1".toList]) (.list (by simpa using .atom ⟨by decide, by simp [plain]⟩))
  (.tuple (by simpa using .atom ⟨by decide, by simp [plain]⟩))).2 (by simp [content])
end
end Nv.Cases.Flt
