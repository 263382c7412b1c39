import Verif.Cases.Objects
import Verif.Props.Threads
import Verif.Props.Sizes

/-!
# Concrete case: a sum that is torn by `unit()` in another thread (C136)

`p` has the normal (2, 0, 0).  `p + p` is (4, 0, 0), after `p.unit()` it is (2, 0, 0); with `p.unit()` in another thread it can be (3, 0, 0).
-/

namespace Nv.Cases.Thr
open Nv.ND Nv.Mem Nv.Spec Nv.Cases
open XR (fin)

noncomputable abbrev v2 : V3 ℝ := ⟨2, 0, 0⟩
noncomputable abbrev N2 : Arr XR := arrOf 1 fun _ => v2.fin
noncomputable abbrev Z0 : Arr XR := ND.scalar (fin 0)
/-- `p = Nvector([[2], [0], [0]], 0)` is the object number 0 -/
noncomputable abbrev mem : Heap XR := execs [.array N2, .array Z0, .Nvector ⟨0, [3, 1], id⟩ ⟨1, [], id⟩ W] {}

theorem dir2 : dirOf v2 = ⟨1, 0, 0⟩ := by
  have : Spec.len v2 = 2 := by
    simp only [Spec.len]
    rw [show (2 : ℝ) ^ 2 + 0 ^ 2 + 0 ^ 2 = 2 ^ 2 by norm_num]
    exact Real.sqrt_sq (by norm_num)
  simp only [dirOf, this]
  ext <;> simp [v2]

theorem sameWW : check_frames W W = .ok () := check_frames_self W_nonan.1 W_nonan.2.1 W_nonan.2.2

/-- the value of the first element of the sum of two positions -/
theorem sum_value {A B : Arr XR} {a b : V3 XR} (hA : IsCols A 1 fun _ => a) (hB : IsCols B 1 fun _ => b) :
    ∃ N : ND.Nvector XR, ND.Nvector.add ⟨A, Z0, W⟩ ⟨B, Z0, W⟩ = .ok N ∧ N.normal.get [0, 0] = a.x + b.x := by
  obtain ⟨X, e, c⟩ := map2_cols' (· + ·) hA hB
  refine ⟨⟨X, ⟨[], fun _ => fin 0 + fin 0⟩, W⟩, ?_, congrArg V3.x (c.col 0 (by omega))⟩
  unfold ND.Nvector.add
  simp only [sameWW, e, bind, Except.bind, pure, Except.pure]
  rfl

example : ∃ σ, Fair σ ∧ (∀ t i c, σ t = some (.start i c) → c = Call.nvec_unit ⟨0⟩) ∧ ∃ (n : ℕ) (r : NRef) (v : ND.Nvector XR),
    (∀ k, n ≤ k → ((Threads.init mem (Mem.nvec_add ⟨0⟩ ⟨0⟩)).play σ k).me = .done (.ok r) ∧
      nvecVal ((Threads.init mem (Mem.nvec_add ⟨0⟩ ⟨0⟩)).play σ k).mem r = some v) ∧ v.normal.get [0, 0] = fin 3 := by
  obtain ⟨U, hU, cU⟩ := unit_cols (arrOf_cols 1 fun _ => v2.fin) (lit 1 : XR)
  have ne : v2 ≠ 0 := fun h => by have := congrArg V3.x h; norm_num [v2] at this
  have cU : IsCols U 1 fun _ => (⟨1, 0, 0⟩ : V3 ℝ).fin := ⟨cU.shape, fun j hj => by rw [cU.col j hj, unit_fin ne, dir2]⟩
  obtain ⟨v, ev, e3⟩ := sum_value (arrOf_cols 1 fun _ => v2.fin) cU
  obtain ⟨σ, F, only, n, r, q⟩ := C136_unit_in_another_thread (h := mem) (p := ⟨0⟩) (P := ⟨N2, Z0, W⟩) rfl hU
  refine ⟨σ, F, only, n, ?_⟩
  rw [ev] at q
  cases r with
  | error x => exact (q n le_rfl).2.elim
  | ok r =>
    refine ⟨r, v, fun k hk => ⟨(q k hk).1, (q k hk).2⟩, ?_⟩
    rw [e3]
    norm_num [xr, v2, V3.fin]

/-- alone: 4 -/
example : ∃ N : ND.Nvector XR, ND.Nvector.add ⟨N2, Z0, W⟩ ⟨N2, Z0, W⟩ = .ok N ∧ N.normal.get [0, 0] = fin 4 := by
  obtain ⟨v, ev, e⟩ := sum_value (arrOf_cols 1 fun _ => v2.fin) (arrOf_cols 1 fun _ => v2.fin)
  refine ⟨v, ev, ?_⟩
  rw [e]
  norm_num [xr, v2, V3.fin]

end Nv.Cases.Thr
