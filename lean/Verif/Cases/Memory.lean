import Verif.Cases.Threads
import Verif.Cases.Arrays
import Verif.Props.Sharing

/-!
# Concrete cases: objects in memory (C59, C67, C68, C136)

One memory with an object of every class: an `Nvector` (number 0, the normal is the array number 0), a `GeoPoint`, an `ECEFvector`,
a `FrameB` made with the `Nvector`, a `Pvector` in it, and a `GeoPath` from the `GeoPoint` to the `Nvector`.
-/

namespace Nv.Cases.Mem
open Nv.ND Nv.Mem Nv.Spec Nv.Cases Nv.Cases.Thr
open XR (fin)

abbrev aN : ARef := ⟨0, [3, 1], id⟩
abbrev aZ : ARef := ⟨1, [], id⟩
noncomputable abbrev all : Heap XR := execs [.array N2, .array Z0, .Nvector aN aZ W, .GeoPoint aZ aZ aZ W false, .ECEFvector aN W,
  .FrameB (.nvec ⟨0⟩) aZ aZ aZ false, .Pvector aN ⟨0⟩, .GeoPath (.geo ⟨0⟩) (.nvec ⟨0⟩)] {}
/-- calls that do not call `unit` on the `Nvector` number 0 -/
noncomputable abbrev calls : List (Call XR) := [.nvec_neg ⟨0⟩, .to_geo_point (.nvec ⟨0⟩), .delta_N (.geo ⟨0⟩) (.nvec ⟨0⟩), .mean_horizontal_position aN, .nvec_unit ⟨1⟩]

noncomputable abbrev vN : ND.Nvector XR := ⟨N2, Z0, W⟩
noncomputable abbrev vG : ND.GeoPoint XR := ⟨Z0, Z0, Z0, W⟩
noncomputable abbrev vB : ND.LocalFrame XR := .B vN Z0 Z0 Z0
noncomputable abbrev vP : ND.GeoPath XR := ⟨.geo vG, .nvec vN⟩

theorem eG : geoVal all ⟨0⟩ = some vG := rfl
theorem eN : nvecVal all ⟨0⟩ = some vN := rfl
theorem eB : frameVal all ⟨0⟩ = some vB := rfl
theorem eP : pathVal all ⟨0⟩ = some vP := rfl
theorem eE : ∃ E, ecefVal all ⟨0⟩ = some E ∧ E.frame = W := ⟨_, rfl, rfl⟩
theorem eV : ∃ V, pvecVal all ⟨0⟩ = some V ∧ V.frame = vB := ⟨_, rfl, rfl⟩

theorem noUnit : ∀ n : NRef, n = ⟨0⟩ → ∀ c ∈ calls, ¬ CallsUnit n c := by
  rintro _ rfl c hc
  simp only [calls, List.mem_cons, List.not_mem_nil, or_false] at hc
  rcases hc with rfl | rfl | rfl | rfl | rfl <;> simp [CallsUnit]
theorem holdsB {n : NRef} : FrameHolds all ⟨0⟩ n → n = ⟨0⟩ := by rintro ⟨o, e, q⟩; cases e; exact q.symm
theorem holdsP {n : NRef} : PathHolds all ⟨0⟩ n → n = ⟨0⟩ := by
  rintro ⟨o, e, q⟩
  cases e
  rcases q with q | q
  · exact q.elim
  · exact q.symm
theorem holdsV {n : NRef} : PosHolds all (.pvec ⟨0⟩) n → n = ⟨0⟩ := by
  rintro ⟨o, e, q⟩
  cases e
  exact holdsB q

example := C59_arrays calls all aN N2 rfl
example := C59_GeoPoint calls all ⟨0⟩ vG rfl
example := C59_ECEFvector calls all ⟨0⟩ _ eE.choose_spec.1
example := C59_LocalFrame calls all ⟨0⟩ vB rfl fun n hn => noUnit n (holdsB hn)
example := C59_Pvector calls all ⟨0⟩ _ eV.choose_spec.1 fun n hn => noUnit n (holdsV hn)
example := C59_position calls all (.nvec ⟨0⟩) (.nvec vN) rfl fun n hn => noUnit n (by rw [← show _ = n from hn])
example := C59_GeoPath calls all ⟨0⟩ vP rfl fun n hn => noUnit n (holdsP hn)

example := C67_R_EN eB
example := C67_change_frame eE.choose_spec.1 eB
theorem pG : posVal all (.geo ⟨0⟩) = some (.geo vG) := rfl
theorem unitN : ∃ U, ND.unit N2 = .ok U := by
  obtain ⟨U, hU, _⟩ := unit_cols (arrOf_cols 1 fun _ => v2.fin) (lit 1 : XR)
  exact ⟨U, hU⟩
example := C68_conversion_to_own_class all ⟨0⟩ ⟨0⟩ ⟨0⟩
example := C68_unit_of_to_nvector eN rfl unitN.choose_spec
example := C68_unit_seen_by_path (b := .geo ⟨0⟩) eN (q := .geo vG) rfl (fun h => h) rfl unitN.choose_spec
example := C68_unit_seen_by_FrameB (y := aZ) (t := aZ) (r := aZ) eN (Y := Z0) (T := Z0) (R := Z0) rfl rfl rfl rfl unitN.choose_spec
example := C68_Nvector_shares_normal (f := fun _ x => x + x) (h := all) (a := aN) (z := aZ) (F := W) (A := N2) (Z := Z0) rfl rfl rfl (by decide) rfl

/-- the calls return: what `computes` says about their values -/
theorem returns {ρ γ : Type} {rd : Heap XR → ρ → Option γ} {h : Heap XR} {m : M XR ρ} {s : Except PyErr γ} {v : γ} (c : Computes rd h m s) (e : s = .ok v) :
    ∃ r h', m h = (.ok r, h') := by
  subst e
  unfold Computes at c
  cases e : m h with
  | mk x h' =>
  rw [e] at c
  cases x with
  | ok r => exact ⟨r, h', rfl⟩
  | error x => exact c.elim
example : ∃ u h', Mem.unit aN (lit 1) all = (.ok u, h') ∧ arrVal (written aN (fun _ x => x + x) h') u = arrVal h' u := by
  obtain ⟨u, h', e⟩ := returns (C67_unit (h := all) (v := aN) (V := N2) rfl (lit 1)) unitN.choose_spec
  exact ⟨u, h', e, C68_unit_is_new _ e (by decide)⟩
example : ∃ r h', Mem.nvec_add ⟨0⟩ ⟨0⟩ all = (.ok r, h') ∧ nvecVal (written aN (fun _ x => x + x) h') r = nvecVal h' r := by
  obtain ⟨v, ev, -⟩ := sum_value (arrOf_cols 1 fun _ => v2.fin) (arrOf_cols 1 fun _ => v2.fin)
  obtain ⟨r, h', e⟩ := returns (C67_nvec_add eN eN) ev
  exact ⟨r, h', e, C68_nvector_arithmetic_is_new (q := ⟨0⟩) (c := aN) _ (by decide) (.inl e)⟩
example : ∃ r h', Mem.ecef_neg ⟨0⟩ all = (.ok r, h') ∧ ecefVal (written aN (fun _ x => x + x) h') r = ecefVal h' r := by
  obtain ⟨r, h', e⟩ := returns (C67_ecef_neg eE.choose_spec.1) rfl
  exact ⟨r, h', e, C68_ecef_arithmetic_is_new (q := ⟨0⟩) (x := .geo ⟨0⟩) (y := .geo ⟨0⟩) _ (by decide) (.inr (.inr (.inl e)))⟩

theorem hG : ND.IsPos true 1 (.geo vG) fun _ => .geo ⟨fin 0, fin 0, fin 0, W⟩ :=
  .geo (q := fun _ => ⟨fin 0, fin 0, fin 0, W⟩) ⟨⟨rfl, rfl, rfl⟩, ⟨rfl, rfl, rfl⟩, ⟨rfl, rfl, rfl⟩, fun _ _ => rfl⟩ fun _ _ => rfl
theorem hE : ND.IsPos true 1 (.ecef ⟨N2, W, true⟩) fun _ => .ecef ⟨v2.fin, W⟩ :=
  .ecef (q := fun _ => ⟨v2.fin, W⟩) ⟨arrOf_cols 1 _, rfl, fun _ => rfl, fun _ _ => rfl⟩ fun _ _ => rfl
theorem hN : ND.IsPos true 1 (.nvec vN) fun _ => .nvec ⟨v2.fin, fin 0, W⟩ :=
  .nvec (q := fun _ => ⟨v2.fin, fin 0, W⟩) ⟨arrOf_cols 1 _, .inl ⟨rfl, rfl, rfl⟩, fun _ _ => rfl⟩ fun _ _ => rfl
example : ∃ r h', Mem.to_ecef_vector (.geo ⟨0⟩) all = (.ok r, h') ∧ ecefVal (written aZ (fun _ x => x + x) h') r = ecefVal h' r := by
  obtain ⟨Q, eQ, -⟩ := ND.C60_to_ecef_vector hG one_pos
  obtain ⟨r, h', e⟩ := returns (C67_to_ecef_vector pG) eQ
  exact ⟨r, h', e, C68_to_ecef_vector_is_new _ (fun c h => by cases h) e (by decide)⟩
example : ∃ r h', Mem.to_nvector (.ecef ⟨0⟩) all = (.ok r, h') ∧ nvecVal (written aN (fun _ x => x + x) h') r = nvecVal h' r := by
  obtain ⟨Q, eQ, -⟩ := ND.C60_to_nvector hE one_pos
  obtain ⟨r, h', e⟩ := returns (C67_to_nvector (h := all) (p := .ecef ⟨0⟩) rfl) eQ
  exact ⟨r, h', e, C68_to_nvector_is_new _ (.inl ⟨_, rfl⟩) e (by decide)⟩

example : ∃ r h', Mem.path_interpolate ⟨0⟩ aZ all = (.ok r, h') ∧ nvecVal (written aN (fun _ x => x + x) h') r = nvecVal h' r := by
  have q := ND.C66_interpolate (P := vP) hG hN (.self 1) (T := Z0) (st := true) (m := 1) (o := 1) (t := fun _ => fin 0) ⟨rfl, rfl, rfl⟩ (.self 1) one_pos
  have q : ∃ Q, vP.interpolate Z0 = .ok Q := by
    rcases q with ⟨Q, q, h, -⟩ | ⟨-, h⟩
    · exact ⟨Q, h⟩
    · have h := h 0 one_pos
      have W1 : check_frames W W = .ok () := check_frames_self W_nonan.1 W_nonan.2.1 W_nonan.2.2
      simp only [Nv.GeoPath.interpolate, Nv.GeoPath.nvectors, Nv.Nvector.sub, Nv.Nvector.mul, Nv.Nvector.add, Spec.pathAt, Nv.Position.to_nvector,
        Nv.GeoPoint.to_nvector, W1, bind, Except.bind, pure, Except.pure] at h
      cases h
  obtain ⟨Q, eQ⟩ := q
  obtain ⟨r, h', e⟩ := returns (C67_interpolate (t := aZ) (T := Z0) eP rfl) eQ
  exact ⟨r, h', e, C68_path_results_are_new (Q := ⟨0⟩) _ (by decide) (.inl e)⟩

/-! ## Threads: the other threads call `nvec_neg` again and again -/
noncomputable abbrev others : ℕ → Option (Event XR) := fun t => if t % 2 = 0 then some (.start t (.nvec_neg ⟨0⟩)) else none
theorem othersNeg (n : NRef) : ∀ t i c, others t = some (.start i c) → ¬ CallsUnit n c := by
  intro t i c h
  simp only [others] at h
  split at h
  · cases h; exact fun h => h
  · cases h
example (t : ℕ) := C136_LocalFrame_unchanged (σ := others) eB (fun t i c n h _ => othersNeg n t i c h) t
example (t : ℕ) := C136_GeoPath_unchanged (σ := others) eP (fun t i c n h _ => othersNeg n t i c h) t
example (t : ℕ) := C136_position_unchanged (σ := others) (r := .geo ⟨0⟩) pG (fun t i c n h _ => othersNeg n t i c h) t
example := C136_R_EN eB
example := C136_change_frame eE.choose_spec.1 eB
end Nv.Cases.Mem
