import Verif.Model.Objects
import Verif.Props.Util

/-!
# Evaluating object operations on finite values
-/

namespace Nv
open Spec
open XR (fin)

/-- a frame with real parameters -/
def FrameE.real (a f : ℝ) (name : EllKey) (R : M3 ℝ) : FrameE XR := ⟨fin a, fin f, name, R.fin⟩

theorem eqClose_cons (p : XR × XR) (l : List (XR × XR)) :
    eqClose (p :: l) = (isclose p.1 p.2 (lit 1e-12) (lit 1e-14) && eqClose l) := rfl
theorem eqClose_nil : eqClose ([] : List (XR × XR)) = true := rfl
theorem eqClose_append (l l' : List (XR × XR)) : eqClose (l ++ l') = (eqClose l && eqClose l') := List.all_append
theorem eqClose_iff (l : List (XR × XR)) :
    eqClose l = true ↔ ∀ p ∈ l, isclose p.1 p.2 (lit 1e-12) (lit 1e-14) = true := List.all_eq_true
theorem eqClose_swap (l : List (XR × XR)) : eqClose (l.map Prod.swap) = eqClose l := by
  induction l with
  | nil => rfl
  | cons p l ih => rw [List.map_cons, eqClose_cons, eqClose_cons, ih, Prod.fst_swap, Prod.snd_swap, C34_symm]
theorem eqClose_one_symm (x y : XR) : eqClose [(x, y)] = eqClose [(y, x)] := eqClose_swap [(y, x)]
theorem eqClose_pairs3_symm (v w : V3 XR) : eqClose (pairs3 v w) = eqClose (pairs3 w v) := eqClose_swap (pairs3 w v)
theorem eqClose_pairs9_symm (v w : M3 XR) : eqClose (pairs9 v w) = eqClose (pairs9 w v) := eqClose_swap (pairs9 w v)

/-- no component is NaN -/
def V3.NoNaN (v : V3 XR) : Prop := v.x ≠ .nan ∧ v.y ≠ .nan ∧ v.z ≠ .nan
def M3.NoNaN (M : M3 XR) : Prop := M.r0.NoNaN ∧ M.r1.NoNaN ∧ M.r2.NoNaN

theorem V3.fin_noNaN (v : V3 ℝ) : v.fin.NoNaN := ⟨nofun, nofun, nofun⟩
theorem M3.fin_noNaN (M : M3 ℝ) : M.fin.NoNaN := ⟨M.r0.fin_noNaN, M.r1.fin_noNaN, M.r2.fin_noNaN⟩

theorem isclose_eq_refl {x : XR} (h : x ≠ .nan) : isclose x x (lit 1e-12) (lit 1e-14) = true :=
  C34_refl x h _ _ (by norm_num) _
theorem eqClose_one_refl {x : XR} (h : x ≠ .nan) : eqClose [(x, x)] = true := by
  rw [eqClose_cons, isclose_eq_refl h, eqClose_nil]; rfl
theorem eqClose_pairs3_refl {v : V3 XR} (h : v.NoNaN) : eqClose (pairs3 v v) = true := by
  unfold pairs3
  rw [eqClose_cons, eqClose_cons, eqClose_cons, isclose_eq_refl h.1, isclose_eq_refl h.2.1, isclose_eq_refl h.2.2]; rfl
theorem eqClose_pairs9_refl {M : M3 XR} (h : M.NoNaN) : eqClose (pairs9 M M) = true := by
  unfold pairs9
  rw [eqClose_append, eqClose_append, eqClose_pairs3_refl h.1, eqClose_pairs3_refl h.2.1, eqClose_pairs3_refl h.2.2]; rfl

theorem FrameE.isEqualTo_refl {F : FrameE XR} (ha : F.a ≠ .nan) (hf : F.f ≠ .nan) (hR : F.R_Ee.NoNaN) :
    F.isEqualTo F = true := by
  unfold FrameE.isEqualTo
  rw [eqClose_one_refl ha, eqClose_one_refl hf, eqClose_pairs9_refl hR]; rfl
theorem FrameE.isEqualTo_symm (F G : FrameE XR) : F.isEqualTo G = G.isEqualTo F := by
  unfold FrameE.isEqualTo
  rw [eqClose_one_symm F.a, eqClose_one_symm F.f, eqClose_pairs9_symm]

theorem check_frames_self {F : FrameE XR} (ha : F.a ≠ .nan) (hf : F.f ≠ .nan) (hR : F.R_Ee.NoNaN) :
    check_frames F F = .ok () := by
  unfold check_frames; rw [FrameE.isEqualTo_refl ha hf hR]; rfl
theorem check_frames_real (a f : ℝ) (name : EllKey) (R : M3 ℝ) :
    check_frames (FrameE.real a f name R) (FrameE.real a f name R) = .ok () :=
  check_frames_self nofun nofun R.fin_noNaN

/-- closeness of two real numbers as tested by `==` -/
theorem eqClose_fin (x y : ℝ) :
    eqClose [(fin x, fin y)] = true ↔ |x - y| ≤ max (1 / 10 ^ 14) (1 / 10 ^ 12 * max |x| |y|) := by
  rw [eqClose_cons, eqClose_nil, Bool.and_true, XR.lit_def, XR.lit_def, C34_finite]
  norm_num

theorem mod_two_pi (x : ℝ) :
    PyFloat.mod (fin x) (lit 2 * PyFloat.pi) = fin (x - 2 * Real.pi * ⌊x / (2 * Real.pi)⌋) := by
  have h : (lit 2 * PyFloat.pi : XR) = fin (2 * Real.pi) := by simp [xr]
  rw [h]
  exact if_pos (by positivity)

/-! ## real objects -/

/-- a GeoPoint with real coordinates -/
def GeoPoint.real (lat lon z : ℝ) (F : FrameE XR) : GeoPoint XR := ⟨fin lat, fin lon, fin z, F⟩
/-- an Nvector with real components -/
def Nvector.real (n : V3 ℝ) (z : ℝ) (F : FrameE XR) : Nvector XR := ⟨n.fin, fin z, F⟩
/-- an ECEFvector with real components -/
def ECEFvector.real (p : V3 ℝ) (F : FrameE XR) : ECEFvector XR := ⟨p.fin, F⟩
/-- a Pvector with real components -/
def Pvector.real (p : V3 ℝ) (F : LocalFrame XR) : Pvector XR := ⟨p.fin, F⟩

theorem frame_check_real (a f : ℝ) (name : EllKey) (R : M3 ℝ) :
    (FrameE.real a f name R).isEqualTo (FrameE.real a f name R) = true :=
  FrameE.isEqualTo_refl nofun nofun R.fin_noNaN

end Nv
