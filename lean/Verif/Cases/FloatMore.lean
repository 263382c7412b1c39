import Verif.Cases.Float
import Verif.Props.FloatTraverse
import Verif.Props.FloatRoundTrip
import Verif.Props.FloatDisplace
import Verif.Props.FloatClosestPath
import Verif.Props.Missing
import Verif.Props.Tiny
import Verif.Props.ListDict

/-!
# Concrete cases: more theorems about double precision

`cross_witness`: the path from (1, 0, 0) to (0, 1, 0) and the position (1, 0, 1/2048), 0.03 degrees from its great circle.
-/

namespace Nv.Cases.Flt
open Spec F64
variable (B : Binary64)

/-! ## C94, C95, C111 -/
noncomputable abbrev e1 : V3 ℝ := ⟨1, 0, 0⟩
noncomputable abbrev e2 : V3 ℝ := ⟨0, 1, 0⟩
noncomputable abbrev ew : V3 ℝ := ⟨1, 0, 2 ^ (-11 : ℤ)⟩
theorem ce : cross e1 e2 = ⟨0, 0, 1⟩ := by ext <;> simp [cross]
theorem dce : dirOf (cross e1 e2) = ⟨0, 0, 1⟩ := by
  rw [ce]; unfold dirOf; rw [show len (⟨0, 0, 1⟩ : V3 ℝ) = 1 by simp [len]]; ext <;> simp
theorem pp : cross e1 e2 ≠ 0 := fun h => by have := congrArg V3.z h; norm_num [cross] at this
theorem on1 : OnCircle e1 e2 e1 := (onCircle_iff_normal pp).2 ⟨by simp [UnitVec], by rw [dce]; simp [dot]⟩
theorem lew : 1 ≤ len ew := Real.le_sqrt_of_sq_le (by norm_num)
theorem dw : |dot (dirOf (cross e1 e2)) (dirOf ew)| ≤ 0.001 := by
  rw [dce]
  have h : dot (⟨0, 0, 1⟩ : V3 ℝ) (dirOf ew) = (len ew)⁻¹ * 2 ^ (-11 : ℤ) := by simp [dot, dirOf]
  have h2 : (len ew)⁻¹ ≤ 1 := inv_le_one_of_one_le₀ lew
  have h3 : 0 < (len ew)⁻¹ := inv_pos.2 (by linarith [lew])
  rw [h, abs_of_nonneg (by positivity)]
  norm_num at h2 h3 ⊢
  linarith
example : True := by
  obtain ⟨fa, fb, fn, a2, b2, hs, hδ⟩ := cross_witness
  have h := dw
  have := C94_greatcircle B fa fb fn a2 b2 (by norm_num) hs hδ (by norm_num) wa1 (by norm_num) (by norm_num) (h.trans (by norm_num))
  trivial
/-- the position is on the circle: its distance from the nearest position is zero -/
theorem least1 : IsLeast {d | ∃ Q, OnCircle e1 e2 Q ∧ d = angle e1 Q} 0 := by
  refine ⟨⟨e1, on1, ?_⟩, ?_⟩
  · exact (angle_self (fun h => by have := congrArg V3.x h; norm_num at this)).symm
  · rintro _ ⟨Q, -, rfl⟩; exact angle_nonneg _ _
theorem le1 : len e1 = 1 := by simp [len]
theorem le2 : len e2 = 1 := by simp [len]
theorem fe1 : IsF64V e1 := ⟨isF64_one, isF64_zero, isF64_zero⟩
theorem fe2 : IsF64V e2 := ⟨isF64_zero, isF64_one, isF64_zero⟩
theorem lc : (1 : ℝ) ≤ len (cross e1 e2) := by rw [ce]; simp [len]
example := C94_least B fe1 fe2 fe1 (by rw [le1]; norm_num) (by rw [le2]; norm_num) (s := 1) (by norm_num) lc (δ := 0) (by rw [le1]; norm_num) (by norm_num) wa1
  (by norm_num) (by norm_num) least1 (by norm_num)
theorem a11 : angle e1 e1 = 0 := angle_self (fun h => by have := congrArg V3.x h; norm_num at this)
example := C95_on B fe1 fe2 fe1 (by rw [le1]; norm_num) (by rw [le2]; norm_num) (s := 1) (by norm_num) lc (δ := 0) (by rw [le1]; norm_num) (by norm_num) wa1
  (by norm_num) (by norm_num) (t := 1) (by norm_num) on1 (by rw [a11]; norm_num)
/-- half way: doubles close to (0.6, 0.8, 0) -/
noncomputable abbrev eh : V3 ℝ := ⟨629146 / 2 ^ 20, 838861 / 2 ^ 20, 0⟩
theorem feh : IsF64V eh := ⟨⟨629146, -20, by norm_num, by norm_num, by norm_num⟩, ⟨838861, -20, by norm_num, by norm_num, by norm_num⟩, isF64_zero⟩
theorem leh1 : 1 - 1e-6 ≤ len eh := Real.le_sqrt_of_sq_le (by norm_num)
theorem leh2 : len eh ≤ 1 + 1e-6 := Real.sqrt_le_iff.mpr ⟨by norm_num, by norm_num⟩
theorem ehne : eh ≠ 0 := fun h => by have := congrArg V3.x h; norm_num at this
theorem onh : OnCircle e1 e2 (dirOf eh) := (onCircle_iff_normal pp).2 ⟨dirOf_unit ehne, by rw [dce]; simp [dot, dirOf]⟩
theorem chord12 : 1.4 ≤ len (e2 - e1) := Real.le_sqrt_of_sq_le (by norm_num)
theorem chord1 : len (eh - e1) ≤ 1 := Real.sqrt_le_iff.mpr ⟨by norm_num, by norm_num⟩
theorem chord2 : len (eh - e2) ≤ 1 := Real.sqrt_le_iff.mpr ⟨by norm_num, by norm_num⟩
example := C111_core_on B fe1 fe2 feh (by rw [le1]; norm_num) (by rw [le2]; norm_num) (s := 1) (by norm_num) lc (δ := 1e-6)
  (by rw [abs_le]; exact ⟨by linarith [leh1], by linarith [leh2]⟩) (by norm_num) wa1
  (by norm_num) (by norm_num) (t := 100) (by norm_num) onh (by rw [angle_dirOf_right ehne, angle_self ehne]; norm_num)
  (by have := chord1; have := chord12; norm_num at *; linarith) (by have := chord2; have := chord12; norm_num at *; linarith)
/-- the antipode of the start -/
noncomputable abbrev e3 : V3 ℝ := ⟨-1, 0, 0⟩
theorem le3 : len e3 = 1 := by simp [len]
theorem chord12' : len (e2 - e1) ≤ 1.5 := Real.sqrt_le_iff.mpr ⟨by norm_num, by norm_num⟩
theorem chord3 : 2 ≤ len (e3 - e1) := Real.le_sqrt_of_sq_le (by norm_num)
example := C111_core_off B fe1 fe2 (n := e3) ⟨isF64_one.neg, isF64_zero, isF64_zero⟩ (by rw [le1]; norm_num) (by rw [le2]; norm_num) (s := 1)
  (by norm_num) lc (δ := 0) (by rw [le3]; norm_num) (by norm_num) wa1 (by norm_num) (by norm_num) (t := 100) (by norm_num)
  (.inr (.inl (by have := chord3; have := chord12'; norm_num at *; linarith)))

/-! ## Geographic points on the equator -/
theorem eqp : cross (normalOf Re 0 0) (normalOf Re 0 1) ≠ 0 := by
  intro h; have := equator_len; rw [h, len_eq_zero.mpr rfl] at this; norm_num at this
theorem onq (lon : ℝ) : OnCircle (normalOf Re 0 0) (normalOf Re 0 1) (normalOf Re 0 lon) := by
  have hq := onCircle_iff_normal (Q := normalOf Re 0 lon) eqp
  rw [equator_normal] at hq
  exact hq.mpr ⟨normalOf_unit ax _ _, by rw [normalOf_Re]; simp [dot]⟩
theorem leastq : IsLeast {d | ∃ Q, OnCircle (normalOf Re 0 0) (normalOf Re 0 1) Q ∧ d = angle (normalOf Re 0 (1 / 2)) Q} 0 := by
  refine ⟨⟨_, onq (1 / 2), ?_⟩, ?_⟩
  · exact (angle_self (normalOf_unit ax _ _).ne).symm
  · rintro _ ⟨Q, -, rfl⟩; exact angle_nonneg _ _
example := C106_least B (a := 6378137) (f := wf B) ax (.int 1) (.int 1) (.int 1) 0 0 0 1 0 (1 / 2) 1000 1000 5 (s := 3 / 4) (by norm_num) equator_len leastq
  (by norm_num) wa1 (by norm_num) (by norm_num)
theorem r6 : IsF64 (6371000 : ℝ) := by simpa using isF64_int (n := 6371000) (by norm_num)
example : True := by
  have g := fun lat lon => geodetic_sphere (a := 6371000) isRotation_Re (by norm_num) (normalOf_unit ax lat lon).ne
  have := C111_circle_on B ax (.int 1) (.int 1) (.int 1) 0 0 0 1 0 (1 / 2) (zC := 0) r6 (by norm_num) (by norm_num) isF64_zero le_rfl (by norm_num)
    isF64_zero isF64_zero (by norm_num) (by norm_num) (by norm_num) (by norm_num) (g 0 0) (g 0 1) (s := 3 / 4) (by norm_num) equator_len isF64_one (by norm_num)
    (by rw [sphere_len, sphere_len]; norm_num) (onq (1 / 2)) (by rw [angle_self (normalOf_unit ax _ _).ne, sphere_len, sphere_len]; norm_num)
  trivial
example := C112_closest_point B (a := 6371000) (f := 0) (R := Re) ax (.int 1) (.int 1) (.int 1) 0 0 0 1 (1 / 2) 0 0
    r6 (by norm_num) isF64_zero le_rfl (by norm_num)
    isF64_zero isF64_zero (by norm_num) (by norm_num) (by norm_num) (s := 3 / 4) (t := 7 / 8) (by norm_num) equator_len (by norm_num) (by
      rw [equator_normal, normalOf_Re]
      have hcr : cross (⟨Real.cos (1 / 2) * Real.cos 0, Real.cos (1 / 2) * Real.sin 0, Real.sin (1 / 2)⟩ : V3 ℝ) ⟨0, 0, 1⟩ = ⟨0, -Real.cos (1 / 2), 0⟩ := by
        ext <;> simp [cross]
      rw [hcr]
      have h := abs_y_le_len (⟨0, -Real.cos (1 / 2), 0⟩ : V3 ℝ)
      have h2 := Real.one_sub_sq_div_two_le_cos (x := 1 / 2)
      rw [abs_neg] at h
      have h3 := le_abs_self (Real.cos (1 / 2))
      norm_num at h h2 h3 ⊢; linarith) (by norm_num)
example (G : Geodesic (F64 B)) : True := by
  have hn : normalOf Re 0 0 = ⟨1, 0, 0⟩ := by rw [normalOf_Re]; simp
  have hu : UnitVec (normalOf Re 0 0) := normalOf_unit ax 0 0
  have hg : Geodetic 6371000 0 Re (normalOf Re 0 0) 0 ((6371000 : ℝ) • normalOf Re 0 0) := by
    have := geodetic_sphere (a := 6371000) isRotation_Re (by norm_num) hu.ne
    rwa [dirOf_of_unit hu] at this
  have hl : len ((6371000 : ℝ) • normalOf Re 0 0) = 6371000 := by rw [len_smul, hu.len]; norm_num
  have := C109_displace B G (a := 6371000) (f := 0) (p := (6371000 : ℝ) • normalOf Re 0 0) r6 (by norm_num) (by norm_num)
    isF64_zero le_rfl (by norm_num) (.int 1) 0 0 isF64_zero (by norm_num) (by norm_num) hg (equatorFrame_ned 0) (c := 1) (by norm_num)
    (by rw [np, hn]; apply le_of_eq; unfold len; simp [cross]) (D := 1000000) (by rw [hl]; norm_num) (az := 1) false
  trivial
example : True := by
  obtain ⟨-, fb, fn, -, -, -, hδ⟩ := cross_witness
  have := C138_inverse_direct B ax fn fe2 (δ := 1.2e-7) hδ (by rw [le2]; norm_num) (by norm_num)
    (by
      rw [nW]
      have h2 : (2 : ℝ) ^ (-300 : ℤ) ≤ 2 ^ (-50 : ℤ) := zpow_le_zpow_right₀ (by norm_num) (by norm_num)
      have h3 := abs_le.1 hδ
      have h4 : len (⟨0, 1, 0⟩ : V3 ℝ) = 1 := by simp [len]
      rw [h4]
      have h5 : (2 : ℝ) ^ (-300 : ℤ) * len (⟨1, 0, 2 ^ (-11 : ℤ)⟩ : V3 ℝ) ≤ 2 ^ (-50 : ℤ) * 2 :=
        mul_le_mul h2 (by have h6 := h3.2; norm_num at h6 ⊢; linarith) (len_nonneg _) (by positivity)
      exact h5.trans (by norm_num)) wa1 a1 a2
  trivial

/-! ## C114: the latitude is NaN -/
section
open PyFloat
noncomputable abbrev F : FrameE (F64 B) := ⟨F64.fin 6378137, F64.fin (wf B), .int 1, Re.flt⟩
noncomputable abbrev gn : GeoPoint (F64 B) := ⟨nan, F64.fin 1, F64.fin 2, F B⟩
noncomputable abbrev vn : V3 (F64 B) := ⟨F64.fin 1, nan, F64.fin 0⟩
theorem sn : SomeNaN (vn B) := .inr (.inl rfl)
theorem miss : Missing (.geo (gn B)) := .inl rfl
theorem hmiss : HorizontalMissing (.geo (gn B)) := .inl rfl
example := (C114_lat_lon B nan (F64.fin 1) v.flt Re.flt).1 (.inl rfl)
example := (C114_lat_lon B nan (F64.fin 1) (vn B) Re.flt).2.1 (sn B)
example := (C114_position B (vn B) v.flt v.flt (F64.fin 1) nan (F64.fin 6378137) (F64.fin (wf B)) Re.flt).1 (.inl (sn B))
example := (C114_position B v.flt v.flt (vn B) (F64.fin 1) nan (F64.fin 6378137) (F64.fin (wf B)) Re.flt).2.1 (.inl (sn B))
example := (C114_distance B (vn B) v.flt (F64.fin 1) (F64.fin 1) (F64.fin 0) (F64.fin 2) (F64.fin 3) Re.flt [v.flt, vn B]).2.2.2 ⟨_, by simp, sn B⟩
example := (C114_great_circle B (vn B) v.flt w.flt v.flt w.flt (F64.fin 1) (F64.fin 0) (F64.fin 1) "greatcircle").2.2.2.1 (.inl (sn B))
example := (C114_objects B (gn B) (.geo (gn B)) (.nvec ⟨v.flt, F64.fin 1, F B⟩) (F64.fin 1000) (F64.fin 1) true).2.1 (.inl (miss B))
example := (C114_paths B ⟨.geo (gn B), .nvec ⟨v.flt, F64.fin 1, F B⟩⟩ ⟨.geo (gn B), .nvec ⟨v.flt, F64.fin 1, F B⟩⟩ (.nvec ⟨v.flt, F64.fin 1, F B⟩) (F64.fin 0) none
  "greatcircle" ⟨fun _ _ _ _ _ _ _ => .error .ValueError, fun _ _ _ _ _ _ _ => .error .ValueError⟩).2.2.2 (.inl (hmiss B))
example := (C114_on_path B ⟨.geo (gn B), .nvec ⟨v.flt, F64.fin 1, F B⟩⟩ (.nvec ⟨v.flt, F64.fin 1, F B⟩) (F64.fin 0) (F64.fin 1)
  "greatcircle" ⟨fun _ _ _ _ _ _ _ => .error .ValueError, fun _ _ _ _ _ _ _ => .error .ValueError⟩ (by decide)).2 (.inl (miss B))
end

end Nv.Cases.Flt
