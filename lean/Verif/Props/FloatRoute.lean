import Verif.Props.Route
import Verif.Props.FloatDistance
import Verif.Float.Direct

/-!
# C162 in binary64: the length of a route, added up leg by leg
-/

namespace Nv
open Spec F64
variable (B : Binary64)

namespace Spec

/-- `total += great_circle_distance(p, q, R)` for the legs of the route from `P` over the stops to `Q`, in floating point numbers -/
noncomputable def routeSum (R : ℝ) (total : F64 B) (P : V3 ℝ) : List (V3 ℝ) → V3 ℝ → F64 B
  | [], Q => total + great_circle_distance P.flt Q.flt (F64.fin R)
  | S :: stops, Q => routeSum R (total + great_circle_distance P.flt S.flt (F64.fin R)) S stops Q

/-- an n-vector that the library accepts without a warning: binary64 components, length between 0.9 and 1.1 -/
def Accepted64 (v : V3 ℝ) : Prop := IsF64V v ∧ 0.9 ≤ len v ∧ len v ≤ 1.1

end Spec

theorem Spec.Accepted64.ne {v : V3 ℝ} (h : Accepted64 v) : v ≠ 0 := by
  rintro rfl
  have := h.2.1
  simp [len] at this
  norm_num at this

theorem app_leg {v w : V3 ℝ} (hv : Accepted64 v) (hw : Accepted64 w) {R : ℝ} (hR : IsF64 R) (R1 : 1e-20 ≤ R) (R2 : R ≤ 1e20) :
    App (great_circle_distance (v.flt : V3 (F64 B)) w.flt (F64.fin R)) (angle v w * R) (6e-15 * R) := by
  have hθ := app_theta B hv.1 hw.1 hv.2.1 hv.2.2 hw.2.1 hw.2.2
  have hπ := Real.pi_lt_d2
  have ha0 := angle_nonneg v w
  have ha : |angle v w| ≤ 3.15 := by rw [abs_of_nonneg ha0]; exact (angle_le_pi v w).trans hπ.le
  have hRa : |R| ≤ R := (abs_of_nonneg (by linarith)).le
  exact hθ.mul (App.of_f64 (B := B) hR) (bx := 3.15) (bY := R) (b := 3.15 * R) (e := 6e-15 * R) ha hRa
    (abs_mul_le' ha hRa le_rfl) (by unfold uu; nlinarith) (by unfold uu; nlinarith)

theorem app_step {R : ℝ} (hR : IsF64 R) (R1 : 1e-20 ≤ R) (R2 : R ≤ 1e20) {K : ℕ} (hK : K ≤ 10 ^ 6) {v w : V3 ℝ} (hv : Accepted64 v)
    (hw : Accepted64 w) {total : F64 B} {x : ℝ} {m : ℕ} (hm : m + 1 ≤ K) (hx : 0 ≤ x ∧ x ≤ 3.15 * m * R)
    (h : App total x (m * (6.1e-15 + 4e-16 * K) * R)) :
    App (total + great_circle_distance (v.flt : V3 (F64 B)) w.flt (F64.fin R)) (x + angle v w * R)
      ((m + 1 : ℕ) * (6.1e-15 + 4e-16 * K) * R) ∧
    0 ≤ x + angle v w * R ∧ x + angle v w * R ≤ 3.15 * (m + 1 : ℕ) * R := by
  have hR0 : 0 < R := by linarith
  have ha0 := angle_nonneg v w
  have ha : angle v w ≤ 3.15 := (angle_le_pi v w).trans Real.pi_lt_d2.le
  have l0 : 0 ≤ angle v w * R := by positivity
  have l1 : angle v w * R ≤ 3.15 * R := mul_le_mul_of_nonneg_right ha hR0.le
  have hmK : (m : ℝ) + 1 ≤ K := by exact_mod_cast hm
  have hK' : (K : ℝ) ≤ 10 ^ 6 := by exact_mod_cast hK
  have m0 : (0 : ℝ) ≤ m := Nat.cast_nonneg m
  have hu : x + angle v w * R ≤ 3.15 * (m + 1 : ℕ) * R := by push_cast; nlinarith
  refine ⟨?_, by linarith, hu⟩
  refine h.add (app_leg B hv hw hR R1 R2) (b := 3.15 * (m + 1 : ℕ) * R) (by rw [abs_of_nonneg (by linarith)]; exact hu) ?_ ?_
  · push_cast
    have hmc : (m : ℝ) * (6.1e-15 + 4e-16 * K) ≤ 1e-3 := by
      have : (m : ℝ) * (6.1e-15 + 4e-16 * K) ≤ 10 ^ 6 * (6.1e-15 + 4e-16 * 10 ^ 6) := by gcongr; linarith
      refine this.trans (by norm_num)
    have key : (m : ℝ) * (6.1e-15 + 4e-16 * K) + 6e-15 + uu * (3.15 * (m + 1) + (m * (6.1e-15 + 4e-16 * K) + 6e-15)) + 1e-40 ≤
        (m + 1) * (6.1e-15 + 4e-16 * K) := by
      unfold uu
      nlinarith
    have := mul_le_mul_of_nonneg_right key hR0.le
    have h60 : (1 / 10 ^ 60 : ℝ) ≤ 1e-40 * R := by nlinarith
    nlinarith
  · push_cast
    have hmc : (m : ℝ) * (6.1e-15 + 4e-16 * K) ≤ 1e-3 := by
      have : (m : ℝ) * (6.1e-15 + 4e-16 * K) ≤ 10 ^ 6 * (6.1e-15 + 4e-16 * 10 ^ 6) := by gcongr; linarith
      refine this.trans (by norm_num)
    have : (3.15 * ((m : ℝ) + 1) + (m * (6.1e-15 + 4e-16 * K) + 6e-15)) ≤ 1e7 := by nlinarith
    have := mul_le_mul_of_nonneg_right this hR0.le
    nlinarith

theorem app_route {R : ℝ} (hR : IsF64 R) (R1 : 1e-20 ≤ R) (R2 : R ≤ 1e20) {K : ℕ} (hK : K ≤ 10 ^ 6) (stops : List (V3 ℝ)) {P Q : V3 ℝ}
    (hP : Accepted64 P) (hQ : Accepted64 Q) (hs : ∀ S ∈ stops, Accepted64 S) {total : F64 B} {x : ℝ} {m : ℕ}
    (hm : m + stops.length + 1 ≤ K) (hx : 0 ≤ x ∧ x ≤ 3.15 * m * R) (h : App total x (m * (6.1e-15 + 4e-16 * K) * R)) :
    App (routeSum B R total P stops Q) (x + turn P stops Q * R) ((m + stops.length + 1 : ℕ) * (6.1e-15 + 4e-16 * K) * R) := by
  induction stops generalizing P total x m with
  | nil => exact (app_step B hR R1 R2 hK hP hQ (by simpa using hm) hx h).1
  | cons S stops ih =>
    have hS := hs S (by simp)
    rw [List.length_cons] at hm
    obtain ⟨h1, h2⟩ := app_step B hR R1 R2 hK hP hS (by omega) hx h
    have := ih hS (fun T hT => hs T (by simp [hT])) (m := m + 1) (by omega) h2 h1
    rw [routeSum, turn, List.length_cons, add_mul, ← add_assoc, show m + (stops.length + 1) + 1 = m + 1 + stops.length + 1 by ring]
    exact this

theorem turn_dirOf (P : V3 ℝ) (stops : List (V3 ℝ)) (Q : V3 ℝ) (hP : P ≠ 0) (hQ : Q ≠ 0) (hs : ∀ S ∈ stops, S ≠ 0) :
    turn (dirOf P) (stops.map dirOf) (dirOf Q) = turn P stops Q := by
  induction stops generalizing P with
  | nil => simp only [List.map_nil, turn]; rw [angle_dirOf_left hP, angle_dirOf_right hQ]
  | cons S stops ih =>
    have hS := hs S (by simp)
    rw [List.map_cons, turn, turn, ih S hS fun T hT => hs T (by simp [hT]), angle_dirOf_left hP, angle_dirOf_right hS]

/-- **C162** in binary64, a route of up to a million legs: the distances added up one after the other are the length of the route up to
`k (6.1e-15 + 4e-16 k)` radii for `k` legs, and so at least the computed direct distance up to that -/
theorem C162_binary64 (P Q : V3 ℝ) (stops : List (V3 ℝ)) (hP : Accepted64 P) (hQ : Accepted64 Q) (hs : ∀ S ∈ stops, Accepted64 S)
    (hk : stops.length + 1 ≤ 10 ^ 6) {R : ℝ} (hR : IsF64 R) (R1 : 1e-20 ≤ R) (R2 : R ≤ 1e20) :
    ∃ T D L : ℝ, routeSum B R (F64.fin 0) P stops Q = F64.fin T ∧
      great_circle_distance (P.flt : V3 (F64 B)) Q.flt (F64.fin R) = F64.fin D ∧
      routeLength R (dirOf P) (stops.map dirOf) (dirOf Q) = XR.fin L ∧
      |T - L| ≤ (stops.length + 1) * (6.1e-15 + 4e-16 * (stops.length + 1)) * R ∧
      D - (stops.length + 1) * (6.1e-15 + 4e-16 * (stops.length + 1)) * R - 6e-15 * R ≤ T := by
  have hR0 : 0 < R := by linarith
  have hn : ∀ S ∈ stops, S ≠ 0 := fun S h => (hs S h).ne
  have h0 : App (F64.fin 0 : F64 B) 0 ((0 : ℕ) * (6.1e-15 + 4e-16 * ((stops.length + 1 : ℕ) : ℝ)) * R) := by
    have := App.of_f64 (B := B) isF64_zero
    simpa using this
  obtain ⟨T, hT, -, eT⟩ := app_route B hR R1 R2 hk stops hP hQ hs (m := 0) (by omega) (by simp) h0
  obtain ⟨D, hD, -, eD⟩ := app_leg B hP hQ hR R1 R2
  have hu : ∀ S ∈ stops.map dirOf, UnitVec S := by
    intro S h
    rw [List.mem_map] at h
    obtain ⟨U, hU, rfl⟩ := h
    exact dirOf_unit (hn U hU)
  have hL := routeLength_eq R (dirOf P) (stops.map dirOf) (dirOf Q) (dirOf_unit hP.ne) (dirOf_unit hQ.ne) hu
  have hle := angle_le_turn (dirOf P) (stops.map dirOf) (dirOf Q) (dirOf_unit hP.ne) (dirOf_unit hQ.ne) hu
  rw [turn_dirOf P stops Q hP.ne hQ.ne hn] at hL hle
  rw [angle_dirOf_left hP.ne, angle_dirOf_right hQ.ne] at hle
  have hle' := mul_le_mul_of_nonneg_right hle hR0.le
  simp only [zero_add, Nat.cast_add, Nat.cast_one] at eT
  refine ⟨T, D, _, hT, hD, hL, eT, ?_⟩
  have a1 := abs_le.1 eT
  have a2 := abs_le.1 eD
  linarith [a1.1, a2.2]

/-- the hypotheses hold for a route over the north pole -/
example : ∃ T D : ℝ, routeSum B 6371009 (F64.fin 0) ⟨0, 1, 0⟩ [⟨1, 0, 0⟩] ⟨0, 0, 1⟩ = F64.fin T ∧
    great_circle_distance ((⟨0, 1, 0⟩ : V3 ℝ).flt : V3 (F64 B)) (⟨0, 0, 1⟩ : V3 ℝ).flt (F64.fin 6371009) = F64.fin D ∧
    D - 2e-7 ≤ T := by
  have ha : ∀ v : V3 ℝ, v = ⟨0, 1, 0⟩ ∨ v = ⟨1, 0, 0⟩ ∨ v = ⟨0, 0, 1⟩ → Accepted64 v := by
    rintro v (rfl | rfl | rfl) <;>
      exact ⟨⟨by first | exact isF64_zero | exact isF64_one, by first | exact isF64_zero | exact isF64_one,
        by first | exact isF64_zero | exact isF64_one⟩, by norm_num [len], by norm_num [len]⟩
  have hR : IsF64 (6371009 : ℝ) := by simpa using isF64_int (n := 6371009) (by norm_num)
  obtain ⟨T, D, _, h1, h2, -, -, h4⟩ := C162_binary64 B ⟨0, 1, 0⟩ ⟨0, 0, 1⟩ [⟨1, 0, 0⟩] (ha _ (by simp)) (ha _ (by simp))
    (by intro S h; rw [List.mem_singleton] at h; exact ha _ (by simp [h])) (by simp) hR (by norm_num) (by norm_num)
  refine ⟨T, D, h1, h2, ?_⟩
  simp at h4
  norm_num at h4 ⊢
  linarith

end Nv
