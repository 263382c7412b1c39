import Verif.Props.NearerStation
import Verif.Props.FloatRoute

/-!
# C163 in binary64: the station that the computed distances single out
-/

namespace Nv
open Spec F64
variable (B : Binary64)

/-- **C163** in binary64: if none of the computed great circle distances from `Q` to the stations is smaller than that to `S`, the exact
distance to `S` exceeds none of the exact distances by more than `1.2e-14` radii (80 nanometres on the Earth) -/
theorem C163_binary64 (Q : V3 ℝ) (stations : List (V3 ℝ)) (hQ : Accepted64 Q) (hs : ∀ S ∈ stations, Accepted64 S) {R : ℝ} (hR : IsF64 R)
    (R1 : 1e-20 ≤ R) (R2 : R ≤ 1e20) :
    ∃ d g : V3 ℝ → ℝ, (∀ S ∈ stations, great_circle_distance (Q.flt : V3 (F64 B)) S.flt (F64.fin R) = F64.fin (d S) ∧
        great_circle_distance (dirOf Q).fin (dirOf S).fin (XR.fin R) = XR.fin (g S)) ∧
      (∀ S ∈ stations, (∀ T ∈ stations, d S ≤ d T) → ∀ T ∈ stations, g S ≤ g T + 1.2e-14 * R) ∧
      ∀ S ∈ stations, ∀ T ∈ stations, g S + 1.2e-14 * R < g T → d S < d T := by
  have hex : ∀ S : V3 ℝ, ∃ d : ℝ, S ∈ stations → great_circle_distance (Q.flt : V3 (F64 B)) S.flt (F64.fin R) = F64.fin d ∧
      |d - angle Q S * R| ≤ 6e-15 * R := by
    intro S
    by_cases h : S ∈ stations
    · obtain ⟨d, h1, -, h2⟩ := app_leg B hQ (hs S h) hR R1 R2
      exact ⟨d, fun _ => ⟨h1, h2⟩⟩
    · exact ⟨0, fun h' => absurd h' h⟩
  choose d hd using hex
  refine ⟨d, fun S => angle Q S * R, fun S h => ⟨(hd S h).1, ?_⟩, fun S hS h T hT => ?_, fun S hS T hT h => ?_⟩
  · rw [C18_eq_angle _ _ (dirOf_unit hQ.ne).ne (dirOf_unit (hs S h).ne).ne R, angle_dirOf_left hQ.ne, angle_dirOf_right (hs S h).ne]
  · have h1 := abs_le.1 (hd S hS).2
    have h2 := abs_le.1 (hd T hT).2
    have h3 := h T hT
    dsimp only
    linarith [h1.1, h2.2]
  · have h1 := abs_le.1 (hd S hS).2
    have h2 := abs_le.1 (hd T hT).2
    dsimp only at h
    linarith [h1.2, h2.1]

/-- the hypotheses hold for three positions on the axes -/
example := C163_binary64 B ⟨0, 1, 0⟩ [⟨1, 0, 0⟩, ⟨0, 0, 1⟩]
  ⟨⟨isF64_zero, isF64_one, isF64_zero⟩, by norm_num [len], by norm_num [len]⟩
  (by
    intro S h
    simp only [List.mem_cons, List.not_mem_nil, or_false] at h
    rcases h with rfl | rfl
    · exact ⟨⟨isF64_one, isF64_zero, isF64_zero⟩, by norm_num [len], by norm_num [len]⟩
    · exact ⟨⟨isF64_zero, isF64_zero, isF64_one⟩, by norm_num [len], by norm_num [len]⟩)
  (R := 6371009) (by simpa using isF64_int (n := 6371009) (by norm_num)) (by norm_num) (by norm_num)

/-- **C163** in binary64: if none of the computed Euclidean distances from `Q` to the stations is smaller than that to `S`, the exact
distance to `S` exceeds none of the exact distances by more than `2e-15` of it, however close the stations are -/
theorem C163_binary64_euclidean (Q : V3 ℝ) (stations : List (V3 ℝ)) (hQ : len Q ≤ 1.1) (hs : ∀ S ∈ stations, len S ≤ 1.1) {R : ℝ}
    (hR : IsF64 R) (R1 : 0 ≤ R) (R2 : R ≤ 1e20) :
    ∃ d e : V3 ℝ → ℝ, (∀ S ∈ stations, euclidean_distance (Q.flt : V3 (F64 B)) S.flt (F64.fin R) = F64.fin (d S) ∧
        euclidean_distance Q.fin S.fin (XR.fin R) = XR.fin (e S)) ∧
      ∀ S ∈ stations, (∀ T ∈ stations, d S ≤ d T) → ∀ T ∈ stations, e S ≤ (1 + 2e-15) * e T + 1e-49 := by
  have hex : ∀ S : V3 ℝ, ∃ d : ℝ, S ∈ stations → euclidean_distance (Q.flt : V3 (F64 B)) S.flt (F64.fin R) = F64.fin d ∧
      |d - len (S - Q) * R| ≤ 8e-16 * (len (S - Q) * R) + 1e-50 := by
    intro S
    by_cases h : S ∈ stations
    · obtain ⟨d, h1, h2⟩ := C73_euclidean_distance B hQ (hs S h) hR R1 R2
      exact ⟨d, fun _ => ⟨h1, h2⟩⟩
    · exact ⟨0, fun h' => absurd h' h⟩
  choose d hd using hex
  refine ⟨d, fun S => len (S - Q) * R, fun S h => ⟨(hd S h).1, by simp only [euclidean_distance, xr]⟩, fun S hS h T hT => ?_⟩
  have h1 := abs_le.1 (hd S hS).2
  have h2 := abs_le.1 (hd T hT).2
  have h3 := h T hT
  have h4 := mul_nonneg (len_nonneg' (T - Q)) R1
  dsimp only
  nlinarith [h1.1, h2.2]

/-- the hypotheses hold for two stations a few metres apart -/
example := C163_binary64_euclidean B ⟨0, 1, 0⟩ [⟨0, 1, 1 / 2 ^ 20⟩, ⟨1 / 2 ^ 20, 1, 0⟩] (by norm_num [len])
  (by
    intro S h
    simp only [List.mem_cons, List.not_mem_nil, or_false] at h
    have h0 : ∀ x : ℝ, x ≤ 1.21 → √x ≤ 1.1 := fun x hx => Real.sqrt_le_iff.2 ⟨by norm_num, by norm_num at hx ⊢; linarith⟩
    rcases h with rfl | rfl <;> exact h0 _ (by norm_num))
  (R := 6371009) (by simpa using isF64_int (n := 6371009) (by norm_num)) (by norm_num) (by norm_num)

end Nv
