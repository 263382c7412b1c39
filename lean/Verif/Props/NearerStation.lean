import Verif.Props.Distance
import Verif.Props.Interp

/-!
# C163: which position is nearer

The two distances put positions in the same order, and the positions that are equally far from two stations are a great circle that the
library finds as a path.
-/

namespace Nv
open Spec Real
open XR (fin)

theorem sin_half_le_iff {x y : ℝ} (hx0 : 0 ≤ x) (hx : x ≤ π) (hy0 : 0 ≤ y) (hy : y ≤ π) : sin (x / 2) ≤ sin (y / 2) ↔ x ≤ y := by
  rw [Real.strictMonoOn_sin.le_iff_le ⟨by linarith, by linarith⟩ ⟨by linarith, by linarith⟩]
  constructor <;> intro h <;> linarith

/-- **C163** great circle distances and Euclidean distances compare in the same way -/
theorem C163_same_order (A B C D : V3 ℝ) (hA : UnitVec A) (hB : UnitVec B) (hC : UnitVec C) (hD : UnitVec D) (r : ℝ) (hr : 0 < r) :
    ∃ g g' e e' : ℝ, great_circle_distance A.fin B.fin (fin r) = fin g ∧ great_circle_distance C.fin D.fin (fin r) = fin g' ∧
      euclidean_distance A.fin B.fin (fin r) = fin e ∧ euclidean_distance C.fin D.fin (fin r) = fin e' ∧ (g ≤ g' ↔ e ≤ e') := by
  obtain ⟨x, h1, h2, h3, h4⟩ := C19_chord A B hA hB r
  obtain ⟨y, k1, k2, k3, k4⟩ := C19_chord C D hC hD r
  refine ⟨_, _, _, _, h1, k1, h4, k4, ?_⟩
  rw [mul_le_mul_iff_left₀ hr, mul_le_mul_iff_right₀ (by positivity : (0 : ℝ) < 2 * r), sin_half_le_iff h2 h3 k2 k3]

/-- **C163** the stations nearest to a position are the same for both distances, for any number of stations -/
theorem C163_nearest (Q : V3 ℝ) (stations : List (V3 ℝ)) (hQ : UnitVec Q) (hs : ∀ S ∈ stations, UnitVec S) (r : ℝ) (hr : 0 < r) :
    ∃ g e : V3 ℝ → ℝ, (∀ S ∈ stations, great_circle_distance Q.fin S.fin (fin r) = fin (g S) ∧
        euclidean_distance Q.fin S.fin (fin r) = fin (e S)) ∧
      ∀ S ∈ stations, (∀ T ∈ stations, g S ≤ g T) ↔ ∀ T ∈ stations, e S ≤ e T := by
  refine ⟨fun S => angle Q S * r, fun S => 2 * r * sin (angle Q S / 2), fun S h => ?_, fun S h => ?_⟩
  · have h0 := C18_eq_angle Q S hQ.ne (hs S h).ne r
    obtain ⟨x, h1, -, -, h4⟩ := C19_chord Q S hQ (hs S h) r
    rw [h0, XR.fin_inj] at h1
    rw [← mul_right_cancel₀ hr.ne' h1] at h4
    exact ⟨h0, h4⟩
  · have key : ∀ T, angle Q S * r ≤ angle Q T * r ↔ 2 * r * sin (angle Q S / 2) ≤ 2 * r * sin (angle Q T / 2) := by
      intro T
      rw [mul_le_mul_iff_left₀ hr, mul_le_mul_iff_right₀ (by positivity : (0 : ℝ) < 2 * r),
        sin_half_le_iff (angle_nonneg _ _) (angle_le_pi _ _) (angle_nonneg _ _) (angle_le_pi _ _)]
    exact ⟨fun h T hT => (key T).1 (h T hT), fun h T hT => (key T).2 (h T hT)⟩

theorem angle_lt_iff {A B Q : V3 ℝ} (hA : UnitVec A) (hB : UnitVec B) (hQ : UnitVec Q) : angle A Q < angle B Q ↔ dot B Q < dot A Q := by
  rw [← cos_angle_unit hA hQ, ← cos_angle_unit hB hQ]
  exact (Real.strictAntiOn_cos.lt_iff_gt ⟨angle_nonneg _ _, angle_le_pi _ _⟩ ⟨angle_nonneg _ _, angle_le_pi _ _⟩).symm

/-- **C163** the path from the middle of `A` and `B` to the pole of their great circle separates the positions nearer to `A` from those
nearer to `B`: the cross track distance from it is negative, zero or positive according as `Q` is nearer to `A`, equally far, or nearer
to `B` -/
theorem C163_bisector (A B Q : V3 ℝ) (hA : UnitVec A) (hB : UnitVec B) (hQ : UnitVec Q) (hp : ProperPath A B) (r : ℝ) (hr : 0 < r) :
    ∃ x a b : ℝ,
      cross_track_distance (interpolate (A.fin, B.fin) (fin (1 / 2)), unit (cross3 A.fin B.fin)) Q.fin (radius := fin r) = .ok (fin x) ∧
      great_circle_distance A.fin Q.fin (fin r) = fin a ∧ great_circle_distance B.fin Q.fin (fin r) = fin b ∧
      (x < 0 ↔ a < b) ∧ (x = 0 ↔ a = b) ∧ (0 < x ↔ b < a) := by
  have hc : 0 < len (cross A B) := len_pos hp
  have hlag := lagrange A B
  rw [hA.len, hB.len] at hlag
  have hd : -1 < dot A B := by
    by_contra hle
    have h2 := sq_nonneg (len (cross A B))
    nlinarith [hc, sq_nonneg (dot A B)]
  have hmix : mix A B (1 / 2) = (1 / 2 : ℝ) • (A + B) := by
    unfold mix; ext <;> simp <;> ring
  have hAB : len (A + B) ≠ 0 := by
    intro h0
    rw [len_eq_zero] at h0
    have : dot (A + B) B = 0 := by rw [h0]; simp [dot]
    rw [dot_add_left, hB.dot] at this
    linarith
  have hne : A + B ≠ 0 := fun h => hAB (by rw [h, len_eq_zero.mpr rfl])
  have hmne : mix A B (1 / 2) ≠ 0 := by rw [hmix]; exact smul_ne_zero (by norm_num) hne
  set M := dirOf (mix A B (1 / 2)) with hM
  set N := dirOf (cross A B) with hN
  have e1 : interpolate (A.fin, B.fin) (fin (1 / 2)) = M.fin := interpolate_fin hmne
  have e2 : unit (cross3 A.fin B.fin) = N.fin := by
    rw [show cross3 A.fin B.fin = (cross A B).fin by simp only [xr]]
    exact unit_fin hp _
  have hMN : ∃ k : ℝ, 0 < k ∧ cross M N = k • (A - B) := by
    have hl := len_pos hmne
    refine ⟨(len (mix A B (1 / 2)))⁻¹ * (1 / 2) * (len (cross A B))⁻¹ * (1 + dot A B), by
      have : 0 < 1 + dot A B := by linarith
      positivity, ?_⟩
    have t : cross (A + B) (cross A B) = (1 + dot A B) • (A - B) := by
      have q1 := hA.dot
      have q2 := hB.dot
      simp only [dot] at q1 q2
      ext
      · simp [cross, dot]; linear_combination A.x * q2 - B.x * q1
      · simp [cross, dot]; linear_combination A.y * q2 - B.y * q1
      · simp [cross, dot]; linear_combination A.z * q2 - B.z * q1
    have s : cross M N = ((len (mix A B (1 / 2)))⁻¹ * (1 / 2) * (len (cross A B))⁻¹) • cross (A + B) (cross A B) := by
      have hM' : M = ((len (mix A B (1 / 2)))⁻¹ * (1 / 2)) • (A + B) := by
        rw [hM, dirOf]
        generalize (len (mix A B (1 / 2)))⁻¹ = c
        rw [hmix]
        ext <;> simp <;> ring
      have hN' : N = (len (cross A B))⁻¹ • cross A B := rfl
      rw [hM', hN']
      generalize (len (mix A B (1 / 2)))⁻¹ * (1 / 2) = u
      generalize (len (cross A B))⁻¹ = v
      generalize A + B = w
      generalize cross A B = z
      ext <;> simp [cross] <;> ring
    rw [s, t]
    ext <;> simp <;> ring
  obtain ⟨k, hk, ek⟩ := hMN
  have hAB' : A - B ≠ 0 := by
    intro h
    have : A = B := by
      have hx := congrArg V3.x h
      have hy := congrArg V3.y h
      have hz := congrArg V3.z h
      simp at hx hy hz
      ext <;> linarith
    subst this
    exact hp (by ext <;> simp [cross] <;> ring)
  have hpath : ProperPath M N := by
    unfold ProperPath
    rw [ek]
    exact smul_ne_zero hk.ne' hAB'
  refine ⟨_, _, _, by rw [e1, e2]; exact cross_track_fin hpath hQ r, C18_eq_angle A Q hA.ne hQ.ne r, C18_eq_angle B Q hB.ne hQ.ne r, ?_⟩
  have hdot : dot (dirOf (cross M N)) Q = (len (A - B))⁻¹ * (dot A Q - dot B Q) := by
    rw [ek, dirOf_smul hk, dot_dirOf_left, dot_sub_left]
  have hl := len_pos hAB'
  have hli : 0 < (len (A - B))⁻¹ := inv_pos.2 hl
  rw [hdot, ← mul_neg, neg_sub]
  have p1 : 0 < arcsin ((len (A - B))⁻¹ * (dot B Q - dot A Q)) * r ↔ angle B Q * r < angle A Q * r := by
    rw [mul_pos_iff_of_pos_right hr, Real.arcsin_pos, mul_pos_iff_of_pos_left hli, mul_lt_mul_iff_left₀ hr, angle_lt_iff hB hA hQ, sub_pos]
  have p2 : arcsin ((len (A - B))⁻¹ * (dot B Q - dot A Q)) * r < 0 ↔ angle A Q * r < angle B Q * r := by
    rw [← neg_pos, ← neg_mul, ← Real.arcsin_neg, mul_pos_iff_of_pos_right hr, Real.arcsin_pos, ← mul_neg, neg_sub,
      mul_pos_iff_of_pos_left hli, mul_lt_mul_iff_left₀ hr, angle_lt_iff hA hB hQ, sub_pos]
  refine ⟨p2, ?_, p1⟩
  constructor
  · intro h
    rw [h] at p1 p2
    exact le_antisymm (not_lt.1 fun h' => lt_irrefl _ (p1.2 h')) (not_lt.1 fun h' => lt_irrefl _ (p2.2 h'))
  · intro h
    rw [h] at p1 p2
    exact le_antisymm (not_lt.1 fun h' => lt_irrefl _ (p1.1 h')) (not_lt.1 fun h' => lt_irrefl _ (p2.1 h'))

/-- the hypotheses of `C163_bisector` hold for two positions on the equator and a third one nearer to the second -/
example : ∃ x : ℝ, cross_track_distance (interpolate ((⟨0, 0, 1⟩ : V3 ℝ).fin, (⟨0, 1, 0⟩ : V3 ℝ).fin) (fin (1 / 2)),
    unit (cross3 (⟨0, 0, 1⟩ : V3 ℝ).fin (⟨0, 1, 0⟩ : V3 ℝ).fin)) (⟨0, 4 / 5, 3 / 5⟩ : V3 ℝ).fin (radius := fin 1) = .ok (fin x) ∧ 0 < x := by
  have hA : UnitVec (⟨0, 0, 1⟩ : V3 ℝ) := by norm_num [UnitVec]
  have hB : UnitVec (⟨0, 1, 0⟩ : V3 ℝ) := by norm_num [UnitVec]
  have hQ : UnitVec (⟨0, 4 / 5, 3 / 5⟩ : V3 ℝ) := by norm_num [UnitVec]
  obtain ⟨x, a, b, h1, h2, h3, -, -, h4⟩ := C163_bisector _ _ _ hA hB hQ (by
    intro h; have := congrArg V3.x h; simp [cross] at this) 1 one_pos
  refine ⟨x, h1, h4.2 ?_⟩
  rw [C18_eq_angle _ _ hA.ne hQ.ne, XR.fin_inj] at h2
  rw [C18_eq_angle _ _ hB.ne hQ.ne, XR.fin_inj] at h3
  rw [← h2, ← h3, mul_one, mul_one, angle_lt_iff hB hA hQ]
  norm_num [dot]

/-- `C163_same_order` and `C163_nearest` apply to these positions -/
example := C163_same_order ⟨0, 0, 1⟩ ⟨0, 1, 0⟩ ⟨0, 4 / 5, 3 / 5⟩ ⟨1, 0, 0⟩ (by norm_num [UnitVec]) (by norm_num [UnitVec])
  (by norm_num [UnitVec]) (by norm_num [UnitVec]) 6371 (by norm_num)
example := C163_nearest ⟨0, 4 / 5, 3 / 5⟩ [⟨0, 0, 1⟩, ⟨0, 1, 0⟩] (by norm_num [UnitVec])
  (by intro S h; simp only [List.mem_cons, List.not_mem_nil, or_false] at h; rcases h with rfl | rfl <;> norm_num [UnitVec]) 6371 (by norm_num)

end Nv
