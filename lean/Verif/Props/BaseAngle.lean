import Verif.Props.Displace

/-!
# C44 at the methods: the azimuths the great circle methods return
-/

namespace Nv
open Spec Real
open XR (fin)

/-- a number NumPy returns for an angle which is undefined (NaN) or in `[-p, p)`, with `p` half a turn -/
def Spec.HalfTurns (p : ℝ) (x : XR) : Prop := x = XR.nan ∨ ∃ y : ℝ, x = fin y ∧ -p ≤ y ∧ y < p

theorem base_angle_range (x : XR) : HalfTurns π (base_angle x) := by
  cases x with
  | fin x =>
    obtain ⟨y, h, h1, h2, -⟩ := C44_base_angle x
    exact .inr ⟨y, h, h1, h2⟩
  | _ => exact .inl rfl

theorem halfTurns_degrees {x : XR} (h : HalfTurns π x) : HalfTurns 180 (rad2deg x) := by
  have hp := pi_pos
  rcases h with rfl | ⟨y, rfl, h1, h2⟩
  · left; rfl
  · right
    refine ⟨_, rad2deg_fin y, ?_, ?_⟩
    · rw [show (-180 : ℝ) = (-π) * (180 / π) by field_simp]
      exact mul_le_mul_of_nonneg_right h1 (by positivity)
    · rw [show (180 : ℝ) = π * (180 / π) by field_simp]
      have : π * (180 / π) = 180 := by field_simp
      rw [this]
      calc y * (180 / π) < π * (180 / π) := mul_lt_mul_of_pos_right h2 (by positivity)
        _ = 180 := this

/-- **C44** `GeoPoint.displace` by the great circle method: whatever the point, the distance and the azimuth are, the returned azimuth is NaN or
in [-pi, pi) radians, [-180, 180) degrees -/
theorem C44_displace (G : Geodesic XR) (p q : GeoPoint XR) (d az azB : XR) (unroll degrees : Bool) (method : String)
    (hm : method.toList.head? ≠ some 'e') (h : p.displace G d az unroll degrees method = .ok (q, azB)) :
    HalfTurns (if degrees then 180 else π) azB := by
  unfold GeoPoint.displace at h
  have hne : ¬strTake method 1 = "e" := by
    intro h
    apply hm
    unfold strTake at h
    rcases hh : method.toList with _ | ⟨c, cs⟩
    · rw [hh] at h; exact absurd h (by decide)
    · rw [hh] at h
      have := congrArg String.toList h
      simp at this
      simp [this]
  rw [if_neg hne] at h
  unfold GeoPoint.displace_great_circle at h
  dsimp only [bind, Except.bind] at h
  generalize delta_N (α := XR) _ _ = r at h
  rcases r with e | D
  · cases h
  · simp only [bind, Except.bind, pure, Except.pure] at h
    cases degrees
    · simp only [Bool.false_eq_true, if_false] at h ⊢
      injection h with h; injection h with _ h
      rw [← h]; exact base_angle_range _
    · simp only [if_true] at h ⊢
      injection h with h; injection h with _ h
      rw [← h]; exact halfTurns_degrees (base_angle_range _)

/-- **C44** `GeoPoint.distance_and_azimuth` by the great circle method: whatever the two points are, `azimuth_b` is NaN or in [-pi, pi) radians,
[-180, 180) degrees -/
theorem C44_distance_and_azimuth (G : Geodesic XR) (p : GeoPoint XR) (q : Position XR) (d azA azB : XR) (unroll degrees : Bool)
    (method : String) (hm : method.toList.head? ≠ some 'e')
    (h : p.distance_and_azimuth G q unroll degrees method = .ok (d, azA, azB)) :
    HalfTurns (if degrees then 180 else π) azB := by
  unfold GeoPoint.distance_and_azimuth at h
  generalize check_frames_pos p.frame q = c at h
  rcases c with e | _
  · cases h
  simp only [bind, Except.bind] at h
  rcases hmm : method.toList with _ | ⟨c, cs⟩
  · rw [hmm] at h; cases h
  · rw [hmm] at h hm
    have hc : c ≠ 'e' := by intro hc; apply hm; simp [hc]
    simp only [if_neg hc] at h
    unfold GeoPoint.distance_and_azimuth_greatcircle at h
    dsimp only [bind, Except.bind] at h
    generalize delta_N (α := XR) _ _ = r at h
    generalize delta_N (α := XR) _ _ = r' at h
    rcases r with e | D
    · cases h
    rcases r' with e | D'
    · cases h
    simp only [bind, Except.bind, pure, Except.pure] at h
    cases degrees
    · simp only [Bool.false_eq_true, if_false] at h ⊢
      injection h with h; injection h with _ h; injection h with _ h
      rw [← h]; exact base_angle_range _
    · simp only [if_true] at h ⊢
      injection h with h; injection h with _ h; injection h with _ h
      rw [← h]; exact halfTurns_degrees (base_angle_range _)

end Nv
