import Verif.Lemmas.Odd
import Verif.Props.FloatPosition
import Verif.Float.Foot

/-!
# C119: symmetries that hold to the last bit

Geometric symmetries are usually lost to rounding.  Those below are not: the two calls return the same double, bit for bit, for all
inputs, NaN and the infinities included.  The only assumption on the arithmetic is that it treats `x` and `-x` alike.
-/

namespace Nv.Spec

/-- A binary64 arithmetic whose rounding and library functions treat a number and its negative alike, as IEEE 754 arithmetic with
rounding to even and the usual C libraries do.  (`arctan2 0 x` for `x < 0` is excepted: with one zero it is `π`.) -/
structure SignSymmetric (B : Binary64) : Prop where
  fl : ∀ x, B.fl (-x) = -B.fl x
  sin : ∀ x, B.sin (-x) = -B.sin x
  cos : ∀ x, B.cos (-x) = B.cos x
  arcsin : ∀ x, B.arcsin (-x) = -B.arcsin x
  arctan2 : ∀ y x, (y = 0 → 0 < x) → B.arctan2 (-y) x = -B.arctan2 y x

/-- the path from `B` to `A` -/
def reversed {α : Type} (P : GeoPath α) : GeoPath α := ⟨P.point_b, P.point_a⟩

end Nv.Spec

namespace Nv
open Spec PyFloat OddLaws

/-- there is such an arithmetic -/
theorem exists_signSymmetric : ∃ B : Binary64, SignSymmetric B := by
  obtain ⟨B, h⟩ := exists_binary64_odd
  have hr := B.rounds
  have hc : ∀ x, LibmClose (B.fl x) x := by
    intro x
    refine (hr.err_add x).trans ?_
    have h1 : uu ≤ (2 : ℝ) ^ (-51 : ℤ) := by rw [uu_eq]; exact zpow_le_zpow_right₀ (by norm_num) (by norm_num)
    have h2 : eta ≤ (2 : ℝ) ^ (-1074 : ℤ) := eta_le (by norm_num)
    have := mul_le_mul_of_nonneg_right h1 (abs_nonneg x)
    linarith
  refine ⟨{ B with
    sin := fun x => B.fl (Real.sin x)
    cos := fun x => B.fl (Real.cos x)
    arcsin := fun x => B.fl (Real.arcsin x)
    arctan2 := fun y x => B.fl (Complex.arg ⟨x, y⟩)
    sin_val := fun _ => hr.val _
    cos_val := fun _ => hr.val _
    arcsin_val := fun _ => hr.val _
    arctan2_val := fun _ _ => hr.val _
    sin_close := fun _ => hc _
    cos_close := fun _ => hc _
    arcsin_close := fun _ _ _ => hc _
    arctan2_close := fun _ _ _ => hc _
    sin_zero := by rw [Real.sin_zero, hr.zero]
    cos_zero := by rw [Real.cos_zero, hr.exact isF64_one]
    arcsin_zero := by rw [Real.arcsin_zero, hr.zero]
    arctan2_zero := fun x hx => by
      rw [show (⟨x, 0⟩ : ℂ) = ((x : ℝ) : ℂ) from rfl, Complex.arg_ofReal_of_nonneg hx.le, hr.zero] }, h, ?_, ?_, ?_, ?_⟩
  · intro x; change B.fl _ = -B.fl _; rw [Real.sin_neg, h]
  · intro x; change B.fl _ = B.fl _; rw [Real.cos_neg]
  · intro x; change B.fl _ = -B.fl _; rw [Real.arcsin_neg, h]
  · intro y x hx
    change B.fl _ = -B.fl _
    rw [← h]; congr 1
    have := Complex.arg_conj (⟨x, y⟩ : ℂ)
    rw [show (starRingEnd ℂ) (⟨x, y⟩ : ℂ) = ⟨x, -y⟩ from rfl, if_neg] at this
    · exact this
    · intro he
      by_cases hy : y = 0
      · subst hy
        have h0 := hx rfl
        rw [show (⟨x, 0⟩ : ℂ) = ((x : ℝ) : ℂ) from rfl, Complex.arg_ofReal_of_nonneg h0.le] at he
        exact Real.pi_ne_zero he.symm
      · rw [Complex.arg_eq_pi_iff] at he
        exact hy he.2

section generic
variable {α : Type} [PyFloat α] [OddLaws α]

theorem great_circle_distance_symm (a b : V3 α) (r : α) : great_circle_distance b a r = great_circle_distance a b r := by
  simp only [great_circle_distance, cross3_swap a b, norm3_neg3, dot3_comm b a]

theorem euclidean_distance_symm (a b : V3 α) (r : α) : euclidean_distance b a r = euclidean_distance a b r := by
  simp only [euclidean_distance, sub3_swap b a, norm3_neg3]

/-- oddness of the inverse sine -/
def ArcsinOdd (α : Type) [PyFloat α] : Prop := ∀ x : α, arcsin (-x) = -arcsin x

theorem cross_track_reversed (h : ArcsinOdd α) (a b n : V3 α) (method : String) (r : α) :
    cross_track_distance (b, a) n method r = (cross_track_distance (a, b) n method r).map (fun d => -d) := by
  simp only [cross_track_distance, normal_swap a b, dot3_neg]
  cases method.toList with
  | nil => rfl
  | cons c l =>
    simp only [euclidean_cross_track_distance, great_circle_cross_track_distance]
    split_ifs
    · simp only [Except.map, o_neg_mul]
    · simp only [Except.map, h _, o_neg_mul]

theorem cross_track_mirror (h : ArcsinOdd α) (path : V3 α × V3 α) (n : V3 α) (method : String) (r : α) :
    cross_track_distance path (neg3 n) method r = (cross_track_distance path n method r).map (fun d => -d) := by
  simp only [cross_track_distance, dot3_neg_right]
  cases method.toList with
  | nil => rfl
  | cons c l =>
    simp only [euclidean_cross_track_distance, great_circle_cross_track_distance]
    split_ifs
    · simp only [Except.map, o_neg_mul]
    · simp only [Except.map, h _, o_neg_mul]

theorem abs_cross_track_reversed (h : ArcsinOdd α) (a b n : V3 α) (r : α) :
    abs_cross_track (b, a) n r = abs_cross_track (a, b) n r := by
  simp only [abs_cross_track, cross_track_reversed h a b]
  cases cross_track_distance (a, b) n "greatcircle" r <;> simp [Except.map, o_abs_neg]

theorem on_great_circle_reversed (h : ArcsinOdd α) (a b n : V3 α) (r t : α) :
    on_great_circle (b, a) n r t = on_great_circle (a, b) n r t := by
  simp only [on_great_circle, abs_cross_track_reversed h]

theorem on_great_circle_path_reversed (h : ArcsinOdd α) (a b n : V3 α) (r t : α) :
    on_great_circle_path (b, a) n r t = on_great_circle_path (a, b) n r t := by
  simp only [on_great_circle_path, on_great_circle_reversed h a b, sub3_swap b a, norm3_neg3]
  rw [Bool.and_comm (le _ _) (le _ _)]

theorem closest_reversed (a b n : V3 α) :
    closest_point_on_great_circle (b, a) n = closest_point_on_great_circle (a, b) n := by
  simp only [closest_point_on_great_circle, normal_swap a b, cross3_neg_right, cross3_neg, neg3_neg3]

theorem intersect_reversed (pa : V3 α × V3 α) (c d : V3 α) : intersect pa (d, c) = intersect pa (c, d) := by
  simp only [intersect, cross3_swap c d, cross3_neg_right, unit_nan_neg, dot3_neg, o_sign_neg, scale3_neg_neg]

theorem n2p_neg (n : V3 α) (depth a f : α) (R : M3 α) (h : eq (norm3 (mulVec R n)) (lit 0) = false) :
    n_EB_E2p_EB_E (neg3 n) depth a f R = neg3 (n_EB_E2p_EB_E n depth a f R) := by
  have e : ∀ (s t u w : α) (q : V3 α), (⟨s * (neg3 q).x / t, s * (neg3 q).y / u, s * (neg3 q).z / w⟩ : V3 α) =
      neg3 ⟨s * q.x / t, s * q.y / u, s * q.z / w⟩ := by
    intro s t u w q; simp only [neg3, odd_mul_neg, o_neg_div]
  simp only [n_EB_E2p_EB_E, mulVec_neg, unit_neg _ _ h, ediv3_neg, norm3_neg3, scale3_neg, e, sub3_neg]

theorem powNat_two_neg (x : α) : powNat (-x) 2 = powNat x 2 := odd_neg_mul_neg x x

theorem equation23_neg (a f : α) (p : V3 α) : equation23 a f (neg3 p) = equation23 a f p := by
  simp only [equation23, neg3, powNat_two_neg]

/-- the vector of `p_EB_E2n_EB_E` before it is scaled to length one -/
def preUnit (p : V3 α) (a f : α) (R : M3 α) : V3 α :=
  let q := mulVec R p
  let e := equation23 a f q
  mulVec (tr R) ⟨e.1 * q.x, e.2.1 * q.y, e.2.1 * q.z⟩

theorem p2n_neg (p : V3 α) (a f : α) (R : M3 α) (h : eq (norm3 (preUnit p a f R)) (lit 0) = false) :
    p_EB_E2n_EB_E (neg3 p) a f R = (neg3 (p_EB_E2n_EB_E p a f R).1, (p_EB_E2n_EB_E p a f R).2) := by
  have e : ∀ (s t : α) (q : V3 α), (⟨s * (neg3 q).x, t * (neg3 q).y, t * (neg3 q).z⟩ : V3 α) = neg3 ⟨s * q.x, t * q.y, t * q.z⟩ := by
    intro s t q; simp only [neg3, odd_mul_neg]
  simp only [p_EB_E2n_EB_E, mulVec_neg, equation23_neg, e]
  exact congrArg (fun u => (u, _)) (unit_neg _ _ h)

theorem p_AB_E_antisymm (nA nB : V3 α) (zA zB a f : α) (R : M3 α) :
    n_EA_E_and_n_EB_E2p_AB_E nB nA zB zA a f R = neg3 (n_EA_E_and_n_EB_E2p_AB_E nA nB zA zB a f R) := by
  simp only [n_EA_E_and_n_EB_E2p_AB_E, sub3_swap (n_EB_E2p_EB_E nB zB a f R)]

/-! objects -/

theorem average_radius_reversed (P : GeoPath α) : (reversed P).average_radius = P.average_radius := by
  simp only [GeoPath.average_radius, GeoPath.ecef_vectors, reversed, o_add_comm]

theorem radiusOr_reversed (P : GeoPath α) (r : Option α) : (reversed P).radiusOr r = P.radiusOr r := by
  simp only [GeoPath.radiusOr, average_radius_reversed]

theorem normals_reversed (P : GeoPath α) : (reversed P).nvector_normals = (P.nvector_normals.2, P.nvector_normals.1) := rfl

theorem path_on_reversed (h : ArcsinOdd α) (P : GeoPath α) (pt : Position α) (r : Option α) (rtol atol : α) :
    (reversed P).on_great_circle_path pt r rtol atol = P.on_great_circle_path pt r rtol atol := by
  simp only [GeoPath.on_great_circle_path, radiusOr_reversed, normals_reversed, on_great_circle_path_reversed h]
  simp only [GeoPath.nvectors, reversed, o_add_comm (Position.to_nvector P.point_b).z]

theorem closest_nvector_reversed (P : GeoPath α) (pt : Position α) : (reversed P).closest_nvector pt = P.closest_nvector pt := by
  simp only [GeoPath.closest_nvector, normals_reversed, closest_reversed]
  simp only [GeoPath.nvectors, reversed, o_add_comm (Position.to_nvector P.point_b).z]

end generic

/-! ## The property -/

theorem F64.arcsin_odd {B : Binary64} (h : SignSymmetric B) : ArcsinOdd (F64 B) := by
  intro x
  cases x with
  | fin x =>
    by_cases hx : x < -1 ∨ 1 < x
    · have e1 : arcsin (F64.fin x : F64 B) = XR.nan := if_pos hx
      have e2 : arcsin (F64.fin (-x) : F64 B) = XR.nan := if_pos (by rcases hx with h | h <;> [right; left] <;> linarith)
      change arcsin (F64.fin (-x) : F64 B) = -arcsin (F64.fin x : F64 B)
      rw [e1, e2]; rfl
    · have e1 : arcsin (F64.fin x : F64 B) = F64.fin (B.arcsin x) := if_neg hx
      have e2 : arcsin (F64.fin (-x) : F64 B) = F64.fin (B.arcsin (-x)) :=
        if_neg (by intro h; apply hx; rcases h with h | h <;> [right; left] <;> linarith)
      change arcsin (F64.fin (-x) : F64 B) = -arcsin (F64.fin x : F64 B)
      rw [e1, e2, h.arcsin]; rfl
  | _ => rfl

variable {B : Binary64} (hB : SignSymmetric B)
include hB

/-- **C119** the distances between two positions do not depend on their order -/
theorem C119_distance (a b : V3 (F64 B)) (radius : F64 B) :
    great_circle_distance a b radius = great_circle_distance b a radius ∧
    euclidean_distance a b radius = euclidean_distance b a radius := by
  have := F64.oddLaws hB.fl
  exact ⟨great_circle_distance_symm b a radius, euclidean_distance_symm b a radius⟩

/-- **C119** the vector from B to A is minus the vector from A to B -/
theorem C119_delta (nA nB : V3 (F64 B)) (zA zB a f : F64 B) (R : M3 (F64 B)) :
    n_EA_E_and_n_EB_E2p_AB_E nB nA zB zA a f R = neg3 (n_EA_E_and_n_EB_E2p_AB_E nA nB zA zB a f R) := by
  have := F64.oddLaws hB.fl
  exact p_AB_E_antisymm nA nB zA zB a f R

/-- **C119** `delta_E` likewise, whatever the classes of the two positions -/
theorem C119_delta_E {p q : Position (F64 B)} {d e : ECEFvector (F64 B)} (h : delta_E p q = .ok d) (h' : delta_E q p = .ok e) :
    e.pvector = neg3 d.pvector := by
  have := F64.oddLaws hB.fl
  unfold delta_E ECEFvector.sub at h h'
  revert h h'
  cases check_frames q.to_ecef_vector.frame p.to_ecef_vector.frame <;>
    cases check_frames p.to_ecef_vector.frame q.to_ecef_vector.frame <;>
    simp only [bind, Except.bind, pure, Except.pure, reduceCtorEq, false_implies, implies_true, Except.ok.injEq]
  rintro rfl rfl
  exact sub3_swap _ _

/-- **C119** reversing the path changes the sign of the cross-track distance and nothing else, for both methods -/
theorem C119_cross_track (a b n : V3 (F64 B)) (method : String) (radius : F64 B) :
    cross_track_distance (b, a) n method radius = (cross_track_distance (a, b) n method radius).map (fun d => -d) := by
  have := F64.oddLaws hB.fl
  exact cross_track_reversed (F64.arcsin_odd hB) a b n method radius

/-- **C119** the position diametrically opposite has minus the cross-track distance -/
theorem C119_cross_track_antipode (path : V3 (F64 B) × V3 (F64 B)) (n : V3 (F64 B)) (method : String) (radius : F64 B) :
    cross_track_distance path (neg3 n) method radius = (cross_track_distance path n method radius).map (fun d => -d) := by
  have := F64.oddLaws hB.fl
  exact cross_track_mirror (F64.arcsin_odd hB) path n method radius

/-- **C119** whether a position is on the great circle, whether it is on the path, and the closest point do not depend on the direction
of the path -/
theorem C119_on_and_closest (a b n : V3 (F64 B)) (radius atol : F64 B) :
    on_great_circle (b, a) n radius atol = on_great_circle (a, b) n radius atol ∧
    on_great_circle_path (b, a) n radius atol = on_great_circle_path (a, b) n radius atol ∧
    closest_point_on_great_circle (b, a) n = closest_point_on_great_circle (a, b) n := by
  have := F64.oddLaws hB.fl
  exact ⟨on_great_circle_reversed (F64.arcsin_odd hB) a b n radius atol,
    on_great_circle_path_reversed (F64.arcsin_odd hB) a b n radius atol, closest_reversed a b n⟩

/-- **C119** the intersection does not depend on the direction of the second path -/
theorem C119_intersect (path_a : V3 (F64 B) × V3 (F64 B)) (c d : V3 (F64 B)) : intersect path_a (d, c) = intersect path_a (c, d) := by
  have := F64.oddLaws hB.fl
  exact intersect_reversed path_a c d

/-- **C119** opposite n-vectors at the same depth give opposite positions -/
theorem C119_antipode_position (n : V3 (F64 B)) (depth a f : F64 B) (R : M3 (F64 B))
    (h : eq (norm3 (mulVec R n)) (lit 0 : F64 B) = false) :
    n_EB_E2p_EB_E (neg3 n) depth a f R = neg3 (n_EB_E2p_EB_E n depth a f R) := by
  have := F64.oddLaws hB.fl
  exact n2p_neg n depth a f R h

omit hB in
theorem norm3_ne_zero {v : V3 ℝ} (h1 : (2 : ℝ) ^ (-500 : ℤ) ≤ len v) (h2 : len v ≤ (2 : ℝ) ^ (500 : ℕ)) :
    eq (norm3 (v.flt : V3 (F64 B))) (lit 0 : F64 B) = false := by
  have l0 : 0 < len v := lt_of_lt_of_le (by positivity) h1
  have hr := flNorm_rel B.rounds h1
  have hu1 : uu ≤ 1 / 10 ^ 10 := by unfold uu; norm_num
  have hul : uu * len v ≤ 1 / 10 ^ 10 * len v := mul_le_mul_of_nonneg_right hu1 l0.le
  have hNp : 0 < flNorm B.fl v.x v.y v.z := by linarith [(abs_le.mp hr).1]
  rw [norm3_wide h2, F64.lit_zero, F64.fin_eq]
  simp [hNp.ne']

omit hB in
theorem len_neg' (v : V3 ℝ) : len (-v) = len v := by unfold len; simp

omit hB in
theorem flt_neg (v : V3 ℝ) : (V3.flt (B := B) (-v)) = neg3 v.flt := rfl

/-- **C119** the hypothesis of `C119_antipode_position` holds for all n-vectors of ordinary size: their antipodes have, at any depth and
on any ellipsoid, exactly the opposite positions -/
theorem C119_antipode_position_finite {n : V3 ℝ} (hn : IsF64V n) (n1 : (2 : ℝ) ^ (-500 : ℤ) ≤ len n) (n2 : len n ≤ 10 ^ 60)
    (depth a f : F64 B) {R : M3 ℝ} (hR : IsAxes R) :
    n_EB_E2p_EB_E (V3.flt (-n)) depth a f R.flt = neg3 (n_EB_E2p_EB_E n.flt depth a f R.flt) := by
  rw [flt_neg]
  apply C119_antipode_position hB
  rw [(mulVec_axes (B := B) hR (fin64V_of_le hn n2)).1]
  have e := len_app hR.rot n
  exact norm3_ne_zero (by rw [e]; exact n1) (by rw [e]; exact n2.trans (calc (10 : ℝ) ^ 60 ≤ 2 ^ (200 : ℕ) := by norm_num
      _ ≤ 2 ^ (500 : ℕ) := pow_le_pow_right₀ (by norm_num) (by norm_num)))

/-- **C119** opposite positions have the same depth, and n-vectors that are opposite or, if the computed vector underflows or vanishes so
that the default `(1, 0, 0)` is returned, the same -/
theorem C119_antipode_normal (p : V3 (F64 B)) (a f : F64 B) (R : M3 (F64 B)) :
    (p_EB_E2n_EB_E (neg3 p) a f R).2 = (p_EB_E2n_EB_E p a f R).2 ∧
    ((p_EB_E2n_EB_E (neg3 p) a f R).1 = neg3 (p_EB_E2n_EB_E p a f R).1 ∨
      ((p_EB_E2n_EB_E (neg3 p) a f R).1 = unit ⟨lit 0, lit 0, lit 0⟩ ∧ (p_EB_E2n_EB_E p a f R).1 = unit ⟨lit 0, lit 0, lit 0⟩)) := by
  have := F64.oddLaws hB.fl
  refine ⟨by simp only [p_EB_E2n_EB_E, mulVec_neg, equation23_neg], ?_⟩
  rcases Bool.eq_false_or_eq_true (eq (norm3 (preUnit p a f R)) (lit 0 : F64 B)) with h | h
  · right
    have hz : ∀ v : V3 (F64 B), eq (norm3 v) (lit 0 : F64 B) = true → unit v = unit ⟨lit 0, lit 0, lit 0⟩ := by
      intro v hv
      have h0 : eq (norm3 (⟨lit 0, lit 0, lit 0⟩ : V3 (F64 B))) (lit 0 : F64 B) = true := by
        have := norm3_wide (B := B) (v := 0) (by rw [len_eq_zero.mpr rfl]; positivity)
        have e : (V3.flt (B := B) 0) = ⟨lit 0, lit 0, lit 0⟩ := by rw [F64.lit_zero]; rfl
        rw [← e, this, F64.lit_zero, F64.fin_eq]
        simp [flNorm, B.rounds.zero]
      simp only [unit, hv, h0, if_true]
    have e : preUnit (neg3 p) a f R = neg3 (preUnit p a f R) := by
      have e : ∀ (s t : F64 B) (q : V3 (F64 B)), (⟨s * (neg3 q).x, t * (neg3 q).y, t * (neg3 q).z⟩ : V3 (F64 B)) =
          neg3 ⟨s * q.x, t * q.y, t * q.z⟩ := by
        intro s t q; simp only [neg3, odd_mul_neg]
      simp only [preUnit, mulVec_neg, equation23_neg, e]
    exact ⟨hz _ (by change eq (norm3 (preUnit (neg3 p) a f R)) _ = true; rw [e, norm3_neg3]; exact h), hz _ h⟩
  · left; rw [p2n_neg p a f R h]

omit hB in
theorem geodetic_neg {a f d : ℝ} {R : M3 ℝ} {n p : V3 ℝ} (h : Geodetic a f R n d p) : Geodetic a f R (-n) d (-p) := by
  obtain ⟨S, hS, ⟨c, hc, hn⟩, rfl⟩ := h
  have e1 : app R (-S) = -app R S := by unfold app dot; ext <;> simp <;> ring
  have e2 : app R (-n) = -app R n := by unfold app dot; ext <;> simp <;> ring
  refine ⟨-S, ?_, ⟨c, hc, ?_⟩, ?_⟩
  · rw [e1]; unfold OnEllipsoid at hS ⊢; refine Eq.trans ?_ hS; simp [neg_div]
  · rw [e1, e2, hn]; unfold gradEllipsoid; ext <;> simp <;> ring
  · rw [len_neg']; ext <;> simp <;> ring

/-- **C119** all positions outside the core of the Earth (half a semi-major axis from the centre or more) up to a thousand semi-major axes
away: the antipode has exactly the opposite n-vector and the same depth -/
theorem C119_antipode_normal_finite {a f : ℝ} {R : M3 ℝ} (hR : IsAxes R) (fa : IsF64 a) (a1 : 1 ≤ a) (a2 : a ≤ 1e10) (ff : IsF64 f)
    (f0 : 0 ≤ f) (f1 : f ≤ 0.01) {p : V3 ℝ} (hp : IsF64V p) (L1 : a / 2 ≤ len p) (L2 : len p ≤ 1000 * a) :
    ∃ (w : V3 ℝ) (D : ℝ), p_EB_E2n_EB_E (p.flt : V3 (F64 B)) (F64.fin a) (F64.fin f) R.flt = (w.flt, F64.fin D) ∧
      p_EB_E2n_EB_E (V3.flt (-p) : V3 (F64 B)) (F64.fin a) (F64.fin f) R.flt = (V3.flt (-w), F64.fin D) := by
  obtain ⟨⟨n, d⟩, ⟨hn, hg, hd⟩, -⟩ := C76_exists_unique hR a1 f0 f1 L1
  have hp' : IsF64V (-p) := ⟨hp.1.neg', hp.2.1.neg', hp.2.2.neg'⟩
  obtain ⟨w, D, e, -, -, h1, h2, h3, -⟩ := C76_p_EB_E2n_EB_E B hR fa a1 a2 ff f0 f1 hp L1 L2 hn hg hd
  have hn' : UnitVec (-n) := by unfold UnitVec at hn ⊢; simpa using hn
  obtain ⟨w', D', e', -, -, h1', h2', h3', -⟩ := C76_p_EB_E2n_EB_E B hR fa a1 a2 ff f0 f1 hp' (by rwa [len_neg']) (by rwa [len_neg']) hn'
    (geodetic_neg hg) hd
  have key := C119_antipode_normal hB p.flt (F64.fin a) (F64.fin f) R.flt
  rw [← flt_neg, e, e'] at key
  refine ⟨w, D, e, ?_⟩
  obtain ⟨k1, k2⟩ := key
  simp only at k1 k2
  rcases k2 with k2 | ⟨k2, k3⟩
  · rw [e', k1, k2, flt_neg]
  · exfalso
    have hw : w' = w := V3.flt_inj (B := B) (k2.trans k3.symm)
    subst hw
    have bnd : ∀ {u t : ℝ}, |u - t| ≤ 3.7e-15 → |u - -t| ≤ 3.7e-15 → t ^ 2 ≤ 1 / 100 := by
      intro u t hu hv
      norm_num at hu hv
      obtain ⟨q1, q2⟩ := abs_le.mp hu
      obtain ⟨q3, q4⟩ := abs_le.mp hv
      have : |t| ≤ 1 / 10 := abs_le.mpr ⟨by linarith, by linarith⟩
      calc t ^ 2 = |t| ^ 2 := (sq_abs t).symm
        _ ≤ (1 / 10) ^ 2 := pow_le_pow_left₀ (abs_nonneg _) this 2
        _ = 1 / 100 := by norm_num
    have b1 := bnd h1 h1'
    have b2 := bnd h2 h2'
    have b3 := bnd h3 h3'
    unfold UnitVec at hn
    linarith

/-- **C119** path objects: the average radius, the great circle and euclidean lengths, membership and the closest point of the great
circle do not depend on the direction; the cross-track distance changes sign -/
theorem C119_paths (G : Geodesic (F64 B)) (P : GeoPath (F64 B)) (pt : Position (F64 B)) (method : String) (radius : Option (F64 B))
    (rtol atol : F64 B) (hm : ¬ (strTake method 2 = "ex" ∨ strTake method 2 = "el")) :
    (reversed P).track_distance G method radius = P.track_distance G method radius ∧
    (reversed P).on_path G pt method rtol atol = P.on_path G pt method rtol atol ∧
    (reversed P).on_great_circle pt atol = P.on_great_circle pt atol ∧
    (reversed P).closest_point_on_great_circle pt = P.closest_point_on_great_circle pt ∧
    (reversed P).cross_track_distance pt method radius = (P.cross_track_distance pt method radius).map (fun d => -d) := by
  have := F64.oddLaws hB.fl
  have ho := F64.arcsin_odd hB
  have hc : ∀ m r, (reversed P).cross_track_distance pt m r = (P.cross_track_distance pt m r).map (fun d => -d) := by
    intro m r
    simp only [GeoPath.cross_track_distance, radiusOr_reversed, normals_reversed]
    exact cross_track_reversed ho _ _ _ _ _
  refine ⟨?_, ?_, ?_, ?_, hc _ _⟩
  · simp only [GeoPath.track_distance, if_neg hm, radiusOr_reversed, normals_reversed, great_circle_distance_symm P.nvector_normals.1,
      euclidean_distance_symm P.nvector_normals.1]
  · simp only [GeoPath.on_path, if_neg hm, path_on_reversed ho]
  · simp only [GeoPath.on_great_circle, hc]
    cases P.cross_track_distance pt "greatcircle" none <;>
      simp [Except.map, bind, Except.bind, pure, Except.pure, o_abs_neg]
  · simp only [GeoPath.closest_point_on_great_circle, closest_nvector_reversed]

/-- **C119** the closest point of a path does not depend on its direction, unless the position is, to the last bit, equally far from both
ends (then the end point the path was given last is returned, see `C112`) -/
theorem C119_closest_point_on_path (P : GeoPath (F64 B)) (pt : Position (F64 B))
    (h : let d := fun p : Position (F64 B) => great_circle_distance p.to_nvector.normal pt.to_nvector.normal P.average_radius
      PyFloat.lt (d P.point_a) (d P.point_b) = true ∨ PyFloat.lt (d P.point_b) (d P.point_a) = true) :
    (reversed P).closest_point_on_path pt = P.closest_point_on_path pt := by
  have := F64.oddLaws hB.fl
  have ho := F64.arcsin_odd hB
  have asym : ∀ x y : F64 B, PyFloat.lt x y = true → PyFloat.lt y x = false := by
    intro x y
    change XR.lt x y = true → XR.lt y x = false
    cases x <;> cases y <;> simp [XR.lt]
    exact le_of_lt
  simp only [GeoPath.closest_point_on_path, closest_nvector_reversed, path_on_reversed ho, average_radius_reversed, normals_reversed]
  split_ifs with h0 h1 h2 h2
  · rfl
  · exact absurd (asym _ _ h1) (by simp [show PyFloat.lt _ _ = true from h2])
  · rfl
  · rfl
  · rcases h with h | h
    · exact absurd h h2
    · exact absurd h h1

end Nv
