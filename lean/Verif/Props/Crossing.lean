import Verif.Props.Poleward
import Verif.Props.Cap
import Verif.Props.PathObjects

/-!
# C158 Where two paths cross, and on which side a path stays
-/

namespace Nv
open Spec Real
open XR (fin)

/-- an interpolated (or extrapolated) position is on the great circle -/
theorem onCircle_interpolate {A B C : V3 ℝ} (hA : UnitVec A) (hB : UnitVec B) (hp : ProperPath A B) {t : ℝ}
    (hC : interpolate (A.fin, B.fin) (fin t) = C.fin) : C = dirOf (mix A B t) ∧ mix A B t ≠ 0 ∧ OnCircle A B C := by
  have hm : mix A B t ≠ 0 := by
    intro h0
    obtain ⟨h1, -⟩ := (mix_zero_iff hA hB t).1 h0
    apply hp
    rw [h1]; ext <;> simp [cross] <;> ring
  rw [interpolate_fin hm, V3.fin_inj] at hC
  refine ⟨hC.symm, hm, hC ▸ dirOf_unit hm, (len (mix A B t))⁻¹ * (1 - t), (len (mix A B t))⁻¹ * t, ?_⟩
  rw [← hC]
  unfold dirOf
  rw [mix_eq]
  generalize (len ((1 - t) • A + t • B))⁻¹ = k
  ext <;> simp <;> ring

/-- two great circles have only two positions in common -/
theorem common_pm {A1 A2 B1 B2 C Q : V3 ℝ} (hA : ProperPath A1 A2) (hB : ProperPath B1 B2)
    (hw : cross (cross A1 A2) (cross B1 B2) ≠ 0) (c1 : OnCircle A1 A2 C) (c2 : OnCircle B1 B2 C) (q1 : OnCircle A1 A2 Q)
    (q2 : OnCircle B1 B2 Q) : Q = C ∨ Q = -C := by
  have key : ∀ P, OnCircle A1 A2 P → OnCircle B1 B2 P → ∃ c : ℝ, P = c • cross (cross A1 A2) (cross B1 B2) := by
    intro P h1 h2
    apply cross_eq_zero_smul hw
    rw [cross_cross', dot_comm P, dot_comm P, ((onCircle_iff hA).mp h1).2, ((onCircle_iff hB).mp h2).2]; ext <;> simp
  obtain ⟨c, hc⟩ := key C c1 c2
  obtain ⟨q, hq⟩ := key Q q1 q2
  have l1 : dot C C = 1 := c1.1.dot
  have l2 : dot Q Q = 1 := q1.1.dot
  have e1 : c ^ 2 * dot (cross (cross A1 A2) (cross B1 B2)) (cross (cross A1 A2) (cross B1 B2)) = 1 := by
    rw [← l1, hc]; unfold dot; simp; ring
  have e2 : q ^ 2 * dot (cross (cross A1 A2) (cross B1 B2)) (cross (cross A1 A2) (cross B1 B2)) = 1 := by
    rw [← l2, hq]; unfold dot; simp; ring
  have hd : dot (cross (cross A1 A2) (cross B1 B2)) (cross (cross A1 A2) (cross B1 B2)) ≠ 0 := by
    intro h; rw [h] at e1; simp at e1
  have : q ^ 2 = c ^ 2 := mul_right_cancel₀ hd (e2.trans e1.symm)
  rcases sq_eq_sq_iff_eq_or_eq_neg.1 this with h | h
  · left; rw [hq, hc, h]
  · right; rw [hq, hc, h]; ext <;> simp

/-- `intersect` from a common position: the one on the side of the first end -/
theorem intersect_common {A1 A2 B1 B2 C : V3 ℝ} (hA : ProperPath A1 A2) (hB : ProperPath B1 B2)
    (hw : cross (cross A1 A2) (cross B1 B2) ≠ 0) (c1 : OnCircle A1 A2 C) (c2 : OnCircle B1 B2 C) :
    (0 < dot C A1 → intersect (A1.fin, A2.fin) (B1.fin, B2.fin) = C.fin) ∧
    (dot C A1 = 0 → intersect (A1.fin, A2.fin) (B1.fin, B2.fin) = (0 : V3 ℝ).fin) ∧
    (dot C A1 < 0 → intersect (A1.fin, A2.fin) (B1.fin, B2.fin) = (-C).fin) := by
  obtain ⟨w1, w2⟩ := onCircle_w hw
  rw [intersect_fin hw]
  rcases common_pm hA hB hw c1 c2 w1 w2 with h | h
  · rw [h]
    refine ⟨fun p => ?_, fun p => ?_, fun p => ?_⟩
    · rw [XR.sign_pos p, scale3_fin]; congr 1; ext <;> simp
    · rw [p, XR.sign_zero, scale3_fin]; congr 1; ext <;> simp
    · rw [XR.sign_neg p, scale3_fin]; congr 1; ext <;> simp
  · rw [h]
    refine ⟨fun p => ?_, fun p => ?_, fun p => ?_⟩
    · rw [XR.sign_neg (by rw [dot_neg_left]; linarith), scale3_fin]; congr 1; ext <;> simp
    · rw [dot_neg_left, p, neg_zero, XR.sign_zero, scale3_fin]; congr 1; ext <;> simp
    · rw [XR.sign_pos (by rw [dot_neg_left]; linarith), scale3_fin]; congr 1; ext <;> simp

/-! ## C158 -/

section
variable {A1 A2 B1 B2 : V3 ℝ} (hA1 : UnitVec A1) (hA2 : UnitVec A2) (hB1 : UnitVec B1) (hB2 : UnitVec B2)
  (hA : ProperPath A1 A2) (hB : ProperPath B1 B2)
include hA1 hA2 hB1 hB2 hA hB

/-- **C158** two paths through the position `C`: `intersect` returns `C` exactly if it is less than a quarter of the way round from the
beginning of the first path; the zero vector at exactly a quarter; the antipode of `C` beyond -/
theorem C158_crossing (hne : ¬ SameCircle A1 A2 B1 B2) {C : V3 ℝ} {s t : ℝ} (hs : interpolate (A1.fin, A2.fin) (fin s) = C.fin)
    (ht : interpolate (B1.fin, B2.fin) (fin t) = C.fin) {r d : ℝ} (hr : 0 < r)
    (hd : great_circle_distance A1.fin C.fin (fin r) = fin d) :
    (d < π / 2 * r ↔ intersect (A1.fin, A2.fin) (B1.fin, B2.fin) = C.fin) ∧
    (d = π / 2 * r ↔ intersect (A1.fin, A2.fin) (B1.fin, B2.fin) = (0 : V3 ℝ).fin) ∧
    (π / 2 * r < d ↔ intersect (A1.fin, A2.fin) (B1.fin, B2.fin) = (-C).fin) := by
  have hw : cross (cross A1 A2) (cross B1 B2) ≠ 0 := fun h => hne ((normals_parallel_iff hA hB).mp h)
  obtain ⟨-, -, c1⟩ := onCircle_interpolate hA1 hA2 hA hs
  obtain ⟨-, -, c2⟩ := onCircle_interpolate hB1 hB2 hB ht
  obtain ⟨p, q, n⟩ := intersect_common hA hB hw c1 c2
  rw [C18_eq_angle _ _ hA1.ne c1.1.ne, XR.fin_inj] at hd
  have hc : dot C A1 = cos (angle A1 C) := by rw [cos_angle_unit hA1 c1.1, dot_comm]
  have hpi := Real.pi_pos
  have C0 : C ≠ 0 := c1.1.ne
  have C1 : C ≠ -C := by
    intro h; apply C0
    have hx := congrArg V3.x h; have hy := congrArg V3.y h; have hz := congrArg V3.z h
    simp at hx hy hz
    ext <;> simp <;> linarith
  have C2 : -C ≠ 0 := fun h => C0 (by
    have hx := congrArg V3.x h; have hy := congrArg V3.y h; have hz := congrArg V3.z h
    simp at hx hy hz
    ext <;> simp [hx, hy, hz])
  have f1 : d < π / 2 * r → 0 < dot C A1 := by
    intro h
    rw [hc]; refine Real.cos_pos_of_mem_Ioo ⟨by linarith [angle_nonneg A1 C], ?_⟩
    rw [← hd] at h; exact lt_of_mul_lt_mul_right h hr.le
  have f2 : d = π / 2 * r → dot C A1 = 0 := by
    intro h
    rw [← hd] at h
    rw [hc, mul_right_cancel₀ hr.ne' h, Real.cos_pi_div_two]
  have f3 : π / 2 * r < d → dot C A1 < 0 := by
    intro h
    rw [← hd] at h
    rw [hc]; exact Real.cos_neg_of_pi_div_two_lt_of_lt (lt_of_mul_lt_mul_right h hr.le) (by linarith [angle_le_pi A1 C])
  refine ⟨⟨fun h => p (f1 h), fun h => ?_⟩, ⟨fun h => q (f2 h), fun h => ?_⟩, ⟨fun h => n (f3 h), fun h => ?_⟩⟩
  · by_contra hlt
    rcases (not_lt.1 hlt).eq_or_lt with e | e
    · rw [q (f2 e.symm), V3.fin_inj] at h; exact C0 h.symm
    · rw [n (f3 e), V3.fin_inj] at h; exact C1 h.symm
  · by_contra hn
    rcases lt_or_gt_of_ne hn with e | e
    · rw [p (f1 e), V3.fin_inj] at h; exact C0 h
    · rw [n (f3 e), V3.fin_inj] at h; exact C2 h
  · by_contra hlt
    rcases (not_lt.1 hlt).eq_or_lt with e | e
    · rw [q (f2 e), V3.fin_inj] at h; exact C2 h.symm
    · rw [p (f1 e), V3.fin_inj] at h; exact C1 h

/-- **C158** so `intersect` finds the crossing of every first path that is shorter than a quarter of the way round -/
theorem C158_short (hne : ¬ SameCircle A1 A2 B1 B2) {C : V3 ℝ} {s t : ℝ} (hs0 : 0 ≤ s) (hs1 : s ≤ 1)
    (hs : interpolate (A1.fin, A2.fin) (fin s) = C.fin)
    (ht : interpolate (B1.fin, B2.fin) (fin t) = C.fin) {r d : ℝ} (hr : 0 < r)
    (hd : great_circle_distance A1.fin A2.fin (fin r) = fin d) (hshort : d < π / 2 * r) :
    intersect (A1.fin, A2.fin) (B1.fin, B2.fin) = C.fin := by
  obtain ⟨P, d1, d2, d', h1, h2, h3, h4, h5⟩ := C26_additive A1 A2 hA1 hA2 hA r s hs0 hs1
  rw [hs, V3.fin_inj] at h1
  subst h1
  obtain ⟨-, -, c1⟩ := onCircle_interpolate hA1 hA2 hA hs
  rw [hd, XR.fin_inj] at h4
  have h6 : 0 ≤ d2 := by
    rw [C18_eq_angle _ _ c1.1.ne hA2.ne, XR.fin_inj] at h3
    rw [← h3]; exact mul_nonneg (angle_nonneg _ _) hr.le
  exact ((C158_crossing hA1 hA2 hB1 hB2 hA hB hne hs ht hr h2).1).1 (by linarith)

omit hB in
/-- **C158** a path whose ends are both to the right of a great circle stays there, at least as far away as the nearer end; likewise to
the left -/
theorem C158_same_side {r b1 b2 : ℝ} (hr : 0 < r) (h1 : cross_track_distance (A1.fin, A2.fin) B1.fin (radius := fin r) = .ok (fin b1))
    (h2 : cross_track_distance (A1.fin, A2.fin) B2.fin (radius := fin r) = .ok (fin b2)) {t : ℝ} (ht0 : 0 ≤ t) (ht1 : t ≤ 1) :
    (0 < b1 → 0 < b2 → ∃ (P : V3 ℝ) (x : ℝ), interpolate (B1.fin, B2.fin) (fin t) = P.fin ∧
      cross_track_distance (A1.fin, A2.fin) P.fin (radius := fin r) = .ok (fin x) ∧ min b1 b2 ≤ x) ∧
    (b1 < 0 → b2 < 0 → ∃ (P : V3 ℝ) (x : ℝ), interpolate (B1.fin, B2.fin) (fin t) = P.fin ∧
      cross_track_distance (A1.fin, A2.fin) P.fin (radius := fin r) = .ok (fin x) ∧ x ≤ max b1 b2) := by
  rw [cross_track_fin hA hB1, Except.ok.injEq, XR.fin_inj] at h1
  rw [cross_track_fin hA hB2, Except.ok.injEq, XR.fin_inj] at h2
  set k := dirOf (cross A1 A2) with hk
  have ku : UnitVec k := hA.dirOf_unit
  have n1 := neg_dot_range ku hB1
  have n2 := neg_dot_range ku hB2
  constructor
  · intro p1 p2
    rw [← h1] at p1; rw [← h2] at p2
    have q1 : 0 < -dot k B1 := Real.arcsin_pos.1 (pos_of_mul_pos_left p1 hr.le)
    have q2 : 0 < -dot k B2 := Real.arcsin_pos.1 (pos_of_mul_pos_left p2 hr.le)
    obtain ⟨hm, hge, -⟩ := mix_side (k := -k) (s := min (-dot k B1) (-dot k B2)) hB1 hB2 (lt_min q1 q2)
      (by rw [dot_neg_left]; exact min_le_left _ _) (by rw [dot_neg_left]; exact min_le_right _ _) ht0 ht1
    refine ⟨_, _, interpolate_fin hm, cross_track_fin hA (dirOf_unit hm) r, ?_⟩
    rw [dot_neg_left] at hge
    rw [← h1, ← h2, ← min_mul_of_nonneg _ _ hr.le]
    refine mul_le_mul_of_nonneg_right ?_ hr.le
    rw [← Real.monotone_arcsin.map_min]
    exact Real.monotone_arcsin hge
  · intro p1 p2
    rw [← h1] at p1; rw [← h2] at p2
    have q1 : -dot k B1 < 0 := Real.arcsin_lt_zero.1 (by nlinarith)
    have q2 : -dot k B2 < 0 := Real.arcsin_lt_zero.1 (by nlinarith)
    obtain ⟨hm, hge, -⟩ := mix_side (k := k) (s := min (dot k B1) (dot k B2)) hB1 hB2 (lt_min (by linarith) (by linarith))
      (min_le_left _ _) (min_le_right _ _) ht0 ht1
    refine ⟨_, _, interpolate_fin hm, cross_track_fin hA (dirOf_unit hm) r, ?_⟩
    rw [← h1, ← h2, ← max_mul_of_nonneg _ _ hr.le]
    refine mul_le_mul_of_nonneg_right ?_ hr.le
    rw [← Real.monotone_arcsin.map_max]
    apply Real.monotone_arcsin
    rw [max_neg_neg]; linarith

end

/-- a number between two numbers of opposite sign is where the straight line is zero -/
theorem crossing_weight {a b : ℝ} (h : a * b < 0) : 0 < a / (a - b) ∧ a / (a - b) < 1 ∧ (1 - a / (a - b)) * a + a / (a - b) * b = 0 := by
  have hne : a - b ≠ 0 := by
    intro e
    have : a = b := by linarith
    rw [this] at h; nlinarith [mul_self_nonneg b]
  refine ⟨?_, ?_, by field_simp; ring⟩
  · rcases lt_or_gt_of_ne hne with n | p
    · exact div_pos_of_neg_of_neg (by nlinarith) n
    · exact div_pos (by nlinarith) p
  · rcases lt_or_gt_of_ne hne with n | p
    · rw [div_lt_one_of_neg n]; nlinarith
    · rw [div_lt_one p]; nlinarith

/-- the place where a path between two positions of a cap passes through a great circle that separates them -/
theorem cap_crossing {u : V3 ℝ} (hu : UnitVec u) {r x : ℝ} (hr : 0 < r) (hx : x < π / 2 * r) {A1 A2 B1 B2 : V3 ℝ} (wB1 : Within u r x B1)
    (wB2 : Within u r x B2) (hA : ProperPath A1 A2) (hB : ProperPath B1 B2)
    {b1 b2 : ℝ} (h1 : cross_track_distance (A1.fin, A2.fin) B1.fin (radius := fin r) = .ok (fin b1))
    (h2 : cross_track_distance (A1.fin, A2.fin) B2.fin (radius := fin r) = .ok (fin b2)) (hb : b1 * b2 < 0) :
    ∃ (C : V3 ℝ) (t : ℝ), 0 < t ∧ t < 1 ∧ interpolate (B1.fin, B2.fin) (fin t) = C.fin ∧ OnCircle A1 A2 C ∧ OnCircle B1 B2 C ∧
      Within u r x C ∧ 0 < dot u C := by
  rw [cross_track_fin hA wB1.1, Except.ok.injEq, XR.fin_inj] at h1
  rw [cross_track_fin hA wB2.1, Except.ok.injEq, XR.fin_inj] at h2
  have hdd : (-dot (dirOf (cross A1 A2)) B1) * (-dot (dirOf (cross A1 A2)) B2) < 0 := by
    rw [← h1, ← h2] at hb
    have hr2 : 0 < r * r := mul_pos hr hr
    rcases mul_neg_iff.1 hb with ⟨p, q⟩ | ⟨p, q⟩
    · exact mul_neg_of_pos_of_neg (Real.arcsin_pos.1 (pos_of_mul_pos_left p hr.le)) (Real.arcsin_lt_zero.1 (by nlinarith))
    · exact mul_neg_of_neg_of_pos (Real.arcsin_lt_zero.1 (by nlinarith)) (Real.arcsin_pos.1 (pos_of_mul_pos_left q hr.le))
  obtain ⟨t0, t1, te⟩ := crossing_weight hdd
  generalize -dot (dirOf (cross A1 A2)) B1 / (-dot (dirOf (cross A1 A2)) B1 - -dot (dirOf (cross A1 A2)) B2) = t at *
  obtain ⟨hm, hwi⟩ := mix_within hu hr hx wB1 wB2 t0.le t1.le
  have hi := interpolate_fin (A := B1) (B := B2) (t := t) hm
  obtain ⟨-, -, cB⟩ := onCircle_interpolate wB1.1 wB2.1 hB hi
  refine ⟨_, t, t0, t1, hi, ?_, cB, hwi, ?_⟩
  · have hz : dot (dirOf (cross A1 A2)) (mix B1 B2 t) = 0 := by rw [dot_mix]; linarith
    rw [dot_dirOf_left] at hz
    have hl := inv_pos.2 (len_pos (show cross A1 A2 ≠ 0 from hA))
    have hz' : dot (cross A1 A2) (mix B1 B2 t) = 0 := (mul_eq_zero.1 hz).resolve_left hl.ne'
    rw [onCircle_iff hA]
    refine ⟨dirOf_unit hm, ?_⟩
    rw [dot_dirOf_right]
    simp [hz', dot_comm]
  · have hx0 := wB1.nonneg hu hr
    have hc := (within_iff hu hwi.1 hr hx0 (by nlinarith [Real.pi_pos, mul_pos Real.pi_pos hr])).1 hwi
    refine lt_of_lt_of_le (Real.cos_pos_of_mem_Ioo ⟨?_, ?_⟩) hc
    · have : 0 ≤ x / r := by positivity
      linarith [Real.pi_pos]
    · rw [div_lt_iff₀ hr]; exact hx

/-- **C158** two paths in a region of radius less than an eighth of the circumference whose ends lie on different sides of the other one:
they have exactly one position in common, strictly between the ends of both and inside the region, and `intersect` returns it -/
theorem C158_region {u : V3 ℝ} (hu : UnitVec u) {r x : ℝ} (hr : 0 < r) (hx : x < π / 4 * r) {A1 A2 B1 B2 : V3 ℝ} (wA1 : Within u r x A1)
    (wA2 : Within u r x A2) (wB1 : Within u r x B1) (wB2 : Within u r x B2) (hA : ProperPath A1 A2) (hB : ProperPath B1 B2)
    {a1 a2 b1 b2 : ℝ} (h1 : cross_track_distance (A1.fin, A2.fin) B1.fin (radius := fin r) = .ok (fin b1))
    (h2 : cross_track_distance (A1.fin, A2.fin) B2.fin (radius := fin r) = .ok (fin b2)) (hb : b1 * b2 < 0)
    (h3 : cross_track_distance (B1.fin, B2.fin) A1.fin (radius := fin r) = .ok (fin a1))
    (h4 : cross_track_distance (B1.fin, B2.fin) A2.fin (radius := fin r) = .ok (fin a2)) (ha : a1 * a2 < 0) :
    ∃ (C : V3 ℝ) (s t : ℝ), 0 < s ∧ s < 1 ∧ 0 < t ∧ t < 1 ∧ interpolate (A1.fin, A2.fin) (fin s) = C.fin ∧
      interpolate (B1.fin, B2.fin) (fin t) = C.fin ∧ Within u r x C ∧
      intersect (A1.fin, A2.fin) (B1.fin, B2.fin) = C.fin ∧ intersect (B1.fin, B2.fin) (A1.fin, A2.fin) = C.fin ∧
      ∀ Q, OnArc A1 A2 Q → OnArc B1 B2 Q → Q = C := by
  have hpi := Real.pi_pos
  have hx2 : x < π / 2 * r := by nlinarith [mul_pos hpi hr]
  obtain ⟨C, t, t0, t1, it, cA, cB, wC, uC⟩ := cap_crossing hu hr hx2 wB1 wB2 hA hB h1 h2 hb
  obtain ⟨D, s, s0, s1, is, dB, dA, wD, uD⟩ := cap_crossing hu hr hx2 wA1 wA2 hB hA h3 h4 ha
  have hw : cross (cross A1 A2) (cross B1 B2) ≠ 0 := by
    intro h0
    have hsame := (normals_parallel_iff hA hB).1 h0
    have hB1 : OnCircle A1 A2 B1 := (hsame B1).2 ⟨wB1.1, 1, 0, by ext <;> simp⟩
    rw [cross_track_fin hA wB1.1, Except.ok.injEq, XR.fin_inj, dot_dirOf_left, ((onCircle_iff hA).1 hB1).2] at h1
    rw [← h1] at hb
    simp at hb
  have hw' : cross (cross B1 B2) (cross A1 A2) ≠ 0 := by
    intro h0; apply hw
    have e : cross (cross A1 A2) (cross B1 B2) = -cross (cross B1 B2) (cross A1 A2) := by ext <;> simp [cross] <;> ring
    rw [e, h0]; ext <;> simp
  have only : ∀ Q, OnCircle A1 A2 Q → OnCircle B1 B2 Q → 0 < dot u Q → Q = C := by
    intro Q q1 q2 q3
    rcases common_pm hA hB hw cA cB q1 q2 with h | h
    · exact h
    · rw [h, dot_neg_right] at q3; linarith
  have hDC : D = C := only D dA dB uD
  subst hDC
  have near : ∀ P, Within u r x P → 0 < dot D P := by
    intro P wP
    obtain ⟨hD, d, hd, hdx⟩ := wD
    obtain ⟨hP, p, hp, hpx⟩ := wP
    rw [C18_eq_angle _ _ hu.ne hD.ne, XR.fin_inj] at hd
    rw [C18_eq_angle _ _ hu.ne hP.ne, XR.fin_inj] at hp
    have htri := angle_triangle hD hu hP
    rw [angle_comm D u] at htri
    rw [← cos_angle_unit hD hP]
    refine Real.cos_pos_of_mem_Ioo ⟨by linarith [angle_nonneg D P], ?_⟩
    have : angle D P * r < π / 2 * r := by nlinarith
    exact lt_of_mul_lt_mul_right this hr.le
  refine ⟨D, s, t, s0, s1, t0, t1, is, it, wD, (intersect_common hA hB hw cA cB).1 (near _ wA1),
    (intersect_common hB hA hw' cB cA).1 (near _ wB1), ?_⟩
  rintro Q ⟨q0, k1, k2, p1, p2, qe⟩ ⟨-, m1, m2, -, -, qe'⟩
  have hQA : OnCircle A1 A2 Q := ⟨q0, k1, k2, qe⟩
  refine only Q hQA ⟨q0, m1, m2, qe'⟩ ?_
  have up : ∀ P, Within u r x P → 0 < dot u P := by
    intro P wP
    have hx0 := wP.nonneg hu hr
    have hc := (within_iff hu wP.1 hr hx0 (by nlinarith [mul_pos hpi hr])).1 wP
    refine lt_of_lt_of_le (Real.cos_pos_of_mem_Ioo ⟨?_, ?_⟩) hc
    · have : 0 ≤ x / r := by positivity
      linarith
    · rw [div_lt_iff₀ hr]; exact hx2
  have hk : k1 ≠ 0 ∨ k2 ≠ 0 := by
    by_contra hn
    push Not at hn
    apply q0.ne
    rw [qe, hn.1, hn.2]; ext <;> simp
  have e : dot u Q = k1 * dot u A1 + k2 * dot u A2 := by rw [qe]; unfold dot; simp; ring
  rw [e]
  have u1 := up _ wA1
  have u2 := up _ wA2
  rcases hk with h | h
  · have := mul_pos (lt_of_le_of_ne p1 h.symm) u1
    have := mul_nonneg p2 u2.le
    linarith
  · have := mul_pos (lt_of_le_of_ne p2 h.symm) u2
    have := mul_nonneg p1 u1.le
    linarith

end Nv
