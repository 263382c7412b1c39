import Verif.Props.GeoPath
import Verif.Spec.LongPath

/-!
# What `on_great_circle_path` and `closest_point_on_path` do on every path (C141)
-/

namespace Nv
open Spec Real
open XR (fin)

/-- coordinates in the plane of a path are unique -/
theorem coeff_unique {A B : V3 ℝ} (hp : ProperPath A B) {s t s' t' : ℝ} (e : s • A + t • B = s' • A + t' • B) : s = s' ∧ t = t' := by
  have hx := congrArg V3.x e; have hy := congrArg V3.y e; have hz := congrArg V3.z e
  simp at hx hy hz
  have k1 : (s - s') • cross A B = 0 := by
    ext <;> simp [cross, -mul_eq_zero]
    · linear_combination B.z * hy - B.y * hz
    · linear_combination B.x * hz - B.z * hx
    · linear_combination B.y * hx - B.x * hy
  have k2 : (t - t') • cross A B = 0 := by
    ext <;> simp [cross, -mul_eq_zero]
    · linear_combination A.y * hz - A.z * hy
    · linear_combination A.z * hx - A.x * hz
    · linear_combination A.x * hy - A.y * hx
  have zero : ∀ k : ℝ, k • cross A B = 0 → k = 0 := by
    intro k hk
    by_contra h
    have := congrArg len hk
    rw [len_smul, len_eq_zero.2 rfl, mul_eq_zero, abs_eq_zero] at this
    exact this.elim h (len_pos hp).ne'
  exact ⟨sub_eq_zero.1 (zero _ k1), sub_eq_zero.1 (zero _ k2)⟩

/-- coordinates along the midpoint: `P = s A + t B` is at the angle `ψ` from the midpoint -/
theorem mid_coords {A B P : V3 ℝ} (hA : UnitVec A) (hB : UnitVec B) (hp : ProperPath A B) (hP : UnitVec P) {s t : ℝ} (e : P = s • A + t • B) :
    0 < angle A B / 2 ∧ angle A B / 2 < π / 2 ∧ cos (angle P (A + B)) = (s + t) * cos (angle A B / 2) ∧
      sin (angle P (A + B)) = |(t - s) * sin (angle A B / 2)| ∧ angle P (-(A + B)) = π - angle P (A + B) ∧
      dot P A = cos (angle P (A + B)) * cos (angle A B / 2) - (t - s) * sin (angle A B / 2) * sin (angle A B / 2) ∧
      dot P B = cos (angle P (A + B)) * cos (angle A B / 2) + (t - s) * sin (angle A B / 2) * sin (angle A B / 2) := by
  have hc2 := ProperPath.dot_lt_one hA hB hp
  have hc1 : dot A B < 1 := by nlinarith
  have hcm : -1 < dot A B := by nlinarith
  have hcos := cos_angle_unit hA hB
  have h0 := angle_nonneg A B
  have hpi := angle_le_pi A B
  have p1 : 0 < angle A B := by
    rcases h0.lt_or_eq with h | h
    · exact h
    · rw [← h, cos_zero] at hcos; linarith
  have p2 : angle A B < π := by
    rcases hpi.lt_or_eq with h | h
    · exact h
    · rw [h, cos_pi] at hcos; linarith
  generalize hh : angle A B / 2 = h at *
  have h1 : 0 < h := by rw [← hh]; linarith
  have h2 : h < π / 2 := by rw [← hh]; linarith
  have hC : 0 < cos h := cos_pos_of_mem_Ioo ⟨by linarith, h2⟩
  have hc : dot A B = 2 * cos h ^ 2 - 1 := by rw [← hcos, ← cos_two_mul, ← hh]; congr 1; ring
  have hs2 := sin_sq_add_cos_sq h
  obtain ⟨ha, hb⟩ := arc_coeff hA hB e
  have hq : s ^ 2 + t ^ 2 + 2 * s * t * dot A B = 1 := by
    have hn : s * dot P A + t * dot P B = 1 := by
      rw [← hP.dot]; conv_rhs => rw [e, dot_add_left, dot_smul_left, dot_smul_left, ← e]
      rw [dot_comm P A, dot_comm P B]
    rw [ha, hb] at hn
    linear_combination hn
  have hl : len (A + B) = 2 * cos h := by
    have : len (A + B) ^ 2 = (2 * cos h) ^ 2 := by
      rw [len_sq]
      have e1 : dot (A + B) (A + B) = 2 + 2 * dot A B := by
        rw [dot_add_left, dot_add_right, dot_add_right, hA.dot, hB.dot, dot_comm B A]; ring
      have e2 : (A + B).x ^ 2 + (A + B).y ^ 2 + (A + B).z ^ 2 = dot (A + B) (A + B) := by unfold dot; ring
      rw [e2, e1, hc]; ring
    nlinarith [len_nonneg (A + B)]
  have hm0 : A + B ≠ 0 := fun h' => by rw [h', len_eq_zero.2 rfl] at hl; linarith
  have hca : cos (angle P (A + B)) = (s + t) * cos h := by
    have h3 := cos_angle hP.ne hm0
    rw [hP.len, hl, dot_add_right, ha, hb, hc] at h3
    have : cos h * (cos (angle P (A + B)) - (s + t) * cos h) = 0 := by linear_combination h3 / 2
    rcases mul_eq_zero.1 this with h4 | h4 <;> linarith
  refine ⟨h1, h2, hca, ?_, ?_, ?_, ?_⟩
  · have h3 : 0 ≤ sin (angle P (A + B)) := sin_nonneg_of_nonneg_of_le_pi (angle_nonneg _ _) (angle_le_pi _ _)
    have h4 : sin (angle P (A + B)) ^ 2 = ((t - s) * sin h) ^ 2 := by
      have h5 := sin_sq_add_cos_sq (angle P (A + B))
      rw [hca] at h5
      rw [hc] at hq
      linear_combination h5 - hq - (t - s) ^ 2 * hs2
    rw [← abs_of_nonneg h3]
    exact (sq_eq_sq_iff_abs_eq_abs _ _).1 h4
  · unfold angle
    rw [show dot P (-(A + B)) = -dot P (A + B) by simp [dot]; ring, show len (-(A + B)) = len (A + B) by unfold len; congr 1; simp; ring, neg_div, arccos_neg]
  · rw [hca, ha, hc]; linear_combination (t - s) * hs2
  · rw [hca, hb, hc]; linear_combination (s - t) * hs2

/-- on the circle, the acceptance test singles out two arcs -/
theorem two_arcs {A B P : V3 ℝ} (hA : UnitVec A) (hB : UnitVec B) (hp : ProperPath A B) (hP : OnCircle A B P) :
    (dot A B ≤ dot P A ∧ dot A B ≤ dot P B ↔ OnArc A B P ∨ OnFarArc A B P) ∧ ¬ (OnArc A B P ∧ OnFarArc A B P) := by
  obtain ⟨hPu, s, t, e⟩ := id hP
  obtain ⟨h1, h2, hc, hs, hn, ha, hb⟩ := mid_coords hA hB hp hPu e
  have g0 := angle_nonneg P (A + B)
  have g1 := angle_le_pi P (A + B)
  have hcos : dot A B = cos (2 * (angle A B / 2)) := by rw [← cos_angle_unit hA hB]; congr 1; ring
  have hf : OnFarArc A B P ↔ 2 * π - 3 * (angle A B / 2) ≤ angle P (A + B) := by
    unfold OnFarArc
    rw [hn]
    constructor
    · rintro ⟨-, h⟩; linarith
    · intro h; exact ⟨hP, by linarith⟩
  rw [hf, hcos, ha, hb]
  have hS : 0 < sin (angle A B / 2) := sin_pos_of_pos_of_lt_pi h1 (by linarith)
  have hC : 0 < cos (angle A B / 2) := cos_pos_of_mem_Ioo ⟨by linarith, h2⟩
  generalize angle A B / 2 = h at *
  generalize angle P (A + B) = g at *
  have harc : OnArc A B P ↔ g ≤ h := by
    have h3 : OnArc A B P ↔ 0 ≤ s ∧ 0 ≤ t := by
      constructor
      · rintro ⟨-, s', t', hs', ht', e'⟩
        obtain ⟨u, v⟩ := coeff_unique hp (e.symm.trans e')
        subst u v; exact ⟨hs', ht'⟩
      · rintro ⟨u, v⟩; exact ⟨hPu, s, t, u, v, e⟩
    have h4 : 0 ≤ s ∧ 0 ≤ t ↔ |t - s| ≤ s + t := by
      rw [abs_le]; constructor
      · rintro ⟨u, v⟩; constructor <;> linarith
      · rintro ⟨u, v⟩; constructor <;> linarith
    have h5 : |t - s| ≤ s + t ↔ 0 ≤ sin (h - g) := by
      rw [sin_sub, hc, hs, abs_mul, abs_of_pos hS]
      have : sin h * ((s + t) * cos h) - cos h * (|t - s| * sin h) = sin h * cos h * (s + t - |t - s|) := by ring
      rw [this]
      constructor
      · intro h6; exact mul_nonneg (mul_nonneg hS.le hC.le) (by linarith)
      · intro h6; have := nonneg_of_mul_nonneg_right h6 (mul_pos hS hC); linarith
    rw [h3, h4, h5]
    constructor
    · intro h6
      by_contra h7
      push Not at h7
      have : 0 < sin (g - h) := sin_pos_of_pos_of_lt_pi (by linarith) (by linarith)
      rw [← neg_sub, sin_neg] at this
      linarith
    · intro h6; exact sin_nonneg_of_nonneg_of_le_pi (by linarith) (by linarith)
  have hmin : cos (2 * h) ≤ cos g * cos h - (t - s) * sin h * sin h ∧ cos (2 * h) ≤ cos g * cos h + (t - s) * sin h * sin h ↔
      cos (2 * h) ≤ cos (g + h) := by
    rw [cos_add g h, hs, abs_mul, abs_of_pos hS]
    rcases abs_cases (t - s) with ⟨h6, h7⟩ | ⟨h6, h7⟩ <;> rw [h6]
    · have := mul_nonneg (mul_nonneg h7 hS.le) hS.le
      constructor
      · rintro ⟨u, v⟩; linarith
      · intro u; constructor <;> linarith
    · have := mul_nonneg (mul_nonneg (neg_nonneg.2 h7.le) hS.le) hS.le
      constructor
      · rintro ⟨u, v⟩; linarith
      · intro u; constructor <;> linarith
  rw [harc, hmin]
  refine ⟨?_, by rintro ⟨u, v⟩; linarith⟩
  constructor
  · intro h6
    by_contra h7
    push Not at h7
    obtain ⟨h8, h9⟩ := h7
    rcases le_total (g + h) π with h10 | h10
    · have := cos_lt_cos_of_nonneg_of_le_pi (x := 2 * h) (y := g + h) (by linarith) h10 (by linarith)
      linarith
    · have := cos_lt_cos_of_nonneg_of_le_pi (x := 2 * h) (y := 2 * π - (g + h)) (by linarith) (by linarith) (by linarith)
      rw [cos_two_pi_sub] at this
      linarith
  · rintro (h6 | h6)
    · exact cos_le_cos_of_nonneg_of_le_pi (by linarith) (by linarith) (by linarith)
    · rw [← cos_two_pi_sub (g + h)]
      exact cos_le_cos_of_nonneg_of_le_pi (by linarith) (by linarith) (by linarith)

/-- **C141** for every path `on_great_circle_path` with zero tolerance accepts exactly the positions on the shorter arc between the end points,
and those of a second arc on the other side of the globe: the positions of the great circle within `(3 θ - 360°) / 2` of the antipode of
the midpoint, `θ` being the length of the path.  The two arcs have no position in common. -/
theorem C141_on_path (A B P : V3 ℝ) (hA : UnitVec A) (hB : UnitVec B) (hp : ProperPath A B) (hP : UnitVec P) (r : ℝ) (hr : 0 < r) :
    (on_great_circle_path (A.fin, B.fin) P.fin (fin r) (fin 0) = true ↔ OnArc A B P ∨ OnFarArc A B P) ∧ ¬ (OnArc A B P ∧ OnFarArc A B P) := by
  rw [on_great_circle_path_fin hA hB hp hP, C22_zero_tolerance A B P hp hP r hr]
  constructor
  · constructor
    · rintro ⟨h1, h2, h3⟩; exact (two_arcs hA hB hp h3).1.1 ⟨h1, h2⟩
    · intro h
      have h3 : OnCircle A B P := h.elim (fun h => h.onCircle) (fun h => h.1)
      obtain ⟨h1, h2⟩ := (two_arcs hA hB hp h3).1.2 h
      exact ⟨h1, h2, h3⟩
  · rintro ⟨h1, h2⟩; exact (two_arcs hA hB hp h1.onCircle).2 ⟨h1, h2⟩

/-- **C141** shorter paths have no second arc; the second arc of every path of 120 degrees or more contains the antipode of its midpoint -/
theorem C141_far_arc (A B : V3 ℝ) (hA : UnitVec A) (hB : UnitVec B) (hp : ProperPath A B) :
    (∃ P, OnFarArc A B P) ↔ 2 * π / 3 ≤ angle A B := by
  constructor
  · rintro ⟨P, -, h⟩
    linarith [angle_nonneg P (-(A + B))]
  · intro h
    have hm0 : A + B ≠ 0 := by
      obtain ⟨-, h2, -⟩ := mid_coords (s := 1) (t := 0) hA hB hp hA (by ext <;> simp)
      intro h0
      have e : B = -A := by
        have hx := congrArg V3.x h0; have hy := congrArg V3.y h0; have hz := congrArg V3.z h0
        simp at hx hy hz
        ext <;> simp <;> linarith
      apply hp
      rw [e]; ext <;> simp [cross] <;> ring
    have hn0 : -(A + B) ≠ 0 := fun h0 => hm0 (by
      have hx := congrArg V3.x h0; have hy := congrArg V3.y h0; have hz := congrArg V3.z h0
      simp at hx hy hz
      ext <;> simp <;> linarith)
    refine ⟨dirOf (-(A + B)), ⟨dirOf_unit hn0, -(len (-(A + B)))⁻¹, -(len (-(A + B)))⁻¹, ?_⟩, ?_⟩
    · unfold dirOf; ext <;> simp <;> ring
    · have h1 : cos (angle (dirOf (-(A + B))) (-(A + B))) = 1 := by
        have h2 := cos_angle (dirOf_unit hn0).ne hn0
        have h3 : dot (dirOf (-(A + B))) (-(A + B)) = len (-(A + B)) := by
          have := (dirOf_unit hn0).dot
          conv_lhs => rw [← smul_dirOf (v := -(A + B))]
          rw [dot_smul_right, ← dot_comm]
          simp [smul_dirOf, this]
        rw [(dirOf_unit hn0).len, one_mul, h3] at h2
        have := len_pos hn0
        field_simp at h2
        exact h2
      have h0 : angle (dirOf (-(A + B))) (-(A + B)) = 0 := by
        have h2 := arccos_cos (angle_nonneg (dirOf (-(A + B))) (-(A + B))) (angle_le_pi _ _)
        rw [h1, arccos_one] at h2
        exact h2.symm
      rw [h0]; linarith

/-- **C141** the result of `closest_point_on_path` for every path and every position that is not a pole of its great circle: if the nearest
position of the great circle is on the second arc it is returned, though it is not on the path; otherwise the result is the nearest point of
the path -/
theorem C141_closest (P : GeoPath XR) (A B C pA pB pC : V3 ℝ) (zA zB zC a f : ℝ) (name : EllKey) (R : M3 ℝ)
    (hR : IsRotation R)
    (hA : At P.point_a A zA pA (.real a f name R)) (hB : At P.point_b B zB pB (.real a f name R)) (X : Position XR)
    (hX : At X C zC pC (.real a f name R)) (hp : ProperPath A B)
    (hne : cross C (cross A B) ≠ 0) (hr : 0 < len pA + len pB) :
    ∃ (N Q : V3 ℝ) (z : ℝ), (P.closest_point_on_path X).to_nvector = .real Q z (.real a f name R) ∧
      OnCircle A B N ∧ (∀ S, OnCircle A B S → angle C N ≤ angle C S) ∧
      (OnFarArc A B N → Q = N ∧ z = (zA + zB) / 2 ∧ ¬ OnArc A B Q) ∧
      (¬ OnFarArc A B N → OnArc A B Q ∧ (z = (zA + zB) / 2 ∨ Q = A ∧ z = zA ∨ Q = B ∧ z = zB) ∧
        ∀ S, OnArc A B S → angle C Q ≤ angle C S) := by
  obtain ⟨Q, k, hQ, hcirc, hk, hdot⟩ := closest_foot hp hX.unit hne
  have hnv := closest_nvector_fin hA hB hX hQ
  have hr2 : 0 < (len pA + len pB) / 2 := by linarith
  have harcs := two_arcs hA.unit hB.unit hp hcirc
  -- the acceptance test is exactly "on one of the two arcs"
  have htest : P.on_great_circle_path (.nvec (.real Q ((zA + zB) / 2) (.real a f name R))) none (lit 1e-6) (lit 1e-8) = true ↔
      OnArc A B Q ∨ OnFarArc A B Q := by
    rw [accept_fin hA hB, on_great_circle_path_fin hA.unit hB.unit hp hcirc.1, on_great_circle_fin hp hcirc.1,
      ((onCircle_iff_normal hp).1 hcirc).2, ← harcs.1]
    norm_num
  have hmono : ∀ {S T : V3 ℝ}, UnitVec S → UnitVec T → dot C T ≤ dot C S → angle C S ≤ angle C T := by
    intro S T hS hT h
    rw [angle_unit hX.unit hS, angle_unit hX.unit hT]
    exact Real.arccos_le_arccos h
  have hnear : ∀ S, OnCircle A B S → angle C Q ≤ angle C S := by
    intro S hS
    apply hmono hcirc.1 hS.1
    rw [hdot S hS, hdot Q hcirc, hcirc.1.dot]
    nlinarith [dot_le_one hcirc.1 hS.1]
  unfold GeoPath.closest_point_on_path
  rw [hnv]
  by_cases hacc : OnArc A B Q ∨ OnFarArc A B Q
  · rw [if_pos (htest.2 hacc)]
    refine ⟨Q, Q, (zA + zB) / 2, ?_, hcirc, hnear, fun h => ⟨rfl, rfl, fun h' => harcs.2 ⟨h', h⟩⟩,
      fun h => ⟨hacc.resolve_right h, .inl rfl, fun S hS => hnear S hS.onCircle⟩⟩
    rw [C45_nvector_geo_nvector Q hcirc.1.ne _ a f name R hR]
    exact congrArg (fun v => Nvector.real v _ _) (dirOf_of_unit hcirc.1)
  · rw [if_neg (fun h => hacc (htest.1 h))]
    push Not at hacc
    obtain ⟨harc, hfar⟩ := hacc
    have hmax : ∀ S, OnArc A B S → dot C S ≤ max (dot C A) (dot C B) := by
      intro S hS
      rw [hdot S hS.onCircle, hdot A (onCircle_left hA.unit), hdot B (onCircle_right hB.unit),
        ← mul_max_of_nonneg _ _ hk.le]
      exact mul_le_mul_of_nonneg_left (arc_max hA.unit hB.unit hp hcirc harc hS) hk.le
    have hd1 : great_circle_distance A.fin C.fin (fin ((len pA + len pB) / 2)) = _ :=
      C18_eq_angle A C hA.unit.ne hX.unit.ne _
    have hd2 : great_circle_distance B.fin C.fin (fin ((len pA + len pB) / 2)) = _ :=
      C18_eq_angle B C hB.unit.ne hX.unit.ne _
    rw [hX.nv, normals_fin hA hB, average_radius_fin hA hB]
    simp only [Nvector.real, hd1, hd2, XR.lt_fin, decide_eq_true_eq]
    have hcmp : angle A C * ((len pA + len pB) / 2) < angle B C * ((len pA + len pB) / 2) ↔ dot C B < dot C A := by
      rw [mul_lt_mul_iff_left₀ hr2, angle_comm A C, angle_comm B C, angle_unit hX.unit hA.unit, angle_unit hX.unit hB.unit]
      exact Real.strictAntiOn_arccos.lt_iff_gt ⟨neg_one_le_dot hX.unit hA.unit, dot_le_one hX.unit hA.unit⟩
        ⟨neg_one_le_dot hX.unit hB.unit, dot_le_one hX.unit hB.unit⟩
    by_cases hlt : dot C B < dot C A
    · rw [if_pos (hcmp.2 hlt)]
      refine ⟨Q, A, zA, at_to_geo hR hA, hcirc, hnear, fun h => absurd h hfar, fun _ => ⟨⟨hA.unit, 1, 0, by norm_num, le_rfl, by ext <;> simp⟩,
        .inr (.inl ⟨rfl, rfl⟩), fun S hS => hmono hA.unit hS.1 ?_⟩⟩
      have := hmax S hS
      rwa [max_eq_left hlt.le] at this
    · rw [if_neg (fun h => hlt (hcmp.1 h))]
      refine ⟨Q, B, zB, at_to_geo hR hB, hcirc, hnear, fun h => absurd h hfar, fun _ => ⟨⟨hB.unit, 0, 1, le_rfl, by norm_num, by ext <;> simp⟩,
        .inr (.inr ⟨rfl, rfl⟩), fun S hS => hmono hB.unit hS.1 ?_⟩⟩
      have := hmax S hS
      rwa [max_eq_right (not_lt.1 hlt)] at this

/-- a path of 143 degrees on the equator has a second arc -/
example : UnitVec ⟨1, 0, 0⟩ ∧ UnitVec ⟨-4 / 5, 3 / 5, 0⟩ ∧ ProperPath ⟨1, 0, 0⟩ ⟨-4 / 5, 3 / 5, 0⟩ ∧ ∃ P, OnFarArc ⟨1, 0, 0⟩ ⟨-4 / 5, 3 / 5, 0⟩ P := by
  have hA : UnitVec ⟨1, 0, 0⟩ := by norm_num [UnitVec]
  have hB : UnitVec ⟨-4 / 5, 3 / 5, 0⟩ := by norm_num [UnitVec]
  have hp : ProperPath ⟨1, 0, 0⟩ ⟨-4 / 5, 3 / 5, 0⟩ := fun h => by
    have := congrArg V3.z h
    norm_num [cross] at this
  refine ⟨hA, hB, hp, (C141_far_arc _ _ hA hB hp).2 ?_⟩
  rw [angle_unit hA hB]
  have h1 : arccos (-(1 / 2)) = 2 * π / 3 := by
    rw [show -(1 / 2 : ℝ) = cos (2 * π / 3) by
      rw [show 2 * π / 3 = π - π / 3 by ring, cos_pi_sub, cos_pi_div_three], arccos_cos (by positivity) (by linarith [pi_pos])]
  rw [← h1]
  exact arccos_le_arccos (by norm_num [dot])

end Nv
