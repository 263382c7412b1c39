import Verif.Props.Speed
import Verif.Props.Interp

/-!
# C162: routes with stops

A route is a list of positions.  Its length is what a user computes: the sum of the great circle distances of its legs.
-/

namespace Nv
open Spec Real
open XR (fin)

namespace Spec

/-- the length of the route from `A` over the stops to `B`, leg by leg -/
noncomputable def routeLength (r : ℝ) (A : V3 ℝ) : List (V3 ℝ) → V3 ℝ → XR
  | [], B => great_circle_distance A.fin B.fin (fin r)
  | P :: stops, B => great_circle_distance A.fin P.fin (fin r) + routeLength r P stops B

end Spec

/-- the sum of the angles of a route -/
noncomputable def turn (A : V3 ℝ) : List (V3 ℝ) → V3 ℝ → ℝ
  | [], B => angle A B
  | P :: stops, B => angle A P + turn P stops B

theorem routeLength_eq (r : ℝ) (A : V3 ℝ) (stops : List (V3 ℝ)) (B : V3 ℝ) (hA : UnitVec A) (hB : UnitVec B)
    (hs : ∀ P ∈ stops, UnitVec P) : routeLength r A stops B = fin (turn A stops B * r) := by
  induction stops generalizing A with
  | nil => exact C18_eq_angle A B hA.ne hB.ne r
  | cons P stops ih =>
    have hP := hs P (by simp)
    rw [routeLength, C18_eq_angle A P hA.ne hP.ne r, ih P hP fun Q hQ => hs Q (by simp [hQ]), turn]
    simp only [xr]
    rw [add_mul]

theorem angle_le_turn (A : V3 ℝ) (stops : List (V3 ℝ)) (B : V3 ℝ) (hA : UnitVec A) (hB : UnitVec B)
    (hs : ∀ P ∈ stops, UnitVec P) : angle A B ≤ turn A stops B := by
  induction stops generalizing A with
  | nil => exact le_refl _
  | cons P stops ih =>
    have hP := hs P (by simp)
    have := ih P hP fun Q hQ => hs Q (by simp [hQ])
    have := angle_triangle hA hP hB
    rw [turn]; linarith

/-- a stop that makes no detour is in the cone of the two ends -/
theorem onArc_of_angle_eq {A P B : V3 ℝ} (hA : UnitVec A) (hP : UnitVec P) (hB : UnitVec B) (hAB : B ≠ -A)
    (h : angle A P + angle P B = angle A B) (h0 : 0 < angle A B) : ProperPath A B ∧ OnArc A B P := by
  have h1 := angle_lt_pi hA hB hAB
  have hα := angle_nonneg A P
  have hβ := angle_nonneg P B
  have hs : 0 < sin (angle A B) := Real.sin_pos_of_pos_of_lt_pi h0 h1
  have hsα : 0 ≤ sin (angle A P) := Real.sin_nonneg_of_nonneg_of_le_pi hα (angle_le_pi A P)
  have hsβ : 0 ≤ sin (angle P B) := Real.sin_nonneg_of_nonneg_of_le_pi hβ (angle_le_pi P B)
  refine ⟨?_, hP, sin (angle P B) / sin (angle A B), sin (angle A P) / sin (angle A B), by positivity, by positivity, ?_⟩
  · intro hc
    have := sin_angle_unit hA hB
    rw [hc] at this
    rw [this] at hs
    have e : len (0 : V3 ℝ) = 0 := by simp [len]
    rw [e] at hs
    exact lt_irrefl _ hs
  · set S := sin (angle A B)
    have key : (S • P - (sin (angle P B) • A + sin (angle A P) • B)) = 0 := by
      have cα := cos_angle_unit hA hP
      have cβ := cos_angle_unit hP hB
      have cγ := cos_angle_unit hA hB
      have eS : S = sin (angle A P) * cos (angle P B) + cos (angle A P) * sin (angle P B) := by
        rw [← Real.sin_add, h]
      have eC : cos (angle A B) = cos (angle A P) * cos (angle P B) - sin (angle A P) * sin (angle P B) := by
        rw [← Real.cos_add, h]
      have q1 := Real.sin_sq_add_cos_sq (angle A P)
      have q2 := Real.sin_sq_add_cos_sq (angle P B)
      generalize sin (angle A P) = sa at *
      generalize cos (angle A P) = ca at *
      generalize sin (angle P B) = sb at *
      generalize cos (angle P B) = cb at *
      generalize cos (angle A B) = cg at *
      have hz : dot (S • P - (sb • A + sa • B)) (S • P - (sb • A + sa • B)) = 0 := by
        have e : dot (S • P - (sb • A + sa • B)) (S • P - (sb • A + sa • B)) =
            S ^ 2 * dot P P + sb ^ 2 * dot A A + sa ^ 2 * dot B B - 2 * S * sb * dot A P - 2 * S * sa * dot P B
              + 2 * sa * sb * dot A B := by
          simp [dot]
          ring
        rw [e, hA.dot, hB.dot, hP.dot, ← cα, ← cβ, ← cγ, eC, eS]
        linear_combination (-(sb ^ 2)) * q1 - (sa ^ 2) * q2
      by_contra hne
      generalize S • P - (sb • A + sa • B) = v at hz hne
      have := len_pos hne
      rw [len, show v.x ^ 2 + v.y ^ 2 + v.z ^ 2 = dot v v by simp only [dot]; ring, hz, Real.sqrt_zero] at this
      exact lt_irrefl _ this
    have hx := congrArg V3.x key
    have hy := congrArg V3.y key
    have hz := congrArg V3.z key
    simp at hx hy hz
    ext <;> simp <;> field_simp <;> linarith

/-- the positions of a path between which nothing is lost -/
theorem interp_of_angle_eq {A P B : V3 ℝ} (hA : UnitVec A) (hP : UnitVec P) (hB : UnitVec B) (hAB : B ≠ -A)
    (h : angle A P + angle P B = angle A B) (h0 : 0 < angle A B) :
    ∃ t : ℝ, 0 ≤ t ∧ t ≤ 1 ∧ interpolate (A.fin, B.fin) (fin t) = P.fin := by
  obtain ⟨h1, h2⟩ := onArc_of_angle_eq hA hP hB hAB h h0
  exact C25_onto A B P hA hB h1 h2

theorem exact_route {A B : V3 ℝ} (stops : List (V3 ℝ)) (hA : UnitVec A) (hB : UnitVec B) (hs : ∀ P ∈ stops, UnitVec P)
    (h : turn A stops B = angle A B) :
    (∀ P ∈ stops, angle A P + angle P B = angle A B) ∧ stops.Pairwise fun P Q => angle A P ≤ angle A Q := by
  induction stops generalizing A with
  | nil => simp
  | cons P stops ih =>
    have hP := hs P (by simp)
    have hs' : ∀ Q ∈ stops, UnitVec Q := fun Q hQ => hs Q (by simp [hQ])
    rw [turn] at h
    have h1 := angle_le_turn P stops B hP hB hs'
    have h2 := angle_triangle hA hP hB
    have e1 : turn P stops B = angle P B := by linarith
    have e2 : angle A P + angle P B = angle A B := by linarith
    obtain ⟨i1, i2⟩ := ih hP hs' e1
    have key : ∀ Q ∈ stops, angle A Q + angle Q B = angle A B ∧ angle A Q = angle A P + angle P Q := by
      intro Q hQ
      have := i1 Q hQ
      have := angle_triangle hA hP (hs' Q hQ)
      have := angle_triangle hA (hs' Q hQ) hB
      constructor <;> linarith
    refine ⟨fun Q hQ => ?_, ?_⟩
    · rcases List.mem_cons.1 hQ with rfl | hQ
      · exact e2
      · exact (key Q hQ).1
    · rw [List.pairwise_cons]
      refine ⟨fun Q hQ => ?_, List.Pairwise.imp_of_mem (fun {a b} ha hb hab => ?_) i2⟩
      · rw [(key Q hQ).2]
        have := angle_nonneg P Q
        linarith
      · rw [(key a ha).2, (key b hb).2]
        linarith

/-- a route of interpolated positions, in order, from parameter `s` on -/
theorem turn_of_sorted {A B : V3 ℝ} (hA : UnitVec A) (hB : UnitVec B) (hAB : B ≠ -A) (stops : List (V3 ℝ)) (ts : List ℝ)
    (hf : List.Forall₂ (fun P t => interpolate (A.fin, B.fin) (fin t) = P.fin) stops ts) (h01 : ∀ t ∈ ts, 0 ≤ t ∧ t ≤ 1)
    (hm : ts.Pairwise (· ≤ ·)) (s : ℝ) (hs : 0 ≤ s ∧ s ≤ 1) (hst : ∀ t ∈ ts, s ≤ t) :
    turn (dirOf (mix A B s)) stops B = progress (angle A B) 1 - progress (angle A B) s := by
  induction hf generalizing s with
  | nil =>
    have e := (angle_mix hA hB hAB hs.1 le_rfl hs.2).2.2
    have h1 : mix A B 1 = B := by unfold mix; ext <;> simp
    rw [h1, dirOf_of_unit hB] at e
    exact e
  | @cons P t stops ts hP _ ih =>
    have ht := h01 t (by simp)
    have hst' := hst t (by simp)
    rw [List.pairwise_cons] at hm
    obtain ⟨-, n, e⟩ := angle_mix hA hB hAB hs.1 ht.2 hst'
    rw [interpolate_fin n] at hP
    have hPe : P = dirOf (mix A B t) := (V3.fin_inj.1 hP).symm
    rw [turn, hPe, e, ih (fun u hu => h01 u (by simp [hu])) hm.2 t ht hm.1]
    ring

/-- **C162** a stop never shortens the way, and makes no detour exactly if it is one of the interpolated positions of the path -/
theorem C162_stop (A P B : V3 ℝ) (hA : UnitVec A) (hP : UnitVec P) (hB : UnitVec B) (hAB : B ≠ -A) (r : ℝ) (hr : 0 < r) :
    ∃ x y D : ℝ, great_circle_distance A.fin P.fin (fin r) = fin x ∧ great_circle_distance P.fin B.fin (fin r) = fin y ∧
      great_circle_distance A.fin B.fin (fin r) = fin D ∧ D ≤ x + y ∧
      (x + y = D ↔ ∃ t : ℝ, 0 ≤ t ∧ t ≤ 1 ∧ interpolate (A.fin, B.fin) (fin t) = P.fin) := by
  refine ⟨_, _, _, C18_eq_angle A P hA.ne hP.ne r, C18_eq_angle P B hP.ne hB.ne r, C18_eq_angle A B hA.ne hB.ne r, ?_, ?_⟩
  · rw [← add_mul]
    exact mul_le_mul_of_nonneg_right (angle_triangle hA hP hB) hr.le
  · rw [← add_mul, mul_left_inj' hr.ne']
    constructor
    · intro h
      rcases (angle_nonneg A B).lt_or_eq with h0 | h0
      · exact interp_of_angle_eq hA hP hB hAB h h0
      · have : angle A P = 0 := by
          have := angle_nonneg A P; have := angle_nonneg P B; linarith
        rw [angle_eq_zero_iff hA hP] at this
        exact ⟨0, le_rfl, zero_le_one, by rw [(C25_endpoints A B hA hB).1, this]⟩
    · rintro ⟨t, h0, h1, e⟩
      have h := turn_of_sorted hA hB hAB [P] [t] (.cons e .nil) (by simp [h0, h1]) (by simp) 0 ⟨le_rfl, zero_le_one⟩ (by simp [h0])
      have hm : mix A B 0 = A := by unfold mix; ext <;> simp
      obtain ⟨p0, -, p1⟩ := progress_ends (angle_nonneg A B) (angle_lt_pi hA hB hAB)
      rw [hm, dirOf_of_unit hA, p0, p1] at h
      simpa [turn] using h

/-- **C162** between antipodes no stop makes a detour -/
theorem C162_antipodes (A P : V3 ℝ) (hA : UnitVec A) (hP : UnitVec P) (r : ℝ) :
    ∃ x y D : ℝ, great_circle_distance A.fin P.fin (fin r) = fin x ∧ great_circle_distance P.fin (-A).fin (fin r) = fin y ∧
      great_circle_distance A.fin (-A).fin (fin r) = fin D ∧ x + y = D ∧ D = π * r := by
  have h1 : angle A (-A) = π := by rw [angle_unit hA hA.neg, dot_neg_right, hA.dot, Real.arccos_neg_one]
  have h2 : angle P (-A) = π - angle A P := by
    rw [angle_unit hP hA.neg, dot_neg_right, Real.arccos_neg, angle_unit hA hP, dot_comm]
  refine ⟨_, _, _, C18_eq_angle A P hA.ne hP.ne r, C18_eq_angle P (-A) hP.ne hA.neg.ne r, C18_eq_angle A (-A) hA.ne hA.neg.ne r, ?_, ?_⟩
  · rw [h1, h2]; ring
  · rw [h1]

/-- **C162** a route over any number of stops is at least as long as the direct way, and just as long exactly if its stops are interpolated
positions of the path, in the order of their parameters -/
theorem C162_route (A B : V3 ℝ) (stops : List (V3 ℝ)) (hA : UnitVec A) (hB : UnitVec B) (hs : ∀ P ∈ stops, UnitVec P) (hAB : B ≠ -A)
    (r : ℝ) (hr : 0 < r) :
    ∃ L D : ℝ, routeLength r A stops B = fin L ∧ great_circle_distance A.fin B.fin (fin r) = fin D ∧ D ≤ L ∧
      (L = D ↔ ∃ ts : List ℝ, ts.Pairwise (· ≤ ·) ∧ (∀ t ∈ ts, 0 ≤ t ∧ t ≤ 1) ∧
        List.Forall₂ (fun P t => interpolate (A.fin, B.fin) (fin t) = P.fin) stops ts) := by
  refine ⟨_, _, routeLength_eq r A stops B hA hB hs, C18_eq_angle A B hA.ne hB.ne r,
    mul_le_mul_of_nonneg_right (angle_le_turn A stops B hA hB hs) hr.le, ?_⟩
  rw [mul_left_inj' hr.ne']
  obtain ⟨p0, -, p1⟩ := progress_ends (angle_nonneg A B) (angle_lt_pi hA hB hAB)
  have hm0 : mix A B 0 = A := by unfold mix; ext <;> simp
  constructor
  · intro h
    obtain ⟨h1, h2⟩ := exact_route stops hA hB hs h
    rcases (angle_nonneg A B).lt_or_eq with h0 | h0
    · have hex : ∀ P : V3 ℝ, ∃ t : ℝ, P ∈ stops → 0 ≤ t ∧ t ≤ 1 ∧ interpolate (A.fin, B.fin) (fin t) = P.fin := by
        intro P
        by_cases hP : P ∈ stops
        · obtain ⟨t, ht⟩ := interp_of_angle_eq hA (hs P hP) hB hAB (h1 P hP) h0
          exact ⟨t, fun _ => ht⟩
        · exact ⟨0, fun h => absurd h hP⟩
      choose g hg using hex
      have hang : ∀ P ∈ stops, angle A P = progress (angle A B) (g P) := by
        intro P hP
        obtain ⟨g0, g1, g2⟩ := hg P hP
        obtain ⟨-, n, e⟩ := angle_mix hA hB hAB le_rfl g1 g0
        rw [hm0, dirOf_of_unit hA, p0, sub_zero] at e
        rw [interpolate_fin n] at g2
        rw [← e, V3.fin_inj.1 g2]
      refine ⟨stops.map g, ?_, ?_, ?_⟩
      · rw [List.pairwise_map]
        refine List.Pairwise.imp_of_mem (fun {P Q} hP hQ hPQ => ?_) h2
        rw [hang P hP, hang Q hQ] at hPQ
        by_contra hc
        have := progress_strict h0 (angle_lt_pi hA hB hAB) (not_le.1 hc)
        linarith
      · intro t ht
        rw [List.mem_map] at ht
        obtain ⟨P, hP, rfl⟩ := ht
        exact ⟨(hg P hP).1, (hg P hP).2.1⟩
      · rw [List.forall₂_map_right_iff, List.forall₂_same]
        exact fun P hP => (hg P hP).2.2
    · have hz : ∀ P ∈ stops, P = A := by
        intro P hP
        have := h1 P hP
        have h3 : angle A P = 0 := by
          have := angle_nonneg A P; have := angle_nonneg P B; linarith
        exact ((angle_eq_zero_iff hA (hs P hP)).1 h3).symm
      refine ⟨stops.map fun _ => 0, ?_, ?_, ?_⟩
      · rw [List.pairwise_map]
        exact List.pairwise_of_forall fun _ _ => le_rfl
      · intro t ht
        rw [List.mem_map] at ht
        obtain ⟨P, -, rfl⟩ := ht
        exact ⟨le_rfl, zero_le_one⟩
      · rw [List.forall₂_map_right_iff, List.forall₂_same]
        intro P hP
        rw [hz P hP]
        exact (C25_endpoints A B hA hB).1
  · rintro ⟨ts, h1, h2, h3⟩
    have h := turn_of_sorted hA hB hAB stops ts h3 h2 h1 0 ⟨le_rfl, zero_le_one⟩ fun t ht => (h2 t ht).1
    rw [hm0, dirOf_of_unit hA, p0, p1, sub_zero] at h
    exact h

/-- the hypotheses of `C162_route` hold for a route over two stops that is longer than the direct way -/
example : ∃ L D : ℝ, routeLength 1 (⟨1, 0, 0⟩ : V3 ℝ) [⟨0, 0, 1⟩, ⟨0, -1, 0⟩] ⟨0, 1, 0⟩ = fin L ∧ D < L ∧
    great_circle_distance (⟨1, 0, 0⟩ : V3 ℝ).fin (⟨0, 1, 0⟩ : V3 ℝ).fin (fin 1) = fin D := by
  have hA : UnitVec (⟨1, 0, 0⟩ : V3 ℝ) := by norm_num [UnitVec]
  have hB : UnitVec (⟨0, 1, 0⟩ : V3 ℝ) := by norm_num [UnitVec]
  have hP : UnitVec (⟨0, 0, 1⟩ : V3 ℝ) := by norm_num [UnitVec]
  have hQ : UnitVec (⟨0, -1, 0⟩ : V3 ℝ) := by norm_num [UnitVec]
  have hs : ∀ P ∈ ([⟨0, 0, 1⟩, ⟨0, -1, 0⟩] : List (V3 ℝ)), UnitVec P := by
    intro P h
    simp only [List.mem_cons, List.not_mem_nil, or_false] at h
    rcases h with rfl | rfl <;> assumption
  have hAB : (⟨0, 1, 0⟩ : V3 ℝ) ≠ -⟨1, 0, 0⟩ := by
    intro h; have := congrArg V3.y h; simp at this
  obtain ⟨L, D, h1, h2, h3, h4⟩ := C162_route ⟨1, 0, 0⟩ ⟨0, 1, 0⟩ _ hA hB hs hAB 1 one_pos
  refine ⟨L, D, h1, lt_of_le_of_ne h3 fun e => ?_, h2⟩
  obtain ⟨ts, -, h5, h6⟩ := h4.1 e.symm
  cases h6 with | cons h6 _ =>
  rename_i t _ _
  obtain ⟨-, n, -⟩ := angle_mix hA hB hAB le_rfl (h5 t (by simp)).2 (h5 t (by simp)).1
  rw [interpolate_fin n] at h6
  have hz := congrArg V3.z (V3.fin_inj.1 h6)
  simp [dirOf, mix] at hz

/-- a stop at the middle of a quarter of a great circle makes no detour -/
example : ∃ x y D : ℝ, great_circle_distance (⟨1, 0, 0⟩ : V3 ℝ).fin (⟨3 / 5, 4 / 5, 0⟩ : V3 ℝ).fin (fin 2) = fin x ∧
    great_circle_distance (⟨3 / 5, 4 / 5, 0⟩ : V3 ℝ).fin (⟨0, 1, 0⟩ : V3 ℝ).fin (fin 2) = fin y ∧
    great_circle_distance (⟨1, 0, 0⟩ : V3 ℝ).fin (⟨0, 1, 0⟩ : V3 ℝ).fin (fin 2) = fin D ∧ x + y = D := by
  have hA : UnitVec (⟨1, 0, 0⟩ : V3 ℝ) := by norm_num [UnitVec]
  have hB : UnitVec (⟨0, 1, 0⟩ : V3 ℝ) := by norm_num [UnitVec]
  have hP : UnitVec (⟨3 / 5, 4 / 5, 0⟩ : V3 ℝ) := by norm_num [UnitVec]
  have hAB : (⟨0, 1, 0⟩ : V3 ℝ) ≠ -⟨1, 0, 0⟩ := by
    intro h; have := congrArg V3.y h; simp at this
  obtain ⟨x, y, D, h1, h2, h3, -, h4⟩ := C162_stop _ _ _ hA hP hB hAB 2 two_pos
  refine ⟨x, y, D, h1, h2, h3, h4.2 (C25_onto _ _ _ hA hB ?_ ⟨hP, 3 / 5, 4 / 5, by norm_num, by norm_num, by ext <;> simp⟩)⟩
  intro h
  have := congrArg V3.z h
  simp [cross] at this

/-- `C162_antipodes` for a stop that is not on a meridian of the axes -/
example := C162_antipodes ⟨1, 0, 0⟩ ⟨3 / 5, 4 / 5, 0⟩ (by norm_num [UnitVec]) (by norm_num [UnitVec]) 6371

end Nv
