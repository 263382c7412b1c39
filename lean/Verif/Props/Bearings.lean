import Verif.Props.CrossingObjects
import Verif.Props.Triangle
import Verif.Props.Textbook
import Verif.Props.Walk
import Verif.Props.SphereMethods
import Verif.Props.Attitude

/-!
# C160: a position fixed by cross bearings

A target is seen from two stations A and B.  Laying off both bearings with the direct problem (any distance will do) and crossing the two
lines with `intersect` gives the target.
-/

namespace Nv
open Spec Real
open XR (fin)

/-! ## Specification -/

namespace Spec

/-- the bearing of `X` from `A` on a sphere of radius `a` (the radius does not matter) is `θ` -/
def Bearing (a : ℝ) (R : M3 ℝ) (A X : V3 ℝ) (θ : ℝ) : Prop := n_EA_E_and_n_EB_E2azimuth A.fin X.fin (fin a) (fin 0) R.fin = fin θ

/-- the position reached from `A` going through the angle `d` with initial azimuth `θ` -/
noncomputable def layOff (R : M3 ℝ) (A : V3 ℝ) (d θ : ℝ) : V3 XR := n_EA_E_distance_and_azimuth2n_EB_E A.fin (fin d) (fin θ) R.fin

/-- the three positions lie on one great circle -/
def OneCircle (A B C : V3 ℝ) : Prop := dot A (cross B C) = 0

end Spec

/-! ## Lemmas -/

theorem reach_proper {n e : V3 ℝ} (h : Frame n e) {d : ℝ} (hd : sin d ≠ 0) (az : ℝ) : ProperPath n (reach n e d az) := by
  intro h0
  have hl := lagrange n (reach n e d az)
  rw [h0, len_eq_zero.mpr rfl, h.un.len, (reach_unit h d az).len, (reach_dot h d az).1] at hl
  have := sin_sq_add_cos_sq d
  exact hd (pow_eq_zero_iff two_ne_zero |>.mp (by linarith))

theorem reach_onCircle {n e : V3 ℝ} (h : Frame n e) {d : ℝ} (hd : sin d ≠ 0) (d' az : ℝ) :
    OnCircle n (reach n e d az) (reach n e d' az) := by
  refine ⟨reach_unit h d' az, cos d' - sin d' / sin d * cos d, sin d' / sin d, ?_⟩
  unfold reach
  ext
  · simp only [add_x, smul_x]; field_simp; ring
  · simp only [add_y, smul_y]; field_simp; ring
  · simp only [add_z, smul_z]; field_simp; ring

theorem oneCircle_of_perp {A B C N : V3 ℝ} (hN : N ≠ 0) (hA : dot N A = 0) (hB : dot N B = 0) (hC : dot N C = 0) : OneCircle A B C := by
  have h : cross (cross B C) N = 0 := by
    have : cross (cross B C) N = -(cross N (cross B C)) := by ext <;> simp [cross] <;> ring
    rw [this, cross_cross', hB, hC]; ext <;> simp
  obtain ⟨c, hc⟩ := cross_eq_zero_smul hN h
  unfold OneCircle
  rw [hc, dot_smul_right, dot_comm, hA, mul_zero]

theorem self_onCircle {A B : V3 ℝ} (hA : UnitVec A) : OnCircle A B A := ⟨hA, 1, 0, by ext <;> simp⟩

/-! ## C160 -/

section
variable {R : M3 ℝ} (hR : IsRotation R) {a : ℝ} (ha : 0 < a)
include hR ha

theorem bearing_lines {A B C : V3 ℝ} (hA : UnitVec A) (hB : UnitVec B) (hC : UnitVec C) (hpA : cross (northPole R) A ≠ 0)
    (hpB : cross (northPole R) B ≠ 0) (hABC : ¬ OneCircle A B C) {α β : ℝ} (hα : Bearing a R A C α) (hβ : Bearing a R B C β) {d₁ d₂ : ℝ}
    (h₁ : sin d₁ ≠ 0) (h₂ : sin d₂ ≠ 0) :
    ∃ A' B' : V3 ℝ, layOff R A d₁ α = A'.fin ∧ layOff R B d₂ β = B'.fin ∧ ProperPath A A' ∧ ProperPath B B' ∧
      cross (cross A A') (cross B B') ≠ 0 ∧ OnCircle A A' C ∧ OnCircle B B' C ∧
      A' = reach A (dirOf (cross (northPole R) A)) d₁ α ∧ B' = reach B (dirOf (cross (northPole R) B)) d₂ β := by
  have fA := frame_offpole hA hpA
  have fB := frame_offpole hB hpB
  obtain ⟨θ, e1, r1⟩ := azimuth_reach hR ha hA hC hpA
  obtain ⟨φ, e2, r2⟩ := azimuth_reach hR ha hB hC hpB
  unfold Bearing at hα hβ
  rw [hα, XR.fin_inj] at e1
  rw [hβ, XR.fin_inj] at e2
  subst e1 e2
  have p1 := reach_proper fA h₁ α
  have p2 := reach_proper fB h₂ β
  have c1 : OnCircle A (reach A (dirOf (cross (northPole R) A)) d₁ α) C := by
    have := reach_onCircle fA h₁ (angle A C) α
    rwa [← r1] at this
  have c2 : OnCircle B (reach B (dirOf (cross (northPole R) B)) d₂ β) C := by
    have := reach_onCircle fB h₂ (angle B C) β
    rwa [← r2] at this
  refine ⟨_, _, direct_offpole hA hpA d₁ α, direct_offpole hB hpB d₂ β, p1, p2, ?_, c1, c2, rfl, rfl⟩
  intro h0
  have hs := (normals_parallel_iff p1 p2).mp h0
  exact hABC (oneCircle_of_perp p1 ((onCircle_iff p1).mp (self_onCircle hA)).2 ((onCircle_iff p1).mp ((hs B).mpr (self_onCircle hB))).2
    ((onCircle_iff p1).mp c1).2)

/-- **C160** the fix: the lines laid off from A and B with the bearings of C cross at C, if C is less than a quarter of the way round the
globe from A; beyond, `intersect` gives the antipode of C, and the zero vector at exactly a quarter.  The distances laid off do not
matter, as long as they are no multiples of half the circumference -/
theorem C160_fix {A B C : V3 ℝ} (hA : UnitVec A) (hB : UnitVec B) (hC : UnitVec C) (hpA : cross (northPole R) A ≠ 0)
    (hpB : cross (northPole R) B ≠ 0) (hABC : ¬ OneCircle A B C) {α β : ℝ} (hα : Bearing a R A C α) (hβ : Bearing a R B C β) {d₁ d₂ : ℝ}
    (h₁ : sin d₁ ≠ 0) (h₂ : sin d₂ ≠ 0) {r x : ℝ} (hr : 0 < r) (hx : great_circle_distance A.fin C.fin (fin r) = fin x) :
    (x < π / 2 * r → intersect (A.fin, layOff R A d₁ α) (B.fin, layOff R B d₂ β) = C.fin) ∧
    (x = π / 2 * r → intersect (A.fin, layOff R A d₁ α) (B.fin, layOff R B d₂ β) = (0 : V3 ℝ).fin) ∧
    (π / 2 * r < x → intersect (A.fin, layOff R A d₁ α) (B.fin, layOff R B d₂ β) = (-C).fin) := by
  obtain ⟨A', B', e1, e2, p1, p2, hw, c1, c2, -⟩ := bearing_lines hR ha hA hB hC hpA hpB hABC hα hβ h₁ h₂
  rw [e1, e2]
  obtain ⟨i1, i2, i3⟩ := intersect_common p1 p2 hw c1 c2
  rw [C18_eq_angle _ _ hA.ne hC.ne, XR.fin_inj] at hx
  have hc : dot C A = cos (angle A C) := by rw [cos_angle_unit hA hC, dot_comm]
  have hpi := Real.pi_pos
  subst hx
  refine ⟨fun h => i1 ?_, fun h => i2 ?_, fun h => i3 ?_⟩
  · rw [hc]
    exact Real.cos_pos_of_mem_Ioo ⟨by linarith [angle_nonneg A C], lt_of_mul_lt_mul_right h hr.le⟩
  · rw [hc, mul_right_cancel₀ hr.ne' h, Real.cos_pi_div_two]
  · rw [hc]
    exact Real.cos_neg_of_pi_div_two_lt_of_lt (lt_of_mul_lt_mul_right h hr.le) (by linarith [angle_le_pi A C])

/-- **C160** two bearings determine the position: two targets with the same bearings from A and from B, both less than a quarter of the way
round from A and off the great circle of A and B, are the same -/
theorem C160_unique {A B C C' : V3 ℝ} (hA : UnitVec A) (hB : UnitVec B) (hC : UnitVec C) (hC' : UnitVec C')
    (hpA : cross (northPole R) A ≠ 0) (hpB : cross (northPole R) B ≠ 0) (hABC : ¬ OneCircle A B C) (hABC' : ¬ OneCircle A B C') {α β : ℝ}
    (hα : Bearing a R A C α) (hβ : Bearing a R B C β) (hα' : Bearing a R A C' α) (hβ' : Bearing a R B C' β) {r x x' : ℝ} (hr : 0 < r)
    (hx : great_circle_distance A.fin C.fin (fin r) = fin x) (hx' : great_circle_distance A.fin C'.fin (fin r) = fin x')
    (h : x < π / 2 * r) (h' : x' < π / 2 * r) : C = C' := by
  have hs : sin (π / 2) ≠ 0 := by rw [Real.sin_pi_div_two]; exact one_ne_zero
  have e := (C160_fix hR ha hA hB hC hpA hpB hABC hα hβ hs hs hr hx).1 h
  have e' := (C160_fix hR ha hA hB hC' hpA hpB hABC' hα' hβ' hs hs hr hx').1 h'
  rw [e] at e'
  exact V3.fin_inj.mp e'

/-- **C160** conversely, whatever bearings are laid off: what `intersect` returns (if not the zero vector) lies in the direction of the
bearing from both stations, or in the opposite direction -/
theorem C160_direction {A B X : V3 ℝ} (hA : UnitVec A) (hB : UnitVec B) (hpA : cross (northPole R) A ≠ 0)
    (hpB : cross (northPole R) B ≠ 0) {α β d₁ d₂ : ℝ} (h₁ : sin d₁ ≠ 0) (h₂ : sin d₂ ≠ 0) {A' B' : V3 ℝ} (eA : layOff R A d₁ α = A'.fin)
    (eB : layOff R B d₂ β = B'.fin) (hne : ¬ SameCircle A A' B B')
    (hX : intersect (A.fin, layOff R A d₁ α) (B.fin, layOff R B d₂ β) = X.fin) (hX0 : X ≠ 0) (hXA : cross A X ≠ 0) (hXB : cross B X ≠ 0) :
    (∃ α', Bearing a R A X α' ∧ (SameAngle α α' ∨ SameAngle (α + π) α')) ∧
    (∃ β', Bearing a R B X β' ∧ (SameAngle β β' ∨ SameAngle (β + π) β')) := by
  have key : ∀ {P Q : V3 ℝ} {θ d : ℝ}, UnitVec P → cross (northPole R) P ≠ 0 → sin d ≠ 0 → layOff R P d θ = Q.fin → OnCircle P Q X →
      cross P X ≠ 0 → ∃ θ', Bearing a R P X θ' ∧ (SameAngle θ θ' ∨ SameAngle (θ + π) θ') := by
    intro P Q θ d hP hp hd hQ ⟨hXu, s, t, hXe⟩ hPX
    have hf := frame_offpole hP hp
    have hQ' : Q = reach P (dirOf (cross (northPole R) P)) d θ := by
      unfold layOff at hQ
      rw [direct_offpole hP hp, V3.fin_inj] at hQ
      exact hQ.symm
    subst hQ'
    have haz := azimuth_offpole hP hXu hR hp ha
    set e := dirOf (cross (northPole R) P)
    obtain ⟨r1, r2, r3⟩ := reach_dot hf d θ
    have hpe : dot e P = 0 := by rw [dot_comm]; exact hf.perp
    have hpc : dot (cross P e) P = 0 := dot_cross_left_self _ _
    have y : dot e X = (t * sin d) * sin θ := by rw [hXe, dot_add_right, dot_smul_right, dot_smul_right, hpe, r2]; ring
    have x : dot (cross P e) X = (t * sin d) * cos θ := by rw [hXe, dot_add_right, dot_smul_right, dot_smul_right, hpc, r3]; ring
    have ht : t ≠ 0 := by
      rintro rfl
      apply hPX
      rw [hXe]; ext <;> simp [cross] <;> ring
    have hk : t * sin d ≠ 0 := mul_ne_zero ht hd
    have hatan : ∀ v : V3 ℝ, azimuth v.fin = fin (XR.atan2 v.y v.x) := fun v => by
      unfold azimuth; rw [V3.fin_x, V3.fin_y, XR.arctan2_fin]
    rcases lt_or_gt_of_ne hk with h | h
    · obtain ⟨az, h1, h2, -⟩ := azimuth_of (p := ⟨dot (cross P e) X, dot e X, 0⟩) (θ := θ + π) (z := 0) (neg_pos.mpr h) (by
        rw [x, y, Real.cos_add_pi, Real.sin_add_pi]; ext <;> simp)
      rw [hatan] at h1
      exact ⟨az, haz.trans h1, .inr h2⟩
    · obtain ⟨az, h1, h2, -⟩ := azimuth_of (p := ⟨dot (cross P e) X, dot e X, 0⟩) (θ := θ) (z := 0) h (by rw [x, y])
      rw [hatan] at h1
      exact ⟨az, haz.trans h1, .inl h2⟩
  have fA := frame_offpole hA hpA
  have fB := frame_offpole hB hpB
  have hA' : A' = reach A (dirOf (cross (northPole R) A)) d₁ α := by
    unfold layOff at eA
    rw [direct_offpole hA hpA, V3.fin_inj] at eA
    exact eA.symm
  have hB' : B' = reach B (dirOf (cross (northPole R) B)) d₂ β := by
    unfold layOff at eB
    rw [direct_offpole hB hpB, V3.fin_inj] at eB
    exact eB.symm
  have p1 : ProperPath A A' := hA' ▸ reach_proper fA h₁ α
  have p2 : ProperPath B B' := hB' ▸ reach_proper fB h₂ β
  have hw : cross (cross A A') (cross B B') ≠ 0 := fun h => hne ((normals_parallel_iff p1 p2).mp h)
  obtain ⟨w1, w2⟩ := onCircle_w hw
  obtain ⟨i1, i2, i3⟩ := intersect_common p1 p2 hw w1 w2
  rw [eA, eB] at hX
  have hneg : ∀ {P Q Y : V3 ℝ}, OnCircle P Q Y → OnCircle P Q (-Y) := by
    rintro P Q Y ⟨hu, s, t, rfl⟩
    refine ⟨by unfold UnitVec at *; simp only [neg_x, neg_y, neg_z, neg_sq]; exact hu, -s, -t, ?_⟩
    ext <;> simp <;> ring
  have hboth : OnCircle A A' X ∧ OnCircle B B' X := by
    rcases lt_trichotomy (dot (dirOf (cross (cross A A') (cross B B'))) A) 0 with h | h | h
    · rw [i3 h, V3.fin_inj] at hX
      exact hX ▸ ⟨hneg w1, hneg w2⟩
    · rw [i2 h, V3.fin_inj] at hX
      exact absurd hX.symm hX0
    · rw [i1 h, V3.fin_inj] at hX
      exact hX ▸ ⟨w1, w2⟩
  exact ⟨key hA hpA h₁ eA hboth.1 hXA, key hB hpB h₂ eB hboth.2 hXB⟩

end

/-- **C160** with the classes, on a sphere: `_, α, _ = A.distance_and_azimuth(C, method='greatcircle')`, likewise `β` from `B`;
`A1, _ = A.displace(d1, α, method='greatcircle')`, likewise `B1`; then `GeoPath(A, A1).intersect(GeoPath(B, B1))` is `C` -/
theorem C160_objects (G : Geodesic XR) (a z : ℝ) (ha : 0 < a) (hz : z < a) (name : EllKey) (latA lonA latB lonB latC lonC : ℝ)
    (hlA : |latA| < π / 2) (hlB : |latB| < π / 2) (hlC : |latC| < π / 2)
    (hABC : ¬ OneCircle (geoNormal latA lonA) (geoNormal latB lonB) (geoNormal latC lonC))
    (hnear : angle (geoNormal latA lonA) (geoNormal latC lonC) < π / 2) (d₁ d₂ : ℝ) (h₁ : sin (d₁ / (a - z)) ≠ 0)
    (h₂ : sin (d₂ / (a - z)) ≠ 0) (method : String) (c : Char) (cs : List Char) (hm : method.toList = c :: cs) (hc : c ≠ 'e') :
    let F := FrameE.real a 0 name Re
    let A := GeoPoint.real latA lonA z F
    let B := GeoPoint.real latB lonB z F
    let C := GeoPoint.real latC lonC z F
    ∃ (xA xB α β α' β' azA azB : ℝ) (A₁ B₁ : GeoPoint XR),
      A.distance_and_azimuth G (.geo C) (method := method) = .ok (fin xA, fin α, fin α') ∧
      B.distance_and_azimuth G (.geo C) (method := method) = .ok (fin xB, fin β, fin β') ∧
      A.displace G (fin d₁) (fin α) (method := method) = .ok (A₁, fin azA) ∧
      B.displace G (fin d₂) (fin β) (method := method) = .ok (B₁, fin azB) ∧
      (GeoPath.mk (.geo A) (.geo A₁)).intersect (GeoPath.mk (.geo B) (.geo B₁)) = .ok C.to_nvector := by
  intro F A B C
  have hR := isRotation_Re
  have hm' : method.toList.head? ≠ some 'e' := by rw [hm]; simpa using hc
  obtain ⟨a1, a2⟩ := abs_lt.1 hlA
  obtain ⟨b1, b2⟩ := abs_lt.1 hlB
  obtain ⟨c1, c2⟩ := abs_lt.1 hlC
  obtain ⟨α', eA, -⟩ := C126_distance_and_azimuth G a z ha hz name latA lonA latC lonC a1 a2 c1 c2 method c cs hm hc
  obtain ⟨β', eB, -⟩ := C126_distance_and_azimuth G a z ha hz name latB lonB latC lonC b1 b2 c1 c2 method c cs hm hc
  have bA := C126_azimuth hR latA lonA latC lonC a ha a1 a2
  have bB := C126_azimuth hR latB lonB latC lonC a ha b1 b2
  rw [lat_lon2n_E_fin, lat_lon2n_E_fin] at bA bB
  generalize XR.atan2 (sin (lonC - lonA) * cos latC) (cos latA * sin latC - sin latA * cos latC * cos (lonC - lonA)) = α at *
  generalize XR.atan2 (sin (lonC - lonB) * cos latC) (cos latB * sin latC - sin latB * cos latC * cos (lonC - lonB)) = β at *
  have nA := sphere_nv hR name a latA lonA z
  have nB := sphere_nv hR name a latB lonB z
  have nC := sphere_nv hR name a latC lonC z
  have hAt := sphere_atR hR name a latA lonA z
  have hBt := sphere_atR hR name a latB lonB z
  have hCu := unitVec_app hR.transpose (geoNormal_isUnit latC lonC)
  have hABC' : ¬ OneCircle (app (transp Re) (geoNormal latA lonA)) (app (transp Re) (geoNormal latB lonB))
      (app (transp Re) (geoNormal latC lonC)) := by
    unfold OneCircle at *
    rwa [cross_app hR.transpose, dot_app hR.transpose]
  have hnear' : 0 < dot (app (transp Re) (geoNormal latC lonC)) (app (transp Re) (geoNormal latA lonA)) := by
    rw [dot_app hR.transpose, dot_comm, ← cos_angle_unit (geoNormal_isUnit _ _) (geoNormal_isUnit _ _)]
    exact Real.cos_pos_of_mem_Ioo ⟨by linarith [angle_nonneg (geoNormal latA lonA) (geoNormal latC lonC), Real.pi_pos], hnear⟩
  obtain ⟨pA, -, lat1, lon1, azA, e1, n1, -⟩ := sphere_displace G ha hz name hm' a1 a2 nA d₁ α
  obtain ⟨pB, -, lat2, lon2, azB, e2, n2, -⟩ := sphere_displace G ha hz name hm' b1 b2 nB d₂ β
  obtain ⟨A', B', -, -, p1, p2, hw, o1, o2, rA, rB⟩ := bearing_lines hR ha hAt.unit hBt.unit hCu pA pB hABC' bA bB h₁ h₂
  rw [← rA] at n1
  rw [← rB] at n2
  have uA : UnitVec A' := by rw [rA]; exact reach_unit (frame_offpole hAt.unit pA) _ _
  have uB : UnitVec B' := by rw [rB]; exact reach_unit (frame_offpole hBt.unit pB) _ _
  have t1 := sphere_at name uA n1
  have t2 := sphere_at name uB n2
  have hi := (intersect_common p1 p2 hw o1 o2).1 hnear'
  refine ⟨_, _, α, β, α', β', azA, azB, _, _, eA, eB, e1, e2, ?_⟩
  have := path_intersect_of (P := GeoPath.mk (.geo A) (.geo (.real lat1 lon1 z F))) (P' := GeoPath.mk (.geo B) (.geo (.real lat2 lon2 z F)))
    hAt t1 hBt t2 (by intro p h; cases h) hi
  rw [this, show (z + z + z + z) / 4 = z by ring]
  exact congrArg _ nC.symm

end Nv
