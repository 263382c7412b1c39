import Verif.Props.Nearest
import Verif.Props.Textbook

/-!
# C127: small changes of the input change the results little

Explicit, global Lipschitz bounds (no constants hidden): depths and latitudes change at most as much as the position, distances at most by how far the end points move.
-/

namespace Nv
open Spec Real
open XR (fin)

theorem len_tri (u v w : V3 ℝ) : len (u - w) ≤ len (u - v) + len (v - w) := by
  have := len_add_le (u - v) (v - w)
  rwa [show (u - v) + (v - w) = u - w by ext <;> simp] at this

/-- between a position inside and one outside the ellipsoid there is a surface point -/
theorem crossing {a f : ℝ} {R : M3 ℝ} {p q : V3 ℝ} (hp : level a f (app R p) < 1) (hq : 1 < level a f (app R q)) :
    ∃ x : V3 ℝ, OnEllipsoid a f (app R x) ∧ len (p - x) + len (q - x) = len (p - q) := by
  let φ : ℝ → ℝ := fun t => level a f (app R (p + t • (q - p)))
  have hc : Continuous φ := by
    unfold φ level app dot
    simp only [add_x, add_y, add_z, smul_x, smul_y, smul_z]
    fun_prop
  have h0 : φ 0 = level a f (app R p) := by
    show level a f (app R (p + (0 : ℝ) • (q - p))) = _
    congr 2; ext <;> simp
  have h1 : φ 1 = level a f (app R q) := by
    show level a f (app R (p + (1 : ℝ) • (q - p))) = _
    congr 2; ext <;> simp
  obtain ⟨t, ⟨t0, t1⟩, ht⟩ := intermediate_value_Icc (zero_le_one) hc.continuousOn
    (show (1 : ℝ) ∈ Set.Icc (φ 0) (φ 1) from ⟨by rw [h0]; exact hp.le, by rw [h1]; exact hq.le⟩)
  refine ⟨p + t • (q - p), ht, ?_⟩
  have e1 : p - (p + t • (q - p)) = t • (p - q) := by ext <;> simp <;> ring
  have e2 : q - (p + t • (q - p)) = (-(1 - t)) • (p - q) := by ext <;> simp <;> ring
  rw [e1, e2, len_smul, len_smul, abs_neg, abs_of_nonneg t0, abs_of_nonneg (by linarith)]
  ring

/-- **C127** the depth of a Cartesian position is a 1-Lipschitz function: two positions differ in depth by at most their distance.  Both positions
are outside the core of C08 or on the polar axis. -/
theorem C127_depth (p q : V3 ℝ) (a f : ℝ) (ha : 0 < a) (hf0 : 0 ≤ f) (hf : f < 1) (R : M3 ℝ) (hR : IsRotation R)
    (hp : OutsideCore a f (app R p) ∨ OnAxisInsideCore a f (app R p)) (hq : OutsideCore a f (app R q) ∨ OnAxisInsideCore a f (app R q)) :
    ∃ (n m : V3 ℝ) (d e : ℝ), p_EB_E2n_EB_E p.fin (fin a) (fin f) R.fin = (n.fin, fin d) ∧
      p_EB_E2n_EB_E q.fin (fin a) (fin f) R.fin = (m.fin, fin e) ∧ |d - e| ≤ len (p - q) := by
  obtain ⟨n, s, d, h1, -, hs, -, -, h0, hin⟩ := C125_from_position p a f ha hf0 hf R hR hp
  obtain ⟨m, r, e, k1, -, hr, -, kout, -, -⟩ := C125_from_position q a f ha hf0 hf R hR hq
  obtain ⟨n', s', d', h1', -, hs', -, hout', -, hin'⟩ := C125_from_position p a f ha hf0 hf R hR hp
  obtain ⟨m', r', e', k1', -, -, -, -, -, kin'⟩ := C125_from_position q a f ha hf0 hf R hR hq
  rw [h1, Prod.mk.injEq, XR.fin_inj] at h1'
  rw [k1, Prod.mk.injEq, XR.fin_inj] at k1'
  obtain ⟨-, rfl⟩ := h1'
  obtain ⟨-, rfl⟩ := k1'
  refine ⟨n, m, d, e, h1, k1, ?_⟩
  have key : ∀ (p q s r : V3 ℝ) (d e : ℝ), NearestOnEllipsoid a f R p s |d| → NearestOnEllipsoid a f R q r |e| →
      (0 < d → level a f (app R p) < 1) → (e < 0 → 1 < level a f (app R q)) → d - e ≤ len (p - q) := by
    intro p q s r d e hs hr hin hout
    have hl := len_nonneg (p - q)
    rcases le_or_gt d 0 with hd | hd
    · rcases le_or_gt 0 e with he | he
      · linarith
      · have h := hr.2.2 s hs.1
        have t := len_tri q p s
        rw [hs.2.1, len_sub_comm q p] at t
        rw [abs_of_neg he] at h
        rw [abs_of_nonpos hd] at t
        linarith
    · rcases le_or_gt 0 e with he | he
      · have h := hs.2.2 r hr.1
        have t := len_tri p q r
        rw [hr.2.1] at t
        rw [abs_of_pos hd] at h
        rw [abs_of_nonneg he] at t
        linarith
      · obtain ⟨x, hx, hsum⟩ := crossing (hin hd) (hout he)
        have h := hs.2.2 x hx
        have k := hr.2.2 x hx
        rw [abs_of_pos hd] at h
        rw [abs_of_neg he] at k
        linarith
  rw [abs_le]
  constructor
  · have := key q p r s e d hr hs kin'.1 hout'.1
    rw [len_sub_comm] at this
    linarith
  · exact key p q s r d e hs hr hin.1 kout.1

/-- **C127** the n-vector of a Cartesian position changes by at most the distance moved, divided by how far the positions are above the centre of curvature: on and
above the ellipsoid, by at most `distance / (a (1-f)²)` -/
theorem C127_nvector (p q : V3 ℝ) (a f : ℝ) (ha : 0 < a) (hf0 : 0 ≤ f) (hf : f < 1) (R : M3 ℝ) (hR : IsRotation R)
    (hp : OutsideCore a f (app R p) ∨ OnAxisInsideCore a f (app R p)) (hq : OutsideCore a f (app R q) ∨ OnAxisInsideCore a f (app R q)) :
    ∃ (n m : V3 ℝ) (d e : ℝ), p_EB_E2n_EB_E p.fin (fin a) (fin f) R.fin = (n.fin, fin d) ∧
      p_EB_E2n_EB_E q.fin (fin a) (fin f) R.fin = (m.fin, fin e) ∧
      (a * (1 - f) ^ 2 - (d + e) / 2) * len (n - m) ≤ len (p - q) ∧
      (d ≤ 0 → e ≤ 0 → len (n - m) ≤ len (p - q) / (a * (1 - f) ^ 2)) := by
  obtain ⟨n, d, h1, un, hpos, -⟩ := p2n_curvature p a f ha hf0 hf R hR hp
  obtain ⟨m, e, k1, um, kpos, -⟩ := p2n_curvature q a f ha hf0 hf R hR hq
  have h := normal_close (a := a) (f := f) (d := e) (d' := d) ha hf0 hf um un
  rw [hpos, kpos, ← app_sub, len_app hR] at h
  have hl : len (app (transp R) n - app (transp R) m) = len (n - m) := by rw [← app_sub, len_app hR.transpose]
  refine ⟨_, _, d, e, h1, k1, ?_, ?_⟩
  · rw [hl, add_comm d e]; exact h
  · intro hd he
    have hg : 0 < 1 - f := by linarith
    rw [hl, le_div_iff₀ (by positivity)]
    have := mul_nonneg (show 0 ≤ -(e + d) / 2 by linarith) (len_nonneg (n - m))
    linarith

/-- **C127** the Cartesian position of an n-vector and a depth moves by at most `(a/(1-f) + |d|) |n - m| + |d - e|` -/
theorem C127_position (n m : V3 ℝ) (hn : UnitVec n) (hm : UnitVec m) (d e a f : ℝ) (ha : 0 < a) (hf0 : 0 ≤ f) (hf : f < 1) (R : M3 ℝ) (hR : IsRotation R) :
    ∃ p q : V3 ℝ, n_EB_E2p_EB_E n.fin (fin d) (fin a) (fin f) R.fin = p.fin ∧ n_EB_E2p_EB_E m.fin (fin e) (fin a) (fin f) R.fin = q.fin ∧
      len (p - q) ≤ (a / (1 - f) + |d|) * len (n - m) + |d - e| := by
  refine ⟨_, _, n2p_fin hn.ne d a f hf hR, n2p_fin hm.ne e a f hf hR, ?_⟩
  rw [dirOf_of_unit hn, dirOf_of_unit hm, ← app_sub, len_app hR.transpose]
  have h := pos_close (a := a) (f := f) (d := d) (d' := e) ha hf0 hf (unitVec_app hR hn) (unitVec_app hR hm)
  rw [← app_sub, len_app hR, len_sub_comm m n, abs_sub_comm e d] at h
  rwa [len_sub_comm]

/-- **C127** the great circle distance changes by at most how far the two end points move -/
theorem C127_distance (A B A' B' : V3 ℝ) (hA : UnitVec A) (hB : UnitVec B) (hA' : UnitVec A') (hB' : UnitVec B') (r : ℝ) (hr : 0 < r) :
    ∃ d d' x y : ℝ, great_circle_distance A.fin B.fin (fin r) = fin d ∧ great_circle_distance A'.fin B'.fin (fin r) = fin d' ∧
      great_circle_distance A.fin A'.fin (fin r) = fin x ∧ great_circle_distance B.fin B'.fin (fin r) = fin y ∧ |d - d'| ≤ x + y := by
  refine ⟨_, _, _, _, C18_eq_angle _ _ hA.ne hB.ne r, C18_eq_angle _ _ hA'.ne hB'.ne r, C18_eq_angle _ _ hA.ne hA'.ne r,
    C18_eq_angle _ _ hB.ne hB'.ne r, ?_⟩
  have t1 := angle_triangle hA hA' hB
  have t2 := angle_triangle hA' hB' hB
  have t3 := angle_triangle hA' hA hB'
  have t4 := angle_triangle hA hB hB'
  rw [angle_comm B' B] at t2
  rw [angle_comm A' A] at t3
  rw [← sub_mul, ← add_mul, abs_mul, abs_of_pos hr]
  apply mul_le_mul_of_nonneg_right _ hr.le
  rw [abs_le]; constructor <;> linarith

/-- **C127** the signed cross track distance changes by at most how far the point moves -/
theorem C127_cross_track (A B P Q : V3 ℝ) (hp : ProperPath A B) (hP : UnitVec P) (hQ : UnitVec Q) (r : ℝ) (hr : 0 < r) :
    ∃ x y d : ℝ, cross_track_distance (A.fin, B.fin) P.fin (radius := fin r) = .ok (fin x) ∧
      cross_track_distance (A.fin, B.fin) Q.fin (radius := fin r) = .ok (fin y) ∧ great_circle_distance P.fin Q.fin (fin r) = fin d ∧ |x - y| ≤ d := by
  refine ⟨_, _, _, cross_track_fin hp hP r, cross_track_fin hp hQ r, C18_eq_angle _ _ hP.ne hQ.ne r, ?_⟩
  have hc := hp.dirOf_unit
  have e : ∀ X : V3 ℝ, UnitVec X → arcsin (-dot (dirOf (cross A B)) X) = angle (dirOf (cross A B)) X - π / 2 := by
    intro X hX
    rw [angle_unit hc hX, Real.arcsin_neg, Real.arccos]; ring
  rw [e P hP, e Q hQ, ← sub_mul, abs_mul, abs_of_pos hr]
  apply mul_le_mul_of_nonneg_right _ hr.le
  have t1 := angle_triangle hc hP hQ
  have t2 := angle_triangle hc hQ hP
  rw [angle_comm Q P] at t2
  rw [abs_le]; constructor <;> linarith

/-- **C127** latitudes differ by at most the angle between the n-vectors -/
theorem C127_latitude (n m : V3 ℝ) (hn : UnitVec n) (hm : UnitVec m) (R : M3 ℝ) (hR : IsRotation R) :
    ∃ lat lon lat' lon' d : ℝ, n_E2lat_lon n.fin R.fin = (fin lat, fin lon) ∧ n_E2lat_lon m.fin R.fin = (fin lat', fin lon') ∧
      great_circle_distance n.fin m.fin (fin 1) = fin d ∧ |lat - lat'| ≤ d := by
  have e : ∀ X : V3 ℝ, UnitVec X → ∃ lat lon, n_E2lat_lon X.fin R.fin = (fin lat, fin lon) ∧ lat = π / 2 - angle (northPole R) X := by
    intro X hX
    obtain ⟨lat, lon, e, r1, r2, -⟩ := C03_ranges X hX.ne R hR
    refine ⟨lat, lon, e, ?_⟩
    have hback := C02_roundtrip_unit X hX R hR
    rw [e, lat_lon2n_E_fin, V3.fin_inj] at hback
    rw [angle_unit (northPole_unit hR) hX, ← hback]
    unfold northPole
    rw [dot_app hR.transpose]
    have : dot ⟨1, 0, 0⟩ (geoNormal lat lon) = sin lat := by simp [dot, geoNormal]
    rw [this, Real.arccos, Real.arcsin_sin r1 r2]; ring
  obtain ⟨lat, lon, e1, h1⟩ := e n hn
  obtain ⟨lat', lon', e2, h2⟩ := e m hm
  refine ⟨lat, lon, lat', lon', _, e1, e2, C18_eq_angle _ _ hn.ne hm.ne 1, ?_⟩
  have hN := northPole_unit hR
  have t1 := angle_triangle hN hn hm
  have t2 := angle_triangle hN hm hn
  rw [angle_comm m n] at t2
  rw [h1, h2, mul_one, abs_le]; constructor <;> linarith

/-- **C127** along a great circle the point reached moves exactly as far as the distance changes -/
theorem C127_direct (n : V3 ℝ) (hn : UnitVec n) (R : M3 ℝ) (hp : cross (northPole R) n ≠ 0) (d e az : ℝ) (h : |d - e| ≤ π) :
    ∃ B C : V3 ℝ, n_EA_E_distance_and_azimuth2n_EB_E n.fin (fin d) (fin az) R.fin = B.fin ∧
      n_EA_E_distance_and_azimuth2n_EB_E n.fin (fin e) (fin az) R.fin = C.fin ∧ great_circle_distance B.fin C.fin (fin 1) = fin |d - e| := by
  have hf := frame_offpole hn hp
  refine ⟨_, _, direct_offpole hn hp d az, direct_offpole hn hp e az, ?_⟩
  change great_circle_distance (reach n _ d az).fin (reach n _ e az).fin (fin 1) = _
  have u1 := reach_unit hf d az
  have u2 := reach_unit hf e az
  rw [C18_eq_angle _ _ u1.ne u2.ne, mul_one, angle_unit u1 u2]
  have hd : dot (reach n (dirOf (cross (northPole R) n)) d az) (reach n (dirOf (cross (northPole R) n)) e az) = cos (|d - e|) := by
    rw [Real.cos_abs, Real.cos_sub]
    generalize dirOf (cross (northPole R) n) = e' at *
    obtain ⟨q1, q2, q3⟩ := reach_dot hf e az
    have : ∀ X : V3 ℝ, dot (reach n e' d az) X = cos d * dot n X + sin d * (cos az * dot (cross n e') X + sin az * dot e' X) := by
      intro X; unfold reach; rw [dot_add_left, dot_smul_left, dot_smul_left, dot_add_left, dot_smul_left, dot_smul_left]
    rw [this, q1, q2, q3]
    linear_combination sin d * sin e * Real.sin_sq_add_cos_sq az
  rw [hd, Real.arccos_cos (abs_nonneg _) h]

/-- witness: two positions for the first two theorems -/
example : OutsideCore 6378137 (1 / 298.257223563) (app one ⟨4000000, 3000000, 4000000⟩) ∧
    OutsideCore 6378137 (1 / 298.257223563) (app one ⟨4000001, 3000000, 4000000⟩) := by
  constructor <;> · unfold OutsideCore; norm_num [app, dot, one]

end Nv
