import Verif.Props.Displace

/-!
# C121: the azimuth returned by `GeoPoint.displace(method='greatcircle')` is the heading on arrival

On a spherical earth, walking `d1` and then `d2` further along the returned azimuth is walking `d1 + d2`.
-/

namespace Nv
open Spec Real
open XR (fin)

/-- the direction of travel on arrival -/
noncomputable def heading (n e : V3 ℝ) (d az : ℝ) : V3 ℝ := (-sin d) • n + cos d • (cos az • cross n e + sin az • e)

theorem frame_expand {n e : V3 ℝ} (hf : Frame n e) (B : V3 ℝ) :
    B = dot n B • n + dot (cross n e) B • cross n e + dot e B • e :=
  C29_inverse_direct_partial.expand hf B

theorem heading_perp {n e : V3 ℝ} (h : Frame n e) (d az : ℝ) :
    dot (reach n e d az) (heading n e d az) = 0 ∧ dot (heading n e d az) (heading n e d az) = 1 := by
  have h1 := h.un.dot; have h2 := h.ue.dot; have h3 := h.perp; have h4 := h.cross_unit.dot
  have h5 : dot e n = 0 := by rw [dot_comm]; exact h3
  have h6 : dot n (cross n e) = 0 := dot_cross_self_left _ _
  have h7 : dot e (cross n e) = 0 := dot_cross_self_right _ _
  have h8 : dot (cross n e) n = 0 := dot_cross_left_self _ _
  have h9 : dot (cross n e) e = 0 := dot_cross_right_self _ _
  unfold reach heading
  simp only [dot_add_right, dot_smul_right, dot_add_left, dot_smul_left, h1, h2, h3, h4, h5, h6, h7, h8, h9]
  have s1 := sin_sq_add_cos_sq d; have s2 := sin_sq_add_cos_sq az
  constructor
  · linear_combination (sin d * cos d) * s2
  · linear_combination s1 + cos d ^ 2 * s2

/-- going on along the heading -/
theorem reach_reach {n e e' : V3 ℝ} (d az d2 az' : ℝ)
    (h : cos az' • cross (reach n e d az) e' + sin az' • e' = heading n e d az) :
    reach (reach n e d az) e' d2 az' = reach n e (d + d2) az := by
  have key : reach (reach n e d az) e' d2 az' = cos d2 • reach n e d az + sin d2 • heading n e d az := by
    conv_lhs => unfold reach
    rw [← h]; rfl
  rw [key]
  unfold reach heading
  rw [cos_add, sin_add]
  ext <;> simp <;> ring

/-- the same backwards -/
theorem reach_reach_neg {n e e' : V3 ℝ} (d az d2 az' : ℝ)
    (h : cos az' • cross (reach n e d az) e' + sin az' • e' = -heading n e d az) :
    reach (reach n e d az) e' d2 az' = reach n e (d - d2) az := by
  have key : reach (reach n e d az) e' d2 az' = cos d2 • reach n e d az + sin d2 • (-heading n e d az) := by
    conv_lhs => unfold reach
    rw [← h]; rfl
  rw [key]
  unfold reach heading
  rw [cos_sub, sin_sub]
  ext <;> simp <;> ring

theorem heading_add {n e : V3 ℝ} (d az d2 : ℝ) :
    heading n e (d + d2) az = (-sin d2) • reach n e d az + cos d2 • heading n e d az := by
  unfold reach heading
  rw [cos_add, sin_add]
  ext <;> simp <;> ring

/-- where one came from, seen on arrival -/
theorem start_of_arrival {n e : V3 ℝ} (d az : ℝ) : n = cos d • reach n e d az + (-sin d) • heading n e d az := by
  have s1 := sin_sq_add_cos_sq d
  unfold reach heading
  ext
  · simp; linear_combination (-n.x) * s1
  · simp; linear_combination (-n.y) * s1
  · simp; linear_combination (-n.z) * s1

/-- the position on a sphere -/
theorem sphere_at {a z : ℝ} (name : EllKey) {lat lon : ℝ} {n : V3 ℝ} (hu : UnitVec n)
    (hn : (GeoPoint.real lat lon z (.real a 0 name Re)).to_nvector = .real n z (.real a 0 name Re)) :
    At (.geo (.real lat lon z (.real a 0 name Re))) n z ((a - z) • n) (.real a 0 name Re) := by
  have h9 := C09_n2p n hu.ne z a Re isRotation_Re
  have hd : (len n)⁻¹ • n = n := dirOf_of_unit hu
  rw [hd] at h9
  refine ⟨hn, hu, ?_⟩
  change (GeoPoint.to_nvector _).to_ecef_vector = _
  rw [hn]
  unfold Nvector.to_ecef_vector Nvector.real FrameE.real ECEFvector.real
  simp only [h9]

theorem displace_other (G : Geodesic XR) {method : String} (hm : method.toList.head? ≠ some 'e') (p : GeoPoint XR) (d az : XR) :
    p.displace G d az (method := method) = p.displace_great_circle d az false := by
  unfold GeoPoint.displace
  rw [if_neg]
  intro h
  apply hm
  unfold strTake at h
  rcases hh : method.toList with _ | ⟨c, cs⟩
  · rw [hh] at h; exact absurd h (by decide)
  · rw [hh] at h
    have := congrArg String.toList h
    simp at this
    simp [this]

/-- `pos` and `displace` on a sphere, with the value of the returned azimuth -/
theorem sphere_displace (G : Geodesic XR) {a z : ℝ} (ha : 0 < a) (hz : z < a) (name : EllKey) {method : String}
    (hm : method.toList.head? ≠ some 'e') {lat lon : ℝ} (h1 : -(π / 2) < lat) (h2 : lat < π / 2) {nA : V3 ℝ}
    (hnA : (GeoPoint.real lat lon z (.real a 0 name Re)).to_nvector = .real nA z (.real a 0 name Re)) (d az : ℝ) :
    cross (northPole Re) nA ≠ 0 ∧ UnitVec nA ∧
    ∃ latB lonB azB : ℝ,
      (GeoPoint.real lat lon z (.real a 0 name Re)).displace G (fin d) (fin az) (method := method) =
        .ok (.real latB lonB z (.real a 0 name Re), fin azB) ∧
      (GeoPoint.real latB lonB z (.real a 0 name Re)).to_nvector =
        .real (reach nA (dirOf (cross (northPole Re) nA)) (d / (a - z)) az) z (.real a 0 name Re) ∧
      GeoPoint.real latB lonB z (.real a 0 name Re) =
        (Nvector.real (reach nA (dirOf (cross (northPole Re) nA)) (d / (a - z)) az) z (.real a 0 name Re)).to_geo_point ∧
      -π ≤ azB ∧ azB < π ∧
      (-(π / 2) < latB → latB < π / 2 →
        ∃ eB, eB = dirOf (cross (northPole Re) (reach nA (dirOf (cross (northPole Re) nA)) (d / (a - z)) az)) ∧
        |sin (d / (a - z))| • (cos azB • cross (reach nA (dirOf (cross (northPole Re) nA)) (d / (a - z)) az) eB + sin azB • eB) =
          sin (d / (a - z)) • heading nA (dirOf (cross (northPole Re) nA)) (d / (a - z)) az) := by
  have hrad : 0 < a - z := by linarith
  obtain ⟨n', hn', hu, hg⟩ := geoPoint_to_nvector lat lon z a 0 name Re isRotation_Re
  have hnn : n' = nA := V3.fin_inj.1 (congrArg Nvector.normal (hn'.symm.trans hnA))
  subst hnn
  have hpole := northPole_ne h1 h2 isRotation_Re hg
  refine ⟨hpole, hu, ?_⟩
  have hf := frame_offpole hu hpole
  have hA := sphere_at name hu hnA
  have hlA : len ((a - z) • n') = a - z := by rw [len_smul, hu.len, mul_one, abs_of_pos hrad]
  have hdir := direct_offpole hu hpole (d / (a - z)) az
  generalize hAe : dirOf (cross (northPole Re) n') = eA at *
  change _ = (reach n' eA (d / (a - z)) az).fin at hdir
  have uB := reach_unit hf (d / (a - z)) az
  have hperp := heading_perp hf (d / (a - z)) az
  have hstart := start_of_arrival (n := n') (e := eA) (d / (a - z)) az
  obtain ⟨nB, hnB⟩ : ∃ nB, nB = reach n' eA (d / (a - z)) az := ⟨_, rfl⟩
  rw [← hnB] at hdir uB hperp hstart ⊢
  obtain ⟨t, ht⟩ : ∃ t, t = heading n' eA (d / (a - z)) az := ⟨_, rfl⟩
  rw [← ht] at hperp hstart ⊢
  obtain ⟨latB, lonB, hll, r1, r2, r3, r4, r5⟩ := C03_ranges nB uB.ne Re isRotation_Re
  have hgp : GeoPoint.real latB lonB z (.real a 0 name Re) = (Nvector.real nB z (.real a 0 name Re)).to_geo_point := by
    unfold Nvector.to_geo_point Nvector.real FrameE.real
    simp only [hll]; rfl
  have hq : (GeoPoint.real latB lonB z (.real a 0 name Re)).to_nvector = .real nB z (.real a 0 name Re) := by
    rw [hgp, C45_nvector_geo_nvector nB uB.ne _ a 0 name Re isRotation_Re]
    exact congrArg (fun v => Nvector.real v _ _) (dirOf_of_unit uB)
  have hB := sphere_at name uB hq
  -- the call
  have hnA' : (GeoPoint.real lat lon z (.real a 0 name Re)).to_nvector = .real n' z (.real a 0 name Re) := hnA
  have heA : (Nvector.real n' z (.real a 0 name Re)).to_ecef_vector = .real ((a - z) • n') (.real a 0 name Re) := by
    have := hA.ec
    change (GeoPoint.real lat lon z (.real a 0 name Re)).to_nvector.to_ecef_vector = _ at this
    rwa [hnA'] at this
  have hlen : length (ECEFvector.real ((a - z) • n') (.real a 0 name Re)).pvector = fin (a - z) := by
    unfold length; simp only [ECEFvector.real, xr]; rw [hlA]
  have call : ∀ M : M3 ℝ, n_E2R_EN nB.fin Re.fin = M.fin → ∀ azB : ℝ,
      base_angle (fin (XR.atan2 (dot (col1 M) ((a - z) • n' - (a - z) • nB)) (dot (col0 M) ((a - z) • n' - (a - z) • nB)) - π)) = fin azB →
      (GeoPoint.real lat lon z (.real a 0 name Re)).displace G (fin d) (fin az) (method := method) =
        .ok (.real latB lonB z (.real a 0 name Re), fin azB) := by
    intro M hM azB hb
    have hdel := (delta_fin (A := .geo (.real latB lonB z (.real a 0 name Re)))
      (B := .ecef (.real ((a - z) • n') (.real a 0 name Re))) (n := nB) hq hB.ec rfl).2.1 M hM
    rw [displace_other G hm]
    unfold GeoPoint.displace_great_circle
    simp only [hnA', heA, hlen, XR.div_fin hrad.ne', Bool.false_eq_true, if_false]
    have e1 : n_EA_E_distance_and_azimuth2n_EB_E (Nvector.real n' z (.real a 0 name Re)).normal (fin (d / (a - z))) (fin az) = nB.fin := by
      rw [← hdir, ← R_e_fin]; rfl
    have e2 : Nvector.to_geo_point ⟨nB.fin, (GeoPoint.real lat lon z (.real a 0 name Re)).z,
        (GeoPoint.real lat lon z (.real a 0 name Re)).frame⟩ = .real latB lonB z (.real a 0 name Re) := hgp.symm
    rw [e1, e2, hdel]
    simp only [bind, Except.bind, pure, Except.pure, Pvector.real, azimuth, xr]
    have e3 : ∀ v, (app (transp M) v).x = dot (col0 M) v := fun v => rfl
    have e4 : ∀ v, (app (transp M) v).y = dot (col1 M) v := fun v => rfl
    rw [e3, e4, hb]
  obtain ⟨M, hM, -⟩ := C12_R_EN_rotation nB uB.ne Re isRotation_Re
  obtain ⟨azB, hb, hb1, hb2, ⟨k, hk⟩, -⟩ := C44_base_angle
    (XR.atan2 (dot (col1 M) ((a - z) • n' - (a - z) • nB)) (dot (col0 M) ((a - z) • n' - (a - z) • nB)) - π)
  refine ⟨latB, lonB, azB, call M hM azB hb, hq, hgp, hb1, hb2, ?_⟩
  intro l1 l2
  refine ⟨_, rfl, ?_⟩
  obtain ⟨n'', hn'', -, hg'⟩ := geoPoint_to_nvector latB lonB z a 0 name Re isRotation_Re
  have hnn' : n'' = nB := V3.fin_inj.1 (congrArg Nvector.normal (hn''.symm.trans hq))
  rw [hnn'] at hg'
  have hpB := northPole_ne l1 l2 isRotation_Re hg'
  have hfB := frame_offpole uB hpB
  obtain ⟨M', hM', -, -, hc1, hc0⟩ := n_E2R_EN_offpole nB Re isRotation_Re hpB
  have hMM : M = M' := M3.fin_inj.1 (hM.symm.trans hM')
  subst hMM
  rw [dirOf_of_unit uB] at hc0
  obtain ⟨e, he⟩ : ∃ e, e = dirOf (cross (northPole Re) nB) := ⟨_, rfl⟩
  rw [← he] at hc0 hc1 hfB ⊢
  obtain ⟨s, hs⟩ : ∃ s, s = sin (d / (a - z)) := ⟨_, rfl⟩
  rw [← hs] at hstart ⊢
  have hBe : dot nB e = 0 := hfB.perp
  have hx : dot (cross nB e) ((a - z) • n' - (a - z) • nB) = (a - z) * (-s * dot (cross nB e) t) := by
    rw [dot_sub_right, dot_smul_right, dot_smul_right, dot_cross_left_self]
    conv_lhs => rw [hstart]
    rw [dot_add_right, dot_smul_right, dot_smul_right, dot_cross_left_self]; ring
  have hy : dot e ((a - z) • n' - (a - z) • nB) = (a - z) * (-s * dot e t) := by
    rw [dot_sub_right, dot_smul_right, dot_smul_right, dot_comm e nB, hBe]
    conv_lhs => rw [hstart]
    rw [dot_add_right, dot_smul_right, dot_smul_right, dot_comm e nB, hBe]; ring
  have hexp := frame_expand hfB t
  rw [hperp.1] at hexp
  have hsum : (dot (cross nB e) t) ^ 2 + (dot e t) ^ 2 = 1 := by
    have h := hperp.2
    conv_lhs at h => arg 1; rw [hexp]
    rw [dot_add_left, dot_add_left, dot_smul_left, dot_smul_left, dot_smul_left] at h
    linear_combination h
  rw [hc0, hc1, hx, hy, XR.atan2_scale hrad] at hk
  have q1 := XR.sqrt_mul_cos_atan2 (-s * dot e t) (-s * dot (cross nB e) t)
  have q2 := XR.sqrt_mul_sin_atan2 (-s * dot e t) (-s * dot (cross nB e) t)
  have q3 : √((-s * dot (cross nB e) t) ^ 2 + (-s * dot e t) ^ 2) = |s| := by
    rw [show (-s * dot (cross nB e) t) ^ 2 + (-s * dot e t) ^ 2 = s ^ 2 by linear_combination s ^ 2 * hsum, Real.sqrt_sq_eq_abs]
  rw [q3] at q1 q2
  have hat : XR.atan2 (-s * dot e t) (-s * dot (cross nB e) t) = azB + π + k * (2 * π) := by linarith
  rw [hat, Real.cos_add_int_mul_two_pi, Real.cos_add_pi] at q1
  rw [hat, Real.sin_add_int_mul_two_pi, Real.sin_add_pi] at q2
  have ex := congrArg V3.x hexp; have ey := congrArg V3.y hexp; have ez := congrArg V3.z hexp
  simp only [add_x, smul_x, add_y, smul_y, add_z, smul_z] at ex ey ez
  ext
  · simp only [add_x, smul_x]; rw [ex]; linear_combination (-(cross nB e).x) * q1 - e.x * q2
  · simp only [add_y, smul_y]; rw [ey]; linear_combination (-(cross nB e).y) * q1 - e.y * q2
  · simp only [add_z, smul_z]; rw [ez]; linear_combination (-(cross nB e).z) * q1 - e.z * q2

theorem smul_left_cancel' {c : ℝ} (hc : c ≠ 0) {v w : V3 ℝ} (h : c • v = c • w) : v = w := by
  have hx := congrArg V3.x h; have hy := congrArg V3.y h; have hz := congrArg V3.z h
  simp only [smul_x, smul_y, smul_z] at hx hy hz
  ext
  · exact mul_left_cancel₀ hc hx
  · exact mul_left_cancel₀ hc hy
  · exact mul_left_cancel₀ hc hz

/-- two azimuths in `[-π, π)` of the same direction are equal -/
theorem azimuth_unique {u v : V3 ℝ} (hu : UnitVec u) (hv : UnitVec v) (huv : dot u v = 0) {x y : ℝ} (hx1 : -π ≤ x) (hx2 : x < π)
    (hy1 : -π ≤ y) (hy2 : y < π) (h : cos x • u + sin x • v = cos y • u + sin y • v) : x = y := by
  have h1 := congrArg (dot u) h
  have h2 := congrArg (dot v) h
  rw [dot_add_right, dot_add_right, dot_smul_right, dot_smul_right, dot_smul_right, dot_smul_right, hu.dot, huv] at h1
  rw [dot_add_right, dot_add_right, dot_smul_right, dot_smul_right, dot_smul_right, dot_smul_right, hv.dot, dot_comm v u, huv] at h2
  have hc : cos x = cos y := by linarith
  have hs : sin x = sin y := by linarith
  have e : (x : Real.Angle) = (y : Real.Angle) := Real.Angle.cos_sin_inj hc hs
  obtain ⟨k, hk⟩ := Real.Angle.angle_eq_iff_two_pi_dvd_sub.1 e
  have hp := Real.pi_pos
  have k1 : (k : ℝ) < 1 := by
    by_contra hh
    have := mul_le_mul_of_nonneg_left (not_lt.1 hh) (by positivity : 0 ≤ 2 * π); linarith
  have k2 : (-1 : ℝ) < k := by
    by_contra hh
    have := mul_le_mul_of_nonneg_left (not_lt.1 hh) (by positivity : 0 ≤ 2 * π); linarith
  have k0 : k = 0 := by
    have a1 : k < 1 := by exact_mod_cast k1
    have a2 : -1 < k := by exact_mod_cast k2
    omega
  rw [k0] at hk; simp at hk; linarith

/-- **C121** (part) On a spherical earth (`f = 0`, any radius, depth less than the radius, default axes), walk the distance
`d1` (less than half way round) from `A` along the azimuth `az` and then the distance `d2` along the azimuth that was returned:
this leads where `d1 + d2` leads from `A`, and if `d2 > 0` and the whole way is less than half way round, it returns the same
final azimuth.  `A` is not a pole, nor is the intermediate point (nor, for the final azimuth, the last one).  Missing: `d1`
more than half way round, where the claim is false (`C121_beyond_half_way`). -/
theorem C121_continue_partial (G : Geodesic XR) (a z : ℝ) (ha : 0 < a) (hz : z < a) (name : EllKey) (method : String)
    (hm : method.toList.head? ≠ some 'e') (lat lon : ℝ) (h1 : -(π / 2) < lat) (h2 : lat < π / 2) (d1 d2 az : ℝ) (hd0 : 0 < d1)
    (hd : d1 < π * (a - z)) :
    ∃ latB lonB azB latC lonC azC : ℝ,
      (GeoPoint.real lat lon z (.real a 0 name Re)).displace G (fin d1) (fin az) (method := method) =
        .ok (.real latB lonB z (.real a 0 name Re), fin azB) ∧
      (GeoPoint.real lat lon z (.real a 0 name Re)).displace G (fin (d1 + d2)) (fin az) (method := method) =
        .ok (.real latC lonC z (.real a 0 name Re), fin azC) ∧
      (-(π / 2) < latB → latB < π / 2 → ∃ azC' : ℝ,
        (GeoPoint.real latB lonB z (.real a 0 name Re)).displace G (fin d2) (fin azB) (method := method) =
          .ok (.real latC lonC z (.real a 0 name Re), fin azC') ∧
        (0 < d2 → d1 + d2 < π * (a - z) → -(π / 2) < latC → latC < π / 2 → azC' = azC)) := by
  have hrad : 0 < a - z := by linarith
  obtain ⟨nA, hnA, -, -⟩ := geoPoint_to_nvector lat lon z a 0 name Re isRotation_Re
  obtain ⟨hpA, uA, latB, lonB, azB, hB, hnB, hgB, b1, b2, hazB⟩ := sphere_displace G ha hz name hm h1 h2 hnA d1 az
  obtain ⟨-, -, latC, lonC, azC, hC, hnC, hgC, c1, c2, hazC⟩ := sphere_displace G ha hz name hm h1 h2 hnA (d1 + d2) az
  refine ⟨latB, lonB, azB, latC, lonC, azC, hB, hC, ?_⟩
  intro l1 l2
  obtain ⟨eB, heB, hdir⟩ := hazB l1 l2
  obtain ⟨hpB, uB, latC', lonC', azC', hC', hnC', hgC', c1', c2', hazC'⟩ := sphere_displace G ha hz name hm l1 l2 hnB d2 azB
  have hA := frame_offpole uA hpA
  generalize dirOf (cross (northPole Re) nA) = eA at *
  have hs : 0 < sin (d1 / (a - z)) := Real.sin_pos_of_pos_of_lt_pi (by positivity) (by rwa [div_lt_iff₀ hrad])
  rw [abs_of_pos hs] at hdir
  have hd1 := smul_left_cancel' hs.ne' hdir
  rw [heB] at hd1
  have hrr := reach_reach (d1 / (a - z)) az (d2 / (a - z)) azB hd1
  rw [← add_div] at hrr
  have hsame : GeoPoint.real latC' lonC' z (.real a 0 name Re) = .real latC lonC z (.real a 0 name Re) := by
    rw [hgC', hgC, hrr]
  refine ⟨azC', ?_, ?_⟩
  · rw [hC', hsame]
  · intro p2 p3 m1 m2
    have hlat : latC' = latC := XR.fin.inj (congrArg GeoPoint.latitude hsame)
    obtain ⟨e1, he1, g1⟩ := hazC m1 m2
    obtain ⟨e2, he2, g2⟩ := hazC' (by rw [hlat]; exact m1) (by rw [hlat]; exact m2)
    have hB' := frame_offpole uB hpB
    rw [hrr] at he2 g2
    have he : e2 = e1 := by rw [he2, he1]
    subst he
    have hs2 : 0 < sin (d2 / (a - z)) := Real.sin_pos_of_pos_of_lt_pi (by positivity) (by rw [div_lt_iff₀ hrad]; linarith)
    have hs3 : 0 < sin ((d1 + d2) / (a - z)) := Real.sin_pos_of_pos_of_lt_pi (by positivity) (by rwa [div_lt_iff₀ hrad])
    rw [abs_of_pos hs3] at g1
    rw [abs_of_pos hs2] at g2
    have g1' := smul_left_cancel' hs3.ne' g1
    have g2' := smul_left_cancel' hs2.ne' g2
    have hh : heading (reach nA eA (d1 / (a - z)) az) (dirOf (cross (northPole Re) (reach nA eA (d1 / (a - z)) az))) (d2 / (a - z)) azB
        = heading nA eA ((d1 + d2) / (a - z)) az := by
      rw [add_div, heading_add, ← hd1]; rfl
    rw [hh, ← g1'] at g2'
    -- the frame at C
    obtain ⟨-, uC, -⟩ := sphere_displace G ha hz name hm m1 m2 hnC 0 0
    have hpC := (sphere_displace G ha hz name hm m1 m2 hnC 0 0).1
    have hfC := frame_offpole uC hpC
    rw [← he1] at hfC
    exact azimuth_unique hfC.cross_unit hfC.ue (by rw [dot_cross_right_self]) c1' c2' c1 c2 g2'

/-- **C121** going back: turn round on arrival and walk the same distance; this leads back to `A` -/
theorem C121_return (G : Geodesic XR) (a z : ℝ) (ha : 0 < a) (hz : z < a) (name : EllKey) (method : String)
    (hm : method.toList.head? ≠ some 'e') (lat lon : ℝ) (h1 : -(π / 2) < lat) (h2 : lat < π / 2) (h3 : -π < lon) (h4 : lon ≤ π)
    (d az : ℝ) (hd0 : 0 < d) (hd : d < π * (a - z)) :
    ∃ latB lonB azB : ℝ,
      (GeoPoint.real lat lon z (.real a 0 name Re)).displace G (fin d) (fin az) (method := method) =
        .ok (.real latB lonB z (.real a 0 name Re), fin azB) ∧
      (-(π / 2) < latB → latB < π / 2 → ∃ azA : ℝ, ∃ k : ℤ,
        (GeoPoint.real latB lonB z (.real a 0 name Re)).displace G (fin d) (fin (azB + π)) (method := method) =
          .ok (.real lat lon z (.real a 0 name Re), fin azA) ∧ azA = az + π + k * (2 * π)) := by
  have hrad : 0 < a - z := by linarith
  obtain ⟨nA, hnA, -, -⟩ := geoPoint_to_nvector lat lon z a 0 name Re isRotation_Re
  obtain ⟨hpA, uA, latB, lonB, azB, hB, hnB, hgB, b1, b2, hazB⟩ := sphere_displace G ha hz name hm h1 h2 hnA d az
  refine ⟨latB, lonB, azB, hB, ?_⟩
  intro l1 l2
  obtain ⟨eB, heB, hdir⟩ := hazB l1 l2
  obtain ⟨hpB, uB, latC, lonC, azC, hC, hnC, hgC, c1, c2, hazC⟩ := sphere_displace G ha hz name hm l1 l2 hnB d (azB + π)
  have hA := frame_offpole uA hpA
  generalize heA : dirOf (cross (northPole Re) nA) = eA at *
  have hs : 0 < sin (d / (a - z)) := Real.sin_pos_of_pos_of_lt_pi (by positivity) (by rwa [div_lt_iff₀ hrad])
  rw [abs_of_pos hs] at hdir
  have hd1 := smul_left_cancel' hs.ne' hdir
  rw [heB] at hd1
  have hneg : cos (azB + π) • cross (reach nA eA (d / (a - z)) az) (dirOf (cross (northPole Re) (reach nA eA (d / (a - z)) az))) +
      sin (azB + π) • dirOf (cross (northPole Re) (reach nA eA (d / (a - z)) az)) = -heading nA eA (d / (a - z)) az := by
    rw [← hd1, Real.cos_add_pi, Real.sin_add_pi]
    ext <;> simp <;> ring
  have hrr := reach_reach_neg (d / (a - z)) az (d / (a - z)) (azB + π) hneg
  have h0 : reach nA eA 0 az = nA := by unfold reach; rw [cos_zero, sin_zero]; ext <;> simp
  rw [sub_self, h0] at hrr
  have hback : GeoPoint.real latC lonC z (.real a 0 name Re) = .real lat lon z (.real a 0 name Re) := by
    rw [hgC, hrr, ← C45_geo_nvector_geo lat lon z a 0 name Re isRotation_Re h1 h2 h3 h4]
    change _ = (Position.geo (.real lat lon z (.real a 0 name Re))).to_nvector.to_geo_point
    rw [hnA]
  have hlat : latC = lat := XR.fin.inj (congrArg GeoPoint.latitude hback)
  obtain ⟨e2, he2, g2⟩ := hazC (by rw [hlat]; exact h1) (by rw [hlat]; exact h2)
  rw [hrr] at he2 g2
  rw [heA] at he2
  subst he2
  rw [abs_of_pos hs] at g2
  have g2' := smul_left_cancel' hs.ne' g2
  -- the heading on the way back
  have hh : heading (reach nA e2 (d / (a - z)) az) (dirOf (cross (northPole Re) (reach nA e2 (d / (a - z)) az))) (d / (a - z)) (azB + π)
      = -heading nA e2 0 az := by
    conv_lhs => unfold heading
    rw [hneg, show (0 : ℝ) = d / (a - z) + -(d / (a - z)) by ring, heading_add, Real.sin_neg, Real.cos_neg]
    ext <;> simp <;> ring
  rw [hh] at g2'
  have hh0 : -heading nA e2 0 az = cos (az + π) • cross nA e2 + sin (az + π) • e2 := by
    unfold heading
    rw [cos_zero, sin_zero, Real.cos_add_pi, Real.sin_add_pi]
    ext <;> simp <;> ring
  rw [hh0] at g2'
  obtain ⟨y, -, y1, y2, ⟨k, hk⟩, -⟩ := C44_base_angle (az + π)
  have hy : cos (az + π) • cross nA e2 + sin (az + π) • e2 = cos y • cross nA e2 + sin y • e2 := by
    rw [hk, Real.cos_add_int_mul_two_pi, Real.sin_add_int_mul_two_pi]
  rw [hy] at g2'
  have := azimuth_unique hA.cross_unit hA.ue (by rw [dot_cross_right_self]) c1 c2 y1 y2 g2'
  refine ⟨azC, -k, ?_, ?_⟩
  · rw [hC, hback]
  · rw [this]; push_cast; linarith

/-- **C121** is false beyond half way round: there the returned azimuth points backwards, and walking `d2` along it undoes part
of the way.  (`d1` between half and once round, `A` and the intermediate point not poles.) -/
theorem C121_beyond_half_way (G : Geodesic XR) (a z : ℝ) (ha : 0 < a) (hz : z < a) (name : EllKey) (method : String)
    (hm : method.toList.head? ≠ some 'e') (lat lon : ℝ) (h1 : -(π / 2) < lat) (h2 : lat < π / 2) (d1 d2 az : ℝ)
    (hd0 : π * (a - z) < d1) (hd : d1 < 2 * π * (a - z)) :
    ∃ latB lonB azB latC lonC azC : ℝ,
      (GeoPoint.real lat lon z (.real a 0 name Re)).displace G (fin d1) (fin az) (method := method) =
        .ok (.real latB lonB z (.real a 0 name Re), fin azB) ∧
      (GeoPoint.real lat lon z (.real a 0 name Re)).displace G (fin (d1 - d2)) (fin az) (method := method) =
        .ok (.real latC lonC z (.real a 0 name Re), fin azC) ∧
      (-(π / 2) < latB → latB < π / 2 → ∃ azC' : ℝ,
        (GeoPoint.real latB lonB z (.real a 0 name Re)).displace G (fin d2) (fin azB) (method := method) =
          .ok (.real latC lonC z (.real a 0 name Re), fin azC')) := by
  have hrad : 0 < a - z := by linarith
  obtain ⟨nA, hnA, -, -⟩ := geoPoint_to_nvector lat lon z a 0 name Re isRotation_Re
  obtain ⟨hpA, uA, latB, lonB, azB, hB, hnB, hgB, b1, b2, hazB⟩ := sphere_displace G ha hz name hm h1 h2 hnA d1 az
  obtain ⟨-, -, latC, lonC, azC, hC, hnC, hgC, c1, c2, hazC⟩ := sphere_displace G ha hz name hm h1 h2 hnA (d1 - d2) az
  refine ⟨latB, lonB, azB, latC, lonC, azC, hB, hC, ?_⟩
  intro l1 l2
  obtain ⟨eB, heB, hdir⟩ := hazB l1 l2
  obtain ⟨hpB, uB, latC', lonC', azC', hC', hnC', hgC', c1', c2', hazC'⟩ := sphere_displace G ha hz name hm l1 l2 hnB d2 azB
  generalize dirOf (cross (northPole Re) nA) = eA at *
  have hs : sin (d1 / (a - z)) < 0 := by
    have : 0 < sin (d1 / (a - z) - π) :=
      Real.sin_pos_of_pos_of_lt_pi (by rw [sub_pos, lt_div_iff₀ hrad]; exact hd0)
        (by rw [sub_lt_iff_lt_add, div_lt_iff₀ hrad]; linarith)
    rw [Real.sin_sub_pi] at this; linarith
  rw [abs_of_neg hs] at hdir
  have hd1 : cos azB • cross (reach nA eA (d1 / (a - z)) az) eB + sin azB • eB = -heading nA eA (d1 / (a - z)) az := by
    apply smul_left_cancel' (neg_ne_zero.2 hs.ne)
    rw [hdir]; ext <;> simp
  rw [heB] at hd1
  have hrr := reach_reach_neg (d1 / (a - z)) az (d2 / (a - z)) azB hd1
  rw [← sub_div] at hrr
  have hsame : GeoPoint.real latC' lonC' z (.real a 0 name Re) = .real latC lonC z (.real a 0 name Re) := by
    rw [hgC', hgC, hrr]
  exact ⟨azC', by rw [hC', hsame]⟩

/-- walking east along the equator -/
theorem equator_displace (G : Geodesic XR) {a : ℝ} (ha : 0 < a) (name : EllKey) (lon t lonB : ℝ) (h1 : -π < lonB) (h2 : lonB ≤ π)
    (k : ℤ) (hk : lonB = lon + t + k * (2 * π)) :
    ∃ azB : ℝ, (GeoPoint.real 0 lon 0 (.real a 0 name Re)).displace G (fin (t * a)) (fin (π / 2)) (method := "greatcircle") =
      .ok (.real 0 lonB 0 (.real a 0 name Re), fin azB) ∧ -π ≤ azB ∧ azB < π ∧ |sin t| * sin azB = sin t := by
  have hp := Real.pi_pos
  have geo : ∀ l : ℝ, (GeoPoint.real 0 l 0 (.real a 0 name Re)).to_nvector = .real ⟨cos l, sin l, 0⟩ 0 (.real a 0 name Re) := by
    intro l
    unfold GeoPoint.to_nvector GeoPoint.real FrameE.real Nvector.real
    simp only [lat_lon2n_E_fin]
    congr 2
    ext <;> simp [app, transp, Re, geoNormal, col0, col1, col2, dot]
  have east : ∀ l : ℝ, dirOf (cross (northPole Re) ⟨cos l, sin l, 0⟩) = ⟨-sin l, cos l, 0⟩ := by
    intro l
    have e : cross (northPole Re) ⟨cos l, sin l, 0⟩ = ⟨-sin l, cos l, 0⟩ := by
      ext <;> simp [cross, northPole, app, transp, Re, col0, col1, col2, dot]
    rw [e]
    apply dirOf_of_unit
    unfold UnitVec; simp only; nlinarith [sin_sq_add_cos_sq l]
  obtain ⟨-, -, latB, lonB', azB, hB, hnB, hgB, b1, b2, hazB⟩ := sphere_displace G ha ha name (z := 0) (method := "greatcircle")
    (by decide) (by linarith : -(π / 2) < (0 : ℝ)) (by linarith : (0 : ℝ) < π / 2) (geo lon) (t * a) (π / 2)
  rw [sub_zero, mul_div_assoc, div_self ha.ne', mul_one, east] at hnB hgB hazB
  have hcl : cos (lon + t) = cos lonB := by rw [hk, Real.cos_add_int_mul_two_pi]
  have hsl : sin (lon + t) = sin lonB := by rw [hk, Real.sin_add_int_mul_two_pi]
  have hr : reach ⟨cos lon, sin lon, 0⟩ ⟨-sin lon, cos lon, 0⟩ t (π / 2) = ⟨cos lonB, sin lonB, 0⟩ := by
    unfold reach
    rw [Real.cos_pi_div_two, Real.sin_pi_div_two, ← hcl, ← hsl, cos_add, sin_add]
    ext <;> simp [cross] <;> ring
  have hh : heading ⟨cos lon, sin lon, 0⟩ ⟨-sin lon, cos lon, 0⟩ t (π / 2) = ⟨-sin lonB, cos lonB, 0⟩ := by
    unfold heading
    rw [Real.cos_pi_div_two, Real.sin_pi_div_two, ← hcl, ← hsl, cos_add, sin_add]
    ext <;> simp [cross] <;> ring
  rw [hr] at hnB hgB hazB
  rw [hh, east] at hazB
  rw [← geo, C45_geo_nvector_geo 0 lonB 0 a 0 name Re isRotation_Re (by linarith) (by linarith) h1 h2] at hgB
  have hlat : latB = 0 := XR.fin.inj (congrArg GeoPoint.latitude hgB)
  obtain ⟨eB, heB, hdir⟩ := hazB (by rw [hlat]; linarith) (by rw [hlat]; linarith)
  refine ⟨azB, by rw [hB, hgB], b1, b2, ?_⟩
  subst heB
  have := congrArg (dot ⟨-sin lonB, cos lonB, 0⟩) hdir
  simp only [dot, cross, smul_x, smul_y, smul_z, add_x, add_y, add_z] at this
  have h := sin_sq_add_cos_sq lonB
  linear_combination this - (|sin t| * sin azB - sin t) * h

/-- a walk that meets all hypotheses: from latitude and longitude 0 along the equator, an eighth of the way round and again -/
example (G : Geodesic XR) : ∃ azC : ℝ,
    (GeoPoint.real 0 0 0 (.real 1 0 (.str "") Re)).displace G (fin (π / 4 * 1)) (fin (π / 2)) (method := "greatcircle") =
      .ok (.real 0 (π / 4) 0 (.real 1 0 (.str "") Re), fin (π / 2)) ∧
    (GeoPoint.real 0 (π / 4) 0 (.real 1 0 (.str "") Re)).displace G (fin (π / 4 * 1)) (fin (π / 2)) (method := "greatcircle") =
      .ok (.real 0 (π / 2) 0 (.real 1 0 (.str "") Re), fin azC) := by
  have hp := Real.pi_pos
  obtain ⟨az, h1, b1, b2, h2⟩ := equator_displace G one_pos (.str "") 0 (π / 4) (π / 4) (by linarith) (by linarith) 0 (by simp)
  obtain ⟨az', h1', -⟩ := equator_displace G one_pos (.str "") (π / 4) (π / 4) (π / 2) (by linarith) (by linarith) 0
    (by push_cast; ring)
  have hs : 0 < sin (π / 4) := Real.sin_pos_of_pos_of_lt_pi (by linarith) (by linarith)
  rw [abs_of_pos hs] at h2
  have e1 : sin az = 1 := mul_left_cancel₀ hs.ne' (by rw [h2, mul_one])
  have e2 : az = π / 2 := by
    have hc : cos az = 0 := by nlinarith [sin_sq_add_cos_sq az]
    have := azimuth_unique (u := ⟨1, 0, 0⟩) (v := ⟨0, 1, 0⟩) (by norm_num [UnitVec]) (by norm_num [UnitVec]) (by norm_num [dot])
      b1 b2 (by linarith : -π ≤ π / 2) (by linarith) (by rw [hc, e1, Real.cos_pi_div_two, Real.sin_pi_div_two])
    exact this
  rw [e2] at h1
  exact ⟨az', h1, h1'⟩

/-- three quarters of the way round the equator to the east the returned azimuth is west -/
theorem C121_equator_counterexample (G : Geodesic XR) (a : ℝ) (ha : 0 < a) (name : EllKey) :
    (GeoPoint.real 0 0 0 (.real a 0 name Re)).displace G (fin (3 * π / 2 * a)) (fin (π / 2)) (method := "greatcircle") =
      .ok (.real 0 (-(π / 2)) 0 (.real a 0 name Re), fin (-(π / 2))) := by
  have hp := Real.pi_pos
  obtain ⟨az, h1, b1, b2, h2⟩ := equator_displace G ha name 0 (3 * π / 2) (-(π / 2)) (by linarith) (by linarith) (-1)
    (by push_cast; ring)
  have hs : sin (3 * π / 2) = -1 := by
    rw [show 3 * π / 2 = π / 2 + π by ring, Real.sin_add_pi, Real.sin_pi_div_two]
  rw [hs, abs_neg, abs_one, one_mul] at h2
  have hc : cos az = 0 := by nlinarith [sin_sq_add_cos_sq az]
  have := azimuth_unique (u := ⟨1, 0, 0⟩) (v := ⟨0, 1, 0⟩) (by norm_num [UnitVec]) (by norm_num [UnitVec]) (by norm_num [dot])
    b1 b2 (by linarith : -π ≤ -(π / 2)) (by linarith)
    (by rw [hc, h2, Real.cos_neg, Real.sin_neg, Real.cos_pi_div_two, Real.sin_pi_div_two])
  rw [h1, this]

end Nv
