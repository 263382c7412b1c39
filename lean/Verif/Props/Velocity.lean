import Verif.Props.Textbook
import Verif.Props.Axes
import Mathlib.Analysis.SpecialFunctions.Sqrt
import Mathlib.Analysis.Real.Pi.Bounds
import Mathlib.Analysis.SpecialFunctions.Trigonometric.Deriv

/-!
# C128: north, east and down are the directions of growing latitude, longitude and depth

Derivatives of the conversions: the velocity of a position whose latitude, longitude and depth change, and of a position that moves along a great circle.
-/

namespace Nv
open Spec Real
open XR (fin)

namespace Spec

/-- the position `p` moves with the velocity `v` at time `t` -/
def HasVelocity (p : ℝ → V3 ℝ) (v : V3 ℝ) (t : ℝ) : Prop :=
  HasDerivAt (fun s => (p s).x) v.x t ∧ HasDerivAt (fun s => (p s).y) v.y t ∧ HasDerivAt (fun s => (p s).z) v.z t

/-- the radius of curvature of the meridian: `M = a (1 - e²) / (1 - e² sin² lat)^(3/2)` -/
noncomputable def meridional (a f lat : ℝ) : ℝ := a * (1 - f) ^ 2 / √(1 - f * (2 - f) * sin lat ^ 2) ^ 3

end Spec

theorem Spec.HasVelocity.app {p : ℝ → V3 ℝ} {v : V3 ℝ} {t : ℝ} (h : HasVelocity p v t) (M : M3 ℝ) :
    HasVelocity (fun s => app M (p s)) (app M v) t := by
  obtain ⟨h1, h2, h3⟩ := h
  refine ⟨?_, ?_, ?_⟩ <;>
  · simp only [Spec.app, Spec.dot]
    exact ((h1.const_mul _).add (h2.const_mul _)).add (h3.const_mul _)

theorem Spec.HasVelocity.sub_const {p : ℝ → V3 ℝ} {v : V3 ℝ} {t : ℝ} (h : HasVelocity p v t) (q : V3 ℝ) :
    HasVelocity (fun s => p s - q) v t :=
  ⟨h.1.sub_const _, h.2.1.sub_const _, h.2.2.sub_const _⟩

theorem Dell_geo (f lat lon : ℝ) : Dell f (geoNormal lat lon) = √(1 - f * (2 - f) * sin lat ^ 2) := by
  unfold Dell geoNormal
  congr 1
  have h1 := Real.sin_sq_add_cos_sq lat
  have h2 := Real.sin_sq_add_cos_sq lon
  simp only
  linear_combination h1 + cos lat ^ 2 * h2

theorem geo_root_pos {f : ℝ} (hf : f < 1) (lat : ℝ) : 0 < 1 - f * (2 - f) * sin lat ^ 2 := by
  have h := Real.sin_sq_add_cos_sq lat
  have hg : 0 < 1 - f := by linarith
  have e : 1 - f * (2 - f) * sin lat ^ 2 = cos lat ^ 2 + (1 - f) ^ 2 * sin lat ^ 2 := by linear_combination -h
  rw [e]
  rcases eq_or_ne (sin lat) 0 with h0 | h0
  · rw [h0] at h ⊢; nlinarith
  · positivity

/-- the moving position, in the `e` frame -/
theorem posE_velocity {a f t u v w : ℝ} {lat lon z : ℝ → ℝ} (hf : f < 1) (hlat : HasDerivAt lat u t) (hlon : HasDerivAt lon v t)
    (hz : HasDerivAt z w t) :
    HasVelocity (fun s => posE a f (geoNormal (lat s) (lon s)) (z s))
      (((meridional a f (lat t) - z t) * u) • geoNorth (lat t) (lon t) + ((primeVertical a f (lat t) - z t) * cos (lat t) * v) • geoEast (lon t) +
        w • (-geoNormal (lat t) (lon t))) t := by
  have hr := geo_root_pos hf (lat t)
  have hs : HasDerivAt (fun s => sin (lat s)) (cos (lat t) * u) t := hlat.sin
  have hc : HasDerivAt (fun s => cos (lat s)) (-sin (lat t) * u) t := hlat.cos
  have hs' : HasDerivAt (fun s => sin (lon s)) (cos (lon t) * v) t := hlon.sin
  have hc' : HasDerivAt (fun s => cos (lon s)) (-sin (lon t) * v) t := hlon.cos
  have hD := (((hs.pow 2).const_mul (f * (2 - f))).const_sub 1).sqrt hr.ne'
  have hN := (hasDerivAt_const t a).div hD (Real.sqrt_pos.mpr hr).ne'
  have hDp := Real.sqrt_pos.mpr hr
  have hDsq := Real.sq_sqrt hr.le
  have hsc := Real.sin_sq_add_cos_sq (lat t)
  simp only [HasVelocity, posE, Dell_geo]
  simp only [geoNormal, geoNorth, geoEast, meridional, primeVertical, add_x, add_y, add_z, smul_x, smul_y, smul_z, neg_x, neg_y, neg_z]
  simp only [Pi.pow_apply] at hr hD hN hDp hDsq
  refine ⟨?_, ?_, ?_⟩
  · refine (((hN.mul_const ((1 - f) ^ 2)).sub hz).mul hs).congr_deriv ?_
    simp only [Pi.div_apply, Pi.sub_apply, Pi.mul_apply, Pi.pow_apply]
    generalize √(1 - f * (2 - f) * sin (lat t) ^ 2) = D at *
    generalize sin (lat t) = S at *
    generalize cos (lat t) = C at *
    field_simp
    push_cast
    linear_combination 2 * a * u * C * (1 - f) ^ 2 * hDsq
  · refine (((hN.sub hz).mul (hs'.mul hc))).congr_deriv ?_
    simp only [Pi.div_apply, Pi.sub_apply, Pi.mul_apply, Pi.pow_apply]
    generalize √(1 - f * (2 - f) * sin (lat t) ^ 2) = D at *
    generalize sin (lat t) = S at *
    generalize cos (lat t) = C at *
    field_simp
    push_cast
    linear_combination -2 * a * S * u * sin (lon t) * hDsq + 2 * a * S * u * sin (lon t) * f * (2 - f) * hsc
  · refine (((hN.sub hz).mul (hc'.mul hc).neg)).congr_deriv ?_
    simp only [Pi.div_apply, Pi.sub_apply, Pi.mul_apply, Pi.pow_apply, Pi.neg_apply]
    generalize √(1 - f * (2 - f) * sin (lat t) ^ 2) = D at *
    generalize sin (lat t) = S at *
    generalize cos (lat t) = C at *
    field_simp
    push_cast
    linear_combination 2 * a * S * u * cos (lon t) * hDsq - 2 * a * S * u * cos (lon t) * f * (2 - f) * hsc

section
variable {R : M3 ℝ} (hR : IsRotation R) {a f : ℝ} (hf : f < 1)
include hR hf

/-- the axes of the local frame at a latitude and longitude, off the poles -/
theorem geo_R_EN {lat lon : ℝ} (h1 : -(π / 2) < lat) (h2 : lat < π / 2) :
    ∃ M : M3 ℝ, n_E2R_EN (lat_lon2n_E (fin lat) (fin lon) R.fin) R.fin = M.fin ∧ IsRotation M ∧ col0 M = app (transp R) (geoNorth lat lon) ∧
      col1 M = app (transp R) (geoEast lon) ∧ col2 M = app (transp R) (-geoNormal lat lon) := by
  obtain ⟨hp, he, hn⟩ := geo_east_north hR (lon := lon) h1 h2
  have hu := unitVec_app hR.transpose (geoNormal_isUnit lat lon)
  obtain ⟨M, e, hM, c2, c1, c0⟩ := n_E2R_EN_offpole _ R hR hp
  rw [dirOf_of_unit hu] at c2 c0
  rw [he] at c1 c0
  rw [hn] at c0
  refine ⟨M, by rw [lat_lon2n_E_fin, e], hM, c0, c1, ?_⟩
  rw [c2]; ext <;> simp [app, dot] <;> ring

/-- **C128** when latitude, longitude and depth change at the rates `u`, `v` and `w`, the Cartesian position moves with the velocity
`(M - z) u` to the north, `(N - z) cos(lat) v` to the east and `w` down: the directions are the columns of `n_E2R_EN`, and `M` and `N` are the radii of curvature of
the meridian and of the prime vertical -/
theorem C128_velocity (lat lon z : ℝ → ℝ) (u v w t : ℝ) (hlat : HasDerivAt lat u t) (hlon : HasDerivAt lon v t) (hz : HasDerivAt z w t)
    (h1 : -(π / 2) < lat t) (h2 : lat t < π / 2) :
    ∃ (p : ℝ → V3 ℝ) (M : M3 ℝ),
      (∀ s, n_EB_E2p_EB_E (lat_lon2n_E (fin (lat s)) (fin (lon s)) R.fin) (fin (z s)) (fin a) (fin f) R.fin = (p s).fin) ∧
      n_E2R_EN (lat_lon2n_E (fin (lat t)) (fin (lon t)) R.fin) R.fin = M.fin ∧
      HasVelocity p (((a * (1 - f) ^ 2 / √(1 - f * (2 - f) * sin (lat t) ^ 2) ^ 3 - z t) * u) • col0 M +
        ((a / √(1 - f * (2 - f) * sin (lat t) ^ 2) - z t) * cos (lat t) * v) • col1 M + w • col2 M) t := by
  obtain ⟨M, e, -, c0, c1, c2⟩ := geo_R_EN hR hf (lon := lon t) h1 h2
  refine ⟨fun s => app (transp R) (posE a f (geoNormal (lat s) (lon s)) (z s)), M, ?_, e, ?_⟩
  · intro s
    have hu := unitVec_app hR.transpose (geoNormal_isUnit (lat s) (lon s))
    rw [lat_lon2n_E_fin, n2p_fin hu.ne _ a f hf hR, dirOf_of_unit hu, hR.app_trans]
  · have h := (posE_velocity (a := a) hf hlat hlon hz).app (transp R)
    rw [app_add, app_add, app_smul, app_smul, app_smul, ← c0, ← c1, ← c2] at h
    exact h

/-- **C128** the same for geographic points: to first order `delta_N` from a point to its neighbour is `((M - z) Δlat, (N - z) cos(lat) Δlon, Δz)` -/
theorem C128_delta_N (name : EllKey) (lat lon z : ℝ → ℝ) (u v w t : ℝ) (hlat : HasDerivAt lat u t) (hlon : HasDerivAt lon v t) (hz : HasDerivAt z w t)
    (h1 : -(π / 2) < lat t) (h2 : lat t < π / 2) :
    ∃ q : ℝ → V3 ℝ,
      (∀ s, delta_N (.geo (.real (lat t) (lon t) (z t) (.real a f name R))) (.geo (.real (lat s) (lon s) (z s) (.real a f name R))) =
        .ok (.real (q s) (FrameN (.geo (.real (lat t) (lon t) (z t) (.real a f name R)))))) ∧
      q t = 0 ∧
      HasVelocity q ⟨(a * (1 - f) ^ 2 / √(1 - f * (2 - f) * sin (lat t) ^ 2) ^ 3 - z t) * u,
        (a / √(1 - f * (2 - f) * sin (lat t) ^ 2) - z t) * cos (lat t) * v, w⟩ t := by
  obtain ⟨p, M, hp, hM, hv⟩ := C128_velocity hR hf (a := a) lat lon z u v w t hlat hlon hz h1 h2
  obtain ⟨M', hM', hrot, -⟩ := geo_R_EN hR hf (lon := lon t) h1 h2
  obtain rfl : M = M' := M3.fin_inj.mp (hM ▸ hM')
  have he : ∀ s, (Position.geo (.real (lat s) (lon s) (z s) (.real a f name R))).to_ecef_vector = .real (p s) (.real a f name R) := by
    intro s
    show (⟨n_EB_E2p_EB_E (lat_lon2n_E (fin (lat s)) (fin (lon s)) R.fin) (fin (z s)) (fin a) (fin f) R.fin, _⟩ : ECEFvector XR) = _
    rw [hp]; rfl
  have hn : (Position.geo (.real (lat t) (lon t) (z t) (.real a f name R))).to_nvector =
      .real (app (transp R) (geoNormal (lat t) (lon t))) (z t) (.real a f name R) := by
    show (⟨lat_lon2n_E (fin (lat t)) (fin (lon t)) R.fin, fin (z t), _⟩ : Nvector XR) = _
    rw [lat_lon2n_E_fin]; rfl
  rw [lat_lon2n_E_fin] at hM
  refine ⟨fun s => app (transp M) (p s - p t), fun s => (delta_fin hn (he t) (he s)).2.1 M hM, ?_, ?_⟩
  · ext <;> simp [app, dot]
  · have h := (hv.sub_const (p t)).app (transp M)
    have hc : ∀ x y w : ℝ, app (transp M) (x • col0 M + y • col1 M + w • col2 M) = ⟨x, y, w⟩ := by
      intro x y w
      have : app M ⟨x, y, w⟩ = x • col0 M + y • col1 M + w • col2 M := by
        ext <;> simp [app, dot, col0, col1, col2] <;> ring
      rw [← this, hrot.trans_app]
    rw [hc] at h
    exact h

omit hR hf

/-- **C128** the direct problem moves at unit speed, starting in the direction of the azimuth (`cos(az)` north and `sin(az)` east), and never leaves the
great circle it starts on -/
theorem C128_direct (hR : IsRotation R) (n : V3 ℝ) (hn : UnitVec n) (hp : cross (northPole R) n ≠ 0) (az : ℝ) :
    ∃ (p v : ℝ → V3 ℝ) (M : M3 ℝ), (∀ d, n_EA_E_distance_and_azimuth2n_EB_E n.fin (fin d) (fin az) R.fin = (p d).fin) ∧
      n_E2R_EN n.fin R.fin = M.fin ∧ p 0 = n ∧ v 0 = cos az • col0 M + sin az • col1 M ∧
      ∀ d, HasVelocity p (v d) d ∧ UnitVec (v d) ∧ dot (p d) (v d) = 0 ∧ cross (p d) (v d) = cross n (v 0) := by
  obtain ⟨M, hM, -, c2, c1, c0⟩ := n_E2R_EN_offpole n R hR hp
  have hf := frame_offpole hn hp
  rw [dirOf_of_unit hn] at c2 c0
  generalize hed : dirOf (cross (northPole R) n) = e at *
  obtain ⟨T, hT⟩ : ∃ T, T = cos az • cross n e + sin az • e := ⟨_, rfl⟩
  have hTu : dot T T = 1 ∧ dot n T = 0 := by
    obtain ⟨q1, q2, q3⟩ := reach_dot hf (π / 2) az
    have hr : reach n e (π / 2) az = T := by
      unfold reach; rw [Real.cos_pi_div_two, Real.sin_pi_div_two, hT]; ext <;> simp
    rw [hr] at q1 q2 q3
    rw [Real.cos_pi_div_two] at q1
    rw [Real.sin_pi_div_two] at q2 q3
    refine ⟨?_, q1⟩
    have hu := reach_unit hf (π / 2) az
    rw [hr] at hu
    exact hu.dot
  have hnn := hn.dot
  refine ⟨fun d => cos d • n + sin d • T, fun d => (-sin d) • n + cos d • T, M, ?_, hM, ?_, ?_, ?_⟩
  · intro d
    rw [direct_offpole hn hp, hed, hT]
  · simp only [Real.cos_zero, Real.sin_zero]; ext <;> simp
  · simp only [Real.cos_zero, Real.sin_zero]; rw [c0, c1, hT]; ext <;> simp
  · intro d
    have hsc := Real.sin_sq_add_cos_sq d
    have hs := Real.hasDerivAt_sin d
    have hc := Real.hasDerivAt_cos d
    refine ⟨⟨?_, ?_, ?_⟩, ?_, ?_, ?_⟩
    · exact ((hc.mul_const n.x).add (hs.mul_const T.x))
    · exact ((hc.mul_const n.y).add (hs.mul_const T.y))
    · exact ((hc.mul_const n.z).add (hs.mul_const T.z))
    · obtain ⟨t1, t2⟩ := hTu
      unfold dot at t1 t2 hnn
      unfold UnitVec
      simp only [add_x, add_y, add_z, smul_x, smul_y, smul_z]
      linear_combination sin d ^ 2 * hnn + cos d ^ 2 * t1 - 2 * sin d * cos d * t2 + hsc
    · obtain ⟨t1, t2⟩ := hTu
      unfold dot at t1 t2 hnn ⊢
      simp only [add_x, add_y, add_z, smul_x, smul_y, smul_z]
      linear_combination -sin d * cos d * hnn + sin d * cos d * t1 + (cos d ^ 2 - sin d ^ 2) * t2
    · simp only [Real.cos_zero, Real.sin_zero]
      ext
      · simp only [cross, add_x, add_y, add_z, smul_x, smul_y, smul_z]; linear_combination (n.y * T.z - n.z * T.y) * hsc
      · simp only [cross, add_x, add_y, add_z, smul_x, smul_y, smul_z]; linear_combination (n.z * T.x - n.x * T.z) * hsc
      · simp only [cross, add_x, add_y, add_z, smul_x, smul_y, smul_z]; linear_combination (n.x * T.y - n.y * T.x) * hsc

end

/-- witness: a ship that goes north-west and dives -/
example : HasDerivAt (fun t : ℝ => 1 + 2 * t) 2 0 ∧ HasDerivAt (fun t : ℝ => 3 - t) (-1) 0 ∧ HasDerivAt (fun t : ℝ => 10 * t) 10 0 ∧
    -(π / 2) < (1 : ℝ) + 2 * 0 ∧ (1 : ℝ) + 2 * 0 < π / 2 := by
  refine ⟨?_, ?_, ?_, by linarith [Real.pi_pos], by linarith [Real.pi_gt_three]⟩
  · simpa using ((hasDerivAt_id (0 : ℝ)).const_mul 2).const_add 1
  · simpa using (hasDerivAt_id (0 : ℝ)).const_sub 3
  · simpa using (hasDerivAt_id (0 : ℝ)).const_mul 10

end Nv
