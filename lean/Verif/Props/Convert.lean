import Verif.Props.Vectors
import Verif.Props.EarthCore

/-!
# C45: object conversions round trip

`GeoPoint.real lat lon z F`, `Nvector.real n z F` and `ECEFvector.real p F` are objects with real components in the frame `F`.
-/

namespace Nv
open Spec Real
open XR (fin)

/-- **C45** GeoPoint → Nvector → GeoPoint -/
theorem C45_geo_nvector_geo (lat lon z a f : ℝ) (name : EllKey) (R : M3 ℝ) (hR : IsRotation R)
    (h1 : -(π / 2) < lat) (h2 : lat < π / 2) (h3 : -π < lon) (h4 : lon ≤ π) :
    (GeoPoint.real lat lon z (.real a f name R)).to_nvector.to_geo_point = .real lat lon z (.real a f name R) := by
  have h := C03_inverse lat lon h1 h2 h3 h4 R hR
  unfold GeoPoint.to_nvector Nvector.to_geo_point GeoPoint.real FrameE.real
  simp only [h]

/-- **C45** Nvector → GeoPoint → Nvector normalises the n-vector and changes nothing else -/
theorem C45_nvector_geo_nvector (n : V3 ℝ) (hn : n ≠ 0) (z a f : ℝ) (name : EllKey) (R : M3 ℝ) (hR : IsRotation R) :
    (Nvector.real n z (.real a f name R)).to_geo_point.to_nvector = .real ((len n)⁻¹ • n) z (.real a f name R) := by
  have h := C02_roundtrip n hn R hR
  unfold GeoPoint.to_nvector Nvector.to_geo_point Nvector.real FrameE.real
  simp only [h]

/-- **C45** Nvector → ECEFvector → Nvector -/
theorem C45_nvector_ecef_nvector (n : V3 ℝ) (hn : n ≠ 0) (z a f : ℝ) (ha : 0 < a) (hf0 : 0 ≤ f) (hf : f < 1)
    (he : (2 - f) * f < 1 / 2) (hz : z < (1 - 2 * ((2 - f) * f)) * a) (name : EllKey) (R : M3 ℝ) (hR : IsRotation R) :
    (Nvector.real n z (.real a f name R)).to_ecef_vector.to_nvector = .real ((len n)⁻¹ • n) z (.real a f name R) := by
  have h := C07_roundtrip_simple n hn z a f ha hf0 hf R hR he hz
  unfold Nvector.to_ecef_vector ECEFvector.to_nvector Nvector.real FrameE.real
  simp only [h]

/-- **C45** ECEFvector → Nvector → ECEFvector, outside the core -/
theorem C45_ecef_nvector_ecef (p : V3 ℝ) (a f : ℝ) (ha : 0 < a) (hf0 : 0 ≤ f) (hf : f < 1) (name : EllKey) (R : M3 ℝ)
    (hR : IsRotation R) (hcore : OutsideCore a f (app R p)) :
    (ECEFvector.real p (.real a f name R)).to_nvector.to_ecef_vector = .real p (.real a f name R) := by
  obtain ⟨n, d, h1, _, h2⟩ := C06_roundtrip p a f ha hf0 hf R hR hcore
  unfold Nvector.to_ecef_vector ECEFvector.to_nvector ECEFvector.real FrameE.real
  simp only [h1, h2]

/-- **C45** GeoPoint → ECEFvector → GeoPoint -/
theorem C45_geo_ecef_geo (lat lon z a f : ℝ) (ha : 0 < a) (hf0 : 0 ≤ f) (hf : f < 1)
    (he : (2 - f) * f < 1 / 2) (hz : z < (1 - 2 * ((2 - f) * f)) * a) (name : EllKey) (R : M3 ℝ) (hR : IsRotation R)
    (h1 : -(π / 2) < lat) (h2 : lat < π / 2) (h3 : -π < lon) (h4 : lon ≤ π) :
    (GeoPoint.real lat lon z (.real a f name R)).to_ecef_vector.to_geo_point = .real lat lon z (.real a f name R) := by
  obtain ⟨n, hn, hu, -⟩ := geoPoint_to_nvector lat lon z a f name R hR
  have hn' : (GeoPoint.real lat lon z (.real a f name R)).to_nvector = .real n z (.real a f name R) := hn
  have h := C45_nvector_ecef_nvector n hu.ne z a f ha hf0 hf he hz name R hR
  have h' := C45_geo_nvector_geo lat lon z a f name R hR h1 h2 h3 h4
  unfold GeoPoint.to_ecef_vector ECEFvector.to_geo_point
  rw [hn', h, show (len n)⁻¹ • n = n from dirOf_of_unit hu, ← hn', h']

/-- **C45** `to_X` of an `X` is the object itself -/
theorem C45_identity (g : GeoPoint XR) (n : Nvector XR) (p : ECEFvector XR) :
    (Position.geo g).to_geo_point = g ∧ (Position.nvec n).to_nvector = n ∧ (Position.ecef p).to_ecef_vector = p :=
  ⟨rfl, rfl, rfl⟩

/-- **C45** frames are kept by every conversion, depth by those between GeoPoint and Nvector, whatever the values -/
theorem C45_frame_depth (g : GeoPoint XR) (n : Nvector XR) (p : ECEFvector XR) :
    g.to_nvector.frame = g.frame ∧ g.to_ecef_vector.frame = g.frame ∧ n.to_geo_point.frame = n.frame ∧
      n.to_ecef_vector.frame = n.frame ∧ p.to_nvector.frame = p.frame ∧ p.to_geo_point.frame = p.frame ∧
      g.to_nvector.z = g.z ∧ n.to_geo_point.z = n.z := ⟨rfl, rfl, rfl, rfl, rfl, rfl, rfl, rfl⟩

/-! ## Chains of conversions -/

/-- a conversion method -/
inductive Spec.Conv where
  | to_nvector | to_ecef_vector | to_geo_point

/-- the position after calling a conversion method on it -/
noncomputable def Spec.Conv.call : Conv → Position XR → Position XR
  | .to_nvector, x => .nvec x.to_nvector
  | .to_ecef_vector, x => .ecef x.to_ecef_vector
  | .to_geo_point, x => .geo x.to_geo_point

/-- `x` is a position object in the frame `F` with real coordinates which describe the point `p` -/
def Spec.Describes (p : V3 ℝ) (F : FrameE XR) : Position XR → Prop
  | .geo g => ∃ lat lon z : ℝ, g = .real lat lon z F ∧ g.to_ecef_vector = .real p F
  | .nvec n => ∃ (m : V3 ℝ) (z : ℝ), m ≠ 0 ∧ n = .real m z F ∧ n.to_ecef_vector = .real p F
  | .ecef q => q = .real p F
  | .pvec q => q.to_ecef_vector = .real p F

theorem Spec.Describes.to_ecef {p : V3 ℝ} {F : FrameE XR} {x : Position XR} (h : Describes p F x) :
    x.to_ecef_vector = .real p F := by
  cases x with
  | geo g => obtain ⟨_, _, _, _, h⟩ := h; exact h
  | nvec n => obtain ⟨_, _, _, _, h⟩ := h; exact h
  | ecef q => exact h
  | pvec q => exact h

/-- normalising an n-vector does not move the position -/
theorem to_ecef_dir {n : V3 ℝ} (hn : n ≠ 0) (z a f : ℝ) (hf : f < 1) (name : EllKey) {R : M3 ℝ} (hR : IsRotation R) :
    (Nvector.real ((len n)⁻¹ • n) z (.real a f name R)).to_ecef_vector = (Nvector.real n z (.real a f name R)).to_ecef_vector := by
  have hl : 0 < (len n)⁻¹ := inv_pos.2 (len_pos hn)
  have h := (C05_scale_invariant (len n)⁻¹ hl n hn z a f hf R hR).1
  unfold Nvector.to_ecef_vector Nvector.real FrameE.real
  simp only [h]

theorem ecef_describes {p : V3 ℝ} {a f : ℝ} (ha : 0 < a) (hf0 : 0 ≤ f) (hf : f < 1) (name : EllKey) {R : M3 ℝ}
    (hR : IsRotation R) (hcore : OutsideCore a f (app R p)) :
    ∃ (n : V3 ℝ) (z : ℝ), n ≠ 0 ∧ (ECEFvector.real p (.real a f name R)).to_nvector = .real n z (.real a f name R) ∧
      (Nvector.real n z (.real a f name R)).to_ecef_vector = .real p (.real a f name R) := by
  obtain ⟨n, d, h1, hu, h2⟩ := C06_roundtrip p a f ha hf0 hf R hR hcore
  refine ⟨n, d, hu.ne, ?_, ?_⟩
  · unfold ECEFvector.to_nvector ECEFvector.real Nvector.real FrameE.real; simp only [h1]
  · unfold Nvector.to_ecef_vector ECEFvector.real Nvector.real FrameE.real; simp only [h2]

theorem nvector_geo_describes {n : V3 ℝ} (hn : n ≠ 0) (z a f : ℝ) (hf : f < 1) (name : EllKey) {R : M3 ℝ} (hR : IsRotation R)
    {p : V3 ℝ} (h : (Nvector.real n z (.real a f name R)).to_ecef_vector = .real p (.real a f name R)) :
    Describes p (.real a f name R) (.geo (Nvector.real n z (.real a f name R)).to_geo_point) := by
  refine ⟨XR.atan2 (app R n).x (√((app R n).y ^ 2 + (app R n).z ^ 2)), XR.atan2 (app R n).y (-(app R n).z), z, ?_, ?_⟩
  · unfold Nvector.to_geo_point Nvector.real GeoPoint.real FrameE.real
    simp only [n_E2lat_lon_fin]
  · unfold GeoPoint.to_ecef_vector
    rw [C45_nvector_geo_nvector n hn z a f name R hR, to_ecef_dir hn z a f hf name hR, h]

theorem Spec.Describes.call {p : V3 ℝ} {a f : ℝ} (ha : 0 < a) (hf0 : 0 ≤ f) (hf : f < 1) {name : EllKey} {R : M3 ℝ}
    (hR : IsRotation R) (hcore : OutsideCore a f (app R p)) {x : Position XR} (h : Describes p (.real a f name R) x)
    (c : Conv) : Describes p (.real a f name R) (c.call x) := by
  obtain ⟨n, z, hn0, hn, hp⟩ := ecef_describes ha hf0 hf name hR hcore
  have hx := h.to_ecef
  cases c with
  | to_ecef_vector => exact hx
  | to_nvector =>
    cases x with
    | geo g =>
      obtain ⟨lat, lon, w, rfl, hg⟩ := h
      obtain ⟨m, hm, hu, -⟩ := geoPoint_to_nvector lat lon w a f name R hR
      exact ⟨m, w, hu.ne, hm, hg⟩
    | nvec m => exact h
    | ecef q =>
      refine ⟨n, z, hn0, ?_, ?_⟩
      · change q.to_nvector = _; rw [show q = _ from h, hn]
      · change q.to_nvector.to_ecef_vector = _; rw [show q = _ from h, hn, hp]
    | pvec q =>
      refine ⟨n, z, hn0, ?_, ?_⟩
      · change q.to_ecef_vector.to_nvector = _; rw [show q.to_ecef_vector = _ from h, hn]
      · change q.to_ecef_vector.to_nvector.to_ecef_vector = _; rw [show q.to_ecef_vector = _ from h, hn, hp]
  | to_geo_point =>
    have key := nvector_geo_describes hn0 z a f hf name hR hp
    cases x with
    | geo g => exact h
    | nvec m =>
      obtain ⟨m, w, hm0, rfl, hm⟩ := h
      exact nvector_geo_describes hm0 w a f hf name hR hm
    | ecef q =>
      change Describes _ _ (.geo q.to_nvector.to_geo_point)
      rw [show q = _ from h, hn]; exact key
    | pvec q =>
      change Describes _ _ (.geo q.to_ecef_vector.to_nvector.to_geo_point)
      rw [show q.to_ecef_vector = _ from h, hn]; exact key

/-- **C45** no chain of conversions, however long, moves a position outside the core -/
theorem C45_chain (p : V3 ℝ) (a f : ℝ) (ha : 0 < a) (hf0 : 0 ≤ f) (hf : f < 1) (name : EllKey) (R : M3 ℝ)
    (hR : IsRotation R) (hcore : OutsideCore a f (app R p)) (x : Position XR) (h : Describes p (.real a f name R) x)
    (chain : List Conv) :
    (chain.foldl (fun y c => c.call y) x).to_ecef_vector = .real p (.real a f name R) := by
  have : Describes p (.real a f name R) (chain.foldl (fun y c => c.call y) x) := by
    induction chain generalizing x with
    | nil => exact h
    | cons c l ih => exact ih _ (h.call ha hf0 hf hR hcore c)
  exact this.to_ecef

/-- **C45** latitude, longitude and depth are the same whichever way a GeoPoint travelled, given the usual ranges -/
theorem C45_chain_geo (lat lon z a f : ℝ) (ha : 0 < a) (hf0 : 0 ≤ f) (hf : f < 1)
    (he : (2 - f) * f < 1 / 2) (hz : z < (1 - 2 * ((2 - f) * f)) * a) (name : EllKey) (R : M3 ℝ) (hR : IsRotation R)
    (h1 : -(π / 2) < lat) (h2 : lat < π / 2) (h3 : -π < lon) (h4 : lon ≤ π) (chain : List Conv) :
    (Conv.to_geo_point.call (Conv.to_ecef_vector.call
      (chain.foldl (fun y c => c.call y) (.geo (.real lat lon z (.real a f name R)))))) =
        .geo (.real lat lon z (.real a f name R)) := by
  obtain ⟨n, hn, hu, -⟩ := geoPoint_to_nvector lat lon z a f name R hR
  obtain ⟨p, hp⟩ := geoPoint_to_ecef lat lon z a f hf name R hR
  have hp' : (GeoPoint.real lat lon z (.real a f name R)).to_ecef_vector = .real p (.real a f name R) := hp
  have hcore : OutsideCore a f (app R p) := by
    apply (above_of_simple n hu.ne z a f ha hf0 hf R hR he hz).2 p
    have e : (GeoPoint.real lat lon z (.real a f name R)).to_ecef_vector = (Nvector.real n z (.real a f name R)).to_ecef_vector :=
      congrArg Nvector.to_ecef_vector hn
    rw [e] at hp'
    exact congrArg ECEFvector.pvector hp'
  have h := C45_chain p a f ha hf0 hf name R hR hcore (.geo (.real lat lon z (.real a f name R))) ⟨lat, lon, z, rfl, hp⟩ chain
  change Position.geo (Position.to_ecef_vector _).to_geo_point = _
  rw [h, ← hp', C45_geo_ecef_geo lat lon z a f ha hf0 hf he hz name R hR h1 h2 h3 h4]

/-- the ranges are met by WGS-84 and a point in Norway, 100 m under the surface -/
example : let f : ℝ := 1 / 298.257223563
    0 ≤ f ∧ f < 1 ∧ (2 - f) * f < 1 / 2 ∧ (100 : ℝ) < (1 - 2 * ((2 - f) * f)) * 6378137 ∧
    -(π / 2) < (1 : ℝ) ∧ (1 : ℝ) < π / 2 ∧ -π < (1 / 5 : ℝ) ∧ (1 / 5 : ℝ) ≤ π := by
  have := Real.two_le_pi
  have h3 : (2 : ℝ) < π := Real.two_le_pi.lt_of_ne (by
    intro h
    have h1 := Real.cos_one_pos
    have h2 := Real.cos_pi_div_two
    rw [← h] at h2; norm_num at h2; rw [h2] at h1; exact lt_irrefl _ h1)
  intro f
  refine ⟨by norm_num [f], by norm_num [f], by norm_num [f], by norm_num [f], ?_, ?_, ?_, ?_⟩ <;> linarith

end Nv
