import Verif.Props.Nearest
import Verif.Props.Convert

/-!
# C07, C11, C45: exactly which positions survive the round trip through Cartesian coordinates

`(n, depth)` comes back from `p_EB_E2n_EB_E(n_EB_E2p_EB_E(n, depth))` exactly when the depth is less than the distance from the surface, along the
normal, to the equatorial plane, and the position is outside the core of C08 (or on the polar axis).
-/

namespace Nv
open Spec Real
open XR (fin)

namespace Spec

/-- the distance along the ellipsoid normal from the surface point whose unit normal in the `e` frame is `m` to the equatorial plane: `(1-f)² N` where
`N = a/√((1-f)² m.x² + m.y² + m.z²)` is the distance along the normal to the polar axis -/
noncomputable def toEquatorialPlane (a f : ℝ) (m : V3 ℝ) : ℝ :=
  (1 - f) ^ 2 * (a / √((1 - f) ^ 2 * m.x ^ 2 + m.y ^ 2 + m.z ^ 2))

/-- the positions with an n-vector and a depth: outside the core of C08, or on the polar axis (but not the centre) -/
def HasNvector (a f : ℝ) (P : V3 ℝ) : Prop := OutsideCore a f P ∨ OnAxisInsideCore a f P

end Spec

theorem onEllipsoid_posE {a f : ℝ} (ha : 0 < a) (hf : f < 1) {m : V3 ℝ} (hm : UnitVec m) : OnEllipsoid a f (posE a f m 0) := by
  have hD := Dell_pos hf hm.ne
  have hD2 := Dell_sq f m
  have hg : 0 < 1 - f := by linarith
  unfold OnEllipsoid posE
  simp only [sub_zero]
  have : (a / Dell f m * (1 - f) ^ 2 * m.x / (a * (1 - f))) ^ 2 + (a / Dell f m * m.y / a) ^ 2 + (a / Dell f m * m.z / a) ^ 2 =
      ((1 - f) ^ 2 * m.x ^ 2 + m.y ^ 2 + m.z ^ 2) / Dell f m ^ 2 := by
    field_simp
  first
  | (rw [this, ← hD2]; exact div_self (by positivity))
  | (field_simp; nlinarith)

theorem posE_surface_inj {a f : ℝ} (ha : 0 < a) (hf : f < 1) {m m' : V3 ℝ} (hm : UnitVec m) (hm' : UnitVec m')
    (h : posE a f m 0 = posE a f m' 0) : m = m' := by
  have hD := Dell_pos hf hm.ne
  have hD' := Dell_pos hf hm'.ne
  have hg : 0 < (1 - f) ^ 2 := pow_pos (by linarith) 2
  have hx := congrArg V3.x h
  have hy := congrArg V3.y h
  have hz := congrArg V3.z h
  simp only [posE, sub_zero] at hx hy hz
  have ex : m.x * Dell f m' = m'.x * Dell f m := by
    field_simp at hx; nlinarith
  have ey : m.y * Dell f m' = m'.y * Dell f m := by
    field_simp at hy; nlinarith
  have ez : m.z * Dell f m' = m'.z * Dell f m := by
    field_simp at hz; nlinarith
  have hDD : Dell f m' = Dell f m := by
    have h1 : Dell f m' ^ 2 = Dell f m ^ 2 := by
      unfold UnitVec at hm hm'
      have a1 : (m.x * Dell f m') ^ 2 + (m.y * Dell f m') ^ 2 + (m.z * Dell f m') ^ 2 = Dell f m' ^ 2 := by
        have : (m.x * Dell f m') ^ 2 + (m.y * Dell f m') ^ 2 + (m.z * Dell f m') ^ 2 = (m.x ^ 2 + m.y ^ 2 + m.z ^ 2) * Dell f m' ^ 2 := by ring
        rw [this, hm, one_mul]
      have a2 : (m'.x * Dell f m) ^ 2 + (m'.y * Dell f m) ^ 2 + (m'.z * Dell f m) ^ 2 = Dell f m ^ 2 := by
        have : (m'.x * Dell f m) ^ 2 + (m'.y * Dell f m) ^ 2 + (m'.z * Dell f m) ^ 2 = (m'.x ^ 2 + m'.y ^ 2 + m'.z ^ 2) * Dell f m ^ 2 := by ring
        rw [this, hm', one_mul]
      rw [← a1, ← a2, ex, ey, ez]
    exact (sq_eq_sq₀ hD'.le hD.le).mp h1
  rw [hDD] at ex ey ez
  ext
  · exact mul_right_cancel₀ hD.ne' ex
  · exact mul_right_cancel₀ hD.ne' ey
  · exact mul_right_cancel₀ hD.ne' ez

/-- two normals and depths above the equatorial plane that give the same position are the same -/
theorem posE_unique {a f d d' : ℝ} (ha : 0 < a) (hf0 : 0 ≤ f) (hf : f < 1) {m m' : V3 ℝ} (hm : UnitVec m) (hm' : UnitVec m')
    (hd : d * Dell f m < a * (1 - f) ^ 2) (hd' : d' * Dell f m' < a * (1 - f) ^ 2) (h : posE a f m d = posE a f m' d') :
    m = m' ∧ d = d' := by
  have hl : ∀ (u : V3 ℝ) (e : ℝ), UnitVec u → len (posE a f u e - posE a f u 0) = |e| := by
    intro u e hu
    have : posE a f u e - posE a f u 0 = (-e) • u := by unfold posE; ext <;> simp <;> ring
    rw [this, len_smul, abs_neg, hu.len, mul_one]
  have h1 := posE_nearest ha hf0 hf hm hd.le (onEllipsoid_posE ha hf hm')
  have h2 := posE_nearest ha hf0 hf hm' hd'.le (onEllipsoid_posE ha hf hm)
  rw [h, hl m' d' hm'] at h1
  rw [← h, hl m d hm] at h2
  have hmm := posE_surface_inj ha hf hm hm' (h1.2 hd h2.1).symm
  refine ⟨hmm, ?_⟩
  rw [← hmm, posE_eq a f d, posE_eq a f d'] at h
  have e : (d - d') • m = 0 := by
    have hx := congrArg V3.x h; have hy := congrArg V3.y h; have hz := congrArg V3.z h
    simp at hx hy hz
    have : ∀ s : ℝ, d = d' ∨ s = 0 → (d - d') * s = 0 := by rintro s (h | h) <;> simp [h]
    ext <;> simp
    · rcases hx with h | h <;> simp [h]
    · rcases hy with h | h <;> simp [h]
    · rcases hz with h | h <;> simp [h]
  have := congrArg len e
  rw [len_smul, hm.len, mul_one] at this
  have h0 : len (0 : V3 ℝ) = 0 := by simp [len]
  rw [h0, abs_eq_zero] at this
  linarith

theorem lt_toEquatorialPlane {a f d : ℝ} (hf : f < 1) {m : V3 ℝ} (hm : UnitVec m) :
    d < toEquatorialPlane a f m ↔ d * Dell f m < a * (1 - f) ^ 2 := by
  have hD := Dell_pos hf hm.ne
  have : toEquatorialPlane a f m = a * (1 - f) ^ 2 / Dell f m := by
    unfold toEquatorialPlane Dell; ring
  rw [this, lt_div_iff₀ hD]

/-- **C07** the exact condition: the round trip returns the n-vector and the depth if and only if the depth is less than the distance along the normal to
the equatorial plane and the position is outside the core of C08 or on the polar axis.  (On a sphere the position must not be the centre.) -/
theorem C07_iff (n : V3 ℝ) (hn : n ≠ 0) (d a f : ℝ) (ha : 0 < a) (hf0 : 0 ≤ f) (hf : f < 1) (R : M3 ℝ) (hR : IsRotation R)
    (p : V3 ℝ) (hp : n_EB_E2p_EB_E n.fin (fin d) (fin a) (fin f) R.fin = p.fin) (hc : 0 < f ∨ p ≠ 0) :
    p_EB_E2n_EB_E p.fin (fin a) (fin f) R.fin = (((len n)⁻¹ • n).fin, fin d) ↔
      d < toEquatorialPlane a f (app R ((len n)⁻¹ • n)) ∧ HasNvector a f (app R p) := by
  have hmu : UnitVec (app R (dirOf n)) := unitVec_app hR (dirOf_unit hn)
  have hp' : app R p = posE a f (app R (dirOf n)) d := by
    rw [n2p_fin hn d a f hf hR, V3.fin_inj] at hp
    rw [← hp, hR.app_trans]
  change _ ↔ d < toEquatorialPlane a f (app R (dirOf n)) ∧ _
  rw [lt_toEquatorialPlane hf hmu]
  by_cases h : HasNvector a f (app R p)
  · obtain ⟨m, d', h1, hm, hpos, hd⟩ := p2n_curvature p a f ha hf0 hf R hR h
    simp only [h, and_true]
    constructor
    · intro e
      rw [h1, Prod.mk.injEq, V3.fin_inj] at e
      obtain ⟨e1, e2⟩ := e
      have e2 : d' = d := by simpa using e2
      have e3 : m = app R (dirOf n) := by
        have := congrArg (app R) e1
        rwa [hR.app_trans] at this
      rwa [e2, e3] at hd
    · intro h2
      obtain ⟨e1, e2⟩ := posE_unique ha hf0 hf hm hmu hd h2 (hpos.trans hp')
      rw [h1, e1, e2, hR.trans_app]; rfl
  · simp only [h, and_false, iff_false]
    rcases hf0.lt_or_eq with hfp | rfl
    · have h' : ¬ OutsideCore a f (app R p) ∧ ¬ OnAxisInsideCore a f (app R p) := not_or.mp h
      rw [C08_core_nan p a f ha hfp hf R h'.1 h'.2]
      intro e
      exact absurd (congrArg (fun q => q.2) e) (by simp)
    · exfalso; apply h; left
      have hp0 : p ≠ 0 := by rcases hc with h | h; exact absurd h (lt_irrefl _); exact h
      have := len_pos (app_ne_zero hR hp0)
      have h3 : 0 < len (app R p) ^ 2 := by positivity
      rw [len_sq] at h3
      unfold OutsideCore
      simp only [mul_zero, sub_zero, one_pow, one_mul]
      rw [← add_div]
      norm_num
      have h4 : 0 < (app R p).y ^ 2 + (app R p).z ^ 2 + (app R p).x ^ 2 := by linarith
      exact div_pos h4 (by positivity)

/-- **C11** the exact condition for dead reckoning with the delta from A to B to return B -/
theorem C11_iff (nA nB : V3 ℝ) (hA : nA ≠ 0) (hB : nB ≠ 0) (zA zB a f : ℝ) (ha : 0 < a) (hf0 : 0 ≤ f) (hf : f < 1) (R : M3 ℝ) (hR : IsRotation R)
    (pB : V3 ℝ) (hp : n_EB_E2p_EB_E nB.fin (fin zB) (fin a) (fin f) R.fin = pB.fin) (hc : 0 < f ∨ pB ≠ 0) :
    n_EA_E_and_p_AB_E2n_EB_E nA.fin
        (n_EA_E_and_n_EB_E2p_AB_E nA.fin nB.fin (fin zA) (fin zB) (fin a) (fin f) R.fin) (fin zA) (fin a) (fin f) R.fin =
        (((len nB)⁻¹ • nB).fin, fin zB) ↔
      zB < toEquatorialPlane a f (app R ((len nB)⁻¹ • nB)) ∧ HasNvector a f (app R pB) := by
  rw [← C07_iff nB hB zB a f ha hf0 hf R hR pB hp hc, ← hp]
  have e : n_EA_E_and_p_AB_E2n_EB_E nA.fin
        (n_EA_E_and_n_EB_E2p_AB_E nA.fin nB.fin (fin zA) (fin zB) (fin a) (fin f) R.fin) (fin zA) (fin a) (fin f) R.fin =
      p_EB_E2n_EB_E (n_EB_E2p_EB_E nB.fin (fin zB) (fin a) (fin f) R.fin) (fin a) (fin f) R.fin := by
    unfold n_EA_E_and_p_AB_E2n_EB_E n_EA_E_and_n_EB_E2p_AB_E
    simp only [n2p_fin hA _ _ _ hf hR, n2p_fin hB _ _ _ hf hR, xr]
    congr 2
    ext <;> simp
  rw [e]

/-- **C45** the exact condition for Nvector → ECEFvector → Nvector -/
theorem C45_nvector_ecef_nvector_iff (n : V3 ℝ) (hn : n ≠ 0) (z a f : ℝ) (ha : 0 < a) (hf0 : 0 ≤ f) (hf : f < 1) (name : EllKey) (R : M3 ℝ)
    (hR : IsRotation R) (p : V3 ℝ)
    (hp : (Nvector.real n z (.real a f name R)).to_ecef_vector = .real p (.real a f name R)) (hc : 0 < f ∨ p ≠ 0) :
    (Nvector.real n z (.real a f name R)).to_ecef_vector.to_nvector = .real ((len n)⁻¹ • n) z (.real a f name R) ↔
      z < toEquatorialPlane a f (app R ((len n)⁻¹ • n)) ∧ HasNvector a f (app R p) := by
  have hp' : n_EB_E2p_EB_E n.fin (fin z) (fin a) (fin f) R.fin = p.fin := congrArg ECEFvector.pvector hp
  rw [← C07_iff n hn z a f ha hf0 hf R hR p hp' hc, hp]
  unfold ECEFvector.to_nvector ECEFvector.real Nvector.real FrameE.real
  constructor
  · intro h
    simp only [Nvector.mk.injEq, and_true] at h
    exact Prod.ext h.1 h.2
  · intro h
    simp only [h]

/-- a WGS84 position 10 km deep above latitude `arcsin 3/5` meets both conditions -/
example : (10000 : ℝ) < toEquatorialPlane 6378137 (1 / 298) ⟨3 / 5, 4 / 5, 0⟩ ∧ UnitVec (⟨3 / 5, 4 / 5, 0⟩ : V3 ℝ) := by
  have hm : UnitVec (⟨3 / 5, 4 / 5, 0⟩ : V3 ℝ) := by unfold UnitVec; norm_num
  refine ⟨?_, hm⟩
  rw [lt_toEquatorialPlane (by norm_num) hm]
  have := (Dell_ge (f := 1 / 298) (by norm_num) (by norm_num) hm).2
  nlinarith

end Nv
