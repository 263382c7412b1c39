import Verif.Props.Convert
import Verif.Props.FloatTrack

/-!
# C117: chains of conversions in binary64

In exact arithmetic no chain of `to_nvector`, `to_ecef_vector` and `to_geo_point` moves a position (C45).  In rounded arithmetic every
call may move it a little; the drift after `k` calls is at most `k` times a fixed tiny fraction of the distances involved: the errors of
the single calls do not amplify each other.

`Geodetic a f R n d p`: `p` is the point at depth `d` under the surface point with normal direction `n`.
-/

namespace Nv
open Spec F64
variable (B : Binary64)
variable {a f : ℝ} {R : M3 ℝ}

/-! ## Specification -/

/-- the position after calling a conversion method on it, in binary64 -/
noncomputable def Spec.Conv.call64 : Conv → Position (F64 B) → Position (F64 B)
  | .to_nvector, x => .nvec x.to_nvector
  | .to_ecef_vector, x => .ecef x.to_ecef_vector
  | .to_geo_point, x => .geo x.to_geo_point

/-- the position after a chain of calls, the first one first -/
noncomputable def Spec.chain64 (chain : List Conv) (x : Position (F64 B)) : Position (F64 B) := chain.foldl (fun y c => c.call64 B y) x

/-- `x` is a position object with binary64 coordinates, whose exact meaning is the point `p`: an ECEF vector is the point itself, an
n-vector of moderate length and a depth, or a latitude, longitude (any real numbers) and depth, describe it as in the geodetic definition -/
def Spec.Means (a f : ℝ) (R : M3 ℝ) (nm : EllKey) (p : V3 ℝ) : Position (F64 B) → Prop
  | .geo g => ∃ lat lon z : ℝ, g = ⟨F64.fin lat, F64.fin lon, F64.fin z, Frame64 B a f R nm⟩ ∧ IsF64 z ∧ Geodetic a f R (normalOf R lat lon) z p
  | .nvec n => ∃ (m : V3 ℝ) (z : ℝ), n = ⟨m.flt, F64.fin z, Frame64 B a f R nm⟩ ∧ IsF64V m ∧ 1e-50 ≤ len m ∧ len m ≤ 10 ^ 25 ∧ IsF64 z ∧
      Geodetic a f R m z p
  | .ecef q => q = ⟨p.flt, Frame64 B a f R nm⟩ ∧ IsF64V p
  | .pvec _ => False

/-! ## One call -/

theorem geodetic_depth (hR : IsAxes R) (ha : 0 < a) (f0 : 0 ≤ f) (f1 : f ≤ 0.01) {n p : V3 ℝ} {d : ℝ} (hp : Geodetic a f R n d p) :
    |d| ≤ a + len p := by
  have hf : f < 1 := by norm_num at f1; linarith
  obtain ⟨n0, rfl⟩ := hp.eq ha hf hR.rot
  have hm := unitVec_app hR.rot (dirOf_unit n0)
  rw [len_app hR.rot.transpose]
  generalize app R (dirOf n) = m at *
  have h0 := posE_len_le (d := 0) ha f0 hf hm
  rw [abs_zero, add_zero] at h0
  have e : d • m = posE a f m 0 - posE a f m d := by
    rw [posE_eq a f d]; ext <;> simp
  have h1 : len (d • m) = |d| := by rw [len_smul, hm.len, mul_one]
  have h2 := len_add_le (posE a f m 0) ((-1 : ℝ) • posE a f m d)
  rw [show posE a f m 0 + (-1 : ℝ) • posE a f m d = d • m by rw [e]; ext <;> simp <;> ring, h1, len_smul] at h2
  norm_num at h2
  linarith

theorem nvec_to_ecef (hR : IsAxes R) (fa : IsF64 a) (a1 : 1 ≤ a) (a2 : a ≤ 1e10) (ff : IsF64 f) (f0 : 0 ≤ f) (f1 : f ≤ 0.01) (nm : EllKey)
    {p : V3 ℝ} (L2 : len p ≤ 1001 * a) {n : Nvector (F64 B)} (h : Means B a f R nm p (.nvec n)) :
    ∃ p' : V3 ℝ, Means B a f R nm p' (.ecef n.to_ecef_vector) ∧ len (p' - p) ≤ 6.3e-15 * (a + len p) := by
  obtain ⟨m, z, rfl, fm, m1, m2, fz, hg⟩ := h
  have ha : 0 < a := by linarith
  have hf : f < 1 := by norm_num at f1; linarith
  have hz := geodetic_depth hR ha f0 f1 hg
  have hl := len_nonneg' p
  obtain ⟨-, hpe⟩ := hg.eq ha hf hR.rot
  have v1 : (2 : ℝ) ^ (-500 : ℤ) ≤ len m := by
    refine le_trans ?_ m1
    have : (2 : ℝ) ^ (-500 : ℤ) ≤ 2 ^ (-200 : ℤ) := zpow_le_zpow_right₀ (by norm_num) (by norm_num)
    exact this.trans (by norm_num)
  obtain ⟨P, h2, fP, hx, hy, hz'⟩ := n2p_flt (B := B) hR fa a1 a2 ff f0 f1 fz (by norm_num at a2 ⊢; linarith only [hz, a2, L2]) fm v1
    (m2.trans (by norm_num))
  rw [← hpe] at hx hy hz'
  refine ⟨P, ⟨?_, fP⟩, ?_⟩
  · simp only [Nvector.to_ecef_vector, Frame64]
    rw [h2]
  · refine (len_le_of_comp (v := P - p) hx hy hz').trans ?_
    have e1 : 1.7321 * (32.4 * uu) ≤ 6.3e-15 := by unfold uu; norm_num
    have e2 := mul_le_mul_of_nonneg_right e1 (by linarith : 0 ≤ a + len p)
    have e3 := mul_le_mul_of_nonneg_left hz uu_pos.le
    have e4 : 0 ≤ uu * len p := mul_nonneg uu_pos.le hl
    norm_num at e2 ⊢
    linarith only [e2, e3, e4]

theorem geo_to_nvec (hR : IsAxes R) (a1 : 1 ≤ a) (f0 : 0 ≤ f) (f1 : f ≤ 0.01) (nm : EllKey)
    {p : V3 ℝ} {g : GeoPoint (F64 B)} (h : Means B a f R nm p (.geo g)) :
    ∃ p' : V3 ℝ, Means B a f R nm p' (.nvec g.to_nvector) ∧ len (p' - p) ≤ 4.1e-15 * (a + len p) := by
  obtain ⟨lat, lon, z, rfl, fz, hg⟩ := h
  have ha : 0 < a := by linarith
  have hf : f < 1 := by norm_num at f1; linarith
  have hz := geodetic_depth hR ha f0 f1 hg
  have hl := len_nonneg' p
  obtain ⟨v, h1, fv, v0, hlv, hd⟩ := geo_normal_flt B hR lat lon
  obtain ⟨l1, l2⟩ := abs_le.mp hlv
  have hu1 : 9.02 * uu ≤ 0.5 := by unfold uu; norm_num
  norm_num at hu1 l1 l2
  have hg' := geodetic_posE (d := z) ha hf hR.rot v0
  have hmv := geodetic_move hR ha f0 f1 hg' hg
  rw [dirOf_of_unit (normalOf_unit hR lat lon)] at hmv
  refine ⟨_, ⟨v, z, ?_, fv, ?_, ?_, fz, hg'⟩, ?_⟩
  · simp only [GeoPoint.to_nvector, Frame64]
    rw [h1]
  · refine le_trans (by norm_num) (by linarith only [l1, hu1] : (1 / 2 : ℝ) ≤ len v)
  · refine le_trans (by linarith only [l2, hu1] : len v ≤ 2) (by norm_num)
  · refine hmv.trans ((mul_le_mul_of_nonneg_left hd (by positivity)).trans ?_)
    have e1 : 2.0102 * (18.04 * uu) ≤ 4.1e-15 := by unfold uu; norm_num
    have e2 := mul_le_mul_of_nonneg_right e1 (by linarith : 0 ≤ a + len p)
    have e3 := mul_le_mul_of_nonneg_right hz uu_pos.le
    have e4 : 0 ≤ uu * len p := mul_nonneg uu_pos.le hl
    norm_num at e2 ⊢
    linarith only [e2, e3, e4]

theorem nvec_to_geo (hR : IsAxes R) (a1 : 1 ≤ a) (f0 : 0 ≤ f) (f1 : f ≤ 0.01) (nm : EllKey)
    {p : V3 ℝ} {n : Nvector (F64 B)} (h : Means B a f R nm p (.nvec n)) :
    ∃ p' : V3 ℝ, Means B a f R nm p' (.geo n.to_geo_point) ∧ len (p' - p) ≤ 5.8e-15 * (a + len p) := by
  obtain ⟨m, z, rfl, fm, m1, m2, fz, hg⟩ := h
  have ha : 0 < a := by linarith
  have hf : f < 1 := by norm_num at f1; linarith
  have hz := geodetic_depth hR ha f0 f1 hg
  have hl := len_nonneg' p
  have hm0 := (hg.eq ha hf hR.rot).1
  obtain ⟨lat, lon, h1, -, -, c1, c2⟩ := n_E2lat_lon_flt (B := B) hR fm m1 m2
  have hlip := geoNormal_lip lat lon (XR.atan2 (app R m).x (√((app R m).y ^ 2 + (app R m).z ^ 2))) (XR.atan2 (app R m).y (-(app R m).z))
  rw [geoNormal_of_n m hm0 R hR.rot] at hlip
  have hu := normalOf_unit hR lat lon
  have hg' := geodetic_posE (d := z) ha hf hR.rot hu.ne
  have hmv := geodetic_move hR ha f0 f1 hg' hg
  have e0 : len (dirOf (normalOf R lat lon) - dirOf m) = len (geoNormal lat lon - app R (dirOf m)) := by
    rw [dirOf_of_unit hu, ← len_app hR.rot, app_sub]
    unfold normalOf
    rw [hR.rot.app_trans]
  rw [e0] at hmv
  refine ⟨_, ⟨lat, lon, z, ?_, fz, hg'⟩, ?_⟩
  · simp only [Nvector.to_geo_point, Frame64]
    rw [h1]
  · have hd : len (geoNormal lat lon - app R (dirOf m)) ≤ 25.8 * uu := by norm_num at c1 c2 hlip ⊢; linarith only [c1, c2, hlip]
    refine hmv.trans ((mul_le_mul_of_nonneg_left hd (by positivity)).trans ?_)
    have e1 : 2.0102 * (25.8 * uu) ≤ 5.8e-15 := by unfold uu; norm_num
    have e2 := mul_le_mul_of_nonneg_right e1 (by linarith : 0 ≤ a + len p)
    have e3 := mul_le_mul_of_nonneg_right hz uu_pos.le
    have e4 : 0 ≤ uu * len p := mul_nonneg uu_pos.le hl
    norm_num at e2 ⊢
    linarith only [e2, e3, e4]

theorem ecef_to_nvec (hR : IsAxes R) (fa : IsF64 a) (a1 : 1 ≤ a) (a2 : a ≤ 1e10) (ff : IsF64 f) (f0 : 0 ≤ f) (f1 : f ≤ 0.01) (nm : EllKey)
    {p : V3 ℝ} (L1 : a / 2 ≤ len p) (L2 : len p ≤ 1000 * a) {q : ECEFvector (F64 B)} (h : Means B a f R nm p (.ecef q)) :
    ∃ p' : V3 ℝ, Means B a f R nm p' (.nvec q.to_nvector) ∧ len (p' - p) ≤ 2.59e-14 * (a + len p) := by
  obtain ⟨rfl, fp⟩ := h
  have ha : 0 < a := by linarith
  have hf : f < 1 := by norm_num at f1; linarith
  have hl := len_nonneg' p
  obtain ⟨⟨n, d⟩, ⟨hn, hg, hd⟩, -⟩ := C76_exists_unique hR a1 f0 f1 L1
  dsimp only at hn hg hd
  have hz := geodetic_depth hR ha f0 f1 hg
  obtain ⟨w, D, h1, fw, fD, hx, hy, hz', hD⟩ := C76_p_EB_E2n_EB_E B hR fa a1 a2 ff f0 f1 fp L1 L2 hn hg hd
  have hwn : len (w - n) ≤ 1.7321 * 3.7e-15 := len_le_of_comp (v := w - n) hx hy hz'
  have lw : 1 / 2 ≤ len w ∧ len w ≤ 2 := by
    have t1 := len_add_le (w - n) n
    have t2 := len_add_le (n - w) w
    rw [show w - n + n = w by ext <;> simp, hn.len] at t1
    rw [show n - w + w = n by ext <;> simp, hn.len, len_sub_comm] at t2
    norm_num at hwn
    constructor <;> linarith only [t1, t2, hwn]
  have w0 : w ≠ 0 := by
    rintro rfl
    have : len (0 : V3 ℝ) = 0 := by unfold len; simp
    rw [this] at lw; norm_num at lw
  have hdw := len_dirOf_sub hn w0
  have hg' := geodetic_posE (d := D) ha hf hR.rot w0
  obtain ⟨-, hpe⟩ := hg.eq ha hf hR.rot
  have hc := pos_close (d := d) (d' := D) ha f0 hf (unitVec_app hR.rot hn) (unitVec_app hR.rot (dirOf_unit w0))
  rw [← app_sub, len_app hR.rot] at hc
  rw [dirOf_of_unit hn] at hpe
  refine ⟨_, ⟨w, D, ?_, fw, ?_, ?_, fD, hg'⟩, ?_⟩
  · simp only [ECEFvector.to_nvector, Frame64]
    rw [h1]
  · exact le_trans (by norm_num) lw.1
  · exact lw.2.trans (by norm_num)
  · have e : len (app (transp R) (posE a f (app R (dirOf w)) D) - p) = len (posE a f (app R (dirOf w)) D - posE a f (app R n) d) := by
      conv_lhs => rw [hpe]
      rw [← app_sub, len_app hR.rot.transpose]
    rw [e]
    refine hc.trans ?_
    have h10 : a / (1 - f) ≤ 1.0102 * a := by
      rw [div_le_iff₀ (by linarith)]
      norm_num at f1 ⊢
      nlinarith
    have h11 : len (dirOf w - n) ≤ 1.2818e-14 := by norm_num at hdw hwn ⊢; linarith only [hdw, hwn]
    have h12 : (a / (1 - f) + |d|) * len (dirOf w - n) ≤ (1.0102 * a + (a + len p)) * 1.2818e-14 :=
      mul_le_mul (by linarith only [h10, hz]) h11 (len_nonneg' _) (by positivity)
    norm_num at h12 hD ⊢
    linarith only [h12, hD, ha, hl]

/-- **C117** one conversion call moves a position by at most `3.2e-14` of the sum of the semi-major axis and its distance from the centre -/
theorem C117_call (hR : IsAxes R) (fa : IsF64 a) (a1 : 1 ≤ a) (a2 : a ≤ 1e10) (ff : IsF64 f) (f0 : 0 ≤ f) (f1 : f ≤ 0.01) (nm : EllKey)
    {p : V3 ℝ} (L1 : a / 2 ≤ len p) (L2 : len p ≤ 1000 * a) {x : Position (F64 B)} (h : Means B a f R nm p x) (c : Conv) :
    ∃ p' : V3 ℝ, Means B a f R nm p' (c.call64 B x) ∧ len (p' - p) ≤ 3.2e-14 * (a + len p) := by
  have ha : 0 < a := by linarith
  have hs : 0 ≤ a + len p := by have := len_nonneg' p; linarith
  have same : Means B a f R nm p x ∧ len (p - p) ≤ 3.2e-14 * (a + len p) := by
    refine ⟨h, ?_⟩
    rw [show p - p = 0 by ext <;> simp, len_eq_zero.mpr rfl]
    positivity
  have weak : ∀ {k : ℝ} {t : ℝ}, t ≤ k * (a + len p) → k ≤ 3.2e-14 → t ≤ 3.2e-14 * (a + len p) := by
    intro k t h1 h2
    exact h1.trans (mul_le_mul_of_nonneg_right h2 hs)
  have tri : ∀ (u v : V3 ℝ), len (u - p) ≤ len (u - v) + len (v - p) := by
    intro u v
    have := len_add_le (u - v) (v - p)
    rwa [show u - v + (v - p) = u - p by ext <;> simp] at this
  have grow : ∀ {v : V3 ℝ} {k : ℝ}, len (v - p) ≤ k * (a + len p) → k ≤ 1e-10 → a + len v ≤ (1 + 1e-10) * (a + len p) := by
    intro v k h1 h2
    have t := len_add_le (v - p) p
    rw [show v - p + p = v by ext <;> simp] at t
    have := mul_le_mul_of_nonneg_right h2 hs
    linarith only [t, h1, this]
  cases x with
  | pvec q => exact h.elim
  | geo g =>
    cases c with
    | to_geo_point => exact ⟨p, same⟩
    | to_nvector =>
      obtain ⟨p', h1, h2⟩ := geo_to_nvec B hR a1 f0 f1 nm h
      exact ⟨p', h1, weak h2 (by norm_num)⟩
    | to_ecef_vector =>
      obtain ⟨v, h1, h2⟩ := geo_to_nvec B hR a1 f0 f1 nm h
      have hv := grow h2 (by norm_num)
      obtain ⟨p', h3, h4⟩ := nvec_to_ecef B hR fa a1 a2 ff f0 f1 nm (by norm_num at hv; linarith only [hv, L2, a1]) h1
      refine ⟨p', h3, (tri p' v).trans ?_⟩
      norm_num at hv h2 h4 ⊢
      linarith only [hv, h2, h4, hs]
  | nvec n =>
    cases c with
    | to_nvector => exact ⟨p, same⟩
    | to_geo_point =>
      obtain ⟨p', h1, h2⟩ := nvec_to_geo B hR a1 f0 f1 nm h
      exact ⟨p', h1, weak h2 (by norm_num)⟩
    | to_ecef_vector =>
      obtain ⟨p', h1, h2⟩ := nvec_to_ecef B hR fa a1 a2 ff f0 f1 nm (by linarith) h
      exact ⟨p', h1, weak h2 (by norm_num)⟩
  | ecef q =>
    cases c with
    | to_ecef_vector => exact ⟨p, same⟩
    | to_nvector =>
      obtain ⟨p', h1, h2⟩ := ecef_to_nvec B hR fa a1 a2 ff f0 f1 nm L1 L2 h
      exact ⟨p', h1, weak h2 (by norm_num)⟩
    | to_geo_point =>
      obtain ⟨v, h1, h2⟩ := ecef_to_nvec B hR fa a1 a2 ff f0 f1 nm L1 L2 h
      have hv := grow h2 (by norm_num)
      obtain ⟨p', h3, h4⟩ := nvec_to_geo B hR a1 f0 f1 nm h1
      refine ⟨p', h3, (tri p' v).trans ?_⟩
      norm_num at hv h2 h4 ⊢
      linarith only [hv, h2, h4, hs]

/-! ## Chains -/

/-- **C117** a chain of up to `10^12` conversion calls, in any order: what comes out describes a point within
`3.4e-14 * (number of calls) * (a + distance from the centre)` of the point that went in (0.44 µm per call on the surface of the Earth) -/
theorem C117_chain (hR : IsAxes R) (fa : IsF64 a) (a1 : 1 ≤ a) (a2 : a ≤ 1e10) (ff : IsF64 f) (f0 : 0 ≤ f) (f1 : f ≤ 0.01) (nm : EllKey)
    {p : V3 ℝ} (L1 : 0.6 * a ≤ len p) (L2 : len p ≤ 900 * a) {x : Position (F64 B)} (h : Means B a f R nm p x) (chain : List Conv)
    (hk : chain.length ≤ 10 ^ 12) :
    ∃ p' : V3 ℝ, Means B a f R nm p' (chain64 B chain x) ∧
      len (p' - p) ≤ 3.4e-14 * chain.length * (a + len p) := by
  have ha : 0 < a := by linarith
  have hl := len_nonneg' p
  have hs : 0 ≤ a + len p := by linarith
  induction chain using List.reverseRecOn with
  | nil =>
    refine ⟨p, h, ?_⟩
    rw [show p - p = 0 by ext <;> simp, len_eq_zero.mpr rfl]
    simp
  | append_singleton l c ih =>
    rw [List.length_append, List.length_singleton] at hk
    obtain ⟨v, h1, h2⟩ := ih (by omega)
    have hk' : (l.length : ℝ) ≤ 10 ^ 12 := by exact_mod_cast (by omega : l.length ≤ 10 ^ 12)
    rw [chain64, List.foldl_append, List.foldl_cons, List.foldl_nil, List.length_append, List.length_singleton]
    push_cast
    have h3 : 3.4e-14 * (l.length : ℝ) * (a + len p) ≤ 0.034 * (a + len p) :=
      mul_le_mul_of_nonneg_right (by
        have := mul_le_mul_of_nonneg_left hk' (by norm_num : (0 : ℝ) ≤ 3.4e-14)
        exact this.trans (by norm_num)) hs
    have t1 := len_add_le (v - p) p
    rw [show v - p + p = v by ext <;> simp] at t1
    have t2 := len_add_le (p - v) v
    rw [show p - v + v = p by ext <;> simp, len_sub_comm] at t2
    norm_num at h3 L1
    have b := h2.trans (by norm_num; exact h3)
    obtain ⟨p', h4, h5⟩ := C117_call B hR fa a1 a2 ff f0 f1 nm (p := v) (by linarith only [t2, b, L1, ha]) (by linarith only [t1, b, L2, ha]) h1 c
    refine ⟨p', h4, ?_⟩
    have t3 := len_add_le (p' - v) (v - p)
    rw [show p' - v + (v - p) = p' - p by ext <;> simp] at t3
    have h6 : a + len v ≤ 1.034 * (a + len p) := by norm_num; linarith only [t1, b]
    have h7 := mul_le_mul_of_nonneg_left h6 (by norm_num : (0 : ℝ) ≤ 3.2e-14)
    norm_num at h2 h5 h7 ⊢
    linarith only [h2, h5, h7, t3, hs]

/-- **C117** a chain which starts and ends with an ECEF vector: the coordinates that come out -/
theorem C117_ecef (hR : IsAxes R) (fa : IsF64 a) (a1 : 1 ≤ a) (a2 : a ≤ 1e10) (ff : IsF64 f) (f0 : 0 ≤ f) (f1 : f ≤ 0.01) (nm : EllKey)
    {p : V3 ℝ} (fp : IsF64V p) (L1 : 0.6 * a ≤ len p) (L2 : len p ≤ 900 * a) (chain : List Conv) (hk : chain.length < 10 ^ 12) :
    ∃ p' : V3 ℝ, (chain64 B chain (.ecef ⟨p.flt, Frame64 B a f R nm⟩)).to_ecef_vector = ⟨p'.flt, Frame64 B a f R nm⟩ ∧
      IsF64V p' ∧ len (p' - p) ≤ 3.4e-14 * (chain.length + 1) * (a + len p) := by
  obtain ⟨p', h1, h2⟩ := C117_chain B hR fa a1 a2 ff f0 f1 nm L1 L2 (x := .ecef ⟨p.flt, Frame64 B a f R nm⟩) ⟨rfl, fp⟩
    (chain ++ [.to_ecef_vector]) (by rw [List.length_append, List.length_singleton]; omega)
  rw [chain64, List.foldl_append, List.foldl_cons, List.foldl_nil] at h1
  obtain ⟨h3, h4⟩ := h1
  refine ⟨p', h3, h4, ?_⟩
  rw [List.length_append, List.length_singleton] at h2
  push_cast at h2
  exact h2

/-- **C117** a chain which starts and ends with a geographic point: the depth that comes out is a number, and the latitude, longitude and
depth that come out describe a point this near the one that went in -/
theorem C117_geo (hR : IsAxes R) (fa : IsF64 a) (a1 : 1 ≤ a) (a2 : a ≤ 1e10) (ff : IsF64 f) (f0 : 0 ≤ f) (f1 : f ≤ 0.01) (nm : EllKey)
    (lat lon : ℝ) {z : ℝ} (fz : IsF64 z) {p : V3 ℝ} (hp : Geodetic a f R (normalOf R lat lon) z p) (L1 : 0.6 * a ≤ len p)
    (L2 : len p ≤ 900 * a) (chain : List Conv) (hk : chain.length < 10 ^ 12) :
    ∃ (lat' lon' z' : ℝ) (p' : V3 ℝ), (chain64 B chain (.geo (Geo64 B a f R nm lat lon z))).to_geo_point =
        Geo64 B a f R nm lat' lon' z' ∧ IsF64 z' ∧ Geodetic a f R (normalOf R lat' lon') z' p' ∧
      len (p' - p) ≤ 3.4e-14 * (chain.length + 1) * (a + len p) := by
  have e : ∀ u v w : ℝ, Geo64 B a f R nm u v w = ⟨F64.fin u, F64.fin v, F64.fin w, Frame64 B a f R nm⟩ := by
    intro u v w
    simp only [Geo64, GeoPoint.new, Bool.false_eq_true, if_false]
  obtain ⟨p', h1, h2⟩ := C117_chain B hR fa a1 a2 ff f0 f1 nm L1 L2 (x := .geo (Geo64 B a f R nm lat lon z)) ⟨lat, lon, z, e _ _ _, fz, hp⟩
    (chain ++ [.to_geo_point]) (by rw [List.length_append, List.length_singleton]; omega)
  rw [chain64, List.foldl_append, List.foldl_cons, List.foldl_nil] at h1
  obtain ⟨lat', lon', z', h3, h4, h5⟩ := h1
  refine ⟨lat', lon', z', p', ?_, h4, h5, ?_⟩
  · rw [e]; exact h3
  · rw [List.length_append, List.length_singleton] at h2
    push_cast at h2
    exact h2

/-- the hypotheses are met by a point 100 m above the Earth and a chain of three conversions -/
example : ∃ (z : ℝ) (p : V3 ℝ), IsF64 z ∧ z ≠ 0 ∧ Geodetic 6378137 0.003 Re (normalOf Re 1 2) z p ∧ 0.6 * 6378137 ≤ len p ∧
    len p ≤ 900 * 6378137 ∧ [Conv.to_nvector, .to_ecef_vector, .to_nvector].length < 10 ^ 12 := by
  have hu : UnitVec (normalOf Re 1 2) := unitVec_app isRotation_Re.transpose (geoNormal_isUnit _ _)
  refine ⟨-100, _, by simpa using isF64_int (n := -100) (by norm_num), by norm_num, geodetic_posE (by norm_num) (by norm_num) isRotation_Re hu.ne,
    ?_, ?_, by norm_num⟩
  · rw [len_app isRotation_Re.transpose]
    exact le_trans (by norm_num) (posE_len_ge (by norm_num) (by norm_num) (by norm_num) (unitVec_app isRotation_Re (dirOf_unit hu.ne)))
  · rw [len_app isRotation_Re.transpose]
    exact (posE_len_le (by norm_num) (by norm_num) (by norm_num) (unitVec_app isRotation_Re (dirOf_unit hu.ne))).trans (by norm_num)

end Nv
