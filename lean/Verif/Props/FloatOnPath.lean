import Verif.Props.FloatPaths
import Verif.Props.FloatAzimuth

/-!
# C111: positions on a great circle path in binary64
-/

namespace Nv
open Spec F64
variable (B : Binary64)

/-- a quotient of two lengths compared with one -/
theorem ratio_le_one {x y : ℝ} (x0 : 0 ≤ x) (x5 : x ≤ 5) (y0 : 1e-20 ≤ y) :
    (x ≤ y → PyFloat.le (F64.fin x / F64.fin y : F64 B) (lit 1) = true) ∧
    ((1 + 2e-16) * y < x → PyFloat.le (F64.fin x / F64.fin y : F64 B) (lit 1) = false) := by
  have yp : 0 < y := lt_of_lt_of_le (by norm_num) y0
  have h1 : (lit 1 : F64 B) = F64.fin 1 := by simpa using lit_int (B := B) (n := 1) (by norm_num)
  have hb : |x / y| ≤ 10 ^ 60 := by
    rw [abs_of_nonneg (by positivity), div_le_iff₀ yp]
    have : (10 : ℝ) ^ 60 * 1e-20 ≤ 10 ^ 60 * y := mul_le_mul_of_nonneg_left y0 (by positivity)
    refine le_trans (x5.trans ?_) this
    norm_num
  rw [fin_div yp.ne' hb, h1, fin_le]
  constructor
  · intro h
    rw [decide_eq_true_eq]
    exact B.rounds.le isF64_one ((div_le_one yp).mpr h)
  · intro h
    rw [decide_eq_false_iff_not, not_le]
    have h2 := (abs_le.mp (B.rounds.err_add (x / y))).1
    have h3 : 1 + 2e-16 < x / y := by rw [lt_div_iff₀ yp]; exact h
    rw [abs_of_nonneg (by positivity)] at h2
    have h4 : eta ≤ 1e-20 := eta_small.trans (by norm_num)
    have h5 : uu ≤ 1.2e-16 := by unfold uu; norm_num
    have h6 : uu * (x / y) ≤ 1.2e-16 * (x / y) := mul_le_mul_of_nonneg_right h5 (by positivity)
    norm_num at h4 h6 h3 ⊢
    linarith

/-- the two ends of the path: which of two chords is longer -/
theorem chord_ratio {u v x y : V3 ℝ} (u2 : len u ≤ 1.1) (v2 : len v ≤ 1.1) (x2 : len x ≤ 1.1) (y2 : len y ≤ 1.1) (hl : 1e-10 ≤ len (y - x)) :
    ((1 + 1.2e-15) * len (v - u) ≤ len (y - x) → PyFloat.le (norm3 (sub3 (v.flt : V3 (F64 B)) u.flt) / norm3 (sub3 y.flt x.flt)) (lit 1) = true) ∧
    ((1 + 1.5e-15) * len (y - x) ≤ len (v - u) → PyFloat.le (norm3 (sub3 (v.flt : V3 (F64 B)) u.flt) / norm3 (sub3 y.flt x.flt)) (lit 1) = false) := by
  obtain ⟨M, hM, -, M0, M5, hMe⟩ := chord_flt B u2 v2
  obtain ⟨N, hN, -, N0, N5, hNe⟩ := chord_flt B x2 y2
  have l0 := len_nonneg' (v - u)
  generalize len (v - u) = m at *
  generalize len (y - x) = l at *
  have hu : 5.07 * uu ≤ 5.65e-16 := by unfold uu; norm_num
  have h1 := mul_le_mul_of_nonneg_right hu l0
  have h2 := mul_le_mul_of_nonneg_right hu (show 0 ≤ l by norm_num at hl; linarith)
  have h3 : (2 : ℝ) / 10 ^ 75 ≤ 1e-20 * l := by
    have : (1e-20 : ℝ) * 1e-10 ≤ 1e-20 * l := mul_le_mul_of_nonneg_left hl (by norm_num)
    exact le_trans (by norm_num) this
  generalize (2 : ℝ) / 10 ^ 75 = τ at *
  obtain ⟨a1, a2⟩ := abs_le.mp hMe
  obtain ⟨b1, b2⟩ := abs_le.mp hNe
  have hy : 1e-20 ≤ N := by norm_num at hl h2 h3 b1 ⊢; linarith
  obtain ⟨r1, r2⟩ := ratio_le_one B M0 M5 hy
  rw [hM, hN]
  constructor
  · intro h
    apply r1
    norm_num at h h1 h2 h3 ⊢
    linarith
  · intro h
    apply r2
    norm_num at h h1 h2 h3 hl ⊢
    linarith

theorem chord_of_cross {a b : V3 ℝ} {s : ℝ} (a2 : len a ≤ 1.1) (s0 : 1e-9 ≤ s) (hs : s ≤ len (cross a b)) : 1e-10 ≤ len (b - a) := by
  have h := len_cross_le a (b - a)
  rw [show cross a (b - a) = cross a b by ext <;> simp [cross] <;> ring] at h
  have := mul_le_mul_of_nonneg_right a2 (len_nonneg' (b - a))
  norm_num at this s0 ⊢
  linarith

/-- **C111** `on_great_circle_path` is true if the point is on the great circle within the tolerance and nearer to each end of the path than the other end is, all
by more than the rounding error -/
theorem C111_core_on {a b n : V3 ℝ} {s δ : ℝ} (fa : IsF64V a) (fb : IsF64V b) (fn : IsF64V n) (a2 : len a ≤ 1.1) (b2 : len b ≤ 1.1)
    (s0 : 1e-9 ≤ s) (hs : s ≤ len (cross a b)) (hδ : |len n - 1| ≤ δ) (hδ' : δ ≤ 1e-6) {R : ℝ} (fR : IsF64 R) (R1 : 1e-20 ≤ R) (R2 : R ≤ 1e20)
    {t : ℝ} (ht : t ≤ 0.92 * R) {Q : V3 ℝ} (hQ : OnCircle a b Q) (hd : angle n Q * R + (9e-15 / s + 1.67 * δ) * R ≤ t)
    (h1 : (1 + 1.2e-15) * len (n - a) ≤ len (b - a)) (h2 : (1 + 1.2e-15) * len (n - b) ≤ len (b - a)) :
    on_great_circle_path (a.flt, b.flt) (n.flt : V3 (F64 B)) (F64.fin R) (F64.fin t) = true := by
  have n2 : len n ≤ 1.1 := by have := (abs_le.mp hδ).2; norm_num at hδ' ⊢; linarith
  have hl := chord_of_cross a2 s0 hs
  unfold on_great_circle_path
  simp only [Bool.and_eq_true]
  exact ⟨⟨(chord_ratio B a2 n2 a2 b2 hl).1 h1, (chord_ratio B b2 n2 a2 b2 hl).1 h2⟩, C95_on B fa fb fn a2 b2 s0 hs hδ hδ' fR R1 R2 ht hQ hd⟩

/-- **C111** and it is false if the point is away from the great circle by more than the tolerance, or further from one end than the other end is, by more than the
rounding error -/
theorem C111_core_off {a b n : V3 ℝ} {s δ : ℝ} (fa : IsF64V a) (fb : IsF64V b) (fn : IsF64V n) (a2 : len a ≤ 1.1) (b2 : len b ≤ 1.1)
    (s0 : 1e-9 ≤ s) (hs : s ≤ len (cross a b)) (hδ : |len n - 1| ≤ δ) (hδ' : δ ≤ 1e-6) {R : ℝ} (fR : IsF64 R) (R1 : 1e-20 ≤ R) (R2 : R ≤ 1e20)
    {t : ℝ} (ht : t ≤ 0.75 * R) (h : (∀ Q, OnCircle a b Q → t + (9e-15 / s + 1.67 * δ) * R < angle n Q * R) ∨
      (1 + 1.5e-15) * len (b - a) ≤ len (n - a) ∨ (1 + 1.5e-15) * len (b - a) ≤ len (n - b)) :
    on_great_circle_path (a.flt, b.flt) (n.flt : V3 (F64 B)) (F64.fin R) (F64.fin t) = false := by
  have n2 : len n ≤ 1.1 := by have := (abs_le.mp hδ).2; norm_num at hδ' ⊢; linarith
  have hl := chord_of_cross a2 s0 hs
  unfold on_great_circle_path
  simp only [Bool.and_eq_false_iff]
  rcases h with h | h | h
  · exact .inr (C95_off B fa fb fn a2 b2 s0 hs hδ hδ' fR R1 R2 ht h)
  · exact .inl (.inl ((chord_ratio B a2 n2 a2 b2 hl).2 h))
  · exact .inl (.inr ((chord_ratio B b2 n2 a2 b2 hl).2 h))

/-- great circles with nearby normals -/
theorem circle_move {a b v w Q : V3 ℝ} {ε : ℝ} (h1 : cross a b ≠ 0) (h2 : cross v w ≠ 0) (h : len (dirOf (cross v w) - dirOf (cross a b)) ≤ ε) (hε : ε ≤ 0.01)
    (hQ : OnCircle v w Q) : ∃ Q0, OnCircle a b Q0 ∧ angle Q Q0 ≤ 1.001 * ε := by
  have hq := (onCircle_iff_normal h2).mp hQ
  obtain ⟨⟨Q0, hQ0, hd⟩, -⟩ := least_angle h1 hq.1.ne
  refine ⟨Q0, hQ0, ?_⟩
  rw [← hd, dirOf_of_unit hq.1]
  have ε0 := (len_nonneg' _).trans h
  have e : -dot (dirOf (cross a b)) Q = dot (dirOf (cross v w) - dirOf (cross a b)) Q := by
    have := hq.2
    unfold dot at *
    simp
    linarith
  have hx : |(-dot (dirOf (cross a b)) Q)| ≤ ε := by
    rw [e]
    have := abs_dot_le (dirOf (cross v w) - dirOf (cross a b)) Q
    rw [hq.1.len, mul_one] at this
    exact this.trans h
  have := arcsin_lip (a := -dot (dirOf (cross a b)) Q) (b := 0) (m := 0.01) (c := 0.9995) (hx.trans hε) (by norm_num) (by norm_num) (by norm_num) (by norm_num)
  rw [Real.arcsin_zero, sub_zero, sub_zero] at this
  refine this.trans ?_
  rw [div_le_iff₀ (by norm_num)]
  norm_num at hx ⊢
  linarith

/-- `isclose` with given tolerances compares the rounded difference with the rounded tolerance -/
theorem isclose_tol_flt {x y rt t : ℝ} (hx : |x| ≤ 1e20) (hy : |y| ≤ 1e20) (ft : IsF64 t) (t0 : 0 ≤ t) (t1 : t ≤ 1e20) (r0 : 0 ≤ rt) (r1 : rt ≤ 1) :
    isclose (F64.fin x : F64 B) (F64.fin y) (F64.fin rt) (F64.fin t) = decide (|B.fl (x - y)| ≤ max t (B.fl (rt * max |x| |y|))) := by
  have hm : max |x| |y| ≤ 1e20 := max_le hx hy
  have hm0 : 0 ≤ max |x| |y| := (abs_nonneg x).trans (le_max_left _ _)
  have hp0 : 0 ≤ rt * max |x| |y| := mul_nonneg r0 hm0
  have hp : rt * max |x| |y| ≤ 1e20 := by
    calc _ ≤ 1 * 1e20 := mul_le_mul r1 hm hm0 (by norm_num)
      _ = 1e20 := one_mul _
  obtain ⟨T, hT⟩ : ∃ T, T = max t (B.fl (rt * max |x| |y|)) := ⟨_, rfl⟩
  have fT : IsF64 T := by
    rw [hT]
    rcases max_choice t (B.fl (rt * max |x| |y|)) with h | h <;> rw [h]
    · exact ft
    · exact B.rounds.val _
  have T0 : 0 ≤ T := by rw [hT]; exact t0.trans (le_max_left _ _)
  have Tb : T ≤ 10 ^ 60 := by
    rw [hT]
    refine max_le (t1.trans (by norm_num)) ?_
    have h1 := (abs_le.mp (B.rounds.err_add (rt * max |x| |y|))).2
    have e : eta ≤ 1 := eta_small.trans (by norm_num)
    rw [abs_of_nonneg hp0] at h1
    have h3 : uu * (rt * max |x| |y|) ≤ 1 * 1e20 := mul_le_mul (by unfold uu; norm_num) hp hp0 (by norm_num)
    have : B.fl (rt * max |x| |y|) ≤ 3e20 + 1 := by norm_num at h3 hp ⊢; linarith
    exact this.trans (by norm_num)
  have k3 : (F64.fin rt * F64.fin (max |x| |y|) : F64 B) = F64.fin (B.fl (rt * max |x| |y|)) :=
    fin_mul (by rw [abs_of_nonneg hp0]; exact hp.trans (by norm_num))
  have k0 : (lit 0 : F64 B) = F64.fin 0 := by
    have := lit_int (B := B) (n := 0) (by norm_num)
    simpa using this
  have kd : (F64.fin x - F64.fin y : F64 B) = F64.fin (B.fl (x - y)) := by
    refine fin_sub ((abs_sub x y).trans ?_)
    refine (add_le_add hx hy).trans (by norm_num)
  unfold isclose npIsclose
  simp only [fin_isfinite, Bool.and_true, if_true, k0, fin_abs, fin_maximum, k3, ← hT, zero_mul', kd]
  rw [add_zero' (fin64_of_le fT (by rw [abs_of_nonneg T0]; exact Tb)), fin_le]

/-- `isclose` decides the comparison with the exact tolerance, except within the rounding error -/
theorem isclose_tol {x y rt t : ℝ} (hx : |x| ≤ 1e20) (hy : |y| ≤ 1e20) (ft : IsF64 t) (t0 : 0 ≤ t) (t1 : t ≤ 1e20) (r0 : 0 ≤ rt) (r1 : rt ≤ 1) :
    (|x - y| + 3e-16 * (|x| + |y|) + 1e-50 ≤ max t (rt * max |x| |y|) → isclose (F64.fin x : F64 B) (F64.fin y) (F64.fin rt) (F64.fin t) = true) ∧
    (max t (rt * max |x| |y|) + 3e-16 * (|x| + |y|) + 1e-50 ≤ |x - y| → isclose (F64.fin x : F64 B) (F64.fin y) (F64.fin rt) (F64.fin t) = false) := by
  rw [isclose_tol_flt B hx hy ft t0 t1 r0 r1]
  have hu : uu ≤ 1.2e-16 := by unfold uu; norm_num
  have hu0 := uu_pos
  have he : 3 * eta ≤ 1e-50 := by
    have := mul_le_mul_of_nonneg_left eta_small (show (0 : ℝ) ≤ 3 by norm_num)
    exact this.trans (by norm_num)
  have he0 := eta_pos
  have x0 := abs_nonneg x
  have y0 := abs_nonneg y
  have hm0 : 0 ≤ max |x| |y| := x0.trans (le_max_left _ _)
  have hm : max |x| |y| ≤ |x| + |y| := max_le (by linarith) (by linarith)
  have hp0 : 0 ≤ rt * max |x| |y| := mul_nonneg r0 hm0
  have hp : rt * max |x| |y| ≤ |x| + |y| := by
    have := mul_le_mul_of_nonneg_right r1 hm0
    linarith
  have e1 := B.rounds.err_add (x - y)
  have e2 := B.rounds.err_add (rt * max |x| |y|)
  rw [abs_of_nonneg hp0] at e2
  have d1 : uu * |x - y| ≤ 1.2e-16 * (|x| + |y|) := mul_le_mul hu (abs_sub x y) (abs_nonneg _) (by norm_num)
  have d2 : uu * (rt * max |x| |y|) ≤ 1.2e-16 * (|x| + |y|) := mul_le_mul hu hp hp0 (by norm_num)
  have e3 := abs_sub_abs_le_abs_sub (B.fl (x - y)) (x - y)
  have e4 := abs_sub_abs_le_abs_sub (x - y) (B.fl (x - y))
  rw [abs_sub_comm (x - y) (B.fl (x - y))] at e4
  obtain ⟨e5, e6⟩ := abs_le.mp e2
  generalize (1e-50 : ℝ) = τ at *
  norm_num at d1 d2
  constructor
  · intro h
    rw [decide_eq_true_eq]
    rcases le_total (rt * max |x| |y|) t with c | c
    · rw [max_eq_left c] at h
      refine le_trans ?_ (le_max_left _ _)
      norm_num at h; linarith
    · rw [max_eq_right c] at h
      refine le_trans ?_ (le_max_right _ _)
      norm_num at h; linarith
  · intro h
    rw [decide_eq_false_iff_not, not_le]
    have h1 := le_max_left t (rt * max |x| |y|)
    have h2 := le_max_right t (rt * max |x| |y|)
    norm_num at h
    have q0 : 0 < τ := by linarith
    have s1 : t < |B.fl (x - y)| := by linarith
    have s2 : B.fl (rt * max |x| |y|) < |B.fl (x - y)| := by linarith
    exact max_lt s1 s2

/-- the sizes are at most ten times the mean distance from the centre -/
theorem size_le_radius {a f : ℝ} {R : M3 ℝ} (hR : IsAxes R) (a1 : 1 ≤ a) (f0 : 0 ≤ f) (f1 : f ≤ 0.01) {latA lonA latB lonB zA zB : ℝ}
    (dA : zA ≤ 0.4 * a) (dB : zB ≤ 0.4 * a) {pA pB : V3 ℝ} (gA : Geodetic a f R (normalOf R latA lonA) zA pA)
    (gB : Geodetic a f R (normalOf R latB lonB) zB pB) : a + |zA| + |zB| ≤ 10 * ((len pA + len pB) / 2) := by
  have ha : 0 < a := by linarith
  have hf : f < 1 := by norm_num at f1; linarith
  have key : ∀ {lat lon z : ℝ} {p : V3 ℝ}, z ≤ 0.4 * a → Geodetic a f R (normalOf R lat lon) z p → 0.5 * a ≤ len p ∧ |z| ≤ 4 * len p := by
    intro lat lon z p hz g
    obtain ⟨n0, hp'⟩ := g.eq ha hf hR.rot
    have g1 := posE_len_ge (d := z) ha f0 hf (unitVec_app hR.rot (dirOf_unit n0))
    rw [← len_app hR.rot.transpose, ← hp'] at g1
    have f2 := mul_le_mul_of_nonneg_left f1 ha.le
    have w : 0.5 * a ≤ len p := by norm_num at f2 hz ⊢; linarith
    refine ⟨w, ?_⟩
    rcases abs_cases z with ⟨e, -⟩ | ⟨e, -⟩ <;> rw [e] <;> norm_num at f2 hz w ⊢ <;> linarith
  obtain ⟨a3, a4⟩ := key dA gA
  obtain ⟨b3, b4⟩ := key dB gB
  norm_num at a3 b3
  linarith

/-- angles to positions of the exact great circle and of the great circle through the computed n-vectors -/
theorem angle_move {v w n A C N Q : V3 ℝ} {s : ℝ} (uA : UnitVec A) (uN : UnitVec N) (h1 : len (v - A) ≤ 3.1e-15) (h2 : len (w - C) ≤ 3.1e-15) (hw : len w ≤ 1.001)
    (n0 : n ≠ 0) (hn : len (dirOf n - N) ≤ 2.01e-15) (s0 : 1e-8 ≤ s) (s1 : s ≤ 1) (hs : s ≤ len (cross A C)) :
    (OnCircle A C Q → ∃ Q', OnCircle v w Q' ∧ angle n Q' ≤ angle N Q + 1.47e-14 / s) ∧
    (OnCircle v w Q → ∃ Q', OnCircle A C Q' ∧ angle N Q' ≤ angle n Q + 1.47e-14 / s) := by
  have sp : 0 < s := lt_of_lt_of_le (by norm_num) s0
  have hc0 : cross A C ≠ 0 := by intro h; rw [h, len_eq_zero.mpr rfl] at hs; linarith
  obtain ⟨k0, k1, -, k2⟩ := normal_move uA h1 h2 hw s0 hs
  have hse : 1.25e-14 / s ≤ 0.01 := by rw [div_le_iff₀ sp]; norm_num at s0 ⊢; linarith
  obtain ⟨-, hang⟩ := angle_le_of_len uN hn (by norm_num)
  rw [angle_dirOf_left n0] at hang
  have un := dirOf_unit n0
  have hb : 1.002 * 2.01e-15 + 1.001 * (1.25e-14 / s) ≤ 1.47e-14 / s := by
    have h3 : 2.1e-15 ≤ 2.1e-15 / s := by rw [le_div_iff₀ sp]; norm_num; linarith
    have h4 : 1.001 * (1.25e-14 / s) + 2.1e-15 / s ≤ 1.47e-14 / s := by
      rw [show 1.001 * (1.25e-14 / s) + 2.1e-15 / s = (1.001 * 1.25e-14 + 2.1e-15) / s by ring]
      exact div_le_div_of_nonneg_right (by norm_num) sp.le
    norm_num at h3 h4 ⊢; linarith
  constructor
  · intro hQ
    have k2' : len (dirOf (cross A C) - dirOf (cross v w)) ≤ 1.25e-14 / s := by
      have : dirOf (cross A C) - dirOf (cross v w) = (-1 : ℝ) • (dirOf (cross v w) - dirOf (cross A C)) := by ext <;> simp
      rw [this, len_smul, abs_neg, abs_one, one_mul]; exact k2
    obtain ⟨Q', hQ', hd⟩ := circle_move k0 hc0 k2' hse hQ
    refine ⟨Q', hQ', ?_⟩
    have uQ := hQ.1
    have uQ' := hQ'.1
    have t1 := angle_triangle un uN uQ'
    have t2 := angle_triangle uN uQ uQ'
    rw [angle_dirOf_left n0, angle_dirOf_left n0] at t1
    linarith
  · intro hQ
    obtain ⟨Q', hQ', hd⟩ := circle_move hc0 k0 k2 hse hQ
    refine ⟨Q', hQ', ?_⟩
    have uQ := hQ.1
    have uQ' := hQ'.1
    have t1 := angle_triangle uN un uQ'
    have t2 := angle_triangle un uQ uQ'
    rw [angle_dirOf_left n0, angle_dirOf_left n0] at t2
    rw [angle_dirOf_right n0, angle_dirOf_left n0, angle_comm N n] at t1
    linarith

theorem diff_move {v w A C : V3 ℝ} (h1 : len (v - A) ≤ 3.1e-15) (h2 : len (w - C) ≤ 3.1e-15) : |len (w - v) - len (C - A)| ≤ 6.2e-15 := by
  have t1 := len_add_le (C - A) ((w - C) + (-1 : ℝ) • (v - A))
  have t2 := len_add_le (w - C) ((-1 : ℝ) • (v - A))
  rw [show C - A + (w - C + (-1 : ℝ) • (v - A)) = w - v by ext <;> simp <;> ring] at t1
  have t3 := len_add_le (w - v) ((-1 : ℝ) • ((w - C) + (-1 : ℝ) • (v - A)))
  rw [show w - v + (-1 : ℝ) • (w - C + (-1 : ℝ) • (v - A)) = C - A by ext <;> simp <;> ring] at t3
  rw [len_smul, abs_neg, abs_one, one_mul] at t2 t3
  rw [abs_le]
  norm_num at h1 h2 ⊢
  constructor <;> linarith

/-- the depth of the point and the computed mean depth of the path -/
theorem mean_depth_close {zA zB zC m rt t : ℝ} (hA : |zA| ≤ 1e15) (hB : |zB| ≤ 1e15) (hC : |zC| ≤ 1e20) (ft : IsF64 t) (t0 : 0 ≤ t) (t1 : t ≤ 1e20) (r0 : 0 ≤ rt) (r1 : rt ≤ 1)
    (hm : |m - (zA + zB) / 2| ≤ 1.2e-16 * (|zA| + |zB|) + 1 / 10 ^ 50) :
    (|zC - (zA + zB) / 2| + 6e-16 * (|zA| + |zB| + |zC|) + 1e-49 ≤ max t (rt * max |zC| |(zA + zB) / 2|) → isclose (F64.fin zC : F64 B) (F64.fin m) (F64.fin rt) (F64.fin t) = true) ∧
    (max t (rt * max |zC| |(zA + zB) / 2|) + 6e-16 * (|zA| + |zB| + |zC|) + 1e-49 ≤ |zC - (zA + zB) / 2| → isclose (F64.fin zC : F64 B) (F64.fin m) (F64.fin rt) (F64.fin t) = false) := by
  have a0 := abs_nonneg zA; have b0 := abs_nonneg zB; have c0 := abs_nonneg zC
  obtain ⟨M, hM⟩ : ∃ M, M = (zA + zB) / 2 := ⟨_, rfl⟩
  have M1 : |M| ≤ (|zA| + |zB|) / 2 := by
    rw [hM, abs_div, abs_of_pos (by norm_num : (0 : ℝ) < 2)]
    have := abs_add_le zA zB; linarith
  rw [← hM] at hm ⊢
  have τ1 : (1e-49 : ℝ) = 10 * 1e-50 := by norm_num
  have τ2 : (1 / 10 ^ 50 : ℝ) = 1e-50 := by norm_num
  have τ3 : (0 : ℝ) < 1e-50 := by norm_num
  have τ4 : (1e-50 : ℝ) ≤ 1 := by norm_num
  rw [τ2] at hm
  rw [τ1]
  have hml : |m| ≤ |M| + |m - M| := by
    have := abs_add_le M (m - M)
    rwa [show M + (m - M) = m by ring] at this
  have hMl : |M| ≤ |m| + |m - M| := by
    have := abs_add_le m (-(m - M))
    rwa [show m + -(m - M) = M by ring, abs_neg] at this
  have d1 : |zC - m| ≤ |zC - M| + |m - M| := by
    have := abs_add_le (zC - M) (-(m - M))
    rwa [show zC - M + -(m - M) = zC - m by ring, abs_neg] at this
  have d2 : |zC - M| ≤ |zC - m| + |m - M| := by
    have := abs_add_le (zC - m) (m - M)
    rwa [show zC - m + (m - M) = zC - M by ring] at this
  have x1 : rt * max |zC| |M| ≤ rt * max |zC| |m| + |m - M| := by
    have e1 : max |zC| |M| ≤ max |zC| |m| + |m - M| :=
      max_le (by have := le_max_left |zC| |m|; have := abs_nonneg (m - M); linarith) (by have := le_max_right |zC| |m|; linarith)
    have e2 := mul_le_mul_of_nonneg_left e1 r0
    have e3 := mul_le_mul_of_nonneg_right r1 (abs_nonneg (m - M))
    linarith
  have x2 : rt * max |zC| |m| ≤ rt * max |zC| |M| + |m - M| := by
    have e1 : max |zC| |m| ≤ max |zC| |M| + |m - M| :=
      max_le (by have := le_max_left |zC| |M|; have := abs_nonneg (m - M); linarith) (by have := le_max_right |zC| |M|; linarith)
    have e2 := mul_le_mul_of_nonneg_left e1 r0
    have e3 := mul_le_mul_of_nonneg_right r1 (abs_nonneg (m - M))
    linarith
  have y0 := abs_nonneg (m - M)
  have y1 : max t (rt * max |zC| |M|) ≤ max t (rt * max |zC| |m|) + |m - M| :=
    max_le (by have := le_max_left t (rt * max |zC| |m|); linarith) (by have := le_max_right t (rt * max |zC| |m|); linarith)
  have y2 : max t (rt * max |zC| |m|) ≤ max t (rt * max |zC| |M|) + |m - M| :=
    max_le (by have := le_max_left t (rt * max |zC| |M|); linarith) (by have := le_max_right t (rt * max |zC| |M|); linarith)
  obtain ⟨i1, i2⟩ := isclose_tol B (x := zC) (y := m) (rt := rt) (t := t) hC (by
    generalize (1e-50 : ℝ) = τ at *
    norm_num at hA hB hm ⊢; linarith) ft t0 t1 r0 r1
  generalize (1e-50 : ℝ) = τ at *
  generalize max t (rt * max |zC| |M|) = X at *
  generalize max t (rt * max |zC| |m|) = Y at *
  constructor
  · intro h
    apply i1
    norm_num at h hm ⊢; linarith
  · intro h
    apply i2
    norm_num at h hm ⊢; linarith

theorem len_sub_unit_le {v w : V3 ℝ} (hv : UnitVec v) (hw : UnitVec w) : len (v - w) ≤ 2 := by
  have := len_add_le v ((-1 : ℝ) • w)
  rw [show v + (-1 : ℝ) • w = v - w by ext <;> simp <;> ring, len_smul, abs_neg, abs_one, hv.len, hw.len] at this
  linarith

theorem err_rate {s : ℝ} (s0 : 1e-8 ≤ s) (s1 : s ≤ 1) : 1.47e-14 / s + (9e-15 / (0.999 * s) + 1.67 * (9.02 * uu)) ≤ 2.55e-14 / s := by
  have sp : 0 < s := lt_of_lt_of_le (by norm_num) s0
  have h3 : 1.67 * (9.02 * uu) ≤ 1.7e-15 / s := by
    rw [le_div_iff₀ sp]
    have : 1.67 * (9.02 * uu) ≤ 1.7e-15 := by unfold uu; norm_num
    have h0 : 0 ≤ 1.67 * (9.02 * uu) := by have := uu_pos; positivity
    nlinarith
  have h4 : 1.47e-14 / s + 9e-15 / (0.999 * s) + 1.7e-15 / s = (1.47e-14 + 9e-15 / 0.999 + 1.7e-15) / s := by field_simp
  have h5 : (1.47e-14 + 9e-15 / 0.999 + 1.7e-15) / s ≤ 2.55e-14 / s := div_le_div_of_nonneg_right (by norm_num) sp.le
  linarith

/-- `isclose(|d|, 0, atol=t)`, with the default relative tolerance, is `|d| <= t` -/
theorem isclose_zero {d t : ℝ} (fd : IsF64 d) (hd : |d| ≤ 1e20) (ft : IsF64 t) (t0 : 0 ≤ t) (t1 : t ≤ 1e20) :
    isclose (PyFloat.abs (F64.fin d) : F64 B) (lit 0) (atol := F64.fin t) = PyFloat.le (PyFloat.abs (F64.fin d) : F64 B) (F64.fin t) := by
  have k0 : (lit 0 : F64 B) = F64.fin 0 := by simpa using lit_int (B := B) (n := 0) (by norm_num)
  have k9 : (lit 1e-9 : F64 B) = F64.fin (B.fl 1e-9) := by
    have := fin_lit (B := B) (q := 1e-9) (by norm_num)
    rw [this]; norm_num
  obtain ⟨r, hr⟩ : ∃ r, r = B.fl 1e-9 := ⟨_, rfl⟩
  have hr1 : |r - 1e-9| ≤ 1e-10 := by
    rw [hr]
    have h1 := B.rounds.err_add 1e-9
    have h2 : uu * |(1e-9 : ℝ)| + eta ≤ 1e-10 := by
      have := eta_small
      have h3 : (uu : ℝ) ≤ 1e-3 := by unfold uu; norm_num
      rw [abs_of_pos (by norm_num)]
      have h4 : eta ≤ 1e-20 := this.trans (by norm_num)
      norm_num at h3 h4 ⊢; linarith
    exact h1.trans h2
  obtain ⟨r1, r2⟩ := abs_le.mp hr1
  have r0 : 0 ≤ r := by norm_num at r1 ⊢; linarith
  have r3 : r ≤ 0.01 := by norm_num at r2 ⊢; linarith
  have hax : |(|d|)| = |d| := abs_abs d
  rw [k0, k9, ← hr, fin_abs, isclose_tol_flt B (by rw [hax]; exact hd) (by norm_num) ft t0 t1 r0 (by norm_num at r3 ⊢; linarith), fin_le, sub_zero, abs_zero, hax,
    max_eq_left (abs_nonneg d)]
  have fad : IsF64 |d| := by
    rcases abs_choice d with h | h <;> rw [h]
    · exact fd
    · exact fd.neg
  rw [B.rounds.exact fad, hax]
  congr 1
  apply propext
  constructor
  · intro h
    rcases le_max_iff.mp h with h | h
    · exact h
    · have h3 := B.rounds.nearest (r * |d|) 0 isF64_zero
      rw [zero_sub, abs_neg, abs_of_nonneg (mul_nonneg r0 (abs_nonneg d))] at h3
      have h4 := (abs_le.mp h3).2
      have h5 := mul_le_mul_of_nonneg_right r3 (abs_nonneg d)
      have h6 := abs_nonneg d
      norm_num at h5; linarith
  · exact fun h => le_max_of_le_left h

/-- the cross track distance is NaN or a finite number -/
theorem cross_track_cases {v w n : V3 ℝ} {s : ℝ} (fv : IsF64V v) (fw : IsF64V w) (fn : IsF64V n) (v1 : len v ≤ 1.1) (w1 : len w ≤ 1.1)
    (s0 : 1e-9 ≤ s) (hs : s ≤ len (cross v w)) {δ : ℝ} (hδ : |len n - 1| ≤ δ) (hδ' : δ ≤ 1e-6) {r : ℝ} (r2 : |r| ≤ 1e19) :
    ∃ D : F64 B, cross_track_distance (v.flt, w.flt) (n.flt : V3 (F64 B)) "greatcircle" (F64.fin r) = .ok D ∧ (D = PyFloat.nan ∨ ∃ d : ℝ, D = F64.fin d ∧ IsF64 d ∧ |d| ≤ 1e20) := by
  obtain ⟨τ, e1, fτ, hτ⟩ := sin_theta_dir B fv fw fn v1 w1 s0 hs hδ hδ'
  have hct : cross_track_distance (v.flt, w.flt) (n.flt : V3 (F64 B)) "greatcircle" (F64.fin r) = .ok (PyFloat.arcsin (F64.fin τ) * F64.fin r) := by
    simp only [cross_track_distance, toList_gc, e1]
    rfl
  refine ⟨_, hct, ?_⟩
  by_cases h1 : |τ| ≤ 1
  · right
    obtain ⟨t1, t2⟩ := abs_le.mp h1
    have hA2 : |Real.arcsin τ| ≤ 1.58 := by
      have := Real.pi_lt_d2
      rw [abs_le]
      exact ⟨by linarith [Real.neg_pi_div_two_le_arcsin τ], by linarith [Real.arcsin_le_pi_div_two τ]⟩
    have hB : |B.arcsin τ - Real.arcsin τ| ≤ 1e-10 := libm_close (B.arcsin_close τ t1 t2) hA2 (by unfold uu; norm_num)
    have hB2 : |B.arcsin τ| ≤ 2 := by
      have := abs_sub_abs_le_abs_sub (B.arcsin τ) (Real.arcsin τ)
      norm_num at this hB hA2 ⊢; linarith
    have hp : |B.arcsin τ * r| ≤ 2 * 1e19 := by rw [abs_mul]; exact mul_le_mul hB2 r2 (abs_nonneg _) (by norm_num)
    rw [fin_arcsin t1 t2, fin_mul (hp.trans (by norm_num))]
    refine ⟨_, rfl, B.rounds.val _, ?_⟩
    have h2 := B.rounds.err_add (B.arcsin τ * r)
    have h3 := abs_sub_abs_le_abs_sub (B.fl (B.arcsin τ * r)) (B.arcsin τ * r)
    have h4 : eta ≤ 1 := eta_small.trans (by norm_num)
    have h5 : uu * |B.arcsin τ * r| ≤ 1 * (2 * 1e19) := mul_le_mul (by unfold uu; norm_num) hp (abs_nonneg _) (by norm_num)
    generalize |B.arcsin τ * r| = X at *
    norm_num at hp h5 ⊢; linarith
  · left
    have hn : (PyFloat.arcsin (F64.fin τ) : F64 B) = PyFloat.nan := by
      refine if_pos ?_
      by_contra hh
      push Not at hh
      exact h1 (abs_le.mpr hh)
    rw [hn]; rfl

section
variable {a f : ℝ} {R : M3 ℝ}
variable (G : Geodesic (F64 B)) (hR : IsAxes R) (nmA nmB nmC : EllKey) (latA lonA latB lonB latC lonC : ℝ) {zA zB zC : ℝ}
include hR

variable (fa : IsF64 a) (a1 : 1 ≤ a) (a2 : a ≤ 1e10) (ff : IsF64 f) (f0 : 0 ≤ f) (f1 : f ≤ 0.01)
  (fA : IsF64 zA) (fB : IsF64 zB) (hA : |zA| ≤ 1e15) (hB : |zB| ≤ 1e15) (dA : zA ≤ 0.4 * a) (dB : zB ≤ 0.4 * a) {pA pB : V3 ℝ}
  (gA : Geodetic a f R (normalOf R latA lonA) zA pA) (gB : Geodetic a f R (normalOf R latB lonB) zB pB)
  {s rt t : ℝ} (s0 : 1e-8 ≤ s) (hs : s ≤ len (cross (normalOf R latA lonA) (normalOf R latB lonB)))
  (ft : IsF64 t) (t0 : 0 ≤ t) (r0 : 0 ≤ rt) (r1 : rt ≤ 1) (hC : |zC| ≤ 1e20)
include fa a1 a2 ff f0 f1 fA fB hA hB dA dB gA gB s0 hs ft t0 r0 r1 hC

omit r0 r1 hC ft t0 in
/-- the two parts of `on_path` -/
theorem on_path_parts (rt t : ℝ) : ∃ (v w n : V3 ℝ) (r m : ℝ), (∀ G : Geodesic (F64 B), (Path64 B a f R nmA nmB latA lonA zA latB lonB zB).on_path G (.geo (Geo64 B a f R nmC latC lonC zC)) "greatcircle" (F64.fin rt) (F64.fin t) =
      .ok (on_great_circle_path (v.flt, w.flt) (n.flt : V3 (F64 B)) (F64.fin r) (F64.fin t) && isclose (F64.fin zC : F64 B) (F64.fin m) (F64.fin rt) (F64.fin t))) ∧
    (Path64 B a f R nmA nmB latA lonA zA latB lonB zB).cross_track_distance (.geo (Geo64 B a f R nmC latC lonC zC)) = cross_track_distance (v.flt, w.flt) (n.flt : V3 (F64 B)) "greatcircle" (F64.fin r) ∧
    IsF64V v ∧ IsF64V w ∧ IsF64V n ∧ n ≠ 0 ∧ len v ≤ 1.001 ∧ len w ≤ 1.001 ∧ |len n - 1| ≤ 9.02 * uu ∧
    len (v - normalOf R latA lonA) ≤ 3.1e-15 ∧ len (w - normalOf R latB lonB) ≤ 3.1e-15 ∧ len (n - normalOf R latC lonC) ≤ 3.1e-15 ∧
    len (dirOf n - normalOf R latC lonC) ≤ 2.01e-15 ∧ 0.999 * s ≤ len (cross v w) ∧
    IsF64 r ∧ |r - (len pA + len pB) / 2| ≤ 9.7e-15 * (a + |zA| + |zB|) ∧ 1e-20 ≤ r ∧ r ≤ 1e20 ∧ r ≤ 1.0001 * (a + |zA| + |zB|) ∧
    IsF64 m ∧ |m - (zA + zB) / 2| ≤ 1.2e-16 * (|zA| + |zB|) + 1 / 10 ^ 50 := by
  obtain ⟨⟨r, e, fr, b1, b2, b3, b4⟩, -⟩ := radius_flt B hR fa a1 a2 ff f0 f1 nmA nmB latA lonA latB lonB fA fB hA hB dA dB gA gB
  obtain ⟨v, hv, fv, v0, lv, lv', dv, -⟩ := geo_near B hR latA lonA
  obtain ⟨w, hw, fw, w0, lw, lw', dw, -⟩ := geo_near B hR latB lonB
  obtain ⟨n, hn, fn, n0, ln, ln', dn', dn⟩ := geo_near B hR latC lonC
  obtain ⟨m, hm, fm, bm⟩ := mean2_flt B hR fA fB le_rfl (by norm_num at hA hB ⊢; linarith)
  obtain ⟨-, k1, -, -⟩ := normal_move (normalOf_unit hR latA lonA) dv dw lw' s0 hs
  refine ⟨v, w, n, r, m, ?_, ?_, fv, fw, fn, n0, lv', lw', ln, dv, dw, dn', dn, k1, fr, b1, b2, b3, b4, fm, bm⟩
  · intro G
    unfold GeoPath.on_path
    rw [take_gc, if_neg (by decide)]
    refine congrArg Except.ok ?_
    change (Nv.on_great_circle_path (lat_lon2n_E (F64.fin latA) (F64.fin lonA) R.flt, lat_lon2n_E (F64.fin latB) (F64.fin lonB) R.flt)
      (lat_lon2n_E (F64.fin latC) (F64.fin lonC) R.flt) ((length (Geo64 B a f R nmA latA lonA zA).to_ecef_vector.pvector +
        length (Geo64 B a f R nmB latB lonB zB).to_ecef_vector.pvector) / lit 2) (F64.fin t) && isclose (F64.fin zC) ((F64.fin zA + F64.fin zB) * lit 0.5) (F64.fin rt) (F64.fin t)) = _
    rw [hv, hw, hn, e, hm]
  · change Nv.cross_track_distance (lat_lon2n_E (F64.fin latA) (F64.fin lonA) R.flt, lat_lon2n_E (F64.fin latB) (F64.fin lonB) R.flt)
      (lat_lon2n_E (F64.fin latC) (F64.fin lonC) R.flt) "greatcircle" ((length (Geo64 B a f R nmA latA lonA zA).to_ecef_vector.pvector +
        length (Geo64 B a f R nmB latB lonB zB).to_ecef_vector.pvector) / lit 2) = _
    rw [hv, hw, hn, e]

/-- **C111** `GeoPath.on_path(point, rtol, atol)` between geographic points is true if a position `Q` of the exact great circle is within the tolerance, the point is
nearer to each end of the path than the other end is and the depth agrees with the mean depth of the path, each by more than the rounding error -/
theorem C111_on (ht : t ≤ 0.75 * ((len pA + len pB) / 2)) {Q : V3 ℝ} (hQ : OnCircle (normalOf R latA lonA) (normalOf R latB lonB) Q)
    (hd : angle (normalOf R latC lonC) Q * ((len pA + len pB) / 2) + 5.7e-14 / s * (a + |zA| + |zB|) ≤ t)
    (h1 : len (normalOf R latC lonC - normalOf R latA lonA) + 1.6e-14 ≤ len (normalOf R latB lonB - normalOf R latA lonA))
    (h2 : len (normalOf R latC lonC - normalOf R latB lonB) + 1.6e-14 ≤ len (normalOf R latB lonB - normalOf R latA lonA))
    (hz : |zC - (zA + zB) / 2| + 6e-16 * (|zA| + |zB| + |zC|) + 1e-49 ≤ max t (rt * max |zC| |(zA + zB) / 2|)) :
    (Path64 B a f R nmA nmB latA lonA zA latB lonB zB).on_path G (.geo (Geo64 B a f R nmC latC lonC zC)) "greatcircle" (F64.fin rt) (F64.fin t) = .ok true := by
  obtain ⟨v, w, n, r, m, e, -, fv, fw, fn, n0, lv, lw, ln, dv, dw, dn, dn', k1, fr, b1, b2, b3, b4, fm, bm⟩ :=
    on_path_parts B hR nmA nmB nmC latA lonA latB lonB latC lonC (zC := zC) fa a1 a2 ff f0 f1 fA fB hA hB dA dB gA gB s0 hs rt t
  have sp : 0 < s := lt_of_lt_of_le (by norm_num) s0
  have uA := normalOf_unit hR latA lonA
  have uB := normalOf_unit hR latB lonB
  have uC := normalOf_unit hR latC lonC
  have s1 : s ≤ 1 := by
    have := len_cross_le (normalOf R latA lonA) (normalOf R latB lonB)
    rw [uA.len, uB.len, one_mul] at this; linarith
  have hSz := size_le_radius hR a1 f0 f1 dA dB gA gB
  have hS0 : 0 < a + |zA| + |zB| := by have := abs_nonneg zA; have := abs_nonneg zB; linarith
  have hS9 : a + |zA| + |zB| ≤ 1e16 := by norm_num at hA hB a2 ⊢; linarith
  obtain ⟨Q', hQ', hq⟩ := (angle_move uA uC dv dw lw n0 dn' s0 s1 hs).1 hQ
  have c1 := abs_le.mp (diff_move dv dw)
  have c2 := abs_le.mp (diff_move dv dn)
  have c3 := abs_le.mp (diff_move dw dn)
  generalize a + |zA| + |zB| = S at *
  have a0 := angle_nonneg (normalOf R latC lonC) Q
  generalize angle (normalOf R latC lonC) Q = α at *
  generalize (len pA + len pB) / 2 = ρ at *
  have hρ : 0 < ρ := by linarith
  obtain ⟨r1', r2'⟩ := abs_le.mp b1
  have rρ : 0.99 * ρ ≤ r := by norm_num at r1' ⊢; linarith
  have rp : 0 < r := by linarith
  have tr : t ≤ 0.92 * r := by norm_num at rρ ht ⊢; linarith
  have hα : α ≤ 1 := by
    have h3 : 0 ≤ 5.7e-14 / s * S := by positivity
    by_contra hh
    push Not at hh
    have := mul_lt_mul_of_pos_right hh hρ
    norm_num at ht h3 hd; linarith
  rw [e, (mean_depth_close B hA hB hC ft t0 (by norm_num at tr b3 ⊢; linarith) r0 r1 bm).1 hz, Bool.and_true]
  refine congrArg Except.ok (C111_core_on B fv fw fn (by norm_num at lv ⊢; linarith) (by norm_num at lw ⊢; linarith) (s := 0.999 * s) (by norm_num at s0 ⊢; linarith) k1 ln
    (by unfold uu; norm_num) fr b2 b3 tr hQ' ?_ ?_ ?_)
  · have q1 := err_rate s0 s1
    have q2 : (angle n Q' + (9e-15 / (0.999 * s) + 1.67 * (9.02 * uu))) * r ≤ (α + 2.55e-14 / s) * r := mul_le_mul_of_nonneg_right (by linarith) rp.le
    have q3 : 2.55e-14 / s * r ≤ 2.55e-14 / s * (1.0001 * S) := mul_le_mul_of_nonneg_left b4 (by positivity)
    have q4 : α * r ≤ α * ρ + 9.7e-15 * S := by
      have h3 := mul_le_mul_of_nonneg_left (show r ≤ ρ + 9.7e-15 * S by linarith) a0
      have h4 := mul_le_mul_of_nonneg_right hα (show 0 ≤ 9.7e-15 * S by positivity)
      linarith
    have q5 : 9.7e-15 * S ≤ 9.7e-15 / s * S := by
      refine mul_le_mul_of_nonneg_right ?_ hS0.le
      rw [le_div_iff₀ sp]; norm_num; linarith
    have q6 : 2.55e-14 / s * (1.0001 * S) + 9.7e-15 / s * S ≤ 5.7e-14 / s * S := by
      rw [show 2.55e-14 / s * (1.0001 * S) + 9.7e-15 / s * S = (2.55e-14 * 1.0001 + 9.7e-15) / s * S by ring]
      exact mul_le_mul_of_nonneg_right (div_le_div_of_nonneg_right (by norm_num) sp.le) hS0.le
    linarith
  · have := len_sub_unit_le uC uA
    norm_num at this c1 c2 h1 ⊢; linarith
  · have := len_sub_unit_le uC uB
    norm_num at this c1 c3 h2 ⊢; linarith


/-- **C111** it is false if the point is away from every position of the exact great circle by more than the tolerance, or further from one end of the path than the
other end is, or at another depth, by more than the rounding error -/
theorem C111_off (ht : t ≤ 0.7 * ((len pA + len pB) / 2))
    (h : (∀ Q, OnCircle (normalOf R latA lonA) (normalOf R latB lonB) Q →
        t + 5.7e-14 / s * (a + |zA| + |zB|) < angle (normalOf R latC lonC) Q * ((len pA + len pB) / 2)) ∨
      len (normalOf R latB lonB - normalOf R latA lonA) + 1.6e-14 ≤ len (normalOf R latC lonC - normalOf R latA lonA) ∨
      len (normalOf R latB lonB - normalOf R latA lonA) + 1.6e-14 ≤ len (normalOf R latC lonC - normalOf R latB lonB) ∨
      max t (rt * max |zC| |(zA + zB) / 2|) + 6e-16 * (|zA| + |zB| + |zC|) + 1e-49 ≤ |zC - (zA + zB) / 2|) :
    (Path64 B a f R nmA nmB latA lonA zA latB lonB zB).on_path G (.geo (Geo64 B a f R nmC latC lonC zC)) "greatcircle" (F64.fin rt) (F64.fin t) = .ok false := by
  obtain ⟨v, w, n, r, m, e, -, fv, fw, fn, n0, lv, lw, ln, dv, dw, dn, dn', k1, fr, b1, b2, b3, b4, fm, bm⟩ :=
    on_path_parts B hR nmA nmB nmC latA lonA latB lonB latC lonC (zC := zC) fa a1 a2 ff f0 f1 fA fB hA hB dA dB gA gB s0 hs rt t
  have sp : 0 < s := lt_of_lt_of_le (by norm_num) s0
  have uA := normalOf_unit hR latA lonA
  have uB := normalOf_unit hR latB lonB
  have uC := normalOf_unit hR latC lonC
  have s1 : s ≤ 1 := by
    have := len_cross_le (normalOf R latA lonA) (normalOf R latB lonB)
    rw [uA.len, uB.len, one_mul] at this; linarith
  have hSz := size_le_radius hR a1 f0 f1 dA dB gA gB
  have hS0 : 0 < a + |zA| + |zB| := by have := abs_nonneg zA; have := abs_nonneg zB; linarith
  have hS9 : a + |zA| + |zB| ≤ 1e16 := by norm_num at hA hB a2 ⊢; linarith
  have hmv := fun Q hQ => (angle_move (Q := Q) uA uC dv dw lw n0 dn' s0 s1 hs).2 hQ
  have c1 := abs_le.mp (diff_move dv dw)
  have c2 := abs_le.mp (diff_move dv dn)
  have c3 := abs_le.mp (diff_move dw dn)
  have cAB := len_sub_unit_le uB uA
  generalize a + |zA| + |zB| = S at *
  generalize (len pA + len pB) / 2 = ρ at *
  have hρ : 0 < ρ := by linarith
  obtain ⟨r1', r2'⟩ := abs_le.mp b1
  have rρ : 0.99 * ρ ≤ r := by norm_num at r1' ⊢; linarith
  have rp : 0 < r := by linarith
  have tr : t ≤ 0.75 * r := by norm_num at rρ ht ⊢; linarith
  have t20 : t ≤ 1e20 := by norm_num at tr b3 ⊢; linarith
  rw [e]
  refine congrArg Except.ok ?_
  rw [Bool.and_eq_false_iff]
  rcases h with h | h | h | h
  · left
    refine C111_core_off B fv fw fn (by norm_num at lv ⊢; linarith) (by norm_num at lw ⊢; linarith) (s := 0.999 * s) (by norm_num at s0 ⊢; linarith) k1 ln
      (by unfold uu; norm_num) fr b2 b3 tr (.inl ?_)
    intro Q hQ
    obtain ⟨Q', hQ', hq⟩ := hmv Q hQ
    have hd := h Q' hQ'
    have hπ : angle (normalOf R latC lonC) Q' ≤ 3.15 := (angle_le_pi _ _).trans (by have := Real.pi_lt_d2; norm_num at this ⊢; linarith)
    have α0 := angle_nonneg (normalOf R latC lonC) Q'
    generalize angle (normalOf R latC lonC) Q' = α at *
    have q1 := err_rate s0 s1
    have q2 : (α + (9e-15 / (0.999 * s) + 1.67 * (9.02 * uu))) * r ≤ (angle n Q + 2.55e-14 / s) * r := mul_le_mul_of_nonneg_right (by linarith) rp.le
    have q3 : 2.55e-14 / s * r ≤ 2.55e-14 / s * (1.0001 * S) := mul_le_mul_of_nonneg_left b4 (by positivity)
    have q4 : α * ρ ≤ α * r + 3.15 * (9.7e-15 * S) := by
      have h3 := mul_le_mul_of_nonneg_left (show ρ ≤ r + 9.7e-15 * S by linarith) α0
      have h4 := mul_le_mul_of_nonneg_right hπ (show 0 ≤ 9.7e-15 * S by positivity)
      linarith
    have q5 : 3.15 * (9.7e-15 * S) ≤ 3.06e-14 / s * S := by
      rw [← mul_assoc]
      refine mul_le_mul_of_nonneg_right ?_ hS0.le
      rw [le_div_iff₀ sp]; norm_num; linarith
    have q6 : 2.55e-14 / s * (1.0001 * S) + 3.06e-14 / s * S ≤ 5.7e-14 / s * S := by
      rw [show 2.55e-14 / s * (1.0001 * S) + 3.06e-14 / s * S = (2.55e-14 * 1.0001 + 3.06e-14) / s * S by ring]
      exact mul_le_mul_of_nonneg_right (div_le_div_of_nonneg_right (by norm_num) sp.le) hS0.le
    linarith
  · left
    refine C111_core_off B fv fw fn (by norm_num at lv ⊢; linarith) (by norm_num at lw ⊢; linarith) (s := 0.999 * s) (by norm_num at s0 ⊢; linarith) k1 ln
      (by unfold uu; norm_num) fr b2 b3 tr (.inr (.inl ?_))
    norm_num at c1 c2 h ⊢; linarith
  · left
    refine C111_core_off B fv fw fn (by norm_num at lv ⊢; linarith) (by norm_num at lw ⊢; linarith) (s := 0.999 * s) (by norm_num at s0 ⊢; linarith) k1 ln
      (by unfold uu; norm_num) fr b2 b3 tr (.inr (.inr ?_))
    norm_num at c1 c3 h ⊢; linarith
  · exact .inr ((mean_depth_close B hA hB hC ft t0 t20 r0 r1 bm).2 h)

omit hC r0 r1 in
/-- `GeoPath.on_great_circle(point, atol)` compares the cross track distance with the tolerance -/
theorem on_great_circle_parts (r20 : t ≤ 1e20) : ∃ (v w n : V3 ℝ) (r : ℝ), (Path64 B a f R nmA nmB latA lonA zA latB lonB zB).on_great_circle (.geo (Geo64 B a f R nmC latC lonC zC)) (F64.fin t) =
      .ok (on_great_circle (v.flt, w.flt) (n.flt : V3 (F64 B)) (F64.fin r) (F64.fin t)) ∧
    IsF64V v ∧ IsF64V w ∧ IsF64V n ∧ n ≠ 0 ∧ len v ≤ 1.001 ∧ len w ≤ 1.001 ∧ |len n - 1| ≤ 9.02 * uu ∧
    len (v - normalOf R latA lonA) ≤ 3.1e-15 ∧ len (w - normalOf R latB lonB) ≤ 3.1e-15 ∧ len (n - normalOf R latC lonC) ≤ 3.1e-15 ∧
    len (dirOf n - normalOf R latC lonC) ≤ 2.01e-15 ∧ 0.999 * s ≤ len (cross v w) ∧
    IsF64 r ∧ |r - (len pA + len pB) / 2| ≤ 9.7e-15 * (a + |zA| + |zB|) ∧ 1e-20 ≤ r ∧ r ≤ 1e20 ∧ r ≤ 1.0001 * (a + |zA| + |zB|) := by
  obtain ⟨v, w, n, r, m, -, e, fv, fw, fn, n0, lv, lw, ln, dv, dw, dn, dn', k1, fr, b1, b2, b3, b4, fm, bm⟩ :=
    on_path_parts B hR nmA nmB nmC latA lonA latB lonB latC lonC (zC := zC) fa a1 a2 ff f0 f1 fA fB hA hB dA dB gA gB s0 hs 0 0
  refine ⟨v, w, n, r, ?_, fv, fw, fn, n0, lv, lw, ln, dv, dw, dn, dn', k1, fr, b1, b2, b3, b4⟩
  have rp : 0 < r := lt_of_lt_of_le (by norm_num) b2
  obtain ⟨D, hD, hc⟩ := cross_track_cases B fv fw fn (by norm_num at lv ⊢; linarith) (by norm_num at lw ⊢; linarith) (s := 0.999 * s) (by norm_num at s0 ⊢; linarith) k1 ln
    (by unfold uu; norm_num) (r := r) (by rw [abs_of_pos rp]; norm_num at b4 hA hB a2 ⊢; linarith)
  unfold GeoPath.on_great_circle
  rw [e, hD]
  refine congrArg Except.ok ?_
  rw [on_great_circle, abs_cross_track_flt B hD]
  rcases hc with rfl | ⟨d, rfl, fd, hd⟩
  · rfl
  · exact isclose_zero B fd hd ft t0 r20

omit hC r0 r1 in
/-- **C111** `GeoPath.on_great_circle(point, atol)` is true if a position of the exact great circle is within the tolerance by more than the rounding error -/
theorem C111_circle_on (ht : t ≤ 0.75 * ((len pA + len pB) / 2)) {Q : V3 ℝ} (hQ : OnCircle (normalOf R latA lonA) (normalOf R latB lonB) Q)
    (hd : angle (normalOf R latC lonC) Q * ((len pA + len pB) / 2) + 5.7e-14 / s * (a + |zA| + |zB|) ≤ t) :
    (Path64 B a f R nmA nmB latA lonA zA latB lonB zB).on_great_circle (.geo (Geo64 B a f R nmC latC lonC zC)) (F64.fin t) = .ok true := by
  have sp : 0 < s := lt_of_lt_of_le (by norm_num) s0
  have uA := normalOf_unit hR latA lonA
  have uB := normalOf_unit hR latB lonB
  have uC := normalOf_unit hR latC lonC
  have s1 : s ≤ 1 := by
    have := len_cross_le (normalOf R latA lonA) (normalOf R latB lonB)
    rw [uA.len, uB.len, one_mul] at this; linarith
  have hSz := size_le_radius hR a1 f0 f1 dA dB gA gB
  have hS0 : 0 < a + |zA| + |zB| := by have := abs_nonneg zA; have := abs_nonneg zB; linarith
  have hS9 : a + |zA| + |zB| ≤ 1e16 := by norm_num at hA hB a2 ⊢; linarith
  obtain ⟨⟨r', -, -, d1, -, d3, -⟩, -⟩ := radius_flt B hR fa a1 a2 ff f0 f1 nmA nmB latA lonA latB lonB fA fB hA hB dA dB gA gB
  obtain ⟨v, w, n, r, e, fv, fw, fn, n0, lv, lw, ln, dv, dw, dn, dn', k1, fr, b1, b2, b3, b4⟩ :=
    on_great_circle_parts B hR nmA nmB nmC latA lonA latB lonB latC lonC (zC := zC) fa a1 a2 ff f0 f1 fA fB hA hB dA dB gA gB s0 hs ft t0 (by
      have := (abs_le.mp d1).1
      norm_num at this d3 ht hS9 ⊢; linarith)
  obtain ⟨Q', hQ', hq⟩ := (angle_move uA uC dv dw lw n0 dn' s0 s1 hs).1 hQ
  clear d1
  generalize a + |zA| + |zB| = S at *
  have a0 := angle_nonneg (normalOf R latC lonC) Q
  generalize angle (normalOf R latC lonC) Q = α at *
  generalize (len pA + len pB) / 2 = ρ at *
  have hρ : 0 < ρ := by linarith
  obtain ⟨r1', r2'⟩ := abs_le.mp b1
  have rρ : 0.99 * ρ ≤ r := by norm_num at r1' ⊢; linarith
  have rp : 0 < r := by linarith
  have tr : t ≤ 0.92 * r := by norm_num at rρ ht ⊢; linarith
  have hα : α ≤ 1 := by
    have h3 : 0 ≤ 5.7e-14 / s * S := by positivity
    by_contra hh
    push Not at hh
    have := mul_lt_mul_of_pos_right hh hρ
    norm_num at ht h3 hd; linarith
  rw [e]
  refine congrArg Except.ok (C95_on B fv fw fn (by norm_num at lv ⊢; linarith) (by norm_num at lw ⊢; linarith) (s := 0.999 * s) (by norm_num at s0 ⊢; linarith) k1 ln
    (by unfold uu; norm_num) fr b2 b3 tr hQ' ?_)
  have q1 := err_rate s0 s1
  have q2 : (angle n Q' + (9e-15 / (0.999 * s) + 1.67 * (9.02 * uu))) * r ≤ (α + 2.55e-14 / s) * r := mul_le_mul_of_nonneg_right (by linarith) rp.le
  have q3 : 2.55e-14 / s * r ≤ 2.55e-14 / s * (1.0001 * S) := mul_le_mul_of_nonneg_left b4 (by positivity)
  have q4 : α * r ≤ α * ρ + 9.7e-15 * S := by
    have h3 := mul_le_mul_of_nonneg_left (show r ≤ ρ + 9.7e-15 * S by linarith) a0
    have h4 := mul_le_mul_of_nonneg_right hα (show 0 ≤ 9.7e-15 * S by positivity)
    linarith
  have q5 : 9.7e-15 * S ≤ 9.7e-15 / s * S := by
    refine mul_le_mul_of_nonneg_right ?_ hS0.le
    rw [le_div_iff₀ sp]; norm_num; linarith
  have q6 : 2.55e-14 / s * (1.0001 * S) + 9.7e-15 / s * S ≤ 5.7e-14 / s * S := by
    rw [show 2.55e-14 / s * (1.0001 * S) + 9.7e-15 / s * S = (2.55e-14 * 1.0001 + 9.7e-15) / s * S by ring]
    exact mul_le_mul_of_nonneg_right (div_le_div_of_nonneg_right (by norm_num) sp.le) hS0.le
  linarith

omit hC r0 r1 in
/-- **C111** and false if every position of the exact great circle is further away than the tolerance by more than the rounding error -/
theorem C111_circle_off (ht : t ≤ 0.7 * ((len pA + len pB) / 2))
    (h : ∀ Q, OnCircle (normalOf R latA lonA) (normalOf R latB lonB) Q →
        t + 5.7e-14 / s * (a + |zA| + |zB|) < angle (normalOf R latC lonC) Q * ((len pA + len pB) / 2)) :
    (Path64 B a f R nmA nmB latA lonA zA latB lonB zB).on_great_circle (.geo (Geo64 B a f R nmC latC lonC zC)) (F64.fin t) = .ok false := by
  have sp : 0 < s := lt_of_lt_of_le (by norm_num) s0
  have uA := normalOf_unit hR latA lonA
  have uB := normalOf_unit hR latB lonB
  have uC := normalOf_unit hR latC lonC
  have s1 : s ≤ 1 := by
    have := len_cross_le (normalOf R latA lonA) (normalOf R latB lonB)
    rw [uA.len, uB.len, one_mul] at this; linarith
  have hSz := size_le_radius hR a1 f0 f1 dA dB gA gB
  have hS0 : 0 < a + |zA| + |zB| := by have := abs_nonneg zA; have := abs_nonneg zB; linarith
  have hS9 : a + |zA| + |zB| ≤ 1e16 := by norm_num at hA hB a2 ⊢; linarith
  obtain ⟨⟨r', -, -, d1, -, d3, -⟩, -⟩ := radius_flt B hR fa a1 a2 ff f0 f1 nmA nmB latA lonA latB lonB fA fB hA hB dA dB gA gB
  obtain ⟨v, w, n, r, e, fv, fw, fn, n0, lv, lw, ln, dv, dw, dn, dn', k1, fr, b1, b2, b3, b4⟩ :=
    on_great_circle_parts B hR nmA nmB nmC latA lonA latB lonB latC lonC (zC := zC) fa a1 a2 ff f0 f1 fA fB hA hB dA dB gA gB s0 hs ft t0 (by
      have := (abs_le.mp d1).1
      norm_num at this d3 ht hS9 ⊢; linarith)
  have hmv := fun Q hQ => (angle_move (Q := Q) uA uC dv dw lw n0 dn' s0 s1 hs).2 hQ
  clear d1
  generalize a + |zA| + |zB| = S at *
  generalize (len pA + len pB) / 2 = ρ at *
  have hρ : 0 < ρ := by linarith
  obtain ⟨r1', r2'⟩ := abs_le.mp b1
  have rρ : 0.99 * ρ ≤ r := by norm_num at r1' ⊢; linarith
  have rp : 0 < r := by linarith
  have tr : t ≤ 0.75 * r := by norm_num at rρ ht ⊢; linarith
  rw [e]
  refine congrArg Except.ok (C95_off B fv fw fn (by norm_num at lv ⊢; linarith) (by norm_num at lw ⊢; linarith) (s := 0.999 * s) (by norm_num at s0 ⊢; linarith) k1 ln
      (by unfold uu; norm_num) fr b2 b3 tr ?_)
  intro Q hQ
  obtain ⟨Q', hQ', hq⟩ := hmv Q hQ
  have hd := h Q' hQ'
  have hπ : angle (normalOf R latC lonC) Q' ≤ 3.15 := (angle_le_pi _ _).trans (by have := Real.pi_lt_d2; norm_num at this ⊢; linarith)
  have α0 := angle_nonneg (normalOf R latC lonC) Q'
  generalize angle (normalOf R latC lonC) Q' = α at *
  have q1 := err_rate s0 s1
  have q2 : (α + (9e-15 / (0.999 * s) + 1.67 * (9.02 * uu))) * r ≤ (angle n Q + 2.55e-14 / s) * r := mul_le_mul_of_nonneg_right (by linarith) rp.le
  have q3 : 2.55e-14 / s * r ≤ 2.55e-14 / s * (1.0001 * S) := mul_le_mul_of_nonneg_left b4 (by positivity)
  have q4 : α * ρ ≤ α * r + 3.15 * (9.7e-15 * S) := by
    have h3 := mul_le_mul_of_nonneg_left (show ρ ≤ r + 9.7e-15 * S by linarith) α0
    have h4 := mul_le_mul_of_nonneg_right hπ (show 0 ≤ 9.7e-15 * S by positivity)
    linarith
  have q5 : 3.15 * (9.7e-15 * S) ≤ 3.06e-14 / s * S := by
    rw [← mul_assoc]
    refine mul_le_mul_of_nonneg_right ?_ hS0.le
    rw [le_div_iff₀ sp]; norm_num; linarith
  have q6 : 2.55e-14 / s * (1.0001 * S) + 3.06e-14 / s * S ≤ 5.7e-14 / s * S := by
    rw [show 2.55e-14 / s * (1.0001 * S) + 3.06e-14 / s * S = (2.55e-14 * 1.0001 + 3.06e-14) / s * S by ring]
    exact mul_le_mul_of_nonneg_right (div_le_div_of_nonneg_right (by norm_num) sp.le) hS0.le
  linarith

end

/-! ## concrete cases: the equator from longitude 0 to longitude 1 rad on the sphere of radius 6371000, tolerance 1 -/

theorem sphere_len {lat lon : ℝ} : len ((6371000 : ℝ) • dirOf (normalOf Re lat lon)) = 6371000 := by
  rw [len_smul, (dirOf_unit (normalOf_unit (Or.inl rfl) lat lon).ne).len]; norm_num

/-- the midpoint is on the path -/
example (G : Geodesic (F64 B)) : (Path64 B 6371000 0 Re (.int 1) (.int 1) 0 0 0 0 1 0).on_path G (.geo (Geo64 B 6371000 0 Re (.int 1) 0 (1 / 2) 0)) "greatcircle" (F64.fin 0) (F64.fin 1) = .ok true := by
  have hr : IsAxes Re := Or.inl rfl
  have g := fun lat lon => geodetic_sphere (a := 6371000) isRotation_Re (by norm_num) (normalOf_unit hr lat lon).ne
  have hs1 := sin_one_ge
  have hbig : 3 / 4 ≤ len (normalOf Re 0 1 - normalOf Re 0 0) := by
    refine le_trans ?_ (abs_y_le_len _)
    rw [normalOf_Re, normalOf_Re]
    simp
    exact hs1.trans (le_abs_self _)
  have hq := onCircle_iff_normal (A := normalOf Re 0 0) (B := normalOf Re 0 1) (Q := normalOf Re 0 (1 / 2))
    (by intro h; have := equator_len; rw [h, len_eq_zero.mpr rfl] at this; norm_num at this)
  rw [equator_normal] at hq
  have hQ : OnCircle (normalOf Re 0 0) (normalOf Re 0 1) (normalOf Re 0 (1 / 2)) := hq.mpr ⟨normalOf_unit hr _ _, by rw [normalOf_Re]; simp [dot]⟩
  have chord : ∀ t u : ℝ, |t - u| = 1 / 2 → len (normalOf Re 0 t - normalOf Re 0 u) ≤ 1 / 2 := by
    intro t u h
    have e : normalOf Re 0 t - normalOf Re 0 u = app (transp Re) (geoNormal 0 t - geoNormal 0 u) := by rw [app_sub]; rfl
    rw [e, len_app hr.rot.transpose]
    have := geoNormal_lip 0 t 0 u
    rw [h] at this
    simpa using this
  refine C111_on B G hr (.int 1) (.int 1) (.int 1) 0 0 0 1 0 (1 / 2) (by simpa using isF64_int (n := 6371000) (by norm_num)) (by norm_num) (by norm_num) isF64_zero le_rfl (by norm_num)
    isF64_zero isF64_zero (by norm_num) (by norm_num) (by norm_num) (by norm_num) (g 0 0) (g 0 1) (s := 3 / 4) (by norm_num) equator_len isF64_one (by norm_num) le_rfl (by norm_num) (by norm_num)
    (by rw [sphere_len, sphere_len]; norm_num) hQ ?_ ?_ ?_ ?_
  · rw [angle_self (normalOf_unit hr _ _).ne, sphere_len, sphere_len]; norm_num
  · have := chord (1 / 2) 0 (by norm_num)
    norm_num at hbig this ⊢; linarith
  · have := chord (1 / 2) 1 (by norm_num)
    norm_num at hbig this ⊢; linarith
  · norm_num

/-- a point at latitude 1/2 rad is not -/
example (G : Geodesic (F64 B)) : (Path64 B 6371000 0 Re (.int 1) (.int 1) 0 0 0 0 1 0).on_path G (.geo (Geo64 B 6371000 0 Re (.int 1) (1 / 2) (1 / 2) 0)) "greatcircle" (F64.fin 0) (F64.fin 1) = .ok false := by
  have hr : IsAxes Re := Or.inl rfl
  have g := fun lat lon => geodetic_sphere (a := 6371000) isRotation_Re (by norm_num) (normalOf_unit hr lat lon).ne
  have h0 : cross (normalOf Re 0 0) (normalOf Re 0 1) ≠ 0 := by intro h; have := equator_len; rw [h, len_eq_zero.mpr rfl] at this; norm_num at this
  refine C111_off B G hr (.int 1) (.int 1) (.int 1) 0 0 0 1 (1 / 2) (1 / 2) (by simpa using isF64_int (n := 6371000) (by norm_num)) (by norm_num) (by norm_num) isF64_zero le_rfl (by norm_num)
    isF64_zero isF64_zero (by norm_num) (by norm_num) (by norm_num) (by norm_num) (g 0 0) (g 0 1) (s := 3 / 4) (by norm_num) equator_len isF64_one (by norm_num) le_rfl (by norm_num) (by norm_num)
    (by rw [sphere_len, sphere_len]; norm_num) (.inl fun Q hQ => ?_)
  rw [sphere_len, sphere_len]
  have hq := (onCircle_iff_normal h0).mp hQ
  rw [equator_normal] at hq
  have h1 := arcsin_le_angle (c := ⟨0, 0, 1⟩) (P := normalOf Re (1 / 2) (1 / 2)) (by simp [UnitVec]) (normalOf_unit hr _ _) hQ.1 hq.2
  have h2 : dot (⟨0, 0, 1⟩ : V3 ℝ) (normalOf Re (1 / 2) (1 / 2)) = Real.sin (1 / 2) := by rw [normalOf_Re]; simp [dot]
  rw [h2, Real.arcsin_sin (by have := Real.pi_gt_three; linarith) (by have := Real.pi_gt_three; linarith)] at h1
  norm_num at h1 ⊢
  linarith

end Nv
