import Verif.Props.Track
import Verif.Props.FloatIntersect

/-!
# C115: interpolation of tracks in binary64
-/

namespace Nv
open Spec F64
variable {B : Binary64}

/-- `slope * (x - x_lo) + y_lo` in rounded arithmetic -/
theorem linear_flt {t0 t1 x y0 y1 M : ℝ} (h0 : t0 ≤ x) (h1 : x ≤ t1) (g1 : 1e-30 ≤ t1 - t0)
    (g2 : t1 - t0 ≤ 1e30) (hy0 : |y0| ≤ M) (hy1 : |y1| ≤ M) (M1 : 1e-10 ≤ M) (M2 : M ≤ 1e20) :
    ∃ Y, ((F64.fin y1 - F64.fin y0) / (F64.fin t1 - F64.fin t0) * (F64.fin x - F64.fin t0) + F64.fin y0 : F64 B) = F64.fin Y ∧ IsF64 Y ∧
      |Y - (y0 + (y1 - y0) * fraction t0 t1 x)| ≤ 12 * uu * M := by
  have hu := uu_pos
  have u1 : uu ≤ 1.12e-16 := by unfold uu; norm_num
  have u2 : 1.11e-16 ≤ uu := by unfold uu; norm_num
  have he0 := eta_pos
  have he : eta ≤ 1e-60 := eta_small.trans (by norm_num)
  obtain ⟨τ, hτ⟩ : ∃ τ, τ = t1 - t0 := ⟨_, rfl⟩
  obtain ⟨ξ, hξ⟩ : ∃ ξ, ξ = x - t0 := ⟨_, rfl⟩
  obtain ⟨d, hd⟩ : ∃ d, d = y1 - y0 := ⟨_, rfl⟩
  obtain ⟨T, hT⟩ : ∃ T, T = B.fl τ := ⟨_, rfl⟩
  obtain ⟨X, hX⟩ : ∃ X, X = B.fl ξ := ⟨_, rfl⟩
  obtain ⟨D, hD⟩ : ∃ D, D = B.fl d := ⟨_, rfl⟩
  obtain ⟨s, hs⟩ : ∃ s, s = ξ / τ := ⟨_, rfl⟩
  have ef : fraction t0 t1 x = s := by rw [hs, hξ, hτ]; rfl
  rw [← hτ] at g1 g2
  have τ0 : 0 < τ := lt_of_lt_of_le (by norm_num) g1
  have ξ0 : 0 ≤ ξ := by rw [hξ]; linarith
  have ξτ : ξ ≤ τ := by rw [hξ, hτ]; linarith
  have s0 : 0 ≤ s := by rw [hs]; positivity
  have s1 : s ≤ 1 := by rw [hs]; exact (div_le_one τ0).mpr ξτ
  have hξs : ξ = s * τ := by rw [hs]; field_simp
  have M0 : 0 < M := lt_of_lt_of_le (by norm_num) M1
  have hdM : |d| ≤ 2 * M := by
    rw [hd]; refine (abs_sub _ _).trans ?_; linarith
  -- errors of the three differences
  have eτ : |T - τ| ≤ 1.001 * uu * τ := by
    have := B.rounds.err_add τ
    rw [← hT, abs_of_pos τ0] at this
    have h2 : eta ≤ 0.001 * uu * τ := by
      have : 0.001 * 1.11e-16 * 1e-30 ≤ 0.001 * uu * τ := by
        apply mul_le_mul _ g1 (by norm_num) (by positivity)
        linarith
      norm_num at this he ⊢; linarith
    linarith
  have eξ : |X - ξ| ≤ uu * ξ + eta := by
    have := B.rounds.err_add ξ
    rwa [← hX, abs_of_nonneg ξ0] at this
  have ed : |D - d| ≤ uu * (2 * M) + eta := by
    have := B.rounds.err_add d
    rw [← hD] at this
    have := mul_le_mul_of_nonneg_left hdM hu.le
    linarith
  have eηM : eta ≤ 1e-20 * uu * M := by
    have : 1e-20 * 1.11e-16 * 1e-10 ≤ 1e-20 * uu * M := by
      apply mul_le_mul _ M1 (by norm_num) (by positivity)
      linarith
    norm_num at this he ⊢; linarith
  have hDM : |D| ≤ 2.001 * M := by
    have h1 : |D| ≤ |D - d| + |d| := by have := abs_add_le (D - d) d; rwa [sub_add_cancel] at this
    have h2 : uu * M ≤ 1e-10 * M := mul_le_mul_of_nonneg_right (u1.trans (by norm_num)) M0.le
    norm_num at h1 h2 eηM ⊢; linarith
  have hTl : 0.9999 * τ ≤ T := by
    have h2 : uu * τ ≤ 1e-10 * τ := mul_le_mul_of_nonneg_right (u1.trans (by norm_num)) τ0.le
    have := (abs_le.mp eτ).1
    norm_num at h2 this ⊢; linarith
  have T0 : 0 < T := lt_of_lt_of_le (by positivity) hTl
  have hητ : eta ≤ 1e-10 * uu * τ := by
    have : 1e-10 * 1.11e-16 * 1e-30 ≤ 1e-10 * uu * τ := by
      apply mul_le_mul _ g1 (by norm_num) (by positivity)
      linarith
    norm_num at this he ⊢; linarith
  have X0 : 0 ≤ X := by rw [hX]; exact B.rounds.nonneg ξ0
  have uτ : uu * τ ≤ 1e-10 * τ := mul_le_mul_of_nonneg_right (u1.trans (by norm_num)) τ0.le
  have uξ : uu * ξ ≤ uu * τ := mul_le_mul_of_nonneg_left ξτ hu.le
  have hXu : X ≤ 1.00001 * τ := by
    have := (abs_le.mp eξ).2
    norm_num at this uτ hητ ⊢; linarith
  have hXT : X / T ≤ 1.0002 := by
    rw [div_le_iff₀ T0]; norm_num at hXu hTl ⊢; linarith
  have hXT0 : 0 ≤ X / T := div_nonneg X0 T0.le
  -- X / T against s
  have eXT : |X / T - s| ≤ 2.01 * uu := by
    have e : X / T - s = ((X - ξ) - s * (T - τ)) / T := by rw [hξs]; field_simp; ring
    rw [e, abs_div, abs_of_pos T0, div_le_iff₀ T0]
    have h1 := abs_sub (X - ξ) (s * (T - τ))
    rw [abs_mul, abs_of_nonneg s0] at h1
    have h2 : s * |T - τ| ≤ 1 * (1.001 * uu * τ) := mul_le_mul s1 eτ (abs_nonneg _) (by norm_num)
    have h3 : 2.01 * uu * (0.9999 * τ) ≤ 2.01 * uu * T := mul_le_mul_of_nonneg_left hTl (by positivity)
    have h4 : 0 ≤ uu * τ := by positivity
    norm_num at h1 h2 h3 eξ hητ ⊢; linarith
  -- sizes
  have z1 : |t1 - t0| ≤ 10 ^ 60 := by rw [← hτ, abs_of_pos τ0]; norm_num at g2 ⊢; linarith
  have z2 : |x - t0| ≤ 10 ^ 60 := by rw [← hξ, abs_of_nonneg ξ0]; norm_num at g2 ⊢; linarith
  have z3 : |y1 - y0| ≤ 10 ^ 60 := by rw [← hd]; norm_num at hdM M2 ⊢; linarith
  have hDT : |D / T| ≤ 1e51 := by
    rw [abs_div, abs_of_pos T0, div_le_iff₀ T0]
    have : (1e51 : ℝ) * (0.9999 * 1e-30) ≤ 1e51 * T := by
      apply mul_le_mul_of_nonneg_left _ (by norm_num)
      refine le_trans ?_ hTl
      norm_num at g1 ⊢; linarith
    norm_num at hDM M2 this ⊢; linarith
  obtain ⟨S, hS⟩ : ∃ S, S = B.fl (D / T) := ⟨_, rfl⟩
  have eS : |S - D / T| ≤ uu * |D / T| + eta := by rw [hS]; exact B.rounds.err_add _
  -- product
  have eSX : |S * X - d * s| ≤ 8.1 * uu * M := by
    have e : S * X - d * s = (S - D / T) * X + D * (X / T - s) + (D - d) * s := by field_simp; ring
    rw [e]
    have a1 := abs_add_le ((S - D / T) * X + D * (X / T - s)) ((D - d) * s)
    have a2 := abs_add_le ((S - D / T) * X) (D * (X / T - s))
    rw [abs_mul, abs_of_nonneg X0, abs_mul D] at a2
    rw [abs_mul (D - d), abs_of_nonneg s0] at a1
    have b1 : |S - D / T| * X ≤ (uu * |D / T| + eta) * X := mul_le_mul_of_nonneg_right eS X0
    have b2 : |D / T| * X = |D| * (X / T) := by rw [abs_div, abs_of_pos T0]; ring
    have b3 : |D| * (X / T) ≤ (2.001 * M) * 1.0002 := mul_le_mul hDM hXT hXT0 (by positivity)
    have b4 : eta * X ≤ 1e-3 * uu * M := by
      have h1 : eta * X ≤ 1e-60 * (1.00001 * 1e30) := by
        apply mul_le_mul he (hXu.trans _) X0 (by norm_num)
        exact mul_le_mul_of_nonneg_left g2 (by norm_num)
      have h2 : 1e-3 * 1.11e-16 * 1e-10 ≤ 1e-3 * uu * M := by
        apply mul_le_mul _ M1 (by norm_num) (by positivity)
        linarith
      have h3 : (1e-60 : ℝ) * (1.00001 * 1e30) ≤ 1e-3 * 1.11e-16 * 1e-10 := by norm_num
      linarith
    have b5 : |D| * |X / T - s| ≤ (2.001 * M) * (2.01 * uu) := mul_le_mul hDM eXT (abs_nonneg _) (by positivity)
    have b6 : |D - d| * s ≤ |D - d| * 1 := mul_le_mul_of_nonneg_left s1 (abs_nonneg _)
    have b7 : uu * (|D| * (X / T)) ≤ uu * ((2.001 * M) * 1.0002) := mul_le_mul_of_nonneg_left b3 hu.le
    have b8 : (uu * |D / T| + eta) * X = uu * (|D| * (X / T)) + eta * X := by rw [add_mul, mul_assoc, b2]
    have uM : 0 ≤ uu * M := by positivity
    norm_num at a1 a2 b1 b4 b5 b6 b7 b8 ed eηM ⊢; linarith
  have hds : |d * s| ≤ 2 * M := by
    rw [abs_mul, abs_of_nonneg s0]
    have := mul_le_mul hdM s1 s0 (by positivity)
    linarith
  obtain ⟨V, hV⟩ : ∃ V, V = S * X := ⟨_, rfl⟩
  obtain ⟨W, hW⟩ : ∃ W, W = d * s := ⟨_, rfl⟩
  rw [← hV, ← hW] at eSX
  rw [← hW] at hds
  have uMs : uu * M ≤ 1e-10 * M := mul_le_mul_of_nonneg_right (u1.trans (by norm_num)) M0.le
  have hSX : |V| ≤ 2.001 * M := by
    have := abs_add_le (V - W) (W)
    rw [sub_add_cancel] at this
    norm_num at this eSX uMs ⊢; linarith
  obtain ⟨P, hP⟩ : ∃ P, P = B.fl (V) := ⟨_, rfl⟩
  have eP : |P - W| ≤ 10.12 * uu * M := by
    have h1 := B.rounds.err_add (V)
    rw [← hP] at h1
    have h2 := abs_add_le (P - V) (V - W)
    rw [sub_add_sub_cancel] at h2
    have h3 := mul_le_mul_of_nonneg_left hSX hu.le
    norm_num at h1 h2 h3 eSX eηM ⊢; linarith
  have hmix : |W + y0| ≤ M := by
    have e : W + y0 = (1 - s) * y0 + s * y1 := by rw [hW, hd]; ring
    rw [e]
    have h1 := abs_add_le ((1 - s) * y0) (s * y1)
    rw [abs_mul, abs_mul, abs_of_nonneg s0, abs_of_nonneg (by linarith : 0 ≤ 1 - s)] at h1
    have h2 := mul_le_mul_of_nonneg_left hy0 (by linarith : 0 ≤ 1 - s)
    have h3 := mul_le_mul_of_nonneg_left hy1 s0
    linarith
  have hPy : |P + y0| ≤ 1.001 * M := by
    have := abs_add_le (P - W) (W + y0)
    rw [show P - W + (W + y0) = P + y0 by ring] at this
    norm_num at this eP uMs ⊢; linarith
  refine ⟨B.fl (P + y0), ?_, B.rounds.val _, ?_⟩
  · rw [fin_sub z3, fin_sub z1, fin_sub z2, ← hτ, ← hξ, ← hd, ← hT, ← hX, ← hD, fin_div T0.ne' (by norm_num at hDT ⊢; linarith), ← hS,
      fin_mul (by rw [← hV]; norm_num at hSX M2 ⊢; linarith), ← hV, ← hP, fin_add (by norm_num at hPy M2 ⊢; linarith)]
  · rw [ef, ← hd, ← hW]
    have h1 := B.rounds.err_add (P + y0)
    have h2 := abs_add_le (B.fl (P + y0) - (P + y0)) (P - W)
    rw [show B.fl (P + y0) - (P + y0) + (P - W) = B.fl (P + y0) - (y0 + W) by ring] at h2
    have h3 := mul_le_mul_of_nonneg_left hPy hu.le
    norm_num at h1 h2 h3 eP eηM ⊢; linarith

/-! ## The samples that are used -/

theorem getD_flt (s : List (ℝ × ℝ)) (q : ℝ × ℝ) (i : ℕ) :
    (s.map fun p => ((F64.fin p.1 : F64 B), (F64.fin p.2 : F64 B))).getD i (F64.fin q.1, F64.fin q.2) = (F64.fin (s.getD i q).1, F64.fin (s.getD i q).2) := by
  simp only [List.getD_eq_getElem?_getD, List.getElem?_map]
  cases s[i]? <;> rfl

theorem interpLinear_pick {pre post : List (ℝ × ℝ)} {t0 y0 t1 y1 x : ℝ}
    (hs : (pre ++ (t0, y0) :: (t1, y1) :: post).Pairwise (fun a b => a.1 < b.1)) (h0 : t0 < x ∨ (pre = [] ∧ t0 = x))
    (h1 : x ≤ t1) :
    interpLinear ((pre ++ (t0, y0) :: (t1, y1) :: post).map fun p => ((F64.fin p.1 : F64 B), F64.fin p.2)) (F64.fin x) =
      (F64.fin y1 - F64.fin y0) / (F64.fin t1 - F64.fin t0) * (F64.fin x - F64.fin t0) + F64.fin y0 := by
  obtain ⟨S, hS⟩ : ∃ S, S = pre ++ (t0, y0) :: (t1, y1) :: post := ⟨_, rfl⟩
  rw [← hS] at hs ⊢
  have hp := hs
  rw [hS, List.pairwise_append] at hp
  obtain ⟨-, hp2, hp3⟩ := hp
  have hpre : ∀ r ∈ pre, r.1 < t0 := fun r hr => hp3 r hr (t0, y0) (by simp)
  have h01 : t0 < t1 := by
    rw [List.pairwise_cons] at hp2
    exact hp2.1 (t1, y1) (by simp)
  have hx0 : t0 ≤ x := by rcases h0 with h | ⟨-, h⟩ <;> linarith
  have hn : S.length = pre.length + 2 + post.length := by rw [hS]; simp; omega
  have hk : max (S.takeWhile (fun q => decide (q.1 < x))).length 1 = pre.length + 1 := by
    rcases h0 with h0 | ⟨rfl, h0⟩
    · rw [hS, List.takeWhile_append_of_pos (by intro r hr; simpa using (hpre r hr).trans h0),
        List.takeWhile_cons_of_pos (by simpa using h0), List.takeWhile_cons_of_neg (by simpa using h1)]
      simp
    · rw [hS, List.nil_append, List.takeWhile_cons_of_neg (by simp [h0])]
      simp
  obtain ⟨q, rest, hq⟩ : ∃ q rest, S = q :: rest := by
    cases S with
    | nil => simp at hn; omega
    | cons q rest => exact ⟨q, rest, rfl⟩
  have hlast : x ≤ (S.getD (S.length - 1) q).1 := by
    have hlt : S.length - 1 < S.length := by omega
    rw [List.getD_eq_getElem _ _ hlt]
    have : t1 ≤ S[S.length - 1].1 := by
      have h1' : S[pre.length + 1]'(by omega) = (t1, y1) := by
        simp only [hS]
        rw [List.getElem_append_right (by omega)]
        simp
      rcases Nat.lt_or_ge (pre.length + 1) (S.length - 1) with hl | hl
      · have := (List.pairwise_iff_getElem.mp hs) (pre.length + 1) (S.length - 1) (by omega) hlt hl
        rw [h1'] at this
        exact this.le
      · have e : S.length - 1 = pre.length + 1 := by omega
        simp only [e, h1', le_refl]
    linarith
  have hfirst : q.1 ≤ x := by
    cases pre with
    | nil =>
      rw [List.nil_append, hq] at hS
      have : q = (t0, y0) := (List.cons.inj hS).1
      rw [this]; exact hx0
    | cons r pre' =>
      rw [hq] at hS
      have : q = r := (List.cons.inj hS).1
      rw [this]
      have := hpre r (by simp)
      linarith
  have g1 : S.getD (pre.length + 1) q = (t1, y1) := by
    rw [hS, List.getD_append_right _ _ _ _ (by omega)]; simp
  have g0 : S.getD pre.length q = (t0, y0) := by
    rw [hS, List.getD_append_right _ _ _ _ (by omega)]; simp
  have hmap := fun i => getD_flt (B := B) S q i
  have e : interpLinear (S.map fun p => ((F64.fin p.1 : F64 B), (F64.fin p.2 : F64 B))) (F64.fin x) =
      (let n := S.length
       let hi := min (max (S.takeWhile (fun q => decide (q.1 < x))).length 1) (n - 1)
       let lo := if hi = 0 then n - 1 else hi - 1
       let a := S.getD lo q
       let b := S.getD hi q
       let y := (F64.fin b.2 - F64.fin a.2) / (F64.fin b.1 - F64.fin a.1) * (F64.fin x - F64.fin a.1) + F64.fin a.2
       if x < q.1 then PyFloat.nan else if (S.getD (n - 1) q).1 < x then PyFloat.nan else y) := by
    conv_lhs => rw [hq]
    unfold interpLinear
    simp only [List.map_cons]
    have hc : ((F64.fin q.1 : F64 B), (F64.fin q.2 : F64 B)) :: rest.map (fun p => (F64.fin p.1, F64.fin p.2)) = S.map (fun p => (F64.fin p.1, F64.fin p.2)) := by rw [hq]; rfl
    rw [hc]
    simp only [hmap, List.length_map, List.takeWhile_map, Function.comp_def, fin_lt, decide_eq_true_eq]
  rw [e]
  simp only [hk]
  have hmin : min (pre.length + 1) (S.length - 1) = pre.length + 1 := by omega
  simp only [hmin, Nat.add_eq_zero_iff, one_ne_zero, and_false, if_false, Nat.add_sub_cancel, g0, g1]
  rw [if_neg (not_lt.mpr hfirst), if_neg (not_lt.mpr hlast)]

/-- one row of the track between two neighbours.  All gaps are at least `1e-30`, all values at most `M` -/
theorem interpLinear_flt {pre post : List (ℝ × ℝ)} {t0 y0 t1 y1 x M : ℝ}
    (hs : (pre ++ (t0, y0) :: (t1, y1) :: post).Pairwise (fun a b => a.1 < b.1))
    (hg : ∀ p ∈ pre ++ (t0, y0) :: (t1, y1) :: post, ∀ q ∈ pre ++ (t0, y0) :: (t1, y1) :: post, p.1 < q.1 → 1e-30 ≤ q.1 - p.1 ∧ q.1 - p.1 ≤ 1e30)
    (hM : ∀ p ∈ pre ++ (t0, y0) :: (t1, y1) :: post, |p.2| ≤ M) (M1 : 1e-10 ≤ M) (M2 : M ≤ 1e20) (h0 : t0 ≤ x) (h1 : x ≤ t1) :
    ∃ Y, interpLinear ((pre ++ (t0, y0) :: (t1, y1) :: post).map fun p => ((F64.fin p.1 : F64 B), F64.fin p.2)) (F64.fin x) = F64.fin Y ∧ IsF64 Y ∧
      |Y - (y0 + (y1 - y0) * fraction t0 t1 x)| ≤ 12 * uu * M := by
  have h01 : t0 < t1 := by
    have hp := hs
    rw [List.pairwise_append] at hp
    have := hp.2.1
    rw [List.pairwise_cons] at this
    exact this.1 (t1, y1) (by simp)
  have direct : (t0 < x ∨ (pre = [] ∧ t0 = x)) → ∃ Y, interpLinear ((pre ++ (t0, y0) :: (t1, y1) :: post).map fun p => ((F64.fin p.1 : F64 B), F64.fin p.2)) (F64.fin x) = F64.fin Y ∧ IsF64 Y ∧
      |Y - (y0 + (y1 - y0) * fraction t0 t1 x)| ≤ 12 * uu * M := by
    intro h
    rw [interpLinear_pick hs h h1]
    obtain ⟨a, b⟩ := hg (t0, y0) (by simp) (t1, y1) (by simp) h01
    exact linear_flt h0 h1 a b (hM (t0, y0) (by simp)) (hM (t1, y1) (by simp)) M1 M2
  rcases h0.lt_or_eq with h0' | h0'
  · exact direct (.inl h0')
  · rcases List.eq_nil_or_concat pre with hpre | ⟨pre', p, hpre⟩
    · exact direct (.inr ⟨hpre, h0'⟩)
    · have e : pre ++ (t0, y0) :: (t1, y1) :: post = pre' ++ (p.1, p.2) :: (t0, y0) :: (t1, y1) :: post := by rw [hpre]; simp
      have hp0 : p.1 < t0 := by
        rw [e, List.pairwise_append] at hs
        have := hs.2.1
        rw [List.pairwise_cons] at this
        exact this.1 (t0, y0) (by simp)
      rw [e] at hs hg hM ⊢
      rw [interpLinear_pick hs (.inl (by rw [← h0']; exact hp0)) h0'.ge]
      obtain ⟨a, b⟩ := hg (p.1, p.2) (by simp) (t0, y0) (by simp) hp0
      obtain ⟨Y, e1, fY, c⟩ := linear_flt (B := B) (x := x) (h0'.le.trans' hp0.le) h0'.ge a b (hM (p.1, p.2) (by simp)) (hM (t0, y0) (by simp)) M1 M2
      refine ⟨Y, e1, fY, ?_⟩
      have e2 : y0 + (y1 - y0) * fraction t0 t1 x = p.2 + (y0 - p.2) * fraction p.1 t0 x := by
        unfold fraction
        rw [← h0', sub_self, zero_div, mul_zero, add_zero, div_self (by linarith)]
        ring
      rw [e2]; exact c

theorem interpLinear_outside_flt {s : List (ℝ × ℝ)} (x : ℝ) (h : (∀ p ∈ s, x < p.1) ∨ (∀ p ∈ s, p.1 < x)) :
    interpLinear (s.map fun p => ((F64.fin p.1 : F64 B), F64.fin p.2)) (F64.fin x) = PyFloat.nan := by
  cases s with
  | nil => rfl
  | cons q rest =>
    unfold interpLinear
    simp only [List.map_cons]
    rcases h with h | h
    · rw [if_pos (by simpa [fin_lt] using h q (by simp))]
    · have hc : ((F64.fin q.1 : F64 B), (F64.fin q.2 : F64 B)) :: rest.map (fun p => (F64.fin p.1, F64.fin p.2)) =
          (q :: rest).map (fun p => (F64.fin p.1, F64.fin p.2)) := rfl
      have h2 : PyFloat.lt (((q :: rest).map (fun p => ((F64.fin p.1 : F64 B), (F64.fin p.2 : F64 B)))).getD
          (((q :: rest).map (fun p => ((F64.fin p.1 : F64 B), (F64.fin p.2 : F64 B)))).length - 1) (F64.fin q.1, F64.fin q.2)).1 (F64.fin x) = true := by
        rw [getD_flt, fin_lt]
        simp only [decide_eq_true_eq]
        apply h
        rw [List.getD_eq_getElem _ _ (by simp)]
        exact List.getElem_mem _
      rw [hc, if_pos h2]
      exact ite_self _

section
variable {γ β : Type}

theorem sorted_flt (emb : γ → β) (s : List (ℝ × γ)) :
    ((s.map fun p => (F64.fin p.1 : F64 B)).zip (s.map fun p => emb p.2)).mergeSort (fun a b => PyFloat.le a.1 b.1) =
      (s.mergeSort leTime).map fun p => ((F64.fin p.1 : F64 B), emb p.2) := by
  rw [List.zip_map', ← List.map_mergeSort]
  intro a _ b _
  simp only [leTime, fin_le]

theorem interp1d_flt [Rows (F64 B) β] (emb : γ → β) (s : List (ℝ × γ)) (xs : List ℝ) :
    interp1dLinear (s.map fun p => (F64.fin p.1 : F64 B)) (s.map fun p => emb p.2) (xs.map F64.fin) =
      .ok (xs.map fun x => Rows.build fun r => interpLinear ((s.mergeSort leTime).map fun p => ((F64.fin p.1 : F64 B), r (emb p.2))) (F64.fin x)) := by
  unfold interp1dLinear
  rw [if_pos (by simp)]
  simp only [sorted_flt, List.map_map]
  rfl

/-- the times of a track that binary64 arithmetic can handle: no two closer than `1e-30`, none more than `1e30` apart -/
def Spec.SpacedTimes (s : List (ℝ × γ)) : Prop := ∀ p ∈ s, ∀ q ∈ s, p.1 < q.1 → 1e-30 ≤ q.1 - p.1 ∧ q.1 - p.1 ≤ 1e30

theorem row_flt (emb : γ → β) {s : List (ℝ × γ)} (hd : DistinctTimes s) (hg : SpacedTimes s) {p q : ℝ × γ} (h : Neighbours s p q) {x M : ℝ}
    (h0 : p.1 ≤ x) (h1 : x ≤ q.1) (r : β → F64 B) (r' : γ → ℝ) (hr : ∀ g, r (emb g) = F64.fin (r' g)) (hM : ∀ p ∈ s, |r' p.2| ≤ M)
    (M1 : 1e-10 ≤ M) (M2 : M ≤ 1e20) :
    ∃ Y, interpLinear ((s.mergeSort leTime).map fun p => ((F64.fin p.1 : F64 B), r (emb p.2))) (F64.fin x) = F64.fin Y ∧ IsF64 Y ∧
      |Y - (r' p.2 + (r' q.2 - r' p.2) * fraction p.1 q.1 x)| ≤ 12 * uu * M := by
  obtain ⟨pre, post, hT⟩ := neighbours_split (sort_strict hd) (h.perm (List.mergeSort_perm s leTime))
  have hs := sort_strict hd
  have hm : ∀ p, p ∈ s.mergeSort leTime ↔ p ∈ s := fun p => (List.mergeSort_perm s leTime).mem_iff
  rw [hT] at hs hm ⊢
  have el : (pre ++ p :: q :: post).map (fun p => (p.1, r' p.2)) =
      pre.map (fun p => (p.1, r' p.2)) ++ (p.1, r' p.2) :: (q.1, r' q.2) :: post.map (fun p => (p.1, r' p.2)) := by simp
  have := interpLinear_flt (B := B) (pre := pre.map fun p => (p.1, r' p.2)) (post := post.map fun p => (p.1, r' p.2))
    (t0 := p.1) (y0 := r' p.2) (t1 := q.1) (y1 := r' q.2) (x := x) (M := M) ?_ ?_ ?_ M1 M2 h0 h1
  · obtain ⟨Y, e, f, c⟩ := this
    refine ⟨Y, ?_, f, c⟩
    rw [← e]
    simp only [List.map_append, List.map_cons, List.map_map, Function.comp_def, hr]
  · have := List.Pairwise.map (S := fun a b : ℝ × ℝ => a.1 < b.1) (fun p : ℝ × γ => (p.1, r' p.2)) (fun a b h => h) hs
    simpa using this
  · rw [← el]
    intro a ha b hb hab
    obtain ⟨a', ha', rfl⟩ := List.mem_map.mp ha
    obtain ⟨b', hb', rfl⟩ := List.mem_map.mp hb
    exact hg a' ((hm _).mp ha') b' ((hm _).mp hb') hab
  · rw [← el]
    intro a ha
    obtain ⟨a', ha', rfl⟩ := List.mem_map.mp ha
    exact hM a' ((hm _).mp ha')

theorem row_outside_flt (emb : γ → β) (s : List (ℝ × γ)) {x : ℝ} (h : (∀ p ∈ s, x < p.1) ∨ (∀ p ∈ s, p.1 < x))
    (r : β → F64 B) (r' : γ → ℝ) (hr : ∀ g, r (emb g) = F64.fin (r' g)) :
    interpLinear ((s.mergeSort leTime).map fun p => ((F64.fin p.1 : F64 B), r (emb p.2))) (F64.fin x) = PyFloat.nan := by
  have := interpLinear_outside_flt (B := B) (s := (s.mergeSort leTime).map fun p => (p.1, r' p.2)) x ?_
  · rw [← this]
    simp only [List.map_map, Function.comp_def, hr]
  · have hm : ∀ p, p ∈ s.mergeSort leTime ↔ p ∈ s := fun p => (List.mergeSort_perm s leTime).mem_iff
    rcases h with h | h
    · left; intro p hp
      obtain ⟨a, ha, rfl⟩ := List.mem_map.mp hp
      exact h a ((hm a).mp ha)
    · right; intro p hp
      obtain ⟨a, ha, rfl⟩ := List.mem_map.mp hp
      exact h a ((hm a).mp ha)

end

/-! ## C115 -/

variable (B)

/-- the times and columns of a track as binary64 numbers -/
noncomputable def times64 {γ : Type} (s : List (ℝ × γ)) : List (F64 B) := s.map fun p => F64.fin p.1
noncomputable def columns64 (s : List (ℝ × V3 ℝ)) : List (V3 (F64 B)) := s.map fun p => p.2.flt

theorem interp_nvectors_flt (S : Scipy (F64 B) (V3 (F64 B))) (s : List (ℝ × V3 ℝ)) (xs : List ℝ) :
    interp_nvectors S (xs.map F64.fin) (times64 B s) (columns64 B s) =
      .ok (xs.map fun x => unit (Rows.build fun r => interpLinear ((s.mergeSort leTime).map fun p => ((F64.fin p.1 : F64 B), r p.2.flt)) (F64.fin x)) PyFloat.nan) := by
  unfold interp_nvectors interp_vectors times64 columns64
  rw [if_neg (by norm_num)]
  simp only [if_true, interp1d_flt V3.flt, bind, Except.bind, pure, Except.pure, List.map_map]
  rfl

variable {B}

/-- the unit vector of three interpolated components -/
theorem unit_mix {A C : V3 ℝ} {φ σ X Y Z : ℝ} (f0 : 0 ≤ φ) (f1 : φ ≤ 1) (hA : len A ≤ 1.1) (hC : len C ≤ 1.1) (s0 : 1e-11 ≤ σ)
    (hs : σ ≤ len ((1 - φ) • A + φ • C)) (hX : |X - (A.x + (C.x - A.x) * φ)| ≤ 12 * uu * 1.1) (hY : |Y - (A.y + (C.y - A.y) * φ)| ≤ 12 * uu * 1.1)
    (hZ : |Z - (A.z + (C.z - A.z) * φ)| ≤ 12 * uu * 1.1) :
    ∃ w : V3 ℝ, unit (⟨F64.fin X, F64.fin Y, F64.fin Z⟩ : V3 (F64 B)) PyFloat.nan = w.flt ∧ IsF64V w ∧ OnArc A C (dirOf ((1 - φ) • A + φ • C)) ∧
      CloseV w (dirOf ((1 - φ) • A + φ • C)) (5.7e-16 + 5.1e-15 / σ) := by
  have sp : 0 < σ := lt_of_lt_of_le (by norm_num) s0
  obtain ⟨m, hm⟩ : ∃ m, m = (1 - φ) • A + φ • C := ⟨_, rfl⟩
  rw [← hm] at hs ⊢
  have hm0 : m ≠ 0 := by intro h; rw [h, len_eq_zero.mpr rfl] at hs; linarith
  have hl := len_pos hm0
  have hl2 : len m ≤ 100 := by
    rw [hm]
    refine (len_add_le _ _).trans ?_
    rw [len_smul, len_smul, abs_of_nonneg f0, abs_of_nonneg (by linarith : 0 ≤ 1 - φ)]
    have h1 := mul_le_mul_of_nonneg_left hA (by linarith : 0 ≤ 1 - φ)
    have h2 := mul_le_mul_of_nonneg_left hC f0
    norm_num at h1 h2 ⊢; linarith
  have hc : CloseV ⟨X, Y, Z⟩ m (13.2 * uu) := by
    rw [hm]
    have e : 13.2 * uu = 12 * uu * 1.1 := by ring
    rw [e]
    refine ⟨?_, ?_, ?_⟩
    · refine le_trans (le_of_eq ?_) hX
      congr 1; simp; ring
    · refine le_trans (le_of_eq ?_) hY
      congr 1; simp; ring
    · refine le_trans (le_of_eq ?_) hZ
      congr 1; simp; ring
  obtain ⟨w, hw, fw, cw⟩ := unit_dir (B := B) (k := 5.7e-16 + 5.1e-15 / σ) s0 hs hl2 hc (by
      have : 1.7321 * (13.2 * uu) ≤ 1e-14 := by unfold uu; norm_num
      norm_num at this s0 ⊢; linarith) (by
      have h1 : 5.06 * uu ≤ 5.7e-16 := by unfold uu; norm_num
      have h2 : 3.4642 * (13.2 * uu) / σ ≤ 5.1e-15 / σ := by
        refine div_le_div_of_nonneg_right ?_ sp.le
        unfold uu; norm_num
      linarith) PyFloat.nan
  refine ⟨w, hw, fw, ⟨dirOf_unit hm0, (len m)⁻¹ * (1 - φ), (len m)⁻¹ * φ,
      mul_nonneg (inv_nonneg.mpr hl.le) (by linarith), mul_nonneg (inv_nonneg.mpr hl.le) f0, ?_⟩, cw⟩
  unfold dirOf; conv_lhs => rw [hm]
  ext <;> simp [hm] <;> ring

theorem fraction_mem {t0 t1 x : ℝ} (h : t0 < t1) (h0 : t0 ≤ x) (h1 : x ≤ t1) : 0 ≤ fraction t0 t1 x ∧ fraction t0 t1 x ≤ 1 :=
  ⟨div_nonneg (by linarith) (by linarith), (div_le_one (by linarith)).mpr (by linarith)⟩

variable (B)

/-- **C115** `interp_nvectors` in rounded arithmetic, between two neighbouring samples `(t0, A)` and `(t1, C)`: the result is in every component within
`5.7e-16 + 5.1e-15/σ` of the exact position, which is the normalised linear interpolation and lies on the shorter arc from `A` to `C`.  `σ` is a lower bound
of the length of `(1 - φ) A + φ C` (at least `0.63` for unit vectors at most 90 degrees apart) -/
theorem C115_between (S : Scipy (F64 B) (V3 (F64 B))) (s : List (ℝ × V3 ℝ)) (hd : DistinctTimes s) (hg : SpacedTimes s) (hl : ∀ p ∈ s, len p.2 ≤ 1.1)
    (xs : List ℝ) (i : ℕ) (x : ℝ) (hi : xs[i]? = some x) (t0 t1 : ℝ) (A C : V3 ℝ) (h : Neighbours s (t0, A) (t1, C)) (h0 : t0 ≤ x) (h1 : x ≤ t1)
    {σ : ℝ} (s0 : 1e-11 ≤ σ) (hs : σ ≤ len ((1 - fraction t0 t1 x) • A + fraction t0 t1 x • C)) :
    ∃ R w P, interp_nvectors S (xs.map F64.fin) (times64 B s) (columns64 B s) = .ok R ∧ R.length = xs.length ∧ R[i]? = some w.flt ∧ IsF64V w ∧
      P = dirOf ((1 - fraction t0 t1 x) • A + fraction t0 t1 x • C) ∧ OnArc A C P ∧ CloseV w P (5.7e-16 + 5.1e-15 / σ) := by
  obtain ⟨f0, f1⟩ := fraction_mem h.lt h0 h1
  have row := fun (r : V3 (F64 B) → F64 B) (r' : V3 ℝ → ℝ) hr hM => row_flt (B := B) (V3.flt (B := B)) hd hg h h0 h1 r r' hr (M := 1.1) hM (by norm_num) (by norm_num)
  obtain ⟨X, eX, -, cX⟩ := row (·.x) (·.x) (fun _ => rfl) fun p hp => (abs_x_le_len _).trans (hl p hp)
  obtain ⟨Y, eY, -, cY⟩ := row (·.y) (·.y) (fun _ => rfl) fun p hp => (abs_y_le_len _).trans (hl p hp)
  obtain ⟨Z, eZ, -, cZ⟩ := row (·.z) (·.z) (fun _ => rfl) fun p hp => (abs_z_le_len _).trans (hl p hp)
  obtain ⟨w, hw, fw, ho, cw⟩ := unit_mix (B := B) f0 f1 (hl _ h.left) (hl _ h.right) s0 hs cX cY cZ
  rw [interp_nvectors_flt]
  refine ⟨_, w, _, rfl, by simp, ?_, fw, rfl, ho, cw⟩
  rw [List.getElem?_map, hi]
  simp only [Option.map_some, Option.some.injEq, Rows.build]
  rw [eX, eY, eZ, hw]

/-- **C115** at the time of a sample the result is the direction of the sample, within `6.3e-15` in every component -/
theorem C115_at_sample (S : Scipy (F64 B) (V3 (F64 B))) (s : List (ℝ × V3 ℝ)) (hd : DistinctTimes s) (hg : SpacedTimes s) (hl : ∀ p ∈ s, len p.2 ≤ 1.1)
    (hn : 2 ≤ s.length) (xs : List ℝ) (i : ℕ) (t : ℝ) (A : V3 ℝ) (hA : (t, A) ∈ s) (lA : 0.9 ≤ len A) (hi : xs[i]? = some t) :
    ∃ R w, interp_nvectors S (xs.map F64.fin) (times64 B s) (columns64 B s) = .ok R ∧ R[i]? = some w.flt ∧ IsF64V w ∧ CloseV w (dirOf A) 6.3e-15 := by
  rcases neighbour_exists hd hn hA with ⟨⟨t1, C⟩, h⟩ | ⟨⟨t0, C⟩, h⟩
  · have ef : fraction t t1 t = 0 := by rw [fraction, sub_self, zero_div]
    have em : (1 - (0 : ℝ)) • A + (0 : ℝ) • C = A := by ext <;> simp
    obtain ⟨R, w, P, e, -, v, fw, eP, -, c⟩ := C115_between B S s hd hg hl xs i t hi t t1 A C h le_rfl h.lt.le (σ := 0.9) (by norm_num)
      (by rw [ef, em]; exact lA)
    rw [ef, em] at eP
    exact ⟨R, w, e, v, fw, (eP ▸ c).mono (by norm_num)⟩
  · have hlt := h.lt
    have ef : fraction t0 t t = 1 := by rw [fraction, div_self (by simp only at hlt; linarith)]
    have em : (1 - (1 : ℝ)) • C + (1 : ℝ) • A = A := by ext <;> simp
    obtain ⟨R, w, P, e, -, v, fw, eP, -, c⟩ := C115_between B S s hd hg hl xs i t hi t0 t C A h h.lt.le le_rfl (σ := 0.9) (by norm_num)
      (by rw [ef, em]; exact lA)
    rw [ef, em] at eP
    exact ⟨R, w, e, v, fw, (eP ▸ c).mono (by norm_num)⟩

/-- **C115** NaN before the first and after the last sample, whatever the rounding -/
theorem C115_outside (S : Scipy (F64 B) (V3 (F64 B))) (s : List (ℝ × V3 ℝ)) (xs : List ℝ) (i : ℕ) (x : ℝ) (hi : xs[i]? = some x)
    (h : (∀ p ∈ s, x < p.1) ∨ (∀ p ∈ s, p.1 < x)) :
    ∃ R, interp_nvectors S (xs.map F64.fin) (times64 B s) (columns64 B s) = .ok R ∧ R[i]? = some ⟨PyFloat.nan, PyFloat.nan, PyFloat.nan⟩ := by
  rw [interp_nvectors_flt]
  refine ⟨_, rfl, ?_⟩
  rw [List.getElem?_map, hi]
  simp only [Option.map_some, Option.some.injEq, Rows.build]
  have e := fun (r : V3 (F64 B) → F64 B) (r' : V3 ℝ → ℝ) hr => row_outside_flt (B := B) (V3.flt (B := B)) s h r r' hr
  rw [e (·.x) (·.x) fun _ => rfl, e (·.y) (·.y) fun _ => rfl, e (·.z) (·.z) fun _ => rfl]
  rfl

/-- **C115** the order in which the samples are given does not matter, not even for the last bit -/
theorem C115_order (S : Scipy (F64 B) (V3 (F64 B))) (s s' : List (ℝ × V3 ℝ)) (hd : DistinctTimes s) (hp : s.Perm s') (xs : List ℝ) :
    interp_nvectors S (xs.map F64.fin) (times64 B s) (columns64 B s) = interp_nvectors S (xs.map F64.fin) (times64 B s') (columns64 B s') := by
  have hd' : DistinctTimes s' := (hp.map Prod.fst).nodup_iff.mp hd
  have hpp : (s.mergeSort leTime).Perm (s'.mergeSort leTime) :=
    (List.mergeSort_perm s leTime).trans (hp.trans (List.mergeSort_perm s' leTime).symm)
  have : s.mergeSort leTime = s'.mergeSort leTime :=
    hpp.eq_of_pairwise (fun a b _ _ h1 h2 => absurd h1 (lt_asymm h2)) (sort_strict hd) (sort_strict hd')
  rw [interp_nvectors_flt, interp_nvectors_flt, this]

noncomputable def normals64 (s : List (ℝ × (V3 ℝ × ℝ))) : List (V3 (F64 B)) := s.map fun p => p.2.1.flt
noncomputable def depths64 (s : List (ℝ × (V3 ℝ × ℝ))) : Depth (F64 B) := .vector (s.map fun p => F64.fin p.2.2)

theorem Nvector_interpolate_flt (S : Scipy (F64 B) (V3 (F64 B) × F64 B)) (s : List (ℝ × (V3 ℝ × ℝ))) (xs : List ℝ) :
    Nvector_interpolate S (normals64 B s) (depths64 B s) (xs.map F64.fin) (times64 B s) =
      let c : ℝ → V3 (F64 B) × F64 B := fun x => Rows.build fun r =>
        interpLinear ((s.mergeSort leTime).map fun p => ((F64.fin p.1 : F64 B), r (p.2.1.flt, F64.fin p.2.2))) (F64.fin x)
      .ok (xs.map fun x => unit (c x).1 PyFloat.nan, xs.map fun x => (c x).2) := by
  have hv : vstackDepth (normals64 B s) (depths64 B s) = .ok (s.map fun p => (p.2.1.flt, F64.fin p.2.2)) := by
    unfold vstackDepth normals64 depths64
    simp only [List.length_map, if_true, List.zip_map']
  unfold Nvector_interpolate interp_vectors
  rw [hv]
  have := interp1d_flt (B := B) (β := V3 (F64 B) × F64 B) (fun g : V3 ℝ × ℝ => ((g.1.flt : V3 (F64 B)), (F64.fin g.2 : F64 B))) s xs
  unfold times64
  simp only [lt_irrefl, if_false, if_true, bind, Except.bind, pure, Except.pure, this, List.map_map]
  rfl

/-- **C115** `Nvector.interpolate` in rounded arithmetic: the n-vector as above, and the depth within `1.4e-15` of the largest depth `D` of the track of the
linear interpolation in time -/
theorem C115_nvector (S : Scipy (F64 B) (V3 (F64 B) × F64 B)) (s : List (ℝ × (V3 ℝ × ℝ))) (hd : DistinctTimes s) (hg : SpacedTimes s)
    (hl : ∀ p ∈ s, len p.2.1 ≤ 1.1) {D : ℝ} (hz : ∀ p ∈ s, |p.2.2| ≤ D) (D1 : 1e-10 ≤ D) (D2 : D ≤ 1e20)
    (xs : List ℝ) (i : ℕ) (x : ℝ) (hi : xs[i]? = some x) (t0 t1 z0 z1 : ℝ) (A C : V3 ℝ) (h : Neighbours s (t0, A, z0) (t1, C, z1)) (h0 : t0 ≤ x) (h1 : x ≤ t1)
    {σ : ℝ} (s0 : 1e-11 ≤ σ) (hs : σ ≤ len ((1 - fraction t0 t1 x) • A + fraction t0 t1 x • C)) :
    ∃ N Z w z P, Nvector_interpolate S (normals64 B s) (depths64 B s) (xs.map F64.fin) (times64 B s) = .ok (N, Z) ∧
      N[i]? = some w.flt ∧ IsF64V w ∧ P = dirOf ((1 - fraction t0 t1 x) • A + fraction t0 t1 x • C) ∧ OnArc A C P ∧ CloseV w P (5.7e-16 + 5.1e-15 / σ) ∧
      Z[i]? = some (F64.fin z) ∧ IsF64 z ∧ |z - ((1 - fraction t0 t1 x) * z0 + fraction t0 t1 x * z1)| ≤ 1.4e-15 * D := by
  obtain ⟨f0, f1⟩ := fraction_mem h.lt h0 h1
  have row := fun M M1 M2 (r : V3 (F64 B) × F64 B → F64 B) (r' : V3 ℝ × ℝ → ℝ) hr hM =>
    row_flt (B := B) (fun g : V3 ℝ × ℝ => ((g.1.flt : V3 (F64 B)), (F64.fin g.2 : F64 B))) hd hg h h0 h1 (M := M) r r' hr hM M1 M2
  obtain ⟨X, eX, -, cX⟩ := row 1.1 (by norm_num) (by norm_num) (·.1.x) (·.1.x) (fun _ => rfl) fun p hp => (abs_x_le_len _).trans (hl p hp)
  obtain ⟨Y, eY, -, cY⟩ := row 1.1 (by norm_num) (by norm_num) (·.1.y) (·.1.y) (fun _ => rfl) fun p hp => (abs_y_le_len _).trans (hl p hp)
  obtain ⟨Z, eZ, -, cZ⟩ := row 1.1 (by norm_num) (by norm_num) (·.1.z) (·.1.z) (fun _ => rfl) fun p hp => (abs_z_le_len _).trans (hl p hp)
  obtain ⟨z, ez, fz, cz⟩ := row D D1 D2 (·.2) (·.2) (fun _ => rfl) hz
  obtain ⟨w, hw, fw, ho, cw⟩ := unit_mix (B := B) f0 f1 (hl _ h.left) (hl _ h.right) s0 hs cX cY cZ
  rw [Nvector_interpolate_flt]
  refine ⟨_, _, w, z, _, rfl, ?_, fw, rfl, ho, cw, ?_, fz, ?_⟩
  · rw [List.getElem?_map, hi]
    simp only [Option.map_some, Option.some.injEq, Rows.build]
    rw [eX, eY, eZ, hw]
  · rw [List.getElem?_map, hi]
    simp only [Option.map_some, Option.some.injEq, Rows.build]
    exact ez
  · have e : (1 - fraction t0 t1 x) * z0 + fraction t0 t1 x * z1 = z0 + (z1 - z0) * fraction t0 t1 x := by ring
    rw [e]
    refine cz.trans ?_
    have : 12 * uu ≤ 1.4e-15 := by unfold uu; norm_num
    exact mul_le_mul_of_nonneg_right this (by norm_num at D1; linarith)

/-- a concrete track: three samples a quarter turn apart, not in the order of time; halfway between the first two -/
example (S : Scipy (F64 B) (V3 (F64 B))) : ∃ R w P, interp_nvectors S ([1 / 2].map F64.fin)
      (times64 B [(0, (⟨1, 0, 0⟩ : V3 ℝ)), (2, ⟨0, 0, 1⟩), (1, ⟨0, 1, 0⟩)]) (columns64 B [(0, (⟨1, 0, 0⟩ : V3 ℝ)), (2, ⟨0, 0, 1⟩), (1, ⟨0, 1, 0⟩)]) = .ok R ∧
    R[0]? = some w.flt ∧ OnArc ⟨1, 0, 0⟩ ⟨0, 1, 0⟩ P ∧ CloseV w P (5.7e-16 + 5.1e-15 / (1 / 2)) := by
  have hf : fraction 0 1 (1 / 2) = 1 / 2 := by unfold fraction; norm_num
  obtain ⟨R, w, P, h1, -, h2, -, -, h3, h4⟩ := C115_between B S [(0, (⟨1, 0, 0⟩ : V3 ℝ)), (2, ⟨0, 0, 1⟩), (1, ⟨0, 1, 0⟩)]
    (by simp [DistinctTimes]) (by
      intro p hp q hq
      simp only [List.mem_cons, List.not_mem_nil, or_false] at hp hq
      rcases hp with rfl | rfl | rfl <;> rcases hq with rfl | rfl | rfl <;> norm_num) (by
      intro p hp
      simp only [List.mem_cons, List.not_mem_nil, or_false] at hp
      rcases hp with rfl | rfl | rfl <;> simp [len] <;> norm_num) [1 / 2] 0 (1 / 2) rfl 0 1 ⟨1, 0, 0⟩ ⟨0, 1, 0⟩
    ⟨by simp, by simp, by norm_num, by simp⟩ (by norm_num) (by norm_num) (σ := 1 / 2) (by norm_num) (by
      rw [hf]
      have := abs_x_le_len ((1 - 1 / 2 : ℝ) • (⟨1, 0, 0⟩ : V3 ℝ) + (1 / 2 : ℝ) • ⟨0, 1, 0⟩)
      simp at this ⊢
      rw [abs_of_pos (by norm_num)] at this
      norm_num at this ⊢; exact this)
  exact ⟨R, w, P, h1, h2, h3, h4⟩

end Nv
