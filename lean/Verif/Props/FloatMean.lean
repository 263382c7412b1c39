import Verif.Props.Direct
import Verif.Float.GreatCircle

/-!
# C102: the mean position in binary64
-/

namespace Nv
open Spec F64
variable (B : Binary64)

/-- `s` is the sum of the vectors of the list evaluated with rounded additions in some order, with any bracketing.  `numpy.sum` adds in blocks (pairwise
summation), `List.foldl` from left to right; both are instances. -/
inductive Spec.SummedInSomeOrder {B : Binary64} : List (V3 (F64 B)) → V3 (F64 B) → Prop
  | nil : SummedInSomeOrder [] ⟨lit 0, lit 0, lit 0⟩
  | one (v : V3 (F64 B)) : SummedInSomeOrder [v] v
  | add {l l' : List (V3 (F64 B))} {s s' : V3 (F64 B)} : SummedInSomeOrder l s → SummedInSomeOrder l' s' → SummedInSomeOrder (l ++ l') (add3 s s')
  | perm {l l' : List (V3 (F64 B))} {s : V3 (F64 B)} : l.Perm l' → SummedInSomeOrder l s → SummedInSomeOrder l' s

theorem summed_foldl (l : List (V3 (F64 B))) : SummedInSomeOrder l (l.foldl add3 ⟨lit 0, lit 0, lit 0⟩) := by
  induction l using List.reverseRecOn with
  | nil => exact .nil
  | append_singleton l v ih =>
    rw [List.foldl_append]
    exact .add ih (.one v)

variable {B}

/-- one component -/
theorem sum_step {x y p q m n : ℝ} (fx : IsF64 x) (fy : IsF64 y) (hx : |x - p| ≤ 1.2 * uu * m ^ 2) (hy : |y - q| ≤ 1.2 * uu * n ^ 2)
    (hp : |p| ≤ 1.1 * m) (hq : |q| ≤ 1.1 * n) (hm : m = 0 ∨ 1 ≤ m) (hn : n = 0 ∨ 1 ≤ n) (hN : m + n ≤ 1e7) :
    ∃ r, (F64.fin x : F64 B) + F64.fin y = F64.fin r ∧ IsF64 r ∧ |r - (p + q)| ≤ 1.2 * uu * (m + n) ^ 2 := by
  have hu := uu_pos
  have u1 : uu ≤ 1.12e-16 := by unfold uu; norm_num
  have m0 : 0 ≤ m := by rcases hm with h | h <;> linarith
  have n0 : 0 ≤ n := by rcases hn with h | h <;> linarith
  have mle : m ≤ 1e7 := by linarith
  have nle : n ≤ 1e7 := by linarith
  have sq : ∀ {t : ℝ}, 0 ≤ t → t ≤ 1e7 → 1.2 * uu * t ^ 2 ≤ 1e-8 * t := by
    intro t t0 t1
    have h1 : 1.2 * uu ≤ 1e-15 := by norm_num at u1 ⊢; linarith
    have h2 : t ^ 2 ≤ 1e7 * t := by rw [sq]; exact mul_le_mul_of_nonneg_right t1 t0
    have h3 := mul_le_mul h1 h2 (sq_nonneg t) (by norm_num)
    norm_num at h3 ⊢; linarith
  have b1 := sq m0 mle
  have b2 := sq n0 nle
  obtain ⟨x1, x2⟩ := abs_le.mp hx
  obtain ⟨y1, y2⟩ := abs_le.mp hy
  obtain ⟨p1, p2⟩ := abs_le.mp hp
  obtain ⟨q1, q2⟩ := abs_le.mp hq
  have hxy : |x + y| ≤ 1.11 * (m + n) := by
    rw [abs_le]; norm_num at b1 b2 p1 p2 q1 q2 ⊢; constructor <;> linarith
  have hbig : |x + y| ≤ 10 ^ 60 := by
    refine hxy.trans (le_trans (mul_le_mul_of_nonneg_left hN (by norm_num)) (by norm_num))
  refine ⟨_, fin_add hbig, B.rounds.val _, ?_⟩
  have split : |B.fl (x + y) - (p + q)| ≤ |B.fl (x + y) - (x + y)| + (1.2 * uu * m ^ 2 + 1.2 * uu * n ^ 2) := by
    have t := abs_add_le (B.fl (x + y) - (x + y)) ((x - p) + (y - q))
    have t2 := abs_add_le (x - p) (y - q)
    rw [show B.fl (x + y) - (x + y) + ((x - p) + (y - q)) = B.fl (x + y) - (p + q) by ring] at t
    linarith
  have exact_case : m = 0 ∨ n = 0 → |B.fl (x + y) - (x + y)| = 0 := by
    rintro (h | h)
    · have : x = 0 := by rw [h] at hx hp; norm_num at hx hp; rw [hp] at hx; simpa using hx
      rw [this, zero_add, B.rounds.exact fy, sub_self, abs_zero]
    · have : y = 0 := by rw [h] at hy hq; norm_num at hy hq; rw [hq] at hy; simpa using hy
      rw [this, add_zero, B.rounds.exact fx, sub_self, abs_zero]
  have sqs : 1.2 * uu * (m + n) ^ 2 = 1.2 * uu * m ^ 2 + 1.2 * uu * n ^ 2 + 2.4 * uu * (m * n) := by ring
  rw [sqs]
  have mn0 : 0 ≤ 2.4 * uu * (m * n) := by positivity
  rcases hm with hm | hm
  · rw [exact_case (.inl hm)] at split; linarith
  rcases hn with hn | hn
  · rw [exact_case (.inr hn)] at split; linarith
  have he := B.rounds.err_add (x + y)
  have hη : eta ≤ 0.001 * uu := eta_small.trans (by unfold uu; norm_num)
  have h1 : uu * |x + y| ≤ uu * (1.11 * (m + n)) := mul_le_mul_of_nonneg_left hxy hu.le
  have h2 : m + n ≤ 2 * (m * n) := by nlinarith
  have h3 : uu * (m + n) ≤ uu * (2 * (m * n)) := mul_le_mul_of_nonneg_left h2 hu.le
  have h4 : uu * 2 ≤ uu * (m + n) := mul_le_mul_of_nonneg_left (by linarith) hu.le
  norm_num at hη h1 ⊢
  linarith

theorem abs_vsum_le {vs : List (V3 ℝ)} (h : ∀ v ∈ vs, len v ≤ 1.1) :
    |(vsum vs).x| ≤ 1.1 * vs.length ∧ |(vsum vs).y| ≤ 1.1 * vs.length ∧ |(vsum vs).z| ≤ 1.1 * vs.length := by
  induction vs with
  | nil => simp [vsum]
  | cons v vs ih =>
    obtain ⟨h1, h2, h3⟩ := ih fun w hw => h w (List.mem_cons_of_mem _ hw)
    have hv := h v List.mem_cons_self
    have k : ∀ {s t : ℝ}, |s| ≤ len v → |t| ≤ 1.1 * vs.length → |s + t| ≤ 1.1 * ((v :: vs).length : ℝ) := by
      intro s t hs ht
      have := abs_add_le s t
      rw [List.length_cons]; push_cast; linarith
    have e : vsum (v :: vs) = v + vsum vs := by unfold vsum; ext <;> simp
    rw [e]
    exact ⟨k (abs_x_le_len v) h1, k (abs_y_le_len v) h2, k (abs_z_le_len v) h3⟩

theorem vsum_append (l l' : List (V3 ℝ)) : vsum (l ++ l') = vsum l + vsum l' := by unfold vsum; ext <;> simp
theorem vsum_perm {l l' : List (V3 ℝ)} (h : l.Perm l') : vsum l = vsum l' := by
  unfold vsum; rw [(h.map V3.x).sum_eq, (h.map V3.y).sum_eq, (h.map V3.z).sum_eq]

/-- rounded sums in any order -/
theorem summed_flt {L : List (V3 (F64 B))} {s : V3 (F64 B)} (h : SummedInSomeOrder L s) :
    ∀ vs : List (V3 ℝ), L = vs.map V3.flt → (∀ v ∈ vs, IsF64V v) → (∀ v ∈ vs, len v ≤ 1.1) → (vs.length : ℝ) ≤ 1e7 →
      ∃ r : V3 ℝ, s = r.flt ∧ IsF64V r ∧ CloseV r (vsum vs) (1.2 * uu * (vs.length : ℝ) ^ 2) := by
  induction h with
  | nil =>
    intro vs hvs _ _ _
    have : vs = [] := by cases vs with | nil => rfl | cons a b => simp at hvs
    subst this
    refine ⟨0, ?_, ⟨isF64_zero, isF64_zero, isF64_zero⟩, ?_⟩
    · rw [F64.lit_zero]; rfl
    · refine ⟨?_, ?_, ?_⟩ <;> simp [vsum]
  | one v =>
    intro vs hvs hf _ _
    match vs, hvs with
    | [w], hvs =>
      simp at hvs
      have e : vsum [w] = w := by unfold vsum; ext <;> simp
      refine ⟨w, hvs, hf w (by simp), ?_⟩
      rw [e]
      have := uu_pos
      refine ⟨?_, ?_, ?_⟩ <;> rw [sub_self, abs_zero] <;> positivity
  | @add l l' s s' _ _ ih ih' =>
    intro vs hvs hf hl hN
    obtain ⟨v1, v2, e, e1, e2⟩ := List.append_eq_map_iff.mp hvs
    subst e
    rw [List.length_append] at hN ⊢
    push_cast at hN ⊢
    have n1 : (0 : ℝ) ≤ v1.length := Nat.cast_nonneg _
    have n2 : (0 : ℝ) ≤ v2.length := Nat.cast_nonneg _
    have hf1 := fun v hv => hf v (List.mem_append_left _ hv)
    have hf2 := fun v hv => hf v (List.mem_append_right _ hv)
    have hl1 := fun v hv => hl v (List.mem_append_left _ hv)
    have hl2 := fun v hv => hl v (List.mem_append_right _ hv)
    obtain ⟨r1, q1, fr1, c1⟩ := ih v1 e1.symm hf1 hl1 (by linarith)
    obtain ⟨r2, q2, fr2, c2⟩ := ih' v2 e2.symm hf2 hl2 (by linarith)
    have alt : ∀ l : List (V3 ℝ), (l.length : ℝ) = 0 ∨ (1 : ℝ) ≤ l.length := by
      intro l
      cases l with
      | nil => left; simp
      | cons a b => right; simp
    obtain ⟨a1, a2, a3⟩ := abs_vsum_le hl1
    obtain ⟨b1, b2, b3⟩ := abs_vsum_le hl2
    obtain ⟨x, hx, fx, bx⟩ := sum_step (B := B) fr1.1 fr2.1 c1.1 c2.1 a1 b1 (alt v1) (alt v2) hN
    obtain ⟨y, hy, fy, bY⟩ := sum_step (B := B) fr1.2.1 fr2.2.1 c1.2.1 c2.2.1 a2 b2 (alt v1) (alt v2) hN
    obtain ⟨z, hz, fz, bz⟩ := sum_step (B := B) fr1.2.2 fr2.2.2 c1.2.2 c2.2.2 a3 b3 (alt v1) (alt v2) hN
    refine ⟨⟨x, y, z⟩, ?_, ⟨fx, fy, fz⟩, ?_⟩
    · rw [q1, q2]; exact V3.ext hx hy hz
    · rw [vsum_append]; exact ⟨bx, bY, bz⟩
  | perm hp _ ih =>
    intro vs hvs hf hl hN
    subst hvs
    obtain ⟨ws, e, hw⟩ := (congrFun (congrFun (List.eq_map_comp_perm (V3.flt (B := B))) _) vs).mpr hp
    obtain ⟨r, h1, h2, h3⟩ := ih ws e (fun v hv => hf v (hw.mem_iff.mp hv)) (fun v hv => hl v (hw.mem_iff.mp hv)) (by rw [hw.length_eq]; exact hN)
    exact ⟨r, h1, h2, by rw [← vsum_perm hw, ← hw.length_eq]; exact h3⟩

variable (B)

/-- **C102** the mean position in rounded arithmetic, with the summands added in any order: for `N` n-vectors of length at most 1.1 whose exact sum has the
length `σ`, each component is within `5.7e-16 + 4.7e-16 N² / σ` of the exact mean direction, as long as `N² / σ` is below `1e15` -/
theorem C102_mean_any_order {vs : List (V3 ℝ)} (hf : ∀ v ∈ vs, IsF64V v) (hl : ∀ v ∈ vs, len v ≤ 1.1) (hN : (vs.length : ℝ) ≤ 1e7)
    {σ : ℝ} (hσ : σ = len (vsum vs)) (hb : (vs.length : ℝ) ^ 2 ≤ 1e15 * σ) (h0 : vs ≠ []) {s : V3 (F64 B)}
    (hs : SummedInSomeOrder (vs.map V3.flt) s) :
    ∃ w : V3 ℝ, unit s = w.flt ∧ IsF64V w ∧ CloseV w (dirOf (vsum vs)) (5.7e-16 + 4.7e-16 * (vs.length : ℝ) ^ 2 / σ) := by
  obtain ⟨r, rfl, fr, cr⟩ := summed_flt hs vs rfl hf hl hN
  have hu := uu_pos
  have n1 : (1 : ℝ) ≤ vs.length := by
    cases vs with
    | nil => exact absurd rfl h0
    | cons a b => simp
  have nn : (1 : ℝ) ≤ (vs.length : ℝ) ^ 2 := by nlinarith
  have hlen : len (vsum vs) ≤ 1e8 := by
    obtain ⟨a1, a2, a3⟩ := abs_vsum_le hl
    have h : len (vsum vs) ≤ 1.7321 * (1.1 * (vs.length : ℝ)) := len_le_of_comp a1 a2 a3
    have h9 := mul_le_mul_of_nonneg_left hN (show (0 : ℝ) ≤ 1.7321 * 1.1 by norm_num)
    rw [mul_assoc] at h9
    exact (h.trans h9).trans (by norm_num)
  have σ0 : 0 < σ := by
    by_contra hc
    push Not at hc
    have : (1e15 : ℝ) * σ ≤ 0 := mul_nonpos_of_nonneg_of_nonpos (by norm_num) hc
    linarith
  have hd : len (r - vsum vs) ≤ 1.7321 * (1.2 * uu * (vs.length : ℝ) ^ 2) := len_le_of_comp cr.1 cr.2.1 cr.2.2
  have hd2 : 1.7321 * (1.2 * uu * (vs.length : ℝ) ^ 2) ≤ 2.31e-16 * (vs.length : ℝ) ^ 2 := by
    rw [← mul_assoc]
    refine mul_le_mul_of_nonneg_right (by unfold uu; norm_num) (by positivity)
  have hd3 : len (r - vsum vs) ≤ 0.5 * σ := by norm_num at hb hd2 ⊢; linarith
  have σ1 : 1e-15 ≤ σ := by norm_num at hb ⊢; linarith
  have hr : |len r - σ| ≤ 0.5 * σ := by
    have t1 := len_add_le (r - vsum vs) (vsum vs)
    rw [show r - vsum vs + vsum vs = r by ext <;> simp] at t1
    have t2 := len_add_le r ((-1 : ℝ) • (r - vsum vs))
    rw [show r + (-1 : ℝ) • (r - vsum vs) = vsum vs by ext <;> simp, len_smul, abs_neg, abs_one, one_mul] at t2
    rw [abs_le]; constructor <;> linarith
  obtain ⟨r1, r2⟩ := abs_le.mp hr
  have rl : 1e-16 ≤ len r := by norm_num at r1 σ1 ⊢; linarith
  have r0 : r ≠ 0 := by rintro rfl; simp [len] at rl; norm_num at rl
  have b1 : (2 : ℝ) ^ (-500 : ℤ) ≤ len r := by
    refine le_trans ?_ rl
    refine le_trans (zpow_le_zpow_right₀ (by norm_num) (by norm_num : (-500 : ℤ) ≤ -60)) ?_
    norm_num
  have b2 : len r ≤ (2 : ℝ) ^ (500 : ℕ) := by
    refine le_trans (b := (2 : ℝ) ^ 40) ?_ (pow_le_pow_right₀ (by norm_num) (by norm_num))
    norm_num at hlen r2 ⊢; linarith
  obtain ⟨u, h1, fu, c1, -⟩ := unit_close (B := B) b1 b2
  have h2 := len_dirOf_sub_le σ0 hσ.le r0 (hd.trans hd2)
  refine ⟨u, h1, fu, (c1.trans (Spec.CloseV.of_len h2)).mono ?_⟩
  have h3 : 5.06 * uu ≤ 5.7e-16 := by unfold uu; norm_num
  have h4 : 2 * (2.31e-16 * (vs.length : ℝ) ^ 2) / σ ≤ 4.7e-16 * (vs.length : ℝ) ^ 2 / σ :=
    div_le_div_of_nonneg_right (by norm_num; linarith) σ0.le
  linarith

/-- **C102** `mean_horizontal_position` -/
theorem C102_mean_horizontal_position {vs : List (V3 ℝ)} (hf : ∀ v ∈ vs, IsF64V v) (hl : ∀ v ∈ vs, len v ≤ 1.1) (hN : (vs.length : ℝ) ≤ 1e7)
    {σ : ℝ} (hσ : σ = len (vsum vs)) (hb : (vs.length : ℝ) ^ 2 ≤ 1e15 * σ) (h0 : vs ≠ []) :
    ∃ w : V3 ℝ, mean_horizontal_position (vs.map (V3.flt (B := B))) = w.flt ∧ IsF64V w ∧
      CloseV w (dirOf (vsum vs)) (5.7e-16 + 4.7e-16 * (vs.length : ℝ) ^ 2 / σ) :=
  C102_mean_any_order B hf hl hN hσ hb h0 (summed_foldl B _)

/-- a concrete case: the poles of two axes -/
example : ∃ w : V3 ℝ, mean_horizontal_position ([⟨1, 0, 0⟩, ⟨0, 1, 0⟩].map (V3.flt (B := B))) = w.flt ∧ IsF64V w ∧
    CloseV w (dirOf ⟨1, 1, 0⟩) 2e-15 := by
  have e : vsum [(⟨1, 0, 0⟩ : V3 ℝ), ⟨0, 1, 0⟩] = ⟨1, 1, 0⟩ := by unfold vsum; ext <;> simp
  have s2 : (1.4 : ℝ) ≤ √2 := Real.le_sqrt_of_sq_le (by norm_num)
  have l2 : len (⟨1, 1, 0⟩ : V3 ℝ) = √2 := by unfold len; norm_num
  obtain ⟨w, h1, h2, h3⟩ := C102_mean_horizontal_position B (vs := [(⟨1, 0, 0⟩ : V3 ℝ), ⟨0, 1, 0⟩]) (σ := √2)
    (by simp [IsF64V, isF64_one, isF64_zero]) (by simp [len]; norm_num) (by norm_num) (by rw [e, l2]) (by norm_num at s2 ⊢; linarith) (by simp)
  refine ⟨w, h1, h2, ?_⟩
  rw [e] at h3
  refine h3.mono ?_
  have : 4.7e-16 * (([(⟨1, 0, 0⟩ : V3 ℝ), ⟨0, 1, 0⟩].length : ℕ) : ℝ) ^ 2 / √2 ≤ 1.35e-15 := by
    rw [div_le_iff₀ (by linarith)]
    norm_num at s2 ⊢; linarith
  norm_num at this ⊢; linarith

end Nv
