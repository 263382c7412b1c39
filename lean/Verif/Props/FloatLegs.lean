import Verif.Props.FloatChain
import Verif.Props.FloatDisplace

/-!
# C151: the life of a position object in binary64

A position object is converted and moved, in any order, each call starting from the rounded result of the one before (C117 is the case
without moves; C139 the corresponding property of the function `n_EA_E_and_p_AB_E2n_EB_E`).
The point described at the end is the exact sum of the start and of the legs, up to a fixed tiny fraction of the distances for every call:
the errors of the legs add up, and do not amplify each other.
-/

namespace Nv
open Spec F64
variable (B : Binary64)
variable {a f : ℝ} {R : M3 ℝ}

/-! ## Specification -/

/-- one call in the history of a position: a conversion, or adding the ECEF vector `v` to the ECEF vector of the position, or subtracting -/
inductive Spec.Call where
  | convert (c : Conv)
  | add (v : V3 ℝ)
  | sub (v : V3 ℝ)

/-- how far the call is meant to move the position -/
def Spec.Call.leg : Call → V3 ℝ
  | .convert _ => 0
  | .add v => v
  | .sub v => -v

/-- the position object after the call, in binary64: `x.to_nvector()` …, or `x.to_ecef_vector() + frame.ECEFvector(v)` -/
noncomputable def Spec.Call.run64 (a f : ℝ) (R : M3 ℝ) (nm : EllKey) : Call → Position (F64 B) → Except PyErr (Position (F64 B))
  | .convert c, x => .ok (c.call64 B x)
  | .add v, x => do
    let y ← x.to_ecef_vector.add ⟨v.flt, Frame64 B a f R nm⟩
    pure (.ecef y)
  | .sub v, x => do
    let y ← x.to_ecef_vector.sub ⟨v.flt, Frame64 B a f R nm⟩
    pure (.ecef y)

/-- where the position should be after the calls: the start plus all legs, in exact arithmetic -/
def Spec.reached (p : V3 ℝ) (calls : List Call) : V3 ℝ := calls.foldl (fun q c => q + c.leg) p

/-! ## The induction -/

theorem len_sub_self (p : V3 ℝ) : len (p - p) = 0 := by
  rw [show p - p = 0 by ext <;> simp, len_eq_zero.mpr rfl]

/-- errors add up -/
theorem drift {σ τ : Type} (M : V3 ℝ → σ → Prop) (call : σ → τ → Except PyErr σ) (leg : τ → V3 ℝ) {a S : ℝ} (ha : 0 < a) (hS : S ≤ 900 * a)
    (one : ∀ (p : V3 ℝ) (x : σ) (t : τ) (T : ℝ), a / 2 ≤ len p → len p ≤ T → a / 2 + 0.01 * a ≤ len (p + leg t) → len (p + leg t) ≤ T →
      T ≤ 901 * a → M p x → ∃ (x' : σ) (p' : V3 ℝ), call x t = .ok x' ∧ M p' x' ∧ len (p' - (p + leg t)) ≤ 3.3e-14 * (a + T))
    {p : V3 ℝ} {x : σ} (h : M p x) (ts : List τ)
    (hl : ∀ pre, pre <+: ts → 0.6 * a ≤ len (pre.foldl (fun q t => q + leg t) p) ∧ len (pre.foldl (fun q t => q + leg t) p) ≤ S)
    (hk : ts.length * (a + S) ≤ 10 ^ 12 * a) :
    ∃ (x' : σ) (p' : V3 ℝ), ts.foldlM call x = .ok x' ∧ M p' x' ∧
      len (p' - ts.foldl (fun q t => q + leg t) p) ≤ 3.5e-14 * ts.length * (a + S) := by
  induction ts using List.reverseRecOn with
  | nil =>
    refine ⟨x, p, rfl, h, ?_⟩
    rw [List.foldl_nil, len_sub_self]
    simp
  | append_singleton l t ih =>
    have hS0 : 0 ≤ a + S := by
      have := (hl [] (List.nil_prefix)).2
      have h2 := len_nonneg' (([] : List τ).foldl (fun q t => q + leg t) p)
      linarith
    rw [List.length_append, List.length_singleton] at hk
    push_cast at hk
    obtain ⟨x₁, p₁, h1, h2, h3⟩ := ih (fun pre hp => hl pre (hp.trans (List.prefix_append _ _))) (by linarith)
    have l1 := hl l (List.prefix_append _ _)
    have l2 := hl (l ++ [t]) List.prefix_rfl
    rw [List.foldl_append, List.foldl_cons, List.foldl_nil] at l2
    rw [List.foldl_append, List.foldl_cons, List.foldl_nil, List.length_append, List.length_singleton, List.foldlM_append, h1]
    push_cast
    generalize l.foldl (fun q t => q + leg t) p = q at *
    have b : len (p₁ - q) ≤ 0.035 * a := by
      refine h3.trans ?_
      have := mul_le_mul_of_nonneg_left (by linarith : (l.length : ℝ) * (a + S) ≤ 10 ^ 12 * a) (by norm_num : (0 : ℝ) ≤ 3.5e-14)
      norm_num at this ⊢
      linarith only [this]
    have t1 := len_add_le (p₁ - q) q
    rw [show p₁ - q + q = p₁ by ext <;> simp] at t1
    have t2 := len_add_le (q - p₁) p₁
    rw [show q - p₁ + p₁ = q by ext <;> simp, len_sub_comm] at t2
    have t3 := len_add_le (p₁ - q) (q + leg t)
    rw [show p₁ - q + (q + leg t) = p₁ + leg t by ext <;> simp <;> ring] at t3
    have t4 := len_add_le (q - p₁) (p₁ + leg t)
    rw [show q - p₁ + (p₁ + leg t) = q + leg t by ext <;> simp <;> ring, len_sub_comm] at t4
    have l1a := l1.1
    have l2a := l2.1
    norm_num at l1a l2a b
    obtain ⟨x₂, p₂, h4, h5, h6⟩ := one p₁ x₁ t (S + 0.035 * a) (by linarith only [l1a, t2, b, ha]) (by norm_num; linarith only [l1.2, t1, b])
      (by norm_num; linarith only [l2a, t4, b, ha]) (by norm_num; linarith only [l2.2, t3, b]) (by norm_num; linarith only [hS, ha]) h2
    refine ⟨x₂, p₂, ?_, h5, ?_⟩
    · simp only [List.foldlM_cons, List.foldlM_nil, bind, Except.bind, pure, Except.pure, h4]
    · have t5 := len_add_le (p₂ - (p₁ + leg t)) (p₁ - q)
      rw [show p₂ - (p₁ + leg t) + (p₁ - q) = p₂ - (q + leg t) by ext <;> simp <;> ring] at t5
      have s0 : 0 ≤ S := (len_nonneg' _).trans l1.2
      norm_num at h3 h6 ⊢
      linarith only [h3, h6, t5, ha, s0]

/-! ## One call -/

/-- the sum of two binary64 vectors -/
theorem add3_flt64 {P v : V3 ℝ} (fP : IsF64V P) (fv : IsF64V v) (h : len (P + v) ≤ 10 ^ 50) :
    ∃ Q : V3 ℝ, add3 (P.flt : V3 (F64 B)) v.flt = Q.flt ∧ IsF64V Q ∧ len (Q - (P + v)) ≤ 2e-16 * (len (P + v) + 1e-40) := by
  have key : ∀ {s t : ℝ}, IsF64 s → IsF64 t → |s + t| ≤ len (P + v) →
      ∃ r, (F64.fin s : F64 B) + F64.fin t = F64.fin r ∧ IsF64 r ∧ |r - (s + t)| ≤ uu * (len (P + v)) + 1 / 10 ^ 60 := by
    intro s t fs ft hp
    refine App.add (b := len (P + v)) (App.exact fs) (App.exact ft) hp (by simp) ?_
    norm_num at h ⊢
    linarith only [h]
  obtain ⟨X, hX, fX, bX⟩ := key fP.1 fv.1 (abs_x_le_len (P + v))
  obtain ⟨Y, hY, fY, bY⟩ := key fP.2.1 fv.2.1 (abs_y_le_len (P + v))
  obtain ⟨Z, hZ, fZ, bZ⟩ := key fP.2.2 fv.2.2 (abs_z_le_len (P + v))
  refine ⟨⟨X, Y, Z⟩, ?_, ⟨fX, fY, fZ⟩, (len_le_of_comp (v := (⟨X, Y, Z⟩ : V3 ℝ) - (P + v)) bX bY bZ).trans ?_⟩
  · change (⟨F64.fin P.x + F64.fin v.x, F64.fin P.y + F64.fin v.y, F64.fin P.z + F64.fin v.z⟩ : V3 (F64 B)) = _
    rw [hX, hY, hZ]
    rfl
  · have e1 : 1.7321 * uu ≤ 2e-16 := by unfold uu; norm_num
    have e2 := mul_le_mul_of_nonneg_right e1 (len_nonneg' (P + v))
    norm_num at e2 ⊢
    linarith only [e2]

/-- a move in binary64 -/
theorem move_flt (hR : IsAxes R) (fa : IsF64 a) (a1 : 1 ≤ a) (a2 : a ≤ 1e10) (ff : IsF64 f) (f0 : 0 ≤ f) (f1 : f ≤ 0.01) (nm nm' : EllKey)
    {p v : V3 ℝ} (fv : IsF64V v) {T : ℝ} (T1 : len p ≤ T) (T2 : len (p + v) ≤ T) (T3 : T ≤ 901 * a) {k : ℝ} (k1 : k ≤ 3.2e-14)
    {q : ECEFvector (F64 B)} {p' : V3 ℝ} (h : Means B a f R nm p' (.ecef q)) (hk : len (p' - p) ≤ k * (a + len p)) :
    ∃ (y : ECEFvector (F64 B)) (r : V3 ℝ), q.add ⟨v.flt, Frame64 B a f R nm'⟩ = .ok y ∧ Means B a f R nm r (.ecef y) ∧
      len (r - (p + v)) ≤ (k + 3e-16) * (a + T) := by
  obtain ⟨rfl, fp'⟩ := h
  have ha : 0 < a := by linarith
  have hl := len_nonneg' p
  have hs : 0 ≤ a + len p := by linarith
  have t1 := len_add_le (p' - p) (p + v)
  rw [show p' - p + (p + v) = p' + v by ext <;> simp <;> ring] at t1
  have k0 : 0 ≤ k := by
    by_contra hc
    have := mul_neg_of_neg_of_pos (not_le.mp hc) (by linarith : 0 < a + len p)
    have := len_nonneg' (p' - p)
    linarith
  have b1 : k * (a + len p) ≤ k * (a + T) := mul_le_mul_of_nonneg_left (by linarith) k0
  have b2 : k * (a + T) ≤ 3.2e-14 * (a + T) := mul_le_mul_of_nonneg_right k1 (by linarith)
  norm_num at b2
  obtain ⟨Q, hQ, fQ, bQ⟩ := add3_flt64 B fp' fv (by norm_num at a2 ⊢; linarith only [t1, T2, T3, b1, b2, hk, a2])
  refine ⟨⟨Q.flt, Frame64 B a f R nm⟩, Q, ?_, ⟨rfl, fQ⟩, ?_⟩
  · simp only [ECEFvector.add, check_self B hR fa a1 a2 ff f0 f1 nm nm', bind, Except.bind, pure, Except.pure, hQ]
  · have t2 := len_add_le (Q - (p' + v)) (p' - p)
    rw [show Q - (p' + v) + (p' - p) = Q - (p + v) by ext <;> simp <;> ring] at t2
    norm_num at bQ ⊢
    linarith only [t2, bQ, t1, T2, b1, b2, hk, a1, hl, T1]

/-- **C151** one call -/
theorem C151_call (hR : IsAxes R) (fa : IsF64 a) (a1 : 1 ≤ a) (a2 : a ≤ 1e10) (ff : IsF64 f) (f0 : 0 ≤ f) (f1 : f ≤ 0.01) (nm : EllKey)
    (c : Call) (fv : IsF64V c.leg) {p : V3 ℝ} {T : ℝ} (L1 : a / 2 ≤ len p) (T1 : len p ≤ T) (T2 : len (p + c.leg) ≤ T) (T3 : T ≤ 901 * a)
    {x : Position (F64 B)} (h : Means B a f R nm p x) :
    ∃ (x' : Position (F64 B)) (p' : V3 ℝ), c.run64 B a f R nm x = .ok x' ∧ Means B a f R nm p' x' ∧
      len (p' - (p + c.leg)) ≤ 3.3e-14 * (a + T) := by
  have ha : 0 < a := by linarith
  have hl := len_nonneg' p
  cases c with
  | convert c =>
    obtain ⟨p', h1, h2⟩ := C117_call B hR fa a1 a2 ff f0 f1 nm L1 (by linarith) h c
    refine ⟨_, p', rfl, h1, ?_⟩
    rw [show p + (Call.convert c).leg = p by simp only [Call.leg]; ext <;> simp]
    norm_num at h2 ⊢
    linarith only [h2, T1, ha, hl]
  | add v =>
    obtain ⟨p', h1, h2⟩ := C117_call B hR fa a1 a2 ff f0 f1 nm L1 (by linarith) h .to_ecef_vector
    obtain ⟨y, r, h3, h4, h5⟩ := move_flt B hR fa a1 a2 ff f0 f1 nm nm fv T1 T2 T3 le_rfl h1 h2
    refine ⟨.ecef y, r, ?_, h4, ?_⟩
    · rw [Call.leg] at h3
      simp only [Call.run64, h3, bind, Except.bind, pure, Except.pure]
    · simp only [Call.leg] at h5 ⊢
      norm_num at h5 ⊢
      linarith only [h5, T1, ha, hl]
  | sub v =>
    obtain ⟨p', h1, h2⟩ := C117_call B hR fa a1 a2 ff f0 f1 nm L1 (by linarith) h .to_ecef_vector
    obtain ⟨y, r, h3, h4, h5⟩ := move_flt B hR fa a1 a2 ff f0 f1 nm nm fv T1 T2 T3 le_rfl h1 h2
    refine ⟨.ecef y, r, ?_, h4, ?_⟩
    · rw [Call.leg] at h3
      have h6 : x.to_ecef_vector.sub ⟨v.flt, Frame64 B a f R nm⟩ = .ok y := by
        rw [← h3]
        simp only [Conv.call64] at h1
        rw [h1.1]
        rfl
      simp only [Call.run64, h6, bind, Except.bind, pure, Except.pure]
    · simp only [Call.leg] at h5 ⊢
      norm_num at h5 ⊢
      linarith only [h5, T1, ha, hl]

/-! ## The property -/

/-- **C151** any history of conversions and moves of a position object, in any order: no call raises, and the object at the end describes a
point within `3.5e-14 * (number of calls) * (a + S)` of the start plus the legs, where `S` is the greatest distance from the centre that
the exact positions reach (0.45 µm per call on the surface of the Earth) -/
theorem C151_history (hR : IsAxes R) (fa : IsF64 a) (a1 : 1 ≤ a) (a2 : a ≤ 1e10) (ff : IsF64 f) (f0 : 0 ≤ f) (f1 : f ≤ 0.01) (nm : EllKey)
    {p : V3 ℝ} {S : ℝ} (hS : S ≤ 900 * a) {x : Position (F64 B)} (h : Means B a f R nm p x) (calls : List Call)
    (hv : ∀ c ∈ calls, IsF64V c.leg)
    (hl : ∀ pre, pre <+: calls → 0.6 * a ≤ len (reached p pre) ∧ len (reached p pre) ≤ S)
    (hk : calls.length * (a + S) ≤ 10 ^ 12 * a) :
    ∃ (x' : Position (F64 B)) (p' : V3 ℝ), calls.foldlM (fun y c => c.run64 B a f R nm y) x = .ok x' ∧ Means B a f R nm p' x' ∧
      len (p' - reached p calls) ≤ 3.5e-14 * calls.length * (a + S) := by
  obtain ⟨cs, hcs⟩ : ∃ cs : List {c : Call // IsF64V c.leg}, cs.map Subtype.val = calls := ⟨calls.attach.map (fun c => ⟨c.1, hv c.1 c.2⟩), by simp⟩
  have e : ∀ (l : List {c : Call // IsF64V c.leg}) (q : V3 ℝ), l.foldl (fun q t => q + t.1.leg) q = reached q (l.map Subtype.val) := by
    intro l q
    rw [reached, List.foldl_map]
  obtain ⟨x', p', h1, h2, h3⟩ := drift (Means B a f R nm) (fun y (c : {c : Call // IsF64V c.leg}) => c.1.run64 B a f R nm y) (fun c => c.1.leg)
    (by linarith : 0 < a) hS (fun p x t T l1 l2 _ l4 l5 hm => C151_call B hR fa a1 a2 ff f0 f1 nm t.1 t.2 l1 l2 l4 l5 hm) h cs
    (by
      intro pre hp
      rw [e]
      apply hl
      rw [← hcs]
      exact hp.map _)
    (by rw [← hcs, List.length_map] at hk; exact hk)
  refine ⟨x', p', ?_, h2, ?_⟩
  · rw [← hcs, List.foldlM_map]
    exact h1
  · rw [e, hcs] at h3
    rwa [← List.length_map (f := Subtype.val) (as := cs), hcs] at h3

/-- **C151** an object that is back where it started: it describes a point this near the start -/
theorem C151_closed (hR : IsAxes R) (fa : IsF64 a) (a1 : 1 ≤ a) (a2 : a ≤ 1e10) (ff : IsF64 f) (f0 : 0 ≤ f) (f1 : f ≤ 0.01) (nm : EllKey)
    {p : V3 ℝ} {S : ℝ} (hS : S ≤ 900 * a) {x : Position (F64 B)} (h : Means B a f R nm p x) (calls : List Call)
    (hv : ∀ c ∈ calls, IsF64V c.leg)
    (hl : ∀ pre, pre <+: calls → 0.6 * a ≤ len (reached p pre) ∧ len (reached p pre) ≤ S)
    (hk : (calls.length + 1) * (a + S) ≤ 10 ^ 12 * a) (hc : reached p calls = p) :
    ∃ (y : Position (F64 B)) (q : V3 ℝ), calls.foldlM (fun y c => c.run64 B a f R nm y) x = .ok y ∧
      y.to_ecef_vector = ⟨q.flt, Frame64 B a f R nm⟩ ∧ IsF64V q ∧ len (q - p) ≤ 3.5e-14 * (calls.length + 1) * (a + S) := by
  have e : ∀ c : Conv, reached p (calls ++ [.convert c]) = reached p calls := by
    intro c
    simp only [reached, List.foldl_append, List.foldl_cons, List.foldl_nil, Call.leg]
    ext <;> simp
  obtain ⟨x', p', h1, h2, h3⟩ := C151_history B hR fa a1 a2 ff f0 f1 nm hS h (calls ++ [.convert .to_ecef_vector])
    (by
      intro c hc
      rw [List.mem_append, List.mem_singleton] at hc
      rcases hc with hc | rfl
      · exact hv c hc
      · exact ⟨isF64_zero, isF64_zero, isF64_zero⟩)
    (by
      intro pre hp
      rcases List.prefix_concat_iff.mp hp with rfl | hp
      · rw [e]; exact hl _ List.prefix_rfl
      · exact hl pre hp)
    (by rw [List.length_append, List.length_singleton]; push_cast; exact hk)
  rw [e, hc, List.length_append, List.length_singleton] at h3
  push_cast at h3
  rw [List.foldlM_append] at h1
  generalize hy : calls.foldlM (fun y c => c.run64 B a f R nm y) x = r at h1 ⊢
  cases r with
  | error e => simp [bind, Except.bind] at h1
  | ok y =>
    have h4 : (Position.ecef y.to_ecef_vector : Position (F64 B)) = x' := by
      simp only [bind, Except.bind, List.foldlM_cons, List.foldlM_nil, Call.run64, Conv.call64, pure, Except.pure] at h1
      injection h1
    rw [← h4] at h2
    exact ⟨y, p', rfl, h2.1, h2.2, h3⟩

/-- the hypotheses are met by two moves of 1 km and 3 km with a conversion between, from a point 10 m above the Earth -/
example : ∃ p : V3 ℝ, Geodetic 6378137 0.003 Re ⟨0, 0, 1⟩ (-10) p ∧
    (∀ c ∈ [Call.add ⟨0, 0, 1000⟩, .convert .to_geo_point, .sub ⟨0, 3000, 0⟩], IsF64V c.leg) ∧
    (∀ pre, pre <+: [Call.add ⟨0, 0, 1000⟩, .convert .to_geo_point, .sub ⟨0, 3000, 0⟩] →
      0.6 * 6378137 ≤ len (reached p pre) ∧ len (reached p pre) ≤ 2 * 6378137) := by
  have hn : UnitVec (⟨0, 0, 1⟩ : V3 ℝ) := by unfold UnitVec; simp
  have g := geodetic_posE (a := 6378137) (f := 0.003) (d := -10) (by norm_num) (by norm_num) isRotation_Re hn.ne
  have b1 := posE_len_ge (a := 6378137) (f := 0.003) (d := -10) (by norm_num) (by norm_num) (by norm_num) (unitVec_app isRotation_Re (dirOf_unit hn.ne))
  have b2 := posE_len_le (a := 6378137) (f := 0.003) (d := -10) (by norm_num) (by norm_num) (by norm_num) (unitVec_app isRotation_Re (dirOf_unit hn.ne))
  rw [← len_app isRotation_Re.transpose] at b1 b2
  generalize app (transp Re) (posE 6378137 0.003 (app Re (dirOf ⟨0, 0, 1⟩)) (-10)) = p at *
  have l1 : len (⟨0, 0, 1000⟩ : V3 ℝ) = 1000 := by
    unfold len; simp
  have l2 : len (-(⟨0, 3000, 0⟩ : V3 ℝ)) = 3000 := by
    unfold len; simp
  have step : ∀ (u v : V3 ℝ), len u - len v ≤ len (u + v) ∧ len (u + v) ≤ len u + len v := by
    intro u v
    refine ⟨?_, len_add_le u v⟩
    have := len_add_le (u + v) ((-1 : ℝ) • v)
    rw [show u + v + (-1 : ℝ) • v = u by ext <;> simp, len_smul] at this
    norm_num at this
    linarith
  have s1 := step p ⟨0, 0, 1000⟩
  have s2 := step (p + ⟨0, 0, 1000⟩) (-⟨0, 3000, 0⟩)
  have z1 : p + ⟨0, 0, 1000⟩ + 0 = p + ⟨0, 0, 1000⟩ := by ext <;> simp
  have b2' : |(-10 : ℝ)| = 10 := by norm_num
  rw [l1] at s1
  rw [l2] at s2
  rw [b2'] at b2
  norm_num at b1 b2
  refine ⟨p, g, ?_, ?_⟩
  · intro c hc
    simp only [List.mem_cons, List.not_mem_nil, or_false] at hc
    rcases hc with rfl | rfl | rfl
    · exact ⟨isF64_zero, isF64_zero, (by simpa using isF64_int (n := 1000) (by norm_num) : IsF64 1000)⟩
    · exact ⟨isF64_zero, isF64_zero, isF64_zero⟩
    · exact ⟨isF64_zero.neg, (by simpa using isF64_int (n := 3000) (by norm_num) : IsF64 3000).neg, isF64_zero.neg⟩
  · intro pre hp
    rw [← List.mem_inits] at hp
    simp only [List.inits, List.map_cons, List.map_nil, List.mem_cons, List.not_mem_nil, or_false] at hp
    rcases hp with rfl | rfl | rfl | rfl <;> simp only [reached, List.foldl, Call.leg, z1] <;> norm_num <;> constructor <;> linarith

end Nv
