import Verif.Lemmas.Objects
import Verif.Props.Rotations

/-!
# C37, C38, C39, C44: frames, equality, angles
-/

namespace Nv
open Spec
open XR (fin)

/-! ## C37 -/

/-- **C37** both parameters given: exactly these are used, whatever the name (which is not looked up); the axes strings
'e' and 'E' give the documented orientation and every other string raises KeyError -/
theorem C37_given (a f : XR) (name : EllKey) (axes : String) :
    (axes = "e" → ∃ F : FrameE XR, FrameE.new (some a) (some f) name axes = .ok F ∧ F.a = a ∧ F.f = f ∧ F.name = name ∧
      F.R_Ee = (⟨⟨0, 0, 1⟩, ⟨0, 1, 0⟩, ⟨-1, 0, 0⟩⟩ : M3 ℝ).fin) ∧
    (axes = "E" → ∃ F : FrameE XR, FrameE.new (some a) (some f) name axes = .ok F ∧ F.a = a ∧ F.f = f ∧ F.name = name ∧
      F.R_Ee = (⟨⟨1, 0, 0⟩, ⟨0, 1, 0⟩, ⟨0, 0, 1⟩⟩ : M3 ℝ).fin) ∧
    (axes ≠ "e" → axes ≠ "E" → FrameE.new (some a) (some f) name axes = .error .KeyError) := by
  refine ⟨?_, ?_, ?_⟩
  · rintro rfl
    refine ⟨⟨a, f, name, R_e⟩, rfl, rfl, rfl, rfl, ?_⟩
    rw [R_e_fin]; rfl
  · rintro rfl
    refine ⟨⟨a, f, name, R_E⟩, rfl, rfl, rfl, rfl, ?_⟩
    rw [R_E_fin]; rfl
  · intro h1 h2
    simp only [FrameE.new, E_rotation, if_neg h1, if_neg h2]
    rfl

/-- **C37** `a` or `f` (or both) omitted: both come from the table row of the name; unknown names and axes raise
KeyError -/
theorem C37_table (a f : Option XR) (h : a = none ∨ f = none) (name : EllKey) (axes : String) :
    (∀ e : Ellipsoid XR, get_ellipsoid name = .ok e → axes = "e" ∨ axes = "E" →
      ∃ F : FrameE XR, FrameE.new a f name axes = .ok F ∧ F.a = e.a ∧ F.f = e.f ∧ F.name = name ∧
        E_rotation axes = .ok F.R_Ee) ∧
    ((get_ellipsoid name : Except PyErr (Ellipsoid XR)) = .error .KeyError → FrameE.new a f name axes = .error .KeyError) ∧
    (axes ≠ "e" → axes ≠ "E" → FrameE.new a f name axes = .error .KeyError) := by
  have key : FrameE.new a f name axes = (do
      let e ← get_ellipsoid name
      let R ← E_rotation axes
      pure ⟨e.a, e.f, name, R⟩) := by
    rcases h with rfl | rfl
    · unfold FrameE.new; dsimp only [bind, Except.bind, pure, Except.pure]
    · cases a <;>
      (unfold FrameE.new; dsimp only [bind, Except.bind, pure, Except.pure])
  rw [key]
  refine ⟨?_, ?_, ?_⟩
  · intro e he hax
    rw [he]
    rcases hax with rfl | rfl
    · exact ⟨_, rfl, rfl, rfl, rfl, rfl⟩
    · exact ⟨_, rfl, rfl, rfl, rfl, rfl⟩
  · intro he; rw [he]; rfl
  · intro h1 h2
    have hE : (E_rotation axes : Except PyErr (M3 XR)) = .error .KeyError := by
      simp only [E_rotation, if_neg h1, if_neg h2]
    rw [hE]
    have : (get_ellipsoid name : Except PyErr (Ellipsoid XR)) = .error .KeyError ∨ ∃ e, get_ellipsoid name = .ok (α := Ellipsoid XR) e := by
      unfold get_ellipsoid
      cases name with
      | str s =>
        dsimp only
        cases ELLIPSOID_IX.lookup (normName s) with
        | none => exact .inl rfl
        | some i =>
          dsimp only
          cases (ELLIPSOID (α := XR)).lookup i with
          | none => exact .inl rfl
          | some e => exact .inr ⟨e, rfl⟩
      | int i =>
        dsimp only
        cases (ELLIPSOID (α := XR)).lookup i with
        | none => exact .inl rfl
        | some e => exact .inr ⟨e, rfl⟩
    rcases this with he | ⟨e, he⟩ <;> rw [he] <;> rfl

/-- **C37** (a defect) a semi-major axis given without a flattening is silently replaced by the one of the table, and a
flattening given without a semi-major axis likewise -/
theorem C37_lone_argument_counterexample (x : ℝ) :
    (∃ F : FrameE XR, FrameE.new (some (fin x)) none = .ok F ∧ F.a = fin 6378137 ∧ (x ≠ 6378137 → F.a ≠ fin x)) ∧
    (∃ F : FrameE XR, FrameE.new none (some (fin x)) = .ok F ∧ F.f = fin (1000000000 / 298257223563)) := by
  have hl : (get_ellipsoid (.str "WGS84") : Except PyErr (Ellipsoid XR)) =
      .ok ⟨lit 6378137.0, lit 1 / lit 298.257223563, "GRS80 / WGS84  (NAD83)"⟩ := by
    have h1 : normName "WGS84" = "wgs84" := by decide
    have h2 : ELLIPSOID_IX.lookup "wgs84" = some 18 := by decide
    unfold get_ellipsoid
    simp only [h1, h2]
    rfl
  refine ⟨?_, ?_⟩
  · obtain ⟨F, hF, ha, -, -, -⟩ := (C37_table (some (fin x)) none (.inr rfl) (.str "WGS84") "e").1 _ hl (.inl rfl)
    refine ⟨F, hF, by rw [ha]; norm_num [xr], fun hx hc => hx ?_⟩
    rw [ha] at hc
    simp only [xr] at hc
    have := XR.fin_inj.mp hc
    rw [← this]; norm_num
  · obtain ⟨F, hF, -, hf, -, -⟩ := (C37_table none (some (fin x)) (.inl rfl) (.str "WGS84") "e").1 _ hl (.inl rfl)
    refine ⟨F, hF, ?_⟩
    rw [hf]
    simp only [xr]
    rw [XR.div_fin (by norm_num)]
    norm_num

example : ∃ e : Ellipsoid XR, get_ellipsoid (.str "Bessel 1841") = .ok e :=
  (C35_name "Bessel 1841").1 ⟨("bessel1841", 4), by decide, rfl⟩

/-! ## C38 equality -/

/-- no number stored in the object, and no entry of its rotation matrix, is NaN -/
def FrameE.NoNaN (F : FrameE XR) : Prop := F.a ≠ .nan ∧ F.f ≠ .nan ∧ F.R_Ee.NoNaN
def Nvector.NoNaN (p : Nvector XR) : Prop := p.normal.NoNaN ∧ p.z ≠ .nan ∧ p.frame.NoNaN
def LocalFrame.NoNaN (F : LocalFrame XR) : Prop :=
  F.nvector.NoNaN ∧ F.R_EN.NoNaN ∧ (match F with | .B _ y p r => y ≠ .nan ∧ p ≠ .nan ∧ r ≠ .nan | _ => True)
def Obj.NoNaN : Obj XR → Prop
  | .geo p => (∃ x, p.latitude = fin x) ∧ (∃ x, p.longitude = fin x) ∧ p.z ≠ .nan ∧ p.frame.NoNaN
  | .nvec p => p.NoNaN
  | .ecef p => p.pvector.NoNaN ∧ p.frame.NoNaN
  | .pvec p => p.pvector.NoNaN ∧ p.frame.NoNaN
  | .frameE F => F.NoNaN
  | .frame F => F.NoNaN

theorem angleDiff_self (x : ℝ) : angleDiff (fin x) (fin x) = fin 0 := by
  unfold angleDiff
  rw [XR.sub_fin, sub_self]
  dsimp only
  rw [mod_two_pi]
  simp only [zero_div, Int.floor_zero, Int.cast_zero, mul_zero, sub_zero]
  rw [if_neg]
  simp only [xr, decide_eq_true_eq]
  exact not_lt.mpr Real.pi_pos.le

theorem FrameE.NoNaN.refl {F : FrameE XR} (h : F.NoNaN) : F.isEqualTo F = true := FrameE.isEqualTo_refl h.1 h.2.1 h.2.2
theorem Nvector.NoNaN.refl {p : Nvector XR} (h : p.NoNaN) : p.isEqualTo p = true := by
  unfold Nvector.isEqualTo
  rw [eqClose_pairs3_refl h.1, eqClose_one_refl h.2.1, h.2.2.refl]; rfl
theorem LocalFrame.NoNaN.refl {F : LocalFrame XR} (h : F.NoNaN) : F.isEqualTo F = .ok true := by
  obtain ⟨h1, h2, h3⟩ := h
  cases F with
  | N n => simp only [LocalFrame.isEqualTo]; rw [eqClose_pairs9_refl h2, h1.refl]; rfl
  | L n w => simp only [LocalFrame.isEqualTo]; rw [eqClose_pairs9_refl h2, h1.refl]; rfl
  | B n y p r =>
    simp only [LocalFrame.isEqualTo]
    have h1' : n.isEqualTo n = true := Nvector.NoNaN.refl h1
    rw [eqClose_pairs9_refl h2, h1', eqClose_one_refl h3.1, eqClose_one_refl h3.2.1, eqClose_one_refl h3.2.2]; rfl

/-- **C38** reflexive: an object equals itself, and a distinct copy holding the same numbers (none NaN) equals it -/
theorem C38_refl (x : Obj XR) : pyEq true x x = .ok true ∧ (x.NoNaN → pyEq false x x = .ok true) := by
  refine ⟨rfl, fun h => ?_⟩
  cases x with
  | geo p =>
    obtain ⟨⟨a, ha⟩, ⟨b, hb⟩, hz, hF⟩ := h
    have : p.isEqualTo p = true := by
      unfold GeoPoint.isEqualTo
      rw [ha, hb, angleDiff_self, angleDiff_self, eqClose_one_refl hz, hF.refl]
      have : eqClose [(fin 0, lit 0)] = true := by
        have h0 : (lit 0 : XR) = fin 0 := by simp [xr]
        rw [h0]; exact eqClose_one_refl nofun
      rw [this]; rfl
    simp only [pyEq, Bool.false_eq_true, if_false, Obj.isEqualTo, this]; rfl
  | nvec p => simp only [pyEq, Bool.false_eq_true, if_false, Obj.isEqualTo, Nvector.NoNaN.refl h]; rfl
  | ecef p =>
    simp only [pyEq, Bool.false_eq_true, if_false, Obj.isEqualTo, eqClose_pairs3_refl h.1, h.2.refl]; rfl
  | pvec p =>
    have : p.frame.eq p.frame = .ok true := by
      unfold LocalFrame.eq
      cases hp : p.frame <;> simp only [] <;> rw [← hp, h.2.refl] <;> rfl
    simp only [pyEq, Bool.false_eq_true, if_false, Obj.isEqualTo, eqClose_pairs3_refl h.1, this]; rfl
  | frameE F => simp only [pyEq, Bool.false_eq_true, if_false, Obj.isEqualTo, FrameE.NoNaN.refl h]; rfl
  | frame F =>
    cases F <;> simp only [pyEq, Bool.false_eq_true, if_false, Obj.isEqualTo] <;>
      rw [LocalFrame.NoNaN.refl h] <;> rfl

/-- one of the frames is a body frame and the other one is not -/
def Spec.MixesBody : LocalFrame XR → LocalFrame XR → Prop
  | .B _ _ _ _, .B _ _ _ _ => False
  | .B _ _ _ _, _ => True
  | _, .B _ _ _ _ => True
  | _, _ => False
/-- the same for the objects, or for the frames of two Pvectors -/
def Spec.MixesBodyObj : Obj XR → Obj XR → Prop
  | .frame F, .frame F' => MixesBody F F'
  | .pvec p, .pvec p' => MixesBody p.frame p'.frame
  | _, _ => False

theorem Nvector.isEqualTo_symm (p q : Nvector XR) : p.isEqualTo q = q.isEqualTo p := by
  unfold Nvector.isEqualTo
  rw [eqClose_pairs3_symm, eqClose_one_symm p.z, FrameE.isEqualTo_symm]

theorem angleDiff_symm_fin (x y : ℝ) : eqClose [(angleDiff (fin x) (fin y), lit 0)] = eqClose [(angleDiff (fin y) (fin x), lit 0)] := by
  suffices angleDiff (fin x) (fin y) = angleDiff (fin y) (fin x) by rw [this]
  unfold angleDiff
  simp only [XR.sub_fin, mod_two_pi]
  have hpi := Real.pi_pos
  have h2 : (0 : ℝ) < 2 * Real.pi := by positivity
  obtain ⟨d, hd⟩ : ∃ d, d = x - y := ⟨_, rfl⟩
  have hd' : y - x = -d := by rw [hd]; ring
  rw [hd', ← hd]
  obtain ⟨k, hk⟩ : ∃ k, k = ⌊d / (2 * Real.pi)⌋ := ⟨_, rfl⟩
  rw [← hk]
  have hk1 : (k : ℝ) * (2 * Real.pi) ≤ d := by
    have := Int.floor_le (d / (2 * Real.pi)); rw [← hk, le_div_iff₀ h2] at this; exact this
  have hk2 : d < ((k : ℝ) + 1) * (2 * Real.pi) := by
    have := Int.lt_floor_add_one (d / (2 * Real.pi)); rw [← hk, div_lt_iff₀ h2] at this; exact this
  have e2 : (lit 2 * PyFloat.pi : XR) = fin (2 * Real.pi) := by simp [xr]
  rw [e2]
  simp only [XR.pi_def, XR.lt_fin, decide_eq_true_eq, XR.sub_fin]
  by_cases h0 : d = k * (2 * Real.pi)
  · have hf : ⌊-d / (2 * Real.pi)⌋ = -k := by
      rw [h0, Int.floor_eq_iff]; push_cast
      constructor
      · apply le_of_eq; field_simp
      · rw [div_lt_iff₀ h2]; linarith
    rw [hf]
    have e1 : d - 2 * Real.pi * k = 0 := by rw [h0]; ring
    have e3 : -d - 2 * Real.pi * ((-k : ℤ) : ℝ) = 0 := by rw [h0]; push_cast; ring
    rw [e1, e3]
  · have hlt : (k : ℝ) * (2 * Real.pi) < d := lt_of_le_of_ne hk1 (Ne.symm h0)
    have hf : ⌊-d / (2 * Real.pi)⌋ = -k - 1 := by
      rw [Int.floor_eq_iff]; push_cast
      constructor
      · rw [le_div_iff₀ h2]; nlinarith
      · rw [div_lt_iff₀ h2]; nlinarith
    rw [hf]
    have e3 : -d - 2 * Real.pi * ((-k - 1 : ℤ) : ℝ) = 2 * Real.pi - (d - 2 * Real.pi * k) := by push_cast; ring
    rw [e3]
    generalize d - 2 * Real.pi * (k : ℝ) = δ
    split_ifs with h1 h3 h3
    · linarith
    · rfl
    · congr 1; ring
    · congr 1; linarith

theorem angleDiff_symm (x y : XR) : eqClose [(angleDiff x y, lit 0)] = eqClose [(angleDiff y x, lit 0)] := by
  rcases x with _ | _ | _ | x <;> rcases y with _ | _ | _ | y <;> first
    | rfl
    | exact angleDiff_symm_fin x y
    | (simp only [angleDiff]; rfl)

theorem LocalFrame.isEqualTo_symm {F F' : LocalFrame XR} (h : ¬ MixesBody F F') : F.isEqualTo F' = F'.isEqualTo F := by
  cases F <;> cases F' <;> first
    | exact absurd trivial h
    | (rename_i n y p r n' y' p' r'
       simp only [LocalFrame.isEqualTo]
       rw [eqClose_pairs9_symm, Nvector.isEqualTo_symm, eqClose_one_symm y, eqClose_one_symm p, eqClose_one_symm r])
    | (simp only [LocalFrame.isEqualTo]
       rw [eqClose_pairs9_symm, Nvector.isEqualTo_symm])

/-- **C38** (partly) symmetric for every pair of objects, NaN or not, except a body frame against another local frame -/
theorem C38_symm_partial (same : Bool) (x y : Obj XR) (h : ¬ MixesBodyObj x y) : pyEq same x y = pyEq same y x := by
  cases same with
  | true => rfl
  | false =>
    cases x with
    | geo p =>
      cases y <;> first
        | rfl
        | (rename_i q
           have : p.isEqualTo q = q.isEqualTo p := by
             unfold GeoPoint.isEqualTo
             rw [angleDiff_symm, angleDiff_symm p.longitude, eqClose_one_symm p.z, FrameE.isEqualTo_symm]
           simp only [pyEq, Bool.false_eq_true, if_false, Obj.isEqualTo, this])
        | (rename_i F; cases F <;> rfl)
    | nvec p =>
      cases y <;> first
        | rfl
        | (rename_i q
           simp only [pyEq, Bool.false_eq_true, if_false, Obj.isEqualTo, Nvector.isEqualTo_symm p q])
        | (rename_i F; cases F <;> rfl)
    | ecef p =>
      cases y <;> first
        | rfl
        | (rename_i q
           simp only [pyEq, Bool.false_eq_true, if_false, Obj.isEqualTo]
           rw [eqClose_pairs3_symm, FrameE.isEqualTo_symm])
        | (rename_i F; cases F <;> rfl)
    | pvec p =>
      cases y <;> first
        | rfl
        | (rename_i q
           have hf : p.frame.eq q.frame = q.frame.eq p.frame := by
             have h' : ¬ MixesBody p.frame q.frame := h
             have hs := LocalFrame.isEqualTo_symm h'
             unfold LocalFrame.eq
             cases hp : p.frame <;> cases hq : q.frame <;> simp only [] <;>
               rw [hp, hq] at hs <;> rw [hs]
           simp only [pyEq, Bool.false_eq_true, if_false, Obj.isEqualTo]
           rw [eqClose_pairs3_symm, hf])
        | (rename_i F; cases F <;> rfl)
    | frameE F =>
      cases y <;> first
        | rfl
        | (rename_i F'
           simp only [pyEq, Bool.false_eq_true, if_false, Obj.isEqualTo, FrameE.isEqualTo_symm F F'])
        | (rename_i F; cases F <;> rfl)
    | frame F =>
      cases y <;> first
        | (rename_i F'
           have h' : ¬ MixesBody F F' := h
           have hs := LocalFrame.isEqualTo_symm h'
           cases F <;> cases F' <;> simp only [pyEq, Bool.false_eq_true, if_false, Obj.isEqualTo] <;> rw [hs])
        | (cases F <;> rfl)

/-- **C38** `!=` is the negation of `==` -/
theorem C38_ne (same : Bool) (x y : Obj XR) :
    ∃ r : Bool, pyEq same x y = .ok r ∧ pyNe same x y = .ok (!r) := by
  suffices ∃ r : Bool, pyEq same x y = .ok r by
    obtain ⟨r, h⟩ := this
    exact ⟨r, h, by unfold pyNe; rw [h]; rfl⟩
  cases same with
  | true => exact ⟨true, rfl⟩
  | false =>
    cases x <;> cases y <;> first
      | exact ⟨_, rfl⟩
      | (rename_i F F'; cases F <;> cases F' <;> exact ⟨_, rfl⟩)
      | (rename_i F F'; cases F <;> exact ⟨_, rfl⟩)
      | (rename_i p q
         simp only [pyEq, Bool.false_eq_true, if_false, Obj.isEqualTo]
         split_ifs
         · unfold LocalFrame.eq
           cases p.frame <;> cases q.frame <;> exact ⟨_, rfl⟩
         · exact ⟨_, rfl⟩)

/-- the kind of an object; an ECEFvector is a Pvector -/
inductive Spec.Kind where | geoPoint | nvector | pvector | frameE | localFrame
def Spec.kind : Obj XR → Kind
  | .geo _ => .geoPoint
  | .nvec _ => .nvector
  | .ecef _ => .pvector
  | .pvec _ => .pvector
  | .frameE _ => .frameE
  | .frame _ => .localFrame

/-- **C38** objects of unrelated classes are unequal, without an exception -/
theorem C38_unrelated (x y : Obj XR) (h : kind x ≠ kind y) :
    pyEq false x y = .ok false ∧ pyNe false x y = .ok true := by
  cases x <;> cases y <;> first
    | exact absurd rfl h
    | exact ⟨rfl, rfl⟩
    | (rename_i F F'; cases F <;> exact ⟨rfl, rfl⟩)

/-- **C38** (a defect) equality is not symmetric: the NED frame at a surface point equals the unrotated body frame there,
but not the other way round -/
theorem C38_symm_counterexample (p : Nvector XR) (h : p.NoNaN) (hz : p.z = fin 0) (hR : (LocalFrame.N p).R_EN.NoNaN)
    (hB : (LocalFrame.N p).R_EN = (FrameB (.nvec p)).R_EN) :
    pyEq false (.frame (FrameN (.nvec p))) (.frame (FrameB (.nvec p))) = .ok true ∧
    pyEq false (.frame (FrameB (.nvec p))) (.frame (FrameN (.nvec p))) = .ok false := by
  have e : (⟨p.normal, lit 0, p.frame⟩ : Nvector XR) = p := by
    have : (lit 0 : XR) = fin 0 := by simp [xr]
    rw [this, ← hz]
  refine ⟨?_, rfl⟩
  simp only [pyEq, Bool.false_eq_true, if_false, FrameN, FrameB, Obj.isEqualTo, LocalFrame.isEqualTo, Position.to_nvector, e]
  simp only [FrameB, Bool.false_eq_true, if_false, Position.to_nvector] at hB
  rw [← hB, eqClose_pairs9_refl hR]
  simp only [LocalFrame.nvector]
  rw [h.refl]; rfl

/-- the unrotated body frame of a real position has the matrix of the NED frame: the hypotheses above are met -/
theorem C38_symm_counterexample_instance (n : V3 ℝ) (hn : n ≠ 0) (a f : ℝ) (name : EllKey) (R : M3 ℝ) (hR : IsRotation R) :
    pyEq false (.frame (FrameN (.nvec ⟨n.fin, fin 0, .real a f name R⟩)))
      (.frame (FrameB (.nvec ⟨n.fin, fin 0, .real a f name R⟩))) = .ok true ∧
    pyEq false (.frame (FrameB (.nvec ⟨n.fin, fin 0, .real a f name R⟩)))
      (.frame (FrameN (.nvec ⟨n.fin, fin 0, .real a f name R⟩))) = .ok false := by
  obtain ⟨M, hM, -, -⟩ := C12_R_EN_rotation n hn R hR
  have hN : (LocalFrame.N (⟨n.fin, fin 0, .real a f name R⟩ : Nvector XR)).R_EN = M.fin := hM
  have hz : zyx2R (lit 0) (lit 0) (lit 0) = (R_E : M3 XR) := by
    have h0 : (lit 0 : XR) = fin 0 := by simp [xr]
    rw [h0, zyx2R_fin, R_E_fin, M3.fin_inj]
    simp [mmul, RotZ, RotY, RotX, one, dot, col0, col1, col2]
  refine C38_symm_counterexample _ ⟨n.fin_noNaN, nofun, nofun, nofun, R.fin_noNaN⟩ rfl ?_ ?_
  · rw [hN]; exact M.fin_noNaN
  · rw [hN]
    show M.fin = mdot (n_E2R_EN n.fin R.fin) (zyx2R (lit 0) (lit 0) (lit 0))
    rw [hz, hM, (C58_mdot_one M).1]

/-- **C38** equality is not transitive (it allows a tolerance) -/
theorem C38_not_transitive :
    ∃ x y z : Obj XR, pyEq false x y = .ok true ∧ pyEq false y z = .ok true ∧ pyEq false x z = .ok false := by
  let F : FrameE XR := .real 6378137 0 (.int 18) one
  have hF : F.isEqualTo F = true := FrameE.isEqualTo_refl nofun nofun one.fin_noNaN
  have key : ∀ s t : ℝ, pyEq false (.geo ⟨fin 0, fin 0, fin s, F⟩) (.geo ⟨fin 0, fin 0, fin t, F⟩) =
      .ok (decide (|s - t| ≤ max (1 / 10 ^ 14) (1 / 10 ^ 12 * max |s| |t|))) := by
    intro s t
    have h0 : eqClose [(fin 0, lit 0)] = true := by
      have h0 : (lit 0 : XR) = fin 0 := by simp [xr]
      rw [h0]; exact eqClose_one_refl nofun
    have h1 : eqClose [(fin s, fin t)] = decide (|s - t| ≤ max (1 / 10 ^ 14) (1 / 10 ^ 12 * max |s| |t|)) := by
      rw [Bool.eq_iff_iff, eqClose_fin, decide_eq_true_eq]
    simp only [pyEq, Bool.false_eq_true, if_false, Obj.isEqualTo, GeoPoint.isEqualTo, angleDiff_self, h0, hF, h1,
      Bool.true_and, Bool.and_true]
    rfl
  refine ⟨.geo ⟨fin 0, fin 0, fin 0, F⟩, .geo ⟨fin 0, fin 0, fin (1 / 10 ^ 14), F⟩,
    .geo ⟨fin 0, fin 0, fin (2 / 10 ^ 14), F⟩, ?_, ?_, ?_⟩
  · rw [key]; simp only [Except.ok.injEq, decide_eq_true_eq]; exact le_max_of_le_left (by norm_num)
  · rw [key]; simp only [Except.ok.injEq, decide_eq_true_eq]; exact le_max_of_le_left (by norm_num [abs_of_pos])
  · rw [key]; simp only [Except.ok.injEq, decide_eq_false_iff_not, not_le]
    rw [max_lt_iff]; norm_num [abs_of_pos]

/-! ### what equality means, component by component -/

/-- two real numbers are equal up to the tolerance of `==`: 1e-14 absolute or 1e-12 relative to the larger -/
def Spec.Same (x y : ℝ) : Prop := |x - y| ≤ max (1 / 10 ^ 14) (1 / 10 ^ 12 * max |x| |y|)
/-- the same for vectors and matrices: every component -/
def Spec.Same3 (v w : V3 ℝ) : Prop := Same v.x w.x ∧ Same v.y w.y ∧ Same v.z w.z
def Spec.Same9 (M N : M3 ℝ) : Prop := Same3 M.r0 N.r0 ∧ Same3 M.r1 N.r1 ∧ Same3 M.r2 N.r2

theorem eqClose_pairs3_iff (v w : V3 ℝ) : eqClose (pairs3 v.fin w.fin) = true ↔ Same3 v w := by
  unfold eqClose allclose pairs3 Same3
  have h := fun x y => eqClose_fin x y
  unfold eqClose allclose at h
  simp only [List.all_cons, List.all_nil, Bool.and_true] at h
  simp only [List.all_cons, List.all_nil, Bool.and_true, Bool.and_eq_true]
  exact and_congr (h _ _) (and_congr (h _ _) (h _ _))

theorem eqClose_pairs9_iff (M N : M3 ℝ) : eqClose (pairs9 M.fin N.fin) = true ↔ Same9 M N := by
  unfold pairs9
  rw [eqClose_append, eqClose_append, Bool.and_eq_true, Bool.and_eq_true, and_assoc]
  exact and_congr (eqClose_pairs3_iff _ _) (and_congr (eqClose_pairs3_iff _ _) (eqClose_pairs3_iff _ _))

/-- **C38** what equality of earth frames means: the axis, the flattening and every entry of the rotation agree; the name
does not matter -/
theorem C38_frameE_iff (a f a' f' : ℝ) (name name' : EllKey) (R R' : M3 ℝ) :
    pyEq false (.frameE (.real a f name R)) (.frameE (.real a' f' name' R')) = .ok true ↔
      Same a a' ∧ Same f f' ∧ Same9 R R' := by
  show Except.ok ((FrameE.real a f name R).isEqualTo (.real a' f' name' R')) = .ok true ↔ _
  unfold FrameE.isEqualTo FrameE.real
  rw [Except.ok.injEq, Bool.and_eq_true, Bool.and_eq_true, eqClose_fin, eqClose_fin, eqClose_pairs9_iff, and_assoc]
  rfl

/-- **C38** what equality of Nvectors means: every component, the depth and the frames agree -/
theorem C38_nvector_iff (n n' : V3 ℝ) (z z' : ℝ) (F F' : FrameE XR) :
    pyEq false (.nvec (.real n z F)) (.nvec (.real n' z' F')) = .ok true ↔
      Same3 n n' ∧ Same z z' ∧ pyEq false (.frameE F) (.frameE F') = .ok true := by
  show Except.ok ((Nvector.real n z F).isEqualTo (.real n' z' F')) = .ok true ↔ _ ∧ _ ∧ Except.ok (F.isEqualTo F') = .ok true
  unfold Nvector.isEqualTo Nvector.real
  rw [Except.ok.injEq, Except.ok.injEq, Bool.and_eq_true, Bool.and_eq_true, eqClose_fin, eqClose_pairs3_iff, and_assoc]
  rfl

/-- **C38** what equality of ECEF vectors means: every component and the frames agree -/
theorem C38_ecef_iff (p p' : V3 ℝ) (F F' : FrameE XR) :
    pyEq false (.ecef (.real p F)) (.ecef (.real p' F')) = .ok true ↔
      Same3 p p' ∧ pyEq false (.frameE F) (.frameE F') = .ok true := by
  show Except.ok (eqClose (pairs3 p.fin p'.fin) && F.isEqualTo F') = .ok true ↔ _ ∧ Except.ok (F.isEqualTo F') = .ok true
  rw [Except.ok.injEq, Except.ok.injEq, Bool.and_eq_true, eqClose_pairs3_iff]

/-- **C38** what equality of Pvectors means: every component agrees and the local frames are equal -/
theorem C38_pvector_iff (p p' : V3 ℝ) (F F' : LocalFrame XR) :
    pyEq false (.pvec ⟨p.fin, F⟩) (.pvec ⟨p'.fin, F'⟩) = .ok true ↔ Same3 p p' ∧ F.eq F' = .ok true := by
  rw [← eqClose_pairs3_iff]
  show attrFalse (if eqClose (pairs3 p.fin p'.fin) = true then F.eq F' else .ok false) = .ok true ↔ _
  split_ifs with h
  · constructor
    · intro h'
      refine ⟨h, ?_⟩
      revert h'
      rcases F.eq F' with e | b
      · cases e <;> intro h' <;> simp [attrFalse] at h'
      · intro h'; exact h'
    · rintro ⟨-, h'⟩; rw [h']; rfl
  · simp [attrFalse, h]

/-- **C38** what equality of NED frames means: the rotations and the origins agree -/
theorem C38_frameN_iff (p p' : Nvector XR) (M M' : M3 ℝ) (hM : (LocalFrame.N p).R_EN = M.fin)
    (hM' : (LocalFrame.N p').R_EN = M'.fin) :
    pyEq false (.frame (.N p)) (.frame (.N p')) = .ok true ↔
      Same9 M M' ∧ pyEq false (.nvec p) (.nvec p') = .ok true := by
  show Except.ok (eqClose (pairs9 (LocalFrame.N p).R_EN (LocalFrame.N p').R_EN) && p.isEqualTo p') = .ok true ↔
    _ ∧ Except.ok (p.isEqualTo p') = .ok true
  rw [Except.ok.injEq, Except.ok.injEq, Bool.and_eq_true, hM, hM', eqClose_pairs9_iff]

/-- **C38** what equality of body frames means: the three angles, the rotations and the origins agree -/
theorem C38_frameB_iff (p p' : Nvector XR) (y t r y' t' r' : ℝ) (M M' : M3 ℝ)
    (hM : (LocalFrame.B p (fin y) (fin t) (fin r)).R_EN = M.fin)
    (hM' : (LocalFrame.B p' (fin y') (fin t') (fin r')).R_EN = M'.fin) :
    pyEq false (.frame (.B p (fin y) (fin t) (fin r))) (.frame (.B p' (fin y') (fin t') (fin r'))) = .ok true ↔
      Same y y' ∧ Same t t' ∧ Same r r' ∧ Same9 M M' ∧ pyEq false (.nvec p) (.nvec p') = .ok true := by
  show Except.ok (eqClose [(fin y, fin y')] && eqClose [(fin t, fin t')] && eqClose [(fin r, fin r')] &&
    eqClose (pairs9 (LocalFrame.B p (fin y) (fin t) (fin r)).R_EN (LocalFrame.B p' (fin y') (fin t') (fin r')).R_EN) &&
      p.isEqualTo p') = .ok true ↔ _ ∧ _ ∧ _ ∧ _ ∧ Except.ok (p.isEqualTo p') = .ok true
  rw [Except.ok.injEq, Except.ok.injEq, hM, hM']
  simp only [Bool.and_eq_true, eqClose_fin, eqClose_pairs9_iff, and_assoc]
  rfl

/-- one metre apart is different, one hundred-trillionth is not -/
example : ¬ Same 0 1 ∧ Same 0 (1 / 10 ^ 14) ∧ Same 1000 (1000 + 1 / 10 ^ 10) := by
  unfold Same
  refine ⟨?_, ?_, ?_⟩
  · norm_num
  · apply le_max_of_le_left; norm_num [abs_of_pos]
  · apply le_max_of_le_right; norm_num [abs_of_pos]

/-! ## C39 -/

theorem angleDiff_fin (x y : ℝ) : ∃ δ : ℝ, angleDiff (fin x) (fin y) = fin δ ∧ 0 ≤ δ ∧
    (∃ k : ℤ, |x - y - k * (2 * Real.pi)| = δ) ∧ ∀ k : ℤ, δ ≤ |x - y - k * (2 * Real.pi)| := by
  have hpi := Real.pi_pos
  have h2 : (0 : ℝ) < 2 * Real.pi := by positivity
  unfold angleDiff
  simp only [XR.sub_fin, mod_two_pi]
  obtain ⟨d, hd⟩ : ∃ d, d = x - y := ⟨_, rfl⟩
  rw [← hd]
  obtain ⟨m, hm⟩ : ∃ m, m = ⌊d / (2 * Real.pi)⌋ := ⟨_, rfl⟩
  rw [← hm]
  have hk1 : (m : ℝ) * (2 * Real.pi) ≤ d := by
    have := Int.floor_le (d / (2 * Real.pi)); rw [← hm, le_div_iff₀ h2] at this; exact this
  have hk2 : d < ((m : ℝ) + 1) * (2 * Real.pi) := by
    have := Int.lt_floor_add_one (d / (2 * Real.pi)); rw [← hm, div_lt_iff₀ h2] at this; exact this
  have e2 : (lit 2 * PyFloat.pi : XR) = fin (2 * Real.pi) := by simp [xr]
  rw [e2]
  simp only [XR.pi_def, XR.lt_fin, decide_eq_true_eq, XR.sub_fin]
  obtain ⟨e, he⟩ : ∃ e, e = d - 2 * Real.pi * m := ⟨_, rfl⟩
  rw [← he]
  have e0 : 0 ≤ e := by rw [he]; linarith
  have e1 : e < 2 * Real.pi := by rw [he]; linarith
  have hall : ∀ k : ℤ, e ≤ |d - k * (2 * Real.pi)| ∨ 2 * Real.pi - e ≤ |d - k * (2 * Real.pi)| := by
    intro k
    rcases le_or_gt k m with h | h
    · left
      have h' : (k : ℝ) ≤ m := by exact_mod_cast h
      refine le_trans ?_ (le_abs_self _)
      rw [he]; nlinarith
    · right
      have h' : (m : ℝ) + 1 ≤ k := by exact_mod_cast h
      refine le_trans ?_ (neg_le_abs _)
      rw [he]; nlinarith
  split_ifs with h
  · refine ⟨2 * Real.pi - e, rfl, by linarith, ⟨m + 1, ?_⟩, fun k => ?_⟩
    · push_cast; rw [abs_of_neg (by linarith)]; rw [he]; ring
    · rcases hall k with h' | h' <;> linarith
  · refine ⟨e, rfl, e0, ⟨m, ?_⟩, fun k => ?_⟩
    · rw [abs_of_nonneg (by linarith)]; rw [he]; ring
    · rcases hall k with h' | h' <;> linarith

theorem eqClose_angleDiff (x y : ℝ) :
    eqClose [(angleDiff (fin x) (fin y), lit 0)] = true ↔ ∃ k : ℤ, |x - y - k * (2 * Real.pi)| ≤ 1 / 10 ^ 14 := by
  obtain ⟨δ, hδ, h0, ⟨k, hk⟩, hmin⟩ := angleDiff_fin x y
  have hl : (lit 0 : XR) = fin 0 := by simp [xr]
  rw [hδ, hl, eqClose_fin]
  have : |δ - 0| ≤ max (1 / 10 ^ 14) (1 / 10 ^ 12 * max |δ| |0|) ↔ δ ≤ 1 / 10 ^ 14 := by
    rw [sub_zero, abs_zero, abs_of_nonneg h0, max_eq_left h0, le_max_iff]
    constructor
    · rintro (h | h)
      · exact h
      · have : δ ≤ 0 := by nlinarith
        linarith [show (0 : ℝ) ≤ 1 / 10 ^ 14 by norm_num]
    · exact .inl
  rw [this]
  constructor
  · intro h; exact ⟨k, by rw [hk]; exact h⟩
  · rintro ⟨k', h'⟩; exact (hmin k').trans h'

/-- **C39** two GeoPoints are equal exactly when their latitudes agree modulo whole turns within 1e-14, their longitudes
likewise, and their depths and frames are close -/
theorem C39_iff (lat lon z lat' lon' z' : ℝ) (F F' : FrameE XR) :
    pyEq false (.geo ⟨fin lat, fin lon, fin z, F⟩) (.geo ⟨fin lat', fin lon', fin z', F'⟩) = .ok true ↔
      (∃ k : ℤ, |lat - lat' - k * (2 * Real.pi)| ≤ 1 / 10 ^ 14) ∧
      (∃ k : ℤ, |lon - lon' - k * (2 * Real.pi)| ≤ 1 / 10 ^ 14) ∧
      |z - z'| ≤ max (1 / 10 ^ 14) (1 / 10 ^ 12 * max |z| |z'|) ∧
      pyEq false (.frameE F) (.frameE F') = .ok true := by
  have hF : pyEq false (.frameE F) (.frameE F') = .ok (F.isEqualTo F') := rfl
  have hG : pyEq false (.geo ⟨fin lat, fin lon, fin z, F⟩) (.geo ⟨fin lat', fin lon', fin z', F'⟩) =
    .ok (GeoPoint.isEqualTo ⟨fin lat, fin lon, fin z, F⟩ ⟨fin lat', fin lon', fin z', F'⟩) := rfl
  rw [hF, hG]
  simp only [Except.ok.injEq, GeoPoint.isEqualTo, Bool.and_eq_true, eqClose_angleDiff, eqClose_fin, and_assoc]

/-- **C39** whole turns do not matter -/
theorem C39_turns (lat lon z a f : ℝ) (name : EllKey) (R : M3 ℝ) (j k : ℤ) :
    pyEq false (.geo ⟨fin (lat + j * (2 * Real.pi)), fin (lon + k * (2 * Real.pi)), fin z, .real a f name R⟩)
      (.geo ⟨fin lat, fin lon, fin z, .real a f name R⟩) = .ok true := by
  rw [C39_iff]
  refine ⟨⟨j, ?_⟩, ⟨k, ?_⟩, ?_, ?_⟩
  · have : lat + j * (2 * Real.pi) - lat - j * (2 * Real.pi) = 0 := by ring
    rw [this]; norm_num
  · have : lon + k * (2 * Real.pi) - lon - k * (2 * Real.pi) = 0 := by ring
    rw [this]; norm_num
  · rw [sub_self, abs_zero]; exact le_max_of_le_left (by norm_num)
  · exact (C38_refl (.frameE (.real a f name R))).2 ⟨nofun, nofun, R.fin_noNaN⟩

/-! ## C44 -/

/-- **C44** the reduced angle is in [-pi, pi) and differs from the argument by a whole number of turns; it is the only such
number -/
theorem C44_base_angle (x : ℝ) :
    ∃ y : ℝ, base_angle (fin x) = fin y ∧ -Real.pi ≤ y ∧ y < Real.pi ∧ (∃ k : ℤ, x = y + k * (2 * Real.pi)) ∧
      ∀ y' : ℝ, -Real.pi ≤ y' → y' < Real.pi → (∃ k : ℤ, x = y' + k * (2 * Real.pi)) → y' = y := by
  have hpi := Real.pi_pos
  have h2 : (0 : ℝ) < 2 * Real.pi := by positivity
  unfold base_angle
  simp only [XR.pi_def, XR.add_fin]
  rw [← XR.pi_def, mod_two_pi, XR.pi_def, XR.sub_fin]
  obtain ⟨m, hm⟩ : ∃ m, m = ⌊(x + Real.pi) / (2 * Real.pi)⌋ := ⟨_, rfl⟩
  rw [← hm]
  have hk1 : (m : ℝ) * (2 * Real.pi) ≤ x + Real.pi := by
    have := Int.floor_le ((x + Real.pi) / (2 * Real.pi)); rw [← hm, le_div_iff₀ h2] at this; exact this
  have hk2 : x + Real.pi < ((m : ℝ) + 1) * (2 * Real.pi) := by
    have := Int.lt_floor_add_one ((x + Real.pi) / (2 * Real.pi)); rw [← hm, div_lt_iff₀ h2] at this; exact this
  refine ⟨_, rfl, by linarith, by linarith, ⟨m, by ring⟩, ?_⟩
  rintro y' h1 h3 ⟨k, hk⟩
  have hmk : k = m := by
    have a1 : (k : ℝ) < m + 1 := by nlinarith
    have a2 : (m : ℝ) < k + 1 := by nlinarith
    have b1 : k < m + 1 := by exact_mod_cast a1
    have b2 : m < k + 1 := by exact_mod_cast a2
    omega
  rw [← hmk]; linarith

end Nv
