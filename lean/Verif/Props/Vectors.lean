import Verif.Props.Frames
import Verif.Props.LatLon
import Verif.Lemmas.Position

/-!
# C40 - C43: arithmetic of positions, local frames, delta vectors
-/

namespace Nv
open Spec
open XR (fin)

/-! ## C40 -/

theorem check_frames_of_ne {F G : FrameE XR} (h : pyEq false (.frameE F) (.frameE G) = .ok false) :
    check_frames F G = .error .ValueError := by
  have h' : F.isEqualTo G = false := Except.ok.inj h
  unfold check_frames; rw [h']; rfl
theorem check_frames_of_eq {F G : FrameE XR} (h : pyEq false (.frameE F) (.frameE G) = .ok true) :
    check_frames F G = .ok () := by
  have h' : F.isEqualTo G = true := Except.ok.inj h
  unfold check_frames; rw [h']; rfl

/-- **C40** unequal frames: `+` and `-` raise ValueError -/
theorem C40_unequal_frames (s o : Nvector XR) (p q : ECEFvector XR)
    (h : pyEq false (.frameE s.frame) (.frameE o.frame) = .ok false)
    (h' : pyEq false (.frameE p.frame) (.frameE q.frame) = .ok false) :
    s.add o = .error .ValueError ∧ s.sub o = .error .ValueError ∧
      p.add q = .error .ValueError ∧ p.sub q = .error .ValueError := by
  unfold Nvector.add Nvector.sub ECEFvector.add ECEFvector.sub
  rw [check_frames_of_ne h, check_frames_of_ne h']
  exact ⟨rfl, rfl, rfl, rfl⟩

/-- **C40** equal frames: the operators act componentwise on vector and depth; the result has the frame of the left
operand -/
theorem C40_componentwise (n m p q : V3 ℝ) (z w : ℝ) (F G : FrameE XR) (c : ℝ)
    (h : pyEq false (.frameE F) (.frameE G) = .ok true) :
    (Nvector.real n z F).add (.real m w G) = .ok (.real (n + m) (z + w) F) ∧
    (Nvector.real n z F).sub (.real m w G) = .ok (.real (n - m) (z - w) F) ∧
    (Nvector.real n z F).neg = .real (-n) (-z) F ∧
    (Nvector.real n z F).mul (.num (fin c)) = .ok (.real (c • n) (c * z) F) ∧
    (c ≠ 0 → (Nvector.real n z F).div (.num (fin c)) = .ok (.real (c⁻¹ • n) (z / c) F)) ∧
    (ECEFvector.real p F).add (.real q G) = .ok (.real (p + q) F) ∧
    (ECEFvector.real p F).sub (.real q G) = .ok (.real (p - q) F) ∧
    (ECEFvector.real p F).neg = .real (-p) F := by
  have hc := check_frames_of_eq h
  refine ⟨?_, ?_, ?_, ?_, ?_, ?_, ?_, ?_⟩
  · simp only [Nvector.add, Nvector.real, hc, add3_fin, XR.add_fin]; rfl
  · simp only [Nvector.sub, Nvector.real, hc, sub3_fin, XR.sub_fin]; rfl
  · simp only [Nvector.neg, Nvector.real, neg3_fin, XR.neg_fin]
  · simp only [Nvector.mul, Nvector.real, scale3_fin, XR.mul_fin, mul_comm z c]
  · intro h0
    simp only [Nvector.div, Nvector.real, div3_fin n h0, XR.div_fin h0]
  · simp only [ECEFvector.add, ECEFvector.real, hc, add3_fin]; rfl
  · simp only [ECEFvector.sub, ECEFvector.real, hc, sub3_fin]; rfl
  · simp only [ECEFvector.neg, ECEFvector.real, neg3_fin]

theorem V3.add_comm' (v w : V3 ℝ) : v + w = w + v := by ext <;> simp [add_comm]
theorem V3.add_assoc' (u v w : V3 ℝ) : u + v + w = u + (v + w) := by ext <;> simp [add_assoc]

/-- **C40** the laws of vector arithmetic, for Nvectors and ECEFvectors in one frame -/
theorem C40_laws (l m n : V3 ℝ) (x y z : ℝ) (F : FrameE XR) (hF : F.NoNaN) :
    (Nvector.real l x F).add (.real m y F) = (Nvector.real m y F).add (.real l x F) ∧
    ((Nvector.real l x F).add (.real m y F) >>= fun s => s.add (.real n z F)) =
      ((Nvector.real m y F).add (.real n z F) >>= fun s => (Nvector.real l x F).add s) ∧
    (Nvector.real l x F).sub (.real m y F) = (Nvector.real l x F).add (Nvector.real m y F).neg ∧
    ((Nvector.real l x F).sub (.real m y F) >>= fun s => s.add (.real m y F)) = .ok (.real l x F) ∧
    (ECEFvector.real l F).add (.real m F) = (ECEFvector.real m F).add (.real l F) ∧
    ((ECEFvector.real l F).add (.real m F) >>= fun s => s.add (.real n F)) =
      ((ECEFvector.real m F).add (.real n F) >>= fun s => (ECEFvector.real l F).add s) ∧
    (ECEFvector.real l F).sub (.real m F) = (ECEFvector.real l F).add (ECEFvector.real m F).neg ∧
    ((ECEFvector.real l F).sub (.real m F) >>= fun s => s.add (.real m F)) = .ok (.real l F) := by
  have hc : check_frames F F = .ok () := check_frames_self hF.1 hF.2.1 hF.2.2
  have e1 : ∀ v w : V3 ℝ, v - w = v + -w := fun v w => by ext <;> simp [sub_eq_add_neg]
  have e2 : ∀ v w : V3 ℝ, v - w + w = v := fun v w => by ext <;> simp
  refine ⟨?_, ?_, ?_, ?_, ?_, ?_, ?_, ?_⟩ <;>
    simp only [Nvector.add, Nvector.sub, Nvector.neg, Nvector.real, ECEFvector.add, ECEFvector.sub, ECEFvector.neg,
      ECEFvector.real, hc, bind, Except.bind, pure, Except.pure, add3_fin, sub3_fin, neg3_fin, XR.add_fin, XR.sub_fin,
      XR.neg_fin, e2, e1, sub_add_cancel]
  · rw [V3.add_comm', add_comm]
  · rw [V3.add_assoc', add_assoc]
  · rw [sub_eq_add_neg]
  · rw [← e1, e2]
  · rw [V3.add_comm']
  · rw [V3.add_assoc']
  · rw [← e1, e2]

/-- **C40** an Nvector times or divided by an Nvector raises NotImplementedError -/
theorem C40_nvector_product (s o : Nvector XR) :
    s.mul (.nvec o) = .error .NotImplementedError ∧ s.div (.nvec o) = .error .NotImplementedError := ⟨rfl, rfl⟩

example : (FrameE.real 6378137 (1 / 298) (.int 18) Re).NoNaN := ⟨nofun, nofun, Re.fin_noNaN⟩
example : pyEq false (.frameE (.real 6378137 0 (.int 18) one)) (.frameE (.real 6371000 0 (.int 18) one)) = .ok false := by
  show Except.ok (FrameE.isEqualTo _ _) = _
  have : eqClose [(fin 6378137, fin 6371000)] = false := by
    rw [← Bool.not_eq_true, eqClose_fin, not_le, max_lt_iff]
    norm_num [abs_of_pos]
  unfold FrameE.isEqualTo FrameE.real
  rw [this]; rfl

/-! ## C41 -/

/-- `F` is a local frame (N, L or B) built at the position `pt` with real angles -/
def Spec.LocalAt (pt : Position XR) (F : LocalFrame XR) : Prop :=
  F = FrameN pt ∨ (∃ wa : ℝ, F = FrameL pt (fin wa)) ∨
    ∃ (yaw pitch roll : ℝ) (degrees : Bool), F = FrameB pt (fin yaw) (fin pitch) (fin roll) degrees

/-- the matrix of a local frame at a real position with nonzero n-vector is a rotation whose third column is down (N, L) -/
theorem localAt_R_EN {pt : Position XR} {n : V3 ℝ} {z a f : ℝ} {name : EllKey} {R : M3 ℝ}
    (hpt : pt.to_nvector = .real n z (.real a f name R)) (hn : n ≠ 0) (hR : IsRotation R) {F : LocalFrame XR}
    (hF : LocalAt pt F) :
    F.nvector.frame = .real a f name R ∧ ∃ M : M3 ℝ, F.R_EN = M.fin ∧ IsRotation M := by
  rcases hF with rfl | ⟨wa, rfl⟩ | ⟨yaw, pitch, roll, d, rfl⟩
  · obtain ⟨M, hM, hrot, -⟩ := C12_R_EN_rotation n hn R hR
    unfold FrameN; rw [hpt]
    exact ⟨rfl, M, hM, hrot⟩
  · obtain ⟨M, hM, hrot, -⟩ := C13_R_EL_rotation n hn wa R hR
    unfold FrameL; rw [hpt]
    exact ⟨rfl, M, hM, hrot⟩
  · obtain ⟨M, hM, hrot, -⟩ := C12_R_EN_rotation n hn R hR
    have key : ∀ y p r : ℝ, ∃ M' : M3 ℝ,
        (LocalFrame.B (Nvector.real n z (.real a f name R)) (fin y) (fin p) (fin r)).R_EN = M'.fin ∧ IsRotation M' := by
      intro y p r
      refine ⟨mmul M (mmul (mmul (RotZ y) (RotY p)) (RotX r)), ?_, hrot.mul (C15_zyx2R y p r).2⟩
      show mdot (n_E2R_EN n.fin R.fin) (zyx2R (fin y) (fin p) (fin r)) = _
      rw [hM, zyx2R_fin, mdot_fin]
    unfold FrameB; rw [hpt]
    cases d
    · exact ⟨rfl, key yaw pitch roll⟩
    · simp only [if_true, deg2rad_fin]
      exact ⟨rfl, key _ _ _⟩

/-- **C41** changing frame keeps the length and is undone by `to_ecef_vector` -/
theorem C41_isometry (pt : Position XR) (n : V3 ℝ) (z a f : ℝ) (name : EllKey) (R : M3 ℝ)
    (hpt : pt.to_nvector = .real n z (.real a f name R)) (hn : n ≠ 0) (hR : IsRotation R) (F : LocalFrame XR)
    (hF : LocalAt pt F) (p : V3 ℝ) :
    ∃ q : V3 ℝ, (ECEFvector.real p (.real a f name R)).change_frame F = .ok (.real q F) ∧
      length q.fin = length p.fin ∧ len q = len p ∧
      (Pvector.real q F).to_ecef_vector = .real p (.real a f name R) := by
  obtain ⟨hfr, M, hM, hrot⟩ := localAt_R_EN hpt hn hR hF
  have hc := check_frames_real a f name R
  refine ⟨app (transp M) p, ?_, ?_, len_app hrot.transpose p, ?_⟩
  · unfold ECEFvector.change_frame
    simp only [ECEFvector.real, hfr, hc, hM, tr_fin, mulVec_fin]; rfl
  · unfold length; rw [norm3_fin, norm3_fin, len_app hrot.transpose]
  · simp only [Pvector.to_ecef_vector, Pvector.real, hM, mulVec_fin, hrot.app_trans, hfr]; rfl

/-- **C41** and back: every local vector is the change of frame of its ECEF vector -/
theorem C41_onto (pt : Position XR) (n : V3 ℝ) (z a f : ℝ) (name : EllKey) (R : M3 ℝ)
    (hpt : pt.to_nvector = .real n z (.real a f name R)) (hn : n ≠ 0) (hR : IsRotation R) (F : LocalFrame XR)
    (hF : LocalAt pt F) (q : V3 ℝ) :
    (Pvector.real q F).to_ecef_vector.change_frame F = .ok (.real q F) := by
  obtain ⟨hfr, M, hM, hrot⟩ := localAt_R_EN hpt hn hR hF
  have hc := check_frames_real a f name R
  unfold ECEFvector.change_frame
  simp only [Pvector.to_ecef_vector, Pvector.real, hfr, hc, hM, tr_fin, mulVec_fin, hrot.trans_app]; rfl

theorem triple_app {M : M3 ℝ} (h : IsRotation M) (u v w : V3 ℝ) :
    dot (cross (app M u) (app M v)) (app M w) = dot (cross u v) w := by
  have hd := h.det
  have : dot (cross (app M u) (app M v)) (app M w) = Spec.det M * dot (cross u v) w := by
    simp only [dot, cross, app, Spec.det]; ring
  rw [this, hd, one_mul]

/-- **C41** angles between vectors are kept, too (scalar products), and so is orientation (the triple product) -/
theorem C41_dot (pt : Position XR) (n : V3 ℝ) (z a f : ℝ) (name : EllKey) (R : M3 ℝ)
    (hpt : pt.to_nvector = .real n z (.real a f name R)) (hn : n ≠ 0) (hR : IsRotation R) (F : LocalFrame XR)
    (hF : LocalAt pt F) (p p' p'' : V3 ℝ) :
    ∃ q q' q'' : V3 ℝ, (ECEFvector.real p (.real a f name R)).change_frame F = .ok (.real q F) ∧
      (ECEFvector.real p' (.real a f name R)).change_frame F = .ok (.real q' F) ∧
      (ECEFvector.real p'' (.real a f name R)).change_frame F = .ok (.real q'' F) ∧
      dot q q' = dot p p' ∧ dot (cross q q') q'' = dot (cross p p') p'' := by
  obtain ⟨hfr, M, hM, hrot⟩ := localAt_R_EN hpt hn hR hF
  have hc := check_frames_real a f name R
  refine ⟨app (transp M) p, app (transp M) p', app (transp M) p'', ?_, ?_, ?_, dot_app hrot.transpose p p',
    triple_app hrot.transpose _ _ _⟩ <;>
  · unfold ECEFvector.change_frame
    simp only [ECEFvector.real, hfr, hc, hM, tr_fin, mulVec_fin]; rfl

/-- **C41** a frame on another ellipsoid is refused -/
theorem C41_frame_check (p : ECEFvector XR) (F : LocalFrame XR)
    (h : pyEq false (.frameE p.frame) (.frameE F.nvector.frame) = .ok false) :
    p.change_frame F = .error .ValueError := by
  unfold ECEFvector.change_frame; rw [check_frames_of_ne h]; rfl

/-- real GeoPoints meet the hypothesis of the theorems above, with a unit n-vector, poles included -/
theorem geoPoint_to_nvector (lat lon z a f : ℝ) (name : EllKey) (R : M3 ℝ) (hR : IsRotation R) :
    ∃ n : V3 ℝ, (Position.geo (.real lat lon z (.real a f name R))).to_nvector = .real n z (.real a f name R) ∧ UnitVec n ∧
      app R n = geoNormal lat lon := by
  refine ⟨app (transp R) (geoNormal lat lon), ?_, unitVec_app hR.transpose (geoNormal_isUnit lat lon), hR.app_trans _⟩
  show (⟨lat_lon2n_E (fin lat) (fin lon) R.fin, fin z, _⟩ : Nvector XR) = _
  rw [lat_lon2n_E_fin]; rfl

example : LocalAt (.geo (.real 1 2 3 (.real 6378137 0 (.int 18) Re))) (FrameB (.geo (.real 1 2 3 (.real 6378137 0 (.int 18) Re)))
    (fin 10) (fin 20) (fin 30) true) := .inr (.inr ⟨10, 20, 30, true, rfl⟩)

/-! ## C42 -/

/-- **C42** length, azimuth and elevation are the spherical coordinates of the vector -/
theorem C42_spherical (p : V3 ℝ) (hp : p ≠ 0) :
    ∃ l az el : ℝ, length p.fin = fin l ∧ azimuth p.fin = fin az ∧ elevation p.fin = fin el ∧
      l = len p ∧ 0 < l ∧ -Real.pi ≤ az ∧ az ≤ Real.pi ∧ (p.x ≠ 0 ∨ p.y ≠ 0 → -Real.pi < az) ∧
      -(Real.pi / 2) ≤ el ∧ el ≤ Real.pi / 2 ∧
      p = ⟨l * (Real.cos el * Real.cos az), l * (Real.cos el * Real.sin az), l * Real.sin el⟩ := by
  have hl := len_pos hp
  have hsq := len_sq p
  have hz1 : -1 ≤ p.z / len p := by
    rw [le_div_iff₀ hl]
    have := abs_le_of_sq_le_sq' (a := p.z) (b := len p) (by nlinarith [sq_nonneg p.x, sq_nonneg p.y]) hl.le
    linarith [this.1]
  have hz2 : p.z / len p ≤ 1 := by
    rw [div_le_iff₀ hl]
    have := abs_le_of_sq_le_sq' (a := p.z) (b := len p) (by nlinarith [sq_nonneg p.x, sq_nonneg p.y]) hl.le
    linarith [this.2]
  refine ⟨len p, XR.atan2 p.y p.x, Real.arcsin (p.z / len p), ?_, ?_, ?_, rfl, hl, XR.neg_pi_le_atan2 _ _,
    XR.atan2_le_pi _ _, ?_, Real.neg_pi_div_two_le_arcsin _, Real.arcsin_le_pi_div_two _, ?_⟩
  · unfold length; rw [norm3_fin]
  · unfold azimuth; rw [V3.fin_x, V3.fin_y, XR.arctan2_fin]
  · unfold elevation length
    rw [norm3_fin, V3.fin_z, XR.div_fin hl.ne', XR.arcsin_fin hz1 hz2]
  · intro h
    apply XR.neg_pi_lt_atan2
    rintro ⟨h1, h2⟩
    rcases h with h | h
    · exact h h1
    · exact h h2
  · have hc : len p * Real.cos (Real.arcsin (p.z / len p)) = √(p.x ^ 2 + p.y ^ 2) := by
      rw [Real.cos_arcsin]
      have : len p = √(len p ^ 2) := (Real.sqrt_sq hl.le).symm
      rw [this, ← Real.sqrt_mul (sq_nonneg _), ← this]
      congr 1
      field_simp
      rw [hsq]; ring
    ext
    · show p.x = len p * (_ * _)
      rw [← mul_assoc, hc, XR.sqrt_mul_cos_atan2]
    · show p.y = len p * (_ * _)
      rw [← mul_assoc, hc, XR.sqrt_mul_sin_atan2]
    · show p.z = len p * _
      rw [Real.sin_arcsin hz1 hz2]; field_simp

/-- **C42** the azimuth and elevation of a vector given by its spherical coordinates -/
theorem C42_inverse (l az el : ℝ) (hl : 0 < l) (h1 : -Real.pi < az) (h2 : az ≤ Real.pi) (h3 : -(Real.pi / 2) < el)
    (h4 : el < Real.pi / 2) (p : V3 ℝ)
    (hp : p = ⟨l * (Real.cos el * Real.cos az), l * (Real.cos el * Real.sin az), l * Real.sin el⟩) :
    length p.fin = fin l ∧ azimuth p.fin = fin az ∧ elevation p.fin = fin el := by
  have hce : 0 < Real.cos el := Real.cos_pos_of_mem_Ioo ⟨h3, h4⟩
  have hlen : len p = l := by
    unfold len
    rw [hp]
    have : (l * (Real.cos el * Real.cos az)) ^ 2 + (l * (Real.cos el * Real.sin az)) ^ 2 + (l * Real.sin el) ^ 2 = l ^ 2 := by
      linear_combination l ^ 2 * Real.cos el ^ 2 * Real.sin_sq_add_cos_sq az + l ^ 2 * Real.sin_sq_add_cos_sq el
    rw [this, Real.sqrt_sq hl.le]
  refine ⟨?_, ?_, ?_⟩
  · unfold length; rw [norm3_fin, hlen]
  · unfold azimuth; rw [V3.fin_x, V3.fin_y, XR.arctan2_fin]
    rw [XR.atan2_eq (r := l * Real.cos el) (mul_pos hl hce) h1 h2]
    · rw [hp]; ring
    · rw [hp]; ring
  · have e : p.z / len p = Real.sin el := by rw [hlen, hp]; field_simp
    unfold elevation length
    rw [norm3_fin, V3.fin_z, XR.div_fin (by rw [hlen]; exact hl.ne'), e,
      XR.arcsin_fin (Real.neg_one_le_sin _) (Real.sin_le_one _), Real.arcsin_sin h3.le h4.le]

example : (⟨3, -4, 12⟩ : V3 ℝ) ≠ 0 := by intro h; have := congrArg V3.x h; norm_num at this

/-! ## C43 -/

/-- what the delta functions compute at real positions -/
theorem delta_fin {A B : Position XR} {n pA pB : V3 ℝ} {z a f : ℝ} {name : EllKey} {R : M3 ℝ}
    (hnA : A.to_nvector = .real n z (.real a f name R)) (hA : A.to_ecef_vector = .real pA (.real a f name R))
    (hB : B.to_ecef_vector = .real pB (.real a f name R)) :
    delta_E A B = .ok (.real (pB - pA) (.real a f name R)) ∧
    (∀ M : M3 ℝ, n_E2R_EN n.fin R.fin = M.fin → delta_N A B = .ok (.real (app (transp M) (pB - pA)) (FrameN A))) ∧
    (∀ (wa : ℝ) (M : M3 ℝ), n_E_and_wa2R_EL n.fin (fin wa) R.fin = M.fin →
      delta_L A B (fin wa) = .ok (.real (app (transp M) (pB - pA)) (FrameL A (fin wa)))) := by
  have hc := check_frames_real a f name R
  have hE : delta_E A B = .ok (.real (pB - pA) (.real a f name R)) := by
    unfold delta_E ECEFvector.sub
    rw [hA, hB]
    simp only [ECEFvector.real, hc, sub3_fin]; rfl
  refine ⟨hE, ?_, ?_⟩
  · intro M hM
    have hm : (FrameN A).R_EN = M.fin := by unfold FrameN; rw [hnA]; exact hM
    have hfr : (FrameN A).nvector.frame = .real a f name R := by unfold FrameN; rw [hnA]; rfl
    unfold delta_N
    rw [hE]
    show (ECEFvector.real (pB - pA) _).change_frame _ = _
    unfold ECEFvector.change_frame
    simp only [ECEFvector.real, hfr, hc, hm, tr_fin, mulVec_fin]; rfl
  · intro wa M hM
    have hm : (FrameL A (fin wa)).R_EN = M.fin := by unfold FrameL; rw [hnA]; exact hM
    have hfr : (FrameL A (fin wa)).nvector.frame = .real a f name R := by unfold FrameL; rw [hnA]; rfl
    unfold delta_L
    rw [hE]
    show (ECEFvector.real (pB - pA) _).change_frame _ = _
    unfold ECEFvector.change_frame
    simp only [ECEFvector.real, hfr, hc, hm, tr_fin, mulVec_fin]; rfl

/-- **C43** away from the poles `delta_L` is `delta_N` with the horizontal axes turned by the wander azimuth -/
theorem C43_turned (A B : Position XR) (n pA pB : V3 ℝ) (z a f : ℝ) (name : EllKey) (R : M3 ℝ) (hR : IsRotation R)
    (hnA : A.to_nvector = .real n z (.real a f name R)) (hA : A.to_ecef_vector = .real pA (.real a f name R))
    (hB : B.to_ecef_vector = .real pB (.real a f name R)) (hp : cross (northPole R) n ≠ 0) (wa : ℝ) :
    ∃ dN dL : V3 ℝ, delta_N A B = .ok (.real dN (FrameN A)) ∧ delta_L A B (fin wa) = .ok (.real dL (FrameL A (fin wa))) ∧
      dL.x = Real.cos wa * dN.x + Real.sin wa * dN.y ∧ dL.y = -Real.sin wa * dN.x + Real.cos wa * dN.y ∧
      dL.z = dN.z ∧ len dL = len dN ∧ len dN = len (pB - pA) ∧ (wa = 0 → dL = dN) := by
  obtain ⟨N, hN, hL⟩ := C13_R_EL_eq_R_EN_turned n wa R hR hp
  obtain ⟨M, hM, hrot, -⟩ := C12_R_EN_rotation n (by rintro rfl; apply hp; simp [cross]; rfl) R hR
  have hNM : N = M := M3.fin_inj.mp (hN ▸ hM)
  subst hNM
  obtain ⟨-, hdN, hdL⟩ := delta_fin hnA hA hB
  refine ⟨_, _, hdN N hN, hdL wa _ hL, ?_, ?_, ?_, ?_, len_app hrot.transpose _, ?_⟩
  · rw [trans_mmul, app_mmul]; simp [app, transp, RotZ, dot, col0, col1, col2]
  · rw [trans_mmul, app_mmul]; simp [app, transp, RotZ, dot, col0, col1, col2]
  · rw [trans_mmul, app_mmul]; simp [app, transp, RotZ, dot, col0, col1, col2]
  · rw [len_app (hrot.mul (isRotation_RotZ wa)).transpose, len_app hrot.transpose]
  · rintro rfl
    rw [trans_mmul, app_mmul]
    ext <;> simp [app, transp, RotZ, dot, col0, col1, col2]

/-- **C43** everywhere, poles included, the lengths and the down components agree for every wander azimuth -/
theorem C43_length_down (A B : Position XR) (n pA pB : V3 ℝ) (z a f : ℝ) (name : EllKey) (R : M3 ℝ) (hR : IsRotation R)
    (hn : n ≠ 0)
    (hnA : A.to_nvector = .real n z (.real a f name R)) (hA : A.to_ecef_vector = .real pA (.real a f name R))
    (hB : B.to_ecef_vector = .real pB (.real a f name R)) (wa : ℝ) :
    ∃ dN dL : V3 ℝ, delta_N A B = .ok (.real dN (FrameN A)) ∧ delta_L A B (fin wa) = .ok (.real dL (FrameL A (fin wa))) ∧
      dL.z = dN.z ∧ dN.z = -dot ((len n)⁻¹ • n) (pB - pA) ∧ len dL = len dN ∧ len dN = len (pB - pA) := by
  obtain ⟨M, hM, hrot, hc⟩ := C12_R_EN_rotation n hn R hR
  obtain ⟨M', hM', hrot', hc'⟩ := C13_R_EL_rotation n hn wa R hR
  obtain ⟨-, hdN, hdL⟩ := delta_fin hnA hA hB
  have e1 : (app (transp M) (pB - pA)).z = -dot ((len n)⁻¹ • n) (pB - pA) := by
    show dot (col2 M) _ = _
    rw [hc, dot_neg_left]
  have e2 : (app (transp M') (pB - pA)).z = -dot ((len n)⁻¹ • n) (pB - pA) := by
    show dot (col2 M') _ = _
    rw [hc', dot_neg_left]
  exact ⟨_, _, hdN M hM, hdL wa M' hM', by rw [e1, e2], e1,
    by rw [len_app hrot.transpose, len_app hrot'.transpose], len_app hrot.transpose _⟩

/-- **C43** `delta_N` is antisymmetric up to the frame: both deltas decompose the same vector -/
theorem C43_delta_E (A B C : Position XR) (pA pB pC : V3 ℝ) (a f : ℝ) (name : EllKey) (R : M3 ℝ)
    (hA : A.to_ecef_vector = .real pA (.real a f name R)) (hB : B.to_ecef_vector = .real pB (.real a f name R))
    (hC : C.to_ecef_vector = .real pC (.real a f name R)) :
    delta_E A B = (delta_E B A).map ECEFvector.neg ∧
    (delta_E A B >>= fun u => delta_E B C >>= fun v => u.add v) = delta_E A C := by
  have hc := check_frames_real a f name R
  unfold delta_E ECEFvector.sub ECEFvector.add ECEFvector.neg
  rw [hA, hB, hC]
  simp only [ECEFvector.real, hc, sub3_fin, bind, Except.bind, pure, Except.pure, Except.map, neg3_fin, add3_fin]
  refine ⟨?_, ?_⟩
  · congr 4; ext <;> simp
  · congr 4; ext <;> simp

/-- real GeoPoints meet the hypotheses of C43: their Nvector and ECEFvector are real -/
theorem geoPoint_to_ecef (lat lon z a f : ℝ) (hf : f < 1) (name : EllKey) (R : M3 ℝ) (hR : IsRotation R) :
    ∃ p : V3 ℝ, (Position.geo (.real lat lon z (.real a f name R))).to_ecef_vector = .real p (.real a f name R) := by
  obtain ⟨n, hn, hu, -⟩ := geoPoint_to_nvector lat lon z a f name R hR
  have hn' : (GeoPoint.real lat lon z (.real a f name R)).to_nvector = .real n z (.real a f name R) := hn
  refine ⟨app (transp R) (posE a f (app R (dirOf n)) z), ?_⟩
  show (GeoPoint.real lat lon z (.real a f name R)).to_nvector.to_ecef_vector = _
  rw [hn']
  show (⟨n_EB_E2p_EB_E n.fin (fin z) (fin a) (fin f) R.fin, _⟩ : ECEFvector XR) = _
  rw [n2p_fin hu.ne z a f hf hR]; rfl

end Nv
