import Verif.Props.Vectors
import Verif.Props.Turns

/-!
# C152: yaw, pitch and roll of a body frame are heading, nose-up angle and bank

`FrameB(point, yaw, pitch, roll)` is the frame of a vehicle: x forward, y to starboard, z down through its floor (objects.py:1487-1513).
`FrameN(point)` has the axes north, east, down.  A vector is seen from the other frame by `to_ecef_vector().change_frame(frame)`.
-/

namespace Nv
open Spec
open XR (fin)

/-! ## Specification -/

/-- the angle that a parameter stands for, in radians: with `degrees=True` it is given in degrees -/
noncomputable def Spec.radians (degrees : Bool) (x : ℝ) : ℝ := if degrees then x * (Real.pi / 180) else x

/-- the vector with components `q` in the frame of the vehicle, seen in the North-East-Down frame of the same position -/
noncomputable def Spec.seenFromNorth (pt : Position XR) (yaw pitch roll : ℝ) (degrees : Bool) (q : V3 ℝ) : Except PyErr (Pvector XR) :=
  (Pvector.real q (FrameB pt (fin yaw) (fin pitch) (fin roll) degrees)).to_ecef_vector.change_frame (FrameN pt)

/-- the vector from A to B seen from the vehicle at A -/
noncomputable def Spec.seenFromVehicle (A B : Position XR) (yaw pitch roll : ℝ) (degrees : Bool) : Except PyErr (Pvector XR) :=
  delta_E A B >>= fun d => d.change_frame (FrameB A (fin yaw) (fin pitch) (fin roll) degrees)

/-! ## Lemmas -/

/-- the rotation from the vehicle to North-East-Down -/
noncomputable def R_NB (yaw pitch roll : ℝ) : M3 ℝ := mmul (mmul (RotZ yaw) (RotY pitch)) (RotX roll)

theorem isRotation_R_NB (y p r : ℝ) : IsRotation (R_NB y p r) := (C15_zyx2R y p r).2

theorem frameB_R_EN {pt : Position XR} {n : V3 ℝ} {z a f : ℝ} {name : EllKey} {R M : M3 ℝ}
    (hpt : pt.to_nvector = .real n z (.real a f name R)) (hM : n_E2R_EN n.fin R.fin = M.fin) (yaw pitch roll : ℝ) (degrees : Bool) :
    (FrameB pt (fin yaw) (fin pitch) (fin roll) degrees).R_EN =
      (mmul M (R_NB (radians degrees yaw) (radians degrees pitch) (radians degrees roll))).fin ∧
    (FrameB pt (fin yaw) (fin pitch) (fin roll) degrees).nvector.frame = .real a f name R := by
  unfold FrameB
  rw [hpt]
  cases degrees
  · refine ⟨?_, rfl⟩
    show mdot (n_E2R_EN n.fin R.fin) (zyx2R (fin yaw) (fin pitch) (fin roll)) = _
    rw [hM, zyx2R_fin, mdot_fin]
    rfl
  · simp only [if_true, deg2rad_fin]
    refine ⟨?_, rfl⟩
    show mdot (n_E2R_EN n.fin R.fin) (zyx2R (fin _) (fin _) (fin _)) = _
    rw [hM, zyx2R_fin, mdot_fin]
    rfl

theorem azimuth_of {r θ z : ℝ} (hr : 0 < r) {p : V3 ℝ} (hp : p = ⟨r * Real.cos θ, r * Real.sin θ, z⟩) :
    ∃ az : ℝ, azimuth p.fin = fin az ∧ SameAngle θ az ∧ (-Real.pi < θ → θ ≤ Real.pi → az = θ) := by
  refine ⟨XR.atan2 p.y p.x, by unfold azimuth; rw [V3.fin_x, V3.fin_y, XR.arctan2_fin], ?_, ?_⟩
  · have hs : √(p.x ^ 2 + p.y ^ 2) = r := by
      rw [hp]
      have : (r * Real.cos θ) ^ 2 + (r * Real.sin θ) ^ 2 = r ^ 2 := by linear_combination r ^ 2 * Real.sin_sq_add_cos_sq θ
      dsimp only
      rw [this, Real.sqrt_sq hr.le]
    have h1 := XR.sqrt_mul_cos_atan2 p.y p.x
    have h2 := XR.sqrt_mul_sin_atan2 p.y p.x
    rw [hs] at h1 h2
    apply sameAngle_of
    · apply mul_left_cancel₀ hr.ne'
      rw [h2, hp]
    · apply mul_left_cancel₀ hr.ne'
      rw [h1, hp]
  · intro h1 h2
    exact XR.atan2_eq hr h1 h2 (by rw [hp]) (by rw [hp])

theorem elevation_of {l t : ℝ} (hl : 0 < l) (h1 : -(Real.pi / 2) ≤ t) (h2 : t ≤ Real.pi / 2) {p : V3 ℝ} (hp : len p = l)
    (hz : p.z = l * Real.sin t) : elevation p.fin = fin t := by
  have e : p.z / len p = Real.sin t := by rw [hp, hz]; field_simp
  unfold elevation length
  rw [norm3_fin, V3.fin_z, XR.div_fin (by rw [hp]; exact hl.ne'), e,
    XR.arcsin_fin (Real.neg_one_le_sin _) (Real.sin_le_one _), Real.arcsin_sin h1 h2]

/-! ## C152 -/

section
variable (pt : Position XR) (n : V3 ℝ) (z a f : ℝ) (name : EllKey) (R : M3 ℝ) (hpt : pt.to_nvector = .real n z (.real a f name R))
  (hn : n ≠ 0) (hR : IsRotation R)
include hpt hn hR

/-- **C152** a vector of the vehicle seen in North-East-Down: it is rolled about the x-axis, then pitched about the y-axis, then turned by
the yaw about the z-axis (right-hand rotations) -/
theorem C152_seen_from_north (yaw pitch roll : ℝ) (degrees : Bool) (q : V3 ℝ) :
    ∃ w : V3 ℝ, seenFromNorth pt yaw pitch roll degrees q = .ok (.real w (FrameN pt)) ∧ len w = len q ∧
      w = app (RotZ (radians degrees yaw)) (app (RotY (radians degrees pitch)) (app (RotX (radians degrees roll)) q)) := by
  obtain ⟨M, hM, hrot, -⟩ := C12_R_EN_rotation n hn R hR
  obtain ⟨h1, h2⟩ := frameB_R_EN hpt hM yaw pitch roll degrees
  have hN : (FrameN pt).R_EN = M.fin := by unfold FrameN; rw [hpt]; exact hM
  have hfr : (FrameN pt).nvector.frame = .real a f name R := by unfold FrameN; rw [hpt]; rfl
  have hc := check_frames_real a f name R
  refine ⟨app (R_NB (radians degrees yaw) (radians degrees pitch) (radians degrees roll)) q, ?_, len_app (isRotation_R_NB _ _ _) q, ?_⟩
  · unfold seenFromNorth ECEFvector.change_frame
    simp only [Pvector.to_ecef_vector, Pvector.real, h1, h2, hfr, hc, hN, tr_fin, mulVec_fin, app_mmul, hrot.trans_app]; rfl
  · unfold R_NB
    rw [app_mmul, app_mmul]

/-- **C152** the nose: the yaw is its azimuth and the pitch its angle above the horizon -/
theorem C152_nose (yaw pitch roll l : ℝ) (degrees : Bool) (hl : 0 < l) (h1 : -(Real.pi / 2) < radians degrees pitch)
    (h2 : radians degrees pitch < Real.pi / 2) :
    ∃ (w : V3 ℝ) (az : ℝ), seenFromNorth pt yaw pitch roll degrees ⟨l, 0, 0⟩ = .ok (.real w (FrameN pt)) ∧
      length w.fin = fin l ∧ azimuth w.fin = fin az ∧ SameAngle (radians degrees yaw) az ∧
      (-Real.pi < radians degrees yaw → radians degrees yaw ≤ Real.pi → az = radians degrees yaw) ∧
      elevation w.fin = fin (-radians degrees pitch) := by
  obtain ⟨w, hw, hlen, e⟩ := C152_seen_from_north pt n z a f name R hpt hn hR yaw pitch roll degrees ⟨l, 0, 0⟩
  have hl' : len (⟨l, 0, 0⟩ : V3 ℝ) = l := by
    unfold len; simp [Real.sqrt_sq hl.le]
  rw [hl'] at hlen
  generalize radians degrees yaw = ψ at *
  generalize radians degrees pitch = θ at *
  have hc : 0 < Real.cos θ := Real.cos_pos_of_mem_Ioo ⟨h1, h2⟩
  have e' : w = ⟨(l * Real.cos θ) * Real.cos ψ, (l * Real.cos θ) * Real.sin ψ, l * Real.sin (-θ)⟩ := by
    rw [e]; ext <;> simp [app, RotX, RotY, RotZ, dot] <;> ring
  obtain ⟨az, h3, h4, h5⟩ := azimuth_of (mul_pos hl hc) e'
  exact ⟨w, az, hw, by unfold length; rw [norm3_fin, hlen], h3, h4, h5, elevation_of hl (by linarith) (by linarith) hlen (by rw [e'])⟩

/-- **C152** the starboard side: a positive roll lowers it.  In level flight the roll is its angle below the horizon and it points a quarter
turn clockwise of the nose -/
theorem C152_starboard (yaw pitch roll l : ℝ) (degrees : Bool) (hl : 0 < l) :
    ∃ w : V3 ℝ, seenFromNorth pt yaw pitch roll degrees ⟨0, l, 0⟩ = .ok (.real w (FrameN pt)) ∧ length w.fin = fin l ∧
      elevation w.fin = fin (Real.arcsin (Real.cos (radians degrees pitch) * Real.sin (radians degrees roll))) ∧
      (pitch = 0 → -(Real.pi / 2) < radians degrees roll → radians degrees roll < Real.pi / 2 →
        elevation w.fin = fin (radians degrees roll) ∧
        ∃ az : ℝ, azimuth w.fin = fin az ∧ SameAngle (radians degrees yaw + Real.pi / 2) az) := by
  obtain ⟨w, hw, hlen, e⟩ := C152_seen_from_north pt n z a f name R hpt hn hR yaw pitch roll degrees ⟨0, l, 0⟩
  have hl' : len (⟨0, l, 0⟩ : V3 ℝ) = l := by
    unfold len; simp [Real.sqrt_sq hl.le]
  rw [hl'] at hlen
  have h0 : pitch = 0 → radians degrees pitch = 0 := by rintro rfl; cases degrees <;> simp [radians]
  generalize radians degrees yaw = ψ at *
  generalize radians degrees pitch = θ at *
  generalize radians degrees roll = φ at *
  have hb : |Real.cos θ * Real.sin φ| ≤ 1 := by
    rw [abs_mul]
    exact mul_le_one₀ (Real.abs_cos_le_one _) (abs_nonneg _) (Real.abs_sin_le_one _)
  have hz : w.z = l * (Real.cos θ * Real.sin φ) := by
    rw [e]; simp [app, RotX, RotY, RotZ, dot]; ring
  refine ⟨w, hw, by unfold length; rw [norm3_fin, hlen], ?_, ?_⟩
  · exact elevation_of hl (Real.neg_pi_div_two_le_arcsin _) (Real.arcsin_le_pi_div_two _) hlen
      (by rw [hz, Real.sin_arcsin (abs_le.mp hb).1 (abs_le.mp hb).2])
  · intro hp h1 h2
    have hθ := h0 hp
    subst hθ
    refine ⟨elevation_of hl h1.le h2.le hlen (by rw [hz, Real.cos_zero, one_mul]), ?_⟩
    have hc : 0 < Real.cos φ := Real.cos_pos_of_mem_Ioo ⟨h1, h2⟩
    obtain ⟨az, h3, h4, -⟩ := azimuth_of (p := w) (θ := ψ + Real.pi / 2) (z := w.z) (mul_pos hl hc) (by
      rw [Real.cos_add_pi_div_two, Real.sin_add_pi_div_two, e]
      ext <;> simp [app, RotX, RotY, RotZ, dot] <;> ring)
    exact ⟨az, h3, h4⟩

/-- **C152** the floor: the vehicle is upright exactly if pitch and roll together are less than a quarter turn from level, in the sense
`cos(pitch) cos(roll) > 0`; the roll is the angle about the nose, counted from upright -/
theorem C152_bank (yaw pitch roll l : ℝ) (degrees : Bool) (hl : 0 < l) (h1 : -(Real.pi / 2) < radians degrees pitch)
    (h2 : radians degrees pitch < Real.pi / 2) :
    ∃ (s d : V3 ℝ) (bank : ℝ), seenFromNorth pt yaw pitch roll degrees ⟨0, l, 0⟩ = .ok (.real s (FrameN pt)) ∧
      seenFromNorth pt yaw pitch roll degrees ⟨0, 0, l⟩ = .ok (.real d (FrameN pt)) ∧
      (0 < d.z ↔ 0 < Real.cos (radians degrees roll)) ∧
      PyFloat.arctan2 (fin s.z) (fin d.z) = fin bank ∧ SameAngle (radians degrees roll) bank := by
  obtain ⟨s, hs, -, e⟩ := C152_seen_from_north pt n z a f name R hpt hn hR yaw pitch roll degrees ⟨0, l, 0⟩
  obtain ⟨d, hd, -, e'⟩ := C152_seen_from_north pt n z a f name R hpt hn hR yaw pitch roll degrees ⟨0, 0, l⟩
  generalize radians degrees yaw = ψ at *
  generalize radians degrees pitch = θ at *
  generalize radians degrees roll = φ at *
  have hc : 0 < Real.cos θ := Real.cos_pos_of_mem_Ioo ⟨h1, h2⟩
  have hsz : s.z = (l * Real.cos θ) * Real.sin φ := by
    rw [e]; simp [app, RotX, RotY, RotZ, dot]; ring
  have hdz : d.z = (l * Real.cos θ) * Real.cos φ := by
    rw [e']; simp [app, RotX, RotY, RotZ, dot]; ring
  obtain ⟨az, h3, h4, -⟩ := azimuth_of (z := 0) (mul_pos hl hc) (p := ⟨d.z, s.z, 0⟩) (by rw [hsz, hdz])
  refine ⟨s, d, az, hs, hd, ?_, h3, h4⟩
  rw [hdz]
  exact ⟨fun h => (mul_pos_iff_of_pos_left (mul_pos hl hc)).mp h, fun h => mul_pos (mul_pos hl hc) h⟩

end

section
variable (A B : Position XR) (n pA pB : V3 ℝ) (z a f : ℝ) (name : EllKey) (R : M3 ℝ) (hR : IsRotation R) (hn : n ≠ 0)
  (hnA : A.to_nvector = .real n z (.real a f name R)) (hA : A.to_ecef_vector = .real pA (.real a f name R))
  (hB : B.to_ecef_vector = .real pB (.real a f name R))
include hR hn hnA hA hB

theorem seen_fin (yaw pitch roll : ℝ) (degrees : Bool) :
    ∃ dN : V3 ℝ, delta_N A B = .ok (.real dN (FrameN A)) ∧ len dN = len (pB - pA) ∧
      seenFromVehicle A B yaw pitch roll degrees =
        .ok (.real (app (transp (R_NB (radians degrees yaw) (radians degrees pitch) (radians degrees roll))) dN)
          (FrameB A (fin yaw) (fin pitch) (fin roll) degrees)) := by
  obtain ⟨M, hM, hrot, -⟩ := C12_R_EN_rotation n hn R hR
  obtain ⟨h1, h2⟩ := frameB_R_EN hnA hM yaw pitch roll degrees
  obtain ⟨hE, hdN, -⟩ := delta_fin hnA hA hB
  have hc := check_frames_real a f name R
  refine ⟨_, hdN M hM, len_app hrot.transpose _, ?_⟩
  unfold seenFromVehicle
  rw [hE]
  show (ECEFvector.real (pB - pA) _).change_frame _ = _
  unfold ECEFvector.change_frame
  simp only [ECEFvector.real, h1, h2, hc, tr_fin, mulVec_fin, trans_mmul, app_mmul]; rfl

/-- **C152** relative bearing: a level vehicle sees the target at the azimuth of `delta_N` less its yaw, at the same elevation and distance -/
theorem C152_bearing (yaw : ℝ) (degrees : Bool) :
    ∃ dN dB : V3 ℝ, delta_N A B = .ok (.real dN (FrameN A)) ∧
      seenFromVehicle A B yaw 0 0 degrees = .ok (.real dB (FrameB A (fin yaw) (fin 0) (fin 0) degrees)) ∧
      length dB.fin = length dN.fin ∧ elevation dB.fin = elevation dN.fin ∧ (yaw = 0 → dB = dN) ∧
      (dN.x ≠ 0 ∨ dN.y ≠ 0 → ∃ azN azB : ℝ, azimuth dN.fin = fin azN ∧ azimuth dB.fin = fin azB ∧
        SameAngle (azN - radians degrees yaw) azB) := by
  obtain ⟨dN, h1, h2, h3⟩ := seen_fin A B n pA pB z a f name R hR hn hnA hA hB yaw 0 0 degrees
  have hz : radians degrees 0 = 0 := by cases degrees <;> simp [radians]
  have hy : yaw = 0 → radians degrees yaw = 0 := by rintro rfl; exact hz
  rw [hz] at h3
  generalize radians degrees yaw = ψ at *
  have e : app (transp (R_NB ψ 0 0)) dN = ⟨Real.cos ψ * dN.x + Real.sin ψ * dN.y, -Real.sin ψ * dN.x + Real.cos ψ * dN.y, dN.z⟩ := by
    unfold R_NB; ext <;> simp [app, mmul, transp, RotX, RotY, RotZ, dot, col0, col1, col2]
  have hlen : len (app (transp (R_NB ψ 0 0)) dN) = len dN := len_app (isRotation_R_NB _ _ _).transpose _
  refine ⟨dN, _, h1, h3, ?_, ?_, ?_, ?_⟩
  · unfold length; rw [norm3_fin, norm3_fin, hlen]
  · unfold elevation length
    rw [norm3_fin, norm3_fin, hlen, V3.fin_z, V3.fin_z, e]
  · intro h
    rw [e, hy h]; ext <;> simp
  · intro h
    have hr : 0 < √(dN.x ^ 2 + dN.y ^ 2) := by
      apply Real.sqrt_pos.mpr
      rcases h with h | h
      · have := sq_nonneg dN.y; positivity
      · have := sq_nonneg dN.x; positivity
    have c1 := XR.sqrt_mul_cos_atan2 dN.y dN.x
    have c2 := XR.sqrt_mul_sin_atan2 dN.y dN.x
    generalize hθ : XR.atan2 dN.y dN.x = θ at *
    obtain ⟨azB, h4, h5, -⟩ := azimuth_of (p := app (transp (R_NB ψ 0 0)) dN) (θ := θ - ψ) (z := dN.z) hr (by
      rw [e, Real.cos_sub, Real.sin_sub]
      ext
      · show Real.cos ψ * dN.x + Real.sin ψ * dN.y = _ * _
        linear_combination -Real.cos ψ * c1 - Real.sin ψ * c2
      · show -Real.sin ψ * dN.x + Real.cos ψ * dN.y = _ * _
        linear_combination Real.sin ψ * c1 - Real.cos ψ * c2
      · rfl)
    exact ⟨θ, azB, by unfold azimuth; rw [V3.fin_x, V3.fin_y, XR.arctan2_fin, hθ], h4, h5⟩

/-- **C152** a vehicle with the yaw of the azimuth and the pitch of minus the elevation of the target points at it, whatever its roll: the
target is straight ahead, at its distance -/
theorem C152_pointing (roll : ℝ) (hne : pB ≠ pA) :
    ∃ (dN : V3 ℝ) (l az el : ℝ), delta_N A B = .ok (.real dN (FrameN A)) ∧ length dN.fin = fin l ∧ azimuth dN.fin = fin az ∧
      elevation dN.fin = fin el ∧ 0 < l ∧
      seenFromVehicle A B az (-el) roll false = .ok (.real ⟨l, 0, 0⟩ (FrameB A (fin az) (fin (-el)) (fin roll))) := by
  have hd : pB - pA ≠ 0 := by
    intro h; apply hne
    have hx := congrArg V3.x h; have hy := congrArg V3.y h; have hz := congrArg V3.z h
    simp at hx hy hz
    ext <;> linarith
  obtain ⟨dN, h1, h2, -⟩ := seen_fin A B n pA pB z a f name R hR hn hnA hA hB 0 0 0 false
  have hdN : dN ≠ 0 := by
    rintro rfl
    rw [len_eq_zero.mpr rfl] at h2
    exact hd (len_eq_zero.mp h2.symm)
  obtain ⟨l, az, el, h3, h4, h5, -, h6, -, -, -, -, -, h7⟩ := C42_spherical dN hdN
  refine ⟨dN, l, az, el, h1, h3, h4, h5, h6, ?_⟩
  obtain ⟨dN', h1', -, h8⟩ := seen_fin A B n pA pB z a f name R hR hn hnA hA hB az (-el) roll false
  have hdd : dN' = dN := by
    rw [h1] at h1'
    injection h1' with h
    injection h with h
    exact (V3.fin_inj.mp h).symm
  rw [h8, hdd]
  congr 2
  have hr : radians false az = az ∧ radians false (-el) = -el ∧ radians false roll = roll := by simp [radians]
  rw [hr.1, hr.2.1, hr.2.2, h7]
  have s1 := Real.sin_sq_add_cos_sq az
  have s2 := Real.sin_sq_add_cos_sq el
  have e : app (transp (R_NB az (-el) roll)) ⟨l * (Real.cos el * Real.cos az), l * (Real.cos el * Real.sin az), l * Real.sin el⟩ = ⟨l, 0, 0⟩ := by
    rw [← (isRotation_R_NB az (-el) roll).trans_app ⟨l, 0, 0⟩]
    congr 1
    unfold R_NB; ext <;> simp [app, mmul, RotX, RotY, RotZ, dot, col0, col1, col2] <;> ring
  exact e

/-- **C152** off the poles, the frame of a level vehicle with some yaw has the axes of `FrameL` with this wander azimuth -/
theorem C152_level (hp : cross (northPole R) n ≠ 0) (yaw : ℝ) :
    ∃ d : V3 ℝ, seenFromVehicle A B yaw 0 0 false = .ok (.real d (FrameB A (fin yaw) (fin 0) (fin 0))) ∧
      delta_L A B (fin yaw) = .ok (.real d (FrameL A (fin yaw))) := by
  obtain ⟨N, hN, hL⟩ := C13_R_EL_eq_R_EN_turned n yaw R hR hp
  obtain ⟨h1, h2⟩ := frameB_R_EN hnA hN yaw 0 0 false
  obtain ⟨hE, -, hdL⟩ := delta_fin hnA hA hB
  have hc := check_frames_real a f name R
  refine ⟨_, ?_, hdL yaw _ hL⟩
  have hm : mmul N (R_NB (radians false yaw) (radians false 0) (radians false 0)) = mmul N (RotZ yaw) := by
    congr 1
    unfold R_NB radians
    ext <;> simp [mmul, RotX, RotY, RotZ, dot, col0, col1, col2]
  rw [hm] at h1
  unfold seenFromVehicle
  rw [hE]
  show (ECEFvector.real (pB - pA) _).change_frame _ = _
  unfold ECEFvector.change_frame
  simp only [ECEFvector.real, h1, h2, hc, tr_fin, mulVec_fin]; rfl

end

end Nv
