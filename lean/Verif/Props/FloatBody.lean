import Verif.Props.FloatFrames

/-!
# C87: body frames and changes of frame in binary64
-/

namespace Nv
open Spec F64
variable (B : Binary64)
variable {a f : ℝ} {R : M3 ℝ} {n : V3 ℝ}

/-- **C87** the matrix of a body frame is within `7.8e-15` in every entry of the exact product of the North-East-Down rotation at
the point and the yaw-pitch-roll rotation -/
theorem C87_body_frame (hR : IsAxes R) (hn : IsF64V n) (n1 : (2 : ℝ) ^ (-500 : ℤ) ≤ len n) (n2 : len n ≤ 10 ^ 60)
    (hp : (2 : ℝ) ^ (-300 : ℤ) * len n ≤ len (cross (northPole R) n)) (nm : EllKey) (z : F64 B) (yaw pitch roll : ℝ) :
    ∃ W N : M3 ℝ, (FrameB (.nvec ⟨n.flt, z, Frame64 B a f R nm⟩) (F64.fin yaw) (F64.fin pitch) (F64.fin roll)).R_EN = W.flt ∧ IsF64M W ∧
      NearRotation W 4.3e-14 ∧ IsRotation N ∧ col2 N = -dirOf n ∧ col1 N = dirOf (cross (northPole R) n) ∧
      0 < dot (col0 N) (northPole R) ∧ CloseM W (mmul N (mmul (mmul (RotZ yaw) (RotY pitch)) (RotX roll))) 7.8e-15 := by
  obtain ⟨W, hW, fW, -, N, r1, r2, r3, r4, cW⟩ := C81_n_E2R_EN B hR hn n1 n2 hp
  obtain ⟨W', hW', fW', cW', -⟩ := C79_zyx2R B yaw pitch roll
  have hr : IsRotation (mmul (mmul (RotZ yaw) (RotY pitch)) (RotX roll)) := ((isRotation_RotZ _).mul (isRotation_RotY _)).mul (isRotation_RotX _)
  obtain ⟨V, hV, fV, cV⟩ := mdot_flt (B := B) r1 hr fW fW' cW cW' (by norm_num) (by norm_num) (k := 7.8e-15) (by unfold uu; norm_num)
  refine ⟨V, N, ?_, fV, (nearRotation_of_close cV (r1.mul hr) (by norm_num)).mono (by norm_num), r1, r2, r3, r4, cV⟩
  rw [← hV, ← hW, ← hW']
  rfl

/-- **C87** the product of two computed matrices within `1e-10` of rotations is within the sum of the errors (times 1.74) plus
`3.4e-16` of the product of the rotations -/
theorem C87_mdot {W W' N N' : M3 ℝ} {e e' : ℝ} (hN : IsRotation N) (hN' : IsRotation N') (fW : IsF64M W) (fW' : IsF64M W')
    (hW : CloseM W N e) (hW' : CloseM W' N' e') (he : e ≤ 1e-10) (he' : e' ≤ 1e-10) :
    ∃ V : M3 ℝ, mdot (W.flt : M3 (F64 B)) W'.flt = V.flt ∧ IsF64M V ∧ CloseM V (mmul N N') (1.74 * (e + e') + 3.4e-16) := by
  have e0 : 0 ≤ e := (abs_nonneg _).trans hW.1.1
  have e0' : 0 ≤ e' := (abs_nonneg _).trans hW'.1.1
  refine mdot_flt hN hN' fW fW' hW hW' (he.trans (by norm_num)) (he'.trans (by norm_num)) ?_
  have hu : 3.02 * uu ≤ 3.36e-16 := by unfold uu; norm_num
  have hu0 := uu_pos
  have h1 : e * e' ≤ 1e-10 * e' := mul_le_mul_of_nonneg_right he e0'
  have h2 : 3.02 * uu * e' ≤ 3.36e-16 * e' := mul_le_mul_of_nonneg_right hu e0'
  have t : (1e-59 : ℝ) ≤ 1e-20 := by norm_num
  generalize (1e-59 : ℝ) = τ at *
  norm_num at *
  linarith only [h1, h2, hu, t, e0, e0']

/-- the local frames of an n-vector position: their matrices are within `7.8e-15` of rotations -/
theorem C87_local_frames (hR : IsAxes R) (hn : IsF64V n) (n1 : 1e-50 ≤ len n) (n2 : len n ≤ 10 ^ 25)
    (hp : (2 : ℝ) ^ (-300 : ℤ) * len n ≤ len (cross (northPole R) n)) (nm : EllKey) (z : F64 B) (wa yaw pitch roll : ℝ)
    (F : LocalFrame (F64 B))
    (hF : F ∈ [FrameN (.nvec ⟨n.flt, z, Frame64 B a f R nm⟩), FrameL (.nvec ⟨n.flt, z, Frame64 B a f R nm⟩) (F64.fin wa),
      FrameB (.nvec ⟨n.flt, z, Frame64 B a f R nm⟩) (F64.fin yaw) (F64.fin pitch) (F64.fin roll)]) :
    ∃ W N : M3 ℝ, F.R_EN = W.flt ∧ IsF64M W ∧ IsRotation N ∧ CloseM W N 7.8e-15 ∧ F.nvector.frame = Frame64 B a f R nm := by
  have n1' : (2 : ℝ) ^ (-500 : ℤ) ≤ len n := by
    refine le_trans ?_ n1
    have : (2 : ℝ) ^ (-500 : ℤ) ≤ 2 ^ (-200 : ℤ) := zpow_le_zpow_right₀ (by norm_num) (by norm_num)
    refine this.trans (by norm_num)
  have n2' : len n ≤ 10 ^ 60 := n2.trans (by norm_num)
  simp only [List.mem_cons, List.not_mem_nil, or_false] at hF
  rcases hF with rfl | rfl | rfl
  · obtain ⟨W, hW, fW, -, N, r1, -, -, -, cW⟩ := C81_n_E2R_EN B hR hn n1' n2' hp
    exact ⟨W, N, hW, fW, r1, cW.mono (by norm_num), rfl⟩
  · obtain ⟨W, M, hW, fW, -, r1, -, cW, -⟩ := C83_n_E_and_wa2R_EL B wa hR hn n1 n2
    exact ⟨W, M, hW, fW, r1, cW.mono (by norm_num), rfl⟩
  · obtain ⟨W, N, hW, fW, -, r1, -, -, -, cW⟩ := C87_body_frame B hR hn n1' n2' hp nm z yaw pitch roll (a := a) (f := f)
    exact ⟨W, _, hW, fW, r1.mul (((isRotation_RotZ _).mul (isRotation_RotY _)).mul (isRotation_RotX _)), cW, rfl⟩

/-- **C87** a vector expressed in a local frame (FrameN, FrameL or FrameB at any n-vector position not on the axis) and taken back
to E returns, and so does a local vector taken to E and back: no exception, and every component within `3.8e-14` of the length -/
theorem C87_change_frame_roundtrip (hR : IsAxes R) (fa : IsF64 a) (a1 : 1 ≤ a) (a2 : a ≤ 1e10) (ff : IsF64 f) (f0 : 0 ≤ f) (f1 : f ≤ 0.01)
    (hn : IsF64V n) (n1 : 1e-50 ≤ len n) (n2 : len n ≤ 10 ^ 25)
    (hp : (2 : ℝ) ^ (-300 : ℤ) * len n ≤ len (cross (northPole R) n)) (nm nm' : EllKey) (z : F64 B) (wa yaw pitch roll : ℝ)
    (F : LocalFrame (F64 B))
    (hF : F ∈ [FrameN (.nvec ⟨n.flt, z, Frame64 B a f R nm⟩), FrameL (.nvec ⟨n.flt, z, Frame64 B a f R nm⟩) (F64.fin wa),
      FrameB (.nvec ⟨n.flt, z, Frame64 B a f R nm⟩) (F64.fin yaw) (F64.fin pitch) (F64.fin roll)])
    {p : V3 ℝ} (hpF : IsF64V p) (pl : len p ≤ 10 ^ 50) :
    (∃ (L : Pvector (F64 B)) (p' : V3 ℝ), ECEFvector.change_frame ⟨p.flt, Frame64 B a f R nm'⟩ F = .ok L ∧
      L.to_ecef_vector.pvector = p'.flt ∧ IsF64V p' ∧ CloseV p' p (3.8e-14 * len p + 1e-58)) ∧
    (∃ p' : V3 ℝ, (⟨p.flt, F⟩ : Pvector (F64 B)).to_ecef_vector.change_frame F = .ok ⟨p'.flt, F⟩ ∧ IsF64V p' ∧
      CloseV p' p (3.8e-14 * len p + 1e-58)) := by
  obtain ⟨W, N, hW, fW, hN, cW, hfr⟩ := C87_local_frames B hR hn n1 n2 hp nm z wa yaw pitch roll F hF (a := a) (f := f)
  obtain ⟨⟨Q, S, h1, h2, fS, cS⟩, ⟨Q', S', h1', h2', fS', cS'⟩⟩ := there_and_back (B := B) hN fW hpF cW (by norm_num) (by norm_num) pl (k := 3.8e-14)
    (by unfold uu; norm_num)
  have hc : ∀ nm₁ nm₂, check_frames (Frame64 B a f R nm₁) (Frame64 B a f R nm₂) = .ok () := fun nm₁ nm₂ =>
    check_self B hR fa a1 a2 ff f0 f1 nm₁ nm₂
  refine ⟨⟨⟨Q.flt, F⟩, S, ?_, ?_, fS, cS⟩, ⟨S', ?_, fS', cS'⟩⟩
  · simp only [ECEFvector.change_frame, hfr, hc, hW, h1, bind, Except.bind, pure, Except.pure]
  · simp only [Pvector.to_ecef_vector, hW, h2]
  · simp only [Pvector.to_ecef_vector, ECEFvector.change_frame, hfr, hc, hW, h1', h2', bind, Except.bind, pure, Except.pure]

/-- a non-trivial case of the hypotheses: an n-vector well off the axis -/
example : IsF64V (⟨1, 2, 2⟩ : V3 ℝ) ∧ (1e-50 : ℝ) ≤ len (⟨1, 2, 2⟩ : V3 ℝ) ∧ len (⟨1, 2, 2⟩ : V3 ℝ) ≤ 10 ^ 25 ∧
    (2 : ℝ) ^ (-300 : ℤ) * len ⟨1, 2, 2⟩ ≤ len (cross (northPole Re) ⟨1, 2, 2⟩) := by
  have h3 : len (⟨1, 2, 2⟩ : V3 ℝ) = 3 := by
    unfold len
    rw [show (1 : ℝ) ^ 2 + 2 ^ 2 + 2 ^ 2 = 3 ^ 2 by norm_num, Real.sqrt_sq (by norm_num)]
  refine ⟨⟨isF64_one, by simpa using isF64_int (n := 2) (by norm_num), by simpa using isF64_int (n := 2) (by norm_num)⟩, ?_, ?_, ?_⟩
  · rw [h3]; norm_num
  · rw [h3]; norm_num
  · rw [h3]
    have := abs_x_le_len (cross (northPole Re) (⟨1, 2, 2⟩ : V3 ℝ))
    refine le_trans ?_ this
    have e : |(cross (northPole Re) (⟨1, 2, 2⟩ : V3 ℝ)).x| = 2 := by
      simp [cross, northPole, app, transp, Re, dot, col0, col1, col2]
    rw [e]
    have : (2 : ℝ) ^ (-300 : ℤ) ≤ 2 ^ (-1 : ℤ) := zpow_le_zpow_right₀ (by norm_num) (by norm_num)
    have e2 : (2 : ℝ) ^ (-1 : ℤ) = 1 / 2 := by norm_num
    rw [e2] at this
    linarith only [this]

end Nv
