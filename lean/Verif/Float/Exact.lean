import Verif.Float.Ops
import Verif.Model.Rotation
import Verif.Lemmas.Rot

/-!
# Operations without rounding error

Multiplication by 0, 1, -1, addition of 0, and therefore `np.dot` with one of the matrices of `E_rotation`.
-/

namespace Nv
open Spec F64
variable {B : Binary64}

/-- a finite binary64 number -/
def Spec.Fin64 (x : ℝ) : Prop := IsF64 x ∧ |x| < (2 : ℝ) ^ (1024 : ℤ)

theorem Spec.Fin64.neg {x : ℝ} (h : Fin64 x) : Fin64 (-x) := ⟨h.1.neg, by rw [abs_neg]; exact h.2⟩
theorem two_1024_pos : (0 : ℝ) < (2 : ℝ) ^ (1024 : ℤ) := by positivity
theorem fin64_zero : Fin64 0 := ⟨isF64_zero, by rw [abs_zero]; exact two_1024_pos⟩
theorem fin64_of_le {x : ℝ} (h : IsF64 x) (hb : |x| ≤ 10 ^ 60) : Fin64 x := by
  refine ⟨h, hb.trans_lt ?_⟩
  calc (10 ^ 60 : ℝ) < 2 ^ (201 : ℤ) := by norm_num
    _ ≤ _ := zpow_le_zpow_right₀ (by norm_num) (by norm_num)
theorem fin64_one : Fin64 1 := fin64_of_le isF64_one (by norm_num)

namespace F64

theorem rnd_exact {x : ℝ} (h : Fin64 x) : rnd B x = fin x := by
  have e := B.rounds.exact h.1
  have : rnd B x = fin (B.fl x) := if_pos (by rw [e]; exact h.2)
  rw [this, e]

theorem zero_mul' (x : ℝ) : (fin 0 * fin x : F64 B) = fin 0 := by
  change rnd B (0 * x) = _
  rw [zero_mul, rnd_exact fin64_zero]
theorem mul_zero' (x : ℝ) : (fin x * fin 0 : F64 B) = fin 0 := by
  change rnd B (x * 0) = _
  rw [mul_zero, rnd_exact fin64_zero]
theorem one_mul' {x : ℝ} (h : Fin64 x) : (fin 1 * fin x : F64 B) = fin x := by
  change rnd B (1 * x) = _
  rw [one_mul, rnd_exact h]
theorem mul_one' {x : ℝ} (h : Fin64 x) : (fin x * fin 1 : F64 B) = fin x := by
  change rnd B (x * 1) = _
  rw [mul_one, rnd_exact h]
theorem neg_one_mul' {x : ℝ} (h : Fin64 x) : (fin (-1) * fin x : F64 B) = fin (-x) := by
  change rnd B (-1 * x) = _
  rw [neg_one_mul, rnd_exact h.neg]
theorem mul_neg_one' {x : ℝ} (h : Fin64 x) : (fin x * fin (-1) : F64 B) = fin (-x) := by
  change rnd B (x * -1) = _
  rw [mul_neg_one, rnd_exact h.neg]
theorem zero_add' {x : ℝ} (h : Fin64 x) : (fin 0 + fin x : F64 B) = fin x := by
  change rnd B (0 + x) = _
  rw [zero_add, rnd_exact h]
theorem add_zero' {x : ℝ} (h : Fin64 x) : (fin x + fin 0 : F64 B) = fin x := by
  change rnd B (x + 0) = _
  rw [add_zero, rnd_exact h]
theorem sub_zero' {x : ℝ} (h : Fin64 x) : (fin x - fin 0 : F64 B) = fin x := by
  change rnd B (x + -0) = _
  rw [neg_zero, add_zero, rnd_exact h]
theorem zero_sub' {x : ℝ} (h : Fin64 x) : (fin 0 - fin x : F64 B) = fin (-x) := by
  change rnd B (0 + -x) = _
  rw [zero_add, rnd_exact h.neg]

theorem powNat_two {x : ℝ} (_ : Fin64 x) : powNat (fin x : F64 B) 2 = fin x * fin x := by
  rfl

end F64

/-- the components of a vector are finite binary64 numbers -/
def Spec.Fin64V (v : V3 ℝ) : Prop := Fin64 v.x ∧ Fin64 v.y ∧ Fin64 v.z

theorem fin64V_of_le {v : V3 ℝ} (h : IsF64V v) (hb : len v ≤ 10 ^ 60) : Fin64V v :=
  ⟨fin64_of_le h.1 ((abs_x_le_len v).trans hb), fin64_of_le h.2.1 ((abs_y_le_len v).trans hb),
    fin64_of_le h.2.2 ((abs_z_le_len v).trans hb)⟩

/-- the exact matrices of `E_rotation`: those of the two choices of axes -/
def Spec.IsAxes (M : M3 ℝ) : Prop := M = Re ∨ M = one

/-- embed a real matrix -/
def M3.flt (M : M3 ℝ) : M3 (F64 B) := ⟨M.r0.flt, M.r1.flt, M.r2.flt⟩

theorem R_e_flt : (R_e : M3 (F64 B)) = Re.flt := by
  unfold R_e Re M3.flt V3.flt
  simp only [lit_zero, lit_one, lit_neg_one]

theorem R_E_flt : (R_E : M3 (F64 B)) = M3.flt one := by
  unfold R_E one M3.flt V3.flt
  simp only [lit_zero, lit_one]

/-- every matrix `E_rotation` returns is one of the two -/
theorem axes_of_E_rotation {s : String} {M : M3 (F64 B)} (h : E_rotation s = .ok M) : ∃ R, IsAxes R ∧ M = R.flt := by
  unfold E_rotation at h
  split at h
  · exact ⟨Re, .inl rfl, by rw [← R_e_flt]; exact (Except.ok.inj h).symm⟩
  · split at h
    · exact ⟨one, .inr rfl, by rw [← R_E_flt]; exact (Except.ok.inj h).symm⟩
    · cases h

theorem Spec.IsAxes.rot {R : M3 ℝ} (h : IsAxes R) : IsRotation R := by
  rcases h with rfl | rfl
  · exact isRotation_Re
  · exact isRotation_one

/-- changing the axes is exact -/
theorem mulVec_axes {R : M3 ℝ} (hR : IsAxes R) {v : V3 ℝ} (hv : Fin64V v) :
    mulVec (R.flt : M3 (F64 B)) v.flt = (app R v).flt ∧ Fin64V (app R v) := by
  obtain ⟨h1, h2, h3⟩ := hv
  rcases hR with rfl | rfl
  · constructor
    · unfold mulVec dot3 M3.flt V3.flt Re app dot
      simp only [zero_mul', one_mul' h1, one_mul' h2, one_mul' h3, neg_one_mul' h1, zero_add' h1, zero_add' h2,
        zero_add' h3, add_zero' h1, add_zero' h2, add_zero' h1.neg, zero_add' fin64_zero]
      simp
    · simp only [app, Re, dot]
      exact ⟨by simpa using h3, by simpa using h2, by simpa using h1.neg⟩
  · constructor
    · unfold mulVec dot3 M3.flt V3.flt one app dot
      simp only [zero_mul', one_mul' h1, one_mul' h2, one_mul' h3, zero_add' h1, zero_add' h2,
        zero_add' h3, add_zero' h1, add_zero' h2, zero_add' fin64_zero]
      simp
    · simp only [app, one, dot]
      exact ⟨by simpa using h1, by simpa using h2, by simpa using h3⟩

theorem mulVec_tr_axes {R : M3 ℝ} (hR : IsAxes R) {v : V3 ℝ} (hv : Fin64V v) :
    mulVec (tr (R.flt : M3 (F64 B))) v.flt = (app (transp R) v).flt ∧ Fin64V (app (transp R) v) := by
  obtain ⟨h1, h2, h3⟩ := hv
  rcases hR with rfl | rfl
  · constructor
    · unfold mulVec dot3 M3.flt tr V3.flt Re app dot transp
      simp only [zero_mul', one_mul' h1, one_mul' h2, one_mul' h3, neg_one_mul' h3, zero_add' h1, zero_add' h2,
        zero_add' h3, add_zero' h1, add_zero' h2, zero_add' h3.neg, zero_add' fin64_zero]
      simp [col0, col1, col2]
    · simp only [app, Re, dot, transp, col0, col1, col2]
      exact ⟨by simpa using h3.neg, by simpa using h2, by simpa using h1⟩
  · constructor
    · unfold mulVec dot3 M3.flt tr V3.flt one app dot transp
      simp only [zero_mul', one_mul' h1, one_mul' h2, one_mul' h3, zero_add' h1, zero_add' h2,
        zero_add' h3, add_zero' h1, add_zero' h2, zero_add' fin64_zero]
      simp [col0, col1, col2]
    · simp only [app, one, dot, transp, col0, col1, col2]
      exact ⟨by simpa using h1, by simpa using h2, by simpa using h3⟩

end Nv
