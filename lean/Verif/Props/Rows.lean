import Verif.ND.Core

/-!
# C74: arrays that are not `3 x n` are rejected
-/

namespace Nv.ND
variable {α : Type} [PyFloat α]

theorem dot_rows {M : M3 α} {A : Arr α} {d n : ℕ} (hA : A.shape = [d, n]) (hd : d ≠ 3) : dot (ofM3 M) A = .error .ValueError := by
  unfold dot
  rw [hA]
  simp only [ofM3]
  exact if_neg (fun h => hd h.symm)

theorem check_rows {A : Arr α} {d n : ℕ} (hA : A.shape = [d, n + 1]) : check_length_deviation A = .ok () := by
  unfold check_length_deviation; rw [hA]; rfl

theorem check_no_columns {A : Arr α} {d : ℕ} (hA : A.shape = [d, 0]) : check_length_deviation A = .error .IndexError := by
  unfold check_length_deviation; rw [hA]; rfl

/-- **C74** an array with a number of rows other than three raises `ValueError` -/
theorem C74_n_E2lat_lon {A : Arr α} {d n : ℕ} (hA : A.shape = [d, n + 1]) (hd : d ≠ 3) (R : M3 α) :
    n_E2lat_lon A R = .error .ValueError := by
  unfold n_E2lat_lon
  simp only [check_rows hA, dot_rows hA hd, bind, Except.bind]

theorem C74_n_E2R_EN {A : Arr α} {d n : ℕ} (hA : A.shape = [d, n + 1]) (hd : d ≠ 3) (R : M3 α) :
    n_E2R_EN A R = .error .ValueError := by
  unfold n_E2R_EN
  simp only [check_rows hA, dot_rows hA hd, bind, Except.bind]

theorem C74_n_EB_E2p_EB_E {A depth : Arr α} {d n : ℕ} (hA : A.shape = [d, n + 1]) (hd : d ≠ 3) (a f : α) (R : M3 α) :
    n_EB_E2p_EB_E A depth a f R = .error .ValueError := by
  unfold n_EB_E2p_EB_E
  simp only [check_rows hA, dot_rows hA hd, bind, Except.bind]

theorem C74_p_EB_E2n_EB_E {A : Arr α} {d n : ℕ} (hA : A.shape = [d, n]) (hd : d ≠ 3) (a f : α) (R : M3 α) :
    p_EB_E2n_EB_E A a f R = .error .ValueError := by
  unfold p_EB_E2n_EB_E
  simp only [dot_rows hA hd, bind, Except.bind]

theorem C74_n_E_and_wa2R_EL {A wa : Arr α} {d n : ℕ} (hA : A.shape = [d, n + 1]) (hd : d ≠ 3) (R : M3 α) :
    n_E_and_wa2R_EL A wa R = .error .ValueError := by
  unfold n_E_and_wa2R_EL
  simp only [C74_n_E2lat_lon hA hd, bind, Except.bind]

/-- **C74** the first vector of a pair -/
theorem C74_n_EA_E_and_n_EB_E2p_AB_E {A B zA zB : Arr α} {d n : ℕ} (hA : A.shape = [d, n + 1]) (hd : d ≠ 3) (a f : α) (R : M3 α) :
    n_EA_E_and_n_EB_E2p_AB_E A B zA zB a f R = .error .ValueError := by
  unfold n_EA_E_and_n_EB_E2p_AB_E
  simp only [C74_n_EB_E2p_EB_E hA hd, bind, Except.bind]

theorem C74_n_EA_E_and_p_AB_E2n_EB_E {A B zA : Arr α} {d n : ℕ} (hA : A.shape = [d, n + 1]) (hd : d ≠ 3) (a f : α) (R : M3 α) :
    n_EA_E_and_p_AB_E2n_EB_E A B zA a f R = .error .ValueError := by
  unfold n_EA_E_and_p_AB_E2n_EB_E
  simp only [C74_n_EB_E2p_EB_E hA hd, bind, Except.bind]

theorem C74_n_EA_E_and_n_EB_E2azimuth {A B : Arr α} {d n : ℕ} (hA : A.shape = [d, n + 1]) (hd : d ≠ 3) (a f : α) (R : M3 α) :
    n_EA_E_and_n_EB_E2azimuth A B a f R = .error .ValueError := by
  unfold n_EA_E_and_n_EB_E2azimuth
  simp only [C74_n_EA_E_and_n_EB_E2p_AB_E hA hd, bind, Except.bind]

/-- **C74** the sums of the rows do not fill a `3 x 1` array (also for 6, 9, ... rows, and without columns) -/
theorem C74_mean_horizontal_position {A : Arr α} {d n : ℕ} (hA : A.shape = [d, n]) (hd : d ≠ 3) :
    mean_horizontal_position A = .error .ValueError := by
  obtain ⟨S, eS, hS⟩ : ∃ S : Arr α, sumAxis1 A = .ok S ∧ S.shape = [d] := by
    unfold sumAxis1; rw [hA]; exact ⟨_, rfl, rfl⟩
  have e : S.reshape31 = .error .ValueError := by
    unfold Arr.reshape31; rw [hS, if_neg (by simpa [prod] using hd)]
  unfold mean_horizontal_position
  simp only [eS, e, bind, Except.bind]

/-- **C74** the second vector of a pair -/
theorem C74_second_vector {A B zA zB : Arr α} {d n : ℕ} (hB : B.shape = [d, n + 1]) (hd : d ≠ 3) (a f : α) (R : M3 α)
    {P : Arr α} (hP : n_EB_E2p_EB_E A zA a f R = .ok P) :
    n_EA_E_and_n_EB_E2p_AB_E A B zA zB a f R = .error .ValueError := by
  unfold n_EA_E_and_n_EB_E2p_AB_E
  simp only [hP, C74_n_EB_E2p_EB_E hB hd, bind, Except.bind]

theorem bshape_same (d n : ℕ) : bshape [d, n] [d, n] = .ok [d, n] := by simp [bshape, bshapeRev, bdim, bind, Except.bind, pure, Except.pure]

theorem bshape_one_row (d n : ℕ) : bshape [d, n] [1, n] = .ok [d, n] := by
  simp only [bshape, List.reverse_cons, List.reverse_nil, List.nil_append, List.cons_append, bshapeRev, bdim, bind, Except.bind, pure,
    Except.pure, if_pos]
  by_cases h : d = 1 <;> simp [h]

/-- **C74** `unit` and `euclidean_distance` do not look at the number of rows: they return a result for every 2-d array -/
theorem C74_unchecked {A B : Arr α} {d n : ℕ} (hA : A.shape = [d, n]) (hB : B.shape = [d, n]) (z radius : α) :
    (∃ X, unit A z = .ok X ∧ X.shape = [d, n]) ∧ ∃ X, euclidean_distance A B radius = .ok X ∧ X.shape = [n] := by
  refine ⟨?_, ?_⟩
  · unfold unit norm0k map2
    simp only [hA, bind, Except.bind, pure, Except.pure, Arr.map, bshape_one_row]
    exact ⟨_, rfl, rfl⟩
  · unfold euclidean_distance norm0 map2
    simp only [hA, hB, bind, Except.bind, pure, Except.pure, bshape_same]
    exact ⟨_, rfl, by simp [Arr.ravel, Arr.map, prod]⟩

/-- **C74** an array without columns raises `IndexError` (the length check reads the first column) -/
theorem C74_no_columns {A : Arr α} {d : ℕ} (hA : A.shape = [d, 0]) (depth : Arr α) (a f : α) (R : M3 α) :
    n_E2lat_lon A R = .error .IndexError ∧ n_E2R_EN A R = .error .IndexError ∧
      n_EB_E2p_EB_E A depth a f R = .error .IndexError := by
  refine ⟨?_, ?_, ?_⟩
  · unfold n_E2lat_lon; simp only [check_no_columns hA, bind, Except.bind]
  · unfold n_E2R_EN; simp only [check_no_columns hA, bind, Except.bind]
  · unfold n_EB_E2p_EB_E; simp only [check_no_columns hA, bind, Except.bind]

/-- **C74** a 1-d array (for example `np.array([1.0, 0.0, 0.0])`) raises `IndexError` -/
theorem C74_one_dimension {A : Arr α} {d : ℕ} (hA : A.shape = [d]) (depth : Arr α) (a f : α) (R : M3 α) :
    n_E2lat_lon A R = .error .IndexError ∧ n_E2R_EN A R = .error .IndexError ∧
      n_EB_E2p_EB_E A depth a f R = .error .IndexError := by
  have h : check_length_deviation A = .error .IndexError := by unfold check_length_deviation; rw [hA]
  refine ⟨?_, ?_, ?_⟩
  · unfold n_E2lat_lon; simp only [h, bind, Except.bind]
  · unfold n_E2R_EN; simp only [h, bind, Except.bind]
  · unfold n_EB_E2p_EB_E; simp only [h, bind, Except.bind]

/-- the hypotheses are met by a 2 x 1 array -/
example : (⟨[2, 1], fun _ => lit 0⟩ : Arr α).shape = [2, 0 + 1] := rfl

end Nv.ND
