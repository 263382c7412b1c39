import Verif.Props.FloatChain

/-!
# C139: dead reckoning along a traverse in binary64

A traverse is a list of legs, each an Earth-fixed vector.  Starting from an n-vector and a depth, `n_EA_E_and_p_AB_E2n_EB_E` is called
once per leg, the result of one call being the start of the next.  The position after `k` rounded legs is the true sum of the legs up to `k`
times the error of one leg: the errors add, they do not amplify each other.
-/

namespace Nv
open Spec F64
variable (B : Binary64)
variable {a f : ℝ} {R : M3 ℝ}

/-! ## Specification -/

/-- where one is after walking the legs from `p` -/
noncomputable def Spec.walked (p : V3 ℝ) (legs : List (V3 ℝ)) : V3 ℝ := legs.foldl (fun q v => q + v) p

/-- the n-vector and depth after calling the direct problem once for every leg, in binary64 -/
noncomputable def Spec.traverse64 (a f : ℝ) (R : M3 ℝ) (start : V3 (F64 B) × F64 B) (legs : List (V3 ℝ)) : V3 (F64 B) × F64 B :=
  legs.foldl (fun s v => n_EA_E_and_p_AB_E2n_EB_E s.1 v.flt s.2 (F64.fin a) (F64.fin f) R.flt) start

/-- the binary64 pair `s` is an n-vector of moderate length and a depth; together they describe the point `p` -/
def Spec.Fixes64 (a f : ℝ) (R : M3 ℝ) (s : V3 (F64 B) × F64 B) (p : V3 ℝ) : Prop :=
  ∃ (m : V3 ℝ) (z : ℝ), s = (m.flt, F64.fin z) ∧ IsF64V m ∧ IsF64 z ∧ 1e-50 ≤ len m ∧ len m ≤ 10 ^ 25 ∧ Geodetic a f R m z p

theorem walked_append (p : V3 ℝ) (l : List (V3 ℝ)) (v : V3 ℝ) : walked p (l ++ [v]) = walked p l + v := by
  unfold walked; rw [List.foldl_append]; rfl

/-! ## One leg -/

/-- **C139** one leg: the position described by the result is the position described by the start plus the leg, up to `3.3e-14 (a + L)` -/
theorem C139_leg (hR : IsAxes R) (fa : IsF64 a) (a1 : 1 ≤ a) (a2 : a ≤ 1e10) (ff : IsF64 f) (f0 : 0 ≤ f) (f1 : f ≤ 0.01)
    {p v : V3 ℝ} {L : ℝ} (hv : IsF64V v) (hp : len p ≤ L) (hL : L ≤ 950 * a) (L1 : 0.51 * a ≤ len (p + v)) (L2 : len (p + v) ≤ L)
    {s : V3 (F64 B) × F64 B} (h : Fixes64 B a f R s p) :
    ∃ p' : V3 ℝ, Fixes64 B a f R (n_EA_E_and_p_AB_E2n_EB_E s.1 v.flt s.2 (F64.fin a) (F64.fin f) R.flt) p' ∧
      len (p' - (p + v)) ≤ 3.3e-14 * (a + L) := by
  obtain ⟨m, z, rfl, fm, fz, m1, m2, hg⟩ := h
  have ha : 0 < a := by linarith
  have hl := len_nonneg' p
  have hL0 : 0 ≤ L := hl.trans hp
  obtain ⟨P, ⟨hP, fP⟩, eP⟩ := nvec_to_ecef B hR fa a1 a2 ff f0 f1 (.str "") (by linarith : len p ≤ 1001 * a)
    (n := ⟨m.flt, F64.fin z, Frame64 B a f R (.str "")⟩) ⟨m, z, rfl, fm, m1, m2, fz, hg⟩
  have hP' : n_EB_E2p_EB_E (m.flt : V3 (F64 B)) (F64.fin z) (F64.fin a) (F64.fin f) R.flt = P.flt := congrArg ECEFvector.pvector hP
  have eP1 : len (P - p) ≤ 6.3e-15 * (a + L) := eP.trans (by gcongr)
  -- the sum
  have t1 := len_add_le (P - p) (p + v)
  rw [show P - p + (p + v) = P + v by ext <;> simp <;> ring] at t1
  have us : uu ≤ 1.12e-16 := by unfold uu; norm_num
  have sL : 0 ≤ a + L := by linarith
  have bb : len (P + v) ≤ L + 6.3e-15 * (a + L) := by linarith only [t1, eP1, L2]
  obtain ⟨e, he⟩ : ∃ e, e = 1.2e-16 * (a + L) := ⟨_, rfl⟩
  have key : ∀ {s t : ℝ}, IsF64 s → IsF64 t → |s + t| ≤ len (P + v) → ∃ r, (F64.fin s : F64 B) + F64.fin t = F64.fin r ∧ IsF64 r ∧ |r - (s + t)| ≤ e := by
    intro s t fs ft hs
    refine App.add (b := L + 6.3e-15 * (a + L)) (ex := 0) (ey := 0) (App.exact fs) (App.exact ft) (hs.trans bb) ?_ ?_
    · have r1 : uu * (L + 6.3e-15 * (a + L)) ≤ 1.12e-16 * (L + 6.3e-15 * (a + L)) := mul_le_mul_of_nonneg_right us (by positivity)
      rw [he]
      norm_num at r1 ⊢
      linarith only [r1, hL0, a1]
    · norm_num at a2 ⊢
      linarith only [hL, a2]
  obtain ⟨X, hX, fX, bX⟩ := key fP.1 hv.1 (abs_x_le_len (P + v))
  obtain ⟨Y, hY, fY, bY⟩ := key fP.2.1 hv.2.1 (abs_y_le_len (P + v))
  obtain ⟨Z, hZ, fZ, bZ⟩ := key fP.2.2 hv.2.2 (abs_z_le_len (P + v))
  obtain ⟨S, hS⟩ : ∃ S : V3 ℝ, S = ⟨X, Y, Z⟩ := ⟨_, rfl⟩
  have eS : len (S - (P + v)) ≤ 1.7321 * e := by rw [hS]; exact len_le_of_comp bX bY bZ
  have eS2 : len (S - (p + v)) ≤ 6.6e-15 * (a + L) := by
    have t := len_add_le (S - (P + v)) (P - p)
    rw [show S - (P + v) + (P - p) = S - (p + v) by ext <;> simp <;> ring] at t
    rw [he] at eS
    norm_num at eS eP1 ⊢
    linarith only [t, eS, eP1, sL]
  have t2 := len_add_le (S - (p + v)) (p + v)
  rw [show S - (p + v) + (p + v) = S by ext <;> simp] at t2
  have t3 := len_add_le (p + v - S) S
  rw [show p + v - S + S = p + v by ext <;> simp, len_sub_comm] at t3
  have hsum : add3 (P.flt : V3 (F64 B)) v.flt = S.flt := by
    change (⟨F64.fin P.x + F64.fin v.x, F64.fin P.y + F64.fin v.y, F64.fin P.z + F64.fin v.z⟩ : V3 (F64 B)) = _
    rw [hX, hY, hZ, hS]
    rfl
  norm_num at eS2 L1
  obtain ⟨p', ⟨m', z', h1, fm', m1', m2', fz', hg'⟩, h2⟩ := ecef_to_nvec B hR fa a1 a2 ff f0 f1 (.str "") (p := S)
    (by linarith only [t3, eS2, L1, hL, ha]) (by linarith only [t2, eS2, L2, hL, ha]) (q := ⟨S.flt, Frame64 B a f R (.str "")⟩) ⟨rfl, by rw [hS]; exact ⟨fX, fY, fZ⟩⟩
  refine ⟨p', ⟨m', z', ?_, fm', fz', m1', m2', hg'⟩, ?_⟩
  · unfold n_EA_E_and_p_AB_E2n_EB_E
    rw [hP']
    simp only [hsum]
    have e1 := congrArg Nvector.normal h1
    have e2 := congrArg Nvector.z h1
    exact Prod.ext e1 e2
  · have t4 := len_add_le (p' - S) (S - (p + v))
    rw [show p' - S + (S - (p + v)) = p' - (p + v) by ext <;> simp] at t4
    norm_num at h2 ⊢
    linarith only [t4, h2, eS2, t2, L2, sL, ha]

/-! ## A traverse -/

/-- **C139** a traverse of up to `10^9` legs: the computed n-vector and depth describe a point within `4e-14 * (number of legs) * (a + L)` of
the true end point, where `L` bounds the distances of the stations from the centre of the Earth (0.52 µm per leg on the surface) -/
theorem C139_traverse (hR : IsAxes R) (fa : IsF64 a) (a1 : 1 ≤ a) (a2 : a ≤ 1e10) (ff : IsF64 f) (f0 : 0 ≤ f) (f1 : f ≤ 0.01)
    {p : V3 ℝ} {L : ℝ} (hL : L ≤ 900 * a) {start : V3 (F64 B) × F64 B} (h : Fixes64 B a f R start p) (legs : List (V3 ℝ))
    (hF : ∀ v ∈ legs, IsF64V v) (hS : ∀ l, l <+: legs → 0.6 * a ≤ len (walked p l) ∧ len (walked p l) ≤ L) (hk : legs.length ≤ 10 ^ 9) :
    ∃ p' : V3 ℝ, Fixes64 B a f R (traverse64 B a f R start legs) p' ∧ len (p' - walked p legs) ≤ 4e-14 * legs.length * (a + L) := by
  have ha : 0 < a := by linarith
  have hL0 : 0 ≤ L := (len_nonneg' _).trans (hS [] List.nil_prefix).2
  have sL : 0 ≤ a + L := by linarith
  induction legs using List.reverseRecOn with
  | nil =>
    refine ⟨p, h, ?_⟩
    rw [show p - walked p [] = 0 by ext <;> simp [walked], len_eq_zero.mpr rfl]
    simp
  | append_singleton l v ih =>
    rw [List.length_append, List.length_singleton] at hk
    obtain ⟨q, h1, h2⟩ := ih (fun w hw => hF w (by simp [hw])) (fun k hk' => hS k (hk'.trans (List.prefix_append _ _))) (by omega)
    have hk' : (l.length : ℝ) ≤ 10 ^ 9 := by exact_mod_cast (by omega : l.length ≤ 10 ^ 9)
    have b1 := hS l (List.prefix_append _ _)
    have b2 := hS (l ++ [v]) List.prefix_rfl
    rw [walked_append] at b2 ⊢
    rw [traverse64, List.foldl_append, List.foldl_cons, List.foldl_nil, List.length_append, List.length_singleton]
    have h3 : 4e-14 * (l.length : ℝ) * (a + L) ≤ 0.00004 * (a + L) :=
      mul_le_mul_of_nonneg_right (by
        have := mul_le_mul_of_nonneg_left hk' (by norm_num : (0 : ℝ) ≤ 4e-14)
        exact this.trans (by norm_num)) sL
    have b := h2.trans h3
    generalize walked p l = c at *
    have t1 := len_add_le (q - c) c
    rw [show q - c + c = q by ext <;> simp] at t1
    have t2 := len_add_le (q - c) (c + v)
    rw [show q - c + (c + v) = q + v by ext <;> simp <;> ring] at t2
    have t3 := len_add_le (c - q) (q + v)
    rw [show c - q + (q + v) = c + v by ext <;> simp <;> ring, len_sub_comm] at t3
    norm_num at b b2
    obtain ⟨p', h4, h5⟩ := C139_leg B hR fa a1 a2 ff f0 f1 (p := q) (v := v) (L := L + 0.1 * a) (hF v (by simp))
      (by norm_num; linarith only [t1, b, b1.2, hL, ha]) (by norm_num; linarith only [hL, ha]) (by norm_num; linarith only [t3, b, b2.1, hL, ha])
      (by norm_num; linarith only [t2, b, b2.2, hL, ha]) h1
    refine ⟨p', h4, ?_⟩
    have t4 := len_add_le (p' - (q + v)) (q - c)
    rw [show p' - (q + v) + (q - c) = p' - (c + v) by ext <;> simp <;> ring] at t4
    push_cast
    norm_num at h2 h5 ⊢
    linarith only [t4, h2, h5, ha, hL0]

/-- **C139** a closed traverse comes back to where it started: the misclosure in position -/
theorem C139_closed (hR : IsAxes R) (fa : IsF64 a) (a1 : 1 ≤ a) (a2 : a ≤ 1e10) (ff : IsF64 f) (f0 : 0 ≤ f) (f1 : f ≤ 0.01)
    {p : V3 ℝ} {L : ℝ} (hL : L ≤ 900 * a) {start : V3 (F64 B) × F64 B} (h : Fixes64 B a f R start p) (legs : List (V3 ℝ))
    (hF : ∀ v ∈ legs, IsF64V v) (hS : ∀ l, l <+: legs → 0.6 * a ≤ len (walked p l) ∧ len (walked p l) ≤ L) (hk : legs.length ≤ 10 ^ 9)
    (hc : walked p legs = p) :
    ∃ p' : V3 ℝ, Fixes64 B a f R (traverse64 B a f R start legs) p' ∧ len (p' - p) ≤ 4e-14 * legs.length * (a + L) := by
  have := C139_traverse B hR fa a1 a2 ff f0 f1 hL h legs hF hS hk
  rwa [hc] at this

/-- the order of the legs does not matter to the true end point … -/
theorem walked_perm (p : V3 ℝ) {l l' : List (V3 ℝ)} (h : l.Perm l') : walked p l = walked p l' := by
  unfold walked
  exact h.foldl_eq' (fun x _ y _ z => by ext <;> simp <;> ring) p

/-- **C139** … so two traverses with the same legs in different orders end at places this near each other -/
theorem C139_reorder (hR : IsAxes R) (fa : IsF64 a) (a1 : 1 ≤ a) (a2 : a ≤ 1e10) (ff : IsF64 f) (f0 : 0 ≤ f) (f1 : f ≤ 0.01)
    {p : V3 ℝ} {L : ℝ} (hL : L ≤ 900 * a) {start : V3 (F64 B) × F64 B} (h : Fixes64 B a f R start p) (legs legs' : List (V3 ℝ))
    (hperm : legs.Perm legs') (hF : ∀ v ∈ legs, IsF64V v)
    (hS : ∀ l, l <+: legs ∨ l <+: legs' → 0.6 * a ≤ len (walked p l) ∧ len (walked p l) ≤ L) (hk : legs.length ≤ 10 ^ 9) :
    ∃ q q' : V3 ℝ, Fixes64 B a f R (traverse64 B a f R start legs) q ∧ Fixes64 B a f R (traverse64 B a f R start legs') q' ∧
      len (q' - q) ≤ 8e-14 * legs.length * (a + L) := by
  obtain ⟨q, h1, h2⟩ := C139_traverse B hR fa a1 a2 ff f0 f1 hL h legs hF (fun l hl => hS l (.inl hl)) hk
  obtain ⟨q', h3, h4⟩ := C139_traverse B hR fa a1 a2 ff f0 f1 hL h legs' (fun v hv => hF v (hperm.mem_iff.mpr hv)) (fun l hl => hS l (.inr hl))
    (hperm.length_eq ▸ hk)
  refine ⟨q, q', h1, h3, ?_⟩
  rw [← walked_perm p hperm, ← hperm.length_eq] at h4
  have t := len_add_le (q' - walked p legs) (walked p legs - q)
  rw [show q' - walked p legs + (walked p legs - q) = q' - q by ext <;> simp, len_sub_comm (walked p legs)] at t
  linarith only [t, h2, h4]

/-- of two points not below the surface, the depths differ by at most the distance -/
theorem depth_of_near (hR : IsAxes R) (ha : 0 < a) (f0 : 0 ≤ f) (f1 : f < 1) {m n p q : V3 ℝ} {z d : ℝ}
    (hm : Geodetic a f R m z p) (hn : Geodetic a f R n d q) (hz : z ≤ 0) (hd : d ≤ 0) : |z - d| ≤ len (p - q) := by
  obtain ⟨m0, rfl⟩ := hm.eq ha f1 hR.rot
  obtain ⟨n0, rfl⟩ := hn.eq ha f1 hR.rot
  have h1 := unitVec_app hR.rot (dirOf_unit m0)
  have h2 := unitVec_app hR.rot (dirOf_unit n0)
  rw [← app_sub, len_app hR.rot.transpose]
  have k1 := depth_close (d := d) (d' := z) ha f1 h2 h1
  have k2 := depth_close (d := z) (d' := d) ha f1 h1 h2
  rw [max_eq_right hz, zero_div, zero_mul, add_zero] at k1
  rw [max_eq_right hd, zero_div, zero_mul, add_zero, len_sub_comm] at k2
  rw [abs_le]; constructor <;> linarith

/-- **C139** the height: if neither the true nor the computed end point is below the surface, the computed depth is the true one up to the
same bound -/
theorem C139_depth (hR : IsAxes R) (fa : IsF64 a) (a1 : 1 ≤ a) (a2 : a ≤ 1e10) (ff : IsF64 f) (f0 : 0 ≤ f) (f1 : f ≤ 0.01)
    {p : V3 ℝ} {L : ℝ} (hL : L ≤ 900 * a) {start : V3 (F64 B) × F64 B} (h : Fixes64 B a f R start p) (legs : List (V3 ℝ))
    (hF : ∀ v ∈ legs, IsF64V v) (hS : ∀ l, l <+: legs → 0.6 * a ≤ len (walked p l) ∧ len (walked p l) ≤ L) (hk : legs.length ≤ 10 ^ 9)
    {n : V3 ℝ} {d : ℝ} (hn : Geodetic a f R n d (walked p legs)) (hd : d ≤ 0) :
    ∃ z : ℝ, (traverse64 B a f R start legs).2 = F64.fin z ∧ (z ≤ 0 → |z - d| ≤ 4e-14 * legs.length * (a + L)) := by
  obtain ⟨p', ⟨m, z, h1, -, -, -, -, hg⟩, h2⟩ := C139_traverse B hR fa a1 a2 ff f0 f1 hL h legs hF hS hk
  refine ⟨z, by rw [h1], fun hz => (depth_of_near hR (by linarith) f0 (by norm_num at f1; linarith) hg hn hz hd).trans h2⟩

/-- a point on the equator of an ellipsoid -/
theorem geodetic_equator (f : ℝ) (a0 : 0 < a) : Geodetic a f Re ⟨1, 0, 0⟩ 0 ⟨a, 0, 0⟩ := by
  have hl : len (⟨1, 0, 0⟩ : V3 ℝ) = 1 := by unfold len; simp
  refine ⟨⟨a, 0, 0⟩, ?_, ⟨a, a0, ?_⟩, ?_⟩
  · simp [OnEllipsoid, app, dot, Re, a0.ne']
  · ext <;> simp [gradEllipsoid, app, dot, Re]
    field_simp
  · ext <;> simp

/-- the hypotheses of the traverse theorems are met by going 1 km up, 2 km down and 1 km up again from a point on the equator -/
theorem traverse_witness (f : ℝ) : ∃ (start : V3 (F64 B) × F64 B) (p : V3 ℝ) (legs : List (V3 ℝ)), Fixes64 B 6378137 f Re start p ∧ legs.length = 3 ∧
    (∀ v ∈ legs, IsF64V v ∧ v ≠ 0) ∧ (∀ l, l <+: legs → 0.6 * 6378137 ≤ len (walked p l) ∧ len (walked p l) ≤ 6379137) ∧ walked p legs = p := by
  have i : ∀ k : ℤ, |k| < 2 ^ 53 → IsF64 (k : ℝ) := fun k hk => isF64_int hk
  have i0 : IsF64 (0 : ℝ) := isF64_zero
  have i1 : IsF64 (1 : ℝ) := by simpa using i 1 (by norm_num)
  have ik : IsF64 (1000 : ℝ) := by simpa using i 1000 (by norm_num)
  have im : IsF64 (-2000 : ℝ) := by simpa using i (-2000) (by norm_num)
  have lz : ∀ t : ℝ, 0 ≤ t → len (⟨t, 0, 0⟩ : V3 ℝ) = t := by intro t ht; unfold len; simp [Real.sqrt_sq ht]
  refine ⟨((⟨1, 0, 0⟩ : V3 ℝ).flt, F64.fin 0), ⟨6378137, 0, 0⟩, [⟨1000, 0, 0⟩, ⟨-2000, 0, 0⟩, ⟨1000, 0, 0⟩],
    ⟨⟨1, 0, 0⟩, 0, rfl, ⟨i1, i0, i0⟩, i0, ?_, ?_, geodetic_equator _ (by norm_num)⟩, rfl, ?_, ?_, ?_⟩
  · rw [lz 1 (by norm_num)]; norm_num
  · rw [lz 1 (by norm_num)]; norm_num
  · intro v hv
    simp only [List.mem_cons, List.not_mem_nil, or_false] at hv
    rcases hv with rfl | rfl | rfl
    · exact ⟨⟨ik, i0, i0⟩, fun h => by simpa using congrArg V3.x h⟩
    · exact ⟨⟨im, i0, i0⟩, fun h => by simpa using congrArg V3.x h⟩
    · exact ⟨⟨ik, i0, i0⟩, fun h => by simpa using congrArg V3.x h⟩
  · intro l hl
    have ad : ∀ s t : ℝ, (⟨s, 0, 0⟩ : V3 ℝ) + ⟨t, 0, 0⟩ = ⟨s + t, 0, 0⟩ := by intro s t; ext <;> simp
    rw [List.prefix_iff_eq_take] at hl
    have hn : l.length = 0 ∨ l.length = 1 ∨ l.length = 2 ∨ 3 ≤ l.length := by omega
    rcases hn with h | h | h | h
    · rw [h] at hl; rw [hl]
      simp only [List.take, walked, List.foldl]
      rw [lz _ (by norm_num)]; norm_num
    · rw [h] at hl; rw [hl]
      simp only [List.take, walked, List.foldl, ad]
      rw [lz _ (by norm_num)]; norm_num
    · rw [h] at hl; rw [hl]
      simp only [List.take, walked, List.foldl, ad]
      rw [lz _ (by norm_num)]; norm_num
    · rw [List.take_of_length_le (by simpa using h)] at hl; rw [hl]
      simp only [walked, List.foldl, ad]
      rw [lz _ (by norm_num)]; norm_num
  · ext <;> simp [walked]
    norm_num

end Nv
