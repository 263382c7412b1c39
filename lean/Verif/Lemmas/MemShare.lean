import Verif.Lemmas.MemSame

/-!
# Which results share memory with the arguments
-/

namespace Nv.Mem
open Nv.ND (Arr)
open Nv.Spec
variable {α : Type}

/-- started with at least `n` arrays, a result satisfies `Q` -/
def Ensures {β : Type} (n : ℕ) (m : M α β) (Q : β → Heap α → Prop) : Prop :=
  ∀ h, n ≤ h.arrays.length → ∀ b h', m h = (.ok b, h') → Q b h'

section
variable {β γ : Type} {n : ℕ}

theorem Ensures.bind {m : M α β} {f : β → M α γ} {q : β → Prop} {Q : γ → Heap α → Prop} (a : Pres m)
    (e : Ensures n m fun b _ => q b) (k : ∀ b, q b → Ensures n (f b) Q) : Ensures n (m >>= f) Q := by
  intro h hn b h' he
  have E := a h
  cases e1 : m h with
  | mk x h1 =>
  rw [e1] at E
  cases x with
  | error x => rw [bind_error e1] at he; cases he
  | ok y =>
    rw [bind_ok e1] at he
    exact k y (e h hn y h1 e1) h1 (hn.trans E.arrays.length_le) b h' he

theorem Ensures.step {m : M α β} {f : β → M α γ} {Q : γ → Heap α → Prop} (a : Pres m) (k : ∀ b, Ensures n (f b) Q) :
    Ensures n (m >>= f) Q := Ensures.bind (q := fun _ => True) a (fun _ _ _ _ _ => trivial) fun b _ => k b

theorem Ensures.mono {m : M α β} {Q R : β → Heap α → Prop} (e : Ensures n m Q) (k : ∀ b h, Q b h → R b h) : Ensures n m R :=
  fun h hn b h' he => k b h' (e h hn b h' he)

theorem Ensures.pure {b : β} {q : β → Prop} (hb : q b) : Ensures n (Pure.pure b : M α β) fun b _ => q b := by
  intro h _ b' h' e
  cases e
  exact hb

end

/-- a new array -/
abbrev newA (n : ℕ) (r : ARef) : Prop := n ≤ r.base
/-- an `ECEFvector` with a new array -/
def newE (n : ℕ) (r : ERef) (h : Heap α) : Prop := ∃ o, h.ecefs[r.id]? = some o ∧ n ≤ o.pvector.base
/-- an `Nvector` with a new normal -/
def newNn (n : ℕ) (r : NRef) (h : Heap α) : Prop := ∃ o, h.nvecs[r.id]? = some o ∧ n ≤ o.normal.base
/-- an `Nvector` with new arrays -/
def newN (n : ℕ) (r : NRef) (h : Heap α) : Prop := ∃ o, h.nvecs[r.id]? = some o ∧ n ≤ o.normal.base ∧ n ≤ o.z.base
/-- a `GeoPoint` with new angles -/
def newGl (n : ℕ) (r : GRef) (h : Heap α) : Prop :=
  ∃ o, h.geos[r.id]? = some o ∧ n ≤ o.latitude.base ∧ n ≤ o.longitude.base
/-- a `GeoPoint` with new arrays -/
def newG (n : ℕ) (r : GRef) (h : Heap α) : Prop :=
  ∃ o, h.geos[r.id]? = some o ∧ n ≤ o.latitude.base ∧ n ≤ o.longitude.base ∧ n ≤ o.z.base
/-- a `Pvector` with a new array -/
def newP (n : ℕ) (r : VRef) (h : Heap α) : Prop := ∃ o, h.pvecs[r.id]? = some o ∧ n ≤ o.pvector.base

section
variable {n : ℕ}

theorem Ensures.alloc (A : Arr α) : Ensures n (Mem.alloc A) fun r _ => newA n r := by
  intro h hn r h' e
  unfold Mem.alloc at e
  cases e
  exact hn
theorem Ensures.allocE (e : Except PyErr (Arr α)) : Ensures n (Mem.allocE e) fun r _ => newA n r :=
  Ensures.step (Pres.lift e) fun _ => .alloc _
theorem Ensures.newEcef {o : EcefObj α} (ho : n ≤ o.pvector.base) : Ensures n (Mem.newEcef o) (newE n) := by
  intro h _ r h' e
  unfold Mem.newEcef at e
  cases e
  exact ⟨o, by simp, ho⟩
theorem Ensures.newPvec {o : PvecObj} (ho : n ≤ o.pvector.base) : Ensures n (Mem.newPvec o : M α _) (newP n) := by
  intro h _ r h' e
  unfold Mem.newPvec at e
  cases e
  exact ⟨o, by simp, ho⟩
theorem Ensures.newNvec {o : NvecObj α} (ho : n ≤ o.normal.base) (hz : n ≤ o.z.base) : Ensures n (Mem.newNvec o) (newN n) := by
  intro h _ r h' e
  unfold Mem.newNvec at e
  cases e
  exact ⟨o, by simp, ho, hz⟩
theorem Ensures.newNvecN {o : NvecObj α} (ho : n ≤ o.normal.base) : Ensures n (Mem.newNvec o) (newNn n) := by
  intro h _ r h' e
  unfold Mem.newNvec at e
  cases e
  exact ⟨o, by simp, ho⟩
theorem Ensures.newGeo {o : GeoObj α} (h1 : n ≤ o.latitude.base) (h2 : n ≤ o.longitude.base) (h3 : n ≤ o.z.base) :
    Ensures n (Mem.newGeo o) (newG n) := by
  intro h _ r h' e
  unfold Mem.newGeo at e
  cases e
  exact ⟨o, by simp, h1, h2, h3⟩
theorem Ensures.newGeoL {o : GeoObj α} (h1 : n ≤ o.latitude.base) (h2 : n ≤ o.longitude.base) :
    Ensures n (Mem.newGeo o) (newGl n) := by
  intro h _ r h' e
  unfold Mem.newGeo at e
  cases e
  exact ⟨o, by simp, h1, h2⟩

/-- a view of a new array -/
theorem row_base {r r' : ARef} {i : ℕ} (e : r.row i = .ok r') : r'.base = r.base := by
  unfold ARef.row at e
  split at e
  · split at e
    · cases e; rfl
    · cases e
  · cases e
theorem Ensures.row {r : ARef} (hr : n ≤ r.base) (i : ℕ) : Ensures n (Mem.lift (r.row i) : M α ARef) fun r _ => newA n r := by
  intro h _ r' h' e
  unfold Mem.lift at e
  injection e with e1 _
  change n ≤ r'.base
  rw [row_base e1]
  exact hr

end

variable [PyFloat α] {n : ℕ}
open PyFloat

theorem Ensures.assign {β : Type} {r : ARef} {f : List ℕ → α → α} {k : Unit → M α β} {Q : β → Heap α → Prop}
    (e : Ensures n (k ()) Q) : Ensures n (assign r f >>= k) Q := by
  intro h hn b h' he
  refine e _ ?_ b h' he
  simpa [Mem.assign] using hn

theorem Ensures.unit (r : ARef) (x : α) : Ensures n (Mem.unit r x) fun r _ => newA n r := by
  unfold Mem.unit
  refine .step (.readA _) fun v => .step (.lift _) fun _ => .bind (.allocE _) (.allocE _) fun u hu => ?_
  split
  · exact .assign (.assign (.pure hu))
  · intro h _ b h' e; cases e

theorem Ensures.n_EB_E2p_EB_E (a b : ARef) (x f : α) (R : M3 α) : Ensures n (Mem.n_EB_E2p_EB_E a b x f R) fun r _ => newA n r :=
  .step (.readA _) fun _ => .step (.lift _) fun _ => .step (.allocE _) fun _ => .step (.unit _ _) fun _ => .step (.readA _) fun _ =>
    .step (.readA _) fun _ => .allocE _
theorem Ensures.p_EB_E2n_EB_E (p : ARef) (x f : α) (R : M3 α) :
    Ensures n (Mem.p_EB_E2n_EB_E p x f R) fun r _ => newA n r.1 ∧ newA n r.2 := by
  unfold Mem.p_EB_E2n_EB_E
  refine .step (.readA _) fun _ => .step (.lift _) fun _ => .step (.lift _) fun t => ?_
  obtain ⟨t1, t2, t3⟩ := t
  refine .bind (.alloc _) (.alloc _) fun d hd => .step (.allocE _) fun _ => .bind (.unit _ _) (.unit _ _) fun u hu => ?_
  exact .pure (q := fun r : ARef × ARef => newA n r.1 ∧ newA n r.2) ⟨hu, hd⟩
theorem Ensures.n_E2lat_lon (a : ARef) (R : M3 α) : Ensures n (Mem.n_E2lat_lon a R) fun r _ => newA n r.1 ∧ newA n r.2 := by
  unfold Mem.n_E2lat_lon
  refine .step (.readA _) fun _ => .step (.lift _) fun t => ?_
  obtain ⟨t1, t2⟩ := t
  refine .bind (.alloc _) (.alloc _) fun u hu => .bind (.alloc _) (.alloc _) fun d hd => ?_
  exact .pure (q := fun r : ARef × ARef => newA n r.1 ∧ newA n r.2) ⟨hu, hd⟩
theorem Ensures.lat_lon2n_E (a b : ARef) (R : M3 α) : Ensures n (Mem.lat_lon2n_E a b R) fun r _ => newA n r :=
  .step (.readA _) fun _ => .step (.readA _) fun _ => .allocE _
theorem Ensures.mean_horizontal_position (a : ARef) : Ensures n (Mem.mean_horizontal_position a : M α _) fun r _ => newA n r :=
  .step (.readA _) fun _ => .step (.allocE _) fun _ => .unit _ _
theorem Ensures.intersect (a b c d : ARef) : Ensures n (Mem.intersect a b c d : M α _) fun r _ => newA n r :=
  .step (.readA _) fun _ => .step (.readA _) fun _ => .step (.readA _) fun _ => .step (.readA _) fun _ => .step (.allocE _) fun _ =>
    .step (.unit _ _) fun _ => .step (.readA _) fun _ => .allocE _
theorem Ensures.closest_point_on_great_circle (a b c : ARef) :
    Ensures n (Mem.closest_point_on_great_circle a b c : M α _) fun r _ => newA n r :=
  .step (.great_circle_normal _ _) fun _ => .step (.readA _) fun _ => .step (.readA _) fun _ => .step (.allocE _) fun _ =>
    .step (.unit _ _) fun _ => .step (.readA _) fun _ => .allocE _

/-! ## Objects -/

theorem Ensures.geo_to_nvector (r : GRef) : Ensures n (Mem.geo_to_nvector r : M α _) (newNn n) :=
  .step (.getGeo _) fun _ => .bind (.lat_lon2n_E _ _ _) (.lat_lon2n_E _ _ _) fun _ hu => .newNvecN hu
theorem Ensures.nvec_to_ecef_vector (r : NRef) : Ensures n (Mem.nvec_to_ecef_vector r : M α _) (newE n) :=
  .step (.getNvec _) fun _ => .bind (.n_EB_E2p_EB_E _ _ _ _ _) (.n_EB_E2p_EB_E _ _ _ _ _) fun _ hu => .step (.isScalar _) fun _ =>
    .newEcef hu
theorem Ensures.pvec_to_ecef_vector (r : VRef) : Ensures n (Mem.pvec_to_ecef_vector r : M α _) (newE n) :=
  .step (.getPvec _) fun _ => .step (.R_EN _) fun _ => .step (.readA _) fun _ => .step (.readA _) fun _ =>
    .bind (.allocE _) (.allocE _) fun _ hu => .step (.getFrame _) fun _ => .step (.getNvec _) fun _ => .newEcef hu
theorem Ensures.ecef_to_nvector (r : ERef) : Ensures n (Mem.ecef_to_nvector r : M α _) (newN n) := by
  unfold Mem.ecef_to_nvector
  refine .step (.getEcef _) fun _ => .bind (.p_EB_E2n_EB_E _ _ _ _) (.p_EB_E2n_EB_E _ _ _ _) fun t ht => ?_
  obtain ⟨t1, t2⟩ := t
  dsimp only at ht ⊢
  split
  · exact .bind (.lift _) (.row ht.2 0) fun _ hd => .newNvec ht.1 hd
  · exact .newNvec ht.1 ht.2
theorem Ensures.GeoPoint {a b z : ARef} (ha : n ≤ a.base) (hb : n ≤ b.base) (hz : n ≤ z.base) (F : FrameE α) :
    Ensures n (Mem.GeoPoint a b z F false) (newG n) :=
  .bind (q := newA n) (.pure _) (.pure ha) fun _ ha => .bind (q := newA n) (.pure _) (.pure hb) fun _ hb => .step (.lift _) fun _ => .step (.lift _) fun _ =>
    .newGeo ha hb hz
theorem Ensures.GeoPointL {a b z : ARef} (ha : n ≤ a.base) (hb : n ≤ b.base) (F : FrameE α) :
    Ensures n (Mem.GeoPoint a b z F false) (newGl n) :=
  .bind (q := newA n) (.pure _) (.pure ha) fun _ ha => .bind (q := newA n) (.pure _) (.pure hb) fun _ hb => .step (.lift _) fun _ => .step (.lift _) fun _ =>
    .newGeoL ha hb
theorem Ensures.GeoPointD (a b z : ARef) (F : FrameE α) : Ensures n (Mem.GeoPoint a b z F true) (newGl n) :=
  .step (.readA _) fun _ => .bind (.alloc _) (.alloc _) fun _ ha => .step (.readA _) fun _ => .bind (.alloc _) (.alloc _) fun _ hb =>
    .step (.lift _) fun _ => .step (.lift _) fun _ => .newGeoL ha hb
theorem Ensures.nvec_to_geo_point (r : NRef) : Ensures n (Mem.nvec_to_geo_point r : M α _) (newGl n) := by
  unfold Mem.nvec_to_geo_point
  refine .step (.getNvec _) fun _ => .bind (.n_E2lat_lon _ _) (.n_E2lat_lon _ _) fun t ht => ?_
  obtain ⟨t1, t2⟩ := t
  refine .step (.isScalar _) fun b => ?_
  dsimp only at ht ⊢
  split
  · exact .bind (.lift _) (.row ht.1 0) fun _ h1 => .bind (.lift _) (.row ht.2 0) fun _ h2 => .GeoPointL h1 h2 _
  · exact .GeoPointL ht.1 ht.2 _
theorem Ensures.ecef_add (p q : ERef) : Ensures n (Mem.ecef_add p q : M α _) (newE n) :=
  .step (.getEcef _) fun _ => .step (.getEcef _) fun _ => .step (.lift _) fun _ => .step (.readA _) fun _ => .step (.readA _) fun _ =>
    .bind (.allocE _) (.allocE _) fun _ hu => .newEcef hu
theorem Ensures.ecef_sub (p q : ERef) : Ensures n (Mem.ecef_sub p q : M α _) (newE n) :=
  .step (.getEcef _) fun _ => .step (.getEcef _) fun _ => .step (.lift _) fun _ => .step (.readA _) fun _ => .step (.readA _) fun _ =>
    .bind (.allocE _) (.allocE _) fun _ hu => .newEcef hu
theorem Ensures.ecef_neg (p : ERef) : Ensures n (Mem.ecef_neg p : M α _) (newE n) :=
  .step (.getEcef _) fun _ => .step (.readA _) fun _ => .bind (.alloc _) (.alloc _) fun _ hu => .newEcef hu
theorem Ensures.nvec_add (p q : NRef) : Ensures n (Mem.nvec_add p q : M α _) (newN n) :=
  .step (.getNvec _) fun _ => .step (.getNvec _) fun _ => .step (.lift _) fun _ => .step (.readA _) fun _ => .step (.readA _) fun _ =>
    .step (.readA _) fun _ => .step (.readA _) fun _ =>
    .bind (.allocE _) (.allocE _) fun _ hu => .bind (.allocE _) (.allocE _) fun _ hv => .newNvec hu hv
theorem Ensures.nvec_sub (p q : NRef) : Ensures n (Mem.nvec_sub p q : M α _) (newN n) :=
  .step (.getNvec _) fun _ => .step (.getNvec _) fun _ => .step (.lift _) fun _ => .step (.readA _) fun _ => .step (.readA _) fun _ =>
    .step (.readA _) fun _ => .step (.readA _) fun _ =>
    .bind (.allocE _) (.allocE _) fun _ hu => .bind (.allocE _) (.allocE _) fun _ hv => .newNvec hu hv
theorem Ensures.nvec_neg (p : NRef) : Ensures n (Mem.nvec_neg p : M α _) (newN n) :=
  .step (.getNvec _) fun _ => .step (.readA _) fun _ => .step (.readA _) fun _ =>
    .bind (.alloc _) (.alloc _) fun _ hu => .bind (.alloc _) (.alloc _) fun _ hv => .newNvec hu hv
theorem Ensures.nvec_mul (p : NRef) (c : ARef) : Ensures n (Mem.nvec_mul p c : M α _) (newN n) :=
  .step (.getNvec _) fun _ => .step (.readA _) fun _ => .step (.readA _) fun _ => .step (.readA _) fun _ =>
    .bind (.allocE _) (.allocE _) fun _ hu => .bind (.allocE _) (.allocE _) fun _ hv => .newNvec hu hv
theorem Ensures.nvec_div (p : NRef) (c : ARef) : Ensures n (Mem.nvec_div p c : M α _) (newN n) :=
  .step (.getNvec _) fun _ => .step (.readA _) fun _ => .step (.readA _) fun _ => .step (.readA _) fun _ =>
    .bind (.allocE _) (.allocE _) fun _ hu => .bind (.allocE _) (.allocE _) fun _ hv => .newNvec hu hv
theorem Ensures.nvec_mean (p : NRef) : Ensures n (Mem.nvec_mean p : M α _) (newN n) :=
  .step (.getNvec _) fun _ => .bind (.mean_horizontal_position _) (.mean_horizontal_position _) fun _ hu => .step (.readA _) fun _ =>
    .bind (.alloc _) (.alloc _) fun _ hv => .newNvec hu hv
theorem Ensures.delta_E (a b : PosRef) : Ensures n (Mem.delta_E a b : M α _) (newE n) :=
  .step (.to_ecef_vector _) fun _ => .step (.to_ecef_vector _) fun _ => .ecef_sub _ _
theorem Ensures.change_frame (r : ERef) (f : FRef) : Ensures n (Mem.change_frame r f : M α _) (newP n) :=
  .step (.getEcef _) fun _ => .step (.getFrame _) fun _ => .step (.getNvec _) fun _ => .step (.lift _) fun _ =>
    .step (.R_EN _) fun _ => .step (.readA _) fun _ => .step (.readA _) fun _ => .bind (.allocE _) (.allocE _) fun _ hu => .newPvec hu
theorem Ensures.delta_N (a b : PosRef) : Ensures n (Mem.delta_N a b : M α _) (newP n) :=
  .step (.delta_E _ _) fun _ => .step (.FrameN _) fun _ => .change_frame _ _
theorem Ensures.delta_L (a b : PosRef) (w : ARef) : Ensures n (Mem.delta_L a b w : M α _) (newP n) :=
  .step (.FrameL _ _) fun _ => .step (.delta_E _ _) fun _ => .change_frame _ _
theorem Ensures.path_intersect (P Q : PathRef) : Ensures n (Mem.path_intersect P Q : M α _) (newN n) := by
  unfold Mem.path_intersect
  refine .step (.nvectors _) fun t => ?_
  obtain ⟨a1, a2⟩ := t
  refine .step (.nvectors _) fun t => ?_
  obtain ⟨b1, b2⟩ := t
  refine .step (.getNvec _) fun _ => .step (.getNvec _) fun _ => .step (.getNvec _) fun _ => .step (.getNvec _) fun _ => ?_
  refine .bind (.intersect _ _ _ _) (.intersect _ _ _ _) fun _ hu => ?_
  refine .step (.readA _) fun _ => .step (.readA _) fun _ => .step (.readA _) fun _ => .step (.readA _) fun _ => ?_
  exact .bind (.allocE _) (.allocE _) fun _ hv => .step (.getPath _) fun _ => .step (.frameOf _) fun _ => .newNvec hu hv
theorem Ensures.closest_nvector (P : PathRef) (p : PosRef) : Ensures n (Mem.closest_nvector P p : M α _) (newN n) := by
  unfold Mem.closest_nvector
  refine .step (.to_nvector _) fun _ => .step (.nvectors _) fun t => ?_
  obtain ⟨a1, a2⟩ := t
  refine .step (.getNvec _) fun _ => .step (.getNvec _) fun _ => .step (.readA _) fun _ => .step (.readA _) fun _ => ?_
  refine .bind (.allocE _) (.allocE _) fun _ hv => .step (.getNvec _) fun _ => ?_
  exact .bind (.closest_point_on_great_circle _ _ _) (.closest_point_on_great_circle _ _ _) fun _ hu => .newNvec hu hv
theorem Ensures.path_interpolate (P : PathRef) (t : ARef) : Ensures n (Mem.path_interpolate P t : M α _) (newN n) := by
  unfold Mem.path_interpolate
  refine .step (.nvectors _) fun x => ?_
  obtain ⟨a, b⟩ := x
  refine .step (.nvec_sub _ _) fun d => .step (.nvec_mul _ _) fun u => ?_
  intro h hn r h' e
  have E := Pres.nvec_add a u h
  cases e1 : Mem.nvec_add a u h with
  | mk x h1 =>
  rw [e1] at E
  cases x with
  | error x => rw [bind_error e1] at e; cases e
  | ok c =>
    rw [bind_ok e1] at e
    obtain ⟨o, eo, ho1, ho2⟩ := Ensures.nvec_add (n := n) a u h hn c h1 e1
    rw [bind_ok (show Mem.getNvec c h1 = (.ok o, h1) by unfold Mem.getNvec; rw [look_run, eo]; rfl)] at e
    have E2 := Pres.unit o.normal (nan : α) h1
    cases e2 : Mem.unit o.normal (nan : α) h1 with
    | mk x h2 =>
    rw [e2] at E2
    cases x with
    | error x => rw [bind_error e2] at e; cases e
    | ok v =>
      rw [bind_ok e2] at e
      have hv : n ≤ v.base := Ensures.unit (n := n) o.normal (nan : α) h1 (hn.trans E.arrays.length_le) v h2 e2
      have eo2 := prefix_get E2.nvecs eo
      rw [bind_ok (show setNormal c v h2 = (.ok (), (setNormal c v h2).2) from rfl)] at e
      cases e
      exact ⟨{ o with normal := v }, by simp [setNormal, eo2], hv, ho2⟩

/-! ## Writing to an array that an object does not use -/

omit [PyFloat α] in
theorem arrVal_written {h : Heap α} {a r : ARef} (hr : a.base ≠ r.base) (f : List ℕ → α → α) :
    arrVal (written a f h) r = arrVal h r := by
  simp [written, Mem.assign, arrVal, hr]

theorem newE.written {r : ERef} {h : Heap α} (e : newE n r h) {a : ARef} (ha : a.base < n) (f : List ℕ → α → α) :
    ecefVal (written a f h) r = ecefVal h r := by
  obtain ⟨o, eo, ho⟩ := e
  have eo' : (Spec.written a f h).ecefs[r.id]? = some o := eo
  simp only [ecefVal, eo, eo', Option.bind_eq_bind, Option.bind_some]
  rw [arrVal_written (by omega)]
theorem newN.written {r : NRef} {h : Heap α} (e : newN n r h) {a : ARef} (ha : a.base < n) (f : List ℕ → α → α) :
    nvecVal (written a f h) r = nvecVal h r := by
  obtain ⟨o, eo, h1, h2⟩ := e
  have eo' : (Spec.written a f h).nvecs[r.id]? = some o := eo
  simp only [nvecVal, eo, eo', Option.bind_eq_bind, Option.bind_some]
  rw [arrVal_written (by omega), arrVal_written (by omega)]
theorem newG.written {r : GRef} {h : Heap α} (e : newG n r h) {a : ARef} (ha : a.base < n) (f : List ℕ → α → α) :
    geoVal (written a f h) r = geoVal h r := by
  obtain ⟨o, eo, h1, h2, h3⟩ := e
  have eo' : (Spec.written a f h).geos[r.id]? = some o := eo
  simp only [geoVal, eo, eo', Option.bind_eq_bind, Option.bind_some]
  rw [arrVal_written (by omega), arrVal_written (by omega), arrVal_written (by omega)]

end Nv.Mem
