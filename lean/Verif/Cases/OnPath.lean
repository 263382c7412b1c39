import Verif.Cases.ArrayPaths
import Verif.Props.OnPath

/-!
# Concrete cases: on_path (C48, C66)
-/

namespace Nv.Cases
open Spec Real
open XR (fin)

example := C48_iff plate P _ _ _ _ _ _ wa wf _ Re (atA _) (atB _) ppAB (1 / 3) (by norm_num) (by norm_num)
  "greatcircle" (by decide) (by decide) 0 0 le_rfl

end Nv.Cases

namespace Nv.Cases.Arr
open Nv.ND Nv.Cases
open XR (fin)

example : ∃ x, ∃ X, path.on_path plate (.nvec nvS) "exact" (fin 1) (fin 0) = .ok X ∧ IsVal (false && false && true) X 2 x :=
  ⟨_, C66_on_path_partial (P := path) pA pC b22 pS b21 two_pos plate "exact" (fin 1) (fin 0) (.inl (.inl (by decide)))
    (fun j _ => by
      unfold Nv.GeoPath.on_path
      rw [if_pos (.inl (by decide))]
      unfold Nv.GeoPath.on_ellipsoid_path
      dsimp only
      rw [goes _ _ rfl rfl, goes _ _ rfl rfl]
      rfl)⟩
example := C66_on_path_partial (P := path) pA pC b22 pS b21 two_pos plate "greatcircle" (fin 1) (fin 0) (.inr (.inr rfl))
  (x := fun j => (Spec.pathAt 2 2 _ _ j).on_great_circle_path _ none (fin 1) (fin 0))
  (fun j _ => by unfold Nv.GeoPath.on_path; rw [if_neg (by decide)])

end Nv.Cases.Arr
