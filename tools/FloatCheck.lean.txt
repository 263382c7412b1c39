import Verif.Model.Core
/-! Runs the one-column model on `Float` against numbers quoted in /repo/src/nvector/tests.  Not part of the proofs.
Run with `lake env lean ../tools/FloatCheck.lean` in /verif/lean. -/
open Nv
def d2r (x : Float) : Float := deg2rad x
def show3 (v : V3 Float) : String := s!"{v.x} {v.y} {v.z}"
def LL (a b : Float) : V3 Float := lat_lon2n_E (d2r a) (d2r b)
-- Ex1: 331730.23478089 332997.87498927 17404.27136194, azimuth 45.10926324
#eval show3 (mulVec (tr (n_E2R_EN (LL 1 2))) (n_EA_E_and_n_EB_E2p_AB_E (LL 1 2) (LL 4 5) 3 6))
#eval rad2deg (α := Float) (let p := mulVec (tr (n_E2R_EN (LL 1 2))) (n_EA_E_and_n_EB_E2p_AB_E (LL 1 2) (LL 4 5) 3 6); Float.atan2 p.y p.x)
-- Ex2: 53.32637826, 63.46812344, -406.00719607
#eval
  let n : V3 Float := unit ⟨1,2,3⟩
  let R_EB := mdot (n_E2R_EN n) (zyx2R (d2r 10) (d2r 20) (d2r 30))
  let r := n_EA_E_and_p_AB_E2n_EB_E n (mulVec R_EB ⟨3000,2000,100⟩) (-400) 6378135 (1.0/298.26)
  let l := n_E2lat_lon r.1
  (rad2deg l.1, rad2deg l.2, r.2)
-- Ex3: 39.37874867, -48.0127875, 4702059.83429485
#eval
  let r := p_EB_E2n_EB_E (α := Float) ⟨6371e3*0.9, -6371e3, 6371e3*1.1⟩
  let l := n_E2lat_lon r.1
  (rad2deg l.1, rad2deg l.2, -r.2)
-- Ex4: 6373290.27721828, 222560.20067474, 110568.82718179
#eval show3 (n_EB_E2p_EB_E (LL 1 2) (-3))
-- Ex5: 332.45644411 332.41872486
#eval (great_circle_distance (LL 88 0) (LL 89 (-170)) 6371, euclidean_distance (LL 88 0) (LL 89 (-170)) 6371)
-- Ex6: 89.7999805 180
#eval let l := n_E2lat_lon (interpolate (LL 89 0, LL 89 180) 0.6); (rad2deg l.1, rad2deg l.2)
-- Ex7: 0.3841171702926, -0.046602405485689447, 0.9221074857571395
#eval show3 (mean_horizontal_position [LL 90 0, LL 60 10, LL 50 (-20)])
-- Ex8: 79.99154867 -90.01769837; azimuth 200-360
#eval let b := n_EA_E_distance_and_azimuth2n_EB_E (LL 80 (-90)) (1000/6371e3) (d2r 200)
      let l := n_E2lat_lon b; (rad2deg l.1, rad2deg l.2, rad2deg (n_EA_E_and_n_EB_E2azimuth (LL 80 (-90)) b 6371e3 0))
-- Ex9: 40.31864307, 55.90186788
#eval let l := n_E2lat_lon (intersect (LL 10 20, LL 30 40) (LL 50 60, LL 70 80)); (rad2deg l.1, rad2deg l.2)
-- Ex10: 11117.79911015, 11117.79346741
#eval match cross_track_distance (LL 0 0, LL 10 0) (LL 1 0.1) "greatcircle" 6371e3, cross_track_distance (LL 0 0, LL 10 0) (LL 1 0.1) "euclidean" 6371e3 with
  | .ok a, .ok b => (a,b) | _, _ => (0,0)
-- test_R2zxy
#eval let R := zyx2R (α := Float) (d2r 30) (d2r 20) (d2r 10); (show3 R.r0, show3 R.r1, show3 R.r2)
#eval let r := R2zyx (zyx2R (α := Float) (d2r 30) (d2r 20) (d2r 10)); (rad2deg r.1, rad2deg r.2.1, rad2deg r.2.2)
#eval let r := R2xyz (xyz2R (α := Float) (d2r 30) (d2r 20) (d2r 10)); (rad2deg r.1, rad2deg r.2.1, rad2deg r.2.2)
-- test_n_E_and_wa2R_EL: [[0,-1,0],[-1,0,0],[0,0,-1]] and diag(-1,1,-1)
#eval let R := n_E_and_wa2R_EL (α := Float) ⟨0,0,1⟩ (d2r 90); (show3 R.r0, show3 R.r1, show3 R.r2)
#eval let R := n_E2R_EN (α := Float) ⟨0,0,1⟩; (show3 R.r0, show3 R.r1, show3 R.r2)
-- closest point doc: 51.00038411380564, 1.900003311624411 ; on path
#eval let c := closest_point_on_great_circle (LL 51 1, LL 51 2) (LL 51 1.9)
      let l := n_E2lat_lon c; (rad2deg l.1, rad2deg l.2, on_great_circle_path (LL 51 1, LL 51 2) c)
#eval nthroot (27.0:Float) 3
-- issue: opposite side of a 150 degree path
#eval on_great_circle_path (LL 0 0, LL 0 150) (LL 0 (-105))
-- core singular region
#eval let r := p_EB_E2n_EB_E (α := Float) ⟨20000, 0, 10000⟩; (show3 r.1, r.2)
