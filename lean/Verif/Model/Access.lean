import Verif.Model.Objects

/-!
# Model of the accessors and factory methods of `/repo/src/nvector/objects.py`
-/

namespace Nv
variable {α : Type} [PyFloat α]
open PyFloat

/-- objects.py:231-234 `GeoPoint.latlon` -/
def GeoPoint.latlon (p : GeoPoint α) : α × α × α := (p.latitude, p.longitude, p.z)

/-- objects.py:226-229 `GeoPoint.latlon_deg` -/
def GeoPoint.latlon_deg (p : GeoPoint α) : α × α × α := (p.latitude_deg, p.longitude_deg, p.z)

/-- objects.py:691-694 `Pvector.azimuth_deg` (also of ECEFvector) -/
def azimuth_deg (p : V3 α) : α := rad2deg (azimuth p)

/-- objects.py:704-707 `Pvector.elevation_deg` (also of ECEFvector) -/
def elevation_deg (p : V3 α) : α := rad2deg (elevation p)

/-- objects.py:846-851 `GeoPath.positionA` (the warning is not modelled) -/
def GeoPath.positionA (P : GeoPath α) : Position α := P.point_a

/-- objects.py:853-858 `GeoPath.positionB` (the warning is not modelled) -/
def GeoPath.positionB (P : GeoPath α) : Position α := P.point_b

/-- objects.py:1545-1548 `_default_frame(frame)` -/
def default_frame (frame : Option (FrameE α)) : Except PyErr (FrameE α) :=
  match frame with
  | none => FrameE.new
  | some F => .ok F

/-- objects.py:206-210 `GeoPoint(latitude, longitude, z=0, frame=None, degrees=False)` called by name -/
def GeoPoint.create (latitude longitude : α) (z : α := lit 0) (frame : Option (FrameE α) := none) (degrees : Bool := false) :
    Except PyErr (GeoPoint α) := do
  let F ← default_frame frame
  pure (GeoPoint.new latitude longitude z F degrees)

/-- objects.py:465-468 `Nvector(normal, z=0, frame=None)` -/
def Nvector.create (normal : V3 α) (z : α := lit 0) (frame : Option (FrameE α) := none) : Except PyErr (Nvector α) := do
  let F ← default_frame frame
  pure ⟨normal, z, F⟩

/-- objects.py:746-747 `ECEFvector(pvector, frame=None)` -/
def ECEFvector.create (pvector : V3 α) (frame : Option (FrameE α) := none) : Except PyErr (ECEFvector α) := do
  let F ← default_frame frame
  pure ⟨pvector, F⟩

/-- objects.py:1361-1365 `FrameE.GeoPoint(*args, **kwds)`: `frame` is the keyword argument of that name, which is dropped -/
def FrameE.GeoPoint (self : FrameE α) (latitude longitude : α) (z : α := lit 0) (degrees : Bool := false) (_frame : Option (FrameE α) := none) :
    Except PyErr (GeoPoint α) :=
  GeoPoint.create latitude longitude z (some self) degrees

/-- objects.py:1367-1371 `FrameE.Nvector(*args, **kwds)` -/
def FrameE.Nvector (self : FrameE α) (normal : V3 α) (z : α := lit 0) (_frame : Option (FrameE α) := none) : Except PyErr (Nvector α) :=
  Nvector.create normal z (some self)

/-- objects.py:1373-1377 `FrameE.ECEFvector(*args, **kwds)` -/
def FrameE.ECEFvector (self : FrameE α) (pvector : V3 α) (_frame : Option (FrameE α) := none) : Except PyErr (ECEFvector α) :=
  ECEFvector.create pvector (some self)

/-- objects.py:1382-1384 `_LocalFrame.Pvector(pvector)` -/
def LocalFrame.Pvector (self : LocalFrame α) (pvector : V3 α) : Pvector α := ⟨pvector, self⟩

end Nv
