import Verif.Cases.ArrayPaths
import Verif.Cases.Arrays
import Verif.Cases.Attitude
import Verif.Cases.BaseAngle
import Verif.Cases.Basic
import Verif.Cases.Bearings
import Verif.Cases.Crossing
import Verif.Cases.Degenerate
import Verif.Cases.Doc
import Verif.Cases.Earth
import Verif.Cases.Examples
import Verif.Cases.Final
import Verif.Cases.Float
import Verif.Cases.FloatMore
import Verif.Cases.Horizon
import Verif.Cases.Kinds
import Verif.Cases.Latitudes
import Verif.Cases.Leave
import Verif.Cases.Memory
import Verif.Cases.Metric
import Verif.Cases.Objects
import Verif.Cases.OnPath
import Verif.Cases.Prolate
import Verif.Cases.Rest
import Verif.Cases.Signed
import Verif.Cases.Smoothing
import Verif.Cases.Sphere
import Verif.Cases.SphereMethods
import Verif.Cases.Tables
import Verif.Cases.Threads
import Verif.Cases.TrackArrays
import Verif.Cases.Turns
import Verif.Float.Angle
import Verif.Float.AngleDiff
import Verif.Float.App
import Verif.Float.Apply
import Verif.Float.Arith
import Verif.Float.Basic
import Verif.Float.Degrees
import Verif.Float.Deltas
import Verif.Float.Direct
import Verif.Float.Euler
import Verif.Float.Exact
import Verif.Float.Foot
import Verif.Float.GreatCircle
import Verif.Float.Isclose
import Verif.Float.LatLon
import Verif.Float.LocalFrame
import Verif.Float.NthRoot
import Verif.Float.Ops
import Verif.Float.Polar
import Verif.Float.Position
import Verif.Float.Rel
import Verif.Float.RelS
import Verif.Float.Root
import Verif.Float.Rotation
import Verif.Float.RoundTrip
import Verif.Float.Surface
import Verif.Float.Unit
import Verif.Float.Vec
import Verif.Float.Vermeille
import Verif.Float.Wander
import Verif.Lemmas.Atan2
import Verif.Lemmas.Attr
import Verif.Lemmas.Conc
import Verif.Lemmas.ConcCore
import Verif.Lemmas.ConcObjects
import Verif.Lemmas.ConcPaths
import Verif.Lemmas.ConcPool
import Verif.Lemmas.ConcSafe
import Verif.Lemmas.ConcTrack
import Verif.Lemmas.ConcUnit
import Verif.Lemmas.Containers
import Verif.Lemmas.Doc
import Verif.Lemmas.Examples
import Verif.Lemmas.Fin
import Verif.Lemmas.Geodetic
import Verif.Lemmas.Mem
import Verif.Lemmas.MemAssign
import Verif.Lemmas.MemCore
import Verif.Lemmas.MemObjects
import Verif.Lemmas.MemPaths
import Verif.Lemmas.MemPres
import Verif.Lemmas.MemSame
import Verif.Lemmas.MemShare
import Verif.Lemmas.MemTrack
import Verif.Lemmas.MemUnit
import Verif.Lemmas.Mirror
import Verif.Lemmas.Missing
import Verif.Lemmas.ND
import Verif.Lemmas.Objects
import Verif.Lemmas.Odd
import Verif.Lemmas.Position
import Verif.Lemmas.Prolate
import Verif.Lemmas.Rot
import Verif.Lemmas.Signed
import Verif.Lemmas.Smoothing
import Verif.Lemmas.Sphere
import Verif.Lemmas.TrackArrays
import Verif.Lemmas.Vermeille
import Verif.Mem.Calls
import Verif.Mem.Dicts
import Verif.Mem.Heap
import Verif.Mem.Objects
import Verif.Mem.Rotation
import Verif.Mem.Threads
import Verif.Mem.Track
import Verif.Model.Access
import Verif.Model.Core
import Verif.Model.Doc
import Verif.Model.Examples
import Verif.Model.ListDict
import Verif.Model.Objects
import Verif.Model.Repr
import Verif.Model.Rotation
import Verif.Model.Track
import Verif.Model.Util
import Verif.ND.Array
import Verif.ND.Core
import Verif.ND.Objects
import Verif.ND.Paths
import Verif.ND.Track
import Verif.Num
import Verif.Props.AnyAxes
import Verif.Props.AtPole
import Verif.Props.Attitude
import Verif.Props.Axes
import Verif.Props.BaseAngle
import Verif.Props.Bearings
import Verif.Props.Cap
import Verif.Props.Columns
import Verif.Props.Containers
import Verif.Props.Convert
import Verif.Props.Crossing
import Verif.Props.CrossingObjects
import Verif.Props.Defaults
import Verif.Props.Degenerate
import Verif.Props.Direct
import Verif.Props.Displace
import Verif.Props.Distance
import Verif.Props.Doc
import Verif.Props.EarthCore
import Verif.Props.Ellipsoid
import Verif.Props.Empty
import Verif.Props.Examples
import Verif.Props.ExamplesExact
import Verif.Props.FloatAzimuth
import Verif.Props.FloatBody
import Verif.Props.FloatChain
import Verif.Props.FloatClosest
import Verif.Props.FloatClosestPath
import Verif.Props.FloatCross
import Verif.Props.FloatDelta
import Verif.Props.FloatDeltaGeo
import Verif.Props.FloatDirect
import Verif.Props.FloatDisplace
import Verif.Props.FloatDistance
import Verif.Props.FloatEq
import Verif.Props.FloatFrames
import Verif.Props.FloatGeo
import Verif.Props.FloatInterp
import Verif.Props.FloatIntersect
import Verif.Props.FloatInverse
import Verif.Props.FloatLatLon
import Verif.Props.FloatLegs
import Verif.Props.FloatMean
import Verif.Props.FloatMirror
import Verif.Props.FloatNearer
import Verif.Props.FloatOnPath
import Verif.Props.FloatPaths
import Verif.Props.FloatPolar
import Verif.Props.FloatPosition
import Verif.Props.FloatRoot
import Verif.Props.FloatRotation
import Verif.Props.FloatRoundTrip
import Verif.Props.FloatRoute
import Verif.Props.FloatSymmetry
import Verif.Props.FloatSymmetryPaths
import Verif.Props.FloatTrack
import Verif.Props.FloatTraverse
import Verif.Props.FloatUnit
import Verif.Props.FloatWander
import Verif.Props.Frames
import Verif.Props.GeoPath
import Verif.Props.Geodesics
import Verif.Props.Gimbal
import Verif.Props.Horizon
import Verif.Props.Interp
import Verif.Props.Isotropy
import Verif.Props.Kinds
import Verif.Props.LatLon
import Verif.Props.Latitudes
import Verif.Props.Leave
import Verif.Props.LeaveObjects
import Verif.Props.Lengths
import Verif.Props.ListDict
import Verif.Props.LongPath
import Verif.Props.Longitude
import Verif.Props.Memory
import Verif.Props.Missing
import Verif.Props.Mixing
import Verif.Props.NearerStation
import Verif.Props.Nearest
import Verif.Props.OnPath
import Verif.Props.PathObjects
import Verif.Props.Paths
import Verif.Props.Poleward
import Verif.Props.Prolate
import Verif.Props.ProlateDelta
import Verif.Props.Repr
import Verif.Props.ReprText
import Verif.Props.Rotations
import Verif.Props.RoundTripExact
import Verif.Props.Route
import Verif.Props.Rows
import Verif.Props.ScalarObjects
import Verif.Props.Scalars
import Verif.Props.Sharing
import Verif.Props.Shortest
import Verif.Props.ShortestSharp
import Verif.Props.SignedFloat
import Verif.Props.SignedObjects
import Verif.Props.SignedZero
import Verif.Props.Sizes
import Verif.Props.Smoothing
import Verif.Props.Speed
import Verif.Props.SphereMethods
import Verif.Props.Stability
import Verif.Props.Tables
import Verif.Props.Textbook
import Verif.Props.Threads
import Verif.Props.Tiny
import Verif.Props.Track
import Verif.Props.TrackArrays
import Verif.Props.Triangle
import Verif.Props.Turns
import Verif.Props.Units
import Verif.Props.Util
import Verif.Props.VectorGeo
import Verif.Props.VectorPaths
import Verif.Props.Vectors
import Verif.Props.Velocity
import Verif.Props.Walk
import Verif.Signed.Arith
import Verif.Spec.Array
import Verif.Spec.ArrayObjects
import Verif.Spec.Binary64
import Verif.Spec.Close
import Verif.Spec.Containers
import Verif.Spec.Doc
import Verif.Spec.Ellipsoid
import Verif.Spec.Kinds
import Verif.Spec.ListDict
import Verif.Spec.LongPath
import Verif.Spec.Memory
import Verif.Spec.Missing
import Verif.Spec.Repr
import Verif.Spec.Smoothing
import Verif.Spec.Sphere
import Verif.Spec.Threads
import Verif.Spec.Track
import Verif.Spec.TrackArrays
import Verif.Spec.Turns
import Verif.Spec.Vec
import Verif.Vec
