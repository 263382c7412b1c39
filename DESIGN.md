# Formal model of pbrod/Nvector in Lean 4

## 1. Approach

The source (`/repo/src/nvector/{util,rotation,core,objects}.py`) is modelled function by function, branch by branch, with
exceptions as values.  There are three layers of state and three kinds of numbers.

**Layers**

* *One position* (`Verif/Model/*.lean`): the functions of `util`, `rotation`, `core` and the classes of `objects` for one
  position (a `3 x 1` array), as plain functions on `V3 α` / `M3 α`, with `Except PyErr` for calls that can raise.
* *Arrays* (`Verif/ND/*.lean`): numpy arrays with shapes, broadcasting (failing with `ValueError`), `dot`, `.T`, `einsum`,
  `norm(axis=0)`, `squeeze`, `ravel`, boolean column masks, ...; the vectorised functions and the vectorised classes written
  with exactly those primitives.  C52, C53, C60, C65, C66, C74 relate this layer to the one-position layer.
* *Memory* (`Verif/Mem/*.lean`): arrays are heap cells, objects are records of references, a call is a sequence of steps, each of which
  uses or makes one array or object.  C59, C67, C68 relate this layer to the array layer.
* *Threads* (`Verif/Mem/Threads.lean`): any number of threads that call methods, with the steps interleaved by a schedule (C136).

**Numbers** (class `PyFloat`, `Verif/Num.lean`; every model function is polymorphic over it)

* `XR` (`Verif/Num.lean`): `nan`, `-inf`, `+inf` or a finite *real*.  IEEE/numpy rules for NaN, infinities, division by zero and
  domain errors; finite results are exact.  Every claim not listed below uses this instance, or holds for every `PyFloat`.
* `F64 B` (`Verif/Float/Arith.lean`): binary64.  Every operation rounds to a nearest binary64 number (any tie rule) and
  overflows to an infinity; underflow is gradual.  `B : Spec.Binary64` bundles an arbitrary rounding function and an arbitrary
  mathematical library.  C69-C73, C75-C99 and C102-C112, C114, C115, C117-C120, C138, C139, C151 use this instance (C119 and C120 for sign-symmetric `B`, `Spec.SignSymmetric`).
* `Sgn α` (`Verif/Signed/Arith.lean`): any arithmetic `α` together with the sign bit of IEEE-754, so that `0.0` and `-0.0` differ.  C116
  proves for `Sgn XR`, `Sgn (F64 B)` or every `Sgn α` that the same model functions compute the values they compute without the sign bit, apart from
  the sign of a half turn and the longitude of a pole.
* Lean's `Float`: only used by `tools/` to evaluate the model on the numbers in the repository's own unit tests.

**Specification** (`Verif/Spec/*.lean`): small independent definitions - rotation matrices, ellipsoid and its normal, great
circles, arcs, angles, binary64 numbers, array shapes - that never mention the model.
**Theorems** (`Verif/Props/*.lean`): `Cnn_...` are the property theorems; the examples beside them show that concrete cases meet
the hypotheses.  Supporting lemmas are in `Verif/Lemmas` and `Verif/Float`.

## 2. Trusted base

* Lean's kernel, and the axioms `propext`, `Classical.choice`, `Quot.sound`.  Every theorem depends on at most these three (the
  reals of Mathlib need all of them; the theorems on lists, tables and memory need fewer).  No axioms of our own, no compiled
  tactics.
* The reading of the Python source recorded in the comment above each definition (file and lines).
* The reading of numpy's semantics recorded in `Verif/ND/Array.lean` and of scipy's `interp1d(kind='linear')` in
  `Verif/Model/Track.lean`.
* Idealisations of the `XR` instance: exact real arithmetic; one zero (C116 gives the effect of its sign); `x + _TINY` of `unit` is `x`.
  `Props/Tiny.lean` proves that rounding does absorb it for every norm `>= 2^-968`, and C69-C73 onwards drop this idealisation.
* Assumptions of the `F64` instance: `sin`, `cos`, `arcsin`, `arctan2`, `**` have a relative error of at most `2^-51` (plus
  `2^-1074` for results that underflow) and return binary64 numbers; the exact values `sin 0 = 0`, `cos 0 = 1`, `arcsin 0 = 0`,
  `arctan2(0, x > 0) = 0`; a power of a number that is not negative is not negative.  `x ** 2` of an array is `x * x` (numpy's
  fast path); `x ** n` of Python floats and of arrays with `n >= 3` is `pow`.  `+ - * / sqrt` round to nearest.  One zero (the effect of its sign is C116), no fused multiply-add in `dot`/`einsum`, sums of
  three terms from left to right (numpy's order for arrays this short).  `Spec.Binary64` is inhabited (`exists_binary64`).
* Threads (C136): the use of one array (reading, making or assigning its elements) and of the attributes of one object is one step.  Python can
  switch threads inside the numpy function, but no thread reads an array that another one is writing, so that finer steps make no difference.
* External code is a parameter, with its assumed behaviour (if any) in the theorem: geographiclib's `Direct`/`Inverse` (C46,
  C49, C50, C64-C66), scipy's `savgol_filter` (C54, C55, C61; in C147 it fits least squares polynomials) and the non-linear `interp1d` kinds (C54, C55, C61; in C153 they are linear rules in the samples).

### Modelled

`util.py`: `unit`, `norm` (via `norm3`), `_check_length_deviation`, `deg`, `rad`, `mdot`, `nthroot`, `isclose`, `allclose`,
`ELLIPSOID`, `ELLIPSOID_IX`, `get_ellipsoid` (`select_ellipsoid` is another name for it), `array_to_list_dict`.
`rotation.py`: all functions (`E_rotation`, `R2xyz`, `R2zyx`, `R_EL2n_E`, `R_EN2n_E`, `xyz2R`, `zyx2R`, `n_E2lat_lon`,
`n_E2R_EN`, `n_E_and_wa2R_EL`).
`core.py`: all functions except the plotting and documentation helpers.
`objects.py`: `GeoPoint`, `Nvector`, `ECEFvector`, `Pvector`, `FrameE`, `FrameN`, `FrameL`, `FrameB`, `GeoPath`, `delta_E`,
`delta_N`, `delta_L` with constructors, conversions, arithmetic, comparison, `displace`, `distance_and_azimuth`,
`interpolate`, `change_frame`, `direct`, `inverse` and the path methods (`diff_positions` is another name for `delta_E`).

`_examples.py`: the programs of the ten documented examples (both solutions and the alternatives), with parameters in place of the numbers
and the printed values in place of the text (`Model/Examples.lean`, C154, C155); `get_examples`, `get_examples_no_header`, `see_also`
and `_common.py` on texts as lists of characters (`Model/Doc.lean`, C161).

### Not modelled

`plot.py`, `_info*.py`, the printing in `_examples.py`, `test_docstrings` and `write_readme` of `_common.py`, `license.py`, the text of
warnings, dtype conversion (integers, float32, complex, object arrays other than in `array_to_list_dict`),
numpy views (all indexing copies, except where the memory model says that references are shared).
The functions of n-vectors and positions are modelled for arrays of at most two dimensions and three rows: of arrays with more
dimensions, of `np.cross` on arrays with two rows and of `einsum` stretching an inner dimension of 1 the model says nothing (it
raises `ValueError`; no theorem speaks about these cases).

Memory model simplifications: `FrameE` objects and Boolean arrays are values (nothing assigns to them); the `out` array of
`isclose` is fresh.  Dicts, lists, tuples and arrays as
containers have a memory model of their own (`Mem/Dicts.lean`, C113): `array_to_list_dict` assigns to dicts while it walks through
them, and `repr` calls it on a copy of the attribute dict (objects.py:133-140); the text `repr` builds from the result is in `Model/Repr.lean` (C140; the texts of numbers and the escapes in strings are not modelled).

## 3. Per property

(`properties.jsonl` has the full statements, `MANIFEST.json` the theorem names and notes.)

| id | modelled | proof |
|----|----------|-------|
| C01-C03 | `lat_lon2n_E`, `n_E2lat_lon` over any rotation `R_Ee` | trig identities, `arctan2` = argument of a complex number |
| C04, C05 | `n_EB_E2p_EB_E` | algebra; spec: ellipsoid equation and its gradient |
| C06, C07, C11 | `_compute_k`, `_equation23`, `p_EB_E2n_EB_E` | cubic resolvent, Ferrari factorisation; uniqueness of the positive root by monotonicity; exact conditions (C07_iff, C11_iff, C45_nvector_ecef_nvector_iff) from uniqueness of the nearest point |
| C08 | same | NaN inside the core `p+q<e^4`, defined outside |
| C09 | same, f=0 | specialisation |
| C10 | `n_EA_E_and_n_EB_E2p_AB_E` | vector algebra |
| C12-C14 | `n_E2R_EN`, `n_E_and_wa2R_EL`, `R_EL2n_E` | orthonormality by algebra, poles by the explicit branch |
| C15-C17 | `xyz2R`, `zyx2R`, `R2xyz`, `R2zyx` | trig/`arg`; gimbal lock by witness |
| C18, C19 | `great_circle_distance`, `euclidean_distance` | angle = arccos of dot; triangle inequality for angles |
| C20-C22 | `great_circle_normal`, `cross_track_distance`, `closest_point_on_great_circle`, `on_great_circle` | projection argument |
| C23 | `on_great_circle_path` | chord inequalities; witness above 120 degrees |
| C24 | `intersect` | triple products |
| C25, C26 | `interpolate` | arcs as cones; cross-product monotonicity |
| C27-C29 | direct/inverse problem on the sphere | orthonormal frame; witness at the poles |
| C30 | `mean_horizontal_position` | Cauchy-Schwarz, list induction |
| C31-C34, C57 | `unit`, `deg`, `rad`, `nthroot`, `isclose`, `_check_length_deviation` | real analysis; case split on NaN/inf |
| C35-C37 | ellipsoid tables, `get_ellipsoid`, `FrameE.__init__` | list induction on strings, finite table |
| C38-C45, C62, C63 | classes of `objects.py` with exceptions | rotation lemmas, reuse of the above; C45 by induction on conversion chains |
| C46-C51, C64 | `GeoPath`, `displace`, `distance_and_azimuth` | geodesic backend as parameter |
| C52, C53, C74 | array layer of the functions | broadcasting lemmas; wrong shapes as witnesses |
| C54, C55, C61 | `_interp_vectors`, `interp_nvectors`, `Nvector.interpolate` on lists of columns; `ND/Track.lean`: the same on arrays | omega; induction on the track; arrays against lists of columns, exceptions included |
| C56 | `array_to_list_dict` | structural induction |
| C113 | `Mem/Dicts.lean`: `array_to_list_dict` and the dict of `repr` on a heap of containers with any sharing | invariant on what every reference in memory denotes; induction on the recursion depth; acyclicity from the existence of a value |
| C114 | all scalar functions, `F64` instance | the IEEE rules for a NaN operand as a class of laws that both arithmetics satisfy; `SomeNaN`/`AllNaN` carried through each function |
| C116 | the scalar functions and classes over `Sgn α` | homomorphism `Sgn α → α` for every operation but `/` and `arctan2`; no divisor in the code is a negative zero; the sign laws both arithmetics satisfy as a class; Vermeille's formulas outside the core by the bounds of C76 |
| C117 | conversion methods, `F64` instance | each method moves the described point by at most a fixed fraction (C75, C76, C90 and the Lipschitz bounds of the geodetic map); induction over the chain |
| C118 | `nthroot`, `F64` instance | error of `pow` and of the rounded exponent; one Newton step scaled to one; the nearest double to 1/3 for the counterexample |
| C119 | great circle functions, deltas, `GeoPath`, `F64` instance | laws of negation and commutativity that survive rounding (`OddLaws`), pushed through the functions; no error bounds |
| C120 | conversions, `n_E2R_EN`, `delta_N`, azimuth, `F64` instance | sign changes of components commute with every step (`MirrorLaws`, `Mirrors`); nonzero computed lengths from C76 and C90 |
| C121 | `GeoPoint.displace` (great circle), reals | the heading on arrival in the local frame; the computed azimuth is its angle below half way round |
| C122 | great circle functions, conversions, local frames, objects, reals | dot, cross and length are invariant under rotations; everything the code does with `R_Ee` factors through `R_Ee·v` |
| C123 | conversions, local frames, deltas, paths, direct problem, reals | the ellipsoid and the pole are invariant under rotations about the polar axis (`Spec.spin`) |
| C124 | conversions, distances, deltas, paths, displacement, reals | every formula is homogeneous in lengths; `compute_k` only sees ratios |
| C125 | `n_EB_E2p_EB_E`, `p_EB_E2n_EB_E`, `to_nvector`, `to_geo_point`, reals | with λ = -d·a·D the function \|p-x\|² + λ(level(x)-1) is a convex quadratic minimised at the foot of the normal; the depth `p_EB_E2n_EB_E` returns is always less than that of the centre of curvature |
| C126 | distances, azimuth, direct problem, cross track, `distance_and_azimuth`, reals | scalar products of normal, east and north vectors written in latitude and longitude |
| C127 | Lipschitz bounds for depth, n-vector, position, distance, cross track, latitude, direct problem, reals | nearest-point property C125 and intermediate value theorem for the depth; `normal_close`, `pos_close`; triangle inequality for angles |
| C128 | velocity of `n_EB_E2p_EB_E`, `delta_N`, direct problem, reals | derivatives of the textbook formulas; columns of `n_E2R_EN` in latitude and longitude |
| C129 | `great_circle_distance`, `n_EB_E2p_EB_E`, `GeoPath.track_distance` against continuous paths on the ellipsoid, reals | the normal along a path moves at most 1/(a(1-f)²-d) as fast as the path; arcs of great circles of normals as paths; inscribed polygons; sharpness: speed along the meridian by the mean value inequality, chords across the pole |
| C130 | sides and azimuths of triangles on a sphere, reals | components in the frame of the corner; triple product |
| C131 | `interpolate`, `mean_horizontal_position`, `GeoPath.interpolate`, reals | half angle substitution: the interpolated point is at the angle T/2 + arctan((2t-1) tan(T/2)); bounds on the derivative of arctan |
| C132 | `mean_horizontal_position`, `interpolate`, `GeoPath.interpolate`, `interp_nvectors`, reals | a cap is a half space on the sphere; list induction; C55 |
| C133 | frames of all positions, `delta_*`, `distance_and_azimuth`, `GeoPath`, any number type | case analysis on the class; false for the great circle methods: `C133_silent`, `C133_counterexample` |
| C134, C135 | array layer of core functions, geodesic methods and classes: clashing lengths, empty arrays | shapes followed through every operation; `bshapes` by induction over the arguments |
| C136 | `Mem/Threads.lean`: threads of steps on the memory | rely-guarantee: what a thread knows is written by no other; invariant over all schedules, induction over the steps that remain |
| C137 | `lat_lon2n_E`, `xyz2R`, `zyx2R`, the direct problem, the GeoPoint and GeoPath methods (real model) | sine and cosine determine an angle up to full turns (`Real.Angle`); case analysis at the poles and at gimbal lock |
| C138 | binary64 model | C94/C97/C96 composed: an error of the azimuth matters in proportion to the sine of the distance, which cancels its condition number |
| C139 | binary64 model | one leg: nvec_to_ecef, rounded sum, ecef_to_nvec; induction over the legs in Cartesian space, where a leg is a translation |
| C140 | `_Common.__repr__` on value trees (`Model/Repr.lean`), texts of numbers abstract | text is a function of the content; unique readability: induction over the tree with the rest of the text generalised |
| C141 | `on_great_circle_path`, `closest_point_on_path` (real model) | position of the circle by its angle from the midpoint; the chord test becomes a comparison of cosines |
| C142 | `R2xyz`, `xyz2R` and the zyx versions (real model, signed zeros) | entries in gimbal lock computed; `arctan2(±0, ±0)` is a multiple of a half turn |
| C143 | direct and inverse problem at the poles (real model) | computation; angles modulo a turn |
| C144 | `GeoPoint.displace`, great circle, any axes (real model) | C27 for the default axes applied to the coordinates in the given axes |
| C145 | great circle functions and `GeoPath` methods on paths with coincident or opposite ends (real model) | the normal is NaN and NaN propagates; comparisons with NaN are false |
| C146 | `closest_point_on_great_circle`, `closest_point_on_path` at a pole of the circle | the normal is plus or minus the pole, the double cross product vanishes, then the tolerance test |
| C147 | `_interp_vectors`, `interp_nvectors`, `Nvector.interpolate` with smoothing; `savgol_filter` is any function that satisfies `Spec.SavitzkyGolay` | normal equations of least squares; uniqueness on the window; Lagrange interpolation; existence by projection |
| C148 | `E_ROTATION_MATRIX`, `E_rotation`, `FrameE`, every function with `R_Ee=None`, conversions of positions, on a memory of 3×3 arrays and frames (`Verif.Mem.Rotation`) | induction over the history of calls: only an assignment by the program changes an array |
| C149 | `distance_and_azimuth`, `displace`, `track_distance` by both methods on a sphere | both methods are computed in the east/north axes of latitude and longitude; the library is specified by `Leg` (going straight ahead on the sphere), a library meeting it is constructed in `Cases/SphereMethods` |
| C150 | `p_EB_E2n_EB_E`, `n_EB_E2p_EB_E`, object conversions for `f < 0` | the closed-form root is shown to be the one with `k + e² > 0` outside the core; uniqueness by exchanging the roles of the two axes; the rest as C06, C07, C08, C10, C11, C45, C125 |
| C151 | `ECEFvector.__add__`, `ECEFvector.__sub__`, conversions of position objects, in binary64 | one call (C117), then induction over the history; the true partial sums keep the computed positions in the range where one call is bounded |
| C152 | `FrameB`, `FrameN`, `FrameL`, `change_frame`, `to_ecef_vector`, `azimuth`, `elevation` | R_EB = R_EN Rz(yaw) Ry(pitch) Rx(roll) (C12, C15), so the North-East-Down frame cancels; the angles of the columns by `atan2` and `arcsin` |
| C153 | `interp_nvectors`, `Nvector.interpolate` with `kind` other than 'linear' | Scipy is an arbitrary function; its documented effect (a linear rule in the samples) is a hypothesis; weighted sums by induction over the samples |
| C154 | the programs of `_examples.py` (generic numbers, real model, binary64) | where both solutions run the same operations: unfolding, given that a frame passes the comparison with itself; on a sphere: C18, C46, C149 |
| C155 | example 10, alternative solution 2 (real model) | least distance (C20, C21) and chord (C19); half-angle formulas |
| C156 | five functions composed (real model), and the class methods on a sphere | the azimuth gives the unit tangent of the path at C (C130), so the normal of the path is known in the frame of C; trigonometry |
| C157 | interpolate, azimuth and latitude composed (real model); GeoPath.interpolate | the normal of the path has the component sin(course) cos(latitude) along the axis; Bessel inequality; chords lie below the sphere |
| C158 | intersect, interpolate, cross_track_distance composed (real model); GeoPath | two great circles have only two common positions; the zero of the linear weight between ends on different sides; half spaces for sides and regions |
| C159 | delta_N and elevation composed with the position on the ellipsoid (real model) | third column of R_EN is minus the normal; support inequality of the tangent plane of the ellipsoid; sine and cosine of the sum of the two elevations |
| C160 | azimuth, direct problem and intersect composed (real model); GeoPoint and GeoPath | the target is a linear combination of the station and the position laid off; two different great circles meet only in two antipodes |
| C161 | `_common.py` (docstring decorators, summaries), `get_examples*` on texts as lists of characters | induction over the text: templates of `str.format`, splitting into lines, longest common margin |
| C162 | great_circle_distance and interpolate composed (real model); sums of distances in binary64 | equality in the spherical triangle inequality: the stop is a positive combination of the ends; induction over the stops |
| C163 | both distances, cross_track_distance, interpolate, unit composed (real model) | sin is monotone on half angles; (A+B)x(AxB) is a positive multiple of A-B |
| C58 | `mdot` | algebra |
| C59, C67, C68 | memory model | heap invariant over call histories of any length; refinement of the array layer for every aliasing pattern |
| C60, C65, C66 | array layer of the classes | refinement of the one-position model for every number of positions |
| C100 | defaults of all functions and methods | the call without arguments equals the call with the documented values |
| C101 | `Model/Access.lean`: factories and accessors | unfolding, C42 |
| C69-C73, C75-C99, C102-C112, C114, C115, C117-C120 | `F64` instance of the same model functions | forward error analysis with explicit constants |

## 4. Claims that are false of the code

Each of these is `partial` in the manifest: a counterexample theorem shows the failure and the remaining inputs are proved.

| id | where the code deviates |
|----|-------------------------|
| C08 | NaN in the core of the Earth (about 43 km around the centre of WGS84), although only the centre is documented as singular |
| C17 | Euler angles at gimbal lock do not reproduce the rotation |
| C21, C47 | `closest_point_on_great_circle` of a pole of the circle is not on the circle |
| C23, C47 | `on_great_circle_path` and `closest_point_on_path` are wrong on paths of 120 degrees and more |
| C24 | `intersect` returns the zero vector when the first end point is 90 degrees from the intersection |
| C27-C29, C51 | direct problem at the poles (axes 'E'), `displace` with axes 'E' |
| C36 | ETRS89 has flattening 298.25..., five documented names raise `KeyError` |
| C37 | `FrameE(a=...)` or `FrameE(f=...)` alone is ignored |
| C38 | equality of body frames is not symmetric; equality is not transitive |
| C48 | interpolated points of a path with different end depths are not `on_path` |
| C53, C65, C66 | array results of several functions are of the wrong size, wrong, or raise |
| C56 | `array_to_list_dict` is not idempotent on object arrays |
| C61 | `Nvector.interpolate` with a scalar depth raises |
| C93 | in double precision `==` of geographic points depends on the order near the tolerance |
| C95 | in double precision the default tolerance 1e-8 m of `on_great_circle` is below the rounding error: an end point of a short path is not on its own great circle |
| C114 | `closest_point_on_path` of a missing (NaN) position is the end point B, not NaN (stated as the exception in the claim) |
| C96 | in double precision, as in exact arithmetic, the direct problem starting at a pole with `axes='E'` does not move: it takes the pole itself for east (`C96_pole_axes_E`) |
| C118 | from 2^52 on `nthroot` omits its Newton step: the cube root of 2^180 is at least 16 ulps below 2^60, not "to machine precision" |
| C121 | beyond half way round the azimuth returned by `displace(method='greatcircle')` points backwards |
| C155 | alternative solution 2 of example 10 loses the sign of the cross track distance, and its Euclidean distance is the chord and not the distance to the plane of the path |
| C133 | the great circle methods of `GeoPath` combine positions on different earths without complaint |

Also proved, without a claim of their own: a track of one sample gives NaN (C55), azimuths are compared without reduction
modulo a turn (C64), a scalar ECEF vector keeps `scalar=True` in a frame with several origins (C60), `unit` returns the x-axis
below 2^-537 and the zero vector above 2^512 (C70), example 8 prints the longitude of the other solution in line 546 of `_examples.py`, the n-vectors (-1, 0, 0) and (-1, -0, -0) have longitudes 180 and -180 degrees (C116).

## 5. Tests of the theorems

`seeded/LOG.jsonl` has one line per wrong program tried: the model definition edited, the edit, the claim it breaks and the
theorems that failed.  `seeded/run.py` is the harness; it works in a scratch copy.

Every theorem with hypotheses is applied to concrete values, so that no hypothesis is empty: beside the theorem, by an `example`
for a group of theorems with the same hypotheses, or in `Cases/*.lean` (`example := Cxx_name args`), where the arguments are
written out: two n-vectors that are no poles nor antipodes, the WGS84 ellipsoid, positions at sea, tilted axes.
