{
 "C01": [
  "proved",
  "all real angles, all rotation matrices R_Ee"
 ],
 "C02": [
  "proved",
  "all nonzero n, all rotation matrices"
 ],
 "C03": [
  "proved",
  ""
 ],
 "C04": [
  "proved",
  "all a > 0, f < 1"
 ],
 "C05": [
  "proved",
  ""
 ],
 "C06": [
  "proved",
  "0 <= f < 1; every position outside the core"
 ],
 "C07": [
  "proved",
  "exact condition (above the evolute, outside the core) and a simple sufficient one"
 ],
 "C12": [
  "proved",
  ""
 ],
 "C13": [
  "proved",
  ""
 ],
 "C14": [
  "proved",
  ""
 ],
 "C15": [
  "proved",
  ""
 ],
 "C16": [
  "proved",
  ""
 ],
 "C17": [
  "partial",
  "False as stated at gimbal lock: counterexamples C17_gimbal_lock_counterexample(_zyx); proved for every rotation whose middle angle is not +-pi/2; C142 says exactly which matrices are recovered"
 ],
 "C18": [
  "proved",
  ""
 ],
 "C19": [
  "proved",
  ""
 ],
 "C20": [
  "proved",
  ""
 ],
 "C21": [
  "partial",
  "Proved for every B that is not a pole of the circle; for a pole the returned value is not on the circle (C21_pole_never_on_circle)"
 ],
 "C22": [
  "proved",
  ""
 ],
 "C23": [
  "partial",
  "Exact for paths shorter than 120 degrees; false for every longer path: C23_long_path_counterexample"
 ],
 "C58": [
  "proved",
  ""
 ],
 "C08": [
  "partial",
  "False as stated: C08_core_nan shows that on an oblate Earth the function returns only NaN in the rest of the core (about 43 km around the centre); proved for every position outside the core, for the axis inside it, and for every p != 0 on a sphere"
 ],
 "C09": [
  "proved",
  ""
 ],
 "C10": [
  "proved",
  ""
 ],
 "C11": [
  "proved",
  "conditions on the end point as in C06/C07"
 ],
 "C24": [
  "partial",
  "False when the first end point is exactly 90 degrees from the intersection: C24_quarter_turn_counterexample (zero vector, no warning); everything else proved, NaN characterised exactly"
 ],
 "C25": [
  "proved",
  ""
 ],
 "C26": [
  "proved",
  ""
 ],
 "C27": [
  "partial",
  "Default axes: every position. Other orientations: every position but the poles; false at the poles for axes 'E': C27_pole_counterexample"
 ],
 "C28": [
  "partial",
  "Every start that is not a pole; false at the poles: C28_pole_counterexample"
 ],
 "C29": [
  "partial",
  "Every start that is not a pole and every B; false at the poles: C29_pole_counterexample"
 ],
 "C30": [
  "proved",
  "plus: cancelling positions give the x-axis silently"
 ],
 "C31": [
  "proved",
  "exact real model plus the binary64 fact that the added smallest normal number is absorbed for every nonzero computed norm"
 ],
 "C32": [
  "proved",
  ""
 ],
 "C33": [
  "proved",
  ""
 ],
 "C34": [
  "proved",
  ""
 ],
 "C35": [
  "proved",
  "ASCII letters"
 ],
 "C36": [
  "partial",
  "False for row 19 and five documented names: C36_etrs89_counterexample, C36_names_counterexample"
 ],
 "C57": [
  "proved",
  ""
 ],
 "C37": [
  "partial",
  "both given / table lookup proved; a lone a or f is ignored: C37_lone_argument_counterexample"
 ],
 "C38": [
  "partial",
  "reflexive, != is negation, unrelated types; symmetry false for body frames (counterexample), equality not transitive (counterexample)"
 ],
 "C39": [
  "proved",
  ""
 ],
 "C40": [
  "proved",
  ""
 ],
 "C41": [
  "proved",
  ""
 ],
 "C42": [
  "proved",
  ""
 ],
 "C43": [
  "proved",
  ""
 ],
 "C44": [
  "proved",
  ""
 ],
 "C45": [
  "proved",
  "exact, every chain of conversions, every rotation R_Ee, positions above the evolute and outside the core (where one representation determines the point)"
 ],
 "C46": [
  "proved",
  ""
 ],
 "C47": [
  "partial",
  "False for paths of 120 degrees or more (C47_long_path_counterexample) and when the point is a pole of the path (C47_pole_counterexample); proved for every other point and path"
 ],
 "C48": [
  "partial",
  "False when the end points have different depths (C48_depth_counterexample); proved for equal depths on every frame, and C48_iff says for any depths exactly which interpolated points are on the path"
 ],
 "C49": [
  "proved",
  ""
 ],
 "C50": [
  "proved",
  "relative to the stated contract of the external geographiclib solver (a parameter of the model)"
 ],
 "C51": [
  "partial",
  "Proved for the default axes 'e'; with axes 'E' the great circle displacement uses the wrong axes (C51_axes_E_counterexample)"
 ],
 "C52": [
  "proved",
  "every modelled function of core.py, rotation.py and util.py, any number of columns, any float type; column j of the result is the scalar function of the columns j"
 ],
 "C53": [
  "partial",
  "Exact results are given for all sizes. The documented max(n, m) results are false for n >= 2: great_circle_distance returns n*max(n,m) numbers, cross_track_distance n*m, on_great_circle_path raises, intersect and closest_point_on_great_circle raise unless k is 1 or 3 and return wrong points for k = 3 (counterexample theorems)"
 ],
 "C54": [
  "proved",
  "for every savgol_filter (external, a parameter)"
 ],
 "C55": [
  "proved",
  "scipy interp1d(kind=linear) is modelled from its source; a track of one sample gives NaN (C55_single_sample); C55_arrays is the same function on 3 x n arrays, exceptions included"
 ],
 "C56": [
  "partial",
  "False for arrays of objects that hold tuples or arrays (C56_object_array_counterexample); proved for all others; contents preserved for every value"
 ],
 "C61": [
  "partial",
  "False for a common depth such as the default z=0: ValueError (C61_scalar_depth_counterexample); proved for one depth per column; C61_arrays is the method on the arrays of the object, exceptions included"
 ],
 "C62": [
  "proved",
  "FrameN/FrameL origin on the ellipsoid and independent of the depth, FrameB origin is the point"
 ],
 "C63": [
  "proved",
  "geodetic to ECEF formulas and North/East/Down columns for the axes e and E, angles strictly between the poles for NED"
 ],
 "C64": [
  "proved",
  "great circle methods for proper paths; closest point excludes poles of the circle and intersect excludes the quarter turn (C21, C24); ellipsoidal on_path relative to every behaviour of geographiclib; C64_south_counterexample shows azimuths are not compared modulo a turn"
 ],
 "C60": [
  "proved",
  "Proved on the array level model of the classes (Verif.ND.Objects): IsPos s n P g says that the object P holds the n positions g 0..g (n-1) and is a scalar position iff s. Constructors, every conversion, every finite sequence of conversions (C60_conversions, induction), the attributes scalar/length/azimuth/elevation, the local frames, delta_E/N/L and all vector arithmetic keep scalars scalar and n positions n positions, each with the value of the scalar model. C60_change_frame_counterexample: a scalar ECEF vector expressed in a frame with l >= 2 origins has l columns but keeps scalar=True, so length returns only the first; change_frame, delta_L and IsPvec therefore ask for one origin in the scalar case."
 ],
 "C65": [
  "partial",
  "Proved for inverse, direct, displace (both methods), distance_and_azimuth by the ellipsoid method and, from one position, by the great circle method. False for the great circle method and a vector of n >= 2 positions: the call always raises ValueError (C65_distance_and_azimuth_counterexample), because great_circle_distance returns n times too many values."
 ],
 "C66": [
  "partial",
  "Proved: interpolate and ellipsoidal on_path for all sizes; track_distance for the ellipsoidal and euclidean methods and for one starting point; cross_track_distance, on_great_circle and on_path for one path or one point; intersect and the closest points for one path and one position. The counterexample theorems show that every other case raises ValueError (or, for three columns, C53, is wrong), and that track_distance with an explicit radius returns only the first path's distance."
 ],
 "C59": [
  "proved",
  "Memory model of arrays and objects with references; histories of any length of all constructors, functions and methods (including Nvector.interpolate and interp_nvectors), with exceptions. `repr` is not in this memory model (it works on a copy of the attribute dict, objects.py:133-140; C113)."
 ],
 "C67": [
  "proved",
  "All functions and methods of the memory model compute the values of the array model for every pattern of sharing."
 ],
 "C68": [
  "proved",
  ""
 ],
 "C69": [
  "proved",
  "Binary64 model: every operation rounds to nearest and overflows to infinity; sin, cos, arcsin, arctan2, ** are arbitrary functions with relative error at most 2^-51; sign of zero and fused multiply-add not modelled. "
 ],
 "C70": [
  "proved",
  "Binary64 model: every operation rounds to nearest and overflows to infinity; sin, cos, arcsin, arctan2, ** are arbitrary functions with relative error at most 2^-51; sign of zero and fused multiply-add not modelled. Outside the range: C70_underflow, C70_overflow."
 ],
 "C71": [
  "proved",
  "Binary64 model: every operation rounds to nearest and overflows to infinity; sin, cos, arcsin, arctan2, ** are arbitrary functions with relative error at most 2^-51; sign of zero and fused multiply-add not modelled. "
 ],
 "C72": [
  "proved",
  "Binary64 model: every operation rounds to nearest and overflows to infinity; sin, cos, arcsin, arctan2, ** are arbitrary functions with relative error at most 2^-51; sign of zero and fused multiply-add not modelled. "
 ],
 "C73": [
  "proved",
  "Binary64 model: every operation rounds to nearest and overflows to infinity; sin, cos, arcsin, arctan2, ** are arbitrary functions with relative error at most 2^-51; sign of zero and fused multiply-add not modelled. "
 ],
 "C74": [
  "proved",
  ""
 ],
 "C75": [
  "proved",
  "F64 instance of the model function: any rounding to nearest with gradual underflow and overflow, library functions with the LibmClose accuracy; forward error analysis. The exact point is specified by Spec.Geodetic, which C75_exists_unique shows to determine it."
 ],
 "C76": [
  "proved",
  "F64 instance of the model function: any rounding to nearest with gradual underflow and overflow, library functions with the LibmClose accuracy; forward error analysis. The exact coordinates are specified by Spec.Geodetic; C76_exists_unique shows that exactly one pair qualifies. Positions closer than a/2 to the centre are outside the statement."
 ],
 "C77": [
  "proved",
  "F64 instance of the model function: any rounding to nearest with gradual underflow and overflow, library functions with the LibmClose accuracy; forward error analysis. From C75/C76 and the sensitivity of the position to normal and depth."
 ],
 "C78": [
  "proved",
  "F64 instance of the model function: any rounding to nearest with gradual underflow and overflow, library functions with the LibmClose accuracy; forward error analysis. From C75/C76 and the sensitivity of normal and depth to the position (bounded curvature above the evolute)."
 ],
 "C79": [
  "proved",
  "F64 instance of the model function: any rounding to nearest with gradual underflow and overflow, library functions with the LibmClose accuracy; forward error analysis. Exact rotations are the products of RotX, RotY, RotZ; closeness is specified in Spec/Close."
 ],
 "C80": [
  "proved",
  "F64 instance of the model function: any rounding to nearest with gradual underflow and overflow, library functions with the LibmClose accuracy; forward error analysis. The gap of the binary64 numbers around pi/2 and pi keeps the cosine of the middle angle and the signs of the sines away from zero."
 ],
 "C81": [
  "proved",
  "Entry-wise error against the exact frame, near-orthonormality, the pole branch, and the n-vector back; C81_near_pole_counterexample shows why the range excludes points very close to, but not at, a pole."
 ],
 "C82": [
  "proved",
  "Error against the exact latitude and longitude of the direction (geoNormal), any length, any position."
 ],
 "C83": [
  "proved",
  "Entry-wise error against the exact wander-azimuth frame, which is identified with the exact NED frame times RotZ(wa) off the poles."
 ],
 "C84": [
  "proved",
  "error bound in every component against the unique points with the given geodetic coordinates; zero for equal positions"
 ],
 "C85": [
  "proved",
  "computed n-vector and depth against the exact geodetic coordinates of the point reached"
 ],
 "C86": [
  "proved",
  "objects: delta_E, delta_N (also exactly at a pole) and delta_L (any distance from the poles)"
 ],
 "C87": [
  "proved",
  "body frame matrix, product of matrices, change of frame there and back for the three local frames"
 ],
 "C88": [
  "proved",
  "Binary64 model of rounding; loss of digits and underflow are proved as theorems."
 ],
 "C89": [
  "proved",
  "Binary64 model of rounding, np.deg2rad(x) is x * (pi / 180) with the double pi and both operations rounded."
 ],
 "C90": [
  "proved",
  "Binary64 model of rounding; libm functions within 2^-51."
 ],
 "C91": [
  "proved",
  "Binary64 model of rounding; libm functions within 2^-51."
 ],
 "C92": [
  "proved",
  "The zone around the tolerance where the answer is not determined is explicit in the statements."
 ],
 "C93": [
  "partial",
  "Proved for n-vectors and ECEF vectors, and for geographic points outside a zone around the tolerance; the full claim is false for geographic points (C93_geo_not_symmetric: p == q is False and q == p is True)."
 ],
 "C94": [
  "proved",
  "Binary64 model of rounding; libm functions within 2^-51. C94_nan exhibits the NaN 90 degrees from the circle."
 ],
 "C95": [
  "partial",
  "Proved for positions whose distance differs from the tolerance by more than the rounding error (9e-15/s + 1.67 d) R; the full claim is false: C95_endpoint_not_on exhibits a path of 5.8 km whose start point is not on its own great circle with the default tolerance."
 ],
 "C96": [
  "partial",
  "Proved with both choices of axes for starts at least 2^-500 from the poles, and with the default axes at the poles exactly; the full claim is false: C96_pole_axes_E shows that with axes E, starting at the pole with azimuth 0, the code returns (cos d, 0, 0), the pole with another length. Binary64 model of rounding; libm functions within 2^-51."
 ],
 "C97": [
  "proved",
  "Binary64 model of rounding; libm functions within 2^-51."
 ],
 "C98": [
  "proved",
  "Binary64 model of rounding; libm functions within 2^-51."
 ],
 "C99": [
  "proved",
  "Distance and both azimuths, in radians and in degrees."
 ],
 "C100": [
  "proved",
  "Scalar objects; the theorems compare calls without and with explicit arguments."
 ],
 "C101": [
  "proved",
  "Scalar objects, exact arithmetic; deprecation warnings are not modelled."
 ],
 "C102": [
  "proved",
  "Scalar model; the order of summation is arbitrary (Spec.SummedInSomeOrder)."
 ],
 "C103": [
  "proved",
  "The bounds on s and t are part of the claim: nearer a pole of the circle the exact claim C21 fails too."
 ],
 "C104": [
  "proved",
  "The bounds on s and on the angle are part of the claim; without them the exact claim C24 fails (quarter turn) or the circles coincide."
 ],
 "C105": [
  "proved",
  "T <= 3e14 s; the exact position is the one of C25."
 ],
 "C106": [
  "proved",
  "Scalar objects. 52 degrees: |sin| <= 0.79; beyond, arcsin loses half the digits (C94_nan shows NaN at 90 degrees)."
 ],
 "C107": [
  "proved",
  "Scalar objects; the bounds on s and t are part of the claim."
 ],
 "C108": [
  "proved",
  "Scalar objects; the bounds on s and t are part of the claim."
 ],
 "C109": [
  "proved",
  "Exact start frame given by Spec.NorthEastDown, exact destination by Spec.destination; the start is at least 1e-12 rad from the poles. The azimuth at the result is compared with the exact chord at the returned point."
 ],
 "C110": [
  "proved",
  "A is at least 1e-12 rad from the poles; the azimuth part assumes that the horizontal part of the vector exceeds the rounding error."
 ],
 "C111": [
  "proved",
  "C111_core_on/_core_off: on_great_circle_path of n-vectors; C111_on/C111_off: GeoPath.on_path with the radius the code computes and the depth comparison; C111_circle_on/_circle_off: GeoPath.on_great_circle. Exact great circle of the exact positions; margins 5.7e-14/s of the size of the ellipsoid (0.4 micrometre on Earth for s=1), 1.6e-14 for the chords, 6e-16 relative for the depth. Inside the margins the answer depends on rounding (C95)."
 ],
 "C112": [
  "proved",
  "C112_closest_point: both cases with margins 1.4e-13/(s t); C112_least: within 3.8e-12/(s t) of the segment and at most 5.1e-13/(s t) rad farther than any point of it. The size limit 7500 km is needed because the code tests its own foot point with the default tolerance of 1e-8 m: the proof shows the computed foot passes that test there. C47 shows that longer paths and the poles of the circle are wrong already in exact arithmetic."
 ],
 "C113": [
  "proved",
  "Heap model Mem/Dicts.lean. C113_repr_counterexample: an attribute that is a dict is changed by repr (no class of the library has one). C113_shared_object_array_counterexample: for object arrays holding tuples (outside the quantifier) the result depends on sharing: a dict that occurs twice is converted twice."
 ],
 "C114": [
  "proved",
  "Proved in the binary64 model by the IEEE rules for a NaN operand (class NanLaws, satisfied by both arithmetics of the model). The exception closest_point_on_path is C114_closest_point_on_path_counterexample: for every path and every missing position the result is positionB. The ellipsoid methods call GeographicLib (opaque) and are left out."
 ],
 "C115": [
  "proved",
  "Proved by forward error analysis of slope*(x - x_lo) + y_lo followed by unit, for tracks of any length; SpacedTimes and the size bounds exclude overflow and underflow of the time differences."
 ],
 "C116": [
  "proved",
  "Sgn adds the IEEE sign bit to an arithmetic; (f v).val = f v.val says that f computes the same numbers whatever the signs of the zeros are. C116_counterexample: (-1,0,0) and (-1,-0,-0) have longitudes pi and -pi. Not covered: the array layer, interp_nvectors, and geographiclib's treatment of -0.0 (a parameter)."
 ],
 "C117": [
  "proved",
  "C117_call is the single step, C117_chain the induction over the chain; C117_ecef and C117_geo spell out what comes out for chains that end in an ECEF vector or a geographic point."
 ],
 "C118": [
  "partial",
  "True below 2^52 (C118_nthroot_partial, C118_perfect_power).  From 2^52 on the code skips the Newton step: the error is bounded by (4.01 + 139.01/n) 2^-53 (C118_large), and nthroot(2**180, 3) is at least 2048 = 16 ulps below 2**60 (C118_large_counterexample), so the docstring's claim is false there."
 ],
 "C119": [
  "proved",
  "Equality of values; the sign of zero is not part of this model (C116 treats it)."
 ],
 "C120": [
  "proved",
  "Equality of values; the sign of zero is not part of this model (C116 treats it). Longitude: n-vectors whose second component is zero are their own mirror image in the meridian plane and keep their longitude (0 or 180 degrees)."
 ],
 "C121": [
  "partial",
  "false beyond half way round the globe (C121_beyond_half_way, C121_equator_counterexample); proved below"
 ],
 "C122": [
  "proved",
  "exclusions stated in the theorems: poles of the circle (closest point), poles (direct problem), core (inverse problem)"
 ],
 "C123": [
  "proved",
  "C123_pole_counterexample shows why poles are excluded for local frames"
 ],
 "C124": [
  "proved",
  "over the real numbers; in binary64 only powers of two would scale exactly"
 ],
 "C125": [
  "proved",
  "Minimality over all points of the ellipsoid by a Lagrange-multiplier identity; C125_too_deep_counterexample shows the depth bound is needed (deeper than the polar radius, off the equator, another surface point is nearer)."
 ],
 "C126": [
  "proved",
  "Each formula is stated in the theorem itself in terms of sin, cos, arcsin, atan2 of the latitudes and longitudes."
 ],
 "C127": [
  "proved",
  "Real-number model; the constants are written out in the statements."
 ],
 "C128": [
  "proved",
  "Real-number model; HasVelocity is the derivative of the three components."
 ],
 "C129": [
  "proved",
  "C129_core and C129_any_radius (function level), C129_default (WGS 84 and the default radius), C129_track_distance (path object), C129_two_methods (ellipsoid against greatcircle; geographiclib's contract is a hypothesis of the theorem, not an axiom), C129_sphere (exact on a sphere), C129_wgs84 (the numbers). C129_sharp: the factors of track_distance cannot be improved."
 ],
 "C130": [
  "proved",
  "C130_cosines, C130_sines, C130_apart, C130_pythagoras."
 ],
 "C131": [
  "proved",
  "C131_distance, C131_midpoint, C131_short, C131_direct, C131_path; C131_not_uniform shows that the parameter is not the fraction of the distance."
 ],
 "C132": [
  "proved",
  "C132_mean, C132_mean_hemisphere, C132_path, C132_geo_path, C132_track; C132_beyond_hemisphere shows that the bound on the cap is needed."
 ],
 "C133": [
  "partial",
  "false for the great circle methods of GeoPath, which never compare frames (C133_silent; C133_counterexample: a distance between points of spheres of radius 1 and 3); proved for all operations that check"
 ],
 "C134": [
  "proved",
  "every element type (binary64, exact numbers); the two calls that accept such lengths are described by C134_all_pairs"
 ],
 "C135": [
  "proved",
  "every element type; the mean in exact arithmetic"
 ],
 "C136": [
  "proved",
  "threads of steps on the memory model; one step is the use of one array or object; rely-guarantee proof for every schedule; C136_unit_in_another_thread shows that the exception for unit() is needed"
 ],
 "C137": [
  "proved",
  "exact in real arithmetic; iff statements, so no other pair or triple of angles gives the same result"
 ],
 "C138": [
  "proved",
  "the first two theorems hold for every B; the GeoPoint theorem needs the points to be at least 8.2e-13/c apart and as far from antipodal, c a bound of the cosines of both latitudes"
 ],
 "C139": [
  "proved",
  "induction over the legs; each leg is C84/C76 in position form"
 ],
 "C140": [
  "proved",
  "unique readability of the printed text by structural induction; the texts of the numbers are a parameter (injective, without punctuation); C140_text_FrameE and C140_text_classes give the text of every class character by character, for any texts of the numbers"
 ],
 "C141": [
  "proved",
  "exact acceptance region for every path; sharpens C23 and C47, whose claims are false on paths of 120 degrees or more"
 ],
 "C142": [
  "proved",
  "exact set of recovered matrices; sharpens C17; the statement about signed zeros in the Sgn model"
 ],
 "C143": [
  "proved",
  "what happens at the poles, where the claims C27-C29 are false"
 ],
 "C144": [
  "proved",
  "sharpens C51, whose claim is false for axes 'E'"
 ],
 "C145": [
  "proved",
  "completes C18, C20-C26, C47, C48 for paths without a great circle; on_path of a one-point path rejects that point"
 ],
 "C146": [
  "proved",
  "completes C21 and C47 at the poles of the circle; for a pole 90 degrees from the x-axis and a path of 60 degrees or more the answer is wrong (C47_pole_counterexample)"
 ],
 "C147": [
  "proved",
  "relative to every savgol_filter that fits least squares polynomials in mode 'interp' (Spec.SavitzkyGolay); such a filter exists (Cases.exists_savitzkyGolay); exact arithmetic; C147_order_counterexample: C55_order does not hold with smoothing"
 ],
 "C148": [
  "proved",
  "a memory with the 3x3 arrays and the frames (Verif.Mem.Rotation), any arithmetic; C148_counterexample shows that the condition on the program is needed"
 ],
 "C149": [
  "proved",
  "displace is stated for the default axes: the great circle method ignores the axes (C51)"
 ],
 "C150": [
  "proved",
  "C06, C07, C08, C10, C11, C45 and C125 for f < 0; the exceptions inside the core are part of the statement."
 ],
 "C151": [
  "proved",
  "Props/FloatLegs.lean: the errors of single calls (C117 for conversions) summed by induction over the history (drift); the hypothesis on the positions on the way is about the exact partial sums, not the computed ones. C117 has no moves, C139 is the corresponding property of the function n_EA_E_and_p_AB_E2n_EB_E."
 ],
 "C152": [
  "proved",
  "Props/Attitude.lean. Elevation is the library's: positive below the horizon in FrameN, where z is down, so the elevation of the nose is minus the pitch."
 ],
 "C153": [
  "proved",
  "Props/Kinds.lean; the hypothesis on Scipy is Spec.InterpolatesBy with Spec.Rule (Spec/Kinds.lean), met by the nearest-sample implementation in Cases/Kinds.lean. kind given as an integer is not modelled."
 ],
 "C154": [
  "proved",
  "Programs of _examples.py with parameters in place of the numbers (Model/Examples.lean). Example 5 and the ellipsoid method of example 8 assume of the geodesic library that it solves the sphere (Spec.SolvesSphere)."
 ],
 "C155": [
  "partial",
  "False: to the left of the path the cross track distance is negative and alternative 2 returns its absolute value (C155_left_counterexample); the Euclidean distance is the chord and not the distance to the plane, and always larger off the great circle (C155_euclidean_counterexample). Proved: exact values of both (C155_values), agreement to the right of the path with an error bound of s^3/(8 r^2) for the Euclidean distance (C155_right_partial)."
 ],
 "C156": [
  "proved",
  "Functions for every R_Ee; the classes on a sphere with the default axes and equal depths (C156_objects). At C a pole the azimuth is the one of C143."
 ],
 "C157": [
  "proved",
  "Courses on the sphere (f = 0 in the azimuth); the bending towards the pole for GeoPath on every ellipsoid, since interpolation only uses the n-vectors."
 ],
 "C158": [
  "proved",
  "Exact real arithmetic. C158_crossing states the three cases as equivalences; C158_region and C158_objects give existence, uniqueness and the result of intersect from the signs of cross track distances only."
 ],
 "C159": [
  "proved",
  "Exact real arithmetic."
 ],
 "C160": [
  "proved",
  "Exact real arithmetic, spherical Earth (flattening 0), as the great circle functions assume."
 ],
 "C161": [
  "proved",
  "Texts are lists of characters. Fields such as {super!r} are excluded by hypothesis."
 ],
 "C162": [
  "proved",
  "Exact arithmetic (real model) and binary64."
 ],
 "C163": [
  "proved",
  "Exact arithmetic (real model) and binary64."
 ]
}