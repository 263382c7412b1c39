{"id": "C01", "title": "Latitude/longitude always gives a unit n-vector", "statement": "lat_lon2n_E(latitude, longitude, R_Ee) returns a vector of length exactly one pointing along (sin lat, sin lon cos lat, -cos lon cos lat) rotated by R_Ee^T; angles that differ by whole turns give the same n-vector.", "quantifier": "every real latitude and longitude and every rotation matrix R_Ee (hence both axes='e' and 'E')", "why_tests_cant": "The inputs range over a continuum of real values; tests sample a handful of points and cannot cover poles, date line, antipodes and every ellipsoid at once.", "anchors": ["src/nvector/core.py: lat_lon2n_E", "src/nvector/rotation.py: E_rotation"]}
{"id": "C02", "title": "n-vector -> lat/lon -> n-vector round trip", "statement": "lat_lon2n_E(*n_E2lat_lon(n)) is the n-vector n scaled to unit length, including at both poles and on the date line.", "quantifier": "every nonzero n-vector and every rotation matrix R_Ee", "why_tests_cant": "The inputs range over a continuum of real values; tests sample a handful of points and cannot cover poles, date line, antipodes and every ellipsoid at once.", "anchors": ["src/nvector/rotation.py: n_E2lat_lon", "src/nvector/core.py: lat_lon2n_E"]}
{"id": "C03", "title": "lat/lon -> n-vector -> lat/lon round trip and ranges", "statement": "n_E2lat_lon always returns latitude in [-pi/2, pi/2] and longitude in [-pi, pi] (above -pi away from the poles); for latitude strictly between the poles and longitude in (-pi, pi] it inverts lat_lon2n_E exactly, and at the poles it still returns the latitude.", "quantifier": "every latitude in [-pi/2,pi/2], longitude in (-pi,pi], every rotation R_Ee; range claim for every nonzero n", "why_tests_cant": "The inputs range over a continuum of real values; tests sample a handful of points and cannot cover poles, date line, antipodes and every ellipsoid at once.", "anchors": ["src/nvector/rotation.py: n_E2lat_lon", "src/nvector/core.py: lat_lon2n_E"]}
{"id": "C04", "title": "n-vector to position: surface point, outward normal, depth along the normal", "statement": "n_EB_E2p_EB_E(n, 0, a, f) lies on the ellipsoid with semi-axes a, a, a(1-f); n is the outward ellipsoid normal there; and at depth d the point is the surface point moved by -d along n.", "quantifier": "every nonzero n, every depth, every a>0, every flattening f<1, every rotation R_Ee", "why_tests_cant": "The inputs range over a continuum of real values; tests sample a handful of points and cannot cover poles, date line, antipodes and every ellipsoid at once.", "anchors": ["src/nvector/core.py: n_EB_E2p_EB_E"]}
{"id": "C05", "title": "Position conversion depends only on the direction of the n-vector", "statement": "Scaling the n-vector given to n_EB_E2p_EB_E, n_E2lat_lon or n_E2R_EN by any positive factor does not change the result (only a warning may be emitted).", "quantifier": "every nonzero n, every factor c>0, all other arguments", "why_tests_cant": "The inputs range over a continuum of real values; tests sample a handful of points and cannot cover poles, date line, antipodes and every ellipsoid at once.", "anchors": ["src/nvector/core.py: n_EB_E2p_EB_E", "src/nvector/rotation.py: n_E2lat_lon, n_E2R_EN", "src/nvector/util.py: _check_length_deviation, unit"]}
{"id": "C06", "title": "Position -> n-vector -> position round trip on the ellipsoid", "statement": "For every Cartesian position outside the small core p+q <= e^4 around the Earth's centre, p_EB_E2n_EB_E returns a unit n-vector and a depth whose n_EB_E2p_EB_E is exactly the original position.", "quantifier": "every position p outside the core, every a>0, every flattening 0<=f<1, every rotation R_Ee", "why_tests_cant": "The closed-form quartic solution (Vermeille) involves nested roots; tests check two or three points to ~1e-8 and cannot establish the algebraic identity.", "anchors": ["src/nvector/core.py: p_EB_E2n_EB_E, _equation23, _compute_k, n_EB_E2p_EB_E", "src/nvector/util.py: nthroot"]}
{"id": "C07", "title": "n-vector + depth -> position -> n-vector + depth round trip", "statement": "p_EB_E2n_EB_E(n_EB_E2p_EB_E(n, depth)) returns exactly n (unit) and depth exactly when the depth is less than the distance, along the ellipsoid normal, from the surface to the equatorial plane, and the point is outside the core of C08 or on the polar axis.", "quantifier": "every nonzero n, every depth, every a>0, 0<=f<1, every rotation (the centre of a sphere excepted)", "why_tests_cant": "Uniqueness of the positive root of a quartic for every ellipsoid and depth; not reachable by sampling.", "anchors": ["src/nvector/core.py: p_EB_E2n_EB_E, n_EB_E2p_EB_E, _equation23, _compute_k"]}
{"id": "C08", "title": "p_EB_E2n_EB_E is non-singular except at the centre of the Earth", "statement": "The documentation says the conversion is non-singular except for the centre of the Earth, i.e. every p != 0 yields a finite unit n-vector and depth that reproduce p.", "quantifier": "every p != 0, every a>0, 0<=f<1", "why_tests_cant": "The failing region is a 43 km core around the centre which tests never sample; only an argument over all positions finds its exact boundary.", "anchors": ["src/nvector/core.py: p_EB_E2n_EB_E, _compute_k (docstring lines 203-213)"]}
{"id": "C09", "title": "Spherical Earth: the conversion is the polar decomposition", "statement": "With f=0, p_EB_E2n_EB_E(p) is (p/|p|, a-|p|) for every p != 0, and n_EB_E2p_EB_E(n, d) is (a-d) n.", "quantifier": "every p != 0, every unit n, every depth, every a>0, every rotation R_Ee", "why_tests_cant": "The inputs range over a continuum of real values; tests sample a handful of points and cannot cover poles, date line, antipodes and every ellipsoid at once.", "anchors": ["src/nvector/core.py: p_EB_E2n_EB_E, n_EB_E2p_EB_E"]}
{"id": "C10", "title": "Delta vectors are differences of positions", "statement": "n_EA_E_and_n_EB_E2p_AB_E is antisymmetric in A and B, zero for A=B at equal depth, and adds along a chain (AB + BC = AC).", "quantifier": "every A, B, C with nonzero n-vectors, all depths, all ellipsoids a>0, f<1, every rotation", "why_tests_cant": "The inputs range over a continuum of real values; tests sample a handful of points and cannot cover poles, date line, antipodes and every ellipsoid at once.", "anchors": ["src/nvector/core.py: n_EA_E_and_n_EB_E2p_AB_E", "src/nvector/objects.py: delta_E"]}
{"id": "C11", "title": "Dead reckoning inverts the delta", "statement": "n_EA_E_and_p_AB_E2n_EB_E(A, n_EA_E_and_n_EB_E2p_AB_E(A, B)) gives back B's n-vector and depth exactly when B meets the condition of C07 (in particular for every B less deep than (1-2e^2)a), and conversely the delta from A to the computed B is the given p_AB_E.", "quantifier": "every A and B, all depths, 0<=f<1; the converse for every delta that ends outside the core", "why_tests_cant": "The inputs range over a continuum of real values; tests sample a handful of points and cannot cover poles, date line, antipodes and every ellipsoid at once.", "anchors": ["src/nvector/core.py: n_EA_E_and_p_AB_E2n_EB_E, n_EA_E_and_n_EB_E2p_AB_E"]}
{"id": "C12", "title": "R_EN is a North-East-Down rotation everywhere", "statement": "n_E2R_EN(n) is a proper rotation matrix (orthonormal, determinant +1) whose third column is -n/|n|; away from the poles its second column is the unit east direction and the first the unit north direction; at the poles it is still a rotation.", "quantifier": "every nonzero n (both poles included), every rotation R_Ee", "why_tests_cant": "The inputs range over a continuum of real values; tests sample a handful of points and cannot cover poles, date line, antipodes and every ellipsoid at once.", "anchors": ["src/nvector/rotation.py: n_E2R_EN"]}
{"id": "C13", "title": "R_EL is a wander-azimuth rotation", "statement": "n_E_and_wa2R_EL(n, wa) is a proper rotation with third column -n/|n| and equals n_E2R_EN(n) turned by wa about the down axis away from the poles; wa=0 gives R_EN.", "quantifier": "every nonzero n, every wander azimuth, every rotation R_Ee; the comparison with R_EN for every non-polar n", "why_tests_cant": "The inputs range over a continuum of real values; tests sample a handful of points and cannot cover poles, date line, antipodes and every ellipsoid at once.", "anchors": ["src/nvector/rotation.py: n_E_and_wa2R_EL, n_E2R_EN, xyz2R"]}
{"id": "C14", "title": "n-vector recovered from R_EN and R_EL", "statement": "R_EN2n_E(n_E2R_EN(n)) = n/|n| and R_EL2n_E(n_E_and_wa2R_EL(n, wa)) = n/|n|.", "quantifier": "every nonzero n, every wander azimuth, every rotation R_Ee", "why_tests_cant": "The inputs range over a continuum of real values; tests sample a handful of points and cannot cover poles, date line, antipodes and every ellipsoid at once.", "anchors": ["src/nvector/rotation.py: R_EL2n_E, R_EN2n_E, n_E2R_EN, n_E_and_wa2R_EL"]}
{"id": "C15", "title": "xyz2R / zyx2R are the documented composition of elementary rotations", "statement": "xyz2R(x,y,z) = Rx(x) Ry(y) Rz(z) and zyx2R(z,y,x) = Rz(z) Ry(y) Rx(x) where R* are right-hand rotations about the axes; both are proper rotations.", "quantifier": "every triple of real angles", "why_tests_cant": "The inputs range over a continuum of real values; tests sample a handful of points and cannot cover poles, date line, antipodes and every ellipsoid at once.", "anchors": ["src/nvector/rotation.py: xyz2R, zyx2R"]}
{"id": "C16", "title": "Euler angles are recovered from the rotation matrix", "statement": "R2xyz(xyz2R(x,y,z)) = (x,y,z) and R2zyx(zyx2R(z,y,x)) = (z,y,x) when the middle angle lies strictly between -pi/2 and pi/2 and the others in (-pi, pi] (for R2zyx: [-pi, pi)).", "quantifier": "every such triple of angles", "why_tests_cant": "The inputs range over a continuum of real values; tests sample a handful of points and cannot cover poles, date line, antipodes and every ellipsoid at once.", "anchors": ["src/nvector/rotation.py: R2xyz, R2zyx, xyz2R, zyx2R"]}
{"id": "C17", "title": "Rotation matrix is recovered from its Euler angles", "statement": "xyz2R(*R2xyz(R)) = R and zyx2R(*R2zyx(R)) = R for every rotation matrix R.", "quantifier": "every proper rotation matrix R", "why_tests_cant": "The set of rotation matrices is a continuum and the failing set (gimbal lock) has measure zero, so random tests never meet it.", "anchors": ["src/nvector/rotation.py: R2xyz, R2zyx, xyz2R, zyx2R"]}
{"id": "C18", "title": "Great circle distance is a metric on the sphere", "statement": "great_circle_distance is nonnegative, at most pi*radius, symmetric, zero exactly for equal positions, and satisfies the triangle inequality; it equals radius times the angle between the n-vectors.", "quantifier": "all unit n-vectors A, B, C and every radius>0", "why_tests_cant": "Triangle inequality and zero-iff-equal are statements about all triples of positions.", "anchors": ["src/nvector/core.py: great_circle_distance"]}
{"id": "C19", "title": "Euclidean distance is the chord", "statement": "euclidean_distance is the chord 2 r sin(theta/2) of the great circle distance r*theta; it is a metric, never exceeds the great circle distance, and is at least 2/pi of it.", "quantifier": "all unit n-vectors A, B and every radius>0", "why_tests_cant": "The inputs range over a continuum of real values; tests sample a handful of points and cannot cover poles, date line, antipodes and every ellipsoid at once.", "anchors": ["src/nvector/core.py: euclidean_distance, great_circle_distance"]}
{"id": "C20", "title": "Cross track distance is the signed distance to the great circle", "statement": "For a path with distinct non-antipodal endpoints, |cross_track_distance| ('greatcircle') is the great circle distance from B to the closest point of the great circle, it lies in [-pi/2 r, pi/2 r], is zero exactly when B is on the great circle, and changes sign when the path is reversed; the 'euclidean' variant is r*sin of the same angle.", "quantifier": "all non-collinear endpoint pairs, all unit B, every radius>0", "why_tests_cant": "The inputs range over a continuum of real values; tests sample a handful of points and cannot cover poles, date line, antipodes and every ellipsoid at once.", "anchors": ["src/nvector/core.py: cross_track_distance, great_circle_normal, closest_point_on_great_circle"]}
{"id": "C21", "title": "closest_point_on_great_circle returns the nearest point of the great circle", "statement": "The returned n-vector is a unit vector on the great circle of the path and no other point of that great circle is nearer to B.", "quantifier": "all path endpoints that define a great circle and every B", "why_tests_cant": "Minimality is a statement against all points of the circle, and the exceptional B (pole of the circle) is a measure-zero set.", "anchors": ["src/nvector/core.py: closest_point_on_great_circle"]}
{"id": "C22", "title": "on_great_circle decides membership within tolerance", "statement": "on_great_circle(path, B, radius, atol) is True exactly when B's great circle distance to the great circle is at most atol; with atol=0 exactly when B lies in the plane of the path; degenerate paths (equal or antipodal endpoints) give False; enlarging atol never turns True into False.", "quantifier": "all paths, all unit B, radius>0, atol>=0", "why_tests_cant": "The inputs range over a continuum of real values; tests sample a handful of points and cannot cover poles, date line, antipodes and every ellipsoid at once.", "anchors": ["src/nvector/core.py: on_great_circle, cross_track_distance"]}
{"id": "C23", "title": "on_great_circle_path decides membership of the path segment", "statement": "on_great_circle_path(path, B, radius, atol=0) is True exactly when B lies on the great circle between the endpoints of the path (on the shorter arc).", "quantifier": "all non-degenerate paths and all unit B", "why_tests_cant": "Between-ness must hold for all positions of B; the false positives only occur for paths longer than 120 degrees on the far side of the Earth.", "anchors": ["src/nvector/core.py: on_great_circle_path"]}
{"id": "C24", "title": "intersect returns the intersection of two great circles", "statement": "The result is a unit vector lying on both great circles, on the hemisphere of path A's first endpoint (no farther from it than its antipode), up to sign independent of which path is first; NaN exactly when the great circles coincide or a path is degenerate.", "quantifier": "all pairs of paths", "why_tests_cant": "The exceptional configurations (coincident circles, intersection 90 degrees from A1) are measure-zero sets not met by sampling.", "anchors": ["src/nvector/core.py: intersect"]}
{"id": "C25", "title": "interpolate stays on the path", "statement": "interpolate(path, ti) returns the endpoints at ti=0 and 1; for 0<=ti<=1 a unit vector on the shorter arc between the endpoints; for any ti it is on the great circle of the path; reversing the path is the same as ti -> 1-ti; NaN exactly when the endpoints are antipodal and ti=1/2 .", "quantifier": "all unit endpoint pairs, all real ti", "why_tests_cant": "The inputs range over a continuum of real values; tests sample a handful of points and cannot cover poles, date line, antipodes and every ellipsoid at once.", "anchors": ["src/nvector/core.py: interpolate", "src/nvector/objects.py: GeoPath.interpolate"]}
{"id": "C26", "title": "interpolation moves monotonically from A to B", "statement": "The great circle distance from A to interpolate(path, ti) is strictly increasing in ti on [0,1], and distance from A to the point plus from the point to B equals the path length.", "quantifier": "all non-degenerate paths (distinct, not antipodal) and all 0<=s<t<=1", "why_tests_cant": "Monotonicity relates all pairs of interpolation times.", "anchors": ["src/nvector/core.py: interpolate, great_circle_distance"]}
{"id": "C27", "title": "Direct problem on the sphere: distance", "statement": "n_EA_E_distance_and_azimuth2n_EB_E(A, d, az) returns a unit vector whose great circle distance from A is exactly d for 0<=d<=pi.", "quantifier": "every unit A, every d, every azimuth, every rotation R_Ee", "why_tests_cant": "The inputs range over a continuum of real values; tests sample a handful of points and cannot cover poles, date line, antipodes and every ellipsoid at once.", "anchors": ["src/nvector/core.py: n_EA_E_distance_and_azimuth2n_EB_E, great_circle_distance"]}
{"id": "C28", "title": "Direct problem on the sphere: azimuth", "statement": "n_EA_E_and_n_EB_E2azimuth(A, B, f=0) of the point B reached from A with azimuth az in (-pi, pi] and distance 0<d<pi is az.", "quantifier": "every unit A, every az in (-pi,pi], 0<d<pi, every rotation R_Ee", "why_tests_cant": "The inputs range over a continuum of real values; tests sample a handful of points and cannot cover poles, date line, antipodes and every ellipsoid at once.", "anchors": ["src/nvector/core.py: n_EA_E_distance_and_azimuth2n_EB_E, n_EA_E_and_n_EB_E2azimuth"]}
{"id": "C29", "title": "Inverse then direct problem on the sphere", "statement": "Starting at A and going the great circle distance along the azimuth reported by n_EA_E_and_n_EB_E2azimuth (f=0) arrives exactly at B.", "quantifier": "every unit A and B, every rotation R_Ee", "why_tests_cant": "The inputs range over a continuum of real values; tests sample a handful of points and cannot cover poles, date line, antipodes and every ellipsoid at once.", "anchors": ["src/nvector/core.py: n_EA_E_distance_and_azimuth2n_EB_E, n_EA_E_and_n_EB_E2azimuth, great_circle_distance"]}
{"id": "C30", "title": "Mean position minimises the sum of squared chord distances", "statement": "mean_horizontal_position returns a unit vector, does not depend on the order of the positions, and minimises the sum of squared Euclidean distances to them over all unit vectors when the positions do not cancel; one position (or copies of it) averages to itself.", "quantifier": "every nonempty list of unit n-vectors", "why_tests_cant": "Order-independence and optimality range over all list lengths, permutations and competitor points.", "anchors": ["src/nvector/core.py: mean_horizontal_position", "src/nvector/objects.py: Nvector.mean"]}
{"id": "C31", "title": "unit normalises", "statement": "unit(v) has length one and the direction of v for v != 0, is idempotent, unaffected by positive scaling, and maps zero vectors to x-axis or NaN as requested; adding the smallest normal float to the norm never changes a normal-range norm.", "quantifier": "every vector v, every positive scale factor", "why_tests_cant": "The inputs range over a continuum of real values; tests sample a handful of points and cannot cover poles, date line, antipodes and every ellipsoid at once.", "anchors": ["src/nvector/util.py: unit, _TINY"]}
{"id": "C32", "title": "deg and rad are mutually inverse and preserve arity", "statement": "deg(rad(x)) = x and rad(deg(x)) = x; k arguments in give k results out in order (a single argument gives a bare value).", "quantifier": "every real angle and every argument list", "why_tests_cant": "The inputs range over a continuum of real values; tests sample a handful of points and cannot cover poles, date line, antipodes and every ellipsoid at once.", "anchors": ["src/nvector/util.py: deg, rad"]}
{"id": "C33", "title": "nthroot is the exact n-th root", "statement": "nthroot(x, n) is the nonnegative number whose n-th power is x; the Newton correction does not disturb it.", "quantifier": "every x>=0, every integer n>=1; negative x gives NaN for n>=2", "why_tests_cant": "The inputs range over a continuum of real values; tests sample a handful of points and cannot cover poles, date line, antipodes and every ellipsoid at once.", "anchors": ["src/nvector/util.py: nthroot"]}
{"id": "C34", "title": "isclose follows its documented formula and is symmetric", "statement": "For finite values isclose(a,b) is |a-b| <= max(atol, rtol*max(|a|,|b|)); it is symmetric, reflexive on numbers, monotone in the tolerances; NaN is close to nothing unless equal_nan, infinities only to the same infinity.", "quantifier": "all float values including NaN and infinities, all tolerances >= 0", "why_tests_cant": "The inputs range over a continuum of real values; tests sample a handful of points and cannot cover poles, date line, antipodes and every ellipsoid at once.", "anchors": ["src/nvector/util.py: isclose, allclose"]}
{"id": "C35", "title": "Ellipsoid lookup ignores case and blanks", "statement": "get_ellipsoid(name) gives the same answer for any change of letter case and any insertion of blanks in the name; unknown names raise KeyError; integer ids are looked up directly; every alias agrees with the id it stands for.", "quantifier": "every string name and every integer id", "why_tests_cant": "Names are unbounded strings; tests try four of them.", "anchors": ["src/nvector/util.py: get_ellipsoid, ELLIPSOID, ELLIPSOID_IX"]}
{"id": "C36", "title": "Every documented ellipsoid is usable", "statement": "Each of the 19 documented names resolves, and each table row is an Earth ellipsoid (semi-major axis about 6.377-6.379 million metres and flattening about 1/300).", "quantifier": "all 19 documented ellipsoids", "why_tests_cant": "Tests only exercise WGS84 and WGS72.", "anchors": ["src/nvector/util.py: ELLIPSOID, ELLIPSOID_IX, get_ellipsoid docstring"]}
{"id": "C37", "title": "FrameE honours the axis parameters it is given", "statement": "FrameE(a, f) uses exactly the given a and f; FrameE(name=...) uses the table row; unknown names or axes raise KeyError.", "quantifier": "all combinations of given/omitted a, f, name, axes", "why_tests_cant": "The inputs range over a continuum of real values; tests sample a handful of points and cannot cover poles, date line, antipodes and every ellipsoid at once.", "anchors": ["src/nvector/objects.py: FrameE.__init__", "src/nvector/rotation.py: E_rotation"]}
{"id": "C38", "title": "Equality of positions and frames is reflexive, symmetric and consistent with !=", "statement": "x == x is True for every object without NaN, x == y iff y == x, and x != y is always the negation of x == y; objects of unrelated classes compare False without raising.", "quantifier": "all pairs of GeoPoint, Nvector, ECEFvector, FrameE, FrameN, FrameL, FrameB objects", "why_tests_cant": "Symmetry must hold for all pairs of objects of all class combinations.", "anchors": ["src/nvector/objects.py: _Common.__eq__, __ne__, *._is_equal_to", "src/nvector/util.py: allclose"]}
{"id": "C39", "title": "GeoPoint equality is modulo full turns", "statement": "Two GeoPoints whose longitudes (or latitudes) differ by a whole number of turns and agree otherwise are equal, and equality implies the angles agree modulo 2*pi within the tolerance.", "quantifier": "all GeoPoints, all integers k", "why_tests_cant": "The inputs range over a continuum of real values; tests sample a handful of points and cannot cover poles, date line, antipodes and every ellipsoid at once.", "anchors": ["src/nvector/objects.py: GeoPoint._is_equal_to"]}
{"id": "C40", "title": "Nvector and ECEFvector arithmetic is checked vector arithmetic", "statement": "Adding or subtracting positions of unequal frames raises ValueError; for equal frames +, -, unary -, * and / act componentwise on the vector and the depth, + is commutative and associative, a - b = a + (-b), (a - b) + b = a; multiplying by an Nvector raises NotImplementedError.", "quantifier": "all Nvectors / ECEFvectors and all scalars", "why_tests_cant": "The inputs range over a continuum of real values; tests sample a handful of points and cannot cover poles, date line, antipodes and every ellipsoid at once.", "anchors": ["src/nvector/objects.py: Nvector.__add__.., ECEFvector.__add__.., _check_frames"]}
{"id": "C41", "title": "Changing frame is an isometry and is undone by to_ecef_vector", "statement": "For FrameN, FrameL and FrameB, p.change_frame(F) has the same length as p, and p.change_frame(F).to_ecef_vector() = p.", "quantifier": "every ECEF vector, every non-degenerate origin (poles included), every yaw/pitch/roll and wander azimuth", "why_tests_cant": "The inputs range over a continuum of real values; tests sample a handful of points and cannot cover poles, date line, antipodes and every ellipsoid at once.", "anchors": ["src/nvector/objects.py: ECEFvector.change_frame, Pvector.to_ecef_vector, FrameN.R_EN, FrameL.R_EN, FrameB.R_EN"]}
{"id": "C42", "title": "Azimuth, elevation and length are the spherical coordinates of a Pvector", "statement": "pvector = length*(cos(el)cos(az), cos(el)sin(az), sin(el)); azimuth in [-pi,pi] (above -pi unless the vector is vertical), elevation in [-pi/2,pi/2].", "quantifier": "every nonzero Pvector", "why_tests_cant": "The inputs range over a continuum of real values; tests sample a handful of points and cannot cover poles, date line, antipodes and every ellipsoid at once.", "anchors": ["src/nvector/objects.py: Pvector.azimuth, elevation, length"]}
{"id": "C43", "title": "delta_L is delta_N turned by the wander azimuth", "statement": "delta_L(a,b,wa) has the components of delta_N(a,b) rotated by -wa about the down axis; with wa=0 they agree; lengths and down component agree for every wa.", "quantifier": "all a (not at a pole), b, wa", "why_tests_cant": "The inputs range over a continuum of real values; tests sample a handful of points and cannot cover poles, date line, antipodes and every ellipsoid at once.", "anchors": ["src/nvector/objects.py: delta_L, delta_N, delta_E, FrameL, FrameN"]}
{"id": "C44", "title": "Base angle reduction", "statement": "_base_angle, hence every azimuth_b returned by the great circle methods, lies in [-pi, pi) and differs from its argument by a whole number of turns.", "quantifier": "every real angle", "why_tests_cant": "The inputs range over a continuum of real values; tests sample a handful of points and cannot cover poles, date line, antipodes and every ellipsoid at once.", "anchors": ["src/nvector/objects.py: _base_angle, GeoPoint._distance_and_azimuth_greatcircle, _displace_great_circle"]}
{"id": "C45", "title": "Object conversions agree with the functional interface and round trip", "statement": "GeoPoint.to_nvector().to_geo_point(), Nvector.to_ecef_vector().to_nvector() etc. return the original position (outside the core), keep the frame and keep the depth; to_X on an X is the identity.", "quantifier": "all GeoPoints with latitude strictly inside (-pi/2,pi/2), longitude in (-pi,pi] and, through ECEF, depth less than (1-2e^2)a; all Nvectors under the exact condition of C07; all ECEFvectors outside the core; all frames with 0<=f<1; all chains of conversions", "why_tests_cant": "The inputs range over a continuum of real values; tests sample a handful of points and cannot cover poles, date line, antipodes and every ellipsoid at once.", "anchors": ["src/nvector/objects.py: GeoPoint.to_nvector, Nvector.to_ecef_vector, Nvector.to_geo_point, ECEFvector.to_nvector, ECEFvector.to_geo_point"]}
{"id": "C46", "title": "GeoPath distances dispatch and symmetry", "statement": "track_distance uses the method named ('ex'/'el' prefix exact, 'eu' Euclidean, otherwise great circle), with default radius the mean of the two positions' distances from the centre; great circle and Euclidean results are symmetric in the endpoints and scale with an explicit radius.", "quantifier": "all pairs of positions in a frame, all method strings, all radii", "why_tests_cant": "The inputs range over a continuum of real values; tests sample a handful of points and cannot cover poles, date line, antipodes and every ellipsoid at once.", "anchors": ["src/nvector/objects.py: GeoPath.track_distance, _get_average_radius"]}
{"id": "C47", "title": "closest_point_on_path is the nearest point of the segment", "statement": "The returned point is on the segment (a point of the shorter arc or an endpoint) and no point of the segment is nearer to the given point on the sphere.", "quantifier": "all paths with distinct, not antipodal endpoints, all points", "why_tests_cant": "Minimality quantifies over all points of the segment.", "anchors": ["src/nvector/objects.py: GeoPath._closest_point_on_path, closest_point_on_path, on_path"]}
{"id": "C48", "title": "Every interpolated point is on the path", "statement": "path.on_path(path.interpolate(t)) is True for every t in [0,1], including the end points.", "quantifier": "all non-degenerate paths, all t in [0,1]", "why_tests_cant": "The inputs range over a continuum of real values; tests sample a handful of points and cannot cover poles, date line, antipodes and every ellipsoid at once.", "anchors": ["src/nvector/objects.py: GeoPath.on_path, _on_great_circle_path, interpolate"]}
{"id": "C49", "title": "degrees= only changes units", "statement": "displace, distance_and_azimuth, direct and inverse called with degrees=True and degrees=False describe the same answer: angles differ exactly by the deg/rad factor, distances and positions are equal.", "quantifier": "all positions, distances, azimuths, every behaviour of the geodesic backend and both methods", "why_tests_cant": "The inputs range over a continuum of real values; tests sample a handful of points and cannot cover poles, date line, antipodes and every ellipsoid at once.", "anchors": ["src/nvector/objects.py: GeoPoint.displace, distance_and_azimuth, FrameE.direct, FrameE.inverse"]}
{"id": "C50", "title": "Ellipsoidal inverse then direct", "statement": "If geographiclib's Direct inverts its Inverse on an ellipsoid, then a.displace(*a.distance_and_azimuth(b)[:2]) returns b for every pair of points at equal depth.", "quantifier": "all pairs of GeoPoints in one frame with equal depth, latitudes in [-pi/2,pi/2] and longitudes strictly between -pi and pi, every backend satisfying the contract", "why_tests_cant": "The inputs range over a continuum of real values; tests sample a handful of points and cannot cover poles, date line, antipodes and every ellipsoid at once.", "anchors": ["src/nvector/objects.py: GeoPoint._displace_ellipsoid, _distance_and_azimuth_ellipsoid, FrameE._direct, FrameE._inverse"]}
{"id": "C51", "title": "Great circle displacement works in every frame", "statement": "GeoPoint.displace(distance, azimuth, method='greatcircle') moves the point by distance along the given azimuth in the point's own frame, whichever axes ('e' or 'E') the frame uses.", "quantifier": "all GeoPoints, distances, azimuths, frames with axes 'e' and 'E'", "why_tests_cant": "Tests use only the default axes.", "anchors": ["src/nvector/objects.py: GeoPoint._displace_great_circle", "src/nvector/core.py: n_EA_E_distance_and_azimuth2n_EB_E"]}
{"id": "C52", "title": "Vectorised calls are columnwise", "statement": "Calling a core function on 3 x n arrays gives, in column j, exactly what the call on column j alone gives.", "quantifier": "all n >= 1 (arrays without columns raise IndexError, which is stated too), all arrays, all of lat_lon2n_E, n_E2lat_lon, n_EB_E2p_EB_E, p_EB_E2n_EB_E, n_E2R_EN, interpolate, unit, euclidean_distance", "why_tests_cant": "n is unbounded and columns are arbitrary.", "anchors": ["src/nvector/core.py", "src/nvector/rotation.py", "src/nvector/util.py: unit, mdot"]}
{"id": "C53", "title": "Documented result sizes for vector inputs", "statement": "great_circle_distance, cross_track_distance, intersect and closest_point_on_great_circle on n and m columns return max(n, m) results, the j-th belonging to the j-th positions.", "quantifier": "all n, m with n=m or n=1 or m=1", "why_tests_cant": "Shape behaviour for every n, m; tests use n=m=1.", "anchors": ["src/nvector/core.py: great_circle_distance, cross_track_distance, intersect, closest_point_on_great_circle"]}
{"id": "C54", "title": "Smoothing window is always odd", "statement": "The window length handed to the Savitzky-Golay filter is odd, at least the requested length and at most one more; length 0 or less disables smoothing.", "quantifier": "every integer window_length", "why_tests_cant": "The inputs range over a continuum of real values; tests sample a handful of points and cannot cover poles, date line, antipodes and every ellipsoid at once.", "anchors": ["src/nvector/core.py: _interp_vectors"]}
{"id": "C55", "title": "Linear interpolation of n-vector tracks", "statement": "interp_nvectors with kind='linear' reproduces the (unit) sample at each sample time, returns unit vectors on the great circle arc between neighbouring samples in between (NaN exactly half way between antipodal ones), and NaN outside the time range.", "quantifier": "every list of two or more unit n-vectors with distinct times in any order, every list of query times", "why_tests_cant": "Unbounded track lengths and query times.", "anchors": ["src/nvector/core.py: interp_nvectors, _interp_vectors"]}
{"id": "C56", "title": "array_to_list_dict removes every array and is idempotent", "statement": "The result contains no array or tuple at any depth, keeps keys, order and leaf values, and converting twice changes nothing.", "quantifier": "every nested structure of dicts, lists, tuples, arrays and scalars", "why_tests_cant": "Nesting depth is unbounded.", "anchors": ["src/nvector/util.py: array_to_list_dict"]}
{"id": "C57", "title": "Wrong-length n-vectors only cause a warning", "statement": "_check_length_deviation warns exactly when the first column's norm differs from one by more than the limit, and never changes results; later columns are not looked at.", "quantifier": "every array and limit", "why_tests_cant": "The inputs range over a continuum of real values; tests sample a handful of points and cannot cover poles, date line, antipodes and every ellipsoid at once.", "anchors": ["src/nvector/util.py: _check_length_deviation"]}
{"id": "C58", "title": "mdot is matrix multiplication per page", "statement": "mdot(a,b)[i,k] = sum_j a[i,j] b[j,k]; it is associative, has the identity, and transposition reverses products; products of rotations are rotations.", "quantifier": "all 3x3 matrices", "why_tests_cant": "The inputs range over a continuum of real values; tests sample a handful of points and cannot cover poles, date line, antipodes and every ellipsoid at once.", "anchors": ["src/nvector/util.py: mdot"]}
{"id": "C59", "title": "Operations never modify their operands", "statement": "Conversions, arithmetic, interpolate, intersect, delta, displace and repr leave every existing object unchanged; only Nvector.unit() modifies its receiver, and only its n-vector.", "quantifier": "every sequence of API calls on every set of objects", "why_tests_cant": "Quantifies over all histories of calls and all aliasing patterns (to_nvector may return self).", "anchors": ["src/nvector/objects.py: Nvector.unit, to_nvector, GeoPath.interpolate, FrameB.__init__, FrameN.__init__"]}
{"id": "C60", "title": "Scalar positions stay scalar", "statement": "A position built from scalars yields scalar latitude, longitude, depth, length, azimuth and elevation through every chain of conversions, and vector positions stay vectors of the same length.", "quantifier": "every chain of conversions of any length", "why_tests_cant": "The inputs range over a continuum of real values; tests sample a handful of points and cannot cover poles, date line, antipodes and every ellipsoid at once.", "anchors": ["src/nvector/objects.py: scalar properties, to_geo_point, to_nvector, to_ecef_vector"]}
{"id": "C61", "title": "Nvector.interpolate interpolates position and depth", "statement": "Nvector.interpolate gives the n-vectors of interp_nvectors and the depth that changes linearly in time between neighbouring samples; NaN outside the time range.", "quantifier": "every Nvector of two or more n-vectors, with one depth per column or one common depth (the default z=0), every list of query times", "why_tests_cant": "Unbounded track lengths and query times.", "anchors": ["src/nvector/objects.py: Nvector.interpolate"]}
{"id": "C62", "title": "Local frames start on the surface, body frames at the point", "statement": "The origin of FrameN(point) and FrameL(point) is the surface position below or above the point (the depth of the point is ignored, and the point itself lies its depth along the down axis from it); the origin of FrameB(point) is the point itself, so body frames at different depths differ.", "quantifier": "all positions, depths, wander azimuths, attitudes", "why_tests_cant": "The inputs range over a continuum of real values; tests sample a handful of points and cannot cover poles, date line, antipodes and every ellipsoid at once.", "anchors": ["src/nvector/objects.py: FrameN, FrameL, FrameB"]}
{"id": "C63", "title": "The axes names mean what the documentation says", "statement": "With axes='e' the ECEF coordinates of a GeoPoint are the textbook geodetic formulas (x towards latitude 0 longitude 0, z towards the north pole); with axes='E' they are the same position with x towards the north pole; the columns of R_EN are the unit vectors North, East, Down; with axes='E' all local frames at latitude 0 longitude 0 are aligned with the earth frame.", "quantifier": "all latitudes, longitudes, depths, ellipsoids", "why_tests_cant": "The inputs range over a continuum of real values; tests sample a handful of points and cannot cover poles, date line, antipodes and every ellipsoid at once.", "anchors": ["src/nvector/rotation.py: E_rotation", "src/nvector/objects.py: FrameE.__init__, FrameN.R_EN"]}
{"id": "C64", "title": "GeoPath methods are the great circle functions at mean radius and mean depth", "statement": "cross_track_distance is the signed least distance to the great circle at the given radius or the mean distance of the ends from the centre; on_great_circle is True exactly within atol; closest_point_on_great_circle is the nearest position, at the mean depth, for points not at the pole of the circle (C21); intersect is on both circles at the mean of the four depths unless the circles meet a quarter turn from the first end point (C24); on_path with an ellipsoidal method compares depth, geodesic distance and azimuth.", "quantifier": "all paths and points of every class, all radii, tolerances, every behaviour of the geodesic backend", "why_tests_cant": "The inputs range over a continuum of real values; tests sample a handful of points and cannot cover poles, date line, antipodes and every ellipsoid at once.", "anchors": ["src/nvector/objects.py: GeoPath.cross_track_distance, intersect, on_great_circle, on_path, closest_point_on_great_circle"]}
{"id": "C65", "title": "Geodesic methods on vectors act position by position", "statement": "FrameE.inverse, FrameE.direct, GeoPoint.displace and GeoPoint.distance_and_azimuth called with vectors (numbers being repeated) return, in element j of every result, what the call on the j-th position, distance and azimuth returns; the results are numbers if the arguments are.", "quantifier": "all numbers of positions, distances and azimuths that broadcast, both methods, every behaviour of the geodesic backend, any class of the second point", "why_tests_cant": "The lengths of the vectors are unbounded.", "anchors": ["src/nvector/objects.py: FrameE.inverse, FrameE.direct, GeoPoint.displace, GeoPoint.distance_and_azimuth"]}
{"id": "C66", "title": "GeoPath methods on vectors act path by path", "statement": "track_distance, cross_track_distance, on_great_circle, on_path, interpolate, intersect, closest_point_on_great_circle and closest_point_on_path of a GeoPath whose end points are vectors return, in element j, the result for the j-th path and the j-th point or time; the result is a number if the path and the point are.", "quantifier": "all numbers of paths and points that broadcast, positions of every class, all methods", "why_tests_cant": "The lengths of the vectors are unbounded.", "anchors": ["src/nvector/objects.py: GeoPath"]}
{"id": "C67", "title": "Sharing does not change results", "statement": "Every function and method returns what the arrays and attributes of its arguments say at the time of the call, however the arguments share arrays or objects (the same object twice, views of one array, an Nvector inside a path and a frame), and whatever has been called before.", "quantifier": "every memory, every pattern of sharing, all functions and methods on arrays and objects", "why_tests_cant": "Aliasing patterns and histories are unbounded.", "anchors": ["src/nvector/objects.py: all classes", "src/nvector/core.py"]}
{"id": "C68", "title": "What is shared and what is independent", "statement": "to_nvector of an Nvector, to_ecef_vector of an ECEFvector and to_geo_point of a GeoPoint return the object itself; a GeoPath and a FrameB see a later unit() of the Nvector they were made with, a FrameN does not; objects share the arrays they are made from (angles only without degrees=True) and conversions between GeoPoint and Nvector share the depth; results of arithmetic, delta_E, interpolate, intersect, unit and the other conversions are independent of every array that existed before.", "quantifier": "every memory, every later assignment to any existing array", "why_tests_cant": "Quantifies over all memories and all later writes.", "anchors": ["src/nvector/objects.py: to_nvector, to_ecef_vector, to_geo_point, FrameB, FrameN, GeoPath, GeoPoint, Nvector"]}
{"id": "C69", "title": "Binary64: lat_lon2n_E is accurate and never triggers the length warning", "statement": "With rounded arithmetic every component of lat_lon2n_E is within 1.1e-15 of the exact n-vector, its length within 1.1e-15 of one, and no function that checks the length of an n-vector warns about it.", "quantifier": "all binary64 latitudes and longitudes of any size, both axes, every rounding to nearest and every library sin/cos with relative error at most 2^-51", "why_tests_cant": "Rounding errors depend on every bit of the inputs; tests compare a few values with a tolerance, and the worst cases (poles, tiny vectors, antipodes) are isolated.", "anchors": ["src/nvector/core.py: lat_lon2n_E", "src/nvector/util.py: _check_length_deviation"]}
{"id": "C70", "title": "Binary64: unit is accurate for lengths between 1e-150 and 1e150", "statement": "With rounded arithmetic unit(v) is within 5.7e-16 of v/|v| in every component (relative to the component) and has length within 5.7e-16 of one; beyond that range squares underflow or overflow and the direction is lost.", "quantifier": "all binary64 vectors with 2^-500 <= |v| <= 2^500", "why_tests_cant": "Rounding errors depend on every bit of the inputs; tests compare a few values with a tolerance, and the worst cases (poles, tiny vectors, antipodes) are isolated.", "anchors": ["src/nvector/util.py: unit"]}
{"id": "C71", "title": "Binary64: latitude and longitude survive the n-vector round trip", "statement": "With rounded arithmetic n_E2lat_lon(lat_lon2n_E(lat, lon)) returns the latitude within 3e-15 and the longitude within 2.4e-15 radians (up to a whole turn, and without a turn more than 5e-15 away from the date line), also at the poles.", "quantifier": "all binary64 latitudes in [-pi/2, pi/2], all binary64 longitudes, both axes", "why_tests_cant": "Rounding errors depend on every bit of the inputs; tests compare a few values with a tolerance, and the worst cases (poles, tiny vectors, antipodes) are isolated.", "anchors": ["src/nvector/core.py: lat_lon2n_E", "src/nvector/rotation.py: n_E2lat_lon"]}
{"id": "C72", "title": "Binary64: great circle distance is accurate everywhere", "statement": "With rounded arithmetic great_circle_distance differs from radius times the angle between the vectors by at most 6e-15 radius, for coinciding, close, far and antipodal positions alike, and is exactly zero for equal arguments.", "quantifier": "all binary64 vectors of length 0.9 to 1.1, all radii from 1e-20 to 1e20", "why_tests_cant": "Rounding errors depend on every bit of the inputs; tests compare a few values with a tolerance, and the worst cases (poles, tiny vectors, antipodes) are isolated.", "anchors": ["src/nvector/core.py: great_circle_distance"]}
{"id": "C73", "title": "Binary64: Euclidean distance has small relative error", "statement": "With rounded arithmetic euclidean_distance has a relative error below 8e-16 (plus 1e-50, where products underflow) however close the positions are.", "quantifier": "all binary64 vectors of length up to 1.1, all radii up to 1e20", "why_tests_cant": "Rounding errors depend on every bit of the inputs; tests compare a few values with a tolerance, and the worst cases (poles, tiny vectors, antipodes) are isolated.", "anchors": ["src/nvector/core.py: euclidean_distance"]}
{"id": "C74", "title": "Arrays that are not 3 x n are rejected", "statement": "n_E2lat_lon, n_E2R_EN, n_E_and_wa2R_EL, n_EB_E2p_EB_E, p_EB_E2n_EB_E, n_EA_E_and_n_EB_E2p_AB_E (either vector), n_EA_E_and_p_AB_E2n_EB_E, n_EA_E_and_n_EB_E2azimuth and mean_horizontal_position raise ValueError for a 2-d array whose number of rows is not three (also for 6 or 9 rows), and the functions that check the length raise IndexError for a 1-d array or an array without columns. unit and euclidean_distance do not look at the number of rows and return a result for every 2-d array.", "quantifier": "all array sizes, all values", "why_tests_cant": "The inputs range over a continuum of real values; tests sample a handful of points and cannot cover poles, date line, antipodes and every ellipsoid at once.", "anchors": ["src/nvector/core.py: n_EB_E2p_EB_E, p_EB_E2n_EB_E", "src/nvector/rotation.py: n_E2lat_lon, n_E2R_EN", "src/nvector/util.py: _check_length_deviation"]}
{"id": "C75", "title": "Binary64: n_EB_E2p_EB_E is accurate", "statement": "With rounded arithmetic every component of n_EB_E2p_EB_E(n, depth) is within 2.9e-15 a + 8e-16 |depth| of the point that lies depth below the surface point whose outward normal is along n.", "quantifier": "all binary64 n-vectors with 2^-500 <= |n| <= 1e60, depths up to 1e30, semi-major axes from 1 to 1e10, flattenings from 0 to 0.01, both axes", "why_tests_cant": "Rounding errors depend on every bit of the inputs; tests compare a few values with a tolerance, and the worst cases (poles, tiny vectors, antipodes) are isolated.", "anchors": ["src/nvector/core.py: n_EB_E2p_EB_E"]}
{"id": "C76", "title": "Binary64: p_EB_E2n_EB_E is accurate", "statement": "With rounded arithmetic p_EB_E2n_EB_E(p) returns the outward normal within 3.7e-15 in every component and the depth within 5.5e-15 |p| of the geodetic coordinates of p (the only ones with depth at most 0.96 a).", "quantifier": "all binary64 positions with a/2 <= |p| <= 1000 a, semi-major axes from 1 to 1e10, flattenings from 0 to 0.01, both axes", "why_tests_cant": "Rounding errors depend on every bit of the inputs; tests compare a few values with a tolerance, and the worst cases (poles, tiny vectors, antipodes) are isolated.", "anchors": ["src/nvector/core.py: p_EB_E2n_EB_E, _equation23, _compute_k"]}
{"id": "C77", "title": "Binary64: position to n-vector and depth and back", "statement": "With rounded arithmetic n_EB_E2p_EB_E(*p_EB_E2n_EB_E(p)) returns p within 1.1e-14 a + 1.4e-14 |p| in every component.", "quantifier": "all binary64 positions with a/2 <= |p| <= 1000 a, semi-major axes from 1 to 1e10, flattenings from 0 to 0.01, both axes", "why_tests_cant": "Rounding errors depend on every bit of the inputs; tests compare a few values with a tolerance, and the worst cases (poles, tiny vectors, antipodes) are isolated.", "anchors": ["src/nvector/core.py: n_EB_E2p_EB_E, p_EB_E2n_EB_E"]}
{"id": "C78", "title": "Binary64: n-vector and depth to position and back", "statement": "With rounded arithmetic p_EB_E2n_EB_E(n_EB_E2p_EB_E(n, depth)) returns n/|n| within 1.6e-14 in every component and the depth within 1.1e-14 a + 6.9e-15 |depth|.", "quantifier": "all binary64 n-vectors with 2^-500 <= |n| <= 1e60, depths from -998 a to 0.4 a, semi-major axes from 1 to 1e10, flattenings from 0 to 0.01, both axes", "why_tests_cant": "Rounding errors depend on every bit of the inputs; tests compare a few values with a tolerance, and the worst cases (poles, tiny vectors, antipodes) are isolated.", "anchors": ["src/nvector/core.py: n_EB_E2p_EB_E, p_EB_E2n_EB_E"]}
{"id": "C79", "title": "Binary64: rotation matrices from Euler angles are rotations to rounding accuracy", "statement": "With rounded arithmetic every entry of xyz2R(x,y,z) and zyx2R(z,y,x) is within 1.7e-15 of the exact product of the elementary rotations; columns are orthonormal and the determinant is one within 1e-14; zero angles give the exact identity.", "quantifier": "all finite angles of any size", "why_tests_cant": "Rounding errors depend on every bit of the inputs; tests compare a few values with a tolerance, and the worst cases (poles, tiny vectors, antipodes) are isolated.", "anchors": ["src/nvector/rotation.py: xyz2R, zyx2R"]}
{"id": "C80", "title": "Binary64: Euler angles survive the round trip, even next to gimbal lock", "statement": "With rounded arithmetic R2xyz(xyz2R(x,y,z)) and R2zyx(zyx2R(z,y,x)) return all three angles within 3.7e-15 radians, without a jump of a whole turn at +-pi and without loss of accuracy however close the middle angle is to a right angle.", "quantifier": "all binary64 angles with |x|, |z| <= pi and |y| <= pi/2", "why_tests_cant": "Rounding errors depend on every bit of the inputs; tests compare a few values with a tolerance, and the worst cases (poles, tiny vectors, antipodes) are isolated.", "anchors": ["src/nvector/rotation.py: xyz2R, zyx2R, R2xyz, R2zyx"]}
{"id": "C81", "title": "Binary64: local North-East-Down frames are rotations to rounding accuracy", "statement": "With rounded arithmetic every entry of n_E2R_EN(n) is within 2.5e-15 of the exact North-East-Down frame of n (at a pole: of the frame whose East axis is the documented one), columns are orthonormal and the determinant is one within 1.4e-14, and R_EN2n_E(n_E2R_EN(n)) returns n/|n| within 2.5e-15. Within about 2^-537 of a pole, but not at it, this fails: an East column of length 19/16 is returned.", "quantifier": "all binary64 n-vectors with 2^-500 <= |n| <= 1e60 that are exactly at a pole or at least 2^-300 |n| from the polar axis, both axes", "why_tests_cant": "Rounding errors depend on every bit of the inputs; tests compare a few values with a tolerance, and the worst cases (poles, tiny vectors, antipodes) are isolated.", "anchors": ["src/nvector/core.py: n_E2R_EN, R_EN2n_E"]}
{"id": "C82", "title": "Binary64: latitude and longitude of any n-vector", "statement": "With rounded arithmetic n_E2lat_lon(n) returns the latitude and the longitude of n/|n| within 1.5e-15 radians each, without a jump of a whole turn and without loss of accuracy near the poles (at a pole: some longitude in [-pi, pi]).", "quantifier": "all binary64 n-vectors, unit or not, with 1e-50 <= |n| <= 1e25, both axes", "why_tests_cant": "Rounding errors depend on every bit of the inputs; tests compare a few values with a tolerance, and the worst cases (poles, tiny vectors, antipodes) are isolated.", "anchors": ["src/nvector/rotation.py: n_E2lat_lon"]}
{"id": "C83", "title": "Binary64: wander-azimuth frames are rotations to rounding accuracy, poles included", "statement": "With rounded arithmetic every entry of n_E_and_wa2R_EL(n, wa) is within 4.6e-15 of a proper rotation whose last column is -n/|n| and which, off the poles, is the exact North-East-Down frame turned by wa about the down axis; columns are orthonormal and the determinant is one within 2.6e-14; R_EL2n_E returns n/|n| within 4.6e-15. Unlike n_E2R_EN this holds however close n is to a pole.", "quantifier": "all binary64 n-vectors with 1e-50 <= |n| <= 1e25, all finite wander azimuths, both axes", "why_tests_cant": "Rounding errors depend on every bit of the inputs; tests compare a few values with a tolerance, and the worst cases (poles, tiny vectors, antipodes) are isolated.", "anchors": ["src/nvector/rotation.py: n_E_and_wa2R_EL, R_EL2n_E"]}
{"id": "C84", "title": "Binary64: vectors between positions are accurate", "statement": "With rounded arithmetic n_EA_E_and_n_EB_E2p_AB_E returns the exact vector from A to B up to 5.7e-15 a + 8e-16 (|zA| + |zB|) plus one rounding of the component (1.2e-16 relative), in every component; the vector from a position to itself is exactly zero.", "quantifier": "all binary64 n-vectors with 2^-500 <= |n| <= 1e60, all depths up to 1e30, 1 <= a <= 1e10, 0 <= f <= 0.01, both axes", "why_tests_cant": "Rounding errors depend on every bit of the inputs; tests compare a few values with a tolerance, and the worst cases (poles, tiny vectors, antipodes) are isolated.", "anchors": ["src/nvector/core.py: n_EA_E_and_n_EB_E2p_AB_E"]}
{"id": "C85", "title": "Binary64: dead reckoning is accurate", "statement": "With rounded arithmetic n_EA_E_and_p_AB_E2n_EB_E returns the geodetic normal and depth of the exact point reached, up to 1.7e-14 + 3.5e-15 |zA|/a in every component of the n-vector and 1.1e-14 a + 1.4e-15 |zA| + 5.8e-15 |zB| in depth.", "quantifier": "all binary64 n-vectors with 2^-500 <= |n| <= 1e60, |zA| <= 1000 a, all binary64 vectors that lead to a point between 0.4 a below and 998 a above the surface, 1 <= a <= 1e10, 0 <= f <= 0.01, both axes", "why_tests_cant": "Rounding errors depend on every bit of the inputs; tests compare a few values with a tolerance, and the worst cases (poles, tiny vectors, antipodes) are isolated.", "anchors": ["src/nvector/core.py: n_EA_E_and_p_AB_E2n_EB_E"]}
{"id": "C86", "title": "Binary64: delta_E, delta_N and delta_L of position objects are accurate", "statement": "For two position objects on the same ellipsoid delta_E, delta_N and delta_L never raise; with rounded arithmetic delta_N returns the North, East and Down components at A of the exact vector from A to B up to 9.9e-15 a + 1.4e-15 (|zA| + |zB|) + 5e-15 |AB|, and delta_L those in the wander azimuth frame up to 9.9e-15 a + 1.4e-15 (|zA| + |zB|) + 8.6e-15 |AB| however close A is to a pole.", "quantifier": "all binary64 n-vector objects with ordinary lengths, depths up to 1e30, all finite wander azimuths; for delta_N point A exactly at a pole or at least 2^-300 radians from it; 1 <= a <= 1e10, 0 <= f <= 0.01, both axes, any frame names", "why_tests_cant": "Rounding errors depend on every bit of the inputs; tests compare a few values with a tolerance, and the worst cases (poles, tiny vectors, antipodes) are isolated.", "anchors": ["src/nvector/objects.py: delta_E, delta_N, delta_L, ECEFvector.change_frame, FrameN, FrameL, _check_frames"]}
{"id": "C87", "title": "Binary64: body frames and changes of frame", "statement": "With rounded arithmetic every entry of the matrix of a FrameB is within 7.8e-15 of the exact product of the North-East-Down rotation and the yaw-pitch-roll rotation (mdot adds 3.4e-16); a vector changed into a FrameN, FrameL or FrameB and back with to_ecef_vector, or the other way round, never raises and returns within 3.8e-14 of its length in every component.", "quantifier": "all binary64 n-vector positions at least 2^-300 radians from the poles, all finite angles, all binary64 vectors of length up to 1e50, 1 <= a <= 1e10, 0 <= f <= 0.01, both axes, any frame names", "why_tests_cant": "Rounding errors depend on every bit of the inputs; tests compare a few values with a tolerance, and the worst cases (poles, tiny vectors, antipodes) are isolated.", "anchors": ["src/nvector/objects.py: FrameB, Pvector.to_ecef_vector, ECEFvector.change_frame", "src/nvector/util.py: mdot"]}
{"id": "C88", "title": "Length, azimuth and elevation of a displacement in double precision", "statement": "With IEEE double arithmetic the length of a vector has a relative error below 4.5e-16 and its azimuth an absolute error below 1.5e-15; the elevation is never NaN for vectors between 1e-50 and 1e25 long, its sine is within 1.3e-15 and the angle within 6e-8 of the exact one (half the digits are lost next to the vertical, and a vector shorter than about 1e-162 gives NaN).", "quantifier": "every vector of doubles with components up to 1e25 (the relative error of the length plus 1e-75 absolute; any azimuth; elevation for lengths from 1e-50 to 1e25) and every rounding mode to nearest", "why_tests_cant": "Rounding errors depend on every bit of the inputs; tests compare a few values with a tolerance, and the worst cases (poles, tiny vectors, antipodes) are isolated.", "anchors": ["src/nvector/objects.py: _Common / Pvector.length, azimuth, elevation"]}
{"id": "C89", "title": "Degrees and radians in double precision", "statement": "With IEEE double arithmetic rad and deg have a relative error below 3.4e-16, and latitude_deg, longitude_deg of a point created in degrees return what was put in up to a relative error of 6.8e-16.", "quantifier": "every finite angle up to 1e45 in size", "why_tests_cant": "Rounding errors depend on every bit of the inputs; tests compare a few values with a tolerance, and the worst cases (poles, tiny vectors, antipodes) are isolated.", "anchors": ["src/nvector/util.py: deg, rad", "src/nvector/objects.py: GeoPoint.__init__, latitude_deg, longitude_deg"]}
{"id": "C90", "title": "GeoPoint to ECEF vector in double precision", "statement": "With IEEE double arithmetic GeoPoint(lat, lon, z).to_ecef_vector() is, component by component, within 4.9e-15 a + 2.8e-15 |z| of the exact point with that geodetic latitude, longitude and depth, for angles in radians; with degrees=True the rounding of the angles is added.", "quantifier": "every latitude and longitude (up to 1e50 in degrees), every depth up to 1e30, both axes, every ellipsoid with 1 <= a <= 1e10 and 0 <= f <= 0.01", "why_tests_cant": "Rounding errors depend on every bit of the inputs; tests compare a few values with a tolerance, and the worst cases (poles, tiny vectors, antipodes) are isolated.", "anchors": ["src/nvector/objects.py: GeoPoint.to_ecef_vector, GeoPoint.to_nvector, Nvector.to_ecef_vector"]}
{"id": "C91", "title": "GeoPoint to ECEF and back in double precision", "statement": "With IEEE double arithmetic converting a GeoPoint to an ECEF vector and back changes the latitude by less than 3e-14, the depth by less than 1.1e-14 a + 7e-15 |z| and the longitude, modulo a whole turn, by less than 3e-14 / cos(lat).", "quantifier": "every latitude in [-pi/2, pi/2], longitude (its error where cos(lat) >= 2e-14), and depth between 0.4 a below and 998 a above the ellipsoid, 1 <= a <= 1e10, 0 <= f <= 0.01", "why_tests_cant": "Rounding errors depend on every bit of the inputs; tests compare a few values with a tolerance, and the worst cases (poles, tiny vectors, antipodes) are isolated.", "anchors": ["src/nvector/objects.py: GeoPoint.to_ecef_vector, ECEFvector.to_geo_point"]}
{"id": "C92", "title": "Equality of positions in double precision", "statement": "With IEEE double arithmetic == of two positions on the same ellipsoid is True when all components differ by less than the documented tolerances (1e-14 absolute, 1e-12 relative) and False when one differs by more, with an uncertain zone of about 1 % for components and from 5e-15 to 1.5e-14 for angles modulo a turn; in particular a GeoPoint is == to its round trip through an n-vector.", "quantifier": "every pair of n-vectors, ECEF vectors, geographic points of doubles with components and depths up to 1e50 and angles up to 7 radians, every ellipsoid with 1 <= a <= 1e10 and 0 <= f <= 0.01", "why_tests_cant": "Rounding errors depend on every bit of the inputs; tests compare a few values with a tolerance, and the worst cases (poles, tiny vectors, antipodes) are isolated.", "anchors": ["src/nvector/objects.py: _Common.__eq__, Nvector._is_equal_to, GeoPoint._is_equal_to, ECEFvector._is_equal_to, FrameE.__eq__"]}
{"id": "C93", "title": "Equality does not depend on the order in double precision", "statement": "With IEEE double arithmetic p == q and q == p agree.", "quantifier": "every pair of positions of doubles", "why_tests_cant": "Rounding errors depend on every bit of the inputs; tests compare a few values with a tolerance, and the worst cases (poles, tiny vectors, antipodes) are isolated.", "anchors": ["src/nvector/objects.py: _Common.__eq__, GeoPoint._is_equal_to, Nvector._is_equal_to"]}
{"id": "C94", "title": "Cross track distance in double precision", "statement": "With IEEE double arithmetic, radius R, a path whose end points are at an angle with sine at least s and a position whose length is within d of one, the Euclidean cross track distance is within (4.9e-15/s + 1.001 d) R of the exact one, and the great circle one, for positions up to 53 degrees from the circle, within (9e-15/s + 1.67 d) R of the least distance to a position of the circle; it can be NaN 90 degrees from the circle.", "quantifier": "every path of doubles with s at least 1e-9, every position, every radius between 1e-20 and 1e20", "why_tests_cant": "Rounding errors depend on every bit of the inputs; tests compare a few values with a tolerance, and the worst cases (poles, tiny vectors, antipodes) are isolated.", "anchors": ["src/nvector/core.py: cross_track_distance, _cross_track_distance, great_circle_normal"]}
{"id": "C95", "title": "Being on a great circle in double precision", "statement": "With IEEE double arithmetic a position less than the tolerance away from the great circle through the end points of a path, in particular an end point, is on it, and one further away is not.", "quantifier": "every path and position of doubles, every tolerance, the default 1e-8 m in particular", "why_tests_cant": "Rounding errors depend on every bit of the inputs; tests compare a few values with a tolerance, and the worst cases (poles, tiny vectors, antipodes) are isolated.", "anchors": ["src/nvector/core.py: on_great_circle, cross_track_distance"]}
{"id": "C96", "title": "The direct problem in double precision", "statement": "With IEEE double arithmetic the great circle direct problem, from a position whose length is within d of one, returns a position within 4.5e-15 + d in every component of the exact destination (the position at the given distance in the given direction from true north), of length within 7.8e-15 + d of one, whose distance from the start is within 7.9e-15 + 1.002 d of the given one and which the distance function measures back within (1.4e-14 + 1.002 d) R.", "quantifier": "every starting position of doubles (poles included), every distance up to half a turn, every azimuth, both choices of axes", "why_tests_cant": "Rounding errors depend on every bit of the inputs; tests compare a few values with a tolerance, and the worst cases (poles, tiny vectors, antipodes) are isolated.", "anchors": ["src/nvector/core.py: n_EA_E_distance_and_azimuth2n_EB_E, great_circle_distance"]}
{"id": "C97", "title": "The azimuth in double precision", "statement": "With IEEE double arithmetic the azimuth from one position to another on an ellipsoid of semi-major axis a is within (2.3e-14 a + 1.2e-14 D)/h + 1.5e-15 of the exact one modulo a turn, where D is the straight distance between the positions and h its horizontal part at the start; and on a sphere the azimuth to the result of the direct problem over the angle s in direction az is az within (8.2e-14 + 4.5 d)/sin s modulo a turn.", "quantifier": "every pair of positions of doubles with h at least 3e-14 a + 1.5e-14 D, the start at a pole or not within 2^-300 of it, every a between 1 and 1e10, every f between 0 and 0.01, both choices of axes", "why_tests_cant": "Rounding errors depend on every bit of the inputs; tests compare a few values with a tolerance, and the worst cases (poles, tiny vectors, antipodes) are isolated.", "anchors": ["src/nvector/core.py: n_EA_E_and_n_EB_E2azimuth, n_EA_E_distance_and_azimuth2n_EB_E"]}
{"id": "C98", "title": "Track distances of geographic points in double precision", "statement": "With IEEE double arithmetic the great circle track distance of the path between two GeoPoints is within 4.1e-14 (a + |zA| + |zB|) (0.3 micrometres on Earth) of the angle between the exact normals times the average distance of the exact points from the centre, the Euclidean one within 3.9e-14 (a + |zA| + |zB|) of the chord times that radius, and with a given radius r within 1.02e-14 r and 8e-15 r.", "quantifier": "every pair of GeoPoints of doubles (any latitude and longitude, depth below 0.4 a), every a between 1 and 1e10, every f between 0 and 0.01, both choices of axes", "why_tests_cant": "Rounding errors depend on every bit of the inputs; tests compare a few values with a tolerance, and the worst cases (poles, tiny vectors, antipodes) are isolated.", "anchors": ["src/nvector/objects.py: GeoPath.track_distance, GeoPath._get_average_radius, Pvector.length", "src/nvector/core.py: great_circle_distance, euclidean_distance"]}
{"id": "C99", "title": "GeoPoint.distance_and_azimuth(method='greatcircle') is accurate in binary64", "statement": "For two GeoPoints on one ellipsoid (0 <= f <= 0.01, between 0.4 a below and 998 a above the surface), distance_and_azimuth(method='greatcircle') evaluated in rounded arithmetic never fails; its distance is the angle between the exact surface normals times the mean distance of the exact positions from the centre, up to 4.1e-14 (a + |zA| + |zB|); its two azimuths are, modulo a turn, the directions from north over east of the exact chord AB in the exact local frames at A and at B, up to (6.1e-14 (a + |zA| + |zB|) + 2.3e-13 |AB| / c) / h + 6.6e-15, where h is the horizontal part of the chord at that end and c the sine of the colatitude there, and lie within a half turn of zero; with degrees=True the azimuths are these in degrees.", "quantifier": "all latitudes and longitudes at least 1e-12 from the poles, all depths in the range, all chords whose horizontal part exceeds the rounding level, both settings of degrees and long_unroll, every IEEE-style rounding and libm of the assumed accuracy", "why_tests_cant": "Rounding errors depend on every bit of the inputs; tests compare a few values with a tolerance, and the worst cases (poles, tiny vectors, antipodes) are isolated.", "anchors": ["src/nvector/objects.py: GeoPoint.distance_and_azimuth, GeoPoint._distance_and_azimuth_greatcircle, delta_N, _base_angle"]}
{"id": "C100", "title": "Documented default arguments", "statement": "Every function and method called without its optional arguments behaves as with the documented defaults: WGS84 (a = 6378137, f = 1/298.257223563), axes 'e', depth 0, mean radius 6371009 m, great circle method for paths and ellipsoid method for displacements and the inverse problem, tolerances 1e-8, 1e-6, 1e-9, 1e-7, 1e-14, angles in radians, no unrolling. FrameE() is exactly this Earth, so objects created without a frame convert exactly as the functions do without arguments.", "quantifier": "all n-vectors, positions, angles, frames and objects (NaN and infinities included)", "why_tests_cant": "A test calls each function with a few arguments; the two interfaces could disagree in a default that only shows for other inputs.", "anchors": ["src/nvector/core.py: all functions", "src/nvector/objects.py: FrameE, GeoPoint, Nvector, ECEFvector, GeoPath, _default_frame", "src/nvector/rotation.py: n_E2lat_lon, n_E2R_EN, n_E_and_wa2R_EL"]}
{"id": "C101", "title": "Factory methods and accessors", "statement": "frame.GeoPoint, frame.Nvector, frame.ECEFvector and frame.Pvector create objects of that very frame with the given coordinates, even if another frame is passed by keyword; a GeoPoint built from degrees reports exactly these in latlon_deg (in exact arithmetic) and one built from radians in latlon; azimuth_deg in [-180, 180] and elevation_deg in [-90, 90] are the spherical coordinates of every nonzero vector; positionA and positionB are the end points of a path.", "quantifier": "all coordinates, frames, vectors and paths", "why_tests_cant": "Tests evaluate single points; the ranges and the inverse relation must hold for all.", "anchors": ["src/nvector/objects.py: FrameE.GeoPoint, FrameE.Nvector, FrameE.ECEFvector, _LocalFrame.Pvector, GeoPoint.latlon, GeoPoint.latlon_deg, Pvector.azimuth_deg, Pvector.elevation_deg, GeoPath.positionA, GeoPath.positionB"]}
{"id": "C102", "title": "Mean horizontal position in binary64", "statement": "mean_horizontal_position of N n-vectors (length at most 1.1, N up to 1e7) computed in binary64 arithmetic with the sum taken in any order or grouping is within 5.7e-16 + 4.7e-16 N^2/s per component of the exact direction of the exact vector sum, where s is the length of the sum and N^2 <= 1e15 s.", "quantifier": "every correctly rounding binary64 arithmetic, every list of binary64 n-vectors of any length up to 1e7, every order and grouping of the additions", "why_tests_cant": "Rounding errors depend on every bit of the inputs; tests compare a few values with a tolerance, and the worst cases (poles, tiny vectors, antipodes) are isolated.", "anchors": ["src/nvector/core.py: mean_horizontal_position", "src/nvector/util.py: unit"]}
{"id": "C103", "title": "Closest point on a great circle in binary64", "statement": "closest_point_on_great_circle in binary64 arithmetic returns, in every component, the nearest position of the exact great circle through the two given n-vectors within 3.6e-14/(s t), where s is the length of the vector product of the path's ends (at least 1e-9), t the sine of the distance of the point from the nearer pole of the circle times its length, and s t^2 >= 1e-9; in particular it never returns the antipode of the nearest point.", "quantifier": "every correctly rounding binary64 arithmetic, all binary64 paths and points satisfying the bounds", "why_tests_cant": "Rounding errors depend on every bit of the inputs; tests compare a few values with a tolerance, and the worst cases (poles, tiny vectors, antipodes) are isolated.", "anchors": ["src/nvector/core.py: closest_point_on_great_circle, great_circle_normal", "src/nvector/util.py: unit"]}
{"id": "C104", "title": "Intersection of two paths in binary64", "statement": "intersect in binary64 arithmetic returns, within 9.4e-15/s per component, the point in which the exact great circles of the two paths meet that lies in the hemisphere of the first end point of path A, without NaN or warning; s >= 1e-10 is the length of (A1 x A2) x (B1 x B2), and s times the cosine of the angle between A1 and the point is at least 2e-14. In particular rounding never selects the antipodal intersection.", "quantifier": "every correctly rounding binary64 arithmetic, all binary64 n-vectors of length at most 1.04 satisfying the bounds", "why_tests_cant": "Rounding errors depend on every bit of the inputs; tests compare a few values with a tolerance, and the worst cases (poles, tiny vectors, antipodes) are isolated.", "anchors": ["src/nvector/core.py: intersect", "src/nvector/util.py: unit"]}
{"id": "C105", "title": "Interpolation along a path in binary64", "statement": "interpolate in binary64 arithmetic is within 5.7e-16 + 3.01e-15 T/s per component of the exact interpolated position, which lies on the great circle of the path and on its shorter arc for 0 <= ti <= 1; |ti| <= T <= 40 and s is the length of (1-ti) A + ti B.", "quantifier": "every correctly rounding binary64 arithmetic, all binary64 end points of length at most 1.1 and parameters with |ti| <= 40 satisfying the bounds", "why_tests_cant": "Rounding errors depend on every bit of the inputs; tests compare a few values with a tolerance, and the worst cases (poles, tiny vectors, antipodes) are isolated.", "anchors": ["src/nvector/core.py: interpolate", "src/nvector/util.py: unit"]}
{"id": "C106", "title": "Cross track distance of geographic points in binary64", "statement": "GeoPath.cross_track_distance between geographic points in binary64 arithmetic is within 3.6e-14 r/s of the exact signed great circle cross track distance for a given radius r, and within 5.2e-14 (a+|zA|+|zB|)/s of it for the default radius (the mean distance of the end points from the centre); its absolute value is up to this error the least distance to any position of the great circle. s >= 1e-8 is the sine of the length of the path; the point is within 52 degrees of the great circle.", "quantifier": "every correctly rounding binary64 arithmetic, all latitudes and longitudes, all depths up to 1e15 and not below 0.4 a, both axis conventions, all ellipsoids with 1 <= a <= 1e10 and f <= 0.01", "why_tests_cant": "Rounding errors depend on every bit of the inputs; tests compare a few values with a tolerance, and the worst cases (poles, tiny vectors, antipodes) are isolated.", "anchors": ["src/nvector/objects.py: GeoPath.cross_track_distance", "src/nvector/core.py: cross_track_distance, great_circle_normal, lat_lon2n_E"]}
{"id": "C107", "title": "Intersection and interpolation of geographic paths in binary64", "statement": "GeoPath.intersect in binary64 returns an n-vector within 3.6e-14/s of the intersection of the exact great circles in the hemisphere of the start point, with the mean of the four depths; GeoPath.interpolate returns an n-vector within 5.7e-16 + 2.2e-14 T/s of the exact interpolated position, with the depth interpolated linearly.", "quantifier": "every correctly rounding binary64 arithmetic, all latitudes, longitudes, depths and parameters |ti| <= T <= 40 with s >= 1e-8 (and s t >= 2e-13 for intersections), both axis conventions", "why_tests_cant": "Rounding errors depend on every bit of the inputs; tests compare a few values with a tolerance, and the worst cases (poles, tiny vectors, antipodes) are isolated.", "anchors": ["src/nvector/objects.py: GeoPath.intersect, GeoPath.interpolate", "src/nvector/core.py: intersect, lat_lon2n_E"]}
{"id": "C108", "title": "Closest point of a geographic path in binary64", "statement": "GeoPath.closest_point_on_great_circle in binary64 returns a GeoPoint whose horizontal position is within 2.5e-13/(s t) of the nearest position of the exact great circle and whose depth is the mean depth of the path; s is the sine of the length of the path, t the cosine of the distance of the point from the great circle, s t^2 >= 1e-8.", "quantifier": "every correctly rounding binary64 arithmetic, all latitudes, longitudes and depths satisfying the bounds, both axis conventions", "why_tests_cant": "Rounding errors depend on every bit of the inputs; tests compare a few values with a tolerance, and the worst cases (poles, tiny vectors, antipodes) are isolated.", "anchors": ["src/nvector/objects.py: GeoPath.closest_point_on_great_circle, Nvector.to_geo_point", "src/nvector/core.py: closest_point_on_great_circle, n_E2lat_lon"]}
{"id": "C109", "title": "GeoPoint.displace on the great circle in binary64", "statement": "In IEEE binary64 arithmetic, GeoPoint.displace(distance, azimuth, method='greatcircle') on an ellipsoid with axes 'e' returns a point of the same depth and frame whose horizontal position is, within a few 1e-14 (more near the poles, where the azimuth itself is ill conditioned), the position at the angle distance/radius in the direction of the azimuth; its great circle distance from the start is the requested distance within 3e-14 of the radius plus 4e-14 of the distance; and the returned azimuth is the direction at the returned point of the exact chord from the start to it, up to whole turns. With degrees=True the same holds with azimuths in degrees.", "quantifier": "every starting latitude and longitude at least 1e-12 from the poles (c the sine of the colatitude), every depth between 0.4 a below and 998 a above the ellipsoid, every distance up to 1e12 c radii, every azimuth and every rounding allowed by IEEE 754 and the libm error bounds", "why_tests_cant": "Rounding errors depend on every bit of the inputs; tests compare a few values with a tolerance, and the worst cases (poles, tiny vectors, antipodes) are isolated.", "anchors": ["src/nvector/objects.py: GeoPoint.displace, GeoPoint._displace_great_circle", "src/nvector/core.py: n_EA_E_distance_and_azimuth2n_EB_E"]}
{"id": "C110", "title": "delta_to between geographic points in binary64", "statement": "In IEEE binary64 arithmetic, pointA.delta_to(pointB) of two GeoPoints has the north, east and down components of the exact vector between the exact positions, in the exact local frame of A, up to 2.7e-14 of the size of the configuration plus 1e-13 of the distance divided by the sine of the colatitude of A; and its azimuth is the direction from north over east of the horizontal part of that vector, up to whole turns and the corresponding relative error.", "quantifier": "all pairs of geographic points (any latitude and longitude, A at least 1e-12 from the poles, depths up to 1e15), both choices of axes, every ellipsoid with 1 <= a <= 1e10, 0 <= f <= 0.01 and every rounding allowed by IEEE 754", "why_tests_cant": "Rounding errors depend on every bit of the inputs; tests compare a few values with a tolerance, and the worst cases (poles, tiny vectors, antipodes) are isolated.", "anchors": ["src/nvector/objects.py: delta_N, _Common.delta_to", "src/nvector/objects.py: FrameN"]}
{"id": "C111", "title": "Membership of a great circle path in binary64", "statement": "In binary64, on_great_circle_path(path, n, radius, atol), GeoPath.on_path(point, rtol, atol) and GeoPath.on_great_circle(point, atol) answer True when a position of the exact great circle is within the tolerance of the point, the point is nearer to each end of the path than the other end is, and (for on_path) the depth agrees with the mean depth of the path within the tolerance, each by more than an explicit rounding error; they answer False when one of these fails by more than that error.", "quantifier": "all paths between geographic points on all ellipsoids with flattening up to 0.01, shorter and longer than half a circle, with sine of the length at least 1e-8, all points, all tolerances up to 0.7 radii, every correctly rounded binary64 arithmetic with a sufficiently accurate math library", "why_tests_cant": "Rounding errors depend on every bit of the inputs; tests compare a few values with a tolerance, and the worst cases (poles, tiny vectors, antipodes) are isolated.", "anchors": ["src/nvector/core.py: on_great_circle_path", "src/nvector/core.py: on_great_circle", "src/nvector/objects.py: GeoPath.on_path", "src/nvector/objects.py: GeoPath.on_great_circle", "src/nvector/objects.py: GeoPath._on_great_circle_path", "src/nvector/util.py: isclose"]}
{"id": "C112", "title": "The nearest point of a path in binary64", "statement": "In binary64, GeoPath.closest_point_on_path(point) returns the nearest position of the exact great circle at the mean depth of the path when that position lies on the path side of both ends by more than an explicit rounding error, and exactly the given end nearer to the point when it lies beyond an end by more than that error; on paths shorter than 113 degrees the result is always within the rounding error of the segment and no point of the segment is nearer to the point by more than the rounding error.", "quantifier": "all paths between geographic points on all ellipsoids with flattening up to 0.01 and size at most 7500 km (including depths), with sine of the length s at least 1e-8, all points whose sine t of the distance from the poles of the circle satisfies s*t^2 >= 1e-8, every correctly rounded binary64 arithmetic with a sufficiently accurate math library", "why_tests_cant": "Rounding errors depend on every bit of the inputs; tests compare a few values with a tolerance, and the worst cases (poles, tiny vectors, antipodes) are isolated.", "anchors": ["src/nvector/objects.py: GeoPath.closest_point_on_path", "src/nvector/objects.py: GeoPath._closest_point_on_path", "src/nvector/objects.py: GeoPath._closest_point_on_great_circle", "src/nvector/core.py: closest_point_on_great_circle", "src/nvector/core.py: on_great_circle_path"]}
{"id": "C113", "title": "array_to_list_dict and repr in memory", "statement": "Whatever objects share, array_to_list_dict returns the converted value with no more nested calls than the result has levels; a dict is converted in place and is itself returned; no list, tuple, array or other object is modified, dicts keep their keys in order, objects the argument does not refer to are untouched, and through every other reference in memory the same contents are seen by subscripts. repr(obj) leaves the object and all of memory unchanged when no attribute refers to a dict.", "quantifier": "every memory of dicts, lists, tuples, arrays and other objects with any sharing, every argument with a finite value whose arrays hold plain items", "why_tests_cant": "The number of ways objects can share each other is unbounded, and the function assigns to dicts while other references to them are still to be visited.", "anchors": ["src/nvector/util.py: array_to_list_dict", "src/nvector/objects.py: _Common.__repr__"]}
{"id": "C114", "title": "Missing values stay missing", "statement": "A NaN in any component of any input (n-vector, cartesian vector, depth, radius, semi-axis, flattening, interpolation parameter, distance, azimuth; for latitude, longitude, azimuth and angular distance also an infinity) makes every number that lat_lon2n_E, n_E2lat_lon, n_E2R_EN, n_EB_E2p_EB_E, p_EB_E2n_EB_E, n_EA_E_and_n_EB_E2p_AB_E, n_EA_E_and_p_AB_E2n_EB_E, interpolate, intersect (which also warns), cross_track_distance, closest_point_on_great_circle, great_circle_distance, euclidean_distance, n_EA_E_and_n_EB_E2azimuth, n_EA_E_distance_and_azimuth2n_EB_E and mean_horizontal_position compute NaN, never an ordinary number; delta_N, distance_and_azimuth and displace by great circle, and the GeoPath methods do the same for positions of every class; on_great_circle, on_great_circle_path and on_path are False, and == with any other object is False.  The one exception is closest_point_on_path, which answers with the end point positionB.", "quantifier": "every input, frame matrix, method and tolerance, in the binary64 model for every binary64 implementation", "why_tests_cant": "The inputs range over a continuum of real values; tests sample a handful of points and cannot cover poles, date line, antipodes and every ellipsoid at once.", "anchors": ["src/nvector/core.py: all functions", "src/nvector/rotation.py: n_E2lat_lon, n_E2R_EN", "src/nvector/util.py: unit, nthroot, isclose", "src/nvector/objects.py: GeoPoint, Nvector, ECEFvector, Pvector, GeoPath, delta_E, delta_N"]}
{"id": "C115", "title": "Interpolation of tracks in binary64", "statement": "interp_nvectors with its default linear kind, on a track of n-vectors with distinct sample times (no two closer than 1e-30 nor further apart than 1e30): at a time between two neighbouring samples A and C the computed n-vector is in every component within 5.7e-16 + 5.1e-15/sigma of the exact position, which lies on the shorter arc from A to C (sigma: length of the linear interpolation before normalisation, at least 0.7 for samples at most 90 degrees apart); at the time of a sample it is within 6.3e-15 of the direction of the sample; before the first and after the last sample it is NaN; the order in which the samples are given does not change a single bit.  Nvector.interpolate does the same and its depth is within 1.4e-15 of the largest depth of the track of the linear interpolation in time.", "quantifier": "every track of any length, in any order, all query times, every binary64 implementation", "why_tests_cant": "Rounding errors depend on every bit of the inputs; tests compare a few values with a tolerance, and the worst cases (poles, tiny vectors, antipodes) are isolated.", "anchors": ["src/nvector/core.py: interp_nvectors", "src/nvector/objects.py: Nvector.interpolate", "src/nvector/util.py: unit"]}
{"id": "C116", "title": "The sign of zero", "statement": "numpy distinguishes 0.0 and -0.0. The signs of the zeros in the inputs (coordinates, angles, depths, matrices, parameters of the ellipsoid, tolerances) do not change the value of any n-vector, ECEF or local vector, rotation matrix, depth, latitude, length, elevation, cross track distance, mean, interpolated, intersection or closest n-vector, or great circle distance the library computes, nor the result of any comparison (==, !=, isclose, allclose, on_great_circle, on_great_circle_path). They can only be seen in three places: a longitude, azimuth or outer Euler angle of a half turn may be -180 instead of 180 degrees; the longitude at a pole may be 0, 180 or -180 degrees; the frame n_E_and_wa2R_EL at a pole depends on that longitude but is still a rotation with the down axis along minus the n-vector. Latitude and longitude always convert back to the n-vector, and GeoPoints of n-vectors that differ in signs of zeros are equal off the poles. Dividing an Nvector by -0.0 is excluded", "quantifier": "all inputs with zeros of either sign; in every arithmetic, except that position to n-vector is for finite numbers in exact arithmetic, and in the domain of C76 in binary64", "why_tests_cant": "The inputs range over a continuum of real values; tests sample a handful of points and cannot cover poles, date line, antipodes and every ellipsoid at once.", "anchors": ["src/nvector/rotation.py: n_E2lat_lon, n_E2R_EN, n_E_and_wa2R_EL, R2xyz", "src/nvector/core.py: p_EB_E2n_EB_E, great_circle_distance, n_EA_E_and_n_EB_E2azimuth", "src/nvector/util.py: unit, isclose", "src/nvector/objects.py: GeoPoint, Nvector, ECEFvector, Pvector, GeoPath"]}
{"id": "C117", "title": "Conversion chains in double precision drift at most linearly", "statement": "Calling to_nvector, to_ecef_vector and to_geo_point on a position in double precision, in any order and any number of times (up to 10^12), yields finite coordinates that describe a point within 3.4e-14 * (number of calls) * (a + distance from the centre) of the point described at the start (0.44 micrometres per call on the surface of the Earth): single-call errors do not amplify each other", "quantifier": "every position at 0.6a to 900a from the centre, given as GeoPoint (any finite latitude, longitude), Nvector (any length 1e-50..1e25) or ECEFvector; every flattening up to 0.01, every axes choice; every chain of at most 10^12 conversion calls", "why_tests_cant": "Rounding errors depend on every bit of the inputs; tests compare a few values with a tolerance, and the worst cases (poles, tiny vectors, antipodes) are isolated.", "anchors": ["src/nvector/objects.py: GeoPoint.to_nvector, Nvector.to_ecef_vector, ECEFvector.to_nvector, Nvector.to_geo_point, ECEFvector.to_geo_point, GeoPoint.to_ecef_vector", "src/nvector/core.py: lat_lon2n_E, n_E2lat_lon, n_EB_E2p_EB_E, p_EB_E2n_EB_E"]}
{"id": "C118", "title": "nthroot is the n-th root to machine precision", "statement": "nthroot(x, n) returns the n-th root of x to machine precision (docstring): in double precision the relative error is at most 2.6e-16, whatever the rounding of 1/n and the errors of the library's pow, including perfect powers", "quantifier": "every double x from 1e-60 up (below 2^52 the claim holds; from 2^52 to 1e60 the code omits its Newton step and the claim fails), every n from 1 to 10^6", "why_tests_cant": "Rounding errors depend on every bit of the inputs; tests compare a few values with a tolerance, and the worst cases (poles, tiny vectors, antipodes) are isolated.", "anchors": ["src/nvector/util.py: nthroot"]}
{"id": "C119", "title": "Reversal and antipodes are exact in double precision", "statement": "In binary64 arithmetic (rounding and library functions treat x and -x alike) swapping or reversing arguments changes no bit: great_circle_distance and euclidean_distance do not depend on the order of the two positions; n_EA_E_and_n_EB_E2p_AB_E and delta_E from B to A are exactly minus those from A to B; reversing a path negates cross_track_distance exactly and leaves on_great_circle, on_great_circle_path, closest_point_on_great_circle, intersect (second path), GeoPath.track_distance (greatcircle and euclidean), GeoPath.on_path (greatcircle), GeoPath.on_great_circle and GeoPath.closest_point_on_great_circle unchanged; GeoPath.closest_point_on_path is unchanged too unless the position is equally far from both ends to within 2.1e-14 rad; the antipodal position has exactly minus the cross-track distance, minus the Cartesian position at the same depth, minus the n-vector and the same depth.", "quantifier": "all values of all arguments, NaN and the infinities included, for the n-vector functions and path objects; all representable positions between half and a thousand semi-major axes from the centre for the antipodal n-vector; all binary64 arithmetics with sign-symmetric rounding and library functions", "why_tests_cant": "Rounding errors depend on every bit of the inputs; tests compare a few values with a tolerance, and the worst cases (poles, tiny vectors, antipodes) are isolated.", "anchors": ["src/nvector/core.py: great_circle_distance", "src/nvector/core.py: euclidean_distance", "src/nvector/core.py: n_EA_E_and_n_EB_E2p_AB_E", "src/nvector/core.py: cross_track_distance", "src/nvector/core.py: on_great_circle_path", "src/nvector/core.py: closest_point_on_great_circle", "src/nvector/core.py: intersect", "src/nvector/core.py: p_EB_E2n_EB_E", "src/nvector/objects.py: GeoPath", "src/nvector/objects.py: delta_E"]}
{"id": "C120", "title": "North and south, east and west are treated exactly alike in double precision", "statement": "In binary64 arithmetic (rounding and library functions treat x and -x alike) the mirror symmetries of the ellipsoid hold to the last bit, for both choices of axes: the opposite latitude (longitude) gives the n-vector and the Cartesian position mirrored in the equator (in the meridian plane of Greenwich); the mirrored n-vector has the mirrored position at the same depth; the mirrored position has the mirrored n-vector, the same depth, and the opposite latitude and same longitude (same latitude and opposite longitude); delta_N between mirrored points has the opposite north (east) component and the same other components; the azimuth between points mirrored in the meridian plane is the opposite one (or the same, where it is zero or a half turn).", "quantifier": "all latitudes, longitudes, depths and ellipsoids, NaN and the infinities included, for conversions from geographic points and delta_N; all representable n-vectors of length 2^-500 to 10^60 (1e-50 to 1e25 for latitude and longitude; the opposite longitude where it is not 0 or a half turn) and all positions between half and a thousand semi-major axes from the centre; both axes; all binary64 arithmetics with sign-symmetric rounding and library functions", "why_tests_cant": "Rounding errors depend on every bit of the inputs; tests compare a few values with a tolerance, and the worst cases (poles, tiny vectors, antipodes) are isolated.", "anchors": ["src/nvector/core.py: lat_lon2n_E", "src/nvector/rotation.py: n_E2lat_lon", "src/nvector/rotation.py: n_E2R_EN", "src/nvector/core.py: n_EB_E2p_EB_E", "src/nvector/core.py: p_EB_E2n_EB_E", "src/nvector/core.py: n_EA_E_and_n_EB_E2azimuth", "src/nvector/objects.py: delta_N", "src/nvector/objects.py: GeoPoint.to_ecef_vector", "src/nvector/objects.py: ECEFvector.to_geo_point"]}
{"id": "C121", "title": "The azimuth returned by displace is the heading on arrival", "statement": "On a spherical frame GeoPoint.displace(method='greatcircle') returns the heading on arrival: continuing a distance d2 along the returned azimuth gives the same point as walking d1+d2 from the start, and turning round and walking back the same distance returns to the starting point. (The library violates this beyond half way round the globe, where the returned azimuth points backwards.)", "quantifier": "all starting positions off the poles, azimuths, distances below half way round and radii", "why_tests_cant": "The inputs range over a continuum of real values; tests sample a handful of points and cannot cover poles, date line, antipodes and every ellipsoid at once.", "anchors": ["src/nvector/objects.py: GeoPoint.displace, GeoPoint._displace_great_circle"]}
{"id": "C122", "title": "No direction is special", "statement": "Rotating all positions changes no great circle distance, cross track distance or path membership, and rotates intersections, interpolated positions, closest points and means. Everything else depends on the choice of the coordinate axes R_Ee only through the rotation between the two choices: latitudes, longitudes, depths, azimuths, local delta vectors, track distances and the great circle inverse problem do not change at all, n-vectors, Cartesian positions and local frames turn with the axes.", "quantifier": "all rotations, all axes, all positions (excluding only the poles for the direct problem, the poles of the circle for the closest point, and positions in the core of the Earth for conversions from Cartesian ones)", "why_tests_cant": "The inputs range over a continuum of real values; tests sample a handful of points and cannot cover poles, date line, antipodes and every ellipsoid at once.", "anchors": ["src/nvector/core.py: great_circle_distance, euclidean_distance, cross_track_distance, on_great_circle, on_great_circle_path, intersect, interpolate, closest_point_on_great_circle, mean_horizontal_position, n_EB_E2p_EB_E, p_EB_E2n_EB_E, n_EA_E_and_n_EB_E2azimuth, n_EA_E_distance_and_azimuth2n_EB_E", "src/nvector/rotation.py: n_E2lat_lon, n_E2R_EN, n_E_and_wa2R_EL", "src/nvector/objects.py: delta_N, delta_L, GeoPath, GeoPoint.distance_and_azimuth"]}
{"id": "C123", "title": "Only differences of longitude matter", "statement": "Adding the same angle to the longitudes of all positions changes no local delta vector, track distance, cross track distance or path membership, turns n-vectors, Cartesian positions and local frames about the polar axis, and moves the end of a great circle displacement by the same angle (the local frame at a pole, where North is a convention, is excluded).", "quantifier": "all positions, angles and axes", "why_tests_cant": "The inputs range over a continuum of real values; tests sample a handful of points and cannot cover poles, date line, antipodes and every ellipsoid at once.", "anchors": ["src/nvector/core.py: lat_lon2n_E, n_EB_E2p_EB_E, n_EA_E_distance_and_azimuth2n_EB_E", "src/nvector/rotation.py: n_E2R_EN, n_E_and_wa2R_EL", "src/nvector/objects.py: delta_N, delta_L, GeoPath.track_distance, GeoPath.cross_track_distance, GeoPath.on_path"]}
{"id": "C124", "title": "The unit of length is a free choice", "statement": "Expressing the semi-major axis, depths, radii, vectors and distances in another unit of length (c times as many units, c > 0) leaves n-vectors, latitudes, longitudes and azimuths unchanged and multiplies every length in the results by c: conversions between n-vector and Cartesian position in both directions, vectors between positions, dead reckoning, delta_E/delta_N/delta_L, track and cross track distances with given or default radius, great circle displacement.", "quantifier": "all c > 0, positions, depths, ellipsoids and axes (the centre of the Earth excluded)", "why_tests_cant": "The inputs range over a continuum of real values; tests sample a handful of points and cannot cover poles, date line, antipodes and every ellipsoid at once.", "anchors": ["src/nvector/core.py: n_EB_E2p_EB_E, p_EB_E2n_EB_E, n_EA_E_and_n_EB_E2p_AB_E, n_EA_E_and_p_AB_E2n_EB_E, n_EA_E_and_n_EB_E2azimuth, great_circle_distance, euclidean_distance, cross_track_distance", "src/nvector/objects.py: delta_E, delta_N, delta_L, GeoPath.track_distance, GeoPath.cross_track_distance, GeoPoint.displace"]}
{"id": "C125", "title": "The depth is the distance to the ellipsoid", "statement": "p_EB_E2n_EB_E (and ECEFvector.to_nvector, to_geo_point) returns, wherever it returns numbers, a depth whose absolute value is the distance from the position to the nearest point of the reference ellipsoid; the n-vector is the normal at that nearest point, which is the only one; the depth is negative outside the ellipsoid, zero on it and positive inside. Likewise n_EB_E2p_EB_E puts a position with depth d, for every height and every depth down to a(1-f)^2, at distance |d| from the ellipsoid, nearest to the surface point of the same n-vector.", "quantifier": "all Cartesian positions outside the core of C08 or on the polar axis; all n-vectors and all depths up to a(1-f)^2 (6335 km for WGS84); all ellipsoids with 0 <= f < 1; all rotation matrices R_Ee; all points of the ellipsoid compared with", "why_tests_cant": "The inputs range over a continuum of real values; tests sample a handful of points and cannot cover poles, date line, antipodes and every ellipsoid at once.", "anchors": ["src/nvector/core.py: n_EB_E2p_EB_E, p_EB_E2n_EB_E", "src/nvector/objects.py: ECEFvector.to_nvector, ECEFvector.to_geo_point"]}
{"id": "C126", "title": "The classical formulas in latitude and longitude", "statement": "The n-vector functions give the classical results: great_circle_distance is the haversine formula and the spherical law of cosines; the azimuth on a sphere is atan2(sin dlon cos lat2, cos lat1 sin lat2 - sin lat1 cos lat2 cos dlon); the direct problem gives lat2 = asin(sin lat1 cos d + cos lat1 sin d cos az) and lon2 = lon1 + atan2(sin az sin d cos lat1, cos d - sin lat1 sin lat2); the cross track distance is r asin(sin(d13/r) sin(theta13-theta12)); GeoPoint.distance_and_azimuth by great circles on a sphere is the haversine distance and the textbook azimuths, and satisfies Clairaut's relation cos(latA) sin(azA) = cos(latB) sin(azB).", "quantifier": "all latitudes and longitudes (for directions: starting positions off the poles), all distances, azimuths, radii, depths above the centre; all orientations R_Ee for the n-vector functions", "why_tests_cant": "The inputs range over a continuum of real values; tests sample a handful of points and cannot cover poles, date line, antipodes and every ellipsoid at once.", "anchors": ["src/nvector/core.py: great_circle_distance, euclidean_distance, n_EA_E_and_n_EB_E2azimuth, n_EA_E_distance_and_azimuth2n_EB_E, cross_track_distance, lat_lon2n_E, n_E2lat_lon", "src/nvector/objects.py: GeoPoint.distance_and_azimuth"]}
{"id": "C127", "title": "Small changes of the input change the results little", "statement": "Explicit global Lipschitz bounds: two Cartesian positions differ in depth by at most their distance; their n-vectors differ by at most that distance divided by a(1-f)^2 less the mean depth; the Cartesian positions of two (n-vector, depth) pairs differ by at most (a/(1-f)+|depth|) times the difference of the n-vectors plus the difference in depth; the great circle distance changes by at most the sum of the distances the two end points move; the cross track distance by at most the distance the point moves; the latitude by at most the angle between the n-vectors; and the direct problem with two lengths |d-e| <= pi reaches points exactly |d-e| apart.", "quantifier": "all positions outside the evolute (or on the axis, any depth below the polar radius of curvature), all n-vectors, depths, ellipsoids 0 <= f < 1, orientations, proper paths and radii", "why_tests_cant": "The inputs range over a continuum of real values; tests sample a handful of points and cannot cover poles, date line, antipodes and every ellipsoid at once.", "anchors": ["src/nvector/core.py: p_EB_E2n_EB_E, n_EB_E2p_EB_E, great_circle_distance, cross_track_distance, n_E2lat_lon, n_EA_E_distance_and_azimuth2n_EB_E"]}
{"id": "C128", "title": "North, east and down are the directions of growing latitude, longitude and depth", "statement": "When latitude, longitude and depth of a position change at the rates u, v and w, its Cartesian position n_EB_E2p_EB_E(lat_lon2n_E(lat, lon), z) moves with velocity (M-z)u along the first, (N-z)cos(lat)v along the second and w along the third column of n_E2R_EN, where M = a(1-e^2)/(1-e^2 sin^2 lat)^(3/2) and N = a/sqrt(1-e^2 sin^2 lat); to first order delta_N from a GeoPoint to its neighbour is ((M-z)dlat, (N-z)cos(lat)dlon, dz); and the direct problem n_EA_E_distance_and_azimuth2n_EB_E starts in the direction cos(az) north + sin(az) east, moves at unit speed and never leaves its great circle.", "quantifier": "all differentiable motions off the poles, all ellipsoids with f < 1, all orientations R_Ee, all starting positions off the poles, azimuths and distances", "why_tests_cant": "The inputs range over a continuum of real values; tests sample a handful of points and cannot cover poles, date line, antipodes and every ellipsoid at once.", "anchors": ["src/nvector/core.py: lat_lon2n_E, n_EB_E2p_EB_E, n_EA_E_distance_and_azimuth2n_EB_E", "src/nvector/rotation.py: n_E2R_EN", "src/nvector/objects.py: delta_N, FrameN, GeoPoint.delta_to"]}
{"id": "C129", "title": "The great circle distance is within 0.56 % of the shortest way over the ellipsoid", "statement": "great_circle_distance of two positions at the same height above the ellipsoid (on it, in particular), with any radius between the polar and the equatorial one raised by that height, and GeoPath.track_distance with its default radius, give a length x such that every path between the two positions at that height is at least (1-f)^2 x long and some path is at most x/(1-f)^2 long (0.9932 and 1.0068 on WGS 84); lengths are suprema over inscribed polygons. With any radius r the two factors are (a(1-f)^2+h)/r and (a/(1-f)+h)/r; on WGS 84 with the default radius 6371009 m they are 0.9944 and 1.0045. On a sphere x is exactly the length of the shortest path. Hence track_distance with 'ellipsoid' and with 'greatcircle' agree within these factors if geographiclib returns the length of the shortest way. The factors of GeoPath.track_distance cannot be improved, on any ellipsoid and for positions as near as one likes: the first is approached across the equator, the second across a pole.", "quantifier": "all pairs of unit normals, all heights >= 0, all ellipsoids with 0 <= f < 1, all frames, all continuous paths between the positions at that height", "why_tests_cant": "The inputs range over a continuum of real values; tests sample a handful of points and cannot cover poles, date line, antipodes and every ellipsoid at once.", "anchors": ["src/nvector/core.py: great_circle_distance, n_EB_E2p_EB_E", "src/nvector/objects.py: GeoPath.track_distance, GeoPoint.distance_and_azimuth"]}
{"id": "C130", "title": "Distances and azimuths obey spherical trigonometry", "statement": "For every triangle of positions on a sphere, the results of great_circle_distance (sides) and of n_EA_E_and_n_EB_E2azimuth (directions at the corners) satisfy the spherical law of cosines at every corner that is not a pole and the spherical law of sines, orientation included, if no corner is a pole. Two travellers leaving the same place (not a pole) by n_EA_E_distance_and_azimuth2n_EB_E end up as far apart as the law of cosines says: |d1 - d2| on the same course, d1 + d2 on opposite courses. The way from a point to closest_point_on_great_circle (|cross_track_distance|) and from there along the great circle to any point Q are the legs of a right spherical triangle with the way to Q as hypotenuse.", "quantifier": "all triples of unit normals, all distances and azimuths, all radii > 0, all frames", "why_tests_cant": "The inputs range over a continuum of real values; tests sample a handful of points and cannot cover poles, date line, antipodes and every ellipsoid at once.", "anchors": ["src/nvector/core.py: great_circle_distance, n_EA_E_and_n_EB_E2azimuth, n_EA_E_distance_and_azimuth2n_EB_E"]}
{"id": "C131", "title": "How far along the path an interpolated position is", "statement": "For a path that does not join antipodes, of angular length T = distance/radius, the great circle distance between interpolate(path, s) and interpolate(path, t), 0 <= s <= t <= 1, is r (arctan((2t-1) tan(T/2)) - arctan((2s-1) tan(T/2))): at least r sin T (t - s) and at most 2 r tan(T/2) (t - s). t = 1/2 is exactly half way and equals mean_horizontal_position of the end points. On paths up to a tenth of the radius (637 km) steps of t are steps along the path to 0.25 %. The interpolated position is where the direct problem from A with the azimuth of B leads after that distance, for every t; extrapolation never gets farther than 90 degrees from the middle. GeoPath.interpolate behaves alike and changes the depth in proportion to t. Parameter and distance are not proportional in general.", "quantifier": "all pairs of unit normals that are not antipodes, all parameters, all radii > 0, all kinds of path end points", "why_tests_cant": "The inputs range over a continuum of real values; tests sample a handful of points and cannot cover poles, date line, antipodes and every ellipsoid at once.", "anchors": ["src/nvector/core.py: interpolate, mean_horizontal_position, great_circle_distance", "src/nvector/objects.py: GeoPath.interpolate"]}
{"id": "C132", "title": "Means, interpolated positions and tracks stay among their positions", "statement": "If all given positions lie within the distance x of some position u, x less than a quarter of the circumference, then mean_horizontal_position exists (no NaN) and lies within x of u; so does every interpolate(path, t), 0 <= t <= 1, of a path with both ends there, every GeoPath.interpolate, whose depth also stays between those of the ends, and every result of interp_nvectors between the first and the last sample of a track. In a closed hemisphere the mean, if it exists, lies in the hemisphere; in larger caps the claim is false.", "quantifier": "all non-empty lists of positions, all tracks of two or more samples with distinct times, all caps smaller than a hemisphere, all parameters", "why_tests_cant": "The inputs range over a continuum of real values; tests sample a handful of points and cannot cover poles, date line, antipodes and every ellipsoid at once.", "anchors": ["src/nvector/core.py: mean_horizontal_position, interpolate, interp_nvectors", "src/nvector/objects.py: GeoPath.interpolate"]}
{"id": "C133", "title": "Positions on different earths are not combined", "statement": "Conversions and local frames stay in the frame E of the position. For positions whose frames E compare unequal, delta_E, delta_N, delta_L, GeoPoint.distance_and_azimuth (also for every position in a local frame), GeoPath.interpolate and the ellipsoidal track_distance raise ValueError and the ellipsoidal on_path gives no answer. The claim is false of the great circle methods: track_distance, cross_track_distance, closest_point_on_great_circle and intersect ignore the frames.", "quantifier": "all positions of the four classes, all frames, methods, flags and scalars", "why_tests_cant": "The inputs range over a continuum of real values; tests sample a handful of points and cannot cover poles, date line, antipodes and every ellipsoid at once.", "anchors": ["src/nvector/objects.py: _check_frames", "src/nvector/objects.py: delta_E", "src/nvector/objects.py: GeoPoint.distance_and_azimuth", "src/nvector/objects.py: GeoPath.interpolate", "src/nvector/objects.py: GeoPath.track_distance", "src/nvector/objects.py: GeoPath.on_path"]}
{"id": "C134", "title": "Arrays of lengths that do not fit are rejected", "statement": "If two arguments of a call have lengths n and m that neither agree nor are one, the call raises ValueError instead of truncating, repeating or re-pairing: latitudes with longitudes, n-vectors with depths, positions A with positions B, both ends of a path, paths with times, paths with points, paths with paths, positions with distances or azimuths, angles with angles, any two arguments of GeoPoint, FrameE.inverse and FrameE.direct, sums, differences and delta vectors of position objects. Only cross_track_distance and on_great_circle accept n paths and m points; they return the n m results for all paths with all points, path by path.", "quantifier": "all lengths n and m, all values, every element type, all the functions of the module that combine arrays", "why_tests_cant": "The lengths are unbounded and numpy broadcasting, transposed products and einsum decide separately for each operation.", "anchors": ["src/nvector/core.py", "src/nvector/rotation.py: xyz2R, zyx2R, n_E_and_wa2R_EL", "src/nvector/objects.py: GeoPoint, FrameE.inverse, FrameE.direct, delta_E, delta_N, delta_L, ECEFvector, Nvector"]}
{"id": "C135", "title": "Calls without positions", "statement": "With empty arrays FrameE.inverse, FrameE.direct and GeoPoint.displace (ellipsoid) raise ValueError; the conversions from n-vectors and everything built on them (n_E2lat_lon, n_E2R_EN, n_E_and_wa2R_EL, n_EB_E2p_EB_E, delta, azimuth, to_ecef_vector, to_geo_point, displace on the great circle) raise IndexError; the remaining core functions return empty arrays, and an empty GeoPoint can be made and turned into an Nvector. The mean of no positions is not empty and not an error: it is the x-axis of frame E with the depth NaN.", "quantifier": "all arrays of length zero, alone or with numbers and one-element arrays, every element type", "why_tests_cant": "Which of the many numpy operations of a call reacts to an empty array depends on the whole chain of calls.", "anchors": ["src/nvector/core.py: mean_horizontal_position", "src/nvector/util.py: _check_length_deviation", "src/nvector/objects.py: FrameE.inverse, FrameE.direct, GeoPoint.displace, Nvector.mean"]}
{"id": "C136", "title": "Objects can be used by several threads at once", "statement": "A method called in one thread while any number of other threads call any methods on the same arrays and objects, in any interleaving, ends and returns what it returns alone (or raises the same exception), and its result keeps this value, unless another thread calls Nvector.unit() on one of the objects it uses; at every moment of every schedule, also when threads are interrupted, every array and object has its original value except Nvector objects whose unit() was called. With unit() in another thread p + p can be neither the old nor the new sum.", "quantifier": "every memory with arrays and objects shared in any way, every number of threads, every schedule that lets the thread run again and again, every sequence of calls by other threads, every interruption, every number type", "why_tests_cant": "Interleavings cannot be enumerated by tests, and a race shows up only under schedules a test does not produce.", "anchors": ["src/nvector/objects.py: delta_E, delta_N, GeoPoint, Nvector, ECEFvector, Pvector, FrameN, FrameL, FrameB, GeoPath", "src/nvector/util.py: unit", "src/nvector/rotation.py: n_E2R_EN"]}
{"id": "C137", "title": "Angles count modulo full turns", "statement": "Latitude, longitude, azimuth, roll, pitch, yaw and wander azimuth may be given with any size. Two pairs (latitude, longitude) give the same n-vector exactly if they name the same place: both angles equal modulo full turns, or the latitude continued over the pole (pi minus latitude, longitude plus pi), or the same pole; every GeoPoint and GeoPath method that converts to n-vectors then gives the same result for both names, and converting back gives a latitude between -90 and 90 degrees and a longitude between -180 and 180. Two triples of angles give the same xyz2R or zyx2R matrix exactly if they describe the same turns (equal modulo full turns, or the other solution with the middle angle replaced by pi minus it, or gimbal lock with the same sum or difference). Azimuth and distance in the direct problem: going backwards is going forwards in the opposite direction, a full turn leads back.", "quantifier": "every real angle, every axes rotation, every ellipsoid, every depth, every pair of positions and paths", "why_tests_cant": "The set of angles is unbounded and the other names of a place include the special cases at the poles and at gimbal lock; tests sample a few angles within one turn.", "anchors": ["src/nvector/core.py: lat_lon2n_E, n_E2lat_lon, n_EA_E_distance_and_azimuth2n_EB_E, n_E_and_wa2R_EL", "src/nvector/rotation.py: xyz2R, zyx2R", "src/nvector/objects.py: GeoPoint, GeoPath, FrameL, FrameB"]}
{"id": "C138", "title": "Inverse problem followed by the direct problem in double precision", "statement": "On a sphere, computing distance and azimuth from A to B and then displacing A by them leads back to B: for n-vectors and for latitude and longitude within 1.5e-13 radians (about a micrometre on the Earth) wherever B is, also when B is close to A or to the antipode of A, where the computed azimuth itself can be wrong; for GeoPoint.distance_and_azimuth and GeoPoint.displace with method greatcircle within 1.1e-12 divided by the cosine of the latitude.", "quantifier": "every conforming binary64 arithmetic with its own choice of sine, cosine, arctangent and power, every pair of double precision positions (A not within 1e-14 of a pole), every radius from 1 to 1e10, every depth", "why_tests_cant": "Rounding errors depend on every bit of the inputs; tests compare a few values with a tolerance, and the worst cases (poles, tiny vectors, antipodes) are isolated.", "anchors": ["src/nvector/core.py: great_circle_distance, n_EA_E_and_n_EB_E2azimuth, n_EA_E_distance_and_azimuth2n_EB_E", "src/nvector/objects.py: GeoPoint.distance_and_azimuth, GeoPoint.displace"]}
{"id": "C139", "title": "A long traverse by dead reckoning in double precision", "statement": "Calling n_EA_E_and_p_AB_E2n_EB_E once for each leg of a traverse, feeding the result of one call to the next, all in rounded arithmetic, gives numbers: an n-vector and a depth describing a point within 4e-14 * k * (a + L) of the start plus the sum of the k legs, where L bounds the distances of the stations from the centre (0.52 micrometres per leg on the surface of the Earth). The errors of the legs add, they do not amplify each other. A closed traverse misses its start by at most this, two traverses with the same legs in different orders end within twice this, and the depth is off by no more than the position if neither is below the surface.", "quantifier": "up to 10^9 legs with double precision coordinates, every station between 0.6 a and 900 a from the centre, every start, ellipsoid with a in [1, 1e10] and f in [0, 0.01] and both axis conventions", "why_tests_cant": "Rounding errors depend on every bit of the inputs; tests compare a few values with a tolerance, and the worst cases (poles, tiny vectors, antipodes) are isolated.", "anchors": ["src/nvector/core.py: n_EA_E_and_p_AB_E2n_EB_E, n_EB_E2p_EB_E, p_EB_E2n_EB_E"]}
{"id": "C140", "title": "The printed text identifies the object", "statement": "repr of a position or frame (what print shows) determines it: two position objects of any classes print the same text exactly when they have the same class, the same coordinates and the same frames; the same for Earth frames and local frames. In general two values print the same text exactly when they have the same content: the same numbers and strings at the same places, the same nesting, the same classes and public attributes; lists, tuples and arrays are not distinguished and attributes beginning with an underscore are not shown. The text is Class(name=value, ...) with every attribute under its own name, in a fixed order, e.g. FrameB(nvector=..., yaw=..., pitch=..., roll=...).", "quantifier": "all objects and all nestings of lists, tuples, arrays and objects, given that numbers print as words without punctuation, different numbers differently, and strings contain no quote", "why_tests_cant": "The inputs range over a continuum of real values; tests sample a handful of points and cannot cover poles, date line, antipodes and every ellipsoid at once.", "anchors": ["src/nvector/objects.py: _Common.__repr__", "src/nvector/util.py: array_to_list_dict"]}
{"id": "C141", "title": "Which positions count as on a path, and the closest point, for paths of any length", "statement": "For a great circle path of any length t below 180 degrees, on_great_circle_path with zero tolerance is True exactly for the positions of the shorter arc between the end points and for those of a second arc: the positions of the great circle within (3t - 360)/2 degrees of the antipode of the midpoint. The two arcs are disjoint and the second is empty exactly for paths shorter than 120 degrees. closest_point_on_path returns the nearest point of the path except when the nearest point of the whole great circle is on the second arc; then it returns that point, which is not on the path.", "quantifier": "all proper paths, all radii, all positions (for the closest point: not a pole of the great circle)", "why_tests_cant": "The inputs range over a continuum of real values; tests sample a handful of points and cannot cover poles, date line, antipodes and every ellipsoid at once.", "anchors": ["src/nvector/core.py: on_great_circle_path", "src/nvector/core.py: closest_point_on_great_circle", "src/nvector/objects.py: GeoPath.closest_point_on_path"]}
{"id": "C142", "title": "Exactly the rotations outside gimbal lock are recovered from their Euler angles", "statement": "xyz2R(*R2xyz(R)) = R exactly for the rotations whose middle angle is not 90 degrees and the two quarter turns about the y-axis, and the same for zyx2R(*R2zyx(R)) (zeros without sign). Whatever the signs of the zeros in R, in gimbal lock the matrix obtained from the angles is a quarter turn about the y-axis, possibly followed by a half turn about the z-axis, whatever R was.", "quantifier": "all rotation matrices, all signs of zeros (for xyz)", "why_tests_cant": "The inputs range over a continuum of real values; tests sample a handful of points and cannot cover poles, date line, antipodes and every ellipsoid at once.", "anchors": ["src/nvector/rotation.py: R2xyz", "src/nvector/rotation.py: xyz2R", "src/nvector/rotation.py: R2zyx", "src/nvector/rotation.py: zyx2R"]}
{"id": "C143", "title": "The great circle problems at the poles", "statement": "On a sphere with the default axes the azimuth reported from a pole to the position reached from it with azimuth az is az plus a quarter turn at the north pole and az minus a quarter turn at the south pole (modulo full turns); hence going from a pole the distance and azimuth reported to B arrives at B turned by a quarter turn about the axis, to the west. With axes 'E' every course from a pole remains on the axis: the result is the multiple s*cos(d) + sin(d)*sin(az) of the first axis.", "quantifier": "both poles, all distances, all azimuths, all B, all radii of the sphere", "why_tests_cant": "The inputs range over a continuum of real values; tests sample a handful of points and cannot cover poles, date line, antipodes and every ellipsoid at once.", "anchors": ["src/nvector/core.py: n_EA_E_distance_and_azimuth2n_EB_E", "src/nvector/core.py: n_EA_E_and_n_EB_E2azimuth", "src/nvector/rotation.py: n_E2R_EN"]}
{"id": "C144", "title": "Great circle displacement covers the distance in frames of every orientation", "statement": "GeoPoint.displace(distance, azimuth, method='greatcircle') in a frame with any axes does not raise, keeps depth and frame and arrives at a position whose great circle distance from the start is the given distance; the azimuth is measured from the direction of the third axis of the frame E. With axes 'E' this is the direction of latitude 0, longitude 180 degrees: with azimuth 0 and the right distance one arrives there from everywhere except latitude 0, longitude 0.", "quantifier": "all positions, ellipsoids, orientations of the axes, azimuths, distances up to half the circumference", "why_tests_cant": "The inputs range over a continuum of real values; tests sample a handful of points and cannot cover poles, date line, antipodes and every ellipsoid at once.", "anchors": ["src/nvector/objects.py: GeoPoint._displace_great_circle", "src/nvector/core.py: n_EA_E_distance_and_azimuth2n_EB_E"]}
{"id": "C145", "title": "Paths whose ends coincide or are opposite", "statement": "For every path whose two positions have the same or opposite n-vectors: cross_track_distance is NaN, closest_point_on_great_circle and intersect (on either side) return NaN in all components, on_great_circle and on_path are False for every position, including the path's own ends; the distance is 0 or half a turn; interpolate returns the position itself at every parameter, or jumps from one end to its opposite at one half, where it is NaN; and closest_point_on_path still returns the nearest of the two ends, the second one in a tie.", "quantifier": "every unit n-vector, every position, radius, tolerance, parameter and depth", "why_tests_cant": "The inputs range over a continuum of real values; tests sample a handful of points and cannot cover poles, date line, antipodes and every ellipsoid at once.", "anchors": ["src/nvector/core.py: great_circle_normal, cross_track_distance, closest_point_on_great_circle, intersect, on_great_circle, on_great_circle_path, interpolate", "src/nvector/objects.py: GeoPath.on_path, GeoPath.closest_point_on_path"]}
{"id": "C146", "title": "The closest point for a pole of the great circle", "statement": "For a position 90 degrees from every point of the path's great circle, closest_point_on_great_circle returns [1,0,0] or [-1,0,0] (the one on the pole's side) or the zero vector (pole exactly 90 degrees from the x-axis), never a point of the circle; closest_point_on_path returns the second end of the path, which is a nearest point since all are 90 degrees away, if the pole is further than 1e-8 m from being 90 degrees from the x-axis, or is exactly 90 degrees from it and the path is shorter than 60 degrees.", "quantifier": "every proper path, every pole of its great circle, all depths and ellipsoids", "why_tests_cant": "The inputs range over a continuum of real values; tests sample a handful of points and cannot cover poles, date line, antipodes and every ellipsoid at once.", "anchors": ["src/nvector/core.py: closest_point_on_great_circle", "src/nvector/objects.py: GeoPath.closest_point_on_path"]}
{"id": "C147", "title": "Smoothed tracks", "statement": "interp_nvectors and Nvector.interpolate with window_length > 0 interpolate the track whose components are the values of the least squares polynomials in the windows (requested length, plus one if even; first or last window at the edges). Hence a track that is polynomial of at most the order in the sample number, in particular a position at rest, is not changed; windows not longer than the order plus one (2 and 3 by default) have no effect; an order not less than the window (window_length=1 by default) or a window longer than the track raises ValueError; rotating all positions rotates all results; and the smoothing goes by the order in the array, not by the times, so permuting the samples changes the result.", "quantifier": "every track, every window length and order, all query times, every filter that does what the documentation of the smoothing says (least squares polynomials)", "why_tests_cant": "The inputs range over a continuum of real values; tests sample a handful of points and cannot cover poles, date line, antipodes and every ellipsoid at once.", "anchors": ["src/nvector/core.py: _interp_vectors, interp_nvectors", "src/nvector/objects.py: Nvector.interpolate"]}
{"id": "C148", "title": "Frames share their rotation matrices", "statement": "E_rotation(axes) returns one of two module-level arrays, not a copy, and every FrameE with these axes keeps this very array as R_Ee. As long as a program does not assign to the elements of these arrays, then whatever frames and arrays it makes and whatever functions it calls, in any order and with any exceptions, E_rotation is as documented, every frame keeps the documented attributes, and functions without R_Ee and methods of positions give the documented results: no function of the library assigns to these arrays. If a program does assign to the elements of E_rotation(axes) or of the R_Ee of one frame, all frames with these axes, existing and future, compute with the new matrix, for the axes 'e' also all functions called without R_Ee, while frames with other axes are not affected.", "quantifier": "every history of calls, every frame, every matrix assigned", "why_tests_cant": "The inputs range over a continuum of real values; tests sample a handful of points and cannot cover poles, date line, antipodes and every ellipsoid at once.", "anchors": ["src/nvector/rotation.py: E_ROTATION_MATRIX, E_rotation, n_E2lat_lon, n_E2R_EN, n_E_and_wa2R_EL", "src/nvector/objects.py: FrameE.__init__, GeoPoint.to_nvector, Nvector.to_ecef_vector", "src/nvector/core.py: lat_lon2n_E, n_EB_E2p_EB_E, p_EB_E2n_EB_E"]}
{"id": "C149", "title": "On a sphere both methods agree", "statement": "On an ellipsoid of flattening 0, the ellipsoid method and the great circle method of GeoPoint.distance_and_azimuth and of GeoPath.track_distance give the same distance between any two positions above the centre, at any two depths; the azimuths of distance_and_azimuth agree up to whole turns when neither position is a pole and the positions are neither above each other nor antipodal. GeoPoint.displace leads to the same position by both methods from any position which is not a pole, for every distance and azimuth; the arrival azimuths agree up to whole turns below half way round and are opposite between half way and the whole way round. The geodesic library is only assumed to solve the sphere of the radius it is given.", "quantifier": "all positions, depths, distances, azimuths, axes, method names, and all geodesic libraries that solve the sphere", "why_tests_cant": "The inputs range over a continuum of real values; tests sample a handful of points and cannot cover poles, date line, antipodes and every ellipsoid at once.", "anchors": ["src/nvector/objects.py: GeoPoint.distance_and_azimuth, GeoPoint.displace, GeoPath.track_distance, FrameE.inverse, FrameE.direct"]}
{"id": "C150", "title": "Prolate bodies", "statement": "On a body with a negative flattening (polar radius longer than the equatorial one) p_EB_E2n_EB_E turns every Cartesian position outside the small core p+q <= e^4 around the centre (the one of C06) into a unit n-vector and a depth that describe exactly that position; |depth| is its distance to the ellipsoid, the surface point of the n-vector is its one nearest point, and the sign of the depth says on which side it is. n-vector and depth to position and back is exact when the depth is less than the distance along the normal to the polar axis (in particular for all heights when (1-f)^2 < 2), and no chain of to_nvector, to_ecef_vector, to_geo_point moves the position. The vector between two positions is zero only between equal positions, and dead reckoning with it arrives at the second one. On the polar axis inside the core the result is the pole and the depth below it; everywhere else in the core all results are NaN, and on a body with (1-f)^2 >= 2 that includes the equator.", "quantifier": "every position, n-vector, depth, semi-axis a>0, flattening f<0, rotation R_Ee, and every chain of conversions", "why_tests_cant": "a test samples a few bodies and positions; the branch of the closed-form root has to be the right one for all of them", "anchors": ["src/nvector/core.py: p_EB_E2n_EB_E, n_EB_E2p_EB_E, _compute_k, _equation23", "src/nvector/objects.py: ECEFvector.to_nvector, Nvector.to_ecef_vector"]}
{"id": "C151", "title": "The life of a position object in binary64", "statement": "A position object is converted (to_nvector, to_ecef_vector, to_geo_point) and moved (x.to_ecef_vector() + ECEFvector(v), x.to_ecef_vector() - ECEFvector(v)) any number of times, in any order, each call starting from the rounded result of the one before. No call raises, every number is finite, and the object at the end describes a point within 3.5e-14 * (number of calls) * (a + S) of the start plus the exact sum of the moves, S the greatest distance from the centre of the exact positions on the way (0.45 micrometre per call near the surface of the Earth): the rounding errors of the calls add up and never amplify each other. If the moves cancel, the object is back this near its start.", "quantifier": "every history of moves (binary64 vectors) and conversions with number of calls * (a + S) <= 10^12 a, every start, every exact position on the way between 0.6 a and 900 a from the centre, 1 <= a <= 1e10, 0 <= f <= 0.01, both axes conventions", "why_tests_cant": "Rounding errors depend on every bit of the inputs; tests compare a few values with a tolerance, and the worst cases (poles, tiny vectors, antipodes) are isolated.", "anchors": ["src/nvector/objects.py: ECEFvector.__add__, ECEFvector.__sub__, Nvector.to_ecef_vector, ECEFvector.to_nvector, Nvector.to_geo_point, GeoPoint.to_nvector", "src/nvector/core.py: n_EB_E2p_EB_E, p_EB_E2n_EB_E"]}
{"id": "C152", "title": "Yaw, pitch and roll of a body frame are heading, nose-up angle and bank", "statement": "A vector with components q in FrameB(point, yaw, pitch, roll, degrees) is seen in FrameN(point) as q turned by the roll about x, then the pitch about y, then the yaw about z, with right-hand signs. So the nose has azimuth yaw (modulo a full turn) and lies the pitch above the horizon whatever the roll; a positive roll lowers the starboard side, in level flight by exactly the roll, a quarter turn clockwise of the nose; the roll is the angle about the nose counted from upright. Seen from a level vehicle, a target has the azimuth of delta_N less the yaw, and the elevation and distance of delta_N; a vehicle with yaw = azimuth and pitch = -elevation of delta_N sees the target at (distance, 0, 0) whatever its roll; and off the poles a level vehicle has the axes of FrameL with wander azimuth yaw.", "quantifier": "every position object off the zero n-vector, every yaw, pitch, roll (pitch within a quarter turn where azimuths are compared), degrees or radians, every target, every ellipsoid and every axes rotation R_Ee", "why_tests_cant": "The inputs range over a continuum of real values; tests sample a handful of points and cannot cover poles, date line, antipodes and every ellipsoid at once.", "anchors": ["src/nvector/objects.py: FrameB, FrameN, FrameL, ECEFvector.change_frame, Pvector.to_ecef_vector, Pvector.azimuth, Pvector.elevation, delta_E, delta_N, delta_L", "src/nvector/rotation.py: zyx2R, n_E2R_EN"]}
{"id": "C153", "title": "Tracks interpolated with another kind than 'linear'", "statement": "For every kind, smoothing and behaviour of Scipy, every column returned by interp_nvectors is a unit vector or contains NaN. If interp1d does what it documents for the kind - in every row a weighted sum of the samples, with weights that depend on the times only, exact at the samples, reproducing constants, NaN outside the samples - then the result at every time of the track is the direction of the weighted sum of the n-vectors (NaN if that is the zero vector) and NaN outside; it is the sample at the time of a sample, whatever the order of the samples; a position at rest stays there; 'nearest', 'zero', 'previous' and 'next' only return samples; a track on a great circle stays on it; without negative weights a track in a hemisphere stays in it and has a position at every time; rotating the track rotates the results. Nvector.interpolate gives the same n-vectors and the weighted sum of the depths.", "quantifier": "every Scipy implementation meeting its documentation, every kind other than 'linear' given as a string, every track with distinct times of at least the length the kind needs, every list of query times", "why_tests_cant": "The inputs range over a continuum of real values; tests sample a handful of points and cannot cover poles, date line, antipodes and every ellipsoid at once.", "anchors": ["src/nvector/core.py: interp_nvectors, _interp_vectors", "src/nvector/objects.py: Nvector.interpolate"]}
{"id": "C154", "title": "The object-oriented and the functional solutions of the documented examples agree", "statement": "Each of the ten examples of the documentation has an object-oriented and a functional solution (some have alternatives). With any other numbers in place of those of the example both solutions give the same result: examples 1-4, 6 (vectorized), 7, 9 and 10 (alternative 3) the same bits; example 6 (single) the same bits, or the object-oriented solution is NaN, which happens only half way between antipodal positions; example 9 by hand the same bits, or NaN; examples 5, 8 and 10 on a sphere the same values. on_great_circle accepts the intersection of example 9 on both paths.", "quantifier": "all latitudes, longitudes, depths, vectors, times and radii; all numbers of positions; exact and binary64 numbers where the same bits are claimed", "why_tests_cant": "The inputs range over a continuum of real values; tests sample a handful of points and cannot cover poles, date line, antipodes and every ellipsoid at once.", "anchors": ["src/nvector/_examples.py: getting_started_functional", "src/nvector/_examples.py: see_also (programs of the ten examples)", "src/nvector/objects.py", "src/nvector/core.py"]}
{"id": "C155", "title": "Alternative solution 2 of the cross track example gives the cross track distances", "statement": "In the functional example 10, the distances from the position to the closest point on the great circle (alternative solution 2) are the great circle and the Euclidean cross track distance.", "quantifier": "all paths, positions and radii", "why_tests_cant": "The inputs range over a continuum of real values; tests sample a handful of points and cannot cover poles, date line, antipodes and every ellipsoid at once.", "anchors": ["src/nvector/_examples.py: getting_started_functional", "src/nvector/core.py: closest_point_on_great_circle", "src/nvector/core.py: cross_track_distance"]}
{"id": "C156", "title": "Leaving a path at an angle", "statement": "Let C be a position of the path from A to B (interpolate with 0 <= t < 1, C not a pole) and h the course of the path there, the azimuth from C to B on the sphere. A traveller who leaves the path at C on the course h + beta and goes the distance d along a great circle has the cross track distance r*asin(sin(d/r) sin(beta)): positive to the right, negative to the left; at right angles it is exactly the distance travelled, d or -d, up to a quarter of the way round. On the course h, or h plus half a turn, on_great_circle remains true for any distance and any tolerance >= 0. The closest point of the great circle is atan(tan(d/r) cos(beta)) further along the path, and for right angles it is C itself. The same holds for the methods interpolate, distance_and_azimuth, displace, cross_track_distance and closest_point_on_great_circle of the classes on a sphere.", "quantifier": "every proper path, every position on it which is no pole, every distance, turn and radius; every axes rotation R_Ee for the functions; |d| less than a quarter of the way round for the closest point", "why_tests_cant": "The inputs range over a continuum of real values; tests sample a handful of points and cannot cover poles, date line, antipodes and every ellipsoid at once.", "anchors": ["src/nvector/core.py: interpolate, cross_track_distance, on_great_circle, closest_point_on_great_circle, n_EA_E_and_n_EB_E2azimuth, n_EA_E_distance_and_azimuth2n_EB_E", "src/nvector/objects.py: GeoPath.interpolate, GeoPath.cross_track_distance, GeoPath.closest_point_on_great_circle, GeoPoint.displace, GeoPoint.distance_and_azimuth"]}
{"id": "C157", "title": "Latitudes and courses along a path", "statement": "Along a great circle path sin(course)*cos(latitude) is the same at every position which is no pole (course = azimuth to the end of the path, latitude = the one reported): a path heads east of north everywhere, or west of north everywhere, or along a meridian everywhere. No position of the great circle has cos(latitude) less than this constant, and the latitude at a position of the path is an extreme one of the great circle exactly if the course there is due east or due west. Paths bend towards the pole: if both ends of a GeoPath lie at least at the latitude phi > 0 north, so does every interpolated position between them, strictly farther north unless it is an end or the ends are the same place; in the southern hemisphere likewise to the south.", "quantifier": "every proper path, all positions on it, every axes rotation R_Ee; for the bending towards the pole every ellipsoid with f < 1, all depths, all latitudes and longitudes", "why_tests_cant": "The inputs range over a continuum of real values; tests sample a handful of points and cannot cover poles, date line, antipodes and every ellipsoid at once.", "anchors": ["src/nvector/core.py: interpolate, n_EA_E_and_n_EB_E2azimuth, n_E2lat_lon, lat_lon2n_E", "src/nvector/objects.py: GeoPath.interpolate, Nvector.to_geo_point"]}
{"id": "C158", "title": "Where two paths cross, and on which side a path stays", "statement": "If two paths pass through a common position C (and do not lie on the same great circle), intersect returns C exactly if C is less than a quarter of the way round the globe from the beginning of the first path, the zero vector at exactly a quarter, and the antipode of C beyond; so it finds the crossing of every first path shorter than a quarter of the circumference. If four positions lie in a region of radius less than an eighth of the circumference and the cross track distances of the ends of each path from the other have opposite signs, the paths have exactly one position in common, strictly between the ends of both and inside the region; intersect returns it in either order, and so does GeoPath.intersect, and GeoPath.interpolate of both paths reaches it. If both ends of a path have positive cross track distances from a great circle, every position between them is at least as far from it as the nearer end, on the same side; likewise for negative ones.", "quantifier": "all pairs of proper paths on different great circles, all common positions, all parameters, all radii > 0; for GeoPath all ellipsoids and depths for which the average radius is positive, all kinds of position except a first end in a local frame", "why_tests_cant": "The inputs range over a continuum of real values; tests sample a handful of points and cannot cover poles, date line, antipodes and every ellipsoid at once.", "anchors": ["src/nvector/core.py: intersect, interpolate, cross_track_distance", "src/nvector/objects.py: GeoPath.intersect, GeoPath.interpolate, GeoPath.cross_track_distance"]}
{"id": "C159", "title": "Elevations and the horizon", "statement": "The elevation of delta_N from A to B is counted downwards: it lies between -90 and 90 degrees, is positive exactly if B lies below the horizontal plane of A and negative exactly if above; straight up it is -90 degrees, straight down 90. Seen from a position on or above the ellipsoid, every other position that is not higher lies below the horizontal plane, so its elevation is positive. On a sphere the elevation of B from A and of A from B add up to the central angle, whatever the depths, and are both half of it for equal depths.", "quantifier": "all positions, all rotated axes, all ellipsoids with flattening below 1 (horizon: 0 <= f < 1, B no deeper than the polar radius of curvature a(1-f)^2; sphere: both positions above the centre)", "why_tests_cant": "The inputs range over a continuum of real values; tests sample a handful of points and cannot cover poles, date line, antipodes and every ellipsoid at once.", "anchors": ["src/nvector/objects.py: delta_N, Pvector.elevation, Pvector.length, FrameN", "src/nvector/core.py: n_EB_E2p_EB_E", "src/nvector/rotation.py: n_E2R_EN"]}
{"id": "C160", "title": "A position fixed by cross bearings", "statement": "On a sphere, laying off the azimuths of a target C from two stations A and B with the direct problem, over any distances, and crossing the two lines with intersect gives C, if C is less than a quarter of the circumference from A and A, B, C are not on one great circle; at exactly a quarter it gives the zero vector, beyond it the antipode of C. So two bearings determine a position within a quarter of the circumference. Conversely, what intersect returns for lines laid off with any azimuths lies in the direction of these azimuths, or in the opposite direction. With GeoPoint.distance_and_azimuth, GeoPoint.displace and GeoPath.intersect (great circle method) the result is the Nvector of C, depth included.", "quantifier": "all stations except the poles, all targets off the great circle of the stations, all distances laid off except multiples of half the circumference, all rotated axes; with the classes all spheres with the default axes, one common depth above the centre, latitudes strictly between the poles", "why_tests_cant": "The inputs range over a continuum of real values; tests sample a handful of points and cannot cover poles, date line, antipodes and every ellipsoid at once.", "anchors": ["src/nvector/core.py: intersect, n_EA_E_and_n_EB_E2azimuth, n_EA_E_distance_and_azimuth2n_EB_E, great_circle_distance", "src/nvector/objects.py: GeoPoint.distance_and_azimuth, GeoPoint.displace, GeoPath.intersect"]}
{"id": "C161", "title": "Help texts are assembled faithfully", "statement": "The decorator that completes documentation puts the text of the examples literally (braces included) into every field of the dedented documentation; documentation that is not a template stays as it is, a missing one becomes the text, and one without braces is only dedented. Dedenting removes the longest common margin and keeps the number of lines. The examples asked for come in order, with the solutions of the kind asked for, and KeyError is raised exactly when one does not exist. The documentation of a module lists every public name with its indented head line, classes before functions, each kind in order.", "quantifier": "all documentation texts, all example texts, all lists of numbers and all collections of public names", "why_tests_cant": "The texts are arbitrary strings of any length, with any braces, margins and line ends; tests look at the few texts of the package.", "anchors": ["src/nvector/_common.py: dedent, indent, _get_h1line, _make_summary, use_docstring", "src/nvector/_examples.py: get_examples, get_examples_no_header, see_also"]}
{"id": "C162", "title": "A route with stops is never shorter than the direct way", "statement": "The sum of the great circle distances over any number of stops is at least the direct great circle distance. Unless the ends are antipodes it is equal exactly if the stops are positions that interpolate gives between the ends, in the order of their parameters; between antipodes every single stop is without detour. In double precision the distances added up one after the other are the length of the route up to k (6.1e-15 + 4e-16 k) radii for k legs (at most a million).", "quantifier": "all start and end positions, all lists of stops of any length, all positive radii", "why_tests_cant": "The inputs range over a continuum of real values; tests sample a handful of points and cannot cover poles, date line, antipodes and every ellipsoid at once.", "anchors": ["src/nvector/core.py: great_circle_distance, interpolate"]}
{"id": "C163", "title": "Which position is nearer", "statement": "Great circle distances and Euclidean distances put pairs of positions in the same order, so the nearest of any number of stations is the same for both. For two stations A and B that are neither equal nor antipodes, the path from interpolate((A, B), 0.5) to unit(cross(A, B)) separates their surroundings: the cross track distance of Q from it is negative, zero or positive according as Q is nearer to A, equally far from both, or nearer to B. In double precision the station with the least computed great circle distance is the nearest up to 1.2e-14 radii.", "quantifier": "all positions, all lists of stations, all positive radii", "why_tests_cant": "The inputs range over a continuum of real values; tests sample a handful of points and cannot cover poles, date line, antipodes and every ellipsoid at once.", "anchors": ["src/nvector/core.py: great_circle_distance, euclidean_distance, cross_track_distance, interpolate", "src/nvector/util.py: unit"]}
