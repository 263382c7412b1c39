{
 "claims": [
  {
   "property": "C01",
   "status": "proved",
   "theorems": [
    "Nv.C01_lat_lon2n_E_unit",
    "Nv.C01_lat_lon2n_E_periodic",
    "Nv.C01_lat_lon2n_E_default",
    "Nv.C01_lat_lon2n_E_injective"
   ],
   "note": "all real angles, all rotation matrices R_Ee"
  },
  {
   "property": "C02",
   "status": "proved",
   "theorems": [
    "Nv.C02_roundtrip",
    "Nv.C02_roundtrip_unit"
   ],
   "note": "all nonzero n, all rotation matrices"
  },
  {
   "property": "C03",
   "status": "proved",
   "theorems": [
    "Nv.C03_ranges",
    "Nv.C03_inverse",
    "Nv.C03_poles"
   ],
   "note": ""
  },
  {
   "property": "C04",
   "status": "proved",
   "theorems": [
    "Nv.C04_on_surface",
    "Nv.C04_depth",
    "Nv.C04_radii"
   ],
   "note": "all a > 0, f < 1"
  },
  {
   "property": "C05",
   "status": "proved",
   "theorems": [
    "Nv.C05_scale_invariant"
   ],
   "note": ""
  },
  {
   "property": "C06",
   "status": "proved",
   "theorems": [
    "Nv.C06_roundtrip",
    "Nv.C06_roundtrip_far"
   ],
   "note": "0 <= f < 1; every position outside the core"
  },
  {
   "property": "C07",
   "status": "proved",
   "theorems": [
    "Nv.C07_roundtrip",
    "Nv.C07_roundtrip_simple",
    "Nv.C07_iff"
   ],
   "note": "exact condition (above the evolute, outside the core) and a simple sufficient one"
  },
  {
   "property": "C08",
   "status": "partial",
   "theorems": [
    "Nv.C08_nonsingular_partial",
    "Nv.C08_core_nan",
    "Nv.C08_sphere"
   ],
   "note": "False as stated: C08_core_nan shows that on an oblate Earth the function returns only NaN in the rest of the core (about 43 km around the centre); proved for every position outside the core, for the axis inside it, and for every p != 0 on a sphere"
  },
  {
   "property": "C09",
   "status": "proved",
   "theorems": [
    "Nv.C09_p2n",
    "Nv.C09_n2p"
   ],
   "note": ""
  },
  {
   "property": "C10",
   "status": "proved",
   "theorems": [
    "Nv.C10_delta",
    "Nv.C10_zero_iff"
   ],
   "note": ""
  },
  {
   "property": "C11",
   "status": "proved",
   "theorems": [
    "Nv.C11_inverse",
    "Nv.C11_delta",
    "Nv.C11_iff"
   ],
   "note": "conditions on the end point as in C06/C07"
  },
  {
   "property": "C12",
   "status": "proved",
   "theorems": [
    "Nv.C12_R_EN_rotation",
    "Nv.C12_R_EN_north_east",
    "Nv.C12_R_EN_pole"
   ],
   "note": ""
  },
  {
   "property": "C13",
   "status": "proved",
   "theorems": [
    "Nv.C13_R_EL_rotation",
    "Nv.C13_R_EL_eq_R_EN_turned",
    "Nv.C13_R_EL_zero"
   ],
   "note": ""
  },
  {
   "property": "C14",
   "status": "proved",
   "theorems": [
    "Nv.C14_R_EN2n_E",
    "Nv.C14_R_EL2n_E"
   ],
   "note": ""
  },
  {
   "property": "C15",
   "status": "proved",
   "theorems": [
    "Nv.C15_xyz2R",
    "Nv.C15_zyx2R",
    "Nv.C15_zyx_eq_transpose_xyz"
   ],
   "note": ""
  },
  {
   "property": "C16",
   "status": "proved",
   "theorems": [
    "Nv.C16_R2xyz_xyz2R",
    "Nv.C16_R2zyx_zyx2R"
   ],
   "note": ""
  },
  {
   "property": "C17",
   "status": "partial",
   "theorems": [
    "Nv.C17_xyz2R_R2xyz_partial",
    "Nv.C17_zyx2R_R2zyx_partial",
    "Nv.C17_gimbal_lock_counterexample",
    "Nv.C17_gimbal_lock_counterexample_zyx",
    "Nv.C17_middle_angle"
   ],
   "note": "False as stated at gimbal lock: counterexamples C17_gimbal_lock_counterexample(_zyx); proved for every rotation whose middle angle is not +-pi/2; C142 says exactly which matrices are recovered"
  },
  {
   "property": "C18",
   "status": "proved",
   "theorems": [
    "Nv.C18_eq_angle",
    "Nv.C18_metric",
    "Nv.C18_max_iff_antipodal"
   ],
   "note": ""
  },
  {
   "property": "C19",
   "status": "proved",
   "theorems": [
    "Nv.C19_chord",
    "Nv.C19_metric",
    "Nv.C19_compare"
   ],
   "note": ""
  },
  {
   "property": "C20",
   "status": "proved",
   "theorems": [
    "Nv.C20_is_least_distance",
    "Nv.C20_range_and_zero",
    "Nv.C20_reverse",
    "Nv.C20_sign",
    "Nv.C20_methods",
    "Nv.C20_degenerate"
   ],
   "note": ""
  },
  {
   "property": "C21",
   "status": "partial",
   "theorems": [
    "Nv.C21_closest_partial",
    "Nv.C21_pole_never_on_circle"
   ],
   "note": "Proved for every B that is not a pole of the circle; for a pole the returned value is not on the circle (C21_pole_never_on_circle)"
  },
  {
   "property": "C22",
   "status": "proved",
   "theorems": [
    "Nv.C22_iff_within",
    "Nv.C22_zero_tolerance",
    "Nv.C22_degenerate",
    "Nv.C22_monotone"
   ],
   "note": ""
  },
  {
   "property": "C23",
   "status": "partial",
   "theorems": [
    "Nv.C23_on_path_partial",
    "Nv.C23_long_path_counterexample",
    "Nv.C23_endpoints",
    "Nv.C23_sound"
   ],
   "note": "Exact for paths shorter than 120 degrees; false for every longer path: C23_long_path_counterexample"
  },
  {
   "property": "C24",
   "status": "partial",
   "theorems": [
    "Nv.C24_intersection_partial",
    "Nv.C24_nan_iff",
    "Nv.C24_quarter_turn_counterexample",
    "Nv.C24_swap"
   ],
   "note": "False when the first end point is exactly 90 degrees from the intersection: C24_quarter_turn_counterexample (zero vector, no warning); everything else proved, NaN characterised exactly"
  },
  {
   "property": "C25",
   "status": "proved",
   "theorems": [
    "Nv.C25_nan_iff",
    "Nv.C25_endpoints",
    "Nv.C25_on_arc",
    "Nv.C25_onto",
    "Nv.C25_reverse"
   ],
   "note": ""
  },
  {
   "property": "C26",
   "status": "proved",
   "theorems": [
    "Nv.C26_additive",
    "Nv.C26_monotone"
   ],
   "note": ""
  },
  {
   "property": "C27",
   "status": "partial",
   "theorems": [
    "Nv.C27_distance_partial",
    "Nv.C27_default_axes",
    "Nv.C27_pole_counterexample"
   ],
   "note": "Default axes: every position. Other orientations: every position but the poles; false at the poles for axes 'E': C27_pole_counterexample"
  },
  {
   "property": "C28",
   "status": "partial",
   "theorems": [
    "Nv.C28_azimuth_partial",
    "Nv.C28_pole_counterexample"
   ],
   "note": "Every start that is not a pole; false at the poles: C28_pole_counterexample"
  },
  {
   "property": "C29",
   "status": "partial",
   "theorems": [
    "Nv.C29_inverse_direct_partial",
    "Nv.C29_pole_counterexample"
   ],
   "note": "Every start that is not a pole and every B; false at the poles: C29_pole_counterexample"
  },
  {
   "property": "C30",
   "status": "proved",
   "theorems": [
    "Nv.C30_minimises",
    "Nv.C30_order",
    "Nv.C30_copies",
    "Nv.C30_unit"
   ],
   "note": "plus: cancelling positions give the x-axis silently"
  },
  {
   "property": "C31",
   "status": "proved",
   "theorems": [
    "Nv.C31_tiny_absorbed",
    "Nv.C31_unit",
    "Nv.C31_unit_zero"
   ],
   "note": "exact real model plus the binary64 fact that the added smallest normal number is absorbed for every nonzero computed norm"
  },
  {
   "property": "C32",
   "status": "proved",
   "theorems": [
    "Nv.C32_inverse",
    "Nv.C32_values"
   ],
   "note": ""
  },
  {
   "property": "C33",
   "status": "proved",
   "theorems": [
    "Nv.C33_nthroot",
    "Nv.C33_negative"
   ],
   "note": ""
  },
  {
   "property": "C34",
   "status": "proved",
   "theorems": [
    "Nv.C34_finite",
    "Nv.C34_symm",
    "Nv.C34_refl",
    "Nv.C34_nan",
    "Nv.C34_inf",
    "Nv.C34_monotone",
    "Nv.C34_allclose"
   ],
   "note": ""
  },
  {
   "property": "C35",
   "status": "proved",
   "theorems": [
    "Nv.C35_case_blanks",
    "Nv.C35_int",
    "Nv.C35_alias",
    "Nv.C35_name"
   ],
   "note": "ASCII letters"
  },
  {
   "property": "C36",
   "status": "partial",
   "theorems": [
    "Nv.C36_rows_partial",
    "Nv.C36_names_partial",
    "Nv.C36_etrs89_counterexample",
    "Nv.C36_names_counterexample",
    "Nv.C36_published",
    "Nv.C36_no_other_name"
   ],
   "note": "False for row 19 and five documented names: C36_etrs89_counterexample, C36_names_counterexample"
  },
  {
   "property": "C37",
   "status": "partial",
   "theorems": [
    "Nv.C37_given",
    "Nv.C37_table",
    "Nv.C37_lone_argument_counterexample"
   ],
   "note": "both given / table lookup proved; a lone a or f is ignored: C37_lone_argument_counterexample"
  },
  {
   "property": "C38",
   "status": "partial",
   "theorems": [
    "Nv.C38_refl",
    "Nv.C38_symm_partial",
    "Nv.C38_ne",
    "Nv.C38_unrelated",
    "Nv.C38_symm_counterexample",
    "Nv.C38_symm_counterexample_instance",
    "Nv.C38_not_transitive",
    "Nv.C38_frameE_iff",
    "Nv.C38_nvector_iff",
    "Nv.C38_ecef_iff",
    "Nv.C38_pvector_iff",
    "Nv.C38_frameN_iff",
    "Nv.C38_frameB_iff"
   ],
   "note": "reflexive, != is negation, unrelated types; symmetry false for body frames (counterexample), equality not transitive (counterexample)"
  },
  {
   "property": "C39",
   "status": "proved",
   "theorems": [
    "Nv.C39_iff",
    "Nv.C39_turns"
   ],
   "note": ""
  },
  {
   "property": "C40",
   "status": "proved",
   "theorems": [
    "Nv.C40_unequal_frames",
    "Nv.C40_componentwise",
    "Nv.C40_laws",
    "Nv.C40_nvector_product"
   ],
   "note": ""
  },
  {
   "property": "C41",
   "status": "proved",
   "theorems": [
    "Nv.C41_isometry",
    "Nv.C41_onto",
    "Nv.C41_dot",
    "Nv.C41_frame_check"
   ],
   "note": ""
  },
  {
   "property": "C42",
   "status": "proved",
   "theorems": [
    "Nv.C42_spherical",
    "Nv.C42_inverse"
   ],
   "note": ""
  },
  {
   "property": "C43",
   "status": "proved",
   "theorems": [
    "Nv.C43_turned",
    "Nv.C43_length_down",
    "Nv.C43_delta_E"
   ],
   "note": ""
  },
  {
   "property": "C44",
   "status": "proved",
   "theorems": [
    "Nv.C44_displace",
    "Nv.C44_distance_and_azimuth",
    "Nv.C44_base_angle"
   ],
   "note": ""
  },
  {
   "property": "C45",
   "status": "proved",
   "theorems": [
    "Nv.C45_geo_nvector_geo",
    "Nv.C45_nvector_geo_nvector",
    "Nv.C45_nvector_ecef_nvector",
    "Nv.C45_ecef_nvector_ecef",
    "Nv.C45_geo_ecef_geo",
    "Nv.C45_identity",
    "Nv.C45_frame_depth",
    "Nv.C45_chain",
    "Nv.C45_chain_geo",
    "Nv.C45_nvector_ecef_nvector_iff"
   ],
   "note": "exact, every chain of conversions, every rotation R_Ee, positions above the evolute and outside the core (where one representation determines the point)"
  },
  {
   "property": "C46",
   "status": "proved",
   "theorems": [
    "Nv.C46_exact",
    "Nv.C46_sphere",
    "Nv.C46_symmetric"
   ],
   "note": ""
  },
  {
   "property": "C47",
   "status": "partial",
   "theorems": [
    "Nv.C47_nearest_partial",
    "Nv.C47_long_path_counterexample",
    "Nv.C47_pole_counterexample"
   ],
   "note": "False for paths of 120 degrees or more (C47_long_path_counterexample) and when the point is a pole of the path (C47_pole_counterexample); proved for every other point and path"
  },
  {
   "property": "C48",
   "status": "partial",
   "theorems": [
    "Nv.C48_on_path_partial",
    "Nv.C48_depth_counterexample",
    "Nv.C48_iff"
   ],
   "note": "False when the end points have different depths (C48_depth_counterexample); proved for equal depths on every frame, and C48_iff says for any depths exactly which interpolated points are on the path"
  },
  {
   "property": "C49",
   "status": "proved",
   "theorems": [
    "Nv.C49_frame",
    "Nv.C49_displace",
    "Nv.C49_distance_and_azimuth",
    "Nv.C49_constructor"
   ],
   "note": ""
  },
  {
   "property": "C50",
   "status": "proved",
   "theorems": [
    "Nv.C50_inverse_direct",
    "Nv.C50_depth_kept"
   ],
   "note": "relative to the stated contract of the external geographiclib solver (a parameter of the model)"
  },
  {
   "property": "C51",
   "status": "partial",
   "theorems": [
    "Nv.C51_displace_partial",
    "Nv.C51_axes_E_counterexample",
    "Nv.C51_sphere_roundtrip"
   ],
   "note": "Proved for the default axes 'e'; with axes 'E' the great circle displacement uses the wrong axes (C51_axes_E_counterexample)"
  },
  {
   "property": "C52",
   "status": "proved",
   "theorems": [
    "Nv.ND.C52_unit",
    "Nv.ND.C52_lat_lon2n_E",
    "Nv.ND.C52_n_EB_E2p_EB_E",
    "Nv.ND.C52_p_EB_E2n_EB_E",
    "Nv.ND.C52_n_EA_E_and_n_EB_E2p_AB_E",
    "Nv.ND.C52_n_EA_E_and_p_AB_E2n_EB_E",
    "Nv.ND.C52_interpolate",
    "Nv.ND.C52_great_circle_normal",
    "Nv.ND.C52_euclidean_distance",
    "Nv.ND.C52_n_E2lat_lon",
    "Nv.ND.C52_n_EA_E_distance_and_azimuth2n_EB_E",
    "Nv.ND.C52_n_E2R_EN",
    "Nv.ND.C52_mean_horizontal_position",
    "Nv.ND.C52_n_EA_E_and_n_EB_E2azimuth",
    "Nv.ND.C52_xyz2R",
    "Nv.ND.C52_zyx2R",
    "Nv.ND.C52_n_E_and_wa2R_EL",
    "Nv.ND.C52_R_EL2n_E",
    "Nv.ND.C52_R2xyz",
    "Nv.ND.C52_R2zyx",
    "Nv.ND.C52_lat_lon_scalar_latitude",
    "Nv.ND.C52_no_columns",
    "Nv.ND.C52_n_EA_E_distance_and_azimuth2n_EB_E_any"
   ],
   "note": "every modelled function of core.py, rotation.py and util.py, any number of columns, any float type; column j of the result is the scalar function of the columns j"
  },
  {
   "property": "C53",
   "status": "partial",
   "theorems": [
    "Nv.ND.C53_great_circle_distance",
    "Nv.ND.C53_great_circle_distance_partial",
    "Nv.ND.C53_great_circle_distance_counterexample",
    "Nv.ND.C53_cross_track_distance",
    "Nv.ND.C53_cross_track_distance_partial",
    "Nv.ND.C53_cross_track_distance_counterexample",
    "Nv.ND.C53_on_great_circle_path_counterexample",
    "Nv.ND.C53_on_great_circle_path_partial",
    "Nv.ND.C53_intersect_general",
    "Nv.ND.C53_intersect_partial",
    "Nv.ND.C53_closest_point_general",
    "Nv.ND.C53_closest_point_partial",
    "Nv.ND.C53_intersect_three_columns_counterexample"
   ],
   "note": "Exact results are given for all sizes. The documented max(n, m) results are false for n >= 2: great_circle_distance returns n*max(n,m) numbers, cross_track_distance n*m, on_great_circle_path raises, intersect and closest_point_on_great_circle raise unless k is 1 or 3 and return wrong points for k = 3 (counterexample theorems)"
  },
  {
   "property": "C54",
   "status": "proved",
   "theorems": [
    "Nv.C54_window_odd",
    "Nv.C54_no_smoothing",
    "Nv.C54_interp_nvectors"
   ],
   "note": "for every savgol_filter (external, a parameter)"
  },
  {
   "property": "C55",
   "status": "proved",
   "theorems": [
    "Nv.C55_length",
    "Nv.C55_between",
    "Nv.C55_at_sample",
    "Nv.C55_on_arc",
    "Nv.C55_outside",
    "Nv.C55_cases",
    "Nv.C55_order",
    "Nv.C55_mismatch",
    "Nv.C55_single_sample",
    "Nv.ND.C55_arrays"
   ],
   "note": "scipy interp1d(kind=linear) is modelled from its source; a track of one sample gives NaN (C55_single_sample); C55_arrays is the same function on 3 x n arrays, exceptions included"
  },
  {
   "property": "C56",
   "status": "partial",
   "theorems": [
    "Nv.C56_plain_partial",
    "Nv.C56_idempotent_partial",
    "Nv.C56_unchanged",
    "Nv.C56_contents",
    "Nv.C56_object_array_counterexample"
   ],
   "note": "False for arrays of objects that hold tuples or arrays (C56_object_array_counterexample); proved for all others; contents preserved for every value"
  },
  {
   "property": "C57",
   "status": "proved",
   "theorems": [
    "Nv.C57_warns_iff",
    "Nv.C57_empty",
    "Nv.C57_nan"
   ],
   "note": ""
  },
  {
   "property": "C58",
   "status": "proved",
   "theorems": [
    "Nv.C58_mdot_apply",
    "Nv.C58_mdot_assoc",
    "Nv.C58_mdot_one",
    "Nv.C58_tr_mdot",
    "Nv.C58_mdot_rotation"
   ],
   "note": ""
  },
  {
   "property": "C59",
   "status": "proved",
   "theorems": [
    "Nv.Mem.C59_arrays",
    "Nv.Mem.C59_GeoPoint",
    "Nv.Mem.C59_ECEFvector",
    "Nv.Mem.C59_Nvector",
    "Nv.Mem.C59_LocalFrame",
    "Nv.Mem.C59_Pvector",
    "Nv.Mem.C59_position",
    "Nv.Mem.C59_GeoPath",
    "Nv.Mem.C59_unit"
   ],
   "note": "Memory model of arrays and objects with references; histories of any length of all constructors, functions and methods (including Nvector.interpolate and interp_nvectors), with exceptions. `repr` is not in this memory model (it works on a copy of the attribute dict, objects.py:133-140; C113)."
  },
  {
   "property": "C60",
   "status": "proved",
   "theorems": [
    "Nv.ND.C60_scalar_one",
    "Nv.ND.C60_to_ecef_vector",
    "Nv.ND.C60_to_nvector",
    "Nv.ND.C60_to_geo_point",
    "Nv.ND.C60_conversions",
    "Nv.ND.C60_length",
    "Nv.ND.C60_azimuth",
    "Nv.ND.C60_elevation",
    "Nv.ND.C60_FrameN",
    "Nv.ND.C60_FrameL",
    "Nv.ND.C60_FrameB",
    "Nv.ND.C60_ecef_add",
    "Nv.ND.C60_ecef_sub",
    "Nv.ND.C60_ecef_neg",
    "Nv.ND.C60_delta_E",
    "Nv.ND.C60_delta_N",
    "Nv.ND.C60_delta_L",
    "Nv.ND.C60_nvec_add",
    "Nv.ND.C60_nvec_sub",
    "Nv.ND.C60_nvec_neg",
    "Nv.ND.C60_nvec_mul",
    "Nv.ND.C60_nvec_div",
    "Nv.ND.C60_nvec_unit",
    "Nv.ND.C60_mean",
    "Nv.ND.C60_mean_common",
    "Nv.ND.C60_change_frame_other_ellipsoid",
    "Nv.ND.C60_change_frame_counterexample",
    "Nv.ND.C60_GeoPoint",
    "Nv.ND.C60_geo_scalar",
    "Nv.ND.C60_nvec_scalar",
    "Nv.ND.C60_ECEFvector",
    "Nv.ND.C60_geo_to_nvector",
    "Nv.ND.C60_nvec_to_ecef",
    "Nv.ND.C60_nvec_to_geo",
    "Nv.ND.C60_ecef_to_nvector",
    "Nv.ND.C60_R_EN",
    "Nv.ND.C60_pvec_to_ecef",
    "Nv.ND.C60_change_frame"
   ],
   "note": "Proved on the array level model of the classes (Verif.ND.Objects): IsPos s n P g says that the object P holds the n positions g 0..g (n-1) and is a scalar position iff s. Constructors, every conversion, every finite sequence of conversions (C60_conversions, induction), the attributes scalar/length/azimuth/elevation, the local frames, delta_E/N/L and all vector arithmetic keep scalars scalar and n positions n positions, each with the value of the scalar model. C60_change_frame_counterexample: a scalar ECEF vector expressed in a frame with l >= 2 origins has l columns but keeps scalar=True, so length returns only the first; change_frame, delta_L and IsPvec therefore ask for one origin in the scalar case."
  },
  {
   "property": "C61",
   "status": "partial",
   "theorems": [
    "Nv.C61_between_partial",
    "Nv.C61_outside",
    "Nv.C61_scalar_depth_counterexample",
    "Nv.ND.C61_arrays"
   ],
   "note": "False for a common depth such as the default z=0: ValueError (C61_scalar_depth_counterexample); proved for one depth per column; C61_arrays is the method on the arrays of the object, exceptions included"
  },
  {
   "property": "C62",
   "status": "proved",
   "theorems": [
    "Nv.C62_origin",
    "Nv.C62_depth_ignored",
    "Nv.C62_body_origin",
    "Nv.C62_body_depth"
   ],
   "note": "FrameN/FrameL origin on the ellipsoid and independent of the depth, FrameB origin is the point"
  },
  {
   "property": "C63",
   "status": "proved",
   "theorems": [
    "Nv.C63_axes_e",
    "Nv.C63_axes_E",
    "Nv.C63_ned",
    "Nv.C63_identity_at_origin"
   ],
   "note": "geodetic to ECEF formulas and North/East/Down columns for the axes e and E, angles strictly between the poles for NED"
  },
  {
   "property": "C64",
   "status": "proved",
   "theorems": [
    "Nv.C64_cross_track",
    "Nv.C64_cross_track_euclidean",
    "Nv.C64_on_great_circle",
    "Nv.C64_closest",
    "Nv.C64_intersect",
    "Nv.C64_intersect_local",
    "Nv.C64_ellipsoid_path",
    "Nv.C64_south_counterexample"
   ],
   "note": "great circle methods for proper paths; closest point excludes poles of the circle and intersect excludes the quarter turn (C21, C24); ellipsoidal on_path relative to every behaviour of geographiclib; C64_south_counterexample shows azimuths are not compared modulo a turn"
  },
  {
   "property": "C65",
   "status": "partial",
   "theorems": [
    "Nv.ND.C65_inverse",
    "Nv.ND.C65_direct",
    "Nv.ND.C65_inverse_error",
    "Nv.ND.C65_direct_error",
    "Nv.ND.C65_displace_ellipsoid",
    "Nv.ND.C65_distance_and_azimuth_ellipsoid",
    "Nv.ND.C65_displace_great_circle",
    "Nv.ND.C65_distance_and_azimuth_greatcircle_partial",
    "Nv.ND.C65_distance_and_azimuth_greatcircle_counterexample",
    "Nv.ND.C65_displace",
    "Nv.ND.C65_distance_and_azimuth_partial",
    "Nv.ND.C65_distance_and_azimuth_counterexample"
   ],
   "note": "Proved for inverse, direct, displace (both methods), distance_and_azimuth by the ellipsoid method and, from one position, by the great circle method. False for the great circle method and a vector of n >= 2 positions: the call always raises ValueError (C65_distance_and_azimuth_counterexample), because great_circle_distance returns n times too many values."
  },
  {
   "property": "C66",
   "status": "partial",
   "theorems": [
    "Nv.ND.C66_on_path_partial",
    "Nv.ND.C66_track_distance_partial",
    "Nv.ND.C66_track_distance_counterexample",
    "Nv.ND.C66_track_distance_radius_counterexample",
    "Nv.ND.C66_cross_track_distance_partial",
    "Nv.ND.C66_cross_track_distance_counterexample",
    "Nv.ND.C66_on_great_circle_partial",
    "Nv.ND.C66_on_great_circle_path_partial",
    "Nv.ND.C66_on_ellipsoid_path",
    "Nv.ND.C66_on_great_circle_path_counterexample",
    "Nv.ND.C66_interpolate",
    "Nv.ND.C66_intersect_partial",
    "Nv.ND.C66_intersect_counterexample",
    "Nv.ND.C66_closest_point_on_great_circle_partial",
    "Nv.ND.C66_closest_point_on_path_partial",
    "Nv.ND.C66_closest_point_counterexample"
   ],
   "note": "Proved: interpolate and ellipsoidal on_path for all sizes; track_distance for the ellipsoidal and euclidean methods and for one starting point; cross_track_distance, on_great_circle and on_path for one path or one point; intersect and the closest points for one path and one position. The counterexample theorems show that every other case raises ValueError (or, for three columns, C53, is wrong), and that track_distance with an explicit radius returns only the first path's distance."
  },
  {
   "property": "C67",
   "status": "proved",
   "theorems": [
    "Nv.Mem.C67_unit",
    "Nv.Mem.C67_lat_lon2n_E",
    "Nv.Mem.C67_n_E2lat_lon",
    "Nv.Mem.C67_n_E2R_EN",
    "Nv.Mem.C67_n_EB_E2p_EB_E",
    "Nv.Mem.C67_p_EB_E2n_EB_E",
    "Nv.Mem.C67_to_nvector",
    "Nv.Mem.C67_to_ecef_vector",
    "Nv.Mem.C67_to_geo_point",
    "Nv.Mem.C67_FrameN",
    "Nv.Mem.C67_FrameL",
    "Nv.Mem.C67_FrameB",
    "Nv.Mem.C67_R_EN",
    "Nv.Mem.C67_change_frame",
    "Nv.Mem.C67_length",
    "Nv.Mem.C67_azimuth",
    "Nv.Mem.C67_elevation",
    "Nv.Mem.C67_delta_E",
    "Nv.Mem.C67_delta_N",
    "Nv.Mem.C67_delta_L",
    "Nv.Mem.C67_ecef_add",
    "Nv.Mem.C67_ecef_sub",
    "Nv.Mem.C67_ecef_neg",
    "Nv.Mem.C67_nvec_add",
    "Nv.Mem.C67_nvec_sub",
    "Nv.Mem.C67_nvec_neg",
    "Nv.Mem.C67_nvec_mul",
    "Nv.Mem.C67_nvec_div",
    "Nv.Mem.C67_nvec_mean",
    "Nv.Mem.C67_displace",
    "Nv.Mem.C67_cross_track_distance",
    "Nv.Mem.C67_track_distance",
    "Nv.Mem.C67_interpolate",
    "Nv.Mem.C67_intersect",
    "Nv.Mem.C67_on_great_circle",
    "Nv.Mem.C67_on_path",
    "Nv.Mem.C67_closest_point_on_great_circle",
    "Nv.Mem.C67_closest_point_on_path",
    "Nv.Mem.C67_distance_and_azimuth",
    "Nv.Mem.C67_later",
    "Nv.Mem.C67_interp_nvectors",
    "Nv.Mem.C67_nvec_interpolate"
   ],
   "note": "All functions and methods of the memory model compute the values of the array model for every pattern of sharing."
  },
  {
   "property": "C68",
   "status": "proved",
   "theorems": [
    "Nv.Mem.C68_conversion_to_own_class",
    "Nv.Mem.C68_unit_of_to_nvector",
    "Nv.Mem.C68_unit_seen_by_path",
    "Nv.Mem.C68_unit_seen_by_FrameB",
    "Nv.Mem.C68_unit_not_seen_by_FrameN",
    "Nv.Mem.C68_Nvector_shares_normal",
    "Nv.Mem.C68_depth_is_shared",
    "Nv.Mem.C68_unit_is_new",
    "Nv.Mem.C68_to_ecef_vector_is_new",
    "Nv.Mem.C68_to_nvector_is_new",
    "Nv.Mem.C68_ecef_arithmetic_is_new",
    "Nv.Mem.C68_nvector_arithmetic_is_new",
    "Nv.Mem.C68_path_results_are_new",
    "Nv.Mem.C68_GeoPoint_degrees",
    "Nv.Mem.C68_GeoPoint_radians",
    "Nv.Mem.C68_interpolated_tracks_are_new"
   ],
   "note": ""
  },
  {
   "property": "C69",
   "status": "proved",
   "theorems": [
    "Nv.C69_lat_lon2n_E_default",
    "Nv.C69_lat_lon2n_E_north",
    "Nv.C69_no_length_warning"
   ],
   "note": "Binary64 model: every operation rounds to nearest and overflows to infinity; sin, cos, arcsin, arctan2, ** are arbitrary functions with relative error at most 2^-51; sign of zero and fused multiply-add not modelled. "
  },
  {
   "property": "C70",
   "status": "proved",
   "theorems": [
    "Nv.C70_unit",
    "Nv.C70_unit_relative",
    "Nv.C70_underflow",
    "Nv.C70_overflow"
   ],
   "note": "Binary64 model: every operation rounds to nearest and overflows to infinity; sin, cos, arcsin, arctan2, ** are arbitrary functions with relative error at most 2^-51; sign of zero and fused multiply-add not modelled. Outside the range: C70_underflow, C70_overflow."
  },
  {
   "property": "C71",
   "status": "proved",
   "theorems": [
    "Nv.C71_round_trip",
    "Nv.C71_round_trip_no_turn"
   ],
   "note": "Binary64 model: every operation rounds to nearest and overflows to infinity; sin, cos, arcsin, arctan2, ** are arbitrary functions with relative error at most 2^-51; sign of zero and fused multiply-add not modelled. "
  },
  {
   "property": "C72",
   "status": "proved",
   "theorems": [
    "Nv.C72_great_circle_distance",
    "Nv.C72_same_position"
   ],
   "note": "Binary64 model: every operation rounds to nearest and overflows to infinity; sin, cos, arcsin, arctan2, ** are arbitrary functions with relative error at most 2^-51; sign of zero and fused multiply-add not modelled. "
  },
  {
   "property": "C73",
   "status": "proved",
   "theorems": [
    "Nv.C73_euclidean_distance"
   ],
   "note": "Binary64 model: every operation rounds to nearest and overflows to infinity; sin, cos, arcsin, arctan2, ** are arbitrary functions with relative error at most 2^-51; sign of zero and fused multiply-add not modelled. "
  },
  {
   "property": "C74",
   "status": "proved",
   "theorems": [
    "Nv.ND.C74_n_E2lat_lon",
    "Nv.ND.C74_n_E2R_EN",
    "Nv.ND.C74_n_EB_E2p_EB_E",
    "Nv.ND.C74_p_EB_E2n_EB_E",
    "Nv.ND.C74_n_E_and_wa2R_EL",
    "Nv.ND.C74_n_EA_E_and_n_EB_E2p_AB_E",
    "Nv.ND.C74_n_EA_E_and_p_AB_E2n_EB_E",
    "Nv.ND.C74_n_EA_E_and_n_EB_E2azimuth",
    "Nv.ND.C74_mean_horizontal_position",
    "Nv.ND.C74_second_vector",
    "Nv.ND.C74_unchecked",
    "Nv.ND.C74_no_columns",
    "Nv.ND.C74_one_dimension"
   ],
   "note": ""
  },
  {
   "property": "C75",
   "status": "proved",
   "theorems": [
    "Nv.C75_n_EB_E2p_EB_E",
    "Nv.C75_exists_unique"
   ],
   "note": "F64 instance of the model function: any rounding to nearest with gradual underflow and overflow, library functions with the LibmClose accuracy; forward error analysis. The exact point is specified by Spec.Geodetic, which C75_exists_unique shows to determine it."
  },
  {
   "property": "C76",
   "status": "proved",
   "theorems": [
    "Nv.C76_p_EB_E2n_EB_E",
    "Nv.C76_exists_unique"
   ],
   "note": "F64 instance of the model function: any rounding to nearest with gradual underflow and overflow, library functions with the LibmClose accuracy; forward error analysis. The exact coordinates are specified by Spec.Geodetic; C76_exists_unique shows that exactly one pair qualifies. Positions closer than a/2 to the centre are outside the statement."
  },
  {
   "property": "C77",
   "status": "proved",
   "theorems": [
    "Nv.C77_roundtrip_position"
   ],
   "note": "F64 instance of the model function: any rounding to nearest with gradual underflow and overflow, library functions with the LibmClose accuracy; forward error analysis. From C75/C76 and the sensitivity of the position to normal and depth."
  },
  {
   "property": "C78",
   "status": "proved",
   "theorems": [
    "Nv.C78_roundtrip_normal"
   ],
   "note": "F64 instance of the model function: any rounding to nearest with gradual underflow and overflow, library functions with the LibmClose accuracy; forward error analysis. From C75/C76 and the sensitivity of normal and depth to the position (bounded curvature above the evolute)."
  },
  {
   "property": "C79",
   "status": "proved",
   "theorems": [
    "Nv.C79_xyz2R",
    "Nv.C79_zyx2R",
    "Nv.C79_zero"
   ],
   "note": "F64 instance of the model function: any rounding to nearest with gradual underflow and overflow, library functions with the LibmClose accuracy; forward error analysis. Exact rotations are the products of RotX, RotY, RotZ; closeness is specified in Spec/Close."
  },
  {
   "property": "C80",
   "status": "proved",
   "theorems": [
    "Nv.C80_R2xyz_xyz2R",
    "Nv.C80_R2zyx_zyx2R"
   ],
   "note": "F64 instance of the model function: any rounding to nearest with gradual underflow and overflow, library functions with the LibmClose accuracy; forward error analysis. The gap of the binary64 numbers around pi/2 and pi keeps the cosine of the middle angle and the signs of the sines away from zero."
  },
  {
   "property": "C81",
   "status": "proved",
   "theorems": [
    "Nv.C81_n_E2R_EN",
    "Nv.C81_n_E2R_EN_pole",
    "Nv.C81_R_EN2n_E",
    "Nv.C81_near_pole_counterexample"
   ],
   "note": "Entry-wise error against the exact frame, near-orthonormality, the pole branch, and the n-vector back; C81_near_pole_counterexample shows why the range excludes points very close to, but not at, a pole."
  },
  {
   "property": "C82",
   "status": "proved",
   "theorems": [
    "Nv.C82_n_E2lat_lon"
   ],
   "note": "Error against the exact latitude and longitude of the direction (geoNormal), any length, any position."
  },
  {
   "property": "C83",
   "status": "proved",
   "theorems": [
    "Nv.C83_n_E_and_wa2R_EL",
    "Nv.C83_R_EL2n_E"
   ],
   "note": "Entry-wise error against the exact wander-azimuth frame, which is identified with the exact NED frame times RotZ(wa) off the poles."
  },
  {
   "property": "C84",
   "status": "proved",
   "theorems": [
    "Nv.C84_delta_E",
    "Nv.C84_self"
   ],
   "note": "error bound in every component against the unique points with the given geodetic coordinates; zero for equal positions"
  },
  {
   "property": "C85",
   "status": "proved",
   "theorems": [
    "Nv.C85_dead_reckoning"
   ],
   "note": "computed n-vector and depth against the exact geodetic coordinates of the point reached"
  },
  {
   "property": "C86",
   "status": "proved",
   "theorems": [
    "Nv.C86_delta_E",
    "Nv.C86_delta_N",
    "Nv.C86_delta_L"
   ],
   "note": "objects: delta_E, delta_N (also exactly at a pole) and delta_L (any distance from the poles)"
  },
  {
   "property": "C87",
   "status": "proved",
   "theorems": [
    "Nv.C87_body_frame",
    "Nv.C87_mdot",
    "Nv.C87_local_frames",
    "Nv.C87_change_frame_roundtrip"
   ],
   "note": "body frame matrix, product of matrices, change of frame there and back for the three local frames"
  },
  {
   "property": "C88",
   "status": "proved",
   "theorems": [
    "Nv.C88_length",
    "Nv.C88_azimuth",
    "Nv.C88_elevation",
    "Nv.C88_elevation_loss",
    "Nv.C88_elevation_underflow"
   ],
   "note": "Binary64 model of rounding; loss of digits and underflow are proved as theorems."
  },
  {
   "property": "C89",
   "status": "proved",
   "theorems": [
    "Nv.C89_rad",
    "Nv.C89_deg",
    "Nv.C89_latlon_deg"
   ],
   "note": "Binary64 model of rounding, np.deg2rad(x) is x * (pi / 180) with the double pi and both operations rounded."
  },
  {
   "property": "C90",
   "status": "proved",
   "theorems": [
    "Nv.C90_to_ecef_vector",
    "Nv.C90_to_ecef_vector_degrees"
   ],
   "note": "Binary64 model of rounding; libm functions within 2^-51."
  },
  {
   "property": "C91",
   "status": "proved",
   "theorems": [
    "Nv.C91_roundtrip"
   ],
   "note": "Binary64 model of rounding; libm functions within 2^-51."
  },
  {
   "property": "C92",
   "status": "proved",
   "theorems": [
    "Nv.C92_nvector_equal",
    "Nv.C92_nvector_different",
    "Nv.C92_ecef_equal",
    "Nv.C92_ecef_different",
    "Nv.C92_geo_equal",
    "Nv.C92_geo_different",
    "Nv.C92_geo_nvector_geo"
   ],
   "note": "The zone around the tolerance where the answer is not determined is explicit in the statements."
  },
  {
   "property": "C93",
   "status": "partial",
   "theorems": [
    "Nv.C93_nvector_symm",
    "Nv.C93_ecef_symm",
    "Nv.C93_geo_symm_partial",
    "Nv.C93_geo_not_symmetric"
   ],
   "note": "Proved for n-vectors and ECEF vectors, and for geographic points outside a zone around the tolerance; the full claim is false for geographic points (C93_geo_not_symmetric: p == q is False and q == p is True)."
  },
  {
   "property": "C94",
   "status": "proved",
   "theorems": [
    "Nv.C94_euclidean",
    "Nv.C94_greatcircle",
    "Nv.C94_least",
    "Nv.C94_nan"
   ],
   "note": "Binary64 model of rounding; libm functions within 2^-51. C94_nan exhibits the NaN 90 degrees from the circle."
  },
  {
   "property": "C95",
   "status": "partial",
   "theorems": [
    "Nv.C95_on",
    "Nv.C95_off",
    "Nv.C95_endpoint_not_on"
   ],
   "note": "Proved for positions whose distance differs from the tolerance by more than the rounding error (9e-15/s + 1.67 d) R; the full claim is false: C95_endpoint_not_on exhibits a path of 5.8 km whose start point is not on its own great circle with the default tolerance."
  },
  {
   "property": "C96",
   "status": "partial",
   "theorems": [
    "Nv.C96_destination",
    "Nv.C96_pole",
    "Nv.C96_distance",
    "Nv.C96_there_and_back",
    "Nv.C96_pole_axes_E"
   ],
   "note": "Proved with both choices of axes for starts at least 2^-500 from the poles, and with the default axes at the poles exactly; the full claim is false: C96_pole_axes_E shows that with axes E, starting at the pole with azimuth 0, the code returns (cos d, 0, 0), the pole with another length. Binary64 model of rounding; libm functions within 2^-51."
  },
  {
   "property": "C97",
   "status": "proved",
   "theorems": [
    "Nv.C97_azimuth",
    "Nv.C97_direct_then_azimuth"
   ],
   "note": "Binary64 model of rounding; libm functions within 2^-51."
  },
  {
   "property": "C98",
   "status": "proved",
   "theorems": [
    "Nv.C98_greatcircle_radius",
    "Nv.C98_euclidean_radius",
    "Nv.C98_greatcircle",
    "Nv.C98_euclidean"
   ],
   "note": "Binary64 model of rounding; libm functions within 2^-51."
  },
  {
   "property": "C99",
   "status": "proved",
   "theorems": [
    "Nv.C99_distance_and_azimuth",
    "Nv.C99_distance_and_azimuth_degrees"
   ],
   "note": "Distance and both azimuths, in radians and in degrees."
  },
  {
   "property": "C100",
   "status": "proved",
   "theorems": [
    "Nv.C100_position_defaults",
    "Nv.C100_distance_defaults",
    "Nv.C100_default_frame",
    "Nv.C100_interfaces_agree",
    "Nv.C100_method_defaults"
   ],
   "note": "Scalar objects; the theorems compare calls without and with explicit arguments."
  },
  {
   "property": "C101",
   "status": "proved",
   "theorems": [
    "Nv.C101_factories",
    "Nv.C101_latlon",
    "Nv.C101_degrees",
    "Nv.C101_deprecated"
   ],
   "note": "Scalar objects, exact arithmetic; deprecation warnings are not modelled."
  },
  {
   "property": "C102",
   "status": "proved",
   "theorems": [
    "Nv.C102_mean_any_order",
    "Nv.C102_mean_horizontal_position"
   ],
   "note": "Scalar model; the order of summation is arbitrary (Spec.SummedInSomeOrder)."
  },
  {
   "property": "C103",
   "status": "proved",
   "theorems": [
    "Nv.C103_closest_point"
   ],
   "note": "The bounds on s and t are part of the claim: nearer a pole of the circle the exact claim C21 fails too."
  },
  {
   "property": "C104",
   "status": "proved",
   "theorems": [
    "Nv.C104_intersect"
   ],
   "note": "The bounds on s and on the angle are part of the claim; without them the exact claim C24 fails (quarter turn) or the circles coincide."
  },
  {
   "property": "C105",
   "status": "proved",
   "theorems": [
    "Nv.C105_interpolate"
   ],
   "note": "T <= 3e14 s; the exact position is the one of C25."
  },
  {
   "property": "C106",
   "status": "proved",
   "theorems": [
    "Nv.C106_cross_track_radius",
    "Nv.C106_cross_track",
    "Nv.C106_least"
   ],
   "note": "Scalar objects. 52 degrees: |sin| <= 0.79; beyond, arcsin loses half the digits (C94_nan shows NaN at 90 degrees)."
  },
  {
   "property": "C107",
   "status": "proved",
   "theorems": [
    "Nv.C107_intersect",
    "Nv.C107_interpolate"
   ],
   "note": "Scalar objects; the bounds on s and t are part of the claim."
  },
  {
   "property": "C108",
   "status": "proved",
   "theorems": [
    "Nv.C108_closest_point"
   ],
   "note": "Scalar objects; the bounds on s and t are part of the claim."
  },
  {
   "property": "C109",
   "status": "proved",
   "theorems": [
    "Nv.C109_displace",
    "Nv.C109_displace_degrees"
   ],
   "note": "Exact start frame given by Spec.NorthEastDown, exact destination by Spec.destination; the start is at least 1e-12 rad from the poles. The azimuth at the result is compared with the exact chord at the returned point."
  },
  {
   "property": "C110",
   "status": "proved",
   "theorems": [
    "Nv.C110_delta_to"
   ],
   "note": "A is at least 1e-12 rad from the poles; the azimuth part assumes that the horizontal part of the vector exceeds the rounding error."
  },
  {
   "property": "C111",
   "status": "proved",
   "theorems": [
    "Nv.C111_core_on",
    "Nv.C111_core_off",
    "Nv.C111_on",
    "Nv.C111_off",
    "Nv.C111_circle_on",
    "Nv.C111_circle_off"
   ],
   "note": "C111_core_on/_core_off: on_great_circle_path of n-vectors; C111_on/C111_off: GeoPath.on_path with the radius the code computes and the depth comparison; C111_circle_on/_circle_off: GeoPath.on_great_circle. Exact great circle of the exact positions; margins 5.7e-14/s of the size of the ellipsoid (0.4 micrometre on Earth for s=1), 1.6e-14 for the chords, 6e-16 relative for the depth. Inside the margins the answer depends on rounding (C95)."
  },
  {
   "property": "C112",
   "status": "proved",
   "theorems": [
    "Nv.C112_closest_point",
    "Nv.C112_least"
   ],
   "note": "C112_closest_point: both cases with margins 1.4e-13/(s t); C112_least: within 3.8e-12/(s t) of the segment and at most 5.1e-13/(s t) rad farther than any point of it. The size limit 7500 km is needed because the code tests its own foot point with the default tolerance of 1e-8 m: the proof shows the computed foot passes that test there. C47 shows that longer paths and the poles of the circle are wrong already in exact arithmetic."
  },
  {
   "property": "C113",
   "status": "proved",
   "theorems": [
    "Nv.C113_result",
    "Nv.C113_in_place",
    "Nv.C113_frame",
    "Nv.C113_only_dicts",
    "Nv.C113_others",
    "Nv.C113_repr_unchanged",
    "Nv.C113_repr_counterexample",
    "Nv.C113_shared_object_array_counterexample"
   ],
   "note": "Heap model Mem/Dicts.lean. C113_repr_counterexample: an attribute that is a dict is changed by repr (no class of the library has one). C113_shared_object_array_counterexample: for object arrays holding tuples (outside the quantifier) the result depends on sharing: a dict that occurs twice is converted twice."
  },
  {
   "property": "C114",
   "status": "proved",
   "theorems": [
    "Nv.C114_lat_lon",
    "Nv.C114_position",
    "Nv.C114_distance",
    "Nv.C114_great_circle",
    "Nv.C114_objects",
    "Nv.C114_paths",
    "Nv.C114_on_path",
    "Nv.C114_closest_point_on_path_counterexample",
    "Nv.C114_equality"
   ],
   "note": "Proved in the binary64 model by the IEEE rules for a NaN operand (class NanLaws, satisfied by both arithmetics of the model). The exception closest_point_on_path is C114_closest_point_on_path_counterexample: for every path and every missing position the result is positionB. The ellipsoid methods call GeographicLib (opaque) and are left out."
  },
  {
   "property": "C115",
   "status": "proved",
   "theorems": [
    "Nv.C115_between",
    "Nv.C115_at_sample",
    "Nv.C115_outside",
    "Nv.C115_order",
    "Nv.C115_nvector"
   ],
   "note": "Proved by forward error analysis of slope*(x - x_lo) + y_lo followed by unit, for tracks of any length; SpacedTimes and the size bounds exclude overflow and underflow of the time differences."
  },
  {
   "property": "C116",
   "status": "proved",
   "theorems": [
    "Nv.C116_position_binary64",
    "Nv.C116_equality",
    "Nv.C116_to_vectors",
    "Nv.C116_arithmetic",
    "Nv.C116_delta_objects",
    "Nv.C116_change_frame",
    "Nv.C116_paths",
    "Nv.C116_to_nvector",
    "Nv.C116_same_geo_point",
    "Nv.C116_track_distance",
    "Nv.C116_conversions",
    "Nv.C116_delta",
    "Nv.C116_great_circles",
    "Nv.C116_direct_and_mean",
    "Nv.C116_isclose",
    "Nv.C116_great_circle_distance",
    "Nv.C116_position",
    "Nv.C116_lat_lon",
    "Nv.C116_wander",
    "Nv.C116_lat_lon_any",
    "Nv.C116_azimuth",
    "Nv.C116_azimuth_between",
    "Nv.C116_length_elevation",
    "Nv.C116_base_angle",
    "Nv.C116_euler",
    "Nv.C116_counterexample"
   ],
   "note": "Sgn adds the IEEE sign bit to an arithmetic; (f v).val = f v.val says that f computes the same numbers whatever the signs of the zeros are. C116_counterexample: (-1,0,0) and (-1,-0,-0) have longitudes pi and -pi. Not covered: the array layer, interp_nvectors, and geographiclib's treatment of -0.0 (a parameter)."
  },
  {
   "property": "C117",
   "status": "proved",
   "theorems": [
    "Nv.C117_call",
    "Nv.C117_chain",
    "Nv.C117_ecef",
    "Nv.C117_geo"
   ],
   "note": "C117_call is the single step, C117_chain the induction over the chain; C117_ecef and C117_geo spell out what comes out for chains that end in an ECEF vector or a geographic point."
  },
  {
   "property": "C118",
   "status": "partial",
   "theorems": [
    "Nv.C118_nthroot_partial",
    "Nv.C118_perfect_power",
    "Nv.C118_large",
    "Nv.C118_large_counterexample"
   ],
   "note": "True below 2^52 (C118_nthroot_partial, C118_perfect_power).  From 2^52 on the code skips the Newton step: the error is bounded by (4.01 + 139.01/n) 2^-53 (C118_large), and nthroot(2**180, 3) is at least 2048 = 16 ulps below 2**60 (C118_large_counterexample), so the docstring's claim is false there."
  },
  {
   "property": "C119",
   "status": "proved",
   "theorems": [
    "Nv.C119_distance",
    "Nv.C119_delta",
    "Nv.C119_delta_E",
    "Nv.C119_cross_track",
    "Nv.C119_cross_track_antipode",
    "Nv.C119_on_and_closest",
    "Nv.C119_intersect",
    "Nv.C119_antipode_position",
    "Nv.C119_antipode_position_finite",
    "Nv.C119_antipode_normal",
    "Nv.C119_antipode_normal_finite",
    "Nv.C119_paths",
    "Nv.C119_closest_point_on_path",
    "Nv.C119_closest_between_points"
   ],
   "note": "Equality of values; the sign of zero is not part of this model (C116 treats it)."
  },
  {
   "property": "C120",
   "status": "proved",
   "theorems": [
    "Nv.C120_lat_lon2n_E",
    "Nv.C120_position",
    "Nv.C120_geo_to_ecef",
    "Nv.C120_delta_N",
    "Nv.C120_n_E2lat_lon",
    "Nv.C120_normal",
    "Nv.C120_ecef_to_geo",
    "Nv.C120_azimuth"
   ],
   "note": "Equality of values; the sign of zero is not part of this model (C116 treats it). Longitude: n-vectors whose second component is zero are their own mirror image in the meridian plane and keep their longitude (0 or 180 degrees)."
  },
  {
   "property": "C121",
   "status": "partial",
   "theorems": [
    "Nv.C121_continue_partial",
    "Nv.C121_return",
    "Nv.C121_beyond_half_way",
    "Nv.C121_equator_counterexample"
   ],
   "note": "false beyond half way round the globe (C121_beyond_half_way, C121_equator_counterexample); proved below"
  },
  {
   "property": "C122",
   "status": "proved",
   "theorems": [
    "Nv.C122_distances",
    "Nv.C122_cross_track",
    "Nv.C122_paths",
    "Nv.C122_closest",
    "Nv.C122_mean",
    "Nv.C122_axes_lat_lon",
    "Nv.C122_axes_n2p",
    "Nv.C122_axes_p2n",
    "Nv.C122_axes_local",
    "Nv.C122_axes_vectors",
    "Nv.C122_axes_azimuth",
    "Nv.C122_axes_direct",
    "Nv.C122_axes_delta",
    "Nv.C122_axes_paths",
    "Nv.C122_axes_inverse"
   ],
   "note": "exclusions stated in the theorems: poles of the circle (closest point), poles (direct problem), core (inverse problem)"
  },
  {
   "property": "C123",
   "status": "proved",
   "theorems": [
    "Nv.C123_n_E",
    "Nv.C123_position",
    "Nv.C123_local",
    "Nv.C123_delta",
    "Nv.C123_paths",
    "Nv.C123_direct",
    "Nv.C123_displace",
    "Nv.C123_pole_counterexample"
   ],
   "note": "C123_pole_counterexample shows why poles are excluded for local frames"
  },
  {
   "property": "C124",
   "status": "proved",
   "theorems": [
    "Nv.C124_n2p",
    "Nv.C124_p2n",
    "Nv.C124_distances",
    "Nv.C124_vectors",
    "Nv.C124_azimuth",
    "Nv.C124_move",
    "Nv.C124_delta",
    "Nv.C124_paths",
    "Nv.C124_displace"
   ],
   "note": "over the real numbers; in binary64 only powers of two would scale exactly"
  },
  {
   "property": "C125",
   "status": "proved",
   "theorems": [
    "Nv.C125_from_nvector",
    "Nv.C125_too_deep_counterexample",
    "Nv.C125_from_position",
    "Nv.C125_objects"
   ],
   "note": "Minimality over all points of the ellipsoid by a Lagrange-multiplier identity; C125_too_deep_counterexample shows the depth bound is needed (deeper than the polar radius, off the equator, another surface point is nearer)."
  },
  {
   "property": "C126",
   "status": "proved",
   "theorems": [
    "Nv.C126_haversine",
    "Nv.C126_azimuth",
    "Nv.C126_destination",
    "Nv.C126_cross_track",
    "Nv.C126_distance_and_azimuth",
    "Nv.C126_clairaut"
   ],
   "note": "Each formula is stated in the theorem itself in terms of sin, cos, arcsin, atan2 of the latitudes and longitudes."
  },
  {
   "property": "C127",
   "status": "proved",
   "theorems": [
    "Nv.C127_depth",
    "Nv.C127_nvector",
    "Nv.C127_position",
    "Nv.C127_distance",
    "Nv.C127_cross_track",
    "Nv.C127_latitude",
    "Nv.C127_direct"
   ],
   "note": "Real-number model; the constants are written out in the statements."
  },
  {
   "property": "C128",
   "status": "proved",
   "theorems": [
    "Nv.C128_velocity",
    "Nv.C128_delta_N",
    "Nv.C128_direct"
   ],
   "note": "Real-number model; HasVelocity is the derivative of the three components."
  },
  {
   "property": "C129",
   "status": "proved",
   "theorems": [
    "Nv.C129_any_radius",
    "Nv.C129_core",
    "Nv.C129_track_distance",
    "Nv.C129_two_methods",
    "Nv.C129_wgs84",
    "Nv.C129_default",
    "Nv.C129_sphere",
    "Nv.C129_sharp"
   ],
   "note": "C129_core and C129_any_radius (function level), C129_default (WGS 84 and the default radius), C129_track_distance (path object), C129_two_methods (ellipsoid against greatcircle; geographiclib's contract is a hypothesis of the theorem, not an axiom), C129_sphere (exact on a sphere), C129_wgs84 (the numbers). C129_sharp: the factors of track_distance cannot be improved."
  },
  {
   "property": "C130",
   "status": "proved",
   "theorems": [
    "Nv.C130_cosines",
    "Nv.C130_sines",
    "Nv.C130_apart",
    "Nv.C130_pythagoras"
   ],
   "note": "C130_cosines, C130_sines, C130_apart, C130_pythagoras."
  },
  {
   "property": "C131",
   "status": "proved",
   "theorems": [
    "Nv.C131_distance",
    "Nv.C131_midpoint",
    "Nv.C131_short",
    "Nv.C131_direct",
    "Nv.C131_path",
    "Nv.C131_not_uniform"
   ],
   "note": "C131_distance, C131_midpoint, C131_short, C131_direct, C131_path; C131_not_uniform shows that the parameter is not the fraction of the distance."
  },
  {
   "property": "C132",
   "status": "proved",
   "theorems": [
    "Nv.C132_mean",
    "Nv.C132_mean_hemisphere",
    "Nv.C132_path",
    "Nv.C132_geo_path",
    "Nv.C132_track",
    "Nv.C132_beyond_hemisphere"
   ],
   "note": "C132_mean, C132_mean_hemisphere, C132_path, C132_geo_path, C132_track; C132_beyond_hemisphere shows that the bound on the cap is needed."
  },
  {
   "property": "C133",
   "status": "partial",
   "theorems": [
    "Nv.C133_conversions",
    "Nv.C133_delta_partial",
    "Nv.C133_distance_partial",
    "Nv.C133_interpolate_partial",
    "Nv.C133_track_distance_partial",
    "Nv.C133_on_path_partial",
    "Nv.C133_silent",
    "Nv.C133_different",
    "Nv.C133_counterexample"
   ],
   "note": "false for the great circle methods of GeoPath, which never compare frames (C133_silent; C133_counterexample: a distance between points of spheres of radius 1 and 3); proved for all operations that check"
  },
  {
   "property": "C134",
   "status": "proved",
   "theorems": [
    "Nv.ND.C134_lat_lon2n_E",
    "Nv.ND.C134_n_EB_E2p_EB_E",
    "Nv.ND.C134_n_EA_E_and_n_EB_E2p_AB_E",
    "Nv.ND.C134_n_EA_E_and_n_EB_E2azimuth",
    "Nv.ND.C134_n_EA_E_and_p_AB_E2n_EB_E",
    "Nv.ND.C134_path_ends",
    "Nv.ND.C134_interpolate",
    "Nv.ND.C134_path_points",
    "Nv.ND.C134_intersect",
    "Nv.ND.C134_all_pairs",
    "Nv.ND.C134_azimuths",
    "Nv.ND.C134_distances",
    "Nv.ND.C134_geodesic",
    "Nv.ND.C134_GeoPoint",
    "Nv.ND.C134_angles",
    "Nv.ND.C134_n_E_and_wa2R_EL",
    "Nv.ND.C134_add_sub",
    "Nv.ND.C134_delta"
   ],
   "note": "every element type (binary64, exact numbers); the two calls that accept such lengths are described by C134_all_pairs"
  },
  {
   "property": "C135",
   "status": "proved",
   "theorems": [
    "Nv.ND.C135_geodesic",
    "Nv.ND.C135_conversions",
    "Nv.ND.C135_empty",
    "Nv.ND.C135_GeoPoint",
    "Nv.ND.C135_mean"
   ],
   "note": "every element type; the mean in exact arithmetic"
  },
  {
   "property": "C136",
   "status": "proved",
   "theorems": [
    "Nv.Mem.C136_unit",
    "Nv.Mem.C136_lat_lon2n_E",
    "Nv.Mem.C136_n_E2lat_lon",
    "Nv.Mem.C136_n_E2R_EN",
    "Nv.Mem.C136_n_EB_E2p_EB_E",
    "Nv.Mem.C136_p_EB_E2n_EB_E",
    "Nv.Mem.C136_to_nvector",
    "Nv.Mem.C136_to_ecef_vector",
    "Nv.Mem.C136_to_geo_point",
    "Nv.Mem.C136_FrameN",
    "Nv.Mem.C136_FrameL",
    "Nv.Mem.C136_FrameB",
    "Nv.Mem.C136_R_EN",
    "Nv.Mem.C136_change_frame",
    "Nv.Mem.C136_length",
    "Nv.Mem.C136_azimuth",
    "Nv.Mem.C136_elevation",
    "Nv.Mem.C136_delta_E",
    "Nv.Mem.C136_delta_N",
    "Nv.Mem.C136_delta_L",
    "Nv.Mem.C136_ecef_add",
    "Nv.Mem.C136_ecef_sub",
    "Nv.Mem.C136_ecef_neg",
    "Nv.Mem.C136_nvec_add",
    "Nv.Mem.C136_nvec_sub",
    "Nv.Mem.C136_nvec_neg",
    "Nv.Mem.C136_nvec_mul",
    "Nv.Mem.C136_nvec_div",
    "Nv.Mem.C136_nvec_mean",
    "Nv.Mem.C136_displace",
    "Nv.Mem.C136_cross_track_distance",
    "Nv.Mem.C136_track_distance",
    "Nv.Mem.C136_interpolate",
    "Nv.Mem.C136_intersect",
    "Nv.Mem.C136_on_great_circle",
    "Nv.Mem.C136_on_path",
    "Nv.Mem.C136_closest_point_on_great_circle",
    "Nv.Mem.C136_closest_point_on_path",
    "Nv.Mem.C136_distance_and_azimuth",
    "Nv.Mem.C136_array_unchanged",
    "Nv.Mem.C136_GeoPoint_unchanged",
    "Nv.Mem.C136_ECEFvector_unchanged",
    "Nv.Mem.C136_Nvector_unchanged",
    "Nv.Mem.C136_LocalFrame_unchanged",
    "Nv.Mem.C136_position_unchanged",
    "Nv.Mem.C136_GeoPath_unchanged",
    "Nv.Mem.C136_unit_in_another_thread",
    "Nv.Mem.C136_interp_nvectors",
    "Nv.Mem.C136_nvec_interpolate"
   ],
   "note": "threads of steps on the memory model; one step is the use of one array or object; rely-guarantee proof for every schedule; C136_unit_in_another_thread shows that the exception for unit() is needed"
  },
  {
   "property": "C137",
   "status": "proved",
   "theorems": [
    "Nv.C137_same_place",
    "Nv.C137_reduced",
    "Nv.C137_geo_point",
    "Nv.C137_paths",
    "Nv.C137_xyz2R",
    "Nv.C137_zyx2R",
    "Nv.C137_frames",
    "Nv.C137_direct",
    "Nv.C137_displace"
   ],
   "note": "exact in real arithmetic; iff statements, so no other pair or triple of angles gives the same result"
  },
  {
   "property": "C138",
   "status": "proved",
   "theorems": [
    "Nv.C138_inverse_direct",
    "Nv.C138_lat_lon",
    "Nv.C138_geo_point"
   ],
   "note": "the first two theorems hold for every B; the GeoPoint theorem needs the points to be at least 8.2e-13/c apart and as far from antipodal, c a bound of the cosines of both latitudes"
  },
  {
   "property": "C139",
   "status": "proved",
   "theorems": [
    "Nv.C139_leg",
    "Nv.C139_traverse",
    "Nv.C139_closed",
    "Nv.C139_reorder",
    "Nv.C139_depth"
   ],
   "note": "induction over the legs; each leg is C84/C76 in position form"
  },
  {
   "property": "C140",
   "status": "proved",
   "theorems": [
    "Nv.Repr.C140_text",
    "Nv.Repr.C140_position",
    "Nv.Repr.C140_FrameE",
    "Nv.Repr.C140_local",
    "Nv.Repr.C140_text_FrameE",
    "Nv.Repr.C140_text_classes"
   ],
   "note": "unique readability of the printed text by structural induction; the texts of the numbers are a parameter (injective, without punctuation); C140_text_FrameE and C140_text_classes give the text of every class character by character, for any texts of the numbers"
  },
  {
   "property": "C141",
   "status": "proved",
   "theorems": [
    "Nv.C141_on_path",
    "Nv.C141_far_arc",
    "Nv.C141_closest"
   ],
   "note": "exact acceptance region for every path; sharpens C23 and C47, whose claims are false on paths of 120 degrees or more"
  },
  {
   "property": "C142",
   "status": "proved",
   "theorems": [
    "Nv.C142_xyz",
    "Nv.C142_not_recovered",
    "Nv.C142_xyz_iff",
    "Nv.C142_zyx_iff"
   ],
   "note": "exact set of recovered matrices; sharpens C17; the statement about signed zeros in the Sgn model"
  },
  {
   "property": "C143",
   "status": "proved",
   "theorems": [
    "Nv.C143_direct",
    "Nv.C143_azimuth",
    "Nv.C143_inverse_direct",
    "Nv.C143_direct_E",
    "Nv.C143_length_E"
   ],
   "note": "what happens at the poles, where the claims C27-C29 are false"
  },
  {
   "property": "C144",
   "status": "proved",
   "theorems": [
    "Nv.C144_displace",
    "Nv.C144_axes_E"
   ],
   "note": "sharpens C51, whose claim is false for axes 'E'"
  },
  {
   "property": "C145",
   "status": "proved",
   "theorems": [
    "Nv.C145_no_circle",
    "Nv.C145_distance",
    "Nv.C145_interpolate",
    "Nv.C145_on_path",
    "Nv.C145_closest"
   ],
   "note": "completes C18, C20-C26, C47, C48 for paths without a great circle; on_path of a one-point path rejects that point"
  },
  {
   "property": "C146",
   "status": "proved",
   "theorems": [
    "Nv.C146_pole",
    "Nv.C146_closest_on_path"
   ],
   "note": "completes C21 and C47 at the poles of the circle; for a pole 90 degrees from the x-axis and a path of 60 degrees or more the answer is wrong (C47_pole_counterexample)"
  },
  {
   "property": "C147",
   "status": "proved",
   "theorems": [
    "Nv.C147_smoothed",
    "Nv.C147_polynomial",
    "Nv.C147_at_rest",
    "Nv.C147_no_effect",
    "Nv.C147_raises",
    "Nv.C147_rotation",
    "Nv.C147_order_counterexample",
    "Nv.C147_nvector"
   ],
   "note": "relative to every savgol_filter that fits least squares polynomials in mode 'interp' (Spec.SavitzkyGolay); such a filter exists (Cases.exists_savitzkyGolay); exact arithmetic; C147_order_counterexample: C55_order does not hold with smoothing"
  },
  {
   "property": "C148",
   "status": "proved",
   "theorems": [
    "Nv.C148_no_effect",
    "Nv.C148_E_rotation",
    "Nv.C148_defaults",
    "Nv.C148_frame",
    "Nv.C148_positions",
    "Nv.C148_shared",
    "Nv.C148_assignment",
    "Nv.C148_counterexample"
   ],
   "note": "a memory with the 3x3 arrays and the frames (Verif.Mem.Rotation), any arithmetic; C148_counterexample shows that the condition on the program is needed"
  },
  {
   "property": "C149",
   "status": "proved",
   "theorems": [
    "Nv.C149_distance_and_azimuth",
    "Nv.C149_track_distance",
    "Nv.C149_displace"
   ],
   "note": "displace is stated for the default axes: the great circle method ignores the axes (C51)"
  },
  {
   "property": "C150",
   "status": "proved",
   "theorems": [
    "Nv.C150_from_position",
    "Nv.C150_far",
    "Nv.C150_from_nvector",
    "Nv.C150_from_nvector_simple",
    "Nv.C150_axis",
    "Nv.C150_core_nan",
    "Nv.C150_equator_nan",
    "Nv.C150_chain",
    "Nv.C150_geo_ecef_geo",
    "Nv.C150_delta_zero_iff",
    "Nv.C150_dead_reckoning",
    "Nv.C150_dead_reckoning_delta"
   ],
   "note": "C06, C07, C08, C10, C11, C45 and C125 for f < 0; the exceptions inside the core are part of the statement."
  },
  {
   "property": "C151",
   "status": "proved",
   "theorems": [
    "Nv.C151_call",
    "Nv.C151_history",
    "Nv.C151_closed"
   ],
   "note": "Props/FloatLegs.lean: the errors of single calls (C117 for conversions) summed by induction over the history (drift); the hypothesis on the positions on the way is about the exact partial sums, not the computed ones. C117 has no moves, C139 is the corresponding property of the function n_EA_E_and_p_AB_E2n_EB_E."
  },
  {
   "property": "C152",
   "status": "proved",
   "theorems": [
    "Nv.C152_seen_from_north",
    "Nv.C152_nose",
    "Nv.C152_starboard",
    "Nv.C152_bank",
    "Nv.C152_bearing",
    "Nv.C152_pointing",
    "Nv.C152_level"
   ],
   "note": "Props/Attitude.lean. Elevation is the library's: positive below the horizon in FrameN, where z is down, so the elevation of the nose is minus the pitch."
  },
  {
   "property": "C153",
   "status": "proved",
   "theorems": [
    "Nv.C153_unit_or_missing",
    "Nv.C153_blend",
    "Nv.C153_at_sample",
    "Nv.C153_at_rest",
    "Nv.C153_step",
    "Nv.C153_great_circle",
    "Nv.C153_hemisphere",
    "Nv.C153_rotation",
    "Nv.C153_nvector"
   ],
   "note": "Props/Kinds.lean; the hypothesis on Scipy is Spec.InterpolatesBy with Spec.Rule (Spec/Kinds.lean), met by the nearest-sample implementation in Cases/Kinds.lean. kind given as an integer is not modelled."
  },
  {
   "property": "C154",
   "status": "proved",
   "theorems": [
    "Nv.C154_position_and_ecef",
    "Nv.C154_interpolated_vectorized",
    "Nv.C154_mean",
    "Nv.C154_intersection",
    "Nv.C154_cross_track_by_hand",
    "Nv.C154_delta_exact",
    "Nv.C154_body_exact",
    "Nv.C154_delta_float",
    "Nv.C154_body_float",
    "Nv.C154_intersection_by_hand",
    "Nv.C154_interpolated_exact",
    "Nv.C154_interpolated_float",
    "Nv.C154_sum_exact",
    "Nv.C154_sum_float",
    "Nv.C154_surface_distance",
    "Nv.C154_direct",
    "Nv.C154_direct_ellipsoid",
    "Nv.C154_cross_track",
    "Nv.C154_intersection_check",
    "Nv.C154_interpolated_identical"
   ],
   "note": "Programs of _examples.py with parameters in place of the numbers (Model/Examples.lean). Example 5 and the ellipsoid method of example 8 assume of the geodesic library that it solves the sphere (Spec.SolvesSphere)."
  },
  {
   "property": "C155",
   "status": "partial",
   "theorems": [
    "Nv.C155_values",
    "Nv.C155_right_partial",
    "Nv.C155_left_counterexample",
    "Nv.C155_euclidean_counterexample"
   ],
   "note": "False: to the left of the path the cross track distance is negative and alternative 2 returns its absolute value (C155_left_counterexample); the Euclidean distance is the chord and not the distance to the plane, and always larger off the great circle (C155_euclidean_counterexample). Proved: exact values of both (C155_values), agreement to the right of the path with an error bound of s^3/(8 r^2) for the Euclidean distance (C155_right_partial)."
  },
  {
   "property": "C156",
   "status": "proved",
   "theorems": [
    "Nv.C156_cross_track",
    "Nv.C156_right_angle",
    "Nv.C156_straight_on",
    "Nv.C156_closest",
    "Nv.C156_closest_right_angle",
    "Nv.C156_objects"
   ],
   "note": "Functions for every R_Ee; the classes on a sphere with the default axes and equal depths (C156_objects). At C a pole the azimuth is the one of C143."
  },
  {
   "property": "C157",
   "status": "proved",
   "theorems": [
    "Nv.C157_clairaut",
    "Nv.C157_highest",
    "Nv.C157_vertex",
    "Nv.C157_poleward"
   ],
   "note": "Courses on the sphere (f = 0 in the azimuth); the bending towards the pole for GeoPath on every ellipsoid, since interpolation only uses the n-vectors."
  },
  {
   "property": "C158",
   "status": "proved",
   "theorems": [
    "Nv.C158_crossing",
    "Nv.C158_short",
    "Nv.C158_same_side",
    "Nv.C158_region",
    "Nv.C158_objects"
   ],
   "note": "Exact real arithmetic. C158_crossing states the three cases as equivalences; C158_region and C158_objects give existence, uniqueness and the result of intersect from the signs of cross track distances only."
  },
  {
   "property": "C159",
   "status": "proved",
   "theorems": [
    "Nv.C159_sign",
    "Nv.C159_vertical",
    "Nv.C159_horizon",
    "Nv.C159_sphere"
   ],
   "note": "Exact real arithmetic."
  },
  {
   "property": "C160",
   "status": "proved",
   "theorems": [
    "Nv.C160_fix",
    "Nv.C160_unique",
    "Nv.C160_direction",
    "Nv.C160_objects"
   ],
   "note": "Exact real arithmetic, spherical Earth (flattening 0), as the great circle functions assume."
  },
  {
   "property": "C161",
   "status": "proved",
   "theorems": [
    "Nv.Doc.C161_help_filled",
    "Nv.Doc.C161_help_kept",
    "Nv.Doc.C161_help_none",
    "Nv.Doc.C161_help_plain",
    "Nv.Doc.C161_dedent",
    "Nv.Doc.C161_indent",
    "Nv.Doc.C161_head_line",
    "Nv.Doc.C161_module_doc",
    "Nv.Doc.C161_module_doc_order",
    "Nv.Doc.C161_examples",
    "Nv.Doc.C161_examples_no_header",
    "Nv.Doc.C161_examples_KeyError"
   ],
   "note": "Texts are lists of characters. Fields such as {super!r} are excluded by hypothesis."
  },
  {
   "property": "C162",
   "status": "proved",
   "theorems": [
    "Nv.C162_binary64",
    "Nv.C162_stop",
    "Nv.C162_antipodes",
    "Nv.C162_route"
   ],
   "note": "Exact arithmetic (real model) and binary64."
  },
  {
   "property": "C163",
   "status": "proved",
   "theorems": [
    "Nv.C163_binary64",
    "Nv.C163_binary64_euclidean",
    "Nv.C163_same_order",
    "Nv.C163_nearest",
    "Nv.C163_bisector"
   ],
   "note": "Exact arithmetic (real model) and binary64."
  }
 ]
}