{
 "claims": [
  {
   "property": "C01",
   "status": "proved",
   "theorems": [
    "Attitude.Props.C01_centered_zero_mean_same_shape",
    "Attitude.Props.C01_centered_unique",
    "Attitude.Props.C01_centered_idempotent",
    "Attitude.Props.C01_centered_translation"
   ],
   "note": "Universal over n and data; uniqueness theorem pins the result."
  },
  {
   "property": "C02",
   "status": "partial",
   "theorems": [
    "Attitude.Props.C02_round_trip_swaps_x_y",
    "Attitude.Props.C02_round_trip_false",
    "Attitude.Props.C02_round_trip_partial",
    "Attitude.Props.C02_composition_raises",
    "Attitude.Props.C02_array_round_trip_swaps"
   ],
   "note": "The claim is false of the code: cartesian uses sin(phi) for x. Missing: identity (only x=y points return). Also the direct composition raises for n<>3."
  },
  {
   "property": "C03",
   "status": "proved",
   "theorems": [
    "Attitude.Props.C03_to_from_stereonet",
    "Attitude.Props.C03_from_to_stereonet",
    "Attitude.Props.C03_defined_everywhere",
    "Attitude.Props.C03_from_stereonet_axes"
   ],
   "note": "Holds for all proper positions; both directions."
  },
  {
   "property": "C04",
   "status": "proved",
   "theorems": [
    "Attitude.Props.C04_cartesian_unit",
    "Attitude.Props.C04_stereonet_transformation"
   ],
   "note": "Holds for all inputs."
  },
  {
   "property": "C05",
   "status": "partial",
   "theorems": [
    "Attitude.Props.C05_transform_defined",
    "Attitude.Props.C05_transform_never_orthogonal",
    "Attitude.Props.C05_transform_false",
    "Attitude.Props.C05_transform_misses_target",
    "Attitude.Props.C05_transform_partial",
    "Attitude.Props.C05_generator_partial"
   ],
   "note": "The claim is false of the code for every pair of vectors (elementwise exp instead of matrix exponential). Missing: rotation and R v1 = v2."
  },
  {
   "property": "C06",
   "status": "proved",
   "theorems": [
    "Attitude.Props.C06_best_fit",
    "Attitude.Props.C06_misfit_value",
    "Attitude.Props.C06_best_fit_unique"
   ],
   "note": "Optimality over every plane, value of the minimum, uniqueness when s1>s2; for every backend meeting the SVD contract (fits_exist shows one exists)."
  },
  {
   "property": "C07",
   "status": "proved",
   "theorems": [
    "Attitude.Props.C07_residuals_are_misfits",
    "Attitude.Props.C07_residuals_zero_iff_coplanar"
   ],
   "note": "All parts, including zero residual iff the data are coplanar."
  },
  {
   "property": "C08",
   "status": "proved",
   "theorems": [
    "Attitude.Props.C08_rotated_and_eigenvalues"
   ],
   "note": "All parts."
  },
  {
   "property": "C09",
   "status": "proved",
   "theorems": [
    "Attitude.Props.C09_value_error_iff",
    "Attitude.Props.C09_three_points_suffice",
    "Attitude.Props.C09_saved_axes_never_raise",
    "Attitude.Props.C09_measurement"
   ],
   "note": "Both directions, default weights."
  },
  {
   "property": "C10",
   "status": "partial",
   "theorems": [
    "Attitude.Props.C10_saved_fit_partial",
    "Attitude.Props.C10_saved_fit_coplanar_false"
   ],
   "note": "False for coplanar data (zero singular value gives nan axes). Holds when no singular value is zero. Missing: the degenerate case, where the code does not have the property."
  },
  {
   "property": "C11",
   "status": "proved",
   "theorems": [
    "Attitude.Props.C11_strike_dip_equivariant",
    "Attitude.Props.C11_strike_dip_determined",
    "Attitude.Props.C11_hypotheses_met"
   ],
   "note": "For every pair of valid backends and every data set with a unique best plane (s1>s2); strike mod 360, mod 180 for vertical planes. C11_hypotheses_met shows non-vacuity."
  },
  {
   "property": "C12",
   "status": "proved",
   "theorems": [
    "Attitude.Props.C12_ranges",
    "Attitude.Props.C12_fit_ranges",
    "Attitude.Props.C12_undefined_iff"
   ],
   "note": "For every non-zero axis and every fit; undefined exactly for the zero vector."
  },
  {
   "property": "C13",
   "status": "partial",
   "theorems": [
    "Attitude.Props.C13_sign_invariance_partial",
    "Attitude.Props.C13_vertical_false",
    "Attitude.Props.C13_horizontal_false"
   ],
   "note": "False for vertical and horizontal planes (strike reversed). Holds for all other axes. Missing: those two cases, where the code does not have the property."
  },
  {
   "property": "C14",
   "status": "proved",
   "theorems": [
    "Attitude.Props.C14_right_hand_rule",
    "Attitude.Props.C14_fit_right_hand_rule"
   ],
   "note": "For every fit."
  },
  {
   "property": "C15",
   "status": "partial",
   "theorems": [
    "Attitude.Props.C15_dip_direction_partial",
    "Attitude.Props.C15_dip_direction_false"
   ],
   "note": "The azimuth goes down dip but is not reduced to [0,360): witness reports 405. Missing: range."
  },
  {
   "property": "C16",
   "status": "partial",
   "theorems": [
    "Attitude.Props.C16_dip_dr_partial",
    "Attitude.Props.C16_points_up_dip_false",
    "Attitude.Props.C16_undefined_iff_horizontal"
   ],
   "note": "Unit, in plane, perpendicular to strike, steepest; but always points UP dip. Missing: direction."
  },
  {
   "property": "C17",
   "status": "partial",
   "theorems": [
    "Attitude.Props.C17_rake_range_partial",
    "Attitude.Props.C17_rake_depends_on_sign",
    "Attitude.Props.C17_rake_not_determined_false"
   ],
   "note": "Range holds; the value depends on the backend's sign (r or 180-r), with a concrete data set. Missing: determinacy."
  },
  {
   "property": "C18",
   "status": "partial",
   "theorems": [
    "Attitude.Props.C18_queries_preserve_partial",
    "Attitude.Props.C18_second_history_no_effect",
    "Attitude.Props.C18_as_conic_changes_fit_false",
    "Attitude.Props.C18_downward_axis_occurs",
    "Attitude.Props.C18_horizontal_strike_false"
   ],
   "note": "Invariant over all query histories: data, normal, residuals, strike/dip (non-horizontal) preserved. Axes, uid and reconstruction change when the third axis points down. Missing: those."
  },
  {
   "property": "C19",
   "status": "partial",
   "theorems": [
    "Attitude.Props.C19_explained_variance_partial",
    "Attitude.Props.C19_overstated_false",
    "Attitude.Props.C19_witness"
   ],
   "note": "In [2/3,1]; but computed from cubes of singular values, so it overstates the proportion exactly when 0<s2<s0. Missing: equality."
  },
  {
   "property": "C20",
   "status": "partial",
   "theorems": [
    "Attitude.Props.C20_default_weights_are_ones",
    "Attitude.Props.C20_zero_weight_raises",
    "Attitude.Props.C20_weights_reconstruct_iff_partial",
    "Attitude.Props.C20_equal_weights_reconstruct",
    "Attitude.Props.C20_unequal_weights_false"
   ],
   "note": "Default = ones; equal weights transparent; exact characterisation for unequal weights; concrete failing case. Missing: transparency for unequal weights (the code does not have it)."
  },
  {
   "property": "C21",
   "status": "proved",
   "theorems": [
    "Attitude.Props.C21_closed_form",
    "Attitude.Props.C21_variance_of_mean"
   ],
   "note": "Both methods, every fit, every level in [0,1); the variance_on_all_axes=False variant too."
  },
  {
   "property": "C22",
   "status": "partial",
   "theorems": [
    "Attitude.Props.C22_angular_errors_partial",
    "Attitude.Props.C22_noise_order_false",
    "Attitude.Props.C22_order_exact",
    "Attitude.Props.C22_order_small_errors"
   ],
   "note": "Range holds for all fits, levels and methods; order holds for sampling, and for noise while the second in-plane error does not exceed its axis. The noise order fails on a concrete fit with the true F quantile. C22_order_exact tells exactly when the order is wrong: if and only if the noise method is used, the two singular values in the plane differ, and the length 2 z s3/sqrt(n-2) of the errors is between the ratio of the sum of their squares to their sum, and their sum; never while it is at most 0.82 s1 (C22_order_small_errors)."
  },
  {
   "property": "C23",
   "status": "partial",
   "theorems": [
    "Attitude.Props.C23_monotone_partial",
    "Attitude.Props.C23_higher_confidence_smaller_error_false",
    "Attitude.Props.C23_witness",
    "Attitude.Props.C23_exact"
   ],
   "note": "Holds while errors do not exceed the eigenvalues; otherwise both errors strictly decrease (the absolute value folds back), with a 6-point witness at 95%/99%. C23_exact tells exactly when an error does not decrease: with the sampling method if and only if the fit is exact or the product of the two quantiles is at most (n-1)/2, with the noise method if and only if s3 (w+w'+2ww') <= s (2+w+w') for the singular value s of the axis and w = 2z/sqrt(n-2)."
  },
  {
   "property": "C24",
   "status": "proved",
   "theorems": [
    "Attitude.Props.C24_scale_invariant"
   ],
   "note": "For any two valid backends, translation included."
  },
  {
   "property": "C25",
   "status": "proved",
   "theorems": [
    "Attitude.Props.C25_conversion_inverse",
    "Attitude.Props.C25_zero_entry",
    "Attitude.Props.C25_reciprocal"
   ],
   "note": "Both directions, third entry fixed, zero entries give none."
  },
  {
   "property": "C26",
   "status": "partial",
   "theorems": [
    "Attitude.Props.C26_options_used_partial",
    "Attitude.Props.C26_options_dropped_false",
    "Attitude.Props.C26_unknown_type_false"
   ],
   "note": "Accepted options are used; leftover options or method make all options be dropped silently; an unknown type silently means sampling. Missing: the error report."
  },
  {
   "property": "C27",
   "status": "partial",
   "theorems": [
    "Attitude.Props.C27_dof_partial",
    "Attitude.Props.C27_default_dof_agrees",
    "Attitude.Props.C27_noise_dof_ignored_false"
   ],
   "note": "Sampling uses k; noise uses k in the quantile only and differs from the specification for every k<>2 and every noisy fit. Missing: noise covariance with k."
  },
  {
   "property": "C28",
   "status": "partial",
   "theorems": [
    "Attitude.Props.C28_lower_bound_false",
    "Attitude.Props.C28_order_partial"
   ],
   "note": "False for every level in (0,1): the quantile has the wrong tail, so the 'lower bound' exceeds the variance. The partial theorem keeps sign and order."
  },
  {
   "property": "C29",
   "status": "proved",
   "theorems": [
    "Attitude.Props.C29_zero_regression",
    "Attitude.Props.C29_closed_form",
    "Attitude.Props.C29_degenerate"
   ],
   "note": "Zero coefficients for every fit; closed form; degenerate cases characterised."
  },
  {
   "property": "C30",
   "status": "proved",
   "theorems": [
    "Attitude.Props.C30_francq",
    "Attitude.Props.C30_babamoradi"
   ],
   "note": "Both functions as common factors of the eigenvalues."
  },
  {
   "property": "C31",
   "status": "proved",
   "theorems": [
    "Attitude.Props.C31_least_squares",
    "Attitude.Props.C31_residuals",
    "Attitude.Props.C31_singular_iff"
   ],
   "note": "Minimality, uniqueness, residual identities for every point set; singular exactly for points collinear in map view."
  },
  {
   "property": "C32",
   "status": "partial",
   "theorems": [
    "Attitude.Props.C32_columns_false",
    "Attitude.Props.C32_agree_iff_partial",
    "Attitude.Props.C32_witness_false"
   ],
   "note": "False: three-row input always yields (-1,-1,0) (centred along the wrong axis). The two forms agree iff the true slopes are both -1. Missing: every other plane."
  },
  {
   "property": "C33",
   "status": "proved",
   "theorems": [
    "Attitude.Props.C33_reads_history_independent",
    "Attitude.Props.C33_new_objects_fresh",
    "Attitude.Props.C33_no_attribute_error"
   ],
   "note": "Invariant over all histories of reads, including exceptions; no AttributeError reachable."
  },
  {
   "property": "C34",
   "status": "proved",
   "theorems": [
    "Attitude.Props.C34_aligned",
    "Attitude.Props.C34_right_hand_rule",
    "Attitude.Props.C34_agrees_with_pca"
   ],
   "note": "Alignment and slope for every regression, right-hand rule, and agreement with the PCA strike/dip for every exact plane and every valid backend."
  },
  {
   "property": "C35",
   "status": "partial",
   "theorems": [
    "Attitude.Props.C35_inverse_rotation_false",
    "Attitude.Props.C35_correct_iff_partial",
    "Attitude.Props.C35_witness_false"
   ],
   "note": "False: the covariance is rotated the wrong way. Exact condition for correctness of the along-dip variance; total variance is right; concrete 4-point witness. Missing: the individual errors."
  },
  {
   "property": "C36",
   "status": "proved",
   "theorems": [
    "Attitude.Props.C36_covariance",
    "Attitude.Props.C36_singular"
   ],
   "note": "Both cases, symmetry and non-negative diagonal; singular inputs characterised."
  },
  {
   "property": "C37",
   "status": "partial",
   "theorems": [
    "Attitude.Props.C37_at_most_one_group_partial",
    "Attitude.Props.C37_overlapping_lists_false",
    "Attitude.Props.C37_second_call_false",
    "Attitude.Props.C37_regrouping_raises_partial"
   ],
   "note": "Holds for one call with copies, pairwise disjoint uid lists and plain measurements. False for overlapping lists in one call, and for a second call (copies of members are not recognised as grouped). Missing: those cases, where the code does not have the property."
  },
  {
   "property": "C38",
   "status": "partial",
   "theorems": [
    "Attitude.Props.C38_inputs_unchanged_partial",
    "Attitude.Props.C38_plain_inputs_unchanged_partial",
    "Attitude.Props.C38_members_redirected_false"
   ],
   "note": "Holds when the collection holds no groups (every object unchanged); in general only member_of of members of input groups can change. False: members of input groups are redirected to group copies. Missing: that case."
  },
  {
   "property": "C39",
   "status": "partial",
   "theorems": [
    "Attitude.Props.C39_failure_harmless_partial",
    "Attitude.Props.C39_early_failure_partial",
    "Attitude.Props.C39_failure_harmful_false"
   ],
   "note": "Holds with copy=True for plain collections, and for failures before any group is built. False for copy=False: a failing second group leaves a half-registered group and serialisation raises AttributeError. Missing: that case."
  },
  {
   "property": "C40",
   "status": "proved",
   "theorems": [
    "Attitude.Props.C40_success_means_known",
    "Attitude.Props.C40_unknown_uid_raises_keyerror",
    "Attitude.Props.C40_first_match"
   ],
   "note": "Both directions, for every heap and collection."
  },
  {
   "property": "C41",
   "status": "proved",
   "theorems": [
    "Attitude.Props.C41_groups_never_nested"
   ],
   "note": "Invariant over all histories, including failing calls."
  },
  {
   "property": "C42",
   "status": "proved",
   "theorems": [
    "Attitude.Props.C42_member_of_agrees",
    "Attitude.Props.C42_members_point_to_group"
   ],
   "note": "Invariant over all histories; disjointness gives the converse."
  },
  {
   "property": "C43",
   "status": "proved",
   "theorems": [
    "Attitude.Props.C43_group_has_member_data",
    "Attitude.Props.C43_created_groups_have_member_data"
   ],
   "note": "Every group ever built and every group returned by create_groups."
  },
  {
   "property": "C44",
   "status": "partial",
   "theorems": [
    "Attitude.Props.C44_disables_exactly",
    "Attitude.Props.C44_disable_idempotent",
    "Attitude.Props.C44_disable_order_independent",
    "Attitude.Props.C44_unknown_uid_partial",
    "Attitude.Props.C44_keyerror_without_effect_false"
   ],
   "note": "Exact effect, idempotence, order independence. False: an unknown uid raises after earlier uids were already disabled. Missing: atomicity."
  },
  {
   "property": "C45",
   "status": "partial",
   "theorems": [
    "Attitude.Props.C45_uid_determines_moments_partial",
    "Attitude.Props.C45_uid_ignores_location_false",
    "Attitude.Props.C45_uid_changes_false"
   ],
   "note": "Equal uids imply equal second moments; location is ignored and the uid changes after as_conic. Missing: identification."
  },
  {
   "property": "C46",
   "status": "partial",
   "theorems": [
    "Attitude.Props.C46_documented_keys",
    "Attitude.Props.C46_caller_overrides_partial",
    "Attitude.Props.C46_unserialisable_raises",
    "Attitude.Props.C46_caller_always_overrides_false"
   ],
   "note": "Documented keys always present; caller's values kept except for member_of and members, which the class overwrites; unserialisable states raise. Missing: overriding those two keys."
  },
  {
   "property": "C47",
   "status": "partial",
   "theorems": [
    "Attitude.Props.C47_orthonormal_partial",
    "Attitude.Props.C47_right_handed_false"
   ],
   "note": "Orthonormality and the upward normal for every strike, dip, rake. False: the frame is always left-handed (determinant -1). Missing: right-handedness."
  },
  {
   "property": "C48",
   "status": "proved",
   "theorems": [
    "Attitude.Props.C48_same_normal"
   ],
   "note": "For every fit, any valid backend; the normal is the upward one."
  },
  {
   "property": "C49",
   "status": "partial",
   "theorems": [
    "Attitude.Props.C49_axes_recovered_iff_partial",
    "Attitude.Props.C49_not_recovered_false"
   ],
   "note": "Recovered iff the first axis has non-negative component along strike or is horizontal; concrete fit where it is not. Missing: the other half of sign choices."
  },
  {
   "property": "C50",
   "status": "partial",
   "theorems": [
    "Attitude.Props.C50_errors_swapped_partial",
    "Attitude.Props.C50_errors_encoded_false"
   ],
   "note": "Closed form: the reconstructed axes give the errors swapped, and the covariance uses lengths where squares are expected; equality only for errors of 90 degrees. Missing: the round trip."
  },
  {
   "property": "C51",
   "status": "proved",
   "theorems": [
    "Attitude.Props.C51_points_move",
    "Attitude.Props.C51_center_moves",
    "Attitude.Props.C51_center_is_centre",
    "Attitude.Props.C51_translations_compose"
   ],
   "note": "Any dimension, all conics; singular quadratic part gives LinAlgError."
  },
  {
   "property": "C52",
   "status": "proved",
   "theorems": [
    "Attitude.Props.C52_transform",
    "Attitude.Props.C52_undo"
   ],
   "note": "Any dimension, rectangular transforms."
  },
  {
   "property": "C53",
   "status": "proved",
   "theorems": [
    "Attitude.Props.C53_pole_of_polar",
    "Attitude.Props.C53_polar_of_pole",
    "Attitude.Props.C53_reciprocal"
   ],
   "note": "Every invertible conic; error branch for singular ones, nan branch for poles at infinity."
  },
  {
   "property": "C54",
   "status": "proved",
   "theorems": [
    "Attitude.Props.C54_polar_iff_double_contact",
    "Attitude.Props.C54_sight_line_tangent",
    "Attitude.Props.C54_off_polar_crosses"
   ],
   "note": "Double contact, tangency and crossing, any dimension."
  },
  {
   "property": "C55",
   "status": "proved",
   "theorems": [
    "Attitude.Props.C55_slice_is_section",
    "Attitude.Props.C55_slice_with_axes",
    "Attitude.Props.C55_degenerate"
   ],
   "note": "Default and given axes, all planes with non-zero normal, degenerate planes separately."
  },
  {
   "property": "C56",
   "status": "proved",
   "theorems": [
    "Attitude.Props.C56_involution",
    "Attitude.Props.C56_tangent_planes"
   ],
   "note": "Involution, symmetry, tangent planes."
  },
  {
   "property": "C57",
   "status": "partial",
   "theorems": [
    "Attitude.Props.C57_signs_partial",
    "Attitude.Props.C57_sign_false",
    "Attitude.Props.C57_exactly_one_type",
    "Attitude.Props.C57_type_kept",
    "Attitude.Props.C57_elliptical_2d_partial",
    "Attitude.Props.C57_elliptical_3d_false",
    "Attitude.Props.C57_elliptical_empty_false"
   ],
   "note": "Trichotomy, invariance under invertible affine maps; in 2D elliptical means definite; in any dimension the type is decided by how many coefficients along the principal directions are zero or negative (C57_signs_partial), so the wanted meaning, only ellipsoids, is missing. False: 3D hyperboloids of signature (1,-1,-1) and empty conics are reported elliptical; in odd dimensions the negative of an equation, which has the same points, has the other type (C57_sign_false)."
  },
  {
   "property": "C58",
   "status": "partial",
   "theorems": [
    "Attitude.Props.C58_squares_partial",
    "Attitude.Props.C58_round_trip_false"
   ],
   "note": "The ellipsoid is the right point set and axis ends lie on the shell; semiaxes() returns squares, so the round trip holds iff all semiaxes are 1. Missing: the round trip."
  },
  {
   "property": "C59",
   "status": "partial",
   "theorems": [
    "Attitude.Props.C59_ellipses_iff_partial",
    "Attitude.Props.C59_spheres_iff_partial",
    "Attitude.Props.C59_major_axes_false"
   ],
   "note": "Exact condition for every sphere in any dimension (r^2 + 2 sum c - |c|^2 = r^6; the sphere in the test suite meets it, two others do not) and for every ellipse with different semiaxes a, b along the coordinates (only if a > b and 1 + (2 c0 - c0^2)/a^2 + (2 c1 - c1^2)/b^2 = a^2 b^2). Missing: all other ellipsoids, where the code does not have the property in general."
  },
  {
   "property": "C60",
   "status": "partial",
   "theorems": [
    "Attitude.Props.C60_spheres_iff_partial",
    "Attitude.Props.C60_unit_spheres_partial",
    "Attitude.Props.C60_angle_subtended_false",
    "Attitude.Props.C60_true_angle",
    "Attitude.Props.C60_ellipsoids_partial"
   ],
   "note": "Closed form for every sphere and direction; true angle iff the in-plane axis length equals r^2; unit spheres level with or above the viewer are right; two concrete failures. Missing: the general claim (the code does not have it)."
  },
  {
   "property": "C61",
   "status": "partial",
   "theorems": [
    "Attitude.Props.C61_three_dimensions_partial",
    "Attitude.Props.C61_two_dimensions_false"
   ],
   "note": "3D: perpendicular, non-zero, ValueError for zero. False in 2D: components are swapped without a sign. Missing: 2D."
  },
  {
   "property": "C62",
   "status": "proved",
   "theorems": [
    "Attitude.Props.C62_hessian_normal",
    "Attitude.Props.C62_degenerate"
   ],
   "note": "Any dimension; zero normal gives nan."
  },
  {
   "property": "C63",
   "status": "proved",
   "theorems": [
    "Attitude.Props.C63_angle",
    "Attitude.Props.C63_zero_iff_parallel",
    "Attitude.Props.C63_fit_angle"
   ],
   "note": "Any dimension; zero vectors give nan."
  },
  {
   "property": "C64",
   "status": "partial",
   "theorems": [
    "Attitude.Props.C64_curves_agree_partial",
    "Attitude.Props.C64_vertical_swapped_false",
    "Attitude.Props.C64_vertical_false",
    "Attitude.Props.C64_options_false"
   ],
   "note": "Agreement for non-vertical planes at level 1 and the three known sheets. False: for vertical planes the two functions swap upper and lower; level, layout and unknown sheets are ignored by the iterative one. Missing: those cases."
  },
  {
   "property": "C65",
   "status": "proved",
   "theorems": [
    "Attitude.Props.C65_curves_agree"
   ],
   "note": "Exact equality of both curves for level 1, either layout, any n."
  },
  {
   "property": "C66",
   "status": "partial",
   "theorems": [
    "Attitude.Props.C66_natural_layout_partial",
    "Attitude.Props.C66_traditional_layout_false"
   ],
   "note": "Natural layout: duality for every orthonormal frame. False in the traditional layout, where both curves are mirrored in north. Missing: traditional layout."
  },
  {
   "property": "C67",
   "status": "proved",
   "theorems": [
    "Attitude.Props.C67_nominal_in_plane",
    "Attitude.Props.C67_antipodal",
    "Attitude.Props.C67_on_cone",
    "Attitude.Props.C67_elevation_bounds"
   ],
   "note": "Nominal curve in the plane, antipodal sheets, points on the error cone, elevation between the arctangents of the two axis ratios."
  },
  {
   "property": "C68",
   "status": "partial",
   "theorems": [
    "Attitude.Props.C68_three_entries_partial",
    "Attitude.Props.C68_ignores_fit_false",
    "Attitude.Props.C68_constant_false"
   ],
   "note": "Refuted: axes and level are ignored; three entries whatever n; IndexError below three points. Missing: the claim itself."
  },
  {
   "property": "C69",
   "status": "proved",
   "theorems": [
    "Attitude.Props.C69_top_level",
    "Attitude.Props.C69_by_level",
    "Attitude.Props.C69_errors"
   ],
   "note": "All level lists, both layouts of the result, error cases."
  },
  {
   "property": "C70",
   "status": "partial",
   "theorems": [
    "Attitude.Props.C70_plane_partial",
    "Attitude.Props.C70_level_ignored_false"
   ],
   "note": "Plane errors widen with the level. False for the other three functions, which ignore it."
  },
  {
   "property": "C71",
   "status": "proved",
   "theorems": [
    "Attitude.Props.C71_hyperbola_values",
    "Attitude.Props.C71_hyperbola_values_degenerate",
    "Attitude.Props.C71_hyperbolic_errors",
    "Attitude.Props.C71_hyperbolic_errors_degenerate"
   ],
   "note": "Includes the degenerate branches (zero axis, parallel viewing axes)."
  },
  {
   "property": "C72",
   "status": "proved",
   "theorems": [
    "Attitude.Props.C72_horizontal_view"
   ],
   "note": "Nothing missing."
  },
  {
   "property": "C73",
   "status": "proved",
   "theorems": [
    "Attitude.Props.C73_midpoint",
    "Attitude.Props.C73_polygon",
    "Attitude.Props.C73_error_bounds"
   ],
   "note": "Also for the polygon that is filled."
  },
  {
   "property": "C74",
   "status": "partial",
   "theorems": [
    "Attitude.Props.C74_rotation_partial",
    "Attitude.Props.C74_up_dip_partial",
    "Attitude.Props.C74_down_dip_false",
    "Attitude.Props.C74_vertical_false"
   ],
   "note": "A rotation for every axis, with the right slope for rising axes. Missing: down-dip axes (not distinguished) and vertical axes (not rotated), both refuted."
  },
  {
   "property": "C75",
   "status": "partial",
   "theorems": [
    "Attitude.Props.C75_two_axes_false",
    "Attitude.Props.C75_with_axes_partial"
   ],
   "note": "Correct when axes are given. Missing: the default, which always raises."
  },
  {
   "property": "C76",
   "status": "proved",
   "theorems": [
    "Attitude.Props.C76_level",
    "Attitude.Props.C76_closed",
    "Attitude.Props.C76_determines_covariance"
   ],
   "note": "For every positive definite matrix and every valid square SVD backend."
  },
  {
   "property": "C77",
   "status": "proved",
   "theorems": [
    "Attitude.Props.C77_exactly",
    "Attitude.Props.C77_idempotent",
    "Attitude.Props.C77_message"
   ],
   "note": "Also the numbers in the printed message."
  },
  {
   "property": "C78",
   "status": "proved",
   "theorems": [
    "Attitude.Props.C78_contains",
    "Attitude.Props.C78_minimal",
    "Attitude.Props.C78_empty"
   ],
   "note": "trim_zeros is transcribed."
  },
  {
   "property": "C79",
   "status": "proved",
   "theorems": [
    "Attitude.Props.C79_extract_area",
    "Attitude.Props.C79_window",
    "Attitude.Props.C79_extract_shape"
   ],
   "note": "Equality of lists with a window-free specification, for every mask, DEM and affine transformation; extract_shape included. geometry_mask is a parameter."
  },
  {
   "property": "C80",
   "status": "partial",
   "theorems": [
    "Attitude.Props.C80_everywhere_partial",
    "Attitude.Props.C80_masked_partial",
    "Attitude.Props.C80_window",
    "Attitude.Props.C80_window_empty",
    "Attitude.Props.C80_values_partial",
    "Attitude.Props.C80_coordinates",
    "Attitude.Props.C80_errors",
    "Attitude.Props.C80_integer_line_false",
    "Attitude.Props.C80_one_cell_false"
   ],
   "note": "Window, positions and error branches for all lines; values for points half a cell from the window edges, and for all points: the elevation at the nearest position half a cell inside the window, if the cells around it are not masked, otherwise none (C80_everywhere_partial, C80_masked_partial). Missing: the elevation at the point itself if that is less than half a cell from an edge. Refuted for lines along a cell border (nothing read) and for lines inside one cell (not interpolated)."
  },
  {
   "property": "C81",
   "status": "partial",
   "theorems": [
    "Attitude.Props.C81_pixel_center_partial",
    "Attitude.Props.C81_masked_neighbour_false",
    "Attitude.Props.C81_range",
    "Attitude.Props.C81_planar",
    "Attitude.Props.C81_between_centres",
    "Attitude.Props.C81_beyond_edges",
    "Attitude.Props.C81_nearest"
   ],
   "note": "Range and planar exactness for all positions; nearest exact. Missing: cell centres next to masked cells, which have no value (refuted)."
  },
  {
   "property": "C82",
   "status": "partial",
   "theorems": [
    "Attitude.Props.C82_reader_partial",
    "Attitude.Props.C82_single_partial",
    "Attitude.Props.C82_several_false",
    "Attitude.Props.C82_one_row_false",
    "Attitude.Props.C82_none_false"
   ],
   "note": "Reader correct for every file as meant; one array with at least two rows and columns round-trips. Missing: several arrays (always TypeError), one row or column (shape lost), none."
  },
  {
   "property": "C83",
   "status": "partial",
   "theorems": [
    "Attitude.Props.C83_plain_partial",
    "Attitude.Props.C83_quote_false",
    "Attitude.Props.C83_escape_false",
    "Attitude.Props.C83_unicode",
    "Attitude.Props.C83_control_false",
    "Attitude.Props.C83_hash_false",
    "Attitude.Props.C83_script_false"
   ],
   "note": "Holds for data without quotes, backslashes, line breaks and <; characters written as \\\\uXXXX arrive as themselves. Refuted for single quotes, escaped double quotes, escaped control characters, the text <<<hash>>> and the text </script."
  },
  {
   "property": "C84",
   "status": "proved",
   "theorems": [
    "Attitude.Props.C84_once",
    "Attitude.Props.C84_retry"
   ],
   "note": "For every history of calls and outcomes."
  },
  {
   "property": "C85",
   "status": "proved",
   "theorems": [
    "Attitude.Props.C85_drawn_curves_dual"
   ],
   "note": "Includes the coordinate changes applied before plotting."
  },
  {
   "property": "C86",
   "status": "partial",
   "theorems": [
    "Attitude.Props.C86_width_bounds_partial",
    "Attitude.Props.C86_width_false"
   ],
   "note": "The drawn half-width is arctan(2 tan(e/2)): strictly between e/2 and e. Missing: equality with e/2, which is refuted for every e."
  },
  {
   "property": "C87",
   "status": "partial",
   "theorems": [
    "Attitude.Props.C87_upper_is_below_false",
    "Attitude.Props.C87_opposite_sides_partial"
   ],
   "note": "The sheets are on opposite sides; for upward-facing axes the sheet called upper is always below. Missing: the naming."
  },
  {
   "property": "C88",
   "status": "partial",
   "theorems": [
    "Attitude.Props.C88_cone_iff_partial",
    "Attitude.Props.C88_equal_axes_partial",
    "Attitude.Props.C88_asymptotes_false",
    "Attitude.Props.C88_off_centre"
   ],
   "note": "Exact condition: four or more directions are all on the asymptotic cone only if the three coefficients are equal (C88_cone_iff_partial); the first direction is on it only if the first and third agree. Missing: all other hyperboloids, for none of which the code has the property."
  },
  {
   "property": "C89",
   "status": "proved",
   "theorems": [
    "Attitude.Props.C89_hyperbola",
    "Attitude.Props.C89_ellipse",
    "Attitude.Props.C89_normal_tangent"
   ],
   "note": "The ellipse is covered exactly; vertical angles of the hyperbola are not finite."
  },
  {
   "property": "C90",
   "status": "partial",
   "theorems": [
    "Attitude.Props.C90_unrotated_partial",
    "Attitude.Props.C90_rotated_false"
   ],
   "note": "Missing: rotated frames, refuted for every rotation not by a multiple of a right angle."
  },
  {
   "property": "C91",
   "status": "partial",
   "theorems": [
    "Attitude.Props.C91_section_iff_partial",
    "Attitude.Props.C91_aligned_partial",
    "Attitude.Props.C91_tilted_false"
   ],
   "note": "Holds exactly when the first viewing axis is in the plane of the fit and the second is normal to it (C91_section_iff_partial). Missing: all other views, for none of which the code has the property; C91_tilted_false computes one."
  },
  {
   "property": "C92",
   "status": "partial",
   "theorems": [
    "Attitude.Props.C92_lines_partial",
    "Attitude.Props.C92_points_false"
   ],
   "note": "Missing: points, which always raise."
  },
  {
   "property": "C93",
   "status": "proved",
   "theorems": [
    "Attitude.Props.C93_ellipsoid",
    "Attitude.Props.C93_coplanar",
    "Attitude.Props.C93_history"
   ],
   "note": "For every data set, level and history of queries."
  },
  {
   "property": "C94",
   "status": "partial",
   "theorems": [
    "Attitude.Props.C94_larger_level_is_smaller_false"
   ],
   "note": "Refuted: the code divides by level instead of multiplying, for every noisy fit and pair of levels."
  },
  {
   "property": "C95",
   "status": "proved",
   "theorems": [
    "Attitude.Props.C95_equivariant",
    "Attitude.Props.C95_witness"
   ],
   "note": "For planes that are unique and not vertical (the sign of the normal of a vertical plane is up to the backend)."
  },
  {
   "property": "C96",
   "status": "partial",
   "theorems": [
    "Attitude.Props.C96_always_raises_false"
   ],
   "note": "Refuted for every fit and level: the bundle has four columns and the center three."
  },
  {
   "property": "C97",
   "status": "partial",
   "theorems": [
    "Attitude.Props.C97_plane_outside_false",
    "Attitude.Props.C97_center_inside_partial"
   ],
   "note": "Symmetric and contains the ellipse of the in-plane variances. Refuted for the plane: the hyperboloid surrounds the normal."
  },
  {
   "property": "C98",
   "status": "partial",
   "theorems": [
    "Attitude.Props.C98_unit_dependent_false"
   ],
   "note": "Refuted for every noisy data set and every factor other than one; the ellipsoid in the new unit is that for the level times the square root of the factor, times the square of the factor."
  },
  {
   "property": "C99",
   "status": "partial",
   "theorems": [
    "Attitude.Props.C99_pole_iff_partial",
    "Attitude.Props.C99_wrong_pole_false",
    "Attitude.Props.C99_level_zero_partial"
   ],
   "note": "Correct exactly for the points that dip in the direction of the fit, and for level zero. Refuted for every regression with noise (slope from one component, azimuth mirrored)."
  },
  {
   "property": "C100",
   "status": "partial",
   "theorems": [
    "Attitude.Props.C100_ellipse_iff_partial",
    "Attitude.Props.C100_witness_false"
   ],
   "note": "Correct exactly when the azimuth is a multiple of a half turn or the covariance has no direction; refuted otherwise (covariance not turned with the coefficients)."
  },
  {
   "property": "C101",
   "status": "partial",
   "theorems": [
    "Attitude.Props.C101_sampling_is_sample_covariance_partial",
    "Attitude.Props.C101_noise_iff_partial",
    "Attitude.Props.C101_noise_not_covariance_false",
    "Attitude.Props.C101_noise_unit_false"
   ],
   "note": "Holds for type='sampling'. Refuted for the default: equal exactly when every singular value is zero or n/(4(n-1)), and it scales with the cube of the unit of length."
  },
  {
   "property": "C102",
   "status": "partial",
   "theorems": [
    "Attitude.Props.C102_gram_partial",
    "Attitude.Props.C102_rotation_blind_false",
    "Attitude.Props.C102_reconstruction"
   ],
   "note": "The reconstruction holds for every fit. The matrix is the table of inner products of the centered points; refuted as Cartesian covariance: it does not change when the points are turned."
  },
  {
   "property": "C103",
   "status": "partial",
   "theorems": [
    "Attitude.Props.C103_self_partial",
    "Attitude.Props.C103_self_undefined_false",
    "Attitude.Props.C103_zero_iff_partial"
   ],
   "note": "Holds whenever a number is returned and for fits with an upward third axis. Refuted for fits with a downward third axis, which are at distance nan from themselves."
  },
  {
   "property": "C104",
   "status": "partial",
   "theorems": [
    "Attitude.Props.C104_symmetric_partial",
    "Attitude.Props.C104_asymmetric_false"
   ],
   "note": "Holds for two fits with upward third axes. Refuted by two data sets under one backend: zero one way, nan the other way."
  },
  {
   "property": "C105",
   "status": "partial",
   "theorems": [
    "Attitude.Props.C105_norm_partial",
    "Attitude.Props.C105_not_symmetric_false"
   ],
   "note": "The norm is one. Refuted as a covariance: for coplanar points on a tilted plane it is not symmetric."
  },
  {
   "property": "C106",
   "status": "proved",
   "theorems": [
    "Attitude.Props.C106_nominal",
    "Attitude.Props.C106_sheets"
   ],
   "note": "Holds for both layouts and units. The number of positions is 2*ceil(n/2)."
  },
  {
   "property": "C107",
   "status": "proved",
   "theorems": [
    "Attitude.Props.C107_poles",
    "Attitude.Props.C107_level_zero",
    "Attitude.Props.C107_antipodal"
   ],
   "note": "Universal; tangency is stated geometrically (normals of planes that touch the cone), apart from the formulas of the code."
  },
  {
   "property": "C108",
   "status": "partial",
   "theorems": [
    "Attitude.Props.C108_same_cone_partial",
    "Attitude.Props.C108_same_covariance_iff_partial",
    "Attitude.Props.C108_same_covariance_false",
    "Attitude.Props.C108_vertical_false"
   ],
   "note": "Refuted: Python takes lengths and doubles the third, the frontend takes square roots and does not. Same cones for c and (sqrt c0, sqrt c1, sqrt c2 / 2) if the plane is not vertical; with the same numbers exactly if c0 = c1 = 4 c2; for vertical planes upper and lower are swapped."
  },
  {
   "property": "C109",
   "status": "partial",
   "theorems": [
    "Attitude.Props.C109_reads_principal_axes",
    "Attitude.Props.C109_convolve",
    "Attitude.Props.C109_inverse_partial",
    "Attitude.Props.C109_inverse_false",
    "Attitude.Props.C109_argument_changed_false"
   ],
   "note": "Reading Python's principal axes holds for all fits with nonzero singular values. Refuted: convolveAxes scales rows whereas deconvolveAxes divides columns, so they are inverse only for equal lengths; scaled axes are changed in place."
  },
  {
   "property": "C110",
   "status": "partial",
   "theorems": [
    "Attitude.Props.C110_history_partial",
    "Attitude.Props.C110_layout_false",
    "Attitude.Props.C110_plane_false"
   ],
   "note": "combinedErrors is independent of any sequence of calls of combinedErrors, planeErrors and normalErrors (induction). Refuted after cart2sph (other default layout) and for planeErrors after combinedErrors (default curve becomes the lower error, in degrees)."
  },
  {
   "property": "C111",
   "status": "partial",
   "theorems": [
    "Attitude.Props.C111_surface_partial",
    "Attitude.Props.C111_empty",
    "Attitude.Props.C111_second_use_false"
   ],
   "note": "Holds on first use. Refuted for the second use: reverse() changes the arrays in place and the rings then run in the same direction."
  },
  {
   "property": "C112",
   "status": "proved",
   "theorems": [
    "Attitude.Props.C112_axes",
    "Attitude.Props.C112_curves",
    "Attitude.Props.C112_missing",
    "Attitude.Props.C112_drawn"
   ],
   "note": "The error branch is covered: lengths without axes and axes without lengths are type errors, although planeErrors by itself has a default."
  },
  {
   "property": "C113",
   "status": "partial",
   "theorems": [
    "Attitude.Props.C113_small",
    "Attitude.Props.C113_history",
    "Attitude.Props.C113_polygons",
    "Attitude.Props.C113_radians_false"
   ],
   "note": "Holds except for the unit: without degrees: true coordinates are in radians, and every polygon is within pi degrees of the origin of the map."
  },
  {
   "property": "C114",
   "status": "proved",
   "theorems": [
    "Attitude.Props.C114_widths",
    "Attitude.Props.C114_attained"
   ],
   "note": "The larger one is attained if 4 divides the number of positions (the default is 100). The rotation comes from modules outside the repository and is any orthonormal matrix. Errors of zero divide by zero and are excluded."
  },
  {
   "property": "C115",
   "status": "partial",
   "theorems": [
    "Attitude.Props.C115_clone_partial",
    "Attitude.Props.C115_clone_false",
    "Attitude.Props.C115_levels_partial",
    "Attitude.Props.C115_levels_false"
   ],
   "note": "Refuted for replacements that are false or new: they are dropped, so level 0 in an array gives a function whose level is the whole array. Holds for nonzero levels."
  },
  {
   "property": "C116",
   "status": "partial",
   "theorems": [
    "Attitude.Props.C116_average_false",
    "Attitude.Props.C116_extrema",
    "Attitude.Props.C116_extrema_empty"
   ],
   "note": "The first holds for nonempty lists (type error for an empty one). Refuted for the second: d3 is not imported in util.ts, so that every call fails."
  },
  {
   "property": "C117",
   "status": "partial",
   "theorems": [
    "Attitude.Props.C117_fix_angle",
    "Attitude.Props.C117_dip",
    "Attitude.Props.C117_python_partial",
    "Attitude.Props.C117_python_false"
   ],
   "note": "Agreement with Python holds for normals that do not point down. Refuted for all normals that point down: the frontend's dip then exceeds 90 degrees. The loops of fixAngle terminate for all finite angles."
  },
  {
   "property": "C118",
   "status": "proved",
   "theorems": [
    "Attitude.Props.C118_apparent_dip",
    "Attitude.Props.C118_reversal",
    "Attitude.Props.C118_maximal"
   ],
   "note": "Universal over planes that are not vertical; uniqueness pins the value."
  },
  {
   "property": "C119",
   "status": "proved",
   "theorems": [
    "Attitude.Props.C119_section_line",
    "Attitude.Props.C119_vertical"
   ],
   "note": "Vertical planes have no transform (NaN), which is proved too."
  },
  {
   "property": "C120",
   "status": "partial",
   "theorems": [
    "Attitude.Props.C120_projection",
    "Attitude.Props.C120_axes",
    "Attitude.Props.C120_on_line",
    "Attitude.Props.C120_position_false"
   ],
   "note": "Refuted for the position along the line: coordinates along the axes of the plane are used as if they were coordinates in space."
  },
  {
   "property": "C121",
   "status": "partial",
   "theorems": [
    "Attitude.Props.C121_oblique_false",
    "Attitude.Props.C121_tilted_iff_partial",
    "Attitude.Props.C121_section_partial",
    "Attitude.Props.C121_axis_sign_false"
   ],
   "note": "Proved for horizontal planes with first axis at an angle between 0 and pi. Refuted for the sign of the first axis: reversing it mirrors the hyperbola's width. C121_tilted_iff_partial settles tilted planes whose first axis points to the north side, without exaggeration: the hyperbola is the section exactly when the section runs along the dip and the first two error lengths agree or the first axis is horizontal or runs along the dip. Missing: all other cases, which are refuted; C121_oblique_false shows that the hyperbola is never the section when the section is oblique to the dip."
  },
  {
   "property": "C122",
   "status": "partial",
   "theorems": [
    "Attitude.Props.C122_polygon",
    "Attitude.Props.C122_polygon_false",
    "Attitude.Props.C122_polygon_ends_false"
   ],
   "note": "Refuted: with three coordinates it has straight sides from the vertex to the asymptote. What holds: it is symmetric, has the vertex, never is inside the asymptotes and its border is at most sqrt 2 times as high as the hyperbola. The ends of the border are always below the hyperbola (C122_polygon_ends_false)."
  },
  {
   "property": "C123",
   "status": "partial",
   "theorems": [
    "Attitude.Props.C123_same_placement",
    "Attitude.Props.C123_scale_partial",
    "Attitude.Props.C123_scale_false",
    "Attitude.Props.C123_scale_exact"
   ],
   "note": "Refuted for the setting: turned off, drawn and turned on again the horizontal scale remains. Holds for histories in which it is never turned off; C123_scale_exact: the vertical scale is that of heights exactly if the setting was on at every drawing so far."
  },
  {
   "property": "C124",
   "status": "proved",
   "theorems": [
    "Attitude.Props.C124_labels",
    "Attitude.Props.C124_data",
    "Attitude.Props.C124_errors_as_given"
   ],
   "note": "All six labels; position compared with that of data in the same direction. C124_errors_as_given: girdles and ellipses at level 1 with 200 positions."
  },
  {
   "property": "C125",
   "status": "partial",
   "theorems": [
    "Attitude.Props.C125_azimuth_labels",
    "Attitude.Props.C125_center_vertical_false",
    "Attitude.Props.C125_dip_labels"
   ],
   "note": "Holds in the view set by clipAngle. Refuted after center('vertical'), which views from the other side: north is drawn where the label is S."
  },
  {
   "property": "C126",
   "status": "partial",
   "theorems": [
    "Attitude.Props.C126_drag",
    "Attitude.Props.C126_hover",
    "Attitude.Props.C126_latitude",
    "Attitude.Props.C126_click_partial",
    "Attitude.Props.C126_click_false"
   ],
   "note": "Refuted for clicks on views with roll (the roll is reset); holds without roll."
  },
  {
   "property": "C127",
   "status": "partial",
   "theorems": [
    "Attitude.Props.C127_settings",
    "Attitude.Props.C127_scale_false",
    "Attitude.Props.C127_clip_angle_false",
    "Attitude.Props.C127_center_false"
   ],
   "note": "Holds for margin, size, clip and clipAngle. Refuted for scale (its getter returns another variable and drawing overrides it), for the clipping circle after setting the clip angle back to 90, and for the center, which clipAngle discards."
  },
  {
   "property": "C128",
   "status": "partial",
   "theorems": [
    "Attitude.Props.C128_clipped",
    "Attitude.Props.C128_margin_false",
    "Attitude.Props.C128_hemisphere",
    "Attitude.Props.C128_default_false",
    "Attitude.Props.C128_large_false"
   ],
   "note": "Refuted: with a clip angle c below 89 the radius is (size/2 - margin)/cos(c/2), which always exceeds the space; for a hemisphere it is sqrt 2 (size/2.5 - margin), which exceeds it by default and exceeds the drawing for size 1000."
  },
  {
   "property": "C129",
   "status": "proved",
   "theorems": [
    "Attitude.Props.C129_opacity"
   ],
   "note": "Closed form and monotonicity over all errors."
  },
  {
   "property": "C130",
   "status": "partial",
   "theorems": [
    "Attitude.Props.C130_domain_partial",
    "Attitude.Props.C130_max_false",
    "Attitude.Props.C130_getters_false"
   ],
   "note": "Refuted: getters never return a value (they call it as a function), and max has no effect. Holds for the setter domain."
  },
  {
   "property": "C131",
   "status": "partial",
   "theorems": [
    "Attitude.Props.C131_labels_partial",
    "Attitude.Props.C131_labels_false"
   ],
   "note": "Holds for sequences without center and clipAngle. Refuted for these, which do not update labels."
  },
  {
   "property": "C132",
   "status": "partial",
   "theorems": [
    "Attitude.Props.C132_fresh_partial",
    "Attitude.Props.C132_repeated_false"
   ],
   "note": "Refuted for a shared options object: startOffset grows by 100 with each call. Holds for new options."
  },
  {
   "property": "C133",
   "status": "partial",
   "theorems": [
    "Attitude.Props.C133_lower_partial",
    "Attitude.Props.C133_traditional_false"
   ],
   "note": "Holds for the layout of the stereonet. Refuted for the traditional layout, where north and south are exchanged."
  },
  {
   "property": "C134",
   "status": "partial",
   "theorems": [
    "Attitude.Props.C134_calls_partial",
    "Attitude.Props.C134_calls_false",
    "Attitude.Props.C134_order",
    "Attitude.Props.C134_once_iff"
   ],
   "note": "Holds for a single drawing. Refuted for the second, which runs queued functions again. Exact for all sequences of calls: what runs and in which order (C134_order); each function runs as often as passed exactly if none was passed before the first drawing or there is no second one (C134_once_iff)."
  },
  {
   "property": "C135",
   "status": "proved",
   "theorems": [
    "Attitude.Props.C135_interval",
    "Attitude.Props.C135_columns",
    "Attitude.Props.C135_nested",
    "Attitude.Props.C135_order",
    "Attitude.Props.C135_extremes",
    "Attitude.Props.C135_errors"
   ],
   "note": "All percentages and lists, including the error branches."
  },
  {
   "property": "C136",
   "status": "proved",
   "theorems": [
    "Attitude.Props.C136_resampled",
    "Attitude.Props.C136_draws",
    "Attitude.Props.C136_constant",
    "Attitude.Props.C136_noise",
    "Attitude.Props.C136_noise_values"
   ],
   "note": "Random numbers are an argument of the model."
  },
  {
   "property": "C137",
   "status": "partial",
   "theorems": [
    "Attitude.Props.C137_mode_column_partial",
    "Attitude.Props.C137_antipodal",
    "Attitude.Props.C137_mode_partial",
    "Attitude.Props.C137_mode_false",
    "Attitude.Props.C137_series"
   ],
   "note": "With distinct smallest eigenvalue the density is highest exactly along the third column of the matrix of axes, whereas the pole of the plane is its third row; the maximum at the pole holds for symmetric matrices of axes and is refuted in general (axes are used as columns). The normalising function of scipy is any positive function."
  },
  {
   "property": "C138",
   "status": "proved",
   "theorems": [
    "Attitude.Props.C138_grid"
   ],
   "note": "All grids with at least two rows and columns."
  },
  {
   "property": "C139",
   "status": "partial",
   "theorems": [
    "Attitude.Props.C139_difference_partial",
    "Attitude.Props.C139_symmetric_partial",
    "Attitude.Props.C139_self_false"
   ],
   "note": "Symmetry holds (also of the error cases). Refuted for self-distance: it is zero if and only if the determinant of the covariance is one (the square root of the product of determinants is missing). In general the value is the true distance less a quarter of the logarithm of the product of the determinants."
  },
  {
   "property": "C140",
   "status": "proved",
   "theorems": [
    "Attitude.Props.C140_recovered",
    "Attitude.Props.C140_scatter",
    "Attitude.Props.C140_lengths"
   ],
   "note": "Scatter is relative, so that a coordinate of zero never is scattered (proved)."
  },
  {
   "property": "C141",
   "status": "partial",
   "theorems": [
    "Attitude.Props.C141_quaternion_false",
    "Attitude.Props.C141_identity_false"
   ],
   "note": "Refuted: the cosine is added to each component; exact characterisation of the axes and angles for which the norm is one."
  },
  {
   "property": "C142",
   "status": "partial",
   "theorems": [
    "Attitude.Props.C142_line_partial",
    "Attitude.Props.C142_table_false",
    "Attitude.Props.C142_scale"
   ],
   "note": "augment holds for one variable and is refuted for more (always ValueError)."
  },
  {
   "property": "C143",
   "status": "partial",
   "theorems": [
    "Attitude.Props.C143_pole",
    "Attitude.Props.C143_curve",
    "Attitude.Props.C143_no_error",
    "Attitude.Props.C143_side_effect_false"
   ],
   "note": "All but the last claim is proved; the last is refuted: axes that point down are reversed in place."
  },
  {
   "property": "C144",
   "status": "partial",
   "theorems": [
    "Attitude.Props.C144_rows",
    "Attitude.Props.C144_side_partial",
    "Attitude.Props.C144_side_false",
    "Attitude.Props.C144_title",
    "Attitude.Props.C144_range_partial",
    "Attitude.Props.C144_range_false"
   ],
   "note": "The side is right for third axes that do not point down and refuted for all others; the extent is right in the long section and refuted in the other."
  },
  {
   "property": "C145",
   "status": "partial",
   "theorems": [
    "Attitude.Props.C145_first_point_partial",
    "Attitude.Props.C145_in_view_false",
    "Attitude.Props.C145_bootstrap_false"
   ],
   "note": "The view is symmetric, as wide as asked for and shows the first point. Refuted: by default points can be out of view (the first row is used for the first column), and do_bootstrap always raises NameError."
  },
  {
   "property": "C146",
   "status": "partial",
   "theorems": [
    "Attitude.Props.C146_per_level_partial",
    "Attitude.Props.C146_repeated_false",
    "Attitude.Props.C146_number_false"
   ],
   "note": "A value for each level is used as given. Refuted: a single number, also the default of normal, and lists of other lengths, which are to be repeated, always raise TypeError."
  },
  {
   "property": "C147",
   "status": "partial",
   "theorems": [
    "Attitude.Props.C147_montecarlo_false",
    "Attitude.Props.C147_error_ellipse_false",
    "Attitude.Props.C147_plane_confidence_false",
    "Attitude.Props.C147_asymptotes_false"
   ],
   "note": "All refuted: the simulation gives the dip direction for the strike, for all planes that are not horizontal; the ellipse of a regression is drawn at slopes as if they were radians; plane_confidence always raises ValueError and error_asymptotes TypeError."
  },
  {
   "property": "C148",
   "status": "partial",
   "theorems": [
    "Attitude.Props.C148_on_hyperbola_false",
    "Attitude.Props.C148_means_false",
    "Attitude.Props.C148_angles_partial"
   ],
   "note": "The angles run symmetrically from one asymptote to the other, never beyond. Refuted: for first semi-axes below pi/4 no point is on the hyperbola, and the means are added twice."
  },
  {
   "property": "C149",
   "status": "proved",
   "theorems": [
    "Attitude.Props.C149_fix_involutive",
    "Attitude.Props.C149_closed",
    "Attitude.Props.C149_rings"
   ],
   "note": "All axes and error axes."
  },
  {
   "property": "C150",
   "status": "partial",
   "theorems": [
    "Attitude.Props.C150_augment_domain",
    "Attitude.Props.C150_augment_acts",
    "Attitude.Props.C150_augment_translates",
    "Attitude.Props.C150_augment_mul",
    "Attitude.Props.C150_rotate_tensor",
    "Attitude.Props.C150_rotate_tensor_eigen",
    "Attitude.Props.C150_compose_false",
    "Attitude.Props.C150_axis_transform",
    "Attitude.Props.C150_constructors_false"
   ],
   "note": "Refuted: compose_affine, random_pca(False) and from_axes always raise."
  },
  {
   "property": "C151",
   "status": "proved",
   "theorems": [
    "Attitude.Props.C151_rotation",
    "Attitude.Props.C151_counterclockwise",
    "Attitude.Props.C151_axis_aligned",
    "Attitude.Props.C151_two_views"
   ],
   "note": "Universal."
  },
  {
   "property": "C152",
   "status": "proved",
   "theorems": [
    "Attitude.Props.C152_agrees",
    "Attitude.Props.C152_center",
    "Attitude.Props.C152_origin_distance"
   ],
   "note": "sympy expressions are modelled by their real values."
  },
  {
   "property": "C153",
   "status": "partial",
   "theorems": [
    "Attitude.Props.C153_test_svd",
    "Attitude.Props.C153_test_svd_loaded",
    "Attitude.Props.C153_covariance_false"
   ],
   "note": "The first holds (for weights see C20). Refuted for the second: it is the Gram matrix of the points (proved), not a multiple of the covariance even for three points."
  },
  {
   "property": "C154",
   "status": "proved",
   "theorems": [
    "Attitude.Props.C154_plotted_iff",
    "Attitude.Props.C154_values",
    "Attitude.Props.C154_add_rows",
    "Attitude.Props.C154_rows"
   ],
   "note": "Both directions, for all contents of rows."
  },
  {
   "property": "C155",
   "status": "proved",
   "theorems": [
    "Attitude.Props.C155_add_rows",
    "Attitude.Props.C155_button"
   ],
   "note": "All spreadsheets."
  },
  {
   "property": "C156",
   "status": "partial",
   "theorems": [
    "Attitude.Props.C156_invariant",
    "Attitude.Props.C156_plotted",
    "Attitude.Props.C156_nothing_lost",
    "Attitude.Props.C156_other_columns",
    "Attitude.Props.C156_both_at_once",
    "Attitude.Props.C156_one_by_one_partial",
    "Attitude.Props.C156_one_by_one_false"
   ],
   "note": "The invariant is proved; errors entered together, or the maximum first, are kept. Refuted in general: entering the minimum first can exchange it with the old maximum, which is then overwritten."
  },
  {
   "property": "C157",
   "status": "partial",
   "theorems": [
    "Attitude.Props.C157_ok_is_read_partial",
    "Attitude.Props.C157_ok_false",
    "Attitude.Props.C157_invalid_false",
    "Attitude.Props.C157_empty_partial",
    "Attitude.Props.C157_clip_angle"
   ],
   "note": "Proved for the decimal texts: Number and parseFloat agree. Refuted for blank and hexadecimal texts (valid), text after numbers (invalid) and the number zero (empty)."
  },
  {
   "property": "C158",
   "status": "proved",
   "theorems": [
    "Attitude.Props.C158_ellipse_opacity"
   ],
   "note": "All errors."
  },
  {
   "property": "C159",
   "status": "partial",
   "theorems": [
    "Attitude.Props.C159_azimuth_partial",
    "Attitude.Props.C159_azimuth_false",
    "Attitude.Props.C159_dip"
   ],
   "note": "Proved for longitudes above -180. Refuted for the first meridian of the graticule: north is labelled 360 degrees."
  },
  {
   "property": "C160",
   "status": "partial",
   "theorems": [
    "Attitude.Props.C160_selection_partial",
    "Attitude.Props.C160_constructor_false"
   ],
   "note": "Proved for the handlers. Refuted for the page: its constructor uses this before super and always raises ReferenceError, so C160 to C165 describe the handlers with this constructor repaired."
  },
  {
   "property": "C161",
   "status": "partial",
   "theorems": [
    "Attitude.Props.C161_group",
    "Attitude.Props.C161_single",
    "Attitude.Props.C161_list_partial",
    "Attitude.Props.C161_list_false"
   ],
   "note": "The list can be drawn if all members of groups are on the page; otherwise refuted: undefined is highlighted, and the list raises TypeError."
  },
  {
   "property": "C162",
   "status": "partial",
   "theorems": [
    "Attitude.Props.C162_list_partial",
    "Attitude.Props.C162_same_uid_false"
   ],
   "note": "Proved for pages with distinct ids and complete groups; refuted for two measurements with the same id (a click on one marks both)."
  },
  {
   "property": "C163",
   "status": "partial",
   "theorems": [
    "Attitude.Props.C163_component",
    "Attitude.Props.C163_page_partial",
    "Attitude.Props.C163_page_false",
    "Attitude.Props.C163_hover_false"
   ],
   "note": "Proved for arrays that are not changed in place. Refuted for the notebook page: clicks while only the selection is shown are not drawn. Refuted for the web application: it passes no handler, so the mouse over a measurement raises TypeError."
  },
  {
   "property": "C164",
   "status": "partial",
   "theorems": [
    "Attitude.Props.C164_page",
    "Attitude.Props.C164_component_false"
   ],
   "note": "Proved for the page. Refuted for the component: if a measurement is first highlighted in the same update in which a form is switched, nothing is."
  },
  {
   "property": "C165",
   "status": "partial",
   "theorems": [
    "Attitude.Props.C165_center",
    "Attitude.Props.C165_show_all_partial",
    "Attitude.Props.C165_show_all_false"
   ],
   "note": "The second is proved for nonempty selections and refuted after \"Clear selection\": nothing is shown and the button is disabled. Dragging the globe is not modelled."
  },
  {
   "property": "C166",
   "status": "partial",
   "theorems": [
    "Attitude.Props.C166_scale_partial",
    "Attitude.Props.C166_in_view_false"
   ],
   "note": "Proved but for the horizontal extent. Refuted: planes can be out of view horizontally, and planes above each other have no scale (xsize is assigned a function)."
  },
  {
   "property": "C167",
   "status": "partial",
   "theorems": [
    "Attitude.Props.C167_raw",
    "Attitude.Props.C167_dip_partial",
    "Attitude.Props.C167_down_false"
   ],
   "note": "Proved for third axes that do not point down. Refuted for all others, which the SVD may return: the slope then exceeds 90 degrees."
  },
  {
   "property": "C168",
   "status": "partial",
   "theorems": [
    "Attitude.Props.C168_axes_partial",
    "Attitude.Props.C168_drawn_partial",
    "Attitude.Props.C168_axes_false",
    "Attitude.Props.C168_strike_ignored_false"
   ],
   "note": "Partial: versor_toRotationMatrix comes from a module that is not in the repository. Proved if the axes are the rows of its matrix; refuted (the strike is ignored by the third axis) if they are its columns."
  },
  {
   "property": "C169",
   "status": "partial",
   "theorems": [
    "Attitude.Props.C169_python_frontend_partial",
    "Attitude.Props.C169_order_false"
   ],
   "note": "Partial for the reason given for C168, and because the errors have to be given to Python as (max, min): in the order (min, max) the two errors are exchanged, which is proved as C169_order_false."
  },
  {
   "property": "C170",
   "status": "partial",
   "theorems": [
    "Attitude.Props.C170_shows",
    "Attitude.Props.C170_prompt",
    "Attitude.Props.C170_page",
    "Attitude.Props.C170_strike_false",
    "Attitude.Props.C170_missing_false",
    "Attitude.Props.C170_not_a_number"
   ],
   "note": "Proved for measurements whose strike, dip and errors are numbers. Refuted: a strike within 0.05 degrees of 360 is shown as 360.0; a missing strike, dip or error is shown as 0.0, and missing errors are not shown as 'No errors recorded'."
  },
  {
   "property": "C171",
   "status": "proved",
   "theorems": [
    "Attitude.Props.C171_labels",
    "Attitude.Props.C171_lines"
   ],
   "note": "Universal over projection and intersection routines that meet their contract."
  },
  {
   "property": "C172",
   "status": "partial",
   "theorems": [
    "Attitude.Props.C172_sides_partial",
    "Attitude.Props.C172_behind_false",
    "Attitude.Props.C172_vertical"
   ],
   "note": "Proved for views turned by less than 90 degrees; refuted for those turned by more (the texts do not follow the view)."
  },
  {
   "property": "C173",
   "status": "proved",
   "theorems": [
    "Attitude.Props.C173_exact_recovery"
   ],
   "note": "Universal; specification independent of the code: points q + x heading(s) + y plunging(s+90,d)."
  },
  {
   "property": "C174",
   "status": "proved",
   "theorems": [
    "Attitude.Props.C174_zero_errors_iff_exact"
   ],
   "note": "Both directions."
  },
  {
   "property": "C175",
   "status": "proved",
   "theorems": [
    "Attitude.Props.C175_vertical_exaggeration"
   ],
   "note": "Universal."
  },
  {
   "property": "C176",
   "status": "proved",
   "theorems": [
    "Attitude.Props.C176_rigid_motion"
   ],
   "note": "The plane is determined if the best plane is unique (s1 > s2)."
  },
  {
   "property": "C177",
   "status": "proved",
   "theorems": [
    "Attitude.Props.C177_repeated_points",
    "Attitude.Props.C177_order_of_points"
   ],
   "note": "Strike and dip for unique best planes; strike up to 180 degrees for vertical and horizontal planes as in C11."
  },
  {
   "property": "C178",
   "status": "proved",
   "theorems": [
    "Attitude.Props.C178_mirror_image"
   ],
   "note": "Universal over data and SVD routines."
  },
  {
   "property": "C179",
   "status": "proved",
   "theorems": [
    "Attitude.Props.C179_more_points"
   ],
   "note": "Universal."
  },
  {
   "property": "C180",
   "status": "proved",
   "theorems": [
    "Attitude.Props.C180_parallel_planes",
    "Attitude.Props.C180_same_plane"
   ],
   "note": "Optimality over all unit normals and all choices of offsets."
  },
  {
   "property": "C181",
   "status": "proved",
   "theorems": [
    "Attitude.Props.C181_nominal",
    "Attitude.Props.C181_errors"
   ],
   "note": "For axes with positive lengths."
  },
  {
   "property": "C182",
   "status": "proved",
   "theorems": [
    "Attitude.Props.C182_shown_iff",
    "Attitude.Props.C182_opposite",
    "Attitude.Props.C182_compass_always",
    "Attitude.Props.C182_radius",
    "Attitude.Props.C182_inside",
    "Attitude.Props.C182_text"
   ],
   "note": "Texts within 20 pixels of the middle of the drawing are centered on their points, this is not excluded."
  },
  {
   "property": "C183",
   "status": "partial",
   "theorems": [
    "Attitude.Props.C183_axis_partial",
    "Attitude.Props.C183_side_false",
    "Attitude.Props.C183_horizontal"
   ],
   "note": "Proved up to the side of the dip direction; refuted for the side: data with the same strike, dip and rake and different axes. Missing: the side."
  },
  {
   "property": "C184",
   "status": "proved",
   "theorems": [
    "Attitude.Props.C184_best_line",
    "Attitude.Props.C184_residuals",
    "Attitude.Props.C184_exact",
    "Attitude.Props.C184_offset",
    "Attitude.Props.C184_slope",
    "Attitude.Props.C184_error"
   ],
   "note": "C184_best_line (optimal among all lines, with its value), C184_residuals, C184_exact, C184_offset, C184_slope, C184_error."
  },
  {
   "property": "C185",
   "status": "partial",
   "theorems": [
    "Attitude.Props.C185_accepted",
    "Attitude.Props.C185_no_orientation_false",
    "Attitude.Props.C185_explained_false"
   ],
   "note": "C185_accepted holds; C185_no_orientation_false and C185_explained_false show what the code does instead of giving an orientation or a measure of fit."
  },
  {
   "property": "C186",
   "status": "partial",
   "theorems": [
    "Attitude.Props.C186_shell_only",
    "Attitude.Props.C186_shell_only_false"
   ],
   "note": "C186_shell_only: exactly the points at which the quadratic form is at most 1e-8 in absolute value are accepted, so every point of the surface is. Missing: only these. Refuted by C186_shell_only_false: for every conic and every point there is a positive multiple of the conic, with the same surface, that accepts the point."
  },
  {
   "property": "C187",
   "status": "partial",
   "theorems": [
    "Attitude.Props.C187_slice_line_with_axes",
    "Attitude.Props.C187_slice_line_false"
   ],
   "note": "C187_slice_line_with_axes holds for a direction that is given. Missing: the default. Refuted by C187_slice_line_false for every line that is not parallel to an axis: the direction chosen is not along the line, and the slice meets the line only in one point."
  },
  {
   "property": "C188",
   "status": "proved",
   "theorems": [
    "Attitude.Props.C188_image",
    "Attitude.Props.C188_injective"
   ],
   "note": "Universal, by induction over the bytes. The decoder is written from the standards, apart from the encoder."
  },
  {
   "property": "C189",
   "status": "partial",
   "theorems": [
    "Attitude.Props.C189_flat_partial",
    "Attitude.Props.C189_python3_false"
   ],
   "note": "Holds with Python 2. Missing: Python 3, for which C189_python3_false shows that the function always fails, because dictionaries have no itervalues."
  },
  {
   "property": "C190",
   "status": "partial",
   "theorems": [
    "Attitude.Props.C190_bootstrap_false",
    "Attitude.Props.C190_accepted"
   ],
   "note": "Refuted: the function replaces the one of the same name that it imports, so that it calls itself with an argument it does not have. Missing: everything; every call is a TypeError. C190_accepted says which calls Python accepts."
  },
  {
   "property": "C191",
   "status": "partial",
   "theorems": [
    "Attitude.Props.C191_rectangle_partial",
    "Attitude.Props.C191_default_square",
    "Attitude.Props.C191_position_false",
    "Attitude.Props.C191_resize_false",
    "Attitude.Props.C191_center_position_false"
   ],
   "note": "A rectangle without options is the square within the margins. Size, position and clipping hold for all sequences of calls, centering for rectangles without a given position. Missing: centering with a position, centerPosition and resizing, all of which are refuted: the projection is centered as if the position were the margin, and __setScale moves it to the middle of a square."
  },
  {
   "property": "C192",
   "status": "partial",
   "theorems": [
    "Attitude.Props.C192_dip_partial",
    "Attitude.Props.C192_azimuth_false"
   ],
   "note": "Labels of the dip are on the lower edge. Missing: 25 pixels at each end of the lower edge, where crossing lines get no label, and the azimuth: C192_azimuth_false shows that its labels are 20 pixels left of the right edge, partly above the plot."
  },
  {
   "property": "C193",
   "status": "partial",
   "theorems": [
    "Attitude.Props.C193_range_partial",
    "Attitude.Props.C193_360_false"
   ],
   "note": "The dip is never nan and in its range, the strike is at least 0. Missing: strike below 360, which C193_360_false refutes for double precision: for all planes that dip east and a trace to the north, strike + 360 is rounded to 360 (the trailing part is lost in the sum)."
  },
  {
   "property": "C194",
   "status": "proved",
   "theorems": [
    "Attitude.Props.C194_accuracy"
   ],
   "note": "Universal. The bound 10^-7 is the square root of the unit roundoff up to a small factor, which is what flat planes lose through arccos."
  },
  {
   "property": "C195",
   "status": "partial",
   "theorems": [
    "Attitude.Props.C195_cosine",
    "Attitude.Props.C195_angle_partial",
    "Attitude.Props.C195_itself_false"
   ],
   "note": "The cosine is accurate for all vectors; the angle is for those that are not parallel up to rounding. Missing: vectors that are all but parallel, for which C195_itself_false refutes the claim: the angle of a normal with itself can be nan, because the quotient is rounded to more than 1 and not clipped."
  },
  {
   "property": "C196",
   "status": "partial",
   "theorems": [
    "Attitude.Props.C196_tilt_partial",
    "Attitude.Props.C196_exact",
    "Attitude.Props.C196_unstable_false"
   ],
   "note": "The squared sine of the tilt is bounded by the movement over the gap of the squared singular values; for points of an exact plane the sine is at most twice the movement over the second singular value. Missing: data whose second and third singular values are equal, for which C196_unstable_false shows that the smallest movement can turn the plane by a right angle (no fit of a plane could do otherwise)."
  },
  {
   "property": "C197",
   "status": "proved",
   "theorems": [
    "Attitude.Props.C197_singular_values"
   ],
   "note": "All three singular values, without conditions."
  },
  {
   "property": "C198",
   "status": "proved",
   "theorems": [
    "Attitude.Props.C198_dip_at_most"
   ],
   "note": "Universal. The dip direction is compared if the regression is not horizontal."
  },
  {
   "property": "C199",
   "status": "proved",
   "theorems": [
    "Attitude.Props.C199_extents_grow",
    "Attitude.Props.C199_confirmed"
   ],
   "note": "The plane is compared where it is unique (second singular value above the third); its normal if it is not vertical, strike and dip if it is not horizontal either (see C13)."
  },
  {
   "property": "C200",
   "status": "partial",
   "theorems": [
    "Attitude.Props.C200_confirmed_errors_partial",
    "Attitude.Props.C200_confirmed_larger_false"
   ],
   "note": "Holds while the errors of the first fit do not exceed its in-plane eigenvalues; the quantiles of the F distribution are shown to meet the hypothesis. Missing: larger errors. C200_confirmed_larger_false: at 95%, for every set of six points not in one plane, adding their mean as a seventh makes both sampling errors larger."
  },
  {
   "property": "C201",
   "status": "partial",
   "theorems": [
    "Attitude.Props.C201_centered_partial",
    "Attitude.Props.C201_integers",
    "Attitude.Props.C201_constant_false"
   ],
   "note": "The error is at most 4 (h + 2) units of rounding of the largest coordinate, for sums of h additions one after the other; integers whose mean is an integer are centered exactly. Missing: exactness otherwise. C201_constant_false: three elevations of 0.1 are centered to -2^-56 rather than zero, in each order of summation."
  },
  {
   "property": "C202",
   "status": "proved",
   "theorems": [
    "Attitude.Props.C202_strike_dip"
   ],
   "note": "The decomposition of LAPACK is any that is backward stable for the number of points, the mathematical library any with a bounded error. Shown for fits whose second singular value is larger than the third (see C196 for the others)."
  },
  {
   "property": "C203",
   "status": "proved",
   "theorems": [
    "Attitude.Props.C203_singular_values"
   ],
   "note": "All three singular values, without conditions on the gaps."
  },
  {
   "property": "C204",
   "status": "partial",
   "theorems": [
    "Attitude.Props.C204_floor",
    "Attitude.Props.C204_limit_partial",
    "Attitude.Props.C204_vanish_false"
   ],
   "note": "The errors come arbitrarily close to the angles arctan(s3/s1) and arctan(s3/s2) of the scatter as measurements are repeated, and are never smaller than these, for all data, levels and both methods. Missing: that they vanish, which C204_vanish_false refutes for all points that are not in one plane."
  },
  {
   "property": "C205",
   "status": "proved",
   "theorems": [
    "Attitude.Props.C205_consistent",
    "Attitude.Props.C205_strike_dip"
   ],
   "note": "Strike modulo 360 and for dips other than zero; dip below 90."
  },
  {
   "property": "C206",
   "status": "partial",
   "theorems": [
    "Attitude.Props.C206_many_points_partial",
    "Attitude.Props.C206_three_points_false"
   ],
   "note": "For many points the errors contain the true plane with probability one at all levels, even at level zero; for three points with probability zero at all levels (C206_three_points_false). Missing: that the share is the level, which these two refute."
  },
  {
   "property": "C207",
   "status": "partial",
   "theorems": [
    "Attitude.Props.C207_equal_errors_partial",
    "Attitude.Props.C207_vertical_errors_false"
   ],
   "note": "True for equal errors of the coordinates (C207_equal_errors_partial). If only the elevation has errors it is false for every inclined plane: with probability one the dip stays above the true dip by a fixed amount (C207_vertical_errors_false)."
  },
  {
   "property": "C208",
   "status": "partial",
   "theorems": [
    "Attitude.Props.C208_vertical_errors_partial",
    "Attitude.Props.C208_equal_errors_false"
   ],
   "note": "True if only the elevation has errors (C208_vertical_errors_partial). With equal errors of the coordinates it is false for every inclined plane: with probability one the dip stays below the true dip by a fixed amount (C208_equal_errors_false). Together with C207: neither kind of fit is right for both kinds of errors."
  },
  {
   "property": "C209",
   "status": "partial",
   "theorems": [
    "Attitude.Props.C209_area",
    "Attitude.Props.C209_line_partial",
    "Attitude.Props.C209_short_line_false"
   ],
   "note": "True for areas (C209_area). For lines it is true if the points are at least half a cell away from the edges of the window that is read (C209_line_partial). It is false for others: every line around a triangle within one cell is fitted exactly by a horizontal plane, with zero errors, however steep the model is (C209_short_line_false)."
  },
  {
   "property": "C210",
   "status": "partial",
   "theorems": [
    "Attitude.Props.C210_one_point_false",
    "Attitude.Props.C210_one_point_partial",
    "Attitude.Props.C210_one_elevation_false"
   ],
   "note": "False for both kinds of fits. Principal components: a point at distance t in any direction e turns the plane so that the cosine between its normal and e is at most 3R/t, R the root of the sum of squares of the other coordinates (C210_one_point_false). Regression: one wrong elevation makes the dip as steep as one likes (C210_one_elevation_false). What remains is a bound by the distance of the wrong point over the second singular value (C210_one_point_partial)."
  },
  {
   "property": "C211",
   "status": "proved",
   "theorems": [
    "Attitude.Props.C211_small_errors",
    "Attitude.Props.C211_tilt"
   ],
   "note": "Proved, with the constant that is attained by a tilt along the smallest extent of the positions."
  },
  {
   "property": "C212",
   "status": "partial",
   "theorems": [
    "Attitude.Props.C212_centered_partial",
    "Attitude.Props.C212_integers",
    "Attitude.Props.C212_order_false",
    "Attitude.Props.C212_strike_dip"
   ],
   "note": "Exactly true for integers with an integer mean (C212_integers). In general the centered coordinates agree up to 8(h+2) unit roundoffs of the largest coordinate (C212_centered_partial) and both planes are within the same bound of the exact one (C212_strike_dip). Equality is false: three points for which giving the first one last changes the centered coordinates (C212_order_false)."
  },
  {
   "property": "C213",
   "status": "partial",
   "theorems": [
    "Attitude.Props.C213_parallel_beds",
    "Attitude.Props.C213_same_plane_false"
   ],
   "note": "Proved for same_plane=False (C213_parallel_beds). False for same_plane=True: two exact measurements of flat beds above each other are given a dip (C213_same_plane_false)."
  },
  {
   "property": "C214",
   "status": "proved",
   "theorems": [
    "Attitude.Props.C214_members",
    "Attitude.Props.C214_one_plane"
   ],
   "note": "C214_members with the condition for equality, C214_one_plane; members of any shapes and numbers of points."
  },
  {
   "property": "C215",
   "status": "partial",
   "theorems": [
    "Attitude.Props.C215_residuals_partial",
    "Attitude.Props.C215_angular_errors_false"
   ],
   "note": "False for the angular errors: four points exactly in a horizontal plane, a fifth above them, the fit is vertical and both angular errors are smaller than any given positive number (C215_angular_errors_false). True for the residuals: the sum of their squares is at least the squared sine of the angle between the planes times the least extent of the right points in their plane (C215_residuals_partial)."
  },
  {
   "property": "C216",
   "status": "partial",
   "theorems": [
    "Attitude.Props.C216_second_partial",
    "Attitude.Props.C216_line_false"
   ],
   "note": "False: both errors are zero at all levels, and each plane through the line is the result for some decomposition that meets numpy's contract (C216_line_false). The second singular value is zero exactly for points on a line (C216_second_partial), but nothing tests it."
  },
  {
   "property": "C217",
   "status": "partial",
   "theorems": [
    "Attitude.Props.C217_errors_partial",
    "Attitude.Props.C217_jump_false"
   ],
   "note": "Proved while the errors are at most half of the extent of the data: the change is at most five times the distance moved over the extent, times the root of one plus the relative width (C217_errors_partial). Missing: other data. C217_jump_false: for points on a line the smallest movement can change an error from 0 to 45 degrees or more."
  },
  {
   "property": "C218",
   "status": "proved",
   "theorems": [
    "Attitude.Props.C218_area",
    "Attitude.Props.C218_block"
   ],
   "note": "C218_area for all masks in terms of the extent of the valid cells, C218_block for rectangles. For principal components the sine of the angle to the true plane is at most twice the bound. The errors may be systematic."
  },
  {
   "property": "C219",
   "status": "proved",
   "theorems": [
    "Attitude.Props.C219_spread",
    "Attitude.Props.C219_copies"
   ],
   "note": "C219_spread: total squared singular values add up, the largest at most and the smallest at least add up. C219_copies: for translated copies all singular values grow by the square root of the number; strike and dip stay (unless the plane is horizontal, or vertical up to 180 degrees; unique best plane); errors are at least the angles of the scatter of one."
  },
  {
   "property": "C220",
   "status": "proved",
   "theorems": [
    "Attitude.Props.C220_unique",
    "Attitude.Props.C220_round",
    "Attitude.Props.C220_implementation"
   ],
   "note": "C220_unique, C220_round (otherwise all lines through the mean are equally good), C220_implementation (the attribute strike too, unless the line is vertical)."
  },
  {
   "property": "C221",
   "status": "partial",
   "theorems": [
    "Attitude.Props.C221_orientation_partial",
    "Attitude.Props.C221_errors_false"
   ],
   "note": "Singular values, strike and dip stay (C221_orientation_partial). The errors become strictly smaller, for every group that does not fit exactly, as long as the errors do not exceed the extent of the data (C221_errors_false): the points are counted although their mean is subtracted, that is, the offsets fitted for each member are not subtracted from the degrees of freedom."
  },
  {
   "property": "C222",
   "status": "proved",
   "theorems": [
    "Attitude.Props.C222_strike_dip"
   ],
   "note": "C222_strike_dip: almost surely, for all tolerances, from some number of traces on and for all translations of the traces; dips below 90 degrees, the strike modulo 360 and only for beds that are not horizontal. All traces have the same number of points."
  },
  {
   "property": "C223",
   "status": "proved",
   "theorems": [
    "Attitude.Props.C223_succeeds",
    "Attitude.Props.C223_exceptions"
   ],
   "note": "C223_succeeds, C223_exceptions: exact conditions for success and for each of AttributeError, GroupedPlaneError, TypeError (unknown keyword) and ValueError."
  },
  {
   "property": "C224",
   "status": "partial",
   "theorems": [
    "Attitude.Props.C224_single_partial",
    "Attitude.Props.C224_groups_partial",
    "Attitude.Props.C224_groups_false"
   ],
   "note": "C224_single_partial: true for single planes. C224_groups_false: false for groups of traces with parallel planes; each trace is centred by its own mean but only one degree of freedom is subtracted, so the estimate of groups of traces of m points converges to (1 - 1/m) of the true variance (C224_groups_partial), a third too small for traces of three points."
  },
  {
   "property": "C225",
   "status": "proved",
   "theorems": [
    "Attitude.Props.C225_errors"
   ],
   "note": "C225_errors: explicit bound, with the errors of the decomposition, of the quantile and of the arctangent as parameters. Overflow and underflow are not modelled."
  },
  {
   "property": "C226",
   "status": "partial",
   "theorems": [
    "Attitude.Props.C226_dip",
    "Attitude.Props.C226_strike_partial",
    "Attitude.Props.C226_points_partial",
    "Attitude.Props.C226_horizontal_false",
    "Attitude.Props.C226_vertical_false"
   ],
   "note": "C226_dip holds always. C226_strike_partial and C226_points_partial: strikes only away from level and vertical planes; C226_horizontal_false and C226_vertical_false give, for every positive angle, two fits that close with strikes 0 and 180."
  },
  {
   "property": "C227",
   "status": "proved",
   "theorems": [
    "Attitude.Props.C227_dip",
    "Attitude.Props.C227_strike",
    "Attitude.Props.C227_attained",
    "Attitude.Props.C227_dip_range"
   ],
   "note": "For axes other than zero, where the angular error is less than 90 degrees."
  },
  {
   "property": "C228",
   "status": "partial",
   "theorems": [
    "Attitude.Props.C228_inflated_partial",
    "Attitude.Props.C228_variance_false",
    "Attitude.Props.C228_four_partial",
    "Attitude.Props.C228_repeated_false"
   ],
   "note": "The sum of squared residuals is not divided by the degrees of freedom (the division is commented out), so the squares of the standard errors are on average n - 3 times the variances: C228_inflated_partial (with unbiased slopes), right only for four points (C228_four_partial); C228_variance_false for every larger number. C228_repeated_false: measuring all points k times leaves them unchanged."
  },
  {
   "property": "C229",
   "status": "partial",
   "theorems": [
    "Attitude.Props.C229_points",
    "Attitude.Props.C229_computed",
    "Attitude.Props.C229_precedence",
    "Attitude.Props.C229_given",
    "Attitude.Props.C229_no_points",
    "Attitude.Props.C229_python",
    "Attitude.Props.C229_moved_false"
   ],
   "note": "Proved for points without centered points, with the mean taken if no position is given, for what to_mapping sends, for given centered points, and that no points and no position are refused. Refuted if mean and center both are given and differ: the points are moved by the difference."
  },
  {
   "property": "C230",
   "status": "partial",
   "theorems": [
    "Attitude.Props.C230_shown",
    "Attitude.Props.C230_position",
    "Attitude.Props.C230_hyperbolas",
    "Attitude.Props.C230_groups",
    "Attitude.Props.C230_traces",
    "Attitude.Props.C230_no_center_false",
    "Attitude.Props.C230_groups_alone_false",
    "Attitude.Props.C230_mean_false"
   ],
   "note": "Proved for measurements with a center and without a mean. Refuted otherwise: a single measurement without center (every ReconstructedPlane) makes everything fail, groups without members too, and mean moves a plane away from the middle."
  },
  {
   "property": "C231",
   "status": "partial",
   "theorems": [
    "Attitude.Props.C231_elevation",
    "Attitude.Props.C231_label_false",
    "Attitude.Props.C231_label_start_false",
    "Attitude.Props.C231_current_partial",
    "Attitude.Props.C231_data_false",
    "Attitude.Props.C231_leave_false",
    "Attitude.Props.C231_missing_member_false"
   ],
   "note": "Proved for elevations, the azimuth, and highlighting while the mouse is on a measurement. Refuted: the direction in the label is right for two azimuths only; new data is never drawn; highlighting stays when the mouse leaves; a group with a missing member is an error."
  },
  {
   "property": "C232",
   "status": "partial",
   "theorems": [
    "Attitude.Props.C232_planes",
    "Attitude.Props.C232_first_partial",
    "Attitude.Props.C232_count",
    "Attitude.Props.C232_class_partial",
    "Attitude.Props.C232_class_false",
    "Attitude.Props.C232_masks_false",
    "Attitude.Props.C232_mask_false"
   ],
   "note": "Proved: planes and their order in all views, classes and masks in the first view, the number of marked elements in all views, and the classes as long as the views keep the order of the data. Refuted: elements are sorted but planes are bound to them by position, so that a member and a plane without a group exchange their classes; masks stay those of the first view."
  },
  {
   "property": "C233",
   "status": "partial",
   "theorems": [
    "Attitude.Props.C233_before",
    "Attitude.Props.C233_shown_partial",
    "Attitude.Props.C233_repeated_partial",
    "Attitude.Props.C233_replace_false",
    "Attitude.Props.C233_removed",
    "Attitude.Props.C233_both",
    "Attitude.Props.C233_options_false"
   ],
   "note": "Proved: refusal before the net is drawn, the drawing into a container without elements of the kind (also after the container was removed, as the notebook does), planes and ellipses side by side, and what is shown after any sequence of calls. Refuted: a second call with no more data changes nothing that is drawn and returns an empty selection; an object that was used for planes sends ellipses into the container of the planes, in gray."
  },
  {
   "property": "C234",
   "status": "partial",
   "theorems": [
    "Attitude.Props.C234_called",
    "Attitude.Props.C234_last",
    "Attitude.Props.C234_named",
    "Attitude.Props.C234_labels_partial",
    "Attitude.Props.C234_labels_false",
    "Attitude.Props.C234_again_false",
    "Attitude.Props.C234_center_false",
    "Attitude.Props.C234_asking_false",
    "Attitude.Props.C234_other_false"
   ],
   "note": "Proved: a rotation calls exactly the functions last registered under each name, the newest one last; functions under names of their own stay; labels follow as long as they are added once and nothing is registered for rotate without a name. Refuted: such a registration stops the labels, a second set of labels stops the first, center tells nobody, looking up a function removes it, and redraw is never sent."
  },
  {
   "property": "C235",
   "status": "partial",
   "theorems": [
    "Attitude.Props.C235_mean",
    "Attitude.Props.C235_scatter",
    "Attitude.Props.C235_variance",
    "Attitude.Props.C235_standard_error_false",
    "Attitude.Props.C235_noise_mean",
    "Attitude.Props.C235_noise_scatter_partial",
    "Attitude.Props.C235_noise_scatter_false"
   ],
   "note": "Proved: the limits of means and of the scatter of resampled points, and of the means of noisy points; the exact limits of the variance of resampled means and of the scatter of noisy points. Refuted: the variance of resampled means tends to the mean square deviation over the number of data, which is less than the square of the standard error; noise adds its variance times the number of points to the scatter."
  },
  {
   "property": "C236",
   "status": "partial",
   "theorems": [
    "Attitude.Props.C236_coefficients_partial",
    "Attitude.Props.C236_narrow_false",
    "Attitude.Props.C236_refused_false"
   ],
   "note": "Proved: if the points are wide in plan compared to a stated bound for the errors of the normal equations, the program finds coefficients, and their error is at most a stated multiple of that bound. Refuted without this condition: for four points with integer coordinates in a strip 2^28 times as long as wide the computed matrix is singular, and the planes z = x and z = y give the same answer, whatever is used as the inverse."
  },
  {
   "property": "C237",
   "status": "proved",
   "theorems": [
    "Attitude.Props.C237_best",
    "Attitude.Props.C237_elevations"
   ],
   "note": "Gauss-Markov theorem for the coefficients and the predictions of the code."
  },
  {
   "property": "C238",
   "status": "proved",
   "theorems": [
    "Attitude.Props.C238_curves",
    "Attitude.Props.C238_vertical",
    "Attitude.Props.C238_poles"
   ],
   "note": "The poles for the layout without traditional_layout (with it they are mirrored, see C66)."
  },
  {
   "property": "C239",
   "status": "partial",
   "theorems": [
    "Attitude.Props.C239_scaled",
    "Attitude.Props.C239_best_plane",
    "Attitude.Props.C239_normal_iff_partial",
    "Attitude.Props.C239_exact_false",
    "Attitude.Props.C239_dip_false"
   ],
   "note": "False for unequal weights: the axes are not turned back from the scaled coordinates (the lines that would do so are comments, pca.py L191-192). The plane with the reported normal divided by the weights is the best one; the reported normal is perpendicular to it just if the weights of all coordinates in which it has a component agree. A plane dipping 45 degrees measured without errors is reported with a dip of arctan(1/k) for the weights 1, 1, k."
  },
  {
   "property": "C240",
   "status": "partial",
   "theorems": [
    "Attitude.Props.C240_defaults",
    "Attitude.Props.C240_reload_partial",
    "Attitude.Props.C240_reload_false",
    "Attitude.Props.C240_accepted",
    "Attitude.Props.C240_weights",
    "Attitude.Props.C240_normal_false"
   ],
   "note": "False in two ways: the reloaded axes of points on a line are nan, and with weights the normal of exact points is that of the line multiplied by the weights, which is right only for equal weights or lines along a coordinate axis. Fewer than three points and zero weights raise only without saved axes."
  },
  {
   "property": "C241",
   "status": "partial",
   "theorems": [
    "Attitude.Props.C241_signs_partial",
    "Attitude.Props.C241_vertical_false",
    "Attitude.Props.C241_odd_false",
    "Attitude.Props.C241_poles",
    "Attitude.Props.C241_same_points",
    "Attitude.Props.C241_turn"
   ],
   "note": "True for planes that are not vertical and an even number of samples (the default is 100), up to the order of the positions. For an odd number the samples are not symmetric and the curve depends on the sign of the first axis; for a vertical plane, and for poles, the sign of the third axis exchanges the sheets upper and lower."
  },
  {
   "property": "C242",
   "status": "partial",
   "theorems": [
    "Attitude.Props.C242_pivot_partial",
    "Attitude.Props.C242_many_false",
    "Attitude.Props.C242_three_false"
   ],
   "note": "Proved for every single outcome: whether the slope is within k standard errors depends neither on the plane nor on the size of the errors. Refuted: the share tends to one for every positive k, wherever the points are, since the squared standard errors are n-3 times too large; with three points it is within them only if it is exact."
  },
  {
   "property": "C243",
   "status": "partial",
   "theorems": [
    "Attitude.Props.C243_converges",
    "Attitude.Props.C243_default_partial",
    "Attitude.Props.C243_default_false",
    "Attitude.Props.C243_density_false"
   ],
   "note": "Proved: with more and more terms the series converges to the integral over the hemisphere, for all arguments; with the default of ten terms it is accurate to four decimals for arguments of at most one. Refuted: for concentrations of forty or more the default gives at most a third of the constant, and bingham_pdf (which does not use the series) is not normalised."
  },
  {
   "property": "C244",
   "status": "proved",
   "theorems": [
    "Attitude.Props.C244_slopes"
   ],
   "note": "Closed form, and exact condition for its existence."
  },
  {
   "property": "C245",
   "status": "partial",
   "theorems": [
    "Attitude.Props.C245_raises",
    "Attitude.Props.C245_complete",
    "Attitude.Props.C245_cleaned",
    "Attitude.Props.C245_saved_false"
   ],
   "note": "Proved for fits that are computed. Refuted for saved axes (axes=): strike and dip are given although mean and centered points are nan. Regression is not covered (what numpy.linalg.inv returns for nan is not specified)."
  },
  {
   "property": "C246",
   "status": "partial",
   "theorems": [
    "Attitude.Props.C246_type_of_dual_partial",
    "Attitude.Props.C246_from_axes_false"
   ],
   "note": "Refuted for everything made with from_axes or from_semiaxes: the dual of an ellipsoid around the origin is elliptical. Exact condition: it is hyperbolic if and only if the origin is outside of the ellipsoid, parabolic if and only if it is on the surface."
  },
  {
   "property": "C247",
   "status": "partial",
   "theorems": [
    "Attitude.Props.C247_same_curve_partial",
    "Attitude.Props.C247_oblique_false"
   ],
   "note": "Refuted for sections between strike and dip: the frontend measures the angle to the first axis on the map, Python in the plane. Exact condition proved: the curves are the same if and only if the two errors in the plane are equal, the section is along strike or dip, or the plane is horizontal; the vertex is always the same."
  },
  {
   "property": "C248",
   "status": "proved",
   "theorems": [
    "Attitude.Props.C248_positions",
    "Attitude.Props.C248_zero"
   ],
   "note": "Latitude is always a number; the position is within 10^-7 plus twice the accuracy of the library. The bound 10^-7 is due to arcsin near the poles."
  },
  {
   "property": "C249",
   "status": "proved",
   "theorems": [
    "Attitude.Props.C249_cone_is_traced",
    "Attitude.Props.C249_gap",
    "Attitude.Props.C249_plane_is_traced",
    "Attitude.Props.C249_closed"
   ],
   "note": "Distance bound 2\u03c0\u00b7max/min/(n\u22121) with the larger and the smaller error in the plane."
  },
  {
   "property": "C250",
   "status": "partial",
   "theorems": [
    "Attitude.Props.C250_one_line",
    "Attitude.Props.C250_parts_partial",
    "Attitude.Props.C250_separately_false",
    "Attitude.Props.C250_errors"
   ],
   "note": "Refuted near the edges of the window of a line; elsewhere the elevations are those of the elevation model in both cases. Without subdivision several lines are the same as one line through all points."
  },
  {
   "property": "C251",
   "status": "proved",
   "theorems": [
    "Attitude.Props.C251_branches"
   ],
   "note": "Even numbers of points; for odd ones the two ends of a gap are equally far, and rounding decides. Exact arithmetic."
  },
  {
   "property": "C252",
   "status": "partial",
   "theorems": [
    "Attitude.Props.C252_hyperbola_foci",
    "Attitude.Props.C252_normals_foci_partial",
    "Attitude.Props.C252_normals_foci_false",
    "Attitude.Props.C252_asymptotes",
    "Attitude.Props.C252_normal_tangents",
    "Attitude.Props.C252_view_partial",
    "Attitude.Props.C252_view_false",
    "Attitude.Props.C252_inverse_false"
   ],
   "note": "Refuted: for hyperbolas steeper than 45\u00b0 the marks are not the foci of the ellipse, for steeper than about 50\u00b0 the ellipse ends outside of the view, and the inverse hyperbola fails with NameError. The rest is proved."
  },
  {
   "property": "C253",
   "status": "partial",
   "theorems": [
    "Attitude.Props.C253_noise_partial",
    "Attitude.Props.C253_default_false",
    "Attitude.Props.C253_reserved"
   ],
   "note": "Proved with noise_axes as method. By default the method is sampling_axes, and the mapping has axes that are smaller than those of the fit. Entries called axes or covariance fail with TypeError."
  },
  {
   "property": "C254",
   "status": "proved",
   "theorems": [
    "Attitude.Props.C254_poles_are_traced",
    "Attitude.Props.C254_drawn",
    "Attitude.Props.C254_gap",
    "Attitude.Props.C254_closed"
   ],
   "note": "Poles on the side of the upper hemisphere of the axis, with traditional_layout=False for the direction itself."
  },
  {
   "property": "C255",
   "status": "partial",
   "theorems": [
    "Attitude.Props.C255_decomposition",
    "Attitude.Props.C255_spread",
    "Attitude.Props.C255_principal_axes",
    "Attitude.Props.C255_hyperbola_partial",
    "Attitude.Props.C255_hyperbola_flat_false",
    "Attitude.Props.C255_reconstructed_false"
   ],
   "note": "Refuted: the hyperbola of points on a plane has infinite entries, and the reconstructed plane has the in-plane axes in the opposite order. The rest is proved."
  },
  {
   "property": "C256",
   "status": "partial",
   "theorems": [
    "Attitude.Props.C256_line_partial",
    "Attitude.Props.C256_missing_false",
    "Attitude.Props.C256_girdle_ring_false",
    "Attitude.Props.C256_pole_ring_false"
   ],
   "note": "Refuted: ellipse does not come back to its first point. Exactly the directions strictly between the first and the last point are missing from the line, with the cosine of their angle in closed form (16 degrees with 100 points and equal errors), and the first and the last position of every ring differ; d3 leaves out the last position of a ring, as GeoJSON has it equal to the first. Everything else of the great circle is drawn."
  },
  {
   "property": "C257",
   "status": "partial",
   "theorems": [
    "Attitude.Props.C257_cone_is_traced",
    "Attitude.Props.C257_plane_is_traced",
    "Attitude.Props.C257_gap",
    "Attitude.Props.C257_coarse_false"
   ],
   "note": "Proved with a distance that falls with the root of the number of points. Refuted: it does not fall with the number of points itself, since the sines of the angles, not the angles, are equally spaced; with equal errors some direction is at least sqrt(2/n) from all points (8 degrees for 100 points)."
  },
  {
   "property": "C258",
   "status": "partial",
   "theorems": [
    "Attitude.Props.C258_edges",
    "Attitude.Props.C258_values",
    "Attitude.Props.C258_exact_false"
   ],
   "note": "Proved: over an edge the drawn band contains the true band, is wider by at most b h^2/(8 a^2) and (b/a) h/2 on each side, and strictly wider inside. Refuted: it is not exact; with x values -1 and 1 and unit axes it is sqrt 2 times too wide at 0."
  },
  {
   "property": "C259",
   "status": "proved",
   "theorems": [
    "Attitude.Props.C259_poles_are_traced",
    "Attitude.Props.C259_gap",
    "Attitude.Props.C259_limit"
   ],
   "note": "The other half of C107, with a distance of (M/m)^2 pi sqrt(2/n) where M and m are the larger and the smaller in-plane error."
  },
  {
   "property": "C260",
   "status": "partial",
   "theorems": [
    "Attitude.Props.C260_polygons_partial",
    "Attitude.Props.C260_newest",
    "Attitude.Props.C260_stale_false",
    "Attitude.Props.C260_failed_update",
    "Attitude.Props.C260_update_before_drawing",
    "Attitude.Props.C260_nominal",
    "Attitude.Props.C260_by_name_false",
    "Attitude.Props.C260_edge"
   ],
   "note": "Proved for all sequences: there is one polygon per call of plot; the newest shows the latest data, and every other the data in force when the next plot was called; failed updates change nothing; an update before the first plot raises AttributeError but keeps the data; the nominal line is that of the data in force; precedence of the colours. Refuted: after a second plot the first polygon stays on the axes and is never updated again; and the class ignores its arguments when all are given by name, drawing a single point."
  },
  {
   "property": "C261",
   "status": "partial",
   "theorems": [
    "Attitude.Props.C261_girdle",
    "Attitude.Props.C261_normal",
    "Attitude.Props.C261_stereonet_pole_partial",
    "Attitude.Props.C261_polar_pole_partial",
    "Attitude.Props.C261_pole_false",
    "Attitude.Props.C261_same_directions",
    "Attitude.Props.C261_same_polygon_false"
   ],
   "note": "Proved: rings are closed with 1000 vertices; the two rings of the girdle are on opposite sides of the plane; the ring of the normal consists of poles of planes tangent to the error cone; every vertex is further from the plane (or the pole) than half the smaller error and closer than the larger; the plane is not changed. Refuted: with equal errors e no vertex of the pole error is at angle e or e/2; and the method draws its polygon in another layout than the function of the same name, so that polygons differ although the directions are the same."
  },
  {
   "property": "C262",
   "status": "partial",
   "theorems": [
    "Attitude.Props.C262_pole_widths",
    "Attitude.Props.C262_numbers",
    "Attitude.Props.C262_planes_partial",
    "Attitude.Props.C262_poles_partial"
   ],
   "note": "Partial for the reason given for C168: proved if the axes are the rows of the versor's matrix; C168_strike_ignored_false is the other convention. Errors that are not between 0 and 180 degrees are excluded. Error ellipses at level 1 (the default)."
  },
  {
   "property": "C263",
   "status": "partial",
   "theorems": [
    "Attitude.Props.C263_circle",
    "Attitude.Props.C263_rows_partial",
    "Attitude.Props.C263_limit_false"
   ],
   "note": "Partial for the reason given for C168. Vertices are meant; d3 joins them by great circles, which stay within the circle, a spherical cap not larger than a hemisphere. Refuted: clip angles from 89 to 90 degrees show the whole hemisphere."
  },
  {
   "property": "C264",
   "status": "partial",
   "theorems": [
    "Attitude.Props.C264_same_curves_partial",
    "Attitude.Props.C264_same_poles_partial",
    "Attitude.Props.C264_half_false"
   ],
   "note": "The code violates the plain reading: Python reports half-widths while reconstructErrors halves the numbers given (C264_half_false). The equality holds for doubled numbers and is partial because the rake does not tell the two sides of the dip direction apart (C49), because the matrix convention of the versor package is assumed (C168), and for even numbers of vertices (C241)."
  },
  {
   "property": "C265",
   "status": "partial",
   "theorems": [
    "Attitude.Props.C265_interpolated",
    "Attitude.Props.C265_sharp",
    "Attitude.Props.C265_line_partial"
   ],
   "note": "Proved; C265_line_partial asks for points half a cell away from the edges of the window read and for a line that is not along one row or column, outside of which C80 refutes the elevations. C265_sharp reaches the bound."
  },
  {
   "property": "C266",
   "status": "partial",
   "theorems": [
    "Attitude.Props.C266_height",
    "Attitude.Props.C266_coincident",
    "Attitude.Props.C266_units",
    "Attitude.Props.C266_caption_partial",
    "Attitude.Props.C266_caption_false"
   ],
   "note": "Proved but for the caption: it gives the extent of the residuals, between once and twice the longest residual, and equals it only for data that lie in one plane (C266_caption_false)."
  },
  {
   "property": "C267",
   "status": "partial",
   "theorems": [
    "Attitude.Props.C267_sheet",
    "Attitude.Props.C267_interactive",
    "Attitude.Props.C267_clipped",
    "Attitude.Props.C267_switches",
    "Attitude.Props.C267_vertical",
    "Attitude.Props.C267_clip_partial",
    "Attitude.Props.C267_clip_false",
    "Attitude.Props.C267_component_vertical",
    "Attitude.Props.C267_rectangular_false"
   ],
   "note": "Proved but for two parts. The range of the clip angle is tested when the tab is opened (C267_clip_partial) and not when an angle is entered (C267_clip_false). RectangularStereonet, which the page does not show at present, never clears its element and keeps the drawings of all data it was given (C267_rectangular_false)."
  },
  {
   "property": "C268",
   "status": "partial",
   "theorems": [
    "Attitude.Props.C268_relative",
    "Attitude.Props.C268_equal",
    "Attitude.Props.C268_renamed_partial",
    "Attitude.Props.C268_renamed_false",
    "Attitude.Props.C268_order_false"
   ],
   "note": "The ratios and equal weights are proved. The code violates the rest: singular values are multiplied with the weights of the coordinates of the same number (pca.py L193). Exchanging x and y changes both errors whenever their weights differ (C268_renamed_false, for points not in one plane and errors smaller than the axes), and the order of the errors can be reversed by every pair of weights w_x < w_y (C268_order_false). Partial: orders of coordinates that keep the weights."
  },
  {
   "property": "C269",
   "status": "partial",
   "theorems": [
    "Attitude.Props.C269_close",
    "Attitude.Props.C269_least",
    "Attitude.Props.C269_limit",
    "Attitude.Props.C269_reported_partial",
    "Attitude.Props.C269_reported_false"
   ],
   "note": "The bound, the order and the limit are proved for the plane whose normal is that of the fit with each component divided by its weight (C239). The reported dip is refuted: it belongs to the plane in the scaled coordinates, its tangent is k times smaller (C269_reported_partial) and it tends to zero for all points (C269_reported_false)."
  },
  {
   "property": "C270",
   "status": "partial",
   "theorems": [
    "Attitude.Props.C270_regression",
    "Attitude.Props.C270_heights",
    "Attitude.Props.C270_linear",
    "Attitude.Props.C270_pca_false"
   ],
   "note": "Proved for the regression, also the standard errors for changed heights. Refuted for principal components: unless the points lie in one plane (C175) or the fit is horizontal or vertical, every sufficiently strong reduction of heights reduces the slope by more than its factor (C270_pca_false)."
  },
  {
   "property": "C271",
   "status": "partial",
   "theorems": [
    "Attitude.Props.C271_shown",
    "Attitude.Props.C271_plotted",
    "Attitude.Props.C271_columns",
    "Attitude.Props.C271_edit_partial",
    "Attitude.Props.C271_edit_false",
    "Attitude.Props.C271_reset"
   ],
   "note": "Refuted for edits: enhanceData expects rows that are null and the table shows them, but finalizeRow reads a cell of every row, so that with a single such row the handler of every edit of any row ends with an exception and nothing is stored until the sheet is reset (C271_edit_false); an edit is stored exactly if no row is null (C271_edit_partial). What is plotted is what the table shows under its titles (C271_columns)."
  },
  {
   "property": "C272",
   "status": "proved",
   "theorems": [
    "Attitude.Props.C272_picked",
    "Attitude.Props.C272_grey",
    "Attitude.Props.C272_unknown"
   ],
   "note": "Proved; chroma-js is a parameter. Also proved: a text that chroma does not know would empty the cell although the exception goes on."
  },
  {
   "property": "C273",
   "status": "partial",
   "theorems": [
    "Attitude.Props.C273_render",
    "Attitude.Props.C273_title",
    "Attitude.Props.C273_texts",
    "Attitude.Props.C273_again_false",
    "Attitude.Props.C273_dip_outside_false",
    "Attitude.Props.C273_azimuth_inside"
   ],
   "note": "Refuted: labels are added again by each drawing (C273_again_false), and in the rectangular plot all dip labels and the title of their axis are anchored five pixels below the lower end of the picture (C273_dip_outside_false); the azimuth labels are within it (C273_azimuth_inside), at an offset other than the one set."
  },
  {
   "property": "C274",
   "status": "partial",
   "theorems": [
    "Attitude.Props.C274_styles",
    "Attitude.Props.C274_sheet",
    "Attitude.Props.C274_unknown_false",
    "Attitude.Props.C274_opacity_partial",
    "Attitude.Props.C274_negative_false"
   ],
   "note": "Proved for sheets and for data with known colors. Refuted: for other data one unknown color ends the plot, later ellipses have no style and there are neither labels nor paths (C274_unknown_false); and the sheet accepts negative errors, whose opacities are negative, so that the ellipse cannot be seen (C274_negative_false)."
  },
  {
   "property": "C275",
   "status": "partial",
   "theorems": [
    "Attitude.Props.C275_copied_iff_partial",
    "Attitude.Props.C275_quotes_false",
    "Attitude.Props.C275_page",
    "Attitude.Props.C275_style"
   ],
   "note": "Proved for uids without quotation marks, backslashes and control characters, such as automatic ones, and exactly for these (C275_copied_iff_partial); refuted for others, as they are not escaped: the text for one measurement can be that for two others (C275_quotes_false)."
  },
  {
   "property": "C276",
   "status": "partial",
   "theorems": [
    "Attitude.Props.C276_last_given",
    "Attitude.Props.C276_returns",
    "Attitude.Props.C276_reset_false",
    "Attitude.Props.C276_gradient"
   ],
   "note": "Refuted for the scale of opacities (C276_reset_false): its initial value is null, and a method that is given null only reads."
  },
  {
   "property": "C277",
   "status": "partial",
   "theorems": [
    "Attitude.Props.C277_line_iff",
    "Attitude.Props.C277_off_false",
    "Attitude.Props.C277_length",
    "Attitude.Props.C277_mask",
    "Attitude.Props.C277_length_false",
    "Attitude.Props.C277_covers_iff"
   ],
   "note": "What holds: there is a line exactly if the element was drawn at some time while the line was asked for (C277_line_iff), and the first drawing sets the visible part (C277_mask). Refuted: turning the option off leaves the line (C277_off_false); the ends of the line are not scaled, so they agree with the border only at one pixel per unit (C277_length_false), and the line reaches over the visible part of all hyperbolas exactly if a unit has at most two pixels (C277_covers_iff)."
  },
  {
   "property": "C278",
   "status": "partial",
   "theorems": [
    "Attitude.Props.C278_measurements",
    "Attitude.Props.C278_surface_partial",
    "Attitude.Props.C278_nominal_false",
    "Attitude.Props.C278_blank_false",
    "Attitude.Props.C278_poles"
   ],
   "note": "Proved for error surfaces (C278_surface_partial) and poles (C278_poles), with the measurements of C163 (C278_measurements). Refuted for traces (C278_nominal_false): selecting the trace from its group to set its color makes the measurement its datum, and when all paths are drawn after that it loses its shape; so planes with an error above 45 degrees are not seen at all (C278_blank_false), and the mouse cannot find them."
  },
  {
   "property": "C279",
   "status": "partial",
   "theorems": [
    "Attitude.Props.C279_highlight_partial",
    "Attitude.Props.C279_both_false",
    "Attitude.Props.C279_rotate_false"
   ],
   "note": "Proved for the time right after the highlight changes, with planes or poles (C279_highlight_partial). Refuted: with planes and poles the highlighted planes vanish at once (C279_both_false), and any rotation takes all highlights away (C279_rotate_false), because setting the styles makes the measurement the datum of the path."
  },
  {
   "property": "C280",
   "status": "partial",
   "theorems": [
    "Attitude.Props.C280_identifies_partial",
    "Attitude.Props.C280_rake_false",
    "Attitude.Props.C280_no_errors_false",
    "Attitude.Props.C280_raises_iff",
    "Attitude.Props.C280_horizontal"
   ],
   "note": "Proved for the array that is hashed, with two errors: it determines strike, dip, rake, both errors and the error of the normal (C280_identifies_partial), and equal horizontal planes have the same array (C280_horizontal). Refuted otherwise: with other numbers of errors than none or two the plane is built but its hash raises ValueError (C280_raises_iff), a rake turned by 180 degrees is the same plane with another hash (C280_rake_false), and planes without errors are hashed like planes with errors of 90 degrees (C280_no_errors_false). Collisions of the digest are outside the model."
  },
  {
   "property": "C281",
   "status": "partial",
   "theorems": [
    "Attitude.Props.C281_shows",
    "Attitude.Props.C281_order",
    "Attitude.Props.C281_strike_false"
   ],
   "note": "Proved for labels, accuracy and undefined rakes (C281_shows) and order (C281_order). Refuted for the range: strikes above 359.995 are printed as 360.00, and every such strike is that of some measurements (C281_strike_false)."
  },
  {
   "property": "C282",
   "status": "partial",
   "theorems": [
    "Attitude.Props.C282_angles",
    "Attitude.Props.C282_zero_iff",
    "Attitude.Props.C282_order_false",
    "Attitude.Props.C282_dip_false",
    "Attitude.Props.C282_strike_false"
   ],
   "note": "Proved: angles and signs (C282_angles), zero exactly for three points or points on the plane (C282_zero_iff). Refuted: the first uncertainty goes with the dip although the strike is the first angle (C282_order_false); it is the standard error of a slope converted with degrees, so it is larger than the error of the dip for each plane that is not horizontal (C282_dip_false), and the second one is that of the strike only for dips of 45 degrees (C282_strike_false)."
  },
  {
   "property": "C283",
   "status": "proved",
   "theorems": [
    "Attitude.Props.C283_horizontal",
    "Attitude.Props.C283_round",
    "Attitude.Props.C283_once"
   ],
   "note": "Proved: exactly the horizontal directions (C283_horizontal), the labelled directions in their order (C283_round), parts have only ends in common (C283_once)."
  },
  {
   "property": "C284",
   "status": "partial",
   "theorems": [
    "Attitude.Props.C284_pca",
    "Attitude.Props.C284_linear_false",
    "Attitude.Props.C284_reconstructed_false"
   ],
   "note": "Proved for PCAOrientation (C284_pca). Refuted for LinearOrientation, which lacks singular_values and strike_dip_rake, so principal_axes, hash and to_mapping fail (C284_linear_false), and for ReconstructedPlane, for which only disabled, hash, center, centered_array and to_mapping work (C284_reconstructed_false); both theorems give exactly the attributes that fail and the missing names."
  },
  {
   "property": "C285",
   "status": "partial",
   "theorems": [
    "Attitude.Props.C285_range",
    "Attitude.Props.C285_returns_iff_false",
    "Attitude.Props.C285_turns",
    "Attitude.Props.C285_same"
   ],
   "note": "Proved: range (C285_range), whole turns up to one rounding per turn (C285_turns), numbers in range (C285_same). Refuted: it returns exactly for numbers of at most 2^56, for all larger ones its loop never ends because the subtraction is rounded away (C285_returns_iff_false). The package itself calls it only with sums of few angles."
  },
  {
   "property": "C286",
   "status": "partial",
   "theorems": [
    "Attitude.Props.C286_unit",
    "Attitude.Props.C286_components_false"
   ],
   "note": "Proved for arrays, with nan exactly for zeros (C286_unit). Refuted for components: the module defines the name twice, so that the definition for components is replaced and every call with other than one argument raises TypeError (C286_components_false)."
  },
  {
   "property": "C287",
   "status": "proved",
   "theorems": [
    "Attitude.Props.C287_action",
    "Attitude.Props.C287_products",
    "Attitude.Props.C287_homogeneous",
    "Attitude.Props.C287_refused"
   ],
   "note": "Proved (C287_action, C287_products, C287_homogeneous, C287_refused)."
  },
  {
   "property": "C288",
   "status": "partial",
   "theorems": [
    "Attitude.Props.C288_list_partial",
    "Attitude.Props.C288_single",
    "Attitude.Props.C288_nan_false",
    "Attitude.Props.C288_raises",
    "Attitude.Props.C288_collections_false"
   ],
   "note": "Exact condition for lists: each attitude has a mapping and no number in any of them is nan (C288_list_partial); one attitude on its own is shown like a list of it (C288_single); an exception of to_mapping is passed on (C288_raises). Missing: nan, where no exception is raised and none of the attitudes is shown, as NaN is not JSON (C288_nan_false); arrays, sets, generators and lists in lists, which are refused (C288_collections_false)."
  },
  {
   "property": "C289",
   "status": "partial",
   "theorems": [
    "Attitude.Props.C289_angle",
    "Attitude.Props.C289_first_axis_iff_partial",
    "Attitude.Props.C289_units_false"
   ],
   "note": "Acute exactly for positive lengths, strictly decreasing (C289_angle). Equal to the angular error of the first axis exactly for the length sqrt(h0 h2), so for the axis itself only if the variance along the normal is one (C289_first_axis_iff_partial). The unit matters for every data set: a variance is compared with a length (C289_units_false)."
  },
  {
   "property": "C290",
   "status": "partial",
   "theorems": [
    "Attitude.Props.C290_angle",
    "Attitude.Props.C290_signs_false",
    "Attitude.Props.C290_each",
    "Attitude.Props.C290_parallel_false"
   ],
   "note": "The angle is right for all fits, at most 90 degrees, zero exactly for parallel planes, whatever the signs (C290_angle). The errors are not: reversing the normal of the group replaces the error of the fit by its supplement, unless the fit is tilted across its first axis, when its error is taken to be 90 degrees (C290_signs_false); for parallel planes it is nan (C290_parallel_false). The module cannot be imported as it is (path is not defined); the function is modelled on its own."
  },
  {
   "property": "C291",
   "status": "partial",
   "theorems": [
    "Attitude.Props.C291_half_axes",
    "Attitude.Props.C291_standard_errors",
    "Attitude.Props.C291_order_false"
   ],
   "note": "Proved for every regression and solver (C291_half_axes, C291_standard_errors). Refuted in one respect: which of the two numbers is the longer half axis depends on the solver (C291_order_false)."
  },
  {
   "property": "C292",
   "status": "proved",
   "theorems": [
    "Attitude.Props.C292_closest",
    "Attitude.Props.C292_accuracy",
    "Attitude.Props.C292_sharp"
   ],
   "note": "Proved (C292_closest, C292_accuracy); C292_sharp reaches the bound for every georeferencing and size."
  },
  {
   "property": "C293",
   "status": "proved",
   "theorems": [
    "Attitude.Props.C293_read",
    "Attitude.Props.C293_marked"
   ],
   "note": "Proved (C293_read, C293_marked) for the models of parseFloat and Number, which are parts of JavaScript; the values are exact rather than rounded to floats."
  }
 ]
}