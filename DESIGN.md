# Design

## What is verified

The Python library `attitude` and the TypeScript packages of its frontend (read
as text in `/repo/attitude` and `/repo/frontend/packages`).  The model is a set of
Lean 4 functions that mirror the functions of the code branch by branch; every
definition cites the file and lines it models and says where it simplifies.
`lean/Verif/Model/*.lean` holds the model, `lean/Verif/Lemmas/*.lean` helper
lemmas, `lean/Verif/Props/*.lean` the specifications and property theorems
(named after the ids in `properties.jsonl`).

## Modelling decisions

* **Numbers.** Floating point numbers are idealised as real numbers, except in
  Rounding, RoundedFit, RoundedErrors, RoundedRegression, RoundedNet and RoundedTurn, where each operation of `centered`, `strike_dip`, `angle` and
  `angular_errors`, of the coefficients of a regression and of `iterative_plane_errors` is rounded.  The
  contract for the rounding used there is proved for rounding to 53 bits
  (`round53_contract`).  Overflow, underflow and signed zero are not modelled.  A NaN or infinity that the Python
  code can produce by dividing by zero is modelled as `none` (`Option`), never
  as Lean's `x / 0 = 0`, wherever the divisor can be zero on an input the
  property covers.
* **Exceptions.** `Except PyErr`, one constructor per exception class.
* **Arrays.** Fixed shape arrays are functions from `Fin`; code whose result
  depends on the shape of its input (Regression, spherical, stereonet ellipse)
  uses a two dimensional array with explicit dimensions.
* **External routines.** numpy's SVD is an arbitrary function that meets its
  documented contract (`A = U diag(s) V`, orthonormal factors, sorted
  non-negative `s`); theorems hold for every such function.  `scipy.stats`
  quantiles and `sha1` are parameters.  `mplstereonet.stereonet_math`
  `sph2cart`, `cart2sph` are transcribed from their documentation.
  `arctan2(y,x)` is `Complex.arg (x+iy)`.
* **Object identity.** Grouping and in-place updates use an explicit heap or a
  state record, so aliasing is visible.
* **JavaScript.** A number is an `Option ℝ` where it can be `NaN` or `undefined`;
  thrown errors are `Except JsErr`.  The DOM, d3 selections and React are not
  modelled: functions return the attributes they set, components are state
  machines.  d3's projections are transcribed from their definitions.  The
  quaternion functions that `reconstruct.ts` imports are not in the repository
  and are modelled from their mathematical definition, with the order of rows
  and columns as a parameter.

## When the code does not have the property

The property is kept as the user would state it.  The refutation is a theorem
named `..._false` (or similar) with a concrete witness, and what does hold is a
theorem with suffix `_partial`.

## Trusted base

Lean's kernel; the axioms `propext`, `Classical.choice`, `Quot.sound` that
Mathlib uses; the claim that the Lean definitions transcribe the cited lines;
the contracts of the external routines listed above.

## Plan per property

- **C01 centered removes the mean and nothing else.** Modelled: Coordinates.centered on `Fin n -> Vec 3`. Proof: finite-sum algebra; n=0 handled as its own branch (mean is 0/0). Status: proved. Universal over n and data; uniqueness theorem pins the result. Theorems: `C01_centered_zero_mean_same_shape`, `C01_centered_unique`, `C01_centered_idempotent`, `C01_centered_translation`.
- **C02 spherical/cartesian round trip.** Modelled: Coordinates.spherical / cartesian, pointwise and array shaped. Proof: polar identities of arccos/arg; expected to be violated (x and y come back swapped) -> refutation + partial. Status: partial. The claim is false of the code: cartesian uses sin(phi) for x. Missing: identity (only x=y points return). Also the direct composition raises for n<>3. Theorems: `C02_round_trip_swaps_x_y`, `C02_round_trip_false`, `C02_round_trip_partial`, `C02_composition_raises`, `C02_array_round_trip_swaps`.
- **C03 from_stereonet and to_stereonet are inverse.** Modelled: Rotations.fromStereonet/toStereonet on top of mplstereonet sph2cart/cart2sph. Proof: arg/arcsin of explicit unit vectors. Status: proved. Holds for all proper positions; both directions. Theorems: `C03_to_from_stereonet`, `C03_from_to_stereonet`, `C03_defined_everywhere`, `C03_from_stereonet_axes`.
- **C04 (lon,lat) positions are unit vectors and the stereonet axis swap is an isometry.** Modelled: Rotations.cartesian, stereonetTransformation. Proof: trigonometric identity, matrix identity. Status: proved. Holds for all inputs. Theorems: `C04_cartesian_unit`, `C04_stereonet_transformation`.
- **C05 rotations.transform maps v1 onto v2.** Modelled: Rotations.transform with elementwise exp. Proof: expected violated: diagonal of R is always 1 and all entries positive -> refutation for every non-parallel pair. Status: partial. The claim is false of the code for every pair of vectors (elementwise exp instead of matrix exponential). Missing: rotation and R v1 = v2. Theorems: `C05_transform_defined`, `C05_transform_never_orthogonal`, `C05_transform_false`, `C05_transform_misses_target`, `C05_transform_partial`, `C05_generator_partial`.
- **C06 The PCA plane is the best fit.** Modelled: Pca.fit with an arbitrary decomposition satisfying the SVD contract. Proof: reduce to sum s_i^2 (V m)_i^2 >= s_3^2; offset by Konig-Huygens. Status: proved. Optimality over every plane, value of the minimum, uniqueness when s1>s2; for every backend meeting the SVD contract (fits_exist shows one exists). Theorems: `C06_best_fit`, `C06_misfit_value`, `C06_best_fit_unique`.
- **C07 Residuals are the orthogonal misfits.** Modelled: Pca.residuals. Proof: matrix algebra from V V^T = 1 and A = U S V. Status: proved. All parts, including zero residual iff the data are coplanar. Theorems: `C07_residuals_are_misfits`, `C07_residuals_zero_iff_coplanar`.
- **C08 Rotated data is the same data in principal axes.** Modelled: Pca.rotated, eigenvalues. Proof: matrix algebra. Status: proved. All parts. Theorems: `C08_rotated_and_eigenvalues`.
- **C09 Fewer than three coordinates are refused.** Modelled: Pca.init error branch. Proof: case split. Status: proved. Both directions, default weights. Theorems: `C09_value_error_iff`, `C09_three_points_suffice`, `C09_saved_axes_never_raise`, `C09_measurement`.
- **C10 A fit can be recovered from its saved principal axes.** Modelled: Pca.loadSavedFit, Pca.U. Proof: column norms of V diag(s); refutation when a singular value is 0 (division by zero), partial otherwise. Status: partial. False for coplanar data (zero singular value gives nan axes). Holds when no singular value is zero. Missing: the degenerate case, where the code does not have the property. Theorems: `C10_saved_fit_partial`, `C10_saved_fit_coplanar_false`.
- **C11 Strike and dip are determined by the data.** Modelled: Pca.fit for two decompositions. Proof: uniqueness of the minimiser when s_2>s_3, then C13. Status: proved. For every pair of valid backends and every data set with a unique best plane (s1>s2); strike mod 360, mod 180 for vertical planes. C11_hypotheses_met shows non-vacuity. Theorems: `C11_strike_dip_equivariant`, `C11_strike_dip_determined`, `C11_hypotheses_met`.
- **C12 Strike is in [0,360) and dip in [0,90].** Modelled: Pca.strikeDip. Proof: range of arg and arccos. Status: proved. For every non-zero axis and every fit; undefined exactly for the zero vector. Theorems: `C12_ranges`, `C12_fit_ranges`, `C12_undefined_iff`.
- **C13 An upside-down normal gives the same strike and dip.** Modelled: Pca.strikeDip. Proof: arg of a negated complex number; refutation for vertical/horizontal planes. Status: partial. False for vertical and horizontal planes (strike reversed). Holds for all other axes. Missing: those two cases, where the code does not have the property. Theorems: `C13_sign_invariance_partial`, `C13_vertical_false`, `C13_horizontal_false`.
- **C14 Strike and dip obey the right-hand rule.** Modelled: Pca.strikeDip, Pca.normal. Proof: cos/sin of arg and arccos. Status: proved. For every fit. Theorems: `C14_right_hand_rule`, `C14_fit_right_hand_rule`.
- **C15 dip_direction reports a compass azimuth down the dip.** Modelled: Base.dipDirection. Proof: from C14; range part is violated (value may reach 450). Status: partial. The azimuth goes down dip but is not reduced to [0,360): witness reports 405. Missing: range. Theorems: `C15_dip_direction_partial`, `C15_dip_direction_false`.
- **C16 dip_dr is the unit dip vector.** Modelled: Pca.dipDr. Proof: cross product algebra; points up dip -> refutation. Status: partial. Unit, in plane, perpendicular to strike, steepest; but always points UP dip. Missing: direction. Theorems: `C16_dip_dr_partial`, `C16_points_up_dip_false`, `C16_undefined_iff_horizontal`.
- **C17 Rake is determined by the data.** Modelled: Pca.rake, Util.angle. Proof: arccos(-x)=pi-arccos x; refutation + partial. Status: partial. Range holds; the value depends on the backend's sign (r or 180-r), with a concrete data set. Missing: determinacy. Theorems: `C17_rake_range_partial`, `C17_rake_depends_on_sign`, `C17_rake_not_determined_false`.
- **C18 Reading errors from a fit does not change the fit.** Modelled: State machine over a fit object with aliased axes/V/normal. Proof: invariant over operation lists; uid part violated. Status: partial. Invariant over all query histories: data, normal, residuals, strike/dip (non-horizontal) preserved. Axes, uid and reconstruction change when the third axis points down. Missing: those. Theorems: `C18_queries_preserve_partial`, `C18_second_history_no_effect`, `C18_as_conic_changes_fit_false`, `C18_downward_axis_occurs`, `C18_horizontal_strike_false`.
- **C19 explained_variance is a proportion of variance.** Modelled: Pca.covarianceMatrix, explainedVariance. Proof: closed form sum of cubes; refutation + bounds. Status: partial. In [2/3,1]; but computed from cubes of singular values, so it overstates the proportion exactly when 0<s2<s0. Missing: equality. Theorems: `C19_explained_variance_partial`, `C19_overstated_false`, `C19_witness`.
- **C20 Weights are applied transparently.** Modelled: Pca.runSvd with weights. Proof: refutation witness + w = 1 case. Status: partial. Default = ones; equal weights transparent; exact characterisation for unequal weights; concrete failing case. Missing: transparency for unequal weights (the code does not have it). Theorems: `C20_default_weights_are_ones`, `C20_zero_weight_raises`, `C20_weights_reconstruct_iff_partial`, `C20_equal_weights_reconstruct`, `C20_unequal_weights_false`.
- **C21 Hyperbolic axes have the documented closed form.** Modelled: ErrorAxes.statisticalAxes, applyErrorScaling. Proof: case split on abs. Status: proved. Both methods, every fit, every level in [0,1); the variance_on_all_axes=False variant too. Theorems: `C21_closed_form`, `C21_variance_of_mean`.
- **C22 angular_errors returns (minimum, maximum).** Modelled: ErrorAxes.angularErrors. Proof: monotonicity of arctan; sampling proved, noise refuted by witness, and the order characterised exactly by factoring the difference of squares. Status: partial. Range holds for all fits, levels and methods; order holds for sampling, and for noise while the second in-plane error does not exceed its axis. The noise order fails on a concrete fit with the true F quantile. C22_order_exact tells exactly when the order is wrong: if and only if the noise method is used, the two singular values in the plane differ, and the length 2 z s3/sqrt(n-2) of the errors is between the ratio of the sum of their squares to their sum, and their sum; never while it is at most 0.82 s1 (C22_order_small_errors). Theorems: `C22_angular_errors_partial`, `C22_noise_order_false`, `C22_order_exact`, `C22_order_small_errors`.
- **C23 Higher confidence means larger angular errors.** Modelled: ErrorAxes.statisticalAxes in z. Proof: monotone while err<=nominal; refuted beyond; exact criterion by factoring the difference of squares. Status: partial. Holds while errors do not exceed the eigenvalues; otherwise both errors strictly decrease (the absolute value folds back), with a 6-point witness at 95%/99%. C23_exact tells exactly when an error does not decrease: with the sampling method if and only if the fit is exact or the product of the two quantiles is at most (n-1)/2, with the noise method if and only if s3 (w+w'+2ww') <= s (2+w+w') for the singular value s of the axis and w = 2z/sqrt(n-2). Theorems: `C23_monotone_partial`, `C23_higher_confidence_smaller_error_false`, `C23_witness`, `C23_exact`.
- **C24 Angular errors do not depend on units.** Modelled: ErrorAxes. Proof: homogeneity. Status: proved. For any two valid backends, translation included. Theorems: `C24_scale_invariant`.
- **C25 Normal errors and plane errors convert back and forth.** Modelled: ErrorInit.toNormalErrors/fromNormalErrors. Proof: field algebra. Status: proved. Both directions, third entry fixed, zero entries give none. Theorems: `C25_conversion_inverse`, `C25_zero_entry`, `C25_reciprocal`.
- **C26 hyperbolic_axes honours its options or reports an error.** Modelled: ErrorAxes.hyperbolicAxes as Except. Proof: refuted: misuse is swallowed. Status: partial. Accepted options are used; leftover options or method make all options be dropped silently; an unknown type silently means sampling. Missing: the error report. Theorems: `C26_options_used_partial`, `C26_options_dropped_false`, `C26_unknown_type_false`.
- **C27 The requested degrees of freedom are used.** Modelled: ErrorAxes.statisticalAxes kwargs record. Proof: refuted: noise ignores dof. Status: partial. Sampling uses k; noise uses k in the quantile only and differs from the specification for every k<>2 and every noisy fit. Missing: noise covariance with k. Theorems: `C27_dof_partial`, `C27_default_dof_agrees`, `C27_noise_dof_ignored_false`.
- **C28 Jolliffe axes use a lower bound in the plane.** Modelled: ErrorAxes.jolliffeAxes. Proof: refuted for every level<1. Status: partial. False for every level in (0,1): the quantile has the wrong tail, so the 'lower bound' exceeds the variance. The partial theorem keeps sign and order. Theorems: `C28_lower_bound_false`, `C28_order_partial`.
- **C29 Regression errors in the principal frame have zero slope.** Modelled: ErrorAxes.regressionAxes. Proof: normal equations in principal frame. Status: proved. Zero coefficients for every fit; closed form; degenerate cases characterised. Theorems: `C29_zero_regression`, `C29_closed_form`, `C29_degenerate`.
- **C30 Francq and Babamoradi axes are proportional to the eigenvalues.** Modelled: ErrorAxes.francqAxes, babamoradiAxes. Proof: algebra. Status: proved. Both functions as common factors of the eigenvalues. Theorems: `C30_francq`, `C30_babamoradi`.
- **C31 Regression is ordinary least squares.** Modelled: Regression.coefficients. Proof: normal equations, quadratic identity. Status: proved. Minimality, uniqueness, residual identities for every point set; singular exactly for points collinear in map view. Theorems: `C31_least_squares`, `C31_residuals`, `C31_singular_iff`.
- **C32 Regression accepts coordinates as three rows.** Modelled: Regression.init with centered-before-swap. Proof: refuted: coefficients are (-1,-1,0) whatever the data. Status: partial. False: three-row input always yields (-1,-1,0) (centred along the wrong axis). The two forms agree iff the true slopes are both -1. Missing: every other plane. Theorems: `C32_columns_false`, `C32_agree_iff_partial`, `C32_witness_false`.
- **C33 Lazy regression properties do not depend on access order.** Modelled: Regression object as cache state machine. Proof: induction over access lists. Status: proved. Invariant over all histories of reads, including exceptions; no AttributeError reachable. Theorems: `C33_reads_history_independent`, `C33_new_objects_fresh`, `C33_no_attribute_error`.
- **C34 LinearOrientation aligns the fit with its dip.** Modelled: Linear.*. Proof: arg identities; agreement with C14. Status: proved. Alignment and slope for every regression, right-hand rule, and agreement with the PCA strike/dip for every exact plane and every valid backend. Theorems: `C34_aligned`, `C34_right_hand_rule`, `C34_agrees_with_pca`.
- **C35 Rotated covariance belongs to the rotated coefficients.** Modelled: Base.rotatedCovariance. Proof: refuted (transposed rotation) + diagonal/isotropic partial. Status: partial. False: the covariance is rotated the wrong way. Exact condition for correctness of the along-dip variance; total variance is right; concrete 4-point witness. Missing: the individual errors. Theorems: `C35_inverse_rotation_false`, `C35_correct_iff_partial`, `C35_witness_false`.
- **C36 Three points give zero covariance, otherwise SSE times the inverse normal matrix.** Modelled: Regression.covarianceMatrix. Proof: algebra, positive semidefinite inverse. Status: proved. Both cases, symmetry and non-negative diagonal; singular inputs characterised. Theorems: `C36_covariance`, `C36_singular`.
- **C37 A measurement belongs to at most one group.** Modelled: Heap model of create_groups. Proof: refuted by witness; partial for disjoint lists. Status: partial. Holds for one call with copies, pairwise disjoint uid lists and plain measurements. False for overlapping lists in one call, and for a second call (copies of members are not recognised as grouped). Missing: those cases, where the code does not have the property. Theorems: `C37_at_most_one_group_partial`, `C37_overlapping_lists_false`, `C37_second_call_false`, `C37_regrouping_raises_partial`.
- **C38 create_groups does not modify its inputs by default.** Modelled: Heap model. Proof: frame theorem + refutation for groups in the input. Status: partial. Holds when the collection holds no groups (every object unchanged); in general only member_of of members of input groups can change. False: members of input groups are redirected to group copies. Missing: that case. Theorems: `C38_inputs_unchanged_partial`, `C38_plain_inputs_unchanged_partial`, `C38_members_redirected_false`.
- **C39 A failed grouping leaves the collection as it was.** Modelled: Heap model. Proof: refuted; partial: what is preserved. Status: partial. Holds with copy=True for plain collections, and for failures before any group is built. False for copy=False: a failing second group leaves a half-registered group and serialisation raises AttributeError. Missing: that case. Theorems: `C39_failure_harmless_partial`, `C39_early_failure_partial`, `C39_failure_harmful_false`.
- **C40 Unknown uids raise KeyError.** Modelled: Heap model. Proof: list search. Status: proved. Both directions, for every heap and collection. Theorems: `C40_success_means_known`, `C40_unknown_uid_raises_keyerror`, `C40_first_match`.
- **C41 Groups are never nested.** Modelled: Heap model. Proof: invariant over call histories. Status: proved. Invariant over all histories, including failing calls. Theorems: `C41_groups_never_nested`.
- **C42 member_of and members agree.** Modelled: Heap model. Proof: invariant over call histories. Status: proved. Invariant over all histories; disjointness gives the converse. Theorems: `C42_member_of_agrees`, `C42_members_point_to_group`.
- **C43 A group contains exactly the data of its members.** Modelled: Heap model data part. Proof: list algebra. Status: proved. Every group ever built and every group returned by create_groups. Theorems: `C43_group_has_member_data`, `C43_created_groups_have_member_data`.
- **C44 disable_orientations disables what was asked.** Modelled: Heap model. Proof: induction over uid list; atomicity refuted. Status: partial. Exact effect, idempotence, order independence. False: an unknown uid raises after earlier uids were already disabled. Missing: atomicity. Theorems: `C44_disables_exactly`, `C44_disable_idempotent`, `C44_disable_order_independent`, `C44_unknown_uid_partial`, `C44_keyerror_without_effect_false`.
- **C45 uid identifies a measurement.** Modelled: Uid with hash as parameter. Proof: refuted: depends on centered data only; partial. Status: partial. Equal uids imply equal second moments; location is ignored and the uid changes after as_conic. Missing: identification. Theorems: `C45_uid_determines_moments_partial`, `C45_uid_ignores_location_false`, `C45_uid_changes_false`.
- **C46 to_mapping contains the documented keys and lets the caller override.** Modelled: Mapping model: association lists / finite maps. Proof: case analysis on keys. Status: partial. Documented keys always present; caller's values kept except for member_of and members, which the class overwrites; unserialisable states raise. Missing: overriding those two keys. Theorems: `C46_documented_keys`, `C46_caller_overrides_partial`, `C46_unserialisable_raises`, `C46_caller_always_overrides_false`.
- **C47 Reconstructed axes form an orthonormal frame.** Modelled: Reconstructed.init. Proof: trigonometric identities; handedness refuted. Status: partial. Orthonormality and the upward normal for every strike, dip, rake. False: the frame is always left-handed (determinant -1). Missing: right-handedness. Theorems: `C47_orthonormal_partial`, `C47_right_handed_false`.
- **C48 A plane reconstructed from a fit has the fit's normal.** Modelled: Reconstructed + Pca.strikeDip. Proof: C14. Status: proved. For every fit, any valid backend; the normal is the upward one. Theorems: `C48_same_normal`.
- **C49 A plane reconstructed from a fit has the fit's axes.** Modelled: Reconstructed + Pca.rake. Proof: refuted by two fits with the same strike, dip, rake. Status: partial. Recovered iff the first axis has non-negative component along strike or is horizontal; concrete fit where it is not. Missing: the other half of sign choices. Theorems: `C49_axes_recovered_iff_partial`, `C49_not_recovered_false`.
- **C50 Reconstructed hyperbolic axes encode the given angular errors.** Modelled: Reconstructed.hyperbolicAxes. Proof: refuted; closed form. Status: partial. Closed form: the reconstructed axes give the errors swapped, and the covariance uses lengths where squares are expected; equality only for errors of 90 degrees. Missing: the round trip. Theorems: `C50_errors_swapped_partial`, `C50_errors_encoded_false`.
- **C51 Translating a conic moves its points and center.** Modelled: Conics.translate/center/contains in dimension d. Proof: block expansion of quadratic form. Status: proved. Any dimension, all conics; singular quadratic part gives LinAlgError. Theorems: `C51_points_move`, `C51_center_moves`, `C51_center_is_centre`, `C51_translations_compose`.
- **C52 Transforming conics composes.** Modelled: Conics.transform/solve. Proof: matrix algebra. Status: proved. Any dimension, rectangular transforms. Theorems: `C52_transform`, `C52_undo`.
- **C53 Pole and polar plane are inverse.** Modelled: Conics.polarPlane/pole. Proof: matrix inverse. Status: proved. Every invertible conic; error branch for singular ones, nan branch for poles at infinity. Theorems: `C53_pole_of_polar`, `C53_polar_of_pole`, `C53_reciprocal`.
- **C54 The polar plane collects the points of tangency.** Modelled: Conics.polarPlane. Proof: bilinear expansion. Status: proved. Double contact, tangency and crossing, any dimension. Theorems: `C54_polar_iff_double_contact`, `C54_sight_line_tangent`, `C54_off_polar_crosses`.
- **C55 slice returns the section of the conic by the plane.** Modelled: Conics.slice, Util.Plane. Proof: transform functoriality + coordinates of plane. Status: proved. Default and given axes, all planes with non-zero normal, degenerate planes separately. Theorems: `C55_slice_is_section`, `C55_slice_with_axes`, `C55_degenerate`.
- **C56 Dual is an involution.** Modelled: Conics.dual. Proof: matrix inverse. Status: proved. Involution, symmetry, tangent planes. Theorems: `C56_involution`, `C56_tangent_planes`.
- **C57 Every conic has exactly one type, and rigid motion keeps it.** Modelled: Conics.isElliptical. Proof: determinant sign trichotomy; spectral theorem and the sign of the product of the eigenvalues; refutation for signature (1,-1,-1). Status: partial. Trichotomy, invariance under invertible affine maps; in 2D elliptical means definite; in any dimension the type is decided by how many coefficients along the principal directions are zero or negative (C57_signs_partial), so the wanted meaning, only ellipsoids, is missing. False: 3D hyperboloids of signature (1,-1,-1) and empty conics are reported elliptical; in odd dimensions the negative of an equation, which has the same points, has the other type (C57_sign_false). Theorems: `C57_signs_partial`, `C57_sign_false`, `C57_exactly_one_type`, `C57_type_kept`, `C57_elliptical_2d_partial`, `C57_elliptical_3d_false`, `C57_elliptical_empty_false`.
- **C58 Conics built from semiaxes report those semiaxes.** Modelled: Conics.fromSemiaxes/semiaxes. Proof: refuted (squares) + partial. Status: partial. The ellipsoid is the right point set and axis ends lie on the shell; semiaxes() returns squares, so the round trip holds iff all semiaxes are 1. Missing: the round trip. Theorems: `C58_squares_partial`, `C58_round_trip_false`.
- **C59 Major axes of an ellipsoid end on its surface.** Modelled: Conics.majorAxes. Proof: refuted; exact conditions for spheres and for ellipses along the coordinates, from the contract of the decomposition. Status: partial. Exact condition for every sphere in any dimension (r^2 + 2 sum c - |c|^2 = r^6; the sphere in the test suite meets it, two others do not) and for every ellipse with different semiaxes a, b along the coordinates (only if a > b and 1 + (2 c0 - c0^2)/a^2 + (2 c1 - c1^2)/b^2 = a^2 b^2). Missing: all other ellipsoids, where the code does not have the property in general. Theorems: `C59_ellipses_iff_partial`, `C59_spheres_iff_partial`, `C59_major_axes_false`.
- **C60 angle_subtended is the true angular radius.** Modelled: Conics.angleSubtended. Proof: closed form for spheres; refuted for oblique directions. Status: partial. Closed form for every sphere and direction; true angle iff the in-plane axis length equals r^2; unit spheres level with or above the viewer are right; two concrete failures. Missing: the general claim (the code does not have it). Theorems: `C60_spheres_iff_partial`, `C60_unit_spheres_partial`, `C60_angle_subtended_false`, `C60_true_angle`, `C60_ellipsoids_partial`.
- **C61 perpendicular_vector is perpendicular.** Modelled: Util.perpendicularVector. Proof: case analysis; 2D refuted. Status: partial. 3D: perpendicular, non-zero, ValueError for zero. False in 2D: components are swapped without a sign. Missing: 2D. Theorems: `C61_three_dimensions_partial`, `C61_two_dimensions_false`.
- **C62 Hessian normal form describes the same plane.** Modelled: Util.Plane. Proof: algebra + Cauchy-Schwarz. Status: proved. Any dimension; zero normal gives nan. Theorems: `C62_hessian_normal`, `C62_degenerate`.
- **C63 angle between vectors is a proper angle.** Modelled: Util.angle. Proof: arccos facts, equality case of Cauchy-Schwarz. Status: proved. Any dimension; zero vectors give nan. Theorems: `C63_angle`, `C63_zero_iff_parallel`, `C63_fit_angle`.
- **C64 Vectorised and iterative plane errors agree.** Modelled: Stereonet.planeErrors / iterativePlaneErrors. Proof: pointwise equality; refuted at level<>1. Status: partial. Agreement for non-vertical planes at level 1 and the three known sheets. False: for vertical planes the two functions swap upper and lower; level, layout and unknown sheets are ignored by the iterative one. Missing: those cases. Theorems: `C64_curves_agree_partial`, `C64_vertical_swapped_false`, `C64_vertical_false`, `C64_options_false`.
- **C65 Vectorised and iterative normal errors agree.** Modelled: Stereonet.normalErrors / iterativeNormalErrors. Proof: pointwise equality. Status: proved. Exact equality of both curves for level 1, either layout, any n. Theorems: `C65_curves_agree`.
- **C66 Pole errors are dual to girdle errors.** Modelled: Stereonet. Proof: Cauchy-Schwarz. Status: partial. Natural layout: duality for every orthonormal frame. False in the traditional layout, where both curves are mirrored in north. Missing: traditional layout. Theorems: `C66_natural_layout_partial`, `C66_traditional_layout_false`.
- **C67 Upper and lower sheets are antipodal and the nominal curve is in the plane.** Modelled: Stereonet.planeErrors. Proof: trigonometric identities. Status: proved. Nominal curve in the plane, antipodal sheets, points on the error cone, elevation between the arctangents of the two axis ratios. Theorems: `C67_nominal_in_plane`, `C67_antipodal`, `C67_on_cone`, `C67_elevation_bounds`.
- **C68 error_ellipse describes the fit.** Modelled: Stereonet.errorEllipse. Proof: refuted: constant in axes. Status: partial. Refuted: axes and level are ignored; three entries whatever n; IndexError below three points. Missing: the claim itself. Theorems: `C68_three_entries_partial`, `C68_ignores_fit_false`, `C68_constant_false`.
- **C69 error_coords contains nominal, upper and lower for each level.** Modelled: Stereonet.errorCoords as finite map. Proof: case analysis. Status: proved. All level lists, both layouts of the result, error cases. Theorems: `C69_top_level`, `C69_by_level`, `C69_errors`.
- **C70 The level option scales errors.** Modelled: Stereonet level. Proof: plane monotone; refuted for normal and iterative. Status: partial. Plane errors widen with the level. False for the other three functions, which ignore it. Theorems: `C70_plane_partial`, `C70_level_ignored_false`.
- **C71 Error curves are hyperbolas.** Modelled: Hyperbola.hyperbolaValues etc. Proof: cosh(arsinh). Status: proved. Includes the degenerate branches (zero axis, parallel viewing axes). Theorems: `C71_hyperbola_values`, `C71_hyperbola_values_degenerate`, `C71_hyperbolic_errors`, `C71_hyperbolic_errors_degenerate`.
- **C72 Slicing gives the harmonic mean of in-plane axes.** Modelled: Hyperbola.hyperbolicErrors. Proof: slice algebra. Status: proved. Nothing missing. Theorems: `C72_horizontal_view`.
- **C73 Error band brackets the nominal line.** Modelled: Hyperbola.hyperbolicErrors. Proof: algebra. Status: proved. Also for the polygon that is filled. Theorems: `C73_midpoint`, `C73_polygon`, `C73_error_bounds`.
- **C74 Apparent dip correction rotates the profile to its dip.** Modelled: Hyperbola.apparentDipCorrection. Proof: orthogonality; sign refuted. Status: partial. A rotation for every axis, with the right slope for rising axes. Missing: down-dip axes (not distinguished) and vertical axes (not rotated), both refuted. Theorems: `C74_rotation_partial`, `C74_up_dip_partial`, `C74_down_dip_false`, `C74_vertical_false`.
- **C75 hyperbolic_errors works for two-dimensional axes.** Modelled: Hyperbola.hyperbolicErrors error branch. Proof: refuted: TypeError. Status: partial. Correct when axes are given. Missing: the default, which always raises. Theorems: `C75_two_axes_false`, `C75_with_axes_partial`.
- **C76 Error ellipse points are at the requested level.** Modelled: Hyperbola.errorEllipse. Proof: SVD contract algebra. Status: proved. For every positive definite matrix and every valid square SVD backend. Theorems: `C76_level`, `C76_closed`, `C76_determines_covariance`.
- **C77 clean_coordinates removes exactly the invalid rows.** Modelled: Dem.cleanCoordinates on lists. Proof: list filter. Status: proved. Also the numbers in the printed message. Theorems: `C77_exactly`, `C77_idempotent`, `C77_message`.
- **C78 offset_mask is the minimal bounding rectangle.** Modelled: Dem.offsetMask. Proof: extremal index lemmas. Status: proved. trim_zeros is transcribed. Theorems: `C78_contains`, `C78_minimal`, `C78_empty`.
- **C79 extract_area returns every valid masked pixel once.** Modelled: Dem.extractArea. Proof: list permutation-free equality. Status: proved. Equality of lists with a window-free specification, for every mask, DEM and affine transformation; extract_shape included. geometry_mask is a parameter. Theorems: `C79_extract_area`, `C79_window`, `C79_extract_shape`.
- **C80 extract_line reads a window that covers the line.** Modelled: Dem.extractLine window. Proof: floor/ceil arithmetic; clamping to the window is clamping of the position (axis_edge); refuted for integer lines. Status: partial. Window, positions and error branches for all lines; values for points half a cell from the window edges, and for all points: the elevation at the nearest position half a cell inside the window, if the cells around it are not masked, otherwise none (C80_everywhere_partial, C80_masked_partial). Missing: the elevation at the point itself if that is less than half a cell from an edge. Refuted for lines along a cell border (nothing read) and for lines inside one cell (not interpolated). Theorems: `C80_everywhere_partial`, `C80_masked_partial`, `C80_window`, `C80_window_empty`, `C80_values_partial`, `C80_coordinates`, `C80_errors`, `C80_integer_line_false`, `C80_one_cell_false`.
- **C81 Bilinear interpolation reproduces pixels and stays in range.** Modelled: Interpolation.bilinear. Proof: convex combination. Status: partial. Range and planar exactness for all positions; nearest exact. Missing: cell centres next to masked cells, which have no value (refuted). Theorems: `C81_pixel_center_partial`, `C81_masked_neighbour_false`, `C81_range`, `C81_planar`, `C81_between_centres`, `C81_beyond_edges`, `C81_nearest`.
- **C82 Saved test planes load back.** Modelled: TestIO. Proof: list split/join; refuted for >=2 arrays. Status: partial. Reader correct for every file as meant; one array with at least two rows and columns round-trips. Missing: several arrays (always TypeError), one row or column (shape lost), none. Theorems: `C82_reader_partial`, `C82_single_partial`, `C82_several_false`, `C82_one_row_false`, `C82_none_false`.
- **C83 plot_interactive delivers the data it was given.** Modelled: NbExtension template. Proof: string model; refuted for quotes. Status: partial. Holds for data without quotes, backslashes, line breaks and <; characters written as \\uXXXX arrive as themselves. Refuted for single quotes, escaped double quotes, escaped control characters, the text <<<hash>>> and the text </script. Theorems: `C83_plain_partial`, `C83_quote_false`, `C83_escape_false`, `C83_unicode`, `C83_control_false`, `C83_hash_false`, `C83_script_false`.
- **C84 init_notebook_mode loads the library exactly once.** Modelled: NbExtension state machine. Proof: induction over calls. Status: proved. For every history of calls and outcomes. Theorems: `C84_once`, `C84_retry`.
- **C85 Drawn girdles and poles are dual.** Modelled: Stereonet.girdleVertices, poleVertices. Proof: tangency transported through the two coordinate changes. Status: proved. Includes the coordinate changes applied before plotting. Theorems: `C85_drawn_curves_dual`.
- **C86 uncertain_plane draws the given angular errors.** Modelled: Stereonet.uncertainPlane. Proof: monotonicity of arctan(2 tan). Status: partial. The drawn half-width is arctan(2 tan(e/2)): strictly between e/2 and e. Missing: equality with e/2, which is refuted for every e. Theorems: `C86_width_bounds_partial`, `C86_width_false`.
- **C87 The upper sheet lies above the plane.** Modelled: Stereonet.planeErrors. Proof: sign of the height over the plane. Status: partial. The sheets are on opposite sides; for upward-facing axes the sheet called upper is always below. Missing: the naming. Theorems: `C87_upper_is_below_false`, `C87_opposite_sides_partial`.
- **C88 asymptotes returns directions on the asymptotic cone.** Modelled: Hyperbola.asymptotes. Proof: closed form of the list; exact condition from the first two directions. Status: partial. Exact condition: four or more directions are all on the asymptotic cone only if the three coefficients are equal (C88_cone_iff_partial); the first direction is on it only if the first and third agree. Missing: all other hyperboloids, for none of which the code has the property. Theorems: `C88_cone_iff_partial`, `C88_equal_axes_partial`, `C88_asymptotes_false`, `C88_off_centre`.
- **C89 Parametric curves are the conics they are drawn for.** Modelled: Hyperbola.parametricHyperbola, parametricEllipse, inverseEllipse. Proof: trigonometric identities; double root for tangency. Status: proved. The ellipse is covered exactly; vertical angles of the hyperbola are not finite. Theorems: `C89_hyperbola`, `C89_ellipse`, `C89_normal_tangent`.
- **C90 The quadratic hyperbola gives top and bottom at the returned x.** Modelled: Hyperbola.regressionHyperbola. Proof: agreement with hyperbolaValues; refuted for every oblique rotation. Status: partial. Missing: rotated frames, refuted for every rotation not by a multiple of a right angle. Theorems: `C90_unrotated_partial`, `C90_rotated_false`.
- **C91 The error curve is the section of the error surface.** Modelled: Hyperbola.hyperbolicErrors against the surface equation. Proof: algebra when aligned; exact condition on the viewing axes from two points of the curve; numeric witness when tilted. Status: partial. Holds exactly when the first viewing axis is in the plane of the fit and the second is normal to it (C91_section_iff_partial). Missing: all other views, for none of which the code has the property; C91_tilted_false computes one. Theorems: `C91_section_iff_partial`, `C91_aligned_partial`, `C91_tilted_false`.
- **C92 Interpolation accepts points, lines and multiple lines.** Modelled: Dem.interpolate. Proof: definitional for lines after unfolding the handlers; error branch for points. Status: partial. Missing: points, which always raise. Theorems: `C92_lines_partial`, `C92_points_false`.
- **C93 The conic of a fit is its error ellipsoid.** Modelled: PcaConics.asConic. Proof: closed form of solve after translate and transform; query histories. Status: proved. For every data set, level and history of queries. Theorems: `C93_ellipsoid`, `C93_coplanar`, `C93_history`.
- **C94 A higher level gives a larger error ellipsoid.** Modelled: PcaConics.asConic. Proof: monotonicity of the closed form; refuted by a point on the first axis. Status: partial. Refuted: the code divides by level instead of multiplying, for every noisy fit and pair of levels. Theorems: `C94_larger_level_is_smaller_false`.
- **C95 The error ellipsoid belongs to the data.** Modelled: PcaConics.asConic. Proof: functions of the Gram matrix do not depend on the decomposition. Status: proved. For planes that are unique and not vertical (the sign of the normal of a vertical plane is up to the backend). Theorems: `C95_equivariant`, `C95_witness`.
- **C96 error_ellipse of a principal component fit returns a curve.** Modelled: PcaConics.bundle, addRows, errorEllipse. Proof: case analysis; refuted: never returns. Status: partial. Refuted for every fit and level: the bundle has four columns and the center three. Theorems: `C96_always_raises_false`.
- **C97 The error hyperboloid contains the plane.** Modelled: PcaConics.asHyperbola. Proof: closed form; refuted by in-plane points. Status: partial. Symmetric and contains the ellipse of the in-plane variances. Refuted for the plane: the hyperboloid surrounds the normal. Theorems: `C97_plane_outside_false`, `C97_center_inside_partial`.
- **C98 The error ellipsoid does not depend on the unit of length.** Modelled: PcaConics.asConic. Proof: the closed form on the normal is an interval, which fixes the unit; refuted. Status: partial. Refuted for every noisy data set and every factor other than one; the ellipsoid in the new unit is that for the level times the square root of the factor, times the square of the factor. Theorems: `C98_unit_dependent_false`.
- **C99 error_ellipse of a regression is a curve of poles.** Modelled: PcaConics.linearEllipse, sphericalPoint, linearErrorEllipse. Proof: trigonometry of the turned frame; refuted off the dip direction. Status: partial. Correct exactly for the points that dip in the direction of the fit, and for level zero. Refuted for every regression with noise (slope from one component, azimuth mirrored). Theorems: `C99_pole_iff_partial`, `C99_wrong_pole_false`, `C99_level_zero_partial`.
- **C100 The ellipse of a regression is the confidence ellipse of its coefficients.** Modelled: PcaConics.linearEllipse. Proof: the points determine the quadratic form; refuted by four points. Status: partial. Correct exactly when the azimuth is a multiple of a half turn or the covariance has no direction; refuted otherwise (covariance not turned with the coefficients). Theorems: `C100_ellipse_iff_partial`, `C100_witness_false`.
- **C101 The covariance matrices of a fit are covariances of its data.** Modelled: Pca.covarianceMatrix. Proof: spectral identity of the Gram matrix; if and only if for the default; scaling of singular values. Status: partial. Holds for type='sampling'. Refuted for the default: equal exactly when every singular value is zero or n/(4(n-1)), and it scales with the cube of the unit of length. Theorems: `C101_sampling_is_sample_covariance_partial`, `C101_noise_iff_partial`, `C101_noise_not_covariance_false`, `C101_noise_unit_false`.
- **C102 covariance_matrix(fit) is the Cartesian covariance of the data.** Modelled: Similarity.moduleCovariance, Similarity.testSvd. Proof: factorisation U S V; turned points. Status: partial. The reconstruction holds for every fit. The matrix is the table of inner products of the centered points; refuted as Cartesian covariance: it does not change when the points are turned. Theorems: `C102_gram_partial`, `C102_rotation_blind_false`, `C102_reconstruction`.
- **C103 fit_similarity is zero exactly for equal planes.** Modelled: Similarity.fitSimilarity over any valid SVD backends. Proof: positive definite quadratic form; determinant of the summed covariance. Status: partial. Holds whenever a number is returned and for fits with an upward third axis. Refuted for fits with a downward third axis, which are at distance nan from themselves. Theorems: `C103_self_partial`, `C103_self_undefined_false`, `C103_zero_iff_partial`.
- **C104 fit_similarity is symmetric.** Modelled: Similarity.fitSimilarity. Proof: symmetry of the sum; backend with chosen signs. Status: partial. Holds for two fits with upward third axes. Refuted by two data sets under one backend: zero one way, nan the other way. Theorems: `C104_symmetric_partial`, `C104_asymmetric_false`.
- **C105 aligned_covariance is a rescaled covariance in data coordinates.** Modelled: Similarity.alignedCovariance. Proof: orthonormal columns; entries compared for coplanar data. Status: partial. The norm is one. Refuted as a covariance: for coplanar points on a tilted plane it is not symmetric. Theorems: `C105_norm_partial`, `C105_not_symmetric_false`.
- **C106 Frontend girdles show the plane and its error cone.** Modelled: Frontend.ellipse, cart2sph, planeErrors. Proof: membership in cones via inner products with the axes. Status: proved. Holds for both layouts and units. The number of positions is 2*ceil(n/2). Theorems: `C106_nominal`, `C106_sheets`.
- **C107 Frontend pole curves are normals of tangent planes.** Modelled: Frontend.normalErrors. Proof: tangency by Cauchy-Schwarz, shared with the Python specification. Status: proved. Universal; tangency is stated geometrically (normals of planes that touch the cone), apart from the formulas of the code. Theorems: `C107_poles`, `C107_level_zero`, `C107_antipodal`.
- **C108 Python and frontend draw the same error curves.** Modelled: Frontend.planeErrors, Stereonet.planeErrors. Proof: relational: both on the same half cones; if and only if; witnesses. Status: partial. Refuted: Python takes lengths and doubles the third, the frontend takes square roots and does not. Same cones for c and (sqrt c0, sqrt c1, sqrt c2 / 2) if the plane is not vertical; with the same numbers exactly if c0 = c1 = 4 c2; for vertical planes upper and lower are swapped. Theorems: `C108_same_cone_partial`, `C108_same_covariance_iff_partial`, `C108_same_covariance_false`, `C108_vertical_false`.
- **C109 Axes survive the exchange with the frontend.** Modelled: Frontend.deconvolveAxes, convolveAxes, Pca.principalAxes. Proof: column norms of scaled orthonormal axes; witness (3,2,1). Status: partial. Reading Python's principal axes holds for all fits with nonzero singular values. Refuted: convolveAxes scales rows whereas deconvolveAxes divides columns, so they are inverse only for equal lengths; scaled axes are changed in place. Theorems: `C109_reads_principal_axes`, `C109_convolve`, `C109_inverse_partial`, `C109_inverse_false`, `C109_argument_changed_false`.
- **C110 Sharing an options object does not change curves.** Modelled: Frontend.Opts, Call.after. Proof: invariant over call histories; witnesses. Status: partial. combinedErrors is independent of any sequence of calls of combinedErrors, planeErrors and normalErrors (induction). Refuted after cart2sph (other default layout) and for planeErrors after combinedErrors (default curve becomes the lower error, in degrees). Theorems: `C110_history_partial`, `C110_layout_false`, `C110_plane_false`.
- **C111 Error surface is a ring around the plane.** Modelled: FrontendShapes.errorSurface. Proof: case split on containment; aliasing of arrays in the state. Status: partial. Holds on first use. Refuted for the second use: reverse() changes the arrays in place and the rings then run in the same direction. Theorems: `C111_surface_partial`, `C111_empty`, `C111_second_use_false`.
- **C112 Drawing a plane from stored data.** Modelled: FrontendShapes.constructAxes, groupedPlane. Proof: invariance of the curves under reversal of the normal; idempotence. Status: proved. The error branch is covered: lengths without axes and axes without lengths are type errors, although planeErrors by itself has a default. Theorems: `C112_axes`, `C112_curves`, `C112_missing`, `C112_drawn`.
- **C113 Error ellipses are small polygons around the pole.** Modelled: FrontendShapes.windEllipse, errorEllipse. Proof: area contract of geoArea; invariant of the options over histories; range of arctan2 and arcsin. Status: partial. Holds except for the unit: without degrees: true coordinates are in radians, and every polygon is within pi degrees of the origin of the map. Theorems: `C113_small`, `C113_history`, `C113_polygons`, `C113_radians_false`.
- **C114 Planes given by angular errors are drawn with these errors.** Modelled: FrontendShapes.reconstructErrors. Proof: 1 + cot^2 = 1/sin^2, convexity. Status: proved. The larger one is attained if 4 divides the number of positions (the default is 100). The rotation comes from modules outside the repository and is any orthonormal matrix. Errors of zero divide by zero and are excluded. Theorems: `C114_widths`, `C114_attained`.
- **C115 Options are copied and levels applied.** Modelled: FrontendShapes.cloneOptions, ellipseLevels. Proof: induction on keys; witness. Status: partial. Refuted for replacements that are false or new: they are dropped, so level 0 in an array gives a function whose level is the whole array. Holds for nonzero levels. Theorems: `C115_clone_partial`, `C115_clone_false`, `C115_levels_partial`, `C115_levels_false`.
- **C116 Centroids of planes.** Modelled: FrontendShapes.centroidExtrema, centroidAverage. Proof: induction over the list. Status: partial. The first holds for nonempty lists (type error for an empty one). Refuted for the second: d3 is not imported in util.ts, so that every call fails. Theorems: `C116_average_false`, `C116_extrema`, `C116_extrema_empty`.
- **C117 Dip and azimuth of a plane in the frontend.** Modelled: FrontendView.fixAngle, dip. Proof: well founded induction for the loops; polar coordinates. Status: partial. Agreement with Python holds for normals that do not point down. Refuted for all normals that point down: the frontend's dip then exceeds 90 degrees. The loops of fixAngle terminate for all finite angles. Theorems: `C117_fix_angle`, `C117_dip`, `C117_python_partial`, `C117_python_false`.
- **C118 Apparent dip.** Modelled: FrontendView.apparentDip. Proof: closed form arctan((n.v)/n_z), then geometry. Status: proved. Universal over planes that are not vertical; uniqueness pins the value. Theorems: `C118_apparent_dip`, `C118_reversal`, `C118_maximal`.
- **C119 A plane in a section is drawn as its section line.** Modelled: FrontendView.transform. Proof: angle on screen by arctan; two inclusions. Status: proved. Vertical planes have no transform (NaN), which is proved too. Theorems: `C119_section_line`, `C119_vertical`.
- **C120 Digitized lines in a section.** Modelled: FrontendView.digitizedLine, apparentPath. Proof: matrix identities; map over lists; witness. Status: partial. Refuted for the position along the line: coordinates along the axes of the plane are used as if they were coordinates in space. Theorems: `C120_projection`, `C120_axes`, `C120_on_line`, `C120_position_false`.
- **C121 The hyperbola of a plane is the section of its error surface.** Modelled: FrontendView.planeAngle, semiAxes. Proof: closed form of the section for horizontal planes and a witness for the sign; for tilted planes both curves are compared point by point, the hyperbola through its centre line and the section through the three coordinates along the axes. Status: partial. Proved for horizontal planes with first axis at an angle between 0 and pi. Refuted for the sign of the first axis: reversing it mirrors the hyperbola's width. C121_tilted_iff_partial settles tilted planes whose first axis points to the north side, without exaggeration: the hyperbola is the section exactly when the section runs along the dip and the first two error lengths agree or the first axis is horizontal or runs along the dip. Missing: all other cases, which are refuted; C121_oblique_false shows that the hyperbola is never the section when the section is oblique to the dip. Theorems: `C121_oblique_false`, `C121_tilted_iff_partial`, `C121_section_partial`, `C121_axis_sign_false`.
- **C122 The polygon of the hyperbola.** Modelled: FrontendView.polygon. Proof: inequalities. Status: partial. Refuted: with three coordinates it has straight sides from the vertex to the asymptote. What holds: it is symmetric, has the vertex, never is inside the asymptotes and its border is at most sqrt 2 times as high as the hyperbola. The ends of the border are always below the hyperbola (C122_polygon_ends_false). Theorems: `C122_polygon`, `C122_polygon_false`, `C122_polygon_ends_false`.
- **C123 Hyperbolas follow lines and settings.** Modelled: FrontendView.hyperbolaPlacement, HypState. Proof: invariant over call sequences; witness. Status: partial. Refuted for the setting: turned off, drawn and turned on again the horizontal scale remains. Holds for histories in which it is never turned off; C123_scale_exact: the vertical scale is that of heights exactly if the setting was on at every drawing so far. Theorems: `C123_same_placement`, `C123_scale_partial`, `C123_scale_false`, `C123_scale_exact`.
- **C124 Labels of directions on the stereonet.** Modelled: FrontendStereonet.labels, stereonetOpts. Proof: evaluation of both conversions at the six directions. Status: proved. All six labels; position compared with that of data in the same direction. C124_errors_as_given: girdles and ellipses at level 1 with 200 positions. Theorems: `C124_labels`, `C124_data`, `C124_errors_as_given`.
- **C125 Azimuth and dip labels of a vertical net.** Modelled: FrontendStereonet.project, Rotation, azimuthLabel, dipLabel. Proof: projection of horizontal directions for all azimuths in closed form. Status: partial. Holds in the view set by clipAngle. Refuted after center('vertical'), which views from the other side: north is drawn where the label is S. Theorems: `C125_azimuth_labels`, `C125_center_vertical_false`, `C125_dip_labels`.
- **C126 Dragging the stereonet.** Modelled: FrontendStereonet.Drag. Proof: induction over events; invariant. Status: partial. Refuted for clicks on views with roll (the roll is reset); holds without roll. Theorems: `C126_drag`, `C126_hover`, `C126_latitude`, `C126_click_partial`, `C126_click_false`.
- **C127 Settings of the stereonet.** Modelled: FrontendStereonet.Net, Net.step. Proof: induction over calls; witnesses. Status: partial. Holds for margin, size, clip and clipAngle. Refuted for scale (its getter returns another variable and drawing overrides it), for the clipping circle after setting the clip angle back to 90, and for the center, which clipAngle discards. Theorems: `C127_settings`, `C127_scale_false`, `C127_clip_angle_false`, `C127_center_false`.
- **C128 The net fits in the drawing.** Modelled: FrontendStereonet.Net.setScale, radius. Proof: exact radius by double angle formula. Status: partial. Refuted: with a clip angle c below 89 the radius is (size/2 - margin)/cos(c/2), which always exceeds the space; for a hemisphere it is sqrt 2 (size/2.5 - margin), which exceeds it by default and exceeds the drawing for size 1000. Theorems: `C128_clipped`, `C128_margin_false`, `C128_hemisphere`, `C128_default_false`, `C128_large_false`.
- **C129 Opacity by certainty.** Modelled: FrontendStereonet.Opacity. Proof: order of clamped linear functions. Status: proved. Closed form and monotonicity over all errors. Theorems: `C129_opacity`.
- **C130 Settings of opacity.** Modelled: FrontendStereonet.Getter, Opacity.step. Proof: case split; induction over calls. Status: partial. Refuted: getters never return a value (they call it as a function), and max has no effect. Holds for the setter domain. Theorems: `C130_domain_partial`, `C130_max_false`, `C130_getters_false`.
- **C131 Labels follow the view.** Modelled: FrontendStereonet.Net.step. Proof: invariant over calls; witness. Status: partial. Holds for sequences without center and clipAngle. Refuted for these, which do not update labels. Theorems: `C131_labels_partial`, `C131_labels_false`.
- **C132 vertical can be used repeatedly.** Modelled: FrontendStereonet.startOffset. Proof: induction on the number of calls. Status: partial. Refuted for a shared options object: startOffset grows by 100 with each call. Holds for new options. Theorems: `C132_fresh_partial`, `C132_repeated_false`.
- **C133 Lower hemisphere.** Modelled: Frontend.cart2sph. Proof: reduction to the upper hemisphere. Status: partial. Holds for the layout of the stereonet. Refuted for the traditional layout, where north and south are exchanged. Theorems: `C133_lower_partial`, `C133_traditional_false`.
- **C134 Functions passed to call.** Modelled: FrontendStereonet.Net. Proof: induction over calls. Status: partial. Holds for a single drawing. Refuted for the second, which runs queued functions again. Exact for all sequences of calls: what runs and in which order (C134_order); each function runs as often as passed exactly if none was passed before the first drawing or there is no second one (C134_once_iff). Theorems: `C134_calls_partial`, `C134_calls_false`, `C134_order`, `C134_once_iff`.
- **C135 Confidence intervals of samples.** Modelled: Statistics.interpolate, scoreAtPercentile, percentiles, ci. Proof: monotonicity of the interpolation in the sorted list; counting by sublists. Status: proved. All percentages and lists, including the error branches. Theorems: `C135_interval`, `C135_columns`, `C135_nested`, `C135_order`, `C135_extremes`, `C135_errors`.
- **C136 Bootstrap.** Modelled: Statistics.bootstrapResampled, bootstrapNoise. Proof: lists of repetitions, for all draws. Status: proved. Random numbers are an argument of the model. Theorems: `C136_resampled`, `C136_draws`, `C136_constant`, `C136_noise`, `C136_noise_values`.
- **C137 Bingham density.** Modelled: Statistics.hypergeometric, binghamExponent, binghamPdf. Proof: quadratic forms; Gamma function; witness. Status: partial. With distinct smallest eigenvalue the density is highest exactly along the third column of the matrix of axes, whereas the pole of the plane is its third row; the maximum at the pole holds for symmetric matrices of axes and is refuted in general (axes are used as columns). The normalising function of scipy is any positive function. Theorems: `C137_mode_column_partial`, `C137_antipodal`, `C137_mode_partial`, `C137_mode_false`, `C137_series`.
- **C138 Regular grid of directions.** Modelled: Statistics.mgrid, regularGrid. Proof: inequalities. Status: proved. All grids with at least two rows and columns. Theorems: `C138_grid`.
- **C139 Bhattacharyya distance.** Modelled: Statistics.bhattacharyya. Proof: matrix algebra; logarithm. Status: partial. Symmetry holds (also of the error cases). Refuted for self-distance: it is zero if and only if the determinant of the covariance is one (the square root of the product of determinants is missing). In general the value is the true distance less a quarter of the logarithm of the product of the determinants. Theorems: `C139_difference_partial`, `C139_symmetric_partial`, `C139_self_false`.
- **C140 Synthetic planes.** Modelled: Statistics.makePlane, randomPlane, randomize, scatteredPlane. Proof: uniqueness of least squares (C31). Status: proved. Scatter is relative, so that a coordinate of zero never is scattered (proved). Theorems: `C140_recovered`, `C140_scatter`, `C140_lengths`.
- **C141 Quaternions.** Modelled: Statistics.quaternion. Proof: norm in closed form. Status: partial. Refuted: the cosine is added to each component; exact characterisation of the axes and angles for which the norm is one. Theorems: `C141_quaternion_false`, `C141_identity_false`.
- **C142 Design matrix and scaled errors.** Modelled: Statistics.augmentColumn, augmentTable, scaleErrors. Proof: algebra. Status: partial. augment holds for one variable and is refuted for more (always ValueError). Theorems: `C142_line_partial`, `C142_table_false`, `C142_scale`.
- **C143 Polar plots.** Modelled: Display.polarPoint, polarPoleError, polarPole. Proof: tangency (C98) through cart2sph; in-place change by computation. Status: partial. All but the last claim is proved; the last is refuted: axes that point down are reversed in place. Theorems: `C143_pole`, `C143_curve`, `C143_no_error`, `C143_side_effect_false`.
- **C144 Aligned sections.** Modelled: Display.alignedData, stride, sampledRows, minMax, titleError, hyperbolaRange. Proof: ranges of strides; contract of the SVD; witness with ten points. Status: partial. The side is right for third axes that do not point down and refuted for all others; the extent is right in the long section and refuted in the other. Theorems: `C144_rows`, `C144_side_partial`, `C144_side_false`, `C144_title`, `C144_range_partial`, `C144_range_false`.
- **C145 Comparison of errors.** Modelled: Display.comparisonLimits, errorComparison. Proof: inequalities; witness by the contract of the SVD. Status: partial. The view is symmetric, as wide as asked for and shows the first point. Refuted: by default points can be out of view (the first row is used for the first column), and do_bootstrap always raises NameError. Theorems: `C145_first_point_partial`, `C145_in_view_false`, `C145_bootstrap_false`.
- **C146 Opacity of several levels.** Modelled: Display.Alpha, alphas, polygonAlpha, drawnAlphas, defaultAlpha, strikeDipDefaultAlpha, normalDefaultAlpha. Proof: induction over the list of levels. Status: partial. A value for each level is used as given. Refuted: a single number, also the default of normal, and lists of other lengths, which are to be repeated, always raise TypeError. Theorems: `C146_per_level_partial`, `C146_repeated_false`, `C146_number_false`.
- **C147 Strike and dip plots.** Modelled: Display.montecarloPoint, strikeDipVertex, planeConfidence. Proof: polar angles; pi > 3; length of the list. Status: partial. All refuted: the simulation gives the dip direction for the strike, for all planes that are not horizontal; the ellipse of a regression is drawn at slopes as if they were radians; plane_confidence always raises ValueError and error_asymptotes TypeError. Theorems: `C147_montecarlo_false`, `C147_error_ellipse_false`, `C147_plane_confidence_false`, `C147_asymptotes_false`.
- **C148 Parametric hyperbolic errors.** Modelled: Display.parametricPoint, parametricAngle, parametricTop, parametricErrors2. Proof: trigonometric identities. Status: partial. The angles run symmetrically from one asymptote to the other, never beyond. Refuted: for first semi-axes below pi/4 no point is on the hyperbola, and the means are added twice. Theorems: `C148_on_hyperbola_false`, `C148_means_false`, `C148_angles_partial`.
- **C149 Polygons for cartopy.** Modelled: Display.fixStereonetCoords, cartopyGirdle, cartopyNormal. Proof: periodicity of the curves. Status: proved. All axes and error axes. Theorems: `C149_fix_involutive`, `C149_closed`, `C149_rings`.
- **C150 Transformation helpers.** Modelled: Extras.augmentMatrix, augmentVector, rotateTensor, composeAffine, IsLstsq, axisTransform, randomPca, fromAxes. Proof: block matrices; uniqueness of an exact least-squares solution. Status: partial. Refuted: compose_affine, random_pca(False) and from_axes always raise. Theorems: `C150_augment_domain`, `C150_augment_acts`, `C150_augment_translates`, `C150_augment_mul`, `C150_rotate_tensor`, `C150_rotate_tensor_eigen`, `C150_compose_false`, `C150_axis_transform`, `C150_constructors_false`.
- **C151 Plane rotations and axis-aligned views.** Modelled: Extras.rotate2D, axisAlignedTransforms. Proof: addition theorems. Status: proved. Universal. Theorems: `C151_rotation`, `C151_counterclockwise`, `C151_axis_aligned`, `C151_two_views`.
- **C152 Symbolic conics.** Modelled: Extras.symCenter, symDual, symPolarPlane, originDistance. Proof: inverse matrices; Cauchy-Schwarz. Status: proved. sympy expressions are modelled by their real values. Theorems: `C152_agrees`, `C152_center`, `C152_origin_distance`.
- **C153 Checks of the decomposition.** Modelled: Extras.reconstruction, gram. Proof: matrix algebra; witness. Status: partial. The first holds (for weights see C20). Refuted for the second: it is the Gram matrix of the points (proved), not a multiple of the covariance even for three points. Theorems: `C153_test_svd`, `C153_test_svd_loaded`, `C153_covariance_false`.
- **C154 Rows of the spreadsheet and the plots.** Modelled: Webapp.parseFloat, constructOrientation, cleanedData. Proof: cases on the readability of the cells. Status: proved. Both directions, for all contents of rows. Theorems: `C154_plotted_iff`, `C154_values`, `C154_add_rows`, `C154_rows`.
- **C155 Adding rows.** Modelled: Webapp.addEmptyRows, emptyRow. Proof: arithmetic of remainders. Status: proved. All spreadsheets. Theorems: `C155_add_rows`, `C155_button`.
- **C156 Editing the spreadsheet.** Modelled: Webapp.finalizeRow, applyChange, onCellsChanged, Event, step, run. Proof: induction over the events. Status: partial. The invariant is proved; errors entered together, or the maximum first, are kept. Refuted in general: entering the minimum first can exchange it with the old maximum, which is then overwritten. Theorems: `C156_invariant`, `C156_plotted`, `C156_nothing_lost`, `C156_other_columns`, `C156_both_at_once`, `C156_one_by_one_partial`, `C156_one_by_one_false`.
- **C157 Marks of cells.** Modelled: Webapp.decimalPrefix, parseFloat, trim, toNumber, status, clipAngleValid. Proof: a decimal literal followed by blanks is read by both parsers. Status: partial. Proved for the decimal texts: Number and parseFloat agree. Refuted for blank and hexadecimal texts (valid), text after numbers (invalid) and the number zero (empty). Theorems: `C157_ok_is_read_partial`, `C157_ok_false`, `C157_invalid_false`, `C157_empty_partial`, `C157_clip_angle`.
- **C158 Opacity of ellipses.** Modelled: Webapp.ellipseAlpha. Proof: piecewise linear functions. Status: proved. All errors. Theorems: `C158_ellipse_opacity`.
- **C159 Labels of the graticule.** Modelled: Webapp.formatAzimuthLabel, formatDipLabel, meridians. Proof: directions by C131's specification. Status: partial. Proved for longitudes above -180. Refuted for the first meridian of the graticule: north is labelled 360 degrees. Theorems: `C159_azimuth_partial`, `C159_azimuth_false`, `C159_dip`.
- **C160 Selection in the notebook interface.** Modelled: NotebookUi.toggle, change, step, run, construct. Proof: induction over the events. Status: partial. Proved for the handlers. Refuted for the page: its constructor uses this before super and always raises ReferenceError, so C160 to C165 describe the handlers with this constructor repaired. Theorems: `C160_selection_partial`, `C160_constructor_false`.
- **C161 Highlighting.** Modelled: NotebookUi.find, findAttitudes, hoveredItems, isHovered, listItem. Proof: cases; invariant of executions. Status: partial. The list can be drawn if all members of groups are on the page; otherwise refuted: undefined is highlighted, and the list raises TypeError. Theorems: `C161_group`, `C161_single`, `C161_list_partial`, `C161_list_false`.
- **C162 The list of measurements.** Modelled: NotebookUi.listItem. Proof: ids determine positions. Status: partial. Proved for pages with distinct ids and complete groups; refuted for two measurements with the same id (a click on one marks both). Theorems: `C162_list_partial`, `C162_same_uid_false`.
- **C163 Stereonet and data.** Modelled: NotebookUi.didUpdate, mount, updatePlanes, updatePoles, netProps, mouseenter. Proof: induction over updates; freshness of array identities. Status: partial. Proved for arrays that are not changed in place. Refuted for the notebook page: clicks while only the selection is shown are not drawn. Refuted for the web application: it passes no handler, so the mouse over a measurement raises TypeError. Theorems: `C163_component`, `C163_page_partial`, `C163_page_false`, `C163_hover_false`.
- **C164 Highlighted shapes.** Modelled: NotebookUi.updateHovered, didUpdate. Proof: induction over events; freshness of array identities. Status: partial. Proved for the page. Refuted for the component: if a measurement is first highlighted in the same update in which a form is switched, nothing is. Theorems: `C164_page`, `C164_component_false`.
- **C165 Controls of the view.** Modelled: NotebookUi.change, zoomEnabled, getData. Proof: freshness of array identities; computation. Status: partial. The second is proved for nonempty selections and refuted after "Clear selection": nothing is shown and the button is disabled. Dragging the globe is not modelled. Theorems: `C165_center`, `C165_show_all_partial`, `C165_show_all_false`.
- **C166 Scale of the side view.** Modelled: NotebookUi.Scale, sideScales. Proof: linear arithmetic; witness. Status: partial. Proved but for the horizontal extent. Refuted: planes can be out of view horizontally, and planes above each other have no scale (xsize is assigned a function). Theorems: `C166_scale_partial`, `C166_in_view_false`.
- **C167 azimuth and slope of a fit.** Modelled: Pca.azimuth, slope, strikeDipRaw. Proof: polar coordinates of the third axis; comparison with strike_dip. Status: partial. Proved for third axes that do not point down. Refuted for all others, which the SVD may return: the slope then exceeds 90 degrees. Theorems: `C167_raw`, `C167_dip_partial`, `C167_down_false`.
- **C168 A plane given to the frontend by strike, dip and rake is drawn as that plane.** Modelled: Model/Versor.lean models the quaternion functions from their mathematical definition, with the order of rows and columns as a parameter, and composes them as reconstruct.ts does. Proof: The rotation matrix of a product is the product of the matrices; the two elementary rotations are evaluated and the product is compared with the frame of Props/Reconstructed.lean; C106_nominal and C114_widths then say what is drawn. With columns instead of rows the third row is computed in closed form and a witness is given. Status: partial. Partial: versor_toRotationMatrix comes from a module that is not in the repository. Proved if the axes are the rows of its matrix; refuted (the strike is ignored by the third axis) if they are its columns. Theorems: `C168_axes_partial`, `C168_drawn_partial`, `C168_axes_false`, `C168_strike_ignored_false`.
- **C169 Python and the frontend reconstruct the same plane from strike, dip, rake and errors.** Modelled: Model/Reconstructed.lean (Python) and Model/Versor.lean, Model/FrontendShapes.lean (TypeScript). Proof: Both frames are written with the same two vectors, the normal and the vector at the rake; the signs are treated by cases. The lengths are computed on both sides. Status: partial. Partial for the reason given for C168, and because the errors have to be given to Python as (max, min): in the order (min, max) the two errors are exchanged, which is proved as C169_order_false. Theorems: `C169_python_frontend_partial`, `C169_order_false`.
- **C170 The data panel.** Modelled: Panels.render, angularMeasurement, fmt; NotebookUi.run for the events of the page. Proof: rounding by floor; invariant over event sequences: what is highlighted starts with a measurement. Status: partial. Proved for measurements whose strike, dip and errors are numbers. Refuted: a strike within 0.05 degrees of 360 is shown as 360.0; a missing strike, dip or error is shown as 0.0, and missing errors are not shown as 'No errors recorded'. Theorems: `C170_shows`, `C170_prompt`, `C170_page`, `C170_strike_false`, `C170_missing_false`, `C170_not_a_number`.
- **C171 Labels are at the lines of the graticule that they name.** Modelled: Panels.graticule (d3's geoGraticule with the extents of the code), selected, intersections. Proof: the first two vertices of a line differ in exactly one coordinate; characterisation of range and filter. Status: proved. Universal over projection and intersection routines that meet their contract. Theorems: `C171_labels`, `C171_lines`.
- **C172 Texts of horizontal views.** Modelled: Panels.horizontalTexts, Frontend.project. Proof: closed form of the projection for views that are not rolled, sign of the cosine. Status: partial. Proved for views turned by less than 90 degrees; refuted for those turned by more (the texts do not follow the view). Theorems: `C172_sides_partial`, `C172_behind_false`, `C172_vertical`.
- **C173 Exact measurements give back their strike and dip.** Modelled: Pca.init, strikeDip, residuals over data built from strike and dip (Spec.inBed). Proof: the best plane of coplanar data is their plane (C07); its normal is that of the strike and dip, which determine each other (strikeDipOf_spec, sdNormal_inj). Status: proved. Universal; specification independent of the code: points q + x heading(s) + y plunging(s+90,d). Theorems: `C173_exact_recovery`.
- **C174 Errors are zero exactly for exact data.** Modelled: ErrorAxes.noiseAxes, samplingAxes, angularErrors of a default fit. Proof: the normal axis is at least the smallest eigenvalue (C21_closed_form); the eigenvalue is zero exactly for coplanar data. Status: proved. Both directions. Theorems: `C174_zero_errors_iff_exact`.
- **C175 Vertical exaggeration.** Modelled: Pca.init, strikeDip of the exaggerated data (Spec.exaggerated). Proof: the exaggerated points lie in the plane of strike s and dip arctan(k tan d); C173. Status: proved. Universal. Theorems: `C175_vertical_exaggeration`.
- **C176 Moving the data moves the fit.** Modelled: Pca.init, center, normal, errorsAt for data and moved data (Spec.rigid). Proof: the moved axes are an SVD of the moved data (IsSVD), uniqueness of singular values and of the smallest axis. Status: proved. The plane is determined if the best plane is unique (s1 > s2). Theorems: `C176_rigid_motion`.
- **C177 Order and repetition of points.** Modelled: Pca.init, center, strikeDip, errorsAt for reordered and repeated data (Spec.EachTaken). Proof: sums over the points are multiplied by k; C176's argument with the covariance form. Status: proved. Strike and dip for unique best planes; strike up to 180 degrees for vertical and horizontal planes as in C11. Theorems: `C177_repeated_points`, `C177_order_of_points`.
- **C178 Mirror image.** Modelled: Pca.init, strikeDip for data and their mirror image (Spec.mirrored). Proof: C176 with the reflection; strikeDip_mirror, strikeDip_neg. Status: proved. Universal over data and SVD routines. Theorems: `C178_mirror_image`.
- **C179 More points never fit better.** Modelled: Pca.init, residuals of both fits (Spec.residualSum). Proof: the fit of the larger set is a candidate plane for the smaller one; optimality (C06). Status: proved. Universal. Theorems: `C179_more_points`.
- **C180 A group is the best set of parallel planes.** Modelled: Grouped.init, normal; Spec.parallelMisfit. Proof: the stacked centered arrays have the least misfit (C06); the best offset of each plane is through its mean. Status: proved. Optimality over all unit normals and all choices of offsets. Theorems: `C180_parallel_planes`, `C180_same_plane`.
- **C181 From the fit to the drawing.** Modelled: Pca.init, strikeDip, errorsAt on the Python side, Frontend.combinedErrors on the other. Proof: C106 (points of the girdle lie on the cone of the axes); elevation of a cone over an ellipse between those of its semiaxes. Status: proved. For axes with positive lengths. Theorems: `C181_nominal`, `C181_errors`.
- **C182 Which labels the stereonet shows.** Modelled: FrontendStereonet.shownLabels, labelShown, viewCenter, geoDistance, labelAnchor, labelTranslate, project. Proof: angle to the direction in the middle of the view; the projection draws at twice the sine of half of this angle. Status: proved. Texts within 20 pixels of the middle of the drawing are centered on their points, this is not excluded. Theorems: `C182_shown_iff`, `C182_opposite`, `C182_compass_always`, `C182_radius`, `C182_inside`, `C182_text`.
- **C183 Strike, dip and rake give the axes.** Modelled: Pca.strikeDipRake, rake, strikeDip. Proof: the axis is expanded in heading and dip direction (C16), arccos of the first coefficient gives the second up to sign. Status: partial. Proved up to the side of the dip direction; refuted for the side: data with the same strike, dip and rake and different axes. Missing: the side. Theorems: `C183_axis_partial`, `C183_side_false`, `C183_horizontal`.
- **C184 A fit of two-column data is the best line.** Modelled: Pca2.init, Pca2.residuals, Pca2.hyperbolicAxes, Pca2.angularErrors for arrays with two columns; weights and axes left out. Proof: The decomposition diagonalises the sum of squares; the misfit of a line splits into a part through the mean and an offset. The contract of the decomposition is met by exists_rectSvd. Status: proved. C184_best_line (optimal among all lines, with its value), C184_residuals, C184_exact, C184_offset, C184_slope, C184_error. Theorems: `C184_best_line`, `C184_residuals`, `C184_exact`, `C184_offset`, `C184_slope`, `C184_error`.
- **C185 What a two-column fit offers.** Modelled: Pca2.init, Pca2.strikeDip, Pca2.coefficients, Pca2.toMapping, Pca2.explainedVariance. Proof: Unfolding for the exceptions; the variances are 4 s^3 / n, of which the slice v[0:2] takes all. Status: partial. C185_accepted holds; C185_no_orientation_false and C185_explained_false show what the code does instead of giving an orientation or a measure of fit. Theorems: `C185_accepted`, `C185_no_orientation_false`, `C185_explained_false`.
- **C186 contains with shell_only means on the surface.** Modelled: Conics.contains with shell_only, N.allclose with its default absolute tolerance. Proof: Expansion of the quadratic form; scaling of the matrix by a small factor. Status: partial. C186_shell_only: exactly the points at which the quadratic form is at most 1e-8 in absolute value are accepted, so every point of the surface is. Missing: only these. Refuted by C186_shell_only_false: for every conic and every point there is a positive multiple of the conic, with the same surface, that accepts the point. Theorems: `C186_shell_only`, `C186_shell_only_false`.
- **C187 Slicing a planar conic by a line gives the conic along the line.** Modelled: Conics.slice2, perpendicularVector for two components. Proof: The transformed quadratic form at a parameter is the form at the point with that parameter; the default direction swaps the components of the normal without changing a sign. Status: partial. C187_slice_line_with_axes holds for a direction that is given. Missing: the default. Refuted by C187_slice_line_false for every line that is not parallel to an axis: the direction chosen is not along the line, and the slice meets the line only in one point. Theorems: `C187_slice_line_with_axes`, `C187_slice_line_false`.
- **C188 A figure embedded in a page is the figure that was saved.** Modelled: DisplayUtil.b64encode, quote, encode; matplotlib's file is a parameter. Proof: Induction over groups of three bytes, arithmetic for each group; percent-decoding character by character. Status: proved. Universal, by induction over the bytes. The decoder is written from the standards, apart from the encoder. Theorems: `C188_image`, `C188_injective`.
- **C189 Aligned residual plots show a flat regression line.** Modelled: DisplayUtil.sections, alignedResiduals; matplotlib and seaborn left out. Proof: Columns of the rotated array are orthogonal and have mean zero, so the misfit of a line is that of the flat one plus squares. Status: partial. Holds with Python 2. Missing: Python 3, for which C189_python3_false shows that the function always fails, because dictionaries have no itervalues. Theorems: `C189_flat_partial`, `C189_python3_false`.
- **C190 Bootstrap resampling of the normal.** Modelled: DisplayUtil.bootstrap with Python's binding of arguments. Proof: Case distinction over the arguments; the inner call is never accepted. Status: partial. Refuted: the function replaces the one of the same name that it imports, so that it calls itself with an argument it does not have. Missing: everything; every call is a TypeError. C190_accepted says which calls Python accepts. Theorems: `C190_bootstrap_false`, `C190_accepted`.
- **C191 Rectangular stereonets.** Modelled: Rectangle.RectNet.step, rectangle over FrontendStereonet.Net. Proof: Induction over the calls in between (margin and rectangle are kept); comparison of coordinates. Status: partial. A rectangle without options is the square within the margins. Size, position and clipping hold for all sequences of calls, centering for rectangles without a given position. Missing: centering with a position, centerPosition and resizing, all of which are refuted: the projection is centered as if the position were the margin, and __setScale moves it to the middle of a square. Theorems: `C191_rectangle_partial`, `C191_default_square`, `C191_position_false`, `C191_resize_false`, `C191_center_position_false`.
- **C192 Labels of the rectangular plot are at its edges.** Modelled: Rectangle.plot, dipLine, azimuthLine, Panels.intersections. Proof: C171 for the line given to alongLine; coordinates of the outline follow from the calls. Status: partial. Labels of the dip are on the lower edge. Missing: 25 pixels at each end of the lower edge, where crossing lines get no label, and the azimuth: C192_azimuth_false shows that its labels are 20 pixels left of the right edge, partly above the plot. Theorems: `C192_dip_partial`, `C192_azimuth_false`.
- **C193 Ranges of strike and dip in floating-point arithmetic.** Modelled: Rounding.flStrikeDip, flNorm; Contract for the rounding (proved for rounding to 53 bits, round53); overflow, underflow and signed zeros left out. Proof: The computed norm is at least the absolute value of each component as rounding keeps the order and sqrt(x^2) is exact; the other bounds are integers, which rounding does not cross. Status: partial. The dip is never nan and in its range, the strike is at least 0. Missing: strike below 360, which C193_360_false refutes for double precision: for all planes that dip east and a trace to the north, strike + 360 is rounded to 360 (the trailing part is lost in the sum). Theorems: `C193_range_partial`, `C193_360_false`.
- **C194 Accuracy of strike and dip in floating-point arithmetic.** Modelled: Rounding.flStrikeDip, flNorm; as for C193. Proof: Relative errors of the norm and the quotient; arccos is continuous of order one half; the normal is Lipschitz in strike and dip. Status: proved. Universal. The bound 10^-7 is the square root of the unit roundoff up to a small factor, which is what flat planes lose through arccos. Theorems: `C194_accuracy`.
- **C195 Angles between fits in floating-point arithmetic.** Modelled: Rounding.flDot, flAngleCos, flAngle; as for C193. Proof: Error bounds for scalar product, norms and quotient; for the refutation the computation for one normal, (1, 2^-26, 0), in rounding to 53 bits. Status: partial. The cosine is accurate for all vectors; the angle is for those that are not parallel up to rounding. Missing: vectors that are all but parallel, for which C195_itself_false refutes the claim: the angle of a normal with itself can be nan, because the quotient is rounded to more than 1 and not clipped. Theorems: `C195_cosine`, `C195_angle_partial`, `C195_itself_false`.
- **C196 Small errors of the points tilt the plane little.** Modelled: Pca.init, Fit.normal, Fit.s. Proof: Centering does not lengthen the movement; the new normal has a misfit that is close to the least one, and misfits grow with the angle by the gap. Status: partial. The squared sine of the tilt is bounded by the movement over the gap of the squared singular values; for points of an exact plane the sine is at most twice the movement over the second singular value. Missing: data whose second and third singular values are equal, for which C196_unstable_false shows that the smallest movement can turn the plane by a right angle (no fit of a plane could do otherwise). Theorems: `C196_tilt_partial`, `C196_exact`, `C196_unstable_false`.
- **C197 Small errors of the points change the singular values little.** Modelled: Pca.init, Fit.s. Proof: Minimum and maximum over directions for the outer ones; for the middle one a direction in the plane of two axes of one fit and perpendicular to the first axis of the other. Status: proved. All three singular values, without conditions. Theorems: `C197_singular_values`.
- **C198 Regression and principal components of the same points.** Modelled: Linear.linearOrientation, Linear.strikeDip, Pca.init, Pca.strikeDip. Proof: The normal equations and the eigenvector equation of the third axis combine to a positive definite form of the difference between the gradients. Status: proved. Universal. The dip direction is compared if the regression is not horizontal. Theorems: `C198_dip_at_most`.
- **C199 Measurements that agree with the fit.** Modelled: Pca.init, Fit.s, Fit.normal, Pca.strikeDip. Proof: The old plane has the same misfit for the new data and no plane has less; interlacing of the singular values. Status: proved. The plane is compared where it is unique (second singular value above the third); its normal if it is not vertical, strike and dip if it is not horizontal either (see C13). Theorems: `C199_extents_grow`, `C199_confirmed`.
- **C200 Measurements that agree with the fit reduce its errors.** Modelled: ErrorAxes.statisticalAxes, ErrorAxes.angularErrors, Pca.init. Proof: The closed form of C21, scaled to singular values; the third is unchanged and the others do not shrink (C199); the F quantile falls with the number of points by Bernoulli's inequality. Status: partial. Holds while the errors of the first fit do not exceed its in-plane eigenvalues; the quantiles of the F distribution are shown to meet the hypothesis. Missing: larger errors. C200_confirmed_larger_false: at 95%, for every set of six points not in one plane, adding their mean as a seventh makes both sampling errors larger. Theorems: `C200_confirmed_errors_partial`, `C200_confirmed_larger_false`.
- **C201 Centering in floating-point arithmetic.** Modelled: RoundedFit.SumTree, flMean, flCentered. Proof: Induction over the tree of additions; each rounding multiplies the error by at most 1 + u. Status: partial. The error is at most 4 (h + 2) units of rounding of the largest coordinate, for sums of h additions one after the other; integers whose mean is an integer are centered exactly. Missing: exactness otherwise. C201_constant_false: three elevations of 0.1 are centered to -2^-56 rather than zero, in each order of summation. Theorems: `C201_centered_partial`, `C201_integers`, `C201_constant_false`.
- **C202 Strike and dip from points to output in floating-point arithmetic.** Modelled: RoundedFit.flPlane, Rounding.flStrikeDip. Proof: Centering by C201, the decomposition as one of a matrix close by, the tilt of its last axis by the gap as in C196, the angles by C194. Status: proved. The decomposition of LAPACK is any that is backward stable for the number of points, the mathematical library any with a bounded error. Shown for fits whose second singular value is larger than the third (see C196 for the others). Theorems: `C202_strike_dip`.
- **C203 Singular values in floating-point arithmetic.** Modelled: RoundedFit.flFit. Proof: Singular values of two matrices differ by at most the size of the difference (as in C197). Status: proved. All three singular values, without conditions on the gaps. Theorems: `C203_singular_values`.
- **C204 More and more measurements.** Modelled: ErrorAxes.statisticalAxes, ErrorAxes.angularErrors, Pca.init. Proof: The closed form of C21 in terms of a relative error that falls with the number of points; continuity of the angle at zero relative error; a lower bound for all relative errors. Status: partial. The errors come arbitrarily close to the angles arctan(s3/s1) and arctan(s3/s2) of the scatter as measurements are repeated, and are never smaller than these, for all data, levels and both methods. Missing: that they vanish, which C204_vanish_false refutes for all points that are not in one plane. Theorems: `C204_floor`, `C204_limit_partial`, `C204_vanish_false`.
- **C205 The fit finds the true plane.** Modelled: Pca.init, Pca.strikeDip. Proof: Strong law of large numbers for the second moments; convergence of the variance along all directions at once; the gap between the variances bounds the angle to the true normal; the inner product of two normals in terms of their strikes and dips. Status: proved. Strike modulo 360 and for dips other than zero; dip below 90. Theorems: `C205_consistent`, `C205_strike_dip`.
- **C206 The confidence level is the probability of containing the true plane.** Modelled: ErrorAxes.statisticalAxes, ErrorAxes.angularErrors, Pca.init. Proof: The errors never fall below the angle of the scatter (C204) while the angle to the true plane tends to zero (C205). Three points always lie in a plane, so that the errors are zero (C174), and with probability one it is not the true plane. Status: partial. For many points the errors contain the true plane with probability one at all levels, even at level zero; for three points with probability zero at all levels (C206_three_points_false). Missing: that the share is the level, which these two refute. Theorems: `C206_many_points_partial`, `C206_three_points_false`.
- **C207 The principal component fit finds the true plane whatever the errors.** Modelled: Pca.init, Pca.strikeDip. Proof: Equal errors add the same variance along all directions, so that the normal of the plane has the least variance and C205 applies. Errors of elevation add less variance along steeper normals: an explicit direction varies less than the true normal, the fit is at least as good, and this bounds the cosine of its dip. Status: partial. True for equal errors of the coordinates (C207_equal_errors_partial). If only the elevation has errors it is false for every inclined plane: with probability one the dip stays above the true dip by a fixed amount (C207_vertical_errors_false). Theorems: `C207_equal_errors_partial`, `C207_vertical_errors_false`.
- **C208 The regression finds the true plane whatever the errors.** Modelled: Linear.initRows, Linear.coefficients, Linear.linearOrientation, Linear.strikeDip. Proof: Strong law of large numbers for the covariances; the normal equations by Cramer's rule, whose limit is the plane if the covariances with x and y have no errors; with errors in x and y the limit has a smaller gradient, by positivity of the covariance of the true points. Status: partial. True if only the elevation has errors (C208_vertical_errors_partial). With equal errors of the coordinates it is false for every inclined plane: with probability one the dip stays below the true dip by a fixed amount (C208_equal_errors_false). Together with C207: neither kind of fit is right for both kinds of errors. Theorems: `C208_vertical_errors_partial`, `C208_equal_errors_false`.
- **C209 A planar elevation model gives its plane.** Modelled: Dem.extractShape, Dem.extractArea, Dem.extractLine, Dem.bilinearAt, Pca.init, Pca.strikeDip, Pca.errorsAt. Proof: C79 and C80 give the rows, C81 the elevations; a common lemma shows that points of a surface at three positions not on a line determine the fitted normal, and that strike and dip of this normal are those of the gradient. Status: partial. True for areas (C209_area). For lines it is true if the points are at least half a cell away from the edges of the window that is read (C209_line_partial). It is false for others: every line around a triangle within one cell is fitted exactly by a horizontal plane, with zero errors, however steep the model is (C209_short_line_false). Theorems: `C209_area`, `C209_line_partial`, `C209_short_line_false`.
- **C210 One wrong point does not decide the result.** Modelled: Pca.init, Linear.linearOrientation, Linear.strikeDip. Proof: The sum of squares along a direction perpendicular to e does not depend on t and bounds the third singular value, which in turn bounds the projection of the wrong point; the normal equations are linear in the wrong elevation. The bound is C196 for one point. Status: partial. False for both kinds of fits. Principal components: a point at distance t in any direction e turns the plane so that the cosine between its normal and e is at most 3R/t, R the root of the sum of squares of the other coordinates (C210_one_point_false). Regression: one wrong elevation makes the dip as steep as one likes (C210_one_elevation_false). What remains is a bound by the distance of the wrong point over the second singular value (C210_one_point_partial). Theorems: `C210_one_point_false`, `C210_one_point_partial`, `C210_one_elevation_false`.
- **C211 Small errors of elevation change the regression little.** Modelled: Linear.initRows, Linear.coefficients, Linear.linearOrientation, Linear.strikeDip. Proof: The change of the regression is the projection of the errors on the positions, by the normal equations of both fits; a projection does not lengthen, and is the identity on tilts. Status: proved. Proved, with the constant that is attained by a tilt along the smallest extent of the positions. Theorems: `C211_small_errors`, `C211_tilt`.
- **C212 The order of the points in floating-point arithmetic.** Modelled: RoundedFit.flCentered, RoundedFit.flPlane. Proof: C201, C202 and C177 for both orders; the refutation evaluates the roundings of one example, without ties. Status: partial. Exactly true for integers with an integer mean (C212_integers). In general the centered coordinates agree up to 8(h+2) unit roundoffs of the largest coordinate (C212_centered_partial) and both planes are within the same bound of the exact one (C212_strike_dip). Equality is false: three points for which giving the first one last changes the centered coordinates (C212_order_false). Theorems: `C212_centered_partial`, `C212_integers`, `C212_order_false`, `C212_strike_dip`.
- **C213 A group of traces of parallel beds.** Modelled: Grouping.newGroup, Pca.init, Pca.strikeDip. Proof: The centered arrays of the members have no component along the common normal, so that the third singular value is 0 and every normal of the fit is perpendicular to two directions of the beds; the strike and dip of a normal are unique by C173's lemma. The refutation computes the group of two squares. Status: partial. Proved for same_plane=False (C213_parallel_beds). False for same_plane=True: two exact measurements of flat beds above each other are given a dip (C213_same_plane_false). Theorems: `C213_parallel_beds`, `C213_same_plane_false`.
- **C214 Grouping never fits better than the members.** Modelled: Grouping.newGroup, Pca.init, Pca.residuals. Proof: C180: the residuals of the group are the sum over the members of the misfit of parallel planes at their best offsets; each term is at least the least misfit of the member (C01), and one plane is a special case of parallel planes. Status: proved. C214_members with the condition for equality, C214_one_plane; members of any shapes and numbers of points. Theorems: `C214_members`, `C214_one_plane`.
- **C215 The errors tell that a point is wrong.** Modelled: Pca.init, Pca.strikeDip, ErrorAxes.errorsAt, Pca.residuals. Proof: The normal of the fit is a combination of the normal of the right points and a direction in their plane; the distances of the right points from the fitted plane are those from a line in their plane times the sine. The refutation solves the fit of five points with a parameter and bounds the arc tangent. Status: partial. False for the angular errors: four points exactly in a horizontal plane, a fifth above them, the fit is vertical and both angular errors are smaller than any given positive number (C215_angular_errors_false). True for the residuals: the sum of their squares is at least the squared sine of the angle between the planes times the least extent of the right points in their plane (C215_residuals_partial). Theorems: `C215_residuals_partial`, `C215_angular_errors_false`.
- **C216 Points on a line are recognised as not determining a plane.** Modelled: Pca.init, Fit.normal, Fit.s, ErrorAxes.errorsAt. Proof: The decomposition of data along one direction leaves the other two axes free; a backend is built that returns the wanted ones. The equivalence uses a combination of the first two axes that is perpendicular to the line. Status: partial. False: both errors are zero at all levels, and each plane through the line is the result for some decomposition that meets numpy's contract (C216_line_false). The second singular value is zero exactly for points on a line (C216_second_partial), but nothing tests it. Theorems: `C216_second_partial`, `C216_line_false`.
- **C217 Small errors of the points change the angular errors little.** Modelled: Pca.init, ErrorAxes.statisticalAxes, ErrorAxes.errorsAt. Proof: Singular values change by at most the distance moved (C197); the error is the arc tangent of a function of quotients of singular values with a bounded slope. The refutation solves the fit of six points with a parameter. Status: partial. Proved while the errors are at most half of the extent of the data: the change is at most five times the distance moved over the extent, times the root of one plus the relative width (C217_errors_partial). Missing: other data. C217_jump_false: for points on a line the smallest movement can change an error from 0 to 45 degrees or more. Theorems: `C217_errors_partial`, `C217_jump_false`.
- **C218 Accuracy of planes from elevation models.** Modelled: Dem.extractShape, extractArea, Pca.init, Linear.linearOrientation, Linear.strikeDip. Proof: The cells extracted are known (C79), the regression is compared with that of the exact plane at the same positions (C211), the principal components likewise (C196), with the second singular value of points of a plane bounded below by their extent in map view; the extent of a block is a sum of squares in closed form. Status: proved. C218_area for all masks in terms of the extent of the valid cells, C218_block for rectangles. For principal components the sine of the angle to the true plane is at most twice the bound. The errors may be systematic. Theorems: `C218_area`, `C218_block`.
- **C219 Groups combine the spread of their members.** Modelled: Grouping.newGroup, Pca.init, ErrorAxes.errorsAt. Proof: The quadratic form of the array of a group is the sum of those of its members, since each member is centered; singular values and last axis depend on the form only. Status: proved. C219_spread: total squared singular values add up, the largest at most and the smallest at least add up. C219_copies: for translated copies all singular values grow by the square root of the number; strike and dip stay (unless the plane is horizontal, or vertical up to 180 degrees; unique best plane); errors are at least the angles of the scatter of one. Theorems: `C219_spread`, `C219_copies`.
- **C220 Which line is fitted to two columns.** Modelled: Pca2.init, Pca2.Fit. Proof: The misfit of a line in terms of its components along the fitted axes. Status: proved. C220_unique, C220_round (otherwise all lines through the mean are equally good), C220_implementation (the attribute strike too, unless the line is vertical). Theorems: `C220_unique`, `C220_round`, `C220_implementation`.
- **C221 Members of a group that say nothing.** Modelled: Grouping.newGroup, Pca.init, ErrorAxes.errorsAt. Proof: The quadratic form of the group is unchanged, the number of points larger; the error is strictly monotone in the relative error of the method. Status: partial. Singular values, strike and dip stay (C221_orientation_partial). The errors become strictly smaller, for every group that does not fit exactly, as long as the errors do not exceed the extent of the data (C221_errors_false): the points are counted although their mean is subtracted, that is, the offsets fitted for each member are not subtracted from the degrees of freedom. Theorems: `C221_orientation_partial`, `C221_errors_false`.
- **C222 Groups of many traces of parallel beds come close to the true beds.** Modelled: Grouping.newGroup, Pca.init, Pca.strikeDip. Proof: The form of the group is the sum of the forms of the traces, whose averages converge by the strong law of large numbers; equal errors add the same amount in all directions, so the smallest direction of the limit is the normal of the beds. Status: proved. C222_strike_dip: almost surely, for all tolerances, from some number of traces on and for all translations of the traces; dips below 90 degrees, the strike modulo 360 and only for beds that are not horizontal. All traces have the same number of points. Theorems: `C222_strike_dip`.
- **C223 Which groups can be made.** Modelled: Grouping.newGroup, Grouping.arraysOf, Grouping.vstack, Grouping.markMembers. Proof: Case analysis in the order of the checks, with induction over the arguments for the loop that marks members. Status: proved. C223_succeeds, C223_exceptions: exact conditions for success and for each of AttributeError, GroupedPlaneError, TypeError (unknown keyword) and ValueError. Theorems: `C223_succeeds`, `C223_exceptions`.
- **C224 The variance left over by a fit estimates that of the errors.** Modelled: Grouping.newGroup, Pca.init, Pca.eigenvalues. Proof: The forms converge in all directions at once (C205, C222); the smallest eigenvalue lies between the bounds of the limit, and n/(n-1) tends to 1. Status: partial. C224_single_partial: true for single planes. C224_groups_false: false for groups of traces with parallel planes; each trace is centred by its own mean but only one degree of freedom is subtracted, so the estimate of groups of traces of m points converges to (1 - 1/m) of the true variance (C224_groups_partial), a third too small for traces of three points. Theorems: `C224_single_partial`, `C224_groups_partial`, `C224_groups_false`.
- **C225 Angular errors in floating-point arithmetic.** Modelled: RoundedErrors.flErrors, flAxes, flCovariance, flEigenvalues, flAngularErrors. Proof: Relative errors are counted in roundings, (1 + u)^k - 1, through products, square roots and the subtraction, which cannot cancel under the condition; the singular values by C203 and the dependence on them as in C217. Status: proved. C225_errors: explicit bound, with the errors of the decomposition, of the quantile and of the arctangent as parameters. Overflow and underflow are not modelled. Theorems: `C225_errors`.
- **C226 How far strike and dip change when a plane is tilted.** Modelled: Pca.strikeDip, Pca.init. Proof: The normals in terms of strike and dip; the squared cosine between them is at most that of the difference of the dips; the part across the strike is a sum of squares. For points, C196. Status: partial. C226_dip holds always. C226_strike_partial and C226_points_partial: strikes only away from level and vertical planes; C226_horizontal_false and C226_vertical_false give, for every positive angle, two fits that close with strikes 0 and 180. Theorems: `C226_dip`, `C226_strike_partial`, `C226_points_partial`, `C226_horizontal_false`, `C226_vertical_false`.
- **C227 Planes within the error surface, and the dips they have.** Modelled: Pca.strikeDip, ErrorAxes.angularErrors, noiseAxes, samplingAxes. Proof: In the coordinates of the axes: the steepest line of a plane is in the cone, which bounds its slope by the larger ratio; then the bounds of C226. The planes through the cone's generators reach the angles. Status: proved. For axes other than zero, where the angular error is less than 90 degrees. Theorems: `C227_dip`, `C227_strike`, `C227_attained`, `C227_dip_range`.
- **C228 Standard errors of a regression.** Modelled: Linear.initRows, coefficients, residuals, covarianceMatrix, standardErrors. Proof: Residuals are the errors times a projection with trace n - 3, coefficients the errors times (X'X)^-1 X'; expectations of the quadratic forms. For repeated points, the normal matrix and the sum of squares both grow by k. Status: partial. The sum of squared residuals is not divided by the degrees of freedom (the division is commented out), so the squares of the standard errors are on average n - 3 times the variances: C228_inflated_partial (with unbiased slopes), right only for four points (C228_four_partial); C228_variance_false for every larger number. C228_repeated_false: measuring all points k times leaves them unchanged. Theorems: `C228_inflated_partial`, `C228_variance_false`, `C228_four_partial`, `C228_repeated_false`.
- **C229 Points of a plane in the frontend.** Modelled: SideView.planeData, meanOf, subtractMean. Proof: Cases on the properties; lists. Status: partial. Proved for points without centered points, with the mean taken if no position is given, for what to_mapping sends, for given centered points, and that no points and no position are refused. Refuted if mean and center both are given and differ: the points are moved by the difference. Theorems: `C229_points`, `C229_computed`, `C229_precedence`, `C229_given`, `C229_no_points`, `C229_python`, `C229_moved_false`.
- **C230 What the side view draws.** Modelled: SideView.mount, place, overallCenter, groupOf, hyperbolas, groupHyperbolas, traces, depth. Proof: mapM over lists; the middle by C116, lines by C119; sorting is a permutation and ordered. Status: partial. Proved for measurements with a center and without a mean. Refuted otherwise: a single measurement without center (every ReconstructedPlane) makes everything fail, groups without members too, and mean moves a plane away from the middle. Theorems: `C230_shown`, `C230_position`, `C230_hyperbolas`, `C230_groups`, `C230_traces`, `C230_no_center_false`, `C230_groups_alone_false`, `C230_mean_false`.
- **C231 Labels and changes of the side view.** Modelled: SideView.labelAngle, elevationScale, didMount, didUpdate, updateHovered, run. Proof: Invariant over the sequence of properties; trigonometry. Status: partial. Proved for elevations, the azimuth, and highlighting while the mouse is on a measurement. Refuted: the direction in the label is right for two azimuths only; new data is never drawn; highlighting stays when the mouse leaves; a group with a missing member is an error. Theorems: `C231_elevation`, `C231_label_false`, `C231_label_start_false`, `C231_current_partial`, `C231_data_false`, `C231_leave_false`, `C231_missing_member_false`.
- **C232 Elements of the side view over changes of azimuth.** Modelled: SideView.updateElems, bindElem, maskSize, elemsAfter. Proof: Induction over the views; sorting commutes with the map to planes; permutations of classes and masks. Status: partial. Proved: planes and their order in all views, classes and masks in the first view, the number of marked elements in all views, and the classes as long as the views keep the order of the data. Refuted: elements are sorted but planes are bound to them by position, so that a member and a plane without a group exchange their classes; masks stay those of the first view. Theorems: `C232_planes`, `C232_first_partial`, `C232_count`, `C232_class_partial`, `C232_class_false`, `C232_masks_false`, `C232_mask_false`.
- **C233 Planes and ellipses added to a stereonet.** Modelled: NetData.draw, join, selectAppend, remove, defaultColor, defaultSelector. Proof: Induction over the calls with the data join of d3; case analysis of the options. Status: partial. Proved: refusal before the net is drawn, the drawing into a container without elements of the kind (also after the container was removed, as the notebook does), planes and ellipses side by side, and what is shown after any sequence of calls. Refuted: a second call with no more data changes nothing that is drawn and returns an empty selection; an object that was used for planes sends ellipses into the container of the planes, in gray. Theorems: `C233_before`, `C233_shown_partial`, `C233_repeated_partial`, `C233_replace_false`, `C233_removed`, `C233_both`, `C233_options_false`.
- **C234 Listeners of a stereonet.** Modelled: NetData.on, setCallback, step, run, State.call. Proof: Invariant over event sequences: the table of listeners is what the history registers, names are distinct. Status: partial. Proved: a rotation calls exactly the functions last registered under each name, the newest one last; functions under names of their own stay; labels follow as long as they are added once and nothing is registered for rotate without a name. Refuted: such a registration stops the labels, a second set of labels stops the first, center tells nobody, looking up a function removes it, and redraw is never sent. Theorems: `C234_called`, `C234_last`, `C234_named`, `C234_labels_partial`, `C234_labels_false`, `C234_again_false`, `C234_center_false`, `C234_asking_false`, `C234_other_false`.
- **C235 Averages of many repetitions of a bootstrap.** Modelled: Statistics.bootstrapResampled, bootstrapNoise; draws and noise as random variables. Proof: Strong law of large numbers; independence of the draws gives the variance of a sum; fair draws and Gaussian noise are constructed. Status: partial. Proved: the limits of means and of the scatter of resampled points, and of the means of noisy points; the exact limits of the variance of resampled means and of the scatter of noisy points. Refuted: the variance of resampled means tends to the mean square deviation over the number of data, which is less than the square of the standard error; noise adds its variance times the number of points to the scatter. Theorems: `C235_mean`, `C235_scatter`, `C235_variance`, `C235_standard_error_false`, `C235_noise_mean`, `C235_noise_scatter_partial`, `C235_noise_scatter_false`.
- **C236 The coefficients of a regression in floating-point arithmetic.** Modelled: RoundedRegression.flDesign, flNormal, flXy, flCoefficients; the inverse of numpy as an arbitrary function with a contract. Proof: Error bounds of sums of rounded products in any order; the residual of the inverse and a lower bound of the normal matrix from the width of the data; for the strip the rounded squares are computed exactly by binades. Status: partial. Proved: if the points are wide in plan compared to a stated bound for the errors of the normal equations, the program finds coefficients, and their error is at most a stated multiple of that bound. Refuted without this condition: for four points with integer coordinates in a strip 2^28 times as long as wide the computed matrix is singular, and the planes z = x and z = y give the same answer, whatever is used as the inverse. Theorems: `C236_coefficients_partial`, `C236_narrow_false`, `C236_refused_false`.
- **C237 No better way to get slopes from the same points.** Modelled: Linear.initRows, coefficients, predictions. Proof: The weights of the regression are in the span of the design matrix, and other weights differ from them by something perpendicular to it; the variances of the predictions are the diagonal of a projection of rank three. Status: proved. Gauss-Markov theorem for the coefficients and the predictions of the code. Theorems: `C237_best`, `C237_elevations`.
- **C238 Turning the measurements turns the error curves.** Modelled: Pca.init, covarianceMatrix, Stereonet.planeErrors, normalErrors. Proof: The axes of the turned points are the turned axes up to sign, as the products of the data with the axes show; a change of sign of an axis reflects the angles of the samples, and the reflected angles are among those of 2n - 1 samples. Status: proved. The poles for the layout without traditional_layout (with it they are mirrored, see C66). Theorems: `C238_curves`, `C238_vertical`, `C238_poles`.
- **C239 Fits with weights for errors along the axes.** Modelled: Pca.init with weights. Proof: The fit is that of the scaled points (C06), and the weighted distance from a plane is the distance of the scaled points from the scaled plane, which is proved to be the smallest weighted distance to a point of the plane; the dip follows from vertical exaggeration (C175). Status: partial. False for unequal weights: the axes are not turned back from the scaled coordinates (the lines that would do so are comments, pca.py L191-192). The plane with the reported normal divided by the weights is the best one; the reported normal is perpendicular to it just if the weights of all coordinates in which it has a component agree. A plane dipping 45 degrees measured without errors is reported with a dip of arctan(1/k) for the weights 1, 1, k. Theorems: `C239_scaled`, `C239_best_plane`, `C239_normal_iff_partial`, `C239_exact_false`, `C239_dip_false`.
- **C240 Weights and saved axes in two dimensions.** Modelled: Pca2Options.initWith, runSvd, loadSavedFit, lazyU, principalAxes. Proof: Columns of principal_axes have the lengths of the singular values because the axes are orthonormal; the rest by the properties of the decomposition of the scaled points. Status: partial. False in two ways: the reloaded axes of points on a line are nan, and with weights the normal of exact points is that of the line multiplied by the weights, which is right only for equal weights or lines along a coordinate axis. Fewer than three points and zero weights raise only without saved axes. Theorems: `C240_defaults`, `C240_reload_partial`, `C240_reload_false`, `C240_accepted`, `C240_weights`, `C240_normal_false`.
- **C241 Signs of axes in the frontend.** Modelled: Frontend.planeErrors, normalErrors, combinedErrors, ellipse; Pca.init. Proof: The samples of the ellipse are mapped to themselves by reflection in both axes; the sign of the third axis is made up for by the test of axes[2][2]. The axes of two decompositions agree up to sign when the singular values differ. Status: partial. True for planes that are not vertical and an even number of samples (the default is 100), up to the order of the positions. For an odd number the samples are not symmetric and the curve depends on the sign of the first axis; for a vertical plane, and for poles, the sign of the third axis exchanges the sheets upper and lower. Theorems: `C241_signs_partial`, `C241_vertical_false`, `C241_odd_false`, `C241_poles`, `C241_same_points`, `C241_turn`.
- **C242 How often a slope lies within its standard errors.** Modelled: Linear.coefficients, standardErrors. Proof: Coefficients and standard errors as functions of the errors (C228); Markov's inequality for the slope and for what the residuals miss, strong law of large numbers for the squares of the errors. Status: partial. Proved for every single outcome: whether the slope is within k standard errors depends neither on the plane nor on the size of the errors. Refuted: the share tends to one for every positive k, wherever the points are, since the squared standard errors are n-3 times too large; with three points it is within them only if it is exact. Theorems: `C242_pivot_partial`, `C242_many_false`, `C242_three_false`.
- **C243 Normalisation of Bingham distributions.** Modelled: Statistics.hypergeometric, binghamPdf. Proof: Moments over longitudes and latitudes by integration by parts and the gamma function; sum and integral exchanged by dominated convergence; bounds of the remainder; bound of the density. Status: partial. Proved: with more and more terms the series converges to the integral over the hemisphere, for all arguments; with the default of ten terms it is accurate to four decimals for arguments of at most one. Refuted: for concentrations of forty or more the default gives at most a third of the constant, and bingham_pdf (which does not use the series) is not normalised. Theorems: `C243_converges`, `C243_default_partial`, `C243_default_false`, `C243_density_false`.
- **C244 Slopes of a fit are the total least squares estimate.** Modelled: Pca.init. Proof: The axes are eigenvectors of the moments; quadratic form in the axes of the fit; a horizontal eigenvector exists otherwise. Status: proved. Closed form, and exact condition for its existence. Theorems: `C244_slopes`.
- **C245 Points with missing coordinates.** Modelled: Missing.init (numbers or nan), Dem.cleanCoordinates, Pca.init. Proof: Propagation of nan through the mean; refinement of Pca.init for complete points. Status: partial. Proved for fits that are computed. Refuted for saved axes (axes=): strike and dip are given although mean and centered points are nan. Regression is not covered (what numpy.linalg.inv returns for nan is not specified). Theorems: `C245_raises`, `C245_complete`, `C245_cleaned`, `C245_saved_false`.
- **C246 Duals of ellipsoids.** Modelled: Conics.dual, type, isHyperbolic, isElliptical, isParabolic, fromAxes, fromSemiaxes. Proof: Minors of the inverse; sign of the determinant from the least value of the quadratic form. Status: partial. Refuted for everything made with from_axes or from_semiaxes: the dual of an ellipsoid around the origin is elliptical. Exact condition: it is hyperbolic if and only if the origin is outside of the ellipsoid, parabolic if and only if it is on the surface. Theorems: `C246_type_of_dual_partial`, `C246_from_axes_false`.
- **C247 Python and the frontend show the same hyperbola of errors.** Modelled: Hyperbola.hyperbolicErrors and Frontend.semiAxes (planeAngle). Proof: Components of the section line along the axes; difference of the two weights in closed form. Status: partial. Refuted for sections between strike and dip: the frontend measures the angle to the first axis on the map, Python in the plane. Exact condition proved: the curves are the same if and only if the two errors in the plane are equal, the section is along strike or dip, or the plane is horizontal; the vertex is always the same. Theorems: `C247_same_curve_partial`, `C247_oblique_false`.
- **C248 Positions on the stereonet in floating-point arithmetic.** Modelled: RoundedNet.flIterativePlaneErrors, flStep, flCart2sph. Proof: Contract of rounding: the norm is not smaller than the component; Hölder continuity of arcsin; error analysis of the products. Status: proved. Latitude is always a number; the position is within 10^-7 plus twice the accuracy of the library. The bound 10^-7 is due to arcsin near the poles. Theorems: `C248_positions`, `C248_zero`.
- **C249 The curves of errors trace the whole error cone.** Modelled: Stereonet.planeErrors, ellipse, linspace. Proof: Each direction of the cone has an angle on the ellipse; the nearest of the n angles is within 2π/(n−1); normalisation contracts by the smaller error. Status: proved. Distance bound 2π·max/min/(n−1) with the larger and the smaller error in the plane. Theorems: `C249_cone_is_traced`, `C249_gap`, `C249_plane_is_traced`, `C249_closed`.
- **C250 Elevations of several lines.** Modelled: Dem.coordsArray, extractLines. Proof: Window of all lines contains the window of each; reading a window does not change elevations away from its edges. Status: partial. Refuted near the edges of the window of a line; elsewhere the elevations are those of the elevation model in both cases. Without subdivision several lines are the same as one line through all points. Theorems: `C250_one_line`, `C250_parts_partial`, `C250_separately_false`, `C250_errors`.
- **C251 The hyperbola is drawn in two branches.** Modelled: ConjugateConics.hyperbolaCurve, argmin, argmax. Proof: Angles as multiples of a quarter step modulo a half turn: each gap has one neighbour at a quarter of a step, which is the unique minimum or maximum. Status: proved. Even numbers of points; for odd ones the two ends of a gap are equally far, and rounding decides. Exact arithmetic. Theorems: `C251_branches`.
- **C252 The figure of conjugate conics.** Modelled: ConjugateConics.plotConjugateConics. Proof: Closed form of the distances from the foci; explicit bounds. Status: partial. Refuted: for hyperbolas steeper than 45° the marks are not the foci of the ellipse, for steeper than about 50° the ellipse ends outside of the view, and the inverse hyperbola fails with NameError. The rest is proved. Theorems: `C252_hyperbola_foci`, `C252_normals_foci_partial`, `C252_normals_foci_false`, `C252_asymptotes`, `C252_normal_tangents`, `C252_view_partial`, `C252_view_false`, `C252_inverse_false`.
- **C253 The mapping of error axes describes the fit.** Modelled: ErrorMapping.pcaToMapping. Proof: Both estimates in closed form, with 4/(n-2) and 2/(n-1) as factors. Status: partial. Proved with noise_axes as method. By default the method is sampling_axes, and the mapping has axes that are smaller than those of the fit. Entries called axes or covariance fail with TypeError. Theorems: `C253_noise_partial`, `C253_default_false`, `C253_reserved`.
- **C254 The curve around the pole traces all poles of the error cone.** Modelled: Stereonet.normalErrors, StereonetDisplay.poleVertices. Proof: Tangent planes as an ellipse of normals; the nearest of the equally spaced angles; directions of close vectors are close. Status: proved. Poles on the side of the upper hemisphere of the axis, with traditional_layout=False for the direction itself. Theorems: `C254_poles_are_traced`, `C254_drawn`, `C254_gap`, `C254_closed`.
- **C255 Identities that the tests check on random planes hold for every plane.** Modelled: Pca.rotated, eigenvalues, principalAxes, PcaConics.asHyperbola, Reconstructed.reconstruct. Proof: Properties of the singular value decomposition; closed form of the reconstructed plane. Status: partial. Refuted: the hyperbola of points on a plane has infinite entries, and the reconstructed plane has the in-plane axes in the opposite order. The rest is proved. Theorems: `C255_decomposition`, `C255_spread`, `C255_principal_axes`, `C255_hyperbola_partial`, `C255_hyperbola_flat_false`, `C255_reconstructed_false`.
- **C256 Lines and rings of the frontend are closed.** Modelled: Frontend.ellipse, planeErrors, normalErrors; d3's drawing of a LineString as arcs of great circles is part of the specification. Proof: The points have growing angles with steps below half a turn; a direction is a combination of two neighbours with weights that are not negative exactly if its angle is between theirs. Status: partial. Refuted: ellipse does not come back to its first point. Exactly the directions strictly between the first and the last point are missing from the line, with the cosine of their angle in closed form (16 degrees with 100 points and equal errors), and the first and the last position of every ring differ; d3 leaves out the last position of a ring, as GeoJSON has it equal to the first. Everything else of the great circle is drawn. Theorems: `C256_line_partial`, `C256_missing_false`, `C256_girdle_ring_false`, `C256_pole_ring_false`.
- **C257 The curves of the frontend trace the whole error cone.** Modelled: Frontend.ellipse, planeErrors. Proof: Steps of the sines bound steps of the angles by the root; the middle of the missing arc is the direction that is far from all points. Status: partial. Proved with a distance that falls with the root of the number of points. Refuted: it does not fall with the number of points itself, since the sines of the angles, not the angles, are equally spaced; with equal errors some direction is at least sqrt(2/n) from all points (8 degrees for 100 points). Theorems: `C257_cone_is_traced`, `C257_plane_is_traced`, `C257_gap`, `C257_coarse_false`.
- **C258 The drawn band of errors contains the errors.** Modelled: Hyperbola.hyperbolicErrors, polygon, hyperbolaValues; straight edges between vertices are part of the specification. Proof: Difference of squares of chord and branch, Cauchy-Schwarz below and the mean inequality above. Status: partial. Proved: over an edge the drawn band contains the true band, is wider by at most b h^2/(8 a^2) and (b/a) h/2 on each side, and strictly wider inside. Refuted: it is not exact; with x values -1 and 1 and unit axes it is sqrt 2 times too wide at 0. Theorems: `C258_edges`, `C258_values`, `C258_exact_false`.
- **C259 The pole curves of the frontend trace all poles of the error cone.** Modelled: Frontend.ellipse, normalErrors. Proof: A tangent normal satisfies the equation of the dual cone (C254), which gives its angle; the points of ellipse have an angle near to it (C257); the vector at an angle is Lipschitz and bounded below. Status: proved. The other half of C107, with a distance of (M/m)^2 pi sqrt(2/n) where M and m are the larger and the smaller in-plane error. Theorems: `C259_poles_are_traced`, `C259_gap`, `C259_limit`.
- **C260 Error bands on the axes follow their updates.** Modelled: BandArtist.construct, plot, plotNominal, updateData, plotKw; axes and settings other than keyword arguments of matplotlib are not modelled. Proof: Induction on the calls with the invariant that the current polygon shows the current data and the others do not change. Status: partial. Proved for all sequences: there is one polygon per call of plot; the newest shows the latest data, and every other the data in force when the next plot was called; failed updates change nothing; an update before the first plot raises AttributeError but keeps the data; the nominal line is that of the data in force; precedence of the colours. Refuted: after a second plot the first polygon stays on the axes and is never updated again; and the class ignores its arguments when all are given by name, drawing a single point. Theorems: `C260_polygons_partial`, `C260_newest`, `C260_stale_false`, `C260_failed_update`, `C260_update_before_drawing`, `C260_nominal`, `C260_by_name_false`, `C260_edge`.
- **C261 Error shells and uncertain poles of planes given by their errors.** Modelled: Shells.ofPlane, ErrorShell.cartopyGirdle, ErrorShell.cartopyNormal, uncertainPole, polarUncertainPole; shapely and cartopy objects are not modelled. Proof: The angle of each vertex from the normal is the arctangent of 2/f with f between the semiaxes; bounds on the arctangent of twice a tangent. Status: partial. Proved: rings are closed with 1000 vertices; the two rings of the girdle are on opposite sides of the plane; the ring of the normal consists of poles of planes tangent to the error cone; every vertex is further from the plane (or the pole) than half the smaller error and closer than the larger; the plane is not changed. Refuted: with equal errors e no vertex of the pole error is at angle e or e/2; and the method draws its polygon in another layout than the function of the same name, so that polygons differ although the directions are the same. Theorems: `C261_girdle`, `C261_normal`, `C261_stereonet_pole_partial`, `C261_polar_pole_partial`, `C261_pole_false`, `C261_same_directions`, `C261_same_polygon_false`.
- **C262 From the spreadsheet to the stereonet.** Modelled: Webapp.toOrientation, toProps join Webapp.cleanedData with Frontend.groupedPlane and Frontend.errorEllipse. Proof: C156 gives the order of the errors after every event sequence, C154 the numbers, C168 the axes, C114 the widths of the surface; for poles the tangency condition x0^2/tan^2 t + x1^2/tan^2 v = x2^2 bounds x2. Status: partial. Partial for the reason given for C168: proved if the axes are the rows of the versor's matrix; C168_strike_ignored_false is the other convention. Errors that are not between 0 and 180 degrees are excluded. Error ellipses at level 1 (the default). Theorems: `C262_pole_widths`, `C262_numbers`, `C262_planes_partial`, `C262_poles_partial`.
- **C263 Rows in the clipped stereonet.** Modelled: Webapp.clippedNet and Webapp.ellipses join the sheet with Frontend.Net, errorEllipse and project. Proof: C262 bounds the angle of each vertex from the upward normal, which is at the dip from the vertical; triangle inequality of angles; the radius of the projection is monotone in the angle (C182). Induction over the rows with the shared options as invariant. Status: partial. Partial for the reason given for C168. Vertices are meant; d3 joins them by great circles, which stay within the circle, a spherical cap not larger than a hemisphere. Refuted: clip angles from 89 to 90 degrees show the whole hemisphere. Theorems: `C263_circle`, `C263_rows_partial`, `C263_limit_false`.
- **C264 Numbers of a fit copied into the frontend.** Modelled: nothing new: Model/FrontendShapes.lean and Model/Versor.lean for reconstructErrors, Model/Frontend.lean for the curves, Model/Pca.lean and Model/ErrorAxes.lean for the numbers. Proof: doubled errors give lengths that are a positive multiple of those of the fit (tangent of arctangent); neither the curves nor the poles change with the scale of the lengths; the axes agree up to sign by C49 and C169; the signs only reorder the curve by C241; the narrower curves combine the bounds of C114 and C181. Status: partial. The code violates the plain reading: Python reports half-widths while reconstructErrors halves the numbers given (C264_half_false). The equality holds for doubled numbers and is partial because the rake does not tell the two sides of the dip direction apart (C49), because the matrix convention of the versor package is assumed (C168), and for even numbers of vertices (C241). Theorems: `C264_same_curves_partial`, `C264_same_poles_partial`, `C264_half_false`.
- **C265 Lines on the elevation model of a curved surface.** Modelled: Dem.bilinearAt, mapCoordinates1, extractShape, extractLine; Pca.init, Linear.linearOrientation. Proof: the four weights of an interpolated value have the place as their mean and a spread of at most a quarter of a cell squared along each axis; the tangent plane cancels, the rest is bounded by the bend; lines by C80_values_partial and the bounds of C218. Status: partial. Proved; C265_line_partial asks for points half a cell away from the edges of the window read and for a line that is not along one row or column, outside of which C80 refutes the elevations. C265_sharp reaches the bound. Theorems: `C265_interpolated`, `C265_sharp`, `C265_line_partial`.
- **C266 Size and caption of the aligned figure.** Modelled: Display.lengths, figureHeight, captionResidual, alignedData; the height ratios of L45-49 are computed and not used. Proof: extents of the rotated columns are the extents of the data along the axes; their squares are bounded by sums of squares and the reverse by the inequality of Popoviciu; axes of moved data up to sign. Status: partial. Proved but for the caption: it gives the extent of the residuals, between once and twice the longest residual, and equals it only for data that lie in one plane (C266_caption_false). Theorems: `C266_height`, `C266_coincident`, `C266_units`, `C266_caption_partial`, `C266_caption_false`.
- **C267 Plots of the web application follow the sheet.** Modelled: Webapp.Page, pageStep, verticalEffect, rectangularEffect, with NotebookUi.didUpdate; React as far as used (effects, dependencies by identity, tabs removed when left); useStoredState of another library is taken to keep what it was given and to test it when it is loaded. Proof: invariant of the page by induction over the events: the last properties and dependencies are those of the current array, whose identity is new with every change of the sheet. Status: partial. Proved but for two parts. The range of the clip angle is tested when the tab is opened (C267_clip_partial) and not when an angle is entered (C267_clip_false). RectangularStereonet, which the page does not show at present, never clears its element and keeps the drawings of all data it was given (C267_rectangular_false). Theorems: `C267_sheet`, `C267_interactive`, `C267_clipped`, `C267_switches`, `C267_vertical`, `C267_clip_partial`, `C267_clip_false`, `C267_component_vertical`, `C267_rectangular_false`.
- **C268 Angular errors of fits with weights.** Modelled: Pca.init with weights, Pca.eigenvalues, ErrorAxes.statisticalAxes and angularErrors. Proof: the fit with weights has the singular values of the scaled points times the weights (C239); these are unchanged by permutations and scaled by factors; lengths of the error axes increase strictly with the eigenvalue as long as they are positive. Status: partial. The ratios and equal weights are proved. The code violates the rest: singular values are multiplied with the weights of the coordinates of the same number (pca.py L193). Exchanging x and y changes both errors whenever their weights differ (C268_renamed_false, for points not in one plane and errors smaller than the axes), and the order of the errors can be reversed by every pair of weights w_x < w_y (C268_order_false). Partial: orders of coordinates that keep the weights. Theorems: `C268_relative`, `C268_equal`, `C268_renamed_partial`, `C268_renamed_false`, `C268_order_false`.
- **C269 A large weight of the heights gives the regression.** Modelled: Pca.init with weights, strikeDip, Linear.coefficients. Proof: eigenvector equations of the scaled moments compared with the normal equations; the smallest eigenvalue is bounded by the residuals of the regression over k^2; Cauchy-Schwarz. Status: partial. The bound, the order and the limit are proved for the plane whose normal is that of the fit with each component divided by its weight (C239). The reported dip is refuted: it belongs to the plane in the scaled coordinates, its tangent is k times smaller (C269_reported_partial) and it tends to zero for all points (C269_reported_false). Theorems: `C269_close`, `C269_least`, `C269_limit`, `C269_reported_partial`, `C269_reported_false`.
- **C270 Regression in other coordinates and vertical exaggeration.** Modelled: Linear.coefficients, residuals, covarianceMatrix, standardErrors, linearOrientation, Pca.init. Proof: normal equations under C' = C T, Z' = k Z + C d; for principal components the limit of C269 against the strict order of C198. Status: partial. Proved for the regression, also the standard errors for changed heights. Refuted for principal components: unless the points lie in one plane (C175) or the fit is horizontal or vertical, every sufficiently strong reduction of heights reduces the slope by more than its factor (C270_pca_false). Theorems: `C270_regression`, `C270_heights`, `C270_linear`, `C270_pca_false`.
- **C271 The sheet for any stored content.** Modelled: StoredSheet.enhanceData, shownRows, headerCells, dataArea, constructStored, finalizeStored, editStored, stepStored; values that are objects and react-datasheet are not modelled. Proof: induction over cells, rows and events; after a reset a refinement to the sheet of C156. Status: partial. Refuted for edits: enhanceData expects rows that are null and the table shows them, but finalizeRow reads a cell of every row, so that with a single such row the handler of every edit of any row ends with an exception and nothing is stored until the sheet is reset (C271_edit_false); an edit is stored exactly if no row is null (C271_edit_partial). What is plotted is what the table shows under its titles (C271_columns). Theorems: `C271_shown`, `C271_plotted`, `C271_columns`, `C271_edit_partial`, `C271_edit_false`, `C271_reset`.
- **C272 The color picker.** Modelled: StoredSheet.pickerShows, pickerPicks, Webapp.constructOrientation. Proof: composition with C154. Status: proved. Proved; chroma-js is a parameter. Also proved: a text that chroma does not know would empty the cell although the exception goes on. Theorems: `C272_picked`, `C272_grey`, `C272_unknown`.
- **C273 Objects that draw the labels of the graticule.** Modelled: LabelsObject.Obj.step, run, dipCalls, azimuthCalls, titles; fonts and sizes of texts are not modelled. Proof: induction over the calls; the positions of the rectangular plot from its constants. Status: partial. Refuted: labels are added again by each drawing (C273_again_false), and in the rectangular plot all dip labels and the title of their axis are anchored five pixels below the lower end of the picture (C273_dip_outside_false); the azimuth labels are within it (C273_azimuth_inside), at an offset other than the one set. Theorems: `C273_render`, `C273_title`, `C273_texts`, `C273_again_false`, `C273_dip_outside_false`, `C273_azimuth_inside`.
- **C274 Styles of ellipses in the clipped plot.** Modelled: EllipseStyle.translucentEllipseStyle, eachStyle, buildPlot, toStyle; chroma-js is a parameter. Proof: induction over the data; colors of rows by C154 and C271, opacities by C158. Status: partial. Proved for sheets and for data with known colors. Refuted: for other data one unknown color ends the plot, later ellipses have no style and there are neither labels nor paths (C274_unknown_false); and the sheet accepts negative errors, whose opacities are negative, so that the ellipse cannot be seen (C274_negative_false). Theorems: `C274_styles`, `C274_sheet`, `C274_unknown_false`, `C274_opacity_partial`, `C274_negative_false`.
- **C275 The selection copied as a text.** Modelled: Clipboard.selectionText, selectedUids, copyEnabled, itemStyle, NotebookUi.run; the specification reads lists of strings as in RFC 8259 except for pairs of surrogates. Proof: a reader of JSON strings; a string that needs escapes takes more characters than the text has; uniqueness of readings by induction; C160 for the selection. Status: partial. Proved for uids without quotation marks, backslashes and control characters, such as automatic ones, and exactly for these (C275_copied_iff_partial); refuted for others, as they are not escaped: the text for one measurement can be that for two others (C275_quotes_false). Theorems: `C275_copied_iff_partial`, `C275_quotes_false`, `C275_page`, `C275_style`.
- **C276 Options of error hyperbolas.** Modelled: HyperbolaOptions.Opts.call, calls, stop, gradient; the specification interpolates between stops as SVG does. Proof: induction over calls from the end; the gradient as a function in six pieces. Status: partial. Refuted for the scale of opacities (C276_reset_false): its initial value is null, and a method that is given null only reads. Theorems: `C276_last_given`, `C276_returns`, `C276_reset_false`, `C276_gradient`.
- **C277 Nominal line of error hyperbolas.** Modelled: HyperbolaOptions.draw, act, acts, maskLim, largeNumber, for one function and one element. Proof: invariant over actions; the cosine of small error angles comes arbitrarily close to one. Status: partial. What holds: there is a line exactly if the element was drawn at some time while the line was asked for (C277_line_iff), and the first drawing sets the visible part (C277_mask). Refuted: turning the option off leaves the line (C277_off_false); the ends of the line are not scaled, so they agree with the border only at one pixel per unit (C277_length_false), and the line reaches over the visible part of all hyperbolas exactly if a unit has at most two pixels (C277_covers_iff). Theorems: `C277_line_iff`, `C277_off_false`, `C277_length`, `C277_mask`, `C277_length_false`, `C277_covers_iff`.
- **C278 Planes and poles that the stereonet component shows.** Modelled: NetMarks.run with the datum, the attribute d and the listener of every path; that d3 copies data when an element is selected is read from lib/attitude.js L54-67; shapes are parameters. Proof: invariant of all elements over updates and rotations; a simulation with the model of C163. Status: partial. Proved for error surfaces (C278_surface_partial) and poles (C278_poles), with the measurements of C163 (C278_measurements). Refuted for traces (C278_nominal_false): selecting the trace from its group to set its color makes the measurement its datum, and when all paths are drawn after that it loses its shape; so planes with an error above 45 degrees are not seen at all (C278_blank_false), and the mouse cannot find them. Theorems: `C278_measurements`, `C278_surface_partial`, `C278_nominal_false`, `C278_blank_false`, `C278_poles`.
- **C279 Highlighted measurements in the stereonet component.** Modelled: NetMarks.updateHovered, setHoveredFill, step, run. Proof: paths of new elements computed; the invariant of C278 for later times. Status: partial. Proved for the time right after the highlight changes, with planes or poles (C279_highlight_partial). Refuted: with planes and poles the highlighted planes vanish at once (C279_both_false), and any rotation takes all highlights away (C279_rotate_false), because setting the styles makes the measurement the datum of the path. Theorems: `C279_highlight_partial`, `C279_both_false`, `C279_rotate_false`.
- **C280 Identity of reconstructed planes.** Modelled: ReconHash.hashInput, hashOf over Reconstructed.reconstruct; numpy broadcasting as a function; the digest is left out. Proof: orthonormal frames with scaled columns determine frame and scales; injectivity of the angles. Status: partial. Proved for the array that is hashed, with two errors: it determines strike, dip, rake, both errors and the error of the normal (C280_identifies_partial), and equal horizontal planes have the same array (C280_horizontal). Refuted otherwise: with other numbers of errors than none or two the plane is built but its hash raises ValueError (C280_raises_iff), a rake turned by 180 degrees is the same plane with another hash (C280_rake_false), and planes without errors are hashed like planes with errors of 90 degrees (C280_no_errors_false). Collisions of the digest are outside the model. Theorems: `C280_identifies_partial`, `C280_rake_false`, `C280_no_errors_false`, `C280_raises_iff`, `C280_horizontal`.
- **C281 Printed text of a fit.** Modelled: FitText.fitRepr, reprText with Python's fixed-point format over real numbers; the text is read back by a separate reader of words, labels and decimal digits. Proof: digits read back by induction; words of the text; rounding to the closest hundredth; three points for each strike and dip. Status: partial. Proved for labels, accuracy and undefined rakes (C281_shows) and order (C281_order). Refuted for the range: strikes above 359.995 are printed as 360.00, and every such strike is that of some measurements (C281_strike_false). Theorems: `C281_shows`, `C281_order`, `C281_strike_false`.
- **C282 Uncertainties of strike and dip of a linear orientation.** Modelled: AngleErrors.errors, strikeDipErrors, dipDirectionErrors over the linear model; the error of an angle is the derivative of dip and turn by the slopes times the error of the slope. Proof: derivatives of arctan; zero variances from the covariance equation of C36. Status: partial. Proved: angles and signs (C282_angles), zero exactly for three points or points on the plane (C282_zero_iff). Refuted: the first uncertainty goes with the dip although the strike is the first angle (C282_order_false); it is the standard error of a slope converted with degrees, so it is larger than the error of the dip for each plane that is not horizontal (C282_dip_false), and the second one is that of the strike only for dips of 45 degrees (C282_strike_false). Theorems: `C282_angles`, `C282_zero_iff`, `C282_order_false`, `C282_dip_false`, `C282_strike_false`.
- **C283 The line of horizontal directions.** Modelled: HorizontalLine.horizontalLine, edges, arc, linePoints; great arcs of d3 as directions between two others; data by cart2sph of the frontend. Proof: arcs are the quadrants of the horizontal circle; position of data from the model of cart2sph. Status: proved. Proved: exactly the horizontal directions (C283_horizontal), the labelled directions in their order (C283_round), parts have only ends in common (C283_once). Theorems: `C283_horizontal`, `C283_round`, `C283_once`.
- **C284 Inherited methods of orientations.** Modelled: Inherited.mro, instanceAttrs, body, find, uses: attribute lookup over the attributes that every method reads, with a limit of depth; values are left out. Proof: a deeper limit changes nothing but the error of the limit, by induction; evaluation of each chain. Status: partial. Proved for PCAOrientation (C284_pca). Refuted for LinearOrientation, which lacks singular_values and strike_dip_rake, so principal_axes, hash and to_mapping fail (C284_linear_false), and for ReconstructedPlane, for which only disabled, hash, center, centered_array and to_mapping work (C284_reconstructed_false); both theorems give exactly the attributes that fail and the missing names. Theorems: `C284_pca`, `C284_linear_false`, `C284_reconstructed_false`.
- **C285 Reducing angles in floating-point arithmetic.** Modelled: RoundedTurn.flAbove, flBelow, flFixAngle with rounding of each operation to 53 bits and the double Math.PI; loops with a number of turns, so that they need not end. Proof: distance to rounded numbers by their exponent; decrease by at least two per turn; a turn leaves numbers above 2^56 alone; symmetry. Status: partial. Proved: range (C285_range), whole turns up to one rounding per turn (C285_turns), numbers in range (C285_same). Refuted: it returns exactly for numbers of at most 2^56, for all larger ones its loop never ends because the subtraction is rounded away (C285_returns_iff_false). The package itself calls it only with sums of few angles. Theorems: `C285_range`, `C285_returns_iff_false`, `C285_turns`, `C285_same`.
- **C286 Normalised vectors.** Modelled: GeomUtil.unitVector, unitVectorDefs, firstUnitVector; arrays with more than one dimension are not modelled. Proof: algebra of the norm; the binding of the name is computed. Status: partial. Proved for arrays, with nan exactly for zeros (C286_unit). Refuted for components: the module defines the name twice, so that the definition for components is replaced and every call with other than one argument raises TypeError (C286_components_false). Theorems: `C286_unit`, `C286_components_false`.
- **C287 Augmented tensors.** Modelled: GeomUtil.augmentTensor, with the rule of numpy for assigning to a slice. Proof: block matrices; sums split at the size of the array. Status: proved. Proved (C287_action, C287_products, C287_homogeneous, C287_refused). Theorems: `C287_action`, `C287_products`, `C287_homogeneous`, `C287_refused`.
- **C288 Attitudes shown by plot_interactive.** Modelled: NbArguments.members, mapped, dumps, plotInteractive, shown; quoting is left to C83. Proof: induction over the list and over JSON values. Status: partial. Exact condition for lists: each attitude has a mapping and no number in any of them is nan (C288_list_partial); one attitude on its own is shown like a list of it (C288_single); an exception of to_mapping is passed on (C288_raises). Missing: nan, where no exception is raised and none of the attitudes is shown, as NaN is not JSON (C288_nan_false); arrays, sets, generators and lists in lists, which are refused (C288_collections_false). Theorems: `C288_list_partial`, `C288_single`, `C288_nan_false`, `C288_raises`, `C288_collections_false`.
- **C289 Angular error of one direction.** Modelled: GroupDistance.angularError, ErrorAxes.axisAngularError. Proof: arctan2(y, x) = pi/2 - arctan(x/y) for y > 0; closed form of C21; scaling of C176. Status: partial. Acute exactly for positive lengths, strictly decreasing (C289_angle). Equal to the angular error of the first axis exactly for the length sqrt(h0 h2), so for the axis itself only if the variance along the normal is one (C289_first_axis_iff_partial). The unit matters for every data set: a variance is compared with a length (C289_units_false). Theorems: `C289_angle`, `C289_first_axis_iff_partial`, `C289_units_false`.
- **C290 Distance of a fit from its group.** Modelled: GroupDistance.inPlaneLength, meanAngle, stdAngle, distanceFromGroup. Proof: bilinearity of the cross product; Cauchy-Schwarz with equality. Status: partial. The angle is right for all fits, at most 90 degrees, zero exactly for parallel planes, whatever the signs (C290_angle). The errors are not: reversing the normal of the group replaces the error of the fit by its supplement, unless the fit is tilted across its first axis, when its error is taken to be 90 degrees (C290_signs_false); for parallel planes it is nan (C290_parallel_false). The module cannot be imported as it is (path is not defined); the function is modelled on its own. Theorems: `C290_angle`, `C290_signs_false`, `C290_each`, `C290_parallel_false`.
- **C291 Axes of the error ellipse of a regression.** Modelled: SlopeEllipse.axes; scipy.linalg.eig is a parameter with a contract. Proof: the variance across a direction has the sum, and up to a square the product, of the eigenvalues; existence of a principal direction by the argument of a complex number; the covariance is a Gram matrix. Status: partial. Proved for every regression and solver (C291_half_axes, C291_standard_errors). Refuted in one respect: which of the two numbers is the longer half axis depends on the solver (C291_order_false). Theorems: `C291_half_axes`, `C291_standard_errors`, `C291_order_false`.
- **C292 Elevations of the nearest cell.** Modelled: Dem.nearestAt, Dem.mapCoordinates0; map_coordinates of order 0 rounds half up and moves positions to the edge. Proof: floor of the clamped coordinate by cases along each axis; a position of a cell is at most half of the longer diagonal from its centre; planes rising along the longer diagonal reach the bound. Status: proved. Proved (C292_closest, C292_accuracy); C292_sharp reaches the bound for every georeferencing and size. Theorems: `C292_closest`, `C292_accuracy`, `C292_sharp`.
- **C293 Numbers typed into cells.** Modelled: Webapp.parseFloat, toNumber, status, decimalPrefix, takeSign, takeDigits, takeFraction, takeExponent, natOf. Proof: each part of the text is recognised up to the first character that cannot belong to it; the value is compared with the digits in base ten. Status: proved. Proved (C293_read, C293_marked) for the models of parseFloat and Number, which are parts of JavaScript; the values are exact rather than rounded to floats. Theorems: `C293_read`, `C293_marked`.

## What is modelled, file by file

| File in /repo | Model | Remarks |
|---|---|---|
| attitude/coordinates/\_\_init\_\_.py | Coordinates | all functions |
| attitude/coordinates/rotations.py | Rotations | all functions |
| attitude/orientation/pca.py | Pca, PcaState, PcaConics, Extras, Similarity, Mapping, Pca2, Pca2Options, FitText, Rounding, RoundedFit, RoundedErrors, GroupDistance | data with three columns, data with two columns in Pca2 and Pca2Options; the caching of attributes is a state machine |
| attitude/orientation/base.py | Pca, PcaConics, Linear, AngleErrors, Inherited, Mapping, Grouping | all methods |
| attitude/orientation/grouped.py | Grouping, Mapping | heap of objects |
| attitude/orientation/reconstructed.py | Reconstructed, ReconHash, Inherited | all but the unused call of `transform` |
| attitude/orientation/linear/\_\_init\_\_.py, regression.py | Linear, SlopeEllipse, RoundedRegression (coefficients with rounding) | all methods |
| attitude/error/\_\_init\_\_.py, axes.py, ellipse.py | ErrorAxes, ErrorMapping, Hyperbola | all functions; quantiles of scipy are parameters |
| attitude/geom/\_\_init\_\_.py, util.py, conics.py, transform.py, symbolic\_math.py | Conics, GeomUtil, Similarity, Extras, Rounding | all functions |
| attitude/stereonet.py | Stereonet, RoundedNet | all functions |
| attitude/bingham.py, \_\_dustbin/statistical\_distances.py | Statistics | all functions; the random numbers are parameters |
| attitude/\_\_dustbin/\_\_report/\_\_init\_\_.py | GroupDistance | distance\_from\_group; the HTML report is not modelled |
| attitude/helpers/dem.py, interpolation.py | Dem, DemParts | rasterio, shapely and scipy are parameters |
| attitude/display/hyperbola.py, parametric.py, polar.py, cartopy.py, pca\_aligned.py, error\_comparison.py, stereonet.py | Hyperbola, BandArtist, Display, Stereonet, ConjugateConics | the data that is drawn, not matplotlib |
| attitude/display/plot/\_\_init\_\_.py, plot/cov\_types/ | Display, Hyperbola, Statistics, ErrorMapping | the data that is drawn |
| attitude/display/nbextension.py | NbExtension, NbArguments | text that is put into the notebook |
| attitude/test/\_\_init\_\_.py, test/io.py | Statistics, TestIO | synthetic planes, saved planes |
| frontend/packages/attitude/src/math.ts | Frontend | all functions |
| frontend/packages/attitude/src/functions.ts, util.ts, reconstruct.ts | FrontendShapes, Versor | all functions |
| frontend/packages/attitude/src/hyperbola.ts | FrontendView, SideView, HyperbolaOptions, RoundedTurn | attributes that are set, not the DOM |
| frontend/packages/attitude/src/stereonet/ (index, interaction, labels, vertical, horizontal) | FrontendStereonet, HorizontalLine, NetData, Panels, Rectangle | attributes and state, not the DOM |
| frontend/packages/notebook-ui/src/ (index, list, stereonet, side-view, data-panel) | NotebookUi, Panels, SideView, Clipboard, NetMarks | components as state machines |
| frontend/packages/plots/src/vertical.ts, graticule-labels.ts, rectangular.ts | Webapp, Panels, Rectangle, LabelsObject, EllipseStyle | fonts and sizes of texts are not modelled |
| attitude/display/util.py, display/plot/misc.py, error/bootstrap.py | DisplayUtil | `to_json` is json.dumps and not modelled |
| frontend/packages/webapp/src/app.ts, sheet.ts | Webapp, StoredSheet, Page | sheet, stored content, color picker; react-datasheet and chroma-js are parameters |

Not modelled:

* attitude/\_\_dustbin/\_\_report/: cannot be imported (it uses modules that do not exist).
* frontend/packages/attitude/src/selection.ts: extends d3's selections, nothing of its own.
* average\_orientation in attitude/error/\_\_init\_\_.py: raises NotImplementedError.
* tests, documentation, setup and build scripts, style sheets, compiled bundles.

## Axioms

Every property theorem was checked with `#print axioms`: each depends on no axioms other than `propext`,
`Classical.choice` and `Quot.sound`.  There is no `sorry`, no `axiom`, no `native_decide` and no
`bv_decide` in the sources.

## Where the code does not do what a user would expect

Each entry is a theorem; the text is the comment of the theorem.

- `C02_round_trip_false`: The round trip claim is false.
- `C05_transform_false`: No call of `transform` on non-parallel vectors meets its documentation.
- `C10_saved_fit_coplanar_false`: The claim is false for data lying exactly in a plane: the last singular value is zero and the reloaded axes are `nan`.
- `C13_horizontal_false`: For a horizontal plane an upward axis gives strike 270 and a downward axis strike 90.
- `C13_vertical_false`: For a vertical plane the two signs of the axis give opposite strikes.
- `C15_dip_direction_false`: The claim that the azimuth is in `[0, 360)` is false: the plane `x + y + z = 0`, which dips to the north-east, is reported with dip direction 405.
- `C16_points_up_dip_false`: It never points down dip: for every fit that is not horizontal its vertical component is positive.
- `C17_rake_not_determined_false`: So the rake is not determined by the data: for the cross of points above, every valid backend and its sign-flipped twin report different rakes.
- `C18_as_conic_changes_fit_false`: If the third axis points down and the points are not all equal, a single `as_conic` call changes the axes, the principal axes (hence the uid, for any injective digest), and the stored decomposition stops reproducing the data.
- `C18_horizontal_strike_false`: For a horizontal plane whose third axis points down, drawing an error ellipse turns the reported strike around.
- `C19_overstated_false`: The reported number overstates the proportion of variance for every noisy data set whose principal axes are not all equal, and equals it only otherwise.
- `C20_unequal_weights_false`: Unequal weights are not: points spread mostly along `z`, weight 2 on `x`.
- `C22_noise_order_false`: The order is wrong for noise errors: whenever the quantile `z` is at least 2, the six points `(±z,0,0), (0,±z/2,0), (0,0,±1)` get a "minimum" of 90 degrees and a smaller "maximum".
- `C23_higher_confidence_smaller_error_false`: Once the error at the lower level exceeds the eigenvalues, raising the confidence level *strictly decreases* both angular errors, for both methods and every noisy fit: the absolute value folds the axes back.
- `C26_options_dropped_false`: Otherwise nothing is raised and *all* options are dropped: the stored axes are returned whatever confidence level, type or degrees of freedom were given.
- `C26_unknown_type_false`: A misspelt `type` is not reported either: it means sampling errors.
- `C27_noise_dof_ignored_false`: With any other number the noise method uses it in the quantile only, and the result is wrong for every noisy fit.
- `C28_lower_bound_false`: For every level strictly between 0 and 1 the quantile used is negative, so what is meant to be a lower bound is strictly above the variance (whenever it is finite and the variance is positive).
- `C32_columns_false`: Whatever the points, three rows of coordinates give the coefficients `(-1, -1, 0)` (or a singular system): the array is centred along the wrong axis.
- `C32_witness_false`: Concrete case: the four example points have slopes `(1, 1)` in row form and `(-1, -1)` in column form.
- `C35_inverse_rotation_false`: The reported variance of each rotated coefficient is the variance of the coefficient rotated *the other way*.
- `C35_witness_false`: Four points for which the reported error along dip is `√(9/8)` although the standard error of that coefficient is `1/2`.
- `C37_overlapping_lists_false`: C37 is false: one call accepts lists that share a uid, and the measurement then is a member of both groups.
- `C37_second_call_false`: C37 is false: with the default `copy=True` a second call does not notice that a measurement already is in a group.
- `C38_members_redirected_false`: C38 is false: the members of a group in the input are redirected to the copy of the group, even when no new group is requested.
- `C39_failure_harmful_false`: C39 is false: with `copy=False` a call that fails because a group is requested as a member leaves a measurement that belongs to an unfinished group, and serialising that measurement raises `AttributeError`; the caller's list has grown, too.
- `C44_keyerror_without_effect_false`: C44 is false for unknown uids: the measurements named before the unknown uid stay disabled.
- `C45_uid_changes_false`: A uid does not survive `as_conic` (see C18): an injective digest changes.
- `C45_uid_ignores_location_false`: Shifting a measurement does not change its uid, for every backend and digest: measurements at different places collide.
- `C46_caller_always_overrides_false`: C46 is false for `member_of` of a member and for `members` of a group: the caller's value is overwritten.
- `C47_right_handed_false`: The frame is never right-handed: its determinant is `-1` for every strike, dip in `[0, 90]` and rake.
- `C49_not_recovered_false`: The axes are not recovered in general: for the cross of points above, for every valid backend either its fit, or the one obtained with the equally valid opposite sign of the first axis, yields a reconstruction with different axes.
- `C50_errors_encoded_false`: The claim itself: `angular_errors`, the function the rest of the library uses on hyperbolic axes, gives back the half-errors only for the single pair `(90, 90)`; for every other pair in `(0, 180)` it does not.
- `C57_elliptical_3d_false`: In three dimensions `is_elliptical` also accepts hyperboloids: the quadric `z² - x² - y² = 1` is reported elliptical though it is unbounded.
- `C57_elliptical_empty_false`: In any dimension it also accepts empty quadrics, such as `x² + y² + 1 = 0`.
- `C57_sign_false`: The negative of an equation describes the same points, but in an odd number of dimensions it has the other type: an ellipsoid is reported elliptical or hyperbolic depending on the sign of its equation.
- `C58_round_trip_false`: The round trip holds only for unit semiaxes.
- `C59_major_axes_false`: So the major axes of the unit sphere around `(2, 0, 0)`, the one of the test suite, are right; but those of the unit sphere around `(1, 0, 0)` and of the sphere of radius 2 around the origin do not end on the surface.
- `C60_angle_subtended_false`: ... but not for a sphere of radius 2 at distance 4 along the first axis, and not for the unit sphere around `(3, 0, 4)`.
- `C61_two_dimensions_false`: In two dimensions the result is the reversed vector, which is perpendicular only to vectors along an axis.
- `C64_options_false`: ... for any level other than the default (which only one of them uses) and for the default number of points, and an unknown sheet is an error for only one.
- `C64_vertical_false`: So the functions differ for a vertical plane with errors, ...
- `C64_vertical_swapped_false`: For a vertical plane they swap the upper and the lower sheet.
- `C66_traditional_layout_false`: In the traditional layout the two functions put north on opposite sides: read in the same way, the first pole of this plane has directions of the upper sheet on both of its sides.
- `C68_constant_false`: For covariances along the axes it does not depend on them either: rows and columns are exchanged, so that the first entry is the direction whose coordinates are the cosines of the first three angles, and the last one is the direction (1, 1, 1).
- `C68_ignores_fit_false`: It does not depend on the axes of the fit nor on the level.
- `C70_level_ignored_false`: The other three functions ignore the level.
- `C74_down_dip_false`: Up-dip and down-dip are not distinguished: the rotation for an axis and for the axis with opposite plunge are the same.
- `C74_vertical_false`: A vertical axis is not rotated at all.
- `C75_two_axes_false`: Two-component axes without `axes` always raise.
- `C80_integer_line_false`: Refutation, lines along a cell border: for every line whose points all have the same integer row coordinate, no elevation is extracted, whatever the DEM.
- `C80_one_cell_false`: Refutation, short lines: for every line inside one cell the elevation is that of the cell at all its points, not interpolated at all.
- `C81_masked_neighbour_false`: Without the condition on the neighbours it fails: every cell whose right neighbour is masked has no value at its own centre.
- `C82_none_false`: No arrays: an empty file, which loads as one empty array.
- `C82_one_row_false`: A table with one row loads back as a vector, one with one column as well, and one with a single entry as a number: the shape is lost.
- `C82_several_false`: Several arrays are never saved: writing raises `TypeError` after the first one, and the file left behind loads as the first array alone.
- `C83_control_false`: A line break or another control character in a string, which Python writes with a backslash, arrives as the character itself. JSON does not allow these characters in strings.
- `C83_escape_false`: A double quote in a string, `\"` in the JSON text, loses its backslash: the text received, if any, is not the text sent.
- `C83_hash_false`: The text `<<<hash>>>` in the data is replaced by the class name.
- `C83_quote_false`: A single quote in the data, as in a name like `O'Higgins`, ends the literal: what follows is lost.
- `C83_script_false`: The text `</script` in the data ends the script: nothing is received.
- `C86_width_false`: Hence, with equal errors `e` on both axes, no vertex is at the angular distance `e/2` and none at `e`.
- `C87_upper_is_below_false`: The two sheets lie strictly on opposite sides of every non-vertical plane; but the one called upper is below it and the one called lower is above it.
- `C88_asymptotes_false`: In general they are not: the first direction returned is on the cone only if the first and the third coefficient agree.
- `C90_rotated_false`: In a rotated frame the bottom value does not belong to the x value returned with it: for every rotation that is not by a multiple of a right angle, the point `(x, bottom)` is not on the hyperbola, in the frame of the rotation.
- `C91_tilted_false`: For a tilted fit the curve is not the section, not even at its centre: at `x = 0` its half-width is 1, but that of the section is `5/√7`.
- `C92_points_false`: A point always raises `ValueError`, because its coordinates are put into a list twice; the handler raises nothing for the coordinates of any number of points, with or without heights, that are put into a list once.
- `C94_larger_level_is_smaller_false`: A larger level gives a strictly smaller ellipsoid: every point of the ellipsoid for the larger level lies in the one for the smaller level, and not the other way round.
- `C96_always_raises_false`: `error_ellipse` of a fit never returns: for every fit and level it raises, a `ValueError` for noisy data and a level that is not zero (the vectors of the bundle have four components, the center has three), and a `LinAlgError` otherwise.
- `C97_plane_outside_false`: The hyperboloid is not an error region of the plane: the best plane leaves it (no in-plane point further than `√(4 s₀³ / n)` along the first axis is inside), while the whole line along the normal, which the data do not follow, is inside.
- `C98_unit_dependent_false`: The ellipsoid depends on the unit of length: measured in another unit the data have an ellipsoid of another shape and place, not the same one in the other unit, nor any multiple of it.
- `C99_wrong_pole_false`: For every regression with noise and every level other than zero, the curve of `error_ellipse(vector=True)` has a point that is not the pole of the plane it stands for.
- `C100_witness_false`: Four points for which the ellipse is not the confidence ellipse of the coefficients, at any level other than zero.
- `C101_noise_not_covariance_false`: For the six points at distances 3, 2, 1 along the coordinate axes, `covariance_matrix` is not the sample covariance, whatever the backend.
- `C101_noise_unit_false`: It does not even have the unit of a covariance: data in another unit of length multiplies it by the cube of the conversion factor instead of the square.
- `C102_rotation_blind_false`: It is not the covariance in Cartesian coordinates: turning the points leaves it as it is, while their covariance turns.
- `C103_self_undefined_false`: A fit whose third axis points down has no distance from itself: the result is not a number.
- `C104_asymmetric_false`: The distance is not symmetric: with one and the same backend, the six points at distances 3, 2, 1 and the six points at distances 6, 4, 2 are at distance zero in one order and at no distance (`nan`) in the other.
- `C105_not_symmetric_false`: It is not a covariance matrix in the coordinates of the data: for points in a plane that is tilted in the direction of the first coordinate it is not even symmetric.
- `C108_same_covariance_false`: So with the same covariances the two programs draw different curves, for example for a covariance of (9, 4, 1).
- `C108_vertical_false`: For vertical planes the names of the two sheets are exchanged: no direction is on the upper curve of both programs.
- `C109_argument_changed_false`: Scaled axes passed to `convolveAxes` are changed.
- `C109_inverse_false`: ... but not in general, although a comment says so: it divides by the lengths of the columns, not of the rows.
- `C110_layout_false`: They do after a use by `cart2sph`, whose default layout is another one.
- `C110_plane_false`: Curves of `planeErrors` do after a use by `combinedErrors`: the default curve becomes the lower error, in degrees.
- `C111_second_use_false`: A second use of the same curves gives rings that run in the same direction (if they are not symmetric), whatever `geoContains` says; and since the coordinates are not copied, the first polygon has the same rings then.
- `C113_radians_false`: Without the option `degrees` the coordinates are in radians, so that every polygon is within a few degrees of the origin of the map, whatever the orientation.
- `C115_clone_false`: A new option that the original lacks is lost, and one that is false (like a level of zero) does not replace the original.
- `C115_levels_false`: The function for a level of zero gets the whole array as its level.
- `C116_average_false`: `computeCentroidAverage` fails for all planes.
- `C117_python_false`: For any normal that points down the dips differ: the frontend's one exceeds 90 degrees.
- `C120_position_false`: ... but not at their positions in the section: the point (0,1,0) of a horizontal plane, seen in a section along the first coordinate, is drawn to the side of the center.
- `C121_axis_sign_false`: Reversing the first axis (which describes the same plane and errors) changes the hyperbola: the width at angle `v` becomes the one at the mirrored angle.
- `C121_oblique_false`: In a section that is not along the dip of the plane the hyperbola drawn never is the section of the error surface, whatever the errors.
- `C122_polygon_ends_false`: At the ends of the drawing it is always below the hyperbola.
- `C122_polygon_false`: The border that is drawn differs from the hyperbola: at the distance of one semi-axis it is above (in a wide drawing), at the end of the drawing below.
- `C123_scale_false`: Turning it off, drawing, and turning it on again does not restore the vertical scale.
- `C125_center_vertical_false`: After `center("vertical")` they are not: north is drawn at the bottom, where the label is S, and vice versa.
- `C126_click_false`: ... but resets the roll of others.
- `C127_center_false`: Setting the clip angle discards the center.
- `C127_clip_angle_false`: The clipping circle stays when the clip angle is set back to 90 degrees.
- `C127_scale_false`: `scale(n)` is not what `scale()` returns, and has no effect if the stereonet is drawn afterwards.
- `C128_default_false`: The default net extends over the margin of 20 but not over the drawing ...
- `C128_large_false`: ... whereas one of size 1000 extends over the drawing.
- `C128_margin_false`: So it extends over the margin.
- `C130_getters_false`: None of the four getters returns a value.
- `C130_max_false`: ... but not by `max`, which has no effect.
- `C131_labels_false`: ... but not after these.
- `C132_repeated_false`: ... but with the same options object it is moved by another 100 degrees each time.
- `C133_traditional_false`: ... but north and south in the traditional layout.
- `C134_calls_false`: Drawing a second time runs again those that were passed before the first.
- `C137_mode_false`: ... and in general it is not: the axes are used as columns.
- `C139_self_false`: ... but not zero between a fit and itself, unless the determinant happens to be one.
- `C141_identity_false`: No rotation is not represented by a unit quaternion.
- `C141_quaternion_false`: The value is a unit vector only for half turns and where the components happen to cancel.
- `C142_table_false`: For two or more variables there is none.
- `C143_side_effect_false`: Plotting changes the fit: axes that point down are reversed.
- `C144_range_false`: ... in the section along the second axis it may end before the data.
- `C144_side_false`: ... and on the other side for all fits whose third axis points down: the test that should correct this reads the normal, which never points down.
- `C145_bootstrap_false`: The bootstrap never works: `func` reads the variable `xvals`, which belongs to the function that calls it. It would work exactly if the module had that name.
- `C145_in_view_false`: ... but not all the data: the width is taken from the first row instead of the first column.
- `C146_number_false`: ... and so does a single number, which is the default of `normal`.
- `C146_repeated_false`: ... any other list fails if there are levels, although it is meant to be repeated ...
- `C147_asymptotes_false`: Refutation: `error_asymptotes` fails for every fit.
- `C147_error_ellipse_false`: The error polygon labelled strike and dip: for a regression it is drawn at the slopes of the plane in degrees of arc, not at angles.
- `C147_montecarlo_false`: Without noise all points of the simulation have the dip of the fit, but their strike is the dip direction.
- `C147_plane_confidence_false`: `plane_confidence` always fails.
- `C148_means_false`: The center is added twice.
- `C148_on_hyperbola_false`: The parametric error curve: no point of it is on the hyperbola with the given semi-axes, whatever the angle, if the first is less than pi/4.
- `C150_compose_false`: Not the composition of transformations: `compose_affine` always fails.
- `C150_constructors_false`: Two helpers fail: random orientations without scatter, and fits from axes.
- `C153_covariance_false`: `covariance_matrix` (the function) is not the covariance of the coordinates it claims to be: it has an entry for each pair of points, and differs even for three points.
- `C156_one_by_one_false`: ... but not in general: the errors 8 and 5 are to be replaced by 20 and 10, the minimum is entered first; in the end the minimum is 8.
- `C157_invalid_false`: Cells marked as invalid or empty can be plotted nevertheless: text after a number is ignored, and the number zero is taken for an empty cell.
- `C157_ok_false`: ... in which cases it is marked as valid but not plotted, or plotted with another value.
- `C159_azimuth_false`: ... but of the meridians of the graticule, which are ten degrees apart, the first, north, is labelled 360 degrees.
- `C160_constructor_false`: The page is never shown, however: its constructor fails. It would work exactly if `super` were called first and only then.
- `C161_list_false`: Otherwise it fails over a group with a missing member.
- `C162_same_uid_false`: Without distinct ids it marks too much: a click on a measurement also marks every other one (here not a group) with the same id.
- `C163_hover_false`: The web application, which passes no handler, raises an error for every measurement that the mouse enters.
- `C163_page_false`: ... in which case the stereonet keeps showing the old selection: the array is changed in place, and compared by identity.
- `C164_component_false`: The component alone does not have this property: if a measurement is highlighted in the same update in which poles are switched on, nothing is highlighted.
- `C165_show_all_false`: ... but after the selection has been cleared nothing is shown, and the button does not work.
- `C166_in_view_false`: ... but not horizontally, and planes above each other are not drawn at all.
- `C167_down_false`: ... but for axes that point down the slope is more than 90 degrees, which no plane has, and the azimuth is opposite to the dip direction.
- `C168_axes_false`: With the columns of the matrix as the images of the axes, as usual, its rows are not the axes of the plane: the third row depends on the dip and the rake only, so that planes that dip in different directions are drawn as the same plane.
- `C168_strike_ignored_false`: Witness: a plane dipping 45° to the east and one dipping 45° to the south get the same third axis, which is not normal to the second plane.
- `C169_order_false`: Given in the other order, `[min, max]`, the errors are exchanged: the lengths agree only if the errors are equal.
- `C170_missing_false`: A measurement without strike and dip is shown like a horizontal plane, and one without errors like one with errors of zero degrees, in the words for errors that are recorded.
- `C170_strike_false`: A strike is shown within [0, 360) unless it is less than 0.05 degrees from 360, when it is shown as 360.0.
- `C172_behind_false`: ... but the texts stay where they are when the view is turned: seen from behind (turned by more than 90 degrees) each is on the side of the other direction.
- `C183_side_false`: The side is not given: data with the same strike, dip and rake and different axes.
- `C185_explained_false`: The explained variance says nothing in two dimensions: it is 1 for all points that do not coincide, also for points far from any line.
- `C185_no_orientation_false`: No object made from a two-column array has an orientation: strike and dip, the coefficients and the exported mapping all raise `IndexError`, and the direction of dip is `None`.
- `C186_shell_only_false`: ... but not only these: the tolerance is absolute, and every point is on the "shell" of a conic that is scaled down.
- `C187_slice_line_false`: Without a given direction the direction used is not along the line, unless the line is parallel to an axis: the slice is not that of the line.
- `C189_python3_false`: With Python 3 and later `aligned_residuals` returns no figure, for any fit; with `values` it would return the same figure as with Python 2.
- `C190_bootstrap_false`: `bootstrap` never returns: every call is a `TypeError`, also the documented one with an array as its only argument.
- `C191_center_position_false`: `centerPosition` does not refer to the middle of the rectangle unless that is the middle of the square of the size of the stereonet; for the rectangular plot of the package it is not.
- `C191_position_false`: With a position the projection is not centered in the rectangle: it stays where the default position would have it.
- `C191_resize_false`: Changing the size of a drawn rectangular stereonet moves the projection out of the middle of the rectangle, which stays: the projection goes to the middle of the square of the new size.
- `C192_azimuth_false`: The labels for the azimuth are not on the right edge of the plot, but 20 pixels left of it; some of the points at which they can be are above the plot.
- `C193_360_false`: A plane that dips to the east, but for less than 2^-45 degrees to the north, gets a strike of 360 instead of one below.
- `C195_itself_false`: The angle of a vector with itself can be `nan` in double precision, even if its length is one up to rounding, as is that of the normal of a fit.
- `C196_unstable_false`: The bound needs the second principal component to stand out from the third: otherwise the smallest movement of the points can turn the plane by a right angle.
- `C200_confirmed_larger_false`: At the usual level, for any six points that do not lie in a plane, adding a seventh that lies exactly in the fitted plane (the mean) makes both sampling errors larger.
- `C201_constant_false`: Three points of the same elevation, 0.1 (the closest number that can be represented): whatever the order of the sum, their centered elevation is not zero but -2⁻⁵⁶.
- `C204_vanish_false`: Repeating the measurements therefore does not make the errors arbitrarily small: for all points that are not in one plane, both errors stay above the same positive angle.
- `C206_three_points_false`: With three points the errors never contain the true plane, at no level: they are zero, and the fitted plane is another one.
- `C207_vertical_errors_false`: Only errors of elevation: the fits of more and more points are steeper than a true plane that is inclined, and by how much does not tend to zero.
- `C208_equal_errors_false`: Equal errors of the coordinates: the regressions of more and more points dip less than a true plane that is inclined, and by how much does not tend to zero.
- `C209_short_line_false`: Refutation: a line around a triangle inside one cell is fitted exactly by a horizontal plane, with no errors, however steep the elevation model is.
- `C210_one_elevation_false`: Refutation for the regression: one wrong elevation, at any position other than the mean of the positions, makes the reported dip as steep as one likes, whatever the other points are.
- `C210_one_point_false`: Refutation: one wrong point decides the orientation of the plane. Whatever the other points are, a point far away in any direction turns the fitted plane into that direction.
- `C212_order_false`: Refutation: three points, added from the first to the last. Giving the first point last changes its centered coordinates.
- `C213_same_plane_false`: With `same_plane=True` this is not so: two exact measurements of flat beds, ten units above each other, are given a dip.
- `C215_angular_errors_false`: Refutation: the angular errors need not show that a point is wrong. Four of five points are exactly in a horizontal plane, the fit is vertical, and both angular errors are as small as one likes.
- `C216_line_false`: Refutation: points on a line are given errors of zero, for all methods and levels, although they determine no plane: each plane that contains the line is the result of some decomposition that meets the contract.
- `C217_jump_false`: Refutation: the smallest movement can change the errors by 45 degrees. The points that are not moved are on a line and have errors of zero.
- `C221_errors_false`: The errors ought to stay as they are too. But they become smaller, for every group whose members are not exactly parallel planes, with both methods and at all levels at which the errors do not exceed the extent of the data: the points that say nothing are counted.
- `C224_groups_false`: So the claim is false for every group of many traces: in the end its estimate of the variance is too small, for traces of three points by about a third.
- `C226_horizontal_false`: Planes that are nearly horizontal: the angle between them can be as small as one likes while their strikes are opposite.
- `C226_vertical_false`: Planes that are nearly vertical: the angle between them can be as small as one likes while their strikes are opposite.
- `C228_repeated_false`: Measuring every point `k` times, in any order, leaves the coefficients and the standard errors as they are: they do not shrink with the number of measurements.
- `C228_variance_false`: With more than four points the squares of the standard errors are not the variances of the slopes, not even on average: here for every number of points, with errors of variance one.
- `C229_moved_false`: Nothing checks that positions belong together: with a `mean` other than the `center` of its centered points a measurement stands for points moved by the difference.
- `C230_groups_alone_false`: Groups without their members cannot be shown.
- `C230_mean_false`: Planes are placed according to `mean` but the middle is that of `center`: a single measurement with both is off the middle by their difference.
- `C230_no_center_false`: One measurement without a `center`, as every `ReconstructedPlane` is (base.py L84-85), and nothing at all is drawn; also if the points are given, from which `PlaneData` computes it.
- `C231_data_false`: The planes are for ever those of the data with which the view was made: other data given to it later is not drawn.
- `C231_label_false`: The angle in the label "Distance along" is the azimuth of the direction to the right in the picture for the azimuths of 45 and 225 degrees only.
- `C231_label_start_false`: For the view of the start, azimuth 0, the label says 90 (east); the picture is along the direction to the south.
- `C231_leave_false`: When the mouse leaves a measurement its trace stays highlighted.
- `C231_missing_member_false`: Moving the mouse to a group one of whose members is not in the data, for which `onHover` passes `undefined` (index.ts L60-67 and L149-150), is an error.
- `C232_class_false`: Two planes, the first of which belongs to a group: if the first is nearer in the first view, then in the next view, whatever it is, each of the two has the class of the other.
- `C232_mask_false`: A horizontal bed with errors that are larger along north than along east: after the first view, along the x axis or along the y axis, it has the wrong mask in the other one.
- `C232_masks_false`: The masks are those of the first view for ever.
- `C233_options_false`: An object that was given to `planes` is changed: given to `ellipses` afterwards, the poles are put among the planes, in gray whatever their colors, there is no container for poles, and removing the planes removes them.
- `C233_replace_false`: A second call does not replace the data of the first: with at most as many data the drawing stays as it is, and the selection that is returned is empty.
- `C234_again_false`: Labels added twice: the first set stays where it was.
- `C234_asking_false`: To ask which function is registered removes it.
- `C234_center_false`: `center` turns the net without telling anyone: labels stay, and no function is called.
- `C234_labels_false`: A function registered for `rotate` without a name, or the attempt to look one up there, stops the labels: after a rotation they stay where they were.
- `C234_other_false`: Other events are refused, and a function registered for `redraw` alone is never called.
- `C235_noise_scatter_false`: The scatter of elevations is thus overestimated whenever there is noise: with probability one its average does not tend to that of the data.
- `C235_standard_error_false`: This is not the square of the standard error of the mean, the sample variance divided by the number of data, unless all data are equal: with probability one the average has another limit, which is smaller.
- `C236_narrow_false`: Refutation: the integers of `strip` can be represented, and the points of both data sets lie on planes whose coefficients exact arithmetic recovers: `z = x` and `z = y`. But squares of the coordinates are rounded, so that the matrix of the normal equations is singular, and the program gives the same answer for both, whatever it uses as the inverse and in whatever order it adds.
- `C236_refused_false`: Refutation, the other way round: a library that refuses singular matrices, as `numpy` does, makes the program fail with `LinAlgError` for these four points of the plane `z = x`, which are not on a line.
- `C239_dip_false`: If the heights have a weight `k` and the other coordinates have weight one, the strike of points in a plane is right and the tangent of the dip is divided by `k`: the dip is right only for `k = 1`, although the points have no errors.
- `C239_exact_false`: Points of a plane, and of no other one: the reported normal is that of the plane multiplied by the weights, coordinate by coordinate (up to its length).
- `C240_normal_false`: So the normal of a line through points without errors is wrong: it is that of the line multiplied by the weights. It is perpendicular to the line just if the weights are equal or the line is along a coordinate axis.
- `C240_reload_false`: For points on a line the axes of the reloaded object are `nan`.
- `C241_odd_false`: With an odd number of samples the curve does depend on the signs: three samples, the sign of the first axis.
- `C241_vertical_false`: For a vertical plane, if the sign of the third axis is changed, the sheets upper and lower exchange names.
- `C242_many_false`: The share of repetitions ought to be the usual one for `k` standard errors, such as 68 percent for one. Instead it tends to one for all `k`, however small, wherever the points are.
- `C242_three_false`: With three points it is never within any number of standard errors, except if it is exact.
- `C243_default_false`: For a concentration of forty or more the default number of terms is not enough: the result is at most a third of the normalisation.
- `C243_density_false`: The density of `bingham_pdf` is not normalised: for a plane whose errors are the same in all directions, and a last hyperbolic axis of at most a fifth, its integral over the whole sphere is less than one.
- `C245_saved_false`: Refuted for saved axes: the object is created for all points. If the coordinate of one point is missing then that of the mean and of all centered points is not a number, but strike and dip are.
- `C246_from_axes_false`: Refuted: the dual of an ellipsoid made with `from_axes` or `from_semiaxes` is never the hyperboloid that their documentation promises.
- `C247_oblique_false`: The two programs draw different curves for the same plane in the same section.
- `C250_separately_false`: Refutation: a line inside one cell has other elevations alone than together with a line that goes further: alone 10 at both its ends, together 7.5 and 12.5, as in the DEM, which rises by 10 with each row.
- `C252_inverse_false`: Refutation: the inverse hyperbola cannot be drawn, whatever the axes.
- `C252_normals_foci_false`: Refutation: for every hyperbola steeper than 45° the marks are not the foci of the ellipse of normal vectors, which is then wider than high: its foci are beside the centre, the marks above and below it.
- `C252_view_false`: Refutation: for hyperbolas steeper than about 50° the ellipse of normal vectors ends outside the view.
- `C253_default_false`: Refutation: by default the mapping does not have the hyperbolic axes of the fit: for every fit of at least three points that are not on a plane the third one is smaller than that of the fit.
- `C255_hyperbola_flat_false`: Refutation for points on a plane: the hyperbola has infinite entries.
- `C255_reconstructed_false`: Refutation of the last check of `test_reconstructed_plane`: whenever the first two singular values differ and the angular errors are in order, the covariance of the reconstructed plane is not that of the fit divided by its last entry (it has the in-plane axes in the opposite order).
- `C256_girdle_ring_false`: Refutation for the rings of the error surface: the first and the last position of a curve show different directions, so that its polygon is not closed as GeoJSON has it.
- `C256_missing_false`: The missing part: the cosine of its angle, from the lengths of the errors and the number of points.
- `C256_pole_ring_false`: Refutation for the rings around the poles.
- `C257_coarse_false`: The distance is not better: with equal errors in the plane there are directions of the plane that are further than `√(2/n)` from all points (the curves of Python come within `2π/(n-1)`, `C249_plane_is_traced`).
- `C258_exact_false`: The drawn band is not the band: with the x values -1 and 1 and unit axes the drawn band at 0 is `√2` times as wide as the errors.
- `C260_by_name_false`: Arguments given by name are not used by the class: for all arguments the object has no data, its polygon is a single point and the nominal line raises `TypeError`, though the same arguments by position give a band.
- `C260_stale_false`: Not every polygon on the axes shows the latest data: a polygon that was drawn before another one keeps the data it had, and stays on the axes.
- `C261_pole_false`: With equal errors `e` no vertex of the pole's error is at the angle `e` or `e/2` from it.
- `C261_same_polygon_false`: Yet the polygons of the two functions of the same name are different: for a horizontal plane their first vertices are not at the same latitude.
- `C263_limit_false`: Refutation: clip angles from 89 to 90 degrees do not hide what is further from the vertical; a horizontal direction is shown.
- `C264_half_false`: The numbers as Python reports them, not doubled, give narrower curves: when the larger error is less than twice the smaller one, every vertex of the error curves drawn from the numbers is nearer to the plane than every vertex of the curves drawn from the axes of the fit.
- `C266_caption_false`: ... and larger than the largest residual unless all points lie in one plane.
- `C267_clip_false`: An angle that is entered is used without the test: any number is drawn with.
- `C267_rectangular_false`: ... keeps the drawings of all data that it was ever given, so that it shows the last alone only if nothing was given before.
- `C268_order_false`: The first number reported need not be the smaller one, even at moderate errors: if the weight of `y` is larger than that of `x`, there are points for which it is the larger one, at any level and with both methods (of the sampling method it is asked that the errors be smaller than the axes, C23).
- `C268_renamed_false`: Exchanging `x` and `y` and their weights changes both errors, if the weight of `y` is the larger one: the first becomes smaller and the second larger. Asked are points not in one plane and errors smaller than the axes (the usual case, see C23).
- `C269_reported_false`: ... so that it does not tend to the dip of the regression but to zero, for all points.
- `C270_pca_false`: Fits of principal components do not follow: for points that are not in a plane and do not give a horizontal or vertical plane, all sufficiently large reductions of heights reduce the slope by more than their factor.
- `C271_edit_false`: With a single row that is `null`, which the table shows as an empty row, no edit of any other row is ever stored, however often rows are added: only empty rows are appended, until the sheet is reset.
- `C273_again_false`: Drawing again does not replace labels: there is a group for every call of `render`.
- `C273_dip_outside_false`: In the rectangular plot the dip labels, and the title "Dip", are anchored below the lower end of the picture, whatever the data are, provided that the library finds points of the line it is given ...
- `C274_negative_false`: ... but the sheet accepts negative errors, and for these the opacities are negative, that of the stroke less than that of the fill: the ellipse cannot be seen.
- `C274_unknown_false`: For other data a single color that is not known ends the plot: ellipses before it have their style, it and all later ones have none, and there are neither labels nor paths.
- `C275_quotes_false`: Otherwise the text may read as another selection: the text for one measurement is that for two others.
- `C276_reset_false`: The scale of opacities cannot be taken away again: once one was given, no calls whatever lead back to the initial state without one.
- `C277_length_false`: So the nominal line and the border end at the same place only at one pixel per unit.
- `C277_off_false`: Turning the nominal line off does not take it away: after it was drawn once, the element keeps it through whatever is called and drawn later.
- `C278_blank_false`: So nothing at all is seen of the planes with an angular error above 45 degrees, of which the trace should remain.
- `C278_nominal_false`: But the trace of the plane is never shown, although there is a path for it: to set its color, it is selected from its group, which makes the measurement its datum, and all paths are drawn after that.
- `C279_both_false`: With both planes and poles, the highlighted planes vanish at once: drawing the poles draws all paths again, and those of the highlighted planes have the measurement as their datum by then.
- `C279_rotate_false`: Rotating the net takes every highlight away, although the same measurements are still highlighted and there are still elements for them.
- `C280_no_errors_false`: Every plane without errors is hashed like the same plane with the errors 90 and 90.
- `C280_rake_false`: A rake and the rake turned by 180 degrees are the same axis, so they describe the same plane with the same error axes; but the hashed arrays differ, for every plane.
- `C281_strike_false`: The strike is a compass direction below 360, but for every strike above 359.995, and every dip, there are measurements with that strike and a text that says 360.
- `C282_dip_false`: The first uncertainty is larger than the error of the dip: that is it times the square of the cosine of the dip. For every plane that is not horizontal it is right only if it is zero.
- `C282_order_false`: The first uncertainty is not that of the strike, the first angle, but belongs to the dip: a small change of the slope along dip does not turn the plane, and a small change across does not change the dip.
- `C282_strike_false`: The second uncertainty is the error of the strike times the tangent of the dip: it is right only for dips of 45 degrees, and for gently dipping planes it is too small without limit.
- `C284_linear_false`: Linear orientations have neither principal axes nor a hash nor a mapping: for these the use is an `AttributeError`, and all the others can be used.
- `C284_reconstructed_false`: Of reconstructed planes only the flag, the hash, the centers (which are `None`) and the mapping can be used; dip direction, gradient, standard errors, the error ellipse and principal axes are an `AttributeError`, for the names given here.
- `C285_returns_iff_false`: It returns exactly for numbers of at most 2^56; for all larger ones (the argument is rounded) it does not end.
- `C286_components_false`: Separate components, for which the first of the two definitions was written, are refused whatever they are; that definition returns the unit vector. A single number is accepted and gives its sign.
- `C288_collections_false`: Collections that are not sequences, such as arrays, sets and generators of attitudes, are taken for a single attitude and refused; lists in lists are refused as well, if they have orientations; and a string is shown as one attitude per character.
- `C288_nan_false`: One attitude with a number that is not finite, among however many others: Python displays the script without an error, but the page shows none of them.
- `C289_units_false`: The angular error of a direction depends on the unit of length: for the same points and the same length in another unit it is always another one, larger if the numbers are larger.
- `C290_parallel_false`: For a fit parallel to the plane of the group there is no second number.
- `C290_signs_false`: The second number depends on the sign of the normal of the group: reversing it replaces the error of the fit by its supplement. The sum stays the same only if the normal of the group is perpendicular to the first axis of the fit, and then the error of the fit is taken to be 90 degrees, however small its errors are.
- `C291_order_false`: Two valid solvers can return the half axes in different orders: which of the two numbers is the longer one is not determined (they are the same two numbers for all solvers).
