{"id": "C01", "title": "centered removes the mean and nothing else", "statement": "For every coordinate array, centered(coords) has the same number of rows, zero mean on every axis, the same pairwise differences between rows as the input, and centering again (or first translating the input by any vector) gives the same result.", "quantifier": "all n, all n x 3 real arrays, all translation vectors", "why_tests_cant": "A test samples random arrays; zero mean and translation invariance must hold for every array size and content because every fit starts from it.", "anchors": ["attitude/coordinates/__init__.py:centered", "attitude/orientation/pca.py:PCAOrientation.__init__"]}
{"id": "C02", "title": "spherical/cartesian round trip", "statement": "Converting a non-zero point with coordinates.spherical and back with coordinates.cartesian returns the same point.", "quantifier": "all non-zero points of R^3", "why_tests_cant": "The repository's own test compares i.all() == j.all(), which is true for almost any data; only a universal statement shows what the pair of functions really does.", "anchors": ["attitude/coordinates/__init__.py:spherical", "attitude/coordinates/__init__.py:cartesian", "attitude/test/__init__.py:test_coordinate_transforms"]}
{"id": "C03", "title": "from_stereonet and to_stereonet are inverse", "statement": "For every longitude in (-pi, pi] and latitude strictly between the poles, to_stereonet(from_stereonet(lon,lat)) = (lon,lat) and from_stereonet(to_stereonet(lon,lat)) = (lon,lat).", "quantifier": "all (lon,lat) in the open coordinate range", "why_tests_cant": "Branch cuts of arctan2 make sampled round trips pass while special meridians fail; the claim must hold on all of them.", "anchors": ["attitude/coordinates/rotations.py:from_stereonet", "attitude/coordinates/rotations.py:to_stereonet"]}
{"id": "C04", "title": "(lon,lat) positions are unit vectors and the stereonet axis swap is an isometry", "statement": "rotations.cartesian(lon,lat) is a unit vector for every (lon,lat) whose elevation is lat, and stereonet_transformation() maps [1,0,0] to [0,0,1], is its own inverse and preserves all lengths and angles.", "quantifier": "all real lon, lat; all vectors", "why_tests_cant": "Length preservation is an equality over all reals, not something a sample of angles establishes.", "anchors": ["attitude/coordinates/rotations.py:cartesian", "attitude/coordinates/rotations.py:stereonet_transformation"]}
{"id": "C05", "title": "rotations.transform maps v1 onto v2", "statement": "For every pair of non-parallel unit vectors v1, v2, the matrix R = transform(v1,v2) is a rotation and R v1 = v2.", "quantifier": "all pairs of non-parallel unit vectors", "why_tests_cant": "No test exists; the claim is universal over vector pairs.", "anchors": ["attitude/coordinates/rotations.py:transform"]}
{"id": "C06", "title": "The PCA plane is the best fit", "statement": "No plane, through any point and with any orientation, has a smaller sum of squared orthogonal distances to the input points than the plane through the fit's center perpendicular to the fit's normal (default weights).", "quantifier": "all point sets with n>=3, all competing planes (unit normal and offset)", "why_tests_cant": "Optimality compares against infinitely many competing planes.", "anchors": ["attitude/orientation/pca.py:PCAOrientation.__run_svd", "attitude/orientation/pca.py:PCAOrientation.__compute_derived_parameters"]}
{"id": "C07", "title": "Residuals are the orthogonal misfits", "statement": "residuals() returns, for every input point, the vector from the fitted plane to the point: it is parallel to the normal, its signed length is the orthogonal distance, subtracting it puts the point on the fitted plane, and the squared lengths sum to the square of the last singular value.", "quantifier": "all n>=3 and all point sets", "why_tests_cant": "Equality of vectors for all rows and all data.", "anchors": ["attitude/orientation/pca.py:PCAOrientation.residuals", "attitude/orientation/pca.py:PCAOrientation.rotated"]}
{"id": "C08", "title": "Rotated data is the same data in principal axes", "statement": "rotated() preserves all inner products between points, its columns are uncorrelated with zero mean, and the eigenvalues are exactly the (ddof=1) sample variances of its columns, in non-increasing order and non-negative.", "quantifier": "all n>=3 and all point sets", "why_tests_cant": "The existing tests use allclose on random clouds.", "anchors": ["attitude/orientation/pca.py:PCAOrientation.rotated", "attitude/orientation/pca.py:PCAOrientation.eigenvalues", "attitude/orientation/test_pca.py"]}
{"id": "C09", "title": "Fewer than three coordinates are refused", "statement": "Fitting a plane without precomputed axes raises ValueError for fewer than three points and never raises it for three or more.", "quantifier": "all array lengths", "why_tests_cant": "Boundary over all lengths.", "anchors": ["attitude/orientation/pca.py:PCAOrientation.__run_svd"]}
{"id": "C10", "title": "A fit can be recovered from its saved principal axes", "statement": "PCAOrientation(arr, axes=fit.principal_axes) has the same axes, singular values, strike, dip and left singular vectors as fit.", "quantifier": "all fits (including exactly planar data whose last singular value is zero)", "why_tests_cant": "Random scattered data never has a zero singular value, so tests never see the degenerate branch.", "anchors": ["attitude/orientation/pca.py:PCAOrientation.__load_saved_fit", "attitude/orientation/pca.py:PCAOrientation.U", "attitude/orientation/base.py:BaseOrientation.principal_axes"]}
{"id": "C11", "title": "Strike and dip are determined by the data", "statement": "Whatever valid singular value decomposition the linear algebra backend returns, data with a unique best-fit plane gives the same dip, and the same strike unless that plane is horizontal (the same strike line if it is vertical); translating or uniformly scaling the data does not change them; rotating the data about the vertical by an azimuth a shifts the strike by a (mod 360) and leaves the dip.", "quantifier": "all point sets with a unique best plane that is neither horizontal nor vertical, all valid decompositions, all translations, positive scales and azimuths", "why_tests_cant": "The decomposition is not unique (signs), so the claim ranges over all backends.", "anchors": ["attitude/orientation/pca.py:PCAOrientation.strike_dip", "attitude/orientation/pca.py:PCAOrientation.__run_svd"]}
{"id": "C12", "title": "Strike is in [0,360) and dip in [0,90]", "statement": "PCAOrientation.strike_dip always returns a strike in [0,360) and a dip in [0,90], whatever the sign and direction of the third principal axis.", "quantifier": "all unit normals", "why_tests_cant": "Quadrant handling: finitely many samples miss the boundary azimuths.", "anchors": ["attitude/orientation/pca.py:PCAOrientation.strike_dip"]}
{"id": "C13", "title": "An upside-down normal gives the same strike and dip", "statement": "strike_dip of a fit whose axes are negated equals strike_dip of the fit.", "quantifier": "all unit normals that are not vertical or horizontal vectors, plus the degenerate cases", "why_tests_cant": "Sign of singular vectors is arbitrary, tests see only one.", "anchors": ["attitude/orientation/pca.py:PCAOrientation.strike_dip"]}
{"id": "C14", "title": "Strike and dip obey the right-hand rule", "statement": "The plane with the reported strike and dip under the right-hand rule (dip direction is strike+90, dip measured downwards from horizontal) is the fitted plane: its upward normal is the fit's normal.", "quantifier": "all unit normals", "why_tests_cant": "Round trip through arctan2/arccos must hold on every quadrant and on boundaries.", "anchors": ["attitude/orientation/pca.py:PCAOrientation.strike_dip", "attitude/orientation/pca.py:PCAOrientation.__compute_derived_parameters"]}
{"id": "C15", "title": "dip_direction reports a compass azimuth down the dip", "statement": "dip_direction() returns (azimuth, dip) where the azimuth is in [0,360) and moving horizontally along it the plane goes down at tan(dip).", "quantifier": "all fits", "why_tests_cant": "Range claim over all strikes.", "anchors": ["attitude/orientation/base.py:BaseOrientation.dip_direction"]}
{"id": "C16", "title": "dip_dr is the unit dip vector", "statement": "fit.dip_dr is a unit vector lying in the fitted plane, perpendicular to the strike, of steepest slope, and it points down dip. For a horizontal plane it is not finite.", "quantifier": "all unit normals", "why_tests_cant": "Direction of a cross product for all normals.", "anchors": ["attitude/orientation/pca.py:PCAOrientation.__compute_derived_parameters"]}
{"id": "C17", "title": "Rake is determined by the data", "statement": "rake() lies in [0,180] and does not depend on which of the two possible signs the decomposition gives to the first principal axis.", "quantifier": "all fits, all sign choices", "why_tests_cant": "Sign of singular vectors is backend dependent.", "anchors": ["attitude/orientation/pca.py:PCAOrientation._rake", "attitude/geom/util.py:angle"]}
{"id": "C18", "title": "Reading errors from a fit does not change the fit", "statement": "Any sequence of calls that draw or query errors (as_conic, error_ellipse, normal_errors, pole_error, plane_errors, strike_dip, residuals, uid) leaves strike, dip, normal, residuals, the stored decomposition and the uid unchanged.", "quantifier": "all fits and all finite sequences of queries", "why_tests_cant": "It is a statement about all histories; in-place updates only show for upside-down fits.", "anchors": ["attitude/orientation/pca.py:PCAOrientation.as_conic", "attitude/stereonet.py:normal_errors", "attitude/display/polar.py:pole_error", "attitude/orientation/base.py:BaseOrientation.hash"]}
{"id": "C19", "title": "explained_variance is a proportion of variance", "statement": "explained_variance lies in [0,1] and equals the proportion of the total variance of the data carried by the first two principal components.", "quantifier": "all non-degenerate fits", "why_tests_cant": "An equality for all data; no test checks it.", "anchors": ["attitude/orientation/pca.py:PCAOrientation.explained_variance", "attitude/orientation/pca.py:PCAOrientation._covariance_matrix"]}
{"id": "C20", "title": "Weights are applied transparently", "statement": "Omitting weights is the same as passing ones; with any positive weights the stored decomposition still reproduces the centered data (U Sigma V = data).", "quantifier": "all positive weights, all data", "why_tests_cant": "Only default weights are exercised by tests.", "anchors": ["attitude/orientation/pca.py:PCAOrientation.__init__", "attitude/orientation/pca.py:PCAOrientation.__run_svd"]}
{"id": "C21", "title": "Hyperbolic axes have the documented closed form", "statement": "For every fit and confidence factor, noise and sampling hyperbolic axes are the absolute values of eigenvalue minus error for in-plane axes and eigenvalue plus error for the normal axis; they are never negative, and the normal axis is never smaller than the nominal eigenvalue (default scaling).", "quantifier": "all non-negative eigenvalues, all n>2, all factors z>=0", "why_tests_cant": "Universal over eigenvalues and sample sizes.", "anchors": ["attitude/error/axes.py:statistical_axes", "attitude/error/axes.py:apply_error_scaling", "attitude/error/axes.py:noise_covariance", "attitude/error/axes.py:sampling_covariance"]}
{"id": "C22", "title": "angular_errors returns (minimum, maximum)", "statement": "angular_errors() of a fit returns two angles in [0,90] degrees, the first not larger than the second.", "quantifier": "all fits, both error methods, all confidence levels", "why_tests_cant": "Ordering must hold for every noise level, small samples included.", "anchors": ["attitude/orientation/pca.py:PCAOrientation.angular_errors", "attitude/error/axes.py:angular_errors"]}
{"id": "C23", "title": "Higher confidence means larger angular errors", "statement": "Raising the confidence level never decreases either reported angular error.", "quantifier": "all fits, all pairs of confidence levels", "why_tests_cant": "Monotonicity over a continuum of levels.", "anchors": ["attitude/error/axes.py:statistical_axes", "attitude/error/axes.py:angular_errors"]}
{"id": "C24", "title": "Angular errors do not depend on units", "statement": "Multiplying all coordinates by a positive constant leaves the angular errors of noise and sampling methods unchanged.", "quantifier": "all fits, all positive scale factors", "why_tests_cant": "Universal over scale factors.", "anchors": ["attitude/error/axes.py:statistical_axes", "attitude/error/axes.py:angular_errors"]}
{"id": "C25", "title": "Normal errors and plane errors convert back and forth", "statement": "from_normal_errors(to_normal_errors(a)) = a and to_normal_errors(from_normal_errors(a)) = a for all axes with no zero entry; the normal axis itself is unchanged.", "quantifier": "all axis triples without zeros", "why_tests_cant": "Checked on random data only.", "anchors": ["attitude/error/__init__.py:to_normal_errors", "attitude/error/__init__.py:from_normal_errors"]}
{"id": "C26", "title": "hyperbolic_axes honours its options or reports an error", "statement": "hyperbolic_axes(fit, **options) either uses the options given or raises.", "quantifier": "all option dictionaries", "why_tests_cant": "An except-all clause hides every misuse from tests.", "anchors": ["attitude/error/axes.py:hyperbolic_axes"]}
{"id": "C27", "title": "The requested degrees of freedom are used", "statement": "statistical_axes(fit, dof=k) uses k degrees of freedom both in the quantile and in the measurement-noise estimate.", "quantifier": "all dof values", "why_tests_cant": "No test passes dof.", "anchors": ["attitude/error/axes.py:statistical_axes", "attitude/error/axes.py:noise_covariance"]}
{"id": "C28", "title": "Jolliffe axes use a lower bound in the plane", "statement": "For confidence levels in (0,1) the in-plane entries of jolliffe_axes are not larger than the (biased) sample variance they bound from below.", "quantifier": "all confidence levels, n and eigenvalues", "why_tests_cant": "Universal over confidence levels.", "anchors": ["attitude/error/axes.py:jolliffe_axes"]}
{"id": "C29", "title": "Regression errors in the principal frame have zero slope", "statement": "In the rotated frame the ordinary regression used by regression_axes has zero slope and intercept for every fit, so its axes have the closed form sqrt(n) s_i/(q s_3) and q^2 s_3^2/n^2.", "quantifier": "all fits with non-zero first two singular values", "why_tests_cant": "Exact identity for all data.", "anchors": ["attitude/error/axes.py:regression_axes"]}
{"id": "C30", "title": "Francq and Babamoradi axes are proportional to the eigenvalues", "statement": "francq_axes and babamoradi_axes scale linearly with the eigenvalues, keep the order of the in-plane axes and are never negative.", "quantifier": "all eigenvalues, n>2, quantiles", "why_tests_cant": "Universal over data.", "anchors": ["attitude/error/axes.py:francq_axes", "attitude/error/axes.py:babamoradi_axes"]}
{"id": "C31", "title": "Regression is ordinary least squares", "statement": "For n x 3 input, coefficients minimise the sum of squared vertical residuals over all (a,b,c), are the only minimiser when the normal matrix is invertible, residuals sum to zero and are uncorrelated with x and y, and the intercept is 0; a singular system raises.", "quantifier": "all point sets, all competing coefficients", "why_tests_cant": "Optimality ranges over all competitors.", "anchors": ["attitude/orientation/linear/regression.py:Regression.coefficients"]}
{"id": "C32", "title": "Regression accepts coordinates as three rows", "statement": "Regression((x,y,z)) gives the same coefficients as Regression of the n x 3 array of the same points.", "quantifier": "all point sets with n>3", "why_tests_cant": "Existing test calls the property as a function and never runs the comparison.", "anchors": ["attitude/orientation/linear/regression.py:Regression.__init__", "attitude/test/__init__.py:test_random_plane"]}
{"id": "C33", "title": "Lazy regression properties do not depend on access order", "statement": "Any sequence of reads of coefficients, predictions, residuals and covariance_matrix on a Regression object returns the values a fresh object would return.", "quantifier": "all access histories", "why_tests_cant": "A statement about histories and cache states.", "anchors": ["attitude/orientation/linear/regression.py:Regression"]}
{"id": "C34", "title": "LinearOrientation aligns the fit with its dip", "statement": "The rotated coefficients of a LinearOrientation have zero along-strike component, its slope is arctan of the gradient magnitude in [0,pi/2), and for data lying exactly on a plane its strike and dip agree (strike mod 360) with PCAOrientation.", "quantifier": "all non-vertical planes and point sets on them", "why_tests_cant": "Agreement of two algorithms for all planes.", "anchors": ["attitude/orientation/linear/__init__.py:LinearOrientation", "attitude/orientation/pca.py:PCAOrientation.strike_dip"]}
{"id": "C35", "title": "Rotated covariance belongs to the rotated coefficients", "statement": "rotated_covariance is the covariance of the rotated coefficients, so standard_errors are the errors along and across dip.", "quantifier": "all covariance matrices and azimuths", "why_tests_cant": "Universal over matrices.", "anchors": ["attitude/orientation/base.py:BaseOrientation.rotated_covariance", "attitude/orientation/base.py:BaseOrientation.standard_errors"]}
{"id": "C36", "title": "Three points give zero covariance, otherwise SSE times the inverse normal matrix", "statement": "Regression.covariance_matrix is zero for exactly three points and SSE*(C^T C)^-1 otherwise; it is symmetric with non-negative diagonal.", "quantifier": "all inputs", "why_tests_cant": "Universal.", "anchors": ["attitude/orientation/linear/regression.py:Regression.covariance_matrix"]}
{"id": "C37", "title": "A measurement belongs to at most one group", "statement": "After any sequence of successful create_groups calls no measurement is a member of two groups.", "quantifier": "all collections, all group lists, all call histories", "why_tests_cant": "History property over object identities.", "anchors": ["attitude/orientation/grouped.py:create_groups", "attitude/orientation/grouped.py:GroupedOrientation"]}
{"id": "C38", "title": "create_groups does not modify its inputs by default", "statement": "With the default copy=True, create_groups changes neither the list passed in nor any object reachable from it.", "quantifier": "all collections and group lists, success or failure", "why_tests_cant": "Aliasing through shallow copies; needs all heaps.", "anchors": ["attitude/orientation/grouped.py:create_groups"]}
{"id": "C39", "title": "A failed grouping leaves the collection as it was", "statement": "If create_groups or GroupedOrientation raises, no measurement's group membership has changed and every measurement can still be serialised.", "quantifier": "all failing calls", "why_tests_cant": "Crash-point property over every exception point.", "anchors": ["attitude/orientation/grouped.py:GroupedOrientation.__init__", "attitude/orientation/grouped.py:create_groups", "attitude/orientation/pca.py:PCAOrientation.to_mapping"]}
{"id": "C40", "title": "Unknown uids raise KeyError", "statement": "create_groups raises KeyError when a requested uid is not in the collection, and a uid that is present resolves to the first measurement that has it.", "quantifier": "all collections and uids", "why_tests_cant": "Universal over collections.", "anchors": ["attitude/orientation/grouped.py:create_groups"]}
{"id": "C41", "title": "Groups are never nested", "statement": "No group ever contains another group: after any history of create_groups calls (successful or failing), all members of all groups are plain measurements.", "quantifier": "all call histories", "why_tests_cant": "Invariant over histories.", "anchors": ["attitude/orientation/grouped.py:GroupedOrientation"]}
{"id": "C42", "title": "member_of and members agree", "statement": "After any history of create_groups calls, if a measurement's member_of is a completed group then the measurement is one of that group's members; for a call with pairwise disjoint uid lists every member of every new group points to it.", "quantifier": "all call histories", "why_tests_cant": "Invariant over histories.", "anchors": ["attitude/orientation/grouped.py:GroupedOrientation", "attitude/orientation/grouped.py:create_groups"]}
{"id": "C43", "title": "A group contains exactly the data of its members", "statement": "The array fitted for a group is the concatenation in order of its members' arrays (same_plane) or of their centered arrays (otherwise), its n is the sum of theirs, and its center is the mean over all member points.", "quantifier": "all member lists", "why_tests_cant": "Universal over lists.", "anchors": ["attitude/orientation/grouped.py:GroupedOrientation.__init__"]}
{"id": "C44", "title": "disable_orientations disables what was asked", "statement": "disable_orientations marks exactly the first measurement of each requested uid as disabled, leaves everything else alone, is idempotent and order independent, and raises KeyError without effect when a uid is unknown.", "quantifier": "all collections and uid lists", "why_tests_cant": "Crash point in the middle of a loop.", "anchors": ["attitude/orientation/grouped.py:disable_orientations"]}
{"id": "C45", "title": "uid identifies a measurement", "statement": "Two measurements with different coordinates have different uids (up to hash collisions), and the uid of a fit does not change over its lifetime.", "quantifier": "all pairs of datasets, all query histories", "why_tests_cant": "Universal over pairs of datasets.", "anchors": ["attitude/orientation/base.py:BaseOrientation.hash", "attitude/orientation/base.py:hash_array"]}
{"id": "C46", "title": "to_mapping contains the documented keys and lets the caller override", "statement": "to_mapping(**values) always contains the documented keys; every key the caller passes keeps the caller's value, and keys not passed keep the computed value.", "quantifier": "all value dictionaries, plain, member, group and reconstructed fits", "why_tests_cant": "Universal over dictionaries.", "anchors": ["attitude/orientation/base.py:BaseOrientation.to_mapping", "attitude/orientation/pca.py:PCAOrientation.to_mapping", "attitude/orientation/grouped.py:GroupedOrientation.to_mapping"]}
{"id": "C47", "title": "Reconstructed axes form an orthonormal frame", "statement": "For every strike, dip in [0,90] and rake, ReconstructedPlane's axes are orthonormal, the third is the upward normal of the plane with that strike and dip, and the frame is right-handed.", "quantifier": "all strikes, dips, rakes", "why_tests_cant": "Trigonometric identity over all angles.", "anchors": ["attitude/orientation/reconstructed.py:ReconstructedPlane.__init__"]}
{"id": "C48", "title": "A plane reconstructed from a fit has the fit's normal", "statement": "ReconstructedPlane(*fit.strike_dip_rake(), ...).normal equals fit.normal for every fit.", "quantifier": "all fits including vertical and horizontal planes", "why_tests_cant": "Existing test uses random fits.", "anchors": ["attitude/orientation/reconstructed.py:ReconstructedPlane", "attitude/orientation/pca.py:PCAOrientation.strike_dip"]}
{"id": "C49", "title": "A plane reconstructed from a fit has the fit's axes", "statement": "strike, dip and rake determine the principal axes up to an overall sign, so ReconstructedPlane recovers them.", "quantifier": "all fits", "why_tests_cant": "Test tolerates only what random sampling shows.", "anchors": ["attitude/orientation/reconstructed.py:ReconstructedPlane", "attitude/orientation/pca.py:PCAOrientation._rake"]}
{"id": "C50", "title": "Reconstructed hyperbolic axes encode the given angular errors", "statement": "The angular errors that angular_errors() computes from a ReconstructedPlane's hyperbolic axes are the half-errors it was built with, in the same (min,max) order.", "quantifier": "all error pairs in (0,180)", "why_tests_cant": "Universal over errors.", "anchors": ["attitude/orientation/reconstructed.py:ReconstructedPlane", "attitude/error/axes.py:angular_errors"]}
{"id": "C51", "title": "Translating a conic moves its points and center", "statement": "For every symmetric conic with invertible quadratic part, in any dimension, translate(v) contains exactly the points p+v for p in the conic, its center is the old center plus v, translations compose additively and translate(-v) undoes translate(v).", "quantifier": "all dimensions, conics, vectors", "why_tests_cant": "Universal over dimension and conics.", "anchors": ["attitude/geom/conics.py:Conic.translate", "attitude/geom/conics.py:Conic.center", "attitude/geom/conics.py:Conic.contains"]}
{"id": "C52", "title": "Transforming conics composes", "statement": "transform(S) then transform(T) is transform(S T), keeps symmetry, and a homogeneous point x lies on the transformed conic exactly when T x lies on the original; an invertible transform can be undone.", "quantifier": "all dimensions and matrices", "why_tests_cant": "Universal.", "anchors": ["attitude/geom/conics.py:Conic.transform", "attitude/geom/conics.py:Conic.solve"]}
{"id": "C53", "title": "Pole and polar plane are inverse", "statement": "pole(polar_plane(v)) = v for every invertible conic and every v, and polarity is reciprocal: p is on the polar of q iff q is on the polar of p.", "quantifier": "all dimensions, conics, points", "why_tests_cant": "Universal.", "anchors": ["attitude/geom/conics.py:Conic.polar_plane", "attitude/geom/conics.py:Conic.pole"]}
{"id": "C54", "title": "The polar plane collects the points of tangency", "statement": "For every symmetric conic and viewpoint p, a point x of the conic lies on the polar plane of p iff the line from x to p meets the conic only at x with double contact or is contained in it.", "quantifier": "all dimensions, conics, viewpoints", "why_tests_cant": "Quantifies over all tangents.", "anchors": ["attitude/geom/conics.py:Conic.polar_plane", "attitude/geom/conics.py:Conic.projection"]}
{"id": "C55", "title": "slice returns the section of the conic by the plane", "statement": "For every plane with non-zero normal, each point (a,b) satisfies the sliced conic iff the corresponding 3D point lies on the quadric, and that 3D point lies on the plane.", "quantifier": "all quadrics, planes and points", "why_tests_cant": "Universal.", "anchors": ["attitude/geom/conics.py:Conic.slice", "attitude/geom/util.py:Plane"]}
{"id": "C56", "title": "Dual is an involution", "statement": "dual(dual(C)) = C for every invertible conic and the dual of a symmetric conic is symmetric; tangent planes of C are the points of its dual.", "quantifier": "all dimensions, conics", "why_tests_cant": "Universal.", "anchors": ["attitude/geom/conics.py:Conic.dual"]}
{"id": "C57", "title": "Every conic has exactly one type, and rigid motion keeps it", "statement": "Exactly one of is_elliptical, is_hyperbolic, is_parabolic holds; translation and invertible linear maps do not change which; is_elliptical holds only for ellipses and ellipsoids.", "quantifier": "all dimensions, conics", "why_tests_cant": "Universal, and misclassification needs special signatures.", "anchors": ["attitude/geom/conics.py:Conic.is_elliptical", "attitude/geom/conics.py:Conic.is_hyperbolic", "attitude/geom/conics.py:Conic.is_parabolic"]}
{"id": "C58", "title": "Conics built from semiaxes report those semiaxes", "statement": "Conic.from_semiaxes(a).semiaxes() = a, and the axis endpoints lie on the shell.", "quantifier": "all positive semiaxes", "why_tests_cant": "Universal.", "anchors": ["attitude/geom/conics.py:Conic.from_semiaxes", "attitude/geom/conics.py:Conic.semiaxes", "attitude/geom/conics.py:Conic.contains"]}
{"id": "C59", "title": "Major axes of an ellipsoid end on its surface", "statement": "For every ellipsoid, center + each row of major_axes() is on the shell.", "quantifier": "all ellipsoids", "why_tests_cant": "The test uses the unit sphere at one special offset.", "anchors": ["attitude/geom/conics.py:Conic.major_axes", "attitude/geom/test_conics.py:test_conic"]}
{"id": "C60", "title": "angle_subtended is the true angular radius", "statement": "For a sphere of radius r at distance d>r from the origin in any direction, angle_subtended() is arcsin(r/d) on both axes.", "quantifier": "all centers and radii", "why_tests_cant": "Test uses one sphere on a coordinate axis.", "anchors": ["attitude/geom/conics.py:angle_subtended", "attitude/geom/conics.py:Conic.projection"]}
{"id": "C61", "title": "perpendicular_vector is perpendicular", "statement": "perpendicular_vector(n) is a non-zero vector perpendicular to n for every non-zero n in 2 or 3 dimensions and raises ValueError for the zero vector in 3 dimensions.", "quantifier": "all n", "why_tests_cant": "Universal; the defect needs an oblique vector.", "anchors": ["attitude/geom/util.py:perpendicular_vector"]}
{"id": "C62", "title": "Hessian normal form describes the same plane", "statement": "hessian_normal() has a unit normal, describes the same point set, is idempotent, and offset() is the point of the plane closest to the origin.", "quantifier": "all planes with non-zero normal", "why_tests_cant": "Closest point ranges over all points of the plane.", "anchors": ["attitude/geom/util.py:Plane"]}
{"id": "C63", "title": "angle between vectors is a proper angle", "statement": "angle(v,w) is symmetric, lies in [0,pi], is unchanged by positive rescaling, is 0 exactly for parallel vectors of the same direction, and fit_angle is its value in degrees for the two normals.", "quantifier": "all non-zero vector pairs", "why_tests_cant": "Universal.", "anchors": ["attitude/geom/util.py:angle", "attitude/geom/__init__.py:fit_angle"]}
{"id": "C64", "title": "Vectorised and iterative plane errors agree", "statement": "For every diagonal covariance, orthonormal axes and sheet name, plane_errors and iterative_plane_errors return the same curve for the same n.", "quantifier": "all axes, covariances, sheets, n, levels", "why_tests_cant": "Tests use allclose on random fits whose third axis is never exactly horizontal and only level 1.", "anchors": ["attitude/stereonet.py:plane_errors", "attitude/stereonet.py:iterative_plane_errors"]}
{"id": "C65", "title": "Vectorised and iterative normal errors agree", "statement": "normal_errors and iterative_normal_errors return the same curve for the same n, level 1 and either layout.", "quantifier": "all axes, covariances, n, layouts", "why_tests_cant": "Universal.", "anchors": ["attitude/stereonet.py:normal_errors", "attitude/stereonet.py:iterative_normal_errors"]}
{"id": "C66", "title": "Pole errors are dual to girdle errors", "statement": "Every direction on the normal-error curve is the normal of a plane tangent to the cone of the plane-error girdle: it has one point of contact with the girdle and the rest on one side.", "quantifier": "all axes, positive covariances, all directions on the curve", "why_tests_cant": "Ranges over pairs of continuous parameters.", "anchors": ["attitude/stereonet.py:plane_errors", "attitude/stereonet.py:normal_errors"]}
{"id": "C67", "title": "Upper and lower sheets are antipodal and the nominal curve is in the plane", "statement": "The lower sheet is the point reflection of the upper sheet, the nominal sheet lies in the fitted plane, and for every sheet the angular distance from the plane lies between the errors along the two in-plane axes.", "quantifier": "all axes, covariances, angles", "why_tests_cant": "Continuous parameter.", "anchors": ["attitude/stereonet.py:plane_errors"]}
{"id": "C68", "title": "error_ellipse describes the fit", "statement": "stereonet.error_ellipse(axes, cov) depends on the axes and the level and returns n points.", "quantifier": "all axes, covariances, n, levels", "why_tests_cant": "No test calls it.", "anchors": ["attitude/stereonet.py:error_ellipse"]}
{"id": "C69", "title": "error_coords contains nominal, upper and lower for each level", "statement": "error_coords returns a nominal curve plus upper/lower (and ellipse) at top level or under each requested level; the nominal curve does not depend on the level.", "quantifier": "all level lists and options", "why_tests_cant": "Universal over option lists.", "anchors": ["attitude/stereonet.py:error_coords"]}
{"id": "C70", "title": "The level option scales errors", "statement": "Asking for a larger level widens plane and normal error curves.", "quantifier": "all levels", "why_tests_cant": "No test passes level.", "anchors": ["attitude/stereonet.py:plane_errors", "attitude/stereonet.py:normal_errors", "attitude/stereonet.py:iterative_plane_errors"]}
{"id": "C71", "title": "Error curves are hyperbolas", "statement": "The values returned by hyperbolic_errors and hyperbola_values satisfy y^2/b^2 - x^2/a^2 = 1 with positive y, agree with the quadratic formulation, are even in x, minimal at x=0 and asymptotic to slope b/a.", "quantifier": "all positive axes and x", "why_tests_cant": "Universal over x.", "anchors": ["attitude/display/hyperbola.py:hyperbolic_errors", "attitude/display/hyperbola.py:hyperbola_values", "attitude/display/plot/cov_types/regressions.py:hyperbola"]}
{"id": "C72", "title": "Slicing gives the harmonic mean of in-plane axes", "statement": "Seen along a horizontal azimuth t in the fit frame, the semiaxes used for the error hyperbola are 1/sqrt(cos^2 t/h0 + sin^2 t/h1) and sqrt(h2), lying between the two in-plane axes.", "quantifier": "all azimuths and positive axes", "why_tests_cant": "Test uses one angle.", "anchors": ["attitude/display/hyperbola.py:hyperbolic_errors", "attitude/display/test_hyperbolic_errors.py:test_dual_conic"]}
{"id": "C73", "title": "Error band brackets the nominal line", "statement": "At every x the nominal line is midway between the top and bottom curves.", "quantifier": "all x, axes, means", "why_tests_cant": "Universal.", "anchors": ["attitude/display/hyperbola.py:hyperbolic_errors"]}
{"id": "C74", "title": "Apparent dip correction rotates the profile to its dip", "statement": "apparent_dip_correction returns a rotation matrix for every pair of axes and distinguishes up-dip from down-dip axes.", "quantifier": "all axes", "why_tests_cant": "Universal.", "anchors": ["attitude/display/hyperbola.py:apparent_dip_correction"]}
{"id": "C75", "title": "hyperbolic_errors works for two-dimensional axes", "statement": "hyperbolic_errors(hyp_axes, xvals) accepts two-component axes without further arguments.", "quantifier": "all 2d axes", "why_tests_cant": "No test covers the branch.", "anchors": ["attitude/display/hyperbola.py:hyperbolic_errors"]}
{"id": "C76", "title": "Error ellipse points are at the requested level", "statement": "Every point returned by ellipse(center, cov, level) has Mahalanobis distance level from the center, whichever valid decomposition the backend returns, and the curve is closed.", "quantifier": "all symmetric positive definite covariance matrices, levels, parameters", "why_tests_cant": "Continuous parameter and all backends.", "anchors": ["attitude/error/ellipse.py:ellipse", "attitude/orientation/base.py:ellipse"]}
{"id": "C77", "title": "clean_coordinates removes exactly the invalid rows", "statement": "clean_coordinates keeps exactly the rows without NaN, in order, and is idempotent.", "quantifier": "all arrays", "why_tests_cant": "Universal.", "anchors": ["attitude/helpers/dem.py:clean_coordinates"]}
{"id": "C78", "title": "offset_mask is the minimal bounding rectangle", "statement": "offset_mask returns the smallest rectangle containing all true cells together with its offset: no true cell is lost, cells keep their value, and each border row and column of a non-empty result contains a true cell; an empty mask gives an empty result.", "quantifier": "all masks of all sizes", "why_tests_cant": "Universal over masks.", "anchors": ["attitude/helpers/dem.py:offset_mask"]}
{"id": "C79", "title": "extract_area returns every valid masked pixel once", "statement": "extract_area returns, in row-major order, exactly the pixels that are inside the geometry and valid in the DEM, each at the georeferenced pixel center with the DEM's value at that pixel.", "quantifier": "all DEMs, masks and affine transforms", "why_tests_cant": "Off-by-one in windowing would need special masks.", "anchors": ["attitude/helpers/dem.py:extract_area"]}
{"id": "C80", "title": "extract_line reads a window that covers the line", "statement": "For every non-empty line inside the DEM, the window read by extract_line is non-empty, contains every pixel the line touches, and values equal interpolation on the full DEM.", "quantifier": "all lines", "why_tests_cant": "Edge cases at integer pixel coordinates and window borders.", "anchors": ["attitude/helpers/dem.py:extract_line", "attitude/helpers/interpolation.py"]}
{"id": "C81", "title": "Bilinear interpolation reproduces pixels and stays in range", "statement": "Interpolating at a pixel center returns that pixel, and every interpolated value lies between the smallest and largest pixel.", "quantifier": "all arrays and positions", "why_tests_cant": "Universal.", "anchors": ["attitude/helpers/interpolation.py:__factory__"]}
{"id": "C82", "title": "Saved test planes load back", "statement": "load_test_plane(save_test_plane(arrays)) returns the arrays that were saved, for any number of arrays.", "quantifier": "all lists of arrays", "why_tests_cant": "Round trip over all list lengths and a crash point in the writer.", "anchors": ["attitude/test/io.py:save_test_plane", "attitude/test/io.py:load_test_plane", "attitude/test/io.py:__split_text"]}
{"id": "C83", "title": "plot_interactive delivers the data it was given", "statement": "The script emitted by plot_interactive decodes in the browser to the JSON given, for any strings in the data.", "quantifier": "all data strings", "why_tests_cant": "Quoting: needs adversarial strings.", "anchors": ["attitude/display/nbextension.py:plot_interactive"]}
{"id": "C84", "title": "init_notebook_mode loads the library exactly once", "statement": "After any number of successful init_notebook_mode calls the library has been emitted exactly once; a failed load is retried.", "quantifier": "all call histories", "why_tests_cant": "History property.", "anchors": ["attitude/display/nbextension.py:init_notebook_mode"]}
{"id": "C85", "title": "Drawn girdles and poles are dual", "statement": "The curves that girdle_error and pole_error put on a stereonet are in one convention: every pole direction drawn is normal to a plane tangent to the girdle cone drawn for the same fit.", "quantifier": "all orthonormal axes, positive hyperbolic axes", "why_tests_cant": "Relates two plotting routines over a continuous family.", "anchors": ["attitude/display/stereonet.py:girdle_error", "attitude/display/stereonet.py:pole_error"]}
{"id": "C86", "title": "uncertain_plane draws the given angular errors", "statement": "For a plane with angular errors e1, e2 (degrees), the girdle that uncertain_plane draws is half of e1 (e2) away from the plane on the corresponding axis.", "quantifier": "all strikes, dips, rakes and errors below 180 degrees", "why_tests_cant": "Quantitative and continuous; plots are only compared by eye.", "anchors": ["attitude/display/stereonet.py:uncertain_plane", "attitude/orientation/reconstructed.py:ReconstructedPlane"]}
{"id": "C87", "title": "The upper sheet lies above the plane", "statement": "Directions on the sheet called upper point to the upper side of the fitted plane and those on the lower sheet to its lower side.", "quantifier": "all axes, covariances, angles", "why_tests_cant": "A sign convention over all orientations.", "anchors": ["attitude/stereonet.py:plane_errors"]}
{"id": "C88", "title": "asymptotes returns directions on the asymptotic cone", "statement": "The directions returned by asymptotes(conic, n) lie on the asymptotic cone of the hyperboloid given; a hyperboloid that is not centred at the origin is refused.", "quantifier": "all axis-aligned hyperboloids and numbers of points", "why_tests_cant": "A test with equal axes passes; continuous family of hyperboloids.", "anchors": ["attitude/error/__init__.py:asymptotes"]}
{"id": "C89", "title": "Parametric curves are the conics they are drawn for", "statement": "parametric.hyperbola and parametric.ellipse return points of the conic with the given semiaxes and centre, and the ellipse of normal vectors touches the perpendicular of the asymptote.", "quantifier": "all semiaxes, centres, parameters", "why_tests_cant": "Continuous parameters.", "anchors": ["attitude/display/parametric.py:hyperbola", "attitude/display/parametric.py:ellipse", "attitude/display/parametric.py:plot_conjugate_conics"]}
{"id": "C90", "title": "The quadratic hyperbola gives top and bottom at the returned x", "statement": "regressions.hyperbola returns an x value with the bottom and top of the error band at that x value, in any rotated frame.", "quantifier": "all covariances, rotations, x", "why_tests_cant": "Only unrotated use occurs in notebooks.", "anchors": ["attitude/display/plot/cov_types/regressions.py:hyperbola"]}
{"id": "C91", "title": "The error curve is the section of the error surface", "statement": "The curves of hyperbolic_errors are the section of the error hyperboloid by the viewing plane.", "quantifier": "all fits and viewing planes", "why_tests_cant": "Tests only look at aligned planes.", "anchors": ["attitude/display/hyperbola.py:hyperbolic_errors"]}
{"id": "C92", "title": "Interpolation accepts points, lines and multiple lines", "statement": "interpolate returns, for a point, a line and several lines, the same geometry with an elevation at each coordinate, in order.", "quantifier": "all geometries and rasters", "why_tests_cant": "No test interpolates a point.", "anchors": ["attitude/helpers/interpolation.py:__factory__"]}
{"id": "C93", "title": "The conic of a fit is its error ellipsoid", "statement": "as_conic(level) is an ellipsoid with the axes of the fit, centred on the upward normal, whose semiaxes are the square roots of the variances in covariance_matrix divided by level; coplanar data have none; earlier queries do not change it.", "quantifier": "all data, levels, histories of queries", "why_tests_cant": "Requires every axis frame and noise level.", "anchors": ["attitude/orientation/pca.py:as_conic"]}
{"id": "C94", "title": "A higher level gives a larger error ellipsoid", "statement": "as_conic for a larger level contains as_conic for a smaller one.", "quantifier": "all noisy fits and pairs of levels", "why_tests_cant": "No test varies the level.", "anchors": ["attitude/orientation/pca.py:as_conic"]}
{"id": "C95", "title": "The error ellipsoid belongs to the data", "statement": "The ellipsoid of as_conic does not depend on the linear algebra backend, is not moved by translating the data and turns with them.", "quantifier": "all data with a unique plane that is not vertical, all turns and translations, pairs of backends", "why_tests_cant": "Tests use one backend and one frame.", "anchors": ["attitude/orientation/pca.py:as_conic"]}
{"id": "C96", "title": "error_ellipse of a principal component fit returns a curve", "statement": "PCAOrientation.error_ellipse returns trends and plunges of a closed curve about the pole.", "quantifier": "all fits and levels", "why_tests_cant": "The method has no test.", "anchors": ["attitude/orientation/pca.py:error_ellipse"]}
{"id": "C97", "title": "The error hyperboloid contains the plane", "statement": "The region of as_hyperbola is an error region of the plane: it contains every point of the best plane.", "quantifier": "all noisy fits and all points", "why_tests_cant": "Unbounded region.", "anchors": ["attitude/orientation/pca.py:as_hyperbola"]}
{"id": "C98", "title": "The error ellipsoid does not depend on the unit of length", "statement": "Measuring the data in another unit gives the same ellipsoid, in the other unit (or up to size).", "quantifier": "all noisy data and unit factors", "why_tests_cant": "Tests use one unit.", "anchors": ["attitude/orientation/pca.py:as_conic"]}
{"id": "C99", "title": "error_ellipse of a regression is a curve of poles", "statement": "LinearOrientation.error_ellipse(vector=True) gives, for every plane on the confidence ellipse of the coefficients, the trend and plunge of its pole.", "quantifier": "all regressions, levels and points of the ellipse", "why_tests_cant": "The method has no test.", "anchors": ["attitude/orientation/base.py:error_ellipse"]}
{"id": "C100", "title": "The ellipse of a regression is the confidence ellipse of its coefficients", "statement": "_ellipse(level) lies at the distance level from the coefficients of the orientation, measured by their covariance.", "quantifier": "all regressions with noise, all levels", "why_tests_cant": "The method has no test.", "anchors": ["attitude/orientation/base.py:_ellipse"]}
{"id": "C101", "title": "The covariance matrices of a fit are covariances of its data", "statement": "_covariance_matrix(type), turned from the axes of the fit into the axes of the data, is the sample covariance of the points; the property covariance_matrix (documented as the data covariance) is too.", "quantifier": "all data, both types, all units of length", "why_tests_cant": "Numerical tests only compare with themselves; the claim is an identity over all data.", "anchors": ["attitude/orientation/pca.py:_covariance_matrix", "attitude/orientation/pca.py:covariance_matrix"]}
{"id": "C102", "title": "covariance_matrix(fit) is the Cartesian covariance of the data", "statement": "The module-level covariance_matrix returns the covariance of the input data in Cartesian coordinates, and the decomposition reconstructs the data.", "quantifier": "all data and backends", "why_tests_cant": "Universal identity; no test.", "anchors": ["attitude/orientation/pca.py:covariance_matrix", "attitude/orientation/pca.py:test_SVD"]}
{"id": "C103", "title": "fit_similarity is zero exactly for equal planes", "statement": "fit_similarity returns a non-negative number that is zero exactly for fits with the same normal, in particular for a fit and itself.", "quantifier": "all fits, backends", "why_tests_cant": "Depends on the sign chosen by the backend.", "anchors": ["attitude/geom/__init__.py:fit_similarity"]}
{"id": "C104", "title": "fit_similarity is symmetric", "statement": "fit_similarity(a, b) equals fit_similarity(b, a).", "quantifier": "all pairs of fits", "why_tests_cant": "Depends on the sign chosen by the backend.", "anchors": ["attitude/geom/__init__.py:fit_similarity"]}
{"id": "C105", "title": "aligned_covariance is a rescaled covariance in data coordinates", "statement": "aligned_covariance(fit) is the covariance of the fit with norm one, rotated into data coordinates.", "quantifier": "all fits", "why_tests_cant": "Identity over all orientations.", "anchors": ["attitude/geom/__init__.py:aligned_covariance"]}
{"id": "C106", "title": "Frontend girdles show the plane and its error cone", "statement": "planeErrors of the frontend returns positions all of which, read as directions in the requested layout and unit, lie in the plane (nominal) or on the half cone that rises by the standard deviation along the normal over the standard deviations in the plane (upper, lower), one half for each.", "quantifier": "all orthonormal axes, positive covariances, options with the upper hemisphere", "why_tests_cant": "Holds for a continuum of axes and covariances.", "anchors": ["frontend/packages/attitude/src/math.ts:planeErrors", "frontend/packages/attitude/src/math.ts:cart2sph", "frontend/packages/attitude/src/math.ts:ellipse"]}
{"id": "C107", "title": "Frontend pole curves are normals of tangent planes", "statement": "Each position of normalErrors is the unit normal of a plane that touches the error cone scaled by level along a line; upper and lower curve are on the two sides and antipodal position by position; at level zero all positions are the normal.", "quantifier": "all orthonormal axes, positive covariances, levels and options with the upper hemisphere", "why_tests_cant": "Tangency is a statement about all directions of the cone.", "anchors": ["frontend/packages/attitude/src/math.ts:normalErrors"]}
{"id": "C108", "title": "Python and frontend draw the same error curves", "statement": "For the same axes and covariances plane_errors of the Python package and planeErrors of the frontend draw points of the same curves.", "quantifier": "all axes and covariances", "why_tests_cant": "Two programs in two languages; needs agreement for all inputs.", "anchors": ["frontend/packages/attitude/src/math.ts:planeErrors", "attitude/display/stereonet.py:plane_errors"]}
{"id": "C109", "title": "Axes survive the exchange with the frontend", "statement": "deconvolveAxes recovers lengths and directions from the principal_axes that a Python fit exports, and convolveAxes is its inverse; arguments are not changed.", "quantifier": "all fits and axes", "why_tests_cant": "Composition of two programs over all data.", "anchors": ["frontend/packages/attitude/src/math.ts:convolveAxes", "frontend/packages/attitude/src/math.ts:deconvolveAxes", "attitude/orientation/base.py:principal_axes"]}
{"id": "C110", "title": "Sharing an options object does not change curves", "statement": "The curves drawn with an options object do not depend on the calls made with the same object before.", "quantifier": "all sequences of calls", "why_tests_cant": "Unbounded histories of a mutable object.", "anchors": ["frontend/packages/attitude/src/math.ts:planeErrors", "frontend/packages/attitude/src/math.ts:normalErrors", "frontend/packages/attitude/src/math.ts:combinedErrors", "frontend/packages/attitude/src/math.ts:cart2sph"]}
{"id": "C111", "title": "Error surface is a ring around the plane", "statement": "createErrorSurface yields a polygon whose two rings are the error curves in opposite directions and which contains the nominal plane, however often the curves are used.", "quantifier": "all curves; every geoContains for which reversing rings is the complement", "why_tests_cant": "Depends on orientation of rings for all curves and on aliasing of arrays.", "anchors": ["frontend/packages/attitude/src/functions.ts:createErrorSurface"]}
{"id": "C112", "title": "Drawing a plane from stored data", "statement": "createGroupedPlane turns axes so that the normal points up without changing the curves, drawing twice gives the same axes, and the polygon is marked when the error along the normal exceeds that along the second axis. Data that lack the axes or the lengths are a type error.", "quantifier": "all data", "why_tests_cant": "All shapes of data and all axes.", "anchors": ["frontend/packages/attitude/src/functions.ts:constructAxes", "frontend/packages/attitude/src/functions.ts:createGroupedPlane", "frontend/packages/attitude/src/functions.ts:flipAxesIfNeeded"]}
{"id": "C113", "title": "Error ellipses are small polygons around the pole", "statement": "Each polygon of createErrorEllipse is the pole curve of that level wound so that it covers at most a hemisphere, does not depend on ellipses drawn before, and is in the unit that the map expects.", "quantifier": "all curves, histories and options", "why_tests_cant": "Histories and all curves.", "anchors": ["frontend/packages/attitude/src/functions.ts:__createErrorEllipse"]}
{"id": "C114", "title": "Planes given by angular errors are drawn with these errors", "statement": "For a plane reconstructed from strike, dip, rake and two angular errors the error curves deviate from the plane by between half of the smaller and half of the larger error, and both are attained.", "quantifier": "all errors between 0 and 180 degrees, all rotations", "why_tests_cant": "Trigonometric identity for all angles.", "anchors": ["frontend/packages/attitude/src/reconstruct.ts:reconstructErrors", "frontend/packages/attitude/src/math.ts:planeErrors"]}
{"id": "C115", "title": "Options are copied and levels applied", "statement": "cloneOptions returns a copy with the given replacements, and createErrorEllipse with an array of levels returns one function for each level in order.", "quantifier": "all objects and levels", "why_tests_cant": "All options objects.", "anchors": ["frontend/packages/attitude/src/util.ts:cloneOptions", "frontend/packages/attitude/src/functions.ts:createErrorEllipse"]}
{"id": "C116", "title": "Centroids of planes", "statement": "computeCentroidExtrema is the middle of the bounding box of the centers and computeCentroidAverage their mean weighted by length.", "quantifier": "all lists of planes", "why_tests_cant": "All lists.", "anchors": ["frontend/packages/attitude/src/util.ts:computeCentroidAverage", "frontend/packages/attitude/src/util.ts:computeCentroidExtrema"]}
{"id": "C117", "title": "Dip and azimuth of a plane in the frontend", "statement": "PlaneData.dip returns the polar angles of the normal (inclination from the vertical and azimuth in [-pi, pi]), and the same dip and dip direction as the Python package.", "quantifier": "all nonzero normals", "why_tests_cant": "Trigonometric identities over all normals.", "anchors": ["frontend/packages/attitude/src/hyperbola.ts:fixAngle", "frontend/packages/attitude/src/hyperbola.ts:PlaneData.dip"]}
{"id": "C118", "title": "Apparent dip", "statement": "PlaneData.apparentDip is the unique angle by which the line of the plane along an azimuth descends, the same for both normals, at most the true dip and equal to it in the dip direction.", "quantifier": "all planes that are not vertical, all azimuths", "why_tests_cant": "Continuum of planes and azimuths.", "anchors": ["frontend/packages/attitude/src/hyperbola.ts:PlaneData.apparentDip"]}
{"id": "C119", "title": "A plane in a section is drawn as its section line", "statement": "The line drawn with the transform of a plane is, point set for point set, the intersection of the plane with the section as displayed by the two scales, whatever their exaggeration.", "quantifier": "all planes that are not vertical, section directions and linear scales (also reversed)", "why_tests_cant": "Equality of infinite sets for all planes and scales.", "anchors": ["frontend/packages/attitude/src/hyperbola.ts:createTransform"]}
{"id": "C120", "title": "Digitized lines in a section", "statement": "digitizedLine projects each point (with offset and axes) orthogonally to the section; apparentDip of a path puts points of the plane on the line of the plane and at their position in the section.", "quantifier": "all lists of points, axes, offsets and section directions", "why_tests_cant": "All lists and directions.", "anchors": ["frontend/packages/attitude/src/hyperbola.ts:digitizedLine", "frontend/packages/attitude/src/hyperbola.ts:apparentDip"]}
{"id": "C121", "title": "The hyperbola of a plane is the section of its error surface", "statement": "The semi-axes of the hyperbola drawn for a plane are those of the intersection of the error surface with the section, and do not depend on the sign of the axes.", "quantifier": "all section directions, all error lengths, horizontal and tilted planes with any first axis", "why_tests_cant": "Equality of curves for all directions.", "anchors": ["frontend/packages/attitude/src/hyperbola.ts:hyperbolicErrors"]}
{"id": "C122", "title": "The polygon of the hyperbola", "statement": "The filled polygon is the hyperbola.", "quantifier": "all semi-axes, widths and scales", "why_tests_cant": "Continuum of points of the border.", "anchors": ["frontend/packages/attitude/src/hyperbola.ts:hyperbolicErrors"]}
{"id": "C123", "title": "Hyperbolas follow lines and settings", "statement": "The hyperbola is placed with the center and rotation of the line of its plane, and its vertical scale depends on the current setting scaleErrorAngles only.", "quantifier": "all planes, scales and sequences of calls", "why_tests_cant": "Unbounded histories of calls.", "anchors": ["frontend/packages/attitude/src/hyperbola.ts:hyperbolicErrors", "frontend/packages/attitude/src/hyperbola.ts:createTransform"]}
{"id": "C124", "title": "Labels of directions on the stereonet", "statement": "Labels N, E, S, W, Up and Down are at the positions where data in these directions are drawn.", "quantifier": "all labels", "why_tests_cant": "Relates a table of positions to the conversion of data.", "anchors": ["frontend/packages/attitude/src/stereonet/labels.ts:labels", "frontend/packages/attitude/src/stereonet/index.ts:opts"]}
{"id": "C125", "title": "Azimuth and dip labels of a vertical net", "statement": "Azimuth labels of the vertical net are in the direction in which horizontal data of that azimuth are projected, and dip labels at the latitude of normals of planes with that dip.", "quantifier": "all sizes, margins, scales, clip angles, dips", "why_tests_cant": "All settings; composition with the projection.", "anchors": ["frontend/packages/attitude/src/stereonet/vertical.ts:default", "frontend/packages/attitude/src/stereonet/index.ts:center", "frontend/packages/attitude/src/stereonet/index.ts:clipAngle"]}
{"id": "C126", "title": "Dragging the stereonet", "statement": "The view after a drag depends only on the view before and the two ends of the drag; nothing happens without a button down; the view never turns over; a click changes nothing.", "quantifier": "all event sequences", "why_tests_cant": "Unbounded event sequences.", "anchors": ["frontend/packages/attitude/src/stereonet/interaction.ts:default"]}
{"id": "C127", "title": "Settings of the stereonet", "statement": "A setting keeps the value it was given until it is set again, whatever other methods are called.", "quantifier": "all sequences of calls", "why_tests_cant": "Unbounded sequences.", "anchors": ["frontend/packages/attitude/src/stereonet/index.ts:margin", "frontend/packages/attitude/src/stereonet/index.ts:size", "frontend/packages/attitude/src/stereonet/index.ts:clip", "frontend/packages/attitude/src/stereonet/index.ts:clipAngle", "frontend/packages/attitude/src/stereonet/index.ts:scale", "frontend/packages/attitude/src/stereonet/index.ts:center"]}
{"id": "C128", "title": "The net fits in the drawing", "statement": "The drawn net stays inside the margins.", "quantifier": "all sizes, margins and clip angles", "why_tests_cant": "All settings.", "anchors": ["frontend/packages/attitude/src/stereonet/index.ts:__setScale"]}
{"id": "C129", "title": "Opacity by certainty", "statement": "Planes are drawn with opacity 0.8 without angular error, decreasing to 0.1 at five degrees and constant from there; strokes are 0.2 darker and at most opaque.", "quantifier": "all angular errors", "why_tests_cant": "Monotone over a continuum.", "anchors": ["frontend/packages/attitude/src/stereonet/index.ts:opacityByCertainty"]}
{"id": "C130", "title": "Settings of opacity", "statement": "Settings of opacityByCertainty can be set and read.", "quantifier": "all settings and sequences", "why_tests_cant": "Sequences of calls.", "anchors": ["frontend/packages/attitude/src/stereonet/index.ts:opacityByCertainty", "frontend/packages/attitude/src/stereonet/index.ts:getterSetter"]}
{"id": "C131", "title": "Labels follow the view", "statement": "Labels of the stereonet are drawn for the current view.", "quantifier": "all sequences of calls", "why_tests_cant": "Unbounded sequences.", "anchors": ["frontend/packages/attitude/src/stereonet/labels.ts:updateLabels", "frontend/packages/attitude/src/stereonet/index.ts:rotate", "frontend/packages/attitude/src/stereonet/index.ts:center"]}
{"id": "C132", "title": "vertical can be used repeatedly", "statement": "Drawing with vertical repeatedly puts labels at the same place.", "quantifier": "any number of calls", "why_tests_cant": "Unbounded number of calls with a shared object.", "anchors": ["frontend/packages/attitude/src/stereonet/vertical.ts:default"]}
{"id": "C133", "title": "Lower hemisphere", "statement": "Without upperHemisphere directions are mirrored at the horizontal plane.", "quantifier": "all directions and options", "why_tests_cant": "All directions.", "anchors": ["frontend/packages/attitude/src/math.ts:cart2sph"]}
{"id": "C134", "title": "Functions passed to call", "statement": "Each function passed to call on a stereonet runs exactly once, in order, at the time of drawing or at once if it is drawn.", "quantifier": "all sequences of calls", "why_tests_cant": "Unbounded sequences.", "anchors": ["frontend/packages/attitude/src/stereonet/index.ts:call", "frontend/packages/attitude/src/stereonet/index.ts:f"]}
{"id": "C135", "title": "Confidence intervals of samples", "statement": "ci(a, which) is an interval within the range of the data holding at least the share which of the data (up to rounding to whole points). It does not depend on the order of the data, grows with which, is the whole range for 100 and the median for 0. It is nan without data; which above 100 raises ValueError.", "quantifier": "all nonempty lists of numbers and all percentages", "why_tests_cant": "All lists and all real percentages; a counting claim.", "anchors": ["attitude/display/plot/cov_types/misc.py:percentiles", "attitude/display/plot/cov_types/misc.py:ci"]}
{"id": "C136", "title": "Bootstrap", "statement": "bootstrap_resampled evaluates the statistic n times, each time on as many rows as there are data, all from the data; for constant data every result is that of the data. bootstrap_noise adds noise times std, to the third coordinate only unless symmetric, and with std=0 always returns the statistic of the data.", "quantifier": "all data, statistics, random numbers and repetitions", "why_tests_cant": "All sequences of random numbers and all functions.", "anchors": ["attitude/display/plot/cov_types/regressions.py:bootstrap_resampled", "attitude/display/plot/cov_types/regressions.py:bootstrap_noise"]}
{"id": "C137", "title": "Bingham density", "statement": "The Bingham density of a fit is antipodally symmetric and highest at the pole of the plane; the series used for its normalisation is symmetric in its arguments, does not decrease with more terms and is exact at zero.", "quantifier": "all directions, eigenvalues and orthogonal axes", "why_tests_cant": "Maximum over all directions; all numbers of terms.", "anchors": ["attitude/bingham.py:bingham_pdf", "attitude/bingham.py:confluent_hypergeometric_function"]}
{"id": "C138", "title": "Regular grid of directions", "statement": "regular_grid returns longitudes and latitudes in equal steps from -90 to 90 degrees, both ends included, never outside.", "quantifier": "all grids with at least two rows and columns", "why_tests_cant": "All sizes.", "anchors": ["attitude/bingham.py:regular_grid"]}
{"id": "C139", "title": "Bhattacharyya distance", "statement": "The distance between fits is symmetric, and zero between a fit and itself.", "quantifier": "all means and covariances", "why_tests_cant": "All matrices.", "anchors": ["attitude/__dustbin/statistical_distances.py:bhattacharyya_distance"]}
{"id": "C140", "title": "Synthetic planes", "statement": "random_plane lies on the plane with the returned coefficients and regression recovers the slopes; scattered_plane without scatter is the same, and by default scatters each coordinate by half of its value times a random number (randomize by a twentieth); make_plane raises ValueError for arrays of different lengths.", "quantifier": "all points not on a line in map view, all random numbers", "why_tests_cant": "All point sets.", "anchors": ["attitude/test/__init__.py:make_plane", "attitude/test/__init__.py:random_plane", "attitude/test/__init__.py:scattered_plane", "attitude/test/__init__.py:randomize"]}
{"id": "C141", "title": "Quaternions", "statement": "quaternion returns a unit quaternion.", "quantifier": "all unit vectors and angles", "why_tests_cant": "All axes and angles.", "anchors": ["attitude/stereonet.py:quaternion"]}
{"id": "C142", "title": "Design matrix and scaled errors", "statement": "augment gives the design matrix of a line; scale_errors gives the semi-axes of the error ellipsoid at the confidence level.", "quantifier": "all data, covariances, levels", "why_tests_cant": "All inputs.", "anchors": ["attitude/display/plot/cov_types/misc.py:augment", "attitude/stereonet.py:scale_errors"]}
{"id": "C143", "title": "Polar plots", "statement": "polar.pole draws a plane at its upward normal; each vertex of polar.pole_error is the pole of a plane tangent to the error cone, on the upper side, and without error perpendicular to the plane it is the pole of the fit. Plotting leaves the fit unchanged.", "quantifier": "all strikes, dips, orthonormal axes and positive error axes", "why_tests_cant": "All directions of the curve and all axes.", "anchors": ["attitude/display/polar.py:pole", "attitude/display/polar.py:pole_error"]}
{"id": "C144", "title": "Aligned sections", "statement": "plot_aligned(sparse=True) draws at most 10000 points, in order and each once, all if there are no more; draws each point on the side of the plane on which it is; gives twice the angular errors in its titles; draws the error curves over all of the data.", "quantifier": "all fits and numbers of points", "why_tests_cant": "All data sets and all sizes.", "anchors": ["attitude/display/pca_aligned.py:plot_aligned"]}
{"id": "C145", "title": "Comparison of errors", "statement": "error_comparison shows a view of the given width, by default all of the data, and can bootstrap.", "quantifier": "all fits and widths", "why_tests_cant": "All data sets.", "anchors": ["attitude/display/error_comparison.py:error_comparison"]}
{"id": "C146", "title": "Opacity of several levels", "statement": "trend_plunge, normal, plane_confidence and strike_dip accept for alpha a value for each level, or one for all levels.", "quantifier": "all lists of opacities and numbers of levels", "why_tests_cant": "All lists.", "anchors": ["attitude/display/plot/__init__.py:trend_plunge", "attitude/display/plot/__init__.py:normal", "attitude/display/plot/__init__.py:plane_confidence", "attitude/display/plot/__init__.py:strike_dip"]}
{"id": "C147", "title": "Strike and dip plots", "statement": "strike_dip_montecarlo without noise draws the strike and dip of the fit; strike_dip draws angles; plane_confidence draws the planes of the error surfaces, and error_asymptotes the error curves.", "quantifier": "all fits with positive third singular value", "why_tests_cant": "All orientations.", "anchors": ["attitude/display/plot/__init__.py:strike_dip_montecarlo", "attitude/display/plot/__init__.py:strike_dip", "attitude/display/plot/__init__.py:plane_confidence", "attitude/display/plot/__init__.py:error_asymptotes"]}
{"id": "C148", "title": "Parametric hyperbolic errors", "statement": "The curves of hyperbolic_errors_parametric are on the hyperbola with the given semi-axes about the given means.", "quantifier": "all semi-axes, means and angles", "why_tests_cant": "All points of the curve.", "anchors": ["attitude/display/hyperbola.py:hyperbolic_errors_parametric"]}
{"id": "C149", "title": "Polygons for cartopy", "statement": "The rings for cartopy are the error curves in degrees (the lower one, backwards, as the hole), closed and with the requested number of vertices, and fix_stereonet_coords mirrors latitudes and undoes itself.", "quantifier": "all axes and error axes", "why_tests_cant": "All axes.", "anchors": ["attitude/display/cartopy.py:fix_stereonet_coords", "attitude/display/cartopy.py:cartopy_girdle", "attitude/display/cartopy.py:cartopy_normal"]}
{"id": "C150", "title": "Transformation helpers", "statement": "augment makes an array act on vectors with a one appended as the array acts on vectors (a last column being a translation), also for products; rotate_tensor composes and rotates eigenvectors; axis_transform returns the axes; compose_affine composes.", "quantifier": "all arrays, vectors, tensors and least-squares solvers", "why_tests_cant": "All matrices of all sizes.", "anchors": ["attitude/orientation/pca.py:augment", "attitude/orientation/pca.py:augment_vector", "attitude/orientation/pca.py:rotate_tensor", "attitude/orientation/pca.py:axis_transform", "attitude/orientation/pca.py:compose_affine", "attitude/orientation/pca.py:random_pca", "attitude/orientation/pca.py:PCAOrientation.from_axes"]}
{"id": "C151", "title": "Plane rotations and axis-aligned views", "statement": "rotate_2D turns counterclockwise by the angle, angles add, and lengths and areas are kept; axis_aligned_transforms gives the views xy, xz and yz, two of which determine a point.", "quantifier": "all angles and points", "why_tests_cant": "All real angles.", "anchors": ["attitude/geom/transform.py:rotate_2D", "attitude/geom/__init__.py:axis_aligned_transforms"]}
{"id": "C152", "title": "Symbolic conics", "statement": "The symbolic center is the only point whose polar plane is at infinity and exists exactly for a regular quadratic part; origin_distance is up to sign the least distance of a point of the plane to the origin; the functions agree with those of Conic.", "quantifier": "all conics of all dimensions, all planes", "why_tests_cant": "All dimensions; a minimum over all points.", "anchors": ["attitude/geom/symbolic_math.py:center", "attitude/geom/symbolic_math.py:dual", "attitude/geom/symbolic_math.py:polar_plane", "attitude/geom/symbolic_math.py:origin_distance"]}
{"id": "C153", "title": "Checks of the decomposition", "statement": "test_SVD succeeds for unweighted fits and for fits loaded from orthonormal axes; covariance_matrix (the function) is the covariance of the data.", "quantifier": "all data sets of three or more points", "why_tests_cant": "All data sets and backends.", "anchors": ["attitude/orientation/pca.py:test_SVD", "attitude/orientation/pca.py:covariance_matrix"]}
{"id": "C154", "title": "Rows of the spreadsheet and the plots", "statement": "A row of the spreadsheet is plotted exactly if its strike, dip, rake and two errors can be read as numbers, with these numbers and its color if it is valid; empty rows are not plotted; every plotted orientation is that of a row.", "quantifier": "all contents of all rows", "why_tests_cant": "All texts in all cells.", "anchors": ["frontend/packages/webapp/src/app.ts:constructOrientation", "frontend/packages/webapp/src/app.ts:App"]}
{"id": "C155", "title": "Adding rows", "statement": "Adding rows keeps all rows in place, adds empty ones only, and gives the next multiple of ten; the button adds ten to nineteen.", "quantifier": "all spreadsheets", "why_tests_cant": "All lengths.", "anchors": ["frontend/packages/webapp/src/sheet.ts:addEmptyRows"]}
{"id": "C156", "title": "Editing the spreadsheet", "statement": "After any sequence of edits, added rows and resets all rows have six cells, a multiple of ten rows exist, and the minimum error is not greater than the maximum, so also in all plots; edits are applied and nothing is lost.", "quantifier": "all sequences of events, all texts", "why_tests_cant": "Invariant of all executions.", "anchors": ["frontend/packages/webapp/src/sheet.ts:finalizeRow", "frontend/packages/webapp/src/sheet.ts:DataSheet"]}
{"id": "C157", "title": "Marks of cells", "statement": "Cells marked as valid are plotted with their value, cells marked as invalid or empty are not plotted; accepted clip angles are between 0 and 90.", "quantifier": "all texts", "why_tests_cant": "All strings.", "anchors": ["frontend/packages/webapp/src/sheet.ts:getFieldData", "frontend/packages/webapp/src/sheet.ts:attributesRenderer", "frontend/packages/webapp/src/app.ts:ClippedStereonetPanel"]}
{"id": "C158", "title": "Opacity of ellipses", "statement": "In the vertical plot opacities are between 0 and 0.8, are not less for the stroke than for the fill and do not increase with the error.", "quantifier": "all errors", "why_tests_cant": "All errors.", "anchors": ["frontend/packages/plots/src/vertical.ts:translucentEllipseStyle"]}
{"id": "C159", "title": "Labels of the graticule", "statement": "Azimuth labels name the direction of data on the meridian, dip labels the dip of planes with normals at the latitude.", "quantifier": "all longitudes and latitudes", "why_tests_cant": "All real angles.", "anchors": ["frontend/packages/plots/src/graticule-labels.ts:formatAzimuthLabel", "frontend/packages/plots/src/graticule-labels.ts:DipLabels"]}
{"id": "C160", "title": "Selection in the notebook interface", "statement": "A measurement is selected, once, exactly if it was clicked an odd number of times since the selection was last cleared, and groups only if they are allowed.", "quantifier": "all lists of measurements and all sequences of events", "why_tests_cant": "Invariant of all executions.", "anchors": ["frontend/packages/notebook-ui/src/index.ts:AttitudeUI", "frontend/packages/notebook-ui/src/components/list.ts:SelectionListComponent"]}
{"id": "C161", "title": "Highlighting", "statement": "Over a group or any member of it the group and all of its members are highlighted, over other measurements that one; the list can always be drawn.", "quantifier": "all lists of measurements and all sequences of events", "why_tests_cant": "All structures of groups.", "anchors": ["frontend/packages/notebook-ui/src/index.ts:AttitudeUI", "frontend/packages/notebook-ui/src/components/list.ts:SelectionListComponent"]}
{"id": "C162", "title": "The list of measurements", "statement": "The list shows all measurements, groups only while they are switched on, and marks exactly those selected and those highlighted.", "quantifier": "all lists with distinct ids and all sequences of events", "why_tests_cant": "All executions.", "anchors": ["frontend/packages/notebook-ui/src/components/list.ts:SelectionListComponent"]}
{"id": "C163", "title": "Stereonet and data", "statement": "The stereonet shows the data it is given, as planes and poles if these are switched on, after all updates; over a measurement its handler is called.", "quantifier": "all sequences of updates and of events", "why_tests_cant": "All executions.", "anchors": ["frontend/packages/notebook-ui/src/components/stereonet.ts:StereonetComponent", "frontend/packages/notebook-ui/src/index.ts:AttitudeUI"]}
{"id": "C164", "title": "Highlighted shapes", "statement": "The highlighted planes and poles always are those of the highlighted measurements, in the forms that are switched on.", "quantifier": "all sequences of events", "why_tests_cant": "All executions.", "anchors": ["frontend/packages/notebook-ui/src/components/stereonet.ts:StereonetComponent"]}
{"id": "C165", "title": "Controls of the view", "statement": "\"Vertical\" centers the net on the vertical each time, no other control changes the center; \"Show all data\" always returns from the selection to all data.", "quantifier": "all sequences of events", "why_tests_cant": "All executions.", "anchors": ["frontend/packages/notebook-ui/src/components/stereonet.ts:InteractiveStereonetComponent", "frontend/packages/notebook-ui/src/components/list.ts:SelectionListComponent"]}
{"id": "C166", "title": "Scale of the side view", "statement": "The side view is not exaggerated, is centered, and all planes are in view.", "quantifier": "all positions of planes", "why_tests_cant": "All positions.", "anchors": ["frontend/packages/notebook-ui/src/components/side-view.ts:SideViewComponent"]}
{"id": "C167", "title": "azimuth and slope of a fit", "statement": "azimuth, slope and _strike_dip give dip direction and dip of the fitted plane (in radians).", "quantifier": "all data sets of three or more points", "why_tests_cant": "All data sets and SVD backends.", "anchors": ["attitude/orientation/pca.py:PCAOrientation.azimuth", "attitude/orientation/pca.py:PCAOrientation.slope", "attitude/orientation/pca.py:PCAOrientation._strike_dip"]}
{"id": "C168", "title": "A plane given to the frontend by strike, dip and rake is drawn as that plane", "statement": "reconstructErrors turns {strike, dip, rake, maxError, minError} into axes and lengths. The third axis should be the normal of the plane with this strike and dip (right-hand rule), the axis of the maximum error should be along the line of the plane with this rake, and planeErrors should then draw the nominal curve within this plane and the error curves between half the minimum and half the maximum error from it.", "quantifier": "for all strikes, dips, rakes, all errors with 0 < min <= max < 180 and all drawing options for the upper hemisphere", "why_tests_cant": "A test can draw a few planes; whether composing three quaternion rotations gives the right frame for every strike, dip and rake is an identity over all angles, and the wrong order of rows and columns still gives an orthonormal frame.", "anchors": ["frontend/packages/attitude/src/reconstruct.ts:reconstructErrors", "frontend/packages/attitude/src/functions.ts:createGroupedPlane"]}
{"id": "C169", "title": "Python and the frontend reconstruct the same plane from strike, dip, rake and errors", "statement": "ReconstructedPlane(strike, dip, rake, max, min) in Python and reconstructErrors in the frontend describe the same plane: the same three axes, each up to its direction, and lengths that are related by squaring (the frontend takes variances).", "quantifier": "for all strikes, dips and rakes and all errors strictly between 0 and 180 degrees", "why_tests_cant": "Two implementations in two languages, one with rotations of the sphere by mplstereonet and one with quaternions: agreement for all angles is an identity, not something a sample can show.", "anchors": ["attitude/orientation/reconstructed.py:ReconstructedPlane", "frontend/packages/attitude/src/reconstruct.ts:reconstructErrors"]}
{"id": "C170", "title": "The data panel", "statement": "The panel shows strike, dip and angular errors of the highlighted measurement to a tenth of a degree, the number of members of a group, and 'No errors recorded' exactly if there are none; it asks for a measurement if none is highlighted, and never fails on the page.", "quantifier": "all measurements, all sequences of user events", "why_tests_cant": "All numbers and unbounded event sequences.", "anchors": ["frontend/packages/notebook-ui/src/components/data-panel.ts:DataPanelComponent", "frontend/packages/notebook-ui/src/components/data-panel.ts:AngularMeasurement", "frontend/packages/notebook-ui/src/index.ts:onHover"]}
{"id": "C171", "title": "Labels are at the lines of the graticule that they name", "statement": "getIntersections gives a label of value v at a point exactly if the meridian (parallel) of v is visible and crosses the edge of the plot there; the graticule has lines at all multiples of its steps.", "quantifier": "all steps, projections and edges", "why_tests_cant": "All steps and projections.", "anchors": ["frontend/packages/plots/src/graticule-labels.ts:getIntersections", "frontend/packages/attitude/src/stereonet/index.ts:setGraticule"]}
{"id": "C172", "title": "Texts of horizontal views", "statement": "horizontal puts E, W and Vertical on the sides of the center on which east, west and the vertical are projected.", "quantifier": "all views, sizes and margins", "why_tests_cant": "All views.", "anchors": ["frontend/packages/attitude/src/stereonet/horizontal.ts:horizontal"]}
{"id": "C173", "title": "Exact measurements give back their strike and dip", "statement": "Measurements that lie exactly in the plane with strike s in [0,360) and dip d in (0,90], and not on one line, give strike_dip() = (s,d) and residuals of zero; for a vertical plane the strike can also be the opposite one.", "quantifier": "all strikes and dips, all positions in the plane, all numbers of points, all SVD routines", "why_tests_cant": "All planes and arrangements of points; a test has a few of them.", "anchors": ["attitude/orientation/pca.py:PCAOrientation.strike_dip", "attitude/orientation/pca.py:PCAOrientation.residuals", "attitude/orientation/pca.py:PCAOrientation.__init__"]}
{"id": "C174", "title": "Errors are zero exactly for exact data", "statement": "Both angular errors are zero exactly if the measurements lie in one plane, for noise and sampling errors at every confidence level.", "quantifier": "all data, both methods, all confidence levels in [0,1)", "why_tests_cant": "An equivalence over all data.", "anchors": ["attitude/orientation/pca.py:PCAOrientation.angular_errors", "attitude/error/axes.py:noise_axes", "attitude/error/axes.py:sampling_axes", "attitude/error/axes.py:angular_errors"]}
{"id": "C175", "title": "Vertical exaggeration", "statement": "Multiplying the heights of measurements of a plane by k keeps the strike and multiplies the tangent of the dip by k.", "quantifier": "all planes that are neither horizontal nor vertical, all k > 0, all arrangements of points", "why_tests_cant": "All factors and planes.", "anchors": ["attitude/orientation/pca.py:PCAOrientation.strike_dip", "attitude/orientation/pca.py:PCAOrientation.__init__"]}
{"id": "C176", "title": "Moving the data moves the fit", "statement": "If all measurements are rotated or reflected, scaled by k > 0 and moved, the center moves along, the singular values are multiplied by k, the angular errors stay the same and the fitted plane is the moved plane.", "quantifier": "all data, orthogonal matrices, scales, translations and SVD routines", "why_tests_cant": "All motions of all data.", "anchors": ["attitude/orientation/pca.py:PCAOrientation.__init__", "attitude/orientation/pca.py:PCAOrientation.center", "attitude/orientation/pca.py:PCAOrientation.angular_errors"]}
{"id": "C177", "title": "Order and repetition of points", "statement": "The order of the points does not matter; taking every point k times keeps center, strike and dip and multiplies the singular values by the square root of k.", "quantifier": "all data, all permutations, all k >= 1", "why_tests_cant": "All permutations and numbers of copies.", "anchors": ["attitude/orientation/pca.py:PCAOrientation.__init__", "attitude/orientation/pca.py:PCAOrientation.strike_dip", "attitude/orientation/pca.py:PCAOrientation.angular_errors"]}
{"id": "C178", "title": "Mirror image", "statement": "Exchanging east and west gives the strike 180 - s (mod 360) and the same dip.", "quantifier": "all data with a unique best plane that is neither horizontal nor vertical", "why_tests_cant": "All data.", "anchors": ["attitude/orientation/pca.py:PCAOrientation.strike_dip", "attitude/orientation/pca.py:PCAOrientation.__init__"]}
{"id": "C179", "title": "More points never fit better", "statement": "Adding measurements never reduces the sum of squared residuals.", "quantifier": "all data sets and all added points", "why_tests_cant": "Unboundedly many data sets.", "anchors": ["attitude/orientation/pca.py:PCAOrientation.residuals", "attitude/orientation/pca.py:PCAOrientation.__init__"]}
{"id": "C180", "title": "A group is the best set of parallel planes", "statement": "GroupedOrientation with same_plane=False has the orientation for which parallel planes, each at its own best offset, have the least sum of squared distances; with same_plane=True it is the best single plane.", "quantifier": "all groups of measurements, all competing orientations and offsets", "why_tests_cant": "Optimality over infinitely many sets of parallel planes.", "anchors": ["attitude/orientation/grouped.py:GroupedOrientation.__init__"]}
{"id": "C181", "title": "From the fit to the drawing", "statement": "The nominal curve that the frontend draws for an exported fit consists of directions of the plane with the reported strike and dip; the error curves have as many positions, and each is off the plane by an angle between the two reported angular errors.", "quantifier": "all data, SVD routines, methods, levels with positive axes, options of the upper hemisphere", "why_tests_cant": "All data and options; crosses two languages.", "anchors": ["attitude/orientation/pca.py:PCAOrientation.strike_dip", "attitude/orientation/pca.py:PCAOrientation.to_mapping", "attitude/error/axes.py:angular_errors", "frontend/packages/attitude/src/math.ts:combinedErrors", "frontend/packages/attitude/src/math.ts:planeErrors"]}
{"id": "C182", "title": "Which labels the stereonet shows", "statement": "After every rotation a label is shown exactly if its direction is not behind the view (tolerance 0.01) and not in the middle of it; opposite labels are shown together only at the edge; one of N, E, S, W is always shown; labels shown are drawn inside of the net; texts are beside their points, away from the center.", "quantifier": "all rotations, scales and positions", "why_tests_cant": "All views.", "anchors": ["frontend/packages/attitude/src/stereonet/labels.ts:globalLabels"]}
{"id": "C183", "title": "Strike, dip and rake give the axes", "statement": "strike_dip_rake() of a plane gives the direction of the largest extent of the data; the rake is nan exactly for horizontal planes.", "quantifier": "all data and SVD routines", "why_tests_cant": "All orientations of all data.", "anchors": ["attitude/orientation/pca.py:PCAOrientation.strike_dip_rake", "attitude/orientation/pca.py:PCAOrientation._rake", "attitude/orientation/pca.py:PCAOrientation.rake"]}
{"id": "C184", "title": "A fit of two-column data is the best line", "statement": "For points given by two coordinates, PCAOrientation finds the line with the least sum of squared perpendicular distances: its normal is a unit vector that does not point down, the line goes through the mean, and the sum is the square of the last singular value. The residual of each point is its perpendicular displacement from that line. Residuals and the one angular error are zero exactly when all points lie on one line.", "quantifier": "all arrays of shape (n, 2) with n >= 3, all decompositions that meet the contract of numpy's SVD, all quantile functions that are not negative", "why_tests_cant": "The optimum is over all lines of the plane and all point sets; tests compare with a few known lines.", "anchors": ["attitude/orientation/pca.py:PCAOrientation.__init__", "attitude/orientation/pca.py:PCAOrientation.residuals", "attitude/orientation/pca.py:PCAOrientation.angular_errors", "attitude/error/axes.py:noise_axes"]}
{"id": "C185", "title": "What a two-column fit offers", "statement": "Any array of at least three points with two coordinates is accepted and fewer are refused with ValueError. A user might expect strike, dip, coefficients or the exported mapping of such a fit; all of them raise IndexError, the dip direction is None, and explained_variance is 1 for every set of points that do not all coincide, however far from a line.", "quantifier": "all arrays of shape (n, 2), all fits made from them", "why_tests_cant": "That the explained variance never differs from 1 is a statement on all data.", "anchors": ["attitude/orientation/pca.py:PCAOrientation.__init__", "attitude/orientation/pca.py:PCAOrientation.explained_variance", "attitude/orientation/pca.py:PCAOrientation.strike_dip", "attitude/orientation/pca.py:PCAOrientation.to_mapping"]}
{"id": "C186", "title": "contains with shell_only means on the surface", "statement": "contains(p, shell_only=True) is True exactly for points on the surface of the conic.", "quantifier": "all conics of all dimensions, all points", "why_tests_cant": "The condition separates the surface from all other points of space; no finite set of points shows that.", "anchors": ["attitude/geom/conics.py:Conic.contains", "attitude/geom/conics.py:Conic.solve"]}
{"id": "C187", "title": "Slicing a planar conic by a line gives the conic along the line", "statement": "Conic.slice of a conic in the plane by a line returns the one-dimensional conic of the values along that line, measured from the point of the line nearest to the origin.", "quantifier": "all conics in the plane, all lines, with and without a given direction", "why_tests_cant": "The slice has to agree with the conic at every point of the line, for every conic and line.", "anchors": ["attitude/geom/conics.py:Conic.slice", "attitude/geom/util.py:perpendicular_vector"]}
{"id": "C188", "title": "A figure embedded in a page is the figure that was saved", "statement": "The tag that display.util.encode makes of a figure shows, in every browser that follows the standards for data URLs, percent-encoding and base64, exactly the bytes that the figure was saved as; different files give different tags.", "quantifier": "all sequences of bytes", "why_tests_cant": "Padding and characters that have to be quoted depend on every byte and on the length of the file; all files of all lengths cannot be tried.", "anchors": ["attitude/display/util.py:encode"]}
{"id": "C189", "title": "Aligned residual plots show a flat regression line", "statement": "aligned_residuals plots the distance of each point from the plane over its position along the first and the second axis, and the regression lines that seaborn draws through them are flat and at height zero.", "quantifier": "all arrays and decompositions", "why_tests_cant": "The regression line has to be flat for every data set, which is a consequence of the fit.", "anchors": ["attitude/display/plot/misc.py:aligned_residuals"]}
{"id": "C190", "title": "Bootstrap resampling of the normal", "statement": "bootstrap(array) gives estimates of the normal for resampled data.", "quantifier": "all calls", "why_tests_cant": "That no call of any kind succeeds is a statement about all calls.", "anchors": ["attitude/error/bootstrap.py:bootstrap"]}
{"id": "C191", "title": "Rectangular stereonets", "statement": "After rectangular(opts) the stereonet is drawn in a rectangle of the given size and position, clipped to it, with the projection centered in its middle; centerPosition refers to this middle and it stays there when the stereonet is resized.", "quantifier": "all states, all options, all sequences of calls in between", "why_tests_cant": "The order of calls decides which variable is used.", "anchors": ["frontend/packages/attitude/src/stereonet/index.ts:rectangular", "frontend/packages/attitude/src/stereonet/index.ts:__setScale", "frontend/packages/attitude/src/stereonet/index.ts:centerPosition"]}
{"id": "C192", "title": "Labels of the rectangular plot are at its edges", "statement": "RectangularStereonet sets the labels of the dip along its lower edge and those of the azimuth along its right edge, one wherever a line of the graticule crosses the edge.", "quantifier": "all projections and intersection routines that meet their contract", "why_tests_cant": "The lines cross the edge at arbitrary points.", "anchors": ["frontend/packages/plots/src/rectangular.ts:drawStereonet", "frontend/packages/plots/src/graticule-labels.ts:GraticuleLabels.alongLine", "frontend/packages/plots/src/graticule-labels.ts:GraticuleLabels.getIntersections"]}
{"id": "C193", "title": "Ranges of strike and dip in floating-point arithmetic", "statement": "Also with rounding, strike_dip() gives for every fitted normal a dip that is a number from 0 to 90 and a strike from 0 up to but not including 360.", "quantifier": "all normals, all ways to round that meet the contract of double precision, all libraries of a given accuracy", "why_tests_cant": "There are some 2^190 normals, and rounding could move the cosine of the dip past 1 (which gives nan) for any of them.", "anchors": ["attitude/orientation/pca.py:PCAOrientation.strike_dip"]}
{"id": "C194", "title": "Accuracy of strike and dip in floating-point arithmetic", "statement": "The strike and dip that strike_dip() computes with rounding describe a plane whose normal is within 10^-7 of the normal of the fit, plus the errors of the inverse trigonometric functions of the library.", "quantifier": "all normals, all ways to round that meet the contract of double precision, all libraries of a given accuracy", "why_tests_cant": "The dip is badly conditioned for flat planes, the strike is so too; the claim bounds the error over all normals at once.", "anchors": ["attitude/orientation/pca.py:PCAOrientation.strike_dip"]}
{"id": "C195", "title": "Angles between fits in floating-point arithmetic", "statement": "Also with rounding, angle(v, w) of two vectors other than zero is a number close to the angle between them, and with cos=True close to its cosine, so that fit_angle of any two fits is a number.", "quantifier": "all vectors, all ways to round that meet the contract of double precision, all libraries of a given accuracy", "why_tests_cant": "Whether the quotient exceeds 1 depends on the last bit of six roundings.", "anchors": ["attitude/geom/util.py:angle", "attitude/geom/__init__.py:fit_angle"]}
{"id": "C196", "title": "Small errors of the points tilt the plane little", "statement": "If the coordinates are moved a little, the plane of PCAOrientation is tilted only a little.", "quantifier": "all pairs of data sets with the same number of points", "why_tests_cant": "The bound holds for every movement of every point at once and names the only circumstance in which it fails.", "anchors": ["attitude/orientation/pca.py:PCAOrientation.__init__"]}
{"id": "C197", "title": "Small errors of the points change the singular values little", "statement": "Each singular value of a fit changes by at most the distance (root of the sum of squares) that the points are moved.", "quantifier": "all pairs of data sets with the same number of points", "why_tests_cant": "The singular values come from a decomposition without a closed form; the bound is over all data.", "anchors": ["attitude/orientation/pca.py:PCAOrientation.__init__"]}
{"id": "C198", "title": "Regression and principal components of the same points", "statement": "LinearOrientation reports at most the dip that PCAOrientation reports for the same points, with equality exactly if the points lie in one plane or the latter is horizontal; the two dip directions are less than or equal to 90 degrees apart.", "quantifier": "all data sets for which both fits exist", "why_tests_cant": "A relation between two different algorithms for all data; tests compare the two for planar data only, where they agree.", "anchors": ["attitude/orientation/linear/__init__.py:LinearOrientation.__init__", "attitude/orientation/pca.py:PCAOrientation.strike_dip"]}
{"id": "C199", "title": "Measurements that agree with the fit", "statement": "Adding measurements never makes a singular value smaller; measurements that lie in the fitted plane leave the plane as it is.", "quantifier": "all data sets and all added points", "why_tests_cant": "The added points change the mean and all three axes of the decomposition; that the plane stays is not visible in the code.", "anchors": ["attitude/orientation/pca.py:PCAOrientation.__init__"]}
{"id": "C200", "title": "Measurements that agree with the fit reduce its errors", "statement": "Adding measurements that lie in the fitted plane never makes the angular errors of a fit larger.", "quantifier": "all data sets, all added points, both methods, all levels", "why_tests_cant": "The errors depend on the number of points, the quantile and all singular values.", "anchors": ["attitude/error/axes.py:statistical_axes", "attitude/error/axes.py:angular_errors"]}
{"id": "C201", "title": "Centering in floating-point arithmetic", "statement": "The centered coordinates that the code computes with double-precision numbers are those of exact arithmetic; in particular equal elevations are centered to zero.", "quantifier": "all arrays, all orders of summation, all roundings that meet the contract of IEEE", "why_tests_cant": "Rounding depends on every bit of every coordinate and on the order in which numpy adds the rows; no sample covers it.", "anchors": ["attitude/coordinates/__init__.py:centered"]}
{"id": "C202", "title": "Strike and dip from points to output in floating-point arithmetic", "statement": "Strike and dip of PCAOrientation, computed with double-precision numbers from the points to the angles, describe a plane that differs from the exact one by a small angle, bounded by the size of the coordinates, the number of points and the gap of the singular values.", "quantifier": "all arrays of at least three points, all orders of summation, all stable decompositions, all accurate libraries", "why_tests_cant": "The bound combines rounding of sums, of the decomposition and of trigonometric functions for all inputs; tests see only the inputs they contain.", "anchors": ["attitude/coordinates/__init__.py:centered", "attitude/orientation/pca.py:PCAOrientation.__init__", "attitude/orientation/pca.py:PCAOrientation.strike_dip"]}
{"id": "C203", "title": "Singular values in floating-point arithmetic", "statement": "The singular values computed with double-precision numbers differ from the exact ones by at most a bound that does not depend on the arrangement of the points.", "quantifier": "all arrays of at least three points, all orders of summation, all stable decompositions", "why_tests_cant": "As for C202; the singular values enter all errors that the code reports.", "anchors": ["attitude/coordinates/__init__.py:centered", "attitude/orientation/pca.py:PCAOrientation.__init__"]}
{"id": "C204", "title": "More and more measurements", "statement": "If the same outcrop is measured again and again, the angular errors become arbitrarily small.", "quantifier": "all data sets, both methods, all levels, all numbers of repetitions", "why_tests_cant": "A statement about the limit of infinitely many measurements, for all data.", "anchors": ["attitude/error/axes.py:statistical_axes", "attitude/error/axes.py:angular_errors"]}
{"id": "C205", "title": "The fit finds the true plane", "statement": "If points are measured independently around a plane, the fit of more and more points converges to that plane with probability one, and so do strike and dip.", "quantifier": "all probability distributions of points with variances that are larger along the plane than across it; all backends", "why_tests_cant": "A statement with probability one about infinite sequences of measurements, for all distributions.", "anchors": ["attitude/orientation/pca.py:PCAOrientation.__init__", "attitude/orientation/pca.py:PCAOrientation.strike_dip"]}
{"id": "C206", "title": "The confidence level is the probability of containing the true plane", "statement": "If the measurement is repeated, the angular errors at confidence level p contain the true plane in a share p of the repetitions.", "quantifier": "all probability distributions as in C205, all levels, both methods", "why_tests_cant": "A statement about the probability of an event for all distributions.", "anchors": ["attitude/error/axes.py:statistical_axes", "attitude/error/axes.py:angular_errors", "attitude/orientation/pca.py:PCAOrientation.angular_errors"]}
{"id": "C207", "title": "The principal component fit finds the true plane whatever the errors", "statement": "If the measured points are points of a plane plus errors that do not depend on the position, strike and dip of the principal component fit of more and more points converge to those of the plane, whether the three coordinates have the same errors or only the elevation has errors (as in a digital elevation model).", "quantifier": "all probability distributions of points on a plane and of errors uncorrelated with them, all backends", "why_tests_cant": "A statement with probability one about infinite sequences of measurements, for all distributions.", "anchors": ["attitude/orientation/pca.py:PCAOrientation.__init__", "attitude/orientation/pca.py:PCAOrientation.strike_dip"]}
{"id": "C208", "title": "The regression finds the true plane whatever the errors", "statement": "If the measured points are points of a plane plus errors that do not depend on the position, strike and dip of the regression of more and more points converge to those of the plane, whether only the elevation has errors or the three coordinates have the same errors.", "quantifier": "all probability distributions of points on a plane and of errors uncorrelated with them", "why_tests_cant": "A statement with probability one about infinite sequences of measurements, for all distributions.", "anchors": ["attitude/orientation/linear/__init__.py:LinearOrientation.__init__", "attitude/orientation/linear/__init__.py:LinearOrientation.strike_dip", "attitude/orientation/linear/regression.py:Regression.coefficients"]}
{"id": "C209", "title": "A planar elevation model gives its plane", "statement": "If a digital elevation model is a plane z = αx + βy + γ (in the coordinates of the model), the points that extract_shape returns for a geometry with at least three positions not on a line are fitted exactly: no residuals, no errors, and strike and dip are those of the plane.", "quantifier": "all elevation models that are planar within the geometry, all georeferences, masks, lines and subdivisions, all backends", "why_tests_cant": "Composes extraction, interpolation and fit for all planes, georeferences and geometries; a test has a few rasters.", "anchors": ["attitude/helpers/dem.py:extract_area", "attitude/helpers/dem.py:extract_line", "attitude/helpers/dem.py:extract_shape", "attitude/helpers/interpolation.py:bilinear", "attitude/orientation/pca.py:PCAOrientation.__init__", "attitude/orientation/pca.py:PCAOrientation.strike_dip"]}
{"id": "C210", "title": "One wrong point does not decide the result", "statement": "If one of many points is wrong, the fitted plane stays near the plane of the others.", "quantifier": "all sets of points, all positions of the wrong point, both kinds of fits, all backends", "why_tests_cant": "For all sets of points and all wrong points; a test has a few of them.", "anchors": ["attitude/orientation/pca.py:PCAOrientation.__init__", "attitude/orientation/linear/__init__.py:LinearOrientation.__init__", "attitude/orientation/linear/__init__.py:LinearOrientation.strike_dip"]}
{"id": "C211", "title": "Small errors of elevation change the regression little", "statement": "If elevations have errors, the regression plane changes by little: the descent (tangent of the dip, in the direction of dip) changes by at most the root of the sum of squares of the errors over the extent of the positions in map view. Errors that look like a tilt change it by exactly that tilt.", "quantifier": "all sets of points and all errors of elevation", "why_tests_cant": "For all points and errors, with the best constant.", "anchors": ["attitude/orientation/linear/regression.py:Regression.coefficients", "attitude/orientation/linear/__init__.py:LinearOrientation.__init__", "attitude/orientation/linear/__init__.py:LinearOrientation.strike_dip"]}
{"id": "C212", "title": "The order of the points in floating-point arithmetic", "statement": "Giving the same points in another order gives the same centered coordinates and the same plane, also with rounding.", "quantifier": "all points, all permutations, all orders of summation, all roundings, libraries and decompositions that meet the stated accuracy", "why_tests_cant": "For all points and permutations; differences occur in rare cases and in the last digits.", "anchors": ["attitude/coordinates/__init__.py:centered", "attitude/orientation/pca.py:PCAOrientation.__init__", "attitude/orientation/pca.py:PCAOrientation.strike_dip"]}
{"id": "C213", "title": "A group of traces of parallel beds", "statement": "Measurements on parallel beds, grouped, give back the strike and dip of the beds without residuals, wherever the beds are. Each measurement may be a straight trace for which no plane can be fitted alone, as long as not all of them run in one direction.", "quantifier": "all numbers of beds, all positions of beds and points, all strikes and dips, both values of same_plane", "why_tests_cant": "For all sets of beds and points; a test has a few of them, and degenerate traces are easily left out.", "anchors": ["attitude/orientation/grouped.py:GroupedOrientation.__init__", "attitude/orientation/pca.py:PCAOrientation.strike_dip"]}
{"id": "C214", "title": "Grouping never fits better than the members", "statement": "The sum of squared residuals of a group of parallel planes is at least the sum over the members fitted separately, and at most that of one plane through all points. It equals that of the members exactly if the orientation of the group is a best one for each of them.", "quantifier": "all groups of measurements with at least three points each", "why_tests_cant": "For all groups, with the exact case of equality.", "anchors": ["attitude/orientation/grouped.py:GroupedOrientation.__init__", "attitude/orientation/pca.py:PCAOrientation.residuals"]}
{"id": "C215", "title": "The errors tell that a point is wrong", "statement": "If most of the points are exactly in a plane and the fitted plane has another orientation because of the others, the reported errors are large.", "quantifier": "all sets of points, all orientations, all confidence levels", "why_tests_cant": "For all positions of the wrong points and all confidence levels; whether errors are large in the cases tested says nothing about others.", "anchors": ["attitude/orientation/pca.py:PCAOrientation.angular_errors", "attitude/orientation/pca.py:PCAOrientation.residuals", "attitude/orientation/pca.py:PCAOrientation.strike_dip"]}
{"id": "C216", "title": "Points on a line are recognised as not determining a plane", "statement": "If the points are on a straight line, many planes contain them; the errors reported are large.", "quantifier": "all sets of three or more points on a line, all planes through the line, both methods, all confidence levels", "why_tests_cant": "For all lines, all planes through them and all decompositions of the library; a test sees the one decomposition of one version of the library.", "anchors": ["attitude/orientation/pca.py:PCAOrientation.__init__", "attitude/orientation/pca.py:PCAOrientation.angular_errors", "attitude/error/axes.py:angular_errors"]}
{"id": "C217", "title": "Small errors of the points change the angular errors little", "statement": "If points are moved by small distances, the angular errors reported change by little.", "quantifier": "all sets of points and movements, both methods, all confidence levels", "why_tests_cant": "For all points and movements, with an explicit constant.", "anchors": ["attitude/orientation/pca.py:PCAOrientation.angular_errors", "attitude/error/axes.py:noise_axes", "attitude/error/axes.py:sampling_axes", "attitude/error/axes.py:angular_errors"]}
{"id": "C218", "title": "Accuracy of planes from elevation models", "statement": "If the elevations of an area are within a given error of a plane, the plane reported for the area is close to it: for a block of square cells the descent (tangent of the dip, in the direction of dip) is accurate to the error times the square root of 12, over the length of the shorter side (in cells: size of a cell times the root of the squared number minus one).", "quantifier": "all elevation models, masks, transformations, slopes and errors of elevation, both kinds of fits, all blocks of at least two by two cells", "why_tests_cant": "For all elevation models and errors; the constant can not be found by trying some.", "anchors": ["attitude/helpers/dem.py:extract_area", "attitude/helpers/dem.py:extract_shape", "attitude/orientation/pca.py:PCAOrientation.__init__", "attitude/orientation/linear/__init__.py:LinearOrientation.__init__", "attitude/orientation/linear/__init__.py:LinearOrientation.strike_dip"]}
{"id": "C219", "title": "Groups combine the spread of their members", "statement": "The spread of a group (with parallel planes) is the sum of the spreads of its members. In particular a group of measurements of the same shape at different places has the strike and dip of a single one, and errors that never fall below the angles of the scatter of a single one, however many there are.", "quantifier": "all heaps, groups, member arrays, translations, decompositions, both methods, all confidence levels", "why_tests_cant": "For all numbers and places of members; tests group a few arrays.", "anchors": ["attitude/orientation/grouped.py:GroupedOrientation.__init__", "attitude/orientation/pca.py:PCAOrientation.__init__", "attitude/orientation/pca.py:PCAOrientation.angular_errors"]}
{"id": "C220", "title": "Which line is fitted to two columns", "statement": "For two-column data the fitted line is the only best one exactly if the singular values differ, and then it does not depend on the implementation of the decomposition.", "quantifier": "all two-column arrays, all lines, all pairs of decompositions", "why_tests_cant": "For all decompositions that meet numpy's contract; a test sees one.", "anchors": ["attitude/orientation/pca.py:PCAOrientation.__init__"]}
{"id": "C221", "title": "Members of a group that say nothing", "statement": "Adding a member whose points are all at one place to a group (with parallel planes) changes neither orientation nor errors of the group, since it says nothing about the orientation.", "quantifier": "all heaps, groups, members at one place, decompositions, both methods, confidence levels", "why_tests_cant": "For all groups and members; the change of the errors is small and a test would need to expect a value.", "anchors": ["attitude/orientation/grouped.py:GroupedOrientation.__init__", "attitude/orientation/pca.py:PCAOrientation.angular_errors", "attitude/error/axes.py:noise_axes", "attitude/error/axes.py:sampling_axes"]}
{"id": "C222", "title": "Groups of many traces of parallel beds come close to the true beds", "statement": "If traces of parallel beds are measured independently, with errors of the same size in all coordinates, then strike and dip of the groups of more and more of them (with parallel planes) converge to those of the beds, wherever the traces are and even if no single trace determines a plane.", "quantifier": "all probability spaces, distributions of traces and errors with finite second moments, places of the traces, heaps, decompositions, tolerances", "why_tests_cant": "A statement about the limit of infinitely many random measurements; tests see a few samples.", "anchors": ["attitude/orientation/grouped.py:GroupedOrientation.__init__", "attitude/orientation/pca.py:PCAOrientation.__init__", "attitude/orientation/pca.py:PCAOrientation.strike_dip"]}
{"id": "C223", "title": "Which groups can be made", "statement": "A group can be made exactly if there is at least one argument, all have points, none is a group already, and there are at least three points together; otherwise the exception says which of these conditions is not met.", "quantifier": "all heaps, argument lists (also with repetitions), both values of same_plane, hash functions", "why_tests_cant": "All states of the objects and all argument lists, including those left by earlier failures.", "anchors": ["attitude/orientation/grouped.py:GroupedOrientation.__init__", "attitude/orientation/grouped.py:GroupedPlaneError"]}
{"id": "C224", "title": "The variance left over by a fit estimates that of the errors", "statement": "If points are measured independently with errors of the same variance in all coordinates, the smallest variance of the fit converges to the variance of the errors, for single planes and for groups.", "quantifier": "all probability spaces, distributions of points and errors with finite second moments, decompositions, tolerances, places of the traces of groups", "why_tests_cant": "A statement about the limit of infinitely many random measurements; a bias of a third cannot be told from noise in a few samples.", "anchors": ["attitude/orientation/pca.py:PCAOrientation.eigenvalues", "attitude/orientation/pca.py:PCAOrientation.__init__", "attitude/orientation/grouped.py:GroupedOrientation.__init__"]}
{"id": "C225", "title": "Angular errors in floating-point arithmetic", "statement": "As long as the errors are at most half of the extent of the data, the angular errors computed with double-precision numbers differ from the exact ones by no more than a bound of the order of the rounding of the coordinates over the extent of the data.", "quantifier": "all arrays of at least three points, both methods, all levels, all orders of summation, all stable decompositions and accurate libraries", "why_tests_cant": "Rounding errors depend on all bits of all coordinates, on the order of summation and on the version of the libraries.", "anchors": ["attitude/orientation/pca.py:PCAOrientation.angular_errors", "attitude/orientation/pca.py:PCAOrientation.eigenvalues", "attitude/error/axes.py:statistical_axes", "attitude/error/axes.py:apply_error_scaling", "attitude/error/axes.py:angular_errors"]}
{"id": "C226", "title": "How far strike and dip change when a plane is tilted", "statement": "Two fits whose planes make a small angle have dips that differ by at most this angle. If the angle is less than the dip, and less than what is left to the vertical, the sine of the difference of their strikes is at most the sine of the angle over that of the dip. For points measured on a bed with errors, both follow from the size of the errors and the second singular value. Planes that are nearly level or nearly vertical can have opposite strikes at any angle.", "quantifier": "all pairs of arrays with fits, all beds, all errors of the points", "why_tests_cant": "A test compares two numbers for a few planes; the jumps of the strike at level and vertical planes are met only in the limit.", "anchors": ["attitude/orientation/pca.py:PCAOrientation.strike_dip", "attitude/orientation/pca.py:PCAOrientation.__init__"]}
{"id": "C227", "title": "Planes within the error surface, and the dips they have", "statement": "A plane stays within the error surface of a fit, seen from its centre, only if it makes an angle of at most the larger angular error with the fitted plane. Its dip is then within the larger angular error of that of the fit, and its strike within the angle with the sine of the error over that of the dip. Both angular errors are reached by planes within the surface. If an axis of the fit is level, all dips up to the angular error along the other axis are met.", "quantifier": "all fits, both methods, all levels, all planes", "why_tests_cant": "It is a statement about all planes of a cone; a test can only try a few.", "anchors": ["attitude/orientation/pca.py:PCAOrientation.angular_errors", "attitude/orientation/pca.py:PCAOrientation.strike_dip", "attitude/error/axes.py:angular_errors", "attitude/error/axes.py:hyperbolic_axes"]}
{"id": "C228", "title": "Standard errors of a regression", "statement": "The square of a standard error of Regression estimates the variance of the slope it belongs to, and the standard errors get smaller if more measurements are made.", "quantifier": "all positions of points, all planes, all errors of elevation with mean zero and the same variance that are not correlated", "why_tests_cant": "It is a statement about averages over all errors, for every number and position of points; a single data set does not show the factor.", "anchors": ["attitude/orientation/linear/regression.py:Regression.standard_errors", "attitude/orientation/linear/regression.py:Regression.covariance_matrix", "attitude/orientation/linear/regression.py:Regression.coefficients"]}
{"id": "C229", "title": "Points of a plane in the frontend", "statement": "A PlaneData stands for the points it was made from: its position plus its centered points are these points, whichever of mean, center, extracted and centered_array are given. In particular a fit sent by to_mapping stands for the fitted points. Centered points that are given are used as they are, and a measurement with no points and no position is refused by the side view.", "quantifier": "all measurements, all lists of points, all fits", "why_tests_cant": "All combinations of properties and all points.", "anchors": ["frontend/packages/attitude/src/hyperbola.ts:PlaneData", "attitude/orientation/pca.py:PCAOrientation.to_mapping"]}
{"id": "C230", "title": "What the side view draws", "statement": "The side view shows every measurement that is not a group once, at its center, with the middle of all centers in the middle of the picture. Members of groups are drawn along the plane of their group and additionally with the errors of the group. Nearer planes are drawn over farther ones.", "quantifier": "all lists of measurements, azimuths and linear scales", "why_tests_cant": "Unbounded lists, infinite sets of points on the screen.", "anchors": ["frontend/packages/notebook-ui/src/components/side-view.ts:SideViewComponent"]}
{"id": "C231", "title": "Labels and changes of the side view", "statement": "The side view has correct labels (elevations, direction of the section) and after any changes of its properties shows the current data, azimuth and highlighting.", "quantifier": "all azimuths, all sequences of properties", "why_tests_cant": "Unbounded sequences of changes.", "anchors": ["frontend/packages/notebook-ui/src/components/side-view.ts:SideViewComponent"]}
{"id": "C232", "title": "Elements of the side view over changes of azimuth", "statement": "After any sequence of azimuths the side view has one element for each plane, in the order of the current view; the class in-group marks the elements of planes that belong to groups, and each element is masked for the current view.", "quantifier": "all lists of planes, all sequences of azimuths", "why_tests_cant": "Unbounded sequences of views and all numbers of planes.", "anchors": ["frontend/packages/notebook-ui/src/components/side-view.ts:SideViewComponent.updateAzimuth", "frontend/packages/attitude/src/hyperbola.ts:hyperbolicErrors"]}
{"id": "C233", "title": "Planes and ellipses added to a stereonet", "statement": "planes and ellipses add what they are given: each datum is drawn once, in its container and color, the returned selection has all of them, and nothing else on the net changes; a later call shows its own data; an options object can be used for several calls.", "quantifier": "all nets, all data, all options objects, all sequences of calls", "why_tests_cant": "The state after unboundedly many calls, and objects shared between calls.", "anchors": ["frontend/packages/attitude/src/stereonet/index.ts:drawPlanes", "frontend/packages/attitude/src/stereonet/index.ts:drawEllipses"]}
{"id": "C234", "title": "Listeners of a stereonet", "statement": "A function registered with on is called once at every rotation after the rotation is in force; labels always stand where the rotation puts them; to look up a function changes nothing.", "quantifier": "all sequences of registrations, labels, rotations and centerings", "why_tests_cant": "Unboundedly long sequences of events.", "anchors": ["frontend/packages/attitude/src/stereonet/index.ts:Stereonet", "frontend/packages/attitude/src/stereonet/labels.ts:globalLabels"]}
{"id": "C235", "title": "Averages of many repetitions of a bootstrap", "statement": "Over many repetitions, averages of a bootstrap come as close as desired to values of the data: resampled means to the mean, their variance to the square of the standard error, and the scatter about a fixed point to that of the data, both for resampling and for added noise.", "quantifier": "all numbers of data, all data, all fair draws and all noise with mean zero and variance one; with probability one", "why_tests_cant": "A limit over infinitely many repetitions for arbitrary data, with probability one.", "anchors": ["attitude/display/plot/cov_types/regressions.py:bootstrap_resampled", "attitude/display/plot/cov_types/regressions.py:bootstrap_noise"]}
{"id": "C236", "title": "The coefficients of a regression in floating-point arithmetic", "statement": "The coefficients that a regression computes in double precision are close to those of exact arithmetic, in whatever order sums are added, also for coordinates far from the origin, and it reports no singular matrix for data that determine a plane.", "quantifier": "all arrays of points, all orders of addition, all roundings that meet the contract of double precision, all inverses with a small relative residual", "why_tests_cant": "A bound for the error over all data, all orders of addition and all libraries; a test sees one rounding of one data set.", "anchors": ["attitude/orientation/linear/regression.py:Regression.coefficients", "attitude/orientation/linear/regression.py:matrix_squared"]}
{"id": "C237", "title": "No better way to get slopes from the same points", "statement": "If the elevations have errors with mean zero and the same variance that are not correlated, no other way to compute a slope as a sum of the elevations with weights that is right for exact data has a smaller variance than the slope of Regression, in any direction. The elevations of the fitted plane at the measured positions are right on average and at least as accurate as the measured ones; their variances add up to three times that of a measurement.", "quantifier": "all numbers of points, positions, planes, distributions of errors, directions and weights", "why_tests_cant": "An optimum over all methods and an average over all errors.", "anchors": ["attitude/orientation/linear/regression.py:Regression.coefficients", "attitude/orientation/linear/regression.py:Regression.predictions"]}
{"id": "C238", "title": "Turning the measurements turns the error curves", "statement": "If all measured points are turned by an angle about the vertical, moved and brought to another scale, the error curves of the plane (upper, lower and nominal, for either covariance) and the curve of its poles are turned by the same angle: every position of the new curve is, turned back, a position of the old curve drawn with twice the samples. This holds although the decomposition may choose other signs of the axes for the new points. The three singular values must differ; for a vertical plane the sheets upper and lower may change their names.", "quantifier": "all point clouds with three different singular values, all decompositions, angles, scales, shifts, levels, layouts and numbers of samples", "why_tests_cant": "Compares two runs of a decomposition with unspecified signs over all angles of turning.", "anchors": ["attitude/stereonet.py:plane_errors", "attitude/stereonet.py:normal_errors", "attitude/orientation/pca.py:PCAOrientation.__init__"]}
{"id": "C239", "title": "Fits with weights for errors along the axes", "statement": "With weights for the coordinate axes (their errors), the fitted plane is the one with the smallest sum of squared distances measured in units of the errors, and the reported normal, strike and dip are those of this plane; in particular points without errors give the right orientation for all weights.", "quantifier": "all point clouds with at least three points, all weights other than zero, all decompositions; for the exact case all planes, strikes, dips and positions", "why_tests_cant": "The plane is compared with all other planes, for all points and weights.", "anchors": ["attitude/orientation/pca.py:PCAOrientation.__init__", "attitude/orientation/pca.py:PCAOrientation.__run_svd", "attitude/orientation/pca.py:PCAOrientation.strike_dip"]}
{"id": "C240", "title": "Weights and saved axes in two dimensions", "statement": "For arrays of two columns, omitting the arguments is the same as weights of one; saving principal_axes and loading them with the same points gives back the same object; with weights the normal is that of the line.", "quantifier": "all arrays of two columns, weights, saved axes and decompositions", "why_tests_cant": "Equality of whole objects for all points; the failures are the points on a line and unequal weights.", "anchors": ["attitude/orientation/pca.py:PCAOrientation.__init__", "attitude/orientation/pca.py:PCAOrientation.__run_svd", "attitude/orientation/pca.py:PCAOrientation.__load_saved_fit", "attitude/orientation/base.py:BaseOrientation.principal_axes"]}
{"id": "C241", "title": "Signs of axes in the frontend", "statement": "The error curves that the frontend draws do not depend on the signs with which a decomposition returned the axes, and turn with the axes.", "quantifier": "all covariances, axes, signs, options, angles; for fits all point clouds with three different singular values and all pairs of decompositions", "why_tests_cant": "Compares the results of all decompositions that meet the contract; equality of whole curves for all samplings.", "anchors": ["frontend/packages/attitude/src/math.ts:planeErrors", "frontend/packages/attitude/src/math.ts:normalErrors", "frontend/packages/attitude/src/math.ts:combinedErrors", "attitude/orientation/pca.py:PCAOrientation.__init__"]}
{"id": "C242", "title": "How often a slope lies within its standard errors", "statement": "If the elevations have independent errors, the share of repetitions in which a slope of Regression lies within k of its standard errors of the true slope depends on k only, not on the plane or the size of the errors, and is the usual one (68 percent for k = 1).", "quantifier": "all positions, planes, distributions of the errors and k", "why_tests_cant": "Probabilities over all distributions of the errors, and limits over all numbers of points.", "anchors": ["attitude/orientation/linear/regression.py:Regression.standard_errors", "attitude/orientation/linear/regression.py:Regression.coefficients"]}
{"id": "C243", "title": "Normalisation of Bingham distributions", "statement": "The square root of pi times confluent_hypergeometric_function(k1, k2) is the constant that normalises the Bingham distribution exp(k1 x^2 + k2 y^2) of directions of a hemisphere, and bingham_pdf is a density: its integral over the sphere is one.", "quantifier": "all concentrations k1, k2; all numbers of terms; all fits with equal errors in the plane", "why_tests_cant": "An integral over the sphere and the limit of a double series, for all real arguments.", "anchors": ["attitude/bingham.py:confluent_hypergeometric_function", "attitude/bingham.py:bingham_pdf"]}
{"id": "C244", "title": "Slopes of a fit are the total least squares estimate", "statement": "The slopes -n_x/n_z and -n_y/n_z of the plane of PCAOrientation are the closed form (X'X - s^2 I)^-1 X'z of total least squares, with the centered horizontal coordinates X, elevations z and the smallest singular value s. The matrix is invertible exactly if the smallest singular value is simple and the plane is not vertical.", "quantifier": "all arrays of points, all valid decompositions", "why_tests_cant": "The test compares both for one random plane with a tolerance; it says nothing on when the closed form exists.", "anchors": ["attitude/orientation/pca.py:PCAOrientation", "attitude/orientation/test_pca.py:test_pca_regression_variable"]}
{"id": "C245", "title": "Points with missing coordinates", "statement": "A fit of points of which a coordinate is nan fails with LinAlgError instead of giving an orientation; after clean_coordinates the fit is that of the complete points, and fails only if there are fewer than three of them (ValueError).", "quantifier": "all arrays of numbers and nan, all backends of the decomposition", "why_tests_cant": "Every position of every missing value.", "anchors": ["attitude/orientation/pca.py:PCAOrientation", "attitude/helpers/dem.py:clean_coordinates", "attitude/coordinates/__init__.py:centered"]}
{"id": "C246", "title": "Duals of ellipsoids", "statement": "The dual of an ellipsoid is a hyperboloid, as the documentation of from_axes and from_semiaxes says (\"this can be converted into a hyperbola by getting the dual conic\").", "quantifier": "all ellipsoids in all dimensions, centered anywhere", "why_tests_cant": "The test suite looks at one ellipsoid in two positions.", "anchors": ["attitude/geom/conics.py:Conic.dual", "attitude/geom/conics.py:Conic.from_axes", "attitude/geom/conics.py:Conic.from_semiaxes", "attitude/geom/test_conics.py:test_conic_axes"]}
{"id": "C247", "title": "Python and the frontend show the same hyperbola of errors", "statement": "hyperbolic_errors in Python, asked for the line of the plane in a vertical section and the normal, and hyperbolicErrors of the frontend, for the same plane, errors and section, draw the same hyperbola.", "quantifier": "all planes with the first axis along strike, all dips below vertical, all sections, all positive errors, all x values", "why_tests_cant": "The two programs are in different languages and have no common test.", "anchors": ["attitude/display/hyperbola.py:hyperbolic_errors", "frontend/packages/attitude/src/hyperbola.ts:hyperbolicErrors"]}
{"id": "C248", "title": "Positions on the stereonet in floating-point arithmetic", "statement": "Also with rounding, each point that iterative_plane_errors computes is a position with a latitude in range, next to the exact direction; only a zero vector gives nan.", "quantifier": "all roundings that meet the contract (double precision does), all libraries of accuracy ε, all nearly orthonormal axes, all errors, all numbers of points", "why_tests_cant": "Rounding errors can push the argument of arcsin beyond 1 for some inputs and not for others; a test sees a few of 10^300 inputs.", "anchors": ["attitude/stereonet.py:iterative_plane_errors"]}
{"id": "C249", "title": "The curves of errors trace the whole error cone", "statement": "The curves that plane_errors draws leave nothing out: every direction of the error cone on the side of the sheet is next to a drawn point, every direction of the plane is next to a point of the nominal curve, with a distance that goes to zero as n grows; each curve ends where it begins.", "quantifier": "all orthonormal axes with a plane that is not vertical, all positive errors and levels, all sheets, all n of at least two, both conventions, all directions of the cone", "why_tests_cant": "Points on the curve can be tested; that no part of the cone is missing is a statement about all its directions.", "anchors": ["attitude/stereonet.py:plane_errors", "attitude/stereonet.py:ellipse"]}
{"id": "C250", "title": "Elevations of several lines", "statement": "extract_line of several lines (MultiLineString) gives one row for each point, in order, and a line has the same elevations in it as alone.", "quantifier": "all elevation models, transformations and subdivisions, all numbers of lines", "why_tests_cant": "The window that is read depends on all lines together; tests have one line.", "anchors": ["attitude/helpers/dem.py:coords_array", "attitude/helpers/dem.py:extract_line", "attitude/helpers/interpolation.py:__factory__"]}
{"id": "C251", "title": "The hyperbola is drawn in two branches", "statement": "parametric.hyperbola gives the points of the hyperbola in order, leaves out at most two of them, and no line goes from one branch to the other.", "quantifier": "all semi-axes, centres and even numbers of points (500 by default)", "why_tests_cant": "The places where the tangent changes sign depend on the number of points.", "anchors": ["attitude/display/parametric.py:hyperbola"]}
{"id": "C252", "title": "The figure of conjugate conics", "statement": "plot_conjugate_conics marks the foci of the hyperbola and of the ellipse of normal vectors, draws the asymptotes and the tangents of the ellipse, and chooses limits that show both ellipses; with plot_inverse_hyperbola it also draws the inverse hyperbola.", "quantifier": "all positive semi-axes", "why_tests_cant": "A figure cannot be checked by a test for all semi-axes.", "anchors": ["attitude/display/parametric.py:plot_conjugate_conics"]}
{"id": "C253", "title": "The mapping of error axes describes the fit", "statement": "pca_to_mapping gives the axes and the error axes of the fit together with the entries that were passed.", "quantifier": "all fits, methods of errors and further entries", "why_tests_cant": "The difference between the two estimates of errors has a factor that depends on the number of points.", "anchors": ["attitude/error/__init__.py:pca_to_mapping"]}
{"id": "C254", "title": "The curve around the pole traces all poles of the error cone", "statement": "Every pole of a plane that touches the error cone is within a known distance of a point of the curve of normal_errors, and this distance goes to zero as the number of points grows; the curve that pole_error draws has 1000 points and is closed.", "quantifier": "all axes, positive variances, numbers of points and tangent planes", "why_tests_cant": "For every direction there has to be a near point of the curve; tests check a few points of the curve, not that there are no gaps.", "anchors": ["attitude/stereonet.py:normal_errors", "attitude/display/stereonet.py:pole_error"]}
{"id": "C255", "title": "Identities that the tests check on random planes hold for every plane", "statement": "The data of a fit is the product of its factors, turning it by the axes and back is the identity, singular values are standard deviations times the root of the number of points, the columns of principal_axes have the singular values as lengths, as_hyperbola has the inverse variances as entries, and the plane reconstructed from the angular errors has the covariance of the fit, up to scale.", "quantifier": "all arrays of at least three points, all decompositions that numpy may return", "why_tests_cant": "The tests use ten random planes; degenerate sets of points and the order of the two in-plane axes are not among what they can find.", "anchors": ["attitude/orientation/pca.py:PCAOrientation", "attitude/orientation/reconstructed.py:ReconstructedPlane"]}
{"id": "C256", "title": "Lines and rings of the frontend are closed", "statement": "The line of the nominal plane goes all around its great circle, and the rings of the error surface and of the error ellipse end where they begin, as polygons of GeoJSON have to.", "quantifier": "all axes, variances, options and numbers of points from three", "why_tests_cant": "The part that is missing depends on the number of points and the ratio of the errors, and a test would have to look for a direction that is not drawn.", "anchors": ["frontend/packages/attitude/src/math.ts:ellipse", "frontend/packages/attitude/src/math.ts:planeErrors", "frontend/packages/attitude/src/math.ts:normalErrors", "frontend/packages/attitude/src/functions.ts:createNominalPlane"]}
{"id": "C257", "title": "The curves of the frontend trace the whole error cone", "statement": "Every direction of the error cone (of the plane, for the nominal curve) is near to a point of the curve that the frontend draws, and the distance goes to zero as the number of points grows, as fast as it does for the curves of Python.", "quantifier": "all axes, variances, directions of the cone and numbers of points from three", "why_tests_cant": "For every direction there has to be a near point; tests look at points of the curve.", "anchors": ["frontend/packages/attitude/src/math.ts:ellipse", "frontend/packages/attitude/src/math.ts:planeErrors"]}
{"id": "C258", "title": "The drawn band of errors contains the errors", "statement": "Between two of its points the polygon of the error hyperbola has straight edges; there it is nowhere narrower than the true hyperbola, and wider by no more than a bound that falls with the square of the distance of the x values.", "quantifier": "all error axes, transformations, viewing axes, lists of x values and positions between them", "why_tests_cant": "The edges are between the values that a test can compute, and the bound has to hold for every spacing.", "anchors": ["attitude/display/hyperbola.py:hyperbolic_errors", "attitude/display/hyperbola.py:hyperbola_values", "attitude/display/hyperbola.py:HyperbolicErrors"]}
{"id": "C259", "title": "The pole curves of the frontend trace all poles of the error cone", "statement": "Every normal, on the side of a sheet, of a plane that touches the error cone of a level is near to a point of the curve of poles that the frontend draws for that sheet and level, and the distance goes to zero as the number of points grows.", "quantifier": "all axes, variances, levels, sheets, normals and numbers of points from three", "why_tests_cant": "For every normal there has to be a near point; tests look at points of the curve.", "anchors": ["frontend/packages/attitude/src/math.ts:ellipse", "frontend/packages/attitude/src/math.ts:normalErrors"]}
{"id": "C260", "title": "Error bands on the axes follow their updates", "statement": "After any sequence of plot, plot_nominal and update_data, with exceptions caught by the caller, every polygon that the object has drawn shows the latest data that was computed, an update that fails changes nothing, arguments given by name work like those by position, and the edge has the colour asked for.", "quantifier": "all constructions, sequences of calls, arguments and settings", "why_tests_cant": "The polygons depend on the whole sequence of calls, including calls that fail.", "anchors": ["attitude/display/hyperbola.py:HyperbolicErrors"]}
{"id": "C261", "title": "Error shells and uncertain poles of planes given by their errors", "statement": "For a plane given by strike, dip, rake and two angular errors, the polygons drawn on a map (ErrorShell.cartopy_girdle and cartopy_normal) and the pole error on a stereonet or a polar plot (uncertain_pole) are closed, bound the directions that deviate from the plane and from its pole by the errors given, do not change the plane, and agree with the functions of the same name in display/cartopy.py.", "quantifier": "all strikes and rakes, dips between 0 and 90 degrees, errors between 0 and 180 degrees", "why_tests_cant": "The width holds at every vertex for a continuum of planes and errors; the in-place change of the axes depends on the hidden sign of the normal.", "anchors": ["attitude/orientation/reconstructed.py:ErrorShell.cartopy_girdle", "attitude/orientation/reconstructed.py:ErrorShell.cartopy_normal", "attitude/display/stereonet.py:uncertain_pole", "attitude/display/polar.py:uncertain_pole"]}
{"id": "C262", "title": "From the spreadsheet to the stereonet", "statement": "Whatever cells are edited, rows added or data reset in the web application, every row that is plotted has an orientation with the five numbers typed (errors in order), its nominal line is the plane with the strike and dip typed, every vertex of its error surface deviates from that plane by an angle between half the smaller and half the larger error typed, and every vertex of the two polygons of its error ellipse is at such an angle from the upward normal of that plane and from the opposite direction, respectively.", "quantifier": "all sequences of edits, all rows, all errors with 0 < minError and maxError < 180, all options with the upper hemisphere kept, all point-in-polygon and area routines of d3", "why_tests_cant": "Composition of the sheet, parsing, reconstruction and drawing over unbounded edit sequences and a continuum of numbers.", "anchors": ["frontend/packages/webapp/src/app.ts:App", "frontend/packages/webapp/src/app.ts:constructOrientation", "frontend/packages/attitude/src/functions.ts:createGroupedPlane", "frontend/packages/attitude/src/functions.ts:__createErrorEllipse", "frontend/packages/attitude/src/reconstruct.ts:reconstructErrors"]}
{"id": "C263", "title": "Rows in the clipped stereonet", "statement": "In the clipped stereonet of the web application, every plotted row has an error ellipse in the order of the rows; it appears within the circle completely if its dip plus half its larger error is at most the clip angle, and not at all if its dip minus half that error exceeds it; the opposite end of the pole does not appear.", "quantifier": "all sequences of edits, all clip angles, all rows with dips from 0 to 90 and errors between 0 and 180 degrees", "why_tests_cant": "Composition of the sheet, the reconstruction, the drawing with a shared options object, the rotation and the projection, over unbounded edit sequences.", "anchors": ["frontend/packages/plots/src/vertical.ts:buildPlot", "frontend/packages/attitude/src/stereonet/index.ts:Stereonet", "frontend/packages/webapp/src/app.ts:ClippedStereonetPanel"]}
{"id": "C264", "title": "Numbers of a fit copied into the frontend", "statement": "Take a plane fitted in Python and give its strike, dip and rake together with its angular errors to reconstructErrors of the frontend, which is what the spreadsheet does with the numbers typed. The curves drawn are those drawn from the exported axes and lengths of the same fit, vertex by vertex up to their order, provided the errors given are twice the ones Python reports and the first axis of the fit is on the side of strike. Under the same conditions the error ellipses of the pole coincide; where the third axis of the fit points down the two sheets have each other's names. With the errors as reported the curves are narrower: if the larger error is less than twice the smaller one, every vertex of the curves drawn from the numbers is nearer to the plane than every vertex of the curves drawn from the axes.", "quantifier": "every valid SVD backend, every point array with a default fit that has a strike, dip and rake, both error methods, every confidence level with positive error axes, every even number of vertices, both hemispheres for the equality, any layout", "why_tests_cant": "the equality joins the inverse tangent in one language with the squared cotangent in another and depends on unordered lists of computed positions and on signs that the SVD is free to choose", "anchors": ["attitude/orientation/base.py:to_mapping", "attitude/orientation/pca.py:angular_errors", "frontend/packages/attitude/src/functions.ts:createErrorSurface", "frontend/packages/attitude/src/reconstruct.ts:reconstructErrors", "frontend/packages/attitude/src/math.ts:planeErrors"]}
{"id": "C265", "title": "Lines on the elevation model of a curved surface", "statement": "An elevation interpolated between the cells of a complete elevation model that samples a surface with errors up to e is the elevation of the surface at that place up to e plus an eighth of the bend of the surface times the squared width and height of a cell, and no smaller bound holds. Hence a line extracted from the model of a surface that is nearly planar along the line gives points within the sum of these errors of the plane, and the fits of these points have its gradient and its normal up to bounds that depend only on that sum, the number of points and their extent in map view.", "quantifier": "every surface with bounded bend, every georeferencing (rotated or sheared), every complete elevation model, every place between the outermost cell centres; for lines every list of points away from the edges of the window, every valid SVD backend", "why_tests_cant": "the surface ranges over a space of functions, and the bound has to hold between the samples", "anchors": ["attitude/helpers/interpolation.py:__factory__", "attitude/helpers/dem.py:extract_line", "attitude/orientation/pca.py:PCAOrientation.__init__", "attitude/orientation/linear/__init__.py:LinearOrientation.__init__"]}
{"id": "C266", "title": "Size and caption of the aligned figure", "statement": "The figure of plot_aligned is 8 inches wide; its height is 12 inches times the extent of the points along the second axis plus twice that along the third, over that along the first, but at least 3 inches; it is at most 36 inches times the square root of half the number of points. It does not change when the data are given in other units, moved or turned about the vertical. For points that coincide it is not a finite number. The maximum residual of the caption is the length of the longest residual.", "quantifier": "every point set with a fit, every valid SVD backend; unit changes for three different singular values", "why_tests_cant": "the bound and the invariance hold for every point set and backend; the axes are only known up to sign", "anchors": ["attitude/display/pca_aligned.py:plot_aligned"]}
{"id": "C267", "title": "Plots of the web application follow the sheet", "statement": "After every sequence of edits, pastes, added rows, resets, switched tabs, pressed switches and entered clip angles, the tab that is shown has drawn the current rows and nothing else: the interactive stereonet their planes and poles according to its two switches, the clipped stereonet one drawing with the clip angle shown. Presses of a switch reverse it, and opening the tab again returns to poles without planes. The button Vertical always sets the vertical view. The sheet does not depend on what is done with the plots. The clip angle is between 0 and 90 degrees. A rectangular stereonet shows the data that it was given last.", "quantifier": "every list of events, every validator of colours; for the components alone every list of data passed to them", "why_tests_cant": "the claim is an invariant over unbounded sequences of user events and renders", "anchors": ["frontend/packages/webapp/src/app.ts:App", "frontend/packages/webapp/src/app.ts:ClippedStereonetPanel", "frontend/packages/plots/src/vertical.ts:VerticalClippedStereonet", "frontend/packages/plots/src/rectangular.ts:RectangularStereonet", "frontend/packages/notebook-ui/src/components/stereonet.ts:InteractiveStereonetComponent"]}
{"id": "C268", "title": "Angular errors of fits with weights", "statement": "The angular errors of a fit with weights depend on the ratios of the weights only, and equal weights give the errors of the fit without weights. Which coordinate is called x and which y does not matter: points and weights given with the coordinates in another order have the same angular errors. The first error reported is not larger than the second.", "quantifier": "all points, all weights other than zero, both error methods, all levels, all decompositions within the contract", "why_tests_cant": "no finite set of points and weights shows that an exchange of coordinates never matters, and the usual test data have equal weights", "anchors": ["attitude/orientation/pca.py:__run_svd", "attitude/orientation/pca.py:angular_errors", "attitude/error/axes.py:statistical_axes"]}
{"id": "C269", "title": "A large weight of the heights gives the regression", "statement": "A fit with the weights [1, 1, k] finds, for large k, the plane of the linear regression of heights on the horizontal coordinates: the difference of the slopes is at most SSE/(k^2 mu - SSE) times the slope of the regression and tends to zero; the plane is never less steep than the regression. The reported dip is that of this plane.", "quantifier": "all points not on a line in map view, all positive weights, all decompositions within the contract", "why_tests_cant": "a limit for growing weights is not reached by any finite set of weights, and no test fits both ways", "anchors": ["attitude/orientation/pca.py:PCAOrientation.__init__", "attitude/orientation/pca.py:strike_dip", "attitude/orientation/linear/regression.py:Regression.coefficients"]}
{"id": "C270", "title": "Regression in other coordinates and vertical exaggeration", "statement": "A regression of the same points in other coordinates - positions changed by any invertible linear map and a shift, heights multiplied by a factor, with a plane added - reports the same plane in those coordinates: residuals are multiplied by the factor, coefficients and covariances transform accordingly, the tangent of the dip of a linear orientation is multiplied by a vertical exaggeration and its strike is unchanged. Fits by principal components follow vertical exaggeration too.", "quantifier": "all points not on a line in map view, all invertible changes of coordinates, all decompositions within the contract", "why_tests_cant": "the changes of coordinates and the points are a continuum", "anchors": ["attitude/orientation/linear/regression.py:Regression.coefficients", "attitude/orientation/linear/regression.py:Regression.residuals", "attitude/orientation/linear/regression.py:Regression.covariance_matrix", "attitude/orientation/linear/regression.py:Regression.standard_errors", "attitude/orientation/linear/__init__.py:LinearOrientation.strike_dip", "attitude/orientation/pca.py:strike_dip"]}
{"id": "C271", "title": "The sheet for any stored content", "statement": "Whatever the storage of the browser holds - rows or cells that are null, rows of any length - the application works: the table is shown exactly if no row has more than six cells, with every row in order, numbered from one, its values as stored and the color picker in the sixth column only; an orientation is plotted for exactly those rows whose first six cells make one, whatever the other rows are; edits are stored; and after a reset the sheet is that of a page without stored values.", "quantifier": "all arrays of rows of cells, all sequences of edits, added rows and resets", "why_tests_cant": "what a browser has stored, from whichever version, and what is done later are infinitely many cases", "anchors": ["frontend/packages/webapp/src/sheet.ts:enhanceData", "frontend/packages/webapp/src/sheet.ts:Row", "frontend/packages/webapp/src/sheet.ts:finalizeRow", "frontend/packages/webapp/src/sheet.ts:DataSheet", "frontend/packages/webapp/src/sheet.ts:DataArea", "frontend/packages/webapp/src/app.ts:constructOrientation"]}
{"id": "C272", "title": "The color picker", "statement": "A color picked for a row is stored as a text of the same color: opened again the picker shows it, the row is plotted with it, and the numbers of the row are as before. For a cell without a known color the picker shows a grey, which is not stored unless it is picked.", "quantifier": "all rows that can be plotted, all colors, every color library whose names and hexadecimal texts are texts of their color", "why_tests_cant": "colors, texts and rows are infinitely many, and the property is one of the composition of picker, sheet and plot", "anchors": ["frontend/packages/webapp/src/sheet.ts:ColorEditor", "frontend/packages/webapp/src/app.ts:constructOrientation", "frontend/packages/attitude/src/stereonet/index.ts:getColor"]}
{"id": "C273", "title": "Objects that draw the labels of the graticule", "statement": "After any calls of the methods of an object for labels, drawing adds one label for each intersection with the line set last, in order, anchored at the intersection moved by the offset set last and turned by the rotation set last, and leaves what was drawn before; the title of the axis can be drawn exactly if labels were drawn before and is added to those drawn last at the position given. Drawing again replaces the labels, and the labels of the rectangular plot are within its picture.", "quantifier": "all sequences of calls, all intersections that the library finds", "why_tests_cant": "sequences of calls and projections are infinitely many", "anchors": ["frontend/packages/plots/src/graticule-labels.ts:GraticuleLabels.render", "frontend/packages/plots/src/graticule-labels.ts:GraticuleLabels.renderLabel", "frontend/packages/plots/src/graticule-labels.ts:GraticuleLabels.textOffset", "frontend/packages/plots/src/graticule-labels.ts:GraticuleLabels.textRotation", "frontend/packages/plots/src/graticule-labels.ts:GraticuleLabels.alongLine", "frontend/packages/plots/src/rectangular.ts:drawStereonet"]}
{"id": "C274", "title": "Styles of ellipses in the clipped plot", "statement": "In the clipped plot every ellipse gets the style of its datum, in order: its color, or grey without one, for the stroke and, outside of groups, for the fill; ellipses of members of groups are transparent and dashed; opacities are positive, at most 0.8 and not less for the stroke than for the fill. No content of the sheet makes the plot fail.", "quantifier": "all lists of data, all sheets, every color library that knows the default grey", "why_tests_cant": "data, colors and sheets are infinitely many, and a single datum can end the plot of all others", "anchors": ["frontend/packages/plots/src/vertical.ts:translucentEllipseStyle", "frontend/packages/plots/src/vertical.ts:buildPlot", "frontend/packages/webapp/src/app.ts:constructOrientation"]}
{"id": "C275", "title": "The selection copied as a text", "statement": "The text that the list of the notebook interface copies is a list in JSON that reads as exactly the uids of the selected measurements, in the order of the selection, after any events; it can be copied exactly if there is a selection. Items of the list are drawn in the color of their measurement exactly while they are highlighted.", "quantifier": "all lists of measurements, all uids, all sequences of events", "why_tests_cant": "uids and sequences of events are infinitely many; the text has to be read by another program", "anchors": ["frontend/packages/notebook-ui/src/components/list.ts:SelectionListComponent.selectionText", "frontend/packages/notebook-ui/src/components/list.ts:SelectionListComponent.render", "frontend/packages/notebook-ui/src/components/list.ts:SelectionListComponent.createListItem"]}
{"id": "C276", "title": "Options of error hyperbolas", "statement": "After any calls of the methods of an error hyperbola, every option has the value that was given last, or its initial value; a method that is given nothing returns that value and changes nothing. Every option can be set back to its initial value. The gradient that fades a hyperbola is the same from both sides, opaque in the tenth around the middle and only there, and transparent exactly at the ends.", "quantifier": "all sequences of calls with all values; all positions in the gradient", "why_tests_cant": "sequences of calls and positions are infinitely many", "anchors": ["frontend/packages/attitude/src/hyperbola.ts:hyperbolicErrors"]}
{"id": "C277", "title": "Nominal line of error hyperbolas", "statement": "The element of a hyperbola shows a nominal line exactly while the option asks for it; the line ends where the border ends and reaches over the visible part of the hyperbola. The visible part is as wide as the option says, times the cosine of the error angle on the screen.", "quantifier": "all sequences of calls and drawings, all scales that are not constant, all semi-axes", "why_tests_cant": "sequences, scales and semi-axes are infinitely many", "anchors": ["frontend/packages/attitude/src/hyperbola.ts:hyperbolicErrors", "frontend/packages/attitude/src/hyperbola.ts:getRatios"]}
{"id": "C278", "title": "Planes and poles that the stereonet component shows", "statement": "After any updates and rotations, the stereonet component shows the trace of every plane, the error surface of every plane except those with an angular error above 45 degrees, and the error ellipse of every pole; and the mouse can find each of them.", "quantifier": "all measurements with all errors, all sequences of properties and rotations", "why_tests_cant": "sequences of updates are infinitely many, and the fault is in data that d3 keeps at elements, which no test of the functions sees", "anchors": ["frontend/packages/notebook-ui/src/components/stereonet.ts:StereonetComponent.updatePlanes", "frontend/packages/notebook-ui/src/components/stereonet.ts:StereonetComponent.updatePoles", "frontend/packages/notebook-ui/src/components/stereonet.ts:StereonetComponent.__finishUpdate", "frontend/packages/attitude/src/stereonet/index.ts:Stereonet"]}
{"id": "C279", "title": "Highlighted measurements in the stereonet component", "statement": "While measurements are highlighted, the stereonet component shows them over the others, also when it is rotated.", "quantifier": "all measurements, all sequences of properties and rotations", "why_tests_cant": "sequences of updates are infinitely many, and the fault is in data that d3 keeps at elements", "anchors": ["frontend/packages/notebook-ui/src/components/stereonet.ts:StereonetComponent.updateHovered", "frontend/packages/notebook-ui/src/components/stereonet.ts:setHoveredFill", "frontend/packages/attitude/src/stereonet/index.ts:Stereonet"]}
{"id": "C280", "title": "Identity of reconstructed planes", "statement": "The hash of a reconstructed plane identifies it: every plane that can be built has one, and two of them have the same one exactly when they are the same plane with the same errors.", "quantifier": "all strikes, dips, rakes, all numbers and values of angular errors and errors of the normal", "why_tests_cant": "pairs of planes are infinitely many; tests on a few planes see neither the missing collisions nor the planes that collide", "anchors": ["attitude/orientation/reconstructed.py:ReconstructedPlane.hash", "attitude/orientation/reconstructed.py:ReconstructedPlane.__init__", "attitude/orientation/base.py:hash_array"]}
{"id": "C281", "title": "Printed text of a fit", "statement": "Printing a fit shows its strike, dip, rake and smaller and larger angular error, each after its label, to half a hundredth of a degree and within the range of that angle, and never reverses the order of two numbers.", "quantifier": "all measurements with all their fits", "why_tests_cant": "fits are infinitely many, tests compare a few texts; rounding at the end of the range needs a value that a test does not meet", "anchors": ["attitude/orientation/pca.py:PCAOrientation.__repr__", "attitude/orientation/pca.py:PCAOrientation.strike_dip_rake", "attitude/orientation/pca.py:PCAOrientation.angular_errors"]}
{"id": "C282", "title": "Uncertainties of strike and dip of a linear orientation", "statement": "For a linear orientation, strike_dip(uncertainties=True) and dip_direction(uncertainties=True) return the angles they return without uncertainties, and with each angle, in the same place, its own uncertainty in degrees; the uncertainties are zero exactly if there is nothing to estimate them from or the points lie on the plane.", "quantifier": "all point arrays with a fit", "why_tests_cant": "the order and the size of two numbers show only beside a derivative of the angles; point arrays are infinitely many", "anchors": ["attitude/orientation/base.py:BaseOrientation.errors", "attitude/orientation/base.py:BaseOrientation.dip_direction", "attitude/orientation/linear/__init__.py:LinearOrientation.strike_dip", "attitude/orientation/base.py:BaseOrientation.standard_errors"]}
{"id": "C283", "title": "The line of horizontal directions", "statement": "The line that the stereonet draws with its labels goes once round through the positions of data in every horizontal direction, from north over west, south and east, and of no other data.", "quantifier": "all directions", "why_tests_cant": "directions are infinitely many; the line is given by five positions and drawn between them by the library", "anchors": ["frontend/packages/attitude/src/stereonet/labels.ts:__horizontalLine", "frontend/packages/attitude/src/stereonet/labels.ts:horizontalLine"]}
{"id": "C284", "title": "Inherited methods of orientations", "statement": "Everything that BaseOrientation offers (dip_direction, gradient, errors, rotated_covariance, standard_errors, error_ellipse, principal_axes, hash, center, centered_array, to_mapping, disabled) can be used with each class of orientations without an AttributeError.", "quantifier": "all classes of orientations, all attributes of the base class and all limits of recursion of at least ten", "why_tests_cant": "whether an attribute exists is decided by a chain of lookups at run time; tests of one class do not show the others", "anchors": ["attitude/orientation/base.py:BaseOrientation", "attitude/orientation/pca.py:PCAOrientation", "attitude/orientation/linear/__init__.py:LinearOrientation", "attitude/orientation/reconstructed.py:ReconstructedPlane"]}
{"id": "C285", "title": "Reducing angles in floating-point arithmetic", "statement": "fixAngle returns for every finite number a number between -Math.PI and Math.PI that differs from it by whole turns, but for rounding; numbers between these are returned as they are.", "quantifier": "all numbers in double precision", "why_tests_cant": "doubles are too many to try, and a test of a number for which a loop does not end does not end", "anchors": ["frontend/packages/attitude/src/hyperbola.ts:fixAngle"]}
{"id": "C286", "title": "Normalised vectors", "statement": "unit_vector of a vector that is not zero is the vector of length one with its direction, whether the vector is given as an array or by its components.", "quantifier": "all vectors of any number of components", "why_tests_cant": "the direction is compared for all vectors, and which of two functions of the same name is called depends on the whole module", "anchors": ["attitude/geom/util.py:unit_vector"]}
{"id": "C287", "title": "Augmented tensors", "statement": "augment_tensor of a square array transforms the first coordinates as the array does and leaves the others alone; it goes with products, inverses and determinants, and with the number of dimensions left out it acts on homogeneous coordinates. It fails exactly if fewer dimensions are asked for than the array has.", "quantifier": "all square arrays, of any size, and all numbers of dimensions; for failures also arrays that are not square", "why_tests_cant": "arrays of every size and all pairs of factors", "anchors": ["attitude/geom/util.py:augment_tensor"]}
{"id": "C288", "title": "Attitudes shown by plot_interactive", "statement": "plot_interactive shows every attitude it is given once and in order; it takes one attitude, or any collection of them, and raises if one of them cannot be shown.", "quantifier": "all lists of attitudes, of any length, and all values in their mappings", "why_tests_cant": "a value of one attitude can affect how all others are shown; all combinations matter", "anchors": ["attitude/display/nbextension.py:plot_interactive"]}
{"id": "C289", "title": "Angular error of one direction", "statement": "angular_error(length) is the angular error of a fit in a direction in its plane along which the data has that length: an acute angle, smaller for longer axes, equal to angular_errors for the axes of the fit, and the same in any unit of length.", "quantifier": "all data sets not in one plane, methods, confidence levels in [0, 1), lengths", "why_tests_cant": "no test calls the method; agreement and units are relations between results for all data sets", "anchors": ["attitude/orientation/pca.py:angular_error", "attitude/error/axes.py:axis_angular_error"]}
{"id": "C290", "title": "Distance of a fit from its group", "statement": "distance_from_group gives for each fit the angle between its plane and that of the group and the sum of their angular errors in the direction of that angle, whichever signs the decompositions gave to the axes.", "quantifier": "all fits with unit axes, singular values and errors", "why_tests_cant": "signs of axes depend on the linear algebra library", "anchors": ["attitude/__dustbin/__report/__init__.py:distance_from_group"]}
{"id": "C291", "title": "Axes of the error ellipse of a regression", "statement": "axes(matrix) gives, for the covariance of a regression, the half axes of the ellipse of errors of the slope: real numbers, the largest and the smallest standard error of the slope in any direction, between which the standard errors of the two coefficients are.", "quantifier": "all regressions of points not on a line in plan, all valid eigenvalue solvers", "why_tests_cant": "the extremes are over all directions, and the solver is free in its order", "anchors": ["attitude/orientation/linear/__init__.py:axes"]}
{"id": "C292", "title": "Elevations of the nearest cell", "statement": "nearest gives at every position, also outside of the array, the value of a cell whose centre is closest to it, and no value if that cell is masked. On an elevation model, with errors up to e, of a surface nowhere steeper than G the result is the elevation of the surface up to e plus G times half of the longer diagonal of a cell, and no smaller bound holds.", "quantifier": "all arrays and positions; every surface of bounded slope, every georeferencing (rotated or sheared), every size of the elevation model", "why_tests_cant": "Universal over positions and surfaces; the sharpness is over all georeferencings.", "anchors": ["attitude/helpers/interpolation.py:nearest"]}
{"id": "C293", "title": "Numbers typed into cells", "statement": "A decimal number typed into a cell of the sheet, with or without a sign, a fraction and a power of ten, and with blanks before and after it, is marked as valid and read as the number that is meant.", "quantifier": "all decimal numbers of any length, all exponents, any number of blanks", "why_tests_cant": "Universal over texts.", "anchors": ["frontend/packages/webapp/src/sheet.ts:getFieldData", "frontend/packages/webapp/src/app.ts:constructOrientation"]}
