{"id": "C01", "title": "ab_matrix realises the linear equations of motion", "statement": "For every mass matrix with non-zero determinant, the pair (A, B) returned by ab_matrix makes x' = A x + B u hold exactly when the first two states' rates are the last two states and M q'' + v C1 q' + (g K0 + v^2 K2) q = u.", "quantifier": "all 2x2 real M, C1, K0, K2 with det M != 0, all v, g, all states, rates and inputs", "why_tests_cant": "a statement over all real matrices and all trajectories; tests compare a handful of entries for one bicycle", "anchors": ["bicycleparameters/bicycle.py:ab_matrix"]}
{"id": "C02", "title": "eigenvalues of A are the roots of the Whipple characteristic polynomial, and reverse with the direction of travel", "statement": "lambda is an eigenvalue of the A matrix returned at speed v iff det(lambda^2 M + lambda v C1 + g K0 + v^2 K2) = 0; consequently lambda is an eigenvalue at speed v iff -lambda is one at speed -v.", "quantifier": "all M with det M != 0, all C1, K0, K2, v, g, all complex lambda", "why_tests_cant": "infinitely many speeds and matrices; numeric eigen-solvers only sample", "anchors": ["bicycleparameters/bicycle.py:ab_matrix"]}
{"id": "C03", "title": "canonical matrices have the Whipple structure", "statement": "benchmark_par_to_canonical returns symmetric M and K0, a K2 with zero first column and a C1 with zero (0,0) entry, and the result does not depend on g, v, IByy, IHyy or on any IRzz/IFzz the caller supplied.", "quantifier": "all parameter dictionaries holding the required keys", "why_tests_cant": "quantifies over all real parameter values and over pairs of dictionaries", "anchors": ["bicycleparameters/bicycle.py:benchmark_par_to_canonical"]}
{"id": "C04", "title": "the mass matrix is the kinetic energy of the four bodies", "statement": "For lateral speeds and angular rates produced by a roll rate and a steer rate (with the yaw rate c cos(lam)/w times the steer rate that keeps both contact points on the ground), (1/2) q'^T M q' equals the sum of the kinetic energies of rear wheel, frame, fork and front wheel; hence M is positive semidefinite whenever masses are non-negative and central inertias are positive semidefinite, and positive definite when moreover the inertia of one rear and one front body is positive definite, so ab_matrix is then never called with a singular M.", "quantifier": "all parameter values with w, mT, mA non-zero; all roll and steer rates", "why_tests_cant": "an identity over a 25-dimensional real parameter space", "anchors": ["bicycleparameters/bicycle.py:benchmark_par_to_canonical", "bicycleparameters/bicycle.py:ab_matrix"]}
{"id": "C05", "title": "canonical matrices depend on the bodies only through their mass moments", "statement": "Two parameter dictionaries with the same w, c, lam and the same gyrostatic coefficients IRyy/rR, IFyy/rF, whose four bodies together, and whose fork and front wheel together, have the same mass, first moments and second moments about the rear contact point, have the same M, C1, K0 and K2.", "quantifier": "all pairs of parameter dictionaries with equal totals", "why_tests_cant": "a relation between pairs of points of a continuous parameter space", "anchors": ["bicycleparameters/bicycle.py:benchmark_par_to_canonical"]}
{"id": "C06", "title": "benchmark_par_to_canonical leaves its argument as it was, except for IRzz and IFzz", "statement": "A call either raises KeyError naming a missing key, or succeeds; on success the caller's dictionary is afterwards equal to what it was except that IRzz = IRxx and IFzz = IFxx have been set (the caller sees two extra keys), and calling it again gives the same matrices and no further change.", "quantifier": "all dictionaries (any subset of keys, any values)", "why_tests_cant": "needs the frame condition for every other key and every missing-key pattern", "anchors": ["bicycleparameters/bicycle.py:benchmark_par_to_canonical"]}
{"id": "C07", "title": "sort_eigenmodes only picks (eigenvalue, eigenvector) pairs from the same row", "statement": "Every output row is as long as the input row, the first row is unchanged, and entry j of row i is some eigenvalue of input row i together with the eigenvector column of the same index.", "quantifier": "all numbers of speeds n >= 1, all numbers of modes m >= 1, all eigenvalues and eigenvectors", "why_tests_cant": "ranges over all sizes and all complex inputs; greedy index bookkeeping can go wrong only on rare inputs", "anchors": ["bicycleparameters/bicycle.py:sort_eigenmodes", "bicycleparameters/bicycle.py:sort_modes"]}
{"id": "C08", "title": "sort_eigenmodes returns a permutation of every row", "statement": "Each output row contains exactly the eigenvalues of the corresponding input row, with multiplicity: no mode is lost and none is duplicated.", "quantifier": "all numbers of speeds, all numbers of modes, all eigenvalue sets", "why_tests_cant": "failures need three modes competing for the same nearest neighbour, which nominal bicycle data does not show", "anchors": ["bicycleparameters/bicycle.py:sort_eigenmodes", "bicycleparameters/bicycle.py:sort_modes"]}
{"id": "C09", "title": "trail and mechanical trail describe the same steer axis", "statement": "For cos(lam) != 0, trail returns (c, cm) where the steer axis, which is tilted by lam and passes at signed perpendicular distance fo behind the front wheel centre, meets the ground a signed distance c ahead of the contact point, and |cm| is the perpendicular distance from the contact point to that axis.", "quantifier": "all rF, lam with cos(lam) != 0, fo", "why_tests_cant": "geometric identity over the reals", "anchors": ["bicycleparameters/bicycle.py:trail"]}
{"id": "C10", "title": "the steer axis tilt solves the wheel-offset equation", "statement": "Whenever lambda_from_abc's root finder returns a root, (a + b) sin(lam) = rF - rR + c cos(lam); such a root exists iff |rF - rR| <= sqrt((a+b)^2 + c^2); and for equal wheel radii the initial guess is already the root.", "quantifier": "all rF, rR, a, b, c with a + b != 0", "why_tests_cant": "existence of a root for a continuous family of equations", "anchors": ["bicycleparameters/bicycle.py:lambda_from_abc"]}
{"id": "C11", "title": "benchmark geometry reproduces the measured offsets", "statement": "The w, c, lam computed by calculate_benchmark_geometry from perpendicular offsets (a, b, c measured as h-values) put the front wheel centre at the measured fork offset from the steer axis and the rear wheel centre at the measured head offset from the steer axis.", "quantifier": "all measured values for which the tilt equation holds and cos(lam) != 0", "why_tests_cant": "identity over continuous measurements", "anchors": ["bicycleparameters/geometry.py:calculate_benchmark_geometry", "bicycleparameters/geometry.py:distance_to_steer_axis", "bicycleparameters/geometry.py:calculate_abc_geometry"]}
{"id": "C12", "title": "calculate_benchmark_geometry chooses its branch and copies exactly the documented keys", "statement": "The wheel radii are circumference-by-rotation values; when w is measured it is used as is, otherwise it is derived from the offsets; all other keys of the passed-in parameter dictionary are preserved; missing measurements raise KeyError.", "quantifier": "all measured dictionaries", "why_tests_cant": "decision logic over all subsets of keys", "anchors": ["bicycleparameters/geometry.py:calculate_benchmark_geometry"]}
{"id": "C13", "title": "point_to_line_distance is the minimum distance to the line", "statement": "The returned number is at most the distance from the point to every point of the line through the two given points, and is attained.", "quantifier": "all points in 3-space and all lines given by two distinct points", "why_tests_cant": "quantifies over every point of every line", "anchors": ["bicycleparameters/geometry.py:point_to_line_distance"]}
{"id": "C14", "title": "project_point_on_line returns the closest point of the line", "statement": "The result lies on the line y = m x + b given, is at least as close to the point as any other point of the line, and projecting it again changes nothing.", "quantifier": "all lines and points in the plane", "why_tests_cant": "quantifies over every point of every line", "anchors": ["bicycleparameters/geometry.py:project_point_on_line"]}
{"id": "C15", "title": "vec_angle is a symmetric, scale-invariant angle in [0, pi]", "statement": "For non-zero vectors, the value is in [0, pi], equals the value with arguments exchanged, is unchanged by positive rescaling of either argument, is 0 for parallel and pi for opposite vectors.", "quantifier": "all non-zero vectors of equal length", "why_tests_cant": "metamorphic law over all vectors", "anchors": ["bicycleparameters/geometry.py:vec_angle"]}
{"id": "C16", "title": "vec_project removes the component along a direction", "statement": "vec_project(vec, direction) returns a vector perpendicular to the direction whose difference from vec is parallel to it.", "quantifier": "all vectors, integer and array directions", "why_tests_cant": "the failing inputs are whole branches", "anchors": ["bicycleparameters/geometry.py:vec_project"]}
{"id": "C17", "title": "handlebar reference point geometry is rigid", "statement": "calculate_l1_l2 splits the measured hypotenuse into l1, l2 with l1^2 + l2^2 equal to it squared, and fwheel_to_handlebar_ref rotates (l1, l2) by the steer tilt without changing its length.", "quantifier": "all measured lengths for which the triangle exists and all tilts", "why_tests_cant": "identity over the reals", "anchors": ["bicycleparameters/geometry.py:calculate_l1_l2", "bicycleparameters/geometry.py:fwheel_to_handlebar_ref"]}
{"id": "C18", "title": "calc_two_link_angles closes the two-link chain", "statement": "The two returned angles place the end of the second link on the x axis at distance D from the base.", "quantifier": "all link lengths and distances satisfying the triangle inequality", "why_tests_cant": "the arccos/arcsin branch choice fails only on part of the domain", "anchors": ["bicycleparameters/geometry.py:calc_two_link_angles"]}
{"id": "C19", "title": "plotted geometry points lie on the steer axis", "statement": "In the points returned by fundamental_geometry_plot_data the steer-axis points are collinear on a line tilted by lam that meets the ground at x = w + c, and the wheel centres are at the wheel radii.", "quantifier": "all parameter sets with cos(lam) != 0", "why_tests_cant": "identity over the reals", "anchors": ["bicycleparameters/geometry.py:fundamental_geometry_plot_data"]}
{"id": "C20", "title": "parallel_axis obeys the parallel axis theorem", "statement": "The returned tensor is symmetric if the central one is, gives for every axis direction n the central value plus m times the squared distance between the axes, never decreases any moment of inertia for m >= 0, is unchanged by reversing the offset, and the offset-moved tensor of a two-part body is the sum of the parts'.", "quantifier": "all 3x3 tensors, masses, offsets, axis directions", "why_tests_cant": "all directions and offsets", "anchors": ["bicycleparameters/inertia.py:parallel_axis"]}
{"id": "C21", "title": "combine_bike_rider conserves mass, first moment and inertia", "statement": "After combine_bike_rider the frame B has the summed mass, the summed first moments and a central inertia whose value about the origin is the sum of both bodies' inertias about the origin.", "quantifier": "all bicycle and rider parameter values", "why_tests_cant": "false only for riders off the symmetry plane, which no test uses", "anchors": ["bicycleparameters/inertia.py:combine_bike_rider"]}
{"id": "C22", "title": "compound pendulum inertia inverts the pendulum period formula", "statement": "compound_pendulum_inertia returns the central inertia I for which a pendulum with mass m, arm l, gravity g has period T: T = 2 pi sqrt((I + m l^2)/(m g l)); it is non-negative iff T >= 2 pi sqrt(l/g).", "quantifier": "all positive m, g, l, T", "why_tests_cant": "inverse law over the reals", "anchors": ["bicycleparameters/inertia.py:compound_pendulum_inertia"]}
{"id": "C23", "title": "torsional pendulum calibration is exact on the calibration rod", "statement": "tor_inertia(torsional_pendulum_stiffness(I, T), T) = I, and inertia grows with the square of the period for a fixed stiffness.", "quantifier": "all I, all T != 0", "why_tests_cant": "inverse law over the reals", "anchors": ["bicycleparameters/inertia.py:tor_inertia", "bicycleparameters/inertia.py:torsional_pendulum_stiffness"]}
{"id": "C24", "title": "inertia_components recovers the tensor from three orientations", "statement": "If J_i is the inertia about the axis of a planar tensor (Ixx, Ixz, Izz) rotated by beta_i, with three orientations distinct modulo pi, inertia_components returns Ixx, Ixz, Izz exactly; with more orientations the least squares solution is the same tensor.", "quantifier": "all tensors, all sets of n >= 3 orientations not all congruent modulo pi to fewer than three values", "why_tests_cant": "inverse problem over continuous families and any n", "anchors": ["bicycleparameters/inertia.py:inertia_components"]}
{"id": "C25", "title": "rotating an inertia tensor about y preserves its invariants", "statement": "rotate_inertia_tensor keeps symmetry, trace, determinant, the yy entry; angle 0 is the identity; rotations compose by adding angles, so rotating back restores the tensor.", "quantifier": "all tensors and angles", "why_tests_cant": "group law over the reals", "anchors": ["bicycleparameters/inertia.py:rotate_inertia_tensor"]}
{"id": "C26", "title": "principal_axes returns sorted eigenpairs", "statement": "Given an eigen-decomposition of a tensor, the returned moments are in ascending order, row i of the returned axes matrix is the eigenvector belonging to moment i, and no pair is lost or duplicated.", "quantifier": "all tensors and all eigen-decompositions in any order", "why_tests_cant": "all orders of eigenpairs", "anchors": ["bicycleparameters/inertia.py:principal_axes"]}
{"id": "C27", "title": "tube_inertia is that of a physical hollow cylinder", "statement": "For 0 <= ri <= ro, m >= 0 the two moments are non-negative, satisfy the triangle inequality, are monotone in radius, and equal the solid cylinder's difference.", "quantifier": "all masses, lengths, radii", "why_tests_cant": "inequalities over the reals", "anchors": ["bicycleparameters/inertia.py:tube_inertia"]}
{"id": "C28", "title": "center_of_mass finds the common point of concurrent pendulum lines", "statement": "If all lines z = m x + b pass through one point and have pairwise different slopes, center_of_mass returns that point; in general it is the mean of the pairwise intersections; permuting the lines does not change the answer; two equal slopes or fewer than two lines make the call fail.", "quantifier": "all n >= 2 lines", "why_tests_cant": "unbounded number of lines and continuous parameters", "anchors": ["bicycleparameters/com.py:center_of_mass", "bicycleparameters/com.py:cartesian"]}
{"id": "C29", "title": "com_line is the pendulum axis through the reference point", "statement": "com_line(alpha, a, par, part, l1, l2) returns slope and intercept of the line with direction alpha at perpendicular offset a from the reference point of that part (rear wheel centre for B, front wheel centre for H and S, handlebar reference for G); other parts raise KeyError.", "quantifier": "all angles with non-vanishing slope denominators, offsets, parts", "why_tests_cant": "geometric identity over reals and case analysis over part names", "anchors": ["bicycleparameters/com.py:com_line", "bicycleparameters/com.py:part_com_lines"]}
{"id": "C30", "title": "total_com is the mass-weighted mean and is associative", "statement": "The total mass is the sum of the masses, total mass times centre is the sum of mass times centre per coordinate, and merging a sub-assembly first gives the same result as merging all bodies at once.", "quantifier": "all numbers of bodies, all positions, masses with non-zero totals", "why_tests_cant": "any number of bodies and any grouping", "anchors": ["bicycleparameters/com.py:total_com"]}
{"id": "C31", "title": "cartesian enumerates the cartesian product once, in order", "statement": "cartesian(arrays) has one row per element of the product, in lexicographic order of the input positions, for every number of arrays of any non-zero length; an empty first array makes it raise ValueError.", "quantifier": "all lists of non-empty arrays", "why_tests_cant": "recursion over any number of arrays", "anchors": ["bicycleparameters/com.py:cartesian"]}
{"id": "C32", "title": "principal-to-benchmark conversion preserves the physics", "statement": "_convert_principal_to_benchmark yields benchmark parameters with the same total mass, the same first moments and, in the symmetry plane, the same inertia about the origin of the rear and front assemblies as the bodies it merges, with IRzz = IRxx and IFzz = IFxx.", "quantifier": "all principal parameter values with non-zero assembly masses", "why_tests_cant": "identity over a continuous family", "anchors": ["bicycleparameters/conversions.py:_convert_principal_to_benchmark", "bicycleparameters/conversions.py:_sum_central_inertias", "bicycleparameters/conversions.py:_rotate_inertia_about_y"]}
{"id": "C33", "title": "a complete principal parameter set converts without error", "statement": "Whether a Moore2019 parameter dictionary converts to Meijaard2007 is decided by the presence of the keys it reads; a dictionary with just the documented Moore2019 parameters should convert. (It does not: yD, yH and yP are read but are not documented parameters.)", "quantifier": "all dictionaries accepted by the constructor", "why_tests_cant": "all subsets of optional keys", "anchors": ["bicycleparameters/conversions.py:_convert_principal_to_benchmark", "bicycleparameters/parameter_sets.py:Moore2019ParameterSet"]}
{"id": "C34", "title": "constructing a Bicycle uses saved parameters unless recalculation is needed or forced", "statement": "Bicycle(name) computes from raw data iff raw data exist and (forced, or no Benchmark parameters were found); otherwise it keeps loaded parameters; with no parameters and no raw data it raises; a parameter file whose name is not exactly two camel-case words raises ValueError.", "quantifier": "all directory contents and flag values", "why_tests_cant": "all combinations of directory contents and flags", "anchors": ["bicycleparameters/main.py:Bicycle.__init__"]}
{"id": "C35", "title": "save_parameters writes one loadable file per parameter set", "statement": "save_parameters writes the set p of bicycle b to <b><p>.txt; when one set is saved a new Bicycle(b) loads it unchanged. With several sets, all of them should load again. (They do not: the file name grows with each set, and the directory can no longer be loaded.)", "quantifier": "all numbers of parameter sets", "why_tests_cant": "the accumulating file name only shows with two or more sets", "anchors": ["bicycleparameters/main.py:Bicycle.save_parameters"]}
{"id": "C36", "title": "writing periods keeps every other line of the measured file", "statement": "For a measured file that ends in a newline, write_periods_to_file keeps all lines not starting with T in order and appends one line per period sorted by key; the file then loads to the same measurements plus the written periods; doing it twice changes nothing. Without a final newline the last line is merged with the first period.", "quantifier": "all measured files and period dictionaries", "why_tests_cant": "any file content; files without a trailing newline break it", "anchors": ["bicycleparameters/io.py:write_periods_to_file"]}
{"id": "C37", "title": "recalculating never loses a period that stays in use", "statement": "Every oscillation period that calculate_from_measured leaves in the in-memory Measured parameters is in the Measured file afterwards.", "quantifier": "all measured files and all sets of pendulum data files", "why_tests_cant": "needs partial sets of pendulum data", "anchors": ["bicycleparameters/main.py:Bicycle.calculate_from_measured", "bicycleparameters/io.py:write_periods_to_file", "bicycleparameters/period.py:calc_periods_for_files"]}
{"id": "C38", "title": "add_rider adds at most one rider, and only once", "statement": "Any sequence of add_rider calls leaves the bicycle with the first successfully added rider and its parameters; later calls change nothing.", "quantifier": "all sequences of calls and arguments", "why_tests_cant": "histories of calls", "anchors": ["bicycleparameters/main.py:Bicycle.add_rider"]}
{"id": "C39", "title": "steer_assembly_moment_of_inertia about the steer axis is the canonical I_A-lambda-lambda", "statement": "With handlebar, fork and front wheel included and steer-axis rotation requested, the zz entry of the returned tensor is the inertia of fork plus front wheel about the steer axis as used in the canonical mass matrix; missing parameters raise ValueError.", "quantifier": "all benchmark parameter values", "why_tests_cant": "identity over a continuous family", "anchors": ["bicycleparameters/main.py:Bicycle.steer_assembly_moment_of_inertia"]}
{"id": "C40", "title": "the parts listed for a parameter dictionary are exactly those with a mass key", "statement": "get_parts_in_parameters reports part X iff some key begins with mX, reports each part once when all mass keys have two characters, and raises IndexError iff there is a key m; is_fork_split holds iff some key of the measured dictionary has S as its first or second character.", "quantifier": "all parameter dictionaries", "why_tests_cant": "all key subsets", "anchors": ["bicycleparameters/main.py:is_fork_split", "bicycleparameters/main.py:get_parts_in_parameters"]}
{"id": "C41", "title": "flywheel and split-fork handling conserves mass and inertia", "statement": "When a fork and a handlebar are measured separately the reported H is their sum in mass, first moment and inertia; subtracting a flywheel D from a front wheel removes exactly the flywheel's mass and inertia.", "quantifier": "all measured values", "why_tests_cant": "identity over a continuous family", "anchors": ["bicycleparameters/main.py:calculate_benchmark_from_measured"]}
{"id": "C42", "title": "nominal=True strips uncertainties and changes nothing else", "statement": "For every bicycle, canonical(nominal=True) is the entrywise nominal value of canonical(nominal=False), both fail or succeed together and leave the stored parameters in the same state; any other value of nominal raises ValueError.", "quantifier": "all bicycles and speeds", "why_tests_cant": "all parameter values", "anchors": ["bicycleparameters/main.py:Bicycle.canonical", "bicycleparameters/main.py:Bicycle.state_space"]}
{"id": "C43", "title": "Bode phase curves are shifted by whole turns so that the first value is in [-180, 180]", "statement": "The phase alignment used in Bode comparison changes every phase value of a curve by the same multiple of 360 degrees and makes the first one lie between -180 and 180.", "quantifier": "all phase curves", "why_tests_cant": "loop termination and result for every real starting value", "anchors": ["bicycleparameters/main.py:Bicycle.compare_bode_speeds", "bicycleparameters/main.py:Bicycle.plot_bode"]}
{"id": "C44", "title": "parameters written to text load back unchanged", "statement": "Loading a written parameter dictionary gives a dictionary with the same keys in which every value is what its printed form reads back as; when printing loses nothing the same dictionary is obtained.", "quantifier": "all dictionaries with keys free of separators", "why_tests_cant": "round trip over all keys and values", "anchors": ["bicycleparameters/io.py:write_parameter_text_file", "bicycleparameters/io.py:load_parameter_text_file"]}
{"id": "C45", "title": "load_parameter_text_file handles every documented line", "statement": "Comment lines are skipped, comma separated values are averaged, the last of duplicated keys wins, the number of entries is the number of distinct keys; a blank line makes the call fail.", "quantifier": "all files", "why_tests_cant": "all files, any order of lines", "anchors": ["bicycleparameters/io.py:load_parameter_text_file"]}
{"id": "C46", "title": "declining to overwrite leaves the file unchanged", "statement": "write_parameter_text_file on an existing file keeps asking until y or n; after n the file is unchanged and the return value says it was not saved; after y it is replaced.", "quantifier": "all answer sequences", "why_tests_cant": "unbounded interactive histories", "anchors": ["bicycleparameters/io.py:write_parameter_text_file"]}
{"id": "C47", "title": "remove_uncertainties keeps keys and nominal values", "statement": "The result has the same keys in the same order, uncertain values replaced by their nominal values and all other values untouched; it is idempotent on dictionaries of scalars; on a sequence value a second application raises AttributeError.", "quantifier": "all dictionaries", "why_tests_cant": "all dictionaries", "anchors": ["bicycleparameters/io.py:remove_uncertainties"]}
{"id": "C48", "title": "space_out_camel_case splits concatenated capitalised words back", "statement": "Joining non-empty words, each a capital followed by lower-case letters, and spacing out the result gives the words separated by single spaces; removing the inserted spaces always gives the input back.", "quantifier": "all word lists; all strings", "why_tests_cant": "all strings", "anchors": ["bicycleparameters/io.py:space_out_camel_case"]}
{"id": "C49", "title": "pendulum file names parse to their fields", "statement": "filename_to_dict of <Bicycle><Part><Pendulum><AngleOrder digits><one trial digit>.<ext>, each name one camel-case word, returns the bicycle, part, pendulum, angle order and trial that were used to build the name.", "quantifier": "all bicycle names made of one camel-case word, all documented parts, trial digits", "why_tests_cant": "all names; multi-digit trials break", "anchors": ["bicycleparameters/io.py:filename_to_dict"]}
{"id": "C50", "title": "jac_fitfunc is the Jacobian of fitfunc", "statement": "Every component returned by jac_fitfunc is the partial derivative of the residual with respect to the matching parameter.", "quantifier": "all parameters with |zeta| < 1, all times", "why_tests_cant": "derivative at every real point", "anchors": ["bicycleparameters/period.py:jac_fitfunc", "bicycleparameters/period.py:fitfunc"]}
{"id": "C51", "title": "get_period's period is the period of the fitted oscillation", "statement": "With T = 2 pi/(w sqrt(1 - zeta^2)), shifting time by T scales the oscillating part of the fitted function by exp(-zeta w T), for every time; no smaller positive time does so unless the amplitude vanishes.", "quantifier": "all parameters with |zeta| < 1, w > 0, all times", "why_tests_cant": "quantifies over all times", "anchors": ["bicycleparameters/period.py:get_period", "bicycleparameters/period.py:fitfunc"]}
{"id": "C52", "title": "R^2 reported by fit_goodness", "statement": "SSE = SST - SSR as reported equals the residual sum of squares whenever the residuals are orthogonal to the fit and sum to zero, in which case 0 <= R^2 <= 1; in general it can differ.", "quantifier": "all data sets of any length", "why_tests_cant": "any number of samples", "anchors": ["bicycleparameters/period.py:fit_goodness"]}
{"id": "C53", "title": "check_for_period accepts exactly the documented numbers of periods", "statement": "The check reports that periods must be calculated iff there are fewer than 4 compound or 8 torsional period keys (5 and 11 for a split fork). A dictionary that passes the check should have all periods the calculation needs. (It need not: three orientations need 9, and 12 for a split fork.)", "quantifier": "all measured dictionaries", "why_tests_cant": "all key subsets", "anchors": ["bicycleparameters/period.py:check_for_period"]}
{"id": "C54", "title": "period keys identify the experiment", "statement": "get_period_key maps each (part, pendulum, angle order) to its key, distinct experiments get distinct keys, and unknown parts raise KeyError.", "quantifier": "all parts, pendulums, angle orders", "why_tests_cant": "injectivity over all orders", "anchors": ["bicycleparameters/period.py:get_period_key"]}
{"id": "C55", "title": "trial periods are averaged per experiment", "statement": "calc_periods_for_files returns one period per experiment, the mean over its trials, whatever order the files are listed in.", "quantifier": "all lists of files", "why_tests_cant": "any number and order of files", "anchors": ["bicycleparameters/period.py:calc_periods_for_files"]}
{"id": "C56", "title": "select_good_data returns a contiguous slice of the samples", "statement": "The returned data is the tail of the data after dropping the first part up to the threshold crossing; if data never exceeds the threshold the call fails.", "quantifier": "all data sets and percentages", "why_tests_cant": "any length", "anchors": ["bicycleparameters/period.py:select_good_data"]}
{"id": "C57", "title": "table variable list is the sorted union of the parameters", "statement": "The list of variables is duplicate free, sorted case-insensitively and contains exactly the keys present in some bicycle.", "quantifier": "all numbers of bicycles and dictionaries", "why_tests_cant": "any number of bicycles", "anchors": ["bicycleparameters/tables.py:Table.generate_variable_list"]}
{"id": "C58", "title": "every table row has one name and two cells per bicycle", "statement": "generate_table_data yields, per variable, 1 + 2 n cells, with N/A pairs for bicycles lacking the variable.", "quantifier": "all numbers of bicycles and variables", "why_tests_cant": "any number of bicycles", "anchors": ["bicycleparameters/tables.py:Table.generate_table_data"]}
{"id": "C59", "title": "create_rst_table can be called repeatedly", "statement": "A second call on the same Table returns the same text; all lines of a table have equal width.", "quantifier": "all tables", "why_tests_cant": "histories of calls", "anchors": ["bicycleparameters/tables.py:Table.create_rst_table"]}
{"id": "C60", "title": "uround never fails for a finite uncertain value", "statement": "uround returns a string for every value with finite nominal value and uncertainty.", "quantifier": "all values", "why_tests_cant": "rare ranges of uncertainty crash", "anchors": ["bicycleparameters/tables.py:uround"]}
{"id": "C61", "title": "a parameter set accepts exactly complete float dictionaries", "statement": "The constructor succeeds iff every parameter of the class is present and its value is a float; otherwise ValueError; extra keys are kept. (A dictionary with exactly the keys documented for the Meijaard2007 classes is refused.)", "quantifier": "all dictionaries", "why_tests_cant": "all key subsets and value types", "anchors": ["bicycleparameters/parameter_sets.py:ParameterSet._check_parameters"]}
{"id": "C62", "title": "to_parameterization preserves shared parameters or raises ValueError", "statement": "Converting to a set's own parameterization returns the same set; Meijaard2007 to Meijaard2007WithFeedback sets the eight gains to zero and changes nothing else; conversion to Moore2012 keeps speed and rider flag; every returned set is valid and of the class asked for; unknown names raise ValueError; the advertised conversions do not raise. (Moore2019 to Meijaard2007WithFeedback always raises, Moore2019 to Meijaard2007 raises KeyError unless yD, yP, yH are present.)", "quantifier": "all parameter sets and names", "why_tests_cant": "all parameter values", "anchors": ["bicycleparameters/parameter_sets.py:ParameterSet.to_parameterization", "bicycleparameters/parameter_sets.py:Moore2019ParameterSet.to_parameterization", "bicycleparameters/parameter_sets.py:Meijaard2007ParameterSet.to_parameterization"]}
{"id": "C63", "title": "YAML save and load round trip", "statement": "Loading a saved parameter set gives an equal parameter set of the same class, including whether it includes a rider.", "quantifier": "all parameter sets", "why_tests_cant": "all values and classes", "anchors": ["bicycleparameters/parameter_sets.py:ParameterSet.to_yaml", "bicycleparameters/parameter_sets.py:ParameterSet._from_yaml"]}
{"id": "C64", "title": "mass_center_of and form_mass_center_vector are consistent", "statement": "form_mass_center_vector returns the centre of each body whatever extra keys are stored; mass_center_of returns that of one body and the mass-weighted mean of several, in any order; a converted Moore2019 set has the same mass centres; form_inertia_tensor returns each body's central tensor.", "quantifier": "all parameter sets, all tuples of bodies", "why_tests_cant": "any grouping of bodies", "anchors": ["bicycleparameters/parameter_sets.py:Meijaard2007ParameterSet.mass_center_of", "bicycleparameters/parameter_sets.py:Moore2019ParameterSet.mass_center_of", "bicycleparameters/parameter_sets.py:Meijaard2007ParameterSet.form_inertia_tensor"]}
{"id": "C65", "title": "parameter overrides never touch the stored parameter set", "statement": "Evaluating a model with overrides leaves its parameter set unchanged, uses the override for each known key and the stored value for all others, ignores unknown keys, and raises ValueError when two array overrides differ in length.", "quantifier": "all override dictionaries", "why_tests_cant": "all subsets of keys, all lengths", "anchors": ["bicycleparameters/models.py:_Model._parse_parameter_overrides"]}
{"id": "C66", "title": "array evaluation is pointwise scalar evaluation", "statement": "For overrides with arrays of length n, slice i of every returned matrix equals the matrix obtained with the i-th scalar values.", "quantifier": "all array lengths, all override subsets", "why_tests_cant": "any length and key subset", "anchors": ["bicycleparameters/models.py:Meijaard2007Model.form_reduced_canonical_matrices", "bicycleparameters/models.py:Meijaard2007Model.form_state_space_matrices"]}
{"id": "C67", "title": "state feedback closes the loop as A - B K", "statement": "The feedback model's A equals the open-loop A minus B K for the eight gains; with all gains zero it is the open-loop model.", "quantifier": "all gains, parameters, speeds", "why_tests_cant": "all real gains", "anchors": ["bicycleparameters/models.py:Meijaard2007WithFeedbackModel.form_state_space_matrices"]}
{"id": "C68", "title": "simulation and gain plots reject what they cannot handle", "statement": "simulate and simulate_modes raise ValueError when any override of a parameter is an array; plot_gains raises ValueError iff no parameter other than the gains is swept, and otherwise draws the eight gains against the first such parameter; nothing is changed.", "quantifier": "all override dictionaries", "why_tests_cant": "all subsets", "anchors": ["bicycleparameters/models.py:_Model.simulate", "bicycleparameters/models.py:_Model.plot_gains"]}
{"id": "C69", "title": "the rider lean model feeds each parameter to its slot", "statement": "The 36 parameters are passed to the generated evaluator in the order it reads them, and the returned A and B are the generated matrices with the ignorable coordinate's and unused input's rows and columns removed.", "quantifier": "all parameter values", "why_tests_cant": "slot errors only show for parameters that happen to be equal in tests", "anchors": ["bicycleparameters/models.py:MooreRiderLean2012Model", "bicycleparameters/_mooreriderlean2012.py:eval_linear"]}
{"id": "C70", "title": "the generated evaluator never reads uninitialised memory", "statement": "eval_linear assigns every intermediate exactly once and before reading it, and every entry of the matrices it returns: with any arithmetic the result is a function of the arguments alone, and not of q1, q2; D is zero, torques act on speeds only, the rates of q4, q6, q7, q9 are u4, u6, u7, u9, and C lists the coordinates and the rows of A.", "quantifier": "all 5031 intermediates and all matrix entries, for all inputs", "why_tests_cant": "uninitialised reads give plausible numbers run by run", "anchors": ["bicycleparameters/_mooreriderlean2012.py:eval_linear"]}
{"id": "C71", "title": "rider vectors are rotated rigidly into the bicycle frame", "statement": "yeadon_vec_to_bicycle_vec is an isometry: it preserves distances, dot products and orientation, and maps the Yeadon origin to the given point.", "quantifier": "all vectors and origins", "why_tests_cant": "all vectors", "anchors": ["bicycleparameters/rider.py:yeadon_vec_to_bicycle_vec"]}
{"id": "C72", "title": "the rider configuration is left-right symmetric and meets the constraints", "statement": "The residual given to the solver is zero for some auxiliary unknowns iff, seen from the side, the foot is at the bottom bracket, the left hand is at the handlebar (half its width to the side, LhbR from the rear and LhbF from the front hub) and the elbow axis is horizontal; when the solver finds a zero, the returned configuration puts both feet and both hands there, left and right mirroring each other. (A solver that did not converge goes unnoticed.)", "quantifier": "all bicycles and riders for which the solver converges", "why_tests_cant": "all real configurations", "anchors": ["bicycleparameters/rider.py:rider_on_bike"]}
{"id": "C73", "title": "the app shows each figure in its own place", "statement": "The geometry figure is sent to the geometry graph and the eigenvalue figure to the eigenvalue graph for every input. (They are exchanged.)", "quantifier": "all inputs of the callback", "why_tests_cant": "UI callback outputs are never asserted", "anchors": ["bicycleparameters/app.py:plot_update"]}
{"id": "C74", "title": "parameters shown in the app tables round-trip to the model", "statement": "The parameter values read back from the tables equal the parameters that were used to fill them. (The steer axis tilt loses its decimals in degrees; all others are kept.)", "quantifier": "all parameter sets", "why_tests_cant": "truncation only shows for non-integer degrees", "anchors": ["bicycleparameters/app.py:populate_wheel_data", "bicycleparameters/app.py:new_par"]}
{"id": "C75", "title": "plotted ellipses of inertia are ellipses with the given semi-axes", "statement": "Every point of the plotted curve satisfies the ellipse equation with the given centre, semi-axes and orientation.", "quantifier": "all centres, radii, angles and parameters along the curve", "why_tests_cant": "all points of the curve", "anchors": ["bicycleparameters/plot.py:_generate_ellipse_plot_data"]}
{"id": "C76", "title": "a stationary bicycle is unstable", "statement": "At zero speed, every physical bicycle whose mass centre is above the ground has a real positive eigenvalue, so it falls over.", "quantifier": "all parameter dictionaries with a physical mass matrix", "why_tests_cant": "all real parameter values", "anchors": ["bicycleparameters/bicycle.py:ab_matrix"]}
{"id": "C77", "title": "part_com_lines returns one line per measured orientation of every part", "statement": "For every part, the dictionary of centre of mass lines holds exactly one line for every alpha key of that part, in ascending key order, each being the com_line of that alpha and the matching a key; the wheels get no entry.", "quantifier": "all measured parameter dictionaries", "why_tests_cant": "any number of orientations and parts", "anchors": ["bicycleparameters/com.py:part_com_lines"]}
{"id": "C78", "title": "loaded pendulum files hold only the useful entries", "statement": "The dictionary loaded from a pendulum .mat file lacks the three metadata keys, holds single strings and numbers instead of nested arrays, and keeps every other entry.", "quantifier": "all .mat dictionaries", "why_tests_cant": "all key sets", "anchors": ["bicycleparameters/io.py:load_pendulum_mat_file"]}
{"id": "C79", "title": "sample times are multiples of the sampling period", "statement": "The i-th sample time used for fitting is i / rate for every sampling rate and length, and get_sample_rate returns ActualRate when it is stored and sampleRate otherwise.", "quantifier": "all rates and lengths", "why_tests_cant": "any number of samples", "anchors": ["bicycleparameters/period.py:get_period", "bicycleparameters/period.py:get_sample_rate"]}
{"id": "C80", "title": "each orientation is paired with its own torsional period", "statement": "The orientation angle measured in the i-th orientation of a part is paired with the torsional period of the i-th orientation.", "quantifier": "all numbers of orientations", "why_tests_cant": "pairing errors need ten orientations or a gap in the numbering", "anchors": ["bicycleparameters/main.py:calculate_benchmark_from_measured"]}
{"id": "C81", "title": "measuring a bicycle and computing its parameters gives the bicycle back", "statement": "If the measured angles, distances and periods are those produced by rigid bodies with given mass, mass centre and inertia tensor, calculate_benchmark_from_measured returns exactly these masses, mass centres and inertia components.", "quantifier": "all rigid bodies, all sets of at least three distinct orientations", "why_tests_cant": "all real physical parameters and orientations", "anchors": ["bicycleparameters/main.py:calculate_benchmark_from_measured"]}
{"id": "C82", "title": "the inertia ellipse is drawn in the plane of the bicycle", "statement": "The principal axis dropped when drawing the ellipse of inertia of a part is the lateral axis, so that the two others span the symmetry plane.", "quantifier": "all inertia tensors symmetric about the plane of the bicycle", "why_tests_cant": "depends on the order and sign of the eigenvectors", "anchors": ["bicycleparameters/main.py:Bicycle.plot_bicycle_geometry"]}
{"id": "C83", "title": "the lines drawn in the geometry plot are the measured ones", "statement": "The drawn steer axis meets the ground at x = w + c, and each drawn pendulum segment lies on its measured line, is centred on the point of the line closest to the part's mass centre and has the chosen length.", "quantifier": "all geometries and lines", "why_tests_cant": "all real parameters", "anchors": ["bicycleparameters/main.py:Bicycle.plot_bicycle_geometry"]}
{"id": "C84", "title": "the model is the linearised mechanics of four rigid bodies", "statement": "For every bicycle rolling without slip at constant speed, small roll and steer motions satisfy the equations with the matrices returned by benchmark_par_to_canonical, and the state equation with those of ab_matrix, iff the moments of inertia, gyroscopic, gravity and ground forces on rear wheel, rear frame, front frame and front wheel balance about the heading line, the vertical and the steer axis.", "quantifier": "all parameter dictionaries, all twice differentiable rolling motions, all speeds and torques", "why_tests_cant": "all real parameters and motions; unit tests compare with one published bicycle", "anchors": ["bicycleparameters/bicycle.py:benchmark_par_to_canonical", "bicycleparameters/bicycle.py:ab_matrix"]}
{"id": "C85", "title": "LaTeX names of variables are unambiguous", "statement": "to_latex returns a form for every documented variable name, with any part letter and any number of orientations, and different names never share a form.", "quantifier": "all documented names and numbers of orientations", "why_tests_cant": "all pairs of names; collisions appear only for two digit orientations", "anchors": ["bicycleparameters/tables.py:to_latex"]}
{"id": "C86", "title": "parameter labels tell parameters apart", "statement": "The LaTeX labels of a parameter set class are pairwise different, so that a rendered table names each parameter unambiguously. (They are not for the two Moore2012 classes.)", "quantifier": "all classes and all pairs of their parameters", "why_tests_cant": "needs every pair of labels of every class", "anchors": ["bicycleparameters/parameter_sets.py:ParameterSet.par_strings"]}
{"id": "C87", "title": "INI files and HTML tables hold the parameter values", "statement": "to_ini writes one line name=value per parameter in dictionary order, the value being a decimal with 16 places within 5e-17 of the stored one; the HTML table has one row per parameter of the class with its label and its value to 3 decimals.", "quantifier": "all parameter dictionaries", "why_tests_cant": "values range over all floats; small ones lose all digits", "anchors": ["bicycleparameters/parameter_sets.py:ParameterSet.to_ini", "bicycleparameters/parameter_sets.py:ParameterSet._repr_html_"]}
{"id": "C88", "title": "drawn radii of gyration and inertia ellipses represent the inertia tensor", "statement": "The principal radii of gyration and the angle computed for a body reproduce its inertia tensor; half the body's mass at each end of the two drawn lines has the body's moment about every in-plane axis; the drawn ellipse is the outline of the uniform solid ellipsoid with the body's moments. (The ellipse is drawn at half that size.)", "quantifier": "all symmetric inertia tensors with non-negative moments, all masses, all in-plane axes", "why_tests_cant": "continuous families of tensors; eigenvectors are only determined up to sign", "anchors": ["bicycleparameters/parameter_sets.py:Meijaard2007ParameterSet._planar_principal_radii_of_gyration", "bicycleparameters/parameter_sets.py:Meijaard2007ParameterSet.plot_body_principal_inertia_ellipsoid", "bicycleparameters/parameter_sets.py:Meijaard2007ParameterSet.plot_body_principal_radii_of_gyration"]}
{"id": "C89", "title": "the drawn person is a rhombus around the mass centre", "statement": "plot_person_diamond draws a closed rhombus centred at the person's mass centre with diagonals wP along the principal axis at angle alphaP and lP perpendicular to it.", "quantifier": "all centres, widths, lengths and angles", "why_tests_cant": "continuous families", "anchors": ["bicycleparameters/parameter_sets.py:Moore2019ParameterSet.plot_person_diamond"]}
{"id": "C90", "title": "the drawn bicycle stands on the ground and its steer axis is the steer axis", "statement": "The wheel circles have the stored radii and touch the ground line exactly at the contact points; the dashed line lies on the steer axis and ends where the axis meets the ground, c ahead of the front contact point. (It starts at the foot of the perpendicular from the wheel centre, not at the wheel centre as documented.)", "quantifier": "all wheelbases, trails, tilts and radii", "why_tests_cant": "continuous families", "anchors": ["bicycleparameters/parameter_sets.py:_plot_geometry_from_benchmark"]}
{"id": "C91", "title": "simulating leaves the caller's arrays unchanged", "statement": "simulate, simulate_modes and plot methods change neither the parameter set nor the arrays passed to them. (MooreRiderLean2012Model.simulate overwrites entry 9 of the caller's initial conditions with -v/rr, even when it then raises.)", "quantifier": "all models, parameter sets, overrides, times, initial conditions and input functions", "why_tests_cant": "needs all histories of calls sharing one array", "anchors": ["bicycleparameters/models.py:_Model.simulate", "bicycleparameters/models.py:MooreRiderLean2012Model.simulate"]}
{"id": "C92", "title": "plot_eigenvectors draws the eigenvectors of each eigenvalue", "statement": "Each polar plot is titled with an eigenvalue and shows the angles and relative magnitudes of the components of its eigenvector, for each value of a swept parameter. (True for fixed parameters; with a sweep the axes of the array are transposed and wrong components are drawn.)", "quantifier": "all models, parameter sets, and sweeps of up to ten values", "why_tests_cant": "needs every number of states and sweep values; a symmetric or small example hides the transposition", "anchors": ["bicycleparameters/models.py:_Model.plot_eigenvectors"]}
{"id": "C93", "title": "modal controllability is the angle between left eigenvectors and input columns", "statement": "For each swept value, mode and input calc_modal_controllability returns arccos of |Re(q^H b)| / (|q| |b|), zero iff the two are parallel and pi/2 iff they are orthogonal, in [0, pi/2] when acute. (The number depends on the phase in which eig returns the left eigenvector, and a call without arrays raises TypeError.)", "quantifier": "all models, overrides and eigenvector normalizations", "why_tests_cant": "eigenvectors are determined up to a complex factor: all phases have to be considered", "anchors": ["bicycleparameters/models.py:Meijaard2007Model.calc_modal_controllability"]}
{"id": "C94", "title": "mode simulations follow the exponentials of the eigenvalues", "statement": "Row i of simulate_modes is Re(exp(lambda_i (t - t0)) v_i) at the given times, with the i-th eigenvalue and eigenvector of calc_eigen.", "quantifier": "all models, parameters and times between the first and the last one, an exact solver and correct eigenpairs", "why_tests_cant": "a statement about solutions of differential equations for all matrices", "anchors": ["bicycleparameters/models.py:_Model.simulate_modes"]}
{"id": "C95", "title": "eigenvalue plots show the eigenvalues and shade the stable values", "statement": "For each swept value plot_eigenvalue_parts draws the real and the absolute imaginary part of each eigenvalue and shades the values at which all real parts are non-positive; sorting only permutes the modes at each value; without a sweep it raises. (The shading is computed from the sorted modes, where a sorted row may contain one eigenvalue twice, so that an unstable value may be shaded.)", "quantifier": "all models, sweeps and options", "why_tests_cant": "whether a sorted row is a permutation depends on the whole history of the sweep", "anchors": ["bicycleparameters/models.py:_Model.plot_eigenvalue_parts"]}
{"id": "C96", "title": "calc_eigen is pointwise and its left eigenvectors are left eigenvectors", "statement": "Position i of the result of calc_eigen belongs to the state matrix with the i-th value of every swept parameter; with left=True the vectors are left eigenvectors and the eigenvalues are the same up to their order.", "quantifier": "all models, parameter sets, overrides and state matrices", "why_tests_cant": "all matrices and sweeps", "anchors": ["bicycleparameters/models.py:_Model.calc_eigen"]}
{"id": "C97", "title": "simulate integrates the linear equations of motion", "statement": "The states returned by simulate are the values at the given times of the solution of x' = A x + B u(t, x) that starts at the initial conditions, with A and B of the overridden parameters, and the returned inputs are u(t, x(t)), zero without an input function; empty times or the wrong number of initial conditions raise.", "quantifier": "all models, overrides without arrays, times, initial conditions and input functions, an exact solver", "why_tests_cant": "a statement about solutions of differential equations for all matrices and input functions", "anchors": ["bicycleparameters/models.py:_Model.simulate"]}
{"id": "C98", "title": "the rider's parameters are the mass properties of the rotated human", "statement": "For a human made of any masses, configure_rider's rider dictionary holds their total mass, their mass centre and their central moments of inertia computed from the positions that yeadon_vec_to_bicycle_vec gives them in the bicycle frame; the bicycle's dictionary changes only in the rear frame's entries, and for a mass centre in the symmetry plane the new rear frame has the moments of bicycle frame and rider together.", "quantifier": "all mass distributions, bicycles and measurements", "why_tests_cant": "all tensors and positions; a symmetric example hides swapped axes", "anchors": ["bicycleparameters/rider.py:configure_rider"]}
{"id": "C99", "title": "the app's eigenvalue figure covers the slider's speed range", "statement": "The speeds are equally spaced, lie within the slider's bounds, include both when these are at least 0.2 apart, and there are floor(10 (hi - lo)) of them, none when the bounds coincide.", "quantifier": "all slider positions", "why_tests_cant": "all pairs of bounds", "anchors": ["bicycleparameters/app.py:plot_update"]}
{"id": "C100", "title": "the rider lean matrices do not depend on the units", "statement": "For every configuration and parameter set, expressing all masses, lengths and times in other units changes each entry of the matrices eval_linear returns by exactly the factor of its own dimension.", "quantifier": "all configurations, speeds, torques, parameters and all changes of units", "why_tests_cant": "a wrong term in one of 5000 intermediates gives plausible numbers in SI units", "anchors": ["bicycleparameters/_mooreriderlean2012.py:eval_linear"]}
{"id": "C101", "title": "the mirror image of a rider lean motion is a motion", "statement": "Reversing lateral position, yaw, roll, steer, lean, their rates and torques changes the sign of exactly those entries of the matrices eval_linear returns that link a lateral with a longitudinal quantity.", "quantifier": "all configurations, speeds, torques and parameters", "why_tests_cant": "tests evaluate one configuration", "anchors": ["bicycleparameters/_mooreriderlean2012.py:eval_linear"]}
{"id": "C102", "title": "a rider lean motion run backwards is a motion", "statement": "Reversing the speeds and the sign of the lean damping reverses the rates of the coordinates and leaves those of the speeds; at rest without damping no acceleration depends on a speed.", "quantifier": "all configurations, speeds, torques and parameters", "why_tests_cant": "tests evaluate one configuration", "anchors": ["bicycleparameters/_mooreriderlean2012.py:eval_linear"]}
{"id": "C103", "title": "riding upright, lateral and forward motion are decoupled and the pitch is constant", "statement": "At zero lateral coordinates, speeds and torques, for every pitch, speed and parameter set, the entries linking lateral with longitudinal quantities are zero, the row of the pitch is zero so that form_state_space_matrices may leave it out, and the wheel acceleration depends on no speed.", "quantifier": "all speeds, pitch angles and parameters", "why_tests_cant": "tests look at one bicycle", "anchors": ["bicycleparameters/_mooreriderlean2012.py:eval_linear", "bicycleparameters/models.py:MooreRiderLean2012Model.form_state_space_matrices"]}
{"id": "C104", "title": "the rider lean model is the linearised Newton-Euler motion of five bodies", "statement": "For all stored parameters and keyword arguments, each slice (A, B) returned by MooreRiderLean2012Model.form_state_space_matrices describes exactly the small motions about upright riding at speed v of rear wheel, rear frame, front frame, front wheel and leaning rider: x' = A x + B u holds iff the wheels roll without slipping and the moments about the roll, yaw, steer and lean axes are balanced, with weight, ground forces, gyroscopic moments, the rider's spring and damper and the three torques.", "quantifier": "all parameter sets describing a standing bicycle with inertia, all speeds, all motions and torques", "why_tests_cant": "the 11000 generated lines are compared with one published matrix only", "anchors": ["bicycleparameters/models.py:MooreRiderLean2012Model.form_state_space_matrices", "bicycleparameters/_mooreriderlean2012.py:eval_linear"]}
{"id": "C105", "title": "the rider lean model at rest neither creates nor loses energy", "statement": "At v = 0 there is a quadratic potential such that in every motion of the rider lean model kinetic energy plus potential changes exactly by the power of the torques minus what the rider's damper dissipates.", "quantifier": "all parameter sets, all motions and torques", "why_tests_cant": "needs all motions", "anchors": ["bicycleparameters/models.py:MooreRiderLean2012Model.form_state_space_matrices", "bicycleparameters/_mooreriderlean2012.py:eval_linear"]}
{"id": "C106", "title": "with the rider not leaning, the rider lean model is the Whipple model", "statement": "If the lean angle stays zero, roll and steer of the rider lean model satisfy the state space equations of ab_matrix with the canonical matrices of benchmark_par_to_canonical for benchmark parameters of the same bicycle with the rider attached to the rear frame.", "quantifier": "all pairs of parameter sets of the same bicycle, all speeds, all motions without lean", "why_tests_cant": "the two models are never compared in the tests", "anchors": ["bicycleparameters/models.py:MooreRiderLean2012Model.form_state_space_matrices", "bicycleparameters/_mooreriderlean2012.py:eval_linear", "bicycleparameters/bicycle.py:benchmark_par_to_canonical", "bicycleparameters/bicycle.py:ab_matrix"]}
{"id": "C107", "title": "Bicycle.eig returns the modes of the motion at each speed", "statement": "For a complete Benchmark set, Bicycle.eig(speeds) returns one set of four eigenvalues and eigenvectors for each speed, in the order given: each column is (q, lambda q) with q nonzero satisfying (lambda^2 M + lambda v C1 + g K0 + v^2 K2) q = 0, and the four eigenvalues are the roots of the determinant with multiplicity. A float is treated as a list of one speed; an int never works.", "quantifier": "all complete Benchmark sets with an invertible mass matrix, all lists of speeds, every correct numpy.linalg.eig", "why_tests_cant": "all bicycles and speeds", "anchors": ["bicycleparameters/main.py:Bicycle.eig", "bicycleparameters/bicycle.py:ab_matrix"]}
{"id": "C108", "title": "the shaded range of speeds is the range of self-stable speeds", "statement": "The interactive figure of the eigenvalues over speed shows, at each sampled speed in increasing order, real parts and absolute imaginary parts of eigenvalues of that speed. Every sampled speed at which the bicycle is self-stable lies in the shaded range, and the bicycle is self-stable at every sampled speed in the shaded range; if no sampled speed is self-stable the figure says so.", "quantifier": "all bicycles, all lists of speeds", "why_tests_cant": "needs all bicycles: the self-stable speeds of a physical bicycle need not be an interval", "anchors": ["bicycleparameters/main.py:Bicycle._plot_eigenvalues_vs_speed_plotly", "bicycleparameters/bicycle.py:sort_modes"]}
{"id": "C109", "title": "plot_eigenvalues_vs_speed draws exponents of the motion at their own speed", "statement": "The abscissae are the given speeds in increasing order. With largest=True the curve is the largest real part of an exponent of the motion at that speed, so that it is negative exactly where the bicycle is self-stable. Otherwise there are four modes, each a sequence of exponents at the respective speeds, whose absolute imaginary parts and real parts are drawn under the labels weave, weave, capsize and caster; at the lowest speed they are all exponents.", "quantifier": "all bicycles, all non-empty lists of speeds, every correct numpy.linalg.eig", "why_tests_cant": "all bicycles and speeds", "anchors": ["bicycleparameters/main.py:Bicycle.plot_eigenvalues_vs_speed", "bicycleparameters/bicycle.py:sort_modes"]}
{"id": "C110", "title": "plot_bode shows the frequency response of the bicycle", "statement": "The system Bicycle.plot_bode hands to control.bode has at every frequency w the response y of the equations of motion: with q exp(i w t) the answer to a unit torque on the roll or steer axis, it is the roll angle, steer angle, roll rate or steer rate of that motion. It is unique where i w is no exponent of the motion.", "quantifier": "all complete Benchmark sets, speeds, frequencies, inputs and outputs", "why_tests_cant": "all bicycles, speeds and frequencies", "anchors": ["bicycleparameters/main.py:Bicycle.plot_bode", "bicycleparameters/main.py:Bicycle.state_space"]}
{"id": "C111", "title": "plot_mode_simulations draws every state of every mode", "statement": "One row of panels for each mode shown, titled with its eigenvalue; in each row the trajectories Re(exp(lambda (t - t0)) v) of all states, each once, in the panel of its unit and under its own name, angles in degrees. Modes are hidden only by hide_zeros.", "quantifier": "all models, parameters without arrays, times, eigenvalues, tolerances", "why_tests_cant": "all models and parameters", "anchors": ["bicycleparameters/models.py:_Model.plot_mode_simulations", "bicycleparameters/models.py:MooreRiderLean2012Model.state_units"]}
{"id": "C112", "title": "plot_simulation draws every input and state once under its name", "statement": "Meijaard2007Model.plot_simulation and MooreRiderLean2012Model.plot_simulation draw each input and each state trajectory returned by simulate exactly once with its own label, angles and rates in degrees; errors of simulate are passed on. The rider lean model starts with entry 9 of the initial conditions replaced by -v/rr and leaves it so in the caller's array.", "quantifier": "all parameters, times, initial conditions, inputs and solvers", "why_tests_cant": "all trajectories", "anchors": ["bicycleparameters/models.py:Meijaard2007Model.plot_simulation", "bicycleparameters/models.py:MooreRiderLean2012Model.plot_simulation"]}
{"id": "C113", "title": "save_parameters with a rider writes the rider's two files and nothing else", "statement": "After add_rider, save_parameters writes <rider><bicycle>Benchmark.txt with the rider's parameters into the rider's Parameters directory and with those of bicycle and rider into its sub-directory Combined, asking before it overwrites; no other file changes. A later add_rider without recalculation finds exactly these values. Without a rider only the bicycle's own directory changes; Matlab and pickle are not implemented, unknown file types are silently ignored.", "quantifier": "all riders, bicycles, sequences of add_rider, file contents and answers", "why_tests_cant": "all directory contents and histories", "anchors": ["bicycleparameters/main.py:Bicycle.save_parameters", "bicycleparameters/main.py:Bicycle.add_rider", "bicycleparameters/main.py:Bicycle.__str__"]}
{"id": "C114", "title": "get_period returns the period at the least-squares fit with the propagated standard deviation", "statement": "With at least eleven samples, and a local minimum p of the sum of squared differences found by leastsq, get_period returns the period of the decaying oscillation with the parameters p and a standard deviation whose square is the residual variance (n - 5 degrees of freedom) times the sum over damping ratio and natural frequency of the squared sensitivity of the period times the diagonal entry of the inverse normal matrix; it is zero iff every sample lies on the oscillation. (The covariance of the two is left out.) get_period_from_truncated cuts the samples only when a rate is given.", "quantifier": "all data, integer sample rates, time arrays and every leastsq that finds a local minimum", "why_tests_cant": "all data; the fit is checked on one recording", "anchors": ["bicycleparameters/period.py:get_period", "bicycleparameters/period.py:get_period_from_truncated", "bicycleparameters/period.py:jac_fitfunc", "bicycleparameters/period.py:fit_goodness"]}
{"id": "C115", "title": "make_guess gives a usable first guess", "statement": "With fewer than eleven samples IndexError; otherwise the offset is the mean, the amplitudes have the size of the largest deviation above the mean and the direction of the first ten samples, the damping ratio is 0.001, and the frequency is 4 or that of the zero crossings more than 20 samples apart, two for each period; the frequency is positive and, if not 4, below pi/20 times the sample rate.", "quantifier": "all data and positive rates", "why_tests_cant": "all data", "anchors": ["bicycleparameters/period.py:make_guess"]}
{"id": "C116", "title": "average_rectified_sections cuts from the strongest section to the weakest above average", "statement": "The result is the contiguous part of the data from the first largest deviation in the strongest section between sign changes up to that in the weakest section whose average is above the mean of all sections. ValueError iff there are no data, the sign changes after the very first sample, or all sections have the same average; nothing is left when only one section is above the mean.", "quantifier": "all data", "why_tests_cant": "all data", "anchors": ["bicycleparameters/period.py:average_rectified_sections"]}
{"id": "C117", "title": "Plots of a parameter set show every body once, at its mass centre, in its own colour", "statement": "A set can be created iff the matplotlib style has a colour for each body of its class (else IndexError), and with distinct colours two bodies never share one. plot_mass_centers, plot_principal_radii_of_gyration and plot_principal_inertia_ellipsoids of a valid set draw exactly the bodies asked for, in order, each at its mass centre, in its colour, labelled or with radii and angle that describe its inertia; plot_geometry draws ground, wheels, frame and the steer axis iff asked; plot_person_diamond a rhombus and iff asked its diagonals; plot_all always succeeds and draws each of these once and nothing else. A body the class does not have raises KeyError, with the bodies before it drawn. Any sequence of calls on the same axes keeps what was drawn, and after the first call that succeeds z points down for good. The classes of Moore2012 have no plots.", "quantifier": "all valid parameter sets, styles, lists of bodies, axes with earlier drawings and sequences of calls that fail or not", "why_tests_cant": "all sets, lists and call histories; tests only check that the calls do not raise", "anchors": ["bicycleparameters/parameter_sets.py:_com_symbol", "bicycleparameters/parameter_sets.py:_plot_geometry_from_benchmark", "bicycleparameters/parameter_sets.py:ParameterSet._generate_body_colors", "bicycleparameters/parameter_sets.py:ParameterSet._finalize_plot", "bicycleparameters/parameter_sets.py:Meijaard2007ParameterSet.plot_all", "bicycleparameters/parameter_sets.py:Meijaard2007ParameterSet.plot_mass_centers", "bicycleparameters/parameter_sets.py:Moore2019ParameterSet.plot_all", "bicycleparameters/parameter_sets.py:Moore2019ParameterSet.plot_person_diamond"]}
{"id": "C118", "title": "plot_bicycle_geometry shows the bicycle, its mass centres, ellipses, pendulum axes and rider", "statement": "A returned figure shows the ground from the back of the rear to the front of the front wheel, both wheels on it with the stored radii and wheelbase, the frame from hub to hub and the steer axis down to the distance w + c; with centerOfMass one labelled symbol at the mass centre of each part in its colour; with inertiaEllipse one momental ellipse of each part about its mass centre; with pendulum (and measurements, and no rider) one numbered line for each measurement on the measured line; with a rider the connected stick figure; and the limits of the vertical axis enclose all of ground, wheels, frame and head. (The ellipse is mirrored, wrong or missing depending on the signs of the eigenvectors.)", "quantifier": "all parameter sets, options, measurements, riders, colour maps and eigenvector signs", "why_tests_cant": "all parameter values and eigenvector signs", "anchors": ["bicycleparameters/main.py:Bicycle.plot_bicycle_geometry"]}
{"id": "C119", "title": "The plotly geometry figure shows the same as the matplotlib one", "statement": "For every bicycle and every choice of options for which plot_bicycle_geometry returns a figure, the plotly figure has the same ground, frame, steer axis, wheels, pendulum lines, mass centres, ellipses and rider. (Ground, frame, steer axis, wheels, pendulum lines and mass centres are the same; the ellipses are wrong, of the rider only the lower leg is drawn, and a fork without mass or more parts than colours raise.)", "quantifier": "all parameter sets, options, measurements and riders", "why_tests_cant": "all parameter values and part lists", "anchors": ["bicycleparameters/main.py:Bicycle._plot_bicycle_geometry_plotly"]}
{"id": "C120", "title": "plot_eigenvalues compares bicycles in one figure", "statement": "The figure has one group of lines for each bicycle, in the order given and in its own colour: with largest=True the largest real part of its exponents in its line style, otherwise the real and imaginary parts of its four modes; the legend lists each bicycle's name once, in order, in its colour. Default colours are distinct as far as the colour map is; line styles have no effect without largest. No bicycles raise UnboundLocalError, too few colours or line styles IndexError.", "quantifier": "all non-empty lists of bicycles with complete Benchmark sets, speeds, colours, line styles and every correct numpy.linalg.eig", "why_tests_cant": "all lists of bicycles and speeds", "anchors": ["bicycleparameters/plot.py:plot_eigenvalues", "bicycleparameters/main.py:Bicycle.plot_eigenvalues_vs_speed"]}
{"id": "C121", "title": "compare_bode_bicycles and compare_bode_speeds show the frequency responses, with aligned phases", "statement": "One line in each of the two axes for each bicycle (speed), in order, labelled with the name (speed): magnitude and phase of the frequency response of that bicycle at that speed, from the torque to the quantity that the title names, at 1000 frequencies from 1 to 100 rad/s with a constant ratio; the first phase is between -180 and 180 degrees. Lines already in the figure are only shifted by whole turns. The bicycles' models do not change; the same bicycle may occur twice. Negative indices count from the end, others raise IndexError; without bicycles and figure AttributeError. Comparing again leaves lines alone unless they start at exactly 180 or -180 degrees, which flip.", "quantifier": "all bicycles, lists with repetitions, speeds, integer indices, figures with earlier lines and every correct control.bode", "why_tests_cant": "all bicycles, speeds, figures and histories of calls", "anchors": ["bicycleparameters/plot.py:compare_bode_bicycles", "bicycleparameters/main.py:Bicycle.compare_bode_speeds", "bicycleparameters/main.py:Bicycle.plot_bode"]}
{"id": "C122", "title": "uncertainties propagate to the canonical matrices and the state space to first order", "statement": "For every parameter set with uncertainties, each entry of canonical(nominal=False) and of state_space(speed, nominal=False) carries the value and the first-order sensitivities of the entry computed from the true parameters; for independent parameters its standard deviation is the root of the sum of the squares of partial derivative times standard deviation; the nominal values are those computed from the nominal parameters, with the same exceptions.", "quantifier": "all parameter sets, correlated or independent uncertainties, speeds", "why_tests_cant": "a test compares one bicycle's standard deviations; that no correlation is lost on the way is a statement about derivatives at all points", "anchors": ["bicycleparameters/main.py:Bicycle.canonical", "bicycleparameters/main.py:Bicycle.state_space", "bicycleparameters/bicycle.py:benchmark_par_to_canonical", "bicycleparameters/bicycle.py:ab_matrix"]}
{"id": "C123", "title": "the steer axis tilt has the standard deviation of its measurements", "statement": "lambda_from_abc of five numbers with uncertainties (floats are accepted too, says its docstring) returns the tilt of the nominal values with the first-order standard deviation of the true tilt. (The code accepts no floats and takes the standard deviation of arctan(c/(a+b)), leaving out the wheel radii.)", "quantifier": "all wheel radii and frame lengths, all joint uncertainties", "why_tests_cant": "the standard deviation is an implicit derivative; tests look at the nominal value", "anchors": ["bicycleparameters/geometry.py:lambda_from_abc"]}
{"id": "C124", "title": "the measured geometry has the standard deviations of the measurements", "statement": "calculate_benchmark_geometry returns the geometry of the nominal measurements, each value with the first-order standard deviation of the value computed from the true measurements. (With a measured wheelbase it does; without, the tilt returned is independent of the lengths it is computed from, so the trail can have a wrong standard deviation, and measurements given as floats can raise AttributeError.)", "quantifier": "all measured parameter dictionaries with and without wheelbase, floats and uncertain values mixed", "why_tests_cant": "correlations through an implicitly solved intermediate are invisible in nominal values", "anchors": ["bicycleparameters/geometry.py:calculate_benchmark_geometry", "bicycleparameters/geometry.py:lambda_from_abc", "bicycleparameters/geometry.py:trail"]}
{"id": "C125", "title": "the benchmark parameters have the standard deviations of the measurements", "statement": "calculate_benchmark_from_measured returns the benchmark parameters of the nominal measurements, each with the first-order standard deviation (and correlations) of the parameter computed from the true measurements. (With a measured wheelbase it does; without, see C124.)", "quantifier": "all measured parameter dictionaries, floats and uncertain values mixed, all joint uncertainties", "why_tests_cant": "a test compares one bicycle; that no correlation is lost through the periods, the pendulum lines, the centres of mass and the pseudo-inverse of the inertia fit is a statement about derivatives at all points", "anchors": ["bicycleparameters/main.py:calculate_benchmark_from_measured", "bicycleparameters/com.py:part_com_lines", "bicycleparameters/com.py:center_of_mass", "bicycleparameters/inertia.py:part_inertia_tensor", "bicycleparameters/inertia.py:tor_inertia", "bicycleparameters/inertia.py:compound_pendulum_inertia", "bicycleparameters/geometry.py:distance_to_steer_axis"]}
{"id": "C126", "title": "the rider lean matrices are the Jacobian of the equations of motion", "statement": "In every configuration, upright or not, the matrices A and B that eval_linear returns are the partial derivatives of the rates of the states (q1p .. q9p, u4p, u6p, u7p, u9p) it computes, with respect to the states and the torques; C and D those of the outputs. Only a front wheel flat on the ground, dependent rolling conditions or a singular inertia matrix make it divide by zero.", "quantifier": "all states, torques, parameters and tilts lam for which no division by zero occurs", "why_tests_cant": "the partial derivatives are ten thousand lines of generated code with 4531 intermediate results; finite differences test one configuration with rounding errors, and any term that vanishes in it is not tested", "anchors": ["bicycleparameters/_mooreriderlean2012.py:eval_linear"]}
{"id": "C127", "title": "riding straight ahead is a steady motion", "statement": "Upright riding straight ahead, at any speed, is a steady motion of the nonlinear equations of the rider lean model: the bicycle moves forward with the speed at which the rear wheel rolls, both wheels spin, nothing else changes; and A and B describe the motions near it up to an error that is small compared to the deviation.", "quantifier": "all speeds and all bicycles that stand on the ground and have inertia", "why_tests_cant": "a test evaluates one bicycle at some speeds; the size of the error for all small deviations is a limit", "anchors": ["bicycleparameters/_mooreriderlean2012.py:eval_linear", "bicycleparameters/models.py:MooreRiderLean2012Model"]}
{"id": "C128", "title": "the wheels are round", "statement": "The rates of the states that eval_linear computes, and the matrices it returns, do not depend on how far the wheels have turned (q6, q8) nor on the place (q1, q2); so riding straight ahead for any length of time solves the nonlinear equations of motion.", "quantifier": "all states, torques, parameters and tilts; the matrices wherever no division by zero occurs", "why_tests_cant": "two of the eight angles enter hundreds of the intermediate results and have to cancel exactly; a test compares some angles with rounding errors", "anchors": ["bicycleparameters/_mooreriderlean2012.py:eval_linear"]}
{"id": "C129", "title": "all places and directions are alike", "statement": "Turning and moving a bicycle of the rider lean model on the ground turns the velocity of its contact point by the same angle and changes no other rate; the first two rows of A and B are turned, the column of A for the heading is (-q2p, q1p, 0, ...); every ride is possible at every place in every direction.", "quantifier": "all states, torques, parameters, tilts, angles and translations; all solutions of the equations of motion", "why_tests_cant": "a symmetry under a continuous group, of all solutions of a differential equation; a test integrates one ride approximately", "anchors": ["bicycleparameters/_mooreriderlean2012.py:eval_linear"]}
{"id": "C130", "title": "the wheels roll without slipping and stay on the ground", "statement": "On every motion that solves the nonlinear equations of motion of eval_linear, the point of the rear wheel that touches the ground is at rest, the lowest point of the front wheel is at rest, and the height of the lowest point of the front wheel never changes.", "quantifier": "all states and torques where no division by zero occurs, all solutions on any interval, all parameters with positive wheel radii", "why_tests_cant": "a velocity is a derivative along a solution, and the claim is about all solutions; a test integrates one ride with a tolerance that hides slow slipping", "anchors": ["bicycleparameters/_mooreriderlean2012.py:eval_linear"]}
{"id": "C131", "title": "the mirror image, the reverse and the rescaling of a ride are rides", "statement": "For the nonlinear equations of motion of eval_linear, the mirror image of a motion solves them under the mirrored torques, a motion run backwards solves them for the bicycle with the opposite lean damping, and a motion written in other units of mass, length and time solves them for the parameters and torques in these units.", "quantifier": "all parameters, states and torques, all solutions, all positive unit factors", "why_tests_cant": "a sign error in one of a thousand statements shows only at states that are leaned and steered at once; the claim is about all states", "anchors": ["bicycleparameters/_mooreriderlean2012.py:eval_linear"]}
{"id": "C132", "title": "the state determines the ride", "statement": "For the nonlinear equations of motion of eval_linear under torques that depend smoothly on time and state, a ride exists from every state in which no division by zero occurs, and two rides that agree at one time agree at all times. If the torques prefer no side, a bicycle that once runs straight and upright with no lean or steer rate keeps doing so, whatever the driving torque does.", "quantifier": "all parameters, smooth torque laws, states and rides on any interval", "why_tests_cant": "existence and uniqueness of solutions are about a continuum of states and times; an integrator only produces one approximate candidate", "anchors": ["bicycleparameters/_mooreriderlean2012.py:eval_linear"]}
{"id": "C133", "title": "the ride obeys the laws of mechanics", "statement": "For the nonlinear equations of motion of eval_linear: let the rear frame, rear wheel, front frame, front wheel and rider be made of particles that have the masses and moments of inertia of the parameter set. Along every ride, for every motion through the same place whose wheels roll, the power of mass times acceleration of the particles on the velocities of that motion is the power of gravity, of the four torques and of the spring and damper of the lean axis (the principle of d'Alembert).", "quantifier": "all parameter sets with a positive front wheel radius, all collections of particles with these inertias, all smooth torque laws, all rides without division by zero, all times, all rolling motions through the place", "why_tests_cant": "tests compare the matrices with another derivation at a few states; here every state, speed and torque is related to the law of Newton for the particles", "anchors": ["bicycleparameters/_mooreriderlean2012.py:eval_linear"]}
{"id": "C134", "title": "energy balance of a ride", "statement": "Along every ride of the nonlinear equations of motion of eval_linear the sum of kinetic energy, potential energy and the energy of the lean spring changes as fast as the torques supply energy, less what the lean damper takes. Without torques and damper it is constant; without torques and with a damper it never grows.", "quantifier": "all parameter sets, all collections of particles with these inertias, all smooth torque laws, all rides without division by zero, all times", "why_tests_cant": "a wrong sign in one of a thousand statements would let the bicycle gain energy from nothing at some state that no test visits", "anchors": ["bicycleparameters/_mooreriderlean2012.py:eval_linear"]}
{"id": "C135", "title": "the equations of motion are the laws of mechanics", "statement": "Among the motions at whose places the nonlinear equations of motion of eval_linear are defined, those that follow these equations are exactly those whose wheels roll without slip, whose speed states are the rates of the roll, rear wheel, steer and rider angles, and that obey the principle of d'Alembert for the particles of the five bodies under gravity, the four torques and the lean spring and damper.", "quantifier": "all parameter sets with a positive front wheel radius, all collections of particles with these inertias, all smooth torque laws, all differentiable motions, all time intervals", "why_tests_cant": "a test can show that a simulated motion keeps some law; that no other motion keeps the laws, and that none of the thousand statements is wrong at any state, needs a proof", "anchors": ["bicycleparameters/_mooreriderlean2012.py:eval_linear"]}
{"id": "C136", "title": "a session keeps the data, whatever the commands and wherever it is stopped", "statement": "In any history of constructing bicycles, adding riders and saving parameters, each command finished, failed or stopped anywhere, the files of the pendulum measurements keep their contents, no file disappears, the files of bicycles never named are untouched, and a save that is declined writes nothing; a file whose writing was stopped is empty or holds a beginning of what was to be written; the measured lines of a bicycle survive every history.", "quantifier": "all histories of commands, all data directories, all points at which the program is stopped", "why_tests_cant": "a test runs a few commands in one order; the claim is about every sequence of commands and every moment at which the program dies", "anchors": ["bicycleparameters/main.py:Bicycle.__init__", "bicycleparameters/main.py:Bicycle.save_parameters", "bicycleparameters/main.py:Bicycle.add_rider", "bicycleparameters/io.py:write_periods_to_file", "bicycleparameters/io.py:write_parameter_text_file"]}
{"id": "C137", "title": "a parameter file that was cut off has at most one wrong value", "statement": "If the writing of a parameter file was stopped anywhere, a file cut between two lines loads to the right values of the alphabetically first parameters and nothing else; cut inside a line it fails to load or has at most one wrong value, that of the next parameter in the alphabet.", "quantifier": "all parameter dictionaries with printable keys and values, all number formats, all points at which the writing is stopped", "why_tests_cant": "a test can cut a file at a few places; the claim is about every dictionary and every place", "anchors": ["bicycleparameters/io.py:write_parameter_text_file", "bicycleparameters/io.py:load_parameter_text_file"]}
{"id": "C138", "title": "the figure of a period shows the measurement and its fit", "statement": "The figure that get_period writes has the measured points and the fitted curve on one axes over the whole time of the measurement, with a title whose formula is the fitted function; afterwards the open figures, the active figure and all other figures are as before, also after any number of measurements. plot_osfit without a figure makes such a figure.", "quantifier": "all measurements and fits, all states of pyplot, all numbers of measurements", "why_tests_cant": "a test looks at one image in a fresh process; the claim is about every state that other figures can be in", "anchors": ["bicycleparameters/period.py:plot_osfit", "bicycleparameters/period.py:get_period"]}
{"id": "C139", "title": "the web app shows what is in the file", "statement": "Choosing a bicycle with a saved Benchmark file in the web app fills each cell of the three tables with the number of that name in the file, without its uncertainty (the tilt in whole degrees), and changes nothing in the directory of the bicycle.", "quantifier": "all bicycles with a saved Benchmark file that can be constructed, all contents of that file", "why_tests_cant": "a test checks one bicycle; the claim is about every file and every cell", "anchors": ["bicycleparameters/app.py:new_par", "bicycleparameters/app.py:populate_wheel_data", "bicycleparameters/io.py:remove_uncertainties"]}
{"id": "C140", "title": "programs that write a file at the same time do not spoil it", "statement": "Whatever the order of the steps of several programs (or threads of the web app) that write one file of the data directory: while one program writes, a reader finds the old content or a beginning of the new one; when programs that write the same text have finished, the file holds that text; when constructions of one bicycle that write its periods have finished, the file is as if one had written it alone; when saves of different values have finished, the file loads.", "quantifier": "all schedules of the steps of any number of programs, all contents, all sizes of the pieces that reach the file", "why_tests_cant": "a test runs one schedule and cannot choose it; the claim is about every interleaving", "anchors": ["bicycleparameters/io.py:write_parameter_text_file", "bicycleparameters/io.py:write_periods_to_file", "bicycleparameters/io.py:load_parameter_text_file"]}
{"id": "C141", "title": "a parameter set stays what it was built as", "statement": "No function of the package changes a dictionary, a parameter set or a model that exists. A set built from a dictionary shows, after any later history, what that dictionary holds then; a set or a model obtained by conversion to another parameterization is separate and keeps the converted values; models of the own parameterization share the set. At every moment every set has all the parameters of its class as floats.", "quantifier": "all histories of calls that make dictionaries, sets, conversions and models, with any changes of the dictionaries by the program in between", "why_tests_cant": "a test looks at one program; aliasing shows only over arbitrary later histories", "anchors": ["bicycleparameters/parameter_sets.py:ParameterSet.__init__", "bicycleparameters/parameter_sets.py:Meijaard2007ParameterSet.to_parameterization", "bicycleparameters/parameter_sets.py:Moore2019ParameterSet.to_parameterization", "bicycleparameters/models.py:Meijaard2007Model.__init__"]}
{"id": "C142", "title": "which speeds are self-stable", "statement": "For every bicycle with a positive definite mass matrix, all eigenvalues of the state matrix of ab_matrix have negative real parts at a speed iff the five inequalities of Routh and Hurwitz hold for its canonical matrices. It is never so at rest, never in both directions; stability is lost only at a speed with an eigenvalue on the imaginary axis; the eigenvalue zero occurs at one speed only; and the self-stable forward speeds are at most two ranges.", "quantifier": "all canonical matrices or all complete dictionaries, all speeds and gravities", "why_tests_cant": "a plot samples the speeds; the claim is about every speed between the samples", "anchors": ["bicycleparameters/bicycle.py:ab_matrix", "bicycleparameters/bicycle.py:benchmark_par_to_canonical", "bicycleparameters/main.py:Bicycle.plot_eigenvalues_vs_speed"]}
{"id": "C143", "title": "the Whipple model does not depend on the units", "statement": "With masses, lengths and times expressed in other units, benchmark_par_to_canonical and ab_matrix return for the same bicycle the same matrices, each entry multiplied by the factor of its dimension, and the eigenvalues are the same rates in the new unit of time.", "quantifier": "all dictionaries, speeds, gravities and all changes of units", "why_tests_cant": "a term of the wrong dimension gives plausible numbers in SI units", "anchors": ["bicycleparameters/bicycle.py:benchmark_par_to_canonical", "bicycleparameters/bicycle.py:ab_matrix"]}
{"id": "C144", "title": "the gains of the feedback model can give any linear dynamics", "statement": "For every stored parameter set whose mass matrix is invertible, and every wanted linear law for the roll and steer accelerations, exactly one choice of the eight gains, given as keyword arguments to form_state_space_matrices, makes the returned state matrix that of the law; so for every such bicycle and speed there are gains for which all eigenvalues of the returned state matrix have negative real parts.", "quantifier": "all parameter sets with an invertible mass matrix, all 2x4 laws", "why_tests_cant": "a test tries some gains; that every dynamics is within reach, and by one gain matrix only, is a statement about all", "anchors": ["bicycleparameters/models.py:Meijaard2007WithFeedbackModel.form_state_space_matrices"]}
{"id": "C145", "title": "the steady turn", "statement": "In the state space form of every bicycle, a constant lean and steer without roll torque is a steady motion only if the moment of gravity on the lean equals the centrifugal moment of the masses plus the gyroscopic moment of the wheels less the moment of the masses moved sideways by the steer. For every steer angle there is exactly one such lean and steer torque; the bicycle leans into the turn iff it is faster than the speed these terms give; the torque is zero iff zero is an eigenvalue; and at a self-stable speed it is against the steer angle.", "quantifier": "all complete dictionaries, speeds, gravities and steer angles", "why_tests_cant": "the relations couple entries of all four matrices and hold at every speed", "anchors": ["bicycleparameters/bicycle.py:ab_matrix", "bicycleparameters/bicycle.py:benchmark_par_to_canonical"]}
{"id": "C146", "title": "a bicycle with a rider is a bicycle", "statement": "When combine_bike_rider succeeds on the parameters of a physically sensible bicycle and a rider with non-negative mass and the inertia of some body, wherever the rider sits, the result is again physically sensible and its canonical mass matrix is invertible; the gravity stiffness is that of the bicycle plus that of the rider, and standing still it is unstable if the bicycle is and the rider is above the ground. Riders (or luggage) in the plane of the bicycle can be added in either order with the same result under every key.", "quantifier": "all bicycle and rider dictionaries", "why_tests_cant": "the later analysis assumes a physical bicycle for whatever rider was added", "anchors": ["bicycleparameters/inertia.py:combine_bike_rider", "bicycleparameters/bicycle.py:benchmark_par_to_canonical", "bicycleparameters/main.py:Bicycle.add_rider"]}
{"id": "C147", "title": "what a stable speed means for the motions", "statement": "At a speed all eigenvalues of the state matrix have negative real parts iff every free motion, from whatever initial state, dies out; then all do so at least as fast as one common exponential. A physical bicycle that stands still has, as near to upright as one likes, a start from which it does not return. In the feedback model there are gains with which every free motion dies out.", "quantifier": "all canonical matrices, speeds, gravities, all motions", "why_tests_cant": "a simulation is one motion for a finite time", "anchors": ["bicycleparameters/bicycle.py:ab_matrix", "bicycleparameters/models.py:Meijaard2007Model.plot_eigenvalue_parts", "bicycleparameters/models.py:Meijaard2007WithFeedbackModel.form_state_space_matrices"]}
{"id": "C148", "title": "what a Bode plot says about the motions", "statement": "At a self-stable speed the system that plot_bode draws has exactly one response at every frequency, and under a harmonic torque of unit amplitude on the chosen input every motion of the bicycle, from whatever initial state, approaches the harmonic motion with the plotted amplitude and phase.", "quantifier": "all parameter sets with an invertible mass matrix, all self-stable speeds, frequencies, inputs, outputs and motions", "why_tests_cant": "the plot is read as a statement about all motions after long times", "anchors": ["bicycleparameters/main.py:Bicycle.plot_bode", "bicycleparameters/bicycle.py:ab_matrix"]}
{"id": "C149", "title": "the standing bicycle", "statement": "At speed zero, under any torques, the kinetic energy of the four bodies plus the energy of their weights changes exactly by the power of the torques. All eigenvalues of the state matrix are real or purely imaginary and come in pairs of opposite sign; with the masses above the ground they are all real iff the determinant of the gravity stiffness is not negative.", "quantifier": "all complete dictionaries with a positive definite mass matrix, all gravities, torques and motions", "why_tests_cant": "a sign error in one entry of a matrix feeds energy into the bicycle and is not seen in a few eigenvalues", "anchors": ["bicycleparameters/bicycle.py:ab_matrix", "bicycleparameters/bicycle.py:benchmark_par_to_canonical"]}
{"id": "C150", "title": "the self-stable speeds of the shipped bicycles", "statement": "For the benchmark bicycle of the data directory and for both Browser dictionaries of parameter_dicts there are two speeds such that, at every real speed, all eigenvalues of the state matrix have negative real parts iff the speed is strictly between the two; for the benchmark they are within 2e-14 m/s of the published 4.29238253634111 and 6.02426201538837. A sweep of the model over any list of speeds shows it at each position.", "quantifier": "all real speeds, all lists of speeds", "why_tests_cant": "a plot samples the speeds; only a proof excludes a second stable or unstable range between the samples", "anchors": ["bicycleparameters/parameter_dicts.py:meijaard2007_browser_jason", "bicycleparameters/parameter_dicts.py:meijaard2007_browser_jasonlegs", "data/bicycles/Benchmark/Parameters/BenchmarkBenchmark.txt", "bicycleparameters/bicycle.py:ab_matrix", "bicycleparameters/models.py:Meijaard2007Model.form_state_space_matrices"]}
{"id": "C151", "title": "the shipped dictionaries describe one bicycle", "statement": "Every dictionary of parameter_dicts is accepted by the class it is named after, and they describe the same bicycle with the same rider: what does not belong to the rider agrees between them.", "quantifier": "all parameters of the four dictionaries, all speeds", "why_tests_cant": "no test compares the dictionaries; that two numbers are exchanged is seen only in a comparison, and that it matters only from the results at all speeds", "anchors": ["bicycleparameters/parameter_dicts.py:meijaard2007_browser_jason", "bicycleparameters/parameter_dicts.py:meijaard2007_browser_jasonlegs", "bicycleparameters/parameter_dicts.py:moore2019_browser_jason", "bicycleparameters/parameter_dicts.py:mooreriderlean2012_browser_jason", "bicycleparameters/parameter_sets.py:ParameterSet._check_parameters"]}
{"id": "C152", "title": "simulations die out exactly at the self-stable speeds", "statement": "For Meijaard2007Model, with or without feedback, if the state matrix of the chosen parameters has only eigenvalues with negative real parts, there are K and a > 0, depending on the parameters only, such that in every result of simulate without inputs each state at time t is at most K exp(-a (t - t0)) times the sum of the absolute initial conditions; if there are such K and a, the eigenvalues have negative real parts. So it is for the shipped Browser dictionaries at every speed of their self-stable range.", "quantifier": "all parameter sets, keyword arguments without arrays, initial conditions and lists of times", "why_tests_cant": "a simulation shows one motion for a finite time", "anchors": ["bicycleparameters/models.py:_Model.simulate", "bicycleparameters/models.py:Meijaard2007Model.form_state_space_matrices"]}
{"id": "C153", "title": "the converted Moore (2019) dictionary of the package has one known self-stable range", "statement": "moore2019_browser_jason, each decimal read as the nearest float, is accepted by Moore2019ParameterSet and converts to Meijaard2007; every converted parameter is within 2e-12 of a known value; the converted bicycle is self-stable at exactly the speeds between two, within 1e-6 of 5.144114 and 7.721694 m/s, and a sweep of the model over speeds is stable at those speeds and at no others. The range is not that of meijaard2007_browser_jason.", "quantifier": "all dictionaries within one part in 2^53 of the decimals, all speeds", "why_tests_cant": "tests compare single speeds with a tolerance", "anchors": ["bicycleparameters/parameter_dicts.py:moore2019_browser_jason", "bicycleparameters/conversions.py:_convert_principal_to_benchmark", "bicycleparameters/parameter_sets.py:Moore2019ParameterSet.to_parameterization", "bicycleparameters/bicycle.py:benchmark_par_to_canonical"]}
{"id": "C154", "title": "rounding does not spoil the canonical matrices of the shipped bicycles", "statement": "Let each operation of benchmark_par_to_canonical return its exact result rounded, in any way, by at most one part in 2^52. For the benchmark bicycle and the two shipped Browser dictionaries, read as floats, every entry of the computed matrices is within 1e-12 of the exact one, and the computed matrices are self-stable at the speeds of one range, the ends of which agree with the exact ones. For every dictionary the computed M and K0 are exactly symmetric and the zero entries are zero.", "quantifier": "all ways of rounding every operation, all dictionaries near the decimals, all speeds", "why_tests_cant": "a test sees the rounding of one machine", "anchors": ["bicycleparameters/bicycle.py:benchmark_par_to_canonical", "bicycleparameters/parameter_dicts.py:meijaard2007_browser_jason", "bicycleparameters/parameter_dicts.py:meijaard2007_browser_jasonlegs"]}
{"id": "C155", "title": "relative rounding errors for every bicycle and pendulum", "statement": "Let each operation return its exact result rounded, in any way, by at most one part in 2^52 (no overflow or underflow). For every ordinary bicycle the entries M[0,0], K0[0,0], K2[0,1] and C1[1,0] that benchmark_par_to_canonical computes have relative errors below one part in 2^48, 2^47, 2^46 and 2^48. For all nonnegative arguments and positive periods, tor_inertia, torsional_pendulum_stiffness and tube_inertia have relative errors below one part in 2^48, and measuring the calibration rod again returns its moment of inertia to one part in 2^47.", "quantifier": "all ways of rounding every operation, all ordinary bicycles, all pendulums and tubes", "why_tests_cant": "a test sees the rounding of one machine on a few bicycles", "anchors": ["bicycleparameters/bicycle.py:benchmark_par_to_canonical", "bicycleparameters/inertia.py:tor_inertia", "bicycleparameters/inertia.py:torsional_pendulum_stiffness", "bicycleparameters/inertia.py:tube_inertia"]}
{"id": "C156", "title": "rounding in ab_matrix does not move the self-stable speeds", "statement": "Let each operation of benchmark_par_to_canonical and ab_matrix return its exact result rounded, in any way, by at most one part in 2^52 (no overflow or underflow). At every speed from 4.29238254 to 6.02426201 m/s all eigenvalues of the state matrix computed for the benchmark bicycle have negative real parts; at every speed up to 4.29238253 or from 6.02426202 m/s on one of them does not; likewise for the two shipped Browser dictionaries. For every bicycle with a well-conditioned mass matrix the computed state matrix is exactly that of canonical matrices nearby.", "quantifier": "all ways of rounding every operation, all speeds, all dictionaries near the decimals; all canonical matrices for the second part", "why_tests_cant": "a test sees the rounding of one machine at a few speeds", "anchors": ["bicycleparameters/bicycle.py:benchmark_par_to_canonical", "bicycleparameters/bicycle.py:ab_matrix"]}
{"id": "C157", "title": "the eigenvalues that are returned decide self-stability in spite of rounding", "statement": "Let each operation of benchmark_par_to_canonical and ab_matrix return its exact result rounded, in any way, by at most one part in 2^52, and let the eigenvalues be computed by any backward stable method: what it returns are the eigenvalues of a real matrix whose entries differ by at most 2^-47 times the largest entry. Then at every speed from 2 to 10 m/s all eigenvalues returned for the benchmark bicycle have negative real parts from 4.296 to 6.019 m/s, and not all of them up to 4.289 or from 6.029 m/s on; likewise for the two shipped Browser dictionaries.", "quantifier": "all ways of rounding, all backward stable eigenvalue methods, all speeds from 2 to 10 m/s, all dictionaries near the decimals", "why_tests_cant": "a test sees one LAPACK at a few speeds", "anchors": ["bicycleparameters/bicycle.py:benchmark_par_to_canonical", "bicycleparameters/bicycle.py:ab_matrix", "bicycleparameters/main.py:Bicycle.eig"]}
{"id": "C158", "title": "part_inertia_tensor works for every mixture of floats and uncertain numbers", "statement": "For every dictionary that holds the entries of a part, each a float or a number with an uncertainty, part_inertia_tensor returns the symmetric tensor with these entries (for a wheel xx also in the place of zz); if an entry is missing it raises.", "quantifier": "all dictionaries with floats and uncertain numbers, all seven parts", "why_tests_cant": "a test uses a dictionary of floats or one of uncertain numbers; the mixtures are many", "anchors": ["bicycleparameters/inertia.py:part_inertia_tensor"]}
{"id": "C159", "title": "cartesian keeps the values of the arrays", "statement": "Every row that cartesian returns holds one value of each array, unchanged, whatever the types (integers or floats) and the order of the arrays.", "quantifier": "all positive numbers of non-empty arrays of integers or floats", "why_tests_cant": "the types, sizes and orders of the arrays are unbounded", "anchors": ["bicycleparameters/com.py:cartesian"]}
{"id": "C160", "title": "with small steps sort_eigenmodes follows the modes", "statement": "For any modes that depend continuously on the speed and never meet between two speeds there is a step so small that, for every list of speeds in smaller steps and every order in which the eigenvalues (and with them the eigenvectors) are given at each speed, each column of the result of sort_eigenmodes follows one mode through all speeds; likewise caster, capsize and weave of sort_modes.", "quantifier": "all numbers of modes, continuous modes, lists of speeds and orders at each speed", "why_tests_cant": "a test uses a few modes and one grid of speeds", "anchors": ["bicycleparameters/bicycle.py:sort_eigenmodes", "bicycleparameters/bicycle.py:sort_modes"]}
{"id": "C161", "title": "with small steps in speed sort_eigenmodes loses no eigenvalue of the bicycle", "statement": "For every bicycle and every range of speeds in which its state matrix has no repeated eigenvalue there is a step so small that, for every list of speeds of that range in smaller steps and every order in which numpy.linalg.eig gives the eigenvalues at each speed, each row of the result of sort_eigenmodes is a permutation of the eigenvalues at that speed.", "quantifier": "all bicycles, ranges, lists of speeds and orders at each speed; more generally all matrices of any size that depend continuously on the speed", "why_tests_cant": "a test uses one bicycle and one grid of speeds", "anchors": ["bicycleparameters/bicycle.py:sort_eigenmodes", "bicycleparameters/bicycle.py:ab_matrix"]}
{"id": "C162", "title": "sort_eigenmodes loses no eigenvalue of the benchmark bicycle", "statement": "For the benchmark bicycle of the repository, read as floats and with every rounding of the arithmetic of benchmark_par_to_canonical: the state matrix of ab_matrix has four different eigenvalues at every speed, except between 0.68 and 0.69 m/s, where two eigenvalues meet; and for every range of speeds on one side of the meeting there is a step so small that sort_eigenmodes loses and doubles no eigenvalue in any sweep in smaller steps.", "quantifier": "all speeds, top speeds, sweeps, orders of the eigenvalues at each speed and roundings", "why_tests_cant": "a test uses one grid of speeds on one machine", "anchors": ["bicycleparameters/bicycle.py:sort_eigenmodes", "bicycleparameters/bicycle.py:ab_matrix", "bicycleparameters/bicycle.py:benchmark_par_to_canonical"]}
{"id": "C163", "title": "calculate_from_measured uses exactly the .mat files, whatever the order of the listing", "statement": "For every bicycle directory whose file names are different: calculate_from_measured returns the same, raises the same exception, and leaves the same parameter sets and the same files for every order in which os.listdir lists RawData; and when the periods are calculated and every pendulum file loads, the measured parameters hold for each experiment the mean of the periods of all files whose name ends in .mat and that belong to it, by ascending name, and are otherwise those of the text file.", "quantifier": "all directories, orders of the listing, contents and forcePeriodCalc", "why_tests_cant": "a test has one directory listed in the order of one operating system", "anchors": ["bicycleparameters/main.py:Bicycle.calculate_from_measured", "bicycleparameters/period.py:calc_periods_for_files"]}
{"id": "C164", "title": "a new Bicycle does not depend on the order of the directory listings, unless two files stand for one set", "statement": "For every data directory: Bicycle(...) gives the same object, or the same exception, for every order in which os.listdir lists RawData; and the parameter sets loaded from Parameters are the same for every order in which it is listed, when no two files stand for the same set. Two files such as XBenchmark.txt and YBenchmark.txt stand for the same set, and which one the object holds then depends on the order.", "quantifier": "all directories, orders of the listings and arguments", "why_tests_cant": "a test has one directory listed in the order of one operating system", "anchors": ["bicycleparameters/main.py:Bicycle.__init__", "bicycleparameters/main.py:Bicycle.calculate_from_measured"]}
