import json
P=[]
def p(title, statement, quantifier, why, anchors):
    P.append(dict(id="C%02d"%(len(P)+1), title=title, statement=statement, quantifier=quantifier, why_tests_cant=why, anchors=anchors))
B="bicycleparameters/"
# bicycle.py
p("ab_matrix realises the linear equations of motion",
  "For every mass matrix with non-zero determinant, the pair (A, B) returned by ab_matrix makes x' = A x + B u hold exactly when the first two states' rates are the last two states and M q'' + v C1 q' + (g K0 + v^2 K2) q = u.",
  "all 2x2 real M, C1, K0, K2 with det M != 0, all v, g, all states, rates and inputs",
  "a statement over all real matrices and all trajectories; tests compare a handful of entries for one bicycle",
  [B+"bicycle.py:ab_matrix"])
p("eigenvalues of A are the roots of the Whipple characteristic polynomial, and reverse with the direction of travel",
  "lambda is an eigenvalue of the A matrix returned at speed v iff det(lambda^2 M + lambda v C1 + g K0 + v^2 K2) = 0; consequently lambda is an eigenvalue at speed v iff -lambda is one at speed -v.",
  "all M with det M != 0, all C1, K0, K2, v, g, all complex lambda",
  "infinitely many speeds and matrices; numeric eigen-solvers only sample",
  [B+"bicycle.py:ab_matrix"])
p("canonical matrices have the Whipple structure",
  "benchmark_par_to_canonical returns symmetric M and K0, a K2 with zero first column and a C1 with zero (0,0) entry, and the result does not depend on g, v, IByy, IHyy or on any IRzz/IFzz the caller supplied.",
  "all parameter dictionaries holding the required keys",
  "quantifies over all real parameter values and over pairs of dictionaries",
  [B+"bicycle.py:benchmark_par_to_canonical"])
p("the mass matrix is the kinetic energy of the four bodies",
  "For lateral speeds and angular rates produced by a roll rate and a steer rate (with the yaw rate c cos(lam)/w times the steer rate that keeps both contact points on the ground), (1/2) q'^T M q' equals the sum of the kinetic energies of rear wheel, frame, fork and front wheel; hence M is positive semidefinite whenever masses are non-negative and central inertias are positive semidefinite, and positive definite when moreover the inertia of one rear and one front body is positive definite, so ab_matrix is then never called with a singular M.",
  "all parameter values with w, mT, mA non-zero; all roll and steer rates",
  "an identity over a 25-dimensional real parameter space",
  [B+"bicycle.py:benchmark_par_to_canonical", B+"bicycle.py:ab_matrix"])
p("canonical matrices depend on the rear frame only through its mass moments about the origin",
  "Two parameter dictionaries which agree on everything but frame B's mass, centre and inertia, and whose frame B has the same mass, first moments and second moments about the contact point, have the same M, C1, K0 and K2.",
  "all pairs of parameter dictionaries with equal moments",
  "a relation between pairs of points of a continuous parameter space",
  [B+"bicycle.py:benchmark_par_to_canonical"])
p("benchmark_par_to_canonical leaves its argument as it was, except for IRzz and IFzz",
  "A call either raises KeyError naming a missing key, or succeeds; on success the caller's dictionary is afterwards equal to what it was except that IRzz = IRxx and IFzz = IFxx have been set (the caller sees two extra keys), and calling it again gives the same matrices and no further change.",
  "all dictionaries (any subset of keys, any values)",
  "needs the frame condition for every other key and every missing-key pattern",
  [B+"bicycle.py:benchmark_par_to_canonical"])
p("sort_eigenmodes only picks (eigenvalue, eigenvector) pairs from the same row",
  "Every output row is as long as the input row, the first row is unchanged, and entry j of row i is some eigenvalue of input row i together with the eigenvector column of the same index.",
  "all numbers of speeds n >= 1, all numbers of modes m >= 1, all eigenvalues and eigenvectors",
  "ranges over all sizes and all complex inputs; greedy index bookkeeping can go wrong only on rare inputs",
  [B+"bicycle.py:sort_eigenmodes", B+"bicycle.py:sort_modes"])
p("sort_eigenmodes returns a permutation of every row",
  "Each output row contains exactly the eigenvalues of the corresponding input row, with multiplicity: no mode is lost and none is duplicated.",
  "all numbers of speeds, all numbers of modes, all eigenvalue sets",
  "failures need three modes competing for the same nearest neighbour, which nominal bicycle data does not show",
  [B+"bicycle.py:sort_eigenmodes", B+"bicycle.py:sort_modes"])
p("trail and mechanical trail describe the same steer axis",
  "For cos(lam) != 0, trail returns (c, cm) where the steer axis, which is tilted by lam and passes at signed perpendicular distance fo behind the front wheel centre, meets the ground a signed distance c ahead of the contact point, and |cm| is the perpendicular distance from the contact point to that axis.",
  "all rF, lam with cos(lam) != 0, fo",
  "geometric identity over the reals",
  [B+"bicycle.py:trail"])
p("the steer axis tilt solves the wheel-offset equation",
  "Whenever lambda_from_abc's root finder returns a root, (a + b) sin(lam) = rF - rR + c cos(lam); such a root exists iff |rF - rR| <= sqrt((a+b)^2 + c^2); and for equal wheel radii the initial guess is already the root.",
  "all rF, rR, a, b, c with a + b != 0",
  "existence of a root for a continuous family of equations",
  [B+"bicycle.py:lambda_from_abc"])
# geometry
p("benchmark geometry reproduces the measured offsets",
  "The w, c, lam computed by calculate_benchmark_geometry from perpendicular offsets (a, b, c measured as h-values) put the front wheel centre at the measured fork offset from the steer axis and the rear wheel centre at the measured head offset from the steer axis.",
  "all measured values for which the tilt equation holds and cos(lam) != 0",
  "identity over continuous measurements",
  [B+"geometry.py:calculate_benchmark_geometry", B+"geometry.py:distance_to_steer_axis", B+"geometry.py:calculate_abc_geometry"])
p("calculate_benchmark_geometry chooses its branch and copies exactly the documented keys",
  "The wheel radii are circumference-by-rotation values; when w is measured it is used as is, otherwise it is derived from the offsets; all other keys of the passed-in parameter dictionary are preserved; missing measurements raise KeyError.",
  "all measured dictionaries",
  "decision logic over all subsets of keys",
  [B+"geometry.py:calculate_benchmark_geometry"])
p("point_to_line_distance is the minimum distance to the line",
  "The returned number is at most the distance from the point to every point of the line through the two given points, and is attained.",
  "all points in 3-space and all lines given by two distinct points",
  "quantifies over every point of every line",
  [B+"geometry.py:point_to_line_distance"])
p("project_point_on_line returns the closest point of the line",
  "The result lies on the line y = m x + b given, is at least as close to the point as any other point of the line, and projecting it again changes nothing.",
  "all lines and points in the plane",
  "quantifies over every point of every line",
  [B+"geometry.py:project_point_on_line"])
p("vec_angle is a symmetric, scale-invariant angle in [0, pi]",
  "For non-zero vectors, the value is in [0, pi], equals the value with arguments exchanged, is unchanged by positive rescaling of either argument, is 0 for parallel and pi for opposite vectors.",
  "all non-zero vectors of equal length",
  "metamorphic law over all vectors",
  [B+"geometry.py:vec_angle"])
p("vec_project removes the component along a direction",
  "vec_project(vec, direction) returns a vector perpendicular to the direction whose difference from vec is parallel to it.",
  "all vectors, integer and array directions",
  "the failing inputs are whole branches",
  [B+"geometry.py:vec_project"])
p("handlebar reference point geometry is rigid",
  "calculate_l1_l2 splits the measured hypotenuse into l1, l2 with l1^2 + l2^2 equal to it squared, and fwheel_to_handlebar_ref rotates (l1, l2) by the steer tilt without changing its length.",
  "all measured lengths for which the triangle exists and all tilts",
  "identity over the reals",
  [B+"geometry.py:calculate_l1_l2", B+"geometry.py:fwheel_to_handlebar_ref"])
p("calc_two_link_angles closes the two-link chain",
  "The two returned angles place the end of the second link on the x axis at distance D from the base.",
  "all link lengths and distances satisfying the triangle inequality",
  "the arccos/arcsin branch choice fails only on part of the domain",
  [B+"geometry.py:calc_two_link_angles"])
p("plotted geometry points lie on the steer axis",
  "In the points returned by fundamental_geometry_plot_data the steer-axis points are collinear on a line tilted by lam that meets the ground at x = w + c, and the wheel centres are at the wheel radii.",
  "all parameter sets with cos(lam) != 0",
  "identity over the reals",
  [B+"geometry.py:fundamental_geometry_plot_data"])
# inertia
p("parallel_axis obeys the parallel axis theorem",
  "The returned tensor is symmetric if the central one is, gives for every axis direction n the central value plus m times the squared distance between the axes, never decreases any moment of inertia for m >= 0, is unchanged by reversing the offset, and the offset-moved tensor of a two-part body is the sum of the parts'.",
  "all 3x3 tensors, masses, offsets, axis directions",
  "all directions and offsets",
  [B+"inertia.py:parallel_axis"])
p("combine_bike_rider conserves mass, first moment and inertia",
  "After combine_bike_rider the frame B has the summed mass, the summed first moments and a central inertia whose value about the origin is the sum of both bodies' inertias about the origin.",
  "all bicycle and rider parameter values",
  "false only for riders off the symmetry plane, which no test uses",
  [B+"inertia.py:combine_bike_rider"])
p("compound pendulum inertia inverts the pendulum period formula",
  "compound_pendulum_inertia returns the central inertia I for which a pendulum with mass m, arm l, gravity g has period T: T = 2 pi sqrt((I + m l^2)/(m g l)); it is non-negative iff T >= 2 pi sqrt(l/g).",
  "all positive m, g, l, T",
  "inverse law over the reals",
  [B+"inertia.py:compound_pendulum_inertia"])
p("torsional pendulum calibration is exact on the calibration rod",
  "tor_inertia(torsional_pendulum_stiffness(I, T), T) = I, and inertia grows with the square of the period for a fixed stiffness.",
  "all I, all T != 0",
  "inverse law over the reals",
  [B+"inertia.py:tor_inertia", B+"inertia.py:torsional_pendulum_stiffness"])
p("inertia_components recovers the tensor from three orientations",
  "If J_i is the inertia about the axis of a planar tensor (Ixx, Ixz, Izz) rotated by beta_i, with three orientations distinct modulo pi, inertia_components returns Ixx, Ixz, Izz exactly; with more orientations the least squares solution is the same tensor.",
  "all tensors, all sets of n >= 3 orientations not all congruent modulo pi to fewer than three values",
  "inverse problem over continuous families and any n",
  [B+"inertia.py:inertia_components"])
p("rotating an inertia tensor about y preserves its invariants",
  "rotate_inertia_tensor keeps symmetry, trace, determinant, the yy entry; angle 0 is the identity; rotations compose by adding angles, so rotating back restores the tensor.",
  "all tensors and angles",
  "group law over the reals",
  [B+"inertia.py:rotate_inertia_tensor"])
p("principal_axes returns sorted eigenpairs",
  "Given an eigen-decomposition of a tensor, the returned moments are in ascending order, row i of the returned axes matrix is the eigenvector belonging to moment i, and no pair is lost or duplicated.",
  "all tensors and all eigen-decompositions in any order",
  "all orders of eigenpairs",
  [B+"inertia.py:principal_axes"])
p("tube_inertia is that of a physical hollow cylinder",
  "For 0 <= ri <= ro, m >= 0 the two moments are non-negative, satisfy the triangle inequality, are monotone in radius, and equal the solid cylinder's difference.",
  "all masses, lengths, radii",
  "inequalities over the reals",
  [B+"inertia.py:tube_inertia"])
# com
p("center_of_mass finds the common point of concurrent pendulum lines",
  "If all lines z = m x + b pass through one point and have pairwise different slopes, center_of_mass returns that point; it is the mean of the pairwise intersections in general; permuting the lines or translating the origin permutes/translates the answer; two equal slopes make the solve singular.",
  "all n >= 2 lines",
  "unbounded number of lines and continuous parameters",
  [B+"com.py:center_of_mass", B+"com.py:cartesian"])
p("com_line is the pendulum axis through the reference point",
  "com_line(alpha, a, par, part, l1, l2) returns slope and intercept of the line with direction alpha at perpendicular offset a from the reference point of that part (rear wheel centre for B, front wheel centre for H and S, handlebar reference for G); other parts raise KeyError.",
  "all angles with non-vanishing slope denominators, offsets, parts",
  "geometric identity over reals and case analysis over part names",
  [B+"com.py:com_line", B+"com.py:part_com_lines"])
p("total_com is the mass-weighted mean and is associative",
  "The total mass is the sum of the masses, total mass times centre is the sum of mass times centre per coordinate, and merging a sub-assembly first gives the same result as merging all bodies at once.",
  "all numbers of bodies, all positions, masses with non-zero totals",
  "any number of bodies and any grouping",
  [B+"com.py:total_com"])
p("cartesian enumerates the cartesian product once, in order",
  "cartesian(arrays) has one row per element of the product, in lexicographic order of the input positions, whatever the number and the lengths of the arrays.",
  "all lists of non-empty arrays",
  "recursion over any number of arrays",
  [B+"com.py:cartesian"])
# conversions
p("principal-to-benchmark conversion preserves the physics",
  "_convert_principal_to_benchmark yields benchmark parameters with the same total mass, the same first moments and, in the symmetry plane, the same inertia about the origin of the rear and front assemblies as the bodies it merges, with IRzz = IRxx and IFzz = IFxx.",
  "all principal parameter values with non-zero assembly masses",
  "identity over a continuous family",
  [B+"conversions.py:_convert_principal_to_benchmark", B+"conversions.py:_sum_central_inertias", B+"conversions.py:_rotate_inertia_about_y"])
p("a complete principal parameter set converts without error",
  "Moore2019 parameter dictionaries accepted by the parameter set constructor convert to Meijaard2007 without a KeyError.",
  "all dictionaries accepted by the constructor",
  "all subsets of optional keys",
  [B+"conversions.py:_convert_principal_to_benchmark", B+"parameter_sets.py:Moore2019ParameterSet"])
# main
p("constructing a Bicycle uses saved parameters unless recalculation is needed or forced",
  "Bicycle(name) computes from raw data iff raw data exist and (forced, or no Benchmark parameters were found); otherwise it keeps loaded parameters; with no parameters and no raw data it raises; a parameter file whose name is not exactly two camel-case words raises ValueError.",
  "all directory contents and flag values",
  "all combinations of directory contents and flags",
  [B+"main.py:Bicycle.__init__"])
p("save_parameters writes one loadable file per parameter set",
  "After save_parameters, each parameter set is stored in <shortname><set>.txt and a new Bicycle(name) loads all of them.",
  "all numbers of parameter sets",
  "the accumulating file name only shows with two or more sets",
  [B+"main.py:Bicycle.save_parameters"])
p("writing periods keeps every other line of the measured file",
  "write_periods_to_file keeps all lines not starting with T in order and appends one line per period sorted by key; the file then loads to the same measurements plus exactly the written periods; doing it twice changes nothing.",
  "all measured files and period dictionaries",
  "any file content; files without a trailing newline break it",
  [B+"main.py:write_periods_to_file", B+"main.py:write_periods_to_file"])
p("recalculating never loses a period that stays in use",
  "Every oscillation period that calculate_from_measured leaves in the in-memory Measured parameters is in the Measured file afterwards.",
  "all measured files and all sets of pendulum data files",
  "needs partial sets of pendulum data",
  [B+"main.py:Bicycle.calculate_from_measured", B+"main.py:write_periods_to_file", B+"period.py:calc_periods_for_files"])
p("add_rider adds at most one rider, and only once",
  "Any sequence of add_rider calls leaves the bicycle with the first successfully added rider and its parameters; later calls change nothing.",
  "all sequences of calls and arguments",
  "histories of calls",
  [B+"main.py:Bicycle.add_rider"])
p("steer_assembly_moment_of_inertia about the steer axis is the canonical I_A-lambda-lambda",
  "With handlebar, fork and front wheel included and steer-axis rotation requested, the zz entry of the returned tensor is the inertia of fork plus front wheel about the steer axis as used in the canonical mass matrix; missing parameters raise ValueError.",
  "all benchmark parameter values",
  "identity over a continuous family",
  [B+"main.py:Bicycle.steer_assembly_moment_of_inertia"])
p("the parts listed for a parameter dictionary are exactly those with a mass",
  "is_fork_split and get_parts_in_parameters depend only on which mass keys exist: fork is split iff mS, mG style keys are there, and every part is reported once.",
  "all parameter dictionaries",
  "all key subsets",
  [B+"main.py:is_fork_split", B+"main.py:get_parts_in_parameters"])
p("flywheel and split-fork handling conserves mass and inertia",
  "When a fork and a handlebar are measured separately the reported H is their sum in mass, first moment and inertia; subtracting a flywheel D from a front wheel removes exactly the flywheel's mass and inertia.",
  "all measured values",
  "identity over a continuous family",
  [B+"main.py:calculate_benchmark_from_measured", B+"main.py:combine_parameters"])
p("nominal=True strips uncertainties and changes nothing else",
  "canonical(nominal=True) and state_space(nominal=True) equal the nominal values of the uncertain matrices; a non-boolean nominal raises ValueError.",
  "all bicycles and speeds",
  "all parameter values",
  [B+"main.py:Bicycle.canonical", B+"main.py:Bicycle.state_space"])
p("Bode phase curves are shifted by whole turns so that the first value is in [-180, 180]",
  "The phase alignment used in Bode comparison changes every phase value of a curve by the same multiple of 360 degrees and makes the first one lie between -180 and 180.",
  "all phase curves",
  "loop termination and result for every real starting value",
  [B+"main.py:Bicycle.compare_bode_speeds", B+"main.py:Bicycle.plot_bode"])
# io
p("parameters written to text load back unchanged",
  "load_parameter_text_file(write_parameter_text_file(d)) = d for a dictionary of nominal values or value+/-uncertainty pairs with printable keys.",
  "all dictionaries with keys free of separators",
  "round trip over all keys and values",
  [B+"io.py:write_parameter_text_file", B+"io.py:load_parameter_text_file"])
p("load_parameter_text_file handles every documented line",
  "Comment lines are skipped, comma separated values are averaged, the last of duplicated keys wins, the number of entries is the number of distinct keys; a blank line makes the call fail.",
  "all files",
  "all files, any order of lines",
  [B+"io.py:load_parameter_text_file"])
p("declining to overwrite leaves the file unchanged",
  "write_parameter_text_file on an existing file keeps asking until y or n; after n the file is unchanged and the return value says it was not saved; after y it is replaced.",
  "all answer sequences",
  "unbounded interactive histories",
  [B+"io.py:write_parameter_text_file"])
p("remove_uncertainties keeps keys and nominal values",
  "The result has the same keys in the same order, uncertain values replaced by their nominal values and all other values untouched; it is idempotent and does not modify its argument.",
  "all dictionaries",
  "all dictionaries",
  [B+"io.py:remove_uncertainties"])
p("space_out_camel_case splits concatenated capitalised words back",
  "Joining non-empty words, each a capital followed by lower-case letters, and spacing out the result gives the words separated by single spaces; removing the inserted spaces always gives the input back.",
  "all word lists; all strings",
  "all strings",
  [B+"io.py:space_out_camel_case"])
p("pendulum file names parse to their fields",
  "filename_to_dict of <Bicycle><Part><Pendulum><angleOrder><trial> returns the bicycle, part, pendulum, angle order and trial that were used to build the name.",
  "all bicycle names made of one camel-case word, all documented parts, trial digits",
  "all names; multi-digit trials break",
  [B+"period.py:get_period_key", B+"io.py:filename_to_dict"])
# period
p("jac_fitfunc is the Jacobian of fitfunc",
  "Every component returned by jac_fitfunc is the partial derivative of the residual with respect to the matching parameter.",
  "all parameters with |zeta| < 1, all times",
  "derivative at every real point",
  [B+"period.py:jac_fitfunc", B+"period.py:fitfunc"])
p("get_period's period is the period of the fitted oscillation",
  "With T = 2 pi/(w sqrt(1 - zeta^2)), shifting time by T scales the oscillating part of the fitted function by exp(-zeta w T), for every time; no smaller positive time does so unless the amplitude vanishes.",
  "all parameters with |zeta| < 1, w > 0, all times",
  "quantifies over all times",
  [B+"period.py:get_period", B+"period.py:fitfunc"])
p("R^2 reported by fit_goodness",
  "SSE = SST - SSR as reported equals the residual sum of squares whenever the residuals are orthogonal to the fit and sum to zero, in which case 0 <= R^2 <= 1; in general it can differ.",
  "all data sets of any length",
  "any number of samples",
  [B+"period.py:fit_goodness"])
p("check_for_period accepts exactly the documented numbers of periods",
  "The check demands for every part enough compound and torsional periods to determine inertia and fails exactly when one is lacking.",
  "all measured dictionaries",
  "all key subsets",
  [B+"period.py:check_for_period"])
p("period keys identify the experiment",
  "get_period_key maps each (part, pendulum, angle order) to its key, distinct experiments get distinct keys, and unknown parts raise KeyError.",
  "all parts, pendulums, angle orders",
  "injectivity over all orders",
  [B+"period.py:get_period_key"])
p("trial periods are averaged per experiment",
  "calc_periods_for_files returns one period per experiment, the mean over its trials, whatever order the files are listed in.",
  "all lists of files",
  "any number and order of files",
  [B+"period.py:calc_periods_for_files"])
p("select_good_data returns a contiguous slice of the samples",
  "The returned data is the tail of the data after dropping the first part up to the threshold crossing; if data never exceeds the threshold the call fails.",
  "all data sets and percentages",
  "any length",
  [B+"period.py:select_good_data"])
# tables
p("table variable list is the sorted union of the parameters",
  "The list of variables is duplicate free, sorted case-insensitively and contains exactly the keys present in some bicycle.",
  "all numbers of bicycles and dictionaries",
  "any number of bicycles",
  [B+"tables.py:Table.generate_variable_list"])
p("every table row has one name and two cells per bicycle",
  "generate_table_data yields, per variable, 1 + 2 n cells, with N/A pairs for bicycles lacking the variable.",
  "all numbers of bicycles and variables",
  "any number of bicycles",
  [B+"tables.py:Table.generate_table_data"])
p("create_rst_table can be called repeatedly",
  "A second call on the same Table returns the same text; all lines of a table have equal width.",
  "all tables",
  "histories of calls",
  [B+"tables.py:Table.create_rst_table"])
p("uround never fails for a finite uncertain value",
  "uround returns a string for every value with finite nominal value and uncertainty.",
  "all values",
  "rare ranges of uncertainty crash",
  [B+"tables.py:uround"])
# parameter sets
p("a parameter set accepts exactly complete float dictionaries",
  "The constructor succeeds iff every required key is present and its value is a float; otherwise ValueError; extra keys are kept.",
  "all dictionaries",
  "all key subsets and value types",
  [B+"parameter_sets.py:ParameterSet._check_parameters"])
p("to_parameterization preserves shared parameters or raises ValueError",
  "Converting to a set's own parameterization returns the same parameters; Meijaard2007 to Meijaard2007WithFeedback adds eight zero gains and changes nothing else; unknown names raise ValueError; advertised conversions do not raise.",
  "all parameter sets and names",
  "all parameter values",
  [B+"parameter_sets.py:Meijaard2007ParameterSet.to_parameterization", B+"parameter_sets.py:Moore2019ParameterSet.to_parameterization"])
p("YAML save and load round trip",
  "Loading a saved parameter set gives an equal parameter set of the same class, including whether it includes a rider.",
  "all parameter sets",
  "all values and classes",
  [B+"parameter_sets.py:ParameterSet.to_yaml", B+"parameter_sets.py:ParameterSet._from_yaml"])
p("mass_center_of and form_mass_center_vector are consistent",
  "mass_center_of for one body returns that body's centre, for several bodies the mass-weighted mean; the mass centre of the whole computed by bodies or by grouped bodies is the same.",
  "all parameter sets, all tuples of bodies",
  "any grouping of bodies",
  [B+"parameter_sets.py:ParameterSet.mass_center_of", B+"parameter_sets.py:ParameterSet.form_mass_center_vector"])
# models
p("parameter overrides never touch the stored parameter set",
  "Evaluating a model with overrides leaves its parameter set unchanged, uses the override for each known key and the stored value for all others, ignores unknown keys, and raises ValueError when two array overrides differ in length.",
  "all override dictionaries",
  "all subsets of keys, all lengths",
  [B+"models.py:_Model._parse_parameter_overrides"])
p("array evaluation is pointwise scalar evaluation",
  "For overrides with arrays of length n, slice i of every returned matrix equals the matrix obtained with the i-th scalar values.",
  "all array lengths, all override subsets",
  "any length and key subset",
  [B+"models.py:Meijaard2007Model.form_reduced_canonical_matrices", B+"models.py:Meijaard2007Model.form_state_space_matrices"])
p("state feedback closes the loop as A - B K",
  "The feedback model's A equals the open-loop A minus B K for the eight gains; with all gains zero it is the open-loop model.",
  "all gains, parameters, speeds",
  "all real gains",
  [B+"models.py:Meijaard2007WithFeedbackModel.form_state_space_matrices"])
p("simulation and gain plots reject what they cannot handle",
  "simulate and simulate_modes raise ValueError when any override is an array; plot_gains raises ValueError without exactly one swept non-gain parameter; nothing is changed.",
  "all override dictionaries",
  "all subsets",
  [B+"models.py:_Model.simulate", B+"models.py:_Model.plot_gains"])
p("the rider lean model feeds each parameter to its slot",
  "The 36 parameters are passed to the generated evaluator in the order it reads them, and the returned A and B are the generated matrices with the ignorable coordinate's and unused input's rows and columns removed.",
  "all parameter values",
  "slot errors only show for parameters that happen to be equal in tests",
  [B+"models.py:MooreRiderLean2012Model", B+"_mooreriderlean2012.py:eval_linear"])
p("the generated evaluator never reads uninitialised memory",
  "eval_linear assigns every intermediate before reading it and every entry of the matrices it returns.",
  "all 5031 intermediates and all matrix entries, for all inputs",
  "uninitialised reads give plausible numbers run by run",
  [B+"_mooreriderlean2012.py:eval_linear"])
# rider
p("rider vectors are rotated rigidly into the bicycle frame",
  "yeadon_vec_to_bicycle_vec is an isometry: it preserves distances, dot products and orientation, and maps the Yeadon origin to the given point.",
  "all vectors and origins",
  "all vectors",
  [B+"rider.py:yeadon_vec_to_bicycle_vec"])
p("the rider configuration is left-right symmetric and meets the constraints",
  "When the solver finds zeros of the residual, both hands are at the handlebar points, both feet at the bottom bracket, and left and right joint angles mirror each other.",
  "all bicycles and riders for which the solver converges",
  "all real configurations",
  [B+"rider.py:rider_on_bike"])
# app
p("the app shows each figure in its own place",
  "The geometry figure is sent to the geometry graph and the eigenvalue figure to the eigenvalue graph for every input.",
  "all inputs of the callback",
  "UI callback outputs are never asserted",
  [B+"app.py:plot_update"])
p("parameters shown in the app tables round-trip to the model",
  "The parameter values read back from the tables equal the parameters that were used to fill them.",
  "all parameter sets",
  "truncation only shows for non-integer degrees",
  [B+"app.py:populate_wheel_data", B+"app.py:new_par"])
p("plotted ellipses of inertia are ellipses with the given semi-axes",
  "Every point of the plotted curve satisfies the ellipse equation with the given centre, semi-axes and orientation.",
  "all centres, radii, angles and parameters along the curve",
  "all points of the curve",
  [B+"plot.py:_generate_ellipse_plot_data"])
# properties added as the model grew
p("a stationary bicycle is unstable",
  "At zero speed, every physical bicycle whose mass centre is above the ground has a real positive eigenvalue, so it falls over.",
  "all parameter dictionaries with a physical mass matrix",
  "all real parameter values",
  [B+"bicycle.py:ab_matrix"])
p("part_com_lines returns one line per measured orientation of every part",
  "For every part, the dictionary of centre of mass lines holds exactly one line for every alpha key of that part, in ascending key order, each being the com_line of that alpha and the matching a key; the wheels get no entry.",
  "all measured parameter dictionaries",
  "any number of orientations and parts",
  [B+"com.py:part_com_lines"])
p("loaded pendulum files hold only the useful entries",
  "The dictionary loaded from a pendulum .mat file lacks the three metadata keys, holds single strings and numbers instead of nested arrays, and keeps every other entry.",
  "all .mat dictionaries",
  "all key sets",
  [B+"io.py:load_pendulum_mat_file"])
p("sample times are multiples of the sampling period",
  "The i-th sample time used for fitting is i / rate for every sampling rate and length, and get_sample_rate returns ActualRate when it is stored and sampleRate otherwise.",
  "all rates and lengths",
  "any number of samples",
  [B+"period.py:get_period", B+"period.py:get_sample_rate"])
p("each orientation is paired with its own torsional period",
  "The orientation angle measured in the i-th orientation of a part is paired with the torsional period of the i-th orientation.",
  "all numbers of orientations",
  "pairing errors need ten orientations or a gap in the numbering",
  [B+"main.py:calculate_benchmark_from_measured"])
p("measuring a bicycle and computing its parameters gives the bicycle back",
  "If the measured angles, distances and periods are those produced by rigid bodies with given mass, mass centre and inertia tensor, calculate_benchmark_from_measured returns exactly these masses, mass centres and inertia components.",
  "all rigid bodies, all sets of at least three distinct orientations",
  "all real physical parameters and orientations",
  [B+"main.py:calculate_benchmark_from_measured"])
p("the inertia ellipse is drawn in the plane of the bicycle",
  "The principal axis dropped when drawing the ellipse of inertia of a part is the lateral axis, so that the two others span the symmetry plane.",
  "all inertia tensors symmetric about the plane of the bicycle",
  "depends on the order and sign of the eigenvectors",
  [B+"main.py:Bicycle.plot_bicycle_geometry"])
p("the lines drawn in the geometry plot are the measured ones",
  "The drawn steer axis meets the ground at x = w + c, and each drawn pendulum segment lies on its measured line, is centred on the point of the line closest to the part's mass centre and has the chosen length.",
  "all geometries and lines",
  "all real parameters",
  [B+"main.py:Bicycle.plot_bicycle_geometry"])
p("the model is the linearised mechanics of four rigid bodies",
  "For every bicycle rolling without slip at constant speed, small roll and steer motions satisfy the equations with the matrices returned by benchmark_par_to_canonical, and the state equation with those of ab_matrix, iff the moments of inertia, gyroscopic, gravity and ground forces on rear wheel, rear frame, front frame and front wheel balance about the heading line, the vertical and the steer axis.",
  "all parameter dictionaries, all twice differentiable rolling motions, all speeds and torques",
  "all real parameters and motions; unit tests compare with one published bicycle",
  [B+"bicycle.py:benchmark_par_to_canonical", B+"bicycle.py:ab_matrix"])
p("LaTeX names of variables are unambiguous",
  "to_latex returns a form for every documented variable name, with any part letter and any number of orientations, and different names never share a form.",
  "all documented names and numbers of orientations",
  "all pairs of names; collisions appear only for two digit orientations",
  [B+"tables.py:to_latex"])

p("parameter labels tell parameters apart",
  "The LaTeX labels of a parameter set class are pairwise different, so that a rendered table names each parameter unambiguously. (They are not for the two Moore2012 classes.)",
  "all classes and all pairs of their parameters",
  "needs every pair of labels of every class",
  [B+"parameter_sets.py:ParameterSet.par_strings"])
p("INI files and HTML tables hold the parameter values",
  "to_ini writes one line name=value per parameter in dictionary order, the value being a decimal with 16 places within 5e-17 of the stored one; the HTML table has one row per parameter of the class with its label and its value to 3 decimals.",
  "all parameter dictionaries",
  "values range over all floats; small ones lose all digits",
  [B+"parameter_sets.py:ParameterSet.to_ini", B+"parameter_sets.py:ParameterSet._repr_html_"])
p("drawn radii of gyration and inertia ellipses represent the inertia tensor",
  "The principal radii of gyration and the angle computed for a body reproduce its inertia tensor; half the body's mass at each end of the two drawn lines has the body's moment about every in-plane axis; the drawn ellipse is the outline of the uniform solid ellipsoid with the body's moments. (The ellipse is drawn at half that size.)",
  "all symmetric inertia tensors with non-negative moments, all masses, all in-plane axes",
  "continuous families of tensors; eigenvectors are only determined up to sign",
  [B+"parameter_sets.py:Meijaard2007ParameterSet._planar_principal_radii_of_gyration", B+"parameter_sets.py:Meijaard2007ParameterSet.plot_body_principal_inertia_ellipsoid", B+"parameter_sets.py:Meijaard2007ParameterSet.plot_body_principal_radii_of_gyration"])
p("the drawn person is a rhombus around the mass centre",
  "plot_person_diamond draws a closed rhombus centred at the person's mass centre with diagonals wP along the principal axis at angle alphaP and lP perpendicular to it.",
  "all centres, widths, lengths and angles",
  "continuous families",
  [B+"parameter_sets.py:Moore2019ParameterSet.plot_person_diamond"])
p("the drawn bicycle stands on the ground and its steer axis is the steer axis",
  "The wheel circles have the stored radii and touch the ground line exactly at the contact points; the dashed line lies on the steer axis and ends where the axis meets the ground, c ahead of the front contact point. (It starts at the foot of the perpendicular from the wheel centre, not at the wheel centre as documented.)",
  "all wheelbases, trails, tilts and radii",
  "continuous families",
  [B+"parameter_sets.py:_plot_geometry_from_benchmark"])

p("simulating leaves the caller's arrays unchanged",
  "simulate, simulate_modes and plot methods change neither the parameter set nor the arrays passed to them. (MooreRiderLean2012Model.simulate overwrites entry 9 of the caller's initial conditions with -v/rr, even when it then raises.)",
  "all models, parameter sets, overrides, times, initial conditions and input functions",
  "needs all histories of calls sharing one array",
  [B+"models.py:_Model.simulate", B+"models.py:MooreRiderLean2012Model.simulate"])
p("plot_eigenvectors draws the eigenvectors of each eigenvalue",
  "Each polar plot is titled with an eigenvalue and shows the angles and relative magnitudes of the components of its eigenvector, for each value of a swept parameter. (True for fixed parameters; with a sweep the axes of the array are transposed and wrong components are drawn.)",
  "all models, parameter sets, and sweeps of up to ten values",
  "needs every number of states and sweep values; a symmetric or small example hides the transposition",
  [B+"models.py:_Model.plot_eigenvectors"])
p("modal controllability is the angle between left eigenvectors and input columns",
  "For each swept value, mode and input calc_modal_controllability returns arccos of |Re(q^H b)| / (|q| |b|), zero iff the two are parallel and pi/2 iff they are orthogonal, in [0, pi/2] when acute. (The number depends on the phase in which eig returns the left eigenvector, and a call without arrays raises TypeError.)",
  "all models, overrides and eigenvector normalizations",
  "eigenvectors are determined up to a complex factor: all phases have to be considered",
  [B+"models.py:Meijaard2007Model.calc_modal_controllability"])
p("mode simulations follow the exponentials of the eigenvalues",
  "Row i of simulate_modes is Re(exp(lambda_i (t - t0)) v_i) at the given times, with the i-th eigenvalue and eigenvector of calc_eigen.",
  "all models, parameters and times between the first and the last one, an exact solver and correct eigenpairs",
  "a statement about solutions of differential equations for all matrices",
  [B+"models.py:_Model.simulate_modes"])
p("eigenvalue plots show the eigenvalues and shade the stable values",
  "For each swept value plot_eigenvalue_parts draws the real and the absolute imaginary part of each eigenvalue and shades the values at which all real parts are non-positive; sorting only permutes the modes at each value; without a sweep it raises. (The shading is computed from the sorted modes, where a sorted row may contain one eigenvalue twice, so that an unstable value may be shaded.)",
  "all models, sweeps and options",
  "whether a sorted row is a permutation depends on the whole history of the sweep",
  [B+"models.py:_Model.plot_eigenvalue_parts"])
p("calc_eigen is pointwise and its left eigenvectors are left eigenvectors",
  "Position i of the result of calc_eigen belongs to the state matrix with the i-th value of every swept parameter; with left=True the vectors are left eigenvectors and the eigenvalues are the same up to their order.",
  "all models, parameter sets, overrides and state matrices",
  "all matrices and sweeps",
  [B+"models.py:_Model.calc_eigen"])
p("simulate integrates the linear equations of motion",
  "The states returned by simulate are the values at the given times of the solution of x' = A x + B u(t, x) that starts at the initial conditions, with A and B of the overridden parameters, and the returned inputs are u(t, x(t)), zero without an input function; empty times or the wrong number of initial conditions raise.",
  "all models, overrides without arrays, times, initial conditions and input functions, an exact solver",
  "a statement about solutions of differential equations for all matrices and input functions",
  [B+"models.py:_Model.simulate"])

p("the rider's parameters are the mass properties of the rotated human",
  "For a human made of any masses, configure_rider's rider dictionary holds their total mass, their mass centre and their central moments of inertia computed from the positions that yeadon_vec_to_bicycle_vec gives them in the bicycle frame; the bicycle's dictionary changes only in the rear frame's entries, and for a mass centre in the symmetry plane the new rear frame has the moments of bicycle frame and rider together.",
  "all mass distributions, bicycles and measurements",
  "all tensors and positions; a symmetric example hides swapped axes",
  [B+"rider.py:configure_rider"])
p("the app's eigenvalue figure covers the slider's speed range",
  "The speeds are equally spaced, lie within the slider's bounds, include both when these are at least 0.2 apart, and there are floor(10 (hi - lo)) of them, none when the bounds coincide.",
  "all slider positions",
  "all pairs of bounds",
  [B+"app.py:plot_update"])

p("the rider lean matrices do not depend on the units","For every configuration and parameter set, expressing all masses, lengths and times in other units changes each entry of the matrices eval_linear returns by exactly the factor of its own dimension.","all configurations, speeds, torques, parameters and all changes of units","a wrong term in one of 5000 intermediates gives plausible numbers in SI units",[B+"_mooreriderlean2012.py:eval_linear"])
p("the mirror image of a rider lean motion is a motion","Reversing lateral position, yaw, roll, steer, lean, their rates and torques changes the sign of exactly those entries of the matrices eval_linear returns that link a lateral with a longitudinal quantity.","all configurations, speeds, torques and parameters","tests evaluate one configuration",[B+"_mooreriderlean2012.py:eval_linear"])
p("a rider lean motion run backwards is a motion","Reversing the speeds and the sign of the lean damping reverses the rates of the coordinates and leaves those of the speeds; at rest without damping no acceleration depends on a speed.","all configurations, speeds, torques and parameters","tests evaluate one configuration",[B+"_mooreriderlean2012.py:eval_linear"])
p("riding upright, lateral and forward motion are decoupled and the pitch is constant","At zero lateral coordinates, speeds and torques, for every pitch, speed and parameter set, the entries linking lateral with longitudinal quantities are zero, the row of the pitch is zero so that form_state_space_matrices may leave it out, and the wheel acceleration depends on no speed.","all speeds, pitch angles and parameters","tests look at one bicycle",[B+"_mooreriderlean2012.py:eval_linear",B+"models.py:MooreRiderLean2012Model.form_state_space_matrices"])
p("the rider lean model is the linearised Newton-Euler motion of five bodies","For all stored parameters and keyword arguments, each slice (A, B) returned by MooreRiderLean2012Model.form_state_space_matrices describes exactly the small motions about upright riding at speed v of rear wheel, rear frame, front frame, front wheel and leaning rider: x' = A x + B u holds iff the wheels roll without slipping and the moments about the roll, yaw, steer and lean axes are balanced, with weight, ground forces, gyroscopic moments, the rider's spring and damper and the three torques.","all parameter sets describing a standing bicycle with inertia, all speeds, all motions and torques","the 11000 generated lines are compared with one published matrix only",[B+"models.py:MooreRiderLean2012Model.form_state_space_matrices",B+"_mooreriderlean2012.py:eval_linear"])
p("the rider lean model at rest neither creates nor loses energy","At v = 0 there is a quadratic potential such that in every motion of the rider lean model kinetic energy plus potential changes exactly by the power of the torques minus what the rider's damper dissipates.","all parameter sets, all motions and torques","needs all motions",[B+"models.py:MooreRiderLean2012Model.form_state_space_matrices",B+"_mooreriderlean2012.py:eval_linear"])
p("with the rider not leaning, the rider lean model is the Whipple model","If the lean angle stays zero, roll and steer of the rider lean model satisfy the state space equations of ab_matrix with the canonical matrices of benchmark_par_to_canonical for benchmark parameters of the same bicycle with the rider attached to the rear frame.","all pairs of parameter sets of the same bicycle, all speeds, all motions without lean","the two models are never compared in the tests",[B+"models.py:MooreRiderLean2012Model.form_state_space_matrices",B+"_mooreriderlean2012.py:eval_linear",B+"bicycle.py:benchmark_par_to_canonical",B+"bicycle.py:ab_matrix"])

p("Bicycle.eig returns the modes of the motion at each speed","For a complete Benchmark set, Bicycle.eig(speeds) returns one set of four eigenvalues and eigenvectors for each speed, in the order given: each column is (q, lambda q) with q nonzero satisfying (lambda^2 M + lambda v C1 + g K0 + v^2 K2) q = 0, and the four eigenvalues are the roots of the determinant with multiplicity. A float is treated as a list of one speed; an int never works.","all complete Benchmark sets with an invertible mass matrix, all lists of speeds, every correct numpy.linalg.eig","all bicycles and speeds",[B+"main.py:Bicycle.eig",B+"bicycle.py:ab_matrix"])
p("the shaded range of speeds is the range of self-stable speeds","The interactive figure of the eigenvalues over speed shows, at each sampled speed in increasing order, real parts and absolute imaginary parts of eigenvalues of that speed. Every sampled speed at which the bicycle is self-stable lies in the shaded range, and the bicycle is self-stable at every sampled speed in the shaded range; if no sampled speed is self-stable the figure says so.","all bicycles, all lists of speeds","needs all bicycles: the self-stable speeds of a physical bicycle need not be an interval",[B+"main.py:Bicycle._plot_eigenvalues_vs_speed_plotly",B+"bicycle.py:sort_modes"])
p("plot_eigenvalues_vs_speed draws exponents of the motion at their own speed","The abscissae are the given speeds in increasing order. With largest=True the curve is the largest real part of an exponent of the motion at that speed, so that it is negative exactly where the bicycle is self-stable. Otherwise there are four modes, each a sequence of exponents at the respective speeds, whose absolute imaginary parts and real parts are drawn under the labels weave, weave, capsize and caster; at the lowest speed they are all exponents.","all bicycles, all non-empty lists of speeds, every correct numpy.linalg.eig","all bicycles and speeds",[B+"main.py:Bicycle.plot_eigenvalues_vs_speed",B+"bicycle.py:sort_modes"])
p("plot_bode shows the frequency response of the bicycle","The system Bicycle.plot_bode hands to control.bode has at every frequency w the response y of the equations of motion: with q exp(i w t) the answer to a unit torque on the roll or steer axis, it is the roll angle, steer angle, roll rate or steer rate of that motion. It is unique where i w is no exponent of the motion.","all complete Benchmark sets, speeds, frequencies, inputs and outputs","all bicycles, speeds and frequencies",[B+"main.py:Bicycle.plot_bode",B+"main.py:Bicycle.state_space"])
p("plot_mode_simulations draws every state of every mode","One row of panels for each mode shown, titled with its eigenvalue; in each row the trajectories Re(exp(lambda (t - t0)) v) of all states, each once, in the panel of its unit and under its own name, angles in degrees. Modes are hidden only by hide_zeros.","all models, parameters without arrays, times, eigenvalues, tolerances","all models and parameters",[B+"models.py:_Model.plot_mode_simulations",B+"models.py:MooreRiderLean2012Model.state_units"])
p("plot_simulation draws every input and state once under its name","Meijaard2007Model.plot_simulation and MooreRiderLean2012Model.plot_simulation draw each input and each state trajectory returned by simulate exactly once with its own label, angles and rates in degrees; errors of simulate are passed on. The rider lean model starts with entry 9 of the initial conditions replaced by -v/rr and leaves it so in the caller's array.","all parameters, times, initial conditions, inputs and solvers","all trajectories",[B+"models.py:Meijaard2007Model.plot_simulation",B+"models.py:MooreRiderLean2012Model.plot_simulation"])
p("save_parameters with a rider writes the rider's two files and nothing else","After add_rider, save_parameters writes <rider><bicycle>Benchmark.txt with the rider's parameters into the rider's Parameters directory and with those of bicycle and rider into its sub-directory Combined, asking before it overwrites; no other file changes. A later add_rider without recalculation finds exactly these values. Without a rider only the bicycle's own directory changes; Matlab and pickle are not implemented, unknown file types are silently ignored.","all riders, bicycles, sequences of add_rider, file contents and answers","all directory contents and histories",[B+"main.py:Bicycle.save_parameters",B+"main.py:Bicycle.add_rider",B+"main.py:Bicycle.__str__"])
p("get_period returns the period at the least-squares fit with the propagated standard deviation","With at least eleven samples, and a local minimum p of the sum of squared differences found by leastsq, get_period returns the period of the decaying oscillation with the parameters p and a standard deviation whose square is the residual variance (n - 5 degrees of freedom) times the sum over damping ratio and natural frequency of the squared sensitivity of the period times the diagonal entry of the inverse normal matrix; it is zero iff every sample lies on the oscillation. (The covariance of the two is left out.) get_period_from_truncated cuts the samples only when a rate is given.","all data, integer sample rates, time arrays and every leastsq that finds a local minimum","all data; the fit is checked on one recording",[B+"period.py:get_period",B+"period.py:get_period_from_truncated",B+"period.py:jac_fitfunc",B+"period.py:fit_goodness"])
p("make_guess gives a usable first guess","With fewer than eleven samples IndexError; otherwise the offset is the mean, the amplitudes have the size of the largest deviation above the mean and the direction of the first ten samples, the damping ratio is 0.001, and the frequency is 4 or that of the zero crossings more than 20 samples apart, two for each period; the frequency is positive and, if not 4, below pi/20 times the sample rate.","all data and positive rates","all data",[B+"period.py:make_guess"])
p("average_rectified_sections cuts from the strongest section to the weakest above average","The result is the contiguous part of the data from the first largest deviation in the strongest section between sign changes up to that in the weakest section whose average is above the mean of all sections. ValueError iff there are no data, the sign changes after the very first sample, or all sections have the same average; nothing is left when only one section is above the mean.","all data","all data",[B+"period.py:average_rectified_sections"])
p("Plots of a parameter set show every body once, at its mass centre, in its own colour","A set can be created iff the matplotlib style has a colour for each body of its class (else IndexError), and with distinct colours two bodies never share one. plot_mass_centers, plot_principal_radii_of_gyration and plot_principal_inertia_ellipsoids of a valid set draw exactly the bodies asked for, in order, each at its mass centre, in its colour, labelled or with radii and angle that describe its inertia; plot_geometry draws ground, wheels, frame and the steer axis iff asked; plot_person_diamond a rhombus and iff asked its diagonals; plot_all always succeeds and draws each of these once and nothing else. A body the class does not have raises KeyError, with the bodies before it drawn. Any sequence of calls on the same axes keeps what was drawn, and after the first call that succeeds z points down for good. The classes of Moore2012 have no plots.","all valid parameter sets, styles, lists of bodies, axes with earlier drawings and sequences of calls that fail or not","all sets, lists and call histories; tests only check that the calls do not raise",[B+"parameter_sets.py:_com_symbol",B+"parameter_sets.py:_plot_geometry_from_benchmark",B+"parameter_sets.py:ParameterSet._generate_body_colors",B+"parameter_sets.py:ParameterSet._finalize_plot",B+"parameter_sets.py:Meijaard2007ParameterSet.plot_all",B+"parameter_sets.py:Meijaard2007ParameterSet.plot_mass_centers",B+"parameter_sets.py:Moore2019ParameterSet.plot_all",B+"parameter_sets.py:Moore2019ParameterSet.plot_person_diamond"])
p("plot_bicycle_geometry shows the bicycle, its mass centres, ellipses, pendulum axes and rider","A returned figure shows the ground from the back of the rear to the front of the front wheel, both wheels on it with the stored radii and wheelbase, the frame from hub to hub and the steer axis down to the distance w + c; with centerOfMass one labelled symbol at the mass centre of each part in its colour; with inertiaEllipse one momental ellipse of each part about its mass centre; with pendulum (and measurements, and no rider) one numbered line for each measurement on the measured line; with a rider the connected stick figure; and the limits of the vertical axis enclose all of ground, wheels, frame and head. (The ellipse is mirrored, wrong or missing depending on the signs of the eigenvectors.)","all parameter sets, options, measurements, riders, colour maps and eigenvector signs","all parameter values and eigenvector signs",[B+"main.py:Bicycle.plot_bicycle_geometry"])
p("The plotly geometry figure shows the same as the matplotlib one","For every bicycle and every choice of options for which plot_bicycle_geometry returns a figure, the plotly figure has the same ground, frame, steer axis, wheels, pendulum lines, mass centres, ellipses and rider. (Ground, frame, steer axis, wheels, pendulum lines and mass centres are the same; the ellipses are wrong, of the rider only the lower leg is drawn, and a fork without mass or more parts than colours raise.)","all parameter sets, options, measurements and riders","all parameter values and part lists",[B+"main.py:Bicycle._plot_bicycle_geometry_plotly"])
p("plot_eigenvalues compares bicycles in one figure","The figure has one group of lines for each bicycle, in the order given and in its own colour: with largest=True the largest real part of its exponents in its line style, otherwise the real and imaginary parts of its four modes; the legend lists each bicycle's name once, in order, in its colour. Default colours are distinct as far as the colour map is; line styles have no effect without largest. No bicycles raise UnboundLocalError, too few colours or line styles IndexError.","all non-empty lists of bicycles with complete Benchmark sets, speeds, colours, line styles and every correct numpy.linalg.eig","all lists of bicycles and speeds",[B+"plot.py:plot_eigenvalues",B+"main.py:Bicycle.plot_eigenvalues_vs_speed"])
p("compare_bode_bicycles and compare_bode_speeds show the frequency responses, with aligned phases","One line in each of the two axes for each bicycle (speed), in order, labelled with the name (speed): magnitude and phase of the frequency response of that bicycle at that speed, from the torque to the quantity that the title names, at 1000 frequencies from 1 to 100 rad/s with a constant ratio; the first phase is between -180 and 180 degrees. Lines already in the figure are only shifted by whole turns. The bicycles' models do not change; the same bicycle may occur twice. Negative indices count from the end, others raise IndexError; without bicycles and figure AttributeError. Comparing again leaves lines alone unless they start at exactly 180 or -180 degrees, which flip.","all bicycles, lists with repetitions, speeds, integer indices, figures with earlier lines and every correct control.bode","all bicycles, speeds, figures and histories of calls",[B+"plot.py:compare_bode_bicycles",B+"main.py:Bicycle.compare_bode_speeds",B+"main.py:Bicycle.plot_bode"])
p("uncertainties propagate to the canonical matrices and the state space to first order","For every parameter set with uncertainties, each entry of canonical(nominal=False) and of state_space(speed, nominal=False) carries the value and the first-order sensitivities of the entry computed from the true parameters; for independent parameters its standard deviation is the root of the sum of the squares of partial derivative times standard deviation; the nominal values are those computed from the nominal parameters, with the same exceptions.","all parameter sets, correlated or independent uncertainties, speeds","a test compares one bicycle's standard deviations; that no correlation is lost on the way is a statement about derivatives at all points",[B+"main.py:Bicycle.canonical",B+"main.py:Bicycle.state_space",B+"bicycle.py:benchmark_par_to_canonical",B+"bicycle.py:ab_matrix"])
p("the steer axis tilt has the standard deviation of its measurements","lambda_from_abc of five numbers with uncertainties (floats are accepted too, says its docstring) returns the tilt of the nominal values with the first-order standard deviation of the true tilt. (The code accepts no floats and takes the standard deviation of arctan(c/(a+b)), leaving out the wheel radii.)","all wheel radii and frame lengths, all joint uncertainties","the standard deviation is an implicit derivative; tests look at the nominal value",[B+"geometry.py:lambda_from_abc"])
p("the measured geometry has the standard deviations of the measurements","calculate_benchmark_geometry returns the geometry of the nominal measurements, each value with the first-order standard deviation of the value computed from the true measurements. (With a measured wheelbase it does; without, the tilt returned is independent of the lengths it is computed from, so the trail can have a wrong standard deviation, and measurements given as floats can raise AttributeError.)","all measured parameter dictionaries with and without wheelbase, floats and uncertain values mixed","correlations through an implicitly solved intermediate are invisible in nominal values",[B+"geometry.py:calculate_benchmark_geometry",B+"geometry.py:lambda_from_abc",B+"geometry.py:trail"])
p("the benchmark parameters have the standard deviations of the measurements","calculate_benchmark_from_measured returns the benchmark parameters of the nominal measurements, each with the first-order standard deviation (and correlations) of the parameter computed from the true measurements. (With a measured wheelbase it does; without, see C124.)","all measured parameter dictionaries, floats and uncertain values mixed, all joint uncertainties","a test compares one bicycle; that no correlation is lost through the periods, the pendulum lines, the centres of mass and the pseudo-inverse of the inertia fit is a statement about derivatives at all points",[B+"main.py:calculate_benchmark_from_measured",B+"com.py:part_com_lines",B+"com.py:center_of_mass",B+"inertia.py:part_inertia_tensor",B+"inertia.py:tor_inertia",B+"inertia.py:compound_pendulum_inertia",B+"geometry.py:distance_to_steer_axis"])
p("the rider lean matrices are the Jacobian of the equations of motion","In every configuration, upright or not, the matrices A and B that eval_linear returns are the partial derivatives of the rates of the states (q1p .. q9p, u4p, u6p, u7p, u9p) it computes, with respect to the states and the torques; C and D those of the outputs. Only a front wheel flat on the ground, dependent rolling conditions or a singular inertia matrix make it divide by zero.","all states, torques, parameters and tilts lam for which no division by zero occurs","the partial derivatives are ten thousand lines of generated code with 4531 intermediate results; finite differences test one configuration with rounding errors, and any term that vanishes in it is not tested",[B+"_mooreriderlean2012.py:eval_linear"])
p("riding straight ahead is a steady motion","Upright riding straight ahead, at any speed, is a steady motion of the nonlinear equations of the rider lean model: the bicycle moves forward with the speed at which the rear wheel rolls, both wheels spin, nothing else changes; and A and B describe the motions near it up to an error that is small compared to the deviation.","all speeds and all bicycles that stand on the ground and have inertia","a test evaluates one bicycle at some speeds; the size of the error for all small deviations is a limit",[B+"_mooreriderlean2012.py:eval_linear",B+"models.py:MooreRiderLean2012Model"])
p("the wheels are round","The rates of the states that eval_linear computes, and the matrices it returns, do not depend on how far the wheels have turned (q6, q8) nor on the place (q1, q2); so riding straight ahead for any length of time solves the nonlinear equations of motion.","all states, torques, parameters and tilts; the matrices wherever no division by zero occurs","two of the eight angles enter hundreds of the intermediate results and have to cancel exactly; a test compares some angles with rounding errors",[B+"_mooreriderlean2012.py:eval_linear"])
p("all places and directions are alike","Turning and moving a bicycle of the rider lean model on the ground turns the velocity of its contact point by the same angle and changes no other rate; the first two rows of A and B are turned, the column of A for the heading is (-q2p, q1p, 0, ...); every ride is possible at every place in every direction.","all states, torques, parameters, tilts, angles and translations; all solutions of the equations of motion","a symmetry under a continuous group, of all solutions of a differential equation; a test integrates one ride approximately",[B+"_mooreriderlean2012.py:eval_linear"])
p("the wheels roll without slipping and stay on the ground","On every motion that solves the nonlinear equations of motion of eval_linear, the point of the rear wheel that touches the ground is at rest, the lowest point of the front wheel is at rest, and the height of the lowest point of the front wheel never changes.","all states and torques where no division by zero occurs, all solutions on any interval, all parameters with positive wheel radii","a velocity is a derivative along a solution, and the claim is about all solutions; a test integrates one ride with a tolerance that hides slow slipping",[B+"_mooreriderlean2012.py:eval_linear"])
p("the mirror image, the reverse and the rescaling of a ride are rides","For the nonlinear equations of motion of eval_linear, the mirror image of a motion solves them under the mirrored torques, a motion run backwards solves them for the bicycle with the opposite lean damping, and a motion written in other units of mass, length and time solves them for the parameters and torques in these units.","all parameters, states and torques, all solutions, all positive unit factors","a sign error in one of a thousand statements shows only at states that are leaned and steered at once; the claim is about all states",[B+"_mooreriderlean2012.py:eval_linear"])
p("the state determines the ride","For the nonlinear equations of motion of eval_linear under torques that depend smoothly on time and state, a ride exists from every state in which no division by zero occurs, and two rides that agree at one time agree at all times. If the torques prefer no side, a bicycle that once runs straight and upright with no lean or steer rate keeps doing so, whatever the driving torque does.","all parameters, smooth torque laws, states and rides on any interval","existence and uniqueness of solutions are about a continuum of states and times; an integrator only produces one approximate candidate",[B+"_mooreriderlean2012.py:eval_linear"])
p("the ride obeys the laws of mechanics","For the nonlinear equations of motion of eval_linear: let the rear frame, rear wheel, front frame, front wheel and rider be made of particles that have the masses and moments of inertia of the parameter set. Along every ride, for every motion through the same place whose wheels roll, the power of mass times acceleration of the particles on the velocities of that motion is the power of gravity, of the four torques and of the spring and damper of the lean axis (the principle of d'Alembert).","all parameter sets with a positive front wheel radius, all collections of particles with these inertias, all smooth torque laws, all rides without division by zero, all times, all rolling motions through the place","tests compare the matrices with another derivation at a few states; here every state, speed and torque is related to the law of Newton for the particles",[B+"_mooreriderlean2012.py:eval_linear"])
p("energy balance of a ride","Along every ride of the nonlinear equations of motion of eval_linear the sum of kinetic energy, potential energy and the energy of the lean spring changes as fast as the torques supply energy, less what the lean damper takes. Without torques and damper it is constant; without torques and with a damper it never grows.","all parameter sets, all collections of particles with these inertias, all smooth torque laws, all rides without division by zero, all times","a wrong sign in one of a thousand statements would let the bicycle gain energy from nothing at some state that no test visits",[B+"_mooreriderlean2012.py:eval_linear"])
p("the equations of motion are the laws of mechanics","Among the motions at whose places the nonlinear equations of motion of eval_linear are defined, those that follow these equations are exactly those whose wheels roll without slip, whose speed states are the rates of the roll, rear wheel, steer and rider angles, and that obey the principle of d'Alembert for the particles of the five bodies under gravity, the four torques and the lean spring and damper.","all parameter sets with a positive front wheel radius, all collections of particles with these inertias, all smooth torque laws, all differentiable motions, all time intervals","a test can show that a simulated motion keeps some law; that no other motion keeps the laws, and that none of the thousand statements is wrong at any state, needs a proof",[B+"_mooreriderlean2012.py:eval_linear"])
p("a session keeps the data, whatever the commands and wherever it is stopped","In any history of constructing bicycles, adding riders and saving parameters, each command finished, failed or stopped anywhere, the files of the pendulum measurements keep their contents, no file disappears, the files of bicycles never named are untouched, and a save that is declined writes nothing; a file whose writing was stopped is empty or holds a beginning of what was to be written; the measured lines of a bicycle survive every history.","all histories of commands, all data directories, all points at which the program is stopped","a test runs a few commands in one order; the claim is about every sequence of commands and every moment at which the program dies",[B+"main.py:Bicycle.__init__",B+"main.py:Bicycle.save_parameters",B+"main.py:Bicycle.add_rider",B+"io.py:write_periods_to_file",B+"io.py:write_parameter_text_file"])
p("a parameter file that was cut off has at most one wrong value","If the writing of a parameter file was stopped anywhere, a file cut between two lines loads to the right values of the alphabetically first parameters and nothing else; cut inside a line it fails to load or has at most one wrong value, that of the next parameter in the alphabet.","all parameter dictionaries with printable keys and values, all number formats, all points at which the writing is stopped","a test can cut a file at a few places; the claim is about every dictionary and every place",[B+"io.py:write_parameter_text_file",B+"io.py:load_parameter_text_file"])
p("the figure of a period shows the measurement and its fit","The figure that get_period writes has the measured points and the fitted curve on one axes over the whole time of the measurement, with a title whose formula is the fitted function; afterwards the open figures, the active figure and all other figures are as before, also after any number of measurements. plot_osfit without a figure makes such a figure.","all measurements and fits, all states of pyplot, all numbers of measurements","a test looks at one image in a fresh process; the claim is about every state that other figures can be in",[B+"period.py:plot_osfit",B+"period.py:get_period"])
p("the web app shows what is in the file","Choosing a bicycle with a saved Benchmark file in the web app fills each cell of the three tables with the number of that name in the file, without its uncertainty (the tilt in whole degrees), and changes nothing in the directory of the bicycle.","all bicycles with a saved Benchmark file that can be constructed, all contents of that file","a test checks one bicycle; the claim is about every file and every cell",[B+"app.py:new_par",B+"app.py:populate_wheel_data",B+"io.py:remove_uncertainties"])
p("programs that write a file at the same time do not spoil it","Whatever the order of the steps of several programs (or threads of the web app) that write one file of the data directory: while one program writes, a reader finds the old content or a beginning of the new one; when programs that write the same text have finished, the file holds that text; when constructions of one bicycle that write its periods have finished, the file is as if one had written it alone; when saves of different values have finished, the file loads.","all schedules of the steps of any number of programs, all contents, all sizes of the pieces that reach the file","a test runs one schedule and cannot choose it; the claim is about every interleaving",[B+"io.py:write_parameter_text_file",B+"io.py:write_periods_to_file",B+"io.py:load_parameter_text_file"])
p("a parameter set stays what it was built as","No function of the package changes a dictionary, a parameter set or a model that exists. A set built from a dictionary shows, after any later history, what that dictionary holds then; a set or a model obtained by conversion to another parameterization is separate and keeps the converted values; models of the own parameterization share the set. At every moment every set has all the parameters of its class as floats.","all histories of calls that make dictionaries, sets, conversions and models, with any changes of the dictionaries by the program in between","a test looks at one program; aliasing shows only over arbitrary later histories",[B+"parameter_sets.py:ParameterSet.__init__",B+"parameter_sets.py:Meijaard2007ParameterSet.to_parameterization",B+"parameter_sets.py:Moore2019ParameterSet.to_parameterization",B+"models.py:Meijaard2007Model.__init__"])
p("which speeds are self-stable","For every bicycle with a positive definite mass matrix, all eigenvalues of the state matrix of ab_matrix have negative real parts at a speed iff the five inequalities of Routh and Hurwitz hold for its canonical matrices. It is never so at rest, never in both directions; stability is lost only at a speed with an eigenvalue on the imaginary axis; the eigenvalue zero occurs at one speed only; and the self-stable forward speeds are at most two ranges.","all canonical matrices or all complete dictionaries, all speeds and gravities","a plot samples the speeds; the claim is about every speed between the samples",[B+"bicycle.py:ab_matrix",B+"bicycle.py:benchmark_par_to_canonical",B+"main.py:Bicycle.plot_eigenvalues_vs_speed"])
p("the Whipple model does not depend on the units","With masses, lengths and times expressed in other units, benchmark_par_to_canonical and ab_matrix return for the same bicycle the same matrices, each entry multiplied by the factor of its dimension, and the eigenvalues are the same rates in the new unit of time.","all dictionaries, speeds, gravities and all changes of units","a term of the wrong dimension gives plausible numbers in SI units",[B+"bicycle.py:benchmark_par_to_canonical",B+"bicycle.py:ab_matrix"])
p("the gains of the feedback model can give any linear dynamics","For every stored parameter set whose mass matrix is invertible, and every wanted linear law for the roll and steer accelerations, exactly one choice of the eight gains, given as keyword arguments to form_state_space_matrices, makes the returned state matrix that of the law; so for every such bicycle and speed there are gains for which all eigenvalues of the returned state matrix have negative real parts.","all parameter sets with an invertible mass matrix, all 2x4 laws","a test tries some gains; that every dynamics is within reach, and by one gain matrix only, is a statement about all",[B+"models.py:Meijaard2007WithFeedbackModel.form_state_space_matrices"])
p("the steady turn","In the state space form of every bicycle, a constant lean and steer without roll torque is a steady motion only if the moment of gravity on the lean equals the centrifugal moment of the masses plus the gyroscopic moment of the wheels less the moment of the masses moved sideways by the steer. For every steer angle there is exactly one such lean and steer torque; the bicycle leans into the turn iff it is faster than the speed these terms give; the torque is zero iff zero is an eigenvalue; and at a self-stable speed it is against the steer angle.","all complete dictionaries, speeds, gravities and steer angles","the relations couple entries of all four matrices and hold at every speed",[B+"bicycle.py:ab_matrix",B+"bicycle.py:benchmark_par_to_canonical"])
p("a bicycle with a rider is a bicycle","When combine_bike_rider succeeds on the parameters of a physically sensible bicycle and a rider with non-negative mass and the inertia of some body, wherever the rider sits, the result is again physically sensible and its canonical mass matrix is invertible; the gravity stiffness is that of the bicycle plus that of the rider, and standing still it is unstable if the bicycle is and the rider is above the ground. Riders (or luggage) in the plane of the bicycle can be added in either order with the same result under every key.","all bicycle and rider dictionaries","the later analysis assumes a physical bicycle for whatever rider was added",[B+"inertia.py:combine_bike_rider",B+"bicycle.py:benchmark_par_to_canonical",B+"main.py:Bicycle.add_rider"])
p("what a stable speed means for the motions","At a speed all eigenvalues of the state matrix have negative real parts iff every free motion, from whatever initial state, dies out; then all do so at least as fast as one common exponential. A physical bicycle that stands still has, as near to upright as one likes, a start from which it does not return. In the feedback model there are gains with which every free motion dies out.","all canonical matrices, speeds, gravities, all motions","a simulation is one motion for a finite time",[B+"bicycle.py:ab_matrix",B+"models.py:Meijaard2007Model.plot_eigenvalue_parts",B+"models.py:Meijaard2007WithFeedbackModel.form_state_space_matrices"])
p("what a Bode plot says about the motions","At a self-stable speed the system that plot_bode draws has exactly one response at every frequency, and under a harmonic torque of unit amplitude on the chosen input every motion of the bicycle, from whatever initial state, approaches the harmonic motion with the plotted amplitude and phase.","all parameter sets with an invertible mass matrix, all self-stable speeds, frequencies, inputs, outputs and motions","the plot is read as a statement about all motions after long times",[B+"main.py:Bicycle.plot_bode",B+"bicycle.py:ab_matrix"])
p("the standing bicycle","At speed zero, under any torques, the kinetic energy of the four bodies plus the energy of their weights changes exactly by the power of the torques. All eigenvalues of the state matrix are real or purely imaginary and come in pairs of opposite sign; with the masses above the ground they are all real iff the determinant of the gravity stiffness is not negative.","all complete dictionaries with a positive definite mass matrix, all gravities, torques and motions","a sign error in one entry of a matrix feeds energy into the bicycle and is not seen in a few eigenvalues",[B+"bicycle.py:ab_matrix",B+"bicycle.py:benchmark_par_to_canonical"])
p("the self-stable speeds of the shipped bicycles","For the benchmark bicycle of the data directory and for both Browser dictionaries of parameter_dicts there are two speeds such that, at every real speed, all eigenvalues of the state matrix have negative real parts iff the speed is strictly between the two; for the benchmark they are within 2e-14 m/s of the published 4.29238253634111 and 6.02426201538837. A sweep of the model over any list of speeds shows it at each position.","all real speeds, all lists of speeds","a plot samples the speeds; only a proof excludes a second stable or unstable range between the samples",[B+"parameter_dicts.py:meijaard2007_browser_jason",B+"parameter_dicts.py:meijaard2007_browser_jasonlegs","data/bicycles/Benchmark/Parameters/BenchmarkBenchmark.txt",B+"bicycle.py:ab_matrix",B+"models.py:Meijaard2007Model.form_state_space_matrices"])
p("the shipped dictionaries describe one bicycle","Every dictionary of parameter_dicts is accepted by the class it is named after, and they describe the same bicycle with the same rider: what does not belong to the rider agrees between them.","all parameters of the four dictionaries, all speeds","no test compares the dictionaries; that two numbers are exchanged is seen only in a comparison, and that it matters only from the results at all speeds",[B+"parameter_dicts.py:meijaard2007_browser_jason",B+"parameter_dicts.py:meijaard2007_browser_jasonlegs",B+"parameter_dicts.py:moore2019_browser_jason",B+"parameter_dicts.py:mooreriderlean2012_browser_jason",B+"parameter_sets.py:ParameterSet._check_parameters"])
p("simulations die out exactly at the self-stable speeds","For Meijaard2007Model, with or without feedback, if the state matrix of the chosen parameters has only eigenvalues with negative real parts, there are K and a > 0, depending on the parameters only, such that in every result of simulate without inputs each state at time t is at most K exp(-a (t - t0)) times the sum of the absolute initial conditions; if there are such K and a, the eigenvalues have negative real parts. So it is for the shipped Browser dictionaries at every speed of their self-stable range.","all parameter sets, keyword arguments without arrays, initial conditions and lists of times","a simulation shows one motion for a finite time",[B+"models.py:_Model.simulate",B+"models.py:Meijaard2007Model.form_state_space_matrices"])
p("the converted Moore (2019) dictionary of the package has one known self-stable range","moore2019_browser_jason, each decimal read as the nearest float, is accepted by Moore2019ParameterSet and converts to Meijaard2007; every converted parameter is within 2e-12 of a known value; the converted bicycle is self-stable at exactly the speeds between two, within 1e-6 of 5.144114 and 7.721694 m/s, and a sweep of the model over speeds is stable at those speeds and at no others. The range is not that of meijaard2007_browser_jason.","all dictionaries within one part in 2^53 of the decimals, all speeds","tests compare single speeds with a tolerance",[B+"parameter_dicts.py:moore2019_browser_jason",B+"conversions.py:_convert_principal_to_benchmark",B+"parameter_sets.py:Moore2019ParameterSet.to_parameterization",B+"bicycle.py:benchmark_par_to_canonical"])
p("rounding does not spoil the canonical matrices of the shipped bicycles","Let each operation of benchmark_par_to_canonical return its exact result rounded, in any way, by at most one part in 2^52. For the benchmark bicycle and the two shipped Browser dictionaries, read as floats, every entry of the computed matrices is within 1e-12 of the exact one, and the computed matrices are self-stable at the speeds of one range, the ends of which agree with the exact ones. For every dictionary the computed M and K0 are exactly symmetric and the zero entries are zero.","all ways of rounding every operation, all dictionaries near the decimals, all speeds","a test sees the rounding of one machine",[B+"bicycle.py:benchmark_par_to_canonical",B+"parameter_dicts.py:meijaard2007_browser_jason",B+"parameter_dicts.py:meijaard2007_browser_jasonlegs"])
p("relative rounding errors for every bicycle and pendulum","Let each operation return its exact result rounded, in any way, by at most one part in 2^52 (no overflow or underflow). For every ordinary bicycle the entries M[0,0], K0[0,0], K2[0,1] and C1[1,0] that benchmark_par_to_canonical computes have relative errors below one part in 2^48, 2^47, 2^46 and 2^48. For all nonnegative arguments and positive periods, tor_inertia, torsional_pendulum_stiffness and tube_inertia have relative errors below one part in 2^48, and measuring the calibration rod again returns its moment of inertia to one part in 2^47.","all ways of rounding every operation, all ordinary bicycles, all pendulums and tubes","a test sees the rounding of one machine on a few bicycles",[B+"bicycle.py:benchmark_par_to_canonical",B+"inertia.py:tor_inertia",B+"inertia.py:torsional_pendulum_stiffness",B+"inertia.py:tube_inertia"])
p("rounding in ab_matrix does not move the self-stable speeds","Let each operation of benchmark_par_to_canonical and ab_matrix return its exact result rounded, in any way, by at most one part in 2^52 (no overflow or underflow). At every speed from 4.29238254 to 6.02426201 m/s all eigenvalues of the state matrix computed for the benchmark bicycle have negative real parts; at every speed up to 4.29238253 or from 6.02426202 m/s on one of them does not; likewise for the two shipped Browser dictionaries. For every bicycle with a well-conditioned mass matrix the computed state matrix is exactly that of canonical matrices nearby.","all ways of rounding every operation, all speeds, all dictionaries near the decimals; all canonical matrices for the second part","a test sees the rounding of one machine at a few speeds",[B+"bicycle.py:benchmark_par_to_canonical",B+"bicycle.py:ab_matrix"])
p("the eigenvalues that are returned decide self-stability in spite of rounding","Let each operation of benchmark_par_to_canonical and ab_matrix return its exact result rounded, in any way, by at most one part in 2^52, and let the eigenvalues be computed by any backward stable method: what it returns are the eigenvalues of a real matrix whose entries differ by at most 2^-47 times the largest entry. Then at every speed from 2 to 10 m/s all eigenvalues returned for the benchmark bicycle have negative real parts from 4.296 to 6.019 m/s, and not all of them up to 4.289 or from 6.029 m/s on; likewise for the two shipped Browser dictionaries.","all ways of rounding, all backward stable eigenvalue methods, all speeds from 2 to 10 m/s, all dictionaries near the decimals","a test sees one LAPACK at a few speeds",[B+"bicycle.py:benchmark_par_to_canonical",B+"bicycle.py:ab_matrix",B+"main.py:Bicycle.eig"])
p("part_inertia_tensor works for every mixture of floats and uncertain numbers","For every dictionary that holds the entries of a part, each a float or a number with an uncertainty, part_inertia_tensor returns the symmetric tensor with these entries (for a wheel xx also in the place of zz); if an entry is missing it raises.","all dictionaries with floats and uncertain numbers, all seven parts","a test uses a dictionary of floats or one of uncertain numbers; the mixtures are many",[B+"inertia.py:part_inertia_tensor"])
p("cartesian keeps the values of the arrays","Every row that cartesian returns holds one value of each array, unchanged, whatever the types (integers or floats) and the order of the arrays.","all positive numbers of non-empty arrays of integers or floats","the types, sizes and orders of the arrays are unbounded",[B+"com.py:cartesian"])
p("with small steps sort_eigenmodes follows the modes","For any modes that depend continuously on the speed and never meet between two speeds there is a step so small that, for every list of speeds in smaller steps and every order in which the eigenvalues (and with them the eigenvectors) are given at each speed, each column of the result of sort_eigenmodes follows one mode through all speeds; likewise caster, capsize and weave of sort_modes.","all numbers of modes, continuous modes, lists of speeds and orders at each speed","a test uses a few modes and one grid of speeds",[B+"bicycle.py:sort_eigenmodes",B+"bicycle.py:sort_modes"])
p("with small steps in speed sort_eigenmodes loses no eigenvalue of the bicycle","For every bicycle and every range of speeds in which its state matrix has no repeated eigenvalue there is a step so small that, for every list of speeds of that range in smaller steps and every order in which numpy.linalg.eig gives the eigenvalues at each speed, each row of the result of sort_eigenmodes is a permutation of the eigenvalues at that speed.","all bicycles, ranges, lists of speeds and orders at each speed; more generally all matrices of any size that depend continuously on the speed","a test uses one bicycle and one grid of speeds",[B+"bicycle.py:sort_eigenmodes",B+"bicycle.py:ab_matrix"])
p("sort_eigenmodes loses no eigenvalue of the benchmark bicycle","For the benchmark bicycle of the repository, read as floats and with every rounding of the arithmetic of benchmark_par_to_canonical: the state matrix of ab_matrix has four different eigenvalues at every speed, except between 0.68 and 0.69 m/s, where two eigenvalues meet; and for every range of speeds on one side of the meeting there is a step so small that sort_eigenmodes loses and doubles no eigenvalue in any sweep in smaller steps.","all speeds, top speeds, sweeps, orders of the eigenvalues at each speed and roundings","a test uses one grid of speeds on one machine",[B+"bicycle.py:sort_eigenmodes",B+"bicycle.py:ab_matrix",B+"bicycle.py:benchmark_par_to_canonical"])
p("calculate_from_measured uses exactly the .mat files, whatever the order of the listing","For every bicycle directory whose file names are different: calculate_from_measured returns the same, raises the same exception, and leaves the same parameter sets and the same files for every order in which os.listdir lists RawData; and when the periods are calculated and every pendulum file loads, the measured parameters hold for each experiment the mean of the periods of all files whose name ends in .mat and that belong to it, by ascending name, and are otherwise those of the text file.","all directories, orders of the listing, contents and forcePeriodCalc","a test has one directory listed in the order of one operating system",[B+"main.py:Bicycle.calculate_from_measured",B+"period.py:calc_periods_for_files"])
p("a new Bicycle does not depend on the order of the directory listings, unless two files stand for one set","For every data directory: Bicycle(...) gives the same object, or the same exception, for every order in which os.listdir lists RawData; and the parameter sets loaded from Parameters are the same for every order in which it is listed, when no two files stand for the same set. Two files such as XBenchmark.txt and YBenchmark.txt stand for the same set, and which one the object holds then depends on the order.","all directories, orders of the listings and arguments","a test has one directory listed in the order of one operating system",[B+"main.py:Bicycle.__init__",B+"main.py:Bicycle.calculate_from_measured"])
OV = {
 "C70": dict(statement="eval_linear assigns every intermediate exactly once and before reading it, and every entry of the matrices it returns: with any arithmetic the result is a function of the arguments alone, and not of q1, q2; D is zero, torques act on speeds only, the rates of q4, q6, q7, q9 are u4, u6, u7, u9, and C lists the coordinates and the rows of A."),
 "C72": dict(statement="The residual given to the solver is zero for some auxiliary unknowns iff, seen from the side, the foot is at the bottom bracket, the left hand is at the handlebar (half its width to the side, LhbR from the rear and LhbF from the front hub) and the elbow axis is horizontal; when the solver finds a zero, the returned configuration puts both feet and both hands there, left and right mirroring each other. (A solver that did not converge goes unnoticed.)"),
 "C73": dict(statement="The geometry figure is sent to the geometry graph and the eigenvalue figure to the eigenvalue graph for every input. (They are exchanged.)"),
 "C74": dict(statement="The parameter values read back from the tables equal the parameters that were used to fill them. (The steer axis tilt loses its decimals in degrees; all others are kept.)"),
 "C68": dict(statement="simulate and simulate_modes raise ValueError when any override of a parameter is an array; plot_gains raises ValueError iff no parameter other than the gains is swept, and otherwise draws the eight gains against the first such parameter; nothing is changed."),
 "C61": dict(statement="The constructor succeeds iff every parameter of the class is present and its value is a float; otherwise ValueError; extra keys are kept. (A dictionary with exactly the keys documented for the Meijaard2007 classes is refused.)", anchors=[B+"parameter_sets.py:ParameterSet._check_parameters"]),
 "C62": dict(statement="Converting to a set's own parameterization returns the same set; Meijaard2007 to Meijaard2007WithFeedback sets the eight gains to zero and changes nothing else; conversion to Moore2012 keeps speed and rider flag; every returned set is valid and of the class asked for; unknown names raise ValueError; the advertised conversions do not raise. (Moore2019 to Meijaard2007WithFeedback always raises, Moore2019 to Meijaard2007 raises KeyError unless yD, yP, yH are present.)", anchors=[B+"parameter_sets.py:ParameterSet.to_parameterization", B+"parameter_sets.py:Moore2019ParameterSet.to_parameterization", B+"parameter_sets.py:Meijaard2007ParameterSet.to_parameterization"]),
 "C64": dict(statement="form_mass_center_vector returns the centre of each body whatever extra keys are stored; mass_center_of returns that of one body and the mass-weighted mean of several, in any order; a converted Moore2019 set has the same mass centres; form_inertia_tensor returns each body's central tensor.", anchors=[B+"parameter_sets.py:Meijaard2007ParameterSet.mass_center_of", B+"parameter_sets.py:Moore2019ParameterSet.mass_center_of", B+"parameter_sets.py:Meijaard2007ParameterSet.form_inertia_tensor"]),
 "C05": dict(title="canonical matrices depend on the bodies only through their mass moments",
   statement="Two parameter dictionaries with the same w, c, lam and the same gyrostatic coefficients IRyy/rR, IFyy/rF, whose four bodies together, and whose fork and front wheel together, have the same mass, first moments and second moments about the rear contact point, have the same M, C1, K0 and K2.",
   quantifier="all pairs of parameter dictionaries with equal totals"),
 "C28": dict(statement="If all lines z = m x + b pass through one point and have pairwise different slopes, center_of_mass returns that point; in general it is the mean of the pairwise intersections; permuting the lines does not change the answer; two equal slopes or fewer than two lines make the call fail."),
 "C31": dict(statement="cartesian(arrays) has one row per element of the product, in lexicographic order of the input positions, for every number of arrays of any non-zero length; an empty first array makes it raise ValueError."),
 "C33": dict(statement="Whether a Moore2019 parameter dictionary converts to Meijaard2007 is decided by the presence of the keys it reads; a dictionary with just the documented Moore2019 parameters should convert. (It does not: yD, yH and yP are read but are not documented parameters.)"),
 "C35": dict(statement="save_parameters writes the set p of bicycle b to <b><p>.txt; when one set is saved a new Bicycle(b) loads it unchanged. With several sets, all of them should load again. (They do not: the file name grows with each set, and the directory can no longer be loaded.)"),
 "C36": dict(statement="For a measured file that ends in a newline, write_periods_to_file keeps all lines not starting with T in order and appends one line per period sorted by key; the file then loads to the same measurements plus the written periods; doing it twice changes nothing. Without a final newline the last line is merged with the first period.",
   anchors=[B+"io.py:write_periods_to_file"]),
 "C37": dict(anchors=[B+"main.py:Bicycle.calculate_from_measured", B+"io.py:write_periods_to_file", B+"period.py:calc_periods_for_files"]),
 "C40": dict(title="the parts listed for a parameter dictionary are exactly those with a mass key",
   statement="get_parts_in_parameters reports part X iff some key begins with mX, reports each part once when all mass keys have two characters, and raises IndexError iff there is a key m; is_fork_split holds iff some key of the measured dictionary has S as its first or second character."),
 "C41": dict(anchors=[B+"main.py:calculate_benchmark_from_measured"]),
 "C42": dict(statement="For every bicycle, canonical(nominal=True) is the entrywise nominal value of canonical(nominal=False), both fail or succeed together and leave the stored parameters in the same state; any other value of nominal raises ValueError."),
 "C44": dict(statement="Loading a written parameter dictionary gives a dictionary with the same keys in which every value is what its printed form reads back as; when printing loses nothing the same dictionary is obtained."),
 "C47": dict(statement="The result has the same keys in the same order, uncertain values replaced by their nominal values and all other values untouched; it is idempotent on dictionaries of scalars; on a sequence value a second application raises AttributeError."),
 "C49": dict(statement="filename_to_dict of <Bicycle><Part><Pendulum><AngleOrder digits><one trial digit>.<ext>, each name one camel-case word, returns the bicycle, part, pendulum, angle order and trial that were used to build the name.",
   anchors=[B+"io.py:filename_to_dict"]),
 "C53": dict(statement="The check reports that periods must be calculated iff there are fewer than 4 compound or 8 torsional period keys (5 and 11 for a split fork). A dictionary that passes the check should have all periods the calculation needs. (It need not: three orientations need 9, and 12 for a split fork.)"),
}
for d in P:
    d.update(OV.get(d["id"], {}))
with open('/verif/properties.jsonl','w') as f:
    for d in P: f.write(json.dumps(d)+"\n")
print(len(P))
