{
 "C08": {
  "status": "partial",
  "note": "The claim that sorted eigenvalues are always a permutation of the input rows is false of the code (C08_sort_is_not_a_permutation); proved under a distinctness condition on the nearest-neighbour choice."
 },
 "C16": {
  "status": "partial",
  "note": "vec_project is not a projection and raises for array directions (both proved); the partial theorem states the exact result."
 },
 "C18": {
  "status": "partial",
  "note": "The chain closes iff L1^2 <= D^2 + L2^2; counterexample proved."
 },
 "C21": {
  "status": "partial",
  "note": "Conservation holds for a rider in the symmetry plane; the lateral case is refuted."
 },
 "C35": {
  "status": "partial",
  "note": "Proved for one saved set; with two or more sets the round trip is refuted (C35_two_sets_break_the_directory)."
 },
 "C37": {
  "status": "partial",
  "note": "Refuted for periods that are in the object but in no raw file (C37_unmeasured_period_lost); proved for the others."
 },
 "C82": {
  "status": "partial",
  "note": "Refuted for diagonal tensors and for an eigenvector with negative y (counterexamples proved); the partial theorem states when the choice is right."
 },
 "C33": {
  "status": "partial",
  "note": "Refuted for the documented principal set (C33_documented_set_does_not_convert); C33_converts_partial states which dictionaries convert."
 },
 "C53": {
  "status": "partial",
  "note": "The counting rule is proved; that a dictionary passing the check has all needed periods is refuted (C53_check_misses_a_needed_period)."
 },
 "C80": {
  "status": "partial",
  "note": "Proved for up to nine orientations numbered consecutively (C80_orientation_paired_with_its_period); refuted for ten (C80_ten_orientations_mispaired)."
 },
 "C57": {
  "status": "partial",
  "note": "Set and order proved; determinism proved when no two names differ only in case, refuted otherwise (C57_case_twins_depend_on_the_run)."
 },
 "C58": {
  "status": "proved",
  "note": "Also proved when the constructor fails: C58_table_exists_iff (a zero standard deviation, as the documentation prescribes, raises UnboundLocalError)."
 },
 "C59": {
  "status": "partial",
  "note": "Equal widths and read-back proved for the first call; a second call provably returns another text for every table."
 },
 "C60": {
  "status": "partial",
  "note": "Proved for uncertainties between 5e-15 and 1-5e-15; outside it uround provably raises (C60_uround_fails). Exact rational arithmetic."
 },
 "C85": {
  "status": "partial",
  "note": "Proved for the documented names with up to six orientations and for one-letter, one-digit families; refuted for ten orientations."
 },
 "C61": {
  "status": "proved",
  "note": "Findings: the documented keys of the two Meijaard2007 classes are not enough (C61_documented_keys_refused)."
 },
 "C62": {
  "status": "partial",
  "note": "Everything but 'advertised conversions do not raise', which is refuted for Moore2019 (C62_moore2019_to_feedback_never; KeyError without yD, yP, yH)."
 },
 "C63": {
  "status": "partial",
  "note": "Refuted for the rider flag, for Moore2012 and for numpy values; proved for parameters made of Python floats. PyYAML is modelled, not verified."
 },
 "C86": {
  "status": "partial",
  "note": "Refuted for the Moore2012 classes (id11 and ie11 share a label); proved for the others."
 },
 "C88": {
  "status": "partial",
  "note": "Radii and lines proved; the drawn ellipse is proved to have half the size of the ellipsoid's outline."
 },
 "C90": {
  "status": "partial",
  "note": "The dashed line does not start at the wheel centre as documented; its actual end points are proved."
 },
 "C65": {
  "status": "proved",
  "note": "Heap model: the stored dictionary is a heap object; the parsed copy is a new one."
 },
 "C66": {
  "status": "proved",
  "note": "For the reduced canonical matrices and the state-space matrices of Meijaard2007Model; see C67 and C69 for the other two models. C66_irrelevant_sweep: an array for a parameter the matrices do not read still yields a stack."
 },
 "C67": {
  "status": "partial",
  "note": "A - B K holds when the gains are stored exactly; the code builds the gain matrix with the type of its first entry, so an integer first gain truncates the others (C67_gains_rounded) and an empty array gain raises IndexError (C67_empty_gain_sweep)."
 },
 "C69": {
  "status": "proved",
  "note": "eval_linear and the pitch solver are parameters of the model here."
 },
 "C91": {
  "status": "partial",
  "note": "Dictionaries are never changed (C91_simulate_keeps_dictionaries); for the rider-lean model the initial conditions are overwritten (C91_rider_lean_overwrites, C91_initial_conditions_changed)."
 },
 "C92": {
  "status": "partial",
  "note": "Proved for fixed parameters; with a sweep the drawn components are proved to be the transposed ones, and 5 to 10 values raise for a 4-state model."
 },
 "C93": {
  "status": "partial",
  "note": "Angle and range proved; dependence on the phase of the eigenvector and the TypeError for fixed parameters are proved as refutations."
 },
 "C94": {
  "status": "proved",
  "note": "solve_ivp is assumed exact and eig correct (hypotheses ExactSolver, EigenpairsOf); example_modes_returned shows they can be met by every model."
 },
 "C95": {
  "status": "partial",
  "note": "Curves and unsorted shading proved; with sorted modes the shading is refuted (C95_shades_unstable)."
 },
 "C96": {
  "status": "proved",
  "note": "eig is a parameter; its correctness is a hypothesis of C96_left_eigenvectors only."
 },
 "C97": {
  "status": "proved",
  "note": "solve_ivp is assumed exact (hypothesis ExactSolver, met by idealSolver)."
 },
 "C68": {
  "status": "proved",
  "note": "plot_gains accepts more than one swept non-gain parameter and then uses the first; C68_plot_gains states what it does."
 },
 "C71": {
  "status": "proved",
  "note": ""
 },
 "C72": {
  "status": "proved",
  "note": "fsolve is a parameter; Yeadon's joint conventions are specified in Spec/Rider.lean. C72_no_convergence_check: nothing checks convergence."
 },
 "C73": {
  "status": "partial",
  "note": "Refuted: C73_figures_swapped."
 },
 "C74": {
  "status": "partial",
  "note": "All parameters round-trip except the tilt (C74_round_trip_partial gives the exact condition)."
 },
 "C75": {
  "status": "proved",
  "note": ""
 },
 "C98": {
  "status": "proved",
  "note": "yeadon's inertia_transformed is taken as R I R^T about the mass centre."
 },
 "C99": {
  "status": "proved",
  "note": "Exact arithmetic."
 },
 "C70": {
  "status": "proved",
  "note": "The statements are generated from the source text by tools/gen_eval_linear.py; the checks are evaluated by the kernel."
 },
 "C100": {
  "status": "proved",
  "note": "Exact arithmetic; the pitch function of dtk is assumed to depend on ratios of lengths."
 },
 "C101": {
  "status": "proved",
  "note": "Exact arithmetic; the pitch function of dtk is assumed to be even."
 },
 "C102": {
  "status": "proved",
  "note": "Exact arithmetic."
 },
 "C103": {
  "status": "proved",
  "note": "Exact arithmetic, in which 0/0 is 0."
 },
 "C104": {
  "status": "proved",
  "note": "Exact arithmetic; dtk's pitch_from_roll_and_steer is assumed to return the tilt at which the front wheel touches the ground. The motions are the first order ones; their specification is Spec/RiderLean.lean."
 },
 "C105": {
  "status": "proved",
  "note": "As C104."
 },
 "C106": {
  "status": "proved",
  "note": "As C104."
 },
 "C107": {
  "status": "proved",
  "note": "numpy.linalg.eig is a parameter assumed correct (exists_correct_eig shows there is one)."
 },
 "C108": {
  "status": "partial",
  "note": "Half of the property is refuted: C108_shades_unstable gives a physical bicycle with two ranges of self-stable speeds whose shaded range contains an unstable sample, and C108_at_rest_raises / C108_single_unstable_raises show UnboundLocalError instead of the annotation. Proved: no self-stable sample is left out (C108_stable_speeds_shaded), exactly when drawing fails (C108_fails_iff), and that the shaded samples are damped if each curve's negative part is contiguous (C108_shaded_is_damped_partial)."
 },
 "C109": {
  "status": "proved",
  "note": "numpy.linalg.eig is a parameter assumed correct; drawing is represented by abscissae, labels and ordinates."
 },
 "C110": {
  "status": "proved",
  "note": "control.bode itself is outside the model; the theorem is about the system passed to it."
 },
 "C111": {
  "status": "partial",
  "note": "Proved for models that list a unit and a name for every state (Whipple); refuted for the rider lean model, which lists eleven units for twelve states (C111_lean_rate_not_drawn). Fewer than two shown modes raise (C111_rows)."
 },
 "C112": {
  "status": "proved",
  "note": "Drawing is represented by panels, labels and ordinates."
 },
 "C113": {
  "status": "proved",
  "note": "Directories are maps from names to contents; the answers of the user are a parameter."
 },
 "C114": {
  "status": "proved",
  "note": "leastsq is a parameter, assumed to return a local minimum; exact arithmetic."
 },
 "C115": {
  "status": "proved",
  "note": "np.where on a masked array is modelled with and without the mask."
 },
 "C116": {
  "status": "proved",
  "note": ""
 },
 "C117": {
  "status": "proved",
  "note": "matplotlib axes are a list of artists; transforms, styles and text placement apart from what each method draws are not modelled"
 },
 "C118": {
  "status": "partial",
  "note": "Everything but the shape of the ellipses is proved for all inputs. The ellipse is the momental ellipse when the code finds the y axis and the first in-plane eigenvector does not point up (C118_ellipse_shape_partial); otherwise the claim is false of the code (C118_ellipse_mirrored, C118_unbound)."
 },
 "C119": {
  "status": "partial",
  "note": "Ground, wheels, frame, steer axis, pendulum lines and mass centres are proved for all inputs; false of the code for ellipses (C119_ellipse_wrong), riders (C119_rider_lower_leg_only), forks without mass (C119_fork_without_mass) and more parts than colours (C119_too_many_parts)."
 },
 "C120": {
  "status": "proved",
  "note": "Axis limits, grid and the size of the figure are not modelled; a name that begins with an underscore is left out by matplotlib's legend, which the theorem excludes."
 },
 "C121": {
  "status": "proved",
  "note": "control.bode is a parameter that is assumed to add one line to each axes with magnitude and phase of the response (C110 shows which system it is given). The figure left behind by a call that raises is not modelled."
 },
 "C122": {
  "status": "proved",
  "note": "A number with uncertainties is its nominal value and its linear part, as in the uncertainties package; the derivative rules used are those of the package. C122_state_space needs the mass matrix of the nominal values to be invertible."
 },
 "C123": {
  "status": "partial",
  "note": "Nominal value proved for all inputs (C123_nominal); the exact standard deviation returned is C123_std. False of the code: floats raise (C123_float_raises) and the variance misses that of the wheel radii (C123_variance_deficit, C123_too_small). Correct for equal radii whose difference is known (C123_std_partial)."
 },
 "C124": {
  "status": "partial",
  "note": "Nominal values proved for all inputs (C124_nominal); with a measured wheelbase all standard deviations are right (C124_measured_wheelbase_partial), without it that of the wheelbase for equal radii (C124_wheelbase_equal_radii_partial). False of the code for the trail (C124_trail_refuted) and for measurements without uncertainties (C124_floats_raise, exact condition)."
 },
 "C125": {
  "status": "partial",
  "note": "Nominal values and exceptions for all measurements (C125_nominal); value and all first-order sensitivities of every parameter, for a measured wheelbase and at measurements where the formulas are differentiable (Spec.Regular) (C125_first_order_partial). False of the code without a measured wheelbase: the tilt loses its correlations (C124_trail_refuted). The pseudo-inverse `.I` of numpy and of unumpy.matrix are parameters with contracts NominalInv and PropagatesInv; Props/UncertainMeasuredExample builds a pair satisfying both and a bicycle meeting all hypotheses."
 },
 "C126": {
  "status": "proved",
  "note": "lam (line 73), which the code computes from roll and steer, is a constant of the equations that the code differentiates: C126 states it that way. The derivative is Mathlib's HasFDerivAt over the reals; the tables of Gen/Jacobian*.lean are untrusted, the kernel checks them against the statements."
 },
 "C127": {
  "status": "proved",
  "note": "For parameters that satisfy Spec.LeanUsable (as C104). C127_small_motions: IsLittleO at 0."
 },
 "C128": {
  "status": "proved",
  "note": "C128_matrices assumes that no division by zero occurs (C126_defined says when). The tables of Gen/Invariance.lean are untrusted, the kernel checks them against the statements."
 },
 "C129": {
  "status": "proved",
  "note": "The rates and rides: without any condition (division by zero gives 0 in the model, in both positions). The matrices: where no division by zero occurs."
 },
 "C130": {
  "status": "proved",
  "note": "Spec/Rolling.lean gives the points of the wheels by rotations. C130_contact_points shows that it has the contact points of the linear model. The tables of Gen/Rolling.lean are untrusted, the kernel checks them against the statements."
 },
 "C131": {
  "status": "proved",
  "note": "C131_mirror, C131_reversal and C131_units are the statements for the rates at each state, the others are for motions. Together with C100 to C102, which are about the matrices."
 },
 "C132": {
  "status": "proved",
  "note": "By smoothness of the statements where no division by zero occurs (Picard-Lindelöf from Mathlib)."
 },
 "C133": {
  "status": "proved",
  "note": "The tilt lam is an argument that does not change during a ride: it is the tilt of the lean axis in the rear frame. With kernel checks of the thousand statements of eval_linear as polynomials."
 },
 "C134": {
  "status": "proved",
  "note": "From the principle of C133 with the ride itself as the other motion."
 },
 "C135": {
  "status": "proved",
  "note": "Both directions. The tilt lam of the lean axis does not change during a ride."
 },
 "C136": {
  "status": "partial",
  "note": "The last clause holds for histories without stops (C136_measurements_partial); a stop while periods are written can leave the file of the measurements empty (C136_stop_loses_measurements)."
 },
 "C137": {
  "status": "proved",
  "note": "The wrong value of a cut number is not noticed: C137_cut_number_loads."
 },
 "C138": {
  "status": "proved",
  "note": "Lines of equal length are assumed. A failed savefig leaves the figure open (C138_failed_save_leaks), and plot_osfit with a figure that is not the active one draws the fit elsewhere (C138_other_figure_active)."
 },
 "C139": {
  "status": "proved",
  "note": "The directory of the bicycle is assumed to exist; a value that is a sequence does not come from a file."
 },
 "C140": {
  "status": "partial",
  "note": "The third clause holds when all programs read before the first one opens the file (C140_same_reads_partial) and fails otherwise (C140_two_constructions_lose); the last clause is false (C140_two_saves_spoil). C140_reader_of_a_save combines the first clause with C137."
 },
 "C141": {
  "status": "partial",
  "note": "The last clause holds as long as the program's own changes store floats and remove no required key (C141_stays_valid_partial) and fails otherwise (C141_change_spoils). Rebinding the attribute `parameters` is not modelled."
 },
 "C142": {
  "status": "proved",
  "note": "The criterion for real quartics is proved in Lemmas/Hurwitz from the factorisation into quadratics. The example bicycle is self-stable from 5.5 to 7.5 m/s and not at 10 m/s."
 },
 "C143": {
  "status": "proved",
  "note": "The package itself has no units; the constants of the measurement pipeline (9.81) are not covered."
 },
 "C144": {
  "status": "proved",
  "note": "The gains are given as keyword arguments that override the stored ones; all eight are actuated (roll torque and steer torque)."
 },
 "C145": {
  "status": "proved",
  "note": "Small angles, as in the linear model. The moments are spelled out from the parameters in Props/SteadyTurn."
 },
 "C146": {
  "status": "proved",
  "note": "Physically sensible is Bench.Physical of Props/Canonical: non-negative masses, positive semidefinite in-plane inertias. The order is shown for riders with yB = 0; off the plane C21 already fails."
 },
 "C147": {
  "status": "proved",
  "note": "A free motion is a solution of the differential equation that simulate hands to the solver (C97)."
 },
 "C148": {
  "status": "proved",
  "note": "control.bode evaluates the response of the system it is given (C110); its numerics are outside."
 },
 "C149": {
  "status": "proved",
  "note": "Small angles. The kinetic energy is that of C04, the energy of the weights is spelled out from the parameters."
 },
 "C150": {
  "status": "proved",
  "note": "The ranges are proved for the decimals of the source and (C150_floats) for all numbers within one part in 2^53 of them, so for the floats Python reads; arithmetic is exact. The signs are computed in the kernel with rational intervals (Lemmas/Boxes, StableCheck), which are proved to hold the canonical matrices."
 },
 "C151": {
  "status": "partial",
  "note": "Refuted in part: meijaard2007_browser_jason has IFxx and IRxx exchanged against the three others and the data file (C151_wheels_exchanged_partial), which moves the lower end of the self-stable range by 0.006 m/s (C151_exchange_shows); moore2019_browser_jason is 11.5 kg heavier (C151_masses_partial)."
 },
 "C152": {
  "status": "proved",
  "note": "solve_ivp is ideal: it returns values of a solution, as in C97."
 },
 "C153": {
  "status": "proved",
  "note": "Entries as numbers within one part in 2^53 of the decimals; arithmetic of the conversion and of the matrices is exact. The difference to meijaard2007_browser_jason (C153_differ) comes with the 11.5 kg of C151."
 },
 "C154": {
  "status": "proved",
  "note": "The lines bicycle.py:105-165 are kept as assignments (Model/Rounding), run with any operations that round (Spec.Rounds); machineCanon_exact ties them to the model of the other claims. Forming the state matrix and the eigenvalues is exact here (the state matrix with rounding: C156). The ranges of Gen/RoundingCert.lean are a certificate, checked by the kernel."
 },
 "C155": {
  "status": "proved",
  "note": "The machine has no smallest and no largest number (Spec.RoundsRel). The other entries are differences of terms of either sign, for which no relative bound is claimed; C154 bounds their absolute errors for the shipped bicycles. The comment in the source (bicycle.py:150, 13 digits) is consistent: the bound for K0[0,0] is 7e-15."
 },
 "C156": {
  "status": "proved",
  "note": "ab_matrix in the arithmetic of a machine (machineA, Model/Rounding; machineA_exact ties it to abA). For np.dot only the usual error bound of a dot product is assumed, which holds in any order of the operations and with fused multiply-add. The eigenvalues are those of the computed matrix, exactly (numpy.linalg.eig is outside)."
 },
 "C157": {
  "status": "proved",
  "note": "numpy.linalg.eig is not modelled: it is any function that is backward stable (Spec.BackwardStable), with a real error matrix and the constant 2^-47. Outside 2 to 10 m/s nothing is claimed. The constant of LAPACK is not proved."
 },
 "C158": {
  "status": "partial",
  "note": "False of the code: the type of IBxx decides the type of the array for every part, so one exactly known IBxx makes the call raise TypeError for every part with an uncertain entry (C158_type_error), and a wheel needs IBxx. Proved otherwise (C158_tensor_partial, exact condition together with C158_type_error and C158_missing). That float() of a UFloat raises TypeError is taken from the uncertainties package."
 },
 "C159": {
  "status": "partial",
  "note": "False of the code: the result has the type of the first array, so floats after an array of integers lose their digits (C159_truncated). Proved: exactly what is returned (C159_stored_with_the_first_type) and that the values are unchanged when the first array is of floats or all values are integers (C159_product_partial). center_of_mass uses only integers. Overflow of integers is not modelled."
 },
 "C160": {
  "status": "proved",
  "note": "Complements C08: C160_follows_the_modes needs only that each step is smaller than the distance to the other modes. Exact arithmetic. Modes that meet (a real pair that becomes complex) are excluded."
 },
 "C161": {
  "status": "proved",
  "note": "Complements the refuted C08. The eigenvalues are exact and given in any order. Ranges in which eigenvalues meet are excluded; how small the step must be is not said."
 },
 "C162": {
  "status": "proved",
  "note": "The hypothesis of C161 discharged for the benchmark bicycle. The eigenvalues are exact ones of the state matrix formed without rounding from the rounded canonical matrices; how small the step must be is not said."
 },
 "C163": {
  "status": "proved",
  "note": "The directory is a list of names and contents, different names; loading a pendulum file (the fit) is a parameter. Names are compared by code points, as Python does."
 },
 "C164": {
  "status": "proved",
  "note": "C164_same_set is the counterexample for two files of one set. The sets are compared as dictionaries (their order is that of the listing). With files that do not load, which exception is raised may depend on the order of Parameters."
 }
}