# DESIGN — a Lean 4 model of moorepants/BicycleParameters

## Layout

* `lean/Verif/Py.lean` – Python-side vocabulary: exceptions as values (`PyErr`), insertion-ordered dictionaries.
* `lean/Verif/Model/*.lean` – the model, one file per Python module; every definition cites file and lines.
* `lean/Verif/Spec/*.lean` – small independent specifications (rigid-body energy, mass moments, lines, ...).
* `lean/Verif/Lemmas/*.lean` – helper lemmas.
* `lean/Verif/Props/*.lean` – the property theorems, each followed by an `example` showing its hypotheses are met.
* `properties.jsonl` (English), `MANIFEST.json` (property → theorems), `seeded/LOG.jsonl` (mutation log).

## Modelling conventions

* Numbers are real (or complex) numbers. Floating point rounding is modelled only in `Model/Rounding.lean` (C154–C157), NaN/inf nowhere. Elsewhere than in `Model/Uncertain.lean` an uncertain number is a pair (nominal, std), and only where the code inspects it; there it is its nominal value and its linear part (the coefficients of the independent variables, scaled to standard deviation 1), with the derivative rules of the `uncertainties` package.
* Division by zero: in Lean `x/0 = 0`; theorems that divide carry the non-zero guard explicitly.
* A Python `dict` is an insertion-ordered association list with unique keys; a function that mutates its argument returns the new dictionary; exceptions are `Except PyErr`.
* Text is a list of characters, a text file a list of lines or of characters, a directory a list of names.
* Numerical solvers (`np.linalg.eig`, `scipy.optimize.newton`, `leastsq`, `fsolve`, `solve_ivp`), `yeadon`, `dtk`, matplotlib, plotly and dash are parameters; what is assumed of them is a hypothesis of the theorem.

## Trusted base

* Lean's kernel and the axioms `propext`, `Classical.choice`, `Quot.sound`, on which every theorem depends at most (`#print axioms` shows no other; the few theorems about lists of characters use a subset). No axiom is added, no compiled evaluation is used: `decide +kernel` makes the kernel itself evaluate the checkers.
* Mathlib's definitions of ℝ, ℂ, sin, cos, exp, arccos, matrices, derivatives.
* The faithfulness of the transcription in `Model/` and of the generated program `Gen/EvalLinear*.lean`, and that the small specifications in `Spec/` say what is meant.
* `tools/gen_eval_linear.py` translates `_mooreriderlean2012.py` statement by statement into `Gen/EvalLinear*.lean`; it is trusted in the same way as a hand transcription (its output is readable next to the source). `tools/gen_upright_poly.py` writes `Gen/UprightPoly*.lean` `tools/gen_rounding.py` writes `Gen/RoundingCert.lean`, `tools/gen_jacobian.py` writes `Gen/Jacobian*.lean`, `tools/gen_invariance.py` writes `Gen/Invariance.lean`, `tools/gen_rolling.py` writes `Gen/Rolling*.lean`; they are **not** trusted: Lean checks every polynomial.
* Numerical libraries are outside: `numpy.linalg.eig`/`eigh`, `scipy.optimize.newton`/`leastsq`/`fsolve`, `scipy.integrate.solve_ivp`, `yeadon`, `dtk` (`benchmark_to_moore`, `pitch_from_roll_and_steer`), PyYAML, matplotlib, plotly, dash. Where a theorem needs something of them it is an explicit hypothesis, and an example shows that the hypothesis can be met.

## What is modelled

| Python | Lean | not modelled |
|---|---|---|
| bicycle.py (all functions) | Model/Bicycle; `benchmark_par_to_canonical` and `ab_matrix` with rounding in Model/Rounding; with uncertainties `benchmark_par_to_canonical`, `ab_matrix` in Model/Uncertain | `sort_modes` beyond what `sort_eigenmodes` uses |
| geometry.py (all) | Model/Geometry; with uncertainties `calculate_benchmark_geometry`, `lambda_from_abc`, `trail` in Model/Uncertain | uncertainties of the other functions |
| inertia.py, com.py, conversions.py (all) | Model/Inertia; `cartesian` with the types of the arrays in Model/Cartesian; `part_inertia_tensor` with floats and uncertain numbers in Model/MixedInertia; `tor_inertia`, `torsional_pendulum_stiffness`, `tube_inertia` with rounding in Model/Rounding; with uncertainties, as called by `calculate_benchmark_from_measured`, in Model/UncertainMeasured | the pseudo-inverse `.I` of `numpy.matrix` and `unumpy.matrix` (parameters with contracts `Spec.NominalInv`, `Spec.PropagatesInv`) |
| io.py (all) | Model/IO | encodings, scipy's reader of .mat files |
| period.py | Model/Period, Model/PeriodFit, Model/PeriodPlot (`plot_osfit` and the state of pyplot) | `leastsq` (a parameter); equal time stamps; damping ratios outside (-1, 1) |
| main.py: constructor, saving, riders, steer assembly, canonical, state space, `calculate_benchmark_from_measured`, phase alignment, data of the geometry plot, `compare_bode_speeds`, `eig`, `plot_eigenvalues_vs_speed` (both), `plot_bode` | Model/Main, Model/IO, Model/MainPlots | drawing, photo display, console messages |
| main.py: `plot_bicycle_geometry`, `_plot_bicycle_geometry_plotly` | Model/GeometryPlot | `eig`, `argsort` and the colour map are parameters; styles, sizes, legends |
| tables.py (all) | Model/Tables | writing the file |
| parameter_sets.py (construction, conversion, files, mass centres, inertia, shapes drawn) | Model/ParameterSets | |
| parameter_sets.py (plotting methods, colours, axes) | Model/SetPlots | line widths and styles, transparency, autoscale |
| models.py (overrides, matrices, eigenvalues, simulation, plot data, controllability, gains, curves of `plot_simulation` and `plot_mode_simulations`) | Model/Models, Model/ModelMethods, Model/MainPlots | axes, colours, legends |
| _mooreriderlean2012.py (all 11000 lines of `eval_linear`) | Gen/EvalLinear1–8, Model/EvalLinear | — |
| rider.py | Model/Rider | inside of yeadon, drawing |
| app.py, plot.py (all) | Model/App, Model/Browse, Model/Main, Model/ComparePlots | layout, dash, the delays of the spinners |
| programs that use main.py: sequences of calls on one data directory, stopped anywhere | Model/Session | the order in which the operating system keeps written data |
| several programs at one file (io.py:120-219) | Model/Together | reading is one step |
| programs that keep references to dictionaries, parameter sets and models | Model/Objects | rebinding attributes |
| parameter_dicts.py, data/bicycles/Benchmark | Model/Shipped (decimal numbers; C150_floats and C151_accepted hold for all numbers as near to them as floats are) | rounding in the arithmetic (but see Model/Rounding), the other files of the data directory |

## Properties that the code does not have

A property of the list that is false of the code keeps its English statement, has status `partial`, a theorem refuting it (a concrete reachable input and what the code returns there) and a theorem with the exact or the largest true part. These are C08, C16, C18, C21, C33, C35, C37, C53, C57, C59, C60, C62, C63, C67, C73, C74, C80, C82, C85, C86, C88, C90, C91, C92, C93, C95, C108, C111, C118, C119, C123, C124, C125, C136, C140, C141, C151, C158 and C159.

## Testing against wrong programs

`seeded/run.py batch.json` copies the project to /tmp/mut, applies one edit of a model definition at a time, rebuilds and appends to `seeded/LOG.jsonl` which theorems failed. `survived: true` marks edits that no theorem noticed; they are followed by a tightened theorem (`tightened`) or the reason why the edit does not change the claim.

## Plan per property

* **C01 ab_matrix realises the linear equations of motion** — `Model/Bicycle.lean` `abMatrix`; 2x2 algebra (adjugate inverse), iff over all x, xdot, u.
* **C02 eigenvalues of A are the roots of the Whipple characteristic polynomial, and reverse with the direction of travel** — Same model over ℂ; determinant of λI−A expanded by blocks; corollary for −v.
* **C03 canonical matrices have the Whipple structure** — Model of the 25 scalar reads of `benchmark_par_to_canonical`; structure by definitional unfolding, independence by congruence on the dictionary.
* **C04 the mass matrix is the kinetic energy of the four bodies** — Spec: kinetic energy of a rigid body list; polynomial identity (field_simp/ring) + trig identity; definiteness from sums of squares.
* **C05 canonical matrices depend on the rear frame only through its mass moments about the origin** — Spec: moments of frame B; ring identity.
* **C06 benchmark_par_to_canonical leaves its argument as it was, except for IRzz and IFzz** — Dictionary-level model in `Except`; frame condition by case analysis on the key.
* **C07 sort_eigenmodes only picks (eigenvalue, eigenvector) pairs from the same row** — Model: nearest-neighbour sweep over lists; induction over rows and modes.
* **C08 sort_eigenmodes returns a permutation of every row** — False for m≥3: concrete counterexample; `_partial` for rows whose nearest neighbours are distinct and for m = 2.
* **C09 trail and mechanical trail describe the same steer axis** — Real algebra.
* **C10 the steer axis tilt solves the wheel-offset equation** — Real algebra + IVT/explicit root (R sin(λ−φ)).
* **C11 benchmark geometry reproduces the measured offsets** — Real algebra with `sin²+cos²=1`.
* **C12 calculate_benchmark_geometry chooses its branch and copies exactly the documented keys** — Dictionary-level model, branch by branch.
* **C13 point_to_line_distance is the minimum distance to the line** — Lagrange identity + Cauchy–Schwarz.
* **C14 project_point_on_line returns the closest point of the line** — Sum of squares.
* **C15 vec_angle is a symmetric, scale-invariant angle in [0, pi]** — Cauchy–Schwarz, arccos lemmas.
* **C16 vec_project removes the component along a direction** — False: negation with witnesses for both branches; partial: what is true.
* **C17 handlebar reference point geometry is rigid** — Trig algebra.
* **C18 calc_two_link_angles closes the two-link chain** — arccos/arcsin algebra; false beyond a right angle (counterexample), `_partial` on the proper half.
* **C19 plotted geometry points lie on the steer axis** — Trig algebra.
* **C20 parallel_axis obeys the parallel axis theorem** — Spec: axis moment nᵀIn + m|n×d|²; ring.
* **C21 combine_bike_rider conserves mass, first moment and inertia** — Moments spec; true for yB=0, counterexample else.
* **C22 compound pendulum inertia inverts the pendulum period formula** — Real algebra.
* **C23 torsional pendulum calibration is exact on the calibration rod** — Real algebra.
* **C24 inertia_components recovers the tensor from three orientations** — 3×3 Vandermonde-like determinant; least squares normal equations.
* **C25 rotating an inertia tensor about y preserves its invariants** — Matrix algebra.
* **C26 principal_axes returns sorted eigenpairs** — Sorting spec over lists.
* **C27 tube_inertia is that of a physical hollow cylinder** — Real inequalities.
* **C28 center_of_mass finds the common point of concurrent pendulum lines** — List sums; exactness by induction over pairs.
* **C29 com_line is the pendulum axis through the reference point** — Trig algebra + case split.
* **C30 total_com is the mass-weighted mean and is associative** — List induction.
* **C31 cartesian enumerates the cartesian product once, in order** — List induction, buffer-filling model.
* **C32 principal-to-benchmark conversion preserves the physics** — Moments spec.
* **C33 a complete principal parameter set converts without error** — Dictionary-level model; counterexample.
* **C34 constructing a Bicycle uses saved parameters unless recalculation is needed or forced** — Decision function over directory listing model.
* **C35 save_parameters writes one loadable file per parameter set** — File-system map model; counterexample for two sets.
* **C36 writing periods keeps every other line of the measured file** — Line-level model; counterexample without trailing newline.
* **C37 recalculating never loses a period that stays in use** — Line-level model; counterexample.
* **C38 add_rider adds at most one rider, and only once** — State machine; induction over call lists.
* **C39 steer_assembly_moment_of_inertia about the steer axis is the canonical I_A-lambda-lambda** — Trig algebra against the canonical model.
* **C40 the parts listed for a parameter dictionary are exactly those with a mass** — Key-set logic.
* **C41 flywheel and split-fork handling conserves mass and inertia** — Moments spec.
* **C42 nominal=True strips uncertainties and changes nothing else** — Map over uncertain values.
* **C43 Bode phase curves are shifted by whole turns so that the first value is in [-180, 180]** — Loop with fuel/`Int` shifts.
* **C44 parameters written to text load back unchanged** — Char-level writer and reader; induction over entries.
* **C45 load_parameter_text_file handles every documented line** — Char-level reader.
* **C46 declining to overwrite leaves the file unchanged** — State machine over answer streams.
* **C47 remove_uncertainties keeps keys and nominal values** — List map.
* **C48 space_out_camel_case splits concatenated capitalised words back** — Char-level regex model; induction.
* **C49 pendulum file names parse to their fields** — Char-level model.
* **C50 jac_fitfunc is the Jacobian of fitfunc** — `HasDerivAt` calculus.
* **C51 get_period's period is the period of the fitted oscillation** — Trig/exp algebra.
* **C52 R^2 reported by fit_goodness** — List sums.
* **C53 check_for_period accepts exactly the documented numbers of periods** — Key counting.
* **C54 period keys identify the experiment** — Finite case analysis + injectivity.
* **C55 trial periods are averaged per experiment** — Grouping fold.
* **C56 select_good_data returns a contiguous slice of the samples** — List slice spec.
* **C57 table variable list is the sorted union of the parameters** — Sort/dedup spec.
* **C58 every table row has one name and two cells per bicycle** — List induction.
* **C59 create_rst_table can be called repeatedly** — Mutable table state; counterexample.
* **C60 uround never fails for a finite uncertain value** — Digit-level model of `%.14f` scan; counterexample.
* **C61 a parameter set accepts exactly complete float dictionaries** — Value type with int/float tags.
* **C62 to_parameterization preserves shared parameters or raises ValueError** — Class table + dictionaries.
* **C63 YAML save and load round trip** — YAML document as a value tree; class constructors.
* **C64 mass_center_of and form_mass_center_vector are consistent** — List sums.
* **C65 parameter overrides never touch the stored parameter set** — Overrides fold.
* **C66 array evaluation is pointwise scalar evaluation** — Batched evaluation vs scalar evaluation; induction.
* **C67 state feedback closes the loop as A - B K** — Matrix algebra.
* **C68 simulation and gain plots reject what they cannot handle** — Decision logic.
* **C69 the rider lean model feeds each parameter to its slot** — Slot table extracted from source.
* **C70 the generated evaluator never reads uninitialised memory** — The whole generated function as a program in a small expression language (`Gen/EvalLinear*.lean`), an interpreter (`Model/EvalLinear.lean`), a checker proved sound in Lean and evaluated by the kernel (`decide +kernel`).
* **C71 rider vectors are rotated rigidly into the bicycle frame** — 3×3 rotation algebra.
* **C72 the rider configuration is left-right symmetric and meets the constraints** — Residual algebra.
* **C73 the app shows each figure in its own place** — Callback output order.
* **C74 parameters shown in the app tables round-trip to the model** — Row/column index model; int truncation.
* **C75 plotted ellipses of inertia are ellipses with the given semi-axes** — Trig algebra.
* **C76 a stationary bicycle is unstable** — Definiteness of M (C04) and a negative direction of K0; real root of the characteristic polynomial by the intermediate value theorem.
* **C77 part_com_lines returns one line per measured orientation of every part** — Dictionary-level model of the key scan; induction over the parts.
* **C78 loaded pendulum files hold only the useful entries** — Dictionary-level model of the filter.
* **C79 sample times are multiples of the sampling period** — List model of the time vector.
* **C80 each orientation is paired with its own torsional period** — Sorting of the keys as text; refuted for ten orientations, proved up to nine.
* **C81 measuring a bicycle and computing its parameters gives the bicycle back** — Spec: an ideal bench (`Props/Pipeline.lean`) that turns a bicycle into measurements by the pendulum laws; the model of the whole function `calculate_benchmark_from_measured` is its left inverse.
* **C82 the inertia ellipse is drawn in the plane of the bicycle** — Row choice of main.py; counterexamples.
* **C83 the lines drawn in the geometry plot are the measured ones** — Real algebra.
* **C84 the model is the linearised mechanics of four rigid bodies** — `Spec/NewtonEuler.lean`: first-order kinematics of four rigid bodies rolling without slip and Newton's and Euler's equations, written without reference to the canonical matrices; equivalence of motions and solutions.
* **C85 LaTeX names of variables are unambiguous** — Text model; injectivity by cases; refuted for ten orientations.
* **C86 parameter labels tell parameters apart** — Finite tables taken from the source; both directions.
* **C87 INI files and HTML tables hold the parameter values** — Digit-level model of `%.16f`.
* **C88 drawn radii of gyration and inertia ellipses represent the inertia tensor** — Spectral facts of 2×2 symmetric matrices; `eigh` result as hypothesis.
* **C89 the drawn person is a rhombus around the mass centre** — Trig algebra.
* **C90 the drawn bicycle stands on the ground and its steer axis is the steer axis** — Real algebra.
* **C91 simulating leaves the caller's arrays unchanged** — Heap model (dictionaries) plus the returned initial conditions; refuted for the rider lean model.
* **C92 plot_eigenvectors draws the eigenvectors of each eigenvalue** — Array axes as nested lists; proved for fixed parameters, refuted for sweeps.
* **C93 modal controllability is the angle between left eigenvectors and input columns** — Complex inner product, Cauchy–Schwarz; phase dependence refuted.
* **C94 mode simulations follow the exponentials of the eigenvalues** — ODE uniqueness (Mathlib's Grönwall) with an exact solver as hypothesis.
* **C95 eigenvalue plots show the eigenvalues and shade the stable values** — List model; refuted after sorting.
* **C96 calc_eigen is pointwise and its left eigenvectors are left eigenvectors** — Heap model; `eig` a parameter.
* **C97 simulate integrates the linear equations of motion** — As C94.
* **C98 the rider's parameters are the mass properties of the rotated human** — Matrix algebra over the rigid-body spec.
* **C99 the app's eigenvalue figure covers the slider's speed range** — Floor arithmetic.
* **C100–C102 units, mirror image and time reversal of the rider lean model** — An abstract interpretation of the generated program (a grading of every slot) whose soundness is proved in Lean once; the kernel evaluates the check on the 11000 lines.
* **C103 riding upright, lateral and forward motion are decoupled and the pitch is constant** — Same interpreter, abstract values with known zeros.
* **C104 the rider lean model is the linearised Newton-Euler motion of five bodies** — `Spec/RiderLean.lean`; the generated program is evaluated symbolically to polynomials (`Gen/UprightPoly*.lean`, checked by a verified polynomial evaluator in the kernel), then compared with the Newton–Euler equations.
* **C105 the rider lean model at rest neither creates nor loses energy** — Energy of the five bodies from the spec; derivative is zero along every motion.
* **C106 with the rider not leaning, the rider lean model is the Whipple model** — C104 and C84 combined through a common mechanical motion.
* **C107 Bicycle.eig returns the modes of the motion at each speed** — Model/MainPlots; block elimination in the state matrix, characteristic polynomial.
* **C108 the shaded range of speeds is the range of self-stable speeds** — Only one direction holds. The other is refuted with a physical bicycle with two stable ranges; stability at a speed is decided by the Routh-Hurwitz criterion for quartics, proved in Lemmas/RouthHurwitz.
* **C109 plot_eigenvalues_vs_speed draws exponents of the motion at their own speed** — C107 and the lemma that sorting only permutes within a row.
* **C110 plot_bode shows the frequency response of the bicycle** — Harmonic states of the first-order system correspond to harmonic answers of the second-order equations.
* **C111 plot_mode_simulations draws every state of every mode** — C94 and the list of curves; refuted for the rider lean model.
* **C112 plot_simulation draws every input and state once under its name** — Evaluation of the list of curves, C91.
* **C113 save_parameters with a rider writes the rider's two files and nothing else** — File-system map model over histories of add_rider; composition with the printing and parsing of C44.
* **C114 get_period returns the period at the least-squares fit with the propagated standard deviation** — `leastsq` is a parameter; stationarity in the three linear parameters follows from the local minimum, positive definiteness of the normal matrix gives real deviations; derivatives of the period.
* **C115 make_guess gives a usable first guess** — Filters over index lists, telescoping sum of the distances of crossings.
* **C116 average_rectified_sections cuts from the strongest section to the weakest above average** — Induction over consecutive cuts; uniqueness of sorted lists.
* **C117 plots of a parameter set show every body once, at its mass centre, in its own colour** — Axes as a state (drawn artists in order, inverted flag, labels) that every method transforms, keeping it when an exception ends the method; induction over the bodies and over the sequence of calls; the numbers come from C64 and C88.
* **C118 plot_bicycle_geometry shows the bicycle, its mass centres, ellipses, pendulum axes and rider** — Figure as the list of artists; each piece by induction over the parts or measurements; the ellipse through the eigenvectors in the symmetry plane. Refuted for ellipses: mirrored when the eigenvector returned points up, UnboundLocalError when the y axis is not found.
* **C119 the plotly geometry figure shows the same as the matplotlib one** — Same pieces, list of traces; success carried over from C118. Refuted for ellipses (degrees given to cos and sin, axes exchanged), the rider, forks without mass, many parts.
* **C120 plot_eigenvalues compares bicycles in one figure** — Induction over the loop with the index; each group from C109.
* **C121 comparisons of frequency responses** — `control.bode` as a parameter with a contract; threading of the mutated parameter sets through the loop (objects as references); alignment as whole turns (C43).
* **C122 uncertainties of the canonical matrices** — `Model/Uncertain.lean`: the functions over any type of numbers (`PyNum`), instantiated with nominal value + linear part; `Tracks f u`: value and partial derivatives of f at the nominal values are those of u; preserved by every operation.
* **C123 uncertainty of the steer axis tilt** — implicit differentiation of the equation solved by Newton; the result is a fresh number; deficit of the variance computed.
* **C124 uncertainties of the measured geometry** — floats and uncertain values mixed (`FloatOrU`), nominal values as a homomorphism; counterexample for the trail.
* **C125 uncertainties of the benchmark parameters** — `Model/UncertainMeasured.lean`: the whole of `calculate_benchmark_from_measured` over any type of numbers; value and derivative followed through the torsional periods, `part_com_lines`, `center_of_mass`, the least squares fit (pseudo-inverse as a parameter with a contract) and `compound_pendulum_inertia`; partial because of C124.
* **C126 Jacobian** — the differential of an expression (`Lemmas/Jacobian`), tables of values and partial derivatives as polynomials in later cells (`Gen/Jacobian*`), a checker evaluated by the kernel (`Lemmas/JacobianCheck`, `JacobianSound`); then `HasFDerivAt` by induction over the 1015 statements up to `u9p`.
* **C127 steady riding** — the polynomials of `Gen/UprightPoly` for the rates at the upright state; small motions from C126.
* **C128 round wheels, C129 places and directions** — for each of the angles q3, q6, q8 a table that gives the cells as polynomials in the sine and the cosine of that angle and in cells (and auxiliary variables) that do not depend on it (`Gen/Invariance`), a checker that reduces sin² to 1 − cos² and is evaluated by the kernel (`Lemmas/Invariance`); the matrices by uniqueness of the derivative from C126.
* **C130 rolling** — the statements that solve the rolling conditions as equations between cells (`Gen/Rolling`), a table with the coefficients of these conditions as polynomials, checked by the kernel (`Lemmas/RollingChecks`); five conditions from them (`roll_solved`); the points of the wheels (`Spec/Rolling`), their velocities by calculus; the height of the front wheel by its derivative, which is that of its lowest material point.
* **C131 symmetry of rides** — `Spec/RideSymmetry` (mirrored, reversed, in other units); the sign and unit tables of C100–C102 for the cells of the rates, then calculus.
* **C132 determined rides** — every cell is continuously differentiable in state and torques (`run_pred`), the safe states are open; Picard–Lindelöf and the uniqueness of solutions; the straight ride from uniqueness and C131.
* **C133 mechanics** — `Spec/Dynamics` (particles, rolling); velocities and accelerations of joined rigid bodies (`RigidMotion`), the same recursion with polynomials, compared with the statements by kernel checks (`DynamicsTable`, `DynamicsChecks`, `DynamicsInertia`), the solved rolling conditions and their derivative (`DynamicsSolve`, `DynamicsRates`).
* **C134 energy** — C133 for the ride itself; calculus.
* **C135 mechanics, both ways** — rolling motions with any four speeds through a place (`DynamicsFree`), the power of the forces as a combination of the four rows of the code (`power_rows`), Cramer's rule (`dyn_cramer`).
* **C136 histories of a session** — the files each command writes (`Session.writes`), a stop leaves the first of them and a beginning of the next (`Session.stopped`); induction on the history (`after_induction`). Refuted for the measured file when a stop hits `write_periods_to_file`.
* **C137 cut files** — a beginning of `writeText` is whole lines and a beginning of the next (`cut_split`); whole lines are `writeText` of a part of the dictionary, so C44 applies.
* **C138 figures of periods** — a model of the state of pyplot (`Pyplot`: all figures, the open ones in order of activity); induction on the number of measurements.
* **C139 web app** — composition of construction (C34), removal of uncertainties (C47) and tables (C74).
* **C140 programs at the same time** — each program is a small machine (`Phase`), a schedule is a list of their steps, text is laid over the file at the position of the program (`overlay`); invariant: the program that opened the file last has its text in it as far as it has come (`Spec.Leads`). Refuted for constructions that read while another writes, and for saves of different texts.
* **C141 sets as objects** — dictionaries, sets and models are positions in a store (`Store`), a program is a list of calls and changes; every call only appends, except the program's own changes (`step_grows`), and the rest is by induction on the history. Refuted for changes that delete a key.
* **C142 self-stable speeds** — the characteristic polynomial is a real quartic (`pencil_quartic`); a real quartic is a product of two quadratics, which gives Routh-Hurwitz (`Lemmas/Hurwitz`); in terms of v² four conditions are linear and one quadratic (`routh_square`), which bounds the number of ranges; the intermediate value theorem on the smallest condition gives the loss on the axis.
* **C143 units** — each intermediate of `benchmark_par_to_canonical` scales by its dimension (`scaled_*`).
* **C144 gains** — the returned A is the open-loop A minus B G (C67); B is [0; M⁻¹], so G = M (P − R) is the only solution.
* **C145 steady turn** — with zero rates C01 reduces to the stiffness matrix; its first row in terms of sums over the bodies (`roll_row`); the sign of the torque from the determinant condition of C142.
* **C146 rider** — the in-plane quadratic form of the combined inertia is at least the sum of those of its parts (`combine_form`); the order from C21, since mass, first moment and inertia about the origin determine the part.
* **C147 motions** — by Cayley-Hamilton the product of the factors A − λ annihilates every motion; one factor at a time a driven first-order mode dies out (`decay_step`); conversely real and imaginary part of a mode are motions (`Lemmas/Decay`).
* **C148 Bode plot and motions** — the difference between a motion and the harmonic one is a free motion, which dies out (C147).
* **C149 standing** — energy: C01 with v = 0, C04 and the rows of K0; eigenvalues: the quartic is a quadratic in λ² with non-negative discriminant for a symmetric positive definite M.
* **C150 shipped bicycles** — the dictionaries as rational numbers (Model/Shipped); with the signs of the coefficients, the last condition of C142 is a parabola in v² that opens upwards and is negative at rest, so the stable speeds are one range; the signs are computed with rational intervals for cos and sin (Taylor polynomials with the bound of `Complex.exp_bound`).
* **C151 consistency of the shipped dictionaries** — evaluation of Model/Shipped; ranges as in C150.
* **C152 simulations die out** — solutions exist (matrix exponential) and are unique (C97), so every simulation is a combination of m motions, each of which decays (C147); converse through C147 with simulations over [0, t].
* **C153 converted dictionary** — rational intervals through `_convert_principal_to_benchmark` (cosine and sine through half angles), then the check of C150 on intervals around the rounded values.
* **C154 rounding** — the function as a list of assignments, run on a `Machine` whose operations round; an interval for every variable (certificate from tools/gen_rounding.py), induction on the assignments, and the sign check of C150 on the intervals of the matrices.
* **C155 relative rounding errors** — for every dictionary: signs and a count of roundings are propagated through the assignments (a checked table), no cancellation occurs in the entries claimed, `(1 + 2^-51)^n` bounds the error; the pendulum formulas of inertia.py as expressions of the same kind.
* **C156 rounding in ab_matrix** — backward error analysis: each rounding is a factor, the factors of the dot products are moved into the canonical matrices (multiply by M), which gives exact canonical matrices nearby; the sign check of C150 on the widened ranges then decides at each speed.
* **C157 rounding in the eigenvalues** — a 4×4 matrix near the state matrix is similar to the state matrix of canonical matrices nearby (change of coordinates that restores the upper blocks 0 and 1); the sign check of C150 on the ranges widened accordingly then decides.
* **C158 mixtures in part_inertia_tensor** — the loop over the cells with the type of the array; cases on the entries for the result, induction over the cells for the exceptions.
* **C159 types in cartesian** — the recursion with a buffer of the type of the first array equals the recursion of C31 on the stored arrays, by induction over the arrays.
* **C160 following the modes** — the nearest next value is the own one (strict inequality), so the choices are distinct and C08's sweep puts the row in the order of the previous one, by induction over the speeds; compactness and uniform continuity give the step.
* **C161 no eigenvalue lost** — by contradiction: sequences of bad steps have convergent subsequences; in the limit both rows are the roots of one characteristic polynomial, so they agree up to a permutation, and near the limit the nearest next value is the own one, which is what C160 needs.
* **C162 modes of the benchmark bicycle** — the discriminant of the characteristic polynomial as a polynomial in the square of the speed, with ranges for its coefficients, is positive up to 0.68 m/s and negative from 0.69 m/s on (kernel-checked interval arithmetic on six pieces, the last without end); different roots from the discriminant; the meeting by the intermediate value theorem.
* **C163 pendulum files** — the sorted list of the .mat files is determined by its members and its order, since names are different; reading a file and the list are the same for permuted listings.
* **C164 listings** — from C163 for RawData and from C34 (the last file of a set counts, and it is the only one) for Parameters; the counterexample by evaluation.
