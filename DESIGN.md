# Design of the BSMPT verification

This directory holds a Lean 4 model of parts of phbasler/BSMPT (C++ source in `/repo`, read as text)
and theorems about that model. `properties.jsonl` lists the properties, `MANIFEST.json` says which
theorem belongs to which property, `seeded/LOG.jsonl` records tests of the theorems against
deliberately wrong programs.

## Layout

* `lean/Verif/<Area>/Model.lean` – the model. Every definition cites file and lines in `/repo`.
* `lean/Verif/<Area>/Spec.lean` – the small independent specification, where one is needed.
* `lean/Verif/<Area>/Lemmas.lean` – helper lemmas.
* `lean/Verif/<Area>/Props.lean` – the property theorems, with an `example` beside each that a
  concrete non-trivial case meets its hypotheses.

## How C++ is modelled

* `Outcome α` = `ok a | err e | ub u`: a normal result, a C++ exception, or undefined behaviour.
  Out-of-range `operator[]`, `front()` on an empty container, signed overflow and dereferencing
  `end()` are `ub`; `.at()` out of range is an exception.
* A loop whose termination is not obvious is modelled as a relation, a fuel function or a
  well-founded recursion. When the C++ loop may run forever the model says so: the statement is
  about every number of rounds.
* `double`: three treatments, named in the comment of each definition.
  1. exact arithmetic in an arbitrary ordered field or in `ℝ` (rounding is not modelled);
  2. `Flt` = `nan | fin q` where the behaviour on NaN matters (comparisons with NaN are false);
  3. an abstract value passed through unchanged.
* `std::string` = `List Char`. `std::tolower` in the "C" locale maps A–Z only.
* Calls to code outside the model (GSL, libcmaes, NLopt, Eigen eigenvalue solvers, the potential of
  a model, thermal integrals, json) are parameters; the theorems hold for every behaviour of them.
* `std::unordered_map` is an association list without duplicate keys, or a function, and no theorem
  depends on the iteration order.

## Trusted base

* Lean's kernel (4.33.0) and the axioms `propext`, `Classical.choice`, `Quot.sound`. No other
  axiom, no `sorry`, no `native_decide`/`bv_decide`.
* The reading of the C++ text: the model was written by hand from the cited lines; nothing was
  compiled or run.
* Eigenvalues (C82): the eigenvalue solver of Eigen is assumed to return the roots of the characteristic polynomial in
  ascending order (`Solver.Correct`; `solver_exists` shows that there is such a solver).
* Eigenvectors (C83): the eigenvectors that Eigen returns are assumed to be orthonormal and in the order of the
  eigenvalues (`Vectors.Correct`). The program keeps only the real parts of the eigenvectors of fermions; the
  theorems assume that they are real (`Clean`), which Eigen does not promise.
* Transport equations (C88): masses in the wall, `NIntegrate_kappa`, `Nintegrate_GamM` and `Nintegrate_Scp` are
  parameters: continuous in the wall, statistical factors positive, source linear in the derivative of the phase. The
  adaptive integrator is replaced by exact solutions.
* Asymmetry (C90): the spline is a parameter; for the comparison with the equation it is the left-handed density itself.
  The direction in which the wall moves and the sign of the sphaleron term are those of `Via/AsymmetrySpec.lean`.
* Semi-classical force (C91–C93): the integrals `Kfactors` and the masses are parameters; the spline and the adaptive
  integrators are exact; NaN checks are not modelled.
* Rates of the VEV insertion approximation (C96–C98): only the integrands are modelled; the integration over momenta
  is not. The published integrands are those with complex energies in `RatesSpec.lean`.
* Input files (C99–C101): characters are read without conversion of line ends; the text of a number and its reading are
  parameters; a cell that begins with a number and continues otherwise is not modelled; conversion of the type to an integer
  outside the range of `int` is not modelled.
* Triple couplings (C102): the rotation matrix and the masses are parameters.
* Third derivatives (C103, C104): eigenvalues and eigenvectors are those of a correct solver (a parameter, as in C83); a
  sum with NaN is NaN; the order of the rows is a parameter (C102).
* Tests of models (C105–C107): results of minimiser, solver and random points are parameters; sums of doubles are exact,
  with NaN; the order of `std::sort` on lists with NaN is arbitrary.
* K functions (C108): the adaptive Monte Carlo integrator and the Gauss-Kronrod rule are replaced by the integrals over
  the same domains; two-dimensional interpolation of the tables is considered at points where its values are those of the
  tables.
* PotPlotter (C109): cells of the table are rational numbers; `setprecision(16)` and the conversion of numbers to text are
  not modelled.
* False vacuum fraction (C110): `gsl_integration_qags` returns the exact integral; the interpolated action is continuous
  (C64).
* Requests (C111): the calculations of `BounceSolution` are parameters; wall velocity (C112): NaN and infinities are
  modelled by cases, rounding is not.
* Plots (C113): numbers are elements of an ordered field without rounding; the conversion of NaN to an integer is
  undefined behaviour; frame, axis labels and number formats are not modelled.
* High temperatures (C114): the smallest eigenvalue and the solution of the linear system are parameters; `exponentT` is added
  up without rounding; a quotient by zero fails every comparison.
* Global minima (C115): the global minimum that the minimizers find is a parameter.
* Negative squared masses (C116): the tables are copied from the source as integers, the abscissae as the formula i and −i;
  that the numbers are those of the integral is not proved.
* The program MinimaTracer (C117): the phases, the states, the time and the texts of numbers are parameters.
* Single runs of the minimizers (C118): the simplex algorithm of GSL, the strategy of libcmaes, the random numbers and the potential are parameters; candidates of the strategy are taken to have as many entries as the start vector.
* Command lines of the programs (C119): the texts of the help are not modelled.
* Options and loops of the programs (C120): `std::stod` is a parameter; the sum `start + k * step` is exact, so the number of rows can differ by one from that of the rounded sum.
* Tables of the baryogenesis programs (C121): the transition, the asymmetries and the profiles are parameters; the loop over velocities is that of C120. `std::stod` is a parameter in C122.
* Constructor of the vacuum (C124): the tracer, the minimisers and the three searches from above are parameters or the models of C51 to C53. Flat directions (C123): comparisons are those of C17, without rounding.
* Smallest eigenvalue and second derivatives (C125, C126): the eigenvalues, eigenvectors and solutions of linear equations are those of Eigen; C126 assumes differentiable eigenvalue curves, which exist for simple eigenvalues.
* K functions (C127): the interpolation of the GSL is a parameter that is exact at the nodes; the axes are those without rounding, which have one mass more than the tables that are shipped (13000 and 12999).
* Masses of the transport equations (C128): the masses and derivatives are those of C35, C94 and C95, in this model lists.
* Barrier between the vacua (C129): the one-dimensional minimiser of the GSL and the random numbers are parameters.
* Statistical factors (C130) and numerical thermal integrals (C131): the integrator of the GSL is exact for integrable functions; errors of the quadrature are not modelled.
* Searches in a plane (C132): the three libraries and the random numbers are parameters; that `gsl_multimin_fminimizer_alloc` gives a null pointer for zero dimensions is taken from the GSL.
* Diagram of the phases (C133): what `Phase::Get` delivers is a parameter; `std::length_error` is the error `runtime` of the model.
* Printed spectrum (C134): of the text only the values, their order and signs are modelled; the rotation matrix and the masses have `NHiggs` rows; `std::sqrt` is a parameter.
* Solutions of a spline (C135): the numbers are the reals, the margins of the code are kept with the machine precision as a parameter; `assert`s are not modelled.
* Start of the baryogenesis calculation (C136, C137): electroweak VEV, wall thickness, search in the plane and mass lists are parameters of `init`; the eigenvalue routine is a parameter that gives all eigenvalues with their multiplicities in any order.
* Vacua of either length (C138): the eigenvalue routines are parameters; only their derivatives may be not a number. Log messages are not modelled apart from what they read.
* Whole search (C139): the searches of GSL, NLopt and the evolution strategy are parameters; NLopt is taken to report the value of the objective at its point (`Fair`).
* Inverse time scale (C57): the GSL's central difference with the step 1e-8 is taken as the exact derivative of the
  splined action over temperature.
* Signal-to-noise ratio (C140): the integral of the GSL is taken as exact.
* Derivatives of eigenvalues (C94, C95): the eigensolver is any function that gives orthonormal eigenvectors and
  eigenvalues of Hermitian matrices; `exSolver` shows that there is one.
* Wall thickness (C86): the spline takes its data at the knots and the Brent minimiser returns the least value
  (`Interpolates`, `Minimises`; polynomial interpolation shows that both can hold). Atomic actions of the threads are
  the test of the index, the increment together with the read, and the locked write.
* The abstractions above: no rounding, no memory model beyond the `ub` outcomes shown, no locale.

## Plan per property

| id | what is modelled | how it is proved |
|----|------------------|------------------|
| C01, C02 | `parser` maps and `add_input` on key/value lists, `get_value`, `check_required_parameters` | refinement to "last entry with this lower-case name wins"; induction over the list |
| C03 | the public `add_input` with the one-argument special case | refuted by a witness; `_partial` for lower case |
| C04 | `get_key_value` with `npos` arithmetic | equality for all names/values; error for all-dash input |
| C05 | `split` with `getline` semantics | induction over the string |
| C06 | `Logger` level map, `SetLogger(parser)`, `SetLogger(vector)` | fold over the ten prefixes, closed form; `ub` witness for the vector overload |
| C07 | `Transpose` with row access as `ub` when out of range | index characterisation; witness for ragged input |
| C08 | the vector operators of `utility.h` | index characterisation and error iff lengths differ |
| C09 | `factorial` on 32-bit `int` with overflow as `ub`, non-termination as `ub` | closed form for 0..12, `ub` elsewhere |
| C10 | model table, `getModel`, `InvertModelNames` | table facts by `decide`, lifted to all strings |
| C11 | row and header writing of `CalcTemps`, padding | counting tabs; induction over processed points |
| C12 | `CalcWhichMinimizer`, `GetMinimizers` | whole finite table |
| C13 | candidate collection and arg-min of `Minimize_gen_all` | fold invariant; witness for the ignored candidate |
| C14 | worker loop of `GSL_Minimize_gen_all` as a transition system | invariants over all interleavings; reachable-`ub` witness |
| C15 | `PTFinder_gen_all` | invariant of the bisection, termination measure |
| C16 | group enumeration and `ReduceVEV` | orbit membership by induction over the group; witness for non-canonicity |
| C17 | `almost_the_same` | characterisation and refutation |
| C18 | `Create1DimGrid` | index characterisation |
| C19 | `WarpPath` | algebra |
| C20 | `Phase::Add` | invariant over histories |
| C21 | `CalculateTc` | bisection invariant |
| C22 | `setCoexPhases` | membership characterisation |
| C23 | history loop | well-founded measure when pair ids increase; divergence witness otherwise |
| C24 | per-pair loop of `TransitionTracer` | case analysis, induction over pairs |
| C25 | `CalculateActionAt`/list insertion | invariant over histories |
| C26, C27 | nucleation/percolation/completion searches | fuel recursion = the code's own bound, invariants |
| C28 | `CalculatePTStrength` | recursion measure / divergence witness |
| C29 | `CalcGWAmplitude` as a state transformer | refutation, `_partial` after first call |
| C30–C32 | `VTree`, `CounterTerm`, `NablaVCT`, `HessianCT`, `HiggsMassMatrix`, `sym*Dim` | polynomial identities, real derivatives |
| C33, C34 | `MinimizeOrderVEV`, `VEff` | index characterisation, `ub` witness, equality of calls |
| C35, C36 | `CWTerm`, `boson`, `fermion`, `fbase*` over `ℝ` | real analysis (`HasDerivAt`, limits) |
| C37, C38 | `CheckNLOVEV`, `EWSBVEV`, `SetEWVEVZero` | characterisation |
| C39 | `TransformCoordinates` | algebra |
| C40 | option reading and validation of `CalcTemps` | whole table; refutation for one value |
| C41 | finite-difference stencils | polynomial identities |
| C42 | `FindSignSymmetries` | enumeration lemma |
| C43 | status functions and name tables | whole table |
| C44 | `initModel` etc. as a state machine | history independence |
| C45, C46 | the box of `MinimizeUsingNLOPT`, `MinimaDevelopmentWithTemperature`, `FindNextLocalMinima` | closed form of the visited temperatures; witnesses for collapse and overshoot |
| C47 | `FindFlatDirections`, `ConvertToNonFlatDirections` | invariance under rotations; exchange symmetry as witness |
| C48 | the seed in `IsThereEWSymmetryRestoration` | algebra for arbitrary invertible Hesse matrix |
| C49–C51 | `Phase::Get`, `TrackPhase`, `LocateMinimum`, `FindZeroSmallestEigenvalue`, `addPhase` as histories of calls | invariants over arbitrary sequences, fuel recursion with "for every number of rounds" for endless runs |
| C52, C53 | `setCoexRegion`, gap patching, the tracing modes | exact characterisation of intervals; measures for termination, witnesses otherwise |
| C54 | checks in front of `TransitionTracer` | case analysis |
| C55–C57 | optimal symmetry, initial scan, tunnelling rate, Hubble rate, inverse time scale | algebra, monotonicity over `ℝ`, witnesses |
| C58, C60, C61 | peaks, spectra, sensitivities, efficiency factors, SNR status | comparison with the published formulas written down independently (`GW/Literature.lean`) |
| C59 | what `TransitionTracer` writes for the wall velocity | equality of outputs for every requested velocity |
| C62, C63 | derivative modes of the loop potential and of the thermal functions | `HasDerivAt` over `ℝ`; witnesses |
| C64, C65 | band matrix solver, `tk::spline`, path parametrisation | elimination invariants, piecewise polynomials, arc length |
| C66–C72 | Bernstein basis, Runge–Kutta step, exact solutions, over/undershooting, path deformation, action integral | order conditions by polynomial identities, real analysis, state machines |
| C73 | rules of the scans for bounce actions | characterisation for every pair of outermost solutions |
| C74–C77 | coupling tensors, `set_gen`, `calc_CT`, gauge couplings of the models, entry by entry | generic evaluation of an assignment list as a polynomial, then identities in `ℂ`; invariant functions and their Taylor expansion for the counterterms |
| C78, C79 | Yukawa tensors, constants of the standard model, mass matrices of gauge bosons and fermions | the quadratic form of a symmetric matrix determines it; block form of the fermion matrix; characteristic polynomial |
| C80 | symmetry of the coupling tensors of every model, derivative modes and mass matrices | the values of a table are numbered, then the symmetry is a finite check of the whole table of numbers; a differentiable function with known derivatives along all lines |
| C81 | `CalculateDebye`, `CalculateDebyeGauge` and their simplified versions in six models | the contracted quartic coupling is the Laplacian of the documented potential (second differences), the gauge and fermion parts are traces of the mass matrices; closed forms per model |
| C82 | the masses as functions of the fields, `V1Loop`, `VEff` and `calc_CT` of six models | the spectra are those of matrices that are conjugated by the symmetry: invariance of the documented Lagrangian gives `M(Rφ) = R M(φ) Rᵀ` for scalars, and unitarily equivalent mass matrices for gauge bosons and fermions; `calc_CT` follows from C76, whose condition on CP is reduced to the neutral fields |
| C83 | `CalculatePhysicalCouplings`, `WeinbergFirstDerivative`, `WeinbergSecondDerivative(AsMatrixXd)`, `fbase` for arbitrary tensors with four gauge bosons, twelve quarks and nine leptons | a function of a matrix summed over the eigenvalues is the trace `tr f(M)`; its derivative `tr f'(M) dM` and the second derivative with divided differences are proved from convergent estimates for projections; the species are assembled and compared with `V1Loop` at T = 0; the renormalised statement follows with C76 and C82 |
| C84 | `MinimizeOrderVEV`, `VevOrder` of six models and `VEff` | explicit sequences of gauge rotations bring every field configuration into the directions of `VevOrder`; with the invariance of C82 (and C74 for the simplified potentials) every value of the potential occurs there |
| C85 | the configuration reader, constructor, `legend`, `setNumerics`, `setvw` and the two `CalcEta` functions of `CalculateEtaInterface`; the transport solvers are parameters | a line-by-line meaning of the file as a relation; the result of a call as a function of the configuration and the arguments only |
| C86 | `calculate_wall_thickness_plane` with threads as interleaved atomic actions (test, fetch, work) | an inductive invariant for every interleaving, a measure for termination, explicit schedules for the failures |
| C87 | `GSL_VEFF_gen_all_maximum_line`, `GSL_Find_Maximum_line`, `calculate_wall_thickness_1D`; the minimiser's solutions are a parameter | closed form of the choice by induction; polynomial witnesses |
| C88 | `top_source`, `bot_source`, `tau_source` (`operator()`, `Calc_nL`), `Calc_theta`, integrand of `Calc_Scp` | linear differential equations: linearity of the right-hand side, continuity of its coefficients and uniqueness; conserved combinations solve free equations |
| C89 | the same, against a list of reactions with stoichiometry and forces | equality of flows as polynomials in the potentials; witnesses for the differences |
| C90 | `Calc_eta::set_class`, `Nintegrate_eta`, `set_up_nL_grid`; spline and integrator exact | the adjoint exponential turns the diffusion equation into a total derivative; bounded solutions have no growing exponential; a steady solution for all parameters as witness |
| C91 | `transport_equations::operator()` both branches, `mubl_func`; Kfactors as parameters | equivalence with the fluid equations by solving two linear equations per kind of particles |
| C92 | exact solutions from zeros at the far end, continuous coefficients | uniqueness of linear differential equations forwards and backwards |
| C93 | `calculate_vev`, `calculate_vev_derivative`, `calculate_theta`, `Integrate_mubl_interpolated`, `Integrate_mubl` | derivatives of tanh, chain rule, integration of the rate equation; counterexamples |
| C94 | `FirstDerivativeOfEigenvalues` with an arbitrary correct eigensolver | first-order perturbation theory in an orthonormal basis; invariant of the loop over classes of equal eigenvalues; derivative of the eigenvalue equation |
| C95 | `GaugeMassesSquared`, `QuarkMassesSquared`, `LeptonMassesSquared`, `HiggsMassesSquared` with a derivative | derivatives of the mass matrices, C94 |
| C96 | `Calc_Gam_M` with the overflow of the exponential | closed form of the published integrand with complex energies; limits in the width; uniqueness of expansions |
| C97 | `Calc_Scp` | as C96; cuts below 10⁻²⁰ as error bounds |
| C98 | `Calc_ThermalMass_q`, `Calc_ThermalMass_l`, Yukawa couplings of `set_class` | arithmetic with charges |
| C99 | `getline` with `eof` and `fail` bits, the loops of all programs over lines | induction over the lines of a file |
| C100 | extraction of numbers from a line, `ReadAndSet` of all models | induction over extractions; finite tables of columns and parameters |
| C101 | legends of all models, headers and rows of six programs | columns of concatenations; dictionaries of names as specification |
| C102 | assignment of rows of the rotation matrix to particles in `TripleHiggsCouplings` of all models | rows with given fields exceed the threshold exactly in their columns; permutations |
| C103 | `WeinbergThirdDerivative` with all branches of `fbaseTri` | third derivatives of traces of functions of matrices by divided differences; interpolation by polynomials |
| C104 | rotation to the mass eigenstates in `TripleHiggsCouplings`, `Prepare_Triple` | derivatives in other coordinates; C103 |
| C105 | the tests of the symmetry of coupling tensors in ModelTestfunctions.cpp | loops that stop at the first asymmetry against a specification with all permutations; tensors of the shipped models from C76 to C79 |
| C106 | the numerical tests in ModelTestfunctions.cpp with NaN | sums of absolute values with `Flt`; spectra of the shipped models (C78, C79), renormalisation (C83) |
| C107 | `CheckImplementation`, its output, `main` of Test.cpp | table and output as functions of the results; loop over the lines from C99; labels from C101 |
| C108 | Kfactors.cpp, the normalised functions of KfactorsinterpolatedGSL.cpp, the values of Kfactor_grid.cpp | derivatives of the distributions; reflections of the octants; spherical coordinates, series of the Fermi integral and integration by parts for norms and massless limits; bounds of the tails |
| C109 | PotPlotter.cpp with options, grids and slices | nested loops as recursion over the directions; specification as list of all combinations; the passes of the outermost loop after the first print nothing |
| C110 | the integrals behind the false vacuum fraction | substitution from temperature to time; monotone weights; integrability of the rate for continuous actions; accepted temperatures of C27 |
| C111 | the calls of the transition tracer for one pair, the loop over pairs and points | case analysis; the fractions do not occur in the calls |
| C112 | strength, Chapman-Jouguet velocity and the two calculated wall velocities | thermodynamics of the free energy; the quadratic equation of the Chapman-Jouguet velocity; bounds of real powers |
| C113 | `AsciiPlotter`: curves, ranges, resampling, the plane, the blanks around titles and labels | resampled values lie on the polygon through the data; induction over values and curves; 64-bit arithmetic for the blanks |
| C114 | the loop of `IsThereEWSymmetryRestoration` over temperatures | induction over the passes; bounds on log 10; monotony of (a + b T^2)/(1 + T^2) |
| C115 | `IsGlobMin` with the reduction to one sector and the removal of flat directions | the reductions are flips (C16), norms are invariant under flips |
| C116 | the spline through the table for negative squared masses, both tables, the linear interpolation of the first version | the theorems of C64 on splines; a comparison of the two tables line by line |
| C117 | the table and the options of `MinimaTracer` | induction over the phases; the columns of a text as in C101; numbers are read back as in C40 |
| C118 | single runs of the simplex algorithm, the sequential search from many start points, the wrapper of the evolution strategy | induction over the iterations and over the queue; the algorithms are parameters |
| C119 | `prepare_parser` and `convert_input` of all programs on top of the parser of C01-C04 | the list of settings of a plain call is computed, then C01, C02 and C04 apply; facts about the thirteen tables of names by evaluation |
| C120 | constructors of `CLIOptions` and `good()` of nine programs on top of the parser; the loops of PlotEWBG_vw and VEVEVO with fuel | case distinction over the programs; the loop by induction on a bound from the Archimedean property, the endless case by induction on the fuel |
| C121 | the output of PlotEWBG_vw, PlotEWBG_nL and CreateMuGrid as lists of lines on top of the search of C99; numbers are written by a parameter | columns of a line by the lemmas of C101, rows by induction over the velocities |
| C122 | the constructor of `CLIOptions` and `good()` of CreateMuGrid, which does not use the parser | effect of one argument, then induction over the arguments from the end; undefined behaviour by C06 |
| C123 | all of `FindFlatDirections`, with the state of its loops and the log, for any potential | invariants of the three nested loops; circles and spheres by the equality of the sums of squares at the points compared |
| C124 | the constructor of `Vacuum` and the search from below, on the tracer of C20, C51 to C53 | case analysis over the modes; the phases kept by induction over the saved minima and the grid |
| C125 | `SmallestEigenvalue` from the list of eigenvalues on, with NaN | induction over the list; curvature by an orthogonal matrix of eigenvectors |
| C126 | `SecondDerivativeOfEigenvaluesNonRepeated` over the reals, the eigensolver and the solution of linear equations being parameters | the equations solved have exactly one solution, the derivative of the normalised eigenvector; then the product rule |
| C127 | the filling of the tables, the interpolated functions with their range check, and the axes of `Kfactor_grid`, over the reals | invariant of the two nested loops over the flat vector; the axes by induction over the steps |
| C128 | `get_W_mass` and `get_top_mass_and_derivative` from the lists of masses on, with NaN | invariant of the search; the cases of the spectrum of the electroweak gauge bosons |
| C129 | the minimiser of the GSL as a structure of state, step and bracket; the loop with fuel; the tries, the choice of the highest point and the thickness | invariants of both loops; concrete minimisers and sequences of guesses for the negations |
| C130 | the integrand of the statistical factor and its range, over the reals, and the check for NaN of the rates; the integrator a parameter | the closed form of the massless integral (C108, C127), an exponential bound on the tail and monotony in the mass |
| C131 | both numerical thermal integrals over the reals; the integrator a parameter | exponential bounds on the integrands and on the tail; differentiation under the integral by dominated convergence; a lower bound on the part cut off for the negation |
| C132 | the single runs and searches of the three minimisers in a plane, the bounds and start vectors; the libraries are parameters | invariants of the loops, on top of C39 and C118; a minimiser that always fails for the negations |
| C133 | `PrintPhasesDiagram` up to the drawing of the curves (C113) and `ConvertToVEVDim` | floor arithmetic for the bars, induction over the phases; with C33 for the change of coordinates |
| C134 | `write` of five models: the search for the rows, the naming of the neutral bosons and the printed compositions | folds over the rows with their invariants; the cases of the SM-like boson being the lightest, middle or heaviest |
| C135 | `spline::solve` and the solvers of polynomials up to degree three over the reals; the machine precision is a parameter | factorisation of the depressed cubic in each case (double zero, cosines, Cardano); Newton steps fix zeros; induction over the pieces |
| C136 | `GSL_integration_mubl::init` with model, minimizer and wall thickness as parameters | case analysis on the search for a symmetry; counterexamples |
| C137 | `QuarkMasses`, `LeptonMasses` with the eigenvalues as a parameter; the phases in `init` | characteristic polynomial of the chiral mass matrix of C78; polar form of complex numbers |
| C138 | the checks of the vector in the functions for masses, `Shapes/Model.lean`; the matrices are those of C31, C79, C78 and C95 | case analysis on the length; C33 for the expansion |
| C139 | `Minimize_gen_all` with the searches of the libraries as parameters, `MinimizeUsingNLOPT`, `FindLocalMinimum`, `GetGlobalMinimum` | the candidates are the origin and the delivered points with their potential; `argmin` lemmas of C13 |
| C140 | `GetSNR`, `Nintegrate_SNR` and the ratios stored by the transition tracer | the amplitudes of C29 as spectrum; continuity of the integrand; Cauchy–Schwarz by the discriminant |
| C141 | `V1Loop` of the value, with `boson`, `fermion`, `CWTerm` and `FCW` | loops over the particles as sums over the spectra; logarithm of the scales |

## Findings

Places where the code does not have the property. Each is proved of the model with a concrete witness
(theorem in brackets); the part that does hold is proved separately.

### Input and output
* A single `--JSON=…` is recognised in lower case only (`C03_json_case_sensitive`).
* `complete=true` overrides an explicit setting of the bounce log level only (`C06_bounce_switch_ignored`);
  `SetLogger` on raw arguments dereferences `end()` (`C06_raw_arguments_undefined`).
* `Transpose` of a ragged matrix reads out of bounds (`C07_ragged_is_undefined`).
* An input line shorter than the header shifts all columns of the output (`C11_short_line`).
* `keep_ewsr` is documented but rejected by `CalcTemps` (`C40_temps_keep_ewsr`); `CalcGW` accepts negative
  line numbers (`C40_gw_negative_lines`); unknown texts silently select a default (`C40_unknown_text`).

### Minimisation
* Without multithreading the result of CMAES is not looked at (`C13_single_threaded_ignores_cmaes`); a NaN
  at the origin is never replaced (`C13_nan_at_origin`, `C39_nan_first`).
* Two worker threads may pop the empty queue and race (`C14_pop_of_empty_queue`, `C14_data_race`).
* `PTFinder_gen_all` may report success with a zero minimum (`C15_success_without_minimum`).
* The NLopt box collapses for VEVs below −300 (`C45_box_collapses`).
* SM: `nVEV` and `VevOrder` disagree, reads past the end (`C33_sm_reads_past_the_end`,
  `C38_sm_reads_past_the_end`); an order with a singlet first is not zeroed (`C38_singlet_first_fails`).

### Tracing
* The representative in the principal quadrant is not unique for general groups
  (`C16_representative_not_unique`); `allow_for_sign_flip` is inverted (`C17_flag_inverted`); the line grid
  has one point too many (`C18_line_not_npoints_long`); a warped path may miss the new false vacuum
  (`C19_misses_false_vacuum`).
* `Add` alone leaves the temperature range wrong (`C20_range_needs_constructor`), `Get` extends it
  (`C49_get_extends_range`).
* `CalculateTc` never ends for phases touching at one temperature (`C21_touching_phases_never_finish`) and
  misses a crossing at the end of the window (`C21_crossing_at_end_fails`).
* An exchange symmetry is taken for a flat direction (`C47_exchange_mistaken_for_flat`).
* The high-temperature seed has the wrong sign (`C48_seed_has_wrong_sign`).
* Temperature scans overshoot or never end (`C46_overshoots`, `C46_wrong_direction`); tracking a phase may
  never end and leave the interval (`C50_never_ends`, `C50_leaves_the_interval`).
* Gaps at the ends of the range go unnoticed (`C52_outer_gap`); touching phases are not reported
  (`C52_touching`).
* The tracing modes may run forever or read uninitialised values (`C53_tracer_dropped_phase`,
  `C53_tracer_zero_step`, `C53_mode1_endless`, `C53_mode2_endless`, `C53_mode2_uninitialised`,
  `C53_mode2_low_side`, `C53_glob_overlap_nested`).
* The transition history does not end when a patched phase is reached from phase 0
  (`C23_endless_patched`).

### Bounce solution and gravitational waves
* The symmetry chosen for the tunnelling target is always the first one (`C55_first_element`,
  `C55_not_nearest`). The initial scan does not end for an empty window (`C56_endless`).
* An exact hit of the goal or a slowly varying integral is reported as failure (`C27_exact_hit_fails`,
  `C27_slow_fails`); success may carry the marker −1 (`C27_success_with_marker`).
* Endless recursion for vanishing or NaN strength (`C28_endless`).
* A negative interpolated action gives the largest rate (`C57_negative_action`); the inverse time scale is
  not recalculated (`C57_time_scale_stale`).
* The reported wall velocity and temperatures always belong to 0.95 (`C59_request_ignored`,
  `C59_inconsistent`).
* The first amplitude of a fresh object is NaN (`C29_first_call`, `C29_zero_turbulence`); integer division
  in the exponent of turbulence (`C58_turbulence_power`); GeV combined with Hz (`C58_hubble_units`);
  `GetSNR` overwrites a failure (`C61_snr_overwrites`).

### Potential
* The order is dropped for short vectors (`C34_order_dropped`). A NaN vacuum passes the NLO check
  (`C37_nan_accepted`). A sign flip may be accepted by accident (`C42_accidental`).
* Derivatives: thermal part missing from the second field on (`C35_thermal_part_missing`, `C35_fails`), wrong
  for negative squared masses (`C35_negative_mass`); temperature and field derivatives of the loop
  potential (`C62_scalars_independent`, `C62_temperature_fails`, `C62_field_fails`,
  `C62_gauge_term_missing`); thermal functions (`C63_high_fails`, `C63_boson_jump`, `C63_nan`).
* Loop functions below the thresholds (`C36_two_asymmetric`, `C36_three_asymmetric`,
  `C36_four_single_zero_fails`).
* `set_All` on a used object and `resetScale` keep old values (`C44_set_all_stale`, `C44_triple_stale`).

### Splines and the action
* The left boundary condition is dropped with not-a-knot on the right (`C64_boundary_left_fails`); the
  length of a curved path is not its length (`C65_length_fails`); adding a point inside reads past the end
  (`C65_add_inside_fails`).
* Binomial coefficients overflow from n = 31 (`C66_nChoosek_overflow`); the radius is passed as `float`
  (`C67_float_step_fails`); the acceleration at the centre lacks 1/(1+α) (`C67_centre_fails`).
* Start of the integration: `C68_search_fails`, `C68_fallback_fails`, `C68_mixture_fails`.
* Release point: `C69_nan_fails`, `C69_threshold_fails`, `C69_upper_limit_fails`,
  `C69_never_overshoots_fails`.
* Path check and state: `C70_check_fails`, `C70_never_overshot_fails`, `C70_stale_spline_fails`,
  `C70_no_success`, `C70_failed_object`.
* Deformation: `C71_moved_fails`, `C71_knots_fails`. Integral: `C72_simpson_fails`, `C72_endless_fails`.

### Models
* R2HDM: Hesse entries below 1e-3 are dropped in `calc_CT` (`C76_r2hdm_threshold_fails`).
* C2HDM: `VTreeSimplified` ignores four fields (`C74_c2hdm_simplified_fails`); no vacuum for negative tan β
  (`C75_c2hdm_negative_fails`).
* CxSM: the counterterms cannot cancel a doublet-singlet mixing which is not parallel to the vacuum of
  the singlet (`C76_cxsm_mixing_fails`), and the absolute threshold 1e-5 drops counterterms of
  dimensionless couplings whose effect on masses is of order 0.1 GeV² (`C76_cxsm_threshold_fails`).
* CPintheDark: the quartic self-coupling of the singlet is implemented with the prefactor 1/4, documented
  with 1/8 (`C74_cpinthedark_quartic_fails`); `VTreeSimplified` ignores four fields
  (`C74_cpinthedark_simplified_fails`); `set_gen` accepts parameters for which the assumed vacuum is not
  stationary (`C75_cpinthedark_stationary` gives the exact condition).
* Models with two doublets: the Yukawa type is not checked; numbers other than 1 to 4 give wrong masses to the
  down-type quarks and leptons (`C79_2hdm_type_fails`).
* CxSM: `vh` is an input; unless it equals the constant of the standard model the W and Z masses are wrong
  (`C79_cxsm_gauge_fails`).
* N2HDM: no vacuum for negative tan β (`C75_n2hdm_negative_fails`); counterterms uninitialised for
  vanishing singlet VEV (`C76_n2hdm_singlet_fails`). Its header omits "+ c.c." in the term with λ₅ and
  m₁₂²; the theorem reads it with the conjugate.

* The default thermal masses of the R2HDM, C2HDM and N2HDM contain only the top and the bottom quark: they are
  smaller than those of the general calculation, which is forced in the unit tests of other models
  (`C81_simplified_fails`, exact difference in `C81_simplified_difference`), and they are not rounded.
* `CalculateDebyeGauge` divides by zero in the SM, CxSM and CP in the Dark if the SU(2) coupling vanishes
  (`C81_sm_gauge`, `C81_cxsm_gauge`, `C81_cpinthedark_gauge`).
* `VEff` of the C2HDM and of CP in the Dark is not gauge invariant away from the directions of the vacuum
  expectation values, since the simplified potentials ignore four fields (`C82_c2hdm_potential_fails`,
  `C82_cpinthedark_potential_fails`).
* Without the charge-breaking direction (an option of the C2HDM) the search misses deeper minima
  (`C84_c2hdm_neutral_fails`).
* At a vacuum which is a saddle point the derivatives for the counterterms are NaN although the one-loop potential
  has derivatives there (`C83_negative`).
* `V1Loop` neglects particles with a squared mass below 1e-4, the derivatives for the counterterms do not: with the
  default electron mass they belong to the potential with the electron (`C83_sm_first`), which is not the one that is
  minimised.

### Baryogenesis

* "Massive: no" for the bottom quark makes every calculation with the bottom or tau method end in an exception
  (`C85_massless_fails`).
* After a point that the interface refuses, its object mixes the new wall velocity and temperature with the old
  container (`C85_refused_point_fails`).
* The threads of `calculate_wall_thickness_plane` test the shared index and increment it in two separate actions. For
  every number of threads from two on there is a schedule in which a thread reads past the end of the base points; the
  exception leaves the thread and ends the program (`C86_race_fails`). If the number of processors is unknown, no
  thread is started and the barrier is zero (`C86_no_threads_fails`).
* `GSL_Find_Maximum_line` minimises −V but takes the solution with the largest −V, that is the lowest barrier
  (`C87_two_barriers_fails`), and evaluates it on the line from the origin instead of the symmetric minimum
  (`C87_symmetric_vev_fails`).
* Transport equations: the bottom Yukawa reaction has the Higgs potentials with the wrong sign, so a Higgs density
  feeds itself (`C89_bottom_yukawa_fails`; the tau Yukawa reaction is right). `top_source` lacks the right-handed top
  quarks of the strong sphaleron (`C89_top_sphaleron_fails`). The statistical factor of a massless left-handed doublet
  is 6 in `top_source` and for light quarks but 3 in `bot_source` and `tau_source` (`C89_statistics_fails`). Each
  Yukawa reaction creates two Higgs doublets, which violates hypercharge in the symmetric phase
  (`C89_hypercharge_fails`). In `tau_source` a massless bottom quark removes the source of the tau lepton and vice
  versa (`C89_tau_source_fails`). The density of left-handed particles counts one light generation of two: 3q+2t
  instead of 5q+4t (`C89_second_generation_fails`).
* The asymmetry of the VEV insertion methods has the factor 3Γ/(2ω), which belongs to sphalerons in both phases, instead
  of 3Γ/(v+ω) for sphalerons in front of the wall only. `Nintegrate_eta` integrates from the far end to the wall, and
  its factor has a minus sign too, so that a positive left-handed density gives a positive asymmetry; with
  −v n' − D n'' = −Γ(3/2 n_L + R n) it is negative (`C90_asymmetry_fails`).
* All transport equations are integrated from zeros at the far end of the symmetric phase towards the wall, an initial
  value problem. The densities at a position depend only on the source in front of it (`C92_ahead`), so particles never
  diffuse ahead of the source (`C92_no_diffusion`). Each solution with densities at the far end, in particular the one
  that decays on both sides of the wall, differs from the result everywhere (`C92_diffusion_fails`,
  `C92_top_diffusion_fails`).
* In the semi-classical force methods the fields always end at the origin; a minimum of the symmetric phase with a
  singlet is computed but not used (`C93_symmetric_fails`).
* The source of the equations without velocities drops the third derivative of the phase and the second derivative of
  the mass, although terms of the same order are kept (`C93_source_partial`, `C93_source_fails`).
* `calculate_theta` accesses three entries of the minimum for a suppression that is switched off, and so throws
  `out_of_range` for models with fewer than eight fields (`C93_fields_fails`).
* The relaxation rate of the VEV insertion approximation ends in an exception at temperatures up to 14 GeV, as the
  exponential of the largest momentum overflows (`C96_low_temperature_fails`).
* The integrand of the CP-violating source has `pow(k, 4) * GamT / (2 * pow(k, 4))` where `2 * pow(w, 4)` belongs
  (`C97_expansion_fails`, `C97_small_momenta_fails`).
* The thermal mass of the bottom uses the hypercharge of the top (`C98_bottom_fails`). The difference of the thermal
  masses of the tau has 3g'²/4 instead of 3g'²/32, with the wrong sign as a consequence (`C98_tau_fails`,
  `C98_tau_sign_fails`). Yukawa types 3 and 4 of the C2HDM throw (`C98_types_fails`).

### Derivatives of masses

* `FirstDerivativeOfEigenvalues` treats different eigenvalues that are at most 10⁻⁶ apart as equal: for
  diag(1, 1 + 5·10⁻⁷) and a perturbation with 0 on the diagonal it returns derivatives ±1 instead of 0
  (`C94_threshold_fails`). Eigenvalues and derivatives below 10⁻⁶ are replaced by zero (`C94_small_fails`).
* `HiggsMassesSquared` with a derivative returns the eigenvalues of the derivative of the mass matrix twice, for
  every model and every correct eigensolver (`C95_higgs_fails`).

### Input files and tables

* With `--firstline=1` the programs `CalcTemps`, `CalcGW` and `MinimaTracer` calculate the header as a parameter point
  (`C99_tracing_fails`).
* `NLOVEV` does not test the result of `getline` and calculates an empty line when the last line that is asked for lies
  behind the end of a file that ends with a newline (`C99_nlovev_fails`). `VEVEVO`, `PotPlotter`, `CreateMuGrid`,
  `PlotEWBG_vw` and `PlotEWBG_nL` do the same for the line after the last one instead of reporting that it does not exist
  (`C99_search_fails`). On an empty line all models use uninitialised variables (`C100_empty_fails`).
* No model rejects a malformed line: missing columns take the last number read (`C100_short_fails`), text makes its
  parameter and all later ones 0 (`C100_text_fails`), an empty cell shifts all later columns (`C100_blank_fails`).
* The names of the tadpole counterterms of CPintheDark are in the order T1, T2, TCP, TCB, the values in the order TCB, T1, T2,
  TCP (`C101_calcct_fails`).
* `CalculateEWBG` writes the minimum before the ratio when there is no strong transition, and after it otherwise
  (`C101_ewbg_fails`).
* The Standard Model reads two parameters and `set_gen` ignores both (not a theorem: `Lagrangian/SM/Model.lean` has no
  parameter for them).

### Triple couplings

* The member `MSM` of the N2HDM is not reset: which scalar is called `h_SM` when none lies between 124 and 126 GeV depends
  on the points computed before (`C102_history_fails`). The C2HDM calls the lightest one `h_SM` (`C102_window_fails`).
* Rows are assigned to particles by entries above 1e-5; when degenerate states mix, one row gets two names
  (`C102_degenerate_fails`), and in the R2HDM the array `posN[2]` is overrun when a third row has CP-even entries
  (`C102_overrun_fails`).
* CxSM and CPintheDark test `== 0` for a free place; a scalar in row 0 is overwritten and gets the name of the heaviest one
  (`C102_cxsm_fails`, `C102_cpinthedark_fails`).
* The Standard Model names its rows by position (`C102_sm_fails`).
* At a saddle point of the potential `WeinbergThirdDerivative` throws if there is a massless scalar, and otherwise every
  one-loop coupling is NaN (`C103_negative`, `C103_negative_throws`); `WeinbergSecondDerivative` returns NaN in both cases.

### Tests of a model

* Every numerical test compares a sum of deviations with `>`, so that NaN passes all of them: gauge bosons, fermions,
  tadpoles, masses at next-to-leading order and counterterms (`C106_gauge_fails`, `C106_fermions_nan_fails`,
  `C106_tadpoles_fails`, `C106_nlo_fails`, `C106_conditions_fails`).  In a vacuum that is a saddle point at tree level the
  derivatives of the Coleman-Weinberg potential are NaN and both tests of the counterterms pass whatever the counterterms
  are (`C106_saddle_fails`).
* Light fermions are not tested, since the bound is absolute: a massless electron passes (`C106_light_fails`).  A model
  without quarks passes, and one with more than twelve quark masses makes the test throw (`C106_quarks_fails`).
* The test of the minimum does not see signs, that of the masses at next-to-leading order accepts the negatives of the
  squared masses (`C106_minimum_fails`, `C106_nlo_fails`).
* The tests of the simplified potentials pass if both potentials vanish at one of the points, whatever they are at the
  others; the counterterm potential may be wrong by a factor between 9/11 and 11/9 (`C106_simplified_fails`,
  `C106_factor_fails`).
* The tests of the Yukawa couplings do not compare the lengths of the innermost vectors (`C105_yukawa_fails`).
* `Test` returns the status of success if tests fail, and if the line does not exist or is the legend, in which case
  nothing is tested (`C107_status_fails`, `C107_nothing_fails`).  `CheckCTIdentities` and `CheckCTNumber` exist but are
  not among the tests (`C107_tests`).

### K functions

* `K8fermion_normalized` divides by the norm of the functions with tilde, `K_functions` by that of `⟨ ⟩` as published.  The
  first is positive and the second negative, so the interpolated `K₈` in the transport equations has the wrong sign (and
  dimension) for all masses and temperatures (`C108_k8_fails`).
* The momenta are cut off at 1000 GeV for all temperatures.  The tables reach `T = 250`, where more than three percent of
  `K₄` of massless fermions are missing (`C108_cutoff_fails`); at `T = 50` it is less than `10⁻⁶` (`C108_cutoff`).

### PotPlotter

* `lowi` and `highi` are stored as floating-point numbers but read with `get_value<int>`: `-0.5` becomes 0 and `1e3`
  becomes 1 without a message (`C109_fraction_fails`).
* -1 is the mark of a missing bound, so that a grid that starts or ends at -1 is refused (`C109_bound_fails`).
* For more than six fields `npoints.at(6)` throws before the message about the dimension can be given
  (`C109_seven_fails`).

### Percolation, strength and wall velocity

* `--perc_prbl` and `--compl_prbl` are read, checked and stored, but `CalculatePercolationTemp()` and
  `CalculateCompletionTemp()` are called without argument: the fractions are always 71 % and 1 %
  (`C111_ignored_fails`, `C111_fraction_fails`).
* `CalculatePTStrength` throws without a percolation temperature. If another transition temperature was requested and
  found, this ends the program `CalcGW` for all following points (`C111_exception_fails`, `C111_program_fails`).
* The calculated wall velocity (value -1) is NaN where the true vacuum is not the deeper one
  (`C112_approx_nan_fails`).
* The calculated wall velocity (value -2) is not bounded by the Chapman-Jouguet velocity nor by the velocity of light
  (`C112_upper_cj_fails`, `C112_upper_superluminal_fails`).

### Plots in characters

* Curves whose values are all equal (between 1e-15 and 1e15) convert 0/0 to an integer (`C113_constant_fails`).
* A curve of one point at the lower end of the range gets no column, and the first element of an empty vector is written
  (`C113_point_fails`).
* With as many points as columns the coordinates are ignored (`C113_spacing_fails`).
* The largest value starts at 1e-15, so negative data are drawn in a range up to 1e-15 (`C113_negative_fails`).
* The arrays hold ten curves, which is not checked (`C113_curves`); `PrintPhasesDiagram` adds one for each phase.
* Titles longer than the plot and labels longer than the plot minus 5 wrap around in unsigned arithmetic: more than
  2^62 blanks (`C113_title_fails`, `C113_legend_fails`).
* `markers[it % sizeof(markers)]` includes the terminating NUL: every eighth phase is drawn with it
  (`C113_markers_fails`).

### High temperatures and global minima

* The status for a flat region at high temperature is never reported: the loop only stops at an eigenvalue that is not zero
  (`C114_flat_never_reported`, `C114_flat_inconclusive`).
* The loop starts at 1 GeV and stops as soon as three neighbouring temperatures agree, however low they are
  (`C114_ends_early_fails`).
* Two points at a distance of 1e-5 GeV are reduced to different signs when an entry crosses the threshold 1e-5, and the
  minimum next to the global one is not marked as global (`C115_neighbour_not_marked`).
* Another minimum is marked as global when it is closer than 1 GeV to the global one (`C115_other_minimum_marked`).

### Negative squared masses

* Below the last tabulated point, m² = −3000 T², the bosonic thermal function is continued as a straight line with the
  slope given for the last point, and its derivative is constant (`C116_outside`); the tabulated function oscillates.
* C118: the tracer starts the evolution strategy with one coordinate for each scalar field although only those with a VEV enter the objective (`C118_flat_directions`), so the search runs in more dimensions than needed. A start vector with too few entries makes the objective read beyond the candidate (`C118_short_candidate`).
* C119: in a call without option names everything after the words of the help is ignored without a message, e.g. `--vw=0.3` at the end of a plain call of CalculateEWBG (`C119_rest_ignored` and the example after it). `--help` ends with an error status in every program (`C119_help`).
* C120: PlotEWBG_vw says that the step of the wall velocity has to be larger than 0 but only refuses exactly 0; with a negative step it never ends (`C120_negative_step_fails`, `C120_endless_fails`). NaN, which `std::stod` reads from the text `nan`, passes all tests of wall velocities and temperatures (`C120_nan_fails`); the table then has no rows (`C120_nan_scan`). VEVEVO is the only program that does not check the number of the line (`C120_vevevo_line_fails`). NLOVEV and VEVEVO never look at terminalOutput (`C120_terminal_unused`). Texts that are no numbers end in `std::invalid_argument`, not in the announced `parserException` (`C120_unreadable_number`).
* C121: without a strong transition PlotEWBG_vw and PlotEWBG_nL write `-1-1-1-1-1`, one word without the input and without tabs, and report success (`C121_no_transition_fails`, `C121_no_density_fails`). CreateMuGrid goes on without a transition (`C121_grid_unchecked_fails`). PlotEWBG_vw leaves a file with only a header if the line does not exist (`C121_missing_line`).
* C122: in a call of CreateMuGrid with names an argument that is neither a setting nor an option of the logger, e.g. `--firstLine=2` or a file name without its option, dereferences the end of a map (`C122_unknown_fails`). NaN is accepted as velocity (`C122_nan_fails`).
* C123: `FindFlatDirections` compares points at which all other fields are 1; `(y - 1) x` passes for independent of `x` (`C123_background_fails`). The third index starts at the second (`C123_repeated_index_fails`), and pairs and triples are not logged if a field is flat on its own (`C123_log_fails`).
* C124: a mode outside of -1 to 3 searches nothing and reports success (`C124_unknown_mode_fails`); the programs check the mode, users of the library have to. With a positive lowest temperature the electroweak minimum is always traced again (`C124_ew_retraced_fails`).
* C125: `std::min` in `SmallestEigenvalue` forgets a NaN and everything before it (`C125_nan_fails`).
* C126: `const std::size_t EVThres = std::pow(10, -6)` is 0, so that repeated eigenvalues are never reported (`C126_repeated_fails`) although the numbers are then wrong (`C126_degenerate_fails`). The result has each eigenvalue twice, which the documentation does not say. The empty matrix is read out of bounds (`C126_empty_fails`).
* C127: critical temperatures are searched for up to 300, but the tables of the K functions end at 250 (`C127_temperature_fails`); above, the GSL reports an error, which is ignored because its handler is switched off.
* C128: `get_W_mass` looks for a repeated mass, which a charge-breaking vacuum does not have; the mass is then zero (`C128_charge_breaking_fails`). Its check for NaN is inside of the branch for a repeated mass and is never reached by a NaN (`C128_nan_fails`).
* C129: the search for the barrier never ends if fewer than 20 guesses converge, because the tries are counted but their number is not used (`C129_endless_fails`). The status with which the GSL refuses a guess is ignored (`C129_rejected_guess_fails`), and a point of the wrong length is only reported on the standard error (`C129_wrong_length_fails`).
* C130: for masses of more than 300 temperatures `NIntegrate_kappa` integrates backwards over numbers that are not numbers, and unlike the other integrals it does not check the result (`C130_heavy_fails`).
* C131: the range of the numerical thermal integrals ends at 30 for all arguments. For squared masses below about -900 squared temperatures the part cut off is not small (`C131_negative_fails`), while the table of negative arguments goes to -3000.
* C132: the search in a plane does not look at the status of its runs: if all fail, the point with zeros is delivered as a minimum (`C132_all_failed_fails`). The overload with `saveAllMinima` looks at the first rows of the list also if these are older (`C132_saved_fails`). For a model with one field, such as the SM, the plane has no dimension, for which GSL makes no minimiser; the null pointer is used (`C132_one_field_fails`).
* C133: the diagram of the phases writes past the end of an array for more than ten phases (`C133_eleven_fails`), draws the eighth with the zero at the end of the string of markers (`C133_marker_fails`) and asks for the minimum at a temperature that is not a number for a phase that fills no cell (`C133_point_fails`). It is only made with detailed logging.
* C134: in the N2HDM, C2HDM and CxSM the printed spectrum assumes a neutral boson between 124 and 126 GeV. Without one, `H_SM` is printed with mass 0, the heaviest mass is not printed and the compositions belong to other masses (`C134_no_sm_like`). The rows of the neutral bosons are written into an array of fixed length without a check: with degenerate bosons that mix across the kinds the write is out of bounds, and with a neutral boson among the three lightest states an uninitialised position is used (`C134_r2hdm_overflow`, `C134_r2hdm_missing`, `C134_n2hdm_undefined`, `C134_c2hdm_undefined`). In CP in the Dark position 0 means "not found yet" (`C134_dark_fails`).
* C135: `spline::solve` without extrapolation misses a solution at the last node (`C135_last_node_fails`). The function is not called elsewhere in the repository. Within the round-off margin a quadratic polynomial without zeros is given one (`C135_margin_fails`).
* C136: the broken and the symmetric vacuum are moved independently, so the pair used need not be the image of the given pair under any one symmetry (`C136_pair_fails`). The nearest copy is not necessarily used (`C136_nearest_fails`, `C136_kept_fails`).
* C137: the phases are read from the last entries of the lists of eigenvalues, but Eigen's complex solver does not promise an order. If another quark or a massless neutrino comes last, its phase is used instead (`C137_order_fails`).
* C138: `HiggsMassesSquared` with a derivative expands a vector of the minimizer only for the mass matrix and reads `v[k]` for all fields from the short vector afterwards (`C138_higgs_derivative_fails`). The message of the fermion functions does the same (`C138_message_fails`).
* C139: if the lowest point has an electroweak VEV of at most 0.5 GeV, its electroweak part is set to zero after the comparison; with a singlet VEV the point returned can lie above the origin (`C139_zeroed_fails`).
* Two solutions of `spline(x) = y` on both sides of a node, closer than 512 times the precision, are returned as
  one (`C135_merge_fails`).

Noted but not modelled: `ListBounceSolution.push_back` copies a bounce before its temperatures are
calculated; the transition tracer never passes the group elements; unqualified `abs` on doubles is read as
`std::abs`.
