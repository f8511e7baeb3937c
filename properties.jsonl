{"id": "C01", "title": "Command-line values are stored under case-insensitive names and the last setting wins", "statement": "After parser::add_input has accepted a list of --name=value arguments, get_value(name) returns, for every declared argument and every capitalisation of its name, the value of the last entry in the list whose name equals it ignoring case, or the value held before the call if there is none; a declared argument never receives the value of another one.", "quantifier": "every parser (any set of declared required/optional arguments with any current values) and every list of name/value pairs", "why_tests_cant": "The number of argument lists and of declared argument sets is unbounded; tests only exercise a handful of fixed command lines.", "anchors": ["src/utility/parser.cpp: parser::add_input, get_value, get_value_as_string, add_argument, set_if_exists"]}
{"id": "C02", "title": "Undeclared arguments are rejected and missing required ones are detected", "statement": "add_input throws exactly when the list contains a name that was not declared; check_required_parameters throws exactly when some required argument has no value.", "quantifier": "every parser state and every list of name/value pairs", "why_tests_cant": "Needs an iff over all argument lists; tests check single examples of the throwing and non-throwing side.", "anchors": ["src/utility/parser.cpp: parser::add_input, parser::check_required_parameters"]}
{"id": "C03", "title": "--help and --json are recognised whatever their capitalisation", "statement": "Since argument names are documented to be case-insensitive, a command line consisting of the single argument --help or --json=FILE in any capitalisation shows the help or loads FILE.", "quantifier": "every capitalisation of the two names and every file name", "why_tests_cant": "Tests use only the lower-case spelling.", "anchors": ["src/utility/parser.cpp: parser::add_input"]}
{"id": "C04", "title": "Splitting an argument gives back its name and value", "statement": "For every name without leading dashes and without '=' (and every value), the argument '--name=value' (one or more dashes) is stored as exactly that name and that value, including values that contain '=', spaces or dashes.", "quantifier": "all names and values (unbounded strings), any number of leading dashes", "why_tests_cant": "String inputs are unbounded; separators inside values are easy to miss in examples.", "anchors": ["src/utility/parser.cpp: parser::get_key_value"]}
{"id": "C05", "title": "String split loses nothing", "statement": "split(str, delim) returns pieces that contain no delimiter and that, joined with the delimiter, give back str, up to one trailing delimiter; the empty string gives no pieces.", "quantifier": "all strings and all delimiters", "why_tests_cant": "Inputs are unbounded; trailing/adjacent delimiters and empty fields are the corner cases.", "anchors": ["src/utility/utility.cpp: split", "include/BSMPT/utility/utility.h"]}
{"id": "C06", "title": "Logging levels obey the configured switches", "statement": "A message is written iff its level is switched on and logging is configured: after SetLogger with a set of --logginglevel options, level L is on iff its own option is given and equals true, or its option is absent and either the complete option is true (L other than the minimizer-detail level) or L was on before; the 'disabled' option, with whatever value, turns every level off.", "quantifier": "all earlier logger states and all combinations of option values", "why_tests_cant": "The result depends on the iteration order over options and on the earlier state; there are more combinations than tests cover.", "anchors": ["src/utility/Logger.cpp: Logger::SetLogger, Logger::Write, Logger::Disable", "include/BSMPT/utility/Logger.h: LoggingPrefixes"]}
{"id": "C07", "title": "Matrix transpose is an exact transpose", "statement": "Transpose of a rectangular matrix with r>0 rows and c columns has c rows and r columns with the indices exchanged, and transposing twice gives back the matrix when c>0; a matrix whose later rows are shorter than its first row is never read out of bounds.", "quantifier": "all matrices (nested lists) of all sizes", "why_tests_cant": "Sizes are unbounded; ragged and empty shapes are not tested.", "anchors": ["src/utility/utility.cpp: Transpose"]}
{"id": "C08", "title": "Vector arithmetic is element-wise and rejects size mismatch", "statement": "v1+v2, v1-v2, scalar*v, v/scalar and the dot product are the element-wise operations on vectors of equal length, and every operation on two vectors of different length raises an error instead of returning a value.", "quantifier": "all vectors of all lengths", "why_tests_cant": "All lengths and the mismatch cases of every operator; tests cover a few fixed sizes.", "anchors": ["include/BSMPT/utility/utility.h: operator+, operator-, operator*, operator/, flatten"]}
{"id": "C09", "title": "The factorial helper computes n! wherever the result fits", "statement": "factorial(n) returns n! for every n whose factorial fits in an int, and has no defined result otherwise.", "quantifier": "all int arguments", "why_tests_cant": "Requires knowing exactly where overflow and non-termination begin.", "anchors": ["src/utility/utility.cpp: factorial"]}
{"id": "C10", "title": "Model names and identifiers round-trip", "statement": "Every implemented model's printed name is read back as that model in any capitalisation, different models have different names ignoring case, and any other string is reported as not set.", "quantifier": "all strings", "why_tests_cant": "Strings are unbounded; uniqueness must hold over the whole table.", "anchors": ["src/models/IncludeAllModels.cpp: getModel, InvertModelNames, ModelIDToString, FChoose", "include/BSMPT/models/IncludeAllModels.h: ModelNames"]}
{"id": "C11", "title": "Output tables of the tracing programs are aligned with their header", "statement": "In the output file of CalcTemps every row has exactly as many tab-separated columns as the header line, whichever points were processed before or after it, as long as the input rows have as many columns as the input header.", "quantifier": "any number of processed points, each with any status and any number of coexisting phase pairs", "why_tests_cant": "Row width depends on the history of all processed points (rows are padded afterwards); tests never look at whole files.", "anchors": ["src/prog/CalcTemps.cpp: main", "src/transition_tracer/transition_tracer.cpp: TransitionTracer", "src/minimum_tracer/minimum_tracer.cpp: GetLegend"]}
{"id": "C12", "title": "The minimizer selection code is a faithful encoding", "statement": "Decoding the number produced by CalcWhichMinimizer gives back exactly the selected set of minimizers, every number from 0 to 7 is the code of exactly one selection, and 0 means that none was selected.", "quantifier": "all selections and all codes", "why_tests_cant": "Round trip and uniqueness over the whole table, including the library-availability defaults.", "anchors": ["src/minimizer/Minimizer.cpp: CalcWhichMinimizer, GetMinimizers"]}
{"id": "C13", "title": "The global minimizer returns the lowest candidate found", "statement": "Minimize_gen_all returns a candidate of one of the selected minimizers whose potential value is not above that of any other candidate found by a selected minimizer, in single-threaded and in multi-threaded operation alike.", "quantifier": "all selections, all results of the external minimizers, threads on or off", "why_tests_cant": "The external minimizers may return anything; tests see a few model points.", "anchors": ["src/minimizer/Minimizer.cpp: Minimize_gen_all"]}
{"id": "C14", "title": "The multi-threaded minimizer search is safe under every schedule", "statement": "GSL_Minimize_gen_all's worker threads never take a start point from an empty queue, process every start point at most once, and deliver at most the requested number of solutions plus one per extra thread.", "quantifier": "every number of threads and every interleaving", "why_tests_cant": "Data races depend on the schedule; no test can enumerate interleavings.", "anchors": ["src/minimizer/MinimizeGSL.cpp: GSL_Minimize_gen_all"]}
{"id": "C15", "title": "The phase-transition finder reports a genuine critical temperature", "statement": "PTFinder_gen_all terminates for every potential; whenever it reports SUCCESS the returned temperature lies in the requested interval and the returned minimum is one that was found to be electroweak-breaking at a temperature within the final bisection bracket.", "quantifier": "all behaviours of the minimizer, all temperature intervals", "why_tests_cant": "The answer depends on the whole sequence of minimizer results; only a few benchmark points are tested.", "anchors": ["src/minimizer/Minimizer.cpp: PTFinder_gen_all"]}
{"id": "C16", "title": "Moving a minimum to the principal quadrant only applies symmetries", "statement": "ReduceVEV replaces a point by one that is connected to it by one of the detected discrete symmetries, so the potential is unchanged, and two points related by a symmetry are reduced to the same representative.", "quantifier": "all groups of sign flips (any dimension) and all points", "why_tests_cant": "All symmetry groups and all points; tests use the groups of the shipped models only.", "anchors": ["src/minimum_tracer/minimum_tracer.cpp: MinimumTracer::ReduceVEV, FindDiscreteSymmetries"]}
{"id": "C17", "title": "Comparison helper ignores signs only on request", "statement": "almost_the_same(a, b, ..., allow_for_sign_flip) with allow_for_sign_flip=false distinguishes values that differ by sign, and with true identifies them.", "quantifier": "all vectors and tolerances", "why_tests_cant": "Must hold for all vectors; the flag is tested in one direction only.", "anchors": ["src/minimum_tracer/minimum_tracer.cpp: almost_the_same"]}
{"id": "C18", "title": "Temperature grids cover the interval with the requested number of points", "statement": "Create1DimGrid(low, high, n) starts at low, ends at high, is strictly increasing for low<high and has the documented number of points.", "quantifier": "all intervals and sizes", "why_tests_cant": "All sizes, including zero and reversed intervals.", "anchors": ["src/minimum_tracer/minimum_tracer.cpp: Create1DimGrid"]}
{"id": "C19", "title": "Warping a path maps its ends onto the new end points", "statement": "WarpPath transports a path whose end points move so that the first and last points become the new true and false vacuum and, if the end points did not move, the path is unchanged.", "quantifier": "all paths and end points of any dimension and length", "why_tests_cant": "All paths; tests see concrete ones.", "anchors": ["src/minimum_tracer/minimum_tracer.cpp: MinimumTracer::WarpPath"]}
{"id": "C20", "title": "A traced phase keeps its minima ordered in temperature", "statement": "After any sequence of additions to a phase the stored minima have strictly increasing temperatures, a temperature already present is not stored twice, and the recorded temperature range is exactly the span of the stored minima.", "quantifier": "all sequences of additions", "why_tests_cant": "It is an invariant over every history of calls.", "anchors": ["src/minimum_tracer/minimum_tracer.cpp: Phase::Add, Phase::Phase"]}
{"id": "C21", "title": "The critical temperature separates the two phases", "statement": "CoexPhases::CalculateTc reports success only with a temperature inside the coexistence window, and when it bisects, the free energies of the two phases cross within the returned accuracy of that temperature; one phase being lower throughout is reported as such.", "quantifier": "all pairs of phases (free energies as functions of temperature) and all windows", "why_tests_cant": "The potential difference is an arbitrary function; bisection invariants need induction.", "anchors": ["src/minimum_tracer/minimum_tracer.cpp: CoexPhases::CalculateTc"]}
{"id": "C22", "title": "Coexisting phase pairs overlap in temperature and are never self-pairs", "statement": "Every reported pair of coexisting phases consists of two different traced phases whose temperature ranges overlap (touching in one temperature counts), every such pair is reported exactly once with the false phase before the true one, and its window is the intersection of the two ranges.", "quantifier": "all lists of traced phases", "why_tests_cant": "Any number of phases and any ranges.", "anchors": ["src/minimum_tracer/minimum_tracer.cpp: Vacuum::setCoexPhases"]}
{"id": "C23", "title": "The transition history is computed in finite time and is a real chain of completed transitions", "statement": "The transition history reported for a point is obtained after finitely many steps, starts in the phase stable at high temperature, and each step is a completed transition from the current phase, the one with the highest completion temperature.", "quantifier": "all lists of coexisting pairs and all completion temperatures (including none)", "why_tests_cant": "Termination over arbitrary pair graphs cannot be tested.", "anchors": ["src/transition_tracer/transition_tracer.cpp: TransitionTracer::TransitionTracer"]}
{"id": "C24", "title": "Every pair gets one complete set of output entries", "statement": "For each coexisting pair exactly one entry is produced in each per-pair status list and data list, whatever stage of the bounce calculation failed, and each VEV entry has the model's number of VEVs.", "quantifier": "all outcomes of all calculation stages for all numbers of pairs", "why_tests_cant": "All combinations of stage failures.", "anchors": ["src/transition_tracer/transition_tracer.cpp: TransitionTracer::TransitionTracer"]}
{"id": "C25", "title": "Bounce actions are kept sorted and inside the physical range", "statement": "The list of computed bounce actions is sorted by temperature after every addition, contains only temperatures inside the coexistence window with positive action, and the bounce calculation is reported successful iff at least four actions were found.", "quantifier": "every sequence of action calculations with any results", "why_tests_cant": "Invariant over every history of calls.", "anchors": ["src/bounce_solution/bounce_solution.cpp: CalculateActionAt, SetBounceSol, GWInitalScan"]}
{"id": "C26", "title": "Nucleation temperatures are reported only when bracketed", "statement": "The nucleation-temperature searches end after a bounded number of steps; when they report success the temperature lies between the two temperatures that bracket the nucleation condition, otherwise no temperature is reported.", "quantifier": "all nucleation-rate functions and windows", "why_tests_cant": "Rate is an arbitrary function of temperature.", "anchors": ["src/bounce_solution/bounce_solution.cpp: CalculateNucleationTempApprox, CalculateNucleationTemp"]}
{"id": "C27", "title": "Percolation and completion temperatures are valid when reported successful", "statement": "When CalculatePercolationTemp or CalculateCompletionTemp ends with status success, the stored temperature is one the bisection accepted, never the failure marker.", "quantifier": "all false-vacuum-fraction functions", "why_tests_cant": "Rate and fraction are arbitrary functions; the failing path is the refinement step.", "anchors": ["src/bounce_solution/bounce_solution.cpp: CalculatePercolationTemp, CalculateCompletionTemp"]}
{"id": "C28", "title": "The transition strength iteration terminates", "statement": "CalculatePTStrength returns after finitely many steps with a strength and a wall velocity, whatever the potential yields.", "quantifier": "all dependence of the strength on the wall velocity, including undefined values", "why_tests_cant": "Termination for arbitrary values.", "anchors": ["src/bounce_solution/bounce_solution.cpp: CalculatePTStrength"]}
{"id": "C29", "title": "The gravitational-wave spectrum does not depend on earlier calls", "statement": "CalcGWAmplitude(f, ...) returns the same value for the same frequency and the same object data, whatever calls were made before.", "quantifier": "all call sequences", "why_tests_cant": "History property; tests call in one order.", "anchors": ["src/gravitational_waves/gw.cpp: GravitationalWave::CalcGWAmplitude"]}
{"id": "C30", "title": "The tree-level potential and its gradient are consistent", "statement": "VTree(v) is the polynomial given by the curvature tensors and VTree(v, i) is its partial derivative with respect to field i, for tensors that are symmetric in their indices.", "quantifier": "all field values, all tensors, any number of fields", "why_tests_cant": "A derivative identity for all points and tensors; tests compare at a few points.", "anchors": ["src/models/ClassPotentialOrigin.cpp: VTree, CounterTerm, NablaVCT, HessianCT"]}
{"id": "C31", "title": "The scalar mass matrix is symmetric and is the Hessian of the potential", "statement": "HiggsMassMatrix is symmetric for every field value and temperature and at zero temperature it is the matrix of second derivatives of the tree-level potential.", "quantifier": "all field values, temperatures and (symmetric) tensors, any number of fields", "why_tests_cant": "Identity over all points.", "anchors": ["src/models/ClassPotentialOrigin.cpp: HiggsMassMatrix"]}
{"id": "C32", "title": "Tensor symmetrisation fills every permutation", "statement": "After sym2Dim/sym3Dim/sym4Dim the tensor is invariant under all permutations of its indices and the entries with ascending indices are unchanged.", "quantifier": "all tensors of all sizes", "why_tests_cant": "In-place overwriting across nested loops for any size.", "anchors": ["src/models/ClassPotentialOrigin.cpp: sym2Dim, sym3Dim, sym4Dim"]}
{"id": "C33", "title": "Minimizer coordinates are embedded into the full field vector", "statement": "MinimizeOrderVEV returns a vector with one entry per scalar field which has the given VEVs at the model's VEV positions and zero elsewhere, for every implemented model.", "quantifier": "all VEV vectors and all VEV position tables of the implemented models", "why_tests_cant": "Out-of-range reads do not show up in tests.", "anchors": ["src/models/ClassPotentialOrigin.cpp: MinimizeOrderVEV", "src/models/ClassPotential*.cpp: VevOrder"]}
{"id": "C34", "title": "The effective potential honours the requested order for every accepted input shape", "statement": "VEff(v, T, diff, Order) called with a vector in minimizer coordinates gives the same value as called with the corresponding full field vector, and Order=0 gives the tree-level potential.", "quantifier": "all inputs, both orders", "why_tests_cant": "A cross-call equality over all inputs.", "anchors": ["src/models/ClassPotentialOrigin.cpp: VEff"]}
{"id": "C35", "title": "Coleman-Weinberg and thermal contributions have consistent derivatives", "statement": "For masses above the zero threshold the derivative mode of the one-loop contribution of one particle is the derivative of its value, for every field with respect to which the derivative is requested.", "quantifier": "all masses, temperatures, renormalisation scales and field indices", "why_tests_cant": "Derivative identity for all values.", "anchors": ["src/models/ClassPotentialOrigin.cpp: CWTerm, boson, fermion, FCW"]}
{"id": "C36", "title": "The loop functions of the effective-potential derivatives are symmetric and continuous", "statement": "The loop functions of two, three and four masses do not depend on the order of the masses and the formulas used for equal or vanishing masses are the limits of the formula for different masses.", "quantifier": "all mass combinations", "why_tests_cant": "Dozens of degenerate branches over real inputs.", "anchors": ["src/models/ClassPotentialOrigin.cpp: fbase, fbaseTri, fbaseFour"]}
{"id": "C37", "title": "The NLO-vacuum check ignores signs and rejects displaced vacua", "statement": "CheckNLOVEV accepts a vacuum iff every component agrees in absolute value with the tree-level vacuum to less than 1 GeV.", "quantifier": "all vacua, any number of components", "why_tests_cant": "All values, including values that are not numbers.", "anchors": ["src/models/ClassPotentialOrigin.cpp: CheckNLOVEV"]}
{"id": "C38", "title": "The electroweak VEV is either zero or above the numerical threshold", "statement": "EWSBVEV(v) depends only on the fields charged under the gauge group, is the Euclidean norm of these if that exceeds 0.5 GeV and zero otherwise; setting the electroweak VEVs to zero with SetEWVEVZero makes it zero and leaves the other VEVs unchanged.", "quantifier": "all field values and gauge tensors of the implemented kind", "why_tests_cant": "All field values; relation between two API functions.", "anchors": ["src/models/ClassPotentialOrigin.cpp: EWSBVEV, SetEWVEVZero"]}
{"id": "C39", "title": "Points on the tunnelling plane are parametrised exactly", "statement": "TransformCoordinates maps coordinates with one component left out to the unique point on the plane through the base point perpendicular to the tunnelling direction that has these remaining components, and rejects coordinate vectors of the wrong length.", "quantifier": "all planes with a usable direction, all coordinates, any dimension", "why_tests_cant": "All planes and dimensions.", "anchors": ["src/minimizer/MinimizePlane.cpp: TransformCoordinates, MinimizePlane"]}
{"id": "C40", "title": "Documented option values are accepted", "statement": "Every documented value of the CalcTemps options multistepmode, checknlo, checkewsr and vwall leads to a run, and every run uses the setting that the documentation attaches to the value.", "quantifier": "all documented values of the options in all combinations", "why_tests_cant": "Option validation is spread over two functions; combinations are not tested.", "anchors": ["src/prog/CalcTemps.cpp: CLIOptions::CLIOptions, CLIOptions::good, prepare_parser"]}
{"id": "C41", "title": "Numerical derivatives are exact on low-degree polynomials and symmetric", "statement": "NablaNumerical returns the exact gradient for polynomials of degree at most four in each coordinate and HessianNumerical returns a symmetric matrix that is exact for quadratic functions, for every non-zero step.", "quantifier": "all such functions, points, steps and dimensions", "why_tests_cant": "Identity over all functions in the class.", "anchors": ["src/utility/NumericalDerivatives.cpp: NablaNumerical, HessianNumerical"]}
{"id": "C42", "title": "Detected sign symmetries are symmetries", "statement": "A sign pattern is reported by FindSignSymmetries iff the potential at the flipped test point agrees with the reference to the tolerance, each non-trivial pattern is considered exactly once, and for a potential exactly invariant under a pattern the pattern is reported.", "quantifier": "all potentials and any number of VEVs", "why_tests_cant": "All potentials and dimensions, enumeration by permutations.", "anchors": ["src/models/ClassPotentialOrigin.cpp: FindSignSymmetries"]}
{"id": "C43", "title": "The electroweak-restoration status reflects the outcome of the high-temperature check", "statement": "The status reported for the high-temperature behaviour is a function of the check's numerical outcome that distinguishes all cases, and each status prints under its own name.", "quantifier": "all outcomes", "why_tests_cant": "Whole-table property.", "anchors": ["src/minimum_tracer/minimum_tracer.cpp: GetStatusEWSR, GetStatusNLOVEV", "include/BSMPT/minimum_tracer/minimum_tracer.h: status maps"]}
{"id": "C44", "title": "Re-initialising a model gives results independent of its earlier use", "statement": "After initModel(par) the stored parameters, counterterms and the done-flags depend only on par, whatever was done with the object before; resetScale updates the stored counterterms to those of the new scale.", "quantifier": "all call histories", "why_tests_cant": "History property over all call sequences.", "anchors": ["src/models/ClassPotentialOrigin.cpp: initModel, resetbools, resetScale, set_All"]}
{"id": "C45", "title": "The NLopt search box contains the origin and the tree-level vacuum", "statement": "In every field direction the interval searched by the NLopt minimizer contains 0 and the tree-level VEV, and extends at least from -300 to 300.", "quantifier": "all tree-level VEVs", "why_tests_cant": "The bounds depend on the sign and size of the VEV; the tested benchmark points have small or positive VEVs only.", "anchors": ["src/minimizer/LibNLOPT/MinimizeNLOPT.cpp: MinimizeUsingNLOPT, MinimizePlaneUsingNLOPT"]}
{"id": "C46", "title": "Minima are followed through exactly the requested temperatures", "statement": "MinimaDevelopmentWithTemperature ends, and returns exactly the sequences of local minima that can be followed through the temperatures Start, Start+Step, Start+2 Step, ... which do not pass the final temperature, each minimum being found from its predecessor.", "quantifier": "all start and final temperatures and steps, all start points, all behaviours of the local minimizers", "why_tests_cant": "The stopping criterion uses a tolerance that depends on all three numbers; only a few combinations can be tried.", "anchors": ["src/minimizer/Minimizer.cpp: MinimaDevelopmentWithTemperature, FindNextLocalMinima"]}
{"id": "C47", "title": "Removing flat directions keeps the potential", "statement": "When the minimum tracer moves a point off a direction it has identified as flat, the potential at the point does not change; every plane in which the potential is rotation invariant is identified.", "quantifier": "all potentials, all points, all dimensions", "why_tests_cant": "Ranges over all potentials; the detection probes two points only, so tests with the shipped models cannot exclude misidentification.", "anchors": ["src/minimum_tracer/minimum_tracer.cpp: MinimumTracer::FindFlatDirections, ConvertToNonFlatDirections"]}
{"id": "C48", "title": "The high-temperature seed is the stationary point of the quadratic potential", "statement": "The point stored as seed for the minimum at high temperature is the stationary point of the quadratic approximation of the rescaled potential, and the restoration status refers to that point.", "quantifier": "all gradients and invertible symmetric Hessians in any dimension", "why_tests_cant": "For the shipped models the gradient at the origin vanishes, so no test sees the sign.", "anchors": ["src/minimum_tracer/minimum_tracer.cpp: MinimumTracer::IsThereEWSymmetryRestoration"]}
{"id": "C49", "title": "Looking up the minimum of a phase is stable", "statement": "Asking a traced phase for its minimum at a temperature returns a minimum recorded at that temperature, relocating the nearest stored minimum if none is recorded; asking again at the same temperature returns the same minimum, and asking never changes the temperature range in which the phase is said to exist.", "quantifier": "all phases, all temperatures, all behaviours of the local minimizer, all sequences of look-ups", "why_tests_cant": "Look-ups store what they find, so the answer depends on the whole history of earlier look-ups.", "anchors": ["src/minimum_tracer/minimum_tracer.cpp: Phase::Get, Phase::Add"]}
{"id": "C50", "title": "Tracking a phase ends and returns only minima connected to the start", "statement": "TrackPhase returns after finitely many steps a list of minima which begins at the initial temperature, in which each minimum was located from its predecessor with small gradient, within the allowed distance and (in protected mode) without negative curvature, and whose temperatures stay between the initial and the final temperature; a phase that exists in the whole interval is followed to its end.", "quantifier": "all potentials, all start points, all temperature intervals and steps", "why_tests_cant": "The step-size control depends on the whole history; only for special potentials does it misbehave, and an endless loop cannot be observed by a test.", "anchors": ["src/minimum_tracer/minimum_tracer.cpp: MinimumTracer::TrackPhase, LocateMinimum, FindZeroSmallestEigenvalue"]}
{"id": "C51", "title": "Registered phases are complete, distinct and never lose minima", "statement": "After any sequence of registrations every phase of a Vacuum has at least two minima, strictly increasing in temperature, spans exactly the range it records and has its two ends marked. Registering a phase keeps every earlier phase with all its minima, and a new phase is identified with an earlier one exactly if their ranges overlap and they are closer than 1 GeV at the eleven inner temperatures compared.", "quantifier": "all sequences of phases, all trackers", "why_tests_cant": "Look-ups made while comparing change the phases, so the result depends on the whole history.", "anchors": ["src/minimum_tracer/minimum_tracer.cpp: Vacuum::addPhase, Vacuum::MinimumFoundAlready"]}
{"id": "C52", "title": "The reported coverage in temperature is the real coverage", "statement": "The number of phases computed for an interval of temperatures is the number of phases that exist there; coexisting pairs are reported exactly if two phases exist in a common interval; no_coverage is reported if a temperature between the phases, or between the requested lowest and highest temperature, is in no phase, and success implies that there is none.", "quantifier": "all lists of registered phases, all ways in which gaps are patched", "why_tests_cant": "The status is rewritten by nested recursive calls; all orders of phase ends matter.", "anchors": ["src/minimum_tracer/minimum_tracer.cpp: Vacuum::setCoexRegion"]}
{"id": "C53", "title": "The tracing modes end and report what they found", "statement": "Each multi-step mode ends after finitely many tracings without undefined behaviour; its status says whether the outer phases are connected by traced phases that share temperatures and are global minima where they end; the phases are then ordered by descending upper temperature, numbered in this order, and pairs are formed only for a status that allows it.", "quantifier": "all outcomes of the global minimization and of the tracker at all temperatures", "why_tests_cant": "Endless loops and recursions occur only for special sequences of tracing results and cannot be observed by a test.", "anchors": ["src/minimum_tracer/minimum_tracer.cpp: Vacuum::Vacuum, MultiStepPTTracer, MultiStepPTMode0, MultiStepPTMode1, MultiStepPTMode2, DoPhasesOverlap, DoGlobMinOverlap"]}
{"id": "C54", "title": "Points that fail a check are reported, not analysed", "statement": "A point that is not NLO stable while that check is on, or that fails the selected check of electroweak symmetry restoration, gets exactly the statuses of the checks made and no transition data; every other point is traced, and transition data are produced exactly if tracing and pairing succeed.", "quantifier": "all combinations of check options and outcomes", "why_tests_cant": "The combinations of options and outcomes are not enumerated by tests, which only use points that pass.", "anchors": ["src/transition_tracer/transition_tracer.cpp: TransitionTracer::TransitionTracer"]}
{"id": "C55", "title": "Tunnelling goes to the nearest copy of the true vacuum", "statement": "Among the copies of the true vacuum under the symmetries of the potential the bounce is calculated towards the one closest to the false vacuum at the critical temperature.", "quantifier": "all vacua and all lists of symmetries", "why_tests_cant": "The test models have vacua that are already the closest copies.", "anchors": ["src/bounce_solution/bounce_solution.cpp: CalculateOptimalDiscreteSymmetry, TransformIntoOptimalDiscreteSymmetry"]}
{"id": "C56", "title": "The scan for bounce actions ends", "statement": "The construction of a bounce solution ends after finitely many calculations of the action, without undefined behaviour, whatever actions (including NaN) these calculations return.", "quantifier": "all coexistence windows and all results of the action calculation", "why_tests_cant": "Termination for all outcomes of an external numerical calculation cannot be observed.", "anchors": ["src/bounce_solution/bounce_solution.cpp: GWInitialScan, GWSecondaryScan, GWScanTowardsHighAction, GWScanTowardsLowAction, SetBounceSol"]}
{"id": "C57", "title": "Tunnelling rate, Hubble rate and time scale behave physically", "statement": "The tunnelling rate is never negative, vanishes outside the temperatures of the solutions, decreases with the action and is suppressed where the interpolated action is unphysical; the Hubble rate is positive; the inverse time scale belongs to the current percolation temperature.", "quantifier": "all solution lists, actions and temperatures, all call histories", "why_tests_cant": "Tests compare a few benchmark values and never reach unphysical splines or repeated calls.", "anchors": ["src/bounce_solution/bounce_solution.cpp: TunnelingRate, HubbleRate, CalcGstarPureRad, CalculateInvTimeScale, GetInvTimeScale"]}
{"id": "C58", "title": "The gravitational-wave spectrum has the documented shape", "statement": "The sound-wave part is never negative and has its maximum, the peak amplitude, at the peak frequency; the turbulence part falls off with the power 11/3; the LISA sensitivity is positive at every frequency and the signal-to-noise ratio is a non-negative number.", "quantifier": "all frequencies, peak amplitudes and peak frequencies", "why_tests_cant": "Tests compare single SNR values; shape and maximum are statements about all frequencies.", "anchors": ["src/gravitational_waves/gw.cpp: CalcGWAmplitude, h2OmSens, powspec_density, snr_integrand, GetSNR"]}
{"id": "C59", "title": "The reported numbers belong to the requested wall velocity", "statement": "For a requested wall velocity the reported wall velocity is the requested (or calculated) one, and the percolation and completion temperatures and the gravitational-wave data reported for a transition all belong to that velocity.", "quantifier": "all requested velocities, all dependences of the temperatures on the velocity", "why_tests_cant": "Tests run the default velocity, for which the numbers agree.", "anchors": ["src/transition_tracer/transition_tracer.cpp: TransitionTracer::TransitionTracer", "src/bounce_solution/bounce_solution.cpp: CalculatePercolationTemp, CalculatePTStrength, GetWallVelocity"]}
{"id": "C60", "title": "Efficiency factors are continuous and positive", "statement": "The sound-wave efficiency factor is positive and continuous across the velocity of sound and the Chapman-Jouguet velocity; energy fractions are positive, the turbulence factor derived from the source duration lies in [0,1], and the peak amplitude depends continuously on the source duration.", "quantifier": "all strengths > 0, all wall velocities in (0,1]", "why_tests_cant": "Positivity and continuity range over a continuum of strengths and velocities.", "anchors": ["src/gravitational_waves/gw.cpp: Getkappa_sw, GetK_sw, GetHR, CalcEpsTurb, CalcPeakAmplitudeSoundWave, IsFluidTurnoverApproxOne"]}
{"id": "C61", "title": "The gravitational-wave status is reliable", "statement": "A gravitational-wave calculation reports failure if the inverse time scale is below one or the transition temperature is missing, and keeps that status.", "quantifier": "all inputs and call sequences", "why_tests_cant": "Tests only look at successful points.", "anchors": ["src/gravitational_waves/gw.cpp: GravitationalWave::GravitationalWave, GetSNR"]}
{"id": "C62", "title": "The derivative modes of the one-loop potential are its derivatives", "statement": "Asking the effective potential for its temperature derivative (used for the strength alpha of the transition) or for its derivative along a field returns the derivative of the value that mode 0 returns.", "quantifier": "all models, field values and temperatures above zero", "why_tests_cant": "Tests compare stored numbers of one parameter point per model; that a mode is a derivative is a statement about all fields and temperatures.", "anchors": ["src/models/ClassPotentialOrigin.cpp: V1Loop, VEff, HiggsMassesSquared, HiggsMassMatrix", "src/bounce_solution/bounce_solution.cpp: CalculatePTStrength"]}
{"id": "C63", "title": "The derivative mode of the thermal functions is their derivative", "statement": "Asking a thermal function (the interpolated boson and fermion functions, their expansions for small and large arguments, the integrands of the numerical integration) for mode 1 returns the derivative of what mode 0 returns; stored expansion coefficients are the ones a direct calculation gives; the function is continuous at zero argument and does not hide NaN.", "quantifier": "all arguments, orders of the expansions, momenta", "why_tests_cant": "Tests compare a few sample points with stored numbers; derivative and continuity are statements about all arguments.", "anchors": ["src/ThermalFunctions/ThermalFunctions.cpp: JbosonInterpolated, JfermionInterpolated, JInterpolatedHigh, JbosonInterpolatedLow, JfermionInterpolatedLow, JbosonIntegrand, JfermionIntegrand", "src/ThermalFunctions/thermalcoefficientcalculator.cpp: GetCoefficentAtOrder"]}
{"id": "C64", "title": "Splines interpolate smoothly and meet their boundary conditions", "statement": "A spline built from points with increasing abscissas passes through all of them. A cubic or hermite spline is differentiable everywhere and deriv(1, x) is its derivative; for a cubic spline deriv(2, x) is the second derivative as well. The conditions given for the two ends (slope, curvature, not-a-knot) hold, the spline through points of a cubic polynomial with matching end conditions is this polynomial, and after make_monotonic a spline through monotone data is monotone.", "quantifier": "all numbers of points, all increasing abscissas and ordinates, all boundary conditions and values, all evaluation points", "why_tests_cant": "The coefficients come from a band matrix elimination whose pivots must not vanish for any spacing of the points; tests see some spacings only.", "anchors": ["src/utility/spline/spline.cpp: spline::set_points, spline::operator(), spline::deriv, spline::make_monotonic, band_matrix::lu_decompose, band_matrix::lu_solve", "include/BSMPT/utility/spline/spline.h: spline"]}
{"id": "C65", "title": "The tunnelling path is followed at unit speed from its first to its last point", "statement": "A path in field space built from points begins at the first and ends at the last point, its parameter is the length along the path, so that its length is the integral of its speed, its velocity has norm one, and the acceleration of a straight path is zero. A new point with a position before the beginning, behind the end or in between is inserted at that place.", "quantifier": "all numbers of fields and points, all points with different neighbours, all positions", "why_tests_cant": "The constant velocity comes from a chain of splines and an integration over the whole path; tests look at a few paths and positions.", "anchors": ["src/utility/const_velocity_spline.cpp: cvspline::initialize, cvspline::operator(), cvspline::dl, cvspline::d2l, cvspline::add_point", "include/BSMPT/utility/const_velocity_spline.h: cvspline"]}
{"id": "C66", "title": "The Bernstein basis in which the path deformation expands the forces is correct", "statement": "The binomial coefficients, Bernstein polynomials, their sums with coefficients, first and second derivatives and the matrix of their integrals over the path are the mathematical ones, so that solving with the matrix gives the best approximation, and the expansion has prescribed values at both ends of the path.", "quantifier": "all degrees, all coefficients, all paths l0 < lf and all positions", "why_tests_cant": "The identities hold for all real positions and coefficients; binomial coefficients computed in int overflow only for larger degrees.", "anchors": ["src/bounce_solution/action_calculation.cpp: nChoosek, BernsteinPolynomial, BernsteinPhi, BernsteinDPhi, BernsteinD2Phi, PathDeformation"]}
{"id": "C67", "title": "The integrator of the bounce equation is a fifth order method with a fourth order error estimate", "statement": "One step of the integration of the bounce equation is a Runge-Kutta step that satisfies all order conditions up to order five, its error estimate is the difference to an embedded method of order four, it is exact for right hand sides polynomial in the radius up to degree four and follows the exact solution for a constant force from one radius to the next.", "quantifier": "all right hand sides, states, radii and step sizes, all rooted trees up to five vertices", "why_tests_cant": "A wrong digit in one of the 26 coefficients only lowers the order; results of single bounces still look plausible. The order conditions quantify over all trees and right hand sides.", "anchors": ["src/bounce_solution/action_calculation.cpp: BounceActionInt::RK5_step, BounceActionInt::AuxFunctionDev, BounceActionInt::d2ldrho2, BounceActionInt::IntegrateBounce"]}
{"id": "C68", "title": "The integration of a bounce starts on the exact solution of the linearised equation", "statement": "The radius, position and velocity with which the integration of a bounce starts lie on the exact solution of the equation of motion with the force linearised around the starting point or around the true minimum, in three and four dimensions; the radius is found to 1e-10, the search always ends, and between the two approximations the program changes smoothly with weights that add up to one, using the one around the minimum for starting points close to the minimum.", "quantifier": "all starting points, gradients, second derivatives, path lengths and positions of the minimum", "why_tests_cant": "That explicit formulas solve a differential equation, and that a search brackets a root, are statements about all radii; tests compare single numbers.", "anchors": ["src/bounce_solution/action_calculation.cpp: BounceActionInt::ExactSolution, BounceActionInt::ExactSolutionLin, BounceActionInt::ExactSolutionFromMinimum, BounceActionInt::LogisticFunction, BounceActionInt::BesselI, BounceActionInt::BesselJ"]}
{"id": "C69", "title": "The release point of the bounce is found between undershooting and overshooting", "statement": "Every trajectory of the bounce is integrated until it turns back or passes the false vacuum and is then called converged, undershooting or overshooting accordingly; the search for the release point ends, and if the starting points that overshoot and those that undershoot are separated by one position, the reported release point lies within the requested accuracy of that position, and a search that has never seen both kinds is reported as a failure.", "quantifier": "all trajectories, potentials, path lengths, accuracies in the range used and all separating positions", "why_tests_cant": "The outcome of each of up to 100 bisections depends on the trajectory of a differential equation; tests run a handful of potentials and cannot show that the bracket always keeps the solution.", "anchors": ["src/bounce_solution/action_calculation.cpp: BounceActionInt::IntegrateBounce, BounceActionInt::BackwardsPropagation, BounceActionInt::Solve1DBounce", "include/BSMPT/bounce_solution/action_calculation.h: UndershootOvershootStatus, Integration1DStatus"]}
{"id": "C70", "title": "A reported action belongs to a converged bounce", "statement": "An action is reported only if the trajectory on the final path converged after undershooting and overshooting and the final path was accepted, which means that the normal force stays below five per cent of the gradient at every test point; the action is then the sum of the kinetic and potential part of that trajectory. In every other case the action keeps the value -1 and the state names the reason. At most the configured number of integrations is made.", "quantifier": "all potentials, paths, results of the one-dimensional solver, deformations and limits on the number of integrations", "why_tests_cant": "The alternation of solver and deformation can take any of its exits in any round; tests see the exits of a few potentials.", "anchors": ["src/bounce_solution/action_calculation.cpp: BounceActionInt::CalculateAction, BounceActionInt::PathDeformationCheck, BounceActionInt::NormalForce", "include/BSMPT/bounce_solution/action_calculation.h: ActionStatus"]}
{"id": "C71", "title": "The deformation of a path keeps the best path and its end point", "statement": "Deforming a path keeps the number of knots and the end point at the false vacuum, never lets the error grow, returns the path with the least error found, reports success exactly if that error is below five per cent, moves knots only by the force in units of the largest gradient times the bounded step size, and stops after at most the configured number of passes or after 21 passes without improvement.", "quantifier": "all paths, trajectories, forces and numbers of passes", "why_tests_cant": "The bookkeeping of paths, errors and step sizes goes through up to 200 passes whose forces depend on the potential; tests cannot show the invariant for all of them.", "anchors": ["src/bounce_solution/action_calculation.cpp: BounceActionInt::PathDeformation, BounceActionInt::SinglePathDeformation, BounceActionInt::ReductorCalculator"]}
{"id": "C72", "title": "The reported action is the integral over the bounce", "statement": "The kinetic and potential part of the action are the integrals of half the squared velocity and of the potential over the three- or four-dimensional volume of the bounce, with an error that is bounded by the width of an integration cell, and for an exact bounce their sum agrees with the estimates from either part alone.", "quantifier": "all trajectories with bounded and Lipschitz continuous integrand, all radii, both dimensions", "why_tests_cant": "The error bound of a quadrature rule is a statement about all integrands; tests compare numbers for single potentials within a tolerance.", "anchors": ["src/bounce_solution/action_calculation.cpp: BounceActionInt::CalculateKineticTermAction, BounceActionInt::CalculatePotentialTermAction, BounceActionInt::CalculateAction"]}
{"id": "C73", "title": "The scans for bounce actions look for action over temperature between 50 and 200", "statement": "The scans for bounce actions calculate new actions only between the lower end of the phases and the critical temperature, go on exactly while the outermost ratio of action and temperature is inside the window from 50 to 200, choose the next temperature by the straight line through the outermost two solutions, and fill gaps so that the interpolated ratio changes by at most 20 between neighbours.", "quantifier": "all lists of solutions, all actions, all temperature windows", "why_tests_cant": "The rules are inequalities over all possible actions; a test runs through one sequence of temperatures of one potential.", "anchors": ["src/bounce_solution/bounce_solution.cpp: BounceSolution::GWInitialScan, BounceSolution::GWScanTowardsHighAction, BounceSolution::GWScanTowardsLowAction, BounceSolution::GWSecondaryScan"]}
{"id": "C74", "title": "Each model implements its documented scalar potential", "statement": "For every choice of the parameters and every value of the scalar fields, the tree-level potential and the counterterm potential of a model are exactly the ones documented in its header in terms of the complex doublets and singlets.", "quantifier": "all real parameters and all real field values, with and without forced evaluation", "why_tests_cant": "A wrong entry among hundreds of coupling constants shows only along the direction of its four fields; tests compare a few points.", "anchors": ["src/models/ClassPotentialSM.cpp:SetCurvatureArrays", "src/models/ClassPotentialSM.cpp:set_CT_Pot_Par", "src/models/ClassPotentialR2HDM.cpp:SetCurvatureArrays", "src/models/ClassPotentialC2HDM.cpp:SetCurvatureArrays", "src/models/ClassPotentialN2HDM.cpp:SetCurvatureArrays", "src/models/ClassPotentialCxSM.cpp:SetCurvatureArrays", "src/models/ClassPotentialCPintheDark.cpp:SetCurvatureArrays", "src/models/ClassTemplate.cpp:SetCurvatureArrays"]}
{"id": "C75", "title": "The input vacuum is a stationary point with the input masses", "statement": "With the dependent parameters calculated from the input, the electroweak vacuum of the input is a stationary point of the tree-level potential, the would-be Goldstone bosons are massless there, and for the standard model the Higgs mass is the input mass.", "quantifier": "all parameters of the input for which the divisions are defined", "why_tests_cant": "The tadpole conditions must hold for all parameters, and a sign or factor error may vanish at the benchmark point.", "anchors": ["src/models/ClassPotentialSM.cpp:set_gen", "src/models/ClassPotentialR2HDM.cpp:set_gen", "src/models/ClassPotentialC2HDM.cpp:set_gen", "src/models/ClassPotentialN2HDM.cpp:set_gen", "src/models/ClassPotentialCxSM.cpp:set_gen", "src/models/ClassPotentialCPintheDark.cpp:set_gen", "src/models/ClassTemplate.cpp:set_gen"]}
{"id": "C76", "title": "The counterterms keep the vacuum and the masses at their tree-level values", "statement": "The counterterms calculated from the first and second derivatives of the one-loop potential cancel these derivatives at the vacuum, for every one-loop potential with the symmetries of the model.", "quantifier": "all twice differentiable functions of the scalar fields which are invariant under the gauge transformations (and the further symmetries of the model), and all vacua", "why_tests_cant": "The cancellation uses the symmetry of the loop potential; tests check it for single parameter points within a tolerance.", "anchors": ["src/models/ClassPotentialSM.cpp:calc_CT", "src/models/ClassPotentialR2HDM.cpp:calc_CT", "src/models/ClassPotentialC2HDM.cpp:calc_CT", "src/models/ClassPotentialN2HDM.cpp:calc_CT", "src/models/ClassPotentialCxSM.cpp:calc_CT", "src/models/ClassPotentialCPintheDark.cpp:calc_CT", "src/models/ClassTemplate.cpp:calc_CT", "src/models/ClassPotentialOrigin.cpp:CheckImplementation"]}
{"id": "C77", "title": "The gauge couplings come from the covariant derivative", "statement": "For all values of the scalar and the gauge fields the coupling of two gauge bosons with two scalars is the product of the covariant derivatives of the doublets, and the coupling does not depend on the order of the gauge bosons and the scalars.", "quantifier": "all couplings, all values of the scalar and gauge fields", "why_tests_cant": "A wrong entry shows only for one combination of fields, and tests check only the masses at the vacuum.", "anchors": ["src/models/ClassPotentialSM.cpp:SetCurvatureArrays", "src/models/ClassPotentialR2HDM.cpp:SetCurvatureArrays", "src/models/ClassPotentialC2HDM.cpp:SetCurvatureArrays", "src/models/ClassPotentialN2HDM.cpp:SetCurvatureArrays", "src/models/ClassPotentialCxSM.cpp:SetCurvatureArrays", "src/models/ClassPotentialCPintheDark.cpp:SetCurvatureArrays", "src/models/ClassTemplate.cpp:SetCurvatureArrays"]}
{"id": "C78", "title": "The implemented Yukawa couplings are the documented ones", "statement": "For every model with fermions, all values of the quark, lepton and scalar fields and all constants, the couplings stored by the model sum to the documented Yukawa interaction with the CKM matrix, with the doublets that the documented Yukawa type assigns to up-type quarks, down-type quarks and leptons and with the couplings sqrt(2) m / v; the stored coupling does not depend on the order of the two fermions.", "quantifier": "all field values, all fermion masses, all CKM matrices, all vacuum expectation values and the four documented types", "why_tests_cant": "The unit tests compare single numbers for a few benchmark points; a wrong sign or a wrong CKM element in one of hundreds of entries shows only for charged fields.", "anchors": ["src/models/ClassPotentialSM.cpp:SetCurvatureArrays", "src/models/ClassPotentialR2HDM.cpp:SetCurvatureArrays", "src/models/ClassPotentialC2HDM.cpp:SetCurvatureArrays", "src/models/ClassPotentialN2HDM.cpp:SetCurvatureArrays", "src/models/ClassPotentialCxSM.cpp:SetCurvatureArrays", "src/models/ClassPotentialCPintheDark.cpp:SetCurvatureArrays"]}
{"id": "C79", "title": "The masses at the vacuum are the input masses", "statement": "The CKM matrix is unitary for all Wolfenstein parameters; the vacuum expectation value and the gauge couplings reproduce the Fermi constant, the W mass and the Z mass; and at the tree-level vacuum of each model, for every tan beta and every Yukawa type that is accepted, the squared masses which the program calculates are those of the photon, W and Z boson and of the quarks and leptons.", "quantifier": "all constants of the standard model, all parameters of the models", "why_tests_cant": "The self-test of a model compares the spectrum with a tolerance at one point; the relation must hold for all parameters.", "anchors": ["src/models/SMParam.cpp:GetSMConstants", "src/models/ClassPotentialOrigin.cpp:GaugeMassesSquared", "src/models/ClassPotentialOrigin.cpp:QuarkMassesSquared", "src/models/ClassPotentialOrigin.cpp:LeptonMassesSquared", "src/models/ClassPotentialSM.cpp:SetCurvatureArrays", "src/models/ClassPotentialR2HDM.cpp:SetCurvatureArrays", "src/models/ClassPotentialC2HDM.cpp:SetCurvatureArrays", "src/models/ClassPotentialN2HDM.cpp:SetCurvatureArrays", "src/models/ClassPotentialCxSM.cpp:SetCurvatureArrays", "src/models/ClassPotentialCPintheDark.cpp:SetCurvatureArrays"]}
{"id": "C80", "title": "The derivatives of the implemented potentials are true derivatives", "statement": "For every model, all parameters and all field values, the gradient that VTree returns in its derivative modes and the matrix that HiggsMassMatrix returns at zero temperature are the gradient and the Hesse matrix of the documented tree-level potential; the derivative modes of CounterTerm, NablaVCT and HessianCT are those of the documented counterterm potential. The coupling tensors do not depend on the order of their indices.", "quantifier": "all parameters and counterterms, all field values, all field directions, for each of the seven models", "why_tests_cant": "The derivative routines contract a tensor with fixed combinatorial factors, which is right only if all permutations of each of up to 864 entries are stored; the self-tests compare a few directions at the vacuum.", "anchors": ["src/models/ClassPotentialOrigin.cpp:VTree", "src/models/ClassPotentialOrigin.cpp:CounterTerm", "src/models/ClassPotentialOrigin.cpp:NablaVCT", "src/models/ClassPotentialOrigin.cpp:HessianCT", "src/models/ClassPotentialOrigin.cpp:HiggsMassMatrix", "src/models/ClassPotentialSM.cpp:SetCurvatureArrays", "src/models/ClassPotentialR2HDM.cpp:SetCurvatureArrays", "src/models/ClassPotentialC2HDM.cpp:SetCurvatureArrays", "src/models/ClassPotentialN2HDM.cpp:SetCurvatureArrays", "src/models/ClassPotentialCxSM.cpp:SetCurvatureArrays", "src/models/ClassPotentialCPintheDark.cpp:SetCurvatureArrays", "src/models/ClassTemplate.cpp:SetCurvatureArrays"]}
{"id": "C81", "title": "Thermal masses are the leading term of the high-temperature expansion", "statement": "The matrix of thermal masses of the scalar fields is the matrix of second derivatives of the T² coefficient of the high-temperature expansion of the one-loop potential, calculated from the mass matrices of the program; values of at most 1e-5 are set to zero. For every model this gives the textbook thermal masses of the doublets and singlets, with contributions of all quarks and leptons, and 11/6 g² (one doublet) or 2 g² (two doublets) for the gauge bosons.", "quantifier": "all models with symmetric tensors for the general statement; for six models all parameters, all gauge couplings, all fermion masses, all unitary CKM matrices and all four types of Yukawa couplings", "why_tests_cant": "The general formula sums thousands of tensor entries per matrix element; the unit tests compare a few numbers at one parameter point of one model, and the default and the general calculation are never compared.", "anchors": ["src/models/ClassPotentialOrigin.cpp:CalculateDebye", "src/models/ClassPotentialOrigin.cpp:CalculateDebyeGauge", "src/models/ClassPotentialSM.cpp:CalculateDebyeSimplified", "src/models/ClassPotentialR2HDM.cpp:CalculateDebyeSimplified", "src/models/ClassPotentialC2HDM.cpp:CalculateDebyeSimplified", "src/models/ClassPotentialN2HDM.cpp:CalculateDebyeSimplified", "src/models/ClassPotentialCxSM.cpp:CalculateDebyeSimplified", "src/models/ClassPotentialCPintheDark.cpp:CalculateDebyeSimplified", "src/models/ClassPotentialSM.cpp:CalculateDebyeGaugeSimplified", "src/models/ClassPotentialR2HDM.cpp:CalculateDebyeGaugeSimplified", "src/models/ClassPotentialC2HDM.cpp:CalculateDebyeGaugeSimplified", "src/models/ClassPotentialN2HDM.cpp:CalculateDebyeGaugeSimplified", "src/models/ClassPotentialCxSM.cpp:CalculateDebyeGaugeSimplified", "src/models/ClassPotentialCPintheDark.cpp:CalculateDebyeGaugeSimplified"]}
{"id": "C82", "title": "The effective potential has the symmetries of the theory", "statement": "The one-loop potential, with the masses that the program calculates as eigenvalues of field-dependent matrices and with the thermal masses, does not change under electroweak gauge rotations of the fields, at any temperature; in the real two-doublet models it does not change under CP conjugation of the neutral fields, and in CP in the Dark not under the sign change of the dark fields. Hence the whole effective potential is gauge invariant with the counterterms of the program, which cancel the first and second derivatives of this one-loop potential at the vacuum.", "quantifier": "all field values (charged, neutral and singlet components), all rotation angles, all temperatures and thermal functions, all parameters, gauge couplings, fermion masses, unitary CKM matrices and Yukawa types of six models", "why_tests_cant": "Gauge invariance relates uncountably many field points; the unit tests evaluate the potential only in the directions of the vacuum expectation values and at a few parameter points.", "anchors": ["src/models/ClassPotentialOrigin.cpp:VEff", "src/models/ClassPotentialOrigin.cpp:V1Loop", "src/models/ClassPotentialOrigin.cpp:HiggsMassesSquared", "src/models/ClassPotentialOrigin.cpp:GaugeMassesSquared", "src/models/ClassPotentialOrigin.cpp:QuarkMassesSquared", "src/models/ClassPotentialOrigin.cpp:LeptonMassesSquared", "src/models/ClassPotentialSM.cpp:calc_CT", "src/models/ClassPotentialR2HDM.cpp:calc_CT", "src/models/ClassPotentialC2HDM.cpp:calc_CT", "src/models/ClassPotentialN2HDM.cpp:calc_CT", "src/models/ClassPotentialCxSM.cpp:calc_CT", "src/models/ClassPotentialCPintheDark.cpp:calc_CT"]}
{"id": "C83", "title": "The renormalisation conditions use the true derivatives of the one-loop potential", "statement": "The first and second derivatives of the Coleman-Weinberg potential at the electroweak vacuum, which the program computes from couplings in the basis of mass eigenstates and from which it computes the counterterms, are the gradient and the Hesse matrix of the zero-temperature one-loop potential that it minimises, up to entries that it sets to zero because they are below 1e-10. Hence the effective potential with the computed counterterms has at the vacuum the gradient and the Hesse matrix of the tree-level potential: vacuum expectation values and masses stay at their input values. The derivatives are refused before the couplings are calculated.", "quantifier": "all scalar potentials, gauge and Yukawa tensors with the documented symmetries, all vacua whose particles are massless or heavier than the thresholds, all orthonormal bases of (real) eigenvectors including degenerate masses, all renormalisation scales; the six models with all parameters", "why_tests_cant": "The formulas contain divided differences of logarithms with branches for equal and vanishing masses and a choice of eigenvectors by a library; whether they are derivatives of the eigenvalue sums for every spectrum is a theorem of perturbation theory and not visible in a finite set of benchmark numbers.", "anchors": ["src/models/ClassPotentialOrigin.cpp:CalculatePhysicalCouplings", "src/models/ClassPotentialOrigin.cpp:WeinbergFirstDerivative", "src/models/ClassPotentialOrigin.cpp:WeinbergSecondDerivative", "src/models/ClassPotentialOrigin.cpp:WeinbergSecondDerivativeAsMatrixXd", "src/models/ClassPotentialOrigin.cpp:fbase", "src/models/ClassPotentialOrigin.cpp:V1Loop"]}
{"id": "C84", "title": "The search for minima in the directions of the vacuum expectation values finds the global minimum", "statement": "The minimiser varies only the fields that are listed as directions of vacuum expectation values and sets all others to zero. Every value that the effective potential takes for any values of all fields, at any temperature, is also taken in these directions; so a minimum of the potential over the vacuum expectation values is the global minimum over all fields. This also holds for the simplified potentials, which are correct in these directions only.", "quantifier": "all field values, temperatures, thermal functions, parameters, counterterms without tadpoles, gauge couplings, fermion masses and CKM matrices of six models", "why_tests_cant": "A test can compare the potential at finitely many field points; that no point of the four- to nine-dimensional field space lies below the restricted minimum is a statement about all of them.", "anchors": ["src/models/ClassPotentialOrigin.cpp:MinimizeOrderVEV", "src/models/ClassPotentialOrigin.cpp:VEff", "src/models/ClassPotentialC2HDM.cpp:VevOrder", "src/models/ClassPotentialN2HDM.cpp:VevOrder", "src/models/ClassPotentialCxSM.cpp:VevOrder", "src/models/ClassPotentialCPintheDark.cpp:VevOrder"]}
{"id": "C85", "title": "The configuration of the baryogenesis calculation decides which asymmetries are calculated, and each column of the output belongs to its method", "statement": "The file with the switches is read line by line; a line that starts with one of the five names sets the switch of that method to whether its last word is 'yes', the line of the bottom mass sets the mode, other lines have no effect. The result of a calculation contains one value per enabled method, in the order of the legend, each calculated with the method, wall velocity and critical temperature of this call, independent of what was calculated before.", "quantifier": "all file contents, all sequences of calls on one object, all points, all wall velocities, all behaviours of the transport solvers", "why_tests_cant": "The combinations of 32 switch settings, three bottom mass modes, file layouts and histories of one object cannot be enumerated; the property is about the absence of any carry-over.", "anchors": ["src/baryo_calculation/CalculateEtaInterface.cpp:ReadConfigFile", "src/baryo_calculation/CalculateEtaInterface.cpp:legend", "src/baryo_calculation/CalculateEtaInterface.cpp:CalcEta", "src/baryo_calculation/CalculateEtaInterface.cpp:setNumerics"]}
{"id": "C86", "title": "The parallel calculation of the wall thickness does not depend on the schedule of its threads", "statement": "The threads that minimise the potential on the planes between the two minima always end, never fail, and leave the same data as a sequential loop. The result is v_c/sqrt(8 V_b) for the barrier V_b of an interpolation through these data, whose first and last points are the two minima.", "quantifier": "all numbers of threads, all interleavings of their actions, all potentials and pairs of minima", "why_tests_cant": "A test sees the few interleavings that the scheduler of one machine happens to choose; the fatal one needs two threads between the test of the index and its increment.", "anchors": ["src/WallThickness/WallThicknessLib.cpp:calculate_wall_thickness_plane"]}
{"id": "C87", "title": "The one-dimensional wall thickness belongs to the highest barrier between the two minima", "statement": "The one-dimensional calculation searches maxima of the potential on the straight line between the symmetric and the broken minimum; the wall thickness it returns is v_c/sqrt(8 V_b), where V_b is the height of the highest of these points over the lower of the two minima.", "quantifier": "all potentials, all pairs of minima, all lists of maxima found by the minimiser", "why_tests_cant": "With a single barrier and a symmetric minimum at the origin, the cases that tests use, every choice among the solutions gives the right value.", "anchors": ["src/WallThickness/WallThickness1D.cpp:GSL_Find_Maximum_line", "src/WallThickness/WallThickness1D.cpp:calculate_wall_thickness_1D"]}
{"id": "C88", "title": "Densities in front of the bubble wall come only from CP violation, and conserved numbers stay zero", "statement": "For each of the three methods of the VEV insertion approximation (top, bottom, tau): the densities that solve its transport equations with zero start values are unique; without CP-violating phases all densities and the density of left-handed particles vanish; with all phases of opposite sign they have the opposite sign. With a bottom quark or a tau lepton the baryon number of the third generation vanishes everywhere and the two Higgs doublets have equal densities; the lepton number current vanishes and no neutrinos are created. The phase in the wall goes from its broken to its symmetric value, and the derivatives the program uses are its derivatives; the source is proportional to them.", "quantifier": "all phases, wall velocities, rates, diffusion constants, masses, intervals and functions that solve the equations", "why_tests_cant": "The statements are about every solution of a system of differential equations with position-dependent coefficients; a test sees one numerical solution with errors that hide a small violation.", "anchors": ["src/baryo_calculation/Fluid_Type/top_source.cpp:operator()", "src/baryo_calculation/Fluid_Type/bot_source.cpp:operator()", "src/baryo_calculation/Fluid_Type/tau_source.cpp:operator()", "src/baryo_calculation/Fluid_Type/gen_func_fluid.cpp:Calc_theta", "src/baryo_calculation/Fluid_Type/gen_func_fluid.cpp:Calc_Scp"]}
{"id": "C89", "title": "The transport equations are those of reactions that relax to equilibrium, and all left-handed particles are counted", "statement": "The flow of each density is the number of particles that mass insertions, Yukawa reactions and the strong sphaleron create, each driven by the chemical potentials n/kappa of its particles, plus the CP-violating source; these reactions relax. The equations for fewer particles are limits of those for more. The density of left-handed particles is the sum over all left-handed doublets.", "quantifier": "all densities, rates, statistical factors, sources and settings of the mass flags", "why_tests_cant": "Reference numbers were produced with the same equations; a wrong sign or missing term changes the asymmetry of every point, and no test value tells it from the right one.", "anchors": ["src/baryo_calculation/Fluid_Type/top_source.cpp:operator()", "src/baryo_calculation/Fluid_Type/bot_source.cpp:operator()", "src/baryo_calculation/Fluid_Type/tau_source.cpp:operator()", "src/baryo_calculation/Fluid_Type/top_source.cpp:Calc_nL", "src/baryo_calculation/Fluid_Type/bot_source.cpp:Calc_nL", "src/baryo_calculation/Fluid_Type/tau_source.cpp:Calc_nL"]}
{"id": "C90", "title": "The baryon asymmetry of the VEV insertion methods solves the diffusion equation with weak sphalerons in the symmetric phase", "statement": "The asymmetry that the top, bottom and tau methods return is the baryon density in the broken phase divided by the entropy density, for the bounded steady solution of the diffusion equation in which weak sphalerons act on the left-handed density and wash out baryons in front of the wall and are switched off behind it. The left-handed density is interpolated between equally spaced positions from the wall to the end of the calculation.", "quantifier": "all left-handed densities, wall velocities, temperatures, numbers of steps and steady baryon densities", "why_tests_cant": "A test compares with numbers of the same formula; whether the formula solves the equation for every density is a statement about differential equations.", "anchors": ["src/baryo_calculation/Fluid_Type/gen_func_fluid.cpp:Calc_eta::set_class", "src/baryo_calculation/Fluid_Type/gen_func_fluid.cpp:Nintegrate_eta", "src/baryo_calculation/Fluid_Type/gen_calc.cpp:set_up_nL_grid", "src/baryo_calculation/CalculateEtaInterface.cpp:CalcEta"]}
{"id": "C91", "title": "The fluid equations of the semi-classical force methods are the published ones", "statement": "The derivatives that the method with velocities computes are exactly those that fulfil the two fluid equations of the left-handed top and bottom quarks, the right-handed top antiquark and the Higgs bosons, with Yukawa, mass-flip, W and strong sphaleron reactions. Without velocities they are those of the second-order equations that follow. All reactions except the strong sphalerons conserve the baryon number of the heavy quarks, and the potential that drives the weak sphalerons counts the left-handed quarks of all three generations.", "quantifier": "all temperatures, wall velocities, masses, statistical factors, sources and values of potentials and velocities for which the equations can be solved", "why_tests_cant": "The formulas have up to thirty terms; a test with a few numbers cannot see that each term is the one that the equations demand.", "anchors": ["src/baryo_calculation/transport_equations.cpp:transport_equations::operator()", "src/baryo_calculation/transport_equations.cpp:mubl_func"]}
{"id": "C92", "title": "The chemical potentials in front of the wall come from CP violation in the wall by diffusion", "statement": "The chemical potentials are odd in the CP-violating phase and vanish without CP violation. They are those of the solution that vanishes far away on both sides of the wall: particles that the wall creates diffuse into the symmetric phase.", "quantifier": "all continuous coefficients, all phases along the wall, all positions and lengths of the interval, both sets of equations", "why_tests_cant": "A test compares numbers of one configuration; which solution of the differential equations the program approximates is a statement about all of them.", "anchors": ["src/baryo_calculation/transport_equations.cpp:calculateTransportEquation", "src/baryo_calculation/transport_equations.cpp:mubl_func", "src/baryo_calculation/transport_equations.cpp:transport_equations::operator()"]}
{"id": "C93", "title": "Fields, phase and asymmetry along the wall in the semi-classical force methods", "statement": "Along the wall the fields go from the minimum in the broken phase to the minimum in the symmetric phase, and the phase between its values in both. The derivatives of fields, phase, top mass and source that enter the equations are the derivatives of these functions. The returned asymmetry is the baryon density behind the wall divided by the entropy density, for the bounded steady solution of the rate equation with weak sphalerons in front of the wall.", "quantifier": "all minima, phases, wall thicknesses, positions, masses, chemical potentials, temperatures and wall velocities", "why_tests_cant": "Derivatives and limits along the whole wall are statements about all positions.", "anchors": ["src/baryo_calculation/transport_equations.cpp:calculate_vev", "src/baryo_calculation/transport_equations.cpp:calculate_vev_derivative", "src/baryo_calculation/transport_equations.cpp:calculate_theta", "src/baryo_calculation/transport_equations.cpp:Integrate_mubl_interpolated", "src/baryo_calculation/transport_equations.cpp:generate_mubl_spline"]}
{"id": "C94", "title": "The derivatives of eigenvalues are those of perturbation theory", "statement": "For a Hermitian matrix and its derivative the function returns the eigenvalues followed by their derivatives, in the same order, each pair as often as first-order perturbation theory says, also when eigenvalues coincide. An eigenvalue that moves differentiably with its eigenvector along a curve of matrices is returned with its derivative.", "quantifier": "all sizes, all Hermitian matrices, all Hermitian derivatives, all correct eigensolvers", "why_tests_cant": "Degenerate eigenvalues have no unique eigenvectors; a test sees one choice of an eigensolver and one pattern of degeneracies.", "anchors": ["src/models/ClassPotentialOrigin.cpp:FirstDerivativeOfEigenvalues"]}
{"id": "C95", "title": "Requested derivatives of masses are the derivatives of the masses", "statement": "Requested with the number of a field, the functions for the masses of gauge bosons, quarks, leptons and scalars return the squared masses followed by their derivatives with respect to this field; requested with -1 the functions for bosons return the derivatives with respect to the temperature.", "quantifier": "all symmetric couplings, all field values, temperatures and fields, all correct eigensolvers", "why_tests_cant": "A derivative is a statement about a curve of arguments, for couplings of every model.", "anchors": ["src/models/ClassPotentialOrigin.cpp:GaugeMassesSquared", "src/models/ClassPotentialOrigin.cpp:QuarkMassesSquared", "src/models/ClassPotentialOrigin.cpp:LeptonMassesSquared", "src/models/ClassPotentialOrigin.cpp:HiggsMassesSquared", "src/models/ClassPotentialOrigin.cpp:FirstDerivativeOfEigenvalues"]}
{"id": "C96", "title": "The relaxation rate is the published one and is not negative", "statement": "The integrand of the relaxation rate of a fermion in the wall is the published resonant rate of the VEV insertion approximation to first order in the thermal width and in the difference of the energies, it is not negative for degenerate fermions, and it is evaluated for every momentum of the integration at all temperatures.", "quantifier": "all momenta, temperatures, masses, thermal masses and differences", "why_tests_cant": "An expansion is a statement about limits in the width and in the difference of energies for all momenta.", "anchors": ["src/baryo_calculation/Fluid_Type/gen_func_fluid.cpp:Calc_Gam_M::operator()", "src/baryo_calculation/Fluid_Type/gen_func_fluid.cpp:Calc_Gam_M::hf", "src/baryo_calculation/Fluid_Type/gen_func_fluid.cpp:Calc_Gam_M::set_class"]}
{"id": "C97", "title": "The CP-violating source is the published one", "statement": "The integrand of the CP-violating source of a fermion is the published resonant source of the VEV insertion approximation to first order in the thermal width and in the difference of the energies.", "quantifier": "all momenta, temperatures, masses, thermal masses and differences", "why_tests_cant": "An expansion is a statement about limits for all momenta; tests compare with numbers of the same program.", "anchors": ["src/baryo_calculation/Fluid_Type/gen_func_fluid.cpp:Calc_Scp::operator()", "src/baryo_calculation/Fluid_Type/gen_func_fluid.cpp:Calc_Scp::nf", "src/baryo_calculation/Fluid_Type/gen_func_fluid.cpp:Calc_Scp::nf_prime"]}
{"id": "C98", "title": "Thermal masses follow from charges and Yukawa couplings from masses", "statement": "The thermal mass of a right-handed top, bottom and tau, and its difference from that of the left-handed partner, are the sums over gauge groups and Yukawa couplings with the charges of the fermion. The Yukawa couplings reproduce the fermion masses with the doublet each fermion couples to, for all four types of the two-Higgs-doublet model.", "quantifier": "all temperatures, masses, vacuum expectation values, angles and types", "why_tests_cant": "The wrong coefficient for one particle only shows in a comparison with its charges, for all parameters.", "anchors": ["src/baryo_calculation/Fluid_Type/gen_func_fluid.cpp:Calc_ThermalMass_q", "src/baryo_calculation/Fluid_Type/gen_func_fluid.cpp:Calc_ThermalMass_l", "src/baryo_calculation/Fluid_Type/gen_func_fluid.cpp:gen_fluid::set_class"]}
{"id": "C99", "title": "The programs calculate the lines that were asked for", "statement": "Each program that reads a file of parameter points calculates exactly the points in the lines from the first to the last line that were asked for, never the header, and a program for a single line reports an error when the file does not have that line.", "quantifier": "all input files, with or without a newline at the end, and all first and last lines", "why_tests_cant": "The loops differ at the ends of files; a test reads one file.", "anchors": ["src/prog/BSMPT.cpp:main", "src/prog/CalcCT.cpp:main", "src/prog/NLOVEV.cpp:main", "src/prog/VEVEVO.cpp:main", "src/prog/CalcTemps.cpp:main", "src/prog/CalcGW.cpp:main", "src/prog/MinimaTracer.cpp:main", "src/prog/Test.cpp:main"]}
{"id": "C100", "title": "Parameters are read from the columns with their names", "statement": "Each parameter of a model is read from the column of the input file that has its name in the documentation, with and without a column of indices, and a line in which a number is missing or unreadable is not calculated.", "quantifier": "all models, all lines of a file, all numbers of further columns", "why_tests_cant": "Tests set the parameters directly or read correct files; malformed lines are unbounded in number.", "anchors": ["src/models/ClassPotentialOrigin.cpp:setUseIndexCol", "src/models/ClassPotentialR2HDM.cpp:ReadAndSet", "src/models/ClassPotentialC2HDM.cpp:ReadAndSet", "src/models/ClassPotentialN2HDM.cpp:ReadAndSet", "src/models/ClassPotentialCPintheDark.cpp:ReadAndSet", "src/models/ClassPotentialCxSM.cpp:ReadAndSet", "src/models/ClassPotentialSM.cpp:ReadAndSet", "src/models/ClassTemplate.cpp:ReadAndSet"]}
{"id": "C101", "title": "Every number in an output table stands under its name", "statement": "In the tables of all programs that calculate counterterms, transitions, vacuum expectation values, triple couplings and the baryon asymmetry, header and rows have the same number of columns and each column contains the quantity that its name denotes.", "quantifier": "all models, all points, all input lines", "why_tests_cant": "Tests check numbers in memory and never compare the names of columns with their contents.", "anchors": ["src/prog/CalcCT.cpp:main", "src/prog/BSMPT.cpp:main", "src/prog/NLOVEV.cpp:main", "src/prog/VEVEVO.cpp:main", "src/prog/TripleHiggsNLO.cpp:main", "src/prog/CalculateEWBG.cpp:main", "src/models/ClassPotentialCPintheDark.cpp:addLegendCT"]}
{"id": "C102", "title": "Triple Higgs couplings belong to the particles of their names", "statement": "In the table of triple Higgs couplings, each name of a particle stands for the mass eigenstate that has the fields of this particle: Goldstone bosons, charged, CP-odd and CP-even Higgs bosons are not confused, the neutral ones are sorted by mass, and the one called the Standard Model Higgs boson has a mass of about 125 GeV.", "quantifier": "all models, all rotation matrices with rows that consist of the fields of one particle, all orders of the masses, all histories of points", "why_tests_cant": "A test compares the couplings of a few points in which the masses have one order; degenerate and unusual orders are not tried.", "anchors": ["src/models/ClassPotentialR2HDM.cpp:TripleHiggsCouplings", "src/models/ClassPotentialC2HDM.cpp:TripleHiggsCouplings", "src/models/ClassPotentialN2HDM.cpp:TripleHiggsCouplings", "src/models/ClassPotentialCPintheDark.cpp:AdjustRotationMatrix", "src/models/ClassPotentialCxSM.cpp:TripleHiggsCouplings", "src/models/ClassPotentialSM.cpp:TripleHiggsCouplings"]}
{"id": "C103", "title": "Third derivatives of the one-loop potential are its true derivatives", "statement": "The numbers returned as third derivatives of the Coleman-Weinberg potential at the vacuum are its third derivatives with respect to the fields, also for degenerate and massless particles. They do not depend on the order of the fields, and there is no number if a squared mass is negative or the couplings have not been calculated.", "quantifier": "all models (numbers of scalars, coupling tensors), all vacua, all renormalisation scales, all eigenvalue solvers that are correct", "why_tests_cant": "A test compares numbers that the program computed before; the formulas with divided differences for two and three masses are different in each pattern of degenerate masses, and a derivative is a limit.", "anchors": ["src/models/ClassPotentialOrigin.cpp:WeinbergThirdDerivative", "src/models/ClassPotentialOrigin.cpp:fbaseTri", "src/models/ClassPotentialOrigin.cpp:fbase", "src/models/ClassPotentialOrigin.cpp:CalculatePhysicalCouplings"]}
{"id": "C104", "title": "Triple Higgs couplings are third derivatives of the effective potential", "statement": "In the coordinates of the mass eigenstates, which are orthonormal and in which the mass matrix is diagonal, the tree-level, counterterm and one-loop triple couplings are the third derivatives of the corresponding parts of the potential, and their sum is the third derivative of the effective potential at zero temperature up to the documented cut-off. They do not depend on the order of the particles.", "quantifier": "all models, all vacua, all counterterms, all orders of the particles", "why_tests_cant": "The tests compare stored numbers of one point for each model.", "anchors": ["src/models/ClassPotentialOrigin.cpp:Prepare_Triple", "src/models/ClassPotentialR2HDM.cpp:TripleHiggsCouplings", "src/models/ClassPotentialC2HDM.cpp:TripleHiggsCouplings", "src/models/ClassPotentialN2HDM.cpp:TripleHiggsCouplings", "src/models/ClassPotentialCxSM.cpp:TripleHiggsCouplings", "src/models/ClassPotentialCPintheDark.cpp:TripleHiggsCouplings", "src/models/ClassPotentialSM.cpp:TripleHiggsCouplings"]}
{"id": "C105", "title": "The tests of the coupling tensors decide whether the tensors are symmetric", "statement": "When a model is tested, each test of a coupling tensor (quadratic, cubic and quartic scalar couplings, gauge couplings, fermion masses, Yukawa couplings) passes exactly if the tensor has all the required sizes, contains no NaN and does not change under the permutations of its indices. If the scalar tests pass, the derivative modes of the potential are its derivatives. All shipped models pass for all parameters.", "quantifier": "all tensors of any size, also ragged ones and with NaN; all parameters and types of the shipped models", "why_tests_cant": "The unit tests run the tests on one point of each model, and never on a tensor that must be rejected.", "anchors": ["src/models/ModelTestfunctions.cpp:CheckSymmetricTensorScalarSecond", "src/models/ModelTestfunctions.cpp:CheckSymmetricTensorScalarThird", "src/models/ModelTestfunctions.cpp:CheckSymmetricTensorScalarFourth", "src/models/ModelTestfunctions.cpp:CheckSymmetricTensorGauge", "src/models/ModelTestfunctions.cpp:CheckSymmetricTensorLeptonsThird", "src/models/ModelTestfunctions.cpp:CheckSymmetricTensorQuarks"]}
{"id": "C106", "title": "The numerical tests of a model accept exactly what is close to what is expected", "statement": "The tests of gauge boson and fermion masses, of the CKM matrix, of the tree-level minimum, the tadpole relations, the masses at next-to-leading order, the simplified potentials and the counterterms pass exactly if the documented deviation is below the bound. If the tests of the counterterms pass then gradient and Hesse matrix of the effective potential in the vacuum are those of the tree-level potential up to the bound. The shipped models pass the tests of gauge bosons, fermions, the CKM matrix and the simplified potentials.", "quantifier": "all masses, vacua, derivatives and values of potentials, also NaN; all parameters of the shipped models", "why_tests_cant": "The unit tests show that correct models pass at one point; whether a wrong model is rejected is a statement about all wrong models.", "anchors": ["src/models/ModelTestfunctions.cpp:CheckGaugeBosonMasses", "src/models/ModelTestfunctions.cpp:CheckFermionicMasses", "src/models/ModelTestfunctions.cpp:CheckCKMUnitarity", "src/models/ModelTestfunctions.cpp:CheckTreeLevelMin", "src/models/ModelTestfunctions.cpp:CheckTadpoleRelations", "src/models/ModelTestfunctions.cpp:CheckNLOMasses", "src/models/ModelTestfunctions.cpp:CheckVTreeSimplified", "src/models/ModelTestfunctions.cpp:CheckVCounterSimplified", "src/models/ModelTestfunctions.cpp:CheckCTConditionsFirstDerivative", "src/models/ModelTestfunctions.cpp:CheckCTConditionsSecondDerivative", "src/models/ModelTestfunctions.cpp:CheckCTIdentities"]}
{"id": "C107", "title": "The program Test reports every test, and its message and exit status say whether they passed", "statement": "Testing a model lists each test once with its result in a fixed order, prints how many passed, and prints that the model is good to go exactly if all passed. The labels of all shipped models have the right numbers. The program tests the requested line of the file and its exit status tells whether something went wrong.", "quantifier": "all results of the tests, all input files and line numbers, all models and options", "why_tests_cant": "The program is not covered by unit tests at all; every combination of results and every file must be considered.", "anchors": ["src/models/ClassPotentialOrigin.cpp:CheckImplementation", "src/prog/Test.cpp:main", "src/models/ModelTestfunctions.cpp:CheckNumberOfCTParameters", "src/models/ModelTestfunctions.cpp:CheckNumberOfVEVLabels", "src/models/ModelTestfunctions.cpp:CheckLegendTemp", "src/models/ModelTestfunctions.cpp:CheckNumberOfTripleCouplings"]}
{"id": "C108", "title": "The K functions of the transport equations are the published thermal averages", "statement": "The functions K1 to K10 of the transport equations are the averages of hep-ph/0604159, eqs. (22) and (23): the integrands are the published ones with derivatives of the Fermi and Bose distributions, the integral over one octant times eight is that over all momenta up to the cut-off, the norms are the published integrals, and the interpolated functions agree with the ones that are calculated directly.", "quantifier": "all masses, temperatures, momenta, switches, fermions and bosons; all tables with the values that Kfactor_grid produces", "why_tests_cant": "The unit tests compare a few values with stored numbers of the same program, with a tolerance of the numerical integration. Whether the integrals are those of the publication for all masses and temperatures is not visible in them.", "anchors": ["src/Kfactors/Kfactors.cpp:distribution_f0", "src/Kfactors/Kfactors.cpp:K_integrand", "src/Kfactors/Kfactors.cpp:K_integration", "src/Kfactors/Kfactors.cpp:K_functions", "src/Kfactors/Kfactors.cpp:Ktilde_normalization_func", "src/Kfactors/Kfactors.cpp:Ktilde_normalization", "src/Kfactors/KfactorsinterpolatedGSL.cpp:CalculateNorm1", "src/Kfactors/KfactorsinterpolatedGSL.cpp:CalculateNorm2", "src/Kfactors/KfactorsinterpolatedGSL.cpp:K1fermion_normalized", "src/Kfactors/KfactorsinterpolatedGSL.cpp:K8fermion_normalized", "src/prog/Kfactor_grid.cpp:main"]}
{"id": "C109", "title": "PotPlotter tabulates the effective potential on exactly the requested grid or slice", "statement": "For accepted options the table contains one row for each combination of the requested values of the fields, each exactly once, with the reference point, the effective potential at both and the temperature; in slice mode one row for each of the equidistant points of the line, with both ends. Rows have as many cells as the header. The exit status is that of success exactly if the table was written. Any bounds may be requested for the fields.", "quantifier": "all options, all numbers of fields, all effective potentials, all input files", "why_tests_cant": "There is no unit test of the program; the nested loops have a different branch for each number of fields and all bounds and numbers of points must be considered.", "anchors": ["src/prog/PotPlotter.cpp:main", "src/prog/PotPlotter.cpp:CLIOptions", "src/prog/PotPlotter.cpp:CLIOptions::good", "src/minimum_tracer/minimum_tracer.cpp:Create1DimGrid"]}
{"id": "C110", "title": "The false vacuum fraction is the probability to be in the false vacuum", "statement": "The false vacuum fraction used for percolation and completion is the published one: the exponential of minus the expected number of bubbles covering a point, for bubbles nucleated with the tunnelling rate since the critical temperature and growing with the wall velocity in an expanding universe dominated by radiation. It is 1 at the critical temperature, stays between 0 and 1, falls strictly while the temperature falls and does not grow with the wall velocity; hence completion is never reported above percolation.", "quantifier": "all tunnelling rates, all continuous actions, all wall velocities, Hubble rates and temperatures, all lists of solutions", "why_tests_cant": "The fraction is an integral over an arbitrary rate; tests compare a few numbers.", "anchors": ["src/bounce_solution/bounce_solution.cpp:inner_integrand", "src/bounce_solution/bounce_solution.cpp:outer_integrand", "src/bounce_solution/bounce_solution.cpp:Nintegrate_Inner", "src/bounce_solution/bounce_solution.cpp:Nintegrate_Outer", "src/bounce_solution/bounce_solution.cpp:CalcFalseVacFraction", "src/bounce_solution/bounce_solution.cpp:CalcTempAtFalseVacFraction"]}
{"id": "C111", "title": "The temperatures and gravitational waves are calculated for what was requested", "statement": "The reported percolation and completion temperatures belong to the requested false vacuum fractions. When gravitational waves are requested at one of the four transition temperatures and this temperature was found, they are calculated; a point for which this is not possible is reported and does not affect other points.", "quantifier": "all requests, all dependences of the temperatures on the fraction, all outcomes of the calculations, all lists of points", "why_tests_cant": "Tests use the default fractions and points in which percolation is reached.", "anchors": ["src/transition_tracer/transition_tracer.cpp:TransitionTracer::TransitionTracer", "src/bounce_solution/bounce_solution.cpp:CalculatePercolationTemp", "src/bounce_solution/bounce_solution.cpp:CalculateCompletionTemp", "src/bounce_solution/bounce_solution.cpp:CalculatePTStrength", "src/prog/CalcGW.cpp:main", "include/BSMPT/transition_tracer/transition_tracer.h:user_input"]}
{"id": "C112", "title": "Strength and wall velocity are the published ones", "statement": "The strength is the difference of a quarter of the trace of the energy-momentum tensor between the phases over the energy density of radiation. The Chapman-Jouguet velocity is the published one, lies between the velocities of sound and of light and agrees with the one used for the gravitational waves. A calculated wall velocity is a number between 0 and the velocity of light, below the Chapman-Jouguet velocity unless the wall runs away.", "quantifier": "all potentials and their derivatives, all strengths and temperatures", "why_tests_cant": "Ranges over a continuum of strengths and potentials; tests run the default wall velocity.", "anchors": ["src/bounce_solution/bounce_solution.cpp:CalculatePTStrength", "src/bounce_solution/bounce_solution.cpp:CalculateWallVelocity", "src/gravitational_waves/gw.cpp:Getkappa_sw"]}
{"id": "C113", "title": "A plot in characters shows the data", "statement": "For every size of the plot and all curves with increasing coordinates, the plot is drawn without leaving its memory, the printed ranges are those of the data, and every cell shows the marker of the last curve through it or a blank. Titles and labels of any length, any number of curves and any number of phases are printed sensibly.", "quantifier": "all widths and heights, all lists of curves and data, all titles and labels", "why_tests_cant": "Ranges over all data and sizes; tests do not inspect the plots, yet one is drawn for each pair of phases.", "anchors": ["src/utility/asciiplotter/asciiplotter.cpp:AsciiPlotter::addPlot", "src/utility/asciiplotter/asciiplotter.cpp:AsciiPlotter::show", "src/utility/asciiplotter/asciiplotter.cpp:resample", "src/minimum_tracer/minimum_tracer.cpp:CalculateTc", "src/minimum_tracer/minimum_tracer.cpp:PrintPhasesDiagram"]}
{"id": "C114", "title": "The check of symmetry restoration looks at high temperatures", "statement": "The status of the electroweak symmetry at high temperature is taken at a temperature beyond which the rescaled potential does not change any more. A potential whose masses grow as b T^2 is reported as unbounded exactly for b < 0, and a flat potential is reported as flat.", "quantifier": "all potentials, given by their smallest eigenvalue at the origin as a function of the temperature, and all solutions of the linear system", "why_tests_cant": "Tests run two points of one model; the status must be right for every dependence of the masses on the temperature.", "anchors": ["src/minimum_tracer/minimum_tracer.cpp:MinimumTracer::IsThereEWSymmetryRestoration", "src/minimum_tracer/minimum_tracer.cpp:MinimumTracer::GetStatusEWSR"]}
{"id": "C115", "title": "A minimum is marked as global exactly when it is the global one", "statement": "A minimum found while a phase is traced is marked as global when it is the global minimum up to the symmetries and flat directions of the potential, and only then.", "quantifier": "all symmetry groups of sign flips, all flat planes, all minima in any dimension", "why_tests_cant": "Ranges over all minima and groups; tests compare final results of a few points only.", "anchors": ["src/minimum_tracer/minimum_tracer.cpp:MinimumTracer::IsGlobMin", "src/minimum_tracer/minimum_tracer.cpp:MinimumTracer::ReduceVEV", "src/minimum_tracer/minimum_tracer.cpp:MinimumTracer::ConvertToNonFlatDirections"]}
{"id": "C116", "title": "The bosonic thermal function for negative squared masses follows the tabulated values", "statement": "For a negative squared mass the bosonic thermal function returns the tabulated values at the tabulated points, the returned derivative is the derivative of the returned value, value and derivative continue the expansion for positive masses at zero, the two tables in the source agree, and no table is read outside its bounds.", "quantifier": "all negative squared masses and temperatures, all lines of the two tables of 3001 values", "why_tests_cant": "Tests compare a few values; the tables have 6002 entries and the function is used for every real number.", "anchors": ["src/ThermalFunctions/ThermalFunctions.cpp:JbosonInterpolatedNegative", "src/ThermalFunctions/ThermalFunctions.cpp:JbosonNegativeSpline", "include/BSMPT/ThermalFunctions/NegativeBosonSpline.h:NegLinearIntTransposed", "src/ThermalFunctions/NegativeBosonSpline.cpp:NegLinearInt", "src/models/ClassPotentialOrigin_deprecated.cpp:boson_legacy"]}
{"id": "C117", "title": "The table of MinimaTracer contains every traced minimum under its name", "statement": "The file that MinimaTracer writes for a point has one header and one row for each minimum of the longest phase, all with the same number of columns. Each minimum of each phase stands in its row under the columns of its phase, the columns of a phase that has ended hold nan, and no two columns of phases have the same name. The program accepts exactly the documented options.", "quantifier": "all models, all lists of phases of any number and length, all texts of input lines and all options", "why_tests_cant": "Ranges over any number of phases of any length; tests do not read the files that the programs write.", "anchors": ["src/prog/MinimaTracer.cpp:main", "src/prog/MinimaTracer.cpp:CLIOptions::good", "src/prog/MinimaTracer.cpp:CLIOptions::CLIOptions"]}
{"id": "C118", "title": "A search for the global minimum keeps exactly the runs that converged", "statement": "A local search reports success exactly if the algorithm converged within 600 iterations without a failed one, and then delivers the point it converged to. The search for the global minimum without threads starts from 600 points between -500 and 500 GeV, keeps the converged points in the order of the start points up to the wanted number, reports success exactly if there is one, and delivers the one with the lowest potential. It asks for 50 solutions if GSL is the only minimizer and for 20 otherwise. The evolution strategy returns a point whose potential is the value of the best candidate.", "quantifier": "all behaviours of the simplex algorithm and of the evolution strategy, all sequences of random numbers, all potentials and all numbers of fields", "why_tests_cant": "Ranges over all behaviours of the algorithms; tests see the global minimum of a few benchmark points.", "anchors": ["src/minimizer/MinimizeGSL.cpp:GSL_Minimize_From_S_gen_all", "src/minimizer/MinimizeGSL.cpp:GSL_Minimize_gen_all", "src/minimizer/LibCMAES/MinimizeLibCMAES.cpp:min_cmaes_gen_all", "src/minimum_tracer/minimum_tracer.cpp:MinimumTracer::GetGlobalMinimum"]}
{"id": "C119", "title": "A program called without option names treats its words as the help says", "statement": "In a call without option names the words become, letter for letter, the values of the options shown in the help of the program, in that order, and such a call passes the test for required options. With fewer words the program ends with an error of the parser. Arguments with option names reach the parser unchanged. Exactly the words shown in the help are required. Without arguments and for --help every program shows its help and ends with an error. Words beyond those of the help should be used or reported.", "quantifier": "all programs with a parser and all command lines", "why_tests_cant": "Ranges over all command lines of thirteen programs; the tests call the parser with a few arguments and no program.", "anchors": ["src/prog/BSMPT.cpp:convert_input", "src/prog/BSMPT.cpp:prepare_parser", "src/prog/PlotEWBG_vw.cpp:convert_input", "src/prog/VEVEVO.cpp:convert_input", "src/prog/PotPlotter.cpp:convert_input", "src/utility/parser.cpp:parser::enable_minimizer_options"]}
{"id": "C120", "title": "BSMPT, CalcCT, NLOVEV, TripleHiggsNLO, CalculateEWBG, PlotEWBG_nL, PlotEWBG_vw, Test and VEVEVO use each option for its purpose, refuse settings that make no sense, and their scans end", "statement": "Each setting of a program is read from its own option; switches are on exactly for the value true and have the documented default otherwise. Settings are accepted exactly if the model is known, the requested minimisers are available, the lines count from 1 and are in order, wall velocities are in (0, 1] and in order with a step above 0, and temperatures are non-negative and in order with a step above 0; everything else ends with a message or a runtime error. The scan over wall velocities or temperatures then ends and visits start, start + step, … up to the last value. VEVEVO starts each search at the minimum of the temperature before, the first one at the tree-level minimum.", "quantifier": "all nine programs, all parsed options, all values of the options including NaN, all steps and ranges", "why_tests_cant": "Ranges over all settings and all lengths of the scan; no test runs a program, and a scan that never ends cannot be observed.", "anchors": ["src/prog/PlotEWBG_vw.cpp:CLIOptions::good", "src/prog/VEVEVO.cpp:CLIOptions::good", "src/prog/VEVEVO.cpp:main", "src/prog/BSMPT.cpp:CLIOptions::good", "src/prog/CalculateEWBG.cpp:CLIOptions::CLIOptions", "src/prog/NLOVEV.cpp:CLIOptions::CLIOptions"]}
{"id": "C121", "title": "The tables of PlotEWBG_vw, PlotEWBG_nL and CreateMuGrid have the values under their names, for every input file", "statement": "For each text file in which the requested line exists, PlotEWBG_vw writes a header and one line per wall velocity, PlotEWBG_nL a header and 100 lines for the positions i * zmax / 100, CreateMuGrid a header and 1001 lines for the positions i * zmax / 1000 including both ends. Each line has the columns of the header, and each value stands under its name. Points without a strong transition give a line with these columns, too. A missing line ends the program with an error, an exception keeps the lines written before.", "quantifier": "all input files, line numbers, lists of velocities, results of the libraries and ways to write numbers without tabs", "why_tests_cant": "No test runs these programs; the property ranges over all files and all lengths of the scan.", "anchors": ["src/prog/PlotEWBG_vw.cpp:main", "src/prog/PlotEWBG_nL.cpp:main", "src/prog/CreateMuGrid.cpp:main", "src/baryo_calculation/CalculateEtaInterface.cpp:CalculateEtaInterface::legend"]}
{"id": "C122", "title": "CreateMuGrid uses the last value of each setting, refuses settings that make no sense and reports unknown arguments", "statement": "Called with names, each setting of CreateMuGrid is that of the last argument with its name, in any capitals and order, file names are taken letter by letter, and settings that are not given have the defaults of the help. Called without names the first four words are the model, the input, the output and the line. --help shows the help without an error; fewer than four arguments are an error. The program goes on exactly if the model is known, the line is at least 1, the velocity is in (0, 1] and the minimisers are available. Unknown arguments are reported.", "quantifier": "all command lines and all values of the settings", "why_tests_cant": "Ranges over all lists of arguments; no test runs the program, and undefined behaviour for unknown arguments need not show in a test.", "anchors": ["src/prog/CreateMuGrid.cpp:CLIOptions::CLIOptions", "src/prog/CreateMuGrid.cpp:CLIOptions::good", "src/utility/Logger.cpp:SetLogger"]}
{"id": "C123", "title": "The search for flat directions finds circles and spheres of minima and independent fields, and gives up exactly the fields it reports", "statement": "A potential that does not depend on a field is reported to be flat in it; one that depends on two or three fields only through the sum of their squares is reported to be flat in the pair or triple. Reported are exactly the tuples that pass the comparisons, each once. A field is given up exactly if it is flat on its own, or the second of a pair, or the second or third of a triple. Everything found is logged, and only directions in which the potential is flat are reported.", "quantifier": "all potentials of any number of fields", "why_tests_cant": "Ranges over all functions of any number of variables; tests use the potentials of a few models.", "anchors": ["src/minimum_tracer/minimum_tracer.cpp:MinimumTracer::FindFlatDirections"]}
{"id": "C124", "title": "The constructor of the vacuum structure runs the search of the chosen mode, keeps all phases found, and adds the electroweak minimum and the saved minima if they are new", "statement": "A potential that is unbounded at the lowest temperature gives the status failure and no phase. Otherwise the search of the chosen mode is run, mode 3 being the search from above and, if the global minima are not covered, the one from below; an exception in it ends the constructor. The electroweak minimum and the saved minima are traced if no phase has them; phases found before are kept with all their minima. The search from below looks at as many equally spaced temperatures as asked for, strictly inside of the range.", "quantifier": "all potentials, modes, temperature ranges, numbers of points and results of the tracer", "why_tests_cant": "Ranges over all outcomes of the tracer at all temperatures and over all modes, also those that no program passes on.", "anchors": ["src/minimum_tracer/minimum_tracer.cpp:Vacuum::Vacuum", "src/minimum_tracer/minimum_tracer.cpp:Vacuum::MultiStepPTMode2"]}
{"id": "C125", "title": "The smallest eigenvalue of the Hessian matrix is negative exactly if a direction of negative curvature exists", "statement": "For each list of finite eigenvalues the function gives the smallest one plus 1e-7, so that it is negative exactly if some eigenvalue is below -1e-7. For a symmetric Hessian matrix this is the smallest curvature over all directions. Eigenvalues that are not numbers are not hidden.", "quantifier": "all matrices of all sizes and all orders of the eigenvalues", "why_tests_cant": "Ranges over all matrices and directions; NaN among the eigenvalues does not occur in the tests.", "anchors": ["src/minimum_tracer/minimum_tracer.cpp:MinimumTracer::SmallestEigenvalue"]}
{"id": "C126", "title": "The second derivatives of eigenvalues are the mixed derivatives of the eigenvalue curves, and repeated eigenvalues are reported", "statement": "For each family of symmetric matrices with two parameters and simple eigenvalues the function gives the eigenvalues, and then for each of them the eigenvalue, its two first derivatives and the mixed second derivative, whatever the signs of the eigenvectors. A matrix that is not quadratic is refused, and an error is logged if eigenvalues are repeated.", "quantifier": "all sizes, all families of symmetric matrices and all choices of eigenvectors", "why_tests_cant": "Ranges over all differentiable families of matrices; the function is not called in any test.", "anchors": ["src/models/ClassPotentialOrigin.cpp:Class_Potential_Origin::SecondDerivativeOfEigenvaluesNonRepeated"]}
{"id": "C127", "title": "The tables of the K functions are laid out as they are read, and the interpolated functions agree with the integrals on the grid", "statement": "Filling a table raises no exception and puts the value for the i-th mass and the j-th temperature where it is looked for. Each interpolated function uses its own table and gives, at all points of the grid, the integral of its own number and statistics. The axes are strictly increasing from 0 to 200 squared and from 10 to 250, and a value exists exactly inside of this range, which is to contain all temperatures at which a critical temperature is searched for.", "quantifier": "all sizes of the grid, all points of the grid and all squared masses and temperatures", "why_tests_cant": "The tables have millions of entries and are generated by a separate program; tests look at a few values.", "anchors": ["src/Kfactors/KfactorsinterpolatedGSL.cpp:initializeK1fermionGrid", "src/Kfactors/KfactorsinterpolatedGSL.cpp:K1fermion", "src/Kfactors/KfactorsinterpolatedGSL.cpp:K9fermion", "src/prog/Kfactor_grid.cpp:CreateKfunctionsgrid"]}
{"id": "C128", "title": "The transport equations use the mass of the W boson and that of the top quark", "statement": "The mass of the W boson is found as the repeated mass among the gauge bosons: for a photon, two W bosons of equal mass and a heavier Z boson it is that of the W boson. The squared mass of the top quark is the largest squared mass of the quarks, and its derivatives are delivered in the order of the fields. Masses that are not numbers and lists that are too short raise an exception.", "quantifier": "all lists of masses and derivatives of all lengths, with and without NaN", "why_tests_cant": "Ranges over all spectra, also those of charge-breaking vacua and of points at which the eigenvalues are not numbers.", "anchors": ["src/baryo_calculation/transport_equations.cpp:transport_equations::get_W_mass", "src/baryo_calculation/transport_equations.cpp:transport_equations::get_top_mass_and_derivative"]}
{"id": "C129", "title": "The wall thickness is measured at the highest point of the potential found between the two vacua", "statement": "The search for the barrier between the two vacua repeats a one-dimensional maximisation from random guesses until enough of them have converged, takes the highest of the positions found and measures the height there. Each run that is accepted has enclosed its maximum as narrowly as is demanded. The thickness is the one of the formula for that height and the distance of the vacua. The search ends for every potential, and a guess that is unsuitable or a point of the wrong length is refused.", "quantifier": "all potentials, all sequences of random guesses, all behaviours of the one-dimensional minimiser and all numbers of fields", "why_tests_cant": "Ranges over all potentials and all sequences of random guesses; a search that never ends cannot be observed by a test.", "anchors": ["src/WallThickness/WallThickness1D.cpp:GSL_Find_Maximum_line", "src/WallThickness/WallThickness1D.cpp:GSL_Maximize_From_S_gen_line", "src/WallThickness/WallThickness1D.cpp:calculate_wall_thickness_1D"]}
{"id": "C130", "title": "The statistical factors of the transport equations are computed over a range of momenta that is large enough", "statement": "The statistical factor of a particle is normalised such that it is 1 for a massless fermion, is computed up to 2e-5 although the range of integration is finite, is positive, at most 1 and falls with the mass. The rates integrate over momenta from 0 to 10000, and a result that is not a number raises an exception.", "quantifier": "all masses and temperatures", "why_tests_cant": "The error of cutting off the integral has to be bounded for all masses and temperatures; tests compare single numbers with numbers of the same program.", "anchors": ["src/baryo_calculation/Fluid_Type/gen_func_fluid.cpp:NIntegrate_kappa", "src/baryo_calculation/Fluid_Type/gen_func_fluid.cpp:Calc_kappa_t::operator()", "src/baryo_calculation/Fluid_Type/gen_func_fluid.cpp:Nintegrate_GamM", "src/baryo_calculation/Fluid_Type/gen_func_fluid.cpp:Nintegrate_Scp"]}
{"id": "C131", "title": "The thermal integrals computed numerically are the thermal integrals, and their derivative mode is the derivative", "statement": "The numerical integration of the thermal functions of bosons and of fermions gives the integral over all momenta up to an error of 1e-9, although the range of integration ends at 30. Its derivative mode is exactly the derivative of its value mode and agrees with the derivative of the thermal function up to 1e-9. Other modes give zero.", "quantifier": "all squared masses over squared temperatures and all modes", "why_tests_cant": "The error of cutting off the integral, and the exchange of derivative and integral, concern all of the infinitely many arguments.", "anchors": ["src/ThermalFunctions/ThermalFunctions.cpp:JbosonNumericalIntegration", "src/ThermalFunctions/ThermalFunctions.cpp:JfermionNumericalIntegration", "src/ThermalFunctions/ThermalFunctions.cpp:JbosonIntegrand", "src/ThermalFunctions/ThermalFunctions.cpp:JfermionIntegrand"]}
{"id": "C132", "title": "The searches in a plane stay in the plane and deliver the lowest minimum they found", "statement": "In the search for a minimum in a plane every minimiser sees the potential on the plane only and delivers a point of the plane. The simplex search starts from random points with coordinates between -500 and 500, converges to one millionth within 600 iterations or reports failure, and the lowest of its minima is chosen, with its own potential value and electroweak VEV. NLopt searches each coordinate in the interval of the field it belongs to, and CMAES starts at the broken vacuum. If no run converges this is reported.", "quantifier": "all planes, potentials and numbers of fields, all random numbers and all behaviours of the external minimisers", "why_tests_cant": "Ranges over all planes, random numbers and outcomes of the external libraries, including their failures.", "anchors": ["src/minimizer/MinimizePlane.cpp:GSL_Minimize_Plane_From_S_gen_all", "src/minimizer/MinimizePlane.cpp:GSL_Minimize_Plane_gen_all", "src/minimizer/MinimizePlane.cpp:GSL_VEFF_Minimize_Plane", "src/minimizer/LibNLOPT/MinimizeNLOPT.cpp:MinimizePlaneUsingNLOPT", "src/minimizer/LibCMAES/MinimizeLibCMAES.cpp:CMAES_Minimize_Plane_gen_all"]}
{"id": "C133", "title": "The diagram of the phases shows all phases where they exist, and vacua change coordinates without loss", "statement": "In the diagram each phase has a bar as wide as the diagram, with a dot exactly where the phase exists, and a curve from its lowest to its highest temperature with a marker that can be seen. Taking the coordinates of the minimiser out of a vector of all fields undoes their embedding, for all models and values.", "quantifier": "all lists of phases, ranges of temperatures, widths of the diagram, models and field values", "why_tests_cant": "Ranges over all numbers and positions of phases; tests never print the diagram.", "anchors": ["src/minimum_tracer/minimum_tracer.cpp:Vacuum::PrintPhasesDiagram", "src/minimum_tracer/minimum_tracer.cpp:MinimumTracer::ConvertToVEVDim"]}
{"id": "C134", "title": "The spectrum printed on the terminal gives every Higgs boson its own name, mass and composition", "statement": "When the programs print a model on the terminal, the mass printed under a name is the mass of the state whose composition is printed under that name; of the three neutral bosons of the N2HDM, C2HDM and CxSM the one called H_SM lies between 124 and 126 GeV and H_l is not heavier than H_h; the CP-even, CP-odd, charged, Goldstone and dark states are found among the states that contain these fields; the signs and moduli printed give the coefficients.", "quantifier": "all rotation matrices, masses and mixing angles of the R2HDM, N2HDM, C2HDM, CxSM and CP in the Dark", "why_tests_cant": "Ranges over all spectra: the order of the masses, which of them is SM-like and which rows mix; the tests never look at the text.", "anchors": ["src/models/ClassPotentialR2HDM.cpp:Class_Potential_R2HDM::write", "src/models/ClassPotentialN2HDM.cpp:Class_Potential_N2HDM::write", "src/models/ClassPotentialC2HDM.cpp:Class_Potential_C2HDM::write", "src/models/ClassPotentialCxSM.cpp:Class_CxSM::write", "src/models/ClassPotentialCPintheDark.cpp:Class_Potential_CPintheDark::write"]}
{"id": "C135", "title": "Solving spline(x) = y finds all solutions, in increasing order", "statement": "The zeros of a polynomial of degree up to three that is not zero are found exactly, without repetition and in increasing order. Solving spline(x) = y for a spline finds exactly the arguments at which the spline has the value y, on all pieces and, if asked for, on the extrapolations.", "quantifier": "all real coefficients, numbers of Newton steps, splines, numbers of nodes and values", "why_tests_cant": "Ranges over all polynomials, including those with double and triple zeros, and over all splines.", "anchors": ["src/utility/spline/spline.cpp:spline::solve", "src/utility/spline/spline.cpp:solve_cubic", "src/utility/spline/spline.cpp:solve_quadratic", "src/utility/spline/spline.cpp:solve_linear"]}
{"id": "C136", "title": "The baryogenesis calculation starts from equivalent vacua near the tree-level vacuum", "statement": "At its start the calculation of the baryon asymmetry replaces each of the two vacua by a copy under one of the sign symmetries of the model if the vacuum is too far from the tree-level vacuum: the first symmetry that brings it near enough is taken, the copy has the same potential, it is never farther from the tree-level vacuum, and replacing it again changes nothing. Velocity, temperature, electroweak VEV, wall thickness, end of the integration and the masses for the phases are those of these vacua.", "quantifier": "all models, symmetries, tree-level vacua, pairs of vacua, temperatures and wall velocities", "why_tests_cant": "Ranges over all symmetries and vacua, including those whose lengths do not match.", "anchors": ["src/baryo_calculation/transport_equations.cpp:GSL_integration_mubl::init", "include/BSMPT/baryo_calculation/transport_equations.h:GSL_integration_mubl"]}
{"id": "C137", "title": "The CP-violating phases are the phases of the fermion masses", "statement": "The complex quark and lepton masses at a vacuum are the Yukawa couplings times the neutral doublet component they couple to, each with both signs, and zeros for the neutrinos; real and imaginary parts below 1e-10 are dropped. The phases of top quark, bottom quark and tau lepton used by the baryogenesis calculation are the phases of these masses in [-pi/2, pi/2], independent of the sign convention; phases below 1e-14 count as zero.", "quantifier": "all vacua that preserve the electric charge, Yukawa types, quark and lepton masses, and all orders in which an eigenvalue routine may list its results", "why_tests_cant": "Ranges over all vacua and all orders of the eigenvalues.", "anchors": ["src/baryo_calculation/transport_equations.cpp:GSL_integration_mubl::init", "src/models/ClassPotentialOrigin.cpp:Class_Potential_Origin::QuarkMasses", "src/models/ClassPotentialOrigin.cpp:Class_Potential_Origin::LeptonMasses"]}
{"id": "C138", "title": "Masses can be asked for with all fields or with those of the minimizer", "statement": "The functions for mass matrices and squared masses accept a vector with all fields or one with the fields the minimizer uses, and give the same answer for both; a vector of another length and a model without tensors are refused with an exception, and no call reads past the end of its vector.", "quantifier": "all models, vectors of all lengths, temperatures and numbers of a derivative", "why_tests_cant": "Ranges over all lengths of the vector and all requested derivatives; reading past the end of a vector often goes unnoticed in a test.", "anchors": ["src/models/ClassPotentialOrigin.cpp:Class_Potential_Origin::HiggsMassMatrix", "src/models/ClassPotentialOrigin.cpp:Class_Potential_Origin::HiggsMassesSquared", "src/models/ClassPotentialOrigin.cpp:Class_Potential_Origin::GaugeMassesSquared", "src/models/ClassPotentialOrigin.cpp:Class_Potential_Origin::QuarkMassesSquared", "src/models/ClassPotentialOrigin.cpp:Class_Potential_Origin::LeptonMassesSquared", "src/models/ClassPotentialOrigin.cpp:Class_Potential_Origin::QuarkMassMatrix", "src/models/ClassPotentialOrigin.cpp:Class_Potential_Origin::LeptonMassMatrix"]}
{"id": "C139", "title": "The search for the global minimum returns the lowest point found by any library", "statement": "The minimum returned is the point of lowest potential among the origin and all points delivered by the selected minimizer libraries, completed consistently to all fields; a failing library contributes no point, and the result never has a higher potential than the origin.", "quantifier": "all potentials, numbers of fields, selections of minimizers, start points, tree-level vacua and results of the libraries", "why_tests_cant": "Ranges over all potentials and all answers of the three libraries.", "anchors": ["src/minimizer/Minimizer.cpp:Minimize_gen_all", "src/minimizer/Minimizer.cpp:Minimize_gen_all_tree_level", "src/minimizer/LibNLOPT/MinimizeNLOPT.cpp:MinimizeUsingNLOPT", "src/minimizer/LibNLOPT/MinimizeNLOPT.cpp:FindLocalMinimum", "src/minimum_tracer/minimum_tracer.cpp:MinimumTracer::GetGlobalMinimum"]}
{"id": "C140", "title": "The reported signal-to-noise ratios fit together", "statement": "The three ratios reported for a transition are those of the sound waves, the turbulence and both between 1e-6 and 10 Hz in three years. The total one is at most the sum of the two and at least the root of the sum of their squares, so no part alone has a larger ratio. A ratio grows with the square root of the duration, never falls when the range of frequencies is widened, is positive for a signal and zero without one.", "quantifier": "all parameters of transitions, ranges of frequencies and durations", "why_tests_cant": "Inequalities between integrals over a range of frequencies for all parameters.", "anchors": ["src/gravitational_waves/gw.cpp:GravitationalWave::GetSNR", "src/gravitational_waves/gw.cpp:Nintegrate_SNR", "src/gravitational_waves/gw.cpp:snr_integrand", "src/transition_tracer/transition_tracer.cpp:TransitionTracer::TransitionTracer"]}
{"id": "C141", "title": "The one-loop potential counts every particle with its degrees of freedom", "statement": "The one-loop potential is the sum of the Coleman-Weinberg and the thermal contributions of all particles: scalars count once, gauge bosons three times, leptons with -2 and quarks with -2 for every colour; the subtraction is 3/2, for gauge bosons 5/6; the resummed masses enter with -T/(12 pi) times the difference of their powers 3/2. A change of the renormalisation scale changes it by the supertrace of the fourth powers of the masses times the logarithm of the scales, at every temperature.", "quantifier": "all spectra, temperatures, numbers of particles and scales", "why_tests_cant": "The sum must be right for every number of particles and every spectrum, including negative and vanishing masses.", "anchors": ["src/models/ClassPotentialOrigin.cpp:Class_Potential_Origin::V1Loop", "src/models/ClassPotentialOrigin.cpp:Class_Potential_Origin::boson", "src/models/ClassPotentialOrigin.cpp:Class_Potential_Origin::fermion", "src/models/ClassPotentialOrigin.cpp:Class_Potential_Origin::CWTerm"]}
