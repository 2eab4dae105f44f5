[
 [
  "C01",
  "`convert_temperature` with the name lists as code has them",
  "case split on scales, field arithmetic"
 ],
 [
  "C02",
  "`convert_energy`, `.lower()` on `List Char`",
  "same; the names `hartree`/`rydberg` are rejected: violation theorem + partial"
 ],
 [
  "C03",
  "`convert_pressure`",
  "linear factors"
 ],
 [
  "C04",
  "`convert_frequency`, `convert_lenght`, `convert_volume`",
  "linear factors, cube law"
 ],
 [
  "C05",
  "`energy_to_pressure`, `pressure_to_energy`",
  "factorisation through SI factors"
 ],
 [
  "C06",
  "heap-passing model of the in-place operators",
  "violation witness; partial for the other converters"
 ],
 [
  "C07-C11",
  "`ho_*` over the reals, array kernels as sums",
  "calculus in Mathlib (`exp`, `log`, `HasDerivAt`), `Finset` sums"
 ],
 [
  "C12",
  "rows as writes to disjoint cells of a store, arbitrary interleavings",
  "commutation, induction on the schedule"
 ],
 [
  "C13",
  "list kernels",
  "`List.Perm`, induction"
 ],
 [
  "C14",
  "`HACalculator.run` composed from the kernels and converters",
  "algebra on top of C02, C07"
 ],
 [
  "C15, C16",
  "`thermodynamics.pyx`, `_finalize_run`",
  "field arithmetic under the code's guards"
 ],
 [
  "C17",
  "`np.arange` as ceil-length list",
  "floor/ceil; overshoot witness (violated) + partial"
 ],
 [
  "C18",
  "`fine_grid`",
  "list/`Fin` arithmetic"
 ],
 [
  "C19",
  "`_finalize_run` expansion loop",
  "list induction"
 ],
 [
  "C20",
  "`find_polynomial_minimum`, candidate filter over roots",
  "second-derivative test from Mathlib"
 ],
 [
  "C21",
  "Horner / `polyval` loops",
  "induction on coefficients"
 ],
 [
  "C22",
  "R2 loops",
  "algebra; orthogonality as hypothesis for least squares"
 ],
 [
  "C23, C24",
  "five P(V) formulations, all orders",
  "`HasDerivAt` computations; Vinet K'' violated"
 ],
 [
  "C25, C26",
  "four E(V) formulations, `pressure`",
  "`HasDerivAt`; BM and PT violated"
 ],
 [
  "C27",
  "monotonicity",
  "sign of derivative"
 ],
 [
  "C28, C29",
  "fit set-up, session state machine",
  "case analysis; induction over histories; tripling witness"
 ],
 [
  "C30",
  "answer streams",
  "induction over the stream"
 ],
 [
  "C31-C38",
  "Voigt maps and contractions over `Fin 3`, `Fin 6`",
  "finite sums + `ring`; Cauchy-Schwarz for the bounds"
 ],
 [
  "C39, C40",
  "Christoffel gradient/Hessian",
  "polynomial identities, `HasDerivAt`, Cauchy-Schwarz"
 ],
 [
  "C41",
  "cache state machine",
  "invariant by induction over operations"
 ],
 [
  "C42",
  "`arctan2` argument order",
  "violation witness, partial statement on theta"
 ],
 [
  "C43",
  "scan loop and `read_data`",
  "`Fin` product bijection, list counting"
 ],
 [
  "C44",
  "classifier decision list",
  "case analysis; soundness; sign conventions"
 ],
 [
  "C45, C46",
  "`any(eigv) <= 0`, `directional_variation`",
  "violation witnesses + partials"
 ],
 [
  "C47-C49",
  "reader/writer at character level",
  "Python string model, induction"
 ],
 [
  "C50, C51",
  "EoS reader at character level",
  "induction over lines"
 ],
 [
  "C52, C53",
  "phonon reader over parsed trees, generator state",
  "induction, history witness"
 ],
 [
  "C54",
  "HDF5 reader",
  "case analysis"
 ],
 [
  "C55",
  "table writer at character level",
  "width lemmas, rank witness"
 ],
 [
  "C56-C60",
  "interfaces",
  "index algebra, state machines, induction"
 ],
 [
  "C61",
  "symbol table",
  "injectivity of the table by kernel computation plus general statement over all strings"
 ],
 [
  "C62",
  "both cofactor branches",
  "adjugate in Mathlib"
 ],
 [
  "C63",
  "integrands",
  "calculus; entropy term violated"
 ],
 [
  "C64",
  "projections",
  "trigonometry"
 ],
 [
  "C65",
  "column maps",
  "case analysis"
 ],
 [
  "C66, C67",
  "option logic, shared flags",
  "case analysis, induction on histories"
 ],
 [
  "C68",
  "Gibbs, Helmholtz, enthalpy and internal energies of `_finalize_run` and the run loop",
  "algebra on the composed kernels"
 ],
 [
  "C69",
  "`calculate_isothermal_bulk_modulus` on both paths",
  "uniqueness of least squares, `HasDerivAt`"
 ],
 [
  "C70",
  "calculator's use of the reader's attributes for Kieffer's option",
  "case analysis: the missing attribute is hit by every such run"
 ],
 [
  "C71",
  "axial fit set-up for the five formulations",
  "algebra of length and volume strain"
 ],
 [
  "C72",
  "Christoffel matrix and wave data at `q` and `-q`",
  "matrix algebra"
 ],
 [
  "C73",
  "isotropic wave velocities, ratio from the averages",
  "order arithmetic from positive moduli"
 ],
 [
  "C74",
  "power flow and enhancement of an isotropic medium",
  "algebra on top of C39; `EighCorrect`, `PinvCorrect`"
 ],
 [
  "C75",
  "EoS reader as a fuelled machine over lines",
  "termination measure; looping title witness"
 ],
 [
  "C76",
  "density line of the CRYSTAL reader",
  "induction over lines"
 ],
 [
  "C77, C78, C79, C80, C81",
  "CRYSTAL phonon and quasi-harmonic readers at character level",
  "text specification of an output, loops by induction, class-level state explicit"
 ],
 [
  "C82",
  "phonon reader on parsed YAML trees",
  "array shape lemmas, witnesses of zeros and repeated values"
 ],
 [
  "C83",
  "phonopy interface on parsed trees",
  "case analysis"
 ],
 [
  "C84",
  "reference number of the quasi-harmonic generator",
  "index arithmetic"
 ],
 [
  "C85",
  "writer at character level, specification of the YAML fragment it uses",
  "grammar-free reading relation, width lemmas, round trip"
 ],
 [
  "C86, C87",
  "exporters: dialogue over an answer stream, files as a finite map, shared dictionaries",
  "induction over dialogues and histories"
 ],
 [
  "C88",
  "units recorded in the result files",
  "unit algebra against the SI factors of C02-C05"
 ],
 [
  "C89, C90, C91, C92",
  "commands as functions from options, files and calculators to files, screen and outcome",
  "case analysis over every option, induction over message lists"
 ],
 [
  "C93",
  "table of documented and registered commands",
  "finite table, complete comparison"
 ],
 [
  "C94, C95, C96, C99",
  "polar sections, searches as parameters, saved arrays, plotted curves",
  "Hooke's law for all stable solids, periodic continuity, finite unit algebra"
 ],
 [
  "C97, C98",
  "elastic and seismic tables at character level",
  "tokens of lines, induction over rows"
 ],
 [
  "C100, C101",
  "starting values of the fits; polyfit and roots as parameters with their defining properties",
  "uniqueness of least squares, factorisation of the derivative, derivative tests"
 ],
 [
  "C102",
  "static pressures of the input report: numpy's gradient and the E(V) pressures",
  "mean value theorem, strict convexity, C25/C26 for the equations of state"
 ],
 [
  "C103",
  "`value(error)` lines at character level over the rationals",
  "reading relation with unique result, digit lemmas"
 ],
 [
  "C104, C105",
  "formulas of C23-C27; optimum of the external fit as a specification (least squares, orthogonal distances)",
  "repeated Rolle arguments on the difference of two curves, algebra of the coefficients"
 ],
 [
  "C106",
  "`normalize` of the P(V) classes, caller's array as part of the result",
  "algebra of powers of the volume ratio; counterexample for every second-order axial fit"
 ],
 [
  "C107",
  "`report_fit`, `get_label`, `DATA_TYPES`; output of the fitting routine as a record",
  "cells of a line as tokens, numerals within rounding; the flags against the equation of state itself; counterexample for every large residual"
 ],
 [
  "C108",
  "`read_input`, `report_input_data` after the reader of C50",
  "the reader theorem composed with the layout of the table"
 ],
 [
  "C109",
  "`report_results`, numbers over the rationals, the conversion of the last column over the reals",
  "cells of a line as tokens; the conversion against the run of C16 and C68; counterexample for every run in bohr"
 ],
 [
  "C110",
  "`__report_frequency_fit`",
  "cells of a line as tokens; counterexample from the value of `multi_R2` for constant data"
 ],
 [
  "C111",
  "`report_input_data`, `report_initial_results`, the tables of extremes and their order in `run` of the elastic calculator",
  "cells of a line as tokens; counterexample for every run without a density"
 ],
 [
  "C112",
  "`report_input_data` of the harmonic calculator and `read_input` of the quasi-harmonic one, on the reader of C52",
  "from the values the reader gives for a complete input; counterexample for every input with a number as volume"
 ],
 [
  "C113",
  "print_settings of the five commands as text with newlines",
  "lines of the text described by a specification of settings, numbers and ranges; uniqueness of the split into lines and of the tokens gives that the text determines the settings"
 ],
 [
  "C114",
  "read_input of the seismic calculator composed with the reader of C47, constructor of Seismic, report_input_data",
  "from C47 for the values read; case split on density and determinant; counterexamples for every negative density and every singular matrix"
 ],
 [
  "C115",
  "`MostSimilarCommandGroup.get_command` and the tables of registered commands; difflib's ratio a parameter",
  "order and bound of the candidates by induction; case split on the fallback"
 ],
 [
  "C116",
  "the model of C31 to C36; frames as orthogonal matrices, turned crystals by Hooke's law",
  "contractions of the tensor along vectors are invariant; averages as traces of the tensor; symmetry operations as the case of equal matrices"
 ],
 [
  "C117",
  "the model of C37 to C42",
  "Christoffel matrix, gradient and Hessian as contractions; uniqueness of the spectrum and of simple eigenvectors up to sign; pseudo-inverse and cofactors of turned matrices"
 ],
 [
  "C118",
  "The state machine of `Seismic` with `groupDir` and `enhancement`; `Spec.area` is the area of a parallelogram.",
  "First-order perturbation: Weyl-type bound on eigenvalues, expansion of spectral projectors with a big-O remainder, hence the derivative of the gradient of an eigenvalue is the Hessian the code computes; quotient rule for the normalised gradient; the cofactor matrix of the derivative scales areas."
 ],
 [
  "C119",
  "the models of C32, C33, C36 and C37; spec: Hooke's law, triads of directions",
  "completeness of a triad, Cauchy-Schwarz between a strain and a stress in the energy of the crystal, extremal property of the eigenvalues, trace"
 ],
 [
  "C120",
  "QHA.Model (run, findPolynomialMinimum), QHA.Pressure",
  "Mean value theorem between the two equilibrium volumes; the curvature of a cubic is positive between two volumes where it is positive."
 ],
 [
  "C121",
  "QHA.Model (run), HA.Model, QHA.Temperature",
  "A least-squares fit is a linear map of the data, so it commutes with temperature derivatives; the harmonic laws C08 carry over; bracket by convexity and the mean value theorem."
 ],
 [
  "C122",
  "Elastic.Model, Seismic.Model (Elastic.Scaling, Seismic.Scaling)",
  "Homogeneity of the compliance, of the eigenvalues (uniqueness of the spectrum) and of the pseudo-inverse with its relative threshold; the powers cancel in the enhancement factor."
 ],
 [
  "C123",
  "HA.run and QHA.run on two inputs related by Spec.Copies",
  "a least-squares fit of rescaled data is the rescaled fit (uniqueness); minima of a cubic are unique; mode sums are linear in the mode list; quotients of the final step are homogeneous"
 ],
 [
  "C124",
  "EOS.fit as the best fit among admissible parameters (Fitted), weights of RealData, held parameters; E(V) curves and best fits",
  "scaling of each formula; bijection between admissible parameters that multiplies the misfit by a constant; violation by the slope of the misfit of a straight line at two weights"
 ],
 [
  "C125",
  "stiffness matrices of the crystal classes (Elastic/ClassesSpec.lean), Elastic and Seismic models unchanged",
  "each class is invariant under its rotation as a fourth-rank tensor (finite case check on components); then frame independence C116/C117 transports values; velocities along special directions by exhibiting an orthonormal eigenframe of the Christoffel matrix and uniqueness of the spectrum"
 ],
 [
  "C126",
  "StatMech model unchanged",
  "scaling reduces entropy and heat capacity to the monotonicity in temperature (C11); thermal energy by x/(e^x-1) = e^(-x/2) (x/2)/sinh(x/2); free energy termwise; derivatives by the chain rule"
 ],
 [
  "C127",
  "QHA/Model (run), HA/Model",
  "QHA/Rigid: a fit of constant data is constant, a shift of the energies shifts only the constant coefficient, so minima and derivatives stay"
 ],
 [
  "C128",
  "QHA/Model (run), HA/Model",
  "QHA/Rigid: least squares with as many coefficients as points passes through the points (injective evaluation map is surjective)"
 ],
 [
  "C129",
  "`SOEC`, `Seismic` (Elastic/Model, Seismic/Model)",
  "order of quadratic forms, order of inverses, monotone sorted eigenvalues (Elastic/Stiffer, Seismic/Stiffer)"
 ],
 [
  "C130",
  "`longitudinal_wave`, `shear_wave_1`, `shear_wave_2`, `phase_velocity_variation` (Seismic/SumRules)",
  "trace of the acoustic matrix over a triad; compactness of the sphere and continuity of sorted eigenvalues"
 ],
 [
  "C131",
  "Export/Generic.lean: texts of the result files, read_input, get_file_data, _set_style, QHATableFile, export_data and run as a machine on input lines",
  "Texts as infixes of lists of characters (split at line ends); tables by the lemmas of C55; sessions and untouched files by induction on the input"
 ],
 [
  "C132",
  "Seismic/Figures.lean: entries of the table of figures, argmax and argmin, panels, plane figures, ratios, spheres; the file is that of a completed scan",
  "lists of nodes by index arithmetic, argmax by induction with the largest element of the prefix as invariant; values by C65 and C43; opposite points by the inversion symmetry C72; order of the waves by C37"
 ],
 [
  "C133",
  "Directional properties, averages and wave speeds of the elastic command (already modelled); the mean over directions and over pairs of perpendicular directions as integrals.",
  "Second and fourth moments of the direction over the sphere by integration of trigonometric monomials; contraction with the tensors; the two invariants of the compliance; monotonicity of the mean for the bounds."
 ],
 [
  "C134",
  "The whole quasi-harmonic run (QHA/Model.lean).",
  "Both schemes reduce to the oscillator functions at T = 0; linearity of least squares for the default scheme; the two branches of the final step."
 ],
 [
  "C135",
  "The whole quasi-harmonic run (QHA/Model.lean).",
  "Bounds of the oscillator functions (C09) at the interpolated frequencies; a jump of the frequency and a parabola for the counterexample."
 ],
 [
  "C136",
  "the P(V) curves of EoS/Model",
  "intermediate value theorem with a lower bound of each curve, strict monotonicity (C27); explicit inverse for Tait"
 ],
 [
  "C137",
  "the converters of Units/Model with the constants of scipy",
  "SI sizes as a separate specification; the converters at the CODATA constants; C69 for the bulk modulus"
 ],
 [
  "C138",
  "Report/Job.lean: the attributes of the reader, the name each command records (harmonic.py:311, qha.py:1247), the texts of Export/Generic.lean",
  "the fourth line of the text is the job line, by the line splitter's lemma; violated theorems hold for every reader"
 ],
 [
  "C139",
  "Poly/Derivative.lean: np.gradient with unit spacing, the quotient and the tests of lengths",
  "mean value theorem for the chord between the neighbours; exact algebra for lines and parabolas"
 ],
 [
  "C140",
  "QHA/Model.lean (run, minimisation, finalizeRun), HA/Model.lean at a single temperature",
  "QHA/Expansion.lean: linearity of the slope of the fit in the data, mean value theorem in temperature (down to 0 K by C10) and in volume; raw-data corollary by interpolation at three volumes and strict monotonicity of the entropy in the frequency"
 ],
 [
  "C141",
  "Existing elastic and seismic models (soec, step); spec Resists/Close/Within on Hooke's law",
  "Perturbation of the energy form by at most 6t times the strain norm; then monotonicity (C129) and scaling (C122)"
 ],
 [
  "C142",
  "Chain/Model.lean: generate (input generator: reader, prompt, writer), readInput (reader, elastic object, classifier), then Elastic.run.",
  "Composition of C58, C76, C49, C44, C46 with the sensitivity bounds of C141; Elastic/Near.lean shows that the closed forms used for nearly orthorhombic crystals are the properties of a crystal between two multiples of the exact one (mean over rotations by 180 degrees)."
 ],
 [
  "C143",
  "Export/Generic.lean: haInfo, qhaInfo (the texts of harmonic.py:297-312 and qha.py:1230-1251).",
  "Report/Info.lean: the list of lines of each text for arbitrary names without line ends; headings are told apart by their first twelve characters; the values are recovered from the lines, hence injectivity."
 ],
 [
  "C144",
  "Chain/PhononModel: both commands composed from the models of the CRYSTAL reader, the generator, the input reader and the harmonic calculator",
  "C53_fresh_partial, C85_one_tree, C85_read and C77_gamma give the input exactly; the kernels are sums over Fin, turned into weighted means over lists; oscillator functions from the geometric partition sum and derivatives"
 ],
 [
  "C145",
  "StatMech/BinaryModel.lean: the five functions with every operation rounded, in the order of the code; StatMech/BitwiseModel.lean: the parallel loops over numbers of any kind",
  "relative errors as factors exp(theta) carried through the operations, a bound for expm1 of a perturbed argument from convexity, induction over the sum"
 ],
 [
  "C146",
  "the two ways of evaluating a polynomial with every operation rounded (Poly/Binary.lean)",
  "induction over the coefficients: the error grows by one factor (1+u) per operation; loops interchanged by induction"
 ],
 [
  "C147",
  "Chain/DispersionModel: the generator on quasi-harmonic outputs composed with the readers; Chain/DispersionSpec describes the data in an output per unit cell",
  "C78_dispersion_partial and C60_cells_partial give what is read, C53_fresh_partial the text, C144_input the harmonic results"
 ],
 [
  "C148",
  "Chain/QuasiModel: read_input and run of the quasi-harmonic command on a tree; Chain/QuasiSpec: equilibrium volumes and interpolated vibrations",
  "C85_read gives the arrays, C144_input the harmonic results, C20_run_succeeds_iff and C20_equilibrium_volume the volumes, C68 the interpolated functions; cubic polynomials by their expansion around the minimum"
 ],
 [
  "C149",
  "Chain/PhonopyModel (the directory of a phonopy calculation and the properties the generator uses), composed with Phonon/Phonopy, Phonon/Writer, Phonon/Reader, HA/Model and QHA/Model",
  "The reader theorem C83_read_partial gives the data of each calculation; the generated file fixes an input whose frequencies are the ten-decimal roundings; C144_input and C148_input are applied to that input. The default units are refuted by comparing hartree and electronvolt"
 ],
 [
  "C150",
  "QHA/EosMinSpec: best fits, F + pV, the curve less pV; the run of QHA/Model",
  "QHA/EosMin, EosMinBirch: C69 and C104 with the calculus of C25; Murnaghan is closed under adding pV; explicit Birch–Murnaghan counterexample, scaled to any pressure and volume; EosMinCases"
 ],
 [
  "C151",
  "reader, session, regression setup and report of a fit joined (Chain/EosModel)",
  "C50 gives the columns, C105 that parameters of least misfit have the true curve, C30 the state of the session at each fit, C107 the lines of the log"
 ],
 [
  "C152",
  "Units/BinaryModel: every branch of the converters with each operation rounded; Units/BinarySpec: the machine and the error bounds in the reference unit",
  "Number of relative errors carried through the exact chain (Near), closed under products, quotients, rounding and powers; absolute error analysis for the temperatures"
 ],
 [
  "C153",
  "Chain/TableSpec (Tabulated, Holds, Shows, Exports); no new model: inpgen, harmonic, saveHa and Generic.readInput of the earlier areas composed",
  "Line and column of each entry by the structure of the table text; error of the printed number combined with the error of the saved number"
 ],
 [
  "C154",
  "Elastic/BinaryModel: vector, S_ijkl, the loops, averages with a rounding after every operation; Adds for the order of np.einsum",
  "Bnd (number of roundings of a quantity of a given size) closed under products, sums, rounding; accumulate_bnd for the loops; reciprocal with condition number"
 ],
 [
  "C155",
  "Chain/QuasiTableSpec (reported, HoldsQuasi, Heads, ShowsQuasi, ExportsQuasi, Tabled); no new model: inpgen, quasiHarmonic, saveQha and Generic.readInput of the earlier areas composed",
  "Line and column of each entry by the structure of the table text; error of the printed number combined with the error of the saved number; equilibrium volumes from C148"
 ],
 [
  "C156",
  "The command reading an input file (Chain.readInput), the sections, the result file, the exporter and its tables",
  "C47, C94 and C97 chained; the rows of the saved tables are matched with the calculated ones, and rounding to one and four decimals is added to the error of the saved numbers"
 ],
 [
  "C157",
  "Seismic, as for C37-C40; the displacement fields, Hooke's law, Newton's law, flux and density of energy are a specification of their own (MotionSpec) with derivatives of Mathlib",
  "differentiate the cosine; the Christoffel matrix is the acoustic matrix; the gradient of the eigenvalue is twice the flux by the symmetries of the tensor; expansion in the frame for the converse"
 ],
 [
  "C158",
  "composition of the models of the reader, the seismic object, the scan, the result file and the exporter; saved numbers are rationals with a relative error",
  "composition of C114, C37, C39, C157, C43 and C98; the isotropic velocities are those of the Hill moduli written out in the specification"
 ],
 [
  "C159",
  "QHA.Model.run on two grids, Spec.onGrid / Spec.alone / SameNode",
  "row of each kernel depends on its own temperature; seqFin over nodes; finalisation nodewise; concrete 60- and 2-temperature runs for the violation"
 ],
 [
  "C160",
  "The models of C33-C38; isotropic media and cubic crystals as in C36 and C125; 'between' is the energy order of C129.",
  "Monotonicity in the energy order (C129) between the crystal and the two media, whose values are constants; the energy of a cubic crystal is a sum of squares with the bulk modulus and the two shear constants as weights; explicit stresses for the directions that attain the bounds."
 ],
 [
  "C161",
  "Seismic/BinaryModel: SOEC.phase_velocity and Seismic.phase_velocity with every operation rounded; a matrix product is a relation that allows any order of summation and fused multiply-add; eigh reads the lower triangle.",
  "Backward error of sums of products by induction over the order of summation; Weyl's inequality for 3x3 matrices from the monotonicity of the spectrum (C129); relative error through the square root."
 ],
 [
  "C162",
  "EoS/BinaryModel: the five eos methods and the four energies with every operation rounded and the library functions as parameters",
  "forward error analysis with running bounds, range lemmas for powers; a tie-to-even computation for the violation"
 ],
 [
  "C163",
  "QHA/BinaryModel: the expansion loop, the heat capacity correction and the four kernels of thermodynamics.pyx with every operation rounded",
  "relative errors of products and quotients; positivity for sums; monotone rounding for the order"
 ],
 [
  "C164",
  "QHA.Model (unchanged); Crystal, Crystal.sample, groundEnergy in QHA/Curves.lean",
  "least-squares fit of polynomial data is that polynomial (value_injective, leastSquares_exact), then C20, C68, C15, C134 and grid_pair"
 ],
 [
  "C165",
  "StatMech.Model and HA.Model (unchanged); quanta, weighted in StatMech/Classical.lean",
  "y coth y <= 1 + y^2/3, 0 <= ln(sinh y / y) <= y^2/6 and 1 <= y coth y - ln(sinh y / y) <= 1 + y^2/6 by monotonicity, summed over the modes"
 ],
 [
  "C166",
  "Same model as C08, C14 and C126",
  "Derivatives with respect to the frequency (dF = U dlnω, dS = -Cv dlnω, dUth = (Uth - T Cv) dlnω, dCv bounded by k_B dlnω through 3 sinh² y ≥ 2 y⁴), mean value inequality in ln ω, tangent bound for F; sums over modes and q points; carried to runs by C14_in_users_units"
 ],
 [
  "C167",
  "Same model as C20 and C68; specification of a crystal as functions of the volume (Crystal.freeEnergy) and of an inaccurate input (Describes)",
  "Least-squares fits contract differences of data (normal equations); the slope of a polynomial is bounded by its values at enough points (injective linear map in finite dimension); C166 for the frequencies; strong monotonicity of the slope"
 ],
 [
  "C168",
  "QHA.run on finer grids (onGrid), spec Spec.expansion",
  "trapezoidal rule for the slopes of cubics, mean value theorem in temperature, continuity of the harmonic functions down to 0 K, C159 for the node"
 ],
 [
  "C169",
  "QHA.run with polynomial minimisation and thermodynamic interpolation; onGrid for runs of the same crystal on other grids",
  "slopes of polynomials of degree 3 obey the trapezoidal rule; C20 gives the slopes at the reported volumes, C69 the curvatures; the limit by quotient_limit"
 ],
 [
  "C170",
  "QHA.run with polynomial minimisation and thermodynamic interpolation; runs of the same crystal on any grid",
  "persistence and uniqueness of the equilibrium volume (intermediate values, affine curvature); total derivative of a fit whose data and argument depend on the temperature; C08 and C168 for the derivatives"
 ],
 [
  "C171",
  "QHA.run with polynomial minimisation and thermodynamic interpolation; runs of the same crystal on any grid",
  "inverse function theorem for the slope of the fitted free energy; uniqueness of the equilibrium volume for degree 3; chain rule; C69 for the bulk modulus"
 ],
 [
  "C172",
  "QHA/Model (runFreq, minimizeVolume), QHA/FreqGibbs (exBent, exLine: the crystal of the violation)",
  "the convex bracket of C20/C15 with a misfit; linearity of least squares in the data at 0 K; an explicit crystal whose linear fit of the frequency is constant"
 ],
 [
  "C173",
  "Grid/Angles (pi64, linspace0, sectionAngles, degrees64, scanTheta, scanPhi)",
  "relative errors through the chain of rounded operations; equal steps exceed the errors, so the nodes increase; sine and cosine are 1-Lipschitz"
 ],
 [
  "C174",
  "Seismic/Model, Seismic/Cache (Dir), Seismic/RayBound (waveStrain)",
  "the group velocity is the flux of elastic energy of the wave; Cauchy-Schwarz for the positive elastic energy; the largest eigenvalue bounds the quadratic form along the ray"
 ],
 [
  "C175",
  "Polar/Binary (half64, angles64, young64, compressibility64), Elastic/BinaryModel, Grid/Angles",
  "errors of the angles (C173) through the Lipschitz bound of the direction, then the chain of rounded products and sums of C154"
 ],
 [
  "C176",
  "Grid/Angles (scanTheta, scanPhi), Seismic/BinaryModel (SeismicVelocities)",
  "C173 for the directions, then the chain of C161 with the larger error of the direction"
 ],
 [
  "C177",
  "EoS/Model (eos, energy)",
  "the derivatives of C23 at V0 determine the expansion to second order; the mean value theorem turns an expansion of the derivative into one of the function, twice for the energies"
 ],
 [
  "C178",
  "Elastic/Model (poissonAlong, youngAlong, shearAlong)",
  "three stresses along perpendicular directions span a subspace on which the compliance is positive definite; the minors of its matrix give the bounds, expansion of the bisectors gives the relation"
 ],
 [
  "C179",
  "StatMech/Model (entropy, isochoricHeatCapacity)",
  "C126 gives the entropy's rate as a heat-capacity-weighted sum; limits of the weights at both ends of the temperature; corresponding states and monotonicity give the adiabats"
 ],
 [
  "C180",
  "Seismic/Model (christoffel, phase velocities), Elastic/Model",
  "the elastic energy is a quadratic form, so its root obeys the triangle inequality; the eigenvalues grow with the form (min-max)"
 ],
 [
  "C181",
  "Elastic/Model (youngAlong, shearAlong)",
  "the difference of the two uniaxial stresses is a shear stress of the bisectors; triangle inequality for the root of the elastic energy"
 ],
 [
  "C182",
  "Seismic/Model (scan, Soec.phaseVelocity)",
  "every direction or its opposite is within half a step of a node in both angles; chord length bounded by the angles; C180 for the change of the velocity, C43 for the rows"
 ],
 [
  "C183",
  "Polar/Model (calculatePolar), Elastic/Model (Soec.youngModulus, Soec.linearCompressibility)",
  "along a plane the compliance is a binary form of degree four; a form with five zeros on different lines is zero (roots of a polynomial in the cotangent); the first five of ten nodes are different lines"
 ],
 [
  "C184",
  "EoS/Model (eos, setKpp, formula)",
  "the third-order pressure is K0 times a function of V/V0 and K'; strict convexity of exp for Murnaghan, sign of the coefficient of K' for the others; C27 turns pressures into volumes"
 ],
 [
  "C185",
  "StatMech/Model (zeroPointEnergy, thermalEnergy, entropy, vibrationalFreeEnergy)",
  "tangents: the free energy is concave in the frequency and convex in its logarithm, thermal energy and entropy are convex in it; Jensen over the weighted modes"
 ],
 [
  "C186",
  "Polar/Model (shear2d, poisson2d, calculatePolar)",
  "inverse shear modulus and Poisson's ratio are a mean plus one wave of the transverse angle, whose local minima are global; perpendicular angles cancel the wave; C119 gives the sum of the Poisson's ratios"
 ],
 [
  "C187",
  "QHA/Model (run, minimizeVolume, numericalBulkModulus), Poly/Model (findPolynomialMinimum)",
  "the fit of the tilted energies has the linear coefficient shifted, so the polynomial whose roots are taken is the same and so is the second derivative; the columns follow from C68 and C15"
 ]
]