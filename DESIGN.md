# Formal model of quantas in Lean 4: design

## 1. What is being built

`/verif/lean/Verif/` holds a Lean 4 model of the Python/Cython package `quantas`
(source in `/repo`, read as text only) and theorems about it.  Each area has up to four kinds of file:

* `*/Model.lean` and siblings named after the code - the code, function by function; every definition cites file and lines;
* `*/Spec.lean`, `*Spec.lean` - small specifications written without the code's formulas;
* `*/Lemmas.lean`, `*Lemmas.lean` - proof work;
* `*/Props.lean`, `*Props.lean` - the property theorems (the ones named in `MANIFEST.json`, all called `Cnn_...`);
  an `example` beside each theorem, in `*Witness.lean` or in `*/Cases.lean` (the theorems applied to concrete cases), shows a
  non-trivial case that meets its hypotheses.

When the code violates a property, the code is modelled as it is, the *negation* is proved
(theorem name ending in `_violated`, on a concrete witness or, where possible, for every case), and the
part that does hold is proved in a theorem with suffix `_partial` (or without suffix when that part
is a complete clause of the property).

## 2. Modelling conventions (simplifications)

* **Numbers.** IEEE doubles are real numbers (`Real`) in physics code and rationals in text IO.
  Rounding of arithmetic, overflow, NaN and signed zeros are not modelled, except where a definition says so
  (`Grid/Float.lean` models binary64 rounding, without limits of the exponent, for the temperature and pressure grids).
  Rounding *on printing* (`{:.6f}`, `{:.12e}`) is modelled exactly, half to even on the rational value.
* **Exceptions** are values: `Except Err α` / `Option α`.  The error carries the exception class (`Verif.Py.PyErr`) or the message.
* **Arrays** are lists, `Fin n → α` or `Matrix`.  NumPy broadcasting is expanded by hand.
* **Aliasing and class attributes** (mutable class-level dictionaries, arrays and flags, `np.asarray`, in-place operators)
  are explicit state, threaded through the functions, whenever a property depends on it.
* **External numerics** (scipy ODR, curve_fit, quad, eigh, pinv, polyfit, roots, brute/minimize) are parameters.
  What is assumed of them appears as a hypothesis of the theorem (`IsLeastSquares`, `RootFinder`, `EighCorrect`, `PinvCorrect`, ...);
  satisfiability of each such hypothesis is proved.
* **Text** is `List Char` with Python's `split`, `strip`, `lower`, `in`, `readlines`, `format` modelled on ASCII.
* **Loops** that may not terminate are run with fuel; theorems say which fuel suffices, or that none does.
* **Files** are a finite map from path to contents; HDF5 files are trees of data sets with attributes; YAML documents are trees
  (the reading of the generated text into a tree is specified separately in `Phonon/YamlSpec.lean`).
* **Users** at the keyboard are streams of answers; theorems quantify over all streams.
* **Physical constants** form a structure with positivity; the CODATA instance is the witness.

## 3. Trusted base

* Lean 4.33.0's kernel.
* Axioms: `propext`, `Classical.choice`, `Quot.sound`, nothing else.  `AXIOMS.txt` lists, for every theorem of the
  manifest, the axioms it depends on as printed by `#print axioms` (regenerate with `tools/axioms.py`).
  No `sorry`, no own axioms, no `native_decide`, no `bv_decide`.
* Mathlib's definitions of the reals, `exp`, `log`, `rpow`, derivatives, integrals, matrices.
* The hand translation from Python/Cython to Lean (each definition cites its lines and its simplifications).
* The specifications (`*Spec.lean`) as renderings of the English properties.

Which module models which source file:

| module | models |
|---|---|
| Verif/Chain/DispersionModel.lean | crystal.py, qha\_writer.py |
| Verif/Chain/EosModel.lean | eosfit.py, interactive.py, pv\_eos.py |
| Verif/Chain/Model.lean | cmd\_inpgen.py, soec.py, soec\_writer.py, vasp.py |
| Verif/Chain/PhononModel.lean | crystal.py, harmonic.py, qha\_writer.py |
| Verif/Chain/PhonopyModel.lean | phonopy.py, qha\_writer.py |
| Verif/Chain/QuasiModel.lean | qha.py |
| Verif/Chemistry/Model.lean | chemistry/\_\_init\_\_.py, chemistry/symbols.py |
| Verif/Command/Group.lean | cmd\_eosfit.py, cmd\_export.py, cmd\_ha.py, cmd\_inpgen.py, cmd\_qha.py, cmd\_quantas.py, cmd\_soec.py, cmdline/commands/cmd\_export.py, cmdline/commands/cmd\_inpgen.py, general.py |
| Verif/Command/Model.lean | calculator.py, cmd\_eosfit.py, cmd\_export.py, cmd\_ha.py, cmd\_inpgen.py, cmd\_qha.py, cmd\_quantas.py, cmd\_seismic.py, cmd\_soec.py, ev\_eos.py, harmonic/commands/cmd\_inpgen.py, messages.py, seismic.py, soec.py, soec/commands/cmd\_inpgen.py |
| Verif/Command/Plots.lean | seismic\_plotter.py, soec.py |
| Verif/Elastic/BinaryModel.lean | soec\_obj.py |
| Verif/Elastic/Model.lean | fast\_math.pyx, seismic\_obj.py, soec\_obj.py |
| Verif/Elastic/Run.lean | soec.py, symmetry.py |
| Verif/EoS/BinaryModel.lean | ev\_eos.py, pv\_eos.py |
| Verif/EoS/Model.lean | ev\_eos.py, pv\_eos.py |
| Verif/EoS/Normalize.lean | pv\_eos.py |
| Verif/EoS/Units.lean | pv\_eos.py |
| Verif/Export/Elastic.lean | soec/utils/export.py, soec/utils/table.py |
| Verif/Export/Exporter.lean | export.py, harmonic.py, qha.py |
| Verif/Export/Generic.lean | harmonic.py, hdf5\_export.py, qha.py, seismic.py, soec.py |
| Verif/Export/Hdf5.lean | hdf5\_export.py, hdf5\_reader.py |
| Verif/Export/Seismic.lean | harmonic/commands/cmd\_export.py, qha/commands/cmd\_export.py, seismic.py, seismic/commands/cmd\_export.py, seismic/utils/export.py, soec/commands/cmd\_export.py |
| Verif/Export/Table.lean | harmonic/utils/table.py, qha/utils/table.py, table.py |
| Verif/Grid/Angles.lean | seismic.py, seismic/seismic.py, soec.py, soec/soec.py |
| Verif/Grid/FineFloat.lean | qha.py, qha/qha.py |
| Verif/Grid/Float.lean | harmonic.py, harmonic/harmonic.py, qha.py, qha/qha.py |
| Verif/Grid/Model.lean | harmonic.py, harmonic/harmonic.py, qha.py, qha/qha.py |
| Verif/Guess/Model.lean | ev\_eos.py, pv\_eos.py |
| Verif/HA/Model.lean | harmonic.py, qha\_reader.py, units.py |
| Verif/IO/EoSReader.lean | eos\_reader.py |
| Verif/IO/Soec.lean | soec\_reader.py, soec\_writer.py |
| Verif/Interfaces/Crystal.lean | crystal.py, interfaces/crystal.py |
| Verif/Interfaces/CrystalQHA.lean | crystal.py, interfaces/crystal.py |
| Verif/Interfaces/Soec.lean | crystal.py, vasp.py |
| Verif/Kieffer/Model.lean | kieffer.py |
| Verif/Phonon/Phonopy.lean | phonopy.py, units.py |
| Verif/Phonon/Reader.lean | core/reader.py, qha\_reader.py |
| Verif/Phonon/Writer.lean | cmd\_inpgen.py, harmonic/commands/cmd\_inpgen.py, qha\_writer.py |
| Verif/Polar/Binary.lean | soec.py, soec/soec.py, soec\_obj.py |
| Verif/Polar/Model.lean | plotting.py, soec.py, soec\_obj.py |
| Verif/Poly/Binary.lean | fast\_math.pyx, polynomials.py |
| Verif/Poly/Derivative.lean | derivative.py |
| Verif/Poly/Model.lean | fast\_math.pyx, polynomials.py, qha.py |
| Verif/QHA/BinaryModel.lean | qha.py, thermodynamics.pyx |
| Verif/QHA/Model.lean | ev\_eos.py, polynomials.py, qha.py, qha\_reader.py, thermodynamics.pyx, units.py |
| Verif/Report/Concise.lean | qha.py |
| Verif/Report/Elastic.lean | soec.py |
| Verif/Report/EosFit.lean | cmd\_eosfit.py, eosfit.py, interactive.py |
| Verif/Report/Harmonic.lean | harmonic.py, qha.py, qha\_reader.py |
| Verif/Report/Job.lean | core/reader.py, harmonic.py, harmonic/harmonic.py, qha.py, qha/qha.py, qha\_reader.py |
| Verif/Report/Qha.lean | qha.py |
| Verif/Report/SeismicInput.lean | seismic.py, seismic\_obj.py |
| Verif/Report/Settings.lean | cmd\_eosfit.py, cmd\_ha.py, cmd\_qha.py, cmd\_seismic.py, cmd\_soec.py |
| Verif/Report/Static.lean | qha.py |
| Verif/Seismic/BinaryModel.lean | seismic\_obj.py, soec\_obj.py |
| Verif/Seismic/Figures.lean | seismic\_plotter.py |
| Verif/Seismic/Model.lean | fast\_math.pyx, seismic.py, seismic\_obj.py, seismic\_plotter.py, soec\_obj.py |
| Verif/Seismic/SumRules.lean | soec.py, soec\_obj.py |
| Verif/Session/Model.lean | eosfit.py, interactive.py, messages.py, pv\_eos.py |
| Verif/StatMech/BinaryModel.lean | statistical\_mechanics.pyx |
| Verif/StatMech/BitwiseModel.lean | statistical\_mechanics.pyx |
| Verif/StatMech/Model.lean | statistical\_mechanics.pyx |
| Verif/Units/Alias.lean | units.py |
| Verif/Units/BinaryModel.lean | units.py |
| Verif/Units/Model.lean | units.py |
| Verif/Units/SI.lean | units.py, utils/physics/units.py |

Functions of the package that no definition cites (445 of 546 functions are cited).  These are not
modelled; most are constructors, accessors, printing of settings, citations, titles of figures, and the unused module
`IO/hdf5_export.py`.  Matplotlib, click's parsing, h5py's storage format and the optimisers' internals are outside the model as well.

| file | not modelled |
|---|---|
| IO/eos\_reader.py | \_\_init\_\_:71-83 jobname:86-87 format:90-91 data:94-95 |
| IO/hdf5\_export.py | \_\_init\_\_:25-26 report\_input\_data:77-79 calc\_space:140-143 separator:146-147 header:150-151 subhead:154-155 put\_data:158-167 newrow:170-171 |
| IO/hdf5\_reader.py | \_\_init\_\_:15-18 settings:21-22 info:38-39 |
| IO/soec\_reader.py | \_\_init\_\_:40-49 jobname:52-63 stiffness:66-76 density:79-88 |
| IO/soec\_writer.py | \_\_init\_\_:31-34 |
| citations.py | biblio\_header:7-17 biblio\_footer:20-22 quantas\_citation:25-35 qha\_citation:38-48 eos\_citation:51-61 soec\_citation:64-81 christoffel\_citation:84-106 |
| cmdline/commands/cmd\_quantas.py | cli:35-44 |
| cmdline/utils/general.py | print\_version:62-67 |
| cmdline/utils/messages.py | quantas\_title:22-35 quantas\_error:38-48 quantas\_warning:51-61 quantas\_finish:64-74 prompt:233-256 |
| core/calculator.py | echo\_time:115-119 \_\_init\_\_:121-123 read\_input:125-147 report\_input\_data:149-158 run:160-170 report\_results:172-181 export:183-191 results:194-198 |
| core/export.py | run:94-99 |
| eosfit/eosfit.py | \_\_init\_\_:46-53 |
| eosfit/utils/interactive.py | is\_available:66-85 |
| eosfit/utils/pv\_eos.py | \_\_init\_\_:33-34 eos:36-40 \_\_init\_\_:164-166 \_\_init\_\_:242-244 \_\_init\_\_:449-451 \_\_init\_\_:656-658 \_\_init\_\_:848-850 |
| harmonic/harmonic.py | temperature:112-122 |
| harmonic/utils/export.py | \_\_init\_\_:28-30 |
| harmonic/utils/table.py | subhead:48-49 \_\_init\_\_:128-129 |
| interfaces/crystal.py | \_\_init\_\_:1428-1432 stiffness:1471-1475 density:1478-1482 |
| interfaces/phonopy.py | \_\_init\_\_:51-54 unitcell:124-128 |
| interfaces/vasp.py | \_\_init\_\_:28-32 stiffness:66-70 density:73-77 |
| qha/qha.py | pressure:265-273 |
| qha/utils/ev\_eos.py | \_\_init\_\_:37-39 |
| qha/utils/export.py | \_\_init\_\_:28-30 |
| qha/utils/kieffer.py | \_\_init\_\_:19-30 acofreq:33-41 acofreq:44-53 |
| qha/utils/table.py | subhead:48-49 \_\_init\_\_:148-149 |
| seismic/seismic.py | plotting\_is\_available:41-55 results:123-124 seismic:159-160 |
| seismic/utils/seismic\_obj.py | stiffness:196-200 christoffel:210-214 iso\_S:319-328 iso\_P:331-340 |
| seismic/utils/seismic\_plotter.py | \_\_init\_\_:356-374 ntheta:412-413 nphi:416-417 add\_figure\_title\_3D:867-898 add\_colorbar\_title:900-933 |
| soec/soec.py | results:156-157 soec:160-161 single\_vector\_variation:435-440 dual\_vector\_variation:442-447 |
| soec/utils/export.py | \_\_init\_\_:27-29 |
| soec/utils/plotting.py | make\_polar\_figure:19-45 add\_description:48-63 |
| soec/utils/soec\_obj.py | stiffness:150-154 compliance:157-161 |
| soec/utils/table.py | separator:30-31 newrow:38-39 \_\_init\_\_:97-98 |
| utils/flags.py | \_\_init\_\_:28-33 on:35-40 off:42-47 is\_on:49-53 |
| utils/math/polynomials.py | R\_squared:34-39 |

## 4. Properties: what is modelled and how it is proved

| id | model | proof |
|----|-------|-------|
| C01 | `convert_temperature` with the name lists as code has them | case split on scales, field arithmetic |
| C02 | `convert_energy`, `.lower()` on `List Char` | same; the names `hartree`/`rydberg` are rejected: violation theorem + partial |
| C03 | `convert_pressure` | linear factors |
| C04 | `convert_frequency`, `convert_lenght`, `convert_volume` | linear factors, cube law |
| C05 | `energy_to_pressure`, `pressure_to_energy` | factorisation through SI factors |
| C06 | heap-passing model of the in-place operators | violation witness; partial for the other converters |
| C07-C11 | `ho_*` over the reals, array kernels as sums | calculus in Mathlib (`exp`, `log`, `HasDerivAt`), `Finset` sums |
| C12 | rows as writes to disjoint cells of a store, arbitrary interleavings | commutation, induction on the schedule |
| C13 | list kernels | `List.Perm`, induction |
| C14 | `HACalculator.run` composed from the kernels and converters | algebra on top of C02, C07 |
| C15, C16 | `thermodynamics.pyx`, `_finalize_run` | field arithmetic under the code's guards |
| C17 | `np.arange` as ceil-length list | floor/ceil; overshoot witness (violated) + partial |
| C18 | `fine_grid` | list/`Fin` arithmetic |
| C19 | `_finalize_run` expansion loop | list induction |
| C20 | `find_polynomial_minimum`, candidate filter over roots | second-derivative test from Mathlib |
| C21 | Horner / `polyval` loops | induction on coefficients |
| C22 | R2 loops | algebra; orthogonality as hypothesis for least squares |
| C23, C24 | five P(V) formulations, all orders | `HasDerivAt` computations; Vinet K'' violated |
| C25, C26 | four E(V) formulations, `pressure` | `HasDerivAt`; BM and PT violated |
| C27 | monotonicity | sign of derivative |
| C28, C29 | fit set-up, session state machine | case analysis; induction over histories; tripling witness |
| C30 | answer streams | induction over the stream |
| C31-C38 | Voigt maps and contractions over `Fin 3`, `Fin 6` | finite sums + `ring`; Cauchy-Schwarz for the bounds |
| C39, C40 | Christoffel gradient/Hessian | polynomial identities, `HasDerivAt`, Cauchy-Schwarz |
| C41 | cache state machine | invariant by induction over operations |
| C42 | `arctan2` argument order | violation witness, partial statement on theta |
| C43 | scan loop and `read_data` | `Fin` product bijection, list counting |
| C44 | classifier decision list | case analysis; soundness; sign conventions |
| C45, C46 | `any(eigv) <= 0`, `directional_variation` | violation witnesses + partials |
| C47-C49 | reader/writer at character level | Python string model, induction |
| C50, C51 | EoS reader at character level | induction over lines |
| C52, C53 | phonon reader over parsed trees, generator state | induction, history witness |
| C54 | HDF5 reader | case analysis |
| C55 | table writer at character level | width lemmas, rank witness |
| C56-C60 | interfaces | index algebra, state machines, induction |
| C61 | symbol table | injectivity of the table by kernel computation plus general statement over all strings |
| C62 | both cofactor branches | adjugate in Mathlib |
| C63 | integrands | calculus; entropy term violated |
| C64 | projections | trigonometry |
| C65 | column maps | case analysis |
| C66, C67 | option logic, shared flags | case analysis, induction on histories |
| C68 | Gibbs, Helmholtz, enthalpy and internal energies of `_finalize_run` and the run loop | algebra on the composed kernels |
| C69 | `calculate_isothermal_bulk_modulus` on both paths | uniqueness of least squares, `HasDerivAt` |
| C70 | calculator's use of the reader's attributes for Kieffer's option | case analysis: the missing attribute is hit by every such run |
| C71 | axial fit set-up for the five formulations | algebra of length and volume strain |
| C72 | Christoffel matrix and wave data at `q` and `-q` | matrix algebra |
| C73 | isotropic wave velocities, ratio from the averages | order arithmetic from positive moduli |
| C74 | power flow and enhancement of an isotropic medium | algebra on top of C39; `EighCorrect`, `PinvCorrect` |
| C75 | EoS reader as a fuelled machine over lines | termination measure; looping title witness |
| C76 | density line of the CRYSTAL reader | induction over lines |
| C77, C78, C79, C80, C81 | CRYSTAL phonon and quasi-harmonic readers at character level | text specification of an output, loops by induction, class-level state explicit |
| C82 | phonon reader on parsed YAML trees | array shape lemmas, witnesses of zeros and repeated values |
| C83 | phonopy interface on parsed trees | case analysis |
| C84 | reference number of the quasi-harmonic generator | index arithmetic |
| C85 | writer at character level, specification of the YAML fragment it uses | grammar-free reading relation, width lemmas, round trip |
| C86, C87 | exporters: dialogue over an answer stream, files as a finite map, shared dictionaries | induction over dialogues and histories |
| C88 | units recorded in the result files | unit algebra against the SI factors of C02-C05 |
| C89, C90, C91, C92 | commands as functions from options, files and calculators to files, screen and outcome | case analysis over every option, induction over message lists |
| C93 | table of documented and registered commands | finite table, complete comparison |
| C94, C95, C96, C99 | polar sections, searches as parameters, saved arrays, plotted curves | Hooke's law for all stable solids, periodic continuity, finite unit algebra |
| C97, C98 | elastic and seismic tables at character level | tokens of lines, induction over rows |
| C100, C101 | starting values of the fits; polyfit and roots as parameters with their defining properties | uniqueness of least squares, factorisation of the derivative, derivative tests |
| C102 | static pressures of the input report: numpy's gradient and the E(V) pressures | mean value theorem, strict convexity, C25/C26 for the equations of state |
| C103 | `value(error)` lines at character level over the rationals | reading relation with unique result, digit lemmas |
| C104, C105 | formulas of C23-C27; optimum of the external fit as a specification (least squares, orthogonal distances) | repeated Rolle arguments on the difference of two curves, algebra of the coefficients |
| C106 | `normalize` of the P(V) classes, caller's array as part of the result | algebra of powers of the volume ratio; counterexample for every second-order axial fit |
| C107 | `report_fit`, `get_label`, `DATA_TYPES`; output of the fitting routine as a record | cells of a line as tokens, numerals within rounding; the flags against the equation of state itself; counterexample for every large residual |
| C108 | `read_input`, `report_input_data` after the reader of C50 | the reader theorem composed with the layout of the table |
| C109 | `report_results`, numbers over the rationals, the conversion of the last column over the reals | cells of a line as tokens; the conversion against the run of C16 and C68; counterexample for every run in bohr |
| C110 | `__report_frequency_fit` | cells of a line as tokens; counterexample from the value of `multi_R2` for constant data |
| C111 | `report_input_data`, `report_initial_results`, the tables of extremes and their order in `run` of the elastic calculator | cells of a line as tokens; counterexample for every run without a density |
| C112 | `report_input_data` of the harmonic calculator and `read_input` of the quasi-harmonic one, on the reader of C52 | from the values the reader gives for a complete input; counterexample for every input with a number as volume |
| C113 | print_settings of the five commands as text with newlines | lines of the text described by a specification of settings, numbers and ranges; uniqueness of the split into lines and of the tokens gives that the text determines the settings |
| C114 | read_input of the seismic calculator composed with the reader of C47, constructor of Seismic, report_input_data | from C47 for the values read; case split on density and determinant; counterexamples for every negative density and every singular matrix |
| C115 | `MostSimilarCommandGroup.get_command` and the tables of registered commands; difflib's ratio a parameter | order and bound of the candidates by induction; case split on the fallback |
| C116 | the model of C31 to C36; frames as orthogonal matrices, turned crystals by Hooke's law | contractions of the tensor along vectors are invariant; averages as traces of the tensor; symmetry operations as the case of equal matrices |
| C117 | the model of C37 to C42 | Christoffel matrix, gradient and Hessian as contractions; uniqueness of the spectrum and of simple eigenvectors up to sign; pseudo-inverse and cofactors of turned matrices |
| C118 | The state machine of `Seismic` with `groupDir` and `enhancement`; `Spec.area` is the area of a parallelogram. | First-order perturbation: Weyl-type bound on eigenvalues, expansion of spectral projectors with a big-O remainder, hence the derivative of the gradient of an eigenvalue is the Hessian the code computes; quotient rule for the normalised gradient; the cofactor matrix of the derivative scales areas. |
| C119 | the models of C32, C33, C36 and C37; spec: Hooke's law, triads of directions | completeness of a triad, Cauchy-Schwarz between a strain and a stress in the energy of the crystal, extremal property of the eigenvalues, trace |
| C120 | QHA.Model (run, findPolynomialMinimum), QHA.Pressure | Mean value theorem between the two equilibrium volumes; the curvature of a cubic is positive between two volumes where it is positive. |
| C121 | QHA.Model (run), HA.Model, QHA.Temperature | A least-squares fit is a linear map of the data, so it commutes with temperature derivatives; the harmonic laws C08 carry over; bracket by convexity and the mean value theorem. |
| C122 | Elastic.Model, Seismic.Model (Elastic.Scaling, Seismic.Scaling) | Homogeneity of the compliance, of the eigenvalues (uniqueness of the spectrum) and of the pseudo-inverse with its relative threshold; the powers cancel in the enhancement factor. |
| C123 | HA.run and QHA.run on two inputs related by Spec.Copies | a least-squares fit of rescaled data is the rescaled fit (uniqueness); minima of a cubic are unique; mode sums are linear in the mode list; quotients of the final step are homogeneous |
| C124 | EOS.fit as the best fit among admissible parameters (Fitted), weights of RealData, held parameters; E(V) curves and best fits | scaling of each formula; bijection between admissible parameters that multiplies the misfit by a constant; violation by the slope of the misfit of a straight line at two weights |
| C125 | stiffness matrices of the crystal classes (Elastic/ClassesSpec.lean), Elastic and Seismic models unchanged | each class is invariant under its rotation as a fourth-rank tensor (finite case check on components); then frame independence C116/C117 transports values; velocities along special directions by exhibiting an orthonormal eigenframe of the Christoffel matrix and uniqueness of the spectrum |
| C126 | StatMech model unchanged | scaling reduces entropy and heat capacity to the monotonicity in temperature (C11); thermal energy by x/(e^x-1) = e^(-x/2) (x/2)/sinh(x/2); free energy termwise; derivatives by the chain rule |
| C127 | QHA/Model (run), HA/Model | QHA/Rigid: a fit of constant data is constant, a shift of the energies shifts only the constant coefficient, so minima and derivatives stay |
| C128 | QHA/Model (run), HA/Model | QHA/Rigid: least squares with as many coefficients as points passes through the points (injective evaluation map is surjective) |
| C129 | `SOEC`, `Seismic` (Elastic/Model, Seismic/Model) | order of quadratic forms, order of inverses, monotone sorted eigenvalues (Elastic/Stiffer, Seismic/Stiffer) |
| C130 | `longitudinal_wave`, `shear_wave_1`, `shear_wave_2`, `phase_velocity_variation` (Seismic/SumRules) | trace of the acoustic matrix over a triad; compactness of the sphere and continuity of sorted eigenvalues |
| C131 | Export/Generic.lean: texts of the result files, read_input, get_file_data, _set_style, QHATableFile, export_data and run as a machine on input lines | Texts as infixes of lists of characters (split at line ends); tables by the lemmas of C55; sessions and untouched files by induction on the input |
| C132 | Seismic/Figures.lean: entries of the table of figures, argmax and argmin, panels, plane figures, ratios, spheres; the file is that of a completed scan | lists of nodes by index arithmetic, argmax by induction with the largest element of the prefix as invariant; values by C65 and C43; opposite points by the inversion symmetry C72; order of the waves by C37 |
| C133 | Directional properties, averages and wave speeds of the elastic command (already modelled); the mean over directions and over pairs of perpendicular directions as integrals. | Second and fourth moments of the direction over the sphere by integration of trigonometric monomials; contraction with the tensors; the two invariants of the compliance; monotonicity of the mean for the bounds. |
| C134 | The whole quasi-harmonic run (QHA/Model.lean). | Both schemes reduce to the oscillator functions at T = 0; linearity of least squares for the default scheme; the two branches of the final step. |
| C135 | The whole quasi-harmonic run (QHA/Model.lean). | Bounds of the oscillator functions (C09) at the interpolated frequencies; a jump of the frequency and a parabola for the counterexample. |
| C136 | the P(V) curves of EoS/Model | intermediate value theorem with a lower bound of each curve, strict monotonicity (C27); explicit inverse for Tait |
| C137 | the converters of Units/Model with the constants of scipy | SI sizes as a separate specification; the converters at the CODATA constants; C69 for the bulk modulus |
| C138 | Report/Job.lean: the attributes of the reader, the name each command records (harmonic.py:311, qha.py:1247), the texts of Export/Generic.lean | the fourth line of the text is the job line, by the line splitter's lemma; violated theorems hold for every reader |
| C139 | Poly/Derivative.lean: np.gradient with unit spacing, the quotient and the tests of lengths | mean value theorem for the chord between the neighbours; exact algebra for lines and parabolas |
| C140 | QHA/Model.lean (run, minimisation, finalizeRun), HA/Model.lean at a single temperature | QHA/Expansion.lean: linearity of the slope of the fit in the data, mean value theorem in temperature (down to 0 K by C10) and in volume; raw-data corollary by interpolation at three volumes and strict monotonicity of the entropy in the frequency |
| C141 | Existing elastic and seismic models (soec, step); spec Resists/Close/Within on Hooke's law | Perturbation of the energy form by at most 6t times the strain norm; then monotonicity (C129) and scaling (C122) |
| C142 | Chain/Model.lean: generate (input generator: reader, prompt, writer), readInput (reader, elastic object, classifier), then Elastic.run. | Composition of C58, C76, C49, C44, C46 with the sensitivity bounds of C141; Elastic/Near.lean shows that the closed forms used for nearly orthorhombic crystals are the properties of a crystal between two multiples of the exact one (mean over rotations by 180 degrees). |
| C143 | Export/Generic.lean: haInfo, qhaInfo (the texts of harmonic.py:297-312 and qha.py:1230-1251). | Report/Info.lean: the list of lines of each text for arbitrary names without line ends; headings are told apart by their first twelve characters; the values are recovered from the lines, hence injectivity. |
| C144 | Chain/PhononModel: both commands composed from the models of the CRYSTAL reader, the generator, the input reader and the harmonic calculator | C53_fresh_partial, C85_one_tree, C85_read and C77_gamma give the input exactly; the kernels are sums over Fin, turned into weighted means over lists; oscillator functions from the geometric partition sum and derivatives |
| C145 | StatMech/BinaryModel.lean: the five functions with every operation rounded, in the order of the code; StatMech/BitwiseModel.lean: the parallel loops over numbers of any kind | relative errors as factors exp(theta) carried through the operations, a bound for expm1 of a perturbed argument from convexity, induction over the sum |
| C146 | the two ways of evaluating a polynomial with every operation rounded (Poly/Binary.lean) | induction over the coefficients: the error grows by one factor (1+u) per operation; loops interchanged by induction |
| C147 | Chain/DispersionModel: the generator on quasi-harmonic outputs composed with the readers; Chain/DispersionSpec describes the data in an output per unit cell | C78_dispersion_partial and C60_cells_partial give what is read, C53_fresh_partial the text, C144_input the harmonic results |
| C148 | Chain/QuasiModel: read_input and run of the quasi-harmonic command on a tree; Chain/QuasiSpec: equilibrium volumes and interpolated vibrations | C85_read gives the arrays, C144_input the harmonic results, C20_run_succeeds_iff and C20_equilibrium_volume the volumes, C68 the interpolated functions; cubic polynomials by their expansion around the minimum |
| C149 | Chain/PhonopyModel (the directory of a phonopy calculation and the properties the generator uses), composed with Phonon/Phonopy, Phonon/Writer, Phonon/Reader, HA/Model and QHA/Model | The reader theorem C83_read_partial gives the data of each calculation; the generated file fixes an input whose frequencies are the ten-decimal roundings; C144_input and C148_input are applied to that input. The default units are refuted by comparing hartree and electronvolt |
| C150 | QHA/EosMinSpec: best fits, F + pV, the curve less pV; the run of QHA/Model | QHA/EosMin, EosMinBirch: C69 and C104 with the calculus of C25; Murnaghan is closed under adding pV; explicit Birch–Murnaghan counterexample, scaled to any pressure and volume; EosMinCases |
| C151 | reader, session, regression setup and report of a fit joined (Chain/EosModel) | C50 gives the columns, C105 that parameters of least misfit have the true curve, C30 the state of the session at each fit, C107 the lines of the log |
| C152 | Units/BinaryModel: every branch of the converters with each operation rounded; Units/BinarySpec: the machine and the error bounds in the reference unit | Number of relative errors carried through the exact chain (Near), closed under products, quotients, rounding and powers; absolute error analysis for the temperatures |
| C153 | Chain/TableSpec (Tabulated, Holds, Shows, Exports); no new model: inpgen, harmonic, saveHa and Generic.readInput of the earlier areas composed | Line and column of each entry by the structure of the table text; error of the printed number combined with the error of the saved number |
| C154 | Elastic/BinaryModel: vector, S_ijkl, the loops, averages with a rounding after every operation; Adds for the order of np.einsum | Bnd (number of roundings of a quantity of a given size) closed under products, sums, rounding; accumulate_bnd for the loops; reciprocal with condition number |
| C155 | Chain/QuasiTableSpec (reported, HoldsQuasi, Heads, ShowsQuasi, ExportsQuasi, Tabled); no new model: inpgen, quasiHarmonic, saveQha and Generic.readInput of the earlier areas composed | Line and column of each entry by the structure of the table text; error of the printed number combined with the error of the saved number; equilibrium volumes from C148 |
| C156 | The command reading an input file (Chain.readInput), the sections, the result file, the exporter and its tables | C47, C94 and C97 chained; the rows of the saved tables are matched with the calculated ones, and rounding to one and four decimals is added to the error of the saved numbers |
| C157 | Seismic, as for C37-C40; the displacement fields, Hooke's law, Newton's law, flux and density of energy are a specification of their own (MotionSpec) with derivatives of Mathlib | differentiate the cosine; the Christoffel matrix is the acoustic matrix; the gradient of the eigenvalue is twice the flux by the symmetries of the tensor; expansion in the frame for the converse |
| C158 | composition of the models of the reader, the seismic object, the scan, the result file and the exporter; saved numbers are rationals with a relative error | composition of C114, C37, C39, C157, C43 and C98; the isotropic velocities are those of the Hill moduli written out in the specification |
| C159 | QHA.Model.run on two grids, Spec.onGrid / Spec.alone / SameNode | row of each kernel depends on its own temperature; seqFin over nodes; finalisation nodewise; concrete 60- and 2-temperature runs for the violation |
| C160 | The models of C33-C38; isotropic media and cubic crystals as in C36 and C125; 'between' is the energy order of C129. | Monotonicity in the energy order (C129) between the crystal and the two media, whose values are constants; the energy of a cubic crystal is a sum of squares with the bulk modulus and the two shear constants as weights; explicit stresses for the directions that attain the bounds. |
| C161 | Seismic/BinaryModel: SOEC.phase_velocity and Seismic.phase_velocity with every operation rounded; a matrix product is a relation that allows any order of summation and fused multiply-add; eigh reads the lower triangle. | Backward error of sums of products by induction over the order of summation; Weyl's inequality for 3x3 matrices from the monotonicity of the spectrum (C129); relative error through the square root. |
| C162 | EoS/BinaryModel: the five eos methods and the four energies with every operation rounded and the library functions as parameters | forward error analysis with running bounds, range lemmas for powers; a tie-to-even computation for the violation |
| C163 | QHA/BinaryModel: the expansion loop, the heat capacity correction and the four kernels of thermodynamics.pyx with every operation rounded | relative errors of products and quotients; positivity for sums; monotone rounding for the order |
| C164 | QHA.Model (unchanged); Crystal, Crystal.sample, groundEnergy in QHA/Curves.lean | least-squares fit of polynomial data is that polynomial (value_injective, leastSquares_exact), then C20, C68, C15, C134 and grid_pair |
| C165 | StatMech.Model and HA.Model (unchanged); quanta, weighted in StatMech/Classical.lean | y coth y <= 1 + y^2/3, 0 <= ln(sinh y / y) <= y^2/6 and 1 <= y coth y - ln(sinh y / y) <= 1 + y^2/6 by monotonicity, summed over the modes |
| C166 | Same model as C08, C14 and C126 | Derivatives with respect to the frequency (dF = U dlnω, dS = -Cv dlnω, dUth = (Uth - T Cv) dlnω, dCv bounded by k_B dlnω through 3 sinh² y ≥ 2 y⁴), mean value inequality in ln ω, tangent bound for F; sums over modes and q points; carried to runs by C14_in_users_units |
| C167 | Same model as C20 and C68; specification of a crystal as functions of the volume (Crystal.freeEnergy) and of an inaccurate input (Describes) | Least-squares fits contract differences of data (normal equations); the slope of a polynomial is bounded by its values at enough points (injective linear map in finite dimension); C166 for the frequencies; strong monotonicity of the slope |
| C168 | QHA.run on finer grids (onGrid), spec Spec.expansion | trapezoidal rule for the slopes of cubics, mean value theorem in temperature, continuity of the harmonic functions down to 0 K, C159 for the node |
| C169 | QHA.run with polynomial minimisation and thermodynamic interpolation; onGrid for runs of the same crystal on other grids | slopes of polynomials of degree 3 obey the trapezoidal rule; C20 gives the slopes at the reported volumes, C69 the curvatures; the limit by quotient_limit |
| C170 | QHA.run with polynomial minimisation and thermodynamic interpolation; runs of the same crystal on any grid | persistence and uniqueness of the equilibrium volume (intermediate values, affine curvature); total derivative of a fit whose data and argument depend on the temperature; C08 and C168 for the derivatives |
| C171 | QHA.run with polynomial minimisation and thermodynamic interpolation; runs of the same crystal on any grid | inverse function theorem for the slope of the fitted free energy; uniqueness of the equilibrium volume for degree 3; chain rule; C69 for the bulk modulus |
| C172 | QHA/Model (runFreq, minimizeVolume), QHA/FreqGibbs (exBent, exLine: the crystal of the violation) | the convex bracket of C20/C15 with a misfit; linearity of least squares in the data at 0 K; an explicit crystal whose linear fit of the frequency is constant |
| C173 | Grid/Angles (pi64, linspace0, sectionAngles, degrees64, scanTheta, scanPhi) | relative errors through the chain of rounded operations; equal steps exceed the errors, so the nodes increase; sine and cosine are 1-Lipschitz |
| C174 | Seismic/Model, Seismic/Cache (Dir), Seismic/RayBound (waveStrain) | the group velocity is the flux of elastic energy of the wave; Cauchy-Schwarz for the positive elastic energy; the largest eigenvalue bounds the quadratic form along the ray |
| C175 | Polar/Binary (half64, angles64, young64, compressibility64), Elastic/BinaryModel, Grid/Angles | errors of the angles (C173) through the Lipschitz bound of the direction, then the chain of rounded products and sums of C154 |
| C176 | Grid/Angles (scanTheta, scanPhi), Seismic/BinaryModel (SeismicVelocities) | C173 for the directions, then the chain of C161 with the larger error of the direction |
| C177 | EoS/Model (eos, energy) | the derivatives of C23 at V0 determine the expansion to second order; the mean value theorem turns an expansion of the derivative into one of the function, twice for the energies |
| C178 | Elastic/Model (poissonAlong, youngAlong, shearAlong) | three stresses along perpendicular directions span a subspace on which the compliance is positive definite; the minors of its matrix give the bounds, expansion of the bisectors gives the relation |
| C179 | StatMech/Model (entropy, isochoricHeatCapacity) | C126 gives the entropy's rate as a heat-capacity-weighted sum; limits of the weights at both ends of the temperature; corresponding states and monotonicity give the adiabats |
| C180 | Seismic/Model (christoffel, phase velocities), Elastic/Model | the elastic energy is a quadratic form, so its root obeys the triangle inequality; the eigenvalues grow with the form (min-max) |
| C181 | Elastic/Model (youngAlong, shearAlong) | the difference of the two uniaxial stresses is a shear stress of the bisectors; triangle inequality for the root of the elastic energy |
| C182 | Seismic/Model (scan, Soec.phaseVelocity) | every direction or its opposite is within half a step of a node in both angles; chord length bounded by the angles; C180 for the change of the velocity, C43 for the rows |
| C183 | Polar/Model (calculatePolar), Elastic/Model (Soec.youngModulus, Soec.linearCompressibility) | along a plane the compliance is a binary form of degree four; a form with five zeros on different lines is zero (roots of a polynomial in the cotangent); the first five of ten nodes are different lines |
| C184 | EoS/Model (eos, setKpp, formula) | the third-order pressure is K0 times a function of V/V0 and K'; strict convexity of exp for Murnaghan, sign of the coefficient of K' for the others; C27 turns pressures into volumes |
| C185 | StatMech/Model (zeroPointEnergy, thermalEnergy, entropy, vibrationalFreeEnergy) | tangents: the free energy is concave in the frequency and convex in its logarithm, thermal energy and entropy are convex in it; Jensen over the weighted modes |
| C186 | Polar/Model (shear2d, poisson2d, calculatePolar) | inverse shear modulus and Poisson's ratio are a mean plus one wave of the transverse angle, whose local minima are global; perpendicular angles cancel the wave; C119 gives the sum of the Poisson's ratios |
| C187 | QHA/Model (run, minimizeVolume, numericalBulkModulus), Poly/Model (findPolynomialMinimum) | the fit of the tilted energies has the linear coefficient shifted, so the polynomial whose roots are taken is the same and so is the second derivative; the columns follow from C68 and C15 |

## 5. Results

| id | property | status | theorems | note |
|----|----------|--------|----------|------|
| C01 | Temperature conversion is a consistent family of bijections | proved | 5 | Full statement over all arrays and names (ASCII case folding). |
| C02 | Energy conversion is a consistent family of bijections and accepts the documented names | partial | 5 | The code rejects the documented names hartree and rydberg (C02_documented_names_violated); everything else is proved for the recognised names. |
| C03 | Pressure conversion is a consistent family of bijections | proved | 5 |  |
| C04 | Frequency, length and volume conversions are consistent | proved | 10 |  |
| C05 | Energy density and pressure conversions are mutually inverse and unit-consistent | proved | 5 |  |
| C06 | Unit converters leave their argument unchanged | partial | 7 | energy_to_pressure and pressure_to_energy overwrite a float ndarray argument even when they raise (violated); the six convert_* functions are proved to leave every existing array unchanged. |
| C07 | Harmonic functions satisfy F = U - TS | proved | 2 |  |
| C08 | Entropy and heat capacity are the temperature derivatives | proved | 3 |  |
| C09 | Physical bounds of the harmonic functions | proved | 1 |  |
| C10 | Low and high temperature limits | proved | 2 |  |
| C11 | Monotonicity in temperature | proved | 1 |  |
| C12 | Parallel loops give the same result under every schedule | proved | 2 | C12_bitwise holds for numbers of any kind (no law of addition is used): the results of two schedules agree in every bit. |
| C13 | Results do not depend on how the phonon data is listed | proved | 3 |  |
| C14 | Harmonic run reports mutually consistent quantities in the user's units | proved | 5 |  |
| C15 | Enthalpy and Gibbs energy are Legendre-consistent | proved | 3 |  |
| C16 | Adiabatic bulk modulus, Gruneisen parameter and Cp are mutually consistent | partial | 5 | Proved for runs with at least 50 temperatures; with fewer the code exports Cp = 0 although Cp-Cv = 0 and KS = KT, so KS*Cv = KT*Cp and Cp >= Cv fail (violated). |
| C17 | Temperature and pressure grids cover the requested range | partial | 8 | Start, spacing and coverage proved; a grid whose step does not divide the range always ends above max (C17_no_overshoot_violated), by less than one step. In binary64 arithmetic, modelled operation by operation, one point above max can also appear when the step divides the range: 1 to 1.2 by 0.1 ends at 1.3 (C17_binary_violated); never more than one, and the points are right up to rounding (C17_binary_partial). For minimum and step that are whole numbers or have few binary places the grid computed in binary64 is exactly the expected one (C17_binary_exact). |
| C18 | Numerical differentiation grid is centred on the requested volume | proved | 3 |  |
| C19 | Thermal expansion by finite differences | proved | 4 |  |
| C20 | Polynomial volume minimisation returns the equilibrium volume | proved | 4 |  |
| C21 | Interpolation evaluates the fitted polynomial | proved | 4 |  |
| C22 | Goodness-of-fit figure | proved | 4 |  |
| C23 | Equation-of-state parameters mean what they are called (V0, K0, K') | proved | 3 |  |
| C24 | The reported K'' is the second pressure derivative of the bulk modulus | partial | 2 | Murnaghan, Birch-Murnaghan, natural strain and Tait proved; the Vinet implied K'' uses 19/46 instead of 19/36 and is never the curve's second derivative (violated). |
| C25 | Energy-volume equations of state have their minimum at (V0, E0) with curvature K0/V0 | proved | 3 |  |
| C26 | Pressure from an E(V) fit is minus its volume derivative | partial | 2 | Murnaghan and Vinet proved at every volume; Birch-Murnaghan and Pourier-Tarantola pressures are computed with K''=0 and differ from -dE/dV at every volume other than V0 (violated). |
| C27 | Compressed volumes give positive pressure and the pressure decreases with volume | proved | 4 | Near V0 for all parameters; over all compressions for non-negative strain coefficients (second- and third-order fits with K' at least the second-order value). |
| C28 | Fit set-up follows the data and the order | partial | 3 | EOS.fit proved; the interactive session always passes an explicit list, so implied parameters are left free (violated). |
| C29 | Repeated fits start from the displayed parameters | partial | 5 | Volume data proved over all session histories; axial fits triple the shown modulus in place at each fit (violated). |
| C30 | Interactive selections are always valid | proved | 8 | Full; np.float of a typed value that is not a number is the only exception. |
| C31 | Stiffness and compliance tensors are inverse and fully symmetric | proved | 2 |  |
| C32 | Young's modulus and linear compressibility are the directional response of the compliance | proved | 5 |  |
| C33 | Shear modulus and Poisson's ratio are the directional response of the compliance | proved | 3 |  |
| C34 | The orthorhombic fast path computes the same numbers as the generic path | proved | 2 | Full for matrices of exact orthorhombic form; the calculator also uses the fast path for matrices that only match it within the classifier's tolerance. |
| C35 | Direction vectors are orthonormal | proved | 3 |  |
| C36 | Voigt-Reuss-Hill averages are ordered and consistent | proved | 4 |  |
| C37 | The two Christoffel implementations agree | proved | 2 |  |
| C38 | Isotropic media have direction-independent wave velocities | proved | 1 |  |
| C39 | Group velocity projects onto the phase velocity | partial | 2 | The projection of the group velocity on the wave normal equals the phase velocity when the eigenvalue is positive (C39_projection_partial). For a negative eigenvalue the code returns the opposite sign (C39_negative_violated). |
| C40 | Christoffel gradient and Hessian are exact derivatives | proved | 2 | Assumes LAPACK eigh and pinv meet their specification (EighCorrect, PinvCorrect); both are shown satisfiable. Eigenvalue derivatives for directions with three different velocities. |
| C41 | Cached wave data always belongs to the current direction | proved | 2 |  |
| C42 | Direction angles are consistent between spherical and Cartesian entry | partial | 3 | The polar angle agrees with the direction (C42_theta_partial). The azimuth set by cartesian_direction uses arctan2(x, y) instead of arctan2(y, x) (C42_azimuth_violated). |
| C43 | The angular scan fills every row once with the matching node | proved | 5 | At least two polar angles and two azimuths; with one of either the run raises ZeroDivisionError (C43_single). |
| C44 | Symmetry classification is total, sound and most specific | partial | 7 | Totality, first-match and soundness of the checked equalities proved for symmetric matrices; sign relations are never checked, hexagonal and tetragonal_high are shadowed or too weak, trigonal_high is misreported (violated). C44_exact says exactly what each class tests. |
| C45 | Mechanically unstable matrices are refused | partial | 2 | `any(eigv) <= 0` never fires for an unstable invertible matrix (violated); the eigenvalues are nevertheless reported (partial). |
| C46 | Reported extremal axes realise the reported extremal values | partial | 6 | Young's modulus and linear compressibility proved, for every search that is consistent and, over all directions, for every search that finds minima; for shear modulus and Poisson's ratio the extreme values are proved but the second axis is reported twice (violated). |
| C47 | The elastic reader returns the symmetric matrix written in the file | partial | 7 | Proved for the upper-triangular and complete layouts of a file with a title line, and for files that are too short. The documented lower-triangular layout is misread, a leading sign breaks the detection of the title, and a wrong number of rows can be accepted (violated). |
| C48 | Each elastic input is read independently of earlier reads | partial | 5 | A full elastic file determines the matrix whatever was read before; density and title leak from the previous file, and so do the FORMAT and job name of the EoS reader (violated). |
| C49 | Generated elastic inputs can be read back | partial | 2 | Write followed by read returns the matrix rounded to the printed digits, density and title; titles that start with a digit or contain a newline are not recovered (violated). |
| C50 | The EoS reader assigns every column to the quantity named in FORMAT | partial | 5 | Proved for files with FORMAT before DATA that name the pressure; keyword titles, blank lines before the title and files without pressure break the claim (violated). |
| C51 | Every accepted FORMAT spelling fills the quantity it stands for | partial | 2 | Long spellings fill their quantity; the short ones are accepted and their columns dropped (violated). |
| C52 | The phonon input reader preserves the data layout | partial | 9 | Complete inputs proved to be returned number by number, lacking keys reported. Violated for a plain text containing the three words (marked completed) and for a reader used twice (stays completed). Also violated for an input without natom or qpoints, which is marked completed and raises KeyError later. |
| C53 | The phonon input generator depends only on the files it was given | partial | 7 | Proved: missing or unreadable files and unsupported interfaces are reported whatever the history; the quasi-harmonic interface never depends on the history; the first request of a process contains exactly its calculations (_partial). Violated: the list of calculations belongs to the class, so later requests, and requests after a refused one, also contain the earlier calculations. |
| C54 | Missing HDF5 data sets and attributes are reported | partial | 11 | Data sets, columns, rows and present attributes are proved; get_attribute tests `not <message>`, so an absent data set or attribute ends in KeyError instead of the message; indices out of range raise IndexError (h5py) instead of the message when the library raises IndexError; has_data returns a true value for an absent data set, so the generic exporter accepts it. |
| C55 | Text tables are rectangular and complete | partial | 4 | Proved for every quantity of a quasi-harmonic run and for every harmonic quantity with a row per temperature; the harmonic exporter also offers the static energies (one dimension) and the zero-point energies (one row), whose export ends with IndexError and leaves a truncated file. |
| C56 | VASP elastic moduli are reordered to Voigt notation | partial | 2 | The code exchanges the rows/columns of yz and xz: the reader is right for xx, yy, zz, xy (C56_components_partial) and C56_shear_violated shows what is returned and that it is right exactly when the moduli are invariant under that exchange (false for the repository's own test OUTCAR, see SoecWitness). |
| C57 | The VASP reader uses the total moduli block when present | partial | 4 | Proved for outputs with exactly one block of total moduli, and for outputs without any (the last clamped-ion block is used); C57_refused covers outputs without moduli. Violated for two blocks of total moduli: the line counter is not incremented on a header line, the reader raises IndexError. C57_element: a word that is not a number makes the reader refuse the file and name the row and the column of the first such word. |
| C58 | CRYSTAL elastic moduli are symmetrised once | partial | 3 | True for the first output read in a process; later reads add the upper triangle to the lower triangle left in the class-level array (C58_history_violated for arbitrary histories, C58_twice_violated). |
| C59 | Reading CRYSTAL phonons terminates and expands degenerate modes | partial | 4 | Reading a zone-centre output never ends exactly when its first table lists fewer than three modes per atom before an empty line (C59_never_returns_partial, an equivalence); too many modes raise IndexError; any text without an empty line below a title is read or refused. The property as stated (always terminates) is violated (C59_hang_violated). That complete tables are expanded in order is C77_gamma and C78_dispersion_partial. |
| C60 | CRYSTAL quasi-harmonic cells are matched to their sorted volumes | partial | 2 | Proved when each optimised cell agrees (within the tolerance of isclose) with exactly one volume of the table (C60_cells_partial): cells, volumes, energies and frequencies are then in the order of the table. Violated when two volumes of the table are within 1e-5 relative of each other: the reading completes with cells in a wrong order (C60_violated, text-level witness). |
| C61 | Chemical symbols and atomic numbers are inverse | proved | 7 | The whole table is compared with an independent alphabetical list. Negative numbers from -119 to -1 are accepted by Python indexing (C61_negative_number); the property only requires unknown symbols to raise. |
| C62 | Cofactor matrix | partial | 2 | The Python cofactor satisfies the cofactor identity for every matrix (C62_cofactor_partial). The compiled version returns None (C62_compiled_violated). |
| C63 | Kieffer acoustic contributions are thermodynamically consistent | partial | 7 | Helmholtz energy and heat capacity proved to be the integrals over the sinusoidal density of modes, consistent with each other (T dS/dT = Cv with S = -dF/dT). Violated for entropy: the denominator of its first term is squared, and the integral stops at 0.999 of the cutoff, leaving out more than 7 % of the modes. |
| C64 | Plane projections of the hemisphere | proved | 6 |  |
| C65 | Figures and tables use the column they announce | partial | 3 | Scalar figures show the announced column at every node. Violated for the polarisation figure (arrows are columns 9 and 10, group velocity, instead of 4 and 5) and for the result-file header (column 13 announced as log10 A, stored raw). |
| C66 | Command options produce the settings they document | partial | 12 | Names of results and log for all paths and -o values, files touched, results saved, unit and EoS options, angular points. Violations: -o naming a directory, -o of eosfit (UnboundLocalError), --nphi 720 with another --ntheta, the documented spelling cm^-1 is refused. |
| C67 | Calculator options do not leak between runs | partial | 4 | Proved for elastic calculators for every history. Seismic calculators share a class-level flag: characterised for every history; one calculator asked to plot makes all others of the process report plotting, and the command then stops with AttributeError (violated). |
| C68 | Quasi-harmonic energies add up | proved | 4 |  |
| C69 | Isothermal bulk modulus of the quasi-harmonic run | proved | 3 | Exactness is stated for degree <= 4; for higher degrees the five-point fit is under-determined. K' of the polynomial path is modelled but nothing is claimed about it. |
| C70 | Kieffer's acoustic correction can be requested | partial | 1 | The calculator asks the input reader for an attribute it never defines, so every such run raises AttributeError. |
| C71 | Axial and volume fits of a cubic crystal describe the same pressures | partial | 2 | Murnaghan proved; the other formulations use length strain, so a second-order axial fit of a cubic crystal differs from the volume fit (violated). |
| C72 | Wave data are even under inversion | proved | 2 |  |
| C73 | Velocity ratios of a stable medium are bounded | proved | 1 |  |
| C74 | Energy follows the wave in isotropic media | proved | 1 | Assumes eigh and pinv meet their specification (EighCorrect, PinvCorrect). |
| C75 | Reading an EoS file terminates for every file and history | partial | 3 | A title 'Unknown' makes the reader loop forever (C75_unknown_violated), and nothing else does: C75_only_partial says that reading never ends only when no title was read before and the title below a JOB keyword is exactly 'Unknown'; every other file is read or refused after every history. |
| C76 | CRYSTAL density is the one printed for the input geometry, in kg/m3 | proved | 3 | All branches: density line found, absent, and refused outputs. C76_element: a word of the table that is not a number is named by row and column. |
| C77 | A zone-centre CRYSTAL phonon output is read faithfully | proved | 3 | Text-level theorem over all zone-centre outputs; the loop bound is any fuel of at least the number of lines plus two. |
| C78 | A dispersion output is reduced to one unit cell | partial | 4 | Energy, volume, atoms, points, weights and bands are right (C78_dispersion_partial). The lattice vectors are right exactly when expansion matrix and lattice commute (C78_lattice_partial), wrong otherwise (C78_lattice_violated); outputs with missing tables are reported as complete (C78_missing_violated). |
| C79 | Supercell outputs without dispersion are read | partial | 1 | Violated: TypeError for every such output, since the table of k points is looked up unconditionally. |
| C80 | Reading a CRYSTAL quasi-harmonic output does not depend on files read before | partial | 2 | Violated: the expansion matrix belongs to the class and is only written for supercell outputs, so a unit-cell output read after a supercell output returns energies, volumes and atom numbers divided by the earlier determinant (C80_violated). C80_same_partial: the outcome is independent of the history for supercell outputs, or when the stored matrix is the same. |
| C81 | Unsuitable CRYSTAL quasi-harmonic outputs are refused | partial | 5 | Reports proved for other files, few volumes and restarted calculations; completion implies all three checks. Violated for an output without the table of volumes: IndexError (C81_no_table_violated). |
| C82 | An incomplete frequency table is refused | partial | 8 | Shape of the returned array, refusal of surplus q-points and of bands of a wrong length proved. Violated: missing bands and q-points are read as zeros, a single frequency is repeated, and a list without brackets is read as its first digit. A number of atoms that is not whole is truncated toward zero. |
| C83 | Phonopy calculations are read faithfully | partial | 5 | Everything but the coordinates proved; coordinates are truncated to integers (C83_coordinates_violated) and a broken YAML file raises UnboundLocalError (C83_not_yaml_violated). |
| C84 | The reference of the phonon input generator is one of the files | partial | 3 | A reference inside the list is used (C53_fresh_partial, C85_multiple), one beyond the number of files is reported. Violated: a reference equal to the number of files passes the test and ends with IndexError; negative references count from the end or end with IndexError. |
| C85 | A generated phonon input can be read back | partial | 5 | The generated text denotes, in an independently specified fragment of YAML, the tree of the data, and the reader gives the data back within the printed accuracy. Violated for descriptions that YAML does not read as text (empty, a number): the reader then raises AttributeError for the description. C85_one_tree: a text denotes one tree only. |
| C86 | Exporting never overwrites a file without confirmation | partial | 8 | Files never confirmed and never typed are kept by every dialogue, and no other files are written; a typed name is not checked: an existing file of that name is overwritten silently. The same for the elastic and seismic exporters. |
| C87 | Exporters of different files do not interfere | partial | 4 | The dictionaries x, y and data are class attributes: after a second file is loaded the first exporter writes the data of the second file. An exporter used before another one is made writes its own data. The same for the elastic exporter; and a refused file changes the temperatures of the other exporters (C87_refused_violated). |
| C88 | The units recorded with the results are those of the numbers | partial | 4 | Energies, entropy, moduli and Cv are consistent with their recorded units; Cp and Cp-Cv are labelled with the energy unit although their numbers are in thousandths of it, and volumes are labelled with a length. |
| C89 | A run does not destroy its input | partial | 5 | Proved without -o and for -o names that do not coincide; an input x.txt with -o x, and an EoS input named *.log, are overwritten before being read (violated). |
| C90 | Quiet changes the screen only | partial | 3 | Files and outcome proved equal, and the quiet screen a subsequence of the loud one, for all runs. Nothing printed only if the calculator speaks through echo; echo_override, warnings, progress bars and 'Results not saved' are printed (violated). |
| C91 | Declining to overwrite leaves the earlier files | partial | 2 | Results file kept in all cases; the earlier log is emptied at the start of every run (violated). |
| C92 | Plot options select the figures | partial | 7 | Figures of the seismic and elastic commands for all option combinations. Violations: --no-2D keeps two plane figures, plotly without matplotlib stops with NameError, -p without --polar draws nothing, --only-plot without -p and -p after declining stop with AttributeError. |
| C93 | Documented commands are available | partial | 4 | Finite: the documented commands against the registered ones; `seismic` and `export seismic` are documented but not registered (violated), so that the program refuses them by C115 (C93_run_violated), and runs all the others (C93_run_partial). |
| C94 | Sections hold the property along each direction | partial | 4 | Rows, directions and values from Hooke's law for every stable solid (searches are a parameter that descends; extremes when they find the least values of continuous periodic functions); closed sections without hypotheses. Missing and violated: solids orthorhombic only within the classifier's tolerance of 0.001, whose small constants the fast formulas drop. |
| C95 | Recorded units of the elastic results | partial | 3 | Stiffness, eigenvalues and all sections in SI units. Violations, for every solid: the compliance is recorded in TPa^-1 but given in GPa^-1; the averages are recorded in GPa although they include Poisson's ratio. |
| C96 | The elastic result file holds what was calculated | partial | 4 | With --polar exactly the calculated sections are saved. Violation: without --polar fifteen sections of zeros are saved. The placeholders are also exported as tables (C96_placeholder_tables_violated). |
| C97 | Exported elastic sections are those that were saved | partial | 2 | Tables and offers proved for every file and every history of the shared dictionary. The claim of one width per table is false: rule, label line and rows always differ (C97_width_violated). Foreign files and files saved by the calculator are the histories considered. |
| C98 | Exported seismic tables are those that were saved, and exporters refuse files of another kind | partial | 3 | Tables proved for the only pressure unit the commands accept (GPa); refusals proved for all pairs of kinds. The fourteenth number is not the announced log10 of the enhancement factor but the factor (C98_enhancement_violated). |
| C99 | Polar figures show the sections | partial | 6 | Axes, curves and points for all solids; the range holds for all quantities but the linear compressibility, and for Poisson's ratio when some ratio is not negative. Violations: a negative linear compressibility and a negative Poisson's ratio leave the range. |
| C100 | Starting values of a pressure-volume fit | proved | 4 | The polynomial fit is a parameter that returns a least-squares solution; such a fit exists (fits_exists). |
| C101 | Starting values of an energy-volume fit | partial | 5 | Proved: the start is the real part of the stationary point nearest to zero of the closest quartic (C101_curve), the minimum for parabolas and for cubics that stiffen on compression. False in general: for every cubic whose maximum lies below its minimum the start is the maximum, with a negative modulus (C101_maximum_violated). numpy's polyfit and roots are parameters with their defining properties. |
| C102 | Static pressures in the quasi-harmonic input report | partial | 7 | Inner volumes exact for parabolas and between the neighbours for every differentiable curve; decreasing for every strictly convex curve. Violations: the first and last pressures are always wrong for a parabola; with an equation of state the Birch-Murnaghan and Pourier-Tarantola pressures exceed those of the fitted energy. |
| C103 | Values with errors in the quasi-harmonic input report | partial | 7 | Reads correctly for errors below 9.5 and from 10 on, unless two or more decimals are kept and the rounded value ends in zero. Violations: dropped trailing zeros, errors from 9.5 to 10, errors that are not a number. C103_block: one line per parameter with its symbol. Numbers are rationals. |
| C104 | Exact energies determine the E(V) parameters | proved | 3 | The fit itself (scipy's curve_fit) is external: the theorem says that the only least-squares optimum among solids is the true curve. Four volumes are needed (C104_three, for two formulations). |
| C105 | Exact pressures determine the P(V) parameters | partial | 3 | The optimiser (ODRPACK) is external: the theorem says that the only optimum among solids is the true curve. Tait and fourth order ask for a solid that stiffens; without this the claim is false: for any two volumes two Birch-Murnaghan solids of fourth order have identical pressures at every volume (C105_fourth_violated). |
| C106 | Strain and normalised pressure of the f-F plot | partial | 9 | After a second-order axial fit the curve is drawn with K' of a volume fit (4, 2, 2 instead of 12, 6, 3) and the caller's array of parameters is overwritten (C106_axial_violated); the strain errors are too large or too small by the factor V0/V (C106_errors_violated). The errors of the normalised pressures have the same fault for Birch-Murnaghan and natural strain (C106_pressure_errors_violated) and are not proportional to the errors of the data for Vinet (C106_vinet_errors_violated). |
| C107 | Report of an equation of state fit | partial | 4 | The column titled 'P_obs (GPa)' holds the fitted pressures (C107_observed_violated); everything else in the report is as stated (C107_report_partial), and the implied flags are exactly right (C107_implied). The output of the orthogonal distance routine is an arbitrary record whose fitted values are the observed ones plus the residuals. |
| C108 | Acceptance and report of the data of an equation of state fit | proved | 3 | Text of numbers over the rationals; files as in C50. |
| C109 | Tables of quasi-harmonic results in the log | partial | 4 | The volumes are printed in cubic bohr under the title A^3 when the run uses bohr (C109_volume_violated); everything else is as stated (C109_table_partial, C109_heat_capacity for at least 50 temperatures; with fewer the columns are zero, see C16). The text of the pressure in the heading, '{}'.format, is a parameter. |
| C110 | Report of the fits of the frequencies | partial | 2 | A frequency that does not depend on the volume is reported with R^2 = 0 and BAD! although the fit is exact (C110_constant_violated); the layout and verdicts are proved (C110_report_partial). |
| C111 | Log of the elastic calculator | partial | 4 | Without a density the log prints the average velocities as nan, because the test against np.nan always succeeds (C111_velocities_violated); everything else is proved (C111_input, C111_run_partial). The text of the density, '{}'.format, is a parameter. |
| C112 | Report of a harmonic input and acceptance of quasi-harmonic inputs | partial | 3 | An input with a single volume written as a number ends a harmonic run in an exception at its report, and a quasi-harmonic run in a TypeError instead of a refusal (C112_single_violated); the report and the acceptance are proved for all inputs with a list of volumes (C112_report_partial, C112_accept). |
| C113 | Settings printed at the start of the log | proved | 5 | The '{:.2f}' texts of the ranges and the choices of the command line are modelled; the ranges are exact rationals. C113_harmonic, C113_quasi_harmonic, C113_seismic and C113_elastic_eos give the lines, C113_determined says that equal blocks come from equal settings (the equation of state only when it is used). |
| C114 | Start of a seismic run | partial | 5 | A negative density is accepted (C114_negative_violated) and a singular matrix ends the command in an exception (C114_singular_violated); the rest is proved (C114_start_partial, C114_refused, C114_report). Numbers are exact, so singular means determinant zero; the text of the density is a parameter. |
| C115 | Unknown commands are refused with suggestions | proved | 2 | The similarity (difflib's ratio) is a parameter; get_close_matches is modelled on top of it. C115_exact and C115_unknown cover every group; the registered groups are instances. |
| C116 | Elastic properties do not depend on the Cartesian frame | proved | 4 | Exact arithmetic; two matrices describe one crystal when the second answers turned strains with turned stresses. |
| C117 | Seismic waves do not depend on the Cartesian frame | proved | 2 | np.linalg.eigh and pinv by their documented specifications, pinv with its cut-off. Waves of equal velocity have no determined polarisation, so nothing is claimed about their rays. |
| C118 | The enhancement factor is the concentration of rays | proved | 1 | Full property, for eigh and pinv meeting their specifications. Degenerate waves are excluded by the cut-off of pinv; at a caustic (a = 0) the code divides by zero and the model gives 0. |
| C119 | Directional elastic properties obey the relations of elasticity | proved | 4 | Full property; the waves for eigh meeting its specification. |
| C120 | Volume and Gibbs energy along the pressure grid | proved | 2 | Proved for real arithmetic, given NumPy's polynomial fit and the minimiser's specification. |
| C121 | Entropy, heat capacity and Gibbs energy along the temperature grid | proved | 2 | Proved for real arithmetic, given NumPy's polynomial fit. The volumes at which the entropies of the bracket are read are the two equilibrium volumes. |
| C122 | Scaling of stiffness and density | proved | 4 | eigh and pinv are parameters with their documented behaviour (EighCorrect, PinvCorrect). |
| C123 | Quasi-harmonic results do not depend on the units, on the zero of energy or on the size of the cell | proved | 6 | Spec.Copies says when two inputs describe the same crystal. Polynomial minimisation with energy fits of degree at most 3 (the default) to at least as many volumes as coefficients, so that fit and minimum are unique; frequency fits likewise. The pressure derivative of the bulk modulus is covered in the thermodynamic scheme when the free energy is convex within 0.1 per cent of the equilibrium volume. Minimisation through an equation of state rests on scipy's optimiser and is not covered. |
| C124 | Equation-of-state fits do not depend on units or on the size of the cell | partial | 5 | Proved for every formulation, order and choice of held parameters, with no uncertainties, uncertainties of the pressures, or of both, and for the energy fits. Fails when only the volumes have uncertainties (a choice the session offers): the pressures then have weight one in whatever unit they are written, so the best fit depends on the unit. The violation is proved for a held K' of -1, where the curve is a straight line, for every data set off the line and every conversion. The regressions of scipy are specified as returning parameters of least misfit. |
| C125 | Elastic properties and waves have the symmetry of the crystal | proved | 11 | Proved for hexagonal, tetragonal, trigonal, orthorhombic and cubic matrices in the standard setting (axis along z); monoclinic and triclinic crystals have no symmetry beyond C117 and the inversion. Power flow angle and enhancement factor repeat for correct eigensolver and pseudo-inverse under the conditions written in SameWaves. Witnesses: periclase (cubic) and a quartz-like trigonal matrix. |
| C126 | How the harmonic functions depend on the frequencies | proved | 6 | Monotonicity holds for positive frequencies only: a mode that turns from real to imaginary is dropped, so its contribution jumps from minus infinity to zero (C126_soft_mode). |
| C127 | Volume-independent phonons give no thermal expansion | proved | 5 | Volumes: C127_volumes (polynomials), C127_volumes_eos (equations of state, for every fit that follows a shift of the energies, Spec.ShiftsE0). C127_no_expansion: alpha, gamma, Cp - Cv vanish, KS = KT, and Cp = Cv from 50 temperatures on (with fewer the program exports Cp = 0: C16_short_grid_violated). C127_moduli: KT and its derivative. C127_harmonic: entropy, Cv and vibrational energies. |
| C128 | At an input volume the quasi-harmonic results are the harmonic ones | proved | 1 | At an equilibrium volume that is an input volume, with as many coefficients as volumes, all energies are the harmonic ones. |
| C129 | A stiffer crystal is stiffer and faster in every direction | proved | 3 | Proved for both modules. The order of stiffness is stated by the elastic energy of every strain; the middle wave needs the min-max argument. |
| C130 | The three waves are named, bounded and reported consistently | proved | 4 | Proved. The search (scipy brute force and simplex) is a parameter: it returns the value at its point, and the smallest value when there is one. |
| C131 | The exporter for all result files | partial | 10 | Proved: quasi-harmonic files of any job are accepted and all quantities but the thermal expansion are exported as tables; harmonic files whose job name does not contain "(QHA)" are accepted and the quantities with one value per temperature and volume exported; sessions of any length write exactly the chosen files; no other file is changed whatever is typed. Violations of the code, proved: thermal expansions are written with eight decimals because the description contains "volume", and as zero below 5e-9; the static energy ends with IndexError; a harmonic job named with "(QHA)" ends with KeyError; elastic and seismic files are accepted but every export ends with AttributeError; a file without the text of Quantas raises KeyError instead of giving the message. Volumes are labelled with the unit of length. |
| C132 | The figures of the seismic command show every wave where it belongs | partial | 6 | Partial because two parts are false of the code: the colour bar of the plane figure of the power flow angle carries a label with an unopened brace (C132_label_violated; whether matplotlib draws it or stops is outside the model), and both projections of the ratios are written to the same file (C132_file_violated). Colours, fonts and contour lines are not modelled. |
| C133 | The Voigt and Reuss averages are means of the directional properties over all orientations | proved | 4 | Means are integrals over the spherical angles, written in Elastic/Orientation.lean apart from the model. The compliance is the exact inverse of the stiffness, as in C36. |
| C134 | The quasi-harmonic results at absolute zero are those of the ground state | proved | 1 | The thermal expansion at 0 K is a forward difference and is not claimed to vanish. |
| C135 | Quasi-harmonic energies, entropies and heat capacities respect the bounds of oscillators | partial | 3 | The bounds are proved for frequency interpolation at every volume, and for the default scheme at input volumes; C135_interpolation_violated gives an input with positive frequencies whose exported entropy and heat capacity at 300 K are negative with the default scheme, for every correct fitting routine. |
| C136 | Each pressure belongs to exactly one compressed volume | proved | 2 | C136_one_volume for the four unbounded formulations, C136_tait for Tait's with its limiting pressure. |
| C137 | Units have the size their names stand for | partial | 4 | All units but the angstrom have their SI size (C137_sizes_partial). The angstrom is taken from the CODATA entry 'Angstrom star', an X-ray unit: lengths, volumes, pressures and bulk moduli in angstrom are off by 1.5 to 4.5 parts in 10^5 for every value (violated). |
| C138 | Result files name the job they come from | partial | 3 | Quasi-harmonic result files say 'Job: Unknown' for every input (qha.py:1247 tests the attribute 'job', the reader has 'jobname'); elastic and seismic result files have no job line. Proved for harmonic files. |
| C139 | Derivative of tabulated data | proved | 5 | The error for short arrays is LenError only when both arrays are short, otherwise numpy's ValueError; the docstring says dX/dY, the result is dY/dX. |
| C140 | Thermal expansion has the sign thermodynamics gives it | proved | 4 | Proved for polynomial minimisation with external routines meeting their specification; the convexity between the two volumes needed for the sign is automatic for parabolas (edeg <= 2), a hypothesis above. Witness: a crystal that expands from 0 K on in both schemes. |
| C141 | Results of an elastic run follow small errors of the moduli | proved | 4 | Proved for every direction and average. Hypothesis Resists is the elastic-energy bound; resists_isotropic and close_isotropic exhibit a crystal and a rounding that meet all hypotheses. |
| C142 | From the output of an ab initio program to the reported elastic properties | partial | 4 | Proved for CRYSTAL outputs with any title the file format can carry (C142_crystal_partial), and for VASP outputs as far as the averages go, or for moduli that do not change when yz and xz are exchanged (C142_vasp_partial). Violated by titles that start with a digit, which make the written file unreadable (C142_title_violated), and by VASP outputs in general, whose yz and xz moduli are exchanged (C142_vasp_violated: a stable crystal with Young's modulus 1/3 GPa in some direction, reported minimum above 0.35 GPa). |
| C143 | Result files describe the settings of the run | proved | 3 | Proved for the texts of harmonic and quasi-harmonic result files; the name of the job is the subject of C138. |
| C144 | From CRYSTAL frequency outputs to harmonic thermodynamics | proved | 2 | From every generated input with at most ten decimals in its frequencies (C144_input, several weighted q-points, all selectable units) and from CRYSTAL zone-centre outputs (C144_crystal). Dispersion outputs and the temperature zero are left to C14 and C79. |
| C145 | The harmonic functions are accurate in the arithmetic of the computer | partial | 10 | Zero-point energy, thermal energy and heat capacity: relative error bounds for every list of modes. Entropy and free energy: absolute bounds when every quantum is at least 1e-9 k_B T (partial); for quanta below 1e-17 k_B T binary64 gives values that are not finite (C145_lost_violated). Exponents are unlimited in the model: no overflow, quanta at most 700 k_B T. No contraction of multiplications and additions (setup.py asks for none). |
| C146 | Fitted polynomials are evaluated accurately in the arithmetic of the computer | proved | 5 | Arithmetic with 53 binary digits without overflow or underflow; the numpy evaluation is modelled as Horner's scheme with one rounding for each operation. |
| C147 | From phonon dispersion and quasi-harmonic CRYSTAL outputs to harmonic thermodynamics | proved | 2 | C147_dispersion for one or several dispersion outputs with a supercell of positive determinant; C147_quasi_harmonic for a quasi-harmonic output. In a new process, and with weights that do not sum to zero; temperature zero is left to C14. |
| C148 | From CRYSTAL outputs to the equilibrium volumes of the quasi-harmonic approximation | proved | 6 | C148_input for generated inputs, C148_crystal, C148_dispersion and C148_quasi_harmonic from the outputs, C148_few for the refusal, C148_four_volumes for success. Exact arithmetic; polyfit and the root finder are parameters that meet their documentation. |
| C149 | From phonopy calculations to harmonic and quasi-harmonic results | partial | 3 | With the unit eV the harmonic and (polynomial minimisation) quasi-harmonic results are those of the phonopy calculations. Violated with the default units: the generator writes the energy of VASP in electronvolt without conversion or a note, and the commands read it as hartree; the free energy is wrong by more than 26 times the static energy. |
| C150 | Equilibrium found by the equation-of-state minimisation | partial | 5 | The fitted curve has, at the reported volume, the pressure asked for and the reported moduli, whenever a best fit exists. Free energies on a curve of the formulation are recovered exactly at zero pressure, and at every pressure for Murnaghan, which is closed under adding pV. For Birch–Murnaghan (the default) at a positive pressure they are not: F + pV is fitted with a formula it does not obey, and in the example the volume reported has a pressure 13 % too high. The fit itself (scipy) is assumed to return a best fit whenever there is one. |
| C151 | Log of quantas eosfit on exact data | partial | 2 | Proved for the parameters that a fit refines (K0 and V0 always, K' from the third order, K'' at the fourth), for every file, formulation, order, session and choice of weights, with the regression trusted up to an error that enters the bound. Violated for the parameters that the order implies: a K' held in a second-order fit is printed as entered, although the fitted curve has another (C151_implied_violated). Whether the log marks implied parameters is C107. |
| C152 | Unit conversions in the arithmetic of the computer | partial | 15 | Bounds and there-and-back proved for every machine with correctly rounded operations; binary64 (unlimited exponents) is shown to be one. Violated: a conversion to the same unit is not the identity, 0.1 degrees Celsius become 0.10000000000002274 (C152_identity_violated). C152_order adds that conversions keep the order of values when rounding is monotone, as C152_computer_order shows that of doubles to be. |
| C153 | From phonon calculations to the exported tables of harmonic results | partial | 4 | Composition of the phonon chain (C144, C147, C149) with the generic exporter (C131): every cell of the six tables of harmonic results, within (eps + 1e-12) (/true/ + /static energy/). The relation between the computed results and the numbers stored in the result file is a relative error eps, a parameter. Partial: phonopy calculations need the energy unit eV to be requested (C149_default_violated). |
| C154 | Elastic properties in the arithmetic of the computer | proved | 6 | Rounding errors of the generic elastic class: the compliance matrix is the one linalg.inv returned (its own error is that of LAPACK and not modelled), exponents are unlimited. np.einsum may add in any order (Adds). The closed forms of the orthorhombic class are not covered; in exact arithmetic they agree (C34). |
| C155 | From phonon calculations to the exported tables of quasi-harmonic results | partial | 6 | Composition of the quasi-harmonic chain (C148, C149) with the generic exporter (C131): line, column and entry of every table but that of the thermal expansion (C131_expansion_violated), and what the entries of the tables of volumes and of four fitted functions are. The relation between the computed results and the numbers stored in the result file is a relative error eps, a parameter. Partial: phonopy calculations need the energy unit eV to be requested (C149_default_violated). |
| C156 | From an elastic input file to the exported sections | partial | 1 | Partial: crystals that are orthorhombic only within the tolerance of the classifier (C94_near_violated), lower triangles (C47_lower_violated); lines with values above 100000 do not fit the columns and are left out. The minimiser and the eigenvalue solver are parameters; the saved numbers carry a relative error. |
| C157 | The reported waves are the solutions of the equation of motion | proved | 2 | Plane waves with the reported polarisation and positive phase velocity solve the equation of motion and carry their energy with the reported group velocity (C157_motion); no other plane wave along the direction does (C157_only). |
| C158 | From an elastic input file to the exported tables of seismic waves | partial | 1 | Proved for columns 1-13 of the tables (C158_waves_partial). Missing: column 14 holds the enhancement factor instead of its logarithm (C98_enhancement_violated), lower triangles (C47_lower_violated) and files without a title. |
| C159 | A quasi-harmonic result at a temperature and a pressure does not depend on the rest of the grid | partial | 7 | Proved: any node of any run equals the run asked for that node alone (twelve quantities), hence any two grids agree on shared nodes; sub-grids of working grids work; errors come from a node alone. Thermal expansion, Cp, Cp-Cv, KS and the Grüneisen parameter agree when both grids have at least 50 temperatures and the next temperature is shared (the forward difference quotient uses it). Violated for short grids: with fewer than 50 temperatures (qha.py:869-886) Cp, the expansion and the Grüneisen parameter are written as 0, so the same temperature and pressure give another Cp than in a longer run. |
| C160 | A crystal between two isotropic media has its moduli and wave velocities between theirs | proved | 5 | C160_between bounds Young's modulus, the shear modulus in every direction and the averages; C160_waves the three phase velocities of both elastic calculators (with LAPACK's eigenvalue routine assumed correct, as in C37). C160_cubic and C160_cubic_waves give the two media of a cubic crystal, and C160_attained shows that the bounds for the moduli cannot be improved. |
| C161 | Phase velocities in the arithmetic of the computer | proved | 3 | Full, for a machine without overflow or underflow. The accuracy of np.linalg.eigh is a hypothesis (EighAccurate), as LAPACK documents it; it is met by a routine that returns the exact eigenvalues. C154_computer shows that binary64 with correctly rounded library functions is such a machine. |
| C162 | Equations of state in the arithmetic of the computer | partial | 8 | Every accuracy bound holds for all machines with the stated accuracy. The exact zero at the reference volume is proved for four formulations; the modified Tait equation violates it (C162_tait_violated: K' one unit in the last place above 6 leaves a positive pressure). Energies of Murnaghan and Vinet need K' of at least 2, since the code divides by K'-1. Overflow and underflow are not modelled. |
| C163 | Derived quasi-harmonic quantities in the arithmetic of the computer | proved | 9 | All statements are proved for every arithmetic with the stated accuracy. Overflow, underflow and fused multiply-add are not modelled. That the converted inputs are good to a few units in the last place is C152. |
| C164 | Crystals with polynomial energies and frequencies are answered exactly | proved | 4 | A crystal is a pair of functions of the volume; an input is a sample of it. Polynomial fit and root finder are parameters with the usual contracts (least squares, all real roots). With equal volumes at two samplings the frequency scheme gives equal columns at every temperature by C164_columns; at positive temperatures the free energy is not a polynomial, so equality of the volumes is stated at absolute zero. Frequencies are non-negative at the sampled volumes (the code drops negative ones). |
| C165 | Distance of the harmonic functions from their classical values | proved | 6 | Real arithmetic; rounding is C145. Modes with non-positive frequency are dropped by the code, so positive frequencies are assumed. |
| C166 | Errors of the frequencies are not amplified | proved | 2 | Lipschitz bounds in the logarithm of the frequency, with constants that do not depend on temperature, frequency or crystal; two-sided, each mode with its own error. |
| C167 | Errors of the input and of the polynomial form reach the equilibrium volume with a fixed factor | proved | 3 | The exact crystal is an arbitrary pair of functions of the volume; eta and eta' measure its distance from polynomials. Volumes are compared inside an interval on which the free energy of the crystal has curvature at least kappa. Exact arithmetic; least squares and roots are the specified external routines. |
| C168 | The reported thermal expansion tends to the one of thermodynamics | proved | 4 | Limits over all finer runs (C168_limit, C168_derived), with existence of such runs (C168_persists) and the derivative of the equilibrium volumes (C168_definition). Real arithmetic; the fit and the roots are those of correct external routines. Degrees above three are left out: there the run may go from one minimum to another between two temperatures. |
| C169 | The reported bulk modulus is the slope of the reported volumes along the pressure | proved | 2 | Exact trapezoidal rule between any two pressures of a run, and the limit of the difference quotient over all grids; fits of degree 3 or less and thermodynamic interpolation. Cases: QHA/ThermoCurvesCases.lean. |
| C170 | Reported volumes, Gibbs energies, entropies and enthalpies along the temperature obey the laws of thermodynamics | proved | 1 | The reported columns are samples of functions of the temperature whose derivatives obey the identities; Cp is the limit of the reported one by C168. Fits of degree 3 or less, thermodynamic interpolation, above absolute zero. Cases: QHA/ThermoCurvesCases.lean. |
| C171 | Reported volumes, Gibbs energies, entropies and enthalpies along the pressure obey the laws of thermodynamics | proved | 1 | The reported columns are samples of functions of the pressure whose derivatives obey the identities, among them the relation of Maxwell with C170; runs nearby succeed. Fits of degree 3 or less, thermodynamic interpolation. Case: QHA/PressureCurvesCases.lean. |
| C172 | Gibbs energies along the pressure obey dG/dP = V when frequencies are interpolated | partial | 3 | C172_bracket_partial: the bracket holds once the misfit of the two descriptions of the free energy is taken off the Gibbs energies; C172_absolute_zero_partial: there is no misfit at 0 K with equal degrees and positive interpolated frequencies; C172_gibbs_violated: with different degrees a crystal with positive frequencies reports Gibbs energies that grow by more than the larger volume times the pressure difference. |
| C173 | Angles of sections and scans in the arithmetic of the computer | proved | 4 | Binary64 without limits of the exponent, as in C17; numpy's linspace is modelled from its definition. The sine and cosine of the directions are exact. |
| C174 | Energy never outruns the fastest wave along its ray | proved | 2 | Full. The group velocity of each wave lies between its phase velocity and that of the fastest wave along the ray; hence below the longitudinal wave of some direction and below the Voigt bound. The eigensolver is the parameter of EighCorrect. |
| C175 | Elastic sections in the arithmetic of the computer | proved | 3 | Full for Young's modulus, the linear compressibility and the wave velocities of a generic crystal; the sections of the shear modulus and of Poisson's ratio come from scipy's search and are not covered. Exponents are not limited, as in C154. |
| C176 | Velocities of a seismic scan in the arithmetic of the computer | proved | 1 | Full for the phase velocities; group velocities, power flow angles and enhancement factors depend on the eigenvectors, which near degenerate waves are not determined by rounded data. Exponents are not limited, as in C161. |
| C177 | Near the reference volume the choice of the equation of state does not matter | proved | 3 | Full, for parameter sets on which the formula is defined. |
| C178 | Poisson's ratios respect the stability of the crystal | proved | 3 | Full. |
| C179 | The Gruneisen parameter of a crystal is a mean of those of its modes | proved | 4 | Full, for frequencies that stay positive. It concerns the functions themselves; the value a quasi-harmonic run exports is computed from fits (C168). |
| C180 | Phase velocities change gradually from one direction to another | proved | 2 | Full, with np.linalg.eigh meeting its documentation (EighCorrect). |
| C181 | Young's modulus changes gradually from one direction to another | proved | 2 | Full. |
| C182 | A scan misses no phase velocity by more than its grid allows | proved | 1 | Full, with np.linalg.eigh meeting its documentation (EighCorrect). |
| C183 | The nodes of a section determine the directions between them | proved | 2 | Full for the quantifier given: matrices that are orthorhombic only within the tolerance of the classifier are outside, see C94_near_violated. |
| C184 | A stiffer equation of state gives higher pressures and larger volumes | proved | 4 | Full for the four formulations named. |
| C185 | A crystal against oscillators of one frequency | proved | 2 | Full, for positive frequencies and temperatures in exact arithmetic. |
| C186 | Extremes across the direction of a section obey the relations of elasticity | partial | 3 | Missing: solids that are orthorhombic only within the tolerance of the classifier, for which the sections belong to another solid (C94_near_violated). The search is a parameter that returns an exact local minimum. |
| C187 | An energy proportional to the volume acts as a pressure | proved | 2 | Full for polynomial minimisation in exact arithmetic with a least-squares fit and a root finder that is a function of the coefficients. With an equation of state a linear term leaves the family of curves and no such equality can hold. |

## 6. Tests against wrong programs

`seeded/LOG.jsonl` records every edit of a model definition that was tried (`tools/mutate.py` applies the edit in a scratch copy
and rebuilds).  An edit that no theorem notices is either equivalent to the original (the entry says so) or led to a tightened theorem
(named in the entry).

## 7. Disagreements between the code and its documentation that are not a property of their own

* The third column of the Poisson ratio table of the log is headed "measurement" although it is the maximum.
* The result files record the compliance in TPa^-1 although it is in GPa^-1, and Poisson's ratio of the averages in GPa (C95).
* Without `--polar` the placeholders of the polar sections are saved, and the exporter offers them as tables (C96).
* Constants below 0.001 of a nearly orthorhombic solid are dropped by the fast formulas (C94).
* Column 14 of the seismic file is announced as log10 of the enhancement factor but holds the factor (C65, C98).
* The `error` attribute of an exporter persists over later loads by the same object.
* The seismic export command is defined but not registered; the documentation's `quantas eos` and `quantas --ha` are not commands (C93).
* A quasi-harmonic file that is refused has already replaced the temperatures shared by the harmonic exporters (C87).
