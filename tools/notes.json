{
 "C01": {
  "note": "Full statement over all arrays and names (ASCII case folding)."
 },
 "C02": {
  "note": "The code rejects the documented names hartree and rydberg (C02_documented_names_violated); everything else is proved for the recognised names."
 },
 "C06": {
  "note": "energy_to_pressure and pressure_to_energy overwrite a float ndarray argument even when they raise (violated); the six convert_* functions are proved to leave every existing array unchanged."
 },
 "C16": {
  "note": "Proved for runs with at least 50 temperatures; with fewer the code exports Cp = 0 although Cp-Cv = 0 and KS = KT, so KS*Cv = KT*Cp and Cp >= Cv fail (violated)."
 },
 "C24": {
  "note": "Murnaghan, Birch-Murnaghan, natural strain and Tait proved; the Vinet implied K'' uses 19/46 instead of 19/36 and is never the curve's second derivative (violated)."
 },
 "C26": {
  "note": "Murnaghan and Vinet proved at every volume; Birch-Murnaghan and Pourier-Tarantola pressures are computed with K''=0 and differ from -dE/dV at every volume other than V0 (violated)."
 },
 "C27": {
  "note": "Near V0 for all parameters; over all compressions for non-negative strain coefficients (second- and third-order fits with K' at least the second-order value)."
 },
 "C28": {
  "note": "EOS.fit proved; the interactive session always passes an explicit list, so implied parameters are left free (violated)."
 },
 "C29": {
  "note": "Volume data proved over all session histories; axial fits triple the shown modulus in place at each fit (violated)."
 },
 "C30": {
  "note": "Full; np.float of a typed value that is not a number is the only exception."
 },
 "C34": {
  "note": "Full for matrices of exact orthorhombic form; the calculator also uses the fast path for matrices that only match it within the classifier's tolerance."
 },
 "C39": {
  "note": "The projection of the group velocity on the wave normal equals the phase velocity when the eigenvalue is positive (C39_projection_partial). For a negative eigenvalue the code returns the opposite sign (C39_negative_violated)."
 },
 "C42": {
  "note": "The polar angle agrees with the direction (C42_theta_partial). The azimuth set by cartesian_direction uses arctan2(x, y) instead of arctan2(y, x) (C42_azimuth_violated)."
 },
 "C44": {
  "note": "Totality, first-match and soundness of the checked equalities proved for symmetric matrices; sign relations are never checked, hexagonal and tetragonal_high are shadowed or too weak, trigonal_high is misreported (violated). C44_exact says exactly what each class tests."
 },
 "C45": {
  "note": "`any(eigv) <= 0` never fires for an unstable invertible matrix (violated); the eigenvalues are nevertheless reported (partial)."
 },
 "C46": {
  "note": "Young's modulus and linear compressibility proved, for every search that is consistent and, over all directions, for every search that finds minima; for shear modulus and Poisson's ratio the extreme values are proved but the second axis is reported twice (violated)."
 },
 "C62": {
  "note": "The Python cofactor satisfies the cofactor identity for every matrix (C62_cofactor_partial). The compiled version returns None (C62_compiled_violated)."
 },
 "C69": {
  "note": "Exactness is stated for degree <= 4; for higher degrees the five-point fit is under-determined. K' of the polynomial path is modelled but nothing is claimed about it."
 },
 "C70": {
  "note": "The calculator asks the input reader for an attribute it never defines, so every such run raises AttributeError."
 },
 "C71": {
  "note": "Murnaghan proved; the other formulations use length strain, so a second-order axial fit of a cubic crystal differs from the volume fit (violated)."
 },
 "C65": {
  "note": "Scalar figures show the announced column at every node. Violated for the polarisation figure (arrows are columns 9 and 10, group velocity, instead of 4 and 5) and for the result-file header (column 13 announced as log10 A, stored raw)."
 },
 "C40": {
  "note": "Assumes LAPACK eigh and pinv meet their specification (EighCorrect, PinvCorrect); both are shown satisfiable. Eigenvalue derivatives for directions with three different velocities."
 },
 "C74": {
  "note": "Assumes eigh and pinv meet their specification (EighCorrect, PinvCorrect)."
 },
 "C43": {
  "note": "At least two polar angles and two azimuths; with one of either the run raises ZeroDivisionError (C43_single)."
 },
 "C47": {
  "note": "Proved for the upper-triangular and complete layouts of a file with a title line, and for files that are too short. The documented lower-triangular layout is misread, a leading sign breaks the detection of the title, and a wrong number of rows can be accepted (violated)."
 },
 "C48": {
  "note": "A full elastic file determines the matrix whatever was read before; density and title leak from the previous file, and so do the FORMAT and job name of the EoS reader (violated)."
 },
 "C49": {
  "note": "Write followed by read returns the matrix rounded to the printed digits, density and title; titles that start with a digit or contain a newline are not recovered (violated)."
 },
 "C50": {
  "note": "Proved for files with FORMAT before DATA that name the pressure; keyword titles, blank lines before the title and files without pressure break the claim (violated)."
 },
 "C51": {
  "note": "Long spellings fill their quantity; the short ones are accepted and their columns dropped (violated)."
 },
 "C75": {
  "note": "A title 'Unknown' makes the reader loop forever (C75_unknown_violated), and nothing else does: C75_only_partial says that reading never ends only when no title was read before and the title below a JOB keyword is exactly 'Unknown'; every other file is read or refused after every history."
 },
 "C56": {
  "note": "The code exchanges the rows/columns of yz and xz: the reader is right for xx, yy, zz, xy (C56_components_partial) and C56_shear_violated shows what is returned and that it is right exactly when the moduli are invariant under that exchange (false for the repository's own test OUTCAR, see SoecWitness)."
 },
 "C57": {
  "note": "Proved for outputs with exactly one block of total moduli, and for outputs without any (the last clamped-ion block is used); C57_refused covers outputs without moduli. Violated for two blocks of total moduli: the line counter is not incremented on a header line, the reader raises IndexError. C57_element: a word that is not a number makes the reader refuse the file and name the row and the column of the first such word."
 },
 "C58": {
  "note": "True for the first output read in a process; later reads add the upper triangle to the lower triangle left in the class-level array (C58_history_violated for arbitrary histories, C58_twice_violated)."
 },
 "C76": {
  "note": "All branches: density line found, absent, and refused outputs. C76_element: a word of the table that is not a number is named by row and column."
 },
 "C61": {
  "note": "The whole table is compared with an independent alphabetical list. Negative numbers from -119 to -1 are accepted by Python indexing (C61_negative_number); the property only requires unknown symbols to raise."
 },
 "C59": {
  "note": "Reading a zone-centre output never ends exactly when its first table lists fewer than three modes per atom before an empty line (C59_never_returns_partial, an equivalence); too many modes raise IndexError; any text without an empty line below a title is read or refused. The property as stated (always terminates) is violated (C59_hang_violated). That complete tables are expanded in order is C77_gamma and C78_dispersion_partial."
 },
 "C77": {
  "note": "Text-level theorem over all zone-centre outputs; the loop bound is any fuel of at least the number of lines plus two."
 },
 "C78": {
  "note": "Energy, volume, atoms, points, weights and bands are right (C78_dispersion_partial). The lattice vectors are right exactly when expansion matrix and lattice commute (C78_lattice_partial), wrong otherwise (C78_lattice_violated); outputs with missing tables are reported as complete (C78_missing_violated)."
 },
 "C79": {
  "note": "Violated: TypeError for every such output, since the table of k points is looked up unconditionally."
 },
 "C60": {
  "note": "Proved when each optimised cell agrees (within the tolerance of isclose) with exactly one volume of the table (C60_cells_partial): cells, volumes, energies and frequencies are then in the order of the table. Violated when two volumes of the table are within 1e-5 relative of each other: the reading completes with cells in a wrong order (C60_violated, text-level witness)."
 },
 "C80": {
  "note": "Violated: the expansion matrix belongs to the class and is only written for supercell outputs, so a unit-cell output read after a supercell output returns energies, volumes and atom numbers divided by the earlier determinant (C80_violated). C80_same_partial: the outcome is independent of the history for supercell outputs, or when the stored matrix is the same."
 },
 "C81": {
  "note": "Reports proved for other files, few volumes and restarted calculations; completion implies all three checks. Violated for an output without the table of volumes: IndexError (C81_no_table_violated)."
 },
 "C52": {
  "note": "Complete inputs proved to be returned number by number, lacking keys reported. Violated for a plain text containing the three words (marked completed) and for a reader used twice (stays completed). Also violated for an input without natom or qpoints, which is marked completed and raises KeyError later."
 },
 "C82": {
  "note": "Shape of the returned array, refusal of surplus q-points and of bands of a wrong length proved. Violated: missing bands and q-points are read as zeros, a single frequency is repeated, and a list without brackets is read as its first digit. A number of atoms that is not whole is truncated toward zero."
 },
 "C83": {
  "note": "Everything but the coordinates proved; coordinates are truncated to integers (C83_coordinates_violated) and a broken YAML file raises UnboundLocalError (C83_not_yaml_violated)."
 },
 "C53": {
  "note": "Proved: missing or unreadable files and unsupported interfaces are reported whatever the history; the quasi-harmonic interface never depends on the history; the first request of a process contains exactly its calculations (_partial). Violated: the list of calculations belongs to the class, so later requests, and requests after a refused one, also contain the earlier calculations."
 },
 "C84": {
  "note": "A reference inside the list is used (C53_fresh_partial, C85_multiple), one beyond the number of files is reported. Violated: a reference equal to the number of files passes the test and ends with IndexError; negative references count from the end or end with IndexError."
 },
 "C85": {
  "note": "The generated text denotes, in an independently specified fragment of YAML, the tree of the data, and the reader gives the data back within the printed accuracy. Violated for descriptions that YAML does not read as text (empty, a number): the reader then raises AttributeError for the description. C85_one_tree: a text denotes one tree only."
 },
 "C54": {
  "note": "Data sets, columns, rows and present attributes are proved; get_attribute tests `not <message>`, so an absent data set or attribute ends in KeyError instead of the message; indices out of range raise IndexError (h5py) instead of the message when the library raises IndexError; has_data returns a true value for an absent data set, so the generic exporter accepts it."
 },
 "C55": {
  "note": "Proved for every quantity of a quasi-harmonic run and for every harmonic quantity with a row per temperature; the harmonic exporter also offers the static energies (one dimension) and the zero-point energies (one row), whose export ends with IndexError and leaves a truncated file."
 },
 "C86": {
  "note": "Files never confirmed and never typed are kept by every dialogue, and no other files are written; a typed name is not checked: an existing file of that name is overwritten silently. The same for the elastic and seismic exporters."
 },
 "C87": {
  "note": "The dictionaries x, y and data are class attributes: after a second file is loaded the first exporter writes the data of the second file. An exporter used before another one is made writes its own data. The same for the elastic exporter; and a refused file changes the temperatures of the other exporters (C87_refused_violated)."
 },
 "C88": {
  "note": "Energies, entropy, moduli and Cv are consistent with their recorded units; Cp and Cp-Cv are labelled with the energy unit although their numbers are in thousandths of it, and volumes are labelled with a length."
 },
 "C63": {
  "note": "Helmholtz energy and heat capacity proved to be the integrals over the sinusoidal density of modes, consistent with each other (T dS/dT = Cv with S = -dF/dT). Violated for entropy: the denominator of its first term is squared, and the integral stops at 0.999 of the cutoff, leaving out more than 7 % of the modes."
 },
 "C66": {
  "note": "Names of results and log for all paths and -o values, files touched, results saved, unit and EoS options, angular points. Violations: -o naming a directory, -o of eosfit (UnboundLocalError), --nphi 720 with another --ntheta, the documented spelling cm^-1 is refused."
 },
 "C67": {
  "note": "Proved for elastic calculators for every history. Seismic calculators share a class-level flag: characterised for every history; one calculator asked to plot makes all others of the process report plotting, and the command then stops with AttributeError (violated)."
 },
 "C89": {
  "note": "Proved without -o and for -o names that do not coincide; an input x.txt with -o x, and an EoS input named *.log, are overwritten before being read (violated)."
 },
 "C90": {
  "note": "Files and outcome proved equal, and the quiet screen a subsequence of the loud one, for all runs. Nothing printed only if the calculator speaks through echo; echo_override, warnings, progress bars and 'Results not saved' are printed (violated)."
 },
 "C91": {
  "note": "Results file kept in all cases; the earlier log is emptied at the start of every run (violated)."
 },
 "C92": {
  "note": "Figures of the seismic and elastic commands for all option combinations. Violations: --no-2D keeps two plane figures, plotly without matplotlib stops with NameError, -p without --polar draws nothing, --only-plot without -p and -p after declining stop with AttributeError."
 },
 "C93": {
  "note": "Finite: the documented commands against the registered ones; `seismic` and `export seismic` are documented but not registered (violated), so that the program refuses them by C115 (C93_run_violated), and runs all the others (C93_run_partial)."
 },
 "C94": {
  "note": "Rows, directions and values from Hooke's law for every stable solid (searches are a parameter that descends; extremes when they find the least values of continuous periodic functions); closed sections without hypotheses. Missing and violated: solids orthorhombic only within the classifier's tolerance of 0.001, whose small constants the fast formulas drop."
 },
 "C95": {
  "note": "Stiffness, eigenvalues and all sections in SI units. Violations, for every solid: the compliance is recorded in TPa^-1 but given in GPa^-1; the averages are recorded in GPa although they include Poisson's ratio."
 },
 "C96": {
  "note": "With --polar exactly the calculated sections are saved. Violation: without --polar fifteen sections of zeros are saved. The placeholders are also exported as tables (C96_placeholder_tables_violated)."
 },
 "C99": {
  "note": "Axes, curves and points for all solids; the range holds for all quantities but the linear compressibility, and for Poisson's ratio when some ratio is not negative. Violations: a negative linear compressibility and a negative Poisson's ratio leave the range."
 },
 "C97": {
  "note": "Tables and offers proved for every file and every history of the shared dictionary. The claim of one width per table is false: rule, label line and rows always differ (C97_width_violated). Foreign files and files saved by the calculator are the histories considered."
 },
 "C98": {
  "note": "Tables proved for the only pressure unit the commands accept (GPa); refusals proved for all pairs of kinds. The fourteenth number is not the announced log10 of the enhancement factor but the factor (C98_enhancement_violated)."
 },
 "C100": {
  "note": "The polynomial fit is a parameter that returns a least-squares solution; such a fit exists (fits_exists)."
 },
 "C101": {
  "note": "Proved: the start is the real part of the stationary point nearest to zero of the closest quartic (C101_curve), the minimum for parabolas and for cubics that stiffen on compression. False in general: for every cubic whose maximum lies below its minimum the start is the maximum, with a negative modulus (C101_maximum_violated). numpy's polyfit and roots are parameters with their defining properties."
 },
 "C102": {
  "note": "Inner volumes exact for parabolas and between the neighbours for every differentiable curve; decreasing for every strictly convex curve. Violations: the first and last pressures are always wrong for a parabola; with an equation of state the Birch-Murnaghan and Pourier-Tarantola pressures exceed those of the fitted energy."
 },
 "C103": {
  "note": "Reads correctly for errors below 9.5 and from 10 on, unless two or more decimals are kept and the rounded value ends in zero. Violations: dropped trailing zeros, errors from 9.5 to 10, errors that are not a number. C103_block: one line per parameter with its symbol. Numbers are rationals."
 },
 "C104": {
  "note": "The fit itself (scipy's curve_fit) is external: the theorem says that the only least-squares optimum among solids is the true curve. Four volumes are needed (C104_three, for two formulations)."
 },
 "C105": {
  "note": "The optimiser (ODRPACK) is external: the theorem says that the only optimum among solids is the true curve. Tait and fourth order ask for a solid that stiffens; without this the claim is false: for any two volumes two Birch-Murnaghan solids of fourth order have identical pressures at every volume (C105_fourth_violated)."
 },
 "C106": {
  "note": "After a second-order axial fit the curve is drawn with K' of a volume fit (4, 2, 2 instead of 12, 6, 3) and the caller's array of parameters is overwritten (C106_axial_violated); the strain errors are too large or too small by the factor V0/V (C106_errors_violated). The errors of the normalised pressures have the same fault for Birch-Murnaghan and natural strain (C106_pressure_errors_violated) and are not proportional to the errors of the data for Vinet (C106_vinet_errors_violated)."
 },
 "C107": {
  "note": "The column titled 'P_obs (GPa)' holds the fitted pressures (C107_observed_violated); everything else in the report is as stated (C107_report_partial), and the implied flags are exactly right (C107_implied). The output of the orthogonal distance routine is an arbitrary record whose fitted values are the observed ones plus the residuals."
 },
 "C108": {
  "note": "Text of numbers over the rationals; files as in C50."
 },
 "C109": {
  "note": "The volumes are printed in cubic bohr under the title A^3 when the run uses bohr (C109_volume_violated); everything else is as stated (C109_table_partial, C109_heat_capacity for at least 50 temperatures; with fewer the columns are zero, see C16). The text of the pressure in the heading, '{}'.format, is a parameter."
 },
 "C110": {
  "note": "A frequency that does not depend on the volume is reported with R^2 = 0 and BAD! although the fit is exact (C110_constant_violated); the layout and verdicts are proved (C110_report_partial)."
 },
 "C111": {
  "note": "Without a density the log prints the average velocities as nan, because the test against np.nan always succeeds (C111_velocities_violated); everything else is proved (C111_input, C111_run_partial). The text of the density, '{}'.format, is a parameter."
 },
 "C112": {
  "note": "An input with a single volume written as a number ends a harmonic run in an exception at its report, and a quasi-harmonic run in a TypeError instead of a refusal (C112_single_violated); the report and the acceptance are proved for all inputs with a list of volumes (C112_report_partial, C112_accept)."
 },
 "C113": {
  "note": "The '{:.2f}' texts of the ranges and the choices of the command line are modelled; the ranges are exact rationals. C113_harmonic, C113_quasi_harmonic, C113_seismic and C113_elastic_eos give the lines, C113_determined says that equal blocks come from equal settings (the equation of state only when it is used)."
 },
 "C114": {
  "note": "A negative density is accepted (C114_negative_violated) and a singular matrix ends the command in an exception (C114_singular_violated); the rest is proved (C114_start_partial, C114_refused, C114_report). Numbers are exact, so singular means determinant zero; the text of the density is a parameter."
 },
 "C115": {
  "note": "The similarity (difflib's ratio) is a parameter; get_close_matches is modelled on top of it. C115_exact and C115_unknown cover every group; the registered groups are instances."
 },
 "C116": {
  "note": "Exact arithmetic; two matrices describe one crystal when the second answers turned strains with turned stresses."
 },
 "C117": {
  "note": "np.linalg.eigh and pinv by their documented specifications, pinv with its cut-off. Waves of equal velocity have no determined polarisation, so nothing is claimed about their rays."
 },
 "C118": {
  "note": "Full property, for eigh and pinv meeting their specifications. Degenerate waves are excluded by the cut-off of pinv; at a caustic (a = 0) the code divides by zero and the model gives 0."
 },
 "C119": {
  "note": "Full property; the waves for eigh meeting its specification."
 },
 "C120": {
  "note": "Proved for real arithmetic, given NumPy's polynomial fit and the minimiser's specification."
 },
 "C121": {
  "note": "Proved for real arithmetic, given NumPy's polynomial fit. The volumes at which the entropies of the bracket are read are the two equilibrium volumes."
 },
 "C122": {
  "note": "eigh and pinv are parameters with their documented behaviour (EighCorrect, PinvCorrect)."
 },
 "C123": {
  "note": "Spec.Copies says when two inputs describe the same crystal. Polynomial minimisation with energy fits of degree at most 3 (the default) to at least as many volumes as coefficients, so that fit and minimum are unique; frequency fits likewise. The pressure derivative of the bulk modulus is covered in the thermodynamic scheme when the free energy is convex within 0.1 per cent of the equilibrium volume. Minimisation through an equation of state rests on scipy's optimiser and is not covered."
 },
 "C124": {
  "note": "Proved for every formulation, order and choice of held parameters, with no uncertainties, uncertainties of the pressures, or of both, and for the energy fits. Fails when only the volumes have uncertainties (a choice the session offers): the pressures then have weight one in whatever unit they are written, so the best fit depends on the unit. The violation is proved for a held K' of -1, where the curve is a straight line, for every data set off the line and every conversion. The regressions of scipy are specified as returning parameters of least misfit."
 },
 "C125": {
  "note": "Proved for hexagonal, tetragonal, trigonal, orthorhombic and cubic matrices in the standard setting (axis along z); monoclinic and triclinic crystals have no symmetry beyond C117 and the inversion. Power flow angle and enhancement factor repeat for correct eigensolver and pseudo-inverse under the conditions written in SameWaves. Witnesses: periclase (cubic) and a quartz-like trigonal matrix."
 },
 "C126": {
  "note": "Monotonicity holds for positive frequencies only: a mode that turns from real to imaginary is dropped, so its contribution jumps from minus infinity to zero (C126_soft_mode)."
 },
 "C127": {
  "note": "Volumes: C127_volumes (polynomials), C127_volumes_eos (equations of state, for every fit that follows a shift of the energies, Spec.ShiftsE0). C127_no_expansion: alpha, gamma, Cp - Cv vanish, KS = KT, and Cp = Cv from 50 temperatures on (with fewer the program exports Cp = 0: C16_short_grid_violated). C127_moduli: KT and its derivative. C127_harmonic: entropy, Cv and vibrational energies."
 },
 "C128": {
  "note": "At an equilibrium volume that is an input volume, with as many coefficients as volumes, all energies are the harmonic ones."
 },
 "C129": {
  "note": "Proved for both modules. The order of stiffness is stated by the elastic energy of every strain; the middle wave needs the min-max argument."
 },
 "C130": {
  "note": "Proved. The search (scipy brute force and simplex) is a parameter: it returns the value at its point, and the smallest value when there is one."
 },
 "C131": {
  "note": "Proved: quasi-harmonic files of any job are accepted and all quantities but the thermal expansion are exported as tables; harmonic files whose job name does not contain \"(QHA)\" are accepted and the quantities with one value per temperature and volume exported; sessions of any length write exactly the chosen files; no other file is changed whatever is typed. Violations of the code, proved: thermal expansions are written with eight decimals because the description contains \"volume\", and as zero below 5e-9; the static energy ends with IndexError; a harmonic job named with \"(QHA)\" ends with KeyError; elastic and seismic files are accepted but every export ends with AttributeError; a file without the text of Quantas raises KeyError instead of giving the message. Volumes are labelled with the unit of length."
 },
 "C132": {
  "note": "Partial because two parts are false of the code: the colour bar of the plane figure of the power flow angle carries a label with an unopened brace (C132_label_violated; whether matplotlib draws it or stops is outside the model), and both projections of the ratios are written to the same file (C132_file_violated). Colours, fonts and contour lines are not modelled."
 },
 "C133": {
  "note": "Means are integrals over the spherical angles, written in Elastic/Orientation.lean apart from the model. The compliance is the exact inverse of the stiffness, as in C36."
 },
 "C134": {
  "note": "The thermal expansion at 0 K is a forward difference and is not claimed to vanish."
 },
 "C135": {
  "note": "The bounds are proved for frequency interpolation at every volume, and for the default scheme at input volumes; C135_interpolation_violated gives an input with positive frequencies whose exported entropy and heat capacity at 300 K are negative with the default scheme, for every correct fitting routine."
 },
 "C136": {
  "note": "C136_one_volume for the four unbounded formulations, C136_tait for Tait's with its limiting pressure."
 },
 "C17": {
  "note": "Start, spacing and coverage proved; a grid whose step does not divide the range always ends above max (C17_no_overshoot_violated), by less than one step. In binary64 arithmetic, modelled operation by operation, one point above max can also appear when the step divides the range: 1 to 1.2 by 0.1 ends at 1.3 (C17_binary_violated); never more than one, and the points are right up to rounding (C17_binary_partial). For minimum and step that are whole numbers or have few binary places the grid computed in binary64 is exactly the expected one (C17_binary_exact)."
 },
 "C137": {
  "note": "All units but the angstrom have their SI size (C137_sizes_partial). The angstrom is taken from the CODATA entry 'Angstrom star', an X-ray unit: lengths, volumes, pressures and bulk moduli in angstrom are off by 1.5 to 4.5 parts in 10^5 for every value (violated)."
 },
 "C138": {
  "note": "Quasi-harmonic result files say 'Job: Unknown' for every input (qha.py:1247 tests the attribute 'job', the reader has 'jobname'); elastic and seismic result files have no job line. Proved for harmonic files."
 },
 "C139": {
  "note": "The error for short arrays is LenError only when both arrays are short, otherwise numpy's ValueError; the docstring says dX/dY, the result is dY/dX."
 },
 "C140": {
  "note": "Proved for polynomial minimisation with external routines meeting their specification; the convexity between the two volumes needed for the sign is automatic for parabolas (edeg <= 2), a hypothesis above. Witness: a crystal that expands from 0 K on in both schemes."
 },
 "C141": {
  "note": "Proved for every direction and average. Hypothesis Resists is the elastic-energy bound; resists_isotropic and close_isotropic exhibit a crystal and a rounding that meet all hypotheses."
 },
 "C142": {
  "note": "Proved for CRYSTAL outputs with any title the file format can carry (C142_crystal_partial), and for VASP outputs as far as the averages go, or for moduli that do not change when yz and xz are exchanged (C142_vasp_partial). Violated by titles that start with a digit, which make the written file unreadable (C142_title_violated), and by VASP outputs in general, whose yz and xz moduli are exchanged (C142_vasp_violated: a stable crystal with Young's modulus 1/3 GPa in some direction, reported minimum above 0.35 GPa)."
 },
 "C143": {
  "note": "Proved for the texts of harmonic and quasi-harmonic result files; the name of the job is the subject of C138."
 },
 "C144": {
  "note": "From every generated input with at most ten decimals in its frequencies (C144_input, several weighted q-points, all selectable units) and from CRYSTAL zone-centre outputs (C144_crystal). Dispersion outputs and the temperature zero are left to C14 and C79."
 },
 "C145": {
  "note": "Zero-point energy, thermal energy and heat capacity: relative error bounds for every list of modes. Entropy and free energy: absolute bounds when every quantum is at least 1e-9 k_B T (partial); for quanta below 1e-17 k_B T binary64 gives values that are not finite (C145_lost_violated). Exponents are unlimited in the model: no overflow, quanta at most 700 k_B T. No contraction of multiplications and additions (setup.py asks for none)."
 },
 "C12": {
  "note": "C12_bitwise holds for numbers of any kind (no law of addition is used): the results of two schedules agree in every bit."
 },
 "C146": {
  "note": "Arithmetic with 53 binary digits without overflow or underflow; the numpy evaluation is modelled as Horner's scheme with one rounding for each operation."
 },
 "C147": {
  "note": "C147_dispersion for one or several dispersion outputs with a supercell of positive determinant; C147_quasi_harmonic for a quasi-harmonic output. In a new process, and with weights that do not sum to zero; temperature zero is left to C14."
 },
 "C148": {
  "note": "C148_input for generated inputs, C148_crystal, C148_dispersion and C148_quasi_harmonic from the outputs, C148_few for the refusal, C148_four_volumes for success. Exact arithmetic; polyfit and the root finder are parameters that meet their documentation."
 },
 "C149": {
  "note": "With the unit eV the harmonic and (polynomial minimisation) quasi-harmonic results are those of the phonopy calculations. Violated with the default units: the generator writes the energy of VASP in electronvolt without conversion or a note, and the commands read it as hartree; the free energy is wrong by more than 26 times the static energy."
 },
 "C150": {
  "note": "The fitted curve has, at the reported volume, the pressure asked for and the reported moduli, whenever a best fit exists. Free energies on a curve of the formulation are recovered exactly at zero pressure, and at every pressure for Murnaghan, which is closed under adding pV. For Birch–Murnaghan (the default) at a positive pressure they are not: F + pV is fitted with a formula it does not obey, and in the example the volume reported has a pressure 13 % too high. The fit itself (scipy) is assumed to return a best fit whenever there is one."
 },
 "C151": {
  "note": "Proved for the parameters that a fit refines (K0 and V0 always, K' from the third order, K'' at the fourth), for every file, formulation, order, session and choice of weights, with the regression trusted up to an error that enters the bound. Violated for the parameters that the order implies: a K' held in a second-order fit is printed as entered, although the fitted curve has another (C151_implied_violated). Whether the log marks implied parameters is C107."
 },
 "C152": {
  "note": "Bounds and there-and-back proved for every machine with correctly rounded operations; binary64 (unlimited exponents) is shown to be one. Violated: a conversion to the same unit is not the identity, 0.1 degrees Celsius become 0.10000000000002274 (C152_identity_violated). C152_order adds that conversions keep the order of values when rounding is monotone, as C152_computer_order shows that of doubles to be."
 },
 "C153": {
  "note": "Composition of the phonon chain (C144, C147, C149) with the generic exporter (C131): every cell of the six tables of harmonic results, within (eps + 1e-12) (|true| + |static energy|). The relation between the computed results and the numbers stored in the result file is a relative error eps, a parameter. Partial: phonopy calculations need the energy unit eV to be requested (C149_default_violated)."
 },
 "C154": {
  "note": "Rounding errors of the generic elastic class: the compliance matrix is the one linalg.inv returned (its own error is that of LAPACK and not modelled), exponents are unlimited. np.einsum may add in any order (Adds). The closed forms of the orthorhombic class are not covered; in exact arithmetic they agree (C34)."
 },
 "C155": {
  "note": "Composition of the quasi-harmonic chain (C148, C149) with the generic exporter (C131): line, column and entry of every table but that of the thermal expansion (C131_expansion_violated), and what the entries of the tables of volumes and of four fitted functions are. The relation between the computed results and the numbers stored in the result file is a relative error eps, a parameter. Partial: phonopy calculations need the energy unit eV to be requested (C149_default_violated)."
 },
 "C156": {
  "note": "Partial: crystals that are orthorhombic only within the tolerance of the classifier (C94_near_violated), lower triangles (C47_lower_violated); lines with values above 100000 do not fit the columns and are left out. The minimiser and the eigenvalue solver are parameters; the saved numbers carry a relative error."
 },
 "C157": {
  "note": "Plane waves with the reported polarisation and positive phase velocity solve the equation of motion and carry their energy with the reported group velocity (C157_motion); no other plane wave along the direction does (C157_only)."
 },
 "C158": {
  "note": "Proved for columns 1-13 of the tables (C158_waves_partial). Missing: column 14 holds the enhancement factor instead of its logarithm (C98_enhancement_violated), lower triangles (C47_lower_violated) and files without a title."
 },
 "C159": {
  "note": "Proved: any node of any run equals the run asked for that node alone (twelve quantities), hence any two grids agree on shared nodes; sub-grids of working grids work; errors come from a node alone. Thermal expansion, Cp, Cp-Cv, KS and the Grüneisen parameter agree when both grids have at least 50 temperatures and the next temperature is shared (the forward difference quotient uses it). Violated for short grids: with fewer than 50 temperatures (qha.py:869-886) Cp, the expansion and the Grüneisen parameter are written as 0, so the same temperature and pressure give another Cp than in a longer run."
 },
 "C160": {
  "note": "C160_between bounds Young's modulus, the shear modulus in every direction and the averages; C160_waves the three phase velocities of both elastic calculators (with LAPACK's eigenvalue routine assumed correct, as in C37). C160_cubic and C160_cubic_waves give the two media of a cubic crystal, and C160_attained shows that the bounds for the moduli cannot be improved."
 },
 "C161": {
  "note": "Full, for a machine without overflow or underflow. The accuracy of np.linalg.eigh is a hypothesis (EighAccurate), as LAPACK documents it; it is met by a routine that returns the exact eigenvalues. C154_computer shows that binary64 with correctly rounded library functions is such a machine."
 },
 "C162": {
  "note": "Every accuracy bound holds for all machines with the stated accuracy. The exact zero at the reference volume is proved for four formulations; the modified Tait equation violates it (C162_tait_violated: K' one unit in the last place above 6 leaves a positive pressure). Energies of Murnaghan and Vinet need K' of at least 2, since the code divides by K'-1. Overflow and underflow are not modelled."
 },
 "C163": {
  "note": "All statements are proved for every arithmetic with the stated accuracy. Overflow, underflow and fused multiply-add are not modelled. That the converted inputs are good to a few units in the last place is C152."
 },
 "C164": {
  "note": "A crystal is a pair of functions of the volume; an input is a sample of it. Polynomial fit and root finder are parameters with the usual contracts (least squares, all real roots). With equal volumes at two samplings the frequency scheme gives equal columns at every temperature by C164_columns; at positive temperatures the free energy is not a polynomial, so equality of the volumes is stated at absolute zero. Frequencies are non-negative at the sampled volumes (the code drops negative ones)."
 },
 "C165": {
  "note": "Real arithmetic; rounding is C145. Modes with non-positive frequency are dropped by the code, so positive frequencies are assumed."
 },
 "C166": {
  "note": "Lipschitz bounds in the logarithm of the frequency, with constants that do not depend on temperature, frequency or crystal; two-sided, each mode with its own error."
 },
 "C167": {
  "note": "The exact crystal is an arbitrary pair of functions of the volume; eta and eta' measure its distance from polynomials. Volumes are compared inside an interval on which the free energy of the crystal has curvature at least kappa. Exact arithmetic; least squares and roots are the specified external routines."
 },
 "C168": {
  "note": "Limits over all finer runs (C168_limit, C168_derived), with existence of such runs (C168_persists) and the derivative of the equilibrium volumes (C168_definition). Real arithmetic; the fit and the roots are those of correct external routines. Degrees above three are left out: there the run may go from one minimum to another between two temperatures."
 },
 "C169": {
  "note": "Exact trapezoidal rule between any two pressures of a run, and the limit of the difference quotient over all grids; fits of degree 3 or less and thermodynamic interpolation. Cases: QHA/ThermoCurvesCases.lean."
 },
 "C170": {
  "note": "The reported columns are samples of functions of the temperature whose derivatives obey the identities; Cp is the limit of the reported one by C168. Fits of degree 3 or less, thermodynamic interpolation, above absolute zero. Cases: QHA/ThermoCurvesCases.lean."
 },
 "C171": {
  "note": "The reported columns are samples of functions of the pressure whose derivatives obey the identities, among them the relation of Maxwell with C170; runs nearby succeed. Fits of degree 3 or less, thermodynamic interpolation. Case: QHA/PressureCurvesCases.lean."
 },
 "C172": {
  "note": "C172_bracket_partial: the bracket holds once the misfit of the two descriptions of the free energy is taken off the Gibbs energies; C172_absolute_zero_partial: there is no misfit at 0 K with equal degrees and positive interpolated frequencies; C172_gibbs_violated: with different degrees a crystal with positive frequencies reports Gibbs energies that grow by more than the larger volume times the pressure difference."
 },
 "C173": {
  "note": "Binary64 without limits of the exponent, as in C17; numpy's linspace is modelled from its definition. The sine and cosine of the directions are exact."
 },
 "C174": {
  "note": "Full. The group velocity of each wave lies between its phase velocity and that of the fastest wave along the ray; hence below the longitudinal wave of some direction and below the Voigt bound. The eigensolver is the parameter of EighCorrect."
 },
 "C175": {
  "note": "Full for Young's modulus, the linear compressibility and the wave velocities of a generic crystal; the sections of the shear modulus and of Poisson's ratio come from scipy's search and are not covered. Exponents are not limited, as in C154."
 },
 "C176": {
  "note": "Full for the phase velocities; group velocities, power flow angles and enhancement factors depend on the eigenvectors, which near degenerate waves are not determined by rounded data. Exponents are not limited, as in C161."
 },
 "C177": {
  "note": "Full, for parameter sets on which the formula is defined."
 },
 "C178": {
  "note": "Full."
 },
 "C179": {
  "note": "Full, for frequencies that stay positive. It concerns the functions themselves; the value a quasi-harmonic run exports is computed from fits (C168)."
 },
 "C180": {
  "note": "Full, with np.linalg.eigh meeting its documentation (EighCorrect)."
 },
 "C181": {
  "note": "Full."
 },
 "C182": {
  "note": "Full, with np.linalg.eigh meeting its documentation (EighCorrect)."
 },
 "C183": {
  "note": "Full for the quantifier given: matrices that are orthorhombic only within the tolerance of the classifier are outside, see C94_near_violated."
 },
 "C184": {
  "note": "Full for the four formulations named."
 },
 "C185": {
  "note": "Full, for positive frequencies and temperatures in exact arithmetic."
 },
 "C186": {
  "note": "Missing: solids that are orthorhombic only within the tolerance of the classifier, for which the sections belong to another solid (C94_near_violated). The search is a parameter that returns an exact local minimum."
 },
 "C187": {
  "note": "Full for polynomial minimisation in exact arithmetic with a least-squares fit and a root finder that is a function of the coefficients. With an equation of state a linear term leaves the family of curves and no such equality can hold."
 }
}