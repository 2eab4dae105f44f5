{
 "claims": [
  {
   "property": "C01",
   "status": "proved",
   "theorems": [
    "Verif.Units.C01_faithful",
    "Verif.Units.C01_round_trip",
    "Verif.Units.C01_compose",
    "Verif.Units.C01_identity",
    "Verif.Units.C01_strictMono"
   ],
   "note": "Full statement over all arrays and names (ASCII case folding)."
  },
  {
   "property": "C02",
   "status": "partial",
   "theorems": [
    "Verif.Units.C02_documented_names_violated",
    "Verif.Units.C02_faithful_partial",
    "Verif.Units.C02_round_trip",
    "Verif.Units.C02_compose",
    "Verif.Units.C02_linear"
   ],
   "note": "The code rejects the documented names hartree and rydberg (C02_documented_names_violated); everything else is proved for the recognised names."
  },
  {
   "property": "C03",
   "status": "proved",
   "theorems": [
    "Verif.Units.C03_faithful",
    "Verif.Units.C03_round_trip",
    "Verif.Units.C03_compose",
    "Verif.Units.C03_linear",
    "Verif.Units.C03_strictMono"
   ],
   "note": ""
  },
  {
   "property": "C04",
   "status": "proved",
   "theorems": [
    "Verif.Units.C04_frequency_faithful",
    "Verif.Units.C04_length_faithful",
    "Verif.Units.C04_volume_faithful",
    "Verif.Units.C04_frequency_round_trip",
    "Verif.Units.C04_length_round_trip",
    "Verif.Units.C04_volume_round_trip",
    "Verif.Units.C04_frequency_compose",
    "Verif.Units.C04_length_compose",
    "Verif.Units.C04_volume_compose",
    "Verif.Units.C04_volume_is_length_cubed"
   ],
   "note": ""
  },
  {
   "property": "C05",
   "status": "proved",
   "theorems": [
    "Verif.Units.C05_energy_to_pressure",
    "Verif.Units.C05_pressure_to_energy",
    "Verif.Units.C05_inverse",
    "Verif.Units.C05_units_independent",
    "Verif.Units.C05_reject"
   ],
   "note": ""
  },
  {
   "property": "C06",
   "status": "partial",
   "theorems": [
    "Verif.Units.Alias.C06_same_object",
    "Verif.Units.Alias.C06_new_object",
    "Verif.Units.C06_argument_unchanged_violated",
    "Verif.Units.C06_integers_raise_violated",
    "Verif.Units.C06_argument_unchanged_partial",
    "Verif.Units.C06_result_aliases_violated",
    "Verif.Units.C06_in_place_violated"
   ],
   "note": "energy_to_pressure and pressure_to_energy overwrite a float ndarray argument even when they raise (violated); the six convert_* functions are proved to leave every existing array unchanged."
  },
  {
   "property": "C07",
   "status": "proved",
   "theorems": [
    "Verif.StatMech.C07_F_eq_U_minus_TS",
    "Verif.StatMech.C07_zpe_constant"
   ],
   "note": ""
  },
  {
   "property": "C08",
   "status": "proved",
   "theorems": [
    "Verif.StatMech.C08_entropy_is_minus_dF",
    "Verif.StatMech.C08_heat_capacity_is_dU",
    "Verif.StatMech.C08_heat_capacity_is_T_dS"
   ],
   "note": ""
  },
  {
   "property": "C09",
   "status": "proved",
   "theorems": [
    "Verif.StatMech.C09_bounds"
   ],
   "note": ""
  },
  {
   "property": "C10",
   "status": "proved",
   "theorems": [
    "Verif.StatMech.C10_low_temperature",
    "Verif.StatMech.C10_high_temperature"
   ],
   "note": ""
  },
  {
   "property": "C11",
   "status": "proved",
   "theorems": [
    "Verif.StatMech.C11_monotone"
   ],
   "note": ""
  },
  {
   "property": "C12",
   "status": "proved",
   "theorems": [
    "Verif.StatMech.Bits.C12_bitwise",
    "Verif.StatMech.C12_any_schedule"
   ],
   "note": "C12_bitwise holds for numbers of any kind (no law of addition is used): the results of two schedules agree in every bit."
  },
  {
   "property": "C13",
   "status": "proved",
   "theorems": [
    "Verif.StatMech.C13_q_points",
    "Verif.StatMech.C13_bands",
    "Verif.StatMech.C13_imaginary_modes"
   ],
   "note": ""
  },
  {
   "property": "C14",
   "status": "proved",
   "theorems": [
    "Verif.HA.C14_consistent",
    "Verif.HA.C14_weights",
    "Verif.HA.C14_in_users_units",
    "Verif.HA.C14_unit_independent",
    "Verif.HA.C14_selectable_units"
   ],
   "note": ""
  },
  {
   "property": "C15",
   "status": "proved",
   "theorems": [
    "Verif.QHA.C15_legendre",
    "Verif.QHA.C15_differences",
    "Verif.QHA.C15_kernels"
   ],
   "note": ""
  },
  {
   "property": "C16",
   "status": "partial",
   "theorems": [
    "Verif.QHA.C16_relations_partial",
    "Verif.QHA.C16_units_of_KS",
    "Verif.QHA.C16_degenerate",
    "Verif.QHA.C16_inequalities_partial",
    "Verif.QHA.C16_short_grid_violated"
   ],
   "note": "Proved for runs with at least 50 temperatures; with fewer the code exports Cp = 0 although Cp-Cv = 0 and KS = KT, so KS*Cv = KT*Cp and Cp >= Cv fail (violated)."
  },
  {
   "property": "C17",
   "status": "partial",
   "theorems": [
    "Verif.Grid.Binary.C17_binary_partial",
    "Verif.Grid.Binary.C17_binary_violated",
    "Verif.Grid.Binary.C17_binary_exact",
    "Verif.Grid.Binary.C17_rounding",
    "Verif.Grid.C17_starts_and_spacing",
    "Verif.Grid.C17_divides_partial",
    "Verif.Grid.C17_bounded_partial",
    "Verif.Grid.C17_no_overshoot_violated"
   ],
   "note": "Start, spacing and coverage proved; a grid whose step does not divide the range always ends above max (C17_no_overshoot_violated), by less than one step. In binary64 arithmetic, modelled operation by operation, one point above max can also appear when the step divides the range: 1 to 1.2 by 0.1 ends at 1.3 (C17_binary_violated); never more than one, and the points are right up to rounding (C17_binary_partial). For minimum and step that are whole numbers or have few binary places the grid computed in binary64 is exactly the expected one (C17_binary_exact)."
  },
  {
   "property": "C18",
   "status": "proved",
   "theorems": [
    "Verif.Grid.Binary.C18_binary",
    "Verif.Grid.C18_fine_grid",
    "Verif.Grid.C18_symmetric_iff_odd"
   ],
   "note": ""
  },
  {
   "property": "C19",
   "status": "proved",
   "theorems": [
    "Verif.QHA.C19_quotients",
    "Verif.QHA.C19_affine_exact",
    "Verif.QHA.C19_mean_value",
    "Verif.QHA.C19_short_grid"
   ],
   "note": ""
  },
  {
   "property": "C20",
   "status": "proved",
   "theorems": [
    "Verif.Poly.C20_candidates",
    "Verif.Poly.C20_strict_local_minimum",
    "Verif.QHA.C20_equilibrium_volume",
    "Verif.QHA.C20_run_succeeds_iff"
   ],
   "note": ""
  },
  {
   "property": "C21",
   "status": "proved",
   "theorems": [
    "Verif.Poly.C21_polyval",
    "Verif.Poly.C21_multi_interpolate",
    "Verif.Poly.C21_linear",
    "Verif.Poly.C21_ranks"
   ],
   "note": ""
  },
  {
   "property": "C22",
   "status": "proved",
   "theorems": [
    "Verif.Poly.C22_nonneg",
    "Verif.Poly.C22_exact_fit",
    "Verif.Poly.C22_agree",
    "Verif.Poly.C22_least_squares"
   ],
   "note": ""
  },
  {
   "property": "C23",
   "status": "proved",
   "theorems": [
    "Verif.EoS.C23_parameters",
    "Verif.EoS.C23_which_Kp",
    "Verif.EoS.C23_truncation"
   ],
   "note": ""
  },
  {
   "property": "C24",
   "status": "partial",
   "theorems": [
    "Verif.EoS.C24_second_derivative_partial",
    "Verif.EoS.C24_vinet_violated"
   ],
   "note": "Murnaghan, Birch-Murnaghan, natural strain and Tait proved; the Vinet implied K'' uses 19/46 instead of 19/36 and is never the curve's second derivative (violated)."
  },
  {
   "property": "C25",
   "status": "proved",
   "theorems": [
    "Verif.EoS.C25_lowest",
    "Verif.EoS.C25_stretched",
    "Verif.EoS.C25_minimum"
   ],
   "note": ""
  },
  {
   "property": "C26",
   "status": "partial",
   "theorems": [
    "Verif.EoS.C26_pressure_partial",
    "Verif.EoS.C26_pressure_violated"
   ],
   "note": "Murnaghan and Vinet proved at every volume; Birch-Murnaghan and Pourier-Tarantola pressures are computed with K''=0 and differ from -dE/dV at every volume other than V0 (violated)."
  },
  {
   "property": "C27",
   "status": "proved",
   "theorems": [
    "Verif.EoS.C27_near_equilibrium",
    "Verif.EoS.C27_compression",
    "Verif.EoS.C27_all_volumes",
    "Verif.EoS.C27_fits"
   ],
   "note": "Near V0 for all parameters; over all compressions for non-negative strain coefficients (second- and third-order fits with K' at least the second-order value)."
  },
  {
   "property": "C28",
   "status": "partial",
   "theorems": [
    "Verif.Session.C28_job",
    "Verif.Session.C28_fixed",
    "Verif.Session.C28_session_violated"
   ],
   "note": "EOS.fit proved; the interactive session always passes an explicit list, so implied parameters are left free (violated)."
  },
  {
   "property": "C29",
   "status": "partial",
   "theorems": [
    "Verif.Session.C29_carried",
    "Verif.Session.C29_starting_parameters_partial",
    "Verif.Session.C29_shown",
    "Verif.Session.C29_axial_violated",
    "Verif.Session.C29_history_violated"
   ],
   "note": "Volume data proved over all session histories; axial fits triple the shown modulus in place at each fit (violated)."
  },
  {
   "property": "C30",
   "status": "proved",
   "theorems": [
    "Verif.Session.C30_choose",
    "Verif.Session.C30_session",
    "Verif.Session.C30_defaults",
    "Verif.Session.C30_fixed_answers",
    "Verif.Session.C30_one_fit",
    "Verif.Session.C30_return",
    "Verif.Session.C30_progress",
    "Verif.Session.C30_no_failures"
   ],
   "note": "Full; np.float of a typed value that is not a number is the only exception."
  },
  {
   "property": "C31",
   "status": "proved",
   "theorems": [
    "Verif.Elastic.C31_tensors",
    "Verif.Elastic.C31_both_modules"
   ],
   "note": ""
  },
  {
   "property": "C32",
   "status": "proved",
   "theorems": [
    "Verif.Elastic.C32_young",
    "Verif.Elastic.C32_compressibility",
    "Verif.Elastic.C32_polar",
    "Verif.Elastic.C32_reversal",
    "Verif.Elastic.C32_isotropic"
   ],
   "note": ""
  },
  {
   "property": "C33",
   "status": "proved",
   "theorems": [
    "Verif.Elastic.C33_shear",
    "Verif.Elastic.C33_poisson",
    "Verif.Elastic.C33_reciprocity"
   ],
   "note": ""
  },
  {
   "property": "C34",
   "status": "proved",
   "theorems": [
    "Verif.Elastic.C34_fast_path",
    "Verif.Elastic.C34_calculator"
   ],
   "note": "Full for matrices of exact orthorhombic form; the calculator also uses the fast path for matrices that only match it within the classifier's tolerance."
  },
  {
   "property": "C35",
   "status": "proved",
   "theorems": [
    "Verif.Elastic.C35_orthonormal",
    "Verif.Elastic.C35_complete",
    "Verif.Elastic.C35_modules"
   ],
   "note": ""
  },
  {
   "property": "C36",
   "status": "proved",
   "theorems": [
    "Verif.Elastic.C36_ordered",
    "Verif.Elastic.C36_relations",
    "Verif.Elastic.C36_isotropic",
    "Verif.Elastic.C36_modules"
   ],
   "note": ""
  },
  {
   "property": "C37",
   "status": "proved",
   "theorems": [
    "Verif.Seismic.C37_same_matrix",
    "Verif.Seismic.C37_velocities"
   ],
   "note": ""
  },
  {
   "property": "C38",
   "status": "proved",
   "theorems": [
    "Verif.Seismic.C38_isotropic"
   ],
   "note": ""
  },
  {
   "property": "C39",
   "status": "partial",
   "theorems": [
    "Verif.Seismic.C39_projection_partial",
    "Verif.Seismic.C39_negative_violated"
   ],
   "note": "The projection of the group velocity on the wave normal equals the phase velocity when the eigenvalue is positive (C39_projection_partial). For a negative eigenvalue the code returns the opposite sign (C39_negative_violated)."
  },
  {
   "property": "C40",
   "status": "proved",
   "theorems": [
    "Verif.Seismic.C40_matrix",
    "Verif.Seismic.C40_eigenvalues"
   ],
   "note": "Assumes LAPACK eigh and pinv meet their specification (EighCorrect, PinvCorrect); both are shown satisfiable. Eigenvalue derivatives for directions with three different velocities."
  },
  {
   "property": "C41",
   "status": "proved",
   "theorems": [
    "Verif.Seismic.C41_current_direction",
    "Verif.Seismic.C41_cleared"
   ],
   "note": ""
  },
  {
   "property": "C42",
   "status": "partial",
   "theorems": [
    "Verif.Seismic.C42_theta_partial",
    "Verif.Seismic.C42_azimuth_violated",
    "Verif.Seismic.C42_group_partial"
   ],
   "note": "The polar angle agrees with the direction (C42_theta_partial). The azimuth set by cartesian_direction uses arctan2(x, y) instead of arctan2(y, x) (C42_azimuth_violated)."
  },
  {
   "property": "C43",
   "status": "proved",
   "theorems": [
    "Verif.Seismic.C43_rows",
    "Verif.Seismic.C43_ends",
    "Verif.Seismic.C43_reader",
    "Verif.Seismic.C43_mesh",
    "Verif.Seismic.C43_single"
   ],
   "note": "At least two polar angles and two azimuths; with one of either the run raises ZeroDivisionError (C43_single)."
  },
  {
   "property": "C44",
   "status": "partial",
   "theorems": [
    "Verif.Elastic.C44_exact",
    "Verif.Elastic.C44_total_first",
    "Verif.Elastic.C44_sound_partial",
    "Verif.Elastic.C44_recognised",
    "Verif.Elastic.C44_tetragonal_violated",
    "Verif.Elastic.C44_hexagonal_violated",
    "Verif.Elastic.C44_trigonal_violated"
   ],
   "note": "Totality, first-match and soundness of the checked equalities proved for symmetric matrices; sign relations are never checked, hexagonal and tetragonal_high are shadowed or too weak, trigonal_high is misreported (violated). C44_exact says exactly what each class tests."
  },
  {
   "property": "C45",
   "status": "partial",
   "theorems": [
    "Verif.Elastic.C45_unstable_violated",
    "Verif.Elastic.C45_reported_partial"
   ],
   "note": "`any(eigv) <= 0` never fires for an unstable invertible matrix (violated); the eigenvalues are nevertheless reported (partial)."
  },
  {
   "property": "C46",
   "status": "partial",
   "theorems": [
    "Verif.Chain.C46_tolerance_partial",
    "Verif.Elastic.C46_extremes",
    "Verif.Elastic.C46_pair_extremes_partial",
    "Verif.Elastic.C46_run_partial",
    "Verif.Elastic.C46_single_axis_partial",
    "Verif.Elastic.C46_two_axes_violated"
   ],
   "note": "Young's modulus and linear compressibility proved, for every search that is consistent and, over all directions, for every search that finds minima; for shear modulus and Poisson's ratio the extreme values are proved but the second axis is reported twice (violated)."
  },
  {
   "property": "C47",
   "status": "partial",
   "theorems": [
    "Verif.IO.C47_matrix_partial",
    "Verif.IO.C47_lower_violated",
    "Verif.IO.C47_sign_violated",
    "Verif.IO.C47_shape_violated",
    "Verif.IO.C47_completed_partial",
    "Verif.IO.C47_short",
    "Verif.IO.C47_density"
   ],
   "note": "Proved for the upper-triangular and complete layouts of a file with a title line, and for files that are too short. The documented lower-triangular layout is misread, a leading sign breaks the detection of the title, and a wrong number of rows can be accepted (violated)."
  },
  {
   "property": "C48",
   "status": "partial",
   "theorems": [
    "Verif.IO.C48_eos_title_violated",
    "Verif.IO.C48_eos_format_violated",
    "Verif.IO.C48_soec_partial",
    "Verif.IO.C48_soec_density_violated",
    "Verif.IO.C48_soec_title_violated"
   ],
   "note": "A full elastic file determines the matrix whatever was read before; density and title leak from the previous file, and so do the FORMAT and job name of the EoS reader (violated)."
  },
  {
   "property": "C49",
   "status": "partial",
   "theorems": [
    "Verif.IO.C49_roundtrip_partial",
    "Verif.IO.C49_title_violated"
   ],
   "note": "Write followed by read returns the matrix rounded to the printed digits, density and title; titles that start with a digit or contain a newline are not recovered (violated)."
  },
  {
   "property": "C50",
   "status": "partial",
   "theorems": [
    "Verif.IO.C50_columns_partial",
    "Verif.IO.C50_format_first",
    "Verif.IO.C50_title_violated",
    "Verif.IO.C50_pressure_violated",
    "Verif.IO.C50_blank_violated"
   ],
   "note": "Proved for files with FORMAT before DATA that name the pressure; keyword titles, blank lines before the title and files without pressure break the claim (violated)."
  },
  {
   "property": "C51",
   "status": "partial",
   "theorems": [
    "Verif.IO.C51_spelling_violated",
    "Verif.IO.C51_long_partial"
   ],
   "note": "Long spellings fill their quantity; the short ones are accepted and their columns dropped (violated)."
  },
  {
   "property": "C52",
   "status": "partial",
   "theorems": [
    "Verif.Phonon.C52_complete",
    "Verif.Phonon.C52_lacking",
    "Verif.Phonon.C52_unreadable",
    "Verif.Phonon.C52_text_violated",
    "Verif.Phonon.C52_reused_violated",
    "Verif.Phonon.C52_title",
    "Verif.Phonon.C52_single_volume",
    "Verif.Phonon.C52_total",
    "Verif.Phonon.C52_mandatory_violated"
   ],
   "note": "Complete inputs proved to be returned number by number, lacking keys reported. Violated for a plain text containing the three words (marked completed) and for a reader used twice (stays completed). Also violated for an input without natom or qpoints, which is marked completed and raises KeyError later."
  },
  {
   "property": "C53",
   "status": "partial",
   "theorems": [
    "Verif.Phonon.C53_fresh_partial",
    "Verif.Phonon.C53_history_violated",
    "Verif.Phonon.C53_refused_violated",
    "Verif.Phonon.C53_quasi_harmonic",
    "Verif.Phonon.C53_missing",
    "Verif.Phonon.C53_unreadable",
    "Verif.Phonon.C53_unsupported"
   ],
   "note": "Proved: missing or unreadable files and unsupported interfaces are reported whatever the history; the quasi-harmonic interface never depends on the history; the first request of a process contains exactly its calculations (_partial). Violated: the list of calculations belongs to the class, so later requests, and requests after a refused one, also contain the earlier calculations."
  },
  {
   "property": "C54",
   "status": "partial",
   "theorems": [
    "Verif.Export.C54_data",
    "Verif.Export.C54_attribute",
    "Verif.Export.C54_missing",
    "Verif.Export.C54_column",
    "Verif.Export.C54_row",
    "Verif.Export.C54_index_partial",
    "Verif.Export.C54_index_violated",
    "Verif.Export.C54_attribute_violated",
    "Verif.Export.C54_has_data_violated",
    "Verif.Export.C54_export_violated",
    "Verif.Export.C54_info"
   ],
   "note": "Data sets, columns, rows and present attributes are proved; get_attribute tests `not <message>`, so an absent data set or attribute ends in KeyError instead of the message; indices out of range raise IndexError (h5py) instead of the message when the library raises IndexError; has_data returns a true value for an absent data set, so the generic exporter accepts it."
  },
  {
   "property": "C55",
   "status": "partial",
   "theorems": [
    "Verif.Export.C55_quasi_harmonic",
    "Verif.Export.C55_harmonic_partial",
    "Verif.Export.C55_static_violated",
    "Verif.Export.C55_zero_point_violated"
   ],
   "note": "Proved for every quantity of a quasi-harmonic run and for every harmonic quantity with a row per temperature; the harmonic exporter also offers the static energies (one dimension) and the zero-point energies (one row), whose export ends with IndexError and leaves a truncated file."
  },
  {
   "property": "C56",
   "status": "partial",
   "theorems": [
    "Verif.Interfaces.C56_components_partial",
    "Verif.Interfaces.C56_shear_violated"
   ],
   "note": "The code exchanges the rows/columns of yz and xz: the reader is right for xx, yy, zz, xy (C56_components_partial) and C56_shear_violated shows what is returned and that it is right exactly when the moduli are invariant under that exchange (false for the repository's own test OUTCAR, see SoecWitness)."
  },
  {
   "property": "C57",
   "status": "partial",
   "theorems": [
    "Verif.Interfaces.C57_element",
    "Verif.Interfaces.C57_rows_partial",
    "Verif.Interfaces.C57_refused",
    "Verif.Interfaces.C57_two_totals_violated"
   ],
   "note": "Proved for outputs with exactly one block of total moduli, and for outputs without any (the last clamped-ion block is used); C57_refused covers outputs without moduli. Violated for two blocks of total moduli: the line counter is not incremented on a header line, the reader raises IndexError. C57_element: a word that is not a number makes the reader refuse the file and name the row and the column of the first such word."
  },
  {
   "property": "C58",
   "status": "partial",
   "theorems": [
    "Verif.Interfaces.C58_symmetric_partial",
    "Verif.Interfaces.C58_history_violated",
    "Verif.Interfaces.C58_twice_violated"
   ],
   "note": "True for the first output read in a process; later reads add the upper triangle to the lower triangle left in the class-level array (C58_history_violated for arbitrary histories, C58_twice_violated)."
  },
  {
   "property": "C59",
   "status": "partial",
   "theorems": [
    "Verif.Interfaces.C59_never_returns_partial",
    "Verif.Interfaces.C59_hang_violated",
    "Verif.Interfaces.C59_too_many",
    "Verif.Interfaces.C59_stops_partial"
   ],
   "note": "Reading a zone-centre output never ends exactly when its first table lists fewer than three modes per atom before an empty line (C59_never_returns_partial, an equivalence); too many modes raise IndexError; any text without an empty line below a title is read or refused. The property as stated (always terminates) is violated (C59_hang_violated). That complete tables are expanded in order is C77_gamma and C78_dispersion_partial."
  },
  {
   "property": "C60",
   "status": "partial",
   "theorems": [
    "Verif.Interfaces.C60_cells_partial",
    "Verif.Interfaces.C60_violated"
   ],
   "note": "Proved when each optimised cell agrees (within the tolerance of isclose) with exactly one volume of the table (C60_cells_partial): cells, volumes, energies and frequencies are then in the order of the table. Violated when two volumes of the table are within 1e-5 relative of each other: the reading completes with cells in a wrong order (C60_violated, text-level witness)."
  },
  {
   "property": "C61",
   "status": "proved",
   "theorems": [
    "Verif.Chemistry.C61_symbol2number",
    "Verif.Chemistry.C61_number2symbol",
    "Verif.Chemistry.C61_inverse",
    "Verif.Chemistry.C61_unique",
    "Verif.Chemistry.C61_unknown_symbol",
    "Verif.Chemistry.C61_unknown_number",
    "Verif.Chemistry.C61_negative_number"
   ],
   "note": "The whole table is compared with an independent alphabetical list. Negative numbers from -119 to -1 are accepted by Python indexing (C61_negative_number); the property only requires unknown symbols to raise."
  },
  {
   "property": "C62",
   "status": "partial",
   "theorems": [
    "Verif.Seismic.C62_cofactor_partial",
    "Verif.Seismic.C62_compiled_violated"
   ],
   "note": "The Python cofactor satisfies the cofactor identity for every matrix (C62_cofactor_partial). The compiled version returns None (C62_compiled_violated)."
  },
  {
   "property": "C63",
   "status": "partial",
   "theorems": [
    "Verif.Kieffer.C63_one_mode",
    "Verif.Kieffer.C63_value_partial",
    "Verif.Kieffer.C63_absolute_zero",
    "Verif.Kieffer.C63_consistent_partial",
    "Verif.Kieffer.C63_entropy_violated",
    "Verif.Kieffer.C63_truncated_violated",
    "Verif.Kieffer.C63_bounds"
   ],
   "note": "Helmholtz energy and heat capacity proved to be the integrals over the sinusoidal density of modes, consistent with each other (T dS/dT = Cv with S = -dF/dT). Violated for entropy: the denominator of its first term is squared, and the integral stops at 0.999 of the cutoff, leaving out more than 7 % of the modes."
  },
  {
   "property": "C64",
   "status": "proved",
   "theorems": [
    "Verif.Seismic.C64_disc",
    "Verif.Seismic.C64_azimuth",
    "Verif.Seismic.C64_radius_increases",
    "Verif.Seismic.C64_injective",
    "Verif.Seismic.C64_equal_area",
    "Verif.Seismic.C64_conformal"
   ],
   "note": ""
  },
  {
   "property": "C65",
   "status": "partial",
   "theorems": [
    "Verif.Seismic.C65_figures_partial",
    "Verif.Seismic.C65_polarization_violated",
    "Verif.Seismic.C65_header_violated"
   ],
   "note": "Scalar figures show the announced column at every node. Violated for the polarisation figure (arrows are columns 9 and 10, group velocity, instead of 4 and 5) and for the result-file header (column 13 announced as log10 A, stored raw)."
  },
  {
   "property": "C66",
   "status": "partial",
   "theorems": [
    "Verif.Command.C66_seismic_files",
    "Verif.Command.C66_files",
    "Verif.Command.C66_saved",
    "Verif.Command.C66_default_names",
    "Verif.Command.C66_given_names",
    "Verif.Command.C66_directory_violated",
    "Verif.Command.C66_eosfit_violated",
    "Verif.Command.C66_azimuths_partial",
    "Verif.Command.C66_azimuths_violated",
    "Verif.Command.C66_units",
    "Verif.Command.C66_wavenumber_violated",
    "Verif.Command.C66_eos"
   ],
   "note": "Names of results and log for all paths and -o values, files touched, results saved, unit and EoS options, angular points. Violations: -o naming a directory, -o of eosfit (UnboundLocalError), --nphi 720 with another --ntheta, the documented spelling cm^-1 is refused."
  },
  {
   "property": "C67",
   "status": "partial",
   "theorems": [
    "Verif.Command.C67_command_violated",
    "Verif.Command.C67_seismic_partial",
    "Verif.Command.C67_seismic_violated",
    "Verif.Command.C67_elastic"
   ],
   "note": "Proved for elastic calculators for every history. Seismic calculators share a class-level flag: characterised for every history; one calculator asked to plot makes all others of the process report plotting, and the command then stops with AttributeError (violated)."
  },
  {
   "property": "C68",
   "status": "proved",
   "theorems": [
    "Verif.QHA.C68_energies_add_up",
    "Verif.QHA.C68_td_interpolates",
    "Verif.QHA.C68_freq_interpolates",
    "Verif.QHA.C68_H_minus_G"
   ],
   "note": ""
  },
  {
   "property": "C69",
   "status": "proved",
   "theorems": [
    "Verif.QHA.C69_bulk_modulus",
    "Verif.QHA.C69_bulk_derivative",
    "Verif.QHA.C69_eos_parameters"
   ],
   "note": "Exactness is stated for degree <= 4; for higher degrees the five-point fit is under-determined. K' of the polynomial path is modelled but nothing is claimed about it."
  },
  {
   "property": "C70",
   "status": "partial",
   "theorems": [
    "Verif.QHA.C70_acoustic_violated"
   ],
   "note": "The calculator asks the input reader for an attribute it never defines, so every such run raises AttributeError."
  },
  {
   "property": "C71",
   "status": "partial",
   "theorems": [
    "Verif.EoS.C71_axial_murnaghan_partial",
    "Verif.EoS.C71_axial_violated"
   ],
   "note": "Murnaghan proved; the other formulations use length strain, so a second-order axial fit of a cubic crystal differs from the volume fit (violated)."
  },
  {
   "property": "C72",
   "status": "proved",
   "theorems": [
    "Verif.Seismic.C72_inversion",
    "Verif.Seismic.C72_sphere"
   ],
   "note": ""
  },
  {
   "property": "C73",
   "status": "proved",
   "theorems": [
    "Verif.Seismic.C73_ratios"
   ],
   "note": ""
  },
  {
   "property": "C74",
   "status": "proved",
   "theorems": [
    "Verif.Seismic.C74_isotropic_rays"
   ],
   "note": "Assumes eigh and pinv meet their specification (EighCorrect, PinvCorrect)."
  },
  {
   "property": "C75",
   "status": "partial",
   "theorems": [
    "Verif.IO.C75_only_partial",
    "Verif.IO.C75_terminates_partial",
    "Verif.IO.C75_unknown_violated"
   ],
   "note": "A title 'Unknown' makes the reader loop forever (C75_unknown_violated), and nothing else does: C75_only_partial says that reading never ends only when no title was read before and the title below a JOB keyword is exactly 'Unknown'; every other file is read or refused after every history."
  },
  {
   "property": "C76",
   "status": "proved",
   "theorems": [
    "Verif.Interfaces.C76_element",
    "Verif.Interfaces.C76_density",
    "Verif.Interfaces.C76_refused"
   ],
   "note": "All branches: density line found, absent, and refused outputs. C76_element: a word of the table that is not a number is named by row and column."
  },
  {
   "property": "C77",
   "status": "proved",
   "theorems": [
    "Verif.Interfaces.C77_gamma",
    "Verif.Interfaces.C77_not_output",
    "Verif.Interfaces.C77_completed"
   ],
   "note": "Text-level theorem over all zone-centre outputs; the loop bound is any fuel of at least the number of lines plus two."
  },
  {
   "property": "C78",
   "status": "partial",
   "theorems": [
    "Verif.Interfaces.C78_dispersion_partial",
    "Verif.Interfaces.C78_lattice_partial",
    "Verif.Interfaces.C78_missing_violated",
    "Verif.Interfaces.C78_lattice_violated"
   ],
   "note": "Energy, volume, atoms, points, weights and bands are right (C78_dispersion_partial). The lattice vectors are right exactly when expansion matrix and lattice commute (C78_lattice_partial), wrong otherwise (C78_lattice_violated); outputs with missing tables are reported as complete (C78_missing_violated)."
  },
  {
   "property": "C79",
   "status": "partial",
   "theorems": [
    "Verif.Interfaces.C79_supercell_violated"
   ],
   "note": "Violated: TypeError for every such output, since the table of k points is looked up unconditionally."
  },
  {
   "property": "C80",
   "status": "partial",
   "theorems": [
    "Verif.Interfaces.C80_same_partial",
    "Verif.Interfaces.C80_violated"
   ],
   "note": "Violated: the expansion matrix belongs to the class and is only written for supercell outputs, so a unit-cell output read after a supercell output returns energies, volumes and atom numbers divided by the earlier determinant (C80_violated). C80_same_partial: the outcome is independent of the history for supercell outputs, or when the stored matrix is the same."
  },
  {
   "property": "C81",
   "status": "partial",
   "theorems": [
    "Verif.Interfaces.C81_not_output",
    "Verif.Interfaces.C81_few",
    "Verif.Interfaces.C81_restarted",
    "Verif.Interfaces.C81_no_table_violated",
    "Verif.Interfaces.C81_completed"
   ],
   "note": "Reports proved for other files, few volumes and restarted calculations; completion implies all three checks. Violated for an output without the table of volumes: IndexError (C81_no_table_violated)."
  },
  {
   "property": "C82",
   "status": "partial",
   "theorems": [
    "Verif.Phonon.C82_shape",
    "Verif.Phonon.C82_more_points",
    "Verif.Phonon.C82_wrong_number",
    "Verif.Phonon.C82_missing_band_violated",
    "Verif.Phonon.C82_single_frequency_violated",
    "Verif.Phonon.C82_missing_points_violated",
    "Verif.Phonon.C82_no_brackets_violated",
    "Verif.Phonon.C82_not_whole_violated"
   ],
   "note": "Shape of the returned array, refusal of surplus q-points and of bands of a wrong length proved. Violated: missing bands and q-points are read as zeros, a single frequency is repeated, and a list without brackets is read as its first digit. A number of atoms that is not whole is truncated toward zero."
  },
  {
   "property": "C83",
   "status": "partial",
   "theorems": [
    "Verif.Phonon.C83_read_partial",
    "Verif.Phonon.C83_coordinates_violated",
    "Verif.Phonon.C83_missing_files",
    "Verif.Phonon.C83_not_yaml_violated",
    "Verif.Phonon.C83_incomplete"
   ],
   "note": "Everything but the coordinates proved; coordinates are truncated to integers (C83_coordinates_violated) and a broken YAML file raises UnboundLocalError (C83_not_yaml_violated)."
  },
  {
   "property": "C84",
   "status": "partial",
   "theorems": [
    "Verif.Phonon.C84_too_large",
    "Verif.Phonon.C84_boundary_violated",
    "Verif.Phonon.C84_negative_violated"
   ],
   "note": "A reference inside the list is used (C53_fresh_partial, C85_multiple), one beyond the number of files is reported. Violated: a reference equal to the number of files passes the test and ends with IndexError; negative references count from the end or end with IndexError."
  },
  {
   "property": "C85",
   "status": "partial",
   "theorems": [
    "Verif.Phonon.C85_description_violated",
    "Verif.Phonon.C85_multiple",
    "Verif.Phonon.C85_single",
    "Verif.Phonon.C85_read",
    "Verif.Phonon.C85_one_tree"
   ],
   "note": "The generated text denotes, in an independently specified fragment of YAML, the tree of the data, and the reader gives the data back within the printed accuracy. Violated for descriptions that YAML does not read as text (empty, a number): the reader then raises AttributeError for the description. C85_one_tree: a text denotes one tree only."
  },
  {
   "property": "C86",
   "status": "partial",
   "theorems": [
    "Verif.Export.C86_elastic_partial",
    "Verif.Export.C86_seismic_partial",
    "Verif.Export.C86_elastic_names",
    "Verif.Export.C86_seismic_names",
    "Verif.Export.C86_typed_more_violated",
    "Verif.Export.C86_unconfirmed_partial",
    "Verif.Export.C86_names",
    "Verif.Export.C86_typed_violated"
   ],
   "note": "Files never confirmed and never typed are kept by every dialogue, and no other files are written; a typed name is not checked: an existing file of that name is overwritten silently. The same for the elastic and seismic exporters."
  },
  {
   "property": "C87",
   "status": "partial",
   "theorems": [
    "Verif.Export.C87_elastic_violated",
    "Verif.Export.C87_shared_violated",
    "Verif.Export.C87_last_partial",
    "Verif.Export.C87_refused_violated"
   ],
   "note": "The dictionaries x, y and data are class attributes: after a second file is loaded the first exporter writes the data of the second file. An exporter used before another one is made writes its own data. The same for the elastic exporter; and a refused file changes the temperatures of the other exporters (C87_refused_violated)."
  },
  {
   "property": "C88",
   "status": "partial",
   "theorems": [
    "Verif.Export.C88_potentials_partial",
    "Verif.Export.C88_moduli_partial",
    "Verif.Export.C88_heat_capacity_violated",
    "Verif.Export.C88_volume_violated"
   ],
   "note": "Energies, entropy, moduli and Cv are consistent with their recorded units; Cp and Cp-Cv are labelled with the energy unit although their numbers are in thousandths of it, and volumes are labelled with a length."
  },
  {
   "property": "C89",
   "status": "partial",
   "theorems": [
    "Verif.Command.C89_default_partial",
    "Verif.Command.C89_given_partial",
    "Verif.Command.C89_given_violated",
    "Verif.Command.C89_eosfit_partial",
    "Verif.Command.C89_eosfit_violated"
   ],
   "note": "Proved without -o and for -o names that do not coincide; an input x.txt with -o x, and an EoS input named *.log, are overwritten before being read (violated)."
  },
  {
   "property": "C90",
   "status": "partial",
   "theorems": [
    "Verif.Command.C90_quiet_files",
    "Verif.Command.C90_quiet_screen_partial",
    "Verif.Command.C90_quiet_screen_violated"
   ],
   "note": "Files and outcome proved equal, and the quiet screen a subsequence of the loud one, for all runs. Nothing printed only if the calculator speaks through echo; echo_override, warnings, progress bars and 'Results not saved' are printed (violated)."
  },
  {
   "property": "C91",
   "status": "partial",
   "theorems": [
    "Verif.Command.C91_results_partial",
    "Verif.Command.C91_log_violated"
   ],
   "note": "Results file kept in all cases; the earlier log is emptied at the start of every run (violated)."
  },
  {
   "property": "C92",
   "status": "partial",
   "theorems": [
    "Verif.Command.C92_seismic_partial",
    "Verif.Command.C92_no_2D_violated",
    "Verif.Command.C92_plotly_only_violated",
    "Verif.Command.C92_elastic_partial",
    "Verif.Command.C92_elastic_violated",
    "Verif.Command.C92_command_partial",
    "Verif.Command.C92_command_violated"
   ],
   "note": "Figures of the seismic and elastic commands for all option combinations. Violations: --no-2D keeps two plane figures, plotly without matplotlib stops with NameError, -p without --polar draws nothing, --only-plot without -p and -p after declining stop with AttributeError."
  },
  {
   "property": "C93",
   "status": "partial",
   "theorems": [
    "Verif.Command.C93_run_partial",
    "Verif.Command.C93_run_violated",
    "Verif.Command.C93_commands_partial",
    "Verif.Command.C93_seismic_violated"
   ],
   "note": "Finite: the documented commands against the registered ones; `seismic` and `export seismic` are documented but not registered (violated), so that the program refuses them by C115 (C93_run_violated), and runs all the others (C93_run_partial)."
  },
  {
   "property": "C94",
   "status": "partial",
   "theorems": [
    "Verif.Polar.C94_sections_partial",
    "Verif.Polar.C94_closed",
    "Verif.Polar.C94_extremes",
    "Verif.Polar.C94_near_violated"
   ],
   "note": "Rows, directions and values from Hooke's law for every stable solid (searches are a parameter that descends; extremes when they find the least values of continuous periodic functions); closed sections without hypotheses. Missing and violated: solids orthorhombic only within the classifier's tolerance of 0.001, whose small constants the fast formulas drop."
  },
  {
   "property": "C95",
   "status": "partial",
   "theorems": [
    "Verif.Polar.C95_units_partial",
    "Verif.Polar.C95_compliance_violated",
    "Verif.Polar.C95_averages_violated"
   ],
   "note": "Stiffness, eigenvalues and all sections in SI units. Violations, for every solid: the compliance is recorded in TPa^-1 but given in GPa^-1; the averages are recorded in GPa although they include Poisson's ratio."
  },
  {
   "property": "C96",
   "status": "partial",
   "theorems": [
    "Verif.Export.C96_placeholder_tables_violated",
    "Verif.Polar.C96_calculated_partial",
    "Verif.Polar.C96_unit",
    "Verif.Polar.C96_placeholders_violated"
   ],
   "note": "With --polar exactly the calculated sections are saved. Violation: without --polar fifteen sections of zeros are saved. The placeholders are also exported as tables (C96_placeholder_tables_violated)."
  },
  {
   "property": "C99",
   "status": "partial",
   "theorems": [
    "Verif.Polar.C99_points",
    "Verif.Polar.C99_range_partial",
    "Verif.Polar.C99_compressibility_violated",
    "Verif.Polar.C99_poisson_violated",
    "Verif.Polar.C99_figures",
    "Verif.Polar.C99_labels"
   ],
   "note": "Axes, curves and points for all solids; the range holds for all quantities but the linear compressibility, and for Poisson's ratio when some ratio is not negative. Violations: a negative linear compressibility and a negative Poisson's ratio leave the range."
  },
  {
   "property": "C97",
   "status": "partial",
   "theorems": [
    "Verif.Export.C97_tables",
    "Verif.Export.C97_width_violated"
   ],
   "note": "Tables and offers proved for every file and every history of the shared dictionary. The claim of one width per table is false: rule, label line and rows always differ (C97_width_violated). Foreign files and files saved by the calculator are the histories considered."
  },
  {
   "property": "C98",
   "status": "partial",
   "theorems": [
    "Verif.Export.C98_tables",
    "Verif.Export.C98_kinds",
    "Verif.Export.C98_enhancement_violated"
   ],
   "note": "Tables proved for the only pressure unit the commands accept (GPa); refusals proved for all pairs of kinds. The fourteenth number is not the announced log10 of the enhancement factor but the factor (C98_enhancement_violated)."
  },
  {
   "property": "C100",
   "status": "proved",
   "theorems": [
    "Verif.Guess.C100_curves",
    "Verif.Guess.C100_exact",
    "Verif.Guess.C100_order",
    "Verif.Guess.C100_units"
   ],
   "note": "The polynomial fit is a parameter that returns a least-squares solution; such a fit exists (fits_exists)."
  },
  {
   "property": "C101",
   "status": "partial",
   "theorems": [
    "Verif.Guess.C101_curve",
    "Verif.Guess.C101_parabola",
    "Verif.Guess.C101_minimum_partial",
    "Verif.Guess.C101_maximum_violated",
    "Verif.Guess.C101_flat"
   ],
   "note": "Proved: the start is the real part of the stationary point nearest to zero of the closest quartic (C101_curve), the minimum for parabolas and for cubics that stiffen on compression. False in general: for every cubic whose maximum lies below its minimum the start is the maximum, with a negative modulus (C101_maximum_violated). numpy's polyfit and roots are parameters with their defining properties."
  },
  {
   "property": "C102",
   "status": "partial",
   "theorems": [
    "Verif.Report.C102_slope",
    "Verif.Report.C102_decreasing",
    "Verif.Report.C102_inner_partial",
    "Verif.Report.C102_ends_violated",
    "Verif.Report.C102_few",
    "Verif.Report.C102_eos_partial",
    "Verif.Report.C102_eos_violated"
   ],
   "note": "Inner volumes exact for parabolas and between the neighbours for every differentiable curve; decreasing for every strictly convex curve. Violations: the first and last pressures are always wrong for a parabola; with an equation of state the Birch-Murnaghan and Pourier-Tarantola pressures exceed those of the fitted energy."
  },
  {
   "property": "C103",
   "status": "partial",
   "theorems": [
    "Verif.Report.C103_small_partial",
    "Verif.Report.C103_large_partial",
    "Verif.Report.C103_zeros_violated",
    "Verif.Report.C103_ten_violated",
    "Verif.Report.C103_unusable",
    "Verif.Report.C103_nan_violated",
    "Verif.Report.C103_block"
   ],
   "note": "Reads correctly for errors below 9.5 and from 10 on, unless two or more decimals are kept and the rounded value ends in zero. Violations: dropped trailing zeros, errors from 9.5 to 10, errors that are not a number. C103_block: one line per parameter with its symbol. Numbers are rationals."
  },
  {
   "property": "C104",
   "status": "proved",
   "theorems": [
    "Verif.EoS.C104_determined",
    "Verif.EoS.C104_recovered",
    "Verif.EoS.C104_three"
   ],
   "note": "The fit itself (scipy's curve_fit) is external: the theorem says that the only least-squares optimum among solids is the true curve. Four volumes are needed (C104_three, for two formulations)."
  },
  {
   "property": "C105",
   "status": "partial",
   "theorems": [
    "Verif.EoS.C105_determined",
    "Verif.EoS.C105_recovered",
    "Verif.EoS.C105_fourth_violated"
   ],
   "note": "The optimiser (ODRPACK) is external: the theorem says that the only optimum among solids is the true curve. Tait and fourth order ask for a solid that stiffens; without this the claim is false: for any two volumes two Birch-Murnaghan solids of fourth order have identical pressures at every volume (C105_fourth_violated)."
  },
  {
   "property": "C106",
   "status": "partial",
   "theorems": [
    "Verif.EoS.C106_pressure_errors_violated",
    "Verif.EoS.C106_vinet_errors_violated",
    "Verif.EoS.C106_curve_partial",
    "Verif.EoS.C106_data",
    "Verif.EoS.C106_exact",
    "Verif.EoS.C106_line",
    "Verif.EoS.C106_axial_violated",
    "Verif.EoS.C106_errors_violated",
    "Verif.EoS.C106_none"
   ],
   "note": "After a second-order axial fit the curve is drawn with K' of a volume fit (4, 2, 2 instead of 12, 6, 3) and the caller's array of parameters is overwritten (C106_axial_violated); the strain errors are too large or too small by the factor V0/V (C106_errors_violated). The errors of the normalised pressures have the same fault for Birch-Murnaghan and natural strain (C106_pressure_errors_violated) and are not proportional to the errors of the data for Vinet (C106_vinet_errors_violated)."
  },
  {
   "property": "C107",
   "status": "partial",
   "theorems": [
    "Verif.Report.C107_report_partial",
    "Verif.Report.C107_observed_violated",
    "Verif.Report.C107_implied",
    "Verif.Report.C107_aligned"
   ],
   "note": "The column titled 'P_obs (GPa)' holds the fitted pressures (C107_observed_violated); everything else in the report is as stated (C107_report_partial), and the implied flags are exactly right (C107_implied). The output of the orthogonal distance routine is an arbitrary record whose fitted values are the observed ones plus the residuals."
  },
  {
   "property": "C108",
   "status": "proved",
   "theorems": [
    "Verif.Report.C108_table",
    "Verif.Report.C108_file",
    "Verif.Report.C108_aligned"
   ],
   "note": "Text of numbers over the rationals; files as in C50."
  },
  {
   "property": "C109",
   "status": "partial",
   "theorems": [
    "Verif.Report.C109_aligned",
    "Verif.Report.C109_table_partial",
    "Verif.Report.C109_heat_capacity",
    "Verif.Report.C109_volume_violated"
   ],
   "note": "The volumes are printed in cubic bohr under the title A^3 when the run uses bohr (C109_volume_violated); everything else is as stated (C109_table_partial, C109_heat_capacity for at least 50 temperatures; with fewer the columns are zero, see C16). The text of the pressure in the heading, '{}'.format, is a parameter."
  },
  {
   "property": "C110",
   "status": "partial",
   "theorems": [
    "Verif.Report.C110_report_partial",
    "Verif.Report.C110_constant_violated"
   ],
   "note": "A frequency that does not depend on the volume is reported with R^2 = 0 and BAD! although the fit is exact (C110_constant_violated); the layout and verdicts are proved (C110_report_partial)."
  },
  {
   "property": "C111",
   "status": "partial",
   "theorems": [
    "Verif.Report.C111_input",
    "Verif.Report.C111_run_partial",
    "Verif.Report.C111_velocities_violated",
    "Verif.Report.C111_aligned"
   ],
   "note": "Without a density the log prints the average velocities as nan, because the test against np.nan always succeeds (C111_velocities_violated); everything else is proved (C111_input, C111_run_partial). The text of the density, '{}'.format, is a parameter."
  },
  {
   "property": "C112",
   "status": "partial",
   "theorems": [
    "Verif.Report.C112_report_partial",
    "Verif.Report.C112_single_violated",
    "Verif.Report.C112_accept"
   ],
   "note": "An input with a single volume written as a number ends a harmonic run in an exception at its report, and a quasi-harmonic run in a TypeError instead of a refusal (C112_single_violated); the report and the acceptance are proved for all inputs with a list of volumes (C112_report_partial, C112_accept)."
  },
  {
   "property": "C113",
   "status": "proved",
   "theorems": [
    "Verif.Report.C113_harmonic",
    "Verif.Report.C113_quasi_harmonic",
    "Verif.Report.C113_determined",
    "Verif.Report.C113_seismic",
    "Verif.Report.C113_elastic_eos"
   ],
   "note": "The '{:.2f}' texts of the ranges and the choices of the command line are modelled; the ranges are exact rationals. C113_harmonic, C113_quasi_harmonic, C113_seismic and C113_elastic_eos give the lines, C113_determined says that equal blocks come from equal settings (the equation of state only when it is used)."
  },
  {
   "property": "C114",
   "status": "partial",
   "theorems": [
    "Verif.Report.C114_start_partial",
    "Verif.Report.C114_refused",
    "Verif.Report.C114_negative_violated",
    "Verif.Report.C114_singular_violated",
    "Verif.Report.C114_report"
   ],
   "note": "A negative density is accepted (C114_negative_violated) and a singular matrix ends the command in an exception (C114_singular_violated); the rest is proved (C114_start_partial, C114_refused, C114_report). Numbers are exact, so singular means determinant zero; the text of the density is a parameter."
  },
  {
   "property": "C115",
   "status": "proved",
   "theorems": [
    "Verif.Command.C115_exact",
    "Verif.Command.C115_unknown"
   ],
   "note": "The similarity (difflib's ratio) is a parameter; get_close_matches is modelled on top of it. C115_exact and C115_unknown cover every group; the registered groups are instances."
  },
  {
   "property": "C116",
   "status": "proved",
   "theorems": [
    "Verif.Elastic.C116_turned",
    "Verif.Elastic.C116_directional",
    "Verif.Elastic.C116_averages",
    "Verif.Elastic.C116_symmetry"
   ],
   "note": "Exact arithmetic; two matrices describe one crystal when the second answers turned strains with turned stresses."
  },
  {
   "property": "C117",
   "status": "proved",
   "theorems": [
    "Verif.Seismic.C117_waves",
    "Verif.Seismic.C117_elastic"
   ],
   "note": "np.linalg.eigh and pinv by their documented specifications, pinv with its cut-off. Waves of equal velocity have no determined polarisation, so nothing is claimed about their rays."
  },
  {
   "property": "C118",
   "status": "proved",
   "theorems": [
    "Verif.Seismic.C118_rays"
   ],
   "note": "Full property, for eigh and pinv meeting their specifications. Degenerate waves are excluded by the cut-off of pinv; at a caustic (a = 0) the code divides by zero and the model gives 0."
  },
  {
   "property": "C119",
   "status": "proved",
   "theorems": [
    "Verif.Elastic.C119_compressibilities",
    "Verif.Elastic.C119_hydrostatic",
    "Verif.Elastic.C119_bounds",
    "Verif.Seismic.C119_waves"
   ],
   "note": "Full property; the waves for eigh meeting its specification."
  },
  {
   "property": "C120",
   "status": "proved",
   "theorems": [
    "Verif.QHA.C120_volumes",
    "Verif.QHA.C120_gibbs"
   ],
   "note": "Proved for real arithmetic, given NumPy's polynomial fit and the minimiser's specification."
  },
  {
   "property": "C121",
   "status": "proved",
   "theorems": [
    "Verif.QHA.C121_fixed_volume",
    "Verif.QHA.C121_gibbs"
   ],
   "note": "Proved for real arithmetic, given NumPy's polynomial fit. The volumes at which the entropies of the bracket are read are the two equilibrium volumes."
  },
  {
   "property": "C122",
   "status": "proved",
   "theorems": [
    "Verif.Elastic.C122_directional",
    "Verif.Elastic.C122_averages",
    "Verif.Seismic.C122_waves",
    "Verif.Seismic.C122_elastic"
   ],
   "note": "eigh and pinv are parameters with their documented behaviour (EighCorrect, PinvCorrect)."
  },
  {
   "property": "C123",
   "status": "proved",
   "theorems": [
    "Verif.QHA.C123_harmonic",
    "Verif.QHA.C123_succeeds",
    "Verif.QHA.C123_volume",
    "Verif.QHA.C123_columns",
    "Verif.QHA.C123_moduli",
    "Verif.QHA.C123_derivative"
   ],
   "note": "Spec.Copies says when two inputs describe the same crystal. Polynomial minimisation with energy fits of degree at most 3 (the default) to at least as many volumes as coefficients, so that fit and minimum are unique; frequency fits likewise. The pressure derivative of the bulk modulus is covered in the thermodynamic scheme when the free energy is convex within 0.1 per cent of the equilibrium volume. Minimisation through an equation of state rests on scipy's optimiser and is not covered."
  },
  {
   "property": "C124",
   "status": "partial",
   "theorems": [
    "Verif.EoS.C124_curve",
    "Verif.EoS.C124_fit_partial",
    "Verif.EoS.C124_volume_errors_violated",
    "Verif.EoS.C124_energy",
    "Verif.EoS.C124_energy_fit"
   ],
   "note": "Proved for every formulation, order and choice of held parameters, with no uncertainties, uncertainties of the pressures, or of both, and for the energy fits. Fails when only the volumes have uncertainties (a choice the session offers): the pressures then have weight one in whatever unit they are written, so the best fit depends on the unit. The violation is proved for a held K' of -1, where the curve is a straight line, for every data set off the line and every conversion. The regressions of scipy are specified as returning parameters of least misfit."
  },
  {
   "property": "C125",
   "status": "proved",
   "theorems": [
    "Verif.Elastic.C125_axis",
    "Verif.Elastic.C125_orthorhombic",
    "Verif.Elastic.C125_cubic",
    "Verif.Elastic.C125_cubic_young",
    "Verif.Seismic.C125_waves_axis",
    "Verif.Seismic.C125_waves_orthorhombic",
    "Verif.Seismic.C125_waves_cubic",
    "Verif.Seismic.C125_velocities_axis",
    "Verif.Seismic.C125_velocities_face",
    "Verif.Seismic.C125_velocities_diagonal",
    "Verif.Seismic.C125_velocities_principal"
   ],
   "note": "Proved for hexagonal, tetragonal, trigonal, orthorhombic and cubic matrices in the standard setting (axis along z); monoclinic and triclinic crystals have no symmetry beyond C117 and the inversion. Power flow angle and enhancement factor repeat for correct eigensolver and pseudo-inverse under the conditions written in SameWaves. Witnesses: periclase (cubic) and a quartz-like trigonal matrix."
  },
  {
   "property": "C126",
   "status": "proved",
   "theorems": [
    "Verif.StatMech.C126_stiffer",
    "Verif.StatMech.C126_corresponding_states",
    "Verif.StatMech.C126_pressure",
    "Verif.StatMech.C126_entropy",
    "Verif.StatMech.C126_mie_gruneisen",
    "Verif.StatMech.C126_soft_mode"
   ],
   "note": "Monotonicity holds for positive frequencies only: a mode that turns from real to imaginary is dropped, so its contribution jumps from minus infinity to zero (C126_soft_mode)."
  },
  {
   "property": "C127",
   "status": "proved",
   "theorems": [
    "Verif.QHA.C127_volumes",
    "Verif.QHA.C127_volumes_eos",
    "Verif.QHA.C127_no_expansion",
    "Verif.QHA.C127_moduli",
    "Verif.QHA.C127_harmonic"
   ],
   "note": "Volumes: C127_volumes (polynomials), C127_volumes_eos (equations of state, for every fit that follows a shift of the energies, Spec.ShiftsE0). C127_no_expansion: alpha, gamma, Cp - Cv vanish, KS = KT, and Cp = Cv from 50 temperatures on (with fewer the program exports Cp = 0: C16_short_grid_violated). C127_moduli: KT and its derivative. C127_harmonic: entropy, Cv and vibrational energies."
  },
  {
   "property": "C128",
   "status": "proved",
   "theorems": [
    "Verif.QHA.C128_input_volume"
   ],
   "note": "At an equilibrium volume that is an input volume, with as many coefficients as volumes, all energies are the harmonic ones."
  },
  {
   "property": "C129",
   "status": "proved",
   "theorems": [
    "Verif.Elastic.C129_directional",
    "Verif.Elastic.C129_averages",
    "Verif.Seismic.C129_waves"
   ],
   "note": "Proved for both modules. The order of stiffness is stated by the elastic energy of every strain; the middle wave needs the min-max argument."
  },
  {
   "property": "C130",
   "status": "proved",
   "theorems": [
    "Verif.Seismic.C130_order",
    "Verif.Seismic.C130_sum",
    "Verif.Seismic.C130_bound",
    "Verif.Seismic.C130_ranges"
   ],
   "note": "Proved. The search (scipy brute force and simplex) is a parameter: it returns the value at its point, and the smallest value when there is one."
  },
  {
   "property": "C131",
   "status": "partial",
   "theorems": [
    "Verif.Export.Generic.C131_quasi_harmonic_partial",
    "Verif.Export.Generic.C131_expansion_violated",
    "Verif.Export.Generic.C131_harmonic_partial",
    "Verif.Export.Generic.C131_static_violated",
    "Verif.Export.Generic.C131_job_violated",
    "Verif.Export.Generic.C131_elastic_violated",
    "Verif.Export.Generic.C131_foreign_violated",
    "Verif.Export.Generic.C131_untouched",
    "Verif.Export.Generic.C131_session",
    "Verif.Export.Generic.C131_more"
   ],
   "note": "Proved: quasi-harmonic files of any job are accepted and all quantities but the thermal expansion are exported as tables; harmonic files whose job name does not contain \"(QHA)\" are accepted and the quantities with one value per temperature and volume exported; sessions of any length write exactly the chosen files; no other file is changed whatever is typed. Violations of the code, proved: thermal expansions are written with eight decimals because the description contains \"volume\", and as zero below 5e-9; the static energy ends with IndexError; a harmonic job named with \"(QHA)\" ends with KeyError; elastic and seismic files are accepted but every export ends with AttributeError; a file without the text of Quantas raises KeyError instead of giving the message. Volumes are labelled with the unit of length."
  },
  {
   "property": "C132",
   "status": "partial",
   "theorems": [
    "Verif.Seismic.C132_discs_partial",
    "Verif.Seismic.C132_label_violated",
    "Verif.Seismic.C132_names",
    "Verif.Seismic.C132_ratios",
    "Verif.Seismic.C132_file_violated",
    "Verif.Seismic.C132_spheres"
   ],
   "note": "Partial because two parts are false of the code: the colour bar of the plane figure of the power flow angle carries a label with an unopened brace (C132_label_violated; whether matplotlib draws it or stops is outside the model), and both projections of the ratios are written to the same file (C132_file_violated). Colours, fonts and contour lines are not modelled."
  },
  {
   "property": "C133",
   "status": "proved",
   "theorems": [
    "Verif.Elastic.C133_reuss",
    "Verif.Elastic.C133_between",
    "Verif.Seismic.C133_waves",
    "Verif.Seismic.C133_aggregate"
   ],
   "note": "Means are integrals over the spherical angles, written in Elastic/Orientation.lean apart from the model. The compliance is the exact inverse of the stiffness, as in C36."
  },
  {
   "property": "C134",
   "status": "proved",
   "theorems": [
    "Verif.QHA.C134_ground_state"
   ],
   "note": "The thermal expansion at 0 K is a forward difference and is not claimed to vanish."
  },
  {
   "property": "C135",
   "status": "partial",
   "theorems": [
    "Verif.QHA.C135_bounds_partial",
    "Verif.QHA.C135_interpolation_violated",
    "Verif.QHA.C135_input_volume_partial"
   ],
   "note": "The bounds are proved for frequency interpolation at every volume, and for the default scheme at input volumes; C135_interpolation_violated gives an input with positive frequencies whose exported entropy and heat capacity at 300 K are negative with the default scheme, for every correct fitting routine."
  },
  {
   "property": "C136",
   "status": "proved",
   "theorems": [
    "Verif.EoS.C136_one_volume",
    "Verif.EoS.C136_tait"
   ],
   "note": "C136_one_volume for the four unbounded formulations, C136_tait for Tait's with its limiting pressure."
  },
  {
   "property": "C137",
   "status": "partial",
   "theorems": [
    "Verif.QHA.C137_bulk_modulus_violated",
    "Verif.Units.C137_sizes_partial",
    "Verif.Units.C137_angstrom_violated",
    "Verif.Units.C137_pressure_violated"
   ],
   "note": "All units but the angstrom have their SI size (C137_sizes_partial). The angstrom is taken from the CODATA entry 'Angstrom star', an X-ray unit: lengths, volumes, pressures and bulk moduli in angstrom are off by 1.5 to 4.5 parts in 10^5 for every value (violated)."
  },
  {
   "property": "C138",
   "status": "partial",
   "theorems": [
    "Verif.Report.C138_harmonic_partial",
    "Verif.Report.C138_quasi_harmonic_violated",
    "Verif.Report.C138_elastic_violated"
   ],
   "note": "Quasi-harmonic result files say 'Job: Unknown' for every input (qha.py:1247 tests the attribute 'job', the reader has 'jobname'); elastic and seismic result files have no job line. Proved for harmonic files."
  },
  {
   "property": "C139",
   "status": "proved",
   "theorems": [
    "Verif.Poly.Tabulated.C139_between",
    "Verif.Poly.Tabulated.C139_line",
    "Verif.Poly.Tabulated.C139_parabola",
    "Verif.Poly.Tabulated.C139_refused",
    "Verif.Poly.Tabulated.C139_kind"
   ],
   "note": "The error for short arrays is LenError only when both arrays are short, otherwise numpy's ValueError; the docstring says dX/dY, the result is dY/dX."
  },
  {
   "property": "C140",
   "status": "proved",
   "theorems": [
    "Verif.QHA.C140_maxwell",
    "Verif.QHA.C140_expands",
    "Verif.QHA.C140_softening",
    "Verif.QHA.C140_signs"
   ],
   "note": "Proved for polynomial minimisation with external routines meeting their specification; the convexity between the two volumes needed for the sign is automatic for parabolas (edeg <= 2), a hypothesis above. Witness: a crystal that expands from 0 K on in both schemes."
  },
  {
   "property": "C141",
   "status": "proved",
   "theorems": [
    "Verif.Elastic.C141_directional",
    "Verif.Elastic.C141_averages",
    "Verif.Elastic.C141_ratios",
    "Verif.Seismic.C141_waves"
   ],
   "note": "Proved for every direction and average. Hypothesis Resists is the elastic-energy bound; resists_isotropic and close_isotropic exhibit a crystal and a rounding that meet all hypotheses."
  },
  {
   "property": "C142",
   "status": "partial",
   "theorems": [
    "Verif.Chain.C142_crystal_partial",
    "Verif.Chain.C142_title_violated",
    "Verif.Chain.C142_vasp_partial",
    "Verif.Chain.C142_vasp_violated"
   ],
   "note": "Proved for CRYSTAL outputs with any title the file format can carry (C142_crystal_partial), and for VASP outputs as far as the averages go, or for moduli that do not change when yz and xz are exchanged (C142_vasp_partial). Violated by titles that start with a digit, which make the written file unreadable (C142_title_violated), and by VASP outputs in general, whose yz and xz moduli are exchanged (C142_vasp_violated: a stable crystal with Young's modulus 1/3 GPa in some direction, reported minimum above 0.35 GPa)."
  },
  {
   "property": "C143",
   "status": "proved",
   "theorems": [
    "Verif.Report.C143_harmonic",
    "Verif.Report.C143_quasi_harmonic",
    "Verif.Report.C143_distinct"
   ],
   "note": "Proved for the texts of harmonic and quasi-harmonic result files; the name of the job is the subject of C138."
  },
  {
   "property": "C144",
   "status": "proved",
   "theorems": [
    "Verif.Chain.C144_input",
    "Verif.Chain.C144_crystal"
   ],
   "note": "From every generated input with at most ten decimals in its frequencies (C144_input, several weighted q-points, all selectable units) and from CRYSTAL zone-centre outputs (C144_crystal). Dispersion outputs and the temperature zero are left to C14 and C79."
  },
  {
   "property": "C145",
   "status": "partial",
   "theorems": [
    "Verif.StatMech.C145_absolute_zero",
    "Verif.StatMech.C145_zero_point",
    "Verif.StatMech.C145_thermal",
    "Verif.StatMech.C145_heat_capacity",
    "Verif.StatMech.C145_entropy_partial",
    "Verif.StatMech.C145_free_energy_partial",
    "Verif.StatMech.C145_binary64",
    "Verif.StatMech.C145_lost_violated",
    "Verif.StatMech.C145_schedules",
    "Verif.StatMech.C145_rounding"
   ],
   "note": "Zero-point energy, thermal energy and heat capacity: relative error bounds for every list of modes. Entropy and free energy: absolute bounds when every quantum is at least 1e-9 k_B T (partial); for quanta below 1e-17 k_B T binary64 gives values that are not finite (C145_lost_violated). Exponents are unlimited in the model: no overflow, quanta at most 700 k_B T. No contraction of multiplications and additions (setup.py asks for none)."
  },
  {
   "property": "C146",
   "status": "proved",
   "theorems": [
    "Verif.Poly.Rounded.C146_interpolate",
    "Verif.Poly.Rounded.C146_horner",
    "Verif.Poly.Rounded.C146_agree",
    "Verif.Poly.Rounded.C146_one_sign",
    "Verif.Poly.Rounded.C146_scalar_array"
   ],
   "note": "Arithmetic with 53 binary digits without overflow or underflow; the numpy evaluation is modelled as Horner's scheme with one rounding for each operation."
  },
  {
   "property": "C147",
   "status": "proved",
   "theorems": [
    "Verif.Chain.C147_dispersion",
    "Verif.Chain.C147_quasi_harmonic"
   ],
   "note": "C147_dispersion for one or several dispersion outputs with a supercell of positive determinant; C147_quasi_harmonic for a quasi-harmonic output. In a new process, and with weights that do not sum to zero; temperature zero is left to C14."
  },
  {
   "property": "C148",
   "status": "proved",
   "theorems": [
    "Verif.Chain.C148_few",
    "Verif.Chain.C148_input",
    "Verif.Chain.C148_four_volumes",
    "Verif.Chain.C148_crystal",
    "Verif.Chain.C148_dispersion",
    "Verif.Chain.C148_quasi_harmonic"
   ],
   "note": "C148_input for generated inputs, C148_crystal, C148_dispersion and C148_quasi_harmonic from the outputs, C148_few for the refusal, C148_four_volumes for success. Exact arithmetic; polyfit and the root finder are parameters that meet their documentation."
  },
  {
   "property": "C149",
   "status": "partial",
   "theorems": [
    "Verif.Chain.C149_harmonic_partial",
    "Verif.Chain.C149_default_violated",
    "Verif.Chain.C149_quasi_partial"
   ],
   "note": "With the unit eV the harmonic and (polynomial minimisation) quasi-harmonic results are those of the phonopy calculations. Violated with the default units: the generator writes the energy of VASP in electronvolt without conversion or a note, and the commands read it as hartree; the free energy is wrong by more than 26 times the static energy."
  },
  {
   "property": "C150",
   "status": "partial",
   "theorems": [
    "Verif.QHA.C150_equilibrium",
    "Verif.QHA.C150_recovered",
    "Verif.QHA.C150_zero_pressure",
    "Verif.QHA.C150_murnaghan",
    "Verif.QHA.C150_birch_murnaghan_violated"
   ],
   "note": "The fitted curve has, at the reported volume, the pressure asked for and the reported moduli, whenever a best fit exists. Free energies on a curve of the formulation are recovered exactly at zero pressure, and at every pressure for Murnaghan, which is closed under adding pV. For Birch–Murnaghan (the default) at a positive pressure they are not: F + pV is fitted with a formula it does not obey, and in the example the volume reported has a pressure 13 % too high. The fit itself (scipy) is assumed to return a best fit whenever there is one."
  },
  {
   "property": "C151",
   "status": "partial",
   "theorems": [
    "Verif.Chain.Eos.C151_recovered_partial",
    "Verif.Chain.Eos.C151_implied_violated"
   ],
   "note": "Proved for the parameters that a fit refines (K0 and V0 always, K' from the third order, K'' at the fourth), for every file, formulation, order, session and choice of weights, with the regression trusted up to an error that enters the bound. Violated for the parameters that the order implies: a K' held in a second-order fit is printed as entered, although the fitted curve has another (C151_implied_violated). Whether the log marks implied parameters is C107."
  },
  {
   "property": "C152",
   "status": "partial",
   "theorems": [
    "Verif.Units.Rounded.C152_order",
    "Verif.Units.Rounded.C152_computer_order",
    "Verif.Units.Rounded.C152_temperature",
    "Verif.Units.Rounded.C152_energy",
    "Verif.Units.Rounded.C152_pressure",
    "Verif.Units.Rounded.C152_frequency",
    "Verif.Units.Rounded.C152_length",
    "Verif.Units.Rounded.C152_volume",
    "Verif.Units.Rounded.C152_energy_to_pressure",
    "Verif.Units.Rounded.C152_pressure_to_energy",
    "Verif.Units.Rounded.C152_energy_density_reject",
    "Verif.Units.Rounded.C152_round_trip",
    "Verif.Units.Rounded.C152_temperature_round_trip",
    "Verif.Units.Rounded.C152_computer",
    "Verif.Units.Rounded.C152_identity_violated"
   ],
   "note": "Bounds and there-and-back proved for every machine with correctly rounded operations; binary64 (unlimited exponents) is shown to be one. Violated: a conversion to the same unit is not the identity, 0.1 degrees Celsius become 0.10000000000002274 (C152_identity_violated). C152_order adds that conversions keep the order of values when rounding is monotone, as C152_computer_order shows that of doubles to be."
  },
  {
   "property": "C153",
   "status": "partial",
   "theorems": [
    "Verif.Chain.C153_export",
    "Verif.Chain.C153_crystal",
    "Verif.Chain.C153_dispersion",
    "Verif.Chain.C153_phonopy_partial"
   ],
   "note": "Composition of the phonon chain (C144, C147, C149) with the generic exporter (C131): every cell of the six tables of harmonic results, within (eps + 1e-12) (|true| + |static energy|). The relation between the computed results and the numbers stored in the result file is a relative error eps, a parameter. Partial: phonopy calculations need the energy unit eV to be requested (C149_default_violated)."
  },
  {
   "property": "C154",
   "status": "proved",
   "theorems": [
    "Verif.Elastic.Rounded.C154_computer",
    "Verif.Elastic.Rounded.C154_young",
    "Verif.Elastic.Rounded.C154_compressibility",
    "Verif.Elastic.Rounded.C154_shear",
    "Verif.Elastic.Rounded.C154_poisson",
    "Verif.Elastic.Rounded.C154_averages"
   ],
   "note": "Rounding errors of the generic elastic class: the compliance matrix is the one linalg.inv returned (its own error is that of LAPACK and not modelled), exponents are unlimited. np.einsum may add in any order (Adds). The closed forms of the orthorhombic class are not covered; in exact arithmetic they agree (C34)."
  },
  {
   "property": "C155",
   "status": "partial",
   "theorems": [
    "Verif.Chain.C155_export",
    "Verif.Chain.C155_volumes",
    "Verif.Chain.C155_crystal",
    "Verif.Chain.C155_dispersion",
    "Verif.Chain.C155_quasi_harmonic",
    "Verif.Chain.C155_phonopy_partial"
   ],
   "note": "Composition of the quasi-harmonic chain (C148, C149) with the generic exporter (C131): line, column and entry of every table but that of the thermal expansion (C131_expansion_violated), and what the entries of the tables of volumes and of four fitted functions are. The relation between the computed results and the numbers stored in the result file is a relative error eps, a parameter. Partial: phonopy calculations need the energy unit eV to be requested (C149_default_violated)."
  },
  {
   "property": "C156",
   "status": "partial",
   "theorems": [
    "Verif.Chain.C156_sections_partial"
   ],
   "note": "Partial: crystals that are orthorhombic only within the tolerance of the classifier (C94_near_violated), lower triangles (C47_lower_violated); lines with values above 100000 do not fit the columns and are left out. The minimiser and the eigenvalue solver are parameters; the saved numbers carry a relative error."
  },
  {
   "property": "C157",
   "status": "proved",
   "theorems": [
    "Verif.Seismic.C157_motion",
    "Verif.Seismic.C157_only"
   ],
   "note": "Plane waves with the reported polarisation and positive phase velocity solve the equation of motion and carry their energy with the reported group velocity (C157_motion); no other plane wave along the direction does (C157_only)."
  },
  {
   "property": "C158",
   "status": "partial",
   "theorems": [
    "Verif.Chain.C158_waves_partial"
   ],
   "note": "Proved for columns 1-13 of the tables (C158_waves_partial). Missing: column 14 holds the enhancement factor instead of its logarithm (C98_enhancement_violated), lower triangles (C47_lower_violated) and files without a title."
  },
  {
   "property": "C159",
   "status": "partial",
   "theorems": [
    "Verif.QHA.C159_alone",
    "Verif.QHA.C159_errors",
    "Verif.QHA.C159_subgrid",
    "Verif.QHA.C159_node",
    "Verif.QHA.C159_expansion_partial",
    "Verif.QHA.C159_last_partial",
    "Verif.QHA.C159_short_violated"
   ],
   "note": "Proved: any node of any run equals the run asked for that node alone (twelve quantities), hence any two grids agree on shared nodes; sub-grids of working grids work; errors come from a node alone. Thermal expansion, Cp, Cp-Cv, KS and the Grüneisen parameter agree when both grids have at least 50 temperatures and the next temperature is shared (the forward difference quotient uses it). Violated for short grids: with fewer than 50 temperatures (qha.py:869-886) Cp, the expansion and the Grüneisen parameter are written as 0, so the same temperature and pressure give another Cp than in a longer run."
  },
  {
   "property": "C160",
   "status": "proved",
   "theorems": [
    "Verif.Elastic.C160_between",
    "Verif.Elastic.C160_cubic",
    "Verif.Elastic.C160_attained",
    "Verif.Seismic.C160_waves",
    "Verif.Seismic.C160_cubic_waves"
   ],
   "note": "C160_between bounds Young's modulus, the shear modulus in every direction and the averages; C160_waves the three phase velocities of both elastic calculators (with LAPACK's eigenvalue routine assumed correct, as in C37). C160_cubic and C160_cubic_waves give the two media of a cubic crystal, and C160_attained shows that the bounds for the moduli cannot be improved."
  },
  {
   "property": "C161",
   "status": "proved",
   "theorems": [
    "Verif.Seismic.Rounded.C161_elastic",
    "Verif.Seismic.Rounded.C161_seismic",
    "Verif.Seismic.Rounded.C161_agree"
   ],
   "note": "Full, for a machine without overflow or underflow. The accuracy of np.linalg.eigh is a hypothesis (EighAccurate), as LAPACK documents it; it is met by a routine that returns the exact eigenvalues. C154_computer shows that binary64 with correctly rounded library functions is such a machine."
  },
  {
   "property": "C162",
   "status": "partial",
   "theorems": [
    "Verif.EoS.Rounded.C162_computer",
    "Verif.EoS.Rounded.C162_tait_violated",
    "Verif.EoS.Rounded.C162_pressure",
    "Verif.EoS.Rounded.C162_parameters",
    "Verif.EoS.Rounded.C162_energy",
    "Verif.EoS.Rounded.C162_ev_pressure",
    "Verif.EoS.Rounded.C162_zero_partial",
    "Verif.EoS.Rounded.C162_order"
   ],
   "note": "Every accuracy bound holds for all machines with the stated accuracy. The exact zero at the reference volume is proved for four formulations; the modified Tait equation violates it (C162_tait_violated: K' one unit in the last place above 6 leaves a positive pressure). Energies of Murnaghan and Vinet need K' of at least 2, since the code divides by K'-1. Overflow and underflow are not modelled."
  },
  {
   "property": "C163",
   "status": "proved",
   "theorems": [
    "Verif.QHA.Rounded.C163_expansion",
    "Verif.QHA.Rounded.C163_expansion_sign",
    "Verif.QHA.Rounded.C163_volumes",
    "Verif.QHA.Rounded.C163_gruneisen",
    "Verif.QHA.Rounded.C163_capacity",
    "Verif.QHA.Rounded.C163_adiabatic",
    "Verif.QHA.Rounded.C163_order",
    "Verif.QHA.Rounded.C163_ratio",
    "Verif.QHA.Rounded.C163_potential"
   ],
   "note": "All statements are proved for every arithmetic with the stated accuracy. Overflow, underflow and fused multiply-add are not modelled. That the converted inputs are good to a few units in the last place is C152."
  },
  {
   "property": "C164",
   "status": "proved",
   "theorems": [
    "Verif.QHA.C164_columns",
    "Verif.QHA.C164_equilibrium",
    "Verif.QHA.C164_found",
    "Verif.QHA.C164_resampled"
   ],
   "note": "A crystal is a pair of functions of the volume; an input is a sample of it. Polynomial fit and root finder are parameters with the usual contracts (least squares, all real roots). With equal volumes at two samplings the frequency scheme gives equal columns at every temperature by C164_columns; at positive temperatures the free energy is not a polynomial, so equality of the volumes is stated at absolute zero. Frequencies are non-negative at the sampled volumes (the code drops negative ones)."
  },
  {
   "property": "C165",
   "status": "proved",
   "theorems": [
    "Verif.HA.C165_run",
    "Verif.QHA.C165_quasi_harmonic",
    "Verif.StatMech.C165_energy",
    "Verif.StatMech.C165_heat_capacity",
    "Verif.StatMech.C165_free_energy",
    "Verif.StatMech.C165_entropy"
   ],
   "note": "Real arithmetic; rounding is C145. Modes with non-positive frequency are dropped by the code, so positive frequencies are assumed."
  },
  {
   "property": "C166",
   "status": "proved",
   "theorems": [
    "Verif.HA.C166_run",
    "Verif.StatMech.C166_errors"
   ],
   "note": "Lipschitz bounds in the logarithm of the frequency, with constants that do not depend on temperature, frequency or crystal; two-sided, each mode with its own error."
  },
  {
   "property": "C167",
   "status": "proved",
   "theorems": [
    "Verif.QHA.C167_free_energy",
    "Verif.QHA.C167_slope",
    "Verif.QHA.C167_volume"
   ],
   "note": "The exact crystal is an arbitrary pair of functions of the volume; eta and eta' measure its distance from polynomials. Volumes are compared inside an interval on which the free energy of the crystal has curvature at least kappa. Exact arithmetic; least squares and roots are the specified external routines."
  },
  {
   "property": "C168",
   "status": "proved",
   "theorems": [
    "Verif.QHA.C168_definition",
    "Verif.QHA.C168_limit",
    "Verif.QHA.C168_derived",
    "Verif.QHA.C168_persists"
   ],
   "note": "Limits over all finer runs (C168_limit, C168_derived), with existence of such runs (C168_persists) and the derivative of the equilibrium volumes (C168_definition). Real arithmetic; the fit and the roots are those of correct external routines. Degrees above three are left out: there the run may go from one minimum to another between two temperatures."
  },
  {
   "property": "C169",
   "status": "proved",
   "theorems": [
    "Verif.QHA.C169_trapezoid",
    "Verif.QHA.C169_limit"
   ],
   "note": "Exact trapezoidal rule between any two pressures of a run, and the limit of the difference quotient over all grids; fits of degree 3 or less and thermodynamic interpolation. Cases: QHA/ThermoCurvesCases.lean."
  },
  {
   "property": "C170",
   "status": "proved",
   "theorems": [
    "Verif.QHA.C170_curves"
   ],
   "note": "The reported columns are samples of functions of the temperature whose derivatives obey the identities; Cp is the limit of the reported one by C168. Fits of degree 3 or less, thermodynamic interpolation, above absolute zero. Cases: QHA/ThermoCurvesCases.lean."
  },
  {
   "property": "C171",
   "status": "proved",
   "theorems": [
    "Verif.QHA.C171_curves"
   ],
   "note": "The reported columns are samples of functions of the pressure whose derivatives obey the identities, among them the relation of Maxwell with C170; runs nearby succeed. Fits of degree 3 or less, thermodynamic interpolation. Case: QHA/PressureCurvesCases.lean."
  },
  {
   "property": "C172",
   "status": "partial",
   "theorems": [
    "Verif.QHA.C172_bracket_partial",
    "Verif.QHA.C172_absolute_zero_partial",
    "Verif.QHA.C172_gibbs_violated"
   ],
   "note": "C172_bracket_partial: the bracket holds once the misfit of the two descriptions of the free energy is taken off the Gibbs energies; C172_absolute_zero_partial: there is no misfit at 0 K with equal degrees and positive interpolated frequencies; C172_gibbs_violated: with different degrees a crystal with positive frequencies reports Gibbs energies that grow by more than the larger volume times the pressure difference."
  },
  {
   "property": "C173",
   "status": "proved",
   "theorems": [
    "Verif.Grid.Binary.C173_sections",
    "Verif.Grid.Binary.C173_degrees",
    "Verif.Grid.Binary.C173_scan",
    "Verif.Grid.Binary.C173_directions"
   ],
   "note": "Binary64 without limits of the exponent, as in C17; numpy's linspace is modelled from its definition. The sine and cosine of the directions are exact."
  },
  {
   "property": "C174",
   "status": "proved",
   "theorems": [
    "Verif.Seismic.C174_ray",
    "Verif.Seismic.C174_bound"
   ],
   "note": "Full. The group velocity of each wave lies between its phase velocity and that of the fastest wave along the ray; hence below the longitudinal wave of some direction and below the Voigt bound. The eigensolver is the parameter of EighCorrect."
  },
  {
   "property": "C175",
   "status": "proved",
   "theorems": [
    "Verif.Polar.C175_young",
    "Verif.Polar.C175_compressibility",
    "Verif.Seismic.Rounded.C175_waves"
   ],
   "note": "Full for Young's modulus, the linear compressibility and the wave velocities of a generic crystal; the sections of the shear modulus and of Poisson's ratio come from scipy's search and are not covered. Exponents are not limited, as in C154."
  },
  {
   "property": "C176",
   "status": "proved",
   "theorems": [
    "Verif.Seismic.Rounded.C176_scan"
   ],
   "note": "Full for the phase velocities; group velocities, power flow angles and enhancement factors depend on the eigenvectors, which near degenerate waves are not determined by rounded data. Exponents are not limited, as in C161."
  },
  {
   "property": "C177",
   "status": "proved",
   "theorems": [
    "Verif.EoS.C177_expansion",
    "Verif.EoS.C177_agree",
    "Verif.EoS.C177_energy"
   ],
   "note": "Full, for parameter sets on which the formula is defined."
  },
  {
   "property": "C178",
   "status": "proved",
   "theorems": [
    "Verif.Elastic.C178_pair",
    "Verif.Elastic.C178_triad",
    "Verif.Elastic.C178_bisectors"
   ],
   "note": "Full."
  },
  {
   "property": "C179",
   "status": "proved",
   "theorems": [
    "Verif.StatMech.C179_between",
    "Verif.StatMech.C179_hot",
    "Verif.StatMech.C179_cold",
    "Verif.StatMech.C179_adiabat"
   ],
   "note": "Full, for frequencies that stay positive. It concerns the functions themselves; the value a quasi-harmonic run exports is computed from fits (C168)."
  },
  {
   "property": "C180",
   "status": "proved",
   "theorems": [
    "Verif.Seismic.C180_triangle",
    "Verif.Seismic.C180_lipschitz"
   ],
   "note": "Full, with np.linalg.eigh meeting its documentation (EighCorrect)."
  },
  {
   "property": "C181",
   "status": "proved",
   "theorems": [
    "Verif.Elastic.C181_young",
    "Verif.Elastic.C181_bisectors"
   ],
   "note": "Full."
  },
  {
   "property": "C182",
   "status": "proved",
   "theorems": [
    "Verif.Seismic.C182_phase"
   ],
   "note": "Full, with np.linalg.eigh meeting its documentation (EighCorrect)."
  },
  {
   "property": "C183",
   "status": "proved",
   "theorems": [
    "Verif.Polar.C183_young",
    "Verif.Polar.C183_compressibility"
   ],
   "note": "Full for the quantifier given: matrices that are orthorhombic only within the tolerance of the classifier are outside, see C94_near_violated."
  },
  {
   "property": "C184",
   "status": "proved",
   "theorems": [
    "Verif.EoS.C184_bulk",
    "Verif.EoS.C184_pressure",
    "Verif.EoS.C184_volume",
    "Verif.EoS.C184_stiffer"
   ],
   "note": "Full for the four formulations named."
  },
  {
   "property": "C185",
   "status": "proved",
   "theorems": [
    "Verif.StatMech.C185_mean",
    "Verif.StatMech.C185_geometric"
   ],
   "note": "Full, for positive frequencies and temperatures in exact arithmetic."
  },
  {
   "property": "C186",
   "status": "partial",
   "theorems": [
    "Verif.Polar.C186_extremes_partial",
    "Verif.Polar.C186_shear_partial",
    "Verif.Polar.C186_poisson_partial"
   ],
   "note": "Missing: solids that are orthorhombic only within the tolerance of the classifier, for which the sections belong to another solid (C94_near_violated). The search is a parameter that returns an exact local minimum."
  },
  {
   "property": "C187",
   "status": "proved",
   "theorems": [
    "Verif.QHA.C187_success",
    "Verif.QHA.C187_results"
   ],
   "note": "Full for polynomial minimisation in exact arithmetic with a least-squares fit and a root finder that is a function of the coefficients. With an equation of state a linear term leaves the family of curves and no such equality can hold."
  }
 ]
}