Verif.Units.C01_faithful: propext, Classical.choice, Quot.sound
Verif.Units.C01_round_trip: propext, Classical.choice, Quot.sound
Verif.Units.C01_compose: propext, Classical.choice, Quot.sound
Verif.Units.C01_identity: propext, Classical.choice, Quot.sound
Verif.Units.C01_strictMono: propext, Classical.choice, Quot.sound
Verif.Units.C02_documented_names_violated: propext, Classical.choice, Quot.sound
Verif.Units.C02_faithful_partial: propext, Classical.choice, Quot.sound
Verif.Units.C02_round_trip: propext, Classical.choice, Quot.sound
Verif.Units.C02_compose: propext, Classical.choice, Quot.sound
Verif.Units.C02_linear: propext, Classical.choice, Quot.sound
Verif.Units.C03_faithful: propext, Classical.choice, Quot.sound
Verif.Units.C03_round_trip: propext, Classical.choice, Quot.sound
Verif.Units.C03_compose: propext, Classical.choice, Quot.sound
Verif.Units.C03_linear: propext, Classical.choice, Quot.sound
Verif.Units.C03_strictMono: propext, Classical.choice, Quot.sound
Verif.Units.C04_frequency_faithful: propext, Classical.choice, Quot.sound
Verif.Units.C04_length_faithful: propext, Classical.choice, Quot.sound
Verif.Units.C04_volume_faithful: propext, Classical.choice, Quot.sound
Verif.Units.C04_frequency_round_trip: propext, Classical.choice, Quot.sound
Verif.Units.C04_length_round_trip: propext, Classical.choice, Quot.sound
Verif.Units.C04_volume_round_trip: propext, Classical.choice, Quot.sound
Verif.Units.C04_frequency_compose: propext, Classical.choice, Quot.sound
Verif.Units.C04_length_compose: propext, Classical.choice, Quot.sound
Verif.Units.C04_volume_compose: propext, Classical.choice, Quot.sound
Verif.Units.C04_volume_is_length_cubed: propext, Classical.choice, Quot.sound
Verif.Units.C05_energy_to_pressure: propext, Classical.choice, Quot.sound
Verif.Units.C05_pressure_to_energy: propext, Classical.choice, Quot.sound
Verif.Units.C05_inverse: propext, Classical.choice, Quot.sound
Verif.Units.C05_units_independent: propext, Classical.choice, Quot.sound
Verif.Units.C05_reject: propext, Classical.choice, Quot.sound
Verif.Units.Alias.C06_same_object: propext, Classical.choice, Quot.sound
Verif.Units.Alias.C06_new_object: propext, Classical.choice, Quot.sound
Verif.Units.C06_argument_unchanged_violated: propext, Classical.choice, Quot.sound
Verif.Units.C06_integers_raise_violated: propext, Classical.choice, Quot.sound
Verif.Units.C06_argument_unchanged_partial: propext, Classical.choice, Quot.sound
Verif.Units.C06_result_aliases_violated: propext, Classical.choice, Quot.sound
Verif.Units.C06_in_place_violated: propext, Classical.choice, Quot.sound
Verif.StatMech.C07_F_eq_U_minus_TS: propext, Classical.choice, Quot.sound
Verif.StatMech.C07_zpe_constant: propext, Classical.choice, Quot.sound
Verif.StatMech.C08_entropy_is_minus_dF: propext, Classical.choice, Quot.sound
Verif.StatMech.C08_heat_capacity_is_dU: propext, Classical.choice, Quot.sound
Verif.StatMech.C08_heat_capacity_is_T_dS: propext, Classical.choice, Quot.sound
Verif.StatMech.C09_bounds: propext, Classical.choice, Quot.sound
Verif.StatMech.C10_low_temperature: propext, Classical.choice, Quot.sound
Verif.StatMech.C10_high_temperature: propext, Classical.choice, Quot.sound
Verif.StatMech.C11_monotone: propext, Classical.choice, Quot.sound
Verif.StatMech.Bits.C12_bitwise: propext, Classical.choice, Quot.sound
Verif.StatMech.C12_any_schedule: propext, Classical.choice, Quot.sound
Verif.StatMech.C13_q_points: propext, Classical.choice, Quot.sound
Verif.StatMech.C13_bands: propext, Classical.choice, Quot.sound
Verif.StatMech.C13_imaginary_modes: propext, Classical.choice, Quot.sound
Verif.HA.C14_consistent: propext, Classical.choice, Quot.sound
Verif.HA.C14_weights: propext, Classical.choice, Quot.sound
Verif.HA.C14_in_users_units: propext, Classical.choice, Quot.sound
Verif.HA.C14_unit_independent: propext, Classical.choice, Quot.sound
Verif.HA.C14_selectable_units: propext, Classical.choice, Quot.sound
Verif.QHA.C15_legendre: propext, Classical.choice, Quot.sound
Verif.QHA.C15_differences: propext, Classical.choice, Quot.sound
Verif.QHA.C15_kernels: propext, Classical.choice, Quot.sound
Verif.QHA.C16_relations_partial: propext, Classical.choice, Quot.sound
Verif.QHA.C16_units_of_KS: propext, Classical.choice, Quot.sound
Verif.QHA.C16_degenerate: propext, Classical.choice, Quot.sound
Verif.QHA.C16_inequalities_partial: propext, Classical.choice, Quot.sound
Verif.QHA.C16_short_grid_violated: propext, Classical.choice, Quot.sound
Verif.Grid.Binary.C17_binary_partial: propext, Classical.choice, Quot.sound
Verif.Grid.Binary.C17_binary_violated: propext, Classical.choice, Quot.sound
Verif.Grid.Binary.C17_binary_exact: propext, Classical.choice, Quot.sound
Verif.Grid.Binary.C17_rounding: propext, Classical.choice, Quot.sound
Verif.Grid.C17_starts_and_spacing: propext, Classical.choice, Quot.sound
Verif.Grid.C17_divides_partial: propext, Classical.choice, Quot.sound
Verif.Grid.C17_bounded_partial: propext, Classical.choice, Quot.sound
Verif.Grid.C17_no_overshoot_violated: propext, Classical.choice, Quot.sound
Verif.Grid.Binary.C18_binary: propext, Classical.choice, Quot.sound
Verif.Grid.C18_fine_grid: propext, Classical.choice, Quot.sound
Verif.Grid.C18_symmetric_iff_odd: propext, Classical.choice, Quot.sound
Verif.QHA.C19_quotients: propext, Classical.choice, Quot.sound
Verif.QHA.C19_affine_exact: propext, Classical.choice, Quot.sound
Verif.QHA.C19_mean_value: propext, Classical.choice, Quot.sound
Verif.QHA.C19_short_grid: propext, Classical.choice, Quot.sound
Verif.Poly.C20_candidates: propext, Classical.choice, Quot.sound
Verif.Poly.C20_strict_local_minimum: propext, Classical.choice, Quot.sound
Verif.QHA.C20_equilibrium_volume: propext, Classical.choice, Quot.sound
Verif.QHA.C20_run_succeeds_iff: propext, Classical.choice, Quot.sound
Verif.Poly.C21_polyval: propext, Classical.choice, Quot.sound
Verif.Poly.C21_multi_interpolate: propext, Classical.choice, Quot.sound
Verif.Poly.C21_linear: propext, Classical.choice, Quot.sound
Verif.Poly.C21_ranks: propext, Classical.choice, Quot.sound
Verif.Poly.C22_nonneg: propext, Classical.choice, Quot.sound
Verif.Poly.C22_exact_fit: propext, Classical.choice, Quot.sound
Verif.Poly.C22_agree: propext, Classical.choice, Quot.sound
Verif.Poly.C22_least_squares: propext, Classical.choice, Quot.sound
Verif.EoS.C23_parameters: propext, Classical.choice, Quot.sound
Verif.EoS.C23_which_Kp: propext, Classical.choice, Quot.sound
Verif.EoS.C23_truncation: propext, Classical.choice, Quot.sound
Verif.EoS.C24_second_derivative_partial: propext, Classical.choice, Quot.sound
Verif.EoS.C24_vinet_violated: propext, Classical.choice, Quot.sound
Verif.EoS.C25_lowest: propext, Classical.choice, Quot.sound
Verif.EoS.C25_stretched: propext, Classical.choice, Quot.sound
Verif.EoS.C25_minimum: propext, Classical.choice, Quot.sound
Verif.EoS.C26_pressure_partial: propext, Classical.choice, Quot.sound
Verif.EoS.C26_pressure_violated: propext, Classical.choice, Quot.sound
Verif.EoS.C27_near_equilibrium: propext, Classical.choice, Quot.sound
Verif.EoS.C27_compression: propext, Classical.choice, Quot.sound
Verif.EoS.C27_all_volumes: propext, Classical.choice, Quot.sound
Verif.EoS.C27_fits: propext, Classical.choice, Quot.sound
Verif.Session.C28_job: propext, Classical.choice, Quot.sound
Verif.Session.C28_fixed: propext, Classical.choice, Quot.sound
Verif.Session.C28_session_violated: propext, Classical.choice, Quot.sound
Verif.Session.C29_carried: propext, Classical.choice, Quot.sound
Verif.Session.C29_starting_parameters_partial: propext, Classical.choice, Quot.sound
Verif.Session.C29_shown: propext, Classical.choice, Quot.sound
Verif.Session.C29_axial_violated: propext, Classical.choice, Quot.sound
Verif.Session.C29_history_violated: propext, Classical.choice, Quot.sound
Verif.Session.C30_choose: propext, Classical.choice, Quot.sound
Verif.Session.C30_session: propext, Classical.choice, Quot.sound
Verif.Session.C30_defaults: propext, Classical.choice, Quot.sound
Verif.Session.C30_fixed_answers: propext, Quot.sound
Verif.Session.C30_one_fit: propext, Classical.choice, Quot.sound
Verif.Session.C30_return: propext, Classical.choice, Quot.sound
Verif.Session.C30_progress: propext, Classical.choice, Quot.sound
Verif.Session.C30_no_failures: propext, Classical.choice, Quot.sound
Verif.Elastic.C31_tensors: propext, Classical.choice, Quot.sound
Verif.Elastic.C31_both_modules: propext, Classical.choice, Quot.sound
Verif.Elastic.C32_young: propext, Classical.choice, Quot.sound
Verif.Elastic.C32_compressibility: propext, Classical.choice, Quot.sound
Verif.Elastic.C32_polar: propext, Classical.choice, Quot.sound
Verif.Elastic.C32_reversal: propext, Classical.choice, Quot.sound
Verif.Elastic.C32_isotropic: propext, Classical.choice, Quot.sound
Verif.Elastic.C33_shear: propext, Classical.choice, Quot.sound
Verif.Elastic.C33_poisson: propext, Classical.choice, Quot.sound
Verif.Elastic.C33_reciprocity: propext, Classical.choice, Quot.sound
Verif.Elastic.C34_fast_path: propext, Classical.choice, Quot.sound
Verif.Elastic.C34_calculator: propext, Classical.choice, Quot.sound
Verif.Elastic.C35_orthonormal: propext, Classical.choice, Quot.sound
Verif.Elastic.C35_complete: propext, Classical.choice, Quot.sound
Verif.Elastic.C35_modules: propext, Classical.choice, Quot.sound
Verif.Elastic.C36_ordered: propext, Classical.choice, Quot.sound
Verif.Elastic.C36_relations: propext, Classical.choice, Quot.sound
Verif.Elastic.C36_isotropic: propext, Classical.choice, Quot.sound
Verif.Elastic.C36_modules: propext, Classical.choice, Quot.sound
Verif.Seismic.C37_same_matrix: propext, Classical.choice, Quot.sound
Verif.Seismic.C37_velocities: propext, Classical.choice, Quot.sound
Verif.Seismic.C38_isotropic: propext, Classical.choice, Quot.sound
Verif.Seismic.C39_projection_partial: propext, Classical.choice, Quot.sound
Verif.Seismic.C39_negative_violated: propext, Classical.choice, Quot.sound
Verif.Seismic.C40_matrix: propext, Classical.choice, Quot.sound
Verif.Seismic.C40_eigenvalues: propext, Classical.choice, Quot.sound
Verif.Seismic.C41_current_direction: propext, Classical.choice, Quot.sound
Verif.Seismic.C41_cleared: propext, Classical.choice, Quot.sound
Verif.Seismic.C42_theta_partial: propext, Classical.choice, Quot.sound
Verif.Seismic.C42_azimuth_violated: propext, Classical.choice, Quot.sound
Verif.Seismic.C42_group_partial: propext, Classical.choice, Quot.sound
Verif.Seismic.C43_rows: propext, Classical.choice, Quot.sound
Verif.Seismic.C43_ends: propext, Classical.choice, Quot.sound
Verif.Seismic.C43_reader: propext, Classical.choice, Quot.sound
Verif.Seismic.C43_mesh: propext, Classical.choice, Quot.sound
Verif.Seismic.C43_single: propext, Classical.choice, Quot.sound
Verif.Elastic.C44_exact: propext, Classical.choice, Quot.sound
Verif.Elastic.C44_total_first: propext, Classical.choice, Quot.sound
Verif.Elastic.C44_sound_partial: propext, Classical.choice, Quot.sound
Verif.Elastic.C44_recognised: propext, Classical.choice, Quot.sound
Verif.Elastic.C44_tetragonal_violated: propext, Classical.choice, Quot.sound
Verif.Elastic.C44_hexagonal_violated: propext, Classical.choice, Quot.sound
Verif.Elastic.C44_trigonal_violated: propext, Classical.choice, Quot.sound
Verif.Elastic.C45_unstable_violated: propext, Classical.choice, Quot.sound
Verif.Elastic.C45_reported_partial: propext, Classical.choice, Quot.sound
Verif.Chain.C46_tolerance_partial: propext, Classical.choice, Quot.sound
Verif.Elastic.C46_extremes: propext, Classical.choice, Quot.sound
Verif.Elastic.C46_pair_extremes_partial: propext, Classical.choice, Quot.sound
Verif.Elastic.C46_run_partial: propext, Classical.choice, Quot.sound
Verif.Elastic.C46_single_axis_partial: propext, Classical.choice, Quot.sound
Verif.Elastic.C46_two_axes_violated: propext, Classical.choice, Quot.sound
Verif.IO.C47_matrix_partial: propext, Classical.choice, Quot.sound
Verif.IO.C47_lower_violated: propext, Classical.choice, Quot.sound
Verif.IO.C47_sign_violated: propext, Classical.choice, Quot.sound
Verif.IO.C47_shape_violated: propext, Classical.choice, Quot.sound
Verif.IO.C47_completed_partial: propext, Classical.choice, Quot.sound
Verif.IO.C47_short: propext, Classical.choice, Quot.sound
Verif.IO.C47_density: propext, Classical.choice, Quot.sound
Verif.IO.C48_eos_title_violated: propext, Classical.choice, Quot.sound
Verif.IO.C48_eos_format_violated: propext, Classical.choice, Quot.sound
Verif.IO.C48_soec_partial: propext, Classical.choice, Quot.sound
Verif.IO.C48_soec_density_violated: propext, Classical.choice, Quot.sound
Verif.IO.C48_soec_title_violated: propext, Classical.choice, Quot.sound
Verif.IO.C49_roundtrip_partial: propext, Classical.choice, Quot.sound
Verif.IO.C49_title_violated: propext, Classical.choice, Quot.sound
Verif.IO.C50_columns_partial: propext, Classical.choice, Quot.sound
Verif.IO.C50_format_first: propext, Classical.choice, Quot.sound
Verif.IO.C50_title_violated: propext, Classical.choice, Quot.sound
Verif.IO.C50_pressure_violated: propext, Classical.choice, Quot.sound
Verif.IO.C50_blank_violated: propext, Classical.choice, Quot.sound
Verif.IO.C51_spelling_violated: propext, Classical.choice, Quot.sound
Verif.IO.C51_long_partial: propext, Classical.choice, Quot.sound
Verif.Phonon.C52_complete: propext, Classical.choice, Quot.sound
Verif.Phonon.C52_lacking: propext, Quot.sound
Verif.Phonon.C52_unreadable: propext, Quot.sound
Verif.Phonon.C52_text_violated: propext, Classical.choice, Quot.sound
Verif.Phonon.C52_reused_violated: propext, Quot.sound
Verif.Phonon.C52_title: propext, Quot.sound
Verif.Phonon.C52_single_volume: propext, Classical.choice, Quot.sound
Verif.Phonon.C52_total: propext, Classical.choice, Quot.sound
Verif.Phonon.C52_mandatory_violated: propext, Classical.choice, Quot.sound
Verif.Phonon.C53_fresh_partial: propext, Classical.choice, Quot.sound
Verif.Phonon.C53_history_violated: propext, Classical.choice, Quot.sound
Verif.Phonon.C53_refused_violated: propext, Classical.choice, Quot.sound
Verif.Phonon.C53_quasi_harmonic: propext, Classical.choice, Quot.sound
Verif.Phonon.C53_missing: propext, Classical.choice, Quot.sound
Verif.Phonon.C53_unreadable: propext, Classical.choice, Quot.sound
Verif.Phonon.C53_unsupported: propext, Classical.choice, Quot.sound
Verif.Export.C54_data: propext, Classical.choice, Quot.sound
Verif.Export.C54_attribute: propext, Classical.choice, Quot.sound
Verif.Export.C54_missing: propext, Quot.sound
Verif.Export.C54_column: propext, Classical.choice, Quot.sound
Verif.Export.C54_row: propext, Classical.choice, Quot.sound
Verif.Export.C54_index_partial: propext, Classical.choice, Quot.sound
Verif.Export.C54_index_violated: propext, Classical.choice, Quot.sound
Verif.Export.C54_attribute_violated: propext, Classical.choice, Quot.sound
Verif.Export.C54_has_data_violated: propext
Verif.Export.C54_export_violated: propext, Classical.choice, Quot.sound
Verif.Export.C54_info: propext
Verif.Export.C55_quasi_harmonic: propext, Classical.choice, Quot.sound
Verif.Export.C55_harmonic_partial: propext, Classical.choice, Quot.sound
Verif.Export.C55_static_violated: propext, Classical.choice, Quot.sound
Verif.Export.C55_zero_point_violated: propext, Classical.choice, Quot.sound
Verif.Interfaces.C56_components_partial: propext, Classical.choice, Quot.sound
Verif.Interfaces.C56_shear_violated: propext, Classical.choice, Quot.sound
Verif.Interfaces.C57_element: propext, Classical.choice, Quot.sound
Verif.Interfaces.C57_rows_partial: propext, Classical.choice, Quot.sound
Verif.Interfaces.C57_refused: propext, Classical.choice, Quot.sound
Verif.Interfaces.C57_two_totals_violated: propext, Classical.choice, Quot.sound
Verif.Interfaces.C58_symmetric_partial: propext, Classical.choice, Quot.sound
Verif.Interfaces.C58_history_violated: propext, Classical.choice, Quot.sound
Verif.Interfaces.C58_twice_violated: propext, Classical.choice, Quot.sound
Verif.Interfaces.C59_never_returns_partial: propext, Classical.choice, Quot.sound
Verif.Interfaces.C59_hang_violated: propext, Classical.choice, Quot.sound
Verif.Interfaces.C59_too_many: propext, Classical.choice, Quot.sound
Verif.Interfaces.C59_stops_partial: propext, Classical.choice, Quot.sound
Verif.Interfaces.C60_cells_partial: propext, Classical.choice, Quot.sound
Verif.Interfaces.C60_violated: propext, Classical.choice, Quot.sound
Verif.Chemistry.C61_symbol2number: propext, Classical.choice, Quot.sound
Verif.Chemistry.C61_number2symbol: propext, Quot.sound
Verif.Chemistry.C61_inverse: propext, Classical.choice, Quot.sound
Verif.Chemistry.C61_unique: propext, Quot.sound
Verif.Chemistry.C61_unknown_symbol: propext, Classical.choice, Quot.sound
Verif.Chemistry.C61_unknown_number: propext, Quot.sound
Verif.Chemistry.C61_negative_number: propext, Quot.sound
Verif.Seismic.C62_cofactor_partial: propext, Classical.choice, Quot.sound
Verif.Seismic.C62_compiled_violated: propext, Classical.choice, Quot.sound
Verif.Kieffer.C63_one_mode: propext, Classical.choice, Quot.sound
Verif.Kieffer.C63_value_partial: propext, Classical.choice, Quot.sound
Verif.Kieffer.C63_absolute_zero: propext, Classical.choice, Quot.sound
Verif.Kieffer.C63_consistent_partial: propext, Classical.choice, Quot.sound
Verif.Kieffer.C63_entropy_violated: propext, Classical.choice, Quot.sound
Verif.Kieffer.C63_truncated_violated: propext, Classical.choice, Quot.sound
Verif.Kieffer.C63_bounds: propext, Classical.choice, Quot.sound
Verif.Seismic.C64_disc: propext, Classical.choice, Quot.sound
Verif.Seismic.C64_azimuth: propext, Classical.choice, Quot.sound
Verif.Seismic.C64_radius_increases: propext, Classical.choice, Quot.sound
Verif.Seismic.C64_injective: propext, Classical.choice, Quot.sound
Verif.Seismic.C64_equal_area: propext, Classical.choice, Quot.sound
Verif.Seismic.C64_conformal: propext, Classical.choice, Quot.sound
Verif.Seismic.C65_figures_partial: propext, Classical.choice, Quot.sound
Verif.Seismic.C65_polarization_violated: propext, Classical.choice, Quot.sound
Verif.Seismic.C65_header_violated: propext, Classical.choice, Quot.sound
Verif.Command.C66_seismic_files: propext, Quot.sound
Verif.Command.C66_files: propext, Classical.choice, Quot.sound
Verif.Command.C66_saved: propext, Quot.sound
Verif.Command.C66_default_names: propext, Quot.sound
Verif.Command.C66_given_names: propext, Quot.sound
Verif.Command.C66_directory_violated: propext, Quot.sound
Verif.Command.C66_eosfit_violated: propext
Verif.Command.C66_azimuths_partial: propext
Verif.Command.C66_azimuths_violated: propext, Quot.sound
Verif.Command.C66_units: propext, Quot.sound
Verif.Command.C66_wavenumber_violated: propext, Quot.sound
Verif.Command.C66_eos: propext
Verif.Command.C67_command_violated: propext, Quot.sound
Verif.Command.C67_seismic_partial: propext, Quot.sound
Verif.Command.C67_seismic_violated: propext, Quot.sound
Verif.Command.C67_elastic: propext, Quot.sound
Verif.QHA.C68_energies_add_up: propext, Classical.choice, Quot.sound
Verif.QHA.C68_td_interpolates: propext, Classical.choice, Quot.sound
Verif.QHA.C68_freq_interpolates: propext, Classical.choice, Quot.sound
Verif.QHA.C68_H_minus_G: propext, Classical.choice, Quot.sound
Verif.QHA.C69_bulk_modulus: propext, Classical.choice, Quot.sound
Verif.QHA.C69_bulk_derivative: propext, Classical.choice, Quot.sound
Verif.QHA.C69_eos_parameters: propext, Classical.choice, Quot.sound
Verif.QHA.C70_acoustic_violated: propext, Classical.choice, Quot.sound
Verif.EoS.C71_axial_murnaghan_partial: propext, Classical.choice, Quot.sound
Verif.EoS.C71_axial_violated: propext, Classical.choice, Quot.sound
Verif.Seismic.C72_inversion: propext, Classical.choice, Quot.sound
Verif.Seismic.C72_sphere: propext, Classical.choice, Quot.sound
Verif.Seismic.C73_ratios: propext, Classical.choice, Quot.sound
Verif.Seismic.C74_isotropic_rays: propext, Classical.choice, Quot.sound
Verif.IO.C75_only_partial: propext, Classical.choice, Quot.sound
Verif.IO.C75_terminates_partial: propext, Classical.choice, Quot.sound
Verif.IO.C75_unknown_violated: propext, Classical.choice, Quot.sound
Verif.Interfaces.C76_element: propext, Classical.choice, Quot.sound
Verif.Interfaces.C76_density: propext, Classical.choice, Quot.sound
Verif.Interfaces.C76_refused: propext, Classical.choice, Quot.sound
Verif.Interfaces.C77_gamma: propext, Classical.choice, Quot.sound
Verif.Interfaces.C77_not_output: propext, Classical.choice, Quot.sound
Verif.Interfaces.C77_completed: propext, Classical.choice, Quot.sound
Verif.Interfaces.C78_dispersion_partial: propext, Classical.choice, Quot.sound
Verif.Interfaces.C78_lattice_partial: propext, Classical.choice, Quot.sound
Verif.Interfaces.C78_missing_violated: propext, Classical.choice, Quot.sound
Verif.Interfaces.C78_lattice_violated: propext, Classical.choice, Quot.sound
Verif.Interfaces.C79_supercell_violated: propext, Classical.choice, Quot.sound
Verif.Interfaces.C80_same_partial: propext, Classical.choice, Quot.sound
Verif.Interfaces.C80_violated: propext, Classical.choice, Quot.sound
Verif.Interfaces.C81_not_output: propext, Classical.choice, Quot.sound
Verif.Interfaces.C81_few: propext, Classical.choice, Quot.sound
Verif.Interfaces.C81_restarted: propext, Classical.choice, Quot.sound
Verif.Interfaces.C81_no_table_violated: propext, Classical.choice, Quot.sound
Verif.Interfaces.C81_completed: propext, Classical.choice, Quot.sound
Verif.Phonon.C82_shape: propext, Classical.choice, Quot.sound
Verif.Phonon.C82_more_points: propext, Classical.choice, Quot.sound
Verif.Phonon.C82_wrong_number: propext, Classical.choice, Quot.sound
Verif.Phonon.C82_missing_band_violated: propext, Classical.choice, Quot.sound
Verif.Phonon.C82_single_frequency_violated: propext, Classical.choice, Quot.sound
Verif.Phonon.C82_missing_points_violated: propext, Classical.choice, Quot.sound
Verif.Phonon.C82_no_brackets_violated: propext, Classical.choice, Quot.sound
Verif.Phonon.C82_not_whole_violated: propext, Classical.choice, Quot.sound
Verif.Phonon.C83_read_partial: propext, Classical.choice, Quot.sound
Verif.Phonon.C83_coordinates_violated: propext, Classical.choice, Quot.sound
Verif.Phonon.C83_missing_files: propext, Classical.choice, Quot.sound
Verif.Phonon.C83_not_yaml_violated: propext, Classical.choice, Quot.sound
Verif.Phonon.C83_incomplete: propext, Classical.choice, Quot.sound
Verif.Phonon.C84_too_large: propext, Classical.choice, Quot.sound
Verif.Phonon.C84_boundary_violated: propext, Classical.choice, Quot.sound
Verif.Phonon.C84_negative_violated: propext, Classical.choice, Quot.sound
Verif.Phonon.C85_description_violated: propext, Classical.choice, Quot.sound
Verif.Phonon.C85_multiple: propext, Classical.choice, Quot.sound
Verif.Phonon.C85_single: propext, Classical.choice, Quot.sound
Verif.Phonon.C85_read: propext, Classical.choice, Quot.sound
Verif.Phonon.C85_one_tree: propext, Classical.choice, Quot.sound
Verif.Export.C86_elastic_partial: propext, Classical.choice, Quot.sound
Verif.Export.C86_seismic_partial: propext, Classical.choice, Quot.sound
Verif.Export.C86_elastic_names: propext, Classical.choice, Quot.sound
Verif.Export.C86_seismic_names: propext, Classical.choice, Quot.sound
Verif.Export.C86_typed_more_violated: propext, Classical.choice, Quot.sound
Verif.Export.C86_unconfirmed_partial: propext, Classical.choice, Quot.sound
Verif.Export.C86_names: propext, Classical.choice, Quot.sound
Verif.Export.C86_typed_violated: propext, Classical.choice, Quot.sound
Verif.Export.C87_elastic_violated: propext, Classical.choice, Quot.sound
Verif.Export.C87_shared_violated: propext, Classical.choice, Quot.sound
Verif.Export.C87_last_partial: propext, Classical.choice, Quot.sound
Verif.Export.C87_refused_violated: propext, Quot.sound
Verif.Export.C88_potentials_partial: propext, Classical.choice, Quot.sound
Verif.Export.C88_moduli_partial: propext, Classical.choice, Quot.sound
Verif.Export.C88_heat_capacity_violated: propext, Classical.choice, Quot.sound
Verif.Export.C88_volume_violated: propext, Classical.choice, Quot.sound
Verif.Command.C89_default_partial: propext, Classical.choice, Quot.sound
Verif.Command.C89_given_partial: propext, Classical.choice, Quot.sound
Verif.Command.C89_given_violated: propext, Classical.choice, Quot.sound
Verif.Command.C89_eosfit_partial: propext, Quot.sound
Verif.Command.C89_eosfit_violated: propext, Classical.choice, Quot.sound
Verif.Command.C90_quiet_files: propext, Quot.sound
Verif.Command.C90_quiet_screen_partial: propext, Quot.sound
Verif.Command.C90_quiet_screen_violated: propext, Quot.sound
Verif.Command.C91_results_partial: propext, Classical.choice, Quot.sound
Verif.Command.C91_log_violated: propext, Classical.choice, Quot.sound
Verif.Command.C92_seismic_partial: propext, Quot.sound
Verif.Command.C92_no_2D_violated: propext, Quot.sound
Verif.Command.C92_plotly_only_violated: propext, Quot.sound
Verif.Command.C92_elastic_partial: propext, Quot.sound
Verif.Command.C92_elastic_violated: none
Verif.Command.C92_command_partial: propext, Quot.sound
Verif.Command.C92_command_violated: propext, Quot.sound
Verif.Command.C93_run_partial: propext, Classical.choice, Quot.sound
Verif.Command.C93_run_violated: propext, Classical.choice, Quot.sound
Verif.Command.C93_commands_partial: propext
Verif.Command.C93_seismic_violated: propext
Verif.Polar.C94_sections_partial: propext, Classical.choice, Quot.sound
Verif.Polar.C94_closed: propext, Classical.choice, Quot.sound
Verif.Polar.C94_extremes: propext, Classical.choice, Quot.sound
Verif.Polar.C94_near_violated: propext, Classical.choice, Quot.sound
Verif.Polar.C95_units_partial: propext, Classical.choice, Quot.sound
Verif.Polar.C95_compliance_violated: propext, Classical.choice, Quot.sound
Verif.Polar.C95_averages_violated: propext, Classical.choice, Quot.sound
Verif.Export.C96_placeholder_tables_violated: propext, Classical.choice, Quot.sound
Verif.Polar.C96_calculated_partial: propext, Classical.choice, Quot.sound
Verif.Polar.C96_unit: propext, Quot.sound
Verif.Polar.C96_placeholders_violated: propext, Classical.choice, Quot.sound
Verif.Polar.C99_points: propext, Classical.choice, Quot.sound
Verif.Polar.C99_range_partial: propext, Classical.choice, Quot.sound
Verif.Polar.C99_compressibility_violated: propext, Classical.choice, Quot.sound
Verif.Polar.C99_poisson_violated: propext, Classical.choice, Quot.sound
Verif.Polar.C99_figures: propext, Classical.choice, Quot.sound
Verif.Polar.C99_labels: propext, Classical.choice, Quot.sound
Verif.Export.C97_tables: propext, Classical.choice, Quot.sound
Verif.Export.C97_width_violated: propext, Classical.choice, Quot.sound
Verif.Export.C98_tables: propext, Classical.choice, Quot.sound
Verif.Export.C98_kinds: propext, Classical.choice, Quot.sound
Verif.Export.C98_enhancement_violated: propext, Classical.choice, Quot.sound
Verif.Guess.C100_curves: propext, Classical.choice, Quot.sound
Verif.Guess.C100_exact: propext, Classical.choice, Quot.sound
Verif.Guess.C100_order: propext, Classical.choice, Quot.sound
Verif.Guess.C100_units: propext, Classical.choice, Quot.sound
Verif.Guess.C101_curve: propext, Classical.choice, Quot.sound
Verif.Guess.C101_parabola: propext, Classical.choice, Quot.sound
Verif.Guess.C101_minimum_partial: propext, Classical.choice, Quot.sound
Verif.Guess.C101_maximum_violated: propext, Classical.choice, Quot.sound
Verif.Guess.C101_flat: propext, Classical.choice, Quot.sound
Verif.Report.C102_slope: propext, Classical.choice, Quot.sound
Verif.Report.C102_decreasing: propext, Classical.choice, Quot.sound
Verif.Report.C102_inner_partial: propext, Classical.choice, Quot.sound
Verif.Report.C102_ends_violated: propext, Classical.choice, Quot.sound
Verif.Report.C102_few: propext, Classical.choice, Quot.sound
Verif.Report.C102_eos_partial: propext, Classical.choice, Quot.sound
Verif.Report.C102_eos_violated: propext, Classical.choice, Quot.sound
Verif.Report.C103_small_partial: propext, Classical.choice, Quot.sound
Verif.Report.C103_large_partial: propext, Classical.choice, Quot.sound
Verif.Report.C103_zeros_violated: propext, Classical.choice, Quot.sound
Verif.Report.C103_ten_violated: propext, Classical.choice, Quot.sound
Verif.Report.C103_unusable: propext, Classical.choice, Quot.sound
Verif.Report.C103_nan_violated: propext, Classical.choice, Quot.sound
Verif.Report.C103_block: propext, Classical.choice, Quot.sound
Verif.EoS.C104_determined: propext, Classical.choice, Quot.sound
Verif.EoS.C104_recovered: propext, Classical.choice, Quot.sound
Verif.EoS.C104_three: propext, Classical.choice, Quot.sound
Verif.EoS.C105_determined: propext, Classical.choice, Quot.sound
Verif.EoS.C105_recovered: propext, Classical.choice, Quot.sound
Verif.EoS.C105_fourth_violated: propext, Classical.choice, Quot.sound
Verif.EoS.C106_pressure_errors_violated: propext, Classical.choice, Quot.sound
Verif.EoS.C106_vinet_errors_violated: propext, Classical.choice, Quot.sound
Verif.EoS.C106_curve_partial: propext, Classical.choice, Quot.sound
Verif.EoS.C106_data: propext, Classical.choice, Quot.sound
Verif.EoS.C106_exact: propext, Classical.choice, Quot.sound
Verif.EoS.C106_line: propext, Classical.choice, Quot.sound
Verif.EoS.C106_axial_violated: propext, Classical.choice, Quot.sound
Verif.EoS.C106_errors_violated: propext, Classical.choice, Quot.sound
Verif.EoS.C106_none: propext, Classical.choice, Quot.sound
Verif.Report.C107_report_partial: propext, Classical.choice, Quot.sound
Verif.Report.C107_observed_violated: propext, Classical.choice, Quot.sound
Verif.Report.C107_implied: propext, Classical.choice, Quot.sound
Verif.Report.C107_aligned: propext, Classical.choice, Quot.sound
Verif.Report.C108_table: propext, Classical.choice, Quot.sound
Verif.Report.C108_file: propext, Classical.choice, Quot.sound
Verif.Report.C108_aligned: propext, Classical.choice, Quot.sound
Verif.Report.C109_aligned: propext, Classical.choice, Quot.sound
Verif.Report.C109_table_partial: propext, Classical.choice, Quot.sound
Verif.Report.C109_heat_capacity: propext, Classical.choice, Quot.sound
Verif.Report.C109_volume_violated: propext, Classical.choice, Quot.sound
Verif.Report.C110_report_partial: propext, Classical.choice, Quot.sound
Verif.Report.C110_constant_violated: propext, Classical.choice, Quot.sound
Verif.Report.C111_input: propext, Classical.choice, Quot.sound
Verif.Report.C111_run_partial: propext, Classical.choice, Quot.sound
Verif.Report.C111_velocities_violated: propext, Classical.choice, Quot.sound
Verif.Report.C111_aligned: propext, Classical.choice, Quot.sound
Verif.Report.C112_report_partial: propext, Classical.choice, Quot.sound
Verif.Report.C112_single_violated: propext, Classical.choice, Quot.sound
Verif.Report.C112_accept: propext, Classical.choice, Quot.sound
Verif.Report.C113_harmonic: propext, Classical.choice, Quot.sound
Verif.Report.C113_quasi_harmonic: propext, Classical.choice, Quot.sound
Verif.Report.C113_determined: propext, Classical.choice, Quot.sound
Verif.Report.C113_seismic: propext, Classical.choice, Quot.sound
Verif.Report.C113_elastic_eos: propext
Verif.Report.C114_start_partial: propext, Classical.choice, Quot.sound
Verif.Report.C114_refused: propext, Classical.choice, Quot.sound
Verif.Report.C114_negative_violated: propext, Classical.choice, Quot.sound
Verif.Report.C114_singular_violated: propext, Classical.choice, Quot.sound
Verif.Report.C114_report: propext, Classical.choice, Quot.sound
Verif.Command.C115_exact: propext, Classical.choice, Quot.sound
Verif.Command.C115_unknown: propext, Classical.choice, Quot.sound
Verif.Elastic.C116_turned: propext, Classical.choice, Quot.sound
Verif.Elastic.C116_directional: propext, Classical.choice, Quot.sound
Verif.Elastic.C116_averages: propext, Classical.choice, Quot.sound
Verif.Elastic.C116_symmetry: propext, Classical.choice, Quot.sound
Verif.Seismic.C117_waves: propext, Classical.choice, Quot.sound
Verif.Seismic.C117_elastic: propext, Classical.choice, Quot.sound
Verif.Seismic.C118_rays: propext, Classical.choice, Quot.sound
Verif.Elastic.C119_compressibilities: propext, Classical.choice, Quot.sound
Verif.Elastic.C119_hydrostatic: propext, Classical.choice, Quot.sound
Verif.Elastic.C119_bounds: propext, Classical.choice, Quot.sound
Verif.Seismic.C119_waves: propext, Classical.choice, Quot.sound
Verif.QHA.C120_volumes: propext, Classical.choice, Quot.sound
Verif.QHA.C120_gibbs: propext, Classical.choice, Quot.sound
Verif.QHA.C121_fixed_volume: propext, Classical.choice, Quot.sound
Verif.QHA.C121_gibbs: propext, Classical.choice, Quot.sound
Verif.Elastic.C122_directional: propext, Classical.choice, Quot.sound
Verif.Elastic.C122_averages: propext, Classical.choice, Quot.sound
Verif.Seismic.C122_waves: propext, Classical.choice, Quot.sound
Verif.Seismic.C122_elastic: propext, Classical.choice, Quot.sound
Verif.QHA.C123_harmonic: propext, Classical.choice, Quot.sound
Verif.QHA.C123_succeeds: propext, Classical.choice, Quot.sound
Verif.QHA.C123_volume: propext, Classical.choice, Quot.sound
Verif.QHA.C123_columns: propext, Classical.choice, Quot.sound
Verif.QHA.C123_moduli: propext, Classical.choice, Quot.sound
Verif.QHA.C123_derivative: propext, Classical.choice, Quot.sound
Verif.EoS.C124_curve: propext, Classical.choice, Quot.sound
Verif.EoS.C124_fit_partial: propext, Classical.choice, Quot.sound
Verif.EoS.C124_volume_errors_violated: propext, Classical.choice, Quot.sound
Verif.EoS.C124_energy: propext, Classical.choice, Quot.sound
Verif.EoS.C124_energy_fit: propext, Classical.choice, Quot.sound
Verif.Elastic.C125_axis: propext, Classical.choice, Quot.sound
Verif.Elastic.C125_orthorhombic: propext, Classical.choice, Quot.sound
Verif.Elastic.C125_cubic: propext, Classical.choice, Quot.sound
Verif.Elastic.C125_cubic_young: propext, Classical.choice, Quot.sound
Verif.Seismic.C125_waves_axis: propext, Classical.choice, Quot.sound
Verif.Seismic.C125_waves_orthorhombic: propext, Classical.choice, Quot.sound
Verif.Seismic.C125_waves_cubic: propext, Classical.choice, Quot.sound
Verif.Seismic.C125_velocities_axis: propext, Classical.choice, Quot.sound
Verif.Seismic.C125_velocities_face: propext, Classical.choice, Quot.sound
Verif.Seismic.C125_velocities_diagonal: propext, Classical.choice, Quot.sound
Verif.Seismic.C125_velocities_principal: propext, Classical.choice, Quot.sound
Verif.StatMech.C126_stiffer: propext, Classical.choice, Quot.sound
Verif.StatMech.C126_corresponding_states: propext, Classical.choice, Quot.sound
Verif.StatMech.C126_pressure: propext, Classical.choice, Quot.sound
Verif.StatMech.C126_entropy: propext, Classical.choice, Quot.sound
Verif.StatMech.C126_mie_gruneisen: propext, Classical.choice, Quot.sound
Verif.StatMech.C126_soft_mode: propext, Classical.choice, Quot.sound
Verif.QHA.C127_volumes: propext, Classical.choice, Quot.sound
Verif.QHA.C127_volumes_eos: propext, Classical.choice, Quot.sound
Verif.QHA.C127_no_expansion: propext, Classical.choice, Quot.sound
Verif.QHA.C127_moduli: propext, Classical.choice, Quot.sound
Verif.QHA.C127_harmonic: propext, Classical.choice, Quot.sound
Verif.QHA.C128_input_volume: propext, Classical.choice, Quot.sound
Verif.Elastic.C129_directional: propext, Classical.choice, Quot.sound
Verif.Elastic.C129_averages: propext, Classical.choice, Quot.sound
Verif.Seismic.C129_waves: propext, Classical.choice, Quot.sound
Verif.Seismic.C130_order: propext, Classical.choice, Quot.sound
Verif.Seismic.C130_sum: propext, Classical.choice, Quot.sound
Verif.Seismic.C130_bound: propext, Classical.choice, Quot.sound
Verif.Seismic.C130_ranges: propext, Classical.choice, Quot.sound
Verif.Export.Generic.C131_quasi_harmonic_partial: propext, Classical.choice, Quot.sound
Verif.Export.Generic.C131_expansion_violated: propext, Classical.choice, Quot.sound
Verif.Export.Generic.C131_harmonic_partial: propext, Classical.choice, Quot.sound
Verif.Export.Generic.C131_static_violated: propext, Classical.choice, Quot.sound
Verif.Export.Generic.C131_job_violated: propext, Classical.choice, Quot.sound
Verif.Export.Generic.C131_elastic_violated: propext, Classical.choice, Quot.sound
Verif.Export.Generic.C131_foreign_violated: propext, Quot.sound
Verif.Export.Generic.C131_untouched: propext, Classical.choice, Quot.sound
Verif.Export.Generic.C131_session: propext, Classical.choice, Quot.sound
Verif.Export.Generic.C131_more: propext, Classical.choice, Quot.sound
Verif.Seismic.C132_discs_partial: propext, Classical.choice, Quot.sound
Verif.Seismic.C132_label_violated: propext, Classical.choice, Quot.sound
Verif.Seismic.C132_names: propext, Classical.choice, Quot.sound
Verif.Seismic.C132_ratios: propext, Classical.choice, Quot.sound
Verif.Seismic.C132_file_violated: propext, Classical.choice, Quot.sound
Verif.Seismic.C132_spheres: propext, Classical.choice, Quot.sound
Verif.Elastic.C133_reuss: propext, Classical.choice, Quot.sound
Verif.Elastic.C133_between: propext, Classical.choice, Quot.sound
Verif.Seismic.C133_waves: propext, Classical.choice, Quot.sound
Verif.Seismic.C133_aggregate: propext, Classical.choice, Quot.sound
Verif.QHA.C134_ground_state: propext, Classical.choice, Quot.sound
Verif.QHA.C135_bounds_partial: propext, Classical.choice, Quot.sound
Verif.QHA.C135_interpolation_violated: propext, Classical.choice, Quot.sound
Verif.QHA.C135_input_volume_partial: propext, Classical.choice, Quot.sound
Verif.EoS.C136_one_volume: propext, Classical.choice, Quot.sound
Verif.EoS.C136_tait: propext, Classical.choice, Quot.sound
Verif.QHA.C137_bulk_modulus_violated: propext, Classical.choice, Quot.sound
Verif.Units.C137_sizes_partial: propext, Classical.choice, Quot.sound
Verif.Units.C137_angstrom_violated: propext, Classical.choice, Quot.sound
Verif.Units.C137_pressure_violated: propext, Classical.choice, Quot.sound
Verif.Report.C138_harmonic_partial: propext, Quot.sound
Verif.Report.C138_quasi_harmonic_violated: propext, Quot.sound
Verif.Report.C138_elastic_violated: propext, Quot.sound
Verif.Poly.Tabulated.C139_between: propext, Classical.choice, Quot.sound
Verif.Poly.Tabulated.C139_line: propext, Classical.choice, Quot.sound
Verif.Poly.Tabulated.C139_parabola: propext, Classical.choice, Quot.sound
Verif.Poly.Tabulated.C139_refused: propext, Classical.choice, Quot.sound
Verif.Poly.Tabulated.C139_kind: propext, Classical.choice, Quot.sound
Verif.QHA.C140_maxwell: propext, Classical.choice, Quot.sound
Verif.QHA.C140_expands: propext, Classical.choice, Quot.sound
Verif.QHA.C140_softening: propext, Classical.choice, Quot.sound
Verif.QHA.C140_signs: propext, Classical.choice, Quot.sound
Verif.Elastic.C141_directional: propext, Classical.choice, Quot.sound
Verif.Elastic.C141_averages: propext, Classical.choice, Quot.sound
Verif.Elastic.C141_ratios: propext, Classical.choice, Quot.sound
Verif.Seismic.C141_waves: propext, Classical.choice, Quot.sound
Verif.Chain.C142_crystal_partial: propext, Classical.choice, Quot.sound
Verif.Chain.C142_title_violated: propext, Classical.choice, Quot.sound
Verif.Chain.C142_vasp_partial: propext, Classical.choice, Quot.sound
Verif.Chain.C142_vasp_violated: propext, Classical.choice, Quot.sound
Verif.Report.C143_harmonic: propext, Quot.sound
Verif.Report.C143_quasi_harmonic: propext, Quot.sound
Verif.Report.C143_distinct: propext, Quot.sound
Verif.Chain.C144_input: propext, Classical.choice, Quot.sound
Verif.Chain.C144_crystal: propext, Classical.choice, Quot.sound
Verif.StatMech.C145_absolute_zero: propext, Classical.choice, Quot.sound
Verif.StatMech.C145_zero_point: propext, Classical.choice, Quot.sound
Verif.StatMech.C145_thermal: propext, Classical.choice, Quot.sound
Verif.StatMech.C145_heat_capacity: propext, Classical.choice, Quot.sound
Verif.StatMech.C145_entropy_partial: propext, Classical.choice, Quot.sound
Verif.StatMech.C145_free_energy_partial: propext, Classical.choice, Quot.sound
Verif.StatMech.C145_binary64: propext, Classical.choice, Quot.sound
Verif.StatMech.C145_lost_violated: propext, Classical.choice, Quot.sound
Verif.StatMech.C145_schedules: propext, Classical.choice, Quot.sound
Verif.StatMech.C145_rounding: propext, Classical.choice, Quot.sound
Verif.Poly.Rounded.C146_interpolate: propext, Classical.choice, Quot.sound
Verif.Poly.Rounded.C146_horner: propext, Classical.choice, Quot.sound
Verif.Poly.Rounded.C146_agree: propext, Classical.choice, Quot.sound
Verif.Poly.Rounded.C146_one_sign: propext, Classical.choice, Quot.sound
Verif.Poly.Rounded.C146_scalar_array: propext, Classical.choice, Quot.sound
Verif.Chain.C147_dispersion: propext, Classical.choice, Quot.sound
Verif.Chain.C147_quasi_harmonic: propext, Classical.choice, Quot.sound
Verif.Chain.C148_few: propext, Classical.choice, Quot.sound
Verif.Chain.C148_input: propext, Classical.choice, Quot.sound
Verif.Chain.C148_four_volumes: propext, Classical.choice, Quot.sound
Verif.Chain.C148_crystal: propext, Classical.choice, Quot.sound
Verif.Chain.C148_dispersion: propext, Classical.choice, Quot.sound
Verif.Chain.C148_quasi_harmonic: propext, Classical.choice, Quot.sound
Verif.Chain.C149_harmonic_partial: propext, Classical.choice, Quot.sound
Verif.Chain.C149_default_violated: propext, Classical.choice, Quot.sound
Verif.Chain.C149_quasi_partial: propext, Classical.choice, Quot.sound
Verif.QHA.C150_equilibrium: propext, Classical.choice, Quot.sound
Verif.QHA.C150_recovered: propext, Classical.choice, Quot.sound
Verif.QHA.C150_zero_pressure: propext, Classical.choice, Quot.sound
Verif.QHA.C150_murnaghan: propext, Classical.choice, Quot.sound
Verif.QHA.C150_birch_murnaghan_violated: propext, Classical.choice, Quot.sound
Verif.Chain.Eos.C151_recovered_partial: propext, Classical.choice, Quot.sound
Verif.Chain.Eos.C151_implied_violated: propext, Classical.choice, Quot.sound
Verif.Units.Rounded.C152_order: propext, Classical.choice, Quot.sound
Verif.Units.Rounded.C152_computer_order: propext, Classical.choice, Quot.sound
Verif.Units.Rounded.C152_temperature: propext, Classical.choice, Quot.sound
Verif.Units.Rounded.C152_energy: propext, Classical.choice, Quot.sound
Verif.Units.Rounded.C152_pressure: propext, Classical.choice, Quot.sound
Verif.Units.Rounded.C152_frequency: propext, Classical.choice, Quot.sound
Verif.Units.Rounded.C152_length: propext, Classical.choice, Quot.sound
Verif.Units.Rounded.C152_volume: propext, Classical.choice, Quot.sound
Verif.Units.Rounded.C152_energy_to_pressure: propext, Classical.choice, Quot.sound
Verif.Units.Rounded.C152_pressure_to_energy: propext, Classical.choice, Quot.sound
Verif.Units.Rounded.C152_energy_density_reject: propext, Classical.choice, Quot.sound
Verif.Units.Rounded.C152_round_trip: propext, Classical.choice, Quot.sound
Verif.Units.Rounded.C152_temperature_round_trip: propext, Classical.choice, Quot.sound
Verif.Units.Rounded.C152_computer: propext, Classical.choice, Quot.sound
Verif.Units.Rounded.C152_identity_violated: propext, Classical.choice, Quot.sound
Verif.Chain.C153_export: propext, Classical.choice, Quot.sound
Verif.Chain.C153_crystal: propext, Classical.choice, Quot.sound
Verif.Chain.C153_dispersion: propext, Classical.choice, Quot.sound
Verif.Chain.C153_phonopy_partial: propext, Classical.choice, Quot.sound
Verif.Elastic.Rounded.C154_computer: propext, Classical.choice, Quot.sound
Verif.Elastic.Rounded.C154_young: propext, Classical.choice, Quot.sound
Verif.Elastic.Rounded.C154_compressibility: propext, Classical.choice, Quot.sound
Verif.Elastic.Rounded.C154_shear: propext, Classical.choice, Quot.sound
Verif.Elastic.Rounded.C154_poisson: propext, Classical.choice, Quot.sound
Verif.Elastic.Rounded.C154_averages: propext, Classical.choice, Quot.sound
Verif.Chain.C155_export: propext, Classical.choice, Quot.sound
Verif.Chain.C155_volumes: propext, Classical.choice, Quot.sound
Verif.Chain.C155_crystal: propext, Classical.choice, Quot.sound
Verif.Chain.C155_dispersion: propext, Classical.choice, Quot.sound
Verif.Chain.C155_quasi_harmonic: propext, Classical.choice, Quot.sound
Verif.Chain.C155_phonopy_partial: propext, Classical.choice, Quot.sound
Verif.Chain.C156_sections_partial: propext, Classical.choice, Quot.sound
Verif.Seismic.C157_motion: propext, Classical.choice, Quot.sound
Verif.Seismic.C157_only: propext, Classical.choice, Quot.sound
Verif.Chain.C158_waves_partial: propext, Classical.choice, Quot.sound
Verif.QHA.C159_alone: propext, Classical.choice, Quot.sound
Verif.QHA.C159_errors: propext, Classical.choice, Quot.sound
Verif.QHA.C159_subgrid: propext, Classical.choice, Quot.sound
Verif.QHA.C159_node: propext, Classical.choice, Quot.sound
Verif.QHA.C159_expansion_partial: propext, Classical.choice, Quot.sound
Verif.QHA.C159_last_partial: propext, Classical.choice, Quot.sound
Verif.QHA.C159_short_violated: propext, Classical.choice, Quot.sound
Verif.Elastic.C160_between: propext, Classical.choice, Quot.sound
Verif.Elastic.C160_cubic: propext, Classical.choice, Quot.sound
Verif.Elastic.C160_attained: propext, Classical.choice, Quot.sound
Verif.Seismic.C160_waves: propext, Classical.choice, Quot.sound
Verif.Seismic.C160_cubic_waves: propext, Classical.choice, Quot.sound
Verif.Seismic.Rounded.C161_elastic: propext, Classical.choice, Quot.sound
Verif.Seismic.Rounded.C161_seismic: propext, Classical.choice, Quot.sound
Verif.Seismic.Rounded.C161_agree: propext, Classical.choice, Quot.sound
Verif.EoS.Rounded.C162_computer: propext, Classical.choice, Quot.sound
Verif.EoS.Rounded.C162_tait_violated: propext, Classical.choice, Quot.sound
Verif.EoS.Rounded.C162_pressure: propext, Classical.choice, Quot.sound
Verif.EoS.Rounded.C162_parameters: propext, Classical.choice, Quot.sound
Verif.EoS.Rounded.C162_energy: propext, Classical.choice, Quot.sound
Verif.EoS.Rounded.C162_ev_pressure: propext, Classical.choice, Quot.sound
Verif.EoS.Rounded.C162_zero_partial: propext, Classical.choice, Quot.sound
Verif.EoS.Rounded.C162_order: propext, Classical.choice, Quot.sound
Verif.QHA.Rounded.C163_expansion: propext, Classical.choice, Quot.sound
Verif.QHA.Rounded.C163_expansion_sign: propext, Classical.choice, Quot.sound
Verif.QHA.Rounded.C163_volumes: propext, Classical.choice, Quot.sound
Verif.QHA.Rounded.C163_gruneisen: propext, Classical.choice, Quot.sound
Verif.QHA.Rounded.C163_capacity: propext, Classical.choice, Quot.sound
Verif.QHA.Rounded.C163_adiabatic: propext, Classical.choice, Quot.sound
Verif.QHA.Rounded.C163_order: propext, Classical.choice, Quot.sound
Verif.QHA.Rounded.C163_ratio: propext, Classical.choice, Quot.sound
Verif.QHA.Rounded.C163_potential: propext, Classical.choice, Quot.sound
Verif.QHA.C164_columns: propext, Classical.choice, Quot.sound
Verif.QHA.C164_equilibrium: propext, Classical.choice, Quot.sound
Verif.QHA.C164_found: propext, Classical.choice, Quot.sound
Verif.QHA.C164_resampled: propext, Classical.choice, Quot.sound
Verif.HA.C165_run: propext, Classical.choice, Quot.sound
Verif.QHA.C165_quasi_harmonic: propext, Classical.choice, Quot.sound
Verif.StatMech.C165_energy: propext, Classical.choice, Quot.sound
Verif.StatMech.C165_heat_capacity: propext, Classical.choice, Quot.sound
Verif.StatMech.C165_free_energy: propext, Classical.choice, Quot.sound
Verif.StatMech.C165_entropy: propext, Classical.choice, Quot.sound
Verif.HA.C166_run: propext, Classical.choice, Quot.sound
Verif.StatMech.C166_errors: propext, Classical.choice, Quot.sound
Verif.QHA.C167_free_energy: propext, Classical.choice, Quot.sound
Verif.QHA.C167_slope: propext, Classical.choice, Quot.sound
Verif.QHA.C167_volume: propext, Classical.choice, Quot.sound
Verif.QHA.C168_definition: propext, Classical.choice, Quot.sound
Verif.QHA.C168_limit: propext, Classical.choice, Quot.sound
Verif.QHA.C168_derived: propext, Classical.choice, Quot.sound
Verif.QHA.C168_persists: propext, Classical.choice, Quot.sound
Verif.QHA.C169_trapezoid: propext, Classical.choice, Quot.sound
Verif.QHA.C169_limit: propext, Classical.choice, Quot.sound
Verif.QHA.C170_curves: propext, Classical.choice, Quot.sound
Verif.QHA.C171_curves: propext, Classical.choice, Quot.sound
Verif.QHA.C172_bracket_partial: propext, Classical.choice, Quot.sound
Verif.QHA.C172_absolute_zero_partial: propext, Classical.choice, Quot.sound
Verif.QHA.C172_gibbs_violated: propext, Classical.choice, Quot.sound
Verif.Grid.Binary.C173_sections: propext, Classical.choice, Quot.sound
Verif.Grid.Binary.C173_degrees: propext, Classical.choice, Quot.sound
Verif.Grid.Binary.C173_scan: propext, Classical.choice, Quot.sound
Verif.Grid.Binary.C173_directions: propext, Classical.choice, Quot.sound
Verif.Seismic.C174_ray: propext, Classical.choice, Quot.sound
Verif.Seismic.C174_bound: propext, Classical.choice, Quot.sound
Verif.Polar.C175_young: propext, Classical.choice, Quot.sound
Verif.Polar.C175_compressibility: propext, Classical.choice, Quot.sound
Verif.Seismic.Rounded.C175_waves: propext, Classical.choice, Quot.sound
Verif.Seismic.Rounded.C176_scan: propext, Classical.choice, Quot.sound
Verif.EoS.C177_expansion: propext, Classical.choice, Quot.sound
Verif.EoS.C177_agree: propext, Classical.choice, Quot.sound
Verif.EoS.C177_energy: propext, Classical.choice, Quot.sound
Verif.Elastic.C178_pair: propext, Classical.choice, Quot.sound
Verif.Elastic.C178_triad: propext, Classical.choice, Quot.sound
Verif.Elastic.C178_bisectors: propext, Classical.choice, Quot.sound
Verif.StatMech.C179_between: propext, Classical.choice, Quot.sound
Verif.StatMech.C179_hot: propext, Classical.choice, Quot.sound
Verif.StatMech.C179_cold: propext, Classical.choice, Quot.sound
Verif.StatMech.C179_adiabat: propext, Classical.choice, Quot.sound
Verif.Seismic.C180_triangle: propext, Classical.choice, Quot.sound
Verif.Seismic.C180_lipschitz: propext, Classical.choice, Quot.sound
Verif.Elastic.C181_young: propext, Classical.choice, Quot.sound
Verif.Elastic.C181_bisectors: propext, Classical.choice, Quot.sound
Verif.Seismic.C182_phase: propext, Classical.choice, Quot.sound
Verif.Polar.C183_young: propext, Classical.choice, Quot.sound
Verif.Polar.C183_compressibility: propext, Classical.choice, Quot.sound
Verif.EoS.C184_bulk: propext, Classical.choice, Quot.sound
Verif.EoS.C184_pressure: propext, Classical.choice, Quot.sound
Verif.EoS.C184_volume: propext, Classical.choice, Quot.sound
Verif.EoS.C184_stiffer: propext, Classical.choice, Quot.sound
Verif.StatMech.C185_mean: propext, Classical.choice, Quot.sound
Verif.StatMech.C185_geometric: propext, Classical.choice, Quot.sound
Verif.Polar.C186_extremes_partial: propext, Classical.choice, Quot.sound
Verif.Polar.C186_shear_partial: propext, Classical.choice, Quot.sound
Verif.Polar.C186_poisson_partial: propext, Classical.choice, Quot.sound
Verif.QHA.C187_success: propext, Classical.choice, Quot.sound
Verif.QHA.C187_results: propext, Classical.choice, Quot.sound
