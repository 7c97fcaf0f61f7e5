# Axioms of every theorem in MANIFEST.json

Generated by tools/axioms.py from `#print axioms`.

## none (6)

C04_range_overflow C45_failed_stream C46_grids C46_momenta C56_arrays C70_meaning

## propext (55)

C02_copy_is_view C02_destroy_dangles C02_move_keeps_array C03_element_refused C03_integer_total C04_element_refused C06_fractional_count C10_lengths_array C18_law_wraps C18_nested_not_relocated C18_none C20_index C20_short C23_number_lost C24_empty C24_unequal_false C24_unequal_overrun C25_yield_13 C27_empty C27_unequal_cosines C34_lost_cosines C34_lost_incoherent C37_accepts C37_exclusive C38_again C38_trimmed C48_arrays_wrap C48_columns_empty C48_cross_sections_negative C48_evaporation_empty C48_false C48_inelastic_wrap C48_kalbach C48_nbody C48_photon_wrap C48_polynomial_negative C48_tabulated_wrap C48_yp_negative C49_unknown C56_columns C56_false C56_laws_false C56_truncated C59_blocks_stay C64_continuous_particles C64_continuous_photons C64_photoatomic_static C64_photonuclear_name C65_false C65_item_false C65_range_false C67_yields_minus_one C69_MTR_false C69_YP_false C75_last

## propext, Classical.choice, Quot.sound (409)

C03_integer C03_range C04_element C04_empty_range C04_integer C04_range_partial C04_write C05_EPS C05_ESZ C05_ESZG C05_ESZU3 C05_ESZU4 C05_JFLO C05_ProbabilityTable C05_SUBSH C05_TRAN C05_TRAN_lengths C05_accepts C05_built C05_integers C05_many C05_noFission_refused C05_noFission_swapped C05_noFission_zero C05_pair C05_read C05_refuses C05_single C06_ITIE C06_accepts C06_built C06_read C07_accepts C07_built C07_interpolation C07_read C08_accepts C08_angular C08_energy C08_kalbach C08_roundtrip C09_SIG C09_SIGD C09_SIGH C09_SWD C09_XPROB C09_built C09_generic C10_electron C11_law4 C11_law44 C11_mismatch C12_law61 C12_law67 C13_partial C14_roundtrip C15_elastic C15_secondary C16_built_partial C16_read_partial C17_built_partial C17_read_partial C17_undefined_after C18_built_partial C18_read_partial C18_relocated_partial C19_accepts C19_both C19_one C20_built_partial C20_frames C20_read_partial C20_zero_false C21_longer_range C21_lookup_partial C21_objects C21_present C21_values C22_IXSU C22_PTYPE_longer_range C22_PTYPE_partial C22_PTYPE_present C22_YP_partial C22_YP_searches_beyond C22_YP_values C23_BDD C23_accepts C24_equal_partial C25_SIGP C26_IXS C26_IXSU C26_IXSU_refused C27_discrete_partial C27_probability_partial C28_blocks_partial C28_built_ESZ C28_built_GPD C28_built_LQR C28_built_MTR C28_built_PTYPE C28_built_YP C28_false C28_groups_lost C28_photons_lost C28_types_lost C28_unr_false C28_yp_false C29_false C29_index C29_information C29_none_partial C29_particles_partial C29_production C30_CE C30_photonuclear C31_accepted C31_false C31_gpd C31_matching_partial C31_refused C31_sigh C31_sigp C32_blocks_partial C32_built C32_built_JCOH_fixed C32_built_JCOH_tabulated C32_built_JINC_fixed C32_built_JINC_tabulated C32_built_electrons C32_empty_jflo C32_false C32_refused C32_shell_count C32_shells C32_sphel C33_blocks_partial C33_built_ESZU3 C33_built_ESZU4 C33_built_cross_sections C33_counts C33_dropped C33_dropped_second C33_false C33_missing C33_outside C33_short C33_target_partial C33_type C34_discrete_partial C34_empty_cosines C34_false C34_general C34_locb C34_missing_cosines C34_probability_partial C34_refused C34_unchecked_cosines C35_blocks C36_derive C36_derive_szaid C36_negative_false C36_short C36_szaid C36_too_large C36_written C36_zaid C38_lines C38_negative C38_printed C38_round_trip C39_blank_end C39_count C39_false C39_long_comment C39_no_date C39_printed C39_round_trip_partial C39_two_words C40_exact C40_printed C40_round_trip C40_ten_digits C40_wrong_count C41_concatenated C41_ends C41_first C41_number C41_table C41_zaid C42_false C42_read C42_record C42_round_trip_partial C43_endless C43_false C43_lines_partial C43_short C43_steps C44_blank C44_entry C44_false C44_found C44_last_line C44_no_entry C44_read_partial C44_title C45_empty C45_entry_partial C45_false C45_file_false C45_file_partial C45_not_rewound C45_success_failed C45_unfinished C46_jcoh_fixed C46_jcoh_tabulated C46_jinc_fixed C46_jinc_tabulated C47_accepts C47_read C47_sums C48_arrays_partial C48_columns_partial C48_evaporation_partial C48_general_partial C48_watt_partial C49_built C49_photon C49_read C50_lines C50_long_za C50_no_entries C50_round_trip C51_aw C51_awr C51_integer C51_integers C51_not_exact C51_table C51_temperature C51_word C52_angle_energy C52_by_energy C52_shared C53_copy C53_exact_aw C53_exact_integer C53_exact_read C53_file C53_header C53_made C53_second C54_continuous_partial C54_dosimetry_written C54_false C54_photoatomic C54_photoatomic_written C54_photonuclear_partial C54_photonuclear_written C54_thermal C54_thermal_written C54_written C55_concatenated C55_false C55_header201_partial C55_integers C55_long_date C55_printed C55_table_partial C55_version1 C56_DLWH_partial C56_DLW_partial C56_angular_block_partial C56_angular_partial C56_blocks_partial C56_cosines_partial C56_counted_partial C56_distributions_partial C56_electrons_partial C56_energy_data_partial C56_law_partial C56_laws_partial C56_reaction_partial C56_several_laws_partial C56_tables_partial C56_tabulated_partial C56_unchecked_partial C57_outcome C58_file C58_made C58_steady C58_unsteady C60_continuous_partial C60_dosimetry_partial C60_false C60_photoatomic_partial C60_photonuclear_partial C60_thermal_partial C61_address C61_body C61_columns C61_printable C61_word C62_body C62_concatenated C62_header C62_header201 C62_number C62_table C63_false C63_photoatomic_false C63_photoatomic_partial C63_photonuclear_false C63_thermal C64_continuous_partial C64_dosimetry C64_false C64_nothing_else C64_photoatomic_partial C64_photonuclear_partial C64_python_index C64_thermal C65_owners_kept_partial C65_parts_partial C65_while_kept C66_continuous_nuclide_partial C66_continuous_partial C66_dosimetry C66_false C66_photoatomic_partial C66_photonuclear_empty C66_photonuclear_partial C66_refused C66_replaced_partial C66_thermal_discrete_partial C66_thermal_probability_partial C68_eighth_ignored C68_eighth_large C68_entry_text C68_incomplete_partial C68_negative C68_numbers_partial C68_other_word C68_ptable C68_seven C68_short C68_ten C69_UNR_partial C69_YP_partial C69_angular C69_arrays_partial C69_columns_partial C69_electrons C69_empty_range C69_energyBlocks C69_energyData C69_fission C69_laws C69_located C69_secondary C69_tabulated C69_thermal C71_continuous_false C71_continuous_partial C71_dosimetry C71_photoatomic_false C71_photoatomic_partial C71_photonuclear_false C71_photonuclear_partial C71_thermal_false C71_thermal_partial C72_continuous_false C72_continuous_partial C72_dosimetry_false C72_dosimetry_partial C72_photoatomic_false C72_photoatomic_partial C72_photonuclear_false C72_photonuclear_partial C72_thermal_false C72_thermal_partial C74_concatenated C74_cut_partial C74_false C74_fewer C74_lines C74_lost C74_tables C75_append C75_blanks C75_empty_line C75_file C75_files C75_first C75_lines C75_newline C75_rest C76_content C76_cut_partial C76_false C76_history C76_lost C76_missing C76_replace_false C76_silent C76_table C76_typed_files C76_xsdir C76_xsdir_cut

## propext, Quot.sound (191)

C01_exclusive_storage C01_no_leak C01_value_semantics C02_view_reads_table C03_element C03_integer_exact C03_range_overrun C03_range_refused_false C03_range_refused_partial C05_refused_access C06_short C13_distinct C13_false C13_law67 C14_refused C16_hundred C16_law67 C16_mismatch C16_one_of_several C16_threshold C17_few_frames C17_undefined_false C17_undefined_read C18_false C18_law67_twice C18_law_number C18_mismatch C18_terminates C19_illegal C20_mismatch C22_YP_empty C24_absent C27_discrete_refuses C27_locators C28_built_AND C28_built_ANDP C28_built_BDD C28_built_DLW C28_built_DLWH C28_built_HPD C28_built_NU C28_built_NU2 C28_built_SIG C28_built_SIGH C28_built_SIGP C28_built_UNR C30_dosimetry C30_photoatomic C30_thermal C31_built_DLW C32_built_electron C32_lost_electrons C32_missing_electrons C32_targets C33_refused C34_targets C35_refused C36_derive_unphysical C36_not_a_number C36_stored C38_long_date C38_long_material C38_long_title C38_long_zaid C39_long_szaid C45_comment C48_angular C48_bins C48_by_energy C48_cosine_bins C48_cosines C48_cross_sections_partial C48_distribution_partial C48_esz_wrap C48_inelastic C48_located C48_locators_partial C48_numbers C48_photon_partial C48_photonuclear_locators_partial C48_polynomial_partial C48_production_partial C48_tabulated C48_tabulated_short C48_two_parameters C48_yp_partial C49_bins C51_nearest C52_angular C52_angular_block C52_energy_angle C52_energy_block C52_located C52_shared_sig C53_made_regular C53_same C54_dosimetry C55_body C55_header C57_content C57_values C59_all_words C59_copy_is_fresh C59_others_unchanged C59_value_semantics C59_write_seen C60_outside_continuous C60_outside_dosimetry C60_outside_photoatomic C60_outside_photonuclear C60_outside_thermal C63_continuous_partial C63_continuous_particles C63_dosimetry C63_numbers_continuous C63_numbers_dosimetry C63_numbers_photoatomic C63_numbers_photonuclear C63_numbers_thermal C63_numbers_thermal_signed C63_photonuclear_partial C64_manual C64_photoatomic_missing C67_NIEB C67_angle_energy C67_angular_block C67_angular_data C67_arrays C67_bins C67_by_array C67_cosines_partial C67_cross_sections C67_distributions C67_electroionisation C67_electron_block C67_energy_angle C67_energy_block C67_frames C67_groups C67_laws_partial C67_laws_probability C67_locators C67_particle_locators C67_particle_reactions C67_photonuclear_locators C67_reaction_numbers C67_secondary_block C67_shells C67_tables C67_transitions C67_yields_partial C69_JCOH_false C69_JINC_false C69_TRAN_false C70_angular C70_array_blocks C70_array_zero C70_arrays C70_continuous C70_core C70_data C70_distributions C70_dosimetry C70_energy_blocks C70_fission C70_format_blocks C70_ident C70_laws C70_located C70_locator C70_lookup C70_members C70_next_array C70_no_element C70_photoatomic C70_photonuclear C70_print C70_secondary C70_tables C70_tables_of_values C70_thermal C70_thermal_table C70_typed C73_continuous C73_continuous_particles C73_dosimetry C73_edit C73_photoatomic C73_photonuclear C73_photonuclear_particles C73_thermal
