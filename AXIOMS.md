# Axioms of each theorem in MANIFEST.json

As printed by `#print axioms`.

| Theorem | Axioms |
|---|---|
| `Up4.C01_cellId_inBounds` | propext, Classical.choice, Quot.sound |
| `Up4.C02_isInside_iff` | propext, Quot.sound |
| `Up4.C02_isInside_fin` | propext, Quot.sound |
| `Up4.C03_cellId_mono` | propext, Classical.choice, Quot.sound |
| `Up4.C03_cellId_axis` | propext, Classical.choice, Quot.sound |
| `Up4.C03_cellId_ends` | propext, Classical.choice, Quot.sound |
| `Up4.C04_centre_roundtrip_partial` | propext, Classical.choice, Quot.sound |
| `Up4.C04_centre_index` | propext, Classical.choice, Quot.sound |
| `Up4.C04_centre_lookup` | propext, Classical.choice, Quot.sound |
| `Up4.C04_false` | propext, Classical.choice, Quot.sound |
| `Up4.C05_centres` | propext, Classical.choice, Quot.sound |
| `Up4.C06_addValue` | propext, Classical.choice, Quot.sound |
| `Up4.C07_history` | propext, Classical.choice, Quot.sound |
| `Up4.C08_mean` | propext, Classical.choice, Quot.sound |
| `Up4.C09_insert_get` | propext, Classical.choice, Quot.sound |
| `Up4.C10_weights_perm` | propext, Classical.choice, Quot.sound |
| `Up4.C10_data_perm` | propext, Classical.choice, Quot.sound |
| `Up4.C11_newZeros_partial` | propext, Quot.sound |
| `Up4.C11_weights_kept` | propext, Quot.sound |
| `Up4.C11_false` | propext, Classical.choice, Quot.sound |
| `Up4.C12_collapse` | propext, Classical.choice, Quot.sound |
| `Up4.C12_nan_ignored` | propext, Classical.choice, Quot.sound |
| `Up4.C12_collapseWeight` | propext, Classical.choice, Quot.sound |
| `Up4.C13_collapseTwo` | propext, Classical.choice, Quot.sound |
| `Up4.C13_collapseTwoWeight` | propext, Classical.choice, Quot.sound |
| `Up4.C13_equal_axes` | propext, Quot.sound |
| `Up4.C14_slice_partial` | propext, Classical.choice, Quot.sound |
| `Up4.C14_sliceIdx` | propext, Classical.choice, Quot.sound |
| `Up4.C14_upper_limit_panics` | propext, Classical.choice, Quot.sound |
| `Up4.C14_slice_some_plane` | propext, Classical.choice, Quot.sound |
| `Up4.C14_false` | propext, Classical.choice, Quot.sound |
| `Up4.C15_clamp` | propext, Classical.choice, Quot.sound |
| `Up4.C15_bounded_idempotent` | propext, Classical.choice, Quot.sound |
| `Up4.C15_mode0_idempotent` | propext, Classical.choice, Quot.sound |
| `Up4.C15_unknown_mode` | propext, Classical.choice, Quot.sound |
| `Up4.C16_neighbour_mean_partial` | propext, Classical.choice, Quot.sound |
| `Up4.C16_debug_panics` | propext, Classical.choice, Quot.sound |
| `Up4.C16_cyl_false` | propext, Classical.choice, Quot.sound |
| `Up4.neighbours_explicit` | propext |
| `Up4.C17_shape` | propext, Classical.choice, Quot.sound |
| `Up4.C17_set` | propext, Classical.choice, Quot.sound |
| `Up4.C17_broadcast_breaks_shape` | propext, Quot.sound |
| `Up4.C18_trajectory_cells` | propext, Classical.choice, Quot.sound |
| `Up4.C18_trajectory_totals` | propext, Classical.choice, Quot.sound |
| `Up4.C19_shells` | propext, Classical.choice, Quot.sound |
| `Up4.C20_lookup` | propext, Classical.choice, Quot.sound |
| `Up4.C20_lookup_rounded_partial` | propext, Classical.choice, Quot.sound |
| `Up4.C20_beyond_panics` | propext, Quot.sound |
| `Up4.C20_never_err` | propext, Quot.sound |
| `Up4.C20_false` | propext, Classical.choice, Quot.sound |
| `Up4.C21_cell_partial` | propext, Classical.choice, Quot.sound |
| `Up4.C21_upper_half` | propext, Classical.choice, Quot.sound |
| `Up4.C21_lower_half` | propext, Classical.choice, Quot.sound |
| `Up4.C21_false` | propext, Classical.choice, Quot.sound |
| `Up4.C22_radially_outside_panics` | propext, Classical.choice, Quot.sound |
| `Up4.C22_axially_outside_recorded` | propext, Classical.choice, Quot.sound |
| `Up4.C23_cartesian` | propext, Quot.sound |
| `Up4.C23_cylinder_partial` | propext, Classical.choice, Quot.sound |
| `Up4.C23_false` | propext, Classical.choice, Quot.sound |
| `Up4.C24_history` | propext, Classical.choice, Quot.sound |
| `Up4.C24_componentwise` | propext, Classical.choice, Quot.sound |
| `Up4.C24_panics` | propext, Classical.choice, Quot.sound |
| `Up4.C24_newZeros` | propext, Classical.choice, Quot.sound |
| `Up4.C25_default_accepts` | propext, Classical.choice, Quot.sound |
| `Up4.C25_default_time` | propext, Classical.choice, Quot.sound |
| `Up4.C25_default_time_b64` | propext, Classical.choice, Quot.sound |
| `Up4.C26_radius` | propext, Classical.choice, Quot.sound |
| `Up4.C26_particleid` | propext, Classical.choice, Quot.sound |
| `Up4.C26_cloud_partial` | propext, Classical.choice, Quot.sound |
| `Up4.C26_density_partial` | propext, Classical.choice, Quot.sound |
| `Up4.C26_valid_partial` | propext, Classical.choice, Quot.sound |
| `Up4.C26_cloud_false` | propext, Classical.choice, Quot.sound |
| `Up4.C26_density_false` | propext, Classical.choice, Quot.sound |
| `Up4.C26_id_zero_false` | propext, Quot.sound |
| `Up4.C26_empty_panics` | propext, Quot.sound |
| `Up4.C27_window` | propext, Quot.sound |
| `Up4.C27_nan` | propext, Quot.sound |
| `Up4.C27_attributes_kept` | propext, Quot.sound |
| `Up4.C28_transparent` | propext, Classical.choice, Quot.sound |
| `Up4.C29_small` | propext, Classical.choice, Quot.sound |
| `Up4.C29_tdata_forward_partial` | propext, Classical.choice, Quot.sound |
| `Up4.C29_pdata_false` | propext, Classical.choice, Quot.sound |
| `Up4.C29_tdata_false` | propext, Classical.choice, Quot.sound |
| `Up4.C30_no_interference` | propext, Classical.choice, Quot.sound |
| `Up4.C30_setup` | propext, Classical.choice, Quot.sound |
| `Up4.C31_extract` | propext, Classical.choice, Quot.sound |
| `Up4.C31_reject` | propext, Classical.choice, Quot.sound |
| `Up4.C31_backwards` | propext, Classical.choice, Quot.sound |
| `Up4.C32_search` | propext, Classical.choice, Quot.sound |
| `Up4.C32_monotone` | propext, Classical.choice, Quot.sound |
| `Up4.C32_empty_panics` | propext, Quot.sound |
| `Up4.C33_recorded_partial` | propext, Classical.choice, Quot.sound |
| `Up4.C33_false` | propext, Classical.choice, Quot.sound |
| `Up4.C33_tolerance_false` | propext, Classical.choice, Quot.sound |
| `Up4.C34_numberfield` | propext, Classical.choice, Quot.sound |
| `Up4.C35_velocityfield` | propext, Classical.choice, Quot.sound |
| `Up4.C35_modes` | propext, Classical.choice, Quot.sound |
| `Up4.C35_mean` | propext, Classical.choice, Quot.sound |
| `Up4.C36_vectorfield` | propext, Classical.choice, Quot.sound |
| `Up4.C36_mean` | propext, Classical.choice, Quot.sound |
| `Up4.C58_numberfield` | propext, Classical.choice, Quot.sound |
| `Up4.C58_false` | propext, Classical.choice, Quot.sound |
| `Up4.C39_histogram_partial` | propext, Classical.choice, Quot.sound |
| `Up4.C39_total_partial` | propext, Classical.choice, Quot.sound |
| `Up4.C39_false` | propext, Classical.choice, Quot.sound |
| `Up4.C40_granular` | propext, Classical.choice, Quot.sound |
| `Up4.C40_unknown_mode` | propext, Classical.choice, Quot.sound |
| `Up4.C43_concentration` | propext, Classical.choice, Quot.sound |
| `Up4.C43_swap` | propext, Classical.choice, Quot.sound |
| `Up4.C37_occupancy` | propext, Classical.choice, Quot.sound |
| `Up4.C37_cells` | propext, Classical.choice, Quot.sound |
| `Up4.C38_dispersion` | propext, Classical.choice, Quot.sound |
| `Up4.C41_sd_partial` | propext, Classical.choice, Quot.sound |
| `Up4.C41_index` | propext, Classical.choice, Quot.sound |
| `Up4.C41_false` | propext, Classical.choice, Quot.sound |
| `Up4.C44_msd_partial` | propext, Classical.choice, Quot.sound |
| `Up4.C44_false` | propext, Classical.choice, Quot.sound |
| `Up4.C42_lacey_partial` | propext, Classical.choice, Quot.sound |
| `Up4.C42_value` | propext, Classical.choice, Quot.sound |
| `Up4.C42_empty_panics` | propext, Classical.choice, Quot.sound |
| `Up4.C42_false` | propext, Classical.choice, Quot.sound |
| `Up4.C45_circulation_partial` | propext, Classical.choice, Quot.sound |
| `Up4.C45_values` | propext, Classical.choice, Quot.sound |
| `Up4.C45_reject` | propext, Classical.choice, Quot.sound |
| `Up4.C45_false` | propext, Classical.choice, Quot.sound |
| `Up4.C46_intervals` | propext, Classical.choice, Quot.sound |
| `Up4.C46_laps` | propext, Classical.choice, Quot.sound |
| `Up4.C46_reject` | propext, Classical.choice, Quot.sound |
| `Up4.C47_turn` | propext, Classical.choice, Quot.sound |
| `Up4.C47_isometry` | propext, Classical.choice, Quot.sound |
| `Up4.C48_history` | propext, Classical.choice, Quot.sound |
| `Up4.C48_reject` | propext, Classical.choice, Quot.sound |
| `Up4.C48_false` | propext, Classical.choice, Quot.sound |
| `Up4.C49_sortlist` | propext, Classical.choice, Quot.sound |
| `Up4.C49_scalars` | propext, Quot.sound |
| `Up4.C49_vectors` | propext, Classical.choice, Quot.sound |
| `Up4.C50_sort` | propext, Classical.choice, Quot.sound |
| `Up4.C50_nan` | propext, Quot.sound |
| `Up4.C50_isSorted` | propext, Quot.sound |
| `Up4.C51_table_partial` | propext, Classical.choice, Quot.sound |
| `Up4.C51_nearest_partial` | propext, Classical.choice, Quot.sound |
| `Up4.C51_reject` | propext, Quot.sound |
| `Up4.C51_false` | propext, Classical.choice, Quot.sound |
| `Up4.C52_uniform` | propext, Classical.choice, Quot.sound |
| `Up4.C53_rows_partial` | propext, Classical.choice, Quot.sound |
| `Up4.C53_derivative_partial` | propext, Classical.choice, Quot.sound |
| `Up4.C53_linear_partial` | propext, Classical.choice, Quot.sound |
| `Up4.C53_motion_partial` | propext, Classical.choice, Quot.sound |
| `Up4.C53_uniform` | propext, Classical.choice, Quot.sound |
| `Up4.C53_even` | propext, Quot.sound |
| `Up4.C53_one_panics` | propext, Quot.sound |
| `Up4.C53_false` | propext, Classical.choice, Quot.sound |
| `Up4.C54_minmax_partial` | propext, Quot.sound |
| `Up4.C54_false` | propext, Quot.sound |
| `Up4.C55_meshgrid` | propext, Classical.choice, Quot.sound |
| `Up4.C55_meshgrid3` | propext, Classical.choice, Quot.sound |
| `Up4.C55_flatten2` | propext, Classical.choice, Quot.sound |
| `Up4.C55_flatten3` | propext, Classical.choice, Quot.sound |
| `Up4.C56_skip` | propext, Quot.sound |
| `Up4.C56_value` | propext, Classical.choice, Quot.sound |
| `Up4.C56_none` | propext, Classical.choice, Quot.sound |
| `Up4.C57_threshold_partial` | propext, Classical.choice, Quot.sound |
| `Up4.C57_nonzero_partial` | propext, Classical.choice, Quot.sound |
| `Up4.C57_reject` | propext, Classical.choice, Quot.sound |
| `Up4.C57_false` | propext, Classical.choice, Quot.sound |
| `Up4.C59_stored` | propext, Classical.choice, Quot.sound |
| `Up4.C59_reject` | propext, Classical.choice, Quot.sound |
| `Up4.C60_tdata_partial` | propext, Classical.choice, Quot.sound |
| `Up4.C60_pdata_partial` | propext, Classical.choice, Quot.sound |
| `Up4.C60_pdata_value` | propext, Classical.choice, Quot.sound |
| `Up4.C60_pdata_panics` | propext, Classical.choice, Quot.sound |
| `Up4.C60_false` | propext, Classical.choice, Quot.sound |
| `Up4.C61_roundtrip` | propext, Classical.choice, Quot.sound |
| `Up4.C62_times` | propext, Classical.choice, Quot.sound |
| `Up4.C62_options` | propext, Classical.choice, Quot.sound |
| `Up4.C63_limits_partial` | propext, Classical.choice, Quot.sound |
| `Up4.C63_false` | propext, Classical.choice, Quot.sound |
| `Up4.C64_velocity_partial` | propext, Classical.choice, Quot.sound |
| `Up4.C65_csv` | propext, Classical.choice, Quot.sound |
| `Up4.C65_all` | propext, Classical.choice, Quot.sound |
| `Up4.C65_false` | propext, Classical.choice, Quot.sound |
| `Up4.C66_reject` | propext, Classical.choice, Quot.sound |
| `Up4.C66_velocity` | propext, Classical.choice, Quot.sound |
| `Up4.C66_interpolated` | propext, Classical.choice, Quot.sound |
| `Up4.C67_recorded_partial` | propext, Classical.choice, Quot.sound |
| `Up4.C67_false` | propext, Classical.choice, Quot.sound |
| `Up4.C68_chain_partial` | propext, Classical.choice, Quot.sound |
| `Up4.C68_velocity_partial` | propext, Classical.choice, Quot.sound |
| `Up4.C68_interpolated_partial` | propext, Classical.choice, Quot.sound |
| `Up4.C68_read_partial` | propext, Classical.choice, Quot.sound |
| `Up4.C68_false` | propext, Classical.choice, Quot.sound |
| `Up4.C69_velocity_partial` | propext, Classical.choice, Quot.sound |
| `Up4.C69_interpolated_partial` | propext, Classical.choice, Quot.sound |
| `Up4.C69_reject` | propext, Classical.choice, Quot.sound |
| `Up4.C69_byId` | propext, Classical.choice, Quot.sound |
| `Up4.C69_idline_partial` | propext, Classical.choice, Quot.sound |
| `Up4.C69_read_partial` | propext, Classical.choice, Quot.sound |
| `Up4.C69_false` | propext, Classical.choice, Quot.sound |
| `Up4.C70_files` | propext, Classical.choice, Quot.sound |
| `Up4.C70_reject` | propext, Classical.choice, Quot.sound |
| `Up4.C71_recorded_partial` | propext, Classical.choice, Quot.sound |
| `Up4.C71_false` | propext, Classical.choice, Quot.sound |
| `Up4.C72_rows_partial` | propext, Classical.choice, Quot.sound |
| `Up4.C72_agrees_partial` | propext, Quot.sound |
| `Up4.C72_reject` | propext, Quot.sound |
| `Up4.C72_interpolated_panics` | propext, Classical.choice, Quot.sound |
| `Up4.C72_false` | propext, Classical.choice, Quot.sound |
| `Up4.C73_items` | propext, Classical.choice, Quot.sound |
| `Up4.C74_undivided_panics` | propext, Classical.choice, Quot.sound |
| `Up4.C74_backward_zeros` | propext, Classical.choice, Quot.sound |
| `Up4.C74_empty_panics` | propext, Classical.choice, Quot.sound |
| `Up4.C74_false` | propext, Classical.choice, Quot.sound |
| `Up4.C75_outside_partial` | propext, Classical.choice, Quot.sound |
| `Up4.C75_false` | propext, Classical.choice, Quot.sound |
| `Up4.C76_arrows_partial` | propext, Classical.choice, Quot.sound |
| `Up4.C76_axis1` | propext, Classical.choice, Quot.sound |
| `Up4.C76_axis1_panics` | propext, Classical.choice, Quot.sound |
| `Up4.C76_false` | propext, Classical.choice, Quot.sound |
| `Up4.C77_max` | propext, Classical.choice, Quot.sound |
| `Up4.C77_min_partial` | propext, Classical.choice, Quot.sound |
| `Up4.C77_minmax_partial` | propext, Classical.choice, Quot.sound |
| `Up4.C77_zero` | propext, Classical.choice, Quot.sound |
| `Up4.C78_half_partial` | propext, Classical.choice, Quot.sound |
| `Up4.C78_full_partial` | propext, Classical.choice, Quot.sound |
| `Up4.C78_false` | propext, Classical.choice, Quot.sound |
| `Up4.C78_one_layer_panics` | propext, Classical.choice, Quot.sound |
| `Up4.C79_colours_partial` | propext, Classical.choice, Quot.sound |
| `Up4.C79_uniform` | propext, Classical.choice, Quot.sound |
| `Up4.C80_heads` | propext, Classical.choice, Quot.sound |
| `Up4.turned_length` | propext, Classical.choice, Quot.sound |
| `Up4.C81_unit_partial` | propext, Classical.choice, Quot.sound |
| `Up4.C81_false` | propext, Classical.choice, Quot.sound |
| `Up4.C82_scalar_map` | propext, Classical.choice, Quot.sound |
| `Up4.C83_contour` | propext, Classical.choice, Quot.sound |
| `Up4.C84_parity` | propext, Classical.choice, Quot.sound |
| `Up4.C84_parity_vector_partial` | propext, Classical.choice, Quot.sound |
| `Up4.C84_false` | propext, Classical.choice, Quot.sound |
| `Up4.C84_shapes_false` | propext, Classical.choice, Quot.sound |
| `Up4.C85_parity_map_partial` | propext, Classical.choice, Quot.sound |
| `Up4.C85_axis1` | propext, Classical.choice, Quot.sound |
| `Up4.C85_false` | propext, Classical.choice, Quot.sound |
| `Up4.C86_quiver` | propext, Classical.choice, Quot.sound |
| `Up4.C86_unit_partial` | propext, Classical.choice, Quot.sound |
| `Up4.C86_unit_false` | propext, Classical.choice, Quot.sound |
| `Up4.C87_curve_partial` | propext, Classical.choice, Quot.sound |
| `Up4.C87_false` | propext, Classical.choice, Quot.sound |
| `Up4.C88_history` | propext, Classical.choice, Quot.sound |
| `Up4.C88_forget` | propext, Classical.choice, Quot.sound |
| `Up4.C89_mean_partial` | propext, Classical.choice, Quot.sound |
| `Up4.C89_false` | propext, Classical.choice, Quot.sound |
| `Up4.C90_numberfield` | propext, Classical.choice, Quot.sound |
| `Up4.C90_vectorfield` | propext, Classical.choice, Quot.sound |
| `Up4.C90_attributes` | propext, Classical.choice, Quot.sound |
| `Up4.C90_extent` | propext, Classical.choice, Quot.sound |
| `Up4.onDisk_update` | propext, Classical.choice, Quot.sound |
| `Up4.C91_rows` | propext, Classical.choice, Quot.sound |
| `Up4.C91_means` | propext, Classical.choice, Quot.sound |
| `Up4.C91_csv` | propext, Classical.choice, Quot.sound |
| `Up4.C91_extent` | propext, Classical.choice, Quot.sound |
| `Up4.C92_grid_partial` | propext, Classical.choice, Quot.sound |
| `Up4.C92_accepts` | propext, Classical.choice, Quot.sound |
| `Up4.C92_fit` | propext, Classical.choice, Quot.sound |
| `Up4.C92_false_negative` | propext, Classical.choice, Quot.sound |
| `Up4.C92_false_float` | propext, Classical.choice, Quot.sound |
| `Up4.C92_false_extent` | propext, Classical.choice, Quot.sound |
| `Up4.C92_false_empty` | propext, Classical.choice, Quot.sound |
| `Up4.C93_plot` | propext, Classical.choice, Quot.sound |
| `Up4.C93_axis` | propext, Quot.sound |
| `Up4.C94_vtk` | propext, Classical.choice, Quot.sound |
| `Up4.C94_csv` | propext, Classical.choice, Quot.sound |
| `Up4.C94_chain` | propext, Classical.choice, Quot.sound |
| `Up4.C94_id` | propext, Classical.choice, Quot.sound |
| `Up4.C94_files` | propext, Classical.choice, Quot.sound |
| `Up4.C94_load_time` | propext, Classical.choice, Quot.sound |
| `Up4.C94_load_particle` | propext, Classical.choice, Quot.sound |
| `Up4.C94_vtk_exactly` | propext, Classical.choice, Quot.sound |
| `Up4.C94_csv_exactly` | propext, Classical.choice, Quot.sound |
| `Up4.C94_keeps_false` | propext, Classical.choice, Quot.sound |
| `Up4.C95_step_partial` | propext, Classical.choice, Quot.sound |
| `Up4.C95_false` | propext, Classical.choice, Quot.sound |
| `Up4.C96_folder_partial` | propext, Classical.choice, Quot.sound |
| `Up4.C96_order` | propext, Classical.choice, Quot.sound |
| `Up4.C96_false_xml` | propext, Classical.choice, Quot.sound |
| `Up4.C96_false_box` | propext, Classical.choice, Quot.sound |
| `Up4.C97_files` | propext, Classical.choice, Quot.sound |
| `Up4.C97_missing` | propext, Classical.choice, Quot.sound |
| `Up4.C97_shape_false` | propext, Classical.choice, Quot.sound |
| `Up4.C98_silent_partial` | propext, Classical.choice, Quot.sound |
| `Up4.C98_methods` | propext, Classical.choice, Quot.sound |
| `Up4.C98_false` | propext, Classical.choice, Quot.sound |
| `Up4.C99_vectorfield` | propext, Classical.choice, Quot.sound |
| `Up4.C99_velocityfield` | propext, Classical.choice, Quot.sound |
| `Up4.C100_counts_partial` | propext, Classical.choice, Quot.sound |
| `Up4.C100_false` | propext, Classical.choice, Quot.sound |
| `Up4.C101_table` | propext, Classical.choice, Quot.sound |
| `Up4.C101_returns` | propext, Classical.choice, Quot.sound |
| `Up4.C102_refused` | propext, Classical.choice, Quot.sound |
| `Up4.C103_files_partial` | propext, Classical.choice, Quot.sound |
| `Up4.C103_false_csv` | propext, Classical.choice, Quot.sound |
| `Up4.C103_false_multi` | propext, Classical.choice, Quot.sound |
| `Up4.C104_whole` | propext, Classical.choice, Quot.sound |
| `Up4.C104_text` | propext, Classical.choice, Quot.sound |
| `Up4.C105_vectorfield` | propext, Classical.choice, Quot.sound |
| `Up4.C106_velocityfield` | propext, Classical.choice, Quot.sound |
| `Up4.C107_window_partial` | propext, Classical.choice, Quot.sound |
| `Up4.C107_exact_partial` | propext, Classical.choice, Quot.sound |
| `Up4.C107_everyone` | propext, Classical.choice, Quot.sound |
| `Up4.C107_false` | propext, Classical.choice, Quot.sound |
| `Up4.C108_granular_partial` | propext, Classical.choice, Quot.sound |
| `Up4.C108_false` | propext, Classical.choice, Quot.sound |
| `Up4.C109_dispersion` | propext, Classical.choice, Quot.sound |
| `Up4.C109_negative` | propext, Classical.choice, Quot.sound |
| `Up4.C110_numberfield` | propext, Classical.choice, Quot.sound |
| `Up4.C110_velocityfield` | propext, Classical.choice, Quot.sound |
| `Up4.C110_vectorfield` | propext, Classical.choice, Quot.sound |
| `Up4.C110_granular` | propext, Classical.choice, Quot.sound |
| `Up4.C110_order` | propext, Classical.choice, Quot.sound |
| `Up4.C111_numberfield` | propext, Classical.choice, Quot.sound |
| `Up4.C111_velocityfield` | propext, Classical.choice, Quot.sound |
| `Up4.C111_vectorfield` | propext, Classical.choice, Quot.sound |
| `Up4.C111_windows` | propext, Classical.choice, Quot.sound |
| `Up4.C111_window_fields` | propext, Classical.choice, Quot.sound |
| `Up4.C112_units` | propext, Classical.choice, Quot.sound |
| `Up4.C113_velocityfield` | propext, Classical.choice, Quot.sound |
| `Up4.C113_vectorfield` | propext, Classical.choice, Quot.sound |
| `Up4.C113_granular` | propext, Classical.choice, Quot.sound |
| `Up4.C114_numberfield_partial` | propext, Classical.choice, Quot.sound |
| `Up4.C114_false` | propext, Classical.choice, Quot.sound |
| `Up4.C115_lengths` | propext, Classical.choice, Quot.sound |
| `Up4.C115_lookup_partial` | propext, Classical.choice, Quot.sound |
| `Up4.C115_false` | propext, Classical.choice, Quot.sound |
| `Up4.C116_summary` | propext, Classical.choice, Quot.sound |
| `Up4.C116_limits` | propext, Classical.choice, Quot.sound |
| `Up4.C117_summary_partial` | propext, Classical.choice, Quot.sound |
| `Up4.C117_empty` | propext, Quot.sound |
| `Up4.C117_false` | propext, Classical.choice, Quot.sound |
| `Up4.C118_inside` | propext, Quot.sound |
| `Up4.C118_cellId_partial` | propext, Classical.choice, Quot.sound |
| `Up4.C118_false` | propext, Classical.choice, Quot.sound |
| `Up4.C119_vectorfield` | propext, Classical.choice, Quot.sound |
| `Up4.C119_velocityfield` | propext, Classical.choice, Quot.sound |
| `Up4.C120_cellId` | propext, Classical.choice, Quot.sound |
| `Up4.C120_right_cell` | propext, Classical.choice, Quot.sound |
| `Up4.C120_numberfield` | propext, Classical.choice, Quot.sound |
| `Up4.C121_decimal` | propext, Classical.choice, Quot.sound |
| `Up4.C121_only` | propext, Classical.choice, Quot.sound |
| `Up4.C121_accuracy` | propext, Classical.choice, Quot.sound |
| `Up4.C121_order` | propext, Classical.choice, Quot.sound |
| `Up4.C121_blank` | propext, Classical.choice, Quot.sound |
| `Up4.C121_file` | propext, Classical.choice, Quot.sound |
| `Up4.C121_answers` | propext, Classical.choice, Quot.sound |
| `Up4.C121_padded` | propext, Classical.choice, Quot.sound |
| `Up4.C122_quoted_partial` | propext, Classical.choice, Quot.sound |
| `Up4.C122_header` | propext, Classical.choice, Quot.sound |
| `Up4.C122_false_doubled` | propext, Quot.sound |
| `Up4.C123_vtk_whole` | propext, Classical.choice, Quot.sound |
| `Up4.C123_csv_whole` | propext, Classical.choice, Quot.sound |
| `Up4.C123_vtk` | propext, Classical.choice, Quot.sound |
| `Up4.C123_named` | propext, Classical.choice, Quot.sound |
| `Up4.C123_folder` | propext, Classical.choice, Quot.sound |
| `Up4.C123_csv` | propext, Classical.choice, Quot.sound |
| `Up4.C123_files` | propext, Classical.choice, Quot.sound |
| `Up4.C123_files_whole` | propext, Classical.choice, Quot.sound |
| `Up4.C124_cartesian` | propext, Classical.choice, Quot.sound |
| `Up4.C124_cylindrical` | propext, Classical.choice, Quot.sound |
| `Up4.C124_data_partial` | propext, Classical.choice, Quot.sound |
| `Up4.C124_same` | propext, Classical.choice, Quot.sound |
| `Up4.C124_false_long` | propext, Classical.choice, Quot.sound |
| `Up4.C124_false_order` | propext, Classical.choice, Quot.sound |
| `Up4.C125_number_partial` | propext, Classical.choice, Quot.sound |
| `Up4.C125_witness` | propext, Classical.choice, Quot.sound |
| `Up4.C125_concentration_false` | propext, Classical.choice, Quot.sound |
| `Up4.C125_lacey_false` | propext, Classical.choice, Quot.sound |
| `Up4.C125_occupancy_false` | propext, Classical.choice, Quot.sound |
| `Up4.C125_circulation_false` | propext, Classical.choice, Quot.sound |
| `Up4.C125_twoBoundary_false` | propext, Classical.choice, Quot.sound |
| `Up4.C126_dispersion_partial` | propext, Classical.choice, Quot.sound |
| `Up4.C126_msd_partial` | propext, Classical.choice, Quot.sound |
| `Up4.C126_vtk` | propext, Quot.sound |
| `Up4.C126_dispersion_false` | propext, Classical.choice, Quot.sound |
| `Up4.C126_msd_false` | propext, Classical.choice, Quot.sound |
| `Up4.C126_occupancy_false` | propext, Classical.choice, Quot.sound |
| `Up4.C126_leaving_panics` | propext, Classical.choice, Quot.sound |
| `Up4.C126_witness` | propext, Classical.choice, Quot.sound |
| `Up4.C127_components` | propext, Classical.choice, Quot.sound |
| `Up4.C127_energy` | propext, Classical.choice, Quot.sound |
| `Up4.C127_histogram` | propext, Classical.choice, Quot.sound |
| `Up4.C128_fields_partial` | propext, Classical.choice, Quot.sound |
| `Up4.C128_ratios_partial` | propext, Classical.choice, Quot.sound |
| `Up4.C128_histogram_partial` | propext, Classical.choice, Quot.sound |
| `Up4.C128_circulation_partial` | propext, Classical.choice, Quot.sound |
| `Up4.C128_later_partial` | propext, Classical.choice, Quot.sound |
| `Up4.C128_lacey_false` | propext, Classical.choice, Quot.sound |
| `Up4.C128_showcase_false` | propext, Classical.choice, Quot.sound |
| `Up4.C129_fields_partial` | propext, Classical.choice, Quot.sound |
| `Up4.C129_lacey_partial` | propext, Classical.choice, Quot.sound |
| `Up4.C129_circulation_partial` | propext, Classical.choice, Quot.sound |
| `Up4.C129_twoBoundary_partial` | propext, Classical.choice, Quot.sound |
| `Up4.C129_occupancy_partial` | propext, Classical.choice, Quot.sound |
| `Up4.C129_origin_partial` | propext, Classical.choice, Quot.sound |
| `Up4.C129_unit_false` | propext, Classical.choice, Quot.sound |
| `Up4.C130_fields_partial` | propext, Classical.choice, Quot.sound |
| `Up4.C130_histogram_partial` | propext, Classical.choice, Quot.sound |
| `Up4.C130_circulation_partial` | propext, Classical.choice, Quot.sound |
| `Up4.C130_settings_partial` | propext, Classical.choice, Quot.sound |
| `Up4.C130_false` | propext, Classical.choice, Quot.sound |
| `Up4.C131_mark` | propext, Classical.choice, Quot.sound |
| `Up4.C131_table` | propext, Classical.choice, Quot.sound |
| `Up4.C132_search_partial` | propext, Classical.choice, Quot.sound |
| `Up4.C132_offsets` | propext, Classical.choice, Quot.sound |
| `Up4.C132_grids` | propext, Classical.choice, Quot.sound |
| `Up4.C132_self` | propext, Classical.choice, Quot.sound |
| `Up4.C132_few` | propext, Classical.choice, Quot.sound |
| `Up4.C132_kept_false` | propext, Classical.choice, Quot.sound |
| `Up4.C132_units_false` | propext, Classical.choice, Quot.sound |
| `Up4.C132_kind` | propext, Classical.choice, Quot.sound |
| `Up4.C132_small_false` | propext, Classical.choice, Quot.sound |
| `Up4.C132_fields` | propext, Classical.choice, Quot.sound |
| `Up4.C133_names` | propext, Quot.sound |
| `Up4.C133_bar_partial` | propext, Classical.choice, Quot.sound |
| `Up4.C133_black` | propext, Classical.choice, Quot.sound |
| `Up4.C133_maps` | propext, Classical.choice, Quot.sound |
| `Up4.C133_refused` | propext, Classical.choice, Quot.sound |
| `Up4.C133_false` | propext, Classical.choice, Quot.sound |
| `Up4.C134_harmless_partial` | propext, Classical.choice, Quot.sound |
| `Up4.C134_reads` | propext, Classical.choice, Quot.sound |
| `Up4.C134_time_false` | propext, Classical.choice, Quot.sound |
| `Up4.C134_particle_false` | propext, Classical.choice, Quot.sound |
| `Up4.C135_counts` | propext, Classical.choice, Quot.sound |
| `Up4.C135_velocities` | propext, Classical.choice, Quot.sound |
| `Up4.C135_circulation` | propext, Classical.choice, Quot.sound |
| `Up4.C136_answers_partial` | propext, Classical.choice, Quot.sound |
| `Up4.C136_csv_partial` | propext, Classical.choice, Quot.sound |
| `Up4.C136_vtk_partial` | propext, Classical.choice, Quot.sound |
| `Up4.C136_short_false` | propext, Classical.choice, Quot.sound |
| `Up4.C136_types_false` | propext, Classical.choice, Quot.sound |
| `Up4.C137_text` | propext, Classical.choice, Quot.sound |
| `Up4.C137_session` | propext, Classical.choice, Quot.sound |
| `Up4.C137_vtk` | propext, Classical.choice, Quot.sound |
| `Up4.C138_velocityfield` | propext, Classical.choice, Quot.sound |
| `Up4.C138_vectorfield` | propext, Classical.choice, Quot.sound |
| `Up4.C138_granular` | propext, Classical.choice, Quot.sound |
| `Up4.C139_mirror_partial` | propext, Classical.choice, Quot.sound |
| `Up4.C139_false` | propext, Classical.choice, Quot.sound |
| `Up4.C140_exact` | propext, Classical.choice, Quot.sound |
| `Up4.C140_rounded` | propext, Classical.choice, Quot.sound |
| `Up4.C140_margins` | propext, Classical.choice, Quot.sound |
| `Up4.C141_lookup` | propext, Classical.choice, Quot.sound |
| `Up4.C141_history` | propext, Classical.choice, Quot.sound |
| `Up4.C141_arrays` | propext, Classical.choice, Quot.sound |
| `Up4.C141_slices` | propext, Classical.choice, Quot.sound |
| `Up4.C141_averages` | propext, Classical.choice, Quot.sound |
| `Up4.C141_outliers` | propext, Classical.choice, Quot.sound |
| `Up4.C141_vectors` | propext, Classical.choice, Quot.sound |
| `Up4.C142_cells` | propext, Classical.choice, Quot.sound |
| `Up4.C142_total` | propext, Classical.choice, Quot.sound |
| `Up4.C143_recorded` | propext, Classical.choice, Quot.sound |
| `Up4.C143_sequence` | propext, Classical.choice, Quot.sound |
| `Up4.C143_exists` | propext, Classical.choice, Quot.sound |
| `Up4.C144_velocity` | propext, Classical.choice, Quot.sound |
| `Up4.C144_vector` | propext, Classical.choice, Quot.sound |
| `Up4.C144_grids` | propext, Classical.choice, Quot.sound |
| `Up4.C144_showcase` | propext, Classical.choice, Quot.sound |
| `Up4.C144_energy` | propext, Classical.choice, Quot.sound |
| `Up4.C145_vtk` | propext, Classical.choice, Quot.sound |
| `Up4.C145_trajectory` | propext, Classical.choice, Quot.sound |
| `Up4.C145_steps` | propext, Classical.choice, Quot.sound |
| `Up4.C145_mean_velocity` | propext, Classical.choice, Quot.sound |
| `Up4.C146_csv` | propext, Classical.choice, Quot.sound |
| `Up4.C146_multi` | propext, Classical.choice, Quot.sound |
| `Up4.C146_files_partial` | propext, Classical.choice, Quot.sound |
| `Up4.C146_false` | propext, Classical.choice, Quot.sound |
| `Up4.C147_vtk_partial` | propext, Classical.choice, Quot.sound |
| `Up4.C147_csv_partial` | propext, Classical.choice, Quot.sound |
| `Up4.C147_cylinder_partial` | propext, Classical.choice, Quot.sound |
| `Up4.C147_false` | propext, Classical.choice, Quot.sound |
| `Up4.C147_cylinder_false` | propext, Classical.choice, Quot.sound |
| `Up4.C148_extract` | propext, Classical.choice, Quot.sound |
| `Up4.C148_roundtrip_partial` | propext, Classical.choice, Quot.sound |
| `Up4.C148_zero_false` | propext, Classical.choice, Quot.sound |
| `Up4.C148_last_false` | propext, Classical.choice, Quot.sound |
| `Up4.C149_csv` | propext, Classical.choice, Quot.sound |
| `Up4.C149_vtk` | propext, Classical.choice, Quot.sound |
| `Up4.C149_idline` | propext, Classical.choice, Quot.sound |
| `Up4.C150_reading` | propext, Classical.choice, Quot.sound |
| `Up4.C151_vtk_files` | propext, Classical.choice, Quot.sound |
| `Up4.C151_lines` | propext, Classical.choice, Quot.sound |
| `Up4.C151_trajectory` | propext, Classical.choice, Quot.sound |
| `Up4.C152_msd_partial` | propext, Classical.choice, Quot.sound |
| `Up4.C153_index_partial` | propext, Classical.choice, Quot.sound |
| `Up4.C154_rows` | propext, Classical.choice, Quot.sound |
| `Up4.C154_csv` | propext, Classical.choice, Quot.sound |
| `Up4.C154_multi` | propext, Classical.choice, Quot.sound |
| `Up4.C154_files_partial` | propext, Classical.choice, Quot.sound |
| `Up4.C154_files_false` | propext, Classical.choice, Quot.sound |
| `Up4.C155_text` | propext, Classical.choice, Quot.sound |
| `Up4.C155_faithful` | propext, Classical.choice, Quot.sound |
| `Up4.C155_session` | propext, Classical.choice, Quot.sound |
| `Up4.C156_lacey` | propext, Classical.choice, Quot.sound |
| `Up4.C157_histogram_partial` | propext, Classical.choice, Quot.sound |
| `Up4.C158_pool` | propext, Classical.choice, Quot.sound |
| `Up4.C158_windows` | propext, Classical.choice, Quot.sound |
| `Up4.C158_same` | propext, Classical.choice, Quot.sound |
| `Up4.C158_refine` | propext, Classical.choice, Quot.sound |
| `Up4.C159_lacey` | propext, Classical.choice, Quot.sound |
| `Up4.C160_length` | propext, Classical.choice, Quot.sound |
| `Up4.C160_velocity` | propext, Classical.choice, Quot.sound |
