# Concrete cases

For each theorem in MANIFEST.json a concrete case that meets its hypotheses: an `example` that uses it (or, next to it in the same file, one that meets the hypotheses
of the theorems of that property), or a refutation whose witness uses it. Theorems named `_false` are themselves statements about a concrete case.
Generated.

| Property | Theorem | Case |
|---|---|---|
| C01 | `Up4.C01_cellId_inBounds` | Verif/Props/CartLookup.lean:30 |
| C02 | `Up4.C02_isInside_iff` | Verif/Cases/Grids.lean:21 |
| C02 | `Up4.C02_isInside_fin` | Verif/Cases/Grids.lean:31 |
| C03 | `Up4.C03_cellId_mono` | Verif/Props/CartLookup.lean:92 |
| C03 | `Up4.C03_cellId_axis` | Verif/Props/CartLookup.lean:92 |
| C03 | `Up4.C03_cellId_ends` | Verif/Props/ColumnMeans.lean:301 (`C100_false`) |
| C04 | `Up4.C04_centre_roundtrip_partial` | Verif/Props/CartLookup.lean:213 |
| C04 | `Up4.C04_centre_index` | Verif/Props/CartLookup.lean:213 |
| C04 | `Up4.C04_centre_lookup` | Verif/Props/CartLookup.lean:213 |
| C04 | `Up4.C04_false` | Verif/Props/Slice.lean:134 (`C14_false`) |
| C05 | `Up4.C05_centres` | Verif/Cases/Grids.lean:42 |
| C06 | `Up4.C06_addValue` | Verif/Props/Accumulate.lean:282 (`C11_false`) |
| C07 | `Up4.C07_history` | Verif/Cases/Grids.lean:74 |
| C08 | `Up4.C08_mean` | Verif/Cases/Grids.lean:74 |
| C09 | `Up4.C09_insert_get` | Verif/Cases/Grids.lean:99 |
| C10 | `Up4.C10_weights_perm` | Verif/Props/Accumulate.lean:65 |
| C10 | `Up4.C10_data_perm` | Verif/Props/Accumulate.lean:65 |
| C11 | `Up4.C11_newZeros_partial` | Verif/Cases/Grids.lean:118 |
| C11 | `Up4.C11_weights_kept` | Verif/Cases/Grids.lean:122 |
| C11 | `Up4.C11_false` | states a concrete case |
| C12 | `Up4.C12_collapse` | Verif/Props/Collapse.lean:103 |
| C12 | `Up4.C12_nan_ignored` | Verif/Props/Collapse.lean:103 |
| C12 | `Up4.C12_collapseWeight` | Verif/Props/Collapse.lean:103 |
| C13 | `Up4.C13_collapseTwo` | Verif/Props/Collapse.lean:103 |
| C13 | `Up4.C13_collapseTwoWeight` | Verif/Props/Collapse.lean:103 |
| C13 | `Up4.C13_equal_axes` | Verif/Props/Collapse.lean:103 |
| C14 | `Up4.C14_slice_partial` | Verif/Props/Slice.lean:87 |
| C14 | `Up4.C14_sliceIdx` | Verif/Props/Slice.lean:87 |
| C14 | `Up4.C14_upper_limit_panics` | Verif/Props/Slice.lean:87 |
| C14 | `Up4.C14_slice_some_plane` | Verif/Props/Slice.lean:87 |
| C14 | `Up4.C14_false` | Verif/Props/Slice.lean:87 |
| C15 | `Up4.C15_clamp` | Verif/Cases/Grids.lean:132 |
| C15 | `Up4.C15_bounded_idempotent` | Verif/Cases/Grids.lean:132 |
| C15 | `Up4.C15_mode0_idempotent` | Verif/Cases/Grids.lean:132 |
| C15 | `Up4.C15_unknown_mode` | Verif/Cases/Grids.lean:132 |
| C16 | `Up4.C16_neighbour_mean_partial` | Verif/Props/Outlier.lean:235 |
| C16 | `Up4.C16_debug_panics` | Verif/Props/Outlier.lean:235 |
| C16 | `Up4.C16_cyl_false` | Verif/Props/Outlier.lean:235 |
| C16 | `Up4.neighbours_explicit` | Verif/Cases/Refusals.lean:96 |
| C17 | `Up4.C17_shape` | Verif/Props/Shape.lean:199 |
| C17 | `Up4.C17_set` | Verif/Props/Shape.lean:199 |
| C17 | `Up4.C17_broadcast_breaks_shape` | Verif/Props/Shape.lean:199 |
| C18 | `Up4.C18_trajectory_cells` | Verif/Props/Shape.lean:398 |
| C18 | `Up4.C18_trajectory_totals` | Verif/Props/Shape.lean:398 |
| C19 | `Up4.C19_shells` | Verif/Props/GridObject.lean:617 (`C118_false`) |
| C20 | `Up4.C20_lookup` | Verif/Cases/Grids.lean:150 |
| C20 | `Up4.C20_lookup_rounded_partial` | Verif/Cases/Grids.lean:195 |
| C20 | `Up4.C20_beyond_panics` | Verif/Props/CylBinary64.lean:177 (`C20_false`) |
| C20 | `Up4.C20_never_err` | Verif/Cases/Grids.lean:150 |
| C20 | `Up4.C20_false` | Verif/Cases/Grids.lean:195 |
| C21 | `Up4.C21_cell_partial` | Verif/Cases/Grids.lean:158 |
| C21 | `Up4.C21_upper_half` | Verif/Cases/Grids.lean:169 |
| C21 | `Up4.C21_lower_half` | Verif/Cases/Grids.lean:158 |
| C21 | `Up4.C21_false` | states a concrete case |
| C22 | `Up4.C22_radially_outside_panics` | Verif/Props/Cylinder.lean:135 |
| C22 | `Up4.C22_axially_outside_recorded` | Verif/Props/Cylinder.lean:583 |
| C23 | `Up4.C23_cartesian` | Verif/Cases/Grids.lean:228 |
| C23 | `Up4.C23_cylinder_partial` | Verif/Props/VecGrid.lean:86 |
| C23 | `Up4.C23_false` | states a concrete case |
| C24 | `Up4.C24_history` | Verif/Props/VecGrid.lean:235 |
| C24 | `Up4.C24_componentwise` | Verif/Cases/Grids.lean:233 |
| C24 | `Up4.C24_panics` | Verif/Cases/Refusals.lean:29 |
| C24 | `Up4.C24_newZeros` | Verif/Cases/Grids.lean:233 |
| C25 | `Up4.C25_default_accepts` | Verif/Cases/Data.lean:19 |
| C25 | `Up4.C25_default_time` | Verif/Cases/Data.lean:22 |
| C25 | `Up4.C25_default_time_b64` | Verif/Cases/Data.lean:34 |
| C26 | `Up4.C26_radius` | Verif/Cases/Data.lean:47 |
| C26 | `Up4.C26_particleid` | Verif/Cases/Data.lean:47 |
| C26 | `Up4.C26_cloud_partial` | Verif/Cases/Data.lean:47 |
| C26 | `Up4.C26_density_partial` | Verif/Cases/Data.lean:47 |
| C26 | `Up4.C26_valid_partial` | Verif/Props/Selector.lean:245 |
| C26 | `Up4.C26_cloud_false` | states a concrete case |
| C26 | `Up4.C26_density_false` | states a concrete case |
| C26 | `Up4.C26_id_zero_false` | states a concrete case |
| C26 | `Up4.C26_empty_panics` | Verif/Cases/Refusals.lean:33 |
| C27 | `Up4.C27_window` | Verif/Props/Selector.lean:332 |
| C27 | `Up4.C27_nan` | Verif/Props/Selector.lean:332 |
| C27 | `Up4.C27_attributes_kept` | Verif/Props/Selector.lean:332 |
| C28 | `Up4.C28_transparent` | Verif/Props/Buffer.lean:179 |
| C29 | `Up4.C29_small` | Verif/Cases/Data.lean:60 |
| C29 | `Up4.C29_tdata_forward_partial` | Verif/Props/Buffer.lean:628 |
| C29 | `Up4.C29_pdata_false` | Verif/Props/Buffer.lean:475 |
| C29 | `Up4.C29_tdata_false` | Verif/Props/Buffer.lean:475 |
| C30 | `Up4.C30_no_interference` | Verif/Cases/Data.lean:60 |
| C30 | `Up4.C30_setup` | Verif/Cases/Data.lean:70 |
| C31 | `Up4.C31_extract` | Verif/Cases/Data.lean:79 |
| C31 | `Up4.C31_reject` | Verif/Cases/Refusals.lean:37 |
| C31 | `Up4.C31_backwards` | Verif/Cases/Data.lean:79 |
| C32 | `Up4.C32_search` | Verif/Props/Search.lean:148 |
| C32 | `Up4.C32_monotone` | Verif/Cases/Data.lean:92 |
| C32 | `Up4.C32_empty_panics` | Verif/Props/Search.lean:148 |
| C33 | `Up4.C33_recorded_partial` | Verif/Cases/Data.lean:92 |
| C33 | `Up4.C33_false` | states a concrete case |
| C33 | `Up4.C33_tolerance_false` | states a concrete case |
| C34 | `Up4.C34_numberfield` | Verif/Props/ColumnMeans.lean:301 (`C100_false`) |
| C35 | `Up4.C35_velocityfield` | Verif/Props/Fields.lean:438 |
| C35 | `Up4.C35_modes` | Verif/Props/Fields.lean:438 |
| C35 | `Up4.C35_mean` | Verif/Props/Fields.lean:438 |
| C36 | `Up4.C36_vectorfield` | Verif/Props/Fields.lean:623 |
| C36 | `Up4.C36_mean` | Verif/Props/Fields.lean:623 |
| C58 | `Up4.C58_numberfield` | Verif/Cases/Data.lean:109 |
| C58 | `Up4.C58_false` | states a concrete case |
| C39 | `Up4.C39_histogram_partial` | Verif/Props/Histogram.lean:242 (`C39_false`) |
| C39 | `Up4.C39_total_partial` | Verif/Cases/Analyses.lean:19 |
| C39 | `Up4.C39_false` | states a concrete case |
| C40 | `Up4.C40_granular` | Verif/Props/Granular.lean:213 |
| C40 | `Up4.C40_unknown_mode` | Verif/Props/Granular.lean:213 |
| C43 | `Up4.C43_concentration` | Verif/Props/Concentration.lean:209 |
| C43 | `Up4.C43_swap` | Verif/Props/Concentration.lean:209 |
| C37 | `Up4.C37_occupancy` | Verif/Props/Occupancy.lean:360 |
| C37 | `Up4.C37_cells` | Verif/Props/Homogeneity.lean:217 (`C41_false`) |
| C38 | `Up4.C38_dispersion` | Verif/Props/Dispersion.lean:298 |
| C41 | `Up4.C41_sd_partial` | Verif/Cases/Analyses.lean:170 |
| C41 | `Up4.C41_index` | Verif/Props/Homogeneity.lean:217 (`C41_false`) |
| C41 | `Up4.C41_false` | Verif/Props/HomAccuracy.lean:596 |
| C44 | `Up4.C44_msd_partial` | Verif/Props/Follow.lean:403 (`C126_witness`) |
| C44 | `Up4.C44_false` | states a concrete case |
| C42 | `Up4.C42_lacey_partial` | Verif/Props/Lacey.lean:558 (`C42_false`) |
| C42 | `Up4.C42_value` | Verif/Props/Lacey.lean:558 (`C42_false`) |
| C42 | `Up4.C42_empty_panics` | Verif/Props/Nothing.lean:235 (`C128_lacey_false`) |
| C42 | `Up4.C42_false` | Verif/Props/LaceyThreshold.lean:143 |
| C45 | `Up4.C45_circulation_partial` | Verif/Cases/Analyses.lean:195 |
| C45 | `Up4.C45_values` | Verif/Props/Circulation.lean:318 (`C45_false`) |
| C45 | `Up4.C45_reject` | Verif/Cases/Refusals.lean:41 |
| C45 | `Up4.C45_false` | Verif/Cases/Analyses.lean:195 |
| C46 | `Up4.C46_intervals` | Verif/Cases/Analyses.lean:212 |
| C46 | `Up4.C46_laps` | Verif/Props/TwoBoundary.lean:632 |
| C46 | `Up4.C46_reject` | Verif/Cases/Refusals.lean:45 |
| C47 | `Up4.C47_turn` | Verif/Props/Rotation.lean:125 |
| C47 | `Up4.C47_isometry` | Verif/Cases/Analyses.lean:230 |
| C48 | `Up4.C48_history` | Verif/Props/Rotation.lean:288 |
| C48 | `Up4.C48_reject` | Verif/Cases/Refusals.lean:49 |
| C48 | `Up4.C48_false` | states a concrete case |
| C49 | `Up4.C49_sortlist` | Verif/Cases/Tools.lean:21 |
| C49 | `Up4.C49_scalars` | Verif/Cases/Tools.lean:25 |
| C49 | `Up4.C49_vectors` | Verif/Cases/Tools.lean:32 |
| C50 | `Up4.C50_sort` | Verif/Props/Sorting.lean:355 |
| C50 | `Up4.C50_nan` | Verif/Cases/Tools.lean:39 |
| C50 | `Up4.C50_isSorted` | Verif/Cases/Tools.lean:43 |
| C51 | `Up4.C51_table_partial` | Verif/Cases/Tools.lean:49 |
| C51 | `Up4.C51_nearest_partial` | Verif/Props/Interpolate.lean:379 |
| C51 | `Up4.C51_reject` | Verif/Cases/Refusals.lean:52 |
| C51 | `Up4.C51_false` | states a concrete case |
| C52 | `Up4.C52_uniform` | Verif/Props/Interpolate.lean:503 |
| C53 | `Up4.C53_rows_partial` | Verif/Props/Parallel.lean:202 (`C72_false`) |
| C53 | `Up4.C53_derivative_partial` | Verif/Props/Velocity.lean:259 (`C53_false`) |
| C53 | `Up4.C53_linear_partial` | Verif/Cases/Tools.lean:65 |
| C53 | `Up4.C53_motion_partial` | Verif/Cases/Tools.lean:74 |
| C53 | `Up4.C53_uniform` | Verif/Props/VelocityFit.lean:239 |
| C53 | `Up4.C53_even` | Verif/Cases/Tools.lean:84 |
| C53 | `Up4.C53_one_panics` | Verif/Cases/Refusals.lean:82 |
| C53 | `Up4.C53_false` | states a concrete case |
| C54 | `Up4.C54_minmax_partial` | Verif/Props/Maths.lean:126 |
| C54 | `Up4.C54_false` | states a concrete case |
| C55 | `Up4.C55_meshgrid` | Verif/Props/Maths.lean:406 |
| C55 | `Up4.C55_meshgrid3` | Verif/Cases/Tools.lean:87 |
| C55 | `Up4.C55_flatten2` | Verif/Props/Maths.lean:406 |
| C55 | `Up4.C55_flatten3` | Verif/Cases/Tools.lean:87 |
| C56 | `Up4.C56_skip` | Verif/Cases/Tools.lean:97 |
| C56 | `Up4.C56_value` | Verif/Props/Maths.lean:506 |
| C56 | `Up4.C56_none` | Verif/Cases/Tools.lean:97 |
| C57 | `Up4.C57_threshold_partial` | Verif/Props/Threshold.lean:151 (`C57_false`) |
| C57 | `Up4.C57_nonzero_partial` | Verif/Props/Threshold.lean:196 |
| C57 | `Up4.C57_reject` | Verif/Cases/Refusals.lean:59 |
| C57 | `Up4.C57_false` | states a concrete case |
| C59 | `Up4.C59_stored` | Verif/Props/Hdf5.lean:501 |
| C59 | `Up4.C59_reject` | Verif/Props/Hdf5.lean:508 |
| C60 | `Up4.C60_tdata_partial` | Verif/Props/Hdf5.lean:687 |
| C60 | `Up4.C60_pdata_partial` | Verif/Cases/Tools.lean:103 |
| C60 | `Up4.C60_pdata_value` | Verif/Cases/Tools.lean:103 |
| C60 | `Up4.C60_pdata_panics` | Verif/Props/Hdf5.lean:682 |
| C60 | `Up4.C60_false` | states a concrete case |
| C61 | `Up4.C61_roundtrip` | Verif/Cases/Sessions.lean:187 |
| C62 | `Up4.C62_times` | Verif/Cases/Sessions.lean:25 |
| C62 | `Up4.C62_options` | Verif/Props/WritesUse.lean:173 (`C94_keeps_false`) |
| C63 | `Up4.C63_limits_partial` | Verif/Cases/Sessions.lean:37 |
| C63 | `Up4.C63_false` | Verif/Props/Wraps.lean:464 (`C147_false`) |
| C64 | `Up4.C64_velocity_partial` | Verif/Props/Vtk.lean:660 |
| C65 | `Up4.C65_csv` | Verif/Props/Csv.lean:583 (`C65_false`) |
| C65 | `Up4.C65_all` | Verif/Props/Options.lean:415 |
| C65 | `Up4.C65_false` | states a concrete case |
| C66 | `Up4.C66_reject` | Verif/Props/CsvText.lean:893 (`C103_false_csv`) |
| C66 | `Up4.C66_velocity` | Verif/Props/Csv.lean:944 |
| C66 | `Up4.C66_interpolated` | Verif/Cases/Sessions.lean:284 |
| C67 | `Up4.C67_recorded_partial` | Verif/Cases/Sessions.lean:157 |
| C67 | `Up4.C67_false` | states a concrete case |
| C68 | `Up4.C68_chain_partial` | Verif/Cases/Sessions.lean:231 |
| C68 | `Up4.C68_velocity_partial` | Verif/Props/CsvMultiVel.lean:1053 |
| C68 | `Up4.C68_interpolated_partial` | Verif/Cases/Sessions.lean:303 |
| C68 | `Up4.C68_read_partial` | Verif/Props/CsvMulti.lean:654 |
| C68 | `Up4.C68_false` | Verif/Props/CsvMulti.lean:654 |
| C69 | `Up4.C69_velocity_partial` | Verif/Props/CsvMultiVel.lean:1053 |
| C69 | `Up4.C69_interpolated_partial` | Verif/Cases/Sessions.lean:317 |
| C69 | `Up4.C69_reject` | Verif/Cases/Refusals.lean:66 |
| C69 | `Up4.C69_byId` | Verif/Cases/Sessions.lean:178 |
| C69 | `Up4.C69_idline_partial` | Verif/Props/CsvMulti.lean:1199 |
| C69 | `Up4.C69_read_partial` | Verif/Props/CsvMulti.lean:1199 |
| C69 | `Up4.C69_false` | Verif/Cases/Files.lean:53 |
| C70 | `Up4.C70_files` | Verif/Cases/Sessions.lean:268 |
| C70 | `Up4.C70_reject` | Verif/Cases/Refusals.lean:70 |
| C71 | `Up4.C71_recorded_partial` | Verif/Props/CsvSteps.lean:326 (`C71_false`) |
| C71 | `Up4.C71_false` | states a concrete case |
| C72 | `Up4.C72_rows_partial` | Verif/Props/Parallel.lean:202 (`C72_false`) |
| C72 | `Up4.C72_agrees_partial` | Verif/Cases/Tools.lean:125 |
| C72 | `Up4.C72_reject` | Verif/Cases/Refusals.lean:74 |
| C72 | `Up4.C72_interpolated_panics` | Verif/Cases/Refusals.lean:78 |
| C72 | `Up4.C72_false` | Verif/Props/Parallel.lean:261 |
| C73 | `Up4.C73_items` | Verif/Props/Items.lean:760 |
| C74 | `Up4.C73_items` | Verif/Props/Items.lean:760 |
| C74 | `Up4.C74_undivided_panics` | Verif/Props/Items.lean:776 |
| C74 | `Up4.C74_backward_zeros` | Verif/Props/Items.lean:589 (`C74_false`) |
| C74 | `Up4.C74_empty_panics` | Verif/Cases/Refusals.lean:86 |
| C74 | `Up4.C74_false` | states a concrete case |
| C75 | `Up4.C75_outside_partial` | Verif/Cases/Tools.lean:131 |
| C75 | `Up4.C75_false` | Verif/Props/Items.lean:786 |
| C76 | `Up4.C76_arrows_partial` | Verif/Cases/Plots.lean:69 |
| C76 | `Up4.C76_axis1` | Verif/Props/QuiverNode.lean:104 (`C76_false`) |
| C76 | `Up4.C76_axis1_panics` | Verif/Props/QuiverNode.lean:162 |
| C76 | `Up4.C76_false` | Verif/Props/QuiverNode.lean:64 |
| C77 | `Up4.C77_max` | Verif/Props/QuiverColour.lean:212 |
| C77 | `Up4.C77_min_partial` | Verif/Cases/Plots.lean:24 |
| C77 | `Up4.C77_minmax_partial` | Verif/Cases/Plots.lean:31 |
| C77 | `Up4.C77_zero` | Verif/Cases/Plots.lean:38 |
| C78 | `Up4.C78_half_partial` | Verif/Props/QuiverNode.lean:351 (`C78_false`) |
| C78 | `Up4.C78_full_partial` | Verif/Cases/Plots.lean:46 |
| C78 | `Up4.C78_false` | states a concrete case |
| C78 | `Up4.C78_one_layer_panics` | Verif/Cases/Refusals.lean:91 |
| C79 | `Up4.C79_colours_partial` | Verif/Props/QuiverColour.lean:212 |
| C79 | `Up4.C79_uniform` | Verif/Props/QuiverColour.lean:230 |
| C80 | `Up4.C80_heads` | Verif/Cases/Plots.lean:69 |
| C80 | `Up4.turned_length` | Verif/Cases/Plots.lean:69 |
| C81 | `Up4.C81_unit_partial` | Verif/Props/UnitPlot.lean:146 (`C81_false`) |
| C81 | `Up4.C81_false` | states a concrete case |
| C82 | `Up4.C82_scalar_map` | Verif/Props/Colour.lean:193 |
| C83 | `Up4.C83_contour` | Verif/Props/Maps.lean:351 |
| C84 | `Up4.C84_parity` | Verif/Props/Maps.lean:363 |
| C84 | `Up4.C84_parity_vector_partial` | Verif/Props/Maps.lean:378 (`C84_false`) |
| C84 | `Up4.C84_false` | Verif/Props/Maps.lean:363 |
| C84 | `Up4.C84_shapes_false` | Verif/Props/Maps.lean:363 |
| C85 | `Up4.C85_parity_map_partial` | Verif/Cases/Plots.lean:105 |
| C85 | `Up4.C85_axis1` | Verif/Props/Maps.lean:416 (`C85_false`) |
| C85 | `Up4.C85_false` | states a concrete case |
| C86 | `Up4.C86_quiver` | Verif/Props/PlotArgs.lean:121 |
| C86 | `Up4.C86_unit_partial` | Verif/Cases/Plots.lean:119 |
| C86 | `Up4.C86_unit_false` | states a concrete case |
| C87 | `Up4.C87_curve_partial` | Verif/Props/MsdCurve.lean:221 (`C87_false`) |
| C87 | `Up4.C87_false` | states a concrete case |
| C88 | `Up4.C88_history` | Verif/Props/Session.lean:269 |
| C88 | `Up4.C88_forget` | Verif/Cases/Sessions.lean:104 |
| C89 | `Up4.C89_mean_partial` | Verif/Props/EndToEnd.lean:495 (`C89_false`) |
| C89 | `Up4.C89_false` | states a concrete case |
| C90 | `Up4.C90_numberfield` | Verif/Cases/Sessions.lean:58 |
| C90 | `Up4.C90_vectorfield` | Verif/Cases/Sessions.lean:67 |
| C90 | `Up4.C90_attributes` | Verif/Cases/Sessions.lean:79 |
| C90 | `Up4.C90_extent` | Verif/Cases/Sessions.lean:91 |
| C90 | `Up4.onDisk_update` | Verif/Cases/Sessions.lean:98 |
| C91 | `Up4.C91_rows` | Verif/Props/EndToEndCsv.lean:306 |
| C91 | `Up4.C91_means` | Verif/Cases/Sessions.lean:163 |
| C91 | `Up4.C91_csv` | Verif/Props/EndToEndCsv.lean:306 |
| C91 | `Up4.C91_extent` | Verif/Cases/Sessions.lean:171 |
| C92 | `Up4.C92_grid_partial` | Verif/Props/Construct.lean:582 |
| C92 | `Up4.C92_accepts` | Verif/Props/Construct.lean:434 (`C92_false_negative`) |
| C92 | `Up4.C92_fit` | Verif/Props/Construct.lean:582 |
| C92 | `Up4.C92_false_negative` | Verif/Props/Construct.lean:586 |
| C92 | `Up4.C92_false_float` | states a concrete case |
| C92 | `Up4.C92_false_extent` | states a concrete case |
| C92 | `Up4.C92_false_empty` | states a concrete case |
| C93 | `Up4.C93_plot` | Verif/Props/Construct.lean:671 |
| C93 | `Up4.C93_axis` | Verif/Props/Construct.lean:671 |
| C94 | `Up4.C94_vtk` | Verif/Cases/Sessions.lean:187 |
| C94 | `Up4.C94_csv` | Verif/Cases/Sessions.lean:204 |
| C94 | `Up4.C94_chain` | Verif/Cases/Sessions.lean:231 |
| C94 | `Up4.C94_id` | Verif/Cases/Sessions.lean:257 |
| C94 | `Up4.C94_files` | Verif/Cases/Sessions.lean:268 |
| C94 | `Up4.C94_load_time` | Verif/Cases/Sessions.lean:187 |
| C94 | `Up4.C94_load_particle` | Verif/Cases/Sessions.lean:204 |
| C94 | `Up4.C94_vtk_exactly` | Verif/Props/WritesUse.lean:151 |
| C94 | `Up4.C94_csv_exactly` | Verif/Cases/Sessions.lean:204 |
| C94 | `Up4.C94_keeps_false` | states a concrete case |
| C95 | `Up4.C95_step_partial` | Verif/Props/FileNames.lean:183 |
| C95 | `Up4.C95_false` | states a concrete case |
| C96 | `Up4.C96_folder_partial` | Verif/Props/DispatchCases.lean:203 (`twoNamed_folder`) |
| C96 | `Up4.C96_order` | Verif/Cases/Files.lean:30 |
| C96 | `Up4.C96_false_xml` | Verif/Props/Folder.lean:181 |
| C96 | `Up4.C96_false_box` | Verif/Props/Folder.lean:181 |
| C97 | `Up4.C97_files` | Verif/Cases/Files.lean:194 |
| C97 | `Up4.C97_missing` | Verif/Props/DispatchCases.lean:265 |
| C97 | `Up4.C97_shape_false` | Verif/Props/DispatchCases.lean:286 |
| C98 | `Up4.C98_silent_partial` | Verif/Props/Folder.lean:276 (`C98_false`) |
| C98 | `Up4.C98_methods` | Verif/Cases/Files.lean:53 |
| C98 | `Up4.C98_false` | states a concrete case |
| C99 | `Up4.C99_vectorfield` | Verif/Props/ColumnMeans.lean:203 |
| C99 | `Up4.C99_velocityfield` | Verif/Props/ColumnMeans.lean:203 |
| C100 | `Up4.C100_counts_partial` | Verif/Props/ColumnMeans.lean:301 (`C100_false`) |
| C100 | `Up4.C100_false` | states a concrete case |
| C101 | `Up4.C101_table` | Verif/Cases/Files.lean:70 |
| C101 | `Up4.C101_returns` | Verif/Cases/Files.lean:94 |
| C102 | `Up4.C102_refused` | Verif/Props/CsvText.lean:1157 |
| C103 | `Up4.C103_files_partial` | Verif/Props/CsvText.lean:1120 |
| C103 | `Up4.C103_false_csv` | states a concrete case |
| C103 | `Up4.C103_false_multi` | Verif/Props/CsvText.lean:1163 |
| C104 | `Up4.C104_whole` | Verif/Props/Whole.lean:162 |
| C104 | `Up4.C104_text` | Verif/Props/CsvText.lean:1090 |
| C104 | `Up4.C101_table` | Verif/Cases/Files.lean:70 |
| C104 | `Up4.C91_rows` | Verif/Props/EndToEndCsv.lean:306 |
| C105 | `Up4.C105_vectorfield` | Verif/Props/Accuracy.lean:204 |
| C106 | `Up4.C106_velocityfield` | Verif/Props/Accuracy.lean:223 |
| C107 | `Up4.C107_window_partial` | Verif/Props/Showcase.lean:331 |
| C107 | `Up4.C107_exact_partial` | Verif/Props/Nothing.lean:250 (`C128_showcase_false`) |
| C107 | `Up4.C107_everyone` | Verif/Props/Showcase.lean:331 |
| C107 | `Up4.C107_false` | Verif/Props/Showcase.lean:331 |
| C108 | `Up4.C108_granular_partial` | Verif/Props/Heat.lean:427 |
| C108 | `Up4.C108_false` | Verif/Props/Heat.lean:427 |
| C109 | `Up4.C109_dispersion` | Verif/Props/Spread.lean:470 |
| C109 | `Up4.C109_negative` | Verif/Props/Spread.lean:470 |
| C110 | `Up4.C110_numberfield` | Verif/Props/Pooling.lean:460 |
| C110 | `Up4.C110_velocityfield` | Verif/Props/Pooling.lean:460 |
| C110 | `Up4.C110_vectorfield` | Verif/Props/Pooling.lean:460 |
| C110 | `Up4.C110_granular` | Verif/Props/Pooling.lean:460 |
| C110 | `Up4.C110_order` | Verif/Props/Pooling.lean:460 |
| C111 | `Up4.C111_numberfield` | Verif/Props/Pooling.lean:423 |
| C111 | `Up4.C111_velocityfield` | Verif/Props/Pooling.lean:423 |
| C111 | `Up4.C111_vectorfield` | Verif/Props/Pooling.lean:423 |
| C111 | `Up4.C111_windows` | Verif/Props/Pooling.lean:423 |
| C111 | `Up4.C111_window_fields` | Verif/Props/Pooling.lean:423 |
| C112 | `Up4.C112_units` | Verif/Props/Units.lean:238 |
| C113 | `Up4.C113_velocityfield` | Verif/Props/Units.lean:480 |
| C113 | `Up4.C113_vectorfield` | Verif/Props/Units.lean:480 |
| C113 | `Up4.C113_granular` | Verif/Props/Units.lean:480 |
| C114 | `Up4.C114_numberfield_partial` | Verif/Props/Units.lean:569 |
| C114 | `Up4.C114_false` | Verif/Props/Units.lean:569 |
| C115 | `Up4.C115_lengths` | Verif/Cases/Files.lean:171 |
| C115 | `Up4.C115_lookup_partial` | Verif/Props/GridObject.lean:205 (`C115_false`) |
| C115 | `Up4.C115_false` | states a concrete case |
| C116 | `Up4.C116_summary` | Verif/Props/GridObject.lean:524 |
| C116 | `Up4.C116_limits` | Verif/Props/GridObject.lean:269 |
| C117 | `Up4.C117_summary_partial` | Verif/Props/GridObject.lean:545 |
| C117 | `Up4.C117_empty` | Verif/Props/GridObject.lean:461 (`C117_false`) |
| C117 | `Up4.C117_false` | states a concrete case |
| C118 | `Up4.C118_inside` | Verif/Props/GridObject.lean:662 |
| C118 | `Up4.C118_cellId_partial` | Verif/Props/GridObject.lean:662 |
| C118 | `Up4.C118_false` | Verif/Props/GridObject.lean:662 |
| C119 | `Up4.C119_vectorfield` | Verif/Props/ColumnAccuracy.lean:475 |
| C119 | `Up4.C119_velocityfield` | Verif/Props/ColumnAccuracy.lean:475 |
| C120 | `Up4.C120_cellId` | Verif/Cases/Files.lean:174 |
| C120 | `Up4.C120_right_cell` | Verif/Props/LookupAccuracy.lean:303 |
| C120 | `Up4.C120_numberfield` | Verif/Props/LookupAccuracy.lean:306 |
| C121 | `Up4.C121_decimal` | Verif/Props/CsvNumber.lean:473 |
| C121 | `Up4.C121_only` | Verif/Cases/Files.lean:132 |
| C121 | `Up4.C121_accuracy` | Verif/Cases/Files.lean:138 |
| C121 | `Up4.C121_order` | Verif/Cases/Files.lean:150 |
| C121 | `Up4.C121_blank` | Verif/Cases/Files.lean:156 |
| C121 | `Up4.C121_file` | Verif/Props/CsvNumber.lean:717 |
| C121 | `Up4.C121_answers` | Verif/Props/CsvNumber.lean:747 |
| C121 | `Up4.C121_padded` | Verif/Cases/Files.lean:159 |
| C122 | `Up4.C122_quoted_partial` | Verif/Cases/Files.lean:105 |
| C122 | `Up4.C122_header` | Verif/Cases/Files.lean:112 |
| C122 | `Up4.C122_false_doubled` | states a concrete case |
| C123 | `Up4.C123_vtk_whole` | Verif/Props/Whole.lean:112 |
| C123 | `Up4.C123_csv_whole` | Verif/Props/Whole.lean:132 |
| C123 | `Up4.C123_vtk` | Verif/Cases/Files.lean:181 |
| C123 | `Up4.C123_named` | Verif/Cases/Files.lean:194 |
| C123 | `Up4.C123_folder` | Verif/Props/Routes.lean:451 |
| C123 | `Up4.C123_csv` | Verif/Cases/Files.lean:188 |
| C123 | `Up4.C123_files` | Verif/Props/Routes.lean:496 |
| C123 | `Up4.C123_files_whole` | Verif/Props/Sources.lean:350 |
| C124 | `Up4.C124_cartesian` | Verif/Props/Statics.lean:278 |
| C124 | `Up4.C124_cylindrical` | Verif/Props/Statics.lean:250 (`C124_false_order`) |
| C124 | `Up4.C124_data_partial` | Verif/Props/Statics.lean:202 (`C124_false_long`) |
| C124 | `Up4.C124_same` | Verif/Props/Statics.lean:278 |
| C124 | `Up4.C124_false_long` | states a concrete case |
| C124 | `Up4.C124_false_order` | Verif/Props/Statics.lean:271 |
| C125 | `Up4.C125_number_partial` | Verif/Props/LastStep.lean:268 (`C125_witness`) |
| C125 | `Up4.C125_witness` | Verif/Props/LastStep.lean:343 |
| C125 | `Up4.C125_concentration_false` | Verif/Props/LastStep.lean:343 |
| C125 | `Up4.C125_lacey_false` | states a concrete case |
| C125 | `Up4.C125_occupancy_false` | states a concrete case |
| C125 | `Up4.C125_circulation_false` | states a concrete case |
| C125 | `Up4.C125_twoBoundary_false` | states a concrete case |
| C126 | `Up4.C126_dispersion_partial` | Verif/Props/Follow.lean:508 |
| C126 | `Up4.C126_msd_partial` | Verif/Props/Follow.lean:478 |
| C126 | `Up4.C126_vtk` | Verif/Props/Follow.lean:478 |
| C126 | `Up4.C126_dispersion_false` | Verif/Props/Follow.lean:478 |
| C126 | `Up4.C126_msd_false` | Verif/Props/Follow.lean:478 |
| C126 | `Up4.C126_occupancy_false` | Verif/Props/Follow.lean:478 |
| C126 | `Up4.C126_leaving_panics` | Verif/Props/Follow.lean:478 |
| C126 | `Up4.C126_witness` | Verif/Props/Follow.lean:478 |
| C127 | `Up4.C127_components` | Verif/Cases/Analyses.lean:239 |
| C127 | `Up4.C127_energy` | Verif/Props/Consist.lean:229 |
| C127 | `Up4.C127_histogram` | Verif/Cases/Analyses.lean:255 |
| C128 | `Up4.C128_fields_partial` | Verif/Cases/Relations.lean:21 |
| C128 | `Up4.C128_ratios_partial` | Verif/Cases/Relations.lean:21 |
| C128 | `Up4.C128_histogram_partial` | Verif/Cases/Relations.lean:33 |
| C128 | `Up4.C128_circulation_partial` | Verif/Cases/Relations.lean:33 |
| C128 | `Up4.C128_later_partial` | Verif/Cases/Relations.lean:44 |
| C128 | `Up4.C128_lacey_false` | states a concrete case |
| C128 | `Up4.C128_showcase_false` | Verif/Cases/Relations.lean:21 |
| C129 | `Up4.C129_fields_partial` | Verif/Cases/Relations.lean:71 |
| C129 | `Up4.C129_lacey_partial` | Verif/Cases/Relations.lean:71 |
| C129 | `Up4.C129_circulation_partial` | Verif/Cases/Relations.lean:71 |
| C129 | `Up4.C129_twoBoundary_partial` | Verif/Cases/Relations.lean:71 |
| C129 | `Up4.C129_occupancy_partial` | Verif/Cases/Relations.lean:71 |
| C129 | `Up4.C129_origin_partial` | Verif/Cases/Relations.lean:97 |
| C129 | `Up4.C129_unit_false` | Verif/Cases/Relations.lean:57 (`clock_case`) |
| C130 | `Up4.C130_fields_partial` | Verif/Props/Narrow.lean:400 (`narrow_case`) |
| C130 | `Up4.C130_histogram_partial` | Verif/Props/Narrow.lean:400 (`narrow_case`) |
| C130 | `Up4.C130_circulation_partial` | Verif/Props/Narrow.lean:400 (`narrow_case`) |
| C130 | `Up4.C130_settings_partial` | Verif/Props/Narrow.lean:400 (`narrow_case`) |
| C130 | `Up4.C130_false` | states a concrete case |
| C131 | `Up4.C131_mark` | Verif/Props/CsvMark.lean:79 |
| C131 | `Up4.C131_table` | Verif/Props/CsvMark.lean:84 |
| C132 | `Up4.C132_search_partial` | Verif/Props/Compare.lean:850 |
| C132 | `Up4.C132_offsets` | Verif/Props/Compare.lean:531 (`_root_.Up4.C132_units_false`) |
| C132 | `Up4.C132_grids` | Verif/Props/Compare.lean:864 |
| C132 | `Up4.C132_self` | Verif/Props/Compare.lean:850 |
| C132 | `Up4.C132_few` | Verif/Props/Compare.lean:531 (`_root_.Up4.C132_units_false`) |
| C132 | `Up4.C132_kept_false` | Verif/Props/Compare.lean:850 |
| C132 | `Up4.C132_units_false` | Verif/Props/Compare.lean:874 |
| C132 | `Up4.C132_kind` | Verif/Props/Compare.lean:608 |
| C132 | `Up4.C132_small_false` | Verif/Props/Compare.lean:646 |
| C132 | `Up4.C132_fields` | Verif/Props/Compare.lean:904 |
| C133 | `Up4.C133_names` | Verif/Props/Colour.lean:208 |
| C133 | `Up4.C133_bar_partial` | Verif/Props/Colour.lean:170 |
| C133 | `Up4.C133_black` | Verif/Props/Colour.lean:193 |
| C133 | `Up4.C133_maps` | Verif/Props/Colour.lean:193 |
| C133 | `Up4.C133_refused` | Verif/Props/Colour.lean:208 |
| C133 | `Up4.C133_false` | states a concrete case |
| C134 | `Up4.C134_harmless_partial` | Verif/Props/Failure.lean:651 |
| C134 | `Up4.C134_reads` | Verif/Props/Failure.lean:713 |
| C134 | `Up4.C134_time_false` | Verif/Props/Failure.lean:718 |
| C134 | `Up4.C134_particle_false` | Verif/Props/Failure.lean:718 |
| C135 | `Up4.C135_counts` | Verif/Props/Axes.lean:411 |
| C135 | `Up4.C135_velocities` | Verif/Props/Axes.lean:419 |
| C135 | `Up4.C135_circulation` | Verif/Props/Axes.lean:426 |
| C136 | `Up4.C136_answers_partial` | Verif/Props/Answers.lean:592 |
| C136 | `Up4.C136_csv_partial` | Verif/Props/AnswersConverted.lean:197 |
| C136 | `Up4.C136_vtk_partial` | Verif/Props/AnswersConverted.lean:171 |
| C136 | `Up4.C136_short_false` | Verif/Props/Answers.lean:623 |
| C136 | `Up4.C136_types_false` | Verif/Props/Answers.lean:627 |
| C137 | `Up4.C137_text` | Verif/Props/Info.lean:345 |
| C137 | `Up4.C137_session` | Verif/Props/Info.lean:358 |
| C137 | `Up4.C137_vtk` | Verif/Props/Info.lean:382 |
| C138 | `Up4.C138_velocityfield` | Verif/Props/Drift.lean:198 |
| C138 | `Up4.C138_vectorfield` | Verif/Props/Drift.lean:198 |
| C138 | `Up4.C138_granular` | Verif/Props/Drift.lean:198 |
| C139 | `Up4.C139_mirror_partial` | Verif/Props/Mirror.lean:421 |
| C139 | `Up4.C139_false` | Verif/Props/Mirror.lean:457 |
| C140 | `Up4.C140_exact` | Verif/Props/SaveFig.lean:93 |
| C140 | `Up4.C140_rounded` | Verif/Props/SaveFig.lean:233 |
| C140 | `Up4.C140_margins` | Verif/Props/SaveFig.lean:253 |
| C141 | `Up4.C141_lookup` | Verif/Props/GridCalls.lean:383 |
| C141 | `Up4.C141_history` | Verif/Props/GridCalls.lean:355 |
| C141 | `Up4.C141_arrays` | Verif/Props/GridCalls.lean:359 |
| C141 | `Up4.C141_slices` | Verif/Props/GridCalls.lean:365 |
| C141 | `Up4.C141_averages` | Verif/Props/GridCalls.lean:376 |
| C141 | `Up4.C141_outliers` | Verif/Props/GridCalls.lean:380 |
| C141 | `Up4.C141_vectors` | Verif/Props/GridCalls.lean:390 |
| C142 | `Up4.C142_cells` | Verif/Props/OccupancyAccuracy.lean:733 |
| C142 | `Up4.C142_total` | Verif/Props/OccupancyAccuracy.lean:743 |
| C143 | `Up4.C143_recorded` | Verif/Props/Recorded.lean:197 |
| C143 | `Up4.C143_sequence` | Verif/Props/Recorded.lean:197 |
| C143 | `Up4.C143_exists` | Verif/Props/Recorded.lean:197 |
| C144 | `Up4.C144_velocity` | Verif/Props/Totals.lean:255 |
| C144 | `Up4.C144_vector` | Verif/Props/Totals.lean:255 |
| C144 | `Up4.C144_grids` | Verif/Props/Totals.lean:255 |
| C144 | `Up4.C144_showcase` | Verif/Props/Totals.lean:255 |
| C144 | `Up4.C144_energy` | Verif/Props/Totals.lean:255 |
| C145 | `Up4.C145_vtk` | Verif/Props/RecordedAccuracy.lean:224 |
| C145 | `Up4.C145_trajectory` | Verif/Props/RecordedAccuracy.lean:276 |
| C145 | `Up4.C145_steps` | Verif/Props/RecordedAccuracy.lean:307 |
| C145 | `Up4.C145_mean_velocity` | Verif/Props/RecordedAccuracy.lean:224 |
| C146 | `Up4.C146_csv` | Verif/Props/Options.lean:415 |
| C146 | `Up4.C146_multi` | Verif/Props/Options.lean:400 |
| C146 | `Up4.C146_files_partial` | Verif/Props/Options.lean:450 |
| C146 | `Up4.C146_false` | Verif/Props/Options.lean:450 |
| C147 | `Up4.C147_vtk_partial` | Verif/Props/Wraps.lean:537 |
| C147 | `Up4.C147_csv_partial` | Verif/Props/Wraps.lean:554 |
| C147 | `Up4.C147_cylinder_partial` | Verif/Props/Wraps.lean:436 (`C147_cylinder_false`) |
| C147 | `Up4.C147_false` | states a concrete case |
| C147 | `Up4.C147_cylinder_false` | states a concrete case |
| C148 | `Up4.C148_extract` | Verif/Props/Trips.lean:163 (`C148_zero_false`) |
| C148 | `Up4.C148_roundtrip_partial` | Verif/Props/Trips.lean:274 |
| C148 | `Up4.C148_zero_false` | Verif/Props/Trips.lean:295 |
| C148 | `Up4.C148_last_false` | Verif/Props/Trips.lean:303 |
| C149 | `Up4.C149_csv` | Verif/Props/Listing.lean:429 |
| C149 | `Up4.C149_vtk` | Verif/Props/Listing.lean:439 |
| C149 | `Up4.C149_idline` | Verif/Props/Listing.lean:446 |
| C150 | `Up4.C150_reading` | Verif/Props/Reading.lean:178 |
| C151 | `Up4.C151_vtk_files` | Verif/Props/Sources.lean:327 |
| C151 | `Up4.C151_lines` | Verif/Props/Sources.lean:350 |
| C151 | `Up4.C151_trajectory` | Verif/Props/Sources.lean:374 |
| C151 | `Up4.C123_files_whole` | Verif/Props/Sources.lean:350 |
| C152 | `Up4.C152_msd_partial` | Verif/Props/MsdAccuracy.lean:419 |
| C153 | `Up4.C153_index_partial` | Verif/Props/HomAccuracy.lean:596 |
| C154 | `Up4.C154_rows` | Verif/Props/RadiusPick.lean:300 |
| C154 | `Up4.C154_csv` | Verif/Props/RadiusPick.lean:300 |
| C154 | `Up4.C154_multi` | Verif/Props/RadiusPick.lean:346 |
| C154 | `Up4.C154_files_partial` | Verif/Props/RadiusPick.lean:269 (`C154_files_false`) |
| C154 | `Up4.C154_files_false` | Verif/Props/RadiusPick.lean:391 |
| C155 | `Up4.C155_text` | Verif/Props/StatsText.lean:218 |
| C155 | `Up4.C155_faithful` | Verif/Props/StatsText.lean:218 |
| C155 | `Up4.C155_session` | Verif/Props/StatsText.lean:231 |
| C156 | `Up4.C156_lacey` | Verif/Props/LaceyAccuracy.lean:650 |
| C157 | `Up4.C157_histogram_partial` | Verif/Props/HistAccuracy.lean:515 |
| C157 | `Up4.C39_false` | states a concrete case |
| C158 | `Up4.C158_pool` | Verif/Props/HistPool.lean:55 |
| C158 | `Up4.C158_windows` | Verif/Props/HistPool.lean:55 |
| C158 | `Up4.C158_same` | Verif/Props/HistPool.lean:80 |
| C158 | `Up4.C158_refine` | Verif/Props/HistPool.lean:188 |
| C159 | `Up4.C159_lacey` | Verif/Props/LaceyThreshold.lean:143 |
| C160 | `Up4.C160_length` | Verif/Props/HistUnits.lean:108 |
| C160 | `Up4.C160_velocity` | Verif/Props/HistUnits.lean:122 |
