{
 "claims": [
  {
   "property": "C01",
   "status": "proved",
   "theorems": [
    "Up4.C01_cellId_inBounds"
   ],
   "note": "any lawful rounding, both profiles; cells between 1 and 2^53 per axis"
  },
  {
   "property": "C02",
   "status": "proved",
   "theorems": [
    "Up4.C02_isInside_iff",
    "Up4.C02_isInside_fin"
   ],
   "note": ""
  },
  {
   "property": "C03",
   "status": "proved",
   "theorems": [
    "Up4.C03_cellId_mono",
    "Up4.C03_cellId_axis",
    "Up4.C03_cellId_ends"
   ],
   "note": "any lawful rounding; the upper end needs max-min to be a positive finite f64"
  },
  {
   "property": "C04",
   "status": "partial",
   "theorems": [
    "Up4.C04_centre_roundtrip_partial",
    "Up4.C04_centre_index",
    "Up4.C04_centre_lookup",
    "Up4.C04_false"
   ],
   "note": "False of the code: the lookup scales by n-1 while the centres are spaced by 1/n. Proved: exact characterisation (i for 2i+1<=n, else i-1), the round trip for the lower half, and a counterexample in every lawful arithmetic."
  },
  {
   "property": "C05",
   "status": "proved",
   "theorems": [
    "Up4.C05_centres"
   ],
   "note": "exact arithmetic"
  },
  {
   "property": "C06",
   "status": "proved",
   "theorems": [
    "Up4.C06_addValue"
   ],
   "note": "Cartesian grids; any lawful rounding, both profiles"
  },
  {
   "property": "C07",
   "status": "proved",
   "theorems": [
    "Up4.C07_history"
   ],
   "note": "any lawful rounding, up to 2^53 calls"
  },
  {
   "property": "C08",
   "status": "proved",
   "theorems": [
    "Up4.C08_mean"
   ],
   "note": "exact arithmetic"
  },
  {
   "property": "C09",
   "status": "proved",
   "theorems": [
    "Up4.C09_insert_get"
   ],
   "note": "any lawful rounding"
  },
  {
   "property": "C10",
   "status": "proved",
   "theorems": [
    "Up4.C10_weights_perm",
    "Up4.C10_data_perm"
   ],
   "note": ""
  },
  {
   "property": "C11",
   "status": "partial",
   "theorems": [
    "Up4.C11_newZeros_partial",
    "Up4.C11_weights_kept",
    "Up4.C11_false"
   ],
   "note": "False of the code: weights are copied. Proved: geometry and data part; weights zero only if they were; counterexample."
  },
  {
   "property": "C12",
   "status": "proved",
   "theorems": [
    "Up4.C12_collapse",
    "Up4.C12_nan_ignored",
    "Up4.C12_collapseWeight"
   ],
   "note": "exact arithmetic; a NaN cell counts as value 0 with its weight"
  },
  {
   "property": "C13",
   "status": "proved",
   "theorems": [
    "Up4.C13_collapseTwo",
    "Up4.C13_collapseTwoWeight",
    "Up4.C13_equal_axes"
   ],
   "note": "exact arithmetic"
  },
  {
   "property": "C14",
   "status": "partial",
   "theorems": [
    "Up4.C14_slice_partial",
    "Up4.C14_sliceIdx",
    "Up4.C14_upper_limit_panics",
    "Up4.C14_slice_some_plane",
    "Up4.C14_false"
   ],
   "note": "False of the code: slice scales by n while cell_id scales by n-1, and the upper limit panics. Proved: the plane of the n equal intervals for lo<=x<hi, and counterexamples."
  },
  {
   "property": "C15",
   "status": "proved",
   "theorems": [
    "Up4.C15_clamp",
    "Up4.C15_bounded_idempotent",
    "Up4.C15_mode0_idempotent",
    "Up4.C15_unknown_mode"
   ],
   "note": "any arithmetic, both profiles"
  },
  {
   "property": "C16",
   "status": "partial",
   "theorems": [
    "Up4.C16_neighbour_mean_partial",
    "Up4.C16_debug_panics",
    "Up4.C16_cyl_false",
    "Up4.neighbours_explicit"
   ],
   "note": "Proved for Cartesian grids (release builds, and debug builds without outliers on a lower face). False for debug builds with an outlier on a lower face, and for cylindrical grids."
  },
  {
   "property": "C17",
   "status": "proved",
   "theorems": [
    "Up4.C17_shape",
    "Up4.C17_set",
    "Up4.C17_broadcast_breaks_shape"
   ],
   "note": "divide_by_array with an array of the grid's shape; the broadcast theorem shows the restriction is needed"
  },
  {
   "property": "C18",
   "status": "proved",
   "theorems": [
    "Up4.C18_trajectory_cells",
    "Up4.C18_trajectory_totals"
   ],
   "note": "cells: any lawful rounding; totals: exact arithmetic"
  },
  {
   "property": "C19",
   "status": "proved",
   "theorems": [
    "Up4.C19_shells"
   ],
   "note": "exact arithmetic"
  },
  {
   "property": "C20",
   "status": "partial",
   "theorems": [
    "Up4.C20_lookup",
    "Up4.C20_lookup_rounded_partial",
    "Up4.C20_beyond_panics",
    "Up4.C20_never_err",
    "Up4.C20_false"
   ],
   "note": "Proved in exact arithmetic; under rounding only for radii not beyond the last computed shell, and C20_false exhibits a binary64 grid where an inside position panics"
  },
  {
   "property": "C21",
   "status": "partial",
   "theorems": [
    "Up4.C21_cell_partial",
    "Up4.C21_upper_half",
    "Up4.C21_lower_half",
    "Up4.C21_false"
   ],
   "note": "Radial part proved; angular and height parts false in the lower half of each cell but the first"
  },
  {
   "property": "C22",
   "status": "partial",
   "theorems": [
    "Up4.C22_radially_outside_panics",
    "Up4.C22_axially_outside_recorded"
   ],
   "note": "False of the code: exact description of what happens instead. Nothing of the positive claim holds for cylindrical grids."
  },
  {
   "property": "C23",
   "status": "partial",
   "theorems": [
    "Up4.C23_cartesian",
    "Up4.C23_cylinder_partial",
    "Up4.C23_false"
   ],
   "note": "Cartesian grids: proved. Cylindrical: proved in exact arithmetic when the axis is the z axis; false for off-origin grids"
  },
  {
   "property": "C24",
   "status": "proved",
   "theorems": [
    "Up4.C24_history",
    "Up4.C24_componentwise",
    "Up4.C24_panics",
    "Up4.C24_newZeros"
   ],
   "note": ""
  },
  {
   "property": "C25",
   "status": "proved",
   "theorems": [
    "Up4.C25_default_accepts",
    "Up4.C25_default_time",
    "Up4.C25_default_time_b64"
   ],
   "note": ""
  },
  {
   "property": "C26",
   "status": "partial",
   "theorems": [
    "Up4.C26_radius",
    "Up4.C26_particleid",
    "Up4.C26_cloud_partial",
    "Up4.C26_density_partial",
    "Up4.C26_valid_partial",
    "Up4.C26_cloud_false",
    "Up4.C26_density_false",
    "Up4.C26_id_zero_false",
    "Up4.C26_empty_panics"
   ],
   "note": "Radius and particle id: proved (id 0 switches the filter off). Clouds and density: false in general, proved under the stated conditions"
  },
  {
   "property": "C27",
   "status": "proved",
   "theorems": [
    "Up4.C27_window",
    "Up4.C27_nan",
    "Up4.C27_attributes_kept"
   ],
   "note": ""
  },
  {
   "property": "C28",
   "status": "proved",
   "theorems": [
    "Up4.C28_transparent"
   ],
   "note": "both managers, both profiles, any lawful rounding, 1..2^50 timesteps"
  },
  {
   "property": "C29",
   "status": "partial",
   "theorems": [
    "Up4.C29_small",
    "Up4.C29_tdata_forward_partial",
    "Up4.C29_pdata_false",
    "Up4.C29_tdata_false"
   ],
   "note": "Proved for every history on datasets of up to 20000 timesteps (both managers) and for forward look-ahead on larger ones (timestep-based manager); false otherwise, with counterexamples in both profiles"
  },
  {
   "property": "C30",
   "status": "proved",
   "theorems": [
    "Up4.C30_no_interference",
    "Up4.C30_setup"
   ],
   "note": "both managers, both profiles, any history"
  },
  {
   "property": "C31",
   "status": "proved",
   "theorems": [
    "Up4.C31_extract",
    "Up4.C31_reject",
    "Up4.C31_backwards"
   ],
   "note": "both managers, both profiles, any prior history"
  },
  {
   "property": "C32",
   "status": "proved",
   "theorems": [
    "Up4.C32_search",
    "Up4.C32_monotone",
    "Up4.C32_empty_panics"
   ],
   "note": ""
  },
  {
   "property": "C33",
   "status": "partial",
   "theorems": [
    "Up4.C33_recorded_partial",
    "Up4.C33_false",
    "Up4.C33_tolerance_false"
   ],
   "note": "False of the code: the search stops at any probe within 0.01 s, and otherwise at its last probe. Proved: the right index for a recorded time when timesteps are more than 0.01 s apart; counterexamples in every lawful arithmetic"
  },
  {
   "property": "C34",
   "status": "proved",
   "theorems": [
    "Up4.C34_numberfield"
   ],
   "note": "both managers and profiles, any lawful rounding for Cartesian grids, exact arithmetic for cylindrical ones"
  },
  {
   "property": "C35",
   "status": "proved",
   "theorems": [
    "Up4.C35_velocityfield",
    "Up4.C35_modes",
    "Up4.C35_mean"
   ],
   "note": "grid without previous contents; the mean is between the least and greatest value in exact arithmetic"
  },
  {
   "property": "C36",
   "status": "proved",
   "theorems": [
    "Up4.C36_vectorfield",
    "Up4.C36_mean"
   ],
   "note": "grid without previous contents"
  },
  {
   "property": "C58",
   "status": "partial",
   "theorems": [
    "Up4.C58_numberfield",
    "Up4.C58_false"
   ],
   "note": "Proved for numberfield; false for velocityfield and vectorfield, which keep the old weights"
  },
  {
   "property": "C39",
   "status": "partial",
   "theorems": [
    "Up4.C39_histogram_partial",
    "Up4.C39_total_partial",
    "Up4.C39_false"
   ],
   "note": "Proved in exact arithmetic: equal-width edges, bin k counts exactly [edge k, edge k+1), bin 0 without lower end. False of the code: a speed equal to the highest edge is dropped and speeds below the lowest edge are counted in bin 0"
  },
  {
   "property": "C40",
   "status": "proved",
   "theorems": [
    "Up4.C40_granular",
    "Up4.C40_unknown_mode"
   ],
   "note": "exact arithmetic, grid with zero data, finite velocities"
  },
  {
   "property": "C43",
   "status": "proved",
   "theorems": [
    "Up4.C43_concentration",
    "Up4.C43_swap"
   ],
   "note": "any lawful rounding for the quotient and the range; exact arithmetic for the swap"
  },
  {
   "property": "C37",
   "status": "proved",
   "theorems": [
    "Up4.C37_occupancy",
    "Up4.C37_cells"
   ],
   "note": "exact arithmetic, timesteps 0 to n-4, counted samples taking up some time"
  },
  {
   "property": "C38",
   "status": "proved",
   "theorems": [
    "Up4.C38_dispersion"
   ],
   "note": "exact arithmetic, grid with zero data"
  },
  {
   "property": "C41",
   "status": "partial",
   "theorems": [
    "Up4.C41_sd_partial",
    "Up4.C41_index",
    "Up4.C41_false"
   ],
   "note": "Proved when every layer was visited; in general the exact value is C41_index, and C41_false shows that it is no standard deviation when a layer is unvisited"
  },
  {
   "property": "C44",
   "status": "partial",
   "theorems": [
    "Up4.C44_msd_partial",
    "Up4.C44_false"
   ],
   "note": "False of the code: the square of the summed distance is divided by the count. Proved: the exact value, equal to the claim for cells with one sample; counterexample"
  },
  {
   "property": "C42",
   "status": "partial",
   "theorems": [
    "Up4.C42_lacey_partial",
    "Up4.C42_value",
    "Up4.C42_empty_panics",
    "Up4.C42_false"
   ],
   "note": "Exact value proved for every dataset, including one entry per timestep but the last; the bounds and the perfect-mixing value 1 are false of the code (C42_false), proved is what remains"
  },
  {
   "property": "C45",
   "status": "partial",
   "theorems": [
    "Up4.C45_circulation_partial",
    "Up4.C45_values",
    "Up4.C45_reject",
    "Up4.C45_false"
   ],
   "note": "Proved: every reported value is the time between a crossing and the second next one of the same particle, non-negative for increasing times, and exactly which triples are reported. False of the code: that every circulation is reported (each third crossing starts afresh)"
  },
  {
   "property": "C46",
   "status": "proved",
   "theorems": [
    "Up4.C46_intervals",
    "Up4.C46_laps",
    "Up4.C46_reject"
   ],
   "note": "any lawful arithmetic, both managers, both profiles"
  },
  {
   "property": "C47",
   "status": "proved",
   "theorems": [
    "Up4.C47_turn",
    "Up4.C47_isometry"
   ],
   "note": "exact arithmetic"
  },
  {
   "property": "C48",
   "status": "partial",
   "theorems": [
    "Up4.C48_history",
    "Up4.C48_reject",
    "Up4.C48_false"
   ],
   "note": "Proved for whole axis numbers, with integers above 2 rejected. False of the code for negative, fractional and NaN axes, which the cast to usize silently maps to an axis"
  },
  {
   "property": "C49",
   "status": "proved",
   "theorems": [
    "Up4.C49_sortlist",
    "Up4.C49_scalars",
    "Up4.C49_vectors"
   ],
   "note": "the library's stable sort is modelled by core Lean's stable mergeSort"
  },
  {
   "property": "C50",
   "status": "proved",
   "theorems": [
    "Up4.C50_sort",
    "Up4.C50_nan",
    "Up4.C50_isSorted"
   ],
   "note": "any arithmetic; the library's stable sort is modelled by core Lean's stable mergeSort"
  },
  {
   "property": "C51",
   "status": "partial",
   "theorems": [
    "Up4.C51_table_partial",
    "Up4.C51_nearest_partial",
    "Up4.C51_reject",
    "Up4.C51_false"
   ],
   "note": "Proved: shape, end rows, times and the linear form for every table; which rows are used when at most two middles between rows are passed per step. False for denser input, where the scan lags (C51_false)"
  },
  {
   "property": "C52",
   "status": "proved",
   "theorems": [
    "Up4.C52_uniform"
   ],
   "note": "exact arithmetic, any sorted times"
  },
  {
   "property": "C53",
   "status": "partial",
   "theorems": [
    "Up4.C53_rows_partial",
    "Up4.C53_derivative_partial",
    "Up4.C53_linear_partial",
    "Up4.C53_motion_partial",
    "Up4.C53_uniform",
    "Up4.C53_even",
    "Up4.C53_one_panics",
    "Up4.C53_false"
   ],
   "note": "Rows aligned: proved. The velocity is the derivative of the fit at the time of the next row, not at the row's own: C53_false; equal for uniform motion (C53_uniform, for every least-squares fit). polyfit is a parameter of the model"
  },
  {
   "property": "C54",
   "status": "partial",
   "theorems": [
    "Up4.C54_minmax_partial",
    "Up4.C54_false"
   ],
   "note": "Proved for every array with a finite value; false for [inf]"
  },
  {
   "property": "C55",
   "status": "proved",
   "theorems": [
    "Up4.C55_meshgrid",
    "Up4.C55_meshgrid3",
    "Up4.C55_flatten2",
    "Up4.C55_flatten3"
   ],
   "note": "any element values"
  },
  {
   "property": "C56",
   "status": "proved",
   "theorems": [
    "Up4.C56_skip",
    "Up4.C56_value",
    "Up4.C56_none"
   ],
   "note": "values in exact arithmetic for finite entries"
  },
  {
   "property": "C57",
   "status": "partial",
   "theorems": [
    "Up4.C57_threshold_partial",
    "Up4.C57_nonzero_partial",
    "Up4.C57_reject",
    "Up4.C57_false"
   ],
   "note": "Proved for fields without zeros; exact outcome in general; false with empty cells"
  },
  {
   "property": "C59",
   "status": "proved",
   "theorems": [
    "Up4.C59_stored",
    "Up4.C59_reject"
   ],
   "note": "HDF5 library not modelled: a file is the collection of its datasets"
  },
  {
   "property": "C60",
   "status": "partial",
   "theorems": [
    "Up4.C60_tdata_partial",
    "Up4.C60_pdata_partial",
    "Up4.C60_pdata_value",
    "Up4.C60_pdata_panics",
    "Up4.C60_false"
   ],
   "note": "Proved for time-based files and particle-based files with one particle; what the one-particle read returns is C60_pdata_value (a missing density becomes the radius); with two or more particles it always panics (C60_pdata_panics, C60_false)"
  },
  {
   "property": "C61",
   "status": "proved",
   "theorems": [
    "Up4.C61_roundtrip"
   ],
   "note": "parsing of VTK text not modelled"
  },
  {
   "property": "C62",
   "status": "proved",
   "theorems": [
    "Up4.C62_times",
    "Up4.C62_options"
   ],
   "note": ""
  },
  {
   "property": "C63",
   "status": "partial",
   "theorems": [
    "Up4.C63_limits_partial",
    "Up4.C63_false"
   ],
   "note": "Lower limits proved; the upper limit misses values below all earlier ones (C63_false)"
  },
  {
   "property": "C64",
   "status": "partial",
   "theorems": [
    "Up4.C64_velocity_partial"
   ],
   "note": "Means and minima proved; the maxima have the flaw of C63_false"
  },
  {
   "property": "C65",
   "status": "proved",
   "theorems": [
    "Up4.C65_csv",
    "Up4.C65_all",
    "Up4.C65_false"
   ],
   "note": "exact characterisation for any table without NaN times; C65_false records that a row at time 0 is dropped"
  },
  {
   "property": "C66",
   "status": "proved",
   "theorems": [
    "Up4.C66_reject",
    "Up4.C66_velocity",
    "Up4.C66_interpolated"
   ],
   "note": "polyfit is a parameter of the model"
  },
  {
   "property": "C67",
   "status": "partial",
   "theorems": [
    "Up4.C67_recorded_partial",
    "Up4.C67_false"
   ],
   "note": "all but the sample rate, which is always 0 (C67_false), and maxima below all earlier values"
  },
  {
   "property": "C68",
   "status": "partial",
   "theorems": [
    "Up4.C68_chain_partial",
    "Up4.C68_velocity_partial",
    "Up4.C68_interpolated_partial",
    "Up4.C68_read_partial",
    "Up4.C68_false"
   ],
   "note": "Exact outcome proved; the last trajectory is never converted (C68_false), short ones are skipped, only the first can be read"
  },
  {
   "property": "C69",
   "status": "partial",
   "theorems": [
    "Up4.C69_velocity_partial",
    "Up4.C69_interpolated_partial",
    "Up4.C69_reject",
    "Up4.C69_byId",
    "Up4.C69_idline_partial",
    "Up4.C69_read_partial",
    "Up4.C69_false"
   ],
   "note": "Grouping and order proved; only the particle with the smallest id can be read back (C69_false)"
  },
  {
   "property": "C70",
   "status": "proved",
   "theorems": [
    "Up4.C70_files",
    "Up4.C70_reject"
   ],
   "note": "text parsing and HDF5 library not modelled"
  },
  {
   "property": "C71",
   "status": "partial",
   "theorems": [
    "Up4.C71_recorded_partial",
    "Up4.C71_false"
   ],
   "note": "All but the number of particles, which is that of the last file (C71_false), and maxima below all earlier values"
  },
  {
   "property": "C72",
   "status": "partial",
   "theorems": [
    "Up4.C72_rows_partial",
    "Up4.C72_agrees_partial",
    "Up4.C72_reject",
    "Up4.C72_interpolated_panics",
    "Up4.C72_false"
   ],
   "note": "Equal to the sequential computation for 7 sampling steps (C72_agrees_partial); with the 9 the converter uses the windows and the number of rows differ (C72_false), and an interpolated long trajectory panics"
  },
  {
   "property": "C73",
   "status": "proved",
   "theorems": [
    "Up4.C73_items"
   ],
   "note": "For all sequences of in-range integers, lists and dividing slices, both kinds of file and both profiles"
  },
  {
   "property": "C74",
   "status": "partial",
   "theorems": [
    "Up4.C73_items",
    "Up4.C74_undivided_panics",
    "Up4.C74_backward_zeros",
    "Up4.C74_empty_panics",
    "Up4.C74_false"
   ],
   "note": "Proved for positive steps that divide the length (part of C73_items); other positive steps panic (C74_undivided_panics), empty slices panic, negative steps give zeros (C74_backward_zeros, C74_false)"
  },
  {
   "property": "C75",
   "status": "partial",
   "theorems": [
    "Up4.C75_outside_partial",
    "Up4.C75_false"
   ],
   "note": "Refused in debug builds and for particle-based files if |i| is beyond the length; i = len(data) silently gives timestep 0 (C75_false), as do all outside indices of time-based files in release builds"
  },
  {
   "property": "C76",
   "status": "partial",
   "theorems": [
    "Up4.C76_arrows_partial",
    "Up4.C76_axis1",
    "Up4.C76_axis1_panics",
    "Up4.C76_false"
   ],
   "note": "All planes and depth averages except the depth average along axis 1, which uses the y positions as abscissae (C76_axis1, C76_false) or panics (C76_axis1_panics)"
  },
  {
   "property": "C77",
   "status": "partial",
   "theorems": [
    "Up4.C77_max",
    "Up4.C77_min_partial",
    "Up4.C77_minmax_partial",
    "Up4.C77_zero"
   ],
   "note": "max in full; min and minmax for non-zero vectors (zero vectors become NaN, C77_zero); not for the depth average along axis 1 (C76)"
  },
  {
   "property": "C78",
   "status": "partial",
   "theorems": [
    "Up4.C78_half_partial",
    "Up4.C78_full_partial",
    "Up4.C78_false",
    "Up4.C78_one_layer_panics"
   ],
   "note": "Width and height bounds always; directions only if the cells are square (C78_false); a plane with a single row of cells panics"
  },
  {
   "property": "C79",
   "status": "partial",
   "theorems": [
    "Up4.C79_colours_partial",
    "Up4.C79_uniform"
   ],
   "note": "For planes in which not all speeds are equal; otherwise all colours are NaN (C79_uniform)"
  },
  {
   "property": "C80",
   "status": "proved",
   "theorems": [
    "Up4.C80_heads",
    "Up4.turned_length"
   ],
   "note": "Real arithmetic; every scaling mode; planes and depth averages as in C76"
  },
  {
   "property": "C81",
   "status": "partial",
   "theorems": [
    "Up4.C81_unit_partial",
    "Up4.C81_false"
   ],
   "note": "Background always; equal lengths and directions only if the cells are square (C81_false); zero vectors have no arrow"
  },
  {
   "property": "C82",
   "status": "proved",
   "theorems": [
    "Up4.C82_scalar_map"
   ],
   "note": "Scalar and vector grids, exact arithmetic"
  },
  {
   "property": "C83",
   "status": "proved",
   "theorems": [
    "Up4.C83_contour"
   ],
   "note": "Scalar and vector grids, exact arithmetic"
  },
  {
   "property": "C84",
   "status": "partial",
   "theorems": [
    "Up4.C84_parity",
    "Up4.C84_parity_vector_partial",
    "Up4.C84_false",
    "Up4.C84_shapes_false"
   ],
   "note": "Scalar grids with the same cells in full; for vector grids the line does not reach over all points (C84_false); grids of different shapes are not refused (C84_shapes_false)"
  },
  {
   "property": "C85",
   "status": "partial",
   "theorems": [
    "Up4.C85_parity_map_partial",
    "Up4.C85_axis1",
    "Up4.C85_false"
   ],
   "note": "Axes 0 and 2; for axis 1 the positions are those of another axis (C85_false)"
  },
  {
   "property": "C86",
   "status": "partial",
   "theorems": [
    "Up4.C86_quiver",
    "Up4.C86_unit_partial",
    "Up4.C86_unit_false"
   ],
   "note": "Quiver plots in full; unit vector plots except mode max, which is refused with max_size and panics with min_size only (C86_unit_false)"
  },
  {
   "property": "C87",
   "status": "partial",
   "theorems": [
    "Up4.C87_curve_partial",
    "Up4.C87_false"
   ],
   "note": "Delays proved; the entries are sums over cells of squares of summed displacements, not means (C87_false)"
  },
  {
   "property": "C88",
   "status": "proved",
   "theorems": [
    "Up4.C88_history",
    "Up4.C88_forget"
   ],
   "note": "Calls before must have returned; item indices within range; at least three timesteps for occupancy and homogeneity; rotation is not exposed to Python"
  },
  {
   "property": "C89",
   "status": "partial",
   "theorems": [
    "Up4.C89_mean_partial",
    "Up4.C89_false"
   ],
   "note": "With VTK conversion the answer is the mean speed over the whole file; the time window set by the user is ignored (C89_false). The CSV case is C91_means"
  },
  {
   "property": "C90",
   "status": "proved",
   "theorems": [
    "Up4.C90_numberfield",
    "Up4.C90_vectorfield",
    "Up4.C90_attributes",
    "Up4.C90_extent",
    "Up4.onDisk_update"
   ],
   "note": "Earlier calls must have returned; unmodified conversion options; vectorfield over exact arithmetic on cartesian grids"
  },
  {
   "property": "C91",
   "status": "proved",
   "theorems": [
    "Up4.C91_rows",
    "Up4.C91_means",
    "Up4.C91_csv",
    "Up4.C91_extent"
   ],
   "note": "Rows with strictly increasing positive times; earlier calls must have returned; vectorfield over exact arithmetic on cartesian grids"
  },
  {
   "property": "C92",
   "status": "partial",
   "theorems": [
    "Up4.C92_grid_partial",
    "Up4.C92_accepts",
    "Up4.C92_fit",
    "Up4.C92_false_negative",
    "Up4.C92_false_float",
    "Up4.C92_false_extent",
    "Up4.C92_false_empty"
   ],
   "note": "False: negative coordinates in limits are refused (the same box by xlim/ylim/zlim is accepted); a Cartesian grid with data, limits and cell_size always raises; a cylindrical one takes the cell count from the data instead of the limits; a too large cell size gives a grid without cells that loses all values"
  },
  {
   "property": "C93",
   "status": "proved",
   "theorems": [
    "Up4.C93_plot",
    "Up4.C93_axis"
   ],
   "note": "Over exact arithmetic, weights finite and nonnegative; rendering is not modelled"
  },
  {
   "property": "C94",
   "status": "proved",
   "theorems": [
    "Up4.C94_vtk",
    "Up4.C94_csv",
    "Up4.C94_chain",
    "Up4.C94_id",
    "Up4.C94_files",
    "Up4.C94_load_time",
    "Up4.C94_load_particle",
    "Up4.C94_vtk_exactly",
    "Up4.C94_csv_exactly",
    "Up4.C94_keeps_false"
   ],
   "note": "Writes are assumed to reach the disk in program order (the cache of the HDF5 library is not modelled). Not claimed, and false: that the earlier file survives a refused conversion (C94_keeps_false)"
  },
  {
   "property": "C95",
   "status": "partial",
   "theorems": [
    "Up4.C95_step_partial",
    "Up4.C95_false"
   ],
   "note": "Proved if no digit in the path before is followed by one character and the extension letters; false for names like run7/vtk_100.vtk, where the dot of the pattern matches '/' (C95_false)"
  },
  {
   "property": "C96",
   "status": "partial",
   "theorems": [
    "Up4.C96_folder_partial",
    "Up4.C96_order",
    "Up4.C96_false_xml",
    "Up4.C96_false_box"
   ],
   "note": "Proved for legacy .vtk files; natord's order is a parameter. False: folders of .vtu/.vtp files are refused because the extension tested is always .vtk; folders with boundingBox in their path are refused"
  },
  {
   "property": "C97",
   "status": "partial",
   "theorems": [
    "Up4.C97_files",
    "Up4.C97_missing",
    "Up4.C97_shape_false"
   ],
   "note": "Complete reading and refusal of missing fields proved; a scalar field in the place of the velocity is accepted if the number of particles is divisible by three (C97_shape_false)"
  },
  {
   "property": "C98",
   "status": "partial",
   "theorems": [
    "Up4.C98_silent_partial",
    "Up4.C98_methods",
    "Up4.C98_false"
   ],
   "note": "Characterised exactly when nothing happens; false for filters without an extension and for the default method of csv_multi"
  },
  {
   "property": "C99",
   "status": "proved",
   "theorems": [
    "Up4.C99_vectorfield",
    "Up4.C99_velocityfield"
   ],
   "note": "Over exact arithmetic; vectorfield on Cartesian grids; axes 0, 1, 2"
  },
  {
   "property": "C100",
   "status": "partial",
   "theorems": [
    "Up4.C100_counts_partial",
    "Up4.C100_false"
   ],
   "note": "False: the counts weight themselves, so the depth average is the sum of squared counts over the sum of counts, never below the mean and equal to it only for columns of equal counts"
  },
  {
   "property": "C101",
   "status": "proved",
   "theorems": [
    "Up4.C101_table",
    "Up4.C101_returns"
   ],
   "note": "The parsing of a single number is a parameter (C121 models it); quoted cells are in C122; carriage returns alone as line ends in C101_returns (without comments, which extend to a newline); a comment in an unterminated last line is ignored only if the version of the csv crate does so"
  },
  {
   "property": "C102",
   "status": "proved",
   "theorems": [
    "Up4.C102_refused"
   ],
   "note": "As for C101"
  },
  {
   "property": "C103",
   "status": "partial",
   "theorems": [
    "Up4.C103_files_partial",
    "Up4.C103_false_csv",
    "Up4.C103_false_multi"
   ],
   "note": "csv_multi_files converts with its defaults (velocities NaN). False: csv with default arguments always raises (no velocity columns and no velocity computation); csv_multi has quotation marks as default delimiter and comment and raises on every comma-separated file, and with the default method does nothing (C98_false)"
  },
  {
   "property": "C104",
   "status": "proved",
   "theorems": [
    "Up4.C104_whole",
    "Up4.C104_text",
    "Up4.C101_table",
    "Up4.C91_rows"
   ],
   "note": "Seven columns, strictly increasing positive times, a velocity in the first row; C104_whole, with finite times, also shows that every earlier call with sensible arguments answers (C104_text assumes that they returned); the parsing of a single number is a parameter (its model: C121)"
  },
  {
   "property": "C105",
   "status": "proved",
   "theorems": [
    "Up4.C105_vectorfield"
   ],
   "note": "For every arithmetic with the rounding laws of RoundedArith; B64 is an instance. Fresh grids; fewer than 2^52 samples"
  },
  {
   "property": "C106",
   "status": "proved",
   "theorems": [
    "Up4.C106_velocityfield"
   ],
   "note": "As for C105; all nine modes"
  },
  {
   "property": "C107",
   "status": "partial",
   "theorems": [
    "Up4.C107_window_partial",
    "Up4.C107_exact_partial",
    "Up4.C107_everyone",
    "Up4.C107_false"
   ],
   "note": "Proved with the time window as the only restriction. False in general: the method ignores the selector's particle criteria (C107_false)"
  },
  {
   "property": "C108",
   "status": "partial",
   "theorems": [
    "Up4.C108_granular_partial",
    "Up4.C108_false"
   ],
   "note": "The error bound is proved; that the value is a number is false: three particles moving alike give NaN in binary64 (C108_false)"
  },
  {
   "property": "C109",
   "status": "proved",
   "theorems": [
    "Up4.C109_dispersion",
    "Up4.C109_negative"
   ],
   "note": "C109_negative: a case in binary64 where particles that did not disperse have a negative dispersion"
  },
  {
   "property": "C110",
   "status": "proved",
   "theorems": [
    "Up4.C110_numberfield",
    "Up4.C110_velocityfield",
    "Up4.C110_vectorfield",
    "Up4.C110_granular",
    "Up4.C110_order"
   ],
   "note": "numberfield in rounded arithmetic, the others in exact arithmetic (sums in another order round differently); vectorfield on Cartesian grids"
  },
  {
   "property": "C111",
   "status": "proved",
   "theorems": [
    "Up4.C111_numberfield",
    "Up4.C111_velocityfield",
    "Up4.C111_vectorfield",
    "Up4.C111_windows",
    "Up4.C111_window_fields"
   ],
   "note": "As for C110"
  },
  {
   "property": "C112",
   "status": "proved",
   "theorems": [
    "Up4.C112_units"
   ],
   "note": "Cartesian grids, exact arithmetic"
  },
  {
   "property": "C113",
   "status": "proved",
   "theorems": [
    "Up4.C113_velocityfield",
    "Up4.C113_vectorfield",
    "Up4.C113_granular"
   ],
   "note": "Exact arithmetic; vectorfield on Cartesian grids"
  },
  {
   "property": "C114",
   "status": "partial",
   "theorems": [
    "Up4.C114_numberfield_partial",
    "Up4.C114_false"
   ],
   "note": "True from n to m(n-1)+1 cells per axis; false for m times as many cells, because the cell index is the floor of the fraction of the extent times the number of cells minus one"
  },
  {
   "property": "C115",
   "status": "partial",
   "theorems": [
    "Up4.C115_lengths",
    "Up4.C115_lookup_partial",
    "Up4.C115_false"
   ],
   "note": "One position per cell, and the lookup of a published position gives its cell (exact arithmetic). False: in angle and height the positions are the upper edges of the cells, not their centres (C115_false)"
  },
  {
   "property": "C116",
   "status": "proved",
   "theorems": [
    "Up4.C116_summary",
    "Up4.C116_limits"
   ],
   "note": "Exact arithmetic; the deviation is that of the population"
  },
  {
   "property": "C117",
   "status": "partial",
   "theorems": [
    "Up4.C117_summary_partial",
    "Up4.C117_empty",
    "Up4.C117_false"
   ],
   "note": "Only the x components enter, and one empty cell makes mean and deviation NaN; the deviation is that of a sample"
  },
  {
   "property": "C118",
   "status": "partial",
   "theorems": [
    "Up4.C118_inside",
    "Up4.C118_cellId_partial",
    "Up4.C118_false"
   ],
   "note": "True on Cartesian grids; on a cylindrical grid cell_id answers for positions above the cylinder (C118_false)"
  },
  {
   "property": "C119",
   "status": "proved",
   "theorems": [
    "Up4.C119_vectorfield",
    "Up4.C119_velocityfield"
   ],
   "note": "For every arithmetic with the rounding laws of RoundedArith; B64 is an instance"
  },
  {
   "property": "C120",
   "status": "proved",
   "theorems": [
    "Up4.C120_cellId",
    "Up4.C120_right_cell",
    "Up4.C120_numberfield"
   ],
   "note": "For every arithmetic with the rounding laws of RoundedArith; B64 is an instance. The cells are those of the lookup (extent divided by the number of cells minus one, see C04)"
  },
  {
   "property": "C121",
   "status": "proved",
   "theorems": [
    "Up4.C121_decimal",
    "Up4.C121_only",
    "Up4.C121_accuracy",
    "Up4.C121_order",
    "Up4.C121_blank",
    "Up4.C121_file",
    "Up4.C121_answers",
    "Up4.C121_padded"
   ],
   "note": "str::parse::<f64> is modelled from its documented grammar; comma-separated files for C121_file"
  },
  {
   "property": "C122",
   "status": "partial",
   "theorems": [
    "Up4.C122_quoted_partial",
    "Up4.C122_header",
    "Up4.C122_false_doubled"
   ],
   "note": "True with backslash escapes in csv and csv_multi, and without quotation marks inside cells everywhere. False for the standard (RFC 4180) doubled quotation mark: double_quote(false) splits such a cell"
  },
  {
   "property": "C123",
   "status": "proved",
   "theorems": [
    "Up4.C123_vtk_whole",
    "Up4.C123_csv_whole",
    "Up4.C123_vtk",
    "Up4.C123_named",
    "Up4.C123_folder",
    "Up4.C123_csv",
    "Up4.C123_files",
    "Up4.C123_files_whole"
   ],
   "note": "C123_vtk_whole, C123_csv_whole and C123_files_whole show that the conversion and all earlier calls with sensible arguments succeed; the others assume that. numberfield for every arithmetic; velocityfield, vectorfield and granular temperature in exact arithmetic (for their rounding see C105, C106, C119). csv_multi (chain, id_line) is excluded: the particle number it records is wrong (C68, C69)"
  },
  {
   "property": "C124",
   "status": "partial",
   "theorems": [
    "Up4.C124_cartesian",
    "Up4.C124_cylindrical",
    "Up4.C124_data_partial",
    "Up4.C124_same",
    "Up4.C124_false_long",
    "Up4.C124_false_order"
   ],
   "note": "True of cartesian3d. False: the limits of cylindrical3d are read as x, y, z and not in the documented order r, z, phi; the _from_data variants accept longer lists of cells"
  },
  {
   "property": "C125",
   "status": "partial",
   "theorems": [
    "Up4.C125_number_partial",
    "Up4.C125_witness",
    "Up4.C125_concentration_false",
    "Up4.C125_lacey_false",
    "Up4.C125_occupancy_false",
    "Up4.C125_circulation_false",
    "Up4.C125_twoBoundary_false"
   ],
   "note": "True of numberfield (and, by C35, C36, C39, C40, of the other fields over all timesteps). False of concentration_field, lacey_mixing, circulation_time and circulation_time_two_boundary (the last timestep never counts) and of occupancyfield (the last two never count): their answers are equal for all files that differ there only"
  },
  {
   "property": "C126",
   "status": "partial",
   "theorems": [
    "Up4.C126_dispersion_partial",
    "Up4.C126_msd_partial",
    "Up4.C126_vtk",
    "Up4.C126_dispersion_false",
    "Up4.C126_msd_false",
    "Up4.C126_occupancy_false",
    "Up4.C126_leaving_panics",
    "Up4.C126_witness"
   ],
   "note": "True if every timestep lists the same ids in the same order, as the VTK converter writes them if the files list the same particles (C126_vtk). Otherwise false: the answers do not depend on the ids at all, two particles at rest listed the other way round have a mean squared displacement of 3/2, and a particle that leaves can make both raise"
  },
  {
   "property": "C127",
   "status": "proved",
   "theorems": [
    "Up4.C127_components",
    "Up4.C127_energy",
    "Up4.C127_histogram"
   ],
   "note": "C127_components for every arithmetic (also binary64), the others in exact arithmetic; Cartesian grids, velocity limits that exclude nothing; C127_histogram for speeds below the last edge (see C39)"
  },
  {
   "property": "C128",
   "status": "partial",
   "theorems": [
    "Up4.C128_fields_partial",
    "Up4.C128_ratios_partial",
    "Up4.C128_histogram_partial",
    "Up4.C128_circulation_partial",
    "Up4.C128_later_partial",
    "Up4.C128_lacey_false",
    "Up4.C128_showcase_false"
   ],
   "note": "True of the fields, the histogram, the occupancy, the concentration and the circulation times; dispersion and msd_field answer zero (with weight zero) in every cell. False of lacey_mixing, which raises, and of mean_velocity_showcase, which ignores the selection"
  },
  {
   "property": "C129",
   "status": "partial",
   "theorems": [
    "Up4.C129_fields_partial",
    "Up4.C129_lacey_partial",
    "Up4.C129_circulation_partial",
    "Up4.C129_twoBoundary_partial",
    "Up4.C129_occupancy_partial",
    "Up4.C129_origin_partial",
    "Up4.C129_unit_false"
   ],
   "note": "Proved for every analysis under a shift, and for all but dispersion and msd_field under a change of the unit (the fields and lacey_mixing in every arithmetic, the others in exact arithmetic). False of msd_field and dispersion for the unit: the search for the later timestep accepts any timestep within 0.01 of a unit (C129_unit_false)"
  },
  {
   "property": "C130",
   "status": "partial",
   "theorems": [
    "Up4.C130_fields_partial",
    "Up4.C130_histogram_partial",
    "Up4.C130_circulation_partial",
    "Up4.C130_settings_partial",
    "Up4.C130_false"
   ],
   "note": "True of every narrower selection in every arithmetic, and of tighter settings as long as the filters mean what they say (Sane: no empty filter, no list of clouds or densities of three or more values together with another length of radius list). Otherwise false: adding a range of radii to a list of densities turns the list into a range that reaches up to the largest radius, and a particle that was not counted is (C130_false)"
  },
  {
   "property": "C131",
   "status": "proved",
   "theorems": [
    "Up4.C131_mark",
    "Up4.C131_table"
   ],
   "note": "For every text without a second mark; the table of a file with a mark is given as well"
  },
  {
   "property": "C132",
   "status": "partial",
   "theorems": [
    "Up4.C132_search_partial",
    "Up4.C132_offsets",
    "Up4.C132_grids",
    "Up4.C132_self",
    "Up4.C132_few",
    "Up4.C132_kept_false",
    "Up4.C132_units_false",
    "Up4.C132_kind",
    "Up4.C132_small_false",
    "Up4.C132_fields"
   ],
   "note": "The search is as described for datasets in one unit that visit more than 10000 cells at every offset (exact arithmetic). Otherwise align panics (C132_few). False: the best offset is only printed, the comparer keeps its grids and its mark (C132_kept_false); for datasets in mm and m the second grid is scaled the wrong way, a million times too large, so that align panics (C132_units_false), or, the other way round, 800000 times too small (C132_small_false)"
  },
  {
   "property": "C133",
   "status": "partial",
   "theorems": [
    "Up4.C133_names",
    "Up4.C133_bar_partial",
    "Up4.C133_black",
    "Up4.C133_maps",
    "Up4.C133_refused",
    "Up4.C133_false"
   ],
   "note": "Colour maps are the names of the library's maps with an arbitrary colouring function. Exact arithmetic. The bar is proved where the plot is defined (see C76, C79). False: names are case-sensitive, and parity_map and parity_contour ignore the colour map altogether (C133_false)"
  },
  {
   "property": "C134",
   "status": "partial",
   "theorems": [
    "Up4.C134_harmless_partial",
    "Up4.C134_reads",
    "Up4.C134_time_false",
    "Up4.C134_particle_false"
   ],
   "note": "Proved for histories whose item indices exist (analyses and set_time may raise anywhere), and in debug builds also for indices that do not exist. An analysis that stops leaves any state its reads can lead to. False in release builds after indices that do not exist: a time-based file then answers its last timestep with its first (C134_time_false), a particle-based file of more than 20000 timesteps refuses timesteps that exist (C134_particle_false); with at most 20000 it is right (C134_reads)"
  },
  {
   "property": "C135",
   "status": "proved",
   "theorems": [
    "Up4.C135_counts",
    "Up4.C135_velocities",
    "Up4.C135_circulation"
   ],
   "note": "Cartesian grids. Counts, concentrations and circulations in any lawful arithmetic, mean velocities in exact arithmetic (binary64 sums of squares may differ in the last bit with the order)"
  },
  {
   "property": "C136",
   "status": "partial",
   "theorems": [
    "Up4.C136_answers_partial",
    "Up4.C136_csv_partial",
    "Up4.C136_vtk_partial",
    "Up4.C136_short_false",
    "Up4.C136_types_false"
   ],
   "note": "Proved for every sequence of calls with the arguments of Call.Askable, on any sound file and on converted CSV and VTK files, any lawful arithmetic. False of the code: occupancyfield (hence homogenity_index) on one or two timesteps raises in debug builds, lacey_mixing_index raises if a type above all those present in a timestep is named. Not covered: look-ahead analyses on particle-based files of more than 20000 timesteps (wrong values anyway, C29)"
  },
  {
   "property": "C137",
   "status": "proved",
   "theorems": [
    "Up4.C137_text",
    "Up4.C137_session",
    "Up4.C137_vtk"
   ],
   "note": "The exact text is modelled, with Rust's two-decimal rounding of the exact value; read back with the decimal notation of C121. Rotations (only reachable from Rust) are in C137_text: the text calls angles in radians and the centre 'degree', which is the code's wording. The recorded extremes themselves can be wrong (C63, C64)"
  },
  {
   "property": "C138",
   "status": "proved",
   "theorems": [
    "Up4.C138_velocityfield",
    "Up4.C138_vectorfield",
    "Up4.C138_granular"
   ],
   "note": "Exact arithmetic; any grid, Cartesian for vectorfield (cylindrical components turn with the position)"
  },
  {
   "property": "C139",
   "status": "partial",
   "theorems": [
    "Up4.C139_mirror_partial",
    "Up4.C139_false"
   ],
   "note": "False of the code: positions are looked up with one cell less than the grid has, so the last layer of cells is never filled and the mirror image of cell i is cell n-2-i, not n-1-i (C139_false). Proved: numberfield, velocityfield (mode absolute) and vectorfield are mirror images in that sense, for particles off the cell faces, in exact arithmetic, on Cartesian grids"
  },
  {
   "property": "C140",
   "status": "proved",
   "theorems": [
    "Up4.C140_exact",
    "Up4.C140_rounded",
    "Up4.C140_margins"
   ],
   "note": "The factor handed to plotly is modelled; that plotly multiplies the width in pixels by it is plotly's. Exact arithmetic, and binary64 up to a relative error of 2^-49"
  },
  {
   "property": "C141",
   "status": "proved",
   "theorems": [
    "Up4.C141_lookup",
    "Up4.C141_history",
    "Up4.C141_arrays",
    "Up4.C141_slices",
    "Up4.C141_averages",
    "Up4.C141_outliers",
    "Up4.C141_vectors"
   ],
   "note": "All lawful arithmetics. Which layer slice_pos gives is C14, the values of averages C12 and C13, of remove_outliers C15 and C16. The documentation of remove_outliers counts its modes from 1, the code from 0 (case of C141_outliers)"
  },
  {
   "property": "C142",
   "status": "proved",
   "theorems": [
    "Up4.C142_cells",
    "Up4.C142_total"
   ],
   "note": "Standard model of binary64 rounding (proved for the round-to-nearest-even instance); cells of the positions as the code computes them (for their rounding see C120)"
  },
  {
   "property": "C143",
   "status": "proved",
   "theorems": [
    "Up4.C143_recorded",
    "Up4.C143_sequence",
    "Up4.C143_exists"
   ],
   "note": "Every lawful arithmetic, binary64 included; the selected times are finite; analyses that look ahead in time are not included (removing particles between two samples changes what they see)"
  },
  {
   "property": "C144",
   "status": "proved",
   "theorems": [
    "Up4.C144_velocity",
    "Up4.C144_vector",
    "Up4.C144_grids",
    "Up4.C144_showcase",
    "Up4.C144_energy"
   ],
   "note": "Exact arithmetic, fresh grids, finite velocities; vectorfield and the energy on Cartesian grids (on cylindrical ones the components are radial and tangential)"
  },
  {
   "property": "C145",
   "status": "proved",
   "theorems": [
    "Up4.C145_vtk",
    "Up4.C145_trajectory",
    "Up4.C145_steps",
    "Up4.C145_mean_velocity"
   ],
   "note": "Standard model of binary64 rounding (proved for the round-to-nearest-even instance); fewer than 2^52 particles, |v| at most 2^500; mean_velocity ignores the time window (C89_false)"
  },
  {
   "property": "C146",
   "status": "partial",
   "theorems": [
    "Up4.C146_csv",
    "Up4.C146_multi",
    "Up4.C146_files_partial",
    "Up4.C146_false"
   ],
   "note": "csv_multi_files ignores radius, vel and interpolate: every radius read is 0, so only the default radius is right (C146_files_partial); C146_false gives a file whose output has radius 0 and no velocity whatever is asked for"
  },
  {
   "property": "C147",
   "status": "partial",
   "theorems": [
    "Up4.C147_vtk_partial",
    "Up4.C147_csv_partial",
    "Up4.C147_cylinder_partial",
    "Up4.C147_false",
    "Up4.C147_cylinder_false"
   ],
   "note": "Cartesian grids: true if the first particle written is nowhere the single farthest one (in every lawful arithmetic); otherwise the recorded upper limit is too low and nothing need be inside (C147_false). Cylindrical grids hold exactly the particles within half the longer side of the middle axis (exact arithmetic), so particles in the corners are not counted (C147_cylinder_false)"
  },
  {
   "property": "C148",
   "status": "partial",
   "theorems": [
    "Up4.C148_extract",
    "Up4.C148_roundtrip_partial",
    "Up4.C148_zero_false",
    "Up4.C148_last_false"
   ],
   "note": "The table is handed over as numbers (for the text of a CSV file C104). Every lawful arithmetic, binary64 included. A trajectory that starts at time 0 loses its first row in the conversion (C148_zero_false), and the last timestep of a dataset cannot be extracted (C148_last_false)"
  },
  {
   "property": "C149",
   "status": "proved",
   "theorems": [
    "Up4.C149_csv",
    "Up4.C149_vtk",
    "Up4.C149_idline"
   ],
   "note": "Whole results are compared, errors included; every lawful arithmetic (for VTK every arithmetic), NaN times excluded. csv_multi with the method chain (order is what separates its trajectories) and csv_multi_files (particles keep the order of the file, C70) are not meant"
  },
  {
   "property": "C150",
   "status": "proved",
   "theorems": [
    "Up4.C150_reading"
   ],
   "note": "Every sound file, every history of sensible calls; velocity means and granular temperature in exact arithmetic and on fresh grids as stated in FieldsOf"
  },
  {
   "property": "C151",
   "status": "proved",
   "theorems": [
    "Up4.C151_vtk_files",
    "Up4.C151_lines",
    "Up4.C151_trajectory",
    "Up4.C123_files_whole"
   ],
   "note": "numberfield in every lawful arithmetic; the other fields in exact arithmetic on fresh grids (vectorfield on Cartesian grids, it and the granular temperature for finite velocities). Same number of particles in every timestep, finite times that do not decrease"
  },
  {
   "property": "C152",
   "status": "partial",
   "theorems": [
    "Up4.C152_msd_partial"
   ],
   "note": "A cell holds (sum of the distances)^2 / (number of samples): near the mean squared displacement for one sample per cell; with more the exact value is already another quantity (C44_false), and what is proved is that the computed value is near that. At most 2^50 samples, coordinates up to 2^400"
  },
  {
   "property": "C153",
   "status": "partial",
   "theorems": [
    "Up4.C153_index_partial"
   ],
   "note": "Proved for layer averages up to 2^400, at most 2^50 layers. With a layer that is NaN the exact value is already not a standard deviation (C41_false); near which number the index is then is stated as well"
  },
  {
   "property": "C154",
   "status": "partial",
   "theorems": [
    "Up4.C154_rows",
    "Up4.C154_csv",
    "Up4.C154_multi",
    "Up4.C154_files_partial",
    "Up4.C154_files_false"
   ],
   "note": "Proved for the converters of one and of several trajectories. csv_multi_files stores radius 0 whatever was given, so there selecting the radius given takes nothing (C154_files_false). Selections whose cloud and density filters meet the conditions of C26"
  },
  {
   "property": "C155",
   "status": "proved",
   "theorems": [
    "Up4.C155_text",
    "Up4.C155_faithful",
    "Up4.C155_session"
   ],
   "note": "How a number is printed is a parameter: numbers of a set V printed without blanks, commas, brackets and line ends, and differently if they differ (for Rust: the doubles). The text after the array (shape, strides, layout) is a parameter too"
  },
  {
   "property": "C156",
   "status": "proved",
   "theorems": [
    "Up4.C156_lacey"
   ],
   "note": "The index I is that of C42_value (which is not in [0,1], C42_false). At most 2^39 particles a timestep and 2^50 cells; the variance P (1 - P) is in the bound because a rare type makes the denominator small"
  },
  {
   "property": "C157",
   "status": "partial",
   "theorems": [
    "Up4.C157_histogram_partial",
    "Up4.C39_false"
   ],
   "note": "Same gaps as C39, where the code departs from the claim: bin 0 has no lower end and a sample at the highest edge is in no bin (C39_false). Velocities up to 2^500, limits up to 2^400, at most 2^46 (mx - mn) / M bins"
  },
  {
   "property": "C158",
   "status": "proved",
   "theorems": [
    "Up4.C158_pool",
    "Up4.C158_windows",
    "Up4.C158_same",
    "Up4.C158_refine"
   ],
   "note": "Adding up and order in every arithmetic, also the rounded one; the refinement in exact arithmetic and for finite speeds. Samples at the highest edge are in neither histogram, those below the lowest in the first bin of both (C39_false)"
  },
  {
   "property": "C159",
   "status": "proved",
   "theorems": [
    "Up4.C159_lacey"
   ],
   "note": "Exact arithmetic (C156 bounds the rounding)"
  },
  {
   "property": "C160",
   "status": "proved",
   "theorems": [
    "Up4.C160_length",
    "Up4.C160_velocity"
   ],
   "note": "Exact arithmetic; the velocity part for finite velocities. A limit given as 0 means the recorded maximum, in every unit"
  }
 ]
}