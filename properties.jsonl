{"id": "C01", "title": "Cartesian cell lookup never leaves the grid", "statement": "For a Cartesian grid with at least one cell per axis, looking up the cell of a position returns an error exactly when the position is not inside the grid limits, and otherwise returns three indices each strictly below the number of cells on its axis; this holds for NaN and infinite coordinates, degenerate or inverted limits, and under floating-point rounding.", "quantifier": "all cell counts, limits, positions (including NaN/inf) and all monotone roundings", "why_tests_cant": "index range depends on rounding at every representable boundary value; a test samples a few positions", "anchors": ["src/grid/cartesian_grid.rs:cell_id", "src/grid/cartesian_grid.rs:is_inside"]}
{"id": "C02", "title": "Inside test is the closed box", "statement": "is_inside is true exactly when all three coordinates are non-NaN numbers lying between the lower and upper limit of their axis, both ends included.", "quantifier": "all limits and positions", "why_tests_cant": "three axes times NaN/inf/boundary combinations over a continuum of values", "anchors": ["src/grid/cartesian_grid.rs:is_inside"]}
{"id": "C03", "title": "Cartesian cell lookup is monotone and hits both ends", "statement": "Increasing one coordinate inside the grid never decreases the cell index on that axis and never changes the others; a coordinate on the lower limit is in cell 0 and one on the upper limit is in the last cell.", "quantifier": "all pairs of inside positions, all roundings", "why_tests_cant": "relation between all pairs of positions", "anchors": ["src/grid/cartesian_grid.rs:cell_id"]}
{"id": "C04", "title": "The cell lookup is consistent with the published cell centres", "statement": "For every cell index i of a Cartesian axis, looking up the published centre position of cell i returns i.", "quantifier": "all cell counts and cell indices", "why_tests_cant": "must hold for every cell count and every cell; small sampled counts can pass by luck", "anchors": ["src/grid/cartesian_grid.rs:new", "src/grid/cartesian_grid.rs:cell_id", "src/grid/cartesian_grid.rs:get_xpositions"]}
{"id": "C05", "title": "Cell centres are equally spaced inside the limits", "statement": "The published Cartesian cell positions are strictly increasing, equally spaced by (max-min)/n, lie strictly inside the limits, and the first and last are half a cell from the limits.", "quantifier": "all cell counts >= 1 and limits with min<max (exact arithmetic)", "why_tests_cant": "quantifies over all cell counts and limits", "anchors": ["src/grid/cartesian_grid.rs:new"]}
{"id": "C06", "title": "add_value touches exactly the cell of the position", "statement": "On a Cartesian grid, adding a value at a position never panics; if the position is inside, exactly its cell gets value added to data and 1 to weight, everything else is unchanged; if outside, the grid is unchanged.", "quantifier": "all grids, positions, values", "why_tests_cant": "frame condition over all other cells for all positions", "anchors": ["src/grid/cartesian_grid.rs:add_value"]}
{"id": "C07", "title": "Accumulation over any history", "statement": "After any sequence of add_value calls on a fresh Cartesian grid, the weight of each cell is the number of inside positions looked up to that cell, its data is the sum, in call order, of the values added there, and the weights over all cells sum to the number of inside positions.", "quantifier": "all finite call sequences", "why_tests_cant": "unbounded histories", "anchors": ["src/grid/cartesian_grid.rs:add_value", "src/grid/cartesian_grid.rs:new"]}
{"id": "C08", "title": "Averages after divide_by_weight", "statement": "After any sequence of add_value calls with finite values on a fresh Cartesian grid followed by divide_by_weight, every cell that received at least one value holds the arithmetic mean of the values it received (between their minimum and maximum) and every other cell is NaN.", "quantifier": "all finite call sequences (exact arithmetic for the mean identity)", "why_tests_cant": "unbounded histories and all cells", "anchors": ["src/grid/cartesian_grid.rs:divide_by_weight", "src/grid/cartesian_grid.rs:add_value"]}
{"id": "C09", "title": "insert then get_value round-trips", "statement": "On a Cartesian grid, after inserting a value at an inside position, get_value at any position looked up to the same cell returns that value, get_value at any position of another cell is unchanged, and get_value outside is NaN.", "quantifier": "all grids, positions, values", "why_tests_cant": "pairs of positions over a continuum", "anchors": ["src/grid/cartesian_grid.rs:insert", "src/grid/cartesian_grid.rs:get_value"]}
{"id": "C10", "title": "Accumulation does not depend on order", "statement": "On a Cartesian grid, permuting a sequence of add_value calls gives the same weights in every cell (any rounding, up to 2^53 hits) and, in exact arithmetic, the same data.", "quantifier": "all sequences and all permutations", "why_tests_cant": "all permutations of unbounded sequences", "anchors": ["src/grid/cartesian_grid.rs:add_value"]}
{"id": "C11", "title": "new_zeros returns an empty grid of the same geometry", "statement": "new_zeros returns a grid with the same cells, limits and positions, with all data zero and all weights zero.", "quantifier": "all grids reachable by any operation history", "why_tests_cant": "needs grids with arbitrary earlier contents", "anchors": ["src/grid/cartesian_grid.rs:new_zeros", "src/grid/cylindrical_grid.rs:new_zeros"]}
{"id": "C12", "title": "Depth averaging is the weighted mean", "statement": "collapse along an axis returns for each remaining cell the weight-weighted mean of the data along the axis, a cell with NaN data counting as value 0 with its weight; it is NaN exactly where the summed weight is zero (finite contents); collapse_weight returns the summed weights and preserves the total weight.", "quantifier": "all grids, all three axes", "why_tests_cant": "all contents, including NaN patterns", "anchors": ["src/grid/cartesian_grid.rs:collapse", "src/grid/cartesian_grid.rs:collapse_weight"]}
{"id": "C13", "title": "Collapsing two axes is order-independent", "statement": "collapse_two(a,b) = collapse_two(b,a) for all a != b, collapse_two_weight likewise and equals the double sum of weights; a = b is rejected.", "quantifier": "all grids, all axis pairs", "why_tests_cant": "all contents", "anchors": ["src/grid/cartesian_grid.rs:collapse_two", "src/grid/cartesian_grid.rs:collapse_two_weight"]}
{"id": "C14", "title": "Positional slice selects the plane containing the position", "statement": "slice(axis, position) for a position inside the limits returns the data plane of the cell to which cell_id assigns that coordinate, and does not panic.", "quantifier": "all grids, axes, positions inside limits", "why_tests_cant": "boundary positions; mismatch arises only for particular positions", "anchors": ["src/grid/cartesian_grid.rs:slice", "src/grid/cartesian_grid.rs:cell_id", "src/grid/cartesian_grid.rs:slice_idx"]}
{"id": "C15", "title": "Outlier removal, clamping modes", "statement": "outlier_removal with mode 0 or 1 replaces exactly the values greater than the threshold (by 0, or by the threshold), leaves all other values, NaNs and the weights unchanged, is idempotent, and with mode 1 (or mode 0 and threshold >= 0) leaves no value above the threshold; an unknown mode is rejected.", "quantifier": "all grids, thresholds, modes", "why_tests_cant": "all contents and thresholds", "anchors": ["src/grid/cartesian_grid.rs:outlier_removal", "src/grid/cylindrical_grid.rs:outlier_removal"]}
{"id": "C16", "title": "Outlier removal, neighbour-mean mode", "statement": "outlier_removal with mode 2 never panics, leaves every cell not above the threshold unchanged (data and weight) and replaces each outlier by the mean of its non-outlier neighbours, so that no value above the threshold remains.", "quantifier": "all grids, thresholds, both coordinate systems, both build profiles", "why_tests_cant": "border cells, clusters of outliers, all grid shapes", "anchors": ["src/grid/cartesian_grid.rs:outlier_removal", "src/grid/cylindrical_grid.rs:outlier_removal"]}
{"id": "C17", "title": "Grid shape is invariant", "statement": "After any sequence of grid operations that does not panic (divide_by_array being given an array of the grid's shape), data and weight arrays have exactly the shape given at construction; set_data/set_weights with another shape are rejected and with the right shape replace the content exactly.", "quantifier": "all operation histories", "why_tests_cant": "unbounded histories", "anchors": ["src/grid/cartesian_grid.rs:set_data", "src/grid/cartesian_grid.rs:set_weights"]}
{"id": "C18", "title": "A trajectory deposits its whole value", "statement": "add_trajectory_value on a Cartesian grid with both end points inside adds exactly value to the total data and exactly 1 to the total weight; if either end is outside nothing changes.", "quantifier": "all grids, positions, values (exact arithmetic for totals)", "why_tests_cant": "all pairs of positions", "anchors": ["src/grid/cartesian_grid.rs:add_trajectory_value", "src/grid/cartesian_grid.rs:cell_ids_in_trajectory"]}
{"id": "C19", "title": "Cylindrical shells have equal volume and tile the radius", "statement": "The radial shells of a cylindrical grid start at 0, each starts where the previous ends, they are nested increasing, all have the same cross-section area R^2/n, and the last one ends at the outer radius; the radial position published for a shell is the mean of its radii.", "quantifier": "all radial cell counts and limits (exact arithmetic)", "why_tests_cant": "inductively defined radii, all counts", "anchors": ["src/grid/cylindrical_grid.rs:new"]}
{"id": "C20", "title": "Cylindrical lookup never leaves the grid and never panics inside", "statement": "For a cylindrical grid with >=1 cells per axis and a position for which is_inside holds, cell_id does not panic and returns indices below the cell counts.", "quantifier": "all grids and inside positions (and all roundings)", "why_tests_cant": "depends on rounding of accumulated radii", "anchors": ["src/grid/cylindrical_grid.rs:cell_id", "src/grid/cylindrical_grid.rs:is_inside", "src/grid/cylindrical_grid.rs:to_cylindrical"]}
{"id": "C21", "title": "Cylindrical lookup returns the cell containing the position", "statement": "For an inside position the returned radial shell contains its radius, the returned height cell contains its height and the returned angular cell contains its angle, where cell k spans from the previous published boundary to its own.", "quantifier": "all grids and inside positions", "why_tests_cant": "continuum of positions", "anchors": ["src/grid/cylindrical_grid.rs:cell_id", "src/grid/cylindrical_grid.rs:new"]}
{"id": "C22", "title": "Values outside a cylindrical grid are ignored", "statement": "add_value/insert/get_value at a position outside a cylindrical grid leave the grid unchanged / return NaN, as on a Cartesian grid.", "quantifier": "all grids and outside positions", "why_tests_cant": "continuum of positions", "anchors": ["src/grid/cylindrical_grid.rs:add_value", "src/grid/cylindrical_grid.rs:get_value", "src/grid/cylindrical_grid.rs:insert"]}
{"id": "C23", "title": "Velocity decomposition of vector grids", "statement": "On a Cartesian vector grid the stored velocity components are the particle's velocity; on a cylindrical one they are the radial velocity, the angular velocity about the cylinder axis and the axial velocity (so v_r^2 + (r*w)^2 = vx^2+vy^2).", "quantifier": "all positions, velocities, grid centres", "why_tests_cant": "continuum of inputs; failure only off-centre", "anchors": ["src/grid/vector_grid.rs:velocity_calculation"]}
{"id": "C24", "title": "Vector grids act on three independent components", "statement": "add_value, insert, divisions, outlier removal, set_weights and add_trajectory_value on a vector grid have on each component the effect of the same scalar-grid operation.", "quantifier": "all operation histories", "why_tests_cant": "unbounded histories", "anchors": ["src/grid/vector_grid.rs"]}
{"id": "C25", "title": "The default selector selects everything", "statement": "The default particle selector accepts every particle (any radius, cloud, density, id, including NaN attributes) and every finite time.", "quantifier": "all particles and times", "why_tests_cant": "all attribute values", "anchors": ["src/particleselector.rs:ParticleSelector::default", "src/particleselector.rs:is_valid", "src/particleselector.rs:timestep_valid"]}
{"id": "C26", "title": "Attribute filters mean what the user wrote", "statement": "With a single value a filter accepts exactly that value, with two values exactly the closed range, with three or more exactly the listed values, for radius, clouds, density and particle id independently; a particle is accepted iff all four accept.", "quantifier": "all selector configurations and particles", "why_tests_cant": "combinations of filter lengths interact", "anchors": ["src/particleselector.rs:is_radius_valid", "src/particleselector.rs:is_cloud_valid", "src/particleselector.rs:is_density_valid", "src/particleselector.rs:is_particleid_valid"]}
{"id": "C27", "title": "Time window", "statement": "timestep_valid accepts exactly the times in the closed window; the last set_time wins whatever was set before; NaN times are never accepted.", "quantifier": "all windows, times, set_time histories", "why_tests_cant": "unbounded histories", "anchors": ["src/particleselector.rs:timestep_valid", "src/particleselector.rs:set_time"]}
{"id": "C28", "title": "Buffered reading is transparent", "statement": "For every sequence of get_timestep requests with indices below the number of timesteps (any order, any length of dataset), each request returns the timestep stored in the file under that index and never panics.", "quantifier": "all access histories, all dataset sizes", "why_tests_cant": "access patterns crossing buffer chunks in any order; buffer of 20000 is too large for tests", "anchors": ["src/datamanager/pdata.rs:get_timestep", "src/datamanager/pdata.rs:update", "src/datamanager/tdata.rs:get_timestep", "src/datamanager/tdata.rs:update"]}
{"id": "C29", "title": "The look-ahead buffer is transparent", "statement": "After setup_buffer, for every interleaving of get_timestep and get_timestep_buffer requests with valid indices, each get_timestep_buffer request returns the timestep stored under the requested index and never panics.", "quantifier": "all interleavings of main- and extra-buffer requests, all dataset sizes", "why_tests_cant": "interleavings and sizes beyond the buffer size", "anchors": ["src/datamanager/pdata.rs:get_timestep_buffer", "src/datamanager/tdata.rs:get_timestep_buffer", "src/datamanager/pdata.rs:setup_buffer", "src/datamanager/tdata.rs:setup_buffer"]}
{"id": "C30", "title": "Buffers do not interfere", "statement": "setup_buffer and get_timestep_buffer requests never change what later get_timestep requests return, and setting the same buffer up again resets it without creating a second one.", "quantifier": "all interleavings", "why_tests_cant": "unbounded interleavings", "anchors": ["src/datamanager/pdata.rs:setup_buffer", "src/datamanager/pdata.rs:update_extra", "src/datamanager/tdata.rs:update_extra"]}
{"id": "C31", "title": "Particle extraction", "statement": "extract(id,(a,b)) with a<=b below the number of timesteps returns b-a rows, row i holding time, position and velocity of that particle at timestep a+i, whatever was read before; a range end at or beyond the number of timesteps is rejected.", "quantifier": "all datasets, ids, ranges, prior histories", "why_tests_cant": "unbounded ranges and histories", "anchors": ["src/functions/extractions.rs:extract"]}
{"id": "C32", "title": "Time search stays in range and terminates", "statement": "timestep_at_seconds_closest terminates and never indexes outside the time array for any non-empty sorted time array, errs exactly when the requested time lies outside the recorded interval, and an index returned has a time within 0.01 s of the request or is one of the two neighbouring timesteps that enclose it.", "quantifier": "all sorted time arrays and requested times", "why_tests_cant": "all array lengths and values", "anchors": ["src/datamanager.rs:timestep_at_seconds_closest"]}
{"id": "C33", "title": "Time search returns the closest timestep", "statement": "For a sorted time array the returned index minimises the distance between its time and the requested time.", "quantifier": "all sorted time arrays and requested times", "why_tests_cant": "all array lengths and values", "anchors": ["src/datamanager.rs:timestep_at_seconds_closest"]}
{"id": "C34", "title": "numberfield counts samples", "statement": "Each cell of numberfield equals the number of (timestep, particle) samples whose time is in the window, whose particle is selected and whose position is looked up to the cell, over all timesteps of the dataset including the first and last; the total never exceeds the number of samples.", "quantifier": "all datasets, selectors, grids with empty contents", "why_tests_cant": "all datasets", "anchors": ["src/functions.rs:numberfield"]}
{"id": "C35", "title": "velocityfield is the mean velocity per cell", "statement": "On a grid without previous contents, each cell of velocityfield is the mean over the selected samples in the cell of the requested velocity component (or magnitude) restricted to samples with a value within [min,max]; cells without sample are NaN.", "quantifier": "all datasets, selectors, modes, bounds", "why_tests_cant": "all datasets", "anchors": ["src/functions.rs:velocityfield"]}
{"id": "C36", "title": "vectorfield is the componentwise mean", "statement": "On a grid without previous contents, each component of vectorfield is in each cell the mean of that velocity component over the selected samples in that cell; cells without samples are NaN.", "quantifier": "all datasets and selectors", "why_tests_cant": "all datasets", "anchors": ["src/functions.rs:vectorfield"]}
{"id": "C37", "title": "Occupancy sums to one", "statement": "On a grid without previous contents, if every counted sample (timesteps 0 to n-4, selected, inside the grid, fast enough) has its successor inside the grid and the counted samples take up some time, the occupancy field sums to 1 over the grid, and every cell is nonnegative.", "quantifier": "all datasets (exact arithmetic)", "why_tests_cant": "all datasets", "anchors": ["src/functions.rs:occupancyfield"]}
{"id": "C38", "title": "Dispersion is the sample variance", "statement": "The dispersion of a cell with n>1 visits equals the unbiased sample variance (summed over the axes) of the later positions of the particles starting in the cell, hence is nonnegative; cells with fewer visits contribute nothing.", "quantifier": "all datasets (exact arithmetic), empty grids", "why_tests_cant": "algebraic identity over all sample lists", "anchors": ["src/functions.rs:dispersion"]}
{"id": "C39", "title": "Histogram counts every sample once", "statement": "Each sample inside the grid whose speed lies between the lowest and highest bin edge (both included) is counted in exactly the bin whose edges enclose it, and no other sample is counted.", "quantifier": "all datasets, limits, bin counts", "why_tests_cant": "bin-boundary values", "anchors": ["src/functions.rs:histogram"]}
{"id": "C40", "title": "Granular temperature is the RMS fluctuation", "statement": "The granular temperature of a visited cell equals the root of the mean squared deviation of the velocities from the cell mean (componentwise, or averaged over the three components), hence is real and nonnegative; it is NaN where nothing was seen.", "quantifier": "all datasets (exact arithmetic), empty grids", "why_tests_cant": "algebraic identity over all sample lists", "anchors": ["src/functions.rs:granular_temperature_field"]}
{"id": "C41", "title": "Homogeneity index is a standard deviation", "statement": "homogenity_index is the standard deviation over the height layers of the layer-averaged occupancy, is nonnegative and is 0 iff all layers that count agree with the mean.", "quantifier": "all datasets (exact arithmetic)", "why_tests_cant": "all datasets", "anchors": ["src/functions.rs:homogenity_index"]}
{"id": "C42", "title": "Lacey index extremes", "statement": "For each timestep but the last, lacey_mixing returns (S0-S)/(S0-Sr), where S0=P(1-P) is the variance of the fully segregated state (P the share of type A), Sr=S0/n that of the random state and S the variance over the cells of the share of type A; the index lies in [0,1], is 0 for full segregation, 1 for perfect mixing, and does not change when the two types are swapped.", "quantifier": "all datasets, type pairs, grids (exact arithmetic)", "why_tests_cant": "all datasets", "anchors": ["src/functions/mixing.rs:lacey_mixing"]}
{"id": "C43", "title": "Concentration lies in [0,1]", "statement": "Each visited cell of concentration_field equals (#A)/(#A+#B) over the selected samples of two different types in the cell (timesteps 0 to n-2), lies in [0,1], and swapping the types gives one minus it; cells without A and B are NaN.", "quantifier": "all datasets, type pairs", "why_tests_cant": "all datasets", "anchors": ["src/functions/mixing.rs:concentration_field"]}
{"id": "C44", "title": "Mean squared displacement", "statement": "msd_field in a visited cell is the mean over the samples starting in the cell of the squared distance to the position a given time later.", "quantifier": "all datasets (exact arithmetic)", "why_tests_cant": "all datasets", "anchors": ["src/functions/mixing.rs:msd_field"]}
{"id": "C45", "title": "Circulation times are boundary-to-boundary durations", "statement": "Each value reported by circulation_time is the time between two crossings of the boundary by the same particle slot that are exactly two crossings apart, all values are nonnegative for increasing times, and every completed circulation is reported once.", "quantifier": "all trajectories", "why_tests_cant": "unbounded trajectories (state machine)", "anchors": ["src/functions/conditional.rs:circulation_time"]}
{"id": "C46", "title": "Two-boundary circulations are well-formed intervals", "statement": "Each pair reported by circulation_time_two_boundary is a start and a later end time of one particle slot, intervals of one slot do not overlap, and between start and end the particle visited the opposite region.", "quantifier": "all trajectories", "why_tests_cant": "unbounded trajectories (state machine)", "anchors": ["src/functions/conditional.rs:circulation_time_two_boundary"]}
{"id": "C47", "title": "Rotation preserves distances", "statement": "rotate_position turns a point about the anchor by the given angles, right-handed and in the order x axis, y axis, z axis; it preserves the distance to the anchor and between points, fixes the anchor, and is the identity for zero angles; rotate_velocity does the same about the origin and preserves speed.", "quantifier": "all points, angles, anchors (exact arithmetic)", "why_tests_cant": "continuum", "anchors": ["src/datamanager/utilities.rs:rotate_position", "src/datamanager/utilities.rs:rotate_velocity"]}
{"id": "C48", "title": "Rotation flag", "statement": "After any sequence of set_rotation_angle calls the dataset reports a rotation iff some stored angle is non-zero, and each stored angle is the last one set for that axis; invalid axes are rejected.", "quantifier": "all call histories", "why_tests_cant": "unbounded histories", "anchors": ["src/datamanager/pdata.rs:set_rotation_angle", "src/datamanager/tdata.rs:set_rotation_angle"]}
{"id": "C49", "title": "Sorting by particle id", "statement": "make_sortlist returns a permutation of the indices ordering the ids nondecreasingly and stably; applying it with sort_by_array to scalar or 3-vector data permutes whole entries.", "quantifier": "all id vectors and data", "why_tests_cant": "all permutations and lengths", "anchors": ["src/converter/convertertools.rs:make_sortlist", "src/converter/convertertools.rs:sort_by_array"]}
{"id": "C50", "title": "Sorting by column", "statement": "sort_by_column returns a permutation of the rows ordered by the column, keeps equal rows in input order, rejects NaN when compared, and its output passes is_sorted.", "quantifier": "all tables without NaN in the column", "why_tests_cant": "all tables", "anchors": ["src/converter/convertertools.rs:sort_by_column", "src/converter/convertertools.rs:is_sorted"]}
{"id": "C51", "title": "Interpolation table", "statement": "interpolate returns exactly the requested number of rows, its first and last rows are the first and last input rows, row k in between has time k*dt and the coordinates at that time of the straight line between the input rows just before and just after the input row nearest to that time, NaN where that is the last row; unsorted input is rejected.", "quantifier": "all input tables, max times, step counts", "why_tests_cant": "stateful scan over unbounded tables", "anchors": ["src/converter/convertertools.rs:interpolate", "src/converter/convertertools.rs:interpolate_step"]}
{"id": "C52", "title": "Interpolation is exact on uniform motion", "statement": "For input rows on a straight line uniform motion, every non-NaN interpolated row lies on that motion.", "quantifier": "all uniform motions and sampling times (exact arithmetic)", "why_tests_cant": "continuum", "anchors": ["src/converter/convertertools.rs:interpolate"]}
{"id": "C53", "title": "Polynomial velocity keeps rows aligned", "statement": "velocity_polynom with odd window s over N>=s rows returns N-s+1 rows whose time and position columns are the rows (s-1)/2 .. N-(s-1)/2-1 of the input, and the velocity of row k is the derivative of the fitted polynomial at that row's own time; even windows are rejected.", "quantifier": "all tables, windows, degrees", "why_tests_cant": "all window sizes and lengths", "anchors": ["src/converter/convertertools.rs:velocity_polynom"]}
{"id": "C54", "title": "minmax", "statement": "minmax returns the least and greatest non-NaN value of an array that has one, both being elements of the array.", "quantifier": "all arrays", "why_tests_cant": "all arrays incl. NaN patterns", "anchors": ["src/utilities/maths.rs:minmax"]}
{"id": "C55", "title": "meshgrid and flatten agree", "statement": "meshgrid(x,y) gives arrays of shape (|x|,|y|) with entries x[i], y[j]; meshgrid3d likewise; flatten_2d/3d list the elements in row-major order without loss.", "quantifier": "all arrays", "why_tests_cant": "all lengths", "anchors": ["src/utilities/maths.rs:meshgrid", "src/utilities/maths.rs:flatten_2d"]}
{"id": "C56", "title": "NaN-skipping statistics", "statement": "nan_mean is the mean and nan_std the population standard deviation of the non-NaN entries; both are NaN when there is none.", "quantifier": "all arrays (exact arithmetic)", "why_tests_cant": "all NaN patterns", "anchors": ["src/utilities.rs:nan_mean", "src/utilities.rs:nan_std"]}
{"id": "C57", "title": "Binary threshold", "statement": "binary_threshold returns 1 exactly where the field exceeds the chosen quantile of its nonzero values and 0 elsewhere; quantiles outside [0,1] are rejected.", "quantifier": "all fields and quantiles", "why_tests_cant": "all fields", "anchors": ["src/comparison.rs:binary_threshold"]}
{"id": "C58", "title": "Field analyses depend only on the geometry of the grid", "statement": "The result of numberfield, velocityfield and vectorfield depends only on the geometry (cells, limits, coordinate system) of the grid passed in, not on data or weights accumulated in it before; running an analysis twice with the same grid object gives the same answer.", "quantifier": "all datasets, selectors and grids with arbitrary earlier contents", "why_tests_cant": "needs grids with arbitrary histories; a fresh grid in a test never shows the difference", "anchors": ["src/functions.rs:numberfield", "src/functions.rs:velocityfield", "src/functions.rs:vectorfield", "src/grid/cartesian_grid.rs:new_zeros"]}
{"id": "C59", "title": "What a manager returns is what the file stores", "statement": "Opening a complete file, time-based or particle-based, and asking for timesteps in any order returns, for timestep t, exactly what is stored under number t: all arrays of group `timestep t`, or row t of every `particle i`, entry i of each array belonging to particle i. Files with a missing dataset are rejected.", "quantifier": "all file contents, all numbers of timesteps, all orders of requests", "why_tests_cant": "data of a wrong row, or of a different particle, has the right shape and plausible values; tests use files written once by the same tool", "anchors": ["src/datamanager/tdata.rs:update", "src/datamanager/pdata.rs:update", "src/datamanager/tdata.rs:get_timestep", "src/datamanager/pdata.rs:get_timestep"]}
{"id": "C60", "title": "Unbuffered reading agrees with buffered reading", "statement": "Reading a timestep with the unbuffered call gives the same data as with the buffered one.", "quantifier": "all files, all timesteps", "why_tests_cant": "tests read single-particle files, where the difference does not show", "anchors": ["src/datamanager/tdata.rs:read_single", "src/datamanager/pdata.rs:read_single"]}
{"id": "C61", "title": "VTK conversion keeps every particle's attributes together", "statement": "After converting VTK files to HDF5, reading timestep t gives the particles of file t, each exactly once and with its own position, velocity, radius and type, ordered by id, at time step number times step length.", "quantifier": "all VTK files, all orders of the particles in each file, all read sequences", "why_tests_cant": "attributes are sorted separately; a mismatch only shows for particular orders of ids", "anchors": ["src/converter.rs:write_hdf5_from_files", "src/converter.rs:make_sortlist", "src/converter.rs:sort_by_array"]}
{"id": "C62", "title": "VTK conversion checks and records the times", "statement": "VTK conversion succeeds exactly if the files' times never decrease from 0 on and the needed fields are named; then the number of timesteps, the list of times, the time range and the largest id are recorded correctly.", "quantifier": "all lists of files", "why_tests_cant": "needs all orders of files", "anchors": ["src/converter.rs:write_hdf5_from_files"]}
{"id": "C63", "title": "Recorded position limits enclose all particles", "statement": "The position limits stored with a converted file are the smallest and the largest coordinate of all particles in all timesteps.", "quantifier": "all sequences of positions", "why_tests_cant": "an upper limit that skips values only shows for decreasing sequences", "anchors": ["src/converter.rs:write_hdf5_from_files"]}
{"id": "C64", "title": "Recorded velocity statistics", "statement": "The stored velocity minimum, mean and maximum per component and for the speed are those over all particles of all timesteps.", "quantifier": "all sequences of velocities", "why_tests_cant": "as for the limits", "anchors": ["src/converter.rs:write_hdf5_from_files"]}
{"id": "C65", "title": "CSV conversion of one trajectory", "statement": "A CSV file with time, position and velocity columns is sorted by time, and the converted file has one timestep per distinct positive time holding the first row with this time, in order; with strictly increasing positive times no row is lost. The conversion fails exactly if the earliest row has no velocity, more than 500 rows have a time of at most 0, or a time occurs more than 501 times.", "quantifier": "all CSV contents, all column choices, all read sequences", "why_tests_cant": "needs all orders of rows, including repeated and non-positive times and the limit of consecutive rejected lines", "anchors": ["src/converter.rs:csv_converter"]}
{"id": "C66", "title": "CSV conversion options", "statement": "Option combinations that make no sense (interpolation without velocities, velocity computation with velocity columns, no velocity at all, no or too many columns) are refused for every file; with velocity computation the output holds, for each row with enough neighbours, its time, position and fitted velocity.", "quantifier": "all files and options", "why_tests_cant": "refusal must hold for every file", "anchors": ["src/converter.rs:csv_converter", "src/converter.rs:velocity_polynom"]}
{"id": "C67", "title": "Recorded statistics of a converted CSV file", "statement": "The stored number of timesteps, list of times, time range, position limits, velocity statistics and sample rate are those of the rows in the output.", "quantifier": "all CSV files", "why_tests_cant": "min/max updates and the rate depend on the whole sequence", "anchors": ["src/converter.rs:csv_converter"]}
{"id": "C68", "title": "CSV with one trajectory after the other", "statement": "In chain mode every trajectory of the file (a piece in which time does not go back) becomes one particle of the output, with its own rows, and can be read back.", "quantifier": "all files, all numbers and lengths of trajectories", "why_tests_cant": "losing the last trajectory, short trajectories or all but one particle gives plausible output", "anchors": ["src/converter/csv_modes/csv_multi_chain.rs:csv_multi_chain"]}
{"id": "C69", "title": "CSV with an id column", "statement": "In id-line mode every id that occurs becomes one particle of the output, holding exactly the rows with this id ordered by time, and can be read back.", "quantifier": "all files, all orders of rows, all sets of ids", "why_tests_cant": "mixing rows of different ids only shows for particular orders", "anchors": ["src/converter/csv_modes/csv_multi_idline.rs:csv_multi_idline", "src/converter/csv_modes/csv_multi_idline.rs:sort_by_id"]}
{"id": "C70", "title": "One CSV file per timestep", "statement": "With one file per timestep, timestep t of the output has the t-th time and exactly the particles of the t-th file, in the order of the file; wrong numbers of columns or missing times are refused.", "quantifier": "all numbers of files, all contents, all read sequences", "why_tests_cant": "needs files of different lengths read in any order", "anchors": ["src/converter/csv_modes/csv_multi_file_time_step.rs:csv_multi_file_time_step"]}
{"id": "C71", "title": "Recorded statistics with one CSV file per timestep", "statement": "The stored number of timesteps, particles, list of times, time range, position limits and velocity statistics are those of all files.", "quantifier": "all numbers and contents of files", "why_tests_cant": "the number of particles is only wrong if the last file differs", "anchors": ["src/converter/csv_modes/csv_multi_file_time_step.rs:csv_multi_file_time_step"]}
{"id": "C72", "title": "Long trajectories get velocities like short ones", "statement": "The velocities of a trajectory computed in parallel (used for long trajectories) are those the sequential computation gives: same rows, same values.", "quantifier": "all tables, all sampling steps and degrees, all fits", "why_tests_cant": "the parallel path only runs from 200000 rows on", "anchors": ["src/converter/convertertools/velocity_paralell.rs:velocity_polynom_parallel", "src/converter/csv_modes/csv_multi_chain.rs:csv_multi_chain"]}
{"id": "C73", "title": "Item access from Python", "statement": "data[i] is the matrix (id, position, velocity per particle) of timestep i, negative i counting from the end; data[[i, j, ...]] has one such matrix per entry in the order of the list, filled up with zeros to the number of particles. This holds after any other accesses.", "quantifier": "all files, all sequences of keys", "why_tests_cant": "the answer depends on the state of the buffer after all earlier accesses", "anchors": ["src/pylib.rs:PyData.__getitem__", "src/datamanager/pdata.rs:get_timestep", "src/datamanager/tdata.rs:get_timestep"]}
{"id": "C74", "title": "Slices from Python", "statement": "data[start:stop:step] gives the matrices of the timesteps Python's slice semantics selects, in that order.", "quantifier": "all files, all starts, stops and steps", "why_tests_cant": "tests use step 1; other steps lose timesteps, panic or give zeros", "anchors": ["src/pylib.rs:PyData.__getitem__"]}
{"id": "C75", "title": "Indices outside the data are refused", "statement": "data[i] with i >= len(data) or i < -len(data) is an error, so that iteration ends and no wrong data is returned.", "quantifier": "all files, all indices outside", "why_tests_cant": "the wrong answer is a valid timestep", "anchors": ["src/pylib.rs:PyData.__getitem__", "src/datamanager/pdata.rs:update", "src/datamanager/tdata.rs:update"]}
{"id": "C76", "title": "Quiver plots show the field", "statement": "A quiver plot has one arrow per cell of the plane; it starts at the position of the cell and, unscaled, ends at that position plus the two in-plane components of the cell's vector (of the plane, or of the weighted depth average).", "quantifier": "all grids, axes, planes and depth averages", "why_tests_cant": "mixed-up axes give a plausible picture on cubic grids", "anchors": ["src/plotting/plotting_2d/quiver.rs:QuiverPlot", "src/pylib/libplot.rs:_quiver_plot"]}
{"id": "C77", "title": "Arrow length limits", "statement": "With scaling modes min, max and minmax every arrow is a positive multiple of its vector, with a length clipped to the limit(s).", "quantifier": "all fields and limits", "why_tests_cant": "needs every combination of lengths and limits, including zero vectors", "anchors": ["src/plotting/plotting_2d/quiver.rs:bound_min", "src/plotting/plotting_2d/quiver.rs:bound_max", "src/plotting/plotting_2d/quiver.rs:bound_min_max"]}
{"id": "C78", "title": "Node scaling", "statement": "With half_node and full_node no arrow is longer than half a cell or a cell, and directions and length ratios are kept.", "quantifier": "all fields and grids", "why_tests_cant": "only grids with non-square cells show the distortion", "anchors": ["src/plotting/plotting_2d/quiver.rs:bound_half_node", "src/plotting/plotting_2d/quiver.rs:bound_full_node"]}
{"id": "C79", "title": "Arrow colours", "statement": "The colour of an arrow is given by the true speed of its cell, linearly between the least speed (0) and the greatest speed (1), whatever the scaling of the lengths; the colour bar shows this range.", "quantifier": "all fields and scaling modes", "why_tests_cant": "uses the minimum and maximum over the whole plane", "anchors": ["src/plotting/plotting_2d/quiver.rs:normalise_colour", "src/plotting/plotting_2d/quiver.rs:create_quiver_traces"]}
{"id": "C80", "title": "Arrow heads", "statement": "Every arrow has a head at its tip that is symmetric about the arrow: two barbs of 0.3 of its length at 20 degrees to it.", "quantifier": "all vectors", "why_tests_cant": "must hold for every direction", "anchors": ["src/plotting/plotting_2d/quiver.rs:create_arrows"]}
{"id": "C81", "title": "Unit vector plots", "statement": "In a unit vector plot all arrows of non-zero vectors have equal length and the direction of their vector; the background shows the true speed of each cell at its position.", "quantifier": "all fields and grids", "why_tests_cant": "only grids with non-square cells show the distortion", "anchors": ["src/plotting/plotting_2d/unit_vector.rs:UnitVectorPlot", "src/pylib/libplot.rs:_unit_vector_plot"]}
{"id": "C82", "title": "Scalar maps", "statement": "A scalar map shows at the position of each cell of the plane the value of the cell (for vector grids the in-plane speed).", "quantifier": "all grids, axes, planes and depth averages", "why_tests_cant": "mixed-up axes give a plausible picture on cubic grids", "anchors": ["src/plotting/plotting_2d/scalar_map.rs:ScalarMap", "src/pylib/libplot.rs:_scalar_map"]}
{"id": "C83", "title": "Contour plots", "statement": "A contour plot has the cell values as a table whose rows and columns belong to the positions given for them, and its levels run from the least to the greatest value in the given number of steps.", "quantifier": "all grids, axes, planes and depth averages, all numbers of levels", "why_tests_cant": "a transposed table is invisible for symmetric data", "anchors": ["src/plotting/plotting_2d/scalar_contour.rs:ScalarContour", "src/pylib/libplot.rs:_scalar_contour"]}
{"id": "C84", "title": "Parity plots", "statement": "A parity plot pairs the values of two grids cell by cell (and component by component), with a line on the diagonal that reaches over all points; grids of different shapes are refused.", "quantifier": "all pairs of grids, axes, planes and depth averages", "why_tests_cant": "the range must hold for all values of all components", "anchors": ["src/plotting/plotting_2d/parity_plot.rs:ParityPlot", "src/pylib/libplot.rs:_parity_plot_from_grid"]}
{"id": "C85", "title": "Parity maps", "statement": "Parity maps and contours show at the position of each cell the reference value minus the comparison value.", "quantifier": "all pairs of grids, axes, planes and depth averages", "why_tests_cant": "mixed-up axes give a plausible picture on cubic grids", "anchors": ["src/plotting/plotting_2d/parity_map.rs:ParityMap", "src/plotting/plotting_2d/parity_contour.rs:ParityContour"]}
{"id": "C86", "title": "Plot arguments are checked", "statement": "A plot method either raises ValueError or runs the plot the arguments mean; no missing size or index makes the Rust layer panic, and no documented call is refused.", "quantifier": "all arguments", "why_tests_cant": "the space of argument combinations", "anchors": ["up4/plotting.py:Plotter2D._validate_input", "up4/plotting.py:Plotter2D.quiver_plot", "up4/plotting.py:Plotter2D.unit_vector_plot"]}
{"id": "C87", "title": "Mean squared displacement curves", "statement": "The curve returned by msd has one entry per requested delay, the delays evenly spaced from the first to the last, each entry being the mean squared displacement over that delay of the particles seen in the grid.", "quantifier": "all datasets, grids, delays and numbers of steps", "why_tests_cant": "the sum over cells hides which samples were counted", "anchors": ["src/functions/mixing.rs:msd", "src/pylib.rs:PyData.msd"]}
{"id": "C88", "title": "Answers do not depend on earlier calls", "statement": "The answer of a method of Data depends only on the file, the arguments and the time window set last, not on which other methods were called before, in which order, or how often.", "quantifier": "all files, all sequences of calls of 24 methods with all arguments", "why_tests_cant": "the buffers keep state between calls; a test makes a few calls in one order", "anchors": ["src/pylib.rs:PyData", "src/datamanager/tdata.rs:get_timestep", "src/datamanager/tdata.rs:setup_buffer", "src/datamanager/tdata.rs:get_timestep_buffer", "src/datamanager/pdata.rs:get_timestep"]}
{"id": "C89", "title": "mean_velocity is the mean speed of the particles", "statement": "mean_velocity() of a converted file is the mean speed of all particles of the time window that is set.", "quantifier": "all files, all sequences of earlier calls, all time windows", "why_tests_cant": "the returned number is always a plausible speed", "anchors": ["src/functions.rs:mean_velocity", "src/pylib.rs:PyData.mean_velocity"]}
{"id": "C90", "title": "From VTK files to answers", "statement": "After converting a list of VTK files and opening the result, whatever was called before: len is the number of files, time the list of their times, numberfield counts in every cell the records of the files with times in the window that is set, vectorfield gives in every cell the mean velocity of these records, and setting a window that begins after the last file is an error.", "quantifier": "all lists of VTK files, all records, all earlier calls, all grids", "why_tests_cant": "composition of conversion, storage, buffering, selection and analysis", "anchors": ["src/converter.rs:vtk", "src/functions.rs:numberfield", "src/functions.rs:vectorfield", "src/pylib.rs:PyData"]}
{"id": "C91", "title": "From a CSV file to answers", "statement": "After converting a CSV file of one trajectory and opening the result, whatever was called before: len, time and nparticles describe the rows of the file, extract returns the rows themselves, numberfield counts in every cell the rows with times in the window, and vectorfield gives their mean velocity.", "quantifier": "all CSV files, all earlier calls, all grids", "why_tests_cant": "as for VTK files", "anchors": ["src/converter.rs:csv_converter", "src/functions.rs:numberfield", "src/functions.rs:vectorfield", "src/pylib.rs:PyData"]}
{"id": "C92", "title": "The grid constructor makes the grid that was asked for", "statement": "Grid(...) returns an empty grid of the requested style over the requested box (limits if given, else each of xlim, ylim, zlim if given, else the extent of the data), with num_cells cells, or with as many whole cells of the given cell_size as fit along each axis of the box; it accepts every box with ordered sides.", "quantifier": "all combinations of arguments", "why_tests_cant": "the branches of the constructor treat combinations of optional arguments differently; no test covers them all", "anchors": ["up4/grid.py:Grid.__new__", "up4/grid.py:calc_num_cells", "src/pylib/libgrid.rs:cartesian3d", "src/pylib/libgrid.rs:cylindrical3d", "src/pylib/libgrid.rs:cartesian3d_from_data"]}
{"id": "C93", "title": "Grid.plot shows the depth average at the right place", "statement": "The heat map of Grid.plot(axis) shows, for axis 0, 1, 2, in each pixel the weighted mean of the line of cells along the axis whose positions label the pixel's row and column; other axes raise.", "quantifier": "all grids, contents and axes", "why_tests_cant": "transposed axes look plausible on square symmetric examples", "anchors": ["src/pylib/libgrid.rs:plot", "src/grid/cartesian_grid.rs:collapse"]}
{"id": "C94", "title": "An interrupted or failed conversion is never mistaken for data", "statement": "If a conversion stops after any of its writes, by a panic of its own or from outside, then either it has not yet touched the output name, or Data(filename) raises; only a conversion that made all its writes leaves a file that loads, and it loads as the converted data, whatever file was there before.", "quantifier": "all converters, inputs, options, crash points between writes and earlier contents of the output name", "why_tests_cant": "there are hundreds of crash points per conversion", "anchors": ["src/converter.rs:vtk", "src/converter.rs:csv_converter", "src/converter/csv_modes/csv_multi_chain.rs:csv_multi_chain", "src/converter/csv_modes/csv_multi_idline.rs:csv_multi_idline", "src/converter/csv_modes/csv_multi_file_time_step.rs:csv_multi_file_time_step", "src/pylib.rs:PyData.constructor", "src/datamanager/tdata.rs:global_stats", "src/datamanager/pdata.rs:global_stats"]}
{"id": "C95", "title": "The time of a VTK file is the number in its name", "statement": "With the documented filter (\\d+).vtk (or .vtu, .vtp) the time of a file is the time step times the number at the end of its name, whatever the folder is called.", "quantifier": "all paths, all numbers", "why_tests_cant": "the regular expression is applied to the whole path; tests use one folder name", "anchors": ["src/converter.rs:vtk", "src/pylib/libconv.rs:vtk"]}
{"id": "C96", "title": "Folder conversion", "statement": "vtk_from_folder converts exactly the files of the folder that have the extension of the filter and are no bounding boxes, in natural order of their names, independently of the order in which the operating system lists them and of other files in the folder.", "quantifier": "all folders, all listings", "why_tests_cant": "listing order differs between file systems", "anchors": ["src/converter.rs:write_hdf5_from_folder", "src/pylib/libconv.rs:vtk_from_folder"]}
{"id": "C97", "title": "VTK files are read completely and by name", "statement": "Converter.vtk takes ids, radii (or diameters), types and velocities from the fields with the given names, of all pieces of each file, and the result holds exactly these particles; a file in which a named field is missing or of a wrong shape is refused.", "quantifier": "all files, field names, numbers of pieces and particles, legacy and both XML kinds", "why_tests_cant": "depends on the structure of the files", "anchors": ["src/converter/xmltools.rs:get_field", "src/converter/xmltools.rs:get_positions", "src/converter/legacytools.rs:get_field", "src/pylib/libconv.rs:vtk"]}
{"id": "C98", "title": "A conversion raises or writes", "statement": "Every call of Converter.vtk, vtk_from_folder and csv_multi either raises or writes the output file; in particular the calls with default arguments convert.", "quantifier": "all filters, methods and files", "why_tests_cant": "silent calls look like successful ones", "anchors": ["src/pylib/libconv.rs:vtk", "src/pylib/libconv.rs:vtk_from_folder", "src/pylib/libconv.rs:csv_multi", "src/converter.rs:csv_multi_converter"]}
{"id": "C99", "title": "Depth averages of mean fields are means over the column", "statement": "collapse (collapse_two) of vectorfield and velocityfield gives for every column (layer) of cells the mean over all samples in it, NaN if there is none; cells of the column without samples do not matter.", "quantifier": "all datasets, selectors, grids, axes and columns", "why_tests_cant": "empty cells hold NaN and unequal counts need weights; few datasets have both", "anchors": ["src/grid/cartesian_grid.rs:collapse", "src/grid/cartesian_grid.rs:collapse_two", "src/functions.rs:vectorfield", "src/functions.rs:velocityfield"]}
{"id": "C100", "title": "The depth average of numberfield is the mean count", "statement": "collapse of numberfield gives for every column the mean number of samples per cell.", "quantifier": "all datasets, selectors, grids, axes and columns", "why_tests_cant": "on columns of equal counts the self-weighted mean is the same number", "anchors": ["src/grid/cartesian_grid.rs:collapse", "src/functions.rs:numberfield"]}
{"id": "C101", "title": "A CSV file is read as the table it shows", "statement": "The CSV converters take from a text file exactly its rows of numbers in order: lines that begin with the comment character and blank lines are ignored anywhere, the first row is skipped if header is set, cells are separated by the delimiter, lines end with LF or CRLF (or, in files without comments, CR); if the rows are not such a table the file is refused.", "quantifier": "all texts without quotation marks, all delimiters and comment characters, header or not", "why_tests_cant": "depends on the whole text of the file", "anchors": ["src/converter.rs:csv_converter", "src/converter/csv_modes/csv_multi_chain.rs:csv_multi_chain", "src/converter/csv_modes/csv_multi_idline.rs:csv_multi_idline", "src/converter/csv_modes/csv_multi_file_time_step.rs:csv_multi_file_time_step"]}
{"id": "C102", "title": "Malformed CSV files are refused", "statement": "A CSV file with a cell that is no number, or with rows of different lengths, makes csv, csv_multi and csv_multi_files raise.", "quantifier": "all malformed files, all options", "why_tests_cant": "the malformed cell may be anywhere", "anchors": ["src/pylib/libconv.rs:csv", "src/pylib/libconv.rs:csv_multi", "src/pylib/libconv.rs:csv_multi_files"]}
{"id": "C103", "title": "The CSV converters work with their default arguments", "statement": "Converter.csv, csv_multi and csv_multi_files called with only the file names (and times) convert comma-separated files with a header and the documented columns.", "quantifier": "all such files", "why_tests_cant": "whether any file works is no single test", "anchors": ["src/pylib/libconv.rs:csv", "src/pylib/libconv.rs:csv_multi", "src/pylib/libconv.rs:csv_multi_files"]}
{"id": "C104", "title": "From the text of a CSV file to answers", "statement": "After converting the text of a CSV file of one trajectory and opening the result, whatever was called before: len, time, extract and numberfield answer with the numbers written in the file.", "quantifier": "all texts, all earlier calls, all grids", "why_tests_cant": "composition of parsing, conversion, storage, buffering, selection and analysis", "anchors": ["src/converter.rs:csv_converter", "src/pylib.rs:PyData", "src/functions.rs:numberfield", "src/functions.rs:extract"]}
{"id": "C105", "title": "vectorfield is accurate in floating point", "statement": "In IEEE binary64 with round to nearest even, every visited cell of a vectorfield on a Cartesian grid holds for each component the mean of the stored velocities with an error of at most (n+5)/2^52 times the mean absolute value plus 2^-533, n the number of samples; there is no overflow and no NaN.", "quantifier": "all datasets of finite velocities up to 2^500, all selectors, grids and cells", "why_tests_cant": "rounding errors depend on every sample and on their order", "anchors": ["src/functions.rs:vectorfield"]}
{"id": "C106", "title": "velocityfield is accurate in floating point", "statement": "In IEEE binary64 the value of a visited cell is the mean of the exact speeds (or components) of the accepted samples up to (n+5)/2^52 of their mean absolute value plus 2^-533; acceptance by the velocity limits can differ from the exact comparison only for speeds within 2^-51 (relative) of a limit.", "quantifier": "all datasets of finite velocities up to 2^500, all modes, limits, selectors, grids and cells", "why_tests_cant": "rounding errors depend on every sample and on their order", "anchors": ["src/functions.rs:velocityfield"]}
{"id": "C107", "title": "mean_velocity_showcase is the mean speed of the valid particles", "statement": "mean_velocity_showcase returns the mean speed of the particles that the selector accepts, ignoring incomplete velocities, up to rounding.", "quantifier": "all datasets and selectors", "why_tests_cant": "only selectors that exclude particles show a difference", "anchors": ["src/functions.rs:mean_velocity_showcase"]}
{"id": "C108", "title": "granular temperature is accurate in floating point", "statement": "In IEEE binary64 a cell with n samples holds the root of the mean squared deviation of the velocities; the error of the square is at most n/2^47 of the mean square velocity plus 2^-1069, and the value is a number.", "quantifier": "all datasets of finite velocities up to 2^400, all modes, selectors, grids and cells", "why_tests_cant": "cancellation: the computed difference of large sums may be negative", "anchors": ["src/functions.rs:granular_temperature"]}
{"id": "C109", "title": "dispersion is accurate in floating point", "statement": "In IEEE binary64 a cell in which n > 1 particles start holds the sum over the axes of the sample variances of their later positions up to n/2^46 of the mean square position plus 2^-1068 (the error may make it negative), and a cell with fewer holds 0.", "quantifier": "all datasets of finite positions up to 2^400 with nondecreasing times, all delays, selectors, grids and cells", "why_tests_cant": "cancellation: the computed difference of large sums may be negative", "anchors": ["src/functions.rs:dispersion"]}
{"id": "C110", "title": "Fields depend only on what was seen", "statement": "Two datasets in which the selected particles have the same positions and velocities, whatever their order, numbering and distribution over timesteps, give the same numberfield, velocityfield, vectorfield and granular temperature; in particular the order of the particles within a timestep does not matter.", "quantifier": "all pairs of datasets and selectors, all grids", "why_tests_cant": "a relation between two runs, for all permutations", "anchors": ["src/functions.rs:numberfield", "src/functions.rs:velocityfield", "src/functions.rs:vectorfield", "src/functions.rs:granular_temperature"]}
{"id": "C111", "title": "Samples pool", "statement": "If the selected samples of one analysis are those of two others together, for instance of two adjacent time windows, the counts add up in every cell and the means are the means weighted with the numbers of samples.", "quantifier": "all datasets, splits, grids and cells", "why_tests_cant": "a relation between three runs, for all splits", "anchors": ["src/functions.rs:numberfield", "src/functions.rs:velocityfield", "src/functions.rs:vectorfield", "src/pylib.rs:PyData.set_time"]}
{"id": "C112", "title": "Fields do not depend on the unit of length or the origin", "statement": "Positions and grid limits measured in another unit and from another origin, possibly different per axis, give the same number, velocity and vector fields cell by cell.", "quantifier": "all datasets, grids, positive scales and shifts", "why_tests_cant": "a relation between two runs, for all scales", "anchors": ["src/functions.rs:numberfield", "src/functions.rs:velocityfield", "src/functions.rs:vectorfield", "src/grid/cartesian_grid.rs:cell_id", "src/grid/cartesian_grid.rs:is_inside"]}
{"id": "C113", "title": "Fields scale with the unit of velocity", "statement": "Velocities (and velocity limits) measured in another unit give velocityfield, vectorfield and granular temperature in that unit, with the same empty cells.", "quantifier": "all datasets, grids, positive scales", "why_tests_cant": "a relation between two runs, for all scales", "anchors": ["src/functions.rs:velocityfield", "src/functions.rs:vectorfield", "src/functions.rs:granular_temperature"]}
{"id": "C114", "title": "A finer grid refines the counts", "statement": "If every cell of a grid is divided, the number of particles in a cell is the sum of the numbers in its parts.", "quantifier": "all datasets, grids and factors", "why_tests_cant": "a relation between two runs, for all particles", "anchors": ["src/functions.rs:numberfield", "src/grid/cartesian_grid.rs:cell_id"]}
{"id": "C115", "title": "Published positions of a cylindrical grid are its cell centres", "statement": "The positions a cylindrical grid publishes (one per cell and axis) are the centres of its cells, and the position with cylindrical coordinates (r_i, theta_j, z_k) lies in the cell (i, j, k).", "quantifier": "all boxes and numbers of cells", "why_tests_cant": "a relation between the tables of the grid and the lookup, for all cells", "anchors": ["src/pylib/libgrid.rs:cell_positions", "src/grid/cylindrical_grid.rs:new", "src/grid/cylindrical_grid.rs:cell_id"]}
{"id": "C116", "title": "The printed summary of a scalar grid", "statement": "The printed form of a grid names its numbers of cells, its limits and the mean, standard deviation, minimum and maximum of the cells that hold numbers; empty cells do not matter and a grid without numbers shows NaN.", "quantifier": "all grids and contents", "why_tests_cant": "empty cells can be anywhere", "anchors": ["src/pylib/libgrid.rs:__str__"]}
{"id": "C117", "title": "The printed summary of a vector grid", "statement": "The printed form of a vector grid gives mean, standard deviation, minimum and maximum of the vectors of the cells that were visited.", "quantifier": "all vector grids and contents", "why_tests_cant": "empty cells can be anywhere", "anchors": ["src/pylib/libgrid.rs:__str__"]}
{"id": "C118", "title": "cell_id and is_inside agree", "statement": "is_inside needs three coordinates; cell_id returns the cell that contains the position, a cell of the grid, if is_inside says yes, and raises if it says no.", "quantifier": "all grids and positions, also NaN", "why_tests_cant": "must hold for all floating-point positions", "anchors": ["src/pylib/libgrid.rs:cell_id", "src/pylib/libgrid.rs:is_inside", "src/grid/cartesian_grid.rs:cell_id", "src/grid/cylindrical_grid.rs:cell_id"]}
{"id": "C119", "title": "Depth averages are accurate in floating-point arithmetic", "statement": "The collapse of velocityfield and vectorfield along one or two axes differs from the mean over all samples of the column or layer by rounding only: relative to the mean absolute value by less than (number of samples + twice the number of cells + 16) times 2^-52; nothing overflows, and only empty columns are NaN.", "quantifier": "all datasets of up to 2^52 samples, all grids and axes", "why_tests_cant": "a bound over all orders of magnitude and all numbers of samples", "anchors": ["src/grid/cartesian_grid.rs:collapse", "src/functions.rs:velocityfield", "src/functions.rs:vectorfield"]}
{"id": "C120", "title": "The cell lookup is right up to rounding", "statement": "In floating-point arithmetic a position inside a Cartesian grid is looked up in a cell that contains it up to 2^-50 of the extent of each axis; a position further than this from the faces of its cell is looked up in its cell, so that the number of particles counted in a cell lies between the number safely inside and the number not safely outside.", "quantifier": "all grids, positions and datasets whose numbers are doubles", "why_tests_cant": "a bound over all floating-point positions", "anchors": ["src/grid/cartesian_grid.rs:cell_id", "src/functions.rs:numberfield"]}
{"id": "C121", "title": "Numbers in CSV files", "statement": "A cell of a CSV file is read as a number exactly if it shows a decimal number in one of the usual notations or a word for infinity or NaN; the number is the one shown, rounded once (exact if it is a double, within half a unit in the last place otherwise), so that the order of numbers is kept. A file of decimal numbers is read as the table it shows, and the answers of Data on it are these numbers; a cell with a blank makes the conversion raise.", "quantifier": "all texts, all decimal numbers, all files", "why_tests_cant": "an infinite grammar", "anchors": ["src/converter.rs:csv_converter", "src/converter/csv_modes/csv_multi_chain.rs", "src/converter/csv_modes/csv_multi_idline.rs", "src/converter/csv_modes/csv_multi_file_time_step.rs"]}
{"id": "C122", "title": "Quoted cells in CSV files", "statement": "A cell in quotation marks stands for its content: it may contain the delimiter, line ends, comment characters and, in the standard way, quotation marks; quoting the header does not change what is read.", "quantifier": "all texts of cells, all files, all options", "why_tests_cant": "an infinite grammar; the escape conventions differ", "anchors": ["src/converter.rs:csv_converter", "src/converter/csv_modes/csv_multi_chain.rs:csv_multi_chain", "src/converter/csv_modes/csv_multi_idline.rs:csv_multi_idline", "src/converter/csv_modes/csv_multi_file_time_step.rs:csv_multi_file_time_step"]}
{"id": "C123", "title": "The fields of converted files, whatever the route", "statement": "VTK files (by list or by folder, in any order of the directory listing), a CSV file of one trajectory and CSV files for the timesteps give, once converted and opened and whatever was called before, the fields of the particles in the source files with times in the window: numberfield counts them, velocityfield and vectorfield are the mean velocities, granular temperature the root of the mean squared fluctuation, cell by cell.", "quantifier": "all source files, listings, earlier calls, grids, modes and velocity limits", "why_tests_cant": "composition of conversion, storage, buffering, selection and analysis over all files", "anchors": ["src/converter.rs:vtk", "src/converter.rs:csv_converter", "src/converter/csv_modes/csv_multi_file_time_step.rs:csv_multi_file_time_step", "src/functions.rs:numberfield", "src/functions.rs:velocityfield", "src/functions.rs:vectorfield", "src/functions.rs:granular_temperature", "src/pylib.rs:PyData"]}
{"id": "C124", "title": "The static grid constructors", "statement": "Grid.cartesian3d, Grid.cylindrical3d and their _from_data variants return a grid exactly for three numbers of cells, six limits (in the documented order) and the mode volume; the grid is empty, with these cells, over the box given or that of the data, and the same as the one of Grid(...) for the same box.", "quantifier": "all lists of cells and limits, all modes", "why_tests_cant": "every list length and value matters", "anchors": ["src/pylib/libgrid.rs:cartesian3d", "src/pylib/libgrid.rs:cylindrical3d", "src/pylib/libgrid.rs:cartesian3d_from_data", "src/pylib/libgrid.rs:cylindrical3d_from_data", "src/grid/cylindrical_grid.rs:new"]}
{"id": "C125", "title": "Every recorded timestep counts", "statement": "Every analysis takes all the timesteps of the file with times in the window into account, the first and the last as well: a change of the particles of any one of them can change the answer.", "quantifier": "all datasets, analyses and timesteps", "why_tests_cant": "off-by-one ranges hide in long recordings; a relation between two runs", "anchors": ["src/functions.rs:numberfield", "src/functions.rs:occupancyfield", "src/functions/mixing.rs:concentration_field", "src/functions/mixing.rs:lacey_mixing", "src/functions/conditional.rs:circulation_time", "src/functions/conditional.rs:circulation_time_two_boundary"]}
{"id": "C126", "title": "Particles are followed by their id", "statement": "dispersion, msd_field and occupancyfield compare a particle with itself at a later time: the particle with the same id, wherever it is listed; a particle that is gone by then does not count.", "quantifier": "all datasets, delays, selectors and grids", "why_tests_cant": "needs recordings whose particles are listed in another order or are missing; a relation between timesteps", "anchors": ["src/functions.rs:dispersion", "src/functions.rs:occupancyfield", "src/functions/mixing.rs:msd_field"]}
{"id": "C127", "title": "The analyses agree with each other", "statement": "On one dataset, grid and selection: the weights of velocityfield and vectorfield are the counts of numberfield; velocityfield in mode x, y or z is that component of vectorfield; in every visited cell the mean velocity V, the mean speed s and the granular temperature T satisfy |V|^2 <= s^2 <= |V|^2 + 3 T^2; and the bins of histogram add up to the number of particles counted in the grid.", "quantifier": "all datasets, selections, Cartesian grids and cells", "why_tests_cant": "relations between the answers of several functions", "anchors": ["src/functions.rs:numberfield", "src/functions.rs:velocityfield", "src/functions.rs:vectorfield", "src/functions.rs:granular_temperature_field", "src/functions.rs:histogram"]}
{"id": "C128", "title": "A selection that takes nothing gives an empty answer", "statement": "If the selection takes no particle of any timestep, every analysis still answers, and the answer shows that there is no data: counts (numberfield, histogram) are zero, means are NaN with weight zero, circulations are an empty list.", "quantifier": "all datasets, selections that take nothing, grids and arguments", "why_tests_cant": "the empty case meets every division and every index of every analysis", "anchors": ["src/functions.rs:numberfield", "src/functions.rs:velocityfield", "src/functions.rs:vectorfield", "src/functions.rs:granular_temperature_field", "src/functions.rs:occupancyfield", "src/functions.rs:histogram", "src/functions.rs:dispersion", "src/functions.rs:mean_velocity_showcase", "src/functions/mixing.rs:lacey_mixing", "src/functions/mixing.rs:concentration_field", "src/functions/mixing.rs:msd_field", "src/functions/conditional.rs:circulation_time"]}
{"id": "C129", "title": "The origin and the unit of time do not matter", "statement": "If all times of a recording, the window of the selection and the delay are shifted or expressed in another unit, the fields, the histogram, the mixing index, the occupancy, the dispersion and the mean squared displacement are the same, and circulations are the same with their times converted.", "quantifier": "all datasets, shifts and positive factors, all analyses and arguments", "why_tests_cant": "a relation between two runs for all clocks", "anchors": ["src/functions.rs:numberfield", "src/functions.rs:velocityfield", "src/functions.rs:occupancyfield", "src/functions.rs:dispersion", "src/functions/mixing.rs:msd_field", "src/functions/mixing.rs:lacey_mixing", "src/functions/conditional.rs:circulation_time", "src/functions/conditional.rs:circulation_time_two_boundary", "src/datamanager.rs:timestep_at_seconds_closest"]}
{"id": "C130", "title": "Narrowing the selection never adds anything", "statement": "If one selection takes only particles that another one takes (for instance after tightening a range or shrinking the time window), no count of numberfield, no number of samples behind velocityfield, vectorfield or concentration_field and no bin of histogram is larger, and the circulation times of some of the trajectories are among those of all; tightening any setting narrows the selection.", "quantifier": "all datasets, pairs of selections, grids and cells", "why_tests_cant": "a relation between two runs, for all selections", "anchors": ["src/functions.rs:numberfield", "src/functions.rs:velocityfield", "src/functions.rs:vectorfield", "src/functions.rs:histogram", "src/functions/mixing.rs:concentration_field", "src/functions/conditional.rs:circulation_time", "src/functions/conditional.rs:circulation_time_two_boundary", "src/particleselector.rs:timestep_valid", "src/particleselector.rs:is_valid"]}
{"id": "C131", "title": "A byte order mark makes no difference", "statement": "A CSV file that begins with a byte order mark, as spreadsheet programs write it, is converted exactly as the same file without it, by each of the CSV converters.", "quantifier": "all texts, delimiters, comment characters and options", "why_tests_cant": "every text and option", "anchors": ["src/converter.rs:csv_converter", "src/converter/csv_modes/csv_multi_file_time_step.rs:csv_multi_file_time_step"]}
{"id": "C132", "title": "Aligning two datasets", "statement": "compare followed by align finds the offset of the first dataset, among 100 steps within a quarter of its size to either side along each axis, for which the number of the 100^3 grid cells that are frequented in exactly one of the two datasets is least (zero for a dataset compared with itself), brings datasets in different units (mm and m) to one scale first, and keeps the result in the comparer.", "quantifier": "all pairs of datasets, grids and recorded limits", "why_tests_cant": "a minimum over a million offsets of counts over a million cells, for all datasets", "anchors": ["src/comparison.rs:compare", "src/comparison.rs:align", "src/comparison.rs:make_grid", "src/comparison.rs:binary_threshold"]}
{"id": "C133", "title": "Colour maps", "statement": "Every colour map name a plot accepts is drawn with the colour map of that name; in a quiver plot an arrow has the colour the colour bar shows for its speed; without a colour map quiver arrows are black and there is no bar; in maps and contours the choice changes the colours only; unknown names are refused. As documented, names are case-insensitive and every plot that takes a colour map uses it.", "quantifier": "all names, fields, planes and arguments", "why_tests_cant": "every name and every speed", "anchors": ["src/pylib/libplot.rs:get_gradient", "up4/plotting.py:_validate_input", "src/plotting/plotting_2d/quiver.rs:create_quiver_traces", "src/plotting/plotting_2d/quiver.rs:get_colour_map", "up4/plotting.py:parity_map"]}
{"id": "C134", "title": "A call that raises does no harm", "statement": "After calls that raise an exception (an index or a time window that does not exist, an analysis that stops half way), the dataset object answers every further call as if the failed calls had not been made.", "quantifier": "all files, histories of calls that return or raise, points at which an analysis stops, and further calls", "why_tests_cant": "every history and every point of failure", "anchors": ["src/pylib.rs:__getitem__", "src/pylib.rs:set_time", "src/datamanager/pdata.rs:update", "src/datamanager/tdata.rs:update", "src/datamanager/pdata.rs:get_timestep", "src/datamanager/tdata.rs:get_timestep", "src/datamanager/pdata.rs:get_timestep_buffer", "src/datamanager/tdata.rs:setup_buffer"]}
{"id": "C135", "title": "The names of the axes do not matter", "statement": "If the axes of all positions and velocities are exchanged and the grid is exchanged with them, every cell of numberfield and concentration_field keeps its value at the exchanged index, the components of vectorfield and the velocity modes of velocityfield are exchanged likewise, and the circulation times along an axis are the former ones along the axis it was.", "quantifier": "all datasets, permutations of the axes, Cartesian grids, selections, modes and boundaries", "why_tests_cant": "a relation between two runs, for all datasets and permutations", "anchors": ["src/functions.rs:numberfield", "src/functions.rs:velocityfield", "src/functions.rs:vectorfield", "src/functions/mixing.rs:concentration_field", "src/functions/conditional.rs:circulation_time", "src/functions/conditional.rs:circulation_time_two_boundary", "src/grid/cartesian_grid.rs:cell_id"]}
{"id": "C136", "title": "Every sensible call answers", "statement": "On a sound file (complete columns, the same particles in every timestep, times in order), and on every file converted from a sound CSV table or sound VTK files, every call with sensible arguments returns an answer, whatever was called before and whatever numbers were recorded (NaN and infinities included).", "quantifier": "all sound files, sequences of calls, arguments and recorded numbers, both build profiles", "why_tests_cant": "every sequence of calls on every file", "anchors": ["src/pylib.rs:vectorfield", "src/pylib.rs:__getitem__", "src/pylib.rs:set_time", "src/functions.rs:occupancyfield", "src/functions.rs:dispersion", "src/functions.rs:histogram", "src/functions/mixing.rs:lacey_mixing", "src/functions/mixing.rs:msd", "src/functions/conditional.rs:circulation_time"]}
{"id": "C137", "title": "Printing a dataset tells what the file holds", "statement": "The text of str(data) and repr(data) names, whatever was called before, the kind of the file, the recorded minimum, maximum and extent of each axis, the last time, the numbers of particles and timesteps and the mean, smallest and largest speed, each number correctly rounded to two decimals and in its own line; after converting VTK files the timesteps, the last time and the mean speed are those of the files.", "quantifier": "all files, recorded numbers (NaN and infinities included) and sequences of calls; all VTK files", "why_tests_cant": "every number and every history", "anchors": ["src/datamanager/tdata.rs:info", "src/datamanager/pdata.rs:info", "src/pylib.rs:__str__", "src/pylib.rs:__repr__"]}
{"id": "C138", "title": "A moving observer sees the same fluctuations", "statement": "If a constant velocity is added to all velocities, granular_temperature does not change, every vector of vectorfield changes by that velocity, and so does every cell of velocityfield in a mode of one component (with shifted velocity limits).", "quantifier": "all datasets, selections, grids and added velocities", "why_tests_cant": "a relation between two runs, for all datasets", "anchors": ["src/functions.rs:granular_temperature", "src/functions.rs:vectorfield", "src/functions.rs:velocityfield"]}
{"id": "C139", "title": "Mirror images", "statement": "If all positions and velocities are mirrored in the mid-plane of the grid along an axis, every field is the mirror image: cell i has the value cell n-1-i had, and the velocity component across the plane changes its sign.", "quantifier": "all datasets, selections, Cartesian grids and axes", "why_tests_cant": "a relation between two runs, for all datasets and grids", "anchors": ["src/functions.rs:numberfield", "src/functions.rs:velocityfield", "src/functions.rs:vectorfield", "src/grid/cartesian_grid.rs:cell_id"]}
{"id": "C140", "title": "Saved figures have the resolution asked for", "statement": "save_fig makes the image as many pixels wide as the width between the margins of the paper in inches times dpi, whatever the width of the figure (up to rounding); margins that take the whole paper give no image.", "quantifier": "all widths, resolutions, margins and papers", "why_tests_cant": "all numbers and their rounding", "anchors": ["up4/plotting.py:save_fig"]}
{"id": "C141", "title": "The methods of a grid object fit together", "statement": "Whatever methods of a grid were called before, returned or raised: the arrays of to_numpy and weights_to_numpy have the shape that shape tells, with one of the cell_positions for each index; slice answers exactly for existing layers and gives the entries of to_numpy; collapse and collapse_two answer exactly for existing, different axes; is_inside and cell_id answer by the limits; only remove_outliers changes the grid, and not if it raises. A vector grid gives the three components in order.", "quantifier": "all grids, sequences of method calls and arguments (negative ones included)", "why_tests_cant": "every history and every argument", "anchors": ["src/pylib/libgrid.rs:to_numpy", "src/pylib/libgrid.rs:weights_to_numpy", "src/pylib/libgrid.rs:shape", "src/pylib/libgrid.rs:slice", "src/pylib/libgrid.rs:slice_pos", "src/pylib/libgrid.rs:collapse", "src/pylib/libgrid.rs:collapse_two", "src/pylib/libgrid.rs:remove_outliers", "src/pylib/libgrid.rs:cell_positions"]}
{"id": "C142", "title": "The occupancy field is accurate in floating-point arithmetic", "statement": "In IEEE binary64 every cell of occupancyfield is finite, nonnegative and equals the share of the time spent in the cell with a relative error of at most (n+2)/2^50 plus 2^-500, n the number of counted samples; if every counted step ends inside the grid the cells add up to 1 within (n+2)/2^50 plus 2^-500 per cell.", "quantifier": "all datasets with stored times, grids, selections and minimum speeds, with at most 2^48 counted samples taking up at least 2^-500 seconds", "why_tests_cant": "an error bound for every sequence of rounded additions", "anchors": ["src/functions.rs:occupancyfield"]}
{"id": "C143", "title": "Selecting is the same as having recorded only that", "statement": "A dataset that holds just the timesteps within the time window, each with just the particles the selection takes, gives without any selection bit by bit the same numberfield, velocityfield, vectorfield and granular_temperature as the whole dataset with the selection; the fields depend on nothing but the sequence of selected positions and velocities.", "quantifier": "all datasets, grids, selections, modes and velocity limits, in floating-point arithmetic", "why_tests_cant": "a relation between runs on two arbitrary datasets", "anchors": ["src/functions.rs:numberfield", "src/functions.rs:velocityfield", "src/functions.rs:vectorfield", "src/functions.rs:granular_temperature", "src/datamanager.rs"]}
{"id": "C144", "title": "Nothing is lost between the cells", "statement": "Weighted with their counts, the cells of velocityfield and of each component of vectorfield add up to the sum over all samples taken, whatever the grid and its cells, so two grids around the same particles give the same overall mean; if the grid holds all particles, the weighted mean of velocityfield is what mean_velocity_showcase returns; and mean velocity and granular temperature together carry the whole kinetic energy: |V|^2 + 3 T^2, weighted with the counts, adds up to the squares of all velocities.", "quantifier": "all datasets, selections, grids, modes and limits, in exact arithmetic", "why_tests_cant": "a conservation law over arbitrary data", "anchors": ["src/functions.rs:velocityfield", "src/functions.rs:vectorfield", "src/functions.rs:granular_temperature", "src/functions.rs:mean_velocity_showcase"]}
{"id": "C145", "title": "Recorded velocity statistics are accurate in floating-point arithmetic", "statement": "In IEEE binary64 the means of the velocity components and of the speed that a conversion of VTK files, of a CSV trajectory or of one CSV file per timestep records, and with them mean_velocity(), are those over all recorded particles up to a relative error of (n+5)/2^52, n the number of recorded particles.", "quantifier": "all files with stored finite velocities up to 2^500 and fewer than 2^52 particles, and sequences of calls", "why_tests_cant": "an error bound for every sequence of rounded additions", "anchors": ["src/converter.rs:write_hdf5_from_files", "src/converter.rs:csv_converter", "src/converter/csv_modes/csv_multi_file_time_step.rs:csv_multi_file_time_step", "src/functions.rs:mean_velocity"]}
{"id": "C146", "title": "The radius given to a conversion", "statement": "Whatever the CSV file and the other options, every particle of every timestep read from the file that csv or csv_multi writes has the radius given. The same should hold of csv_multi_files, and its options vel and interpolate should take effect.", "quantifier": "all CSV texts, options, methods and sequences of reads", "why_tests_cant": "every text and every option", "anchors": ["src/converter.rs:csv_converter", "src/converter/csv_modes/csv_multi_chain.rs:csv_multi_chain", "src/converter/csv_modes/csv_multi_idline.rs:csv_multi_idline", "src/converter/csv_modes/csv_multi_file_time_step.rs:csv_multi_file_time_step", "src/pylib/libconv.rs:csv_multi_files"]}
{"id": "C147", "title": "The grid made from a dataset wraps it", "statement": "A grid made from a converted dataset alone (Grid(data), in either style and with whatever numbers of cells) holds every particle of the source files, so that numberfield on it, after whatever calls, counts every particle in the time window: its cells add up to their number.", "quantifier": "all VTK and CSV files, numbers of cells, histories of calls and windows", "why_tests_cant": "a statement over all files and sequences of calls", "anchors": ["up4/grid.py:Grid.__new__", "src/pylib.rs:min_position", "src/pylib.rs:max_position", "src/converter.rs:write_hdf5_from_files", "src/converter.rs:csv_converter", "src/functions.rs:numberfield", "src/grid/cartesian_grid.rs:is_inside", "src/grid/cylindrical_grid.rs:is_inside"]}
{"id": "C148", "title": "A trajectory taken out and converted again is the same trajectory", "statement": "extract(i, (a, b)) returns, after whatever calls, the stored times, positions and velocities of particle i in the steps a to b-1. Written as a CSV table and converted, this gives a dataset with one timestep per row at the same times, from which extract returns the rows again and whose fields are those of the trajectory.", "quantifier": "all sound files, histories of calls on both files, particles, ranges of steps and calls on the converted file", "why_tests_cant": "every file and every history", "anchors": ["src/pylib.rs:extract", "src/functions/extractions.rs:extract", "src/converter.rs:csv_converter", "src/converter.rs:csv_converter"]}
{"id": "C149", "title": "The order in which a source lists its records does not matter", "statement": "Converting a CSV trajectory whose lines are listed in another order (csv, and csv_multi with the method id_line, where the lines of the particles may also be mixed), or VTK files that list their particles in another order, writes exactly the same file, or fails in the same way, with whatever options, as long as no record appears twice (no time twice, no id with the same time twice, no id twice in a VTK file).", "quantifier": "all tables and series of files, all orders, all options", "why_tests_cant": "all permutations of all sources", "anchors": ["src/converter.rs:csv_converter", "src/converter/csv_modes/csv_multi_idline.rs:csv_multi_idline", "src/converter/csv_modes/csv_multi_idline.rs:sort_by_id", "src/converter.rs:write_hdf5_from_files", "src/converter/convertertools.rs:sort_by_column", "src/converter/convertertools.rs:sort_by_array", "src/converter/convertertools.rs:make_sortlist"]}
{"id": "C150", "title": "What can be read is what is analysed", "statement": "On a sound file, whatever was called before, the fields are functions of what the user can read: the samples read with data[t], time(), data[t-n] and extract, restricted to the window and selection in force, determine numberfield, velocityfield, vectorfield and granular_temperature completely.", "quantifier": "all sound files, histories of calls, grids, modes and limits", "why_tests_cant": "every file and every history", "anchors": ["src/pylib.rs:__getitem__", "src/pylib.rs:time", "src/functions/extractions.rs:extract", "src/pylib.rs:set_time", "src/functions.rs:numberfield", "src/functions.rs:velocityfield", "src/functions.rs:vectorfield", "src/functions.rs:granular_temperature"]}
{"id": "C151", "title": "The same particles give the same fields, whatever file they come from", "statement": "VTK files, and CSV files for the timesteps (csv_multi_files) with the lines in any order and with any ids, that hold the same positions and velocities at the same times give the same numberfield, velocityfield, vectorfield and granular_temperature, whatever was called on either object, as long as the same time window is in force; so do the CSV file of a trajectory and one CSV file per timestep with one line each.", "quantifier": "all files, orders of lines, ids, histories of calls on both objects, grids, modes and limits", "why_tests_cant": "a relation between two file formats for all files and histories", "anchors": ["src/converter.rs:write_hdf5_from_files", "src/converter.rs:csv_converter", "src/converter/csv_modes/csv_multi_file_time_step.rs:csv_multi_file_time_step", "src/functions.rs:numberfield", "src/functions.rs:velocityfield", "src/functions.rs:vectorfield", "src/functions.rs:granular_temperature"]}
{"id": "C152", "title": "The mean squared displacement in floating-point arithmetic", "statement": "In IEEE double arithmetic msd_field gives every cell a finite value that differs from the mean squared displacement of the samples starting in the cell only by a small relative error that does not depend on the data, however many samples the cell has.", "quantifier": "all datasets, grids, selections and delays, all samples per cell", "why_tests_cant": "all coordinates and all counts of roundings", "anchors": ["src/functions/mixing.rs:msd_field", "src/pylib.rs:msd_field"]}
{"id": "C153", "title": "The homogeneity index in floating-point arithmetic", "statement": "In IEEE double arithmetic homogenity_index is, up to a small multiple of the rounding unit times the largest layer average, the standard deviation of the averages of the height layers of the occupancy field.", "quantifier": "all datasets, grids with any number of layers and selections", "why_tests_cant": "all roundings for any number of layers", "anchors": ["src/functions.rs:homogenity_index", "src/pylib.rs:homogenity_index"]}
{"id": "C154", "title": "Selecting by attribute in a converted CSV file is all or nothing", "statement": "On a converted CSV file, a selection by radius takes every particle its other criteria take if it wants the radius given to the conversion, and takes nothing otherwise; for one trajectory the other attributes are cloud 1, density 0 and id 0 for every row.", "quantifier": "all CSV files, all conversion options, all selections and time windows", "why_tests_cant": "every file and every combination of filters; the three converters store the radius differently", "anchors": ["src/converter.rs:csv_converter", "src/converter/csv_modes/csv_multi_idline.rs:csv_multi_idline", "src/converter/csv_modes/csv_multi_file_time_step.rs:csv_multi_file_time_step", "src/particleselector.rs:is_valid"]}
{"id": "C155", "title": "stats() prints the statistics without loss", "statement": "stats() prints seven lines with the limits of the system, the last time, the number of particles and the mean, lowest and highest speed, each under its name; after any calls it prints those of the file that was opened, and two files with the same text have the same statistics.", "quantifier": "all files, all histories of calls, all ways of printing numbers that keep numbers apart", "why_tests_cant": "whether two different files can print the same text cannot be tested", "anchors": ["src/datamanager/tdata.rs:stats", "src/datamanager/pdata.rs:stats", "src/pylib.rs:stats"]}
{"id": "C156", "title": "The Lacey index in floating-point arithmetic", "statement": "In IEEE double arithmetic lacey_mixing returns, for every timestep of the window but the last of the file, a finite number that differs from the exact Lacey index I only by about 2^-48 (n + |I|) / (P (1 - P)), n the number of cells and P the share of the first type.", "quantifier": "all datasets with both types in every timestep, grids of at least two cells, selections, thresholds", "why_tests_cant": "numerator and denominator are differences of rounded variances; all roundings for any number of cells and particles", "anchors": ["src/functions/mixing.rs:lacey_mixing", "src/pylib.rs:lacey_mixing"]}
{"id": "C157", "title": "The velocity histogram in floating-point arithmetic", "statement": "In IEEE double arithmetic the edges histogram returns are equally spaced up to a few roundings, every bin holds a whole number between the number of samples in the grid whose speed lies in the bin by a margin of about (bins+3) M / 2^48, and the number of those whose speed lies in the bin widened by it; if no speed is that close to an edge, the count is exact.", "quantifier": "all datasets, grids, selections, limits and numbers of bins", "why_tests_cant": "a particle near an edge may be rounded into the next bin; which ones cannot be sampled", "anchors": ["src/functions.rs:histogram", "src/pylib.rs:histogram"]}
{"id": "C158", "title": "Histograms add up, and finer ones refine coarser ones", "statement": "If the particles a selection sees are those seen in two others together, every bin of its histogram is the sum of theirs (for instance over adjacent time windows); the histogram does not depend on the order or numbering of the particles; and m times as many bins split every bin into m whose counts add up to it.", "quantifier": "all datasets, grids, selections, limits, numbers of bins and factors, also after other calls", "why_tests_cant": "all pairs of datasets and all refinements", "anchors": ["src/functions.rs:histogram", "src/pylib.rs:histogram"]}
{"id": "C159", "title": "The types and the threshold of the Lacey index", "statement": "lacey_mixing gives the same series with the two types swapped; a higher threshold never lowers any value of the series and leaves the times; thresholds 0 and 1 agree; a threshold above the number of particles of the two types gives N/(N-1), N the number of cells, the value of a perfect mixture, however they are distributed.", "quantifier": "all datasets with both types in every timestep, grids of at least two cells, selections and thresholds", "why_tests_cant": "all thresholds and distributions; the last is a trap no example shows to be general", "anchors": ["src/functions/mixing.rs:lacey_mixing", "src/pylib.rs:lacey_mixing"]}
{"id": "C160", "title": "The histogram does not depend on the units", "statement": "Positions and grid limits measured in another unit and from another origin give the same histogram; velocities, recorded extremes and limit in another unit of velocity give the same counts with the edges converted.", "quantifier": "all datasets, Cartesian grids (any grid for velocities), selections, units, origins and numbers of bins", "why_tests_cant": "all units and all datasets", "anchors": ["src/functions.rs:histogram", "src/pylib.rs:histogram"]}
