# Formal model of up4 in Lean 4 — design and trusted base

Sources: `/repo` (Rust and Python, pinned commit). Model and proofs: `/verif/lean/Verif`.
Properties: `properties.jsonl`; status per property: `MANIFEST.json`;
mutation log: `seeded/LOG.jsonl`; axioms of each theorem: `AXIOMS.md`;
concrete cases meeting the hypotheses of each theorem: the `example`s in `Verif/Props/*.lean` and `Verif/Cases/*.lean`, indexed in `CASES.md`.

## 1. How the code is modelled

* **f64.** `F K` = `nan | ninf | pinf | fin x` with `x` in an ordered field `K`
  (`Float.lean`). Every arithmetic operation is "exact operation, then `rnd`", where `rnd : K → F K`
  is a field of the class `Arith K` together with `sqrt`, `sin`, `cos`, `atan2`, `π`, `f64::MAX`.
  NaN/infinity rules, comparisons with NaN, division by zero and `as usize` (truncate,
  saturate, NaN → 0) are modelled explicitly.
  * `LawfulArith K` (rounding never NaN, monotone, sign-symmetric, idempotent, exact on `m/2^k` for
    `m ≤ 2^53`, `k ≤ 1000`; `sqrt` monotone and nonnegative; `atan2` in `[-π, π]`): theorems that
    assume only this hold for IEEE binary64 round-to-nearest-even. The concrete instance `B64`
    (`Binary64.lean`: rounding to nearest even with 53-bit significands, subnormals and overflow;
    every library function correctly rounded) is proved lawful, so the assumption is met by the
    real thing. That the platform's `sin/cos/atan2` are correctly rounded is not claimed; the laws only ask
    `atan2` to stay in its range.
  * `ExactArith K`: `rnd = fin`, exact `sqrt`, `sin² + cos² = 1`, polar form by `atan2`. Theorems that
    assume this are statements about exact real arithmetic; each such theorem says so. Instance: `ℝ`
    (`RealArith.lean`), with Mathlib's `Real.sqrt/sin/cos` and `Complex.arg`.
  * `RoundedArith K` (`Rounding.lean`): the standard error model of rounding (relative 2^-53 plus absolute 2^-1075, sums without the
    absolute part, no overflow up to 2^1023). Proved of `B64` and of `ℝ`; used by the accuracy theorems C105–C109, C119, C120 and C121.
  * Not modelled: signed zero (the only zero is +0), NaN payloads.
* **usize** is `ℕ` below 2^64; `Profile` = debug or release: subtraction underflow and addition
  overflow panic in a debug build and wrap in a release build, casts saturate.
* **Panics** (index out of bounds, `panic!`, `unwrap`, overflow in debug) are `Except.error`.
  An error of type `Panic` carries no partial state, so nothing is claimed about a grid after a panic; the fields of a manager after
  a panic are modelled separately in `Model/Failure.lean` (C134).
* **ndarray** arrays (`Core.lean`, `Arr n α`): shape plus a total index function; every indexed access
  the code makes is bounds-checked in the model (`Except`). Out-of-shape entries are never observable.
  Broadcasting in `*`, `/`, `assign` follows ndarray's rule (`bcIdx`). `into_raw_vec` is read as
  row-major order: at each place where the code uses it the array was freshly allocated in standard layout.
* **HDF5 files** are a finite map from group and dataset names to arrays and attributes (`Hdf5.lean`,
  `H5`), with presence explicit where the code branches on it. The HDF5 library itself is not modelled.
* `&mut self` methods return the new state. Loops are folds over lists/ranges in the code's order.
* `print_debug!`, `print_warning!`, `check_signals!`, progress bars: no effect, not modelled.

## 2. Trusted base

* Lean 4.33.0's kernel; Mathlib as installed (only used through checked proofs).
* Axioms: every theorem listed in `MANIFEST.json` depends on a subset of `propext`,
  `Classical.choice`, `Quot.sound`; `AXIOMS.md` gives the list per theorem as printed by
  `#print axioms`. No axioms of our own, no `native_decide`, no `bv_decide`.
* The reading of the Rust source into Lean definitions is by hand; each definition cites file and lines.
  This is the part a reader has to check; `seeded/LOG.jsonl` records how the theorems react to edits of it.
* Libraries that enter as definitions or parameters:
  * the standard library's stable `sort_by` is core Lean's `List.mergeSort` (stable; the theorems
    state permutation, order and stability, which fix the result);
  * `polyfit_residuals`/`polyfit` and `powf` are a structure `FitLib`; theorems about fitted values
    assume `LeastSquares` (any least-squares fit) or `ExactPow`, and say so;
  * ndarray-stats `min_skipnan/max_skipnan` are modelled as least/greatest non-NaN entry with their behaviour on
    empty input; `hypot` is one rounding of the exact root;
  * CPython's `slice.indices` is modelled in `Model/Python.lean` from its documented algorithm;
  * `vtkio` enters as the data structure it returns, `regex` as the text of the first group (for `(\d+).ext` as
    a definition), `csv` and `ndarray-csv` as in `Model/CsvText.lean`, `natord`'s comparison as a total preorder given as parameter, `num_traits` casts by definition;
  * plotly: a figure is the list of traces handed over (abscissae, ordinates, values, colours, text);
    rendering, layout, JSON and colour-name parsing are not modelled.

## 3. What is modelled and what is not

| Source | Modelled | Not modelled |
|---|---|---|
| `grid.rs`, `grid/cartesian_grid.rs`, `grid/cylindrical_grid.rs`, `grid/vector_grid.rs` | all functions of the `GridFunctions3D` trait for both geometries and the vector grid (`Model/Grid.lean`, `Model/VecGrid.lean`) | `shift`/`xpositions` style getters are structure fields |
| `grid/grid1d.rs`, `grid/grid2d.rs`, `functions/fields.rs` | — | not compiled into the crate (no `mod` declaration) |
| `particleselector.rs` | everything (`Model/Selector.lean`) | — |
| `datamanager.rs`, `pdata.rs`, `tdata.rs`, `datamanager/utilities.rs` | buffers, reading, look-ahead, extract, time search, rotation, statistics getters, the text of `info()` and of `stats()` (formats of numbers as parameters) (`Model/Data.lean`, `Hdf5.lean`, `Rotation.lean`, `Info.lean`) | HDF5 library; the decimal digits `{}` and `{:?}` print |
| `functions.rs`, `functions/{conditional,mixing,extractions}.rs` | every analysis (`Model/Analysis.lean`) | progress output |
| `utilities.rs`, `utilities/maths.rs`, `converter/convertertools*.rs` | all numeric helpers (`Model/Tools.lean`) | terminal macros |
| `converter.rs`, `converter/csv_modes/*`, `xmltools.rs`, `legacytools.rs` | the conversion of tables (`Model/Convert.lean`); the same with every write to the output file in order (`Model/Writes.lean`); the entry points, file names, folders and the selection of fields from the parsed file (`Model/Dispatch.lean`); the text of CSV files (`Model/CsvText.lean`) and the numbers in it (`Model/CsvNumber.lean`) | VTK text and XML parsing, unit strings, general regular expressions, writing through the HDF5 library |
| `plotting/**` | the data of all traces, scaling, heads, colours as numbers (`Model/Plot.lean`), names of colour maps and colour scales (`Model/Colour.lean`) | the colours of the maps of `colorous`, axes titles, layout, rendering |
| `pylib.rs`, `pylib/*.rs`, `up4/*.py` | the methods of `Data` and sequences of calls (`Model/Session.lean`); `__getitem__`, slices, lists (`Model/Python.lean`); argument checks of the plot methods (`Model/Plot.lean`); the `Grid` constructor and `Grid.plot` (`Model/Construct.lean`) | reference counting, GIL, conversions of numpy arrays |
| `comparison.rs` | `binary_threshold` (`Model/Tools.lean`), `compare`, `align`, `make_grid`, `velocityfield` (`Model/Compare.lean`) | the text of the printed lines; vector grids as argument of `compare` |
| `main.rs`, docs, tests | — | not part of the library |

## 4. How each property is modelled and proved

"exact" = exact arithmetic instance, "lawful" = any lawful rounding. Names of the theorems: `MANIFEST.json`.

| Property | Model | Proof idea |
|---|---|---|
| C01–C03 | `CartGrid.cellId`, `isInside` (lawful) | monotone rounding, quotient ≤ 1, floor |
| C04 | same + cell centres (exact) | false for the code: exact characterisation + counterexample; partial for lower half |
| C05 | `CartGrid.new` (exact) | algebra |
| C06–C10 | `addValue`, `insert`, folds | invariant over call lists |
| C11 | `newZeros` | false (weights kept): characterisation + counterexample + partial |
| C12, C13 | `collapse*` | folds over an axis, finite sums |
| C14 | `slice` | false: counterexamples; partial where the two index formulas agree |
| C15, C16 | `outlierRemoval`, both grids, both profiles | pointwise; counterexamples for debug build and for cylindrical clusters |
| C17, C18 | all grid operations; trajectories | invariant over operation lists |
| C19–C22 | `CylGrid.*` | induction on shells (exact); rounding counterexample in binary64 |
| C23, C24 | `VecGrid.*` | algebra; counterexample off-centre |
| C25–C27 | `Selector.*` | decision logic; counterexamples for clouds/density |
| C28–C31 | `PData`, `TData` buffer state machines | refinement to the file as a map; counterexamples for look-ahead buffers |
| C32, C33 | binary search | loop invariant, termination; counterexample for "closest" |
| C34–C44, C58 | analysis loops over a dataset | fold invariants, variance identities |
| C45, C46 | circulation state machines | invariants over trajectories |
| C47, C48 | rotations, rotation flag | algebra, induction |
| C49, C50 | sorting helpers | permutation, sortedness, stability of merge sort |
| C51–C53, C72 | interpolation scan, polynomial velocities, their parallel form | loop invariant of the scan; window lists; least-squares uniqueness for uniform motion |
| C54–C57 | utilities | folds |
| C59, C60 | HDF5 managers | refinement: every read is the stored row; counterexamples for `read_single` |
| C61–C64 | VTK conversion | invariant of the per-file fold; composition with C59 (write, then read back) |
| C65–C67 | one-trajectory CSV | fold over rows, acceptance by time; read back through C59 |
| C68, C69 | CSV with several trajectories | list segmentation, grouping; read back; counterexamples |
| C70, C71 | one CSV file per timestep | as C61–C64 |
| C73–C75 | Python item access on top of both managers | `slice.indices` arithmetic, C28; counterexamples |
| C76–C81 | quiver and unit vector figures | per-cell description of the traces, min/max of the speeds, rotation algebra (exact) |
| C82–C85 | scalar map, contour, parity plots and maps | index bookkeeping row-major/transposed (exact) |
| C86 | argument validation | case analysis over all argument combinations |
| C87 | `linspace`, `msdCurve` | fold over delays on top of C44; counterexample |
| C88 | `PyData.call`, `OnDisk.session` (`Model/Session.lean`) | relational invariant: two managers of one file answer alike whatever their buffers hold |
| C89 | `PyData.call` on `TOut.onDisk` | C64 composed with C88; counterexample with a window |
| C90 | `vtkConvert`, `TOut.onDisk`, `OnDisk.session` | composition of C62 (groups), C59 (reading), C88 (history), C34/C36 (fields) |
| C91 | `csvConvert`, `POut.onDisk`, `OnDisk.session` | composition of C65 (rows), C59, C88, C31, C34, C36 |
| C92 | `GridArgs`, `pyGrid` (`Model/Construct.lean`) | inversion of the constructor's checks against the one-line specification `GridArgs.Asked`; acceptance as an equivalence; refutations |
| C93 | `pyPlot` (`Model/Construct.lean`) | C12 read off row by row |
| C94 | converters as logs of writes (`Model/Writes.lean`), proved equal to the converters of `Model/Convert.lean` in result and final file; the time array is the last write and every reader needs it | induction over the loops; assumed: writes reach the disk in program order |
| C95 | `regex` on `(\d+).ext` by definition of leftmost, greedy matching (`digitsThen`, `Model/Dispatch.lean`) | induction over the path; counterexample by evaluation |
| C96 | the listing of a folder as a list of paths, natord's order as a parameter | uniqueness of sorted permutations, monotonicity of the time in the step, then C97 |
| C97 | vtkio's result as a data structure (pieces, arrays, fields); reading by name | reading gives the columns of the listed particles, then C61 |
| C98 | dispatch of the entry points; `none` for a call that returns without writing | case analysis |
| C99 | composition of the field analyses (C35, C36) with `collapse` (C12, C13) | a weighted mean of cell means is a mean of samples: induction over the samples |
| C100 | composition of `numberfield` (C34) with `collapse` (C12) | self-weighted mean; sum of squared differences; counterexample on a grid of eight cells |
| C101, C102 | the automaton of the `csv-core` crate with the options the code sets (`Model/CsvText.lean`, written from the documented transition function); the parsing of a number, and whether a comment in an unterminated last line is ignored, are parameters | state after each kind of line, induction over the lines |
| C103 | the default arguments of the three entry points | C66, C101, C102 |
| C104 | composition of C101 with C65 and C91 | |
| C105, C106, C107 | the standard model of rounding (`Rounding.lean`: relative error 2^-53, absolute error 2^-1075, no overflow up to 2^1023, proved of `B64`) on the models of the analyses | error of a running sum by induction (`Proofs/Accuracy.lean`); counterexample in ℝ |
| C108, C109 | as before | error of the difference of two large sums (`Proofs/Variance.lean`); counterexamples in binary64 by evaluating the roundings |
| C110, C111 | relations between several runs of the analyses, through the list of positions and velocities the selector lets through (`Dm.seen`) | from C34, C35, C36, C40; permutations and concatenations of lists |
| C112, C113 | relations between the run on a dataset and on the same dataset in other units | the cell lookup in exact arithmetic in closed form (`cart_inCell`); homogeneity of mean, speed and deviation |
| C114 | the number fields of a dataset on two Cartesian grids over the same box | division of floors; counterexample with one particle |
| C115 | the position tables and the lookup of cylindrical grids over ℝ | closed forms of the tables; the coordinates of a point given by radius and angle |
| C116, C117 | `__str__` of the two grid classes as a record of the numbers printed (`Model/GridObject.lean`) | Welford's algorithm equals the sum of squared deviations: induction; NaN absorbs |
| C118 | the Python methods of the grid objects | C01–C03 for Cartesian grids; evaluation over ℝ for the counterexample |
| C119 | `collapse`, `collapse_two` on the fields of C105 and C106 in rounded arithmetic | errors of weighted sums (`Proofs/ColumnAccuracy.lean`), twice for two axes |
| C120 | `cell_id` of Cartesian grids in rounded arithmetic | relative errors of differences and quotient; index from the floor |
| C121 | `str::parse::<f64>` (`Model/CsvNumber.lean`) and the reader of C101 | parser against a printer of structured decimals, both directions; C104 for the answers |
| C122 | the automaton of C101 on quoted cells | printer of quoted cells; state after a cell; counterexample with doubled quotation marks |
| C123 | C61, C65, C70, C96, C97 composed with the session model and C34–C36, C40 | specification `FieldsOf`; one lemma from what a session sees to the fields; each route shows what is seen |
| C124 | `cartesian3d`, `cylindrical3d`, `*_from_data` (`Model/Construct.lean`) | exact description of the calls that return; refutations of the documented order and length |
| C125 | the loops of the analyses (`Model/Analysis.lean`) on two files | counts as sums over all timesteps; answers equal for files that agree but for the last timesteps |
| C126 | `dispersion`, `msd_field`, `occupancyfield` on recordings with paths by id | same ids in every timestep: leads are the same particle; otherwise equal answers for recordings that differ in the ids only; panic of a missing particle |
| C127 | C34, C35, C36, C39, C40 on one dataset | equal lists of samples per cell; Cauchy-Schwarz over the samples; variance identity |
| C128 | all analyses on a dataset of which the selection takes nothing | empty lists of samples, leads and observations; the finishing steps evaluated on the empty sums |
| C129 | all analyses on two recordings with clocks related by `t ↦ c t + s` | equal samples and bodies that do not read the time; relation between the states of the circulation machines; shift invariance of the search loop by induction; witness for the unit |
| C130 | the analyses on one recording under two selections | sublists of samples and observations; monotonicity of the running counts; slots of the circulation machine that are not fed do not matter; witness for a list of densities with a radius range |
| C131 | `stripMark` in `readTable` | the text after the mark is the text without it; no text of rows begins with a mark |
| C132 | `Comparer.align` (`Model/Compare.lean`): numberfield and threshold at every offset (exact) | C34 and C57 for each step, invariant of the minimum over the list of offsets; scaled limits computed; witness: a million particles on a lattice |
| C133 | names and colour scales (`Model/Colour.lean`), the colours themselves an arbitrary function | the two lists of names are compared; C79 gives the place of an arrow in the range, the marks of the bar are the same places |
| C134 | fields of the managers after a method returned or panicked (`Model/Failure.lean`); histories with calls that raised | the state invariant of C88 survives every such step; explicit runs with wrapped sizes for the refutations |
| C135 | two datasets, one with axes exchanged | the cell of a position is found axis by axis; C34, C35, C36, C43 for both runs; circulation folds read one axis only |
| C136 | sessions of arbitrary calls (`Model/Session.lean`), any recorded numbers, any lawful arithmetic | every analysis returns on a freshly opened file (the run theorems of C34–C46, totality folds for occupancy and mixing); C88 carries this to any history; converted CSV and VTK files are shown to be sound |
| C137 | the text of `info` (`Model/Info.lean`), numbers with two decimals | nearest hundredth by cases on the fraction; digits by `Nat.toDigits`; lines by splitting at newlines; the state after a session from C88; the mean speed from C64 |
| C138 | two datasets, one with a constant velocity added | means shift, mean square deviations do not; C35, C36, C40 for both runs |
| C139 | two datasets, one mirrored in the mid-plane of the grid | floor of the mirrored coordinate; C34, C35, C36 for both runs; the case of one particle refutes the plain statement |
| C140 | the scale factor of `save_fig` (`Model/SaveFig.lean`) | field arithmetic; relative errors of four rounded operations |
| C141 | sequences of method calls of grid objects (`Model/GridCalls.lean`), with the state after a call that raises | induction over the calls; each method by its definition; shapes from C17, positions from C115 |
| C142 | as C37, in rounded arithmetic | the field as quotient of two rounded sums; standard error analysis, no overflow |
| C143 | two datasets with the same sequence of selected positions and velocities | the run theorems of the fields express every cell by that sequence |
| C144 | as C35, C36, C40, C107 | the cells partition the samples inside the grid; sums over cells of sums over samples; law of total variance |
| C145 | as C64, C67, C71, C91 | the recorded means are those of a permutation of the particles; error of a rounded sum and quotient; speed by three rounded products, two sums and a root |
| C146 | as C59, C65, C69, C70; Model/CsvFiles.lean | every group written has the constant radius; every buffer entry comes from a group or is the default; refutation on a file of one particle |
| C147 | as C90, C91, C92, C34 | the recorded limits enclose every value unless the first value is the single greatest; then every position is in the box and the cells partition the samples; cylinder by squaring the radius test; refutations on two small files |
| C148 | as C31, C136, C91, C123, C65 | extract answers after any calls; its table satisfies the hypotheses of the trajectory converter; refutations for a first time 0 and the last step |
| C149 | as C49, C50, C61, C65, C69 | the sorted table is the only ordered listing of distinct keys; everything after sorting is a function of it; largest id, time and length do not depend on the order |
| C150 | as C91, C123, C136 | what __getitem__, time and extract answer after any calls is the stored table; the fields of the seen samples are those of that table |
| C151 | as C70, C71, C123, C136 | the converted files are sound, so all calls answer; both objects see permutations of the same samples, and each field is determined by the samples up to their order |
| C152 | as C44, C58, C109 | rounding of the difference, the length, the sum of n distances, its square and the quotient are bounded in turn; the underflow terms are collected in an absolute error of 2^-1000 |
| C153 | as C41, C58, C108 | rounding of mean, differences, squares, sum, quotient and root is bounded in turn; the error of the differences enters through the triangle inequality for the root mean square, so the bound stays linear near zero |
| C154 | as C26, C65, C69, C70, C146 | every timestep read has one radius (C146), so the filter decides alike for every particle; the meaning of the filter is that of C26 |
| C155 | statsText: text of `stats` with the formats of `{}` and `{:?}` as parameters (Model/Info.lean) | the text is cut at the first blank, comma, bracket or line end after each number, where two equal texts must agree |
| C156 | as C42, in rounded arithmetic | the counts are exact; errors of the concentrations, the squares (C153), the two roots squared again, the differences and the quotient are added up; the denominator is at least P (1 - P) / 2 |
| C157 | as C39, in rounded arithmetic | edges and bin width within a few roundings; the bin number is compared with k by monotonicity of rounding at the edge shifted by the margin |
| C158 | as C39, C111 | the count of a bin is a count over the samples seen, which is additive and invariant under permutation; neighbouring half-open intervals cover their union once (induction on m) |
| C159 | as C42 | a higher threshold leaves fewer cells in a sum of squares; a threshold above all counts leaves none |
| C160 | as C39, C112, C113 | the box test is invariant under increasing affine maps of each axis; roots scale, so the exact bins of C39 contain the same samples |

Every property in the list is expressible in the model. Floating-point rounding inside sums (as opposed
to index computations and comparisons) is only covered where the theorem says "lawful".

## 5. Properties that are not (fully) true of the code

Generated from `MANIFEST.json`: for each partial property, what is proved and what is not. Theorems named
`Cxx_false` refute the full statement for the model by an explicit input.

* **C04 The cell lookup is consistent with the published cell centres.** False of the code: the lookup scales by n-1 while the centres are spaced by 1/n. Proved: exact characterisation (i for 2i+1<=n, else i-1), the round trip for the lower half, and a counterexample in every lawful arithmetic.
* **C11 new_zeros returns an empty grid of the same geometry.** False of the code: weights are copied. Proved: geometry and data part; weights zero only if they were; counterexample.
* **C14 Positional slice selects the plane containing the position.** False of the code: slice scales by n while cell_id scales by n-1, and the upper limit panics. Proved: the plane of the n equal intervals for lo<=x<hi, and counterexamples.
* **C16 Outlier removal, neighbour-mean mode.** Proved for Cartesian grids (release builds, and debug builds without outliers on a lower face). False for debug builds with an outlier on a lower face, and for cylindrical grids.
* **C20 Cylindrical lookup never leaves the grid and never panics inside.** Proved in exact arithmetic; under rounding only for radii not beyond the last computed shell, and C20_false exhibits a binary64 grid where an inside position panics
* **C21 Cylindrical lookup returns the cell containing the position.** Radial part proved; angular and height parts false in the lower half of each cell but the first
* **C22 Values outside a cylindrical grid are ignored.** False of the code: exact description of what happens instead. Nothing of the positive claim holds for cylindrical grids.
* **C23 Velocity decomposition of vector grids.** Cartesian grids: proved. Cylindrical: proved in exact arithmetic when the axis is the z axis; false for off-origin grids
* **C26 Attribute filters mean what the user wrote.** Radius and particle id: proved (id 0 switches the filter off). Clouds and density: false in general, proved under the stated conditions
* **C29 The look-ahead buffer is transparent.** Proved for every history on datasets of up to 20000 timesteps (both managers) and for forward look-ahead on larger ones (timestep-based manager); false otherwise, with counterexamples in both profiles
* **C33 Time search returns the closest timestep.** False of the code: the search stops at any probe within 0.01 s, and otherwise at its last probe. Proved: the right index for a recorded time when timesteps are more than 0.01 s apart; counterexamples in every lawful arithmetic
* **C58 Field analyses depend only on the geometry of the grid.** Proved for numberfield; false for velocityfield and vectorfield, which keep the old weights
* **C39 Histogram counts every sample once.** Proved in exact arithmetic: equal-width edges, bin k counts exactly [edge k, edge k+1), bin 0 without lower end. False of the code: a speed equal to the highest edge is dropped and speeds below the lowest edge are counted in bin 0
* **C41 Homogeneity index is a standard deviation.** Proved when every layer was visited; in general the exact value is C41_index, and C41_false shows that it is no standard deviation when a layer is unvisited
* **C44 Mean squared displacement.** False of the code: the square of the summed distance is divided by the count. Proved: the exact value, equal to the claim for cells with one sample; counterexample
* **C42 Lacey index extremes.** Exact value proved for every dataset, including one entry per timestep but the last; the bounds and the perfect-mixing value 1 are false of the code (C42_false), proved is what remains
* **C45 Circulation times are boundary-to-boundary durations.** Proved: every reported value is the time between a crossing and the second next one of the same particle, non-negative for increasing times, and exactly which triples are reported. False of the code: that every circulation is reported (each third crossing starts afresh)
* **C48 Rotation flag.** Proved for whole axis numbers, with integers above 2 rejected. False of the code for negative, fractional and NaN axes, which the cast to usize silently maps to an axis
* **C51 Interpolation table.** Proved: shape, end rows, times and the linear form for every table; which rows are used when at most two middles between rows are passed per step. False for denser input, where the scan lags (C51_false)
* **C53 Polynomial velocity keeps rows aligned.** Rows aligned: proved. The velocity is the derivative of the fit at the time of the next row, not at the row's own: C53_false; equal for uniform motion (C53_uniform, for every least-squares fit). polyfit is a parameter of the model
* **C54 minmax.** Proved for every array with a finite value; false for [inf]
* **C57 Binary threshold.** Proved for fields without zeros; exact outcome in general; false with empty cells
* **C60 Unbuffered reading agrees with buffered reading.** Proved for time-based files and particle-based files with one particle; what the one-particle read returns is C60_pdata_value (a missing density becomes the radius); with two or more particles it always panics (C60_pdata_panics, C60_false)
* **C63 Recorded position limits enclose all particles.** Lower limits proved; the upper limit misses values below all earlier ones (C63_false)
* **C64 Recorded velocity statistics.** Means and minima proved; the maxima have the flaw of C63_false
* **C67 Recorded statistics of a converted CSV file.** all but the sample rate, which is always 0 (C67_false), and maxima below all earlier values
* **C68 CSV with one trajectory after the other.** Exact outcome proved; the last trajectory is never converted (C68_false), short ones are skipped, only the first can be read
* **C69 CSV with an id column.** Grouping and order proved; only the particle with the smallest id can be read back (C69_false)
* **C71 Recorded statistics with one CSV file per timestep.** All but the number of particles, which is that of the last file (C71_false), and maxima below all earlier values
* **C72 Long trajectories get velocities like short ones.** Equal to the sequential computation for 7 sampling steps (C72_agrees_partial); with the 9 the converter uses the windows and the number of rows differ (C72_false), and an interpolated long trajectory panics
* **C74 Slices from Python.** Proved for positive steps that divide the length (part of C73_items); other positive steps panic (C74_undivided_panics), empty slices panic, negative steps give zeros (C74_backward_zeros, C74_false)
* **C75 Indices outside the data are refused.** Refused in debug builds and for particle-based files if |i| is beyond the length; i = len(data) silently gives timestep 0 (C75_false), as do all outside indices of time-based files in release builds
* **C76 Quiver plots show the field.** All planes and depth averages except the depth average along axis 1, which uses the y positions as abscissae (C76_axis1, C76_false) or panics (C76_axis1_panics)
* **C77 Arrow length limits.** max in full; min and minmax for non-zero vectors (zero vectors become NaN, C77_zero); not for the depth average along axis 1 (C76)
* **C78 Node scaling.** Width and height bounds always; directions only if the cells are square (C78_false); a plane with a single row of cells panics
* **C79 Arrow colours.** For planes in which not all speeds are equal; otherwise all colours are NaN (C79_uniform)
* **C81 Unit vector plots.** Background always; equal lengths and directions only if the cells are square (C81_false); zero vectors have no arrow
* **C84 Parity plots.** Scalar grids with the same cells in full; for vector grids the line does not reach over all points (C84_false); grids of different shapes are not refused (C84_shapes_false)
* **C85 Parity maps.** Axes 0 and 2; for axis 1 the positions are those of another axis (C85_false)
* **C86 Plot arguments are checked.** Quiver plots in full; unit vector plots except mode max, which is refused with max_size and panics with min_size only (C86_unit_false)
* **C87 Mean squared displacement curves.** Delays proved; the entries are sums over cells of squares of summed displacements, not means (C87_false)
* **C89 mean_velocity is the mean speed of the particles.** With VTK conversion the answer is the mean speed over the whole file; the time window set by the user is ignored (C89_false). The CSV case is C91_means
* **C92 The grid constructor makes the grid that was asked for.** False: negative coordinates in limits are refused (the same box by xlim/ylim/zlim is accepted); a Cartesian grid with data, limits and cell_size always raises; a cylindrical one takes the cell count from the data instead of the limits; a too large cell size gives a grid without cells that loses all values
* **C95 The time of a VTK file is the number in its name.** Proved if no digit in the path before is followed by one character and the extension letters; false for names like run7/vtk_100.vtk, where the dot of the pattern matches '/' (C95_false)
* **C96 Folder conversion.** Proved for legacy .vtk files; natord's order is a parameter. False: folders of .vtu/.vtp files are refused because the extension tested is always .vtk; folders with boundingBox in their path are refused
* **C97 VTK files are read completely and by name.** Complete reading and refusal of missing fields proved; a scalar field in the place of the velocity is accepted if the number of particles is divisible by three (C97_shape_false)
* **C98 A conversion raises or writes.** Characterised exactly when nothing happens; false for filters without an extension and for the default method of csv_multi
* **C100 The depth average of numberfield is the mean count.** False: the counts weight themselves, so the depth average is the sum of squared counts over the sum of counts, never below the mean and equal to it only for columns of equal counts
* **C103 The CSV converters work with their default arguments.** csv_multi_files converts with its defaults (velocities NaN). False: csv with default arguments always raises (no velocity columns and no velocity computation); csv_multi has quotation marks as default delimiter and comment and raises on every comma-separated file, and with the default method does nothing (C98_false)
* **C107 mean_velocity_showcase is the mean speed of the valid particles.** Proved with the time window as the only restriction. False in general: the method ignores the selector's particle criteria (C107_false)
* **C108 granular temperature is accurate in floating point.** The error bound is proved; that the value is a number is false: three particles moving alike give NaN in binary64 (C108_false)
* **C114 A finer grid refines the counts.** True from n to m(n-1)+1 cells per axis; false for m times as many cells, because the cell index is the floor of the fraction of the extent times the number of cells minus one
* **C115 Published positions of a cylindrical grid are its cell centres.** One position per cell, and the lookup of a published position gives its cell (exact arithmetic). False: in angle and height the positions are the upper edges of the cells, not their centres (C115_false)
* **C117 The printed summary of a vector grid.** Only the x components enter, and one empty cell makes mean and deviation NaN; the deviation is that of a sample
* **C118 cell_id and is_inside agree.** True on Cartesian grids; on a cylindrical grid cell_id answers for positions above the cylinder (C118_false)
* **C122 Quoted cells in CSV files.** True with backslash escapes in csv and csv_multi, and without quotation marks inside cells everywhere. False for the standard (RFC 4180) doubled quotation mark: double_quote(false) splits such a cell
* **C124 The static grid constructors.** True of cartesian3d. False: the limits of cylindrical3d are read as x, y, z and not in the documented order r, z, phi; the _from_data variants accept longer lists of cells
* **C125 Every recorded timestep counts.** True of numberfield (and, by C35, C36, C39, C40, of the other fields over all timesteps). False of concentration_field, lacey_mixing, circulation_time and circulation_time_two_boundary (the last timestep never counts) and of occupancyfield (the last two never count): their answers are equal for all files that differ there only
* **C126 Particles are followed by their id.** True if every timestep lists the same ids in the same order, as the VTK converter writes them if the files list the same particles (C126_vtk). Otherwise false: the answers do not depend on the ids at all, two particles at rest listed the other way round have a mean squared displacement of 3/2, and a particle that leaves can make both raise
* **C128 A selection that takes nothing gives an empty answer.** True of the fields, the histogram, the occupancy, the concentration and the circulation times; dispersion and msd_field answer zero (with weight zero) in every cell. False of lacey_mixing, which raises, and of mean_velocity_showcase, which ignores the selection
* **C129 The origin and the unit of time do not matter.** Proved for every analysis under a shift, and for all but dispersion and msd_field under a change of the unit (the fields and lacey_mixing in every arithmetic, the others in exact arithmetic). False of msd_field and dispersion for the unit: the search for the later timestep accepts any timestep within 0.01 of a unit (C129_unit_false)
* **C130 Narrowing the selection never adds anything.** True of every narrower selection in every arithmetic, and of tighter settings as long as the filters mean what they say (Sane: no empty filter, no list of clouds or densities of three or more values together with another length of radius list). Otherwise false: adding a range of radii to a list of densities turns the list into a range that reaches up to the largest radius, and a particle that was not counted is (C130_false)
* **C132 Aligning two datasets.** The search is as described for datasets in one unit that visit more than 10000 cells at every offset (exact arithmetic). Otherwise align panics (C132_few). False: the best offset is only printed, the comparer keeps its grids and its mark (C132_kept_false); for datasets in mm and m the second grid is scaled the wrong way, a million times too large, so that align panics (C132_units_false), or, the other way round, 800000 times too small (C132_small_false)
* **C133 Colour maps.** Colour maps are the names of the library's maps with an arbitrary colouring function. Exact arithmetic. The bar is proved where the plot is defined (see C76, C79). False: names are case-sensitive, and parity_map and parity_contour ignore the colour map altogether (C133_false)
* **C134 A call that raises does no harm.** Proved for histories whose item indices exist (analyses and set_time may raise anywhere), and in debug builds also for indices that do not exist. An analysis that stops leaves any state its reads can lead to. False in release builds after indices that do not exist: a time-based file then answers its last timestep with its first (C134_time_false), a particle-based file of more than 20000 timesteps refuses timesteps that exist (C134_particle_false); with at most 20000 it is right (C134_reads)
* **C136 Every sensible call answers.** Proved for every sequence of calls with the arguments of Call.Askable, on any sound file and on converted CSV and VTK files, any lawful arithmetic. False of the code: occupancyfield (hence homogenity_index) on one or two timesteps raises in debug builds, lacey_mixing_index raises if a type above all those present in a timestep is named. Not covered: look-ahead analyses on particle-based files of more than 20000 timesteps (wrong values anyway, C29)
* **C139 Mirror images.** False of the code: positions are looked up with one cell less than the grid has, so the last layer of cells is never filled and the mirror image of cell i is cell n-2-i, not n-1-i (C139_false). Proved: numberfield, velocityfield (mode absolute) and vectorfield are mirror images in that sense, for particles off the cell faces, in exact arithmetic, on Cartesian grids
* **C146 The radius given to a conversion.** csv_multi_files ignores radius, vel and interpolate: every radius read is 0, so only the default radius is right (C146_files_partial); C146_false gives a file whose output has radius 0 and no velocity whatever is asked for
* **C147 The grid made from a dataset wraps it.** Cartesian grids: true if the first particle written is nowhere the single farthest one (in every lawful arithmetic); otherwise the recorded upper limit is too low and nothing need be inside (C147_false). Cylindrical grids hold exactly the particles within half the longer side of the middle axis (exact arithmetic), so particles in the corners are not counted (C147_cylinder_false)
* **C148 A trajectory taken out and converted again is the same trajectory.** The table is handed over as numbers (for the text of a CSV file C104). Every lawful arithmetic, binary64 included. A trajectory that starts at time 0 loses its first row in the conversion (C148_zero_false), and the last timestep of a dataset cannot be extracted (C148_last_false)
* **C152 The mean squared displacement in floating-point arithmetic.** A cell holds (sum of the distances)^2 / (number of samples): near the mean squared displacement for one sample per cell; with more the exact value is already another quantity (C44_false), and what is proved is that the computed value is near that. At most 2^50 samples, coordinates up to 2^400
* **C153 The homogeneity index in floating-point arithmetic.** Proved for layer averages up to 2^400, at most 2^50 layers. With a layer that is NaN the exact value is already not a standard deviation (C41_false); near which number the index is then is stated as well
* **C154 Selecting by attribute in a converted CSV file is all or nothing.** Proved for the converters of one and of several trajectories. csv_multi_files stores radius 0 whatever was given, so there selecting the radius given takes nothing (C154_files_false). Selections whose cloud and density filters meet the conditions of C26
* **C157 The velocity histogram in floating-point arithmetic.** Same gaps as C39, where the code departs from the claim: bin 0 has no lower end and a sample at the highest edge is in no bin (C39_false). Velocities up to 2^500, limits up to 2^400, at most 2^46 (mx - mn) / M bins

Notes on the scope of the proved properties:

* C01 Cartesian cell lookup never leaves the grid: any lawful rounding, both profiles; cells between 1 and 2^53 per axis
* C03 Cartesian cell lookup is monotone and hits both ends: any lawful rounding; the upper end needs max-min to be a positive finite f64
* C05 Cell centres are equally spaced inside the limits: exact arithmetic
* C06 add_value touches exactly the cell of the position: Cartesian grids; any lawful rounding, both profiles
* C07 Accumulation over any history: any lawful rounding, up to 2^53 calls
* C08 Averages after divide_by_weight: exact arithmetic
* C09 insert then get_value round-trips: any lawful rounding
* C12 Depth averaging is the weighted mean: exact arithmetic; a NaN cell counts as value 0 with its weight
* C13 Collapsing two axes is order-independent: exact arithmetic
* C15 Outlier removal, clamping modes: any arithmetic, both profiles
* C17 Grid shape is invariant: divide_by_array with an array of the grid's shape; the broadcast theorem shows the restriction is needed
* C18 A trajectory deposits its whole value: cells: any lawful rounding; totals: exact arithmetic
* C19 Cylindrical shells have equal volume and tile the radius: exact arithmetic
* C28 Buffered reading is transparent: both managers, both profiles, any lawful rounding, 1..2^50 timesteps
* C30 Buffers do not interfere: both managers, both profiles, any history
* C31 Particle extraction: both managers, both profiles, any prior history
* C34 numberfield counts samples: both managers and profiles, any lawful rounding for Cartesian grids, exact arithmetic for cylindrical ones
* C35 velocityfield is the mean velocity per cell: grid without previous contents; the mean is between the least and greatest value in exact arithmetic
* C36 vectorfield is the componentwise mean: grid without previous contents
* C40 Granular temperature is the RMS fluctuation: exact arithmetic, grid with zero data, finite velocities
* C43 Concentration lies in [0,1]: any lawful rounding for the quotient and the range; exact arithmetic for the swap
* C37 Occupancy sums to one: exact arithmetic, timesteps 0 to n-4, counted samples taking up some time
* C38 Dispersion is the sample variance: exact arithmetic, grid with zero data
* C46 Two-boundary circulations are well-formed intervals: any lawful arithmetic, both managers, both profiles
* C47 Rotation preserves distances: exact arithmetic
* C49 Sorting by particle id: the library's stable sort is modelled by core Lean's stable mergeSort
* C50 Sorting by column: any arithmetic; the library's stable sort is modelled by core Lean's stable mergeSort
* C52 Interpolation is exact on uniform motion: exact arithmetic, any sorted times
* C55 meshgrid and flatten agree: any element values
* C56 NaN-skipping statistics: values in exact arithmetic for finite entries
* C59 What a manager returns is what the file stores: HDF5 library not modelled: a file is the collection of its datasets
* C61 VTK conversion keeps every particle's attributes together: parsing of VTK text not modelled
* C65 CSV conversion of one trajectory: exact characterisation for any table without NaN times; C65_false records that a row at time 0 is dropped
* C66 CSV conversion options: polyfit is a parameter of the model
* C70 One CSV file per timestep: text parsing and HDF5 library not modelled
* C73 Item access from Python: For all sequences of in-range integers, lists and dividing slices, both kinds of file and both profiles
* C80 Arrow heads: Real arithmetic; every scaling mode; planes and depth averages as in C76
* C82 Scalar maps: Scalar and vector grids, exact arithmetic
* C83 Contour plots: Scalar and vector grids, exact arithmetic
* C88 Answers do not depend on earlier calls: Calls before must have returned; item indices within range; at least three timesteps for occupancy and homogeneity; rotation is not exposed to Python
* C90 From VTK files to answers: Earlier calls must have returned; unmodified conversion options; vectorfield over exact arithmetic on cartesian grids
* C91 From a CSV file to answers: Rows with strictly increasing positive times; earlier calls must have returned; vectorfield over exact arithmetic on cartesian grids
* C93 Grid.plot shows the depth average at the right place: Over exact arithmetic, weights finite and nonnegative; rendering is not modelled
* C94 An interrupted or failed conversion is never mistaken for data: Writes are assumed to reach the disk in program order (the cache of the HDF5 library is not modelled). Not claimed, and false: that the earlier file survives a refused conversion (C94_keeps_false)
* C99 Depth averages of mean fields are means over the column: Over exact arithmetic; vectorfield on Cartesian grids; axes 0, 1, 2
* C101 A CSV file is read as the table it shows: The parsing of a single number is a parameter (C121 models it); quoted cells are in C122; carriage returns alone as line ends in C101_returns (without comments, which extend to a newline); a comment in an unterminated last line is ignored only if the version of the csv crate does so
* C102 Malformed CSV files are refused: As for C101
* C104 From the text of a CSV file to answers: Seven columns, strictly increasing positive times, a velocity in the first row; C104_whole, with finite times, also shows that every earlier call with sensible arguments answers (C104_text assumes that they returned); the parsing of a single number is a parameter (its model: C121)
* C105 vectorfield is accurate in floating point: For every arithmetic with the rounding laws of RoundedArith; B64 is an instance. Fresh grids; fewer than 2^52 samples
* C106 velocityfield is accurate in floating point: As for C105; all nine modes
* C109 dispersion is accurate in floating point: C109_negative: a case in binary64 where particles that did not disperse have a negative dispersion
* C110 Fields depend only on what was seen: numberfield in rounded arithmetic, the others in exact arithmetic (sums in another order round differently); vectorfield on Cartesian grids
* C111 Samples pool: As for C110
* C112 Fields do not depend on the unit of length or the origin: Cartesian grids, exact arithmetic
* C113 Fields scale with the unit of velocity: Exact arithmetic; vectorfield on Cartesian grids
* C116 The printed summary of a scalar grid: Exact arithmetic; the deviation is that of the population
* C119 Depth averages are accurate in floating-point arithmetic: For every arithmetic with the rounding laws of RoundedArith; B64 is an instance
* C120 The cell lookup is right up to rounding: For every arithmetic with the rounding laws of RoundedArith; B64 is an instance. The cells are those of the lookup (extent divided by the number of cells minus one, see C04)
* C121 Numbers in CSV files: str::parse::<f64> is modelled from its documented grammar; comma-separated files for C121_file
* C123 The fields of converted files, whatever the route: C123_vtk_whole, C123_csv_whole and C123_files_whole show that the conversion and all earlier calls with sensible arguments succeed; the others assume that. numberfield for every arithmetic; velocityfield, vectorfield and granular temperature in exact arithmetic (for their rounding see C105, C106, C119). csv_multi (chain, id_line) is excluded: the particle number it records is wrong (C68, C69)
* C127 The analyses agree with each other: C127_components for every arithmetic (also binary64), the others in exact arithmetic; Cartesian grids, velocity limits that exclude nothing; C127_histogram for speeds below the last edge (see C39)
* C131 A byte order mark makes no difference: For every text without a second mark; the table of a file with a mark is given as well
* C135 The names of the axes do not matter: Cartesian grids. Counts, concentrations and circulations in any lawful arithmetic, mean velocities in exact arithmetic (binary64 sums of squares may differ in the last bit with the order)
* C137 Printing a dataset tells what the file holds: The exact text is modelled, with Rust's two-decimal rounding of the exact value; read back with the decimal notation of C121. Rotations (only reachable from Rust) are in C137_text: the text calls angles in radians and the centre 'degree', which is the code's wording. The recorded extremes themselves can be wrong (C63, C64)
* C138 A moving observer sees the same fluctuations: Exact arithmetic; any grid, Cartesian for vectorfield (cylindrical components turn with the position)
* C140 Saved figures have the resolution asked for: The factor handed to plotly is modelled; that plotly multiplies the width in pixels by it is plotly's. Exact arithmetic, and binary64 up to a relative error of 2^-49
* C141 The methods of a grid object fit together: All lawful arithmetics. Which layer slice_pos gives is C14, the values of averages C12 and C13, of remove_outliers C15 and C16. The documentation of remove_outliers counts its modes from 1, the code from 0 (case of C141_outliers)
* C142 The occupancy field is accurate in floating-point arithmetic: Standard model of binary64 rounding (proved for the round-to-nearest-even instance); cells of the positions as the code computes them (for their rounding see C120)
* C143 Selecting is the same as having recorded only that: Every lawful arithmetic, binary64 included; the selected times are finite; analyses that look ahead in time are not included (removing particles between two samples changes what they see)
* C144 Nothing is lost between the cells: Exact arithmetic, fresh grids, finite velocities; vectorfield and the energy on Cartesian grids (on cylindrical ones the components are radial and tangential)
* C145 Recorded velocity statistics are accurate in floating-point arithmetic: Standard model of binary64 rounding (proved for the round-to-nearest-even instance); fewer than 2^52 particles, |v| at most 2^500; mean_velocity ignores the time window (C89_false)
* C149 The order in which a source lists its records does not matter: Whole results are compared, errors included; every lawful arithmetic (for VTK every arithmetic), NaN times excluded. csv_multi with the method chain (order is what separates its trajectories) and csv_multi_files (particles keep the order of the file, C70) are not meant
* C150 What can be read is what is analysed: Every sound file, every history of sensible calls; velocity means and granular temperature in exact arithmetic and on fresh grids as stated in FieldsOf
* C151 The same particles give the same fields, whatever file they come from: numberfield in every lawful arithmetic; the other fields in exact arithmetic on fresh grids (vectorfield on Cartesian grids, it and the granular temperature for finite velocities). Same number of particles in every timestep, finite times that do not decrease
* C155 stats() prints the statistics without loss: How a number is printed is a parameter: numbers of a set V printed without blanks, commas, brackets and line ends, and differently if they differ (for Rust: the doubles). The text after the array (shape, strides, layout) is a parameter too
* C156 The Lacey index in floating-point arithmetic: The index I is that of C42_value (which is not in [0,1], C42_false). At most 2^39 particles a timestep and 2^50 cells; the variance P (1 - P) is in the bound because a rare type makes the denominator small
* C158 Histograms add up, and finer ones refine coarser ones: Adding up and order in every arithmetic, also the rounded one; the refinement in exact arithmetic and for finite speeds. Samples at the highest edge are in neither histogram, those below the lowest in the first bin of both (C39_false)
* C159 The types and the threshold of the Lacey index: Exact arithmetic (C156 bounds the rounding)
* C160 The histogram does not depend on the units: Exact arithmetic; the velocity part for finite velocities. A limit given as 0 means the recorded maximum, in every unit
