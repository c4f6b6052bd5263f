import Verif.Model.Hdf5
import Verif.Model.Tools

set_option linter.unusedSectionVars false

/-!
# Model of the converters (`src/converter.rs`, `src/converter/csv_modes/*.rs`)

Reading text (CSV and VTK parsing, regular expressions, directory listings) and writing HDF5 are not modelled: the input is the parsed numbers, the output
the datasets and attributes. Progress bars, debug output and signal checks are left out.
-/

namespace Up4
open F
open Selector (at')

variable {K : Type} [Field K] [LinearOrder K] [IsStrictOrderedRing K] [FloorRing K] [Arith K]

/-! ### Statistics written as attributes -/

/-- A running minimum and maximum. -/
structure MinMax (K : Type) where
  lo : F K
  hi : F K

/-- The initial values `f64::MAX`, `f64::MIN` (src/converter.rs:152-154, 169-174). -/
def MinMax.init : MinMax K := ⟨fin Arith.maxK, fin (-Arith.maxK)⟩

/-- `if v < min { min = v } else if v > max { max = v }` (src/converter.rs:230-234, 240-244, 247-261, 741-745, 774-778; same in the CSV modes). -/
def MinMax.see (s : MinMax K) (v : F K) : MinMax K :=
  if v < s.lo then ⟨v, s.hi⟩ else if v > s.hi then ⟨s.lo, v⟩ else s

/-- Position limits after one more position (src/converter.rs:247-261, 772-780). -/
def seePos (d : Fin 3 → MinMax K) (p : Pos K) : Fin 3 → MinMax K := fun i => (d i).see (p i)

/-- Velocity statistics: limits and sum per component, limits and sum of the speed. -/
structure VelStats (K : Type) where
  lim : Fin 3 → MinMax K
  sum : Fin 3 → F K
  mag : MinMax K
  magSum : F K

/-- src/converter.rs:167-174. -/
def VelStats.init : VelStats K := ⟨fun _ => MinMax.init, fun _ => 0, MinMax.init, 0⟩

/-- `vel.iter().map(|v| v * v).sum().sqrt()` (src/converter.rs:238, 748). -/
def velMag (v : Fin 3 → F K) : F K := (F.sum [v 0 * v 0, v 1 * v 1, v 2 * v 2]).sqrt

/-- src/converter.rs:228-245, 739-755. -/
def VelStats.see (s : VelStats K) (v : Fin 3 → F K) : VelStats K :=
  ⟨fun i => (s.lim i).see (v i), fun i => s.sum i + v i, s.mag.see (velMag v), s.magSum + velMag v⟩

/-- The attributes of a converted file (src/converter.rs:334-377, 810-852). The attribute `sample rate` is created as `u64`, so HDF5 truncates the value on
writing. -/
structure Attrs (K : Type) where
  dims : Fin 3 → MinMax K
  np : ℕ
  n : ℕ
  sampleRate : ℕ
  time : F K × F K
  vel : Fin 3 → F K × F K × F K
  mag : F K × F K × F K
  timeArray : List (F K)

/-- The attributes `velocity` and `velocity magnitude`: minimum, mean (the sum divided by the count), maximum (src/converter.rs:322-325, 797-800). -/
def VelStats.attr (s : VelStats K) (count : ℕ) (i : Fin 3) : F K × F K × F K := ((s.lim i).lo, s.sum i / F.ofNat count, (s.lim i).hi)
/-- See `VelStats.attr`. -/
def VelStats.magAttr (s : VelStats K) (count : ℕ) : F K × F K × F K := (s.mag.lo, s.magSum / F.ofNat count, s.mag.hi)

/-- A time-based file. -/
structure TOut (K : Type) where
  groups : List (TGroup K)
  attrs : Attrs K

/-- A particle-based file. -/
structure POut (K : Type) where
  groups : List (PGroup K)
  attrs : Attrs K

/-- The written file opened by `TData`. -/
def TOut.file (o : TOut K) : H5 K := ⟨.tdata, o.groups, [], o.attrs.n, o.attrs.np⟩
/-- The written file opened by `PData`. -/
def POut.file (o : POut K) : H5 K := ⟨.pdata, [], o.groups, o.attrs.n, o.attrs.np⟩

/-! ### VTK files -/

/-- The numbers of one VTK file: the step in its name and its point data, in file order. `sizes` is the radius or diameter field, vectors are flat. -/
structure VtkFile (K : Type) where
  step : ℤ
  ids : List ℕ
  sizes : List (F K)
  types : List ℕ
  velocity : List (F K)
  points : List (F K)

/-- Which fields the converter was told about (src/converter.rs:437-498): `size` is `some true` for a radius field (it takes precedence), `some false` for a
diameter field. -/
structure VtkOpts where
  hasId : Bool
  hasVel : Bool
  hasType : Bool
  size : Option Bool

/-- `n as f64` for `n : i64`. -/
def ofInt (z : ℤ) : F K := Arith.rnd (z : K)

/-- `Array::from_shape_vec((len / 3, 3), v).unwrap()` (src/converter.rs:735-736, 768-770). -/
def shape3 (l : List (F K)) : Run (List (Fin 3 → F K)) :=
  if l.length / 3 * 3 = l.length then .ok ((List.range (l.length / 3)).map fun k j => l.getD (3 * k + j) 0) else .error .unwrap

/-- The variables of the loop over the files (src/converter.rs:606-624). -/
structure VtkState (K : Type) where
  groups : List (TGroup K)
  dims : Fin 3 → MinMax K
  np : ℕ
  time0 : F K
  time1 : F K
  timeArray : List (F K)
  sampleRate : F K
  oldTime : F K
  vel : VelStats K
  count : ℕ

/-- src/converter.rs:606-624. -/
def VtkState.init : VtkState K := ⟨[], fun _ => MinMax.init, 0, 0, 0, [], 0, 0, VelStats.init, 0⟩

/-- The radii (src/converter.rs:674-689): the radius field or half of the diameter field, sorted. -/
def vtkRadius (o : VtkOpts) (f : VtkFile K) (idx : List ℕ) : Run (List (F K)) :=
  match o.size with
  | some true => sortByArray f.sizes idx
  | some false => sortByArray (f.sizes.map fun x => x * fin (1 / 2)) idx
  | none => .error .explicit

/-- The types (src/converter.rs:707-715): the type field, sorted, or ones. -/
def vtkTypes (o : VtkOpts) (f : VtkFile K) (idx : List ℕ) (count : ℕ) : Run (List ℕ) :=
  if o.hasType then sortByArray f.types idx else .ok (List.replicate count 1)

/-- The groups's datasets (src/converter.rs:656-787). `u64` datasets are read back as `f64`. -/
def vtkGroup (o : VtkOpts) (time : F K) (f : VtkFile K) : Run (TGroup K) := do
  if o.hasId = false then .error .explicit
  else
    let idx := makeSortlist f.ids
    let ids ← sortByArray f.ids idx
    if ids = [] then .error .unwrap
    else
      let radius ← vtkRadius o f idx
      let types ← vtkTypes o f idx radius.length
      if o.hasVel = false then .error .explicit
      else
        let vel ← shape3 (← sortByArray f.velocity idx)
        let pos ← shape3 (← sortByArray f.points idx)
        pure ⟨some time, some pos, some vel, some radius, none, some (radius.map fun _ => F.ofNat 1), some (types.map F.ofNat), some (ids.map F.ofNat)⟩

/-- The body of the loop over the files (src/converter.rs:625-795). The maximum over the ids does not depend on their order. -/
def vtkStep (o : VtkOpts) (dt : F K) (s : VtkState K) (x : VtkFile K × ℕ) : Run (VtkState K) :=
  let f := x.1
  let time := ofInt f.step * dt
  let time0 := if x.2 = 0 then time else s.time0
  if time < s.time1 then .error .explicit
  else do
    let g ← vtkGroup o time f
    let top := f.ids.foldl max 0
    pure ⟨s.groups ++ [g], (g.position.getD []).foldl seePos s.dims, if top > s.np then top else s.np, time0, time, s.timeArray ++ [time],
      time - s.oldTime, time, (g.velocity.getD []).foldl VelStats.see s.vel, s.count + f.ids.length⟩

/-- `write_hdf5_from_files` of `XMLVTKConverter` (src/converter.rs:585-856) and of `LegacyVTKConverter` (src/converter.rs:1012-1281), which differ only in
how the fields are read. -/
def vtkConvert (o : VtkOpts) (dt : F K) (files : List (VtkFile K)) : Run (TOut K) :=
  if files = [] then .error .explicit
  else do
    let s ← files.zipIdx.foldlM (vtkStep o dt) VtkState.init
    pure ⟨s.groups, ⟨s.dims, s.np, files.length, s.sampleRate.toUsize, (s.time0, s.time1), fun i => s.vel.attr s.count i, s.vel.magAttr s.count,
      s.timeArray⟩⟩

/-! ### CSV files -/

/-- The seven columns of one row: selected column `k` of the raw row, NaN behind the last selected one (src/converter.rs:88-100). -/
def pickRow (cols : List ℕ) (row : List (F K)) : Run (List (F K)) :=
  if cols.length > 7 then .error .index
  else do
    let l ← cols.foldlM (fun acc c => do pure (acc ++ [← at' row c])) []
    pure (l ++ List.replicate (7 - cols.length) .nan)

/-- Seven numbers as a row. -/
def toRow7 (l : List (F K)) : Row7 K :=
  ⟨l.getD 0 .nan, fun i => l.getD (1 + i) .nan, fun i => l.getD (4 + i) .nan⟩

/-- The table with the selected columns (src/converter.rs:88-100). -/
def pickColumns (cols : List ℕ) (raw : List (List (F K))) : Run (List (Row7 K)) :=
  if cols = [] then .error .explicit
  else raw.foldlM (fun acc r => do pure (acc ++ [toRow7 (← pickRow cols r)])) []

/-- The first four columns. -/
def Row7.four (r : Row7 K) : Row4 K := ⟨r.t, r.p⟩

/-- Options of the CSV converters. -/
structure CsvOpts (K : Type) where
  cols : List ℕ
  vel : Bool
  interp : Bool
  radius : F K
  sampling : ℕ

/-- src/converter.rs:101-109: sorting by time if needed. -/
def csvSort (rows : List (Row7 K)) : Run (List (Row7 K)) :=
  if isSorted (rows.map Row7.t) = true then .ok rows else sortByColumn Row7.t rows

/-- src/converter.rs:120-139: velocities. -/
def csvVel (lib : FitLib K) (o : CsvOpts K) (rows : List (Row4 K)) : Run (List (Row7 K)) :=
  if o.cols.length ≥ 5 then .error .explicit else velocityPolynom lib rows o.sampling 2

/-- src/converter.rs:110-139: interpolation with times shifted to start at 0, and velocities. The interpolated table has four columns: without velocities
the look at column 6 (src/converter.rs:185) is out of bounds. -/
def csvTable (lib : FitLib K) (o : CsvOpts K) (rows : List (Row7 K)) : Run (List (Row7 K)) :=
  if o.interp then do
    let first ← at' rows 0
    let shifted := rows.map fun r => (⟨r.t - first.t, r.p⟩ : Row4 K)
    let last ← at' shifted (shifted.length - 1)
    let rows ← interpolate shifted last.t shifted.length
    if o.vel then csvVel lib o rows else .error .index
  else if o.vel then csvVel lib o (rows.map Row7.four)
  else .ok rows

/-- `MAX_FAILS` (src/converter.rs:27). -/
def MAX_FAILS : ℕ := 500

/-- Statistics gathered over the accepted lines (src/converter.rs:152-176). -/
structure CsvStats (K : Type) where
  dims : Fin 3 → MinMax K
  vel : VelStats K
  count : ℕ
  tmax : F K
  rate : F K

/-- src/converter.rs:152-176. -/
def CsvStats.init : CsvStats K := ⟨fun _ => MinMax.init, VelStats.init, 0, 0, 0⟩

/-- src/converter.rs:210-268: one accepted line. `old_time` has already been set to the line's time when the sample rate is computed. -/
def CsvStats.see (s : CsvStats K) (r : Row7 K) : CsvStats K :=
  ⟨seePos s.dims r.p, s.vel.see r.v, s.count + 1, if r.t > s.tmax then r.t else s.tmax, r.t - r.t⟩

/-- The variables of the loop over the lines: time of the last accepted line, rejected lines in a row, output rows, statistics. -/
structure CsvState (K : Type) where
  old : F K
  fails : ℕ
  out : List (Row7 K)
  stats : CsvStats K

/-- src/converter.rs:190-273: one line; `skip` are the output rows left for a rejected line: none here (the index is shifted by the number of rejected
lines and the arrays cut at the end), a row of zeros in the other CSV modes (csv_multi_chain.rs:206-219, csv_multi_idline.rs:178-193). -/
def csvLine (skip : List (Row7 K)) (s : CsvState K) (r : Row7 K) : Run (CsvState K) :=
  if r.t ≤ s.old then
    if s.fails + 1 > MAX_FAILS then .error .explicit else .ok ⟨s.old, s.fails + 1, s.out ++ skip, s.stats⟩
  else .ok ⟨r.t, 0, s.out ++ [r], s.stats.see r⟩

/-- src/converter.rs:176-178, 185-273. -/
def csvLines (skip : List (Row7 K)) (stats : CsvStats K) (rows : List (Row7 K)) : Run (CsvState K) := do
  let first ← at' rows 0
  if (first.v 2).isNaN = true then .error .explicit
  else rows.foldlM (csvLine skip) ⟨0, 0, [], stats⟩

/-- A row of zeros: an entry of the arrays that was never written. -/
def zeroRow : Row7 K := ⟨0, fun _ => 0, fun _ => 0⟩

/-- The datasets of one particle (src/converter.rs:275-321): times, positions and velocities of the output rows, constant arrays of length `len`. -/
def csvGroup (rows : List (Row7 K)) (len : ℕ) (radius : F K) (ptype : Option (F K)) (pid : F K) : PGroup K :=
  ⟨some (rows.map Row7.t), some (rows.map Row7.p), some (rows.map Row7.v), some (List.replicate len radius), none,
    ptype.map fun y => List.replicate len y, some (List.replicate len pid)⟩

/-- The attributes (src/converter.rs:322-377). -/
def csvAttrs (s : CsvStats K) (n : ℕ) (timeArray : List (F K)) : Attrs K :=
  ⟨s.dims, 1, n, s.rate.toUsize, (0, s.tmax), fun i => s.vel.attr s.count i, s.vel.magAttr s.count, timeArray⟩

/-- `csv_converter` (src/converter.rs:38-380). -/
def csvConvert (lib : FitLib K) (o : CsvOpts K) (raw : List (List (F K))) : Run (POut K) := do
  let rows ← pickColumns o.cols raw
  let rows ← csvSort rows
  let rows ← csvTable lib o rows
  let s ← csvLines [] CsvStats.init rows
  pure ⟨[csvGroup s.out rows.length o.radius (some 1) 1], csvAttrs s.stats s.out.length (s.out.map Row7.t)⟩

/-! ### CSV files with several particles -/

/-- Loop that finds the starts of the trajectories (csv_multi_chain.rs:70-88): time of the previous line, starts, times before the resets, lengths. -/
structure ChainState (K : Type) where
  old : F K
  starts : List ℕ
  durations : List (F K)
  lengths : List ℕ

/-- csv_multi_chain.rs:77-85, for line `x.2` with time `x.1`. -/
def chainLine (s : ChainState K) (x : F K × ℕ) : ChainState K :=
  if x.2 > 0 ∧ x.1 < s.old then
    ⟨x.1, s.starts ++ [x.2], s.durations ++ [s.old], s.lengths ++ [x.2 - s.starts.getLastD 0]⟩
  else { s with old := x.1 }

/-- csv_multi_chain.rs:70-85. -/
def chainScan (times : List (F K)) : ChainState K := times.zipIdx.foldl chainLine ⟨0, [0], [], []⟩

/-- The table of one trajectory (csv_multi_chain.rs:99-148); from 200000 rows on the parallel version computes the velocities. The interpolated
table has four columns, the other one seven. -/
def chainTable (lib : FitLib K) (o : CsvOpts K) (maxDuration : F K) (maxSteps : ℕ) (seg : List (Row7 K)) : Run (List (Row7 K)) :=
  if o.interp then
    if o.vel = false then .error .explicit
    else do
      let rows ← interpolate (seg.map Row7.four) maxDuration maxSteps
      if o.cols.length ≥ 5 then .error .explicit
      else if rows.length < 200000 then velocityPolynom lib rows 9 2
      else velocityPolynomParallel lib 4 (rows.map fun r => ⟨r.t, r.p, fun _ => .nan⟩) 9 2
  else if o.vel then
    if o.cols.length ≥ 5 then .error .explicit
    else if seg.length < 200000 then velocityPolynom lib (seg.map Row7.four) 9 2 else velocityPolynomParallel lib 7 seg 9 2
  else .ok seg

/-- csv_multi_chain.rs:92-150: the tables of the trajectories `0 .. particles`, where `particles` is the number of resets of the time. -/
def chainTables (lib : FitLib K) (o : CsvOpts K) (rows : List (Row7 K)) : Run (List (List (Row7 K))) :=
  let s := chainScan (rows.map Row7.t)
  let maxDuration := s.durations.foldl (fun a b => if a > b then a else b) 0
  let maxSteps := s.lengths.foldl (fun a b => if a > b then a else b) 0
  let starts := s.starts ++ [rows.length]
  (List.range (s.starts.length - 1)).foldlM (fun acc idx => do
    let a ← at' starts idx
    let b ← at' starts (idx + 1)
    if b - a < 10 then pure acc
    else
      let table ← chainTable lib o maxDuration maxSteps ((rows.drop a).take (b - a))
      pure (acc ++ [table])) []

/-- The loop over the particles that writes the groups (csv_multi_chain.rs:177-335, csv_multi_idline.rs:149-306): groups, largest number of rows,
statistics, times of the last particle. -/
structure MultiState (K : Type) where
  groups : List (PGroup K)
  steps : ℕ
  stats : CsvStats K
  times : List (F K)

/-- One particle: csv_multi_chain.rs:177-335 (`ptype` is `none`: its type array is written under the name `particleid`), csv_multi_idline.rs:149-306. -/
def multiStep (radius : F K) (ptype : Option (F K)) (pid : ℕ → F K) (s : MultiState K) (x : List (Row7 K) × ℕ) : Run (MultiState K) := do
  let r ← csvLines [zeroRow] s.stats x.1
  pure ⟨s.groups ++ [csvGroup r.out x.1.length radius ptype (pid x.2)], if x.1.length > s.steps then x.1.length else s.steps, r.stats, r.out.map Row7.t⟩

/-- The file (csv_multi_chain.rs:153-390, csv_multi_idline.rs:125-362). The attribute `particle number` is always 1. If there is no particle, the time
array is the initial array of 100 zeros. -/
def multiWrite (radius : F K) (ptype : Option (F K)) (pid : ℕ → F K) (tables : List (List (Row7 K))) : Run (POut K) := do
  let s ← tables.zipIdx.foldlM (multiStep radius ptype pid) ⟨[], 0, CsvStats.init, List.replicate 100 0⟩
  pure ⟨s.groups, csvAttrs s.stats s.steps s.times⟩

/-- `csv_multi_chain` (csv_multi_chain.rs:20-391). -/
def chainConvert (lib : FitLib K) (o : CsvOpts K) (raw : List (List (F K))) : Run (POut K) := do
  let rows ← pickColumns o.cols raw
  let tables ← chainTables lib o rows
  multiWrite o.radius none (fun _ => 1) tables

/-- A row of a table with an id column. -/
structure Row8 (K : Type) where
  id : F K
  row : Row7 K

/-- Variables of the first loop of `sort_by_id` (csv_multi_idline.rs:369-407). -/
structure IdState (K : Type) where
  ids : List ℕ
  steps : List ℕ
  maxSteps : ℕ
  minT : F K
  maxT : F K

/-- csv_multi_idline.rs:379-404: one row (the smallest and largest id are not used). -/
def idLine (s : IdState K) (r : Row8 K) : IdState K :=
  let i := r.id.toUsize
  let t := r.row.t
  let minT := if t < s.minT then t else s.minT
  let maxT := if t < s.minT then s.maxT else if t > s.maxT then t else s.maxT
  if s.ids.contains i then
    let k := s.ids.idxOf i
    let c := s.steps.getD k 0 + 1
    ⟨s.ids, s.steps.set k c, if c > s.maxSteps then c else s.maxSteps, minT, maxT⟩
  else ⟨s.ids ++ [i], s.steps ++ [1], s.maxSteps, minT, maxT⟩

/-- csv_multi_idline.rs:425-433: append the row to the table of its id; a row behind the end of the table would be out of bounds. -/
def idFill (ids : List (ℕ × ℕ)) (tables : List (List (Row8 K))) (r : Row8 K) : Run (List (List (Row8 K))) :=
  let k := (ids.map Prod.fst).idxOf r.id.toUsize
  match ids[k]?, tables[k]? with
  | some x, some l => if l.length < x.2 then .ok (tables.set k (l ++ [r])) else .error .index
  | _, _ => .error .unwrap

/-- `sort_by_id` (csv_multi_idline.rs:365-435): ids and their numbers of rows sorted by id, one table per id, filled in the order of the rows.
The tables are allocated with their final lengths; a table is modelled as the list of the rows written so far. -/
def sortById (rows : List (Row8 K)) : Run (List (List (Row8 K)) × F K × ℕ) := do
  let first ← at' rows 0
  let s := rows.foldl idLine ⟨[], [], 0, first.row.t, first.row.t⟩
  let ids := (s.ids.zip s.steps).mergeSort fun a b => decide (a.1 ≤ b.1)
  let tables ← rows.foldlM (idFill ids) (ids.map fun _ => [])
  pure (tables, s.maxT, s.maxSteps)

/-- The table of one particle (csv_multi_idline.rs:80-119): sorted by time, id column removed, interpolated, with velocities. Without velocities an
interpolated table has only four columns: the look at column 6 (line 171) is out of bounds. -/
def idTable (lib : FitLib K) (o : CsvOpts K) (maxT : F K) (maxSteps : ℕ) (l : List (Row8 K)) : Run (List (Row7 K)) := do
  let l ← sortByColumn (fun r : Row8 K => r.row.t) l
  let rows := l.map Row8.row
  if o.interp then do
    let rows ← interpolate (rows.map Row7.four) maxT maxSteps
    if o.vel then (if o.cols.length > 5 then .error .explicit else velocityPolynom lib rows 9 2) else .error .index
  else if o.vel then
    if o.cols.length > 5 then .error .explicit else velocityPolynom lib (rows.map Row7.four) 9 2
  else .ok rows

/-- The columns of the id-line mode: time, id, position, velocity (csv_multi_idline.rs:59-72). -/
def pickIdRow (cols : List ℕ) (row : List (F K)) : Run (Row8 K) := do
  let l ← cols.foldlM (fun acc c => do pure (acc ++ [← at' row c])) []
  pure ⟨l.getD 1 .nan, l.getD 0 .nan, fun i => l.getD (2 + i) .nan, fun i => l.getD (5 + i) .nan⟩

/-- `csv_multi_idline` (csv_multi_idline.rs:21-363). -/
def idConvert (lib : FitLib K) (o : CsvOpts K) (raw : List (List (F K))) : Run (POut K) :=
  if ¬ (o.cols.length = 5 ∨ o.cols.length = 8) then .error .explicit
  else do
    let rows ← raw.foldlM (fun acc r => do pure (acc ++ [← pickIdRow o.cols r])) []
    let (tables, maxT, maxSteps) ← sortById rows
    let tables ← tables.foldlM (fun acc l => do pure (acc ++ [← idTable lib o maxT maxSteps l])) []
    multiWrite o.radius (some 0) (fun i => F.ofNat i) tables

/-! ### One CSV file per timestep -/

/-- The columns id, position, velocity (csv_multi_file_time_step.rs:101-107). -/
def pickStepRow (cols : List ℕ) (row : List (F K)) : Run (Row8 K) := do
  let l ← cols.foldlM (fun acc c => do pure (acc ++ [← at' row c])) []
  pure ⟨l.getD 0 .nan, .nan, fun i => l.getD (1 + i) .nan, fun i => l.getD (4 + i) .nan⟩

/-- The body of the loop over the files (csv_multi_file_time_step.rs:73-207): rows are kept in file order, radius, cloud size and type are 0. -/
def fileStep (cols : List ℕ) (times : List (F K)) (s : VtkState K) (x : List (List (F K)) × ℕ) : Run (VtkState K) := do
  let time ← at' times x.2
  let rows ← x.1.foldlM (fun acc r => do pure (acc ++ [← pickStepRow cols r])) []
  let zeros := rows.map fun _ => (0 : F K)
  let pos := rows.map fun r => r.row.p
  let vel := rows.map fun r => r.row.v
  pure ⟨s.groups ++ [⟨some time, some pos, some vel, some zeros, none, some zeros, some zeros, some (rows.map Row8.id)⟩],
    pos.foldl seePos s.dims, rows.length, s.time0, if time > s.time1 then time else s.time1, s.timeArray ++ [time], time - s.oldTime, time,
    vel.foldl VelStats.see s.vel, s.count + rows.length⟩

/-- `csv_multi_file_time_step` (csv_multi_file_time_step.rs:20-264). The options for velocities, interpolation and the radius are ignored by the code. -/
def fileConvert (cols : List ℕ) (times : List (F K)) (files : List (List (List (F K)))) : Run (TOut K) :=
  if ¬ (cols.length = 4 ∨ cols.length = 7) then .error .explicit
  else do
    let s ← files.zipIdx.foldlM (fileStep cols times) VtkState.init
    pure ⟨s.groups, ⟨s.dims, s.np, files.length, s.sampleRate.toUsize, (s.time0, s.time1), fun i => s.vel.attr s.count i, s.vel.magAttr s.count,
      s.timeArray⟩⟩

end Up4
