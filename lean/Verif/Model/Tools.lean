import Verif.Core
import Verif.Model.Selector

set_option linter.unusedSectionVars false

/-! # Model of `src/converter/convertertools.rs`, `src/utilities.rs`, `src/utilities/maths.rs` and `binary_threshold` -/

namespace Up4
open F
open Selector (at')

variable {K : Type} [Field K] [LinearOrder K] [IsStrictOrderedRing K] [FloorRing K] [Arith K]

/-! ### Sorting -/

/-- src/converter/convertertools.rs:248-254, `make_sortlist`. `sort_by_key` of the standard library is a stable sort; it is modelled by
core Lean's stable `mergeSort`. Ids (`u64`) are natural numbers. -/
def makeSortlist (ids : List ℕ) : List ℕ :=
  (List.range ids.length).mergeSort fun i j => decide (ids.getD i 0 ≤ ids.getD j 0)

/-- src/converter/convertertools.rs:225-246, `sort_by_array`. -/
def sortByArray {α : Type} (data : List α) (idx : List ℕ) : Run (List α) :=
  if data.length = idx.length then
    idx.foldlM (fun acc i => do pure (acc ++ [← at' data i])) []
  else
    idx.foldlM (fun acc i => do
      let a ← at' data (3 * i)
      let b ← at' data (3 * i + 1)
      let c ← at' data (3 * i + 2)
      pure (acc ++ [a, b, c])) []

/-- `partial_cmp` is not `Greater`, for numbers that are not NaN; NaN is put below everything to have a total order (it is rejected before). -/
def leNum (x y : F K) : Bool := match x with
  | .nan => true
  | _ => F.leB x y

/-- src/converter/convertertools.rs:256-272, `sort_by_column`, on the list of rows of the table; `key` reads the column.
`partial_cmp(..).unwrap()` panics as soon as a NaN is compared; in a sort of two or more rows each row is compared with another one.
`sort_by` is stable. The copy of the rows into a zeroed table of the same shape is modelled as listing them. -/
def sortByColumn {R : Type} (key : R → F K) (rows : List R) : Run (List R) :=
  if 2 ≤ rows.length ∧ rows.any (fun r => (key r).isNaN) = true then .error .unwrap
  else
    let keyAt (i : ℕ) : F K := ((rows[i]?).map key).getD .nan
    let indices := (List.range rows.length).mergeSort fun i j => leNum (keyAt i) (keyAt j)
    (.ok (indices.filterMap fun i => rows[i]?) : Run (List R))

/-- src/converter/convertertools.rs:274-279, `is_sorted`: all pairs of neighbours satisfy `<=`. -/
def isSorted : List (F K) → Bool
  | a :: b :: l => F.leB a b && isSorted (b :: l)
  | _ => true

/-! ### Interpolation -/

/-- The columns time, x, y, z of one row of a table. -/
structure Row4 (K : Type) where
  t : F K
  p : Fin 3 → F K

/-- A row whose coordinates are NaN. -/
def nanRow (t : F K) : Row4 K := ⟨t, fun _ => .nan⟩

/-- src/converter/convertertools.rs:214-222, `interpolate_step`. -/
def interpolateStep (timeOld timeNew timeCurrent posOld posNew : F K) : F K :=
  posOld + ((posNew - posOld) / (timeNew - timeOld)) * (timeCurrent - timeOld)

/-- src/converter/convertertools.rs:58-71: the comparison after moving on by one row. -/
def nextStep2 (time : List (F K)) (rs : ℕ) (tn : F K) : Run ℕ :=
  if rs < time.length - 1 then do
    let o ← at' time rs
    let n ← at' time (rs + 1)
    if (tn - o).abs < (tn - n).abs then pure rs else pure (rs + 1)
  else pure rs

/-- src/converter/convertertools.rs:47-74: the row of the input used for output time `tn`, from the one used before. -/
def nextStep (time : List (F K)) (rs : ℕ) (tn : F K) : Run ℕ :=
  if rs < time.length - 1 then do
    let o ← at' time rs
    let n ← at' time (rs + 1)
    if n < o then pure (rs + 1)
    else if (tn - o).abs < (tn - n).abs then pure rs
    else nextStep2 time (rs + 1) tn
  else pure rs

/-- src/converter/convertertools.rs:78-116: one output row from the row index and the output time. -/
def interpRow (data : List (Row4 K)) (rs : ℕ) (tn : F K) : Run (Row4 K) :=
  if data.length - 1 ≤ rs then pure (nanRow tn)
  else do
    let a ← at' data (rs - 1)
    let b ← at' data (rs + 1)
    if F.eqB a.t b.t then pure (nanRow tn)
    else pure ⟨tn, fun i => interpolateStep a.t b.t tn (a.p i) (b.p i)⟩

/-- `interp_data[[i, ..]] = row`, with the bounds check on the row. -/
def setRow {R : Type} (l : List R) (i : ℕ) (r : R) : Run (List R) := if i < l.length then .ok (l.set i r) else .error .index

/-- src/converter/convertertools.rs:47-121: one pass of the loop over the output rows. -/
def interpBody (data : List (Row4 K)) (dt : F K) (s : ℕ × List (Row4 K)) (step : ℕ) : Run (ℕ × List (Row4 K)) := do
  let tn := F.ofNat step * dt
  let rs ← nextStep (data.map Row4.t) s.1 tn
  let row ← interpRow data rs tn
  let out ← setRow s.2 step row
  pure (rs, out)

/-- src/converter/convertertools.rs:9-124, `interpolate`, for tables with at least the four columns time, x, y, z (others are ignored, as in the
code). `steps - 1` and `time.len() - 1` cannot underflow: an access to row 0 comes first. Progress bar and signal check are left out. -/
def interpolate (data : List (Row4 K)) (maxTime : F K) (steps : ℕ) : Run (List (Row4 K)) :=
  if isSorted (data.map Row4.t) = false then .error .explicit else do
    let dt := maxTime / F.ofNat steps
    let out := List.replicate steps (⟨0, fun _ => 0⟩ : Row4 K)
    let first ← at' data 0
    let out ← setRow out 0 first
    let last ← at' data (data.length - 1)
    let out ← setRow out (steps - 1) last
    let s ← (List.range' 1 (steps - 2)).foldlM (interpBody data dt) (1, out)
    pure s.2

/-! ### Velocities from fitted polynomials -/

/-- A row with velocity: the columns time, x, y, z, vx, vy, vz. -/
structure Row7 (K : Type) where
  t : F K
  p : Fin 3 → F K
  v : Fin 3 → F K

/-- The outside functions used for velocities: `polyfit_rs::polyfit` (`None` for `Err`) and `f64::powf`. Not modelled; what is needed of
them is a hypothesis of the theorems. -/
structure FitLib (K : Type) where
  polyfit : List (F K) → List (F K) → ℕ → Option (List (F K))
  powf : F K → F K → F K

/-- src/converter/convertertools.rs:169-175 (and 170-181): sum over the coefficients of `param * n * tau^(n-1)`. -/
def polyDeriv (lib : FitLib K) (param : List (F K)) (tau : F K) : F K :=
  F.sum (param.zipIdx.map fun x => x.1 * F.ofNat x.2 * lib.powf tau (F.ofNat x.2 - 1))

/-- src/converter/convertertools.rs:146-189: velocity of one coordinate from the time-shifted window. -/
def windowVel (lib : FitLib K) (time : List (F K)) (xs : List (F K)) (s degree : ℕ) : Run (F K) :=
  match lib.polyfit time xs degree with
  | none => .error .unwrap
  | some param =>
    match param with
    | [] => .ok (F.sum [])
    | _ => do
      let tau ← at' time ((s - 1) / 2 + 1)
      pure (polyDeriv lib param tau)

/-- src/converter/convertertools.rs:141-209: one output row from the window of `s` rows around row `id`. The code fits x, y and z before it evaluates any
derivative: which of two possible panics comes first is not modelled. -/
def windowRow (lib : FitLib K) (data : List (Row4 K)) (s degree id : ℕ) : Run (Row7 K) := do
  let seg := (data.drop (id - (s - 1) / 2)).take s
  let t0 ← at' (seg.map Row4.t) 0
  let time := (seg.map Row4.t).map fun t => t - t0
  let vx ← windowVel lib time (seg.map fun r => r.p 0) s degree
  let vy ← windowVel lib time (seg.map fun r => r.p 1) s degree
  let vz ← windowVel lib time (seg.map fun r => r.p 2) s degree
  let r ← at' data id
  pure ⟨r.t, r.p, ![vx, vy, vz]⟩

/-- src/converter/convertertools.rs:126-212, `velocity_polynom`. `data.len() - (s - 1)` underflows for short tables: a panic in debug builds; in release
builds the huge allocation fails (modelled as a panic too). The output rows are written in increasing order to consecutive rows of the
new table: modelled as appending. -/
def velocityPolynom (lib : FitLib K) (data : List (Row4 K)) (s degree : ℕ) : Run (List (Row7 K)) :=
  if s % 2 = 0 then .error .explicit
  else if data.length < s - 1 then .error .overflow
  else (List.range' ((s - 1) / 2) (data.length - (s - 1) / 2 - (s - 1) / 2)).foldlM (fun acc id => do
    let row ← windowRow lib data s degree id
    pure (acc ++ [row])) []

/-- src/converter/convertertools/velocity_paralell.rs:34-92: one output row from the window of seven rows from row `k`. As in `windowRow`, which of two
possible panics comes first is not modelled. -/
def parallelRow (lib : FitLib K) (data : List (Row7 K)) (s degree k : ℕ) : Run (Row7 K) := do
  let seg := (data.drop k).take 7
  let t0 ← at' (seg.map Row7.t) 0
  let time := (seg.map Row7.t).map fun t => t - t0
  let vx ← windowVel lib time (seg.map fun r => r.p 0) s degree
  let vy ← windowVel lib time (seg.map fun r => r.p 1) s degree
  let vz ← windowVel lib time (seg.map fun r => r.p 2) s degree
  let r ← at' seg ((s - 1) / 2)
  pure ⟨r.t, r.p, ![vx, vy, vz]⟩

/-- src/converter/convertertools/velocity_paralell.rs:9-107, `velocity_polynom_parallel`, for a table of `columns` columns. `windows((7, 7))` gives the
windows of seven rows and seven columns: none for a table of fewer than seven columns or rows, and `to_array2` panics if there is none.
The parallel map keeps the order of the windows. -/
def velocityPolynomParallel (lib : FitLib K) (columns : ℕ) (data : List (Row7 K)) (s degree : ℕ) : Run (List (Row7 K)) :=
  if s % 2 = 0 then .error .explicit
  else do
    let out ← (List.range (if columns < 7 then 0 else data.length - 6)).foldlM (fun acc k => do
      let row ← parallelRow lib data s degree k
      pure (acc ++ [row])) []
    if out.length = 0 then .error .explicit else pure out

/-! ### `src/utilities/maths.rs`, `src/utilities.rs` -/

/-- src/utilities/maths.rs:3-15, `minmax`. -/
def minmax (l : List (F K)) : F K × F K :=
  l.foldl (fun s v => (if v < s.1 then v else s.1, if v > s.2 then v else s.2)) (fin Arith.maxK, fin (-Arith.maxK))

/-- src/utilities/maths.rs:17-31, `meshgrid`; the double loop writes every entry once, with `x[idx]` and `y[idy]`. -/
def meshgrid (x y : List (F K)) : Run (Arr 2 (F K) × Arr 2 (F K)) :=
  (List.range x.length).foldlM (fun s i => (List.range y.length).foldlM (fun (s : Arr 2 (F K) × Arr 2 (F K)) j => do
    let a ← s.1.write ![i, j] (← at' x i)
    let b ← s.2.write ![i, j] (← at' y j)
    pure (a, b)) s) (Arr.const ![x.length, y.length] 0, Arr.const ![x.length, y.length] 0)

/-- src/utilities/maths.rs:33-55, `meshgrid3d`. -/
def meshgrid3 (x y z : List (F K)) : Run (Arr 3 (F K) × Arr 3 (F K) × Arr 3 (F K)) :=
  (List.range x.length).foldlM (fun s i => (List.range y.length).foldlM (fun s j =>
    (List.range z.length).foldlM (fun (s : Arr 3 (F K) × Arr 3 (F K) × Arr 3 (F K)) k => do
    let a ← s.1.write ![i, j, k] (← at' x i)
    let b ← s.2.1.write ![i, j, k] (← at' y j)
    let c ← s.2.2.write ![i, j, k] (← at' z k)
    pure (a, b, c)) s) s)
    (Arr.const ![x.length, y.length, z.length] 0, Arr.const ![x.length, y.length, z.length] 0, Arr.const ![x.length, y.length, z.length] 0)

/-- src/utilities/maths.rs:57-73, `flatten_2d` (n = 2) and `flatten_3d` (n = 3): the elements of a slice of everything, in iteration order. -/
def flatten {n : ℕ} (a : Arr n (F K)) : List (F K) := (indices n a.shape).map a.get

/-- src/utilities.rs:76-86, `nan_mean`, over the elements in iteration order. The counter is an `i32`; arrays with 2^31 or more cells are not
modelled. -/
def nanMean (l : List (F K)) : F K :=
  let s := l.foldl (fun (s : F K × ℕ) v => if v.isNaN = false then (s.1 + v, s.2 + 1) else s) (0, 0)
  s.1 / F.ofNat s.2

/-- src/utilities.rs:89-100, `nan_std`. -/
def nanStd (l : List (F K)) : F K :=
  let mean := nanMean l
  let s := l.foldl (fun (s : F K × ℕ) v => if v.isNaN = false then (s.1 + F.sq (v - mean), s.2 + 1) else s) (0, 0)
  (s.1 / F.ofNat s.2).sqrt

/-! ### `src/comparison.rs` -/

/-- src/comparison.rs:146-157, `binary_threshold`. As in `sortByColumn` a NaN in a field of two or more cells is compared and panics. -/
def binaryThreshold (field : Arr 3 (F K)) (quantile : F K) : Run (Arr 3 (F K)) :=
  let l := flatten field
  if ¬ (0 ≤ quantile ∧ quantile ≤ 1) then .error .explicit
  else do
    let sorted ← sortByColumn (fun x => x) l
    let nz := sorted.filter fun x => !(F.eqB x 0)
    match nz[(F.ofNat l.length * quantile).toUsize]? with
    | none => .error .unwrap
    | some threshold => pure (field.map fun x => if x > threshold then 1 else 0)

end Up4
