import Verif.Model.Plot

set_option linter.unusedSectionVars false

/-!
# Model of the grid constructor (`up4/grid.py`) and of `Grid.plot` (`src/pylib/libgrid.rs`)

A Python exception and a Rust panic (a `PanicException` in Python) are both an error of `Run`; the kind of exception is not modelled. Checks of the Python types of
the arguments (up4/grid.py:63-122: lists or arrays of numbers, a `Data` object, a string) are not modelled: the arguments have the right types.
`num_cells` is a list of integers.
-/

namespace Up4
open Selector (at')

variable {K : Type} [Field K] [LinearOrder K] [IsStrictOrderedRing K] [FloorRing K] [Arith K]

/-- The arguments of `Grid(...)` (up4/grid.py:52-62). `data` is `data.min_position()` and `data.max_position()` (src/pylib.rs:227-242); `axis 0/1/2` are
`xlim`/`ylim`/`zlim`. -/
structure GridArgs (K : Type) where
  data : Option (Limits K)
  numCells : Option (List ℤ)
  style : String
  cellSize : Option (List (F K))
  limits : Option (List (F K))
  axis : Fin 3 → Option (List (F K))

/-- up4/grid.py:84-87, 92-95, 100-103: two entries, the first not above the second. -/
def checkAxis : Option (List (F K)) → Run Unit
  | none => .ok ()
  | some l =>
    if l.length ≠ 2 then .error .explicit
    else do
      let a ← at' l 0
      let b ← at' l 1
      if a > b then .error .explicit else .ok ()

/-- Python's `int(x)`: towards zero; infinities and NaN raise. -/
def truncInt : F K → Run ℤ
  | .fin x => .ok (if 0 ≤ x then ⌊x⌋ else ⌈x⌉)
  | _ => .error .explicit

/-- One axis of `calc_num_cells` (up4/grid.py:32, 37, 41-46). The third of these lines converts an array to `int64`: for an infinity or NaN this gives a
negative number, which the Rust layer refuses; it is modelled as the error at once. -/
def cellsAlong (lim : F K × F K) (size : F K) : Run ℤ := truncInt ((lim.2 - lim.1) / size)

/-- `xlim` replaces the extent of the data (up4/grid.py:20-29, 162-173, 219-230). -/
def axisLim (d : F K × F K) : Option (List (F K)) → Run (F K × F K)
  | none => .ok d
  | some l => do
    let a ← at' l 0
    let b ← at' l 1
    pure (a, b)

/-- The limits of one axis in `limits` (up4/grid.py:37, src/pylib/libgrid.rs:112-118). -/
def limAt (l : List (F K)) (i : ℕ) : Run (F K × F K) := do
  let a ← at' l (2 * i)
  let b ← at' l (2 * i + 1)
  pure (a, b)

/-- All three axes. -/
def three {α : Type} (f : Fin 3 → Run α) : Run (Fin 3 → α) := do
  let a ← f 0
  let b ← f 1
  let c ← f 2
  pure ![a, b, c]

/-- The limits `calc_num_cells` uses (up4/grid.py:16-48): those of the data and the axes if there are data, whatever `limits` is. -/
def sizeLimits (a : GridArgs K) : Run (Limits K) :=
  match a.data, a.limits with
  | some d, _ => three fun i => axisLim (d i) (a.axis i)
  | none, some l => three fun i => limAt l i
  | none, none =>
    if (a.axis 0).isSome ∧ (a.axis 1).isSome ∧ (a.axis 2).isSome then three fun i => axisLim (0, 0) (a.axis i)
    else .error .explicit

/-- `num_cells` after up4/grid.py:112-122. -/
def chosenCells (a : GridArgs K) : Run (Option (List ℤ)) :=
  match a.cellSize with
  | none => .ok a.numCells
  | some s =>
    if s.length ≠ 3 then .error .explicit
    else do
      let lim ← sizeLimits a
      let n ← three fun i => do
        let x ← at' s i
        cellsAlong (lim i) x
      pure (some [n 0, n 1, n 2])

/-- The limits of the grid (up4/grid.py:138-193, 194-252; src/pylib/libgrid.rs:109-111, 166-168): without data one of `limits` and the three axes must be
given, and not both (124-136); `limits` must have no negative entries and six of them; otherwise the axes that are given, and the data. -/
def chosenLimits (a : GridArgs K) : Run (Limits K) :=
  match a.limits, a.data with
  | some l, d =>
    if d.isNone ∧ ((a.axis 0).isSome ∨ (a.axis 1).isSome ∨ (a.axis 2).isSome) then .error .explicit
    else if l.any (fun x => decide (x < 0)) then .error .explicit
    else if l.length ≠ 6 then .error .explicit
    else three fun i => limAt l i
  | none, some d => three fun i => axisLim (d i) (a.axis i)
  | none, none =>
    if (a.axis 0).isSome ∧ (a.axis 1).isSome ∧ (a.axis 2).isSome then three fun i => axisLim (0, 0) (a.axis i)
    else .error .explicit

/-- `Vec<usize>` of three entries from a Python list (src/pylib/libgrid.rs:74, 105, 162, 201): a negative entry raises. -/
def toCells : Option (List ℤ) → Run CellId
  | some [a, b, c] => if a < 0 ∨ b < 0 ∨ c < 0 then .error .explicit else .ok ![a.toNat, b.toNat, c.toNat]
  | _ => .error .explicit

/-- Cells by cell size, data and limits for a Cartesian grid: `calc_num_cells` returns an array of floats if there are data, and this branch (up4/grid.py:152-157)
does not convert it to integers; the Rust layer refuses floats. -/
def floatCells (a : GridArgs K) : Bool :=
  a.style == "cartesian" && a.cellSize.isSome && a.data.isSome && a.limits.isSome

/-- `Grid.__new__` (up4/grid.py:52-252). -/
def pyGrid (a : GridArgs K) : Run (Grid K) :=
  if (a.numCells.any fun l => l.length != 3) = true then .error .explicit
  else do
    let _ ← checkAxis (a.axis 0)
    let _ ← checkAxis (a.axis 1)
    let _ ← checkAxis (a.axis 2)
    if a.style ≠ "cartesian" ∧ a.style ≠ "cylindrical" then .error .explicit
    else do
      let cells ← chosenCells a
      let lim ← chosenLimits a
      if floatCells a = true then .error .explicit
      else do
        let cells ← toCells cells
        pure (if a.style = "cartesian" then Grid.newCart cells lim else Grid.newCyl cells lim)

/-! ### The static constructors of the Rust class -/

/-- `Vec<usize>` from a Python list of integers: a negative entry raises. -/
def toUsizes (l : List ℤ) : Run (List ℕ) := if l.any (fun z => decide (z < 0)) then .error .explicit else .ok (l.map Int.toNat)

/-- `PyGrid::cartesian3d` (src/pylib/libgrid.rs:105-124). -/
def pyCartesian3d (cells : List ℤ) (limit : List (F K)) : Run (Grid K) := do
  let cells ← toUsizes cells
  if cells.length ≠ 3 then .error .explicit
  else if limit.length ≠ 6 then .error .explicit
  else do
    let c ← three fun i => at' cells i
    let lim ← three fun i => limAt limit i
    pure (Grid.newCart c lim)

/-- `PyGrid::cylindrical3d` (src/pylib/libgrid.rs:162-182). -/
def pyCylindrical3d (cells : List ℤ) (limit : List (F K)) (mode : String) : Run (Grid K) := do
  let cells ← toUsizes cells
  if cells.length ≠ 3 then .error .explicit
  else if limit.length ≠ 6 then .error .explicit
  else do
    let c ← three fun i => at' cells i
    let lim ← three fun i => limAt limit i
    let geom ← CylGeom.newMode mode c lim
    pure ⟨.cyl geom, Store.zeros c⟩

/-- `PyGrid::cartesian3d_from_data` (src/pylib/libgrid.rs:74-88): the length of `cells` is not checked. `dim`: the position limits of the data. -/
def pyCartesianFromData (dim : Limits K) (cells : List ℤ) : Run (Grid K) := do
  let cells ← toUsizes cells
  let c ← three fun i => at' cells i
  pure (Grid.newCart c dim)

/-- `PyGrid::cylindrical3d_from_data` (src/pylib/libgrid.rs:201-216). -/
def pyCylindricalFromData (dim : Limits K) (cells : List ℤ) (mode : String) : Run (Grid K) := do
  let cells ← toUsizes cells
  let c ← three fun i => at' cells i
  let geom ← CylGeom.newMode mode c dim
  pure ⟨.cyl geom, Store.zeros c⟩

/-- `RustGrid()` (src/pylib/libgrid.rs:50-57): one cell over a point. -/
def pyEmptyGrid : Grid K := Grid.newCart ![1, 1, 1] fun _ => (0, 0)

/-- The heat map of `Grid.plot`: positions along both axes, one row of `z` per entry of `y`. -/
structure HeatRows (K : Type) where
  x : List (F K)
  y : List (F K)
  z : List (List (F K))

/-- `PyGrid::plot` (src/pylib/libgrid.rs:244-274), up to showing the figure. -/
def pyPlot (g : Grid K) (axis : ℕ) : Run (HeatRows K) := do
  let d ← g.collapse axis
  let z := (List.range (d.shape 0)).map fun i => (List.range (d.shape 1)).map fun j => d.get ![i, j]
  if axis = 0 then pure ⟨g.geom.positions 2, g.geom.positions 1, z⟩
  else if axis = 1 then pure ⟨g.geom.positions 2, g.geom.positions 0, z⟩
  else pure ⟨g.geom.positions 1, g.geom.positions 0, z⟩

end Up4
