import Verif.Model.GridObject
import Verif.Model.Construct

set_option linter.unusedSectionVars false

/-!
# Calls of methods of a grid object: `src/pylib/libgrid.rs`

The methods of `RustGrid` and `RustVectorGrid`, with the conversion of Python integers to `usize` and the state of the object after a call that raises.
-/

namespace Up4
open F

variable {K : Type} [Field K] [LinearOrder K] [IsStrictOrderedRing K] [FloorRing K] [Arith K]

/-- A Python integer as a `usize` argument (PyO3): a negative one raises `OverflowError`. One that does not fit in 64 bits raises as well; here it is passed on, and is
refused as an axis, an index or a mode. -/
def usizeArg (z : ℤ) : Run ℕ := if z < 0 then .error .explicit else .ok z.toNat

/-- A call of a method of a grid object (src/pylib/libgrid.rs:132-142, 229-231, 282-435, 484-486). -/
inductive GridCall (K : Type) where
  | toNumpy
  | weightsToNumpy
  | shape
  | cellPositions
  | positions (axis : Fin 3)
  | slice (axis index : ℤ)
  | slicePos (axis : ℤ) (position : F K)
  | collapse (axis : ℤ)
  | collapseTwo (axis1 axis2 : ℤ)
  | removeOutliers (mode : ℤ) (threshold : F K)
  | isInside (position : List (F K))
  | cellId (x y z : F K)
  | str

/-- What a method returns. -/
inductive GridAnswer (K : Type) where
  | none
  | cube (a : Arr 3 (F K))
  | plane (a : Arr 2 (F K))
  | row (a : Arr 1 (F K))
  | lists (l : Fin 3 → List (F K))
  | list (l : List (F K))
  | cells (c : CellId)
  | bool (b : Bool)
  | summary (s : Summary K)

namespace Grid

/-- `PyGrid.slice` (src/pylib/libgrid.rs:314-320). -/
def pySlice (g : Grid K) (axis index : ℤ) : Run (Arr 2 (F K)) := do
  let a ← usizeArg axis
  let i ← usizeArg index
  g.sliceIdx a i

/-- `PyGrid.slice_pos` (src/pylib/libgrid.rs:330-333). -/
def pySlicePos (g : Grid K) (axis : ℤ) (position : F K) : Run (Arr 2 (F K)) := do
  let a ← usizeArg axis
  g.slice a position

/-- `PyGrid.collapse` (src/pylib/libgrid.rs:349-351). -/
def pyCollapse (g : Grid K) (axis : ℤ) : Run (Arr 2 (F K)) := do
  let a ← usizeArg axis
  g.collapse a

/-- `PyGrid.collapse_two` (src/pylib/libgrid.rs:369-379). -/
def pyCollapseTwo (g : Grid K) (axis1 axis2 : ℤ) : Run (Arr 1 (F K)) := do
  let a ← usizeArg axis1
  let b ← usizeArg axis2
  g.collapseTwo a b

/-- `PyGrid.remove_outliers` (src/pylib/libgrid.rs:433-435). -/
def pyRemoveOutliers (p : Profile) (g : Grid K) (mode : ℤ) (threshold : F K) : Run (Grid K) := do
  let m ← usizeArg mode
  g.outlierRemoval p threshold m

/-- A method call: the object afterwards and the answer (src/pylib/libgrid.rs:132-142, 229-231, 282-435, 437-486). -/
def call (p : Profile) (g : Grid K) : GridCall K → Run (Grid K × GridAnswer K)
  | .toNumpy => .ok (g, .cube g.st.data)
  | .weightsToNumpy => .ok (g, .cube g.st.weight)
  | .shape => .ok (g, .cells g.geom.cells)
  | .cellPositions => .ok (g, .lists g.geom.positions)
  | .positions a => .ok (g, .list (g.geom.positions a))
  | .slice a i => (g.pySlice a i).map fun x => (g, .plane x)
  | .slicePos a x => (g.pySlicePos a x).map fun x => (g, .plane x)
  | .collapse a => (g.pyCollapse a).map fun x => (g, .plane x)
  | .collapseTwo a b => (g.pyCollapseTwo a b).map fun x => (g, .row x)
  | .removeOutliers m t => (g.pyRemoveOutliers p m t).map fun x => (x, .none)
  | .isInside q => (g.pyInside q).map fun b => (g, .bool b)
  | .cellId x y z => (g.pyCellId p x y z).map fun c => (g, .cells c)
  | .str => .ok (g, .summary g.summary)

/-- The object after a call, whether it returned or raised: `outlier_removal` stores its result only at the end (cartesian_grid.rs:481-560, cylindrical_grid.rs:445-513),
and no other method changes anything. -/
def afterCall (p : Profile) (g : Grid K) (c : GridCall K) : Grid K :=
  match g.call p c with
  | .ok r => r.1
  | .error _ => g

/-- The object after a sequence of calls. -/
def afterCalls (p : Profile) (g : Grid K) (cs : List (GridCall K)) : Grid K := cs.foldl (fun g c => g.afterCall p c) g

end Grid

namespace VecGrid

/-- A method of all three components, in order (src/pylib/libgrid.rs:533-595). -/
def triple {α : Type} (f : Grid K → Run α) (g : VecGrid K) : Run (Fin 3 → α) := do
  let x ← f (g.comp 0)
  let y ← f (g.comp 1)
  let z ← f (g.comp 2)
  pure ![x, y, z]

/-- `PyVecGrid.to_numpy` (src/pylib/libgrid.rs:500-509). -/
def pyToNumpy (g : VecGrid K) : Fin 3 → Arr 3 (F K) := fun a => (g.comp a).st.data
/-- `PyVecGrid.cell_positions` (src/pylib/libgrid.rs:510-528). -/
def pyCellPositions (g : VecGrid K) : Fin 3 → List (F K) := (g.comp 0).geom.positions
/-- `PyVecGrid.shape` (src/pylib/libgrid.rs:529-531). -/
def pyShape (g : VecGrid K) : CellId := (g.comp 0).geom.cells
/-- `PyVecGrid.slice` (src/pylib/libgrid.rs:533-553). -/
def pySlice (g : VecGrid K) (axis index : ℤ) : Run (Fin 3 → Arr 2 (F K)) := g.triple fun x => x.pySlice axis index
/-- `PyVecGrid.slice_pos` (src/pylib/libgrid.rs:555-575). -/
def pySlicePos (g : VecGrid K) (axis : ℤ) (position : F K) : Run (Fin 3 → Arr 2 (F K)) := g.triple fun x => x.pySlicePos axis position
/-- `PyVecGrid.collapse` (src/pylib/libgrid.rs:577-596). -/
def pyCollapse (g : VecGrid K) (axis : ℤ) : Run (Fin 3 → Arr 2 (F K)) := g.triple fun x => x.pyCollapse axis

end VecGrid
end Up4
