import Verif.Model.VecGrid
import Verif.Model.Plot

set_option linter.unusedSectionVars false

/-!
# Grid objects seen from Python: `src/pylib/libgrid.rs`
-/

namespace Up4
open F

variable {K : Type} [Field K] [LinearOrder K] [IsStrictOrderedRing K] [FloorRing K] [Arith K]

/-- What `__str__` and `__repr__` print (src/pylib/libgrid.rs:437-467 for scalar grids, 598-634 for vector grids); the formatting of the numbers is not modelled. -/
structure Summary (K : Type) where
  /-- `Cells` -/
  cells : CellId
  /-- `xlim`, `ylim`, `zlim` -/
  limits : Limits K
  /-- `Mean` -/
  mean : F K
  /-- `Std` -/
  std : F K
  /-- `Min` -/
  min : F K
  /-- `Max` -/
  max : F K

/-- `PyGrid.__str__`, `PyGrid.__repr__` (src/pylib/libgrid.rs:437-467). -/
def Grid.summary (g : Grid K) : Summary K :=
  let l := flatten g.st.data
  ⟨g.geom.cells, g.geom.limits, nanMean l, nanStd l, minSkipNaN l, maxSkipNaN l⟩

/-- `ArrayBase::mean` of ndarray (external crate): `None` for an empty array. ndarray adds up eight interleaved partial sums; here the elements are added in
order, which differs in rounding only. -/
def ndMean (l : List (F K)) : Option (F K) := if l = [] then none else some (F.sum l / F.ofNat l.length)

/-- One element in `ArrayBase::var` of ndarray (external crate); the state is the count, the mean and the sum of squares so far. The fused multiplication and
addition is rounded twice here. -/
def ndVarStep (s : ℕ × F K × F K) (x : F K) : ℕ × F K × F K :=
  let delta := x - s.2.1
  let mean := s.2.1 + delta / F.ofNat (s.1 + 1)
  (s.1 + 1, mean, (x - mean) * delta + s.2.2)

/-- `ArrayBase::std` of ndarray (external crate) with one degree of freedom subtracted; fewer elements than that panic. -/
def ndStd (l : List (F K)) : Run (F K) :=
  if l = [] then .error .explicit
  else .ok (((l.foldl ndVarStep (0, 0, 0)).2.2 / (F.ofNat l.length - 1)).sqrt)

/-- `PyVecGrid.__str__`, `PyVecGrid.__repr__` (src/pylib/libgrid.rs:598-634); `get_cells`, `get_limits` and `get_data` of a vector grid are those of its first
component (src/grid/vector_grid.rs:215-223). -/
def VecGrid.summary (g : VecGrid K) : Run (Summary K) := do
  let l := flatten (g.comp 0).st.data
  let mean ← (match ndMean l with
    | some m => .ok m
    | none => .error .unwrap : Run (F K))
  let std ← ndStd l
  pure ⟨(g.comp 0).geom.cells, (g.comp 0).geom.limits, mean, std, minSkipNaN l, maxSkipNaN l⟩

/-- `PyGrid.is_inside` (src/pylib/libgrid.rs:229-231). -/
def Grid.pyInside (g : Grid K) (position : List (F K)) : Run Bool := do
  let x ← Selector.at' position 0
  let y ← Selector.at' position 1
  let z ← Selector.at' position 2
  pure (g.isInside ![x, y, z])

/-- `PyGrid.cell_id` (src/pylib/libgrid.rs:484-486). -/
def Grid.pyCellId (p : Profile) (g : Grid K) (x y z : F K) : Run CellId := do
  match ← g.cellId p ![x, y, z] with
  | some c => pure c
  | none => .error .unwrap

end Up4
