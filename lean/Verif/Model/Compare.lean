import Verif.Model.Analysis
import Verif.Model.Tools
import Verif.Model.Convert

set_option linter.unusedSectionVars false

/-! # Model of `Comparer` (`src/comparison.rs`) -/

namespace Up4
open F

variable {K : Type} [Field K] [LinearOrder K] [IsStrictOrderedRing K] [FloorRing K] [Arith K]

/-- src/comparison.rs:7-13, `Comparer`: two datasets (with their statistics, read through `global_stats`, lines 48 and 55), a grid for each and the mark
`aligned`. -/
structure Comparer (K : Type) where
  data : Dm (Timestep K)
  stats : Stats K
  grid : Grid K
  data2 : Dm (Timestep K)
  stats2 : Stats K
  grid2 : Grid K
  aligned : Bool

namespace Comparer

/-- src/comparison.rs:15-28, `compare`. -/
def compare (data : Dm (Timestep K)) (stats : Stats K) (data2 : Dm (Timestep K)) (stats2 : Stats K) (grid : Grid K) : Comparer K :=
  { data := data, stats := stats, grid := grid, data2 := data2, stats2 := stats2, grid2 := grid, aligned := false }

/-- `f64::max` (standard library): a NaN is ignored (lines 74-76). -/
def fmax (a b : F K) : F K := if a.isNaN then b else if b.isNaN then a else if a < b then b else a

/-- The sizes of a recording (src/comparison.rs:50-54 and 57-61). -/
def sizeOf (s : Stats K) (a : Fin 3) : F K := (s.dims a).2 - (s.dims a).1

/-- src/comparison.rs:63-69, `set2_adjustment`. -/
def adjustment (size size2 : F K) : F K :=
  if size / size2 > F.ofNat 800 then F.ofNat 1000
  else if size2 / size > F.ofNat 800 then F.ofNat 1 / F.ofNat 1000
  else F.ofNat 1

/-- src/comparison.rs:74-76: `max_x`, `max_y`, `max_z`. -/
def common (s s2 : Stats K) (a : Fin 3) : F K := fmax (sizeOf s a) (sizeOf s2 a * adjustment (sizeOf s 0) (sizeOf s2 0))

/-- src/comparison.rs:79-90: the limits of the first grid before it is moved. -/
def limits1 (s s2 : Stats K) (a : Fin 3) : F K × F K := ((s.dims a).1, (s.dims a).1 + common s s2 a)

/-- src/comparison.rs:91-102: the limits of the second grid. -/
def limits2 (s s2 : Stats K) (a : Fin 3) : F K × F K :=
  ((s2.dims a).1, (s2.dims a).1 + common s s2 a * adjustment (sizeOf s 0) (sizeOf s2 0))

/-- src/comparison.rs:104-106: `move_x`, `move_y`, `move_z`. -/
def move (s : Stats K) (a : Fin 3) : F K := sizeOf s a / F.ofNat 2 / F.ofNat 100

/-- src/comparison.rs:109, 110, 111: `(-steps / 2..steps / 2).map(|x| x as f64 * move)`. -/
def along (s : Stats K) (a : Fin 3) : List (F K) := (List.range 100).map fun (i : ℕ) => ofInt ((i : ℤ) - 50) * move s a

/-- The offsets in the order of the three loops (src/comparison.rs:109-111). -/
def offsets (s : Stats K) : List (Fin 3 → F K) :=
  (along s 0).flatMap fun x => (along s 1).flatMap fun y => (along s 2).map fun z => ![x, y, z]

/-- src/comparison.rs:113-119: the moved limits. -/
def moved (lim : Limits K) (off : Fin 3 → F K) : Limits K := fun a => ((lim a).1 + off a, (lim a).2 + off a)

/-- src/comparison.rs:159-184, `make_grid`, with the kind of grid of lines 38-45. A `VectorGrid` (another implementation of the trait), for which line 44 panics, is not
a value of `Geom`. -/
def makeGrid (like : Geom K) (lim : Limits K) (cells : CellId) : Grid K :=
  match like with
  | .cart _ => Grid.newCart cells lim
  | .cyl _ => Grid.newCyl cells lim

/-- The variables of the loops of `align` (src/comparison.rs:107-108), the two datasets, whose buffers change with every analysis, and the lines printed so far: the best
offset and the difference of each step (138-139). -/
structure Aligning (K : Type) where
  data : Dm (Timestep K)
  data2 : Dm (Timestep K)
  old : F K
  best : Fin 3 → F K
  lines : List ((Fin 3 → F K) × F K)

/-- The body of the loops (src/comparison.rs:112-139). -/
def alignStep (p : Profile) (like : Geom K) (lim1 lim2 : Limits K) (s : Aligning K) (off : Fin 3 → F K) : Run (Aligning K) := do
  let r1 ← numberfield p s.data (makeGrid like (moved lim1 off) ![100, 100, 100]) Selector.default
  let r2 ← numberfield p s.data2 (makeGrid like lim2 ![100, 100, 100]) Selector.default
  let b1 ← binaryThreshold r1.2.st.data (F.lit (1 / 100))
  let b2 ← binaryThreshold r2.2.st.data (F.lit (1 / 100))
  let d ← Arr.zipWith (· - ·) b1 b2
  let diff := (flatten (d.map fun x => x.abs)).foldl (· + ·) 0
  let old := if diff < s.old then diff else s.old
  let best := if diff < s.old then off else s.best
  pure { data := r1.1, data2 := r2.1, old := old, best := best, lines := s.lines ++ [(best, diff)] }

/-- src/comparison.rs:33-143, `align`: the comparer afterwards and the printed lines. Nothing is stored in the comparer; only the buffers of the datasets have changed. -/
def align (p : Profile) (c : Comparer K) : Run (Comparer K × List ((Fin 3 → F K) × F K)) := do
  let s ← (offsets c.stats).foldlM (alignStep p c.grid.geom (limits1 c.stats c.stats2) (limits2 c.stats c.stats2))
    { data := c.data, data2 := c.data2, old := pinf, best := fun _ => 0, lines := [] }
  pure ({ c with data := s.data, data2 := s.data2 }, s.lines)

/-- src/comparison.rs:187-211, `velocityfield` (private): the values of both fields in row order. -/
def velocityfields (p : Profile) (c : Comparer K) (mode : String) (minV maxV : F K) : Run (Comparer K × List (F K) × List (F K)) := do
  let r1 ← velocityfield p c.data c.grid Selector.default mode minV maxV
  let r2 ← velocityfield p c.data2 c.grid2 Selector.default mode minV maxV
  pure ({ c with data := r1.1, data2 := r2.1 }, flatten r1.2.st.data, flatten r2.2.st.data)

end Comparer

end Up4
