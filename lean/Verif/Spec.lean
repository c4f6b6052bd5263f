import Verif.Model.Grid

/-!
# Specification vocabulary

Small definitions used to state the properties, independent of how the code computes.
-/

namespace Up4

variable {K : Type} [Field K] [LinearOrder K] [IsStrictOrderedRing K] [FloorRing K] [Arith K]

/-- The position is a point of the closed box: no coordinate is NaN, each lies between its limits. -/
def InBox (lim : Limits K) (pos : Pos K) : Prop :=
  ∀ a, pos a ≠ F.nan ∧ (lim a).1 ≤ pos a ∧ pos a ≤ (lim a).2

/-- Finite limits `lo a < hi a`, as a grid's limit array. -/
def finLimits (lo hi : Fin 3 → K) : Limits K := fun a => (F.fin (lo a), F.fin (hi a))

/-- A finite position. -/
def finPos (x : Fin 3 → K) : Pos K := fun a => F.fin (x a)

/-- Realistic cell counts: at least one cell and at most `2^53` (exactly representable) per axis. -/
def CellsOk (cells : CellId) : Prop := ∀ a, 1 ≤ cells a ∧ cells a ≤ 2 ^ 53

end Up4

namespace Up4
variable {K : Type} [Field K] [LinearOrder K] [IsStrictOrderedRing K] [FloorRing K] [Arith K]

/-- The cell a lookup assigns to a position, if it returns one. -/
def Geom.lookup (p : Profile) (g : Geom K) (pos : Pos K) : Option CellId :=
  match g.cellId p pos with
  | .ok r => r
  | .error _ => none

/-- The lookup of this position does not panic and returns only cells of the grid. -/
def Geom.LookupOk (p : Profile) (g : Geom K) (pos : Pos K) : Prop :=
  ∃ r, g.cellId p pos = .ok r ∧ ∀ c, r = some c → InB g.cells c

/-- A history of `add_value` calls. -/
abbrev Adds (K : Type) := List (Pos K × F K)

/-- Run a history of `add_value` calls in order. -/
def Grid.addAll (p : Profile) (g : Grid K) (l : Adds K) : Run (Grid K) :=
  l.foldlM (fun g x => g.addValue p x.1 x.2) g

/-- The values of the history whose position is looked up to cell `c`, in call order. -/
def hits (p : Profile) (g : Geom K) (l : Adds K) (c : CellId) : List (F K) :=
  (l.filter fun x => g.lookup p x.1 = some c).map (·.2)

end Up4
