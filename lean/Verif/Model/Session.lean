import Verif.Model.Analysis
import Verif.Model.Python
import Verif.Model.Convert

set_option linter.unusedSectionVars false

/-!
# Model of the Python class `Data` (`src/pylib.rs`)

The methods of `PyData` that answer questions about a dataset: each passes its arguments and the object's selector to the analysis of the same name.
`global_stats()` reads the attributes of the file, which does not change: `st` and `maxTime` are constants of the object. The file is the function from
timestep numbers to stored timesteps (`Verif/Model/Data.lean`). Of the item accesses only `data[i]` with an integer is included (lists and slices repeat
it: `Verif/Model/Python.lean`). A call that panics has no result here.
-/

namespace Up4
open Selector (at')

variable {K : Type} [Field K] [LinearOrder K] [IsStrictOrderedRing K] [FloorRing K] [Arith K]

/-- `PyData` (src/pylib.rs:97-101) with the statistics of its file. -/
structure PyData (K : Type) where
  dm : Dm (Timestep K)
  st : Stats K
  maxTime : F K
  sel : Selector K

/-- What is on disk: the attribute `hdf5_up4_type`, the stored timesteps, and the global statistics. -/
structure OnDisk (K : Type) where
  ty : ℤ
  file : ℕ → Timestep K
  n : ℕ
  st : Stats K
  maxTime : F K

/-- `constructor`, `from_tdata`, `from_pdata` (src/pylib.rs:116-189): type 1 is time-based, type 2 particle-based, anything else panics. -/
def OnDisk.load (p : Profile) (f : OnDisk K) : Run (PyData K) :=
  if f.ty = 1 then do
    let d ← Dm.new p .tdata f.file f.n Timestep.default
    pure ⟨d, f.st, f.maxTime, Selector.default⟩
  else if f.ty = 2 then do
    let d ← Dm.new p .pdata f.file f.n Timestep.default
    pure ⟨d, f.st, f.maxTime, Selector.default⟩
  else .error .explicit

/-- The methods of `PyData` (src/pylib.rs:199-932). -/
inductive Call (K : Type) where
  | setTime (a b : F K)
  | dimensions
  | minPosition
  | maxPosition
  | nparticles
  | time
  | len
  | meanVelocity
  | numberfield (g : Grid K)
  | vectorfield (g : Grid K)
  | velocityfield (g : Grid K) (mode : String) (lo hi : F K)
  | occupancyfield (g : Grid K) (minV : F K)
  | homogenityIndex (g : Grid K) (minV : F K)
  | granularTemperature (g : Grid K) (mode : String)
  | histogram (g : Grid K) (property : String) (bins : ℕ) (limit : F K)
  | laceyMixingIndex (g : Grid K) (a b threshold : ℕ)
  | concentrationField (g : Grid K) (a b : ℕ)
  | dispersion (g : Grid K) (dt : F K)
  | msdField (g : Grid K) (dt : F K)
  | msd (g : Grid K) (t0 t1 : F K) (steps : ℕ)
  | circulationTime (bound : F K) (axis : Fin 3)
  | circulationTwoBoundary (lo hi : F K) (axis : Fin 3)
  | extract (i a b : ℕ)
  | item (i : ℤ)

/-- The values the methods return. -/
inductive Answer (K : Type) where
  | none
  | nat (n : ℕ)
  | num (x : F K)
  | nums (l : List (F K))
  | pairs (l : List (F K × F K))
  | two (a b : List (F K))
  | grid (g : Grid K)
  | vec (g : VecGrid K)
  | gridNum (g : Grid K) (x : F K)
  | counts (h : Arr 1 (F K)) (edges : List (F K))
  | table (l : List (List (F K)))
  | matrix (l : List (Fin 7 → F K))

namespace PyData

/-- `set_time` (src/pylib.rs:259-268): panics if the last time of the file is before the start of the window. -/
def setTime (s : PyData K) (a b : F K) : Run (PyData K) :=
  if s.maxTime < a then .error .explicit else .ok { s with sel := s.sel.setTime a b }

/-- `data[i]` (src/pylib.rs:827-928). -/
def item (p : Profile) (d : Dm (Timestep K)) (i : ℤ) : Run (Dm (Timestep K) × List (Fin 7 → F K)) := do
  let r ← d.get K p (asUsize (pyIndex d.n i))
  let rows ← pyRows r.2
  pure (r.1, rows)

/-- One method call: the object afterwards and the value returned. -/
def call (p : Profile) (s : PyData K) : Call K → Run (PyData K × Answer K)
  -- src/pylib.rs:259-268
  | .setTime a b => do
    let s ← s.setTime a b
    pure (s, .none)
  -- src/pylib.rs:207-249, 277-283, 930-932, 423-432
  | .dimensions => pure (s, .pairs [s.st.dims 0, s.st.dims 1, s.st.dims 2])
  | .minPosition => pure (s, .nums [(s.st.dims 0).1, (s.st.dims 1).1, (s.st.dims 2).1])
  | .maxPosition => pure (s, .nums [(s.st.dims 0).2, (s.st.dims 1).2, (s.st.dims 2).2])
  | .nparticles => pure (s, .nat s.st.nparticles)
  | .time => pure (s, .nums s.st.times)
  | .len => pure (s, .nat s.dm.n)
  | .meanVelocity => pure (s, .num (Up4.meanVelocity s.st))
  -- src/pylib.rs:296-421
  | .vectorfield g => do
    let r ← Up4.vectorfield p s.dm g s.sel
    pure ({ s with dm := r.1 }, .vec r.2)
  | .velocityfield g mode lo hi => do
    let r ← Up4.velocityfield p s.dm g s.sel mode lo hi
    pure ({ s with dm := r.1 }, .grid r.2)
  | .extract i a b => do
    let r ← Up4.extract p s.dm i a b
    pure ({ s with dm := r.1 }, .table r.2)
  | .numberfield g => do
    let r ← Up4.numberfield p s.dm g s.sel
    pure ({ s with dm := r.1 }, .grid r.2)
  | .occupancyfield g minV => do
    let r ← Up4.occupancyfield p s.dm g s.sel minV
    pure ({ s with dm := r.1 }, .grid r.2)
  -- src/pylib.rs:435-560
  | .dispersion g dt => do
    let r ← Up4.dispersion p s.dm s.st g s.sel dt
    pure ({ s with dm := r.1 }, .gridNum r.2.1 r.2.2)
  | .histogram g property bins limit => do
    let r ← Up4.histogram p s.dm s.st g s.sel property limit bins
    pure ({ s with dm := r.1 }, .counts r.2.1 r.2.2)
  | .granularTemperature g mode => do
    let r ← Up4.granularTemperature p s.dm g s.sel mode
    pure ({ s with dm := r.1 }, .grid r.2)
  -- src/pylib.rs:548-785
  | .laceyMixingIndex g a b threshold => do
    let r ← Up4.laceyMixing p s.dm g s.sel a b threshold
    pure ({ s with dm := r.1 }, .pairs r.2)
  | .circulationTime bound axis => do
    let r ← Up4.circulationTime p s.dm s.st s.sel axis bound
    pure ({ s with dm := r.1 }, .nums r.2)
  | .circulationTwoBoundary lo hi axis => do
    let r ← Up4.circulationTwoBoundary p s.dm s.st s.sel axis lo hi
    pure ({ s with dm := r.1 }, .pairs r.2)
  | .concentrationField g a b => do
    let r ← Up4.concentrationField p s.dm g s.sel a b
    pure ({ s with dm := r.1 }, .grid r.2)
  | .homogenityIndex g minV => do
    let r ← Up4.homogenityIndex p s.dm g s.sel minV
    pure ({ s with dm := r.1 }, .num r.2)
  | .msdField g dt => do
    let r ← Up4.msdField p s.dm s.st g s.sel dt
    pure ({ s with dm := r.1 }, .grid r.2)
  | .msd g t0 t1 steps => do
    let r ← Up4.msdCurve p s.dm s.st g s.sel t0 t1 steps
    pure ({ s with dm := r.1 }, .two r.2.1 r.2.2)
  -- src/pylib.rs:827-928
  | .item i => do
    let r ← PyData.item p s.dm i
    pure ({ s with dm := r.1 }, .matrix r.2)

/-- A sequence of calls, with all answers. -/
def calls (p : Profile) (s : PyData K) : List (Call K) → Run (PyData K × List (Answer K))
  | [] => .ok (s, [])
  | c :: cs => do
    let r ← s.call p c
    let r' ← r.1.calls p cs
    pure (r'.1, r.2 :: r'.2)

end PyData

/-- `global_stats` (src/datamanager/tdata.rs:903-1034, pdata.rs:926-1060): the attributes of the file as the analyses see them. -/
def Attrs.stats (a : Attrs K) : Stats K :=
  ⟨fun i => ((a.dims i).lo, (a.dims i).hi), a.np, a.timeArray, ![a.mag.1, a.mag.2.1, a.mag.2.2]⟩

/-- A time-based file that a converter has written. Timestep `t` is what the loop of `update` reads from the file (`tRead`; src/datamanager/tdata.rs:334-583). -/
def TOut.onDisk (o : TOut K) : OnDisk K :=
  ⟨1, fun t => (tRead o.groups t).toOption.getD Timestep.default, o.attrs.n, o.attrs.stats, o.attrs.time.2⟩

/-- A particle-based file that a converter has written. Timestep `t` is what a freshly opened manager returns for it (src/datamanager/pdata.rs:348-596). -/
def POut.onDisk (p : Profile) (o : POut K) : OnDisk K :=
  ⟨2, fun t => ((o.file.session p Timestep.default [t]).toOption.bind List.head?).getD Timestep.default, o.attrs.n, o.attrs.stats, o.attrs.time.2⟩

/-- Open a file and make a sequence of calls. -/
def OnDisk.session (p : Profile) (f : OnDisk K) (cs : List (Call K)) : Run (PyData K × List (Answer K)) := do
  let s ← f.load p
  s.calls p cs

end Up4
