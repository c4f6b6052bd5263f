import Verif.Model.Data

set_option linter.unusedSectionVars false

/-!
# Model of how timesteps are put together from the datasets of an HDF5 file

The HDF5 library is not modelled: a file is the collection of the datasets in it. The groups `timestep 0`, `timestep 1`, ... of a time-based
file and the groups `particle 0`, `particle 1`, ... of a particle-based file are lists; a dataset that may be absent is an `Option`. Datasets of
any number type are read as `f64`. Positions and velocities have three columns (every converter writes three).
-/

namespace Up4
open F
open Selector (at')

variable {K : Type} [Field K] [LinearOrder K] [IsStrictOrderedRing K] [FloorRing K] [Arith K]

/-- A group `timestep t` (written by src/converter.rs:625-787, read by src/datamanager/tdata.rs:334-583). -/
structure TGroup (K : Type) where
  time : Option (F K)
  position : Option (List (Pos K))
  velocity : Option (List (Fin 3 → F K))
  radius : Option (List (F K))
  density : Option (List (F K))
  ppcloud : Option (List (F K))
  ptype : Option (List (F K))
  ids : Option (List (F K))

/-- A group `particle p` (written by src/converter.rs:275-321, read by src/datamanager/pdata.rs:366-577). -/
structure PGroup (K : Type) where
  time : Option (List (F K))
  position : Option (List (Pos K))
  velocity : Option (List (Fin 3 → F K))
  radius : Option (List (F K))
  density : Option (List (F K))
  ptype : Option (List (F K))
  ids : Option (List (F K))

/-- `unwrap_or_else(|_| panic!(..))` on a dataset or group. -/
def need {α : Type} : Option α → Run α
  | some a => .ok a
  | none => .error .explicit

/-! ### Time-based files -/

/-- `read_single` (src/datamanager/tdata.rs:77-326) and the body of the loops of `update` and `update_extra` (tdata.rs:337-581, 599-842),
which are the same. -/
def tRead (groups : List (TGroup K)) (t : ℕ) : Run (Timestep K) := do
  let g ← need groups[t]?
  let position ← need g.position
  let velocity ← need g.velocity
  let radius ← need g.radius
  let density := match g.density with
    | some d => d
    | none => radius.map fun _ => (1 : F K)
  let clouds ← need g.ppcloud
  let time ← need g.time
  let ids ← need g.ids
  let ptype ← need g.ptype
  pure ⟨time, position, velocity, radius, ids, clouds, density, ptype⟩

/-- `self.buffer[i] = x` on a buffer of length `BUFFERSIZE`. -/
def bufSet {T : Type} (data : ℕ → T) (i : ℕ) (x : T) : Run (ℕ → T) :=
  if i < BUFFERSIZE then .ok (Function.update data i x) else .error .index

/-- `update`/`update_extra` of `TData` (src/datamanager/tdata.rs:328-588, 590-849) on the buffer they work on; `n` is the attribute `timesteps`.
In a release build a range that starts behind its end gives an empty loop and a wrapped size. -/
def tUpdate (p : Profile) (groups : List (TGroup K)) (n : ℕ) (b : Buf (Timestep K)) (lo hi : ℕ) : Run (Buf (Timestep K)) := do
  let hi := if hi ≥ n then n else hi
  let size ← usub p hi lo
  let data ← (List.range' lo (hi - lo)).foldlM (fun data t => do
    let x ← tRead groups t
    bufSet data (t - lo) x) b.data
  pure ⟨data, lo, hi, size⟩

/-! ### Particle-based files -/

/-- `.slice(s![lo..hi])` (or the same rows of a table): panics when the end is behind the end of the data. -/
def sliceOf {α : Type} (l : List α) (lo hi : ℕ) : Run (List α) :=
  if lo ≤ hi ∧ hi ≤ l.length then .ok ((l.drop lo).take (hi - lo)) else .error .index

/-- A dataset that is replaced by zeros when it is absent (pdata.rs:421-519). -/
def sliceOr (l : Option (List (F K))) (lo hi : ℕ) : Run (List (F K)) :=
  match l with
  | some l => sliceOf l lo hi
  | none => .ok (List.replicate (hi - lo) 0)

/-- One column of the arrays built by `update`: the data of one particle over a range of timesteps. -/
structure PColumn (K : Type) where
  time : List (F K)
  position : List (Pos K)
  velocity : List (Fin 3 → F K)
  radius : List (F K)
  ptype : List (F K)
  density : List (F K)
  ids : List (F K)

/-- The body of the loop over the particles in `update` (src/datamanager/pdata.rs:365-577; `update_extra`: 626-838): the particle's datasets, the
time of particle 0, and the number of the particle as its id. -/
def pColumn (groups : List (PGroup K)) (lo hi pid : ℕ) : Run (PColumn K) := do
  let g ← need groups[pid]?
  let position ← sliceOf (← need g.position) lo hi
  let velocity ← sliceOf (← need g.velocity) lo hi
  let radius ← sliceOr g.radius lo hi
  let ptype ← sliceOr g.ptype lo hi
  let density ← sliceOr g.density lo hi
  let g0 ← need groups[0]?
  let time ← sliceOf (← need g0.time) lo hi
  pure ⟨time, position, velocity, radius, ptype, density, List.replicate (hi - lo) (F.ofNat pid)⟩

/-- The timestep built from row `k` of the arrays (src/datamanager/pdata.rs:581-592). The arrays hold one column per particle, all filled by the
loop before; `time[[k, 0]]` panics if there is no particle. -/
def pRow (cols : List (PColumn K)) (k : ℕ) : Run (Timestep K) := do
  let c0 ← at' cols 0
  let time ← at' c0.time k
  pure ⟨time, cols.map fun c => c.position.getD k (fun _ => 0), cols.map fun c => c.velocity.getD k (fun _ => 0),
    cols.map fun c => c.radius.getD k 0, cols.map fun c => c.ids.getD k 0, cols.map fun _ => 1,
    cols.map fun c => c.density.getD k 0, cols.map fun c => c.ptype.getD k 0⟩

/-- The loop over the particles (src/datamanager/pdata.rs:365-577). -/
def pColumns (groups : List (PGroup K)) (np lo hi : ℕ) : Run (List (PColumn K)) :=
  (List.range np).foldlM (fun acc pid => do pure (acc ++ [← pColumn groups lo hi pid])) []

/-- `update`/`update_extra` of `PData` (src/datamanager/pdata.rs:348-596, 601-861) on the buffer they work on; `n` and `np` are the attributes
`timesteps` and `particle number`. A wrapped size (release build, range starting behind its end) makes the allocation of the arrays panic. -/
def pUpdate (p : Profile) (groups : List (PGroup K)) (n np : ℕ) (b : Buf (Timestep K)) (lo hi : ℕ) : Run (Buf (Timestep K)) := do
  let hi := if hi ≥ n then n else hi
  let size ← usub p hi lo
  if hi < lo then .error .explicit
  else
    let cols ← pColumns groups np lo hi
    let data ← (List.range (hi - lo)).foldlM (fun data k => do
      let x ← pRow cols k
      bufSet data k x) b.data
    pure ⟨data, lo, hi, size⟩

/-- The values read for one particle by `read_single`. -/
structure PCell (K : Type) where
  time : F K
  position : Pos K
  velocity : Fin 3 → F K
  radius : F K
  ptype : F K
  density : F K
  pid : F K

/-- The body of the loop of `read_single` (src/datamanager/pdata.rs:91-322). The row of three coordinates is reshaped to `(particles, 3)`: this fails
unless there is one particle. A missing density becomes the radius. -/
def pCell (groups : List (PGroup K)) (np t pid : ℕ) : Run (PCell K) := do
  let g ← need groups[pid]?
  let row ← at' (← need g.position) t
  if np ≠ 1 then .error .explicit
  else
    let velocity ← at' (← need g.velocity) t
    let radius ← at' (← need g.radius) t
    let ptype ← at' (← need g.ptype) t
    let pid ← at' (← need g.ids) t
    let density ← match g.density with
      | some d => at' d t
      | none => pure radius
    let g0 ← need groups[0]?
    let time ← at' (← need g0.time) t
    pure ⟨time, row, velocity, radius, ptype, density, pid⟩

/-- `get_timestep_unbuffered` of `PData` (src/datamanager/pdata.rs:79-340, 1077-1079). -/
def pReadSingle (groups : List (PGroup K)) (np t : ℕ) : Run (Timestep K) := do
  let cells ← (List.range np).foldlM (fun acc pid => do pure (acc ++ [← pCell groups np t pid])) []
  let c0 ← at' cells 0
  pure ⟨c0.time, cells.map PCell.position, cells.map PCell.velocity, cells.map PCell.radius, cells.map PCell.pid,
    cells.map fun _ => 1, cells.map PCell.density, cells.map PCell.ptype⟩

/-! ### The manager on a file -/

/-- An open HDF5 file: its kind, groups and the attributes `timesteps` and `particle number`. -/
structure H5 (K : Type) where
  kind : Kind
  tgroups : List (TGroup K)
  pgroups : List (PGroup K)
  n : ℕ
  np : ℕ

namespace H5

/-- `update` of either manager. -/
def update (p : Profile) (h : H5 K) (b : Buf (Timestep K)) (lo hi : ℕ) : Run (Buf (Timestep K)) :=
  match h.kind with
  | .tdata => tUpdate p h.tgroups h.n b lo hi
  | .pdata => pUpdate p h.pgroups h.n h.np b lo hi

/-- `PData::new`/`TData::new` (pdata.rs:40-76, tdata.rs:38-75): the main buffer after opening. -/
def openBuf (p : Profile) (h : H5 K) (dflt : Timestep K) : Run (Buf (Timestep K)) :=
  h.update p ⟨fun _ => dflt, 0, 0, BUFFERSIZE⟩ 0 BUFFERSIZE

/-- The reload at the head of `get_timestep` (pdata.rs:916-921, tdata.rs:894-899). -/
def refresh (p : Profile) (h : H5 K) (b : Buf (Timestep K)) (t last : ℕ) : Run (Buf (Timestep K)) :=
  if t > last then do h.update p b t (← uadd p t b.size)
  else if t < b.lo then h.update p b (Dm.chunk K t * BUFFERSIZE) ((Dm.chunk K t + 1) * BUFFERSIZE)
  else .ok b

/-- `get_timestep` (pdata.rs:906-924, tdata.rs:884-901) on the file itself. -/
def get (p : Profile) (h : H5 K) (b : Buf (Timestep K)) (t : ℕ) : Run (Buf (Timestep K) × Timestep K) := do
  let last ← usub p b.hi 1
  let b' ← h.refresh p b t last
  let i ← usub p t b'.lo
  let x ← b'.at' i
  pure (b', x)

/-- A sequence of calls of `get_timestep`. -/
def gets (p : Profile) (h : H5 K) : Buf (Timestep K) → List ℕ → Run (List (Timestep K))
  | _, [] => .ok []
  | b, t :: ts => do
    let r ← h.get p b t
    let l ← h.gets p r.1 ts
    pure (r.2 :: l)

/-- Open a file and request timesteps. -/
def session (p : Profile) (h : H5 K) (dflt : Timestep K) (ts : List ℕ) : Run (List (Timestep K)) := do
  let b ← h.openBuf p dflt
  h.gets p b ts

/-- `get_timestep_unbuffered` (pdata.rs:1077-1079, tdata.rs:1056-1059). -/
def unbuffered (h : H5 K) (t : ℕ) : Run (Timestep K) :=
  match h.kind with
  | .tdata => tRead h.tgroups t
  | .pdata => pReadSingle h.pgroups h.np t

end H5

end Up4
