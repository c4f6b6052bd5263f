import Verif.Model.Selector
import Verif.Model.Grid

set_option linter.unusedSectionVars false

/-!
# Model of the data managers (`src/datamanager/pdata.rs`, `src/datamanager/tdata.rs`)

The HDF5 file is a function from timestep indices to the timestep stored there, plus the number of timesteps;
how a timestep is put together from the file's datasets is modelled separately (`Verif/Model/Hdf5.lean`; that the two agree is
`H5.update_eq` in `Verif/Props/Hdf5.lean`).
`usize` additions are on `ℕ`: they cannot overflow for fewer than `2^63` timesteps.
The parallel vectors `extra_buffers`, `range_extra`, `buffersize_extra` are one list of records.
-/

namespace Up4

/-- `Timestep` (src/datamanager.rs:52-62). -/
structure Timestep (K : Type) where
  time : F K
  position : List (Pos K)
  velocity : List (Fin 3 → F K)
  radius : List (F K)
  particleid : List (F K)
  clouds : List (F K)
  density : List (F K)
  ptype : List (F K)

/-- Which manager: particle based or timestep based. -/
inductive Kind where
  | pdata
  | tdata
deriving DecidableEq, Repr

/-- `BUFFERSIZE` (pdata.rs:16, tdata.rs:17): the length of every buffer vector. -/
def BUFFERSIZE : ℕ := 20000

/-- A buffer: `buffer`, `range`, `buffersize` (pdata.rs:23-29, tdata.rs:23-28). -/
structure Buf (T : Type) where
  data : ℕ → T
  lo : ℕ
  hi : ℕ
  size : ℕ

/-- A data manager (pdata.rs:19-36, tdata.rs:19-35). -/
structure Dm (T : Type) where
  kind : Kind
  file : ℕ → T
  n : ℕ
  main : Buf T
  extra : List (Buf T)
  names : List ℕ

namespace Buf

/-- `update` (pdata.rs:348-596, tdata.rs:328-588) and `update_extra` (pdata.rs:601-857, tdata.rs:590-849): clamp
the end to the number of timesteps, read the range, store it from index 0, remember range and size.
If the range starts behind its end, the size subtraction overflows: a debug build panics; in a release build
`PData` then fails to allocate its arrays, while `TData` runs an empty loop and keeps the wrapped size.
Simplification: the loop writing `buffer[0..hi-lo]` is one assignment; it panics iff `hi-lo > BUFFERSIZE`. -/
def load {T : Type} (p : Profile) (kind : Kind) (file : ℕ → T) (n : ℕ) (b : Buf T) (lo hi : ℕ) : Run (Buf T) :=
  let hi := if hi ≥ n then n else hi
  if lo ≤ hi then
    if hi - lo ≤ BUFFERSIZE then
      .ok ⟨fun i => if i < hi - lo then file (lo + i) else b.data i, lo, hi, hi - lo⟩
    else .error .index
  else
    match p, kind with
    | .debug, _ => .error .overflow
    | .release, .pdata => .error .explicit
    | .release, .tdata => .ok ⟨b.data, lo, hi, (hi + usizeMod - lo) % usizeMod⟩

/-- `&buffer[i]` of a vector of length `BUFFERSIZE`. -/
def at' {T : Type} (b : Buf T) (i : ℕ) : Run T :=
  if i < BUFFERSIZE then .ok (b.data i) else .error .index

end Buf

namespace Dm
variable {T : Type}

/-- `PData::new`/`TData::new` (pdata.rs:40-76, tdata.rs:38-75): empty buffer of `BUFFERSIZE` default timesteps,
then a first `update((0, BUFFERSIZE))`. `dflt` is `Timestep::default()`. -/
def new (p : Profile) (kind : Kind) (file : ℕ → T) (n : ℕ) (dflt : T) : Run (Dm T) := do
  let b ← Buf.load p kind file n ⟨fun _ => dflt, 0, 0, BUFFERSIZE⟩ 0 BUFFERSIZE
  pure ⟨kind, file, n, b, [], []⟩

section chunk
variable (K : Type) [Field K] [LinearOrder K] [IsStrictOrderedRing K] [FloorRing K] [Arith K]

/-- `((timestep as f64) / (BUFFERSIZE as f64)).floor() as usize` (pdata.rs:918, tdata.rs:896). -/
def chunk (t : ℕ) : ℕ := (F.ofNat t / F.ofNat BUFFERSIZE : F K).floor.toUsize

/-- The reload at the head of `get_timestep` (pdata.rs:916-921, tdata.rs:894-899). -/
def refresh (p : Profile) (d : Dm T) (t last : ℕ) : Run (Buf T) :=
  if t > last then do d.main.load p d.kind d.file d.n t (← uadd p t d.main.size)
  else if t < d.main.lo then
    d.main.load p d.kind d.file d.n (chunk K t * BUFFERSIZE) ((chunk K t + 1) * BUFFERSIZE)
  else .ok d.main

/-- `get_timestep` (pdata.rs:906-924, tdata.rs:884-901). -/
def get (p : Profile) (d : Dm T) (t : ℕ) : Run (Dm T × T) := do
  let last ← usub p d.main.hi 1
  let b ← d.refresh K p t last
  let i ← usub p t b.lo
  let x ← b.at' i
  pure ({ d with main := b }, x)

end chunk

/-- `setup_buffer` (pdata.rs:1082-1103, tdata.rs:1061-1082). -/
def setup (p : Profile) (dflt : T) (d : Dm T) (name : ℕ) : Run (Dm T) :=
  if d.names.contains name then do
    let id := d.names.findIdx (· == name)
    match d.extra[id]? with
    | none => .error .index
    | some b =>
      let b' ← Buf.load p d.kind d.file d.n { b with lo := 0, hi := BUFFERSIZE } 0 BUFFERSIZE
      pure { d with extra := d.extra.set id b' }
  else do
    let b' ← Buf.load p d.kind d.file d.n ⟨fun _ => dflt, 0, BUFFERSIZE, BUFFERSIZE⟩ 0 BUFFERSIZE
    pure { d with extra := d.extra ++ [b'], names := d.names ++ [name] }

/-- Length of the range loaded by `get_timestep_buffer`: `self.buffersize` of the MAIN buffer in `PData`
(pdata.rs:1116,1124), the extra buffer's own size in `TData` (tdata.rs:1096,1107). -/
def bufLen (d : Dm T) (b : Buf T) : ℕ :=
  match d.kind with
  | .pdata => d.main.size
  | .tdata => b.size

/-- First reload of `get_timestep_buffer` (pdata.rs:1115-1121, tdata.rs:1094-1103). -/
def bufStep1 (p : Profile) (d : Dm T) (b : Buf T) (t last : ℕ) : Run (Buf T) :=
  if t > last then do b.load p d.kind d.file d.n t (← uadd p t (d.bufLen b))
  else if b.hi = d.n ∧ t < b.lo then b.load p d.kind d.file d.n 0 BUFFERSIZE
  else .ok b

/-- Second reload of `get_timestep_buffer` (pdata.rs:1123-1125, tdata.rs:1105-1110): the lower bound tested
is the extra buffer's in `PData`, the MAIN buffer's in `TData`. -/
def bufStep2 (p : Profile) (d : Dm T) (b : Buf T) (t : ℕ) : Run (Buf T) :=
  if t < (match d.kind with | .pdata => b.lo | .tdata => d.main.lo) then
    do b.load p d.kind d.file d.n t (← uadd p t (d.bufLen b))
  else .ok b

/-- The final read (pdata.rs:1127, tdata.rs:1111): `PData` reads the MAIN buffer, `TData` the extra one. -/
def bufRead (d : Dm T) (b : Buf T) (i : ℕ) : Run T :=
  match d.kind with
  | .pdata => d.main.at' i
  | .tdata => b.at' i

/-- `get_timestep_buffer` (pdata.rs:1106-1128, tdata.rs:1085-1112). -/
def getBuf (p : Profile) (d : Dm T) (t id : ℕ) : Run (Dm T × T) :=
  match d.extra[id]? with
  | none => .error .index
  | some b => do
    let last ← usub p b.hi 1
    let b1 ← d.bufStep1 p b t last
    let b2 ← d.bufStep2 p b1 t
    let i ← usub p t b2.lo
    let x ← d.bufRead b2 i
    pure ({ d with extra := d.extra.set id b2 }, x)

end Dm
end Up4
