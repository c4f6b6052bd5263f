import Verif.Model.Session

set_option linter.unusedSectionVars false

/-!
# What a panic leaves behind

A panic reaches Python as an exception; the object lives on with whatever its fields held at that moment. The functions below give the fields of a data manager after one
of its methods has returned or panicked. The reads from the file itself are taken to succeed.
-/

namespace Up4

variable {T : Type}

/-- The fields of a buffer after `update` or `update_extra`, finished or not (src/datamanager/pdata.rs:348-596, 601-857, tdata.rs:328-588, 590-849). The size is assigned
before the reading, the range after it. If the range starts behind its end a debug build panics before any assignment; in a release build `PData` panics after the size is
assigned, `TData` runs an empty loop. If more than `BUFFERSIZE` timesteps are to be read, the panic comes after `BUFFERSIZE` of them are stored. -/
def Buf.after (p : Profile) (kind : Kind) (file : ℕ → T) (n : ℕ) (b : Buf T) (lo hi : ℕ) : Buf T :=
  let hi := if hi ≥ n then n else hi
  if lo ≤ hi then
    if hi - lo ≤ BUFFERSIZE then ⟨fun i => if i < hi - lo then file (lo + i) else b.data i, lo, hi, hi - lo⟩
    else ⟨fun i => if i < BUFFERSIZE then file (lo + i) else b.data i, b.lo, b.hi, hi - lo⟩
  else
    match p, kind with
    | .debug, _ => b
    | .release, .pdata => { b with size := (hi + usizeMod - lo) % usizeMod }
    | .release, .tdata => ⟨b.data, lo, hi, (hi + usizeMod - lo) % usizeMod⟩

namespace Dm

section get
variable (K : Type) [Field K] [LinearOrder K] [IsStrictOrderedRing K] [FloorRing K] [Arith K]

/-- The manager after `get_timestep`, returned or not (pdata.rs:906-924, tdata.rs:884-901). -/
def getAfter (p : Profile) (d : Dm T) (t : ℕ) : Dm T :=
  match usub p d.main.hi 1 with
  | .error _ => d
  | .ok last =>
    if t > last then
      match uadd p t d.main.size with
      | .error _ => d
      | .ok hi => { d with main := d.main.after p d.kind d.file d.n t hi }
    else if t < d.main.lo then
      { d with main := d.main.after p d.kind d.file d.n (chunk K t * BUFFERSIZE) ((chunk K t + 1) * BUFFERSIZE) }
    else d

end get

/-- The manager after `setup_buffer`, returned or not (pdata.rs:1082-1103, tdata.rs:1061-1082). -/
def setupAfter (p : Profile) (dflt : T) (d : Dm T) (name : ℕ) : Dm T :=
  if d.names.contains name then
    match d.extra[d.names.findIdx (· == name)]? with
    | none => d
    | some b =>
      { d with extra := d.extra.set (d.names.findIdx (· == name)) (Buf.after p d.kind d.file d.n { b with lo := 0, hi := BUFFERSIZE } 0 BUFFERSIZE) }
  else
    { d with
      extra := d.extra ++ [Buf.after p d.kind d.file d.n ⟨fun _ => dflt, 0, BUFFERSIZE, BUFFERSIZE⟩ 0 BUFFERSIZE]
      names := d.names ++ [name] }

/-- A look-ahead buffer after the first reload of `get_timestep_buffer`, finished or not (pdata.rs:1115-1121, tdata.rs:1094-1103). -/
def step1After (p : Profile) (d : Dm T) (b : Buf T) (t last : ℕ) : Buf T :=
  if t > last then
    match uadd p t (d.bufLen b) with
    | .error _ => b
    | .ok hi => b.after p d.kind d.file d.n t hi
  else if b.hi = d.n ∧ t < b.lo then b.after p d.kind d.file d.n 0 BUFFERSIZE
  else b

/-- A look-ahead buffer after the second reload of `get_timestep_buffer`, finished or not (pdata.rs:1123-1125, tdata.rs:1105-1110). -/
def step2After (p : Profile) (d : Dm T) (b : Buf T) (t : ℕ) : Buf T :=
  if t < (match d.kind with | .pdata => b.lo | .tdata => d.main.lo) then
    match uadd p t (d.bufLen b) with
    | .error _ => b
    | .ok hi => b.after p d.kind d.file d.n t hi
  else b

/-- The manager after `get_timestep_buffer`, returned or not (pdata.rs:1106-1128, tdata.rs:1085-1112): if the first reload panics the second does not happen. -/
def getBufAfter (p : Profile) (d : Dm T) (t id : ℕ) : Dm T :=
  match d.extra[id]? with
  | none => d
  | some b =>
    match usub p b.hi 1 with
    | .error _ => d
    | .ok last =>
      match d.bufStep1 p b t last with
      | .error _ => { d with extra := d.extra.set id (d.step1After p b t last) }
      | .ok b1 => { d with extra := d.extra.set id (d.step2After p b1 t) }

end Dm
end Up4
