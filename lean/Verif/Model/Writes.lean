import Verif.Model.Session

set_option linter.unusedSectionVars false

/-!
# The converters as sequences of writes

`Model/Convert.lean` gives the file a converter has written when it returns. Here the converters are modelled with every write to the HDF5 file in program order and
every panic at its place between them, so that the file can be looked at after any number of writes. The first write is `File::create`, which truncates a file
that was there before. That the writes reach the disk in program order, and that a stopped process leaves exactly those it has made, is assumed
(the HDF5 library's cache is not modelled); after a panic the library closes the file, which flushes it.
-/

namespace Up4
open F

variable {K : Type} [Field K] [LinearOrder K] [IsStrictOrderedRing K] [FloorRing K] [Arith K]

/-- A dataset of a group `timestep t` (src/converter.rs:648-787). -/
inductive TField (K : Type) where
  | time (x : F K)
  | ids (x : List (F K))
  | radius (x : List (F K))
  | ppcloud (x : List (F K))
  | ptype (x : List (F K))
  | velocity (x : List (Fin 3 → F K))
  | position (x : List (Pos K))

/-- A dataset of a group `particle p` (src/converter.rs:281-321); `unread` is one that is never read: `ppcloud`, and `particleid` of csv_multi_chain.rs:312. -/
inductive PField (K : Type) where
  | time (x : List (F K))
  | ids (x : List (F K))
  | radius (x : List (F K))
  | unread
  | ptype (x : List (F K))
  | velocity (x : List (Fin 3 → F K))
  | position (x : List (Pos K))

/-- One call that changes the HDF5 file. -/
inductive Wr (K : Type) where
  | create
  | kind (t : ℤ)
  | newT
  | newP
  | putT (f : TField K)
  | putP (f : PField K)
  | dims (x : Fin 3 → MinMax K)
  | np (x : ℕ)
  | n (x : ℕ)
  | sampleRate (x : ℕ)
  | time (x : F K × F K)
  | vel (x : Fin 3 → F K × F K × F K)
  | mag (x : F K × F K × F K)
  | timeArray (x : List (F K))

/-- An HDF5 file while it is written: groups in order, every attribute present or not. -/
structure Part (K : Type) where
  kind : Option ℤ
  tgroups : List (TGroup K)
  pgroups : List (PGroup K)
  dims : Option (Fin 3 → MinMax K)
  np : Option ℕ
  n : Option ℕ
  sampleRate : Option ℕ
  time : Option (F K × F K)
  vel : Option (Fin 3 → F K × F K × F K)
  mag : Option (F K × F K × F K)
  timeArray : Option (List (F K))

/-- An empty file. -/
def Part.empty : Part K := ⟨none, [], [], none, none, none, none, none, none, none, none⟩

/-- A dataset of a timestep. -/
def TField.put : TField K → TGroup K → TGroup K
  | .time x, g => { g with time := some x }
  | .ids x, g => { g with ids := some x }
  | .radius x, g => { g with radius := some x }
  | .ppcloud x, g => { g with ppcloud := some x }
  | .ptype x, g => { g with ptype := some x }
  | .velocity x, g => { g with velocity := some x }
  | .position x, g => { g with position := some x }

/-- A dataset of a particle. -/
def PField.put : PField K → PGroup K → PGroup K
  | .time x, g => { g with time := some x }
  | .ids x, g => { g with ids := some x }
  | .radius x, g => { g with radius := some x }
  | .unread, g => g
  | .ptype x, g => { g with ptype := some x }
  | .velocity x, g => { g with velocity := some x }
  | .position x, g => { g with position := some x }

/-- Change the last element. -/
def onLast {α : Type} (f : α → α) : List α → List α
  | [] => []
  | [a] => [f a]
  | a :: b :: l => a :: onLast f (b :: l)

/-- The effect of a write. Datasets are put into the group created last: every loop writes into the group it has just created. -/
def Wr.apply : Wr K → Option (Part K) → Option (Part K)
  | .create, _ => some Part.empty
  | _, none => none
  | .kind t, some d => some { d with kind := some t }
  | .newT, some d => some { d with tgroups := d.tgroups ++ [⟨none, none, none, none, none, none, none, none⟩] }
  | .newP, some d => some { d with pgroups := d.pgroups ++ [⟨none, none, none, none, none, none, none⟩] }
  | .putT f, some d => some { d with tgroups := onLast f.put d.tgroups }
  | .putP f, some d => some { d with pgroups := onLast f.put d.pgroups }
  | .dims x, some d => some { d with dims := some x }
  | .np x, some d => some { d with np := some x }
  | .n x, some d => some { d with n := some x }
  | .sampleRate x, some d => some { d with sampleRate := some x }
  | .time x, some d => some { d with time := some x }
  | .vel x, some d => some { d with vel := some x }
  | .mag x, some d => some { d with mag := some x }
  | .timeArray x, some d => some { d with timeArray := some x }

/-- The file under the output name after some writes; `none`: there is no file. -/
def replay (old : Option (Part K)) (w : List (Wr K)) : Option (Part K) := w.foldl (fun d x => x.apply d) old

/-- The attributes `global_stats` reads (src/datamanager/tdata.rs:903-1040, src/datamanager/pdata.rs:925-1062): each of them must be there. -/
def Part.attrs (d : Part K) : Run (Attrs K) := do
  let dims ← need d.dims
  let np ← need d.np
  let n ← need d.n
  let time ← need d.time
  let rate ← need d.sampleRate
  let vel ← need d.vel
  let mag ← need d.mag
  let ta ← need d.timeArray
  pure ⟨dims, np, n, rate, time, vel, mag, ta⟩

/-- `Data(filename)` (src/pylib.rs:116-189): open, read the type, read the attributes (`TData::new`, `PData::new`), fill the buffer. -/
def loadPart (p : Profile) (f : Option (Part K)) : Run (PyData K) := do
  let d ← need f
  let ty ← need d.kind
  if ty = 1 then do
    let a ← d.attrs
    let _ ← (TOut.file ⟨d.tgroups, a⟩).openBuf p Timestep.default
    (TOut.onDisk ⟨d.tgroups, a⟩).load p
  else if ty = 2 then do
    let a ← d.attrs
    let _ ← (POut.file ⟨d.pgroups, a⟩).openBuf p Timestep.default
    ((POut.onDisk p) ⟨d.pgroups, a⟩).load p
  else .error .explicit

/-! ### Programs that write -/

/-- The writes made so far, and a result or a panic. -/
structure Log (K α : Type) where
  writes : List (Wr K)
  res : Run α

namespace Log

/-- No write. -/
def ret {α : Type} (a : α) : Log K α := ⟨[], .ok a⟩

/-- One program after the other: nothing is written after a panic. -/
def andThen {α β : Type} (m : Log K α) (f : α → Log K β) : Log K β :=
  match m.res with
  | .ok a => ⟨m.writes ++ (f a).writes, (f a).res⟩
  | .error e => ⟨m.writes, .error e⟩

instance : Monad (Log K) where
  pure := ret
  bind := andThen

/-- One write. -/
def emit (w : Wr K) : Log K Unit := ⟨[w], .ok ()⟩
/-- A computation without writes. -/
def lift {α : Type} (r : Run α) : Log K α := ⟨[], r⟩
/-- A loop. -/
def loop {α σ : Type} (f : σ → α → Log K σ) : σ → List α → Log K σ
  | s, [] => ret s
  | s, a :: l => andThen (f s a) fun s => loop f s l

end Log
open Log

/-- The end of every converter (src/converter.rs:334-377, 810-853, csv_multi_chain.rs:348-390, csv_multi_idline.rs:320-362, csv_multi_file_time_step.rs:221-263). -/
def attrsLog (a : Attrs K) : Log K Unit := do
  emit (.dims a.dims)
  emit (.np a.np)
  emit (.n a.n)
  emit (.sampleRate a.sampleRate)
  emit (.time a.time)
  emit (.vel a.vel)
  emit (.mag a.mag)
  emit (.timeArray a.timeArray)

/-- The beginning of every converter (src/converter.rs:55-62, 597-604, csv_multi_chain.rs:33-40, csv_multi_idline.rs:38-45, csv_multi_file_time_step.rs:40-47). -/
def startLog (t : ℤ) : Log K Unit := do
  emit .create
  emit (.kind t)

/-- The body of the loop over VTK files with its writes (src/converter.rs:625-795); compare `vtkStep`. -/
def vtkStepLog (o : VtkOpts) (dt : F K) (s : VtkState K) (x : VtkFile K × ℕ) : Log K (VtkState K) := do
  emit .newT
  let f := x.1
  let time := ofInt f.step * dt
  let time0 := if x.2 = 0 then time else s.time0
  if time < s.time1 then lift (.error .explicit)
  else do
    emit (.putT (.time time))
    if o.hasId = false then lift (.error .explicit)
    else do
      let idx := makeSortlist f.ids
      let ids ← lift (sortByArray f.ids idx)
      if ids = [] then lift (.error .unwrap)
      else do
        emit (.putT (.ids (ids.map F.ofNat)))
        let radius ← lift (vtkRadius o f idx)
        emit (.putT (.radius radius))
        emit (.putT (.ppcloud (radius.map fun _ => F.ofNat 1)))
        let types ← lift (vtkTypes o f idx radius.length)
        emit (.putT (.ptype (types.map F.ofNat)))
        if o.hasVel = false then lift (.error .explicit)
        else do
          let v ← lift (sortByArray f.velocity idx)
          let vel ← lift (shape3 v)
          emit (.putT (.velocity vel))
          let q ← lift (sortByArray f.points idx)
          let pos ← lift (shape3 q)
          emit (.putT (.position pos))
          let top := f.ids.foldl max 0
          pure ⟨s.groups ++ [⟨some time, some pos, some vel, some radius, none, some (radius.map fun _ => F.ofNat 1), some (types.map F.ofNat),
              some (ids.map F.ofNat)⟩], pos.foldl seePos s.dims, if top > s.np then top else s.np, time0, time, s.timeArray ++ [time],
            time - s.oldTime, time, vel.foldl VelStats.see s.vel, s.count + f.ids.length⟩

/-- `write_hdf5_from_files` (src/converter.rs:585-856, 1012-1281); compare `vtkConvert`. -/
def vtkLog (o : VtkOpts) (dt : F K) (files : List (VtkFile K)) : Log K Unit :=
  if files = [] then lift (.error .explicit)
  else do
    startLog 1
    let s ← loop (vtkStepLog o dt) VtkState.init files.zipIdx
    attrsLog ⟨s.dims, s.np, files.length, s.sampleRate.toUsize, (s.time0, s.time1), fun i => s.vel.attr s.count i, s.vel.magAttr s.count, s.timeArray⟩

/-- The datasets of one particle (src/converter.rs:281-321, csv_multi_chain.rs:290-331, csv_multi_idline.rs:262-303); compare `csvGroup`. -/
def csvGroupLog (rows : List (Row7 K)) (len : ℕ) (radius : F K) (ptype : Option (F K)) (pid : F K) : Log K Unit := do
  emit (.putP (.time (rows.map Row7.t)))
  emit (.putP (.ids (List.replicate len pid)))
  emit (.putP (.radius (List.replicate len radius)))
  emit (.putP .unread)
  emit (.putP ((ptype.map fun y => PField.ptype (List.replicate len y)).getD .unread))
  emit (.putP (.velocity (rows.map Row7.v)))
  emit (.putP (.position (rows.map Row7.p)))

/-- `csv_converter` (src/converter.rs:38-381); compare `csvConvert`. -/
def csvLog (lib : FitLib K) (o : CsvOpts K) (raw : List (List (F K))) : Log K Unit := do
  startLog 2
  let rows ← lift (pickColumns o.cols raw)
  let rows ← lift (csvSort rows)
  let rows ← lift (csvTable lib o rows)
  emit .newP
  let s ← lift (csvLines [] CsvStats.init rows)
  csvGroupLog s.out rows.length o.radius (some 1) 1
  attrsLog (csvAttrs s.stats s.out.length (s.out.map Row7.t))

/-- One particle (csv_multi_chain.rs:177-335, csv_multi_idline.rs:149-306); compare `multiStep`. -/
def multiStepLog (radius : F K) (ptype : Option (F K)) (pid : ℕ → F K) (s : MultiState K) (x : List (Row7 K) × ℕ) : Log K (MultiState K) := do
  emit .newP
  let r ← lift (csvLines [zeroRow] s.stats x.1)
  csvGroupLog r.out x.1.length radius ptype (pid x.2)
  pure ⟨s.groups ++ [csvGroup r.out x.1.length radius ptype (pid x.2)], if x.1.length > s.steps then x.1.length else s.steps, r.stats, r.out.map Row7.t⟩

/-- csv_multi_chain.rs:153-390, csv_multi_idline.rs:125-362; compare `multiWrite`. -/
def multiLog (radius : F K) (ptype : Option (F K)) (pid : ℕ → F K) (tables : List (List (Row7 K))) : Log K Unit := do
  let s ← loop (multiStepLog radius ptype pid) ⟨[], 0, CsvStats.init, List.replicate 100 0⟩ tables.zipIdx
  attrsLog (csvAttrs s.stats s.steps s.times)

/-- `csv_multi_chain` (csv_multi_chain.rs:20-391); compare `chainConvert`. -/
def chainLog (lib : FitLib K) (o : CsvOpts K) (raw : List (List (F K))) : Log K Unit := do
  startLog 2
  let rows ← lift (pickColumns o.cols raw)
  let tables ← lift (chainTables lib o rows)
  multiLog o.radius none (fun _ => 1) tables

/-- `csv_multi_idline` (csv_multi_idline.rs:21-363); compare `idConvert`. -/
def idLog (lib : FitLib K) (o : CsvOpts K) (raw : List (List (F K))) : Log K Unit :=
  if ¬ (o.cols.length = 5 ∨ o.cols.length = 8) then lift (.error .explicit)
  else do
    startLog 2
    let rows ← lift (raw.foldlM (fun acc r => do pure (acc ++ [← pickIdRow o.cols r])) [])
    let t ← lift (sortById rows)
    let tables ← lift (t.1.foldlM (fun acc l => do pure (acc ++ [← idTable lib o t.2.1 t.2.2 l])) [])
    multiLog o.radius (some 0) (fun i => F.ofNat i) tables

/-- The body of the loop over the files (csv_multi_file_time_step.rs:72-207); compare `fileStep`. -/
def fileStepLog (cols : List ℕ) (times : List (F K)) (s : VtkState K) (x : List (List (F K)) × ℕ) : Log K (VtkState K) := do
  emit .newT
  let time ← lift (Selector.at' times x.2)
  emit (.putT (.time time))
  let rows ← lift (x.1.foldlM (fun acc r => do pure (acc ++ [← pickStepRow cols r])) [])
  let zeros := rows.map fun _ => (0 : F K)
  let pos := rows.map fun r => r.row.p
  let vel := rows.map fun r => r.row.v
  emit (.putT (.ids (rows.map Row8.id)))
  emit (.putT (.radius zeros))
  emit (.putT (.ppcloud zeros))
  emit (.putT (.ptype zeros))
  emit (.putT (.velocity vel))
  emit (.putT (.position pos))
  pure ⟨s.groups ++ [⟨some time, some pos, some vel, some zeros, none, some zeros, some zeros, some (rows.map Row8.id)⟩],
    pos.foldl seePos s.dims, rows.length, s.time0, if time > s.time1 then time else s.time1, s.timeArray ++ [time], time - s.oldTime, time,
    vel.foldl VelStats.see s.vel, s.count + rows.length⟩

/-- `csv_multi_file_time_step` (csv_multi_file_time_step.rs:20-264); compare `fileConvert`. -/
def fileLog (cols : List ℕ) (times : List (F K)) (files : List (List (List (F K)))) : Log K Unit :=
  if ¬ (cols.length = 4 ∨ cols.length = 7) then lift (.error .explicit)
  else do
    startLog 1
    let s ← loop (fileStepLog cols times) VtkState.init files.zipIdx
    attrsLog ⟨s.dims, s.np, files.length, s.sampleRate.toUsize, (s.time0, s.time1), fun i => s.vel.attr s.count i, s.vel.magAttr s.count, s.timeArray⟩

end Up4
