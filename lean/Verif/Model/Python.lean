import Verif.Model.Hdf5

set_option linter.unusedSectionVars false

/-! # Model of the Python item access of a data set (`src/pylib.rs`) -/

namespace Up4
open F
open Selector (at')

variable {K : Type} [Field K] [LinearOrder K] [IsStrictOrderedRing K] [FloorRing K] [Arith K]

/-- `z as usize` for an `isize`. -/
def asUsize (z : ℤ) : ℕ := (z % (usizeMod : ℤ)).toNat

/-- src/pylib.rs:831-835, 869-873: a negative index counts from the end. -/
def pyIndex (n : ℕ) (i : ℤ) : ℤ := if i < 0 then (n : ℤ) + i else i

/-- One row of the answer: id, position, velocity (src/pylib.rs:848-856, 881-889, 913-921). -/
def pyRow (ts : Timestep K) (j : ℕ) : Run (Fin 7 → F K) := do
  let id ← at' ts.particleid j
  let x ← at' ts.position j
  let v ← at' ts.velocity j
  pure ![id, x 0, x 1, x 2, v 0, v 1, v 2]

/-- The rows of a timestep, one per position (src/pylib.rs:845-857). -/
def pyRows (ts : Timestep K) : Run (List (Fin 7 → F K)) :=
  (List.range ts.position.length).foldlM (fun acc j => do
    let row ← pyRow ts j
    pure (acc ++ [row])) []

/-- What `data[...]` returns: a matrix, or an array with one matrix per timestep (the last axis has length 7). -/
inductive PyVal (K : Type) where
  | matrix (rows : List (Fin 7 → F K))
  | cube (a : Arr 2 (Fin 7 → F K))

/-- `data[i]` with an integer (src/pylib.rs:829-860). -/
def pyInt (p : Profile) (h : H5 K) (b : Buf (Timestep K)) (i : ℤ) : Run (Buf (Timestep K) × PyVal K) := do
  let r ← h.get p b (asUsize (pyIndex h.n i))
  let rows ← pyRows r.2
  pure (r.1, .matrix rows)

/-- One pass of the loops over the requested timesteps (src/pylib.rs:874-890, 906-922): read the timestep and write its rows to matrix `k`. -/
def pyFill (p : Profile) (h : H5 K) (s : Buf (Timestep K) × Arr 2 (Fin 7 → F K)) (x : ℕ × ℕ) : Run (Buf (Timestep K) × Arr 2 (Fin 7 → F K)) := do
  let r ← h.get p s.1 x.1
  let rows ← pyRows r.2
  let a ← rows.zipIdx.foldlM (fun (a : Arr 2 (Fin 7 → F K)) y => a.write ![x.2, y.2] y.1) s.2
  pure (r.1, a)

/-- The loop over the requested timesteps, into an array of `count` matrices of zeros with one row per particle of the file
(src/pylib.rs:864-892, 902-924). -/
def pyCube (p : Profile) (h : H5 K) (b : Buf (Timestep K)) (count : ℕ) (ts : List ℕ) : Run (Buf (Timestep K) × PyVal K) := do
  let s ← ts.zipIdx.foldlM (pyFill p h) (b, Arr.const ![count, h.np] (fun _ => 0))
  pure (s.1, .cube s.2)

/-- `data[[i, j, ...]]` with a list of integers (src/pylib.rs:861-894). -/
def pyVec (p : Profile) (h : H5 K) (b : Buf (Timestep K)) (l : List ℤ) : Run (Buf (Timestep K) × PyVal K) :=
  pyCube p h b l.length (l.map fun i => asUsize (pyIndex h.n i))

/-- CPython's adjustment of one end of a slice to a sequence of `n` entries (`PySlice_AdjustIndices`), as used by `PySlice::indices`. -/
def sliceEnd (n step i : ℤ) : ℤ :=
  if i < 0 then (if i + n < 0 then (if step < 0 then -1 else 0) else i + n)
  else if i ≥ n then (if step < 0 then n - 1 else n)
  else i

/-- `slice.indices(len)` of Python (src/pylib.rs:896-901): start, stop and step; the step 0 is an error. An absent start is the first entry in the
direction of the step, an absent stop lies behind the last one. -/
def sliceIndices (n : ℕ) (start stop step : Option ℤ) : Run (ℤ × ℤ × ℤ) :=
  let step := step.getD 1
  if step = 0 then .error .unwrap
  else
    let first := match start with
      | some i => sliceEnd n step i
      | none => if step < 0 then (n : ℤ) - 1 else 0
    let last := match stop with
      | some i => sliceEnd n step i
      | none => if step < 0 then -1 else (n : ℤ)
    .ok (first, last, step)

/-- `(start..stop).step_by(step as usize)` (src/pylib.rs:905). A negative step becomes a huge one: only the first element is left. -/
def stepBy (start stop step : ℤ) : List ℤ :=
  if 0 < step then (List.range ((stop - start + step - 1) / step).toNat).map fun k : ℕ => start + step * (k : ℤ)
  else if start < stop then [start] else []

/-- `data[start:stop:step]` (src/pylib.rs:895-925). The number of matrices is the quotient rounded towards zero; a negative one is too large an
allocation as `usize`. -/
def pySlice (p : Profile) (h : H5 K) (b : Buf (Timestep K)) (start stop step : Option ℤ) : Run (Buf (Timestep K) × PyVal K) := do
  let s ← sliceIndices h.n start stop step
  let count := (s.2.1 - s.1).tdiv s.2.2
  if count < 0 then .error .explicit
  else pyCube p h b count.toNat ((stepBy s.1 s.2.1 s.2.2).map asUsize)

/-- The keys of item access. -/
inductive PyKey where
  | int (i : ℤ)
  | vec (l : List ℤ)
  | slice (start stop step : Option ℤ)

/-- `__getitem__` (src/pylib.rs:827-928). -/
def pyItem (p : Profile) (h : H5 K) (b : Buf (Timestep K)) : PyKey → Run (Buf (Timestep K) × PyVal K)
  | .int i => pyInt p h b i
  | .vec l => pyVec p h b l
  | .slice start stop step => pySlice p h b start stop step

/-- A sequence of item accesses. -/
def pyItems (p : Profile) (h : H5 K) : Buf (Timestep K) → List PyKey → Run (List (PyVal K))
  | _, [] => .ok []
  | b, k :: ks => do
    let r ← pyItem p h b k
    let l ← pyItems p h r.1 ks
    pure (r.2 :: l)

/-- Open a file and access items. -/
def pySession (p : Profile) (h : H5 K) (dflt : Timestep K) (ks : List PyKey) : Run (List (PyVal K)) := do
  let b ← h.openBuf p dflt
  pyItems p h b ks

end Up4
