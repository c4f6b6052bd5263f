import Verif.Model.Data
import Verif.Model.VecGrid

set_option linter.unusedSectionVars false

/-!
# Model of the analysis functions

`src/functions.rs` (trait `Granular`), `src/functions/mixing.rs` (`Mixing`), `src/functions/conditional.rs`
(`Conditional`), `src/functions/extractions.rs` (`Extraction`), and `GlobalStats::timestep_at_seconds_closest`
(`src/datamanager.rs`).

Debug prints, warnings, signal checks and progress bars are not modelled (they do not touch the results).
`ndarray`'s `.sum()` is modelled as a left fold; the crate sums contiguous arrays in a different order, which
matters under rounding only.
-/

namespace Up4

variable {K : Type} [Field K] [LinearOrder K] [IsStrictOrderedRing K] [FloorRing K] [Arith K]

/-- `Timestep::default()` (derived, src/datamanager.rs:52): time 0 and empty arrays. -/
def Timestep.default : Timestep K := ⟨0, [], [], [], [], [], [], []⟩

/-- The fields of `GlobalStats` the analyses use (src/datamanager.rs:64-77). `dims a` is
`(dimensions[[0,a]], dimensions[[1,a]])`; `speed` is `velocity_mag` (min, mean, max). -/
structure Stats (K : Type) where
  dims : Fin 3 → F K × F K
  nparticles : ℕ
  times : List (F K)
  speed : Fin 3 → F K

open Selector (at')

/-! ## Loops -/

/-- `selector.is_valid(rad_array[i], clouds[i], density[i], particle_ids[i] as usize)`
(src/functions.rs:56-61 and the same lines in every analysis). -/
def Timestep.selected (sel : Selector K) (ts : Timestep K) (i : ℕ) : Run Bool := do
  let r ← at' ts.radius i
  let c ← at' ts.clouds i
  let d ← at' ts.density i
  let id ← at' ts.particleid i
  sel.isValid r c d id.toUsize

/-- `for particle in 0..particles { if !selector.is_valid(…) { continue; } body }`
(e.g. src/functions.rs:55-83); `particles` is the number of positions. -/
def forParticles {σ : Type} (sel : Selector K) (ts : Timestep K) (body : σ → ℕ → Run σ) (s : σ) : Run σ :=
  (List.range ts.position.length).foldlM (fun s i => do
    let b ← ts.selected sel i
    if b then body s i else pure s) s

/-- The body of the time loop: skip the timestep if it is outside the selector's window
(e.g. src/functions.rs:36-40), otherwise loop over the particles. -/
def sampleStep {σ : Type} (sel : Selector K) (body : σ → Timestep K → ℕ → Run σ) (s : σ) (ts : Timestep K) : Run σ :=
  if sel.timestepValid ts.time then forParticles sel ts (fun s i => body s ts i) s else pure s

/-- `for timestep in … { let timestep_data = self.get_timestep(timestep); … }`. -/
def Dm.forSteps {σ : Type} (p : Profile) (l : List ℕ) (body : σ → ℕ → Timestep K → Run σ) (d : Dm (Timestep K)) (s : σ) :
    Run (Dm (Timestep K) × σ) :=
  l.foldlM (fun (ds : Dm (Timestep K) × σ) t => do
    let r ← ds.1.get K p t
    let s ← body ds.2 t r.2
    pure (r.1, s)) (d, s)

/-- The indices of `0..=timesteps - 1`. -/
def Dm.allSteps (p : Profile) (d : Dm (Timestep K)) : Run (List ℕ) := do
  let last ← usub p d.n 1
  pure (List.range (last + 1))

/-- The indices of `0..timesteps - k`. -/
def Dm.stepsBut (p : Profile) (d : Dm (Timestep K)) (k : ℕ) : Run (List ℕ) := do
  let m ← usub p d.n k
  pure (List.range m)

/-- `position[0].is_nan() || position[1].is_nan() || position[2].is_nan()`. -/
def posNaN (pos : Pos K) : Bool := (pos 0).isNaN || (pos 1).isNaN || (pos 2).isNaN

/-! ## Fields (src/functions.rs) -/

/-- Particle body of `numberfield` (src/functions.rs:267-297). -/
def numberBody (p : Profile) (grid : Grid K) (g : Grid K) (ts : Timestep K) (i : ℕ) : Run (Grid K) := do
  let pos ← at' ts.position i
  if grid.isInside pos then g.addValue p pos 1 else pure g

/-- `numberfield` (src/functions.rs:234-302). -/
def numberfield (p : Profile) (d : Dm (Timestep K)) (grid : Grid K) (sel : Selector K) :
    Run (Dm (Timestep K) × Grid K) := do
  let l ← d.allSteps p
  d.forSteps p l (fun g _ ts => sampleStep sel (numberBody p grid) g ts) grid.newZeros

/-- The velocity functions selected by `mode` (src/functions.rs:101-154); an unknown mode panics. -/
def velMode (mode : String) : Run ((Fin 3 → F K) → F K) :=
  if mode = "absolute" then .ok fun v => (F.sq (v 0) + F.sq (v 1) + F.sq (v 2)).sqrt
  else if mode = "x" ∨ mode = "r" then .ok fun v => v 0
  else if mode = "y" ∨ mode = "theta" then .ok fun v => v 1
  else if mode = "xy" then .ok fun v => (F.sq (v 0) + F.sq (v 1)).sqrt
  else if mode = "xz" then .ok fun v => (F.sq (v 0) + F.sq (v 2)).sqrt
  else if mode = "yz" then .ok fun v => (F.sq (v 1) + F.sq (v 2)).sqrt
  else if mode = "z" then .ok fun v => v 2
  else .error .explicit

/-- Particle body of `velocityfield` (src/functions.rs:181-226). -/
def velocityBody (p : Profile) (grid : Grid K) (vcal : (Fin 3 → F K) → F K) (minV maxV : F K)
    (g : Grid K) (ts : Timestep K) (i : ℕ) : Run (Grid K) := do
  let pos ← at' ts.position i
  if posNaN pos then pure g
  else do
    let vel ← at' ts.velocity i
    if (vcal vel).isNaN then pure g
    else if grid.isInside pos = false then pure g
    else if vcal vel < minV ∨ vcal vel > maxV then pure g
    else g.addValue p pos (vcal vel)

/-- `velocityfield` (src/functions.rs:90-232). -/
def velocityfield (p : Profile) (d : Dm (Timestep K)) (grid : Grid K) (sel : Selector K) (mode : String)
    (minV maxV : F K) : Run (Dm (Timestep K) × Grid K) := do
  let vcal ← velMode mode
  let l ← d.allSteps p
  let r ← d.forSteps p l (fun g _ ts => sampleStep sel (velocityBody p grid vcal minV maxV) g ts) grid.newZeros
  let g ← r.2.divideByWeight
  pure (r.1, g)

/-- Particle body of `vectorfield` (src/functions.rs:55-83): the three components are added one after the other. -/
def vectorBody (p : Profile) (g : VecGrid K) (ts : Timestep K) (i : ℕ) : Run (VecGrid K) := do
  let pos ← at' ts.position i
  if posNaN pos then pure g
  else do
    let vel ← at' ts.velocity i
    if g.isInside pos then do
      let v := g.velocityCalculation pos vel
      let a ← (g.comp 0).addValue p pos (v 0)
      let b ← (g.comp 1).addValue p pos (v 1)
      let c ← (g.comp 2).addValue p pos (v 2)
      pure { g with comp := ![a, b, c] }
    else pure g

/-- `vectorfield` (src/functions.rs:25-88). -/
def vectorfield (p : Profile) (d : Dm (Timestep K)) (grid : Grid K) (sel : Selector K) :
    Run (Dm (Timestep K) × VecGrid K) := do
  let l ← d.allSteps p
  let r ← d.forSteps p l (fun g _ ts => sampleStep sel (vectorBody p) g ts) (VecGrid.new grid)
  let g ← r.2.divideByWeight
  pure (r.1, g)

/-- Particle body of `occupancyfield` (src/functions.rs:344-392); the state is the grid and `complete_time`. -/
def occupancyBody (p : Profile) (grid : Grid K) (minV : F K) (next : Timestep K) (s : Grid K × F K) (ts : Timestep K)
    (i : ℕ) : Run (Grid K × F K) := do
  let pos ← at' ts.position i
  if grid.isInside pos = false then pure s
  else do
    let vel ← at' ts.velocity i
    if (0 + vel 0 * vel 0 + vel 1 * vel 1 + vel 2 * vel 2).sqrt < minV then pure s
    else if next.time - ts.time < 0 then pure s
    else if next.position.length ≤ i then pure s
    else do
      let npos ← at' next.position i
      let g ← s.1.addTrajectoryValue p pos npos (next.time - ts.time)
      pure (g, s.2 + (next.time - ts.time))

/-- The time loop of `occupancyfield` (src/functions.rs:317-395): read the timestep, then its successor through
look-ahead buffer 0, then check the window. -/
def occupancyLoop (p : Profile) (sel : Selector K) (grid : Grid K) (minV : F K) (l : List ℕ) (d : Dm (Timestep K))
    (s : Grid K × F K) : Run (Dm (Timestep K) × (Grid K × F K)) :=
  l.foldlM (fun (ds : Dm (Timestep K) × (Grid K × F K)) t => do
    let r ← ds.1.get K p t
    let r' ← r.1.getBuf p (t + 1) 0
    let s ← sampleStep sel (occupancyBody p grid minV r'.2) ds.2 r.2
    pure (r'.1, s)) (d, s)

/-- `occupancyfield` (src/functions.rs:305-398). -/
def occupancyfield (p : Profile) (d : Dm (Timestep K)) (grid : Grid K) (sel : Selector K) (minV : F K) :
    Run (Dm (Timestep K) × Grid K) := do
  let d ← d.setup p Timestep.default 0
  let l ← d.stepsBut p 3
  let r ← occupancyLoop p sel grid minV l d (grid.newZeros, 0)
  pure (r.1, r.2.1.divideByScalar r.2.2)

/-- One timestep of `mean_velocity_showcase` (src/functions.rs:414-431); the state is sum and count. It uses the selector's
time window only. -/
def meanVelStep (sel : Selector K) (s : F K × F K) (ts : Timestep K) : F K × F K :=
  if sel.timestepValid ts.time then
    ts.velocity.foldl (fun s v =>
      let m := (v 0 * v 0 + v 1 * v 1 + v 2 * v 2).sqrt
      if m.isNaN then s else (s.1 + m, s.2 + 1)) s
  else s

/-- `mean_velocity_showcase` (src/functions.rs:408-435). -/
def meanVelocityShowcase (p : Profile) (d : Dm (Timestep K)) (sel : Selector K) : Run (Dm (Timestep K) × F K) := do
  let l ← d.allSteps p
  let r ← d.forSteps p l (fun s _ ts => .ok (meanVelStep sel s ts)) (0, 0)
  pure (r.1, r.2.1 / r.2.2)

/-- `mean_velocity` (src/functions.rs:611-614): the stored statistic. -/
def meanVelocity (st : Stats K) : F K := st.speed 1

/-- `a[c] += v`. -/
def Arr.addAt {n : ℕ} (a : Arr n (F K)) (c : Fin n → ℕ) (v : F K) : Run (Arr n (F K)) := do
  let x ← a.read c
  a.write c (x + v)

/-- The seven accumulation arrays of `dispersion` and `granular_temperature_field`
(src/functions.rs:467-473, 764-770): sums of squares, sums, counts. -/
structure Sums (K : Type) where
  sq : Fin 3 → Arr 3 (F K)
  sum : Fin 3 → Arr 3 (F K)
  cnt : Arr 3 (F K)

namespace Sums

/-- All seven start as a copy of the grid's data (src/functions.rs:467-473, 764-770). -/
def init (g : Grid K) : Sums K := ⟨fun _ => g.st.data, fun _ => g.st.data, g.st.data⟩

/-- The seven `+=` (src/functions.rs:549-555, 828-834). -/
def add (s : Sums K) (c : CellId) (v : Fin 3 → F K) : Run (Sums K) := do
  let q0 ← (s.sq 0).addAt c (v 0 * v 0)
  let q1 ← (s.sq 1).addAt c (v 1 * v 1)
  let q2 ← (s.sq 2).addAt c (v 2 * v 2)
  let s0 ← (s.sum 0).addAt c (v 0)
  let s1 ← (s.sum 1).addAt c (v 1)
  let s2 ← (s.sum 2).addAt c (v 2)
  let n ← s.cnt.addAt c 1
  pure ⟨![q0, q1, q2], ![s0, s1, s2], n⟩

end Sums

/-! ### `GlobalStats::timestep_at_seconds_closest` (src/datamanager.rs:80-106) -/

/-- The `while` loop (src/datamanager.rs:94-104). `low`, `high` as in the code; `mid` is the value of the variable
before the iteration, returned when the loop ends.
When `high = mid - 1` underflows (`mid = 0`) a debug build panics; a release build continues with `high = 2^64-1`,
and its next probe, at an index of at least `2^63-1`, is out of bounds: an index panic. -/
def searchLoop (p : Profile) (times : List (F K)) (x : F K) (low high mid : ℕ) : Run (Option ℕ) :=
  if _h : low ≤ high then
    match times[(low + high) / 2]? with
    | none => .error .index
    | some t =>
      if (t - x).abs < F.lit (1 / 100) then .ok (some ((low + high) / 2))
      else if t < x then searchLoop p times x ((low + high) / 2 + 1) high ((low + high) / 2)
      else if _h0 : (low + high) / 2 = 0 then
        match p with
        | .debug => .error .overflow
        | .release => .error .index
      else searchLoop p times x low ((low + high) / 2 - 1) ((low + high) / 2)
  else .ok (some mid)
termination_by high + 1 - low
decreasing_by all_goals omega

/-- `timestep_at_seconds_closest` (src/datamanager.rs:80-106); `none` is `Err`. -/
def closest (p : Profile) (times : List (F K)) (x : F K) : Run (Option ℕ) := do
  let high ← usub p times.length 1
  let th ← at' times high
  if th < x then pure none
  else do
    let tl ← at' times 0
    if tl > x then pure none
    else searchLoop p times x 0 high ((0 + high) / 2)

/-! ### Dispersion -/

/-- Particle body of `dispersion` (src/functions.rs:522-556). -/
def dispersionBody (p : Profile) (grid : Grid K) (future : Timestep K) (s : Sums K) (ts : Timestep K) (i : ℕ) :
    Run (Sums K) := do
  let pos ← at' ts.position i
  if grid.isInside pos then do
    match ← grid.cellId p pos with
    | none => pure s
    | some c => do
      let f ← at' future.position i
      s.add c f
  else pure s

/-- The time loop shared by `dispersion` (src/functions.rs:478-560) and `msd_field`
(src/functions/mixing.rs:215-277): window check, search for the later timestep (an `Err` skips), look-ahead read, particles. -/
def futureLoop {σ : Type} (p : Profile) (st : Stats K) (sel : Selector K) (dt : F K)
    (body : Timestep K → σ → Timestep K → ℕ → Run σ) (l : List ℕ) (d : Dm (Timestep K)) (s : σ) :
    Run (Dm (Timestep K) × σ) :=
  l.foldlM (fun (ds : Dm (Timestep K) × σ) t => do
    let r ← ds.1.get K p t
    if sel.timestepValid r.2.time then do
      match ← closest p st.times (r.2.time + dt) with
      | none => pure (r.1, ds.2)
      | some t' => do
        let r' ← r.1.getBuf p t' 0
        let s ← forParticles sel r.2 (fun s i => body r'.2 s r.2 i) ds.2
        pure (r'.1, s)
    else pure (r.1, ds.2)) (d, s)

/-- The value of one cell with `n > 1` visits (src/functions.rs:569-578). -/
def dispersionCell (n : F K) (sq sum : Fin 3 → F K) : F K :=
  let part (a : Fin 3) := sq a / n - sum a * sum a / n / n
  (part 0 + part 1 + part 2) * n / (n - 1)

/-- The loop over the cells (src/functions.rs:562-584). -/
def dispersionCells (s : Sums K) (g : Grid K) : Run (Grid K) :=
  (indices 3 g.geom.cells).foldlM (fun g c => do
    let n ← s.cnt.read c
    if n > 1 then do
      let q0 ← (s.sq 0).read c
      let q1 ← (s.sq 1).read c
      let q2 ← (s.sq 2).read c
      let s0 ← (s.sum 0).read c
      let s1 ← (s.sum 1).read c
      let s2 ← (s.sum 2).read c
      g.addToCell c (dispersionCell n ![q0, q1, q2] ![s0, s1, s2])
    else pure g) g

/-- All entries of an array in iteration order. -/
def Arr.toList {n : ℕ} {α : Type} (a : Arr n α) : List α := (indices n a.shape).map a.get

/-- `dispersion` (src/functions.rs:456-590): the grid and the weighted mean. -/
def dispersion (p : Profile) (d : Dm (Timestep K)) (st : Stats K) (grid : Grid K) (sel : Selector K) (dt : F K) :
    Run (Dm (Timestep K) × Grid K × F K) := do
  let d ← d.setup p Timestep.default 0
  let l ← d.allSteps p
  let r ← futureLoop p st sel dt (dispersionBody p grid) l d (Sums.init grid)
  let g ← dispersionCells r.2 grid.newZeros
  let wd ← Arr.zipWith (· * ·) g.st.weight g.st.data
  pure (r.1, g, F.sum wd.toList / F.sum g.st.weight.toList)

/-! ### Histogram (src/functions.rs:644-736) -/

/-- `bin_edges` (src/functions.rs:667-680). -/
def binEdges (st : Stats K) (maxLimit : F K) (bins : ℕ) : List (F K) :=
  let mn := st.speed 0
  let mx := if F.eqB maxLimit 0 then st.speed 2 else maxLimit
  let w := (mx - mn) / F.ofNat bins
  (List.range bins).map (fun i => mn + F.ofNat i * w) ++ [mx]

/-- The bin of a speed (src/functions.rs:724-725). -/
def binOf (e0 e1 v : F K) : ℕ := ((v - e0) / (e1 - e0)).floor.toUsize

/-- Particle body of `histogram` (src/functions.rs:703-731). -/
def histogramBody (p : Profile) (grid : Grid K) (edges : List (F K)) (bins : ℕ) (h : Arr 1 (F K)) (ts : Timestep K)
    (i : ℕ) : Run (Arr 1 (F K)) := do
  let pos ← at' ts.position i
  if grid.isInside pos then do
    let v ← at' ts.velocity i
    let e0 ← at' edges 0
    let e1 ← at' edges 1
    let b := binOf e0 e1 (v 0 * v 0 + v 1 * v 1 + v 2 * v 2).sqrt
    let last ← usub p bins 1
    if b > last then pure h else h.addAt ![b] 1
  else pure h

/-- `histogram` (src/functions.rs:644-736): counts and edges; an unknown property panics. -/
def histogram (p : Profile) (d : Dm (Timestep K)) (st : Stats K) (grid : Grid K) (sel : Selector K) (property : String)
    (maxLimit : F K) (bins : ℕ) : Run (Dm (Timestep K) × Arr 1 (F K) × List (F K)) :=
  if property = "velocity" then do
    let edges := binEdges st maxLimit bins
    let l ← d.allSteps p
    let r ← d.forSteps p l (fun h _ ts => sampleStep sel (histogramBody p grid edges bins) h ts) (Arr.const ![bins] 0)
    pure (r.1, r.2, edges)
  else .error .explicit

/-! ### Granular temperature (src/functions.rs:754-861) -/

/-- Particle body of `granular_temperature_field` (src/functions.rs:797-835). -/
def granularBody (p : Profile) (grid : Grid K) (s : Sums K) (ts : Timestep K) (i : ℕ) : Run (Sums K) := do
  let pos ← at' ts.position i
  if grid.isInside pos then do
    let v ← at' ts.velocity i
    match ← grid.cellId p pos with
    | none => pure s
    | some c => s.add c v
  else pure s

/-- `&squared_sum - &sum * &sum / &num_counts` (src/functions.rs:840-842). -/
def fluct (sq sum cnt : Arr 3 (F K)) : Run (Arr 3 (F K)) := do
  let a ← Arr.zipWith (· * ·) sum sum
  let b ← Arr.zipWith (· / ·) a cnt
  Arr.zipWith (· - ·) sq b

/-- The mode switch (src/functions.rs:845-855). -/
def granularMode (mode : String) (x y z : Arr 3 (F K)) : Run (Arr 3 (F K)) :=
  if mode = "x" then .ok x
  else if mode = "y" then .ok y
  else if mode = "z" then .ok z
  else if mode = "xyz" then do
    let a ← Arr.zipWith (· + ·) x y
    let b ← Arr.zipWith (· + ·) a z
    pure (b.map (· / F.ofNat 3))
  else .error .explicit

/-- `granular_temperature_field` (src/functions.rs:754-861). -/
def granularTemperature (p : Profile) (d : Dm (Timestep K)) (grid : Grid K) (sel : Selector K) (mode : String) :
    Run (Dm (Timestep K) × Grid K) := do
  let l ← d.allSteps p
  let r ← d.forSteps p l (fun s _ ts => sampleStep sel (granularBody p grid) s ts) (Sums.init grid)
  let fx ← fluct (r.2.sq 0) (r.2.sum 0) r.2.cnt
  let fy ← fluct (r.2.sq 1) (r.2.sum 1) r.2.cnt
  let fz ← fluct (r.2.sq 2) (r.2.sum 2) r.2.cnt
  let t ← granularMode mode fx fy fz
  let t ← Arr.zipWith (· / ·) t r.2.cnt
  let g ← grid.newZeros.setData (t.map F.sqrt)
  let g ← g.setWeights r.2.cnt
  pure (r.1, g)

/-- The statistics at the end of `homogenity_index` (src/functions.rs:871-883). -/
def homogeneity (l : List (F K)) : F K :=
  let n : F K := F.ofNat l.length
  let mean := (l.foldl (fun s x => if x.isNaN then s else s + x) 0) / n
  ((l.foldl (fun s x => if x.isNaN then s else s + (x - mean) * (x - mean)) 0) / n).sqrt

/-- `homogenity_index` (src/functions.rs:863-884). -/
def homogenityIndex (p : Profile) (d : Dm (Timestep K)) (grid : Grid K) (sel : Selector K) (minV : F K) :
    Run (Dm (Timestep K) × F K) := do
  let r ← occupancyfield p d grid sel minV
  let a ← r.2.collapseTwo 0 1
  pure (r.1, homogeneity a.toList)

/-! ## Mixing (src/functions/mixing.rs) -/

/-- `type_counter` update (mixing.rs:58-61): grow to `type + 2`, count. Simplification: the allocation of a huge
vector for a huge type number is not modelled. -/
def countType (l : List ℕ) (ty : ℕ) : List ℕ :=
  let l := if ty ≥ l.length then l ++ List.replicate (ty + 2 - l.length) 0 else l
  l.modify ty (· + 1)

/-- Particle body of `lacey_mixing` (mixing.rs:48-86); state: grid A, grid B, type counter. -/
def laceyBody (p : Profile) (grid : Grid K) (a b : ℕ) (s : Grid K × Grid K × List ℕ) (ts : Timestep K) (i : ℕ) :
    Run (Grid K × Grid K × List ℕ) := do
  let ty ← at' ts.ptype i
  let cnt := countType s.2.2 ty.toUsize
  let pos ← at' ts.position i
  if posNaN pos then pure (s.1, s.2.1, cnt)
  else if grid.isInside pos = false then pure (s.1, s.2.1, cnt)
  else if ty.toUsize = a then do
    let g ← s.1.addValue p pos 1
    pure (g, s.2.1, cnt)
  else if ty.toUsize = b then do
    let g ← s.2.1.addValue p pos 1
    pure (s.1, g, cnt)
  else pure (s.1, s.2.1, cnt)

/-- The evaluation after the particle loop (mixing.rs:88-112): the index of one timestep. -/
def laceyValue (ga gb : Grid K) (cnt : List ℕ) (a b threshold : ℕ) : Run (F K) := do
  let sum ← Arr.zipWith (· + ·) gb.st.data ga.st.data
  let ga ← ga.divideByArray sum
  let na ← at' cnt a
  let nb ← at' cnt b
  let mean : F K := F.ofNat na / F.ofNat (na + nb)
  let w ← Arr.zipWith (· + ·) ga.st.weight gb.st.weight
  let conc := ga.st.data.toList
  let s2 := (conc.zip w.toList).foldl (fun s (x : F K × F K) =>
    if x.2 < F.ofNat threshold then s else if x.1.isNaN then s else s + F.sq (x.1 - mean)) 0
  let s2 := s2 / (F.ofNat conc.length - 1)
  let smax := (mean * (1 - mean)).sqrt
  let smin := (mean * (1 - mean) / F.ofNat conc.length).sqrt
  pure ((F.sq smax - s2) / (F.sq smax - F.sq smin))

/-- `lacey_mixing` (mixing.rs:8-118): times and index per timestep, zero where the window excludes it. -/
def laceyMixing (p : Profile) (d : Dm (Timestep K)) (grid : Grid K) (sel : Selector K) (a b threshold : ℕ) :
    Run (Dm (Timestep K) × List (F K × F K)) := do
  let l ← d.stepsBut p 1
  d.forSteps p l (fun acc _ ts =>
    if sel.timestepValid ts.time then do
      let s ← forParticles sel ts (fun s i => laceyBody p grid a b s ts i) (grid.newZeros, grid.newZeros, [])
      let v ← laceyValue s.1 s.2.1 s.2.2 a b threshold
      pure (acc ++ [(ts.time, v)])
    else pure (acc ++ [(0, 0)])) []

/-- Particle body of `concentration_field` (mixing.rs:154-189). -/
def concentrationBody (p : Profile) (grid : Grid K) (a b : ℕ) (s : Grid K × Grid K) (ts : Timestep K) (i : ℕ) :
    Run (Grid K × Grid K) := do
  let pos ← at' ts.position i
  if posNaN pos then pure s
  else if grid.isInside pos = false then pure s
  else do
    let ty ← at' ts.ptype i
    if ty.toUsize = a then do
      let g ← s.1.addValue p pos 1
      pure (g, s.2)
    else if ty.toUsize = b then do
      let g ← s.2.addValue p pos 1
      pure (s.1, g)
    else pure s

/-- `concentration_field` (mixing.rs:120-198). -/
def concentrationField (p : Profile) (d : Dm (Timestep K)) (grid : Grid K) (sel : Selector K) (a b : ℕ) :
    Run (Dm (Timestep K) × Grid K) := do
  let l ← d.stepsBut p 1
  let r ← d.forSteps p l (fun s _ ts => sampleStep sel (concentrationBody p grid a b) s ts) (grid.newZeros, grid.newZeros)
  let sum ← Arr.zipWith (· + ·) r.2.1.st.data r.2.2.st.data
  let c ← Arr.zipWith (· / ·) r.2.1.st.data sum
  let w ← Arr.zipWith (· + ·) r.2.1.st.weight r.2.2.st.weight
  let g ← grid.newZeros.setData c
  let g ← g.setWeights w
  pure (r.1, g)

/-- Particle body of `msd_field` (mixing.rs:252-273). -/
def msdBody (p : Profile) (grid : Grid K) (future : Timestep K) (g : Grid K) (ts : Timestep K) (i : ℕ) : Run (Grid K) := do
  let pos ← at' ts.position i
  if grid.isInside pos then do
    let f ← at' future.position i
    g.addValue p pos (F.sq (pos 0 - f 0) + F.sq (pos 1 - f 1) + F.sq (pos 2 - f 2)).sqrt
  else pure g

/-- `msd_field` (mixing.rs:200-292): per cell the SQUARE OF THE SUM of the distances over the number of samples. -/
def msdField (p : Profile) (d : Dm (Timestep K)) (st : Stats K) (grid : Grid K) (sel : Selector K) (dt : F K) :
    Run (Dm (Timestep K) × Grid K) := do
  let d ← d.setup p Timestep.default 0
  let l ← d.stepsBut p 1
  let r ← futureLoop p st sel dt (msdBody p grid) l d grid.newZeros
  let data ← Arr.zipWith (fun x y => if y > 0 then (x * x) / y else 0) r.2.st.data r.2.st.weight
  let g ← grid.setData data
  let g ← g.setWeights r.2.st.weight
  pure (r.1, g)

/-- `Array1::linspace(a, b, n)` of ndarray: step `(b - a) / (n - 1)` if `n > 1`, else 0; element `i` is `a + step * i`. -/
def linspace (a b : F K) (n : ℕ) : List (F K) :=
  (List.range n).map fun i => a + (if 1 < n then (b - a) / F.ofNat (n - 1) else 0) * F.ofNat i

/-- The value of one entry of the `msd` curve (mixing.rs:305-311): `Σ data · weight / Σ weight` over the cells. -/
def msdValue (g : Grid K) : F K :=
  (g.st.data.toList.zip g.st.weight.toList).foldl (fun acc x => acc + x.1 * x.2) 0 / g.st.weight.toList.foldl (· + ·) 0

/-- `msd` (mixing.rs:294-316): one `msd_field` per time of the curve; returns the curve and the times. -/
def msdCurve (p : Profile) (d : Dm (Timestep K)) (st : Stats K) (grid : Grid K) (sel : Selector K) (minT maxT : F K) (steps : ℕ) :
    Run (Dm (Timestep K) × List (F K) × List (F K)) := do
  let r ← (linspace minT maxT steps).foldlM (fun (s : Dm (Timestep K) × List (F K)) t => do
    let f ← msdField p s.1 st grid sel t
    pure (f.1, s.2 ++ [msdValue f.2])) (d, [])
  pure (r.1, r.2, linspace minT maxT steps)

/-! ## Circulation (src/functions/conditional.rs) -/

/-- `start_flag_array[i]`, `time_flag_array[i]` (conditional.rs:20-21). -/
structure Slot (K : Type) where
  flag : ℕ
  time : F K

/-- The crossing test (conditional.rs:65). -/
def crosses (bound old new : F K) : Bool := decide ((new - bound) * (old - bound) < 0)

/-- One crossing (conditional.rs:67-75): new slot and the reported duration, if any. -/
def crossStep (s : Slot K) (now : F K) : Slot K × Option (F K) :=
  if s.flag = 0 then (⟨1, now⟩, none)
  else if s.flag = 1 then (⟨2, s.time⟩, none)
  else (⟨0, s.time⟩, some (now - s.time))

/-- `Array1` of per-particle records of length `nparticles + 1`. -/
def slotRead {α : Type} (n : ℕ) (f : ℕ → α) (i : ℕ) : Run α := if i < n + 1 then .ok (f i) else .error .index

/-- State of `circulation_time`: the slots and the output vector. -/
structure Circ (K : Type) where
  slots : ℕ → Slot K
  out : List (F K)

/-- Particle body of `circulation_time` (conditional.rs:47-77). -/
def circBody (np : ℕ) (axis : Fin 3) (bound : F K) (old : Timestep K) (s : Circ K) (ts : Timestep K) (i : ℕ) :
    Run (Circ K) := do
  let id ← at' ts.particleid i
  let oid ← at' old.particleid i
  if F.eqB id oid = false then pure s
  else do
    let pos ← at' ts.position i
    let opos ← at' old.position i
    if crosses bound (opos axis) (pos axis) then do
      let sl ← slotRead np s.slots i
      let r := crossStep sl ts.time
      pure ⟨Function.update s.slots i r.1, s.out ++ r.2.toList⟩
    else pure s

/-- The loop over `1..timesteps - 1` (conditional.rs:24-82); `old_timestep` is the last timestep inside the window
(initially timestep 0, whatever the window). -/
def circLoop {σ : Type} (p : Profile) (sel : Selector K) (body : Timestep K → σ → Timestep K → ℕ → Run σ) (l : List ℕ)
    (d : Dm (Timestep K)) (old : Timestep K) (s : σ) : Run (Dm (Timestep K) × Timestep K × σ) :=
  l.foldlM (fun (x : Dm (Timestep K) × Timestep K × σ) t => do
    let r ← x.1.get K p t
    if sel.timestepValid r.2.time then do
      let s ← forParticles sel r.2 (fun s i => body x.2.1 s r.2 i) x.2.2
      pure (r.1, r.2, s)
    else pure (r.1, x.2.1, x.2.2)) (d, old, s)

/-- The indices of `1..timesteps - 1`. -/
def Dm.innerSteps (p : Profile) (d : Dm (Timestep K)) : Run (List ℕ) := do
  let m ← usub p d.n 1
  pure (List.range' 1 (m - 1))

/-- `circulation_time` (conditional.rs:3-84). -/
def circulationTime (p : Profile) (d : Dm (Timestep K)) (st : Stats K) (sel : Selector K) (axis : Fin 3) (bound : F K) :
    Run (Dm (Timestep K) × List (F K)) :=
  if bound > (st.dims axis).2 ∨ bound < (st.dims axis).1 then .error .explicit
  else do
    let r0 ← d.get K p 0
    let l ← r0.1.innerSteps p
    let r ← circLoop p sel (circBody st.nparticles axis bound) l r0.1 r0.2 ⟨fun _ => ⟨0, 0⟩, []⟩
    pure (r.1, r.2.2.out)

/-- The flag arrays of `circulation_time_two_boundary` (conditional.rs:107-110); `mid_time_flag_array` is written but
never read, and left out. -/
structure Slot2 (K : Type) where
  start : ℕ
  mid : ℕ
  time : F K

/-- The state machine of one particle at one timestep (conditional.rs:153-229). -/
def twoStep (lo hi : F K) (s : Slot2 K) (now old pos : F K) : Slot2 K × Option (F K × F K) :=
  if pos < hi ∧ old > hi then
    -- out of the upper region (conditional.rs:170-194)
    if s.start = 0 then (⟨1, s.mid, now⟩, none)
    else if s.start = 1 ∧ s.mid = 1 then (⟨s.start, 0, now⟩, some (s.time, now))
    else if s.start = 1 then (⟨s.start, s.mid, now⟩, none)
    else (s, none)
  else
    -- into the upper region (conditional.rs:153-168)
    let s := if pos > hi ∧ old < hi ∧ s.start = 2 then { s with mid := 1 } else s
    if pos < lo ∧ old > lo then
      -- into the lower region (conditional.rs:200-213)
      (if s.start = 1 then { s with mid := 1 } else s, none)
    else if pos > lo ∧ old < lo then
      -- out of the lower region (conditional.rs:215-231)
      if s.start = 0 then (⟨2, s.mid, now⟩, none)
      else if s.start = 2 ∧ s.mid = 1 then (⟨s.start, 0, now⟩, some (s.time, now))
      else if s.start = 2 then (⟨s.start, s.mid, now⟩, none)
      else (s, none)
    else (s, none)

/-- The particle crosses one of the boundaries: only then are the flag arrays indexed (conditional.rs:153, 171, 201, 215). -/
def touches (lo hi old pos : F K) : Bool :=
  decide ((pos > hi ∧ old < hi) ∨ (pos < hi ∧ old > hi) ∨ (pos < lo ∧ old > lo) ∨ (pos > lo ∧ old < lo))

/-- State of `circulation_time_two_boundary`. -/
structure Circ2 (K : Type) where
  slots : ℕ → Slot2 K
  out : List (F K × F K)

/-- Particle body of `circulation_time_two_boundary` (conditional.rs:136-232). -/
def circ2Body (np : ℕ) (axis : Fin 3) (lo hi : F K) (old : Timestep K) (s : Circ2 K) (ts : Timestep K) (i : ℕ) :
    Run (Circ2 K) := do
  let id ← at' ts.particleid i
  let oid ← at' old.particleid i
  if F.eqB id oid = false then pure s
  else do
    let pos ← at' ts.position i
    let opos ← at' old.position i
    if touches lo hi (opos axis) (pos axis) then do
      let sl ← slotRead np s.slots i
      let r := twoStep lo hi sl ts.time (opos axis) (pos axis)
      pure ⟨Function.update s.slots i r.1, s.out ++ r.2.toList⟩
    else pure s

/-- `circulation_time_two_boundary` (conditional.rs:86-239). -/
def circulationTwoBoundary (p : Profile) (d : Dm (Timestep K)) (st : Stats K) (sel : Selector K) (axis : Fin 3)
    (lo hi : F K) : Run (Dm (Timestep K) × List (F K × F K)) :=
  if lo > (st.dims axis).2 ∨ lo < (st.dims axis).1 then .error .explicit
  else if hi > (st.dims axis).2 ∨ hi < (st.dims axis).1 then .error .explicit
  else do
    let r0 ← d.get K p 0
    let l ← r0.1.innerSteps p
    let r ← circLoop p sel (circ2Body st.nparticles axis lo hi) l r0.1 r0.2 ⟨fun _ => ⟨0, 0, 0⟩, []⟩
    pure (r.1, r.2.2.out)

/-! ## Extraction (src/functions/extractions.rs) -/

/-- One row of `extract` (extractions.rs:24-35). -/
def extractRow (i : ℕ) (ts : Timestep K) : Run (List (F K)) := do
  let pos ← at' ts.position i
  let vel ← at' ts.velocity i
  pure [ts.time, pos 0, pos 1, pos 2, vel 0, vel 1, vel 2]

/-- `extract` (extractions.rs:12-41). If the range starts behind its end, the size subtraction panics in a debug
build; in a release build the allocation of the wrapped size panics. -/
def extract (p : Profile) (d : Dm (Timestep K)) (i : ℕ) (a b : ℕ) : Run (Dm (Timestep K) × List (List (F K))) :=
  if a ≥ d.n ∨ b ≥ d.n then .error .explicit
  else if b < a then .error (match p with | .debug => .overflow | .release => .explicit)
  else d.forSteps p (List.range' a (b - a)) (fun acc _ ts => do
    let row ← extractRow i ts
    pure (acc ++ [row])) []

end Up4
