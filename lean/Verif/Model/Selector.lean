import Verif.Core

set_option linter.unusedSectionVars false

/-!
# Model of `src/particleselector.rs`

Indexing `vec[0]` of an empty filter panics, hence the `Run` results.
-/

namespace Up4

variable {K : Type} [Field K] [LinearOrder K] [IsStrictOrderedRing K] [FloorRing K] [Arith K]

/-- `ParticleSelector` (src/particleselector.rs:15-21). -/
structure Selector (K : Type) where
  time : F K × F K
  radius : List (F K)
  clouds : List (F K)
  density : List (F K)
  particleid : List ℕ

namespace Selector

/-- `v[i]` on a `Vec`. -/
def at' {α : Type} (l : List α) (i : ℕ) : Run α :=
  match l[i]? with
  | some x => .ok x
  | none => .error .index

/-- `Default` (src/particleselector.rs:22-32); `f64::MIN` is `-f64::MAX`. -/
def default : Selector K where
  time := (F.fin (-Arith.maxK), F.fin Arith.maxK)
  radius := [-1]
  clouds := [-1]
  density := [-1]
  particleid := [0]

/-- `Vec::contains` for floats: IEEE equality. -/
def containsF (l : List (F K)) (x : F K) : Bool := l.any fun y => F.eqB y x

/-- `is_radius_valid` (src/particleselector.rs:50-62). -/
def isRadiusValid (s : Selector K) (x : F K) : Run Bool := do
  let r0 ← at' s.radius 0
  if F.eqB r0 (-1) then pure true
  else if s.radius.length = 1 then pure (F.eqB x r0)
  else if s.radius.length = 2 then
    if x ≥ r0 then do
      let r1 ← at' s.radius 1
      pure (decide (x ≤ r1))
    else pure false
  else pure (containsF s.radius x)

/-- `is_cloud_valid` (src/particleselector.rs:63-75): the range test looks at the length of `radius`. -/
def isCloudValid (s : Selector K) (x : F K) : Run Bool := do
  let c0 ← at' s.clouds 0
  if F.eqB c0 (-1) then pure true
  else if s.clouds.length = 1 then pure (F.eqB x c0)
  else if s.radius.length = 2 then
    if x ≥ c0 then do
      let c1 ← at' s.clouds 1
      pure (decide (x ≤ c1))
    else pure false
  else pure (containsF s.clouds x)

/-- `is_density_valid` (src/particleselector.rs:76-88): the range test looks at the length of `radius`
and its upper end is `radius[1]`. -/
def isDensityValid (s : Selector K) (x : F K) : Run Bool := do
  let d0 ← at' s.density 0
  if F.eqB d0 (-1) then pure true
  else if s.density.length = 1 then pure (F.eqB x d0)
  else if s.radius.length = 2 then
    if x ≥ d0 then do
      let r1 ← at' s.radius 1
      pure (decide (x ≤ r1))
    else pure false
  else pure (containsF s.density x)

/-- `is_particleid_valid` (src/particleselector.rs:89-102). -/
def isParticleidValid (s : Selector K) (x : ℕ) : Run Bool := do
  let i0 ← at' s.particleid 0
  if i0 = 0 then pure true
  else if s.particleid.length = 1 then pure (decide (x = i0))
  else if s.particleid.length = 2 then
    if x ≥ i0 then do
      let i1 ← at' s.particleid 1
      pure (decide (x ≤ i1))
    else pure false
  else pure (s.particleid.contains x)

/-- `is_valid` (src/particleselector.rs:106-113), with short-circuiting `&&`. -/
def isValid (s : Selector K) (radius clouds density : F K) (particleid : ℕ) : Run Bool := do
  if ← s.isRadiusValid radius then
    if ← s.isCloudValid clouds then
      if ← s.isDensityValid density then s.isParticleidValid particleid
      else pure false
    else pure false
  else pure false

/-- `timestep_valid` (src/particleselector.rs:115-117). -/
def timestepValid (s : Selector K) (t : F K) : Bool := decide (t ≥ s.time.1) && decide (t ≤ s.time.2)

/-- `set_time` (src/particleselector.rs:119-121). -/
def setTime (s : Selector K) (a b : F K) : Selector K := { s with time := (a, b) }

end Selector
end Up4
