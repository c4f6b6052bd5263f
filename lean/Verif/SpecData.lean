import Verif.Model.Data

set_option linter.unusedSectionVars false

/-!
# Specification vocabulary for datasets

What a *sample* of a dataset is: a particle of a timestep, chosen by a selector. Nothing here depends on how the
analyses run.
-/

namespace Up4

variable {K : Type} [Field K] [LinearOrder K] [IsStrictOrderedRing K] [FloorRing K] [Arith K]

/-- All per-particle arrays of a timestep have the same length (one entry per particle). -/
def Timestep.Wf (ts : Timestep K) : Prop :=
  ts.velocity.length = ts.position.length ∧ ts.radius.length = ts.position.length ∧
  ts.particleid.length = ts.position.length ∧ ts.clouds.length = ts.position.length ∧
  ts.density.length = ts.position.length ∧ ts.ptype.length = ts.position.length

/-- Every filter of the selector has at least one entry (an empty one panics, C26). -/
def Selector.Usable (sel : Selector K) : Prop :=
  sel.radius ≠ [] ∧ sel.clouds ≠ [] ∧ sel.density ≠ [] ∧ sel.particleid ≠ []

namespace Timestep
/-- Position of particle `i`. -/
def pos (ts : Timestep K) (i : ℕ) : Pos K := ts.position.getD i (fun _ => F.nan)
/-- Velocity of particle `i`. -/
def vel (ts : Timestep K) (i : ℕ) : Fin 3 → F K := ts.velocity.getD i (fun _ => F.nan)
/-- Speed of particle `i`: the length of its velocity vector. -/
def speed (ts : Timestep K) (i : ℕ) : F K := (ts.vel i 0 * ts.vel i 0 + ts.vel i 1 * ts.vel i 1 + ts.vel i 2 * ts.vel i 2).sqrt
/-- Type number of particle `i`. -/
def typ (ts : Timestep K) (i : ℕ) : ℕ := (ts.ptype.getD i F.nan).toUsize
/-- Id number of particle `i`. -/
def pid (ts : Timestep K) (i : ℕ) : F K := ts.particleid.getD i F.nan

/-- The selector accepts the attributes of particle `i` (`is_valid` returns `true`; see C25, C26 for what that means). -/
def chosen (sel : Selector K) (ts : Timestep K) (i : ℕ) : Bool :=
  sel.isValid (ts.radius.getD i F.nan) (ts.clouds.getD i F.nan) (ts.density.getD i F.nan) (ts.pid i).toUsize == .ok true

/-- The chosen particles of a timestep, none if its time is outside the window. -/
def picks (sel : Selector K) (ts : Timestep K) : List ℕ :=
  if sel.timestepValid ts.time then (List.range ts.position.length).filter (ts.chosen sel) else []

end Timestep

/-! ### Statistics of a list of numbers -/

/-- Arithmetic mean. -/
def mean (l : List K) : K := l.sum / l.length
/-- Mean squared deviation from the mean (population variance). -/
def meanSqDev (l : List K) : K := (l.map fun x => (x - mean l) ^ 2).sum / l.length
/-- Unbiased sample variance. -/
def sampleVar (l : List K) : K := (l.map fun x => (x - mean l) ^ 2).sum / (l.length - 1)

/-- The samples of the timesteps in `l`: pairs of a timestep index with the time in the window and a chosen particle. -/
def samples (sel : Selector K) (file : ℕ → Timestep K) (l : List ℕ) : List (ℕ × ℕ) :=
  l.flatMap fun t => ((file t).picks sel).map fun i => (t, i)

theorem mem_samples (sel : Selector K) (file : ℕ → Timestep K) (l : List ℕ) (t i : ℕ) :
    (t, i) ∈ samples sel file l ↔
      t ∈ l ∧ sel.timestepValid (file t).time = true ∧ i < (file t).position.length ∧ (file t).chosen sel i = true := by
  unfold samples Timestep.picks
  simp only [List.mem_flatMap, List.mem_map, Prod.mk.injEq]
  constructor
  · rintro ⟨t', ht', i', hi', rfl, rfl⟩
    split_ifs at hi' with h
    · rw [List.mem_filter, List.mem_range] at hi'; exact ⟨ht', h, hi'⟩
    · cases hi'
  · rintro ⟨h1, h2, h3⟩
    refine ⟨t, h1, i, ?_, rfl, rfl⟩
    rw [if_pos h2, List.mem_filter, List.mem_range]; exact h3

/-- No sample is listed twice. -/
theorem nodup_samples (sel : Selector K) (file : ℕ → Timestep K) (l : List ℕ) (hl : l.Nodup) :
    (samples sel file l).Nodup := by
  unfold samples
  rw [List.nodup_flatMap]
  refine ⟨fun t _ => ?_, hl.imp ?_⟩
  · refine List.Nodup.map (fun a b h => by simpa using h) ?_
    unfold Timestep.picks
    split_ifs
    · exact List.nodup_range.filter _
    · exact List.nodup_nil
  · intro a b hab x hx hy
    simp only [List.mem_map] at hx hy
    obtain ⟨i, _, rfl⟩ := hx
    obtain ⟨j, _, h⟩ := hy
    exact hab (by simpa using (congrArg Prod.fst h).symm)

end Up4
