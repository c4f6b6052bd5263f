import Verif.Props.Fields
import Verif.Props.Granular

set_option linter.unusedSectionVars false

/-!
# C110, C111: fields depend on what was seen, and samples pool

The fields of a dataset depend only on the positions and velocities of the particles the selector lets through, not on their order, numbering or distribution over
timesteps (C110); the fields of samples taken together follow from the fields of the parts (C111), for instance of adjacent time windows.
-/

namespace Up4
open F

variable {K : Type} [Field K] [LinearOrder K] [IsStrictOrderedRing K] [FloorRing K] [Arith K]

/-- Position and velocity of every particle the selector lets through. -/
def Dm.seen (sel : Selector K) (d : Dm (Timestep K)) : List (Pos K × (Fin 3 → F K)) :=
  (d.samples sel).map fun x => (posOf d.file x, velOf d.file x)

/-- A dataset and a selector for which the analyses run: sound buffers, complete timesteps, no empty criterion, at most `2^53` samples. -/
structure Ready (d : Dm (Timestep K)) (sel : Selector K) : Prop where
  inv : d.Inv
  wf : ∀ t, t < d.n → (d.file t).Wf
  usable : sel.Usable
  few : (d.samples sel).length ≤ 2 ^ 53

/-- All velocities seen are finite. -/
def FiniteVel (l : List (Pos K × (Fin 3 → F K))) : Prop := ∀ x ∈ l, ∀ a, ∃ v, x.2 a = fin v

theorem seen_filter (sel : Selector K) (d : Dm (Timestep K)) (P : Pos K → (Fin 3 → F K) → Bool) {β : Type} (f : Pos K → (Fin 3 → F K) → β) :
    ((d.samples sel).filter fun x => P (posOf d.file x) (velOf d.file x)).map (fun x => f (posOf d.file x) (velOf d.file x)) =
      ((d.seen sel).filter fun x => P x.1 x.2).map fun x => f x.1 x.2 := by
  unfold Dm.seen
  rw [List.filter_map, List.map_map]
  rfl

theorem seen_count (sel : Selector K) (d : Dm (Timestep K)) (P : Pos K → Bool) :
    (d.samples sel).countP (fun x => P (posOf d.file x)) = (d.seen sel).countP fun x => P x.1 := by
  unfold Dm.seen
  rw [List.countP_map]
  rfl

theorem fin_perm {l m : List K} (h : (l.map F.fin).Perm (m.map F.fin)) : l.Perm m := by
  have h2 := h.map (fun x : F K => match x with | .fin y => y | _ => 0)
  rw [List.map_map, List.map_map] at h2
  have e : ((fun x : F K => match x with | .fin y => y | _ => 0) ∘ F.fin) = (id : K → K) := rfl
  rw [e, List.map_id, List.map_id] at h2
  exact h2

/-! ### C110 -/

/-- **C110 (numberfield).** Holds in rounded arithmetic too. -/
theorem C110_numberfield [LawfulArith K] (p : Profile) (grid : Grid K) (hg : grid.Fillable p) (d₁ d₂ : Dm (Timestep K)) (s₁ s₂ : Selector K)
    (h₁ : Ready d₁ s₁) (h₂ : Ready d₂ s₂) (hp : (d₁.seen s₁).Perm (d₂.seen s₂)) :
    ∃ d₁' g₁ d₂' g₂, numberfield p d₁ grid s₁ = .ok (d₁', g₁) ∧ numberfield p d₂ grid s₂ = .ok (d₂', g₂) ∧
      ∀ c, g₁.st.data.get c = g₂.st.data.get c := by
  obtain ⟨d₁', g₁, r₁, _, _, _, _, _, e₁, _⟩ := C34_numberfield p d₁ h₁.inv grid hg s₁ h₁.usable h₁.wf h₁.few
  obtain ⟨d₂', g₂, r₂, _, _, _, _, _, e₂, _⟩ := C34_numberfield p d₂ h₂.inv grid hg s₂ h₂.usable h₂.wf h₂.few
  refine ⟨d₁', g₁, d₂', g₂, r₁, r₂, fun c => ?_⟩
  rw [e₁ c, e₂ c, seen_count s₁ d₁ fun q => inCell p grid.geom q c, seen_count s₂ d₂ fun q => inCell p grid.geom q c, hp.countP_eq]

/-- The values `velocityfield` averages in a cell. -/
def cellValues (p : Profile) (g : Geom K) (c : CellId) (lo hi : F K) (vcal : (Fin 3 → F K) → F K) (l : List (Pos K × (Fin 3 → F K))) : List (F K) :=
  (l.filter fun x => inCell p g x.1 c && within lo hi (vcal x.2)).map fun x => vcal x.2

theorem cellValues_seen (p : Profile) (g : Geom K) (c : CellId) (lo hi : F K) (vcal : (Fin 3 → F K) → F K) (d : Dm (Timestep K)) (sel : Selector K) :
    (((d.samples sel).filter fun x => inCell p g (posOf d.file x) c && within lo hi (vcal (velOf d.file x))).map fun x => vcal (velOf d.file x)) =
      cellValues p g c lo hi vcal (d.seen sel) :=
  seen_filter sel d (fun q v => inCell p g q c && within lo hi (vcal v)) (fun _ v => vcal v)

/-- What `velocityfield` returns, in exact arithmetic: per cell the number of accepted samples, and their mean. -/
theorem velocity_cells [LawfulArith K] [ExactArith K] (p : Profile) (grid : Grid K) (hg : grid.Fillable p) (hfresh : ∀ c, grid.st.weight.get c = 0)
    (d : Dm (Timestep K)) (sel : Selector K) (h : Ready d sel) (mode : String) (vcal : (Fin 3 → F K) → F K) (hm : velMode mode = .ok vcal) (lo hi : K) :
    ∃ d' g', velocityfield p d grid sel mode (fin lo) (fin hi) = .ok (d', g') ∧ ∀ c, InB grid.geom.cells c → ∃ vals : List K,
      vals.map fin = cellValues p grid.geom c (fin lo) (fin hi) vcal (d.seen sel) ∧
      g'.st.weight.get c = fin (vals.length : K) ∧ g'.st.data.get c = if vals = [] then F.nan else fin (vals.sum / vals.length) := by
  obtain ⟨d', g', r, e⟩ := C35_mean p d h.inv grid hg hfresh sel h.usable h.wf h.few mode vcal hm lo hi
  obtain ⟨d'', g'', r', _, _, _, _, e'⟩ := C35_velocityfield p d h.inv grid hg hfresh sel h.usable h.wf h.few mode vcal hm (fin lo) (fin hi) (by simp) (by simp)
  rw [r] at r'
  obtain ⟨rfl, rfl⟩ := Prod.mk.inj (Except.ok.inj r')
  refine ⟨d', g', r, fun c hc => ?_⟩
  obtain ⟨vals, v1, v2, v3⟩ := e c hc
  obtain ⟨w1, _, _⟩ := e' c hc
  refine ⟨vals, v1.trans (cellValues_seen p grid.geom c _ _ vcal d sel), ?_, ?_⟩
  · rw [w1, ← v1, List.length_map]
  · split_ifs with h0
    · exact v2 h0
    · exact (v3 h0).1

/-- **C110 (velocityfield).** -/
theorem C110_velocityfield [LawfulArith K] [ExactArith K] (p : Profile) (grid : Grid K) (hg : grid.Fillable p)
    (hfresh : ∀ c, grid.st.weight.get c = 0) (d₁ d₂ : Dm (Timestep K)) (s₁ s₂ : Selector K)
    (h₁ : Ready d₁ s₁) (h₂ : Ready d₂ s₂) (hp : (d₁.seen s₁).Perm (d₂.seen s₂))
    (mode : String) (hm : mode ∈ ["x", "r", "y", "theta", "z", "absolute", "xy", "xz", "yz"]) (lo hi : K) :
    ∃ d₁' g₁ d₂' g₂, velocityfield p d₁ grid s₁ mode (fin lo) (fin hi) = .ok (d₁', g₁) ∧ velocityfield p d₂ grid s₂ mode (fin lo) (fin hi) = .ok (d₂', g₂) ∧
      ∀ c, InB grid.geom.cells c → g₁.st.data.get c = g₂.st.data.get c ∧ g₁.st.weight.get c = g₂.st.weight.get c := by
  obtain ⟨vcal, hvc⟩ : ∃ vcal, velMode (K := K) mode = .ok vcal := by
    simp only [List.mem_cons, List.not_mem_nil, or_false] at hm
    rcases hm with rfl | rfl | rfl | rfl | rfl | rfl | rfl | rfl | rfl <;> exact ⟨_, rfl⟩
  obtain ⟨d₁', g₁, r₁, e₁⟩ := velocity_cells p grid hg hfresh d₁ s₁ h₁ mode vcal hvc lo hi
  obtain ⟨d₂', g₂, r₂, e₂⟩ := velocity_cells p grid hg hfresh d₂ s₂ h₂ mode vcal hvc lo hi
  refine ⟨d₁', g₁, d₂', g₂, r₁, r₂, fun c hc => ?_⟩
  obtain ⟨u, u1, u2, u3⟩ := e₁ c hc
  obtain ⟨v, v1, v2, v3⟩ := e₂ c hc
  have huv : u.Perm v := fin_perm (by rw [u1, v1]; exact (hp.filter _).map _)
  have hnil : u = [] ↔ v = [] := by
    rw [← List.length_eq_zero_iff, ← List.length_eq_zero_iff, huv.length_eq]
  rw [u2, u3, v2, v3, huv.sum_eq, huv.length_eq]
  refine ⟨?_, rfl⟩
  by_cases h : u = []
  · rw [if_pos h, if_pos (hnil.1 h)]
  · rw [if_neg h, if_neg (fun h' => h (hnil.2 h'))]

/-- The velocity components of the samples in a cell. -/
def cellVelocities (p : Profile) (g : Geom K) (c : CellId) (a : Fin 3) (l : List (Pos K × (Fin 3 → F K))) : List (F K) :=
  (l.filter fun x => inCell p g x.1 c).map fun x => x.2 a

theorem cellVelocities_seen (p : Profile) (g : Geom K) (c : CellId) (a : Fin 3) (d : Dm (Timestep K)) (sel : Selector K) :
    (((d.samples sel).filter fun x => inCell p g (posOf d.file x) c).map fun x => velOf d.file x a) =
      cellVelocities p g c a (d.seen sel) :=
  seen_filter sel d (fun q _ => inCell p g q c) (fun _ v => v a)

theorem seen_finite {d : Dm (Timestep K)} {sel : Selector K} (hv : FiniteVel (d.seen sel)) :
    ∃ v : ℕ × ℕ → Fin 3 → K, ∀ x ∈ d.samples sel, ∀ a, velOf d.file x a = fin (v x a) := by
  have h : ∀ x : ℕ × ℕ, ∀ a, ∃ w, x ∈ d.samples sel → velOf d.file x a = fin w := by
    intro x a
    by_cases hx : x ∈ d.samples sel
    · obtain ⟨w, hw⟩ := hv (posOf d.file x, velOf d.file x) (List.mem_map.2 ⟨x, hx, rfl⟩) a
      exact ⟨w, fun _ => hw⟩
    · exact ⟨0, fun h => absurd h hx⟩
  choose v hv using h
  exact ⟨v, fun x hx a => hv x a hx⟩

/-- What `vectorfield` returns on a Cartesian grid, in exact arithmetic. -/
theorem vector_cells [LawfulArith K] [ExactArith K] (p : Profile) (grid : Grid K) (hg : grid.Fillable p)
    (hfresh : ∀ c, grid.st.weight.get c = 0 ∧ grid.st.data.get c = 0) (hcart : grid.geom.isCylindrical = false)
    (d : Dm (Timestep K)) (sel : Selector K) (h : Ready d sel) (hv : FiniteVel (d.seen sel)) :
    ∃ d' g', vectorfield p d grid sel = .ok (d', g') ∧ ∀ a c, InB grid.geom.cells c → ∃ vals : List K,
      vals.map fin = cellVelocities p grid.geom c a (d.seen sel) ∧
      (g'.comp a).st.weight.get c = fin (vals.length : K) ∧ (g'.comp a).st.data.get c = if vals = [] then F.nan else fin (vals.sum / vals.length) := by
  obtain ⟨v, hv⟩ := seen_finite hv
  obtain ⟨d', g', r, e⟩ := C36_mean p d h.inv grid hg hfresh hcart sel h.usable h.wf h.few v hv
  obtain ⟨d'', g'', r', _, _, _, e'⟩ := C36_vectorfield p d h.inv grid hg hfresh sel h.usable h.wf h.few
  rw [r] at r'
  obtain ⟨rfl, rfl⟩ := Prod.mk.inj (Except.ok.inj r')
  refine ⟨d', g', r, fun a c hc => ?_⟩
  obtain ⟨v2, v3⟩ := e a c hc
  obtain ⟨w1, _, _⟩ := (e' a).2 c hc
  refine ⟨((d.samples sel).filter fun x => inCell p grid.geom (posOf d.file x) c).map fun x => v x a, ?_, ?_, ?_⟩
  · rw [← cellVelocities_seen, List.map_map]
    exact List.map_congr_left fun x hx => (hv x (List.mem_of_mem_filter hx) a).symm
  · rw [w1, List.length_map]
  · split_ifs with h0
    · exact v2 (List.map_eq_nil_iff.1 h0)
    · rw [List.length_map]
      exact v3 fun h => h0 (by rw [h]; rfl)

/-- **C110 (vectorfield).** -/
theorem C110_vectorfield [LawfulArith K] [ExactArith K] (p : Profile) (grid : Grid K) (hg : grid.Fillable p)
    (hfresh : ∀ c, grid.st.weight.get c = 0 ∧ grid.st.data.get c = 0) (hcart : grid.geom.isCylindrical = false)
    (d₁ d₂ : Dm (Timestep K)) (s₁ s₂ : Selector K)
    (h₁ : Ready d₁ s₁) (h₂ : Ready d₂ s₂) (hp : (d₁.seen s₁).Perm (d₂.seen s₂)) (hv : FiniteVel (d₁.seen s₁)) :
    ∃ d₁' g₁ d₂' g₂, vectorfield p d₁ grid s₁ = .ok (d₁', g₁) ∧ vectorfield p d₂ grid s₂ = .ok (d₂', g₂) ∧
      ∀ a c, InB grid.geom.cells c → (g₁.comp a).st.data.get c = (g₂.comp a).st.data.get c := by
  obtain ⟨d₁', g₁, r₁, e₁⟩ := vector_cells p grid hg hfresh hcart d₁ s₁ h₁ hv
  obtain ⟨d₂', g₂, r₂, e₂⟩ := vector_cells p grid hg hfresh hcart d₂ s₂ h₂ fun x hx => hv x (hp.mem_iff.2 hx)
  refine ⟨d₁', g₁, d₂', g₂, r₁, r₂, fun a c hc => ?_⟩
  obtain ⟨u, u1, u2, u3⟩ := e₁ a c hc
  obtain ⟨v, v1, v2, v3⟩ := e₂ a c hc
  have huv : u.Perm v := fin_perm (by rw [u1, v1]; exact (hp.filter _).map _)
  have hnil : u = [] ↔ v = [] := by
    rw [← List.length_eq_zero_iff, ← List.length_eq_zero_iff, huv.length_eq]
  rw [u3, v3, huv.sum_eq, huv.length_eq]
  by_cases h : u = []
  · rw [if_pos h, if_pos (hnil.1 h)]
  · rw [if_neg h, if_neg (fun h' => h (hnil.2 h'))]

theorem meanSqDev_perm {l m : List K} (h : l.Perm m) : meanSqDev l = meanSqDev m := by
  unfold meanSqDev mean
  rw [h.sum_eq, h.length_eq, (h.map _).sum_eq]

/-- **C110 (granular temperature).** -/
theorem C110_granular [LawfulArith K] [ExactArith K] (p : Profile) (grid : Grid K) (hg : grid.Fillable p)
    (hfresh : ∀ c, grid.st.data.get c = 0) (d₁ d₂ : Dm (Timestep K)) (s₁ s₂ : Selector K)
    (h₁ : Ready d₁ s₁) (h₂ : Ready d₂ s₂) (hp : (d₁.seen s₁).Perm (d₂.seen s₂)) (hv : FiniteVel (d₁.seen s₁))
    (mode : String) (hm : mode = "x" ∨ mode = "y" ∨ mode = "z" ∨ mode = "xyz") :
    ∃ d₁' g₁ d₂' g₂, granularTemperature p d₁ grid s₁ mode = .ok (d₁', g₁) ∧ granularTemperature p d₂ grid s₂ mode = .ok (d₂', g₂) ∧
      ∀ c, InB grid.geom.cells c → g₁.st.data.get c = g₂.st.data.get c := by
  obtain ⟨v₁, hv₁⟩ := seen_finite hv
  obtain ⟨v₂, hv₂⟩ := seen_finite (d := d₂) (sel := s₂) fun x hx => hv x (hp.mem_iff.2 hx)
  obtain ⟨d₁', g₁, r₁, _, _, _, _, e₁⟩ := C40_granular p d₁ h₁.inv grid hg hfresh s₁ h₁.usable h₁.wf v₁ (fun x hx _ => hv₁ x hx) mode hm
  obtain ⟨d₂', g₂, r₂, _, _, _, _, e₂⟩ := C40_granular p d₂ h₂.inv grid hg hfresh s₂ h₂.usable h₂.wf v₂ (fun x hx _ => hv₂ x hx) mode hm
  refine ⟨d₁', g₁, d₂', g₂, r₁, r₂, fun c hc => ?_⟩
  obtain ⟨_, u2, u3⟩ := e₁ c hc
  obtain ⟨_, w2, w3⟩ := e₂ c hc
  have key : ∀ (d : Dm (Timestep K)) (s : Selector K) (v : ℕ × ℕ → Fin 3 → K), (∀ x ∈ d.samples s, ∀ a, velOf d.file x a = fin (v x a)) → ∀ a,
      ((((d.samples s).filter fun x => inCell p grid.geom (posOf d.file x) c).map fun x => v x a).map fin) = cellVelocities p grid.geom c a (d.seen s) := by
    intro d s v hv a
    rw [← cellVelocities_seen, List.map_map]
    exact List.map_congr_left fun x hx => (hv x (List.mem_of_mem_filter hx) a).symm
  have hper : ∀ a, (((d₁.samples s₁).filter fun x => inCell p grid.geom (posOf d₁.file x) c).map fun x => v₁ x a).Perm
      (((d₂.samples s₂).filter fun x => inCell p grid.geom (posOf d₂.file x) c).map fun x => v₂ x a) := fun a =>
    fin_perm (by rw [key d₁ s₁ v₁ hv₁ a, key d₂ s₂ v₂ hv₂ a]; exact (hp.filter _).map _)
  have hnil : ((d₁.samples s₁).filter fun x => inCell p grid.geom (posOf d₁.file x) c) = [] ↔
      ((d₂.samples s₂).filter fun x => inCell p grid.geom (posOf d₂.file x) c) = [] := by
    have := (hper 0).length_eq
    rw [List.length_map, List.length_map] at this
    rw [← List.length_eq_zero_iff, ← List.length_eq_zero_iff, this]
  by_cases h : ((d₁.samples s₁).filter fun x => inCell p grid.geom (posOf d₁.file x) c) = []
  · rw [u2 h, w2 (hnil.1 h)]
  · obtain ⟨T, t1, t2, t3⟩ := u3 h
    obtain ⟨U, q1, q2, q3⟩ := w3 fun h' => h (hnil.2 h')
    have hTU : T * T = U * U := by
      rw [t3, q3]
      unfold fluctuation
      simp only [meanSqDev_perm (hper 0), meanSqDev_perm (hper 1), meanSqDev_perm (hper 2)]
    rw [t1, q1, (mul_self_inj t2 q2).1 hTU]

/-- The particles of a timestep as rows of a table: position, velocity, radius, cloud, density, id. -/
def Timestep.rows (ts : Timestep K) : List (Pos K × (Fin 3 → F K) × F K × F K × F K × F K) :=
  (List.range ts.position.length).map fun i =>
    (ts.pos i, ts.vel i, ts.radius.getD i F.nan, ts.clouds.getD i F.nan, ts.density.getD i F.nan, ts.pid i)

/-- **C110 (order).** The order in which the particles of a timestep are stored does not matter for what is seen, hence for none of the fields above. -/
theorem C110_order (d₁ d₂ : Dm (Timestep K)) (hn : d₁.n = d₂.n)
    (h : ∀ t, t < d₁.n → (d₁.file t).time = (d₂.file t).time ∧ (d₁.file t).rows.Perm (d₂.file t).rows) (sel : Selector K) :
    (d₁.seen sel).Perm (d₂.seen sel) := by
  have hrow : ∀ ts : Timestep K, (ts.picks sel).map (fun i => (ts.pos i, ts.vel i)) =
      if sel.timestepValid ts.time then (ts.rows.filter fun r => sel.isValid r.2.2.1 r.2.2.2.1 r.2.2.2.2.1 r.2.2.2.2.2.toUsize == .ok true).map
        fun r => (r.1, r.2.1) else [] := by
    intro ts
    unfold Timestep.picks Timestep.rows
    split_ifs
    · rw [List.filter_map, List.map_map]
      rfl
    · rfl
  have hs : ∀ d : Dm (Timestep K), d.seen sel = (List.range d.n).flatMap fun t => ((d.file t).picks sel).map fun i => ((d.file t).pos i, (d.file t).vel i) := by
    intro d
    unfold Dm.seen Dm.samples samples
    rw [List.map_flatMap]
    congr 1
    funext t
    rw [List.map_map]
    rfl
  rw [hs, hs, ← hn]
  refine List.Perm.flatMap (List.Perm.refl _) fun t ht => ?_
  obtain ⟨h1, h2⟩ := h t (List.mem_range.1 ht)
  rw [hrow, hrow, h1]
  split_ifs
  · exact (h2.filter _).map _
  · exact List.Perm.refl _

/-! ### C111 -/

/-- **C111 (numberfield).** The counts of two parts add up. -/
theorem C111_numberfield [LawfulArith K] (p : Profile) (grid : Grid K) (hg : grid.Fillable p) (d d₁ d₂ : Dm (Timestep K)) (s s₁ s₂ : Selector K)
    (h : Ready d s) (h₁ : Ready d₁ s₁) (h₂ : Ready d₂ s₂) (hp : (d.seen s).Perm (d₁.seen s₁ ++ d₂.seen s₂)) :
    ∃ d' g d₁' g₁ d₂' g₂, numberfield p d grid s = .ok (d', g) ∧ numberfield p d₁ grid s₁ = .ok (d₁', g₁) ∧ numberfield p d₂ grid s₂ = .ok (d₂', g₂) ∧
      ∀ c, ∃ n₁ n₂ : ℕ, g₁.st.data.get c = fin (n₁ : K) ∧ g₂.st.data.get c = fin (n₂ : K) ∧ g.st.data.get c = fin ((n₁ + n₂ : ℕ) : K) := by
  obtain ⟨d', g, r, _, _, _, _, _, e, _⟩ := C34_numberfield p d h.inv grid hg s h.usable h.wf h.few
  obtain ⟨d₁', g₁, r₁, _, _, _, _, _, e₁, _⟩ := C34_numberfield p d₁ h₁.inv grid hg s₁ h₁.usable h₁.wf h₁.few
  obtain ⟨d₂', g₂, r₂, _, _, _, _, _, e₂, _⟩ := C34_numberfield p d₂ h₂.inv grid hg s₂ h₂.usable h₂.wf h₂.few
  refine ⟨d', g, d₁', g₁, d₂', g₂, r, r₁, r₂, fun c => ⟨_, _, e₁ c, e₂ c, ?_⟩⟩
  rw [e c, seen_count s d fun q => inCell p grid.geom q c, seen_count s₁ d₁ fun q => inCell p grid.geom q c,
    seen_count s₂ d₂ fun q => inCell p grid.geom q c, hp.countP_eq, List.countP_append]

/-- `m` is the mean and `n` the number of some samples with sum `S`; NaN if there is none. -/
def IsMean (n : ℕ) (S : K) (m : F K) : Prop := m = if n = 0 then F.nan else fin (S / n)

/-- Cell by cell, the field `(m, w)` is the pooled mean of `(m₁, w₁)` and `(m₂, w₂)`: sums and numbers add up. -/
def Pooled (w w₁ w₂ m m₁ m₂ : F K) : Prop :=
  ∃ (n₁ n₂ : ℕ) (S₁ S₂ : K), w₁ = fin (n₁ : K) ∧ w₂ = fin (n₂ : K) ∧ w = fin ((n₁ + n₂ : ℕ) : K) ∧
    IsMean n₁ S₁ m₁ ∧ IsMean n₂ S₂ m₂ ∧ IsMean (n₁ + n₂) (S₁ + S₂) m

theorem pooled_of_lists {u v w : List K} (h : u.Perm (v ++ w)) {x x₁ x₂ : F K}
    (hx : x = if u = [] then F.nan else fin (u.sum / u.length)) (h₁ : x₁ = if v = [] then F.nan else fin (v.sum / v.length))
    (h₂ : x₂ = if w = [] then F.nan else fin (w.sum / w.length)) :
    Pooled (fin (u.length : K)) (fin (v.length : K)) (fin (w.length : K)) x x₁ x₂ := by
  have hl : u.length = v.length + w.length := by rw [h.length_eq, List.length_append]
  refine ⟨v.length, w.length, v.sum, w.sum, rfl, rfl, by rw [hl], ?_, ?_, ?_⟩
  · unfold IsMean; rw [h₁]; simp only [List.length_eq_zero_iff]
  · unfold IsMean; rw [h₂]; simp only [List.length_eq_zero_iff]
  · unfold IsMean; rw [hx, ← hl, h.sum_eq, List.sum_append]; simp only [List.length_eq_zero_iff]

/-- **C111 (velocityfield).** -/
theorem C111_velocityfield [LawfulArith K] [ExactArith K] (p : Profile) (grid : Grid K) (hg : grid.Fillable p)
    (hfresh : ∀ c, grid.st.weight.get c = 0) (d d₁ d₂ : Dm (Timestep K)) (s s₁ s₂ : Selector K)
    (h : Ready d s) (h₁ : Ready d₁ s₁) (h₂ : Ready d₂ s₂) (hp : (d.seen s).Perm (d₁.seen s₁ ++ d₂.seen s₂))
    (mode : String) (hm : mode ∈ ["x", "r", "y", "theta", "z", "absolute", "xy", "xz", "yz"]) (lo hi : K) :
    ∃ d' g d₁' g₁ d₂' g₂, velocityfield p d grid s mode (fin lo) (fin hi) = .ok (d', g) ∧
      velocityfield p d₁ grid s₁ mode (fin lo) (fin hi) = .ok (d₁', g₁) ∧ velocityfield p d₂ grid s₂ mode (fin lo) (fin hi) = .ok (d₂', g₂) ∧
      ∀ c, InB grid.geom.cells c →
        Pooled (g.st.weight.get c) (g₁.st.weight.get c) (g₂.st.weight.get c) (g.st.data.get c) (g₁.st.data.get c) (g₂.st.data.get c) := by
  obtain ⟨vcal, hvc⟩ : ∃ vcal, velMode (K := K) mode = .ok vcal := by
    simp only [List.mem_cons, List.not_mem_nil, or_false] at hm
    rcases hm with rfl | rfl | rfl | rfl | rfl | rfl | rfl | rfl | rfl <;> exact ⟨_, rfl⟩
  obtain ⟨d', g, r, e⟩ := velocity_cells p grid hg hfresh d s h mode vcal hvc lo hi
  obtain ⟨d₁', g₁, r₁, e₁⟩ := velocity_cells p grid hg hfresh d₁ s₁ h₁ mode vcal hvc lo hi
  obtain ⟨d₂', g₂, r₂, e₂⟩ := velocity_cells p grid hg hfresh d₂ s₂ h₂ mode vcal hvc lo hi
  refine ⟨d', g, d₁', g₁, d₂', g₂, r, r₁, r₂, fun c hc => ?_⟩
  obtain ⟨u, u1, u2, u3⟩ := e c hc
  obtain ⟨v, v1, v2, v3⟩ := e₁ c hc
  obtain ⟨w, w1, w2, w3⟩ := e₂ c hc
  rw [u2, v2, w2]
  refine pooled_of_lists (fin_perm ?_) u3 v3 w3
  rw [List.map_append, u1, v1, w1]
  unfold cellValues
  rw [← List.map_append, ← List.filter_append]
  exact (hp.filter _).map _

/-- **C111 (vectorfield).** -/
theorem C111_vectorfield [LawfulArith K] [ExactArith K] (p : Profile) (grid : Grid K) (hg : grid.Fillable p)
    (hfresh : ∀ c, grid.st.weight.get c = 0 ∧ grid.st.data.get c = 0) (hcart : grid.geom.isCylindrical = false)
    (d d₁ d₂ : Dm (Timestep K)) (s s₁ s₂ : Selector K)
    (h : Ready d s) (h₁ : Ready d₁ s₁) (h₂ : Ready d₂ s₂) (hp : (d.seen s).Perm (d₁.seen s₁ ++ d₂.seen s₂)) (hv : FiniteVel (d.seen s)) :
    ∃ d' g d₁' g₁ d₂' g₂, vectorfield p d grid s = .ok (d', g) ∧ vectorfield p d₁ grid s₁ = .ok (d₁', g₁) ∧ vectorfield p d₂ grid s₂ = .ok (d₂', g₂) ∧
      ∀ a c, InB grid.geom.cells c → Pooled ((g.comp a).st.weight.get c) ((g₁.comp a).st.weight.get c) ((g₂.comp a).st.weight.get c)
        ((g.comp a).st.data.get c) ((g₁.comp a).st.data.get c) ((g₂.comp a).st.data.get c) := by
  obtain ⟨d', g, r, e⟩ := vector_cells p grid hg hfresh hcart d s h hv
  obtain ⟨d₁', g₁, r₁, e₁⟩ := vector_cells p grid hg hfresh hcart d₁ s₁ h₁ fun x hx => hv x (hp.mem_iff.2 (List.mem_append_left _ hx))
  obtain ⟨d₂', g₂, r₂, e₂⟩ := vector_cells p grid hg hfresh hcart d₂ s₂ h₂ fun x hx => hv x (hp.mem_iff.2 (List.mem_append_right _ hx))
  refine ⟨d', g, d₁', g₁, d₂', g₂, r, r₁, r₂, fun a c hc => ?_⟩
  obtain ⟨u, u1, u2, u3⟩ := e a c hc
  obtain ⟨v, v1, v2, v3⟩ := e₁ a c hc
  obtain ⟨w, w1, w2, w3⟩ := e₂ a c hc
  rw [u2, v2, w2]
  refine pooled_of_lists (fin_perm ?_) u3 v3 w3
  rw [List.map_append, u1, v1, w1]
  unfold cellVelocities
  rw [← List.map_append, ← List.filter_append]
  exact (hp.filter _).map _

/-- **C111 (time windows).** If no timestep lies strictly between `m` and `m'`, the samples of the window `[a, b]` are those of `[a, m]` and of `[m', b]` together;
so counts add up and means pool (with the three theorems above). -/
theorem C111_windows [LawfulArith K] (d : Dm (Timestep K)) (sel : Selector K) (τ : ℕ → K) (hτ : ∀ t, t < d.n → (d.file t).time = fin (τ t)) (a m m' b : K)
    (hm : m < m') (ha : a ≤ m') (hb : m ≤ b) (hgap : ∀ t, t < d.n → τ t ≤ m ∨ m' ≤ τ t) :
    (d.seen (sel.setTime (fin a) (fin b))).Perm (d.seen (sel.setTime (fin a) (fin m)) ++ d.seen (sel.setTime (fin m') (fin b))) := by
  have key : ∀ l : List ℕ, (∀ t ∈ l, t < d.n) → (samples (sel.setTime (fin a) (fin b)) d.file l).Perm
      (samples (sel.setTime (fin a) (fin m)) d.file l ++ samples (sel.setTime (fin m') (fin b)) d.file l) := by
    intro l hl
    induction l with
    | nil => exact List.Perm.refl _
    | cons t l ih =>
      have hi := ih fun t ht => hl t (List.mem_cons_of_mem _ ht)
      have ht := hl t (by simp)
      have hc : ∀ s : Selector K, samples s d.file (t :: l) = ((d.file t).picks s).map (fun i => (t, i)) ++ samples s d.file l := fun s => rfl
      have hpk : ∀ x y : K, (d.file t).picks (sel.setTime (fin x) (fin y)) =
          if x ≤ τ t ∧ τ t ≤ y then (List.range (d.file t).position.length).filter ((d.file t).chosen sel) else [] := by
        intro x y
        unfold Timestep.picks
        have e : (sel.setTime (fin x) (fin y)).timestepValid (d.file t).time = decide (x ≤ τ t ∧ τ t ≤ y) := by
          rw [hτ t ht]
          unfold Selector.timestepValid Selector.setTime
          simp [Bool.decide_and]
        rw [e]
        by_cases h : x ≤ τ t ∧ τ t ≤ y
        · rw [if_pos h, if_pos (decide_eq_true h)]; rfl
        · rw [if_neg h, if_neg (by simpa using h)]
      rw [hc, hc, hc, hpk, hpk, hpk]
      rcases hgap t ht with h | h
      · rw [if_neg (fun h' : m' ≤ τ t ∧ τ t ≤ b => by linarith [h'.1])]
        have e : (a ≤ τ t ∧ τ t ≤ b) ↔ (a ≤ τ t ∧ τ t ≤ m) := ⟨fun h' => ⟨h'.1, h⟩, fun h' => ⟨h'.1, h.trans hb⟩⟩
        simp only [e, List.map_nil, List.nil_append]
        rw [List.append_assoc]
        exact List.Perm.append_left _ hi
      · rw [if_neg (fun h' : a ≤ τ t ∧ τ t ≤ m => by linarith [h'.2])]
        have e : (a ≤ τ t ∧ τ t ≤ b) ↔ (m' ≤ τ t ∧ τ t ≤ b) := ⟨fun h' => ⟨h, h'.2⟩, fun h' => ⟨ha.trans h, h'.2⟩⟩
        simp only [e, List.map_nil, List.nil_append]
        refine (List.Perm.append_left _ hi).trans ?_
        rw [← List.append_assoc, ← List.append_assoc]
        exact List.Perm.append_right _ List.perm_append_comm
  unfold Dm.seen
  rw [← List.map_append]
  exact (key _ fun t ht => List.mem_range.1 ht).map _

theorem ready_window (d : Dm (Timestep K)) (sel : Selector K) (h : Ready d sel) (hall : ∀ t, t < d.n → sel.timestepValid (d.file t).time = true) (a b : F K) :
    Ready d (sel.setTime a b) := by
  refine ⟨h.inv, h.wf, h.usable, le_trans (List.Sublist.length_le ?_) h.few⟩
  unfold Dm.samples samples
  have key : ∀ l : List ℕ, (∀ t ∈ l, t < d.n) → List.Sublist (l.flatMap fun t => ((d.file t).picks (sel.setTime a b)).map fun i => (t, i))
      (l.flatMap fun t => ((d.file t).picks sel).map fun i => (t, i)) := by
    intro l hl
    induction l with
    | nil => exact List.Sublist.slnil
    | cons t l ih =>
      rw [List.flatMap_cons, List.flatMap_cons]
      refine List.Sublist.append (List.Sublist.map _ ?_) (ih fun t ht => hl t (List.mem_cons_of_mem _ ht))
      unfold Timestep.picks
      rw [if_pos (hall t (hl t (by simp)))]
      split_ifs
      · exact List.Sublist.refl _
      · exact List.nil_sublist _
  exact key _ fun t ht => List.mem_range.1 ht

/-- **C111 for adjacent time windows of one dataset.** -/
theorem C111_window_fields [LawfulArith K] [ExactArith K] (p : Profile) (grid : Grid K) (hg : grid.Fillable p)
    (hfresh : ∀ c, grid.st.weight.get c = 0 ∧ grid.st.data.get c = 0) (hcart : grid.geom.isCylindrical = false)
    (d : Dm (Timestep K)) (sel : Selector K) (h : Ready d sel) (hall : ∀ t, t < d.n → sel.timestepValid (d.file t).time = true)
    (τ : ℕ → K) (hτ : ∀ t, t < d.n → (d.file t).time = fin (τ t)) (a m m' b : K)
    (hm : m < m') (ha : a ≤ m') (hb : m ≤ b) (hgap : ∀ t, t < d.n → τ t ≤ m ∨ m' ≤ τ t) (hv : FiniteVel (d.seen (sel.setTime (fin a) (fin b)))) :
    (∃ d' g d₁' g₁ d₂' g₂, numberfield p d grid (sel.setTime (fin a) (fin b)) = .ok (d', g) ∧
      numberfield p d grid (sel.setTime (fin a) (fin m)) = .ok (d₁', g₁) ∧ numberfield p d grid (sel.setTime (fin m') (fin b)) = .ok (d₂', g₂) ∧
      ∀ c, ∃ n₁ n₂ : ℕ, g₁.st.data.get c = fin (n₁ : K) ∧ g₂.st.data.get c = fin (n₂ : K) ∧ g.st.data.get c = fin ((n₁ + n₂ : ℕ) : K)) ∧
    (∀ mode lo hi, mode ∈ ["x", "r", "y", "theta", "z", "absolute", "xy", "xz", "yz"] →
      ∃ d' g d₁' g₁ d₂' g₂, velocityfield p d grid (sel.setTime (fin a) (fin b)) mode (fin lo) (fin hi) = .ok (d', g) ∧
        velocityfield p d grid (sel.setTime (fin a) (fin m)) mode (fin lo) (fin hi) = .ok (d₁', g₁) ∧
        velocityfield p d grid (sel.setTime (fin m') (fin b)) mode (fin lo) (fin hi) = .ok (d₂', g₂) ∧
        ∀ c, InB grid.geom.cells c →
          Pooled (g.st.weight.get c) (g₁.st.weight.get c) (g₂.st.weight.get c) (g.st.data.get c) (g₁.st.data.get c) (g₂.st.data.get c)) ∧
    (∃ d' g d₁' g₁ d₂' g₂, vectorfield p d grid (sel.setTime (fin a) (fin b)) = .ok (d', g) ∧
      vectorfield p d grid (sel.setTime (fin a) (fin m)) = .ok (d₁', g₁) ∧ vectorfield p d grid (sel.setTime (fin m') (fin b)) = .ok (d₂', g₂) ∧
      ∀ k c, InB grid.geom.cells c → Pooled ((g.comp k).st.weight.get c) ((g₁.comp k).st.weight.get c) ((g₂.comp k).st.weight.get c)
        ((g.comp k).st.data.get c) ((g₁.comp k).st.data.get c) ((g₂.comp k).st.data.get c)) := by
  have hp := C111_windows d sel τ hτ a m m' b hm ha hb hgap
  have r := fun x y => ready_window d sel h hall x y
  exact ⟨C111_numberfield p grid hg d d d _ _ _ (r _ _) (r _ _) (r _ _) hp,
    fun mode lo hi hmode => C111_velocityfield p grid hg (fun c => (hfresh c).1) d d d _ _ _ (r _ _) (r _ _) (r _ _) hp mode hmode lo hi,
    C111_vectorfield p grid hg hfresh hcart d d d _ _ _ (r _ _) (r _ _) (r _ _) hp hv⟩

/-- Witness for C111: four timesteps of the demo dataset, the window `[0, 3]` split at `[0, 1]` and `[2, 3]`. -/
example (p : Profile) (kind : Kind) : ∃ d : Dm (Timestep ℝ), Dm.new p kind demoFile 4 Timestep.default = .ok d ∧
    Ready d Selector.default ∧ (∀ t, t < d.n → (Selector.default : Selector ℝ).timestepValid (d.file t).time = true) ∧
    (∀ t, t < d.n → (d.file t).time = fin (t : ℝ)) ∧ (∀ t : ℕ, t < d.n → (t : ℝ) ≤ 1 ∨ (2 : ℝ) ≤ t) ∧
    FiniteVel (d.seen (Selector.default.setTime (fin 0) (fin 3))) ∧ d.seen (Selector.default.setTime (fin 0) (fin 3)) ≠ [] := by
  obtain ⟨d, e, hinv, hf, hn, hw, hS⟩ := demo_manager p kind 4 (by norm_num) (by norm_num)
  have hready : Ready d Selector.default := ⟨hinv, hw, usable_default, by rw [hS]; simp⟩
  refine ⟨d, e, hready, fun t ht => by rw [hf]; exact demo_time t (by omega), fun t _ => by rw [hf]; rfl, fun t ht => ?_, ?_, ?_⟩
  · rw [hn] at ht
    rcases Nat.lt_or_ge t 2 with h | h
    · left; exact_mod_cast (by omega : t ≤ 1)
    · right; exact_mod_cast h
  · intro x hx a
    obtain ⟨⟨t, i⟩, hy, rfl⟩ := List.mem_map.1 hx
    obtain ⟨_, _, hi, _⟩ := (mem_samples _ _ _ _ _).1 hy
    dsimp only
    rw [hf] at hi ⊢
    obtain rfl : i = 0 := by
      have : i < 1 := hi
      omega
    fin_cases a <;> exact ⟨_, rfl⟩
  · have hmem : ((0 : ℕ), (0 : ℕ)) ∈ d.samples (Selector.default.setTime (fin 0) (fin 3)) := by
      refine (mem_samples _ _ _ _ _).2 ⟨by rw [hn]; simp, ?_, ?_, ?_⟩
      · rw [hf]
        simp [Selector.timestepValid, Selector.setTime, demoFile]
      · rw [hf]; simp [demoFile]
      · exact chosen_default _ _
    intro h
    rw [Dm.seen, List.map_eq_nil_iff] at h
    rw [h] at hmem
    cases hmem

/-- Two particles, and the same two particles stored the other way round. -/
noncomputable def pairStep (swap : Bool) : Timestep ℝ :=
  if swap then ⟨fin 0, [fun _ => fin 3, fun _ => fin 0], [fun _ => fin 2, fun _ => fin 1], [fin 1, fin 1], [fin 2, fin 1], [fin 0, fin 0], [fin 0, fin 0], [fin 0, fin 0]⟩
  else ⟨fin 0, [fun _ => fin 0, fun _ => fin 3], [fun _ => fin 1, fun _ => fin 2], [fin 1, fin 1], [fin 1, fin 2], [fin 0, fin 0], [fin 0, fin 0], [fin 0, fin 0]⟩

/-- Witness for C110. -/
example : (pairStep false).time = (pairStep true).time ∧ (pairStep false).rows.Perm (pairStep true).rows ∧ (pairStep false).rows ≠ (pairStep true).rows := by
  have e1 : (pairStep false).rows = [(fun _ => fin 0, fun _ => fin 1, fin 1, fin 0, fin 0, fin 1), (fun _ => fin 3, fun _ => fin 2, fin 1, fin 0, fin 0, fin 2)] := rfl
  have e2 : (pairStep true).rows = [(fun _ => fin 3, fun _ => fin 2, fin 1, fin 0, fin 0, fin 2), (fun _ => fin 0, fun _ => fin 1, fin 1, fin 0, fin 0, fin 1)] := rfl
  refine ⟨rfl, by rw [e1, e2]; exact List.Perm.swap _ _ _, fun h => ?_⟩
  rw [e1, e2] at h
  have := congrFun (Prod.mk.inj (List.cons.inj h).1).1 0
  simp at this

end Up4
