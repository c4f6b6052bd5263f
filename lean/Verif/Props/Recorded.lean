import Verif.Props.Pooling
import Verif.Props.Histogram
import Verif.Props.UsedGrid

set_option linter.unusedSectionVars false

/-! # C143: selecting is the same as having recorded only that -/

namespace Up4
open F

variable {K : Type} [Field K] [LinearOrder K] [IsStrictOrderedRing K] [FloorRing K] [Arith K]

/-- The timestep with the particles the selector takes and no others. -/
def Timestep.only (sel : Selector K) (ts : Timestep K) : Timestep K :=
  let l := (List.range ts.position.length).filter (ts.chosen sel)
  ⟨ts.time, l.map ts.pos, l.map ts.vel, l.map fun i => ts.radius.getD i F.nan, l.map ts.pid, l.map fun i => ts.clouds.getD i F.nan,
    l.map fun i => ts.density.getD i F.nan, l.map fun i => ts.ptype.getD i F.nan⟩

/-- The second dataset holds, in order, the timesteps of the first one with a time in the window, with the particles the selector takes and no others. -/
structure RecordedOnly (sel : Selector K) (d d' : Dm (Timestep K)) : Prop where
  count : d'.n = ((List.range d.n).filter fun t => sel.timestepValid (d.file t).time).length
  step : ∀ k t, ((List.range d.n).filter fun t => sel.timestepValid (d.file t).time)[k]? = some t → d'.file k = (d.file t).only sel

theorem only_wf (sel : Selector K) (ts : Timestep K) : (ts.only sel).Wf := by
  unfold Timestep.only Timestep.Wf
  simp

/-- The samples of one timestep, as positions and velocities. -/
def Timestep.shown (sel : Selector K) (ts : Timestep K) : List (Pos K × (Fin 3 → F K)) := (ts.picks sel).map fun i => (ts.pos i, ts.vel i)

theorem seen_shown (sel : Selector K) (d : Dm (Timestep K)) : d.seen sel = (List.range d.n).flatMap fun t => (d.file t).shown sel := by
  unfold Dm.seen Dm.samples samples Timestep.shown
  rw [List.map_flatMap]
  simp only [List.map_map]
  rfl

theorem only_shown (sel : Selector K) (ts : Timestep K) (h : sel.timestepValid ts.time = true) (h' : (Selector.default : Selector K).timestepValid ts.time = true) :
    (ts.only sel).shown Selector.default = ts.shown sel := by
  have ht : (Selector.default : Selector K).timestepValid (ts.only sel).time = true := h'
  unfold Timestep.shown Timestep.picks
  rw [if_pos h, if_pos ht]
  have hall : (List.range (ts.only sel).position.length).filter ((ts.only sel).chosen Selector.default) = List.range (ts.only sel).position.length :=
    List.filter_eq_self.2 fun i _ => chosen_default _ i
  rw [hall]
  unfold Timestep.only
  dsimp only
  set l := (List.range ts.position.length).filter (ts.chosen sel)
  apply List.ext_getElem
  · simp
  · intro i h1 h2
    simp only [List.length_map, List.length_range] at h1 h2
    simp [Timestep.pos, Timestep.vel, h1]

theorem range_flatMap {α β : Type} (l : List α) (f : ℕ → List β) (g : α → List β) (h : ∀ k x, l[k]? = some x → f k = g x) :
    (List.range l.length).flatMap f = l.flatMap g := by
  induction l generalizing f with
  | nil => rfl
  | cons x l ih =>
    rw [List.length_cons, List.range_succ_eq_map, List.flatMap_cons, List.flatMap_cons, h 0 x rfl, List.flatMap_map,
      ih (fun k => f (k + 1)) fun k y hk => h (k + 1) y (by simpa using hk)]

theorem flatMap_filter {α β : Type} (l : List α) (P : α → Bool) (g : α → List β) (h : ∀ x, P x = false → g x = []) :
    (l.filter P).flatMap g = l.flatMap g := by
  induction l with
  | nil => rfl
  | cons x l ih =>
    by_cases hx : P x = true
    · rw [List.filter_cons_of_pos hx, List.flatMap_cons, List.flatMap_cons, ih]
    · rw [List.filter_cons_of_neg hx, List.flatMap_cons, ih, h x (by simpa using hx), List.nil_append]

/-- The default selection of what was recorded is the selection of the whole. -/
theorem recorded_seen {sel : Selector K} {d d' : Dm (Timestep K)} (h : RecordedOnly sel d d')
    (ht : ∀ t, t < d.n → sel.timestepValid (d.file t).time = true → (Selector.default : Selector K).timestepValid (d.file t).time = true) :
    d'.seen Selector.default = d.seen sel := by
  rw [seen_shown, seen_shown, h.count]
  rw [range_flatMap ((List.range d.n).filter fun t => sel.timestepValid (d.file t).time) _ (fun t => (d.file t).shown sel) fun k t hk => by
    have hm := List.mem_of_getElem? hk
    obtain ⟨h1, h2⟩ := List.mem_filter.1 hm
    rw [h.step k t hk]
    exact only_shown sel _ h2 (ht t (List.mem_range.1 h1) h2)]
  apply flatMap_filter
  intro t h0
  unfold Timestep.shown Timestep.picks
  rw [if_neg (by rw [h0]; simp)]
  rfl

/-- Two grids hold the same in every cell. -/
def SameCells (g₁ g₂ : Grid K) : Prop := g₁.geom = g₂.geom ∧ ∀ c, InB g₁.geom.cells c → g₁.st.data.get c = g₂.st.data.get c ∧ g₁.st.weight.get c = g₂.st.weight.get c

theorem cell_length {d₁ d₂ : Dm (Timestep K)} {s₁ s₂ : Selector K} (h : d₁.seen s₁ = d₂.seen s₂) (P : Pos K → (Fin 3 → F K) → Bool) {β : Type}
    (f : Pos K → (Fin 3 → F K) → β) :
    ((d₁.samples s₁).filter fun x => P (posOf d₁.file x) (velOf d₁.file x)).map (fun x => f (posOf d₁.file x) (velOf d₁.file x)) =
      ((d₂.samples s₂).filter fun x => P (posOf d₂.file x) (velOf d₂.file x)).map fun x => f (posOf d₂.file x) (velOf d₂.file x) := by
  rw [seen_filter, seen_filter, h]

/-- The answers of the field analyses are the same, bit by bit, in every arithmetic. -/
structure SameFields (p : Profile) (grid : Grid K) (d₁ : Dm (Timestep K)) (s₁ : Selector K) (d₂ : Dm (Timestep K)) (s₂ : Selector K) : Prop where
  number : ∃ d₁' g₁ d₂' g₂, numberfield p d₁ grid s₁ = .ok (d₁', g₁) ∧ numberfield p d₂ grid s₂ = .ok (d₂', g₂) ∧ g₁.geom = g₂.geom ∧
    ∀ c, g₁.st.data.get c = g₂.st.data.get c
  velocity : ∀ mode ∈ ["absolute", "x", "y", "z"], ∀ lo hi : F K, lo ≠ F.nan → hi ≠ F.nan → ∃ d₁' g₁ d₂' g₂,
    velocityfield p d₁ grid s₁ mode lo hi = .ok (d₁', g₁) ∧ velocityfield p d₂ grid s₂ mode lo hi = .ok (d₂', g₂) ∧ SameCells g₁ g₂
  vector : ∃ d₁' g₁ d₂' g₂, vectorfield p d₁ grid s₁ = .ok (d₁', g₁) ∧ vectorfield p d₂ grid s₂ = .ok (d₂', g₂) ∧ ∀ a, SameCells (g₁.comp a) (g₂.comp a)
  granular : ∀ mode ∈ ["x", "y", "z", "xyz"], ∃ d₁' g₁ d₂' g₂, granularTemperature p d₁ grid s₁ mode = .ok (d₁', g₁) ∧
    granularTemperature p d₂ grid s₂ mode = .ok (d₂', g₂) ∧ SameCells g₁ g₂

/-- Fields are computed from the sequence of positions and velocities seen and from nothing else, in every arithmetic. -/
theorem C143_sequence [LawfulArith K] (p : Profile) (grid : Grid K) (hg : grid.Fillable p) (d₁ d₂ : Dm (Timestep K)) (s₁ s₂ : Selector K)
    (h₁ : Ready d₁ s₁) (h₂ : Ready d₂ s₂) (h : d₁.seen s₁ = d₂.seen s₂) : SameFields p grid d₁ s₁ d₂ s₂ := by
  refine ⟨?_, ?_, ?_, ?_⟩
  · obtain ⟨a, b, e1, _, _, _, e2, _, e3, _⟩ := C34_numberfield p d₁ h₁.inv grid hg s₁ h₁.usable h₁.wf h₁.few
    obtain ⟨a', b', f1, _, _, _, f2, _, f3, _⟩ := C34_numberfield p d₂ h₂.inv grid hg s₂ h₂.usable h₂.wf h₂.few
    refine ⟨a, b, a', b', e1, f1, by rw [e2, f2], fun c => ?_⟩
    rw [e3 c, f3 c, seen_count s₁ d₁ fun q => inCell p grid.geom q c, seen_count s₂ d₂ fun q => inCell p grid.geom q c, h]
  · intro mode hm lo hi hlo hhi
    obtain ⟨vcal, hv⟩ : ∃ vcal : (Fin 3 → F K) → F K, velMode mode = .ok vcal := by
      simp only [List.mem_cons, List.not_mem_nil, or_false] at hm
      rcases hm with rfl | rfl | rfl | rfl <;> exact ⟨_, rfl⟩
    obtain ⟨a, b, e1, _, _, _, e2, _, e3⟩ := velocityfield_run p d₁ h₁.inv grid hg s₁ h₁.usable h₁.wf mode vcal hv lo hi hlo hhi
    obtain ⟨a', b', f1, _, _, _, f2, _, f3⟩ := velocityfield_run p d₂ h₂.inv grid hg s₂ h₂.usable h₂.wf mode vcal hv lo hi hlo hhi
    refine ⟨a, b, a', b', e1, f1, by rw [e2, f2], fun c hc => ?_⟩
    rw [e2] at hc
    obtain ⟨k1, k2⟩ := e3 c hc
    obtain ⟨l1, l2⟩ := f3 c hc
    rw [cellValues_seen] at k1 k2 l1 l2
    rw [k2, l2, k1, l1, h]
    exact ⟨rfl, rfl⟩
  · obtain ⟨a, b, e1, _, _, _, e2⟩ := vectorfield_run p d₁ h₁.inv grid hg s₁ h₁.usable h₁.wf
    obtain ⟨a', b', f1, _, _, _, f2⟩ := vectorfield_run p d₂ h₂.inv grid hg s₂ h₂.usable h₂.wf
    refine ⟨a, b, a', b', e1, f1, fun x => ?_⟩
    obtain ⟨e3, _, e4⟩ := e2 x
    obtain ⟨f3, _, f4⟩ := f2 x
    refine ⟨by rw [e3, f3], fun c hc => ?_⟩
    rw [e3] at hc
    obtain ⟨k1, k2⟩ := e4 c hc
    obtain ⟨l1, l2⟩ := f4 c hc
    have := cell_length h (fun q _ => inCell p grid.geom q c) (fun q v => (VecGrid.new grid).velocityCalculation q v x)
    rw [this] at k1 k2
    rw [k2, l2, k1, l1]
    exact ⟨rfl, rfl⟩
  · intro mode hm
    have hm' : mode = "x" ∨ mode = "y" ∨ mode = "z" ∨ mode = "xyz" := by simpa using hm
    obtain ⟨a, b, e1, _, _, _, e2, _, e3⟩ := granular_run p d₁ h₁.inv grid hg s₁ h₁.usable h₁.wf mode hm'
    obtain ⟨a', b', f1, _, _, _, f2, _, f3⟩ := granular_run p d₂ h₂.inv grid hg s₂ h₂.usable h₂.wf mode hm'
    refine ⟨a, b, a', b', e1, f1, by rw [e2, f2], fun c hc => ?_⟩
    rw [e2] at hc
    obtain ⟨k1, k2⟩ := e3 c hc
    obtain ⟨l1, l2⟩ := f3 c hc
    have hq := fun x => cell_length h (fun q _ => inCell p grid.geom q c) (fun _ v => v x * v x)
    have hv := fun x => cell_length h (fun q _ => inCell p grid.geom q c) (fun _ v => v x)
    have hn : ((d₁.samples s₁).filter fun x => inCell p grid.geom (posOf d₁.file x) c).length =
        ((d₂.samples s₂).filter fun x => inCell p grid.geom (posOf d₂.file x) c).length := by
      have := congrArg List.length (cell_length h (fun q _ => inCell p grid.geom q c) (fun _ _ => ()))
      simpa using this
    simp only [hq, hv, hn] at k1 k2
    rw [k2, l2, k1, l1]
    exact ⟨rfl, rfl⟩

/-- **C143.** A dataset, a selection, and the dataset that has just the timesteps in the window, with just the particles the selection takes: without any selection
it gives the same fields, bit by bit. (The times must be finite: the default selection excludes infinite ones.) -/
theorem C143_recorded [LawfulArith K] (p : Profile) (grid : Grid K) (hg : grid.Fillable p) (d d' : Dm (Timestep K)) (sel : Selector K) (h : RecordedOnly sel d d')
    (hr : Ready d sel) (hd' : d'.Inv)
    (ht : ∀ t, t < d.n → sel.timestepValid (d.file t).time = true → (Selector.default : Selector K).timestepValid (d.file t).time = true) :
    SameFields p grid d sel d' Selector.default := by
  have hseen := recorded_seen h ht
  refine C143_sequence p grid hg d d' sel Selector.default hr ⟨hd', ?_, usable_default, ?_⟩ hseen.symm
  · intro k hk
    rw [h.count] at hk
    obtain ⟨t, e⟩ : ∃ t, ((List.range d.n).filter fun t => sel.timestepValid (d.file t).time)[k]? = some t := ⟨_, List.getElem?_eq_getElem hk⟩
    rw [h.step k t e]
    exact only_wf sel _
  · have := congrArg List.length hseen
    unfold Dm.seen at this
    rw [List.length_map, List.length_map] at this
    rw [this]
    exact hr.few

/-- Such a dataset can be opened whenever the window takes at least one timestep. -/
theorem C143_exists [LawfulArith K] (p : Profile) (kind : Kind) (d : Dm (Timestep K)) (hn : d.n ≤ 2 ^ 50) (sel : Selector K)
    (h : ∃ t, t < d.n ∧ sel.timestepValid (d.file t).time = true) :
    ∃ file n d', Dm.new p kind file n Timestep.default = .ok d' ∧ d'.Inv ∧ RecordedOnly sel d d' := by
  set l := (List.range d.n).filter fun t => sel.timestepValid (d.file t).time with hl
  have h1 : 1 ≤ l.length := by
    obtain ⟨t, ht, hv⟩ := h
    exact List.length_pos_of_mem (List.mem_filter.2 ⟨List.mem_range.2 ht, hv⟩)
  have h2 : l.length ≤ 2 ^ 50 := by
    have := List.length_filter_le (fun t => sel.timestepValid (d.file t).time) (List.range d.n)
    rw [List.length_range] at this
    exact this.trans hn
  obtain ⟨d', e, hinv, hf, hdn, _⟩ := Dm.new_ok p kind (fun k => (d.file (l.getD k 0)).only sel) l.length Timestep.default h1 h2
  refine ⟨_, _, d', e, hinv, ⟨hdn, fun k t hk => ?_⟩⟩
  rw [hf]
  rw [← hl] at hk
  simp only [List.getD_eq_getElem?_getD, hk, Option.getD_some]

/-- Case for `C143_recorded`, `C143_sequence` and `C143_exists`: of the demo dataset, the timesteps between 1 and 2. -/
example (p : Profile) (kind : Kind) : ∃ d d' : Dm (Timestep ℝ), Dm.new p kind demoFile 5 Timestep.default = .ok d ∧
    RecordedOnly (Selector.default.setTime (fin 1) (fin 2)) d d' ∧ d'.n = 2 ∧
    SameFields p unitGrid d (Selector.default.setTime (fin 1) (fin 2)) d' Selector.default := by
  obtain ⟨d, e, hinv, hf, hn, _⟩ := Dm.new_ok p kind demoFile 5 Timestep.default (by norm_num) (by norm_num)
  have hval : ∀ t : ℕ, (Selector.default.setTime (fin 1) (fin 2) : Selector ℝ).timestepValid (demoFile t).time = decide (1 ≤ t ∧ t ≤ 2) := by
    intro t
    unfold Selector.timestepValid Selector.setTime
    change (decide (fin (t : ℝ) ≥ fin 1) && decide (fin (t : ℝ) ≤ fin 2)) = _
    simp only [ge_iff_le, F.le_fin, Bool.decide_and]
    congr 1 <;> rw [decide_eq_decide] <;> norm_cast
  obtain ⟨file, n, d', e', hinv', hro⟩ := C143_exists p kind d (by rw [hn]; norm_num) (Selector.default.setTime (fin 1) (fin 2)) ⟨1, by omega, by
    rw [hf, hval]; decide⟩
  have hus : (Selector.default.setTime (fin 1) (fin 2) : Selector ℝ).Usable := usable_default (K := ℝ)
  have hch : ∀ (ts : Timestep ℝ) i, ts.chosen (Selector.default.setTime (fin 1) (fin 2)) i = true := fun ts i => chosen_default ts i
  have hlen : (d.samples (Selector.default.setTime (fin 1) (fin 2))).length ≤ 2 ^ 53 := by
    have : d.samples (Selector.default.setTime (fin 1) (fin 2)) = [(1, 0), (2, 0)] := by
      unfold Dm.samples samples Timestep.picks
      rw [hf, hn]
      have hch' : ∀ ts : Timestep ℝ, ts.chosen (Selector.default.setTime (fin 1) (fin 2)) = fun _ => true := fun ts => funext (hch ts)
      simp only [hval, hch']
      simp [List.range_succ, demoFile]
    rw [this]; norm_num
  refine ⟨d, d', e, hro, ?_, C143_recorded p unitGrid (fillable_cart p _ unit_isCart) d d' _ hro ⟨hinv, fun t _ => by rw [hf]; exact demoFile_wf t, hus, hlen⟩ hinv' ?_⟩
  · rw [hro.count, hf, hn]
    simp only [hval]
    decide
  · intro t ht _
    rw [hf]
    exact demo_time t (by omega)

end Up4
