import Verif.SpecData
import Verif.Model.Analysis
import Verif.Props.Buffer
import Verif.Props.Cylinder

set_option linter.unusedSectionVars false

/-! Lemmas shared by the analyses: time loops visit every timestep, particle loops visit the chosen particles. -/

namespace Up4
open F
open Selector (at')

variable {K : Type} [Field K] [LinearOrder K] [IsStrictOrderedRing K] [FloorRing K] [Arith K]

theorem at_ok {α : Type} {l : List α} {i : ℕ} (h : i < l.length) (d : α) : at' l i = .ok (l.getD i d) := by
  unfold at'
  rw [List.getElem?_eq_getElem h, List.getD_eq_getElem?_getD, List.getElem?_eq_getElem h]
  rfl

theorem foldlM_congr {α σ : Type} (l : List α) (f g : σ → α → Run σ) (s : σ) (h : ∀ s, ∀ a ∈ l, f s a = g s a) :
    l.foldlM f s = l.foldlM g s := by
  induction l generalizing s with
  | nil => rfl
  | cons a l ih =>
    rw [List.foldlM_cons, List.foldlM_cons, h s a (by simp)]
    cases g s a with
    | error e => rfl
    | ok b => exact ih b (fun s a ha => h s a (by simp [ha]))

theorem foldlM_filter_run {α σ : Type} (l : List α) (c : α → Bool) (f : σ → α → Run σ) (s : σ) :
    l.foldlM (fun s a => if c a then f s a else pure s) s = (l.filter c).foldlM f s := by
  induction l generalizing s with
  | nil => rfl
  | cons a l ih =>
    rw [List.foldlM_cons, List.filter_cons]
    by_cases h : c a = true
    · rw [if_pos h, if_pos h, List.foldlM_cons]
      cases f s a with
      | error e => rfl
      | ok b => exact ih b
    · rw [if_neg h, if_neg h, run_pure, run_bind_ok]; exact ih s

theorem foldlM_map_run {α β σ : Type} (l : List α) (m : α → β) (f : σ → β → Run σ) (s : σ) :
    (l.map m).foldlM f s = l.foldlM (fun s a => f s (m a)) s := by
  induction l generalizing s with
  | nil => rfl
  | cons a l ih =>
    rw [List.map_cons, List.foldlM_cons, List.foldlM_cons]
    cases f s (m a) with
    | error e => rfl
    | ok b => exact ih b

theorem foldlM_append_run {α σ : Type} (l m : List α) (f : σ → α → Run σ) (s : σ) :
    (l ++ m).foldlM f s = l.foldlM f s >>= fun s => m.foldlM f s := by
  induction l generalizing s with
  | nil => rfl
  | cons a l ih =>
    rw [List.cons_append, List.foldlM_cons, List.foldlM_cons]
    cases f s a with
    | error e => rfl
    | ok b => exact ih b

/-- A pure fold in the panic monad. -/
theorem foldlM_pure_run {α σ : Type} (l : List α) (f : σ → α → σ) (s : σ) :
    l.foldlM (fun s a => (.ok (f s a) : Run σ)) s = .ok (l.foldl f s) := by
  induction l generalizing s with
  | nil => rfl
  | cons a l ih => rw [List.foldlM_cons, run_bind_ok, ih]; rfl

/-! ### The selector is total -/

theorem isValid_total (sel : Selector K) (hs : sel.Usable) (r c d : F K) (i : ℕ) :
    ∃ b, sel.isValid r c d i = .ok b := by
  obtain ⟨h1, h2, h3, h4⟩ := hs
  have len : ∀ {α : Type} {l : List α}, l ≠ [] → 0 < l.length := fun h => List.length_pos_iff.2 h
  have hr : ∃ b, sel.isRadiusValid r = .ok b := by
    unfold Selector.isRadiusValid
    rw [at_ok (len h1) F.nan, run_bind_ok]
    split_ifs with a1 a2 a3 a4
    · exact ⟨_, rfl⟩
    · exact ⟨_, rfl⟩
    · rw [at_ok (by omega) F.nan, run_bind_ok]; exact ⟨_, rfl⟩
    · exact ⟨_, rfl⟩
    · exact ⟨_, rfl⟩
  have hc : ∃ b, sel.isCloudValid c = .ok b := by
    unfold Selector.isCloudValid
    have := len h2
    rw [at_ok this F.nan, run_bind_ok]
    split_ifs with a1 a2 a3 a4
    · exact ⟨_, rfl⟩
    · exact ⟨_, rfl⟩
    · rw [at_ok (by omega) F.nan, run_bind_ok]; exact ⟨_, rfl⟩
    · exact ⟨_, rfl⟩
    · exact ⟨_, rfl⟩
  have hd : ∃ b, sel.isDensityValid d = .ok b := by
    unfold Selector.isDensityValid
    have := len h3
    rw [at_ok this F.nan, run_bind_ok]
    split_ifs with a1 a2 a3 a4
    · exact ⟨_, rfl⟩
    · exact ⟨_, rfl⟩
    · rw [at_ok (by omega) F.nan, run_bind_ok]; exact ⟨_, rfl⟩
    · exact ⟨_, rfl⟩
    · exact ⟨_, rfl⟩
  have hi : ∃ b, sel.isParticleidValid i = .ok b := by
    unfold Selector.isParticleidValid
    have := len h4
    rw [at_ok this 0, run_bind_ok]
    split_ifs with a1 a2 a3 a4
    · exact ⟨_, rfl⟩
    · exact ⟨_, rfl⟩
    · rw [at_ok (by omega) 0, run_bind_ok]; exact ⟨_, rfl⟩
    · exact ⟨_, rfl⟩
    · exact ⟨_, rfl⟩
  obtain ⟨br, er⟩ := hr
  obtain ⟨bc, ec⟩ := hc
  obtain ⟨bd, ed⟩ := hd
  obtain ⟨bi, ei⟩ := hi
  unfold Selector.isValid
  rw [er, run_bind_ok]
  cases br with
  | false => exact ⟨_, rfl⟩
  | true =>
    rw [if_pos rfl, ec, run_bind_ok]
    cases bc with
    | false => exact ⟨_, rfl⟩
    | true =>
      rw [if_pos rfl, ed, run_bind_ok]
      cases bd with
      | false => exact ⟨_, rfl⟩
      | true => exact ⟨bi, ei⟩

theorem selected_eq (sel : Selector K) (hs : sel.Usable) (ts : Timestep K) (hw : ts.Wf) {i : ℕ}
    (hi : i < ts.position.length) : ts.selected sel i = .ok (ts.chosen sel i) := by
  obtain ⟨_, w2, w3, w4, w5, _⟩ := hw
  obtain ⟨b, hb⟩ := isValid_total sel hs (ts.radius.getD i F.nan) (ts.clouds.getD i F.nan) (ts.density.getD i F.nan)
    (ts.pid i).toUsize
  have hch : ts.chosen sel i = b := by
    unfold Timestep.chosen
    rw [hb]
    cases b <;> rfl
  unfold Timestep.selected
  rw [at_ok (w2 ▸ hi) F.nan, run_bind_ok, at_ok (w4 ▸ hi) F.nan, run_bind_ok, at_ok (w5 ▸ hi) F.nan, run_bind_ok,
    at_ok (w3 ▸ hi) F.nan, run_bind_ok, hch]
  exact hb

theorem forParticles_eq {σ : Type} (sel : Selector K) (hs : sel.Usable) (ts : Timestep K) (hw : ts.Wf)
    (body : σ → ℕ → Run σ) (s : σ) :
    forParticles sel ts body s = ((List.range ts.position.length).filter (ts.chosen sel)).foldlM body s := by
  unfold forParticles
  rw [← foldlM_filter_run]
  apply foldlM_congr
  intro s i hi
  rw [selected_eq sel hs ts hw (List.mem_range.1 hi), run_bind_ok]

theorem sampleStep_eq {σ : Type} (sel : Selector K) (hs : sel.Usable) (ts : Timestep K) (hw : ts.Wf)
    (body : σ → Timestep K → ℕ → Run σ) (s : σ) :
    sampleStep sel body s ts = (ts.picks sel).foldlM (fun s i => body s ts i) s := by
  unfold sampleStep Timestep.picks
  by_cases h : sel.timestepValid ts.time = true
  · rw [if_pos h, if_pos h, forParticles_eq sel hs ts hw]
  · rw [if_neg h, if_neg h]; rfl

/-- Folding over all timesteps is folding over all samples. -/
theorem steps_samples {σ : Type} (sel : Selector K) (hs : sel.Usable) (file : ℕ → Timestep K) (l : List ℕ)
    (hw : ∀ t ∈ l, (file t).Wf) (body : σ → Timestep K → ℕ → Run σ) (s : σ) :
    l.foldlM (fun s t => sampleStep sel body s (file t)) s =
      (samples sel file l).foldlM (fun s x => body s (file x.1) x.2) s := by
  induction l generalizing s with
  | nil => rfl
  | cons t l ih =>
    unfold samples
    rw [List.flatMap_cons, foldlM_append_run, foldlM_map_run, List.foldlM_cons,
      sampleStep_eq sel hs _ (hw t (by simp))]
    cases h : ((file t).picks sel).foldlM (fun s i => body s (file t) i) s with
    | error e => rfl
    | ok s' => exact ih (fun t ht => hw t (by simp [ht])) s'

/-- `get_timestep` loops: each body sees the stored timestep; the manager stays a manager of the same file. -/
theorem forSteps_eq [LawfulArith K] {σ : Type} (p : Profile) (l : List ℕ) (body : σ → ℕ → Timestep K → Run σ)
    (d : Dm (Timestep K)) (hd : d.Inv) (hl : ∀ t ∈ l, t < d.n) (s : σ) :
    ∃ b, (Buf.Good d.file d.n b) ∧
      (d.n ≤ BUFFERSIZE → d.main.lo = 0 → d.main.hi = d.n → b.lo = 0 ∧ b.hi = d.n) ∧
      d.forSteps p l body s = (l.foldlM (fun s t => body s t (d.file t)) s >>= fun s => .ok ({ d with main := b }, s)) := by
  induction l generalizing d s with
  | nil => exact ⟨d.main, hd.1, fun _ h1 h2 => ⟨h1, h2⟩, rfl⟩
  | cons t l ih =>
    obtain ⟨b, e, hb, hbw⟩ := Dm.get_ok (K := K) p d hd t (hl t (by simp))
    unfold Dm.forSteps at ih ⊢
    rw [List.foldlM_cons, List.foldlM_cons]
    rw [show (do
        let r ← (d, s).1.get K p t
        let s ← body (d, s).2 t r.2
        pure (r.1, s)) = (body s t (d.file t) >>= fun s' => pure ({ d with main := b }, s')) by rw [e]; rfl]
    cases h : body s t (d.file t) with
    | error er => exact ⟨d.main, hd.1, fun _ h1 h2 => ⟨h1, h2⟩, rfl⟩
    | ok s' =>
      obtain ⟨b', hb', hbw', e'⟩ := ih { d with main := b } ⟨hb, hd.2⟩ (fun t ht => hl t (by simp [ht])) s'
      refine ⟨b', hb', fun h1 h2 h3 => hbw' h1 (hbw h1 h2 h3).1 (hbw h1 h2 h3).2, ?_⟩
      simp only [run_bind_ok, run_pure]
      exact e'

theorem allSteps_eq (p : Profile) (d : Dm (Timestep K)) (hd : d.Inv) : d.allSteps p = .ok (List.range d.n) := by
  obtain ⟨⟨h1, h2, _⟩, _, hn⟩ := hd
  unfold Dm.allSteps
  rw [usub_ok p (by omega) (by omega), run_bind_ok]
  have : d.n - 1 + 1 = d.n := by omega
  rw [this]; rfl

theorem stepsBut_eq (p : Profile) (d : Dm (Timestep K)) (hd : d.Inv) {k : ℕ} (hk : k ≤ d.n) :
    d.stepsBut p k = .ok (List.range (d.n - k)) := by
  obtain ⟨_, _, hn⟩ := hd
  unfold Dm.stepsBut
  rw [usub_ok p hk (by omega), run_bind_ok]
  rfl

/-- The standard analysis loop over all timesteps. -/
theorem loop_eq [LawfulArith K] {σ : Type} (p : Profile) (sel : Selector K) (hs : sel.Usable) (d : Dm (Timestep K))
    (hd : d.Inv) (hw : ∀ t, t < d.n → (d.file t).Wf) (l : List ℕ) (hl : ∀ t ∈ l, t < d.n)
    (body : σ → Timestep K → ℕ → Run σ) (s : σ) :
    ∃ b, (Buf.Good d.file d.n b) ∧
      (d.n ≤ BUFFERSIZE → d.main.lo = 0 → d.main.hi = d.n → b.lo = 0 ∧ b.hi = d.n) ∧
      d.forSteps p l (fun s _ ts => sampleStep sel body s ts) s =
        ((samples sel d.file l).foldlM (fun s x => body s (d.file x.1) x.2) s >>= fun s => .ok ({ d with main := b }, s)) := by
  obtain ⟨b, h1, h2, h3⟩ := forSteps_eq (K := K) p l (fun s _ ts => sampleStep sel body s ts) d hd hl s
  refine ⟨b, h1, h2, ?_⟩
  rw [h3, steps_samples sel hs d.file l (fun t ht => hw t (hl t ht))]

/-! ### Grids an analysis can fill -/

/-- The lookup of every position the grid calls inside succeeds and is a cell. -/
def Geom.Sound (p : Profile) (g : Geom K) : Prop :=
  ∀ pos, g.isInside pos = true → ∃ c, g.cellId p pos = .ok (some c) ∧ InB g.cells c

/-- A grid an analysis can fill: arrays of the declared shape, lookups of inside positions succeed. -/
def Grid.Fillable (p : Profile) (g : Grid K) : Prop := g.Shaped ∧ g.geom.Sound p

theorem Geom.Sound.lookupOk {p : Profile} {g : Geom K} (h : g.Sound p) {pos : Pos K} (hp : g.isInside pos = true) :
    g.LookupOk p pos := by
  obtain ⟨c, e, hb⟩ := h pos hp
  exact ⟨some c, e, fun c' hc => by cases hc; exact hb⟩

theorem Geom.Sound.isSome {p : Profile} {g : Geom K} (h : g.Sound p) {pos : Pos K} (hp : g.isInside pos = true) :
    ∃ c, g.lookup p pos = some c ∧ InB g.cells c := by
  obtain ⟨c, e, hb⟩ := h pos hp
  exact ⟨c, Geom.lookup_eq e, hb⟩

/-- Cartesian grids with `1 … 2^53` cells per axis are fillable, in any lawful arithmetic. -/
theorem fillable_cart [LawfulArith K] (p : Profile) (g : Grid K) (hg : IsCart g) : g.Fillable p := by
  refine ⟨hg.2.2, fun pos hin => ?_⟩
  obtain ⟨⟨cg, hcg⟩, hc, _⟩ := hg
  rw [hcg] at hc hin ⊢
  have h1 := Geom.cart_lookupOk p cg hc pos
  have h2 := (Geom.cart_lookup_isSome p cg hc pos).2 ((CartGeom.isInside_iff cg pos).1 hin)
  obtain ⟨c, h⟩ := Option.isSome_iff_exists.1 h2
  exact ⟨c, by rw [h1.cellId_eq, h], h1.inB h⟩

/-- Cylindrical grids over a non-empty finite box are fillable in exact arithmetic. -/
theorem fillable_cyl [LawfulArith K] [ExactArith K] (p : Profile) (cells : CellId) (hc : CellsOk cells) (lo hi : Fin 3 → K)
    (hlt : ∀ a, lo a < hi a) : (Grid.newCyl cells (finLimits lo hi)).Fillable p := by
  refine ⟨⟨rfl, rfl⟩, fun pos hin => ?_⟩
  obtain ⟨c, s, h1, h2, _⟩ := C20_lookup cells hc lo hi hlt pos hin
  exact ⟨c, h1, h2⟩

/-- A conditional `add_value` loop is `addAll` of the accepted pairs. -/
theorem foldlM_addAll {α : Type} (p : Profile) (l : List α) (c : α → Bool) (f : α → Pos K × F K) (g : Grid K) :
    l.foldlM (fun g a => if c a then g.addValue p (f a).1 (f a).2 else pure g) g = g.addAll p ((l.filter c).map f) := by
  rw [foldlM_filter_run]
  unfold Grid.addAll
  rw [foldlM_map_run]

theorem newZeros_shaped {g : Grid K} (h : g.Shaped) : g.newZeros.Shaped := ⟨rfl, h.2⟩

end Up4
