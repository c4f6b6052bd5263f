import Verif.Props.Nothing
import Verif.Props.TwoBoundary
import Verif.Props.Selector

/-!
C130: narrowing the selection never adds anything: no count of any cell or bin grows, and the circulations reported for some of the
particles are among those reported for all. It fails for the code when a radius range is added to a list of densities: the
density test then turns into a range test whose upper end is the largest radius.
-/

set_option linter.unusedSectionVars false

namespace Up4

open F
open Selector (at')

variable {K : Type} [Field K] [LinearOrder K] [IsStrictOrderedRing K] [FloorRing K] [Arith K]

/-- Whatever particle of the dataset the selection `s'` takes, `s` takes too. -/
def Narrower (s' s : Selector K) (d : Dm (Timestep K)) : Prop :=
  ∀ t, t < d.n → s'.timestepValid (d.file t).time = true → ∀ i, i < (d.file t).position.length → (d.file t).chosen s' i = true →
    s.timestepValid (d.file t).time = true ∧ (d.file t).chosen s i = true

theorem Narrower.picks {s' s : Selector K} {d : Dm (Timestep K)} (h : Narrower s' s d) {t : ℕ} (ht : t < d.n) :
    ((d.file t).picks s').Sublist ((d.file t).picks s) := by
  unfold Timestep.picks
  by_cases h1 : s'.timestepValid (d.file t).time = true
  · rw [if_pos h1]
    by_cases h2 : s.timestepValid (d.file t).time = true
    · rw [if_pos h2]
      have : (List.range (d.file t).position.length).filter ((d.file t).chosen s') =
          ((List.range (d.file t).position.length).filter ((d.file t).chosen s)).filter ((d.file t).chosen s') := by
        rw [List.filter_filter]
        apply List.filter_congr
        intro i hi
        cases hc : (d.file t).chosen s' i with
        | false => simp
        | true => simp [(h t ht h1 i (List.mem_range.1 hi) hc).2]
      rw [this]
      exact List.filter_sublist
    · rw [if_neg h2]
      have : (List.range (d.file t).position.length).filter ((d.file t).chosen s') = [] := by
        rw [List.filter_eq_nil_iff]
        intro i hi hc
        exact h2 (h t ht h1 i (List.mem_range.1 hi) hc).1
      rw [this]
  · rw [if_neg h1]; exact List.nil_sublist _

theorem Narrower.samples {s' s : Selector K} {d : Dm (Timestep K)} (h : Narrower s' s d) (l : List ℕ) (hl : ∀ t ∈ l, t < d.n) :
    (Up4.samples s' d.file l).Sublist (Up4.samples s d.file l) := by
  unfold Up4.samples
  induction l with
  | nil => exact List.Sublist.refl _
  | cons t l ih =>
    rw [List.flatMap_cons, List.flatMap_cons]
    exact ((h.picks (hl t List.mem_cons_self)).map _).append (ih fun u hu => hl u (List.mem_cons_of_mem _ hu))

theorem Narrower.all {s' s : Selector K} {d : Dm (Timestep K)} (h : Narrower s' s d) : (d.samples s').Sublist (d.samples s) :=
  h.samples _ fun _ ht => List.mem_range.1 ht

theorem fin_le_nat {a b : ℕ} (h : a ≤ b) : (fin (a : K) : F K) ≤ fin (b : K) := by
  rw [F.le_fin]; exact_mod_cast h

/-- **C130 (partial): counts.** In every cell, `numberfield` and the numbers of samples (the weights) of `velocityfield`, `vectorfield` and
`concentration_field` are at most those of the wider selection. -/
theorem C130_fields_partial [LawfulArith K] (p : Profile) (d : Dm (Timestep K)) (hd : d.Inv) (grid : Grid K)
    (hg : grid.Fillable p) (hfresh : ∀ c, grid.st.weight.get c = 0 ∧ grid.st.data.get c = 0)
    (s' s : Selector K) (hs' : s'.Usable) (hs : s.Usable) (hw : ∀ t, t < d.n → (d.file t).Wf)
    (hlen : (d.samples s).length ≤ 2 ^ 52) (h : Narrower s' s d) :
    (∃ d₁ g₁ d₂ g₂, numberfield p d grid s' = .ok (d₁, g₁) ∧ numberfield p d grid s = .ok (d₂, g₂) ∧
      ∀ c, g₁.st.data.get c ≤ g₂.st.data.get c) ∧
    (∀ (mode : String) (vcal : (Fin 3 → F K) → F K) (lo hi : F K), velMode mode = .ok vcal → lo ≠ F.nan → hi ≠ F.nan →
      ∃ d₁ g₁ d₂ g₂, velocityfield p d grid s' mode lo hi = .ok (d₁, g₁) ∧ velocityfield p d grid s mode lo hi = .ok (d₂, g₂) ∧
      ∀ c, InB grid.geom.cells c → g₁.st.weight.get c ≤ g₂.st.weight.get c) ∧
    (∃ d₁ g₁ d₂ g₂, vectorfield p d grid s' = .ok (d₁, g₁) ∧ vectorfield p d grid s = .ok (d₂, g₂) ∧
      ∀ a c, InB grid.geom.cells c → (g₁.comp a).st.weight.get c ≤ (g₂.comp a).st.weight.get c) ∧
    (∀ a b, a ≠ b → ∃ d₁ g₁ d₂ g₂, concentrationField p d grid s' a b = .ok (d₁, g₁) ∧ concentrationField p d grid s a b = .ok (d₂, g₂) ∧
      ∀ c, InB grid.geom.cells c → g₁.st.weight.get c ≤ g₂.st.weight.get c) := by
  have sub := h.all
  have hl : (d.samples s).length ≤ 2 ^ 53 := hlen.trans (by norm_num)
  have hl' : (d.samples s').length ≤ 2 ^ 53 := sub.length_le.trans hl
  refine ⟨?_, fun mode vcal lo hi hm hlo hhi => ?_, ?_, fun a b hab => ?_⟩
  · obtain ⟨d₁, g₁, e₁, _, _, _, _, _, k₁, _⟩ := C34_numberfield p d hd grid hg s' hs' hw hl'
    obtain ⟨d₂, g₂, e₂, _, _, _, _, _, k₂, _⟩ := C34_numberfield p d hd grid hg s hs hw hl
    refine ⟨d₁, g₁, d₂, g₂, e₁, e₂, fun c => ?_⟩
    rw [k₁ c, k₂ c]
    exact fin_le_nat (sub.countP_le)
  · obtain ⟨d₁, g₁, e₁, _, _, _, _, k₁⟩ := C35_velocityfield p d hd grid hg (fun c => (hfresh c).1) s' hs' hw hl' mode vcal hm lo hi hlo hhi
    obtain ⟨d₂, g₂, e₂, _, _, _, _, k₂⟩ := C35_velocityfield p d hd grid hg (fun c => (hfresh c).1) s hs hw hl mode vcal hm lo hi hlo hhi
    refine ⟨d₁, g₁, d₂, g₂, e₁, e₂, fun c hc => ?_⟩
    rw [(k₁ c hc).1, (k₂ c hc).1]
    refine fin_le_nat ?_
    rw [List.length_map, List.length_map]
    exact (sub.filter _).length_le
  · obtain ⟨d₁, g₁, e₁, _, _, _, k₁⟩ := C36_vectorfield p d hd grid hg hfresh s' hs' hw hl'
    obtain ⟨d₂, g₂, e₂, _, _, _, k₂⟩ := C36_vectorfield p d hd grid hg hfresh s hs hw hl
    refine ⟨d₁, g₁, d₂, g₂, e₁, e₂, fun a c hc => ?_⟩
    rw [((k₁ a).2 c hc).1, ((k₂ a).2 c hc).1]
    exact fin_le_nat (sub.filter _).length_le
  · have hr : ∀ t ∈ List.range (d.n - 1), t < d.n := fun t ht => by have := List.mem_range.1 ht; omega
    have sub1 := h.samples (List.range (d.n - 1)) hr
    have le1 : (Up4.samples s d.file (List.range (d.n - 1))).length ≤ 2 ^ 52 := by
      refine le_trans ?_ hlen
      unfold Dm.samples Up4.samples
      have hsub : (List.range (d.n - 1)).Sublist (List.range d.n) := List.range_sublist.2 (by omega)
      exact (List.Sublist.flatMap hsub _).length_le
    obtain ⟨d₁, g₁, e₁, _, _, _, _, _, k₁⟩ := C43_concentration p d hd grid hg s' hs' hw a b hab (sub1.length_le.trans le1)
    obtain ⟨d₂, g₂, e₂, _, _, _, _, _, k₂⟩ := C43_concentration p d hd grid hg s hs hw a b hab le1
    refine ⟨d₁, g₁, d₂, g₂, e₁, e₂, fun c hc => ?_⟩
    rw [(k₁ c hc).2.2 (fun c => (hfresh c).1), (k₂ c hc).2.2 (fun c => (hfresh c).1)]
    exact fin_le_nat (Nat.add_le_add sub1.countP_le sub1.countP_le)

/-- **C130 (partial): histogram.** No bin of `histogram` grows; the edges are the same. -/
theorem C130_histogram_partial [LawfulArith K] (p : Profile) (d : Dm (Timestep K)) (hd : d.Inv) (st : Stats K) (grid : Grid K)
    (s' s : Selector K) (hs' : s'.Usable) (hs : s.Usable) (hw : ∀ t, t < d.n → (d.file t).Wf)
    (hlen : (d.samples s).length ≤ 2 ^ 53) (h : Narrower s' s d)
    (maxLimit : F K) (bins : ℕ) (hb : 1 ≤ bins) (hb' : bins ≤ 2 ^ 53) :
    ∃ d₁ d₂ e, ∃ c₁ c₂ : Arr 1 (F K), histogram p d st grid s' "velocity" maxLimit bins = .ok (d₁, c₁, e) ∧
      histogram p d st grid s "velocity" maxLimit bins = .ok (d₂, c₂, e) ∧ ∀ k, k < bins → c₁.get ![k] ≤ c₂.get ![k] := by
  obtain ⟨d₁, c₁, e₁, _, _, _, _, k₁⟩ := histogram_run p d hd st grid s' hs' hw (h.all.length_le.trans hlen) maxLimit bins hb hb'
  obtain ⟨d₂, c₂, e₂, _, _, _, _, k₂⟩ := histogram_run p d hd st grid s hs hw hlen maxLimit bins hb hb'
  refine ⟨d₁, d₂, _, c₁, c₂, e₁, e₂, fun k hk => ?_⟩
  rw [k₁ k hk, k₂ k hk]
  exact fin_le_nat h.all.countP_le

/-! ### Circulations -/

/-- The selection `s'` takes exactly those particles of `s` whose place in the file is in `keep`, in every timestep, with
the same time window: a selection of whole trajectories. -/
structure OnlyThese (keep : ℕ → Bool) (s' s : Selector K) (d : Dm (Timestep K)) : Prop where
  window : ∀ t, t < d.n → s'.timestepValid (d.file t).time = s.timestepValid (d.file t).time
  chosen : ∀ t, t < d.n → ∀ i, i < (d.file t).position.length → (d.file t).chosen s' i = ((d.file t).chosen s i && keep i)

theorem OnlyThese.narrower {keep : ℕ → Bool} {s' s : Selector K} {d : Dm (Timestep K)} (h : OnlyThese keep s' s d) : Narrower s' s d := by
  intro t ht hv i hi hc
  rw [h.chosen t ht i hi, Bool.and_eq_true] at hc
  exact ⟨by rw [← h.window t ht]; exact hv, hc.1⟩

theorem OnlyThese.picks {keep : ℕ → Bool} {s' s : Selector K} {d : Dm (Timestep K)} (h : OnlyThese keep s' s d) {t : ℕ} (ht : t < d.n) :
    (d.file t).picks s' = ((d.file t).picks s).filter keep := by
  unfold Timestep.picks
  rw [h.window t ht]
  split_ifs
  · rw [List.filter_filter]
    apply List.filter_congr
    intro i hi
    rw [h.chosen t ht i (List.mem_range.1 hi), Bool.and_comm]
  · rfl

theorem filter_flatMap_map {α β γ : Type} (f : α → List β) (g : α → β → γ) (P : β → Bool) (Q : γ → Bool)
    (hQ : ∀ a b, Q (g a b) = P b) (l : List α) :
    (l.flatMap fun a => (f a).map (g a)).filter Q = l.flatMap fun a => ((f a).filter P).map (g a) := by
  induction l with
  | nil => rfl
  | cons a l ih =>
    rw [List.flatMap_cons, List.flatMap_cons, List.filter_append, ih, List.filter_map]
    congr 3
    funext b
    exact hQ a b

theorem OnlyThese.observations {keep : ℕ → Bool} {s' s : Selector K} {d : Dm (Timestep K)} (h : OnlyThese keep s' s d) (old : ℕ) (l : List ℕ)
    (hl : ∀ t ∈ l, t < d.n) :
    Up4.observations s' d.file old l = (Up4.observations s d.file old l).filter fun o => keep o.2.2 := by
  unfold Up4.observations
  have e : (l.filter fun t => s'.timestepValid (d.file t).time) = l.filter fun t => s.timestepValid (d.file t).time :=
    List.filter_congr fun t ht => h.window t (hl t ht)
  rw [e, filter_flatMap_map (fun x : ℕ × ℕ => (d.file x.2).picks s) (fun x i => (x.1, x.2, i)) keep _ (fun _ _ => rfl)]
  rw [List.flatMap_def, List.flatMap_def]
  congr 1
  apply List.map_congr_left
  intro x hx
  have hx2 : x.2 ∈ l := (List.mem_filter.1 (List.of_mem_zip hx).2).1
  rw [h.picks (hl _ hx2)]

/-- Slots that are not fed do not matter to the others. -/
theorem slots_filter {S α β : Type} (idx : α → ℕ) (f : S → α → S × Option β) (s0 : S) (keep : ℕ → Bool) (l : List α) :
    let r := l.foldl (slotStep idx f) (fun _ => s0, [])
    let r' := (l.filter fun a => keep (idx a)).foldl (slotStep idx f) (fun _ => s0, [])
    (∀ i, keep i = true → r'.1 i = r.1 i) ∧ r'.2.Sublist r.2 := by
  induction l using List.reverseRecOn with
  | nil => exact ⟨fun _ _ => rfl, List.Sublist.refl _⟩
  | append_singleton l a ih =>
    dsimp only at ih ⊢
    obtain ⟨h1, h2⟩ := ih
    rw [List.filter_append, List.foldl_append, List.foldl_append]
    set r := l.foldl (slotStep idx f) (fun _ => s0, [])
    set r' := (l.filter fun a => keep (idx a)).foldl (slotStep idx f) (fun _ => s0, [])
    by_cases hk : keep (idx a) = true
    · rw [List.filter_cons_of_pos (p := fun a => keep (idx a)) hk, List.filter_nil, List.foldl_cons, List.foldl_nil, List.foldl_cons, List.foldl_nil]
      unfold slotStep
      dsimp only
      rw [h1 _ hk]
      refine ⟨fun i hi => ?_, h2.append (List.Sublist.refl _)⟩
      by_cases hi' : i = idx a
      · subst hi'; rw [Function.update_self, Function.update_self]
      · rw [Function.update_of_ne hi', Function.update_of_ne hi']; exact h1 i hi
    · rw [List.filter_cons_of_neg (p := fun a => keep (idx a)) hk, List.filter_nil, List.foldl_nil, List.foldl_cons, List.foldl_nil]
      unfold slotStep
      dsimp only
      refine ⟨fun i hi => ?_, h2.trans (List.sublist_append_left _ _)⟩
      rw [Function.update_of_ne (by rintro rfl; exact hk hi)]
      exact h1 i hi

theorem watched_wf {s : Selector K} {d : Dm (Timestep K)} (hd : d.Inv) (hw : ∀ t, t < d.n → (d.file t).Wf) (m : ℕ)
    (hm : Steady d.file d.n m) (st : Stats K) (hnp : m ≤ st.nparticles + 1) (o : Obs) (ho : o ∈ watched s d) :
    (d.file o.1).Wf ∧ (d.file o.2.1).Wf ∧ o.2.2 < (d.file o.1).position.length ∧ o.2.2 < (d.file o.2.1).position.length ∧
      o.2.2 < st.nparticles + 1 := by
  obtain ⟨h1, h2, h3⟩ := watched_ok s d hd m hm o ho
  exact ⟨hw _ h1, hw _ h2, by rw [hm _ h1]; exact h3, by rw [hm _ h2]; exact h3, by omega⟩

/-- **C130 (partial): circulation times.** Selecting some of the trajectories: the circulation times reported are among those
reported for all, in the same order; so are the intervals of `circulation_time_two_boundary`. -/
theorem C130_circulation_partial [LawfulArith K] (p : Profile) (d : Dm (Timestep K)) (hd : d.Inv) (st : Stats K)
    (s' s : Selector K) (hs' : s'.Usable) (hs : s.Usable) (hw : ∀ t, t < d.n → (d.file t).Wf) (m : ℕ) (hm : Steady d.file d.n m)
    (hnp : m ≤ st.nparticles + 1) (keep : ℕ → Bool) (h : OnlyThese keep s' s d) (axis : Fin 3) :
    (∀ bound, ¬ (bound > (st.dims axis).2 ∨ bound < (st.dims axis).1) →
      ∃ o' o, answerOf (circulationTime p d st s' axis bound) = .ok o' ∧ answerOf (circulationTime p d st s axis bound) = .ok o ∧
        o'.Sublist o) ∧
    (∀ lo hi, ¬ (lo > (st.dims axis).2 ∨ lo < (st.dims axis).1) → ¬ (hi > (st.dims axis).2 ∨ hi < (st.dims axis).1) →
      ∃ o' o, answerOf (circulationTwoBoundary p d st s' axis lo hi) = .ok o' ∧
        answerOf (circulationTwoBoundary p d st s axis lo hi) = .ok o ∧ o'.Sublist o) := by
  have hr : ∀ t ∈ List.range' 1 (d.n - 2), t < d.n := fun t ht => by have := List.mem_range'_1.1 ht; omega
  have ho : watched s' d = (watched s d).filter fun o => keep o.2.2 := h.observations 0 _ hr
  refine ⟨fun bound hb => ?_, fun lo hi hb hb' => ?_⟩
  · have run : ∀ σ : Selector K, σ.Usable → answerOf (circulationTime p d st σ axis bound) =
        .ok ((watched σ d).foldl (slotStep (fun o : Obs => o.2.2) (crossObs d.file axis bound)) (fun _ => ⟨0, 0⟩, [])).2 := by
      intro σ hσ
      unfold circulationTime
      rw [if_neg hb, circ_answer p d hd hw σ hσ (circBody st.nparticles axis bound) ⟨fun _ => ⟨0, 0⟩, []⟩ (fun s : Circ K => s.out)]
      have := circ_fold st.nparticles axis bound d.file (watched σ d) (watched_wf hd hw m hm st hnp) (fun _ => ⟨0, 0⟩, [])
      change (List.foldlM _ _ (watched σ d) >>= _) = _
      rw [this]; rfl
    refine ⟨_, _, run s' hs', run s hs, ?_⟩
    rw [ho]
    exact (slots_filter (fun o : Obs => o.2.2) (crossObs d.file axis bound) (⟨0, 0⟩ : Slot K) keep (watched s d)).2
  · have run : ∀ σ : Selector K, σ.Usable → answerOf (circulationTwoBoundary p d st σ axis lo hi) =
        .ok ((watched σ d).foldl (slotStep (fun o : Obs => o.2.2) (twoOf d.file axis lo hi)) (fun _ => ⟨0, 0, 0⟩, [])).2 := by
      intro σ hσ
      unfold circulationTwoBoundary
      rw [if_neg hb, if_neg hb', circ_answer p d hd hw σ hσ (circ2Body st.nparticles axis lo hi) ⟨fun _ => ⟨0, 0, 0⟩, []⟩ (fun s : Circ2 K => s.out)]
      have := circ2_fold st.nparticles axis lo hi d.file (watched σ d) (watched_wf hd hw m hm st hnp) (fun _ => ⟨0, 0, 0⟩, [])
      change (List.foldlM _ _ (watched σ d) >>= _) = _
      rw [this]; rfl
    refine ⟨_, _, run s' hs', run s hs, ?_⟩
    rw [ho]
    exact (slots_filter (fun o : Obs => o.2.2) (twoOf d.file axis lo hi) (⟨0, 0, 0⟩ : Slot2 K) keep (watched s d)).2

/-! ### Narrower settings -/

/-- The settings for which the filters mean what they say (`C26_valid_partial`): all filters non-empty, and a list of clouds or
densities that is not a single value goes with a radius filter of the same kind. -/
structure Selector.Sane (s : Selector K) : Prop where
  usable : s.Usable
  clouds : s.clouds.length ≠ 1 → (s.radius.length = 2 ↔ s.clouds.length = 2)
  density : s.density.length ≠ 1 → (s.radius.length = 2 ↔ s.density.length = 2)
  upper : s.density.length = 2 → s.radius[1]? = s.density[1]?

/-- The filter `l'` lets through nothing that `l` stops. -/
def TighterF (l' l : List (F K)) : Prop := ∀ x, (OffF l' ∨ AcceptsF l' x) → (OffF l ∨ AcceptsF l x)
/-- The same for ids. -/
def TighterId (l' l : List ℕ) : Prop := ∀ x, (OffId l' ∨ AcceptsId l' x) → (OffId l ∨ AcceptsId l x)

/-- **C130 (partial): settings.** Tightening the filters and shrinking the window narrows the selection, as long as both settings
mean what they say. -/
theorem C130_settings_partial (s' s : Selector K) (h' : s'.Sane) (h : s.Sane) (hr : TighterF s'.radius s.radius)
    (hc : TighterF s'.clouds s.clouds) (hd : TighterF s'.density s.density) (hi : TighterId s'.particleid s.particleid)
    (hlo : s.time.1 ≤ s'.time.1) (hhi : s'.time.2 ≤ s.time.2) (d : Dm (Timestep K)) : Narrower s' s d := by
  intro t _ hv i _ hcho
  constructor
  · simp only [Selector.timestepValid, Bool.and_eq_true, decide_eq_true_iff] at hv ⊢
    exact ⟨F.le_trans' hlo hv.1, F.le_trans' hv.2 hhi⟩
  · unfold Timestep.chosen at hcho ⊢
    obtain ⟨b', e', k'⟩ := C26_valid_partial s' h'.usable.1 h'.usable.2.1 h'.usable.2.2.1 h'.usable.2.2.2 h'.clouds h'.density h'.upper
      ((d.file t).radius.getD i F.nan) ((d.file t).clouds.getD i F.nan) ((d.file t).density.getD i F.nan) ((d.file t).pid i).toUsize
    obtain ⟨b, e, k⟩ := C26_valid_partial s h.usable.1 h.usable.2.1 h.usable.2.2.1 h.usable.2.2.2 h.clouds h.density h.upper
      ((d.file t).radius.getD i F.nan) ((d.file t).clouds.getD i F.nan) ((d.file t).density.getD i F.nan) ((d.file t).pid i).toUsize
    rw [e'] at hcho
    rw [e]
    have hb' : b' = true := by
      cases b'
      · simp [BEq.beq] at hcho
      · rfl
    obtain ⟨q1, q2, q3, q4⟩ := k'.1 hb'
    have hb : b = true := k.2 ⟨hr _ q1, hc _ q2, hd _ q3, hi _ q4⟩
    rw [hb]; rfl

/-- A smaller range is a tighter filter; so is any filter compared with one that is switched off. -/
theorem tighter_range {a b a' b' : F K} (ha : a ≤ a') (hb : b' ≤ b) (hoff : a' ≠ -1) : TighterF [a', b'] [a, b] := by
  rintro x (h | ⟨hn, h⟩)
  · exact absurd (Option.some.inj h) hoff
  · refine Or.inr ⟨hn, Or.inr (Or.inl ⟨a, b, rfl, ?_⟩)⟩
    rcases h with ⟨v, e, _⟩ | ⟨u, v, e, h1, h2⟩ | ⟨e, _⟩
    · simp at e
    · simp at e
      obtain ⟨rfl, rfl⟩ := e
      exact ⟨F.le_trans' ha h1, F.le_trans' h2 hb⟩
    · simp at e

theorem tighter_off {l' l : List (F K)} (h : OffF l) : TighterF l' l := fun _ _ => Or.inl h

/-! ### A case, and the refutation -/

/-- One particle of radius 1 and density 5 resting at the origin of the unit cube. -/
def denseStep : Timestep K := { (oneStep : Timestep K) with density := [fin 5] }

/-- Densities 1, 2 or 3. -/
def light : Selector K := { (Selector.default : Selector K) with density := [fin 1, fin 2, fin 3] }

/-- Densities 1, 2 or 3 and radii between 0 and 8. -/
def lightSmall : Selector K := { (light : Selector K) with radius := [fin 0, fin 8] }

theorem eqB_ne [LawfulArith K] {x y : K} (h : x ≠ y) : F.eqB (fin x) (fin y) = false := by
  rw [← Bool.not_eq_true, eqB_iff]
  rintro ⟨h', _⟩
  injection h' with h'
  exact h h'

theorem dense_light [LawfulArith K] : (denseStep (K := K)).chosen light 0 = false ∧ (denseStep (K := K)).chosen lightSmall 0 = true := by
  have km : (-1 : F K) = fin (-1) := by rw [F.one_def]; rfl
  have k0 : F.eqB (fin 0 : F K) (-1) = false := by rw [km]; exact eqB_ne (by norm_num)
  have k1 : F.eqB (fin 1 : F K) (-1) = false := by rw [km]; exact eqB_ne (by norm_num)
  have km1 : F.eqB (-1 : F K) (-1) = true := (eqB_iff _ _).2 ⟨rfl, neg_one_ne_nan⟩
  have a1 : F.eqB (fin 1 : F K) (fin 5) = false := eqB_ne (by norm_num)
  have a2 : F.eqB (fin 2 : F K) (fin 5) = false := eqB_ne (by norm_num)
  have a3 : F.eqB (fin 3 : F K) (fin 5) = false := eqB_ne (by norm_num)
  have b1 : (fin 0 : F K) ≤ fin 1 := by rw [F.le_fin]; norm_num
  have b2 : (fin 1 : F K) ≤ fin 8 := by rw [F.le_fin]; norm_num
  have b3 : (fin 1 : F K) ≤ fin 5 := by rw [F.le_fin]; norm_num
  have b4 : (fin 5 : F K) ≤ fin 8 := by rw [F.le_fin]; norm_num
  constructor
  · simp [Timestep.chosen, light, denseStep, oneStep, Selector.isValid, Selector.default, Selector.isRadiusValid, Selector.isCloudValid,
      Selector.isDensityValid, Selector.at', bind, Except.bind, pure, Except.pure, Selector.containsF, k1, km1, a1, a2, a3]
  · simp [Timestep.chosen, lightSmall, light, denseStep, oneStep, Selector.isValid, Selector.default, Selector.isRadiusValid, Selector.isCloudValid,
      Selector.isDensityValid, Selector.isParticleidValid, Selector.at', bind, Except.bind, pure, Except.pure, k0, k1, km1, b1, b2, b3, b4]

/-- **C130, refuted.** A particle of density 5, and the selection of the densities 1, 2 and 3: `numberfield` counts nothing. Asking in
addition for radii between 0 and 8 makes it count the particle. -/
theorem C130_false [LawfulArith K] (p : Profile) (kind : Kind) :
    ∃ d : Dm (Timestep K), Dm.new p kind (fun _ => denseStep) 1 Timestep.default = .ok d ∧
      (light : Selector K).radius = [-1] ∧ lightSmall = { (light : Selector K) with radius := [fin 0, fin 8] } ∧
      (∃ d₁ g₁, numberfield p d unitGrid light = .ok (d₁, g₁) ∧ ∀ c, g₁.st.data.get c = fin 0) ∧
      ∃ d₂ g₂, numberfield p d unitGrid lightSmall = .ok (d₂, g₂) ∧ g₂.st.data.get (fun _ => 0) = fin 1 := by
  obtain ⟨d, e, hinv, hf, hn, _⟩ := Dm.new_ok p kind (fun _ => denseStep (K := K)) 1 Timestep.default (by norm_num) (by norm_num)
  have hw : ∀ t, t < d.n → (d.file t).Wf := fun t _ => by rw [hf]; exact ⟨rfl, rfl, rfl, rfl, rfl, rfl⟩
  have ht : (light : Selector K).timestepValid (denseStep (K := K)).time = true := one_time
  have ht' : (lightSmall : Selector K).timestepValid (denseStep (K := K)).time = true := one_time
  have s1 : d.samples light = [] := by
    unfold Dm.samples samples Timestep.picks
    rw [hf, hn]
    simp only [ht, if_true]
    simp [denseStep, oneStep]
    exact dense_light.1
  have s2 : d.samples lightSmall = [(0, 0)] := by
    unfold Dm.samples samples Timestep.picks
    rw [hf, hn]
    simp only [ht', if_true]
    simp [denseStep, oneStep]
    exact dense_light.2
  obtain ⟨d₁, g₁, e₁, _, _, _, _, _, k₁, _⟩ := C34_numberfield p d hinv unitGrid (fillable_cart p _ unit_isCart) light
    ⟨by simp [light, Selector.default], by simp [light, Selector.default], by simp [light], by simp [light, Selector.default]⟩ hw (by rw [s1]; norm_num)
  obtain ⟨d₂, g₂, e₂, _, _, _, _, _, k₂, _⟩ := C34_numberfield p d hinv unitGrid (fillable_cart p _ unit_isCart) lightSmall
    ⟨by simp [lightSmall], by simp [lightSmall, light, Selector.default], by simp [lightSmall, light], by simp [lightSmall, light, Selector.default]⟩
    hw (by rw [s2]; norm_num)
  refine ⟨d, e, rfl, rfl, ⟨d₁, g₁, e₁, fun c => ?_⟩, d₂, g₂, e₂, ?_⟩
  · rw [k₁ c, s1]; simp
  · rw [k₂, s2]
    have : inCell p (unitGrid (K := K)).geom (posOf d.file (0, 0)) (fun _ => 0) = true := by
      rw [hf]; exact unit_lookup p
    simp [this]

/-- Two particles, numbered 1 and 2, resting in the unit cube. -/
def twoRest (t : ℕ) : Timestep K :=
  ⟨fin (t : K), [fun _ => fin 0, fun _ => fin 1], [fun _ => fin 0, fun _ => fin 0], [fin 1, fin 1], [fin 1, fin 2], [fin 0, fin 0], [fin 0, fin 0],
    [fin 0, fin 0]⟩

/-- The window from 1 to 2. -/
def inWindow : Selector K := { (Selector.default : Selector K) with time := (fin 1, fin 2) }

/-- Particle number 2, within the window. -/
def onlyTwo : Selector K := { (inWindow : Selector K) with particleid := [2] }

theorem twoRest_window (t i : ℕ) : (twoRest (K := K) t).chosen inWindow i = true := chosen_default _ _

theorem twoRest_two (t i : ℕ) (hi : i < 2) : (twoRest (K := K) t).chosen onlyTwo i = decide (i = 1) := by
  have k : F.eqB (-1 : F K) (-1) = true := (eqB_iff _ _).2 ⟨rfl, neg_one_ne_nan⟩
  have t1 : (fin 1 : F K).toUsize = 1 := by simp [F.toUsize, F.usizeMax]
  have t2 : (fin 2 : F K).toUsize = 2 := by simp [F.toUsize, F.usizeMax]
  rcases Nat.lt_succ_iff_lt_or_eq.1 hi with h | h
  · have : i = 0 := by omega
    subst this
    simp [Timestep.chosen, onlyTwo, inWindow, twoRest, Selector.isValid, Selector.default, Selector.isRadiusValid, Selector.isCloudValid,
      Selector.isDensityValid, Selector.isParticleidValid, Selector.at', bind, Except.bind, pure, Except.pure, k, Timestep.pid, t1]
  · subst h
    simp [Timestep.chosen, onlyTwo, inWindow, twoRest, Selector.isValid, Selector.default, Selector.isRadiusValid, Selector.isCloudValid,
      Selector.isDensityValid, Selector.isParticleidValid, Selector.at', bind, Except.bind, pure, Except.pure, k, Timestep.pid, t2]

/-- Case for `C130_settings_partial`, `C130_fields_partial`, `C130_histogram_partial`, `C130_circulation_partial`: four timesteps of two particles; all of them, those in the window from 1 to 2, and particle number 2 in that
window. Each selection is narrower than the one before, the last takes one of the two trajectories; the selections differ. -/
theorem narrow_case (p : Profile) (kind : Kind) : ∃ d : Dm (Timestep ℝ), Dm.new p kind twoRest 4 Timestep.default = .ok d ∧
    Narrower inWindow Selector.default d ∧ OnlyThese (fun i => decide (i = 1)) onlyTwo inWindow d ∧ Narrower onlyTwo inWindow d ∧
    Steady d.file d.n 2 ∧ (∀ t, t < d.n → (d.file t).Wf) ∧
    (1, 1) ∈ d.samples onlyTwo ∧ (1, 0) ∉ d.samples onlyTwo ∧ (1, 0) ∈ d.samples inWindow ∧ (3, 0) ∉ d.samples inWindow := by
  obtain ⟨d, e, hinv, hf, hn, _⟩ := Dm.new_ok p kind (twoRest (K := ℝ)) 4 Timestep.default (by norm_num) (by norm_num)
  have win : ∀ (σ : Selector ℝ) (t : ℕ), σ.time = (fin 1, fin 2) → (σ.timestepValid (twoRest (K := ℝ) t).time = true ↔ 1 ≤ t ∧ t ≤ 2) := by
    intro σ t h
    unfold Selector.timestepValid
    rw [h]
    simp only [twoRest, Bool.and_eq_true, decide_eq_true_eq, ge_iff_le, F.le_fin]
    constructor
    · rintro ⟨h1, h2⟩; exact ⟨by exact_mod_cast h1, by exact_mod_cast h2⟩
    · rintro ⟨h1, h2⟩; exact ⟨by exact_mod_cast h1, by exact_mod_cast h2⟩
  have hO : OnlyThese (fun i => decide (i = 1)) onlyTwo inWindow d := by
    refine ⟨fun t _ => rfl, fun t _ i hi => ?_⟩
    rw [hf] at hi ⊢
    rw [twoRest_window, twoRest_two t i hi, Bool.true_and]
  have hmax : (1 : ℝ) ≤ Arith.maxK ∧ (2 : ℝ) ≤ Arith.maxK := by
    change (1 : ℝ) ≤ (2 ^ 53 - 1) * 2 ^ 971 ∧ (2 : ℝ) ≤ (2 ^ 53 - 1) * 2 ^ 971
    have h : (1 : ℝ) ≤ 2 ^ 971 := one_le_pow₀ (by norm_num)
    generalize (2 : ℝ) ^ 971 = x at h
    constructor <;> nlinarith
  have hSane : ∀ σ : Selector ℝ, σ.radius = [-1] → σ.clouds = [-1] → σ.density = [-1] → σ.particleid = [0] → σ.Sane := by
    intro σ h1 h2 h3 h4
    exact ⟨⟨by simp [h1], by simp [h2], by simp [h3], by simp [h4]⟩, by simp [h2], by simp [h3], by simp [h3]⟩
  refine ⟨d, e, ?_, hO, hO.narrower, fun t _ => by rw [hf]; rfl, fun t _ => by rw [hf]; exact ⟨rfl, rfl, rfl, rfl, rfl, rfl⟩, ?_, ?_, ?_, ?_⟩
  · refine C130_settings_partial inWindow Selector.default (hSane _ rfl rfl rfl rfl) (hSane _ rfl rfl rfl rfl) (tighter_off rfl) (tighter_off rfl) (tighter_off rfl)
      (fun _ _ => Or.inl rfl) ?_ ?_ d
    · change (fin (-Arith.maxK) : F ℝ) ≤ fin 1
      rw [F.le_fin]; linarith [hmax.1]
    · change (fin 2 : F ℝ) ≤ fin Arith.maxK
      rw [F.le_fin]; exact hmax.2
  · refine (mem_samples _ _ _ _ _).2 ⟨List.mem_range.2 (by omega), ?_, ?_, ?_⟩ <;> rw [hf]
    · exact (win _ 1 rfl).2 (by omega)
    · change 1 < 2; omega
    · rw [twoRest_two 1 1 (by omega)]; rfl
  · intro h
    obtain ⟨_, _, _, h⟩ := (mem_samples _ _ _ _ _).1 h
    rw [hf, twoRest_two 1 0 (by omega)] at h
    simp at h
  · refine (mem_samples _ _ _ _ _).2 ⟨List.mem_range.2 (by omega), ?_, ?_, ?_⟩ <;> rw [hf]
    · exact (win _ 1 rfl).2 (by omega)
    · change 0 < 2; omega
    · exact twoRest_window _ _
  · intro h
    obtain ⟨_, h, _⟩ := (mem_samples _ _ _ _ _).1 h
    rw [hf] at h
    have := (win _ 3 rfl).1 h
    omega

end Up4
