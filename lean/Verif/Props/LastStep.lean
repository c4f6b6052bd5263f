import Verif.Props.Occupancy
import Verif.Props.Fields
import Verif.Props.Showcase
import Verif.Proofs.Slots
import Verif.Props.UsedGrid

/-!
C125: "every recorded timestep counts". `numberfield` keeps it: its counts are sums over all the timesteps of the file.
`concentration_field`, `lacey`, `circulation_time`, `circulation_time_two_boundary` and `occupancyfield` do not: their
answers are the same for any two files which differ in the last timestep only (the last two for `occupancyfield`).
-/

set_option linter.unusedSectionVars false

namespace Up4

open F
open Selector (at')

variable {K : Type} [Field K] [LinearOrder K] [IsStrictOrderedRing K] [FloorRing K] [Arith K]

/-- What the user gets from a call which also returns the state of the manager. -/
def answerOf {α β : Type} (r : Run (α × β)) : Run β := r >>= fun x => .ok x.2

/-- Two files of the same length with the same first `m` timesteps. -/
def SameUpTo (m : ℕ) (d d' : Dm (Timestep K)) : Prop := d.n = d'.n ∧ ∀ t, t < m → d.file t = d'.file t

/-- The number of the particles of timestep `t` which count in cell `c`. -/
def stepCount (p : Profile) (sel : Selector K) (d : Dm (Timestep K)) (geom : Geom K) (c : CellId) (t : ℕ) : ℕ :=
  if sel.timestepValid (d.file t).time = true then
    ((List.range (d.file t).position.length).filter fun i =>
      (d.file t).chosen sel i && inCell p geom (posOf d.file (t, i)) c).length
  else 0

theorem stepCount_eq (p : Profile) (sel : Selector K) (d : Dm (Timestep K)) (geom : Geom K) (c : CellId) (t : ℕ) :
    (((d.file t).picks sel).map fun i => (t, i)).countP (fun x => inCell p geom (posOf d.file x) c) =
      stepCount p sel d geom c t := by
  unfold stepCount Timestep.picks
  by_cases h : sel.timestepValid (d.file t).time = true
  · rw [if_pos h, if_pos h, List.countP_map, List.countP_eq_length_filter, List.filter_filter]
    congr 1
    apply List.filter_congr
    intro i _
    simp [Bool.and_comm]
  · rw [if_neg h, if_neg h]; rfl

theorem samples_stepCount (p : Profile) (sel : Selector K) (d : Dm (Timestep K)) (geom : Geom K) (c : CellId) (m : ℕ) :
    (samples sel d.file (List.range m)).countP (fun x => inCell p geom (posOf d.file x) c) =
      ∑ t ∈ Finset.range m, stepCount p sel d geom c t := by
  induction m with
  | zero => rfl
  | succ m ih =>
    rw [Finset.sum_range_succ, ← ih, ← stepCount_eq]
    unfold samples
    rw [List.range_succ, List.flatMap_append, List.countP_append]
    simp

/-- **C125, what holds.** In `numberfield` every timestep of the file counts, the first and the last as well: a cell holds the
sum, over ALL the timesteps, of the number of selected particles of that timestep (if its time is in the window) in the cell. -/
theorem C125_number_partial [LawfulArith K] (p : Profile) (d : Dm (Timestep K)) (hd : d.Inv) (grid : Grid K)
    (hg : grid.Fillable p) (sel : Selector K) (hs : sel.Usable) (hw : ∀ t, t < d.n → (d.file t).Wf)
    (hlen : (d.samples sel).length ≤ 2 ^ 53) :
    ∃ g', answerOf (numberfield p d grid sel) = .ok g' ∧
      ∀ c, g'.st.data.get c = F.fin ((∑ t ∈ Finset.range d.n, stepCount p sel d grid.geom c t : ℕ) : K) := by
  obtain ⟨d', g', h, _, _, _, _, _, hc, _⟩ := C34_numberfield p d hd grid hg sel hs hw hlen
  refine ⟨g', by unfold answerOf; rw [h]; rfl, fun c => ?_⟩
  rw [hc c, ← samples_stepCount]
  rfl

/-- A loop over timesteps answers alike on files which agree on these timesteps. -/
theorem forSteps_alike [LawfulArith K] {σ : Type} (p : Profile) (l : List ℕ) (body : σ → ℕ → Timestep K → Run σ)
    (d d' : Dm (Timestep K)) (hd : d.Inv) (hd' : d'.Inv) (hl : ∀ t ∈ l, t < d.n) (hl' : ∀ t ∈ l, t < d'.n)
    (h : ∀ t ∈ l, d.file t = d'.file t) (s : σ) :
    answerOf (d.forSteps p l body s) = answerOf (d'.forSteps p l body s) := by
  obtain ⟨b, _, _, e⟩ := forSteps_eq p l body d hd hl s
  obtain ⟨b', _, _, e'⟩ := forSteps_eq p l body d' hd' hl' s
  rw [e, e']
  have : l.foldlM (fun s t => body s t (d.file t)) s = l.foldlM (fun s t => body s t (d'.file t)) s := by
    apply foldlM_congr
    intro s t ht
    rw [h t ht]
  rw [this]
  cases l.foldlM (fun s t => body s t (d'.file t)) s <;> rfl

theorem SameUpTo.steps {d d' : Dm (Timestep K)} {k : ℕ} (h : SameUpTo (d.n - k) d d') (t : ℕ) (ht : t ∈ List.range (d.n - k)) :
    d.file t = d'.file t := h.2 t (List.mem_range.1 ht)

theorem inv_pos {d : Dm (Timestep K)} (hd : d.Inv) : 1 ≤ d.n := by
  obtain ⟨⟨h1, h2, _⟩, _, _⟩ := hd; omega

/-- **C125, refuted for `concentration_field`.** Whatever the last timestep holds, the answer is the same. -/
theorem C125_concentration_false [LawfulArith K] (p : Profile) (d d' : Dm (Timestep K)) (hd : d.Inv) (hd' : d'.Inv)
    (h : SameUpTo (d.n - 1) d d') (grid : Grid K) (sel : Selector K) (a b : ℕ) :
    answerOf (concentrationField p d grid sel a b) = answerOf (concentrationField p d' grid sel a b) := by
  have hn := inv_pos hd
  unfold concentrationField
  rw [stepsBut_eq p d hd hn, stepsBut_eq p d' hd' (h.1 ▸ hn), run_bind_ok, run_bind_ok, ← h.1]
  have key := forSteps_alike p (List.range (d.n - 1))
    (fun s _ ts => sampleStep sel (concentrationBody p grid a b) s ts) d d' hd hd'
    (fun t ht => by have := List.mem_range.1 ht; omega) (fun t ht => by have := List.mem_range.1 ht; have := h.1; omega)
    (fun t ht => h.steps t ht) (grid.newZeros, grid.newZeros)
  unfold answerOf at key ⊢
  revert key
  cases hx : d.forSteps p (List.range (d.n - 1)) (fun s _ ts => sampleStep sel (concentrationBody p grid a b) s ts) (grid.newZeros, grid.newZeros) <;>
    cases hy : d'.forSteps p (List.range (d.n - 1)) (fun s _ ts => sampleStep sel (concentrationBody p grid a b) s ts) (grid.newZeros, grid.newZeros) <;>
    intro key
  · injection key with key; rw [key]
  · cases key
  · cases key
  · injection key with key
    simp only [run_bind_ok, key]
    simp only [bind_assoc]
    rfl

/-- **C125, refuted for the Lacey index.** -/
theorem C125_lacey_false [LawfulArith K] (p : Profile) (d d' : Dm (Timestep K)) (hd : d.Inv) (hd' : d'.Inv)
    (h : SameUpTo (d.n - 1) d d') (grid : Grid K) (sel : Selector K) (a b threshold : ℕ) :
    answerOf (laceyMixing p d grid sel a b threshold) = answerOf (laceyMixing p d' grid sel a b threshold) := by
  have hn := inv_pos hd
  unfold laceyMixing
  rw [stepsBut_eq p d hd hn, stepsBut_eq p d' hd' (h.1 ▸ hn), run_bind_ok, run_bind_ok, ← h.1]
  exact forSteps_alike p (List.range (d.n - 1)) _ d d' hd hd'
    (fun t ht => by have := List.mem_range.1 ht; omega) (fun t ht => by have := List.mem_range.1 ht; have := h.1; omega)
    (fun t ht => h.steps t ht) _

theorem samples_alike (sel : Selector K) (f f' : ℕ → Timestep K) (l : List ℕ) (h : ∀ t ∈ l, f t = f' t) :
    samples sel f l = samples sel f' l := by
  unfold samples
  rw [List.flatMap_def, List.flatMap_def]
  congr 1
  apply List.map_congr_left
  intro t ht
  rw [h t ht]

/-- What `occupancyfield` answers, as a fold over the samples but for the last three timesteps. -/
theorem occupancy_answer [LawfulArith K] (p : Profile) (d : Dm (Timestep K)) (hd : d.CanLook) (hn : 3 ≤ d.n)
    (hw : ∀ t, t < d.n → (d.file t).Wf) (grid : Grid K) (sel : Selector K) (hs : sel.Usable) (minV : F K) :
    answerOf (occupancyfield p d grid sel minV) =
      ((samples sel d.file (List.range' 0 (d.n - 3))).foldlM
        (fun s x => occupancyBody p grid minV (d.file (x.1 + 1)) s (d.file x.1) x.2) (grid.newZeros, 0) >>=
        fun s => .ok (s.1.divideByScalar s.2)) := by
  obtain ⟨d1, e1, hd1, hf1, hn1⟩ := Dm.setup_looking p Timestep.default d hd
  obtain ⟨d2, l2, hd2, hf2, hn2, e2⟩ := occupancyLoop_eq p sel hs grid minV (d1.n - 3) 0 d1 (by rw [hf1, hn1]; exact hw) 0
    (by omega) hd1 (by omega) (grid.newZeros, 0)
  unfold occupancyfield answerOf
  rw [e1, run_bind_ok, stepsBut_eq p d1 hd1.1 (by omega), run_bind_ok, List.range_eq_range', e2, hf1, hn1]
  cases (samples sel d.file (List.range' 0 (d.n - 3))).foldlM
    (fun s x => occupancyBody p grid minV (d.file (x.1 + 1)) s (d.file x.1) x.2) (grid.newZeros, 0) <;> rfl

/-- **C125, refuted for `occupancyfield`.** Whatever the last TWO timesteps hold, the answer is the same. -/
theorem C125_occupancy_false [LawfulArith K] (p : Profile) (d d' : Dm (Timestep K)) (hd : d.CanLook) (hd' : d'.CanLook)
    (hn : 3 ≤ d.n) (hw : ∀ t, t < d.n → (d.file t).Wf) (hw' : ∀ t, t < d'.n → (d'.file t).Wf)
    (h : SameUpTo (d.n - 2) d d') (grid : Grid K) (sel : Selector K) (hs : sel.Usable) (minV : F K) :
    answerOf (occupancyfield p d grid sel minV) = answerOf (occupancyfield p d' grid sel minV) := by
  rw [occupancy_answer p d hd hn hw grid sel hs minV, occupancy_answer p d' hd' (h.1 ▸ hn) hw' grid sel hs minV, ← h.1]
  have e : ∀ t, t < d.n - 2 → d.file t = d'.file t := h.2
  have hl : ∀ t ∈ List.range' 0 (d.n - 3), t < d.n - 3 := fun t ht => by
    have := (List.mem_range'_1.1 ht).2; omega
  rw [samples_alike sel d.file d'.file _ (fun t ht => e t (by have := hl t ht; omega))]
  congr 1
  apply foldlM_congr
  rintro s ⟨t, i⟩ hx
  obtain ⟨ht, _⟩ := (mem_samples _ _ _ _ _).1 hx
  have := hl t ht
  dsimp only
  rw [e t (by omega), e (t + 1) (by omega)]

theorem observations_alike (sel : Selector K) (f f' : ℕ → Timestep K) (old : ℕ) (l : List ℕ) (h : ∀ t ∈ l, f t = f' t) :
    observations sel f old l = observations sel f' old l := by
  unfold observations
  have hf : l.filter (fun t => sel.timestepValid (f t).time) = l.filter (fun t => sel.timestepValid (f' t).time) :=
    List.filter_congr fun t ht => by rw [h t ht]
  rw [hf, List.flatMap_def, List.flatMap_def]
  congr 1
  apply List.map_congr_left
  intro x hx
  have := List.of_mem_zip (show (x.1, x.2) ∈ _ from hx)
  rw [h x.2 (List.mem_filter.1 this.2).1]

/-- What a circulation analysis answers, as a fold over the observations. -/
theorem circ_answer [LawfulArith K] {σ ρ : Type} (p : Profile) (d : Dm (Timestep K)) (hd : d.Inv)
    (hw : ∀ t, t < d.n → (d.file t).Wf) (sel : Selector K) (hs : sel.Usable)
    (body : Timestep K → σ → Timestep K → ℕ → Run σ) (s : σ) (out : σ → ρ) :
    answerOf (do
      let r0 ← d.get K p 0
      let l ← r0.1.innerSteps p
      let r ← circLoop p sel body l r0.1 r0.2 s
      pure (r.1, out r.2.2)) =
    ((observations sel d.file 0 (List.range' 1 (d.n - 2))).foldlM
      (fun s (o : Obs) => body (d.file o.1) s (d.file o.2.1) o.2.2) s >>= fun s => .ok (out s)) := by
  obtain ⟨b, e, hb, _⟩ := Dm.get_ok (K := K) p d hd 0 (inv_pos hd)
  have hd1 : ({ d with main := b } : Dm (Timestep K)).Inv := ⟨hb, hd.2⟩
  obtain ⟨b2, ts, _, e2⟩ := circLoop_eq p sel hs body (List.range' 1 (d.n - 2)) { d with main := b } hd1 hw
    (fun t ht => by have := List.mem_range'_1.1 ht; change t < d.n; omega) 0 s
  unfold answerOf
  rw [e, run_bind_ok]
  dsimp only
  rw [innerSteps_eq p _ hd1, run_bind_ok]
  dsimp only at e2 ⊢
  rw [e2]
  cases (observations sel d.file 0 (List.range' 1 (d.n - 2))).foldlM
    (fun s (o : Obs) => body (d.file o.1) s (d.file o.2.1) o.2.2) s <;> rfl

/-- The loop of both circulation analyses does not see the last timestep. -/
theorem circ_alike [LawfulArith K] {σ ρ : Type} (p : Profile) (d d' : Dm (Timestep K)) (hd : d.Inv) (hd' : d'.Inv)
    (hn : 2 ≤ d.n) (hw : ∀ t, t < d.n → (d.file t).Wf) (hw' : ∀ t, t < d'.n → (d'.file t).Wf)
    (h : SameUpTo (d.n - 1) d d') (sel : Selector K) (hs : sel.Usable)
    (body : Timestep K → σ → Timestep K → ℕ → Run σ) (s : σ) (out : σ → ρ) :
    answerOf (do
      let r0 ← d.get K p 0
      let l ← r0.1.innerSteps p
      let r ← circLoop p sel body l r0.1 r0.2 s
      pure (r.1, out r.2.2)) =
    answerOf (do
      let r0 ← d'.get K p 0
      let l ← r0.1.innerSteps p
      let r ← circLoop p sel body l r0.1 r0.2 s
      pure (r.1, out r.2.2)) := by
  rw [circ_answer p d hd hw sel hs body s out, circ_answer p d' hd' hw' sel hs body s out, ← h.1]
  have hl : ∀ t ∈ List.range' 1 (d.n - 2), t < d.n - 1 := fun t ht => by
    have := List.mem_range'_1.1 ht; omega
  rw [observations_alike sel d.file d'.file 0 _ (fun t ht => h.2 t (hl t ht))]
  congr 1
  apply foldlM_congr
  rintro s o ho
  obtain ⟨h1, h2, _⟩ := mem_observations _ _ _ _ _ ho
  have h1' : o.1 < d.n - 1 := by
    rcases h1 with h1 | h1
    · omega
    · exact hl _ h1
  rw [h.2 _ h1', h.2 _ (hl _ h2)]

/-- **C125, refuted for `circulation_time`.** A crossing recorded by the last timestep is never seen. -/
theorem C125_circulation_false [LawfulArith K] (p : Profile) (d d' : Dm (Timestep K)) (hd : d.Inv) (hd' : d'.Inv)
    (hn : 2 ≤ d.n) (hw : ∀ t, t < d.n → (d.file t).Wf) (hw' : ∀ t, t < d'.n → (d'.file t).Wf)
    (h : SameUpTo (d.n - 1) d d') (st : Stats K) (sel : Selector K) (hs : sel.Usable) (axis : Fin 3) (bound : F K) :
    answerOf (circulationTime p d st sel axis bound) = answerOf (circulationTime p d' st sel axis bound) := by
  unfold circulationTime
  by_cases hb : bound > (st.dims axis).2 ∨ bound < (st.dims axis).1
  · rw [if_pos hb, if_pos hb]
  · rw [if_neg hb, if_neg hb]
    exact circ_alike p d d' hd hd' hn hw hw' h sel hs _ _ (fun s : Circ K => s.out)

/-- **C125, refuted for `circulation_time_two_boundary`.** -/
theorem C125_twoBoundary_false [LawfulArith K] (p : Profile) (d d' : Dm (Timestep K)) (hd : d.Inv) (hd' : d'.Inv)
    (hn : 2 ≤ d.n) (hw : ∀ t, t < d.n → (d.file t).Wf) (hw' : ∀ t, t < d'.n → (d'.file t).Wf)
    (h : SameUpTo (d.n - 1) d d') (st : Stats K) (sel : Selector K) (hs : sel.Usable) (axis : Fin 3) (lo hi : F K) :
    answerOf (circulationTwoBoundary p d st sel axis lo hi) = answerOf (circulationTwoBoundary p d' st sel axis lo hi) := by
  unfold circulationTwoBoundary
  by_cases hb : lo > (st.dims axis).2 ∨ lo < (st.dims axis).1
  · rw [if_pos hb, if_pos hb]
  · rw [if_neg hb, if_neg hb]
    by_cases hc : hi > (st.dims axis).2 ∨ hi < (st.dims axis).1
    · rw [if_pos hc, if_pos hc]
    · rw [if_neg hc, if_neg hc]
      exact circ_alike p d d' hd hd' hn hw hw' h sel hs _ _ (fun s : Circ2 K => s.out)

/-- One particle far outside the unit cube. -/
def farStep : Timestep K :=
  ⟨fin 0, [fun _ => fin 5], [![fin 1, fin 0, fin 0]], [fin 1], [fin 1], [fin 0], [fin 0], [fin 0]⟩

/-- Four timesteps with a particle in the unit cube, except that in the last one it has left. -/
def leaving (t : ℕ) : Timestep K := if t = 3 then farStep else oneStep

/-- **C125, a pair of files to tell apart.** Four timesteps, the particle stays in the unit cube, or has left it in the last
timestep: `numberfield` on the unit cube counts 4 and 3, while the five analyses above give one answer for both files
(for any grid, selection and argument allowed there). -/
theorem C125_witness [LawfulArith K] (p : Profile) (kind : Kind) :
    ∃ d d' : Dm (Timestep K), Dm.new p kind (fun _ => oneStep) 4 Timestep.default = .ok d ∧
      Dm.new p kind leaving 4 Timestep.default = .ok d' ∧ d.CanLook ∧ d'.CanLook ∧
      (∀ t, t < d.n → (d.file t).Wf) ∧ (∀ t, t < d'.n → (d'.file t).Wf) ∧ d.n = 4 ∧ SameUpTo 3 d d' ∧
      (∃ g, answerOf (numberfield p d unitGrid Selector.default) = .ok g ∧ g.st.data.get (fun _ => 0) = fin ((4 : ℕ) : K)) ∧
      (∃ g, answerOf (numberfield p d' unitGrid Selector.default) = .ok g ∧ g.st.data.get (fun _ => 0) = fin ((3 : ℕ) : K)) := by
  obtain ⟨d, e, hc, hf, hn⟩ := Dm.canLook_new p kind (fun _ => oneStep (K := K)) 4 Timestep.default (by norm_num) (by norm_num) (Or.inr (by unfold BUFFERSIZE; norm_num))
  obtain ⟨d', e', hc', hf', hn'⟩ := Dm.canLook_new p kind (leaving (K := K)) 4 Timestep.default (by norm_num) (by norm_num) (Or.inr (by unfold BUFFERSIZE; norm_num))
  have hw : ∀ t, t < d.n → (d.file t).Wf := fun t _ => by rw [hf]; exact ⟨rfl, rfl, rfl, rfl, rfl, rfl⟩
  have hw' : ∀ t, t < d'.n → (d'.file t).Wf := fun t _ => by
    rw [hf']; unfold leaving
    by_cases h : t = 3
    · rw [if_pos h]; exact ⟨rfl, rfl, rfl, rfl, rfl, rfl⟩
    · rw [if_neg h]; exact ⟨rfl, rfl, rfl, rfl, rfl, rfl⟩
  have hl : ∀ d : Dm (Timestep K), d.n = 4 → (∀ t, (d.file t).position.length = 1) → (d.samples Selector.default).length ≤ 2 ^ 53 := by
    intro d hn h1
    have : ∀ l : List ℕ, (samples Selector.default d.file l).length ≤ l.length := by
      intro l
      induction l with
      | nil => simp [samples]
      | cons t l ih =>
        have : ((d.file t).picks Selector.default).length ≤ 1 := by
          unfold Timestep.picks
          split_ifs
          · exact (List.length_filter_le _ _).trans (by simp [h1])
          · simp
        have e : samples Selector.default d.file (t :: l) =
          ((d.file t).picks Selector.default).map (fun i => (t, i)) ++ samples Selector.default d.file l := rfl
        rw [e]; simp; omega
    have := this (List.range d.n)
    unfold Dm.samples
    rw [List.length_range, hn] at this
    rw [hn]
    omega
  have far_out : inCell p (unitGrid (K := K)).geom (fun _ => fin 5) (fun _ => 0) = false := by
    have : (unitGrid (K := K)).geom.isInside (fun _ => fin 5) = false := by
      rw [Bool.eq_false_iff]
      intro h
      change CartGeom.isInside (CartGeom.new (fun _ => 1) (finLimits (fun _ => (0 : K)) (fun _ => 1))) (fun _ => fin 5) = true at h
      have := (CartGeom.isInside_iff (CartGeom.new (fun _ => 1) (finLimits (fun _ => (0 : K)) (fun _ => 1))) _).1 h 0
      simp [CartGeom.new, finLimits] at this
    unfold inCell
    rw [this]; rfl
  have c_one : ∀ (d : Dm (Timestep K)) (t : ℕ), d.file t = oneStep → stepCount p Selector.default d (unitGrid (K := K)).geom (fun _ => 0) t = 1 := by
    intro d t ht
    have hp : posOf d.file (t, 0) = posOf (fun _ => oneStep) (0, 0) := by unfold posOf; rw [ht]
    unfold stepCount
    rw [ht, if_pos one_time]
    change ((List.range 1).filter _).length = 1
    simp [List.range_succ, chosen_default, hp, unit_lookup]
  have c_far : ∀ (d : Dm (Timestep K)) (t : ℕ), d.file t = farStep → stepCount p Selector.default d (unitGrid (K := K)).geom (fun _ => 0) t = 0 := by
    intro d t ht
    have hp : posOf d.file (t, 0) = fun _ => fin 5 := by unfold posOf; rw [ht]; rfl
    unfold stepCount
    split_ifs
    · rw [ht]
      change ((List.range 1).filter _).length = 0
      simp [List.range_succ, hp, far_out]
    · rfl
  refine ⟨d, d', e, e', hc, hc', hw, hw', hn, ⟨by rw [hn, hn'], fun t ht => by rw [hf, hf']; unfold leaving; rw [if_neg (by omega)]⟩, ?_, ?_⟩
  · obtain ⟨g, k1, k2⟩ := C125_number_partial p d hc.1 unitGrid (fillable_cart p _ unit_isCart) Selector.default usable_default hw
      (hl d hn (fun t => by rw [hf]; rfl))
    refine ⟨g, k1, ?_⟩
    rw [k2, hn]
    simp only [Finset.sum_range_succ, Finset.sum_range_zero, c_one d _ (by rw [hf])]
  · obtain ⟨g, k1, k2⟩ := C125_number_partial p d' hc'.1 unitGrid (fillable_cart p _ unit_isCart) Selector.default usable_default hw'
      (hl d' hn' (fun t => by rw [hf']; unfold leaving; split_ifs <;> rfl))
    refine ⟨g, k1, ?_⟩
    rw [k2, hn']
    have h : ∀ t, t ≠ 3 → d'.file t = oneStep := fun t ht => by rw [hf']; unfold leaving; rw [if_neg ht]
    have h3 : d'.file 3 = farStep := by rw [hf']; unfold leaving; rw [if_pos rfl]
    simp only [Finset.sum_range_succ, Finset.sum_range_zero, c_one d' 0 (h 0 (by decide)), c_one d' 1 (h 1 (by decide)),
      c_one d' 2 (h 2 (by decide)), c_far d' 3 h3]

/-- The refutations apply to that pair. -/
example (p : Profile) : ∃ d d' : Dm (Timestep ℝ), SameUpTo 3 d d' ∧
    answerOf (numberfield p d unitGrid Selector.default) ≠ answerOf (numberfield p d' unitGrid Selector.default) ∧
    answerOf (concentrationField p d unitGrid Selector.default 1 0) = answerOf (concentrationField p d' unitGrid Selector.default 1 0) := by
  obtain ⟨d, d', _, _, hc, hc', _, _, hn, hs, ⟨g, h1, h2⟩, ⟨g', h3, h4⟩⟩ := C125_witness (K := ℝ) p .tdata
  refine ⟨d, d', hs, ?_, C125_concentration_false p d d' hc.1 hc'.1 (by rw [hn]; exact hs) _ _ _ _⟩
  rw [h1, h3]
  intro h
  injection h with h
  rw [h, h4] at h2
  injection h2 with h2
  norm_num at h2

end Up4
