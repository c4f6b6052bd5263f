import Verif.Props.Nothing
import Verif.Props.Occupancy
import Verif.Props.Msd

/-!
C129: the origin and the unit of time do not matter. If all times of a recording are shifted by a constant and scaled by a positive
factor (and the window of the selection with them), the fields, the histogram and the occupancy are the same and the circulation
times are scaled; `dispersion` and `msd_field` do not change under a shift (with the delay unchanged), but they depend on the unit: the search for
the later timestep takes any timestep within 0.01 of a unit.
-/

set_option linter.unusedSectionVars false

namespace Up4

open F
open Selector (at')

variable {K : Type} [Field K] [LinearOrder K] [IsStrictOrderedRing K] [FloorRing K] [Arith K]

/-! ### Specification -/

/-- The same recording with another clock: where the time was `τ t` it is `c * τ t + s`. -/
structure Retimed (c s : K) (τ : ℕ → K) (d d' : Dm (Timestep K)) : Prop where
  n : d'.n = d.n
  time : ∀ t, t < d.n → (d.file t).time = fin (τ t)
  file : ∀ t, t < d.n → d'.file t = { d.file t with time := fin (c * τ t + s) }

/-- The same selection with the window in the other clock. -/
structure Rewindowed (c s : K) (sel sel' : Selector K) : Prop where
  window : ∃ a b : K, sel.time = (fin a, fin b) ∧ sel' = { sel with time := (fin (c * a + s), fin (c * b + s)) }

/-! ### The same samples -/

theorem Rewindowed.valid {c s : K} (hc : 0 < c) {sel sel' : Selector K} (h : Rewindowed c s sel sel') (x : K) :
    sel'.timestepValid (fin (c * x + s)) = sel.timestepValid (fin x) := by
  obtain ⟨a, b, e1, e2⟩ := h.window
  unfold Selector.timestepValid
  rw [e2, e1]
  simp only [F.le_fin, ge_iff_le, add_le_add_iff_right, mul_le_mul_iff_right₀ hc]

theorem Rewindowed.usable {c s : K} {sel sel' : Selector K} (h : Rewindowed c s sel sel') (hs : sel.Usable) : sel'.Usable := by
  obtain ⟨a, b, _, rfl⟩ := h.window
  exact hs

theorem Retimed.wf {c s : K} {τ : ℕ → K} {d d' : Dm (Timestep K)} (h : Retimed c s τ d d') (hw : ∀ t, t < d.n → (d.file t).Wf) :
    ∀ t, t < d'.n → (d'.file t).Wf := by
  intro t ht
  rw [h.n] at ht
  rw [h.file t ht]
  exact hw t ht

theorem Retimed.picks {c s : K} (hc : 0 < c) {τ : ℕ → K} {d d' : Dm (Timestep K)} (h : Retimed c s τ d d') {sel sel' : Selector K}
    (hsel : Rewindowed c s sel sel') (t : ℕ) (ht : t < d.n) : (d'.file t).picks sel' = (d.file t).picks sel := by
  have hv := hsel.valid hc (τ t)
  rw [← h.time t ht] at hv
  rw [h.file t ht]
  unfold Timestep.picks
  rw [show ({ d.file t with time := fin (c * τ t + s) } : Timestep K).time = fin (c * τ t + s) from rfl, hv]
  obtain ⟨a, b, _, rfl⟩ := hsel.window
  rfl

theorem Retimed.samples {c s : K} (hc : 0 < c) {τ : ℕ → K} {d d' : Dm (Timestep K)} (h : Retimed c s τ d d') {sel sel' : Selector K}
    (hsel : Rewindowed c s sel sel') (l : List ℕ) (hl : ∀ t ∈ l, t < d.n) : samples sel' d'.file l = samples sel d.file l := by
  unfold Up4.samples
  induction l with
  | nil => rfl
  | cons t l ih =>
    rw [List.flatMap_cons, List.flatMap_cons, ih fun u hu => hl u (List.mem_cons_of_mem _ hu), h.picks hc hsel t (hl t List.mem_cons_self)]

/-- A body that does not read the time. -/
def Timeless {σ : Type} (body : σ → Timestep K → ℕ → Run σ) : Prop :=
  ∀ s ts i, ∀ x : F K, body s { ts with time := x } i = body s ts i

theorem Retimed.loop [LawfulArith K] {c s : K} (hc : 0 < c) {τ : ℕ → K} {d d' : Dm (Timestep K)} (h : Retimed c s τ d d')
    {sel sel' : Selector K} (hsel : Rewindowed c s sel sel') (hs : sel.Usable) (hd : d.Inv) (hd' : d'.Inv)
    (hw : ∀ t, t < d.n → (d.file t).Wf) {σ : Type} (p : Profile) (l : List ℕ) (hl : ∀ t ∈ l, t < d.n)
    (body : σ → Timestep K → ℕ → Run σ) (hb : Timeless body) (s0 : σ) :
    ∃ (R : Run σ) (d1 d1' : Dm (Timestep K)),
      d.forSteps p l (fun s _ ts => sampleStep sel body s ts) s0 = (R >>= fun s => .ok (d1, s)) ∧
      d'.forSteps p l (fun s _ ts => sampleStep sel' body s ts) s0 = (R >>= fun s => .ok (d1', s)) := by
  obtain ⟨b, _, _, e⟩ := loop_eq (K := K) p sel hs d hd hw l hl body s0
  obtain ⟨b', _, _, e'⟩ := loop_eq (K := K) p sel' (hsel.usable hs) d' hd' (h.wf hw) l (fun t ht => by rw [h.n]; exact hl t ht) body s0
  refine ⟨_, _, { d' with main := b' }, e, ?_⟩
  rw [e', h.samples hc hsel l hl]
  congr 1
  apply foldlM_congr
  rintro s ⟨t, i⟩ hx
  have ht := hl t ((mem_samples _ _ _ _ _).1 hx).1
  rw [h.file t ht]
  exact hb _ _ _ _

section Fields
variable {c s : K} {τ : ℕ → K} {d d' : Dm (Timestep K)} {sel sel' : Selector K}

/-- **C129 (partial): the fields.** The clock does not matter to `numberfield`, `velocityfield`, `vectorfield`,
`granular_temperature_field`, `concentration_field` and `histogram`, in any arithmetic in which the converted times are as given. -/
theorem C129_fields_partial [LawfulArith K] (p : Profile) (hc : 0 < c) (h : Retimed c s τ d d')
    (hsel : Rewindowed c s sel sel') (hs : sel.Usable) (hd : d.Inv) (hd' : d'.Inv)
    (hw : ∀ t, t < d.n → (d.file t).Wf) (grid : Grid K) :
    answerOf (numberfield p d' grid sel') = answerOf (numberfield p d grid sel) ∧
    (∀ mode lo hi, answerOf (velocityfield p d' grid sel' mode lo hi) = answerOf (velocityfield p d grid sel mode lo hi)) ∧
    answerOf (vectorfield p d' grid sel') = answerOf (vectorfield p d grid sel) ∧
    (∀ mode, answerOf (granularTemperature p d' grid sel' mode) = answerOf (granularTemperature p d grid sel mode)) ∧
    (∀ a b, answerOf (concentrationField p d' grid sel' a b) = answerOf (concentrationField p d grid sel a b)) ∧
    (∀ st property maxLimit bins, answerOf (histogram p d' st grid sel' property maxLimit bins) =
      answerOf (histogram p d st grid sel property maxLimit bins)) := by
  have hr : ∀ t ∈ List.range d.n, t < d.n := fun t ht => List.mem_range.1 ht
  have a1 := allSteps_eq p d hd
  have a2 := allSteps_eq p d' hd'
  rw [h.n] at a2
  refine ⟨?_, fun mode lo hi => ?_, ?_, fun mode => ?_, fun a b => ?_, fun st property maxLimit bins => ?_⟩
  · obtain ⟨R, d1, d1', e, e'⟩ := h.loop hc hsel hs hd hd' hw p _ hr (numberBody p grid) (fun _ _ _ _ => rfl) grid.newZeros
    unfold numberfield answerOf
    rw [a1, a2, run_bind_ok, run_bind_ok, e, e']
    cases R <;> rfl
  · unfold velocityfield answerOf
    cases velMode (K := K) mode with
    | error e => rfl
    | ok vcal =>
      obtain ⟨R, d1, d1', e, e'⟩ := h.loop hc hsel hs hd hd' hw p _ hr (velocityBody p grid vcal lo hi) (fun _ _ _ _ => rfl) grid.newZeros
      rw [run_bind_ok, run_bind_ok, a1, a2, run_bind_ok, run_bind_ok, e, e']
      cases R <;> simp only [bind_assoc] <;> rfl
  · obtain ⟨R, d1, d1', e, e'⟩ := h.loop hc hsel hs hd hd' hw p _ hr (vectorBody p) (fun _ _ _ _ => rfl) (VecGrid.new grid)
    unfold vectorfield answerOf
    rw [a1, a2, run_bind_ok, run_bind_ok, e, e']
    cases R <;> simp only [bind_assoc] <;> rfl
  · obtain ⟨R, d1, d1', e, e'⟩ := h.loop hc hsel hs hd hd' hw p _ hr (granularBody p grid) (fun _ _ _ _ => rfl) (Sums.init grid)
    unfold granularTemperature answerOf
    rw [a1, a2, run_bind_ok, run_bind_ok, e, e']
    cases R <;> simp only [bind_assoc] <;> rfl
  · have hn := inv_pos hd
    obtain ⟨R, d1, d1', e, e'⟩ := h.loop hc hsel hs hd hd' hw p (List.range (d.n - 1))
      (fun t ht => by have := List.mem_range.1 ht; omega) (concentrationBody p grid a b) (fun _ _ _ _ => rfl) (grid.newZeros, grid.newZeros)
    unfold concentrationField answerOf
    rw [stepsBut_eq p d hd hn, stepsBut_eq p d' hd' (by rw [h.n]; exact hn), h.n, run_bind_ok, run_bind_ok, e, e']
    cases R <;> simp only [bind_assoc] <;> rfl
  · unfold histogram answerOf
    by_cases hp : property = "velocity"
    · rw [if_pos hp, if_pos hp]
      obtain ⟨R, d1, d1', e, e'⟩ := h.loop hc hsel hs hd hd' hw p _ hr (histogramBody p grid (binEdges st maxLimit bins) bins)
        (fun _ _ _ _ => rfl) (Arr.const ![bins] 0)
      dsimp only
      rw [a1, a2, run_bind_ok, run_bind_ok, e, e']
      cases R <;> rfl
    · rw [if_neg hp, if_neg hp]

/-! ### Circulation -/

/-- Two runs are alike: both raise, or both answer, and the answers are related. -/
def RunRel {α β : Type} (Rel : α → β → Prop) : Run α → Run β → Prop
  | .ok a, .ok b => Rel a b
  | .error e, .error e' => e = e'
  | _, _ => False

theorem foldlM_rel {σ σ' α : Type} (Rel : σ → σ' → Prop) (l : List α) (f : σ → α → Run σ) (g : σ' → α → Run σ')
    (h : ∀ x ∈ l, ∀ s s', Rel s s' → RunRel Rel (f s x) (g s' x)) : ∀ s s', Rel s s' → RunRel Rel (l.foldlM f s) (l.foldlM g s') := by
  induction l with
  | nil => intro s s' hr; exact hr
  | cons x l ih =>
    intro s s' hr
    rw [List.foldlM_cons, List.foldlM_cons]
    have := h x List.mem_cons_self s s' hr
    cases hf : f s x with
    | error e =>
      cases hg : g s' x with
      | error e' => rw [hf, hg] at this; exact this
      | ok b => rw [hf, hg] at this; exact this.elim
    | ok a =>
      cases hg : g s' x with
      | error e' => rw [hf, hg] at this; exact this.elim
      | ok b =>
        rw [hf, hg] at this
        exact ih (fun y hy => h y (List.mem_cons_of_mem _ hy)) a b this

theorem Retimed.observations (hc : 0 < c) (h : Retimed c s τ d d') (hsel : Rewindowed c s sel sel') (old : ℕ) (l : List ℕ)
    (hl : ∀ t ∈ l, t < d.n) : observations sel' d'.file old l = observations sel d.file old l := by
  unfold Up4.observations
  have hv : ∀ t ∈ l, sel'.timestepValid (d'.file t).time = sel.timestepValid (d.file t).time := by
    intro t ht
    rw [h.file t (hl t ht), h.time t (hl t ht)]
    exact hsel.valid hc (τ t)
  have hfl : (l.filter fun t => sel'.timestepValid (d'.file t).time) = l.filter fun t => sel.timestepValid (d.file t).time :=
    List.filter_congr hv
  rw [hfl]
  refine List.flatMap_congr fun x hx => ?_
  have hx2 : x.2 ∈ l := (List.mem_filter.1 (List.of_mem_zip (show (x.1, x.2) ∈ _ from hx)).2).1
  rw [h.picks hc hsel x.2 (hl _ hx2)]

/-- The same slots in the other clock; reported durations scaled. -/
def CircRel (c s : K) (x y : Circ K) : Prop :=
  (∀ i, (y.slots i).flag = (x.slots i).flag ∧
    ((x.slots i).flag ≠ 0 → ∃ u : K, (x.slots i).time = fin u ∧ (y.slots i).time = fin (c * u + s))) ∧
  ∃ L : List K, x.out = L.map F.fin ∧ y.out = (L.map fun x => c * x).map F.fin

theorem circBody_rel [LawfulArith K] [ExactArith K] (np : ℕ) (axis : Fin 3) (bound : F K) (old ts : Timestep K) (i : ℕ) (u : K)
    (ht : ts.time = fin u) (w : F K) (x y : Circ K) (hr : CircRel c s x y) :
    RunRel (CircRel c s) (circBody np axis bound old x ts i)
      (circBody np axis bound { old with time := w } y { ts with time := fin (c * u + s) } i) := by
  unfold circBody
  dsimp only
  generalize at' ts.particleid i = e1
  cases e1 with
  | error e => exact rfl
  | ok id =>
  rw [run_bind_ok, run_bind_ok]
  generalize at' old.particleid i = e2
  cases e2 with
  | error e => exact rfl
  | ok oid =>
  rw [run_bind_ok, run_bind_ok]
  by_cases hq : F.eqB id oid = false
  · rw [if_pos hq, if_pos hq]; exact hr
  rw [if_neg hq, if_neg hq]
  generalize at' ts.position i = e3
  cases e3 with
  | error e => exact rfl
  | ok pos =>
  rw [run_bind_ok, run_bind_ok]
  generalize at' old.position i = e4
  cases e4 with
  | error e => exact rfl
  | ok opos =>
  rw [run_bind_ok, run_bind_ok]
  by_cases hx : crosses bound (opos axis) (pos axis) = true
  · rw [if_pos hx, if_pos hx]
    unfold slotRead
    by_cases hi : i < np + 1
    · rw [if_pos hi, if_pos hi, run_bind_ok, run_bind_ok, ht]
      obtain ⟨hsl, L, l1, l2⟩ := hr
      obtain ⟨f1, f2⟩ := hsl i
      have upd : ∀ a b : Slot K, b.flag = a.flag → (a.flag ≠ 0 → ∃ u : K, a.time = fin u ∧ b.time = fin (c * u + s)) →
          ∀ j, (Function.update y.slots i b j).flag = (Function.update x.slots i a j).flag ∧
            ((Function.update x.slots i a j).flag ≠ 0 → ∃ u : K, (Function.update x.slots i a j).time = fin u ∧
              (Function.update y.slots i b j).time = fin (c * u + s)) := by
        intro a b q1 q2 j
        by_cases hj : j = i
        · subst hj; rw [Function.update_self, Function.update_self]; exact ⟨q1, q2⟩
        · rw [Function.update_of_ne hj, Function.update_of_ne hj]; exact hsl j
      change CircRel c s _ _
      unfold crossStep
      rw [f1]
      by_cases c0 : (x.slots i).flag = 0
      · rw [if_pos c0, if_pos c0]
        refine ⟨upd _ _ rfl fun _ => ⟨u, rfl, rfl⟩, L, ?_, ?_⟩
        · simpa using l1
        · simpa using l2
      · rw [if_neg c0, if_neg c0]
        obtain ⟨v, v1, v2⟩ := f2 c0
        by_cases c1 : (x.slots i).flag = 1
        · rw [if_pos c1, if_pos c1]
          refine ⟨upd _ _ rfl fun _ => ⟨v, v1, v2⟩, L, ?_, ?_⟩
          · simpa using l1
          · simpa using l2
        · rw [if_neg c1, if_neg c1]
          refine ⟨upd _ _ rfl fun h => (h rfl).elim, L ++ [u - v], ?_, ?_⟩
          · rw [v1, F.esub, l1]; simp
          · rw [v2, F.esub, l2]
            have : c * u + s - (c * v + s) = c * (u - v) := by ring
            rw [this]; simp
    · rw [if_neg hi, if_neg hi]; exact rfl
  · rw [if_neg hx, if_neg hx]; exact hr

/-- **C129 (partial): the circulation times.** Every reported circulation takes `c` times as long; exact arithmetic. -/
theorem C129_circulation_partial [LawfulArith K] [ExactArith K] (p : Profile) (hc : 0 < c) (h : Retimed c s τ d d')
    (hsel : Rewindowed c s sel sel') (hs : sel.Usable) (hd : d.Inv) (hd' : d'.Inv) (hn : 2 ≤ d.n)
    (hw : ∀ t, t < d.n → (d.file t).Wf) (st : Stats K) (axis : Fin 3) (bound : F K) :
    RunRel (fun out out' : List (F K) => ∃ L : List K, out = L.map F.fin ∧ out' = (L.map fun x => c * x).map F.fin)
      (answerOf (circulationTime p d st sel axis bound)) (answerOf (circulationTime p d' st sel' axis bound)) := by
  unfold circulationTime
  by_cases hb : bound > (st.dims axis).2 ∨ bound < (st.dims axis).1
  · rw [if_pos hb, if_pos hb]; rfl
  · rw [if_neg hb, if_neg hb, circ_answer p d hd hw sel hs _ _ (fun s : Circ K => s.out),
      circ_answer p d' hd' (h.wf hw) sel' (hsel.usable hs) _ _ (fun s : Circ K => s.out), h.n,
      h.observations hc hsel 0 _ fun t ht => by have := List.mem_range'_1.1 ht; omega]
    have key := foldlM_rel (CircRel c s)
      (observations sel d.file 0 (List.range' 1 (d.n - 2)))
      (fun s (o : Obs) => circBody st.nparticles axis bound (d.file o.1) s (d.file o.2.1) o.2.2)
      (fun s (o : Obs) => circBody st.nparticles axis bound (d'.file o.1) s (d'.file o.2.1) o.2.2) (by
        intro o ho x y hr
        obtain ⟨h1, h2, _⟩ := mem_observations _ _ _ _ _ ho
        have k1 : o.1 < d.n := by
          rcases h1 with h1 | h1
          · omega
          · have := List.mem_range'_1.1 h1; omega
        have k2 : o.2.1 < d.n := by have := List.mem_range'_1.1 h2; omega
        rw [h.file _ k1, h.file _ k2]
        have ht := h.time _ k2
        exact circBody_rel _ _ _ _ _ _ _ ht _ _ _ hr)
      ⟨fun _ => ⟨0, 0⟩, []⟩ ⟨fun _ => ⟨0, 0⟩, []⟩ ⟨fun i => ⟨rfl, fun h => (h rfl).elim⟩, [], rfl, rfl⟩
    revert key
    cases (observations sel d.file 0 (List.range' 1 (d.n - 2))).foldlM
      (fun s (o : Obs) => circBody st.nparticles axis bound (d.file o.1) s (d.file o.2.1) o.2.2) ⟨fun _ => ⟨0, 0⟩, []⟩ <;>
    cases (observations sel d.file 0 (List.range' 1 (d.n - 2))).foldlM
      (fun s (o : Obs) => circBody st.nparticles axis bound (d'.file o.1) s (d'.file o.2.1) o.2.2) ⟨fun _ => ⟨0, 0⟩, []⟩ <;>
    intro key
    · exact key
    · exact key.elim
    · exact key.elim
    · exact key.2

theorem runRel_map (R1 R2 : Run (List (F K × F K))) (key : RunRel (fun x y => x.map (fun z => z.2) = y.map fun z => z.2) R1 R2)
    (d1 d2 : Dm (Timestep K)) :
    (answerOf (R1 >>= fun s => .ok (d1, s)) >>= fun l => .ok (l.map fun x => x.2) : Run (List (F K))) =
      (answerOf (R2 >>= fun s => .ok (d2, s)) >>= fun l => .ok (l.map fun x => x.2)) := by
  cases R1 <;> cases R2
  · have : _ = _ := key
    rw [this]
    rfl
  · exact key.elim
  · exact key.elim
  · have : _ = _ := key
    change Except.ok _ = Except.ok _
    rw [this]

/-- **C129 (partial): the mixing index.** The values of `lacey_mixing` are the same. -/
theorem C129_lacey_partial [LawfulArith K] (p : Profile) (hc : 0 < c) (h : Retimed c s τ d d')
    (hsel : Rewindowed c s sel sel') (hd : d.Inv) (hd' : d'.Inv)
    (grid : Grid K) (a b threshold : ℕ) :
    (answerOf (laceyMixing p d' grid sel' a b threshold) >>= fun l => .ok (l.map fun x => x.2) : Run (List (F K))) =
      (answerOf (laceyMixing p d grid sel a b threshold) >>= fun l => .ok (l.map fun x => x.2)) := by
  have hn := inv_pos hd
  obtain ⟨b1, _, _, e1⟩ := forSteps_eq (K := K) p (List.range (d.n - 1)) (fun (acc : List (F K × F K)) _ ts =>
    if sel.timestepValid ts.time then do
      let s ← forParticles sel ts (fun s i => laceyBody p grid a b s ts i) (grid.newZeros, grid.newZeros, [])
      let v ← laceyValue s.1 s.2.1 s.2.2 a b threshold
      pure (acc ++ [(ts.time, v)])
    else pure (acc ++ [(0, 0)])) d hd (fun t ht => by have := List.mem_range.1 ht; omega) []
  obtain ⟨b2, _, _, e2⟩ := forSteps_eq (K := K) p (List.range (d.n - 1)) (fun (acc : List (F K × F K)) _ ts =>
    if sel'.timestepValid ts.time then do
      let s ← forParticles sel' ts (fun s i => laceyBody p grid a b s ts i) (grid.newZeros, grid.newZeros, [])
      let v ← laceyValue s.1 s.2.1 s.2.2 a b threshold
      pure (acc ++ [(ts.time, v)])
    else pure (acc ++ [(0, 0)])) d' hd' (fun t ht => by have := List.mem_range.1 ht; rw [h.n]; omega) []
  unfold laceyMixing
  rw [stepsBut_eq p d hd hn, stepsBut_eq p d' hd' (by rw [h.n]; exact hn), h.n, run_bind_ok, run_bind_ok, e1, e2]
  have key := foldlM_rel (fun (x y : List (F K × F K)) => x.map (fun z => z.2) = y.map fun z => z.2) (List.range (d.n - 1))
    (fun (acc : List (F K × F K)) t =>
      if sel.timestepValid (d.file t).time then do
        let s ← forParticles sel (d.file t) (fun s i => laceyBody p grid a b s (d.file t) i) (grid.newZeros, grid.newZeros, [])
        let v ← laceyValue s.1 s.2.1 s.2.2 a b threshold
        pure (acc ++ [((d.file t).time, v)])
      else pure (acc ++ [(0, 0)]))
    (fun (acc : List (F K × F K)) t =>
      if sel'.timestepValid (d'.file t).time then do
        let s ← forParticles sel' (d'.file t) (fun s i => laceyBody p grid a b s (d'.file t) i) (grid.newZeros, grid.newZeros, [])
        let v ← laceyValue s.1 s.2.1 s.2.2 a b threshold
        pure (acc ++ [((d'.file t).time, v)])
      else pure (acc ++ [(0, 0)])) (by
      intro t ht x y hr
      have htn : t < d.n := by have := List.mem_range.1 ht; omega
      have hv := hsel.valid hc (τ t)
      rw [← h.time t htn] at hv
      rw [h.file t htn]
      obtain ⟨wa, wb, _, rfl⟩ := hsel.window
      dsimp only
      rw [hv]
      by_cases hvv : sel.timestepValid (d.file t).time = true
      · rw [if_pos hvv, if_pos hvv]
        change RunRel _ ((forParticles sel (d.file t) (fun s i => laceyBody p grid a b s (d.file t) i) (grid.newZeros, grid.newZeros, [])) >>= _)
          ((forParticles sel (d.file t) (fun s i => laceyBody p grid a b s (d.file t) i) (grid.newZeros, grid.newZeros, [])) >>= _)
        generalize forParticles sel (d.file t) (fun s i => laceyBody p grid a b s (d.file t) i) (grid.newZeros, grid.newZeros, []) = R
        cases R with
        | error e => exact rfl
        | ok r =>
          rw [run_bind_ok, run_bind_ok]
          cases laceyValue r.1 r.2.1 r.2.2 a b threshold with
          | error e => exact rfl
          | ok v =>
            change (x ++ _).map _ = (y ++ _).map _
            rw [List.map_append, List.map_append, hr]
            rfl
      · rw [if_neg hvv, if_neg hvv]
        change (x ++ _).map _ = (y ++ _).map _
        rw [List.map_append, List.map_append, hr]) [] [] rfl
  exact (runRel_map _ _ key _ _).symm

/-- The same slots in the other clock; reported times converted. -/
def Circ2Rel (c s : K) (x y : Circ2 K) : Prop :=
  (∀ i, (y.slots i).start = (x.slots i).start ∧ (y.slots i).mid = (x.slots i).mid ∧
    ((x.slots i).start ≠ 0 → ∃ u : K, (x.slots i).time = fin u ∧ (y.slots i).time = fin (c * u + s))) ∧
  ∃ L : List (K × K), x.out = L.map (fun z => (fin z.1, fin z.2)) ∧ y.out = L.map fun z => (fin (c * z.1 + s), fin (c * z.2 + s))

/-- The same slot in the other clock. -/
def Slot2Rel (c s : K) (x y : Slot2 K) : Prop :=
  y.start = x.start ∧ y.mid = x.mid ∧ (x.start ≠ 0 → ∃ u : K, x.time = fin u ∧ y.time = fin (c * u + s))

theorem twoStep_rel (lo hi : F K) (u : K) (old pos : F K) (x y : Slot2 K) (h : Slot2Rel c s x y) :
    Slot2Rel c s (twoStep lo hi x (fin u) old pos).1 (twoStep lo hi y (fin (c * u + s)) old pos).1 ∧
    ∃ L : List (K × K), (twoStep lo hi x (fin u) old pos).2.toList = L.map (fun z => (fin z.1, fin z.2)) ∧
      (twoStep lo hi y (fin (c * u + s)) old pos).2.toList = L.map fun z => (fin (c * z.1 + s), fin (c * z.2 + s)) := by
  obtain ⟨xs, xm, xt⟩ := x
  obtain ⟨ys, ym, yt⟩ := y
  obtain ⟨h1, h2, h3⟩ := h
  have h1' : xs = ys := h1.symm
  have h2' : xm = ym := h2.symm
  subst h1' h2'
  dsimp only at h3
  have hz : (⟨xs, xm, xt⟩ : Slot2 K).start = xs := rfl
  have rel : ∀ a b : ℕ, Slot2Rel c s (⟨a, b, fin u⟩ : Slot2 K) ⟨a, b, fin (c * u + s)⟩ := fun a b => ⟨rfl, rfl, fun _ => ⟨u, rfl, rfl⟩⟩
  have rel0 : ∀ m : ℕ, Slot2Rel c s (⟨xs, m, xt⟩ : Slot2 K) ⟨xs, m, yt⟩ := fun m => ⟨rfl, rfl, h3⟩
  have nil : ∃ L : List (K × K), (none : Option (F K × F K)).toList = L.map (fun z => (fin z.1, fin z.2)) ∧
      (none : Option (F K × F K)).toList = L.map fun z => (fin (c * z.1 + s), fin (c * z.2 + s)) := ⟨[], rfl, rfl⟩
  have one : xs ≠ 0 → ∃ L : List (K × K), (some (xt, (fin u : F K))).toList = L.map (fun z => (fin z.1, fin z.2)) ∧
      (some (yt, (fin (c * u + s) : F K))).toList = L.map fun z => (fin (c * z.1 + s), fin (c * z.2 + s)) := by
    intro h0
    obtain ⟨v, v1, v2⟩ := h3 h0
    exact ⟨[(v, u)], by rw [v1]; rfl, by rw [v2]; rfl⟩
  unfold twoStep
  dsimp only
  by_cases c1 : pos < hi ∧ old > hi
  · rw [if_pos c1, if_pos c1]
    by_cases c2 : xs = 0
    · rw [if_pos c2, if_pos c2]; exact ⟨rel _ _, nil⟩
    rw [if_neg c2, if_neg c2]
    by_cases c3 : xs = 1 ∧ xm = 1
    · rw [if_pos c3, if_pos c3]; exact ⟨rel _ _, one c2⟩
    rw [if_neg c3, if_neg c3]
    by_cases c4 : xs = 1
    · rw [if_pos c4, if_pos c4]; exact ⟨rel _ _, nil⟩
    rw [if_neg c4, if_neg c4]; exact ⟨rel0 _, nil⟩
  rw [if_neg c1, if_neg c1]
  have step : ∀ m : ℕ,
      Slot2Rel c s
        (if pos < lo ∧ old > lo then ((if xs = 1 then { (⟨xs, m, xt⟩ : Slot2 K) with mid := 1 } else ⟨xs, m, xt⟩), (none : Option (F K × F K)))
        else if pos > lo ∧ old < lo then
          if xs = 0 then (⟨2, m, fin u⟩, none)
          else if xs = 2 ∧ m = 1 then (⟨xs, 0, fin u⟩, some (xt, fin u))
          else if xs = 2 then (⟨xs, m, fin u⟩, none)
          else (⟨xs, m, xt⟩, none)
        else (⟨xs, m, xt⟩, none)).1
        (if pos < lo ∧ old > lo then ((if xs = 1 then { (⟨xs, m, yt⟩ : Slot2 K) with mid := 1 } else ⟨xs, m, yt⟩), (none : Option (F K × F K)))
        else if pos > lo ∧ old < lo then
          if xs = 0 then (⟨2, m, fin (c * u + s)⟩, none)
          else if xs = 2 ∧ m = 1 then (⟨xs, 0, fin (c * u + s)⟩, some (yt, fin (c * u + s)))
          else if xs = 2 then (⟨xs, m, fin (c * u + s)⟩, none)
          else (⟨xs, m, yt⟩, none)
        else (⟨xs, m, yt⟩, none)).1 ∧
      ∃ L : List (K × K),
        (if pos < lo ∧ old > lo then ((if xs = 1 then { (⟨xs, m, xt⟩ : Slot2 K) with mid := 1 } else ⟨xs, m, xt⟩), (none : Option (F K × F K)))
        else if pos > lo ∧ old < lo then
          if xs = 0 then (⟨2, m, fin u⟩, none)
          else if xs = 2 ∧ m = 1 then (⟨xs, 0, fin u⟩, some (xt, fin u))
          else if xs = 2 then (⟨xs, m, fin u⟩, none)
          else (⟨xs, m, xt⟩, none)
        else (⟨xs, m, xt⟩, none)).2.toList = L.map (fun z => (fin z.1, fin z.2)) ∧
        (if pos < lo ∧ old > lo then ((if xs = 1 then { (⟨xs, m, yt⟩ : Slot2 K) with mid := 1 } else ⟨xs, m, yt⟩), (none : Option (F K × F K)))
        else if pos > lo ∧ old < lo then
          if xs = 0 then (⟨2, m, fin (c * u + s)⟩, none)
          else if xs = 2 ∧ m = 1 then (⟨xs, 0, fin (c * u + s)⟩, some (yt, fin (c * u + s)))
          else if xs = 2 then (⟨xs, m, fin (c * u + s)⟩, none)
          else (⟨xs, m, yt⟩, none)
        else (⟨xs, m, yt⟩, none)).2.toList = L.map fun z => (fin (c * z.1 + s), fin (c * z.2 + s)) := by
    intro m
    by_cases d1 : pos < lo ∧ old > lo
    · rw [if_pos d1, if_pos d1]
      by_cases d2 : xs = 1
      · rw [if_pos d2, if_pos d2]; exact ⟨rel0 _, nil⟩
      · rw [if_neg d2, if_neg d2]; exact ⟨rel0 _, nil⟩
    rw [if_neg d1, if_neg d1]
    by_cases d3 : pos > lo ∧ old < lo
    · rw [if_pos d3, if_pos d3]
      by_cases d4 : xs = 0
      · rw [if_pos d4, if_pos d4]; exact ⟨rel _ _, nil⟩
      rw [if_neg d4, if_neg d4]
      by_cases d5 : xs = 2 ∧ m = 1
      · rw [if_pos d5, if_pos d5]; exact ⟨rel _ _, one d4⟩
      rw [if_neg d5, if_neg d5]
      by_cases d6 : xs = 2
      · rw [if_pos d6, if_pos d6]; exact ⟨rel _ _, nil⟩
      rw [if_neg d6, if_neg d6]; exact ⟨rel0 _, nil⟩
    rw [if_neg d3, if_neg d3]; exact ⟨rel0 _, nil⟩
  by_cases c5 : pos > hi ∧ old < hi ∧ xs = 2
  · rw [if_pos c5, if_pos c5]; exact step 1
  · rw [if_neg c5, if_neg c5]; exact step xm

theorem circ2Body_rel (np : ℕ) (axis : Fin 3) (lo hi : F K) (old ts : Timestep K) (i : ℕ) (u : K)
    (ht : ts.time = fin u) (w : F K) (x y : Circ2 K) (hr : Circ2Rel c s x y) :
    RunRel (Circ2Rel c s) (circ2Body np axis lo hi old x ts i)
      (circ2Body np axis lo hi { old with time := w } y { ts with time := fin (c * u + s) } i) := by
  unfold circ2Body
  dsimp only
  generalize at' ts.particleid i = e1
  cases e1 with
  | error e => exact rfl
  | ok id =>
  rw [run_bind_ok, run_bind_ok]
  generalize at' old.particleid i = e2
  cases e2 with
  | error e => exact rfl
  | ok oid =>
  rw [run_bind_ok, run_bind_ok]
  by_cases hq : F.eqB id oid = false
  · rw [if_pos hq, if_pos hq]; exact hr
  rw [if_neg hq, if_neg hq]
  generalize at' ts.position i = e3
  cases e3 with
  | error e => exact rfl
  | ok pos =>
  rw [run_bind_ok, run_bind_ok]
  generalize at' old.position i = e4
  cases e4 with
  | error e => exact rfl
  | ok opos =>
  rw [run_bind_ok, run_bind_ok]
  by_cases hx : touches lo hi (opos axis) (pos axis) = true
  · rw [if_pos hx, if_pos hx]
    unfold slotRead
    by_cases hi' : i < np + 1
    · rw [if_pos hi', if_pos hi', run_bind_ok, run_bind_ok, ht]
      obtain ⟨hsl, L, l1, l2⟩ := hr
      obtain ⟨r1, M, m1, m2⟩ := twoStep_rel lo hi u (opos axis) (pos axis) _ _ (show Slot2Rel c s (x.slots i) (y.slots i) from hsl i)
      change Circ2Rel c s _ _
      refine ⟨fun j => ?_, L ++ M, ?_, ?_⟩
      · by_cases hj : j = i
        · subst hj
          dsimp only
          rw [Function.update_self, Function.update_self]; exact r1
        · dsimp only
          rw [Function.update_of_ne hj, Function.update_of_ne hj]; exact hsl j
      · dsimp only
        rw [l1, m1, List.map_append]
      · dsimp only
        rw [l2, m2, List.map_append]
    · rw [if_neg hi', if_neg hi']; exact rfl
  · rw [if_neg hx, if_neg hx]; exact hr

/-- **C129 (partial): two boundaries.** The circulations reported are the same, their times in the other clock. -/
theorem C129_twoBoundary_partial [LawfulArith K] (p : Profile) (hc : 0 < c) (h : Retimed c s τ d d')
    (hsel : Rewindowed c s sel sel') (hs : sel.Usable) (hd : d.Inv) (hd' : d'.Inv) (hn : 2 ≤ d.n)
    (hw : ∀ t, t < d.n → (d.file t).Wf) (st : Stats K) (axis : Fin 3) (lo hi : F K) :
    RunRel (fun out out' : List (F K × F K) => ∃ L : List (K × K), out = L.map (fun z => (fin z.1, fin z.2)) ∧
        out' = L.map fun z => (fin (c * z.1 + s), fin (c * z.2 + s)))
      (answerOf (circulationTwoBoundary p d st sel axis lo hi)) (answerOf (circulationTwoBoundary p d' st sel' axis lo hi)) := by
  unfold circulationTwoBoundary
  by_cases hb : lo > (st.dims axis).2 ∨ lo < (st.dims axis).1
  · rw [if_pos hb, if_pos hb]; rfl
  rw [if_neg hb, if_neg hb]
  by_cases hb2 : hi > (st.dims axis).2 ∨ hi < (st.dims axis).1
  · rw [if_pos hb2, if_pos hb2]; rfl
  rw [if_neg hb2, if_neg hb2, circ_answer p d hd hw sel hs _ _ (fun s : Circ2 K => s.out),
      circ_answer p d' hd' (h.wf hw) sel' (hsel.usable hs) _ _ (fun s : Circ2 K => s.out), h.n,
      h.observations hc hsel 0 _ fun t ht => by have := List.mem_range'_1.1 ht; omega]
  have key := foldlM_rel (Circ2Rel c s) (observations sel d.file 0 (List.range' 1 (d.n - 2)))
      (fun s (o : Obs) => circ2Body st.nparticles axis lo hi (d.file o.1) s (d.file o.2.1) o.2.2)
      (fun s (o : Obs) => circ2Body st.nparticles axis lo hi (d'.file o.1) s (d'.file o.2.1) o.2.2) (by
        intro o ho x y hr
        obtain ⟨h1, h2, _⟩ := mem_observations _ _ _ _ _ ho
        have k1 : o.1 < d.n := by
          rcases h1 with h1 | h1
          · omega
          · have := List.mem_range'_1.1 h1; omega
        have k2 : o.2.1 < d.n := by have := List.mem_range'_1.1 h2; omega
        rw [h.file _ k1, h.file _ k2]
        exact circ2Body_rel _ _ _ _ _ _ _ _ (h.time _ k2) _ _ _ hr)
      ⟨fun _ => ⟨0, 0, 0⟩, []⟩ ⟨fun _ => ⟨0, 0, 0⟩, []⟩ ⟨fun i => ⟨rfl, rfl, fun h => (h rfl).elim⟩, [], rfl, rfl⟩
  revert key
  cases (observations sel d.file 0 (List.range' 1 (d.n - 2))).foldlM
    (fun s (o : Obs) => circ2Body st.nparticles axis lo hi (d.file o.1) s (d.file o.2.1) o.2.2) ⟨fun _ => ⟨0, 0, 0⟩, []⟩ <;>
  cases (observations sel d.file 0 (List.range' 1 (d.n - 2))).foldlM
    (fun s (o : Obs) => circ2Body st.nparticles axis lo hi (d'.file o.1) s (d'.file o.2.1) o.2.2) ⟨fun _ => ⟨0, 0, 0⟩, []⟩ <;>
  intro key
  · exact key
  · exact key.elim
  · exact key.elim
  · exact key.2

/-! ### Occupancy -/

/-- **C129 (partial): the occupancy.** Exact arithmetic, a grid without contents. -/
theorem C129_occupancy_partial [LawfulArith K] [ExactArith K] (p : Profile) (hc : 0 < c) (h : Retimed c s τ d d')
    (hsel : Rewindowed c s sel sel') (hs : sel.Usable) (hd : d.CanLook) (hd' : d'.CanLook) (hn : 3 ≤ d.n)
    (hw : ∀ t, t < d.n → (d.file t).Wf) (grid : Grid K)
    (hg : IsCart grid ∨ (grid.Fillable p ∧ ∃ cg, grid.geom = .cyl cg)) (hfresh : ∀ c, grid.st.weight.get c = 0) (minV : F K) :
    ∃ g g', answerOf (occupancyfield p d grid sel minV) = .ok g ∧ answerOf (occupancyfield p d' grid sel' minV) = .ok g' ∧
      g'.geom = g.geom ∧ ∀ k, g'.st.data.get k = g.st.data.get k ∧ g'.st.weight.get k = g.st.weight.get k := by
  obtain ⟨d1, g, e1, _, _, _, q1, _, p1, _, k1⟩ := C37_cells p d hd hn τ h.time grid hg hfresh sel hs hw minV
  have ht' : ∀ t, t < d'.n → (d'.file t).time = fin (c * τ t + s) := by
    intro t ht
    rw [h.n] at ht
    rw [h.file t ht]
  obtain ⟨d2, g', e2, _, _, _, q2, _, p2, _, k2⟩ := C37_cells p d' hd' (by rw [h.n]; exact hn) (fun t => c * τ t + s) ht' grid hg hfresh
    sel' (hsel.usable hs) (h.wf hw) minV
  refine ⟨g, g', by rw [e1]; rfl, by rw [e2]; rfl, by rw [q1, q2], fun k => ?_⟩
  obtain ⟨w1, n1, v1⟩ := k1 k
  obtain ⟨w2, n2, v2⟩ := k2 k
  rw [h.n] at w2 n2 v2
  have hlt : ∀ x ∈ samples sel d.file (List.range (d.n - 3)), x.1 < d.n ∧ x.1 + 1 < d.n := by
    rintro ⟨t, i⟩ hx
    have := List.mem_range.1 ((mem_samples _ _ _ _ _).1 hx).1
    dsimp only
    omega
  have hC : (samples sel' d'.file (List.range (d.n - 3))).filter (counts d'.file grid.geom minV) =
      (samples sel d.file (List.range (d.n - 3))).filter (counts d.file grid.geom minV) := by
    rw [h.samples hc hsel _ fun t ht => by have := List.mem_range.1 ht; omega]
    refine List.filter_congr fun x hx => ?_
    obtain ⟨a1, a2⟩ := hlt x hx
    have hst : (stepTime d'.file x.1 < 0 ↔ stepTime d.file x.1 < 0) := by
      unfold stepTime
      rw [h.file _ a1, h.file _ a2, h.time _ a1, h.time _ a2]
      dsimp only
      rw [F.esub, F.esub, F.zero_def, F.lt_fin, F.lt_fin, show c * τ (x.1 + 1) + s - (c * τ x.1 + s) = c * (τ (x.1 + 1) - τ x.1) by ring]
      constructor
      · intro h1
        by_contra h2
        exact absurd h1 (not_lt.2 (mul_nonneg hc.le (not_lt.1 h2)))
      · exact fun h1 => mul_neg_of_pos_of_neg hc h1
    unfold counts posOf
    rw [decide_eq_decide.2 hst, h.file _ a1, h.file _ a2]
    rfl
  rw [hC] at w2 n2 v2
  set C := (samples sel d.file (List.range (d.n - 3))).filter (counts d.file grid.geom minV) with hCdef
  have hpos : ∀ x ∈ C, posOf d'.file x = posOf d.file x ∧ nextOf d'.file x = nextOf d.file x := by
    intro x hx
    obtain ⟨a1, a2⟩ := hlt x (List.mem_filter.1 hx).1
    unfold posOf nextOf
    rw [h.file _ a1, h.file _ a2]
    exact ⟨rfl, rfl⟩
  have hw2 : (C.map fun x => share p grid.geom (posOf d'.file x) (nextOf d'.file x) k).sum =
      (C.map fun x => share p grid.geom (posOf d.file x) (nextOf d.file x) k).sum := by
    congr 1
    refine List.map_congr_left fun x hx => ?_
    rw [(hpos x hx).1, (hpos x hx).2]
  have hT : (C.map fun x : ℕ × ℕ => c * τ (x.1 + 1) + s - (c * τ x.1 + s)).sum = c * (C.map fun x : ℕ × ℕ => τ (x.1 + 1) - τ x.1).sum := by
    rw [← List.sum_map_mul_left]
    congr 1
    exact List.map_congr_left fun x _ => by ring
  have hN : (C.map fun x : ℕ × ℕ => (c * τ (x.1 + 1) + s - (c * τ x.1 + s)) * share p grid.geom (posOf d'.file x) (nextOf d'.file x) k).sum =
      c * (C.map fun x : ℕ × ℕ => (τ (x.1 + 1) - τ x.1) * share p grid.geom (posOf d.file x) (nextOf d.file x) k).sum := by
    rw [← List.sum_map_mul_left]
    congr 1
    refine List.map_congr_left fun x hx => ?_
    rw [(hpos x hx).1, (hpos x hx).2]; ring
  refine ⟨?_, by rw [w1, w2, hw2]⟩
  by_cases h0 : (C.map fun x : ℕ × ℕ => τ (x.1 + 1) - τ x.1).sum = 0
  · rw [n1 h0, n2 (by rw [hT, h0, mul_zero])]
  · rw [v1 h0, v2 (by rw [hT]; exact mul_ne_zero hc.ne' h0), hT, hN, mul_div_mul_left _ _ hc.ne']

/-! ### The search for the later timestep -/

theorem searchLoop_shift [LawfulArith K] [ExactArith K] (p : Profile) (τ : ℕ → K) (n : ℕ) (y s : K) (k : ℕ) :
    ∀ low high mid, high + 1 - low ≤ k → searchLoop p (timesOf (fun t => τ t + s) n) (fin (y + s)) low high mid =
      searchLoop p (timesOf τ n) (fin y) low high mid := by
  induction k with
  | zero =>
    intro low high mid hk
    rw [searchLoop.eq_def, dif_neg (by omega), searchLoop.eq_def, dif_neg (by omega)]
  | succ k ih =>
    intro low high mid hk
    rw [searchLoop.eq_def p (timesOf (fun t => τ t + s) n), searchLoop.eq_def p (timesOf τ n)]
    by_cases hlh : low ≤ high
    · rw [dif_pos hlh, dif_pos hlh]
      by_cases hm : (low + high) / 2 < n
      · rw [timesOf_get _ hm, timesOf_get _ hm]
        dsimp only
        rw [F.esub, F.esub, add_sub_add_right_eq_sub]
        by_cases h1 : (fin (τ ((low + high) / 2) - y) : F K).abs < F.lit (1 / 100)
        · rw [if_pos h1, if_pos h1]
        rw [if_neg h1, if_neg h1]
        by_cases h2 : τ ((low + high) / 2) < y
        · rw [if_pos (by rw [F.lt_fin]; linarith), if_pos (by rw [F.lt_fin]; exact h2)]
          exact ih _ _ _ (by omega)
        rw [if_neg (by rw [F.lt_fin]; intro h; apply h2; linarith), if_neg (by rw [F.lt_fin]; exact h2)]
        by_cases h3 : (low + high) / 2 = 0
        · rw [dif_pos h3, dif_pos h3]
        rw [dif_neg h3, dif_neg h3]
        exact ih _ _ _ (by omega)
      · have hno : ∀ f : ℕ → K, (timesOf f n)[(low + high) / 2]? = none := fun f => by
          rw [List.getElem?_eq_none_iff, timesOf_length]; omega
        rw [hno, hno]
    · rw [dif_neg hlh, dif_neg hlh]

theorem closest_shift [LawfulArith K] [ExactArith K] (p : Profile) (τ : ℕ → K) (n : ℕ) (hn : 1 ≤ n) (hn' : n ≤ 2 ^ 63) (y s : K) :
    closest p (timesOf (fun t => τ t + s) n) (fin (y + s)) = closest p (timesOf τ n) (fin y) := by
  unfold closest
  rw [timesOf_length, timesOf_length, usub_ok p hn hn', run_bind_ok, run_bind_ok, timesOf_at (fun t => τ t + s) (by omega), timesOf_at τ (by omega),
    run_bind_ok, run_bind_ok]
  by_cases h1 : τ (n - 1) < y
  · rw [if_pos (by rw [F.lt_fin]; linarith), if_pos (by rw [F.lt_fin]; exact h1)]
  rw [if_neg (by rw [F.lt_fin]; intro h; apply h1; linarith), if_neg (by rw [F.lt_fin]; exact h1), timesOf_at (fun t => τ t + s) (by omega),
    timesOf_at τ (by omega), run_bind_ok, run_bind_ok]
  by_cases h2 : τ 0 > y
  · rw [if_pos (by rw [gt_iff_lt, F.lt_fin]; linarith), if_pos (by rw [gt_iff_lt, F.lt_fin]; exact h2)]
  rw [if_neg (by rw [gt_iff_lt, F.lt_fin]; intro h; apply h2; linarith), if_neg (by rw [gt_iff_lt, F.lt_fin]; exact h2)]
  exact searchLoop_shift p τ n y s _ _ _ _ le_rfl

theorem Retimed.leads [LawfulArith K] [ExactArith K] (p : Profile) (h : Retimed 1 s τ d d')
    (hsel : Rewindowed 1 s sel sel') (st st' : Stats K) (hst : Clocked st d.file d.n τ)
    (hst' : st'.times = timesOf (fun t => τ t + s) d.n) (hn' : d.n ≤ 2 ^ 63) (δ : K)
    (l : List ℕ) (hl : ∀ t ∈ l, t < d.n) :
    leads sel' d'.file (partner p st'.times d'.file (fin δ)) l = leads sel d.file (partner p st.times d.file (fin δ)) l := by
  have hp : ∀ t, t < d.n → partner p st'.times d'.file (fin δ) t = partner p st.times d.file (fin δ) t := by
    intro t ht
    unfold partner
    rw [h.file t ht, h.time t ht, hst', hst.times]
    dsimp only
    rw [F.eadd, F.eadd, show 1 * τ t + s + δ = (τ t + δ) + s by ring, closest_shift p τ d.n (by omega) hn']
  induction l with
  | nil => rfl
  | cons t l ih =>
    have ht := hl t List.mem_cons_self
    rw [leads_cons, leads_cons, ih fun u hu => hl u (List.mem_cons_of_mem _ hu), hp t ht, h.picks one_pos hsel t ht]

/-- **C129 (partial): the origin of time.** The dispersion and the mean squared displacement for a given delay do not depend on when the
clock was started; exact arithmetic. -/
theorem C129_origin_partial [LawfulArith K] [ExactArith K] (p : Profile) (h : Retimed 1 s τ d d')
    (hsel : Rewindowed 1 s sel sel') (hs : sel.Usable) (hd : d.CanLook) (hd' : d'.CanLook)
    (hw : ∀ t, t < d.n → (d.file t).Wf) (st st' : Stats K) (hst : Clocked st d.file d.n τ)
    (hst' : Clocked st' d'.file d'.n fun t => τ t + s) (grid : Grid K) (δ : K) :
    answerOf (dispersion p d' st' grid sel' (fin δ)) = answerOf (dispersion p d st grid sel (fin δ)) ∧
    answerOf (msdField p d' st' grid sel' (fin δ)) = answerOf (msdField p d st grid sel (fin δ)) := by
  have hn' : d.n ≤ 2 ^ 63 := le_trans hd.1.2.2 (by norm_num)
  have hts := hst'.times
  rw [h.n] at hts
  have hfold : ∀ {σ : Type} (body : Timestep K → σ → Timestep K → ℕ → Run σ) (m : ℕ) (hm : m ≤ d.n) (s0 : σ),
      (∀ future s ts i, ∀ x y : F K, body { future with time := x } s { ts with time := y } i = body future s ts i) →
      (leads sel' d'.file (partner p st'.times d'.file (fin δ)) (List.range m)).foldlM
        (fun s x => body (d'.file x.2.2) s (d'.file x.1) x.2.1) s0 =
      (leads sel d.file (partner p st.times d.file (fin δ)) (List.range m)).foldlM
        (fun s x => body (d.file x.2.2) s (d.file x.1) x.2.1) s0 := by
    intro σ body m hm s0 hb
    rw [h.leads p hsel st st' hst hts hn' δ _ fun t ht => lt_of_lt_of_le (List.mem_range.1 ht) hm]
    apply foldlM_congr
    rintro s ⟨t, i, t'⟩ hx
    obtain ⟨ht, ht', _⟩ := lead_in_range p sel st d hd.1 τ hst δ _ (fun t ht => lt_of_lt_of_le (List.mem_range.1 ht) hm) hx
    dsimp only
    rw [h.file t ht, h.file t' ht']
    exact hb _ _ _ _ _ _
  constructor
  · rw [dispersion_answer p st sel hs δ grid d hd τ hst hw,
      dispersion_answer p st' sel' (hsel.usable hs) δ grid d' hd' _ hst' (h.wf hw), h.n,
      hfold (dispersionBody p grid) d.n le_rfl _ (fun _ _ _ _ _ _ => rfl)]
  · rw [msd_answer p st sel hs δ grid d hd τ hst hw,
      msd_answer p st' sel' (hsel.usable hs) δ grid d' hd' _ hst' (h.wf hw), h.n,
      hfold (msdBody p grid) (d.n - 1) (by omega) _ (fun _ _ _ _ _ _ => rfl)]

end Fields

/-! ### The unit of time -/

/-- The demo dataset with its times in another unit. -/
noncomputable def milliFile (t : ℕ) : Timestep ℝ := { demoFile t with time := fin (1 / 1000 * (t : ℝ) + 0) }

/-- The statistics of the demo dataset with the times in the other unit. -/
noncomputable def milliStats : Stats ℝ := ⟨fun _ => (fin 0, fin 2), 1, timesOf (fun i => 1 / 1000 * (i : ℝ) + 0) 4, ![fin 5, fin 5, fin 5]⟩

/-- Everyone, at time 1 only. -/
noncomputable def atOne : Selector ℝ := { (Selector.default : Selector ℝ) with time := (fin 1, fin 1) }

/-- Everyone, at time 1/1000 only. -/
noncomputable def atMilli : Selector ℝ := { atOne with time := (fin (1 / 1000 * 1 + 0), fin (1 / 1000 * 1 + 0)) }

theorem milli_partner (p : Profile) : closest p (timesOf (fun i => 1 / 1000 * (i : ℝ) + 0) 4) (fin (2 / 1000)) = .ok (some 1) := by
  unfold closest
  rw [timesOf_length, usub_ok p (by norm_num) (by norm_num), run_bind_ok, timesOf_at _ (by norm_num), run_bind_ok,
    if_neg (by rw [F.lt_fin]; norm_num), timesOf_at _ (by norm_num), run_bind_ok,
    if_neg (by rw [gt_iff_lt, F.lt_fin]; norm_num)]
  rw [searchLoop.eq_def, dif_pos (by norm_num)]
  norm_num only
  rw [timesOf_get _ (by norm_num)]
  dsimp only
  rw [if_pos]
  rw [F.esub, F.elit]
  simp only [F.abs, F.lt_fin]
  rw [abs_of_neg (by norm_num)]
  norm_num

/-- The squared displacement in one cell over `[0, 4]³` from timestep 1 of the demo dataset, whatever its clock. -/
theorem demo_msd (p : Profile) (d : Dm (Timestep ℝ)) (hd : d.CanLook) (hn : d.n = 4) (st : Stats ℝ) (τ : ℕ → ℝ) (hc : Clocked st d.file d.n τ)
    (hpos : ∀ t, t < 4 → (d.file t).position = (demoFile t).position) (hw : ∀ t, t < d.n → (d.file t).Wf)
    (sel : Selector ℝ) (hs : sel.Usable) (δ : ℝ) (t' : ℕ) (ht' : t' < 4)
    (hl : d.leads p sel st (fin δ) (List.range (d.n - 1)) = [(1, 0, t')]) :
    ∃ g', answerOf (msdField p d st (Grid.newCart (fun _ => 1) (finLimits (fun _ => 0) (fun _ => 4))) sel (fin δ)) = .ok g' ∧
      g'.st.data.get (fun _ => 0) = fin (3 * (1 / 2 - (t' : ℝ) / 2) ^ 2) := by
  set grid : Grid ℝ := Grid.newCart (fun _ => 1) (finLimits (fun _ => 0) (fun _ => 4)) with hgrid
  have hfill : grid.Fillable p := fillable_cart p _ (isCart_new _ _ (fun _ => by norm_num))
  have hst : startOf d.file (1, 0, t') = fun _ => fin (1 / 2) := by
    unfold startOf Timestep.pos
    rw [hpos 1 (by norm_num)]
    funext a
    change fin (((1 : ℕ) : ℝ) / 2) = _
    congr 1; norm_num
  have hen : endOf d.file (1, 0, t') = fun _ => fin ((t' : ℝ) / 2) := by
    unfold endOf Timestep.pos
    rw [hpos t' ht']
    rfl
  obtain ⟨d', g', D, h1, _, _, _, _, _, h2⟩ := C44_msd_partial p d hd st τ hc grid hfill (fun _ => rfl) sel hs hw 1
    (fun t ht => by rw [hpos t (by omega)]; rfl) δ (fun _ _ => 1 / 2) (fun _ _ => (t' : ℝ) / 2)
    (by
      intro x hx _ a
      rw [hl, List.mem_singleton] at hx
      rw [hx, hst, hen]
      exact ⟨rfl, rfl⟩)
  refine ⟨g', by rw [h1]; rfl, ?_⟩
  obtain ⟨_, _, _, k, _⟩ := h2 (fun _ => 0) (fun _ => Nat.one_pos)
  have hin : inCell p grid.geom (fun _ => fin (1 / 2)) (fun _ => 0) = true := by
    have hins : grid.geom.isInside (fun _ => fin (1 / 2)) = true :=
      (cart_inside _ _ _ (fun _ => (1 / 2 : ℝ))).2 fun a => ⟨by norm_num, by norm_num⟩
    obtain ⟨c, hc, hb⟩ := hfill.2.isSome hins
    have : c = fun _ => 0 := by
      funext a
      have : c a < 1 := hb a
      omega
    unfold inCell
    rw [hins, hc, this]
    simp
  have := k (1, 0, t') (by rw [hl, List.filter_cons_of_pos (by rw [hst]; exact hin), List.filter_nil])
  rw [this]
  congr 1
  ring

/-- **C129 is false of `msd_field` (and `dispersion`) for the unit of time.** The demo dataset, a particle that moves by 1/2 along every
axis per second, recorded every second; and the same with the times in another unit (as numbers a thousand times smaller). The displacement from time
1 over one second is 3/4; in the other unit, with window and delay converted, `msd_field` answers 0. -/
theorem C129_unit_false (p : Profile) (kind : Kind) : ∃ d d' : Dm (Timestep ℝ),
    Dm.new p kind demoFile 4 Timestep.default = .ok d ∧ Dm.new p kind milliFile 4 Timestep.default = .ok d' ∧
    Retimed (1 / 1000) 0 (fun t => (t : ℝ)) d d' ∧ Rewindowed (1 / 1000) 0 atOne atMilli ∧
    Clocked demoStats d.file d.n (fun t => 0 + (t : ℝ) * 1) ∧ Clocked milliStats d'.file d'.n (fun t => 1 / 1000 * (t : ℝ) + 0) ∧
    (∃ g, answerOf (msdField p d demoStats (Grid.newCart (fun _ => 1) (finLimits (fun _ => 0) (fun _ => 4))) atOne (fin 1)) = .ok g ∧
      g.st.data.get (fun _ => 0) = fin (3 / 4)) ∧
    ∃ g, answerOf (msdField p d' milliStats (Grid.newCart (fun _ => 1) (finLimits (fun _ => 0) (fun _ => 4))) atMilli
      (fin (1 / 1000 * 1))) = .ok g ∧ g.st.data.get (fun _ => 0) = fin 0 := by
  obtain ⟨d, e, hc, hf, hn⟩ := Dm.canLook_new p kind demoFile 4 Timestep.default (by norm_num) (by norm_num)
    (Or.inr (by unfold BUFFERSIZE; norm_num))
  obtain ⟨d', e', hc', hf', hn'⟩ := Dm.canLook_new p kind milliFile 4 Timestep.default (by norm_num) (by norm_num)
    (Or.inr (by unfold BUFFERSIZE; norm_num))
  have hk : Clocked demoStats d.file d.n (fun t => 0 + (t : ℝ) * 1) := by rw [hf, hn]; exact demo_clocked 4 _ rfl
  have hk' : Clocked milliStats d'.file d'.n (fun t => 1 / 1000 * (t : ℝ) + 0) := by
    rw [hf', hn']
    refine ⟨rfl, fun t _ => rfl, fun i j h _ => ?_⟩
    have : (i : ℝ) ≤ j := by exact_mod_cast h
    linarith
  have us : atOne.Usable := ⟨(usable_default (K := ℝ)).1, (usable_default (K := ℝ)).2.1, (usable_default (K := ℝ)).2.2.1,
    (usable_default (K := ℝ)).2.2.2⟩
  have us' : atMilli.Usable := us
  have hrw : Rewindowed (1 / 1000) 0 atOne atMilli := ⟨⟨1, 1, rfl, rfl⟩⟩
  have hrt : Retimed (1 / 1000) 0 (fun t => (t : ℝ)) d d' := by
    refine ⟨by rw [hn, hn'], fun t _ => by rw [hf]; rfl, fun t _ => by rw [hf, hf']; rfl⟩
  have hpk : ∀ t, t < 4 → (demoFile t).picks atOne = if t = 1 then [0] else [] := by
    intro t _
    have hch : ∀ i, (demoFile t).chosen atOne i = true := chosen_default (demoFile t)
    unfold Timestep.picks
    by_cases h1 : t = 1
    · rw [if_pos h1, if_pos]
      · rw [List.filter_eq_self.2 fun i _ => hch i]; rfl
      · unfold Selector.timestepValid
        rw [h1]
        simp [atOne, demoFile]
    · rw [if_neg h1, if_neg]
      unfold Selector.timestepValid
      simp only [atOne, demoFile, Bool.and_eq_true, decide_eq_true_eq, ge_iff_le, F.le_fin]
      rintro ⟨a, b⟩
      apply h1
      have a' : 1 ≤ t := by exact_mod_cast a
      have b' : t ≤ 1 := by exact_mod_cast b
      omega
  have hr3 : List.range 3 = [0, 1, 2] := rfl
  have hl : d.leads p atOne demoStats (fin 1) (List.range (d.n - 1)) = [(1, 0, 2)] := by
    have hp : partner p demoStats.times demoFile (fin 1) 1 = some 2 := by
      have := partner_uniform p demoStats demoFile 4 1 0 (by norm_num) (demo_clocked 4 demoStats rfl) (by norm_num) 1 1 (by norm_num)
      simpa using this
    unfold Dm.leads
    rw [hf, hn, hr3]
    simp only [leads_cons, leads_nil, hp, hpk 0 (by norm_num), hpk 1 (by norm_num), hpk 2 (by norm_num)]
    cases partner p demoStats.times demoFile (fin 1) 0 <;> cases partner p demoStats.times demoFile (fin 1) 2 <;> rfl
  have hl' : d'.leads p atMilli milliStats (fin (1 / 1000 * 1)) (List.range (d'.n - 1)) = [(1, 0, 1)] := by
    have hp : partner p milliStats.times d'.file (fin (1 / 1000 * 1)) 1 = some 1 := by
      unfold partner
      have : (d'.file 1).time + fin (1 / 1000 * 1) = fin (2 / 1000) := by
        rw [hf']
        change fin (1 / 1000 * ((1 : ℕ) : ℝ) + 0) + fin (1 / 1000 * 1) = _
        rw [F.eadd]; congr 1; norm_num
      rw [this]
      change (match closest p (timesOf (fun i => 1 / 1000 * (i : ℝ) + 0) 4) (fin (2 / 1000)) with
        | .ok r => r
        | .error _ => none) = _
      rw [milli_partner]
    have hq : ∀ t, t < 4 → (d'.file t).picks atMilli = if t = 1 then [0] else [] := by
      intro t ht
      rw [hrt.picks (by norm_num) hrw t (by omega), hf, hpk t ht]
    unfold Dm.leads
    rw [hn', hr3]
    simp only [leads_cons, leads_nil, hp, hq 0 (by norm_num), hq 1 (by norm_num), hq 2 (by norm_num)]
    cases partner p milliStats.times d'.file (fin (1 / 1000 * 1)) 0 <;> cases partner p milliStats.times d'.file (fin (1 / 1000 * 1)) 2 <;> rfl
  refine ⟨d, d', e, e', hrt, hrw, hk, hk', ?_, ?_⟩
  · obtain ⟨g, h1, h2⟩ := demo_msd p d hc hn demoStats _ hk (fun t _ => by rw [hf]) (fun t _ => by rw [hf]; exact demoFile_wf t) atOne us 1 2
      (by norm_num) hl
    refine ⟨g, h1, ?_⟩
    rw [h2]; congr 1; norm_num
  · obtain ⟨g, h1, h2⟩ := demo_msd p d' hc' hn' milliStats _ hk' (fun t _ => by rw [hf']; rfl)
      (fun t _ => by rw [hf']; exact demoFile_wf t) atMilli us' (1 / 1000 * 1) 1 (by norm_num) hl'
    refine ⟨g, h1, ?_⟩
    rw [h2]; congr 1; norm_num

end Up4
