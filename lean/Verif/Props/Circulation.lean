import Verif.Proofs.Slots
import Verif.Props.UsedGrid

set_option linter.unusedSectionVars false

/-! # C45: circulation times over one boundary -/

namespace Up4
open F
open Selector (at')

variable {K : Type} [Field K] [LinearOrder K] [IsStrictOrderedRing K] [FloorRing K] [Arith K]

/-! ### Specification -/

/-- The observations of `circulation_time`: timesteps `1 … n-2` of the window, each compared with the previous one (the first
with timestep 0). -/
def watched (sel : Selector K) (d : Dm (Timestep K)) : List Obs := observations sel d.file 0 (List.range' 1 (d.n - 2))

/-- Time of an observation. -/
def obsTime (file : ℕ → Timestep K) (o : Obs) : F K := (file o.2.1).time

/-- The observed particle has the same id in both timesteps. -/
def sameId (file : ℕ → Timestep K) (o : Obs) : Bool := F.eqB ((file o.2.1).pid o.2.2) ((file o.1).pid o.2.2)

/-- Coordinate of the observed particle before and after. -/
def before (file : ℕ → Timestep K) (axis : Fin 3) (o : Obs) : F K := (file o.1).pos o.2.2 axis
def after (file : ℕ → Timestep K) (axis : Fin 3) (o : Obs) : F K := (file o.2.1).pos o.2.2 axis

/-- The times at which particle `i` crosses the boundary, in order. -/
def crossTimes (sel : Selector K) (d : Dm (Timestep K)) (axis : Fin 3) (bound : F K) (i : ℕ) : List (F K) :=
  ((watched sel d).filter fun o => decide (o.2.2 = i) && (sameId d.file o && crosses bound (before d.file axis o) (after d.file axis o))).map
    (obsTime d.file)

/-- Group a list into threes; for each full group the last minus the first entry. -/
def triples : List (F K) → List (F K)
  | a :: _ :: c :: l => (c - a) :: triples l
  | _ => []

/-- Every timestep has the same number `m` of particles. -/
def Steady (file : ℕ → Timestep K) (n m : ℕ) : Prop := ∀ t, t < n → (file t).position.length = m

/-- In exact arithmetic the crossing test is: strictly on opposite sides of the boundary. -/
theorem crosses_iff [ExactArith K] (b o x : K) : crosses (fin b) (fin o) (fin x) = true ↔ (o < b ∧ b < x) ∨ (x < b ∧ b < o) := by
  unfold crosses
  rw [decide_eq_true_iff, esub, esub, emul, F.zero_def, F.lt_fin, mul_neg_iff]
  constructor
  · rintro (⟨h1, h2⟩ | ⟨h1, h2⟩)
    · exact Or.inl ⟨by linarith, by linarith⟩
    · exact Or.inr ⟨by linarith, by linarith⟩
  · rintro (⟨h1, h2⟩ | ⟨h1, h2⟩)
    · exact Or.inl ⟨by linarith, by linarith⟩
    · exact Or.inr ⟨by linarith, by linarith⟩

/-! ### The machine -/

theorem machine_cons {S α β : Type} (f : S → α → S × Option β) (s : S) (a : α) (l : List α) :
    machine f s (a :: l) = ((machine f (f s a).1 l).1, (f s a).2.toList ++ (machine f (f s a).1 l).2) := by
  induction l using List.reverseRecOn with
  | nil => simp [machine]
  | append_singleton l x ih =>
    rw [← List.cons_append, machine_snoc, machine_snoc, ih]
    simp

theorem machine_filter {S α γ β : Type} (c : α → Bool) (h : α → γ) (g : S → γ → S × Option β) (s : S) (l : List α) :
    machine (fun s a => if c a then g s (h a) else (s, none)) s l = machine g s ((l.filter c).map h) := by
  induction l generalizing s with
  | nil => rfl
  | cons a l ih =>
    rw [machine_cons]
    by_cases hc : c a = true
    · rw [if_pos hc, List.filter_cons_of_pos hc, List.map_cons, machine_cons, ih]
    · rw [if_neg hc, List.filter_cons_of_neg hc, ih]; rfl

theorem cross_machine (l : List (F K)) (z : F K) : (machine crossStep (⟨0, z⟩ : Slot K) l).2 = triples l := by
  induction l using triples.induct generalizing z with
  | case1 a b c l ih =>
    rw [machine_cons, machine_cons, machine_cons, triples]
    change [] ++ ([] ++ ([c - a] ++ (machine crossStep (⟨0, a⟩ : Slot K) l).2)) = _
    rw [ih]; rfl
  | case2 l h =>
    match l, h with
    | [], _ => rfl
    | [a], _ => rfl
    | [a, b], _ => rfl
    | a :: b :: c :: l, h => exact absurd rfl (h a b c l)

/-- The particle body on an observation. -/
def crossObs (file : ℕ → Timestep K) (axis : Fin 3) (bound : F K) (s : Slot K) (o : Obs) : Slot K × Option (F K) :=
  if sameId file o && crosses bound (before file axis o) (after file axis o) then crossStep s (obsTime file o) else (s, none)

theorem at_pid {ts : Timestep K} (hw : ts.Wf) {i : ℕ} (h : i < ts.position.length) : at' ts.particleid i = .ok (ts.pid i) :=
  at_ok (hw.2.2.1 ▸ h) _

theorem watched_ok (sel : Selector K) (d : Dm (Timestep K)) (hd : d.Inv) (m : ℕ) (hm : Steady d.file d.n m) :
    ∀ o ∈ watched sel d, o.1 < d.n ∧ o.2.1 < d.n ∧ o.2.2 < m := by
  intro o ho
  have hn : 1 ≤ d.n := by have := hd.1.1; have := hd.1.2.1; omega
  obtain ⟨h1, h2, h3⟩ := mem_observations _ _ _ _ _ ho
  have h2' : o.2.1 < d.n := by have := List.mem_range'_1.1 h2; omega
  refine ⟨?_, h2', ?_⟩
  · rcases h1 with h | h
    · omega
    · have := List.mem_range'_1.1 h; omega
  · rw [← hm _ h2']
    have : o.2.2 ∈ (d.file o.2.1).picks sel := h3
    unfold Timestep.picks at this
    split_ifs at this
    · exact List.mem_range.1 (List.mem_filter.1 this).1
    · cases this

theorem circ_fold (np : ℕ) (axis : Fin 3) (bound : F K) (file : ℕ → Timestep K) (L : List Obs)
    (hL : ∀ o ∈ L, (file o.1).Wf ∧ (file o.2.1).Wf ∧ o.2.2 < (file o.1).position.length ∧ o.2.2 < (file o.2.1).position.length ∧ o.2.2 < np + 1)
    (s : (ℕ → Slot K) × List (F K)) :
    L.foldlM (fun s (o : Obs) => circBody np axis bound (file o.1) s (file o.2.1) o.2.2) (⟨s.1, s.2⟩ : Circ K) =
      .ok ⟨(L.foldl (slotStep (fun o : Obs => o.2.2) (crossObs file axis bound)) s).1,
        (L.foldl (slotStep (fun o : Obs => o.2.2) (crossObs file axis bound)) s).2⟩ := by
  induction L generalizing s with
  | nil => rfl
  | cons o L ih =>
    obtain ⟨w1, w2, l1, l2, l3⟩ := hL o (by simp)
    rw [List.foldlM_cons, List.foldl_cons]
    have step : circBody np axis bound (file o.1) (⟨s.1, s.2⟩ : Circ K) (file o.2.1) o.2.2 =
        .ok ⟨(slotStep (fun o : Obs => o.2.2) (crossObs file axis bound) s o).1, (slotStep (fun o : Obs => o.2.2) (crossObs file axis bound) s o).2⟩ := by
      unfold circBody
      rw [at_pid w2 l2, run_bind_ok, at_pid w1 l1, run_bind_ok]
      unfold slotStep crossObs sameId
      by_cases h1 : F.eqB ((file o.2.1).pid o.2.2) ((file o.1).pid o.2.2) = false
      · rw [if_pos h1, h1]
        simp [run_pure]
      · rw [if_neg h1, at_pos l2, run_bind_ok, at_pos l1, run_bind_ok]
        rw [Bool.not_eq_false] at h1
        rw [h1, Bool.true_and]
        by_cases h2 : crosses bound ((file o.1).pos o.2.2 axis) ((file o.2.1).pos o.2.2 axis) = true
        · rw [if_pos h2]
          unfold slotRead
          rw [if_pos l3, run_bind_ok, run_pure]
          have h2' : crosses bound (before file axis o) (after file axis o) = true := h2
          simp only [h2', if_true]
          rfl
        · rw [if_neg h2]
          have h2' : ¬ crosses bound (before file axis o) (after file axis o) = true := h2
          simp [h2', run_pure]
    rw [step, run_bind_ok]
    exact ih (fun o ho => hL o (by simp [ho])) _

/-- **C45, what is reported.** For a boundary inside the system and a dataset with a fixed number of particles (at most
`nparticles + 1`), both managers, both profiles, any lawful arithmetic: `circulation_time` does not panic, and its values can be
labelled with particles such that those of particle `i`, in order, are exactly: the crossing times of `i` grouped in threes, for
each full group the time from its first to its third crossing. -/
theorem C45_values [LawfulArith K] (p : Profile) (d : Dm (Timestep K)) (hd : d.Inv) (st : Stats K) (sel : Selector K) (hs : sel.Usable)
    (hw : ∀ t, t < d.n → (d.file t).Wf) (m : ℕ) (hm : Steady d.file d.n m) (hnp : m ≤ st.nparticles + 1) (axis : Fin 3) (bound : F K)
    (hb : ¬ (bound > (st.dims axis).2 ∨ bound < (st.dims axis).1)) :
    ∃ d' out, circulationTime p d st sel axis bound = .ok (d', out) ∧ d'.Inv ∧ d'.file = d.file ∧ d'.n = d.n ∧
      ∃ T : List (ℕ × F K), out = T.map (·.2) ∧ ∀ i, ofLabel T i = triples (crossTimes sel d axis bound i) := by
  have hn : 0 < d.n := by have := hd.1.1; have := hd.1.2.1; omega
  obtain ⟨b0, e0, hb0, _⟩ := Dm.get_ok (K := K) p d hd 0 hn
  have hd0 : ({ d with main := b0 } : Dm (Timestep K)).Inv := ⟨hb0, hd.2⟩
  obtain ⟨b1, ts, hb1, e1⟩ := circLoop_eq (K := K) p sel hs (circBody st.nparticles axis bound) (List.range' 1 (d.n - 2)) { d with main := b0 } hd0 hw
    (fun t ht => by have := List.mem_range'_1.1 ht; change t < d.n; omega) 0 ⟨fun _ => ⟨0, 0⟩, []⟩
  have hfold := circ_fold st.nparticles axis bound d.file (watched sel d) (by
    intro o ho
    obtain ⟨h1, h2, h3⟩ := watched_ok sel d hd m hm o ho
    exact ⟨hw _ h1, hw _ h2, by rw [hm _ h1]; exact h3, by rw [hm _ h2]; exact h3, by omega⟩) (fun _ => ⟨0, 0⟩, [])
  obtain ⟨_, T, h1, h2⟩ := slots_run (fun o : Obs => o.2.2) (crossObs d.file axis bound) (⟨0, 0⟩ : Slot K) (watched sel d)
  refine ⟨{ d with main := b1 }, _, ?_, ⟨hb1, hd.2⟩, rfl, rfl, T, h1, fun i => ?_⟩
  · unfold circulationTime
    rw [if_neg hb, e0, run_bind_ok, innerSteps_eq p _ hd0, run_bind_ok]
    change (circLoop p sel (circBody st.nparticles axis bound) (List.range' 1 (d.n - 2)) { d with main := b0 } (d.file 0) _ >>= _) = _
    rw [e1]
    change ((List.foldlM _ _ (watched sel d) >>= _) >>= _) = _
    rw [hfold]
    rfl
  · rw [h2 i]
    have : crossObs d.file axis bound = fun (s : Slot K) o => if (sameId d.file o && crosses bound (before d.file axis o) (after d.file axis o)) = true
        then crossStep s (obsTime d.file o) else (s, none) := rfl
    rw [this, machine_filter, cross_machine, List.filter_filter]
    unfold crossTimes
    congr 2
    apply List.filter_congr
    intro o _
    rw [Bool.and_comm]

/-- A boundary outside the system is rejected. -/
theorem C45_reject (p : Profile) (d : Dm (Timestep K)) (st : Stats K) (sel : Selector K) (axis : Fin 3) (bound : F K)
    (hb : bound > (st.dims axis).2 ∨ bound < (st.dims axis).1) : circulationTime p d st sel axis bound = .error .explicit := by
  unfold circulationTime; rw [if_pos hb]

/-! ### Consequences -/

theorem triples_length (l : List (F K)) : (triples l).length = l.length / 3 := by
  induction l using triples.induct with
  | case1 a b c l ih => rw [triples, List.length_cons, ih]; simp only [List.length_cons]; omega
  | case2 l h =>
    match l, h with
    | [], _ => simp [triples]
    | [a], _ => simp [triples]
    | [a, b], _ => simp [triples]
    | a :: b :: c :: l, h => exact absurd rfl (h a b c l)

/-- Every reported value is the time between two entries of the list, the later one two places after the earlier one. -/
theorem triples_mem (l : List (F K)) (v : F K) (h : v ∈ triples l) : ∃ k a c, l[k]? = some a ∧ l[k + 2]? = some c ∧ v = c - a := by
  induction l using triples.induct with
  | case1 a b c l ih =>
    rw [triples] at h
    rcases List.mem_cons.1 h with rfl | h
    · exact ⟨0, a, c, rfl, rfl, rfl⟩
    · obtain ⟨k, x, y, h1, h2, h3⟩ := ih h
      exact ⟨k + 3, x, y, h1, h2, h3⟩
  | case2 l h' =>
    match l, h', h with
    | [], _, h => cases h
    | [a], _, h => cases h
    | [a, b], _, h => cases h
    | a :: b :: c :: l, h', _ => exact absurd rfl (h' a b c l)

theorem pairwise_consecutive (old : ℕ) (l : List ℕ) (h : l.Pairwise (· < ·)) : (consecutive old l).Pairwise fun x y => x.2 < y.2 := by
  induction l generalizing old with
  | nil => exact List.Pairwise.nil
  | cons t l ih =>
    rw [consecutive_cons]
    rw [List.pairwise_cons] at h ⊢
    refine ⟨fun y hy => ?_, ih t h.2⟩
    have := List.of_mem_zip (show (y.1, y.2) ∈ (t :: l).zip l from hy)
    exact h.1 _ this.2

/-- The observations come in the order of the timesteps. -/
theorem watched_sorted (sel : Selector K) (d : Dm (Timestep K)) : (watched sel d).Pairwise fun o o' => o.2.1 ≤ o'.2.1 := by
  unfold watched observations
  rw [List.pairwise_flatMap]
  refine ⟨fun x _ => ?_, ?_⟩
  · rw [List.pairwise_map]
    exact List.pairwise_iff_forall_sublist.2 (fun _ => le_refl _)
  · refine (pairwise_consecutive 0 _ ((List.pairwise_lt_range').sublist List.filter_sublist)).imp ?_
    intro x y hxy o ho o' ho'
    obtain ⟨i, _, rfl⟩ := List.mem_map.1 ho
    obtain ⟨j, _, rfl⟩ := List.mem_map.1 ho'
    exact hxy.le

theorem crossTimes_sorted (sel : Selector K) (d : Dm (Timestep K)) (axis : Fin 3) (bound : F K) (i : ℕ) (τ : ℕ → K)
    (hτ : ∀ t, t < d.n → (d.file t).time = fin (τ t)) (hmono : ∀ t t', t ≤ t' → t' < d.n → τ t ≤ τ t') (hd : d.Inv) :
    ∃ l : List K, crossTimes sel d axis bound i = l.map F.fin ∧ l.Pairwise (· ≤ ·) := by
  have hn : 1 ≤ d.n := by have := hd.1.1; have := hd.1.2.1; omega
  have hlt : ∀ o ∈ watched sel d, o.2.1 < d.n := by
    intro o ho
    obtain ⟨_, h2, _⟩ := mem_observations _ _ _ _ _ ho
    have := List.mem_range'_1.1 h2; omega
  set P : Obs → Bool := fun o => decide (o.2.2 = i) && (sameId d.file o && crosses bound (before d.file axis o) (after d.file axis o))
  refine ⟨((watched sel d).filter P).map fun o => τ o.2.1, ?_, ?_⟩
  · rw [List.map_map]
    unfold crossTimes
    apply List.map_congr_left
    intro o ho
    exact hτ _ (hlt o (List.mem_filter.1 ho).1)
  · rw [List.pairwise_map]
    refine ((watched_sorted sel d).sublist List.filter_sublist).imp_of_mem ?_
    intro o o' _ ho' h
    exact hmono _ _ h (hlt o' (List.mem_filter.1 ho').1)

/-- **C45 (partial).** The full property: each value is the time between two crossings of one particle, two crossings apart; values
are nonnegative for nondecreasing times; every completed circulation is reported once. Proved: the first two, and that the values of
a particle with `k` crossings are exactly the `k / 3` durations of its disjoint successive groups of three crossings. Missing: of two
circulations that share a crossing only one is reported (`C45_false`). -/
theorem C45_circulation_partial [LawfulArith K] (p : Profile) (d : Dm (Timestep K)) (hd : d.Inv) (st : Stats K) (sel : Selector K) (hs : sel.Usable)
    (hw : ∀ t, t < d.n → (d.file t).Wf) (m : ℕ) (hm : Steady d.file d.n m) (hnp : m ≤ st.nparticles + 1) (axis : Fin 3) (bound : F K)
    (hb : ¬ (bound > (st.dims axis).2 ∨ bound < (st.dims axis).1)) (τ : ℕ → K) (hτ : ∀ t, t < d.n → (d.file t).time = fin (τ t))
    (hmono : ∀ t t', t ≤ t' → t' < d.n → τ t ≤ τ t') :
    ∃ d' out, circulationTime p d st sel axis bound = .ok (d', out) ∧ ∃ T : List (ℕ × F K), out = T.map (·.2) ∧
      (∀ i v, (i, v) ∈ T → ∃ k a c, (crossTimes sel d axis bound i)[k]? = some a ∧ (crossTimes sel d axis bound i)[k + 2]? = some c ∧
        v = c - a ∧ fin 0 ≤ v) ∧
      ∀ i, (ofLabel T i).length = (crossTimes sel d axis bound i).length / 3 := by
  obtain ⟨d', out, h1, _, _, _, T, h2, h3⟩ := C45_values p d hd st sel hs hw m hm hnp axis bound hb
  refine ⟨d', out, h1, T, h2, fun i v hv => ?_, fun i => by rw [h3, triples_length]⟩
  have hmem : v ∈ ofLabel T i := by
    unfold ofLabel
    exact List.mem_map.2 ⟨(i, v), List.mem_filter.2 ⟨hv, by simp⟩, rfl⟩
  rw [h3 i] at hmem
  obtain ⟨k, a, c, ha, hc, hv'⟩ := triples_mem _ _ hmem
  refine ⟨k, a, c, ha, hc, hv', ?_⟩
  obtain ⟨l, hl, hp⟩ := crossTimes_sorted sel d axis bound i τ hτ hmono hd
  rw [hl, List.getElem?_map] at ha hc
  obtain ⟨x, hx, rfl⟩ := Option.map_eq_some_iff.1 ha
  obtain ⟨y, hy, rfl⟩ := Option.map_eq_some_iff.1 hc
  obtain ⟨hk, hx'⟩ := List.getElem?_eq_some_iff.1 hx
  obtain ⟨hk', hy'⟩ := List.getElem?_eq_some_iff.1 hy
  have hle : x ≤ y := by
    rw [← hx', ← hy']
    exact List.pairwise_iff_getElem.1 hp k (k + 2) hk hk' (by omega)
  rw [hv', F.sub_fin]
  exact F.fin_le_rnd F.rep_zero (by linarith)


/-! ### Witness and counterexample -/

/-- A particle swinging between 0 and 2, one step per second. -/
noncomputable def swing (t : ℕ) : Timestep ℝ :=
  ⟨fin t, [fun _ => fin (if t % 2 = 0 then 0 else 2)], [fun _ => fin 0], [fin 1], [fin 1], [fin 0], [fin 0], [fin 0]⟩

theorem swing_picks (t : ℕ) (h : t ≤ 10) : (swing t).picks Selector.default = [0] := by
  have hv : (Selector.default : Selector ℝ).timestepValid (swing t).time = true := demo_time t h
  unfold Timestep.picks
  rw [if_pos hv]
  have : (List.range (swing t).position.length) = [0] := rfl
  rw [this, List.filter_eq_self.2 (fun i _ => chosen_default _ i)]

theorem swing_obs : observations Selector.default swing 0 (List.range' 1 5) = [(0, 1, 0), (1, 2, 0), (2, 3, 0), (3, 4, 0), (4, 5, 0)] := by
  have hr : List.range' 1 5 = [1, 2, 3, 4, 5] := rfl
  have hf : (List.range' 1 5).filter (fun t => (Selector.default : Selector ℝ).timestepValid (swing t).time) = [1, 2, 3, 4, 5] := by
    rw [List.filter_eq_self.2, hr]
    intro t ht
    exact demo_time t (by have := List.mem_range'_1.1 ht; omega)
  unfold observations
  rw [hf]
  simp [consecutive, swing_picks]

/-- **C45 is false of the code:** the particle swings up through the boundary at 1, 3 and 5 s, so it completes a circulation at 3 s and another
at 5 s; only the first is reported. -/
theorem C45_false (p : Profile) (kind : Kind) (st : Stats ℝ) (hst : st.dims 2 = (fin 0, fin 2)) : ∃ d d' : Dm (Timestep ℝ),
    Dm.new p kind swing 7 Timestep.default = .ok d ∧ crossTimes Selector.default d 2 (fin 1) 0 = [fin 1, fin 2, fin 3, fin 4, fin 5] ∧
    circulationTime p d st Selector.default 2 (fin 1) = .ok (d', [fin 2]) := by
  obtain ⟨d, e, hinv, hf, hn, _⟩ := Dm.new_ok p kind swing 7 Timestep.default (by norm_num) (by norm_num)
  have hW : watched Selector.default d = [(0, 1, 0), (1, 2, 0), (2, 3, 0), (3, 4, 0), (4, 5, 0)] := by
    unfold watched; rw [hf, hn]; exact swing_obs
  have hall : ∀ o ∈ watched Selector.default d, (decide (o.2.2 = 0) && (sameId d.file o && crosses (fin 1) (before d.file 2 o) (after d.file 2 o))) = true := by
    rw [hW, hf]
    intro o ho
    have hid : sameId swing o = true ∨ o.2.2 ≠ 0 := by
      by_cases h : o.2.2 = 0
      · left
        unfold sameId Timestep.pid
        rw [h]
        change F.eqB (fin (1 : ℝ)) (fin 1) = true
        simp [F.eqB]
      · exact Or.inr h
    simp only [List.mem_cons, List.not_mem_nil, or_false] at ho
    rcases ho with rfl | rfl | rfl | rfl | rfl <;>
    · rw [hid.resolve_right (by simp)]
      simp only [decide_true, Bool.true_and]
      exact (crosses_iff (K := ℝ) 1 _ _).2 (by norm_num)
  have hcross : crossTimes Selector.default d 2 (fin 1) 0 = [fin 1, fin 2, fin 3, fin 4, fin 5] := by
    unfold crossTimes
    rw [List.filter_eq_self.2 hall, hW, hf]
    simp [obsTime, swing]
  obtain ⟨d', out, h1, _, _, _, T, h2, h3⟩ := C45_values p d hinv st Selector.default usable_default
    (fun t _ => by rw [hf]; exact ⟨rfl, rfl, rfl, rfl, rfl, rfl⟩) 1 (fun t _ => by rw [hf]; rfl) (by omega) 2 (fin 1) (by
      rw [hst]
      rintro (h | h)
      · have := (F.lt_fin (2 : ℝ) 1).1 h; norm_num at this
      · have := (F.lt_fin (1 : ℝ) 0).1 h; norm_num at this)
  have hother : ∀ i, i ≠ 0 → ofLabel T i = [] := by
    intro i hi
    rw [h3 i]
    have : crossTimes Selector.default d 2 (fin 1) i = [] := by
      unfold crossTimes
      rw [List.filter_eq_nil_iff.2, List.map_nil]
      intro o ho
      have := (of_decide_eq_true (Bool.and_eq_true_iff.1 (hall o ho)).1)
      rw [this, decide_eq_false (Ne.symm hi)]; simp
    rw [this]; rfl
  have hT : ofLabel T 0 = T.map (·.2) := by
    unfold ofLabel
    rw [List.filter_eq_self.2]
    intro x hx
    by_contra hne
    have hx0 : x.1 ≠ 0 := by simpa using hne
    have : x.2 ∈ ofLabel T x.1 := List.mem_map.2 ⟨x, List.mem_filter.2 ⟨hx, by simp⟩, rfl⟩
    rw [hother _ hx0] at this
    cases this
  refine ⟨d, d', e, hcross, ?_⟩
  rw [h1, h2, ← hT, h3 0, hcross]
  change Except.ok (d', [fin 3 - fin 1]) = _
  rw [esub]
  norm_num

end Up4
