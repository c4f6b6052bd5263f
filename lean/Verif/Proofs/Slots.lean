import Verif.Proofs.Samples

set_option linter.unusedSectionVars false

/-! Per-particle state machines: the loop over all particles of all timesteps is, slot by slot, one run of the machine. -/

namespace Up4
open F
open Selector (at')

variable {K : Type} [Field K] [LinearOrder K] [IsStrictOrderedRing K] [FloorRing K] [Arith K]

/-! ### Machines -/

/-- Run a machine with optional outputs over a list of inputs. -/
def machine {S α β : Type} (f : S → α → S × Option β) (s : S) (l : List α) : S × List β :=
  l.foldl (fun x a => ((f x.1 a).1, x.2 ++ (f x.1 a).2.toList)) (s, [])

theorem machine_snoc {S α β : Type} (f : S → α → S × Option β) (s : S) (l : List α) (a : α) :
    machine f s (l ++ [a]) = ((f (machine f s l).1 a).1, (machine f s l).2 ++ (f (machine f s l).1 a).2.toList) := by
  unfold machine
  rw [List.foldl_append]; rfl

/-- One machine per slot, outputs in one list. -/
def slotStep {S α β : Type} (idx : α → ℕ) (f : S → α → S × Option β) (x : (ℕ → S) × List β) (a : α) : (ℕ → S) × List β :=
  (Function.update x.1 (idx a) (f (x.1 (idx a)) a).1, x.2 ++ (f (x.1 (idx a)) a).2.toList)

/-- The values of a list of labelled values that carry label `i`, in order. -/
def ofLabel {β : Type} (l : List (ℕ × β)) (i : ℕ) : List β := (l.filter fun x => x.1 = i).map (·.2)

/-- The common output is an interleaving of the outputs of the slots: its values can be labelled with slots such that
the values of slot `i` are the outputs of one machine run over the inputs of slot `i`. -/
theorem slots_run {S α β : Type} (idx : α → ℕ) (f : S → α → S × Option β) (s0 : S) (l : List α) :
    let r := l.foldl (slotStep idx f) (fun _ => s0, [])
    (∀ i, r.1 i = (machine f s0 (l.filter fun a => idx a = i)).1) ∧
    ∃ T : List (ℕ × β), r.2 = T.map (·.2) ∧ ∀ i, ofLabel T i = (machine f s0 (l.filter fun a => idx a = i)).2 := by
  induction l using List.reverseRecOn with
  | nil => exact ⟨fun _ => rfl, [], rfl, fun _ => rfl⟩
  | append_singleton l a ih =>
    dsimp only at ih ⊢
    obtain ⟨h1, T, h2, h3⟩ := ih
    rw [List.foldl_append, List.foldl_cons, List.foldl_nil]
    set r := l.foldl (slotStep idx f) (fun _ => s0, [])
    refine ⟨fun i => ?_, T ++ ((f (r.1 (idx a)) a).2.toList.map fun b => (idx a, b)), ?_, fun i => ?_⟩
    · rw [List.filter_append]
      change Function.update r.1 (idx a) (f (r.1 (idx a)) a).1 i = _
      by_cases hi : idx a = i
      · subst hi
        rw [Function.update_self, List.filter_cons_of_pos (by simp), List.filter_nil, machine_snoc, ← h1]
      · rw [Function.update_of_ne (Ne.symm hi), List.filter_cons_of_neg (by simpa using hi), List.filter_nil, List.append_nil, h1]
    · change r.2 ++ _ = _
      rw [h2, List.map_append, List.map_map]
      congr 1
      exact (List.map_id' _).symm
    · rw [List.filter_append]
      unfold ofLabel at h3 ⊢
      rw [List.filter_append, List.map_append, h3]
      set O := (f (r.1 (idx a)) a).2.toList with hO
      by_cases hi : idx a = i
      · have e1 : (O.map fun b => (idx a, b)).filter (fun x => x.1 = i) = O.map fun b => (idx a, b) := by
          rw [List.filter_eq_self]
          intro x hx
          obtain ⟨b, _, rfl⟩ := List.mem_map.1 hx
          simpa using hi
        have e2 : (O.map fun b => (idx a, b)).map (·.2) = O := by rw [List.map_map]; exact List.map_id' _
        rw [e1, e2, List.filter_cons_of_pos (by simpa using hi), List.filter_nil, machine_snoc, ← h1, hO, hi]
      · have e1 : (O.map fun b => (idx a, b)).filter (fun x => x.1 = i) = [] := by
          rw [List.filter_eq_nil_iff]
          intro x hx
          obtain ⟨b, _, rfl⟩ := List.mem_map.1 hx
          simpa using hi
        rw [e1, List.filter_cons_of_neg (by simpa using hi), List.filter_nil, List.append_nil, List.map_nil, List.append_nil]

/-! ### The loop of the circulation analyses -/

/-- An observation: previous timestep, current timestep, particle. -/
abbrev Obs := ℕ × ℕ × ℕ

/-- Pairs of consecutive entries of `old :: l`. -/
def consecutive (old : ℕ) (l : List ℕ) : List (ℕ × ℕ) := (old :: l).zip l

theorem consecutive_cons (old t : ℕ) (l : List ℕ) : consecutive old (t :: l) = (old, t) :: consecutive t l := rfl

/-- The observations over the timesteps `l`, the first one compared with timestep `old`: each selected particle of a
timestep of the window, compared with the previous timestep of the window. -/
def observations (sel : Selector K) (file : ℕ → Timestep K) (old : ℕ) (l : List ℕ) : List Obs :=
  (consecutive old (l.filter fun t => sel.timestepValid (file t).time)).flatMap fun x =>
    ((file x.2).picks sel).map fun i => (x.1, x.2, i)

theorem circLoop_eq [LawfulArith K] {σ : Type} (p : Profile) (sel : Selector K) (hs : sel.Usable) (body : Timestep K → σ → Timestep K → ℕ → Run σ)
    (l : List ℕ) (d : Dm (Timestep K)) (hd : d.Inv) (hw : ∀ t, t < d.n → (d.file t).Wf) (hl : ∀ t ∈ l, t < d.n) (old : ℕ) (s : σ) :
    ∃ b ts, Buf.Good d.file d.n b ∧ circLoop p sel body l d (d.file old) s =
      ((observations sel d.file old l).foldlM (fun s (o : Obs) => body (d.file o.1) s (d.file o.2.1) o.2.2) s >>= fun s =>
        .ok ({ d with main := b }, ts, s)) := by
  induction l generalizing d old s with
  | nil => exact ⟨d.main, d.file old, hd.1, rfl⟩
  | cons t l ih =>
    obtain ⟨b, e, hb, hbw⟩ := Dm.get_ok (K := K) p d hd t (hl t (by simp))
    unfold circLoop at ih ⊢
    rw [List.foldlM_cons]
    dsimp only
    rw [e, run_bind_ok]
    dsimp only
    by_cases hv : sel.timestepValid (d.file t).time = true
    · rw [if_pos hv, forParticles_eq sel hs _ (hw t (hl t (by simp)))]
      have hpk : (List.range (d.file t).position.length).filter ((d.file t).chosen sel) = (d.file t).picks sel := by
        unfold Timestep.picks; rw [if_pos hv]
      rw [hpk]
      have hobs : observations sel d.file old (t :: l) = ((d.file t).picks sel).map (fun i => (old, t, i)) ++ observations sel d.file t l := by
        unfold observations
        rw [List.filter_cons_of_pos (by simpa using hv), consecutive_cons, List.flatMap_cons]
      rw [hobs, foldlM_append_run, foldlM_map_run]
      cases h : ((d.file t).picks sel).foldlM (fun s i => body (d.file old) s (d.file t) i) s with
      | error er => exact ⟨d.main, d.file old, hd.1, rfl⟩
      | ok s' =>
        obtain ⟨b', ts, hb', e'⟩ := ih { d with main := b } ⟨hb, hd.2⟩ hw (fun t ht => hl t (by simp [ht])) t s'
        exact ⟨b', ts, hb', e'⟩
    · rw [if_neg hv]
      have hobs : observations sel d.file old (t :: l) = observations sel d.file old l := by
        unfold observations
        rw [List.filter_cons_of_neg (by simpa using hv)]
      rw [hobs]
      obtain ⟨b', ts, hb', e'⟩ := ih { d with main := b } ⟨hb, hd.2⟩ hw (fun t ht => hl t (by simp [ht])) old s
      exact ⟨b', ts, hb', e'⟩

theorem innerSteps_eq (p : Profile) (d : Dm (Timestep K)) (hd : d.Inv) : d.innerSteps p = .ok (List.range' 1 (d.n - 2)) := by
  obtain ⟨⟨h1, h2, _⟩, _, hn⟩ := hd
  unfold Dm.innerSteps
  rw [usub_ok p (by omega) (by omega), run_bind_ok]
  rfl

/-- Every observation is of a timestep of the list and of the window, a selected particle, and an earlier timestep. -/
theorem mem_observations (sel : Selector K) (file : ℕ → Timestep K) (old : ℕ) (l : List ℕ) (o : Obs) (h : o ∈ observations sel file old l) :
    (o.1 = old ∨ o.1 ∈ l) ∧ o.2.1 ∈ l ∧ o.2.2 ∈ (file o.2.1).picks sel := by
  unfold observations at h
  obtain ⟨x, hx, ho⟩ := List.mem_flatMap.1 h
  obtain ⟨i, hi, rfl⟩ := List.mem_map.1 ho
  have := List.of_mem_zip (show (x.1, x.2) ∈ _ from hx)
  refine ⟨?_, (List.mem_filter.1 this.2).1, hi⟩
  rcases List.mem_cons.1 this.1 with h | h
  · exact Or.inl h
  · exact Or.inr (List.mem_filter.1 h).1

end Up4
