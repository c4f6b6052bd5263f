import Verif.Props.Circulation

set_option linter.unusedSectionVars false

/-! # C46: circulations between two boundaries -/

namespace Up4
open F
open Selector (at')

variable {K : Type} [Field K] [LinearOrder K] [IsStrictOrderedRing K] [FloorRing K] [Arith K]

/-! ### Specification -/

/-- A move of a particle: the time at which it was seen, its coordinate in the previous and in this timestep. -/
structure Move (K : Type) where
  time : F K
  old : F K
  pos : F K

/-- It left the region above `hi` (now strictly below). -/
def Move.leavesUp (hi : F K) (m : Move K) : Bool := decide (m.pos < hi ∧ m.old > hi)
/-- It entered the region above `hi`. -/
def Move.entersUp (hi : F K) (m : Move K) : Bool := decide (m.pos > hi ∧ m.old < hi)
/-- It left the region below `lo`. -/
def Move.leavesLow (lo : F K) (m : Move K) : Bool := decide (m.pos > lo ∧ m.old < lo)
/-- It entered the region below `lo`. -/
def Move.entersLow (lo : F K) (m : Move K) : Bool := decide (m.pos < lo ∧ m.old > lo)

/-- The moves of particle `i` seen by the analysis, in order. -/
def moves (sel : Selector K) (d : Dm (Timestep K)) (axis : Fin 3) (i : ℕ) : List (Move K) :=
  ((watched sel d).filter fun o => decide (o.2.2 = i) && sameId d.file o).map fun o =>
    ⟨obsTime d.file o, before d.file axis o, after d.file axis o⟩

/-- Entry `j` of the list exists and satisfies `c`. -/
def Holds {α : Type} (c : α → Bool) (M : List α) (j : ℕ) : Prop := ∃ m, M[j]? = some m ∧ c m = true

/-- Moves `j < k` are consecutive exits, and the other region was entered after `j`, not later than `k`. -/
def IsLap {α : Type} (exit visit : α → Bool) (M : List α) (j k : ℕ) : Prop :=
  j < k ∧ Holds exit M j ∧ Holds exit M k ∧ (∀ v, j < v → v < k → ¬ Holds exit M v) ∧ ∃ v, j < v ∧ v ≤ k ∧ Holds visit M v

/-- Time of move `j`. -/
def timeAt (M : List (Move K)) (j : ℕ) : F K := (M.map Move.time).getD j F.nan

/-- `R` lists start and end time of exactly the laps in `M`, in order. -/
def Laps (exit visit : Move K → Bool) (M : List (Move K)) (R : List (F K × F K)) : Prop :=
  ∃ P : List (ℕ × ℕ), R = P.map (fun x => (timeAt M x.1, timeAt M x.2)) ∧ P.Pairwise (fun x y => x.2 ≤ y.1) ∧
    ∀ j k, (j, k) ∈ P ↔ IsLap exit visit M j k

/-- The region left first: `some true` the upper, `some false` the lower, `none` if neither is ever left. -/
def home (lo hi : F K) (M : List (Move K)) : Option Bool :=
  (M.find? fun m => m.leavesUp hi || m.leavesLow lo).map fun m => m.leavesUp hi

/-! ### A lap machine -/

def lapStep (exit visit : Move K → Bool) (s : Bool × F K) (m : Move K) : (Bool × F K) × Option (F K × F K) :=
  if exit m then ((false, m.time), if (s.1 || visit m) = true then some (s.2, m.time) else none)
  else ((s.1 || visit m, s.2), none)

theorem Holds.lt {α : Type} {c : α → Bool} {M : List α} {j : ℕ} (h : Holds c M j) : j < M.length := by
  obtain ⟨m, h, _⟩ := h
  exact (List.getElem?_eq_some_iff.1 h).1

theorem holds_snoc {α : Type} (c : α → Bool) (M : List α) (x : α) (j : ℕ) :
    Holds c (M ++ [x]) j ↔ Holds c M j ∨ (j = M.length ∧ c x = true) := by
  constructor
  · rintro ⟨m, h, hc⟩
    by_cases hj : j < M.length
    · rw [List.getElem?_append_left hj] at h
      exact Or.inl ⟨m, h, hc⟩
    · have := (List.getElem?_eq_some_iff.1 h).1
      rw [List.length_append, List.length_singleton] at this
      have hj' : j = M.length := by omega
      subst hj'
      rw [List.getElem?_append_right (le_refl _), Nat.sub_self] at h
      cases h
      exact Or.inr ⟨rfl, hc⟩
  · rintro (⟨m, h, hc⟩ | ⟨rfl, hc⟩)
    · refine ⟨m, ?_, hc⟩
      rw [List.getElem?_append_left (List.getElem?_eq_some_iff.1 h).1, h]
    · refine ⟨x, ?_, hc⟩
      rw [List.getElem?_append_right (le_refl _), Nat.sub_self]
      rfl

theorem timeAt_snoc (M : List (Move K)) (x : Move K) {j : ℕ} (hj : j < M.length) : timeAt (M ++ [x]) j = timeAt M j := by
  unfold timeAt
  rw [List.map_append, List.getD_eq_getElem?_getD, List.getD_eq_getElem?_getD, List.getElem?_append_left (by rw [List.length_map]; exact hj)]

theorem timeAt_last (M : List (Move K)) (x : Move K) : timeAt (M ++ [x]) M.length = x.time := by
  unfold timeAt
  rw [List.map_append, List.getD_eq_getElem?_getD, List.getElem?_append_right (by rw [List.length_map]), List.length_map, Nat.sub_self]
  rfl

/-- After an exit at the end of `A` (none before), the machine reports exactly the laps. -/
theorem lap_machine (exit visit : Move K → Bool) (A : List (Move K)) (m0 : Move K) (h0 : exit m0 = true)
    (hA : ∀ v, ¬ Holds exit A v) (L : List (Move K)) :
    let r := machine (lapStep exit visit) (false, m0.time) L
    let M := (A ++ [m0]) ++ L
    (∃ j, Holds exit M j ∧ (∀ v, j < v → ¬ Holds exit M v) ∧ r.1.2 = timeAt M j ∧ (r.1.1 = true ↔ ∃ v, j < v ∧ Holds visit M v)) ∧
      Laps exit visit M r.2 := by
  induction L using List.reverseRecOn with
  | nil =>
    dsimp only
    rw [List.append_nil]
    refine ⟨⟨A.length, (holds_snoc _ _ _ _).2 (Or.inr ⟨rfl, h0⟩), fun v hv h => ?_, ?_, ?_⟩, [], rfl, List.Pairwise.nil, fun j k => ?_⟩
    · rcases (holds_snoc _ _ _ _).1 h with h | ⟨h, _⟩
      · exact hA v h
      · omega
    · rw [timeAt_last]; rfl
    · constructor
      · intro h; cases h
      · rintro ⟨v, hv, h⟩
        have := h.lt
        rw [List.length_append, List.length_singleton] at this
        omega
    · constructor
      · intro h; cases h
      · rintro ⟨hjk, hj, hk, _⟩
        rcases (holds_snoc _ _ _ _).1 hj with h | ⟨h, _⟩
        · exact (hA _ h).elim
        · have := hk.lt
          rw [List.length_append, List.length_singleton] at this
          omega
  | append_singleton L x ih =>
    dsimp only at ih ⊢
    rw [machine_snoc, ← List.append_assoc]
    set r := machine (lapStep exit visit) (false, m0.time) L with hr
    set M := (A ++ [m0]) ++ L with hM
    obtain ⟨⟨j, hj, hlast, htime, hmid⟩, P, hP1, hP2, hP3⟩ := ih
    have hPlt : ∀ q ∈ P, q.1 < M.length ∧ q.2 < M.length := by
      rintro ⟨a, b⟩ hq
      have := (hP3 a b).1 hq
      exact ⟨this.2.1.lt, this.2.2.1.lt⟩
    have hPle : ∀ q ∈ P, q.2 ≤ j := by
      rintro ⟨a, b⟩ hq
      have := (hP3 a b).1 hq
      by_contra hc
      exact hlast b (not_le.1 hc) this.2.2.1
    have hmapP : P.map (fun q => (timeAt (M ++ [x]) q.1, timeAt (M ++ [x]) q.2)) = r.2 := by
      rw [hP1]
      apply List.map_congr_left
      intro q hq
      rw [timeAt_snoc _ _ (hPlt q hq).1, timeAt_snoc _ _ (hPlt q hq).2]
    -- laps of the longer list
    have hnew : ∀ a b, IsLap exit visit (M ++ [x]) a b ↔ IsLap exit visit M a b ∨
        (b = M.length ∧ a = j ∧ exit x = true ∧ (r.1.1 || visit x) = true) := by
      intro a b
      constructor
      · rintro ⟨hab, ha, hb, hbet, v, hv1, hv2, hv3⟩
        rcases (holds_snoc _ _ _ _).1 hb with hb' | ⟨hb', hx⟩
        · left
          have hbl := hb'.lt
          refine ⟨hab, ((holds_snoc _ _ _ _).1 ha).resolve_right (by rintro ⟨h, _⟩; omega), hb', fun w h1 h2 h3 => ?_, v, hv1, hv2, ?_⟩
          · exact hbet w h1 h2 ((holds_snoc _ _ _ _).2 (Or.inl h3))
          · exact ((holds_snoc _ _ _ _).1 hv3).resolve_right (by rintro ⟨h, _⟩; omega)
        · right
          have ha' : Holds exit M a := ((holds_snoc _ _ _ _).1 ha).resolve_right (by rintro ⟨h, _⟩; omega)
          have haj : a = j := by
            rcases Nat.lt_trichotomy a j with h | h | h
            · exfalso
              exact hbet j h (by have := hj.lt; omega) ((holds_snoc _ _ _ _).2 (Or.inl hj))
            · exact h
            · exact (hlast a h ha').elim
          refine ⟨hb', haj, hx, ?_⟩
          rw [Bool.or_eq_true]
          rcases (holds_snoc _ _ _ _).1 hv3 with h | ⟨_, h⟩
          · exact Or.inl (hmid.2 ⟨v, by omega, h⟩)
          · exact Or.inr h
      · rintro (⟨hab, ha, hb, hbet, v, hv1, hv2, hv3⟩ | ⟨rfl, rfl, hx, hv⟩)
        · refine ⟨hab, (holds_snoc _ _ _ _).2 (Or.inl ha), (holds_snoc _ _ _ _).2 (Or.inl hb), fun w h1 h2 h3 => ?_, v, hv1, hv2,
            (holds_snoc _ _ _ _).2 (Or.inl hv3)⟩
          rcases (holds_snoc _ _ _ _).1 h3 with h | ⟨h, _⟩
          · exact hbet w h1 h2 h
          · have := hb.lt; omega
        · have hjl := hj.lt
          refine ⟨hjl, (holds_snoc _ _ _ _).2 (Or.inl hj), (holds_snoc _ _ _ _).2 (Or.inr ⟨rfl, hx⟩), fun w h1 h2 h3 => ?_, ?_⟩
          · rcases (holds_snoc _ _ _ _).1 h3 with h | ⟨h, _⟩
            · exact hlast w h1 h
            · omega
          · rcases Bool.or_eq_true_iff.1 hv with h | h
            · obtain ⟨v, h1, h2⟩ := hmid.1 h
              exact ⟨v, h1, h2.lt.le, (holds_snoc _ _ _ _).2 (Or.inl h2)⟩
            · exact ⟨M.length, hjl, le_refl _, (holds_snoc _ _ _ _).2 (Or.inr ⟨rfl, h⟩)⟩
    unfold lapStep
    by_cases hx : exit x = true
    · rw [if_pos hx]
      refine ⟨⟨M.length, (holds_snoc _ _ _ _).2 (Or.inr ⟨rfl, hx⟩), fun v hv h => ?_, ?_, ?_⟩, ?_⟩
      · have := h.lt
        rw [List.length_append, List.length_singleton] at this; omega
      · rw [timeAt_last]
      · constructor
        · intro h; cases h
        · rintro ⟨v, hv, h⟩
          have := h.lt
          rw [List.length_append, List.length_singleton] at this; omega
      · by_cases hm : (r.1.1 || visit x) = true
        · rw [if_pos hm]
          refine ⟨P ++ [(j, M.length)], ?_, ?_, fun a b => ?_⟩
          · rw [List.map_append, hmapP, List.map_singleton, timeAt_last, timeAt_snoc _ _ hj.lt, ← htime]
            rfl
          · rw [List.pairwise_append]
            refine ⟨hP2, List.pairwise_singleton _ _, fun q hq q' hq' => ?_⟩
            rw [List.mem_singleton] at hq'
            rw [hq']
            exact hPle q hq
          · rw [hnew, List.mem_append, List.mem_singleton, hP3, Prod.mk.injEq]
            constructor
            · rintro (h | ⟨h1, h2⟩)
              · exact Or.inl h
              · exact Or.inr ⟨h2, h1, hx, hm⟩
            · rintro (h | ⟨h1, h2, _⟩)
              · exact Or.inl h
              · exact Or.inr ⟨h2, h1⟩
        · rw [if_neg hm]
          refine ⟨P, ?_, hP2, fun a b => ?_⟩
          · rw [hmapP]; simp
          · rw [hnew, hP3]
            constructor
            · exact Or.inl
            · rintro (h | ⟨_, _, _, h⟩)
              · exact h
              · exact (hm h).elim
    · rw [if_neg hx]
      refine ⟨⟨j, (holds_snoc _ _ _ _).2 (Or.inl hj), fun v hv h => ?_, ?_, ?_⟩, P, ?_, hP2, fun a b => ?_⟩
      · rcases (holds_snoc _ _ _ _).1 h with h | ⟨_, h⟩
        · exact hlast v hv h
        · exact hx h
      · rw [timeAt_snoc _ _ hj.lt]; exact htime
      · rw [Bool.or_eq_true, hmid]
        constructor
        · rintro (⟨v, h1, h2⟩ | h)
          · exact ⟨v, h1, (holds_snoc _ _ _ _).2 (Or.inl h2)⟩
          · exact ⟨M.length, hj.lt, (holds_snoc _ _ _ _).2 (Or.inr ⟨rfl, h⟩)⟩
        · rintro ⟨v, h1, h2⟩
          rcases (holds_snoc _ _ _ _).1 h2 with h | ⟨_, h⟩
          · exact Or.inl ⟨v, h1, h⟩
          · exact Or.inr h
      · rw [hmapP]; simp
      · rw [hnew, hP3]
        constructor
        · exact Or.inl
        · rintro (h | ⟨_, _, h, _⟩)
          · exact h
          · exact (hx h).elim

/-! ### The code's machine is a lap machine -/

theorem flt_asymm {x y : F K} (h : x < y) : ¬ y < x := by
  intro h'
  change F.ltB x y = true at h
  change F.ltB y x = true at h'
  cases x <;> cases y <;> simp_all [F.ltB]
  exact absurd h' (not_lt.2 h.le)

/-- One step of the code's machine on a move. -/
def twoObs (lo hi : F K) (s : Slot2 K) (m : Move K) : Slot2 K × Option (F K × F K) := twoStep lo hi s m.time m.old m.pos

/-- Exits and visits as the code tests them when the upper region was left first. -/
def upExit (hi : F K) (m : Move K) : Bool := m.leavesUp hi
def upVisit (lo hi : F K) (m : Move K) : Bool := m.entersLow lo && !m.leavesUp hi
/-- Exits and visits as the code tests them when the lower region was left first. -/
def lowExit (lo hi : F K) (m : Move K) : Bool := m.leavesLow lo && !m.leavesUp hi
def lowVisit (hi : F K) (m : Move K) : Bool := m.entersUp hi


/-- The code's slot in terms of the lap machine's state. -/
def slotOf (start : ℕ) (x : Bool × F K) : Slot2 K := ⟨start, if x.1 then 1 else 0, x.2⟩

theorem two_up (lo hi : F K) (x : Bool × F K) (m : Move K) :
    twoObs lo hi (slotOf 1 x) m = (slotOf 1 (lapStep (upExit hi) (upVisit lo hi) x m).1, (lapStep (upExit hi) (upVisit lo hi) x m).2) := by
  obtain ⟨b, t⟩ := x
  unfold twoObs twoStep lapStep upExit upVisit Move.leavesUp Move.entersLow slotOf
  by_cases h1 : m.pos < hi ∧ m.old > hi
  · rw [if_pos h1, if_pos (decide_eq_true h1)]
    simp only [decide_eq_true h1, Bool.not_true, Bool.and_false, Bool.or_false]
    cases b <;> simp
  · rw [if_neg h1]
    simp only [decide_eq_false h1, Bool.not_false, Bool.and_true]
    by_cases h2 : m.pos < lo ∧ m.old > lo
    · simp [h2]
    · by_cases h3 : m.pos > lo ∧ m.old < lo
      · simp [h2, h3]
      · simp [h2, h3]

theorem two_low (lo hi : F K) (x : Bool × F K) (m : Move K) :
    twoObs lo hi (slotOf 2 x) m = (slotOf 2 (lapStep (lowExit lo hi) (lowVisit hi) x m).1, (lapStep (lowExit lo hi) (lowVisit hi) x m).2) := by
  obtain ⟨b, t⟩ := x
  unfold twoObs twoStep lapStep lowExit lowVisit Move.leavesUp Move.leavesLow Move.entersUp slotOf
  by_cases h1 : m.pos < hi ∧ m.old > hi
  · have h2 : ¬ (m.pos > hi ∧ m.old < hi) := fun h => flt_asymm h1.1 h.1
    rw [if_pos h1]
    simp only [decide_eq_true h1, decide_eq_false h2, Bool.not_true, Bool.and_false, Bool.or_false]
    simp
  · rw [if_neg h1]
    simp only [decide_eq_false h1, Bool.not_false, Bool.and_true]
    by_cases h2 : m.pos > hi ∧ m.old < hi
    · simp only [h2, and_self, decide_true, Bool.or_true, if_true, true_and]
      by_cases h3 : m.pos < lo ∧ m.old > lo
      · have h4 : ¬ (m.pos > lo ∧ m.old < lo) := fun h => flt_asymm h3.1 h.1
        simp [h3, h4]
      · by_cases h4 : m.pos > lo ∧ m.old < lo
        · simp [h3, h4]
        · simp [h3, h4]
    · have h2' : ¬ (m.pos > hi ∧ m.old < hi ∧ True) := fun h => h2 ⟨h.1, h.2.1⟩
      simp only [h2, h2', decide_false, Bool.or_false, if_false]
      by_cases h3 : m.pos < lo ∧ m.old > lo
      · have h4 : ¬ (m.pos > lo ∧ m.old < lo) := fun h => flt_asymm h3.1 h.1
        simp [h3, h4]
      · by_cases h4 : m.pos > lo ∧ m.old < lo
        · cases b <;> simp [h3, h4]
        · simp [h3, h4]

theorem machine_sim {S S' α β : Type} (f : S → α → S × Option β) (g : S' → α → S' × Option β) (c : S' → S)
    (h : ∀ s a, f (c s) a = (c (g s a).1, (g s a).2)) (s : S') (l : List α) :
    machine f (c s) l = (c (machine g s l).1, (machine g s l).2) := by
  induction l generalizing s with
  | nil => rfl
  | cons a l ih => rw [machine_cons, machine_cons, h, ih]

/-- A slot that has not started stays idle until the first exit. -/
theorem two_idle (lo hi : F K) (M : List (Move K)) (h : ∀ m ∈ M, m.leavesUp hi = false ∧ m.leavesLow lo = false) (t : F K) :
    machine (twoObs lo hi) (⟨0, 0, t⟩ : Slot2 K) M = (⟨0, 0, t⟩, []) := by
  induction M with
  | nil => rfl
  | cons m M ih =>
    obtain ⟨h1, h2⟩ := h m (by simp)
    unfold Move.leavesUp at h1
    unfold Move.leavesLow at h2
    have h1 := of_decide_eq_false h1
    have h2 := of_decide_eq_false h2
    have e : twoObs lo hi (⟨0, 0, t⟩ : Slot2 K) m = (⟨0, 0, t⟩, none) := by
      unfold twoObs twoStep
      rw [if_neg h1]
      simp [h2]
    rw [machine_cons, e, ih (fun m hm => h m (by simp [hm]))]
    rfl

/-- What one slot reports. -/
theorem two_machine (lo hi : F K) (M : List (Move K)) (t : F K) :
    (home lo hi M = none → (machine (twoObs lo hi) (⟨0, 0, t⟩ : Slot2 K) M).2 = []) ∧
    (home lo hi M = some true → Laps (upExit hi) (upVisit lo hi) M (machine (twoObs lo hi) (⟨0, 0, t⟩ : Slot2 K) M).2) ∧
    (home lo hi M = some false → Laps (lowExit lo hi) (lowVisit hi) M (machine (twoObs lo hi) (⟨0, 0, t⟩ : Slot2 K) M).2) := by
  cases hf : M.find? (fun m => m.leavesUp hi || m.leavesLow lo) with
  | none =>
    have hnone : home lo hi M = none := by unfold home; rw [hf]; rfl
    rw [hnone]
    refine ⟨fun _ => ?_, by simp, by simp⟩
    rw [two_idle lo hi M]
    intro m hm
    have := List.find?_eq_none.1 hf m hm
    simpa using this
  | some m0 =>
    have hhome : home lo hi M = some (m0.leavesUp hi) := by unfold home; rw [hf]; rfl
    rw [hhome]
    obtain ⟨hm0, A, B, hM, hA⟩ := List.find?_eq_some_iff_append.1 hf
    have hA' : ∀ m ∈ A, m.leavesUp hi = false ∧ m.leavesLow lo = false := by
      intro m hm
      have := hA m hm
      simpa using this
    have hidle := two_idle lo hi A hA' t
    have happ : ∀ L, machine (twoObs lo hi) (⟨0, 0, t⟩ : Slot2 K) (A ++ L) = machine (twoObs lo hi) (⟨0, 0, t⟩ : Slot2 K) L := by
      intro L
      clear hM hf hhome hA
      induction A with
      | nil => rfl
      | cons a A ih =>
        obtain ⟨h1, h2⟩ := hA' a (by simp)
        have e := two_idle lo hi [a] (by intro m hm; rw [List.mem_singleton] at hm; rw [hm]; exact ⟨h1, h2⟩) t
        rw [machine_cons] at e
        have e1 : (twoObs lo hi (⟨0, 0, t⟩ : Slot2 K) a).1 = ⟨0, 0, t⟩ := congrArg Prod.fst e
        have e2 : (twoObs lo hi (⟨0, 0, t⟩ : Slot2 K) a).2 = none := by
          have := congrArg Prod.snd e
          dsimp only at this
          have := (List.append_eq_nil_iff.1 this).1
          cases hh : (twoObs lo hi (⟨0, 0, t⟩ : Slot2 K) a).2 with
          | none => rfl
          | some v => rw [hh] at this; cases this
        rw [List.cons_append, machine_cons, e1, e2, ih (fun m hm => hA' m (by simp [hm]))
          (two_idle lo hi A (fun m hm => hA' m (by simp [hm])) t)]
        rfl
    have noexit : ∀ (c : Move K → Bool), (∀ m, c m = true → m.leavesUp hi = true ∨ m.leavesLow lo = true) → ∀ v, ¬ Holds c A v := by
      rintro c hc v ⟨m, hm, h⟩
      have hmem := List.mem_of_getElem? hm
      rcases hc m h with h | h
      · rw [(hA' m hmem).1] at h; cases h
      · rw [(hA' m hmem).2] at h; cases h
    refine ⟨by simp, fun h => ?_, fun h => ?_⟩
    · have h := Option.some.inj h
      have hstep : twoObs lo hi (⟨0, 0, t⟩ : Slot2 K) m0 = (slotOf 1 (false, m0.time), none) := by
        unfold twoObs twoStep
        unfold Move.leavesUp at h
        rw [if_pos (of_decide_eq_true h)]
        rfl
      have key := (lap_machine (upExit hi) (upVisit lo hi) A m0 h (noexit _ fun m hm => Or.inl hm) B).2
      rw [hM, happ, machine_cons, hstep]
      dsimp only
      rw [machine_sim (twoObs lo hi) (lapStep (upExit hi) (upVisit lo hi)) (slotOf 1) (two_up lo hi)]
      rw [List.append_assoc] at key
      exact key
    · have h := Option.some.inj h
      have hl : m0.leavesLow lo = true := by simpa [h] using hm0
      have hstep : twoObs lo hi (⟨0, 0, t⟩ : Slot2 K) m0 = (slotOf 2 (false, m0.time), none) := by
        unfold twoObs twoStep
        unfold Move.leavesUp at h
        unfold Move.leavesLow at hl
        have hl := of_decide_eq_true hl
        have hne : ¬ (m0.pos < lo ∧ m0.old > lo) := fun h' => flt_asymm h'.1 hl.1
        rw [if_neg (of_decide_eq_false h)]
        simp [hne, hl, slotOf]
      have hex : lowExit lo hi m0 = true := by unfold lowExit; rw [h, hl]; rfl
      have key := (lap_machine (lowExit lo hi) (lowVisit hi) A m0 hex (noexit _ fun m hm => Or.inr (by
        unfold lowExit at hm
        exact (Bool.and_eq_true_iff.1 hm).1)) B).2
      rw [hM, happ, machine_cons, hstep]
      dsimp only
      rw [machine_sim (twoObs lo hi) (lapStep (lowExit lo hi) (lowVisit hi)) (slotOf 2) (two_low lo hi)]
      rw [List.append_assoc] at key
      exact key

/-! ### The loop -/

/-- The particle body on an observation. -/
def twoOf (file : ℕ → Timestep K) (axis : Fin 3) (lo hi : F K) (s : Slot2 K) (o : Obs) : Slot2 K × Option (F K × F K) :=
  if sameId file o then twoObs lo hi s ⟨obsTime file o, before file axis o, after file axis o⟩ else (s, none)

/-- Nothing happens to a particle which crosses neither boundary. -/
theorem touches_not {lo hi old pos : F K} (s : Slot2 K) (now : F K) (h : touches lo hi old pos = false) :
    twoStep lo hi s now old pos = (s, none) := by
  unfold touches at h
  rw [decide_eq_false_iff_not, not_or, not_or, not_or] at h
  obtain ⟨h1, h2, h3, h4⟩ := h
  unfold twoStep
  have h1' : ¬ (pos > hi ∧ old < hi ∧ s.start = 2) := fun k => h1 ⟨k.1, k.2.1⟩
  rw [if_neg h2]
  dsimp only
  rw [if_neg h1', if_neg h3, if_neg h4]

theorem circ2_fold (np : ℕ) (axis : Fin 3) (lo hi : F K) (file : ℕ → Timestep K) (L : List Obs)
    (hL : ∀ o ∈ L, (file o.1).Wf ∧ (file o.2.1).Wf ∧ o.2.2 < (file o.1).position.length ∧ o.2.2 < (file o.2.1).position.length ∧ o.2.2 < np + 1)
    (s : (ℕ → Slot2 K) × List (F K × F K)) :
    L.foldlM (fun s (o : Obs) => circ2Body np axis lo hi (file o.1) s (file o.2.1) o.2.2) (⟨s.1, s.2⟩ : Circ2 K) =
      .ok ⟨(L.foldl (slotStep (fun o : Obs => o.2.2) (twoOf file axis lo hi)) s).1,
        (L.foldl (slotStep (fun o : Obs => o.2.2) (twoOf file axis lo hi)) s).2⟩ := by
  induction L generalizing s with
  | nil => rfl
  | cons o L ih =>
    obtain ⟨w1, w2, l1, l2, l3⟩ := hL o (by simp)
    rw [List.foldlM_cons, List.foldl_cons]
    have step : circ2Body np axis lo hi (file o.1) (⟨s.1, s.2⟩ : Circ2 K) (file o.2.1) o.2.2 =
        .ok ⟨(slotStep (fun o : Obs => o.2.2) (twoOf file axis lo hi) s o).1, (slotStep (fun o : Obs => o.2.2) (twoOf file axis lo hi) s o).2⟩ := by
      unfold circ2Body
      rw [at_pid w2 l2, run_bind_ok, at_pid w1 l1, run_bind_ok]
      unfold slotStep twoOf sameId
      by_cases h1 : F.eqB ((file o.2.1).pid o.2.2) ((file o.1).pid o.2.2) = false
      · rw [if_pos h1, h1]
        simp [run_pure]
      · rw [if_neg h1, at_pos l2, run_bind_ok, at_pos l1, run_bind_ok]
        rw [Bool.not_eq_false] at h1
        by_cases ht : touches lo hi ((file o.1).pos o.2.2 axis) ((file o.2.1).pos o.2.2 axis) = true
        · unfold slotRead
          rw [if_pos ht, h1, if_pos l3, run_bind_ok, run_pure]
          rfl
        · rw [if_neg ht, h1, run_pure]
          rw [if_pos rfl]
          have hq := touches_not (s.1 o.2.2) (file o.2.1).time (by simpa using ht)
          change _ = Except.ok (Circ2.mk (Function.update s.1 o.2.2 (twoStep lo hi (s.1 o.2.2) (file o.2.1).time ((file o.1).pos o.2.2 axis) ((file o.2.1).pos o.2.2 axis)).1)
            (s.2 ++ (twoStep lo hi (s.1 o.2.2) (file o.2.1).time ((file o.1).pos o.2.2 axis) ((file o.2.1).pos o.2.2 axis)).2.toList))
          rw [hq, Function.update_eq_self]
          simp
    rw [step, run_bind_ok]
    exact ih (fun o ho => hL o (by simp [ho])) _

/-- **C46, what is reported.** For boundaries inside the system and a dataset with a fixed number of particles (at most
`nparticles + 1`), both managers, both profiles, any lawful arithmetic: `circulation_time_two_boundary` does not panic, and its
pairs can be labelled with particles such that those of particle `i` are, in order, the start and end times of exactly the
laps of `i`: consecutive exits from its home region (the one it left first) between which it entered the other region. Particles that
leave neither region report nothing. -/
theorem C46_laps [LawfulArith K] (p : Profile) (d : Dm (Timestep K)) (hd : d.Inv) (st : Stats K) (sel : Selector K) (hs : sel.Usable)
    (hw : ∀ t, t < d.n → (d.file t).Wf) (m : ℕ) (hm : Steady d.file d.n m) (hnp : m ≤ st.nparticles + 1) (axis : Fin 3) (lo hi : F K)
    (hb : ¬ (lo > (st.dims axis).2 ∨ lo < (st.dims axis).1)) (hb' : ¬ (hi > (st.dims axis).2 ∨ hi < (st.dims axis).1)) :
    ∃ d' out, circulationTwoBoundary p d st sel axis lo hi = .ok (d', out) ∧ d'.Inv ∧ d'.file = d.file ∧ d'.n = d.n ∧
      ∃ T : List (ℕ × (F K × F K)), out = T.map (·.2) ∧ ∀ i,
        (home lo hi (moves sel d axis i) = none → ofLabel T i = []) ∧
        (home lo hi (moves sel d axis i) = some true → Laps (upExit hi) (upVisit lo hi) (moves sel d axis i) (ofLabel T i)) ∧
        (home lo hi (moves sel d axis i) = some false → Laps (lowExit lo hi) (lowVisit hi) (moves sel d axis i) (ofLabel T i)) := by
  have hn : 0 < d.n := by have := hd.1.1; have := hd.1.2.1; omega
  obtain ⟨b0, e0, hb0, _⟩ := Dm.get_ok (K := K) p d hd 0 hn
  have hd0 : ({ d with main := b0 } : Dm (Timestep K)).Inv := ⟨hb0, hd.2⟩
  obtain ⟨b1, ts, hb1, e1⟩ := circLoop_eq (K := K) p sel hs (circ2Body st.nparticles axis lo hi) (List.range' 1 (d.n - 2)) { d with main := b0 } hd0 hw
    (fun t ht => by have := List.mem_range'_1.1 ht; change t < d.n; omega) 0 ⟨fun _ => ⟨0, 0, 0⟩, []⟩
  have hfold := circ2_fold st.nparticles axis lo hi d.file (watched sel d) (by
    intro o ho
    obtain ⟨h1, h2, h3⟩ := watched_ok sel d hd m hm o ho
    exact ⟨hw _ h1, hw _ h2, by rw [hm _ h1]; exact h3, by rw [hm _ h2]; exact h3, by omega⟩) (fun _ => ⟨0, 0, 0⟩, [])
  obtain ⟨_, T, h1, h2⟩ := slots_run (fun o : Obs => o.2.2) (twoOf d.file axis lo hi) (⟨0, 0, 0⟩ : Slot2 K) (watched sel d)
  refine ⟨{ d with main := b1 }, _, ?_, ⟨hb1, hd.2⟩, rfl, rfl, T, h1, fun i => ?_⟩
  · unfold circulationTwoBoundary
    rw [if_neg hb, if_neg hb', e0, run_bind_ok, innerSteps_eq p _ hd0, run_bind_ok]
    change (circLoop p sel (circ2Body st.nparticles axis lo hi) (List.range' 1 (d.n - 2)) { d with main := b0 } (d.file 0) _ >>= _) = _
    rw [e1]
    change ((List.foldlM _ _ (watched sel d) >>= _) >>= _) = _
    rw [hfold]
    rfl
  · have e : ofLabel T i = (machine (twoObs lo hi) (⟨0, 0, 0⟩ : Slot2 K) (moves sel d axis i)).2 := by
      rw [h2 i]
      have : twoOf d.file axis lo hi = fun (s : Slot2 K) o => if sameId d.file o = true
        then twoObs lo hi s ⟨obsTime d.file o, before d.file axis o, after d.file axis o⟩ else (s, none) := rfl
      rw [this, machine_filter (sameId d.file) (fun o => (⟨obsTime d.file o, before d.file axis o, after d.file axis o⟩ : Move K)), List.filter_filter]
      unfold moves
      congr 3
      apply List.filter_congr
      intro o _
      rw [Bool.and_comm]
    rw [e]
    exact two_machine lo hi (moves sel d axis i) 0

/-- Boundaries outside the system are rejected. -/
theorem C46_reject (p : Profile) (d : Dm (Timestep K)) (st : Stats K) (sel : Selector K) (axis : Fin 3) (lo hi : F K)
    (hb : (lo > (st.dims axis).2 ∨ lo < (st.dims axis).1) ∨ (hi > (st.dims axis).2 ∨ hi < (st.dims axis).1)) :
    circulationTwoBoundary p d st sel axis lo hi = .error .explicit := by
  unfold circulationTwoBoundary
  by_cases h : lo > (st.dims axis).2 ∨ lo < (st.dims axis).1
  · rw [if_pos h]
  · rw [if_neg h, if_pos (hb.resolve_left h)]

/-- The times of the moves of a particle, in order, do not decrease if those of the timesteps do not. -/
theorem moves_sorted (sel : Selector K) (d : Dm (Timestep K)) (axis : Fin 3) (i : ℕ) (τ : ℕ → K)
    (hτ : ∀ t, t < d.n → (d.file t).time = fin (τ t)) (hmono : ∀ t t', t ≤ t' → t' < d.n → τ t ≤ τ t') (hd : d.Inv) :
    ∃ l : List K, (moves sel d axis i).map Move.time = l.map F.fin ∧ l.Pairwise (· ≤ ·) := by
  have hn : 1 ≤ d.n := by have := hd.1.1; have := hd.1.2.1; omega
  have hlt : ∀ o ∈ watched sel d, o.2.1 < d.n := by
    intro o ho
    obtain ⟨_, h2, _⟩ := mem_observations _ _ _ _ _ ho
    have := List.mem_range'_1.1 h2; omega
  refine ⟨((watched sel d).filter fun o => decide (o.2.2 = i) && sameId d.file o).map fun o => τ o.2.1, ?_, ?_⟩
  · unfold moves
    rw [List.map_map, List.map_map]
    apply List.map_congr_left
    intro o ho
    exact hτ _ (hlt o (List.mem_filter.1 ho).1)
  · rw [List.pairwise_map]
    refine ((watched_sorted sel d).sublist List.filter_sublist).imp_of_mem ?_
    intro o o' _ ho' h
    exact hmono _ _ h (hlt o' (List.mem_filter.1 ho').1)

/-- The laps of one particle in terms of its moves: start and end are moves leaving the same region, start not after end, a move into
the other region not before the start and not after the end; different pairs do not overlap. -/
structure GoodLaps (lo hi : F K) (M : List (Move K)) (R : List (F K × F K)) : Prop where
  ordered : ∀ r ∈ R, ∃ s e : K, r = (fin s, fin e) ∧ s ≤ e
  disjoint : R.Pairwise fun r r' => ∃ e s' : K, r.2 = fin e ∧ r'.1 = fin s' ∧ e ≤ s'
  visited : ∀ r ∈ R, ∃ j v k, j < v ∧ v ≤ k ∧ timeAt M j = r.1 ∧ timeAt M k = r.2 ∧
    ((Holds (Move.leavesUp hi) M j ∧ Holds (Move.leavesUp hi) M k ∧ Holds (Move.entersLow lo) M v) ∨
     (Holds (Move.leavesLow lo) M j ∧ Holds (Move.leavesLow lo) M k ∧ Holds (Move.entersUp hi) M v))

theorem Holds.imp {α : Type} {c c' : α → Bool} {M : List α} {j : ℕ} (h : Holds c M j) (hc : ∀ m, c m = true → c' m = true) : Holds c' M j := by
  obtain ⟨m, h1, h2⟩ := h
  exact ⟨m, h1, hc m h2⟩

theorem goodLaps_of (lo hi : F K) (M : List (Move K)) (R : List (F K × F K)) (exit visit : Move K → Bool)
    (hcase : ((∀ m, exit m = true → m.leavesUp hi = true) ∧ ∀ m, visit m = true → m.entersLow lo = true) ∨
      ((∀ m, exit m = true → m.leavesLow lo = true) ∧ ∀ m, visit m = true → m.entersUp hi = true))
    (l : List K) (hl : M.map Move.time = l.map F.fin) (hs : l.Pairwise (· ≤ ·)) (h : Laps exit visit M R) : GoodLaps lo hi M R := by
  obtain ⟨P, rfl, hP2, hP3⟩ := h
  have hlen : M.length = l.length := by simpa using congrArg List.length hl
  have ht : ∀ j, (hj : j < M.length) → timeAt M j = fin (l[j]'(hlen ▸ hj)) := by
    intro j hj
    unfold timeAt
    rw [hl, List.getD_eq_getElem?_getD, List.getElem?_map, List.getElem?_eq_getElem (hlen ▸ hj)]
    rfl
  have hle : ∀ j k, (hjk : j ≤ k) → (hk : k < M.length) → ∃ x y : K, timeAt M j = fin x ∧ timeAt M k = fin y ∧ x ≤ y := by
    intro j k hjk hk
    refine ⟨_, _, ht j (by omega), ht k hk, ?_⟩
    rcases Nat.eq_or_lt_of_le hjk with rfl | hjk
    · exact le_refl _
    · exact List.pairwise_iff_getElem.1 hs j k (by omega) (by omega) hjk
  refine ⟨?_, ?_, ?_⟩
  · intro r hr
    obtain ⟨⟨j, k⟩, hq, rfl⟩ := List.mem_map.1 hr
    have hlap := (hP3 j k).1 hq
    obtain ⟨x, y, h1, h2, h3⟩ := hle j k hlap.1.le hlap.2.2.1.lt
    exact ⟨x, y, by rw [h1, h2], h3⟩
  · rw [List.pairwise_map]
    refine hP2.imp_of_mem ?_
    rintro ⟨j, k⟩ ⟨j', k'⟩ _ hq' hkj
    have hlap := (hP3 j' k').1 hq'
    exact hle k j' hkj hlap.2.1.lt
  · intro r hr
    obtain ⟨⟨j, k⟩, hq, rfl⟩ := List.mem_map.1 hr
    obtain ⟨_, h1, h2, _, v, h3, h4, h5⟩ := (hP3 j k).1 hq
    refine ⟨j, v, k, h3, h4, rfl, rfl, ?_⟩
    rcases hcase with ⟨e, v'⟩ | ⟨e, v'⟩
    · exact Or.inl ⟨h1.imp e, h2.imp e, h5.imp v'⟩
    · exact Or.inr ⟨h1.imp e, h2.imp e, h5.imp v'⟩

/-- **C46.** The reported pairs can be labelled with particles such that the pairs of a particle are ordered intervals that do not overlap; each
starts and ends with the particle leaving one region, and in between it entered the other one. -/
theorem C46_intervals [LawfulArith K] (p : Profile) (d : Dm (Timestep K)) (hd : d.Inv) (st : Stats K) (sel : Selector K) (hs : sel.Usable)
    (hw : ∀ t, t < d.n → (d.file t).Wf) (m : ℕ) (hm : Steady d.file d.n m) (hnp : m ≤ st.nparticles + 1) (axis : Fin 3) (lo hi : F K)
    (hb : ¬ (lo > (st.dims axis).2 ∨ lo < (st.dims axis).1)) (hb' : ¬ (hi > (st.dims axis).2 ∨ hi < (st.dims axis).1))
    (τ : ℕ → K) (hτ : ∀ t, t < d.n → (d.file t).time = fin (τ t)) (hmono : ∀ t t', t ≤ t' → t' < d.n → τ t ≤ τ t') :
    ∃ d' out, circulationTwoBoundary p d st sel axis lo hi = .ok (d', out) ∧
      ∃ T : List (ℕ × (F K × F K)), out = T.map (·.2) ∧ ∀ i, GoodLaps lo hi (moves sel d axis i) (ofLabel T i) := by
  obtain ⟨d', out, h1, _, _, _, T, h2, h3⟩ := C46_laps p d hd st sel hs hw m hm hnp axis lo hi hb hb'
  refine ⟨d', out, h1, T, h2, fun i => ?_⟩
  obtain ⟨l, hl, hsort⟩ := moves_sorted sel d axis i τ hτ hmono hd
  obtain ⟨k1, k2, k3⟩ := h3 i
  cases hh : home lo hi (moves sel d axis i) with
  | none => rw [k1 hh]; exact ⟨by simp, List.Pairwise.nil, by simp⟩
  | some up =>
    cases up with
    | true => exact goodLaps_of lo hi _ _ _ _ (Or.inl ⟨fun m h => h, fun m h => (Bool.and_eq_true_iff.1 h).1⟩) l hl hsort (k2 hh)
    | false => exact goodLaps_of lo hi _ _ _ _ (Or.inr ⟨fun m h => (Bool.and_eq_true_iff.1 h).1, fun m h => h⟩) l hl hsort (k3 hh)

/-! ### Witness -/

/-- The moves of the swinging particle. -/
theorem swing_moves (d : Dm (Timestep ℝ)) (hf : d.file = swing) (hn : d.n = 7) : moves Selector.default d 2 0 =
    [⟨fin 1, fin 0, fin 2⟩, ⟨fin 2, fin 2, fin 0⟩, ⟨fin 3, fin 0, fin 2⟩, ⟨fin 4, fin 2, fin 0⟩, ⟨fin 5, fin 0, fin 2⟩] := by
  have hW : watched Selector.default d = [(0, 1, 0), (1, 2, 0), (2, 3, 0), (3, 4, 0), (4, 5, 0)] := by
    unfold watched; rw [hf, hn]; exact swing_obs
  have hid : ∀ a b, sameId swing (a, b, 0) = true := by
    intro a b
    unfold sameId Timestep.pid
    change F.eqB (fin (1 : ℝ)) (fin 1) = true
    simp [F.eqB]
  unfold moves
  rw [hW, hf]
  simp [hid, obsTime, before, after, swing, Timestep.pos]

/-- The hypotheses are met and something is reported: the particle that swings between 0 and 2 each second, with boundaries 1/2 and 3/2,
leaves the lower region at 1 s and 3 s and has been in the upper one in between. -/
example (p : Profile) (kind : Kind) (st : Stats ℝ) (hst : st.dims 2 = (fin 0, fin 2)) : ∃ d d' out,
    Dm.new p kind swing 7 Timestep.default = .ok d ∧ circulationTwoBoundary p d st Selector.default 2 (fin (1 / 2)) (fin (3 / 2)) = .ok (d', out) ∧
      (fin 1, fin 3) ∈ out := by
  obtain ⟨d, e, hinv, hf, hn, _⟩ := Dm.new_ok p kind swing 7 Timestep.default (by norm_num) (by norm_num)
  have lt : ∀ x y : ℝ, (fin x < fin y) = (x < y) := fun x y => propext (F.lt_fin x y)
  have hb : ∀ b : ℝ, 0 ≤ b → b ≤ 2 → ¬ (fin b > (st.dims 2).2 ∨ fin b < (st.dims 2).1) := by
    intro b h0 h2
    rw [hst]
    rintro (h | h)
    · have := (F.lt_fin _ _).1 h; linarith
    · have := (F.lt_fin _ _).1 h; linarith
  obtain ⟨d', out, h1, _, _, _, T, h2, h3⟩ := C46_laps p d hinv st Selector.default usable_default
    (fun t _ => by rw [hf]; exact ⟨rfl, rfl, rfl, rfl, rfl, rfl⟩) 1 (fun t _ => by rw [hf]; rfl) (by omega) 2 (fin (1 / 2)) (fin (3 / 2))
    (hb _ (by norm_num) (by norm_num)) (hb _ (by norm_num) (by norm_num))
  refine ⟨d, d', out, e, h1, ?_⟩
  obtain ⟨_, _, h3⟩ := h3 0
  rw [swing_moves d hf hn] at h3
  obtain ⟨P, hP1, _, hP3⟩ := h3 (by
    unfold home
    simp only [List.find?_cons, Move.leavesUp, Move.leavesLow, gt_iff_lt, lt]
    norm_num)
  have hlap : (0, 2) ∈ P := by
    rw [hP3]
    refine ⟨by norm_num, ⟨_, rfl, ?_⟩, ⟨_, rfl, ?_⟩, ?_, 2, by norm_num, le_refl _, ⟨_, rfl, ?_⟩⟩
    · simp only [lowExit, Move.leavesUp, Move.leavesLow, gt_iff_lt, lt]; norm_num
    · simp only [lowExit, Move.leavesUp, Move.leavesLow, gt_iff_lt, lt]; norm_num
    · rintro v hv hv' ⟨m, hm, hx⟩
      have : v = 1 := by omega
      subst this
      cases hm
      simp only [lowExit, Move.leavesUp, Move.leavesLow, gt_iff_lt, lt] at hx
      norm_num at hx
    · simp only [lowVisit, Move.entersUp, gt_iff_lt, lt]; norm_num
  rw [h2]
  have : (fin 1, fin 3) ∈ ofLabel T 0 := by
    rw [hP1]
    exact List.mem_map.2 ⟨(0, 2), hlap, rfl⟩
  obtain ⟨x, hx, hx'⟩ := List.mem_map.1 this
  exact List.mem_map.2 ⟨x, (List.mem_filter.1 hx).1, hx'⟩

end Up4
