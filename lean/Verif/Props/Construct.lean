import Verif.Model.Construct
import Verif.Props.Collapse
import Verif.Props.Shape

set_option linter.unusedSectionVars false

/-!
# C92: the grid constructor gives the grid that was asked for; C93: `Grid.plot` shows the depth average
-/

namespace Up4
open F
open Selector (at')

variable {K : Type} [Field K] [LinearOrder K] [IsStrictOrderedRing K] [FloorRing K] [Arith K]

/-- The box the arguments ask for, one axis at a time: what `limits` says if it is given; else what `xlim`/`ylim`/`zlim` says if it is given; else the extent
of the data. -/
def GridArgs.Asked (a : GridArgs K) (lim : Limits K) : Prop :=
  ∀ i : Fin 3,
    match a.limits, a.axis i with
    | some l, _ => l[2 * (i : ℕ)]? = some (lim i).1 ∧ l[2 * (i : ℕ) + 1]? = some (lim i).2
    | none, some l => l = [(lim i).1, (lim i).2]
    | none, none => ∃ d, a.data = some d ∧ lim i = d i

/-- An axis argument is in order: two entries, the first not above the second. -/
def GridArgs.AxisOk (a : GridArgs K) (i : Fin 3) : Prop := ∀ l, a.axis i = some l → ∃ x y, l = [x, y] ∧ ¬ y < x

/-- The arguments the constructor documents and checks, without `cell_size`: a known style, three natural numbers of cells, ordered axes, and exactly one source
for each side of the box; `limits`, if given, has six entries and no negative one. -/
def GridArgs.Sound (a : GridArgs K) : Prop :=
  (a.style = "cartesian" ∨ a.style = "cylindrical") ∧ (∀ i, a.AxisOk i) ∧
  (∃ n : CellId, a.numCells = some [(n 0 : ℤ), (n 1 : ℤ), (n 2 : ℤ)]) ∧
  match a.limits with
  | some l => l.length = 6 ∧ (∀ x ∈ l, ¬ x < 0) ∧ (a.data = none → ∀ i, a.axis i = none)
  | none => a.data = none → ∀ i, a.axis i ≠ none

/-- The grid of a style. -/
def gridOf (style : String) (cells : CellId) (lim : Limits K) : Grid K :=
  if style = "cartesian" then Grid.newCart cells lim else Grid.newCyl cells lim

theorem checkAxis_iff (o : Option (List (F K))) :
    checkAxis o = .ok () ↔ ∀ l, o = some l → ∃ x y, l = [x, y] ∧ ¬ y < x := by
  cases o with
  | none => simp [checkAxis]
  | some l =>
    match l with
    | [] => simp [checkAxis]
    | [x] => simp [checkAxis]
    | [x, y] =>
      simp only [checkAxis, List.length_cons, List.length_nil, at']
      rw [if_neg (by simp)]
      change ((if x > y then .error .explicit else .ok () : Run Unit) = .ok ()) ↔ _
      constructor
      · intro h l' hl
        refine ⟨x, y, by simpa using hl.symm, fun hlt => ?_⟩
        rw [if_pos hlt] at h
        cases h
      · intro h
        obtain ⟨x', y', hl, hn⟩ := h _ rfl
        obtain ⟨rfl, rfl⟩ : x = x' ∧ y = y' := by simpa using hl
        rw [if_neg hn]
    | x :: y :: z :: t => simp [checkAxis]

theorem three_ok {α : Type} {f : Fin 3 → Run α} {r : Fin 3 → α} : three f = .ok r ↔ ∀ i, f i = .ok (r i) := by
  unfold three
  constructor
  · intro h
    obtain ⟨a, ha, h⟩ := run_bind_inv h
    obtain ⟨b, hb, h⟩ := run_bind_inv h
    obtain ⟨c, hc, h⟩ := run_bind_inv h
    injection h with h
    subst h
    intro i
    fin_cases i <;> assumption
  · intro h
    rw [h 0, run_bind_ok, h 1, run_bind_ok, h 2, run_bind_ok]
    change Except.ok _ = _
    congr 1
    funext i
    fin_cases i <;> rfl

theorem at_inv {α : Type} {l : List α} {i : ℕ} {x : α} : at' l i = .ok x ↔ l[i]? = some x := by
  unfold at'
  cases h : l[i]? with
  | none => simp
  | some y => simp

theorem limAt_iff {l : List (F K)} {i : ℕ} {p : F K × F K} :
    limAt l i = .ok p ↔ l[2 * i]? = some p.1 ∧ l[2 * i + 1]? = some p.2 := by
  unfold limAt
  constructor
  · intro h
    obtain ⟨a, ha, h⟩ := run_bind_inv h
    obtain ⟨b, hb, h⟩ := run_bind_inv h
    injection h with h
    subst h
    exact ⟨at_inv.1 ha, at_inv.1 hb⟩
  · rintro ⟨h1, h2⟩
    rw [at_inv.2 h1, run_bind_ok, at_inv.2 h2, run_bind_ok]
    rfl

theorem axisLim_some {d p : F K × F K} {l : List (F K)} (hl : ∃ x y, l = [x, y] ∧ ¬ y < x) :
    axisLim d (some l) = .ok p ↔ l = [p.1, p.2] := by
  obtain ⟨x, y, rfl, _⟩ := hl
  change (Except.ok (x, y) : Run (F K × F K)) = .ok p ↔ _
  constructor
  · intro h; injection h with h; subst h; rfl
  · intro h
    obtain ⟨rfl, rfl⟩ : x = p.1 ∧ y = p.2 := by simpa using h
    rfl

/-- The box of the grid is the one asked for. -/
theorem chosenLimits_asked {a : GridArgs K} (hax : ∀ i, a.AxisOk i) {lim : Limits K} (h : chosenLimits a = .ok lim) : a.Asked lim := by
  intro i
  unfold chosenLimits at h
  cases hl : a.limits with
  | some l =>
    simp only [hl] at h
    split_ifs at h
    exact limAt_iff.1 (three_ok.1 h i)
  | none =>
    cases hd : a.data with
    | some d =>
      simp only [hl, hd] at h
      have hi := three_ok.1 h i
      cases hx : a.axis i with
      | some l => rw [hx] at hi; exact (axisLim_some (hax i l hx)).1 hi
      | none =>
        rw [hx] at hi
        injection hi with hi
        exact ⟨d, rfl, hi.symm⟩
    | none =>
      simp only [hl, hd] at h
      split_ifs at h with hall
      have hi := three_ok.1 h i
      cases hx : a.axis i with
      | some l => rw [hx] at hi; exact (axisLim_some (hax i l hx)).1 hi
      | none => fin_cases i <;> simp_all

/-- When a box is found at all. -/
theorem chosenLimits_iff {a : GridArgs K} (hax : ∀ i, a.AxisOk i) :
    (∃ lim, chosenLimits a = .ok lim) ↔
      match a.limits with
      | some l => l.length = 6 ∧ (∀ x ∈ l, ¬ x < 0) ∧ (a.data = none → ∀ i, a.axis i = none)
      | none => a.data = none → ∀ i, a.axis i ≠ none := by
  have hgiven : ∀ (d : Limits K), (∃ r, three (fun i => axisLim (d i) (a.axis i)) = .ok r) := by
    intro d
    have : ∀ i, ∃ p, axisLim (d i) (a.axis i) = .ok p := by
      intro i
      cases hx : a.axis i with
      | none => exact ⟨_, rfl⟩
      | some l =>
        obtain ⟨x, y, rfl, hn⟩ := hax i l hx
        exact ⟨(x, y), rfl⟩
    choose r hr using this
    exact ⟨r, three_ok.2 hr⟩
  unfold chosenLimits
  cases hl : a.limits with
  | some l =>
    simp only
    constructor
    · rintro ⟨lim, h⟩
      split_ifs at h with h1 h2 h3
      refine ⟨not_not.1 h3, ?_, ?_⟩
      · intro x hx hlt
        apply h2
        rw [List.any_eq_true]
        exact ⟨x, hx, decide_eq_true hlt⟩
      · intro hd i
        by_contra hne
        apply h1
        rw [hd]
        refine ⟨rfl, ?_⟩
        have := Option.isSome_iff_ne_none.2 hne
        fin_cases i
        · exact Or.inl this
        · exact Or.inr (Or.inl this)
        · exact Or.inr (Or.inr this)
    · rintro ⟨h6, hneg, hd⟩
      rw [if_neg, if_neg, if_neg (by simpa using h6)]
      · have : ∀ i : Fin 3, ∃ p, limAt l i = .ok p := by
          intro i
          have hi := i.2
          refine ⟨(l[2 * (i : ℕ)]'(by omega), l[2 * (i : ℕ) + 1]'(by omega)), limAt_iff.2 ⟨?_, ?_⟩⟩
          · exact List.getElem?_eq_getElem _
          · exact List.getElem?_eq_getElem _
        choose r hr using this
        exact ⟨r, three_ok.2 hr⟩
      · rw [List.any_eq_true]
        rintro ⟨x, hx, hlt⟩
        exact hneg x hx (of_decide_eq_true hlt)
      · rintro ⟨h1, h2⟩
        have := hd (Option.isNone_iff_eq_none.1 h1)
        simp [this] at h2
  | none =>
    cases hd : a.data with
    | some d => simpa using hgiven d
    | none =>
      simp only
      constructor
      · rintro ⟨lim, h⟩ _ i
        split_ifs at h with hall
        apply Option.isSome_iff_ne_none.1
        fin_cases i
        · exact hall.1
        · exact hall.2.1
        · exact hall.2.2
      · intro h
        have h := h trivial
        rw [if_pos ⟨Option.isSome_iff_ne_none.2 (h 0), Option.isSome_iff_ne_none.2 (h 1), Option.isSome_iff_ne_none.2 (h 2)⟩]
        exact hgiven fun _ => (0, 0)

theorem toCells_inv {o : Option (List ℤ)} {c : CellId} (h : toCells o = .ok c) : o = some [(c 0 : ℤ), (c 1 : ℤ), (c 2 : ℤ)] := by
  unfold toCells at h
  split at h
  · rename_i x y z
    split_ifs at h with hn
    injection h with h
    subst h
    push Not at hn
    obtain ⟨h1, h2, h3⟩ := hn
    simp [h1, h2, h3]
  · cases h

theorem toCells_ok (c : CellId) : toCells (some [(c 0 : ℤ), (c 1 : ℤ), (c 2 : ℤ)]) = .ok c := by
  unfold toCells
  dsimp only
  rw [if_neg (by omega)]
  congr 1
  funext i
  fin_cases i <;> simp

/-- Everything `Grid(...)` did if it returned. -/
theorem pyGrid_inv {a : GridArgs K} {g : Grid K} (h : pyGrid a = .ok g) :
    (∀ l, a.numCells = some l → l.length = 3) ∧ (∀ i, a.AxisOk i) ∧ (a.style = "cartesian" ∨ a.style = "cylindrical") ∧ floatCells a = false ∧
    ∃ o lim cells, chosenCells a = .ok o ∧ chosenLimits a = .ok lim ∧ toCells o = .ok cells ∧ g = gridOf a.style cells lim := by
  unfold pyGrid at h
  by_cases h3 : (a.numCells.any fun l => l.length != 3) = true
  · rw [if_pos h3] at h; cases h
  rw [if_neg h3] at h
  obtain ⟨_, e0, h⟩ := run_bind_inv h
  obtain ⟨_, e1, h⟩ := run_bind_inv h
  obtain ⟨_, e2, h⟩ := run_bind_inv h
  by_cases hs : a.style ≠ "cartesian" ∧ a.style ≠ "cylindrical"
  · rw [if_pos hs] at h; cases h
  rw [if_neg hs] at h
  obtain ⟨o, ho, h⟩ := run_bind_inv h
  obtain ⟨lim, hlim, h⟩ := run_bind_inv h
  by_cases hf : floatCells a = true
  · rw [if_pos hf] at h; cases h
  rw [if_neg hf] at h
  obtain ⟨cells, hcells, h⟩ := run_bind_inv h
  injection h with h
  refine ⟨?_, ?_, ?_, by simpa using hf, o, lim, cells, ho, hlim, hcells, h.symm⟩
  · intro l hl
    rw [hl] at h3
    simpa using h3
  · intro i
    fin_cases i
    · exact (checkAxis_iff _).1 e0
    · exact (checkAxis_iff _).1 e1
    · exact (checkAxis_iff _).1 e2
  · by_contra hn
    push Not at hn
    exact hs hn

/-- The number of cells `n` for an extent and a cell size: the quotient, cut off towards zero. -/
def WholeCells (lim : F K × F K) (size : F K) (n : ℕ) : Prop :=
  ∃ q : K, (lim.2 - lim.1) / size = fin q ∧ -1 < q ∧ q < n + 1 ∧ ((n : K) ≤ q ∨ n = 0)

theorem cellsAlong_whole {lim : F K × F K} {size : F K} {n : ℕ} (h : cellsAlong lim size = .ok (n : ℤ)) : WholeCells lim size n := by
  unfold cellsAlong at h
  cases hq : (lim.2 - lim.1) / size with
  | fin q =>
    rw [hq] at h
    unfold truncInt at h
    injection h with h
    have hn : (0 : K) ≤ (n : K) := Nat.cast_nonneg n
    refine ⟨q, hq, ?_, ?_, ?_⟩
    · split_ifs at h with h0
      · exact lt_of_lt_of_le (by norm_num) h0
      · have := Int.ceil_lt_add_one q
        rw [h] at this
        push_cast at this
        linarith
    · split_ifs at h with h0
      · have := Int.lt_floor_add_one q
        rw [h] at this
        push_cast at this
        exact this
      · push Not at h0
        linarith
    · split_ifs at h with h0
      · left
        have := Int.floor_le q
        rw [h] at this
        push_cast at this
        exact this
      · push Not at h0
        right
        have : ⌈q⌉ ≤ 0 := Int.ceil_le.2 (by simpa using h0.le)
        omega
  | nan => rw [hq] at h; cases h
  | pinf => rw [hq] at h; cases h
  | ninf => rw [hq] at h; cases h

/-- Cells from a size: without data, or without `limits`, over the box of the grid. -/
theorem chosenCells_size {a : GridArgs K} (hax : ∀ i, a.AxisOk i) {s : List (F K)} (hs : a.cellSize = some s) (hd : a.data = none ∨ a.limits = none)
    {lim : Limits K} (hlim : chosenLimits a = .ok lim) {o : Option (List ℤ)} (ho : chosenCells a = .ok o) {c : CellId} (hc : toCells o = .ok c) :
    ∃ x : Fin 3 → F K, s = [x 0, x 1, x 2] ∧ ∀ i, WholeCells (lim i) (x i) (c i) := by
  unfold chosenCells at ho
  rw [hs] at ho
  dsimp only at ho
  split_ifs at ho with h3
  rw [not_not] at h3
  obtain ⟨x, y, z, rfl⟩ := List.length_eq_three.1 h3
  obtain ⟨lim', hlim', ho⟩ := run_bind_inv ho
  obtain ⟨n, hn, ho⟩ := run_bind_inv ho
  injection ho with ho
  subst ho
  have hcc := toCells_inv hc
  have e : lim' = lim := by
    have : sizeLimits a = chosenLimits a := by
      unfold sizeLimits
      cases hl : a.limits with
      | none =>
        unfold chosenLimits
        rw [hl]
        cases hdd : a.data with
        | none => rfl
        | some d => rfl
      | some l =>
        have hdn : a.data = none := by
          rcases hd with h | h
          · exact h
          · rw [hl] at h; cases h
        unfold chosenLimits at hlim ⊢
        simp only [hl, hdn] at hlim ⊢
        split_ifs at hlim with h1 h2 h3
        rw [if_neg h1, if_neg h2, if_neg h3]
    rw [this, hlim] at hlim'
    injection hlim' with hlim'
    exact hlim'.symm
  subst e
  refine ⟨![x, y, z], rfl, fun i => ?_⟩
  have hi := three_ok.1 hn i
  have hci : n i = (c i : ℤ) := by
    have : n 0 = (c 0 : ℤ) ∧ n 1 = (c 1 : ℤ) ∧ n 2 = (c 2 : ℤ) := by simpa using hcc
    fin_cases i
    · exact this.1
    · exact this.2.1
    · exact this.2.2
  rw [hci] at hi
  apply cellsAlong_whole
  fin_cases i <;> exact hi

/-- **C92 (partial).** Whenever `Grid(...)` returns, the grid is of the style asked for, over exactly the box asked for (`limits`, else the axis arguments, else
the data, each axis on its own), empty, with `num_cells` cells if no cell size was given, and otherwise with as many whole cells of that size as fit into the box
along each axis. Missing from the property: the number of cells if `cell_size`, `data` and `limits` are given together (false, see `C92_false_extent`), and
the calls that are refused though their meaning is clear (`C92_false_negative`, `C92_false_float`). -/
theorem C92_grid_partial {a : GridArgs K} {g : Grid K} (h : pyGrid a = .ok g) :
    ∃ (cells : CellId) (lim : Limits K), a.Asked lim ∧
      ((a.style = "cartesian" ∧ g = Grid.newCart cells lim) ∨ (a.style = "cylindrical" ∧ g = Grid.newCyl cells lim)) ∧
      (a.cellSize = none → a.numCells = some [(cells 0 : ℤ), (cells 1 : ℤ), (cells 2 : ℤ)]) ∧
      (∀ s, a.cellSize = some s → a.data = none ∨ a.limits = none →
        ∃ x : Fin 3 → F K, s = [x 0, x 1, x 2] ∧ ∀ i, WholeCells (lim i) (x i) (cells i)) := by
  obtain ⟨_, hax, hst, _, o, lim, cells, ho, hlim, hcells, hg⟩ := pyGrid_inv h
  refine ⟨cells, lim, chosenLimits_asked hax hlim, ?_, ?_, ?_⟩
  · rcases hst with e | e
    · left
      refine ⟨e, ?_⟩
      rw [hg]; unfold gridOf; rw [if_pos e]
    · right
      refine ⟨e, ?_⟩
      rw [hg]; unfold gridOf; rw [if_neg (by rw [e]; decide)]
  · intro hs
    unfold chosenCells at ho
    rw [hs] at ho
    injection ho with ho
    rw [ho]
    exact toCells_inv hcells
  · intro s hs hd
    exact chosenCells_size hax hs hd hlim ho hcells

/-- **C92, which calls are accepted.** Without `cell_size`, `Grid(...)` returns a grid exactly if the arguments are sound, and then it has the cells that were given
and the box that was asked for. -/
theorem C92_accepts {a : GridArgs K} (hs : a.cellSize = none) : (∃ g, pyGrid a = .ok g) ↔ a.Sound := by
  constructor
  · rintro ⟨g, h⟩
    obtain ⟨_, hax, hst, _, o, lim, cells, ho, hlim, hcells, hg⟩ := pyGrid_inv h
    refine ⟨hst, hax, ⟨cells, ?_⟩, (chosenLimits_iff hax).1 ⟨lim, hlim⟩⟩
    unfold chosenCells at ho
    rw [hs] at ho
    injection ho with ho
    rw [ho]
    exact toCells_inv hcells
  · rintro ⟨hst, hax, ⟨n, hn⟩, hl⟩
    obtain ⟨lim, hlim⟩ := (chosenLimits_iff hax).2 hl
    refine ⟨gridOf a.style n lim, ?_⟩
    unfold pyGrid
    rw [if_neg (by rw [hn]; simp), (checkAxis_iff _).2 (hax 0), run_bind_ok, (checkAxis_iff _).2 (hax 1), run_bind_ok,
      (checkAxis_iff _).2 (hax 2), run_bind_ok, if_neg (by rcases hst with e | e <;> rw [e] <;> decide)]
    have ho : chosenCells a = .ok a.numCells := by unfold chosenCells; rw [hs]
    rw [ho, run_bind_ok, hlim, run_bind_ok, if_neg (by unfold floatCells; rw [hs]; simp), hn, toCells_ok n, run_bind_ok]
    rfl

/-- **C92, whole cells (exact arithmetic).** With a positive size and an ordered extent, as many cells as fit: `n` cells fit and `n + 1` do not. -/
theorem C92_fit [ExactArith K] {lo hi s : K} (hs : 0 < s) (hlh : lo ≤ hi) {n : ℕ} (h : WholeCells (fin lo, fin hi) (fin s) n) :
    n * s ≤ hi - lo ∧ hi - lo < (n + 1) * s := by
  obtain ⟨q, hq, _, h2, h3⟩ := h
  have e : ((fin hi : F K) - fin lo) / fin s = fin ((hi - lo) / s) := by
    rw [esub, ediv _ hs.ne']
  rw [e] at hq
  injection hq with hq
  subst hq
  have h0 : 0 ≤ (hi - lo) / s := div_nonneg (sub_nonneg.2 hlh) hs.le
  constructor
  · rcases h3 with h3 | h3
    · exact (le_div_iff₀ hs).1 h3
    · rw [h3]
      push_cast
      rw [zero_mul]
      exact sub_nonneg.2 hlh
  · exact (div_lt_iff₀ hs).1 h2

/-! ## What the constructor gets wrong -/

/-- Six numbers. -/
def sixOf (lim : Limits K) : List (F K) := [(lim 0).1, (lim 0).2, (lim 1).1, (lim 1).2, (lim 2).1, (lim 2).2]

/-- **C92 is false for boxes with negative coordinates.** For every number of cells and every box with ordered sides and a negative coordinate: the box given as
`limits` is refused, and the same box given as `xlim`, `ylim`, `zlim` makes the grid. -/
theorem C92_false_negative (style : String) (hst : style = "cartesian" ∨ style = "cylindrical") (n : CellId) (lim : Limits K)
    (hord : ∀ i, ¬ (lim i).2 < (lim i).1) (hneg : ∃ i, (lim i).1 < 0) :
    (¬ ∃ g, pyGrid ⟨none, some [(n 0 : ℤ), (n 1 : ℤ), (n 2 : ℤ)], style, none, some (sixOf lim), fun _ => none⟩ = .ok g) ∧
    (∃ g, pyGrid ⟨none, some [(n 0 : ℤ), (n 1 : ℤ), (n 2 : ℤ)], style, none, none, fun i => some [(lim i).1, (lim i).2]⟩ = .ok g) := by
  constructor
  · rw [C92_accepts rfl]
    rintro ⟨_, _, _, _, h, _⟩
    obtain ⟨i, hi⟩ := hneg
    refine h _ ?_ hi
    unfold sixOf
    fin_cases i <;> simp
  · rw [C92_accepts rfl]
    refine ⟨hst, ?_, ⟨n, rfl⟩, ?_⟩
    · intro i l hl
      refine ⟨(lim i).1, (lim i).2, ?_, hord i⟩
      simpa using hl.symm
    · intro _ i hi
      simp at hi

/-- **C92 is false for a Cartesian grid with data, limits and a cell size:** no such call returns. -/
theorem C92_false_float {a : GridArgs K} (hst : a.style = "cartesian") (hc : a.cellSize ≠ none) (hd : a.data ≠ none) (hl : a.limits ≠ none) :
    ¬ ∃ g, pyGrid a = .ok g := by
  rintro ⟨g, h⟩
  obtain ⟨_, _, _, hf, _⟩ := pyGrid_inv h
  unfold floatCells at hf
  rw [hst, Option.isSome_iff_ne_none.2 hc, Option.isSome_iff_ne_none.2 hd, Option.isSome_iff_ne_none.2 hl] at hf
  simp at hf

section demo

/-- Data in the unit cube, a box of side ten, cells of side one. -/
noncomputable def tenBox : GridArgs ℝ where
  data := some fun _ => (fin 0, fin 1)
  numCells := some [50, 50, 50]
  style := "cylindrical"
  cellSize := some [fin 1, fin 1, fin 1]
  limits := some [fin 0, fin 10, fin 0, fin 10, fin 0, fin 10]
  axis := fun _ => none

theorem truncInt_quot {lo hi s : ℝ} (hs : 0 < s) (hlh : lo ≤ hi) {n : ℕ} (h1 : n * s ≤ hi - lo) (h2 : hi - lo < (n + 1) * s) :
    cellsAlong ((fin lo, fin hi) : F ℝ × F ℝ) (fin s) = .ok (n : ℤ) := by
  unfold cellsAlong
  dsimp only
  rw [esub, ediv _ hs.ne']
  change (Except.ok (if 0 ≤ (hi - lo) / s then ⌊(hi - lo) / s⌋ else ⌈(hi - lo) / s⌉) : Run ℤ) = _
  rw [if_pos (div_nonneg (sub_nonneg.2 hlh) hs.le)]
  congr 1
  rw [Int.floor_eq_iff]
  push_cast
  exact ⟨(le_div_iff₀ hs).2 h1, (div_lt_iff₀ hs).2 h2⟩

/-- **C92 is false for a cylindrical grid with data, limits and a cell size:** the box is the one given by `limits`, and the number of cells is that of the extent of
the data: one cell of side ten per axis where ten cells of side one were asked for. -/
theorem C92_false_extent : pyGrid tenBox = .ok (Grid.newCyl ![1, 1, 1] fun _ => (fin 0, fin 10)) := by
  have hcell : ∀ i : Fin 3, cellsAlong ((fin 0, fin 1) : F ℝ × F ℝ) (fin 1) = .ok (((![1, 1, 1] : CellId) i : ℕ) : ℤ) := by
    intro i
    have e : ((![1, 1, 1] : CellId) i : ℕ) = 1 := by fin_cases i <;> rfl
    rw [e]
    exact truncInt_quot one_pos zero_le_one (by norm_num) (by norm_num)
  have hc : chosenCells tenBox = .ok (some [1, 1, 1]) := by
    unfold chosenCells
    have e : tenBox.cellSize = some [fin 1, fin 1, fin 1] := rfl
    rw [e]
    dsimp only
    rw [if_neg (by simp)]
    have hs : sizeLimits tenBox = .ok fun _ => (fin 0, fin 1) := by
      unfold sizeLimits
      change three (fun i => axisLim (fin 0, fin 1) none) = _
      exact three_ok.2 fun _ => rfl
    rw [hs, run_bind_ok]
    have ht : three (fun i : Fin 3 => do
        let x ← at' ([fin 1, fin 1, fin 1] : List (F ℝ)) i
        cellsAlong ((fun _ => (fin 0, fin 1) : Limits ℝ) i) x) = .ok fun i => (((![1, 1, 1] : CellId) i : ℕ) : ℤ) := by
      refine three_ok.2 fun i => ?_
      have : at' ([fin 1, fin 1, fin 1] : List (F ℝ)) (i : ℕ) = .ok (fin 1) := by fin_cases i <;> rfl
      rw [this, run_bind_ok]
      exact hcell i
    rw [ht, run_bind_ok]
    rfl
  have hl : chosenLimits tenBox = .ok fun _ => (fin 0, fin 10) := by
    unfold chosenLimits
    change (if _ then _ else if _ then _ else if _ then _ else _ : Run _) = _
    rw [if_neg (by simp [tenBox]), if_neg, if_neg (by simp)]
    · refine three_ok.2 fun i => limAt_iff.2 ?_
      fin_cases i <;> exact ⟨rfl, rfl⟩
    · have h0 : ¬ ((fin 0 : F ℝ) < 0) := by rw [F.zero_def, F.lt_fin]; exact lt_irrefl _
      have h10 : ¬ ((fin 10 : F ℝ) < 0) := by rw [F.zero_def, F.lt_fin]; norm_num
      simp [h0, h10]
  unfold pyGrid
  rw [if_neg (by simp [tenBox])]
  change (chosenCells tenBox >>= _) = _
  rw [hc, run_bind_ok, hl, run_bind_ok, if_neg (by simp [floatCells, tenBox])]
  change (toCells (some [((![1, 1, 1] : CellId) 0 : ℤ), ((![1, 1, 1] : CellId) 1 : ℤ), ((![1, 1, 1] : CellId) 2 : ℤ)]) >>= _) = _
  rw [toCells_ok, run_bind_ok]
  rfl

/-- The arguments of the examples: a box of side `10` by axes, and cells of size `s`. -/
noncomputable def byAxes (s : ℝ) : GridArgs ℝ where
  data := none
  numCells := none
  style := "cartesian"
  cellSize := some [fin s, fin s, fin s]
  limits := none
  axis := fun _ => some [fin (-5), fin 5]

theorem byAxes_grid {s : ℝ} (hs : 0 < s) {n : ℕ} (h1 : n * s ≤ 10) (h2 : 10 < (n + 1) * s) :
    pyGrid (byAxes s) = .ok (Grid.newCart (fun _ => n) fun _ => (fin (-5), fin 5)) := by
  have hcell : cellsAlong ((fin (-5), fin 5) : F ℝ × F ℝ) (fin s) = .ok (n : ℤ) :=
    truncInt_quot hs (by norm_num) (by norm_num; linarith) (by norm_num; linarith)
  have hl : three (fun i : Fin 3 => axisLim ((0, 0) : F ℝ × F ℝ) ((byAxes s).axis i)) = .ok fun _ => (fin (-5), fin 5) :=
    three_ok.2 fun _ => rfl
  have hc : chosenCells (byAxes s) = .ok (some [(n : ℤ), (n : ℤ), (n : ℤ)]) := by
    unfold chosenCells
    have e : (byAxes s).cellSize = some [fin s, fin s, fin s] := rfl
    rw [e]
    dsimp only
    rw [if_neg (by simp)]
    have hsz : sizeLimits (byAxes s) = .ok fun _ => (fin (-5), fin 5) := by
      unfold sizeLimits
      change (if _ then _ else _ : Run _) = _
      rw [if_pos (by simp [byAxes]), hl]
    rw [hsz, run_bind_ok]
    have ht : three (fun i : Fin 3 => do
        let x ← at' ([fin s, fin s, fin s] : List (F ℝ)) i
        cellsAlong ((fun _ => (fin (-5), fin 5) : Limits ℝ) i) x) = .ok fun _ => (n : ℤ) := by
      refine three_ok.2 fun i => ?_
      have : at' ([fin s, fin s, fin s] : List (F ℝ)) (i : ℕ) = .ok (fin s) := by fin_cases i <;> rfl
      rw [this, run_bind_ok]
      exact hcell
    rw [ht, run_bind_ok]
    rfl
  have hlim : chosenLimits (byAxes s) = .ok fun _ => (fin (-5), fin 5) := by
    unfold chosenLimits
    change (if _ then _ else _ : Run _) = _
    rw [if_pos (by simp [byAxes]), hl]
  have hax : ∀ i, checkAxis ((byAxes s).axis i) = .ok () := by
    intro i
    refine (checkAxis_iff _).2 fun l hl => ⟨fin (-5), fin 5, ?_, ?_⟩
    · simpa [byAxes] using hl.symm
    · rw [F.lt_fin]; norm_num
  unfold pyGrid
  rw [if_neg (by simp [byAxes]), hax 0, run_bind_ok, hax 1, run_bind_ok, hax 2, run_bind_ok, if_neg (by simp [byAxes]), hc, run_bind_ok, hlim, run_bind_ok,
    if_neg (by simp [floatCells, byAxes])]
  have ht : toCells (some [(n : ℤ), (n : ℤ), (n : ℤ)]) = .ok fun _ => n := toCells_ok fun _ => n
  rw [ht, run_bind_ok]
  rfl

/-- Witness for `C92_grid_partial` and `C92_fit`: cells of side three in a box of side ten, three fit. -/
example : pyGrid (byAxes 3) = .ok (Grid.newCart (fun _ => 3) fun _ => (fin (-5), fin 5)) :=
  byAxes_grid (by norm_num) (by norm_num) (by norm_num)

/-- Witness for `C92_accepts` and `C92_false_negative`. -/
example : (⟨none, some [4, 5, 6], "cartesian", none, none, fun _ => some [fin (-5), fin 5]⟩ : GridArgs ℝ).Sound := by
  refine ⟨Or.inl rfl, fun i l hl => ⟨fin (-5), fin 5, by simpa using hl.symm, by rw [F.lt_fin]; norm_num⟩, ⟨![4, 5, 6], rfl⟩, ?_⟩
  intro _ i h
  simp at h

/-- **C92, a cell larger than the box makes a grid without cells.** The constructor returns it, and (release builds) every value added to it is lost without an error; in a
debug build adding a value inside the box panics. -/
theorem C92_false_empty (pos : Pos ℝ) (v : F ℝ) :
    ∃ g : Grid ℝ, pyGrid (byAxes 20) = .ok g ∧ g.addValue .release pos v = .ok g ∧
      (g.isInside pos = true → g.addValue .debug pos v = .error .overflow) := by
  refine ⟨_, byAxes_grid (n := 0) (by norm_num) (by norm_num) (by norm_num), ?_, ?_⟩
  · have hc : ∃ o, (CartGeom.new (fun _ => 0) fun _ => ((fin (-5), fin 5) : F ℝ × F ℝ)).cellId .release pos = .ok o := by
      unfold CartGeom.cellId
      by_cases h : (CartGeom.new (fun _ => 0) fun _ => ((fin (-5), fin 5) : F ℝ × F ℝ)).isInside pos = false
      · rw [if_pos h]; exact ⟨_, rfl⟩
      · rw [if_neg h]; exact ⟨_, rfl⟩
    obtain ⟨o, ho⟩ := hc
    unfold Grid.addValue Grid.cellId Grid.newCart
    dsimp only [Geom.cellId]
    rw [ho, run_bind_ok]
    cases o with
    | none => rfl
    | some c => exact if_pos (Or.inl (Nat.zero_le _))
  · intro hin
    unfold Grid.addValue Grid.cellId Grid.newCart
    dsimp only [Geom.cellId]
    unfold CartGeom.cellId
    rw [if_neg (by rw [show (CartGeom.new (fun _ => 0) fun _ => ((fin (-5), fin 5) : F ℝ × F ℝ)).isInside pos = true from hin]; simp)]
    rfl

end demo

/-! ## `Grid.plot` -/

/-- **C93.** `Grid.plot(axis)` for `axis` 0, 1, 2 draws one pixel per line of cells along the axis: the pixel in row `i` and column `j` has the weighted mean of the cells that are `i`-th
along the first remaining axis and `j`-th along the second one, row `i` is labelled with the position of the `i`-th cell along the first remaining axis, and column `j` with
that of the `j`-th along the second one. -/
theorem C93_plot [ExactArith K] (g : Grid K) (hs : g.st.weight.shape = g.st.data.shape) (hd : FinOrNaN g.st.data) (hw : FinNonneg g.st.weight) (a : Fin 3) :
    ∃ h, pyPlot g a = .ok h ∧ h.y = g.geom.positions (a.succAbove 0) ∧ h.x = g.geom.positions (a.succAbove 1) ∧
      h.z.length = g.st.data.shape (a.succAbove 0) ∧
      ∀ i < g.st.data.shape (a.succAbove 0), ∃ row, h.z[i]? = some row ∧ row.length = g.st.data.shape (a.succAbove 1) ∧
        ∀ j < g.st.data.shape (a.succAbove 1), row[j]? = some
          (weightedMean g.st ((cellsOf g.st.data.shape).filter fun c => c (a.succAbove 0) = i ∧ c (a.succAbove 1) = j)) := by
  obtain ⟨r, h1, h2, h3⟩ := C12_collapse g hs hd hw a
  have hz : ∀ z, z = (List.range (r.shape 0)).map (fun i => (List.range (r.shape 1)).map fun j => r.get ![i, j]) →
      z.length = g.st.data.shape (a.succAbove 0) ∧
      ∀ i < g.st.data.shape (a.succAbove 0), ∃ row, z[i]? = some row ∧ row.length = g.st.data.shape (a.succAbove 1) ∧
        ∀ j < g.st.data.shape (a.succAbove 1), row[j]? = some
          (weightedMean g.st ((cellsOf g.st.data.shape).filter fun c => c (a.succAbove 0) = i ∧ c (a.succAbove 1) = j)) := by
    rintro z rfl
    have e0 : r.shape 0 = g.st.data.shape (a.succAbove 0) := by rw [h2]
    have e1 : r.shape 1 = g.st.data.shape (a.succAbove 1) := by rw [h2]
    rw [e0, e1]
    refine ⟨by simp, fun i hi => ⟨_, by simp [hi]; rfl, by simp, fun j hj => ?_⟩⟩
    have hidx : InB r.shape ![i, j] := by
      intro k
      fin_cases k
      · change i < r.shape 0; omega
      · change j < r.shape 1; omega
    have he : lineCells g.st.data.shape a ![i, j]
        = (cellsOf g.st.data.shape).filter fun c => c (a.succAbove 0) = i ∧ c (a.succAbove 1) = j := by
      unfold lineCells
      ext c
      simp only [Finset.mem_filter]
      refine and_congr_right fun _ => ?_
      constructor
      · intro h; exact ⟨h 0, h 1⟩
      · rintro ⟨h, h'⟩ k; fin_cases k; exacts [h, h']
    rw [← he, ← (h3 _ hidx).1]
    simp [hj]
  unfold pyPlot
  rw [h1, run_bind_ok]
  fin_cases a
  · exact ⟨_, rfl, rfl, rfl, hz _ rfl⟩
  · exact ⟨_, rfl, rfl, rfl, hz _ rfl⟩
  · exact ⟨_, rfl, rfl, rfl, hz _ rfl⟩

/-- **C93, other axes** are refused. -/
theorem C93_axis (g : Grid K) (axis : ℕ) (h : 3 ≤ axis) : ∃ e, pyPlot g axis = .error e := by
  refine ⟨.index, ?_⟩
  unfold pyPlot Grid.collapse Store.collapse
  rw [dif_neg (by omega)]
  rfl

/-- Witness for C93: a fresh grid; the column labels along `x` are the cell centres. -/
example : ∃ h, pyPlot (Grid.newCart (fun _ => 2) fun _ => (fin (0 : ℝ), fin 4)) 2 = .ok h ∧ h.y = [fin 1, fin 3] ∧ h.x = [fin 1, fin 3] := by
  obtain ⟨h, h1, h2, h3, _⟩ := C93_plot (Grid.newCart (fun _ => 2) fun _ => (fin (0 : ℝ), fin 4)) rfl
    (fun i _ => Or.inr ⟨0, rfl⟩) (fun i _ => ⟨0, rfl, le_refl _⟩) 2
  refine ⟨h, h1, ?_, ?_⟩
  · rw [h2]
    simp only [Grid.newCart, Geom.positions, CartGeom.new, CartGeom.centre, List.range, List.range.loop, List.map, eofNat, esub]
    rw [ediv _ (by norm_num), ediv _ (by norm_num)]
    simp only [emul, eadd]
    norm_num
  · rw [h3]
    simp only [Grid.newCart, Geom.positions, CartGeom.new, CartGeom.centre, List.range, List.range.loop, List.map, eofNat, esub]
    rw [ediv _ (by norm_num), ediv _ (by norm_num)]
    simp only [emul, eadd]
    norm_num

end Up4
