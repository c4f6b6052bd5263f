import Verif.Model.GridCalls
import Verif.Props.Shape
import Verif.Props.GridObject

set_option linter.unusedSectionVars false

/-! # C141: the methods of a grid object -/

namespace Up4
open F

variable {K : Type} [Field K] [LinearOrder K] [IsStrictOrderedRing K] [FloorRing K] [Arith K]

/-- The grid was made by a constructor; its contents may have changed since, not its shape. -/
def Built (g : Grid K) : Prop := (∃ cells lim, g.geom = (Grid.newCart cells lim).geom ∨ g.geom = (Grid.newCyl cells lim).geom) ∧ g.Shaped

theorem usizeArg_ok {z : ℤ} {n : ℕ} (h : usizeArg z = .ok n) : z = n := by
  unfold usizeArg at h
  split_ifs at h with h0
  cases h
  omega

theorem usizeArg_nat (n : ℕ) : usizeArg (n : ℤ) = .ok n := by
  unfold usizeArg
  rw [if_neg (by omega)]
  simp

theorem map_inv {α β : Type} {r : Run α} {f : α → β} {b : β} (h : r.map f = .ok b) : ∃ a, r = .ok a ∧ b = f a := by
  cases r with
  | error e => cases h
  | ok a => cases h; exact ⟨a, rfl, rfl⟩

theorem map_ok {α β : Type} (a : α) (f : α → β) : (Except.ok a : Run α).map f = .ok (f a) := rfl

/-- The outliers of a grid are removed. -/
def GridCall.removes : GridCall K → Prop
  | .removeOutliers _ _ => True
  | _ => False

/-- Outliers are replaced by the mean of their neighbours. -/
def GridCall.averages : GridCall K → Prop
  | .removeOutliers m _ => m = 2
  | _ => False

theorem call_state (p : Profile) (g : Grid K) (hs : g.Shaped) (c : GridCall K) :
    (g.afterCall p c).geom = g.geom ∧ (g.afterCall p c).Shaped ∧ (¬ c.removes → g.afterCall p c = g) ∧ (¬ c.averages → (g.afterCall p c).st.weight = g.st.weight) := by
  have keep : g.geom = g.geom ∧ g.Shaped ∧ (¬ c.removes → g = g) ∧ (¬ c.averages → g.st.weight = g.st.weight) := ⟨rfl, hs, fun _ => rfl, fun _ => rfl⟩
  unfold Grid.afterCall
  cases e : g.call p c with
  | error x => exact keep
  | ok r =>
    cases c with
    | removeOutliers m t =>
      obtain ⟨g', e1, rfl⟩ := map_inv e
      obtain ⟨n, en, e2⟩ := run_bind_inv e1
      have hm := usizeArg_ok en
      obtain ⟨h1, h2⟩ := GridOp.run_shaped p hs (.outlierRemoval t n) trivial e2
      refine ⟨h1, h2, fun h => absurd trivial h, fun h => ?_⟩
      have hn : n ≠ 2 := fun h' => h (by subst h'; exact hm)
      obtain ⟨s, e3, e4⟩ := run_bind_inv e2
      cases e4
      unfold Store.outlierRemoval at e3
      split_ifs at e3
      · cases e3; rfl
      · cases e3; rfl
    | toNumpy => cases e; exact keep
    | weightsToNumpy => cases e; exact keep
    | shape => cases e; exact keep
    | cellPositions => cases e; exact keep
    | positions => cases e; exact keep
    | str => cases e; exact keep
    | slice => obtain ⟨_, _, rfl⟩ := map_inv e; exact keep
    | slicePos => obtain ⟨_, _, rfl⟩ := map_inv e; exact keep
    | collapse => obtain ⟨_, _, rfl⟩ := map_inv e; exact keep
    | collapseTwo => obtain ⟨_, _, rfl⟩ := map_inv e; exact keep
    | isInside => obtain ⟨_, _, rfl⟩ := map_inv e; exact keep
    | cellId => obtain ⟨_, _, rfl⟩ := map_inv e; exact keep

/-- **C141, any history.** Whatever methods of a grid object were called, with whatever arguments and whether they returned or raised, the geometry is the same and the
arrays have their shape; without `remove_outliers` nothing has changed at all, and without its mode 2 the weights have not. -/
theorem C141_history (p : Profile) (g : Grid K) (hg : Built g) (cs : List (GridCall K)) :
    Built (g.afterCalls p cs) ∧ (g.afterCalls p cs).geom = g.geom ∧ ((∀ c ∈ cs, ¬ c.removes) → g.afterCalls p cs = g) ∧
      ((∀ c ∈ cs, ¬ c.averages) → (g.afterCalls p cs).st.weight = g.st.weight) := by
  unfold Grid.afterCalls
  induction cs generalizing g with
  | nil => exact ⟨hg, rfl, fun _ => rfl, fun _ => rfl⟩
  | cons c cs ih =>
    obtain ⟨h1, h2, h3, h4⟩ := call_state p g hg.2 c
    obtain ⟨k1, k2, k3, k4⟩ := ih (g.afterCall p c) ⟨by rw [h1]; exact hg.1, h2⟩
    rw [List.foldl_cons]
    refine ⟨k1, k2.trans h1, fun h => ?_, fun h => ?_⟩
    · rw [k3 fun c hc => h c (List.mem_cons_of_mem _ hc), h3 (h c List.mem_cons_self)]
    · rw [k4 fun c hc => h c (List.mem_cons_of_mem _ hc), h4 (h c List.mem_cons_self)]

theorem sizes (g : Grid K) (hg : Built g) (a : Fin 3) : (g.geom.positions a).length = g.geom.cells a := by
  obtain ⟨⟨cells, lim, h | h⟩, -⟩ := hg
  · rw [h]; exact (C115_lengths cells lim a).1
  · rw [h]; exact (C115_lengths cells lim a).2

/-- **C141, the arrays.** `to_numpy`, `weights_to_numpy`, `shape`, `cell_positions` and `xpositions`, `ypositions`, `zpositions` always answer and fit together: both
arrays have the shape `shape` tells, and there is one position for each index along each axis. -/
theorem C141_arrays (p : Profile) (g : Grid K) (hg : Built g) :
    ∃ d w c l, g.call p .toNumpy = .ok (g, .cube d) ∧ g.call p .weightsToNumpy = .ok (g, .cube w) ∧ g.call p .shape = .ok (g, .cells c) ∧
      g.call p .cellPositions = .ok (g, .lists l) ∧ (∀ a, g.call p (.positions a) = .ok (g, .list (l a))) ∧
      d.shape = c ∧ w.shape = c ∧ (∀ a, (l a).length = c a) ∧ d = g.st.data ∧ w = g.st.weight ∧ l = g.geom.positions :=
  ⟨g.st.data, g.st.weight, g.geom.cells, g.geom.positions, rfl, rfl, rfl, rfl, fun _ => rfl, hg.2.1, hg.2.2, sizes g hg, rfl, rfl, rfl⟩

theorem axis_cases {axis : ℤ} {n : ℕ} (h : axis = n) (h3 : n < 3) : ∃ a : Fin 3, axis = ((a : ℕ) : ℤ) := ⟨⟨n, h3⟩, h⟩

theorem slice_nat (g : Grid K) (a : Fin 3) (i : ℕ) (hi : i < g.st.data.shape a) :
    g.pySlice (a : ℕ) i = .ok ⟨fun j => g.st.data.shape (a.succAbove j), fun idx => g.st.data.get (a.insertNth i idx)⟩ := by
  unfold Grid.pySlice
  rw [usizeArg_nat, run_bind_ok, usizeArg_nat, run_bind_ok]
  unfold Grid.sliceIdx Store.sliceAt
  rw [dif_pos a.isLt]
  exact if_pos hi

/-- **C141, slices.** `slice(axis, index)` answers exactly for the axes 0, 1, 2 and the indices that exist (negative ones are refused), and then gives the cells of that
layer: entry by entry those of `to_numpy`, in the order of the remaining axes. `slice_pos` gives one of these layers or raises. -/
theorem C141_slices (p : Profile) (g : Grid K) (hg : Built g) :
    (∀ axis index : ℤ, (∃ r, g.call p (.slice axis index) = .ok r) ↔ ∃ (a : Fin 3) (i : ℕ), axis = ((a : ℕ) : ℤ) ∧ index = i ∧ i < g.geom.cells a) ∧
    (∀ (a : Fin 3) (i : ℕ), i < g.geom.cells a → ∃ s, g.call p (.slice (a : ℕ) i) = .ok (g, .plane s) ∧ (∀ j, s.shape j = g.geom.cells (a.succAbove j)) ∧
      ∀ c : CellId, c a = i → s.get (fun j => c (a.succAbove j)) = g.st.data.get c) ∧
    (∀ axis x r, g.call p (.slicePos axis x) = .ok r → ∃ (a : Fin 3) (i : ℕ), axis = ((a : ℕ) : ℤ) ∧ i < g.geom.cells a ∧ g.call p (.slice (a : ℕ) i) = .ok r) ∧
    (∀ (a : Fin 3) x s, g.slice a x = .ok s → g.call p (.slicePos (a : ℕ) x) = .ok (g, .plane s)) := by
  have hcell : ∀ a, g.st.data.shape a = g.geom.cells a := fun a => congrFun hg.2.1 a
  refine ⟨fun axis index => ⟨?_, ?_⟩, fun a i hi => ?_, ?_, ?_⟩
  · rintro ⟨r, e⟩
    obtain ⟨s, e1, -⟩ := map_inv e
    obtain ⟨n, en, e2⟩ := run_bind_inv e1
    obtain ⟨i, ei, e3⟩ := run_bind_inv e2
    unfold Grid.sliceIdx Store.sliceAt at e3
    split_ifs at e3 with h3
    dsimp only at e3
    split_ifs at e3 with hi
    exact ⟨⟨n, h3⟩, i, usizeArg_ok en, usizeArg_ok ei, by rw [← hcell]; exact hi⟩
  · rintro ⟨a, i, rfl, rfl, hi⟩
    rw [← hcell] at hi
    exact ⟨_, by unfold Grid.call; dsimp only; rw [slice_nat g a i hi, map_ok]⟩
  · rw [← hcell] at hi
    refine ⟨_, by unfold Grid.call; dsimp only; rw [slice_nat g a i hi, map_ok], fun j => hcell _, fun c hc => ?_⟩
    subst hc
    change g.st.data.get (a.insertNth (c a) fun j => c (a.succAbove j)) = _
    congr 1
    exact Fin.insertNth_self_removeNth a c
  · intro axis x r e
    obtain ⟨s, e1, rfl⟩ := map_inv e
    obtain ⟨n, en, e2⟩ := run_bind_inv e1
    unfold Grid.slice at e2
    split_ifs at e2 with h3
    generalize CartGeom.sliceIdx (g.geom.limits ⟨n, h3⟩) (g.geom.cells ⟨n, h3⟩) x = i at e2
    have e3 := e2
    unfold Store.sliceAt at e2
    rw [dif_pos h3] at e2
    dsimp only at e2
    split_ifs at e2 with hi
    refine ⟨⟨n, h3⟩, i, usizeArg_ok en, by rw [← hcell]; exact hi, ?_⟩
    unfold Grid.call
    dsimp only
    rw [slice_nat g ⟨n, h3⟩ i hi, map_ok]
    cases e2
    rfl
  · intro a x s e
    have : g.pySlicePos (a : ℕ) x = .ok s := by
      unfold Grid.pySlicePos
      rw [usizeArg_nat, run_bind_ok]
      exact e
    unfold Grid.call
    dsimp only
    rw [this, map_ok]

/-- **C141, averages.** `collapse` answers exactly for the axes 0, 1, 2, and `collapse_two` exactly for two different ones; the results are the averages of C12 and C13 and
have the shapes of the remaining axes. -/
theorem C141_averages (p : Profile) (g : Grid K) (hg : Built g) :
    (∀ axis : ℤ, (∃ r, g.call p (.collapse axis) = .ok r) ↔ ∃ a : Fin 3, axis = ((a : ℕ) : ℤ)) ∧
    (∀ a : Fin 3, ∃ s, g.call p (.collapse (a : ℕ)) = .ok (g, .plane s) ∧ g.collapse a = .ok s ∧ ∀ j, s.shape j = g.geom.cells (a.succAbove j)) ∧
    (∀ x y : ℤ, (∃ r, g.call p (.collapseTwo x y) = .ok r) ↔ ∃ a b : Fin 3, x = ((a : ℕ) : ℤ) ∧ y = ((b : ℕ) : ℤ) ∧ a ≠ b) ∧
    (∀ a b e : Fin 3, a ≠ b → e ≠ a → e ≠ b → ∃ s, g.call p (.collapseTwo (a : ℕ) (b : ℕ)) = .ok (g, .row s) ∧ g.collapseTwo a b = .ok s ∧
      s.shape 0 = g.geom.cells e) := by
  have hcell : ∀ a, g.st.data.shape a = g.geom.cells a := fun a => congrFun hg.2.1 a
  have one : ∀ a : Fin 3, ∃ s, g.call p (.collapse (a : ℕ)) = .ok (g, .plane s) ∧ g.collapse a = .ok s ∧ ∀ j, s.shape j = g.geom.cells (a.succAbove j) := by
    intro a
    have : g.pyCollapse (a : ℕ) = Store.collapse g.geom.isCylindrical g.st.data g.st.weight a := by
      unfold Grid.pyCollapse
      rw [usizeArg_nat, run_bind_ok]
      rfl
    unfold Grid.call
    dsimp only
    rw [this]
    unfold Grid.collapse Store.collapse
    rw [dif_pos a.isLt, map_ok]
    exact ⟨_, rfl, rfl, fun j => hcell _⟩
  have two : ∀ a b e : Fin 3, a ≠ b → e ≠ a → e ≠ b → ∃ s, g.call p (.collapseTwo (a : ℕ) (b : ℕ)) = .ok (g, .row s) ∧ g.collapseTwo a b = .ok s ∧
      s.shape 0 = g.geom.cells e := by
    intro a b e hab hea heb
    have : g.pyCollapseTwo (a : ℕ) (b : ℕ) = Store.collapseTwo g.geom.isCylindrical g.st a b := by
      unfold Grid.pyCollapseTwo
      rw [usizeArg_nat, run_bind_ok, usizeArg_nat, run_bind_ok]
      rfl
    unfold Grid.call
    dsimp only
    rw [this]
    fin_cases a <;> fin_cases b <;> first | exact absurd rfl hab | (fin_cases e <;> first | exact absurd rfl hea | exact absurd rfl heb | exact ⟨_, rfl, rfl, hcell _⟩)
  refine ⟨fun axis => ⟨?_, ?_⟩, one, fun x y => ⟨?_, ?_⟩, two⟩
  · rintro ⟨r, e⟩
    obtain ⟨s, e1, -⟩ := map_inv e
    obtain ⟨n, en, e2⟩ := run_bind_inv e1
    unfold Grid.collapse Store.collapse at e2
    split_ifs at e2 with h3
    exact ⟨⟨n, h3⟩, usizeArg_ok en⟩
  · rintro ⟨a, rfl⟩
    obtain ⟨s, e, -⟩ := one a
    exact ⟨_, e⟩
  · rintro ⟨r, e⟩
    obtain ⟨s, e1, -⟩ := map_inv e
    obtain ⟨n, en, e2⟩ := run_bind_inv e1
    obtain ⟨m, em, e3⟩ := run_bind_inv e2
    obtain ⟨⟨u, v⟩, ex, e4⟩ := run_bind_inv e3
    obtain ⟨f, e5, e6⟩ := run_bind_inv e4
    obtain ⟨w, e7, e8⟩ := run_bind_inv e6
    unfold Store.collapse at e5 e8
    split_ifs at e5 e8 with h3 h2
    unfold Store.orderAxes at ex
    split_ifs at ex with h0 h1
    · cases ex
      exact ⟨⟨n, by omega⟩, ⟨m, by omega⟩, usizeArg_ok en, usizeArg_ok em, fun h => h0 (congrArg Fin.val h)⟩
    · cases ex
      exact ⟨⟨n, by omega⟩, ⟨m, by omega⟩, usizeArg_ok en, usizeArg_ok em, fun h => h0 (congrArg Fin.val h)⟩
  · rintro ⟨a, b, rfl, rfl, hab⟩
    obtain ⟨e, he⟩ : ∃ e : Fin 3, e ≠ a ∧ e ≠ b := by
      fin_cases a <;> fin_cases b <;> first | exact absurd rfl hab | exact ⟨0, by decide⟩ | exact ⟨1, by decide⟩ | exact ⟨2, by decide⟩
    obtain ⟨s, h, -⟩ := two a b e hab he.1 he.2
    exact ⟨_, h⟩

/-- **C141, outliers.** `remove_outliers` with mode 0 or 1 always answers, and with any other number but 2 never does; afterwards the
object is what C15 and C16 say; a call that raises leaves the object as it is. -/
theorem C141_outliers (p : Profile) (g : Grid K) (t : F K) :
    (∀ m : ℕ, m = 0 ∨ m = 1 → ∃ g', g.call p (.removeOutliers m t) = .ok (g', .none)) ∧
    (∀ (m : ℕ) g', g.call p (.removeOutliers m t) = .ok (g', .none) ↔ g.outlierRemoval p t m = .ok g') ∧ (∀ m : ℤ, m < 0 ∨ 2 < m → ∃ e, g.call p (.removeOutliers m t) = .error e) ∧
    (∀ (c : GridCall K) e, g.call p c = .error e → g.afterCall p c = g) := by
  refine ⟨?_, ?_, ?_, ?_⟩
  · rintro m (rfl | rfl) <;> exact ⟨_, rfl⟩
  · intro m g'
    have : g.call p (.removeOutliers m t) = (g.outlierRemoval p t m).map fun x => (x, GridAnswer.none) := by
      unfold Grid.call Grid.pyRemoveOutliers
      dsimp only
      rw [usizeArg_nat, run_bind_ok]
    rw [this]
    constructor
    · intro h
      obtain ⟨x, e, hx⟩ := map_inv h
      cases hx
      exact e
    · intro h
      rw [h, map_ok]
  · intro m hm
    cases e : g.call p (.removeOutliers m t) with
    | error x => exact ⟨x, rfl⟩
    | ok r =>
      obtain ⟨g', e1, rfl⟩ := map_inv e
      obtain ⟨n, en, e2⟩ := run_bind_inv e1
      have := usizeArg_ok en
      obtain ⟨s, e3, e4⟩ := run_bind_inv e2
      unfold Store.outlierRemoval at e3
      rw [if_neg (by omega), if_neg (by omega), if_neg (by omega)] at e3
      cases e3
  · intro c e h
    unfold Grid.afterCall
    rw [h]

/-- **C141, looking up.** On a Cartesian grid, whatever was called before, `is_inside` tells whether the position lies in the closed box of the limits, and `cell_id` answers
exactly then, with a cell of the grid: the one analyses count the position in. -/
theorem C141_lookup [LawfulArith K] (p : Profile) (cells : CellId) (hc : CellsOk cells) (lim : Limits K) (cs : List (GridCall K)) (x y z : F K) :
    let g := (Grid.newCart cells lim).afterCalls p cs
    let inBox := ∀ a, (![x, y, z] : Pos K) a ≠ F.nan ∧ (lim a).1 ≤ (![x, y, z] : Pos K) a ∧ (![x, y, z] : Pos K) a ≤ (lim a).2
    (∃ b, g.call p (.isInside [x, y, z]) = .ok (g, .bool b) ∧ (b = true ↔ inBox)) ∧
    (inBox → ∃ c, g.call p (.cellId x y z) = .ok (g, .cells c) ∧ InB cells c ∧ inCell p g.geom ![x, y, z] c = true) ∧
    (¬ inBox → ∃ e, g.call p (.cellId x y z) = .error e) := by
  intro g inBox
  have hgeo : g.geom = (Grid.newCart cells lim).geom := (C141_history p _ ⟨⟨_, _, Or.inl rfl⟩, rfl, rfl⟩ cs).2.1
  have hin : g.isInside ![x, y, z] = (Grid.newCart cells lim).isInside ![x, y, z] := by
    change g.geom.isInside _ = _
    rw [hgeo]; rfl
  have hid : g.pyCellId p x y z = (Grid.newCart cells lim).pyCellId p x y z := by
    unfold Grid.pyCellId
    change ((g.geom.cellId p ![x, y, z]) >>= _) = _
    rw [hgeo]; rfl
  have hbox : (Grid.newCart cells lim).isInside ![x, y, z] = true ↔ inBox := C02_isInside_iff (CartGeom.new cells lim) ![x, y, z]
  have hpy : (Grid.newCart cells lim).pyInside [x, y, z] = .ok ((Grid.newCart cells lim).isInside ![x, y, z]) := (C118_inside _ _).2 x y z [] rfl
  obtain ⟨h1, h2⟩ := C118_cellId_partial p cells hc lim x y z
  refine ⟨⟨(Grid.newCart cells lim).isInside ![x, y, z], ?_, hbox⟩, fun h => ?_, fun h => ?_⟩
  · have : g.pyInside [x, y, z] = .ok ((Grid.newCart cells lim).isInside ![x, y, z]) := by
      rw [(C118_inside g _).2 x y z [] rfl, hin]
    unfold Grid.call
    dsimp only
    rw [this, map_ok]
  · obtain ⟨c, e, hb, hcell⟩ := h1 (by rw [hpy, hbox.2 h])
    refine ⟨c, ?_, hb, by rw [hgeo]; exact hcell⟩
    unfold Grid.call
    dsimp only
    rw [hid, e, map_ok]
  · refine ⟨.unwrap, ?_⟩
    unfold Grid.call
    dsimp only
    rw [hid, h2 (by rw [hpy, Bool.eq_false_iff.2 fun h' => h (hbox.1 h')])]
    rfl

theorem triple_ok {α : Type} (f : Grid K → Run α) (g : VecGrid K) (r : Fin 3 → α) : g.triple f = .ok r ↔ ∀ a, f (g.comp a) = .ok (r a) := by
  unfold VecGrid.triple
  constructor
  · intro h
    obtain ⟨x, e1, h⟩ := run_bind_inv h
    obtain ⟨y, e2, h⟩ := run_bind_inv h
    obtain ⟨z, e3, h⟩ := run_bind_inv h
    cases h
    intro a
    fin_cases a
    · exact e1
    · exact e2
    · exact e3
  · intro h
    rw [h 0, run_bind_ok, h 1, run_bind_ok, h 2, run_bind_ok, run_pure]
    congr 1
    funext a
    fin_cases a <;> rfl

/-- **C141, vector grids.** The methods of a vector grid answer exactly when those of the three components do, and give their answers, x, y and z in this order; on a vector
grid whose components share a geometry (as `vectorfield` makes them), all the arrays have the shape `shape` tells, and one slice exists if and only if the other two do. -/
theorem C141_vectors (g : VecGrid K) (hb : ∀ a, Built (g.comp a)) (hg : ∀ a, (g.comp a).geom = (g.comp 0).geom) :
    (∀ a, g.pyToNumpy a = (g.comp a).st.data ∧ (g.pyToNumpy a).shape = g.pyShape ∧ (g.pyCellPositions a).length = g.pyShape a) ∧
    (∀ axis index r, g.pySlice axis index = .ok r ↔ ∀ a, (g.comp a).pySlice axis index = .ok (r a)) ∧
    (∀ axis x r, g.pySlicePos axis x = .ok r ↔ ∀ a, (g.comp a).pySlicePos axis x = .ok (r a)) ∧
    (∀ axis r, g.pyCollapse axis = .ok r ↔ ∀ a, (g.comp a).pyCollapse axis = .ok (r a)) ∧
    (∀ axis index : ℤ, (∃ r, g.pySlice axis index = .ok r) ↔ ∃ (a : Fin 3) (i : ℕ), axis = ((a : ℕ) : ℤ) ∧ index = i ∧ i < g.pyShape a) := by
  refine ⟨fun a => ⟨rfl, ?_, ?_⟩, fun axis index r => triple_ok _ g r, fun axis x r => triple_ok _ g r, fun axis r => triple_ok _ g r, fun axis index => ⟨?_, ?_⟩⟩
  · change (g.comp a).st.data.shape = (g.comp 0).geom.cells
    rw [(hb a).2.1, hg a]
  · exact sizes _ (hb 0) a
  · rintro ⟨r, h⟩
    have h0 := (triple_ok _ g r).1 h 0
    exact ((C141_slices .release (g.comp 0) (hb 0)).1 axis index).1 ⟨_, by unfold Grid.call; dsimp only; rw [h0, map_ok]⟩
  · rintro ⟨a, i, rfl, rfl, hi⟩
    refine ⟨_, (triple_ok _ g _).2 fun b => slice_nat (g.comp b) a i ?_⟩
    rw [(hb b).2.1, hg b]
    exact hi

/-! ### Cases -/

/-- A box of 2 by 3 by 4 cells. -/
noncomputable def boxGrid : Grid ℝ := Grid.newCart ![2, 3, 4] (finLimits (fun _ => 0) fun _ => 1)

theorem boxGrid_built : Built boxGrid := ⟨⟨_, _, Or.inl rfl⟩, rfl, rfl⟩

/-- Case for `C141_history`: a slice that does not exist, an unknown mode, an average. -/
example (p : Profile) : (boxGrid.afterCalls p [.slice 1 3, .removeOutliers 7 (fin 1), .collapse (-1), .collapse 2]).st.weight = boxGrid.st.weight :=
  (C141_history p boxGrid boxGrid_built _).2.2.2 (by simp [GridCall.averages])

/-- Case for `C141_arrays`: the shape is (2, 3, 4). -/
example (p : Profile) : ∃ d : Arr 3 (F ℝ), boxGrid.call p .toNumpy = .ok (boxGrid, .cube d) ∧ d.shape = ![2, 3, 4] := by
  obtain ⟨d, w, c, l, h1, -, h3, -, -, h6, -⟩ := C141_arrays p boxGrid boxGrid_built
  cases h3
  exact ⟨d, h1, h6⟩

/-- Case for `C141_slices`: there is a layer 2 along y and no layer 3, nor one counted from the end. -/
example (p : Profile) : (∃ r, boxGrid.call p (.slice 1 2) = .ok r) ∧ ¬ (∃ r, boxGrid.call p (.slice 1 3) = .ok r) ∧ ¬ ∃ r, boxGrid.call p (.slice 1 (-1)) = .ok r := by
  have h := (C141_slices p boxGrid boxGrid_built).1
  refine ⟨(h 1 2).2 ⟨1, 2, rfl, rfl, by decide⟩, fun hr => ?_, fun hr => ?_⟩
  · obtain ⟨a, i, ha, hi, hlt⟩ := (h 1 3).1 hr
    obtain rfl : a = 1 := Fin.ext (by have : ((a : ℕ) : ℤ) = 1 := ha.symm; omega)
    change i < 3 at hlt
    omega
  · obtain ⟨a, i, ha, hi, hlt⟩ := (h 1 (-1)).1 hr
    omega

/-- Case for `C141_averages`: the averages over y and z are one row of two. -/
example (p : Profile) : ∃ s : Arr 1 (F ℝ), boxGrid.call p (.collapseTwo 1 2) = .ok (boxGrid, .row s) ∧ boxGrid.collapseTwo 1 2 = .ok s ∧ s.shape 0 = 2 :=
  (C141_averages p boxGrid boxGrid_built).2.2.2 1 2 0 (by decide) (by decide) (by decide)

/-- Case for `C141_outliers`: mode 3, the third of the documented list, raises. -/
example (p : Profile) : ∃ e, boxGrid.call p (.removeOutliers 3 (fin 1)) = .error e := (C141_outliers p boxGrid (fin 1)).2.2.1 3 (Or.inr (by norm_num))

/-- Case for `C141_lookup`: after an average, the point (1, 0, 1/2) is inside. -/
example (p : Profile) : ∃ c, (boxGrid.afterCalls p [.collapse 2]).call p (.cellId (fin 1) (fin 0) (fin (1 / 2))) = .ok (boxGrid.afterCalls p [.collapse 2], .cells c) ∧
    InB ![2, 3, 4] c := by
  obtain ⟨-, h, -⟩ := C141_lookup p ![2, 3, 4] (by intro a; fin_cases a <;> norm_num) (finLimits (fun _ => (0 : ℝ)) fun _ => 1) [.collapse 2] (fin 1) (fin 0) (fin (1 / 2))
  obtain ⟨c, e, hb, -⟩ := h (by intro a; fin_cases a <;> simp [finLimits] <;> norm_num)
  exact ⟨c, e, hb⟩

/-- Case for `C141_vectors`: a new vector grid over the box has a layer 3 along z. -/
example : ∃ r, (VecGrid.new boxGrid).pySlice 2 3 = .ok r :=
  ((C141_vectors (VecGrid.new boxGrid) (fun _ => boxGrid_built) fun _ => rfl).2.2.2.2 2 3).2 ⟨2, 3, rfl, rfl, by decide⟩

end Up4
