import Verif.Proofs.Collapse
import Verif.RealArith

set_option linter.unusedSectionVars false

/-! # C12, C13: depth averaging -/

namespace Up4
open F

variable {K : Type} [Field K] [LinearOrder K] [IsStrictOrderedRing K] [FloorRing K] [Arith K]

/-- The cells of the line along axis `a` through the reduced index `idx`. -/
def lineCells (s : Fin 3 → ℕ) (a : Fin 3) (idx : Fin 2 → ℕ) : Finset CellId :=
  (cellsOf s).filter fun c => ∀ j, c (a.succAbove j) = idx j

/-- The cells of the layer `c e = i`. -/
def layerCells (s : Fin 3 → ℕ) (e : Fin 3) (i : ℕ) : Finset CellId :=
  (cellsOf s).filter fun c => c e = i

/-- The weighted mean of a grid's data over a set of cells: NaN if the weights sum to `0`; a NaN cell
counts as value `0` with its weight. -/
noncomputable def weightedMean (s : Store K) (C : Finset CellId) : F K :=
  if (∑ c ∈ C, val (s.weight.get c)) = 0 then F.nan
  else F.fin ((∑ c ∈ C, val (s.data.get c) * val (s.weight.get c)) / ∑ c ∈ C, val (s.weight.get c))

theorem sum_line (s : Fin 3 → ℕ) (a : Fin 3) (idx : Fin 2 → ℕ) (hidx : InB (fun j => s (a.succAbove j)) idx)
    (f : CellId → K) :
    ∑ c ∈ lineCells s a idx, f c = ∑ k ∈ Finset.range (s a), f (a.insertNth k idx) := by
  have h := sum_cells_fibre s a f (fun i => ∀ j, i j = idx j)
  have e1 : (cellsOf s).filter (fun c => (fun i : Fin 2 → ℕ => ∀ j, i j = idx j) (a.removeNth c))
      = lineCells s a idx := rfl
  have e2 : (cellsOf (fun j => s (a.succAbove j))).filter (fun i => ∀ j, i j = idx j) = {idx} := by
    ext i
    simp only [Finset.mem_filter, mem_cellsOf, Finset.mem_singleton]
    constructor
    · rintro ⟨_, h⟩; funext j; exact h j
    · rintro rfl; exact ⟨hidx, fun _ => rfl⟩
  rw [e1, e2, Finset.sum_singleton] at h
  exact h

section exact
variable [ExactArith K]

/-- **C12.** `collapse(axis)` never panics for `axis < 3` and each entry is the weight-weighted mean of
the cells on its line; it is NaN exactly where the summed weight is zero.  Holds for Cartesian and
cylindrical grids with finite nonnegative weights and data that are finite or NaN. -/
theorem C12_collapse (g : Grid K) (hs : g.st.weight.shape = g.st.data.shape) (hd : FinOrNaN g.st.data)
    (hw : FinNonneg g.st.weight) (a : Fin 3) :
    ∃ r, g.collapse a = .ok r ∧ r.shape = (fun j => g.st.data.shape (a.succAbove j)) ∧
      ∀ idx, InB r.shape idx →
        r.get idx = weightedMean g.st (lineCells g.st.data.shape a idx) ∧
        (r.get idx = F.nan ↔ ∑ c ∈ lineCells g.st.data.shape a idx, val (g.st.weight.get c) = 0) := by
  obtain ⟨r, h1, h2, h3⟩ := collapse_exact g.geom.isCylindrical g.st.data g.st.weight hs hd hw a
  refine ⟨r, h1, h2, fun idx hidx => ?_⟩
  have e := h3 idx hidx
  rw [h2] at hidx
  have hmean : r.get idx = weightedMean g.st (lineCells g.st.data.shape a idx) := by
    rw [e]
    unfold weightedMean
    rw [sum_line _ a idx hidx, sum_line _ a idx hidx]
  refine ⟨hmean, ?_⟩
  rw [hmean]
  unfold weightedMean
  split_ifs with h <;> simp [h]

/-- C12: cells that are NaN because nothing was recorded (weight 0) do not influence the mean: the mean
only depends on the other cells. -/
theorem C12_nan_ignored (s : Store K) (C : Finset CellId)
    (hz : ∀ c ∈ C, s.data.get c = F.nan → s.weight.get c = F.fin 0) :
    weightedMean s C = weightedMean s (C.filter fun c => (s.data.get c).isNaN = false) := by
  have h1 : ∀ c ∈ C, ¬ (s.data.get c).isNaN = false → val (s.weight.get c) = 0 := by
    intro c hc hn
    have : s.data.get c = F.nan := by
      rw [← isNaN_iff]; simpa using hn
    rw [hz c hc this]; rfl
  unfold weightedMean
  rw [Finset.sum_filter_of_ne, Finset.sum_filter_of_ne]
  · intro c hc h
    by_contra hn
    exact h (by rw [h1 c hc hn, mul_zero])
  · intro c hc h
    by_contra hn
    exact h (h1 c hc hn)

/-- **C12, weights.** `collapse_weight` returns the summed weights of each line and preserves the total. -/
theorem C12_collapseWeight (g : Grid K) (hw : FinNonneg g.st.weight) (a : Fin 3) :
    ∃ r, g.collapseWeight a = .ok r ∧ r.shape = (fun j => g.st.weight.shape (a.succAbove j)) ∧
      (∀ idx, InB r.shape idx →
        r.get idx = F.fin (∑ c ∈ lineCells g.st.weight.shape a idx, val (g.st.weight.get c))) ∧
      ∑ idx ∈ cellsOf r.shape, val (r.get idx) = ∑ c ∈ cellsOf g.st.weight.shape, val (g.st.weight.get c) := by
  obtain ⟨r, h1, h2, _, h3⟩ := collapseWeight_exact g.st.weight hw a
  refine ⟨r, h1, h2, fun idx hidx => ?_, ?_⟩
  · have e := h3 idx hidx
    rw [h2] at hidx
    rw [e, sum_line _ a idx hidx]
  · rw [sum_cells_axis _ a, h2]
    refine Finset.sum_congr rfl fun idx hidx => ?_
    rw [mem_cellsOf] at hidx
    rw [h3 idx (by rw [h2]; exact hidx)]; rfl

/-- Witness for C12/C13: a 2×2×2 store with one unvisited (NaN, weight 0) cell. -/
example : ∃ s : Store ℝ, s.weight.shape = s.data.shape ∧ FinOrNaN s.data ∧ FinNonneg s.weight ∧
    (∃ c, InB s.data.shape c ∧ s.data.get c = F.nan) ∧ (∃ c, InB s.data.shape c ∧ s.data.get c = F.fin 3) := by
  refine ⟨⟨⟨fun _ => 2, fun c => if c 0 = 0 then F.nan else F.fin 3⟩,
    ⟨fun _ => 2, fun c => if c 0 = 0 then F.fin 0 else F.fin 1⟩⟩, rfl, ?_, ?_, ?_, ?_⟩
  · intro i _; dsimp only; split_ifs; exacts [Or.inl rfl, Or.inr ⟨_, rfl⟩]
  · intro i _; dsimp only; split_ifs; exacts [⟨_, rfl, le_refl _⟩, ⟨_, rfl, zero_le_one⟩]
  · exact ⟨fun _ => 0, fun _ => by norm_num, by simp⟩
  · exact ⟨fun _ => 1, fun _ => by norm_num, by simp⟩

/-- The collapse result of a well-formed store is again finite or NaN. -/
theorem collapse_finOrNaN {n : ℕ} (cyl : Bool) (data weight : Arr (n + 1) (F K))
    (hs : weight.shape = data.shape) (hd : FinOrNaN data) (hw : FinNonneg weight) (a : Fin (n + 1)) (r)
    (h : Store.collapse cyl data weight a = .ok r) : FinOrNaN r := by
  obtain ⟨r', h1, _, h3⟩ := collapse_exact cyl data weight hs hd hw a
  rw [h] at h1
  cases h1
  intro i hi
  rw [h3 i hi]
  split_ifs
  · exact Or.inl rfl
  · exact Or.inr ⟨_, rfl⟩

/-- Two successive collapses, as double sums. -/
theorem collapse_twice (s : Store K) (cyl : Bool) (hs : s.weight.shape = s.data.shape)
    (hd : FinOrNaN s.data) (hw : FinNonneg s.weight) (a : Fin 3) (b : Fin 2) (e : Fin 3)
    (he : e = a.succAbove (b.succAbove 0)) :
    ∃ r1 w1 r, Store.collapse cyl s.data s.weight a = .ok r1 ∧ Store.collapseWeight s.weight a = .ok w1 ∧
      Store.collapse false r1 w1 b = .ok r ∧ r.shape = (fun _ => s.data.shape e) ∧
      ∀ i, i < s.data.shape e → r.get (fun _ => i) = weightedMean s (layerCells s.data.shape e i) := by
  obtain ⟨r1, h1, h2, h3⟩ := collapse_exact cyl s.data s.weight hs hd hw a
  have hr1 := collapse_finOrNaN cyl s.data s.weight hs hd hw a r1 h1
  obtain ⟨w1, g1, g2, hw1, g3⟩ := collapseWeight_exact s.weight hw a
  have hs1 : w1.shape = r1.shape := by rw [g2, h2, hs]
  obtain ⟨r, k1, k2, k3⟩ := collapse_exact false r1 w1 hs1 hr1 hw1 b
  refine ⟨r1, w1, r, h1, g1, k1, ?_, ?_⟩
  · rw [k2, h2]; funext j
    have : j = 0 := Subsingleton.elim _ _
    rw [this, he]
  intro i hi
  have hib : InB r.shape (fun _ => i) := by
    rw [k2, h2]; intro j
    have : j = 0 := Subsingleton.elim _ _
    rw [this]; dsimp only; rw [← he]; exact hi
  have hib' : InB (fun j => (fun j => s.data.shape (a.succAbove j)) (b.succAbove j)) (fun _ : Fin 1 => i) := by
    rw [k2, h2] at hib; exact hib
  rw [k3 _ hib]
  -- the layer as a fibre of the two projections
  have hlayer : ∀ f : CellId → K, ∑ c ∈ layerCells s.data.shape e i, f c =
      ∑ k ∈ Finset.range (s.data.shape (a.succAbove b)), ∑ m ∈ Finset.range (s.data.shape a),
        f (a.insertNth m (b.insertNth k (fun _ => i) : Fin 2 → ℕ)) := by
    intro f
    have step1 := sum_cells_fibre s.data.shape a f (fun t => t (b.succAbove 0) = i)
    have e1 : (cellsOf s.data.shape).filter
        (fun c => (fun t : Fin 2 → ℕ => t (b.succAbove 0) = i) (a.removeNth c)) = layerCells s.data.shape e i := by
      rw [he]; rfl
    rw [e1] at step1
    rw [step1]
    have step2 := sum_cells_fibre (fun j => s.data.shape (a.succAbove j)) b
      (fun t => ∑ m ∈ Finset.range (s.data.shape a), f (a.insertNth m t)) (fun u => u 0 = i)
    have e2 : (cellsOf fun j => s.data.shape (a.succAbove j)).filter
        (fun c => (fun u : Fin 1 → ℕ => u 0 = i) (b.removeNth c)) =
        (cellsOf fun j => s.data.shape (a.succAbove j)).filter (fun t => t (b.succAbove 0) = i) := rfl
    rw [e2] at step2
    rw [step2]
    have e3 : (cellsOf fun j => (fun j => s.data.shape (a.succAbove j)) (b.succAbove j)).filter
        (fun u : Fin 1 → ℕ => u 0 = i) = {fun _ => i} := by
      ext u
      simp only [Finset.mem_filter, mem_cellsOf, Finset.mem_singleton]
      constructor
      · rintro ⟨_, h⟩; funext j
        have : j = 0 := Subsingleton.elim _ _
        rw [this]; exact h
      · rintro rfl; exact ⟨hib', rfl⟩
    rw [e3, Finset.sum_singleton]
  have hshape : r1.shape b = s.data.shape (a.succAbove b) := by rw [h2]
  have hin : ∀ k < s.data.shape (a.succAbove b),
      InB (fun j => s.data.shape (a.succAbove j)) (b.insertNth k (fun _ => i) : Fin 2 → ℕ) := by
    intro k hk
    exact insertNth_inB b |>.2 ⟨hk, hib'⟩
  have hwv : ∀ k < s.data.shape (a.succAbove b), val (w1.get (b.insertNth k (fun _ => i))) =
      ∑ m ∈ Finset.range (s.data.shape a), val (s.weight.get (a.insertNth m (b.insertNth k (fun _ => i) : Fin 2 → ℕ))) := by
    intro k hk
    rw [g3 _ (by rw [g2, hs]; exact hin k hk), hs]; rfl
  have hdv : ∀ k < s.data.shape (a.succAbove b),
      val (r1.get (b.insertNth k (fun _ => i))) * val (w1.get (b.insertNth k (fun _ => i))) =
      ∑ m ∈ Finset.range (s.data.shape a), val (s.data.get (a.insertNth m (b.insertNth k (fun _ => i) : Fin 2 → ℕ))) *
        val (s.weight.get (a.insertNth m (b.insertNth k (fun _ => i) : Fin 2 → ℕ))) := by
    intro k hk
    rw [hwv k hk, h3 _ (by rw [h2]; exact hin k hk)]
    split_ifs with h0
    · rw [h0, mul_zero]
      have hz := (Finset.sum_eq_zero_iff_of_nonneg (fun m hm => ?_)).1 h0
      · exact (Finset.sum_eq_zero fun m hm => by rw [hz m hm, mul_zero]).symm
      · obtain ⟨x, hx, hx0⟩ := hw (a.insertNth m (b.insertNth k (fun _ => i) : Fin 2 → ℕ)) (by
          rw [hs]; exact insertNth_inB a |>.2 ⟨Finset.mem_range.1 hm, hin k hk⟩)
        rw [hx]; exact hx0
    · exact div_mul_cancel₀ _ h0
  unfold weightedMean
  rw [hlayer, hlayer, hshape, Finset.sum_congr rfl (fun k hk => hwv k (Finset.mem_range.1 hk)),
    Finset.sum_congr rfl (fun k hk => hdv k (Finset.mem_range.1 hk))]

/-- **C13.** `collapse_two` over two different axes never panics, returns one entry per layer of the
remaining axis `e`, and each entry is the weighted mean over that whole layer (so it does not depend on
the order in which the axes are given); equal axes are rejected. -/
theorem C13_collapseTwo (g : Grid K) (hs : g.st.weight.shape = g.st.data.shape) (hd : FinOrNaN g.st.data)
    (hw : FinNonneg g.st.weight) (a b e : Fin 3) (hab : a ≠ b) (hea : e ≠ a) (heb : e ≠ b) :
    ∃ r, g.collapseTwo a b = .ok r ∧ g.collapseTwo b a = .ok r ∧ r.shape = (fun _ => g.st.data.shape e) ∧
      ∀ i, i < g.st.data.shape e → r.get (fun _ => i) = weightedMean g.st (layerCells g.st.data.shape e i) := by
  -- smaller and larger axis
  have main : ∀ (x : Fin 3) (y : Fin 2), x.val ≤ y.val → x.succAbove (y.succAbove 0) = e →
      ∃ r, (do let first ← Store.collapse g.geom.isCylindrical g.st.data g.st.weight x.val
               let firstW ← Store.collapseWeight g.st.weight x.val
               Store.collapse false first firstW y.val : Run (Arr 1 (F K))) = .ok r ∧
        r.shape = (fun _ => g.st.data.shape e) ∧
        ∀ i, i < g.st.data.shape e → r.get (fun _ => i) = weightedMean g.st (layerCells g.st.data.shape e i) := by
    intro x y _ he
    obtain ⟨r1, w1, r, h1, h2, h3, h4, h5⟩ := collapse_twice g.st g.geom.isCylindrical hs hd hw x y e he.symm
    refine ⟨r, ?_, h4, h5⟩
    rw [h1, h2]
    exact h3
  unfold Grid.collapseTwo Store.collapseTwo
  fin_cases a <;> fin_cases b <;> fin_cases e <;> simp at hab hea heb <;>
    simp only [Store.orderAxes] <;> norm_num
  · exact main 0 0 (le_refl _) (by decide)
  · exact main 0 1 (by decide) (by decide)
  · exact main 0 0 (le_refl _) (by decide)
  · exact main 1 1 (le_refl _) (by decide)
  · exact main 0 1 (by decide) (by decide)
  · exact main 1 1 (le_refl _) (by decide)

/-- C13: `collapse_two_weight` returns the weight of each layer, in either order of the axes. -/
theorem C13_collapseTwoWeight (g : Grid K) (hw : FinNonneg g.st.weight) (a b e : Fin 3) (hab : a ≠ b)
    (hea : e ≠ a) (heb : e ≠ b) :
    ∃ r, g.collapseTwoWeight a b = .ok r ∧ g.collapseTwoWeight b a = .ok r ∧
      r.shape = (fun _ => g.st.weight.shape e) ∧
      ∀ i, i < g.st.weight.shape e → r.get (fun _ => i) =
        F.fin (∑ c ∈ layerCells g.st.weight.shape e i, val (g.st.weight.get c)) := by
  have main : ∀ (x : Fin 3) (y : Fin 2), x.val ≤ y.val → x.succAbove (y.succAbove 0) = e →
      ∃ r, (do let firstW ← Store.collapseWeight g.st.weight x.val
               Store.collapseWeight firstW y.val : Run (Arr 1 (F K))) = .ok r ∧
        r.shape = (fun _ => g.st.weight.shape e) ∧
        ∀ i, i < g.st.weight.shape e → r.get (fun _ => i) =
          F.fin (∑ c ∈ layerCells g.st.weight.shape e i, val (g.st.weight.get c)) := by
    intro x y _ he
    obtain ⟨w1, h1, h2, hw1, h3⟩ := collapseWeight_exact g.st.weight hw x
    obtain ⟨r, k1, k2, _, k3⟩ := collapseWeight_exact w1 hw1 y
    refine ⟨r, by rw [h1]; exact k1, ?_, fun i hi => ?_⟩
    · rw [k2, h2]; funext j
      have : j = 0 := Subsingleton.elim _ _
      rw [this]; dsimp only; rw [he]
    have hib : InB (fun j => (fun j => g.st.weight.shape (x.succAbove j)) (y.succAbove j)) (fun _ : Fin 1 => i) := by
      intro j
      have : j = 0 := Subsingleton.elim _ _
      rw [this]; dsimp only; rw [he]; exact hi
    rw [k3 _ (by rw [k2, h2]; exact hib)]
    congr 1
    have step1 := sum_cells_fibre g.st.weight.shape x (fun c => val (g.st.weight.get c))
      (fun t => t (y.succAbove 0) = i)
    have e1 : (cellsOf g.st.weight.shape).filter
        (fun c => (fun t : Fin 2 → ℕ => t (y.succAbove 0) = i) (x.removeNth c)) =
        layerCells g.st.weight.shape e i := by
      rw [← he]; rfl
    rw [e1] at step1
    rw [step1]
    have step2 := sum_cells_fibre (fun j => g.st.weight.shape (x.succAbove j)) y
      (fun t => ∑ m ∈ Finset.range (g.st.weight.shape x), val (g.st.weight.get (x.insertNth m t)))
      (fun u => u 0 = i)
    have e2 : (cellsOf fun j => g.st.weight.shape (x.succAbove j)).filter
        (fun c => (fun u : Fin 1 → ℕ => u 0 = i) (y.removeNth c)) =
        (cellsOf fun j => g.st.weight.shape (x.succAbove j)).filter (fun t => t (y.succAbove 0) = i) := rfl
    rw [e2] at step2
    rw [step2]
    have e3 : (cellsOf fun j => (fun j => g.st.weight.shape (x.succAbove j)) (y.succAbove j)).filter
        (fun u : Fin 1 → ℕ => u 0 = i) = {fun _ => i} := by
      ext u
      simp only [Finset.mem_filter, mem_cellsOf, Finset.mem_singleton]
      constructor
      · rintro ⟨_, h⟩; funext j
        have : j = 0 := Subsingleton.elim _ _
        rw [this]; exact h
      · rintro rfl; exact ⟨hib, rfl⟩
    rw [e3, Finset.sum_singleton, h2]
    refine Finset.sum_congr rfl fun k hk => ?_
    rw [h3 _ (by rw [h2]; exact insertNth_inB y |>.2 ⟨Finset.mem_range.1 hk, hib⟩)]; rfl
  unfold Grid.collapseTwoWeight Store.collapseTwoWeight
  fin_cases a <;> fin_cases b <;> fin_cases e <;> simp at hab hea heb <;>
    simp only [Store.orderAxes] <;> norm_num
  · exact main 0 0 (le_refl _) (by decide)
  · exact main 0 1 (by decide) (by decide)
  · exact main 0 0 (le_refl _) (by decide)
  · exact main 1 1 (le_refl _) (by decide)
  · exact main 0 1 (by decide) (by decide)
  · exact main 1 1 (le_refl _) (by decide)

end exact

/-- C13: equal axes panic, for both functions and any arithmetic. -/
theorem C13_equal_axes (g : Grid K) (a : ℕ) :
    g.collapseTwo a a = .error .explicit ∧ g.collapseTwoWeight a a = .error .explicit := by
  simp [Grid.collapseTwo, Grid.collapseTwoWeight, Store.collapseTwo, Store.collapseTwoWeight,
    Store.orderAxes]

end Up4
