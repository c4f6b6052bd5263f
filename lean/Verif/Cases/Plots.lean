import Verif.Props.Quiver
import Verif.Props.QuiverNode
import Verif.Props.QuiverColour
import Verif.Props.Maps
import Verif.Props.PlotArgs

/-!
# Cases for the theorems on plots

Concrete cases that meet the hypotheses of theorems of `Props/{Quiver,QuiverNode,QuiverColour,Maps,PlotArgs}.lean`.
-/

namespace Up4

open F

/-- The 3×4×5 grid over `[0,60]³` with the vector `(3, 4, 12)` in every cell. -/
noncomputable def caseField : VecGrid ℝ := fieldGrid ![3, 4, 5] (fun _ => (60 : ℝ)) (fun k _ => fin (![3, 4, 12] k))

theorem caseField_plottable : caseField.Plottable 2 (.plane 0) :=
  fieldGrid_plottable _ (by intro a; fin_cases a <;> norm_num) _ _ (fun _ _ => Or.inr ⟨_, rfl⟩) 2 _ (fun k hk => by cases hk; decide)

/-- Case for `C77_min_partial`: the vectors `(3, 4)` are drawn with length at least 10: all arrows are `(6, 8)`. -/
example : ∃ f t c, quiverPlot caseField (2 : Fin 3) (.plane 0) (.min (fin 10)) = .ok f ∧ f.arrows[6]? = some t ∧ 0 < c ∧
    Draws t.points (placeOf (caseField.comp 0).geom 2 1 2) (fin (c * 3), fin (c * 4)) ∧ (c * 3) ^ 2 + (c * 4) ^ 2 = (10 : ℝ) ^ 2 := by
  obtain ⟨f, e, _, h⟩ := C77_min_partial caseField 2 (.plane 0) caseField_plottable (Or.inl (by decide)) 10 (by norm_num)
  obtain ⟨t, c, h1, h2, h3, _, h5⟩ := h 1 2 (by change 1 < 3; norm_num) (by change 2 < 4; norm_num) 3 4 rfl rfl (by norm_num)
  exact ⟨f, t, c, e, h1, h2, h3, h5 (by norm_num)⟩

/-- Case for `C77_minmax_partial`: the vectors `(3, 4)` with lengths between 1 and 2 are drawn with length 2. -/
example : ∃ f t c, quiverPlot caseField (2 : Fin 3) (.plane 0) (.minMax (fin 1) (fin 2)) = .ok f ∧ f.arrows[6]? = some t ∧ 0 < c ∧
    Draws t.points (placeOf (caseField.comp 0).geom 2 1 2) (fin (c * 3), fin (c * 4)) ∧ (c * 3) ^ 2 + (c * 4) ^ 2 = (2 : ℝ) ^ 2 := by
  obtain ⟨f, e, _, h⟩ := C77_minmax_partial caseField 2 (.plane 0) caseField_plottable (Or.inl (by decide)) 1 2 (by norm_num) (by norm_num)
  obtain ⟨t, c, h1, h2, h3, _, _, h5⟩ := h 1 2 (by change 1 < 3; norm_num) (by change 2 < 4; norm_num) 3 4 rfl rfl (by norm_num)
  exact ⟨f, t, c, e, h1, h2, h3, h5 (by norm_num)⟩

/-- Case for `C77_zero`: a field that is zero everywhere, arrows of length at least 1: their heads are at NaN. -/
example : ∃ f t, quiverPlot (fieldGrid ![3, 4, 5] (fun _ => (60 : ℝ)) (fun _ _ => fin 0)) (2 : Fin 3) (.plane 0) (.min (fin 1)) = .ok f ∧
    f.arrows[6]? = some t ∧ t.points[1]? = some (nan, nan) := by
  obtain ⟨f, e, h⟩ := C77_zero (fieldGrid ![3, 4, 5] (fun _ => (60 : ℝ)) (fun _ _ => fin 0)) 2 (.plane 0)
    (fieldGrid_plottable _ (by intro a; fin_cases a <;> norm_num) _ _ (fun _ _ => Or.inr ⟨_, rfl⟩) 2 _ (fun k hk => by cases hk; decide)) (Or.inl (by decide)) 1 (by norm_num)
  obtain ⟨t, h1, h2⟩ := h 1 2 (by change 1 < 3; norm_num) (by change 2 < 4; norm_num) rfl rfl
  exact ⟨f, t, e, h1, h2⟩

/-- Case for `C78_full_partial`: the speed is 5 everywhere, the cells are `20 × 15`: the vector `(3, 4)` is drawn as `(12, 12)`. -/
example : ∃ f t, quiverPlot caseField (2 : Fin 3) (.plane 0) .fullNode = .ok f ∧ f.arrows[6]? = some t ∧
    Draws t.points (placeOf (caseField.comp 0).geom 2 1 2) (fin 12, fin 12) := by
  obtain ⟨f, S, e, hS, hS0, _, h⟩ := C78_full_partial caseField 2 (.plane 0) caseField_plottable (Or.inl (by decide)) (fun k i _ => Or.inr ⟨_, rfl⟩) _ _
    (fieldGrid_spaced _ _ _ 2 (by decide) (by decide) (by intro e; norm_num))
    ⟨0, 0, 3, 4, by decide, by decide, rfl, rfl, by norm_num⟩
  obtain ⟨t, h1, h2, _⟩ := h 1 2 (by change 1 < 3; norm_num) (by change 2 < 4; norm_num) 3 4 rfl rfl
  have hS5 : S = 5 := by
    obtain ⟨⟨i, j, hi, hj, hs⟩, _⟩ := hS
    obtain ⟨s, es, hs0, hss⟩ := hypot_fin (3 : ℝ) 4
    have : speedAt caseField 2 (.plane 0) i j = fin s := es
    rw [this] at hs
    cases hs
    nlinarith
  refine ⟨f, t, e, h1, ?_⟩
  rw [hS5] at h2
  have e1 : (3 : ℝ) * (60 / ((![3, 4, 5] : CellId) (absc ((2 : Fin 3) : ℕ)) : ℝ) / 5) = 12 := by
    rw [show (![3, 4, 5] : CellId) (absc ((2 : Fin 3) : ℕ)) = 3 from rfl]; norm_num
  have e2 : (4 : ℝ) * (60 / ((![3, 4, 5] : CellId) (ordi ((2 : Fin 3) : ℕ)) : ℝ) / 5) = 12 := by
    rw [show (![3, 4, 5] : CellId) (ordi ((2 : Fin 3) : ℕ)) = 4 from rfl]; norm_num
  rw [e1, e2] at h2
  exact h2

/-- Case for `C80_heads` and `turned_length`: the first arrow at the middle `(10, 7.5)` of its cell; both sides of its head are 0.3 times as long as the arrow. -/
example : ∃ f t, quiverPlot caseField (2 : Fin 3) (.plane 0) .asIs = .ok f ∧ f.arrows[0]? = some t ∧
    t.points[2]? = some (fin (10 + 3 - 3 / 10 * (turned (Real.pi / 9) (3, 4)).1), fin (15 / 2 + 4 - 3 / 10 * (turned (Real.pi / 9) (3, 4)).2)) ∧
    (turned (Real.pi / 9) (3, 4)).1 ^ 2 + (turned (Real.pi / 9) (3, 4)).2 ^ 2 = 25 := by
  have hax : (2 : Fin 3) ≠ 1 ∨ ∃ k, Sel.plane 0 = .plane k := Or.inl (by decide)
  obtain ⟨f, e, _, hd⟩ := C76_arrows_partial caseField 2 (.plane 0) caseField_plottable hax
  obtain ⟨t, ht, hdraw⟩ := hd 0 0 (by decide) (by decide)
  have p1 := fieldGrid_pos ![3, 4, 5] (fun _ => (60 : ℝ)) (fun k _ => fin (![3, 4, 12] k)) 0 0 (by decide)
  have p2 := fieldGrid_pos ![3, 4, 5] (fun _ => (60 : ℝ)) (fun k _ => fin (![3, 4, 12] k)) 1 0 (by decide)
  have hpl : placeOf (caseField.comp 0).geom 2 0 0 = (fin (10 : ℝ), fin (15 / 2)) := by
    unfold placeOf caseField
    rw [show absc ((2 : Fin 3) : ℕ) = 0 from rfl, show ordi ((2 : Fin 3) : ℕ) = 1 from rfl, p1, p2]
    simp only [Matrix.cons_val_zero, Matrix.cons_val_one]
    norm_num
  obtain ⟨t', w, ht', hw, hpts⟩ := C80_heads caseField 2 (.plane 0) caseField_plottable hax .asIs f e 0 0 (by decide) (by decide) (10, 15 / 2) hpl
  rw [ht] at ht'
  cases ht'
  rw [hpl] at hdraw
  have hww : w = (fin 3, fin 4) := by
    have h1 := hdraw.2
    rw [hw.2] at h1
    have h2 := Option.some.inj h1
    have h3 := (Prod.mk.inj h2).1
    have h4 := (Prod.mk.inj h2).2
    have key : ∀ (a b : ℝ) (y : F ℝ), fin a + y = fin a + fin b → y = fin b := by
      intro a b y hy
      cases y with
      | fin y => rw [eadd, eadd] at hy; injection hy with hy; rw [add_left_cancel hy]
      | nan => rw [eadd] at hy; cases hy
      | ninf => rw [eadd] at hy; cases hy
      | pinf => rw [eadd] at hy; cases hy
    exact Prod.ext (key 10 3 _ h3) (key _ 4 _ h4)
  refine ⟨f, t, e, by simpa using ht, ?_, ?_⟩
  · rw [hpts 3 4 hww]; rfl
  · rw [turned_length]; norm_num

/-- Case for `C85_parity_map_partial`: the map of the differences of a grid with `10 · i + j` in its cells and one with 1 everywhere: 10 in the cell `(1, 1)`. -/
example : ∃ f, parityMap (.scalar (scalarGrid ![3, 2, 2] (fun _ => (6 : ℝ)) (fun c => fin (10 * c 0 + c 1)))) (.scalar (scalarGrid ![3, 2, 2] (fun _ => (6 : ℝ)) (fun _ => fin 1))) (2 : Fin 3) (.plane 0) = .ok f ∧ f.z[3]? = some (fin 10) := by
  obtain ⟨f, e, _, h⟩ := C85_parity_map_partial (.scalar (scalarGrid ![3, 2, 2] (fun _ => (6 : ℝ)) (fun c => fin (10 * c 0 + c 1)))) (.scalar (scalarGrid ![3, 2, 2] (fun _ => (6 : ℝ)) (fun _ => fin 1))) 2 (by decide) (.plane 0)
    ⟨scalarGrid_regular _ _ _, scalarGrid_shows _ _ _ _ _ (by decide)⟩ ⟨scalarGrid_regular _ _ _, scalarGrid_shows _ _ _ _ _ (by decide)⟩ rfl
  refine ⟨f, e, ?_⟩
  have := (h 1 1 (by decide) (by decide)).2.2
  have hw : Plotted.wanted 2 (.plane 0) 1 1 (.scalar (scalarGrid ![3, 2, 2] (fun _ => (6 : ℝ)) (fun c => fin (10 * c 0 + c 1)))) = fin 11 := by
    change (fin (10 * (((2 : Fin 3).insertNth 0 ![1, 1] : CellId) 0 : ℝ) + (((2 : Fin 3).insertNth 0 ![1, 1] : CellId) 1 : ℝ)) : F ℝ) = fin 11
    rw [show ((2 : Fin 3).insertNth 0 ![1, 1] : CellId) 0 = 1 from rfl, show ((2 : Fin 3).insertNth 0 ![1, 1] : CellId) 1 = 1 from rfl]
    norm_num
  have hw' : Plotted.wanted 2 (.plane 0) 1 1 (.scalar (scalarGrid ![3, 2, 2] (fun _ => (6 : ℝ)) (fun _ => fin 1))) = fin 1 := rfl
  rw [hw, hw', esub, show (11 : ℝ) - 1 = 10 by norm_num] at this
  exact this

/-- Case for `C86_unit_partial`: unit vectors of the plane 3 normal to `y`, no longer than half a cell. -/
example (g : VecGrid ℝ) : pyUnit g ⟨1, "plane", some 3, some "half_node", none, none⟩ = .ran (unitPlot g 1 (.plane 3) .halfNode) :=
  C86_unit_partial g _ 1 (.plane 3) .halfNode (.plane _ 1 3 (by norm_num) rfl rfl rfl) (.half _ rfl) (by decide)

end Up4
