import Verif.Props.Quiver
import Verif.Props.CartLookup

set_option linter.unusedSectionVars false

/-! # C76-C79, continued: a concrete vector grid, the wrong axis, `half_node` and `full_node`, colours, arrow heads -/

namespace Up4
open F
open Selector (at')

variable {K : Type} [Field K] [LinearOrder K] [IsStrictOrderedRing K] [FloorRing K] [Arith K]

/-! ### A concrete vector grid -/

/-- The Cartesian vector grid over `[0, hi]` with a field of vectors, every cell seen once. -/
def fieldGrid (n : CellId) (hi : Fin 3 → K) (w : Fin 3 → CellId → F K) : VecGrid K where
  comp := fun k => ⟨.cart (CartGeom.new n (finLimits (fun _ => 0) hi)), ⟨⟨n, w k⟩, Arr.const n 1⟩⟩
  cyl := none

theorem fieldGrid_regular (n : CellId) (hi : Fin 3 → K) (w : Fin 3 → CellId → F K) : (fieldGrid n hi w).Regular :=
  ⟨fun _ => rfl, fun _ => ⟨⟨rfl, rfl⟩, fun a => by
    change ((List.range (n a)).map _).length = n a
    rw [List.length_map, List.length_range]⟩⟩

theorem fieldGrid_shows (n : CellId) (hi : Fin 3 → K) (w : Fin 3 → CellId → F K) (hw : ∀ k c, w k c = nan ∨ ∃ x, w k c = fin x) (a : Fin 3) (sel : Sel)
    (h : ∀ k, sel = .plane k → k < n a) (k : Fin 3) : Shows ((fieldGrid n hi w).comp k) a sel := by
  cases sel with
  | plane i => exact h i rfl
  | depthAverage => exact ⟨fun i _ => hw k i, fun _ _ => ⟨1, rfl, zero_le_one⟩⟩

theorem fieldGrid_plottable (n : CellId) (hn : ∀ a, 0 < n a) (hi : Fin 3 → K) (w : Fin 3 → CellId → F K) (hw : ∀ k c, w k c = nan ∨ ∃ x, w k c = fin x) (a : Fin 3)
    (sel : Sel) (h : ∀ k, sel = .plane k → k < n a) : (fieldGrid n hi w).Plottable a sel :=
  ⟨fieldGrid_regular n hi w, fieldGrid_shows n hi w hw a sel h, hn _, hn _⟩

section exact
variable [ExactArith K]

theorem fieldGrid_pos (n : CellId) (hi : Fin 3 → K) (w : Fin 3 → CellId → F K) (e : Fin 3) (i : ℕ) (h : i < n e) :
    posAt ((fieldGrid n hi w).comp 0).geom e i = fin ((i + 1 / 2) * (hi e / n e)) := by
  change ((List.range (n e)).map (CartGeom.centre _ (n e))).getD i nan = _
  rw [List.getD_eq_getElem?_getD, List.getElem?_map, List.getElem?_range h]
  change CartGeom.centre (fin 0, fin (hi e)) (n e) i = _
  rw [centre_exact (by omega)]
  congr 1; ring

/-- The depth average of a field that does not depend on the cell. -/
theorem fieldGrid_mean (n : CellId) (hi : Fin 3 → K) (w : Fin 3 → K) (k a : Fin 3) (ha : 0 < n a) (i j : ℕ) (hi' : i < n (absc a)) (hj : j < n (ordi a)) (sel : Sel) :
    shown ((fieldGrid n hi (fun k _ => fin (w k))).comp k) a sel i j = fin (w k) := by
  cases sel with
  | plane _ => rfl
  | depthAverage =>
    change weightedMean _ (lineCells n a ![i, j]) = _
    have hb : InB (fun l => n (a.succAbove l)) ![i, j] := by rw [cells_pair]; exact inB2 hi' hj
    unfold weightedMean
    rw [sum_line n a _ hb, sum_line n a _ hb]
    have h1 : ∀ c : CellId, val (((fieldGrid n hi (fun k _ => fin (w k))).comp k).st.weight.get c) = 1 := fun _ => rfl
    have h2 : ∀ c : CellId, val (((fieldGrid n hi (fun k _ => fin (w k))).comp k).st.data.get c) = w k := fun _ => rfl
    simp only [h1, h2, mul_one, Finset.sum_const, Finset.card_range, nsmul_eq_mul]
    have hne : (n a : K) ≠ 0 := by exact_mod_cast ha.ne'
    rw [if_neg hne, mul_comm, mul_div_assoc, div_self hne, mul_one]

/-- Witness for C76 and C77: a 3×4×5 grid with the vector `(3, 4, 12)` in every cell, for a plane and a depth average; the arrow of cell `(1, 2)` of the plane `z = 0`. -/
example : ∃ f, quiverPlot (fieldGrid ![3, 4, 5] (fun _ => (60 : ℝ)) (fun k _ => fin (![3, 4, 12] k))) (2 : Fin 3) (.plane 0) .asIs = .ok f ∧
    f.arrows.length = 12 ∧ ∃ t, f.arrows[6]? = some t ∧ Draws t.points (fin 30, fin (75 / 2)) (fin 3, fin 4) := by
  have hp : (fieldGrid ![3, 4, 5] (fun _ => (60 : ℝ)) (fun k _ => fin (![3, 4, 12] k))).Plottable 2 (.plane 0) :=
    fieldGrid_plottable _ (by intro a; fin_cases a <;> norm_num) _ _ (fun _ _ => Or.inr ⟨_, rfl⟩) 2 _ (fun k hk => by cases hk; decide)
  obtain ⟨f, e, hl, h⟩ := C76_arrows_partial _ 2 (.plane 0) hp (Or.inl (by decide))
  obtain ⟨t, h1, h2⟩ := h 1 2 (by change 1 < 3; norm_num) (by change 2 < 4; norm_num)
  refine ⟨f, e, hl, t, h1, ?_⟩
  have p1 := fieldGrid_pos ![3, 4, 5] (fun _ => (60 : ℝ)) (fun k _ => fin (![3, 4, 12] k)) 0 1 (by change 1 < 3; norm_num)
  have p2 := fieldGrid_pos ![3, 4, 5] (fun _ => (60 : ℝ)) (fun k _ => fin (![3, 4, 12] k)) 1 2 (by change 2 < 4; norm_num)
  have hpl : placeOf ((fieldGrid ![3, 4, 5] (fun _ => (60 : ℝ)) (fun k _ => fin (![3, 4, 12] k))).comp 0).geom 2 1 2 = (fin 30, fin (75 / 2)) := by
    unfold placeOf
    rw [show absc ((2 : Fin 3) : ℕ) = 0 from rfl, show ordi ((2 : Fin 3) : ℕ) = 1 from rfl, p1, p2]
    simp only [Matrix.cons_val_zero, Matrix.cons_val_one]
    norm_num
  rw [hpl] at h2
  exact h2

/-! ### The depth average along axis 1 -/

/-- **C76 for the depth average along axis 1**: when the grid has as many cells along `x` as along `y`, the arrows start at the `y` position of the cell's `x` index. -/
theorem C76_axis1 (g : VecGrid K) (h : g.Plottable 1 .depthAverage) (hn : (g.comp 0).geom.cells 0 = (g.comp 0).geom.cells 1) :
    ∃ f, quiverPlot g (1 : Fin 3) .depthAverage .asIs = .ok f ∧
      ∀ i j, i < (g.comp 0).geom.cells 0 → j < (g.comp 0).geom.cells 2 → ∃ t, f.arrows[i * (g.comp 0).geom.cells 2 + j]? = some t ∧
        Draws t.points (posAt (g.comp 0).geom 1 i, posAt (g.comp 0).geom 2 j)
          (shown (g.comp 0) 1 .depthAverage i j, shown (g.comp 2) 1 .depthAverage i j) := by
  obtain ⟨q, e, hx, hy, hs, hv⟩ := quiver_spec g h.regular 1 .depthAverage h.shows
  have hf : q.Fits ((g.comp 0).geom.cells 0) ((g.comp 0).geom.cells 2) :=
    ⟨by rw [hx, hn]; exact (h.regular.regular 0).sized 1, by rw [hy]; exact (h.regular.regular 0).sized 2, hs _ (by simp), hs _ (by simp), hs _ (by simp), hs _ (by simp)⟩
  obtain ⟨f, ef, hl, _, _, ha⟩ := figure_of g 1 .depthAverage .asIs q q e rfl hf h.some_u h.some_v
  refine ⟨f, ef, fun i j hi hj => ?_⟩
  obtain ⟨t, h1, _, h2, _⟩ := ha i j hi hj
  refine ⟨t, h1, ?_⟩
  obtain ⟨hu, hv, _, _⟩ := hv i j hi hj
  rw [hx, hy, hu, hv] at h2
  exact h2

end exact

/-- **C76 is false for the depth average along axis 1**: on a 2×2×2 grid over `[0,2]×[0,20]×[0,2]` with the vector `(1, 1, 1)` everywhere, the first arrow starts at 5, although the `x` positions
are 1/2 and 3/2. -/
theorem C76_false : ∃ (g : VecGrid ℝ) (f : QuiverFig ℝ) (t : ArrowTrace ℝ), g.Plottable 1 .depthAverage ∧
    quiverPlot g (1 : Fin 3) .depthAverage .asIs = .ok f ∧ f.arrows[0]? = some t ∧
    placeOf (g.comp 0).geom 1 0 0 = (fin (1 / 2), fin (1 / 2)) ∧ t.points[0]? = some (fin 5, fin (1 / 2)) := by
  have hp : (fieldGrid (fun _ => 2) ![(2 : ℝ), 20, 2] (fun _ _ => fin 1)).Plottable 1 .depthAverage :=
    fieldGrid_plottable _ (by intro a; norm_num) _ _ (fun _ _ => Or.inr ⟨_, rfl⟩) 1 _ (fun k hk => by cases hk)
  obtain ⟨f, e, h⟩ := C76_axis1 _ hp rfl
  obtain ⟨t, h1, h2⟩ := h 0 0 (by change 0 < 2; norm_num) (by change 0 < 2; norm_num)
  have p : ∀ e, posAt ((fieldGrid (fun _ => 2) ![(2 : ℝ), 20, 2] (fun _ _ => fin 1)).comp 0).geom e 0 = fin (((0 : ℕ) + 1 / 2) * (![(2 : ℝ), 20, 2] e / (2 : ℕ))) :=
    fun e => fieldGrid_pos (fun _ => 2) ![(2 : ℝ), 20, 2] (fun _ _ => fin 1) e 0 (by norm_num)
  refine ⟨_, f, t, hp, e, by simpa using h1, ?_, ?_⟩
  · unfold placeOf
    rw [p, p]
    have h1 : ![(2 : ℝ), 20, 2] (absc ((1 : Fin 3) : ℕ)) = 2 := rfl
    have h2 : ![(2 : ℝ), 20, 2] (ordi ((1 : Fin 3) : ℕ)) = 2 := rfl
    rw [h1, h2]; norm_num
  · rw [h2.1, p, p]
    have h1 : ![(2 : ℝ), 20, 2] 1 = 20 := rfl
    have h2 : ![(2 : ℝ), 20, 2] 2 = 2 := rfl
    rw [h1, h2]; norm_num

/-- **C76, the same selection with different numbers of cells**: the plot panics (incompatible shapes) whenever the numbers of cells along `x` and `y` differ and both are above one. -/
theorem C76_axis1_panics [ExactArith K] (g : VecGrid K) (h : g.Plottable 1 .depthAverage) (hn : (g.comp 0).geom.cells 0 ≠ (g.comp 0).geom.cells 1)
    (h0 : (g.comp 0).geom.cells 0 ≠ 1) (h1 : (g.comp 0).geom.cells 1 ≠ 1) : quiverPlot g (1 : Fin 3) .depthAverage .asIs = .error .shape := by
  obtain ⟨q, e, hx, hy, hs, hv⟩ := quiver_spec g h.regular 1 .depthAverage h.shows
  obtain ⟨xx, yy, em, sx, sy, hxy⟩ := C55_meshgrid q.x q.y
  rw [hx, show quiverAbsc ((1 : Fin 3) : ℕ) .depthAverage = 1 from rfl, (h.regular.regular 0).sized 1] at sx
  unfold quiverPlot
  rw [e, run_bind_ok]
  change (q.createArrows >>= _) = _
  suffices hc : q.createArrows = .error .shape by rw [hc]; rfl
  have su : q.u.shape = ![(g.comp 0).geom.cells 0, (g.comp 0).geom.cells 2] := hs q.u (by simp)
  have sv : q.v.shape = ![(g.comp 0).geom.cells 0, (g.comp 0).geom.cells 2] := hs q.v (by simp)
  have sn : q.norm.shape = ![(g.comp 0).geom.cells 0, (g.comp 0).geom.cells 2] := hs q.norm (by simp)
  unfold Vectors.createArrows
  dsimp only
  have ea : zipSame F.atan2 q.v (q.u.map (· * 1)) = .ok ⟨![(g.comp 0).geom.cells 0, (g.comp 0).geom.cells 2], fun i => F.atan2 (q.v.get i) ((q.u.map (· * 1)).get i)⟩ := by
    unfold zipSame; rw [if_pos (by rw [sv]; exact su.symm), sv]
  rw [ea, run_bind_ok, em, run_bind_ok]
  have key : ∀ (f : F K → F K → F K) (a b : Arr 2 (F K)), a.shape = b.shape → ∃ r, Arr.zipWith f a b = .ok r := fun f a b hh => by
    obtain ⟨r, h1, _⟩ := Arr.zipWith_same f a b hh; exact ⟨r, h1⟩
  obtain ⟨s1, e1⟩ := key (· * ·) (q.norm.map (· * F.lit (3 / 10))) (((⟨![(g.comp 0).geom.cells 0, (g.comp 0).geom.cells 2], fun i => F.atan2 (q.v.get i) ((q.u.map (· * 1)).get i)⟩ : Arr 2 (F K)).map (· + headAngle)).map F.cos) sn
  obtain ⟨s2, e2⟩ := key (· * ·) (q.norm.map (· * F.lit (3 / 10))) (((⟨![(g.comp 0).geom.cells 0, (g.comp 0).geom.cells 2], fun i => F.atan2 (q.v.get i) ((q.u.map (· * 1)).get i)⟩ : Arr 2 (F K)).map (· + headAngle)).map F.sin) sn
  obtain ⟨s3, e3⟩ := key (· * ·) (q.norm.map (· * F.lit (3 / 10))) (((⟨![(g.comp 0).geom.cells 0, (g.comp 0).geom.cells 2], fun i => F.atan2 (q.v.get i) ((q.u.map (· * 1)).get i)⟩ : Arr 2 (F K)).map (· - headAngle)).map F.cos) sn
  obtain ⟨s4, e4⟩ := key (· * ·) (q.norm.map (· * F.lit (3 / 10))) (((⟨![(g.comp 0).geom.cells 0, (g.comp 0).geom.cells 2], fun i => F.atan2 (q.v.get i) ((q.u.map (· * 1)).get i)⟩ : Arr 2 (F K)).map (· - headAngle)).map F.sin) sn
  rw [e1, run_bind_ok, e2, run_bind_ok, e3, run_bind_ok, e4, run_bind_ok]
  have e5 : Arr.zipWith (· + ·) xx (q.u.map (· * 1)) = .error .shape := by
    unfold Arr.zipWith Arr.bcShape
    have su' : (q.u.map (· * 1)).shape = ![(g.comp 0).geom.cells 0, (g.comp 0).geom.cells 2] := su
    rw [sx, su', if_neg]
    intro hh
    rcases hh 0 with hh | hh | hh
    · exact hn hh.symm
    · exact h1 hh
    · exact h0 hh
  rw [e5]
  rfl

/-- Witness: a 2×3×2 grid. -/
example : quiverPlot (fieldGrid ![2, 3, 2] (fun _ => (1 : ℝ)) (fun _ _ => fin 1)) (1 : Fin 3) .depthAverage .asIs = .error .shape :=
  C76_axis1_panics _ (fieldGrid_plottable _ (by intro a; fin_cases a <;> norm_num) _ _ (fun _ _ => Or.inr ⟨_, rfl⟩) 1 _ (fun k hk => by cases hk))
    (by change (2 : ℕ) ≠ 3; norm_num) (by change (2 : ℕ) ≠ 1; norm_num) (by change (3 : ℕ) ≠ 1; norm_num)

/-! ### `half_node` and `full_node` -/

section node
variable [ExactArith K]

/-- `S` is the greatest speed shown in the plane; cells with NaN do not count. -/
def Greatest (g : VecGrid K) (a : Fin 3) (sel : Sel) (S : K) : Prop :=
  (∃ i j, i < (g.comp 0).geom.cells (absc a) ∧ j < (g.comp 0).geom.cells (ordi a) ∧ speedAt g a sel i j = fin S) ∧
  ∀ i j s, i < (g.comp 0).geom.cells (absc a) → j < (g.comp 0).geom.cells (ordi a) → speedAt g a sel i j = fin s → s ≤ S

/-- `S` is the least speed shown in the plane; cells with NaN do not count. -/
def Least (g : VecGrid K) (a : Fin 3) (sel : Sel) (S : K) : Prop :=
  (∃ i j, i < (g.comp 0).geom.cells (absc a) ∧ j < (g.comp 0).geom.cells (ordi a) ∧ speedAt g a sel i j = fin S) ∧
  ∀ i j s, i < (g.comp 0).geom.cells (absc a) → j < (g.comp 0).geom.cells (ordi a) → speedAt g a sel i j = fin s → S ≤ s

theorem shown_fin (g : Grid K) (hg : g.Shaped) (hd : FinOrNaN g.st.data) (a : Fin 3) (sel : Sel) (h : Shows g a sel) (i j : ℕ) (hi : i < g.geom.cells (absc a))
    (hj : j < g.geom.cells (ordi a)) : shown g a sel i j = nan ∨ ∃ x, shown g a sel i j = fin x := by
  cases sel with
  | plane k =>
    refine hd _ ?_
    rw [insertNth_inB, hg.1, cells_pair]
    exact ⟨h, inB2 hi hj⟩
  | depthAverage =>
    change weightedMean _ _ = nan ∨ ∃ x, weightedMean _ _ = fin x
    unfold weightedMean
    split_ifs
    · exact Or.inl rfl
    · exact Or.inr ⟨_, rfl⟩

theorem speed_fin (g : VecGrid K) (a : Fin 3) (sel : Sel) (h : g.Plottable a sel) (hd : ∀ k, FinOrNaN (g.comp k).st.data) (i j : ℕ)
    (hi : i < (g.comp 0).geom.cells (absc a)) (hj : j < (g.comp 0).geom.cells (ordi a)) :
    speedAt g a sel i j = nan ∨ ∃ s, speedAt g a sel i j = fin s ∧ 0 ≤ s := by
  have sh : ∀ k, shown (g.comp k) a sel i j = nan ∨ ∃ x, shown (g.comp k) a sel i j = fin x := fun k =>
    shown_fin (g.comp k) (h.regular.regular k).shaped (hd k) a sel (h.shows k) i j (by rw [h.regular.same]; exact hi) (by rw [h.regular.same]; exact hj)
  unfold speedAt
  rcases sh (absc a) with e | ⟨x, e⟩ <;> rcases sh (ordi a) with e' | ⟨y, e'⟩ <;> rw [e, e']
  · exact Or.inl rfl
  · exact Or.inl rfl
  · exact Or.inl rfl
  · obtain ⟨s, h1, h2, _⟩ := hypot_fin x y
    exact Or.inr ⟨s, h1, h2⟩

/-- A table that holds the speeds: its greatest and least entries. -/
theorem speeds_max (g : VecGrid K) (a : Fin 3) (sel : Sel) (h : g.Plottable a sel) (hd : ∀ k, FinOrNaN (g.comp k).st.data) (r : Arr 2 (F K))
    (hr : r.shape = ![(g.comp 0).geom.cells (absc a), (g.comp 0).geom.cells (ordi a)])
    (hv : ∀ i j, i < (g.comp 0).geom.cells (absc a) → j < (g.comp 0).geom.cells (ordi a) → r.get ![i, j] = speedAt g a sel i j)
    (hne : ∃ i j, i < (g.comp 0).geom.cells (absc a) ∧ j < (g.comp 0).geom.cells (ordi a) ∧ speedAt g a sel i j ≠ nan) :
    ∃ S, maxSkipNaN (flatten r) = fin S ∧ Greatest g a sel S := by
  obtain ⟨i, j, hi, hj, hn⟩ := hne
  obtain ⟨h1, h2, h3⟩ := skipNaN_max (flatten r) ⟨_, (mem_flatten2 r hr _).2 ⟨i, j, hi, hj, rfl⟩, by rw [hv i j hi hj]; exact hn⟩
  obtain ⟨i', j', hi', hj', e⟩ := (mem_flatten2 r hr _).1 h1
  rw [hv i' j' hi' hj'] at e
  rcases speed_fin g a sel h hd i' j' hi' hj' with e' | ⟨s, e', _⟩
  · rw [e'] at e; exact absurd e.symm h2
  · refine ⟨s, by rw [← e, e'], ⟨i', j', hi', hj', e'⟩, fun i j x hi hj ex => ?_⟩
    have := h3 (fin x) ((mem_flatten2 r hr _).2 ⟨i, j, hi, hj, by rw [hv i j hi hj, ex]⟩) (by intro hh; cases hh)
    rw [← e, e', le_fin] at this
    exact this

theorem speeds_min (g : VecGrid K) (a : Fin 3) (sel : Sel) (h : g.Plottable a sel) (hd : ∀ k, FinOrNaN (g.comp k).st.data) (r : Arr 2 (F K))
    (hr : r.shape = ![(g.comp 0).geom.cells (absc a), (g.comp 0).geom.cells (ordi a)])
    (hv : ∀ i j, i < (g.comp 0).geom.cells (absc a) → j < (g.comp 0).geom.cells (ordi a) → r.get ![i, j] = speedAt g a sel i j)
    (hne : ∃ i j, i < (g.comp 0).geom.cells (absc a) ∧ j < (g.comp 0).geom.cells (ordi a) ∧ speedAt g a sel i j ≠ nan) :
    ∃ S, minSkipNaN (flatten r) = fin S ∧ Least g a sel S := by
  obtain ⟨i, j, hi, hj, hn⟩ := hne
  obtain ⟨h1, h2, h3⟩ := skipNaN_min (flatten r) ⟨_, (mem_flatten2 r hr _).2 ⟨i, j, hi, hj, rfl⟩, by rw [hv i j hi hj]; exact hn⟩
  obtain ⟨i', j', hi', hj', e⟩ := (mem_flatten2 r hr _).1 h1
  rw [hv i' j' hi' hj'] at e
  rcases speed_fin g a sel h hd i' j' hi' hj' with e' | ⟨s, e', _⟩
  · rw [e'] at e; exact absurd e.symm h2
  · refine ⟨s, by rw [← e, e'], ⟨i', j', hi', hj', e'⟩, fun i j x hi hj ex => ?_⟩
    have := h3 (fin x) ((mem_flatten2 r hr _).2 ⟨i, j, hi, hj, by rw [hv i j hi hj, ex]⟩) (by intro hh; cases hh)
    rw [← e, e', le_fin] at this
    exact this

theorem spacing_ok (x : List (F K)) (h : 1 < x.length) : Vectors.spacing x = .ok (x.getD 1 nan - x.getD 0 nan) := by
  have h0 : at' x 0 = .ok (x.getD 0 nan) := by unfold at'; rw [List.getElem?_eq_getElem (by omega), getD_lt _ (by omega)]
  have h1 : at' x 1 = .ok (x.getD 1 nan) := by unfold at'; rw [List.getElem?_eq_getElem h, getD_lt _ h]
  unfold Vectors.spacing
  rw [h1, run_bind_ok, h0, run_bind_ok]
  rfl

/-- The distances of the first two positions along the axes of the plane. -/
structure Spaced (g : Geom K) (a : Fin 3) (dx dy : K) : Prop where
  two_u : 1 < g.cells (absc a)
  two_v : 1 < g.cells (ordi a)
  hx : posAt g (absc a) 1 - posAt g (absc a) 0 = fin dx
  hy : posAt g (ordi a) 1 - posAt g (ordi a) 0 = fin dy
  dx_nonneg : 0 ≤ dx
  dy_nonneg : 0 ≤ dy

/-- Both node scalings. -/
theorem node_fig (g : VecGrid K) (a : Fin 3) (sel : Sel) (h : g.Plottable a sel) (hax : a ≠ 1 ∨ ∃ k, sel = .plane k) (hd : ∀ k, FinOrNaN (g.comp k).st.data)
    (mode : Scaling K) (c d : K) (hmode : ∀ q : Vectors K, q.x = (g.comp 0).geom.positions (absc a) → q.y = (g.comp 0).geom.positions (ordi a) →
      q.scale mode = q.boundNode (fin c) (fin d)) (hc : 0 ≤ c) (hd' : 0 ≤ d)
    (hne : ∃ i j u v, i < (g.comp 0).geom.cells (absc a) ∧ j < (g.comp 0).geom.cells (ordi a) ∧ shown (g.comp (absc a)) a sel i j = fin u ∧
      shown (g.comp (ordi a)) a sel i j = fin v ∧ ¬ (u = 0 ∧ v = 0)) :
    ∃ f S, quiverPlot g a sel mode = .ok f ∧ Greatest g a sel S ∧ 0 < S ∧
      f.arrows.length = (g.comp 0).geom.cells (absc a) * (g.comp 0).geom.cells (ordi a) ∧
      ∀ i j, i < (g.comp 0).geom.cells (absc a) → j < (g.comp 0).geom.cells (ordi a) → ∀ u v,
        shown (g.comp (absc a)) a sel i j = fin u → shown (g.comp (ordi a)) a sel i j = fin v →
        ∃ t, f.arrows[i * (g.comp 0).geom.cells (ordi a) + j]? = some t ∧
          Draws t.points (placeOf (g.comp 0).geom a i j) (fin (u * (c / S)), fin (v * (d / S))) ∧
          |u * (c / S)| ≤ c ∧ |v * (d / S)| ≤ d := by
  obtain ⟨q, e, hx, hy, hs, hv⟩ := quiver_spec g h.regular a sel h.shows
  rw [quiverAbsc_eq a sel hax] at hx
  have hf := fits_of g h.regular a sel hax q (by rw [hx, quiverAbsc_eq a sel hax]) hy hs
  obtain ⟨i0, j0, u0, v0, hi0, hj0, hu0, hv0, hz⟩ := hne
  obtain ⟨s0, es0, hs0, hss0⟩ := hypot_fin u0 v0
  have esp0 : speedAt g a sel i0 j0 = fin s0 := by unfold speedAt; rw [hu0, hv0, es0]
  obtain ⟨S, eS, hS⟩ := speeds_max g a sel h hd q.norm (hs _ (by simp)) (fun i j hi hj => (hv i j hi hj).2.2.1) ⟨i0, j0, hi0, hj0, by rw [esp0]; intro hh; cases hh⟩
  have hS0 : 0 < S := by
    have := hS.2 i0 j0 s0 hi0 hj0 esp0
    refine lt_of_lt_of_le (lt_of_le_of_ne hs0 fun h0 => hz ?_) this
    rw [← h0] at hss0
    constructor <;> nlinarith [mul_self_nonneg u0, mul_self_nonneg v0]
  obtain ⟨q', es, hf', h1, h2, _, h3, h4, _⟩ := boundNode_ok q hf (fin c) (fin d)
  obtain ⟨f, ef, hl, _, _, ha⟩ := figure_of g a sel mode q q' e (by rw [hmode q hx hy, es]) hf' h.some_u h.some_v
  refine ⟨f, S, ef, hS, hS0, hl, fun i j hi hj u v hu hv' => ?_⟩
  obtain ⟨t, k1, _, k2, _⟩ := ha i j hi hj
  obtain ⟨eu, ev, _, _⟩ := hv i j hi hj
  rw [h1, h2, hx, hy, h3, h4, eu, ev, hu, hv', eS, ediv _ hS0.ne', ediv _ hS0.ne', emul, emul] at k2
  obtain ⟨s, esq, hs0', hss⟩ := hypot_fin u v
  have hsS : s ≤ S := hS.2 i j s hi hj (by unfold speedAt; rw [hu, hv', esq])
  have bound : ∀ x y : K, x * x ≤ s * s → 0 ≤ y → |x * (y / S)| ≤ y := by
    intro x y hxs hy0
    have hxS : |x| ≤ S := le_trans (abs_le_of_sq_le_sq (by nlinarith) hs0') hsS
    rw [abs_mul, abs_of_nonneg (div_nonneg hy0 hS0.le)]
    calc |x| * (y / S) ≤ S * (y / S) := mul_le_mul_of_nonneg_right hxS (div_nonneg hy0 hS0.le)
      _ = y := by field_simp
  exact ⟨t, k1, k2, bound u c (by nlinarith [mul_self_nonneg v]) hc, bound v d (by nlinarith [mul_self_nonneg u]) hd'⟩

/-- **C78, `half_node` (partial).** With `S` the greatest speed in the plane, the vector `(u, v)` is drawn as `(u/S · dx/2, v/S · dy/2)`: no arrow is wider than half the distance of two cells or higher than half
the distance in the other direction, so that arrows never reach over another cell's half. When `dx = dy` all arrows are the same multiple of their vectors, hence keep their directions and the ratios of their lengths;
otherwise they do not (`C78_false`). -/
theorem C78_half_partial (g : VecGrid K) (a : Fin 3) (sel : Sel) (h : g.Plottable a sel) (hax : a ≠ 1 ∨ ∃ k, sel = .plane k) (hd : ∀ k, FinOrNaN (g.comp k).st.data) (dx dy : K)
    (hsp : Spaced (g.comp 0).geom a dx dy)
    (hne : ∃ i j u v, i < (g.comp 0).geom.cells (absc a) ∧ j < (g.comp 0).geom.cells (ordi a) ∧ shown (g.comp (absc a)) a sel i j = fin u ∧
      shown (g.comp (ordi a)) a sel i j = fin v ∧ ¬ (u = 0 ∧ v = 0)) :
    ∃ f S, quiverPlot g a sel .halfNode = .ok f ∧ Greatest g a sel S ∧ 0 < S ∧
      f.arrows.length = (g.comp 0).geom.cells (absc a) * (g.comp 0).geom.cells (ordi a) ∧
      ∀ i j, i < (g.comp 0).geom.cells (absc a) → j < (g.comp 0).geom.cells (ordi a) → ∀ u v,
        shown (g.comp (absc a)) a sel i j = fin u → shown (g.comp (ordi a)) a sel i j = fin v →
        ∃ t, f.arrows[i * (g.comp 0).geom.cells (ordi a) + j]? = some t ∧
          Draws t.points (placeOf (g.comp 0).geom a i j) (fin (u * (dx / 2 / S)), fin (v * (dy / 2 / S))) ∧
          |u * (dx / 2 / S)| ≤ dx / 2 ∧ |v * (dy / 2 / S)| ≤ dy / 2 := by
  refine node_fig g a sel h hax hd .halfNode (dx / 2) (dy / 2) ?_ (by linarith [hsp.dx_nonneg]) (by linarith [hsp.dy_nonneg]) hne
  intro q ex ey
  change (Vectors.spacing q.x >>= fun dx => Vectors.spacing q.y >>= fun dy => q.boundNode (F.lit (1 / 2) * dx) (F.lit (1 / 2) * dy)) = _
  have e1 : q.x.getD 1 nan - q.x.getD 0 nan = fin dx := by rw [ex]; exact hsp.hx
  have e2 : q.y.getD 1 nan - q.y.getD 0 nan = fin dy := by rw [ey]; exact hsp.hy
  rw [spacing_ok q.x (by rw [ex, (h.regular.regular 0).sized]; exact hsp.two_u), run_bind_ok, spacing_ok q.y (by rw [ey, (h.regular.regular 0).sized]; exact hsp.two_v), run_bind_ok,
    e1, e2, elit, emul, emul]
  rw [show 1 / 2 * dx = dx / 2 by ring, show 1 / 2 * dy = dy / 2 by ring]

/-- **C78, `full_node` (partial).** The same with the full distances. -/
theorem C78_full_partial (g : VecGrid K) (a : Fin 3) (sel : Sel) (h : g.Plottable a sel) (hax : a ≠ 1 ∨ ∃ k, sel = .plane k) (hd : ∀ k, FinOrNaN (g.comp k).st.data) (dx dy : K)
    (hsp : Spaced (g.comp 0).geom a dx dy)
    (hne : ∃ i j u v, i < (g.comp 0).geom.cells (absc a) ∧ j < (g.comp 0).geom.cells (ordi a) ∧ shown (g.comp (absc a)) a sel i j = fin u ∧
      shown (g.comp (ordi a)) a sel i j = fin v ∧ ¬ (u = 0 ∧ v = 0)) :
    ∃ f S, quiverPlot g a sel .fullNode = .ok f ∧ Greatest g a sel S ∧ 0 < S ∧
      f.arrows.length = (g.comp 0).geom.cells (absc a) * (g.comp 0).geom.cells (ordi a) ∧
      ∀ i j, i < (g.comp 0).geom.cells (absc a) → j < (g.comp 0).geom.cells (ordi a) → ∀ u v,
        shown (g.comp (absc a)) a sel i j = fin u → shown (g.comp (ordi a)) a sel i j = fin v →
        ∃ t, f.arrows[i * (g.comp 0).geom.cells (ordi a) + j]? = some t ∧
          Draws t.points (placeOf (g.comp 0).geom a i j) (fin (u * (dx / S)), fin (v * (dy / S))) ∧
          |u * (dx / S)| ≤ dx ∧ |v * (dy / S)| ≤ dy := by
  refine node_fig g a sel h hax hd .fullNode dx dy ?_ hsp.dx_nonneg hsp.dy_nonneg hne
  intro q ex ey
  change (Vectors.spacing q.x >>= fun dx => Vectors.spacing q.y >>= fun dy => q.boundNode dx dy) = _
  have e1 : q.x.getD 1 nan - q.x.getD 0 nan = fin dx := by rw [ex]; exact hsp.hx
  have e2 : q.y.getD 1 nan - q.y.getD 0 nan = fin dy := by rw [ey]; exact hsp.hy
  rw [spacing_ok q.x (by rw [ex, (h.regular.regular 0).sized]; exact hsp.two_u), run_bind_ok, spacing_ok q.y (by rw [ey, (h.regular.regular 0).sized]; exact hsp.two_v), run_bind_ok,
    e1, e2]

/-- The grids made by the constructor are evenly spaced. -/
theorem fieldGrid_spaced (n : CellId) (hi : Fin 3 → K) (w : Fin 3 → CellId → F K) (a : Fin 3) (h1 : 1 < n (absc a)) (h2 : 1 < n (ordi a)) (hhi : ∀ e, 0 ≤ hi e) :
    Spaced ((fieldGrid n hi w).comp 0).geom a (hi (absc a) / n (absc a)) (hi (ordi a) / n (ordi a)) := by
  refine ⟨h1, h2, ?_, ?_, div_nonneg (hhi _) (Nat.cast_nonneg _), div_nonneg (hhi _) (Nat.cast_nonneg _)⟩
  · rw [fieldGrid_pos _ _ _ _ _ h1, fieldGrid_pos _ _ _ _ _ (by omega), esub]; congr 1; push_cast; ring
  · rw [fieldGrid_pos _ _ _ _ _ h2, fieldGrid_pos _ _ _ _ _ (by omega), esub]; congr 1; push_cast; ring

end node

/-- **C78 is false when the cells are not square**: on a 2×2×2 grid over `[0,4]×[0,2]×[0,2]`, in a plane normal to `z`, the vector `(3, 4)` is drawn as `(3/5, 2/5)`: not in its direction, and not of the length of half a cell. -/
theorem C78_false : ∃ (g : VecGrid ℝ) (f : QuiverFig ℝ) (t : ArrowTrace ℝ), g.Plottable 2 (.plane 0) ∧
    quiverPlot g (2 : Fin 3) (.plane 0) .halfNode = .ok f ∧ f.arrows[0]? = some t ∧
    shown (g.comp 0) 2 (.plane 0) 0 0 = fin 3 ∧ shown (g.comp 1) 2 (.plane 0) 0 0 = fin 4 ∧
    Draws t.points (placeOf (g.comp 0).geom 2 0 0) (fin (3 / 5), fin (2 / 5)) := by
  have hp : (fieldGrid (fun _ => 2) ![(4 : ℝ), 2, 2] (fun k _ => fin (![3, 4, 0] k))).Plottable 2 (.plane 0) :=
    fieldGrid_plottable _ (by intro a; norm_num) _ _ (fun _ _ => Or.inr ⟨_, rfl⟩) 2 _ (fun k hk => by cases hk; decide)
  obtain ⟨f, S, e, hS, hS0, hl, h⟩ := C78_half_partial _ 2 (.plane 0) hp (Or.inl (by decide)) (fun k i _ => Or.inr ⟨_, rfl⟩) _ _
    (fieldGrid_spaced _ _ _ 2 (by norm_num) (by norm_num) (by intro e; fin_cases e <;> norm_num))
    ⟨0, 0, 3, 4, by change 0 < 2; norm_num, by change 0 < 2; norm_num, rfl, rfl, by norm_num⟩
  obtain ⟨t, h1, h2, _⟩ := h 0 0 (by change 0 < 2; norm_num) (by change 0 < 2; norm_num) 3 4 rfl rfl
  have hS5 : S = 5 := by
    obtain ⟨⟨i, j, hi, hj, hs⟩, _⟩ := hS
    obtain ⟨s, es, hs0, hss⟩ := hypot_fin (3 : ℝ) 4
    have : speedAt (fieldGrid (fun _ => 2) ![(4 : ℝ), 2, 2] (fun k _ => fin (![3, 4, 0] k))) 2 (.plane 0) i j = fin s := es
    rw [this] at hs
    cases hs
    nlinarith
  refine ⟨_, f, t, hp, e, by simpa using h1, rfl, rfl, ?_⟩
  rw [hS5] at h2
  have e1 : (3 * (![(4 : ℝ), 2, 2] (absc ((2 : Fin 3) : ℕ)) / ((2 : ℕ) : ℝ) / 2 / 5)) = 3 / 5 := by
    rw [show ![(4 : ℝ), 2, 2] (absc ((2 : Fin 3) : ℕ)) = 4 from rfl]; norm_num
  have e2 : (4 * (![(4 : ℝ), 2, 2] (ordi ((2 : Fin 3) : ℕ)) / ((2 : ℕ) : ℝ) / 2 / 5)) = 2 / 5 := by
    rw [show ![(4 : ℝ), 2, 2] (ordi ((2 : Fin 3) : ℕ)) = 2 from rfl]; norm_num
  rw [e1, e2] at h2
  exact h2

/-- **C78, a single layer**: with one cell along an axis of the plane both modes panic (there is no second position to measure the distance to). -/
theorem C78_one_layer_panics [ExactArith K] (g : VecGrid K) (a : Fin 3) (sel : Sel) (h : g.Plottable a sel) (hax : a ≠ 1 ∨ ∃ k, sel = .plane k)
    (h1 : (g.comp 0).geom.cells (absc a) = 1 ∨ (g.comp 0).geom.cells (ordi a) = 1) :
    quiverPlot g a sel .halfNode = .error .index ∧ quiverPlot g a sel .fullNode = .error .index := by
  obtain ⟨q, e, hx, hy, hs, hv⟩ := quiver_spec g h.regular a sel h.shows
  rw [quiverAbsc_eq a sel hax] at hx
  have bad : ∀ x : List (F K), x.length = 1 → Vectors.spacing x = .error .index := by
    intro x hl
    unfold Vectors.spacing at'
    rw [List.getElem?_eq_none hl.le]
    rfl
  have lx : q.x.length = (g.comp 0).geom.cells (absc a) := by rw [hx, (h.regular.regular 0).sized]
  have ly : q.y.length = (g.comp 0).geom.cells (ordi a) := by rw [hy, (h.regular.regular 0).sized]
  have both : ∀ k : F K → F K → Run (Vectors K), (Vectors.spacing q.x >>= fun dx => Vectors.spacing q.y >>= fun dy => k dx dy) = .error .index := by
    intro k
    by_cases h0 : q.x.length = 1
    · rw [bad _ h0]; rfl
    · have := h.some_u
      rw [spacing_ok q.x (by omega), run_bind_ok, bad q.y (by omega)]; rfl
  constructor
  · unfold quiverPlot
    rw [e, run_bind_ok]
    change ((Vectors.spacing q.x >>= fun dx => Vectors.spacing q.y >>= fun dy => q.boundNode (F.lit (1 / 2) * dx) (F.lit (1 / 2) * dy)) >>= _) = _
    rw [both]; rfl
  · unfold quiverPlot
    rw [e, run_bind_ok]
    change ((Vectors.spacing q.x >>= fun dx => Vectors.spacing q.y >>= fun dy => q.boundNode dx dy) >>= _) = _
    rw [both]; rfl

end Up4
