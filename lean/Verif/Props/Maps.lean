import Verif.Props.UnitPlot

set_option linter.unusedSectionVars false

/-! # C82-C85: maps, contours, parity plots -/

namespace Up4
open F
open Selector (at')

variable {K : Type} [Field K] [LinearOrder K] [IsStrictOrderedRing K] [FloorRing K] [Arith K]

/-! ### Specification -/

/-- A grid whose selected plane can be plotted. -/
def Plotted.Ready (a : Fin 3) (sel : Sel) : Plotted K → Prop
  | .scalar g => g.Regular ∧ Shows g a sel
  | .vector g => g.Regular ∧ ∀ k, Shows (g.comp k) a sel

/-- What is to be shown at `(i, j)`: the value of a scalar grid, the speed within the plane of a vector grid. -/
noncomputable def Plotted.wanted (a : Fin 3) (sel : Sel) (i j : ℕ) : Plotted K → F K
  | .scalar g => shown g a sel i j
  | .vector g => speedAt g a sel i j

theorem Plotted.sized (g : Plotted K) (a : Fin 3) (sel : Sel) (h : g.Ready a sel) (e : Fin 3) : (g.geom.positions e).length = g.geom.cells e := by
  cases g with
  | scalar g => exact h.1.sized e
  | vector g => exact (h.1.regular 0).sized e

section exact
variable [ExactArith K]

theorem values_spec (g : Plotted K) (a : Fin 3) (sel : Sel) (h : g.Ready a sel) :
    ∃ r, g.values a sel = .ok r ∧ r.shape = ![g.geom.cells (absc a), g.geom.cells (ordi a)] ∧
      ∀ i j, i < g.geom.cells (absc a) → j < g.geom.cells (ordi a) → r.get ![i, j] = g.wanted a sel i j := by
  cases g with
  | scalar g => exact planeOf_spec g h.1.shaped a sel h.2
  | vector g =>
    obtain ⟨u, eu, su, vu⟩ := planeOf_spec (g.comp (absc a)) (h.1.regular _).shaped a sel (h.2 _)
    obtain ⟨v, ev, sv, vv⟩ := planeOf_spec (g.comp (ordi a)) (h.1.regular _).shaped a sel (h.2 _)
    rw [h.1.same] at su sv vu vv
    have ez : zipSame F.hypot u v = .ok ⟨u.shape, fun i => F.hypot (u.get i) (v.get i)⟩ := by
      unfold zipSame; rw [if_pos (by rw [su, sv])]
    refine ⟨⟨u.shape, fun i => F.hypot (u.get i) (v.get i)⟩, ?_, su, fun i j hi hj => ?_⟩
    · change planeSpeed g a sel = _
      unfold planeSpeed
      rw [compU_eq, compV_eq, eu, run_bind_ok, ev, run_bind_ok, ez]
    · change F.hypot (u.get _) (v.get _) = _
      rw [vu i j hi hj, vv i j hi hj]; rfl

/-- **C82.** The scalar map has one entry per cell of the plane: at the place of cell `(i, j)` it shows the value of that cell (of a vector grid: the speed within the plane), for every axis, plane and depth average. -/
theorem C82_scalar_map (g : Plotted K) (a : Fin 3) (sel : Sel) (h : g.Ready a sel) :
    ∃ f, scalarMap g a sel = .ok f ∧ f.z.length = g.geom.cells (absc a) * g.geom.cells (ordi a) ∧
      ∀ i j, i < g.geom.cells (absc a) → j < g.geom.cells (ordi a) → f.Shows (i * g.geom.cells (ordi a) + j) (placeOf g.geom a i j) (g.wanted a sel i j) := by
  obtain ⟨r, er, sr, vr⟩ := values_spec g a sel h
  obtain ⟨f, ef, _, _, lz, hf⟩ := heat_spec (g.geom.positions (absc a)) (g.geom.positions (ordi a)) r (g.sized a sel h _) (g.sized a sel h _) sr
  refine ⟨f, ?_, lz, fun i j hi hj => ?_⟩
  · unfold scalarMap; rw [er, run_bind_ok, ef]
  · have := hf i j hi hj
    rw [vr i j hi hj] at this
    exact this

/-- The least and the greatest value shown, not counting NaN. -/
structure Extremes (g : Plotted K) (a : Fin 3) (sel : Sel) (lo hi : F K) : Prop where
  lo_shown : ∃ i j, i < g.geom.cells (absc a) ∧ j < g.geom.cells (ordi a) ∧ g.wanted a sel i j = lo
  hi_shown : ∃ i j, i < g.geom.cells (absc a) ∧ j < g.geom.cells (ordi a) ∧ g.wanted a sel i j = hi
  bounds : ∀ i j, i < g.geom.cells (absc a) → j < g.geom.cells (ordi a) → g.wanted a sel i j ≠ nan → lo ≤ g.wanted a sel i j ∧ g.wanted a sel i j ≤ hi

/-- **C83.** In the contour plot row `j`, column `i` holds the value of cell `(i, j)`, with the positions of the cells as coordinates of columns and rows; the levels start at the least and end at the greatest value, and are `n`
steps apart. -/
theorem C83_contour (g : Plotted K) (a : Fin 3) (sel : Sel) (h : g.Ready a sel) (levels : ℕ) (hlev : 0 < levels) :
    ∃ f, scalarContour g a sel levels = .ok f ∧ f.x.length = g.geom.cells (absc a) ∧ f.y.length = g.geom.cells (ordi a) ∧ f.z.length = g.geom.cells (ordi a) ∧
      (∀ i, i < g.geom.cells (absc a) → f.x[i]? = some (posAt g.geom (absc a) i)) ∧ (∀ j, j < g.geom.cells (ordi a) → f.y[j]? = some (posAt g.geom (ordi a) j)) ∧
      (∀ j, j < g.geom.cells (ordi a) → ∃ row, f.z[j]? = some row ∧ row.length = g.geom.cells (absc a) ∧
        ∀ i, i < g.geom.cells (absc a) → row[i]? = some (g.wanted a sel i j)) ∧
      ((∃ i j, i < g.geom.cells (absc a) ∧ j < g.geom.cells (ordi a) ∧ g.wanted a sel i j ≠ nan) → Extremes g a sel f.start f.stop ∧
        ∀ lo hi, f.start = fin lo → f.stop = fin hi → ∃ d, f.size = fin d ∧ lo + levels * d = hi) := by
  obtain ⟨r, er, sr, vr⟩ := values_spec g a sel h
  have lx := g.sized a sel h (absc a)
  have ly := g.sized a sel h (ordi a)
  have s0 : r.shape 0 = g.geom.cells (absc a) := by rw [sr]; rfl
  have s1 : r.shape 1 = g.geom.cells (ordi a) := by rw [sr]; rfl
  refine ⟨_, by unfold scalarContour; rw [er, run_bind_ok]; rfl, lx, ly, ?_, ?_, ?_, ?_, ?_⟩
  · change ((List.range (r.shape 1)).map _).length = _
    rw [List.length_map, List.length_range, s1]
  · intro i hi
    change (g.geom.positions (absc a))[i]? = _
    rw [List.getElem?_eq_getElem (by omega)]
    unfold posAt
    rw [getD_lt _ (by omega)]
  · intro j hj
    change (g.geom.positions (ordi a))[j]? = _
    rw [List.getElem?_eq_getElem (by omega)]
    unfold posAt
    rw [getD_lt _ (by omega)]
  · intro j hj
    refine ⟨_, by change ((List.range (r.shape 1)).map _)[j]? = _; rw [List.getElem?_map, List.getElem?_range (by omega)]; rfl, ?_, ?_⟩
    · rw [List.length_map, List.length_range, s0]
    · intro i hi
      rw [List.getElem?_map, List.getElem?_range (by omega), Option.map_some, vr i j hi hj]
  · rintro ⟨i0, j0, hi0, hj0, hn⟩
    have ex : ∃ x ∈ flatten r, x ≠ nan := ⟨_, (mem_flatten2 r sr _).2 ⟨i0, j0, hi0, hj0, rfl⟩, by rw [vr i0 j0 hi0 hj0]; exact hn⟩
    obtain ⟨l1, _, l3⟩ := skipNaN_min _ ex
    obtain ⟨m1, _, m3⟩ := skipNaN_max _ ex
    refine ⟨⟨?_, ?_, ?_⟩, ?_⟩
    · obtain ⟨i, j, hi, hj, e⟩ := (mem_flatten2 r sr _).1 l1
      exact ⟨i, j, hi, hj, by rw [← vr i j hi hj, e]⟩
    · obtain ⟨i, j, hi, hj, e⟩ := (mem_flatten2 r sr _).1 m1
      exact ⟨i, j, hi, hj, by rw [← vr i j hi hj, e]⟩
    · intro i j hi hj hne
      have hm := (mem_flatten2 r sr (g.wanted a sel i j)).2 ⟨i, j, hi, hj, vr i j hi hj⟩
      exact ⟨l3 _ hm hne, m3 _ hm hne⟩
    · intro lo hi hlo hhi
      have h1 : minSkipNaN (flatten r) = fin lo := hlo
      have h2 : maxSkipNaN (flatten r) = fin hi := hhi
      have hl : (levels : K) ≠ 0 := by exact_mod_cast hlev.ne'
      refine ⟨(hi - lo) / levels, ?_, by field_simp; ring⟩
      change (maxSkipNaN (flatten r) - minSkipNaN (flatten r)) / F.ofNat levels = _
      rw [h1, h2, esub, eofNat, ediv _ hl]

/-! ### Parity plots -/

theorem mem_flatten3 (r : Arr 3 (F K)) (x : F K) : x ∈ flatten r ↔ ∃ c, InB r.shape c ∧ r.get c = x := by
  unfold flatten
  rw [List.mem_map]
  constructor
  · rintro ⟨c, hc, rfl⟩; exact ⟨c, (mem_indices _ _).1 hc, rfl⟩
  · rintro ⟨c, hc, rfl⟩; exact ⟨c, (mem_indices _ _).2 hc, rfl⟩

/-- A mean with weights that are not negative lies between bounds of the values that have a weight. -/
theorem mean_between (s : Store K) (C : Finset CellId) (lo hi m : K) (hw : ∀ c ∈ C, 0 ≤ val (s.weight.get c))
    (hb : ∀ c ∈ C, 0 < val (s.weight.get c) → lo ≤ val (s.data.get c) ∧ val (s.data.get c) ≤ hi) (hm : weightedMean s C = fin m) : lo ≤ m ∧ m ≤ hi := by
  unfold weightedMean at hm
  split_ifs at hm with h0
  cases hm
  have hpos : 0 < ∑ c ∈ C, val (s.weight.get c) := lt_of_le_of_ne (Finset.sum_nonneg hw) (Ne.symm h0)
  constructor
  · rw [le_div_iff₀ hpos, Finset.mul_sum]
    refine Finset.sum_le_sum fun c hc => ?_
    rcases (hw c hc).lt_or_eq with h | h
    · exact mul_le_mul_of_nonneg_right (hb c hc h).1 h.le
    · rw [← h, mul_zero, mul_zero]
  · rw [div_le_iff₀ hpos, Finset.mul_sum]
    refine Finset.sum_le_sum fun c hc => ?_
    rcases (hw c hc).lt_or_eq with h | h
    · exact mul_le_mul_of_nonneg_right (hb c hc h).2 h.le
    · rw [← h, mul_zero, mul_zero]

/-- The values shown of a scalar grid lie between the least and the greatest value of the whole grid. -/
theorem shown_between (g : Grid K) (hg : g.Shaped) (hd : FinOrNaN g.st.data) (hw : FinNonneg g.st.weight)
    (hz : ∀ c, InB g.geom.cells c → g.st.data.get c = nan → g.st.weight.get c = fin 0)
    (a : Fin 3) (sel : Sel) (h : Shows g a sel) (i j : ℕ) (hi : i < g.geom.cells (absc a)) (hj : j < g.geom.cells (ordi a)) (x : K) (hx : shown g a sel i j = fin x) :
    minSkipNaN (flatten g.st.data) ≤ fin x ∧ fin x ≤ maxSkipNaN (flatten g.st.data) := by
  have val_bounds : ∀ c, InB g.geom.cells c → ∀ y, g.st.data.get c = fin y → minSkipNaN (flatten g.st.data) ≤ fin y ∧ fin y ≤ maxSkipNaN (flatten g.st.data) := by
    intro c hc y hy
    have hm : fin y ∈ flatten g.st.data := (mem_flatten3 _ _).2 ⟨c, by rw [hg.1]; exact hc, hy⟩
    have hn : (fin y : F K) ≠ nan := by intro hh; cases hh
    exact ⟨(skipNaN_min _ ⟨_, hm, hn⟩).2.2 _ hm hn, (skipNaN_max _ ⟨_, hm, hn⟩).2.2 _ hm hn⟩
  have hb : InB (fun l => g.geom.cells (a.succAbove l)) ![i, j] := by rw [cells_pair]; exact inB2 hi hj
  cases sel with
  | plane k =>
    refine val_bounds _ ?_ x hx
    rw [insertNth_inB]; exact ⟨h, hb⟩
  | depthAverage =>
    -- some cell of the line has data, else the weights would sum to zero
    have hx' : weightedMean g.st (lineCells g.geom.cells a ![i, j]) = fin x := hx
    have inb : ∀ c ∈ lineCells g.geom.cells a ![i, j], InB g.geom.cells c := by
      intro c hc
      unfold lineCells at hc
      rw [Finset.mem_filter, mem_cellsOf] at hc
      exact hc.1
    have hw' : ∀ c ∈ lineCells g.geom.cells a ![i, j], 0 ≤ val (g.st.weight.get c) := by
      intro c hc
      obtain ⟨y, e, hy⟩ := hw c (by rw [hg.2]; exact inb c hc)
      rw [e]; exact hy
    have pos_fin : ∀ c ∈ lineCells g.geom.cells a ![i, j], 0 < val (g.st.weight.get c) → ∃ y, g.st.data.get c = fin y := by
      intro c hc hp
      rcases hd c (by rw [hg.1]; exact inb c hc) with e | e
      · rw [hz c (inb c hc) e] at hp; exact absurd hp (lt_irrefl _)
      · exact e
    obtain ⟨c0, hc0, hp0⟩ : ∃ c ∈ lineCells g.geom.cells a ![i, j], 0 < val (g.st.weight.get c) := by
      by_contra hno
      push Not at hno
      have hs0 : (∑ c ∈ lineCells g.geom.cells a ![i, j], val (g.st.weight.get c)) = 0 :=
        Finset.sum_eq_zero fun c hc => le_antisymm (hno c hc) (hw' c hc)
      unfold weightedMean at hx'
      rw [if_pos hs0] at hx'
      cases hx'
    obtain ⟨y0, hy0⟩ := pos_fin c0 hc0 hp0
    have hn0 : ∃ z ∈ flatten g.st.data, z ≠ nan := ⟨_, (mem_flatten3 _ _).2 ⟨c0, by rw [hg.1]; exact inb c0 hc0, hy0⟩, by intro hh; cases hh⟩
    have fins : ∀ z ∈ flatten g.st.data, z ≠ nan → ∃ w, z = fin w := by
      intro z hz' hne
      obtain ⟨c, hc, e⟩ := (mem_flatten3 _ _).1 hz'
      rcases hd c hc with e' | ⟨w, e'⟩
      · rw [e'] at e; exact absurd e.symm hne
      · exact ⟨w, by rw [← e, e']⟩
    obtain ⟨lo, elo⟩ := fins _ (skipNaN_min _ hn0).1 (skipNaN_min _ hn0).2.1
    obtain ⟨up, eup⟩ := fins _ (skipNaN_max _ hn0).1 (skipNaN_max _ hn0).2.1
    rw [elo, eup, le_fin, le_fin]
    refine mean_between g.st _ lo up x hw' (fun c hc hp => ?_) hx'
    obtain ⟨y, hy⟩ := pos_fin c hc hp
    have := val_bounds c (inb c hc) y hy
    rw [elo, eup, le_fin, le_fin] at this
    rw [hy]; exact this

theorem parityValues_scalar (g : Grid K) (a : Fin 3) (sel : Sel) (hg : g.Regular) (hs : Shows g a sel) :
    ∃ l, parityValues a sel (.scalar g) = .ok l ∧ l.length = g.geom.cells (absc a) * g.geom.cells (ordi a) ∧
      ∀ i j, i < g.geom.cells (absc a) → j < g.geom.cells (ordi a) → l[i * g.geom.cells (ordi a) + j]? = some (shown g a sel i j) := by
  obtain ⟨r, er, sr, vr⟩ := planeOf_spec g hg.shaped a sel hs
  refine ⟨flatten r, ?_, (C55_flatten2 r _ _ sr).1, fun i j hi hj => by rw [(C55_flatten2 r _ _ sr).2 i j hi hj, vr i j hi hj]⟩
  change (planeOf g a sel >>= _) = _
  rw [er]; rfl

/-- **C84, scalar grids.** For two grids with the same cells, the parity plot has one point per cell of the plane: its abscissa is the value of the reference grid, its ordinate the value of the other grid, in the same cell. The line runs from
`(lo, lo)` to `(hi, hi)`, on the diagonal, and reaches over all points: `lo` and `hi` bound every value of both grids that is shown. -/
theorem C84_parity (r c : Grid K) (a : Fin 3) (sel : Sel) (hr : r.Regular) (hc : c.Regular) (hsr : Shows r a sel) (hsc : Shows c a sel) (hcells : c.geom.cells = r.geom.cells)
    (hdr : FinOrNaN r.st.data) (hdc : FinOrNaN c.st.data) (hwr : FinNonneg r.st.weight) (hwc : FinNonneg c.st.weight)
    (hzr : ∀ k, InB r.geom.cells k → r.st.data.get k = nan → r.st.weight.get k = fin 0) (hzc : ∀ k, InB c.geom.cells k → c.st.data.get k = nan → c.st.weight.get k = fin 0)
    (hnr : ∃ k, InB r.geom.cells k ∧ r.st.data.get k ≠ nan) (hnc : ∃ k, InB c.geom.cells k ∧ c.st.data.get k ≠ nan) :
    ∃ f lo hi, parityPlot (.scalar r) (.scalar c) a sel = .ok f ∧ f.line = ((lo, lo), (hi, hi)) ∧
      f.xs.length = r.geom.cells (absc a) * r.geom.cells (ordi a) ∧ f.ys.length = f.xs.length ∧
      ∀ i j, i < r.geom.cells (absc a) → j < r.geom.cells (ordi a) →
        f.xs[i * r.geom.cells (ordi a) + j]? = some (shown r a sel i j) ∧ f.ys[i * r.geom.cells (ordi a) + j]? = some (shown c a sel i j) ∧
        (∀ x, shown r a sel i j = fin x → lo ≤ fin x ∧ fin x ≤ hi) ∧ ∀ y, shown c a sel i j = fin y → lo ≤ fin y ∧ fin y ≤ hi := by
  obtain ⟨l, el, ll, hl⟩ := parityValues_scalar r a sel hr hsr
  obtain ⟨l', el', ll', hl'⟩ := parityValues_scalar c a sel hc hsc
  rw [hcells] at ll' hl'
  have nn : ∀ (g : Grid K), g.Regular → (∃ k, InB g.geom.cells k ∧ g.st.data.get k ≠ nan) → ∃ x ∈ flatten g.st.data, x ≠ nan := by
    rintro g hg ⟨k, hk, hn⟩
    exact ⟨_, (mem_flatten3 _ _).2 ⟨k, by rw [hg.shaped.1]; exact hk, rfl⟩, hn⟩
  have nr := nn r hr hnr
  have nc := nn c hc hnc
  set mr := minSkipNaN (flatten r.st.data)
  set mc := minSkipNaN (flatten c.st.data)
  set Mr := maxSkipNaN (flatten r.st.data)
  set Mc := maxSkipNaN (flatten c.st.data)
  have h1 : mr ≠ nan := (skipNaN_min _ nr).2.1
  have h2 : mc ≠ nan := (skipNaN_min _ nc).2.1
  have h3 : Mr ≠ nan := (skipNaN_max _ nr).2.1
  have h4 : Mc ≠ nan := (skipNaN_max _ nc).2.1
  have lo1 : lesser mr mc ≤ mr ∧ lesser mr mc ≤ mc := by
    unfold lesser
    split_ifs with h
    · exact ⟨le_refl' h1, le_of_lt' h⟩
    · rcases lt_or_le' h1 h2 with h' | h'
      · exact absurd h' h
      · exact ⟨h', le_refl' h2⟩
  have hi1 : Mr ≤ greater Mr Mc ∧ Mc ≤ greater Mr Mc := by
    unfold greater
    split_ifs with h
    · exact ⟨le_refl' h3, le_of_lt' h⟩
    · rcases lt_or_le' h4 h3 with h' | h'
      · exact absurd h' h
      · exact ⟨h', le_refl' h4⟩
  refine ⟨⟨((lesser mr mc, lesser mr mc), (greater Mr Mc, greater Mr Mc)), l, l'⟩, lesser mr mc, greater Mr Mc, ?_, rfl, ll, by rw [ll, ll'], fun i j hi hj => ⟨hl i j hi hj, hl' i j hi hj, ?_, ?_⟩⟩
  · unfold parityPlot
    dsimp only
    rw [el, run_bind_ok, el', run_bind_ok]
    rfl
  · intro x hx
    obtain ⟨k1, k2⟩ := shown_between r hr.shaped hdr hwr hzr a sel hsr i j hi hj x hx
    exact ⟨le_trans' lo1.1 k1, le_trans' k2 hi1.1⟩
  · intro y hy
    obtain ⟨k1, k2⟩ := shown_between c hc.shaped hdc hwc hzc a sel hsc i j (by rw [hcells]; exact hi) (by rw [hcells]; exact hj) y hy
    exact ⟨le_trans' lo1.2 k1, le_trans' k2 hi1.2⟩

/-- **C84, vector grids (partial).** The points of a vector grid: first the first component in the plane of every cell, then the second one, each against the same component of the same cell of the other grid. The line is on the diagonal, but need not
reach over the points (`C84_false`). -/
theorem C84_parity_vector_partial (r c : VecGrid K) (a : Fin 3) (sel : Sel) (hr : r.Regular) (hc : c.Regular) (hsr : ∀ k, Shows (r.comp k) a sel) (hsc : ∀ k, Shows (c.comp k) a sel)
    (hcells : (c.comp 0).geom.cells = (r.comp 0).geom.cells) :
    ∃ f lo hi, parityPlot (.vector r) (.vector c) a sel = .ok f ∧ f.line = ((lo, lo), (hi, hi)) ∧
      f.xs.length = 2 * ((r.comp 0).geom.cells (absc a) * (r.comp 0).geom.cells (ordi a)) ∧ f.ys.length = f.xs.length ∧
      ∀ i j, i < (r.comp 0).geom.cells (absc a) → j < (r.comp 0).geom.cells (ordi a) →
        let k := i * (r.comp 0).geom.cells (ordi a) + j
        let k' := (r.comp 0).geom.cells (absc a) * (r.comp 0).geom.cells (ordi a) + k
        f.xs[k]? = some (shown (r.comp (absc a)) a sel i j) ∧ f.ys[k]? = some (shown (c.comp (absc a)) a sel i j) ∧
        f.xs[k']? = some (shown (r.comp (ordi a)) a sel i j) ∧ f.ys[k']? = some (shown (c.comp (ordi a)) a sel i j) := by
  have key : ∀ g : VecGrid K, g.Regular → (∀ k, Shows (g.comp k) a sel) → (g.comp 0).geom.cells = (r.comp 0).geom.cells →
      ∃ l, parityValues a sel (.vector g) = .ok l ∧ l.length = 2 * ((r.comp 0).geom.cells (absc a) * (r.comp 0).geom.cells (ordi a)) ∧
      ∀ i j, i < (r.comp 0).geom.cells (absc a) → j < (r.comp 0).geom.cells (ordi a) →
        l[i * (r.comp 0).geom.cells (ordi a) + j]? = some (shown (g.comp (absc a)) a sel i j) ∧
        l[(r.comp 0).geom.cells (absc a) * (r.comp 0).geom.cells (ordi a) + (i * (r.comp 0).geom.cells (ordi a) + j)]? = some (shown (g.comp (ordi a)) a sel i j) := by
    intro g hg hs hcl
    obtain ⟨u, eu, su, vu⟩ := planeOf_spec (g.comp (absc a)) (hg.regular _).shaped a sel (hs _)
    obtain ⟨v, ev, sv, vv⟩ := planeOf_spec (g.comp (ordi a)) (hg.regular _).shaped a sel (hs _)
    rw [hg.same, hcl] at su sv vu vv
    have lu := (C55_flatten2 u _ _ su).1
    have lv := (C55_flatten2 v _ _ sv).1
    refine ⟨flatten u ++ flatten v, ?_, by rw [List.length_append, lu, lv]; ring, fun i j hi hj => ⟨?_, ?_⟩⟩
    · change (planeOf (g.comp (compU a)) a sel >>= _) = _
      rw [compU_eq, compV_eq, eu, run_bind_ok, ev, run_bind_ok]; rfl
    · have hk := (C55_flatten2 u _ _ su).2 i j hi hj
      have hlt : i * (r.comp 0).geom.cells (ordi a) + j < (flatten u).length := by
        by_contra hno
        rw [List.getElem?_eq_none (by omega)] at hk; cases hk
      rw [List.getElem?_append_left hlt, hk, vu i j hi hj]
    · rw [List.getElem?_append_right (by omega), lu, Nat.add_sub_cancel_left, (C55_flatten2 v _ _ sv).2 i j hi hj, vv i j hi hj]
  obtain ⟨l, el, ll, hl⟩ := key r hr hsr rfl
  obtain ⟨l', el', ll', hl'⟩ := key c hc hsc hcells
  refine ⟨_, _, _, by unfold parityPlot; dsimp only; rw [el, run_bind_ok, el', run_bind_ok]; rfl, rfl, ll, by rw [ll]; exact ll', fun i j hi hj => ?_⟩
  exact ⟨(hl i j hi hj).1, (hl' i j hi hj).1, (hl i j hi hj).2, (hl' i j hi hj).2⟩

/-! ### Parity maps -/

/-- **C85 (partial).** For two grids with the same cells, the parity map (and the parity contour, which is the same picture) shows at the place of each cell the value of the reference grid minus that of the other grid. Proved for planes normal to axes 0 and 2; for axis 1 the
abscissae are those of another axis (`C85_false`). -/
theorem C85_parity_map_partial (r c : Plotted K) (a : Fin 3) (ha : a ≠ 1) (sel : Sel) (hr : r.Ready a sel) (hc : c.Ready a sel) (hcells : c.geom.cells = r.geom.cells) :
    ∃ f, parityMap r c a sel = .ok f ∧ f.z.length = r.geom.cells (absc a) * r.geom.cells (ordi a) ∧
      ∀ i j, i < r.geom.cells (absc a) → j < r.geom.cells (ordi a) →
        f.Shows (i * r.geom.cells (ordi a) + j) (placeOf r.geom a i j) (r.wanted a sel i j - c.wanted a sel i j) := by
  obtain ⟨x, ex, sx, vx⟩ := values_spec r a sel hr
  obtain ⟨y, ey, sy, vy⟩ := values_spec c a sel hc
  rw [hcells] at sy vy
  obtain ⟨d, ed, sd, vd⟩ := Arr.zipWith_same (· - ·) x y (by rw [sx, sy])
  have habs : absc' a = absc a := by fin_cases a; exacts [rfl, absurd rfl ha, rfl]
  obtain ⟨f, ef, _, _, lz, hf⟩ := heat_spec (r.geom.positions (absc a)) (r.geom.positions (ordi a)) d (r.sized a sel hr _) (r.sized a sel hr _) (by rw [sd, sx])
  refine ⟨f, ?_, lz, fun i j hi hj => ?_⟩
  · unfold parityMap; rw [ex, run_bind_ok, ey, run_bind_ok, ed, run_bind_ok, habs, ef]
  · have := hf i j hi hj
    rw [vd _ (by rw [sx]; exact inB2 hi hj), vx i j hi hj, vy i j hi hj] at this
    exact this

/-- **C85 for axis 1**: the value of cell `(i, j)` is shown at the `y` position of its `x` index (when there are as many cells along `x` as along `y`). -/
theorem C85_axis1 (r c : Plotted K) (sel : Sel) (hr : r.Ready 1 sel) (hc : c.Ready 1 sel) (hcells : c.geom.cells = r.geom.cells) (hn : r.geom.cells 1 = r.geom.cells 0) :
    ∃ f, parityMap r c (1 : Fin 3) sel = .ok f ∧ ∀ i j, i < r.geom.cells 0 → j < r.geom.cells 2 →
        f.Shows (i * r.geom.cells 2 + j) (posAt r.geom 1 i, posAt r.geom 2 j) (r.wanted 1 sel i j - c.wanted 1 sel i j) := by
  obtain ⟨x, ex, sx, vx⟩ := values_spec r 1 sel hr
  obtain ⟨y, ey, sy, vy⟩ := values_spec c 1 sel hc
  rw [hcells] at sy vy
  obtain ⟨d, ed, sd, vd⟩ := Arr.zipWith_same (· - ·) x y (by rw [sx, sy])
  obtain ⟨f, ef, _, _, lz, hf⟩ := heat_spec (r.geom.positions 1) (r.geom.positions 2) d (n := r.geom.cells 0) (m := r.geom.cells 2) (by rw [r.sized 1 sel hr, hn]) (r.sized 1 sel hr _) (by rw [sd, sx]; rfl)
  refine ⟨f, ?_, fun i j hi hj => ?_⟩
  · unfold parityMap; rw [ex, run_bind_ok, ey, run_bind_ok, ed, run_bind_ok]; exact ef
  · have := hf i j hi hj
    rw [vd _ (by rw [sx]; exact inB2 hi hj), vx i j hi hj, vy i j hi hj] at this
    exact this

end exact

/-! ### Examples and refutations -/

/-- A scalar grid over `[0, hi]` with given values, every cell seen once. -/
def scalarGrid (n : CellId) (hi : Fin 3 → K) (w : CellId → F K) : Grid K := ⟨.cart (CartGeom.new n (finLimits (fun _ => 0) hi)), ⟨⟨n, w⟩, Arr.const n 1⟩⟩

theorem scalarGrid_regular (n : CellId) (hi : Fin 3 → K) (w : CellId → F K) : (scalarGrid n hi w).Regular :=
  (fieldGrid_regular n hi (fun _ => w)).regular 0

theorem scalarGrid_shows (n : CellId) (hi : Fin 3 → K) (w : CellId → F K) (a : Fin 3) (k : ℕ) (h : k < n a) : Shows (scalarGrid n hi w) a (.plane k) := h

/-- Witness for C82, C83: a 3×2×2 grid that holds `10 · i + j` in the cells `(i, j, ·)`. -/
example : ∃ f, scalarMap (.scalar (scalarGrid ![3, 2, 2] (fun _ => (6 : ℝ)) (fun c => fin (10 * c 0 + c 1)))) (2 : Fin 3) (.plane 0) = .ok f ∧ f.z[3]? = some (fin 11) := by
  obtain ⟨f, e, _, h⟩ := C82_scalar_map (.scalar (scalarGrid ![3, 2, 2] (fun _ => (6 : ℝ)) (fun c => fin (10 * c 0 + c 1)))) 2 (.plane 0) ⟨scalarGrid_regular _ _ _, scalarGrid_shows _ _ _ _ _ (by decide)⟩
  refine ⟨f, e, ?_⟩
  have := (h 1 1 (by decide) (by decide)).2.2
  have hw : Plotted.wanted 2 (.plane 0) 1 1 (.scalar (scalarGrid ![3, 2, 2] (fun _ => (6 : ℝ)) (fun c => fin (10 * c 0 + c 1)))) = fin 11 := by
    change (fin (10 * (((2 : Fin 3).insertNth 0 ![1, 1] : CellId) 0 : ℝ) + (((2 : Fin 3).insertNth 0 ![1, 1] : CellId) 1 : ℝ)) : F ℝ) = fin 11
    rw [show ((2 : Fin 3).insertNth 0 ![1, 1] : CellId) 0 = 1 from rfl, show ((2 : Fin 3).insertNth 0 ![1, 1] : CellId) 1 = 1 from rfl]
    norm_num
  rw [hw] at this
  exact this

/-- Witness for C84: two grids with the values 1 and 2. -/
example : ∃ f lo hi, parityPlot (.scalar (scalarGrid (fun _ => 2) (fun _ => (6 : ℝ)) (fun _ => fin 1))) (.scalar (scalarGrid (fun _ => 2) (fun _ => (6 : ℝ)) (fun _ => fin 2))) (2 : Fin 3) .depthAverage = .ok f ∧
    f.line = ((lo, lo), (hi, hi)) ∧ f.xs.length = 4 := by
  have d : ∀ x : ℝ, FinOrNaN (scalarGrid (fun _ => 2) (fun _ => (6 : ℝ)) (fun _ => fin x)).st.data := fun x _ _ => Or.inr ⟨_, rfl⟩
  have w : ∀ x : ℝ, FinNonneg (scalarGrid (fun _ => 2) (fun _ => (6 : ℝ)) (fun _ => fin x)).st.weight := fun x _ _ => ⟨1, rfl, zero_le_one⟩
  obtain ⟨f, lo, hi, e, hl, hx, _⟩ := C84_parity (scalarGrid (fun _ => 2) (fun _ => (6 : ℝ)) (fun _ => fin 1)) (scalarGrid (fun _ => 2) (fun _ => (6 : ℝ)) (fun _ => fin 2)) 2 .depthAverage
    (scalarGrid_regular _ _ _) (scalarGrid_regular _ _ _) ⟨d 1, w 1⟩ ⟨d 2, w 2⟩ rfl (d 1) (d 2) (w 1) (w 2) (fun _ _ h => by cases h) (fun _ _ h => by cases h)
    ⟨fun _ => 0, fun _ => Nat.zero_lt_two, by intro h; cases h⟩ ⟨fun _ => 0, fun _ => Nat.zero_lt_two, by intro h; cases h⟩
  exact ⟨f, lo, hi, e, hl, by rw [hx]; rfl⟩

theorem max_const (n : CellId) (hn : ∀ a, 0 < n a) (x : ℝ) : maxSkipNaN (flatten (⟨n, fun _ => fin x⟩ : Arr 3 (F ℝ))) = fin x := by
  have all : ∀ z ∈ flatten (⟨n, fun _ => fin x⟩ : Arr 3 (F ℝ)), z = fin x := by
    intro z hz; obtain ⟨_, _, e⟩ := (mem_flatten3 _ _).1 hz; exact e.symm
  exact all _ (skipNaN_max _ ⟨_, (mem_flatten3 _ _).2 ⟨fun _ => 0, fun a => hn a, rfl⟩, by intro h; cases h⟩).1

/-- **C84 is false for vector grids**: with the vectors `(1, 5, 0)` in both grids the line ends at `(1, 1)`, although the plot has a point at `(5, 5)`: its range is taken from the first component only. -/
theorem C84_false : ∃ (g : VecGrid ℝ) (f : ParityFig ℝ), g.Regular ∧ parityPlot (.vector g) (.vector g) (2 : Fin 3) (.plane 0) = .ok f ∧ f.line.2 = (fin 1, fin 1) ∧
    ∃ k : ℕ, f.xs[k]? = some (fin 5) ∧ f.ys[k]? = some (fin 5) := by
  have hs : ∀ k, Shows ((fieldGrid (fun _ => 2) (fun _ => (6 : ℝ)) (fun k _ => fin (![1, 5, 0] k))).comp k) 2 (.plane 0) := fieldGrid_shows _ _ _ (fun _ _ => Or.inr ⟨_, rfl⟩) 2 _ (fun k hk => by cases hk; decide)
  obtain ⟨f, lo, hi, e, hl, _, _, h⟩ := C84_parity_vector_partial (fieldGrid (fun _ => 2) (fun _ => (6 : ℝ)) (fun k _ => fin (![1, 5, 0] k))) _ 2 (.plane 0) (fieldGrid_regular _ _ _) (fieldGrid_regular _ _ _) hs hs rfl
  obtain ⟨_, _, k1, k2⟩ := h 0 0 (by decide) (by decide)
  refine ⟨_, f, fieldGrid_regular _ _ _, e, ?_, _, k1, k2⟩
  have hm : maxSkipNaN (flatten (Plotted.data (.vector (fieldGrid (fun _ => 2) (fun _ => (6 : ℝ)) (fun k _ => fin (![1, 5, 0] k)))))) = fin 1 := max_const (fun _ => 2) (fun _ => by decide) 1
  have e' := e
  unfold parityPlot at e'
  dsimp only at e'
  rw [hm] at e'
  cases ea : parityValues (((2 : Fin 3) : ℕ)) (.plane 0) (.vector (fieldGrid (fun _ => 2) (fun _ => (6 : ℝ)) (fun k _ => fin (![1, 5, 0] k)))) with
  | error x => rw [ea] at e'; cases e'
  | ok l =>
    rw [ea, run_bind_ok, run_bind_ok] at e'
    cases e'
    unfold greater
    rw [if_neg (by rw [gt_iff_lt, lt_fin]; exact lt_irrefl _)]

/-- **C84, grids of different shapes**: two grids with 1×6×1 and 6×1×1 cells give, for the depth average along axis 2, a plot that pairs the cell `(0, k)` of one with the cell `(k, 0)` of the other; nothing refuses it. -/
theorem C84_shapes_false : ∃ (r c : Grid ℝ) (f : ParityFig ℝ), r.Regular ∧ c.Regular ∧ r.geom.cells ≠ c.geom.cells ∧ parityPlot (.scalar r) (.scalar c) (2 : Fin 3) (.plane 0) = .ok f ∧
    ∀ k, k < 6 → f.xs[k]? = some (r.st.data.get ![0, k, 0]) ∧ f.ys[k]? = some (c.st.data.get ![k, 0, 0]) := by
  set r := scalarGrid ![1, 6, 1] (fun _ => (6 : ℝ)) (fun c => fin (c 1)) with hr
  set c := scalarGrid ![6, 1, 1] (fun _ => (6 : ℝ)) (fun c => fin (c 0)) with hc
  obtain ⟨l, el, ll, hl⟩ := parityValues_scalar r 2 (.plane 0) (scalarGrid_regular _ _ _) (scalarGrid_shows _ _ _ _ _ (by decide))
  obtain ⟨l', el', ll', hl'⟩ := parityValues_scalar c 2 (.plane 0) (scalarGrid_regular _ _ _) (scalarGrid_shows _ _ _ _ _ (by decide))
  refine ⟨r, c, _, scalarGrid_regular _ _ _, scalarGrid_regular _ _ _, ?_, by unfold parityPlot; dsimp only; rw [el, run_bind_ok, el', run_bind_ok]; rfl, ?_⟩
  · intro h; have := congrFun h 0; exact absurd this (by decide)
  · intro k hk
    have h1 := hl 0 k (by change 0 < 1; norm_num) (by change k < 6; exact hk)
    have h2 := hl' k 0 (by change k < 6; exact hk) (by change 0 < 1; norm_num)
    have i1 : 0 * r.geom.cells (ordi ((2 : Fin 3) : ℕ)) + k = k := by rw [zero_mul, zero_add]
    have i2 : k * c.geom.cells (ordi ((2 : Fin 3) : ℕ)) + 0 = k := by change k * 1 + 0 = k; omega
    rw [i1] at h1
    rw [i2] at h2
    refine ⟨h1.trans ?_, h2.trans ?_⟩ <;> rfl

/-- **C85 is false for planes normal to axis 1**: over `[0,2]×[0,20]×[0,2]` with 2×2×2 cells the first entry is drawn at abscissa 5, not at 1/2. -/
theorem C85_false : ∃ (g : Grid ℝ) (f : Heat ℝ), g.Regular ∧ parityMap (.scalar g) (.scalar g) (1 : Fin 3) (.plane 0) = .ok f ∧ posAt g.geom (absc (1 : Fin 3)) 0 = fin (1 / 2) ∧ f.x[0]? = some (fin 5) := by
  have hp : Plotted.Ready 1 (.plane 0) (.scalar (scalarGrid (fun _ => 2) ![(2 : ℝ), 20, 2] (fun _ => fin 1))) := ⟨scalarGrid_regular _ _ _, scalarGrid_shows _ _ _ _ _ (by decide)⟩
  obtain ⟨f, e, h⟩ := C85_axis1 _ _ (.plane 0) hp hp rfl rfl
  have p : ∀ e, posAt (scalarGrid (fun _ => 2) ![(2 : ℝ), 20, 2] (fun _ => fin 1)).geom e 0 = fin (((0 : ℕ) + 1 / 2) * (![(2 : ℝ), 20, 2] e / (2 : ℕ))) :=
    fun e => fieldGrid_pos (fun _ => 2) ![(2 : ℝ), 20, 2] (fun _ _ => fin 1) e 0 (by norm_num)
  refine ⟨_, f, scalarGrid_regular _ _ _, e, ?_, ?_⟩
  · rw [p, show ![(2 : ℝ), 20, 2] (absc ((1 : Fin 3) : ℕ)) = 2 from rfl]; norm_num
  · have := (h 0 0 (by change 0 < 2; norm_num) (by change 0 < 2; norm_num)).1
    simp only [zero_mul, add_zero] at this
    rw [this]
    change some (posAt _ 1 0) = _
    rw [show Plotted.geom (.scalar (scalarGrid (fun _ => 2) ![(2 : ℝ), 20, 2] (fun _ => fin 1))) = (scalarGrid (fun _ => 2) ![(2 : ℝ), 20, 2] (fun _ => fin 1)).geom from rfl, p, show ![(2 : ℝ), 20, 2] 1 = 20 from rfl]
    norm_num

end Up4
