import Verif.Props.Construct
import Verif.Props.Cylinder

set_option linter.unusedSectionVars false

/-!
# C124: the static constructors of `Grid`

`Grid.cartesian3d`, `Grid.cylindrical3d` and their variants that take the box from the data.
-/

namespace Up4
open F
open Selector (at')

variable {K : Type} [Field K] [LinearOrder K] [IsStrictOrderedRing K] [FloorRing K] [Arith K]

/-- The list of the numbers of cells, as given in Python. -/
def cellList (c : CellId) : List ℤ := [(c 0 : ℤ), (c 1 : ℤ), (c 2 : ℤ)]

theorem toUsizes_iff {l : List ℤ} {m : List ℕ} : toUsizes l = .ok m ↔ l = m.map fun n : ℕ => (n : ℤ) := by
  unfold toUsizes
  by_cases h : l.any (fun z => decide (z < 0)) = true
  · rw [if_pos h]
    constructor
    · intro e; cases e
    · rintro rfl
      rw [List.any_eq_true] at h
      obtain ⟨z, hz, h⟩ := h
      obtain ⟨n, _, rfl⟩ := List.mem_map.1 hz
      rw [decide_eq_true_eq] at h
      omega
  · rw [if_neg h]
    have h' : ∀ z ∈ l, 0 ≤ z := by
      intro z hz
      by_contra hn
      exact h (List.any_eq_true.2 ⟨z, hz, decide_eq_true (by omega)⟩)
    constructor
    · intro e
      injection e with e
      subst e
      rw [List.map_map]
      conv_lhs => rw [← List.map_id l]
      exact List.map_congr_left fun z hz => (Int.toNat_of_nonneg (h' z hz)).symm
    · rintro rfl
      rw [List.map_map]
      congr 1
      conv_rhs => rw [← List.map_id m]
      exact List.map_congr_left fun n _ => Int.toNat_natCast n

theorem three_cells {m : List ℕ} {c : CellId} : three (fun i : Fin 3 => at' m (i : ℕ)) = .ok c ↔ m[0]? = some (c 0) ∧ m[1]? = some (c 1) ∧ m[2]? = some (c 2) := by
  rw [three_ok]
  simp only [at_inv]
  constructor
  · exact fun h => ⟨h 0, h 1, h 2⟩
  · rintro ⟨h0, h1, h2⟩ i
    fin_cases i
    · exact h0
    · exact h1
    · exact h2

theorem three_limits {l : List (F K)} (hl : l.length = 6) : ∃ lim : Limits K, l = sixOf lim ∧ three (fun i : Fin 3 => limAt l (i : ℕ)) = .ok lim := by
  match l, hl with
  | [a, b, c, d, e, f], _ =>
    refine ⟨![(a, b), (c, d), (e, f)], rfl, ?_⟩
    rw [three_ok]
    intro i
    rw [limAt_iff]
    fin_cases i <;> exact ⟨rfl, rfl⟩

theorem sixOf_inj {a b : Limits K} (h : sixOf a = sixOf b) : a = b := by
  unfold sixOf at h
  simp only [List.cons.injEq, and_true] at h
  obtain ⟨h1, h2, h3, h4, h5, h6⟩ := h
  funext i
  fin_cases i
  · exact Prod.ext h1 h2
  · exact Prod.ext h3 h4
  · exact Prod.ext h5 h6

theorem three_cells_list {m : List ℕ} (hm : m.length = 3) {c : CellId} (h : three (fun i : Fin 3 => at' m (i : ℕ)) = .ok c) : m = [c 0, c 1, c 2] := by
  match m, hm with
  | [x, y, z], _ =>
    obtain ⟨h0, h1, h2⟩ := three_cells.1 h
    simp at h0 h1 h2
    rw [h0, h1, h2]

/-- **C124, `Grid.cartesian3d`.** It returns a grid exactly for three numbers of cells, none negative, and six limits; the grid is the empty Cartesian grid with these cells over
`[xmin, xmax] × [ymin, ymax] × [zmin, zmax]`. -/
theorem C124_cartesian (cells : List ℤ) (limit : List (F K)) (g : Grid K) :
    pyCartesian3d cells limit = .ok g ↔ ∃ (c : CellId) (lim : Limits K), cells = cellList c ∧ limit = sixOf lim ∧ g = Grid.newCart c lim := by
  unfold pyCartesian3d
  constructor
  · intro h
    obtain ⟨m, hm, h⟩ := run_bind_inv h
    by_cases h3 : m.length ≠ 3
    · rw [if_pos h3] at h; cases h
    rw [if_neg h3] at h
    by_cases h6 : limit.length ≠ 6
    · rw [if_pos h6] at h; cases h
    rw [if_neg h6] at h
    obtain ⟨c, hc, h⟩ := run_bind_inv h
    obtain ⟨lim, hl1, hl2⟩ := three_limits (not_not.1 h6)
    rw [hl2, run_bind_ok] at h
    cases h
    refine ⟨c, lim, ?_, hl1, rfl⟩
    rw [toUsizes_iff.1 hm, three_cells_list (not_not.1 h3) hc]
    rfl
  · rintro ⟨c, lim, rfl, rfl, rfl⟩
    rw [toUsizes_iff.2 (show cellList c = [c 0, c 1, c 2].map _ from rfl), run_bind_ok, if_neg (by simp), if_neg (by simp [sixOf]),
      (three_cells (c := c)).2 ⟨rfl, rfl, rfl⟩, run_bind_ok]
    obtain ⟨lim', e1, e2⟩ := three_limits (l := sixOf lim) rfl
    obtain rfl := sixOf_inj e1
    rw [e2, run_bind_ok]
    rfl

/-- **C124, `Grid.cylindrical3d`.** It returns a grid exactly for three numbers of cells, none negative, six limits and the mode `"volume"`; the grid is the empty
cylindrical grid with these cells over the box of the six limits **read as those of x, y and z**. -/
theorem C124_cylindrical (cells : List ℤ) (limit : List (F K)) (mode : String) (g : Grid K) :
    pyCylindrical3d cells limit mode = .ok g ↔
      mode = "volume" ∧ ∃ (c : CellId) (lim : Limits K), cells = cellList c ∧ limit = sixOf lim ∧ g = Grid.newCyl c lim := by
  unfold pyCylindrical3d CylGeom.newMode
  constructor
  · intro h
    obtain ⟨m, hm, h⟩ := run_bind_inv h
    by_cases h3 : m.length ≠ 3
    · rw [if_pos h3] at h; cases h
    rw [if_neg h3] at h
    by_cases h6 : limit.length ≠ 6
    · rw [if_pos h6] at h; cases h
    rw [if_neg h6] at h
    obtain ⟨c, hc, h⟩ := run_bind_inv h
    obtain ⟨lim, hl1, hl2⟩ := three_limits (not_not.1 h6)
    rw [hl2, run_bind_ok] at h
    by_cases hmode : mode ≠ "volume"
    · rw [if_pos hmode] at h; cases h
    rw [if_neg hmode, run_bind_ok] at h
    cases h
    refine ⟨not_not.1 hmode, c, lim, ?_, hl1, rfl⟩
    rw [toUsizes_iff.1 hm, three_cells_list (not_not.1 h3) hc]
    rfl
  · rintro ⟨rfl, c, lim, rfl, rfl, rfl⟩
    rw [toUsizes_iff.2 (show cellList c = [c 0, c 1, c 2].map _ from rfl), run_bind_ok, if_neg (by simp), if_neg (by simp [sixOf]),
      (three_cells (c := c)).2 ⟨rfl, rfl, rfl⟩, run_bind_ok]
    obtain ⟨lim', e1, e2⟩ := three_limits (l := sixOf lim) rfl
    obtain rfl := sixOf_inj e1
    rw [e2, run_bind_ok, if_neg (by simp), run_bind_ok]
    rfl

theorem cells_prefix {cells : List ℤ} {m : List ℕ} (hm : toUsizes cells = .ok m) {c : CellId} (h : three (fun i : Fin 3 => at' m (i : ℕ)) = .ok c) :
    ∃ rest : List ℕ, cells = cellList c ++ rest.map fun n : ℕ => (n : ℤ) := by
  rw [toUsizes_iff] at hm
  obtain ⟨h0, h1, h2⟩ := three_cells.1 h
  match m with
  | x :: y :: z :: rest =>
    simp at h0 h1 h2
    subst h0 h1 h2
    exact ⟨rest, by rw [hm]; rfl⟩
  | [] => simp at h0
  | [x] => simp at h1
  | [x, y] => simp at h2

theorem prefix_cells (c : CellId) (rest : List ℕ) :
    toUsizes (cellList c ++ rest.map fun n : ℕ => (n : ℤ)) = .ok (c 0 :: c 1 :: c 2 :: rest) := toUsizes_iff.2 rfl

/-- **C124, from data (partial).** `cartesian3d_from_data` and `cylindrical3d_from_data` return the grid with the first three numbers of cells over the position limits of the data;
they raise for fewer than three numbers, for a negative number and, the second one, for another mode. Missing: a list of more than three numbers should raise too; it
does not (the numbers after the third only must not be negative). -/
theorem C124_data_partial (dim : Limits K) (cells : List ℤ) (mode : String) (g : Grid K) :
    (pyCartesianFromData dim cells = .ok g ↔
      ∃ (c : CellId) (rest : List ℕ), cells = cellList c ++ rest.map (fun n : ℕ => (n : ℤ)) ∧ g = Grid.newCart c dim) ∧
    (pyCylindricalFromData dim cells mode = .ok g ↔
      mode = "volume" ∧ ∃ (c : CellId) (rest : List ℕ), cells = cellList c ++ rest.map (fun n : ℕ => (n : ℤ)) ∧ g = Grid.newCyl c dim) := by
  constructor
  · unfold pyCartesianFromData
    constructor
    · intro h
      obtain ⟨m, hm, h⟩ := run_bind_inv h
      obtain ⟨c, hc, h⟩ := run_bind_inv h
      cases h
      obtain ⟨rest, hr⟩ := cells_prefix hm hc
      exact ⟨c, rest, hr, rfl⟩
    · rintro ⟨c, rest, rfl, rfl⟩
      rw [prefix_cells, run_bind_ok, (three_cells (c := c)).2 ⟨rfl, rfl, rfl⟩, run_bind_ok]
      rfl
  · unfold pyCylindricalFromData CylGeom.newMode
    constructor
    · intro h
      obtain ⟨m, hm, h⟩ := run_bind_inv h
      obtain ⟨c, hc, h⟩ := run_bind_inv h
      by_cases hmode : mode ≠ "volume"
      · rw [if_pos hmode] at h; cases h
      rw [if_neg hmode, run_bind_ok] at h
      cases h
      obtain ⟨rest, hr⟩ := cells_prefix hm hc
      exact ⟨not_not.1 hmode, c, rest, hr, rfl⟩
    · rintro ⟨rfl, c, rest, rfl, rfl⟩
      rw [prefix_cells, run_bind_ok, (three_cells (c := c)).2 ⟨rfl, rfl, rfl⟩, run_bind_ok, if_neg (by simp), run_bind_ok]
      rfl

/-- **C124 is false for lists of four numbers of cells** (documented: must be of length 3): the call returns. -/
theorem C124_false_long (dim : Limits K) : pyCartesianFromData dim [2, 3, 4, 5] = .ok (Grid.newCart ![2, 3, 4] dim) :=
  (C124_data_partial dim _ "" _).1.2 ⟨![2, 3, 4], [5], rfl, rfl⟩

/-- **C124, one way to make a grid.** `Grid(num_cells=..., limits=..., grid_style=...)` is the static constructor, if no limit is negative. -/
theorem C124_same (c : CellId) (lim : Limits K) (h : ∀ x ∈ sixOf lim, ¬ x < 0) :
    pyGrid ⟨none, some (cellList c), "cartesian", none, some (sixOf lim), fun _ => none⟩ = pyCartesian3d (cellList c) (sixOf lim) ∧
    pyGrid ⟨none, some (cellList c), "cylindrical", none, some (sixOf lim), fun _ => none⟩ = pyCylindrical3d (cellList c) (sixOf lim) "volume" := by
  have key : ∀ style, (style = "cartesian" ∨ style = "cylindrical") →
      pyGrid ⟨none, some (cellList c), style, none, some (sixOf lim), fun _ => none⟩ = .ok (gridOf style c lim) := by
    intro style hst
    obtain ⟨g, hg⟩ := (C92_accepts (a := ⟨none, some (cellList c), style, none, some (sixOf lim), fun _ => none⟩) rfl).2
      ⟨hst, fun i l hl => (by cases hl), ⟨c, rfl⟩, rfl, h, fun _ _ => rfl⟩
    obtain ⟨_, hax, _, _, o, lim', cells, ho, hlim, hcells, e⟩ := pyGrid_inv hg
    rw [hg, e]
    have hc : cells = c := by
      have := toCells_inv hcells
      unfold chosenCells at ho
      injection ho with ho
      rw [← ho] at this
      injection this with this
      unfold cellList at this
      simp only [List.cons.injEq, Nat.cast_inj, and_true] at this
      funext i
      fin_cases i
      · exact this.1.symm
      · exact this.2.1.symm
      · exact this.2.2.symm
    have hl : lim' = lim := by
      unfold chosenLimits at hlim
      dsimp only at hlim
      rw [if_neg (by simp), if_neg (by
        intro hany
        rw [List.any_eq_true] at hany
        obtain ⟨x, hx, hlt⟩ := hany
        exact h x hx (of_decide_eq_true hlt)), if_neg (by simp [sixOf])] at hlim
      obtain ⟨l2, e1, e2⟩ := three_limits (l := sixOf lim) rfl
      rw [e2] at hlim
      injection hlim with hlim
      rw [← hlim, sixOf_inj e1]
    rw [hc, hl]
  constructor
  · rw [key _ (Or.inl rfl), (C124_cartesian _ _ _).2 ⟨c, lim, rfl, rfl, rfl⟩]
    rfl
  · rw [key _ (Or.inr rfl), (C124_cylindrical _ _ _ _).2 ⟨rfl, c, lim, rfl, rfl, rfl⟩]
    rfl

/-- **C124 is false for the documented order of the limits of `cylindrical3d`.** For a cylinder of radius `rmax` and height from `zmin` to `zmax`, given as documented as
`[rmin, rmax, zmin, zmax, phimin, phimax]`, the grid has the height from `phimin` to `phimax` and half of the larger of `rmax - rmin` and `zmax - zmin` as its radius. -/
theorem C124_false_order [ExactArith K] (c : CellId) (rmin rmax zmin zmax pmin pmax : K) (hr : rmin ≤ rmax) (hz : zmin ≤ zmax) (hp : pmin ≤ pmax) :
    ∃ (geom : CylGeom K) (st : Store K), pyCylindrical3d (cellList c) [fin rmin, fin rmax, fin zmin, fin zmax, fin pmin, fin pmax] "volume" = .ok ⟨.cyl geom, st⟩ ∧
      geom.radius = fin (max ((rmax - rmin) / 2) ((zmax - zmin) / 2)) ∧ geom.limits 2 = (fin pmin, fin pmax) ∧
      ∀ (x y : F K) (z : K), zmin ≤ z → z ≤ zmax → pmax < z → (⟨.cyl geom, st⟩ : Grid K).isInside ![x, y, fin z] = false := by
  have hlim : ([fin rmin, fin rmax, fin zmin, fin zmax, fin pmin, fin pmax] : List (F K)) = sixOf (finLimits ![rmin, zmin, pmin] ![rmax, zmax, pmax]) := rfl
  refine ⟨CylGeom.new c (finLimits ![rmin, zmin, pmin] ![rmax, zmax, pmax]), Store.zeros c,
    (C124_cylindrical _ _ _ _).2 ⟨rfl, c, _, rfl, hlim, rfl⟩, ?_, rfl, ?_⟩
  · exact outerRadius_exact ![rmin, zmin, pmin] ![rmax, zmax, pmax] (by intro a; fin_cases a <;> assumption)
  · intro x y z _ _ hlt
    change CylGeom.isInside _ _ = false
    unfold CylGeom.isInside
    dsimp only
    rw [Bool.and_eq_false_iff]
    right
    rw [decide_eq_false_iff_not]
    rintro ⟨_, h⟩
    have h : (fin z : F K) ≤ fin pmax := h
    rw [F.le_fin] at h
    exact absurd hlt (not_lt.2 h)

/-- The case of the refutation: the cylinder of radius 1 and height 10 of the documentation, full circle; the middle of its axis is outside and the radius is 5. -/
example : ∃ (geom : CylGeom ℝ) (st : Store ℝ), pyCylindrical3d [10, 10, 10] [fin 0, fin 1, fin 0, fin 10, fin 0, fin 4] "volume" = .ok ⟨.cyl geom, st⟩ ∧
    geom.radius = fin 5 ∧ (⟨.cyl geom, st⟩ : Grid ℝ).isInside ![fin 0, fin 0, fin 5] = false := by
  obtain ⟨geom, st, e, h1, _, h2⟩ := C124_false_order (K := ℝ) (fun _ => 10) 0 1 0 10 0 4 (by norm_num) (by norm_num) (by norm_num)
  refine ⟨geom, st, e, ?_, h2 _ _ _ (by norm_num) (by norm_num) (by norm_num)⟩
  rw [h1]; norm_num

/-- The hypothesis of `C124_same`, and calls that return and that raise. -/
example : (∀ x ∈ sixOf (fun _ => (fin 0, fin 1) : Limits ℝ), ¬ x < 0) ∧
    pyCartesian3d [2, 3, 4] (sixOf (fun _ => (fin 0, fin 1) : Limits ℝ)) = .ok (Grid.newCart ![2, 3, 4] fun _ => (fin 0, fin 1)) ∧
    (¬ ∃ g, pyCylindrical3d [2, 3, 4] (sixOf (fun _ => (fin 0, fin 1) : Limits ℝ)) "area" = .ok g) := by
  refine ⟨?_, (C124_cartesian _ _ _).2 ⟨![2, 3, 4], _, rfl, rfl, rfl⟩, ?_⟩
  · intro x hx
    simp only [sixOf, List.mem_cons, List.not_mem_nil, or_false] at hx
    rw [F.zero_def]
    rcases hx with rfl | rfl | rfl | rfl | rfl | rfl <;> rw [F.lt_fin] <;> norm_num
  · rintro ⟨g, hg⟩
    have := ((C124_cylindrical _ _ _ _).1 hg).1
    simp at this

end Up4
