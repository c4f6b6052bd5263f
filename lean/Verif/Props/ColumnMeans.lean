import Verif.Props.Fields
import Verif.Props.Collapse
import Verif.Props.CartLookup

set_option linter.unusedSectionVars false

/-!
# C99, C100: depth averages of fields

`collapse` and `collapse_two` applied to what the field analyses return: for mean fields the result is the mean over all samples of the column (or layer), empty
cells notwithstanding; for `numberfield` it is not.
-/

namespace Up4
open F

variable {K : Type} [Field K] [LinearOrder K] [IsStrictOrderedRing K] [FloorRing K] [Arith K]

/-- The position is looked up to one of these cells. -/
def inCells (p : Profile) (g : Geom K) (pos : Pos K) (C : Finset CellId) : Bool := decide (∃ c ∈ C, inCell p g pos c = true)

/-- The mean of a list of numbers, NaN for none. -/
def meanOver (l : List K) : F K := if l = [] then F.nan else fin (l.sum / (l.length : K))

/-- A grid that holds in each cell the number of its samples as weight and the mean of their values as data. -/
def HoldsMeans {α : Type} (p : Profile) (g : Grid K) (S : List α) (pos : α → Pos K) (u : α → K) : Prop :=
  ∀ c, InB g.geom.cells c → let T := S.filter fun x => inCell p g.geom (pos x) c
    g.st.weight.get c = fin (T.length : K) ∧ g.st.data.get c = meanOver (T.map u)

/-- A sum over cells of sums over their samples is a sum over samples. -/
theorem sum_cells {α : Type} (p : Profile) (g : Geom K) (S : List α) (pos : α → Pos K) (u : α → K) (C : Finset CellId) :
    ∑ c ∈ C, ((S.filter fun x => inCell p g (pos x) c).map u).sum = ((S.filter fun x => inCells p g (pos x) C).map u).sum := by
  induction S with
  | nil => simp
  | cons x S ih =>
    have hcons : ∀ c, (((x :: S).filter fun x => inCell p g (pos x) c).map u).sum =
        (if inCell p g (pos x) c then u x else 0) + ((S.filter fun x => inCell p g (pos x) c).map u).sum := by
      intro c
      by_cases h : inCell p g (pos x) c = true <;> simp [h]
    simp only [hcons, Finset.sum_add_distrib, ih]
    by_cases hin : inCells p g (pos x) C = true
    · rw [List.filter_cons, if_pos hin, List.map_cons, List.sum_cons]
      congr 1
      unfold inCells at hin
      obtain ⟨c, hc, h⟩ := of_decide_eq_true hin
      rw [Finset.sum_eq_single c]
      · rw [if_pos h]
      · intro b _ hb
        rw [if_neg]
        intro h'
        unfold inCell at h h'
        simp only [Bool.and_eq_true, decide_eq_true_eq] at h h'
        rw [h.2] at h'
        exact hb (Option.some.inj h'.2).symm
      · intro h'; exact absurd hc h'
    · rw [List.filter_cons, if_neg hin]
      rw [Finset.sum_eq_zero, zero_add]
      intro c hc
      rw [if_neg]
      intro h
      exact hin (decide_eq_true ⟨c, hc, h⟩)

/-- The weighted mean of a grid of means over any set of cells is the mean over all samples in these cells. -/
theorem weightedMean_means {α : Type} (p : Profile) (g : Grid K) (S : List α) (pos : α → Pos K) (u : α → K) (h : HoldsMeans p g S pos u) (C : Finset CellId)
    (hC : ∀ c ∈ C, InB g.geom.cells c) :
    weightedMean g.st C = meanOver ((S.filter fun x => inCells p g.geom (pos x) C).map u) := by
  have hw : ∑ c ∈ C, val (g.st.weight.get c) = (((S.filter fun x => inCells p g.geom (pos x) C).length : ℕ) : K) := by
    have := sum_cells p g.geom S pos (fun _ => (1 : K)) C
    simp only [List.map_const', List.sum_replicate, nsmul_eq_mul, mul_one] at this
    rw [← this]
    refine Finset.sum_congr rfl fun c hc => ?_
    rw [(h c (hC c hc)).1]; rfl
  have hd : ∑ c ∈ C, val (g.st.data.get c) * val (g.st.weight.get c) = ((S.filter fun x => inCells p g.geom (pos x) C).map u).sum := by
    rw [← sum_cells]
    refine Finset.sum_congr rfl fun c hc => ?_
    rw [(h c (hC c hc)).1, (h c (hC c hc)).2]
    unfold meanOver
    by_cases h0 : (S.filter fun x => inCell p g.geom (pos x) c) = []
    · rw [h0]; simp [val]
    · rw [if_neg (by simpa using h0)]
      change _ / _ * ((_ : ℕ) : K) = _
      rw [List.length_map, div_mul_cancel₀]
      exact_mod_cast (List.length_pos_iff.2 h0).ne'
  unfold weightedMean meanOver
  rw [hw, hd]
  by_cases h0 : (S.filter fun x => inCells p g.geom (pos x) C) = []
  · rw [h0]; simp
  · rw [if_neg (by exact_mod_cast (List.length_pos_iff.2 h0).ne'), if_neg (by simpa using h0), List.length_map]

theorem holdsMeans_finOrNaN {α : Type} (p : Profile) (g : Grid K) (hg : g.Shaped) (S : List α) (pos : α → Pos K) (u : α → K) (h : HoldsMeans p g S pos u) :
    FinOrNaN g.st.data ∧ FinNonneg g.st.weight := by
  constructor
  · intro c hc
    rw [hg.1] at hc
    rw [(h c hc).2]
    unfold meanOver
    split_ifs
    · left; rfl
    · right; exact ⟨_, rfl⟩
  · intro c hc
    rw [hg.2] at hc
    exact ⟨_, (h c hc).1, Nat.cast_nonneg _⟩

theorem lineCells_inB {s : Fin 3 → ℕ} {a : Fin 3} {idx : Fin 2 → ℕ} {c : CellId} (h : c ∈ lineCells s a idx) : InB s c :=
  (mem_cellsOf _ _).1 (Finset.mem_filter.1 h).1

theorem layerCells_inB {s : Fin 3 → ℕ} {e : Fin 3} {i : ℕ} {c : CellId} (h : c ∈ layerCells s e i) : InB s c :=
  (mem_cellsOf _ _).1 (Finset.mem_filter.1 h).1

/-- What `collapse` and `collapse_two` of a grid of means give. -/
structure ColumnMeans {α : Type} (p : Profile) (g : Grid K) (S : List α) (pos : α → Pos K) (u : α → K) : Prop where
  column : ∀ a : Fin 3, ∃ r, g.collapse a = .ok r ∧ r.shape = (fun j => g.geom.cells (a.succAbove j)) ∧ ∀ idx, InB r.shape idx →
    r.get idx = meanOver ((S.filter fun x => inCells p g.geom (pos x) (lineCells g.geom.cells a idx)).map u)
  layer : ∀ a b e : Fin 3, a ≠ b → e ≠ a → e ≠ b → ∃ r, g.collapseTwo a b = .ok r ∧ r.shape = (fun _ => g.geom.cells e) ∧ ∀ i, i < g.geom.cells e →
    r.get (fun _ => i) = meanOver ((S.filter fun x => inCells p g.geom (pos x) (layerCells g.geom.cells e i)).map u)

theorem columnMeans [LawfulArith K] [ExactArith K] {α : Type} (p : Profile) (g : Grid K) (hg : g.Shaped) (S : List α) (pos : α → Pos K) (u : α → K)
    (h : HoldsMeans p g S pos u) : ColumnMeans p g S pos u := by
  obtain ⟨hd, hw⟩ := holdsMeans_finOrNaN p g hg S pos u h
  have hs : g.st.weight.shape = g.st.data.shape := by rw [hg.1, hg.2]
  constructor
  · intro a
    obtain ⟨r, e, h1, h2⟩ := C12_collapse g hs hd hw a
    rw [hg.1] at h1
    refine ⟨r, e, h1, fun idx hidx => ?_⟩
    rw [(h2 idx hidx).1, hg.1]
    exact weightedMean_means p g S pos u h _ fun c hc => lineCells_inB hc
  · intro a b e hab hea heb
    obtain ⟨r, e1, _, h1, h2⟩ := C13_collapseTwo g hs hd hw a b e hab hea heb
    rw [hg.1] at h1 h2
    refine ⟨r, e1, h1, fun i hi => ?_⟩
    rw [h2 i hi]
    exact weightedMean_means p g S pos u h _ fun c hc => layerCells_inB hc

/-- **C99, vector fields.** Each component of `vectorfield` on a fresh Cartesian grid, collapsed along an axis (or two): the entry of a column (or layer) is the
mean of this velocity component over all samples in the column, NaN if there is none. Cells of the column without samples do not matter. -/
theorem C99_vectorfield [LawfulArith K] [ExactArith K] (p : Profile) (d : Dm (Timestep K)) (hd : d.Inv) (grid : Grid K)
    (hg : grid.Fillable p) (hfresh : ∀ c, grid.st.weight.get c = 0 ∧ grid.st.data.get c = 0) (hcart : grid.geom.isCylindrical = false)
    (sel : Selector K) (hs : sel.Usable) (hw : ∀ t, t < d.n → (d.file t).Wf) (hlen : (d.samples sel).length ≤ 2 ^ 53) (v : ℕ × ℕ → Fin 3 → K)
    (hv : ∀ x ∈ d.samples sel, ∀ a, velOf d.file x a = F.fin (v x a)) :
    ∃ d' g', vectorfield p d grid sel = .ok (d', g') ∧ ∀ k, (g'.comp k).geom = grid.geom ∧
      ColumnMeans p (g'.comp k) (d.samples sel) (posOf d.file) fun x => v x k := by
  obtain ⟨d1, g1, e1, _, _, _, h1⟩ := C36_vectorfield p d hd grid hg hfresh sel hs hw hlen
  obtain ⟨d2, g2, e2, _, _, _, h2⟩ := vectorfield_run p d hd grid hg sel hs hw
  obtain ⟨d3, g3, e3, h3⟩ := C36_mean p d hd grid hg hfresh hcart sel hs hw hlen v hv
  rw [e1] at e2 e3
  injection e2 with e2
  injection e3 with e3
  injection e2 with ea eb
  injection e3 with ec ed
  subst ea eb ec ed
  refine ⟨d1, g1, e1, fun k => ⟨(h1 k).1, columnMeans p _ (h2 k).2.1 _ _ _ ?_⟩⟩
  intro c hc
  rw [(h1 k).1] at hc ⊢
  refine ⟨((h1 k).2 c hc).1, ?_⟩
  obtain ⟨k1, k2⟩ := h3 k c hc
  unfold meanOver
  by_cases h0 : ((d.samples sel).filter fun x => inCell p grid.geom (posOf d.file x) c) = []
  · rw [if_pos (by simpa using h0)]; exact k1 h0
  · rw [if_neg (by simpa using h0), List.length_map]; exact k2 h0

/-- **C99, velocity fields.** The same for `velocityfield` in any mode, for the samples whose value lies within the limits. -/
theorem C99_velocityfield [LawfulArith K] [ExactArith K] (p : Profile) (d : Dm (Timestep K)) (hd : d.Inv) (grid : Grid K)
    (hg : grid.Fillable p) (hfresh : ∀ c, grid.st.weight.get c = 0)
    (sel : Selector K) (hs : sel.Usable) (hw : ∀ t, t < d.n → (d.file t).Wf) (hlen : (d.samples sel).length ≤ 2 ^ 53)
    (mode : String) (vcal : (Fin 3 → F K) → F K) (hm : velMode mode = .ok vcal) (lo hi : K) (u : ℕ × ℕ → K)
    (hu : ∀ x ∈ d.samples sel, vcal (velOf d.file x) = fin (u x)) :
    ∃ d' g', velocityfield p d grid sel mode (fin lo) (fin hi) = .ok (d', g') ∧ g'.geom = grid.geom ∧
      ColumnMeans p g' ((d.samples sel).filter fun x => decide (lo ≤ u x ∧ u x ≤ hi)) (posOf d.file) u := by
  obtain ⟨d1, g1, e1, _, _, _, hgeo, h1⟩ := C35_velocityfield p d hd grid hg hfresh sel hs hw hlen mode vcal hm (fin lo) (fin hi) (by simp) (by simp)
  obtain ⟨d2, g2, e2, _, _, _, _, hsh, _⟩ := velocityfield_run p d hd grid hg sel hs hw mode vcal hm (fin lo) (fin hi) (by simp) (by simp)
  rw [e1] at e2
  injection e2 with e2
  injection e2 with ea eb
  subst ea eb
  refine ⟨d1, g1, e1, hgeo, columnMeans p _ hsh _ _ _ ?_⟩
  intro c hc
  rw [hgeo] at hc ⊢
  obtain ⟨k1, k2, k3⟩ := h1 c hc
  have hfil : ((d.samples sel).filter fun x => inCell p grid.geom (posOf d.file x) c && within (fin lo) (fin hi) (vcal (velOf d.file x))) =
      (((d.samples sel).filter fun x => decide (lo ≤ u x ∧ u x ≤ hi)).filter fun x => inCell p grid.geom (posOf d.file x) c) := by
    rw [List.filter_filter]
    refine List.filter_congr fun x hx => ?_
    rw [hu x hx]
    congr 1
    rw [Bool.eq_iff_iff, decide_eq_true_eq]
    simp [within, F.le_fin]
  rw [hfil] at k1 k2 k3
  set T := (((d.samples sel).filter fun x => decide (lo ≤ u x ∧ u x ≤ hi)).filter fun x => inCell p grid.geom (posOf d.file x) c) with hT
  have hvals : (T.map fun x => vcal (velOf d.file x)) = (T.map u).map F.fin := by
    rw [List.map_map]
    refine List.map_congr_left fun x hx => hu x ?_
    exact List.mem_of_mem_filter (List.mem_of_mem_filter hx)
  refine ⟨by rw [k1, List.length_map], ?_⟩
  unfold meanOver
  by_cases h0 : T = []
  · rw [if_pos (by simpa using h0)]
    exact k3 (by rw [h0]; rfl)
  · rw [if_neg (by simpa using h0), k2, hvals, sum_fin, List.length_map, List.length_map,
      F.ediv _ (by exact_mod_cast (List.length_pos_iff.2 h0).ne')]

/-- The hypotheses of `C99_vectorfield` and `C99_velocityfield`: four timesteps of a moving particle, a grid of 27 cells. -/
example : ∃ d : Dm (Timestep ℝ), (∃ d' g', vectorfield .debug d (Grid.newCart (fun _ => 3) (finLimits (fun _ => (0 : ℝ)) (fun _ => 1))) Selector.default = .ok (d', g') ∧
      ∀ k, ColumnMeans .debug (g'.comp k) (d.samples Selector.default) (posOf d.file) fun _ => (![3, 0, 4] : Fin 3 → ℝ) k) ∧
    ∃ d' g', velocityfield .debug d (Grid.newCart (fun _ => 3) (finLimits (fun _ => (0 : ℝ)) (fun _ => 1))) Selector.default "x" (fin 0) (fin 9) = .ok (d', g') ∧
      ColumnMeans .debug g' ((d.samples Selector.default).filter fun _ => decide ((0 : ℝ) ≤ 3 ∧ (3 : ℝ) ≤ 9)) (posOf d.file) fun _ => 3 := by
  obtain ⟨d, _, h1, h2, _, h4, h5⟩ := demo_manager .debug .tdata 4 (by norm_num) (by norm_num)
  have hfill : (Grid.newCart (fun _ => 3) (finLimits (fun _ => (0 : ℝ)) (fun _ => 1))).Fillable .debug := fillable_cart _ _ (isCart_new _ _ (fun _ => by norm_num))
  have hv : ∀ x ∈ d.samples Selector.default, ∀ a, velOf d.file x a = F.fin ((![3, 0, 4] : Fin 3 → ℝ) a) := by
    intro x hx a
    rw [h5] at hx
    rw [h2]
    simp only [List.mem_map, List.mem_range] at hx
    obtain ⟨t, _, rfl⟩ := hx
    fin_cases a <;> rfl
  refine ⟨d, ?_, ?_⟩
  · obtain ⟨d', g', e, h⟩ := C99_vectorfield .debug d h1 _ hfill (fun _ => ⟨rfl, rfl⟩) rfl Selector.default usable_default h4 (by rw [h5]; simp)
      (fun _ => ![3, 0, 4]) hv
    exact ⟨d', g', e, fun k => (h k).2⟩
  · obtain ⟨d', g', e, _, h⟩ := C99_velocityfield .debug d h1 _ hfill (fun _ => rfl) Selector.default usable_default h4 (by rw [h5]; simp) "x" _ rfl 0 9
      (fun _ => 3) (fun x hx => hv x hx 0)
    exact ⟨d', g', e, h⟩

/-! ### C100: counts -/

/-- The number of samples in a cell. -/
def countIn (p : Profile) (d : Dm (Timestep K)) (sel : Selector K) (g : Geom K) (c : CellId) : K :=
  (((d.samples sel).countP fun x => inCell p g (posOf d.file x) c : ℕ) : K)

/-- **C100, what `collapse` of `numberfield` gives.** The counts are weighted by themselves: the sum of their squares over their sum; NaN for an empty column. This is
never below the mean count per cell, and equal to it exactly if all cells of the column have the same count. -/
theorem C100_counts_partial [LawfulArith K] [ExactArith K] (p : Profile) (d : Dm (Timestep K)) (hd : d.Inv) (grid : Grid K)
    (hg : grid.Fillable p) (hfresh : ∀ c, grid.st.weight.get c = 0) (sel : Selector K) (hs : sel.Usable) (hw : ∀ t, t < d.n → (d.file t).Wf)
    (hlen : (d.samples sel).length ≤ 2 ^ 53) :
    ∃ d' g', numberfield p d grid sel = .ok (d', g') ∧ ∀ a : Fin 3, ∃ r, g'.collapse a = .ok r ∧ r.shape = (fun j => grid.geom.cells (a.succAbove j)) ∧
      ∀ idx, InB r.shape idx →
        let L := lineCells grid.geom.cells a idx
        let n := countIn p d sel grid.geom
        ((∑ c ∈ L, n c) = 0 → r.get idx = F.nan) ∧
        ((∑ c ∈ L, n c) ≠ 0 → ∃ y, r.get idx = fin y ∧ y = (∑ c ∈ L, n c * n c) / (∑ c ∈ L, n c) ∧ (∑ c ∈ L, n c) / (L.card : K) ≤ y ∧
          (y = (∑ c ∈ L, n c) / (L.card : K) ↔ ∀ c ∈ L, ∀ c' ∈ L, n c = n c')) := by
  obtain ⟨d', g', e, _, _, _, hgeo, hsh, hdat, hwt, _, _⟩ := C34_numberfield p d hd grid hg sel hs hw hlen
  refine ⟨d', g', e, fun a => ?_⟩
  have hwt := hwt hfresh
  have hD : FinOrNaN g'.st.data := fun c _ => Or.inr ⟨_, hdat c⟩
  have hW : FinNonneg g'.st.weight := fun c _ => ⟨_, by rw [hwt c, hdat c], Nat.cast_nonneg _⟩
  obtain ⟨r, er, h1, h2⟩ := C12_collapse g' (by rw [hsh.1, hsh.2]) hD hW a
  rw [hsh.1, hgeo] at h1 h2
  refine ⟨r, er, h1, fun idx hidx => ?_⟩
  intro L n
  have e1 : ∑ c ∈ L, val (g'.st.weight.get c) = ∑ c ∈ L, n c := Finset.sum_congr rfl fun c _ => by rw [hwt c, hdat c]; rfl
  have e2 : ∑ c ∈ L, val (g'.st.data.get c) * val (g'.st.weight.get c) = ∑ c ∈ L, n c * n c :=
    Finset.sum_congr rfl fun c _ => by rw [hwt c, hdat c]; rfl
  have h3 := (h2 idx hidx).1
  unfold weightedMean at h3
  rw [e1, e2] at h3
  refine ⟨fun h0 => by rw [h3, if_pos h0], fun h0 => ?_⟩
  rw [if_neg h0] at h3
  refine ⟨_, h3, rfl, ?_⟩
  have hn : ∀ c, 0 ≤ n c := fun c => Nat.cast_nonneg _
  have hpos : 0 < ∑ c ∈ L, n c := lt_of_le_of_ne (Finset.sum_nonneg fun c _ => hn c) (Ne.symm h0)
  have hL : L.Nonempty := by
    by_contra h
    rw [Finset.not_nonempty_iff_eq_empty] at h
    rw [h] at h0
    exact h0 rfl
  have hcard : (0 : K) < L.card := by exact_mod_cast hL.card_pos
  -- the sum of the squared differences
  have key : ∑ c ∈ L, ∑ c' ∈ L, (n c - n c') * (n c - n c') = 2 * ((L.card : K) * (∑ c ∈ L, n c * n c) - (∑ c ∈ L, n c) * ∑ c ∈ L, n c) := by
    have : ∀ c ∈ L, ∑ c' ∈ L, (n c - n c') * (n c - n c') = (L.card : K) * (n c * n c) - 2 * n c * (∑ c' ∈ L, n c') + ∑ c' ∈ L, n c' * n c' := by
      intro c _
      have : ∀ c' ∈ L, (n c - n c') * (n c - n c') = n c * n c - 2 * n c * n c' + n c' * n c' := fun c' _ => by ring
      rw [Finset.sum_congr rfl this, Finset.sum_add_distrib, Finset.sum_sub_distrib, Finset.sum_const, nsmul_eq_mul, ← Finset.mul_sum]
    rw [Finset.sum_congr rfl this, Finset.sum_add_distrib, Finset.sum_sub_distrib, ← Finset.mul_sum, ← Finset.sum_mul, ← Finset.mul_sum, Finset.sum_const]
    simp only [nsmul_eq_mul]
    ring
  have hnn : 0 ≤ ∑ c ∈ L, ∑ c' ∈ L, (n c - n c') * (n c - n c') := Finset.sum_nonneg fun c _ => Finset.sum_nonneg fun c' _ => mul_self_nonneg _
  constructor
  · rw [div_le_div_iff₀ hcard hpos]
    rw [key] at hnn
    linarith
  · rw [div_eq_div_iff hpos.ne' hcard.ne']
    constructor
    · intro h
      have hz : ∑ c ∈ L, ∑ c' ∈ L, (n c - n c') * (n c - n c') = 0 := by rw [key]; linear_combination 2 * h
      rw [Finset.sum_eq_zero_iff_of_nonneg fun c _ => Finset.sum_nonneg fun c' _ => mul_self_nonneg _] at hz
      intro c hc c' hc'
      have := hz c hc
      rw [Finset.sum_eq_zero_iff_of_nonneg fun c' _ => mul_self_nonneg _] at this
      exact sub_eq_zero.1 (mul_self_eq_zero.1 (this c' hc'))
    · intro h
      have hz : ∑ c ∈ L, ∑ c' ∈ L, (n c - n c') * (n c - n c') = 0 :=
        Finset.sum_eq_zero fun c hc => Finset.sum_eq_zero fun c' hc' => by rw [h c hc c' hc', sub_self, mul_zero]
      rw [key] at hz
      have h2 : (2 : K) ≠ 0 := two_ne_zero
      have := (mul_eq_zero.1 hz).resolve_left h2
      linarith

/-- **C100 is false of the code:** one particle in a grid of two cells per axis: the depth average of its `numberfield` says one particle per cell of the column,
where the mean over the two cells of the column is one half. -/
theorem C100_false : ∃ (d : Dm (Timestep ℝ)) (d' : Dm (Timestep ℝ)) (g' : Grid ℝ) (r : Arr 2 (F ℝ)), d.Inv ∧
    numberfield .debug d (Grid.newCart (fun _ => 2) (finLimits (fun _ => (0 : ℝ)) (fun _ => 1))) Selector.default = .ok (d', g') ∧
    g'.st.data.get (fun _ => 0) = fin 1 ∧ g'.st.data.get ![1, 0, 0] = fin 0 ∧ g'.collapse 0 = .ok r ∧ r.get (fun _ => 0) = fin 1 := by
  obtain ⟨d, _, h1, h2, h3, h4, h5⟩ := demo_manager .debug .tdata 1 (by norm_num) (by norm_num)
  set grid : Grid ℝ := Grid.newCart (fun _ => 2) (finLimits (fun _ => (0 : ℝ)) (fun _ => 1)) with hgrid
  have hfill : grid.Fillable .debug := fillable_cart _ _ (isCart_new _ _ (fun _ => by norm_num))
  obtain ⟨d', g', e, _, _, _, hgeo, hsh, hdat, hwt, _, _⟩ := C34_numberfield .debug d h1 grid hfill Selector.default usable_default h4 (by rw [h5]; simp)
  obtain ⟨d2, g2, e2, hc⟩ := C100_counts_partial .debug d h1 grid hfill (fun _ => rfl) Selector.default usable_default h4 (by rw [h5]; simp)
  rw [e] at e2
  injection e2 with e2
  injection e2 with ea eb
  subst ea eb
  obtain ⟨r, er, hr, hval⟩ := hc 0
  have hlook : ∀ c, inCell .debug grid.geom (posOf demoFile (0, 0)) c = decide ((fun _ => 0 : CellId) = c) := by
    intro c
    unfold inCell
    have hin : grid.geom.isInside (posOf demoFile (0, 0)) = true := by
      change CartGeom.isInside (CartGeom.new (fun _ => 2) (finLimits (fun _ => (0 : ℝ)) (fun _ => 1))) (posOf demoFile (0, 0)) = true
      refine (CartGeom.isInside_iff _ _).2 (fun a => ?_)
      simp [posOf, Timestep.pos, demoFile, CartGeom.new, finLimits]
    have hl : grid.geom.lookup .debug (posOf demoFile (0, 0)) = some (fun _ => 0) := by
      obtain ⟨c, ec, _⟩ := hfill.2 _ hin
      rw [Geom.lookup_eq ec]
      congr 1
      funext a
      refine (C03_cellId_ends .debug (CartGeom.new (fun _ => 2) (finLimits (fun _ => (0 : ℝ)) (fun _ => 1))) (fun _ => by norm_num [CartGeom.new]) _ c ec a).1 ?_
      simp [posOf, Timestep.pos, demoFile, CartGeom.new, finLimits]
    rw [hin, hl]
    simp
  have hcnt : ∀ c, countIn .debug d Selector.default grid.geom c = if (fun _ => 0 : CellId) = c then 1 else 0 := by
    intro c
    unfold countIn
    rw [h5, h2]
    simp only [List.range_one, List.map_cons, List.map_nil, List.countP_cons, List.countP_nil, hlook, decide_eq_true_eq]
    split_ifs <;> simp
  have hd2 : ∀ c, g'.st.data.get c = fin (if (fun _ => 0 : CellId) = c then 1 else 0) := by
    intro c
    rw [hdat c]
    exact congrArg fin (hcnt c)
  refine ⟨d, d', g', r, h1, e, by rw [hd2, if_pos rfl], ?_, er, ?_⟩
  · rw [hd2, if_neg]
    intro h
    have := congrFun h 0
    simp at this
  · obtain ⟨_, k⟩ := hval (fun _ => 0) (by rw [hr]; intro j; change 0 < 2; norm_num)
    have hmem : (fun _ => 0 : CellId) ∈ lineCells grid.geom.cells 0 (fun _ => 0) := by
      refine Finset.mem_filter.2 ⟨(mem_cellsOf _ _).2 (fun j => ?_), fun j => rfl⟩
      change 0 < 2; norm_num
    have s1 : ∑ c ∈ lineCells grid.geom.cells 0 (fun _ => 0), countIn .debug d Selector.default grid.geom c = 1 := by
      simp only [hcnt]
      rw [Finset.sum_ite_eq, if_pos hmem]
    have s2 : ∑ c ∈ lineCells grid.geom.cells 0 (fun _ => 0), countIn .debug d Selector.default grid.geom c * countIn .debug d Selector.default grid.geom c = 1 := by
      simp only [hcnt, mul_ite, one_mul, mul_one, mul_zero, zero_mul, ite_self]
      rw [Finset.sum_congr rfl (g := fun c => if (fun _ => 0 : CellId) = c then (1 : ℝ) else 0) (fun c _ => by split_ifs <;> rfl), Finset.sum_ite_eq, if_pos hmem]
    obtain ⟨y, hy, hy2, _⟩ := k (by rw [s1]; exact one_ne_zero)
    rw [hy, hy2, s1, s2, div_one]

end Up4
