import Verif.Props.Accumulate
import Verif.Proofs.Outlier

set_option linter.unusedSectionVars false

/-! # C17, C18: shape invariant, trajectories -/

namespace Up4
open F

variable {K : Type} [Field K] [LinearOrder K] [IsStrictOrderedRing K] [FloorRing K] [Arith K]

/-- The mutating operations of the scalar grid interface (src/grid.rs:20-139). -/
inductive GridOp (K : Type) where
  | addToCell (c : CellId) (v : F K)
  | addValue (pos : Pos K) (v : F K)
  | addTrajectoryValue (pos1 pos2 : Pos K) (v : F K)
  | divideByArray (o : Arr 3 (F K))
  | divideByScalar (v : F K)
  | divideByWeight
  | insert (pos : Pos K) (v : F K)
  | newZeros
  | setData (d : Arr 3 (F K))
  | setWeights (w : Arr 3 (F K))
  | outlierRemoval (thr : F K) (mode : ℕ)

/-- Perform one operation. -/
def GridOp.run (p : Profile) (g : Grid K) : GridOp K → Run (Grid K)
  | .addToCell c v => g.addToCell c v
  | .addValue pos v => g.addValue p pos v
  | .addTrajectoryValue a b v => g.addTrajectoryValue p a b v
  | .divideByArray o => g.divideByArray o
  | .divideByScalar v => .ok (g.divideByScalar v)
  | .divideByWeight => g.divideByWeight
  | .insert pos v => g.insert p pos v
  | .newZeros => .ok g.newZeros
  | .setData d => g.setData d
  | .setWeights w => g.setWeights w
  | .outlierRemoval t m => g.outlierRemoval p t m

/-- The divisor array of `divide_by_array` has the shape of the grid. -/
def GridOp.Fits (cells : CellId) : GridOp K → Prop
  | .divideByArray o => o.shape = cells
  | _ => True

theorem addAt_shape {s s' : Store K} {c : CellId} {v w : F K} (h : s.addAt c v w = .ok s') :
    s'.data.shape = s.data.shape ∧ s'.weight.shape = s.weight.shape := by
  unfold Store.addAt Arr.read Arr.write at h
  by_cases h1 : InB s.data.shape c
  · by_cases h2 : InB s.weight.shape c
    · simp only [h1, h2, if_true, run_bind_ok, run_pure] at h
      cases h; exact ⟨rfl, rfl⟩
    · simp only [h1, h2, if_true, if_false, run_bind_ok, run_bind_error] at h; cases h
  · simp only [h1, if_false, run_bind_error] at h; cases h

theorem foldlM_invariant {α σ : Type} (l : List α) (f : σ → α → Run σ) (P : σ → Prop)
    (hf : ∀ s a s', a ∈ l → P s → f s a = .ok s' → P s') {s s' : σ} (hs : P s) (h : l.foldlM f s = .ok s') :
    P s' := by
  induction l generalizing s with
  | nil => cases h; exact hs
  | cons a l ih =>
    rw [List.foldlM_cons] at h
    cases e : f s a with
    | error e' => rw [e] at h; cases h
    | ok t =>
      rw [e, run_bind_ok] at h
      exact ih (fun s a s' ha => hf s a s' (by simp [ha])) (hf s a t (by simp) hs e) h

theorem run_bind_inv {α β : Type} {x : Run α} {f : α → Run β} {b : β} (h : (x >>= f) = .ok b) :
    ∃ a, x = .ok a ∧ f a = .ok b := by
  cases x with
  | error e => cases h
  | ok a => exact ⟨a, rfl, h⟩

theorem addValue_shaped {p : Profile} {g g' : Grid K} (hs : g.Shaped) {pos : Pos K} {v : F K}
    (h : g.addValue p pos v = .ok g') : g'.geom = g.geom ∧ g'.Shaped := by
  unfold Grid.addValue at h
  obtain ⟨r, hr, h⟩ := run_bind_inv h
  cases r with
  | none => cases h; exact ⟨rfl, hs⟩
  | some c =>
    have key : ∀ {x : Run (Store K)}, (x = g.st.addAt c v 1) →
        (do let s ← x; pure ({ g with st := s } : Grid K)) = .ok g' → g'.geom = g.geom ∧ g'.Shaped := by
      intro x hx hh
      obtain ⟨s, h1, h2⟩ := run_bind_inv hh
      rw [hx] at h1
      cases h2
      have := addAt_shape h1
      exact ⟨rfl, this.1.trans hs.1, this.2.trans hs.2⟩
    dsimp only at h
    split at h
    · split_ifs at h
      · cases h; exact ⟨rfl, hs⟩
      · exact key rfl h
    · exact key rfl h

/-- **C17.** Each operation that does not panic keeps the geometry and the shape of both arrays. -/
theorem GridOp.run_shaped (p : Profile) {g g' : Grid K} (hs : g.Shaped) (op : GridOp K)
    (hfit : op.Fits g.geom.cells) (h : op.run p g = .ok g') : g'.geom = g.geom ∧ g'.Shaped := by
  cases op with
  | addToCell c v =>
    obtain ⟨s, h1, h2⟩ := run_bind_inv h
    cases h2
    have := addAt_shape h1
    exact ⟨rfl, this.1.trans hs.1, this.2.trans hs.2⟩
  | addValue pos v => exact addValue_shaped hs h
  | addTrajectoryValue a b v =>
    simp only [GridOp.run, Grid.addTrajectoryValue] at h
    split at h
    · obtain ⟨r, hr, h⟩ := run_bind_inv h
      cases r with
      | none => cases h; exact ⟨rfl, hs⟩
      | some x =>
        obtain ⟨ids, fr⟩ := x
        obtain ⟨s, h1, h2⟩ := run_bind_inv h
        cases h2
        have := foldlM_invariant _ _ (fun s : Store K => s.data.shape = g.geom.cells ∧ s.weight.shape = g.geom.cells)
          (fun s a s' _ hp he => by
            have := addAt_shape he
            exact ⟨this.1.trans hp.1, this.2.trans hp.2⟩) hs h1
        exact ⟨rfl, this⟩
    · exact addValue_shaped hs h
  | divideByArray o =>
    obtain ⟨s, h1, h2⟩ := run_bind_inv h
    cases h2
    obtain ⟨d, h3, h4⟩ := run_bind_inv h1
    cases h4
    obtain ⟨d', h5, h6, _⟩ := Arr.zipWith_same (· / ·) g.st.data o (hs.1.trans hfit.symm)
    rw [h5] at h3; cases h3
    exact ⟨rfl, h6.trans hs.1, hs.2⟩
  | divideByScalar v => cases h; exact ⟨rfl, hs⟩
  | divideByWeight =>
    obtain ⟨s, h1, h2⟩ := run_bind_inv h
    cases h2
    obtain ⟨d, h3, h4⟩ := run_bind_inv h1
    cases h4
    obtain ⟨d', h5, h6, _⟩ := Arr.zipWith_same (· / ·) g.st.data g.st.weight (hs.1.trans hs.2.symm)
    rw [h5] at h3; cases h3
    exact ⟨rfl, h6.trans hs.1, hs.2⟩
  | insert pos v =>
    obtain ⟨r, hr, h⟩ := run_bind_inv h
    cases r with
    | none => cases h; exact ⟨rfl, hs⟩
    | some c =>
      obtain ⟨d, h1, h2⟩ := run_bind_inv h
      cases h2
      unfold Arr.write at h1
      split_ifs at h1
      cases h1
      exact ⟨rfl, hs⟩
  | newZeros => cases h; exact ⟨rfl, rfl, hs.2⟩
  | setData d =>
    obtain ⟨s, h1, h2⟩ := run_bind_inv h
    cases h2
    unfold Store.setData at h1
    split_ifs at h1 with he
    cases h1
    exact ⟨rfl, he.symm.trans hs.1, hs.2⟩
  | setWeights w =>
    obtain ⟨s, h1, h2⟩ := run_bind_inv h
    cases h2
    unfold Store.setWeights at h1
    split_ifs at h1 with he
    cases h1
    exact ⟨rfl, hs.1, he.symm.trans hs.2⟩
  | outlierRemoval t m =>
    obtain ⟨s, h1, h2⟩ := run_bind_inv h
    cases h2
    unfold Store.outlierRemoval at h1
    split_ifs at h1
    · cases h1; exact ⟨rfl, hs⟩
    · cases h1; exact ⟨rfl, hs⟩
    · refine ⟨rfl, foldlM_invariant
        (P := fun s : Store K => s.data.shape = g.geom.cells ∧ s.weight.shape = g.geom.cells)
        (h := h1) (hf := ?_) (hs := ?_)⟩
      · intro s a s' _ hp he
        obtain ⟨y, _, h4⟩ := run_bind_inv he
        cases h4; exact hp
      · exact ⟨hs.1, hs.1⟩

/-- **C17.** After any history of grid operations that did not panic, starting from a constructed
Cartesian or cylindrical grid, geometry is untouched and `data` and `weight` still have exactly the
constructed shape (divisor arrays of the grid's shape). -/
theorem C17_shape (p : Profile) (g g' : Grid K) (cells : CellId) (lim : Limits K)
    (hg : g = Grid.newCart cells lim ∨ g = Grid.newCyl cells lim)
    (ops : List (GridOp K)) (hfit : ∀ op ∈ ops, op.Fits cells)
    (h : ops.foldlM (fun g op => op.run p g) g = .ok g') :
    g'.geom = g.geom ∧ g'.st.data.shape = cells ∧ g'.st.weight.shape = cells := by
  have hg0 : g.geom.cells = cells ∧ g.Shaped := by rcases hg with rfl | rfl <;> exact ⟨rfl, rfl, rfl⟩
  have := foldlM_invariant ops _ (fun x : Grid K => x.geom = g.geom ∧ x.Shaped)
    (fun s op s' hop hp he => by
      have := GridOp.run_shaped p hp.2 op (by rw [hp.1, hg0.1]; exact hfit op hop) he
      exact ⟨this.1.trans hp.1, this.2⟩) ⟨rfl, hg0.2⟩ h
  refine ⟨this.1, ?_, ?_⟩
  · rw [this.2.1, this.1, hg0.1]
  · rw [this.2.2, this.1, hg0.1]

/-- Witness for C17: a history with an add, a division by weight and mode-1 outlier removal succeeds. -/
example (lim : Limits ℝ) : ∃ g', ([.divideByWeight, .outlierRemoval 0 1, .newZeros] : List (GridOp ℝ)).foldlM
    (fun g op => op.run .release g) (Grid.newCart (fun _ => 3) lim) = .ok g' := by
  obtain ⟨d', h5, _⟩ := Arr.zipWith_same (· / ·) (Grid.newCart (fun _ => 3) lim).st.data
    (Grid.newCart (fun _ => 3) lim).st.weight rfl
  have e : (Grid.newCart (fun _ => 3) lim).divideByWeight =
      .ok { (Grid.newCart (fun _ => 3) lim) with st := ⟨d', (Grid.newCart (fun _ => 3) lim).st.weight⟩ } := by
    simp only [Grid.divideByWeight, Store.divideByWeight, h5]; rfl
  rw [List.foldlM_cons]
  simp only [GridOp.run, e]
  exact ⟨_, rfl⟩

/-- **C17, replacing contents.** `set_data`/`set_weights` with the grid's shape replace exactly the one
array; with another shape they panic. -/
theorem C17_set (g : Grid K) (hs : g.Shaped) (d : Arr 3 (F K)) :
    (d.shape = g.geom.cells →
      g.setData d = .ok { g with st := { g.st with data := d } } ∧
      g.setWeights d = .ok { g with st := { g.st with weight := d } }) ∧
    (d.shape ≠ g.geom.cells → g.setData d = .error .explicit ∧ g.setWeights d = .error .explicit) := by
  constructor
  · intro h
    constructor
    · unfold Grid.setData Store.setData; rw [if_pos (hs.1.trans h.symm)]; rfl
    · unfold Grid.setWeights Store.setWeights; rw [if_pos (hs.2.trans h.symm)]; rfl
  · intro h
    constructor
    · unfold Grid.setData Store.setData; rw [if_neg (fun e => h (e.symm.trans hs.1))]; rfl
    · unfold Grid.setWeights Store.setWeights; rw [if_neg (fun e => h (e.symm.trans hs.2))]; rfl

/-- The restriction on `divide_by_array` is needed: dividing a one-cell grid by a 2×2×2 array is
accepted (ndarray broadcasts) and leaves `data` with shape 2×2×2. -/
theorem C17_broadcast_breaks_shape (lim : Limits K) :
    ∃ g', (Grid.newCart (fun _ => 1) lim).divideByArray (Arr.const (fun _ => 2) 1) = .ok g' ∧
      g'.st.data.shape = fun _ => 2 := by
  have h : Arr.bcShape (Grid.newCart (K := K) (fun _ => 1) lim).st.data.shape
      (Arr.const (fun _ => 2) (1 : F K)).shape = .ok fun _ => 2 := by
    simp [Arr.bcShape, Grid.newCart, Store.zeros, Arr.const]
  unfold Grid.divideByArray Store.divideByArray Arr.zipWith
  rw [h]
  exact ⟨_, rfl, rfl⟩

/-! ### C18 -/

/-- The sum of a grid array over all cells (NaN and infinities count as 0). -/
def total (a : Arr 3 (F K)) : K := ∑ c ∈ cellsOf a.shape, val (a.get c)

theorem total_update [ExactArith K] (a : Arr 3 (F K)) {c : CellId} (hc : InB a.shape c) {x y : K}
    (hx : a.get c = fin x) : total { a with get := Function.update a.get c (a.get c + fin y) } = total a + y := by
  unfold total
  dsimp only
  have hmem := (mem_cellsOf _ _).2 hc
  rw [← Finset.add_sum_erase _ _ hmem, ← Finset.add_sum_erase (cellsOf a.shape) _ hmem]
  rw [Function.update_self, hx, eadd]
  rw [Finset.sum_congr rfl (fun d hd => by rw [Function.update_of_ne (Finset.ne_of_mem_erase hd)])]
  simp only [val]; ring

/-- Every in-bounds entry is finite. -/
def AllFin (a : Arr 3 (F K)) : Prop := ∀ c, InB a.shape c → ∃ x, a.get c = fin x

theorem allFin_update [ExactArith K] (a : Arr 3 (F K)) (ha : AllFin a) {c : CellId} (hc : InB a.shape c) (y : K) :
    AllFin { a with get := Function.update a.get c (a.get c + fin y) } := by
  intro d hd
  by_cases h : d = c
  · subst h
    obtain ⟨x, hx⟩ := ha d hd
    exact ⟨x + y, by dsimp only; rw [Function.update_self, hx, eadd]⟩
  · obtain ⟨x, hx⟩ := ha d hd
    exact ⟨x, by dsimp only; rw [Function.update_of_ne h, hx]⟩

theorem addTrajectoryValue_eq [LawfulArith K] (p : Profile) (g : Grid K) (hg : IsCart g) (a b : Pos K) (v : F K) :
    g.addTrajectoryValue p a b v = .ok (match g.geom.lookup p a, g.geom.lookup p b with
      | some c, some d => { g with st :=
          (g.st.bump c (v * F.lit (1 / 2)) (F.lit (1 / 2))).bump d (v * F.lit (1 / 2)) (F.lit (1 / 2)) }
      | _, _ => g) := by
  have hla := hg.lookupOk p a
  have hlb := hg.lookupOk p b
  obtain ⟨cg, hcg⟩ := hg.1
  have e1 := hla.cellId_eq
  have e2 := hlb.cellId_eq
  have ha : ∀ {c}, g.geom.lookup p a = some c → _ := fun h => hla.inB h
  have hb : ∀ {c}, g.geom.lookup p b = some c → _ := fun h => hlb.inB h
  unfold Grid.addTrajectoryValue Grid.cellIdsInTrajectory
  rw [hcg] at e1 e2 ha hb ⊢
  simp only [Geom.cellId] at e1 e2
  dsimp only
  rw [e1, run_bind_ok]
  have hs1 : g.st.data.shape = (Geom.cart cg).cells := by rw [← hcg]; exact hg.2.2.1
  have hs2 : g.st.weight.shape = (Geom.cart cg).cells := by rw [← hcg]; exact hg.2.2.2
  cases hc : (Geom.cart cg).lookup p a with
  | none => rfl
  | some c =>
    dsimp only
    rw [e2, run_bind_ok]
    cases hd : (Geom.cart cg).lookup p b with
    | none => rfl
    | some d =>
      have hc' := ha hc
      have hd' := hb hd
      simp only [run_pure, run_bind_ok, List.zip_cons_cons, List.zip_nil_right, List.foldlM_cons,
        List.foldlM_nil]
      rw [Store.addAt_ok _ (by rw [hs1]; exact hc') (by rw [hs2]; exact hc'), run_bind_ok,
        Store.addAt_ok _ (by change InB g.st.data.shape d; rw [hs1]; exact hd')
          (by change InB g.st.weight.shape d; rw [hs2]; exact hd')]
      rfl

/-- **C18.** `add_trajectory_value` on a Cartesian grid never panics.  If either end point is outside
nothing changes.  If both are inside, half of the value and half a weight go to the cell of each end
point (the second added after the first, any lawful rounding). -/
theorem C18_trajectory_cells [LawfulArith K] (p : Profile) (g : Grid K) (hg : IsCart g) (a b : Pos K) (v : F K) :
    ∃ g', g.addTrajectoryValue p a b v = .ok g' ∧ g'.geom = g.geom ∧ g'.Shaped ∧
      (¬ (InBox g.geom.limits a ∧ InBox g.geom.limits b) → g' = g) ∧
      (InBox g.geom.limits a → InBox g.geom.limits b →
        ∃ c d, g.cellId p a = .ok (some c) ∧ g.cellId p b = .ok (some d) ∧
          (∀ e, e ≠ c → e ≠ d → g'.st.data.get e = g.st.data.get e ∧ g'.st.weight.get e = g.st.weight.get e) ∧
          (c ≠ d →
            g'.st.data.get c = g.st.data.get c + v * fin (1 / 2) ∧
            g'.st.data.get d = g.st.data.get d + v * fin (1 / 2) ∧
            g'.st.weight.get c = g.st.weight.get c + fin (1 / 2) ∧
            g'.st.weight.get d = g.st.weight.get d + fin (1 / 2)) ∧
          (c = d →
            g'.st.data.get c = g.st.data.get c + v * fin (1 / 2) + v * fin (1 / 2) ∧
            g'.st.weight.get c = g.st.weight.get c + fin (1 / 2) + fin (1 / 2))) := by
  have hla := hg.lookupOk p a
  have hlb := hg.lookupOk p b
  obtain ⟨cg, hcg⟩ := hg.1
  have hcc : CellsOk cg.cells := by have := hg.2.1; rw [hcg] at this; exact this
  have sa := Geom.cart_lookup_isSome p cg hcc a
  have sb := Geom.cart_lookup_isSome p cg hcc b
  have hlim : cg.limits = g.geom.limits := by rw [hcg]; rfl
  rw [← hcg, hlim] at sa sb
  have hlit : (F.lit (1 / 2) : F K) = fin (1 / 2) := rnd_half
  refine ⟨_, addTrajectoryValue_eq p g hg a b v, ?_, ?_, ?_, ?_⟩
  · split <;> rfl
  · split <;> exact hg.2.2
  · intro h
    split
    · rename_i c d hc hd
      rw [hc] at sa; rw [hd] at sb
      exact absurd ⟨sa.1 rfl, sb.1 rfl⟩ h
    · rfl
  · intro ha hb
    obtain ⟨c, hc⟩ := Option.isSome_iff_exists.1 (sa.2 ha)
    obtain ⟨d, hd⟩ := Option.isSome_iff_exists.1 (sb.2 hb)
    refine ⟨c, d, ?_, ?_, ?_⟩
    · unfold Grid.cellId; rw [hla.cellId_eq, hc]
    · unfold Grid.cellId; rw [hlb.cellId_eq, hd]
    · rw [hc, hd, hlit]
      dsimp only [Store.bump]
      refine ⟨fun e h1 h2 => ?_, fun h => ?_, fun h => ?_⟩
      · simp [Function.update_of_ne h1, Function.update_of_ne h2]
      · have h' : d ≠ c := fun e => h e.symm
        simp [Function.update_of_ne h, Function.update_of_ne h']
      · subst h; simp

/-- **C18, totals.** Exact arithmetic, finite contents and a finite value: with both end points inside,
the total data grows by exactly the value and the total weight by exactly 1. -/
theorem C18_trajectory_totals [LawfulArith K] [ExactArith K] (p : Profile) (g : Grid K) (hg : IsCart g)
    (hd : AllFin g.st.data) (hw : AllFin g.st.weight) (a b : Pos K) (v : K)
    (ha : InBox g.geom.limits a) (hb : InBox g.geom.limits b) :
    ∃ g', g.addTrajectoryValue p a b (fin v) = .ok g' ∧
      total g'.st.data = total g.st.data + v ∧ total g'.st.weight = total g.st.weight + 1 ∧
      AllFin g'.st.data ∧ AllFin g'.st.weight := by
  have hla := hg.lookupOk p a
  have hlb := hg.lookupOk p b
  obtain ⟨cg, hcg⟩ := hg.1
  have hcc : CellsOk cg.cells := by have := hg.2.1; rw [hcg] at this; exact this
  have sa := Geom.cart_lookup_isSome p cg hcc a
  have sb := Geom.cart_lookup_isSome p cg hcc b
  have hlim : cg.limits = g.geom.limits := by rw [hcg]; rfl
  rw [← hcg, hlim] at sa sb
  obtain ⟨c, hc⟩ := Option.isSome_iff_exists.1 (sa.2 ha)
  obtain ⟨d, hdl⟩ := Option.isSome_iff_exists.1 (sb.2 hb)
  have hcb := hla.inB hc
  have hdb := hlb.inB hdl
  refine ⟨_, addTrajectoryValue_eq p g hg a b (fin v), ?_⟩
  rw [hc, hdl]
  have h12 : (F.lit (1 / 2) : F K) = fin (1 / 2) := elit _
  rw [h12, emul]
  dsimp only [Store.bump]
  have c1 : InB g.st.data.shape c := by rw [hg.2.2.1]; exact hcb
  have d1 : InB g.st.data.shape d := by rw [hg.2.2.1]; exact hdb
  have c2 : InB g.st.weight.shape c := by rw [hg.2.2.2]; exact hcb
  have d2 : InB g.st.weight.shape d := by rw [hg.2.2.2]; exact hdb
  have f1 := allFin_update g.st.data hd c1 (v * (1 / 2))
  have f2 := allFin_update g.st.weight hw c2 (1 / 2)
  obtain ⟨x1, hx1⟩ := hd c c1
  obtain ⟨x2, hx2⟩ := hw c c2
  obtain ⟨y1, hy1⟩ := f1 d d1
  obtain ⟨y2, hy2⟩ := f2 d d2
  have t1 := total_update g.st.data c1 (y := v * (1 / 2)) hx1
  have t2 := total_update g.st.weight c2 (y := (1 / 2)) hx2
  have t3 := total_update ⟨g.st.data.shape,
    Function.update g.st.data.get c (g.st.data.get c + fin (v * (1 / 2)))⟩ d1 (y := v * (1 / 2)) hy1
  have t4 := total_update ⟨g.st.weight.shape,
    Function.update g.st.weight.get c (g.st.weight.get c + fin (1 / 2))⟩ d2 (y := (1 / 2)) hy2
  refine ⟨?_, ?_, allFin_update _ f1 d1 _, allFin_update _ f2 d2 _⟩
  · rw [t3, t1]; ring
  · rw [t4, t2]; ring

/-- Witness for C18: contents of a fresh grid are finite. -/
example : AllFin (Grid.newCart (fun _ => 3) (finLimits (fun _ => (0 : ℝ)) (fun _ => 2))).st.data :=
  fun _ _ => ⟨0, rfl⟩

end Up4
