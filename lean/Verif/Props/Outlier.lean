import Verif.Proofs.Outlier
import Verif.RealArith

set_option linter.unusedSectionVars false

/-! # C15, C16: outlier removal -/

namespace Up4
open F

variable {K : Type} [Field K] [LinearOrder K] [IsStrictOrderedRing K] [FloorRing K] [Arith K]

/-- **C15.** Modes 0 and 1, any grid, any threshold (also NaN or infinite), any rounding, both profiles:
never panics; keeps geometry, weights and shape; replaces exactly the values greater than the threshold
by 0 (mode 0) or by the threshold (mode 1). -/
theorem C15_clamp (p : Profile) (g : Grid K) (thr : F K) (mode : ℕ) (hm : mode = 0 ∨ mode = 1) :
    ∃ g', g.outlierRemoval p thr mode = .ok g' ∧ g'.geom = g.geom ∧ g'.st.weight = g.st.weight ∧
      g'.st.data.shape = g.st.data.shape ∧
      ∀ c, (g.st.data.get c > thr → g'.st.data.get c = if mode = 0 then 0 else thr) ∧
        (¬ g.st.data.get c > thr → g'.st.data.get c = g.st.data.get c) := by
  rcases hm with rfl | rfl
  · refine ⟨_, rfl, rfl, rfl, rfl, fun c => ⟨fun h => ?_, fun h => ?_⟩⟩
    · exact if_pos h
    · exact if_neg h
  · refine ⟨_, rfl, rfl, rfl, rfl, fun c => ⟨fun h => ?_, fun h => ?_⟩⟩
    · exact if_pos h
    · exact if_neg h

theorem F.not_lt_self (a : F K) : ¬ a < a := by cases a <;> simp

/-- **C15.** With mode 1, or mode 0 and a nonnegative threshold, no value above the threshold remains,
and applying the operation again changes nothing. -/
theorem C15_bounded_idempotent (p : Profile) (g g' : Grid K) (thr : F K) (mode : ℕ)
    (hm : mode = 1 ∨ (mode = 0 ∧ 0 ≤ thr)) (h : g.outlierRemoval p thr mode = .ok g') :
    (∀ c, ¬ g'.st.data.get c > thr) ∧
      ∃ g'', g'.outlierRemoval p thr mode = .ok g'' ∧ g''.geom = g'.geom ∧
        g''.st.weight = g'.st.weight ∧ g''.st.data.Eqv g'.st.data := by
  have hm' : mode = 0 ∨ mode = 1 := by tauto
  obtain ⟨g1, e, _, _, _, h1⟩ := C15_clamp p g thr mode hm'
  rw [e] at h; cases h
  have hb : ∀ c, ¬ g'.st.data.get c > thr := by
    intro c
    by_cases hc : g.st.data.get c > thr
    · rw [(h1 c).1 hc]
      rcases hm with rfl | ⟨rfl, ht⟩
      · exact F.not_lt_self thr
      · exact F.not_lt_of_le' ht
    · rw [(h1 c).2 hc]; exact hc
  obtain ⟨g2, e2, hg2, hw2, hs2, h2⟩ := C15_clamp p g' thr mode hm'
  exact ⟨hb, g2, e2, hg2, hw2, hs2, fun i _ => (h2 i).2 (hb i)⟩

/-- Mode 0 with a negative threshold is *not* idempotent-safe: the zeros it writes are above it, but a
second run still writes the same zeros. -/
theorem C15_mode0_idempotent (p : Profile) (g g' : Grid K) (thr : F K)
    (h : g.outlierRemoval p thr 0 = .ok g') :
    ∃ g'', g'.outlierRemoval p thr 0 = .ok g'' ∧ g''.st.data.Eqv g'.st.data := by
  obtain ⟨g1, e, _, _, _, h1⟩ := C15_clamp p g thr 0 (Or.inl rfl)
  rw [e] at h; cases h
  obtain ⟨g2, e2, _, _, hs2, h2⟩ := C15_clamp p g' thr 0 (Or.inl rfl)
  refine ⟨g2, e2, hs2, fun i _ => ?_⟩
  by_cases hc : g'.st.data.get i > thr
  · rw [(h2 i).1 hc]
    by_cases hc0 : g.st.data.get i > thr
    · rw [(h1 i).1 hc0]
    · exact absurd (by rwa [(h1 i).2 hc0] at hc) hc0
  · exact (h2 i).2 hc

/-- **C15.** Every other mode panics. -/
theorem C15_unknown_mode (p : Profile) (g : Grid K) (thr : F K) (mode : ℕ) (hm : 2 < mode) :
    g.outlierRemoval p thr mode = .error .explicit := by
  unfold Grid.outlierRemoval Store.outlierRemoval
  rw [if_neg (by omega), if_neg (by omega), if_neg (by omega)]; rfl

theorem neighbours_release (idx : CellId) : ∃ l, Store.neighbours .release idx = .ok l :=
  ⟨_, neighbours_eq (p := .release) rfl rfl rfl⟩

theorem neighbours_pos (p : Profile) (idx : CellId) (h : ∀ a, 1 ≤ idx a ∧ idx a < usizeMod) :
    ∃ l, Store.neighbours p idx = .ok l :=
  ⟨_, neighbours_eq (usub_of_le p (h 0).1 (h 0).2) (usub_of_le p (h 1).1 (h 1).2)
    (usub_of_le p (h 2).1 (h 2).2)⟩

theorem neighbours_debug_zero (idx : CellId) (h : ∃ a, idx a = 0) :
    Store.neighbours .debug idx = .error .overflow := by
  unfold Store.neighbours
  by_cases h0 : idx 0 = 0
  · rw [show usub .debug (idx 0) 1 = .error .overflow by simp [usub, h0]]; rfl
  rw [show usub .debug (idx 0) 1 = .ok (idx 0 - 1) by simp only [usub]; rw [if_pos (by omega)], run_bind_ok]
  by_cases h1 : idx 1 = 0
  · rw [show usub .debug (idx 1) 1 = .error .overflow by simp [usub, h1]]; rfl
  rw [show usub .debug (idx 1) 1 = .ok (idx 1 - 1) by simp only [usub]; rw [if_pos (by omega)], run_bind_ok]
  obtain ⟨a, ha⟩ := h
  have h2 : idx 2 = 0 := by fin_cases a <;> first | exact absurd ha h0 | exact absurd ha h1 | exact ha
  rw [show usub .debug (idx 2) 1 = .error .overflow by simp [usub, h2]]; rfl

/-- The neighbours of `c` that `outlier_removal` averages over: grid cells touching `c` (not `c` itself)
whose value is not above the threshold. -/
def goodNeighbours (g : Grid K) (thr : F K) (c : CellId) : Finset CellId :=
  (cellsOf g.geom.cells).filter fun n =>
    n ≠ c ∧ (∀ a, n a ≤ c a + 1 ∧ c a ≤ n a + 1) ∧ ¬ g.st.data.get n > thr

theorem keep_good {g : Grid K} (hs : g.Shaped) (thr : F K) (c : CellId) :
    keepCells true g.st thr c = goodNeighbours g thr c := by
  ext n
  simp only [keepCells, nearCells, goodNeighbours, hs.1, Finset.mem_filter]
  tauto

/-- No panic happens if the profile is `release`, or no outlier has a zero coordinate. -/
def OutlierSafe (p : Profile) (g : Grid K) (thr : F K) : Prop :=
  p = .release ∨ ∀ c, InB g.geom.cells c → g.st.data.get c > thr → ∀ a, 1 ≤ c a

/-- **C16 (partial).** The full property: mode 2 never panics (both profiles, both coordinate systems)
and replaces each outlier by the mean of its non-outlier neighbours.  Proved, for Cartesian grids in
exact arithmetic with finite-or-NaN contents: in a release build, and in a debug build when no outlier
lies on a lower face, the call succeeds; every other cell keeps data and weight; an outlier gets the
mean of data and weight over its non-outlier neighbours — NaN if there are none or one of them is NaN —
and no value above a finite threshold remains.  Missing: debug builds with an outlier on a lower face
(they panic, `C16_debug_panics`), cylindrical grids (`C16_cyl_false`). -/
theorem C16_neighbour_mean_partial [ExactArith K] (p : Profile) (g : Grid K) (cg : CartGeom K)
    (hcart : g.geom = .cart cg) (hs : g.Shaped) (hm : ∀ a, g.geom.cells a < usizeMod)
    (hd : FinOrNaN g.st.data) (hw : FinOrNaN g.st.weight) (thr : F K) (hsafe : OutlierSafe p g thr) :
    ∃ g', g.outlierRemoval p thr 2 = .ok g' ∧ g'.geom = g.geom ∧ g'.Shaped ∧
      ∀ c, InB g.geom.cells c →
        (¬ g.st.data.get c > thr →
          g'.st.data.get c = g.st.data.get c ∧ g'.st.weight.get c = g.st.weight.get c) ∧
        (g.st.data.get c > thr →
          g'.st.data.get c =
            (if goodNeighbours g thr c = ∅ ∨ (∃ n ∈ goodNeighbours g thr c, g.st.data.get n = F.nan)
              then F.nan
              else F.fin ((∑ n ∈ goodNeighbours g thr c, val (g.st.data.get n)) /
                ((goodNeighbours g thr c).card : K))) ∧
          g'.st.weight.get c =
            (if goodNeighbours g thr c = ∅ ∨ (∃ n ∈ goodNeighbours g thr c, g.st.weight.get n = F.nan)
              then F.nan
              else F.fin ((∑ n ∈ goodNeighbours g thr c, val (g.st.weight.get n)) /
                ((goodNeighbours g thr c).card : K)))) ∧
        (thr.isFin = true → ¬ g'.st.data.get c > thr) := by
  have hw' : g.st.weight.shape = g.st.data.shape := hs.2.trans hs.1.symm
  have hm' : ∀ a, g.st.data.shape a < usizeMod := by rw [hs.1]; exact hm
  have hne : ∀ c, InB g.geom.cells c → g.st.data.get c > thr → ∃ l, Store.neighbours p c = .ok l := by
    intro c hc ho
    rcases hsafe with rfl | h
    · exact neighbours_release c
    · exact neighbours_pos p c fun a => ⟨h c hc ho a, (hc a).trans (hm a)⟩
  have hcell : ∀ c ∈ indices 3 g.st.data.shape, ∃ r, Store.outlierCell p true g.st thr c = .ok r := by
    intro c hc
    rw [mem_indices, hs.1] at hc
    by_cases ho : g.st.data.get c > thr
    · obtain ⟨l, hl⟩ := hne c hc ho
      exact ⟨_, outlierCell_exact p true g.st thr c hm' hw' hd hw (by rw [hs.1]; exact hc) ho hl⟩
    · exact ⟨_, by unfold Store.outlierCell; rw [if_neg ho]; rfl⟩
  classical
  choose! r hr using hcell
  obtain ⟨s', h1, h2, h3, h4⟩ := foldlM_update_ok (indices 3 g.st.data.shape) _ r hr
    ⟨Arr.const g.st.data.shape 0, Arr.const g.st.data.shape 0⟩
  refine ⟨{ g with st := s' }, ?_, rfl, ⟨?_, ?_⟩, fun c hc => ?_⟩
  · unfold Grid.outlierRemoval Store.outlierRemoval
    rw [if_neg (by norm_num), if_neg (by norm_num), if_pos rfl]
    have hb : (!g.geom.isCylindrical) = true := by rw [hcart]; rfl
    rw [hb, h1]; rfl
  · change s'.data.shape = _; rw [h2]; exact hs.1
  · change s'.weight.shape = _; rw [h3]; exact hs.1
  · have hci : c ∈ indices 3 g.st.data.shape := by rw [mem_indices, hs.1]; exact hc
    obtain ⟨e1, e2⟩ := (h4 c).1 hci
    have hrc := hr c hci
    change (_ → s'.data.get c = _ ∧ s'.weight.get c = _) ∧ (_ → s'.data.get c = _ ∧ s'.weight.get c = _) ∧
      (_ → ¬ s'.data.get c > thr)
    rw [e1, e2]
    by_cases ho : g.st.data.get c > thr
    · obtain ⟨l, hl⟩ := hne c hc ho
      have hx := outlierCell_exact p true g.st thr c hm' hw' hd hw (by rw [hs.1]; exact hc) ho hl
      dsimp only at hx
      rw [keep_good hs] at hx
      rw [hrc, Except.ok.injEq] at hx
      rw [hx]
      refine ⟨fun h => absurd ho h, fun _ => ⟨rfl, rfl⟩, fun hfin => ?_⟩
      dsimp only
      obtain ⟨t, rfl⟩ : ∃ t, thr = F.fin t := by cases thr <;> simp_all [F.isFin]
      split_ifs with hif
      · exact lt_nan _
      · rw [not_or] at hif
        set G := goodNeighbours g (F.fin t) c
        have hG : G.Nonempty := Finset.nonempty_iff_ne_empty.2 hif.1
        have hc0 : (0 : K) < G.card := by exact_mod_cast Finset.card_pos.2 hG
        have hle : ∑ n ∈ G, val (g.st.data.get n) ≤ ∑ _n ∈ G, t := by
          apply Finset.sum_le_sum
          intro n hn
          have hng : n ∈ G := hn
          simp only [G, goodNeighbours, Finset.mem_filter, mem_cellsOf] at hn
          rcases hd n (by rw [hs.1]; exact hn.1) with h | ⟨x, hx⟩
          · exact absurd ⟨n, hng, h⟩ hif.2
          · rw [hx]
            have h3 := hn.2.2.2
            rw [hx, gt_iff', lt_fin] at h3
            exact not_lt.1 h3
        rw [Finset.sum_const, nsmul_eq_mul] at hle
        rw [gt_iff', lt_fin, not_lt, div_le_iff₀ hc0, mul_comm]
        exact hle
    · have hx : Store.outlierCell p true g.st thr c = .ok (g.st.data.get c, g.st.weight.get c) := by
        unfold Store.outlierCell; rw [if_neg ho]; rfl
      rw [hrc, Except.ok.injEq] at hx
      rw [hx]
      exact ⟨fun _ => ⟨rfl, rfl⟩, fun h => absurd h ho, fun _ => ho⟩

/-- **C16 in debug builds.** Any outlier with a zero coordinate makes mode 2 panic with a subtraction
overflow (both coordinate systems, any rounding). -/
theorem C16_debug_panics (g : Grid K) (hs : g.Shaped) (thr : F K) (c : CellId)
    (hc : InB g.geom.cells c) (ho : g.st.data.get c > thr) (h0 : ∃ a, c a = 0) :
    g.outlierRemoval .debug thr 2 = .error .overflow := by
  unfold Grid.outlierRemoval Store.outlierRemoval
  rw [if_neg (by norm_num), if_neg (by norm_num), if_pos rfl]
  rw [foldlM_error _ _ .overflow c (by rw [mem_indices, hs.1]; exact hc)]
  · rfl
  · intro s
    unfold Store.outlierCell
    rw [if_pos ho, neighbours_debug_zero c h0]; rfl
  · intro y _ s e he
    unfold Store.outlierCell at he
    by_cases hy : g.st.data.get y > thr
    · rw [if_pos hy] at he
      by_cases hz : ∃ a, y a = 0
      · rw [neighbours_debug_zero y hz] at he
        cases he; rfl
      · have : ∃ l, Store.neighbours .debug y = .ok l := by
          have hp : ∀ a, usub .debug (y a) 1 = .ok (y a - 1) := by
            intro a
            have : y a ≠ 0 := fun h => hz ⟨a, h⟩
            simp only [usub]; rw [if_pos (by omega)]
          exact ⟨_, neighbours_eq (hp 0) (hp 1) (hp 2)⟩
        obtain ⟨l, hl⟩ := this
        rw [hl] at he; cases he
    · rw [if_neg hy] at he; cases he

/-- Witness for C16: a fresh 3×3×3 grid meets the structural hypotheses, and with a threshold below
its contents every cell is an outlier. -/
example : (Grid.newCart (fun _ => 3) (finLimits (fun _ => (0 : ℝ)) (fun _ => 2))).Shaped ∧
    FinOrNaN (Grid.newCart (fun _ => 3) (finLimits (fun _ => (0 : ℝ)) (fun _ => 2))).st.data ∧
    (Grid.newCart (fun _ => 3) (finLimits (fun _ => (0 : ℝ)) (fun _ => 2))).st.data.get (fun _ => 1) >
      F.fin (-1) :=
  ⟨⟨rfl, rfl⟩, fun _ _ => Or.inr ⟨0, rfl⟩, by
    rw [gt_iff']; change F.fin (-1 : ℝ) < F.fin 0; rw [lt_fin]; norm_num⟩

/-- **C16 is false for cylindrical grids**: they do not leave outliers out of the mean.  On a cylindrical
grid with two or more cells along some axis whose data are the constant `v > thr`, mode 2 (release build)
leaves every cell at `v`, above the threshold. -/
theorem C16_cyl_false [ExactArith K] (g : Grid K) (cg : CylGeom K) (hcyl : g.geom = .cyl cg)
    (hs : g.Shaped) (hm : ∀ a, g.geom.cells a < usizeMod) (hw : FinOrNaN g.st.weight) (v t : K) (hvt : t < v)
    (hd : ∀ c, InB g.geom.cells c → g.st.data.get c = F.fin v) (a : Fin 3) (ha : 2 ≤ g.geom.cells a) :
    ∃ g', g.outlierRemoval .release (F.fin t) 2 = .ok g' ∧
      ∀ c, InB g.geom.cells c → g'.st.data.get c = F.fin v ∧ g'.st.data.get c > F.fin t := by
  have hw' : g.st.weight.shape = g.st.data.shape := hs.2.trans hs.1.symm
  have hm' : ∀ a, g.st.data.shape a < usizeMod := by rw [hs.1]; exact hm
  have hd' : FinOrNaN g.st.data := fun i hi => Or.inr ⟨v, hd i (by rw [← hs.1]; exact hi)⟩
  have hcell : ∀ c ∈ indices 3 g.st.data.shape, ∃ r,
      Store.outlierCell .release false g.st (F.fin t) c = .ok r ∧ r.1 = F.fin v := by
    intro c hc
    rw [mem_indices] at hc
    have hc' := hc
    rw [hs.1] at hc'
    have ho : g.st.data.get c > F.fin t := by rw [hd c hc', gt_iff', lt_fin]; exact hvt
    obtain ⟨l, hl⟩ := neighbours_release c
    refine ⟨_, outlierCell_exact .release false g.st (F.fin t) c hm' hw' hd' hw hc ho hl, ?_⟩
    have hk : keepCells false g.st (F.fin t) c = nearCells g.st.data.shape c := by
      unfold keepCells; simp
    rw [hk]
    have hin : ∀ n ∈ nearCells g.st.data.shape c, g.st.data.get n = F.fin v := by
      intro n hn
      simp only [nearCells, Finset.mem_filter, mem_cellsOf, hs.1] at hn
      exact hd n hn.1
    have hne : nearCells g.st.data.shape c ≠ ∅ := by
      rw [← Finset.nonempty_iff_ne_empty]
      refine ⟨Function.update c a (if c a = 0 then 1 else c a - 1), ?_⟩
      have hca := hc' a
      simp only [nearCells, Finset.mem_filter, mem_cellsOf, hs.1]
      refine ⟨?_, ?_, ?_⟩
      · intro b
        by_cases hb : b = a
        · subst hb; rw [Function.update_self]; split_ifs <;> omega
        · rw [Function.update_of_ne hb]; exact hc' b
      · intro h
        have := congrFun h a
        rw [Function.update_self] at this
        split_ifs at this <;> omega
      · intro b
        by_cases hb : b = a
        · subst hb; rw [Function.update_self]; split_ifs <;> omega
        · rw [Function.update_of_ne hb]; omega
    have hc0 : ((nearCells g.st.data.shape c).card : K) ≠ 0 := by
      exact_mod_cast (Finset.card_pos.2 (Finset.nonempty_iff_ne_empty.2 hne)).ne'
    dsimp only
    rw [if_neg]
    · rw [Finset.sum_congr rfl (fun n hn => by rw [hin n hn])]
      simp only [val]
      rw [Finset.sum_const, nsmul_eq_mul, mul_div_cancel_left₀ _ hc0]
    · rintro (h | ⟨n, hn, h⟩)
      · exact hne h
      · rw [hin n hn] at h; cases h
  classical
  choose! r hr hr1 using hcell
  obtain ⟨s', h1, _, _, h4⟩ := foldlM_update_ok (indices 3 g.st.data.shape) _ r hr
    ⟨Arr.const g.st.data.shape 0, Arr.const g.st.data.shape 0⟩
  refine ⟨{ g with st := s' }, ?_, fun c hc => ?_⟩
  · unfold Grid.outlierRemoval Store.outlierRemoval
    rw [if_neg (by norm_num), if_neg (by norm_num), if_pos rfl]
    have hb : (!g.geom.isCylindrical) = false := by rw [hcyl]; rfl
    rw [hb, h1]; rfl
  · have hci : c ∈ indices 3 g.st.data.shape := by rw [mem_indices, hs.1]; exact hc
    have e := ((h4 c).1 hci).1
    rw [hr1 c hci] at e
    change s'.data.get c = _ ∧ s'.data.get c > _
    rw [e]
    exact ⟨rfl, by rw [gt_iff', lt_fin]; exact hvt⟩

end Up4
