import Verif.Props.CsvMulti
import Verif.Props.Velocity
import Verif.Props.Interpolate

set_option linter.unusedSectionVars false

/-! # C68, C69 with velocity computation -/

namespace Up4
open F
open Selector (at')

variable {K : Type} [Field K] [LinearOrder K] [IsStrictOrderedRing K] [FloorRing K] [Arith K]

/-! ### Specification -/

/-- `table` has, for each row of `src` with `h` rows on both sides, a row with its time and position and the velocity fitted (degree 2) to the window of
`2 h + 1` rows around it (as in C53). -/
def VelTable (lib : FitLib K) (h : ℕ) (src : List (Row4 K)) (table : List (Row7 K)) : Prop :=
  table.length = src.length - 2 * h ∧
    ∀ k, k < src.length - 2 * h → ∃ row r0 mid next, table[k]? = some row ∧ src[k]? = some r0 ∧ src[k + h]? = some mid ∧
      src[k + h + 1]? = some next ∧ row.t = mid.t ∧ row.p = mid.p ∧
      ∀ i c, lib.polyfit (windowTimes src k (2 * h + 1)) (windowCoords src k (2 * h + 1) i) 2 = some c → row.v i = polyDeriv lib c (next.t - r0.t)

/-- The fits for all windows of `2 h + 1` rows succeed. -/
def Fits (lib : FitLib K) (h : ℕ) (src : List (Row4 K)) : Prop :=
  ∀ k i, k < src.length - 2 * h → ∃ c, lib.polyfit (windowTimes src k (2 * h + 1)) (windowCoords src k (2 * h + 1) i) 2 = some c

theorem velTable_ok (lib : FitLib K) (h : ℕ) (hh : 1 ≤ h) (src : List (Row4 K)) (hN : 2 * h ≤ src.length) (hf : Fits lib h src) :
    ∃ table, velocityPolynom lib src (2 * h + 1) 2 = .ok table ∧ VelTable lib h src table := by
  obtain ⟨t, e, h1, h2⟩ := C53_rows_partial lib src h 2 hh hN hf
  exact ⟨t, e, h1, h2⟩

theorem VelTable.time {lib : FitLib K} {h : ℕ} {src : List (Row4 K)} {table : List (Row7 K)} (ht : VelTable lib h src table) (k : ℕ) (hk : k < table.length) :
    ∃ hk' : k + h < src.length, table[k].t = src[k + h].t := by
  obtain ⟨row, _, mid, _, h1, _, h3, _, h5, _⟩ := ht.2 k (by rw [← ht.1]; exact hk)
  obtain ⟨_, e1⟩ := List.getElem?_eq_some_iff.1 h1
  obtain ⟨h6, e2⟩ := List.getElem?_eq_some_iff.1 h3
  exact ⟨h6, by rw [e1, e2, h5]⟩

theorem VelTable.sorted {lib : FitLib K} {h : ℕ} {src : List (Row4 K)} {table : List (Row7 K)} (ht : VelTable lib h src table)
    (hn : ∀ r ∈ src, r.t ≠ nan) (hs : src.Pairwise fun a b => a.t ≤ b.t) : (∀ r ∈ table, r.t ≠ nan) ∧ table.Pairwise fun a b => a.t ≤ b.t := by
  constructor
  · intro r hr
    obtain ⟨k, hk, rfl⟩ := List.getElem_of_mem hr
    obtain ⟨h1, e⟩ := ht.time k hk
    rw [e]
    exact hn _ (List.getElem_mem h1)
  · rw [List.pairwise_iff_getElem]
    intro i j hi hj hij
    obtain ⟨h1, e1⟩ := ht.time i hi
    obtain ⟨h2, e2⟩ := ht.time j hj
    rw [e1, e2]
    exact List.pairwise_iff_getElem.1 hs _ _ h1 h2 (by omega)

/-! ### The tables of the trajectories -/

/-- The time of the last row of a trajectory. -/
def lastTime (s : List (Row7 K)) : F K := ((s.getLast?).map Row7.t).getD nan

theorem chainScan_stats (l pre cur : List (Row7 K)) (last : Row7 K) (hl : cur.getLast? = some last) (hpre : 0 < pre.length)
    (s : ChainState K) (S : List ℕ) (a : ℕ) (hs : s.starts = S ++ [a]) (ho : s.old = last.t) (ha : pre.length - a = cur.length) :
    (((l.map Row7.t).zipIdx pre.length).foldl chainLine s).durations = s.durations ++ (pieces cur last l).dropLast.map lastTime ∧
    (((l.map Row7.t).zipIdx pre.length).foldl chainLine s).lengths = s.lengths ++ (pieces cur last l).dropLast.map List.length := by
  induction l generalizing pre cur last s S a with
  | nil => simp [pieces]
  | cons x l ih =>
    rw [List.map_cons, List.zipIdx_cons, List.foldl_cons]
    unfold pieces
    have hlen : (pre ++ [x]).length = pre.length + 1 := by simp
    by_cases h : x.t < last.t
    · rw [if_pos h]
      have e : chainLine s (x.t, pre.length) = ⟨x.t, s.starts ++ [pre.length], s.durations ++ [s.old], s.lengths ++ [pre.length - s.starts.getLastD 0]⟩ := by
        unfold chainLine
        rw [if_pos ⟨hpre, by rw [ho]; exact h⟩]
      rw [e]
      obtain ⟨h1, h2⟩ := ih (pre ++ [x]) [x] x rfl (by omega)
        ⟨x.t, s.starts ++ [pre.length], s.durations ++ [s.old], s.lengths ++ [pre.length - s.starts.getLastD 0]⟩ s.starts pre.length rfl rfl (by simp)
      rw [hlen] at h1 h2
      obtain ⟨m, rest, ep⟩ := pieces_head [x] x l
      have hne : pieces [x] x l ≠ [] := by rw [ep]; simp
      rw [h1, h2, List.dropLast_cons_of_ne_nil hne, List.map_cons, List.map_cons]
      have e1 : lastTime cur = s.old := by unfold lastTime; rw [hl, ho]; rfl
      have e2 : pre.length - s.starts.getLastD 0 = cur.length := by rw [hs]; simpa using ha
      rw [e1, e2]
      simp
    · rw [if_neg h]
      have e : chainLine s (x.t, pre.length) = { s with old := x.t } := by
        unfold chainLine
        rw [if_neg (by rw [ho]; exact fun h' => h h'.2)]
      rw [e]
      obtain ⟨h1, h2⟩ := ih (pre ++ [x]) (cur ++ [x]) x (by simp) (by omega) { s with old := x.t } S a hs rfl (by
        have : 0 < cur.length := by
          cases cur with
          | nil => cases hl
          | cons _ _ => simp
        simp only [List.length_append, List.length_singleton]; omega)
      rw [hlen] at h1 h2
      exact ⟨h1, h2⟩

/-- The scan of the times finds the trajectories, their last times and their lengths. -/
theorem chainScan_full (rows : List (Row7 K)) (hne : rows ≠ []) :
    ∃ segs, Trajectories rows segs ∧ cuts rows ((chainScan (rows.map Row7.t)).starts ++ [rows.length]) = segs ∧
      (∀ b ∈ (chainScan (rows.map Row7.t)).starts, b ≤ rows.length) ∧ (chainScan (rows.map Row7.t)).durations = segs.dropLast.map lastTime ∧
      (chainScan (rows.map Row7.t)).lengths = segs.dropLast.map List.length := by
  cases rows with
  | nil => exact absurd rfl hne
  | cons x l =>
    unfold chainScan
    rw [List.map_cons, List.zipIdx_cons, List.foldl_cons]
    have e : chainLine ⟨0, [0], [], []⟩ (x.t, 0) = ⟨x.t, [0], [], []⟩ := by
      unfold chainLine
      rw [if_neg (by simp)]
    rw [e]
    obtain ⟨bs, h1, h2, h3⟩ := chainScan_fold (x :: l) l [x] rfl x rfl ⟨x.t, [0], [], []⟩ [] 0 rfl rfl (by simp)
    obtain ⟨h4, h5⟩ := chainScan_stats l [x] [x] x rfl (by simp) ⟨x.t, [0], [], []⟩ [] 0 rfl rfl rfl
    have ht := pieces_spec [x] x rfl (by simp) l
    refine ⟨pieces [x] x l, ht, ?_, ?_, ?_, ?_⟩
    · erw [h1]; exact h2
    · erw [h1]
      intro b hb
      rcases List.mem_cons.1 hb with rfl | hb
      · simp
      · exact h3 b hb
    · erw [h4]; rfl
    · erw [h5]; rfl

/-- The largest of 0 and the last times of the trajectories but the last. -/
def longestTime (segs : List (List (Row7 K))) : F K := (segs.dropLast.map lastTime).foldl (fun a b => if a > b then a else b) 0

/-- The largest number of rows of the trajectories but the last. -/
def longestRows (segs : List (List (Row7 K))) : ℕ := (segs.dropLast.map List.length).foldl (fun a b => if a > b then a else b) 0

theorem chainTables_gen (lib : FitLib K) (o : CsvOpts K) (rows : List (Row7 K)) (hne : rows ≠ []) :
    ∃ segs, Trajectories rows segs ∧ ∀ f : List (Row7 K) → List (Row7 K),
      (∀ seg ∈ usedOf segs, chainTable lib o (longestTime segs) (longestRows segs) seg = .ok (f seg)) → chainTables lib o rows = .ok ((usedOf segs).map f) := by
  obtain ⟨segs, ht, hc, hb, hd, hl⟩ := chainScan_full rows hne
  refine ⟨segs, ht, ?_⟩
  intro f hf
  unfold chainTables
  dsimp only
  rw [hd, hl]
  change (List.range ((chainScan (rows.map Row7.t)).starts.length - 1)).foldlM (fun acc idx => do
      let a ← at' ((chainScan (rows.map Row7.t)).starts ++ [rows.length]) idx
      let b ← at' ((chainScan (rows.map Row7.t)).starts ++ [rows.length]) (idx + 1)
      if b - a < 10 then pure acc
      else
        let table ← chainTable lib o (longestTime segs) (longestRows segs) ((rows.drop a).take (b - a))
        pure (acc ++ [table])) [] = _
  generalize longestTime segs = md at hf ⊢
  generalize longestRows segs = ms at hf ⊢
  generalize (chainScan (rows.map Row7.t)).starts = starts at hc hb ⊢
  have hlen : segs.length = starts.length := by rw [← hc, length_cuts]; simp
  have hget : ∀ k (hk : k < starts.length), ∃ a b, at' (starts ++ [rows.length]) k = .ok a ∧ at' (starts ++ [rows.length]) (k + 1) = .ok b ∧
      segs[k]? = some ((rows.drop a).take (b - a)) ∧ ((rows.drop a).take (b - a)).length = b - a := by
    intro k hk
    have h1 : k < (starts ++ [rows.length]).length := by simp; omega
    have h2 : k + 1 < (starts ++ [rows.length]).length := by simp; omega
    refine ⟨_, _, at_some h1, at_some h2, by rw [← hc]; exact cuts_get rows _ k h2, ?_⟩
    have : (starts ++ [rows.length])[k + 1] ≤ rows.length := by
      have := List.getElem_mem h2
      rcases List.mem_append.1 this with h | h
      · exact hb _ h
      · rw [List.mem_singleton] at h; exact le_of_eq h
    rw [List.length_take, List.length_drop]
    omega
  have key : ∀ m, m ≤ starts.length - 1 → (List.range m).foldlM (fun acc idx => do
      let a ← at' (starts ++ [rows.length]) idx
      let b ← at' (starts ++ [rows.length]) (idx + 1)
      if b - a < 10 then pure acc
      else
        let table ← chainTable lib o md ms ((rows.drop a).take (b - a))
        pure (acc ++ [table])) [] = (.ok (((segs.take m).filter fun s => decide (10 ≤ s.length)).map f) : Run (List (List (Row7 K)))) := by
    intro m
    induction m with
    | zero => intro _; rfl
    | succ m ih =>
      intro hm
      obtain ⟨a, b, e1, e2, e3, e4⟩ := hget m (by omega)
      rw [List.range_succ, List.foldlM_append, ih (by omega), run_bind_ok, List.foldlM_cons, e1, run_bind_ok, e2, run_bind_ok, List.take_add_one, e3,
        List.filter_append]
      by_cases h10 : b - a < 10
      · rw [if_pos h10, run_pure, run_bind_ok, List.foldlM_nil, run_pure]
        simp only [Option.toList_some]
        rw [List.filter_cons_of_neg (by rw [e4]; simpa using h10), List.filter_nil, List.append_nil]
      · have et := hf ((rows.drop a).take (b - a)) (by
          unfold usedOf
          rw [List.mem_filter, List.dropLast_eq_take]
          refine ⟨?_, by rw [e4]; simp; omega⟩
          exact List.mem_iff_getElem?.2 ⟨m, by rw [List.getElem?_take_of_lt (by omega)]; exact e3⟩)
        rw [if_neg h10, et, run_bind_ok, run_pure, run_bind_ok, List.foldlM_nil, run_pure]
        simp only [Option.toList_some]
        rw [List.filter_cons_of_pos (by rw [e4]; simp; omega), List.filter_nil, List.map_append]
        rfl
  rw [key _ (by omega)]
  unfold usedOf
  rw [List.dropLast_eq_take, hlen]

/-! ### C68 with velocity computation -/

/-- A row without velocity. -/
def wide (r : Row4 K) : Row7 K := ⟨r.t, r.p, fun _ => nan⟩

theorem traj_sorted {rows : List (Row7 K)} {segs : List (List (Row7 K))} (h : Trajectories rows segs) (ht : ∀ r ∈ rows, r.t ≠ nan)
    (s : List (Row7 K)) (hs : s ∈ usedOf segs) : 10 ≤ s.length ∧ (∀ r ∈ s, r.t ≠ nan) ∧ s.Pairwise fun a b => a.t ≤ b.t := by
  obtain ⟨h1, h2⟩ := List.mem_filter.1 hs
  have hm := List.dropLast_subset _ h1
  have hn : ∀ r ∈ s, r.t ≠ nan := fun r hr => ht r (by rw [← h.all]; exact List.mem_flatten.2 ⟨s, hm, hr⟩)
  exact ⟨by simpa using h2, hn, chain_pairwise hn (h.inside s hm)⟩

theorem exists_fun_forall {α β : Type} [Nonempty β] {P : α → β → Prop} (l : List α) (h : ∀ a ∈ l, ∃ b, P a b) : ∃ f : α → β, ∀ a ∈ l, P a (f a) := by
  classical
  refine ⟨fun a => if ha : a ∈ l then (h a ha).choose else Classical.arbitrary β, fun a ha => ?_⟩
  dsimp only
  rw [dif_pos ha]
  exact (h a ha).choose_spec

/-- **C68, velocity computation.** A file with the columns time, x, y, z and one trajectory after the other, converted with velocity computation and
without interpolation: each trajectory of at least ten (and fewer than 200000) rows, except the last, becomes one particle of the output, in order; its table
has a row for each row of the trajectory with four rows on both sides, with its time and position and the velocity fitted to these nine rows. The
conversion fails exactly if some table does not meet `TableOk`. Missing: as for `C68_chain_partial`, and the fits must exist. -/
theorem C68_velocity_partial (lib : FitLib K) (o : CsvOpts K) (hv : o.vel = true) (hi : o.interp = false) (h4 : o.cols.length = 4)
    (raw : List (List (F K))) (rows : List (Row4 K)) (hrow : List.Forall₂ (PosOf o.cols) raw rows) (ht : ∀ r ∈ rows, r.t ≠ nan) (hne : rows ≠ []) :
    ∃ segs, Trajectories (rows.map wide) segs ∧
      ((∀ s ∈ usedOf segs, s.length < 200000 ∧ Fits lib 4 (s.map Row7.four)) →
        ∃ tables, List.Forall₂ (fun s t => VelTable lib 4 (s.map Row7.four) t) (usedOf segs) tables ∧
          ((∃ out, chainConvert lib o raw = .ok out) ↔ ∀ t ∈ tables, TableOk t) ∧
          ∀ out, chainConvert lib o raw = .ok out →
            List.Forall₂ (fun t g => GroupHolds o.radius none 1 t g) tables out.groups ∧ out.attrs.np = 1 ∧
            out.attrs.n = tables.foldl (fun m t => max m t.length) 0) := by
  have ht' : ∀ r ∈ rows.map wide, r.t ≠ nan := by
    intro r hr
    obtain ⟨x, hx, rfl⟩ := List.mem_map.1 hr
    exact ht x hx
  obtain ⟨segs, htr, hgen⟩ := chainTables_gen lib o (rows.map wide) (by simpa using hne)
  refine ⟨segs, htr, fun hfit => ?_⟩
  have hex : ∀ s ∈ usedOf segs, ∃ t, velocityPolynom lib (s.map Row7.four) 9 2 = .ok t ∧ VelTable lib 4 (s.map Row7.four) t := by
    intro s hs
    obtain ⟨h10, _, _⟩ := traj_sorted htr ht' s hs
    exact velTable_ok lib 4 (by omega) _ (by rw [List.length_map]; omega) (hfit s hs).2
  obtain ⟨f, hf⟩ := exists_fun_forall _ hex
  have e := hgen f (by
    intro s hs
    unfold chainTable
    rw [if_neg (by rw [hi]; decide), if_pos hv, if_neg (by omega), if_pos (hfit s hs).1]
    exact (hf s hs).1)
  have hn : ∀ t ∈ (usedOf segs).map f, (∀ r ∈ t, r.t ≠ nan) ∧ t.Pairwise fun a b => a.t ≤ b.t := by
    intro t h
    obtain ⟨s, hs, rfl⟩ := List.mem_map.1 h
    obtain ⟨_, h1, h2⟩ := traj_sorted htr ht' s hs
    refine (hf s hs).2.sorted ?_ ?_
    · intro r hr
      obtain ⟨x, hx, rfl⟩ := List.mem_map.1 hr
      exact h1 x hx
    · exact List.pairwise_map.2 h2
  obtain ⟨w1, w2⟩ := multiWrite_spec o.radius none (fun _ => (1 : F K)) ((usedOf segs).map f) hn
  have hck : chainConvert lib o raw = multiWrite o.radius none (fun _ => 1) ((usedOf segs).map f) := by
    unfold chainConvert
    rw [pickColumns_four o.cols h4 raw rows hrow, run_bind_ok]
    change chainTables lib o (rows.map wide) >>= _ = _
    rw [e, run_bind_ok]
  rw [hck]
  refine ⟨(usedOf segs).map f, ?_, w1, ?_⟩
  · rw [List.forall₂_map_right_iff, List.forall₂_same]
    exact fun s hs => (hf s hs).2
  intro out ho
  obtain ⟨a, b⟩ := w2 out ho
  refine ⟨?_, b⟩
  rw [List.forall₂_iff_get] at a ⊢
  refine ⟨by simpa using a.1, fun i h1 h2 => ?_⟩
  have := a.2 i (by simpa using h1) h2
  simpa using this

/-! ### C68 with interpolation -/

theorem longestTime_spec (segs : List (List (Row7 K))) (hn : ∀ s ∈ segs.dropLast, lastTime s ≠ nan) :
    longestTime segs ≠ nan ∧ 0 ≤ longestTime segs ∧ (∀ s ∈ segs.dropLast, lastTime s ≤ longestTime segs) ∧
      (longestTime segs = 0 ∨ ∃ s ∈ segs.dropLast, longestTime segs = lastTime s) := by
  unfold longestTime
  generalize segs.dropLast = l at hn
  have h0 : (0 : F K) ≠ nan := by rw [F.zero_def]; simp
  suffices ∀ m : F K, m ≠ nan → (l.map lastTime).foldl (fun a b => if a > b then a else b) m ≠ nan ∧
      m ≤ (l.map lastTime).foldl (fun a b => if a > b then a else b) m ∧
      (∀ s ∈ l, lastTime s ≤ (l.map lastTime).foldl (fun a b => if a > b then a else b) m) ∧
      ((l.map lastTime).foldl (fun a b => if a > b then a else b) m = m ∨ ∃ s ∈ l, (l.map lastTime).foldl (fun a b => if a > b then a else b) m = lastTime s) from
    this 0 h0
  induction l with
  | nil => intro m hm; exact ⟨hm, F.le_refl' hm, by simp, Or.inl rfl⟩
  | cons x l ih =>
    intro m hm
    have hx := hn x (by simp)
    rw [List.map_cons, List.foldl_cons]
    have hl : ∀ s ∈ l, lastTime s ≠ nan := fun s hs => hn s (by simp [hs])
    by_cases h : lastTime x < m
    · rw [if_pos h]
      obtain ⟨a, b, c, d⟩ := ih hl m hm
      refine ⟨a, b, ?_, ?_⟩
      · intro s hs
        rcases List.mem_cons.1 hs with rfl | hs
        · exact F.le_trans' (F.le_of_lt' h) b
        · exact c s hs
      · rcases d with d | ⟨s, hs, d⟩
        · exact Or.inl d
        · exact Or.inr ⟨s, by simp [hs], d⟩
    · rw [if_neg h]
      obtain ⟨a, b, c, d⟩ := ih hl (lastTime x) hx
      refine ⟨a, F.le_trans' ((F.lt_or_le' hx hm).resolve_left h) b, ?_, ?_⟩
      · intro s hs
        rcases List.mem_cons.1 hs with rfl | hs
        · exact b
        · exact c s hs
      · rcases d with d | ⟨s, hs, d⟩
        · exact Or.inr ⟨x, by simp, d⟩
        · exact Or.inr ⟨s, by simp [hs], d⟩

theorem longestRows_spec (segs : List (List (Row7 K))) : (∀ s ∈ segs.dropLast, s.length ≤ longestRows segs) ∧
    (longestRows segs = 0 ∨ ∃ s ∈ segs.dropLast, longestRows segs = s.length) := by
  unfold longestRows
  have e : ∀ (l : List ℕ) (m : ℕ), l.foldl (fun a b => if a > b then a else b) m = l.foldl (fun a b => max a b) m := by
    intro l
    induction l with
    | nil => intro m; rfl
    | cons x l ih =>
      intro m
      rw [List.foldl_cons, List.foldl_cons, ih]
      congr 1
      split_ifs <;> omega
  rw [e, List.foldl_map]
  obtain ⟨_, h2, h3⟩ := foldl_max_ge List.length segs.dropLast 0
  exact ⟨h2, h3⟩

/-- The interpolated table (C51): first and last row of the source; at the times `k * (maxTime / steps)` between them a row on the line through two rows of
the source, or one without position. -/
def InterpTable (src : List (Row4 K)) (maxTime : F K) (steps : ℕ) (out : List (Row4 K)) : Prop :=
  out.length = steps ∧ out[0]? = src.head? ∧ out[steps - 1]? = src.getLast? ∧
    ∀ k, 0 < k → k < steps - 1 → ∃ row, out[k]? = some row ∧ row.t = F.ofNat k * (maxTime / F.ofNat steps) ∧
      ((∀ i, row.p i = nan) ∨ ∃ j a b, src[j]? = some a ∧ src[j + 2]? = some b ∧ F.eqB a.t b.t = false ∧ OnLine a b row.t row.p)

theorem ofNat_small [LawfulArith K] (n : ℕ) (h : n ≤ 2 ^ 53) : (F.ofNat n : F K) = fin (n : K) := by
  unfold F.ofNat
  have := LawfulArith.rnd_dyadic (K := K) n 0 h (by omega)
  simpa using this

/-- The times of the interpolated rows do not go back. -/
theorem steps_mono [LawfulArith K] (T : F K) (hT : T ≠ nan) (h0 : 0 ≤ T) (n : ℕ) (hn : 0 < n) (hn' : n ≤ 2 ^ 53) (j k : ℕ) (hj : 0 < j) (hjk : j ≤ k) (hk : k ≤ 2 ^ 53) :
    F.ofNat j * (T / F.ofNat n) ≠ nan ∧ F.ofNat j * (T / F.ofNat n) ≤ F.ofNat k * (T / F.ofNat n) := by
  have hnK : (0 : K) < n := by exact_mod_cast hn
  have hjK : (0 : K) < j := by exact_mod_cast hj
  have hkK : (0 : K) < k := by exact_mod_cast (lt_of_lt_of_le hj hjk)
  rw [ofNat_small n hn', ofNat_small j (by omega), ofNat_small k hk]
  have hd : (∃ d : K, 0 ≤ d ∧ T / fin (n : K) = fin d) ∨ T / fin (n : K) = pinf := by
    cases T with
    | nan => exact absurd rfl hT
    | ninf => rw [F.zero_def] at h0; cases h0
    | pinf =>
      right
      change F.div pinf (fin (n : K)) = pinf
      unfold F.div
      simp [hnK.le]
    | fin x =>
      rw [F.zero_def, F.le_fin] at h0
      have e : (fin x / fin (n : K) : F K) = Arith.rnd (x / n) := by rw [F.div_fin, if_neg hnK.ne']
      rw [e]
      have hge : (fin 0 : F K) ≤ Arith.rnd (x / n) := by
        have := LawfulArith.rnd_mono (K := K) 0 (x / n) (div_nonneg h0 hnK.le)
        rwa [F.rnd_zero] at this
      cases hr : (Arith.rnd (x / n) : F K) with
      | nan => exact absurd hr (LawfulArith.rnd_ne_nan _)
      | ninf => rw [hr] at hge; cases hge
      | pinf => exact Or.inr rfl
      | fin d => rw [hr, F.le_fin] at hge; exact Or.inl ⟨d, hge, rfl⟩
  rcases hd with ⟨d, hd, e⟩ | e
  · rw [e]
    change Arith.rnd ((j : K) * d) ≠ nan ∧ (Arith.rnd ((j : K) * d) : F K) ≤ Arith.rnd ((k : K) * d)
    refine ⟨LawfulArith.rnd_ne_nan _, LawfulArith.rnd_mono _ _ (mul_le_mul_of_nonneg_right ?_ hd)⟩
    exact_mod_cast hjk
  · rw [e]
    have e1 : ∀ x : K, 0 < x → (fin x * pinf : F K) = pinf := by
      intro x hx
      change F.mul (fin x) pinf = pinf
      unfold F.mul F.infTimes
      simp [hx]
    rw [e1 _ hjK, e1 _ hkK]
    exact ⟨by simp, F.le_refl' (by simp)⟩

theorem interpVel_gen [LawfulArith K] (lib : FitLib K) (h : ℕ) (hh : 1 ≤ h) (src : List (Row4 K)) (T : F K) (n : ℕ) (hs : src.Pairwise fun a b => a.t ≤ b.t) (hne : src ≠ [])
    (hT : T ≠ nan) (h0 : 0 ≤ T) (hn : 2 * h ≤ n) (hn' : n ≤ 2 ^ 53) (hf : ∀ tab, interpolate src T n = .ok tab → Fits lib h tab) :
    ∃ tab table, interpolate src T n = .ok tab ∧ velocityPolynom lib tab (2 * h + 1) 2 = .ok table ∧ InterpTable src T n tab ∧ VelTable lib h tab table ∧
      (∀ r ∈ table, r.t ≠ nan) ∧ table.Pairwise fun a b => a.t ≤ b.t := by
  obtain ⟨tab, e, hl, ht⟩ := C51_table_partial src T n (List.pairwise_map.2 hs) hne (by omega)
  obtain ⟨table, e', hv⟩ := velTable_ok lib h hh tab (by omega) (hf tab e)
  have htime : ∀ k (hk : k < table.length), table[k].t = F.ofNat (k + h) * (T / F.ofNat n) := by
    intro k hk
    obtain ⟨h1, e1⟩ := hv.time k hk
    have := hv.1
    obtain ⟨row, hr, hrt, _⟩ := ht.2.2 (k + h) (by omega) (by omega)
    rw [List.getElem?_eq_getElem h1] at hr
    cases hr
    rw [e1, hrt]
  refine ⟨tab, table, e, e', ⟨hl, ht⟩, hv, ?_, ?_⟩
  · intro r hr
    obtain ⟨k, hk, rfl⟩ := List.getElem_of_mem hr
    rw [htime k hk]
    have := hv.1
    exact (steps_mono T hT h0 n (by omega) hn' (k + h) (k + h) (by omega) (le_refl _) (by omega)).1
  · rw [List.pairwise_iff_getElem]
    intro i j hi hj hij
    rw [htime i hi, htime j hj]
    have := hv.1
    exact (steps_mono T hT h0 n (by omega) hn' (i + h) (j + h) (by omega) (by omega) (by omega)).2

theorem interpVel_ok [LawfulArith K] (lib : FitLib K) (src : List (Row4 K)) (T : F K) (n : ℕ) (hs : src.Pairwise fun a b => a.t ≤ b.t) (hne : src ≠ [])
    (hT : T ≠ nan) (h0 : 0 ≤ T) (hn : 10 ≤ n) (hn' : n ≤ 2 ^ 53) (hf : ∀ tab, interpolate src T n = .ok tab → Fits lib 4 tab) :
    ∃ tab table, interpolate src T n = .ok tab ∧ velocityPolynom lib tab 9 2 = .ok table ∧ InterpTable src T n tab ∧ VelTable lib 4 tab table ∧
      (∀ r ∈ table, r.t ≠ nan) ∧ table.Pairwise fun a b => a.t ≤ b.t := interpVel_gen lib 4 (by omega) src T n hs hne hT h0 (by omega) hn' hf

/-! ### C66 with interpolation -/

/-- **C66, interpolation.** A file with the columns time, x, y, z and finite times in order, converted with interpolation and velocity computation with an
odd window of `2 h + 1` rows: the times are shifted to begin at 0, the rows are replaced by as many interpolated rows at equidistant times up to the last one,
and the table has, for each of these with `h` rows on both sides, its time and position and the velocity fitted for it. The conversion succeeds exactly if the
first velocity is not NaN, at most 500 rows have a time of 0 or less and no positive time occurs more than 501 times; the output then holds the first row of
each positive time. -/
theorem C66_interpolated [LawfulArith K] (lib : FitLib K) (o : CsvOpts K) (hv : o.vel = true) (hi : o.interp = true) (h4 : o.cols.length = 4)
    (h : ℕ) (hh : 1 ≤ h) (hs : o.sampling = 2 * h + 1)
    (raw : List (List (F K))) (rows : List (Row4 K)) (hrow : List.Forall₂ (PosOf o.cols) raw rows) (hinc : rows.Pairwise fun a b => a.t ≤ b.t)
    (first last : Row4 K) (hfirst : rows.head? = some first) (hlast : rows.getLast? = some last) (hfin : ∀ r ∈ rows, ∃ x, r.t = fin x)
    (hN : 2 * h ≤ rows.length) (hlen : rows.length ≤ 2 ^ 53)
    (hfit : ∀ tab, interpolate (rows.map fun r => ⟨r.t - first.t, r.p⟩) (last.t - first.t) rows.length = .ok tab → Fits lib h tab) :
    ∃ tab table, InterpTable (rows.map fun r => ⟨r.t - first.t, r.p⟩) (last.t - first.t) rows.length tab ∧ VelTable lib h tab table ∧
      ((∃ out, csvConvert lib o raw = .ok out) ↔ (∃ r, table.head? = some r ∧ r.v 2 ≠ nan) ∧ table.countP (fun x => decide (x.t ≤ 0)) ≤ 500 ∧
        ∀ r ∈ table, 0 < r.t → table.countP (fun x => decide (x.t = r.t)) ≤ 501) ∧
      ∀ out, csvConvert lib o raw = .ok out → ∃ kept, Kept table kept ∧ HoldsRows o.radius kept out := by
  have hne : rows ≠ [] := by rintro rfl; cases hfirst
  have hfm := List.mem_of_head? hfirst
  obtain ⟨f0, ef⟩ := hfin first hfm
  have hsub : ∀ x : K, (fin x - fin f0 : F K) = Arith.rnd (x - f0) := fun x => F.sub_fin x f0
  have hmono : ∀ a ∈ rows, ∀ b ∈ rows, a.t ≤ b.t → a.t - first.t ≤ b.t - first.t := by
    intro a ha b hb hab
    obtain ⟨x, ex⟩ := hfin a ha
    obtain ⟨y, ey⟩ := hfin b hb
    rw [ex, ey, F.le_fin] at hab
    rw [ex, ey, ef, hsub, hsub]
    exact LawfulArith.rnd_mono _ _ (by linarith)
  have hsorted : (rows.map fun r => (⟨r.t - first.t, r.p⟩ : Row4 K)).Pairwise fun a b => a.t ≤ b.t := by
    rw [List.pairwise_map]
    exact hinc.imp_of_mem fun ha hb hab => hmono _ ha _ hb hab
  have hlm : last ∈ rows := List.mem_of_getLast? hlast
  have hfl : first.t ≤ last.t := by
    obtain ⟨l', rfl⟩ := List.getLast?_eq_some_iff.1 hlast
    cases l' with
    | nil =>
      rw [List.nil_append, List.head?_cons] at hfirst
      cases hfirst
      exact F.le_refl' (by rw [ef]; simp)
    | cons x l' =>
      rw [List.cons_append, List.head?_cons] at hfirst
      cases hfirst
      exact (List.pairwise_append.1 hinc).2.2 first (by simp) last (by simp)
  have hff : first.t - first.t = (0 : F K) := by rw [ef, hsub, sub_self, F.rnd_zero, F.zero_def]
  have hTn : last.t - first.t ≠ nan := by
    obtain ⟨y, ey⟩ := hfin last hlm
    rw [ey, ef, hsub]
    exact LawfulArith.rnd_ne_nan _
  have hT0 : 0 ≤ last.t - first.t := by
    have := hmono first hfm last hlm hfl
    rwa [hff] at this
  obtain ⟨tab, table, e1, e2, h1, h2, h3, h5⟩ := interpVel_gen lib h hh _ (last.t - first.t) rows.length hsorted (by simpa using hne) hTn hT0 hN hlen hfit
  refine ⟨tab, table, h1, h2, ?_⟩
  have hck : csvConvert lib o raw = csvTail o.radius table := by
    unfold csvConvert
    rw [pickColumns_four o.cols h4 raw rows hrow, run_bind_ok]
    have hsrt : csvSort (rows.map fun r => (⟨r.t, r.p, fun _ => nan⟩ : Row7 K)) = .ok (rows.map fun r => ⟨r.t, r.p, fun _ => nan⟩) := by
      unfold csvSort
      rw [if_pos]
      rw [C50_isSorted, List.map_map, List.pairwise_map]
      exact hinc
    rw [hsrt, run_bind_ok]
    unfold csvTable csvVel
    rw [if_pos hi]
    have ea : at' (rows.map fun r => (⟨r.t, r.p, fun _ => nan⟩ : Row7 K)) 0 = .ok (wide first) := at_getElem? (by
      rw [List.getElem?_map, ← List.head?_eq_getElem?, hfirst]; rfl)
    rw [ea, run_bind_ok]
    dsimp only
    rw [List.map_map]
    have em : (fun r : Row7 K => (⟨r.t - (wide first).t, r.p⟩ : Row4 K)) ∘ (fun r : Row4 K => (⟨r.t, r.p, fun _ => nan⟩ : Row7 K)) =
      fun r => ⟨r.t - first.t, r.p⟩ := rfl
    rw [em, List.length_map]
    have el : at' (rows.map fun r => (⟨r.t - first.t, r.p⟩ : Row4 K)) (rows.length - 1) = .ok ⟨last.t - first.t, last.p⟩ := at_getElem? (by
      rw [List.getElem?_map, ← List.getLast?_eq_getElem?, hlast]; rfl)
    rw [el, run_bind_ok]
    dsimp only
    rw [e1, run_bind_ok, if_pos hv, if_neg (by omega), hs, e2, run_bind_ok]
    rfl
  rw [hck]
  exact csvTail_spec o.radius table h3 h5

theorem lastTime_ne {rows : List (Row7 K)} {segs : List (List (Row7 K))} (h : Trajectories rows segs) (ht : ∀ r ∈ rows, r.t ≠ nan) :
    ∀ s ∈ segs.dropLast, lastTime s ≠ nan := by
  intro s hs
  have hm := List.dropLast_subset _ hs
  unfold lastTime
  cases hl : s.getLast? with
  | none => exact absurd (List.getLast?_eq_none_iff.1 hl) (h.nonempty s hm)
  | some r => exact ht r (by rw [← h.all]; exact List.mem_flatten.2 ⟨s, hm, List.mem_of_getLast? hl⟩)

/-- **C68, interpolation and velocity computation.** As `C68_velocity_partial`, with the trajectory replaced by its interpolation at as many equidistant
times as the longest of the trajectories (without the last) has rows, up to the latest of their last times. -/
theorem C68_interpolated_partial [LawfulArith K] (lib : FitLib K) (o : CsvOpts K) (hv : o.vel = true) (hi : o.interp = true) (h4 : o.cols.length = 4)
    (raw : List (List (F K))) (rows : List (Row4 K)) (hrow : List.Forall₂ (PosOf o.cols) raw rows) (ht : ∀ r ∈ rows, r.t ≠ nan) (hne : rows ≠ []) :
    ∃ segs T n, Trajectories (rows.map wide) segs ∧ (∀ s ∈ segs.dropLast, lastTime s ≤ T ∧ s.length ≤ n) ∧
      (T = 0 ∨ ∃ s ∈ segs.dropLast, T = lastTime s) ∧ (n = 0 ∨ ∃ s ∈ segs.dropLast, n = s.length) ∧
      (n < 200000 → (∀ s ∈ usedOf segs, ∀ tab, interpolate (s.map Row7.four) T n = .ok tab → Fits lib 4 tab) →
        ∃ tables, List.Forall₂ (fun s t => ∃ tab, InterpTable (s.map Row7.four) T n tab ∧ VelTable lib 4 tab t) (usedOf segs) tables ∧
          ((∃ out, chainConvert lib o raw = .ok out) ↔ ∀ t ∈ tables, TableOk t) ∧
          ∀ out, chainConvert lib o raw = .ok out →
            List.Forall₂ (fun t g => GroupHolds o.radius none 1 t g) tables out.groups ∧ out.attrs.np = 1 ∧
            out.attrs.n = tables.foldl (fun m t => max m t.length) 0) := by
  have ht' : ∀ r ∈ rows.map wide, r.t ≠ nan := by
    intro r hr
    obtain ⟨x, hx, rfl⟩ := List.mem_map.1 hr
    exact ht x hx
  obtain ⟨segs, htr, hgen⟩ := chainTables_gen lib o (rows.map wide) (by simpa using hne)
  obtain ⟨T1, T2, T3, T4⟩ := longestTime_spec segs (lastTime_ne htr ht')
  obtain ⟨n1, n2⟩ := longestRows_spec segs
  refine ⟨segs, longestTime segs, longestRows segs, htr, fun s hs => ⟨T3 s hs, n1 s hs⟩, T4, n2, fun hlt hfit => ?_⟩
  have hex : ∀ s ∈ usedOf segs, ∃ t, (∃ tab, interpolate (s.map Row7.four) (longestTime segs) (longestRows segs) = .ok tab ∧ velocityPolynom lib tab 9 2 = .ok t ∧
      tab.length = longestRows segs ∧ InterpTable (s.map Row7.four) (longestTime segs) (longestRows segs) tab ∧ VelTable lib 4 tab t) ∧
      (∀ r ∈ t, r.t ≠ nan) ∧ t.Pairwise fun a b => a.t ≤ b.t := by
    intro s hs
    obtain ⟨h10, _, h2⟩ := traj_sorted htr ht' s hs
    have hm := n1 s (List.mem_filter.1 hs).1
    obtain ⟨tab, table, e1, e2, h3, h4, h5, h6⟩ := interpVel_ok lib (s.map Row7.four) (longestTime segs) (longestRows segs) (List.pairwise_map.2 h2)
      (by intro h; rw [List.map_eq_nil_iff] at h; rw [h] at h10; simp at h10) T1 T2 (by omega) (by omega) (hfit s hs)
    exact ⟨table, ⟨tab, e1, e2, h3.1, h3, h4⟩, h5, h6⟩
  obtain ⟨f, hf⟩ := exists_fun_forall _ hex
  have e := hgen f (by
    intro s hs
    obtain ⟨⟨tab, e1, e2, e3, _⟩, _⟩ := hf s hs
    unfold chainTable
    rw [if_pos hi, if_neg (by rw [hv]; decide), e1, run_bind_ok, if_neg (by omega), if_pos (by omega)]
    exact e2)
  have hn : ∀ t ∈ (usedOf segs).map f, (∀ r ∈ t, r.t ≠ nan) ∧ t.Pairwise fun a b => a.t ≤ b.t := by
    intro t h
    obtain ⟨s, hs, rfl⟩ := List.mem_map.1 h
    exact (hf s hs).2
  obtain ⟨w1, w2⟩ := multiWrite_spec o.radius none (fun _ => (1 : F K)) ((usedOf segs).map f) hn
  have hck : chainConvert lib o raw = multiWrite o.radius none (fun _ => 1) ((usedOf segs).map f) := by
    unfold chainConvert
    rw [pickColumns_four o.cols h4 raw rows hrow, run_bind_ok]
    change chainTables lib o (rows.map wide) >>= _ = _
    rw [e, run_bind_ok]
  rw [hck]
  refine ⟨(usedOf segs).map f, ?_, w1, ?_⟩
  · rw [List.forall₂_map_right_iff, List.forall₂_same]
    intro s hs
    obtain ⟨⟨tab, _, _, _, h1, h2⟩, _⟩ := hf s hs
    exact ⟨tab, h1, h2⟩
  intro out ho
  obtain ⟨a, b⟩ := w2 out ho
  refine ⟨?_, b⟩
  rw [List.forall₂_iff_get] at a ⊢
  refine ⟨by simpa using a.1, fun i h1 h2 => ?_⟩
  have := a.2 i (by simpa using h1) h2
  simpa using this

/-! ### C69 with velocity computation -/

/-- `r` is the row of the columns time, id, x, y, z of a line of the file. -/
def IdPosOf (cols : List ℕ) (cells : List (F K)) (r : F K × Row4 K) : Prop :=
  (cols[0]?).bind (fun c => cells[c]?) = some r.2.t ∧ (cols[1]?).bind (fun c => cells[c]?) = some r.1 ∧
  ∀ j : Fin 3, (cols[2 + (j : ℕ)]?).bind (fun c => cells[c]?) = some (r.2.p j)

/-- A row with an id and without velocity. -/
def idWide (r : F K × Row4 K) : Row8 K := ⟨r.1, wide r.2⟩

theorem pickIdRow_five (cols : List ℕ) (h5 : cols.length = 5) (cells : List (F K)) (r : F K × Row4 K) (h : IdPosOf cols cells r) :
    pickIdRow cols cells = .ok (idWide r) := by
  obtain ⟨c0, c1, c2, c3, c4, rfl⟩ : ∃ a b c d e, cols = [a, b, c, d, e] := by
    match cols, h5 with
    | [a, b, c, d, e], _ => exact ⟨a, b, c, d, e, rfl⟩
  obtain ⟨h0, hid, hp⟩ := h
  have hp0 := hp 0
  have hp1 := hp 1
  have hp2 := hp 2
  simp at h0 hid hp0 hp1 hp2
  unfold pickIdRow
  rw [cells_fold _ cells [r.2.t, r.1, r.2.p 0, r.2.p 1, r.2.p 2] (by
    refine .cons ?_ (.cons ?_ (.cons ?_ (.cons ?_ (.cons ?_ .nil)))) <;> assumption)]
  rw [run_bind_ok, run_pure]
  congr 1
  obtain ⟨i, t, p⟩ := r
  unfold idWide wide
  congr 2
  · funext i; fin_cases i <;> rfl
  · funext i; fin_cases i <;> rfl

theorem pickIdPos (cols : List ℕ) (h5 : cols.length = 5) (raw : List (List (F K))) (rows : List (F K × Row4 K)) (h : List.Forall₂ (IdPosOf cols) raw rows)
    (acc : List (Row8 K)) : (raw.foldlM (fun acc r => do pure (acc ++ [← pickIdRow cols r])) acc : Run (List (Row8 K))) = .ok (acc ++ rows.map idWide) := by
  induction h generalizing acc with
  | nil => simp [run_pure]
  | @cons cells r raw rows h _ ih =>
    rw [List.foldlM_cons, pickIdRow_five cols h5 cells r h, run_bind_ok, run_pure, run_bind_ok, ih]
    simp

/-- The latest time and the largest number of rows found by the scan of the ids. -/
structure IdMax (seen : List (Row8 K)) (s : IdState K) : Prop where
  low : ∀ r ∈ seen, s.minT ≤ r.row.t ∧ r.row.t ≤ s.maxT
  lowIn : ∃ r ∈ seen, s.minT = r.row.t
  highIn : ∃ r ∈ seen, s.maxT = r.row.t
  most : ∀ i, 2 ≤ seen.countP (fun r => decide (idOf r = i)) → seen.countP (fun r => decide (idOf r = i)) ≤ s.maxSteps
  mostIn : s.maxSteps = 0 ∨ ∃ i, s.maxSteps = seen.countP (fun r => decide (idOf r = i)) ∧ 2 ≤ s.maxSteps

theorem idLine_max (seen : List (Row8 K)) (s : IdState K) (r : Row8 K) (hi : IdInv seen s) (h : IdMax seen s) (hn : r.row.t ≠ nan)
    (hns : ∀ x ∈ seen, x.row.t ≠ nan) : IdMax (seen ++ [r]) (idLine s r) := by
  obtain ⟨h1, ⟨lo, hlo, elo⟩, ⟨hi', hhi, ehi⟩, h4, h5⟩ := h
  have hle : s.minT ≤ s.maxT := by rw [elo]; exact (h1 lo hlo).2
  have hmin : (idLine s r).minT = if r.row.t < s.minT then r.row.t else s.minT := by
    unfold idLine; dsimp only; split_ifs <;> rfl
  have hmax : (idLine s r).maxT = if r.row.t < s.minT then s.maxT else if r.row.t > s.maxT then r.row.t else s.maxT := by
    unfold idLine; dsimp only; split_ifs <;> rfl
  have hmono : ∀ i, seen.countP (fun r => decide (idOf r = i)) ≤ (seen ++ [r]).countP (fun r => decide (idOf r = i)) := by
    intro i; rw [List.countP_append]; omega
  have hmn : s.minT ≠ nan := by rw [elo]; exact hns lo hlo
  have hmx : s.maxT ≠ nan := by rw [ehi]; exact hns hi' hhi
  have hsteps : (idLine s r).maxSteps = if s.ids.contains (idOf r) then
      (if seen.countP (fun x => decide (idOf x = idOf r)) + 1 > s.maxSteps then seen.countP (fun x => decide (idOf x = idOf r)) + 1 else s.maxSteps) else s.maxSteps := by
    by_cases hc : s.ids.contains (idOf r) = true
    · have hm : idOf r ∈ s.ids := by simpa using hc
      have hk := List.idxOf_lt_length_of_mem hm
      have hg : s.ids[s.ids.idxOf (idOf r)]? = some (idOf r) := by
        rw [List.getElem?_eq_getElem hk, List.getElem_idxOf hk]
      have hcnt := hi.count _ _ hg
      rw [if_pos hc]
      unfold idLine
      dsimp only
      change IdState.maxSteps (if s.ids.contains (idOf r) = true then _ else _) = _
      rw [if_pos hc]
      dsimp only
      change (if s.steps.getD (s.ids.idxOf (idOf r)) 0 + 1 > s.maxSteps then _ else _) = _
      rw [List.getD_eq_getElem?_getD]
      change (if (s.steps[s.ids.idxOf (idOf r)]?).getD 0 + 1 > s.maxSteps then (s.steps.getD (s.ids.idxOf (idOf r)) 0 + 1) else _) = _
      rw [List.getD_eq_getElem?_getD, hcnt]
      rfl
    · rw [if_neg hc]
      unfold idLine
      dsimp only
      change IdState.maxSteps (if s.ids.contains (idOf r) = true then _ else _) = _
      rw [if_neg hc]
  refine ⟨?_, ?_, ?_, ?_, ?_⟩
  · intro x hx
    rw [hmin, hmax]
    rcases List.mem_append.1 hx with hx | hx
    · obtain ⟨a, b⟩ := h1 x hx
      constructor
      · split_ifs with h
        · exact F.le_trans' (F.le_of_lt' h) a
        · exact a
      · split_ifs with h h'
        · exact b
        · exact F.le_trans' b (F.le_of_lt' h')
        · exact b
    · rw [List.mem_singleton] at hx
      subst hx
      constructor
      · split_ifs with h
        · exact F.le_refl' hn
        · exact (F.lt_or_le' hn hmn).resolve_left h
      · split_ifs with h h'
        · exact F.le_trans' (F.le_of_lt' h) hle
        · exact F.le_refl' hn
        · exact (F.lt_or_le' hmx hn).resolve_left h'
  · rw [hmin]
    split_ifs
    · exact ⟨r, by simp, rfl⟩
    · exact ⟨lo, by simp [hlo], elo⟩
  · rw [hmax]
    split_ifs
    · exact ⟨hi', by simp [hhi], ehi⟩
    · exact ⟨r, by simp, rfl⟩
    · exact ⟨hi', by simp [hhi], ehi⟩
  · intro i h2
    rw [hsteps]
    rw [List.countP_append, List.countP_singleton] at h2 ⊢
    by_cases hir : idOf r = i
    · subst hir
      have hpos : 1 ≤ seen.countP (fun x => decide (idOf x = idOf r)) := by
        rw [if_pos (by simp)] at h2; omega
      have hc : s.ids.contains (idOf r) = true := by
        have : idOf r ∈ s.ids := by
          rw [hi.mem]
          obtain ⟨x, hx, e⟩ := List.countP_pos_iff.1 hpos
          exact ⟨x, hx, by simpa using e⟩
        simpa using this
      rw [if_pos hc]
      simp only [decide_true, if_true]
      split_ifs <;> omega
    · have : (if (decide (idOf r = i)) = true then 1 else 0) = 0 := by simp [hir]
      rw [this, Nat.add_zero] at h2 ⊢
      have := h4 i h2
      split_ifs <;> omega
  · rw [hsteps]
    by_cases hc : s.ids.contains (idOf r) = true
    · rw [if_pos hc]
      have hm : idOf r ∈ s.ids := by simpa using hc
      obtain ⟨x, hx, e⟩ := (hi.mem _).1 hm
      have hpos : 1 ≤ seen.countP (fun x => decide (idOf x = idOf r)) := List.countP_pos_iff.2 ⟨x, hx, by simpa using e⟩
      by_cases hgt : seen.countP (fun x => decide (idOf x = idOf r)) + 1 > s.maxSteps
      · rw [if_pos hgt]
        exact Or.inr ⟨idOf r, by rw [List.countP_append, List.countP_singleton]; simp, by omega⟩
      · rw [if_neg hgt]
        rcases h5 with h5 | ⟨i, e, h2⟩
        · exact Or.inl h5
        · refine Or.inr ⟨i, ?_, h2⟩
          by_cases hir : idOf r = i
          · subst hir; omega
          · rw [List.countP_append, List.countP_singleton]; simp [hir, e]
    · rw [if_neg hc]
      rcases h5 with h5 | ⟨i, e, h2⟩
      · exact Or.inl h5
      · refine Or.inr ⟨i, ?_, h2⟩
        by_cases hir : idOf r = i
        · subst hir
          exfalso
          apply hc
          have : idOf r ∈ s.ids := by
            rw [hi.mem]
            obtain ⟨x, hx, e⟩ := List.countP_pos_iff.1 (by omega : 0 < seen.countP (fun x => decide (idOf x = idOf r)))
            exact ⟨x, hx, by simpa using e⟩
          simpa using this
        · rw [List.countP_append, List.countP_singleton]; simp [hir, e]

theorem idLine_foldMax (rows seen : List (Row8 K)) (s : IdState K) (hi : IdInv seen s) (h : IdMax seen s) (hn : ∀ x ∈ seen ++ rows, x.row.t ≠ nan) :
    IdMax (seen ++ rows) (rows.foldl idLine s) := by
  induction rows generalizing seen s with
  | nil => simpa using h
  | cons r rows ih =>
    rw [List.foldl_cons]
    have := ih (seen ++ [r]) _ (idLine_inv seen s r hi) (idLine_max seen s r hi h (hn r (by simp)) (fun x hx => hn x (by simp [hx]))) (by simpa using hn)
    simpa using this

theorem sortById_max (rows : List (Row8 K)) (hne : rows ≠ []) (hn : ∀ r ∈ rows, r.row.t ≠ nan) :
    ∃ (keys : List ℕ) (T : F K) (n : ℕ), keys.Pairwise (· < ·) ∧ (∀ i, i ∈ keys ↔ ∃ r ∈ rows, idOf r = i) ∧ sortById rows = .ok (keys.map (rowsOf rows), T, n) ∧
      (∀ r ∈ rows, r.row.t ≤ T) ∧ (∃ r ∈ rows, T = r.row.t) ∧ (∀ i, 2 ≤ (rowsOf rows i).length → (rowsOf rows i).length ≤ n) ∧
      (n = 0 ∨ ∃ i, n = (rowsOf rows i).length ∧ 2 ≤ n) := by
  obtain ⟨keys, T, n, h1, h2, h3⟩ := C69_byId rows hne
  refine ⟨keys, T, n, h1, h2, h3, ?_⟩
  cases hr : rows with
  | nil => exact absurd hr hne
  | cons r0 rest =>
    have hmax : IdMax rows (rows.foldl idLine ⟨[], [], 0, r0.row.t, r0.row.t⟩) := by
      have hr0 := hn r0 (by rw [hr]; simp)
      have hc : ([] : List ℕ).contains (idOf r0) = false := rfl
      have hT0 : idLine (⟨[], [], 0, r0.row.t, r0.row.t⟩ : IdState K) r0 = ⟨[idOf r0], [1], 0, r0.row.t, r0.row.t⟩ := by
        unfold idLine
        dsimp only
        have : ¬ r0.row.t < r0.row.t := fun h => flt_asymm h h
        simp only [if_neg this, gt_iff_lt]
        rfl
      rw [hr, List.foldl_cons, hT0]
      have hinv := idLine_inv [] (⟨[], [], 0, r0.row.t, r0.row.t⟩ : IdState K) r0 ⟨by simp, rfl, by simp, by simp⟩
      rw [hT0, List.nil_append] at hinv
      refine idLine_foldMax rest [r0] _ hinv ⟨?_, ⟨r0, by simp, rfl⟩, ⟨r0, by simp, rfl⟩, ?_, Or.inl rfl⟩ (by simpa [← hr] using hn)
      · intro r hr'
        rw [List.mem_singleton] at hr'
        subst hr'
        exact ⟨F.le_refl' hr0, F.le_refl' hr0⟩
      · intro i hi
        have := List.countP_le_length (p := fun r => decide (idOf r = i)) (l := [r0])
        rw [List.length_singleton] at this
        omega
    have e0 : at' rows 0 = .ok r0 := at_getElem? (by rw [hr]; rfl)
    have hs := h3
    unfold sortById at hs
    rw [e0, run_bind_ok] at hs
    dsimp only at hs
    obtain ⟨tb, _, hs⟩ := run_bind_inv hs
    rw [run_pure] at hs
    have hs' := Except.ok.inj hs
    have eT : (rows.foldl idLine ⟨[], [], 0, r0.row.t, r0.row.t⟩).maxT = T := congrArg (fun x => x.2.1) hs'
    have en : (rows.foldl idLine ⟨[], [], 0, r0.row.t, r0.row.t⟩).maxSteps = n := congrArg (fun x => x.2.2) hs'
    have hcl : ∀ i, (rowsOf rows i).length = rows.countP (fun r => decide (idOf r = i)) := fun i => by
      rw [rowsOf, List.countP_eq_length_filter]
    rw [← hr, ← eT, ← en]
    obtain ⟨m1, _, m3, m4, m5⟩ := hmax
    refine ⟨fun r hr => (m1 r hr).2, m3, fun i hi => ?_, ?_⟩
    · rw [hcl] at hi ⊢; exact m4 i hi
    · rcases m5 with m5 | ⟨i, e, h⟩
      · exact Or.inl m5
      · exact Or.inr ⟨i, by rw [hcl]; exact e, h⟩

/-- The rows of one id as a table of time and position, ordered by time. -/
theorem idSort_ok (l : List (Row8 K)) (hn : ∀ r ∈ l, r.row.t ≠ nan) :
    ∃ out, sortByColumn (fun r : Row8 K => r.row.t) l = .ok out ∧ ByTime (l.map Row8.row) (out.map Row8.row) ∧ out.Perm l ∧
      (out.map Row8.row).Pairwise fun a b => a.t ≤ b.t := by
  obtain ⟨out, idx, e, h1, h2, h3, h4, h5⟩ := C50_sort (fun r : Row8 K => r.row.t) l hn
  have hp := (C50_isSorted _).1 h5
  rw [List.pairwise_map] at hp
  refine ⟨out, e, ⟨idx, by simpa using h1, ?_, ?_⟩, h3, List.pairwise_map.2 hp⟩
  · have := congrArg (List.map (Option.map Row8.row)) h2
    rw [List.map_map, List.map_map] at this
    rw [List.map_map]
    refine Eq.trans this ?_
    apply List.map_congr_left
    intro i _
    simp
  · refine h4.imp ?_
    intro i j h a b ha hb
    rw [List.getElem?_map, Option.map_eq_some_iff] at ha hb
    obtain ⟨a', ha, rfl⟩ := ha
    obtain ⟨b', hb, rfl⟩ := hb
    dsimp only at h
    rw [ha, hb] at h
    exact h

/-- From the tables of the ids to the output. -/
theorem idConvert_gen (lib : FitLib K) (o : CsvOpts K) (h5 : o.cols.length = 5) (raw : List (List (F K))) (rows : List (F K × Row4 K))
    (hrow : List.Forall₂ (IdPosOf o.cols) raw rows) (keys : List ℕ) (T : F K) (n : ℕ)
    (hs : sortById (rows.map idWide) = .ok (keys.map (rowsOf (rows.map idWide)), T, n)) (f : ℕ → List (Row7 K))
    (hf : ∀ i ∈ keys, idTable lib o T n (rowsOf (rows.map idWide) i) = .ok (f i)) :
    idConvert lib o raw = multiWrite o.radius (some 0) (fun i => F.ofNat i) (keys.map f) := by
  have e' : ∀ acc, ((keys.map (rowsOf (rows.map idWide))).foldlM (fun acc l => do pure (acc ++ [← idTable lib o T n l])) acc : Run _) = .ok (acc ++ keys.map f) := by
    clear hs
    induction keys with
    | nil => intro acc; simp [run_pure]
    | cons i keys ih =>
      intro acc
      rw [List.map_cons, List.foldlM_cons, hf i (by simp), run_bind_ok, run_pure, run_bind_ok, ih (fun i hi => hf i (by simp [hi]))]
      simp
  unfold idConvert
  rw [if_neg (by intro h; exact h (Or.inl h5)), pickIdPos o.cols h5 raw rows hrow [], run_bind_ok, List.nil_append, hs, run_bind_ok]
  dsimp only
  rw [e', run_bind_ok, List.nil_append]

/-- **C69, velocity computation.** A file with the columns time, id, x, y, z, converted with velocity computation: the particles are the ids that occur, in
increasing order. The rows of an id are ordered by time (rows of equal time in the order of the file); its table has a row for each of them with four
rows on both sides, with its time and position and the velocity fitted to these nine rows. Each id must have at least eight rows, and the fits must
exist. Otherwise as for `C69_idline_partial`. -/
theorem C69_velocity_partial (lib : FitLib K) (o : CsvOpts K) (hv : o.vel = true) (hi : o.interp = false) (h5 : o.cols.length = 5)
    (raw : List (List (F K))) (rows : List (F K × Row4 K)) (hrow : List.Forall₂ (IdPosOf o.cols) raw rows) (ht : ∀ r ∈ rows, r.2.t ≠ nan) (hne : rows ≠ []) :
    ∃ (keys : List ℕ) (sorted : ℕ → List (Row7 K)), keys.Pairwise (· < ·) ∧ (∀ i, i ∈ keys ↔ ∃ r ∈ rows, r.1.toUsize = i) ∧
      (∀ i ∈ keys, ByTime ((rows.filter fun r => decide (r.1.toUsize = i)).map fun r => wide r.2) (sorted i)) ∧
      ((∀ i ∈ keys, 8 ≤ (sorted i).length ∧ Fits lib 4 ((sorted i).map Row7.four)) →
        ∃ tables, List.Forall₂ (fun i t => VelTable lib 4 ((sorted i).map Row7.four) t) keys tables ∧
          ((∃ out, idConvert lib o raw = .ok out) ↔ ∀ t ∈ tables, TableOk t) ∧
          ∀ out, idConvert lib o raw = .ok out →
            List.Forall₂ (fun (x : List (Row7 K) × ℕ) g => GroupHolds o.radius (some 0) (F.ofNat x.2) x.1 g) tables.zipIdx out.groups ∧ out.attrs.np = 1 ∧
            out.attrs.n = tables.foldl (fun m t => max m t.length) 0) := by
  have ht' : ∀ r ∈ rows.map idWide, r.row.t ≠ nan := by
    intro r hr
    obtain ⟨x, hx, rfl⟩ := List.mem_map.1 hr
    exact ht x hx
  obtain ⟨keys, T, n, k1, k2, e, _⟩ := sortById_max (rows.map idWide) (by simpa using hne) ht'
  have hof : ∀ i, (rowsOf (rows.map idWide) i).map Row8.row = (rows.filter fun r => decide (r.1.toUsize = i)).map fun r => wide r.2 := by
    intro i
    unfold rowsOf
    rw [List.filter_map, List.map_map]
    rfl
  have hsub : ∀ i, ∀ r ∈ rowsOf (rows.map idWide) i, r.row.t ≠ nan := fun i r hr => ht' r (List.mem_filter.1 hr).1
  obtain ⟨g, hg⟩ := exists_fun_forall (α := ℕ) (β := List (Row8 K)) (P := fun i out => sortByColumn (fun r : Row8 K => r.row.t) (rowsOf (rows.map idWide) i) = .ok out ∧
    ByTime ((rowsOf (rows.map idWide) i).map Row8.row) (out.map Row8.row) ∧ out.Perm (rowsOf (rows.map idWide) i) ∧
      (out.map Row8.row).Pairwise fun a b => a.t ≤ b.t) keys (fun i _ => idSort_ok _ (hsub i))
  refine ⟨keys, fun i => (g i).map Row8.row, k1, ?_, ?_, fun hfit => ?_⟩
  · intro i
    rw [k2]
    constructor
    · rintro ⟨r, hr, e⟩
      obtain ⟨x, hx, rfl⟩ := List.mem_map.1 hr
      exact ⟨x, hx, e⟩
    · rintro ⟨x, hx, e⟩
      exact ⟨_, List.mem_map.2 ⟨x, hx, rfl⟩, e⟩
  · intro i hi'
    rw [← hof]
    exact (hg i hi').2.1
  obtain ⟨f, hf⟩ := exists_fun_forall (α := ℕ) (β := List (Row7 K)) (P := fun i t => velocityPolynom lib (((g i).map Row8.row).map Row7.four) 9 2 = .ok t ∧
    VelTable lib 4 (((g i).map Row8.row).map Row7.four) t) keys
    (fun i hi' => velTable_ok lib 4 (by omega) _ (by have := (hfit i hi').1; simpa using this) (hfit i hi').2)
  have hck := idConvert_gen lib o h5 raw rows hrow keys T n e f (by
    intro i hi'
    unfold idTable
    rw [(hg i hi').1, run_bind_ok]
    dsimp only
    rw [if_neg (by rw [hi]; decide), if_pos hv, if_neg (by omega)]
    exact (hf i hi').1)
  have hn : ∀ t ∈ keys.map f, (∀ r ∈ t, r.t ≠ nan) ∧ t.Pairwise fun a b => a.t ≤ b.t := by
    intro t htt
    obtain ⟨i, hi', rfl⟩ := List.mem_map.1 htt
    refine (hf i hi').2.sorted ?_ ?_
    · intro r hr
      obtain ⟨x, hx, rfl⟩ := List.mem_map.1 hr
      obtain ⟨y, hy, rfl⟩ := List.mem_map.1 hx
      exact hsub i y ((hg i hi').2.2.1.subset hy)
    · exact List.pairwise_map.2 (hg i hi').2.2.2
  rw [hck]
  refine ⟨keys.map f, ?_, multiWrite_spec o.radius (some 0) _ _ hn⟩
  rw [List.forall₂_map_right_iff, List.forall₂_same]
  exact fun i hi' => (hf i hi').2

/-- **C69, interpolation and velocity computation.** As `C69_velocity_partial`, with the ordered rows of each id replaced by their interpolation at `n`
equidistant times up to `T`: `T` is the latest time of the file, `n` the largest number of rows of an id. -/
theorem C69_interpolated_partial [LawfulArith K] (lib : FitLib K) (o : CsvOpts K) (hv : o.vel = true) (hi : o.interp = true) (h5 : o.cols.length = 5)
    (raw : List (List (F K))) (rows : List (F K × Row4 K)) (hrow : List.Forall₂ (IdPosOf o.cols) raw rows) (ht : ∀ r ∈ rows, r.2.t ≠ nan) (hne : rows ≠ []) :
    ∃ (keys : List ℕ) (sorted : ℕ → List (Row7 K)) (T : F K) (n : ℕ), keys.Pairwise (· < ·) ∧ (∀ i, i ∈ keys ↔ ∃ r ∈ rows, r.1.toUsize = i) ∧
      (∀ i ∈ keys, ByTime ((rows.filter fun r => decide (r.1.toUsize = i)).map fun r => wide r.2) (sorted i)) ∧
      (∀ r ∈ rows, r.2.t ≤ T) ∧ (∃ r ∈ rows, T = r.2.t) ∧ (∀ i ∈ keys, 2 ≤ (sorted i).length → (sorted i).length ≤ n) ∧
      (n = 0 ∨ ∃ i ∈ keys, n = (sorted i).length) ∧
      (0 ≤ T → 10 ≤ n → n ≤ 2 ^ 53 → (∀ i ∈ keys, ∀ tab, interpolate ((sorted i).map Row7.four) T n = .ok tab → Fits lib 4 tab) →
        ∃ tables, List.Forall₂ (fun i t => ∃ tab, InterpTable ((sorted i).map Row7.four) T n tab ∧ VelTable lib 4 tab t) keys tables ∧
          ((∃ out, idConvert lib o raw = .ok out) ↔ ∀ t ∈ tables, TableOk t) ∧
          ∀ out, idConvert lib o raw = .ok out →
            List.Forall₂ (fun (x : List (Row7 K) × ℕ) g => GroupHolds o.radius (some 0) (F.ofNat x.2) x.1 g) tables.zipIdx out.groups ∧ out.attrs.np = 1 ∧
            out.attrs.n = tables.foldl (fun m t => max m t.length) 0) := by
  have ht' : ∀ r ∈ rows.map idWide, r.row.t ≠ nan := by
    intro r hr
    obtain ⟨x, hx, rfl⟩ := List.mem_map.1 hr
    exact ht x hx
  obtain ⟨keys, T, n, k1, k2, e, t1, ⟨rT, hrT, eT⟩, n1, n2⟩ := sortById_max (rows.map idWide) (by simpa using hne) ht'
  have hof : ∀ i, (rowsOf (rows.map idWide) i).map Row8.row = (rows.filter fun r => decide (r.1.toUsize = i)).map fun r => wide r.2 := by
    intro i
    unfold rowsOf
    rw [List.filter_map, List.map_map]
    rfl
  have hsub : ∀ i, ∀ r ∈ rowsOf (rows.map idWide) i, r.row.t ≠ nan := fun i r hr => ht' r (List.mem_filter.1 hr).1
  obtain ⟨g, hg⟩ := exists_fun_forall (α := ℕ) (β := List (Row8 K)) (P := fun i out => sortByColumn (fun r : Row8 K => r.row.t) (rowsOf (rows.map idWide) i) = .ok out ∧
    ByTime ((rowsOf (rows.map idWide) i).map Row8.row) (out.map Row8.row) ∧ out.Perm (rowsOf (rows.map idWide) i) ∧
      (out.map Row8.row).Pairwise fun a b => a.t ≤ b.t) keys (fun i _ => idSort_ok _ (hsub i))
  have hgl : ∀ i ∈ keys, (g i).length = (rowsOf (rows.map idWide) i).length := fun i hi' => (hg i hi').2.2.1.length_eq
  have hkey : ∀ i, i ∈ keys ↔ ∃ r ∈ rows, r.1.toUsize = i := by
    intro i
    rw [k2]
    constructor
    · rintro ⟨r, hr, e⟩
      obtain ⟨x, hx, rfl⟩ := List.mem_map.1 hr
      exact ⟨x, hx, e⟩
    · rintro ⟨x, hx, e⟩
      exact ⟨_, List.mem_map.2 ⟨x, hx, rfl⟩, e⟩
  refine ⟨keys, fun i => (g i).map Row8.row, T, n, k1, hkey, ?_, ?_, ?_, ?_, ?_, fun h0 h10 h53 hfit => ?_⟩
  · intro i hi'
    rw [← hof]
    exact (hg i hi').2.1
  · intro r hr
    exact t1 (idWide r) (List.mem_map.2 ⟨r, hr, rfl⟩)
  · obtain ⟨x, hx, rfl⟩ := List.mem_map.1 hrT
    exact ⟨x, hx, eT⟩
  · intro i hi'
    rw [List.length_map, hgl i hi']
    exact n1 i
  · rcases n2 with n2 | ⟨i, e, h⟩
    · exact Or.inl n2
    · refine Or.inr ⟨i, ?_, ?_⟩
      · rw [k2]
        have : 0 < (rowsOf (rows.map idWide) i).length := by omega
        obtain ⟨x, hx⟩ := List.exists_mem_of_length_pos this
        obtain ⟨a, b⟩ := List.mem_filter.1 hx
        exact ⟨x, a, by simpa using b⟩
      · have hi' : i ∈ keys := by
          rw [k2]
          have : 0 < (rowsOf (rows.map idWide) i).length := by omega
          obtain ⟨x, hx⟩ := List.exists_mem_of_length_pos this
          obtain ⟨a, b⟩ := List.mem_filter.1 hx
          exact ⟨x, a, by simpa using b⟩
        rw [List.length_map, hgl i hi']
        exact e
  have hTn : T ≠ nan := by rw [eT]; exact ht' rT hrT
  obtain ⟨f, hf⟩ := exists_fun_forall (α := ℕ) (β := List (Row7 K)) (P := fun i t => (∃ tab, interpolate (((g i).map Row8.row).map Row7.four) T n = .ok tab ∧
      velocityPolynom lib tab 9 2 = .ok t ∧ InterpTable (((g i).map Row8.row).map Row7.four) T n tab ∧ VelTable lib 4 tab t) ∧
      (∀ r ∈ t, r.t ≠ nan) ∧ t.Pairwise fun a b => a.t ≤ b.t) keys (by
    intro i hi'
    have hne' : ((g i).map Row8.row).map Row7.four ≠ [] := by
      intro h
      rw [List.map_eq_nil_iff, List.map_eq_nil_iff] at h
      obtain ⟨r, hr, e⟩ := (k2 i).1 hi'
      have : r ∈ g i := (hg i hi').2.2.1.symm.subset (List.mem_filter.2 ⟨hr, by simpa using e⟩)
      rw [h] at this
      cases this
    obtain ⟨tab, table, a, b, c, d, e1, e2⟩ := interpVel_ok lib _ T n (List.pairwise_map.2 (hg i hi').2.2.2) hne' hTn h0 h10 h53 (hfit i hi')
    exact ⟨table, ⟨tab, a, b, c, d⟩, e1, e2⟩)
  have hck := idConvert_gen lib o h5 raw rows hrow keys T n e f (by
    intro i hi'
    obtain ⟨⟨tab, a, b, _⟩, _⟩ := hf i hi'
    unfold idTable
    rw [(hg i hi').1, run_bind_ok]
    dsimp only
    rw [if_pos hi, a, run_bind_ok, if_pos hv, if_neg (by omega)]
    exact b)
  have hn : ∀ t ∈ keys.map f, (∀ r ∈ t, r.t ≠ nan) ∧ t.Pairwise fun a b => a.t ≤ b.t := by
    intro t htt
    obtain ⟨i, hi', rfl⟩ := List.mem_map.1 htt
    exact (hf i hi').2
  rw [hck]
  refine ⟨keys.map f, ?_, multiWrite_spec o.radius (some 0) _ _ hn⟩
  rw [List.forall₂_map_right_iff, List.forall₂_same]
  intro i hi'
  obtain ⟨⟨tab, _, _, c, d⟩, _⟩ := hf i hi'
  exact ⟨tab, c, d⟩

/-- **C69, refused options.** Interpolation without velocity computation, and velocity computation with velocity columns, fail for every file with a row. -/
theorem C69_reject (lib : FitLib K) (o : CsvOpts K) (raw : List (List (F K)))
    (h : (o.interp = true ∧ o.vel = false) ∨ (o.vel = true ∧ o.cols.length ≠ 5) ∨ ¬ (o.cols.length = 5 ∨ o.cols.length = 8)) :
    ∃ e, idConvert lib o raw = .error e := by
  cases hc : idConvert lib o raw with
  | error e => exact ⟨e, rfl⟩
  | ok out =>
    exfalso
    unfold idConvert at hc
    by_cases h58 : o.cols.length = 5 ∨ o.cols.length = 8
    · rw [if_neg (by intro h; exact h h58)] at hc
      obtain ⟨rows, e1, hc⟩ := run_bind_inv hc
      obtain ⟨⟨tables, T, n⟩, e2, hc⟩ := run_bind_inv hc
      dsimp only at hc
      obtain ⟨outs, e3, hc⟩ := run_bind_inv hc
      have hne : rows ≠ [] := by
        rintro rfl
        unfold sortById at e2
        cases e2
      obtain ⟨keys, T', n', _, k2, e⟩ := C69_byId rows hne
      rw [e2] at e
      cases e
      cases hr : rows with
      | nil => exact hne hr
      | cons r0 rest =>
        cases keys with
        | nil => have := (k2 (idOf r0)).2 ⟨r0, by rw [hr]; simp, rfl⟩; cases this
        | cons i keys =>
          rw [List.map_cons, List.foldlM_cons] at e3
          obtain ⟨acc, e4, _⟩ := run_bind_inv e3
          obtain ⟨t, e5, _⟩ := run_bind_inv e4
          unfold idTable at e5
          obtain ⟨l, _, e5⟩ := run_bind_inv e5
          dsimp only at e5
          rcases h with ⟨ha, hb⟩ | ⟨ha, hb⟩ | h
          · rw [if_pos ha] at e5
            obtain ⟨rows', _, e5⟩ := run_bind_inv e5
            rw [if_neg (by rw [hb]; decide)] at e5
            cases e5
          · have h8 : o.cols.length = 8 := h58.resolve_left hb
            by_cases hI : o.interp = true
            · rw [if_pos hI] at e5
              obtain ⟨rows', _, e5⟩ := run_bind_inv e5
              rw [if_pos ha, if_pos (by omega)] at e5
              cases e5
            · rw [if_neg hI, if_pos ha, if_pos (by omega)] at e5
              cases e5
          · exact h h58
    · rw [if_pos h58] at hc
      cases hc

/-- Ten rows without velocities. -/
noncomputable def tenPos : List (Row4 ℝ) := (List.range 10).map fun k : ℕ => ⟨fin ((k : ℝ) + 1), fun _ => 0⟩

/-- The hypotheses of `C68_velocity_partial` hold for two trajectories of ten rows, of which the first is used; those of `C69_velocity_partial` for ten rows
of one id. -/
example : (∃ raw, List.Forall₂ (PosOf [0, 1, 2, 3]) raw (tenPos ++ tenPos)) ∧ (∀ r ∈ tenPos ++ tenPos, r.t ≠ nan) ∧
    Trajectories ((tenPos ++ tenPos).map wide) [tenPos.map wide, tenPos.map wide] ∧ usedOf [tenPos.map wide, tenPos.map wide] = [tenPos.map wide] ∧
    (tenPos.map wide).length < 200000 ∧ Fits squareLib 4 ((tenPos.map wide).map Row7.four) ∧
    (∃ raw, List.Forall₂ (IdPosOf [0, 1, 2, 3, 4]) raw (tenPos.map fun r => ((fin 3 : F ℝ), r))) := by
  have hlen : (tenPos.map wide).length = 10 := by simp [tenPos]
  have hhead : (tenPos.map wide).head? = some (wide ⟨fin (((0 : ℕ) : ℝ) + 1), fun _ => 0⟩) := rfl
  have hlast : (tenPos.map wide).getLast? = some (wide ⟨fin (((9 : ℕ) : ℝ) + 1), fun _ => 0⟩) := rfl
  have hne : tenPos.map wide ≠ [] := by intro h; rw [h] at hlen; cases hlen
  have hsort : (tenPos.map wide).Pairwise fun a b => a.t < b.t := by
    unfold tenPos
    rw [List.pairwise_map, List.pairwise_map]
    refine List.pairwise_lt_range.imp ?_
    intro a b h
    have : (a : ℝ) < b := by exact_mod_cast h
    dsimp only [wide]
    exact (F.lt_fin ((a : ℝ) + 1) ((b : ℝ) + 1)).2 (by linarith)
  have hchain : (tenPos.map wide).IsChain fun a b => ¬ b.t < a.t := (hsort.imp fun h h' => flt_asymm h h').isChain
  refine ⟨⟨(tenPos ++ tenPos).map fun r => [r.t, r.p 0, r.p 1, r.p 2], ?_⟩, ?_, ?_, ?_, by omega, fun _ _ _ => ⟨_, rfl⟩, ⟨tenPos.map fun r => [r.t, fin 3, r.p 0, r.p 1, r.p 2], ?_⟩⟩
  · rw [List.forall₂_map_left_iff, List.forall₂_same]
    intro r _
    refine ⟨rfl, fun j => ?_⟩
    fin_cases j <;> rfl
  · intro r hr
    have : r ∈ tenPos := by simpa using hr
    obtain ⟨k, _, rfl⟩ := List.mem_map.1 this
    simp
  · refine ⟨by simp, ?_, ?_, ?_⟩
    · intro x hx; have : x = tenPos.map wide := by simpa using hx
      subst this; exact hne
    · intro x hx; have : x = tenPos.map wide := by simpa using hx
      subst this; exact hchain
    refine List.isChain_cons_cons.2 ⟨⟨_, _, hlast, hhead, ?_⟩, by simp⟩
    exact (F.lt_fin _ _).2 (by norm_num)
  · simp [usedOf, hlen]
  · rw [List.forall₂_map_left_iff, List.forall₂_map_right_iff, List.forall₂_same]
    intro r _
    refine ⟨rfl, rfl, fun j => ?_⟩
    fin_cases j <;> rfl

end Up4
