import Verif.Props.Csv

set_option linter.unusedSectionVars false

/-! # C68, C69: CSV files with several particles -/

namespace Up4
open F
open Selector (at')

variable {K : Type} [Field K] [LinearOrder K] [IsStrictOrderedRing K] [FloorRing K] [Arith K]

/-! ### Specification: trajectories -/

/-- The trajectories in a list of rows: its longest pieces in which the time does not go back. -/
structure Trajectories (rows : List (Row7 K)) (segs : List (List (Row7 K))) : Prop where
  all : segs.flatten = rows
  nonempty : ∀ s ∈ segs, s ≠ []
  inside : ∀ s ∈ segs, s.IsChain fun a b => ¬ b.t < a.t
  between : segs.IsChain fun s s' => ∃ a b, s.getLast? = some a ∧ s'.head? = some b ∧ b.t < a.t

/-! ### Finding the trajectories -/

/-- The pieces, given the piece begun so far and its last row. -/
def pieces (cur : List (Row7 K)) (last : Row7 K) : List (Row7 K) → List (List (Row7 K))
  | [] => [cur]
  | x :: l => if x.t < last.t then cur :: pieces [x] x l else pieces (cur ++ [x]) x l

theorem pieces_head (cur : List (Row7 K)) (last : Row7 K) (l : List (Row7 K)) : ∃ m rest, pieces cur last l = (cur ++ m) :: rest := by
  induction l generalizing cur last with
  | nil => exact ⟨[], [], by simp [pieces]⟩
  | cons x l ih =>
    unfold pieces
    by_cases h : x.t < last.t
    · rw [if_pos h]; exact ⟨[], _, by rw [List.append_nil]⟩
    · rw [if_neg h]
      obtain ⟨m, rest, e⟩ := ih (cur ++ [x]) x
      exact ⟨x :: m, rest, by rw [e]; simp⟩

theorem pieces_spec (cur : List (Row7 K)) (last : Row7 K) (hc : cur.getLast? = some last) (hi : cur.IsChain fun a b => ¬ b.t < a.t) (l : List (Row7 K)) :
    Trajectories (cur ++ l) (pieces cur last l) := by
  induction l generalizing cur last with
  | nil =>
    unfold pieces
    refine ⟨by simp, ?_, ?_, by simp⟩
    · intro s hs; rw [List.mem_singleton] at hs; subst hs; rintro rfl; cases hc
    · intro s hs; rw [List.mem_singleton] at hs; subst hs; exact hi
  | cons x l ih =>
    unfold pieces
    by_cases h : x.t < last.t
    · rw [if_pos h]
      obtain ⟨h1, h2, h3, h4⟩ := ih [x] x rfl (by simp)
      refine ⟨by rw [List.flatten_cons, h1]; simp, ?_, ?_, ?_⟩
      · intro s hs
        rcases List.mem_cons.1 hs with rfl | hs
        · rintro rfl; cases hc
        · exact h2 s hs
      · intro s hs
        rcases List.mem_cons.1 hs with rfl | hs
        · exact hi
        · exact h3 s hs
      · obtain ⟨m, rest, e⟩ := pieces_head [x] x l
        rw [e] at h4 ⊢
        exact List.isChain_cons_cons.2 ⟨⟨last, x, hc, rfl, h⟩, h4⟩
    · rw [if_neg h]
      have := ih (cur ++ [x]) x (by simp) (by
        rw [List.isChain_append]
        refine ⟨hi, by simp, ?_⟩
        intro a ha b hb
        rw [hc] at ha
        cases ha
        simp only [List.head?_cons, Option.mem_def, Option.some.injEq] at hb
        subst hb
        exact h)
      rwa [List.append_assoc] at this

/-- The pieces of a list between the given positions. -/
def cuts (rows : List (Row7 K)) : List ℕ → List (List (Row7 K))
  | a :: b :: l => (rows.drop a).take (b - a) :: cuts rows (b :: l)
  | _ => []

theorem chainScan_fold (rows : List (Row7 K)) (l : List (Row7 K)) (pre : List (Row7 K)) (hr : rows = pre ++ l) (last : Row7 K) (hl : pre.getLast? = some last)
    (s : ChainState K) (S : List ℕ) (a : ℕ) (hs : s.starts = S ++ [a]) (ho : s.old = last.t) (ha : a ≤ pre.length) :
    ∃ bs, (((l.map Row7.t).zipIdx pre.length).foldl chainLine s).starts = S ++ a :: bs ∧
      cuts rows (a :: bs ++ [rows.length]) = pieces ((rows.drop a).take (pre.length - a)) last l ∧ ∀ b ∈ bs, b ≤ rows.length := by
  induction l generalizing pre last s S a with
  | nil =>
    refine ⟨[], by simp [hs], ?_, by simp⟩
    rw [List.append_nil] at hr
    subst hr
    simp [cuts, pieces]
  | cons x l ih =>
    rw [List.map_cons, List.zipIdx_cons, List.foldl_cons]
    have hpos : pre.length > 0 := by
      cases pre with
      | nil => cases hl
      | cons _ _ => simp
    unfold pieces
    have hlen : (pre ++ [x]).length = pre.length + 1 := by simp
    by_cases h : x.t < last.t
    · rw [if_pos h]
      have e : chainLine s (x.t, pre.length) = ⟨x.t, s.starts ++ [pre.length], s.durations ++ [s.old], s.lengths ++ [pre.length - s.starts.getLastD 0]⟩ := by
        unfold chainLine
        rw [if_pos ⟨hpos, by rw [ho]; exact h⟩]
      rw [e]
      obtain ⟨bs, h1, h2, h3⟩ := ih (pre ++ [x]) (by rw [hr]; simp) x (by simp)
        ⟨x.t, s.starts ++ [pre.length], s.durations ++ [s.old], s.lengths ++ [pre.length - s.starts.getLastD 0]⟩ s.starts pre.length rfl rfl (by omega)
      rw [hlen] at h1 h2
      refine ⟨pre.length :: bs, ?_, ?_, ?_⟩
      · rw [h1, hs]; simp
      · rw [List.cons_append, List.cons_append, cuts, ← List.cons_append, h2]
        congr 2
        have : pre.length + 1 - pre.length = 1 := by omega
        rw [this, hr, List.drop_left]
        rfl
      · intro b hb
        rcases List.mem_cons.1 hb with rfl | hb
        · rw [hr]; simp
        · exact h3 b hb
    · rw [if_neg h]
      have e : chainLine s (x.t, pre.length) = { s with old := x.t } := by
        unfold chainLine
        rw [if_neg (by rw [ho]; exact fun h' => h h'.2)]
      rw [e]
      obtain ⟨bs, h1, h2, h3⟩ := ih (pre ++ [x]) (by rw [hr]; simp) x (by simp) { s with old := x.t } S a hs rfl (by omega)
      rw [hlen] at h1 h2
      refine ⟨bs, h1, ?_, h3⟩
      rw [h2]
      congr 1
      have : pre.length + 1 - a = (pre.length - a) + 1 := by omega
      rw [this, List.take_add_one]
      congr 1
      rw [List.getElem?_drop, hr]
      have : a + (pre.length - a) = pre.length := by omega
      rw [this]
      simp

theorem length_cuts (rows : List (Row7 K)) (q : List ℕ) : (cuts rows q).length = q.length - 1 := by
  induction q with
  | nil => rfl
  | cons a q ih =>
    cases q with
    | nil => rfl
    | cons b q => rw [cuts, List.length_cons, ih]; simp

theorem cuts_get (rows : List (Row7 K)) (q : List ℕ) (k : ℕ) (hk : k + 1 < q.length) : (cuts rows q)[k]? = some ((rows.drop q[k]).take (q[k + 1] - q[k])) := by
  induction q generalizing k with
  | nil => simp at hk
  | cons a q ih =>
    cases q with
    | nil => simp at hk
    | cons b q =>
      rw [cuts]
      cases k with
      | zero => rfl
      | succ k =>
        rw [List.getElem?_cons_succ, ih k (by simpa using hk)]
        rfl

/-- The scan of the times finds the trajectories. -/
theorem chainScan_ok (rows : List (Row7 K)) (hne : rows ≠ []) :
    ∃ segs, Trajectories rows segs ∧ cuts rows ((chainScan (rows.map Row7.t)).starts ++ [rows.length]) = segs ∧
      ∀ b ∈ (chainScan (rows.map Row7.t)).starts, b ≤ rows.length := by
  cases rows with
  | nil => exact absurd rfl hne
  | cons x l =>
    unfold chainScan
    rw [List.map_cons, List.zipIdx_cons, List.foldl_cons]
    have e : chainLine ⟨0, [0], [], []⟩ (x.t, 0) = ⟨x.t, [0], [], []⟩ := by
      unfold chainLine
      rw [if_neg (by simp)]
    rw [e]
    obtain ⟨bs, h1, h2, h3⟩ := chainScan_fold (x :: l) l [x] rfl x rfl ⟨x.t, [0], [], []⟩ [] 0 rfl rfl (by simp)
    have ht := pieces_spec [x] x rfl (by simp) l
    refine ⟨pieces [x] x l, ht, ?_, ?_⟩
    · erw [h1]; exact h2
    · erw [h1]
      intro b hb
      rcases List.mem_cons.1 hb with rfl | hb
      · simp
      · exact h3 b hb

/-- The trajectories that are used: those of at least ten rows, without the last one. -/
def usedOf (segs : List (List (Row7 K))) : List (List (Row7 K)) := segs.dropLast.filter fun s => decide (10 ≤ s.length)

theorem chainTables_ok (lib : FitLib K) (o : CsvOpts K) (hv : o.vel = false) (hi : o.interp = false)
    (rows : List (Row7 K)) (hne : rows ≠ []) :
    ∃ segs, Trajectories rows segs ∧ chainTables lib o rows = .ok (usedOf segs) := by
  obtain ⟨segs, ht, hc, hb⟩ := chainScan_ok rows hne
  refine ⟨segs, ht, ?_⟩
  unfold chainTables
  dsimp only
  generalize (chainScan (rows.map Row7.t)).durations.foldl (fun a b => if a > b then a else b) 0 = md
  generalize (chainScan (rows.map Row7.t)).lengths.foldl (fun a b => if a > b then a else b) 0 = ms
  generalize (chainScan (rows.map Row7.t)).starts = starts at hc hb
  have hlen : segs.length = starts.length := by rw [← hc, length_cuts]; simp
  have hget : ∀ k (hk : k < starts.length), ∃ a b, at' (starts ++ [rows.length]) k = .ok a ∧ at' (starts ++ [rows.length]) (k + 1) = .ok b ∧
      segs[k]? = some ((rows.drop a).take (b - a)) ∧ ((rows.drop a).take (b - a)).length = b - a := by
    intro k hk
    have h1 : k < (starts ++ [rows.length]).length := by simp; omega
    have h2 : k + 1 < (starts ++ [rows.length]).length := by simp; omega
    refine ⟨_, _, at_some h1, at_some h2, by rw [← hc]; exact cuts_get rows _ k h2, ?_⟩
    have : (starts ++ [rows.length])[k + 1] ≤ rows.length := by
      have := List.getElem_mem h2
      rcases List.mem_append.1 this with h | h
      · exact hb _ h
      · rw [List.mem_singleton] at h; exact le_of_eq h
    rw [List.length_take, List.length_drop]
    omega
  have key : ∀ m, m ≤ starts.length → (List.range m).foldlM (fun acc idx => do
      let a ← at' (starts ++ [rows.length]) idx
      let b ← at' (starts ++ [rows.length]) (idx + 1)
      if b - a < 10 then pure acc
      else
        let table ← chainTable lib o md ms ((rows.drop a).take (b - a))
        pure (acc ++ [table])) [] = (.ok ((segs.take m).filter fun s => decide (10 ≤ s.length)) : Run (List (List (Row7 K)))) := by
    intro m
    induction m with
    | zero => intro _; rfl
    | succ m ih =>
      intro hm
      obtain ⟨a, b, e1, e2, e3, e4⟩ := hget m (by omega)
      rw [List.range_succ, List.foldlM_append, ih (by omega), run_bind_ok, List.foldlM_cons, e1, run_bind_ok, e2, run_bind_ok, List.take_add_one, e3,
        List.filter_append]
      by_cases h10 : b - a < 10
      · rw [if_pos h10, run_pure, run_bind_ok, List.foldlM_nil, run_pure]
        simp only [Option.toList_some]
        rw [List.filter_cons_of_neg (by rw [e4]; simpa using h10), List.filter_nil, List.append_nil]
      · have et : chainTable lib o md ms ((rows.drop a).take (b - a)) = .ok ((rows.drop a).take (b - a)) := by
          unfold chainTable
          rw [if_neg (by rw [hi]; decide), if_neg (by rw [hv]; decide)]
        rw [if_neg h10, et, run_bind_ok, run_pure, run_bind_ok, List.foldlM_nil, run_pure]
        simp only [Option.toList_some]
        rw [List.filter_cons_of_pos (by rw [e4]; simp; omega), List.filter_nil]
  rw [key _ (by omega)]
  unfold usedOf
  rw [List.dropLast_eq_take, hlen]

/-! ### Writing the groups -/

/-- `out` are the rows, those not later than 0 or than an earlier row replaced by zeros. -/
def Blanked (rows out : List (Row7 K)) : Prop :=
  out.length = rows.length ∧ ∀ a r b, rows = a ++ r :: b →
    out[a.length]? = some (if 0 < r.t ∧ ∀ x ∈ a, x.t < r.t then r else ⟨0, fun _ => 0, fun _ => 0⟩)

/-- The conditions on a table: its first row has a velocity, at most 500 rows with a time of 0 or less, no time more than 501 times. -/
def TableOk (rows : List (Row7 K)) : Prop :=
  (∃ r, rows.head? = some r ∧ r.v 2 ≠ nan) ∧ rows.countP (fun x => decide (x.t ≤ 0)) ≤ 500 ∧
    ∀ r ∈ rows, 0 < r.t → rows.countP (fun x => decide (x.t = r.t)) ≤ 501

/-- The rows written. -/
def blanked (old : F K) : List (Row7 K) → List (Row7 K)
  | [] => []
  | r :: rest => if r.t ≤ old then zeroRow :: blanked old rest else r :: blanked r.t rest

theorem csvLine_blank (rows : List (Row7 K)) (s : CsvState K) :
    (fewFails s.fails s.old rows → ∃ r, rows.foldlM (csvLine [zeroRow]) s = .ok r ∧ r.out = s.out ++ blanked s.old rows) ∧
    (¬ fewFails s.fails s.old rows → rows.foldlM (csvLine [zeroRow]) s = .error .explicit) := by
  induction rows generalizing s with
  | nil => exact ⟨fun _ => ⟨s, rfl, by simp [blanked]⟩, fun h => absurd trivial h⟩
  | cons r rest ih =>
    rw [List.foldlM_cons]
    unfold csvLine fewFails blanked
    by_cases h : r.t ≤ s.old
    · rw [if_pos h, if_pos h, if_pos h]
      by_cases hm : s.fails + 1 ≤ MAX_FAILS
      · rw [if_neg (by omega), run_bind_ok]
        obtain ⟨h1, h2⟩ := ih ⟨s.old, s.fails + 1, s.out ++ [zeroRow], s.stats⟩
        refine ⟨fun hf => ?_, fun hf => ?_⟩
        · obtain ⟨q, e, eo⟩ := h1 hf.2
          exact ⟨q, e, by rw [eo]; simp⟩
        · exact h2 fun hf' => hf ⟨hm, hf'⟩
      · rw [if_pos (by omega)]
        exact ⟨fun hf => absurd hf.1 hm, fun _ => rfl⟩
    · rw [if_neg h, if_neg h, if_neg h, run_bind_ok]
      obtain ⟨h1, h2⟩ := ih ⟨r.t, 0, s.out ++ [r], s.stats.see r⟩
      refine ⟨fun hf => ?_, fun hf => h2 hf⟩
      obtain ⟨q, e, eo⟩ := h1 hf
      exact ⟨q, e, by rw [eo]; simp⟩

theorem blanked_spec (rows : List (Row7 K)) (hn : ∀ r ∈ rows, r.t ≠ nan) (old : F K) (ho : old ≠ nan) :
    (blanked old rows).length = rows.length ∧ ∀ a r b, rows = a ++ r :: b →
      (blanked old rows)[a.length]? = some (if old < r.t ∧ ∀ x ∈ a, x.t < r.t then r else zeroRow) := by
  induction rows generalizing old with
  | nil => exact ⟨rfl, by intro a r b e; simp at e⟩
  | cons x rest ih =>
    have hx := hn x (by simp)
    have hrest : ∀ y ∈ rest, y.t ≠ nan := fun y hy => hn y (by simp [hy])
    unfold blanked
    by_cases h : x.t ≤ old
    · rw [if_pos h]
      obtain ⟨h1, h2⟩ := ih hrest old ho
      refine ⟨by simp [h1], ?_⟩
      intro a r b e
      cases a with
      | nil =>
        simp only [List.nil_append, List.cons.injEq] at e
        obtain ⟨rfl, rfl⟩ := e
        rw [if_neg (fun hc => F.not_lt_of_le' h hc.1)]; rfl
      | cons y a =>
        simp only [List.cons_append, List.cons.injEq] at e
        obtain ⟨rfl, e⟩ := e
        rw [List.length_cons, List.getElem?_cons_succ, h2 a r b e]
        congr 1
        refine if_congr ?_ rfl rfl
        constructor
        · rintro ⟨k1, k2⟩
          refine ⟨k1, ?_⟩
          intro z hz
          rcases List.mem_cons.1 hz with rfl | hz
          · exact F.lt_of_le_of_lt' h k1
          · exact k2 z hz
        · rintro ⟨k1, k2⟩
          exact ⟨k1, fun z hz => k2 z (by simp [hz])⟩
    · rw [if_neg h]
      have hlt : old < x.t := (F.lt_or_le' ho hx).resolve_right h
      obtain ⟨h1, h2⟩ := ih hrest x.t hx
      refine ⟨by simp [h1], ?_⟩
      intro a r b e
      cases a with
      | nil =>
        simp only [List.nil_append, List.cons.injEq] at e
        obtain ⟨rfl, rfl⟩ := e
        rw [if_pos ⟨hlt, by simp⟩]; rfl
      | cons y a =>
        simp only [List.cons_append, List.cons.injEq] at e
        obtain ⟨rfl, e⟩ := e
        rw [List.length_cons, List.getElem?_cons_succ, h2 a r b e]
        congr 1
        refine if_congr ?_ rfl rfl
        constructor
        · rintro ⟨k1, k2⟩
          refine ⟨F.lt_of_le_of_lt' (F.le_of_lt' hlt) k1, ?_⟩
          intro z hz
          rcases List.mem_cons.1 hz with rfl | hz
          · exact k1
          · exact k2 z hz
        · rintro ⟨_, k2⟩
          exact ⟨k2 x (by simp), fun z hz => k2 z (by simp [hz])⟩

theorem multiStep_spec (radius : F K) (ptype : Option (F K)) (pid : ℕ → F K) (s : MultiState K) (table : List (Row7 K)) (k : ℕ)
    (hn : ∀ r ∈ table, r.t ≠ nan) (hpw : table.Pairwise fun a b => a.t ≤ b.t) :
    (TableOk table → ∃ r rows', Blanked table rows' ∧ multiStep radius ptype pid s (table, k) = .ok r ∧
      r.groups = s.groups ++ [csvGroup rows' table.length radius ptype (pid k)] ∧ r.steps = max s.steps table.length) ∧
    (¬ TableOk table → ∃ e, multiStep radius ptype pid s (table, k) = .error e) := by
  have hz : (0 : F K) ≠ nan := by rw [F.zero_def]; simp
  have hff := fewFails_iff table hn hpw 0 hz 0 (by simp)
  rw [Nat.zero_add] at hff
  obtain ⟨f1, f2⟩ := csvLine_blank table ⟨0, 0, [], s.stats⟩
  dsimp only at f1 f2
  unfold multiStep csvLines
  dsimp only
  cases hsd : table with
  | nil =>
    refine ⟨?_, fun _ => ⟨_, rfl⟩⟩
    rintro ⟨⟨r, h, _⟩, _⟩; cases h
  | cons r0 rest =>
    rw [← hsd]
    have e0 : at' table 0 = .ok r0 := at_getElem? (by rw [hsd]; rfl)
    have hh : table.head? = some r0 := by rw [hsd]; rfl
    rw [e0, run_bind_ok]
    by_cases hnan : (r0.v 2).isNaN = true
    · rw [if_pos hnan]
      have hnan' : r0.v 2 = nan := by
        revert hnan
        cases r0.v 2 <;> simp [F.isNaN]
      refine ⟨?_, fun _ => ⟨_, rfl⟩⟩
      rintro ⟨⟨r, h, hr⟩, _⟩
      rw [hh] at h; cases h
      exact absurd hnan' hr
    · rw [if_neg hnan]
      have hv2 : r0.v 2 ≠ nan := by
        intro h
        rw [h] at hnan
        exact hnan rfl
      by_cases hfew : fewFails 0 0 table
      · obtain ⟨q, e, eo⟩ := f1 hfew
        rw [e, run_bind_ok, run_pure]
        refine ⟨fun _ => ⟨_, blanked 0 table, blanked_spec table hn 0 hz, rfl, ?_, ?_⟩, fun h => absurd ⟨⟨r0, hh, hv2⟩, hff.1 hfew⟩ h⟩
        · dsimp only
          rw [eo, List.nil_append]
        · dsimp only
          split_ifs with hgt <;> omega
      · rw [f2 hfew, run_bind_error]
        exact ⟨fun h => absurd (hff.2 h.2) hfew, fun _ => ⟨_, rfl⟩⟩

/-- The group holds the table. -/
def GroupHolds (radius : F K) (ptype : Option (F K)) (pid : F K) (table : List (Row7 K)) (g : PGroup K) : Prop :=
  ∃ rows', Blanked table rows' ∧ g = csvGroup rows' table.length radius ptype pid

theorem multi_fold (radius : F K) (ptype : Option (F K)) (pid : ℕ → F K) (tables : List (List (Row7 K)))
    (hn : ∀ t ∈ tables, (∀ r ∈ t, r.t ≠ nan) ∧ t.Pairwise fun a b => a.t ≤ b.t) (k : ℕ) (s : MultiState K) :
    ((∀ t ∈ tables, TableOk t) → ∃ r gs, (tables.zipIdx k).foldlM (multiStep radius ptype pid) s = .ok r ∧ r.groups = s.groups ++ gs ∧
      r.steps = tables.foldl (fun m t => max m t.length) s.steps ∧
      List.Forall₂ (fun (x : List (Row7 K) × ℕ) g => GroupHolds radius ptype (pid x.2) x.1 g) (tables.zipIdx k) gs) ∧
    ((¬ ∀ t ∈ tables, TableOk t) → ∃ e, (tables.zipIdx k).foldlM (multiStep radius ptype pid) s = .error e) := by
  induction tables generalizing k s with
  | nil => exact ⟨fun _ => ⟨s, [], rfl, by simp, rfl, .nil⟩, fun h => absurd (by simp) h⟩
  | cons t tables ih =>
    rw [List.zipIdx_cons, List.foldlM_cons]
    obtain ⟨s1, s2⟩ := multiStep_spec radius ptype pid s t k (hn t (by simp)).1 (hn t (by simp)).2
    by_cases ht : TableOk t
    · obtain ⟨r, rows', hb, e, eg, es⟩ := s1 ht
      rw [e, run_bind_ok]
      obtain ⟨i1, i2⟩ := ih (fun t ht => hn t (by simp [ht])) (k + 1) r
      refine ⟨fun h => ?_, fun h => i2 fun h' => h ?_⟩
      · obtain ⟨r', gs, e', eg', es', hf⟩ := i1 (fun t ht => h t (by simp [ht]))
        refine ⟨r', csvGroup rows' t.length radius ptype (pid k) :: gs, e', ?_, ?_, .cons ⟨rows', hb, rfl⟩ hf⟩
        · rw [eg', eg]; simp
        · rw [es', es]; rfl
      · intro x hx
        rcases List.mem_cons.1 hx with rfl | hx
        · exact ht
        · exact h' x hx
    · obtain ⟨e, he⟩ := s2 ht
      rw [he]
      exact ⟨fun h => absurd (h t (by simp)) ht, fun _ => ⟨e, rfl⟩⟩

theorem multiWrite_spec (radius : F K) (ptype : Option (F K)) (pid : ℕ → F K) (tables : List (List (Row7 K)))
    (hn : ∀ t ∈ tables, (∀ r ∈ t, r.t ≠ nan) ∧ t.Pairwise fun a b => a.t ≤ b.t) :
    ((∃ out, multiWrite radius ptype pid tables = .ok out) ↔ ∀ t ∈ tables, TableOk t) ∧
    ∀ out, multiWrite radius ptype pid tables = .ok out →
      List.Forall₂ (fun (x : List (Row7 K) × ℕ) g => GroupHolds radius ptype (pid x.2) x.1 g) tables.zipIdx out.groups ∧ out.attrs.np = 1 ∧
      out.attrs.n = tables.foldl (fun m t => max m t.length) 0 := by
  obtain ⟨f1, f2⟩ := multi_fold radius ptype pid tables hn 0 ⟨[], 0, CsvStats.init, List.replicate 100 0⟩
  unfold multiWrite
  by_cases h : ∀ t ∈ tables, TableOk t
  · obtain ⟨r, gs, e, eg, es, hf⟩ := f1 h
    rw [e, run_bind_ok, run_pure]
    refine ⟨⟨fun _ => h, fun _ => ⟨_, rfl⟩⟩, ?_⟩
    intro out ho
    cases ho
    rw [List.nil_append] at eg
    exact ⟨by dsimp only; rw [eg]; exact hf, rfl, es⟩
  · obtain ⟨e, he⟩ := f2 h
    rw [he, run_bind_error]
    refine ⟨⟨?_, fun h' => absurd h' h⟩, ?_⟩
    · rintro ⟨_, h⟩; cases h
    · intro _ h; cases h

/-! ### C68 -/

theorem chain_pairwise {l : List (Row7 K)} (hn : ∀ r ∈ l, r.t ≠ nan) (h : l.IsChain fun a b => ¬ b.t < a.t) : l.Pairwise fun a b => a.t ≤ b.t := by
  induction l with
  | nil => exact List.Pairwise.nil
  | cons x l ih =>
    have ih' := ih (fun r hr => hn r (by simp [hr])) h.tail
    refine List.pairwise_cons.2 ⟨?_, ih'⟩
    cases l with
    | nil => simp
    | cons y l =>
      have hxy : x.t ≤ y.t := (F.lt_or_le' (hn y (by simp)) (hn x (by simp))).resolve_left (List.isChain_cons_cons.1 h).1
      intro z hz
      rcases List.mem_cons.1 hz with rfl | hz
      · exact hxy
      · exact F.le_trans' hxy ((List.pairwise_cons.1 ih').1 z hz)

/-- **C68, partial.** A CSV file of time, position and velocity columns with one trajectory after the other, converted without interpolation and velocity
computation: the trajectories are the longest pieces in which the time does not go back; those of at least ten rows, except the last, become the
particles of the output, in order, each with its own rows (rows not later than time 0 or than an earlier row of the trajectory are replaced by zeros).
Missing: the last trajectory (`C68_false`), trajectories of fewer than ten rows, and the blanked rows. -/
theorem C68_chain_partial (lib : FitLib K) (o : CsvOpts K) (hv : o.vel = false) (hi : o.interp = false)
    (h7 : o.cols.length = 7) (raw : List (List (F K))) (rows : List (Row7 K)) (hrow : List.Forall₂ (RowOf o.cols) raw rows) (ht : ∀ r ∈ rows, r.t ≠ nan)
    (hne : rows ≠ []) :
    ∃ segs, Trajectories rows segs ∧
      ((∃ out, chainConvert lib o raw = .ok out) ↔ ∀ t ∈ usedOf segs, TableOk t) ∧
      ∀ out, chainConvert lib o raw = .ok out →
        List.Forall₂ (fun t g => GroupHolds o.radius none 1 t g) (usedOf segs) out.groups ∧ out.attrs.np = 1 ∧
        out.attrs.n = (usedOf segs).foldl (fun m t => max m t.length) 0 := by
  obtain ⟨segs, htr, e⟩ := chainTables_ok lib o hv hi rows hne
  have hsub : ∀ t ∈ usedOf segs, t ∈ segs := by
    intro t h
    exact List.dropLast_subset _ (List.mem_filter.1 h).1
  have hn : ∀ t ∈ usedOf segs, (∀ r ∈ t, r.t ≠ nan) ∧ t.Pairwise fun a b => a.t ≤ b.t := by
    intro t h
    have h1 : ∀ r ∈ t, r.t ≠ nan := by
      intro r hr
      refine ht r ?_
      rw [← htr.all]
      exact List.mem_flatten.2 ⟨t, hsub t h, hr⟩
    exact ⟨h1, chain_pairwise h1 (htr.inside t (hsub t h))⟩
  obtain ⟨w1, w2⟩ := multiWrite_spec o.radius none (fun _ => (1 : F K)) (usedOf segs) hn
  have hck : chainConvert lib o raw = multiWrite o.radius none (fun _ => 1) (usedOf segs) := by
    unfold chainConvert
    rw [pickColumns_seven o.cols h7 raw rows hrow, run_bind_ok, e, run_bind_ok]
  rw [hck]
  refine ⟨segs, htr, w1, ?_⟩
  intro out ho
  obtain ⟨a, b⟩ := w2 out ho
  refine ⟨?_, b⟩
  rw [List.forall₂_iff_get] at a ⊢
  refine ⟨by simpa using a.1, fun i h1 h2 => ?_⟩
  have := a.2 i (by simpa using h1) h2
  simpa using this

/-- Reading the first particle of an output. -/
theorem multi_read [LawfulArith K] (radius : F K) (ptype : Option (F K)) (pid : F K) (first : List (Row7 K)) (g : PGroup K) (gs : List (PGroup K)) (out : POut K)
    (hg : GroupHolds radius ptype pid first g) (hgs : out.groups = g :: gs) (hnp : out.attrs.np = 1)
    (hn : out.attrs.n = first.length) (h1 : 1 ≤ first.length) (h2 : first.length ≤ 2 ^ 50)
    (p : Profile) (dflt : Timestep K) (ts : List ℕ) (hts : ∀ t ∈ ts, t < first.length) :
    ∃ rows' l, Blanked first rows' ∧ out.file.session p dflt ts = .ok l ∧
      List.Forall₂ (fun t x => ∃ r, rows'[t]? = some r ∧ x.time = r.t ∧ x.position = [r.p] ∧ x.velocity = [r.v] ∧ x.radius = [radius] ∧
        x.ptype = [ptype.getD 0] ∧ x.particleid = [F.ofNat 0] ∧ x.clouds = [1] ∧ x.density = [0]) ts l := by
  obtain ⟨groups, attrs⟩ := out
  dsimp only at hgs hnp hn
  subst hgs
  obtain ⟨rows', hb, rfl⟩ := hg
  obtain ⟨l, e, hl⟩ := csv_readback rows' first.length (le_of_eq hb.1) radius ptype pid gs first.length (le_of_eq hb.1.symm) h1 h2 p dflt ts hts
  refine ⟨rows', l, hb, ?_, hl⟩
  rw [← e]
  dsimp only [POut.file]
  rw [hnp, hn]

theorem multi_unreadable (radius : F K) (ptype : Option (F K)) (pid : F K) (first : List (Row7 K)) (g : PGroup K) (gs : List (PGroup K)) (out : POut K)
    (hg : GroupHolds radius ptype pid first g) (hgs : out.groups = g :: gs) (hnp : out.attrs.np = 1)
    (hn : first.length < out.attrs.n) (hb : first.length < BUFFERSIZE) (p : Profile) (dflt : Timestep K) (ts : List ℕ) :
    ∃ e, out.file.session p dflt ts = .error e := by
  obtain ⟨groups, attrs⟩ := out
  dsimp only at hgs hnp hn
  subst hgs
  obtain ⟨rows', hbl, rfl⟩ := hg
  have hlt : first.length < if BUFFERSIZE ≥ attrs.n then attrs.n else BUFFERSIZE := by split_ifs <;> omega
  have hcol : ∀ hi, first.length < hi → pColumn (csvGroup rows' first.length radius ptype pid :: gs) 0 hi 0 = .error .index := by
    intro hi hlt
    unfold pColumn
    simp only [List.getElem?_cons_zero, need, run_bind_ok, csvGroup]
    have : sliceOf (rows'.map Row7.p) 0 hi = .error .index := by
      unfold sliceOf
      rw [if_neg]
      rintro ⟨_, h⟩
      rw [List.length_map, hbl.1] at h
      omega
    rw [this, run_bind_error]
  unfold H5.session H5.openBuf H5.update POut.file
  dsimp only
  rw [hnp]
  unfold pUpdate
  dsimp only
  generalize (if BUFFERSIZE ≥ attrs.n then attrs.n else BUFFERSIZE) = hi at hlt
  cases usub p hi 0 with
  | error e => exact ⟨e, rfl⟩
  | ok size =>
    rw [run_bind_ok, if_neg (by omega)]
    have : pColumns (csvGroup rows' first.length radius ptype pid :: gs) 1 0 hi = .error .index := by
      unfold pColumns
      rw [List.range_one, List.foldlM_cons, hcol hi hlt]
      rfl
    rw [this]
    exact ⟨_, rfl⟩

theorem foldl_max_ge {α : Type} (f : α → ℕ) (l : List α) (m : ℕ) : m ≤ l.foldl (fun m t => max m (f t)) m ∧ (∀ t ∈ l, f t ≤ l.foldl (fun m t => max m (f t)) m) ∧
    (l.foldl (fun m t => max m (f t)) m = m ∨ ∃ t ∈ l, l.foldl (fun m t => max m (f t)) m = f t) := by
  induction l generalizing m with
  | nil => simp
  | cons a l ih =>
    obtain ⟨h1, h2, h3⟩ := ih (max m (f a))
    rw [List.foldl_cons]
    refine ⟨le_trans (le_max_left _ _) h1, ?_, ?_⟩
    · intro t ht
      rcases List.mem_cons.1 ht with rfl | ht
      · exact le_trans (le_max_right _ _) h1
      · exact h2 t ht
    · rcases h3 with h3 | ⟨t, ht, e⟩
      · rcases max_cases m (f a) with ⟨e, _⟩ | ⟨e, _⟩
        · left; rw [h3, e]
        · right; exact ⟨a, by simp, by rw [h3, e]⟩
      · exact Or.inr ⟨t, by simp [ht], e⟩

/-- **C68, reading.** If the first of the used trajectories is as long as any of them, whatever a particle-based manager reads from the output, in any order
and in both build profiles, is the rows of this trajectory. (The others cannot be read: the recorded number of particles is 1.) If it is shorter than
another one (and than the buffer), the output cannot even be opened. -/
theorem C68_read_partial [LawfulArith K] (lib : FitLib K) (o : CsvOpts K) (hv : o.vel = false) (hi : o.interp = false)
    (h7 : o.cols.length = 7) (raw : List (List (F K))) (rows : List (Row7 K)) (hrow : List.Forall₂ (RowOf o.cols) raw rows) (ht : ∀ r ∈ rows, r.t ≠ nan)
    (hne : rows ≠ []) (out : POut K) (ho : chainConvert lib o raw = .ok out) :
    ∃ segs, Trajectories rows segs ∧ ∀ first rest, usedOf segs = first :: rest →
      ((∀ t ∈ rest, t.length ≤ first.length) → first.length ≤ 2 ^ 50 → ∀ (p : Profile) (dflt : Timestep K) (ts : List ℕ), (∀ t ∈ ts, t < first.length) →
        ∃ rows' l, Blanked first rows' ∧ out.file.session p dflt ts = .ok l ∧
          List.Forall₂ (fun t x => ∃ r, rows'[t]? = some r ∧ x.time = r.t ∧ x.position = [r.p] ∧ x.velocity = [r.v] ∧ x.radius = [o.radius] ∧
            x.ptype = [0] ∧ x.particleid = [F.ofNat 0] ∧ x.clouds = [1] ∧ x.density = [0]) ts l) ∧
      ((∃ t ∈ rest, first.length < t.length) → first.length < BUFFERSIZE → ∀ (p : Profile) (dflt : Timestep K) (ts : List ℕ),
        ∃ e, out.file.session p dflt ts = .error e) := by
  obtain ⟨segs, h1, h2, h3⟩ := C68_chain_partial lib o hv hi h7 raw rows hrow ht hne
  obtain ⟨k1, k2, k3⟩ := h3 out ho
  refine ⟨segs, h1, ?_⟩
  intro first rest e
  rw [e] at k1 k3
  generalize hgr : out.groups = groups at k1
  cases k1 with
  | @cons _ g _ gs hg hgs =>
    obtain ⟨m1, m2, m3⟩ := foldl_max_ge List.length (first :: rest) 0
    constructor
    · intro hlong hsize p dflt ts hts
      have hn : out.attrs.n = first.length := by
        rw [k3]
        apply le_antisymm
        · rcases m3 with m3 | ⟨t, ht, m3⟩
          · rw [m3]; omega
          · rw [m3]
            rcases List.mem_cons.1 ht with rfl | ht
            · exact le_refl _
            · exact hlong t ht
        · exact m2 first (by simp)
      have h10 : 10 ≤ first.length := by
        have : first ∈ usedOf segs := by rw [e]; simp
        simpa using (List.mem_filter.1 this).2
      exact multi_read o.radius none 1 first g gs out hg hgr k2 hn (by omega) hsize p dflt ts hts
    · rintro ⟨t, ht, hlt⟩ hbuf p dflt ts
      refine multi_unreadable o.radius none 1 first g gs out hg hgr k2 ?_ hbuf p dflt ts
      rw [k3]
      exact lt_of_lt_of_le hlt (m2 t (by simp [ht]))

theorem single_trajectory {rows : List (Row7 K)} {segs : List (List (Row7 K))} (h : Trajectories rows segs) (hn : ∀ r ∈ rows, r.t ≠ nan) (hne : rows ≠ [])
    (hc : rows.IsChain fun a b => ¬ b.t < a.t) : segs = [rows] := by
  have hpw := chain_pairwise hn hc
  cases segs with
  | nil => exact absurd h.all.symm hne
  | cons s segs =>
    cases segs with
    | nil => have := h.all; simp at this; rw [this]
    | cons s' segs =>
      exfalso
      obtain ⟨⟨a, b, h1, h2, h3⟩, _⟩ := List.isChain_cons_cons.1 h.between
      rw [← h.all, List.flatten_cons, List.pairwise_append] at hpw
      have := hpw.2.2 a (List.mem_of_getLast? h1) b (by
        rw [List.flatten_cons]
        exact List.mem_append_left _ (List.mem_of_head? h2))
      exact F.not_lt_of_le' this h3

/-- **C68 refuted in general:** for every file with a single trajectory, the conversion succeeds and gives an output without any particle. -/
theorem C68_false (lib : FitLib K) (o : CsvOpts K) (hv : o.vel = false) (hi : o.interp = false)
    (h7 : o.cols.length = 7) (raw : List (List (F K))) (rows : List (Row7 K)) (hrow : List.Forall₂ (RowOf o.cols) raw rows) (ht : ∀ r ∈ rows, r.t ≠ nan)
    (hne : rows ≠ []) (hc : rows.IsChain fun a b => ¬ b.t < a.t) :
    ∃ out, chainConvert lib o raw = .ok out ∧ out.groups = [] := by
  obtain ⟨segs, h1, h2, h3⟩ := C68_chain_partial lib o hv hi h7 raw rows hrow ht hne
  rw [single_trajectory h1 ht hne hc] at h2 h3
  obtain ⟨out, e⟩ := h2.2 (by simp [usedOf])
  refine ⟨out, e, ?_⟩
  have := (h3 out e).1
  simpa [usedOf] using this

/-- A trajectory of ten rows. -/
noncomputable def tenRows : List (Row7 ℝ) := (List.range 10).map fun k : ℕ => ⟨fin ((k : ℝ) + 1), fun _ => 0, fun _ => 0⟩

theorem tenRows_sorted : tenRows.Pairwise fun a b => a.t < b.t := by
  unfold tenRows
  rw [List.pairwise_map]
  refine List.pairwise_lt_range.imp ?_
  intro a b h
  have : (a : ℝ) < b := by exact_mod_cast h
  dsimp only
  exact (F.lt_fin ((a : ℝ) + 1) ((b : ℝ) + 1)).2 (by linarith)

/-- The hypotheses of C68 hold, and one trajectory is used, for a file in which a trajectory of ten rows is repeated. -/
example : (∃ raw, List.Forall₂ (RowOf [0, 1, 2, 3, 4, 5, 6]) raw (tenRows ++ tenRows)) ∧ (∀ r ∈ tenRows ++ tenRows, r.t ≠ nan) ∧
    Trajectories (tenRows ++ tenRows) [tenRows, tenRows] ∧ usedOf [tenRows, tenRows] = [tenRows] ∧ TableOk tenRows := by
  have hlen : tenRows.length = 10 := by simp [tenRows]
  have hhead : tenRows.head? = some ⟨fin (((0 : ℕ) : ℝ) + 1), fun _ => 0, fun _ => 0⟩ := rfl
  have hlast : tenRows.getLast? = some ⟨fin (((9 : ℕ) : ℝ) + 1), fun _ => 0, fun _ => 0⟩ := rfl
  have hne : tenRows ≠ [] := by intro h; rw [h] at hlen; cases hlen
  have hchain : tenRows.IsChain fun a b => ¬ b.t < a.t := (tenRows_sorted.imp fun h h' => flt_asymm h h').isChain
  refine ⟨⟨(tenRows ++ tenRows).map fun r => [r.t, r.p 0, r.p 1, r.p 2, r.v 0, r.v 1, r.v 2], ?_⟩, ?_, ?_, ?_, ?_⟩
  · rw [List.forall₂_map_left_iff, List.forall₂_same]
    intro r _
    refine ⟨rfl, fun j => ?_, fun j => ?_⟩ <;> fin_cases j <;> rfl
  · intro r hr
    have : r ∈ tenRows := by simpa using hr
    obtain ⟨k, _, rfl⟩ := List.mem_map.1 this
    simp
  · refine ⟨by simp, ?_, ?_, ?_⟩
    all_goals first
      | (intro x hx; have : x = tenRows := by simpa using hx
         subst this; first | exact hne | exact hchain)
      | skip
    refine List.isChain_cons_cons.2 ⟨⟨_, _, hlast, hhead, ?_⟩, by simp⟩
    exact (F.lt_fin _ _).2 (by norm_num)
  · simp [usedOf, hlen]
  · refine ⟨⟨_, hhead, ?_⟩, le_trans List.countP_le_length (by omega), fun r _ _ => le_trans List.countP_le_length (by omega)⟩
    dsimp only; rw [F.zero_def]; simp

/-! ### Grouping by id -/

/-- The particle id of a row: its id column as a whole number. -/
def idOf (r : Row8 K) : ℕ := r.id.toUsize

theorem idLine_ids (s : IdState K) (r : Row8 K) :
    (idLine s r).ids = (if s.ids.contains (idOf r) then s.ids else s.ids ++ [idOf r]) ∧
    (idLine s r).steps = (if s.ids.contains (idOf r) then s.steps.set (s.ids.idxOf (idOf r)) (s.steps.getD (s.ids.idxOf (idOf r)) 0 + 1) else s.steps ++ [1]) := by
  unfold idLine idOf
  dsimp only
  split_ifs <;> exact ⟨rfl, rfl⟩

/-- After the rows `seen`: each id once, with its number of rows. -/
structure IdInv (seen : List (Row8 K)) (s : IdState K) : Prop where
  nodup : s.ids.Nodup
  len : s.steps.length = s.ids.length
  mem : ∀ i, i ∈ s.ids ↔ ∃ r ∈ seen, idOf r = i
  count : ∀ (k : ℕ) (i : ℕ), s.ids[k]? = some i → s.steps[k]? = some (seen.countP fun r => decide (idOf r = i))

theorem idLine_inv (seen : List (Row8 K)) (s : IdState K) (r : Row8 K) (h : IdInv seen s) : IdInv (seen ++ [r]) (idLine s r) := by
  obtain ⟨h1, h2, h3, h4⟩ := h
  obtain ⟨e1, e2⟩ := idLine_ids s r
  by_cases hc : s.ids.contains (idOf r) = true
  · rw [if_pos hc] at e1 e2
    have hm : idOf r ∈ s.ids := by simpa using hc
    have hk := List.idxOf_lt_length_of_mem hm
    have hg : s.ids[s.ids.idxOf (idOf r)]? = some (idOf r) := by
      rw [List.getElem?_eq_getElem hk, List.getElem_idxOf hk]
    refine ⟨by rw [e1]; exact h1, by rw [e1, e2, List.length_set]; exact h2, ?_, ?_⟩
    · intro i
      rw [e1, h3]
      constructor
      · rintro ⟨x, hx, e⟩; exact ⟨x, by simp [hx], e⟩
      · rintro ⟨x, hx, e⟩
        rcases List.mem_append.1 hx with hx | hx
        · exact ⟨x, hx, e⟩
        · rw [List.mem_singleton] at hx
          subst hx
          rw [← e]
          exact (h3 _).1 hm
    · intro k i hki
      rw [e1] at hki
      rw [e2, List.countP_append, List.countP_singleton]
      by_cases hkk : k = s.ids.idxOf (idOf r)
      · subst hkk
        rw [hg] at hki
        cases hki
        have := h4 _ _ hg
        rw [List.getElem?_set_self (by omega), List.getD_eq_getElem?_getD, this]
        simp
      · rw [List.getElem?_set_ne (fun h => hkk h.symm), h4 k i hki]
        have : ¬ idOf r = i := by
          rintro rfl
          obtain ⟨hk', e⟩ := List.getElem?_eq_some_iff.1 hki
          apply hkk
          rw [← e, h1.idxOf_getElem k hk']
        simp [this]
  · rw [if_neg hc] at e1 e2
    have hm : idOf r ∉ s.ids := by simpa using hc
    refine ⟨by rw [e1, List.nodup_append]; exact ⟨h1, by simp, by rintro a ha b hb rfl; simp at hb; subst hb; exact hm ha⟩, by rw [e1, e2]; simp [h2], ?_, ?_⟩
    · intro i
      rw [e1, List.mem_append, h3, List.mem_singleton]
      constructor
      · rintro (⟨x, hx, e⟩ | rfl)
        · exact ⟨x, by simp [hx], e⟩
        · exact ⟨r, by simp, rfl⟩
      · rintro ⟨x, hx, e⟩
        rcases List.mem_append.1 hx with hx | hx
        · exact Or.inl ⟨x, hx, e⟩
        · rw [List.mem_singleton] at hx
          subst hx
          exact Or.inr e.symm
    · intro k i hki
      rw [e1] at hki
      rw [e2, List.countP_append, List.countP_singleton]
      rcases Nat.lt_trichotomy k s.ids.length with hk | hk | hk
      · rw [List.getElem?_append_left hk] at hki
        rw [List.getElem?_append_left (by omega), h4 k i hki]
        have : ¬ idOf r = i := by
          rintro rfl
          exact hm (List.mem_of_getElem? hki)
        simp [this]
      · subst hk
        rw [List.getElem?_append_right (le_refl _), Nat.sub_self] at hki
        cases hki
        rw [List.getElem?_append_right (by omega), h2, Nat.sub_self]
        have : seen.countP (fun x => decide (idOf x = idOf r)) = 0 := by
          rw [List.countP_eq_zero]
          intro x hx
          simp only [decide_eq_true_eq]
          intro e
          exact hm ((h3 _).2 ⟨x, hx, e⟩)
        simp [this]
      · rw [List.getElem?_append_right (by omega)] at hki
        rw [List.getElem?_eq_none (by simp; omega)] at hki
        cases hki

theorem idLine_fold (rows seen : List (Row8 K)) (s : IdState K) (h : IdInv seen s) : IdInv (seen ++ rows) (rows.foldl idLine s) := by
  induction rows generalizing seen s with
  | nil => simpa using h
  | cons r rows ih =>
    rw [List.foldl_cons]
    have := ih (seen ++ [r]) _ (idLine_inv seen s r h)
    simpa using this

/-- The rows of one particle. -/
def rowsOf (rows : List (Row8 K)) (i : ℕ) : List (Row8 K) := rows.filter fun r => decide (idOf r = i)

theorem idFill_fold (ids : List (ℕ × ℕ)) (hnd : (ids.map Prod.fst).Nodup) (rest seen : List (Row8 K))
    (hc : ∀ x ∈ ids, x.2 = (seen ++ rest).countP fun r => decide (idOf r = x.1)) (hm : ∀ r ∈ rest, idOf r ∈ ids.map Prod.fst) :
    (rest.foldlM (idFill ids) (ids.map fun x => rowsOf seen x.1) : Run _) = .ok (ids.map fun x => rowsOf (seen ++ rest) x.1) := by
  induction rest generalizing seen with
  | nil => simp [run_pure]
  | cons r rest ih =>
    rw [List.foldlM_cons]
    have hmem := hm r (by simp)
    have hk := List.idxOf_lt_length_of_mem hmem
    have hk' : (ids.map Prod.fst).idxOf (idOf r) < ids.length := by simpa using hk
    have hg : (ids[(ids.map Prod.fst).idxOf (idOf r)]).1 = idOf r := by
      have := List.getElem_idxOf hk
      rwa [List.getElem_map] at this
    have hstep : idFill ids (ids.map fun x => rowsOf seen x.1) r = .ok (ids.map fun x => rowsOf (seen ++ [r]) x.1) := by
      unfold idFill
      change (match ids[(ids.map Prod.fst).idxOf (idOf r)]?, (ids.map fun x => rowsOf seen x.1)[(ids.map Prod.fst).idxOf (idOf r)]? with
        | some x, some l => if l.length < x.2 then .ok ((ids.map fun x => rowsOf seen x.1).set ((ids.map Prod.fst).idxOf (idOf r)) (l ++ [r])) else .error .index
        | _, _ => .error .unwrap : Run _) = _
      rw [List.getElem?_map, List.getElem?_eq_getElem hk', Option.map_some]
      dsimp only
      have hlt : (rowsOf seen (ids[(ids.map Prod.fst).idxOf (idOf r)]).1).length < (ids[(ids.map Prod.fst).idxOf (idOf r)]).2 := by
        rw [hc _ (List.getElem_mem hk'), List.countP_append, List.countP_cons_of_pos (by simp [hg]), rowsOf, ← List.countP_eq_length_filter]
        omega
      rw [if_pos hlt]
      congr 1
      apply List.ext_getElem?
      intro k
      by_cases hkk : k = (ids.map Prod.fst).idxOf (idOf r)
      · subst hkk
        rw [List.getElem?_set_self (by simpa using hk'), List.getElem?_map, List.getElem?_eq_getElem hk', Option.map_some]
        simp [rowsOf, hg]
      · rw [List.getElem?_set_ne (fun h => hkk h.symm), List.getElem?_map, List.getElem?_map]
        by_cases hkl : k < ids.length
        · rw [List.getElem?_eq_getElem hkl, Option.map_some, Option.map_some]
          have : ¬ idOf r = ids[k].1 := by
            intro e
            apply hkk
            have := hnd.idxOf_getElem k (by simpa using hkl)
            rw [List.getElem_map, ← e] at this
            exact this.symm
          simp [rowsOf, this]
        · rw [List.getElem?_eq_none (by omega)]; rfl
    rw [hstep, run_bind_ok, ih (seen ++ [r]) (by simpa using hc) (fun x hx => hm x (by simp [hx]))]
    simp

/-- **C69, grouping.** `sort_by_id` never panics on a table with a row, and gives one table for each id that occurs, in increasing order of the ids; the
table of an id has exactly the rows with this id, in the order of the file. -/
theorem C69_byId (rows : List (Row8 K)) (hne : rows ≠ []) : ∃ (keys : List ℕ) (maxT : F K) (maxSteps : ℕ), keys.Pairwise (· < ·) ∧ (∀ i, i ∈ keys ↔ ∃ r ∈ rows, idOf r = i) ∧
    sortById rows = .ok (keys.map (rowsOf rows), maxT, maxSteps) := by
  cases hr : rows with
  | nil => exact absurd hr hne
  | cons r0 rest =>
    rw [← hr]
    unfold sortById
    have e0 : at' rows 0 = .ok r0 := at_getElem? (by rw [hr]; rfl)
    rw [e0, run_bind_ok]
    dsimp only
    have hinv := idLine_fold rows [] ⟨[], [], 0, r0.row.t, r0.row.t⟩ ⟨by simp, rfl, by simp, by simp⟩
    rw [List.nil_append] at hinv
    generalize rows.foldl idLine ⟨[], [], 0, r0.row.t, r0.row.t⟩ = s at hinv
    obtain ⟨h1, h2, h3, h4⟩ := hinv
    set ids := (s.ids.zip s.steps).mergeSort fun a b => decide (a.1 ≤ b.1) with hids
    have hperm : ids.Perm (s.ids.zip s.steps) := List.mergeSort_perm _ _
    have hmap : (ids.map Prod.fst).Perm s.ids := by
      have := hperm.map Prod.fst
      rwa [List.map_fst_zip (by omega)] at this
    have hnd : (ids.map Prod.fst).Nodup := hmap.nodup_iff.2 h1
    have hle : ids.Pairwise fun a b => a.1 ≤ b.1 := by
      have := List.pairwise_mergeSort (le := fun a b : ℕ × ℕ => decide (a.1 ≤ b.1))
        (by intro a b c; simp only [decide_eq_true_eq]; omega) (by intro a b; simp only [Bool.or_eq_true, decide_eq_true_eq]; omega) (s.ids.zip s.steps)
      exact this.imp (by intro a b h; simpa using h)
    have hlt : (ids.map Prod.fst).Pairwise (· < ·) := by
      have h5 : (ids.map Prod.fst).Pairwise (· ≤ ·) := List.pairwise_map.2 hle
      exact (h5.and hnd).imp (by rintro a b ⟨h, h'⟩; omega)
    have hfill := idFill_fold ids hnd rows [] (by
      rw [List.nil_append]
      rintro ⟨i, c⟩ hx
      have := hperm.subset hx
      obtain ⟨k, hk, e⟩ := List.getElem_of_mem this
      rw [List.getElem_zip] at e
      cases e
      have hk1 : k < s.ids.length := by rw [List.length_zip] at hk; omega
      have hk2 : k < s.steps.length := by rw [List.length_zip] at hk; omega
      have := h4 k s.ids[k] (List.getElem?_eq_getElem hk1)
      rw [List.getElem?_eq_getElem hk2] at this
      exact Option.some.inj this) (by
      intro r hr
      exact hmap.symm.subset ((h3 _).2 ⟨r, hr, rfl⟩))
    rw [List.nil_append] at hfill
    have hinit : (ids.map fun _ => ([] : List (Row8 K))) = ids.map fun x => rowsOf [] x.1 := rfl
    rw [hinit, hfill, run_bind_ok, run_pure]
    refine ⟨ids.map Prod.fst, s.maxT, s.maxSteps, hlt, ?_, ?_⟩
    · intro i
      rw [hmap.mem_iff, h3]
    · rw [List.map_map]; rfl

/-! ### C69 -/

/-- `r` is the row of the columns time, id, x, y, z, vx, vy, vz of a line of the file. -/
def IdRowOf (cols : List ℕ) (cells : List (F K)) (r : Row8 K) : Prop :=
  (cols[0]?).bind (fun c => cells[c]?) = some r.row.t ∧ (cols[1]?).bind (fun c => cells[c]?) = some r.id ∧
  (∀ j : Fin 3, (cols[2 + (j : ℕ)]?).bind (fun c => cells[c]?) = some (r.row.p j)) ∧
  ∀ j : Fin 3, (cols[5 + (j : ℕ)]?).bind (fun c => cells[c]?) = some (r.row.v j)

theorem pickIdRow_eight (cols : List ℕ) (h8 : cols.length = 8) (cells : List (F K)) (r : Row8 K) (h : IdRowOf cols cells r) :
    pickIdRow cols cells = .ok r := by
  obtain ⟨c0, c1, c2, c3, c4, c5, c6, c7, rfl⟩ : ∃ a b c d e f g h, cols = [a, b, c, d, e, f, g, h] := by
    match cols, h8 with
    | [a, b, c, d, e, f, g, h], _ => exact ⟨a, b, c, d, e, f, g, h, rfl⟩
  obtain ⟨h0, hid, hp, hv⟩ := h
  have hp0 := hp 0
  have hp1 := hp 1
  have hp2 := hp 2
  have hv0 := hv 0
  have hv1 := hv 1
  have hv2 := hv 2
  simp at h0 hid hp0 hp1 hp2 hv0 hv1 hv2
  unfold pickIdRow
  rw [cells_fold _ cells [r.row.t, r.id, r.row.p 0, r.row.p 1, r.row.p 2, r.row.v 0, r.row.v 1, r.row.v 2] (by
    refine .cons ?_ (.cons ?_ (.cons ?_ (.cons ?_ (.cons ?_ (.cons ?_ (.cons ?_ (.cons ?_ .nil))))))) <;> assumption)]
  rw [run_bind_ok, run_pure]
  congr 1
  obtain ⟨i, t, p, v⟩ := r
  congr 2
  · funext i; fin_cases i <;> rfl
  · funext i; fin_cases i <;> rfl

theorem pickIdRows (cols : List ℕ) (h8 : cols.length = 8) (raw : List (List (F K))) (rows : List (Row8 K)) (h : List.Forall₂ (IdRowOf cols) raw rows)
    (acc : List (Row8 K)) : (raw.foldlM (fun acc r => do pure (acc ++ [← pickIdRow cols r])) acc : Run (List (Row8 K))) = .ok (acc ++ rows) := by
  induction h generalizing acc with
  | nil => simp [run_pure]
  | @cons cells r raw rows h _ ih =>
    rw [List.foldlM_cons, pickIdRow_eight cols h8 cells r h, run_bind_ok, run_pure, run_bind_ok, ih]
    simp

theorem idTable_ok (lib : FitLib K) (o : CsvOpts K) (hv : o.vel = false) (hi : o.interp = false) (maxT : F K) (maxSteps : ℕ) (l : List (Row8 K))
    (hn : ∀ r ∈ l, r.row.t ≠ nan) :
    ∃ out, idTable lib o maxT maxSteps l = .ok out ∧ ByTime (l.map Row8.row) out ∧ out.Perm (l.map Row8.row) ∧ out.Pairwise fun a b => a.t ≤ b.t := by
  obtain ⟨out, idx, e, h1, h2, h3, h4, h5⟩ := C50_sort (fun r : Row8 K => r.row.t) l hn
  have hp := (C50_isSorted _).1 h5
  rw [List.pairwise_map] at hp
  refine ⟨out.map Row8.row, ?_, ⟨idx, by simpa using h1, ?_, ?_⟩, h3.map _, List.pairwise_map.2 hp⟩
  · unfold idTable
    rw [e, run_bind_ok, hi, hv]
    rfl
  · have := congrArg (List.map (Option.map Row8.row)) h2
    rw [List.map_map, List.map_map] at this
    rw [List.map_map]
    refine Eq.trans this ?_
    apply List.map_congr_left
    intro i _
    simp
  · refine h4.imp ?_
    intro i j h a b ha hb
    rw [List.getElem?_map, Option.map_eq_some_iff] at ha hb
    obtain ⟨a', ha, rfl⟩ := ha
    obtain ⟨b', hb, rfl⟩ := hb
    dsimp only at h
    rw [ha, hb] at h
    exact h

theorem idTables_ok (lib : FitLib K) (o : CsvOpts K) (hv : o.vel = false) (hi : o.interp = false) (maxT : F K) (maxSteps : ℕ) (ls : List (List (Row8 K)))
    (hn : ∀ l ∈ ls, ∀ r ∈ l, r.row.t ≠ nan) :
    ∃ outs, List.Forall₂ (fun l out => ByTime (l.map Row8.row) out ∧ out.Perm (l.map Row8.row) ∧ out.Pairwise fun a b => a.t ≤ b.t) ls outs ∧
      ∀ acc, (ls.foldlM (fun acc l => do pure (acc ++ [← idTable lib o maxT maxSteps l])) acc : Run _) = .ok (acc ++ outs) := by
  induction ls with
  | nil => exact ⟨[], .nil, fun acc => by simp [run_pure]⟩
  | cons l ls ih =>
    obtain ⟨out, e, h⟩ := idTable_ok lib o hv hi maxT maxSteps l (hn l (by simp))
    obtain ⟨outs, hf, h'⟩ := ih (fun l hl => hn l (by simp [hl]))
    refine ⟨out :: outs, .cons h hf, fun acc => ?_⟩
    rw [List.foldlM_cons, e, run_bind_ok, run_pure, run_bind_ok, h']
    simp

/-- **C69, partial.** A CSV file of time, id, position and velocity columns, converted without interpolation and velocity computation: the particles of
the output are the ids that occur, in increasing order; each has exactly the rows with its id, ordered by time, rows of equal time in the order of the
file (rows not later than time 0 or than an earlier row of the particle replaced by zeros); particle `k` in this order has the id `k` in the output. The
conversion fails exactly if some table does not meet `TableOk`. Missing: the blanked rows, the ids of the file, the number of particles. -/
theorem C69_idline_partial (lib : FitLib K) (o : CsvOpts K) (hv : o.vel = false) (hi : o.interp = false)
    (h8 : o.cols.length = 8) (raw : List (List (F K))) (rows : List (Row8 K)) (hrow : List.Forall₂ (IdRowOf o.cols) raw rows)
    (ht : ∀ r ∈ rows, r.row.t ≠ nan) (hne : rows ≠ []) :
    ∃ (keys : List ℕ) (tables : List (List (Row7 K))), keys.Pairwise (· < ·) ∧ (∀ i, i ∈ keys ↔ ∃ r ∈ rows, idOf r = i) ∧
      List.Forall₂ (fun i t => ByTime ((rows.filter fun r => decide (idOf r = i)).map Row8.row) t) keys tables ∧
      ((∃ out, idConvert lib o raw = .ok out) ↔ ∀ t ∈ tables, TableOk t) ∧
      ∀ out, idConvert lib o raw = .ok out →
        List.Forall₂ (fun (x : List (Row7 K) × ℕ) g => GroupHolds o.radius (some 0) (F.ofNat x.2) x.1 g) tables.zipIdx out.groups ∧ out.attrs.np = 1 ∧
        out.attrs.n = tables.foldl (fun m t => max m t.length) 0 := by
  obtain ⟨keys, maxT, maxSteps, hk1, hk2, e⟩ := C69_byId rows hne
  obtain ⟨tables, hf, e'⟩ := idTables_ok lib o hv hi maxT maxSteps (keys.map (rowsOf rows)) (by
    intro l hl r hr
    obtain ⟨i, _, rfl⟩ := List.mem_map.1 hl
    exact ht r (List.mem_filter.1 hr).1)
  have hck : idConvert lib o raw = multiWrite o.radius (some 0) (fun i => F.ofNat i) tables := by
    unfold idConvert
    rw [if_neg (by intro h; exact h (Or.inr h8)), pickIdRows o.cols h8 raw rows hrow [], run_bind_ok, List.nil_append, e, run_bind_ok]
    dsimp only
    rw [e', run_bind_ok, List.nil_append]
  have hn : ∀ t ∈ tables, (∀ r ∈ t, r.t ≠ nan) ∧ t.Pairwise fun a b => a.t ≤ b.t := by
    intro t htt
    obtain ⟨k, hk, rfl⟩ := List.getElem_of_mem htt
    have hlen := hf.length_eq
    have := (List.forall₂_iff_get.1 hf).2 k (by omega) hk
    obtain ⟨_, hp, hpw⟩ := this
    refine ⟨fun r hr => ?_, hpw⟩
    have := hp.subset hr
    obtain ⟨x, hx, rfl⟩ := List.mem_map.1 this
    rw [List.get_eq_getElem, List.getElem_map] at hx
    exact ht x (List.mem_filter.1 hx).1
  rw [hck]
  refine ⟨keys, tables, hk1, hk2, ?_, multiWrite_spec o.radius (some 0) _ tables hn⟩
  rw [List.forall₂_map_left_iff] at hf
  exact hf.imp fun _ _ h => h.1

/-- **C69, reading.** Whatever a particle-based manager reads from the output, in any order and in both build profiles, is the particle with the smallest
id, if no other has more rows; if another has more, the output cannot be opened. -/
theorem C69_read_partial [LawfulArith K] (lib : FitLib K) (o : CsvOpts K) (hv : o.vel = false) (hi : o.interp = false)
    (h8 : o.cols.length = 8) (raw : List (List (F K))) (rows : List (Row8 K)) (hrow : List.Forall₂ (IdRowOf o.cols) raw rows)
    (ht : ∀ r ∈ rows, r.row.t ≠ nan) (hne : rows ≠ []) (out : POut K) (ho : idConvert lib o raw = .ok out) :
    ∃ (least : ℕ) (first : List (Row7 K)), (∃ r ∈ rows, idOf r = least) ∧ (∀ r ∈ rows, least ≤ idOf r) ∧
      ByTime ((rows.filter fun r => decide (idOf r = least)).map Row8.row) first ∧
      ((∀ r ∈ rows, (rows.filter fun x => decide (idOf x = idOf r)).length ≤ first.length) → first.length ≤ 2 ^ 50 →
        ∀ (p : Profile) (dflt : Timestep K) (ts : List ℕ), (∀ t ∈ ts, t < first.length) →
        ∃ rows' l, Blanked first rows' ∧ out.file.session p dflt ts = .ok l ∧
          List.Forall₂ (fun t x => ∃ r, rows'[t]? = some r ∧ x.time = r.t ∧ x.position = [r.p] ∧ x.velocity = [r.v] ∧ x.radius = [o.radius] ∧
            x.ptype = [0] ∧ x.particleid = [F.ofNat 0] ∧ x.clouds = [1] ∧ x.density = [0]) ts l) ∧
      ((∃ r ∈ rows, first.length < (rows.filter fun x => decide (idOf x = idOf r)).length) → first.length < BUFFERSIZE →
        ∀ (p : Profile) (dflt : Timestep K) (ts : List ℕ), ∃ e, out.file.session p dflt ts = .error e) := by
  obtain ⟨keys, tables, hk1, hk2, hf, -, h3⟩ := C69_idline_partial lib o hv hi h8 raw rows hrow ht hne
  obtain ⟨g1, g2, g3⟩ := h3 out ho
  have hlen : ∀ i t, ByTime ((rows.filter fun r => decide (idOf r = i)).map Row8.row) t → t.length = (rows.filter fun r => decide (idOf r = i)).length := by
    rintro i t ⟨idx, p1, p2, _⟩
    have a := congrArg List.length p2
    have b := p1.length_eq
    simp only [List.length_map, List.length_range] at a b
    omega
  have hmax : tables.foldl (fun m t => max m t.length) 0 = out.attrs.n := g3.symm
  cases hf with
  | nil =>
    exfalso
    cases hr : rows with
    | nil => exact hne hr
    | cons r rest => have := (hk2 (idOf r)).2 ⟨r, by simp [hr], rfl⟩; simp at this
  | @cons least first keys tables h0 hf =>
    obtain ⟨m1, m2, m3⟩ := foldl_max_ge List.length (first :: tables) 0
    rw [hmax] at m1 m2 m3
    have hmem : ∃ r ∈ rows, idOf r = least := (hk2 least).1 (by simp)
    have hl0 := hlen _ _ h0
    have hpos : 1 ≤ first.length := by
      obtain ⟨r, hr, e⟩ := hmem
      rw [hl0]
      exact List.length_pos_of_mem (List.mem_filter.2 ⟨hr, by simpa using e⟩)
    have hall : ∀ t ∈ first :: tables, ∃ r ∈ rows, t.length = (rows.filter fun x => decide (idOf x = idOf r)).length := by
      intro t htt
      rcases List.mem_cons.1 htt with rfl | htt
      · obtain ⟨r, hr, e⟩ := hmem
        exact ⟨r, hr, by rw [hl0, e]⟩
      · obtain ⟨k, hk, rfl⟩ := List.getElem_of_mem htt
        have hl := hf.length_eq
        have hb := (List.forall₂_iff_get.1 hf).2 k (by omega) hk
        obtain ⟨r, hr, e⟩ := (hk2 (keys.get ⟨k, by omega⟩)).1 (by simp)
        exact ⟨r, hr, by rw [e]; exact hlen _ _ hb⟩
    have hall' : ∀ r ∈ rows, ∃ t ∈ first :: tables, t.length = (rows.filter fun x => decide (idOf x = idOf r)).length := by
      intro r hr
      have hin : idOf r ∈ least :: keys := (hk2 _).2 ⟨r, hr, rfl⟩
      rcases List.mem_cons.1 hin with e | hin
      · exact ⟨first, by simp, by rw [e]; exact hl0⟩
      · obtain ⟨k, hk, e⟩ := List.getElem_of_mem hin
        have hl := hf.length_eq
        have hb := (List.forall₂_iff_get.1 hf).2 k hk (by omega)
        refine ⟨tables.get ⟨k, by omega⟩, by simp, ?_⟩
        rw [← e]
        exact hlen _ _ hb
    rw [List.zipIdx_cons] at g1
    generalize hgr : out.groups = groups at g1
    cases g1 with
    | @cons _ g _ gs hg hgs =>
      refine ⟨least, first, hmem, ?_, h0, ?_, ?_⟩
      · intro r hr
        rcases List.mem_cons.1 ((hk2 _).2 ⟨r, hr, rfl⟩) with e | hin
        · exact le_of_eq e.symm
        · exact le_of_lt ((List.pairwise_cons.1 hk1).1 _ hin)
      · intro hlong hsize p dflt ts hts
        have hn : out.attrs.n = first.length := by
          apply le_antisymm
          · rcases m3 with m3 | ⟨t, htt, m3⟩
            · omega
            · obtain ⟨r, hr, e⟩ := hall t htt
              rw [m3, e]
              exact hlong r hr
          · exact m2 first (by simp)
        exact multi_read o.radius (some 0) _ first g gs out hg hgr g2 hn hpos hsize p dflt ts hts
      · rintro ⟨r, hr, hlt⟩ hbuf p dflt ts
        obtain ⟨t, htt, e⟩ := hall' r hr
        refine multi_unreadable o.radius (some 0) _ first g gs out hg hgr g2 ?_ hbuf p dflt ts
        rw [← e] at hlt
        exact lt_of_lt_of_le hlt (m2 t htt)

/-- The rows of a file with two particles, each at two times; the lines are not in the order of the times. -/
def twoIds : List (Row8 K) :=
  [⟨fin 1, fin 2, fun _ => 0, fun _ => 0⟩, ⟨fin 0, fin 1, fun _ => 1, fun _ => 0⟩, ⟨fin 0, fin 3, fun _ => 1, fun _ => 0⟩, ⟨fin 1, fin 1, fun _ => 0, fun _ => 0⟩]

/-- The cells of this file. -/
def twoIdsRaw : List (List (F K)) :=
  [[fin 2, fin 1, 0, 0, 0, 0, 0, 0], [fin 1, fin 0, 1, 1, 1, 0, 0, 0], [fin 3, fin 0, 1, 1, 1, 0, 0, 0], [fin 1, fin 1, 0, 0, 0, 0, 0, 0]]

theorem twoIds_rows : List.Forall₂ (IdRowOf [0, 1, 2, 3, 4, 5, 6, 7]) (twoIdsRaw : List (List (F K))) twoIds := by
  refine .cons ⟨rfl, rfl, fun j => ?_, fun j => ?_⟩ (.cons ⟨rfl, rfl, fun j => ?_, fun j => ?_⟩ (.cons ⟨rfl, rfl, fun j => ?_, fun j => ?_⟩
    (.cons ⟨rfl, rfl, fun j => ?_, fun j => ?_⟩ .nil))) <;> fin_cases j <;> rfl

theorem twoIds_times : ∀ r ∈ (twoIds : List (Row8 K)), r.row.t ≠ nan := by simp [twoIds]

theorem id_zero : (fin (0 : K) : F K).toUsize = 0 := by simp [F.toUsize]

theorem id_one : (fin (1 : K) : F K).toUsize = 1 := by simp [F.toUsize, F.usizeMax]

theorem twoIds_count (i : ℕ) : ((twoIds : List (Row8 K)).filter fun r => decide (idOf r = i)).length ≤ 2 := by
  simp only [twoIds, idOf, List.filter_cons, List.filter_nil, id_zero, id_one]
  by_cases h0 : 0 = i
  · subst h0; simp
  · by_cases h1 : 1 = i
    · subst h1; simp
    · simp [h0, h1]

/-- The conversion of this file returns, and its output can be read at every timestep. -/
theorem twoIds_reads [LawfulArith K] (lib : FitLib K) (radius : F K) : ∃ out : POut K,
    idConvert lib ⟨[0, 1, 2, 3, 4, 5, 6, 7], false, false, radius, 9⟩ twoIdsRaw = .ok out ∧ out.groups.length = 2 ∧
    ∀ (p : Profile) (dflt : Timestep K) (ts : List ℕ), (∀ t ∈ ts, t < 2) →
      ∃ l, out.file.session p dflt ts = .ok l ∧ l.length = ts.length ∧ ∀ x ∈ l, x.position.length = 1 ∧ x.radius = [radius] := by
  set o : CsvOpts K := ⟨[0, 1, 2, 3, 4, 5, 6, 7], false, false, radius, 9⟩ with ho
  have hne : (twoIds : List (Row8 K)) ≠ [] := by simp [twoIds]
  obtain ⟨keys, tables, hk1, hk2, hf, hiff, hout⟩ := C69_idline_partial lib o rfl rfl rfl twoIdsRaw twoIds twoIds_rows twoIds_times hne
  have hlen : ∀ t ∈ tables, t.length ≤ 2 ∧ ∀ r ∈ t, ∃ x ∈ (twoIds : List (Row8 K)), x.row = r := by
    intro t htt
    obtain ⟨k, hk, rfl⟩ := List.getElem_of_mem htt
    have hl := hf.length_eq
    obtain ⟨idx, p1, p2, _⟩ := (List.forall₂_iff_get.1 hf).2 k (by omega) hk
    have hc := twoIds_count (K := K) (keys.get ⟨k, by omega⟩)
    have a := congrArg List.length p2
    have b := p1.length_eq
    refine ⟨?_, ?_⟩
    · simp only [List.length_map, List.length_range, List.get_eq_getElem] at a b hc
      omega
    · intro r hr
      have : some r ∈ (tables.get ⟨k, hk⟩).map some := List.mem_map.2 ⟨r, hr, rfl⟩
      rw [p2] at this
      obtain ⟨i, _, e⟩ := List.mem_map.1 this
      obtain ⟨x, hx, rfl⟩ := List.mem_map.1 (List.mem_of_getElem? e)
      exact ⟨x, (List.mem_filter.1 hx).1, rfl⟩
  have hkeys : keys = [0, 1] := by
    have hmem : ∀ i, i ∈ keys ↔ i ∈ [0, 1] := by
      intro i
      rw [hk2]
      simp only [twoIds, idOf, List.mem_cons, List.not_mem_nil, or_false, exists_eq_or_imp, exists_eq_left, id_zero, id_one]
      omega
    exact List.Perm.eq_of_pairwise (le := (· < ·)) (by intro a b _ _ h h'; omega) hk1 (by simp) ((List.perm_ext_iff_of_nodup (hk1.imp (by intro a b h; omega)) (by simp)).2 hmem)
  have hok : ∀ t ∈ tables, TableOk t := by
    intro t htt
    obtain ⟨h1, h2⟩ := hlen t htt
    refine ⟨?_, le_trans List.countP_le_length (by omega), fun r _ _ => le_trans List.countP_le_length (by omega)⟩
    cases hte : t with
    | nil =>
      exfalso
      obtain ⟨k, hk, e⟩ := List.getElem_of_mem htt
      have hl := hf.length_eq
      obtain ⟨idx, p1, p2, _⟩ := (List.forall₂_iff_get.1 hf).2 k (by omega) hk
      rw [List.get_eq_getElem, e, hte] at p2
      have a := congrArg List.length p2
      have b := p1.length_eq
      simp only [List.length_map, List.length_range, List.length_nil] at a b
      obtain ⟨r, hr, er⟩ := (hk2 (keys.get ⟨k, by omega⟩)).1 (by simp)
      have : 0 < (twoIds.filter fun r : Row8 K => decide (idOf r = keys.get ⟨k, by omega⟩)).length :=
        List.length_pos_of_mem (List.mem_filter.2 ⟨hr, by simpa using er⟩)
      omega
    | cons r rest =>
      refine ⟨r, rfl, ?_⟩
      obtain ⟨x, hx, rfl⟩ := h2 r (by rw [hte]; simp)
      simp only [twoIds, List.mem_cons, List.not_mem_nil, or_false] at hx
      rcases hx with rfl | rfl | rfl | rfl <;> (dsimp only; rw [F.zero_def]; simp)
  obtain ⟨out, e⟩ := hiff.2 hok
  obtain ⟨g1, -, -⟩ := hout out e
  obtain ⟨least, first, ⟨rl, hrl, el⟩, -, hb, hread, -⟩ := C69_read_partial lib o rfl rfl rfl twoIdsRaw twoIds twoIds_rows twoIds_times hne out e
  have hfirst : first.length = 2 := by
    obtain ⟨idx, p1, p2, _⟩ := hb
    have a := congrArg List.length p2
    have b := p1.length_eq
    simp only [List.length_map, List.length_range] at a b
    have hc : (twoIds.filter fun r : Row8 K => decide (idOf r = least)).length = 2 := by
      have : least = 0 ∨ least = 1 := by
        have : least ∈ keys := (hk2 _).2 ⟨rl, hrl, el⟩
        rw [hkeys] at this
        simpa using this
      rcases this with rfl | rfl <;> simp [twoIds, idOf, id_zero, id_one]
    omega
  refine ⟨out, e, ?_, ?_⟩
  · have h1 := g1.length_eq
    have h2 := hf.length_eq
    rw [hkeys] at h2
    simp at h1 h2
    omega
  · intro p dflt ts hts
    obtain ⟨rows', l, _, es, hl⟩ := hread (by intro r _; rw [hfirst]; exact twoIds_count _) (by rw [hfirst]; norm_num) p dflt ts (by rw [hfirst]; exact hts)
    refine ⟨l, es, hl.length_eq.symm, ?_⟩
    intro x hx
    obtain ⟨k, hk, rfl⟩ := List.getElem_of_mem hx
    have hl' := hl.length_eq
    obtain ⟨r, _, _, h, _, h', _⟩ := (List.forall₂_iff_get.1 hl).2 k (by omega) hk
    rw [List.get_eq_getElem] at h h'
    rw [h]
    exact ⟨rfl, h'⟩

/-- Case for `C69_idline_partial`, `C69_read_partial`: the file with two particles meets the hypotheses of both, and is converted. -/
example (lib : FitLib ℝ) : (⟨[0, 1, 2, 3, 4, 5, 6, 7], false, false, 1, 9⟩ : CsvOpts ℝ).cols.length = 8 ∧
    List.Forall₂ (IdRowOf [0, 1, 2, 3, 4, 5, 6, 7]) (twoIdsRaw : List (List (F ℝ))) twoIds ∧ (∀ r ∈ (twoIds : List (Row8 ℝ)), r.row.t ≠ nan) ∧
    (twoIds : List (Row8 ℝ)) ≠ [] ∧
    ∃ out : POut ℝ, idConvert lib ⟨[0, 1, 2, 3, 4, 5, 6, 7], false, false, 1, 9⟩ twoIdsRaw = .ok out ∧ out.groups.length = 2 := by
  obtain ⟨out, e, g, _⟩ := twoIds_reads lib (1 : F ℝ)
  exact ⟨rfl, twoIds_rows, twoIds_times, by simp [twoIds], out, e, g⟩

/-- **C69 refuted in general:** for this file with two particles the conversion succeeds, and its output can be read at every timestep, but all that is read
has one particle only. -/
theorem C69_false [LawfulArith K] (lib : FitLib K) : ∃ (o : CsvOpts K) (raw : List (List (F K))) (rows : List (Row8 K)) (out : POut K),
    o.cols = [0, 1, 2, 3, 4, 5, 6, 7] ∧ o.vel = false ∧ o.interp = false ∧ List.Forall₂ (IdRowOf o.cols) raw rows ∧
    (∃ r ∈ rows, ∃ r' ∈ rows, idOf r ≠ idOf r') ∧ idConvert lib o raw = .ok out ∧ out.groups.length = 2 ∧
    ∀ (p : Profile) (dflt : Timestep K) (ts : List ℕ), (∀ t ∈ ts, t < 2) →
      ∃ l, out.file.session p dflt ts = .ok l ∧ ∀ x ∈ l, x.position.length = 1 := by
  obtain ⟨out, e, g, h⟩ := twoIds_reads lib (1 : F K)
  refine ⟨⟨[0, 1, 2, 3, 4, 5, 6, 7], false, false, 1, 9⟩, twoIdsRaw, twoIds, out, rfl, rfl, rfl, twoIds_rows, ?_, e, g, ?_⟩
  · refine ⟨⟨fin 1, fin 2, fun _ => 0, fun _ => 0⟩, by simp [twoIds], ⟨fin 0, fin 1, fun _ => 1, fun _ => 0⟩, by simp [twoIds], ?_⟩
    simp [idOf, id_zero, id_one]
  · intro p dflt ts hts
    obtain ⟨l, es, _, hl⟩ := h p dflt ts hts
    exact ⟨l, es, fun x hx => (hl x hx).1⟩

end Up4
