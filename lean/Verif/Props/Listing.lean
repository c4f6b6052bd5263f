import Verif.Props.CsvMultiVel
import Verif.Props.Vtk
import Verif.Props.Csv
import Verif.Props.Rotation

/-!
C149: the order in which a source lists its records does not matter.
-/

set_option linter.unusedSectionVars false

namespace Up4

open F
open Selector (at')

variable {K : Type} [Field K] [LinearOrder K] [IsStrictOrderedRing K] [FloorRing K] [Arith K]

/-! ### Specification -/

/-- The cell of a line that the converters read as the time: the one in the first selected column. -/
def timeCell (cols : List ℕ) (cells : List (F K)) : Option (F K) := (cols[0]?).bind fun c => cells[c]?

/-- The id of a line of a table with an id column (the second selected one), as a whole number. -/
def idCell (cols : List ℕ) (cells : List (F K)) : Option ℕ := ((cols[1]?).bind fun c => cells[c]?).map F.toUsize

/-! ### Proof: tables -/

theorem at_error {α : Type} {l : List α} {i : ℕ} {e : Panic} (h : at' l i = .error e) : e = .index := by
  unfold at' at h
  split at h
  · cases h
  · cases h; rfl

theorem pick_error (cols : List ℕ) (row : List (F K)) {e : Panic}
    (h : cols.foldlM (fun acc c => do pure (acc ++ [← at' row c])) ([] : List (F K)) = (.error e : Run (List (F K)))) : e = .index := by
  suffices ∀ acc : List (F K), cols.foldlM (fun acc c => do pure (acc ++ [← at' row c])) acc = (.error e : Run (List (F K))) → e = .index from this _ h
  clear h
  induction cols with
  | nil => intro acc h; cases h
  | cons c cols ih =>
    intro acc h
    rw [List.foldlM_cons] at h
    cases ha : at' row c with
    | error e' =>
      rw [ha] at h
      have := at_error ha
      cases h
      exact this
    | ok x =>
      rw [ha, run_bind_ok, run_pure, run_bind_ok] at h
      exact ih _ h

theorem pick_ok (cols : List ℕ) (row : List (F K)) (l : List (F K))
    (h : cols.foldlM (fun acc c => do pure (acc ++ [← at' row c])) ([] : List (F K)) = (.ok l : Run (List (F K)))) : l.map some = cols.map fun c => row[c]? := by
  suffices ∀ acc : List (F K), cols.foldlM (fun acc c => do pure (acc ++ [← at' row c])) acc = (.ok l : Run (List (F K))) →
      l.map some = acc.map some ++ cols.map fun c => row[c]? from this _ h
  clear h
  induction cols with
  | nil => intro acc h; cases h; simp
  | cons c cols ih =>
    intro acc h
    rw [List.foldlM_cons] at h
    cases ha : at' row c with
    | error e' => rw [ha] at h; cases h
    | ok x =>
      rw [ha, run_bind_ok, run_pure, run_bind_ok] at h
      rw [ih _ h]
      have : row[c]? = some x := by
        unfold at' at ha
        split at ha
        · cases ha; assumption
        · cases ha
      simp [this]

theorem collect_perm {α β : Type} (y0 : β) (g : α → Run β) (hg : ∀ r e, g r = .error e → e = .index) {l l' : List α} (h : l.Perm l') :
    ((l.foldlM (fun acc r => do pure (acc ++ [← g r])) [] : Run (List β)) = .error .index ∧
      (l'.foldlM (fun acc r => do pure (acc ++ [← g r])) [] : Run (List β)) = .error .index) ∨
    ∃ f : α → β, (∀ r ∈ l, g r = .ok (f r)) ∧ (l.foldlM (fun acc r => do pure (acc ++ [← g r])) [] : Run (List β)) = .ok (l.map f) ∧
      (l'.foldlM (fun acc r => do pure (acc ++ [← g r])) [] : Run (List β)) = .ok (l'.map f) := by
  have bad : ∀ (l : List α) (acc : List β), (∃ r ∈ l, ∃ e, g r = .error e) →
      (l.foldlM (fun acc r => do pure (acc ++ [← g r])) acc : Run (List β)) = .error .index := by
    intro l
    induction l with
    | nil => rintro acc ⟨r, hr, _⟩; cases hr
    | cons x l ih =>
      rintro acc ⟨r, hr, e, he⟩
      rw [List.foldlM_cons]
      cases hx : g x with
      | error e' => have := hg _ _ hx; subst this; rfl
      | ok y =>
        rw [run_bind_ok, run_pure, run_bind_ok]
        refine ih _ ⟨r, ?_, e, he⟩
        rcases List.mem_cons.1 hr with rfl | hr
        · rw [hx] at he; cases he
        · exact hr
  have good : ∀ (f : α → β) (l : List α) (acc : List β), (∀ r ∈ l, g r = .ok (f r)) →
      (l.foldlM (fun acc r => do pure (acc ++ [← g r])) acc : Run (List β)) = .ok (acc ++ l.map f) := by
    intro f l
    induction l with
    | nil => intro acc _; simp [run_pure]
    | cons x l ih =>
      intro acc hl
      rw [List.foldlM_cons, hl x List.mem_cons_self, run_bind_ok, run_pure, run_bind_ok, ih _ fun r hr => hl r (List.mem_cons_of_mem _ hr)]
      simp
  by_cases hb : ∃ r ∈ l, ∃ e, g r = .error e
  · left
    refine ⟨bad l _ hb, bad l' _ ?_⟩
    obtain ⟨r, hr, e⟩ := hb
    exact ⟨r, h.subset hr, e⟩
  · right
    have hall : ∀ r ∈ l, ∃ y, g r = .ok y := by
      intro r hr
      cases hx : g r with
      | error e => exact absurd ⟨r, hr, e, hx⟩ hb
      | ok y => exact ⟨y, rfl⟩
    let f : α → β := fun r => match g r with | .ok y => y | .error _ => y0
    have hf : ∀ r ∈ l, g r = .ok (f r) := by
      intro r hr
      obtain ⟨y, e⟩ := hall r hr
      simp only [f, e]
    exact ⟨f, hf, good f l [] hf, good f l' [] fun r hr => hf r (h.symm.subset hr)⟩

theorem eq_of_perm_sorted {α : Type} (key : α → F K) {l m : List α} (h : l.Perm m) (hd : l.Pairwise fun a b => key a ≠ key b)
    (h1 : l.Pairwise fun a b => key a ≤ key b) (h2 : m.Pairwise fun a b => key a ≤ key b) : l = m := by
  refine List.Perm.eq_of_pairwise (le := fun a b => key a ≤ key b) ?_ h1 h2 h
  intro a b ha hb hab hba
  have hk : key a = key b := F.le_antisymm' hab hba
  by_contra hne
  exact List.Pairwise.forall_of_forall_of_flip (R := fun a b => a ≠ b → key a ≠ key b) (fun x _ h => absurd rfl h) (hd.imp (S := fun a b => a ≠ b → key a ≠ key b) fun h _ => h)
    (hd.imp (S := fun a b => b ≠ a → key b ≠ key a) fun h _ => h.symm) ha (h.symm.subset hb) hne hk

theorem pickRow_error (cols : List ℕ) (row : List (F K)) {e : Panic} (h : pickRow cols row = .error e) : e = .index := by
  unfold pickRow at h
  split_ifs at h
  · cases h; rfl
  · cases hp : (cols.foldlM (fun acc c => do pure (acc ++ [← at' row c])) [] : Run (List (F K))) with
    | error e' =>
      rw [hp] at h
      cases h
      exact pick_error cols row hp
    | ok l => rw [hp] at h; cases h

theorem pickRow_time (cols : List ℕ) (row l : List (F K)) (hc : cols ≠ []) (h : pickRow cols row = .ok l) : timeCell cols row = some (toRow7 l).t := by
  unfold pickRow at h
  split_ifs at h
  cases hp : (cols.foldlM (fun acc c => do pure (acc ++ [← at' row c])) [] : Run (List (F K))) with
  | error e' => rw [hp] at h; cases h
  | ok m =>
    rw [hp, run_bind_ok] at h
    cases h
    have := pick_ok cols row m hp
    cases cols with
    | nil => exact absurd rfl hc
    | cons c cols =>
      cases m with
      | nil => simp at this
      | cons x m =>
        simp only [List.map_cons, List.cons.injEq] at this
        unfold timeCell toRow7
        simp [this.1.symm]

/-- Sorting different listings of the same rows with different times. -/
theorem csvSort_perm [LawfulArith K] (rows rows' : List (Row7 K)) (h : rows.Perm rows') (hn : ∀ r ∈ rows, r.t ≠ nan)
    (hd : rows.Pairwise fun a b => a.t ≠ b.t) : csvSort rows = csvSort rows' := by
  obtain ⟨out, e, _, p1, s1⟩ := csvSort_ok rows hn
  obtain ⟨out', e', _, p2, s2⟩ := csvSort_ok rows' fun r hr => hn r (h.symm.subset hr)
  rw [e, e']
  congr 1
  refine eq_of_perm_sorted Row7.t (p1.trans (h.trans p2.symm)) ?_ s1 s2
  exact (p1.pairwise_iff (fun h => h.symm)).2 hd

/-- **C149, one trajectory.** Two CSV tables with the same lines in different order, with different times: `csv` writes the same file, or fails alike, whatever
the options. -/
theorem C149_csv [LawfulArith K] (lib : FitLib K) (o : CsvOpts K) (raw raw' : List (List (F K))) (h : raw.Perm raw')
    (ht : ∀ c ∈ raw, timeCell o.cols c ≠ some nan) (hd : raw.Pairwise fun a b => timeCell o.cols a ≠ timeCell o.cols b) :
    csvConvert lib o raw = csvConvert lib o raw' := by
  unfold csvConvert
  suffices (pickColumns o.cols raw >>= csvSort) = (pickColumns o.cols raw' >>= csvSort) by
    simp only [← bind_assoc, this]
  unfold pickColumns
  by_cases hc : o.cols = []
  · rw [if_pos hc, if_pos hc]
  rw [if_neg hc, if_neg hc]
  let g : List (F K) → Run (Row7 K) := fun r => do pure (toRow7 (← pickRow o.cols r))
  have hg : ∀ r e, g r = .error e → e = .index := by
    intro r e he
    cases hp : pickRow o.cols r with
    | error e' =>
      simp only [g, hp] at he
      cases he
      exact pickRow_error _ _ hp
    | ok l => simp only [g, hp] at he; cases he
  have hbody : (fun (acc : List (Row7 K)) (r : List (F K)) => (do pure (acc ++ [toRow7 (← pickRow o.cols r)]) : Run (List (Row7 K)))) =
      fun acc r => (do pure (acc ++ [← g r])) := by
    funext acc r
    simp only [g, bind_assoc, pure_bind]
  rw [hbody]
  rcases collect_perm (β := Row7 K) zeroRow g hg h with ⟨e1, e2⟩ | ⟨f, hf, e1, e2⟩
  · rw [e1, e2]
  rw [e1, e2, run_bind_ok, run_bind_ok]
  have htime : ∀ r ∈ raw, timeCell o.cols r = some (f r).t := by
    intro r hr
    have := hf r hr
    cases hp : pickRow o.cols r with
    | error e' => simp only [g, hp] at this; cases this
    | ok l =>
      simp only [g, hp] at this
      have e : toRow7 l = f r := Except.ok.inj this
      rw [← e]
      exact pickRow_time _ _ _ hc hp
  refine csvSort_perm _ _ (h.map f) ?_ ?_
  · intro x hx
    obtain ⟨r, hr, rfl⟩ := List.mem_map.1 hx
    intro e
    exact ht r hr (by rw [htime r hr, e])
  · rw [List.pairwise_map]
    refine (List.Pairwise.and_mem.1 hd).imp ?_
    rintro a b ⟨ha, hb, hab⟩ e
    exact hab (by rw [htime a ha, htime b hb, e])

/-! ### Proof: VTK files -/

theorem byId_unique {l l' : List (Rec K)} (h : l.Perm l') (hd : (l.map Rec.num).Nodup) : byId l = byId l' := by
  refine List.Perm.eq_of_pairwise (le := fun a b => a.num ≤ b.num) ?_ (byId_sorted l) (byId_sorted l') ((byId_perm l).trans (h.trans (byId_perm l').symm))
  intro a b ha hb hab hba
  exact List.inj_on_of_nodup_map hd ((byId_perm l).subset ha) (h.symm.subset ((byId_perm l').subset hb)) (le_antisymm hab hba)

theorem vtkGroup_perm (o : VtkOpts) (time : F K) (step : ℤ) {l l' : List (Rec K)} (h : l.Perm l') (hd : (l.map Rec.num).Nodup) :
    vtkGroup o time (vtkOf step l) = vtkGroup o time (vtkOf step l') := by
  have hb := byId_unique h hd
  have hr : ∀ l : List (Rec K), vtkRadius o (vtkOf step l) (makeSortlist (l.map Rec.num)) =
      match o.size with
      | some true => .ok ((byId l).map Rec.size)
      | some false => .ok ((byId l).map fun r => r.size * fin (1 / 2))
      | none => .error .explicit := by
    intro l
    unfold vtkRadius
    rcases o.size with _ | _ | _
    · rfl
    · change sortByArray ((l.map Rec.size).map fun x => x * fin (1 / 2)) _ = _
      rw [List.map_map]
      exact sort_field l _
    · exact sort_field l _
  have ht : ∀ (l : List (Rec K)) (n : ℕ), vtkTypes o (vtkOf step l) (makeSortlist (l.map Rec.num)) n =
      if o.hasType then .ok ((byId l).map Rec.typ) else .ok (List.replicate n 1) := by
    intro l n
    unfold vtkTypes
    split_ifs
    · exact sort_field l _
    · rfl
  have e1 : ∀ l : List (Rec K), sortByArray (vtkOf step l).ids (makeSortlist (vtkOf step l).ids) = .ok ((byId l).map Rec.num) := fun l => sort_field l _
  have e2 : ∀ l : List (Rec K), sortByArray (vtkOf step l).velocity (makeSortlist (vtkOf step l).ids) = .ok (flat3 ((byId l).map Rec.vel)) := fun l => sort_vec l _
  have e3 : ∀ l : List (Rec K), sortByArray (vtkOf step l).points (makeSortlist (vtkOf step l).ids) = .ok (flat3 ((byId l).map Rec.pos)) := fun l => sort_vec l _
  have e4 : vtkRadius o (vtkOf step l) (makeSortlist (vtkOf step l).ids) = vtkRadius o (vtkOf step l') (makeSortlist (vtkOf step l').ids) :=
    (hr l).trans ((by rw [hb] : _ = _).trans (hr l').symm)
  have e5 : ∀ n, vtkTypes o (vtkOf step l) (makeSortlist (vtkOf step l).ids) n = vtkTypes o (vtkOf step l') (makeSortlist (vtkOf step l').ids) n := fun n =>
    (ht l n).trans ((by rw [hb] : _ = _).trans (ht l' n).symm)
  unfold vtkGroup
  dsimp only
  simp only [e1, e2, e3, e4, e5, hb]

theorem vtkStep_perm (o : VtkOpts) (dt : F K) (s : VtkState K) (k : ℕ) (step : ℤ) {l l' : List (Rec K)} (h : l.Perm l') (hd : (l.map Rec.num).Nodup) :
    vtkStep o dt s (vtkOf step l, k) = vtkStep o dt s (vtkOf step l', k) := by
  unfold vtkStep
  dsimp only
  have h1 : (vtkOf step l).ids.foldl max 0 = (vtkOf step l').ids.foldl max 0 := (h.map Rec.num).foldl_eq 0
  have h2 : (vtkOf step l).ids.length = (vtkOf step l').ids.length := by
    change (l.map Rec.num).length = (l'.map Rec.num).length
    rw [List.length_map, List.length_map, h.length_eq]
  rw [h1, h2, vtkGroup_perm o _ step h hd]
  rfl

/-- **C149, VTK files.** Two series of VTK files that list the same particles, each id once, in different order: the conversion writes the same file, or fails alike,
whatever the fields named. -/
theorem C149_vtk (o : VtkOpts) (dt : F K) (files files' : List (ℤ × List (Rec K)))
    (h : List.Forall₂ (fun f f' => f.1 = f'.1 ∧ f.2.Perm f'.2 ∧ (f.2.map Rec.num).Nodup) files files') :
    vtkConvert o dt (files.map fun f => vtkOf f.1 f.2) = vtkConvert o dt (files'.map fun f => vtkOf f.1 f.2) := by
  have hfold : ∀ (n : ℕ) (s : VtkState K), ((files.map fun f => vtkOf f.1 f.2).zipIdx n).foldlM (vtkStep o dt) s =
      ((files'.map fun f => vtkOf f.1 f.2).zipIdx n).foldlM (vtkStep o dt) s := by
    induction h with
    | nil => intro n s; rfl
    | @cons f f' l l' hff _ ih =>
      intro n s
      obtain ⟨g1, g2, g3⟩ := hff
      rw [List.map_cons, List.map_cons, List.zipIdx_cons, List.zipIdx_cons, List.foldlM_cons, List.foldlM_cons, vtkStep_perm o dt s n f.1 g2 g3, g1]
      congr 1
      funext s'
      exact ih (n + 1) s'
  have hlen : (files.map fun f => vtkOf f.1 f.2).length = (files'.map fun f => vtkOf f.1 f.2).length := by
    rw [List.length_map, List.length_map, h.length_eq]
  unfold vtkConvert
  rw [hfold 0, hlen]
  by_cases e : (files.map fun f => vtkOf f.1 f.2) = []
  · have e' : (files'.map fun f => vtkOf f.1 f.2) = [] := List.length_eq_zero_iff.1 (by rw [← hlen, e]; rfl)
    rw [if_pos e, if_pos e']
  · have e' : (files'.map fun f => vtkOf f.1 f.2) ≠ [] := by
      intro h'
      apply e
      exact List.length_eq_zero_iff.1 (by rw [hlen, h']; rfl)
    rw [if_neg e, if_neg e']

/-! ### Proof: tables with an id column -/

theorem pickIdRow_error (cols : List ℕ) (row : List (F K)) {e : Panic} (h : pickIdRow cols row = .error e) : e = .index := by
  unfold pickIdRow at h
  cases hp : (cols.foldlM (fun acc c => do pure (acc ++ [← at' row c])) [] : Run (List (F K))) with
  | error e' =>
    rw [hp] at h
    cases h
    exact pick_error cols row hp
  | ok l => rw [hp] at h; cases h

theorem pickIdRow_cells (cols : List ℕ) (row : List (F K)) (r : Row8 K) (hc : 2 ≤ cols.length) (h : pickIdRow cols row = .ok r) :
    timeCell cols row = some r.row.t ∧ idCell cols row = some (idOf r) := by
  unfold pickIdRow at h
  cases hp : (cols.foldlM (fun acc c => do pure (acc ++ [← at' row c])) [] : Run (List (F K))) with
  | error e' => rw [hp] at h; cases h
  | ok m =>
    rw [hp, run_bind_ok] at h
    cases h
    have := pick_ok cols row m hp
    match cols, m, hc, this with
    | c :: c' :: cols, x :: y :: m, _, this =>
      simp only [List.map_cons, List.cons.injEq] at this
      unfold timeCell idCell idOf
      simp [this.1.symm, this.2.1.symm]
    | c :: c' :: cols, [], _, this => simp at this
    | c :: c' :: cols, [x], _, this => simp at this

theorem idTable_perm [LawfulArith K] (lib : FitLib K) (o : CsvOpts K) (T : F K) (n : ℕ) (l l' : List (Row8 K)) (h : l.Perm l') (hn : ∀ r ∈ l, r.row.t ≠ nan)
    (hd : l.Pairwise fun a b => a.row.t ≠ b.row.t) : idTable lib o T n l = idTable lib o T n l' := by
  unfold idTable
  suffices sortByColumn (fun r : Row8 K => r.row.t) l = sortByColumn (fun r : Row8 K => r.row.t) l' by rw [this]
  obtain ⟨out, _, e, _, _, p1, _, s1⟩ := C50_sort (fun r : Row8 K => r.row.t) l hn
  obtain ⟨out', _, e', _, _, p2, _, s2⟩ := C50_sort (fun r : Row8 K => r.row.t) l' fun r hr => hn r (h.symm.subset hr)
  rw [e, e']
  congr 1
  have s1 := (C50_isSorted _).1 s1
  have s2 := (C50_isSorted _).1 s2
  rw [List.pairwise_map] at s1 s2
  exact eq_of_perm_sorted (fun r : Row8 K => r.row.t) (p1.trans (h.trans p2.symm)) ((p1.pairwise_iff (fun h => h.symm)).2 hd) s1 s2

/-- **C149, several trajectories with ids.** Two CSV tables with the same lines in different order, no id with the same time twice: `csv_multi` with the method
`id_line` writes the same file, or fails alike, whatever the options. -/
theorem C149_idline [LawfulArith K] (lib : FitLib K) (o : CsvOpts K) (raw raw' : List (List (F K))) (h : raw.Perm raw')
    (ht : ∀ c ∈ raw, timeCell o.cols c ≠ some nan)
    (hd : raw.Pairwise fun a b => ¬ (idCell o.cols a = idCell o.cols b ∧ timeCell o.cols a = timeCell o.cols b)) :
    idConvert lib o raw = idConvert lib o raw' := by
  unfold idConvert
  by_cases hc : ¬ (o.cols.length = 5 ∨ o.cols.length = 8)
  · rw [if_pos hc, if_pos hc]
  rw [if_neg hc, if_neg hc]
  have hc2 : 2 ≤ o.cols.length := by
    rcases not_not.1 hc with h | h <;> omega
  rcases collect_perm (β := Row8 K) ⟨nan, zeroRow⟩ (pickIdRow o.cols) (fun r e he => pickIdRow_error _ _ he) h with ⟨e1, e2⟩ | ⟨f, hf, e1, e2⟩
  · rw [e1, e2]
  rw [e1, e2, run_bind_ok, run_bind_ok]
  by_cases hne : raw = []
  · subst hne
    have := h.nil_eq
    subst this
    rfl
  have hcell := fun r hr => pickIdRow_cells o.cols r (f r) hc2 (hf r hr)
  have hperm : (raw.map f).Perm (raw'.map f) := h.map f
  have hnan : ∀ r ∈ raw.map f, r.row.t ≠ nan := by
    intro x hx
    obtain ⟨r, hr, rfl⟩ := List.mem_map.1 hx
    intro e
    exact ht r hr (by rw [(hcell r hr).1, e])
  have hdist : (raw.map f).Pairwise fun a b => ¬ (idOf a = idOf b ∧ a.row.t = b.row.t) := by
    rw [List.pairwise_map]
    refine (List.Pairwise.and_mem.1 hd).imp ?_
    rintro a b ⟨ha, hb, hab⟩ ⟨x1, x2⟩
    exact hab ⟨by rw [(hcell a ha).2, (hcell b hb).2, x1], by rw [(hcell a ha).1, (hcell b hb).1, x2]⟩
  have hne1 : raw.map f ≠ [] := by simpa using hne
  have hne2 : raw'.map f ≠ [] := by
    intro e
    rw [e] at hperm
    exact hne1 hperm.eq_nil
  generalize raw.map f = rows at *
  generalize raw'.map f = rows' at *
  obtain ⟨keys, T, n, a1, a2, a3, a4, a5, a6, a7⟩ := sortById_max rows hne1 hnan
  obtain ⟨keys', T', n', b1, b2, b3, b4, b5, b6, b7⟩ := sortById_max rows' hne2 fun r hr => hnan r (hperm.symm.subset hr)
  have hlen : ∀ i, (rowsOf rows i).Perm (rowsOf rows' i) := fun i => hperm.filter _
  have hk : keys = keys' := by
    refine List.Perm.eq_of_pairwise (le := (· < ·)) (fun a b _ _ h h' => absurd h (by omega)) a1 b1 ?_
    refine (List.perm_ext_iff_of_nodup (a1.imp fun h => Nat.ne_of_lt h) (b1.imp fun h => Nat.ne_of_lt h)).2 fun i => ?_
    rw [a2, b2]
    exact ⟨fun ⟨r, hr, e⟩ => ⟨r, hperm.subset hr, e⟩, fun ⟨r, hr, e⟩ => ⟨r, hperm.symm.subset hr, e⟩⟩
  have hT : T = T' := by
    obtain ⟨r, hr, e⟩ := a5
    obtain ⟨r', hr', e'⟩ := b5
    refine F.le_antisymm' ?_ ?_
    · rw [e]; exact b4 r (hperm.subset hr)
    · rw [e']; exact a4 r' (hperm.symm.subset hr')
  have hn : n = n' := by
    have l1 : n ≤ n' := by
      rcases a7 with h0 | ⟨i, e, h2⟩
      · omega
      · rw [e, (hlen i).length_eq]
        exact b6 i (by rw [← (hlen i).length_eq, ← e]; exact h2)
    have l2 : n' ≤ n := by
      rcases b7 with h0 | ⟨i, e, h2⟩
      · omega
      · rw [e, ← (hlen i).length_eq]
        exact a6 i (by rw [(hlen i).length_eq, ← e]; exact h2)
    omega
  rw [a3, b3, run_bind_ok, run_bind_ok]
  subst hk hT hn
  dsimp only
  have htab : ∀ i, idTable lib o T n (rowsOf rows i) = idTable lib o T n (rowsOf rows' i) := by
    intro i
    refine idTable_perm lib o T n _ _ (hlen i) (fun r hr => hnan r (List.mem_filter.1 hr).1) ?_
    unfold rowsOf
    rw [List.pairwise_filter]
    refine hdist.imp ?_
    intro a b hab ha hb e
    exact hab ⟨(of_decide_eq_true ha).trans (of_decide_eq_true hb).symm, e⟩
  congr 1
  rw [List.foldlM_map, List.foldlM_map]
  congr 1
  funext acc i
  rw [htab]

/-! ### Concrete cases -/

/-- Case for `C149_csv`: three lines backwards, with every choice of the options for velocities and interpolation. -/
example (lib : FitLib ℝ) (vel interp : Bool) :
    csvConvert lib ⟨[0, 1, 2, 3], vel, interp, 1, 3⟩ [[fin 3, 1, 1, 1], [fin 2, 0, 1, 0], [fin 1, 0, 0, 0]] =
      csvConvert lib ⟨[0, 1, 2, 3], vel, interp, 1, 3⟩ [[fin 1, 0, 0, 0], [fin 2, 0, 1, 0], [fin 3, 1, 1, 1]] := by
  refine C149_csv lib _ _ _ (List.reverse_perm [[fin 1, 0, 0, 0], [fin 2, 0, 1, 0], [fin 3, 1, 1, 1]]) ?_ ?_
  · intro c hc
    simp only [List.mem_cons, List.not_mem_nil, or_false] at hc
    rcases hc with rfl | rfl | rfl <;> simp [timeCell]
  · simp [timeCell]

/-- Case for `C149_vtk`: two files, the first lists its two particles the other way round. -/
example (o : VtkOpts) : vtkConvert o (fin (1 : ℝ)) [vtkOf 1 [⟨7, 1, 1, fun _ => 0, fun _ => 0⟩, ⟨3, 1, 1, fun _ => 1, fun _ => 1⟩], vtkOf 2 [⟨3, 1, 1, fun _ => 1, fun _ => 1⟩]] =
    vtkConvert o (fin (1 : ℝ)) [vtkOf 1 [⟨3, 1, 1, fun _ => 1, fun _ => 1⟩, ⟨7, 1, 1, fun _ => 0, fun _ => 0⟩], vtkOf 2 [⟨3, 1, 1, fun _ => 1, fun _ => 1⟩]] := by
  refine C149_vtk o _ [(1, [⟨7, 1, 1, fun _ => 0, fun _ => 0⟩, ⟨3, 1, 1, fun _ => 1, fun _ => 1⟩]), (2, [⟨3, 1, 1, fun _ => 1, fun _ => 1⟩])]
    [(1, [⟨3, 1, 1, fun _ => 1, fun _ => 1⟩, ⟨7, 1, 1, fun _ => 0, fun _ => 0⟩]), (2, [⟨3, 1, 1, fun _ => 1, fun _ => 1⟩])] ?_
  refine .cons ⟨rfl, List.Perm.swap _ _ _, by simp⟩ (.cons ⟨rfl, List.Perm.refl _, by simp⟩ .nil)

/-- Case for `C149_idline`: the lines of two particles mixed and sorted; both particles have a line at time 1. -/
example (lib : FitLib ℝ) (vel : Bool) :
    idConvert lib ⟨[0, 1, 2, 3, 4], vel, false, 1, 3⟩ [[fin 1, fin 5, 0, 0, 0], [fin 2, fin 4, 1, 1, 1], [fin 1, fin 4, 0, 1, 0]] =
      idConvert lib ⟨[0, 1, 2, 3, 4], vel, false, 1, 3⟩ [[fin 1, fin 4, 0, 1, 0], [fin 2, fin 4, 1, 1, 1], [fin 1, fin 5, 0, 0, 0]] := by
  have h4 : (fin (4 : ℝ)).toUsize = 4 := by have := toUsize_nat (K := ℝ) 4 (by unfold usizeMax; omega); simpa using this
  have h5 : (fin (5 : ℝ)).toUsize = 5 := by have := toUsize_nat (K := ℝ) 5 (by unfold usizeMax; omega); simpa using this
  refine C149_idline lib _ _ _ (List.reverse_perm [[fin 1, fin 4, 0, 1, 0], [fin 2, fin 4, 1, 1, 1], [fin 1, fin 5, 0, 0, 0]]) ?_ ?_
  · intro c hc
    simp only [List.mem_cons, List.not_mem_nil, or_false] at hc
    rcases hc with rfl | rfl | rfl <;> simp [timeCell]
  · simp [timeCell, idCell, h4, h5]

end Up4
