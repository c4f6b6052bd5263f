import Verif.Model.Tools
import Verif.Proofs.Store
import Verif.RealArith

set_option linter.unusedSectionVars false

/-! # C49, C50: sorting by particle id and by column -/

namespace Up4
open F
open Selector (at')

variable {K : Type} [Field K] [LinearOrder K] [IsStrictOrderedRing K] [FloorRing K] [Arith K]

/-! ### Stable sorting of indices -/

theorem no_swap {α : Type} {l : List α} (h : l.Nodup) {a b : α} (h1 : [a, b].Sublist l) (h2 : [b, a].Sublist l) : False := by
  induction l with
  | nil => cases h1
  | cons x l ih =>
    have hn := List.nodup_cons.1 h
    by_cases ha : a = x
    · subst ha
      cases h2 with
      | cons _ h2 => exact hn.1 (h2.subset (by simp))
      | cons_cons _ h2 => exact hn.1 (h2.subset (by simp))
    · by_cases hb : b = x
      · subst hb
        cases h1 with
        | cons _ h1 => exact hn.1 (h1.subset (by simp))
        | cons_cons _ h1 => exact ha rfl
      · cases h1 with
        | cons_cons _ h1 => exact ha rfl
        | cons _ h1 =>
          cases h2 with
          | cons_cons _ h2 => exact hb rfl
          | cons _ h2 => exact ih hn.2 h1 h2

/-- A stable sort of an increasing list of indices: ordered by key, indices with equal keys stay in order. -/
theorem stable_sort (le : ℕ → ℕ → Bool) (trans : ∀ a b c, le a b = true → le b c = true → le a c = true)
    (total : ∀ a b, (le a b || le b a) = true) (n : ℕ) :
    ((List.range n).mergeSort le).Perm (List.range n) ∧
    ((List.range n).mergeSort le).Pairwise fun a b => le a b = true ∧ (le b a = true → a < b) := by
  have hperm := List.mergeSort_perm (List.range n) le
  refine ⟨hperm, ?_⟩
  have hnd' : ((List.range n).mergeSort le).Nodup := hperm.nodup_iff.2 List.nodup_range
  rw [List.pairwise_iff_forall_sublist]
  intro a b hab
  refine ⟨List.pairwise_iff_forall_sublist.1 (List.pairwise_mergeSort trans total _) hab, fun hba => ?_⟩
  have ha : a ∈ List.range n := hperm.subset (hab.subset (by simp))
  have hb : b ∈ List.range n := hperm.subset (hab.subset (by simp))
  by_contra hlt
  have hne : a ≠ b := List.pairwise_iff_forall_sublist.1 hnd' hab
  have hsub : [b, a].Sublist (List.range n) := by
    have hba' : b < a := by omega
    have ha' := List.mem_range.1 ha
    have e : List.range n = List.range a ++ a :: (List.range' (a + 1) (n - a - 1)) := by
      have h := List.range'_append_1 (s := 0) (m := a) (n := n - a - 1 + 1)
      rw [Nat.zero_add] at h
      rw [List.range_eq_range', List.range_eq_range', ← List.range'_succ, h]
      congr 1
      omega
    rw [e]
    exact List.Sublist.append (List.singleton_sublist.2 (List.mem_range.2 hba')) (List.singleton_sublist.2 (by simp)) 
  exact no_swap hnd' hab (List.pair_sublist_mergeSort trans total hba hsub)

/-- The keys at these indices, in order; equal keys keep the order of the indices. -/
def Ordered {β : Type} (lt : β → β → Prop) (key : ℕ → β) (idx : List ℕ) : Prop :=
  idx.Pairwise fun i j => lt (key i) (key j) ∨ (key i = key j ∧ i < j)

/-! ### C49 -/

theorem getD_lt {α : Type} {l : List α} {i : ℕ} (d : α) (h : i < l.length) : l.getD i d = l[i] := by
  rw [List.getD_eq_getElem?_getD, List.getElem?_eq_getElem h, Option.getD_some]

/-- **C49, the permutation.** `make_sortlist` lists every index once, ordered by id, indices of equal ids in increasing order. -/
theorem C49_sortlist (ids : List ℕ) : (makeSortlist ids).Perm (List.range ids.length) ∧
    Ordered (· < ·) (fun i => ids.getD i 0) (makeSortlist ids) := by
  obtain ⟨h1, h2⟩ := stable_sort (fun i j => decide (ids.getD i 0 ≤ ids.getD j 0))
    (by intro a b c h1 h2; exact decide_eq_true (le_trans (of_decide_eq_true h1) (of_decide_eq_true h2)))
    (by intro a b; rw [Bool.or_eq_true, decide_eq_true_eq, decide_eq_true_eq]; exact le_total _ _) ids.length
  refine ⟨h1, h2.imp ?_⟩
  rintro i j ⟨h, h'⟩
  have h := of_decide_eq_true h
  rcases Nat.lt_or_ge (ids.getD i 0) (ids.getD j 0) with hlt | hge
  · exact Or.inl hlt
  · exact Or.inr ⟨le_antisymm h hge, h' (decide_eq_true hge)⟩

theorem at_some {α : Type} {l : List α} {i : ℕ} (h : i < l.length) : at' l i = .ok l[i] := by
  unfold at'
  rw [List.getElem?_eq_getElem h]

/-- Three numbers per entry. -/
def flat3 {α : Type} (L : List (Fin 3 → α)) : List α := L.flatMap fun v => [v 0, v 1, v 2]

theorem length_flat3 {α : Type} (L : List (Fin 3 → α)) : (flat3 L).length = 3 * L.length := by
  induction L with
  | nil => rfl
  | cons v L ih => unfold flat3 at ih ⊢; rw [List.flatMap_cons, List.length_append, ih]; simp; omega

theorem flat3_get {α : Type} (L : List (Fin 3 → α)) (i : ℕ) (h : i < L.length) (c : Fin 3) : (flat3 L)[3 * i + c]? = some (L[i] c) := by
  induction L generalizing i with
  | nil => cases h
  | cons v L ih =>
    unfold flat3 at ih ⊢
    rw [List.flatMap_cons]
    cases i with
    | zero => fin_cases c <;> rfl
    | succ i =>
      rw [List.getElem?_append_right (by simp; omega)]
      have : 3 * (i + 1) + (c : ℕ) - [v 0, v 1, v 2].length = 3 * i + c := by simp; omega
      rw [this, ih i (by simpa using h)]
      rfl

theorem emit_run {α β : Type} (l : List α) (f : α → Run (List β)) (r : α → List β) (h : ∀ x ∈ l, f x = .ok (r x)) (acc : List β) :
    l.foldlM (fun acc x => do pure (acc ++ (← f x))) acc = (.ok (acc ++ l.flatMap r) : Run (List β)) := by
  induction l generalizing acc with
  | nil => simp [run_pure]
  | cons x l ih =>
    rw [List.foldlM_cons, h x (by simp), run_bind_ok, run_pure, run_bind_ok, ih (fun y hy => h y (by simp [hy])), List.flatMap_cons, List.append_assoc]

/-- **C49, scalars.** One value per particle: entry `k` of the result is the value of the particle at index `k` of the sort list. -/
theorem C49_scalars {α : Type} (data : List α) (idx : List ℕ) (hp : idx.Perm (List.range data.length)) :
    ∃ out, sortByArray data idx = .ok out ∧ (out.map some = idx.map fun i => data[i]?) ∧ out.Perm data := by
  have hlen : data.length = idx.length := by have := hp.length_eq; rw [List.length_range] at this; exact this.symm
  have hb : ∀ i ∈ idx, i < data.length := fun i hi => List.mem_range.1 (hp.subset hi)
  cases hd : data with
  | nil =>
    subst hd
    have : idx = [] := List.length_eq_zero_iff.1 hlen.symm
    subst this
    exact ⟨[], rfl, rfl, List.Perm.refl _⟩
  | cons d0 _ =>
    rw [← hd]
    have e : sortByArray data idx = .ok (idx.flatMap fun i => [data.getD i d0]) := by
      unfold sortByArray
      rw [if_pos hlen]
      have := emit_run idx (fun i => do pure [← at' data i]) (fun i => [data.getD i d0]) (by
        intro i hi
        rw [at_some (hb i hi), run_bind_ok, getD_lt _ (hb i hi)]; rfl) []
      rw [List.nil_append] at this
      rw [← this]
      congr 1
      funext acc i
      simp only [bind_assoc, pure_bind]
    have hfm : ∀ l : List ℕ, (l.flatMap fun i => [data.getD i d0]) = l.map fun i => data.getD i d0 := by
      intro l
      induction l with
      | nil => rfl
      | cons i l ih => rw [List.flatMap_cons, ih]; rfl
    rw [hfm] at e
    refine ⟨idx.map fun i => data.getD i d0, e, ?_, ?_⟩
    · rw [List.map_map]
      apply List.map_congr_left
      intro i hi
      change some (data.getD i d0) = data[i]?
      rw [getD_lt _ (hb i hi), List.getElem?_eq_getElem (hb i hi)]
    · have h1 := hp.map fun i => data.getD i d0
      have h2 : (List.range data.length).map (fun i => data.getD i d0) = data := by
        apply List.ext_getElem
        · simp
        · intro i h h'
          simp only [List.getElem_map, List.getElem_range]
          rw [getD_lt _ h']
      rwa [h2] at h1

/-- **C49, vectors.** Three numbers per particle: they stay together, entry `k` of the result is the vector of the particle at index `k` of the
sort list. -/
theorem C49_vectors {α : Type} (L : List (Fin 3 → α)) (idx : List ℕ) (hp : idx.Perm (List.range L.length)) :
    ∃ out, sortByArray (flat3 L) idx = .ok (flat3 out) ∧ (out.map some = idx.map fun i => L[i]?) ∧ out.Perm L := by
  have hlen : L.length = idx.length := by have := hp.length_eq; rw [List.length_range] at this; exact this.symm
  have hb : ∀ i ∈ idx, i < L.length := fun i hi => List.mem_range.1 (hp.subset hi)
  cases hd : L with
  | nil =>
    subst hd
    have : idx = [] := List.length_eq_zero_iff.1 hlen.symm
    subst this
    exact ⟨[], rfl, rfl, List.Perm.refl _⟩
  | cons d0 L' =>
    rw [← hd]
    have hne : ¬ (flat3 L).length = idx.length := by
      rw [length_flat3, hlen]
      have : 0 < idx.length := by rw [← hlen, hd]; simp
      omega
    have hat : ∀ i, (h : i < L.length) → ∀ c : Fin 3, at' (flat3 L) (3 * i + c) = .ok (L[i] c) := by
      intro i h c
      unfold at'
      rw [flat3_get L i h c]
    have e : sortByArray (flat3 L) idx = .ok (flat3 (idx.map fun i => L.getD i d0)) := by
      unfold sortByArray
      rw [if_neg hne]
      have := emit_run idx (fun i => do
        let a ← at' (flat3 L) (3 * i)
        let b ← at' (flat3 L) (3 * i + 1)
        let c ← at' (flat3 L) (3 * i + 2)
        pure [a, b, c]) (fun i => [L.getD i d0 0, L.getD i d0 1, L.getD i d0 2]) (by
        intro i hi
        have h0 := hat i (hb i hi) 0
        have h1 := hat i (hb i hi) 1
        have h2 := hat i (hb i hi) 2
        change at' (flat3 L) (3 * i) = _ at h0
        change at' (flat3 L) (3 * i + 1) = _ at h1
        change at' (flat3 L) (3 * i + 2) = _ at h2
        rw [h0, run_bind_ok, h1, run_bind_ok, h2, run_bind_ok, getD_lt _ (hb i hi)]; rfl) []
      rw [List.nil_append] at this
      unfold flat3
      rw [List.flatMap_map]
      rw [← this]
      congr 1
      funext acc i
      simp only [bind_assoc, pure_bind]
      rfl
    refine ⟨idx.map fun i => L.getD i d0, e, ?_, ?_⟩
    · rw [List.map_map]
      apply List.map_congr_left
      intro i hi
      change some (L.getD i d0) = L[i]?
      rw [getD_lt _ (hb i hi), List.getElem?_eq_getElem (hb i hi)]
    · have h1 := hp.map fun i => L.getD i d0
      have h2 : (List.range L.length).map (fun i => L.getD i d0) = L := by
        apply List.ext_getElem
        · simp
        · intro i h h'
          simp only [List.getElem_map, List.getElem_range]
          rw [getD_lt _ h']
      rwa [h2] at h1

/-- Ids 7, 3, 7: the particle with id 3 first, then the two with id 7 in their order, with their vectors. -/
example : makeSortlist [7, 3, 7] = [1, 0, 2] ∧ sortByArray ["a", "b", "c"] [1, 0, 2] = .ok ["b", "a", "c"] ∧
    sortByArray [1, 2, 3, 4, 5, 6, 7, 8, 9] [1, 0, 2] = .ok [4, 5, 6, 1, 2, 3, 7, 8, 9] := by
  refine ⟨?_, rfl, rfl⟩
  simp [makeSortlist, List.range_succ, List.mergeSort, List.MergeSort.Internal.splitInTwo, List.merge]

/-! ### C50 -/

theorem leNum_trans (a b c : F K) (h1 : leNum a b = true) (h2 : leNum b c = true) : leNum a c = true := by
  cases a <;> cases b <;> cases c <;> simp_all [leNum, F.leB]
  exact le_trans h1 h2

theorem leNum_total (a b : F K) : (leNum a b || leNum b a) = true := by
  cases a <;> cases b <;> simp [leNum, F.leB]
  exact le_total _ _

theorem leNum_le {a b : F K} (ha : a ≠ nan) : leNum a b = true ↔ a ≤ b := by
  cases a <;> first | exact (ha rfl).elim | exact Iff.rfl

/-- **C50.** For a table without NaN in the column `sort_by_column` returns its rows, each once, ordered by the column, rows with equal entries in
their order. -/
theorem C50_sort {R : Type} (key : R → F K) (rows : List R) (hn : ∀ r ∈ rows, key r ≠ nan) : ∃ out idx, sortByColumn key rows = .ok out ∧
    idx.Perm (List.range rows.length) ∧ (out.map some = idx.map fun i => rows[i]?) ∧ out.Perm rows ∧
    Ordered (· < ·) (fun i => ((rows[i]?).map key).getD nan) idx ∧ isSorted (out.map key) = true := by
  set keyAt : ℕ → F K := fun i => ((rows[i]?).map key).getD nan with hk
  obtain ⟨h1, h2⟩ := stable_sort (fun i j => leNum (keyAt i) (keyAt j)) (fun a b c => leNum_trans _ _ _) (fun a b => leNum_total _ _) rows.length
  set idx := (List.range rows.length).mergeSort (fun i j => leNum (keyAt i) (keyAt j)) with hidx
  have hnn : ∀ i ∈ idx, keyAt i ≠ nan := by
    intro i hi
    have hlt := List.mem_range.1 (h1.subset hi)
    rw [hk]
    dsimp only
    rw [List.getElem?_eq_getElem hlt]
    exact hn _ (List.getElem_mem hlt)
  have hord : Ordered (· < ·) keyAt idx := by
    refine h2.imp_of_mem ?_
    rintro i j hi hj ⟨h, h'⟩
    rw [leNum_le (hnn i hi)] at h
    rw [leNum_le (hnn j hj)] at h'
    rcases F.lt_or_le' (hnn i hi) (hnn j hj) with hlt | hge
    · exact Or.inl hlt
    · exact Or.inr ⟨F.le_antisymm' h hge, h' hge⟩
  have hok : ¬ (2 ≤ rows.length ∧ rows.any (fun r => (key r).isNaN) = true) := by
    rintro ⟨_, h⟩
    obtain ⟨r, hr, h⟩ := List.any_eq_true.1 h
    exact hn r hr ((F.isNaN_iff _).1 h)
  have hmap : (idx.filterMap fun i => rows[i]?).map some = idx.map fun i => rows[i]? := by
    have : ∀ l : List ℕ, (∀ i ∈ l, i < rows.length) → (l.filterMap fun i => rows[i]?).map some = l.map fun i => rows[i]? := by
      intro l hl
      induction l with
      | nil => rfl
      | cons i l ih =>
        rw [List.filterMap_cons_some (List.getElem?_eq_getElem (hl i (by simp)))]
        rw [List.map_cons, List.map_cons, ih (fun j hj => hl j (by simp [hj])), List.getElem?_eq_getElem (hl i (by simp))]
    exact this idx fun i hi => List.mem_range.1 (h1.subset hi)
  have hkeys : (idx.filterMap fun i => rows[i]?).map key = idx.map keyAt := by
    have := congrArg (List.map fun o : Option R => (o.map key).getD nan) hmap
    rw [List.map_map, List.map_map] at this
    exact this
  refine ⟨idx.filterMap fun i => rows[i]?, idx, ?_, h1, hmap, ?_, hord, ?_⟩
  · unfold sortByColumn
    rw [if_neg hok]
  · have := h1.filterMap fun i => rows[i]?
    refine this.trans ?_
    have e : (List.range rows.length).filterMap (fun i => rows[i]?) = rows := by
      apply List.map_injective_iff.2 (Option.some_injective R)
      have : ((List.range rows.length).filterMap fun i => rows[i]?).map some = (List.range rows.length).map fun i => rows[i]? := by
        have : ∀ l : List ℕ, (∀ i ∈ l, i < rows.length) → (l.filterMap fun i => rows[i]?).map some = l.map fun i => rows[i]? := by
          intro l hl
          induction l with
          | nil => rfl
          | cons i l ih =>
            rw [List.filterMap_cons_some (List.getElem?_eq_getElem (hl i (by simp)))]
            rw [List.map_cons, List.map_cons, ih (fun j hj => hl j (by simp [hj])), List.getElem?_eq_getElem (hl i (by simp))]
        exact this _ fun i hi => List.mem_range.1 hi
      rw [this]
      apply List.ext_getElem
      · simp
      · intro i h h'
        simp at h'
        simp [List.getElem?_eq_getElem h']
    rw [e]
  · rw [hkeys]
    have hpw : (idx.map keyAt).Pairwise (· ≤ ·) := by
      rw [List.pairwise_map]
      refine hord.imp_of_mem ?_
      rintro i j hi _ (h | ⟨h, _⟩)
      · exact F.le_of_lt' h
      · rw [← h]; exact F.le_refl' (hnn i hi)
    generalize idx.map keyAt = l at hpw
    induction l with
    | nil => rfl
    | cons a l ih =>
      cases l with
      | nil => rfl
      | cons b l =>
        have := List.pairwise_cons.1 hpw
        unfold isSorted
        rw [ih this.2, Bool.and_true]
        exact this.1 b (by simp)

/-- A NaN in the column of a table of two or more rows is rejected. -/
theorem C50_nan {R : Type} (key : R → F K) (rows : List R) (h2 : 2 ≤ rows.length) (r : R) (hr : r ∈ rows) (hk : key r = nan) :
    sortByColumn key rows = .error .unwrap := by
  unfold sortByColumn
  rw [if_pos ⟨h2, List.any_eq_true.2 ⟨r, hr, by rw [hk]; rfl⟩⟩]

/-- `is_sorted` is true exactly if no entry exceeds a later one (and none is NaN, for two or more entries). -/
theorem C50_isSorted (l : List (F K)) : isSorted l = true ↔ l.Pairwise (· ≤ ·) := by
  induction l with
  | nil => simp [isSorted]
  | cons a l ih =>
    cases l with
    | nil => simp [isSorted]
    | cons b l =>
      rw [show isSorted (a :: b :: l) = (F.leB a b && isSorted (b :: l)) from rfl, Bool.and_eq_true, ih]
      constructor
      · rintro ⟨h1, h2⟩
        refine List.pairwise_cons.2 ⟨fun c hc => ?_, h2⟩
        rcases List.mem_cons.1 hc with rfl | hc
        · exact h1
        · exact F.le_trans' h1 ((List.pairwise_cons.1 h2).1 c hc)
      · intro h
        obtain ⟨h1, h2⟩ := List.pairwise_cons.1 h
        exact ⟨h1 b (by simp), h2⟩

/-- A table with two rows of equal key. -/
example : ∃ out, sortByColumn (K := ℝ) Prod.fst [(fin 2, "a"), (fin 1, "b"), (fin 2, "c")] = .ok out ∧ out.map Prod.snd = ["b", "a", "c"] := by
  obtain ⟨out, idx, h, hp, hm, _, ho, _⟩ := C50_sort (K := ℝ) Prod.fst [(fin 2, "a"), (fin 1, "b"), (fin 2, "c")]
    (by intro r hr; simp only [List.mem_cons, List.not_mem_nil, or_false] at hr; rcases hr with rfl | rfl | rfl <;> simp)
  refine ⟨out, h, ?_⟩
  have hidx : idx = [1, 0, 2] := by
    have hl : [1, 0, 2].Perm (List.range 3) := by decide
    have ho' : Ordered (· < ·) (fun i => (([(fin (2 : ℝ), "a"), (fin 1, "b"), (fin 2, "c")][i]?).map Prod.fst).getD nan) [1, 0, 2] := by
      unfold Ordered
      simp
    refine List.Perm.eq_of_pairwise ?_ ho ho' (hp.trans hl.symm)
    intro a b _ _ h1 h2
    rcases h1 with h1 | ⟨e1, h1⟩
    · rcases h2 with h2 | ⟨e2, h2⟩
      · exact (F.not_lt_of_le' (F.le_of_lt' h1) h2).elim
      · rw [e2] at h1; exact (F.not_lt_of_le' (F.le_of_lt' h1) h1).elim
    · rcases h2 with h2 | ⟨e2, h2⟩
      · rw [e1] at h2; exact (F.not_lt_of_le' (F.le_of_lt' h2) h2).elim
      · omega
  rw [hidx] at hm
  have : out = [(fin 1, "b"), (fin 2, "a"), (fin 2, "c")] := List.map_injective_iff.2 (Option.some_injective _) hm
  rw [this]; rfl

end Up4
