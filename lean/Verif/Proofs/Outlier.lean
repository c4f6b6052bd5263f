import Verif.Proofs.Collapse

set_option linter.unusedSectionVars false

/-! Lemmas for `outlier_removal`, mode 2. -/

namespace Up4
open F

variable {K : Type} [Field K] [LinearOrder K] [IsStrictOrderedRing K] [FloorRing K] [Arith K]

/-- The 27-element list before the centre is left out. -/
def box27 (a b c : ℕ) (idx : CellId) : List CellId :=
  [a, idx 0, idx 0 + 1].flatMap fun x =>
    [b, idx 1, idx 1 + 1].flatMap fun y => [c, idx 2, idx 2 + 1].map fun z => (![x, y, z] : CellId)

/-- The neighbour list of the model is the list written out in the source
(cartesian_grid.rs:499-526), in the same order. -/
theorem neighbours_explicit (i j k : ℕ) (a b c : ℕ) :
    (box27 a b c ![i, j, k]).eraseIdx 13 =
      [![a, b, c], ![a, b, k], ![a, b, k + 1], ![a, j, c], ![a, j, k], ![a, j, k + 1],
       ![a, j + 1, c], ![a, j + 1, k], ![a, j + 1, k + 1],
       ![i, b, c], ![i, b, k], ![i, b, k + 1], ![i, j, c], ![i, j, k + 1],
       ![i, j + 1, c], ![i, j + 1, k], ![i, j + 1, k + 1],
       ![i + 1, b, c], ![i + 1, b, k], ![i + 1, b, k + 1], ![i + 1, j, c], ![i + 1, j, k],
       ![i + 1, j, k + 1], ![i + 1, j + 1, c], ![i + 1, j + 1, k], ![i + 1, j + 1, k + 1]] := rfl

theorem neighbours_eq {p : Profile} {idx : CellId} {a b c : ℕ} (ha : usub p (idx 0) 1 = .ok a)
    (hb : usub p (idx 1) 1 = .ok b) (hc : usub p (idx 2) 1 = .ok c) :
    Store.neighbours p idx = .ok ((box27 a b c idx).eraseIdx 13) := by
  unfold Store.neighbours
  rw [ha, hb, hc]; rfl

theorem mem_box27 {a b c : ℕ} {idx n : CellId} : n ∈ box27 a b c idx ↔
    (n 0 = a ∨ n 0 = idx 0 ∨ n 0 = idx 0 + 1) ∧ (n 1 = b ∨ n 1 = idx 1 ∨ n 1 = idx 1 + 1) ∧
      (n 2 = c ∨ n 2 = idx 2 ∨ n 2 = idx 2 + 1) := by
  unfold box27
  simp only [List.mem_flatMap, List.mem_map, List.mem_cons, List.not_mem_nil, or_false]
  constructor
  · rintro ⟨x, hx, y, hy, z, hz, rfl⟩
    exact ⟨by simpa using hx, by simpa using hy, by simpa using hz⟩
  · rintro ⟨hx, hy, hz⟩
    refine ⟨n 0, hx, n 1, hy, n 2, hz, ?_⟩
    funext i; fin_cases i <;> rfl

theorem nodup_box27 {a b c : ℕ} {idx : CellId} (ha : a ≠ idx 0 ∧ a ≠ idx 0 + 1)
    (hb : b ≠ idx 1 ∧ b ≠ idx 1 + 1) (hc : c ≠ idx 2 ∧ c ≠ idx 2 + 1) : (box27 a b c idx).Nodup := by
  have nd : ∀ {u v : ℕ}, (u ≠ v ∧ u ≠ v + 1) → [u, v, v + 1].Nodup := by
    intro u v h; simp [h.1, h.2]
  unfold box27
  rw [List.nodup_flatMap]
  refine ⟨fun x _ => ?_, ?_⟩
  · rw [List.nodup_flatMap]
    refine ⟨fun y _ => ?_, ?_⟩
    · refine (nd hc).map ?_
      intro z z' h
      simpa using congrFun h 2
    · refine List.Pairwise.imp (R := (· ≠ ·)) ?_ (nd hb)
      intro y y' hne n hn hn'
      simp only [List.mem_map] at hn hn'
      obtain ⟨z, _, rfl⟩ := hn
      obtain ⟨z', _, h⟩ := hn'
      exact hne (by simpa using (congrFun h 1).symm)
  · refine List.Pairwise.imp (R := (· ≠ ·)) ?_ (nd ha)
    intro x x' hne n hn hn'
    simp only [List.mem_map, List.mem_flatMap] at hn hn'
    obtain ⟨y, _, z, _, rfl⟩ := hn
    obtain ⟨y', _, z', _, h⟩ := hn'
    exact hne (by simpa using (congrFun h 0).symm)

theorem box27_erase {a b c : ℕ} {idx : CellId} (h : (box27 a b c idx).Nodup) :
    (box27 a b c idx).eraseIdx 13 = (box27 a b c idx).erase idx := by
  have hl : 13 < (box27 a b c idx).length := by simp [box27]
  have := h.erase_getElem (i := 13) (h := hl)
  rw [← this]
  congr 1
  have : (box27 a b c idx)[13] = ![idx 0, idx 1, idx 2] := rfl
  rw [this]
  funext i; fin_cases i <;> rfl

/-- The cells of the grid that touch `idx` (differ by at most one on every axis), without `idx`. -/
def nearCells (s : Fin 3 → ℕ) (idx : CellId) : Finset CellId :=
  (cellsOf s).filter fun n => n ≠ idx ∧ ∀ a, n a ≤ idx a + 1 ∧ idx a ≤ n a + 1

/-- The neighbour list, restricted to the grid, enumerates `nearCells` once each. `usub` may have
wrapped: a wrapped index is outside the grid. -/
theorem neighbours_near {p : Profile} {s : Fin 3 → ℕ} (hs : ∀ a, s a < usizeMod) {idx : CellId}
    (hidx : InB s idx) {l : List CellId} (h : Store.neighbours p idx = .ok l) :
    l.Nodup ∧ (l.filter fun n => InB s n).toFinset = nearCells s idx := by
  have key : ∀ i : Fin 3, ∀ x, usub p (idx i) 1 = .ok x →
      (x ≠ idx i ∧ x ≠ idx i + 1) ∧ ∀ m, m < s i → (m = x ↔ m + 1 = idx i) := by
    intro i x hx
    have h1 := hidx i
    have h2 := hs i
    by_cases h0 : 1 ≤ idx i
    · rw [usub_of_le p h0 (by omega)] at hx
      simp only [Except.ok.injEq] at hx
      refine ⟨by omega, fun m hm => by omega⟩
    · have hz : idx i = 0 := by omega
      cases p with
      | debug => simp [usub, hz] at hx
      | release =>
        simp only [usub, hz, Except.ok.injEq] at hx
        have : (0 + usizeMod - 1) % usizeMod = usizeMod - 1 := by decide
        rw [this] at hx
        unfold usizeMod at *
        refine ⟨by omega, fun m hm => by omega⟩
  have hab : ∀ i, ∃ x, usub p (idx i) 1 = .ok x := by
    cases ha : usub p (idx 0) 1 with
    | error e => unfold Store.neighbours at h; rw [ha] at h; cases h
    | ok a =>
      cases hb : usub p (idx 1) 1 with
      | error e => unfold Store.neighbours at h; rw [ha, hb] at h; cases h
      | ok b =>
        cases hc : usub p (idx 2) 1 with
        | error e => unfold Store.neighbours at h; rw [ha, hb, hc] at h; cases h
        | ok c =>
          intro i; fin_cases i
          · exact ⟨a, ha⟩
          · exact ⟨b, hb⟩
          · exact ⟨c, hc⟩
  obtain ⟨a, ha⟩ := hab 0
  obtain ⟨b, hb⟩ := hab 1
  obtain ⟨c, hc⟩ := hab 2
  rw [neighbours_eq ha hb hc] at h
  simp only [Except.ok.injEq] at h
  subst h
  have ka := key 0 a ha
  have kb := key 1 b hb
  have kc := key 2 c hc
  have nd := nodup_box27 ka.1 kb.1 kc.1
  rw [box27_erase nd]
  refine ⟨nd.erase _, ?_⟩
  ext n
  simp only [List.mem_toFinset, List.mem_filter, decide_eq_true_eq, nd.mem_erase_iff, mem_box27,
    nearCells, Finset.mem_filter, mem_cellsOf]
  constructor
  · rintro ⟨⟨hne, h0, h1, h2⟩, hin⟩
    refine ⟨hin, hne, ?_⟩
    have := ka.2 _ (hin 0); have := kb.2 _ (hin 1); have := kc.2 _ (hin 2)
    intro i; fin_cases i
    · change n 0 ≤ idx 0 + 1 ∧ idx 0 ≤ n 0 + 1; omega
    · change n 1 ≤ idx 1 + 1 ∧ idx 1 ≤ n 1 + 1; omega
    · change n 2 ≤ idx 2 + 1 ∧ idx 2 ≤ n 2 + 1; omega
  · rintro ⟨hin, hne, hn⟩
    refine ⟨⟨hne, ?_⟩, hin⟩
    have := ka.2 _ (hin 0); have := kb.2 _ (hin 1); have := kc.2 _ (hin 2)
    have := hn 0; have := hn 1; have := hn 2
    omega

/-- Folding entrywise updates that may panic: all succeed. -/
theorem foldlM_update_ok (l : List CellId) (f : CellId → Run (F K × F K)) (r : CellId → F K × F K)
    (hf : ∀ x ∈ l, f x = .ok (r x)) (s : Store K) :
    ∃ s' : Store K, l.foldlM (fun acc idx => do
        let y ← f idx
        pure (⟨{ acc.data with get := Function.update acc.data.get idx y.1 },
          { acc.weight with get := Function.update acc.weight.get idx y.2 }⟩ : Store K)) s = .ok s' ∧
      s'.data.shape = s.data.shape ∧ s'.weight.shape = s.weight.shape ∧
      ∀ x, (x ∈ l → s'.data.get x = (r x).1 ∧ s'.weight.get x = (r x).2) ∧
        (x ∉ l → s'.data.get x = s.data.get x ∧ s'.weight.get x = s.weight.get x) := by
  induction l generalizing s with
  | nil => exact ⟨s, rfl, rfl, rfl, fun x => ⟨by simp, fun _ => ⟨rfl, rfl⟩⟩⟩
  | cons a l ih =>
    obtain ⟨s', h1, hs1, hs2, h2⟩ := ih (fun x hx => hf x (by simp [hx]))
      ⟨{ s.data with get := Function.update s.data.get a (r a).1 },
        { s.weight with get := Function.update s.weight.get a (r a).2 }⟩
    refine ⟨s', ?_, hs1, hs2, fun x => ⟨fun hx => ?_, fun hx => ?_⟩⟩
    · rw [List.foldlM_cons, hf a (by simp), run_bind_ok, run_pure, run_bind_ok]; exact h1
    · by_cases hxl : x ∈ l
      · exact (h2 x).1 hxl
      · have : x = a := by simpa [hxl] using hx
        subst this
        have := (h2 x).2 hxl
        rw [this.1, this.2]; simp
    · simp only [List.mem_cons, not_or] at hx
      have := (h2 x).2 hx.2
      rw [this.1, this.2]
      dsimp only
      rw [Function.update_of_ne hx.1, Function.update_of_ne hx.1]
      exact ⟨rfl, rfl⟩

theorem foldlM_error {α σ : Type} (l : List α) (f : σ → α → Run σ) (e : Panic) (x : α) (hx : x ∈ l)
    (hfx : ∀ s, f s x = .error e) (hf : ∀ y ∈ l, ∀ s s', f s y = .error s' → s' = e) (s : σ) :
    l.foldlM f s = .error e := by
  induction l generalizing s with
  | nil => simp at hx
  | cons a l ih =>
    rw [List.foldlM_cons]
    cases h : f s a with
    | error e' => rw [hf a (by simp) s e' h]; rfl
    | ok s' =>
      rw [run_bind_ok]
      rcases List.mem_cons.1 hx with rfl | hx'
      · rw [hfx] at h; cases h
      · exact ih hx' (fun y hy => hf y (by simp [hy])) s'

theorem gt_iff' (a b : F K) : a > b ↔ b < a := Iff.rfl

/-- Cells that enter the mean. -/
def keepCells (skip : Bool) (s : Store K) (thr : F K) (idx : CellId) : Finset CellId :=
  (nearCells s.data.shape idx).filter fun n => ¬ (skip = true ∧ s.data.get n > thr)

theorem neighbourFold (skip : Bool) (s : Store K) (thr : F K) (l : List CellId) (acc : F K × F K × F K) :
    l.foldl (Store.neighbourStep skip s thr) acc =
      let k := l.filter fun n => InB s.data.shape n ∧ ¬ (skip = true ∧ s.data.get n > thr)
      ((k.map s.data.get).foldl (· + ·) acc.1, (k.map s.weight.get).foldl (· + ·) acc.2.1,
        (List.replicate k.length (1 : F K)).foldl (· + ·) acc.2.2) := by
  induction l generalizing acc with
  | nil => rfl
  | cons a l ih =>
    rw [List.foldl_cons, ih]
    dsimp only
    by_cases h1 : InB s.data.shape a
    · by_cases h2 : skip = true ∧ s.data.get a > thr
      · have : Store.neighbourStep skip s thr acc a = acc := by
          unfold Store.neighbourStep
          rw [if_pos h1, if_pos (by simpa using h2)]
        rw [this, List.filter_cons_of_neg (by simp [h1, h2])]
      · have : Store.neighbourStep skip s thr acc a =
            (acc.1 + s.data.get a, acc.2.1 + s.weight.get a, acc.2.2 + 1) := by
          unfold Store.neighbourStep
          rw [if_pos h1, if_neg (by simpa using h2)]
        rw [this, List.filter_cons_of_pos (by simp only [decide_eq_true_eq]; exact ⟨h1, h2⟩)]
        simp [List.replicate_succ]
    · have : Store.neighbourStep skip s thr acc a = acc := by
        unfold Store.neighbourStep; rw [if_neg h1]
      rw [this, List.filter_cons_of_neg (by simp [h1])]

/-- Sum of a list of finite-or-NaN values: NaN if one is NaN, else the exact sum. -/
theorem foldl_finOrNaN [ExactArith K] (l : List (F K)) (h : ∀ v ∈ l, v = F.nan ∨ ∃ x, v = F.fin x) (x : K) :
    l.foldl (· + ·) (F.fin x) = if F.nan ∈ l then F.nan else F.fin (x + (l.map val).sum) := by
  induction l generalizing x with
  | nil => simp
  | cons a l ih =>
    rw [List.foldl_cons]
    replace ih := ih (fun v hv => h v (by simp [hv]))
    rcases h a (by simp) with rfl | ⟨y, rfl⟩
    · rw [add_nan, if_pos (by simp)]
      clear ih h
      induction l with
      | nil => rfl
      | cons b l ih2 => rw [List.foldl_cons, nan_add]; exact ih2
    · rw [eadd, ih]
      have : (F.nan ∈ F.fin y :: l) ↔ F.nan ∈ l := by simp
      by_cases hn : F.nan ∈ l
      · rw [if_pos hn, if_pos (this.2 hn)]
      · rw [if_neg hn, if_neg (fun h => hn (this.1 h))]
        simp [val, add_assoc]

/-- The mean computed for an outlier: NaN if there is no kept neighbour or one of them is NaN, else the
arithmetic mean over the kept neighbours. -/
theorem outlierCell_exact [ExactArith K] (p : Profile) (skip : Bool) (s : Store K) (thr : F K) (idx : CellId)
    (hs : ∀ a, s.data.shape a < usizeMod) (hw : s.weight.shape = s.data.shape)
    (hd : FinOrNaN s.data) (hwf : FinOrNaN s.weight) (hidx : InB s.data.shape idx)
    (hout : s.data.get idx > thr) {l : List CellId} (hl : Store.neighbours p idx = .ok l) :
    let C := keepCells skip s thr idx
    Store.outlierCell p skip s thr idx = .ok
      (if C = ∅ ∨ (∃ n ∈ C, s.data.get n = F.nan) then F.nan
        else F.fin ((∑ n ∈ C, val (s.data.get n)) / (C.card : K)),
       if C = ∅ ∨ (∃ n ∈ C, s.weight.get n = F.nan) then F.nan
        else F.fin ((∑ n ∈ C, val (s.weight.get n)) / (C.card : K))) := by
  intro C
  obtain ⟨nd, hmem⟩ := neighbours_near hs hidx hl
  set k := l.filter fun n => InB s.data.shape n ∧ ¬ (skip = true ∧ s.data.get n > thr) with hk
  have hkC : k.toFinset = C := by
    have : k = (l.filter fun n => InB s.data.shape n).filter
        fun n => ¬ (skip = true ∧ s.data.get n > thr) := by
      rw [List.filter_filter, hk]
      apply List.filter_congr
      intro n _
      rw [Bool.decide_and, Bool.and_comm]
    rw [this, List.toFinset_filter, hmem]
    simp only [C, keepCells, decide_eq_true_eq]
  have hknd : k.Nodup := nd.filter _
  have hkm : ∀ n, n ∈ k ↔ n ∈ C := fun n => by rw [← hkC, List.mem_toFinset]
  have hkin : ∀ n ∈ k, InB s.data.shape n := by
    intro n hn
    have := (List.mem_filter.1 hn).2
    simp only [decide_eq_true_eq] at this
    exact this.1
  have hcard : k.length = C.card := by rw [← hkC, List.toFinset_card_of_nodup hknd]
  have hgen : ∀ f : CellId → F K, (∀ n ∈ k, f n = F.nan ∨ ∃ x, f n = F.fin x) →
      (k.map f).foldl (· + ·) (0 : F K) / (List.replicate k.length (1 : F K)).foldl (· + ·) 0 =
        if C = ∅ ∨ (∃ n ∈ C, f n = F.nan) then F.nan
          else F.fin ((∑ n ∈ C, val (f n)) / (C.card : K)) := by
    intro f hf
    have e1 := foldl_finOrNaN (K := K) (k.map f) (by
      intro v hv; obtain ⟨n, hn, rfl⟩ := List.mem_map.1 hv; exact hf n hn) 0
    have e2 := foldl_ones_exact (K := K) 0 k.length
    rw [F.zero_def, e1, e2, zero_add, zero_add, hcard]
    have hnan : F.nan ∈ k.map f ↔ ∃ n ∈ C, f n = F.nan := by
      simp only [List.mem_map, hkm]
    by_cases hn : ∃ n ∈ C, f n = F.nan
    · rw [if_pos (hnan.2 hn), if_pos (Or.inr hn), nan_div]
    · rw [if_neg (fun h => hn (hnan.1 h))]
      by_cases hC : C = ∅
      · have : k = [] := by
          rw [List.eq_nil_iff_forall_not_mem]; intro n hn
          rw [hkm, hC] at hn; simp at hn
        rw [if_pos (Or.inl hC), this, hC]
        simp [F.div_fin, F.infTimes]
      · rw [if_neg (by rintro (h | h); exacts [hC h, hn h])]
        have hc0 : (C.card : K) ≠ 0 := by
          exact_mod_cast (Finset.card_pos.2 (Finset.nonempty_iff_ne_empty.2 hC)).ne'
        rw [ediv _ hc0]
        congr 2
        rw [List.map_map, ← hkC, List.sum_toFinset _ hknd]
        rfl
  unfold Store.outlierCell
  rw [if_pos hout, hl, run_bind_ok, neighbourFold]
  dsimp only
  rw [← hk, hgen _ (fun n hn => hd n (hkin n hn)),
    hgen _ (fun n hn => hwf n (by rw [hw]; exact hkin n hn))]
  rfl

end Up4
