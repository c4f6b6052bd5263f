import Verif.Props.Concentration
import Verif.Props.CartLookup

set_option linter.unusedSectionVars false

/-! # C42: Lacey mixing index -/

namespace Up4
open F
open Selector (at')

variable {K : Type} [Field K] [LinearOrder K] [IsStrictOrderedRing K] [FloorRing K] [Arith K]

/-! ### Specification -/

/-- Number of selected particles of type `a` in the timestep, wherever they are. -/
def typeCount (sel : Selector K) (ts : Timestep K) (a : ℕ) : ℕ := (ts.picks sel).countP fun i => decide (ts.typ i = a)

/-- Number of selected particles of type `a` in cell `c` of the grid. -/
def cellCount (p : Profile) (g : Geom K) (sel : Selector K) (ts : Timestep K) (a : ℕ) (c : CellId) : ℕ :=
  (ts.picks sel).countP fun i => inCell p g (ts.pos i) c && decide (ts.typ i = a)

/-- Overall fraction of type `a` among the selected particles of the two types. -/
def meanConc (sel : Selector K) (ts : Timestep K) (a b : ℕ) : K :=
  (typeCount sel ts a : K) / ((typeCount sel ts a + typeCount sel ts b : ℕ) : K)

/-- Fraction of type `a` among the particles of the two types in a cell. -/
def cellConc (p : Profile) (g : Geom K) (sel : Selector K) (ts : Timestep K) (a b : ℕ) (c : CellId) : K :=
  (cellCount p g sel ts a c : K) / ((cellCount p g sel ts a c + cellCount p g sel ts b c : ℕ) : K)

/-- The cells that count: at least one and at least `threshold` particles of the two types. -/
def richCells (p : Profile) (g : Geom K) (sel : Selector K) (ts : Timestep K) (a b threshold : ℕ) : Finset CellId :=
  (cellsOf g.cells).filter fun c => 0 < cellCount p g sel ts a c + cellCount p g sel ts b c ∧
    threshold ≤ cellCount p g sel ts a c + cellCount p g sel ts b c

/-- Sum of the squared deviations of the cell concentrations from the overall one. -/
def spread (p : Profile) (g : Geom K) (sel : Selector K) (ts : Timestep K) (a b threshold : ℕ) : K :=
  ∑ c ∈ richCells p g sel ts a b threshold, (cellConc p g sel ts a b c - meanConc sel ts a b) ^ 2

/-- The Lacey index as computed: `(σ₀² - σ²) / (σ₀² - σᵣ²)` with `σ₀² = m (1 - m)`, `σᵣ² = σ₀² / N`, `σ² = spread / (N - 1)`,
`N` the number of *all* cells of the grid. -/
def laceyIndex (p : Profile) (g : Geom K) (sel : Selector K) (ts : Timestep K) (a b threshold : ℕ) : K :=
  let m := meanConc sel ts a b
  let N : K := ((∏ i, g.cells i : ℕ) : K)
  (m * (1 - m) - spread p g sel ts a b threshold / (N - 1)) / (m * (1 - m) - m * (1 - m) / N)

/-! ### The particle loop -/

theorem laceyBody_eq (p : Profile) (grid : Grid K) (a b : ℕ) (s s' : Grid K × Grid K) (cnt : List ℕ) (ts : Timestep K) (i : ℕ)
    (hi : i < ts.position.length) (hw : ts.Wf) (h : concentrationBody p grid a b s ts i = .ok s') :
    laceyBody p grid a b (s.1, s.2, cnt) ts i = .ok (s'.1, s'.2, countType cnt (ts.typ i)) := by
  unfold concentrationBody at h
  unfold laceyBody
  rw [at_pos hi, run_bind_ok, at_typ hw hi, run_bind_ok] at h
  rw [at_typ hw hi, run_bind_ok, at_pos hi, run_bind_ok]
  dsimp only
  by_cases h1 : posNaN (ts.pos i) = true
  · rw [if_pos h1] at h ⊢
    cases h; rfl
  · rw [if_neg h1] at h ⊢
    by_cases h2 : grid.isInside (ts.pos i) = false
    · rw [if_pos h2] at h ⊢
      cases h; rfl
    · rw [if_neg h2] at h ⊢
      by_cases h3 : (ts.ptype.getD i F.nan).toUsize = a
      · rw [if_pos h3] at h ⊢
        obtain ⟨g, hg, h⟩ := run_bind_inv h
        cases h
        rw [hg]; rfl
      · rw [if_neg h3] at h ⊢
        by_cases h4 : (ts.ptype.getD i F.nan).toUsize = b
        · rw [if_pos h4] at h ⊢
          obtain ⟨g, hg, h⟩ := run_bind_inv h
          cases h
          rw [hg]; rfl
        · rw [if_neg h4] at h ⊢
          cases h; rfl

theorem lacey_fold (p : Profile) (grid : Grid K) (a b : ℕ) (ts : Timestep K) (hw : ts.Wf) (L : List ℕ)
    (hL : ∀ i ∈ L, i < ts.position.length) (s s' : Grid K × Grid K) (cnt : List ℕ)
    (h : L.foldlM (fun s i => concentrationBody p grid a b s ts i) s = .ok s') :
    L.foldlM (fun s i => laceyBody p grid a b s ts i) (s.1, s.2, cnt) = .ok (s'.1, s'.2, (L.map ts.typ).foldl countType cnt) := by
  induction L generalizing s cnt with
  | nil => cases h; rfl
  | cons i L ih =>
    rw [List.foldlM_cons] at h ⊢
    obtain ⟨s1, h1, h2⟩ := run_bind_inv h
    rw [laceyBody_eq p grid a b s s1 cnt ts i (hL i (by simp)) hw h1, run_bind_ok]
    exact ih (fun i hi => hL i (by simp [hi])) s1 _ h2

/-! ### The type counter -/

theorem countType_length (l : List ℕ) (ty : ℕ) : l.length ≤ (countType l ty).length ∧ ty < (countType l ty).length := by
  unfold countType
  dsimp only
  rw [List.length_modify]
  split_ifs with h
  · rw [List.length_append, List.length_replicate]; omega
  · omega

theorem countType_get (l : List ℕ) (ty a : ℕ) : (countType l ty).getD a 0 = l.getD a 0 + if ty = a then 1 else 0 := by
  have hlt := (countType_length l ty).2
  unfold countType at hlt ⊢
  dsimp only at hlt ⊢
  set l' := if ty ≥ l.length then l ++ List.replicate (ty + 2 - l.length) 0 else l with hl'
  rw [List.length_modify] at hlt
  have e : ∀ a, l'.getD a 0 = l.getD a 0 := by
    intro a
    rw [hl']
    split_ifs with h
    · by_cases ha : a < l.length
      · rw [List.getD_eq_getElem?_getD, List.getD_eq_getElem?_getD, List.getElem?_append_left ha]
      · rw [List.getD_eq_getElem?_getD, List.getD_eq_getElem?_getD, List.getElem?_append_right (by omega),
          List.getElem?_eq_none (by omega : l.length ≤ a), List.getElem?_replicate]
        split_ifs <;> rfl
    · rfl
  rw [List.getD_eq_getElem?_getD, List.getElem?_modify]
  by_cases h : ty = a
  · subst h
    rw [if_pos rfl, List.getElem?_eq_getElem hlt]
    have := e ty
    rw [List.getD_eq_getElem?_getD, List.getElem?_eq_getElem hlt] at this
    simp only [Option.getD_some] at this
    simp [this]
  · rw [if_neg h]
    have := e a
    rw [List.getD_eq_getElem?_getD] at this
    simpa [h] using this

theorem counter_length (T l : List ℕ) : l.length ≤ (T.foldl countType l).length ∧ ∀ a ∈ T, a < (T.foldl countType l).length := by
  induction T generalizing l with
  | nil => exact ⟨le_refl _, by simp⟩
  | cons x T ih =>
    obtain ⟨h1, h2⟩ := ih (countType l x)
    obtain ⟨h3, h4⟩ := countType_length l x
    rw [List.foldl_cons]
    refine ⟨h3.trans h1, fun a ha => ?_⟩
    rcases List.mem_cons.1 ha with rfl | ha
    · omega
    · exact h2 a ha

theorem counter_get (T l : List ℕ) (a : ℕ) : (T.foldl countType l).getD a 0 = l.getD a 0 + T.countP (fun x => decide (x = a)) := by
  induction T generalizing l with
  | nil => rfl
  | cons x T ih =>
    rw [List.foldl_cons, ih, countType_get, List.countP_cons]
    by_cases h : x = a
    · simp [h]; omega
    · simp [h]

/-- The counter of a type that was seen can be read, and holds the number of its particles. -/
theorem counter_read (T : List ℕ) (a : ℕ) (ha : a ∈ T) : at' (T.foldl countType []) a = .ok (T.countP fun x => decide (x = a)) := by
  rw [at_ok ((counter_length T []).2 a ha) 0, counter_get]
  simp

/-! ### The evaluation -/

theorem fold_guard [ExactArith K] {α : Type} (l : List α) (g : α → Bool) (f : α → F K) (h : α → K)
    (hf : ∀ x ∈ l, g x = true → f x = fin (h x)) (z : K) :
    l.foldl (fun s x => if g x then s + f x else s) (fin z) = fin (z + (l.map fun x => if g x then h x else 0).sum) := by
  induction l generalizing z with
  | nil => simp
  | cons x l ih =>
    rw [List.foldl_cons, List.map_cons, List.sum_cons]
    by_cases hg : g x = true
    · rw [if_pos hg, if_pos hg, hf x (by simp) hg, eadd, ih (fun y hy => hf y (by simp [hy])), add_assoc]
    · rw [if_neg hg, if_neg hg, ih (fun y hy => hf y (by simp [hy])), zero_add]

theorem esub_one [ExactArith K] (x : K) : (fin x - 1 : F K) = fin (x - 1) := esub x 1

theorem eone_sub [ExactArith K] (x : K) : (1 - fin x : F K) = fin (1 - x) := esub 1 x

/-- `laceyValue` on two count grids. -/
theorem laceyValue_spec [LawfulArith K] [ExactArith K] (ga gb : Grid K) (cells : CellId)
    (sa : ga.st.data.shape = cells) (sb : gb.st.data.shape = cells) (wa : ga.st.weight.shape = cells) (wb : gb.st.weight.shape = cells)
    (nA nB : CellId → ℕ) (hda : ∀ c, ga.st.data.get c = fin (nA c : K)) (hdb : ∀ c, gb.st.data.get c = fin (nB c : K))
    (hwa : ∀ c, ga.st.weight.get c = fin (nA c : K)) (hwb : ∀ c, gb.st.weight.get c = fin (nB c : K))
    (cnt : List ℕ) (a b threshold A B : ℕ) (hA : at' cnt a = .ok A) (hB : at' cnt b = .ok B) (hA0 : 0 < A) (hB0 : 0 < B)
    (hN : 2 ≤ ∏ i, cells i) :
    laceyValue ga gb cnt a b threshold = .ok (fin
      (let m : K := (A : K) / ((A + B : ℕ) : K)
       let N : K := ((∏ i, cells i : ℕ) : K)
       (m * (1 - m) - (∑ c ∈ (cellsOf cells).filter (fun c => 0 < nA c + nB c ∧ threshold ≤ nA c + nB c),
          ((nA c : K) / ((nA c + nB c : ℕ) : K) - m) ^ 2) / (N - 1)) / (m * (1 - m) - m * (1 - m) / N))) := by
  intros
  dsimp only
  set N := ∏ i, cells i with hNdef
  set m : K := (A : K) / ((A + B : ℕ) : K) with hm
  have hAB : (0 : K) < ((A + B : ℕ) : K) := by exact_mod_cast (by omega : 0 < A + B)
  have hm0 : 0 < m := div_pos (by exact_mod_cast hA0) hAB
  have hm1 : m < 1 := by rw [hm, div_lt_one hAB]; exact_mod_cast (by omega : A < A + B)
  have hq : 0 < m * (1 - m) := mul_pos hm0 (by linarith)
  have hNK : (2 : K) ≤ (N : K) := by exact_mod_cast hN
  obtain ⟨s, s1, s2, s3⟩ := Arr.zipWith_same (· + ·) gb.st.data ga.st.data (sb.trans sa.symm)
  obtain ⟨q, q1, q2, q3⟩ := Arr.zipWith_same (· / ·) ga.st.data s (sa.trans (s2.trans sb).symm)
  obtain ⟨w, w1, w2, w3⟩ := Arr.zipWith_same (· + ·) ga.st.weight gb.st.weight (wa.trans wb.symm)
  have hqs : q.shape = cells := q2.trans sa
  have hws : w.shape = cells := w2.trans wa
  have hs : ∀ c, InB cells c → s.get c = fin ((nA c + nB c : ℕ) : K) := by
    intro c hc
    rw [s3 c (by rw [sb]; exact hc), hda, hdb, eadd]; push_cast; rw [add_comm]
  have hqc : ∀ c, InB cells c → q.get c = if 0 < nA c + nB c then fin ((nA c : K) / ((nA c + nB c : ℕ) : K)) else F.nan := by
    intro c hc
    rw [q3 c (by rw [sa]; exact hc), hs c hc, hda]
    split_ifs with h
    · rw [ediv]; exact_mod_cast (by omega : nA c + nB c ≠ 0)
    · have h1 : nA c = 0 := by omega
      have h2 : nB c = 0 := by omega
      rw [h1, h2]; simp [F.div_fin, F.infTimes]
  have hwc : ∀ c, InB cells c → w.get c = fin ((nA c + nB c : ℕ) : K) := by
    intro c hc
    rw [w3 c (by rw [wa]; exact hc), hwa, hwb, eadd]; push_cast; rfl
  have hlen : q.toList.length = N := by unfold Arr.toList; rw [List.length_map, length_indices, hqs]
  have hfold : (q.toList.zip w.toList).foldl (fun s (x : F K × F K) =>
      if x.2 < F.ofNat threshold then s else if x.1.isNaN then s else s + F.sq (x.1 - fin m)) (0 : F K) =
      fin (∑ c ∈ (cellsOf cells).filter (fun c => 0 < nA c + nB c ∧ threshold ≤ nA c + nB c),
          ((nA c : K) / ((nA c + nB c : ℕ) : K) - m) ^ 2) := by
    have hz : q.toList.zip w.toList = (indices 3 cells).map fun c => (q.get c, w.get c) := by
      unfold Arr.toList
      rw [hqs, hws, List.zip_map', ]
    rw [hz, List.foldl_map]
    have := fold_guard (K := K) (indices 3 cells) (fun c => decide (0 < nA c + nB c ∧ threshold ≤ nA c + nB c))
      (fun c => F.sq (q.get c - fin m)) (fun c => ((nA c : K) / ((nA c + nB c : ℕ) : K) - m) ^ 2) (by
        intro c hc hg
        have hg := (of_decide_eq_true hg).1
        rw [hqc c ((mem_indices _ _).1 hc), if_pos hg, esub]
        unfold F.sq
        rw [emul, pow_two]) 0
    rw [zero_add, sum_indices, ← Finset.sum_filter] at this
    simp only [decide_eq_true_eq] at this
    rw [← this]
    have hcongr : ∀ (l : List CellId) (z : F K), (∀ c ∈ l, InB cells c) → l.foldl (fun s c =>
        if w.get c < F.ofNat threshold then s else if (q.get c).isNaN then s else s + F.sq (q.get c - fin m)) z =
        l.foldl (fun s c => if 0 < nA c + nB c ∧ threshold ≤ nA c + nB c then s + F.sq (q.get c - fin m) else s) z := by
      intro l
      induction l with
      | nil => intro z _; rfl
      | cons c l ih =>
        intro z hl
        rw [List.foldl_cons, List.foldl_cons, ih _ (fun c hc => hl c (by simp [hc]))]
        congr 1
        have hc := hl c (by simp)
        rw [hwc c hc, eofNat]
        by_cases h1 : threshold ≤ nA c + nB c
        · rw [if_neg (by rw [F.lt_fin, not_lt]; exact_mod_cast h1)]
          by_cases h2 : 0 < nA c + nB c
          · rw [hqc c hc, if_pos h2, if_neg (show ¬ (fin ((nA c : K) / ((nA c + nB c : ℕ) : K))).isNaN = true by simp [F.isNaN]),
              if_pos (show 0 < nA c + nB c ∧ threshold ≤ nA c + nB c from ⟨h2, h1⟩)]
          · rw [hqc c hc, if_neg h2, if_pos (show (F.nan : F K).isNaN = true from rfl),
              if_neg (show ¬ (0 < nA c + nB c ∧ threshold ≤ nA c + nB c) from fun h => h2 h.1)]
        · rw [if_pos (by rw [F.lt_fin]; exact_mod_cast not_le.1 h1), if_neg (fun h => h1 h.2)]
    exact hcongr _ _ (fun c hc => (mem_indices _ _).1 hc)
  obtain ⟨r1, e1, _, f1⟩ := sqrt_root hq.le
  obtain ⟨r2, e2, _, f2⟩ := sqrt_root (show 0 ≤ m * (1 - m) / (N : K) by positivity)
  unfold laceyValue
  rw [s1, run_bind_ok]
  unfold Grid.divideByArray Store.divideByArray
  rw [q1, run_bind_ok, run_pure, run_bind_ok, run_pure, run_bind_ok, hA, run_bind_ok, hB, run_bind_ok]
  rw [w1, run_bind_ok, run_pure]
  dsimp only
  rw [eofNat, eofNat, ediv _ hAB.ne', ← hm, hfold, hlen, eofNat, eone_sub, emul, e1, esub_one, ediv _ (by linarith), ediv _ (by linarith),
    e2]
  unfold F.sq
  rw [emul, emul, f1, f2, esub, esub, ediv]
  have : m * (1 - m) - m * (1 - m) / (N : K) = m * (1 - m) * ((N - 1) / N) := by field_simp
  rw [this]
  exact (mul_pos hq (div_pos (by linarith) (by linarith))).ne'

theorem foldlM_emit {α β : Type} (l : List α) (f : List β → α → Run (List β)) (r : α → β) (h : ∀ acc, ∀ x ∈ l, f acc x = .ok (acc ++ [r x]))
    (acc : List β) : l.foldlM f acc = .ok (acc ++ l.map r) := by
  induction l generalizing acc with
  | nil => simp [run_pure]
  | cons x l ih =>
    rw [List.foldlM_cons, h acc x (by simp), run_bind_ok, ih (fun acc y hy => h acc y (by simp [hy]))]
    simp


/-! ### The property -/

theorem picks_lt (sel : Selector K) (ts : Timestep K) : ∀ i ∈ ts.picks sel, i < ts.position.length := by
  intro i hi
  unfold Timestep.picks at hi
  split_ifs at hi
  · exact List.mem_range.1 (List.mem_filter.1 hi).1
  · cases hi

/-- One timestep of `lacey_mixing`. -/
theorem lacey_step [LawfulArith K] [ExactArith K] (p : Profile) (grid : Grid K) (hg : grid.Fillable p) (hfresh : ∀ c, grid.st.weight.get c = 0)
    (sel : Selector K) (hs : sel.Usable) (ts : Timestep K) (hw : ts.Wf) (hv : sel.timestepValid ts.time = true)
    (a b threshold : ℕ) (hab : a ≠ b) (hA : 0 < typeCount sel ts a) (hB : 0 < typeCount sel ts b) (hN : 2 ≤ ∏ i, grid.geom.cells i) :
    ∃ s, forParticles sel ts (fun s i => laceyBody p grid a b s ts i) (grid.newZeros, grid.newZeros, []) = .ok s ∧
      laceyValue s.1 s.2.1 s.2.2 a b threshold = .ok (fin (laceyIndex p grid.geom sel ts a b threshold)) := by
  obtain ⟨ga, gb, f1, f2, f3, f4, f5, f6⟩ := concentration_fill p grid hg a b hab (fun _ => ts) ((ts.picks sel).map fun i => (0, i)) (by
    intro x hx
    obtain ⟨i, hi, rfl⟩ := List.mem_map.1 hx
    exact ⟨picks_lt sel ts i hi, hw⟩)
  rw [foldlM_map_run] at f1
  have hfold := lacey_fold p grid a b ts hw (ts.picks sel) (picks_lt sel ts) (grid.newZeros, grid.newZeros) (ga, gb) [] f1
  refine ⟨(ga, gb, ((ts.picks sel).map ts.typ).foldl countType []), ?_, ?_⟩
  · rw [forParticles_eq sel hs ts hw]
    have : (List.range ts.position.length).filter (ts.chosen sel) = ts.picks sel := by unfold Timestep.picks; rw [if_pos hv]
    rw [this]
    exact hfold
  · dsimp only
    have hmem : ∀ x, 0 < typeCount sel ts x → x ∈ (ts.picks sel).map ts.typ := by
      intro x hx
      obtain ⟨i, hi, h⟩ := List.countP_pos_iff.1 hx
      exact List.mem_map.2 ⟨i, hi, of_decide_eq_true h⟩
    have hcnt : ∀ x, 0 < typeCount sel ts x → at' (((ts.picks sel).map ts.typ).foldl countType []) x = .ok (typeCount sel ts x) := by
      intro x hx
      rw [counter_read _ _ (hmem x hx), List.countP_map]
      rfl
    have hcell : ∀ x c, ((((ts.picks sel).map fun i => ((0 : ℕ), i)).filter fun y => inCell p grid.geom (posOf (fun _ => ts) y) c &&
        decide (typOf (fun _ => ts) y = x)).length) = cellCount p grid.geom sel ts x c := by
      intro x c
      rw [← List.countP_eq_length_filter, List.countP_map]
      rfl
    have hz : ∀ n : ℕ, (List.replicate n (1 : F K)).foldl (· + ·) (0 : F K) = fin (n : K) := by
      intro n
      have := foldl_ones_exact (0 : K) n
      rw [zero_add] at this
      exact this
    have hv := laceyValue_spec ga gb grid.geom.cells (f2.1.trans (by rw [f4])) (f3.1.trans (by rw [f5])) (f2.2.trans (by rw [f4]))
      (f3.2.trans (by rw [f5])) (cellCount p grid.geom sel ts a) (cellCount p grid.geom sel ts b)
      (fun c => by rw [(f6 c).1, hcell, hz]) (fun c => by rw [(f6 c).2.1, hcell, hz])
      (fun c => by rw [(f6 c).2.2.1, hcell, hfresh, hz]) (fun c => by rw [(f6 c).2.2.2, hcell, hfresh, hz])
      _ a b threshold _ _ (hcnt a hA) (hcnt b hB) hA hB hN
    rw [hv]
    rfl

/-- **C42, what is computed.** In exact arithmetic, on a grid of at least two cells without previous weights, for two different
types both of which are seen among the selected particles of every timestep of the window: `lacey_mixing` does not panic and returns
one entry for every timestep but the last: time and `laceyIndex` for a timestep of the window, zeros for the others. -/
theorem C42_value [LawfulArith K] [ExactArith K] (p : Profile) (d : Dm (Timestep K)) (hd : d.Inv) (grid : Grid K)
    (hg : grid.Fillable p) (hfresh : ∀ c, grid.st.weight.get c = 0) (hN : 2 ≤ ∏ i, grid.geom.cells i)
    (sel : Selector K) (hs : sel.Usable) (hw : ∀ t, t < d.n → (d.file t).Wf) (a b threshold : ℕ) (hab : a ≠ b)
    (hseen : ∀ t, t < d.n - 1 → sel.timestepValid (d.file t).time = true →
      0 < typeCount sel (d.file t) a ∧ 0 < typeCount sel (d.file t) b) :
    ∃ d' out, laceyMixing p d grid sel a b threshold = .ok (d', out) ∧ d'.Inv ∧ d'.file = d.file ∧ d'.n = d.n ∧
      out = (List.range (d.n - 1)).map fun t => if sel.timestepValid (d.file t).time = true
        then ((d.file t).time, fin (laceyIndex p grid.geom sel (d.file t) a b threshold)) else (0, 0) := by
  have hn : 1 ≤ d.n := by have := hd.1.1; have := hd.1.2.1; omega
  obtain ⟨m, hm, _, e⟩ := forSteps_eq (K := K) p (List.range (d.n - 1)) (fun (acc : List (F K × F K)) _ ts =>
    if sel.timestepValid ts.time then do
      let s ← forParticles sel ts (fun s i => laceyBody p grid a b s ts i) (grid.newZeros, grid.newZeros, [])
      let v ← laceyValue s.1 s.2.1 s.2.2 a b threshold
      pure (acc ++ [(ts.time, v)])
    else pure (acc ++ [(0, 0)])) d hd (fun t ht => by have := List.mem_range.1 ht; omega) []
  have hemit := foldlM_emit (List.range (d.n - 1)) (fun (acc : List (F K × F K)) t =>
    if sel.timestepValid (d.file t).time then do
      let s ← forParticles sel (d.file t) (fun s i => laceyBody p grid a b s (d.file t) i) (grid.newZeros, grid.newZeros, [])
      let v ← laceyValue s.1 s.2.1 s.2.2 a b threshold
      pure (acc ++ [((d.file t).time, v)])
    else pure (acc ++ [(0, 0)])) (fun t => if sel.timestepValid (d.file t).time = true
        then ((d.file t).time, fin (laceyIndex p grid.geom sel (d.file t) a b threshold)) else (0, 0)) (by
      intro acc t ht
      have ht' := List.mem_range.1 ht
      by_cases hv : sel.timestepValid (d.file t).time = true
      · rw [if_pos hv, if_pos hv]
        obtain ⟨hA, hB⟩ := hseen t ht' hv
        obtain ⟨s, h1, h2⟩ := lacey_step p grid hg hfresh sel hs (d.file t) (hw t (by omega)) hv a b threshold hab hA hB hN
        rw [h1, run_bind_ok, h2, run_bind_ok]
        rfl
      · rw [if_neg hv, if_neg hv]; rfl) []
  refine ⟨{ d with main := m }, _, ?_, ⟨hm, hd.2⟩, rfl, rfl, rfl⟩
  unfold laceyMixing
  rw [stepsBut_eq p d hd hn, run_bind_ok, e, hemit, run_bind_ok, List.nil_append]

/-- A timestep of the window without selected particles makes `lacey_mixing` panic (the type counter is empty). -/
theorem C42_empty_panics [LawfulArith K] (p : Profile) (d : Dm (Timestep K)) (hd : d.Inv) (hn : 2 ≤ d.n) (grid : Grid K)
    (hg : grid.Shaped) (sel : Selector K) (hs : sel.Usable) (hw : (d.file 0).Wf) (a b threshold : ℕ)
    (hv : sel.timestepValid (d.file 0).time = true) (h0 : (d.file 0).picks sel = []) :
    laceyMixing p d grid sel a b threshold = .error .index := by
  obtain ⟨m, hm, _, e⟩ := forSteps_eq (K := K) p (List.range (d.n - 1)) (fun (acc : List (F K × F K)) _ ts =>
    if sel.timestepValid ts.time then do
      let s ← forParticles sel ts (fun s i => laceyBody p grid a b s ts i) (grid.newZeros, grid.newZeros, [])
      let v ← laceyValue s.1 s.2.1 s.2.2 a b threshold
      pure (acc ++ [(ts.time, v)])
    else pure (acc ++ [(0, 0)])) d hd (fun t ht => by have := List.mem_range.1 ht; omega) []
  unfold laceyMixing
  rw [stepsBut_eq p d hd (by omega), run_bind_ok, e]
  obtain ⟨k, hk⟩ : ∃ k, d.n - 1 = k + 1 := ⟨d.n - 2, by omega⟩
  rw [hk, List.range_succ_eq_map, List.foldlM_cons, if_pos hv, forParticles_eq sel hs _ hw]
  have : (List.range (d.file 0).position.length).filter ((d.file 0).chosen sel) = [] := by
    unfold Timestep.picks at h0; rwa [if_pos hv] at h0
  rw [this]
  change ((laceyValue grid.newZeros grid.newZeros [] a b threshold >>= _) >>= _) >>= _ = _
  have hv : laceyValue grid.newZeros grid.newZeros [] a b threshold = .error .index := by
    unfold laceyValue
    obtain ⟨s, s1, s2, _⟩ := Arr.zipWith_same (· + ·) grid.newZeros.st.data grid.newZeros.st.data rfl
    obtain ⟨q, q1, _, _⟩ := Arr.zipWith_same (· / ·) grid.newZeros.st.data s s2.symm
    rw [s1, run_bind_ok]
    unfold Grid.divideByArray Store.divideByArray
    rw [q1]
    rfl
  rw [hv]
  rfl

/-- Swapping the two types does not change the index. -/
theorem lacey_swap (p : Profile) (g : Geom K) (sel : Selector K) (ts : Timestep K) (a b threshold : ℕ)
    (hA : 0 < typeCount sel ts a) : laceyIndex p g sel ts b a threshold = laceyIndex p g sel ts a b threshold := by
  have hAB : (0 : K) < ((typeCount sel ts a + typeCount sel ts b : ℕ) : K) := by exact_mod_cast (by omega)
  have hm : (meanConc sel ts b a : K) = 1 - meanConc sel ts a b := by
    unfold meanConc
    rw [Nat.add_comm (typeCount sel ts b)]
    field_simp
    push_cast
    ring
  have hr : richCells p g sel ts b a threshold = richCells p g sel ts a b threshold := by
    unfold richCells
    congr 1
    funext c
    rw [Nat.add_comm (cellCount p g sel ts b c)]
  have hsp : (spread p g sel ts b a threshold : K) = spread p g sel ts a b threshold := by
    unfold spread
    rw [hr]
    refine Finset.sum_congr rfl fun c hc => ?_
    unfold richCells at hc
    have h0 := (Finset.mem_filter.1 hc).2.1
    have h0' : (0 : K) < ((cellCount p g sel ts a c + cellCount p g sel ts b c : ℕ) : K) := by exact_mod_cast h0
    have hc : (cellConc p g sel ts b a c : K) = 1 - cellConc p g sel ts a b c := by
      unfold cellConc
      rw [Nat.add_comm (cellCount p g sel ts b c)]
      field_simp
      push_cast
      ring
    rw [hc, hm]; ring
  unfold laceyIndex
  dsimp only
  rw [hsp, hm]
  congr 1 <;> ring

theorem meanConc_between (sel : Selector K) (ts : Timestep K) (a b : ℕ) (hA : 0 < typeCount sel ts a) (hB : 0 < typeCount sel ts b) :
    0 < (meanConc sel ts a b : K) ∧ (meanConc sel ts a b : K) < 1 := by
  have hAB : (0 : K) < ((typeCount sel ts a + typeCount sel ts b : ℕ) : K) := by exact_mod_cast (by omega)
  exact ⟨div_pos (by exact_mod_cast hA) hAB, (div_lt_one hAB).2 (by exact_mod_cast (by omega))⟩

theorem lacey_form (p : Profile) (g : Geom K) (sel : Selector K) (ts : Timestep K) (a b threshold : ℕ)
    (hA : 0 < typeCount sel ts a) (hB : 0 < typeCount sel ts b) (hN : 2 ≤ ∏ i, g.cells i) :
    (laceyIndex p g sel ts a b threshold : K) = ((∏ i, g.cells i : ℕ) : K) / (((∏ i, g.cells i : ℕ) : K) - 1) *
      (1 - spread p g sel ts a b threshold / ((((∏ i, g.cells i : ℕ) : K) - 1) * (meanConc sel ts a b * (1 - meanConc sel ts a b)))) := by
  obtain ⟨h0, h1⟩ := meanConc_between (K := K) sel ts a b hA hB
  have hNK : (2 : K) ≤ ((∏ i, g.cells i : ℕ) : K) := by exact_mod_cast hN
  unfold laceyIndex
  dsimp only
  generalize (meanConc sel ts a b : K) = m at *
  generalize ((∏ i, g.cells i : ℕ) : K) = N at *
  generalize (spread p g sel ts a b threshold : K) = S
  have e1 : N - 1 ≠ 0 := by intro h; linarith
  have e2 : N ≠ 0 := by intro h; linarith
  have e3 : m ≠ 0 := h0.ne'
  have e4 : 1 - m ≠ 0 := by intro h; linarith
  have e5 : m * (1 - m) - m * (1 - m) / N = m * (1 - m) * (N - 1) / N := by field_simp
  rw [e5]
  field_simp

/-- **C42 (partial).** The full property: the index lies in `[0, 1]`, is 1 for perfect and 0 for no mixing, and treats the types
alike. Proved: swapping the types does not change it; it decreases with the spread of the concentrations; it is largest exactly when
every cell that counts has the overall concentration, but that largest value is `N / (N - 1)`; and in a full
segregation (only pure cells, `R` of them, in the ratio of the types) it is `N (N - 1 - R) / (N - 1)²`. Missing: the range,
which is false (`C42_false`). -/
theorem C42_lacey_partial (p : Profile) (g : Geom K) (sel : Selector K) (ts : Timestep K) (a b threshold : ℕ)
    (hA : 0 < typeCount sel ts a) (hB : 0 < typeCount sel ts b) (hN : 2 ≤ ∏ i, g.cells i) :
    let N : K := ((∏ i, g.cells i : ℕ) : K)
    let m : K := meanConc sel ts a b
    let I : K := laceyIndex p g sel ts a b threshold
    let C := richCells p g sel ts a b threshold
    laceyIndex p g sel ts b a threshold = I ∧ I ≤ N / (N - 1) ∧ (I = N / (N - 1) ↔ ∀ c ∈ C, cellConc p g sel ts a b c = m) ∧
    ((∀ c ∈ C, (cellConc p g sel ts a b c : K) = 0 ∨ (cellConc p g sel ts a b c : K) = 1) →
      ((C.filter fun c => (cellConc p g sel ts a b c : K) = 1).card : K) = m * C.card →
      I = N * (N - 1 - C.card) / (N - 1) ^ 2) := by
  intro N m I C
  obtain ⟨h0, h1⟩ := meanConc_between (K := K) sel ts a b hA hB
  have hNK : (2 : K) ≤ N := by change (2 : K) ≤ ((∏ i, g.cells i : ℕ) : K); exact_mod_cast hN
  have hform := lacey_form (K := K) p g sel ts a b threshold hA hB hN
  change I = N / (N - 1) * (1 - spread p g sel ts a b threshold / ((N - 1) * (m * (1 - m)))) at hform
  change 0 < m at h0
  change m < 1 at h1
  have hq : 0 < (N - 1) * (m * (1 - m)) := mul_pos (by linarith) (mul_pos h0 (by linarith))
  have hr : 0 < N / (N - 1) := div_pos (by linarith) (by linarith)
  have hsp : spread p g sel ts a b threshold = ∑ c ∈ C, (cellConc p g sel ts a b c - m) ^ 2 := rfl
  have hnn : 0 ≤ ∑ c ∈ C, (cellConc p g sel ts a b c - m) ^ 2 := Finset.sum_nonneg fun c _ => sq_nonneg _
  rw [hsp] at hform
  refine ⟨lacey_swap p g sel ts a b threshold hA, ?_, ?_, ?_⟩
  · rw [hform]
    have : 0 ≤ (∑ c ∈ C, (cellConc p g sel ts a b c - m) ^ 2) / ((N - 1) * (m * (1 - m))) := div_nonneg hnn hq.le
    nlinarith
  · constructor
    · intro h c hc
      rw [hform] at h
      have h2 : (1 - (∑ c ∈ C, (cellConc p g sel ts a b c - m) ^ 2) / ((N - 1) * (m * (1 - m)))) = 1 := by
        have := mul_left_cancel₀ hr.ne' (h.trans (mul_one _).symm)
        exact this
      have h3 : (∑ c ∈ C, (cellConc p g sel ts a b c - m) ^ 2) = 0 := by
        have : (∑ c ∈ C, (cellConc p g sel ts a b c - m) ^ 2) / ((N - 1) * (m * (1 - m))) = 0 := by linarith
        exact (div_eq_zero_iff.1 this).resolve_right hq.ne'
      have := (Finset.sum_eq_zero_iff_of_nonneg fun c _ => sq_nonneg _).1 h3 c hc
      exact sub_eq_zero.1 (pow_eq_zero_iff (by norm_num) |>.1 this)
    · intro h
      rw [hform, Finset.sum_eq_zero (fun c hc => by rw [h c hc]; ring)]
      ring
  · intro hpure hcard
    have hsum : ∑ c ∈ C, (cellConc p g sel ts a b c - m) ^ 2 = C.card * (m * (1 - m)) := by
      have e : ∀ c ∈ C, (cellConc p g sel ts a b c - m) ^ 2 = m ^ 2 + (if (cellConc p g sel ts a b c : K) = 1 then 1 - 2 * m else 0) := by
        intro c hc
        rcases hpure c hc with h | h
        · rw [h, if_neg (by norm_num)]; ring
        · rw [h, if_pos rfl]; ring
      rw [Finset.sum_congr rfl e, Finset.sum_add_distrib, Finset.sum_const, nsmul_eq_mul, ← Finset.sum_filter, Finset.sum_const,
        nsmul_eq_mul, hcard]
      ring
    rw [hform, hsum]
    have e1 : N - 1 ≠ 0 := by intro h; linarith
    have e3 : m ≠ 0 := h0.ne'
    have e4 : 1 - m ≠ 0 := by intro h; linarith
    field_simp


/-- A cell below and a cell above, in a box of side 4. -/
noncomputable def twoCells : Grid ℝ := Grid.newCart ![1, 1, 2] (finLimits (fun _ => 0) (fun _ => 4))

theorem twoCells_cart : IsCart twoCells := isCart_new _ _ (fun a => by fin_cases a <;> norm_num)

/-- A particle of type 0 at the bottom and one of type 1 at the top. -/
noncomputable def apartStep : Timestep ℝ :=
  ⟨fin 0, [fun _ => fin 0, fun _ => fin 4], [![fin 1, fin 0, fin 0], ![fin 0, fin 1, fin 0]], [fin 1, fin 1], [fin 1, fin 2],
    [fin 0, fin 0], [fin 0, fin 0], [fin 0, fin 1]⟩

theorem twoCells_lookup (p : Profile) : ∃ c0 c1 : CellId, c0 ≠ c1 ∧ InB twoCells.geom.cells c0 ∧ InB twoCells.geom.cells c1 ∧
    twoCells.geom.lookup p (fun _ => fin 0) = some c0 ∧ twoCells.geom.lookup p (fun _ => fin 4) = some c1 ∧
    twoCells.geom.isInside (fun _ => fin 0) = true ∧ twoCells.geom.isInside (fun _ => fin 4) = true := by
  have hin : ∀ x : ℝ, 0 ≤ x → x ≤ 4 → twoCells.geom.isInside (fun _ => fin x) = true := fun x h1 h2 =>
    (CartGeom.isInside_iff (CartGeom.new ![1, 1, 2] (finLimits (fun _ => (0 : ℝ)) (fun _ => 4))) (fun _ => fin x)).2 fun a => ⟨by simp, by
      change fin 0 ≤ fin x ∧ fin x ≤ fin 4
      rw [F.le_fin, F.le_fin]; exact ⟨h1, h2⟩⟩
  obtain ⟨c0, h0, b0⟩ := (fillable_cart p _ twoCells_cart).2 _ (hin 0 (by norm_num) (by norm_num))
  obtain ⟨c1, h1, b1⟩ := (fillable_cart p _ twoCells_cart).2 _ (hin 4 (by norm_num) (by norm_num))
  refine ⟨c0, c1, ?_, b0, b1, Geom.lookup_eq h0, Geom.lookup_eq h1, hin 0 (by norm_num) (by norm_num), hin 4 (by norm_num) (by norm_num)⟩
  have e0 := (C03_cellId_ends p (CartGeom.new ![1, 1, 2] (finLimits (fun _ => (0 : ℝ)) (fun _ => 4))) twoCells_cart.2.1 _ c0 h0 2).1 rfl
  have e1 := (C03_cellId_ends p (CartGeom.new ![1, 1, 2] (finLimits (fun _ => (0 : ℝ)) (fun _ => 4))) twoCells_cart.2.1 _ c1 h1 2).2 rfl
    ⟨4 - 0, by norm_num, esub 4 0⟩
  have e1' : c1 2 = 1 := e1
  intro h
  rw [h, e1'] at e0
  exact one_ne_zero e0

theorem two_picks (ts : Timestep ℝ) (ht : ts.time = fin 0) (hl : ts.position.length = 2) : ts.picks Selector.default = [0, 1] := by
  have hv : (Selector.default : Selector ℝ).timestepValid ts.time = true := by rw [ht]; exact one_time
  unfold Timestep.picks
  rw [if_pos hv, hl, List.filter_eq_self.2 (fun i _ => chosen_default ts i)]
  rfl

theorem typ0 : (fin (0 : ℝ)).toUsize = 0 := by simp [F.toUsize]
theorem typ1 : (fin (1 : ℝ)).toUsize = 1 := by simp [F.toUsize, F.usizeMax]

/-- **C42 is false of the code.** On a grid of two cells: one particle of each type in the same cell (perfectly mixed) has
index 2, and one particle of each type in different cells (fully segregated) has index -2. -/
theorem C42_false (p : Profile) (kind : Kind) :
    (∃ d d' : Dm (Timestep ℝ), Dm.new p kind (fun _ => mixStep) 2 Timestep.default = .ok d ∧
      laceyMixing p d twoCells Selector.default 0 1 1 = .ok (d', [(fin 0, fin 2)])) ∧
    (∃ d d' : Dm (Timestep ℝ), Dm.new p kind (fun _ => apartStep) 2 Timestep.default = .ok d ∧
      laceyMixing p d twoCells Selector.default 0 1 1 = .ok (d', [(fin 0, fin (-2))])) := by
  obtain ⟨c0, c1, hne, b0, b1, l0, l1, i0, i1⟩ := twoCells_lookup p
  have hN : ∏ i, twoCells.geom.cells i = 2 := by
    change ∏ i, (![1, 1, 2] : Fin 3 → ℕ) i = 2
    rw [Fin.prod_univ_three]; rfl
  have main : ∀ (ts : Timestep ℝ) (I : ℝ), ts.time = fin 0 → ts.position.length = 2 → ts.Wf → ts.typ 0 = 0 → ts.typ 1 = 1 →
      laceyIndex p twoCells.geom Selector.default ts 0 1 1 = I →
      (∃ d d' : Dm (Timestep ℝ), Dm.new p kind (fun _ => ts) 2 Timestep.default = .ok d ∧
      laceyMixing p d twoCells Selector.default 0 1 1 = .ok (d', [(fin 0, fin I)])) := by
    intro ts I ht hl hw t0 t1 hI
    obtain ⟨d, e, hinv, hf, hn, _⟩ := Dm.new_ok p kind (fun _ => ts) 2 Timestep.default (by norm_num) (by norm_num)
    have hpk := two_picks ts ht hl
    have hv : (Selector.default : Selector ℝ).timestepValid ts.time = true := by rw [ht]; exact one_time
    obtain ⟨d', out, h1, _, _, _, h2⟩ := C42_value p d hinv twoCells (fillable_cart p _ twoCells_cart) (fun _ => rfl) (by rw [hN])
      Selector.default usable_default (fun t _ => by rw [hf]; exact hw) 0 1 1 (by norm_num) (by
        intro t _ _
        rw [hf]
        unfold typeCount
        rw [hpk]
        simp [List.countP_cons, t0, t1])
    refine ⟨d, d', e, ?_⟩
    rw [h1, h2, hn, hf]
    change Except.ok (d', (if (Selector.default : Selector ℝ).timestepValid ts.time = true then _ else _) :: []) = _
    rw [if_pos hv, hI, ht]
  have hpos : ∀ ts : Timestep ℝ, ts.time = fin 0 → ts.position.length = 2 → ts.typ 0 = 0 → ts.typ 1 = 1 →
      typeCount Selector.default ts 0 = 1 ∧ typeCount Selector.default ts 1 = 1 := by
    intro ts ht hl t0 t1
    unfold typeCount
    rw [two_picks ts ht hl]
    simp [List.countP_cons, t0, t1]
  have mixed : laceyIndex p twoCells.geom Selector.default mixStep 0 1 1 = (2 : ℝ) := by
    obtain ⟨hA, hB⟩ := hpos mixStep rfl rfl typ0 typ1
    obtain ⟨_, _, h, _⟩ := C42_lacey_partial (K := ℝ) p twoCells.geom Selector.default mixStep 0 1 1 (by omega) (by omega) (by rw [hN])
    rw [hN] at h
    refine (h.2 fun c hc => ?_).trans (by norm_num)
    have hk : cellCount p twoCells.geom Selector.default mixStep 0 c = cellCount p twoCells.geom Selector.default mixStep 1 c := by
      unfold cellCount
      rw [two_picks mixStep rfl rfl]
      have e0 : (mixStep : Timestep ℝ).typ 0 = 0 := typ0
      have e1 : (mixStep : Timestep ℝ).typ 1 = 1 := typ1
      have q0 : (mixStep : Timestep ℝ).pos 0 = fun _ => fin 0 := rfl
      have q1 : (mixStep : Timestep ℝ).pos 1 = fun _ => fin 0 := rfl
      simp [List.countP_cons, e0, e1, q0, q1]
    have hc := (Finset.mem_filter.1 hc).2.1
    unfold cellConc meanConc
    rw [hA, hB, hk]
    rw [hk] at hc
    have : (0 : ℝ) < (cellCount p twoCells.geom Selector.default (mixStep : Timestep ℝ) 1 c : ℕ) := by exact_mod_cast (by omega)
    push_cast
    field_simp
    norm_num
  have apart : laceyIndex p twoCells.geom Selector.default apartStep 0 1 1 = (-2 : ℝ) := by
    have e0 : (apartStep).typ 0 = 0 := typ0
    have e1 : (apartStep).typ 1 = 1 := typ1
    have q0 : (apartStep).pos 0 = fun _ => fin 0 := rfl
    have q1 : (apartStep).pos 1 = fun _ => fin 4 := rfl
    obtain ⟨hA, hB⟩ := hpos apartStep rfl rfl e0 e1
    obtain ⟨_, _, _, h⟩ := C42_lacey_partial (K := ℝ) p twoCells.geom Selector.default apartStep 0 1 1 (by omega) (by omega) (by rw [hN])
    have k0 : ∀ c, cellCount p twoCells.geom Selector.default apartStep 0 c = if c0 = c then 1 else 0 := by
      intro c
      unfold cellCount
      rw [two_picks apartStep rfl rfl]
      simp [List.countP_cons, e0, e1, q0, inCell, l0, i0]
    have k1 : ∀ c, cellCount p twoCells.geom Selector.default apartStep 1 c = if c1 = c then 1 else 0 := by
      intro c
      unfold cellCount
      rw [two_picks apartStep rfl rfl]
      simp [List.countP_cons, e0, e1, q1, inCell, l1, i1]
    have hC : richCells p twoCells.geom Selector.default apartStep 0 1 1 = {c0, c1} := by
      ext c
      unfold richCells
      rw [Finset.mem_filter, mem_cellsOf, k0, k1, Finset.mem_insert, Finset.mem_singleton]
      constructor
      · rintro ⟨_, h, _⟩
        by_cases h0 : c0 = c
        · exact Or.inl h0.symm
        · by_cases h1 : c1 = c
          · exact Or.inr h1.symm
          · rw [if_neg h0, if_neg h1] at h; omega
      · rintro (rfl | rfl)
        · exact ⟨b0, by rw [if_pos rfl]; omega, by rw [if_pos rfl]; omega⟩
        · exact ⟨b1, by rw [if_pos rfl]; omega, by rw [if_pos rfl]; omega⟩
    have v0 : (cellConc p twoCells.geom Selector.default apartStep 0 1 c0 : ℝ) = 1 := by
      unfold cellConc
      rw [k0, k1, if_pos rfl, if_neg hne.symm]; norm_num
    have v1 : (cellConc p twoCells.geom Selector.default apartStep 0 1 c1 : ℝ) = 0 := by
      unfold cellConc
      rw [k0, k1, if_pos rfl, if_neg hne]; norm_num
    have hcard : ({c0, c1} : Finset CellId).card = 2 := Finset.card_pair hne
    have hf1 : (({c0, c1} : Finset CellId).filter fun c => (cellConc p twoCells.geom Selector.default apartStep 0 1 c : ℝ) = 1) = {c0} := by
      rw [Finset.filter_insert, if_pos v0, Finset.filter_singleton, if_neg (by rw [v1]; norm_num)]
      rfl
    rw [hC, hN, hcard] at h
    refine (h ?_ ?_).trans (by norm_num)
    · intro c hc
      rcases Finset.mem_insert.1 hc with rfl | hc
      · exact Or.inr v0
      · rw [Finset.mem_singleton.1 hc]; exact Or.inl v1
    · rw [hf1, Finset.card_singleton]
      unfold meanConc
      rw [hA, hB]; norm_num
  exact ⟨main mixStep 2 rfl rfl ⟨rfl, rfl, rfl, rfl, rfl, rfl⟩ typ0 typ1 mixed,
    main apartStep (-2) rfl rfl ⟨rfl, rfl, rfl, rfl, rfl, rfl⟩ typ0 typ1 apart⟩

end Up4
