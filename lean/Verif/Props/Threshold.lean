import Verif.Props.Maths

set_option linter.unusedSectionVars false

/-! # C57: binary threshold -/

namespace Up4
open F
open Selector (at')

variable {K : Type} [Field K] [LinearOrder K] [IsStrictOrderedRing K] [FloorRing K] [Arith K]

/-- Number of nonzero values of a list with a property. -/
def countNonzero (l : List (F K)) (p : F K → Prop) [DecidablePred p] : ℕ := l.countP fun x => !(F.eqB x 0) && decide (p x)

/-- `T` is the value number `i` (from 0) of the nonzero values in increasing order: at most `i` nonzero values are below it, and more than `i` are not above it. -/
def IsNth (l : List (F K)) (i : ℕ) (T : F K) : Prop :=
  T ∈ l ∧ F.eqB T 0 = false ∧ countNonzero l (· < T) ≤ i ∧ i < countNonzero l (· ≤ T)

theorem nth_sorted (l : List (F K)) (hs : l.Pairwise (· ≤ ·)) (hn : ∀ x ∈ l, x ≠ nan) (i : ℕ) (h : i < l.length) :
    (l.countP fun x => decide (x < l[i])) ≤ i ∧ i < l.countP fun x => decide (x ≤ l[i]) := by
  have hsplit : l = l.take i ++ l[i] :: l.drop (i + 1) := by
    rw [← List.drop_eq_getElem_cons h, List.take_append_drop]
  have hge : ∀ x ∈ l.drop (i + 1), l[i] ≤ x := by
    intro x hx
    rw [hsplit, List.pairwise_append] at hs
    exact (List.pairwise_cons.1 hs.2.1).1 x hx
  have hle : ∀ x ∈ l.take i, x ≤ l[i] := by
    intro x hx
    have hs' := hs
    rw [hsplit, List.pairwise_append] at hs'
    exact hs'.2.2 x hx l[i] List.mem_cons_self
  generalize hT : l[i] = T at hsplit hge hle
  have hTn : T ≠ nan := by rw [← hT]; exact hn _ (List.getElem_mem h)
  have htake : (l.take i).length = i := by rw [List.length_take]; omega
  constructor
  · rw [hsplit, List.countP_append, List.countP_cons]
    have h1 : (l.take i).countP (fun x => decide (x < T)) ≤ i := by
      have := List.countP_le_length (p := fun x => decide (x < T)) (l := l.take i)
      omega
    have h2 : (l.drop (i + 1)).countP (fun x => decide (x < T)) = 0 := by
      rw [List.countP_eq_zero]
      intro x hx
      simpa using F.not_lt_of_le' (hge x hx)
    have h3 : (if decide (T < T) = true then 1 else 0) = 0 := by
      rw [if_neg]
      simpa using F.not_lt_of_le' (F.le_refl' hTn)
    omega
  · rw [hsplit, List.countP_append, List.countP_cons]
    have h1 : (l.take i).countP (fun x => decide (x ≤ T)) = i := by
      refine Eq.trans ?_ htake
      rw [List.countP_eq_length]
      intro x hx
      exact decide_eq_true (hle x hx)
    have h3 : (if decide (T ≤ T) = true then 1 else 0) = 1 := by
      rw [if_pos]
      simpa using F.le_refl' hTn
    omega

theorem inside_mem {n : ℕ} (a : Arr n (F K)) {c : Fin n → ℕ} (h : InB a.shape c) : a.get c ∈ flatten a :=
  List.mem_map.2 ⟨c, (mem_indices _ _).2 h, rfl⟩

/-- **C57, the exact outcome.** A field without NaN and a quantile in `[0,1]`: with `i` the whole part of `quantile` times the number of ALL cells, the result marks
with 1 exactly the cells above the nonzero value number `i`; it panics when there are not that many nonzero values. -/
theorem C57_threshold_partial (field : Arr 3 (F K)) (q : F K) (h0 : 0 ≤ q) (h1 : q ≤ 1) (hn : ∀ x ∈ flatten field, x ≠ nan) (i : ℕ)
    (hi : i = (F.ofNat (flatten field).length * q).toUsize) :
    (i < countNonzero (flatten field) (fun _ => True) → ∃ T out, binaryThreshold field q = .ok out ∧ IsNth (flatten field) i T ∧ out.shape = field.shape ∧
      ∀ c, (field.get c > T → out.get c = 1) ∧ (¬ field.get c > T → out.get c = 0)) ∧
    (countNonzero (flatten field) (fun _ => True) ≤ i → binaryThreshold field q = .error .unwrap) := by
  obtain ⟨sorted, idx, hs, _, _, hperm, _, hsort⟩ := C50_sort (fun x : F K => x) (flatten field) hn
  rw [List.map_id'] at hsort
  have hpw := (C50_isSorted _).1 hsort
  set nz := sorted.filter fun x => !(F.eqB x 0) with hnz
  have hcount : ∀ (p : F K → Prop) [DecidablePred p], countNonzero (flatten field) p = nz.countP fun x => decide (p x) := by
    intro p _
    rw [hnz, List.countP_filter]
    unfold countNonzero
    rw [hperm.countP_eq]
    congr 1
    funext x
    exact Bool.and_comm _ _
  have hlen : countNonzero (flatten field) (fun _ => True) = nz.length := by
    rw [hcount]; simp
  have hform : binaryThreshold field q = (match nz[i]? with
      | none => .error .unwrap
      | some threshold => pure (field.map fun x => if x > threshold then 1 else 0) : Run (Arr 3 (F K))) := by
    unfold binaryThreshold
    dsimp only
    rw [if_neg (by rw [not_not]; exact ⟨h0, h1⟩), hs, run_bind_ok, ← hi]
    rfl
  rw [hlen, hform]
  constructor
  · intro h
    rw [List.getElem?_eq_getElem h]
    refine ⟨nz[i], _, rfl, ?_, rfl, fun c => ⟨fun h => ?_, fun h => ?_⟩⟩
    · have hmem := List.getElem_mem h
      have hmem' := List.mem_filter.1 hmem
      obtain ⟨a, b⟩ := nth_sorted nz (hpw.filter _) (fun x hx => hn x (hperm.subset (List.mem_filter.1 hx).1)) i h
      refine ⟨hperm.subset hmem'.1, by simpa using hmem'.2, ?_, ?_⟩
      · rw [hcount]; exact a
      · rw [hcount]; exact b
    · change (if field.get c > nz[i] then (1 : F K) else 0) = 1
      rw [if_pos h]
    · change (if field.get c > nz[i] then (1 : F K) else 0) = 0
      rw [if_neg h]
  · intro h
    rw [List.getElem?_eq_none h]

theorem floor_mul_lt (n : ℕ) (q : K) (h1 : q < 1) (hn : 0 < n) : ⌊(n : K) * q⌋₊ < n := by
  have hp : (0 : K) < n := Nat.cast_pos.2 hn
  rcases le_or_gt 0 ((n : K) * q) with h | h
  · rw [Nat.floor_lt h]; nlinarith
  · rw [Nat.floor_of_nonpos h.le]; exact hn

/-- **C57 for fields without zeros** (exact arithmetic, quantile below 1): 1 exactly above the quantile of the values - the value number `⌊quantile * n⌋` of the `n` in
increasing order. -/
theorem C57_nonzero_partial [ExactArith K] (field : Arr 3 (F K)) (q : K) (h0 : 0 ≤ q) (h1 : q < 1) (hn : ∀ x ∈ flatten field, x ≠ nan ∧ F.eqB x 0 = false)
    (hne : flatten field ≠ []) (hbig : (flatten field).length ≤ usizeMax) :
    ∃ T out, binaryThreshold field (fin q) = .ok out ∧ IsNth (flatten field) ⌊((flatten field).length : K) * q⌋₊ T ∧ out.shape = field.shape ∧
      ∀ c, (field.get c > T → out.get c = 1) ∧ (¬ field.get c > T → out.get c = 0) := by
  have hpos := List.length_pos_of_ne_nil hne
  have hlt := floor_mul_lt (flatten field).length q h1 hpos
  have hi : ⌊((flatten field).length : K) * q⌋₊ = (F.ofNat (flatten field).length * fin q).toUsize := by
    rw [F.eofNat, F.emul]
    change _ = min ⌊((flatten field).length : K) * q⌋₊ usizeMax
    rw [Nat.min_eq_left]
    omega
  have hc : countNonzero (flatten field) (fun _ => True) = (flatten field).length := by
    unfold countNonzero
    rw [List.countP_eq_length]
    intro x hx
    simp [(hn x hx).2]
  exact (C57_threshold_partial field (fin q) ((F.le_fin _ _).2 h0) ((F.le_fin _ _).2 h1.le) (fun x hx => (hn x hx).1) _ hi).1 (by rw [hc]; exact hlt)

/-- **C57, rejection.** Quantiles outside `[0,1]` (and NaN) are rejected. -/
theorem C57_reject (field : Arr 3 (F K)) (q : F K) (h : ¬ (0 ≤ q ∧ q ≤ 1)) : binaryThreshold field q = .error .explicit := by
  unfold binaryThreshold
  dsimp only
  rw [if_pos h]

/-- Four cells: 0, 0, 1, 2. -/
noncomputable def halfEmpty : Arr 3 (F ℝ) := ⟨![1, 1, 4], fun c => if c 2 = 2 then fin 1 else if c 2 = 3 then fin 2 else fin 0⟩

theorem halfEmpty_flatten : flatten halfEmpty = [fin 0, fin 0, fin 1, fin 2] := by
  simp [flatten, halfEmpty, indices, List.range_succ, Fin.tail, Fin.cons]
  exact ⟨(if_neg (by decide)).trans (if_neg (by decide)), (if_neg (by decide)).trans (if_neg (by decide)), if_pos (by decide), (if_neg (by decide)).trans (if_pos (by decide))⟩

/-- **C57 is false of the code** for fields with empty cells: the position of the quantile is computed from the number of all cells and looked up among the nonzero
values. Field 0, 0, 1, 2: at quantile 1/4 the threshold is 2, the greatest value, so that no cell is marked, although 2 exceeds the lower quartile 1 of the
nonzero values 1, 2; at quantile 3/4 the call panics. -/
theorem C57_false : (∃ out, binaryThreshold halfEmpty (fin (1 / 4)) = .ok out ∧ out.get ![0, 0, 3] = 0 ∧ halfEmpty.get ![0, 0, 3] = fin 2 ∧
      IsNth (flatten halfEmpty) ⌊((countNonzero (flatten halfEmpty) (fun _ => True) : ℕ) : ℝ) * (1 / 4)⌋₊ (fin 1)) ∧
    binaryThreshold halfEmpty (fin (3 / 4)) = .error .unwrap := by
  have hc : countNonzero (flatten halfEmpty) (fun _ => True) = 2 := by
    rw [halfEmpty_flatten]; simp [countNonzero, F.eqB, F.zero_def, List.countP_cons]
  have hn : ∀ x ∈ flatten halfEmpty, x ≠ nan := by
    rw [halfEmpty_flatten]; simp
  have hlen : (flatten halfEmpty).length = 4 := by rw [halfEmpty_flatten]; rfl
  have hidx : ∀ q : ℝ, ∀ n : ℕ, (n : ℝ) = 4 * q → n = (F.ofNat (flatten halfEmpty).length * fin q).toUsize ∨ usizeMax < n := by
    intro q n hq
    rw [hlen, F.eofNat, F.emul]
    change n = min ⌊((4 : ℕ) : ℝ) * q⌋₊ usizeMax ∨ _
    have : ((4 : ℕ) : ℝ) * q = n := by rw [hq]; norm_num
    rw [this, Nat.floor_natCast]
    omega
  have i1 := (hidx (1 / 4) 1 (by norm_num)).resolve_right (by unfold usizeMax; omega)
  have i3 := (hidx (3 / 4) 3 (by norm_num)).resolve_right (by unfold usizeMax; omega)
  constructor
  · obtain ⟨T, out, h1, h2, h3, h4⟩ := (C57_threshold_partial halfEmpty (fin (1 / 4)) ((F.le_fin _ _).2 (by norm_num)) ((F.le_fin _ _).2 (by norm_num)) hn 1 i1).1
      (by rw [hc]; omega)
    have hT : T = fin 2 := by
      obtain ⟨a, b, c, d⟩ := h2
      rw [halfEmpty_flatten] at a c d
      simp only [List.mem_cons, List.not_mem_nil, or_false] at a
      rcases a with rfl | rfl | rfl | rfl
      · simp [F.eqB, F.zero_def] at b
      · simp [F.eqB, F.zero_def] at b
      · simp [countNonzero, F.eqB, F.zero_def, List.countP_cons] at d
      · rfl
    refine ⟨out, h1, ?_, ?_, ?_⟩
    · apply (h4 _).2
      rw [hT]
      have : halfEmpty.get ![0, 0, 3] = fin 2 := by simp [halfEmpty]
      rw [this]
      exact F.not_lt_of_le' (F.le_refl' (by simp))
    · simp [halfEmpty]
    · rw [hc]
      have : ⌊((2 : ℕ) : ℝ) * (1 / 4)⌋₊ = 0 := by rw [Nat.floor_eq_zero]; norm_num
      rw [this, halfEmpty_flatten]
      refine ⟨by simp, by simp [F.eqB, F.zero_def], ?_, ?_⟩
      · simp [countNonzero, F.eqB, F.zero_def, List.countP_cons]
      · simp [countNonzero, F.eqB, F.zero_def, List.countP_cons]
  · exact (C57_threshold_partial halfEmpty (fin (3 / 4)) ((F.le_fin _ _).2 (by norm_num)) ((F.le_fin _ _).2 (by norm_num)) hn 3 i3).2 (by rw [hc]; omega)

/-- The hypotheses of `C57_nonzero_partial`: two cells, 1 and 2, quantile 1/2. -/
example : ∃ T out, binaryThreshold (K := ℝ) ⟨![1, 1, 2], fun c => fin ((c 2 : ℝ) + 1)⟩ (fin (1 / 2)) = .ok out ∧
    IsNth (flatten (K := ℝ) (n := 3) ⟨![1, 1, 2], fun c => fin ((c 2 : ℝ) + 1)⟩) ⌊((flatten (K := ℝ) (n := 3) ⟨![1, 1, 2], fun c => fin ((c 2 : ℝ) + 1)⟩).length : ℝ) * (1 / 2)⌋₊ T := by
  have hl : (flatten (K := ℝ) (n := 3) ⟨![1, 1, 2], fun c => fin ((c 2 : ℝ) + 1)⟩).length = 2 := by
    unfold flatten; rw [List.length_map, length_indices]; simp [Fin.prod_univ_three]
  obtain ⟨T, out, h1, h2, _⟩ := C57_nonzero_partial (K := ℝ) ⟨![1, 1, 2], fun c => fin ((c 2 : ℝ) + 1)⟩ (1 / 2) (by norm_num) (by norm_num) (by
    intro x hx
    obtain ⟨c, _, rfl⟩ := List.mem_map.1 hx
    refine ⟨by simp, ?_⟩
    have : ((c 2 : ℝ) + 1) ≠ 0 := by positivity
    simpa [F.eqB, F.zero_def] using this) (by intro h; rw [h] at hl; cases hl) (by rw [hl]; decide)
  exact ⟨T, out, h1, h2⟩

end Up4
