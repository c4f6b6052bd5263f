import Verif.Proofs.Store

set_option linter.unusedSectionVars false

/-! Lemmas about collapsing axes (exact arithmetic). -/

namespace Up4
open F

variable {K : Type} [Field K] [LinearOrder K] [IsStrictOrderedRing K] [FloorRing K] [Arith K]

/-- The real value of a stored number, NaN counting as `0`. -/
def val : F K → K
  | .fin x => x
  | _ => 0

/-- Every in-bounds entry is a finite number or NaN. -/
def FinOrNaN {n : ℕ} (a : Arr n (F K)) : Prop :=
  ∀ i, InB a.shape i → a.get i = F.nan ∨ ∃ x, a.get i = F.fin x

/-- Every in-bounds entry is a finite nonnegative number. -/
def FinNonneg {n : ℕ} (a : Arr n (F K)) : Prop :=
  ∀ i, InB a.shape i → ∃ x, a.get i = F.fin x ∧ 0 ≤ x

theorem insertNth_inB {n : ℕ} {s : Fin (n + 1) → ℕ} (a : Fin (n + 1)) {k : ℕ} {idx : Fin n → ℕ} :
    InB s (a.insertNth k idx : Fin (n + 1) → ℕ) ↔ k < s a ∧ InB (fun j => s (a.succAbove j)) idx := by
  unfold InB
  constructor
  · intro h
    exact ⟨by simpa using h a, fun j => by simpa using h (a.succAbove j)⟩
  · rintro ⟨h1, h2⟩ i
    refine Fin.succAboveCases a ?_ ?_ i
    · simpa using h1
    · intro j; simpa using h2 j

/-- Summing over all cells = summing over the remaining axes and along the removed one. -/
theorem sum_cells_axis {n : ℕ} (s : Fin (n + 1) → ℕ) (a : Fin (n + 1)) (f : (Fin (n + 1) → ℕ) → K) :
    ∑ c ∈ cellsOf s, f c =
      ∑ idx ∈ cellsOf (fun j => s (a.succAbove j)), ∑ k ∈ Finset.range (s a), f (a.insertNth k idx) := by
  rw [← Finset.sum_product']
  refine Finset.sum_bij' (fun c _ => (a.removeNth c, c a)) (fun x _ => a.insertNth x.2 x.1) ?_ ?_ ?_ ?_ ?_
  · intro c hc
    rw [mem_cellsOf] at hc
    simp only [Finset.mem_product, mem_cellsOf, Finset.mem_range]
    exact ⟨fun j => hc _, hc a⟩
  · rintro ⟨idx, k⟩ h
    simp only [Finset.mem_product, mem_cellsOf, Finset.mem_range] at h
    rw [mem_cellsOf, insertNth_inB]
    exact ⟨h.2, h.1⟩
  · intro c _; simp
  · rintro ⟨idx, k⟩ _; simp
  · intro c _; simp

/-- The same, keeping only the cells above a fixed remaining index. -/
theorem sum_cells_fibre {n : ℕ} (s : Fin (n + 1) → ℕ) (a : Fin (n + 1)) (f : (Fin (n + 1) → ℕ) → K)
    (P : (Fin n → ℕ) → Prop) [DecidablePred P] :
    ∑ c ∈ (cellsOf s).filter (fun c => P (a.removeNth c)), f c =
      ∑ idx ∈ (cellsOf (fun j => s (a.succAbove j))).filter P,
        ∑ k ∈ Finset.range (s a), f (a.insertNth k idx) := by
  rw [Finset.sum_filter, Finset.sum_filter, sum_cells_axis s a]
  refine Finset.sum_congr rfl fun idx _ => ?_
  by_cases h : P idx <;> simp [h]

theorem val_nz {x : F K} (h : x = F.nan ∨ ∃ y, x = F.fin y) : Store.nz x = F.fin (val x) := by
  rcases h with rfl | ⟨y, rfl⟩ <;> rfl

section exact
variable [ExactArith K]

theorem collapseFold_exact (cyl : Bool) (d w : ℕ → F K) (n : ℕ)
    (hd : ∀ k < n, d k = F.nan ∨ ∃ x, d k = F.fin x) (hw : ∀ k < n, ∃ x, w k = F.fin x ∧ 0 ≤ x) :
    Store.collapseFold cyl d w n =
      (F.fin (∑ k ∈ Finset.range n, val (d k) * val (w k)), F.fin (∑ k ∈ Finset.range n, val (w k))) := by
  induction n with
  | zero => rfl
  | succ n ih =>
    have ih := ih (fun k hk => hd k (by omega)) (fun k hk => hw k (by omega))
    unfold Store.collapseFold at ih ⊢
    rw [List.range_succ, List.foldl_append, ih]
    obtain ⟨x, hx, _⟩ := hw n (by omega)
    simp only [List.foldl_cons, List.foldl_nil, val_nz (hd n (by omega)), Finset.sum_range_succ]
    have : (if cyl = true then Store.nz (w n) else w n) = F.fin (val (w n)) := by
      rw [hx]; cases cyl <;> rfl
    rw [this, emul, eadd, eadd]

theorem div_weight_exact {n : ℕ} (d w : ℕ → K) (hw : ∀ k < n, 0 ≤ w k) :
    F.fin (∑ k ∈ Finset.range n, d k * w k) / F.fin (∑ k ∈ Finset.range n, w k) =
      if (∑ k ∈ Finset.range n, w k) = 0 then F.nan
      else F.fin ((∑ k ∈ Finset.range n, d k * w k) / ∑ k ∈ Finset.range n, w k) := by
  split_ifs with h
  · have hz : ∀ k ∈ Finset.range n, w k = 0 :=
      (Finset.sum_eq_zero_iff_of_nonneg (fun k hk => hw k (Finset.mem_range.1 hk))).1 h
    have : ∑ k ∈ Finset.range n, d k * w k = 0 :=
      Finset.sum_eq_zero fun k hk => by rw [hz k hk, mul_zero]
    rw [this, h]
    simp [div_fin, infTimes]
  · exact ediv _ h

theorem collapse_exact {n : ℕ} (cyl : Bool) (data weight : Arr (n + 1) (F K))
    (hs : weight.shape = data.shape) (hd : FinOrNaN data) (hw : FinNonneg weight) (a : Fin (n + 1)) :
    ∃ r, Store.collapse cyl data weight a = .ok r ∧ r.shape = (fun j => data.shape (a.succAbove j)) ∧
      ∀ idx, InB r.shape idx →
        let W := ∑ k ∈ Finset.range (data.shape a), val (weight.get (a.insertNth k idx))
        r.get idx = if W = 0 then F.nan else
          F.fin ((∑ k ∈ Finset.range (data.shape a),
            val (data.get (a.insertNth k idx)) * val (weight.get (a.insertNth k idx))) / W) := by
  unfold Store.collapse
  rw [dif_pos a.isLt]
  refine ⟨_, rfl, rfl, fun idx hidx => ?_⟩
  simp only [Fin.eta]
  rw [collapseFold_exact cyl _ _ _ (fun k hk => hd _ ?_) (fun k hk => ?_)]
  · refine div_weight_exact _ _ fun k hk => ?_
    obtain ⟨x, hx, h0⟩ := hw (a.insertNth k idx) (by
      rw [hs]; exact insertNth_inB a |>.2 ⟨hk, hidx⟩)
    rw [hx]; exact h0
  · exact insertNth_inB a |>.2 ⟨hk, hidx⟩
  · exact hw _ (by rw [hs]; exact insertNth_inB a |>.2 ⟨hk, hidx⟩)

theorem collapseWeight_exact {n : ℕ} (weight : Arr (n + 1) (F K)) (hw : FinNonneg weight) (a : Fin (n + 1)) :
    ∃ r, Store.collapseWeight weight a = .ok r ∧ r.shape = (fun j => weight.shape (a.succAbove j)) ∧
      FinNonneg r ∧
      ∀ idx, InB r.shape idx → r.get idx =
        F.fin (∑ k ∈ Finset.range (weight.shape a), val (weight.get (a.insertNth k idx))) := by
  unfold Store.collapseWeight
  rw [dif_pos a.isLt]
  have key : ∀ (idx : Fin n → ℕ) m, (∀ k < m, ∃ x, weight.get (a.insertNth k idx) = F.fin x ∧ 0 ≤ x) →
      (List.range m).foldl (fun acc k => acc + weight.get (a.insertNth k idx)) 0 =
        F.fin (∑ k ∈ Finset.range m, val (weight.get (a.insertNth k idx))) := by
    intro idx m
    induction m with
    | zero => intro _; rfl
    | succ m ih =>
      intro h
      rw [List.range_succ, List.foldl_append, ih fun k hk => h k (by omega)]
      obtain ⟨x, hx, _⟩ := h m (by omega)
      simp only [List.foldl_cons, List.foldl_nil, Finset.sum_range_succ, hx, val, eadd]
  have hin : ∀ idx, InB (fun j => weight.shape (a.succAbove j)) idx → ∀ k < weight.shape a,
      ∃ x, weight.get (a.insertNth k idx) = F.fin x ∧ 0 ≤ x := by
    intro idx hidx k hk
    exact hw _ (insertNth_inB a |>.2 ⟨hk, hidx⟩)
  refine ⟨_, rfl, rfl, fun idx hidx => ?_, fun idx hidx => key idx _ (hin idx hidx)⟩
  refine ⟨_, key idx _ (hin idx hidx), Finset.sum_nonneg fun k hk => ?_⟩
  obtain ⟨x, hx, h0⟩ := hin idx hidx k (Finset.mem_range.1 hk)
  rw [hx]; exact h0

end exact
end Up4
