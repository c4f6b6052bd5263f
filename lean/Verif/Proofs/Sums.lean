import Verif.Props.Fields

set_option linter.unusedSectionVars false

/-! Accumulation of counts, sums and sums of squares per cell, used by `dispersion` and `granular_temperature_field`. -/

namespace Up4
open F
open Selector (at')

variable {K : Type} [Field K] [LinearOrder K] [IsStrictOrderedRing K] [FloorRing K] [Arith K]

theorem Arr.addAt_ok {n : ℕ} (a : Arr n (F K)) {c : Fin n → ℕ} (h : InB a.shape c) (v : F K) :
    a.addAt c v = .ok { a with get := Function.update a.get c (a.get c + v) } := by
  unfold Arr.addAt
  rw [Arr.read_ok a h, run_bind_ok, Arr.write_ok a h]

/-- All seven arrays have the shape of the grid. -/
def Sums.Shaped (cells : CellId) (s : Sums K) : Prop :=
  (∀ a, (s.sq a).shape = cells) ∧ (∀ a, (s.sum a).shape = cells) ∧ s.cnt.shape = cells

/-- The effect of `Sums.add`. -/
def Sums.added (s : Sums K) (c : CellId) (v : Fin 3 → F K) : Sums K :=
  ⟨fun a => { s.sq a with get := Function.update (s.sq a).get c ((s.sq a).get c + v a * v a) },
   fun a => { s.sum a with get := Function.update (s.sum a).get c ((s.sum a).get c + v a) },
   { s.cnt with get := Function.update s.cnt.get c (s.cnt.get c + 1) }⟩

theorem Sums.add_ok {cells : CellId} (s : Sums K) (hs : s.Shaped cells) {c : CellId} (hc : InB cells c) (v : Fin 3 → F K) :
    s.add c v = .ok (s.added c v) := by
  obtain ⟨h1, h2, h3⟩ := hs
  have e1 : ∀ a, InB (s.sq a).shape c := fun a => by rw [h1 a]; exact hc
  have e2 : ∀ a, InB (s.sum a).shape c := fun a => by rw [h2 a]; exact hc
  have e3 : InB s.cnt.shape c := by rw [h3]; exact hc
  unfold Sums.add
  rw [Arr.addAt_ok _ (e1 0), run_bind_ok, Arr.addAt_ok _ (e1 1), run_bind_ok, Arr.addAt_ok _ (e1 2), run_bind_ok,
    Arr.addAt_ok _ (e2 0), run_bind_ok, Arr.addAt_ok _ (e2 1), run_bind_ok, Arr.addAt_ok _ (e2 2), run_bind_ok,
    Arr.addAt_ok _ e3, run_bind_ok, run_pure]
  unfold Sums.added
  congr 2
  · funext a; fin_cases a <;> rfl
  · funext a; fin_cases a <;> rfl

theorem Sums.added_shaped {cells : CellId} {s : Sums K} (hs : s.Shaped cells) (c : CellId) (v : Fin 3 → F K) :
    (s.added c v).Shaped cells := hs

/-- The accumulation step of both analyses. -/
def sumStep (p : Profile) (g : Geom K) (pos : Pos K) (v : Fin 3 → F K) (s : Sums K) : Run (Sums K) :=
  if g.isInside pos then do
    match ← g.cellId p pos with
    | none => pure s
    | some c => s.add c v
  else pure s

theorem sums_fill {α : Type} (p : Profile) (g : Geom K) (hg : g.Sound p) (L : List α) (pos : α → Pos K) (v : α → Fin 3 → F K)
    (s : Sums K) (hs : s.Shaped g.cells) :
    ∃ s', L.foldlM (fun s x => sumStep p g (pos x) (v x) s) s = .ok s' ∧ s'.Shaped g.cells ∧
      ∀ c, (∀ a, (s'.sq a).get c = ((L.filter fun x => inCell p g (pos x) c).map fun x => v x a * v x a).foldl (· + ·) ((s.sq a).get c)) ∧
        (∀ a, (s'.sum a).get c = ((L.filter fun x => inCell p g (pos x) c).map fun x => v x a).foldl (· + ·) ((s.sum a).get c)) ∧
        s'.cnt.get c = (List.replicate (L.filter fun x => inCell p g (pos x) c).length 1).foldl (· + ·) (s.cnt.get c) := by
  induction L generalizing s with
  | nil => exact ⟨s, rfl, hs, fun c => ⟨fun _ => rfl, fun _ => rfl, rfl⟩⟩
  | cons x L ih =>
    rw [List.foldlM_cons]
    by_cases hin : g.isInside (pos x) = true
    · obtain ⟨d, hd, hdb⟩ := hg (pos x) hin
      have e : sumStep p g (pos x) (v x) s = .ok (s.added d (v x)) := by
        unfold sumStep
        rw [if_pos hin, hd, run_bind_ok]
        exact s.add_ok hs hdb _
      obtain ⟨s', h1, h2, h3⟩ := ih _ (Sums.added_shaped hs d (v x))
      refine ⟨s', by rw [e, run_bind_ok, h1], h2, fun c => ?_⟩
      have hc : inCell p g (pos x) c = decide (d = c) := by
        unfold inCell; rw [hin, Geom.lookup_eq hd]; simp
      obtain ⟨k1, k2, k3⟩ := h3 c
      by_cases hdc : d = c
      · subst hdc
        have hf : (x :: L).filter (fun x => inCell p g (pos x) d) = x :: L.filter fun x => inCell p g (pos x) d := by
          rw [List.filter_cons, if_pos (by simp [hc])]
        rw [hf]
        refine ⟨fun a => ?_, fun a => ?_, ?_⟩
        · rw [k1 a, List.map_cons, List.foldl_cons]; simp [Sums.added]
        · rw [k2 a, List.map_cons, List.foldl_cons]; simp [Sums.added]
        · rw [k3, List.length_cons, List.replicate_succ, List.foldl_cons]; simp [Sums.added]
      · have hf : (x :: L).filter (fun x => inCell p g (pos x) c) = L.filter fun x => inCell p g (pos x) c := by
          rw [List.filter_cons, if_neg (by simp [hc, hdc])]
        rw [hf]
        have hne : c ≠ d := fun h => hdc h.symm
        refine ⟨fun a => ?_, fun a => ?_, ?_⟩
        · rw [k1 a]; simp [Sums.added, hne]
        · rw [k2 a]; simp [Sums.added, hne]
        · rw [k3]; simp [Sums.added, hne]
    · have e : sumStep p g (pos x) (v x) s = .ok s := by unfold sumStep; rw [if_neg hin]; rfl
      obtain ⟨s', h1, h2, h3⟩ := ih s hs
      refine ⟨s', by rw [e, run_bind_ok, h1], h2, fun c => ?_⟩
      have hf : (x :: L).filter (fun x => inCell p g (pos x) c) = L.filter fun x => inCell p g (pos x) c := by
        rw [List.filter_cons, if_neg (by unfold inCell; simp [hin])]
      rw [hf]; exact h3 c

/-- Adding `n` ones to zero gives `n`. -/
theorem ones_zero [LawfulArith K] (n : ℕ) (h : n ≤ 2 ^ 53) : (List.replicate n (1 : F K)).foldl (· + ·) (0 : F K) = fin (n : K) := by
  have := foldl_ones (K := K) 0 n (by omega)
  rw [Nat.cast_zero, Nat.zero_add] at this
  exact this

/-! ### The variance identity -/

/-- Mean squared deviation from the mean: `Σ x² / n - (Σ x)² / n²`. -/
theorem var_identity (l : List K) (hl : l ≠ []) :
    (l.map fun x => x * x).sum / l.length - l.sum * l.sum / l.length / l.length = meanSqDev l := by
  have hpos : (l.length : K) ≠ 0 := by exact_mod_cast (List.length_pos_iff.2 hl).ne'
  have key : ∀ m : K, (l.map fun x => (x - m) ^ 2).sum = (l.map fun x => x * x).sum - 2 * m * l.sum + l.length * m ^ 2 := by
    intro m
    clear hl hpos
    induction l with
    | nil => simp
    | cons a l ih =>
      simp only [List.map_cons, List.sum_cons, List.length_cons, Nat.cast_add, Nat.cast_one, ih]
      ring
  unfold meanSqDev mean
  rw [key]
  field_simp
  ring

theorem sum_sq_nonneg (l : List K) (m : K) : 0 ≤ (l.map fun x => (x - m) ^ 2).sum := by
  apply List.sum_nonneg
  intro y hy
  simp only [List.mem_map] at hy
  obtain ⟨x, _, rfl⟩ := hy
  positivity

theorem meanSqDev_nonneg (l : List K) : 0 ≤ meanSqDev l :=
  div_nonneg (sum_sq_nonneg l _) (Nat.cast_nonneg _)

theorem sampleVar_nonneg (l : List K) (h : 1 ≤ l.length) : 0 ≤ sampleVar l :=
  div_nonneg (sum_sq_nonneg l _) (by have : (1 : K) ≤ l.length := by exact_mod_cast h
                                     linarith)

theorem sampleVar_eq (l : List K) (h : 1 < l.length) : sampleVar l = meanSqDev l * l.length / (l.length - 1) := by
  unfold sampleVar meanSqDev
  have : (l.length : K) ≠ 0 := by exact_mod_cast (show l.length ≠ 0 by omega)
  field_simp

end Up4
