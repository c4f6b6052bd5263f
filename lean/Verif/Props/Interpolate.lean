import Verif.Model.Tools
import Verif.Proofs.Store
import Verif.Props.Sorting
import Verif.RealArith

set_option linter.unusedSectionVars false

/-! # C51, C52: interpolation to equidistant times -/

namespace Up4
open F
open Selector (at')

variable {K : Type} [Field K] [LinearOrder K] [IsStrictOrderedRing K] [FloorRing K] [Arith K]

/-! ### The loop -/

/-- The row index picked for output time `tn`, from the one before. -/
def pickStep (time : ℕ → F K) (n rs : ℕ) (tn : F K) : ℕ :=
  if rs < n - 1 then
    if time (rs + 1) < time rs then rs + 1
    else if (tn - time rs).abs < (tn - time (rs + 1)).abs then rs
    else if rs + 1 < n - 1 then
      if (tn - time (rs + 1)).abs < (tn - time (rs + 2)).abs then rs + 1 else rs + 2
    else rs + 1
  else rs

theorem nextStep_eq (time : List (F K)) (rs : ℕ) (tn : F K) :
    nextStep time rs tn = .ok (pickStep (fun i => time.getD i nan) time.length rs tn) := by
  have hf : ∀ i, (h : i < time.length) → (fun i => time.getD i nan) i = time[i] := fun i h => getD_lt _ h
  generalize (fun i => time.getD i nan) = f at hf
  unfold nextStep pickStep
  by_cases h : rs < time.length - 1
  · rw [if_pos h, if_pos h, at_some (by omega), run_bind_ok, at_some (by omega), run_bind_ok]
    rw [hf rs (by omega), hf (rs + 1) (by omega)]
    by_cases h1 : time[rs + 1] < time[rs]
    · rw [if_pos h1, if_pos h1]; rfl
    · rw [if_neg h1, if_neg h1]
      by_cases h2 : (tn - time[rs]).abs < (tn - time[rs + 1]).abs
      · rw [if_pos h2, if_pos h2]; rfl
      · rw [if_neg h2, if_neg h2]
        unfold nextStep2
        by_cases h3 : rs + 1 < time.length - 1
        · rw [if_pos h3, if_pos h3, at_some (by omega), run_bind_ok, at_some (by omega), run_bind_ok]
          rw [hf (rs + 2) (by omega)]
          by_cases h4 : (tn - time[rs + 1]).abs < (tn - time[rs + 2]).abs
          · rw [if_pos h4, if_pos h4]; rfl
          · rw [if_neg h4, if_neg h4]; rfl
        · rw [if_neg h3, if_neg h3]; rfl
  · rw [if_neg h, if_neg h]; rfl

theorem le_pickStep (time : ℕ → F K) (n rs : ℕ) (tn : F K) : rs ≤ pickStep time n rs tn := by
  unfold pickStep
  split_ifs <;> omega

/-- The row indices picked for the output times `dt, 2 dt, ...`. -/
def picked (time : ℕ → F K) (n : ℕ) (dt : F K) : ℕ → ℕ
  | 0 => 1
  | k + 1 => pickStep time n (picked time n dt k) (F.ofNat (k + 1) * dt)

theorem picked_pos (time : ℕ → F K) (n : ℕ) (dt : F K) (k : ℕ) : 1 ≤ picked time n dt k := by
  induction k with
  | zero => exact le_refl _
  | succ k ih => exact le_trans ih (le_pickStep _ _ _ _)

/-- What is written for the row index `rs` and the time `tn`. -/
def Written (data : List (Row4 K)) (rs : ℕ) (tn : F K) (row : Row4 K) : Prop :=
  row.t = tn ∧
    ((data.length ≤ rs + 1 ∧ ∀ i, row.p i = nan) ∨
      ∃ a b, data[rs - 1]? = some a ∧ data[rs + 1]? = some b ∧
        ((F.eqB a.t b.t = true ∧ ∀ i, row.p i = nan) ∨
          (F.eqB a.t b.t = false ∧ ∀ i, row.p i = a.p i + ((b.p i - a.p i) / (b.t - a.t)) * (tn - a.t))))

theorem interpRow_ok (data : List (Row4 K)) (rs : ℕ) (tn : F K) (h1 : 1 ≤ rs) :
    ∃ row, interpRow data rs tn = .ok row ∧ Written data rs tn row := by
  unfold interpRow
  by_cases h : data.length - 1 ≤ rs
  · rw [if_pos h]
    exact ⟨nanRow tn, rfl, rfl, Or.inl ⟨by omega, fun _ => rfl⟩⟩
  · rw [if_neg h, at_some (by omega), run_bind_ok, at_some (by omega), run_bind_ok]
    cases he : F.eqB data[rs - 1].t data[rs + 1].t with
    | true =>
      rw [if_pos rfl]
      exact ⟨nanRow tn, rfl, rfl, Or.inr ⟨_, _, List.getElem?_eq_getElem (by omega), List.getElem?_eq_getElem (by omega), Or.inl ⟨he, fun _ => rfl⟩⟩⟩
    | false =>
      rw [if_neg (by simp)]
      exact ⟨_, rfl, rfl, Or.inr ⟨_, _, List.getElem?_eq_getElem (by omega), List.getElem?_eq_getElem (by omega), Or.inr ⟨he, fun _ => rfl⟩⟩⟩

theorem setRow_ok {R : Type} {l : List R} {i : ℕ} (h : i < l.length) (r : R) : setRow l i r = .ok (l.set i r) := by
  unfold setRow
  rw [if_pos h]

theorem interp_loop (data : List (Row4 K)) (dt : F K) (out : List (Row4 K)) (m : ℕ) (hm : m + 1 ≤ out.length) :
    ∃ res, (List.range' 1 m).foldlM (interpBody data dt) (1, out) =
        (.ok (picked (fun i => (data.map Row4.t).getD i nan) data.length dt m, res) : Run (ℕ × List (Row4 K))) ∧
      res.length = out.length ∧ (∀ k, k = 0 ∨ m < k → res[k]? = out[k]?) ∧
      ∀ k, 1 ≤ k → k ≤ m → ∃ row, res[k]? = some row ∧
        Written data (picked (fun i => (data.map Row4.t).getD i nan) data.length dt k) (F.ofNat k * dt) row := by
  induction m with
  | zero => exact ⟨out, rfl, rfl, fun _ _ => rfl, fun k h1 h2 => by omega⟩
  | succ m ih =>
    obtain ⟨res, he, hl, hk, hw⟩ := ih (by omega)
    obtain ⟨row, hr, hrow⟩ := interpRow_ok data (picked (fun i => (data.map Row4.t).getD i nan) data.length dt (m + 1)) (F.ofNat (m + 1) * dt)
      (picked_pos _ _ _ _)
    refine ⟨res.set (m + 1) row, ?_, by simp [hl], ?_, ?_⟩
    · rw [List.range'_concat, List.foldlM_append, he, run_bind_ok, List.foldlM_cons]
      rw [show 1 + 1 * m = m + 1 by omega]
      have : interpBody data dt (picked (fun i => (data.map Row4.t).getD i nan) data.length dt m, res) (m + 1) =
          .ok (picked (fun i => (data.map Row4.t).getD i nan) data.length dt (m + 1), res.set (m + 1) row) := by
        unfold interpBody
        dsimp only
        rw [nextStep_eq, run_bind_ok, List.length_map]
        change (do
          let row ← interpRow data (picked (fun i => (data.map Row4.t).getD i nan) data.length dt (m + 1)) (F.ofNat (m + 1) * dt)
          _) = _
        rw [hr, run_bind_ok, setRow_ok (by omega), run_bind_ok]
        rfl
      rw [this, run_bind_ok]
      rfl
    · intro k h
      rw [List.getElem?_set_ne (by omega)]
      exact hk k (by omega)
    · intro k h1 h2
      by_cases e : k = m + 1
      · subst e
        exact ⟨row, List.getElem?_set_self (by omega), hrow⟩
      · obtain ⟨r, h, h'⟩ := hw k h1 (by omega)
        exact ⟨r, by rw [List.getElem?_set_ne (by omega)]; exact h, h'⟩

theorem interpolate_ok (data : List (Row4 K)) (maxTime : F K) (steps : ℕ) (hs : (data.map Row4.t).Pairwise (· ≤ ·)) (hne : data ≠ [])
    (h2 : 2 ≤ steps) :
    ∃ out, interpolate data maxTime steps = .ok out ∧ out.length = steps ∧ out[0]? = data.head? ∧ out[steps - 1]? = data.getLast? ∧
      ∀ k, 0 < k → k < steps - 1 → ∃ row, out[k]? = some row ∧
        Written data (picked (fun i => (data.map Row4.t).getD i nan) data.length (maxTime / F.ofNat steps) k) (F.ofNat k * (maxTime / F.ofNat steps)) row := by
  have hpos : 0 < data.length := List.length_pos_of_ne_nil hne
  have hsorted := (C50_isSorted _).2 hs
  obtain ⟨res, he, hl, hk, hw⟩ := interp_loop data (maxTime / F.ofNat steps)
    (((List.replicate steps (⟨0, fun _ => 0⟩ : Row4 K)).set 0 data[0]).set (steps - 1) data[data.length - 1]) (steps - 2)
    (by simp; omega)
  refine ⟨res, ?_, by rw [hl]; simp, ?_, ?_, ?_⟩
  · unfold interpolate
    rw [hsorted, if_neg (by simp)]
    dsimp only
    rw [at_some hpos, run_bind_ok, setRow_ok (by simp; omega), run_bind_ok, at_some (by omega), run_bind_ok, setRow_ok (by simp; omega),
      run_bind_ok, he, run_bind_ok]
    rfl
  · rw [hk 0 (Or.inl rfl), List.getElem?_set_ne (by omega), List.getElem?_set_self (by simp; omega), List.head?_eq_getElem?,
      List.getElem?_eq_getElem hpos]
  · rw [hk (steps - 1) (Or.inr (by omega)), List.getElem?_set_self (by simp; omega), List.getLast?_eq_getElem?,
      List.getElem?_eq_getElem (by omega)]
  · intro k h0 h1
    exact hw k h0 (by omega)

/-! ### C51 -/

/-- Coordinates at time `tn` of the straight line through the rows `a` and `b`. -/
def OnLine (a b : Row4 K) (tn : F K) (p : Fin 3 → F K) : Prop :=
  ∀ i, p i = a.p i + ((b.p i - a.p i) / (b.t - a.t)) * (tn - a.t)

/-- **C51, the table** (any arithmetic). The requested number of rows, the first and last input rows at the ends, time `k * dt` in between, with NaN
coordinates or coordinates on a line through two input rows two apart. Which rows: `C51_nearest_partial`. -/
theorem C51_table_partial (data : List (Row4 K)) (maxTime : F K) (steps : ℕ) (hs : (data.map Row4.t).Pairwise (· ≤ ·)) (hne : data ≠ [])
    (h2 : 2 ≤ steps) :
    ∃ out, interpolate data maxTime steps = .ok out ∧ out.length = steps ∧ out[0]? = data.head? ∧ out[steps - 1]? = data.getLast? ∧
      ∀ k, 0 < k → k < steps - 1 → ∃ row, out[k]? = some row ∧ row.t = F.ofNat k * (maxTime / F.ofNat steps) ∧
        ((∀ i, row.p i = nan) ∨ ∃ j a b, data[j]? = some a ∧ data[j + 2]? = some b ∧ F.eqB a.t b.t = false ∧ OnLine a b row.t row.p) := by
  obtain ⟨out, h, hl, h0, h1, hw⟩ := interpolate_ok data maxTime steps hs hne h2
  refine ⟨out, h, hl, h0, h1, fun k hk hk' => ?_⟩
  obtain ⟨row, hr, ht, hp⟩ := hw k hk hk'
  refine ⟨row, hr, ht, ?_⟩
  rcases hp with ⟨_, hn⟩ | ⟨a, b, ha, hb, ⟨_, hn⟩ | ⟨he, hn⟩⟩
  · exact Or.inl hn
  · exact Or.inl hn
  · refine Or.inr ⟨_, a, b, ha, ?_, he, ?_⟩
    · rw [← hb]
      have := picked_pos (fun i => (data.map Row4.t).getD i nan) data.length (maxTime / F.ofNat steps) k
      congr 1
      omega
    · rw [ht]; exact hn

/-- **C51, rejection.** A table that is not sorted by time is rejected. -/
theorem C51_reject (data : List (Row4 K)) (maxTime : F K) (steps : ℕ) (hs : ¬ (data.map Row4.t).Pairwise (· ≤ ·)) :
    interpolate data maxTime steps = .error .explicit := by
  unfold interpolate
  rw [if_pos]
  rw [Bool.eq_false_iff]
  exact fun h => hs ((C50_isSorted _).1 h)

/-- The table with rows at times `t 0, t 1, ...` and positions `x 0, x 1, ...`. -/
def table (n : ℕ) (t : ℕ → K) (x : ℕ → Fin 3 → K) : List (Row4 K) := (List.range n).map fun j => ⟨fin (t j), fun i => fin (x j i)⟩

theorem table_get (n : ℕ) (t : ℕ → K) (x : ℕ → Fin 3 → K) {j : ℕ} (h : j < n) :
    (table n t x)[j]? = some ⟨fin (t j), fun i => fin (x j i)⟩ := by
  unfold table
  rw [List.getElem?_map, List.getElem?_range h]
  rfl

theorem table_time (n : ℕ) (t : ℕ → K) (x : ℕ → Fin 3 → K) {j : ℕ} (h : j < n) : ((table n t x).map Row4.t).getD j nan = fin (t j) := by
  rw [List.getD_eq_getElem?_getD, List.getElem?_map, table_get n t x h]
  rfl

theorem length_table (n : ℕ) (t : ℕ → K) (x : ℕ → Fin 3 → K) : (table n t x).length = n := by simp [table]

theorem table_sorted (n : ℕ) (t : ℕ → K) (x : ℕ → Fin 3 → K) (hm : ∀ i j, i < j → j < n → t i ≤ t j) : ((table n t x).map Row4.t).Pairwise (· ≤ ·) := by
  unfold table
  rw [List.map_map, List.pairwise_map]
  refine (List.pairwise_lt_range (n := n)).imp_of_mem ?_
  intro i j _ hj h
  exact (F.le_fin _ _).2 (hm i j h (List.mem_range.1 hj))

/-- `r` is the first row other than row 0 with `tau` before the middle between it and the next one. -/
def FirstPast (n : ℕ) (t : ℕ → K) (tau : K) (r : ℕ) : Prop :=
  1 ≤ r ∧ r ≤ n - 1 ∧ (∀ j, 1 ≤ j → j < r → t j + t (j + 1) ≤ 2 * tau) ∧ (r < n - 1 → 2 * tau < t r + t (r + 1))

theorem abs_fin (a : K) : (fin a : F K).abs = fin |a| := rfl

theorem closer_iff [ExactArith K] (tau a b : K) (h : a < b) : ((fin tau - fin a : F K).abs < (fin tau - fin b : F K).abs) ↔ 2 * tau < a + b := by
  rw [F.esub, F.esub, abs_fin, abs_fin, F.lt_fin]
  rw [← sq_lt_sq]
  constructor
  · intro h'
    nlinarith
  · intro h'
    nlinarith

theorem pick_step [ExactArith K] (n : ℕ) (t : ℕ → K) (time : ℕ → F K) (ht : ∀ j, j < n → time j = fin (t j))
    (hm : ∀ j, j + 1 < n → t j < t (j + 1)) (dt : K) (hdt : 0 ≤ dt)
    (hsp : ∀ j, 1 ≤ j → j + 3 < n → 2 * dt ≤ (t (j + 2) + t (j + 3)) - (t j + t (j + 1)))
    (tau : K) (r : ℕ) (h : FirstPast n t tau r) : FirstPast n t (tau + dt) (pickStep time n r (fin (tau + dt))) := by
  obtain ⟨h1, h2, h3, h4⟩ := h
  unfold pickStep
  by_cases hr : r < n - 1
  · rw [if_pos hr, ht r (by omega), ht (r + 1) (by omega)]
    have hlt := hm r (by omega)
    rw [if_neg (by rw [F.lt_fin]; exact not_lt.2 hlt.le)]
    have h4 := h4 hr
    by_cases c1 : 2 * (tau + dt) < t r + t (r + 1)
    · rw [if_pos ((closer_iff _ _ _ hlt).2 c1)]
      exact ⟨h1, h2, fun j hj hj' => le_trans (h3 j hj hj') (by linarith), fun _ => c1⟩
    · rw [if_neg (fun h => c1 ((closer_iff _ _ _ hlt).1 h))]
      have c1 := not_lt.1 c1
      have hupto : ∀ j, 1 ≤ j → j < r + 1 → t j + t (j + 1) ≤ 2 * (tau + dt) := by
        intro j hj hj'
        by_cases e : j = r
        · rw [e]; exact c1
        · exact le_trans (h3 j hj (by omega)) (by linarith)
      by_cases hr2 : r + 1 < n - 1
      · rw [if_pos hr2, ht (r + 2) (by omega)]
        have hlt2 := hm (r + 1) (by omega)
        by_cases c2 : 2 * (tau + dt) < t (r + 1) + t (r + 1 + 1)
        · rw [if_pos ((closer_iff _ _ _ hlt2).2 c2)]
          exact ⟨by omega, by omega, hupto, fun _ => c2⟩
        · rw [if_neg (fun h => c2 ((closer_iff _ _ _ hlt2).1 h))]
          have c2 := not_lt.1 c2
          refine ⟨by omega, by omega, ?_, ?_⟩
          · intro j hj hj'
            by_cases e : j = r + 1
            · rw [e]; exact c2
            · exact hupto j hj (by omega)
          · intro h
            have := hsp r h1 (by omega)
            have e : r + 2 + 1 = r + 3 := rfl
            rw [e]
            linarith
      · rw [if_neg hr2]
        exact ⟨by omega, by omega, hupto, fun h => by omega⟩
  · rw [if_neg hr]
    exact ⟨h1, h2, fun j hj hj' => le_trans (h3 j hj hj') (by linarith), fun h => absurd h hr⟩

theorem picked_first [ExactArith K] (n : ℕ) (hn : 2 ≤ n) (t : ℕ → K) (time : ℕ → F K) (ht : ∀ j, j < n → time j = fin (t j))
    (h0 : t 0 = 0) (hm : ∀ j, j + 1 < n → t j < t (j + 1)) (dt : K) (hdt : 0 ≤ dt)
    (hsp : ∀ j, 1 ≤ j → j + 3 < n → 2 * dt ≤ (t (j + 2) + t (j + 3)) - (t j + t (j + 1))) (k : ℕ) :
    FirstPast n t (k * dt) (picked time n (fin dt) k) := by
  induction k with
  | zero =>
    refine ⟨le_refl _, by change 1 ≤ n - 1; omega, fun j h1 h2 => ?_, fun h => ?_⟩
    · change j < 1 at h2; omega
    · change 1 < n - 1 at h
      have a := hm 0 (by omega)
      have b := hm 1 (by omega)
      change 2 * (((0 : ℕ) : K) * dt) < t 1 + t (1 + 1)
      rw [Nat.cast_zero]
      rw [h0] at a
      simp only [zero_add] at a
      linarith
  | succ k ih =>
    have := pick_step n t time ht hm dt hdt hsp _ _ ih
    have e : ((k + 1 : ℕ) : K) * dt = k * dt + dt := by push_cast; ring
    have e' : picked time n (fin dt) (k + 1) = pickStep time n (picked time n (fin dt) k) (fin (k * dt + dt)) := by
      change pickStep time n (picked time n (fin dt) k) (F.ofNat (k + 1) * fin dt) = _
      rw [F.eofNat, F.emul, e]
    rw [e, e']
    exact this

/-- **C51, which rows.** Let the input rows have strictly increasing times starting at 0, not so dense that an output step passes three middles
between neighbouring rows. Then with `r` the input row nearest to output time `k * dt`, the first row aside, the output row is NaN if `r` is the last row,
and else on the line through the rows just before and just after `r`, which enclose the output time. -/
theorem C51_nearest_partial [ExactArith K] (n : ℕ) (hn : 2 ≤ n) (t : ℕ → K) (x : ℕ → Fin 3 → K) (h0 : t 0 = 0)
    (hm : ∀ j, j + 1 < n → t j < t (j + 1)) (maxTime : K) (hT : 0 ≤ maxTime) (steps : ℕ) (h2 : 2 ≤ steps)
    (hsp : ∀ j, 1 ≤ j → j + 3 < n → 2 * (maxTime / steps) ≤ (t (j + 2) + t (j + 3)) - (t j + t (j + 1))) :
    ∃ out, interpolate (table n t x) (fin maxTime) steps = .ok out ∧ out.length = steps ∧
      ∀ k : ℕ, 0 < k → k < steps - 1 → ∃ row, out[k]? = some row ∧ row.t = fin (k * (maxTime / steps)) ∧
        ∃ r, 1 ≤ r ∧ r < n ∧ (∀ j, 1 ≤ j → j < n → |k * (maxTime / steps) - t r| ≤ |k * (maxTime / steps) - t j|) ∧
          (r = n - 1 → ∀ i, row.p i = nan) ∧
          (r < n - 1 → t (r - 1) ≤ k * (maxTime / steps) ∧ k * (maxTime / steps) < t (r + 1) ∧
            ∀ i, row.p i = fin (x (r - 1) i + (x (r + 1) i - x (r - 1) i) / (t (r + 1) - t (r - 1)) * (k * (maxTime / steps) - t (r - 1)))) := by
  have hmono : ∀ i j, i ≤ j → j < n → t i ≤ t j := by
    intro i j hij
    induction j, hij using Nat.le_induction with
    | base => intro _; exact le_refl _
    | succ j _ ih => intro h; exact le_trans (ih (by omega)) (hm j h).le
  have hdt : 0 ≤ maxTime / steps := div_nonneg hT (Nat.cast_nonneg _)
  obtain ⟨out, h, hl, _, _, hw⟩ := interpolate_ok (table n t x) (fin maxTime) steps (table_sorted n t x fun i j hij hj => hmono i j hij.le hj)
    (by intro h; have := length_table n t x; rw [h] at this; simp at this; omega) h2
  have hst : (steps : K) ≠ 0 := Nat.cast_ne_zero.2 (by omega)
  rw [F.eofNat, F.ediv _ hst] at hw
  refine ⟨out, h, hl, fun k hk hk' => ?_⟩
  obtain ⟨row, hr, ht, hp⟩ := hw k hk hk'
  have hf := picked_first n hn t (fun i => ((table n t x).map Row4.t).getD i nan) (fun j hj => table_time n t x hj) h0 hm _ hdt hsp k
  rw [length_table] at hp
  rw [F.eofNat, F.emul] at ht hp
  set tau : K := k * (maxTime / steps) with htau
  set r := picked (fun i => ((table n t x).map Row4.t).getD i nan) n (fin (maxTime / (steps : K))) k with hrdef
  clear_value r
  obtain ⟨f1, f2, f3, f4⟩ := hf
  refine ⟨row, hr, ht, r, f1, by omega, ?_, ?_, ?_⟩
  · intro j hj hjn
    rw [← sq_le_sq]
    rcases lt_trichotomy j r with hlt | heq | hgt
    · have a := f3 (r - 1) (by omega) (by omega)
      rw [show r - 1 + 1 = r by omega] at a
      have b := hmono j (r - 1) (by omega) (by omega)
      have c := hmono j r (by omega) (by omega)
      nlinarith
    · rw [heq]
    · have a := f4 (by omega)
      have b := hmono (r + 1) j (by omega) (by omega)
      have c := hmono r j (by omega) (by omega)
      nlinarith
  · intro he
    rcases hp with ⟨_, hn⟩ | ⟨a, b, ha, hb, _⟩
    · exact hn
    · have := (List.getElem?_eq_some_iff.1 hb).1
      rw [length_table] at this
      omega
  · intro hlt
    refine ⟨?_, ?_, ?_⟩
    · rcases Nat.eq_or_lt_of_le f1 with e | e
      · rw [← e]
        change t 0 ≤ _
        rw [h0, htau]
        exact mul_nonneg (Nat.cast_nonneg _) hdt
      · have a := f3 (r - 1) (by omega) (by omega)
        rw [show r - 1 + 1 = r by omega] at a
        have b := hm (r - 1) (by omega)
        rw [show r - 1 + 1 = r by omega] at b
        linarith
    · have a := f4 hlt
      have b := hm r (by omega)
      linarith
    · have hd : t (r - 1) < t (r + 1) := by
        have a := hm (r - 1) (by omega)
        have b := hm r (by omega)
        rw [show r - 1 + 1 = r by omega] at a
        linarith
      rcases hp with ⟨hn, _⟩ | ⟨a, b, ha, hb, hab⟩
      · omega
      · rw [table_get n t x (by omega)] at ha hb
        cases ha
        cases hb
        rcases hab with ⟨he, _⟩ | ⟨_, hp⟩
        · have : t (r - 1) = t (r + 1) := by simpa [F.eqB] using he
          exact absurd this hd.ne
        · intro i
          rw [hp i, F.esub, F.esub, F.esub, F.ediv _ (by linarith : t (r + 1) - t (r - 1) ≠ 0), F.emul, F.eadd]

/-- The hypotheses of `C51_nearest_partial` hold for evenly spaced rows interpolated as the converter does (`max_time` the last time, as many
steps as rows). -/
example (n : ℕ) (hn : 2 ≤ n) (h : ℝ) (hh : 0 < h) (x : ℕ → Fin 3 → ℝ) :
    ∃ out, interpolate (table n (fun j => j * h) x) (fin (((n - 1 : ℕ) : ℝ) * h)) n = .ok out ∧ out.length = n := by
  obtain ⟨out, h1, h2, _⟩ := C51_nearest_partial (K := ℝ) n hn (fun j => j * h) x (by simp)
    (by intro j _; push_cast; nlinarith) (((n - 1 : ℕ) : ℝ) * h) (by positivity) n hn (by
      intro j _ _
      have hpos : (0 : ℝ) < n := by exact_mod_cast (by omega : 0 < n)
      have : ((n - 1 : ℕ) : ℝ) * h / n ≤ h := by
        rw [div_le_iff₀ hpos]
        have : ((n - 1 : ℕ) : ℝ) ≤ n := by exact_mod_cast Nat.sub_le _ _
        nlinarith
      push_cast
      nlinarith)
  exact ⟨out, h1, h2⟩

/-- At rest until time 4, then jumping. -/
noncomputable def restX (j : ℕ) (_ : Fin 3) : ℝ := if j ≤ 4 then 0 else 1

/-- **C51 is false of the code** for dense input: at most two rows are passed per output step. Seven rows at times 0 to 6, three output rows
for 15 s: the middle one is at time 5, nearest to row 5, but it is extrapolated from the rows 2 and 4. -/
theorem C51_false : ∃ out row, interpolate (table 7 (fun j => (j : ℝ)) restX) (fin 15) 3 = .ok out ∧ out[1]? = some row ∧ row.t = fin 5 ∧
    ¬ OnLine ⟨fin 4, fun i => fin (restX 4 i)⟩ ⟨fin 6, fun i => fin (restX 6 i)⟩ row.t row.p := by
  obtain ⟨out, h, hl, _, _, hw⟩ := interpolate_ok (K := ℝ) (table 7 (fun j => (j : ℝ)) restX) (fin 15) 3
    (table_sorted _ _ _ fun i j hij _ => by exact_mod_cast hij.le) (by intro h; have := length_table 7 (fun j => (j : ℝ)) restX; rw [h] at this; simp at this)
    (by omega)
  obtain ⟨row, hr, ht, hp⟩ := hw 1 (by omega) (by omega)
  have e5 : (F.ofNat 1 * (fin 15 / F.ofNat 3) : F ℝ) = fin 5 := by
    rw [F.eofNat, F.eofNat, F.ediv _ (by norm_num), F.emul]; norm_num
  have epick : picked (fun i => ((table 7 (fun j => (j : ℝ)) restX).map Row4.t).getD i nan) 7 (fin 15 / F.ofNat 3) 1 = 3 := by
    have hstep : ∀ j : ℕ, (j : ℝ) + 1 < 5 →
        ¬ ((fin 5 - (fin (j : ℝ)) : F ℝ).abs < (fin 5 - (fin ((j + 1 : ℕ) : ℝ)) : F ℝ).abs) := by
      intro j h5 hc
      rw [closer_iff _ _ _ (by push_cast; linarith)] at hc
      push_cast at hc
      linarith
    have hT : ∀ j, j < 7 → ((table 7 (fun j => (j : ℝ)) restX).map Row4.t).getD j nan = fin (j : ℝ) := fun j hj => table_time 7 (fun j => (j : ℝ)) restX hj
    change pickStep _ 7 1 (F.ofNat 1 * (fin 15 / F.ofNat 3)) = 3
    rw [e5]
    generalize hg : (fun i => ((table 7 (fun j => (j : ℝ)) restX).map Row4.t).getD i nan) = f
    have hT : ∀ j, j < 7 → f j = fin (j : ℝ) := by intro j hj; rw [← hg]; exact hT j hj
    unfold pickStep
    rw [if_pos (by omega), hT 1 (by omega), hT 2 (by omega), hT 3 (by omega)]
    rw [if_neg (by rw [F.lt_fin]; norm_num), if_neg (hstep 1 (by norm_num)), if_pos (by decide), if_neg (hstep 2 (by norm_num))]
  rw [length_table, epick, e5] at hp
  rw [e5] at ht
  refine ⟨out, row, h, hr, ht, ?_⟩
  intro hline
  have hline := hline 0
  rcases hp with ⟨hn, _⟩ | ⟨a, b, ha, hb, hab⟩
  · omega
  · rw [table_get 7 _ _ (by omega)] at ha hb
    cases ha
    cases hb
    rcases hab with ⟨he, _⟩ | ⟨_, hp⟩
    · simp [F.eqB] at he
    · rw [hp 0, ht] at hline
      have r2 : restX (3 - 1) 0 = 0 := by simp [restX]
      have r4 : restX (3 + 1) 0 = 0 := by simp [restX]
      have r6 : restX 6 0 = 1 := by simp [restX]
      dsimp only at hline
      rw [r2, r4, r6] at hline
      rw [F.esub, F.esub, F.esub, F.ediv _ (by norm_num), F.emul, F.eadd, F.esub, F.esub, F.esub, F.ediv _ (by norm_num), F.emul, F.eadd] at hline
      have := F.fin.inj hline
      norm_num at this

/-! ### C52 -/

/-- **C52.** Rows on a uniform motion `x0 + v t`: every interpolated row has NaN coordinates or lies on this motion at its own time, for any times
of the input rows (in order), any maximum time and number of steps. -/
theorem C52_uniform [ExactArith K] (n : ℕ) (hn : 0 < n) (t : ℕ → K) (hm : ∀ i j, i < j → j < n → t i ≤ t j) (x0 v : Fin 3 → K)
    (maxTime : K) (steps : ℕ) (h2 : 2 ≤ steps) :
    ∃ out, interpolate (table n t fun j i => x0 i + v i * t j) (fin maxTime) steps = .ok out ∧ out.length = steps ∧
      ∀ row ∈ out, ∃ tau : K, row.t = fin tau ∧ ((∀ i, row.p i = nan) ∨ ∀ i, row.p i = fin (x0 i + v i * tau)) := by
  set data := table n t fun j i => x0 i + v i * t j with hd
  have hlen : data.length = n := length_table n t _
  obtain ⟨out, h, hl, hf, hla, hw⟩ := interpolate_ok data (fin maxTime) steps (table_sorted n t _ hm)
    (by intro h; rw [h] at hlen; simp at hlen; omega) h2
  have hst : (steps : K) ≠ 0 := Nat.cast_ne_zero.2 (by omega)
  rw [F.eofNat, F.ediv _ hst] at hw
  have hget : ∀ (j : ℕ) (r : Row4 K), data[j]? = some r → r = ⟨fin (t j), fun i => fin (x0 i + v i * t j)⟩ := by
    intro j r hj
    have hlt := (List.getElem?_eq_some_iff.1 hj).1
    rw [hlen] at hlt
    rw [hd, table_get n t _ hlt] at hj
    exact (Option.some.inj hj).symm
  refine ⟨out, h, hl, fun row hrow => ?_⟩
  obtain ⟨k, hk, hget'⟩ := List.getElem_of_mem hrow
  have hrk : out[k]? = some row := by rw [List.getElem?_eq_getElem hk, hget']
  have hfromdata : ∀ j : ℕ, data[j]? = some row → ∃ tau : K, row.t = fin tau ∧ ((∀ i, row.p i = nan) ∨ ∀ i, row.p i = fin (x0 i + v i * tau)) := by
    intro j hj
    rw [hget j row hj]
    exact ⟨t j, rfl, Or.inr fun _ => rfl⟩
  by_cases hk0 : k = 0
  · subst hk0
    rw [hf, List.head?_eq_getElem?] at hrk
    exact hfromdata _ hrk
  by_cases hk1 : k = steps - 1
  · subst hk1
    rw [hla, List.getLast?_eq_getElem?] at hrk
    exact hfromdata _ hrk
  obtain ⟨row', hr, ht, hp⟩ := hw k (by omega) (by omega)
  rw [hrk] at hr
  cases hr
  rw [F.eofNat, F.emul] at ht hp
  refine ⟨_, ht, ?_⟩
  rcases hp with ⟨_, hn⟩ | ⟨a, b, ha, hb, ⟨_, hn⟩ | ⟨he, hp⟩⟩
  · exact Or.inl hn
  · exact Or.inl hn
  · refine Or.inr fun i => ?_
    have ha := hget _ a ha
    have hb := hget _ b hb
    subst ha hb
    have hne := he
    simp only [F.eqB, decide_eq_false_iff_not] at hne
    have hne' : t (picked (fun i => (data.map Row4.t).getD i nan) data.length (fin (maxTime / (steps : K))) k + 1) -
        t (picked (fun i => (data.map Row4.t).getD i nan) data.length (fin (maxTime / (steps : K))) k - 1) ≠ 0 :=
      fun hc => hne (by linarith)
    rw [hp i]
    dsimp only
    rw [F.esub, F.esub, F.esub, F.ediv _ hne', F.emul, F.eadd]
    congr 1
    field_simp
    ring

/-- Three rows of a motion along x, five output rows. -/
example : ∃ out, interpolate (K := ℝ) (table 3 (fun j => (j : ℝ)) fun j i => (![0, 1, 2] : Fin 3 → ℝ) i + (![3, 0, 0] : Fin 3 → ℝ) i * (j : ℝ)) (fin 2) 5 = .ok out ∧ out.length = 5 := by
  obtain ⟨out, h, hl, _⟩ := C52_uniform (K := ℝ) 3 (by omega) (fun j => (j : ℝ)) (fun i j hij _ => by exact_mod_cast hij.le) ![0, 1, 2] ![3, 0, 0] 2 5 (by omega)
  exact ⟨out, h, hl⟩

end Up4
