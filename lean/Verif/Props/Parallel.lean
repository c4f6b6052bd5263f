import Verif.Props.Velocity
import Verif.Model.Convert

set_option linter.unusedSectionVars false

/-! # C72: the velocities of long trajectories, computed in parallel -/

namespace Up4
open F
open Selector (at')

variable {K : Type} [Field K] [LinearOrder K] [IsStrictOrderedRing K] [FloorRing K] [Arith K]

theorem four_t (data : List (Row7 K)) : data.map Row7.t = (data.map Row7.four).map Row4.t := by
  rw [List.map_map]; rfl

theorem four_p (data : List (Row7 K)) (i : Fin 3) : (data.map fun r => r.p i) = (data.map Row7.four).map fun r => r.p i := by
  rw [List.map_map]; rfl

/-- The row of the parallel version for a window of times and coordinates of the table with four columns. -/
theorem parallelRow_eq (lib : FitLib K) (data : List (Row7 K)) (s degree k : ℕ) (hk : k + 7 ≤ data.length) :
    parallelRow lib data s degree k = (do
      let vx ← windowVel lib (windowTimes (data.map Row7.four) k 7) (windowCoords (data.map Row7.four) k 7 0) s degree
      let vy ← windowVel lib (windowTimes (data.map Row7.four) k 7) (windowCoords (data.map Row7.four) k 7 1) s degree
      let vz ← windowVel lib (windowTimes (data.map Row7.four) k 7) (windowCoords (data.map Row7.four) k 7 2) s degree
      let r ← at' ((data.drop k).take 7) ((s - 1) / 2)
      pure ⟨r.t, r.p, ![vx, vy, vz]⟩) := by
  unfold parallelRow
  dsimp only
  have ht0 : at' (((data.drop k).take 7).map Row7.t) 0 = .ok data[k].t := by
    unfold at'
    rw [List.getElem?_map, List.getElem?_take_of_lt (by omega), List.getElem?_drop, Nat.add_zero, List.getElem?_eq_getElem (by omega)]
    rfl
  have e : ((data.map Row7.four).drop k).take 7 = ((data.drop k).take 7).map Row7.four := by rw [List.map_take, List.map_drop]
  have htimes : (((data.drop k).take 7).map Row7.t).map (fun t => t - data[k].t) = windowTimes (data.map Row7.four) k 7 := by
    unfold windowTimes
    rw [e, List.map_map, List.map_map, List.getElem?_map, List.getElem?_eq_getElem (by omega : k < data.length)]
    rfl
  have hc (i : Fin 3) : (((data.drop k).take 7).map fun r => r.p i) = windowCoords (data.map Row7.four) k 7 i := by
    unfold windowCoords
    rw [e, List.map_map]
    rfl
  rw [ht0, run_bind_ok, htimes, hc, hc, hc]

/-- The derivative in the window of seven rows, with `s = 2h+1`. -/
theorem windowVel_seven (lib : FitLib K) (data : List (Row4 K)) (k h degree : ℕ) (hh : h ≤ 5) (hk : k + 7 ≤ data.length) (xs : List (F K))
    (c : List (F K)) (hc : lib.polyfit (windowTimes data k 7) xs degree = some c) :
    windowVel lib (windowTimes data k 7) xs (2 * h + 1) degree = .ok (polyDeriv lib c (data[k + h + 1].t - data[k].t)) := by
  unfold windowVel
  rw [hc]
  dsimp only
  cases c with
  | nil => rfl
  | cons c0 c =>
    dsimp only
    have e : (2 * h + 1 - 1) / 2 + 1 = h + 1 := by omega
    rw [e]
    unfold at'
    rw [window_get (by omega) (by omega : k + (h + 1) < data.length)]
    rfl

/-- **C72, the rows** (any arithmetic). The parallel computation, for a table of seven columns and at least seven rows, sampling steps `2h+1 <= 11` and fits
that succeed: `N - 6` rows; row `k` has the time and position of input row `k + h` and as velocity the derivative sum of the polynomial fitted
to the rows `k .. k + 6`, whatever `h` is, taken at the time of input row `k + h + 1`. -/
theorem C72_rows_partial (lib : FitLib K) (data : List (Row7 K)) (h degree columns : ℕ) (hcol : 7 ≤ columns) (hh : h ≤ 5) (hN : 7 ≤ data.length)
    (hfit : ∀ k i, k < data.length - 6 →
      ∃ c, lib.polyfit (windowTimes (data.map Row7.four) k 7) (windowCoords (data.map Row7.four) k 7 i) degree = some c) :
    ∃ out, velocityPolynomParallel lib columns data (2 * h + 1) degree = .ok out ∧ out.length = data.length - 6 ∧
      ∀ k, k < data.length - 6 → ∃ row r0 src next, out[k]? = some row ∧ data[k]? = some r0 ∧ data[k + h]? = some src ∧
        data[k + h + 1]? = some next ∧ row.t = src.t ∧ row.p = src.p ∧
        ∀ i c, lib.polyfit (windowTimes (data.map Row7.four) k 7) (windowCoords (data.map Row7.four) k 7 i) degree = some c →
          row.v i = polyDeriv lib c (next.t - r0.t) := by
  have hrow : ∀ k, (hk : k < data.length - 6) → ∃ row, parallelRow lib data (2 * h + 1) degree k = .ok row ∧
      row.t = data[k + h].t ∧ row.p = data[k + h].p ∧
      ∀ i c, lib.polyfit (windowTimes (data.map Row7.four) k 7) (windowCoords (data.map Row7.four) k 7 i) degree = some c →
          row.v i = polyDeriv lib c (data[k + h + 1].t - data[k].t) := by
    intro k hk
    obtain ⟨c0, f0⟩ := hfit k 0 hk
    obtain ⟨c1, f1⟩ := hfit k 1 hk
    obtain ⟨c2, f2⟩ := hfit k 2 hk
    have hl : k + 7 ≤ (data.map Row7.four).length := by rw [List.length_map]; omega
    have w0 := windowVel_seven lib (data.map Row7.four) k h degree hh hl _ c0 f0
    have w1 := windowVel_seven lib (data.map Row7.four) k h degree hh hl _ c1 f1
    have w2 := windowVel_seven lib (data.map Row7.four) k h degree hh hl _ c2 f2
    have ha : at' ((data.drop k).take 7) ((2 * h + 1 - 1) / 2) = .ok data[k + h] := by
      have e : (2 * h + 1 - 1) / 2 = h := by omega
      rw [e]
      unfold at'
      rw [List.getElem?_take_of_lt (by omega), List.getElem?_drop, List.getElem?_eq_getElem (by omega)]
    simp only [List.getElem_map] at w0 w1 w2
    refine ⟨⟨data[k + h].t, data[k + h].p, ![polyDeriv lib c0 (data[k + h + 1].t - data[k].t), polyDeriv lib c1 (data[k + h + 1].t - data[k].t),
      polyDeriv lib c2 (data[k + h + 1].t - data[k].t)]⟩, ?_, rfl, rfl, ?_⟩
    · rw [parallelRow_eq lib data _ degree k (by omega), w0, run_bind_ok, w1, run_bind_ok, w2, run_bind_ok, ha, run_bind_ok]
      rfl
    · intro i c hc
      fin_cases i
      · have := hc.symm.trans f0; cases this; rfl
      · have := hc.symm.trans f1; cases this; rfl
      · have := hc.symm.trans f2; cases this; rfl
  obtain ⟨out, he, hf⟩ := emit_forall₂ (List.range (data.length - 6)) (parallelRow lib data (2 * h + 1) degree) (by
    intro id hid
    rw [List.mem_range] at hid
    obtain ⟨row, hr, _⟩ := hrow id hid
    exact ⟨row, hr⟩) []
  have hl : out.length = data.length - 6 := by have := hf.length_eq; rw [List.length_range] at this; omega
  refine ⟨out, ?_, hl, fun k hk => ?_⟩
  · unfold velocityPolynomParallel
    rw [if_neg (by omega), if_neg (by omega), he, List.nil_append, run_bind_ok, if_neg (by omega)]
    rfl
  · obtain ⟨row, hr, ht, hp, hv⟩ := hrow k hk
    have hk' : k < out.length := by omega
    have hget := (List.forall₂_iff_get.1 hf).2 k (by simp; omega) hk'
    simp only [List.get_eq_getElem, List.getElem_range] at hget
    rw [hr] at hget
    have hrow' : out[k]? = some row := by rw [List.getElem?_eq_getElem hk']; cases hget; rfl
    exact ⟨row, data[k], data[k + h], data[k + h + 1], hrow', List.getElem?_eq_getElem _, List.getElem?_eq_getElem _, List.getElem?_eq_getElem _,
      ht, hp, hv⟩

/-- **C72 with seven sampling steps.** The parallel computation then does the same as the sequential one, on every table of seven columns and at least
seven rows, whatever the fits return (a failing fit included). -/
theorem C72_agrees_partial (lib : FitLib K) (data : List (Row7 K)) (degree columns : ℕ) (hcol : 7 ≤ columns) (hN : 7 ≤ data.length) :
    velocityPolynomParallel lib columns data 7 degree = velocityPolynom lib (data.map Row7.four) 7 degree := by
  have hrow : ∀ k, k < data.length - 6 → parallelRow lib data 7 degree k = windowRow lib (data.map Row7.four) 7 degree (k + 3) := by
    intro k hk
    rw [parallelRow_eq lib data _ degree k (by omega)]
    unfold windowRow
    dsimp only
    have e : k + 3 - (7 - 1) / 2 = k := by omega
    rw [e]
    have ht0 : at' ((((data.map Row7.four).drop k).take 7).map Row4.t) 0 = .ok data[k].t := by
      unfold at'
      rw [List.getElem?_map, List.getElem?_take_of_lt (by omega), List.getElem?_drop, Nat.add_zero, List.getElem?_map, List.getElem?_eq_getElem (by omega)]
      rfl
    have htimes : ((((data.map Row7.four).drop k).take 7).map Row4.t).map (fun t => t - data[k].t) = windowTimes (data.map Row7.four) k 7 := by
      unfold windowTimes
      rw [List.map_map, List.getElem?_map, List.getElem?_eq_getElem (by omega : k < data.length)]
      rfl
    rw [ht0, run_bind_ok, htimes]
    have ha : at' ((data.drop k).take 7) ((7 - 1) / 2) = .ok data[k + 3] := by
      unfold at'
      rw [List.getElem?_take_of_lt (by omega), List.getElem?_drop, List.getElem?_eq_getElem (by omega)]
    have hb : at' (data.map Row7.four) (k + 3) = .ok data[k + 3].four := by
      unfold at'
      rw [List.getElem?_map, List.getElem?_eq_getElem (by omega)]
      rfl
    rw [ha, hb]
    rfl
  have hfold : ∀ (l : List ℕ), (∀ k ∈ l, k < data.length - 6) → ∀ acc : List (Row7 K),
      l.foldlM (fun acc k => do
        let row ← parallelRow lib data 7 degree k
        pure (acc ++ [row])) acc =
      ((l.map (· + 3)).foldlM (fun acc k => do
        let row ← windowRow lib (data.map Row7.four) 7 degree k
        pure (acc ++ [row])) acc : Run (List (Row7 K))) := by
    intro l
    induction l with
    | nil => intro _ acc; rfl
    | cons k l ih =>
      intro h acc
      rw [List.map_cons, List.foldlM_cons, List.foldlM_cons, hrow k (h k (by simp))]
      cases windowRow lib (data.map Row7.four) 7 degree (k + 3) with
      | error e => rfl
      | ok row =>
        rw [run_bind_ok]
        change (List.foldlM _ (acc ++ [row]) l) = (List.foldlM _ (acc ++ [row]) (l.map (· + 3)) : Run (List (Row7 K)))
        exact ih (fun k hk => h k (by simp [hk])) _
  have hlen : ∀ (l : List ℕ) (acc out : List (Row7 K)), l.foldlM (fun acc k => do
        let row ← windowRow lib (data.map Row7.four) 7 degree k
        pure (acc ++ [row])) acc = (.ok out : Run (List (Row7 K))) → out.length = acc.length + l.length := by
    intro l
    induction l with
    | nil => intro acc out h; cases h; simp
    | cons k l ih =>
      intro acc out h
      rw [List.foldlM_cons] at h
      cases hw : windowRow lib (data.map Row7.four) 7 degree k with
      | error e => rw [hw] at h; cases h
      | ok row =>
        rw [hw, run_bind_ok] at h
        have := ih (acc ++ [row]) out h
        simp at this ⊢
        omega
  unfold velocityPolynomParallel velocityPolynom
  rw [if_neg (by omega), if_neg (by omega), if_neg (by omega), if_neg (by rw [List.length_map]; omega), hfold _ (by intro k hk; simpa using hk)]
  have er : (List.range (data.length - 6)).map (· + 3) =
      List.range' ((7 - 1) / 2) ((data.map Row7.four).length - (7 - 1) / 2 - (7 - 1) / 2) := by
    have e3 : (fun x : ℕ => x + 3) = fun x => 3 + x := by funext x; omega
    rw [List.length_map, List.range_eq_range', e3, List.map_add_range']
    congr 1
  rw [er]
  generalize hg : (List.foldlM _ _ _ : Run (List (Row7 K))) = r
  cases r with
  | error e => rfl
  | ok out =>
    have := hlen _ _ _ hg
    rw [run_bind_ok, if_neg]
    · rfl
    · rw [this, ← er]; simp; omega

/-- **C72 is false of the code** for the nine sampling steps the converter uses: on every table of at least nine rows whose fits succeed the two
computations return different numbers of rows. A trajectory of 200000 rows gets 199994 rows, one with a row less 199991. -/
theorem C72_false (lib : FitLib K) (data : List (Row7 K)) (degree : ℕ) (hN : 9 ≤ data.length)
    (hfit : ∀ times coords, ∃ c, lib.polyfit times coords degree = some c) :
    ∃ par seq, velocityPolynomParallel lib 7 data 9 degree = .ok par ∧ velocityPolynom lib (data.map Row7.four) 9 degree = .ok seq ∧
      par.length = data.length - 6 ∧ seq.length = data.length - 8 ∧ par.length ≠ seq.length := by
  obtain ⟨par, h1, h2, _⟩ := C72_rows_partial lib data 4 degree 7 (le_refl _) (by omega) (by omega) (fun _ _ _ => hfit _ _)
  obtain ⟨seq, h3, h4, _⟩ := C53_rows_partial lib (data.map Row7.four) 4 degree (by omega) (by rw [List.length_map]; omega) (fun _ _ _ => hfit _ _)
  rw [List.length_map] at h4
  exact ⟨par, seq, h1, h3, h2, h4, by omega⟩

/-- **C72, tables that are too small.** Fewer than seven columns or fewer than seven rows, or an even number of sampling steps, panics. -/
theorem C72_reject (lib : FitLib K) (data : List (Row7 K)) (s degree columns : ℕ) (h : columns < 7 ∨ data.length < 7 ∨ s % 2 = 0) :
    velocityPolynomParallel lib columns data s degree = .error .explicit := by
  unfold velocityPolynomParallel
  by_cases hs : s % 2 = 0
  · rw [if_pos hs]
  · rw [if_neg hs]
    have e : (if columns < 7 then 0 else data.length - 6) = 0 := by
      split
      · rfl
      · omega
    rw [e]
    rfl

theorem interpolate_length (data : List (Row4 K)) (maxTime : F K) (steps : ℕ) (h2 : 2 ≤ steps) (out : List (Row4 K))
    (h : interpolate data maxTime steps = .ok out) : out.length = steps := by
  by_cases hs : isSorted (data.map Row4.t) = false
  · unfold interpolate at h
    rw [if_pos hs] at h
    cases h
  by_cases hd : data = []
  · subst hd
    unfold interpolate at h
    rw [if_neg hs] at h
    cases h
  obtain ⟨out', e, hl, _⟩ := interpolate_ok data maxTime steps ((C50_isSorted _).1 (by simpa using hs)) hd h2
  rw [h] at e
  cases e
  exact hl

/-- **C72, interpolated trajectories.** With interpolation the chain converter panics on every trajectory as soon as the number of steps reaches
200000: the interpolated table has only four columns. -/
theorem C72_interpolated_panics (lib : FitLib K) (o : CsvOpts K) (hi : o.interp = true) (maxDuration : F K) (maxSteps : ℕ)
    (h : 200000 ≤ maxSteps) (seg : List (Row7 K)) : ∃ e, chainTable lib o maxDuration maxSteps seg = .error e := by
  unfold chainTable
  rw [if_pos hi]
  by_cases hv : o.vel = false
  · rw [if_pos hv]; exact ⟨_, rfl⟩
  rw [if_neg hv]
  cases hr : interpolate (seg.map Row7.four) maxDuration maxSteps with
  | error e => exact ⟨e, rfl⟩
  | ok rows =>
    rw [run_bind_ok]
    by_cases hc : o.cols.length ≥ 5
    · rw [if_pos hc]; exact ⟨_, rfl⟩
    have hl : rows.length = maxSteps := interpolate_length _ _ _ (by omega) _ hr
    rw [if_neg hc, if_neg (by omega), C72_reject _ _ _ _ _ (Or.inl (by omega))]
    exact ⟨_, rfl⟩

/-- Witness: nine rows. -/
example : ∃ par, velocityPolynomParallel squareLib 7 (List.replicate 9 ⟨0, fun _ => 0, fun _ => nan⟩) 9 2 = .ok par ∧ par.length = 3 := by
  obtain ⟨par, _, h, _, h2, _⟩ := C72_false squareLib (List.replicate 9 ⟨0, fun _ => 0, fun _ => nan⟩) 2 (by simp) (fun _ _ => ⟨_, rfl⟩)
  exact ⟨par, h, by simpa using h2⟩

end Up4
