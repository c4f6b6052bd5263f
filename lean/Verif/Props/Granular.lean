import Verif.Proofs.Sums

set_option linter.unusedSectionVars false

/-! # C40: granular temperature -/

namespace Up4
open F
open Selector (at')

variable {K : Type} [Field K] [LinearOrder K] [IsStrictOrderedRing K] [FloorRing K] [Arith K]

/-- What the square of the granular temperature should be: the mean squared fluctuation of one velocity component,
or the average of the three. -/
def fluctuation (mode : String) (v : Fin 3 → List K) : K :=
  if mode = "x" then meanSqDev (v 0)
  else if mode = "y" then meanSqDev (v 1)
  else if mode = "z" then meanSqDev (v 2)
  else (meanSqDev (v 0) + meanSqDev (v 1) + meanSqDev (v 2)) / 3

theorem fluctuation_nonneg (mode : String) (v : Fin 3 → List K) : 0 ≤ fluctuation mode v := by
  unfold fluctuation
  split_ifs
  · exact meanSqDev_nonneg _
  · exact meanSqDev_nonneg _
  · exact meanSqDev_nonneg _
  · have := meanSqDev_nonneg (v 0); have := meanSqDev_nonneg (v 1); have := meanSqDev_nonneg (v 2)
    positivity

theorem fluct_spec (sq sum cnt : Arr 3 (F K)) (h1 : sum.shape = sq.shape) (h2 : cnt.shape = sq.shape) :
    ∃ r, fluct sq sum cnt = .ok r ∧ r.shape = sq.shape ∧
      ∀ c, InB sq.shape c → r.get c = sq.get c - sum.get c * sum.get c / cnt.get c := by
  obtain ⟨a, ha, has, hag⟩ := Arr.zipWith_same (· * ·) sum sum rfl
  obtain ⟨b, hb, hbs, hbg⟩ := Arr.zipWith_same (· / ·) a cnt (has.trans (h1.trans h2.symm))
  obtain ⟨r, hr, hrs, hrg⟩ := Arr.zipWith_same (· - ·) sq b ((hbs.trans (has.trans h1)).symm)
  refine ⟨r, ?_, hrs, fun c hc => ?_⟩
  · unfold fluct; rw [ha, run_bind_ok, hb, run_bind_ok, hr]
  · rw [hrg c hc, hbg c (by rw [has, h1]; exact hc), hag c (by rw [h1]; exact hc)]

/-- The value of `granularMode` at one cell. -/
def modeValue (mode : String) (x y z : F K) : F K :=
  if mode = "x" then x else if mode = "y" then y else if mode = "z" then z else (x + y + z) / F.ofNat 3

theorem granularMode_spec (mode : String) (hm : mode = "x" ∨ mode = "y" ∨ mode = "z" ∨ mode = "xyz") (x y z : Arr 3 (F K))
    (h1 : y.shape = x.shape) (h2 : z.shape = x.shape) :
    ∃ r, granularMode mode x y z = .ok r ∧ r.shape = x.shape ∧
      ∀ c, InB x.shape c → r.get c = modeValue mode (x.get c) (y.get c) (z.get c) := by
  unfold granularMode modeValue
  by_cases m1 : mode = "x"
  · simp only [if_pos m1]; exact ⟨x, rfl, rfl, fun _ _ => rfl⟩
  by_cases m2 : mode = "y"
  · simp only [if_neg m1, if_pos m2]; exact ⟨y, rfl, h1, fun _ _ => rfl⟩
  by_cases m3 : mode = "z"
  · simp only [if_neg m1, if_neg m2, if_pos m3]; exact ⟨z, rfl, h2, fun _ _ => rfl⟩
  have m4 : mode = "xyz" := by tauto
  simp only [if_neg m1, if_neg m2, if_neg m3, if_pos m4]
  obtain ⟨a, ha, has, hag⟩ := Arr.zipWith_same (· + ·) x y h1.symm
  obtain ⟨b, hb, hbs, hbg⟩ := Arr.zipWith_same (· + ·) a z (has.trans h2.symm)
  refine ⟨b.map (· / F.ofNat 3), ?_, hbs.trans has, fun c hc => ?_⟩
  · rw [ha, run_bind_ok, hb, run_bind_ok]; rfl
  · change b.get c / _ = _
    rw [hbg c (by rw [has]; exact hc), hag c hc]

/-- `granular_temperature_field` in any arithmetic: the accumulated sums and the formula evaluated per cell. -/
theorem granular_run [LawfulArith K] (p : Profile) (d : Dm (Timestep K)) (hd : d.Inv) (grid : Grid K)
    (hg : grid.Fillable p) (sel : Selector K) (hs : sel.Usable) (hw : ∀ t, t < d.n → (d.file t).Wf)
    (mode : String) (hm : mode = "x" ∨ mode = "y" ∨ mode = "z" ∨ mode = "xyz") :
    ∃ d' g', granularTemperature p d grid sel mode = .ok (d', g') ∧ d'.Inv ∧ d'.file = d.file ∧ d'.n = d.n ∧
      g'.geom = grid.geom ∧ g'.Shaped ∧ ∀ c, InB grid.geom.cells c →
        let S := (d.samples sel).filter fun x => inCell p grid.geom (posOf d.file x) c
        let z := grid.st.data.get c
        let Q := fun a => (S.map fun x => velOf d.file x a * velOf d.file x a).foldl (· + ·) z
        let M := fun a => (S.map fun x => velOf d.file x a).foldl (· + ·) z
        let N := (List.replicate S.length 1).foldl (· + ·) z
        let fl := fun a => Q a - M a * M a / N
        g'.st.weight.get c = N ∧ g'.st.data.get c = (modeValue mode (fl 0) (fl 1) (fl 2) / N).sqrt := by
  obtain ⟨b, hb, _, e⟩ := loop_eq (K := K) p sel hs d hd hw (List.range d.n) (fun t ht => List.mem_range.1 ht)
    (granularBody p grid) (Sums.init grid)
  have hsh : (Sums.init grid).Shaped grid.geom.cells := ⟨fun _ => hg.1.1, fun _ => hg.1.1, hg.1.1⟩
  obtain ⟨s, h1, h2, h3⟩ := sums_fill p grid.geom hg.2 (d.samples sel) (posOf d.file) (velOf d.file) (Sums.init grid) hsh
  have hbody : (d.samples sel).foldlM (fun s x => granularBody p grid s (d.file x.1) x.2) (Sums.init grid) = .ok s := by
    rw [← h1]
    apply foldlM_congr
    rintro s ⟨t, i⟩ hx
    obtain ⟨ht, _, hi, _⟩ := (mem_samples _ _ _ _ _).1 hx
    have hwt := hw t (List.mem_range.1 ht)
    unfold granularBody
    rw [at_pos hi, run_bind_ok, at_vel hwt hi, run_bind_ok]
    rfl
  obtain ⟨k1, k2, k3⟩ := h2
  have FL := fun a : Fin 3 => fluct_spec (s.sq a) (s.sum a) s.cnt ((k2 a).trans (k1 a).symm) (k3.trans (k1 a).symm)
  choose f hf1 hf2 hf3 using FL
  obtain ⟨t, ht1, ht2, ht3⟩ := granularMode_spec mode hm (f 0) (f 1) (f 2)
    (((hf2 1).trans (k1 1)).trans ((hf2 0).trans (k1 0)).symm) (((hf2 2).trans (k1 2)).trans ((hf2 0).trans (k1 0)).symm)
  have hts : t.shape = grid.geom.cells := ht2.trans ((hf2 0).trans (k1 0))
  obtain ⟨q, hq1, hq2, hq3⟩ := Arr.zipWith_same (· / ·) t s.cnt (hts.trans k3.symm)
  have hqs : q.shape = grid.geom.cells := hq2.trans hts
  refine ⟨{ d with main := b }, { grid.newZeros with st := ⟨q.map F.sqrt, s.cnt⟩ }, ?_, ⟨hb, hd.2⟩, rfl, rfl, rfl, ⟨hqs, k3⟩, ?_⟩
  · unfold granularTemperature
    rw [allSteps_eq p d hd, run_bind_ok, e]
    change ((((d.samples sel).foldlM _ _ >>= _) : Run _) >>= _) = _
    rw [hbody, run_bind_ok, run_bind_ok]
    dsimp only
    rw [hf1 0, run_bind_ok, hf1 1, run_bind_ok, hf1 2, run_bind_ok, ht1, run_bind_ok, hq1, run_bind_ok]
    unfold Grid.setData Store.setData
    rw [if_pos (show grid.newZeros.st.data.shape = (q.map F.sqrt).shape from hqs.symm), run_bind_ok, run_pure, run_bind_ok]
    unfold Grid.setWeights Store.setWeights
    rw [if_pos (show grid.newZeros.st.weight.shape = s.cnt.shape from hg.1.2.trans k3.symm)]
    rfl
  · intro c hc
    obtain ⟨e1, e2, e3⟩ := h3 c
    intro S z Q M N fl
    have hc0 : InB (s.sq 0).shape c := by rw [k1 0]; exact hc
    refine ⟨e3, ?_⟩
    change (q.get c).sqrt = _
    have hfl : ∀ a, (f a).get c = fl a := by
      intro a
      rw [hf3 a c (by rw [k1 a]; exact hc), e1 a, e2 a, e3]
      rfl
    rw [hq3 c (by rw [hts]; exact hc), ht3 c (by rw [hf2 0, k1 0]; exact hc), hfl 0, hfl 1, hfl 2, e3]
    rfl

/-- In exact arithmetic the square root of a nonnegative number is its nonnegative root. -/
theorem sqrt_root [ExactArith K] {x : K} (h : 0 ≤ x) : ∃ T, (fin x : F K).sqrt = fin T ∧ 0 ≤ T ∧ T * T = x := by
  obtain ⟨T, e1, e2, e3⟩ := ExactArith.sqrt_eq x h
  refine ⟨T, ?_, e2, e3⟩
  change (if x < 0 then F.nan else Arith.sqrtK x) = _
  rw [if_neg (not_lt.2 h), e1]

theorem map_fin {α : Type} (S : List α) (f : α → F K) (v : α → K) (h : ∀ x ∈ S, f x = fin (v x)) :
    S.map f = (S.map v).map F.fin := by
  rw [List.map_map]; exact List.map_congr_left h

/-- **C40.** Granular temperature on a grid without contents, exact arithmetic: for every dataset whose selected samples
inside the grid have finite velocities, a cell with samples holds the nonnegative number whose square is the mean squared
deviation of the velocity component from its mean over the samples of the cell (the average over the three components for
mode `xyz`), with the number of samples as weight; a cell without samples is NaN. -/
theorem C40_granular [LawfulArith K] [ExactArith K] (p : Profile) (d : Dm (Timestep K)) (hd : d.Inv) (grid : Grid K)
    (hg : grid.Fillable p) (hfresh : ∀ c, grid.st.data.get c = 0)
    (sel : Selector K) (hs : sel.Usable) (hw : ∀ t, t < d.n → (d.file t).Wf)
    (v : ℕ × ℕ → Fin 3 → K)
    (hv : ∀ x ∈ d.samples sel, grid.isInside (posOf d.file x) = true → ∀ a, velOf d.file x a = F.fin (v x a))
    (mode : String) (hm : mode = "x" ∨ mode = "y" ∨ mode = "z" ∨ mode = "xyz") :
    ∃ d' g', granularTemperature p d grid sel mode = .ok (d', g') ∧ d'.Inv ∧ d'.file = d.file ∧ d'.n = d.n ∧
      g'.geom = grid.geom ∧ ∀ c, InB grid.geom.cells c →
        let S := (d.samples sel).filter fun x => inCell p grid.geom (posOf d.file x) c
        g'.st.weight.get c = fin (S.length : K) ∧
        (S = [] → g'.st.data.get c = F.nan) ∧
        (S ≠ [] → ∃ T : K, g'.st.data.get c = fin T ∧ 0 ≤ T ∧ T * T = fluctuation mode fun a => S.map fun x => v x a) := by
  obtain ⟨d', g', h1, h2, h3, h4, h5, _, h6⟩ := granular_run p d hd grid hg sel hs hw mode hm
  refine ⟨d', g', h1, h2, h3, h4, h5, fun c hc => ?_⟩
  obtain ⟨k1, k2⟩ := h6 c hc
  intro S
  rw [hfresh c, F.zero_def] at k1 k2
  have hN : (List.replicate S.length (1 : F K)).foldl (· + ·) (fin 0) = fin (S.length : K) := by
    rw [foldl_ones_exact, zero_add]
  have hS : ∀ x ∈ S, ∀ a, velOf d.file x a = F.fin (v x a) := by
    intro x hx a
    obtain ⟨h1, h2⟩ := List.mem_filter.1 hx
    unfold inCell at h2
    rw [Bool.and_eq_true] at h2
    exact hv x h1 h2.1 a
  have hM : ∀ a, (S.map fun x => velOf d.file x a).foldl (· + ·) (fin 0) = fin (S.map fun x => v x a).sum := by
    intro a
    rw [map_fin S _ (fun x => v x a) (fun x hx => hS x hx a), foldl_fin, zero_add]
  have hQ : ∀ a, (S.map fun x => velOf d.file x a * velOf d.file x a).foldl (· + ·) (fin 0) =
      fin (((S.map fun x => v x a)).map fun y => y * y).sum := by
    intro a
    rw [map_fin S _ (fun x => v x a * v x a) (fun x hx => by rw [hS x hx a, F.emul]), foldl_fin, zero_add, List.map_map]
    rfl
  rw [hN] at k1
  simp only [] at k2
  change g'.st.data.get c = (modeValue mode
    ((S.map fun x => velOf d.file x 0 * velOf d.file x 0).foldl (· + ·) (fin 0) - (S.map fun x => velOf d.file x 0).foldl (· + ·) (fin 0) * (S.map fun x => velOf d.file x 0).foldl (· + ·) (fin 0) / (List.replicate S.length (1 : F K)).foldl (· + ·) (fin 0))
    ((S.map fun x => velOf d.file x 1 * velOf d.file x 1).foldl (· + ·) (fin 0) - (S.map fun x => velOf d.file x 1).foldl (· + ·) (fin 0) * (S.map fun x => velOf d.file x 1).foldl (· + ·) (fin 0) / (List.replicate S.length (1 : F K)).foldl (· + ·) (fin 0))
    ((S.map fun x => velOf d.file x 2 * velOf d.file x 2).foldl (· + ·) (fin 0) - (S.map fun x => velOf d.file x 2).foldl (· + ·) (fin 0) * (S.map fun x => velOf d.file x 2).foldl (· + ·) (fin 0) / (List.replicate S.length (1 : F K)).foldl (· + ·) (fin 0))
    / (List.replicate S.length (1 : F K)).foldl (· + ·) (fin 0)).sqrt at k2
  simp only [hN, hM, hQ] at k2
  refine ⟨k1, fun hnil => ?_, fun hne => ?_⟩
  · have e0 : (fin (0 : K) - fin 0 * fin 0 / fin 0 : F K) = F.nan := by
      rw [F.emul, F.div_fin]; simp [F.infTimes]
    have : modeValue mode (F.nan : F K) F.nan F.nan = F.nan := by unfold modeValue; split_ifs <;> simp
    rw [k2, hnil]
    simp only [List.map_nil, List.sum_nil, List.length_nil, Nat.cast_zero, e0, this]
    rfl
  · have hpos : (S.length : K) ≠ 0 := by exact_mod_cast (List.length_pos_iff.2 hne).ne'
    have hlen : ∀ a : Fin 3, (S.map fun x => v x a).length = S.length := fun a => List.length_map _
    have hfl : ∀ a, (fin (((S.map fun x => v x a)).map fun y => y * y).sum - fin (S.map fun x => v x a).sum *
        fin (S.map fun x => v x a).sum / fin (S.length : K) : F K) = fin (meanSqDev (S.map fun x => v x a) * S.length) := by
      intro a
      have hid := var_identity (S.map fun x => v x a) (by simpa using hne)
      rw [F.emul, F.ediv _ hpos, F.esub, ← hid, hlen a]
      congr 1
      field_simp
    simp only [hfl] at k2
    have hmv : modeValue mode (fin (meanSqDev (S.map fun x => v x 0) * S.length)) (fin (meanSqDev (S.map fun x => v x 1) * S.length))
        (fin (meanSqDev (S.map fun x => v x 2) * S.length)) = fin (fluctuation mode (fun a => S.map fun x => v x a) * S.length) := by
      unfold modeValue fluctuation
      split_ifs
      · rfl
      · rfl
      · rfl
      · rw [F.eadd, F.eadd, F.eofNat, F.ediv _ (by norm_num)]
        congr 1
        push_cast
        ring
    rw [hmv, F.ediv _ hpos, mul_div_assoc, div_self hpos, mul_one] at k2
    have hnn := fluctuation_nonneg mode (fun a => S.map fun x => v x a)
    obtain ⟨T, e1, e2, e3⟩ := sqrt_root hnn
    exact ⟨T, k2.trans e1, e2, e3⟩

/-- Witness for C40: the demo dataset has finite velocities. -/
example (x : ℕ × ℕ) (hx : x ∈ (List.range 4).map fun t => (t, 0)) (a : Fin 3) :
    velOf demoFile x a = F.fin ((![3, 0, 4] : Fin 3 → ℝ) a) := by
  simp only [List.mem_map, List.mem_range] at hx
  obtain ⟨t, _, rfl⟩ := hx
  fin_cases a <;> rfl

/-- **C40, unknown mode.** Any other mode is rejected: the call never returns a field. -/
theorem C40_unknown_mode (p : Profile) (d : Dm (Timestep K)) (grid : Grid K) (sel : Selector K) (mode : String)
    (hm : mode ∉ ["x", "y", "z", "xyz"]) (r : Dm (Timestep K) × Grid K) : granularTemperature p d grid sel mode ≠ .ok r := by
  intro h
  simp only [List.mem_cons, List.not_mem_nil, or_false, not_or] at hm
  unfold granularTemperature at h
  obtain ⟨_, _, h⟩ := run_bind_inv h
  obtain ⟨_, _, h⟩ := run_bind_inv h
  obtain ⟨_, _, h⟩ := run_bind_inv h
  obtain ⟨_, _, h⟩ := run_bind_inv h
  obtain ⟨_, _, h⟩ := run_bind_inv h
  obtain ⟨_, e, h⟩ := run_bind_inv h
  unfold granularMode at e
  rw [if_neg hm.1, if_neg hm.2.1, if_neg hm.2.2.1, if_neg hm.2.2.2] at e
  cases e

end Up4
