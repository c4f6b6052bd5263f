import Verif.Props.Concentration
import Verif.Props.UsedGrid

set_option linter.unusedSectionVars false

/-! # C39: speed histogram -/

namespace Up4
open F
open Selector (at')

variable {K : Type} [Field K] [LinearOrder K] [IsStrictOrderedRing K] [FloorRing K] [Arith K]

/-- Speed of a sample. -/
def speedOf (file : ℕ → Timestep K) (x : ℕ × ℕ) : F K := (file x.1).speed x.2

/-- The bin number the code computes for a sample. -/
def binNo (edges : List (F K)) (v : F K) : ℕ := binOf (edges.getD 0 F.nan) (edges.getD 1 F.nan) v

theorem hist_fill (p : Profile) (grid : Grid K) (edges : List (F K)) (hedges : 2 ≤ edges.length) (bins : ℕ) (hb : 1 ≤ bins)
    (hb' : bins ≤ 2 ^ 63) (file : ℕ → Timestep K) (L : List (ℕ × ℕ))
    (hL : ∀ x ∈ L, x.2 < (file x.1).position.length ∧ (file x.1).Wf) (h : Arr 1 (F K)) (hs : h.shape = ![bins]) :
    ∃ h', L.foldlM (fun s x => histogramBody p grid edges bins s (file x.1) x.2) h = .ok h' ∧ h'.shape = ![bins] ∧
      ∀ k, k < bins → h'.get ![k] = (List.replicate (L.countP fun x => grid.isInside (posOf file x) &&
        decide (binNo edges (speedOf file x) = k)) 1).foldl (· + ·) (h.get ![k]) := by
  induction L generalizing h with
  | nil => exact ⟨h, rfl, hs, fun k _ => rfl⟩
  | cons x L ih =>
    obtain ⟨t, i⟩ := x
    obtain ⟨hi, hwt⟩ := hL (t, i) (by simp)
    rw [List.foldlM_cons]
    have ih := ih (fun x hx => hL x (by simp [hx]))
    by_cases hin : grid.isInside (posOf file (t, i)) = true
    · have e : histogramBody p grid edges bins h (file t) i =
          if binNo edges (speedOf file (t, i)) > bins - 1 then .ok h
          else .ok { h with get := Function.update h.get ![binNo edges (speedOf file (t, i))] (h.get ![binNo edges (speedOf file (t, i))] + 1) } := by
        unfold histogramBody
        rw [at_pos hi, run_bind_ok, if_pos (show grid.isInside ((file t).pos i) = true from hin), at_vel hwt hi, run_bind_ok,
          at_ok (by omega) F.nan, run_bind_ok, at_ok (by omega) F.nan, run_bind_ok]
        simp only [usub_ok p hb hb', run_bind_ok]
        change (if binNo edges (speedOf file (t, i)) > bins - 1 then _ else _) = _
        by_cases hgt : binNo edges (speedOf file (t, i)) > bins - 1
        · rw [if_pos hgt, if_pos hgt]; rfl
        · rw [if_neg hgt, if_neg hgt]
          exact Arr.addAt_ok h (by intro a; rw [hs]; fin_cases a; simp; change binNo edges (speedOf file (t, i)) < bins; omega) 1
      change ∃ h', (histogramBody p grid edges bins h (file t) i >>= _) = _ ∧ _
      by_cases hgt : binNo edges (speedOf file (t, i)) > bins - 1
      · rw [e, if_pos hgt, run_bind_ok]
        obtain ⟨h', f1, f2, f3⟩ := ih h hs
        refine ⟨h', f1, f2, fun k hk => ?_⟩
        have : ¬ binNo edges (speedOf file (t, i)) = k := by omega
        rw [f3 k hk, List.countP_cons_of_neg (by simp [this])]
      · rw [e, if_neg hgt, run_bind_ok]
        obtain ⟨h', f1, f2, f3⟩ := ih ⟨h.shape, Function.update h.get ![binNo edges (speedOf file (t, i))]
            (h.get ![binNo edges (speedOf file (t, i))] + 1)⟩ hs
        refine ⟨h', f1, f2, fun k hk => ?_⟩
        rw [f3 k hk]
        by_cases hk' : binNo edges (speedOf file (t, i)) = k
        · rw [List.countP_cons_of_pos (by simp [hin, hk']), List.replicate_succ, List.foldl_cons, ← hk']
          dsimp only
          rw [Function.update_self]
        · rw [List.countP_cons_of_neg (by simp [hk'])]
          have hne : (![k] : Fin 1 → ℕ) ≠ ![binNo edges (speedOf file (t, i))] := by
            intro h; exact hk' (by simpa using (congrFun h 0).symm)
          dsimp only
          rw [Function.update_of_ne hne]
    · have e : histogramBody p grid edges bins h (file t) i = .ok h := by
        unfold histogramBody
        rw [at_pos hi, run_bind_ok, if_neg (show ¬ grid.isInside ((file t).pos i) = true from hin)]; rfl
      change ∃ h', (histogramBody p grid edges bins h (file t) i >>= _) = _ ∧ _
      rw [e, run_bind_ok]
      obtain ⟨h', f1, f2, f3⟩ := ih h hs
      refine ⟨h', f1, f2, fun k hk => ?_⟩
      rw [f3 k hk, List.countP_cons_of_neg (by simp [hin])]

theorem binEdges_length (st : Stats K) (m : F K) (bins : ℕ) : (binEdges st m bins).length = bins + 1 := by
  simp [binEdges]

/-- `histogram` in any lawful arithmetic: entry `k` counts the samples inside the grid with bin number `k`. -/
theorem histogram_run [LawfulArith K] (p : Profile) (d : Dm (Timestep K)) (hd : d.Inv) (st : Stats K) (grid : Grid K)
    (sel : Selector K) (hs : sel.Usable) (hw : ∀ t, t < d.n → (d.file t).Wf) (hlen : (d.samples sel).length ≤ 2 ^ 53)
    (maxLimit : F K) (bins : ℕ) (hb : 1 ≤ bins) (hb' : bins ≤ 2 ^ 53) :
    ∃ d' h, histogram p d st grid sel "velocity" maxLimit bins = .ok (d', h, binEdges st maxLimit bins) ∧ d'.Inv ∧
      d'.file = d.file ∧ d'.n = d.n ∧ h.shape = ![bins] ∧
      ∀ k, k < bins → h.get ![k] = fin (((d.samples sel).countP fun x => grid.isInside (posOf d.file x) &&
        decide (binNo (binEdges st maxLimit bins) (speedOf d.file x) = k) : ℕ) : K) := by
  obtain ⟨b, hb1, _, e⟩ := loop_eq (K := K) p sel hs d hd hw (List.range d.n) (fun t ht => List.mem_range.1 ht)
    (histogramBody p grid (binEdges st maxLimit bins) bins) (Arr.const ![bins] 0)
  obtain ⟨h, h1, h2, h3⟩ := hist_fill p grid (binEdges st maxLimit bins) (by rw [binEdges_length]; omega) bins hb (by omega)
    d.file (d.samples sel) (by
      rintro ⟨t, i⟩ hx
      obtain ⟨ht, _, hi, _⟩ := (mem_samples _ _ _ _ _).1 hx
      exact ⟨hi, hw t (List.mem_range.1 ht)⟩) (Arr.const ![bins] 0) rfl
  refine ⟨{ d with main := b }, h, ?_, ⟨hb1, hd.2⟩, rfl, rfl, h2, fun k hk => ?_⟩
  · unfold histogram
    rw [if_pos rfl]
    dsimp only
    rw [allSteps_eq p d hd, run_bind_ok, e]
    change ((((d.samples sel).foldlM _ _ >>= _) : Run _) >>= _) = _
    rw [h1]; rfl
  · rw [h3 k hk]
    exact ones_zero _ (List.countP_le_length.trans hlen)

/-- The upper end of the histogram: the given limit, or the largest recorded speed if the limit is 0. -/
def histMax (st : Stats K) (maxLimit : F K) : F K := if F.eqB maxLimit 0 then st.speed 2 else maxLimit

/-- In exact arithmetic the edges divide `[mn, mx]` into `bins` equal intervals. -/
theorem binEdges_exact [ExactArith K] (st : Stats K) (maxLimit : F K) {bins : ℕ} (hb : 1 ≤ bins) {mn mx : K}
    (h1 : st.speed 0 = fin mn) (h2 : histMax st maxLimit = fin mx) {k : ℕ} (hk : k ≤ bins) :
    (binEdges st maxLimit bins).getD k F.nan = fin (mn + k * ((mx - mn) / bins)) := by
  have hb0 : (bins : K) ≠ 0 := by exact_mod_cast (show bins ≠ 0 by omega)
  unfold histMax at h2
  unfold binEdges
  dsimp only
  rw [h1, h2, F.esub, F.eofNat, F.ediv _ hb0]
  rcases Nat.lt_or_eq_of_le hk with hlt | rfl
  · rw [List.getD_eq_getElem?_getD, List.getElem?_append_left (by simpa using hlt), List.getElem?_map, List.getElem?_range hlt]
    simp only [Option.map_some, Option.getD_some, F.eofNat, F.emul, F.eadd]
  · rw [List.getD_eq_getElem?_getD, List.getElem?_append_right (by simp)]
    simp only [List.length_map, List.length_range, Nat.sub_self, List.getElem?_cons_zero, Option.getD_some]
    congr 1
    field_simp
    ring

theorem binOf_exact [ExactArith K] {mn w s : K} (hw : 0 < w) {bins k : ℕ} (hb : bins ≤ 2 ^ 53) (hk : k < bins) :
    binOf (fin mn) (fin (mn + w)) (fin s) = k ↔ (k = 0 ∨ mn + k * w ≤ s) ∧ s < mn + (k + 1) * w := by
  unfold binOf
  rw [F.esub, F.esub, show mn + w - mn = w by ring, F.ediv _ hw.ne']
  change min ⌊((⌊(s - mn) / w⌋ : ℤ) : K)⌋₊ usizeMax = k ↔ _
  have hfl : ⌊((⌊(s - mn) / w⌋ : ℤ) : K)⌋₊ = ⌊(s - mn) / w⌋.toNat := by
    rw [← Int.floor_toNat, Int.floor_intCast]
  rw [hfl]
  have hu : k < usizeMax := by unfold usizeMax; omega
  have step : min ⌊(s - mn) / w⌋.toNat usizeMax = k ↔ ⌊(s - mn) / w⌋.toNat = k := by omega
  rw [step]
  have hdiv : ∀ j : K, j ≤ (s - mn) / w ↔ mn + j * w ≤ s := by
    intro j; rw [le_div_iff₀ hw]; constructor <;> intro h <;> linarith
  have hdiv' : ∀ j : K, (s - mn) / w < j ↔ s < mn + j * w := by
    intro j; rw [div_lt_iff₀ hw]; constructor <;> intro h <;> linarith
  have lt_iff : ⌊(s - mn) / w⌋ < (k : ℤ) + 1 ↔ s < mn + (k + 1) * w := by
    rw [Int.floor_lt, hdiv']; push_cast; rfl
  have ge_iff : (k : ℤ) ≤ ⌊(s - mn) / w⌋ ↔ mn + k * w ≤ s := by
    rw [Int.le_floor]; push_cast; exact hdiv _
  rw [← lt_iff, ← ge_iff]
  omega

/-- **C39 (partial).** `histogram` in exact arithmetic, for every dataset whose selected samples inside the grid have finite
speeds `s x`: the edges are `mn + k (mx-mn)/bins`, and bin `k` counts exactly the samples with speed in `[edge k, edge (k+1))` —
except that bin 0 has no lower end. What is missing from C39: samples at the highest edge are dropped, and samples below
the lowest edge are counted in bin 0 (`C39_false`). -/
theorem C39_histogram_partial [LawfulArith K] [ExactArith K] (p : Profile) (d : Dm (Timestep K)) (hd : d.Inv) (st : Stats K)
    (grid : Grid K) (sel : Selector K) (hs : sel.Usable) (hw : ∀ t, t < d.n → (d.file t).Wf)
    (hlen : (d.samples sel).length ≤ 2 ^ 53) (maxLimit : F K) (bins : ℕ) (hb : 1 ≤ bins) (hb' : bins ≤ 2 ^ 53)
    (mn mx : K) (h1 : st.speed 0 = fin mn) (h2 : histMax st maxLimit = fin mx) (hlt : mn < mx)
    (s : ℕ × ℕ → K) (hsp : ∀ x ∈ d.samples sel, grid.isInside (posOf d.file x) = true → speedOf d.file x = fin (s x)) :
    ∃ d' h edges, histogram p d st grid sel "velocity" maxLimit bins = .ok (d', h, edges) ∧ d'.Inv ∧
      d'.file = d.file ∧ d'.n = d.n ∧ h.shape = ![bins] ∧ edges.length = bins + 1 ∧
      (∀ k, k ≤ bins → edges.getD k F.nan = fin (mn + k * ((mx - mn) / bins))) ∧
      ∀ k, k < bins → h.get ![k] = fin (((d.samples sel).countP fun x => grid.isInside (posOf d.file x) &&
        decide ((k = 0 ∨ mn + k * ((mx - mn) / bins) ≤ s x) ∧ s x < mn + (k + 1) * ((mx - mn) / bins)) : ℕ) : K) := by
  obtain ⟨d', h, e1, e2, e3, e4, e5, e6⟩ := histogram_run p d hd st grid sel hs hw hlen maxLimit bins hb hb'
  refine ⟨d', h, _, e1, e2, e3, e4, e5, binEdges_length _ _ _, fun k hk => binEdges_exact st maxLimit hb h1 h2 hk, fun k hk => ?_⟩
  rw [e6 k hk]
  congr 2
  apply List.countP_congr
  intro x hx
  by_cases hin : grid.isInside (posOf d.file x) = true
  · rw [hin, Bool.true_and, Bool.true_and, decide_eq_true_eq, decide_eq_true_eq]
    unfold binNo
    rw [binEdges_exact st maxLimit hb h1 h2 (Nat.zero_le _), binEdges_exact st maxLimit hb h1 h2 hb, hsp x hx hin]
    have hw0 : 0 < (mx - mn) / (bins : K) := div_pos (sub_pos.2 hlt) (by exact_mod_cast hb)
    have := binOf_exact (K := K) (mn := mn) (s := s x) hw0 hb' hk
    simp only [Nat.cast_zero, zero_mul, add_zero, Nat.cast_one, one_mul]
    exact this
  · simp [hin]

/-- **C39 (partial), total.** If moreover no such sample is slower than the lowest edge, the bins together count exactly the
samples inside the grid with a speed strictly below the highest edge. -/
theorem C39_total_partial (L : List (ℕ × ℕ)) (ins : ℕ × ℕ → Bool) (bins : ℕ) (hb : 1 ≤ bins) (mn mx : K) (hlt : mn < mx)
    (s : ℕ × ℕ → K) (hmin : ∀ x ∈ L, ins x = true → mn ≤ s x) :
    ∑ k ∈ Finset.range bins, (L.countP fun x => ins x &&
        decide ((k = 0 ∨ mn + k * ((mx - mn) / bins) ≤ s x) ∧ s x < mn + (k + 1) * ((mx - mn) / bins))) =
      L.countP fun x => ins x && decide (s x < mx) := by
  induction L with
  | nil => simp
  | cons x L ih =>
    have ih := ih (fun y hy => hmin y (by simp [hy]))
    simp only [List.countP_cons, Finset.sum_add_distrib, ih]
    congr 1
    by_cases hin : ins x = true
    · simp only [hin, Bool.true_and, decide_eq_true_eq]
      have hge := hmin x (by simp) hin
      have hb0 : (0 : K) < bins := by exact_mod_cast hb
      have hw0 : 0 < (mx - mn) / (bins : K) := div_pos (sub_pos.2 hlt) hb0
      have hmx : mn + bins * ((mx - mn) / bins) = mx := by field_simp; ring
      set w := (mx - mn) / (bins : K) with hwdef
      by_cases hs : s x < mx
      · rw [if_pos hs]
        set j := ⌊(s x - mn) / w⌋₊ with hj
        have hnn : 0 ≤ (s x - mn) / w := div_nonneg (by linarith) hw0.le
        have j1 : mn + j * w ≤ s x := by
          have := Nat.floor_le hnn; rw [le_div_iff₀ hw0] at this; linarith
        have j2 : s x < mn + (j + 1) * w := by
          have := Nat.lt_floor_add_one ((s x - mn) / w); rw [div_lt_iff₀ hw0] at this; linarith
        have hjb : j < bins := by
          by_contra hc
          have hc : (bins : K) ≤ j := by exact_mod_cast not_lt.1 hc
          have : (bins : K) * w ≤ j * w := mul_le_mul_of_nonneg_right hc hw0.le
          linarith
        rw [Finset.sum_eq_single j]
        · rw [if_pos ⟨Or.inr j1, j2⟩]
        · intro k _ hkj
          rw [if_neg]
          rintro ⟨k1, k2⟩
          have k1' : mn + k * w ≤ s x := by
            rcases k1 with rfl | k1
            · simpa using hge
            · exact k1
          apply hkj
          have a1 : (k : K) < j + 1 := by
            by_contra hc
            have := mul_le_mul_of_nonneg_right (not_lt.1 hc) hw0.le; linarith
          have a2 : (j : K) < k + 1 := by
            by_contra hc
            have := mul_le_mul_of_nonneg_right (not_lt.1 hc) hw0.le; linarith
          have a1 : k < j + 1 := by exact_mod_cast a1
          have a2 : j < k + 1 := by exact_mod_cast a2
          omega
        · intro h; exact absurd (Finset.mem_range.2 hjb) h
      · rw [if_neg hs]
        apply Finset.sum_eq_zero
        intro k hk
        rw [if_neg]
        rintro ⟨_, k2⟩
        have : (k : K) + 1 ≤ bins := by exact_mod_cast (Finset.mem_range.1 hk)
        have := mul_le_mul_of_nonneg_right this hw0.le
        linarith
    · simp [hin]

/-- **C39 is false.** One particle with speed 1, inside the grid. With edges `1/2, 1` its speed is the highest edge and it is not
counted; with edges `2, 3` its speed lies below the lowest edge and it is counted in bin 0. (Exact arithmetic.) -/
theorem C39_false [LawfulArith K] [ExactArith K] (p : Profile) (kind : Kind) (hdims : Fin 3 → F K × F K) :
    ∃ d : Dm (Timestep K), Dm.new p kind (fun _ => oneStep) 1 Timestep.default = .ok d ∧
      d.samples Selector.default = [(0, 0)] ∧ speedOf d.file (0, 0) = fin 1 ∧
      (∃ d' h, histogram p d ⟨hdims, 1, [fin 0], ![fin (1 / 2), fin 1, fin 1]⟩ unitGrid Selector.default "velocity" 0 1 =
        .ok (d', h, [fin (1 / 2), fin 1]) ∧ h.get ![0] = fin 0) ∧
      (∃ d' h, histogram p d ⟨hdims, 1, [fin 0], ![fin 2, fin 2, fin 2]⟩ unitGrid Selector.default "velocity" (fin 3) 1 =
        .ok (d', h, [fin 2, fin 3]) ∧ h.get ![0] = fin 1) := by
  obtain ⟨d, e, hinv, hf, hn, _⟩ := Dm.new_ok p kind (fun _ => oneStep (K := K)) 1 Timestep.default (by norm_num) (by norm_num)
  have hw : ∀ t, t < d.n → (d.file t).Wf := fun t _ => by rw [hf]; exact ⟨rfl, rfl, rfl, rfl, rfl, rfl⟩
  have hS : d.samples Selector.default = [(0, 0)] := by unfold Dm.samples; rw [hf, hn]; exact one_samples
  have hsp : speedOf d.file (0, 0) = fin 1 := by
    rw [hf]
    change (fin 1 * fin 1 + fin 0 * fin 0 + fin 0 * fin 0 : F K).sqrt = fin 1
    rw [F.emul, F.emul, F.eadd, F.eadd]
    obtain ⟨T, t1, t2, t3⟩ := sqrt_root (K := K) (x := 1 * 1 + 0 * 0 + 0 * 0) (by norm_num)
    rw [t1]
    congr 1
    nlinarith
  have hin : (unitGrid (K := K)).isInside (posOf d.file (0, 0)) = true := by
    have := unit_lookup (K := K) p
    unfold inCell at this
    rw [Bool.and_eq_true] at this
    rw [hf]; exact this.1
  have h01 : F.eqB (0 : F K) 0 = true := by simp [F.eqB]
  have h30 : F.eqB (fin 3 : F K) 0 = false := by simp [F.eqB]
  refine ⟨d, e, hS, hsp, ?_, ?_⟩
  · obtain ⟨d', h, edges, e1, _, _, _, _, e5, e6, e7⟩ := C39_histogram_partial p d hinv
      ⟨hdims, 1, [fin 0], ![fin (1 / 2), fin 1, fin 1]⟩ unitGrid Selector.default usable_default hw (by rw [hS]; norm_num)
      0 1 le_rfl (by norm_num) (1 / 2) 1 rfl (by unfold histMax; rw [h01]; rfl) (by norm_num)
      (fun _ => 1) (by intro x hx _; rw [hS] at hx; rw [List.mem_singleton.1 hx, hsp])
    refine ⟨d', h, ?_, ?_⟩
    · rw [e1]
      match edges, e5, e6 with
      | [a, b], _, e6 =>
        have a0 := e6 0 (by norm_num)
        have a1 := e6 1 le_rfl
        simp at a0 a1
        rw [a0, a1]; norm_num
    · rw [e7 0 (by norm_num), hS]
      norm_num [List.countP_cons, hin]
  · obtain ⟨d', h, edges, e1, _, _, _, _, e5, e6, e7⟩ := C39_histogram_partial p d hinv
      ⟨hdims, 1, [fin 0], ![fin 2, fin 2, fin 2]⟩ unitGrid Selector.default usable_default hw (by rw [hS]; norm_num)
      (fin 3) 1 le_rfl (by norm_num) 2 3 rfl (by unfold histMax; rw [h30]; rfl) (by norm_num)
      (fun _ => 1) (by intro x hx _; rw [hS] at hx; rw [List.mem_singleton.1 hx, hsp])
    refine ⟨d', h, ?_, ?_⟩
    · rw [e1]
      match edges, e5, e6 with
      | [a, b], _, e6 =>
        have a0 := e6 0 (by norm_num)
        have a1 := e6 1 le_rfl
        simp at a0 a1
        rw [a0, a1]
    · rw [e7 0 (by norm_num), hS]
      norm_num [List.countP_cons, hin]

end Up4
