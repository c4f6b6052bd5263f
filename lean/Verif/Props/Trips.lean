import Verif.Props.Whole

/-!
C148: the trajectory of a particle taken out of one dataset with `extract`, written as a table and converted again, is the same trajectory.
-/

set_option linter.unusedSectionVars false

namespace Up4

open F

variable {K : Type} [Field K] [LinearOrder K] [IsStrictOrderedRing K] [FloorRing K] [Arith K]

/-! ### Specification -/

/-- The stored records of particle `i` in the steps `a … b-1`. -/
def trail (f : OnDisk K) (i a b : ℕ) : List (Row7 K) :=
  (List.range (b - a)).map fun k => ⟨(f.file (a + k)).time, (f.file (a + k)).pos i, (f.file (a + k)).vel i⟩

/-- A table with the columns time, position, velocity: what `extract` returns, and what a seven-column CSV file contains. -/
def tableOf (rows : List (Row7 K)) : List (List (F K)) := rows.map fun r => [r.t, r.p 0, r.p 1, r.p 2, r.v 0, r.v 1, r.v 2]

/-- Options of a conversion that reads such a table. -/
structure CsvOpts.Plain7 (o : CsvOpts K) : Prop where
  cols : o.cols = [0, 1, 2, 3, 4, 5, 6]
  vel : o.vel = false
  interp : o.interp = false

/-! ### Proof -/

theorem tableOf_rows (rows : List (Row7 K)) : List.Forall₂ (RowOf [0, 1, 2, 3, 4, 5, 6]) (tableOf rows) rows := by
  unfold tableOf
  induction rows with
  | nil => exact .nil
  | cons r l ih =>
    refine .cons ⟨rfl, fun j => ?_, fun j => ?_⟩ ih <;> fin_cases j <;> rfl

theorem trail_length (f : OnDisk K) (i a b : ℕ) : (trail f i a b).length = b - a := by
  unfold trail; rw [List.length_map, List.length_range]

theorem chain_lt {α : Type} [Preorder α] (t : ℕ → α) (a b : ℕ) (h : ∀ k, a ≤ k → k + 1 < b → t k < t (k + 1)) (i j : ℕ) (hi : a ≤ i) (hij : i < j) (hj : j < b) :
    t i < t j := by
  induction j, hij using Nat.le_induction with
  | base => exact h i hi hj
  | succ j hij ih => exact (ih (by omega)).trans (h j (by omega) hj)

theorem trail_sorted [LawfulArith K] (f : OnDisk K) (hf : f.Sound) (i a b : ℕ) (hab : a < b) (hb : b < f.n)
    (hinc : ∀ t, a ≤ t → t + 1 < b → (f.file t).time < (f.file (t + 1)).time) (hpos : 0 < (f.file a).time) (hv : (f.file a).vel i 2 ≠ nan) :
    ((trail f i a b).Pairwise fun x y => x.t < y.t) ∧ (∀ r ∈ trail f i a b, 0 < r.t) ∧ (∀ r ∈ trail f i a b, ∃ y : K, r.t = fin y) ∧
      ∃ r0, (trail f i a b).head? = some r0 ∧ r0.v 2 ≠ nan := by
  obtain ⟨τ, hτ⟩ := hf.clock
  have hfin : ∀ t, t < f.n → (f.file t).time = fin (τ t) := hτ.time
  have hlt : ∀ x y, a ≤ x → x < y → y < b → (f.file x).time < (f.file y).time := by
    intro x y h1 h2 h3
    rw [hfin x (by omega), hfin y (by omega), F.lt_fin]
    refine chain_lt τ a b (fun k hk hk' => ?_) x y h1 h2 h3
    have := hinc k hk hk'
    rwa [hfin k (by omega), hfin (k + 1) (by omega), F.lt_fin] at this
  refine ⟨?_, ?_, ?_, ⟨(f.file a).time, (f.file a).pos i, (f.file a).vel i⟩, ?_, hv⟩
  · unfold trail
    rw [List.pairwise_map]
    refine (List.pairwise_lt_range).imp_of_mem ?_
    intro x y _ hy hxy
    have := List.mem_range.1 hy
    exact hlt _ _ (by omega) (by omega) (by omega)
  · intro r hr
    unfold trail at hr
    obtain ⟨k, hk, rfl⟩ := List.mem_map.1 hr
    have := List.mem_range.1 hk
    rcases Nat.eq_zero_or_pos k with rfl | h0
    · exact hpos
    · have h1 := hlt a (a + k) le_rfl (by omega) (by omega)
      change 0 < (f.file (a + k)).time
      rw [hfin a (by omega), hfin (a + k) (by omega), F.lt_fin] at h1
      rw [hfin a (by omega), F.zero_def, F.lt_fin] at hpos
      rw [hfin (a + k) (by omega), F.zero_def, F.lt_fin]
      exact hpos.trans h1
  · intro r hr
    unfold trail at hr
    obtain ⟨k, hk, rfl⟩ := List.mem_map.1 hr
    have := List.mem_range.1 hk
    exact ⟨τ (a + k), hfin _ (by omega)⟩
  · unfold trail
    have : b - a = (b - a - 1) + 1 := by omega
    rw [this, List.range_succ_eq_map]
    rfl

/-- **C148, taking out.** On a sound file, after any calls with sensible arguments, `extract(i, (a, b))` returns the stored records of particle `i` in the
steps `a … b-1`. -/
theorem C148_extract [LawfulArith K] (p : Profile) (f : OnDisk K) (hf : f.Sound) (cs : List (Call K)) (hcs : ∀ c ∈ cs, c.Askable p f)
    (i a b : ℕ) (hab : a ≤ b) (hb : b < f.n) (hi : ∀ t, a ≤ t → t < b → i < (f.file t).position.length) :
    f.answer p (cs ++ [.extract i a b]) = .ok (some (.table (tableOf (trail f i a b)))) := by
  obtain ⟨s, as, e, _⟩ := C136_answers_partial p f hf cs hcs
  obtain ⟨kind, s1, s2, s3, s4⟩ := session_state p f hf.pos hf.small cs (fun c hc => askable_fits (hcs c hc)) e
  have hn : s.dm.n = f.n := s1.num
  obtain ⟨d', _, _, _, e'⟩ := C31_extract p s.dm s1.inv i a b hab (by rw [hn]; exact hb) (fun t h1 h2 => by
    rw [s1.fileEq]; exact ⟨hf.wf t (by omega), hi t h1 h2⟩)
  rw [answer_snoc, e, run_bind_ok]
  change ((Up4.extract p s.dm i a b >>= fun r => pure ({ s with dm := r.1 }, Answer.table r.2)) >>= fun r' => pure (some r'.2)) = _
  rw [e', run_bind_ok, run_pure, run_bind_ok, run_pure, s1.fileEq]
  unfold tableOf trail
  rw [List.map_map]
  rfl

/-- **C148, round trip** (partial: the recorded times must be positive, `C148_zero_false`). A trajectory of at least one step with finite, positive, strictly increasing
times, extracted, written as a seven-column table and converted: the conversion succeeds, every sequence of calls with sensible arguments answers, the converted file
has one timestep per step of the trajectory, at the same times, `extract` on it returns the rows of the first table, and the fields are those of its records. -/
theorem C148_roundtrip_partial [LawfulArith K] (lib : FitLib K) (o : CsvOpts K) (ho : o.Plain7) (p : Profile) (f : OnDisk K) (hf : f.Sound) (cs : List (Call K))
    (hcs : ∀ c ∈ cs, c.Askable p f) (i a b : ℕ) (hab : a < b) (hb : b < f.n) (hi : ∀ t, a ≤ t → t < b → i < (f.file t).position.length)
    (hinc : ∀ t, a ≤ t → t + 1 < b → (f.file t).time < (f.file (t + 1)).time) (hpos : 0 < (f.file a).time) (hv : (f.file a).vel i 2 ≠ nan) :
    ∃ table out, f.answer p (cs ++ [.extract i a b]) = .ok (some (.table table)) ∧ csvConvert lib o table = .ok out ∧
      ∀ (q : Profile) (cs' : List (Call K)), (∀ c ∈ cs', c.Askable q (out.onDisk q)) →
        (∃ s as, (out.onDisk q).session q cs' = .ok (s, as) ∧ as.length = cs'.length) ∧
        (out.onDisk q).answer q (cs' ++ [.len]) = .ok (some (.nat (b - a))) ∧
        (out.onDisk q).answer q (cs' ++ [.time]) = .ok (some (.nums ((List.range (b - a)).map fun k => (f.file (a + k)).time))) ∧
        (∀ a' b', a' ≤ b' → b' < b - a → (out.onDisk q).answer q (cs' ++ [.extract 0 a' b']) = .ok (some (.table ((table.drop a').take (b' - a'))))) ∧
        FieldsOf q (fun c => (out.onDisk q).answer q (cs' ++ [c])) ((rowsIn (windowOf cs') (trail f i a b)).map fun r => (r.p, r.v)) := by
  obtain ⟨τ, hτ⟩ := hf.clock
  set rows := trail f i a b with hrows
  have hget : ∀ k (hk : k < rows.length), rows[k] = ⟨(f.file (a + k)).time, (f.file (a + k)).pos i, (f.file (a + k)).vel i⟩ := by
    intro k hk
    simp only [hrows, trail, List.getElem_map, List.getElem_range]
  have hlen : rows.length = b - a := trail_length f i a b
  obtain ⟨s1, s2, s3, r0, s4, s5⟩ := trail_sorted f hf i a b hab hb hinc hpos hv
  have hsmall := hf.small
  have hl : rows.length ≤ 2 ^ 50 := by rw [hlen]; omega
  have hrow : List.Forall₂ (RowOf o.cols) (tableOf rows) rows := by rw [ho.cols]; exact tableOf_rows rows
  have h7 : o.cols.length = 7 := by rw [ho.cols]; rfl
  obtain ⟨out, e, hw⟩ := C123_csv_whole lib o ho.vel ho.interp h7 (tableOf rows) rows hrow s1 s2 s3 r0 s4 s5 hl
  obtain ⟨out', e', hsit⟩ := C91_csv lib o ho.vel ho.interp h7 (tableOf rows) rows hrow s1 s2 r0 s4 s5 hl
  cases e.symm.trans e'
  refine ⟨tableOf rows, out, C148_extract p f hf cs hcs i a b hab.le hb hi, e, fun q cs' hcs' => ?_⟩
  obtain ⟨⟨s, as, r, hr⟩, hfields⟩ := hw q cs' hcs'
  have hn : (out.onDisk q).n = rows.length := (hsit q [] (fun _ h => nomatch h) (by
    obtain ⟨⟨s, as, r, _⟩, _⟩ := hw q [] (fun _ h => nomatch h)
    exact ⟨_, r⟩)).holds.1.1
  obtain ⟨k1, k2, k3, k4, _⟩ := C91_rows (hsit q cs' (fun c hc => by rw [← hn]; exact askable_fits (hcs' c hc)) ⟨_, r⟩)
  refine ⟨⟨s, as, r, hr⟩, by rw [k3, hlen], ?_, fun a' b' h1 h2 => ?_, hfields⟩
  · rw [k4]
    simp only [hrows, trail, List.map_map]
    rfl
  · rw [k2 a' b' h1 (by rw [hlen]; exact h2)]
    unfold tableOf
    rw [← List.map_drop, ← List.map_take]

theorem kept_first_zero {r : Row7 K} {l kept : List (Row7 K)} (hs : (r :: l).Pairwise fun a b => a.t < b.t) (hr : ¬ 0 < r.t) (h0 : ∀ x ∈ l, 0 < x.t)
    (hk : Kept (r :: l) kept) : kept = l := by
  obtain ⟨k1, k2, k3, k4⟩ := hk
  obtain ⟨s1, s2⟩ := List.pairwise_cons.1 hs
  refine kept_all s2 h0 ⟨?_, k2, k3, fun a x b e hx hax => ?_⟩
  · cases k1 with
    | cons _ h => exact h
    | cons_cons _ h => exact absurd (k3 r List.mem_cons_self) hr
  · refine k4 (r :: a) x b (by rw [e]; rfl) hx ?_
    intro y hy
    rcases List.mem_cons.1 hy with rfl | hy
    · exact s1 x (by rw [e]; simp)
    · exact hax y hy

/-- **C148 fails** when the trajectory starts at time 0 (as simulations do): the conversion succeeds, and the file has one timestep less than the trajectory; the first
is the second of the trajectory. -/
theorem C148_zero_false [LawfulArith K] (lib : FitLib K) (o : CsvOpts K) (ho : o.Plain7) (p : Profile) (f : OnDisk K) (hf : f.Sound) (cs : List (Call K))
    (hcs : ∀ c ∈ cs, c.Askable p f) (i b : ℕ) (hab : 2 ≤ b) (hb : b < f.n) (hi : ∀ t, t < b → i < (f.file t).position.length)
    (hinc : ∀ t, t + 1 < b → (f.file t).time < (f.file (t + 1)).time) (h0 : (f.file 0).time = 0) (hv : (f.file 0).vel i 2 ≠ nan) :
    ∃ table out, f.answer p (cs ++ [.extract i 0 b]) = .ok (some (.table table)) ∧ table.length = b ∧ csvConvert lib o table = .ok out ∧
      ∀ q : Profile, (out.onDisk q).answer q [.len] = .ok (some (.nat (b - 1))) ∧
        (out.onDisk q).answer q [.time] = .ok (some (.nums ((List.range (b - 1)).map fun k => (f.file (1 + k)).time))) ∧
        ∀ a' b', a' ≤ b' → b' < b - 1 → (out.onDisk q).answer q [.extract 0 a' b'] = .ok (some (.table (((table.drop (a' + 1)).take (b' - a'))))) := by
  have hτ' := hf.clock
  obtain ⟨τ, hτ⟩ := hτ'
  have hfin : ∀ t, t < f.n → (f.file t).time = fin (τ t) := hτ.time
  have hlt : ∀ x y, x < y → y < b → (f.file x).time < (f.file y).time := by
    intro x y h2 h3
    rw [hfin x (by omega), hfin y (by omega), F.lt_fin]
    refine chain_lt τ 0 b (fun k _ hk' => ?_) x y (Nat.zero_le _) h2 h3
    have := hinc k hk'
    rwa [hfin k (by omega), hfin (k + 1) (by omega), F.lt_fin] at this
  have hsplit : trail f i 0 b = ⟨(f.file 0).time, (f.file 0).pos i, (f.file 0).vel i⟩ :: trail f i 1 b := by
    unfold trail
    have : b - 0 = (b - 1) + 1 := by omega
    rw [this, List.range_succ_eq_map, List.map_cons, List.map_map]
    refine congrArg₂ _ rfl (List.map_congr_left fun k _ => ?_)
    have e : 0 + (k + 1) = 1 + k := by omega
    simp only [Function.comp_apply, Nat.succ_eq_add_one, e]
  have hsorted : (trail f i 0 b).Pairwise fun x y => x.t < y.t := by
    unfold trail
    rw [List.pairwise_map]
    refine (List.pairwise_lt_range).imp_of_mem ?_
    intro x y _ hy hxy
    have := List.mem_range.1 hy
    exact hlt _ _ (by omega) (by omega)
  have hpos : ∀ r ∈ trail f i 1 b, 0 < r.t := by
    intro r hr
    unfold trail at hr
    obtain ⟨k, hk, rfl⟩ := List.mem_map.1 hr
    have := List.mem_range.1 hk
    have := hlt 0 (1 + k) (by omega) (by omega)
    rwa [h0] at this
  have hnan : ∀ r ∈ trail f i 0 b, r.t ≠ nan := by
    intro r hr
    unfold trail at hr
    obtain ⟨k, hk, rfl⟩ := List.mem_map.1 hr
    have := List.mem_range.1 hk
    change (f.file (0 + k)).time ≠ nan
    rw [hfin _ (by omega)]
    simp
  have hrow : List.Forall₂ (RowOf o.cols) (tableOf (trail f i 0 b)) (trail f i 0 b) := by rw [ho.cols]; exact tableOf_rows _
  obtain ⟨sorted, hby, hiff, hout⟩ := C65_csv lib o ho.vel ho.interp (by rw [ho.cols]; rfl) _ _ hrow hnan
  have := byTime_strict hsorted hby
  subst this
  have hrest : (trail f i 1 b).length = b - 1 := trail_length f i 1 b
  have hlen : (trail f i 0 b).length = b := trail_length f i 0 b
  have hcount : (trail f i 0 b).countP (fun x => decide (x.t ≤ 0)) ≤ 1 := by
    rw [hsplit, List.countP_cons]
    have : (trail f i 1 b).countP (fun x => decide (x.t ≤ 0)) = 0 := by
      rw [List.countP_eq_zero]
      intro x hx
      simp only [decide_eq_true_eq]
      exact fun h => F.not_lt_of_le' h (hpos x hx)
    rw [this]
    split_ifs <;> omega
  obtain ⟨out, e⟩ := hiff.2 ⟨⟨_, by rw [hsplit]; rfl, hv⟩, by omega, fun r _ _ => by
    have hnd : ((trail f i 0 b).map Row7.t).Nodup := by
      rw [List.nodup_iff_pairwise_ne, List.pairwise_map]
      refine hsorted.imp ?_
      intro x y h e
      rw [e] at h
      exact flt_asymm h h
    have := List.nodup_iff_count_le_one.1 hnd r.t
    rw [List.count, List.countP_map] at this
    refine le_trans (le_of_eq ?_) (le_trans this (by omega))
    apply List.countP_congr
    intro x _
    simp⟩
  obtain ⟨kept, hk, hh⟩ := hout out e
  have hk' : kept = trail f i 1 b := by
    rw [hsplit] at hk hsorted
    refine kept_first_zero hsorted ?_ hpos hk
    change ¬ 0 < (f.file 0).time
    rw [h0]
    exact fun h => flt_asymm h h
  subst hk'
  have hsmall := hf.small
  refine ⟨_, out, C148_extract p f hf cs hcs i 0 b (Nat.zero_le _) hb (fun t _ h => hi t h), ?_, e, fun q => ?_⟩
  · unfold tableOf; rw [List.length_map, hlen]
  obtain ⟨_, k2, k3, k4, _⟩ := C91_rows (onDisk_opens hh (by rw [hrest]; omega) (by rw [hrest]; omega) q)
  refine ⟨?_, ?_, fun a' b' g1 g2 => ?_⟩
  · rw [← hrest]; exact k3
  · refine k4.trans ?_
    simp only [trail, List.map_map]
    rfl
  · refine (k2 a' b' g1 (by rw [hrest]; exact g2)).trans ?_
    unfold tableOf
    rw [← List.map_drop, ← List.map_take, hsplit, List.drop_succ_cons]

/-- **C148 fails** at the end of a dataset: the last timestep cannot be extracted, so no extracted trajectory has all of them. -/
theorem C148_last_false [LawfulArith K] (p : Profile) (f : OnDisk K) (hf : f.Sound) (cs : List (Call K)) (hcs : ∀ c ∈ cs, c.Askable p f) (i a : ℕ) :
    f.answer p (cs ++ [.extract i a f.n]) = .error .explicit := by
  obtain ⟨s, as, e, _⟩ := C136_answers_partial p f hf cs hcs
  obtain ⟨kind, s1, s2, s3, s4⟩ := session_state p f hf.pos hf.small cs (fun c hc => askable_fits (hcs c hc)) e
  rw [answer_snoc, e, run_bind_ok]
  change ((Up4.extract p s.dm i a f.n >>= fun r => pure ({ s with dm := r.1 }, Answer.table r.2)) >>= fun r' => pure (some r'.2)) = _
  rw [C31_reject p s.dm i a f.n (Or.inr (le_of_eq s1.num))]
  rfl

/-! ### Concrete cases -/

theorem demo_step (t : ℕ) : (demoFile t).time < (demoFile (t + 1)).time := by
  change fin ((t : ℕ) : ℝ) < fin ((t + 1 : ℕ) : ℝ)
  rw [F.lt_fin]; push_cast; linarith

/-- Case for `C148_extract`, `C148_roundtrip_partial`: the particle of a four-step file, steps 1 and 2, after another extraction. -/
example (lib : FitLib ℝ) (p : Profile) : ∃ table out, (soundFile 4).answer p [.extract 0 0 2, .extract 0 1 3] = .ok (some (.table table)) ∧
    csvConvert lib ⟨[0, 1, 2, 3, 4, 5, 6], false, false, 1, 9⟩ table = .ok out ∧ table = tableOf (trail (soundFile 4) 0 1 3) ∧
    (out.onDisk p).answer p [.len] = .ok (some (.nat 2)) ∧ (out.onDisk p).answer p [.extract 0 0 1] = .ok (some (.table (table.take 1))) := by
  have hs := soundFile_sound 4 (by norm_num) le_rfl
  have hcs : ∀ c ∈ [Call.extract 0 0 2], c.Askable p (soundFile 4) := by
    intro c hc
    simp only [List.mem_cons, List.not_mem_nil, or_false] at hc
    subst hc
    exact ⟨by norm_num, by change 2 < 4; norm_num, fun _ _ => by change 0 < 1; norm_num⟩
  have hi : ∀ t, 1 ≤ t → t < 3 → 0 < ((soundFile 4).file t).position.length := fun _ _ _ => by change 0 < 1; norm_num
  obtain ⟨table, out, e1, e2, h⟩ := C148_roundtrip_partial lib ⟨[0, 1, 2, 3, 4, 5, 6], false, false, 1, 9⟩ ⟨rfl, rfl, rfl⟩ p _ hs _ hcs 0 1 3
    (by norm_num) (by change 3 < 4; norm_num) hi (fun t _ _ => demo_step t)
    (by change (0 : F ℝ) < fin ((1 : ℕ) : ℝ); rw [F.zero_def, F.lt_fin]; norm_num) (by change fin (4 : ℝ) ≠ nan; simp)
  obtain ⟨_, h2, _, h4, _⟩ := h p [] (fun _ h => nomatch h)
  have e3 := C148_extract p _ hs _ hcs 0 1 3 (by norm_num) (by change 3 < 4; norm_num) hi
  refine ⟨table, out, e1, e2, ?_, h2, h4 0 1 (by norm_num) (by norm_num)⟩
  have := e1.symm.trans e3
  cases this
  rfl

/-- Case for `C148_zero_false`: the same file from the start, where the clock shows 0. -/
example (lib : FitLib ℝ) (p : Profile) : ∃ table out, (soundFile 4).answer p [.extract 0 0 3] = .ok (some (.table table)) ∧ table.length = 3 ∧
    csvConvert lib ⟨[0, 1, 2, 3, 4, 5, 6], false, false, 1, 9⟩ table = .ok out ∧ (out.onDisk p).answer p [.len] = .ok (some (.nat 2)) := by
  obtain ⟨table, out, e1, e2, e3, h⟩ := C148_zero_false lib ⟨[0, 1, 2, 3, 4, 5, 6], false, false, 1, 9⟩ ⟨rfl, rfl, rfl⟩ p (soundFile 4)
    (soundFile_sound 4 (by norm_num) le_rfl) [] (fun _ h => nomatch h) 0 3 (by norm_num) (by change 3 < 4; norm_num) (fun _ _ => by change 0 < 1; norm_num)
    (fun t _ => demo_step t) (by change fin ((0 : ℕ) : ℝ) = 0; rw [Nat.cast_zero, F.zero_def]) (by change fin (4 : ℝ) ≠ nan; simp)
  exact ⟨table, out, e1, e2, e3, (h p).1⟩

/-- Case for `C148_last_false`: a four-step file. -/
example (p : Profile) : (soundFile 4).answer p [.extract 0 0 4] = .error .explicit :=
  C148_last_false p (soundFile 4) (soundFile_sound 4 (by norm_num) le_rfl) [] (fun _ h => nomatch h) 0 0

end Up4
