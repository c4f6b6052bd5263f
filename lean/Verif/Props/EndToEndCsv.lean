import Verif.Props.EndToEnd
import Verif.Props.Csv
import Verif.Props.Search

set_option linter.unusedSectionVars false

/-! # C91: from a CSV file to answers -/

namespace Up4
open F
open Selector (at')

variable {K : Type} [Field K] [LinearOrder K] [IsStrictOrderedRing K] [FloorRing K] [Arith K]

/-- A file that holds these rows was opened, and calls on the `Data` object have returned. -/
structure RowSitting (radius : F K) (rows : List (Row7 K)) (out : POut K) (p : Profile) (cs : List (Call K)) : Prop where
  holds : HoldsRows radius rows out
  given : 1 ≤ rows.length
  count : rows.length ≤ 2 ^ 50
  fits : ∀ c ∈ cs, c.Fits rows.length
  returned : ∃ r, (out.onDisk p).session p cs = .ok r

/-- The rows with a time in the window. -/
def rowsIn (w : F K × F K) (rows : List (Row7 K)) : List (Row7 K) := rows.filter fun r => decide (w.1 ≤ r.t) && decide (r.t ≤ w.2)

theorem onDisk_point [LawfulArith K] {radius : F K} {rows : List (Row7 K)} {out : POut K} (h : HoldsRows radius rows out) (h1 : 1 ≤ rows.length)
    (h2 : rows.length ≤ 2 ^ 50) (p : Profile) (t : ℕ) (ht : t < rows.length) : IsPoint radius rows[t] ((out.onDisk p).file t) := by
  obtain ⟨l, e, hl⟩ := h.2 h1 h2 p Timestep.default [t] (by simpa using ht)
  cases hl with
  | cons a b =>
    cases b
    obtain ⟨r, hr, hp⟩ := a
    rw [List.getElem?_eq_getElem ht] at hr
    cases hr
    unfold POut.onDisk
    dsimp only
    rw [e]
    exact hp

theorem isPoint_wf {radius : F K} {r : Row7 K} {ts : Timestep K} (h : IsPoint radius r ts) : ts.Wf := by
  obtain ⟨h1, h2, h3, h4, h5, h6, h7, h8⟩ := h
  unfold Timestep.Wf
  rw [h2, h3, h4, h5, h6, h7, h8]
  simp

theorem RowSitting.state [LawfulArith K] {radius : F K} {rows : List (Row7 K)} {out : POut K} {p : Profile} {cs : List (Call K)}
    (h : RowSitting radius rows out p cs) :
    ∃ t : PyData K, t.dm.Inv ∧ t.dm.n = rows.length ∧ t.st = out.attrs.stats ∧ t.sel = Selector.default.setTime (windowOf cs).1 (windowOf cs).2 ∧
      (∀ k (hk : k < rows.length), IsPoint radius rows[k] (t.dm.file k)) ∧
      ∀ c, (out.onDisk p).answer p (cs ++ [c]) = (t.call p c >>= fun r => pure (some r.2)) := by
  obtain ⟨⟨t, as⟩, hr⟩ := h.returned
  have hn : (out.onDisk p).n = rows.length := h.holds.1.1
  obtain ⟨kind, s1, s2, s3, s4⟩ := session_state p (out.onDisk p) (by rw [hn]; exact h.given) (by rw [hn]; exact h.count) cs (by rw [hn]; exact h.fits) hr
  refine ⟨t, s1.inv, s1.num.trans hn, s2, s4, ?_, ?_⟩
  · intro k hk
    rw [s1.fileEq]
    exact onDisk_point h.holds h.given h.count p k hk
  · intro c
    rw [answer_snoc, hr, run_bind_ok]

/-- One sample per row in the window, in order. -/
theorem samples_rows (radius : F K) (rows : List (Row7 K)) (steps : ℕ → Timestep K) (h : ∀ k (hk : k < rows.length), IsPoint radius rows[k] (steps k))
    (w : F K × F K) :
    let row := fun x : ℕ × ℕ => rows.getD x.1 ⟨nan, fun _ => nan, fun _ => nan⟩
    (∀ x ∈ samples (Selector.default.setTime w.1 w.2) steps (List.range rows.length), posOf steps x = (row x).p ∧ velOf steps x = (row x).v) ∧
      (samples (Selector.default.setTime w.1 w.2) steps (List.range rows.length)).map row = rowsIn w rows := by
  intro row
  have hrow : ∀ t (ht : t < rows.length) (i : ℕ), row (t, i) = rows[t] := by
    intro t ht i
    change rows.getD t _ = _
    rw [List.getD_eq_getElem?_getD, List.getElem?_eq_getElem ht]; rfl
  constructor
  · rintro ⟨t, i⟩ hx
    rw [mem_samples] at hx
    obtain ⟨ht, _, hi, _⟩ := hx
    have ht := List.mem_range.1 ht
    obtain ⟨_, h2, h3, _⟩ := h t ht
    rw [h2, List.length_singleton] at hi
    obtain rfl : i = 0 := by omega
    rw [hrow t ht]
    unfold posOf velOf Timestep.pos Timestep.vel
    dsimp only
    rw [h2, h3]
    exact ⟨rfl, rfl⟩
  · unfold samples
    rw [List.map_flatMap]
    have e0 : rowsIn w rows = rows.flatMap fun r => if decide (w.1 ≤ r.t) && decide (r.t ≤ w.2) then [r] else [] := by
      unfold rowsIn
      clear h hrow
      induction rows with
      | nil => rfl
      | cons r rows ih =>
        rw [List.filter_cons, List.flatMap_cons, ← ih]
        split_ifs <;> rfl
    rw [e0]
    conv_rhs => rw [list_range_getD rows ⟨nan, fun _ => nan, fun _ => nan⟩]
    rw [List.flatMap_map]
    refine List.flatMap_congr fun t ht => ?_
    have ht := List.mem_range.1 ht
    obtain ⟨h1, h2, _⟩ := h t ht
    have hg : rows.getD t ⟨nan, fun _ => nan, fun _ => nan⟩ = rows[t] := hrow t ht 0
    rw [hg]
    unfold Timestep.picks
    have hv : (Selector.default.setTime w.1 w.2 : Selector K).timestepValid (steps t).time = (decide (w.1 ≤ rows[t].t) && decide (rows[t].t ≤ w.2)) := by
      unfold Selector.timestepValid
      rw [h1]; rfl
    rw [hv]
    split_ifs
    · rw [List.filter_eq_self.2 fun i _ => chosen_window (steps t) w.1 w.2 i, h2]
      change [row (t, 0)] = _
      rw [hrow t ht]
    · rfl

/-- **C91, counts, extraction and attributes.** In a session on a file that holds these rows: `numberfield` has in each cell the number of rows with a time
in the window and a position in the cell; `extract(0, (a, b))` returns the rows `a … b-1`, unchanged and in order; `len`, `time()` and `nparticles()` are
the number of rows, their times, and 1. -/
theorem C91_rows [LawfulArith K] {radius : F K} {rows : List (Row7 K)} {out : POut K} {p : Profile} {cs : List (Call K)} (h : RowSitting radius rows out p cs) :
    (∀ g : Grid K, g.Fillable p → ∃ g', (out.onDisk p).answer p (cs ++ [.numberfield g]) = .ok (some (.grid g')) ∧ g'.geom = g.geom ∧
      ∀ c, g'.st.data.get c = fin (((rowsIn (windowOf cs) rows).countP fun r => inCell p g.geom r.p c : ℕ) : K)) ∧
    (∀ a b, a ≤ b → b < rows.length → (out.onDisk p).answer p (cs ++ [.extract 0 a b]) =
      .ok (some (.table (((rows.drop a).take (b - a)).map fun r => [r.t, r.p 0, r.p 1, r.p 2, r.v 0, r.v 1, r.v 2])))) ∧
    (out.onDisk p).answer p (cs ++ [.len]) = .ok (some (.nat rows.length)) ∧
    (out.onDisk p).answer p (cs ++ [.time]) = .ok (some (.nums (rows.map Row7.t))) ∧
    (out.onDisk p).answer p (cs ++ [.nparticles]) = .ok (some (.nat 1)) := by
  obtain ⟨t, t1, t3, t4, t6, t7, t8⟩ := h.state
  obtain ⟨r1, r2⟩ := samples_rows radius rows t.dm.file t7 (windowOf cs)
  have hs : t.dm.samples t.sel = samples (Selector.default.setTime (windowOf cs).1 (windowOf cs).2) t.dm.file (List.range rows.length) := by
    unfold Dm.samples
    rw [t3, t6]
  have hwf : ∀ k, k < t.dm.n → (t.dm.file k).Wf := fun k hk => isPoint_wf (t7 k (by rw [← t3]; exact hk))
  refine ⟨fun g hg => ?_, fun a b hab hb => ?_, ?_, ?_, ?_⟩
  · have hl : (t.dm.samples t.sel).length ≤ 2 ^ 53 := by
      have := congrArg List.length r2
      rw [List.length_map] at this
      rw [hs, this]
      have h1 : (rowsIn (windowOf cs) rows).length ≤ rows.length := List.length_filter_le _ _
      have := h.count
      omega
    obtain ⟨d', g', e, _, _, _, e1, _, e2, _⟩ := C34_numberfield p t.dm t1 g hg t.sel (by rw [t6]; exact usable_default) hwf hl
    refine ⟨g', ?_, e1, ?_⟩
    · rw [t8]
      change ((Up4.numberfield p t.dm g t.sel >>= fun r => _) >>= _) = _
      rw [e]; rfl
    · intro c
      rw [e2, ← r2, List.countP_map, hs]
      congr 2
      refine List.countP_congr fun x hx => ?_
      rw [(r1 x hx).1]; rfl
  · obtain ⟨d', _, _, _, e⟩ := C31_extract p t.dm t1 0 a b hab (by rw [t3]; exact hb) (by
      intro k _ hk
      have hk' : k < rows.length := by omega
      refine ⟨isPoint_wf (t7 k hk'), ?_⟩
      obtain ⟨_, h2, _⟩ := t7 k hk'
      rw [h2]; simp)
    rw [t8]
    change ((Up4.extract p t.dm 0 a b >>= fun r => _) >>= _) = _
    rw [e]
    change Except.ok (some (Answer.table _)) = _
    congr 3
    apply List.ext_getElem
    · simp; omega
    · intro k h1 h2
      simp only [List.length_map, List.length_range] at h1
      simp only [List.getElem_map, List.getElem_range, List.getElem_take, List.getElem_drop]
      obtain ⟨i1, i2, i3, _⟩ := t7 (a + k) (by omega)
      unfold Timestep.pos Timestep.vel
      rw [i1, i2, i3]
      rfl
  · rw [t8]
    change ((pure (t, Answer.nat t.dm.n) : Run _) >>= _) = _
    rw [t3]; rfl
  · rw [t8]
    change ((pure (t, Answer.nums t.st.times) : Run _) >>= _) = _
    rw [t4]
    change Except.ok (some (Answer.nums out.attrs.timeArray)) = _
    rw [h.holds.1.2.1]
  · rw [t8]
    change ((pure (t, Answer.nat t.st.nparticles) : Run _) >>= _) = _
    rw [t4]
    change Except.ok (some (Answer.nat out.attrs.np)) = _
    rw [h.holds.1.2.2.1]

/-- **C91, means** (exact arithmetic, finite velocities, for `vectorfield` a fresh Cartesian grid): the vector field is the mean velocity of the rows with a
time in the window and a position in the cell, and `mean_velocity` is the mean length of the velocities of all rows (it ignores the window, C89). -/
theorem C91_means [LawfulArith K] [ExactArith K] {radius : F K} {rows : List (Row7 K)} {out : POut K} {p : Profile} {cs : List (Call K)}
    (h : RowSitting radius rows out p cs) (v : Row7 K → Fin 3 → K) (hv : ∀ r ∈ rows, ∀ a, r.v a = fin (v r a))
    (s : Row7 K → K) (hspeed : ∀ r ∈ rows, 0 ≤ s r ∧ s r ^ 2 = v r 0 ^ 2 + v r 1 ^ 2 + v r 2 ^ 2) :
    (∀ g : Grid K, g.Fillable p → (∀ c, g.st.weight.get c = 0 ∧ g.st.data.get c = 0) → g.geom.isCylindrical = false →
      ∃ g', (out.onDisk p).answer p (cs ++ [.vectorfield g]) = .ok (some (.vec g')) ∧ ∀ a c, InB g.geom.cells c →
        let S := (rowsIn (windowOf cs) rows).filter fun r => inCell p g.geom r.p c
        (S = [] → (g'.comp a).st.data.get c = nan) ∧ (S ≠ [] → (g'.comp a).st.data.get c = fin ((S.map fun r => v r a).sum / S.length))) ∧
    (out.onDisk p).answer p (cs ++ [.meanVelocity]) = .ok (some (.num (fin ((rows.map s).sum / rows.length)))) := by
  obtain ⟨t, t1, t3, t4, t6, t7, t8⟩ := h.state
  obtain ⟨r1, r2⟩ := samples_rows radius rows t.dm.file t7 (windowOf cs)
  dsimp only at r1 r2
  generalize hrec : (fun x : ℕ × ℕ => rows.getD x.1 ⟨nan, fun _ => nan, fun _ => nan⟩) = rec at r2
  have hs : t.dm.samples t.sel = samples (Selector.default.setTime (windowOf cs).1 (windowOf cs).2) t.dm.file (List.range rows.length) := by
    unfold Dm.samples
    rw [t3, t6]
  have r1 : ∀ x ∈ t.dm.samples t.sel, posOf t.dm.file x = (rec x).p ∧ velOf t.dm.file x = (rec x).v := by
    intro x hx
    rw [hs] at hx
    rw [← hrec]
    exact r1 x hx
  have hwf : ∀ k, k < t.dm.n → (t.dm.file k).Wf := fun k hk => isPoint_wf (t7 k (by rw [← t3]; exact hk))
  constructor
  · intro g hg hfresh hcart
    have hl : (t.dm.samples t.sel).length ≤ 2 ^ 53 := by
      have := congrArg List.length r2
      rw [List.length_map] at this
      rw [hs, this]
      have h1 : (rowsIn (windowOf cs) rows).length ≤ rows.length := List.length_filter_le _ _
      have := h.count
      omega
    have hin : ∀ x ∈ t.dm.samples t.sel, rec x ∈ rows := by
      intro x hx
      rw [hs] at hx
      have : rec x ∈ rowsIn (windowOf cs) rows := by rw [← r2]; exact List.mem_map_of_mem hx
      exact List.mem_of_mem_filter this
    obtain ⟨d', g', e, e2⟩ := C36_mean p t.dm t1 g hg hfresh hcart t.sel (by rw [t6]; exact usable_default) hwf hl (fun x => v (rec x)) (by
      intro x hx a
      rw [(r1 x hx).2]
      exact hv _ (hin x hx) a)
    refine ⟨g', ?_, ?_⟩
    · rw [t8]
      change ((Up4.vectorfield p t.dm g t.sel >>= fun r => _) >>= _) = _
      rw [e]; rfl
    · intro a c hc
      obtain ⟨k1, k2⟩ := e2 a c hc
      intro S
      have hS : ((t.dm.samples t.sel).filter fun x => inCell p g.geom (posOf t.dm.file x) c).map rec = S := by
        have e : ((t.dm.samples t.sel).filter fun x => inCell p g.geom (posOf t.dm.file x) c) =
            (t.dm.samples t.sel).filter ((fun r => inCell p g.geom r.p c) ∘ rec) := by
          refine List.filter_congr fun x hx => ?_
          rw [(r1 x hx).1]; rfl
        rw [e, ← List.filter_map, hs, r2]
      constructor
      · intro hnil
        refine k1 ?_
        rw [hnil] at hS
        exact List.map_eq_nil_iff.1 hS
      · intro hne
        rw [k2 (fun h0 => hne (by rw [h0] at hS; exact hS.symm))]
        have e1 := congrArg List.length hS
        rw [List.length_map] at e1
        rw [e1, ← hS, List.map_map]; rfl
  · rw [t8]
    change ((pure (t, Answer.num (t.st.speed 1)) : Run _) >>= _) = _
    rw [t4]
    change Except.ok (some (Answer.num out.attrs.mag.2.1)) = _
    have hne : ((rows.length : ℕ) : K) ≠ 0 := by
      have := h.given
      exact_mod_cast (by omega : rows.length ≠ 0)
    have em : (rows.map fun r => speed r.v) = (rows.map s).map fin := by
      rw [List.map_map]
      refine List.map_congr_left fun r hr => ?_
      unfold speed
      rw [hv r hr 0, hv r hr 1, hv r hr 2, F.zero_def]
      simp only [F.emul, F.eadd]
      obtain ⟨h0, h2⟩ := hspeed r hr
      obtain ⟨T, e1, e2, e3⟩ := sqrt_root (K := K) (x := 0 + v r 0 * v r 0 + v r 1 * v r 1 + v r 2 * v r 2)
        (by nlinarith [mul_self_nonneg (v r 0), mul_self_nonneg (v r 1), mul_self_nonneg (v r 2)])
      rw [e1]
      change fin T = fin (s r)
      congr 1
      refine (pow_left_inj₀ e2 h0 two_ne_zero).1 ?_
      rw [h2, pow_two, e3]; ring
    rw [h.holds.1.2.2.2.2.2.1, em, F.zero_def, foldl_fin, zero_add, F.eofNat, F.ediv _ hne]

/-- **C91, sessions on converted CSV files.** A CSV file with seven columns, strictly increasing positive times and a velocity in the first row is converted, and
every session on the converted file is one to which `C91_rows` and `C91_means` apply, with all rows of the CSV file. -/
theorem C91_csv [LawfulArith K] (lib : FitLib K) (o : CsvOpts K) (hv : o.vel = false) (hi : o.interp = false) (h7 : o.cols.length = 7)
    (raw : List (List (F K))) (rows : List (Row7 K)) (hrow : List.Forall₂ (RowOf o.cols) raw rows) (hs : rows.Pairwise fun a b => a.t < b.t)
    (hp : ∀ r ∈ rows, 0 < r.t) (r0 : Row7 K) (h0 : rows.head? = some r0) (hv0 : r0.v 2 ≠ nan) (hlen : rows.length ≤ 2 ^ 50) :
    ∃ out, csvConvert lib o raw = .ok out ∧ ∀ (p : Profile) (cs : List (Call K)), (∀ c ∈ cs, c.Fits rows.length) →
      (∃ r, (out.onDisk p).session p cs = .ok r) → RowSitting o.radius rows out p cs := by
  have ht : ∀ r ∈ rows, r.t ≠ nan := by
    intro r hr e
    have := hp r hr
    rw [e, F.zero_def] at this
    cases this
  obtain ⟨out, e, _, _⟩ := C65_all lib o hv hi h7 raw rows hrow hs hp r0 h0 hv0 hlen
  obtain ⟨sorted, hb, _, hout⟩ := C65_csv lib o hv hi h7 raw rows hrow ht
  have := byTime_strict hs hb
  subst this
  obtain ⟨kept, hk, hh⟩ := hout out e
  have := kept_all hs hp hk
  subst this
  refine ⟨out, e, fun p cs hf hr => ⟨hh, ?_, hlen, hf, hr⟩⟩
  cases kept with
  | nil => cases h0
  | cons _ _ => simp

/-- Opening always works: the session without calls. -/
theorem onDisk_opens [LawfulArith K] {radius : F K} {rows : List (Row7 K)} {out : POut K} (h : HoldsRows radius rows out) (h1 : 1 ≤ rows.length)
    (h2 : rows.length ≤ 2 ^ 50) (p : Profile) : RowSitting radius rows out p [] := by
  refine ⟨h, h1, h2, by simp, ?_⟩
  have hn : (out.onDisk p).n = rows.length := h.1.1
  obtain ⟨d, e, _⟩ := Dm.new_ok p .pdata (out.onDisk p).file (out.onDisk p).n Timestep.default (by rw [hn]; exact h1) (by rw [hn]; exact h2)
  refine ⟨(⟨d, (out.onDisk p).st, (out.onDisk p).maxTime, Selector.default⟩, []), ?_⟩
  unfold OnDisk.session OnDisk.load
  rw [if_neg (show ¬ (out.onDisk p).ty = 1 from by change ¬ (2 : ℤ) = 1; norm_num), if_pos (show (out.onDisk p).ty = 2 from rfl), e]
  rfl

/-- A file of two rows, converted and opened: the first row is what `extract(0, (0, 1))` returns, and the time window is at first the whole range. -/
example (lib : FitLib ℝ) (radius : F ℝ) (p : Profile) :
    let o : CsvOpts ℝ := { cols := [0, 1, 2, 3, 4, 5, 6], vel := false, interp := false, radius := radius, sampling := 9 }
    ∃ out, csvConvert lib o [[fin 1, 0, 0, 0, 0, 0, 0], [fin 3, 1, 1, 1, 0, 0, 0]] = .ok out ∧
      (out.onDisk p).answer p [.extract 0 0 1] = .ok (some (.table [[fin 1, 0, 0, 0, 0, 0, 0]])) := by
  intro o
  obtain ⟨out, e, hs⟩ := C91_csv lib o rfl rfl rfl [[fin 1, 0, 0, 0, 0, 0, 0], [fin 3, 1, 1, 1, 0, 0, 0]]
    [⟨fin 1, fun _ => 0, fun _ => 0⟩, ⟨fin 3, fun _ => 1, fun _ => 0⟩] (by
      refine .cons ⟨rfl, fun j => ?_, fun j => ?_⟩ (.cons ⟨rfl, fun j => ?_, fun j => ?_⟩ .nil) <;> fin_cases j <;> rfl) (by
      simp only [List.pairwise_cons, List.mem_singleton, forall_eq, List.not_mem_nil, IsEmpty.forall_iff, implies_true, List.Pairwise.nil, and_true]
      exact (F.lt_fin _ _).2 (by norm_num)) (by
      simp only [List.mem_cons, List.not_mem_nil, or_false, forall_eq_or_imp, forall_eq, F.zero_def]
      exact ⟨(F.lt_fin _ _).2 (by norm_num), (F.lt_fin _ _).2 (by norm_num)⟩) _ rfl (by dsimp only; rw [F.zero_def]; simp) (by simp)
  refine ⟨out, e, ?_⟩
  obtain ⟨sorted, hb, _, hout⟩ := C65_csv lib o rfl rfl rfl [[fin 1, 0, 0, 0, 0, 0, 0], [fin 3, 1, 1, 1, 0, 0, 0]]
    [⟨fin 1, fun _ => 0, fun _ => 0⟩, ⟨fin 3, fun _ => 1, fun _ => 0⟩] (by
      refine .cons ⟨rfl, fun j => ?_, fun j => ?_⟩ (.cons ⟨rfl, fun j => ?_, fun j => ?_⟩ .nil) <;> fin_cases j <;> rfl) (by simp)
  have hst := byTime_strict (by
      simp only [List.pairwise_cons, List.mem_singleton, forall_eq, List.not_mem_nil, IsEmpty.forall_iff, implies_true, List.Pairwise.nil, and_true]
      exact (F.lt_fin _ _).2 (by norm_num)) hb
  subst hst
  obtain ⟨kept, hk, hh⟩ := hout out e
  have hka := kept_all (by
      simp only [List.pairwise_cons, List.mem_singleton, forall_eq, List.not_mem_nil, IsEmpty.forall_iff, implies_true, List.Pairwise.nil, and_true]
      exact (F.lt_fin _ _).2 (by norm_num)) (by
      simp only [List.mem_cons, List.not_mem_nil, or_false, forall_eq_or_imp, forall_eq, F.zero_def]
      exact ⟨(F.lt_fin _ _).2 (by norm_num), (F.lt_fin _ _).2 (by norm_num)⟩) hk
  subst hka
  exact (C91_rows (onDisk_opens hh (by simp) (by simp) p)).2.1 0 1 (by norm_num) (by simp)

/-- **C91, extent.** The same three questions for a converted CSV file. -/
theorem C91_extent [LawfulArith K] {radius : F K} {rows : List (Row7 K)} {out : POut K} {p : Profile} {cs : List (Call K)}
    (h : RowSitting radius rows out p cs) :
    ∃ lo hi : Fin 3 → F K, (out.onDisk p).answer p (cs ++ [.dimensions]) = .ok (some (.pairs [(lo 0, hi 0), (lo 1, hi 1), (lo 2, hi 2)])) ∧
      (out.onDisk p).answer p (cs ++ [.minPosition]) = .ok (some (.nums [lo 0, lo 1, lo 2])) ∧
      (out.onDisk p).answer p (cs ++ [.maxPosition]) = .ok (some (.nums [hi 0, hi 1, hi 2])) ∧
      ∀ i, ScanOf (rows.map fun r => r.p i) ⟨lo i, hi i⟩ := by
  obtain ⟨t, t1, t2, t3, t4, t5, t6⟩ := h.state
  refine ⟨fun i => (out.attrs.dims i).lo, fun i => (out.attrs.dims i).hi, ?_, ?_, ?_, h.holds.1.2.2.2.1⟩
  · rw [t6]
    change ((pure (t, Answer.pairs [t.st.dims 0, t.st.dims 1, t.st.dims 2]) : Run _) >>= _) = _
    rw [t3]; rfl
  · rw [t6]
    change ((pure (t, Answer.nums [(t.st.dims 0).1, (t.st.dims 1).1, (t.st.dims 2).1]) : Run _) >>= _) = _
    rw [t3]; rfl
  · rw [t6]
    change ((pure (t, Answer.nums [(t.st.dims 0).2, (t.st.dims 1).2, (t.st.dims 2).2]) : Run _) >>= _) = _
    rw [t3]; rfl

end Up4
