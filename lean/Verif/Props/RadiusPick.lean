import Verif.Props.Options
import Verif.Props.Narrow
import Verif.Props.Nothing
import Verif.Props.EndToEndCsv
import Verif.Props.Pooling

/-!
C154: selecting by attribute in a converted CSV file is all or nothing, because every particle has the same attributes. The numbers with which a selection meets a converted
trajectory are the radius given, cloud number 1, density 0 and id 0.
-/

set_option linter.unusedSectionVars false

namespace Up4

open F
open Selector (at')

variable {K : Type} [Field K] [LinearOrder K] [IsStrictOrderedRing K] [FloorRing K] [Arith K]

/-- What the user means by the selection: a particle with these attributes is wanted. -/
def Selector.Wants (s : Selector K) (radius clouds density : F K) (id : ℕ) : Prop :=
  (OffF s.radius ∨ AcceptsF s.radius radius) ∧ (OffF s.clouds ∨ AcceptsF s.clouds clouds) ∧
    (OffF s.density ∨ AcceptsF s.density density) ∧ (OffId s.particleid ∨ AcceptsId s.particleid id)

theorem Selector.Sane.valid {s : Selector K} (h : s.Sane) (r c d : F K) (i : ℕ) : (s.isValid r c d i == .ok true) = true ↔ s.Wants r c d i := by
  obtain ⟨b, e, k⟩ := C26_valid_partial s h.usable.1 h.usable.2.1 h.usable.2.2.1 h.usable.2.2.2 h.clouds h.density h.upper r c d i
  rw [e]
  unfold Selector.Wants
  rw [← k]
  cases b <;> decide

theorem pid_zero [LawfulArith K] : (F.ofNat 0 : F K).toUsize = 0 := by
  have : (F.ofNat 0 : F K) = fin 0 := by unfold F.ofNat; simp [F.rnd_zero]
  rw [this]
  simp [F.toUsize]

/-- The selection keeps a row of a converted trajectory exactly if it wants the attributes all rows have, and the time is in the window. -/
theorem point_chosen [LawfulArith K] {radius : F K} {r : Row7 K} {ts : Timestep K} (h : IsPoint radius r ts) {s : Selector K} (hs : s.Sane) :
    ts.chosen s 0 = true ↔ s.Wants radius 1 0 0 := by
  obtain ⟨-, -, -, h4, -, h6, h7, h8⟩ := h
  unfold Timestep.chosen Timestep.pid
  rw [h4, h6, h7, h8]
  simp only [List.getD_cons_zero]
  rw [pid_zero]
  exact hs.valid _ _ _ _

/-- **C154, one trajectory.** On a file that holds these rows, a selection that wants radius `radius`, cloud 1, density 0 and id 0 takes every row with a time in its window;
any other takes nothing. -/
theorem C154_rows [LawfulArith K] (radius : F K) (rows : List (Row7 K)) (out : POut K) (h : HoldsRows radius rows out) (h1 : 1 ≤ rows.length)
    (h2 : rows.length ≤ 2 ^ 50) (p : Profile) (d : Dm (Timestep K)) (hn : d.n = rows.length) (hf : ∀ t, t < d.n → d.file t = (out.onDisk p).file t)
    (s : Selector K) (hs : s.Sane) :
    (s.Wants radius 1 0 0 → d.seen s = (rowsIn s.time rows).map fun r => (r.p, r.v)) ∧ (¬ s.Wants radius 1 0 0 → TakesNothing s d) := by
  have hp : ∀ k (hk : k < rows.length), IsPoint radius rows[k] (d.file k) := fun k hk => by
    rw [hf k (by omega)]; exact onDisk_point h h1 h2 p k hk
  have hch : ∀ k (hk : k < rows.length), (d.file k).chosen s 0 = true ↔ s.Wants radius 1 0 0 := fun k hk => point_chosen (hp k hk) hs
  constructor
  · intro hw
    unfold Dm.seen Dm.samples samples rowsIn
    rw [hn, List.map_flatMap]
    have e0 : (rows.filter fun r => decide (s.time.1 ≤ r.t) && decide (r.t ≤ s.time.2)).map (fun r => (r.p, r.v)) =
        rows.flatMap fun r => if decide (s.time.1 ≤ r.t) && decide (r.t ≤ s.time.2) then [(r.p, r.v)] else [] := by
      clear hp hch h h1 h2 hn hf
      induction rows with
      | nil => rfl
      | cons r rows ih =>
        rw [List.filter_cons, List.flatMap_cons, ← ih]
        split_ifs <;> rfl
    rw [e0]
    conv_rhs => rw [list_range_getD rows ⟨nan, fun _ => nan, fun _ => nan⟩]
    rw [List.flatMap_map]
    refine List.flatMap_congr fun t ht => ?_
    have ht := List.mem_range.1 ht
    obtain ⟨k1, k2, k3, -⟩ := hp t ht
    have hg : rows.getD t ⟨nan, fun _ => nan, fun _ => nan⟩ = rows[t] := by
      rw [List.getD_eq_getElem?_getD, List.getElem?_eq_getElem ht]; rfl
    rw [hg]
    unfold Timestep.picks
    have hv : s.timestepValid (d.file t).time = (decide (s.time.1 ≤ rows[t].t) && decide (rows[t].t ≤ s.time.2)) := by
      unfold Selector.timestepValid
      rw [k1]
    rw [hv]
    split_ifs
    · rw [k2, List.length_singleton, List.filter_eq_self.2 (fun i hi => by
        have : i = 0 := by have := List.mem_range.1 hi; omega
        rw [this]; exact (hch t ht).2 hw)]
      change [(posOf d.file (t, 0), velOf d.file (t, 0))] = _
      unfold posOf velOf Timestep.pos Timestep.vel
      dsimp only
      rw [k2, k3]
      rfl
    · rfl
  · intro hw t ht _ i hi
    have ht' : t < rows.length := by omega
    obtain ⟨-, k2, -⟩ := hp t ht'
    rw [k2, List.length_singleton] at hi
    obtain rfl : i = 0 := by omega
    exact Bool.eq_false_iff.2 fun hc => hw ((hch t ht').1 hc)

/-- **C154, from the CSV file.** A file with one trajectory, converted and opened with either manager: the same, with the radius given as an option. -/
theorem C154_csv [LawfulArith K] (lib : FitLib K) (o : CsvOpts K) (hv : o.vel = false) (hi : o.interp = false) (h7 : o.cols.length = 7)
    (raw : List (List (F K))) (rows : List (Row7 K)) (hrow : List.Forall₂ (RowOf o.cols) raw rows) (hs : rows.Pairwise fun a b => a.t < b.t)
    (hp : ∀ r ∈ rows, 0 < r.t) (r0 : Row7 K) (h0 : rows.head? = some r0) (hv0 : r0.v 2 ≠ nan) (hlen : rows.length ≤ 2 ^ 50) :
    ∃ out, csvConvert lib o raw = .ok out ∧ ∀ (p : Profile) (kind : Kind), ∃ d, Dm.new p kind (out.onDisk p).file (out.onDisk p).n Timestep.default = .ok d ∧
      ∀ s : Selector K, s.Sane →
        (s.Wants o.radius 1 0 0 → d.seen s = (rowsIn s.time rows).map fun r => (r.p, r.v)) ∧ (¬ s.Wants o.radius 1 0 0 → TakesNothing s d) := by
  have ht : ∀ r ∈ rows, r.t ≠ nan := by
    intro r hr e
    have := hp r hr
    rw [e, F.zero_def] at this
    cases this
  obtain ⟨out, e, _, _⟩ := C65_all lib o hv hi h7 raw rows hrow hs hp r0 h0 hv0 hlen
  obtain ⟨sorted, hb, _, hout⟩ := C65_csv lib o hv hi h7 raw rows hrow ht
  have := byTime_strict hs hb
  subst this
  obtain ⟨kept, hk, hh⟩ := hout out e
  have := kept_all hs hp hk
  subst this
  have h1 : 1 ≤ kept.length := by
    cases kept with
    | nil => cases h0
    | cons _ _ => simp
  refine ⟨out, e, fun p kind => ?_⟩
  have hn : (out.onDisk p).n = kept.length := hh.1.1
  obtain ⟨d, e1, _, f1, n1, -⟩ := Dm.new_ok p kind (out.onDisk p).file (out.onDisk p).n Timestep.default (by rw [hn]; exact h1) (by rw [hn]; exact hlen)
  exact ⟨d, e1, fun s hs => C154_rows o.radius kept out hh h1 hlen p d (n1.trans hn) (fun t _ => by rw [f1]) s hs⟩

/-! ### Several trajectories, and one file per timestep -/

/-- The selection with the radius criterion switched off. -/
def Selector.anyRadius (s : Selector K) : Selector K := { s with radius := [-1] }

/-- Every particle of every timestep has this radius. -/
def OneRadius (radius : F K) (d : Dm (Timestep K)) : Prop := ∀ t, t < d.n → AllOfRadius radius (d.file t)

theorem OneRadius.all_or_nothing {radius : F K} {d : Dm (Timestep K)} (h : OneRadius radius d) (hl : ∀ t, t < d.n → (d.file t).radius.length = (d.file t).position.length) {s : Selector K} (hs : s.Sane)
    (ha : s.anyRadius.Sane) :
    ((OffF s.radius ∨ AcceptsF s.radius radius) → d.samples s = d.samples s.anyRadius) ∧
      (¬ (OffF s.radius ∨ AcceptsF s.radius radius) → TakesNothing s d) := by
  have hg : ∀ t, t < d.n → ∀ i, i < (d.file t).position.length → (d.file t).radius.getD i nan = radius := by
    intro t ht i hi
    have hi : i < (d.file t).radius.length := by rw [hl t ht]; exact hi
    rw [List.getD_eq_getElem?_getD, List.getElem?_eq_getElem hi]
    exact h t ht _ (List.getElem_mem hi)
  constructor
  · intro hr
    unfold Dm.samples samples
    refine List.flatMap_congr fun t ht => ?_
    have ht := List.mem_range.1 ht
    congr 1
    unfold Timestep.picks
    change (if s.timestepValid (d.file t).time then _ else _) = if s.timestepValid (d.file t).time then _ else _
    split_ifs
    · refine List.filter_congr fun i hi => ?_
      rw [Bool.eq_iff_iff]
      unfold Timestep.chosen
      rw [hs.valid, ha.valid, hg t ht i (List.mem_range.1 hi)]
      unfold Selector.Wants
      have : OffF s.anyRadius.radius ∨ AcceptsF s.anyRadius.radius radius := Or.inl rfl
      exact ⟨fun k => ⟨this, k.2⟩, fun k => ⟨hr, k.2⟩⟩
    · rfl
  · intro hr t ht _ i hi
    refine Bool.eq_false_iff.2 fun hc => hr ?_
    unfold Timestep.chosen at hc
    rw [hs.valid, hg t ht i hi] at hc
    exact hc.1

theorem onDisk_radius_multi {out : POut K} {radius : F K} (hg : ∀ g ∈ out.groups, StoredRadius radius g) (p : Profile) (t : ℕ) : AllOfRadius radius ((out.onDisk p).file t) := by
  change AllOfRadius radius (((out.file.session p Timestep.default [t]).toOption.bind List.head?).getD Timestep.default)
  cases e : out.file.session p Timestep.default [t] with
  | error _ => simp [Except.toOption, AllOfRadius, Timestep.default]
  | ok l =>
    have := read_radius p out radius hg [t] l e
    cases l with
    | nil => simp [Except.toOption, AllOfRadius, Timestep.default]
    | cons x l => exact this x (by simp)

/-- **C154, several trajectories.** Whatever the file, the options and the method of `csv_multi`: on the converted file a selection by radius takes everything its other criteria take if
it wants the radius given, and nothing otherwise. -/
theorem C154_multi (lib : FitLib K) (cl : CsvLib K) (o : CsvOpts K) (a : CsvArgs) (mode : String) (text : List Char) (out : POut K)
    (h : csvMultiFromText lib cl o a mode text = .ok (some out)) (p : Profile) (d : Dm (Timestep K)) (hf : ∀ t, t < d.n → d.file t = (out.onDisk p).file t)
    (hl : ∀ t, t < d.n → (d.file t).radius.length = (d.file t).position.length) (s : Selector K) (hs : s.Sane) (ha : s.anyRadius.Sane) :
    ((OffF s.radius ∨ AcceptsF s.radius o.radius) → d.samples s = d.samples s.anyRadius) ∧
      (¬ (OffF s.radius ∨ AcceptsF s.radius o.radius) → TakesNothing s d) := by
  refine OneRadius.all_or_nothing (fun t ht => ?_) hl hs ha
  rw [hf t ht]
  unfold csvMultiFromText at h
  split_ifs at h
  · obtain ⟨x, -, h⟩ := run_bind_inv h
    exact onDisk_radius_multi (pyCsvMulti_radius lib o mode (some x) out h) p t
  · cases h

/-- A group whose radii are zeros, one for each position. -/
def ZeroRadii (g : TGroup K) : Prop := ∃ l q, g.radius = some l ∧ g.position = some q ∧ l.length = q.length ∧ ∀ r ∈ l, r = (0 : F K)

theorem fileStep_zero (cols : List ℕ) (times : List (F K)) (l : List (List (List (F K)) × ℕ)) : ∀ (s s' : VtkState K),
    l.foldlM (fileStep cols times) s = .ok s' → (∀ g ∈ s.groups, ZeroRadii g) → ∀ g ∈ s'.groups, ZeroRadii g := by
  induction l with
  | nil => intro s s' h hs; cases h; exact hs
  | cons x l ih =>
    intro s s' h hs
    rw [List.foldlM_cons] at h
    obtain ⟨s1, e, h⟩ := run_bind_inv h
    refine ih s1 s' h ?_
    unfold fileStep at e
    obtain ⟨r, -, e⟩ := run_bind_inv e
    obtain ⟨rows, -, e⟩ := run_bind_inv e
    cases e
    intro g hg
    rcases List.mem_append.1 hg with hg | hg
    · exact hs g hg
    · rw [List.mem_singleton] at hg
      subst hg
      refine ⟨_, _, rfl, rfl, by simp, fun r hr => ?_⟩
      obtain ⟨_, -, rfl⟩ := List.mem_map.1 hr
      rfl

theorem tRead_zero (groups : List (TGroup K)) (hg : ∀ g ∈ groups, ZeroRadii g) (t : ℕ) (x : Timestep K)
    (h : tRead groups t = .ok x) : AllOfRadius 0 x ∧ x.radius.length = x.position.length := by
  unfold tRead at h
  obtain ⟨g, e0, h⟩ := run_bind_inv h
  have hmem : g ∈ groups := by
    unfold need at e0
    split at e0
    · rename_i a ha
      cases e0
      exact List.mem_of_getElem? ha
    · cases e0
  obtain ⟨l, q, hl, hq, hlen, hr⟩ := hg g hmem
  obtain ⟨x1, e1, h⟩ := run_bind_inv h
  obtain ⟨x2, -, h⟩ := run_bind_inv h
  obtain ⟨rad, e, h⟩ := run_bind_inv h
  obtain ⟨x4, -, h⟩ := run_bind_inv h
  obtain ⟨x5, -, h⟩ := run_bind_inv h
  obtain ⟨x6, -, h⟩ := run_bind_inv h
  obtain ⟨x7, -, h⟩ := run_bind_inv h
  rw [hl] at e
  rw [hq] at e1
  cases e
  cases e1
  cases h
  exact ⟨hr, hlen⟩

theorem onDisk_radius_files {cl : CsvLib K} {o : CsvOpts K} {a : CsvArgs} {times : List (F K)} {texts : List (List Char)} {out : TOut K}
    (h : pyCsvFiles cl o a times texts = .ok out) (t : ℕ) :
    AllOfRadius 0 (out.onDisk.file t) ∧ (out.onDisk.file t).radius.length = (out.onDisk.file t).position.length := by
  unfold pyCsvFiles csvFilesFromText at h
  obtain ⟨x, -, h⟩ := run_bind_inv h
  unfold fileConvert at h
  split_ifs at h
  obtain ⟨s, e, h⟩ := run_bind_inv h
  cases h
  have hg := fileStep_zero o.cols times _ _ _ e (by simp [VtkState.init])
  change AllOfRadius 0 ((tRead s.groups t).toOption.getD Timestep.default) ∧
    ((tRead s.groups t).toOption.getD Timestep.default).radius.length = ((tRead s.groups t).toOption.getD Timestep.default).position.length
  cases e1 : tRead s.groups t with
  | error _ => simp [Except.toOption, AllOfRadius, Timestep.default]
  | ok x => exact tRead_zero s.groups hg t x e1

/-- **C154, one file per timestep (partial).** The same with radius 0, whatever radius was given: what the user expects if the radius given was 0, the default. -/
theorem C154_files_partial (cl : CsvLib K) (o : CsvOpts K) (a : CsvArgs) (times : List (F K)) (texts : List (List Char)) (out : TOut K)
    (h : pyCsvFiles cl o a times texts = .ok out) (d : Dm (Timestep K)) (hf : ∀ t, t < d.n → d.file t = out.onDisk.file t)
    (s : Selector K) (hs : s.Sane) (ha : s.anyRadius.Sane) :
    ((OffF s.radius ∨ AcceptsF s.radius 0) → d.samples s = d.samples s.anyRadius) ∧
      (¬ (OffF s.radius ∨ AcceptsF s.radius 0) → TakesNothing s d) :=
  OneRadius.all_or_nothing (fun t ht => by rw [hf t ht]; exact (onDisk_radius_files h t).1) (fun t ht => by rw [hf t ht]; exact (onDisk_radius_files h t).2) hs ha

/-- **C154 refuted for `csv_multi_files`:** selecting exactly the radius that was given to the conversion takes nothing, unless that radius was 0 or -1. -/
theorem C154_files_false (cl : CsvLib K) (o : CsvOpts K) (a : CsvArgs) (times : List (F K)) (texts : List (List Char)) (out : TOut K)
    (h : pyCsvFiles cl o a times texts = .ok out) (d : Dm (Timestep K)) (hf : ∀ t, t < d.n → d.file t = out.onDisk.file t)
    (h0 : o.radius ≠ 0) (h1 : o.radius ≠ -1) :
    TakesNothing { Selector.default with radius := [o.radius] } d := by
  refine (C154_files_partial cl o a times texts out h d hf _ ?_ ?_).2 ?_
  · exact ⟨⟨by simp, by simp [Selector.default], by simp [Selector.default], by simp [Selector.default]⟩, by simp [Selector.default], by simp [Selector.default], by simp [Selector.default]⟩
  · exact ⟨⟨by simp [Selector.anyRadius], by simp [Selector.default, Selector.anyRadius], by simp [Selector.default, Selector.anyRadius], by simp [Selector.default, Selector.anyRadius]⟩,
      by simp [Selector.default, Selector.anyRadius], by simp [Selector.default, Selector.anyRadius], by simp [Selector.default, Selector.anyRadius]⟩
  · rintro (k | ⟨-, ⟨v, k, k'⟩ | ⟨u, v, k, -⟩ | ⟨k, -⟩⟩)
    · unfold OffF at k
      simp only [List.head?_cons, Option.some.injEq] at k
      exact h1 k
    · simp only [List.cons.injEq, and_true] at k
      exact h0 (by rw [k, ← k'])
    · simp at k
    · simp at k

/-! ### Cases -/

/-- A selection by one criterion, the radius. -/
def byRadius (l : List (F K)) : Selector K := { Selector.default with radius := l }

theorem byRadius_sane (l : List (F K)) (h : l ≠ []) : (byRadius l).Sane :=
  ⟨⟨h, by simp [byRadius, Selector.default], by simp [byRadius, Selector.default], by simp [byRadius, Selector.default]⟩, by simp [byRadius, Selector.default],
    by simp [byRadius, Selector.default], by simp [byRadius, Selector.default]⟩

theorem byRadius_wants (l : List (F K)) (r c d : F K) : (byRadius l).Wants r c d 0 ↔ (OffF l ∨ AcceptsF l r) := by
  unfold Selector.Wants
  exact ⟨fun h => h.1, fun h => ⟨h, Or.inl rfl, Or.inl rfl, Or.inl rfl⟩⟩

/-- Case for `C154_csv` and `C154_rows`: two rows, converted with radius 3. The selection of radii in `[2, 4]` sees both, the selection `[4, 5]` none. -/
example (lib : FitLib ℝ) (p : Profile) (kind : Kind) :
    ∃ out, csvConvert lib ⟨[0, 1, 2, 3, 4, 5, 6], false, false, fin 3, 9⟩ [[fin 1, 0, 0, 0, 0, 0, 0], [fin 3, 1, 1, 1, 0, 0, 0]] = .ok out ∧
      ∃ d, Dm.new p kind (out.onDisk p).file (out.onDisk p).n Timestep.default = .ok d ∧
        d.seen (byRadius [fin 2, fin 4]) = [(fun _ => 0, fun _ => 0), (fun _ => 1, fun _ => 0)] ∧ TakesNothing (byRadius [fin 4, fin 5]) d := by
  obtain ⟨out, e, h⟩ := C154_csv lib ⟨[0, 1, 2, 3, 4, 5, 6], false, false, fin 3, 9⟩ rfl rfl rfl [[fin 1, 0, 0, 0, 0, 0, 0], [fin 3, 1, 1, 1, 0, 0, 0]]
    [⟨fin 1, fun _ => 0, fun _ => 0⟩, ⟨fin 3, fun _ => 1, fun _ => 0⟩] (by
      refine .cons ⟨rfl, fun j => ?_, fun j => ?_⟩ (.cons ⟨rfl, fun j => ?_, fun j => ?_⟩ .nil) <;> fin_cases j <;> rfl) (by
      simp only [List.pairwise_cons, List.mem_singleton, forall_eq, List.not_mem_nil, IsEmpty.forall_iff, implies_true, List.Pairwise.nil, and_true]
      exact (F.lt_fin _ _).2 (by norm_num)) (by
      simp only [List.mem_cons, List.not_mem_nil, or_false, forall_eq_or_imp, forall_eq, F.zero_def]
      exact ⟨(F.lt_fin _ _).2 (by norm_num), (F.lt_fin _ _).2 (by norm_num)⟩) _ rfl (by dsimp only; rw [F.zero_def]; simp) (by simp)
  obtain ⟨d, e1, h⟩ := h p kind
  have hmax : (3 : ℝ) ≤ Arith.maxK := by
    change (3 : ℝ) ≤ (2 ^ 53 - 1) * 2 ^ 971
    have h : (1 : ℝ) ≤ 2 ^ 971 := one_le_pow₀ (by norm_num)
    generalize (2 : ℝ) ^ 971 = x at h
    nlinarith
  refine ⟨out, e, d, e1, ?_, (h _ (byRadius_sane _ (by simp))).2 ?_⟩
  · rw [(h _ (byRadius_sane _ (by simp))).1 ((byRadius_wants _ _ _ _).2 (Or.inr ⟨by simp, Or.inr (Or.inl ⟨_, _, rfl, ?_, ?_⟩)⟩))]
    · unfold rowsIn
      have w : ∀ t : ℝ, |t| ≤ 3 → (decide ((byRadius [fin 2, fin 4] : Selector ℝ).time.1 ≤ fin t) && decide (fin t ≤ (byRadius [fin 2, fin 4] : Selector ℝ).time.2)) = true := by
        intro t ht
        have := abs_le.1 ht
        change (decide ((fin (-Arith.maxK) : F ℝ) ≤ fin t) && decide (fin t ≤ fin (Arith.maxK : ℝ))) = true
        rw [Bool.and_eq_true, decide_eq_true_eq, decide_eq_true_eq, F.le_fin, F.le_fin]
        exact ⟨by linarith [this.1], by linarith [this.2]⟩
      rw [List.filter_cons, if_pos (w 1 (by norm_num)), List.filter_cons, if_pos (w 3 (by norm_num))]
      rfl
    · exact (F.le_fin _ _).2 (by norm_num)
    · exact (F.le_fin _ _).2 (by norm_num)
  · rw [byRadius_wants]
    rintro (k | ⟨-, ⟨v, k, -⟩ | ⟨u, v, k, k1, -⟩ | ⟨k, -⟩⟩)
    · unfold OffF at k
      simp only [List.head?_cons, Option.some.injEq] at k
      change (fin 4 : F ℝ) = F.neg (fin 1) at k
      simp only [F.neg, F.fin.injEq] at k
      norm_num at k
    · simp at k
    · simp only [List.cons.injEq, and_true] at k
      obtain ⟨rfl, rfl⟩ := k
      have := (F.le_fin _ _).1 k1
      norm_num at this
    · simp at k

/-- Case for `C154_multi`: a file with two ids, converted with radius 3: the selection of radius 3 takes what the selection without a radius takes, which is something, and the
selection of radius 4 takes nothing. -/
example (lib : FitLib ℝ) (p : Profile) (kind : Kind) : ∃ out : POut ℝ,
    csvMultiFromText lib digitLib ⟨[0, 1, 2, 3, 4, 5, 6, 7], false, false, fin 3, 9⟩ ⟨",", true, "#"⟩ "id_line" (csvText ',' '#' pairLines .blank) = .ok (some out) ∧
    ∃ d, Dm.new p kind (out.onDisk p).file 2 Timestep.default = .ok d ∧ d.samples (byRadius [fin 3]) = d.samples (byRadius [-1]) ∧ TakesNothing (byRadius [fin 4]) d ∧
      (d.file 0).position.length = 1 := by
  obtain ⟨out, e, -, h⟩ := twoIds_reads lib (fin 3 : F ℝ)
  have e' : csvMultiFromText lib digitLib ⟨[0, 1, 2, 3, 4, 5, 6, 7], false, false, fin 3, 9⟩ ⟨",", true, "#"⟩ "id_line" (csvText ',' '#' pairLines .blank) = .ok (some out) := by
    unfold csvMultiFromText
    rw [if_pos (Or.inr rfl), pairLines_table, run_bind_ok]
    unfold pyCsvMulti
    rw [show need (some (twoIdsRaw : List (List (F ℝ)))) = .ok twoIdsRaw from rfl, run_bind_ok]
    rw [if_neg (by decide), if_pos rfl, e]
    rfl
  obtain ⟨d, e1, _, f1, n1, -⟩ := Dm.new_ok p kind (out.onDisk p).file 2 Timestep.default (by omega) (by norm_num)
  have hd : ∀ t, t < 2 → ((out.onDisk p).file t).position.length = 1 ∧ ((out.onDisk p).file t).radius = [fin 3] := by
    intro t ht
    obtain ⟨l, hl, hlen, hx⟩ := h p Timestep.default [t] (by simpa using ht)
    obtain ⟨x, rfl⟩ := List.length_eq_one_iff.1 hlen
    change (((out.file.session p Timestep.default [t]).toOption.bind List.head?).getD Timestep.default).position.length = 1 ∧
      (((out.file.session p Timestep.default [t]).toOption.bind List.head?).getD Timestep.default).radius = _
    rw [hl]
    exact hx x (by simp)
  have hl : ∀ t, t < d.n → (d.file t).radius.length = (d.file t).position.length := by
    intro t ht
    rw [f1, (hd t (by omega)).1, (hd t (by omega)).2]; rfl
  refine ⟨out, e', d, e1, ?_, ?_, by rw [f1]; exact (hd 0 (by omega)).1⟩
  · exact (C154_multi lib digitLib _ _ _ _ out e' p d (fun t _ => by rw [f1]) hl (byRadius [fin 3]) (byRadius_sane _ (by simp)) (byRadius_sane _ (by simp))).1
      (Or.inr ⟨by simp, Or.inl ⟨_, rfl, rfl⟩⟩)
  · refine (C154_multi lib digitLib _ _ _ _ out e' p d (fun t _ => by rw [f1]) hl (byRadius [fin 4]) (byRadius_sane _ (by simp)) (byRadius_sane _ (by simp))).2 ?_
    rintro (k | ⟨-, ⟨v, k, k'⟩ | ⟨u, v, k, -⟩ | ⟨k, -⟩⟩)
    · unfold OffF at k
      change some (fin 4 : F ℝ) = some (F.neg (fin 1)) at k
      simp only [F.neg, Option.some.injEq, F.fin.injEq] at k
      norm_num at k
    · change [(fin 4 : F ℝ)] = [v] at k
      simp only [List.cons.injEq, and_true] at k
      rw [← k] at k'
      simp only [F.fin.injEq] at k'
      norm_num at k'
    · change [(fin 4 : F ℝ)] = [u, v] at k
      simp at k
    · change 3 ≤ [(fin 4 : F ℝ)].length at k
      simp at k

/-- Case for `C154_files_partial` and `C154_files_false`: a file with one particle, converted with radius 3: the selection of radius 3 takes nothing, the selection of radius 0 takes
what the selection without a radius takes. -/
example (p : Profile) (kind : Kind) : ∃ (cl : CsvLib ℝ) (text : List Char) (out : TOut ℝ),
    pyCsvFiles cl ⟨[0, 1, 2, 3], false, false, fin 3, 9⟩ ⟨",", true, "#"⟩ [fin 5] [text] = .ok out ∧
    ∃ d, Dm.new p kind out.onDisk.file 1 Timestep.default = .ok d ∧ TakesNothing (byRadius [fin 3]) d ∧ d.samples (byRadius [0]) = d.samples (byRadius [-1]) := by
  obtain ⟨cl, text, h⟩ := C146_false
  obtain ⟨out, e, h⟩ := h false false (fin 3) 9
  obtain ⟨d, e1, _, f1, n1, -⟩ := Dm.new_ok p kind out.onDisk.file 1 Timestep.default (by omega) (by norm_num)
  have h3 : (fin 3 : F ℝ) ≠ 0 := by rw [F.zero_def]; simp
  have h1 : (fin 3 : F ℝ) ≠ -1 := by
    intro k
    change (fin 3 : F ℝ) = F.neg (fin 1) at k
    simp only [F.neg, F.fin.injEq] at k
    norm_num at k
  refine ⟨cl, text, out, e, d, e1, C154_files_false cl _ _ _ _ out e d (fun t _ => by rw [f1]) h3 h1, ?_⟩
  exact (C154_files_partial cl _ _ _ _ out e d (fun t _ => by rw [f1]) (byRadius [0]) (byRadius_sane _ (by simp)) (byRadius_sane _ (by simp))).1
      (Or.inr ⟨by rw [F.zero_def]; simp, Or.inl ⟨_, rfl, rfl⟩⟩)

end Up4
