import Verif.Props.Answers
import Verif.Props.EndToEndCsv

/-!
C136 for converted files: what the converters write from a sound trajectory table or sound VTK files is a sound file, so every sensible
call on it answers.
-/

set_option linter.unusedSectionVars false

namespace Up4

open F
open Selector (at')

variable {K : Type} [Field K] [LinearOrder K] [IsStrictOrderedRing K] [FloorRing K] [Arith K]

/-- A list of finite numbers in increasing order, as a time axis. -/
theorem time_axis (l : List (F K)) (hfin : ∀ x ∈ l, ∃ y : K, x = fin y) (hmono : l.Pairwise fun a b => ¬ b < a) :
    ∃ τ : ℕ → K, l = timesOf τ l.length ∧ (∀ t (ht : t < l.length), l[t] = fin (τ t)) ∧ ∀ i j, i ≤ j → j < l.length → τ i ≤ τ j := by
  obtain ⟨τ, hτ⟩ : ∃ τ : ℕ → K, ∀ t (ht : t < l.length), l[t] = fin (τ t) := by
    refine ⟨fun t => if h : t < l.length then (hfin l[t] (List.getElem_mem h)).choose else 0, fun t ht => ?_⟩
    dsimp only
    rw [dif_pos ht]
    exact (hfin l[t] (List.getElem_mem ht)).choose_spec
  refine ⟨τ, ?_, hτ, fun i j hij hj => ?_⟩
  · unfold timesOf
    apply List.ext_getElem
    · simp
    · intro k h1 h2
      rw [hτ k h1]
      simp
  · rcases Nat.lt_or_ge i j with h | h
    · have := List.pairwise_iff_getElem.1 hmono i j (by omega) hj h
      rw [hτ i (by omega), hτ j hj, F.lt_fin, not_lt] at this
      exact this
    · have : i = j := by omega
      rw [this]

theorem holdsRows_sound [LawfulArith K] {radius : F K} {rows : List (Row7 K)} {out : POut K} (h : HoldsRows radius rows out)
    (h1 : 1 ≤ rows.length) (h2 : rows.length ≤ 2 ^ 50) (hfin : ∀ r ∈ rows, ∃ y : K, r.t = fin y) (hs : rows.Pairwise fun a b => a.t < b.t)
    (p : Profile) : (out.onDisk p).Sound := by
  have hn : (out.onDisk p).n = rows.length := h.1.1
  have hp := fun t ht => onDisk_point h h1 h2 p t ht
  obtain ⟨τ, e1, e2, e3⟩ := time_axis (rows.map Row7.t) (by
    intro x hx
    obtain ⟨r, hr, rfl⟩ := List.mem_map.1 hx
    exact hfin r hr) (by
    rw [List.pairwise_map]
    refine List.Pairwise.imp ?_ hs
    intro a b hab hba
    exact not_lt_of_le' (le_of_lt' hab) hba)
  rw [List.length_map] at e1 e3
  refine ⟨Or.inr rfl, by rw [hn]; exact h1, by rw [hn]; exact h2, fun t ht => ?_, ⟨τ, ?_, fun t ht => ?_, ?_⟩, 1, ?_, ?_, fun t ht => ?_⟩
  · exact isPoint_wf (hp t (by rw [← hn]; exact ht))
  · change out.attrs.timeArray = _
    rw [h.1.2.1, hn]; exact e1
  · rw [hn] at ht
    rw [(hp t ht).1, ← e2 t (by rw [List.length_map]; exact ht), List.getElem_map]
  · rw [hn]; exact e3
  · exact Nat.le_add_left _ _
  · rw [hn]; omega
  · rw [hn] at ht
    rw [(hp t ht).2.1]; rfl

/-- **C136 on converted CSV files (partial as `C136_answers_partial`).** A CSV table of one trajectory with seven columns, strictly increasing, positive,
finite times and a velocity in the first row is converted, and every sequence of calls with sensible arguments on the result answers. -/
theorem C136_csv_partial [LawfulArith K] (lib : FitLib K) (o : CsvOpts K) (hv : o.vel = false) (hi : o.interp = false) (h7 : o.cols.length = 7)
    (raw : List (List (F K))) (rows : List (Row7 K)) (hrow : List.Forall₂ (RowOf o.cols) raw rows) (hs : rows.Pairwise fun a b => a.t < b.t)
    (hp : ∀ r ∈ rows, 0 < r.t) (hfin : ∀ r ∈ rows, ∃ y : K, r.t = fin y) (r0 : Row7 K) (h0 : rows.head? = some r0) (hv0 : r0.v 2 ≠ nan)
    (hlen : rows.length ≤ 2 ^ 50) :
    ∃ out, csvConvert lib o raw = .ok out ∧ (∀ p, (out.onDisk p).n = rows.length) ∧
      ∀ (p : Profile) (cs : List (Call K)), (∀ c ∈ cs, c.Askable p (out.onDisk p)) →
      ∃ s as, (out.onDisk p).session p cs = .ok (s, as) ∧ as.length = cs.length := by
  have ht : ∀ r ∈ rows, r.t ≠ nan := by
    intro r hr e
    have := hp r hr
    rw [e, F.zero_def] at this
    cases this
  obtain ⟨out, e, _, _⟩ := C65_all lib o hv hi h7 raw rows hrow hs hp r0 h0 hv0 hlen
  obtain ⟨sorted, hb, _, hout⟩ := C65_csv lib o hv hi h7 raw rows hrow ht
  have := byTime_strict hs hb
  subst this
  obtain ⟨kept, hk, hh⟩ := hout out e
  have := kept_all hs hp hk
  subst this
  refine ⟨out, e, fun _ => hh.1.1, fun p cs hf => C136_answers_partial p _ (holdsRows_sound hh ?_ hlen hfin hs p) cs hf⟩
  cases kept with
  | nil => cases h0
  | cons _ _ => simp

/-- Distinct numbers below a bound: there are at most that many. -/
theorem length_le_of_nodup {l : List ℕ} (h : l.Nodup) {m : ℕ} (hm : ∀ x ∈ l, x ≤ m) : l.length ≤ m + 1 := by
  have h1 := List.toFinset_card_of_nodup h
  have h2 : l.toFinset ⊆ Finset.range (m + 1) := fun x hx => Finset.mem_range.2 (by have := hm x (List.mem_toFinset.1 hx); omega)
  have := Finset.card_le_card h2
  rw [h1, Finset.card_range] at this
  exact this

theorem ne_nan_of_fin {x : F K} (h : ∃ y : K, x = fin y) : x ≠ F.nan := by
  obtain ⟨y, rfl⟩ := h
  simp

/-- **C136 on converted VTK files (partial as `C136_answers_partial`).** VTK files with the same number of particles, distinct ids in every file, and finite,
nonnegative times that do not decrease are converted, and every sequence of calls with sensible arguments on the result answers. -/
theorem C136_vtk_partial [LawfulArith K] (o : VtkOpts) (ho : o.Full) (dt : F K) (files : List (ℤ × List (Rec K))) (hf : files ≠ [])
    (hn : files.length ≤ 2 ^ 50) (np : ℕ) (hnp : 1 ≤ np) (hcount : files.length * np ≤ 2 ^ 52) (hlen : ∀ f ∈ files, f.2.length = np)
    (hid : ∀ f ∈ files, (f.2.map Rec.num).Nodup) (hfin : ∀ f ∈ files, ∃ y : K, 0 ≤ y ∧ fileTime dt f.1 = fin y)
    (hs : files.Pairwise fun a b => fileTime dt a.1 ≤ fileTime dt b.1) :
    ∃ out, vtkConvert o dt (files.map fun f => vtkOf f.1 f.2) = .ok out ∧ out.onDisk.n = files.length ∧ ∀ (p : Profile) (cs : List (Call K)),
      (∀ c ∈ cs, c.Askable p out.onDisk) → ∃ s as, out.onDisk.session p cs = .ok (s, as) ∧ as.length = cs.length := by
  have hr : ∀ f ∈ files, f.2 ≠ [] := by
    intro f hf' e
    have := hlen f hf'
    rw [e] at this
    simp at this
    omega
  obtain ⟨c1, c2⟩ := C62_times o ho dt files hf hr
  have hpw : (fileTimes dt files).Pairwise fun a b => ¬ b < a := by
    unfold fileTimes
    rw [List.pairwise_map]
    exact List.Pairwise.imp (fun hab => not_lt_of_le' hab) hs
  have hall : ∀ x ∈ fileTimes dt files, ∃ y : K, x = fin y := by
    intro x hx
    obtain ⟨f, hf', rfl⟩ := List.mem_map.1 hx
    obtain ⟨y, _, hy⟩ := hfin f hf'
    exact ⟨y, hy⟩
  obtain ⟨out, e⟩ := c1.2 (by
    apply List.Pairwise.isChain
    rw [List.pairwise_cons]
    refine ⟨fun x hx => ?_, hpw⟩
    obtain ⟨f, hf', rfl⟩ := List.mem_map.1 hx
    obtain ⟨y, h0, hy⟩ := hfin f hf'
    rw [hy, F.zero_def, F.lt_fin, not_lt]
    exact h0)
  refine ⟨out, e, (holdsVtk o ho dt files hf hr out e).num, fun p cs hcs => ?_⟩
  obtain ⟨a1, a2, _, _, _, a6, _⟩ := c2 out e
  have hv := holdsVtk o ho dt files hf hr out e
  obtain ⟨τ, e1, e2, e3⟩ := time_axis (fileTimes dt files) hall hpw
  have hl : (fileTimes dt files).length = files.length := by unfold fileTimes; rw [List.length_map]
  rw [hl] at e1 e3
  have hpos := List.length_pos_iff.2 hf
  refine C136_answers_partial p _ ⟨Or.inl rfl, by rw [hv.num]; omega, by rw [hv.num]; exact hn, fun t ht => ?_, ⟨τ, ?_, fun t ht => ?_, ?_⟩, np, ?_, ?_,
    fun t ht => ?_⟩ cs hcs
  · rw [hv.num] at ht
    obtain ⟨f, _, _, recs, _, _, hd⟩ := hv.step t ht
    exact describes_wf o recs _ hd
  · change out.attrs.timeArray = _
    rw [a2, hv.num]; exact e1
  · rw [hv.num] at ht
    obtain ⟨f, h1, h2, _⟩ := hv.step t ht
    rw [h2, ← e2 t (by rw [hl]; exact ht)]
    rw [List.getElem?_eq_getElem ht] at h1
    cases h1
    unfold fileTimes
    rw [List.getElem_map]
  · rw [hv.num]; exact e3
  · obtain ⟨f, hf'⟩ := List.exists_mem_of_ne_nil files hf
    rw [← hlen f hf', ← List.length_map (f := Rec.num)]
    refine length_le_of_nodup (hid f hf') fun x hx => ?_
    obtain ⟨r, hr', rfl⟩ := List.mem_map.1 hx
    exact a6 f hf' r hr'
  · rw [hv.num]; exact hcount
  · rw [hv.num] at ht
    obtain ⟨f, h1, _, recs, h3, _, hd⟩ := hv.step t ht
    have hmem : f ∈ files := List.mem_of_getElem? h1
    obtain ⟨_, _, _, d4, _⟩ := hd
    rw [d4, List.length_map, h3.length_eq, hlen f hmem]

/-- Case for `C136_vtk_partial`: two VTK files of two particles; fields, reads ahead and an item counted from the end are asked for. -/
example (p : Profile) : ∃ out s as, vtkConvert fullOpts (fin 1) (goFiles.map fun f => vtkOf f.1 f.2) = .ok out ∧
    out.onDisk.session p [.numberfield soundGrid, .dispersion soundGrid (fin 1), .msdField soundGrid (fin 1), .item (-2)] = .ok (s, as) ∧
    as.length = 4 := by
  obtain ⟨out, e, hn, h⟩ := C136_vtk_partial fullOpts fullOpts_full (fin 1 : F ℝ) goFiles (by simp [goFiles]) (by simp [goFiles]) 2 (by norm_num)
    (by simp [goFiles]) (by simp [goFiles]) (by simp [goFiles, goRec]) (by
      intro f hf
      simp only [goFiles, List.mem_cons, List.not_mem_nil, or_false] at hf
      rcases hf with rfl | rfl
      · exact ⟨0, le_rfl, by rw [goFiles_time]; norm_num⟩
      · exact ⟨1, by norm_num, by rw [goFiles_time]; norm_num⟩) (by
      simp only [goFiles, List.pairwise_cons, List.mem_cons, List.not_mem_nil, or_false, forall_eq, goFiles_time, F.le_fin]
      norm_num)
  obtain ⟨s, as, h1, h2⟩ := h p [.numberfield soundGrid, .dispersion soundGrid (fin 1), .msdField soundGrid (fin 1), .item (-2)] (by
    intro c hc
    simp only [List.mem_cons, List.not_mem_nil, or_false] at hc
    have hg := soundGrid_fit p
    have ha : out.onDisk.Ahead := Or.inl rfl
    rcases hc with rfl | rfl | rfl | rfl
    · exact hg
    · exact ⟨hg, ha, 1, rfl⟩
    · exact ⟨hg, ha, 1, rfl⟩
    · unfold Call.Askable
      rw [hn]; simp [goFiles])
  exact ⟨out, s, as, e, h1, h2⟩

/-- Case for `C136_csv_partial`: a table of two rows, of which the last is asked for after a read ahead. -/
example (lib : FitLib ℝ) (radius : F ℝ) (p : Profile) :
    let o : CsvOpts ℝ := { cols := [0, 1, 2, 3, 4, 5, 6], vel := false, interp := false, radius := radius, sampling := 9 }
    ∃ out s as, csvConvert lib o [[fin 1, 0, 0, 0, 0, 0, 0], [fin 3, 1, 1, 1, 0, 0, 0]] = .ok out ∧
      (out.onDisk p).session p [.dispersion soundGrid (fin 1), .item (-1), .msdField soundGrid (fin 2)] = .ok (s, as) ∧ as.length = 3 := by
  intro o
  obtain ⟨out, e, hn, hs⟩ := C136_csv_partial lib o rfl rfl rfl [[fin 1, 0, 0, 0, 0, 0, 0], [fin 3, 1, 1, 1, 0, 0, 0]]
    [⟨fin 1, fun _ => 0, fun _ => 0⟩, ⟨fin 3, fun _ => 1, fun _ => 0⟩] (by
      refine .cons ⟨rfl, fun j => ?_, fun j => ?_⟩ (.cons ⟨rfl, fun j => ?_, fun j => ?_⟩ .nil) <;> fin_cases j <;> rfl) (by
      simp only [List.pairwise_cons, List.mem_singleton, forall_eq, List.not_mem_nil, IsEmpty.forall_iff, implies_true, List.Pairwise.nil, and_true]
      exact (F.lt_fin _ _).2 (by norm_num)) (by
      simp only [List.mem_cons, List.not_mem_nil, or_false, forall_eq_or_imp, forall_eq, F.zero_def]
      exact ⟨(F.lt_fin _ _).2 (by norm_num), (F.lt_fin _ _).2 (by norm_num)⟩) (by
      simp only [List.mem_cons, List.not_mem_nil, or_false, forall_eq_or_imp, forall_eq]
      exact ⟨⟨1, rfl⟩, 3, rfl⟩) _ rfl (by dsimp only; rw [F.zero_def]; simp) (by simp)
  obtain ⟨s, as, h1, h2⟩ := hs p [.dispersion soundGrid (fin 1), .item (-1), .msdField soundGrid (fin 2)] (by
    intro c hc
    simp only [List.mem_cons, List.not_mem_nil, or_false] at hc
    have hg := soundGrid_fit p
    have ha : (out.onDisk p).Ahead := Or.inr (by rw [hn p]; simp [BUFFERSIZE])
    rcases hc with rfl | rfl | rfl
    · exact ⟨hg, ha, 1, rfl⟩
    · unfold Call.Askable
      rw [hn]; simp
    · exact ⟨hg, ha, 2, rfl⟩)
  exact ⟨out, s, as, e, h1, h2⟩

end Up4
