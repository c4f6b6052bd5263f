import Verif.Props.Dispatch

set_option linter.unusedSectionVars false

/-!
# C96, C98: folders of files, and calls that do nothing
-/

namespace Up4
open F
open Selector (at')

variable {K : Type} [Field K] [LinearOrder K] [IsStrictOrderedRing K] [FloorRing K] [Arith K]

/-- The files of a folder that belong to a conversion of `.vtk` files. -/
def Wanted (s : String) : Prop := ".vtk".toList <:+ s.toList ∧ ¬ "boundingBox".toList <:+: s.toList

theorem wanted_iff (s : String) : (endsWith s ".vtk" && !contains s "boundingBox") = true ↔ Wanted s := by
  unfold endsWith contains Wanted
  rw [Bool.and_eq_true, decide_eq_true_eq, Bool.not_eq_true', decide_eq_false_iff_not]

/-- **C96, order.** What the operating system calls first does not matter: two listings of the same folder give the same result, if the natural order tells the
names apart. -/
theorem C96_order (eng : Engine) (disk : String → Option (DataSet K)) (le : String → String → Bool) (htrans : ∀ a b c, le a b = true → le b c = true → le a c = true)
    (htotal : ∀ a b, (le a b || le b a) = true) (n : FieldNames) (filter : String) (dt : F K) (l₁ l₂ : List String) (hp : l₁.Perm l₂)
    (hanti : ∀ a ∈ l₁, ∀ b ∈ l₁, Wanted a → Wanted b → le a b = true → le b a = true → a = b) :
    pyVtkFolder eng disk le n filter dt l₁ = pyVtkFolder eng disk le n filter dt l₂ := by
  have e : folderFiles le l₁ = folderFiles le l₂ := by
    unfold folderFiles
    have hf := hp.filter fun s => endsWith s ".vtk" && !contains s "boundingBox"
    have m : ∀ {l : List String} {a : String}, a ∈ (l.filter fun s => endsWith s ".vtk" && !contains s "boundingBox").mergeSort le → a ∈ l ∧ Wanted a := by
      intro l a ha
      have := List.mem_filter.1 ((List.mergeSort_perm _ le).subset ha)
      exact ⟨this.1, (wanted_iff a).1 this.2⟩
    refine List.Perm.eq_of_pairwise (le := fun a b => le a b = true) ?_ (List.pairwise_mergeSort htrans htotal _) (List.pairwise_mergeSort htrans htotal _)
      ((List.mergeSort_perm _ le).trans (hf.trans (List.mergeSort_perm _ le).symm))
    intro a b ha hb h1 h2
    exact hanti a (m ha).1 b (hp.symm.subset (m hb).1) (m ha).2 (m hb).2 h1 h2
  unfold pyVtkFolder
  rw [e]

/-! ### Times grow with steps -/

theorem ofInt_small [LawfulArith K] {z : ℤ} (h0 : 0 ≤ z) (h1 : z ≤ 2 ^ 53) : (ofInt z : F K) = fin (z : K) := by
  obtain ⟨m, rfl⟩ := Int.eq_ofNat_of_zero_le h0
  unfold ofInt
  have := LawfulArith.rnd_dyadic (K := K) m 0 (by exact_mod_cast h1) (by norm_num)
  simpa using this

theorem fileTime_mono [LawfulArith K] {d : K} (hd : 0 ≤ d) {z₁ z₂ : ℤ} (h0 : 0 ≤ z₁) (h : z₁ ≤ z₂) (h2 : z₂ ≤ 2 ^ 53) : ¬ fileTime (fin d : F K) z₂ < fileTime (fin d) z₁ := by
  unfold fileTime
  rw [ofInt_small h0 (h.trans h2), ofInt_small (h0.trans h) h2]
  change ¬ (Arith.rnd ((z₂ : K) * d) < Arith.rnd ((z₁ : K) * d))
  exact F.not_lt_of_le' (LawfulArith.rnd_mono _ _ (mul_le_mul_of_nonneg_right (by exact_mod_cast h) hd))

theorem fileTime_pos [LawfulArith K] {d : K} (hd : 0 ≤ d) {z : ℤ} (h0 : 0 ≤ z) (h2 : z ≤ 2 ^ 53) : ¬ fileTime (fin d : F K) z < 0 := by
  unfold fileTime
  rw [ofInt_small h0 h2]
  change ¬ (Arith.rnd ((z : K) * d) < (fin 0 : F K))
  have e : (Arith.rnd (0 : K)) = fin 0 := F.rnd_zero
  rw [← e]
  exact F.not_lt_of_le' (LawfulArith.rnd_mono _ _ (mul_nonneg (by exact_mod_cast h0) hd))

theorem times_chain [LawfulArith K] {d : K} (hd : 0 ≤ d) (l : List ℤ) (hl : l.Pairwise (· < ·)) (h0 : ∀ z ∈ l, 0 ≤ z ∧ z ≤ 2 ^ 53) :
    List.IsChain (fun a b => ¬ b < a) (0 :: l.map fun z => fileTime (fin d : F K) z) := by
  cases l with
  | nil => exact List.isChain_singleton _
  | cons z l =>
    rw [List.map_cons, List.isChain_cons_cons]
    refine ⟨fileTime_pos hd (h0 z List.mem_cons_self).1 (h0 z List.mem_cons_self).2, ?_⟩
    induction l generalizing z with
    | nil => exact List.isChain_singleton _
    | cons y l ih =>
      rw [List.map_cons, List.isChain_cons_cons]
      have hzy := (List.pairwise_cons.1 hl).1 y List.mem_cons_self
      refine ⟨fileTime_mono hd (h0 z List.mem_cons_self).1 hzy.le (h0 y (by simp)).2, ?_⟩
      exact ih y (List.pairwise_cons.1 hl).2 fun x hx => h0 x (List.mem_cons_of_mem _ hx)

/-- **C96** for legacy files: the files of the folder that end in `.vtk` and are no bounding boxes, with different steps from `0` to `2^53` that the natural order of
the names respects, are converted in the order of their steps, whatever order the folder is listed in; files of other kinds in the folder do not matter. -/
theorem C96_folder_partial [LawfulArith K] (eng : Engine) (disk : String → Option (DataSet K)) (le : String → String → Bool)
    (htrans : ∀ a b c, le a b = true → le b c = true → le a c = true) (htotal : ∀ a b, (le a b || le b a) = true) (n : FieldNames) (filter : String)
    (hf : ".vtk".toList <:+: filter.toList) {d : K} (hd : 0 ≤ d) (listing : List String) (files : List (Named K))
    (hlist : ∃ others, listing.Perm (files.map Named.name ++ others) ∧ ∀ s ∈ others, ¬ Wanted s) (hw : ∀ x ∈ files, Wanted x.name)
    (hle : ∀ x ∈ files, ∀ y ∈ files, le x.name y.name = true ↔ x.step ≤ y.step) (hnd : (files.map Named.step).Nodup)
    (hz : ∀ x ∈ files, 0 ≤ x.step ∧ x.step ≤ 2 ^ 53) (h0 : files ≠ []) (hn : files.length ≤ 2 ^ 50)
    (h : ∀ x ∈ files, x.There eng disk .legacy n filter) (hr : ∀ x ∈ files, x.recs ≠ []) :
    ∃ (sorted : List (Named K)) (out : TOut K), sorted.Perm files ∧ sorted.Pairwise (fun x y => x.step < y.step) ∧ pyVtkFolder eng disk le n filter (fin d) listing = .ok (some out) ∧
      ∀ (p : Profile) (dflt : Timestep K) (ts : List ℕ), (∀ t ∈ ts, t < files.length) →
        ∃ L, out.file.session p dflt ts = .ok L ∧ List.Forall₂ (fun t x => ∃ f, sorted[t]? = some f ∧ IsFile (askedFor n) (fin d) (f.step, f.recs) x) ts L := by
  set sorted := files.mergeSort (fun x y => le x.name y.name) with hsd
  have hperm : sorted.Perm files := List.mergeSort_perm _ _
  have hpw : sorted.Pairwise (fun x y => le x.name y.name = true) :=
    List.pairwise_mergeSort (le := fun x y : Named K => le x.name y.name) (fun a b c => htrans _ _ _) (fun a b => htotal _ _) files
  have hnd' : (sorted.map Named.step).Nodup := ((hperm.map _).nodup_iff).2 hnd
  have hstrict : sorted.Pairwise (fun x y => x.step < y.step) := by
    have h1 : sorted.Pairwise (fun x y => x.step ≠ y.step) := by
      have := hnd'
      unfold List.Nodup at this
      rwa [List.pairwise_map] at this
    have h2 := hpw.and h1
    refine h2.imp_of_mem ?_
    rintro x y hx hy ⟨h3, h4⟩
    exact lt_of_le_of_ne ((hle x (hperm.subset hx) y (hperm.subset hy)).1 h3) h4
  have hnames : folderFiles le listing = sorted.map Named.name := by
    obtain ⟨others, ho, hno⟩ := hlist
    have hfil : (listing.filter fun s => endsWith s ".vtk" && !contains s "boundingBox").Perm (files.map Named.name) := by
      refine (ho.filter _).trans ?_
      rw [List.filter_append, List.filter_eq_self.2, List.filter_eq_nil_iff.2, List.append_nil]
      · intro s hs hc
        exact hno s hs ((wanted_iff s).1 hc)
      · intro s hs
        obtain ⟨x, hx, rfl⟩ := List.mem_map.1 hs
        exact (wanted_iff _).2 (hw x hx)
    have hsn : (sorted.map Named.name).Perm (files.map Named.name) := hperm.map _
    refine List.Perm.eq_of_pairwise (le := fun a b => le a b = true) ?_ (List.pairwise_mergeSort htrans htotal _) (by rw [List.pairwise_map]; exact hpw)
      ((List.mergeSort_perm _ le).trans (hfil.trans hsn.symm))
    intro a b ha hb h1 h2
    obtain ⟨x, hx, rfl⟩ := List.mem_map.1 (hfil.subset ((List.mergeSort_perm _ le).subset ha))
    obtain ⟨y, hy, rfl⟩ := List.mem_map.1 (hsn.subset hb)
    have e : x.step = y.step := le_antisymm ((hle x hx y hy).1 h1) ((hle y hy x hx).1 h2)
    rw [List.inj_on_of_nodup_map hnd hx hy e]
  have hs0 : sorted ≠ [] := by
    intro hs
    rw [hs] at hperm
    exact h0 (List.nil_perm.1 hperm)
  obtain ⟨out, e, hread⟩ := C97_files eng disk .legacy n filter hf (fin d) sorted hs0 (by rw [hperm.length_eq]; exact hn)
    (fun x hx => h x (hperm.subset hx)) (fun x hx => hr x (hperm.subset hx)) (by
      have := times_chain hd (sorted.map Named.step) (by rw [List.pairwise_map]; exact hstrict) (by
        intro z hz'
        obtain ⟨x, hx, rfl⟩ := List.mem_map.1 hz'
        exact hz x (hperm.subset hx))
      rwa [List.map_map] at this)
  refine ⟨sorted, out, hperm, hstrict, ?_, ?_⟩
  · unfold pyVtk at e
    unfold pyVtkFolder
    rw [(selects_iff filter .legacy).2 hf] at e ⊢
    dsimp only at e ⊢
    rw [hnames, if_neg (by simpa using hs0), e]
  · intro p dflt ts hts
    exact hread p dflt ts (by rw [hperm.length_eq]; exact hts)

theorem folder_none (eng : Engine) (disk : String → Option (DataSet K)) (le : String → String → Bool) (n : FieldNames) (filter : String)
    (hf : readerFor filter ≠ none) (dt : F K) (listing : List String) (h : ∀ s ∈ listing, ¬ Wanted s) :
    pyVtkFolder eng disk le n filter dt listing = .error .explicit := by
  have e : folderFiles le listing = [] := by
    unfold folderFiles
    rw [List.filter_eq_nil_iff.2]
    · apply List.length_eq_zero_iff.1
      rw [List.length_mergeSort]; rfl
    · intro s hs hc
      exact h s hs ((wanted_iff s).1 hc)
  unfold pyVtkFolder
  cases hr : readerFor filter with
  | none => exact absurd hr hf
  | some r =>
    dsimp only
    rw [if_pos e]

/-- **C96 is false of the code for XML files:** the documented call with the filter `(\d+).vtu` on any folder of `.vtu` files raises "No files to convert". -/
theorem C96_false_xml (eng : Engine) (disk : String → Option (DataSet K)) (le : String → String → Bool) (n : FieldNames) (dt : F K) (listing : List String)
    (h : ∀ s ∈ listing, ".vtu".toList <:+ s.toList) : pyVtkFolder eng disk le n "(\\d+).vtu" dt listing = .error .explicit := by
  refine folder_none eng disk le n _ (by decide) dt listing ?_
  rintro s hs ⟨h1, _⟩
  obtain ⟨a, ha⟩ := h1
  obtain ⟨b, hb⟩ := h s hs
  have := congrArg List.reverse (ha.trans hb.symm)
  rw [List.reverse_append, List.reverse_append] at this
  have h0 := congrArg List.head? this
  revert h0
  rw [show (".vtk".toList).reverse = 'k' :: ['t', 'v', '.'] by decide, show (".vtu".toList).reverse = 'u' :: ['t', 'v', '.'] by decide]
  intro h0
  simp at h0

/-- **C96 is false of the code:** no file of a folder is converted if the path of the folder contains `boundingBox`. -/
theorem C96_false_box (eng : Engine) (disk : String → Option (DataSet K)) (le : String → String → Bool) (n : FieldNames) (dt : F K) (listing : List String)
    (h : ∀ s ∈ listing, "boundingBox".toList <:+: s.toList) : pyVtkFolder eng disk le n "(\\d+).vtk" dt listing = .error .explicit :=
  folder_none eng disk le n _ (by decide) dt listing fun s hs hw => hw.2 (h s hs)

/-- Folders as in `C96_false_xml` and `C96_false_box`. -/
example : ".vtu".toList <:+ "post/drum_100.vtu".toList ∧ "boundingBox".toList <:+: "noboundingBoxes/drum_100.vtk".toList := by decide

/-! ### C98: calls that do nothing -/

/-- **C98.** `Converter.vtk` and `vtk_from_folder` return without a result exactly if the filter contains none of `.vtk`, `.vtu`, `.vtp`; `csv_multi` exactly if
the file exists and the method is none of `chain`, `id_line`. In all other cases they raise or write. -/
theorem C98_silent_partial (eng : Engine) (disk : String → Option (DataSet K)) (le : String → String → Bool) (n : FieldNames) (filter : String) (dt : F K)
    (names listing : List String) (lib : FitLib K) (o : CsvOpts K) (mode : String) (raw : Option (List (List (F K)))) :
    let ext := ".vtk".toList <:+: filter.toList ∨ ".vtu".toList <:+: filter.toList ∨ ".vtp".toList <:+: filter.toList
    (pyVtk eng disk n filter dt names = .ok none ↔ ¬ ext) ∧ (pyVtkFolder eng disk le n filter dt listing = .ok none ↔ ¬ ext) ∧
      (pyCsvMulti lib o mode raw = .ok none ↔ raw ≠ none ∧ mode ≠ "chain" ∧ mode ≠ "id_line") := by
  intro ext
  have hsome : ∀ {β : Type} (x : Run β) (y : β → Option β), (∀ b, y b ≠ none) → (x >>= fun b => pure (y b)) ≠ (.ok none : Run (Option β)) := by
    intro β x y hy hx
    obtain ⟨b, _, hb⟩ := run_bind_inv hx
    injection hb with hb
    exact hy b hb
  have hreader : readerFor filter = none ↔ ¬ ext := by
    unfold readerFor contains
    simp only [decide_eq_true_eq]
    by_cases h1 : ".vtk".toList <:+: filter.toList
    · rw [if_pos h1]
      exact ⟨fun h => (by cases h), fun h => absurd (Or.inl h1) h⟩
    rw [if_neg h1]
    by_cases h2 : ".vtu".toList <:+: filter.toList
    · rw [if_pos h2]
      exact ⟨fun h => (by cases h), fun h => absurd (Or.inr (Or.inl h2)) h⟩
    rw [if_neg h2]
    by_cases h3 : ".vtp".toList <:+: filter.toList
    · rw [if_pos h3]
      exact ⟨fun h => (by cases h), fun h => absurd (Or.inr (Or.inr h3)) h⟩
    rw [if_neg h3]
    refine ⟨fun _ => ?_, fun _ => rfl⟩
    rintro (h | h | h)
    · exact h1 h
    · exact h2 h
    · exact h3 h
  refine ⟨?_, ?_, ?_⟩
  · rw [← hreader]
    unfold pyVtk
    cases readerFor filter with
    | none => exact ⟨fun _ => rfl, fun _ => rfl⟩
    | some r => exact ⟨fun h => absurd h (hsome _ some (by simp)), fun h => by cases h⟩
  · rw [← hreader]
    unfold pyVtkFolder
    cases readerFor filter with
    | none => exact ⟨fun _ => rfl, fun _ => rfl⟩
    | some r =>
      dsimp only
      by_cases hf : folderFiles le listing = []
      · rw [if_pos hf]
        constructor <;> (intro h; cases h)
      · rw [if_neg hf]
        exact ⟨fun h => absurd h (hsome _ some (by simp)), fun h => by cases h⟩
  · unfold pyCsvMulti
    cases raw with
    | none =>
      constructor
      · intro h; cases h
      · rintro ⟨h, _⟩; exact absurd rfl h
    | some t =>
      rw [show need (some t) = Except.ok t from rfl, run_bind_ok]
      by_cases h1 : mode = "chain"
      · rw [if_pos h1]
        exact ⟨fun h => absurd h (hsome _ some (by simp)), fun h => absurd h1 h.2.1⟩
      rw [if_neg h1]
      by_cases h2 : mode = "id_line"
      · rw [if_pos h2]
        exact ⟨fun h => absurd h (hsome _ some (by simp)), fun h => absurd h2 h.2.2⟩
      rw [if_neg h2]
      exact ⟨fun _ => ⟨by simp, h1, h2⟩, fun _ => rfl⟩

/-- **C98, the methods of `csv_multi`.** The method `chain` is the conversion of a table of chained trajectories (C68), `id_line` that of a table with an id in each
line (C69); a missing file raises. -/
theorem C98_methods (lib : FitLib K) (o : CsvOpts K) (t : List (List (F K))) (out : POut K) :
    (pyCsvMulti lib o "chain" (some t) = .ok (some out) ↔ chainConvert lib o t = .ok out) ∧
    (pyCsvMulti lib o "id_line" (some t) = .ok (some out) ↔ idConvert lib o t = .ok out) ∧
    (∀ mode, ∃ e, pyCsvMulti lib o mode none = .error e) := by
  have hb : ∀ x : Run (POut K), (x >>= fun b => (pure (some b) : Run (Option (POut K)))) = .ok (some out) ↔ x = .ok out := by
    intro x
    cases x with
    | error e => exact ⟨fun h => (by cases h), fun h => (by cases h)⟩
    | ok b =>
      rw [run_bind_ok]
      exact ⟨fun h => (by injection h with h; injection h with h; rw [h]), fun h => (by injection h with h; rw [h]; rfl)⟩
  refine ⟨?_, ?_, fun mode => ⟨_, rfl⟩⟩
  · unfold pyCsvMulti
    rw [show need (some t) = Except.ok t from rfl, run_bind_ok, if_pos rfl]
    exact hb _
  · unfold pyCsvMulti
    rw [show need (some t) = Except.ok t from rfl, run_bind_ok, if_neg (by decide), if_pos rfl]
    exact hb _

/-- **C98 is false of the code:** with the filter `(\d+)`, and with the default method of `csv_multi` (which contains quotation marks), nothing is converted and nothing
raised, whatever the files contain. -/
theorem C98_false (eng : Engine) (disk : String → Option (DataSet K)) (n : FieldNames) (dt : F K) (names : List String) (lib : FitLib K) (o : CsvOpts K)
    (t : List (List (F K))) : pyVtk eng disk n "(\\d+)" dt names = .ok none ∧ pyCsvMulti lib o defaultMethod (some t) = .ok none := by
  constructor
  · rw [(C98_silent_partial eng disk (fun _ _ => true) n "(\\d+)" dt names [] lib o "chain" none).1]
    decide
  · rw [(C98_silent_partial eng disk (fun _ _ => true) n "(\\d+)" dt names [] lib o defaultMethod (some t)).2.2]
    exact ⟨by simp, by decide, by decide⟩

end Up4
