import Verif.Props.CsvText
import Verif.Props.CsvMulti
import Verif.Model.CsvFiles

set_option linter.unusedSectionVars false

/-! # C146: the radius given to a conversion -/

namespace Up4
open F

variable {K : Type} [Field K] [LinearOrder K] [IsStrictOrderedRing K] [FloorRing K] [Arith K]

/-- Every particle of the timestep has this radius. -/
def AllOfRadius (radius : F K) (x : Timestep K) : Prop := ∀ r ∈ x.radius, r = radius

/-- Every particle of the file has this radius stored. -/
def StoredRadius (radius : F K) (g : PGroup K) : Prop := ∃ l, g.radius = some l ∧ ∀ r ∈ l, r = radius

theorem csvGroup_radius (rows : List (Row7 K)) (len : ℕ) (radius : F K) (ptype : Option (F K)) (pid : F K) :
    StoredRadius radius (csvGroup rows len radius ptype pid) :=
  ⟨_, rfl, fun _ hr => List.eq_of_mem_replicate hr⟩

theorem csvConvert_radius (lib : FitLib K) (o : CsvOpts K) (raw : List (List (F K))) (out : POut K) (h : csvConvert lib o raw = .ok out) :
    ∀ g ∈ out.groups, StoredRadius o.radius g := by
  unfold csvConvert at h
  obtain ⟨r1, -, h⟩ := run_bind_inv h
  obtain ⟨r2, -, h⟩ := run_bind_inv h
  obtain ⟨r3, -, h⟩ := run_bind_inv h
  obtain ⟨s, -, h⟩ := run_bind_inv h
  cases h
  intro g hg
  rw [List.mem_singleton] at hg
  subst hg
  exact csvGroup_radius ..

theorem multiStep_radius (radius : F K) (ptype : Option (F K)) (pid : ℕ → F K) (l : List (List (Row7 K) × ℕ)) : ∀ (s s' : MultiState K),
    l.foldlM (multiStep radius ptype pid) s = .ok s' → (∀ g ∈ s.groups, StoredRadius radius g) → ∀ g ∈ s'.groups, StoredRadius radius g := by
  induction l with
  | nil => intro s s' h hs; cases h; exact hs
  | cons x l ih =>
    intro s s' h hs
    rw [List.foldlM_cons] at h
    obtain ⟨s1, e, h⟩ := run_bind_inv h
    refine ih s1 s' h ?_
    unfold multiStep at e
    obtain ⟨r, -, e⟩ := run_bind_inv e
    cases e
    intro g hg
    rcases List.mem_append.1 hg with hg | hg
    · exact hs g hg
    · rw [List.mem_singleton] at hg
      subst hg
      exact csvGroup_radius ..

theorem multiWrite_radius (radius : F K) (ptype : Option (F K)) (pid : ℕ → F K) (tables : List (List (Row7 K))) (out : POut K)
    (h : multiWrite radius ptype pid tables = .ok out) : ∀ g ∈ out.groups, StoredRadius radius g := by
  unfold multiWrite at h
  obtain ⟨s, e, h⟩ := run_bind_inv h
  cases h
  exact multiStep_radius radius ptype pid _ _ _ e (by simp)

theorem pyCsvMulti_radius (lib : FitLib K) (o : CsvOpts K) (mode : String) (raw : Option (List (List (F K)))) (out : POut K)
    (h : pyCsvMulti lib o mode raw = .ok (some out)) : ∀ g ∈ out.groups, StoredRadius o.radius g := by
  unfold pyCsvMulti at h
  obtain ⟨t, -, h⟩ := run_bind_inv h
  split_ifs at h
  · obtain ⟨x, e, h⟩ := run_bind_inv h
    cases h
    unfold chainConvert at e
    obtain ⟨_, -, e⟩ := run_bind_inv e
    obtain ⟨_, -, e⟩ := run_bind_inv e
    exact multiWrite_radius _ _ _ _ _ e
  · obtain ⟨x, e, h⟩ := run_bind_inv h
    cases h
    unfold idConvert at e
    split_ifs at e
    obtain ⟨_, -, e⟩ := run_bind_inv e
    obtain ⟨_, -, e⟩ := run_bind_inv e
    obtain ⟨_, -, e⟩ := run_bind_inv e
    exact multiWrite_radius _ _ _ _ _ e
  · cases h

/-! ### Reading -/

theorem sliceOf_inv {α : Type} {l r : List α} {lo hi : ℕ} (h : sliceOf l lo hi = .ok r) : r.length = hi - lo ∧ ∀ x ∈ r, x ∈ l := by
  unfold sliceOf at h
  split_ifs at h with hc
  cases h
  refine ⟨by rw [List.length_take, List.length_drop]; omega, fun x hx => List.mem_of_mem_drop (List.mem_of_mem_take hx)⟩

theorem pColumn_radius (groups : List (PGroup K)) (lo hi pid : ℕ) (radius : F K) (hg : ∀ g ∈ groups, StoredRadius radius g) (c : PColumn K)
    (h : pColumn groups lo hi pid = .ok c) : c.radius.length = hi - lo ∧ ∀ r ∈ c.radius, r = radius := by
  unfold pColumn at h
  obtain ⟨g, e0, h⟩ := run_bind_inv h
  have hmem : g ∈ groups := by
    unfold need at e0
    split at e0
    · rename_i a ha
      cases e0
      exact List.mem_of_getElem? ha
    · cases e0
  obtain ⟨l, hl, hr⟩ := hg g hmem
  obtain ⟨x1, -, h⟩ := run_bind_inv h
  obtain ⟨x2, -, h⟩ := run_bind_inv h
  obtain ⟨x3, -, h⟩ := run_bind_inv h
  obtain ⟨x4, -, h⟩ := run_bind_inv h
  obtain ⟨rad, e, h⟩ := run_bind_inv h
  obtain ⟨x5, -, h⟩ := run_bind_inv h
  obtain ⟨x6, -, h⟩ := run_bind_inv h
  obtain ⟨x7, -, h⟩ := run_bind_inv h
  obtain ⟨x8, -, h⟩ := run_bind_inv h
  obtain ⟨x9, -, h⟩ := run_bind_inv h
  cases h
  rw [hl] at e
  obtain ⟨a, b⟩ := sliceOf_inv e
  exact ⟨a, fun r h => hr r (b r h)⟩

theorem pColumns_radius (groups : List (PGroup K)) (lo hi : ℕ) (radius : F K) (hg : ∀ g ∈ groups, StoredRadius radius g) (ids : List ℕ) :
    ∀ (acc cols : List (PColumn K)), ids.foldlM (fun acc pid => do pure (acc ++ [← pColumn groups lo hi pid])) acc = .ok cols →
      (∀ c ∈ acc, c.radius.length = hi - lo ∧ ∀ r ∈ c.radius, r = radius) → ∀ c ∈ cols, c.radius.length = hi - lo ∧ ∀ r ∈ c.radius, r = radius := by
  induction ids with
  | nil => intro acc cols h ha; cases h; exact ha
  | cons i ids ih =>
    intro acc cols h ha
    rw [List.foldlM_cons] at h
    obtain ⟨acc1, e, h⟩ := run_bind_inv h
    refine ih acc1 cols h ?_
    obtain ⟨c, e1, e'⟩ := run_bind_inv e
    cases e'
    intro d hd
    rcases List.mem_append.1 hd with hd | hd
    · exact ha d hd
    · rw [List.mem_singleton] at hd
      subst hd
      exact pColumn_radius groups lo hi i radius hg d e1

theorem pRow_radius (cols : List (PColumn K)) (n k : ℕ) (hk : k < n) (radius : F K) (hc : ∀ c ∈ cols, c.radius.length = n ∧ ∀ r ∈ c.radius, r = radius)
    (x : Timestep K) (h : pRow cols k = .ok x) : AllOfRadius radius x := by
  unfold pRow at h
  obtain ⟨_, -, h⟩ := run_bind_inv h
  obtain ⟨_, -, h⟩ := run_bind_inv h
  cases h
  intro r hr
  obtain ⟨c, hm, rfl⟩ := List.mem_map.1 hr
  obtain ⟨h1, h2⟩ := hc c hm
  have hlt : k < c.radius.length := by omega
  refine h2 _ ?_
  rw [List.getD_eq_getElem?_getD, List.getElem?_eq_getElem hlt]
  exact List.getElem_mem hlt

theorem bufSet_radius {data data' : ℕ → Timestep K} {i : ℕ} {x : Timestep K} (P : Timestep K → Prop) (hd : ∀ k, P (data k)) (hx : P x)
    (h : bufSet data i x = .ok data') : ∀ k, P (data' k) := by
  unfold bufSet at h
  split_ifs at h
  cases h
  intro k
  by_cases hk : k = i
  · subst hk; rw [Function.update_self]; exact hx
  · rw [Function.update_of_ne hk]; exact hd k

theorem fill_holds {α : Type} (P : Timestep K → Prop) (read : α → Run (Timestep K)) (at_ : α → ℕ) (l : List α) (hl : ∀ k ∈ l, ∀ x, read k = .ok x → P x) :
    ∀ (data data' : ℕ → Timestep K), l.foldlM (fun data k => do let x ← read k; bufSet data (at_ k) x) data = .ok data' → (∀ k, P (data k)) → ∀ k, P (data' k) := by
  induction l with
  | nil => intro data data' h hd; cases h; exact hd
  | cons a l ih =>
    intro data data' h hd
    rw [List.foldlM_cons] at h
    obtain ⟨d1, e, h⟩ := run_bind_inv h
    obtain ⟨x, e1, e2⟩ := run_bind_inv e
    exact ih (fun k hk => hl k (by simp [hk])) d1 data' h (bufSet_radius P hd (hl a (by simp) x e1) e2)

/-- Whatever is read from a file is in the buffer only if some part of the file, or the default, has it. -/
theorem session_holds (p : Profile) (h : H5 K) (P : Timestep K → Prop) (hu : ∀ b lo hi b', h.update p b lo hi = .ok b' → (∀ k, P (b.data k)) → ∀ k, P (b'.data k))
    (dflt : Timestep K) (hd : P dflt) (ts : List ℕ) (l : List (Timestep K)) (hl : h.session p dflt ts = .ok l) : ∀ x ∈ l, P x := by
  have hg : ∀ (ts : List ℕ) (b : Buf (Timestep K)) (l : List (Timestep K)), h.gets p b ts = .ok l → (∀ k, P (b.data k)) → ∀ x ∈ l, P x := by
    intro ts
    induction ts with
    | nil => intro b l h _; cases h; simp
    | cons t ts ih =>
      intro b l hl hb
      rw [H5.gets] at hl
      obtain ⟨r, e, hl⟩ := run_bind_inv hl
      obtain ⟨l', e', hl⟩ := run_bind_inv hl
      cases hl
      unfold H5.get at e
      obtain ⟨last, -, e⟩ := run_bind_inv e
      obtain ⟨b', eb, e⟩ := run_bind_inv e
      obtain ⟨i, -, e⟩ := run_bind_inv e
      obtain ⟨x, ex, e⟩ := run_bind_inv e
      cases e
      have hb' : ∀ k, P (b'.data k) := by
        unfold H5.refresh at eb
        split_ifs at eb
        · obtain ⟨z, -, eb⟩ := run_bind_inv eb
          exact hu _ _ _ _ eb hb
        · exact hu _ _ _ _ eb hb
        · cases eb; exact hb
      have hx : P x := by
        unfold Buf.at' at ex
        split_ifs at ex
        cases ex
        exact hb' i
      intro y hy
      rcases List.mem_cons.1 hy with rfl | hy
      · exact hx
      · exact ih b' l' e' hb' y hy
  unfold H5.session at hl
  obtain ⟨b, e, hl⟩ := run_bind_inv hl
  exact hg ts b l hl (hu _ _ _ _ e fun _ => hd)

theorem read_radius (p : Profile) (out : POut K) (radius : F K) (hg : ∀ g ∈ out.groups, StoredRadius radius g) (ts : List ℕ) (l : List (Timestep K))
    (h : out.file.session p Timestep.default ts = .ok l) : ∀ x ∈ l, AllOfRadius radius x := by
  refine session_holds p out.file (AllOfRadius radius) ?_ _ (by unfold AllOfRadius Timestep.default; simp) ts l h
  intro b lo hi b' e hb
  change pUpdate p out.groups out.attrs.n out.attrs.np b lo hi = .ok b' at e
  unfold pUpdate at e
  dsimp only at e
  generalize (if hi ≥ out.attrs.n then out.attrs.n else hi) = m at e
  obtain ⟨size, -, e⟩ := run_bind_inv e
  split_ifs at e
  obtain ⟨cols, e1, e⟩ := run_bind_inv e
  obtain ⟨data, e2, e⟩ := run_bind_inv e
  cases e
  unfold pColumns at e1
  have hc := pColumns_radius out.groups lo m radius hg _ _ _ e1 (by simp)
  exact fill_holds (AllOfRadius radius) (fun k => pRow cols k) (fun k => k) _ (fun k hk x hx => pRow_radius cols (m - lo) k (List.mem_range.1 hk) radius hc x hx) _ _ e2 hb

/-- **C146, one trajectory.** Whatever the CSV file and the options, every particle of every timestep that is read from the converted file has the radius given. -/
theorem C146_csv (lib : FitLib K) (cl : CsvLib K) (o : CsvOpts K) (a : CsvArgs) (text : List Char) (out : POut K) (h : csvFromText lib cl o a text = .ok out)
    (p : Profile) (ts : List ℕ) (l : List (Timestep K)) (hl : out.file.session p Timestep.default ts = .ok l) : ∀ x ∈ l, ∀ r ∈ x.radius, r = o.radius := by
  unfold csvFromText at h
  split_ifs at h
  obtain ⟨t, -, h⟩ := run_bind_inv h
  unfold pyCsv at h
  split_ifs at h
  exact read_radius p out o.radius (csvConvert_radius lib o t out h) ts l hl

/-- **C146, several trajectories.** The same for both methods of `csv_multi`. -/
theorem C146_multi (lib : FitLib K) (cl : CsvLib K) (o : CsvOpts K) (a : CsvArgs) (mode : String) (text : List Char) (out : POut K)
    (h : csvMultiFromText lib cl o a mode text = .ok (some out)) (p : Profile) (ts : List ℕ) (l : List (Timestep K))
    (hl : out.file.session p Timestep.default ts = .ok l) : ∀ x ∈ l, ∀ r ∈ x.radius, r = o.radius := by
  unfold csvMultiFromText at h
  split_ifs at h
  · obtain ⟨t, -, h⟩ := run_bind_inv h
    exact read_radius p out o.radius (pyCsvMulti_radius lib o mode (some t) out h) ts l hl
  · cases h

/-! ### One file per timestep -/

theorem tRead_radius (groups : List (TGroup K)) (hg : ∀ g ∈ groups, ∃ l, g.radius = some l ∧ ∀ r ∈ l, r = (0 : F K)) (t : ℕ) (x : Timestep K)
    (h : tRead groups t = .ok x) : AllOfRadius 0 x := by
  unfold tRead at h
  obtain ⟨g, e0, h⟩ := run_bind_inv h
  have hmem : g ∈ groups := by
    unfold need at e0
    split at e0
    · rename_i a ha
      cases e0
      exact List.mem_of_getElem? ha
    · cases e0
  obtain ⟨l, hl, hr⟩ := hg g hmem
  obtain ⟨x1, -, h⟩ := run_bind_inv h
  obtain ⟨x2, -, h⟩ := run_bind_inv h
  obtain ⟨rad, e, h⟩ := run_bind_inv h
  obtain ⟨x4, -, h⟩ := run_bind_inv h
  obtain ⟨x5, -, h⟩ := run_bind_inv h
  obtain ⟨x6, -, h⟩ := run_bind_inv h
  obtain ⟨x7, -, h⟩ := run_bind_inv h
  rw [hl] at e
  cases e
  cases h
  exact hr

theorem fileStep_radius (cols : List ℕ) (times : List (F K)) (l : List (List (List (F K)) × ℕ)) : ∀ (s s' : VtkState K),
    l.foldlM (fileStep cols times) s = .ok s' → (∀ g ∈ s.groups, ∃ l, g.radius = some l ∧ ∀ r ∈ l, r = (0 : F K)) →
      ∀ g ∈ s'.groups, ∃ l, g.radius = some l ∧ ∀ r ∈ l, r = (0 : F K) := by
  induction l with
  | nil => intro s s' h hs; cases h; exact hs
  | cons x l ih =>
    intro s s' h hs
    rw [List.foldlM_cons] at h
    obtain ⟨s1, e, h⟩ := run_bind_inv h
    refine ih s1 s' h ?_
    unfold fileStep at e
    obtain ⟨r, -, e⟩ := run_bind_inv e
    obtain ⟨rows, -, e⟩ := run_bind_inv e
    cases e
    intro g hg
    rcases List.mem_append.1 hg with hg | hg
    · exact hs g hg
    · rw [List.mem_singleton] at hg
      subst hg
      refine ⟨_, rfl, fun r hr => ?_⟩
      obtain ⟨_, -, rfl⟩ := List.mem_map.1 hr
      rfl

/-- **C146, one file per timestep (partial).** Every particle read from a file written by `csv_multi_files` has the radius 0, whatever radius was given: that is the radius given if it
was 0, the default. -/
theorem C146_files_partial (cl : CsvLib K) (o : CsvOpts K) (a : CsvArgs) (times : List (F K)) (texts : List (List Char)) (out : TOut K)
    (h : pyCsvFiles cl o a times texts = .ok out) (p : Profile) (ts : List ℕ) (l : List (Timestep K))
    (hl : out.file.session p Timestep.default ts = .ok l) : ∀ x ∈ l, ∀ r ∈ x.radius, r = 0 := by
  unfold pyCsvFiles csvFilesFromText at h
  obtain ⟨t, -, h⟩ := run_bind_inv h
  unfold fileConvert at h
  split_ifs at h
  obtain ⟨s, e, h⟩ := run_bind_inv h
  cases h
  have hg := fileStep_radius o.cols times _ _ _ e (by simp [VtkState.init])
  refine session_holds p _ (AllOfRadius 0) ?_ _ (by unfold AllOfRadius Timestep.default; simp) ts l hl
  intro b lo hi b' e hb
  change tUpdate p s.groups t.length b lo hi = .ok b' at e
  unfold tUpdate at e
  dsimp only at e
  generalize (if hi ≥ t.length then t.length else hi) = m at e
  obtain ⟨size, -, e⟩ := run_bind_inv e
  obtain ⟨data, e2, e⟩ := run_bind_inv e
  cases e
  exact fill_holds (AllOfRadius 0) (fun k => tRead s.groups k) (fun k => k - lo) _ (fun k _ x hx => tRead_radius s.groups hg k x hx) _ _ e2 hb

/-- **C146 refuted for `csv_multi_files`:** there is a file with one particle such that, whatever radius is given and whether or not velocities and interpolation are asked for, the
converted file has the radius 0 and no velocity. -/
theorem C146_false : ∃ (cl : CsvLib ℝ) (text : List Char), ∀ (vel interp : Bool) (radius : F ℝ) (sampling : ℕ), ∃ out : TOut ℝ,
    pyCsvFiles cl ⟨[0, 1, 2, 3], vel, interp, radius, sampling⟩ ⟨",", true, "#"⟩ [fin 5] [text] = .ok out ∧
    ∀ p, ∃ x, out.file.session p Timestep.default [0] = .ok [x] ∧ x.position = [fun _ => fin 2] ∧ x.radius = [0] ∧ x.velocity = [fun _ => nan] := by
  refine ⟨digitLib, "i,x,y,z\n1,2,2,2".toList, fun vel interp radius sampling => ?_⟩
  have hdig : ∀ n : ℕ, ∀ c : Char, c.isDigit = true → c.toNat - 48 = n → digitLib.parse [c] = some (fin (n : ℝ)) := by
    intro n c h1 h2
    change (if c.isDigit then some (fin ((c.toNat - 48 : ℕ) : ℝ)) else none) = _
    rw [if_pos h1, h2]
  obtain ⟨out, e, h⟩ := C103_files_partial digitLib [fin 5] [([(.row [['i'], ['x'], ['y'], ['z']], false)], .row [['1'], ['2'], ['2'], ['2']])] (by
      intro f hf
      rw [List.mem_singleton] at hf
      subst hf
      intro l hl
      simp only [List.map_cons, List.map_nil, List.cons_append, List.nil_append, List.mem_cons, List.not_mem_nil, or_false] at hl
      rcases hl with rfl | rfl <;> (unfold CsvLine.Plain PlainChar; decide))
    (by
      intro f hf
      rw [List.mem_singleton] at hf
      subst hf
      exact Or.inl fun _ h => by cases h)
    [[[fin ((1 : ℕ) : ℝ), fin ((2 : ℕ) : ℝ), fin ((2 : ℕ) : ℝ), fin ((2 : ℕ) : ℝ)]]] [[⟨fin 1, fun _ => fin 2, fun _ => nan⟩]] (by
      refine .cons ⟨.cons ?_ .nil, ⟨4, ?_⟩⟩ .nil
      · exact .cons (hdig _ _ (by decide) (by decide)) (.cons (hdig _ _ (by decide) (by decide)) (.cons (hdig _ _ (by decide) (by decide))
          (.cons (hdig _ _ (by decide) (by decide)) .nil)))
      · decide) (by
      refine .cons (.cons ⟨?_, fun j => ?_, fun h => (by cases h), fun _ j => rfl⟩ .nil) .nil
      · simp
      · fin_cases j <;> simp) (by simp) (by simp) (by simp)
  refine ⟨out, e, fun p => ?_⟩
  obtain ⟨l, hl, hx⟩ := h p Timestep.default [0] (by simp)
  cases hx with
  | cons hx hn =>
    cases hn
    obtain ⟨time, rs, h1, h2, h3, h4, h5, h6, h7, -⟩ := hx
    cases h2
    exact ⟨_, hl, h5, h7, h6⟩

/-! ### Cases -/

theorem digit_parse (n : ℕ) (c : Char) (h1 : c.isDigit = true) (h2 : c.toNat - 48 = n) : digitLib.parse [c] = some (fin (n : ℝ)) := by
  change (if c.isDigit then some (fin ((c.toNat - 48 : ℕ) : ℝ)) else none) = _
  rw [if_pos h1, h2]

/-- A file with the rows of two particles. -/
def pairLines : List (CsvLine × Bool) :=
  [(.row [['t'], ['i'], ['x'], ['y'], ['z'], ['u'], ['v'], ['w']], false),
   (.row [['2'], ['1'], ['0'], ['0'], ['0'], ['0'], ['0'], ['0']], false), (.row [['1'], ['0'], ['1'], ['1'], ['1'], ['0'], ['0'], ['0']], false),
   (.row [['3'], ['0'], ['1'], ['1'], ['1'], ['0'], ['0'], ['0']], false), (.row [['1'], ['1'], ['0'], ['0'], ['0'], ['0'], ['0'], ['0']], false)]

theorem pairLines_plain : ∀ l ∈ pairLines.map Prod.fst ++ [CsvLine.blank], l.Plain ',' '#' := by
  intro l hl
  simp only [pairLines, List.map_cons, List.map_nil, List.cons_append, List.nil_append, List.mem_cons, List.not_mem_nil, or_false] at hl
  rcases hl with rfl | rfl | rfl | rfl | rfl | rfl
  · unfold CsvLine.Plain PlainChar; decide
  · unfold CsvLine.Plain PlainChar; decide
  · unfold CsvLine.Plain PlainChar; decide
  · unfold CsvLine.Plain PlainChar; decide
  · unfold CsvLine.Plain PlainChar; decide
  · trivial

theorem pairLines_table (esc : Bool) : readTable digitLib true esc ⟨",", true, "#"⟩ (csvText ',' '#' pairLines .blank) = .ok twoIdsRaw := by
  refine (C101_table digitLib true esc ⟨",", true, "#"⟩ (d := ',') (c := '#') (ds := []) (cs := []) (by decide) (by decide) (by unfold PlainChar; decide) (by unfold PlainChar; decide)
    pairLines .blank pairLines_plain (Or.inl fun _ h => by cases h) twoIdsRaw).2 ⟨?_, ⟨8, by decide⟩, fun h => by cases h⟩
  change List.Forall₂ (Reads digitLib) [[['2'], ['1'], ['0'], ['0'], ['0'], ['0'], ['0'], ['0']], [['1'], ['0'], ['1'], ['1'], ['1'], ['0'], ['0'], ['0']],
    [['3'], ['0'], ['1'], ['1'], ['1'], ['0'], ['0'], ['0']], [['1'], ['1'], ['0'], ['0'], ['0'], ['0'], ['0'], ['0']]] _
  have d0 : digitLib.parse ['0'] = some (0 : F ℝ) := by rw [digit_parse 0 '0' (by decide) (by decide), F.zero_def]; simp
  have d0' : digitLib.parse ['0'] = some (fin (0 : ℝ)) := by rw [d0, F.zero_def]
  have d1 : digitLib.parse ['1'] = some (1 : F ℝ) := by rw [digit_parse 1 '1' (by decide) (by decide), F.one_def]; simp
  have d1' : digitLib.parse ['1'] = some (fin (1 : ℝ)) := by rw [d1, F.one_def]
  have d2 : digitLib.parse ['2'] = some (fin (2 : ℝ)) := by rw [digit_parse 2 '2' (by decide) (by decide)]; simp
  have d3 : digitLib.parse ['3'] = some (fin (3 : ℝ)) := by rw [digit_parse 3 '3' (by decide) (by decide)]; simp
  refine .cons (.cons d2 (.cons d1' (.cons d0 (.cons d0 (.cons d0 (.cons d0 (.cons d0 (.cons d0 .nil))))))))
    (.cons (.cons d1' (.cons d0' (.cons d1 (.cons d1 (.cons d1 (.cons d0 (.cons d0 (.cons d0 .nil))))))))
    (.cons (.cons d3 (.cons d0' (.cons d1 (.cons d1 (.cons d1 (.cons d0 (.cons d0 (.cons d0 .nil))))))))
    (.cons (.cons d1' (.cons d1' (.cons d0 (.cons d0 (.cons d0 (.cons d0 (.cons d0 (.cons d0 .nil)))))))) .nil)))

/-- Case for `C146_multi`: a file with two particles; every timestep read has the radius given. -/
example (lib : FitLib ℝ) (p : Profile) (radius : F ℝ) : ∃ (out : POut ℝ) (x : Timestep ℝ),
    csvMultiFromText lib digitLib ⟨[0, 1, 2, 3, 4, 5, 6, 7], false, false, radius, 9⟩ ⟨",", true, "#"⟩ "id_line" (csvText ',' '#' pairLines .blank) = .ok (some out) ∧
    out.file.session p Timestep.default [1] = .ok [x] ∧ x.radius = [radius] := by
  obtain ⟨out, e, -, h⟩ := twoIds_reads lib radius
  obtain ⟨l, hl, hlen, hx⟩ := h p Timestep.default [1] (by simp)
  obtain ⟨x, rfl⟩ := List.length_eq_one_iff.1 hlen
  refine ⟨out, x, ?_, hl, (hx x (by simp)).2⟩
  unfold csvMultiFromText
  rw [if_pos (Or.inr rfl), pairLines_table, run_bind_ok]
  unfold pyCsvMulti
  rw [show need (some (twoIdsRaw : List (List (F ℝ)))) = .ok twoIdsRaw from rfl, run_bind_ok]
  rw [if_neg (by decide), if_pos rfl, e]
  rfl

/-- Case for `C146_csv`: the file with two rows of `C104_text`. -/
example (lib : FitLib ℝ) (p : Profile) (radius : F ℝ) : ∃ (out : POut ℝ) (x : Timestep ℝ),
    csvFromText lib digitLib ⟨[0, 1, 2, 3, 4, 5, 6], false, false, radius, 9⟩ ⟨",", true, "#"⟩ (csvText ',' '#' demoLines .blank) = .ok out ∧
    out.file.session p Timestep.default [1] = .ok [x] ∧ x.radius = [radius] := by
  have d0 : digitLib.parse ['0'] = some (fin (0 : ℝ)) := by rw [digit_parse 0 '0' (by decide) (by decide)]; simp
  have d1 : digitLib.parse ['1'] = some (fin (1 : ℝ)) := by rw [digit_parse 1 '1' (by decide) (by decide)]; simp
  have d2 : digitLib.parse ['2'] = some (fin (2 : ℝ)) := by rw [digit_parse 2 '2' (by decide) (by decide)]; simp
  have d3 : digitLib.parse ['3'] = some (fin (3 : ℝ)) := by rw [digit_parse 3 '3' (by decide) (by decide)]; simp
  have ht : readTable digitLib false true ⟨",", true, "#"⟩ (csvText ',' '#' demoLines .blank) =
      .ok [[fin 1, fin 2, fin 2, fin 2, fin 0, fin 0, fin 0], [fin 2, fin 3, fin 3, fin 3, fin 1, fin 1, fin 1]] := by
    refine (C101_table digitLib false true ⟨",", true, "#"⟩ (d := ',') (c := '#') (ds := []) (cs := []) (by decide) (by decide) (by unfold PlainChar; decide)
      (by unfold PlainChar; decide) demoLines .blank demo_plain (Or.inl fun _ h => by cases h) _).2 ⟨?_, ⟨7, by decide⟩, fun _ => ⟨7, by decide⟩⟩
    change List.Forall₂ (Reads digitLib) [[['1'], ['2'], ['2'], ['2'], ['0'], ['0'], ['0']], [['2'], ['3'], ['3'], ['3'], ['1'], ['1'], ['1']]] _
    exact .cons (.cons d1 (.cons d2 (.cons d2 (.cons d2 (.cons d0 (.cons d0 (.cons d0 .nil)))))))
      (.cons (.cons d2 (.cons d3 (.cons d3 (.cons d3 (.cons d1 (.cons d1 (.cons d1 .nil))))))) .nil)
  obtain ⟨out, e, -, h⟩ := C65_all lib ⟨[0, 1, 2, 3, 4, 5, 6], false, false, radius, 9⟩ rfl rfl rfl
    [[fin 1, fin 2, fin 2, fin 2, fin 0, fin 0, fin 0], [fin 2, fin 3, fin 3, fin 3, fin 1, fin 1, fin 1]] demoTable (by
      refine .cons ⟨?_, fun j => ?_, fun j => ?_⟩ (.cons ⟨?_, fun j => ?_, fun j => ?_⟩ .nil) <;> first | (fin_cases j <;> simp) | simp) (by
      simp only [demoTable, List.pairwise_cons, List.mem_singleton, forall_eq, List.not_mem_nil, IsEmpty.forall_iff, implies_true, List.Pairwise.nil, and_true]
      exact (F.lt_fin _ _).2 (by norm_num)) (by
      simp only [demoTable, List.mem_cons, List.not_mem_nil, or_false, forall_eq_or_imp, forall_eq, F.zero_def]
      exact ⟨(F.lt_fin _ _).2 (by norm_num), (F.lt_fin _ _).2 (by norm_num)⟩) _ rfl (by simp) (by simp [demoTable])
  obtain ⟨l, hl, hx⟩ := h p Timestep.default [1] (by simp [demoTable])
  have hc : csvFromText lib digitLib ⟨[0, 1, 2, 3, 4, 5, 6], false, false, radius, 9⟩ ⟨",", true, "#"⟩ (csvText ',' '#' demoLines .blank) = .ok out := by
    unfold csvFromText
    rw [if_neg (show ¬ (9 % 2 = 0) by decide), ht, run_bind_ok]
    unfold pyCsv
    rw [if_neg (show ¬ (9 % 2 = 0) by decide), e]
  cases hx with
  | @cons _ x _ _ hx hn =>
    cases hn
    refine ⟨out, x, hc, hl, ?_⟩
    obtain ⟨r, -, hp⟩ := hx
    exact hp.2.2.2.1

/-- Case for `C146_files_partial`: the file of `C146_false`, with radius 0. -/
example : ∃ (cl : CsvLib ℝ) (text : List Char) (out : TOut ℝ), pyCsvFiles cl ⟨[0, 1, 2, 3], false, false, 0, 9⟩ ⟨",", true, "#"⟩ [fin 5] [text] = .ok out ∧
    ∀ p, ∃ x, out.file.session p Timestep.default [0] = .ok [x] ∧ x.radius = [0] := by
  obtain ⟨cl, text, h⟩ := C146_false
  obtain ⟨out, e, h⟩ := h false false 0 9
  refine ⟨cl, text, out, e, fun p => ?_⟩
  obtain ⟨x, h1, -, h2, -⟩ := h p
  exact ⟨x, h1, h2⟩

end Up4
