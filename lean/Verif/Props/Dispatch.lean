import Verif.Props.FileNames
import Verif.Props.Vtk

set_option linter.unusedSectionVars false

/-!
# C96, C97, C98: the entry points of `Converter`
-/

namespace Up4
open F
open Selector (at')

variable {K : Type} [Field K] [LinearOrder K] [IsStrictOrderedRing K] [FloorRing K] [Arith K]

/-! ### What a file holds -/

/-- How the filter selects the kind of the files: `.vtk` for legacy files, otherwise `.vtu` for XML files of unstructured grids, otherwise `.vtp` for XML files
of polygonal data. -/
def Selects (filter : String) : Reader → Prop
  | .legacy => ".vtk".toList <:+: filter.toList
  | .xml .ugrid => ¬ ".vtk".toList <:+: filter.toList ∧ ".vtu".toList <:+: filter.toList
  | .xml .poly => ¬ ".vtk".toList <:+: filter.toList ∧ ¬ ".vtu".toList <:+: filter.toList ∧ ".vtp".toList <:+: filter.toList

theorem selects_iff (filter : String) (r : Reader) : readerFor filter = some r ↔ Selects filter r := by
  unfold readerFor contains
  simp only [decide_eq_true_eq]
  have key : ∀ {x y : Reader} {P : Prop}, (P ↔ x = y) → (some x = some y ↔ P) := fun h => by rw [Option.some.injEq]; exact h.symm
  by_cases h1 : ".vtk".toList <:+: filter.toList
  · rw [if_pos h1]
    refine key ?_
    rcases r with _ | _ | _
    · exact ⟨fun _ => rfl, fun _ => h1⟩
    · exact ⟨fun h => absurd h1 h.1, fun h => (by cases h)⟩
    · exact ⟨fun h => absurd h1 h.1, fun h => (by cases h)⟩
  rw [if_neg h1]
  by_cases h2 : ".vtu".toList <:+: filter.toList
  · rw [if_pos h2]
    refine key ?_
    rcases r with _ | _ | _
    · exact ⟨fun h => absurd h h1, fun h => (by cases h)⟩
    · exact ⟨fun h => absurd h2 h.2.1, fun h => (by cases h)⟩
    · exact ⟨fun _ => rfl, fun _ => ⟨h1, h2⟩⟩
  rw [if_neg h2]
  by_cases h3 : ".vtp".toList <:+: filter.toList
  · rw [if_pos h3]
    refine key ?_
    rcases r with _ | _ | _
    · exact ⟨fun h => absurd h h1, fun h => (by cases h)⟩
    · exact ⟨fun _ => rfl, fun _ => ⟨h1, h2, h3⟩⟩
    · exact ⟨fun h => absurd h.2 h2, fun h => (by cases h)⟩
  rw [if_neg h3]
  rcases r with _ | _ | _
  · exact ⟨fun h => (by cases h), fun h => absurd h h1⟩
  · exact ⟨fun h => (by cases h), fun h => absurd h.2.2 h3⟩
  · exact ⟨fun h => (by cases h), fun h => absurd h.2 h2⟩

/-- The name of the field the sizes are read from: the diameter field if one is named, the radius field otherwise. -/
def sizeField (n : FieldNames) : String :=
  match n.diameter with
  | some d => d
  | none => n.radius

/-- What these names ask of the conversion: ids, velocities and types, and sizes that are diameters (`some false`) if a diameter field is named, radii (`some true`)
otherwise. -/
def askedFor (n : FieldNames) : VtkOpts :=
  match n.diameter with
  | some _ => ⟨true, true, true, some false⟩
  | none => ⟨true, true, true, some true⟩

theorem sizeField_eq (n : FieldNames) : n.size = sizeField n := by
  unfold FieldNames.size sizeField
  cases n.diameter <;> rfl

theorem askedFor_eq (n : FieldNames) : n.opts = askedFor n := by
  unfold FieldNames.opts askedFor
  cases n.diameter <;> rfl

/-- The named columns of a list of particles. -/
def columns (n : FieldNames) (rs : List (Rec K)) : List (String × List (F K)) :=
  [(n.id, rs.map fun r => fin (r.num : K)), (sizeField n, rs.map Rec.size), (n.type, rs.map fun r => fin (r.typ : K)), (n.velocity, flat3 (rs.map Rec.vel))]

/-- A piece of an XML file that lists these particles: their positions, and one array for each column. -/
structure PieceHolds (n : FieldNames) (p : Piece K) (rs : List (Rec K)) : Prop where
  points : p.points = flat3 (rs.map Rec.pos)
  has : ∀ x ∈ columns n rs, ∃ before after, p.attrs = before ++ .array x.1 x.2 :: after ∧ ∀ a ∈ before ++ after, ∀ d, a ≠ .array x.1 d

/-- A legacy file that lists these particles: one piece, with the positions and a field with an array for each column. -/
def LegacyHolds (n : FieldNames) (d : DataSet K) (rs : List (Rec K)) : Prop :=
  ∃ p name arrays others, d = .poly [p] ∧ p.points = flat3 (rs.map Rec.pos) ∧ p.attrs = .field name arrays :: others ∧
    ∀ x ∈ columns n rs, ∃ before after, arrays = before ++ (x.1, x.2) :: after ∧ ∀ a ∈ before, a.1 ≠ x.1

/-- The data set with these pieces. -/
def setOf : VtkType → List (Piece K) → DataSet K
  | .poly, l => .poly l
  | .ugrid, l => .ugrid l

/-- A file that lists these particles: for XML files, in one piece after the other. -/
def FileHolds (r : Reader) (n : FieldNames) (d : DataSet K) (rs : List (Rec K)) : Prop :=
  match r with
  | .legacy => LegacyHolds n d rs
  | .xml ty => ∃ l : List (Piece K × List (Rec K)), d = setOf ty (l.map Prod.fst) ∧ (∀ x ∈ l, PieceHolds n x.1 x.2) ∧ rs = l.flatMap Prod.snd

/-- Ids and types are `u64`. -/
def Small (rs : List (Rec K)) : Prop := ∀ r ∈ rs, r.num < 2 ^ 64 ∧ r.typ < 2 ^ 64

/-! ### Reading -/

theorem castAll_eq (l : List ℕ) (h : ∀ n ∈ l, n < 2 ^ 64) : castAll (l.map fun n : ℕ => fin (n : K)) = .ok l := by
  have key : ∀ acc, (l.map fun n : ℕ => fin (n : K)).foldlM (fun acc x => match castU64 x with | some n => .ok (acc ++ [n]) | none => .error .unwrap) acc
      = (.ok (acc ++ l) : Run (List ℕ)) := by
    induction l with
    | nil => intro acc; simp [run_pure]
    | cons n l ih =>
      intro acc
      have hn : castU64 (fin (n : K)) = some n := by
        change (if -1 < (n : K) ∧ (n : K) < (2 : K) ^ 64 then some ⌊(n : K)⌋.toNat else none) = some n
        rw [if_pos, Int.floor_natCast, Int.toNat_natCast]
        refine ⟨by have : (0 : K) ≤ n := Nat.cast_nonneg n; linarith, ?_⟩
        have := h n List.mem_cons_self
        exact_mod_cast this
      rw [List.map_cons, List.foldlM_cons, hn]
      dsimp only
      rw [run_bind_ok, ih (fun m hm => h m (List.mem_cons_of_mem _ hm)), List.append_assoc]
      rfl
  have := key []
  rwa [List.nil_append] at this

theorem named_only {name : String} {data : List (F K)} {l before after : List (PointAttr K)} (h : l = before ++ .array name data :: after)
    (hno : ∀ a ∈ before ++ after, ∀ d, a ≠ .array name d) : l.flatMap (PointAttr.named name) = data := by
  have hz : ∀ l : List (PointAttr K), (∀ a ∈ l, ∀ d, a ≠ .array name d) → l.flatMap (PointAttr.named name) = [] := by
    intro l hl
    rw [List.flatMap_eq_nil_iff]
    intro a ha
    cases a with
    | array m d =>
      change (if m = name then d else []) = []
      rw [if_neg]
      rintro rfl
      exact hl _ ha d rfl
    | field _ _ => rfl
  subst h
  rw [List.flatMap_append, List.flatMap_cons, hz before fun a ha => hno a (List.mem_append_left _ ha),
    hz after fun a ha => hno a (List.mem_append_right _ ha), List.nil_append, List.append_nil]
  exact if_pos rfl

theorem piecesOf_setOf (ty : VtkType) (l : List (Piece K)) : piecesOf ty (setOf ty l) = .ok l := by
  cases ty <;> rfl

/-- A column of a file, read by name. -/
theorem xml_column (ty : VtkType) (n : FieldNames) (l : List (Piece K × List (Rec K))) (hl : ∀ x ∈ l, PieceHolds n x.1 x.2) (name : String)
    (col : List (Rec K) → List (F K)) (hcol : ∀ rs, (name, col rs) ∈ columns n rs) :
    xmlField ty (setOf ty (l.map Prod.fst)) name = .ok (l.flatMap fun x => col x.2) := by
  unfold xmlField
  rw [piecesOf_setOf, run_bind_ok]
  change Except.ok _ = _
  congr 1
  rw [List.flatMap_map]
  refine List.flatMap_congr fun x hx => ?_
  obtain ⟨before, after, h1, h2⟩ := (hl x hx).has _ (hcol x.2)
  exact named_only h1 h2

theorem flatMap_map {β : Type} (l : List (Piece K × List (Rec K))) (f : Rec K → β) : (l.flatMap fun x => x.2.map f) = (l.flatMap Prod.snd).map f := by
  rw [List.map_flatMap]

theorem flatMap_flat3 (l : List (Piece K × List (Rec K))) (f : Rec K → Fin 3 → F K) :
    (l.flatMap fun x => flat3 (x.2.map f)) = flat3 ((l.flatMap Prod.snd).map f) := by
  unfold flat3
  rw [List.map_flatMap, List.flatMap_assoc]

theorem legacy_column {n : FieldNames} {rs : List (Rec K)} {p : Piece K} {fname : String} {arrays : List (String × List (F K))} {others : List (PointAttr K)}
    (hp : p.attrs = .field fname arrays :: others)
    (h : ∀ x ∈ columns n rs, ∃ before after, arrays = before ++ (x.1, x.2) :: after ∧ ∀ a ∈ before, a.1 ≠ x.1) (name : String) (col : List (F K))
    (hcol : (name, col) ∈ columns n rs) : legacyField (.poly [p]) name = .ok col := by
  unfold legacyField
  change (at' [p] 0 >>= _) = _
  rw [show at' [p] 0 = Except.ok p from rfl, run_bind_ok, hp, show at' (PointAttr.field fname arrays :: others) 0 = Except.ok (.field fname arrays) from rfl, run_bind_ok]
  dsimp only
  obtain ⟨before, after, h1, h2⟩ := h _ hcol
  have e : (arrays.find? fun x => x.1 = name) = some (name, col) := by
    rw [h1, List.find?_append, List.find?_eq_none.2, Option.none_or, List.find?_cons]
    · simp
    · intro a ha
      have := h2 a ha
      simpa using this
  rw [e]

/-- Reading a file that lists these particles. -/
theorem read_eq (r : Reader) (n : FieldNames) {d : DataSet K} {rs : List (Rec K)} (h : FileHolds r n d rs) (hs : Small rs) (z : ℤ) :
    r.read n d z = .ok (vtkOf z rs) := by
  have hids : castAll (rs.map fun r => fin (r.num : K)) = .ok (rs.map Rec.num) := by
    have := castAll_eq (K := K) (rs.map Rec.num) (by
      intro m hm
      obtain ⟨x, hx, rfl⟩ := List.mem_map.1 hm
      exact (hs x hx).1)
    rwa [List.map_map] at this
  have htyp : castAll (rs.map fun r => fin (r.typ : K)) = .ok (rs.map Rec.typ) := by
    have := castAll_eq (K := K) (rs.map Rec.typ) (by
      intro m hm
      obtain ⟨x, hx, rfl⟩ := List.mem_map.1 hm
      exact (hs x hx).2)
    rwa [List.map_map] at this
  have key : r.field d n.id = .ok (rs.map fun r => fin (r.num : K)) ∧ r.field d (sizeField n) = .ok (rs.map Rec.size) ∧
      r.field d n.type = .ok (rs.map fun r => fin (r.typ : K)) ∧ r.field d n.velocity = .ok (flat3 (rs.map Rec.vel)) ∧
      r.points d = .ok (flat3 (rs.map Rec.pos)) := by
    cases r with
    | legacy =>
      obtain ⟨p, name, arrays, others, rfl, h1, h2, h3⟩ := h
      refine ⟨legacy_column h2 h3 _ _ ?_, legacy_column h2 h3 _ _ ?_, legacy_column h2 h3 _ _ ?_, legacy_column h2 h3 _ _ ?_, ?_⟩
      · simp [columns]
      · simp [columns]
      · simp [columns]
      · simp [columns]
      · change Except.ok p.points = _
        rw [h1]
    | xml ty =>
      obtain ⟨l, rfl, h1, rfl⟩ := h
      refine ⟨?_, ?_, ?_, ?_, ?_⟩
      · rw [← flatMap_map]
        exact xml_column ty n l h1 n.id (fun rs => rs.map fun r => fin (r.num : K)) (by intro rs; simp [columns])
      · rw [← flatMap_map]
        exact xml_column ty n l h1 (sizeField n) (fun rs => rs.map Rec.size) (by intro rs; simp [columns])
      · rw [← flatMap_map]
        exact xml_column ty n l h1 n.type (fun rs => rs.map fun r => fin (r.typ : K)) (by intro rs; simp [columns])
      · rw [← flatMap_flat3]
        exact xml_column ty n l h1 n.velocity (fun rs => flat3 (rs.map Rec.vel)) (by intro rs; simp [columns])
      · change xmlPoints ty (setOf ty (l.map Prod.fst)) = _
        unfold xmlPoints
        rw [piecesOf_setOf, run_bind_ok, ← flatMap_flat3]
        change Except.ok _ = _
        congr 1
        rw [List.flatMap_map]
        exact List.flatMap_congr fun x hx => (h1 x hx).points
  obtain ⟨k1, k2, k3, k4, k5⟩ := key
  unfold Reader.read
  rw [k1, run_bind_ok, hids, run_bind_ok, sizeField_eq, k2, run_bind_ok, k3, run_bind_ok, htyp, run_bind_ok, k4, run_bind_ok, k5, run_bind_ok]
  rfl

/-- A named file: its name, the step in the name, the particles it lists. -/
structure Named (K : Type) where
  name : String
  step : ℤ
  recs : List (Rec K)

/-- The file is there, its name matches, and it lists its particles. -/
structure Named.There (eng : Engine) (disk : String → Option (DataSet K)) (r : Reader) (n : FieldNames) (filter : String) (x : Named K) : Prop where
  step : ∃ re, eng filter = some re ∧ stepOf re x.name = .ok x.step
  disk : ∃ d, disk x.name = some d ∧ FileHolds r n d x.recs
  small : Small x.recs

theorem convertFiles_eq (eng : Engine) (disk : String → Option (DataSet K)) (r : Reader) (n : FieldNames) (filter : String) (dt : F K) (l : List (Named K))
    (h : ∀ x ∈ l, x.There eng disk r n filter) :
    convertFiles eng disk r n filter dt (l.map Named.name) = vtkConvert (askedFor n) dt ((l.map fun x => (x.step, x.recs)).map fun f => vtkOf f.1 f.2) := by
  rw [← askedFor_eq]
  unfold convertFiles
  cases hl : l with
  | nil => rfl
  | cons x0 l0 =>
    rw [← hl, if_neg (by rw [hl]; simp)]
    obtain ⟨re, hre, _⟩ := (h x0 (by rw [hl]; exact List.mem_cons_self)).step
    rw [hre, show need (some re) = Except.ok re from rfl, run_bind_ok]
    have e : ((l.map Named.name).foldlM (fun acc name => do
        let z ← stepOf re name
        let d ← need (disk name)
        let f ← r.read n d z
        pure (acc ++ [f])) ([] : List (VtkFile K))) = .ok (l.map fun x => vtkOf x.step x.recs) := by
      clear hl
      have key : ∀ acc : List (VtkFile K), ((l.map Named.name).foldlM (fun acc name => do
        let z ← stepOf re name
        let d ← need (disk name)
        let f ← r.read n d z
        pure (acc ++ [f])) acc) = .ok (acc ++ l.map fun x => vtkOf x.step x.recs) := by
        induction l with
        | nil => intro acc; simp [run_pure]
        | cons x l ih =>
          intro acc
          obtain ⟨⟨re', h1, h2⟩, ⟨d, h3, h4⟩, h5⟩ := h x List.mem_cons_self
          rw [hre] at h1
          injection h1 with h1
          subst h1
          rw [List.map_cons, List.foldlM_cons, h2, run_bind_ok, h3, show need (some d) = Except.ok d from rfl, run_bind_ok, read_eq r n h4 h5, run_bind_ok, run_pure,
            run_bind_ok, ih (fun y hy => h y (List.mem_cons_of_mem _ hy)), List.append_assoc]
          rfl
      have := key []
      rwa [List.nil_append] at this
    rw [e, run_bind_ok, List.map_map]
    rfl

theorem opts_full (n : FieldNames) : (askedFor n).Full := by
  unfold askedFor
  cases n.diameter <;> exact ⟨rfl, rfl, rfl⟩

/-! ### C97 -/

/-- **C97.** `Converter.vtk` on files that are there, with times that do not decrease: timestep `t` of the result, however it is read, is the `t`-th file: its time and
exactly its particles, those of all pieces of an XML file, with radii from the radius field or half of the diameter field. -/
theorem C97_files [LawfulArith K] (eng : Engine) (disk : String → Option (DataSet K)) (r : Reader) (n : FieldNames) (filter : String) (hf : Selects filter r)
    (dt : F K) (l : List (Named K)) (h0 : l ≠ []) (hn : l.length ≤ 2 ^ 50) (h : ∀ x ∈ l, x.There eng disk r n filter) (hr : ∀ x ∈ l, x.recs ≠ [])
    (hc : List.IsChain (fun a b => ¬ b < a) (0 :: l.map fun x => fileTime dt x.step)) :
    ∃ out, pyVtk eng disk n filter dt (l.map Named.name) = .ok (some out) ∧
      ∀ (p : Profile) (dflt : Timestep K) (ts : List ℕ), (∀ t ∈ ts, t < l.length) →
        ∃ L, out.file.session p dflt ts = .ok L ∧ List.Forall₂ (fun t x => ∃ f, l[t]? = some f ∧ IsFile (askedFor n) dt (f.step, f.recs) x) ts L := by
  rw [← selects_iff] at hf
  obtain ⟨out, e, hs⟩ := C61_roundtrip (askedFor n) (opts_full n) dt (l.map fun x => (x.step, x.recs)) (by simpa using h0) (by simpa using hn) (by
    intro f hf
    obtain ⟨x, hx, rfl⟩ := List.mem_map.1 hf
    exact hr x hx) (by
    unfold fileTimes
    rw [List.map_map]
    exact hc)
  refine ⟨out, ?_, ?_⟩
  · unfold pyVtk
    rw [hf]
    dsimp only
    rw [convertFiles_eq eng disk r n filter dt l h, e]
    rfl
  · intro p dflt ts hts
    obtain ⟨L, e2, h2⟩ := hs p dflt ts (by simpa using hts)
    refine ⟨L, e2, h2.imp ?_⟩
    rintro t x ⟨f, hf', hi⟩
    rw [List.getElem?_map] at hf'
    obtain ⟨y, hy, rfl⟩ := Option.map_eq_some_iff.1 hf'
    exact ⟨y, hy, hi⟩

theorem foldlM_bad {α σ : Type} {f : σ → α → Run σ} {l : List α} (h : ∃ x ∈ l, ∀ s, ∃ e, f s x = .error e) (s : σ) : ∃ e, l.foldlM f s = .error e := by
  induction l generalizing s with
  | nil => obtain ⟨x, hx, _⟩ := h; cases hx
  | cons a l ih =>
    rw [List.foldlM_cons]
    cases hs : f s a with
    | error e => exact ⟨e, rfl⟩
    | ok s' =>
      rw [run_bind_ok]
      obtain ⟨x, hx, hbad⟩ := h
      rcases List.mem_cons.1 hx with rfl | hx
      · obtain ⟨e, he⟩ := hbad s
        rw [he] at hs; cases hs
      · exact ih ⟨x, hx, hbad⟩ s'

theorem sortByArray_nil {α : Type} {idx : List ℕ} (h : idx ≠ []) : ∃ e, sortByArray ([] : List α) idx = .error e := by
  unfold sortByArray
  rw [if_neg (by intro h'; exact h (List.length_eq_zero_iff.1 h'.symm))]
  obtain ⟨i, l, rfl⟩ := List.exists_cons_of_ne_nil h
  exact ⟨_, rfl⟩

/-- A file with an empty column is refused. -/
theorem group_empty {o : VtkOpts} (ho : o.hasType = true) {f : VtkFile K} (h : f.ids = [] ∨ f.sizes = [] ∨ f.types = [] ∨ f.velocity = []) (time : F K) :
    ∃ e, vtkGroup o time f = .error e := by
  unfold vtkGroup
  by_cases h1 : o.hasId = false
  · rw [if_pos h1]; exact ⟨_, rfl⟩
  rw [if_neg h1]
  dsimp only
  cases h2 : sortByArray f.ids (makeSortlist f.ids) with
  | error e => exact ⟨e, rfl⟩
  | ok ids =>
    rw [run_bind_ok]
    by_cases h3 : ids = []
    · rw [if_pos h3]; exact ⟨_, rfl⟩
    rw [if_neg h3]
    have hidx : makeSortlist f.ids ≠ [] := by
      intro h0
      rw [h0] at h2
      unfold sortByArray at h2
      have : ([] : List ℕ) = ids := by
        split_ifs at h2
        · injection h2
        · injection h2
      exact h3 this.symm
    have hne : f.ids ≠ [] := by
      intro h0
      apply hidx
      rw [h0]
      apply List.length_eq_zero_iff.1
      unfold makeSortlist
      rw [List.length_mergeSort]
      rfl
    have h := h.resolve_left hne
    cases hrr : vtkRadius o f (makeSortlist f.ids) with
    | error e => exact ⟨e, rfl⟩
    | ok radius =>
      have hs : f.sizes ≠ [] := by
        intro hs
        obtain ⟨e, he⟩ := sortByArray_nil (α := F K) hidx
        unfold vtkRadius at hrr
        rw [hs] at hrr
        rcases ho2 : o.size with _ | b
        · rw [ho2] at hrr; cases hrr
        · rw [ho2] at hrr
          cases b
          · rw [List.map_nil] at hrr; dsimp only at hrr; rw [he] at hrr; cases hrr
          · dsimp only at hrr; rw [he] at hrr; cases hrr
      have h := h.resolve_left hs
      rw [run_bind_ok]
      unfold vtkTypes
      rw [if_pos ho]
      by_cases ht : f.types = []
      · rw [ht]
        obtain ⟨e, he⟩ := sortByArray_nil (α := ℕ) hidx
        rw [he]; exact ⟨e, rfl⟩
      have h := h.resolve_left ht
      rw [h]
      cases sortByArray f.types (makeSortlist f.ids) with
      | error e => exact ⟨e, rfl⟩
      | ok types =>
        rw [run_bind_ok]
        by_cases h4 : o.hasVel = false
        · rw [if_pos h4]; exact ⟨_, rfl⟩
        rw [if_neg h4]
        obtain ⟨e, he⟩ := sortByArray_nil (α := F K) hidx
        rw [he]
        exact ⟨e, rfl⟩

theorem vtkConvert_bad {o : VtkOpts} {dt : F K} {files : List (VtkFile K)} (h : ∃ f ∈ files, ∀ time, ∃ e, vtkGroup o time f = .error e) :
    ∃ e, vtkConvert o dt files = .error e := by
  unfold vtkConvert
  by_cases h0 : files = []
  · rw [if_pos h0]; exact ⟨_, rfl⟩
  rw [if_neg h0]
  obtain ⟨f, hf, hb⟩ := h
  obtain ⟨i, hi, hget⟩ := List.mem_iff_getElem.1 hf
  obtain ⟨e, he⟩ := foldlM_bad (f := vtkStep o dt) (l := files.zipIdx) ⟨(f, i), List.mem_zipIdx_iff_getElem?.2 (by rw [List.getElem?_eq_getElem hi, hget]), fun s => by
    unfold vtkStep
    dsimp only
    by_cases ht : ofInt f.step * dt < s.time1
    · rw [if_pos ht]; exact ⟨_, rfl⟩
    · rw [if_neg ht]
      obtain ⟨e, he⟩ := hb (ofInt f.step * dt)
      rw [he]; exact ⟨e, rfl⟩⟩ VtkState.init
  rw [he]
  exact ⟨e, rfl⟩

/-- No array of this name, where the reader looks for it. -/
def Missing (r : Reader) (d : DataSet K) (name : String) : Prop :=
  match r with
  | .legacy => ∀ l, d = .poly l → ∀ p, l[0]? = some p → ∀ f arrays, p.attrs[0]? = some (.field f arrays) → ∀ a ∈ arrays, a.1 ≠ name
  | .xml ty => ∀ l, d = setOf ty l → ∀ p ∈ l, ∀ data, .array name data ∉ p.attrs

theorem missing_field {r : Reader} {d : DataSet K} {name : String} (h : Missing r d name) : (∃ e, r.field d name = .error e) ∨ r.field d name = .ok [] := by
  cases r with
  | legacy =>
    left
    change ∃ e, legacyField d name = .error e
    unfold legacyField firstPiece
    cases d with
    | ugrid l => exact ⟨_, rfl⟩
    | other => exact ⟨_, rfl⟩
    | poly l =>
      dsimp only
      cases l with
      | nil => exact ⟨_, rfl⟩
      | cons p l =>
        rw [show at' (p :: l) 0 = Except.ok p from rfl, run_bind_ok]
        cases ha : p.attrs with
        | nil => exact ⟨_, rfl⟩
        | cons a as =>
          rw [show at' (a :: as) 0 = Except.ok a from rfl, run_bind_ok]
          cases a with
          | array _ _ => exact ⟨_, rfl⟩
          | field f arrays =>
            dsimp only
            rw [List.find?_eq_none.2]
            · exact ⟨_, rfl⟩
            · intro x hx
              have := h _ rfl p rfl f arrays (by rw [ha]; rfl) x hx
              simpa using this
  | xml ty =>
    change (∃ e, xmlField ty d name = .error e) ∨ xmlField ty d name = .ok []
    unfold xmlField
    cases hp : piecesOf ty d with
    | error e => left; exact ⟨e, rfl⟩
    | ok l =>
      right
      rw [run_bind_ok]
      change Except.ok _ = _
      congr 1
      rw [List.flatMap_eq_nil_iff]
      intro p hpl
      rw [List.flatMap_eq_nil_iff]
      intro a ha
      have hd : d = setOf ty l := by
        cases ty <;> cases d <;> simp only [piecesOf] at hp <;> first | cases hp; rfl | cases hp
      cases a with
      | field _ _ => rfl
      | array m data =>
        change (if m = name then data else []) = []
        rw [if_neg]
        rintro rfl
        exact h l hd p hpl data ha

theorem castAll_nil : castAll ([] : List (F K)) = .ok [] := rfl

/-- A file in which one of the fields is missing: reading fails or a column is empty. -/
theorem read_missing {r : Reader} {n : FieldNames} {d : DataSet K} {name : String} (hn : name = n.id ∨ name = sizeField n ∨ name = n.type ∨ name = n.velocity)
    (h : Missing r d name) (z : ℤ) {f : VtkFile K} (hf : r.read n d z = .ok f) : f.ids = [] ∨ f.sizes = [] ∨ f.types = [] ∨ f.velocity = [] := by
  unfold Reader.read at hf
  obtain ⟨c1, e1, hf⟩ := run_bind_inv hf
  obtain ⟨ids, e2, hf⟩ := run_bind_inv hf
  obtain ⟨sizes, e3, hf⟩ := run_bind_inv hf
  obtain ⟨c2, e4, hf⟩ := run_bind_inv hf
  obtain ⟨types, e5, hf⟩ := run_bind_inv hf
  obtain ⟨vel, e6, hf⟩ := run_bind_inv hf
  obtain ⟨pts, e7, hf⟩ := run_bind_inv hf
  injection hf with hf
  subst hf
  dsimp only
  have key : ∀ {c : List (F K)}, r.field d name = .ok c → c = [] := by
    intro c hc
    rcases missing_field h with ⟨e, he⟩ | he
    · rw [he] at hc; cases hc
    · rw [he] at hc; injection hc with hc; exact hc.symm
  rcases hn with rfl | rfl | rfl | rfl
  · left
    rw [key e1, castAll_nil] at e2
    injection e2 with e2; exact e2.symm
  · right; left; exact key (sizeField_eq n ▸ e3)
  · right; right; left
    rw [key e4, castAll_nil] at e5
    injection e5 with e5; exact e5.symm
  · right; right; right; exact key e6

/-- **C97, missing fields.** If in one of the files there is no array of the name given for the ids, the radius (or diameter), the types or the velocity, the
conversion raises; nothing is filled in. -/
theorem C97_missing (eng : Engine) (disk : String → Option (DataSet K)) (n : FieldNames) (filter : String) (r : Reader) (hr : Selects filter r) (dt : F K)
    (names : List String) (file : String) (hfile : file ∈ names) (d : DataSet K) (hd : disk file = some d) (name : String)
    (hn : name = n.id ∨ name = sizeField n ∨ name = n.type ∨ name = n.velocity) (h : Missing r d name) :
    ∃ e, pyVtk eng disk n filter dt names = .error e := by
  rw [← selects_iff] at hr
  have hbad : ∃ e, convertFiles eng disk r n filter dt names = .error e := by
    unfold convertFiles
    by_cases h0 : names = []
    · rw [if_pos h0]; exact ⟨_, rfl⟩
    rw [if_neg h0]
    cases hre : eng filter with
    | none => exact ⟨_, rfl⟩
    | some re =>
      rw [show need (some re) = Except.ok re from rfl, run_bind_ok]
      have inv : ∀ (l : List String) (acc out : List (VtkFile K)), (l.foldlM (fun acc name => do
          let z ← stepOf re name
          let d ← need (disk name)
          let f ← r.read n d z
          pure (acc ++ [f])) acc) = .ok out → file ∈ l → ∃ f ∈ out, ∃ z, r.read n d z = .ok f := by
        have sub : ∀ (l : List String) (acc out : List (VtkFile K)), (l.foldlM (fun acc name => do
          let z ← stepOf re name
          let d ← need (disk name)
          let f ← r.read n d z
          pure (acc ++ [f])) acc) = .ok out → ∀ f ∈ acc, f ∈ out := by
          intro l
          induction l with
          | nil => intro acc out h f hf; injection h with h; rw [← h]; exact hf
          | cons a l ih =>
            intro acc out h f hf
            rw [List.foldlM_cons] at h
            obtain ⟨acc', h1, h⟩ := run_bind_inv h
            refine ih _ _ h f ?_
            obtain ⟨z, _, h1⟩ := run_bind_inv h1
            obtain ⟨d', _, h1⟩ := run_bind_inv h1
            obtain ⟨g, _, h1⟩ := run_bind_inv h1
            injection h1 with h1
            rw [← h1]
            exact List.mem_append_left _ hf
        intro l
        induction l with
        | nil => intro acc out _ hm; cases hm
        | cons a l ih =>
          intro acc out hrun hm
          rw [List.foldlM_cons] at hrun
          obtain ⟨acc', h1, hrun'⟩ := run_bind_inv hrun
          rcases List.mem_cons.1 hm with rfl | hm
          · obtain ⟨z, _, h1⟩ := run_bind_inv h1
            obtain ⟨d', hd', h1⟩ := run_bind_inv h1
            rw [hd] at hd'
            injection hd' with hd'
            subst hd'
            obtain ⟨g, hg, h1⟩ := run_bind_inv h1
            injection h1 with h1
            refine ⟨g, sub _ _ _ hrun' g ?_, z, hg⟩
            rw [← h1]
            exact List.mem_append_right _ (List.mem_singleton_self g)
          · exact ih acc' out hrun' hm
      cases hfs : (names.foldlM (fun acc name => do
          let z ← stepOf re name
          let d ← need (disk name)
          let f ← r.read n d z
          pure (acc ++ [f])) ([] : List (VtkFile K))) with
      | error e => exact ⟨e, rfl⟩
      | ok out =>
        rw [run_bind_ok]
        obtain ⟨f, hf, z, hz⟩ := inv names [] out hfs hfile
        exact vtkConvert_bad ⟨f, hf, fun time => group_empty rfl (read_missing hn h z hz) time⟩
  obtain ⟨e, he⟩ := hbad
  unfold pyVtk
  rw [hr]
  dsimp only
  rw [he]
  exact ⟨e, rfl⟩

end Up4
