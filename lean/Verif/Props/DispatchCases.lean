import Verif.Props.Folder
import Verif.RealArith

set_option linter.unusedSectionVars false

/-!
# C96, C97: a wrongly shaped field is accepted; concrete folders and files
-/

namespace Up4
open F
open Selector (at')

variable {K : Type} [Field K] [LinearOrder K] [IsStrictOrderedRing K] [FloorRing K] [Arith K]

/-- The field names of the documentation. -/
def docNames : FieldNames := ⟨"v", "radius", "id", "type", none⟩

/-- A legacy file with the columns of these particles. -/
def legacyFile (rs : List (Rec K)) : DataSet K := .poly [⟨flat3 (rs.map Rec.pos), [.field "FieldData" (columns docNames rs)]⟩]

theorem legacyFile_holds (rs : List (Rec K)) : FileHolds .legacy docNames (legacyFile rs) rs := by
  refine ⟨_, _, _, _, rfl, rfl, rfl, ?_⟩
  have hc : columns docNames rs = [("id", rs.map fun r => fin (r.num : K)), ("radius", rs.map Rec.size), ("type", rs.map fun r => fin (r.typ : K)),
    ("v", flat3 (rs.map Rec.vel))] := rfl
  intro x hx
  rw [hc] at hx ⊢
  simp only [List.mem_cons, List.not_mem_nil, or_false] at hx
  rcases hx with rfl | rfl | rfl | rfl
  · exact ⟨[], _, rfl, by simp⟩
  · exact ⟨[_], _, rfl, by simp⟩
  · exact ⟨[_, _], _, rfl, by simp⟩
  · exact ⟨[_, _, _], _, rfl, by simp⟩

/-- A piece of an XML file with the columns of these particles. -/
def xmlPiece (rs : List (Rec K)) : Piece K := ⟨flat3 (rs.map Rec.pos), (columns docNames rs).map fun x => .array x.1 x.2⟩

theorem xmlPiece_holds (rs : List (Rec K)) : PieceHolds docNames (xmlPiece rs) rs := by
  refine ⟨rfl, ?_⟩
  have hc : columns docNames rs = [("id", rs.map fun r => fin (r.num : K)), ("radius", rs.map Rec.size), ("type", rs.map fun r => fin (r.typ : K)),
    ("v", flat3 (rs.map Rec.vel))] := rfl
  unfold xmlPiece
  intro x hx
  rw [hc] at hx ⊢
  simp only [List.mem_cons, List.not_mem_nil, or_false] at hx
  dsimp only [List.map_cons, List.map_nil]
  rcases hx with rfl | rfl | rfl | rfl
  · exact ⟨[], _, rfl, by simp⟩
  · exact ⟨[_], _, rfl, by simp⟩
  · exact ⟨[_, _], _, rfl, by simp⟩
  · exact ⟨[_, _, _], _, rfl, by simp⟩

/-- The engine for filters of the form `(\d+).ext`, for the extension `ext`. -/
def engineFor (ext : List Char) : Engine := fun _ => some fun s => digitsThen ext s.toList

/-! ### A scalar field in the place of the velocity -/

theorem sort_length {α : Type} {data : List α} {ids : List ℕ} (h : data.length = ids.length) :
    ∃ out, sortByArray data (makeSortlist ids) = .ok out ∧ out.length = ids.length := by
  obtain ⟨out, e, _, hp⟩ := C49_scalars data (makeSortlist ids) (by rw [h]; exact (C49_sortlist ids).1)
  exact ⟨out, e, by rw [hp.length_eq, h]⟩

theorem group_scalar {o : VtkOpts} (ho : o.Full) (ht : o.hasType = true) {f : VtkFile K} {P : List (Fin 3 → F K)} (h0 : f.ids ≠ []) (h1 : f.sizes.length = f.ids.length)
    (h2 : f.types.length = f.ids.length) (h3 : f.velocity.length = f.ids.length) (h4 : f.points = flat3 P) (h5 : P.length = f.ids.length)
    (h6 : f.ids.length / 3 * 3 = f.ids.length) (time : F K) :
    ∃ g pos vel, vtkGroup o time f = .ok g ∧ g.position = some pos ∧ pos.length = f.ids.length ∧ g.velocity = some vel ∧ vel.length = f.ids.length / 3 := by
  obtain ⟨i1, i2, i3⟩ := ho
  unfold vtkGroup
  rw [if_neg (by rw [i1]; decide)]
  dsimp only
  obtain ⟨ids, e, hl⟩ := sort_length (data := f.ids) (ids := f.ids) rfl
  rw [e, run_bind_ok, if_neg (by intro h; rw [h] at hl; exact h0 (List.length_eq_zero_iff.1 hl.symm))]
  obtain ⟨rad, er⟩ : ∃ rad, vtkRadius o f (makeSortlist f.ids) = .ok rad := by
    unfold vtkRadius
    obtain ⟨b, hb⟩ := Option.isSome_iff_exists.1 i3
    rw [hb]
    cases b
    · dsimp only
      obtain ⟨out, e, _⟩ := sort_length (data := f.sizes.map fun x => x * fin (1 / 2)) (ids := f.ids) (by rw [List.length_map, h1])
      exact ⟨out, e⟩
    · obtain ⟨out, e, _⟩ := sort_length (data := f.sizes) (ids := f.ids) h1
      exact ⟨out, e⟩
  rw [er, run_bind_ok]
  unfold vtkTypes
  rw [if_pos ht]
  obtain ⟨typ, et, _⟩ := sort_length (data := f.types) (ids := f.ids) h2
  rw [et, run_bind_ok, if_neg (by rw [i2]; decide)]
  obtain ⟨v, ev, hv⟩ := sort_length (data := f.velocity) (ids := f.ids) h3
  rw [ev, run_bind_ok]
  have es : shape3 v = .ok ((List.range (v.length / 3)).map fun k j => v.getD (3 * k + j) 0) := by
    unfold shape3
    rw [if_pos (by rw [hv]; exact h6)]
  rw [es, run_bind_ok, h4]
  obtain ⟨pos, ep, _, hp⟩ := C49_vectors P (makeSortlist f.ids) (by rw [h5]; exact (C49_sortlist f.ids).1)
  rw [ep, run_bind_ok, shape3_flat3, run_bind_ok]
  refine ⟨_, pos, _, rfl, rfl, by rw [hp.length_eq, h5], rfl, ?_⟩
  rw [List.length_map, List.length_range, hv]

/-- **C97 is false of the code for wrongly shaped fields:** a file with a field of one number per particle under the name of the velocity field is accepted if
the number of particles is divisible by three: the result has one velocity for every three particles. -/
theorem C97_shape_false (rs : List (Rec K)) (h0 : rs ≠ []) (h3 : rs.length / 3 * 3 = rs.length) (hs : Small rs) (dt : F K) (ht : ¬ fileTime dt 100 < 0) :
    let d : DataSet K := .poly [⟨flat3 (rs.map Rec.pos), [.field "FieldData" [("id", rs.map fun r => fin (r.num : K)), ("radius", rs.map Rec.size),
      ("type", rs.map fun r => fin (r.typ : K)), ("v", rs.map fun r => r.vel 0)]]⟩]
    ∃ out g pos vel, pyVtk (engineFor ['v', 't', 'k']) (fun _ => some d) docNames "(\\d+).vtk" dt ["drum_100.vtk"] = .ok (some out) ∧
      out.groups = [g] ∧ g.position = some pos ∧ pos.length = rs.length ∧ g.velocity = some vel ∧ vel.length = rs.length / 3 := by
  intro d
  have hids : castAll (rs.map fun r => fin (r.num : K)) = .ok (rs.map Rec.num) := by
    have := castAll_eq (K := K) (rs.map Rec.num) (by
      intro m hm
      obtain ⟨x, hx, rfl⟩ := List.mem_map.1 hm
      exact (hs x hx).1)
    rwa [List.map_map] at this
  have htyp : castAll (rs.map fun r => fin (r.typ : K)) = .ok (rs.map Rec.typ) := by
    have := castAll_eq (K := K) (rs.map Rec.typ) (by
      intro m hm
      obtain ⟨x, hx, rfl⟩ := List.mem_map.1 hm
      exact (hs x hx).2)
    rwa [List.map_map] at this
  have hfield : ∀ name col, [("id", rs.map fun r => fin (r.num : K)), ("radius", rs.map Rec.size), ("type", rs.map fun r => fin (r.typ : K)),
      ("v", rs.map fun r => r.vel 0)].find? (fun x : String × List (F K) => x.1 = name) = some (name, col) → Reader.legacy.field d name = .ok col := by
    intro name col h
    change legacyField d name = _
    unfold legacyField
    rw [show firstPiece d = Except.ok _ from rfl, run_bind_ok]
    rw [show at' _ 0 = Except.ok _ from rfl, run_bind_ok]
    dsimp only
    rw [h]
  have hread : Reader.legacy.read docNames d 100 = .ok ⟨100, rs.map Rec.num, rs.map Rec.size, rs.map Rec.typ, rs.map fun r => r.vel 0, flat3 (rs.map Rec.pos)⟩ := by
    unfold Reader.read
    rw [hfield docNames.id _ rfl, run_bind_ok, hids, run_bind_ok, hfield docNames.size _ rfl, run_bind_ok, hfield docNames.type _ rfl, run_bind_ok, htyp, run_bind_ok,
      hfield docNames.velocity _ rfl, run_bind_ok]
    rfl
  have hstep : stepOf (fun s => digitsThen ['v', 't', 'k'] s.toList) "drum_100.vtk" = .ok 100 := by decide
  obtain ⟨g, pos, vel, hg, g1, g2, g3, g4⟩ := group_scalar (opts_full docNames) rfl
    (f := ⟨100, rs.map Rec.num, rs.map Rec.size, rs.map Rec.typ, rs.map fun r => r.vel 0, flat3 (rs.map Rec.pos)⟩) (P := rs.map Rec.pos) (by simpa using h0)
    (by simp) (by simp) (by simp) rfl (by simp) (by simpa using h3) (fileTime dt 100)
  simp only [List.length_map] at g2 g4
  have hconv : ∃ out, convertFiles (engineFor ['v', 't', 'k']) (fun _ => some d) .legacy docNames "(\\d+).vtk" dt ["drum_100.vtk"] = .ok out ∧ out.groups = [g] := by
    unfold convertFiles
    rw [if_neg (by simp)]
    rw [show need (engineFor ['v', 't', 'k'] "(\\d+).vtk") = Except.ok (fun s => digitsThen ['v', 't', 'k'] s.toList) from rfl, run_bind_ok, List.foldlM_cons, hstep,
      run_bind_ok, show need (some d) = Except.ok d from rfl, run_bind_ok, hread, run_bind_ok, run_pure, run_bind_ok, List.nil_append, List.foldlM_nil, run_pure,
      run_bind_ok]
    unfold vtkConvert
    rw [if_neg (by simp), List.zipIdx_cons, List.zipIdx_nil, List.foldlM_cons]
    have hst : ∃ s, vtkStep docNames.opts dt VtkState.init (⟨100, rs.map Rec.num, rs.map Rec.size, rs.map Rec.typ, rs.map fun r => r.vel 0,
        flat3 (rs.map Rec.pos)⟩, 0) = .ok s ∧ s.groups = [g] := by
      unfold vtkStep
      dsimp only
      change ∃ s, (if fileTime dt 100 < 0 then Except.error Panic.explicit else vtkGroup docNames.opts (fileTime dt 100) _ >>= _) = .ok s ∧ _
      rw [if_neg ht, askedFor_eq, hg, run_bind_ok]
      exact ⟨_, rfl, rfl⟩
    obtain ⟨s, e, hs⟩ := hst
    rw [e, run_bind_ok, List.foldlM_nil, run_pure, run_bind_ok]
    exact ⟨_, rfl, hs⟩
  obtain ⟨out, ho, hog⟩ := hconv
  refine ⟨out, g, pos, vel, ?_, hog, g1, g2, g3, g4⟩
  unfold pyVtk
  rw [show readerFor "(\\d+).vtk" = some .legacy by rfl]
  dsimp only
  rw [ho]
  rfl

/-! ### Concrete cases -/

/-- Two particles. -/
noncomputable def twoRecs : List (Rec ℝ) := [⟨2, fin 1, 1, fun _ => 0, fun _ => fin 5⟩, restRec (fun _ => fin 7)]

theorem twoRecs_small : Small twoRecs := by
  intro r hr
  simp only [twoRecs, restRec, List.mem_cons, List.not_mem_nil, or_false] at hr
  rcases hr with rfl | rfl <;> norm_num

/-- The files of a folder: two legacy files. -/
noncomputable def twoNamed : List (Named ℝ) := [⟨"out/drum_20.vtk", 20, twoRecs⟩, ⟨"out/drum_3.vtk", 3, [restRec (fun _ => fin 7)]⟩]

theorem steps_read : stepOf (fun s => digitsThen ['v', 't', 'k'] s.toList) "out/drum_20.vtk" = .ok 20 ∧
    stepOf (fun s => digitsThen ['v', 't', 'k'] s.toList) "out/drum_3.vtk" = .ok 3 := by decide

/-- The file system with the two files. -/
noncomputable def twoDisk : String → Option (DataSet ℝ) := fun s => if s = "out/drum_20.vtk" then some (legacyFile twoRecs) else
  if s = "out/drum_3.vtk" then some (legacyFile [restRec (fun _ => fin 7)]) else none

theorem twoNamed_there : ∀ x ∈ twoNamed, x.There (engineFor ['v', 't', 'k']) twoDisk .legacy docNames "(\\d+).vtk" := by
  intro x hx
  simp only [twoNamed, List.mem_cons, List.not_mem_nil, or_false] at hx
  rcases hx with rfl | rfl
  · exact ⟨⟨_, rfl, steps_read.1⟩, ⟨_, if_pos rfl, legacyFile_holds _⟩, twoRecs_small⟩
  · refine ⟨⟨_, rfl, steps_read.2⟩, ⟨_, ?_, legacyFile_holds _⟩, ?_⟩
    · unfold twoDisk
      rw [if_neg (by decide), if_pos rfl]
    · intro r hr
      rw [List.mem_singleton] at hr
      subst hr
      norm_num [restRec]

/-- A natural order: by the number in the name. -/
def byStep (a b : String) : Bool :=
  decide ((match stepOf (fun s => digitsThen ['v', 't', 'k'] s.toList) a with | .ok z => z | .error _ => -1) ≤
    (match stepOf (fun s => digitsThen ['v', 't', 'k'] s.toList) b with | .ok z => z | .error _ => -1))

/-- The hypotheses of `C96_folder_partial` for a folder with two legacy files, a bounding box and a text file, listed in another order than that of the steps. -/
theorem twoNamed_folder : ∃ (sorted : List (Named ℝ)) (out : TOut ℝ), sorted.Perm twoNamed ∧ sorted.Pairwise (fun x y => x.step < y.step) ∧
    pyVtkFolder (engineFor ['v', 't', 'k']) twoDisk byStep docNames "(\\d+).vtk" (fin 1)
      ["out/drum_20_boundingBox.vtk", "out/drum_20.vtk", "out/log.txt", "out/drum_3.vtk"] = .ok (some out) ∧
      ∀ (p : Profile) (dflt : Timestep ℝ) (ts : List ℕ), (∀ t ∈ ts, t < 2) →
        ∃ L, out.file.session p dflt ts = .ok L ∧ List.Forall₂ (fun t x => ∃ f, sorted[t]? = some f ∧ IsFile (askedFor docNames) (fin 1) (f.step, f.recs) x) ts L := by
  refine C96_folder_partial (engineFor ['v', 't', 'k']) twoDisk byStep ?_ ?_ docNames "(\\d+).vtk" (by decide) zero_le_one _ twoNamed
    ⟨["out/drum_20_boundingBox.vtk", "out/log.txt"], ?_, ?_⟩ ?_ ?_ ?_ ?_ ?_ ?_ twoNamed_there ?_
  · intro a b c h1 h2
    unfold byStep at *
    exact decide_eq_true ((of_decide_eq_true h1).trans (of_decide_eq_true h2))
  · intro a b
    unfold byStep
    rw [Bool.or_eq_true, decide_eq_true_eq, decide_eq_true_eq]
    exact le_total _ _
  · change List.Perm _ (["out/drum_20.vtk", "out/drum_3.vtk"] ++ _)
    decide
  · intro s hs
    simp only [List.mem_cons, List.not_mem_nil, or_false] at hs
    rcases hs with rfl | rfl <;> (unfold Wanted; decide)
  · intro x hx
    simp only [twoNamed, List.mem_cons, List.not_mem_nil, or_false] at hx
    rcases hx with rfl | rfl <;> (unfold Wanted; dsimp only; decide)
  · intro x hx y hy
    have hb : byStep "out/drum_20.vtk" "out/drum_20.vtk" = true ∧ byStep "out/drum_20.vtk" "out/drum_3.vtk" = false ∧ byStep "out/drum_3.vtk" "out/drum_20.vtk" = true ∧
      byStep "out/drum_3.vtk" "out/drum_3.vtk" = true := by decide
    simp only [twoNamed, List.mem_cons, List.not_mem_nil, or_false] at hx hy
    rcases hx with rfl | rfl <;> rcases hy with rfl | rfl <;> simp [hb]
  · simp [twoNamed]
  · intro x hx
    simp only [twoNamed, List.mem_cons, List.not_mem_nil, or_false] at hx
    rcases hx with rfl | rfl <;> norm_num
  · simp [twoNamed]
  · simp [twoNamed]
  · intro x hx
    simp only [twoNamed, List.mem_cons, List.not_mem_nil, or_false] at hx
    rcases hx with rfl | rfl <;> simp [twoRecs]

/-- The hypotheses of `C97_files` for an XML file with two pieces. -/
example : ∃ out, pyVtk (engineFor ['v', 't', 'p']) (fun _ => some (.poly [xmlPiece twoRecs, xmlPiece twoRecs])) docNames "(\\d+).vtp" (fin 1 : F ℝ)
      ["out/drum_20.vtp"] = .ok (some out) ∧
      ∀ (p : Profile) (dflt : Timestep ℝ) (ts : List ℕ), (∀ t ∈ ts, t < 1) →
        ∃ L, out.file.session p dflt ts = .ok L ∧
          List.Forall₂ (fun t x => ∃ f, ([⟨"out/drum_20.vtp", 20, twoRecs ++ twoRecs⟩] : List (Named ℝ))[t]? = some f ∧
            IsFile (askedFor docNames) (fin 1) (f.step, f.recs) x) ts L := by
  have hst : stepOf (fun s => digitsThen ['v', 't', 'p'] s.toList) "out/drum_20.vtp" = .ok 20 := by decide
  refine C97_files (engineFor ['v', 't', 'p']) (fun _ => some (.poly [xmlPiece twoRecs, xmlPiece twoRecs])) (.xml .poly) docNames "(\\d+).vtp" (by unfold Selects; decide) (fin 1)
    [⟨"out/drum_20.vtp", 20, twoRecs ++ twoRecs⟩] (by simp) (by norm_num) ?_ ?_ ?_
  · intro x hx
    rw [List.mem_singleton] at hx
    subst hx
    refine ⟨⟨_, rfl, hst⟩, ⟨_, rfl, [(xmlPiece twoRecs, twoRecs), (xmlPiece twoRecs, twoRecs)], rfl, ?_, by simp⟩, ?_⟩
    · intro x hx
      simp only [List.mem_cons, List.not_mem_nil, or_false, or_self] at hx
      subst hx
      exact xmlPiece_holds _
    · intro r hr
      rcases List.mem_append.1 hr with h | h <;> exact twoRecs_small r h
  · simp [twoRecs]
  · simp only [List.map_cons, List.map_nil, List.isChain_cons_cons, List.isChain_singleton, and_true]
    exact fileTime_pos zero_le_one (by norm_num) (by norm_num)

/-- The hypotheses of `C97_missing`: the velocity field is called otherwise. -/
example : Missing .legacy (legacyFile twoRecs) "velocity" ∧ Missing (.xml .poly) (.poly [xmlPiece twoRecs]) "velocity" := by
  constructor
  · intro l hl p hp f arrays ha a ham
    unfold legacyFile at hl
    injection hl with hl
    subst hl
    injection hp with hp
    subst hp
    injection ha with ha
    injection ha with _ ha
    subst ha
    simp only [columns, docNames, List.mem_cons, List.not_mem_nil, or_false] at ham
    rcases ham with rfl | rfl | rfl | rfl <;> simp [sizeField]
  · intro l hl p hp data hm
    injection hl with hl
    subst hl
    rw [List.mem_singleton] at hp
    subst hp
    simp [xmlPiece, columns, docNames, sizeField] at hm

/-- The hypotheses of `C97_shape_false`. -/
example : let rs : List (Rec ℝ) := [restRec (fun _ => 0), restRec (fun _ => 0), restRec (fun _ => 0)]
    rs ≠ [] ∧ rs.length / 3 * 3 = rs.length ∧ Small rs ∧ ¬ fileTime (fin 1 : F ℝ) 100 < 0 := by
  refine ⟨by simp, by norm_num, ?_, fileTime_pos zero_le_one (by norm_num) (by norm_num)⟩
  intro r hr
  simp only [List.mem_cons, List.not_mem_nil, or_false, or_self] at hr
  subst hr
  norm_num [restRec]

end Up4
