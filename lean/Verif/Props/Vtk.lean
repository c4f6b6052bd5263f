import Verif.Model.Convert
import Verif.Props.Hdf5
import Verif.Props.Maths

set_option linter.unusedSectionVars false

/-! # C61–C64: conversion of VTK files -/

namespace Up4
open F
open Selector (at')

variable {K : Type} [Field K] [LinearOrder K] [IsStrictOrderedRing K] [FloorRing K] [Arith K]

/-! ### Specification -/

/-- One particle of a VTK file. -/
structure Rec (K : Type) where
  num : ℕ
  size : F K
  typ : ℕ
  vel : Fin 3 → F K
  pos : Fin 3 → F K

/-- A VTK file with a step number in its name that lists these particles. -/
def vtkOf (step : ℤ) (recs : List (Rec K)) : VtkFile K :=
  ⟨step, recs.map Rec.num, recs.map Rec.size, recs.map Rec.typ, flat3 (recs.map Rec.vel), flat3 (recs.map Rec.pos)⟩

/-- The converter was told the fields it needs. -/
def VtkOpts.Full (o : VtkOpts) : Prop := o.hasId = true ∧ o.hasVel = true ∧ o.size.isSome

/-- The radius of a particle: its size, or half of it if the size field is a diameter. -/
def radiusOf (o : VtkOpts) (r : Rec K) : F K := if o.size = some false then r.size * fin (1 / 2) else r.size

/-- The timestep describes these particles, in this order: entry `i` of every attribute belongs to particle `i`. -/
def Describes (o : VtkOpts) (recs : List (Rec K)) (ts : Timestep K) : Prop :=
  ts.particleid = recs.map (fun r => F.ofNat r.num) ∧ ts.radius = recs.map (radiusOf o) ∧ ts.velocity = recs.map Rec.vel ∧
  ts.position = recs.map Rec.pos ∧ ts.ptype = recs.map (fun r => F.ofNat (if o.hasType = true then r.typ else 1)) ∧
  ts.clouds = recs.map (fun _ => F.ofNat 1) ∧ ts.density = recs.map (fun _ => 1)

/-- The time of a file: its step number times the step length. -/
def fileTime (dt : F K) (step : ℤ) : F K := ofInt step * dt

/-! ### Sorting the particles of a file -/

/-- The particles in the order of the sort list. -/
def byId (recs : List (Rec K)) : List (Rec K) := (makeSortlist (recs.map Rec.num)).filterMap fun i => recs[i]?

theorem sortlist_perm (recs : List (Rec K)) : (makeSortlist (recs.map Rec.num)).Perm (List.range recs.length) := by
  have := (C49_sortlist (recs.map Rec.num)).1
  rwa [List.length_map] at this

theorem byId_some (recs : List (Rec K)) : (byId recs).map some = (makeSortlist (recs.map Rec.num)).map fun i => recs[i]? := by
  have hb : ∀ i ∈ makeSortlist (recs.map Rec.num), i < recs.length := fun i hi => List.mem_range.1 ((sortlist_perm recs).subset hi)
  unfold byId
  generalize makeSortlist (recs.map Rec.num) = idx at hb
  induction idx with
  | nil => rfl
  | cons i idx ih =>
    have h := hb i (by simp)
    rw [List.filterMap_cons, List.getElem?_eq_getElem h, List.map_cons, List.map_cons, ih (fun j hj => hb j (by simp [hj])),
      List.getElem?_eq_getElem h]

theorem map_some_inj {α : Type} {a b : List α} (h : a.map some = b.map some) : a = b :=
  List.map_injective_iff.2 (Option.some_injective α) h

theorem byId_perm (recs : List (Rec K)) : (byId recs).Perm recs := by
  obtain ⟨out, _, h1, h2⟩ := C49_scalars recs _ (sortlist_perm recs)
  rw [← byId_some] at h1
  rw [map_some_inj h1] at h2
  exact h2

theorem byId_sorted (recs : List (Rec K)) : (byId recs).Pairwise fun a b => a.num ≤ b.num := by
  have hb : ∀ i ∈ makeSortlist (recs.map Rec.num), i < recs.length := fun i hi => List.mem_range.1 ((sortlist_perm recs).subset hi)
  have ho := (C49_sortlist (recs.map Rec.num)).2
  unfold byId
  rw [List.pairwise_filterMap]
  refine (List.Pairwise.and_mem.1 ho).imp ?_
  rintro i j ⟨hi, hj, h⟩ a ha b hb'
  have h1 := hb i hi
  have h2 := hb j hj
  rw [List.getElem?_eq_getElem h1] at ha
  rw [List.getElem?_eq_getElem h2] at hb'
  cases ha; cases hb'
  dsimp only at h
  rw [getD_lt 0 (by simpa using h1), getD_lt 0 (by simpa using h2)] at h
  simp only [List.getElem_map] at h
  rcases h with h | ⟨h, _⟩ <;> omega

theorem sort_field {α : Type} (recs : List (Rec K)) (f : Rec K → α) :
    sortByArray (recs.map f) (makeSortlist (recs.map Rec.num)) = .ok ((byId recs).map f) := by
  obtain ⟨out, e, h1, _⟩ := C49_scalars (recs.map f) (makeSortlist (recs.map Rec.num)) (by rw [List.length_map]; exact sortlist_perm recs)
  rw [e]
  congr 1
  apply map_some_inj
  rw [h1, List.map_map]
  have := congrArg (List.map (Option.map f)) (byId_some recs)
  rw [List.map_map, List.map_map] at this
  have e1 : (byId recs).map (some ∘ f) = (byId recs).map (Option.map f ∘ some) := rfl
  rw [e1, this]
  apply List.map_congr_left
  intro i _
  simp

theorem sort_vec (recs : List (Rec K)) (f : Rec K → Fin 3 → F K) :
    sortByArray (flat3 (recs.map f)) (makeSortlist (recs.map Rec.num)) = .ok (flat3 ((byId recs).map f)) := by
  obtain ⟨out, e, h1, _⟩ := C49_vectors (recs.map f) (makeSortlist (recs.map Rec.num)) (by rw [List.length_map]; exact sortlist_perm recs)
  rw [e]
  congr 2
  apply map_some_inj
  rw [h1, List.map_map]
  have := congrArg (List.map (Option.map f)) (byId_some recs)
  rw [List.map_map, List.map_map] at this
  have e1 : (byId recs).map (some ∘ f) = (byId recs).map (Option.map f ∘ some) := rfl
  rw [e1, this]
  apply List.map_congr_left
  intro i _
  simp

theorem shape3_flat3 (L : List (Fin 3 → F K)) : shape3 (flat3 L) = .ok L := by
  unfold shape3
  rw [length_flat3, Nat.mul_div_cancel_left _ (by norm_num), if_pos (by ring)]
  congr 1
  apply List.ext_getElem
  · simp
  · intro k h h'
    simp only [List.getElem_map, List.getElem_range]
    funext j
    rw [List.getD_eq_getElem?_getD, flat3_get L k h' j]
    rfl

/-- The datasets written for a file. -/
def groupOf (o : VtkOpts) (time : F K) (recs : List (Rec K)) : TGroup K :=
  let l := byId recs
  ⟨some time, some (l.map Rec.pos), some (l.map Rec.vel), some (l.map (radiusOf o)), none, some (l.map fun _ => F.ofNat 1),
    some (l.map fun r => F.ofNat (if o.hasType = true then r.typ else 1)), some (l.map fun r => F.ofNat r.num)⟩

theorem vtkGroup_ok (o : VtkOpts) (ho : o.Full) (time : F K) (step : ℤ) (recs : List (Rec K)) (hr : recs ≠ []) :
    vtkGroup o time (vtkOf step recs) = .ok (groupOf o time recs) := by
  obtain ⟨hi, hv, hs⟩ := ho
  unfold vtkGroup vtkOf
  dsimp only
  rw [hi, if_neg (by decide), sort_field recs Rec.num, run_bind_ok]
  have hne : (byId recs).map Rec.num ≠ [] := by
    intro h
    have h1 := (byId_perm recs).length_eq
    rw [List.map_eq_nil_iff] at h
    rw [h] at h1
    exact hr (List.length_eq_zero_iff.1 h1.symm)
  rw [if_neg hne]
  have hrad : vtkRadius o (vtkOf step recs) (makeSortlist (recs.map Rec.num)) = .ok ((byId recs).map (radiusOf o)) := by
    unfold vtkRadius vtkOf
    obtain ⟨b, hb⟩ := Option.isSome_iff_exists.1 hs
    rw [hb]
    cases b with
    | true =>
      dsimp only
      rw [sort_field]
      congr 2
      funext r
      unfold radiusOf
      rw [hb, if_neg (by decide)]
    | false =>
      dsimp only
      rw [List.map_map, sort_field]
      congr 2
      funext r
      unfold radiusOf
      rw [hb, if_pos rfl]; rfl
  unfold vtkOf at hrad
  rw [hrad, run_bind_ok]
  have htyp : vtkTypes o (vtkOf step recs) (makeSortlist (recs.map Rec.num)) ((byId recs).map (radiusOf o)).length =
      .ok ((byId recs).map fun r => if o.hasType = true then r.typ else 1) := by
    unfold vtkTypes vtkOf
    by_cases h : o.hasType = true
    · rw [if_pos h]
      dsimp only
      rw [sort_field]
      congr 2
      funext r
      rw [if_pos h]
    · rw [if_neg h]
      congr 1
      have : (fun r : Rec K => if o.hasType = true then r.typ else 1) = fun _ => 1 := by funext r; rw [if_neg h]
      rw [this, List.map_const', List.length_map]
  unfold vtkOf at htyp
  rw [htyp, run_bind_ok, hv, if_neg (by decide), sort_vec, run_bind_ok, shape3_flat3, run_bind_ok, sort_vec, run_bind_ok, shape3_flat3, run_bind_ok, run_pure]
  unfold groupOf
  simp only [List.map_map, Function.comp_def]

/-! ### The loop over the files -/

/-- The particles of all files, in the order they are written. -/
def allRecs (files : List (ℤ × List (Rec K))) : List (Rec K) := files.flatMap fun f => byId f.2

/-- The state of the loop after the files. -/
def vtkAfter (o : VtkOpts) (dt : F K) (s : VtkState K) (k : ℕ) (files : List (ℤ × List (Rec K))) : VtkState K :=
  match files with
  | [] => s
  | f :: files => vtkAfter o dt ⟨s.groups ++ [groupOf o (fileTime dt f.1) f.2], ((byId f.2).map Rec.pos).foldl seePos s.dims,
      (if (f.2.map Rec.num).foldl max 0 > s.np then (f.2.map Rec.num).foldl max 0 else s.np), if k = 0 then fileTime dt f.1 else s.time0, fileTime dt f.1,
      s.timeArray ++ [fileTime dt f.1], fileTime dt f.1 - s.oldTime, fileTime dt f.1, ((byId f.2).map Rec.vel).foldl VelStats.see s.vel,
      s.count + f.2.length⟩ (k + 1) files

/-- The times of the files. -/
def fileTimes (dt : F K) (files : List (ℤ × List (Rec K))) : List (F K) := files.map fun f => fileTime dt f.1

theorem vtkStep_eq (o : VtkOpts) (ho : o.Full) (dt : F K) (f : ℤ × List (Rec K)) (hr : f.2 ≠ []) (s : VtkState K) (k : ℕ) :
    vtkStep o dt s (vtkOf f.1 f.2, k) = (if fileTime dt f.1 < s.time1 then .error .explicit else
      .ok ⟨s.groups ++ [groupOf o (fileTime dt f.1) f.2], ((byId f.2).map Rec.pos).foldl seePos s.dims,
      (if (f.2.map Rec.num).foldl max 0 > s.np then (f.2.map Rec.num).foldl max 0 else s.np), if k = 0 then fileTime dt f.1 else s.time0, fileTime dt f.1,
      s.timeArray ++ [fileTime dt f.1], fileTime dt f.1 - s.oldTime, fileTime dt f.1, ((byId f.2).map Rec.vel).foldl VelStats.see s.vel,
      s.count + f.2.length⟩ : Run (VtkState K)) := by
  unfold vtkStep
  dsimp only
  have et : (ofInt (vtkOf f.1 f.2).step * dt : F K) = fileTime dt f.1 := rfl
  rw [et]
  by_cases h : fileTime dt f.1 < s.time1
  · rw [if_pos h, if_pos h]
  · rw [if_neg h, if_neg h, vtkGroup_ok o ho _ f.1 f.2 hr, run_bind_ok, run_pure]
    simp only [groupOf, Option.getD_some, vtkOf, List.length_map]
    rfl

theorem vtk_loop (o : VtkOpts) (ho : o.Full) (dt : F K) (files : List (ℤ × List (Rec K))) (hr : ∀ f ∈ files, f.2 ≠ []) (s : VtkState K) (k : ℕ) :
    ((files.map fun f => vtkOf f.1 f.2).zipIdx k).foldlM (vtkStep o dt) s =
      (if List.IsChain (fun a b => ¬ b < a) (s.time1 :: fileTimes dt files) then .ok (vtkAfter o dt s k files) else .error .explicit : Run (VtkState K)) := by
  induction files generalizing s k with
  | nil => simp [vtkAfter, fileTimes, run_pure]
  | cons f files ih =>
    rw [List.map_cons, List.zipIdx_cons, List.foldlM_cons, vtkStep_eq o ho dt f (hr f (by simp)) s k]
    have ec : fileTimes dt (f :: files) = fileTime dt f.1 :: fileTimes dt files := rfl
    rw [ec]
    by_cases h : fileTime dt f.1 < s.time1
    · rw [if_pos h, run_bind_error, if_neg (fun hc => absurd h (List.isChain_cons_cons.1 hc).1)]
    · rw [if_neg h, run_bind_ok, ih (fun g hg => hr g (by simp [hg]))]
      dsimp only
      by_cases hc : List.IsChain (fun a b => ¬ b < a) (fileTime dt f.1 :: fileTimes dt files)
      · rw [if_pos hc, if_pos (List.isChain_cons_cons.2 ⟨h, hc⟩)]; rfl
      · rw [if_neg hc, if_neg (fun h' => hc (List.isChain_cons_cons.1 h').2)]

theorem vtkAfter_fields (o : VtkOpts) (dt : F K) (files : List (ℤ × List (Rec K))) (s : VtkState K) (k : ℕ) :
    let r := vtkAfter o dt s k files
    r.groups = s.groups ++ files.map (fun f => groupOf o (fileTime dt f.1) f.2) ∧
    r.timeArray = s.timeArray ++ fileTimes dt files ∧
    r.dims = ((allRecs files).map Rec.pos).foldl seePos s.dims ∧
    r.vel = ((allRecs files).map Rec.vel).foldl VelStats.see s.vel ∧
    r.count = s.count + (allRecs files).length ∧
    r.time1 = (fileTimes dt files).getLastD s.time1 ∧
    r.time0 = (if k = 0 then (fileTimes dt files).headD s.time0 else s.time0) ∧
    s.np ≤ r.np ∧ (∀ f ∈ files, ∀ x ∈ f.2, x.num ≤ r.np) ∧ (r.np = s.np ∨ ∃ f ∈ files, ∃ x ∈ f.2, x.num = r.np) := by
  induction files generalizing s k with
  | nil => simp [vtkAfter, fileTimes, allRecs]
  | cons f files ih =>
    dsimp only
    rw [vtkAfter]
    obtain ⟨h1, h2, h3, h4, h5, h6, h7, h8, h9, h10⟩ := ih ⟨s.groups ++ [groupOf o (fileTime dt f.1) f.2], ((byId f.2).map Rec.pos).foldl seePos s.dims,
      (if (f.2.map Rec.num).foldl max 0 > s.np then (f.2.map Rec.num).foldl max 0 else s.np), if k = 0 then fileTime dt f.1 else s.time0, fileTime dt f.1,
      s.timeArray ++ [fileTime dt f.1], fileTime dt f.1 - s.oldTime, fileTime dt f.1, ((byId f.2).map Rec.vel).foldl VelStats.see s.vel,
      s.count + f.2.length⟩ (k + 1)
    dsimp only at h1 h2 h3 h4 h5 h6 h7 h8 h9 h10
    have ea : allRecs (f :: files) = byId f.2 ++ allRecs files := rfl
    have et : fileTimes dt (f :: files) = fileTime dt f.1 :: fileTimes dt files := rfl
    have hmax : ∀ (l : List ℕ) (a : ℕ), a ≤ l.foldl max a ∧ (∀ x ∈ l, x ≤ l.foldl max a) ∧ (l.foldl max a = a ∨ l.foldl max a ∈ l) := by
      intro l
      induction l with
      | nil => intro a; simp
      | cons x l ihl =>
        intro a
        obtain ⟨i1, i2, i3⟩ := ihl (max a x)
        rw [List.foldl_cons]
        refine ⟨le_trans (le_max_left a x) i1, ?_, ?_⟩
        · intro y hy
          rcases List.mem_cons.1 hy with rfl | hy
          · exact le_trans (le_max_right a y) i1
          · exact i2 y hy
        · rcases i3 with i3 | i3
          · rw [i3]
            rcases max_cases a x with ⟨e, _⟩ | ⟨e, _⟩
            · left; exact e
            · right; rw [e]; simp
          · right; simp [i3]
    obtain ⟨m1, m2, m3⟩ := hmax (f.2.map Rec.num) 0
    refine ⟨?_, ?_, ?_, ?_, ?_, ?_, ?_, ?_, ?_, ?_⟩
    · rw [h1]; simp
    · rw [h2, et]; simp
    · rw [h3, ea, List.map_append, List.foldl_append]
    · rw [h4, ea, List.map_append, List.foldl_append]
    · rw [h5, ea, List.length_append, (byId_perm f.2).length_eq]; omega
    · rw [h6, et]; simp [List.getLastD_eq_getLast?, List.getLast?_cons]
    · rw [h7, et]; simp
    · refine le_trans ?_ h8; split_ifs <;> omega
    · intro g hg x hx
      rcases List.mem_cons.1 hg with rfl | hg
      · have := m2 x.num (List.mem_map_of_mem hx)
        refine le_trans ?_ h8
        split_ifs <;> omega
      · exact h9 g hg x hx
    · rcases h10 with h10 | ⟨g, hg, x, hx, e⟩
      · by_cases hgt : (f.2.map Rec.num).foldl max 0 > s.np
        · right
          rcases m3 with m3 | m3
          · omega
          · obtain ⟨x, hx, e⟩ := List.mem_map.1 m3
            exact ⟨f, by simp, x, hx, by rw [h10, if_pos hgt]; exact e⟩
        · left
          rw [h10, if_neg hgt]
      · exact Or.inr ⟨g, by simp [hg], x, hx, e⟩

/-- What the conversion gives. -/
theorem vtkConvert_eq (o : VtkOpts) (ho : o.Full) (dt : F K) (files : List (ℤ × List (Rec K))) (hf : files ≠ []) (hr : ∀ f ∈ files, f.2 ≠ []) :
    vtkConvert o dt (files.map fun f => vtkOf f.1 f.2) =
      (if List.IsChain (fun a b => ¬ b < a) (0 :: fileTimes dt files) then
        let s := vtkAfter o dt VtkState.init 0 files
        .ok ⟨s.groups, ⟨s.dims, s.np, files.length, s.sampleRate.toUsize, (s.time0, s.time1), fun i => s.vel.attr s.count i, s.vel.magAttr s.count, s.timeArray⟩⟩
      else .error .explicit : Run (TOut K)) := by
  unfold vtkConvert
  rw [if_neg (by simpa using hf), vtk_loop o ho dt files hr]
  have e : (VtkState.init : VtkState K).time1 = 0 := rfl
  rw [e]
  by_cases hc : List.IsChain (fun a b => ¬ b < a) (0 :: fileTimes dt files)
  · rw [if_pos hc, if_pos hc, run_bind_ok, run_pure, List.length_map]
  · rw [if_neg hc, if_neg hc, run_bind_error]

theorem groupOf_complete (o : VtkOpts) (time : F K) (recs : List (Rec K)) : (groupOf o time recs).Complete := by
  simp [groupOf, TGroup.Complete]

theorem groupOf_holds (o : VtkOpts) (time : F K) (recs : List (Rec K)) (ts : Timestep K) (h : (groupOf o time recs).Holds ts) :
    ts.time = time ∧ Describes o (byId recs) ts := by
  obtain ⟨h1, h2, h3, h4, h5, h6, h7, _, h9⟩ := h
  simp only [groupOf, Option.some.injEq] at h1 h2 h3 h4 h5 h6 h7
  obtain ⟨l1, l2⟩ := h9 rfl
  refine ⟨h1.symm, h5.symm, h4.symm, h3.symm, h2.symm, h7.symm, h6.symm, ?_⟩
  rw [List.map_const', List.eq_replicate_iff]
  refine ⟨?_, l2⟩
  rw [l1, ← h4, List.length_map]

/-- The timestep read back is the contents of the VTK file: its time is the step number times the step length, and its particles are those of the file,
each once with all its attributes, in the order of their ids. -/
def IsFile (o : VtkOpts) (dt : F K) (f : ℤ × List (Rec K)) (ts : Timestep K) : Prop :=
  ts.time = fileTime dt f.1 ∧ ∃ recs : List (Rec K), recs.Perm f.2 ∧ recs.Pairwise (fun a b => a.num ≤ b.num) ∧ Describes o recs ts

/-- **C61.** VTK files (any number up to `2^50`, any particles, in any order in each file), listed in the order of their times, are converted without
panic, and whatever is then read from the HDF5 file by a time-based manager, in any order and in both build profiles, is the contents of the VTK files:
timestep `t` is file `t`. -/
theorem C61_roundtrip [LawfulArith K] (o : VtkOpts) (ho : o.Full) (dt : F K) (files : List (ℤ × List (Rec K))) (hf : files ≠ []) (hn : files.length ≤ 2 ^ 50)
    (hr : ∀ f ∈ files, f.2 ≠ []) (hc : List.IsChain (fun a b => ¬ b < a) (0 :: fileTimes dt files)) :
    ∃ out, vtkConvert o dt (files.map fun f => vtkOf f.1 f.2) = .ok out ∧
      ∀ (p : Profile) (dflt : Timestep K) (ts : List ℕ), (∀ t ∈ ts, t < files.length) →
        ∃ l, out.file.session p dflt ts = .ok l ∧ List.Forall₂ (fun t x => ∃ f, files[t]? = some f ∧ IsFile o dt f x) ts l := by
  refine ⟨_, by rw [vtkConvert_eq o ho dt files hf hr, if_pos hc], ?_⟩
  intro p dflt ts hts
  obtain ⟨hg, -⟩ := vtkAfter_fields o dt files VtkState.init 0
  have hg' : (vtkAfter o dt VtkState.init 0 files).groups = files.map (fun f => groupOf o (fileTime dt f.1) f.2) := hg
  dsimp only [TOut.file]
  rw [hg']
  have hpos : 1 ≤ files.length := by
    cases files with
    | nil => exact absurd rfl hf
    | cons _ _ => simp
  obtain ⟨l, e, h⟩ := C59_stored p (⟨.tdata, files.map (fun f => groupOf o (fileTime dt f.1) f.2), [], files.length,
    (vtkAfter o dt VtkState.init 0 files).np⟩ : H5 K) hpos hn (by
      refine ⟨by simp, ?_⟩
      intro g hg
      obtain ⟨f, _, rfl⟩ := List.mem_map.1 (List.mem_of_mem_take hg)
      exact groupOf_complete o _ _) dflt ts hts
  refine ⟨l, e, h.imp ?_⟩
  intro t x hx
  obtain ⟨g, h1, h2⟩ := hx
  dsimp only at h1
  rw [List.getElem?_map] at h1
  obtain ⟨f, h3, rfl⟩ := Option.map_eq_some_iff.1 h1
  obtain ⟨h4, h5⟩ := groupOf_holds o _ _ _ h2
  exact ⟨f, h3, h4, byId f.2, byId_perm f.2, byId_sorted f.2, h5⟩

/-- **C62.** The conversion succeeds exactly when no file is earlier than time 0 or than the file before it; it then records the number of files, the
time of every file in order, the first and the last time as the time range, and the largest id as the number of particles. -/
theorem C62_times (o : VtkOpts) (ho : o.Full) (dt : F K) (files : List (ℤ × List (Rec K))) (hf : files ≠ []) (hr : ∀ f ∈ files, f.2 ≠ []) :
    ((∃ out, vtkConvert o dt (files.map fun f => vtkOf f.1 f.2) = .ok out) ↔ List.IsChain (fun a b => ¬ b < a) (0 :: fileTimes dt files)) ∧
    ∀ out, vtkConvert o dt (files.map fun f => vtkOf f.1 f.2) = .ok out →
      out.attrs.n = files.length ∧ out.attrs.timeArray = fileTimes dt files ∧
      out.groups.map TGroup.time = (fileTimes dt files).map some ∧
      (fileTimes dt files).head? = some out.attrs.time.1 ∧ (fileTimes dt files).getLast? = some out.attrs.time.2 ∧
      (∀ f ∈ files, ∀ x ∈ f.2, x.num ≤ out.attrs.np) ∧ (out.attrs.np = 0 ∨ ∃ f ∈ files, ∃ x ∈ f.2, x.num = out.attrs.np) := by
  rw [vtkConvert_eq o ho dt files hf hr]
  by_cases hc : List.IsChain (fun a b => ¬ b < a) (0 :: fileTimes dt files)
  · rw [if_pos hc]
    refine ⟨⟨fun _ => hc, fun _ => ⟨_, rfl⟩⟩, ?_⟩
    rintro out h
    cases h
    obtain ⟨h1, h2, h3, h4, h5, h6, h7, h8, h9, h10⟩ := vtkAfter_fields o dt files VtkState.init 0
    refine ⟨rfl, h2, ?_, ?_, ?_, h9, h10⟩
    · dsimp only
      rw [h1]
      simp [fileTimes, VtkState.init, groupOf, Function.comp_def]
    · dsimp only
      rw [h7]
      cases files with
      | nil => exact absurd rfl hf
      | cons f files => rfl
    · dsimp only
      rw [h6]
      cases files with
      | nil => exact absurd rfl hf
      | cons f files => simp [fileTimes, List.getLastD_eq_getLast?, List.getLast?_cons]
  · rw [if_neg hc]
    refine ⟨⟨?_, fun h => absurd h hc⟩, ?_⟩
    · rintro ⟨_, h⟩; cases h
    · intro _ h; cases h

/-- **C62, rejection.** Without an id field, a velocity field, or a radius or diameter field, no conversion succeeds. -/
theorem C62_options (o : VtkOpts) (ho : ¬ o.Full) (dt : F K) (files : List (ℤ × List (Rec K))) :
    ∃ e, vtkConvert o dt (files.map fun f => vtkOf f.1 f.2) = .error e := by
  have hg : ∀ time (f : ℤ × List (Rec K)), ∃ e, vtkGroup o time (vtkOf f.1 f.2) = .error e := by
    intro time f
    unfold vtkGroup
    dsimp only
    by_cases hi : o.hasId = true
    · rw [hi, if_neg (by decide)]
      cases sortByArray (vtkOf f.1 f.2).ids (makeSortlist (vtkOf f.1 f.2).ids) with
      | error e => exact ⟨e, rfl⟩
      | ok ids =>
        rw [run_bind_ok]
        by_cases he : ids = []
        · rw [if_pos he]; exact ⟨_, rfl⟩
        rw [if_neg he]
        by_cases hs : o.size = none
        · unfold vtkRadius
          rw [hs]
          exact ⟨_, rfl⟩
        · cases vtkRadius o (vtkOf f.1 f.2) (makeSortlist (vtkOf f.1 f.2).ids) with
          | error e => exact ⟨e, rfl⟩
          | ok rad =>
            rw [run_bind_ok]
            cases vtkTypes o (vtkOf f.1 f.2) (makeSortlist (vtkOf f.1 f.2).ids) rad.length with
            | error e => exact ⟨e, rfl⟩
            | ok typ =>
              have hv : o.hasVel = false := by
                by_contra hv
                exact ho ⟨hi, by simpa using hv, Option.isSome_iff_ne_none.2 hs⟩
              rw [run_bind_ok, hv, if_pos rfl]
              exact ⟨_, rfl⟩
    · have : o.hasId = false := by simpa using hi
      rw [this, if_pos rfl]
      exact ⟨_, rfl⟩
  cases files with
  | nil => exact ⟨_, rfl⟩
  | cons f files =>
    unfold vtkConvert
    rw [if_neg (by simp), List.map_cons, List.zipIdx_cons, List.foldlM_cons]
    unfold vtkStep
    dsimp only
    by_cases h : ofInt (vtkOf f.1 f.2).step * dt < (VtkState.init : VtkState K).time1
    · rw [if_pos h]; exact ⟨_, rfl⟩
    · rw [if_neg h]
      obtain ⟨e, he⟩ := hg (ofInt (vtkOf f.1 f.2).step * dt) f
      rw [he]
      exact ⟨e, rfl⟩

/-! ### Limits and means -/

theorem MinMax.see_lo (l : List (F K)) (s : MinMax K) : (l.foldl MinMax.see s).lo = l.foldl (fun a v => if v < a then v else a) s.lo := by
  induction l generalizing s with
  | nil => rfl
  | cons v l ih =>
    rw [List.foldl_cons, List.foldl_cons, ih]
    congr 1
    unfold MinMax.see
    by_cases h : v < s.lo
    · rw [if_pos h, if_pos h]
    · rw [if_neg h, if_neg h]; split_ifs <;> rfl

theorem MinMax.see_hi (l : List (F K)) (s : MinMax K) (h : s.lo ≠ nan) (h' : s.hi ≠ nan) :
    s.hi ≤ (l.foldl MinMax.see s).hi ∧ ((l.foldl MinMax.see s).hi = s.hi ∨ (l.foldl MinMax.see s).hi ∈ l) ∧
    ∀ a v b, l = a ++ v :: b → (s.lo ≤ v ∨ ∃ w ∈ a, w ≤ v) → v ≤ (l.foldl MinMax.see s).hi := by
  induction l generalizing s with
  | nil =>
    refine ⟨F.le_refl' h', Or.inl rfl, ?_⟩
    intro a v b e
    simp at e
  | cons x l ih =>
    rw [List.foldl_cons]
    have hx : (s.see x).lo ≠ nan ∧ (s.see x).hi ≠ nan ∧ s.hi ≤ (s.see x).hi ∧ ((s.see x).hi = s.hi ∨ (s.see x).hi = x) ∧
        (s.see x).lo ≤ s.lo ∧ (s.lo ≤ x → x ≤ (s.see x).hi) ∧ (x ≠ nan → (s.see x).lo ≤ x) := by
      unfold MinMax.see
      by_cases h1 : x < s.lo
      · rw [if_pos h1]
        have hn : x ≠ nan := by rintro rfl; generalize s.lo = z at h1; cases z <;> cases h1
        exact ⟨hn, h', F.le_refl' h', Or.inl rfl, F.le_of_lt' h1, fun h2 => absurd h1 (F.not_lt_of_le' h2), fun _ => F.le_refl' hn⟩
      · rw [if_neg h1]
        by_cases h2 : x > s.hi
        · rw [if_pos h2]
          have hn : x ≠ nan := by rintro rfl; generalize s.hi = z at h2; cases z <;> cases h2
          exact ⟨h, hn, F.le_of_lt' h2, Or.inr rfl, F.le_refl' h, fun _ => F.le_refl' hn, fun _ => (F.lt_or_le' hn h).resolve_left h1⟩
        · rw [if_neg h2]
          refine ⟨h, h', F.le_refl' h', Or.inl rfl, F.le_refl' h, fun h3 => ?_, fun hn => (F.lt_or_le' hn h).resolve_left h1⟩
          have hn : x ≠ nan := by rintro rfl; generalize s.lo = z at h3; cases z <;> cases h3
          exact (F.lt_or_le' h' hn).resolve_left h2
    obtain ⟨k1, k2, k3, k4, k5, k6, k7⟩ := hx
    obtain ⟨i1, i2, i3⟩ := ih (s.see x) k1 k2
    refine ⟨F.le_trans' k3 i1, ?_, ?_⟩
    · rcases i2 with i2 | i2
      · rw [i2]
        rcases k4 with k4 | k4
        · exact Or.inl k4
        · right; rw [k4]; simp
      · right; simp [i2]
    · intro a v b e hv
      cases a with
      | nil =>
        simp only [List.nil_append, List.cons.injEq] at e
        obtain ⟨rfl, rfl⟩ := e
        rcases hv with hv | ⟨w, hw, _⟩
        · exact F.le_trans' (k6 hv) i1
        · simp at hw
      | cons y a =>
        simp only [List.cons_append, List.cons.injEq] at e
        obtain ⟨rfl, e⟩ := e
        refine i3 a v b e ?_
        rcases hv with hv | ⟨w, hw, hle⟩
        · exact Or.inl (F.le_trans' k5 hv)
        · rcases List.mem_cons.1 hw with rfl | hw
          · left
            refine F.le_trans' (k7 ?_) hle
            rintro rfl
            exact F.nan_le _ hle
          · exact Or.inr ⟨w, hw, hle⟩

/-- `m` holds the limits a scan of `l` should give, except that the upper limit only covers values that are not below everything before them. -/
def ScanOf (l : List (F K)) (m : MinMax K) : Prop :=
  (∀ v ∈ l, v ≠ nan → m.lo ≤ v) ∧ (m.lo = fin Arith.maxK ∨ m.lo ∈ l) ∧ (m.hi = fin (-Arith.maxK) ∨ m.hi ∈ l) ∧
  ∀ a v b, l = a ++ v :: b → (∃ w ∈ a, w ≤ v) → v ≤ m.hi

theorem scan_init (l : List (F K)) : ScanOf l (l.foldl MinMax.see MinMax.init) := by
  obtain ⟨_, h2, h3⟩ := fold_min l (fin Arith.maxK) (by simp)
  obtain ⟨_, k2, k3⟩ := MinMax.see_hi l MinMax.init (by simp [MinMax.init]) (by simp [MinMax.init])
  refine ⟨?_, ?_, k2, fun a v b e h => k3 a v b e (Or.inr h)⟩
  · rw [MinMax.see_lo]; exact h2
  · rw [MinMax.see_lo]; exact h3

theorem seePos_fold (L : List (Fin 3 → F K)) (d : Fin 3 → MinMax K) (i : Fin 3) :
    L.foldl seePos d i = (L.map fun p => p i).foldl MinMax.see (d i) := by
  induction L generalizing d with
  | nil => rfl
  | cons p L ih => rw [List.foldl_cons, ih]; rfl

theorem velStats_fold (L : List (Fin 3 → F K)) (s : VelStats K) :
    let r := L.foldl VelStats.see s
    (∀ i, r.lim i = (L.map fun v => v i).foldl MinMax.see (s.lim i)) ∧ (∀ i, r.sum i = (L.map fun v => v i).foldl (· + ·) (s.sum i)) ∧
    r.mag = (L.map velMag).foldl MinMax.see s.mag ∧ r.magSum = (L.map velMag).foldl (· + ·) s.magSum := by
  induction L generalizing s with
  | nil => exact ⟨fun _ => rfl, fun _ => rfl, rfl, rfl⟩
  | cons v L ih =>
    obtain ⟨h1, h2, h3, h4⟩ := ih (s.see v)
    exact ⟨fun i => h1 i, fun i => h2 i, h3, h4⟩

/-- The speed of a particle. -/
def speed (v : Fin 3 → F K) : F K := F.sqrt (0 + v 0 * v 0 + v 1 * v 1 + v 2 * v 2)

/-- The particles of all files in the order they are written: file by file, in each file by id. -/
def InOrder (files : List (ℤ × List (Rec K))) (l : List (Rec K)) : Prop :=
  ∃ parts : List (List (Rec K)), l = parts.flatten ∧
    List.Forall₂ (fun (f : ℤ × List (Rec K)) part => part.Perm f.2 ∧ part.Pairwise fun a b => a.num ≤ b.num) files parts

theorem allRecs_written (files : List (ℤ × List (Rec K))) : InOrder files (allRecs files) := by
  refine ⟨files.map fun f => byId f.2, by rw [allRecs, List.flatMap], ?_⟩
  rw [List.forall₂_map_right_iff, List.forall₂_same]
  exact fun f _ => ⟨byId_perm f.2, byId_sorted f.2⟩

/-- **C63, partial.** In each direction the recorded lower limit is below every position of every particle in every file (NaN aside) and is one of them
(or `f64::MAX`), the recorded upper limit is one of the positions (or `f64::MIN`), and it is above every position that is not below all positions
written before it. Missing: positions below all written before them; `C63_false` shows that the claim fails for those. -/
theorem C63_limits_partial (o : VtkOpts) (ho : o.Full) (dt : F K) (files : List (ℤ × List (Rec K))) (hf : files ≠ []) (hr : ∀ f ∈ files, f.2 ≠ []) (out : TOut K)
    (h : vtkConvert o dt (files.map fun f => vtkOf f.1 f.2) = .ok out) :
    ∃ l, InOrder files l ∧ ∀ i, ScanOf (l.map fun r => r.pos i) (out.attrs.dims i) := by
  rw [vtkConvert_eq o ho dt files hf hr] at h
  by_cases hc : List.IsChain (fun a b => ¬ b < a) (0 :: fileTimes dt files)
  · rw [if_pos hc] at h
    cases h
    obtain ⟨-, -, h3, -⟩ := vtkAfter_fields o dt files VtkState.init 0
    refine ⟨allRecs files, allRecs_written files, fun i => ?_⟩
    dsimp only
    rw [h3, seePos_fold, List.map_map]
    exact scan_init _
  · rw [if_neg hc] at h; cases h

/-- **C64.** The recorded mean velocities and mean speed are the sums over all particles of all files divided by their number; the lower limits are the
smallest values, the upper limits as in `C63_limits_partial`. -/
theorem C64_velocity_partial (o : VtkOpts) (ho : o.Full) (dt : F K) (files : List (ℤ × List (Rec K))) (hf : files ≠ []) (hr : ∀ f ∈ files, f.2 ≠ []) (out : TOut K)
    (h : vtkConvert o dt (files.map fun f => vtkOf f.1 f.2) = .ok out) :
    ∃ l, InOrder files l ∧ (∀ i, (out.attrs.vel i).2.1 = (l.map fun r => r.vel i).foldl (· + ·) 0 / F.ofNat l.length) ∧
      out.attrs.mag.2.1 = (l.map fun r => speed r.vel).foldl (· + ·) 0 / F.ofNat l.length ∧
      (∀ i, ScanOf (l.map fun r => r.vel i) ⟨(out.attrs.vel i).1, (out.attrs.vel i).2.2⟩) ∧
      ScanOf (l.map fun r => speed r.vel) ⟨out.attrs.mag.1, out.attrs.mag.2.2⟩ := by
  rw [vtkConvert_eq o ho dt files hf hr] at h
  by_cases hc : List.IsChain (fun a b => ¬ b < a) (0 :: fileTimes dt files)
  · rw [if_pos hc] at h
    cases h
    obtain ⟨-, -, -, h4, h5, -⟩ := vtkAfter_fields o dt files VtkState.init 0
    obtain ⟨v1, v2, v3, v4⟩ := velStats_fold ((allRecs files).map Rec.vel) VelStats.init
    have ec : (vtkAfter o dt VtkState.init 0 files).count = (allRecs files).length := by rw [h5]; simp [VtkState.init]
    have ei : (VtkState.init : VtkState K).vel = VelStats.init := rfl
    rw [ei] at h4
    refine ⟨allRecs files, allRecs_written files, ?_, ?_, ?_, ?_⟩
    · intro i
      dsimp only [VelStats.attr]
      rw [h4, ec, v2, List.map_map]; rfl
    · dsimp only [VelStats.magAttr]
      rw [h4, ec, v4, List.map_map]; rfl
    · intro i
      dsimp only [VelStats.attr]
      rw [h4, v1, List.map_map]
      exact scan_init _
    · dsimp only [VelStats.magAttr]
      rw [h4, v3, List.map_map]
      exact scan_init _
  · rw [if_neg hc] at h; cases h

/-- One particle with id 1 at this position, at rest. -/
def restRec (x : Pos K) : Rec K := ⟨1, fin 1, 1, fun _ => 0, x⟩

/-- The options with radius, type, velocity and id fields. -/
def fullOpts : VtkOpts := ⟨true, true, true, some true⟩

theorem fullOpts_full : fullOpts.Full := ⟨rfl, rfl, rfl⟩

/-- **C63 refuted in general:** a single VTK file with a single particle gives, in every direction, an upper limit of `f64::MIN`, below the particle. -/
theorem C63_false [LawfulArith K] :
    ∃ (files : List (ℤ × List (Rec K))) (out : TOut K), files ≠ [] ∧ (∀ f ∈ files, f.2 ≠ []) ∧
      vtkConvert fullOpts 1 (files.map fun f => vtkOf f.1 f.2) = .ok out ∧
      ∃ f ∈ files, ∃ r ∈ f.2, ∀ i, (out.attrs.dims i).hi < r.pos i := by
  have hz : fileTime (1 : F K) 0 = 0 := by
    unfold fileTime ofInt
    rw [Int.cast_zero]
    have e0 : (Arith.rnd (0 : K)) = fin 0 := F.rnd_zero
    rw [e0]
    change Arith.rnd ((0 : K) * 1) = fin 0
    rw [zero_mul, e0]
  refine ⟨[(0, [restRec (fun _ => 0)])], _, by simp, by simp, by
    rw [vtkConvert_eq fullOpts fullOpts_full 1 _ (by simp) (by simp), if_pos]
    simp only [fileTimes, List.map_cons, List.map_nil, List.isChain_cons_cons, List.isChain_singleton, and_true, hz]
    exact fun h => absurd h (by rw [F.zero_def, F.lt_fin]; exact lt_irrefl _), _, List.mem_singleton_self _, _, List.mem_singleton_self _, ?_⟩
  intro i
  dsimp only
  obtain ⟨-, -, h3, -⟩ := vtkAfter_fields (K := K) fullOpts 1 [(0, [restRec (fun _ => 0)])] VtkState.init 0
  rw [h3, seePos_fold]
  have ea : allRecs [((0 : ℤ), [restRec (fun _ => (0 : F K))])] = [restRec (fun _ => 0)] := by
    unfold allRecs
    rw [List.flatMap_singleton]
    exact List.perm_singleton.1 (byId_perm _)
  rw [ea]
  have hm : (0 : K) < Arith.maxK := LawfulArith.max_pos
  have : (MinMax.init : MinMax K).see 0 = ⟨0, fin (-Arith.maxK)⟩ := by
    unfold MinMax.see MinMax.init
    rw [if_pos (by rw [F.zero_def]; exact (F.lt_fin _ _).2 hm)]
  change ((MinMax.init : MinMax K).see 0).hi < 0
  rw [this, F.zero_def]
  exact (F.lt_fin _ _).2 (by linarith)

/-- The hypotheses of `C61`–`C64` hold for two files, the second with its particles out of order. -/
example : let files : List (ℤ × List (Rec ℝ)) := [(0, [restRec (fun _ => 0)]), (3, [⟨2, fin 1, 1, fun _ => 0, fun _ => fin 5⟩, restRec (fun _ => fin 7)])]
    files ≠ [] ∧ (∀ f ∈ files, f.2 ≠ []) ∧ List.IsChain (fun a b => ¬ b < a) (0 :: fileTimes (fin 1 : F ℝ) files) := by
  refine ⟨by simp, by simp, ?_⟩
  simp only [fileTimes, List.map_cons, List.map_nil, List.isChain_cons_cons, List.isChain_singleton, and_true, fileTime, ofInt]
  simp only [ExactArith.rnd_eq, F.zero_def]
  constructor
  · change ¬ ((Arith.rnd (((0 : ℤ) : ℝ) * 1) : F ℝ) < fin 0)
    rw [ExactArith.rnd_eq, F.lt_fin]; norm_num
  · change ¬ ((Arith.rnd (((3 : ℤ) : ℝ) * 1) : F ℝ) < Arith.rnd (((0 : ℤ) : ℝ) * 1))
    rw [ExactArith.rnd_eq, ExactArith.rnd_eq, F.lt_fin]; norm_num

end Up4
