import Verif.Props.Session
import Verif.Props.Vtk

set_option linter.unusedSectionVars false

/-! # C89, C90: from VTK files to answers -/

namespace Up4
open F
open Selector (at')

variable {K : Type} [Field K] [LinearOrder K] [IsStrictOrderedRing K] [FloorRing K] [Arith K]

/-- The time window in force after the calls: that of the last `set_time`; at first everything from `f64::MIN` to `f64::MAX`. -/
def windowOf (cs : List (Call K)) : F K × F K :=
  match settings cs with
  | [.setTime a b] => (a, b)
  | _ => (fin (-Arith.maxK), fin Arith.maxK)

theorem windowOf_snoc (cs : List (Call K)) (c : Call K) (h : c.setsTime = false) : windowOf (cs ++ [c]) = windowOf cs := by
  unfold windowOf
  rw [settings_snoc, h, if_neg (by simp)]

/-- The state after calls that returned. -/
theorem session_state [LawfulArith K] (p : Profile) (f : OnDisk K) (h1 : 1 ≤ f.n) (h2 : f.n ≤ 2 ^ 50) (cs : List (Call K))
    (hcs : ∀ c ∈ cs, c.Fits f.n) {t : PyData K} {as : List (Answer K)} (hr : f.session p cs = .ok (t, as)) :
    ∃ kind, t.dm.Steady Timestep.default kind f.file f.n ∧ t.st = f.st ∧ t.maxTime = f.maxTime ∧
      t.sel = Selector.default.setTime (windowOf cs).1 (windowOf cs).2 := by
  unfold OnDisk.session at hr
  rcases load_alike p f h1 h2 with ⟨e, he⟩ | ⟨kind, s, he, hs⟩
  · rw [he] at hr; cases hr
  · have hsel : s.sel = Selector.default := by
      unfold OnDisk.load at he
      split_ifs at he
      · obtain ⟨_, _, he⟩ := run_bind_inv he
        cases he; rfl
      · obtain ⟨_, _, he⟩ := run_bind_inv he
        cases he; rfl
    rw [he, run_bind_ok] at hr
    obtain ⟨⟨t', as', g1, g2⟩, g3⟩ := calls_settings p kind f h1 hs cs hcs hr
    refine ⟨kind, g2.steady, g2.st.1, g2.maxTime.1, ?_⟩
    rw [g2.sel]
    unfold windowOf
    rcases hset : settings cs with _ | ⟨c, l⟩
    · rw [hset] at g1
      cases g1
      rw [hsel]; rfl
    · have hl : l = [] ∧ c.setsTime = true := by
        unfold settings at hset
        cases hg : (cs.filter Call.setsTime).getLast? with
        | none => rw [hg] at hset; simp at hset
        | some x =>
          rw [hg] at hset
          simp only [Option.toList_some, List.cons.injEq] at hset
          obtain ⟨rfl, rfl⟩ := hset
          exact ⟨rfl, (List.mem_filter.1 (List.mem_of_getLast? hg)).2⟩
      obtain ⟨rfl, hc⟩ := hl
      cases c <;> try (cases hc)
      rename_i a b
      dsimp only
      rw [hset] at g1
      change ((PyData.setTime s a b >>= fun s => pure (s, Answer.none)) >>= fun r => _) = _ at g1
      unfold PyData.setTime at g1
      split_ifs at g1 with hm
      · cases g1
      · cases g1
        rw [← hsel]

/-- What a file converted from VTK files holds. -/
structure HoldsVtk (o : VtkOpts) (dt : F K) (files : List (ℤ × List (Rec K))) (out : TOut K) : Prop where
  num : out.onDisk.n = files.length
  step : ∀ t, t < files.length → ∃ f, files[t]? = some f ∧ IsFile o dt f (out.onDisk.file t)
  last : (fileTimes dt files).getLast? = some out.onDisk.maxTime

theorem holdsVtk (o : VtkOpts) (ho : o.Full) (dt : F K) (files : List (ℤ × List (Rec K))) (hf : files ≠ []) 
    (hr : ∀ f ∈ files, f.2 ≠ []) (out : TOut K) (h : vtkConvert o dt (files.map fun f => vtkOf f.1 f.2) = .ok out) : HoldsVtk o dt files out := by
  obtain ⟨a1, a2, a3, a4, a5, -⟩ := (C62_times o ho dt files hf hr).2 out h
  refine ⟨a1, ?_, a5⟩
  intro t ht
  rw [vtkConvert_eq o ho dt files hf hr] at h
  split_ifs at h
  cases h
  obtain ⟨hg, -⟩ := vtkAfter_fields o dt files VtkState.init 0
  have hg' : (vtkAfter o dt VtkState.init 0 files).groups = files.map (fun f => groupOf o (fileTime dt f.1) f.2) := hg
  have hc := groupOf_complete o (fileTime dt files[t].1) files[t].2
  refine ⟨files[t], List.getElem?_eq_getElem ht, ?_⟩
  obtain ⟨ts, e, hh⟩ : ∃ ts, tRead (vtkAfter o dt VtkState.init 0 files).groups t = .ok ts ∧ (groupOf o (fileTime dt files[t].1) files[t].2).Holds ts := by
    rw [hg']
    exact tRead_ok _ t _ (by rw [List.getElem?_map, List.getElem?_eq_getElem ht]; rfl) hc
  have e' : (tRead (vtkAfter o dt VtkState.init 0 files).groups t).toOption.getD Timestep.default = ts := by rw [e]; rfl
  change IsFile o dt files[t] ((tRead (vtkAfter o dt VtkState.init 0 files).groups t).toOption.getD Timestep.default)
  rw [e']
  obtain ⟨h4, h5⟩ := groupOf_holds o _ _ _ hh
  exact ⟨h4, byId files[t].2, byId_perm _, byId_sorted _, h5⟩

/-- The file as `TData` reads it: loading the buffer from the converted file is loading it from `onDisk.file`. -/
theorem onDisk_update (p : Profile) (o : VtkOpts) (ho : o.Full) (dt : F K) (files : List (ℤ × List (Rec K))) (hf : files ≠ []) (hn : files.length < usizeMod)
    (hr : ∀ f ∈ files, f.2 ≠ []) (out : TOut K) (h : vtkConvert o dt (files.map fun f => vtkOf f.1 f.2) = .ok out)
    (b : Buf (Timestep K)) (lo hi : ℕ) : out.file.update p b lo hi = b.load p .tdata out.onDisk.file out.onDisk.n lo hi := by
  have hnum := (holdsVtk o ho dt files hf hr out h).num
  have hread : ∀ t, t < files.length → tRead out.groups t = .ok (out.onDisk.file t) := by
    intro t ht
    rw [vtkConvert_eq o ho dt files hf hr] at h
    split_ifs at h
    cases h
    obtain ⟨hg, -⟩ := vtkAfter_fields o dt files VtkState.init 0
    have hg' : (vtkAfter o dt VtkState.init 0 files).groups = files.map (fun f => groupOf o (fileTime dt f.1) f.2) := hg
    obtain ⟨ts, e, hh⟩ : ∃ ts, tRead (vtkAfter o dt VtkState.init 0 files).groups t = .ok ts ∧ (groupOf o (fileTime dt files[t].1) files[t].2).Holds ts := by
      rw [hg']
      exact tRead_ok _ t _ (by rw [List.getElem?_map, List.getElem?_eq_getElem ht]; rfl) (groupOf_complete o _ _)
    change tRead (vtkAfter o dt VtkState.init 0 files).groups t = .ok ((tRead (vtkAfter o dt VtkState.init 0 files).groups t).toOption.getD Timestep.default)
    rw [e]; rfl
  exact tUpdate_eq p out.groups out.onDisk.n (by rw [hnum]; exact hn) out.onDisk.file (fun t ht => hread t (by rw [← hnum]; exact ht)) b lo hi

/-! ### Samples of a converted file are the particles of the VTK files -/

theorem list_range_getD {α : Type} (l : List α) (d : α) : l = (List.range l.length).map fun t => l.getD t d := by
  apply List.ext_getElem
  · simp
  · intro i h1 h2
    simp [h1]

theorem chosen_window (ts : Timestep K) (a b : F K) (i : ℕ) : ts.chosen (Selector.default.setTime a b) i = true := chosen_default ts i

/-- The particles of the VTK files with a time in the window. -/
def inTime (dt : F K) (w : F K × F K) (files : List (ℤ × List (Rec K))) : List (Rec K) :=
  (files.filter fun f => decide (w.1 ≤ fileTime dt f.1) && decide (fileTime dt f.1 ≤ w.2)).flatMap Prod.snd

theorem inTime_length (dt : F K) (w : F K × F K) (files : List (ℤ × List (Rec K))) : (inTime dt w files).length ≤ (files.flatMap Prod.snd).length := by
  unfold inTime
  induction files with
  | nil => simp
  | cons f l ih =>
    rw [List.filter_cons, List.flatMap_cons, List.length_append]
    split_ifs
    · rw [List.flatMap_cons, List.length_append]; omega
    · omega

theorem inOrder_perm (files : List (ℤ × List (Rec K))) (l : List (Rec K)) (h : InOrder files l) : l.Perm (files.flatMap Prod.snd) := by
  obtain ⟨parts, rfl, hf⟩ := h
  induction hf with
  | nil => rfl
  | cons hd _ ih => rw [List.flatten_cons, List.flatMap_cons]; exact hd.1.append ih

theorem samples_inTime (o : VtkOpts) (dt : F K) (files : List (ℤ × List (Rec K))) (steps : ℕ → Timestep K)
    (h : ∀ t, t < files.length → ∃ f, files[t]? = some f ∧ IsFile o dt f (steps t)) (w : F K × F K) :
    ∃ rec : ℕ × ℕ → Rec K,
      (∀ x ∈ samples (Selector.default.setTime w.1 w.2) steps (List.range files.length), posOf steps x = (rec x).pos ∧ velOf steps x = (rec x).vel) ∧
      ((samples (Selector.default.setTime w.1 w.2) steps (List.range files.length)).map rec).Perm (inTime dt w files) := by
  classical
  have hR : ∀ t, ∃ recs : List (Rec K), t < files.length → ∃ f, files[t]? = some f ∧ (steps t).time = fileTime dt f.1 ∧ recs.Perm f.2 ∧ Describes o recs (steps t) := by
    intro t
    by_cases ht : t < files.length
    · obtain ⟨f, h1, h2, recs, h3, _, h5⟩ := h t ht
      exact ⟨recs, fun _ => ⟨f, h1, h2, h3, h5⟩⟩
    · exact ⟨[], fun h => absurd h ht⟩
  choose R hR using hR
  let dummy : Rec K := ⟨0, nan, 0, fun _ => nan, fun _ => nan⟩
  refine ⟨fun x => (R x.1).getD x.2 dummy, ?_, ?_⟩
  · rintro ⟨t, i⟩ hx
    rw [mem_samples] at hx
    obtain ⟨ht, _, hi, _⟩ := hx
    obtain ⟨f, _, _, _, hd⟩ := hR t (List.mem_range.1 ht)
    obtain ⟨_, _, d3, d4, _⟩ := hd
    have hi' : i < (R t).length := by rw [d4] at hi; simpa using hi
    unfold posOf velOf Timestep.pos Timestep.vel
    dsimp only
    rw [d3, d4]
    simp [List.getElem?_eq_getElem hi']
  · unfold samples
    rw [List.map_flatMap]
    have e1 : inTime dt w files = (List.range files.length).flatMap fun t =>
        if decide (w.1 ≤ fileTime dt (files.getD t (0, [])).1) && decide (fileTime dt (files.getD t (0, [])).1 ≤ w.2) then (files.getD t (0, [])).2 else [] := by
      have e0 : ∀ l : List (ℤ × List (Rec K)), inTime dt w l = l.flatMap fun f =>
          if decide (w.1 ≤ fileTime dt f.1) && decide (fileTime dt f.1 ≤ w.2) then f.2 else [] := by
        intro l
        unfold inTime
        induction l with
        | nil => rfl
        | cons f l ih =>
          rw [List.filter_cons, List.flatMap_cons, ← ih]
          split_ifs <;> simp
      rw [e0]
      conv_lhs => rw [list_range_getD files (0, [])]
      rw [List.flatMap_map]
    rw [e1]
    refine List.Perm.flatMap_left _ fun t ht => ?_
    obtain ⟨f, h1, h2, h3, hd⟩ := hR t (List.mem_range.1 ht)
    have hf : files.getD t (0, []) = f := by rw [List.getD_eq_getElem?_getD, h1]; rfl
    rw [hf]
    unfold Timestep.picks
    have hv : (Selector.default.setTime w.1 w.2 : Selector K).timestepValid (steps t).time =
        (decide (w.1 ≤ fileTime dt f.1) && decide (fileTime dt f.1 ≤ w.2)) := by
      unfold Selector.timestepValid
      rw [h2]; rfl
    rw [hv]
    split_ifs
    · rw [List.filter_eq_self.2 fun i _ => chosen_window (steps t) w.1 w.2 i, List.map_map]
      have hl : (steps t).position.length = (R t).length := by
        obtain ⟨_, _, _, d4, _⟩ := hd
        rw [d4, List.length_map]
      rw [hl]
      have := list_range_getD (R t) dummy
      change ((List.range (R t).length).map fun i => (R t).getD i dummy).Perm f.2
      rw [← this]
      exact h3
    · exact List.Perm.refl _

theorem describes_wf (o : VtkOpts) (recs : List (Rec K)) (ts : Timestep K) (h : Describes o recs ts) : ts.Wf := by
  obtain ⟨h1, h2, h3, h4, h5, h6, h7⟩ := h
  unfold Timestep.Wf
  rw [h1, h2, h3, h4, h5, h6, h7]
  simp

/-- The situation of C89 and C90: VTK files, listed in the order of their times, were converted, and calls on the `Data` object of the converted file
have returned. -/
structure Sitting (o : VtkOpts) (dt : F K) (files : List (ℤ × List (Rec K))) (out : TOut K) (p : Profile) (cs : List (Call K)) : Prop where
  full : o.Full
  given : files ≠ []
  count : files.length ≤ 2 ^ 50
  nonempty : ∀ f ∈ files, f.2 ≠ []
  converted : vtkConvert o dt (files.map fun f => vtkOf f.1 f.2) = .ok out
  fits : ∀ c ∈ cs, c.Fits files.length
  returned : ∃ r, out.onDisk.session p cs = .ok r

theorem Sitting.state [LawfulArith K] {o : VtkOpts} {dt : F K} {files : List (ℤ × List (Rec K))} {out : TOut K} {p : Profile} {cs : List (Call K)}
    (h : Sitting o dt files out p cs) :
    ∃ t : PyData K, t.dm.Inv ∧ t.dm.file = out.onDisk.file ∧ t.dm.n = files.length ∧ t.st = out.onDisk.st ∧ t.maxTime = out.onDisk.maxTime ∧
      t.sel = Selector.default.setTime (windowOf cs).1 (windowOf cs).2 ∧
      (∀ k, k < t.dm.n → (t.dm.file k).Wf) ∧
      ∀ c, out.onDisk.answer p (cs ++ [c]) = (t.call p c >>= fun r => pure (some r.2)) := by
  obtain ⟨⟨t, as⟩, hr⟩ := h.returned
  have hv := holdsVtk o h.full dt files h.given h.nonempty out h.converted
  have h1 : 1 ≤ files.length := by
    have := List.length_pos_iff.2 h.given; omega
  obtain ⟨kind, s1, s2, s3, s4⟩ := session_state p out.onDisk (by rw [hv.num]; exact h1) (by rw [hv.num]; exact h.count) cs (by rw [hv.num]; exact h.fits) hr
  refine ⟨t, s1.inv, s1.fileEq, s1.num.trans hv.num, s2, s3, s4, ?_, ?_⟩
  · intro k hk
    rw [s1.num, hv.num] at hk
    obtain ⟨f, _, _, recs, _, _, hd⟩ := hv.step k hk
    rw [s1.fileEq]
    exact describes_wf o recs _ hd
  · intro c
    rw [answer_snoc, hr, run_bind_ok]

/-- **C90, `numberfield`.** Convert VTK files, open the result, make any calls. `numberfield` then has in each cell the number of particles of those VTK
files whose time is in the window of the last `set_time` (of all files if there was none) and whose position is in the cell. -/
theorem C90_numberfield [LawfulArith K] {o : VtkOpts} {dt : F K} {files : List (ℤ × List (Rec K))} {out : TOut K} {p : Profile} {cs : List (Call K)}
    (h : Sitting o dt files out p cs) (hlen : (files.flatMap Prod.snd).length ≤ 2 ^ 53) (g : Grid K) (hg : g.Fillable p) :
    ∃ g', out.onDisk.answer p (cs ++ [.numberfield g]) = .ok (some (.grid g')) ∧ g'.geom = g.geom ∧
      ∀ c, g'.st.data.get c = fin (((inTime dt (windowOf cs) files).countP fun r => inCell p g.geom r.pos c : ℕ) : K) := by
  obtain ⟨t, t1, t2, t3, _, _, t6, t7, t8⟩ := h.state
  have hv := holdsVtk o h.full dt files h.given h.nonempty out h.converted
  obtain ⟨rec, r1, r2⟩ := samples_inTime o dt files out.onDisk.file hv.step (windowOf cs)
  have hs : t.dm.samples t.sel = samples (Selector.default.setTime (windowOf cs).1 (windowOf cs).2) out.onDisk.file (List.range files.length) := by
    unfold Dm.samples
    rw [t2, t3, t6]
  have hl : (t.dm.samples t.sel).length ≤ 2 ^ 53 := by
    have := r2.length_eq
    rw [List.length_map] at this
    rw [hs, this]
    exact (inTime_length dt _ files).trans hlen
  obtain ⟨d', g', e, _, _, _, e1, _, e2, _⟩ := C34_numberfield p t.dm t1 g hg t.sel (by rw [t6]; exact usable_default) t7 hl
  refine ⟨g', ?_, e1, ?_⟩
  · rw [t8]
    change ((Up4.numberfield p t.dm g t.sel >>= fun r => _) >>= _) = _
    rw [e]; rfl
  · intro c
    rw [e2, ← r2.countP_eq, List.countP_map, hs, t2]
    congr 2
    refine List.countP_congr fun x hx => ?_
    rw [(r1 x hx).1]; rfl

/-- **C90, `vectorfield`** (exact arithmetic, finite velocities, a fresh Cartesian grid). In each cell each component is the mean of that velocity component
over the particles of the VTK files with a time in the window and a position in the cell, and NaN in a cell without such a particle. -/
theorem C90_vectorfield [LawfulArith K] [ExactArith K] {o : VtkOpts} {dt : F K} {files : List (ℤ × List (Rec K))} {out : TOut K} {p : Profile}
    {cs : List (Call K)} (h : Sitting o dt files out p cs) (hlen : (files.flatMap Prod.snd).length ≤ 2 ^ 53) (g : Grid K) (hg : g.Fillable p)
    (hfresh : ∀ c, g.st.weight.get c = 0 ∧ g.st.data.get c = 0) (hcart : g.geom.isCylindrical = false)
    (v : Rec K → Fin 3 → K) (hv : ∀ f ∈ files, ∀ r ∈ f.2, ∀ a, r.vel a = fin (v r a)) :
    ∃ g', out.onDisk.answer p (cs ++ [.vectorfield g]) = .ok (some (.vec g')) ∧ ∀ a c, InB g.geom.cells c →
      let S := (inTime dt (windowOf cs) files).filter fun r => inCell p g.geom r.pos c
      (S = [] → (g'.comp a).st.data.get c = nan) ∧ (S ≠ [] → (g'.comp a).st.data.get c = fin ((S.map fun r => v r a).sum / S.length)) := by
  obtain ⟨t, t1, t2, t3, _, _, t6, t7, t8⟩ := h.state
  have hvt := holdsVtk o h.full dt files h.given h.nonempty out h.converted
  obtain ⟨rec, r1, r2⟩ := samples_inTime o dt files out.onDisk.file hvt.step (windowOf cs)
  have hs : t.dm.samples t.sel = samples (Selector.default.setTime (windowOf cs).1 (windowOf cs).2) out.onDisk.file (List.range files.length) := by
    unfold Dm.samples
    rw [t2, t3, t6]
  have hl : (t.dm.samples t.sel).length ≤ 2 ^ 53 := by
    have := r2.length_eq
    rw [List.length_map] at this
    rw [hs, this]
    exact (inTime_length dt _ files).trans hlen
  have hin : ∀ x ∈ t.dm.samples t.sel, ∃ f ∈ files, rec x ∈ f.2 := by
    intro x hx
    rw [hs] at hx
    have : rec x ∈ inTime dt (windowOf cs) files := r2.subset (List.mem_map_of_mem hx)
    unfold inTime at this
    obtain ⟨f, hf, hr⟩ := List.mem_flatMap.1 this
    exact ⟨f, List.mem_of_mem_filter hf, hr⟩
  obtain ⟨d', g', e, e2⟩ := C36_mean p t.dm t1 g hg hfresh hcart t.sel (by rw [t6]; exact usable_default) t7 hl (fun x => v (rec x)) (by
    intro x hx a
    obtain ⟨f, hf, hr⟩ := hin x hx
    rw [t2, (r1 x (by rw [← hs]; exact hx)).2]
    exact hv f hf _ hr a)
  refine ⟨g', ?_, ?_⟩
  · rw [t8]
    change ((Up4.vectorfield p t.dm g t.sel >>= fun r => _) >>= _) = _
    rw [e]; rfl
  · intro a c hc
    obtain ⟨k1, k2⟩ := e2 a c hc
    intro S
    have hS : ((t.dm.samples t.sel).filter fun x => inCell p g.geom (posOf t.dm.file x) c).map rec |>.Perm S := by
      have e : ((t.dm.samples t.sel).filter fun x => inCell p g.geom (posOf t.dm.file x) c) =
          (t.dm.samples t.sel).filter ((fun r => inCell p g.geom r.pos c) ∘ rec) := by
        refine List.filter_congr fun x hx => ?_
        rw [t2, (r1 x (by rw [← hs]; exact hx)).1]; rfl
      rw [e, ← List.filter_map, hs]
      exact r2.filter _
    constructor
    · intro hnil
      refine k1 ?_
      rw [hnil] at hS
      exact List.map_eq_nil_iff.1 hS.eq_nil
    · intro hne
      rw [k2 (fun h0 => hne (by rw [h0] at hS; exact hS.nil_eq.symm))]
      have e1 := hS.length_eq
      rw [List.length_map] at e1
      have e3 := (hS.map fun r => v r a).sum_eq
      rw [List.map_map] at e3
      rw [e1, ← e3]; rfl

/-- **C90, the rest.** The questions answered from the attributes: the number of timesteps is the number of VTK files, `time()` lists their times in order,
`nparticles()` is the largest id, and `set_time` refuses a window exactly if it begins after the time of the last file. -/
theorem C90_attributes [LawfulArith K] {o : VtkOpts} {dt : F K} {files : List (ℤ × List (Rec K))} {out : TOut K} {p : Profile} {cs : List (Call K)}
    (h : Sitting o dt files out p cs) :
    out.onDisk.answer p (cs ++ [.len]) = .ok (some (.nat files.length)) ∧
    out.onDisk.answer p (cs ++ [.time]) = .ok (some (.nums (files.map fun f => fileTime dt f.1))) ∧
    (∃ n, out.onDisk.answer p (cs ++ [.nparticles]) = .ok (some (.nat n)) ∧ (∀ f ∈ files, ∀ r ∈ f.2, r.num ≤ n) ∧
      (n = 0 ∨ ∃ f ∈ files, ∃ r ∈ f.2, r.num = n)) ∧
    ∀ a b, (∃ e, out.onDisk.answer p (cs ++ [.setTime a b]) = .error e) ↔ ∃ f, files.getLast? = some f ∧ fileTime dt f.1 < a := by
  obtain ⟨t, t1, t2, t3, t4, t5, t6, t7, t8⟩ := h.state
  obtain ⟨a1, a2, a3, a4, a5, a6, a7⟩ := (C62_times o h.full dt files h.given h.nonempty).2 out h.converted
  refine ⟨?_, ?_, ⟨out.attrs.np, ?_, a6, a7⟩, fun a b => ?_⟩
  · rw [t8]
    change ((pure (t, Answer.nat t.dm.n) : Run _) >>= _) = _
    rw [t3]; rfl
  · rw [t8]
    change ((pure (t, Answer.nums t.st.times) : Run _) >>= _) = _
    rw [t4]
    change Except.ok (some (Answer.nums out.attrs.timeArray)) = _
    rw [a2]; rfl
  · rw [t8]
    change ((pure (t, Answer.nat t.st.nparticles) : Run _) >>= _) = _
    rw [t4]; rfl
  · rw [t8]
    have hlast : files.getLast?.map (fun f => fileTime dt f.1) = some t.maxTime := by
      rw [t5, ← (holdsVtk o h.full dt files h.given h.nonempty out h.converted).last]
      unfold fileTimes
      rw [List.getLast?_map]
    obtain ⟨f, hf1, hf2⟩ := Option.map_eq_some_iff.1 hlast
    change (∃ e, ((t.setTime a b >>= fun s => pure (s, Answer.none)) >>= _) = _) ↔ _
    unfold PyData.setTime
    by_cases hm : t.maxTime < a
    · rw [if_pos hm]
      exact ⟨fun _ => ⟨f, hf1, by rw [hf2]; exact hm⟩, fun _ => ⟨_, rfl⟩⟩
    · rw [if_neg hm]
      refine ⟨fun he => ?_, ?_⟩
      · obtain ⟨e, he⟩ := he
        cases he
      rintro ⟨f', hf1', hf2'⟩
      rw [hf1] at hf1'
      cases hf1'
      rw [hf2] at hf2'
      exact absurd hf2' hm

/-- **C90, extent.** `dimensions()` lists for each axis the pair of limits whose first entries are `min_position()` and whose second entries are `max_position()`;
they are the recorded limits of all particles of the files, as far as these are right (`C63_limits_partial`). -/
theorem C90_extent [LawfulArith K] {o : VtkOpts} {dt : F K} {files : List (ℤ × List (Rec K))} {out : TOut K} {p : Profile} {cs : List (Call K)}
    (h : Sitting o dt files out p cs) :
    ∃ lo hi : Fin 3 → F K, out.onDisk.answer p (cs ++ [.dimensions]) = .ok (some (.pairs [(lo 0, hi 0), (lo 1, hi 1), (lo 2, hi 2)])) ∧
      out.onDisk.answer p (cs ++ [.minPosition]) = .ok (some (.nums [lo 0, lo 1, lo 2])) ∧
      out.onDisk.answer p (cs ++ [.maxPosition]) = .ok (some (.nums [hi 0, hi 1, hi 2])) ∧
      ∃ l, InOrder files l ∧ ∀ i, ScanOf (l.map fun r => r.pos i) ⟨lo i, hi i⟩ := by
  obtain ⟨t, t1, t2, t3, t4, t5, t6, t7, t8⟩ := h.state
  refine ⟨fun i => (out.attrs.dims i).lo, fun i => (out.attrs.dims i).hi, ?_, ?_, ?_, C63_limits_partial o h.full dt files h.given h.nonempty out h.converted⟩
  · rw [t8]
    change ((pure (t, Answer.pairs [t.st.dims 0, t.st.dims 1, t.st.dims 2]) : Run _) >>= _) = _
    rw [t4]; rfl
  · rw [t8]
    change ((pure (t, Answer.nums [(t.st.dims 0).1, (t.st.dims 1).1, (t.st.dims 2).1]) : Run _) >>= _) = _
    rw [t4]; rfl
  · rw [t8]
    change ((pure (t, Answer.nums [(t.st.dims 0).2, (t.st.dims 1).2, (t.st.dims 2).2]) : Run _) >>= _) = _
    rw [t4]; rfl

/-! ### C89 -/

/-- **C89, partial.** `mean_velocity()` is the mean speed over all particles of all VTK files, in exact arithmetic (`s r` is the length of the velocity of `r`).
Missing: the time window of the last `set_time`, which it ignores (`C89_false`). -/
theorem C89_mean_partial [LawfulArith K] [ExactArith K] {o : VtkOpts} {dt : F K} {files : List (ℤ × List (Rec K))} {out : TOut K} {p : Profile}
    {cs : List (Call K)} (h : Sitting o dt files out p cs) (hlen : (files.flatMap Prod.snd).length ≤ 2 ^ 53)
    (v : Rec K → Fin 3 → K) (hv : ∀ f ∈ files, ∀ r ∈ f.2, ∀ a, r.vel a = fin (v r a))
    (s : Rec K → K) (hs : ∀ f ∈ files, ∀ r ∈ f.2, 0 ≤ s r ∧ s r ^ 2 = v r 0 ^ 2 + v r 1 ^ 2 + v r 2 ^ 2) :
    out.onDisk.answer p (cs ++ [.meanVelocity]) = .ok (some (.num (fin (((files.flatMap Prod.snd).map s).sum / (files.flatMap Prod.snd).length)))) := by
  obtain ⟨t, t1, t2, t3, t4, t5, t6, t7, t8⟩ := h.state
  obtain ⟨l, l1, _, l3, _⟩ := C64_velocity_partial o h.full dt files h.given h.nonempty out h.converted
  have hp := inOrder_perm files l l1
  have hspeed : ∀ r ∈ l, speed r.vel = fin (s r) := by
    intro r hr
    obtain ⟨f, hf, hr'⟩ := List.mem_flatMap.1 (hp.subset hr)
    unfold speed
    rw [hv f hf r hr' 0, hv f hf r hr' 1, hv f hf r hr' 2, F.zero_def]
    simp only [F.emul, F.eadd]
    obtain ⟨h0, h2⟩ := hs f hf r hr'
    obtain ⟨T, e1, e2, e3⟩ := sqrt_root (K := K) (x := 0 + v r 0 * v r 0 + v r 1 * v r 1 + v r 2 * v r 2)
      (by nlinarith [mul_self_nonneg (v r 0), mul_self_nonneg (v r 1), mul_self_nonneg (v r 2)])
    rw [e1]
    congr 1
    refine (pow_left_inj₀ e2 h0 two_ne_zero).1 ?_
    rw [h2, pow_two, e3]; ring
  rw [t8]
  change ((pure (t, Answer.num (t.st.speed 1)) : Run _) >>= _) = _
  rw [t4]
  change Except.ok (some (Answer.num out.attrs.mag.2.1)) = _
  have hne : ((l.length : ℕ) : K) ≠ 0 := by
    have : l ≠ [] := by
      rintro rfl
      obtain ⟨f, fs, rfl⟩ := List.exists_cons_of_ne_nil h.given
      have := hp.nil_eq
      rw [List.flatMap_cons] at this
      exact h.nonempty f (by simp) (List.append_eq_nil_iff.1 this.symm).1
    exact_mod_cast (List.length_pos_iff.2 this).ne'
  have em : (l.map fun r => speed r.vel) = (l.map s).map fin := by
    rw [List.map_map]
    exact List.map_congr_left hspeed
  rw [l3, em, F.zero_def, foldl_fin, zero_add, F.eofNat, F.ediv _ hne, (hp.map s).sum_eq, hp.length_eq]

/-! ### Witness -/

/-- A particle of a demo file. -/
noncomputable def goRec (num : ℕ) (x v : ℝ) : Rec ℝ := ⟨num, fin 1, 1, ![fin v, fin 0, fin 0], ![fin x, fin 1, fin 1]⟩

/-- Two VTK files: at time 0 two particles of speed 1, at time 1 the same particles with speed 3, listed in the other order. -/
noncomputable def goFiles : List (ℤ × List (Rec ℝ)) := [(0, [goRec 1 0 1, goRec 2 5 1]), (1, [goRec 2 6 3, goRec 1 1 3])]

theorem goFiles_time (s : ℤ) : fileTime (fin 1 : F ℝ) s = fin (s : ℝ) := by
  unfold fileTime ofInt
  rw [ExactArith.rnd_eq, F.emul, mul_one]

theorem goFiles_converted : ∃ out, vtkConvert fullOpts (fin 1) (goFiles.map fun f => vtkOf f.1 f.2) = .ok out := by
  refine ((C62_times fullOpts fullOpts_full (fin 1) goFiles (by simp [goFiles]) (by simp [goFiles])).1).2 ?_
  unfold fileTimes goFiles
  simp only [List.map_cons, List.map_nil, goFiles_time, List.isChain_cons_cons, List.isChain_singleton, and_true, F.zero_def, F.lt_fin]
  norm_num

/-- The hypotheses of C89 and C90 are met: the two files, converted and opened, with the window set to the second one. -/
theorem goFiles_sitting (p : Profile) : ∃ out, Sitting fullOpts (fin 1) goFiles out p [.setTime (fin 1) (fin 2)] := by
  obtain ⟨out, h⟩ := goFiles_converted
  have hv := holdsVtk fullOpts fullOpts_full (fin 1) goFiles (by simp [goFiles]) (by simp [goFiles]) out h
  refine ⟨out, fullOpts_full, by simp [goFiles], by simp [goFiles], by simp [goFiles], h, fun c hc => ?_, ?_⟩
  · rw [List.mem_singleton.1 hc]; trivial
  · rcases load_alike p out.onDisk (by rw [hv.num]; simp [goFiles]) (by rw [hv.num]; simp [goFiles]) with ⟨e, he⟩ | ⟨kind, s, he, hs⟩
    · exfalso
      unfold OnDisk.load at he
      rw [if_pos (show out.onDisk.ty = 1 from rfl)] at he
      obtain ⟨d, e1, _⟩ := Dm.new_ok p .tdata out.onDisk.file out.onDisk.n Timestep.default (by rw [hv.num]; simp [goFiles]) (by rw [hv.num]; simp [goFiles])
      rw [e1] at he
      cases he
    · have hm : s.maxTime = fin 1 := by
        rw [hs.maxTime.1]
        have := hv.last
        unfold fileTimes goFiles at this
        simp only [List.map_cons, List.map_nil, goFiles_time, List.getLast?_cons_cons, List.getLast?_singleton, Option.some.injEq] at this
        rw [← this]; norm_num
      refine ⟨({ s with sel := s.sel.setTime (fin 1) (fin 2) }, [.none]), ?_⟩
      unfold OnDisk.session
      rw [he, run_bind_ok]
      change ((s.setTime (fin 1) (fin 2) >>= fun s => pure (s, Answer.none)) >>= fun r => _) = _
      unfold PyData.setTime
      rw [if_neg (by rw [hm, F.lt_fin]; norm_num)]
      rfl

/-- In that session the window shows exactly the second file. -/
example : inTime (fin 1) (windowOf ([.setTime (fin 1) (fin 2)] : List (Call ℝ))) goFiles = [goRec 2 6 3, goRec 1 1 3] := by
  have hw : windowOf ([.setTime (fin 1) (fin 2)] : List (Call ℝ)) = (fin 1, fin 2) := by
    unfold windowOf settings
    simp [Call.setsTime]
  rw [hw]
  unfold inTime goFiles
  simp only [List.filter_cons, List.filter_nil, goFiles_time, F.le_fin]
  norm_num

/-- **C89 is false of the code:** with the window set to the second of the two files, in which both particles have speed 3, `mean_velocity` says 2. -/
theorem C89_false (p : Profile) : ∃ (files : List (ℤ × List (Rec ℝ))) (out : TOut ℝ) (cs : List (Call ℝ)), Sitting fullOpts (fin 1) files out p cs ∧
    (∀ r ∈ inTime (fin 1) (windowOf cs) files, speed r.vel = fin 3) ∧ inTime (fin 1) (windowOf cs) files ≠ [] ∧
    out.onDisk.answer p (cs ++ [.meanVelocity]) = .ok (some (.num (fin 2))) := by
  obtain ⟨out, h⟩ := goFiles_sitting p
  have hw : windowOf ([.setTime (fin 1) (fin 2)] : List (Call ℝ)) = (fin 1, fin 2) := by
    unfold windowOf settings
    simp [Call.setsTime]
  have hi : inTime (fin 1) (windowOf ([.setTime (fin 1) (fin 2)] : List (Call ℝ))) goFiles = [goRec 2 6 3, goRec 1 1 3] := by
    rw [hw]
    unfold inTime goFiles
    simp only [List.filter_cons, List.filter_nil, goFiles_time, F.le_fin]
    norm_num
  refine ⟨goFiles, out, _, h, ?_, by rw [hi]; simp, ?_⟩
  · rw [hi]
    intro r hr
    have hv : r.vel = ![fin 3, fin 0, fin 0] := by
      simp only [List.mem_cons, List.not_mem_nil, or_false] at hr
      rcases hr with rfl | rfl <;> rfl
    unfold speed
    rw [hv]
    change (0 + fin 3 * fin 3 + fin 0 * fin 0 + fin 0 * fin 0 : F ℝ).sqrt = fin 3
    simp only [F.zero_def, F.emul, F.eadd]
    obtain ⟨T, e1, e2, e3⟩ := sqrt_root (K := ℝ) (x := 0 + 3 * 3 + 0 * 0 + 0 * 0) (by norm_num)
    rw [e1]
    congr 1
    nlinarith
  · rw [C89_mean_partial h (by simp [goFiles]) (fun r a => Up4.val (r.vel a)) ?_ (fun r => |Up4.val (r.vel 0)|) ?_]
    · congr 4
      simp [goFiles, goRec, Up4.val]
      norm_num
    · intro f hf r hr a
      simp only [goFiles, List.mem_cons, List.not_mem_nil, or_false] at hf
      rcases hf with rfl | rfl <;> simp only [List.mem_cons, List.not_mem_nil, or_false] at hr <;> rcases hr with rfl | rfl <;> fin_cases a <;> rfl
    · intro f hf r hr
      refine ⟨abs_nonneg _, ?_⟩
      simp only [goFiles, List.mem_cons, List.not_mem_nil, or_false] at hf
      rcases hf with rfl | rfl <;> simp only [List.mem_cons, List.not_mem_nil, or_false] at hr <;> rcases hr with rfl | rfl <;> simp [goRec, Up4.val]

end Up4
