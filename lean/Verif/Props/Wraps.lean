import Verif.Props.Whole
import Verif.Props.Construct
import Verif.Props.Cylinder

set_option linter.unusedSectionVars false

/-! # C147: the grid made from a dataset wraps it -/

namespace Up4
open F

variable {K : Type} [Field K] [LinearOrder K] [IsStrictOrderedRing K] [FloorRing K] [Arith K]

/-! ### Specification -/

/-- `Grid(data, num_cells=[…], grid_style=…)`: the arguments, from what `min_position()` and `max_position()` of the data returned. -/
def gridArgsOf (lo hi : Fin 3 → F K) (cells : CellId) (style : String) : GridArgs K where
  data := some fun i => (lo i, hi i)
  numCells := some [(cells 0 : ℤ), (cells 1 : ℤ), (cells 2 : ℤ)]
  style := style
  cellSize := none
  limits := none
  axis := fun _ => none

/-- The answers to `min_position()` and `max_position()` at this point of a session. -/
def ExtentIs (ask : Call K → Run (Option (Answer K))) (lo hi : Fin 3 → F K) : Prop :=
  ask .minPosition = .ok (some (.nums [lo 0, lo 1, lo 2])) ∧ ask .maxPosition = .ok (some (.nums [hi 0, hi 1, hi 2]))

/-- `numberfield` on `g` answers with whole numbers that add up to `n` over the cells of the grid. -/
def CountsAre (ask : Call K → Run (Option (Answer K))) (g : Grid K) (n : ℕ) : Prop :=
  ∃ (g' : Grid K) (count : CellId → ℕ), ask (.numberfield g) = .ok (some (.grid g')) ∧ (∀ c, g'.st.data.get c = fin (count c : K)) ∧
    ∑ c ∈ cellsOf g.geom.cells, count c = n

/-- In no direction the first particle of the first file (the one with the smallest id) is farther than all particles written after it: some particle with a larger id in
the same file, or some particle of a later file, has a coordinate at least as large. -/
def FirstMatched (files : List (ℤ × List (Rec K))) : Prop :=
  ∀ f rest, files = f :: rest → ∀ r ∈ f.2, (∀ s ∈ f.2, r.num ≤ s.num) → ∀ i : Fin 3,
    (∃ s ∈ f.2, r.num < s.num ∧ r.pos i ≤ s.pos i) ∨ ∃ g ∈ rest, ∃ s ∈ g.2, r.pos i ≤ s.pos i

/-! ### The recorded limits -/

/-- Where the first value is not above all others, the recorded limits are right. -/
theorem scan_encloses {l : List (F K)} {m : MinMax K} (h : ScanOf l m) (hn : ∀ v ∈ l, v ≠ nan) (h1 : ∀ v b, l = v :: b → ∃ w ∈ b, v ≤ w) :
    ∀ v ∈ l, m.lo ≤ v ∧ v ≤ m.hi := by
  obtain ⟨s1, -, -, s4⟩ := h
  have hhead : ∀ u b, l = u :: b → u ≤ m.hi := by
    intro u b e
    obtain ⟨w, hw, hle⟩ := h1 u b e
    obtain ⟨c1, c2, e2⟩ := List.append_of_mem hw
    refine F.le_trans' hle (s4 (u :: c1) w c2 ?_ ⟨u, List.mem_cons_self, hle⟩)
    rw [e, e2]; rfl
  intro v hv
  refine ⟨s1 v hv (hn v hv), ?_⟩
  obtain ⟨a, c, e⟩ := List.append_of_mem hv
  cases a with
  | nil => exact hhead v c e
  | cons u a =>
    by_cases huv : u ≤ v
    · exact s4 (u :: a) v c e ⟨u, List.mem_cons_self, huv⟩
    · have hu : u ≠ nan := hn u (by rw [e]; simp)
      have hvu : v ≤ u := F.le_of_lt' ((F.not_le' hu (hn v hv)).1 huv)
      exact F.le_trans' hvu (hhead u (a ++ v :: c) (by rw [e]; rfl))

theorem first_of_files {files : List (ℤ × List (Rec K))} (hne : ∀ f ∈ files, f.2 ≠ []) (hm : FirstMatched files) {l : List (Rec K)} (hl : InOrder files l) (i : Fin 3) :
    ∀ v b, (l.map fun r => r.pos i) = v :: b → ∃ w ∈ b, v ≤ w := by
  intro v b e
  obtain ⟨parts, rfl, hf⟩ := hl
  cases hf with
  | nil => cases e
  | @cons f part files' parts' hp hps =>
    obtain ⟨hperm, hsort⟩ := hp
    cases part with
    | nil => exact absurd (hperm.symm.eq_nil) (hne f List.mem_cons_self)
    | cons r part =>
      simp only [List.flatten_cons, List.cons_append, List.map_cons, List.cons.injEq] at e
      obtain ⟨rfl, rfl⟩ := e
      have hr : r ∈ f.2 := hperm.subset List.mem_cons_self
      have hmin : ∀ s ∈ f.2, r.num ≤ s.num := by
        intro s hs
        rcases List.mem_cons.1 (hperm.symm.subset hs) with rfl | hs
        · exact le_rfl
        · exact (List.pairwise_cons.1 hsort).1 s hs
      rcases hm f files' rfl r hr hmin i with ⟨s, hs, hlt, hle⟩ | ⟨g, hg, s, hs, hle⟩
      · refine ⟨s.pos i, List.mem_map.2 ⟨s, List.mem_append_left _ ?_, rfl⟩, hle⟩
        rcases List.mem_cons.1 (hperm.symm.subset hs) with rfl | hs
        · exact absurd hlt (lt_irrefl _)
        · exact hs
      · refine ⟨s.pos i, List.mem_map.2 ⟨s, List.mem_append_right _ ?_, rfl⟩, hle⟩
        obtain ⟨k, hk, e⟩ := List.getElem_of_mem hg
        have hlen := hps.length_eq
        have := (List.forall₂_iff_get.1 hps).2 k hk (by omega)
        refine List.mem_flatten.2 ⟨parts'[k]'(by omega), List.getElem_mem _, ?_⟩
        have h2 := this.1.symm.subset
        simp only [List.get_eq_getElem] at h2
        exact h2 (by rw [e]; exact hs)

/-! ### The grid -/

theorem gridArgs_grid (lo hi : Fin 3 → F K) (cells : CellId) : pyGrid (gridArgsOf lo hi cells "cartesian") = .ok (Grid.newCart cells fun i => (lo i, hi i)) := by
  obtain ⟨g, hg⟩ := (C92_accepts (a := gridArgsOf lo hi cells "cartesian") rfl).2
    ⟨Or.inl rfl, fun i l h => by simp [gridArgsOf] at h, ⟨cells, rfl⟩, fun h => by simp [gridArgsOf] at h⟩
  obtain ⟨c, lim, h1, h2, h3, _⟩ := C92_grid_partial hg
  have hc := h3 rfl
  simp only [gridArgsOf, Option.some.injEq, List.cons.injEq, Nat.cast_inj, and_true] at hc
  have hc' : cells = c := by funext i; fin_cases i; exacts [hc.1, hc.2.1, hc.2.2]
  have hl : lim = fun i => (lo i, hi i) := by
    funext i
    obtain ⟨d, e1, e2⟩ := h1 i
    cases e1
    exact e2
  rw [hg]
  rcases h2 with ⟨_, rfl⟩ | ⟨hs, _⟩
  · rw [hc', hl]
  · exact absurd (show (_ : String) = _ from hs) (by show ¬ ("cartesian" : String) = "cylindrical"; decide)

theorem gridArgs_cyl (lo hi : Fin 3 → F K) (cells : CellId) : pyGrid (gridArgsOf lo hi cells "cylindrical") = .ok (Grid.newCyl cells fun i => (lo i, hi i)) := by
  obtain ⟨g, hg⟩ := (C92_accepts (a := gridArgsOf lo hi cells "cylindrical") rfl).2
    ⟨Or.inr rfl, fun i l h => by simp [gridArgsOf] at h, ⟨cells, rfl⟩, fun h => by simp [gridArgsOf] at h⟩
  obtain ⟨c, lim, h1, h2, h3, _⟩ := C92_grid_partial hg
  have hc := h3 rfl
  simp only [gridArgsOf, Option.some.injEq, List.cons.injEq, Nat.cast_inj, and_true] at hc
  have hc' : cells = c := by funext i; fin_cases i; exacts [hc.1, hc.2.1, hc.2.2]
  have hl : lim = fun i => (lo i, hi i) := by
    funext i
    obtain ⟨d, e1, e2⟩ := h1 i
    cases e1
    exact e2
  rw [hg]
  rcases h2 with ⟨hs, _⟩ | ⟨_, rfl⟩
  · exact absurd (show (_ : String) = _ from hs) (by show ¬ ("cylindrical" : String) = "cartesian"; decide)
  · rw [hc', hl]

/-- Counting particles of which all, or as many as said, are inside. -/
theorem counts_of_fields [LawfulArith K] {p : Profile} {ask : Call K → Run (Option (Answer K))} {l : List (Pos K × (Fin 3 → F K))} (h : FieldsOf p ask l)
    (g : Grid K) (hg : g.Fillable p) : CountsAre ask g (l.countP fun x => g.isInside x.1) := by
  obtain ⟨g', e, _, hc⟩ := h.number g hg
  refine ⟨g', fun c => l.countP fun x => inCell p g.geom x.1 c, e, hc, ?_⟩
  have := sum_inCell p g.geom hg.2 l Prod.fst
  simp only [← List.countP_eq_length_filter] at this
  exact this

theorem counts_all [LawfulArith K] {p : Profile} {ask : Call K → Run (Option (Answer K))} {l : List (Pos K × (Fin 3 → F K))} (h : FieldsOf p ask l)
    (g : Grid K) (hg : g.Fillable p) (hall : ∀ x ∈ l, g.isInside x.1 = true) : CountsAre ask g l.length := by
  have := counts_of_fields h g hg
  rwa [List.countP_eq_length.2 hall] at this

/-- **C147, VTK.** After converting VTK files and whatever calls, the Cartesian grid made from the dataset, with whatever numbers of cells, holds every particle of every
file, and `numberfield` on it counts exactly the particles of the files in the window, if no position is NaN and the first particle written is nowhere the single farthest
one in the positive direction of an axis. -/
theorem C147_vtk_partial [LawfulArith K] {o : VtkOpts} {dt : F K} {files : List (ℤ × List (Rec K))} {out : TOut K} {p : Profile} {cs : List (Call K)}
    (h : Sitting o dt files out p cs) (hlen : (files.flatMap Prod.snd).length ≤ 2 ^ 53) (hn : ∀ f ∈ files, ∀ r ∈ f.2, ∀ i, r.pos i ≠ nan)
    (hm : FirstMatched files) :
    ∃ lo hi : Fin 3 → F K, ExtentIs (fun c => out.onDisk.answer p (cs ++ [c])) lo hi ∧ ∀ cells, CellsOk cells →
      ∃ g, pyGrid (gridArgsOf lo hi cells "cartesian") = .ok g ∧ (∀ f ∈ files, ∀ r ∈ f.2, g.isInside r.pos = true) ∧
        CountsAre (fun c => out.onDisk.answer p (cs ++ [c])) g (inTime dt (windowOf cs) files).length := by
  obtain ⟨lo, hi, -, e1, e2, l, hl, hscan⟩ := C90_extent h
  refine ⟨lo, hi, ⟨e1, e2⟩, fun cells hc => ⟨_, gridArgs_grid lo hi cells, ?_, ?_⟩⟩
  all_goals
    have hp := inOrder_perm files l hl
    have hin : ∀ f ∈ files, ∀ r ∈ f.2, (Grid.newCart cells fun i => (lo i, hi i)).isInside r.pos = true := by
      intro f hf r hr
      have hrl : r ∈ l := hp.symm.subset (List.mem_flatMap.2 ⟨f, hf, hr⟩)
      refine (CartGeom.isInside_iff _ _).2 fun i => ⟨hn f hf r hr i, ?_⟩
      refine scan_encloses (hscan i) ?_ (first_of_files h.nonempty hm hl i) _ (List.mem_map.2 ⟨r, hrl, rfl⟩)
      intro v hv
      obtain ⟨s, hs, rfl⟩ := List.mem_map.1 hv
      obtain ⟨f', hf', hs'⟩ := List.mem_flatMap.1 (hp.subset hs)
      exact hn f' hf' s hs' i
  · exact hin
  · have := counts_all (C123_vtk h hlen) _ (fillable_cart p _ (isCart_new cells (fun i => (lo i, hi i)) hc)) (by
      intro x hx
      obtain ⟨r, hr, rfl⟩ := List.mem_map.1 hx
      have hr' : r ∈ files.flatMap Prod.snd := by
        unfold inTime at hr
        obtain ⟨f, hf, hr⟩ := List.mem_flatMap.1 hr
        exact List.mem_flatMap.2 ⟨f, (List.mem_filter.1 hf).1, hr⟩
      obtain ⟨f, hf, hr'⟩ := List.mem_flatMap.1 hr'
      exact hin f hf r hr')
    rwa [List.length_map] at this

/-- **C147, CSV.** The same for a converted CSV file of one trajectory: if no position is NaN and the first row is nowhere the single farthest one. -/
theorem C147_csv_partial [LawfulArith K] {radius : F K} {rows : List (Row7 K)} {out : POut K} {p : Profile} {cs : List (Call K)}
    (h : RowSitting radius rows out p cs) (hn : ∀ r ∈ rows, ∀ i, r.p i ≠ nan)
    (hm : ∀ first rest, rows = first :: rest → ∀ i, ∃ r ∈ rest, first.p i ≤ r.p i) :
    ∃ lo hi : Fin 3 → F K, ExtentIs (fun c => (out.onDisk p).answer p (cs ++ [c])) lo hi ∧ ∀ cells, CellsOk cells →
      ∃ g, pyGrid (gridArgsOf lo hi cells "cartesian") = .ok g ∧ (∀ r ∈ rows, g.isInside r.p = true) ∧
        CountsAre (fun c => (out.onDisk p).answer p (cs ++ [c])) g (rowsIn (windowOf cs) rows).length := by
  obtain ⟨lo, hi, -, e1, e2, hscan⟩ := C91_extent h
  have hin : ∀ cells, ∀ r ∈ rows, (Grid.newCart cells fun i => (lo i, hi i)).isInside r.p = true := by
    intro cells r hr
    refine (CartGeom.isInside_iff _ _).2 fun i => ⟨hn r hr i, ?_⟩
    refine scan_encloses (hscan i) ?_ ?_ _ (List.mem_map.2 ⟨r, hr, rfl⟩)
    · intro v hv
      obtain ⟨s, hs, rfl⟩ := List.mem_map.1 hv
      exact hn s hs i
    · intro v b e
      cases rows with
      | nil => cases e
      | cons first rest =>
        simp only [List.map_cons, List.cons.injEq] at e
        obtain ⟨rfl, rfl⟩ := e
        obtain ⟨w, hw, hle⟩ := hm first rest rfl i
        exact ⟨w.p i, List.mem_map.2 ⟨w, hw, rfl⟩, hle⟩
  refine ⟨lo, hi, ⟨e1, e2⟩, fun cells hc => ⟨_, gridArgs_grid lo hi cells, hin cells, ?_⟩⟩
  have := counts_all (C123_csv h) _ (fillable_cart p _ (isCart_new cells (fun i => (lo i, hi i)) hc)) (by
    intro x hx
    obtain ⟨r, hr, rfl⟩ := List.mem_map.1 hx
    exact hin cells r (List.mem_filter.1 hr).1)
  rwa [List.length_map] at this

/-- Inside a cylindrical grid over the box `lo … hi`, for positions between `lo` and `hi`. -/
theorem cyl_inside [LawfulArith K] [ExactArith K] (cells : CellId) (lo hi : Fin 3 → K) (hlh : ∀ a, lo a ≤ hi a) (x : Fin 3 → K) (hx : ∀ a, lo a ≤ x a ∧ x a ≤ hi a) :
    (Grid.newCyl cells (finLimits lo hi)).isInside (finPos x) = true ↔
      (x 0 - (lo 0 + hi 0) / 2) ^ 2 + (x 1 - (lo 1 + hi 1) / 2) ^ 2 ≤ max ((hi 0 - lo 0) / 2) ((hi 1 - lo 1) / 2) ^ 2 := by
  have hmid : ∀ a, CylGeom.mid (finLimits lo hi a) = (fin ((lo a + hi a) / 2) : F K) := by
    intro a
    unfold CylGeom.mid finLimits; dsimp only
    rw [eadd, eofNat, ediv _ (by norm_num)]; norm_num
  have hR : (CylGeom.new cells (finLimits lo hi)).radius = fin (max ((hi 0 - lo 0) / 2) ((hi 1 - lo 1) / 2)) := outerRadius_exact lo hi hlh
  have hR0 : 0 ≤ max ((hi 0 - lo 0) / 2) ((hi 1 - lo 1) / 2) := le_max_of_le_left (by have := hlh 0; linarith)
  have c0 : (CylGeom.new cells (finLimits lo hi)).center 0 = fin ((lo 0 + hi 0) / 2) := hmid 0
  have c1 : (CylGeom.new cells (finLimits lo hi)).center 1 = fin ((lo 1 + hi 1) / 2) := hmid 1
  generalize max ((hi 0 - lo 0) / 2) ((hi 1 - lo 1) / 2) = R at hR hR0 ⊢
  obtain ⟨T, e1, e2, e3⟩ := sqrt_root (K := K) (x := (x 0 - (lo 0 + hi 0) / 2) * (x 0 - (lo 0 + hi 0) / 2) + (x 1 - (lo 1 + hi 1) / 2) * (x 1 - (lo 1 + hi 1) / 2))
    (add_nonneg (mul_self_nonneg _) (mul_self_nonneg _))
  obtain ⟨t, ht, ht1, ht2⟩ := LawfulArith.atan2_range (x 1 - (lo 1 + hi 1) / 2) (x 0 - (lo 0 + hi 0) / 2)
  have hcyl : (CylGeom.new cells (finLimits lo hi)).toCylindrical (finPos x) = ![fin T, fin t, fin (x 2)] := by
    unfold CylGeom.toCylindrical
    rw [c0, c1]
    simp only [finPos, esub, emul, eadd, e1]
    rw [← ht]; rfl
  change (CylGeom.new cells (finLimits lo hi)).isInside (finPos x) = true ↔ _
  unfold CylGeom.isInside
  rw [hcyl, hR]
  have l1 : (CylGeom.new cells (finLimits lo hi)).limits 1 = (-F.pi, F.pi) := rfl
  have l2 : (CylGeom.new cells (finLimits lo hi)).limits 2 = (fin (lo 2), fin (hi 2)) := rfl
  rw [l1, l2]
  have f0 : (![fin T, fin t, fin (x 2)] : Fin 3 → F K) 0 = fin T := rfl
  have f1 : (![fin T, fin t, fin (x 2)] : Fin 3 → F K) 1 = fin t := rfl
  have f2 : (![fin T, fin t, fin (x 2)] : Fin 3 → F K) 2 = fin (x 2) := rfl
  dsimp only
  rw [f0, f1, f2]
  simp only [F.pi, neg_fin, le_fin, Bool.and_eq_true, decide_eq_true_eq]
  have key : T ≤ R ↔ (x 0 - (lo 0 + hi 0) / 2) ^ 2 + (x 1 - (lo 1 + hi 1) / 2) ^ 2 ≤ R ^ 2 := by
    rw [pow_two, pow_two, pow_two, ← e3]
    exact mul_self_le_mul_self_iff e2 hR0
  rw [← key]
  exact ⟨fun h => h.1.1, fun h => ⟨⟨h, ht1, ht2⟩, hx 2⟩⟩

/-- The limits a session reports are those in the attributes. -/
theorem extent_attrs [LawfulArith K] {o : VtkOpts} {dt : F K} {files : List (ℤ × List (Rec K))} {out : TOut K} {p : Profile} {cs : List (Call K)}
    (h : Sitting o dt files out p cs) :
    ExtentIs (fun c => out.onDisk.answer p (cs ++ [c])) (fun i => (out.attrs.dims i).lo) (fun i => (out.attrs.dims i).hi) := by
  obtain ⟨t, t1, t2, t3, t4, t5, t6, t7, t8⟩ := h.state
  refine ⟨?_, ?_⟩
  · dsimp only
    rw [t8]
    change ((pure (t, Answer.nums [(t.st.dims 0).1, (t.st.dims 1).1, (t.st.dims 2).1]) : Run _) >>= _) = _
    rw [t4]; rfl
  · dsimp only
    rw [t8]
    change ((pure (t, Answer.nums [(t.st.dims 0).2, (t.st.dims 1).2, (t.st.dims 2).2]) : Run _) >>= _) = _
    rw [t4]; rfl

theorem ExtentIs.unique {ask : Call K → Run (Option (Answer K))} {lo hi lo' hi' : Fin 3 → F K} (h : ExtentIs ask lo hi) (h' : ExtentIs ask lo' hi') :
    lo = lo' ∧ hi = hi' := by
  obtain ⟨a, b⟩ := h
  obtain ⟨a', b'⟩ := h'
  rw [a] at a'
  rw [b] at b'
  simp only [Except.ok.injEq, Option.some.injEq, Answer.nums.injEq, List.cons.injEq, and_true] at a' b'
  exact ⟨by funext i; fin_cases i; exacts [a'.1, a'.2.1, a'.2.2], by funext i; fin_cases i; exacts [b'.1, b'.2.1, b'.2.2]⟩

/-- **C147, cylindrical grids.** In exact arithmetic, for finite positions spread out along all axes: under the conditions of `C147_vtk_partial` the cylindrical grid made from
the dataset holds exactly the particles within half of the longer one of the extents in x and y of the middle axis of the extent, and `numberfield` counts those in the window. -/
theorem C147_cylinder_partial [LawfulArith K] [ExactArith K] {o : VtkOpts} {dt : F K} {files : List (ℤ × List (Rec K))} {out : TOut K} {p : Profile} {cs : List (Call K)}
    (h : Sitting o dt files out p cs) (hlen : (files.flatMap Prod.snd).length ≤ 2 ^ 53) (x : Rec K → Fin 3 → K) (hn : ∀ f ∈ files, ∀ r ∈ f.2, r.pos = finPos (x r))
    (hm : FirstMatched files) {lo hi : Fin 3 → K} (hlt : ∀ a, lo a < hi a)
    (he : ExtentIs (fun c => out.onDisk.answer p (cs ++ [c])) (fun a => fin (lo a)) (fun a => fin (hi a))) (cells : CellId) (hc : CellsOk cells) :
    ∃ g, pyGrid (gridArgsOf (fun a => fin (lo a)) (fun a => fin (hi a)) cells "cylindrical") = .ok g ∧
      (∀ f ∈ files, ∀ r ∈ f.2, g.isInside r.pos = true ↔
        (x r 0 - (lo 0 + hi 0) / 2) ^ 2 + (x r 1 - (lo 1 + hi 1) / 2) ^ 2 ≤ max ((hi 0 - lo 0) / 2) ((hi 1 - lo 1) / 2) ^ 2) ∧
      CountsAre (fun c => out.onDisk.answer p (cs ++ [c])) g ((inTime dt (windowOf cs) files).countP fun r =>
        decide ((x r 0 - (lo 0 + hi 0) / 2) ^ 2 + (x r 1 - (lo 1 + hi 1) / 2) ^ 2 ≤ max ((hi 0 - lo 0) / 2) ((hi 1 - lo 1) / 2) ^ 2)) := by
  obtain ⟨lo', hi', he', hbox⟩ := C147_vtk_partial h hlen (fun f hf r hr i => by rw [hn f hf r hr]; simp [finPos]) hm
  obtain ⟨rfl, rfl⟩ := he.unique he'
  obtain ⟨gb, eb, hin, _⟩ := hbox cells hc
  rw [gridArgs_grid] at eb
  cases eb
  have hin' : ∀ f ∈ files, ∀ r ∈ f.2, (Grid.newCyl cells (finLimits lo hi)).isInside r.pos = true ↔
        (x r 0 - (lo 0 + hi 0) / 2) ^ 2 + (x r 1 - (lo 1 + hi 1) / 2) ^ 2 ≤ max ((hi 0 - lo 0) / 2) ((hi 1 - lo 1) / 2) ^ 2 := by
    intro f hf r hr
    have hb := (CartGeom.isInside_iff _ _).1 (hin f hf r hr)
    rw [hn f hf r hr] at hb ⊢
    exact cyl_inside cells lo hi (fun a => (hlt a).le) (x r) fun a => ⟨(F.le_fin _ _).1 (hb a).2.1, (F.le_fin _ _).1 (hb a).2.2⟩
  refine ⟨_, gridArgs_cyl _ _ cells, hin', ?_⟩
  have := counts_of_fields (C123_vtk h hlen) (Grid.newCyl cells (finLimits lo hi)) (fillable_cyl p cells hc lo hi hlt)
  rw [List.countP_map] at this
  rw [List.countP_congr (q := (fun x => (Grid.newCyl cells (finLimits lo hi)).isInside x.1) ∘ fun r : Rec K => (r.pos, r.vel))]
  · exact this
  · intro r hr
    have hr' : ∃ f ∈ files, r ∈ f.2 := by
      unfold inTime at hr
      obtain ⟨f, hf, hr⟩ := List.mem_flatMap.1 hr
      exact ⟨f, (List.mem_filter.1 hf).1, hr⟩
    obtain ⟨f, hf, hr'⟩ := hr'
    rw [decide_eq_true_eq]
    exact (hin' f hf r hr').symm

/-! ### What is missing -/

theorem dims_fold [LawfulArith K] (o : VtkOpts) (ho : o.Full) (dt : F K) (files : List (ℤ × List (Rec K))) (hf : files ≠ []) (hr : ∀ f ∈ files, f.2 ≠ []) (out : TOut K)
    (h : vtkConvert o dt (files.map fun f => vtkOf f.1 f.2) = .ok out) (i : Fin 3) :
    out.attrs.dims i = ((allRecs files).map fun r => r.pos i).foldl MinMax.see MinMax.init := by
  rw [vtkConvert_eq o ho dt files hf hr] at h
  by_cases hc : List.IsChain (fun a b => ¬ b < a) (0 :: fileTimes dt files)
  · rw [if_pos hc] at h
    cases h
    obtain ⟨-, -, h3, -⟩ := vtkAfter_fields o dt files VtkState.init 0
    dsimp only
    rw [h3, seePos_fold, List.map_map]; rfl
  · rw [if_neg hc] at h; cases h

/-- Files as in `C123_vtk_whole`, converted and opened. -/
theorem sitting_start [LawfulArith K] (o : VtkOpts) (ho : o.Full) (dt : F K) (files : List (ℤ × List (Rec K))) (hf : files ≠ [])
    (hn : files.length ≤ 2 ^ 50) (np : ℕ) (hnp : 1 ≤ np) (hcount : files.length * np ≤ 2 ^ 52) (hlen : ∀ f ∈ files, f.2.length = np)
    (hid : ∀ f ∈ files, (f.2.map Rec.num).Nodup) (hfin : ∀ f ∈ files, ∃ y : K, 0 ≤ y ∧ fileTime dt f.1 = fin y)
    (hs : files.Pairwise fun a b => fileTime dt a.1 ≤ fileTime dt b.1) : ∃ out, ∀ p, Sitting o dt files out p [] := by
  obtain ⟨out, e, en, h⟩ := C136_vtk_partial o ho dt files hf hn np hnp hcount hlen hid hfin hs
  refine ⟨out, fun p => ⟨ho, hf, hn, ?_, e, by simp, ?_⟩⟩
  · intro f hf' e'
    have := hlen f hf'
    rw [e'] at this
    simp at this
    omega
  · obtain ⟨s, as, r, -⟩ := h p [] (by simp)
    exact ⟨_, r⟩

/-- A particle at rest, in the corners and the middle of a cube. -/
noncomputable def cubeRec (num : ℕ) (x : ℝ) : Rec ℝ := ⟨num, fin 1, 1, fun _ => fin 0, finPos fun _ => x⟩

noncomputable def cubeFiles : List (ℤ × List (Rec ℝ)) := [(0, [cubeRec 1 0, cubeRec 2 2, cubeRec 3 1])]

theorem cubeFiles_sitting : ∃ out, ∀ p, Sitting fullOpts (fin 1) cubeFiles out p [] := by
  refine sitting_start fullOpts fullOpts_full (fin 1) cubeFiles (by simp [cubeFiles]) (by simp [cubeFiles]) 3 (by norm_num) (by simp [cubeFiles]) (by simp [cubeFiles])
    (by simp [cubeFiles, cubeRec]) ?_ (by simp [cubeFiles])
  intro f hf
  simp only [cubeFiles, List.mem_cons, List.not_mem_nil, or_false] at hf
  subst hf
  exact ⟨0, le_rfl, by rw [goFiles_time]; norm_num⟩

theorem cubeFiles_matched : FirstMatched cubeFiles := by
  intro f rest e r hr hmin i
  simp only [cubeFiles, List.cons.injEq] at e
  obtain ⟨rfl, rfl⟩ := e
  simp only [List.mem_cons, List.not_mem_nil, or_false, forall_eq_or_imp, forall_eq] at hr hmin
  rcases hr with rfl | rfl | rfl
  · exact Or.inl ⟨cubeRec 2 2, by simp, by simp [cubeRec], (F.le_fin _ _).2 (by norm_num)⟩
  · simp [cubeRec] at hmin
  · simp [cubeRec] at hmin

theorem cubeFiles_extent {out : TOut ℝ} {p : Profile} (h : Sitting fullOpts (fin 1) cubeFiles out p []) :
    ExtentIs (fun c => out.onDisk.answer p ([] ++ [c])) (fun _ => fin 0) (fun _ => fin 2) := by
  have hx := extent_attrs h
  have hp : (allRecs cubeFiles).Perm [cubeRec 1 0, cubeRec 2 2, cubeRec 3 1] := by
    unfold allRecs cubeFiles
    rw [List.flatMap_singleton]
    exact byId_perm _
  obtain ⟨lo, hi, he, hall⟩ := C147_vtk_partial h (by simp [cubeFiles]) (by
    intro f hf r hr i
    simp only [cubeFiles, List.mem_cons, List.not_mem_nil, or_false] at hf
    subst hf
    simp only [List.mem_cons, List.not_mem_nil, or_false] at hr
    rcases hr with rfl | rfl | rfl <;> simp [cubeRec, finPos]) cubeFiles_matched
  obtain ⟨rfl, rfl⟩ := hx.unique he
  obtain ⟨g, eg, hin, -⟩ := hall ![1, 1, 1] (by intro a; fin_cases a <;> norm_num)
  rw [gridArgs_grid] at eg
  cases eg
  have ins : ∀ q : Pos ℝ, (Grid.newCart ![1, 1, 1] fun i => ((out.attrs.dims i).lo, (out.attrs.dims i).hi)).isInside q = true →
      InBox (fun i => ((out.attrs.dims i).lo, (out.attrs.dims i).hi)) q := fun q hq => (CartGeom.isInside_iff _ _).1 hq
  have h1 := ins _ (hin (0, [cubeRec 1 0, cubeRec 2 2, cubeRec 3 1]) (by simp [cubeFiles]) (cubeRec 1 0) (by simp))
  have h2 := ins _ (hin (0, [cubeRec 1 0, cubeRec 2 2, cubeRec 3 1]) (by simp [cubeFiles]) (cubeRec 2 2) (by simp))
  have key : ∀ i, (out.attrs.dims i).lo = fin 0 ∧ (out.attrs.dims i).hi = fin 2 := by
    intro i
    have s := scan_init ((allRecs cubeFiles).map fun r => r.pos i)
    rw [← dims_fold fullOpts fullOpts_full (fin 1) cubeFiles (by simp [cubeFiles]) (by simp [cubeFiles]) out h.converted i] at s
    obtain ⟨-, s2, s3, -⟩ := s
    have hmem : ∀ v, v ∈ ((allRecs cubeFiles).map fun r => r.pos i) → v = fin 0 ∨ v = fin 2 ∨ v = fin 1 := by
      intro v hv
      obtain ⟨r, hr, rfl⟩ := List.mem_map.1 hv
      have := hp.subset hr
      simp only [List.mem_cons, List.not_mem_nil, or_false] at this
      rcases this with rfl | rfl | rfl
      · exact Or.inl rfl
      · exact Or.inr (Or.inl rfl)
      · exact Or.inr (Or.inr rfl)
    have hmax : (0 : ℝ) < Arith.maxK := LawfulArith.max_pos
    have a1 : (out.attrs.dims i).lo ≤ fin 0 := (h1 i).2.1
    have a2 : fin 2 ≤ (out.attrs.dims i).hi := (h2 i).2.2
    constructor
    · rcases s2 with e | e
      · rw [e, F.le_fin] at a1; linarith
      · rcases hmem _ e with e | e | e
        · exact e
        · rw [e, F.le_fin] at a1; norm_num at a1
        · rw [e, F.le_fin] at a1; norm_num at a1
    · rcases s3 with e | e
      · rw [e, F.le_fin] at a2; linarith
      · rcases hmem _ e with e | e | e
        · rw [e, F.le_fin] at a2; norm_num at a2
        · exact e
        · rw [e, F.le_fin] at a2; norm_num at a2
  have el : (fun i => (out.attrs.dims i).lo) = fun _ => fin 0 := funext fun i => (key i).1
  have eh : (fun i => (out.attrs.dims i).hi) = fun _ => fin 2 := funext fun i => (key i).2
  rw [el, eh] at hx
  exact hx

theorem cubeFiles_window : inTime (fin 1) (windowOf ([] : List (Call ℝ))) cubeFiles = [cubeRec 1 0, cubeRec 2 2, cubeRec 3 1] := by
  have hmax : (0 : ℝ) < Arith.maxK := LawfulArith.max_pos
  have hw : windowOf ([] : List (Call ℝ)) = (fin (-Arith.maxK), fin Arith.maxK) := rfl
  rw [hw]
  unfold inTime cubeFiles
  rw [List.filter_eq_self.2]
  · rfl
  · intro f hf
    simp only [List.mem_cons, List.not_mem_nil, or_false] at hf
    subst hf
    rw [goFiles_time, Bool.and_eq_true, decide_eq_true_eq, decide_eq_true_eq]
    dsimp only
    rw [F.le_fin, F.le_fin]
    generalize (Arith.maxK : ℝ) = M at hmax
    constructor <;> push_cast <;> linarith

/-- **C147 is false of cylindrical grids:** a file with particles in two corners and in the middle of a cube; the cylindrical grid made from it, with whatever numbers of cells,
holds the middle one only, and `numberfield` counts one particle instead of three. -/
theorem C147_cylinder_false : ∃ (out : TOut ℝ), (∀ p, Sitting fullOpts (fin 1) cubeFiles out p []) ∧ (inTime (fin 1) (windowOf ([] : List (Call ℝ))) cubeFiles).length = 3 ∧
    ∀ (p : Profile) (lo hi : Fin 3 → F ℝ), ExtentIs (fun c => out.onDisk.answer p [c]) lo hi → ∀ cells, CellsOk cells →
      ∃ g, pyGrid (gridArgsOf lo hi cells "cylindrical") = .ok g ∧ g.isInside (cubeRec 1 0).pos = false ∧ CountsAre (fun c => out.onDisk.answer p [c]) g 1 := by
  obtain ⟨out, h⟩ := cubeFiles_sitting
  refine ⟨out, h, by rw [cubeFiles_window]; rfl, fun p lo hi he cells hc => ?_⟩
  obtain ⟨rfl, rfl⟩ := he.unique (cubeFiles_extent (h p))
  obtain ⟨g, eg, hin, hcount⟩ := C147_cylinder_partial (h p) (by simp [cubeFiles]) (fun r => fun _ => if r.num = 1 then 0 else if r.num = 2 then 2 else 1) (by
    intro f hf r hr
    simp only [cubeFiles, List.mem_cons, List.not_mem_nil, or_false] at hf
    subst hf
    simp only [List.mem_cons, List.not_mem_nil, or_false] at hr
    rcases hr with rfl | rfl | rfl <;> simp [cubeRec]) cubeFiles_matched (lo := fun _ => 0) (hi := fun _ => 2) (fun _ => by norm_num) (cubeFiles_extent (h p)) cells hc
  refine ⟨g, eg, ?_, ?_⟩
  · rw [← Bool.not_eq_true, hin (0, [cubeRec 1 0, cubeRec 2 2, cubeRec 3 1]) (by simp [cubeFiles]) (cubeRec 1 0) (by simp)]
    simp [cubeRec]
  · rw [cubeFiles_window] at hcount
    convert hcount using 1
    · rfl
    · rw [List.countP_cons_of_neg, List.countP_cons_of_neg, List.countP_cons_of_pos, List.countP_nil]
      all_goals
        simp only [cubeRec]
        norm_num

/-- One particle in two files, moving backwards along all axes. -/
noncomputable def fallFiles : List (ℤ × List (Rec ℝ)) := [(0, [cubeRec 1 2]), (1, [cubeRec 1 0])]

/-- **C147 is false of Cartesian grids in general:** of a particle that moves backwards the upper limits are lost (`C63_false`); the grid made from the dataset holds neither of its
positions, and `numberfield` counts nothing, although there are two particles in the window. -/
theorem C147_false : ∃ (out : TOut ℝ), (∀ p, Sitting fullOpts (fin 1) fallFiles out p []) ∧ (inTime (fin 1) (windowOf ([] : List (Call ℝ))) fallFiles).length = 2 ∧
    ∀ (p : Profile) (lo hi : Fin 3 → F ℝ), ExtentIs (fun c => out.onDisk.answer p [c]) lo hi → ∀ cells, CellsOk cells →
      ∃ g, pyGrid (gridArgsOf lo hi cells "cartesian") = .ok g ∧ (∀ f ∈ fallFiles, ∀ r ∈ f.2, g.isInside r.pos = false) ∧
        CountsAre (fun c => out.onDisk.answer p [c]) g 0 := by
  obtain ⟨out, h⟩ := sitting_start fullOpts fullOpts_full (fin 1 : F ℝ) fallFiles (by simp [fallFiles]) (by simp [fallFiles]) 1 (by norm_num) (by simp [fallFiles])
    (by simp [fallFiles]) (by simp [fallFiles, cubeRec]) (by
      intro f hf
      simp only [fallFiles, List.mem_cons, List.not_mem_nil, or_false] at hf
      rcases hf with rfl | rfl
      · exact ⟨0, le_rfl, by rw [goFiles_time]; norm_num⟩
      · exact ⟨1, by norm_num, by rw [goFiles_time]; norm_num⟩) (by
      simp only [fallFiles, List.pairwise_cons, List.mem_cons, List.not_mem_nil, or_false, forall_eq, goFiles_time, F.le_fin]
      norm_num)
  have hmax : (2 : ℝ) < Arith.maxK := by
    change (2 : ℝ) < (2 ^ 53 - 1) * 2 ^ 971
    have h1 : (1 : ℝ) ≤ 2 ^ 971 := one_le_pow₀ (by norm_num)
    generalize (2 : ℝ) ^ 971 = P at h1
    nlinarith
  have hw : inTime (fin 1) (windowOf ([] : List (Call ℝ))) fallFiles = [cubeRec 1 2, cubeRec 1 0] := by
    have hw : windowOf ([] : List (Call ℝ)) = (fin (-Arith.maxK), fin Arith.maxK) := rfl
    rw [hw]
    unfold inTime fallFiles
    rw [List.filter_eq_self.2]
    · rfl
    · intro f hf
      simp only [List.mem_cons, List.not_mem_nil, or_false] at hf
      generalize (Arith.maxK : ℝ) = M at hmax
      rcases hf with rfl | rfl
      all_goals
        rw [goFiles_time, Bool.and_eq_true, decide_eq_true_eq, decide_eq_true_eq]
        dsimp only
        rw [F.le_fin, F.le_fin]
        constructor <;> push_cast <;> linarith
  have hdims : ∀ i, (out.attrs.dims i).hi = fin (-Arith.maxK) := by
    intro i
    rw [dims_fold fullOpts fullOpts_full (fin 1) fallFiles (by simp [fallFiles]) (by simp [fallFiles]) out (h .release).converted i]
    have ea : allRecs fallFiles = [cubeRec 1 2, cubeRec 1 0] := by
      unfold allRecs fallFiles
      rw [List.flatMap_cons, List.flatMap_cons, List.flatMap_nil, List.perm_singleton.1 (byId_perm _), List.perm_singleton.1 (byId_perm _)]
      rfl
    rw [ea]
    change ((MinMax.init.see (fin 2)).see (fin 0) : MinMax ℝ).hi = _
    unfold MinMax.see MinMax.init
    generalize (Arith.maxK : ℝ) = M at hmax
    dsimp only
    rw [if_pos ((F.lt_fin _ _).2 hmax)]
    dsimp only
    rw [if_pos ((F.lt_fin _ _).2 (by norm_num))]
  refine ⟨out, h, by rw [hw]; rfl, fun p lo hi he cells hc => ?_⟩
  obtain ⟨rfl, rfl⟩ := he.unique (extent_attrs (h p))
  have hout : ∀ x : ℝ, 0 ≤ x → (Grid.newCart cells fun i => ((out.attrs.dims i).lo, (out.attrs.dims i).hi)).isInside (cubeRec 1 x).pos = false := by
    intro x hx
    rw [← Bool.not_eq_true]
    intro hin
    have hb : InBox (fun i => ((out.attrs.dims i).lo, (out.attrs.dims i).hi)) (cubeRec 1 x).pos :=
      (CartGeom.isInside_iff (CartGeom.new cells fun i => ((out.attrs.dims i).lo, (out.attrs.dims i).hi)) _).1 hin
    have : fin x ≤ (out.attrs.dims 0).hi := (hb 0).2.2
    rw [hdims 0, F.le_fin] at this
    generalize (Arith.maxK : ℝ) = M at hmax this
    linarith
  refine ⟨_, gridArgs_grid _ _ cells, ?_, ?_⟩
  · intro f hf r hr
    simp only [fallFiles, List.mem_cons, List.not_mem_nil, or_false] at hf
    rcases hf with rfl | rfl
    · rw [List.mem_singleton.1 hr]; exact hout 2 (by norm_num)
    · rw [List.mem_singleton.1 hr]; exact hout 0 le_rfl
  · have := counts_of_fields (C123_vtk (h p) (by simp [fallFiles])) _ (fillable_cart p _ (isCart_new cells (fun i => ((out.attrs.dims i).lo, (out.attrs.dims i).hi)) hc))
    rw [hw, List.map_cons, List.map_cons, List.map_nil, List.countP_cons_of_neg, List.countP_cons_of_neg, List.countP_nil] at this
    · exact this
    · rw [hout 0 le_rfl]; simp
    · rw [hout 2 (by norm_num)]; simp

/-- Case for `C147_vtk_partial`, `C147_cylinder_partial`: the particles in the corners and the middle of a cube: the Cartesian grid holds them all, the cylindrical one is defined. -/
example (p : Profile) : ∃ out, Sitting fullOpts (fin 1) cubeFiles out p [] ∧ FirstMatched cubeFiles ∧
    ExtentIs (fun c => out.onDisk.answer p [c]) (fun _ => fin 0) (fun _ => fin 2) ∧
    ∃ g, pyGrid (gridArgsOf (fun _ => fin (0 : ℝ)) (fun _ => fin 2) ![50, 50, 50] "cartesian") = .ok g ∧ CountsAre (fun c => out.onDisk.answer p [c]) g 3 := by
  obtain ⟨out, h⟩ := cubeFiles_sitting
  refine ⟨out, h p, cubeFiles_matched, cubeFiles_extent (h p), ?_⟩
  obtain ⟨lo, hi, he, hall⟩ := C147_vtk_partial (h p) (by simp [cubeFiles]) (by
    intro f hf r hr i
    simp only [cubeFiles, List.mem_cons, List.not_mem_nil, or_false] at hf
    subst hf
    simp only [List.mem_cons, List.not_mem_nil, or_false] at hr
    rcases hr with rfl | rfl | rfl <;> simp [cubeRec, finPos]) cubeFiles_matched
  obtain ⟨rfl, rfl⟩ := he.unique (cubeFiles_extent (h p))
  obtain ⟨g, eg, -, hc⟩ := hall ![50, 50, 50] (by intro a; fin_cases a <;> norm_num)
  rw [cubeFiles_window] at hc
  exact ⟨g, eg, hc⟩

/-- Case for `C147_csv_partial`: two rows, the second one farther in all directions. -/
example (lib : FitLib ℝ) (radius : F ℝ) (p : Profile) :
    let rows : List (Row7 ℝ) := [⟨fin 1, fun _ => fin 0, fun _ => fin 0⟩, ⟨fin 3, fun _ => fin 1, fun _ => fin 0⟩]
    ∃ out, csvConvert lib { cols := [0, 1, 2, 3, 4, 5, 6], vel := false, interp := false, radius := radius, sampling := 9 }
        [[fin 1, fin 0, fin 0, fin 0, fin 0, fin 0, fin 0], [fin 3, fin 1, fin 1, fin 1, fin 0, fin 0, fin 0]] = .ok out ∧
      ∃ lo hi, ExtentIs (fun c => (out.onDisk p).answer p [c]) lo hi ∧ ∃ g, pyGrid (gridArgsOf lo hi ![50, 50, 50] "cartesian") = .ok g ∧
        ∀ r ∈ rows, g.isInside r.p = true := by
  intro rows
  have h2 : ∀ r ∈ rows, 0 < r.t := by
    simp only [rows, List.mem_cons, List.not_mem_nil, or_false, forall_eq_or_imp, forall_eq, F.zero_def]
    exact ⟨(F.lt_fin _ _).2 (by norm_num), (F.lt_fin _ _).2 (by norm_num)⟩
  obtain ⟨out, e, h⟩ := C123_csv_whole lib { cols := [0, 1, 2, 3, 4, 5, 6], vel := false, interp := false, radius := radius, sampling := 9 } rfl rfl rfl
    [[fin 1, fin 0, fin 0, fin 0, fin 0, fin 0, fin 0], [fin 3, fin 1, fin 1, fin 1, fin 0, fin 0, fin 0]] rows
    (by refine .cons ⟨rfl, fun j => ?_, fun j => ?_⟩ (.cons ⟨rfl, fun j => ?_, fun j => ?_⟩ .nil) <;> fin_cases j <;> rfl)
    (by
      simp only [rows, List.pairwise_cons, List.mem_singleton, forall_eq, List.not_mem_nil, IsEmpty.forall_iff, implies_true, List.Pairwise.nil, and_true]
      exact (F.lt_fin _ _).2 (by norm_num)) h2 (by
      simp only [rows, List.mem_cons, List.not_mem_nil, or_false, forall_eq_or_imp, forall_eq]
      exact ⟨⟨1, rfl⟩, 3, rfl⟩) _ rfl (by simp) (by simp [rows])
  obtain ⟨out', e', hsit⟩ := C91_csv lib { cols := [0, 1, 2, 3, 4, 5, 6], vel := false, interp := false, radius := radius, sampling := 9 } rfl rfl rfl
    [[fin 1, fin 0, fin 0, fin 0, fin 0, fin 0, fin 0], [fin 3, fin 1, fin 1, fin 1, fin 0, fin 0, fin 0]] rows
    (by refine .cons ⟨rfl, fun j => ?_, fun j => ?_⟩ (.cons ⟨rfl, fun j => ?_, fun j => ?_⟩ .nil) <;> fin_cases j <;> rfl)
    (by
      simp only [rows, List.pairwise_cons, List.mem_singleton, forall_eq, List.not_mem_nil, IsEmpty.forall_iff, implies_true, List.Pairwise.nil, and_true]
      exact (F.lt_fin _ _).2 (by norm_num)) h2 _ rfl (by simp) (by simp [rows])
  rw [e] at e'
  cases e'
  obtain ⟨⟨s, as, r, -⟩, -⟩ := h p [] (by simp)
  obtain ⟨lo, hi, he, hall⟩ := C147_csv_partial (hsit p [] (by simp) ⟨_, r⟩) (by simp [rows]) (by
    intro first rest e' i
    simp only [rows, List.cons.injEq] at e'
    obtain ⟨rfl, rfl⟩ := e'
    exact ⟨_, List.mem_singleton_self _, (F.le_fin _ _).2 (by norm_num)⟩)
  obtain ⟨g, eg, hin, -⟩ := hall ![50, 50, 50] (by intro a; fin_cases a <;> norm_num)
  exact ⟨out, e, lo, hi, he, g, eg, hin⟩

end Up4
