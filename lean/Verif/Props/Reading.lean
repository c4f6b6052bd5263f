import Verif.Props.Whole
import Verif.Props.Items

/-!
C150: what can be read from a dataset (`data[t]`, `time()`, `extract`) is what the analyses work on.
-/

set_option linter.unusedSectionVars false

namespace Up4

open F
open Selector (at')

variable {K : Type} [Field K] [LinearOrder K] [IsStrictOrderedRing K] [FloorRing K] [Arith K]

/-! ### Specification -/

/-- The position in a row of `data[t]`: the second, third and fourth number. -/
def rowPos (r : Fin 7 → F K) : Pos K := ![r 1, r 2, r 3]

/-- The velocity in a row of `data[t]`: the last three numbers. -/
def rowVel (r : Fin 7 → F K) : Fin 3 → F K := ![r 4, r 5, r 6]

/-- Positions and velocities in the rows of all matrices `data[t]` for which the entry `t` of `time()` lies in the window. -/
def readIn (w : F K × F K) (T : List (F K)) (M : ℕ → List (Fin 7 → F K)) : List (Pos K × (Fin 3 → F K)) :=
  T.zipIdx.flatMap fun x => if w.1 ≤ x.1 ∧ x.1 ≤ w.2 then (M x.2).map fun r => (rowPos r, rowVel r) else []

/-! ### Proof -/

/-- The rows of a stored timestep. -/
def matrixOf (ts : Timestep K) : List (Fin 7 → F K) :=
  (List.range ts.position.length).map fun j => ![ts.particleid.getD j nan, ts.pos j 0, ts.pos j 1, ts.pos j 2, ts.vel j 0, ts.vel j 1, ts.vel j 2]

theorem pyRows_matrix {ts : Timestep K} (h : ts.Wf) : pyRows ts = .ok (matrixOf ts) := by
  have hrow : ∀ j, j < ts.position.length → pyRow ts j =
      .ok ![ts.particleid.getD j nan, ts.pos j 0, ts.pos j 1, ts.pos j 2, ts.vel j 0, ts.vel j 1, ts.vel j 2] := by
    intro j hj
    unfold pyRow
    have hid : at' ts.particleid j = .ok (ts.particleid.getD j nan) := at_ok (by rw [h.2.2.1]; exact hj) _
    rw [hid, run_bind_ok, at_pos hj, run_bind_ok, at_vel h hj, run_bind_ok, run_pure]
  unfold pyRows matrixOf
  suffices ∀ (l : List ℕ) (acc : List (Fin 7 → F K)), (∀ j ∈ l, j < ts.position.length) →
      (l.foldlM (fun acc j => do
        let row ← pyRow ts j
        pure (acc ++ [row])) acc : Run _) =
      .ok (acc ++ l.map fun j => ![ts.particleid.getD j nan, ts.pos j 0, ts.pos j 1, ts.pos j 2, ts.vel j 0, ts.vel j 1, ts.vel j 2]) from
    this _ [] fun j hj => List.mem_range.1 hj
  intro l
  induction l with
  | nil => intro acc _; simp [run_pure]
  | cons j l ih =>
    intro acc hl
    rw [List.foldlM_cons, hrow j (hl j List.mem_cons_self), run_bind_ok, run_pure, run_bind_ok, ih _ fun k hk => hl k (List.mem_cons_of_mem _ hk)]
    simp

theorem rowPos_row (a : F K) (x v : Fin 3 → F K) : rowPos ![a, x 0, x 1, x 2, v 0, v 1, v 2] = x := by
  funext i; fin_cases i <;> rfl

theorem rowVel_row (a : F K) (x v : Fin 3 → F K) : rowVel ![a, x 0, x 1, x 2, v 0, v 1, v 2] = v := by
  funext i; fin_cases i <;> rfl

theorem seen_readIn (d : Dm (Timestep K)) (w : F K × F K) :
    d.seen (Selector.default.setTime w.1 w.2) =
      readIn w ((List.range d.n).map fun t => (d.file t).time) (fun t => matrixOf (d.file t)) := by
  unfold Dm.seen Dm.samples samples readIn
  rw [List.map_flatMap]
  have : ((List.range d.n).map fun t => (d.file t).time).zipIdx = (List.range d.n).map fun t => ((d.file t).time, t) := by
    apply List.ext_getElem
    · simp
    · intro k h1 h2
      simp
  rw [this, List.flatMap_map]
  refine List.flatMap_congr fun t _ => ?_
  unfold Timestep.picks Selector.timestepValid
  by_cases h : w.1 ≤ (d.file t).time ∧ (d.file t).time ≤ w.2
  · rw [if_pos h, if_pos (by
      change (decide (w.1 ≤ (d.file t).time) && decide ((d.file t).time ≤ w.2)) = true
      simp [h.1, h.2])]
    have hch : ∀ i ∈ List.range (d.file t).position.length, (d.file t).chosen (Selector.default.setTime w.1 w.2) i = true := fun i _ => chosen_default (d.file t) i
    rw [List.filter_eq_self.2 hch]
    unfold matrixOf
    rw [List.map_map, List.map_map]
    refine List.map_congr_left fun i _ => ?_
    simp only [Function.comp_apply, rowPos_row, rowVel_row]
    rfl
  · rw [if_neg h, if_neg (by
      change ¬ (decide (w.1 ≤ (d.file t).time) && decide ((d.file t).time ≤ w.2)) = true
      simpa using h)]
    rfl

/-- **C150.** For every sound file there are a list of times and one matrix per timestep such that after any calls with sensible arguments: `time()` is the list, `data[t]` and
`data[t - n]` are the matrix of timestep `t`; `extract(i, (a, b))` has, for `t` from `a` to `b - 1`, entry `t` of the times followed by the position and velocity in row `i` of the
matrix of `t`; and the fields are those of the rows of the matrices whose time is in the window set last. -/
theorem C150_reading [LawfulArith K] (p : Profile) (f : OnDisk K) (hf : f.Sound) :
    ∃ (T : List (F K)) (M : ℕ → List (Fin 7 → F K)), T.length = f.n ∧ ∀ cs : List (Call K), (∀ c ∈ cs, c.Askable p f) →
      f.answer p (cs ++ [.time]) = .ok (some (.nums T)) ∧
      (∀ t, t < f.n → f.answer p (cs ++ [.item t]) = .ok (some (.matrix (M t))) ∧
        f.answer p (cs ++ [.item ((t : ℤ) - f.n)]) = .ok (some (.matrix (M t)))) ∧
      (∀ i a b, a ≤ b → b < f.n → (∀ t, a ≤ t → t < b → i < (M t).length) →
        ∃ l, f.answer p (cs ++ [.extract i a b]) = .ok (some (.table l)) ∧ l.length = b - a ∧
          ∀ k, k < b - a → ∃ time row, T[a + k]? = some time ∧ (M (a + k))[i]? = some row ∧
            l[k]? = some (time :: [row 1, row 2, row 3, row 4, row 5, row 6])) ∧
      FieldsOf p (fun c => f.answer p (cs ++ [c])) (readIn (windowOf cs) T M) := by
  obtain ⟨τ, hτ⟩ := hf.clock
  have htimes : f.st.times = (List.range f.n).map fun t => (f.file t).time := by
    rw [hτ.times]
    unfold timesOf
    refine List.map_congr_left fun t ht => (hτ.time t (List.mem_range.1 ht)).symm
  refine ⟨f.st.times, fun t => matrixOf (f.file t), by rw [htimes]; simp, fun cs hcs => ?_⟩
  obtain ⟨s, as, e, _⟩ := C136_answers_partial p f hf cs hcs
  obtain ⟨kind, s1, s2, s3, s4⟩ := session_state p f hf.pos hf.small cs (fun c hc => askable_fits (hcs c hc)) e
  have hn : s.dm.n = f.n := s1.num
  have hans : ∀ c, f.answer p (cs ++ [c]) = (s.call p c >>= fun r => pure (some r.2)) := by
    intro c
    rw [answer_snoc, e, run_bind_ok]
  have hitem : ∀ (i : ℤ) (t : ℕ), t < f.n → asUsize (pyIndex s.dm.n i) = t → f.answer p (cs ++ [.item i]) = .ok (some (.matrix (matrixOf (f.file t)))) := by
    intro i t ht hi
    rw [hans]
    change ((PyData.item p s.dm i >>= fun r => pure ({ s with dm := r.1 }, Answer.matrix r.2)) >>= fun r' => pure (some r'.2)) = _
    unfold PyData.item
    rw [hi]
    obtain ⟨b, e', _, _⟩ := Dm.get_steady (K := K) p s.dm s1 t ht
    rw [e', run_bind_ok]
    dsimp only
    rw [pyRows_matrix (hf.wf t ht), run_bind_ok]
    rfl
  refine ⟨?_, fun t ht => ⟨?_, ?_⟩, fun i a b hab hb hi => ?_, ?_⟩
  · rw [hans]
    change (Except.ok (some (Answer.nums s.st.times)) : Run _) = _
    rw [s2]
  · refine hitem _ t ht ?_
    rw [hn, (asUsize_index f.n hf.small t (by omega) (by omega)).1]
    unfold fromEnd
    rw [Int.emod_eq_of_lt (by omega) (by omega)]
    rfl
  · refine hitem _ t ht ?_
    rw [hn, (asUsize_index f.n hf.small _ (by omega) (by omega)).1]
    unfold fromEnd
    rw [Int.sub_emod_right, Int.emod_eq_of_lt (by omega) (by omega)]
    rfl
  · have hlen : ∀ t, (matrixOf (f.file t)).length = (f.file t).position.length := fun t => by unfold matrixOf; simp
    obtain ⟨d', _, _, _, e'⟩ := C31_extract p s.dm s1.inv i a b hab (by rw [hn]; exact hb) (fun t h1 h2 => by
      rw [s1.fileEq]; exact ⟨hf.wf t (by omega), by rw [← hlen]; exact hi t h1 h2⟩)
    refine ⟨_, by
      rw [hans]
      change ((Up4.extract p s.dm i a b >>= fun r => pure ({ s with dm := r.1 }, Answer.table r.2)) >>= fun r' => pure (some r'.2)) = _
      rw [e', run_bind_ok, run_pure, run_bind_ok, run_pure], by simp, fun k hk => ?_⟩
    have hk' := hi (a + k) (by omega) (by omega)
    rw [hlen] at hk'
    refine ⟨(f.file (a + k)).time, _, ?_, by unfold matrixOf; rw [List.getElem?_map, List.getElem?_range hk']; rfl, ?_⟩
    · rw [htimes, List.getElem?_map, List.getElem?_range (by omega)]; rfl
    · rw [s1.fileEq, List.getElem?_map, List.getElem?_range hk]
      rfl
  · refine fields_of_seen p s ⟨s1.inv, ?_, by rw [s4]; exact usable_default, ?_⟩ _ ?_ _ hans
    · intro t ht
      rw [s1.fileEq]
      exact hf.wf t (by rw [← hn]; exact ht)
    · obtain ⟨np, _, hmul, hnp⟩ := hf.particles
      unfold Dm.samples samples
      rw [s1.fileEq, hn, List.length_flatMap]
      refine le_trans (List.sum_le_card_nsmul _ np ?_) ?_
      · intro x hx
        obtain ⟨t, ht, rfl⟩ := List.mem_map.1 hx
        rw [List.length_map]
        unfold Timestep.picks
        split_ifs
        · refine (List.length_filter_le _ _).trans ?_
          rw [List.length_range, hnp t (List.mem_range.1 ht)]
        · exact Nat.zero_le _
      · rw [List.length_map, List.length_range, smul_eq_mul]
        exact hmul.trans (by norm_num)
    · rw [s4, seen_readIn, s1.fileEq, hn, htimes]

/-! ### Concrete cases -/

/-- Case for `C150_reading`: the four-step file, after a field, a look ahead and a window: the last matrix read from either end, and the count of a one-cell grid in the window. -/
example (p : Profile) : ∃ (T : List (F ℝ)) (M : ℕ → List (Fin 7 → F ℝ)) (g' : Grid ℝ), T.length = 4 ∧
    (soundFile 4).answer p [.numberfield soundGrid, .dispersion soundGrid (fin 1), .setTime (fin 1) (fin 2), .time] = .ok (some (.nums T)) ∧
    (soundFile 4).answer p [.numberfield soundGrid, .dispersion soundGrid (fin 1), .setTime (fin 1) (fin 2), .item (-1)] = .ok (some (.matrix (M 3))) ∧
    (soundFile 4).answer p [.numberfield soundGrid, .dispersion soundGrid (fin 1), .setTime (fin 1) (fin 2), .numberfield soundGrid] = .ok (some (.grid g')) ∧
    ∀ c, g'.st.data.get c = fin (((readIn (fin 1, fin 2) T M).countP fun x => inCell p soundGrid.geom x.1 c : ℕ) : ℝ) := by
  obtain ⟨T, M, h1, h⟩ := C150_reading p (soundFile 4) (soundFile_sound 4 (by norm_num) le_rfl)
  have hg := soundGrid_fit p
  obtain ⟨h2, h3, _, h5⟩ := h [.numberfield soundGrid, .dispersion soundGrid (fin 1), .setTime (fin 1) (fin 2)] (by
    intro c hc
    simp only [List.mem_cons, List.not_mem_nil, or_false] at hc
    rcases hc with rfl | rfl | rfl
    · exact hg
    · exact ⟨hg, Or.inl rfl, 1, rfl⟩
    · change ¬ (fin (3 : ℝ) < fin 1)
      rw [F.lt_fin]; norm_num)
  obtain ⟨g', e, _, hc⟩ := h5.number soundGrid hg.fillable
  exact ⟨T, M, g', h1, h2, (h3 3 (by change 3 < 4; norm_num)).2, e, hc⟩

end Up4
