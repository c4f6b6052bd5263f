import Verif.Props.Hdf5
import Verif.Props.Velocity
import Verif.Model.Python

set_option linter.unusedSectionVars false

/-! # C73 - C75: item access from Python -/

namespace Up4
open F
open Selector (at')

variable {K : Type} [Field K] [LinearOrder K] [IsStrictOrderedRing K] [FloorRing K] [Arith K]

/-! ### Specification -/

/-- The row is id, position and velocity of particle `j` of the timestep. -/
def RowFor (ts : Timestep K) (j : ℕ) (row : Fin 7 → F K) : Prop :=
  ts.particleid[j]? = some (row 0) ∧ (ts.position[j]?).map (fun x => (x 0, x 1, x 2)) = some (row 1, row 2, row 3) ∧
  (ts.velocity[j]?).map (fun v => (v 0, v 1, v 2)) = some (row 4, row 5, row 6)

/-- The matrix has one row per particle of the timestep, in order. -/
def IsMatrix (ts : Timestep K) (rows : List (Fin 7 → F K)) : Prop :=
  rows.length = ts.position.length ∧ ∀ (j : ℕ) row, rows[j]? = some row → RowFor ts j row

/-- The `np` rows are those of the particles of the timestep, and zeros behind the last particle. -/
def IsPadded (ts : Timestep K) (np : ℕ) (row : ℕ → Fin 7 → F K) : Prop :=
  ∀ j, j < np → (j < ts.position.length → RowFor ts j (row j)) ∧ (ts.position.length ≤ j → ∀ c, row j c = 0)

/-- Every stored timestep has an id and a velocity for each position, and no more particles than the file announces. -/
def H5.Tidy (h : H5 K) : Prop := ∀ t ts, t < h.n → h.Stored t ts →
  ts.position.length ≤ ts.particleid.length ∧ ts.position.length ≤ ts.velocity.length ∧ ts.position.length ≤ h.np

/-- The array holds one padded matrix for each of the timesteps. -/
def H5.Holds (h : H5 K) (ts : List ℕ) (a : Arr 2 (Fin 7 → F K)) : Prop :=
  a.shape = ![ts.length, h.np] ∧ ∀ (k t : ℕ), ts[k]? = some t → ∃ step, h.Stored t step ∧ IsPadded step h.np fun j => a.get ![k, j]

/-- The timestep an index from Python means, in a data set of `n` timesteps: negative indices count from the end. -/
def fromEnd (n : ℕ) (i : ℤ) : ℕ := (i % (n : ℤ)).toNat

/-- The timesteps `start, start + step, ...` before `stop`. -/
def upTo (start stop step : ℤ) (ts : List ℕ) : Prop :=
  ∀ k : ℕ, ts[k]? = if start + step * k < stop then some (start + step * k).toNat else none

/-- What the key should give. -/
def H5.Answers (h : H5 K) : PyKey → PyVal K → Prop
  | .int i, v => ∃ ts rows, v = .matrix rows ∧ h.Stored (fromEnd h.n i) ts ∧ IsMatrix ts rows
  | .vec l, v => ∃ a, v = .cube a ∧ h.Holds (l.map (fromEnd h.n)) a
  | .slice start stop step, v => ∃ first last ts a, sliceIndices h.n start stop step = .ok (first, last, step.getD 1) ∧
      upTo first last (step.getD 1) ts ∧ v = .cube a ∧ h.Holds ts a

/-- Integers and lists of integers from `-n` to `n - 1`; slices with a positive step that divides their length. -/
def PyKey.Valid (n : ℕ) : PyKey → Prop
  | .int i => -(n : ℤ) ≤ i ∧ i < n
  | .vec l => ∀ i ∈ l, -(n : ℤ) ≤ i ∧ i < n
  | .slice start stop step => 0 < step.getD 1 ∧ ∃ first last, sliceIndices n start stop step = .ok (first, last, step.getD 1) ∧ first ≤ last ∧
      step.getD 1 ∣ last - first

/-! ### Indices -/

theorem asUsize_index (n : ℕ) (hn : n ≤ 2 ^ 50) (i : ℤ) (h1 : -(n : ℤ) ≤ i) (h2 : i < n) : asUsize (pyIndex n i) = fromEnd n i ∧ fromEnd n i < n := by
  unfold asUsize pyIndex fromEnd usizeMod
  have e : i % (n : ℤ) = if i < 0 then (n : ℤ) + i else i := by
    split
    · rw [← Int.add_emod_left, Int.emod_eq_of_lt (by omega) (by omega)]
    · rw [Int.emod_eq_of_lt (by omega) (by omega)]
  rw [e]
  split
  · rw [Int.emod_eq_of_lt (by omega) (by push_cast; omega)]
    exact ⟨rfl, by omega⟩
  · rw [Int.emod_eq_of_lt (by omega) (by push_cast; omega)]
    exact ⟨rfl, by omega⟩

/-! ### Rows -/

theorem pyRows_ok (ts : Timestep K) (h1 : ts.position.length ≤ ts.particleid.length) (h2 : ts.position.length ≤ ts.velocity.length) :
    ∃ rows, pyRows ts = .ok rows ∧ IsMatrix ts rows := by
  have hrow : ∀ j, j < ts.position.length → ∃ row, pyRow ts j = .ok row ∧ RowFor ts j row := by
    intro j hj
    refine ⟨![ts.particleid[j], ts.position[j] 0, ts.position[j] 1, ts.position[j] 2, ts.velocity[j] 0, ts.velocity[j] 1, ts.velocity[j] 2], ?_, ?_⟩
    · unfold pyRow
      rw [at_some (by omega), run_bind_ok, at_some (by omega), run_bind_ok, at_some (by omega), run_bind_ok, run_pure]
    · refine ⟨List.getElem?_eq_getElem (by omega), ?_, ?_⟩
      · rw [List.getElem?_eq_getElem (by omega)]; rfl
      · rw [List.getElem?_eq_getElem (by omega)]; rfl
  obtain ⟨rows, e, hf⟩ := emit_forall₂ (List.range ts.position.length) (pyRow ts) (by
    intro j hj
    obtain ⟨row, hr, _⟩ := hrow j (by simpa using hj)
    exact ⟨row, hr⟩) []
  refine ⟨rows, by unfold pyRows; rw [e]; rfl, ?_⟩
  have hl := hf.length_eq
  rw [List.length_range] at hl
  refine ⟨hl.symm, fun j row hj => ?_⟩
  obtain ⟨hj1, hj2⟩ := List.getElem?_eq_some_iff.1 hj
  have := (List.forall₂_iff_get.1 hf).2 j (by simp; omega) hj1
  simp only [List.get_eq_getElem, List.getElem_range] at this
  obtain ⟨row', hr, hr'⟩ := hrow j (by omega)
  rw [hr, hj2] at this
  cases this
  exact hr'

theorem inB_pair {a b i j : ℕ} : InB ![a, b] ![i, j] ↔ i < a ∧ j < b := by
  constructor
  · intro h; exact ⟨h 0, h 1⟩
  · rintro ⟨h1, h2⟩ k
    fin_cases k
    · exact h1
    · exact h2

theorem pair_inj {i j k l : ℕ} : (![i, j] : Fin 2 → ℕ) = ![k, l] ↔ i = k ∧ j = l := by
  constructor
  · intro h; exact ⟨congrFun h 0, congrFun h 1⟩
  · rintro ⟨rfl, rfl⟩; rfl

/-- Writing the rows of one timestep. -/
theorem writeRows_ok (rows : List (Fin 7 → F K)) (k count np s : ℕ) (hk : k < count) (hs : s + rows.length ≤ np) (a : Arr 2 (Fin 7 → F K))
    (ha : a.shape = ![count, np]) :
    ∃ a', (rows.zipIdx s).foldlM (fun (a : Arr 2 (Fin 7 → F K)) y => a.write ![k, y.2] y.1) a = (.ok a' : Run _) ∧ a'.shape = ![count, np] ∧
      (∀ k' j, k' ≠ k ∨ j < s ∨ s + rows.length ≤ j → a'.get ![k', j] = a.get ![k', j]) ∧
      ∀ (j : ℕ) row, rows[j]? = some row → a'.get ![k, s + j] = row := by
  induction rows generalizing s a with
  | nil => exact ⟨a, rfl, ha, fun _ _ _ => rfl, fun j row h => by simp at h⟩
  | cons r rows ih =>
    rw [List.length_cons] at hs
    have hw : a.write ![k, s] r = .ok { a with get := Function.update a.get ![k, s] r } := by
      unfold Arr.write
      rw [ha, if_pos (inB_pair.2 ⟨hk, by omega⟩)]
    obtain ⟨a', e, h1, h2, h3⟩ := ih (s + 1) (by omega) { a with get := Function.update a.get ![k, s] r } ha
    refine ⟨a', ?_, h1, ?_, ?_⟩
    · rw [List.zipIdx_cons, List.foldlM_cons, hw, run_bind_ok, e]
    · intro k' j h
      rw [List.length_cons] at h
      rw [h2 k' j (by omega)]
      apply Function.update_of_ne
      rw [Ne, pair_inj]
      omega
    · intro j row h
      cases j with
      | zero =>
        rw [List.getElem?_cons_zero] at h
        cases h
        rw [Nat.add_zero, h2 k s (by omega)]
        exact Function.update_self ..
      | succ j =>
        rw [List.getElem?_cons_succ] at h
        have := h3 j row h
        rw [show s + (j + 1) = s + 1 + j by omega]
        exact this

/-- What is assumed of the file: complete, with `steps t` the stored timestep `t`. -/
structure Opened (p : Profile) (h : H5 K) (steps : ℕ → Timestep K) : Prop where
  size : h.n ≤ 2 ^ 50
  stored : ∀ t, t < h.n → h.Stored t (steps t)
  upd : ∀ (b : Buf (Timestep K)) (lo hi : ℕ), h.update p b lo hi = b.load p h.kind steps h.n lo hi
  tidy : h.Tidy

theorem pyFill_ok [LawfulArith K] {p : Profile} {h : H5 K} {steps : ℕ → Timestep K} (ho : Opened p h steps) (b : Buf (Timestep K))
    (hb : b.Good steps h.n) (a : Arr 2 (Fin 7 → F K)) (count k t : ℕ) (ha : a.shape = ![count, h.np]) (hk : k < count) (ht : t < h.n)
    (hz : ∀ j c, a.get ![k, j] c = 0) :
    ∃ b' a', pyFill p h (b, a) (t, k) = .ok (b', a') ∧ b'.Good steps h.n ∧ a'.shape = ![count, h.np] ∧
      (∀ k' j, k' ≠ k → a'.get ![k', j] = a.get ![k', j]) ∧ IsPadded (steps t) h.np fun j => a'.get ![k, j] := by
  obtain ⟨b', e1, hb'⟩ := h.get_ok p ho.size steps ho.upd b hb t ht
  obtain ⟨t1, t2, t3⟩ := ho.tidy t (steps t) ht (ho.stored t ht)
  obtain ⟨rows, e2, hl, hr⟩ := pyRows_ok (steps t) t1 t2
  obtain ⟨a', e3, h1, h2, h3⟩ := writeRows_ok rows k count h.np 0 hk (by omega) a ha
  refine ⟨b', a', ?_, hb', h1, fun k' j hne => h2 k' j (Or.inl hne), fun j hj => ⟨fun hlt => ?_, fun hle c => ?_⟩⟩
  · unfold pyFill
    dsimp only
    rw [e1, run_bind_ok]
    dsimp only
    rw [e2, run_bind_ok, e3, run_bind_ok, run_pure]
  · have hj' : j < rows.length := by omega
    have := h3 j rows[j] (List.getElem?_eq_getElem hj')
    rw [Nat.zero_add] at this
    dsimp only
    rw [this]
    exact hr j _ (List.getElem?_eq_getElem hj')
  · dsimp only
    rw [h2 k j (by omega)]
    exact hz j c

theorem pyCube_loop [LawfulArith K] {p : Profile} {h : H5 K} {steps : ℕ → Timestep K} (ho : Opened p h steps) (count : ℕ) :
    ∀ (ts : List ℕ) (s : ℕ) (b : Buf (Timestep K)) (a : Arr 2 (Fin 7 → F K)), b.Good steps h.n → a.shape = ![count, h.np] →
      s + ts.length ≤ count → (∀ t ∈ ts, t < h.n) → (∀ k j c, s ≤ k → a.get ![k, j] c = 0) →
      ∃ b' a', (ts.zipIdx s).foldlM (pyFill p h) (b, a) = .ok (b', a') ∧ b'.Good steps h.n ∧ a'.shape = ![count, h.np] ∧
        (∀ k j, k < s ∨ s + ts.length ≤ k → a'.get ![k, j] = a.get ![k, j]) ∧
        ∀ (k t : ℕ), ts[k]? = some t → IsPadded (steps t) h.np fun j => a'.get ![s + k, j] := by
  intro ts
  induction ts with
  | nil => intro s b a hb ha _ _ _; exact ⟨b, a, rfl, hb, ha, fun _ _ _ => rfl, fun k t h => by simp at h⟩
  | cons t ts ih =>
    intro s b a hb ha hs hts hz
    rw [List.length_cons] at hs
    obtain ⟨b1, a1, e1, hb1, ha1, h1, h2⟩ := pyFill_ok ho b hb a count s t ha (by omega) (hts t (by simp)) (fun j c => hz s j c (le_refl s))
    obtain ⟨b2, a2, e2, hb2, ha2, h3, h4⟩ := ih (s + 1) b1 a1 hb1 ha1 (by omega) (fun t ht => hts t (by simp [ht])) (fun k j c hk => by
      rw [h1 k j (by omega)]; exact hz k j c (by omega))
    refine ⟨b2, a2, ?_, hb2, ha2, ?_, ?_⟩
    · rw [List.zipIdx_cons, List.foldlM_cons, e1, run_bind_ok, e2]
    · intro k j hk
      rw [List.length_cons] at hk
      rw [h3 k j (by omega), h1 k j (by omega)]
    · intro k t' hk
      cases k with
      | zero =>
        rw [List.getElem?_cons_zero] at hk
        cases hk
        intro j hj
        rw [Nat.add_zero]
        dsimp only
        rw [h3 s j (by omega)]
        exact h2 j hj
      | succ k =>
        rw [List.getElem?_cons_succ] at hk
        have := h4 k t' hk
        rw [show s + (k + 1) = s + 1 + k by omega]
        exact this

theorem pyCube_ok [LawfulArith K] {p : Profile} {h : H5 K} {steps : ℕ → Timestep K} (ho : Opened p h steps) (b : Buf (Timestep K))
    (hb : b.Good steps h.n) (ts : List ℕ) (hts : ∀ t ∈ ts, t < h.n) :
    ∃ b' a, pyCube p h b ts.length ts = .ok (b', .cube a) ∧ b'.Good steps h.n ∧ h.Holds ts a := by
  obtain ⟨b', a, e, hb', h1, _, h3⟩ := pyCube_loop ho ts.length ts 0 b (Arr.const ![ts.length, h.np] (fun _ => 0)) hb rfl (by omega) hts
    (fun _ _ _ _ => rfl)
  refine ⟨b', a, ?_, hb', h1, fun k t hk => ⟨steps t, ho.stored t (hts t (List.mem_of_getElem? hk)), ?_⟩⟩
  · unfold pyCube
    rw [e, run_bind_ok, run_pure]
  · have := h3 k t hk
    rw [Nat.zero_add] at this
    exact this

/-! ### Slices -/

theorem sliceIndices_range (n : ℕ) (start stop step : Option ℤ) (first last s : ℤ) (h : sliceIndices n start stop step = .ok (first, last, s)) :
    s = step.getD 1 ∧ s ≠ 0 ∧ (0 < s → 0 ≤ first ∧ first ≤ n ∧ 0 ≤ last ∧ last ≤ n) ∧
      (s < 0 → -1 ≤ first ∧ first < n ∧ -1 ≤ last ∧ last < n) := by
  unfold sliceIndices at h
  dsimp only at h
  by_cases h0 : step.getD 1 = 0
  · rw [if_pos h0] at h; cases h
  rw [if_neg h0] at h
  have h' := Except.ok.inj h
  simp only [Prod.mk.injEq] at h'
  obtain ⟨h1, h2, h3⟩ := h'
  subst h3
  have he : ∀ i : ℤ, (0 < step.getD 1 → 0 ≤ sliceEnd n (step.getD 1) i ∧ sliceEnd n (step.getD 1) i ≤ n) ∧
      (step.getD 1 < 0 → -1 ≤ sliceEnd n (step.getD 1) i ∧ sliceEnd n (step.getD 1) i < n) := by
    intro i
    unfold sliceEnd
    constructor
    · intro hs
      split
      · split
        · rw [if_neg (by omega)]; omega
        · omega
      · split
        · rw [if_neg (by omega)]; omega
        · omega
    · intro hs
      split
      · split
        · omega
        · omega
      · split
        · omega
        · omega
  refine ⟨rfl, h0, fun hs => ?_, fun hs => ?_⟩
  · have hf : 0 ≤ first ∧ first ≤ n := by
      rw [← h1]
      cases start with
      | none => dsimp only; rw [if_neg (by omega)]; omega
      | some i => exact (he i).1 hs
    have hl : 0 ≤ last ∧ last ≤ n := by
      rw [← h2]
      cases stop with
      | none => dsimp only; rw [if_neg (by omega)]; omega
      | some i => exact (he i).1 hs
    exact ⟨hf.1, hf.2, hl.1, hl.2⟩
  · have hf : -1 ≤ first ∧ first < n := by
      rw [← h1]
      cases start with
      | none => dsimp only; rw [if_pos hs]; omega
      | some i => exact (he i).2 hs
    have hl : -1 ≤ last ∧ last < n := by
      rw [← h2]
      cases stop with
      | none => dsimp only; rw [if_pos hs]; omega
      | some i => exact (he i).2 hs
    exact ⟨hf.1, hf.2, hl.1, hl.2⟩

theorem asUsize_of_lt (z : ℤ) (h0 : 0 ≤ z) (h1 : z < 2 ^ 63) : asUsize z = z.toNat := by
  unfold asUsize usizeMod
  rw [Int.emod_eq_of_lt h0 (by push_cast; omega)]

/-- The number of steps of a slice. -/
theorem stepBy_get (first last s : ℤ) (hs : 0 < s) (k : ℕ) :
    (stepBy first last s)[k]? = if first + s * k < last then some (first + s * k) else none := by
  unfold stepBy
  rw [if_pos hs, List.getElem?_map]
  have key : k < ((last - first + s - 1) / s).toNat ↔ first + s * k < last := by
    rw [Int.lt_toNat]
    rw [Int.lt_iff_add_one_le, Int.le_ediv_iff_mul_le hs]
    constructor
    · intro h; nlinarith
    · intro h; nlinarith
  by_cases h : first + s * k < last
  · rw [if_pos h, List.getElem?_range (key.2 h)]
    rfl
  · rw [if_neg h, List.getElem?_eq_none (by rw [List.length_range]; by_contra hc; exact h (key.1 (by omega)))]
    rfl

theorem stepBy_length (first last s : ℤ) (hs : 0 < s) : (stepBy first last s).length = ((last - first + s - 1) / s).toNat := by
  unfold stepBy
  rw [if_pos hs, List.length_map, List.length_range]

theorem pySlice_ok [LawfulArith K] {p : Profile} {h : H5 K} {steps : ℕ → Timestep K} (ho : Opened p h steps) (b : Buf (Timestep K))
    (hb : b.Good steps h.n) (start stop step : Option ℤ) (hv : (PyKey.slice start stop step).Valid h.n) :
    ∃ b' v, pySlice p h b start stop step = .ok (b', v) ∧ b'.Good steps h.n ∧ h.Answers (.slice start stop step) v := by
  obtain ⟨hs, first, last, hi, hle, hd⟩ := hv
  obtain ⟨_, _, hr, _⟩ := sliceIndices_range h.n start stop step first last _ hi
  obtain ⟨r1, r2, r3, r4⟩ := hr hs
  have hn := ho.size
  generalize hst : step.getD 1 = s at *
  obtain ⟨q, hq⟩ := hd
  have hq0 : 0 ≤ q := by
    by_contra hc
    have : q ≤ -1 := by omega
    nlinarith
  have hcount : (last - first).tdiv s = q := by
    rw [hq, Int.mul_tdiv_cancel_left _ (by omega)]
  have hlen : ((stepBy first last s).map asUsize).length = q.toNat := by
    rw [List.length_map, stepBy_length _ _ _ hs, hq]
    congr 1
    rw [show s * q + s - 1 = (s - 1) + s * q by ring, Int.add_mul_ediv_left _ _ (by omega), Int.ediv_eq_zero_of_lt (by omega) (by omega), zero_add]
  have hmem : ∀ z ∈ stepBy first last s, 0 ≤ z ∧ z < last := by
    intro z hz
    obtain ⟨k, hk⟩ := List.mem_iff_getElem?.1 hz
    rw [stepBy_get _ _ _ hs] at hk
    split at hk
    · rename_i hlt
      cases hk
      refine ⟨?_, hlt⟩
      have : 0 ≤ s * (k : ℤ) := by positivity
      omega
    · cases hk
  obtain ⟨b', a, e, hb', hh⟩ := pyCube_ok ho b hb ((stepBy first last s).map asUsize) (by
    intro t ht
    obtain ⟨z, hz, rfl⟩ := List.mem_map.1 ht
    obtain ⟨z1, z2⟩ := hmem z hz
    rw [asUsize_of_lt z z1 (by omega)]
    omega)
  refine ⟨b', .cube a, ?_, hb', first, last, _, a, by rw [hst]; exact hi, ?_, rfl, hh⟩
  · unfold pySlice
    rw [hi, run_bind_ok]
    dsimp only
    rw [hcount, if_neg (by omega), ← hlen, e]
  · rw [hst]
    intro k
    rw [List.getElem?_map, stepBy_get _ _ _ hs]
    split
    · rename_i hlt
      change some (asUsize _) = _
      rw [asUsize_of_lt]
      · have : 0 ≤ s * (k : ℤ) := by positivity
        omega
      · omega
    · rfl

/-! ### C73, C74 -/

theorem pyItem_ok [LawfulArith K] {p : Profile} {h : H5 K} {steps : ℕ → Timestep K} (ho : Opened p h steps) (b : Buf (Timestep K))
    (hb : b.Good steps h.n) (key : PyKey) (hv : key.Valid h.n) :
    ∃ b' v, pyItem p h b key = .ok (b', v) ∧ b'.Good steps h.n ∧ h.Answers key v := by
  cases key with
  | int i =>
    obtain ⟨e, hlt⟩ := asUsize_index h.n ho.size i hv.1 hv.2
    obtain ⟨b', e1, hb'⟩ := h.get_ok p ho.size steps ho.upd b hb _ hlt
    obtain ⟨t1, t2, t3⟩ := ho.tidy _ _ hlt (ho.stored _ hlt)
    obtain ⟨rows, e2, hr⟩ := pyRows_ok _ t1 t2
    refine ⟨b', .matrix rows, ?_, hb', _, rows, rfl, ho.stored _ hlt, hr⟩
    change pyInt p h b i = _
    unfold pyInt
    rw [e, e1, run_bind_ok]
    dsimp only
    rw [e2, run_bind_ok, run_pure]
  | vec l =>
    have em : (l.map fun i => asUsize (pyIndex h.n i)) = l.map (fromEnd h.n) := by
      apply List.map_congr_left
      intro i hi
      exact (asUsize_index h.n ho.size i (hv i hi).1 (hv i hi).2).1
    obtain ⟨b', a, e, hb', hh⟩ := pyCube_ok ho b hb (l.map (fromEnd h.n)) (by
      intro t ht
      obtain ⟨i, hi, rfl⟩ := List.mem_map.1 ht
      exact (asUsize_index h.n ho.size i (hv i hi).1 (hv i hi).2).2)
    refine ⟨b', .cube a, ?_, hb', a, rfl, hh⟩
    change pyVec p h b l = _
    unfold pyVec
    rw [em]
    rw [List.length_map] at e
    exact e
  | slice start stop step => exact pySlice_ok ho b hb start stop step hv

theorem H5.opened (p : Profile) (h : H5 K) (hn : h.n ≤ 2 ^ 50) (hc : h.Complete) (ht : h.Tidy) :
    ∃ steps, Opened p h steps := by
  obtain ⟨steps, hs, hu⟩ := h.update_eq p (by unfold usizeMod; omega) hc
  exact ⟨steps, hn, hs, hu, ht⟩

theorem H5.openBuf_ok {p : Profile} {h : H5 K} {steps : ℕ → Timestep K} (ho : Opened p h steps) (h1 : 1 ≤ h.n) (dflt : Timestep K) :
    ∃ b, h.openBuf p dflt = .ok b ∧ b.Good steps h.n ∧ b.lo = 0 ∧ b.hi = min BUFFERSIZE h.n := by
  obtain ⟨b, e, hb, h3, h4⟩ := Buf.load_good p h.kind steps h.n ⟨fun _ => dflt, 0, 0, BUFFERSIZE⟩ 0 BUFFERSIZE (by norm_num [BUFFERSIZE]) (by omega) (by omega)
  refine ⟨b, ?_, hb, h3, h4⟩
  unfold H5.openBuf
  rw [ho.upd, e]

/-- **C73, C74.** For both kinds of file, both build profiles and every sequence of item accesses in any order, on a complete file of `1 … 2^50`
timesteps: an integer from `-n` to `n-1` gives the rows (id, position, velocity) of the timestep it means; a list of such integers gives
one such matrix per entry, in the order of the list, each filled up with zeros to the number of particles of the file; a slice with a positive
step that divides its length gives the matrices of the timesteps `start, start + step, ...` before `stop`. -/
theorem C73_items [LawfulArith K] (p : Profile) (h : H5 K) (h1 : 1 ≤ h.n) (hn : h.n ≤ 2 ^ 50) (hc : h.Complete) (ht : h.Tidy) (dflt : Timestep K)
    (keys : List PyKey) (hv : ∀ k ∈ keys, k.Valid h.n) :
    ∃ l, pySession p h dflt keys = .ok l ∧ List.Forall₂ h.Answers keys l := by
  obtain ⟨steps, ho⟩ := h.opened p hn hc ht
  obtain ⟨b, e, hb, e'⟩ := H5.openBuf_ok ho h1 dflt
  unfold pySession
  rw [e, run_bind_ok]
  clear e e'
  induction keys generalizing b with
  | nil => exact ⟨[], rfl, List.Forall₂.nil⟩
  | cons k ks ih =>
    obtain ⟨b', v, e1, hb', ha⟩ := pyItem_ok ho b hb k (hv k (by simp))
    obtain ⟨l, e2, hl⟩ := ih (fun k hk => hv k (by simp [hk])) b' hb'
    refine ⟨v :: l, ?_, List.Forall₂.cons ha hl⟩
    rw [pyItems, e1, run_bind_ok]
    dsimp only
    rw [e2, run_bind_ok, run_pure]

/-- Files with one group per particle are always tidy. -/
theorem H5.tidy_pdata (h : H5 K) (hk : h.kind = .pdata) : h.Tidy := by
  intro t ts _ hs
  unfold H5.Stored at hs
  rw [hk] at hs
  obtain ⟨_, h1, h2, _, h4, _⟩ := hs
  omega

/-! ### C74: slices that are not served -/

/-- A loop that succeeds has run its body on each element, from a state that satisfies the invariant. -/
theorem foldlM_reached {σ α : Type} (f : σ → α → Run σ) (inv : σ → Prop) (l : List α) (hinv : ∀ s x s', x ∈ l → inv s → f s x = .ok s' → inv s') :
    ∀ (s s' : σ), inv s → l.foldlM f s = .ok s' → ∀ x ∈ l, ∃ t t', inv t ∧ f t x = .ok t' := by
  induction l with
  | nil => intro s s' _ _ x hx; simp at hx
  | cons y l ih =>
    intro s s' hs e x hx
    rw [List.foldlM_cons] at e
    obtain ⟨s1, e1, e2⟩ := run_bind_inv e
    rcases List.mem_cons.1 hx with rfl | hx
    · exact ⟨s, s1, hs, e1⟩
    · exact ih (fun s x s' hx => hinv s x s' (by simp [hx])) s1 s' (hinv s y s1 (by simp) hs e1) e2 x hx

theorem writes_shape (l : List ((Fin 7 → F K) × ℕ)) (k : ℕ) (a a' : Arr 2 (Fin 7 → F K))
    (h : l.foldlM (fun (a : Arr 2 (Fin 7 → F K)) y => a.write ![k, y.2] y.1) a = .ok a') : a'.shape = a.shape ∧ ∀ y ∈ l, InB a.shape ![k, y.2] := by
  induction l generalizing a with
  | nil => cases h; exact ⟨rfl, by simp⟩
  | cons y l ih =>
    rw [List.foldlM_cons] at h
    obtain ⟨a1, e1, e2⟩ := run_bind_inv h
    have hw : InB a.shape ![k, y.2] ∧ a1.shape = a.shape := by
      unfold Arr.write at e1
      split at e1
      · rename_i hin; cases e1; exact ⟨hin, rfl⟩
      · cases e1
    obtain ⟨h1, h2⟩ := ih a1 e2
    refine ⟨h1.trans hw.2, ?_⟩
    intro z hz
    rcases List.mem_cons.1 hz with rfl | hz
    · exact hw.1
    · rw [← hw.2]; exact h2 z hz

/-- **C74, steps that do not divide the length.** A slice with a positive step that does not divide `stop - start` panics on every complete file whose
timesteps all have particles: the array has a matrix less than the slice has timesteps. -/
theorem C74_undivided_panics [LawfulArith K] (p : Profile) (h : H5 K) (hn : h.n ≤ 2 ^ 50) (hc : h.Complete) (ht : h.Tidy)
    (hp : ∀ t ts, t < h.n → h.Stored t ts → ts.position ≠ []) (dflt : Timestep K) (start stop step : Option ℤ) (hs : 0 < step.getD 1)
    (first last : ℤ) (hi : sliceIndices h.n start stop step = .ok (first, last, step.getD 1)) (hlt : first < last)
    (hd : ¬ step.getD 1 ∣ last - first) : ∃ e, pySession p h dflt [.slice start stop step] = .error e := by
  obtain ⟨steps, ho⟩ := h.opened p hn hc ht
  obtain ⟨_, _, hr, _⟩ := sliceIndices_range h.n start stop step first last _ hi
  obtain ⟨r1, r2, r3, r4⟩ := hr hs
  obtain ⟨b, e, hb, e'⟩ := H5.openBuf_ok ho (by omega) dflt
  generalize hst : step.getD 1 = s at *
  cases hres : pySession p h dflt [.slice start stop step] with
  | error er => exact ⟨er, rfl⟩
  | ok l =>
    exfalso
    unfold pySession at hres
    rw [e, run_bind_ok, pyItems] at hres
    obtain ⟨r, hr, _⟩ := run_bind_inv hres
    change pySlice p h b start stop step = .ok r at hr
    unfold pySlice at hr
    rw [hi, run_bind_ok] at hr
    dsimp only at hr
    have hq : (last - first).tdiv s = (last - first) / s := Int.tdiv_eq_ediv_of_nonneg (by omega)
    have hq0 : 0 ≤ (last - first) / s := Int.ediv_nonneg (by omega) hs.le
    rw [hq, if_neg (by omega)] at hr
    unfold pyCube at hr
    obtain ⟨st, hf, _⟩ := run_bind_inv hr
    generalize hqe : ((last - first) / s).toNat = q at hf
    have hqz : (q : ℤ) = (last - first) / s := by omega
    -- the last timestep of the slice
    have hlast : first + s * (q : ℤ) < last := by
      have h1 : s * ((last - first) / s) ≤ last - first := Int.mul_ediv_self_le (by omega)
      have h2 : s * ((last - first) / s) ≠ last - first := fun he => hd ⟨_, he.symm⟩
      rw [hqz]
      omega
    have hsq : 0 ≤ s * (q : ℤ) := by positivity
    have hget : ((stepBy first last s).map asUsize)[q]? = some (first + s * (q : ℤ)).toNat := by
      rw [List.getElem?_map, stepBy_get _ _ _ hs, if_pos hlast]
      change some (asUsize _) = _
      rw [asUsize_of_lt _ (by omega) (by omega)]
    have htlt : (first + s * (q : ℤ)).toNat < h.n := by omega
    have hmem : ((first + s * (q : ℤ)).toNat, q) ∈ ((stepBy first last s).map asUsize).zipIdx := by
      rw [List.mem_zipIdx_iff_getElem?]
      exact hget
    have hall : ∀ t ∈ (stepBy first last s).map asUsize, t < h.n := by
      intro t ht
      obtain ⟨z, hz, rfl⟩ := List.mem_map.1 ht
      obtain ⟨k, hk⟩ := List.mem_iff_getElem?.1 hz
      rw [stepBy_get _ _ _ hs] at hk
      split at hk
      · cases hk
        have : 0 ≤ s * (k : ℤ) := by positivity
        rw [asUsize_of_lt _ (by omega) (by omega)]
        omega
      · cases hk
    obtain ⟨t1, t2, ⟨i1, i2⟩, hfill⟩ := foldlM_reached (pyFill p h) (fun st => st.1.Good steps h.n ∧ st.2.shape = ![q, h.np]) _ (by
      rintro ⟨b0, a0⟩ ⟨t, k⟩ ⟨b1, a1⟩ hx ⟨g1, g2⟩ hfx
      have htn : t < h.n := hall t (List.mem_of_getElem? (List.mem_zipIdx_iff_getElem?.1 hx))
      obtain ⟨b', ge, gb⟩ := h.get_ok p ho.size steps ho.upd b0 g1 t htn
      unfold pyFill at hfx
      dsimp only at hfx
      rw [ge, run_bind_ok] at hfx
      obtain ⟨rows, er, hfx⟩ := run_bind_inv hfx
      obtain ⟨a2, ew, hfx⟩ := run_bind_inv hfx
      have := Except.ok.inj hfx
      simp only [Prod.mk.injEq] at this
      obtain ⟨rfl, rfl⟩ := this
      exact ⟨gb, (writes_shape _ _ _ _ ew).1.trans g2⟩) _ _ ⟨hb, rfl⟩ hf _ hmem
    obtain ⟨b', ge, gb⟩ := h.get_ok p ho.size steps ho.upd t1.1 i1 _ htlt
    obtain ⟨d1, d2, d3⟩ := ho.tidy _ _ htlt (ho.stored _ htlt)
    obtain ⟨rows, er, hrl, _⟩ := pyRows_ok _ d1 d2
    unfold pyFill at hfill
    dsimp only at hfill
    rw [ge, run_bind_ok] at hfill
    dsimp only at hfill
    rw [er, run_bind_ok] at hfill
    obtain ⟨a2, ew, _⟩ := run_bind_inv hfill
    have hin := (writes_shape _ _ _ _ ew).2
    have hne := hp _ _ htlt (ho.stored _ htlt)
    have hpos : 0 < rows.length := by rw [hrl]; exact List.length_pos_of_ne_nil hne
    have := hin (rows[0], 0) (by
      rw [List.mem_zipIdx_iff_getElem?]
      exact List.getElem?_eq_getElem hpos)
    rw [i2] at this
    have := (inB_pair.1 this).1
    omega

/-- **C74, slices that go backwards.** A slice with a negative step (and `start` not before `stop`) never reads the data: it gives as many matrices as
it should have, rounded down, all of them zeros. -/
theorem C74_backward_zeros (p : Profile) (h : H5 K) (h1 : 1 ≤ h.n) (hn : h.n ≤ 2 ^ 50) (hc : h.Complete) (ht : h.Tidy) (dflt : Timestep K)
    (start stop step : Option ℤ) (hs : step.getD 1 < 0) (first last : ℤ)
    (hi : sliceIndices h.n start stop step = .ok (first, last, step.getD 1)) (hle : last ≤ first) :
    pySession p h dflt [.slice start stop step] =
      .ok [.cube (Arr.const ![((first - last) / (-(step.getD 1))).toNat, h.np] fun _ => 0)] := by
  obtain ⟨steps, ho⟩ := h.opened p hn hc ht
  obtain ⟨b, e, hb, e'⟩ := H5.openBuf_ok ho h1 dflt
  generalize hst : step.getD 1 = s at *
  have hq : (last - first).tdiv s = (first - last) / (-s) := by
    rw [← Int.tdiv_eq_ediv_of_nonneg (by omega : 0 ≤ first - last), show last - first = -(first - last) by ring, Int.neg_tdiv, Int.tdiv_neg]
  have hq0 : 0 ≤ (first - last) / (-s) := Int.ediv_nonneg (by omega) (by omega)
  unfold pySession
  rw [e, run_bind_ok, pyItems]
  change (pySlice p h b start stop step >>= _) = _
  unfold pySlice
  rw [hi, run_bind_ok]
  dsimp only
  rw [hq, if_neg (by omega)]
  unfold stepBy
  rw [if_neg (by omega), if_neg (by omega)]
  rfl

/-- **C74 is false of the code:** `data[::-1]` of any complete file is an array of zeros, whatever the file holds. -/
theorem C74_false (p : Profile) (h : H5 K) (h1 : 1 ≤ h.n) (hn : h.n ≤ 2 ^ 50) (hc : h.Complete) (ht : h.Tidy) (dflt : Timestep K) :
    pySession p h dflt [.slice none none (some (-1))] = .ok [.cube (Arr.const ![h.n, h.np] fun _ => 0)] := by
  have hi : sliceIndices h.n none none (some (-1)) = .ok ((h.n : ℤ) - 1, -1, (some (-1 : ℤ)).getD 1) := rfl
  have := C74_backward_zeros p h h1 hn hc ht dflt none none (some (-1)) (by decide) _ _ hi (by omega)
  rw [this]
  have : (((h.n : ℤ) - 1 - -1) / -((some (-1 : ℤ)).getD 1)).toNat = h.n := by
    change (((h.n : ℤ) - 1 - -1) / 1).toNat = h.n
    rw [Int.ediv_one]
    omega
  rw [this]

/-- **C74, empty slices.** A slice that should be empty because `stop` is at least one step before `start` panics. -/
theorem C74_empty_panics (p : Profile) (h : H5 K) (h1 : 1 ≤ h.n) (hn : h.n ≤ 2 ^ 50) (hc : h.Complete) (ht : h.Tidy) (dflt : Timestep K)
    (start stop step : Option ℤ) (hs : 0 < step.getD 1) (first last : ℤ)
    (hi : sliceIndices h.n start stop step = .ok (first, last, step.getD 1)) (hle : last + step.getD 1 ≤ first) :
    pySession p h dflt [.slice start stop step] = .error .explicit := by
  obtain ⟨steps, ho⟩ := h.opened p hn hc ht
  obtain ⟨b, e, hb, e'⟩ := H5.openBuf_ok ho h1 dflt
  generalize hst : step.getD 1 = s at *
  have hq : (last - first).tdiv s = -((first - last) / s) := by
    rw [← Int.tdiv_eq_ediv_of_nonneg (by omega : 0 ≤ first - last), show last - first = -(first - last) by ring, Int.neg_tdiv]
  have hq1 : 1 ≤ (first - last) / s := by rw [Int.le_ediv_iff_mul_le hs]; omega
  unfold pySession
  rw [e, run_bind_ok, pyItems]
  change (pySlice p h b start stop step >>= _) = _
  unfold pySlice
  rw [hi, run_bind_ok]
  dsimp only
  rw [hq, if_pos (by omega)]
  rfl

/-! ### C75: indices outside the data -/

/-- **C75 is false of the code: one past the end.** On every complete file, right after opening, `data[len(data)]` does not fail: it returns the
matrix of timestep 0. -/
theorem C75_false (p : Profile) (h : H5 K) (h1 : 1 ≤ h.n) (hn : h.n ≤ 2 ^ 50) (hc : h.Complete) (ht : h.Tidy) (dflt : Timestep K) :
    ∃ ts rows, pySession p h dflt [.int h.n] = .ok [.matrix rows] ∧ h.Stored 0 ts ∧ IsMatrix ts rows := by
  obtain ⟨steps, ho⟩ := h.opened p hn hc ht
  obtain ⟨b, e, hb, hlo, hhi⟩ := H5.openBuf_ok ho h1 dflt
  have hB : BUFFERSIZE = 20000 := rfl
  obtain ⟨g1, g2, g3, g4, g5⟩ := id hb
  obtain ⟨d1, d2, d3⟩ := ho.tidy 0 _ (by omega) (ho.stored 0 (by omega))
  obtain ⟨rows, er, hrl⟩ := pyRows_ok _ d1 d2
  refine ⟨steps 0, rows, ?_, ho.stored 0 (by omega), hrl⟩
  have hidx : asUsize (pyIndex h.n h.n) = h.n := by
    unfold pyIndex
    rw [if_neg (by omega), asUsize_of_lt _ (by omega) (by omega)]
    omega
  have hget : h.get p b h.n = .ok (⟨b.data, h.n, h.n, 0⟩, steps 0) := by
    unfold H5.get H5.refresh
    rw [usub_ok p (by omega) (by omega), run_bind_ok, if_pos (by omega), uadd_ok p (by omega), run_bind_ok, ho.upd]
    unfold Buf.load
    dsimp only
    have hge : (if h.n + b.size ≥ h.n then h.n else h.n + b.size) = h.n := if_pos (by omega)
    rw [hge, if_pos (le_refl _), if_pos (by omega), run_bind_ok]
    dsimp only
    rw [Nat.sub_self, usub_ok p (le_refl _) (by omega), run_bind_ok, Nat.sub_self]
    have hd0 := g5 0 (by omega)
    rw [hlo] at hd0
    have : Buf.at' (⟨fun i => if i < 0 then steps (h.n + i) else b.data i, h.n, h.n, 0⟩ : Buf (Timestep K)) 0 = .ok (steps 0) := by
      unfold Buf.at'
      rw [if_pos (by omega)]
      dsimp only
      rw [if_neg (by omega), hd0]
    rw [this, run_bind_ok, run_pure]
    simp
  unfold pySession
  rw [e, run_bind_ok, pyItems]
  change (pyInt p h b h.n >>= _) = _
  unfold pyInt
  rw [hidx, hget, run_bind_ok]
  dsimp only
  rw [er]
  rfl

/-- **C75, further out.** Indices beyond `n` or below `-n` panic in a debug build, and for files with one group per particle also in a release build; in
a release build a file with one group per timestep gives the matrix of timestep 0. -/
theorem C75_outside_partial (p : Profile) (h : H5 K) (h1 : 1 ≤ h.n) (hn : h.n ≤ 2 ^ 50) (hc : h.Complete) (ht : h.Tidy) (dflt : Timestep K)
    (i : ℤ) (hi : (h.n : ℤ) < i ∨ i < -(h.n : ℤ)) (hi63 : -2 ^ 63 ≤ i ∧ i < 2 ^ 63) :
    (p = .debug ∨ h.kind = .pdata → ∃ e, pySession p h dflt [.int i] = .error e) ∧
    (p = .release ∧ h.kind = .tdata → ∃ ts rows, pySession p h dflt [.int i] = .ok [.matrix rows] ∧ h.Stored 0 ts ∧ IsMatrix ts rows) := by
  obtain ⟨steps, ho⟩ := h.opened p hn hc ht
  obtain ⟨b, e, hb, hlo, hhi⟩ := H5.openBuf_ok ho h1 dflt
  have hB : BUFFERSIZE = 20000 := rfl
  obtain ⟨g1, g2, g3, g4, g5⟩ := id hb
  obtain ⟨d1, d2, d3⟩ := ho.tidy 0 _ (by omega) (ho.stored 0 (by omega))
  obtain ⟨rows, er, hrl⟩ := pyRows_ok _ d1 d2
  have hidx : h.n < asUsize (pyIndex h.n i) ∧ asUsize (pyIndex h.n i) < usizeMod := by
    unfold pyIndex asUsize
    have hM : (usizeMod : ℤ) = 2 ^ 64 := by unfold usizeMod; norm_num
    rw [hM]
    have : usizeMod = 2 ^ 64 := rfl
    split
    · rw [← Int.add_emod_right, Int.emod_eq_of_lt (by omega) (by omega)]
      omega
    · rw [Int.emod_eq_of_lt (by omega) (by omega)]
      omega
  generalize hte : asUsize (pyIndex h.n i) = t at hidx
  have hload : ∀ hi : ℕ, ∃ hi', (if hi ≥ h.n then h.n else hi) = hi' ∧ hi' < t := by
    intro hi
    refine ⟨_, rfl, ?_⟩
    split <;> omega
  have hsession : ∀ r, h.get p b t = r → pySession p h dflt [.int i] = (do
      let r ← r
      let rows ← pyRows r.2
      pure [.matrix rows]) := by
    intro r hr
    unfold pySession
    rw [e, run_bind_ok, pyItems]
    change (pyInt p h b i >>= _) = _
    unfold pyInt
    rw [hte, hr]
    cases r with
    | error er => rfl
    | ok x =>
      rw [run_bind_ok, run_bind_ok]
      cases pyRows x.2 <;> rfl
  constructor
  · intro hcase
    have : ∃ er, h.get p b t = .error er := by
      unfold H5.get H5.refresh
      rw [usub_ok p (by omega) (by omega), run_bind_ok, if_pos (by omega)]
      cases hadd : uadd p t b.size with
      | error er => exact ⟨er, rfl⟩
      | ok hi =>
        rw [run_bind_ok, ho.upd]
        obtain ⟨hi', e1, e2⟩ := hload hi
        unfold Buf.load
        dsimp only
        rw [e1, if_neg (by omega)]
        rcases hcase with rfl | hk
        · exact ⟨_, rfl⟩
        · rw [hk]
          cases p <;> exact ⟨_, rfl⟩
    obtain ⟨er, hg⟩ := this
    exact ⟨er, by rw [hsession _ hg]; rfl⟩
  · rintro ⟨rfl, hk⟩
    refine ⟨steps 0, rows, ?_, ho.stored 0 (by omega), hrl⟩
    have : ∃ b', h.get .release b t = .ok (b', steps 0) := by
      unfold H5.get H5.refresh
      rw [usub_ok _ (by omega) (by omega), run_bind_ok, if_pos (by omega)]
      unfold uadd
      rw [run_bind_ok, ho.upd]
      obtain ⟨hi', e1, e2⟩ := hload ((t + b.size) % usizeMod)
      unfold Buf.load
      dsimp only
      rw [e1, if_neg (by omega), hk]
      dsimp only
      rw [run_bind_ok]
      dsimp only
      have hz : usub .release t t = .ok 0 := by
        unfold usub
        dsimp only
        rw [Nat.add_sub_cancel_left, Nat.mod_self]
      have hd0 := g5 0 (by omega)
      rw [hlo] at hd0
      rw [hz, run_bind_ok]
      have : Buf.at' (⟨b.data, t, hi', (hi' + usizeMod - t) % usizeMod⟩ : Buf (Timestep K)) 0 = .ok (steps 0) := by
        unfold Buf.at'
        rw [if_pos (by omega), hd0]
      rw [this, run_bind_ok]
      exact ⟨_, rfl⟩
    obtain ⟨b', hg⟩ := this
    rw [hsession _ hg, run_bind_ok]
    dsimp only
    rw [er]
    rfl

/-! ### Witnesses -/

/-- Witness: a data set of three timesteps with two particles, all three kinds of keys. -/
example (dflt : Timestep ℝ) : ∃ l, pySession .release demoP dflt [.int (-1), .vec [0, 2, -3], .slice none (some 2) none, .int 0] = .ok l ∧
    List.Forall₂ demoP.Answers [.int (-1), .vec [0, 2, -3], .slice none (some 2) none, .int 0] l := by
  apply C73_items .release demoP (by norm_num [demoP]) (by norm_num [demoP]) demoP_complete (demoP.tidy_pdata rfl)
  intro k hk
  simp only [List.mem_cons, List.not_mem_nil, or_false] at hk
  have hn : demoP.n = 3 := rfl
  rcases hk with rfl | rfl | rfl | rfl
  · rw [hn]; exact ⟨by norm_num, by norm_num⟩
  · rw [hn]
    intro i hi
    simp only [List.mem_cons, List.not_mem_nil, or_false] at hi
    rcases hi with rfl | rfl | rfl <;> exact ⟨by norm_num, by norm_num⟩
  · rw [hn]; exact ⟨by decide, 0, 2, rfl, by norm_num, by norm_num⟩
  · rw [hn]; exact ⟨by norm_num, by norm_num⟩

/-- Witness: the slice `data[0:3:2]` of three timesteps. -/
example (dflt : Timestep ℝ) : ∃ e, pySession .debug demoP dflt [.slice none none (some 2)] = .error e := by
  refine C74_undivided_panics .debug demoP (by norm_num [demoP]) demoP_complete (demoP.tidy_pdata rfl) ?_ dflt none none (some 2) (by decide) 0 3 rfl
    (by norm_num) (by decide)
  intro t ts _ hs
  have : ts.position.length = 2 := hs.2.1
  intro h0
  rw [h0] at this
  cases this

/-- Witness: one past the end. -/
example (dflt : Timestep ℝ) : ∃ ts rows, pySession .debug demoP dflt [.int 3] = .ok [.matrix rows] ∧ demoP.Stored 0 ts ∧ IsMatrix ts rows :=
  C75_false .debug demoP (by norm_num [demoP]) (by norm_num [demoP]) demoP_complete (demoP.tidy_pdata rfl) dflt

end Up4
