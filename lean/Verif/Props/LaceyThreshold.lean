import Verif.Props.Lacey

set_option linter.unusedSectionVars false

/-!
# C159: the two types and the threshold of the Lacey index
-/

namespace Up4
open F
open Selector (at')

variable {K : Type} [Field K] [LinearOrder K] [IsStrictOrderedRing K] [FloorRing K] [Arith K]

theorem rich_mono (p : Profile) (g : Geom K) (sel : Selector K) (ts : Timestep K) (a b : ℕ) {T T' : ℕ} (h : T ≤ T') :
    richCells p g sel ts a b T' ⊆ richCells p g sel ts a b T := by
  intro c hc
  unfold richCells at hc ⊢
  rw [Finset.mem_filter] at hc ⊢
  exact ⟨hc.1, hc.2.1, h.trans hc.2.2⟩

/-- The denominator of the index is positive. -/
theorem lacey_den (p : Profile) (g : Geom K) (sel : Selector K) (ts : Timestep K) (a b : ℕ) (hA : 0 < typeCount sel ts a) (hB : 0 < typeCount sel ts b)
    (hN : 2 ≤ ∏ i, g.cells i) :
    let m : K := meanConc sel ts a b
    let N : K := ((∏ i, g.cells i : ℕ) : K)
    0 < m * (1 - m) ∧ 0 < N - 1 ∧ 0 < m * (1 - m) - m * (1 - m) / N := by
  intro m N
  have hA' : (0 : K) < typeCount sel ts a := by exact_mod_cast hA
  have hB' : (0 : K) < typeCount sel ts b := by exact_mod_cast hB
  have hN' : (2 : K) ≤ N := by
    change (2 : K) ≤ ((∏ i, g.cells i : ℕ) : K)
    exact_mod_cast hN
  have hm : m = (typeCount sel ts a : K) / ((typeCount sel ts a : K) + typeCount sel ts b) := by
    change meanConc sel ts a b = _
    unfold meanConc
    push_cast; rfl
  have h0 : 0 < m := by rw [hm]; positivity
  have h1 : m < 1 := by rw [hm, div_lt_one (by positivity)]; linarith
  have hv : 0 < m * (1 - m) := mul_pos h0 (by linarith)
  refine ⟨hv, by linarith, ?_⟩
  have : m * (1 - m) / N < m * (1 - m) := div_lt_self hv (by linarith)
  linarith

/-- A higher threshold never lowers the index; thresholds 0 and 1 agree; a threshold no cell meets gives `N / (N - 1)`. -/
theorem lacey_threshold (p : Profile) (g : Geom K) (sel : Selector K) (ts : Timestep K) (a b : ℕ) (hA : 0 < typeCount sel ts a) (hB : 0 < typeCount sel ts b)
    (hN : 2 ≤ ∏ i, g.cells i) :
    (∀ T T', T ≤ T' → (laceyIndex p g sel ts a b T : K) ≤ laceyIndex p g sel ts a b T') ∧
    (laceyIndex p g sel ts a b 0 : K) = laceyIndex p g sel ts a b 1 ∧
    ∀ T, typeCount sel ts a + typeCount sel ts b < T →
      (laceyIndex p g sel ts a b T : K) = ((∏ i, g.cells i : ℕ) : K) / (((∏ i, g.cells i : ℕ) : K) - 1) := by
  obtain ⟨hv, hN1, hd⟩ := lacey_den p g sel ts a b hA hB hN
  refine ⟨fun T T' hT => ?_, ?_, fun T hT => ?_⟩
  · unfold laceyIndex
    dsimp only
    refine div_le_div_of_nonneg_right ?_ hd.le
    refine sub_le_sub_left (div_le_div_of_nonneg_right ?_ hN1.le) _
    unfold spread
    exact Finset.sum_le_sum_of_subset_of_nonneg (rich_mono p g sel ts a b hT) fun _ _ _ => sq_nonneg _
  · have : richCells p g sel ts a b 0 = richCells p g sel ts a b 1 := by
      unfold richCells
      apply Finset.filter_congr
      intro c _
      constructor <;> rintro ⟨h1, _⟩ <;> exact ⟨h1, by omega⟩
    unfold laceyIndex spread
    rw [this]
  · have : richCells p g sel ts a b T = ∅ := by
      unfold richCells
      apply Finset.filter_eq_empty_iff.2
      rintro c _ ⟨_, h⟩
      have h1 : ∀ u, cellCount p g sel ts u c ≤ typeCount sel ts u := by
        intro u
        unfold cellCount typeCount
        refine List.countP_mono_left fun i _ hi => ?_
        rw [Bool.and_eq_true] at hi
        exact hi.2
      have := h1 a
      have := h1 b
      omega
    unfold laceyIndex spread
    rw [this, Finset.sum_empty]
    dsimp only
    rw [zero_div, sub_zero]
    generalize (meanConc sel ts a b : K) * (1 - meanConc sel ts a b) = v at *
    generalize (((∏ i, g.cells i : ℕ) : K)) = N at *
    have hN0 : N ≠ 0 := by intro h; rw [h] at hN1; linarith
    have e : v - v / N = v * (N - 1) / N := by field_simp
    rw [e]
    field_simp

/-- **C159.** In exact arithmetic, for every dataset with both types in every timestep of the window: `lacey_mixing` gives the same series with the two types swapped;
a higher threshold gives the same times and, timestep by timestep, no lower an index; thresholds 0 and 1 give the same series; a threshold above the number
of particles of the two types in a timestep gives `N / (N - 1)` there. -/
theorem C159_lacey [LawfulArith K] [ExactArith K] (p : Profile) (d : Dm (Timestep K)) (hd : d.Inv) (grid : Grid K)
    (hg : grid.Fillable p) (hfresh : ∀ c, grid.st.weight.get c = 0) (hN : 2 ≤ ∏ i, grid.geom.cells i)
    (sel : Selector K) (hs : sel.Usable) (hw : ∀ t, t < d.n → (d.file t).Wf) (a b : ℕ) (hab : a ≠ b)
    (hseen : ∀ t, t < d.n - 1 → sel.timestepValid (d.file t).time = true →
      0 < typeCount sel (d.file t) a ∧ 0 < typeCount sel (d.file t) b) :
    ∃ out : ℕ → List (F K × F K), (∀ T, ∃ d' d'', laceyMixing p d grid sel a b T = .ok (d', out T) ∧ laceyMixing p d grid sel b a T = .ok (d'', out T)) ∧
      out 0 = out 1 ∧ (∀ T, (out T).length = d.n - 1) ∧
      (∀ T T', T ≤ T' → (out T).map Prod.fst = (out T').map Prod.fst ∧
        ∀ t, t < d.n - 1 → ∃ x y : K, ((out T).map Prod.snd)[t]? = some (fin x) ∧ ((out T').map Prod.snd)[t]? = some (fin y) ∧ x ≤ y) ∧
      ∀ T t, t < d.n - 1 → sel.timestepValid (d.file t).time = true → typeCount sel (d.file t) a + typeCount sel (d.file t) b < T →
        ((out T).map Prod.snd)[t]? = some (fin (((∏ i, grid.geom.cells i : ℕ) : K) / (((∏ i, grid.geom.cells i : ℕ) : K) - 1))) := by
  refine ⟨fun T => (List.range (d.n - 1)).map fun t => if sel.timestepValid (d.file t).time = true
        then ((d.file t).time, fin (laceyIndex p grid.geom sel (d.file t) a b T)) else (0, 0), fun T => ?_, ?_, fun T => by simp, fun T T' hT => ⟨?_, fun t ht => ?_⟩,
      fun T t ht hv hT => ?_⟩
  · obtain ⟨d', out, r, _, _, _, e⟩ := C42_value p d hd grid hg hfresh hN sel hs hw a b T hab hseen
    obtain ⟨d'', out', r', _, _, _, e'⟩ := C42_value p d hd grid hg hfresh hN sel hs hw b a T hab.symm fun t ht hv => (hseen t ht hv).symm
    refine ⟨d', d'', by rw [r, e], ?_⟩
    rw [r', e']
    congr 2
    refine List.map_congr_left fun t ht => ?_
    by_cases hv : sel.timestepValid (d.file t).time = true
    · rw [if_pos hv, if_pos hv]
      have h := hseen t (List.mem_range.1 ht) hv
      rw [(C42_lacey_partial p grid.geom sel (d.file t) a b T h.1 h.2 hN).1]
    · rw [if_neg hv, if_neg hv]
  · refine List.map_congr_left fun t ht => ?_
    by_cases hv : sel.timestepValid (d.file t).time = true
    · have h := hseen t (List.mem_range.1 ht) hv
      rw [if_pos hv, if_pos hv, (lacey_threshold p grid.geom sel (d.file t) a b h.1 h.2 hN).2.1]
    · rw [if_neg hv, if_neg hv]
  · rw [List.map_map, List.map_map]
    refine List.map_congr_left fun t _ => ?_
    simp only [Function.comp]
    split_ifs <;> rfl
  · rw [List.map_map, List.map_map, List.getElem?_map, List.getElem?_map, List.getElem?_range ht]
    simp only [Function.comp, Option.map_some]
    by_cases hv : sel.timestepValid (d.file t).time = true
    · have h := hseen t ht hv
      rw [if_pos hv, if_pos hv]
      exact ⟨_, _, rfl, rfl, (lacey_threshold p grid.geom sel (d.file t) a b h.1 h.2 hN).1 T T' hT⟩
    · rw [if_neg hv, if_neg hv]
      exact ⟨0, 0, rfl, rfl, le_rfl⟩
  · rw [List.map_map, List.getElem?_map, List.getElem?_range ht]
    have h := hseen t ht hv
    simp only [Function.comp, Option.map_some, if_pos hv]
    rw [(lacey_threshold p grid.geom sel (d.file t) a b h.1 h.2 hN).2.2 T hT]

/-- Case for `C159_lacey`: two particles of the two types in two different cells: the index is -2 with threshold 1, and 2 — that of a perfect mixture — with
threshold 3. -/
example (p : Profile) (kind : Kind) : ∃ d d₁ d₂ : Dm (Timestep ℝ), Dm.new p kind (fun _ => apartStep) 2 Timestep.default = .ok d ∧
    laceyMixing p d twoCells Selector.default 0 1 1 = .ok (d₁, [(fin 0, fin (-2))]) ∧
    ∃ out, laceyMixing p d twoCells Selector.default 0 1 3 = .ok (d₂, out) ∧ (out.map Prod.snd)[0]? = some (fin (2 / (2 - 1))) := by
  obtain ⟨_, d, d₁, e, r⟩ := C42_false p kind
  obtain ⟨d0, e0, hinv, hf, hn, _⟩ := Dm.new_ok p kind (fun _ => (apartStep : Timestep ℝ)) 2 Timestep.default (by norm_num) (by norm_num)
  rw [e] at e0
  cases e0
  have hN : ∏ i, twoCells.geom.cells i = 2 := by
    change ∏ i, (![1, 1, 2] : Fin 3 → ℕ) i = 2
    rw [Fin.prod_univ_three]; rfl
  have hw : (apartStep : Timestep ℝ).Wf := by refine ⟨?_, ?_, ?_, ?_, ?_, ?_⟩ <;> rfl
  have hv : (Selector.default : Selector ℝ).timestepValid (apartStep : Timestep ℝ).time = true := one_time
  have t0 : (apartStep : Timestep ℝ).typ 0 = 0 := typ0
  have t1 : (apartStep : Timestep ℝ).typ 1 = 1 := typ1
  have hc : typeCount Selector.default (apartStep : Timestep ℝ) 0 = 1 ∧ typeCount Selector.default (apartStep : Timestep ℝ) 1 = 1 := by
    unfold typeCount
    rw [two_picks apartStep rfl rfl]
    simp [t0, t1]
  obtain ⟨out, h1, _, _, _, h5⟩ := C159_lacey p d hinv twoCells (fillable_cart p _ twoCells_cart) (fun _ => rfl) (by rw [hN]) Selector.default usable_default
    (fun t _ => by rw [hf]; exact hw) 0 1 (by norm_num) (by
      intro t _ _
      rw [hf, hc.1, hc.2]
      exact ⟨one_pos, one_pos⟩)
  obtain ⟨d₂, _, r₂, _⟩ := h1 3
  have h := h5 3 0 (by rw [hn]; norm_num) (by rw [hf]; exact hv) (by rw [hf, hc.1, hc.2]; norm_num)
  rw [hN] at h
  exact ⟨d, d₁, d₂, e, r, _, r₂, by exact_mod_cast h⟩

end Up4
