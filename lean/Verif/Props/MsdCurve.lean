import Verif.Props.Msd

set_option linter.unusedSectionVars false

/-! # C87: the mean squared displacement curve -/

namespace Up4
open F
open Selector (at')

variable {K : Type} [Field K] [LinearOrder K] [IsStrictOrderedRing K] [FloorRing K] [Arith K]

/-- Entry `i` of `steps` equally spaced values from `a` to `b` (specification). -/
def evenly (a b : K) (steps i : ℕ) : K := if 1 < steps then a + (b - a) * i / (steps - 1 : ℕ) else a

theorem evenly_first (a b : K) (steps : ℕ) : evenly a b steps 0 = a := by unfold evenly; split_ifs <;> simp

theorem evenly_last (a b : K) (steps : ℕ) (h : 1 < steps) : evenly a b steps (steps - 1) = b := by
  unfold evenly
  have : ((steps - 1 : ℕ) : K) ≠ 0 := by exact_mod_cast (by omega : steps - 1 ≠ 0)
  rw [if_pos h, mul_div_cancel_right₀ _ this]; ring

theorem linspace_exact [LawfulArith K] [ExactArith K] (a b : K) (steps : ℕ) :
    linspace (fin a) (fin b) steps = (List.range steps).map fun i => fin (evenly a b steps i) := by
  unfold linspace
  apply List.map_congr_left
  intro i _
  unfold evenly
  split_ifs with h
  · have : ((steps - 1 : ℕ) : K) ≠ 0 := by exact_mod_cast (by omega : steps - 1 ≠ 0)
    rw [F.esub, F.eofNat, F.ediv _ this, F.eofNat, F.emul, F.eadd]
    congr 1; ring
  · rw [F.zero_def, F.eofNat, F.emul, F.eadd, zero_mul, add_zero]

/-- Sums over the per-cell samples add up to the sum over the samples inside the grid. -/
theorem sum_inCell_map {α : Type} (p : Profile) (g : Geom K) (hg : g.Sound p) (L : List α) (pos : α → Pos K) (f : α → K) :
    ∑ c ∈ cellsOf g.cells, ((L.filter fun x => inCell p g (pos x) c).map f).sum = ((L.filter fun x => g.isInside (pos x)).map f).sum := by
  induction L with
  | nil => simp
  | cons x L ih =>
    have hcons : ∀ c, (((x :: L).filter fun x => inCell p g (pos x) c).map f).sum =
        (if inCell p g (pos x) c then f x else 0) + ((L.filter fun x => inCell p g (pos x) c).map f).sum := by
      intro c
      by_cases h : inCell p g (pos x) c = true <;> simp [h]
    simp only [hcons, Finset.sum_add_distrib, ih]
    by_cases hin : g.isInside (pos x) = true
    · obtain ⟨d, hd, hdb⟩ := hg.isSome hin
      have : ∀ c, inCell p g (pos x) c = decide (d = c) := by
        intro c; unfold inCell; rw [hin, hd]; simp
      simp only [this, List.filter_cons, hin, if_true, List.map_cons, List.sum_cons, decide_eq_true_eq]
      rw [Finset.sum_ite_eq (cellsOf g.cells) d (fun _ => f x), if_pos ((mem_cellsOf _ _).2 hdb)]
    · have : ∀ c, inCell p g (pos x) c = false := by
        intro c; unfold inCell; simp [hin]
      simp [this, hin]

/-- The loop of `msd` as a map, if every `msd_field` is known on the datasets with this file. -/
theorem curve_loop (p : Profile) (st : Stats K) (grid : Grid K) (sel : Selector K) (file : ℕ → Timestep K) (n : ℕ)
    (l : List K) (v : K → F K)
    (h : ∀ δ ∈ l, ∀ d : Dm (Timestep K), d.CanLook → d.file = file → d.n = n →
      ∃ d' g', msdField p d st grid sel (fin δ) = .ok (d', g') ∧ d'.CanLook ∧ d'.file = file ∧ d'.n = n ∧ msdValue g' = v δ)
    (d : Dm (Timestep K)) (hd : d.CanLook) (hf : d.file = file) (hn : d.n = n) (acc : List (F K)) :
    ∃ d', (l.map fin).foldlM (fun (s : Dm (Timestep K) × List (F K)) t => do
      let f ← msdField p s.1 st grid sel t
      pure (f.1, s.2 ++ [msdValue f.2])) (d, acc) = (.ok (d', acc ++ l.map v) : Run _) ∧ d'.CanLook ∧ d'.file = file ∧ d'.n = n := by
  induction l generalizing d acc with
  | nil => exact ⟨d, by simp [run_pure], hd, hf, hn⟩
  | cons δ l ih =>
    obtain ⟨d1, g1, e1, c1, f1, n1, v1⟩ := h δ (by simp) d hd hf hn
    obtain ⟨d2, e2, c2, f2, n2⟩ := ih (fun δ hδ => h δ (by simp [hδ])) d1 c1 f1 n1 (acc ++ [v δ])
    refine ⟨d2, ?_, c2, f2, n2⟩
    rw [List.map_cons, List.foldlM_cons, e1, run_bind_ok, v1, run_pure, run_bind_ok, e2, List.map_cons, List.append_assoc]
    rfl

/-- **C87 (partial).** The full property: entry `i` of the curve is the mean squared displacement, over the delay `t_i`, of all
samples starting inside the grid, with `t_0 … t_{steps-1}` equally spaced from `min_time` to `max_time`.
Proved, exact arithmetic, grid without contents, finite positions: the times are the equally spaced ones; with `D ≥ 0` the
displacement of a lead, entry `i` is `Σ_c (Σ_{x ∈ S_c} D x)² / N`, where `S_c` are the samples of cell `c` and `N` is the number of samples
starting in the grid; it is NaN if there are none; it is the mean squared displacement if no cell has two samples, and never below it.
Missing: cells with several samples, for which the property is false (`C87_false`). -/
theorem C87_curve_partial [LawfulArith K] [ExactArith K] (p : Profile) (d : Dm (Timestep K)) (hd : d.CanLook) (st : Stats K) (τ : ℕ → K)
    (hc : Clocked st d.file d.n τ) (grid : Grid K) (hg : grid.Fillable p) (hfresh : ∀ c, grid.st.weight.get c = 0)
    (sel : Selector K) (hs : sel.Usable)
    (hw : ∀ t, t < d.n → (d.file t).Wf) (np : ℕ) (hnp : ∀ t, t < d.n → (d.file t).position.length = np)
    (P : ℕ → ℕ → Fin 3 → K) (hP : ∀ t, t < d.n → ∀ i, i < np → ∀ a, (d.file t).pos i a = fin (P t i a))
    (t0 t1 : K) (steps : ℕ) :
    ∃ (d' : Dm (Timestep K)) (v : K → F K) (D : ℕ × ℕ × ℕ → K),
      msdCurve p d st grid sel (fin t0) (fin t1) steps =
        .ok (d', (List.range steps).map (fun i => v (evenly t0 t1 steps i)), (List.range steps).map fun i => fin (evenly t0 t1 steps i)) ∧
      d'.CanLook ∧ d'.file = d.file ∧ d'.n = d.n ∧
      (∀ t i t', 0 ≤ D (t, i, t') ∧
        D (t, i, t') ^ 2 = (P t i 0 - P t' i 0) ^ 2 + (P t i 1 - P t' i 1) ^ 2 + (P t i 2 - P t' i 2) ^ 2) ∧
      ∀ δ : K,
        let L := d.leads p sel st (fin δ) (List.range (d.n - 1))
        let S := fun c => L.filter fun x => inCell p grid.geom (startOf d.file x) c
        let I := L.filter fun x => grid.isInside (startOf d.file x)
        (I = [] → v δ = F.nan) ∧
        (I ≠ [] → v δ = fin ((∑ c ∈ cellsOf grid.geom.cells, ((S c).map D).sum ^ 2) / I.length)) ∧
        (I ≠ [] → (∀ c, (S c).length ≤ 1) → v δ = fin (mean (I.map fun x => D x ^ 2))) ∧
        (I ≠ [] → ∃ m, v δ = fin m ∧ mean (I.map fun x => D x ^ 2) ≤ m) := by
  have hD : ∀ x : ℕ × ℕ × ℕ, ∃ T : K, 0 ≤ T ∧ T ^ 2 = (P x.1 x.2.1 0 - P x.2.2 x.2.1 0) ^ 2 + (P x.1 x.2.1 1 - P x.2.2 x.2.1 1) ^ 2 +
      (P x.1 x.2.1 2 - P x.2.2 x.2.1 2) ^ 2 := by
    intro x
    obtain ⟨T, _, h2, h3⟩ := sqrt_root (K := K) (x := (P x.1 x.2.1 0 - P x.2.2 x.2.1 0) ^ 2 + (P x.1 x.2.1 1 - P x.2.2 x.2.1 1) ^ 2 +
      (P x.1 x.2.1 2 - P x.2.2 x.2.1 2) ^ 2) (by positivity)
    exact ⟨T, h2, by rw [pow_two, h3]⟩
  choose D hD1 hD2 using hD
  set v : K → F K := fun δ =>
    let L := d.leads p sel st (fin δ) (List.range (d.n - 1))
    fin (∑ c ∈ cellsOf grid.geom.cells, ((L.filter fun x => inCell p grid.geom (startOf d.file x) c).map D).sum ^ 2) /
      fin (((L.filter fun x => grid.isInside (startOf d.file x)).length : ℕ) : K) with hv
  have hstep : ∀ δ : K, ∀ d1 : Dm (Timestep K), d1.CanLook → d1.file = d.file → d1.n = d.n →
      ∃ d' g', msdField p d1 st grid sel (fin δ) = .ok (d', g') ∧ d'.CanLook ∧ d'.file = d.file ∧ d'.n = d.n ∧ msdValue g' = v δ := by
    intro δ d1 hd1 hf1 hn1
    have hfin : ∀ x ∈ d1.leads p sel st (fin δ) (List.range (d1.n - 1)), grid.isInside (startOf d1.file x) = true →
        ∀ a, startOf d1.file x a = fin (P x.1 x.2.1 a) ∧ endOf d1.file x a = fin (P x.2.2 x.2.1 a) := by
      rintro ⟨t, i, t'⟩ hx _ a
      obtain ⟨ht, ht', hi⟩ := lead_in_range p sel st d1 hd1.1 τ (by rw [hf1, hn1]; exact hc) δ _
        (fun t ht => by have := List.mem_range.1 ht; omega) hx
      rw [hn1] at ht ht'
      rw [hf1, hnp t ht] at hi
      unfold startOf endOf
      rw [hf1]
      exact ⟨hP t ht i hi a, hP t' ht' i hi a⟩
    obtain ⟨d', g', D', e1, c1, f1, n1, g1, q1, q2⟩ := C44_msd_partial p d1 hd1 st τ (by rw [hf1, hn1]; exact hc) grid hg hfresh sel hs
      (by rw [hf1, hn1]; exact hw) np (by rw [hf1, hn1]; exact hnp) δ _ _ hfin
    obtain ⟨d'', g'', e1', _, _, _, _, hsh, _⟩ := msd_run p d1 hd1 st τ (by rw [hf1, hn1]; exact hc) grid hg sel hs
      (by rw [hf1, hn1]; exact hw) np (by rw [hf1, hn1]; exact hnp) δ
    rw [e1] at e1'
    cases e1'
    refine ⟨d', g', e1, c1, f1.trans hf1, n1.trans hn1, ?_⟩
    have hDD : D' = D := by
      funext x
      exact (pow_left_inj₀ (q1 x).1 (hD1 x) (by norm_num : (2 : ℕ) ≠ 0)).1 ((q1 x).2.trans (hD2 x).symm)
    subst hDD
    have hLL : d1.leads p sel st (fin δ) (List.range (d1.n - 1)) = d.leads p sel st (fin δ) (List.range (d.n - 1)) := by
      unfold Dm.leads; rw [hf1, hn1]
    rw [hLL, hf1] at q2
    set L := d.leads p sel st (fin δ) (List.range (d.n - 1)) with hL
    have e2 : g'.st.weight.toList.foldl (· + ·) 0 = (fin (((L.filter fun x => grid.isInside (startOf d.file x)).length : ℕ) : K) : F K) := by
      unfold Arr.toList
      rw [hsh.2, g1, map_fin _ _ (fun c => ((L.filter fun x => inCell p grid.geom (startOf d.file x) c).length : K))
        (fun c hcm => (q2 c ((mem_indices _ _).1 hcm)).1), F.zero_def, foldl_fin, zero_add, sum_indices]
      congr 1
      rw [← Nat.cast_sum]
      exact congrArg Nat.cast (sum_inCell p grid.geom hg.2 L (startOf d.file))
    have e3 : (g'.st.data.toList.zip g'.st.weight.toList).foldl (fun acc x => acc + x.1 * x.2) 0 =
        (fin (∑ c ∈ cellsOf grid.geom.cells, ((L.filter fun x => inCell p grid.geom (startOf d.file x) c).map D').sum ^ 2) : F K) := by
      have hz : g'.st.data.toList.zip g'.st.weight.toList = (indices 3 grid.geom.cells).map fun c => (g'.st.data.get c, g'.st.weight.get c) := by
        unfold Arr.toList
        rw [hsh.1, hsh.2, g1, List.zip_map']
      have hfold : ∀ (l : List (F K × F K)) (z : F K), l.foldl (fun acc x => acc + x.1 * x.2) z = (l.map fun x => x.1 * x.2).foldl (· + ·) z := by
        intro l z; rw [List.foldl_map]
      rw [hz, hfold, List.map_map, map_fin _ _ (fun c => ((L.filter fun x => inCell p grid.geom (startOf d.file x) c).map D').sum ^ 2)
        (fun c hcm => ?_), F.zero_def, foldl_fin, zero_add, sum_indices]
      obtain ⟨k1, k2, k3, _⟩ := q2 c ((mem_indices _ _).1 hcm)
      change g'.st.data.get c * g'.st.weight.get c = _
      by_cases hne : (L.filter fun x => inCell p grid.geom (startOf d.file x) c) = []
      · rw [k2 hne, k1, hne, F.zero_def, F.emul]; simp
      · have hp : ((L.filter fun x => inCell p grid.geom (startOf d.file x) c).length : K) ≠ 0 := by
          exact_mod_cast (List.length_pos_iff.2 hne).ne'
        rw [k3 hne, k1, F.emul, div_mul_cancel₀ _ hp]
    unfold msdValue
    rw [e2, e3]
  obtain ⟨d', e, c1, f1, n1⟩ := curve_loop p st grid sel d.file d.n ((List.range steps).map (evenly t0 t1 steps)) v
    (fun δ _ d1 => hstep δ d1) d hd rfl rfl []
  refine ⟨d', v, D, ?_, c1, f1, n1, fun t i t' => ⟨hD1 _, hD2 _⟩, ?_⟩
  · unfold msdCurve
    rw [linspace_exact]
    rw [List.map_map] at e
    change (List.map (fun i => fin (evenly t0 t1 steps i)) (List.range steps)).foldlM _ _ = _ at e
    rw [e, run_bind_ok, List.nil_append, List.map_map]
    rfl
  · intro δ L S I
    have hvδ : v δ = fin (∑ c ∈ cellsOf grid.geom.cells, ((S c).map D).sum ^ 2) / fin (I.length : K) := rfl
    have hmain : I ≠ [] → v δ = fin ((∑ c ∈ cellsOf grid.geom.cells, ((S c).map D).sum ^ 2) / I.length) := by
      intro hne
      have hp : (I.length : K) ≠ 0 := by exact_mod_cast (List.length_pos_iff.2 hne).ne'
      rw [hvδ, F.ediv _ hp]
    have hpart : ∑ c ∈ cellsOf grid.geom.cells, ((S c).map fun x => D x ^ 2).sum = (I.map fun x => D x ^ 2).sum :=
      sum_inCell_map p grid.geom hg.2 L (startOf d.file) _
    refine ⟨fun h0 => ?_, hmain, fun hne h1 => ?_, fun hne => ⟨_, hmain hne, ?_⟩⟩
    · have hS : ∀ c, S c = [] := by
        intro c
        rw [List.eq_nil_iff_forall_not_mem]
        intro x hx
        obtain ⟨g1, g2⟩ := List.mem_filter.1 hx
        unfold inCell at g2
        rw [Bool.and_eq_true] at g2
        have : x ∈ I := List.mem_filter.2 ⟨g1, g2.1⟩
        rw [h0] at this; simp at this
      rw [hvδ, h0, F.div_fin]
      simp [hS, F.infTimes]
    · rw [hmain hne]
      unfold mean
      rw [List.length_map, ← hpart]
      congr 2
      apply Finset.sum_congr rfl
      intro c _
      have := h1 c
      rcases hSc : S c with _ | ⟨x, _ | ⟨y, l⟩⟩
      · simp
      · simp
      · rw [hSc] at this; simp at this
    · unfold mean
      rw [List.length_map, ← hpart]
      apply div_le_div_of_nonneg_right _ (Nat.cast_nonneg _)
      apply Finset.sum_le_sum
      intro c _
      have : ∀ l : List (ℕ × ℕ × ℕ), (l.map fun x => D x ^ 2).sum ≤ (l.map D).sum ^ 2 ∧ 0 ≤ (l.map D).sum := by
        intro l
        induction l with
        | nil => simp
        | cons x l ih =>
          simp only [List.map_cons, List.sum_cons]
          have hx := hD1 x
          exact ⟨by nlinarith [mul_nonneg hx ih.2, ih.1], add_nonneg hx ih.2⟩
      exact (this _).1

/-- **C87 is false of the code** even in exact arithmetic: the demo particle's squared displacement over one second is `3/4` for each
of the three samples; the curve evaluated at the single delay of one second, on one cell over `[0,4]³`, says `9/4`. -/
theorem C87_false (p : Profile) (kind : Kind) : ∃ (d d' : Dm (Timestep ℝ)),
    Dm.new p kind demoFile 4 Timestep.default = .ok d ∧
    msdCurve p d demoStats (Grid.newCart (fun _ => 1) (finLimits (fun _ => 0) (fun _ => 4))) Selector.default (fin 1) (fin 1) 1 =
      .ok (d', [fin (9 / 4)], [fin 1]) ∧
    (∀ t a, (demoFile t).pos 0 a = fin ((t : ℝ) / 2)) := by
  obtain ⟨d, e, hd, hf, hn⟩ := Dm.canLook_new p kind demoFile 4 Timestep.default (by norm_num) (by norm_num) (Or.inr (by norm_num [BUFFERSIZE]))
  set grid : Grid ℝ := Grid.newCart (fun _ => 1) (finLimits (fun _ => 0) (fun _ => 4)) with hgrid
  have hfill : grid.Fillable p := fillable_cart p _ (isCart_new _ _ (fun _ => by norm_num))
  have hleads : d.leads p Selector.default demoStats (fin 1) (List.range (d.n - 1)) = [(0, 0, 1), (1, 0, 2), (2, 0, 3)] := by
    unfold Dm.leads
    rw [hf, hn]
    exact demo_leads3 p demoStats rfl
  have hpos : ∀ t a, (demoFile t).pos 0 a = fin ((t : ℝ) / 2) := fun t a => rfl
  obtain ⟨d', v, D, h1, _, _, _, hD, h2⟩ := C87_curve_partial p d hd demoStats (fun i => 0 + (i : ℝ) * 1)
    (by rw [hf, hn]; exact demo_clocked 4 _ rfl) grid hfill (fun _ => rfl) Selector.default usable_default
    (fun t _ => by rw [hf]; exact demoFile_wf t) 1 (fun t _ => by rw [hf]; rfl) (fun t _ _ => (t : ℝ) / 2)
    (fun t _ i hi a => by
      have : i = 0 := by omega
      subst this; rw [hf]; exact hpos t a) 1 1 1
  refine ⟨d, d', e, ?_, hpos⟩
  have hins : ∀ t : ℕ, t ≤ 4 → grid.isInside (fun _ => fin ((t : ℝ) / 2)) = true := by
    intro t ht
    have : (t : ℝ) ≤ 4 := by exact_mod_cast ht
    exact (cart_inside _ _ _ (fun _ => (t : ℝ) / 2)).2 fun a => ⟨by positivity, by linarith⟩
  have hin : ∀ t : ℕ, t ≤ 4 → inCell p grid.geom (fun _ => fin ((t : ℝ) / 2)) (fun _ => 0) = true := by
    intro t ht
    obtain ⟨c, hc, hb⟩ := hfill.2.isSome (hins t ht)
    have : c = fun _ => 0 := by
      funext a
      have : c a < 1 := hb a
      omega
    have h5 : grid.geom.isInside (fun _ => fin ((t : ℝ) / 2)) = true := hins t ht
    unfold inCell
    rw [h5, hc, this]
    simp
  have hstart : ∀ t t' : ℕ, startOf d.file (t, 0, t') = fun _ => fin ((t : ℝ) / 2) := by
    intro t t'; unfold startOf; rw [hf]; funext a; exact hpos t a
  obtain ⟨_, k, _⟩ := h2 1
  rw [hleads] at k
  have hS : (([(0, 0, 1), (1, 0, 2), (2, 0, 3)] : List (ℕ × ℕ × ℕ)).filter fun x => inCell p grid.geom (startOf d.file x) (fun _ => 0)) =
      [(0, 0, 1), (1, 0, 2), (2, 0, 3)] := by
    simp only [List.filter_cons, List.filter_nil, hstart, hin 0 (by norm_num), hin 1 (by norm_num), hin 2 (by norm_num), if_true]
  have hI : (([(0, 0, 1), (1, 0, 2), (2, 0, 3)] : List (ℕ × ℕ × ℕ)).filter fun x => grid.isInside (startOf d.file x)) =
      [(0, 0, 1), (1, 0, 2), (2, 0, 3)] := by
    simp only [List.filter_cons, List.filter_nil, hstart, hins 0 (by norm_num), hins 1 (by norm_num), hins 2 (by norm_num), if_true]
  have hcell : cellsOf grid.geom.cells = {fun _ => 0} := by
    ext c
    rw [mem_cellsOf, Finset.mem_singleton]
    constructor
    · intro h; funext a
      have : c a < 1 := h a
      omega
    · rintro rfl a; exact Nat.one_pos
  rw [hI, hcell, Finset.sum_singleton] at k
  beta_reduce at k
  rw [hS] at k
  have hv := k (by simp)
  have hDD : ∀ t t' : ℕ, (t' : ℝ) = t + 1 → D (t, 0, t') ^ 2 = 3 / 4 := fun t t' ht => by rw [(hD t 0 t').2, ht]; ring
  have hEq : ∀ t t' s s' : ℕ, (t' : ℝ) = t + 1 → (s' : ℝ) = s + 1 → D (t, 0, t') = D (s, 0, s') := fun t t' s s' h h' =>
    (pow_left_inj₀ (hD t 0 t').1 (hD s 0 s').1 (by norm_num)).1 ((hDD t t' h).trans (hDD s s' h').symm)
  have hval : v 1 = fin (9 / 4) := by
    rw [hv]
    congr 1
    simp only [List.map_cons, List.map_nil, List.sum_cons, List.sum_nil, List.length_cons, List.length_nil,
      hEq 1 2 0 1 (by norm_num) (by norm_num), hEq 2 3 0 1 (by norm_num) (by norm_num)]
    have := hDD 0 1 (by norm_num)
    push_cast
    linear_combination 3 * this
  rw [h1]
  have he : evenly (1 : ℝ) 1 1 0 = 1 := evenly_first _ _ _
  simp only [List.range_one, List.map_cons, List.map_nil, he, hval]

end Up4
