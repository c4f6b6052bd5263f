import Verif.Props.Occupancy
import Verif.Props.Collapse

set_option linter.unusedSectionVars false

/-! # C41: homogeneity index -/

namespace Up4
open F
open Selector (at')

variable {K : Type} [Field K] [LinearOrder K] [IsStrictOrderedRing K] [FloorRing K] [Arith K]

/-- The average occupancy of every height layer (NaN for a layer without weight), bottom first. -/
noncomputable def layerMeans (g : Grid K) : List (F K) :=
  (List.range (g.geom.cells 2)).map fun i => weightedMean g.st (layerCells g.geom.cells 2 i)

/-- The numbers in a list that are not NaN. -/
def numbers (l : List (F K)) : List K := (l.filter fun x => !x.isNaN).map val

theorem fold_skip_nan [ExactArith K] (l : List (F K)) (hl : ∀ x ∈ l, x = F.nan ∨ ∃ y, x = fin y) (f : F K → F K) (h : K → K)
    (hf : ∀ y : K, f (fin y) = fin (h y)) (z : K) :
    l.foldl (fun s x => if x.isNaN then s else s + f x) (fin z) = fin (z + ((numbers l).map h).sum) := by
  induction l generalizing z with
  | nil => simp [numbers]
  | cons x l ih =>
    have hl' : ∀ x ∈ l, x = F.nan ∨ ∃ y, x = fin y := fun x hx => hl x (by simp [hx])
    rw [List.foldl_cons]
    rcases hl x (by simp) with rfl | ⟨y, rfl⟩
    · rw [if_pos (show (F.nan : F K).isNaN = true from rfl), ih hl']
      rfl
    · rw [if_neg (by simp [F.isNaN]), hf, eadd, ih hl']
      congr 1
      change _ = z + (h y + _)
      rw [add_assoc]
      rfl

/-- The final formula of `homogenity_index` on a list of numbers and NaN. -/
theorem homogeneity_spec [ExactArith K] (l : List (F K)) (hne : l ≠ []) (hl : ∀ x ∈ l, x = F.nan ∨ ∃ y, x = fin y) :
    ∃ H : K, homogeneity l = fin H ∧ 0 ≤ H ∧
      H * H = ((numbers l).map fun x => (x - (numbers l).sum / l.length) ^ 2).sum / l.length := by
  have hp : (0 : K) < l.length := by exact_mod_cast List.length_pos_iff.2 hne
  have e1 : l.foldl (fun s x => if x.isNaN then s else s + x) (0 : F K) = fin (numbers l).sum := by
    have := fold_skip_nan l hl (fun x => x) (fun y => y) (fun _ => rfl) 0
    rw [zero_add, List.map_id'] at this
    exact this
  set m := (numbers l).sum / (l.length : K) with hm
  have e2 : l.foldl (fun s x => if x.isNaN then s else s + (x - fin m) * (x - fin m)) (0 : F K) =
      fin ((numbers l).map fun x => (x - m) ^ 2).sum := by
    have := fold_skip_nan l hl (fun x => (x - fin m) * (x - fin m)) (fun y => (y - m) ^ 2) (fun y => by rw [esub, emul, pow_two]) 0
    rw [zero_add] at this
    exact this
  have hnn : 0 ≤ ((numbers l).map fun x => (x - m) ^ 2).sum / (l.length : K) := div_nonneg (sum_sq_nonneg _ _) hp.le
  obtain ⟨H, h1, h2, h3⟩ := sqrt_root hnn
  refine ⟨H, ?_, h2, h3⟩
  unfold homogeneity
  dsimp only
  rw [e1, eofNat, ediv _ hp.ne', ← hm, e2, ediv _ hp.ne', h1]

/-- **C41, what is computed.** Under the hypotheses of C37, `homogenity_index` returns a nonnegative number `H`. With `V` the
averages of those height layers of the occupancy field that are not NaN and `n` the number of *all* layers, `H² = Σ (x - m)² / n`
over `V`, where `m = Σ V / n`; so `H = 0` iff all of `V` equal `m`. -/
theorem C41_index [LawfulArith K] [ExactArith K] (p : Profile) (d : Dm (Timestep K)) (hd : d.CanLook) (hn : 3 ≤ d.n) (τ : ℕ → K)
    (hτ : ∀ t, t < d.n → (d.file t).time = fin (τ t)) (grid : Grid K)
    (hg : IsCart grid ∨ (grid.Fillable p ∧ ∃ cg, grid.geom = .cyl cg)) (hz : 1 ≤ grid.geom.cells 2)
    (hfresh : ∀ c, grid.st.weight.get c = 0)
    (sel : Selector K) (hs : sel.Usable) (hw : ∀ t, t < d.n → (d.file t).Wf) (minV : F K) :
    ∃ d' g' H, occupancyfield p d grid sel minV = .ok (d', g') ∧ homogenityIndex p d grid sel minV = .ok (d', fin H) ∧ 0 ≤ H ∧
      let V := numbers (layerMeans g')
      let n : K := (grid.geom.cells 2 : ℕ)
      let m := V.sum / n
      H * H = (V.map fun x => (x - m) ^ 2).sum / n ∧ (H = 0 ↔ ∀ x ∈ V, x = m) := by
  obtain ⟨d', g', h1, _, h2, h3, h4, h4', hT0, hC, h5⟩ := C37_cells p d hd hn τ hτ grid hg hfresh sel hs hw minV
  have hfd : FinOrNaN g'.st.data := by
    intro c _
    obtain ⟨_, q1, q2⟩ := h5 c
    by_cases h0 : (((samples sel d.file (List.range (d.n - 3))).filter (counts d.file grid.geom minV)).map
      fun x : ℕ × ℕ => τ (x.1 + 1) - τ x.1).sum = 0
    · exact Or.inl (q1 h0)
    · exact Or.inr ⟨_, q2 h0⟩
  have hfw : FinNonneg g'.st.weight := by
    intro c _
    refine ⟨_, (h5 c).1, ?_⟩
    apply List.sum_nonneg
    intro y hy
    obtain ⟨x, _, rfl⟩ := List.mem_map.1 hy
    exact share_nonneg _ _ _ _ _
  obtain ⟨r, r1, _, r3, r4⟩ := C13_collapseTwo g' (h4'.2.trans h4'.1.symm) hfd hfw 0 1 2 (by decide) (by decide) (by decide)
  have hl : r.toList = layerMeans g' := by
    unfold Arr.toList layerMeans
    rw [r3, h4'.1]
    have : indices 1 (fun _ => g'.geom.cells 2) = (List.range (g'.geom.cells 2)).map fun i => fun _ => i := by
      unfold indices
      simp only [indices]
      generalize g'.geom.cells 2 = N
      induction N with
      | zero => rfl
      | succ N ih =>
        rw [List.range_succ, List.flatMap_append, List.map_append, ih]
        simp only [List.flatMap_cons, List.flatMap_nil, List.append_nil, List.map_cons, List.map_nil]
        congr 2
        funext j; fin_cases j; rfl
    rw [this, List.map_map]
    apply List.map_congr_left
    intro i hi
    have := r4 i (by rw [h4'.1]; exact List.mem_range.1 hi)
    rw [Function.comp, this, h4'.1]
  have hlen : (layerMeans g').length = grid.geom.cells 2 := by unfold layerMeans; rw [List.length_map, List.length_range, h4]
  obtain ⟨H, k1, k2, k3⟩ := homogeneity_spec (layerMeans g') (by intro h; rw [h] at hlen; simp at hlen; omega) (by
    intro x hx
    unfold layerMeans at hx
    obtain ⟨i, _, rfl⟩ := List.mem_map.1 hx
    unfold weightedMean
    split_ifs
    · exact Or.inl rfl
    · exact Or.inr ⟨_, rfl⟩)
  rw [hlen] at k3
  refine ⟨d', g', H, h1, ?_, k2, k3, ?_⟩
  · unfold homogenityIndex
    rw [h1, run_bind_ok]
    dsimp only
    have : g'.collapseTwo 0 1 = .ok r := r1
    rw [this, run_bind_ok, hl, k1]
    rfl
  · have hp : (0 : K) < (grid.geom.cells 2 : ℕ) := by exact_mod_cast hz
    set V := numbers (layerMeans g')
    set m := V.sum / ((grid.geom.cells 2 : ℕ) : K)
    constructor
    · intro h0 x hx
      rw [h0, mul_zero, eq_comm, div_eq_zero_iff] at k3
      have hs0 : (V.map fun x => (x - m) ^ 2).sum = 0 := k3.resolve_right hp.ne'
      have hnn : ∀ y ∈ V.map fun x => (x - m) ^ 2, (0 : K) ≤ y := by
        intro y hy
        obtain ⟨z, _, rfl⟩ := List.mem_map.1 hy
        positivity
      have hle := List.single_le_sum hnn ((x - m) ^ 2) (List.mem_map_of_mem (f := fun x => (x - m) ^ 2) hx)
      rw [hs0] at hle
      have : (x - m) ^ 2 = 0 := le_antisymm hle (sq_nonneg _)
      exact sub_eq_zero.1 (pow_eq_zero_iff (by norm_num) |>.1 this)
    · intro hall
      have : (V.map fun x => (x - m) ^ 2).sum = 0 := by
        apply List.sum_eq_zero
        intro y hy
        obtain ⟨z, hz', rfl⟩ := List.mem_map.1 hy
        rw [hall z hz', sub_self]; ring
      rw [this, zero_div] at k3
      exact mul_self_eq_zero.1 k3

theorem numbers_all (l : List (F K)) (v : List K) (h : l = v.map F.fin) : numbers l = v := by
  subst h
  unfold numbers
  rw [List.filter_eq_self.2 (by intro x hx; obtain ⟨y, _, rfl⟩ := List.mem_map.1 hx; rfl), List.map_map]
  have : (val ∘ F.fin : K → K) = fun x => x := rfl
  rw [this, List.map_id']

/-- **C41 (partial).** The full property: the index is the standard deviation over the height layers of the layer-averaged occupancy,
zero iff the layers agree. Proved: so it is if every layer was visited (no layer average is NaN): `H²` is the mean squared
deviation of the layer averages. Missing: fields with unvisited layers, for which it is false (`C41_false`). -/
theorem C41_sd_partial [LawfulArith K] [ExactArith K] (p : Profile) (d : Dm (Timestep K)) (hd : d.CanLook) (hn : 3 ≤ d.n) (τ : ℕ → K)
    (hτ : ∀ t, t < d.n → (d.file t).time = fin (τ t)) (grid : Grid K)
    (hg : IsCart grid ∨ (grid.Fillable p ∧ ∃ cg, grid.geom = .cyl cg)) (hz : 1 ≤ grid.geom.cells 2)
    (hfresh : ∀ c, grid.st.weight.get c = 0)
    (sel : Selector K) (hs : sel.Usable) (hw : ∀ t, t < d.n → (d.file t).Wf) (minV : F K)
    (hall : ∀ d' g', occupancyfield p d grid sel minV = .ok (d', g') → F.nan ∉ layerMeans g') :
    ∃ d' g' H v, occupancyfield p d grid sel minV = .ok (d', g') ∧ layerMeans g' = v.map F.fin ∧
      homogenityIndex p d grid sel minV = .ok (d', fin H) ∧ 0 ≤ H ∧ H * H = meanSqDev v ∧
      (H = 0 ↔ ∀ x ∈ v, ∀ y ∈ v, x = y) := by
  obtain ⟨d', g', H, h1, h2, h3, h4, h5⟩ := C41_index p d hd hn τ hτ grid hg hz hfresh sel hs hw minV
  have hv : ∃ v : List K, layerMeans g' = v.map F.fin := by
    have hnn := hall d' g' h1
    refine ⟨(layerMeans g').map val, ?_⟩
    rw [List.map_map]
    conv_lhs => rw [← List.map_id (layerMeans g')]
    apply List.map_congr_left
    intro x hx
    have : x = F.nan ∨ ∃ y, x = fin y := by
      unfold layerMeans at hx
      obtain ⟨i, _, rfl⟩ := List.mem_map.1 hx
      unfold weightedMean
      split_ifs
      · exact Or.inl rfl
      · exact Or.inr ⟨_, rfl⟩
    rcases this with rfl | ⟨y, rfl⟩
    · exact absurd hx hnn
    · rfl
  obtain ⟨v, hv⟩ := hv
  have hnum := numbers_all _ v hv
  have hgeom : g'.geom = grid.geom := by
    obtain ⟨_, _, e, _, _, _, e2, _⟩ := C37_cells p d hd hn τ hτ grid hg hfresh sel hs hw minV
    rw [h1] at e
    cases e
    exact e2
  have hlen : v.length = grid.geom.cells 2 := by
    have := congrArg List.length hv
    unfold layerMeans at this
    rw [List.length_map, List.length_map, List.length_range, hgeom] at this
    exact this.symm
  rw [hnum] at h4 h5
  rw [← hlen] at h4 h5
  refine ⟨d', g', H, v, h1, hv, h2, h3, h4, ?_⟩
  have hpos : (v.length : K) ≠ 0 := by rw [hlen]; exact_mod_cast (by omega : grid.geom.cells 2 ≠ 0)
  constructor
  · intro h0 x hx y hy
    rw [h5.1 h0 x hx, h5.1 h0 y hy]
  · intro heq
    refine h5.2 fun x hx => ?_
    have : v = List.replicate v.length x := List.eq_replicate_iff.2 ⟨rfl, fun y hy => heq y hy x hx⟩
    have hs : v.sum = v.length * x := by
      conv_lhs => rw [this]
      rw [List.sum_replicate, nsmul_eq_mul]
    rw [hs]
    field_simp

/-- **C41 is false of the code** for fields with unvisited layers: four timesteps of the demo dataset on a grid with one
cell below and one above; the particle stays in the lower layer, whose average occupancy is 1, and the upper layer is NaN. There is
a single number, so its standard deviation is 0; counting the empty layer as 0 the standard deviation would be 1/2. The index is neither: its square is 1/8. -/
theorem C41_false (p : Profile) (kind : Kind) : ∃ (d d' : Dm (Timestep ℝ)) (g' : Grid ℝ) (H : ℝ),
    Dm.new p kind demoFile 4 Timestep.default = .ok d ∧
    occupancyfield p d (Grid.newCart ![1, 1, 2] (finLimits (fun _ => 0) (fun _ => 4))) Selector.default 0 = .ok (d', g') ∧
    layerMeans g' = [fin 1, F.nan] ∧
    homogenityIndex p d (Grid.newCart ![1, 1, 2] (finLimits (fun _ => 0) (fun _ => 4))) Selector.default 0 = .ok (d', fin H) ∧
    H * H = 1 / 8 := by
  obtain ⟨d, e, hd, hf, hn⟩ := Dm.canLook_new p kind demoFile 4 Timestep.default (by norm_num) (by norm_num) (Or.inr (by norm_num [BUFFERSIZE]))
  set grid : Grid ℝ := Grid.newCart ![1, 1, 2] (finLimits (fun _ => 0) (fun _ => 4)) with hgrid
  have hcart : IsCart grid := isCart_new _ _ (fun a => by fin_cases a <;> norm_num)
  have hins : ∀ t : ℕ, t ≤ 4 → grid.geom.isInside (fun _ => fin ((t : ℝ) / 2)) = true := by
    intro t ht
    have : (t : ℝ) ≤ 4 := by exact_mod_cast ht
    exact (cart_inside _ _ _ (fun _ => (t : ℝ) / 2)).2 fun a => ⟨by positivity, by linarith⟩
  have hτ : ∀ t, t < d.n → (d.file t).time = fin ((fun t : ℕ => (t : ℝ)) t) := by intro t _; rw [hf]; rfl
  have hw : ∀ t, t < d.n → (d.file t).Wf := fun t _ => by rw [hf]; exact demoFile_wf t
  obtain ⟨d1, g1, H, h1, h2, h3, h4, _⟩ := C41_index p d hd (by omega) (fun t : ℕ => (t : ℝ)) hτ grid (Or.inl hcart) (by change 1 ≤ 2; norm_num) (fun _ => rfl)
    Selector.default usable_default hw 0
  obtain ⟨d2, g2, k1, _, _, _, k4, k5, _, _, k6⟩ := C37_cells p d hd (by omega) (fun t : ℕ => (t : ℝ)) hτ grid (Or.inl hcart) (fun _ => rfl)
    Selector.default usable_default hw 0
  rw [h1] at k1
  cases k1
  have hC : (samples Selector.default d.file (List.range (d.n - 3))).filter (counts d.file grid.geom 0) = [(0, 0)] := by
    rw [hf, hn, demo_samples 1 (by norm_num)]
    have hr : (List.range 1).map (fun t => (t, 0)) = [((0 : ℕ), 0)] := rfl
    rw [hr, List.filter_eq_self]
    intro x hx
    simp only [List.mem_cons, List.not_mem_nil, or_false] at hx
    subst hx
    unfold counts
    have hsp : ¬ (demoFile 0).speed 0 < 0 := by
      obtain ⟨T, h1, h2, _⟩ := sqrt_root (K := ℝ) (x := 3 * 3 + 0 * 0 + 4 * 4) (by norm_num)
      have : (demoFile 0).speed 0 = fin T := by
        rw [← h1]
        change ((fin 3 * fin 3 + fin 0 * fin 0 + fin 4 * fin 4 : F ℝ)).sqrt = _
        rw [emul, emul, emul, eadd, eadd]
      rw [this, F.zero_def, F.lt_fin, not_lt]
      exact h2
    have hst : ¬ stepTime demoFile 0 < 0 := by
      unfold stepTime
      change ¬ (fin ((0 + 1 : ℕ) : ℝ) - fin ((0 : ℕ) : ℝ) : F ℝ) < 0
      rw [esub, F.zero_def, F.lt_fin, not_lt]
      norm_num
    rw [decide_eq_false hsp, decide_eq_false hst]
    simp only [Bool.not_false, Bool.and_true, Bool.and_eq_true, decide_eq_true_eq]
    exact ⟨hins 0 (by norm_num), Nat.one_pos⟩
  rw [hC] at k6
  simp only [List.map_cons, List.map_nil, List.sum_cons, List.sum_nil, add_zero] at k6
  have hlook : ∀ t : ℕ, t ≤ 1 → grid.geom.lookup p (fun _ => fin ((t : ℝ) / 2)) = some (fun _ => 0) := by
    intro t ht
    obtain ⟨c, hc, hb⟩ := (fillable_cart p grid hcart).2.isSome (hins t (by omega))
    rw [hc]
    congr 1
    have h2 : c 2 = 0 := by
      have hcid := CartGeom.cellId_eq p (CartGeom.new ![1, 1, 2] (finLimits (fun _ => (0 : ℝ)) (fun _ => 4))) hcart.2.1 (fun _ => fin ((t : ℝ) / 2))
      have hin' : CartGeom.isInside (CartGeom.new ![1, 1, 2] (finLimits (fun _ => (0 : ℝ)) (fun _ => 4))) (fun _ => fin ((t : ℝ) / 2)) = true :=
        hins t (by omega)
      rw [if_pos hin'] at hcid
      have hl := Geom.lookup_eq (g := grid.geom) hcid
      rw [hc] at hl
      have hl := congrFun (Option.some.inj hl) 2
      rw [hl]
      change CartGeom.axisVal (fin 0, fin 4) 2 (fin ((t : ℝ) / 2)) = 0
      unfold CartGeom.axisVal
      change (((fin ((t : ℝ) / 2) - fin 0) / (fin 4 - fin 0)) * (F.ofNat (2 - 1) : F ℝ)).toUsize = 0
      rw [esub, esub, ediv _ (by norm_num), eofNat, emul]
      unfold F.toUsize
      have ht' : (t : ℝ) ≤ 1 := by exact_mod_cast ht
      have hx : ((t : ℝ) / 2 - 0) / (4 - 0) * ((2 - 1 : ℕ) : ℝ) < 1 := by norm_num; linarith
      change min ⌊((t : ℝ) / 2 - 0) / (4 - 0) * ((2 - 1 : ℕ) : ℝ)⌋₊ F.usizeMax = 0
      rw [Nat.floor_eq_zero.2 hx]
      exact Nat.zero_min _
    funext a
    fin_cases a
    · have : c 0 < 1 := hb 0
      change c 0 = 0; omega
    · have : c 1 < 1 := hb 1
      change c 1 = 0; omega
    · exact h2
  have hshare : ∀ c, share p grid.geom (posOf d.file (0, 0)) (nextOf d.file (0, 0)) c = if c = (fun _ => 0) then 1 else 0 := by
    intro c
    have e1 : posOf d.file (0, 0) = fun _ => fin (((0 : ℕ) : ℝ) / 2) := by rw [hf]; rfl
    have e2 : nextOf d.file (0, 0) = fun _ => fin (((1 : ℕ) : ℝ) / 2) := by rw [hf]; rfl
    rw [e1, e2]
    have l0 := hlook 0 (by norm_num)
    have l1 := hlook 1 (by norm_num)
    have : share p grid.geom (fun _ => fin (((0 : ℕ) : ℝ) / 2)) (fun _ => fin (((1 : ℕ) : ℝ) / 2)) c =
        (if (fun _ => 0) = c then (1 / 2 : ℝ) else 0) + (if (fun _ => 0) = c then 1 / 2 else 0) := by
      change (match grid.geom.lookup p (fun _ => fin (((0 : ℕ) : ℝ) / 2)), grid.geom.lookup p (fun _ => fin (((1 : ℕ) : ℝ) / 2)) with
        | some c1, some c2 => (if c1 = c then (1 / 2 : ℝ) else 0) + (if c2 = c then 1 / 2 else 0)
        | _, _ => 0) = _
      rw [l0, l1]
    rw [this]
    by_cases h : c = fun _ => 0
    · rw [if_pos h, if_pos h.symm]; norm_num
    · rw [if_neg h, if_neg (fun h' => h h'.symm)]; norm_num
  have hwt : ∀ c, g1.st.weight.get c = fin (if c = (fun _ => 0) then 1 else 0) := by
    intro c; rw [(k6 c).1, hshare c]
  have hdt : ∀ c, g1.st.data.get c = fin (if c = (fun _ => 0) then 1 else 0) := by
    intro c; rw [(k6 c).2.2 (by norm_num), hshare c]; norm_num
  have hcells : ∀ i, layerCells g1.geom.cells 2 i = (cellsOf ![1, 1, 2]).filter fun c => c 2 = i := by
    intro i; rw [k4]; rfl
  have hsum : ∀ (i : ℕ) (f : CellId → ℝ), (∀ c, c ≠ (fun _ => 0) → f c = 0) →
      ∑ c ∈ layerCells g1.geom.cells 2 i, f c = if i = 0 then f (fun _ => 0) else 0 := by
    intro i f hfz
    by_cases hi : i = 0
    · subst hi
      rw [if_pos rfl]
      apply Finset.sum_eq_single
      · intro c _ hc; exact hfz c hc
      · intro hc
        exfalso
        apply hc
        rw [hcells, Finset.mem_filter, mem_cellsOf]
        exact ⟨fun a => by fin_cases a <;> norm_num, rfl⟩
    · rw [if_neg hi]
      apply Finset.sum_eq_zero
      intro c hc
      rw [hcells, Finset.mem_filter] at hc
      apply hfz
      intro h
      rw [h] at hc
      exact hi hc.2.symm
  have hlm : layerMeans g1 = [fin 1, F.nan] := by
    unfold layerMeans
    have : g1.geom.cells 2 = 2 := by rw [k4]; rfl
    rw [this]
    have hr : List.range 2 = [0, 1] := rfl
    rw [hr, List.map_cons, List.map_cons, List.map_nil]
    unfold weightedMean
    simp only [hwt, hdt, val]
    have z1 : ∀ c : CellId, c ≠ (fun _ => 0) → (if c = (fun _ => 0) then (1 : ℝ) else 0) = 0 := fun c hc => if_neg hc
    have z2 : ∀ c : CellId, c ≠ (fun _ => 0) → (if c = (fun _ => 0) then (1 : ℝ) else 0) * (if c = (fun _ => 0) then (1 : ℝ) else 0) = 0 :=
      fun c hc => by rw [if_neg hc, mul_zero]
    simp only [hsum _ _ z1, hsum _ _ z2]
    norm_num
  refine ⟨d, d1, g1, H, e, h1, hlm, h2, ?_⟩
  rw [h4, hlm]
  have : numbers ([fin 1, F.nan] : List (F ℝ)) = [1] := rfl
  rw [this]
  have hc2 : grid.geom.cells 2 = 2 := rfl
  rw [hc2]
  norm_num

end Up4
