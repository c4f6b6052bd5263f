import Verif.Props.Homogeneity
import Verif.Props.Histogram
import Verif.Props.Circulation
import Verif.Props.TwoBoundary
import Verif.Props.Consist
import Verif.Props.Rotation

/-!
# Cases for the theorems on analyses

Concrete cases that meet the hypotheses of theorems of `Props/{Histogram,Homogeneity,Circulation,TwoBoundary,Consist,Rotation}.lean`.
-/

namespace Up4

open F

/-- Case for `C39_total_partial`: speeds 0, 1/2 and 1 in two bins over `[0, 1]`: two of the three are below the last edge. -/
example : ∑ k ∈ Finset.range 2, ([(0, 0), (1, 0), (2, 0)].countP fun x : ℕ × ℕ => true &&
    decide ((k = 0 ∨ (0 : ℝ) + k * ((1 - 0) / (2 : ℕ)) ≤ (x.1 : ℝ) / 2) ∧ (x.1 : ℝ) / 2 < 0 + (k + 1) * ((1 - 0) / (2 : ℕ)))) = 2 := by
  rw [C39_total_partial [(0, 0), (1, 0), (2, 0)] (fun _ => true) 2 (by norm_num) 0 1 (by norm_num) (fun x : ℕ × ℕ => (x.1 : ℝ) / 2)
    (fun x _ _ => by positivity)]
  simp only [List.countP_cons, List.countP_nil]
  norm_num

/-- The demo particle passes through the lower layer of the two over `[0,1]` into the upper one: it spends 3/4 of two seconds in the lower
layer and 1/4 in the upper. -/
theorem case_layers (p : Profile) (d : Dm (Timestep ℝ)) (hd : d.CanLook) (hf : d.file = demoFile) (hn : d.n = 5) (d' : Dm (Timestep ℝ)) (g' : Grid ℝ)
    (h : occupancyfield p d (Grid.newCart ![1, 1, 2] (finLimits (fun _ => 0) (fun _ => 1))) Selector.default 0 = .ok (d', g')) :
    layerMeans g' = [fin (3 / 4), fin (1 / 4)] := by
  set grid : Grid ℝ := Grid.newCart ![1, 1, 2] (finLimits (fun _ => 0) (fun _ => 1)) with hgrid
  have hcart : IsCart grid := isCart_new _ _ (fun a => by fin_cases a <;> norm_num)
  have hins : ∀ t : ℕ, t ≤ 2 → grid.geom.isInside (fun _ => fin ((t : ℝ) / 2)) = true := by
    intro t ht
    have : (t : ℝ) ≤ 2 := by exact_mod_cast ht
    exact (cart_inside _ _ _ (fun _ => (t : ℝ) / 2)).2 fun a => ⟨by positivity, by linarith⟩
  have hτ : ∀ t, t < d.n → (d.file t).time = fin ((fun t : ℕ => (t : ℝ)) t) := by intro t _; rw [hf]; rfl
  have hw : ∀ t, t < d.n → (d.file t).Wf := fun t _ => by rw [hf]; exact demoFile_wf t
  obtain ⟨d2, g2, k1, _, _, _, k4, k5, _, _, k6⟩ := C37_cells p d hd (by omega) (fun t : ℕ => (t : ℝ)) hτ grid (Or.inl hcart) (fun _ => rfl)
    Selector.default usable_default hw 0
  rw [h] at k1
  cases k1
  have hC : (samples Selector.default d.file (List.range (d.n - 3))).filter (counts d.file grid.geom 0) = [(0, 0), (1, 0)] := by
    rw [hf, hn, demo_samples 2 (by norm_num)]
    have hr : (List.range 2).map (fun t => (t, 0)) = [((0 : ℕ), 0), (1, 0)] := rfl
    rw [hr, List.filter_eq_self]
    intro x hx
    have hx1 : x.2 = 0 ∧ x.1 ≤ 1 := by
      simp only [List.mem_cons, List.not_mem_nil, or_false] at hx
      rcases hx with rfl | rfl <;> simp
    obtain ⟨t, i⟩ := x
    obtain ⟨rfl, ht⟩ := hx1
    unfold counts
    have hsp : ¬ (demoFile t).speed 0 < 0 := by
      obtain ⟨T, h1, h2, _⟩ := sqrt_root (K := ℝ) (x := 3 * 3 + 0 * 0 + 4 * 4) (by norm_num)
      have : (demoFile t).speed 0 = fin T := by
        rw [← h1]
        change ((fin 3 * fin 3 + fin 0 * fin 0 + fin 4 * fin 4 : F ℝ)).sqrt = _
        rw [emul, emul, emul, eadd, eadd]
      rw [this, F.zero_def, F.lt_fin, not_lt]
      exact h2
    have hst : ¬ stepTime demoFile t < 0 := by
      unfold stepTime
      change ¬ (fin ((t + 1 : ℕ) : ℝ) - fin ((t : ℕ) : ℝ) : F ℝ) < 0
      rw [esub, F.zero_def, F.lt_fin, not_lt]
      push_cast; linarith
    have hi := hins t (by omega)
    rw [decide_eq_false hsp, decide_eq_false hst]
    simp only [Bool.not_false, Bool.and_true, Bool.and_eq_true, decide_eq_true_eq]
    exact ⟨hi, Nat.one_pos⟩
  rw [hC] at k6
  simp only [List.map_cons, List.map_nil, List.sum_cons, List.sum_nil, add_zero] at k6
  have hlook : ∀ t : ℕ, t ≤ 2 → grid.geom.lookup p (fun _ => fin ((t : ℝ) / 2)) = some ![0, 0, if t = 2 then 1 else 0] := by
    intro t ht
    obtain ⟨c, hc, hb⟩ := (fillable_cart p grid hcart).2.isSome (hins t (by omega))
    rw [hc]
    congr 1
    have h2 : c 2 = if t = 2 then 1 else 0 := by
      have hcid := CartGeom.cellId_eq p (CartGeom.new ![1, 1, 2] (finLimits (fun _ => (0 : ℝ)) (fun _ => 1))) hcart.2.1 (fun _ => fin ((t : ℝ) / 2))
      have hin' : CartGeom.isInside (CartGeom.new ![1, 1, 2] (finLimits (fun _ => (0 : ℝ)) (fun _ => 1))) (fun _ => fin ((t : ℝ) / 2)) = true :=
        hins t (by omega)
      rw [if_pos hin'] at hcid
      have hl := Geom.lookup_eq (g := grid.geom) hcid
      rw [hc] at hl
      have hl := congrFun (Option.some.inj hl) 2
      rw [hl]
      change CartGeom.axisVal (fin 0, fin 1) 2 (fin ((t : ℝ) / 2)) = _
      unfold CartGeom.axisVal
      change (((fin ((t : ℝ) / 2) - fin 0) / (fin 1 - fin 0)) * (F.ofNat (2 - 1) : F ℝ)).toUsize = _
      rw [esub, esub, ediv _ (by norm_num), eofNat, emul]
      unfold F.toUsize
      change min ⌊((t : ℝ) / 2 - 0) / (1 - 0) * ((2 - 1 : ℕ) : ℝ)⌋₊ F.usizeMax = _
      have hu : 1 ≤ F.usizeMax := by unfold F.usizeMax; norm_num
      by_cases h2 : t = 2
      · subst h2
        have : (((2 : ℕ) : ℝ) / 2 - 0) / (1 - 0) * ((2 - 1 : ℕ) : ℝ) = ((1 : ℕ) : ℝ) := by norm_num
        rw [this, Nat.floor_natCast, if_pos rfl]; omega
      · have ht' : (t : ℝ) ≤ 1 := by exact_mod_cast (by omega : t ≤ 1)
        have hx : ((t : ℝ) / 2 - 0) / (1 - 0) * ((2 - 1 : ℕ) : ℝ) < 1 := by norm_num; linarith
        rw [Nat.floor_eq_zero.2 hx, if_neg h2]
        exact Nat.zero_min _
    funext a
    fin_cases a
    · have : c 0 < 1 := hb 0
      change c 0 = 0; omega
    · have : c 1 < 1 := hb 1
      change c 1 = 0; omega
    · exact h2
  have hpos : ∀ t, posOf d.file (t, 0) = fun _ => fin (((t : ℕ) : ℝ) / 2) := by intro t; rw [hf]; rfl
  have hnext : ∀ t, nextOf d.file (t, 0) = fun _ => fin (((t + 1 : ℕ) : ℝ) / 2) := by intro t; rw [hf]; rfl
  have hshare : ∀ t c, t ≤ 1 → share p grid.geom (posOf d.file (t, 0)) (nextOf d.file (t, 0)) c =
      (if ![0, 0, if t = 2 then 1 else 0] = c then (1 / 2 : ℝ) else 0) + (if ![0, 0, if t + 1 = 2 then 1 else 0] = c then 1 / 2 else 0) := by
    intro t c ht
    rw [hpos, hnext]
    have l0 := hlook t (by omega)
    have l1 := hlook (t + 1) (by omega)
    change (match grid.geom.lookup p (fun _ => fin ((t : ℝ) / 2)), grid.geom.lookup p (fun _ => fin (((t + 1 : ℕ) : ℝ) / 2)) with
        | some c1, some c2 => (if c1 = c then (1 / 2 : ℝ) else 0) + (if c2 = c then 1 / 2 else 0)
        | _, _ => 0) = _
    rw [l0, l1]
  have hwt : ∀ c, g'.st.weight.get c = fin ((if ![0, 0, 0] = c then (3 / 2 : ℝ) else 0) + (if ![0, 0, 1] = c then 1 / 2 else 0)) := by
    intro c
    rw [(k6 c).1, hshare 0 c (by norm_num), hshare 1 c (by norm_num)]
    congr 1
    simp only [reduceIte, show (0 : ℕ) ≠ 2 by norm_num, show (0 + 1 : ℕ) ≠ 2 by norm_num, show (1 + 1 : ℕ) = 2 by norm_num]
    by_cases a1 : ![0, 0, 0] = c
    · simp only [a1, if_true]; norm_num; ring
    · simp only [a1, if_false]; norm_num
  have hdt : ∀ c, g'.st.data.get c = fin ((if ![0, 0, 0] = c then (3 / 4 : ℝ) else 0) + (if ![0, 0, 1] = c then 1 / 4 else 0)) := by
    intro c
    rw [(k6 c).2.2 (by norm_num), hshare 0 c (by norm_num), hshare 1 c (by norm_num)]
    congr 1
    simp only [reduceIte, show (0 : ℕ) ≠ 2 by norm_num, show (0 + 1 : ℕ) ≠ 2 by norm_num, show (1 + 1 : ℕ) = 2 by norm_num]
    by_cases a1 : ![0, 0, 0] = c
    · have a2 : ¬ ![0, 0, 1] = c := by rw [← a1]; decide
      simp only [a1, a2, if_true, if_false]; norm_num
    · by_cases a2 : ![0, 0, 1] = c
      · simp only [a1, a2, if_true, if_false]; norm_num
      · simp only [a1, a2, if_false]; norm_num
  have hcells : ∀ i, i < 2 → layerCells g'.geom.cells 2 i = {![0, 0, i]} := by
    intro i hi
    rw [k4]
    ext c
    change c ∈ (cellsOf ![1, 1, 2]).filter (fun c => c 2 = i) ↔ _
    rw [Finset.mem_filter, mem_cellsOf, Finset.mem_singleton]
    constructor
    · rintro ⟨h1, h2⟩
      have e0 : c 0 < 1 := h1 0
      have e1 : c 1 < 1 := h1 1
      funext a
      fin_cases a
      · change c 0 = 0; omega
      · change c 1 = 0; omega
      · exact h2
    · rintro rfl
      exact ⟨fun a => by fin_cases a <;> simp [hi], rfl⟩
  unfold layerMeans
  have : g'.geom.cells 2 = 2 := by rw [k4]; rfl
  rw [this]
  have hr : List.range 2 = [0, 1] := rfl
  rw [hr, List.map_cons, List.map_cons, List.map_nil]
  unfold weightedMean
  simp only [hcells 0 (by norm_num), hcells 1 (by norm_num), Finset.sum_singleton, hwt, hdt, val]
  have a1 : ¬ (![0, 0, 1] : CellId) = ![0, 0, 0] := by decide
  have a2 : ¬ (![0, 0, 0] : CellId) = ![0, 0, 1] := by decide
  simp only [a1, a2, if_true, if_false]
  norm_num

/-- Case for `C41_sd_partial`: the demo particle and two layers over `[0,1]`; the mean occupancies 3/4 and 1/4 have the standard deviation 1/4. -/
example (p : Profile) (kind : Kind) : ∃ (d d' : Dm (Timestep ℝ)), Dm.new p kind demoFile 5 Timestep.default = .ok d ∧
    homogenityIndex p d (Grid.newCart ![1, 1, 2] (finLimits (fun _ => 0) (fun _ => 1))) Selector.default 0 = .ok (d', fin (1 / 4)) := by
  obtain ⟨d, e, hd, hf, hn⟩ := Dm.canLook_new p kind demoFile 5 Timestep.default (by norm_num) (by norm_num) (Or.inr (by norm_num [BUFFERSIZE]))
  have hτ : ∀ t, t < d.n → (d.file t).time = fin ((fun t : ℕ => (t : ℝ)) t) := by intro t _; rw [hf]; rfl
  have hw : ∀ t, t < d.n → (d.file t).Wf := fun t _ => by rw [hf]; exact demoFile_wf t
  obtain ⟨d', g', H, v, h1, h2, h3, h4, h5, _⟩ := C41_sd_partial p d hd (by omega) (fun t : ℕ => (t : ℝ)) hτ
    (Grid.newCart ![1, 1, 2] (finLimits (fun _ => 0) (fun _ => 1))) (Or.inl (isCart_new _ _ (fun a => by fin_cases a <;> norm_num)))
    (by change 1 ≤ 2; norm_num) (fun _ => rfl) Selector.default usable_default hw 0
    (fun d' g' h => by rw [case_layers p d hd hf hn d' g' h]; simp)
  refine ⟨d, d', e, ?_⟩
  rw [h3]
  have hv : v = [3 / 4, 1 / 4] := by
    rw [case_layers p d hd hf hn d' g' h1] at h2
    have := congrArg (List.map val) h2
    rw [List.map_map, show (val ∘ fin : ℝ → ℝ) = id from rfl, List.map_id] at this
    exact this.symm
  rw [hv] at h5
  have h6 : H * H = 1 / 16 := by rw [h5]; simp [meanSqDev, mean]; norm_num
  have h7 : (H - 1 / 4) * (H + 1 / 4) = 0 := by ring_nf; nlinarith [h6]
  have h8 : H + 1 / 4 ≠ 0 := by positivity
  rcases mul_eq_zero.1 h7 with h | h
  · rw [show H = 1 / 4 by linarith]
  · exact absurd h h8

/-- Case for `C45_circulation_partial`: the particle that swings between 0 and 2 crosses the height 1 at 1, 2, 3, 4 and 5 s; one circulation is reported. -/
example (p : Profile) (kind : Kind) (st : Stats ℝ) (hst : st.dims 2 = (fin 0, fin 2)) : ∃ (d d' : Dm (Timestep ℝ)) (out : List (F ℝ)),
    Dm.new p kind swing 7 Timestep.default = .ok d ∧ circulationTime p d st Selector.default 2 (fin 1) = .ok (d', out) ∧
    ∃ T : List (ℕ × F ℝ), out = T.map (·.2) ∧ (ofLabel T 0).length = 1 := by
  obtain ⟨d, d0, e, hcross, _⟩ := C45_false p kind st hst
  obtain ⟨d1, e1, hinv, hf, hn, _⟩ := Dm.new_ok p kind swing 7 Timestep.default (by norm_num) (by norm_num)
  obtain rfl : d = d1 := by rw [e] at e1; cases e1; rfl
  obtain ⟨d', out, h1, T, h2, _, h3⟩ := C45_circulation_partial p d hinv st Selector.default usable_default
    (fun t _ => by rw [hf]; exact ⟨rfl, rfl, rfl, rfl, rfl, rfl⟩) 1 (fun t _ => by rw [hf]; rfl) (by omega) 2 (fin 1) (by
      rw [hst]
      rintro (h | h)
      · have := (F.lt_fin (2 : ℝ) 1).1 h; norm_num at this
      · have := (F.lt_fin (1 : ℝ) 0).1 h; norm_num at this) (fun t : ℕ => (t : ℝ)) (fun t _ => by rw [hf]; rfl) (fun t t' h _ => by exact_mod_cast h)
  refine ⟨d, d', out, e, h1, T, h2, ?_⟩
  rw [h3 0, hcross]
  rfl

/-- Case for `C46_intervals`: the same particle with the boundaries 1/2 and 3/2. -/
example (p : Profile) (kind : Kind) (st : Stats ℝ) (hst : st.dims 2 = (fin 0, fin 2)) : ∃ (d d' : Dm (Timestep ℝ)) (out : List (F ℝ × F ℝ)),
    Dm.new p kind swing 7 Timestep.default = .ok d ∧ circulationTwoBoundary p d st Selector.default 2 (fin (1 / 2)) (fin (3 / 2)) = .ok (d', out) ∧
    ∃ T : List (ℕ × (F ℝ × F ℝ)), out = T.map (·.2) ∧
      GoodLaps (fin (1 / 2)) (fin (3 / 2)) (moves Selector.default d 2 0) (ofLabel T 0) := by
  obtain ⟨d, e, hinv, hf, hn, _⟩ := Dm.new_ok p kind swing 7 Timestep.default (by norm_num) (by norm_num)
  have hb : ∀ b : ℝ, 0 ≤ b → b ≤ 2 → ¬ (fin b > (st.dims 2).2 ∨ fin b < (st.dims 2).1) := by
    intro b h0 h2
    rw [hst]
    rintro (h | h)
    · have := (F.lt_fin _ _).1 h; linarith
    · have := (F.lt_fin _ _).1 h; linarith
  obtain ⟨d', out, h1, T, h2, h3⟩ := C46_intervals p d hinv st Selector.default usable_default
    (fun t _ => by rw [hf]; exact ⟨rfl, rfl, rfl, rfl, rfl, rfl⟩) 1 (fun t _ => by rw [hf]; rfl) (by omega) 2 (fin (1 / 2)) (fin (3 / 2))
    (hb _ (by norm_num) (by norm_num)) (hb _ (by norm_num) (by norm_num)) (fun t : ℕ => (t : ℝ)) (fun t _ => by rw [hf]; rfl)
    (fun t t' h _ => by exact_mod_cast h)
  exact ⟨d, d', out, e, h1, T, h2, h3 0⟩

/-- Case for `C47_isometry`: the point (1, 0, 0) turned about (1, 2, 3) by the angles (1, 2, 3) keeps its distance to that point. -/
example : ∃ y : Fin 3 → ℝ, rotatePosition (fun i => fin ((![1, 0, 0] : Fin 3 → ℝ) i)) (fun i => fin ((![1, 2, 3] : Fin 3 → ℝ) i))
    (fun i => fin ((![1, 2, 3] : Fin 3 → ℝ) i)) = (fun i => fin (y i)) ∧ dist2 y ![1, 2, 3] = 13 := by
  obtain ⟨R, V, h1, _, _, h4, _⟩ := C47_isometry (K := ℝ) ![1, 2, 3] ![1, 2, 3]
  refine ⟨R ![1, 0, 0], h1 _, ?_⟩
  rw [h4]
  simp [dist2]
  norm_num

/-- Case for `C127_components`: the demo recording on the unit cube; the field of the z velocity is the z component of the vector field. -/
example (p : Profile) (kind : Kind) : ∃ d : Dm (Timestep ℝ), Dm.new p kind demoFile 4 Timestep.default = .ok d ∧
    ∃ d1 gn d2 gv d3 gw, numberfield p d unitGrid Selector.default = .ok (d1, gn) ∧
      velocityfield p d unitGrid Selector.default "z" (fin 0) (fin 9) = .ok (d2, gv) ∧ vectorfield p d unitGrid Selector.default = .ok (d3, gw) ∧
      gv.st.data.get (fun _ => 0) = (gw.comp 2).st.data.get (fun _ => 0) := by
  obtain ⟨d, e, hinv, hf, hn, hw, hs⟩ := demo_manager p kind 4 (by norm_num) (by norm_num)
  obtain ⟨d1, gn, d2, gv, d3, gw, h1, h2, h3, h4⟩ := C127_components p d hinv unitGrid (fillable_cart p _ unit_isCart) (fun _ => ⟨rfl, rfl⟩) rfl
    Selector.default usable_default hw (by rw [hs]; simp) 2 (fin 0) (fin 9) (by simp) (by simp) (by
      intro x hx _
      rw [hs] at hx
      obtain ⟨t, _, rfl⟩ := List.mem_map.1 hx
      rw [hf]
      change within (fin 0) (fin 9) (fin (4 : ℝ)) = true
      unfold within; simp; norm_num)
  exact ⟨d, e, d1, gn, d2, gv, d3, gw, h1, h2, h3, (h4 (fun _ => 0) (fun a => by simp [unitGrid, Grid.newCart, CartGeom.new, Geom.cells])).1⟩

/-- Case for `C127_histogram`: the demo recording, speeds 5, two bins over `[0, 10]`. -/
example (p : Profile) (kind : Kind) : ∃ d : Dm (Timestep ℝ), Dm.new p kind demoFile 4 Timestep.default = .ok d ∧
    ∃ d1 gn d2 h edges, numberfield p d unitGrid Selector.default = .ok (d1, gn) ∧
      histogram p d ⟨fun _ => (fin 0, fin 2), 1, [], ![fin 0, fin 5, fin 5]⟩ unitGrid Selector.default "velocity" (fin 10) 2 = .ok (d2, h, edges) ∧
      ∃ (count : CellId → ℕ) (bin : ℕ → ℕ), (∀ c, gn.st.data.get c = fin (count c : ℝ)) ∧ (∀ k, k < 2 → h.get ![k] = fin (bin k : ℝ)) ∧
        ∑ k ∈ Finset.range 2, bin k = ∑ c ∈ cellsOf (unitGrid (K := ℝ)).geom.cells, count c := by
  obtain ⟨d, e, hinv, hf, hn, hw, hs⟩ := demo_manager p kind 4 (by norm_num) (by norm_num)
  refine ⟨d, e, C127_histogram p d hinv _ unitGrid (fillable_cart p _ unit_isCart) Selector.default usable_default hw (by rw [hs]; simp) (fin 10) 2
    (by norm_num) (by norm_num) 0 10 rfl ?_ (by norm_num) (fun _ => 5) ?_ ?_⟩
  · unfold histMax
    rw [if_neg]
    rw [F.zero_def]; simp [F.eqB]
  · intro x hx _
    rw [hs] at hx
    obtain ⟨t, _, rfl⟩ := List.mem_map.1 hx
    rw [hf]
    obtain ⟨T, h1, h2, h3⟩ := sqrt_root (K := ℝ) (x := 3 * 3 + 0 * 0 + 4 * 4) (by norm_num)
    have : speedOf demoFile (t, 0) = fin T := by
      rw [← h1]
      change ((fin 3 * fin 3 + fin 0 * fin 0 + fin 4 * fin 4 : F ℝ)).sqrt = _
      rw [emul, emul, emul, eadd, eadd]
    rw [this]
    congr 1
    nlinarith
  · intro x _ _; constructor <;> norm_num

end Up4
