import Verif.Props.Consist
import Verif.Props.Showcase
import Verif.Props.MsdCurve
import Verif.Props.UsedGrid

set_option linter.unusedSectionVars false

/-! # C144: nothing is lost between the cells -/

namespace Up4
open F

variable {K : Type} [Field K] [LinearOrder K] [IsStrictOrderedRing K] [FloorRing K] [Arith K]

/-- A grid as a whole: the weights of its cells add up to `n`; weight times value, over the cells that have a weight, adds up to `T`. -/
def Grid.Totals (g : Grid K) (n T : K) : Prop :=
  ∃ w m : CellId → K, (∀ c, InB g.geom.cells c → g.st.weight.get c = fin (w c) ∧ (w c ≠ 0 → g.st.data.get c = fin (m c))) ∧
    ∑ c ∈ cellsOf g.geom.cells, w c = n ∧ ∑ c ∈ cellsOf g.geom.cells, w c * m c = T

/-- The totals of a grid are determined. -/
theorem Grid.Totals.unique {g : Grid K} {n T n' T' : K} (h : g.Totals n T) (h' : g.Totals n' T') : n = n' ∧ T = T' := by
  obtain ⟨w, m, a, rfl, rfl⟩ := h
  obtain ⟨w', m', a', rfl, rfl⟩ := h'
  have hw : ∀ c ∈ cellsOf g.geom.cells, w c = w' c := by
    intro c hc
    have := (a c ((mem_cellsOf _ _).1 hc)).1.symm.trans (a' c ((mem_cellsOf _ _).1 hc)).1
    injection this
  refine ⟨Finset.sum_congr rfl hw, Finset.sum_congr rfl fun c hc => ?_⟩
  rw [← hw c hc]
  by_cases h0 : w c = 0
  · rw [h0, zero_mul, zero_mul]
  · have h0' : w' c ≠ 0 := by rw [← hw c hc]; exact h0
    have := ((a c ((mem_cellsOf _ _).1 hc)).2 h0).symm.trans ((a' c ((mem_cellsOf _ _).1 hc)).2 h0')
    injection this with this
    rw [this]

/-- A grid whose cells hold the number and the mean of the values of the samples in them has the totals of all samples inside. -/
theorem totals_of_means {α : Type} (p : Profile) {g' : Grid K} {geom : Geom K} (hgeo : g'.geom = geom) (hg : geom.Sound p) (L : List α) (pos : α → Pos K) (f : α → K)
    (h : ∀ c, InB geom.cells c → let S := L.filter fun x => inCell p geom (pos x) c
      g'.st.weight.get c = fin (S.length : K) ∧ (S ≠ [] → g'.st.data.get c = fin ((S.map f).sum / S.length))) :
    g'.Totals ((L.filter fun x => geom.isInside (pos x)).length : K) ((L.filter fun x => geom.isInside (pos x)).map f).sum := by
  rw [Grid.Totals, hgeo]
  refine ⟨fun c => ((L.filter fun x => inCell p geom (pos x) c).length : K),
    fun c => ((L.filter fun x => inCell p geom (pos x) c).map f).sum / (L.filter fun x => inCell p geom (pos x) c).length, fun c hc => ?_, ?_, ?_⟩
  · obtain ⟨h1, h2⟩ := h c hc
    refine ⟨h1, fun h0 => h2 fun e => h0 ?_⟩
    simp only [e, List.length_nil, Nat.cast_zero]
  · rw [← Nat.cast_sum, sum_inCell p geom hg L pos]
  · rw [← sum_inCell_map p geom hg L pos f]
    refine Finset.sum_congr rfl fun c _ => ?_
    beta_reduce
    by_cases h0 : ((L.filter fun x => inCell p geom (pos x) c).length : K) = 0
    · rw [h0, zero_mul]
      have : (L.filter fun x => inCell p geom (pos x) c) = [] := List.length_eq_zero_iff.1 (by exact_mod_cast h0)
      rw [this]; rfl
    · rw [mul_div_cancel₀ _ h0]

/-- The samples `velocityfield` takes: inside the grid, with the value within the limits. -/
def taken (d : Dm (Timestep K)) (sel : Selector K) (geom : Geom K) (vcal : (Fin 3 → F K) → F K) (lo hi : K) : List (ℕ × ℕ) :=
  ((d.samples sel).filter fun x => within (fin lo) (fin hi) (vcal (velOf d.file x))).filter fun x => geom.isInside (posOf d.file x)

/-- **C144, velocityfield.** In exact arithmetic the cells of `velocityfield`, weighted, add up to all the samples taken, whatever the grid and its cells. -/
theorem C144_velocity [LawfulArith K] [ExactArith K] (p : Profile) (d : Dm (Timestep K)) (hd : d.Inv) (grid : Grid K)
    (hg : grid.Fillable p) (hfresh : ∀ c, grid.st.weight.get c = 0) (sel : Selector K) (hs : sel.Usable) (hw : ∀ t, t < d.n → (d.file t).Wf)
    (hlen : (d.samples sel).length ≤ 2 ^ 53) (mode : String) (vcal : (Fin 3 → F K) → F K) (hm : velMode mode = .ok vcal) (lo hi : K)
    (u : ℕ × ℕ → K) (hu : ∀ x ∈ taken d sel grid.geom vcal lo hi, vcal (velOf d.file x) = fin (u x)) :
    ∃ d' g', velocityfield p d grid sel mode (fin lo) (fin hi) = .ok (d', g') ∧
      g'.Totals ((taken d sel grid.geom vcal lo hi).length : K) ((taken d sel grid.geom vcal lo hi).map u).sum := by
  obtain ⟨d', g', h1, _, _, _, h5, h6⟩ := C35_velocityfield p d hd grid hg hfresh sel hs hw hlen mode vcal hm (fin lo) (fin hi) (by simp) (by simp)
  refine ⟨d', g', h1, totals_of_means p h5 hg.2 _ (posOf d.file) u fun c hc => ?_⟩
  obtain ⟨k1, k2, _⟩ := h6 c hc
  intro S
  have hS : ((d.samples sel).filter fun x => inCell p grid.geom (posOf d.file x) c && within (fin lo) (fin hi) (vcal (velOf d.file x))) = S :=
    (List.filter_filter ..).symm
  rw [hS] at k1 k2
  rw [List.length_map] at k1 k2
  refine ⟨k1, fun hne => ?_⟩
  have hpos : (S.length : K) ≠ 0 := by exact_mod_cast (List.length_pos_iff.2 hne).ne'
  have e : S.map (fun x => vcal (velOf d.file x)) = (S.map u).map fin := by
    rw [List.map_map]
    refine List.map_congr_left fun x hx => hu x ?_
    obtain ⟨h1, h2⟩ := List.mem_filter.1 hx
    refine List.mem_filter.2 ⟨h1, ?_⟩
    unfold inCell at h2
    simp only [Bool.and_eq_true] at h2
    exact h2.1
  rw [k2, e, sum_fin, F.ediv _ hpos]

/-- **C144, vectorfield.** So do the three components of `vectorfield` (Cartesian grids). -/
theorem C144_vector [LawfulArith K] [ExactArith K] (p : Profile) (d : Dm (Timestep K)) (hd : d.Inv) (grid : Grid K)
    (hg : grid.Fillable p) (hfresh : ∀ c, grid.st.weight.get c = 0 ∧ grid.st.data.get c = 0) (hcart : grid.geom.isCylindrical = false)
    (sel : Selector K) (hs : sel.Usable) (hw : ∀ t, t < d.n → (d.file t).Wf) (hlen : (d.samples sel).length ≤ 2 ^ 53) (v : ℕ × ℕ → Fin 3 → K)
    (hv : ∀ x ∈ d.samples sel, ∀ a, velOf d.file x a = F.fin (v x a)) :
    ∃ d' g', vectorfield p d grid sel = .ok (d', g') ∧ ∀ a,
      let S := (d.samples sel).filter fun x => grid.isInside (posOf d.file x)
      (g'.comp a).Totals (S.length : K) (S.map fun x => v x a).sum := by
  obtain ⟨d', g', h1, _, _, _, h5⟩ := C36_vectorfield p d hd grid hg hfresh sel hs hw hlen
  refine ⟨d', g', h1, fun a => ?_⟩
  refine totals_of_means p (h5 a).1 hg.2 _ (posOf d.file) (fun x => v x a) fun c hc => ?_
  obtain ⟨k1, k2, _, k4⟩ := (h5 a).2 c hc
  intro S
  refine ⟨k1, fun hne => ?_⟩
  have hpos : (S.length : K) ≠ 0 := by exact_mod_cast (List.length_pos_iff.2 hne).ne'
  have e : (S.map fun x => (VecGrid.new grid).velocityCalculation (posOf d.file x) (velOf d.file x) a) = (S.map fun x => v x a).map fin := by
    rw [List.map_map]
    exact List.map_congr_left fun x hx => (k4 hcart x).trans (hv x (List.mem_of_mem_filter hx) a)
  rw [k2, e, sum_fin, F.ediv _ hpos]

/-- **C144, any grid.** Two grids that hold the same samples (Cartesian or cylindrical, whatever their cells) have the same totals. -/
theorem C144_grids [LawfulArith K] [ExactArith K] (p : Profile) (d : Dm (Timestep K)) (hd : d.Inv) (g₁ g₂ : Grid K)
    (hg₁ : g₁.Fillable p) (hg₂ : g₂.Fillable p) (hf₁ : ∀ c, g₁.st.weight.get c = 0) (hf₂ : ∀ c, g₂.st.weight.get c = 0)
    (sel : Selector K) (hs : sel.Usable) (hw : ∀ t, t < d.n → (d.file t).Wf) (hlen : (d.samples sel).length ≤ 2 ^ 53)
    (hin : ∀ x ∈ d.samples sel, g₁.isInside (posOf d.file x) = g₂.isInside (posOf d.file x))
    (mode : String) (vcal : (Fin 3 → F K) → F K) (hm : velMode mode = .ok vcal) (lo hi : K) :
    ∃ d₁ r₁ d₂ r₂ n T, velocityfield p d g₁ sel mode (fin lo) (fin hi) = .ok (d₁, r₁) ∧ velocityfield p d g₂ sel mode (fin lo) (fin hi) = .ok (d₂, r₂) ∧
      r₁.Totals n T ∧ r₂.Totals n T := by
  have he : taken d sel g₁.geom vcal lo hi = taken d sel g₂.geom vcal lo hi :=
    List.filter_congr fun x hx => hin x (List.mem_of_mem_filter hx)
  have hu : ∀ x : ℕ × ℕ, ∃ u : K, x ∈ taken d sel g₁.geom vcal lo hi → vcal (velOf d.file x) = fin u := by
    intro x
    by_cases hx : within (fin lo) (fin hi) (vcal (velOf d.file x)) = true
    · obtain ⟨u, h, _⟩ := within_fin hx
      exact ⟨u, fun _ => h⟩
    · exact ⟨0, fun h => absurd (List.mem_filter.1 (List.mem_of_mem_filter h)).2 hx⟩
  choose u hu using hu
  obtain ⟨d₁, r₁, e₁, t₁⟩ := C144_velocity p d hd g₁ hg₁ hf₁ sel hs hw hlen mode vcal hm lo hi u hu
  obtain ⟨d₂, r₂, e₂, t₂⟩ := C144_velocity p d hd g₂ hg₂ hf₂ sel hs hw hlen mode vcal hm lo hi u (fun x hx => hu x (by rw [he]; exact hx))
  exact ⟨d₁, r₁, d₂, r₂, _, _, e₁, e₂, t₁, by rw [he]; exact t₂⟩

/-- **C144, mean_velocity_showcase.** If the grid holds all particles of the window and the limits exclude no speed, the weighted mean of the cells of
`velocityfield` is what `mean_velocity_showcase` returns. -/
theorem C144_showcase [LawfulArith K] [ExactArith K] (p : Profile) (d : Dm (Timestep K)) (hd : d.Inv) (grid : Grid K)
    (hg : grid.Fillable p) (hfresh : ∀ c, grid.st.weight.get c = 0) (a b : F K)
    (hw : ∀ t, t < d.n → (d.file t).Wf) (hlen : (d.samples (Selector.default.setTime a b)).length ≤ 2 ^ 53)
    (hne : d.samples (Selector.default.setTime a b) ≠ [])
    (hin : ∀ x ∈ d.samples (Selector.default.setTime a b), grid.isInside (posOf d.file x) = true) (v : ℕ × ℕ → Fin 3 → K)
    (hv : ∀ x ∈ d.samples (Selector.default.setTime a b), ∀ i, velOf d.file x i = fin (v x i)) (hi : K) (hi0 : 0 ≤ hi)
    (hhi : ∀ x ∈ d.samples (Selector.default.setTime a b), v x 0 ^ 2 + v x 1 ^ 2 + v x 2 ^ 2 ≤ hi ^ 2) :
    ∃ d₁ r d₂ n T, velocityfield p d grid (Selector.default.setTime a b) "absolute" (fin 0) (fin hi) = .ok (d₁, r) ∧ r.Totals n T ∧ n ≠ 0 ∧
      meanVelocityShowcase p d (Selector.default.setTime a b) = .ok (d₂, fin (T / n)) := by
  set sel := (Selector.default.setTime a b : Selector K) with hsel
  have hus : sel.Usable := usable_default (K := K)
  have hsp : ∀ x : ℕ × ℕ, ∃ s : K, (0 ≤ s ∧ s * s = v x 0 * v x 0 + v x 1 * v x 1 + v x 2 * v x 2) ∧
      (x ∈ d.samples sel → (F.sq (velOf d.file x 0) + F.sq (velOf d.file x 1) + F.sq (velOf d.file x 2)).sqrt = fin s) := by
    intro x
    obtain ⟨T, e1, e2, e3⟩ := sqrt_root (K := K) (x := v x 0 * v x 0 + v x 1 * v x 1 + v x 2 * v x 2)
      (by nlinarith [mul_self_nonneg (v x 0), mul_self_nonneg (v x 1), mul_self_nonneg (v x 2)])
    refine ⟨T, ⟨e2, e3⟩, fun hx => ?_⟩
    unfold F.sq
    rw [hv x hx, hv x hx, hv x hx, F.emul, F.emul, F.emul, F.eadd, F.eadd, e1]
  choose s hs hs' using hsp
  have hev : d.everyone sel = d.samples sel := C107_everyone d hw a b
  have htk : taken d sel grid.geom (fun v => (F.sq (v 0) + F.sq (v 1) + F.sq (v 2)).sqrt) 0 hi = d.samples sel := by
    unfold taken
    rw [List.filter_eq_self.2, List.filter_eq_self.2]
    · intro x hx
      beta_reduce
      rw [hs' x hx]
      unfold within
      rw [decide_eq_true_eq, F.le_fin, F.le_fin]
      refine ⟨(hs x).1, ?_⟩
      apply (abs_le_of_sq_le_sq' _ hi0).2
      have := hhi x hx
      have := (hs x).2
      nlinarith
    · intro x hx
      exact hin x (List.mem_of_mem_filter hx)
  obtain ⟨d₁, r, e1, t1⟩ := C144_velocity p d hd grid hg hfresh sel hus hw hlen "absolute" _ rfl 0 hi s (fun x hx => hs' x (by rw [htk] at hx; exact hx))
  rw [htk] at t1
  have hcomp : (d.samples sel).filter (fun x => complete (velOf d.file x)) = d.samples sel := by
    apply List.filter_eq_self.2
    intro x hx
    unfold complete
    rw [hv x hx, hv x hx, hv x hx]; rfl
  obtain ⟨d₂, q, e2, _, h2⟩ := C107_exact_partial p d hd sel (by rw [hev]; exact hlen) v (fun x hx _ => hv x (by rw [hev] at hx; exact hx)) s hs
  rw [hev, hcomp] at h2
  refine ⟨d₁, r, d₂, _, _, e1, t1, ?_, ?_⟩
  · exact_mod_cast (List.length_pos_iff.2 hne).ne'
  · rw [e2, h2 hne]; rfl

/-- **C144, kinetic energy.** In exact arithmetic, with `V` the mean velocity (`vectorfield`) and `T` the granular temperature of a visited cell: the
squares `|V|² + 3 T²`, weighted with the counts, add up to the squares of all velocities of the samples inside the grid. -/
theorem C144_energy [LawfulArith K] [ExactArith K] (p : Profile) (d : Dm (Timestep K)) (hd : d.Inv) (grid : Grid K)
    (hg : grid.Fillable p) (hfresh : ∀ c, grid.st.weight.get c = 0 ∧ grid.st.data.get c = 0) (hcart : grid.geom.isCylindrical = false)
    (sel : Selector K) (hs : sel.Usable) (hw : ∀ t, t < d.n → (d.file t).Wf) (hlen : (d.samples sel).length ≤ 2 ^ 53)
    (v : ℕ × ℕ → Fin 3 → K) (hv : ∀ x ∈ d.samples sel, ∀ a, velOf d.file x a = F.fin (v x a)) :
    ∃ d1 gn d2 gw d3 gt, numberfield p d grid sel = .ok (d1, gn) ∧ vectorfield p d grid sel = .ok (d2, gw) ∧
      granularTemperature p d grid sel "xyz" = .ok (d3, gt) ∧
      ∃ (n : CellId → ℕ) (V : CellId → Fin 3 → K) (T : CellId → K),
        (∀ c, InB grid.geom.cells c → gn.st.data.get c = fin (n c : K) ∧
          (n c ≠ 0 → (∀ a, (gw.comp a).st.data.get c = fin (V c a)) ∧ gt.st.data.get c = fin (T c))) ∧
        ∑ c ∈ cellsOf grid.geom.cells, (n c : K) * (V c 0 ^ 2 + V c 1 ^ 2 + V c 2 ^ 2 + 3 * T c ^ 2) =
          (((d.samples sel).filter fun x => grid.isInside (posOf d.file x)).map fun x => v x 0 ^ 2 + v x 1 ^ 2 + v x 2 ^ 2).sum := by
  obtain ⟨d1, gn, n1, _, _, _, _, _, n2, _⟩ := C34_numberfield p d hd grid hg sel hs hw hlen
  obtain ⟨d3, gw, w1, w2⟩ := C36_mean p d hd grid hg hfresh hcart sel hs hw hlen v hv
  obtain ⟨d4, gt, t1, _, _, _, _, t2⟩ := C40_granular p d hd grid hg (fun c => (hfresh c).2) sel hs hw v (fun x hx _ => hv x hx) "xyz" (by simp)
  have hT : ∀ c : CellId, ∃ T : K, InB grid.geom.cells c → ((d.samples sel).filter fun x => inCell p grid.geom (posOf d.file x) c) ≠ [] →
      gt.st.data.get c = fin T ∧ T * T = fluctuation "xyz" fun a => ((d.samples sel).filter fun x => inCell p grid.geom (posOf d.file x) c).map fun x => v x a := by
    intro c
    by_cases hc : InB grid.geom.cells c
    · by_cases hne : ((d.samples sel).filter fun x => inCell p grid.geom (posOf d.file x) c) ≠ []
      · obtain ⟨T, h1, _, h3⟩ := (t2 c hc).2.2 hne
        exact ⟨T, fun _ _ => ⟨h1, h3⟩⟩
      · exact ⟨0, fun _ h => absurd h hne⟩
    · exact ⟨0, fun h => absurd h hc⟩
  choose T hT using hT
  refine ⟨d1, gn, d3, gw, d4, gt, n1, w1, t1, fun c => ((d.samples sel).filter fun x => inCell p grid.geom (posOf d.file x) c).length,
    fun c a => (((d.samples sel).filter fun x => inCell p grid.geom (posOf d.file x) c).map fun x => v x a).sum /
      (((d.samples sel).filter fun x => inCell p grid.geom (posOf d.file x) c).length : K), T, fun c hc => ⟨?_, fun h0 => ?_⟩, ?_⟩
  · rw [n2 c, List.countP_eq_length_filter]
  · have hne : ((d.samples sel).filter fun x => inCell p grid.geom (posOf d.file x) c) ≠ [] := fun e => h0 (by simp only [e, List.length_nil])
    exact ⟨fun a => (w2 a c hc).2 hne, (hT c hc hne).1⟩
  · have hsum := sum_inCell_map p grid.geom hg.2 (d.samples sel) (posOf d.file) fun x => v x 0 ^ 2 + v x 1 ^ 2 + v x 2 ^ 2
    refine Eq.trans (Finset.sum_congr rfl fun c hc => ?_) hsum
    beta_reduce
    set S := (d.samples sel).filter fun x => inCell p grid.geom (posOf d.file x) c with hSdef
    by_cases hSne : S = []
    · rw [hSne]; simp
    have hN : (S.length : K) ≠ 0 := by exact_mod_cast (List.length_pos_iff.2 hSne).ne'
    have hvar : ∀ a, meanSqDev (S.map fun x => v x a) =
        (S.map fun x => v x a * v x a).sum / S.length - ((S.map fun x => v x a).sum / S.length) ^ 2 := by
      intro a
      have := var_identity (S.map fun x => v x a) (by simpa using hSne)
      rw [List.map_map, List.length_map] at this
      rw [← this, div_pow, pow_two, pow_two, div_div]
      rfl
    have h3 : 3 * T c ^ 2 = meanSqDev (S.map fun x => v x 0) + meanSqDev (S.map fun x => v x 1) + meanSqDev (S.map fun x => v x 2) := by
      have hT : T c * T c = (meanSqDev (S.map fun x => v x 0) + meanSqDev (S.map fun x => v x 1) + meanSqDev (S.map fun x => v x 2)) / 3 :=
        (hT c ((mem_cellsOf _ _).1 hc) hSne).2
      rw [pow_two, hT]; ring
    rw [h3, hvar 0, hvar 1, hvar 2]
    have hss : (S.map fun x => v x 0 ^ 2 + v x 1 ^ 2 + v x 2 ^ 2).sum =
        (S.map fun x => v x 0 * v x 0).sum + (S.map fun x => v x 1 * v x 1).sum + (S.map fun x => v x 2 * v x 2).sum := by
      rw [← List.sum_map_add, ← List.sum_map_add]
      congr 1
      exact List.map_congr_left fun x _ => by ring
    rw [hss]
    field_simp
    ring

/-- The demo dataset of three timesteps, and a grid of `k³` cells around it. -/
theorem demo_inside (k : ℕ) (x : ℕ × ℕ) (hx : x ∈ (List.range 3).map fun t => (t, 0)) :
    (Grid.newCart (fun _ => k) (finLimits (fun _ => (0 : ℝ)) (fun _ => 1))).isInside (posOf demoFile x) = true := by
  obtain ⟨t, ht, rfl⟩ := List.mem_map.1 hx
  have ht : (t : ℝ) ≤ 2 := by exact_mod_cast Nat.lt_succ_iff.1 (List.mem_range.1 ht)
  have h0 : (0 : ℝ) ≤ t := Nat.cast_nonneg t
  change CartGeom.isInside (CartGeom.new (fun _ => k) (finLimits (fun _ => (0 : ℝ)) (fun _ => 1))) (posOf demoFile (t, 0)) = true
  refine (CartGeom.isInside_iff (CartGeom.new (fun _ => k) (finLimits (fun _ => (0 : ℝ)) (fun _ => 1))) _).2 (fun a => ?_)
  have : posOf demoFile (t, 0) a = fin ((t : ℝ) / 2) := rfl
  rw [this]
  simp only [CartGeom.new, finLimits, F.le_fin]
  exact ⟨by simp, by linarith, by linarith⟩

/-- Case for `C144_velocity`, `C144_grids`, `C144_showcase`, `C144_vector` and `C144_energy`: three samples with velocity (3, 0, 4), in grids of one and of eight cells. -/
example (p : Profile) (kind : Kind) (k : ℕ) (hk : 1 ≤ k ∧ k ≤ 2 ^ 53) : ∃ d : Dm (Timestep ℝ), Dm.new p kind demoFile 3 Timestep.default = .ok d ∧
    let grid : Grid ℝ := Grid.newCart (fun _ => k) (finLimits (fun _ => (0 : ℝ)) (fun _ => 1))
    let sel : Selector ℝ := Selector.default.setTime (fin 0) (fin 5)
    (∃ d' g', velocityfield p d grid sel "absolute" (fin 0) (fin 10) = .ok (d', g') ∧ g'.Totals 3 15) ∧
    (∃ d' g', vectorfield p d grid sel = .ok (d', g') ∧ (g'.comp 0).Totals 3 9) ∧
    (∃ d₁ r d₂ n T, velocityfield p d grid sel "absolute" (fin 0) (fin 10) = .ok (d₁, r) ∧ r.Totals n T ∧ n ≠ 0 ∧ meanVelocityShowcase p d sel = .ok (d₂, fin (T / n))) ∧
    (∃ d₁ r₁ d₂ r₂ n T, velocityfield p d grid sel "x" (fin 0) (fin 10) = .ok (d₁, r₁) ∧ velocityfield p d unitGrid sel "x" (fin 0) (fin 10) = .ok (d₂, r₂) ∧
      r₁.Totals n T ∧ r₂.Totals n T) ∧
    (∃ d1 gn d2 gw d3 gt, numberfield p d grid sel = .ok (d1, gn) ∧ vectorfield p d grid sel = .ok (d2, gw) ∧ granularTemperature p d grid sel "xyz" = .ok (d3, gt) ∧
      ∃ (n : CellId → ℕ) (V : CellId → Fin 3 → ℝ) (T : CellId → ℝ),
        ∑ c ∈ cellsOf grid.geom.cells, (n c : ℝ) * (V c 0 ^ 2 + V c 1 ^ 2 + V c 2 ^ 2 + 3 * T c ^ 2) = 75) := by
  obtain ⟨d, e, hinv, hf, hn, _⟩ := Dm.new_ok p kind demoFile 3 Timestep.default (by norm_num) (by norm_num)
  refine ⟨d, e, ?_⟩
  intro grid sel
  have hcart : IsCart grid := isCart_new _ _ fun _ => hk
  have hg := fillable_cart p _ hcart
  have hus : sel.Usable := usable_default (K := ℝ)
  have hw : ∀ t, t < d.n → (d.file t).Wf := fun t _ => by rw [hf]; exact demoFile_wf t
  have hsam : d.samples sel = (List.range 3).map fun t => (t, 0) := by
    have hval : ∀ t : ℕ, sel.timestepValid (demoFile t).time = decide (t ≤ 5) := by
      intro t
      change (decide (fin (t : ℝ) ≥ fin 0) && decide (fin (t : ℝ) ≤ fin 5)) = _
      simp only [ge_iff_le, F.le_fin, Nat.cast_nonneg, decide_true, Bool.true_and]
      rw [decide_eq_decide]; norm_cast
    have hch : ∀ ts : Timestep ℝ, ts.chosen sel = fun _ => true := fun ts => funext fun i => chosen_default ts i
    unfold Dm.samples samples Timestep.picks
    rw [hf, hn]
    simp only [hval, hch]
    simp [List.range_succ, demoFile]
  have hlen : (d.samples sel).length ≤ 2 ^ 53 := by rw [hsam]; norm_num
  have hv : ∀ x ∈ d.samples sel, ∀ a, velOf d.file x a = fin ((![3, 0, 4] : Fin 3 → ℝ) a) := by
    intro x hx a
    rw [hsam] at hx
    obtain ⟨t, _, rfl⟩ := List.mem_map.1 hx
    rw [hf]
    fin_cases a <;> rfl
  have hin : ∀ (j : ℕ), ∀ x ∈ d.samples sel, (Grid.newCart (fun _ => j) (finLimits (fun _ => (0 : ℝ)) (fun _ => 1))).isInside (posOf d.file x) = true := by
    intro j x hx
    rw [hsam] at hx
    rw [hf]
    exact demo_inside j x hx
  have hshow := C144_showcase p d hinv grid hg (fun _ => rfl) (fin 0) (fin 5) hw hlen (by change d.samples sel ≠ []; rw [hsam]; simp [List.range_succ])
    (hin k) (fun _ => ![3, 0, 4]) hv 10 (by norm_num) (fun x _ => by simp only [Matrix.cons_val_zero, Matrix.cons_val_one, Matrix.cons_val]; norm_num)
  refine ⟨?_, ?_, hshow, ?_, ?_⟩
  · have hsq : ∀ x ∈ d.samples sel, (F.sq (velOf d.file x 0) + F.sq (velOf d.file x 1) + F.sq (velOf d.file x 2)).sqrt = fin 5 := by
      intro x hx
      rw [hv x hx, hv x hx, hv x hx]
      simp only [F.sq, Matrix.cons_val_zero, Matrix.cons_val_one, Matrix.cons_val, F.emul, F.eadd]
      have : (3 * 3 + 0 * 0 + 4 * 4 : ℝ) = 5 * 5 := by norm_num
      rw [this]
      obtain ⟨T, e1, e2, e3⟩ := sqrt_root (K := ℝ) (x := 5 * 5) (by norm_num)
      rw [e1]
      have : T = 5 := by nlinarith
      rw [this]
    have htk : taken d sel grid.geom (fun v => (F.sq (v 0) + F.sq (v 1) + F.sq (v 2)).sqrt) 0 10 = d.samples sel := by
      unfold taken
      rw [List.filter_eq_self.2, List.filter_eq_self.2]
      · intro x hx
        beta_reduce
        rw [hsq x hx]
        unfold within
        rw [decide_eq_true_eq, F.le_fin, F.le_fin]
        norm_num
      · exact fun x hx => hin k x (List.mem_of_mem_filter hx)
    obtain ⟨d', g', e1, t1⟩ := C144_velocity p d hinv grid hg (fun _ => rfl) sel hus hw hlen "absolute" _ rfl 0 10 (fun _ => 5)
      (fun x hx => hsq x (by rw [htk] at hx; exact hx))
    refine ⟨d', g', e1, ?_⟩
    rw [htk, hsam] at t1
    simp only [List.map_const', List.sum_replicate, List.length_map, List.length_range] at t1
    norm_num at t1
    exact t1
  · obtain ⟨d', g', e1, t1⟩ := C144_vector p d hinv grid hg (fun _ => ⟨rfl, rfl⟩) rfl sel hus hw hlen (fun _ => ![3, 0, 4]) hv
    refine ⟨d', g', e1, ?_⟩
    have := t1 0
    dsimp only at this
    rw [List.filter_eq_self.2 (hin k), hsam] at this
    simp only [List.map_const', List.sum_replicate, List.length_map, List.length_range] at this
    norm_num at this
    exact this
  · exact C144_grids p d hinv grid unitGrid hg (fillable_cart p _ unit_isCart) (fun _ => rfl) (fun _ => rfl) sel hus hw hlen
      (fun x hx => by rw [hin k x hx]; exact (hin 1 x hx).symm) "x" _ rfl 0 10
  · obtain ⟨d1, gn, d2, gw, d3, gt, e1, e2, e3, n, V, T, _, h⟩ := C144_energy p d hinv grid hg (fun _ => ⟨rfl, rfl⟩) rfl sel hus hw hlen (fun _ => ![3, 0, 4]) hv
    refine ⟨d1, gn, d2, gw, d3, gt, e1, e2, e3, n, V, T, ?_⟩
    rw [h, List.filter_eq_self.2 (hin k), hsam]
    simp only [List.map_const', List.sum_replicate, List.length_map, List.length_range, Matrix.cons_val_zero, Matrix.cons_val_one, Matrix.cons_val]
    norm_num

end Up4
