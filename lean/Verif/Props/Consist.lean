import Verif.Props.Fields
import Verif.Props.Granular
import Verif.Props.Histogram
import Verif.Props.Accuracy

/-!
C127: "the analyses agree with each other": counts are the weights of the means, the fields of the single components are the
components of the vector field, mean speed, mean velocity and granular temperature of a cell obey the relations of mechanics, and
the bins of the histogram add up to the number of particles in the grid.
-/

set_option linter.unusedSectionVars false

namespace Up4

open F

variable {K : Type} [Field K] [LinearOrder K] [IsStrictOrderedRing K] [FloorRing K] [Arith K]

/-- The name of the mode of `velocityfield` and `granular_temperature` for a component. -/
def axisMode (a : Fin 3) : String := ![ "x", "y", "z"] a

theorem axisMode_mode (a : Fin 3) : velMode (K := K) (axisMode a) = .ok fun v => v a := by
  fin_cases a <;> rfl

/-- **C127, components.** In any lawful arithmetic, on a fresh Cartesian grid, if the velocity limits exclude no velocity in the grid:
`velocityfield` in the mode of a component is that component of `vectorfield`, and the weights of both are the counts of
`numberfield`, in every cell. -/
theorem C127_components [LawfulArith K] (p : Profile) (d : Dm (Timestep K)) (hd : d.Inv) (grid : Grid K)
    (hg : grid.Fillable p) (hfresh : ∀ c, grid.st.weight.get c = 0 ∧ grid.st.data.get c = 0) (hcart : grid.geom.isCylindrical = false)
    (sel : Selector K) (hs : sel.Usable) (hw : ∀ t, t < d.n → (d.file t).Wf) (hlen : (d.samples sel).length ≤ 2 ^ 53)
    (a : Fin 3) (lo hi : F K) (hlo : lo ≠ F.nan) (hhi : hi ≠ F.nan)
    (hin : ∀ x ∈ d.samples sel, grid.isInside (posOf d.file x) = true → within lo hi (velOf d.file x a) = true) :
    ∃ d1 gn d2 gv d3 gw, numberfield p d grid sel = .ok (d1, gn) ∧ velocityfield p d grid sel (axisMode a) lo hi = .ok (d2, gv) ∧
      vectorfield p d grid sel = .ok (d3, gw) ∧
      ∀ c, InB grid.geom.cells c →
        gv.st.data.get c = (gw.comp a).st.data.get c ∧
        gv.st.weight.get c = gn.st.data.get c ∧ (gw.comp a).st.weight.get c = gn.st.data.get c := by
  obtain ⟨d1, gn, n1, _, _, _, _, _, n2, _⟩ := C34_numberfield p d hd grid hg sel hs hw hlen
  obtain ⟨d2, gv, v1, _, _, _, _, v2⟩ := C35_velocityfield p d hd grid hg (fun c => (hfresh c).1) sel hs hw hlen (axisMode a) _
    (axisMode_mode a) lo hi hlo hhi
  obtain ⟨d3, gw, w1, _, _, _, w2⟩ := C36_vectorfield p d hd grid hg hfresh sel hs hw hlen
  refine ⟨d1, gn, d2, gv, d3, gw, n1, v1, w1, fun c hc => ?_⟩
  obtain ⟨k1, k2, _⟩ := v2 c hc
  obtain ⟨j1, j2, _, j4⟩ := (w2 a).2 c hc
  have hS : ((d.samples sel).filter fun x => inCell p grid.geom (posOf d.file x) c && within lo hi (velOf d.file x a)) =
      (d.samples sel).filter fun x => inCell p grid.geom (posOf d.file x) c := by
    apply List.filter_congr
    intro x hx
    by_cases h : inCell p grid.geom (posOf d.file x) c = true
    · rw [h, Bool.true_and]
      unfold inCell at h
      rw [Bool.and_eq_true] at h
      exact hin x hx h.1
    · rw [Bool.not_eq_true] at h
      rw [h, Bool.false_and]
  have hcnt : (((d.samples sel).filter fun x => inCell p grid.geom (posOf d.file x) c).length : K) =
      (((d.samples sel).countP fun x => inCell p grid.geom (posOf d.file x) c : ℕ) : K) := by
    rw [List.countP_eq_length_filter]
  rw [hS, List.length_map] at k1 k2
  have hmap : ((d.samples sel).filter fun x => inCell p grid.geom (posOf d.file x) c).map (fun x => velOf d.file x a) =
      ((d.samples sel).filter fun x => inCell p grid.geom (posOf d.file x) c).map fun x =>
        (VecGrid.new grid).velocityCalculation (posOf d.file x) (velOf d.file x) a :=
    List.map_congr_left fun x _ => (j4 hcart x).symm
  refine ⟨?_, ?_, ?_⟩
  · rw [k2, j2, hmap]
  · rw [k1, n2 c, hcnt]
  · rw [j1, n2 c, hcnt]

/-! ### Speed, velocity and granular temperature -/

theorem triangle {α : Type} (S : List α) (v : α → Fin 3 → K) (s : α → K) (h0 : ∀ x ∈ S, 0 ≤ s x)
    (h : ∀ x ∈ S, s x * s x = v x 0 * v x 0 + v x 1 * v x 1 + v x 2 * v x 2) :
    0 ≤ (S.map s).sum ∧ (S.map fun x => v x 0).sum ^ 2 + (S.map fun x => v x 1).sum ^ 2 + (S.map fun x => v x 2).sum ^ 2 ≤ (S.map s).sum ^ 2 := by
  induction S with
  | nil => simp
  | cons x S ih =>
    obtain ⟨i1, i2⟩ := ih (fun y hy => h0 y (by simp [hy])) (fun y hy => h y (by simp [hy]))
    have hx0 := h0 x (by simp)
    have hx := h x (by simp)
    simp only [List.map_cons, List.sum_cons]
    generalize (S.map s).sum = A at *
    generalize (S.map fun x => v x 0).sum = V0 at *
    generalize (S.map fun x => v x 1).sum = V1 at *
    generalize (S.map fun x => v x 2).sum = V2 at *
    generalize s x = b at *
    generalize v x 0 = u0 at *
    generalize v x 1 = u1 at *
    generalize v x 2 = u2 at *
    refine ⟨by linarith, ?_⟩
    have hcs : (V0 * u0 + V1 * u1 + V2 * u2) ^ 2 ≤ (A * b) ^ 2 := by
      have e : (V0 ^ 2 + V1 ^ 2 + V2 ^ 2) * (u0 * u0 + u1 * u1 + u2 * u2) - (V0 * u0 + V1 * u1 + V2 * u2) ^ 2 =
        (V0 * u1 - V1 * u0) ^ 2 + (V0 * u2 - V2 * u0) ^ 2 + (V1 * u2 - V2 * u1) ^ 2 := by ring
      have e2 : (A * b) ^ 2 = A ^ 2 * (u0 * u0 + u1 * u1 + u2 * u2) := by rw [← hx]; ring
      have e3 : (V0 ^ 2 + V1 ^ 2 + V2 ^ 2) * (u0 * u0 + u1 * u1 + u2 * u2) ≤ A ^ 2 * (u0 * u0 + u1 * u1 + u2 * u2) :=
        mul_le_mul_of_nonneg_right i2 (by rw [← hx]; exact mul_self_nonneg b)
      have := sq_nonneg (V0 * u1 - V1 * u0)
      have := sq_nonneg (V0 * u2 - V2 * u0)
      have := sq_nonneg (V1 * u2 - V2 * u1)
      linarith
    have hle : V0 * u0 + V1 * u1 + V2 * u2 ≤ A * b := le_trans (le_abs_self _) (abs_le_of_sq_le_sq hcs (mul_nonneg i1 hx0))
    have e1 : (u0 + V0) ^ 2 + (u1 + V1) ^ 2 + (u2 + V2) ^ 2 =
      (V0 ^ 2 + V1 ^ 2 + V2 ^ 2) + 2 * (V0 * u0 + V1 * u1 + V2 * u2) + (u0 * u0 + u1 * u1 + u2 * u2) := by ring
    have e2 : (b + A) ^ 2 = A ^ 2 + 2 * (A * b) + b * b := by ring
    rw [e1, e2, hx]
    linarith

/-- **C127, speed and velocity.** In exact arithmetic, for finite velocities that the limits do not exclude: in a visited cell the mean
velocity `V` (`vectorfield`), the mean speed `s` (`velocityfield`) and the granular temperature `T` satisfy
`|V|² ≤ s² ≤ |V|² + 3 T²`. -/
theorem C127_energy [LawfulArith K] [ExactArith K] (p : Profile) (d : Dm (Timestep K)) (hd : d.Inv) (grid : Grid K)
    (hg : grid.Fillable p) (hfresh : ∀ c, grid.st.weight.get c = 0 ∧ grid.st.data.get c = 0) (hcart : grid.geom.isCylindrical = false)
    (sel : Selector K) (hs : sel.Usable) (hw : ∀ t, t < d.n → (d.file t).Wf) (hlen : (d.samples sel).length ≤ 2 ^ 53)
    (v : ℕ × ℕ → Fin 3 → K) (hv : ∀ x ∈ d.samples sel, ∀ a, velOf d.file x a = F.fin (v x a)) (hi : K)
    (hhi : ∀ x ∈ d.samples sel, 0 ≤ hi ∧ v x 0 ^ 2 + v x 1 ^ 2 + v x 2 ^ 2 ≤ hi ^ 2) :
    ∃ d1 gn d2 gv d3 gw d4 gt, numberfield p d grid sel = .ok (d1, gn) ∧
      velocityfield p d grid sel "absolute" 0 (fin hi) = .ok (d2, gv) ∧
      vectorfield p d grid sel = .ok (d3, gw) ∧ granularTemperature p d grid sel "xyz" = .ok (d4, gt) ∧
      ∀ c, InB grid.geom.cells c → gn.st.data.get c ≠ 0 →
        ∃ (s T : K) (V : Fin 3 → K), gv.st.data.get c = fin s ∧ gt.st.data.get c = fin T ∧ (∀ a, (gw.comp a).st.data.get c = fin (V a)) ∧
          0 ≤ s ∧ 0 ≤ T ∧ V 0 ^ 2 + V 1 ^ 2 + V 2 ^ 2 ≤ s ^ 2 ∧ s ^ 2 ≤ V 0 ^ 2 + V 1 ^ 2 + V 2 ^ 2 + 3 * T ^ 2 := by
  obtain ⟨d1, gn, n1, _, _, _, _, _, n2, _⟩ := C34_numberfield p d hd grid hg sel hs hw hlen
  obtain ⟨d2, gv, v1, _, _, _, _, v2⟩ := C35_velocityfield p d hd grid hg (fun c => (hfresh c).1) sel hs hw hlen "absolute" _
    rfl 0 (fin hi) (by simp [F.zero_def]) (by simp)
  obtain ⟨d3, gw, w1, w2⟩ := C36_mean p d hd grid hg hfresh hcart sel hs hw hlen v hv
  obtain ⟨d4, gt, t1, _, _, _, _, t2⟩ := C40_granular p d hd grid hg (fun c => (hfresh c).2) sel hs hw v (fun x hx _ => hv x hx) "xyz" (by simp)
  refine ⟨d1, gn, d2, gv, d3, gw, d4, gt, n1, v1, w1, t1, fun c hc hne => ?_⟩
  -- the speeds
  have hsp : ∀ x : ℕ × ℕ, ∃ s : K, 0 ≤ s ∧ s * s = v x 0 * v x 0 + v x 1 * v x 1 + v x 2 * v x 2 ∧
      (x ∈ d.samples sel → (F.sq (velOf d.file x 0) + F.sq (velOf d.file x 1) + F.sq (velOf d.file x 2)).sqrt = fin s) := by
    intro x
    obtain ⟨T, e1, e2, e3⟩ := sqrt_root (K := K) (x := v x 0 * v x 0 + v x 1 * v x 1 + v x 2 * v x 2)
      (by nlinarith [mul_self_nonneg (v x 0), mul_self_nonneg (v x 1), mul_self_nonneg (v x 2)])
    refine ⟨T, e2, e3, fun hx => ?_⟩
    unfold F.sq
    rw [hv x hx, hv x hx, hv x hx, F.emul, F.emul, F.emul, F.eadd, F.eadd, e1]
  choose s s0 s1 s2 using hsp
  set S := (d.samples sel).filter fun x => inCell p grid.geom (posOf d.file x) c with hSdef
  have hSm : ∀ x ∈ S, x ∈ d.samples sel := fun x hx => List.mem_of_mem_filter hx
  have hSne : S ≠ [] := by
    intro h0
    apply hne
    rw [n2 c, List.countP_eq_length_filter, ← hSdef, h0]
    simp [F.zero_def]
  have hN : (0 : K) < S.length := by exact_mod_cast List.length_pos_iff.2 hSne
  obtain ⟨k1, k2, _⟩ := v2 c hc
  have hS : ((d.samples sel).filter fun x => inCell p grid.geom (posOf d.file x) c &&
      within 0 (fin hi) ((F.sq (velOf d.file x 0) + F.sq (velOf d.file x 1) + F.sq (velOf d.file x 2)).sqrt)) = S := by
    rw [hSdef]
    apply List.filter_congr
    intro x hx
    have : within 0 (fin hi) (fin (s x) : F K) = true := by
      unfold within
      rw [F.zero_def, decide_eq_true_eq, F.le_fin, F.le_fin]
      refine ⟨s0 x, ?_⟩
      obtain ⟨h1, h2⟩ := hhi x hx
      apply abs_le_of_sq_le_sq' _ h1 |>.2
      have := s1 x
      nlinarith
    rw [s2 x hx, this, Bool.and_true]
  rw [hS, List.length_map] at k2
  have hmap : S.map (fun x => (F.sq (velOf d.file x 0) + F.sq (velOf d.file x 1) + F.sq (velOf d.file x 2)).sqrt) = S.map fun x => (fin (s x) : F K) :=
    List.map_congr_left fun x hx => s2 x (hSm x hx)
  rw [hmap] at k2
  have hsum : F.sum (S.map fun x => (fin (s x) : F K)) = fin (S.map s).sum := by
    have := sum_fin (K := K) (S.map s)
    rw [List.map_map] at this
    exact this
  rw [hsum, F.ediv _ hN.ne'] at k2
  obtain ⟨_, _, t3⟩ := t2 c hc
  obtain ⟨T, T1, T2, T3⟩ := t3 hSne
  refine ⟨(S.map s).sum / S.length, T, fun a => (S.map fun x => v x a).sum / S.length, k2, T1,
    fun a => (w2 a c hc).2 hSne, ?_, T2, ?_, ?_⟩
  · exact div_nonneg (triangle S v s (fun x _ => s0 x) (fun x _ => s1 x)).1 hN.le
  · have := (triangle S v s (fun x _ => s0 x) (fun x _ => s1 x)).2
    simp only [div_pow]
    rw [← add_div, ← add_div]
    exact div_le_div_of_nonneg_right this (by positivity)
  · -- mean square of the speeds
    have hvar : ∀ a, meanSqDev (S.map fun x => v x a) =
        (S.map fun x => v x a * v x a).sum / S.length - ((S.map fun x => v x a).sum / S.length) ^ 2 := by
      intro a
      have := var_identity (S.map fun x => v x a) (by simpa using hSne)
      rw [List.map_map, List.length_map] at this
      rw [← this, div_pow, pow_two, pow_two, div_div]
      rfl
    have hvs : (S.map s).sum / S.length * ((S.map s).sum / S.length) ≤ (S.map fun x => s x * s x).sum / S.length := by
      have h0 := meanSqDev_nonneg (S.map s)
      have := var_identity (S.map s) (by simpa using hSne)
      rw [List.map_map, List.length_map] at this
      have e : ((fun x => x * x) ∘ s) = fun x => s x * s x := rfl
      rw [e, div_div, ← div_mul_div_comm] at this
      linarith
    have hss : (S.map fun x => s x * s x).sum = (S.map fun x => v x 0 * v x 0).sum + (S.map fun x => v x 1 * v x 1).sum + (S.map fun x => v x 2 * v x 2).sum := by
      rw [← List.sum_map_add, ← List.sum_map_add]
      congr 1
      exact List.map_congr_left fun x _ => s1 x
    have h3 : 3 * T ^ 2 = meanSqDev (S.map fun x => v x 0) + meanSqDev (S.map fun x => v x 1) + meanSqDev (S.map fun x => v x 2) := by
      have hT : T * T = (meanSqDev (S.map fun x => v x 0) + meanSqDev (S.map fun x => v x 1) + meanSqDev (S.map fun x => v x 2)) / 3 := T3
      rw [pow_two, hT]; ring
    rw [h3, hvar 0, hvar 1, hvar 2, pow_two ((S.map s).sum / (S.length : K))]
    rw [hss, add_div, add_div] at hvs
    linarith

/-- **C127, histogram.** In exact arithmetic, if the speeds in the grid lie between the smallest edge and (strictly) below the largest: the bins of
`histogram` add up to the sum of the cells of `numberfield`. -/
theorem C127_histogram [LawfulArith K] [ExactArith K] (p : Profile) (d : Dm (Timestep K)) (hd : d.Inv) (st : Stats K) (grid : Grid K)
    (hg : grid.Fillable p) (sel : Selector K) (hs : sel.Usable) (hw : ∀ t, t < d.n → (d.file t).Wf) (hlen : (d.samples sel).length ≤ 2 ^ 53)
    (maxLimit : F K) (bins : ℕ) (hb : 1 ≤ bins) (hb' : bins ≤ 2 ^ 53)
    (mn mx : K) (h1 : st.speed 0 = fin mn) (h2 : histMax st maxLimit = fin mx) (hlt : mn < mx)
    (s : ℕ × ℕ → K) (hsp : ∀ x ∈ d.samples sel, grid.isInside (posOf d.file x) = true → speedOf d.file x = fin (s x))
    (hin : ∀ x ∈ d.samples sel, grid.isInside (posOf d.file x) = true → mn ≤ s x ∧ s x < mx) :
    ∃ d1 gn d2 h edges, numberfield p d grid sel = .ok (d1, gn) ∧ histogram p d st grid sel "velocity" maxLimit bins = .ok (d2, h, edges) ∧
      ∃ (count : CellId → ℕ) (bin : ℕ → ℕ), (∀ c, gn.st.data.get c = fin (count c : K)) ∧ (∀ k, k < bins → h.get ![k] = fin (bin k : K)) ∧
        ∑ k ∈ Finset.range bins, bin k = ∑ c ∈ cellsOf grid.geom.cells, count c := by
  obtain ⟨d1, gn, n1, _, _, _, _, _, n2, _, n3, _⟩ := C34_numberfield p d hd grid hg sel hs hw hlen
  obtain ⟨d2, h, edges, e1, _, _, _, _, _, _, e2⟩ := C39_histogram_partial p d hd st grid sel hs hw hlen maxLimit bins hb hb' mn mx h1 h2 hlt s hsp
  refine ⟨d1, gn, d2, h, edges, n1, e1, _, _, n2, e2, ?_⟩
  rw [n3]
  have := C39_total_partial (d.samples sel) (fun x => grid.isInside (posOf d.file x)) bins hb mn mx hlt s (fun x hx hi => (hin x hx hi).1)
  rw [this]
  apply List.countP_congr
  intro x hx
  by_cases hi : grid.isInside (posOf d.file x) = true
  · simp [hi, (hin x hx hi).2]
  · simp [hi]

/-- Witness: the demo recording, one particle with velocity `(3, 0, 4)` and speed 5. -/
example (p : Profile) (kind : Kind) : ∃ d : Dm (Timestep ℝ), Dm.new p kind demoFile 4 Timestep.default = .ok d ∧
    ∃ d1 gn d2 gv d3 gw d4 gt, numberfield p d unitGrid Selector.default = .ok (d1, gn) ∧
      velocityfield p d unitGrid Selector.default "absolute" 0 (fin 5) = .ok (d2, gv) ∧
      vectorfield p d unitGrid Selector.default = .ok (d3, gw) ∧ granularTemperature p d unitGrid Selector.default "xyz" = .ok (d4, gt) ∧
      (gn.st.data.get (fun _ => 0) ≠ 0 →
        ∃ (s T : ℝ) (V : Fin 3 → ℝ), gv.st.data.get (fun _ => 0) = fin s ∧ gt.st.data.get (fun _ => 0) = fin T ∧
          (∀ a, (gw.comp a).st.data.get (fun _ => 0) = fin (V a)) ∧
          V 0 ^ 2 + V 1 ^ 2 + V 2 ^ 2 ≤ s ^ 2 ∧ s ^ 2 ≤ V 0 ^ 2 + V 1 ^ 2 + V 2 ^ 2 + 3 * T ^ 2) := by
  obtain ⟨d, e, hd, hf, hn, _⟩ := Dm.new_ok p kind demoFile 4 Timestep.default (by norm_num) (by norm_num)
  have hlen : (d.samples Selector.default).length ≤ 2 ^ 53 := by
    unfold Dm.samples
    rw [hf, hn]
    have : ∀ l : List ℕ, (samples Selector.default demoFile l).length ≤ l.length := by
      intro l
      induction l with
      | nil => simp [samples]
      | cons t l ih =>
        have h1 : ((demoFile t).picks Selector.default).length ≤ 1 := by
          unfold Timestep.picks
          split_ifs
          · exact (List.length_filter_le _ _).trans (by simp [demoFile])
          · simp
        have e : samples Selector.default demoFile (t :: l) =
          ((demoFile t).picks Selector.default).map (fun i => (t, i)) ++ samples Selector.default demoFile l := rfl
        rw [e]; simp; omega
    have := this (List.range 4)
    simp at this
    omega
  obtain ⟨d1, gn, d2, gv, d3, gw, d4, gt, h1, h2, h3, h4, h5⟩ := C127_energy p d hd unitGrid (fillable_cart p _ unit_isCart)
    (fun _ => ⟨rfl, rfl⟩) rfl Selector.default usable_default (fun t _ => by rw [hf]; exact demoFile_wf t) hlen
    (fun _ => ![3, 0, 4]) (by
      rintro ⟨t, i⟩ hx a
      obtain ⟨_, _, hi, _⟩ := (mem_samples _ _ _ _ _).1 hx
      rw [hf] at hi ⊢
      obtain rfl : i = 0 := by have : i < 1 := hi; omega
      fin_cases a <;> rfl) 5 (fun _ _ => ⟨by norm_num, by simp; norm_num⟩)
  refine ⟨d, e, d1, gn, d2, gv, d3, gw, d4, gt, h1, h2, h3, h4, fun hne => ?_⟩
  obtain ⟨s, T, V, k1, k2, k3, _, _, k6, k7⟩ := h5 (fun _ => 0) (fun _ => Nat.one_pos) hne
  exact ⟨s, T, V, k1, k2, k3, k6, k7⟩

end Up4
