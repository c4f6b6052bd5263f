import Verif.Props.Pooling
import Verif.Props.Histogram
import Verif.Props.Lacey

set_option linter.unusedSectionVars false

/-!
# C158: histograms add up, and a finer histogram refines a coarser one
-/

namespace Up4
open F
open Selector (at')

variable {K : Type} [Field K] [LinearOrder K] [IsStrictOrderedRing K] [FloorRing K] [Arith K]

/-- The speed of a velocity, as the code computes it. -/
def speedIn (v : Fin 3 → F K) : F K := (v 0 * v 0 + v 1 * v 1 + v 2 * v 2).sqrt

theorem seen_hist (sel : Selector K) (d : Dm (Timestep K)) (grid : Grid K) (edges : List (F K)) (k : ℕ) :
    ((d.samples sel).countP fun x => grid.isInside (posOf d.file x) && decide (binNo edges (speedOf d.file x) = k)) =
      (d.seen sel).countP fun q => grid.isInside q.1 && decide (binNo edges (speedIn q.2) = k) := by
  unfold Dm.seen
  rw [List.countP_map]
  rfl

/-- **C158, adding up.** If the samples of one dataset and selection are those of two others taken together, in whatever order, then every bin of its histogram is
the sum of the bins of the two others. In every arithmetic, also the rounded one. -/
theorem C158_pool [LawfulArith K] (p : Profile) (grid : Grid K) (st : Stats K) (maxLimit : F K) (bins : ℕ) (hb : 1 ≤ bins) (hb' : bins ≤ 2 ^ 53)
    (d d₁ d₂ : Dm (Timestep K)) (s s₁ s₂ : Selector K) (h : Ready d s) (h₁ : Ready d₁ s₁) (h₂ : Ready d₂ s₂)
    (hp : (d.seen s).Perm (d₁.seen s₁ ++ d₂.seen s₂)) :
    ∃ d' a d₁' a₁ d₂' a₂ edges, histogram p d st grid s "velocity" maxLimit bins = .ok (d', a, edges) ∧
      histogram p d₁ st grid s₁ "velocity" maxLimit bins = .ok (d₁', a₁, edges) ∧
      histogram p d₂ st grid s₂ "velocity" maxLimit bins = .ok (d₂', a₂, edges) ∧
      ∀ k, k < bins → ∃ n₁ n₂ : ℕ, a₁.get ![k] = fin (n₁ : K) ∧ a₂.get ![k] = fin (n₂ : K) ∧ a.get ![k] = fin ((n₁ + n₂ : ℕ) : K) := by
  obtain ⟨d', a, r, _, _, _, _, e⟩ := histogram_run p d h.inv st grid s h.usable h.wf h.few maxLimit bins hb hb'
  obtain ⟨d₁', a₁, r₁, _, _, _, _, e₁⟩ := histogram_run p d₁ h₁.inv st grid s₁ h₁.usable h₁.wf h₁.few maxLimit bins hb hb'
  obtain ⟨d₂', a₂, r₂, _, _, _, _, e₂⟩ := histogram_run p d₂ h₂.inv st grid s₂ h₂.usable h₂.wf h₂.few maxLimit bins hb hb'
  refine ⟨d', a, d₁', a₁, d₂', a₂, _, r, r₁, r₂, fun k hk => ⟨_, _, e₁ k hk, e₂ k hk, ?_⟩⟩
  rw [e k hk, seen_hist, seen_hist, seen_hist, hp.countP_eq, List.countP_append]

/-- **C158, time windows.** The histogram of a time window is the sum of those of its two parts, split where no timestep lies. -/
theorem C158_windows [LawfulArith K] (p : Profile) (grid : Grid K) (st : Stats K) (maxLimit : F K) (bins : ℕ) (hb : 1 ≤ bins) (hb' : bins ≤ 2 ^ 53)
    (d : Dm (Timestep K)) (sel : Selector K) (h : Ready d sel) (hall : ∀ t, t < d.n → sel.timestepValid (d.file t).time = true)
    (τ : ℕ → K) (hτ : ∀ t, t < d.n → (d.file t).time = fin (τ t)) (a m m' b : K)
    (hm : m < m') (ha : a ≤ m') (hmb : m ≤ b) (hgap : ∀ t, t < d.n → τ t ≤ m ∨ m' ≤ τ t) :
    ∃ d' x d₁' x₁ d₂' x₂ edges, histogram p d st grid (sel.setTime (fin a) (fin b)) "velocity" maxLimit bins = .ok (d', x, edges) ∧
      histogram p d st grid (sel.setTime (fin a) (fin m)) "velocity" maxLimit bins = .ok (d₁', x₁, edges) ∧
      histogram p d st grid (sel.setTime (fin m') (fin b)) "velocity" maxLimit bins = .ok (d₂', x₂, edges) ∧
      ∀ k, k < bins → ∃ n₁ n₂ : ℕ, x₁.get ![k] = fin (n₁ : K) ∧ x₂.get ![k] = fin (n₂ : K) ∧ x.get ![k] = fin ((n₁ + n₂ : ℕ) : K) :=
  have r := fun x y => ready_window d sel h hall x y
  C158_pool p grid st maxLimit bins hb hb' d d d _ _ _ (r _ _) (r _ _) (r _ _) (C111_windows d sel τ hτ a m m' b hm ha hmb hgap)

/-- Case for `C158_windows` (and `C158_pool`): four timesteps of the demo dataset, the window `[0, 3]` split into `[0, 1]` and `[2, 3]`; any statistics. -/
example (p : Profile) (kind : Kind) (st : Stats ℝ) : ∃ d : Dm (Timestep ℝ), Dm.new p kind demoFile 4 Timestep.default = .ok d ∧
    ∃ d' x d₁' x₁ d₂' x₂ edges, histogram p d st unitGrid (Selector.default.setTime (fin 0) (fin 3)) "velocity" (fin 1) 5 = .ok (d', x, edges) ∧
      histogram p d st unitGrid (Selector.default.setTime (fin 0) (fin 1)) "velocity" (fin 1) 5 = .ok (d₁', x₁, edges) ∧
      histogram p d st unitGrid (Selector.default.setTime (fin 2) (fin 3)) "velocity" (fin 1) 5 = .ok (d₂', x₂, edges) ∧
      ∀ k, k < 5 → ∃ n₁ n₂ : ℕ, x₁.get ![k] = fin (n₁ : ℝ) ∧ x₂.get ![k] = fin (n₂ : ℝ) ∧ x.get ![k] = fin ((n₁ + n₂ : ℕ) : ℝ) := by
  obtain ⟨d, e, hinv, hf, hn, hw, hS⟩ := demo_manager p kind 4 (by norm_num) (by norm_num)
  refine ⟨d, e, C158_windows p unitGrid st (fin 1) 5 (by norm_num) (by norm_num) d Selector.default ⟨hinv, hw, usable_default, by rw [hS]; simp⟩
    (fun t ht => by rw [hf]; exact demo_time t (by omega)) (fun t => (t : ℝ)) (fun t _ => by rw [hf]; rfl) 0 1 2 3 (by norm_num) (by norm_num) (by norm_num)
    fun t ht => ?_⟩
  rw [hn] at ht
  rcases Nat.lt_or_ge t 2 with h | h
  · left; exact_mod_cast (by omega : t ≤ 1)
  · right; exact_mod_cast h

/-- **C158, order.** Two datasets in which the selections see the same positions and velocities, in whatever order, timestep and numbering, have the same histogram. -/
theorem C158_same [LawfulArith K] (p : Profile) (grid : Grid K) (st : Stats K) (maxLimit : F K) (bins : ℕ) (hb : 1 ≤ bins) (hb' : bins ≤ 2 ^ 53)
    (d₁ d₂ : Dm (Timestep K)) (s₁ s₂ : Selector K) (h₁ : Ready d₁ s₁) (h₂ : Ready d₂ s₂) (hp : (d₁.seen s₁).Perm (d₂.seen s₂)) :
    ∃ d₁' a₁ d₂' a₂ edges, histogram p d₁ st grid s₁ "velocity" maxLimit bins = .ok (d₁', a₁, edges) ∧
      histogram p d₂ st grid s₂ "velocity" maxLimit bins = .ok (d₂', a₂, edges) ∧ a₁.shape = a₂.shape ∧ ∀ k, k < bins → a₁.get ![k] = a₂.get ![k] := by
  obtain ⟨d₁', a₁, r₁, _, _, _, q₁, e₁⟩ := histogram_run p d₁ h₁.inv st grid s₁ h₁.usable h₁.wf h₁.few maxLimit bins hb hb'
  obtain ⟨d₂', a₂, r₂, _, _, _, q₂, e₂⟩ := histogram_run p d₂ h₂.inv st grid s₂ h₂.usable h₂.wf h₂.few maxLimit bins hb hb'
  refine ⟨d₁', a₁, d₂', a₂, _, r₁, r₂, q₁.trans q₂.symm, fun k hk => ?_⟩
  rw [e₁ k hk, e₂ k hk, seen_hist, seen_hist, hp.countP_eq]

/-- Case for `C158_same`: two particles, and the same two stored the other way round; any statistics, five bins. -/
example (p : Profile) (kind : Kind) (st : Stats ℝ) : ∃ d₁ d₂ : Dm (Timestep ℝ), Dm.new p kind (fun _ => pairStep false) 1 Timestep.default = .ok d₁ ∧
    Dm.new p kind (fun _ => pairStep true) 1 Timestep.default = .ok d₂ ∧ d₁.seen Selector.default ≠ d₂.seen Selector.default ∧
    ∃ d₁' a₁ d₂' a₂ edges, histogram p d₁ st unitGrid Selector.default "velocity" (fin 4) 5 = .ok (d₁', a₁, edges) ∧
      histogram p d₂ st unitGrid Selector.default "velocity" (fin 4) 5 = .ok (d₂', a₂, edges) ∧ a₁.shape = a₂.shape ∧ ∀ k, k < 5 → a₁.get ![k] = a₂.get ![k] := by
  obtain ⟨d₁, e₁, i₁, f₁, n₁, _⟩ := Dm.new_ok p kind (fun _ => pairStep false) 1 Timestep.default (by norm_num) (by norm_num)
  obtain ⟨d₂, e₂, i₂, f₂, n₂, _⟩ := Dm.new_ok p kind (fun _ => pairStep true) 1 Timestep.default (by norm_num) (by norm_num)
  have w : ∀ b, (pairStep b).Wf := fun b => by cases b <;> exact ⟨rfl, rfl, rfl, rfl, rfl, rfl⟩
  have sam : ∀ (d : Dm (Timestep ℝ)) (b : Bool), d.file = (fun _ => pairStep b) → d.n = 1 → d.samples Selector.default = [(0, 0), (0, 1)] := by
    intro d b hf hn
    unfold Dm.samples samples
    rw [hf, hn]
    have := two_picks (pairStep b) (by cases b <;> rfl) (by cases b <;> rfl)
    simp [this]
  have s₁ : d₁.seen Selector.default = [(fun _ => fin 0, fun _ => fin 1), (fun _ => fin 3, fun _ => fin 2)] := by
    unfold Dm.seen; rw [sam d₁ false f₁ n₁, f₁]; rfl
  have s₂ : d₂.seen Selector.default = [(fun _ => fin 3, fun _ => fin 2), (fun _ => fin 0, fun _ => fin 1)] := by
    unfold Dm.seen; rw [sam d₂ true f₂ n₂, f₂]; rfl
  refine ⟨d₁, d₂, e₁, e₂, ?_, C158_same p unitGrid st (fin 4) 5 (by norm_num) (by norm_num) d₁ d₂ _ _
    ⟨i₁, fun t _ => by rw [f₁]; exact w _, usable_default, by rw [sam d₁ false f₁ n₁]; norm_num⟩
    ⟨i₂, fun t _ => by rw [f₂]; exact w _, usable_default, by rw [sam d₂ true f₂ n₂]; norm_num⟩ (by rw [s₁, s₂]; exact List.Perm.swap _ _ _)⟩
  rw [s₁, s₂]
  intro h
  have := congrFun (Prod.mk.inj (List.cons.inj h).1).1 0
  simp at this

/-- `m` neighbouring intervals `[E i, E (i + 1))`, the first of all without a lower end, cover their union once. -/
theorem intervals_count {α : Type} (L : List α) (ins : α → Bool) (s : α → K) (E : ℕ → K) (hE : ∀ i, E i ≤ E (i + 1)) (a m : ℕ) (hm : 1 ≤ m) :
    ∑ j ∈ Finset.range m, (L.countP fun x => ins x && decide ((a + j = 0 ∨ E (a + j) ≤ s x) ∧ s x < E (a + j + 1))) =
      L.countP fun x => ins x && decide ((a = 0 ∨ E a ≤ s x) ∧ s x < E (a + m)) := by
  have mono : ∀ i n, E i ≤ E (i + n) := by
    intro i n
    induction n with
    | zero => exact le_rfl
    | succ n ih => exact ih.trans (hE _)
  induction m, hm using Nat.le_induction with
  | base => simp
  | succ m hm ih =>
    rw [Finset.sum_range_succ, ih]
    clear ih
    induction L with
    | nil => simp
    | cons x L ih =>
      simp only [List.countP_cons]
      rw [← ih]
      have key : (if (ins x && decide ((a = 0 ∨ E a ≤ s x) ∧ s x < E (a + m))) = true then 1 else 0) +
          (if (ins x && decide ((a + m = 0 ∨ E (a + m) ≤ s x) ∧ s x < E (a + m + 1))) = true then 1 else 0) =
          if (ins x && decide ((a = 0 ∨ E a ≤ s x) ∧ s x < E (a + (m + 1)))) = true then 1 else 0 := by
        cases ins x with
        | false => simp
        | true =>
          simp only [Bool.true_and, decide_eq_true_eq]
          have h0 : m ≠ 0 := by omega
          have h1 := mono a m
          have h2 := hE (a + m)
          rw [← add_assoc]
          by_cases c1 : s x < E (a + m)
          · have c2 : s x < E (a + m + 1) := lt_of_lt_of_le c1 h2
            simp [c1, c2, h0, not_le.2 c1]
          · have c3 : E (a + m) ≤ s x := not_lt.1 c1
            simp [c1, h0, c3, h1.trans c3]
      omega

/-- **C158, refinement.** In exact arithmetic, the histogram with `m` times as many bins between the same limits refines the histogram: every `m`-th of its edges is
an edge of the coarse one, and each coarse bin is the sum of its `m` fine ones — for the dataset as it is after the first call, and whatever calls came before. -/
theorem C158_refine [LawfulArith K] [ExactArith K] (p : Profile) (d : Dm (Timestep K)) (st : Stats K) (grid : Grid K) (sel : Selector K) (h : Ready d sel)
    (maxLimit : F K) (bins m : ℕ) (hb : 1 ≤ bins) (hm : 1 ≤ m) (hmb : m * bins ≤ 2 ^ 53) (mn mx : K) (h1 : st.speed 0 = fin mn)
    (h2 : histMax st maxLimit = fin mx) (hlt : mn < mx) (s : ℕ × ℕ → K)
    (hsp : ∀ x ∈ d.samples sel, grid.isInside (posOf d.file x) = true → speedOf d.file x = fin (s x)) :
    ∃ d₁ a e d₂ b f, histogram p d st grid sel "velocity" maxLimit bins = .ok (d₁, a, e) ∧
      histogram p d₁ st grid sel "velocity" maxLimit (m * bins) = .ok (d₂, b, f) ∧
      (∀ k, k ≤ bins → ∃ u, e.getD k F.nan = fin u ∧ f.getD (m * k) F.nan = fin u) ∧
      ∀ k, k < bins → ∃ n : ℕ → ℕ, (∀ j, j < m → b.get ![m * k + j] = fin (n j : K)) ∧ a.get ![k] = fin ((∑ j ∈ Finset.range m, n j : ℕ) : K) := by
  have hbm : 1 ≤ m * bins := Nat.mul_pos hm hb
  have hb' : bins ≤ 2 ^ 53 := (Nat.le_mul_of_pos_left bins hm).trans hmb
  obtain ⟨d₁, a, e, r₁, i₁, f₁, n₁, _, _, e1, e2⟩ := C39_histogram_partial p d h.inv st grid sel h.usable h.wf h.few maxLimit bins hb hb' mn mx h1 h2 hlt s hsp
  have hS : d₁.samples sel = d.samples sel := by unfold Dm.samples; rw [f₁, n₁]
  obtain ⟨d₂, b, f, r₂, _, _, _, _, _, g1, g2⟩ := C39_histogram_partial p d₁ i₁ st grid sel h.usable (by rw [f₁, n₁]; exact h.wf) (by rw [hS]; exact h.few) maxLimit
    (m * bins) hbm hmb mn mx h1 h2 hlt s (by rw [hS, f₁]; exact hsp)
  have hbK : (0 : K) < bins := by exact_mod_cast hb
  have hmK : (0 : K) < m := by exact_mod_cast hm
  have hw : (mx - mn) / (bins : K) = m * ((mx - mn) / ((m * bins : ℕ) : K)) := by push_cast; field_simp
  have hw0 : 0 < (mx - mn) / ((m * bins : ℕ) : K) := div_pos (sub_pos.2 hlt) (by exact_mod_cast hbm)
  refine ⟨d₁, a, e, d₂, b, f, r₁, r₂, fun k hk => ⟨_, e1 k hk, ?_⟩, fun k hk => ⟨_, fun j hj => g2 (m * k + j) ?_, ?_⟩⟩
  · rw [g1 (m * k) (Nat.mul_le_mul_left m hk), hw]
    push_cast
    congr 1; ring
  · calc m * k + j < m * k + m := by omega
      _ = m * (k + 1) := by ring
      _ ≤ m * bins := Nat.mul_le_mul_left m hk
  · rw [e2 k hk, hS, f₁]
    have := intervals_count (d.samples sel) (fun x => grid.isInside (posOf d.file x)) s
      (fun i => mn + i * ((mx - mn) / ((m * bins : ℕ) : K))) (fun i => by
        have := hw0.le
        rw [Nat.cast_succ, add_one_mul]; linarith) (m * k) m hm
    congr 2
    rw [hw]
    set w := (mx - mn) / ((m * bins : ℕ) : K) with hwd
    have e3 : ∀ j, (((m * k + j : ℕ) : K)) + 1 = ((m * k + j + 1 : ℕ) : K) := fun j => by push_cast; ring
    simp only [e3]
    rw [this]
    apply List.countP_congr
    intro x _
    have c1 : m * k = 0 ↔ k = 0 := by constructor <;> intro h <;> [(rcases Nat.mul_eq_zero.1 h with h | h <;> omega); simp [h]]
    have c2 : mn + (k : K) * (m * w) = mn + ((m * k : ℕ) : K) * w := by push_cast; ring
    have c3 : mn + ((k : K) + 1) * (m * w) = mn + ((m * k + m : ℕ) : K) * w := by push_cast; ring
    simp only [Bool.and_eq_true, decide_eq_true_eq, c1, c2, c3]

/-- Case for `C158_refine` (and for `Ready`): one particle of speed 1; one bin between 0 and 2, then two: the particle is in the second. -/
example (p : Profile) (kind : Kind) (hdims : Fin 3 → F ℝ × F ℝ) : ∃ (d d₁ d₂ : Dm (Timestep ℝ)) (a b : Arr 1 (F ℝ)) (e f : List (F ℝ)),
    Dm.new p kind (fun _ => oneStep) 1 Timestep.default = .ok d ∧
    histogram p d ⟨hdims, 1, [fin 0], ![fin 0, fin 1, fin 2]⟩ unitGrid Selector.default "velocity" (fin 0) 1 = .ok (d₁, a, e) ∧
    histogram p d₁ ⟨hdims, 1, [fin 0], ![fin 0, fin 1, fin 2]⟩ unitGrid Selector.default "velocity" (fin 0) (2 * 1) = .ok (d₂, b, f) ∧
    ∃ n : ℕ → ℕ, (∀ j, j < 2 → b.get ![2 * 0 + j] = fin (n j : ℝ)) ∧ a.get ![0] = fin ((∑ j ∈ Finset.range 2, n j : ℕ) : ℝ) := by
  obtain ⟨d, e, hinv, hf, hn, _⟩ := Dm.new_ok p kind (fun _ => oneStep (K := ℝ)) 1 Timestep.default (by norm_num) (by norm_num)
  have hw : ∀ t, t < d.n → (d.file t).Wf := fun t _ => by rw [hf]; exact ⟨rfl, rfl, rfl, rfl, rfl, rfl⟩
  have hS : d.samples Selector.default = [(0, 0)] := by unfold Dm.samples; rw [hf, hn]; exact one_samples
  have hsp : speedOf d.file (0, 0) = fin 1 := by
    rw [hf]
    change (fin 1 * fin 1 + fin 0 * fin 0 + fin 0 * fin 0 : F ℝ).sqrt = fin 1
    rw [F.emul, F.emul, F.eadd, F.eadd]
    obtain ⟨T, t1, t2, t3⟩ := sqrt_root (K := ℝ) (x := 1 * 1 + 0 * 0 + 0 * 0) (by norm_num)
    rw [t1]
    congr 1
    nlinarith
  obtain ⟨d₁, a, ea, d₂, b, fb, r₁, r₂, _, h4⟩ := C158_refine p d ⟨hdims, 1, [fin 0], ![fin 0, fin 1, fin 2]⟩ unitGrid Selector.default
    ⟨hinv, hw, usable_default, by rw [hS]; norm_num⟩ (fin 0) 1 2 le_rfl one_le_two (by norm_num) 0 2 rfl (by unfold histMax; simp [F.eqB]) two_pos
    (fun _ => 1) (by intro x hx _; rw [hS] at hx; rw [List.mem_singleton.1 hx, hsp])
  exact ⟨d, d₁, d₂, a, b, ea, fb, e, r₁, r₂, h4 0 one_pos⟩

end Up4
