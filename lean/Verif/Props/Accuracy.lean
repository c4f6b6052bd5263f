import Verif.Proofs.Accuracy
import Verif.Props.Fields
import Verif.Props.UsedGrid
import Verif.Props.CylBinary64

set_option linter.unusedSectionVars false

/-!
# Accuracy in binary64

How far the reported means are from the means of the stored numbers when every operation rounds: C105 (`vectorfield`), C106 (`velocityfield`),
C107 (`mean_velocity_showcase`). All theorems hold for `B64` (IEEE binary64).
-/

namespace Up4
open F
open Selector (at')

variable {K : Type} [Field K] [LinearOrder K] [IsStrictOrderedRing K] [FloorRing K] [Arith K]

/-- A stored velocity: three finite `f64` numbers, none of them above `2^500`. -/
def StoredVel (x : Fin 3 → F K) (v : Fin 3 → K) : Prop := ∀ a, x a = fin (v a) ∧ IsDouble (v a) ∧ |v a| ≤ 2 ^ 500

/-- The mean of some numbers. -/
def avg {α : Type} (S : List α) (f : α → K) : K := (S.map f).sum / S.length

/-- **C105.** `vectorfield` in a Cartesian grid, in rounded arithmetic: every cell visited by `n` samples holds, for each component, the mean of the stored
velocities up to a relative error of `(n + 5)·2^-52` of the mean of the absolute values (and an absolute one of `2^-533`). No overflow, no NaN. -/
theorem C105_vectorfield [LawfulArith K] [RoundedArith K] (p : Profile) (d : Dm (Timestep K)) (hd : d.Inv) (grid : Grid K)
    (hg : grid.Fillable p) (hfresh : ∀ c, grid.st.weight.get c = 0 ∧ grid.st.data.get c = 0)
    (hcart : grid.geom.isCylindrical = false)
    (sel : Selector K) (hs : sel.Usable) (hw : ∀ t, t < d.n → (d.file t).Wf)
    (hlen : (d.samples sel).length < 2 ^ 52) (v : ℕ × ℕ → Fin 3 → K)
    (hv : ∀ x ∈ d.samples sel, StoredVel (velOf d.file x) (v x)) :
    ∃ d' g', vectorfield p d grid sel = .ok (d', g') ∧ ∀ a c, InB grid.geom.cells c →
      let S := (d.samples sel).filter fun x => inCell p grid.geom (posOf d.file x) c
      (S = [] → (g'.comp a).st.data.get c = F.nan) ∧
      (S ≠ [] → ∃ y, (g'.comp a).st.data.get c = fin y ∧
        |y - avg S fun x => v x a| ≤ (S.length + 5) / 2 ^ 52 * avg S (fun x => |v x a|) + 4 / 2 ^ 535) := by
  obtain ⟨d', g', h1, _, _, _, h5⟩ := C36_vectorfield p d hd grid hg hfresh sel hs hw (by omega)
  refine ⟨d', g', h1, fun a c hc => ?_⟩
  intro S
  obtain ⟨_, h6⟩ := h5 a
  obtain ⟨_, h7, h8, h9⟩ := h6 c hc
  refine ⟨h8, fun hne => ?_⟩
  have hS : ∀ x ∈ S, x ∈ d.samples sel := fun x hx => (List.mem_filter.1 hx).1
  have hlenS : S.length < 2 ^ 52 := lt_of_le_of_lt (List.length_filter_le _ _) hlen
  have hsp := speck_pos (K := K)
  obtain ⟨y, e1, e2⟩ := mean_of_rounded S (fun x => v x a) (fun x => v x a) hne hlenS (fun x hx => (hv x (hS x hx) a).2.1)
    (fun x _ => by rw [sub_self, abs_zero]; positivity)
    (fun x hx => by
      have h : |v x a| ≤ large K := (hv x (hS x hx) a).2.2
      have h0 := large_pos (K := K)
      change |v x a| ≤ 2 * large K
      linarith)
  refine ⟨y, ?_, ?_⟩
  · rw [h7, ← e1]
    congr 1
    congr 1
    refine List.map_congr_left fun x hx => ?_
    exact (h9 hcart x).trans (hv x (hS x hx) a).1
  · unfold avg
    have : (4 : K) / 2 ^ 535 = 4 * speck K := by unfold speck; ring
    rw [this]
    exact e2

/-- What `velocityfield` should report for one velocity: a component, or the length of the vector or of its projection. -/
def TrueValue (mode : String) (v : Fin 3 → K) (s : K) : Prop :=
  (mode = "x" ∨ mode = "r") ∧ s = v 0 ∨ (mode = "y" ∨ mode = "theta") ∧ s = v 1 ∨ mode = "z" ∧ s = v 2 ∨
  0 ≤ s ∧ (mode = "absolute" ∧ s * s = v 0 * v 0 + v 1 * v 1 + v 2 * v 2 ∨ mode = "xy" ∧ s * s = v 0 * v 0 + v 1 * v 1 ∨
    mode = "xz" ∧ s * s = v 0 * v 0 + v 2 * v 2 ∨ mode = "yz" ∧ s * s = v 1 * v 1 + v 2 * v 2)

theorem length_bound {s q : K} (hs : 0 ≤ s) (h : s * s = q) (hq : q ≤ 4 * (large K * large K)) : |s| ≤ 2 * large K := by
  rw [abs_of_nonneg hs]
  have hL := large_pos (K := K)
  by_contra hc
  rw [not_le] at hc
  have := mul_lt_mul'' hc hc (by positivity) (by positivity)
  have e : 2 * large K * (2 * large K) = 4 * (large K * large K) := by ring
  rw [e] at this; linarith

theorem mode_accurate [LawfulArith K] [RoundedArith K] (mode : String) (x : Fin 3 → F K) (v : Fin 3 → K) (s : K) (hx : StoredVel x v) (hs : TrueValue mode v s) :
    ∃ vcal : (Fin 3 → F K) → F K, velMode mode = .ok vcal ∧
      ∃ w, vcal x = fin w ∧ IsDouble w ∧ |w - s| ≤ |s| / 2 ^ 51 + speck K ∧ |s| ≤ 2 * large K := by
  have hL := large_pos (K := K)
  have hLL : 0 < large K * large K := mul_pos hL hL
  have hsp := speck_pos (K := K)
  have hb : ∀ a, |v a| ≤ large K := fun a => (hx a).2.2
  have comp : ∀ a, s = v a → ∃ w, x a = fin w ∧ IsDouble w ∧ |w - s| ≤ |s| / 2 ^ 51 + speck K ∧ |s| ≤ 2 * large K := by
    rintro a rfl
    refine ⟨v a, (hx a).1, (hx a).2.1, by rw [sub_self, abs_zero]; positivity, ?_⟩
    have := hb a
    linarith [abs_nonneg (v a)]
  have sb := fun a => square_bound (hb a)
  rcases hs with ⟨hm, h⟩ | ⟨hm, h⟩ | ⟨hm, h⟩ | ⟨h0, h⟩
  · refine ⟨fun v => v 0, ?_, comp 0 h⟩
    rcases hm with rfl | rfl <;> rfl
  · refine ⟨fun v => v 1, ?_, comp 1 h⟩
    rcases hm with rfl | rfl <;> rfl
  · refine ⟨fun v => v 2, ?_, comp 2 h⟩
    subst hm; rfl
  · rcases h with ⟨rfl, h⟩ | ⟨rfl, h⟩ | ⟨rfl, h⟩ | ⟨rfl, h⟩
    · obtain ⟨w, e1, e2, e3, e4⟩ := length3_accurate _ _ _ s (hb 0) (hb 1) (hb 2) h0 h
      refine ⟨_, rfl, w, ?_, e2, ?_, length_bound h0 h (by linarith [(sb 0).2, (sb 1).2, (sb 2).2])⟩
      · rw [(hx 0).1, (hx 1).1, (hx 2).1]; exact e1
      · rwa [abs_of_nonneg h0]
    all_goals
      obtain ⟨w, e1, e2, e3, e4⟩ := length2_accurate _ _ s (hb _) (hb _) h0 h
      refine ⟨_, rfl, w, ?_, e2, ?_, length_bound h0 h (by linarith [(sb 0).2, (sb 1).2, (sb 2).2])⟩
    · rw [(hx 0).1, (hx 1).1]; exact e1
    · rwa [abs_of_nonneg h0]
    · rw [(hx 0).1, (hx 2).1]; exact e1
    · rwa [abs_of_nonneg h0]
    · rw [(hx 1).1, (hx 2).1]; exact e1
    · rwa [abs_of_nonneg h0]

/-- **C106.** `velocityfield` in rounded arithmetic, for finite limits: every cell holds the mean of the requested value over a set of
samples of the cell, up to a relative error of `(n + 5)·2^-52` of the mean of the absolute values. The set contains every sample whose true value
is clearly within the limits and none whose true value is clearly outside ("clearly": by more than `2^-51` of the value). -/
theorem C106_velocityfield [LawfulArith K] [RoundedArith K] (p : Profile) (d : Dm (Timestep K)) (hd : d.Inv) (grid : Grid K)
    (hg : grid.Fillable p) (hfresh : ∀ c, grid.st.weight.get c = 0)
    (sel : Selector K) (hs : sel.Usable) (hw : ∀ t, t < d.n → (d.file t).Wf)
    (hlen : (d.samples sel).length < 2 ^ 52) (v : ℕ × ℕ → Fin 3 → K)
    (hv : ∀ x ∈ d.samples sel, StoredVel (velOf d.file x) (v x))
    (mode : String) (hm : mode ∈ ["x", "r", "y", "theta", "z", "absolute", "xy", "xz", "yz"]) (lo hi : K)
    (s : ℕ × ℕ → K) (hsv : ∀ x ∈ d.samples sel, TrueValue mode (v x) (s x)) :
    ∃ d' g', velocityfield p d grid sel mode (fin lo) (fin hi) = .ok (d', g') ∧ ∃ acc : ℕ × ℕ → Bool,
      (∀ x ∈ d.samples sel,
        (acc x = true → lo - (|s x| / 2 ^ 51 + 1 / 2 ^ 535) ≤ s x ∧ s x ≤ hi + (|s x| / 2 ^ 51 + 1 / 2 ^ 535)) ∧
        (lo + (|s x| / 2 ^ 51 + 1 / 2 ^ 535) ≤ s x ∧ s x ≤ hi - (|s x| / 2 ^ 51 + 1 / 2 ^ 535) → acc x = true)) ∧
      ∀ c, InB grid.geom.cells c →
        let S := (d.samples sel).filter fun x => inCell p grid.geom (posOf d.file x) c && acc x
        g'.st.weight.get c = fin (S.length : K) ∧
        (S = [] → g'.st.data.get c = F.nan) ∧
        (S ≠ [] → ∃ y, g'.st.data.get c = fin y ∧
          |y - avg S s| ≤ (S.length + 5) / 2 ^ 52 * avg S (fun x => |s x|) + 4 / 2 ^ 535) := by
  obtain ⟨vcal, hvc⟩ : ∃ vcal, velMode (K := K) mode = .ok vcal := by
    simp only [List.mem_cons, List.not_mem_nil, or_false] at hm
    rcases hm with rfl | rfl | rfl | rfl | rfl | rfl | rfl | rfl | rfl <;> exact ⟨_, rfl⟩
  obtain ⟨d', g', h1, _, _, _, _, h6⟩ := C35_velocityfield p d hd grid hg hfresh sel hs hw (by omega) mode vcal hvc (fin lo) (fin hi)
    (by simp) (by simp)
  have hacc : ∀ x ∈ d.samples sel, ∃ w, vcal (velOf d.file x) = fin w ∧ IsDouble w ∧ |w - s x| ≤ |s x| / 2 ^ 51 + speck K ∧
      |s x| ≤ 2 * large K := by
    intro x hx
    obtain ⟨vc', e, h⟩ := mode_accurate mode _ _ _ (hv x hx) (hsv x hx)
    rw [hvc] at e
    cases e
    exact h
  have hin : ∀ w : K, within (fin lo) (fin hi) (fin w) = true ↔ lo ≤ w ∧ w ≤ hi := by
    intro w; unfold within; simp
  refine ⟨d', g', h1, fun x => within (fin lo) (fin hi) (vcal (velOf d.file x)), ?_, fun c hc => ?_⟩
  · intro x hx
    obtain ⟨w, e, _, e2, _⟩ := hacc x hx
    change _ ≤ |s x| / 2 ^ 51 + 1 / 2 ^ 535 at e2
    rw [abs_le] at e2
    beta_reduce
    rw [e, hin]
    generalize |s x| / 2 ^ 51 + 1 / 2 ^ 535 = m at e2 ⊢
    exact ⟨fun h => ⟨by linarith, by linarith⟩, fun h => ⟨by linarith, by linarith⟩⟩
  · intro S
    obtain ⟨k1, k2, k3⟩ := h6 c hc
    have hS : ∀ x ∈ S, x ∈ d.samples sel := fun x hx => (List.mem_filter.1 hx).1
    refine ⟨by rw [k1, List.length_map], fun h => k3 (by change S.map _ = []; rw [h]; rfl), fun hne => ?_⟩
    have hlenS : S.length < 2 ^ 52 := lt_of_le_of_lt (List.length_filter_le _ _) hlen
    classical
    let w : ℕ × ℕ → K := fun x => if h : x ∈ d.samples sel then (hacc x h).choose else 0
    have hwx : ∀ x ∈ S, vcal (velOf d.file x) = fin (w x) ∧ IsDouble (w x) ∧ |w x - s x| ≤ |s x| / 2 ^ 51 + speck K ∧
        |s x| ≤ 2 * large K := by
      intro x hx
      have h := hS x hx
      have e : w x = (hacc x h).choose := dif_pos h
      rw [e]
      exact (hacc x h).choose_spec
    obtain ⟨y, e1, e2⟩ := mean_of_rounded S w s hne hlenS (fun x hx => (hwx x hx).2.1) (fun x hx => (hwx x hx).2.2.1)
      (fun x hx => (hwx x hx).2.2.2)
    refine ⟨y, ?_, ?_⟩
    · rw [k2, ← e1]
      rw [List.length_map]
      congr 1
      congr 1
      exact List.map_congr_left fun x hx => (hwx x hx).1
    · unfold avg
      have : (4 : K) / 2 ^ 535 = 4 * speck K := by unfold speck; ring
      rw [this]
      exact e2

/-- The one-particle dataset of `UsedGrid` in binary64. -/
theorem one_stored (p : Profile) (kind : Kind) : ∃ d : Dm (Timestep B64), Dm.new p kind (fun _ => oneStep) 1 Timestep.default = .ok d ∧ d.Inv ∧
    d.samples Selector.default = [(0, 0)] ∧ (∀ t, t < d.n → (d.file t).Wf) ∧ StoredVel (velOf d.file (0, 0)) ![1, 0, 0] ∧
    inCell p (unitGrid (K := B64)).geom (posOf d.file (0, 0)) (fun _ => 0) = true := by
  obtain ⟨d, e, hinv, hf, hn, _⟩ := Dm.new_ok p kind (fun _ => oneStep (K := B64)) 1 Timestep.default (by norm_num) (by norm_num)
  refine ⟨d, e, hinv, by unfold Dm.samples; rw [hf, hn]; exact one_samples, fun t _ => by rw [hf]; exact ⟨rfl, rfl, rfl, rfl, rfl, rfl⟩, ?_, by
    rw [hf]; exact unit_lookup p⟩
  rw [hf]
  have h1 : IsDouble (1 : B64) ∧ |(1 : B64)| ≤ 2 ^ 500 := ⟨F.rnd_one, by rw [abs_one]; exact one_le_pow₀ (by norm_num)⟩
  have h0 : IsDouble (0 : B64) ∧ |(0 : B64)| ≤ 2 ^ 500 := ⟨F.rnd_zero, by rw [abs_zero]; exact pow_nonneg (by norm_num) _⟩
  intro a
  fin_cases a
  · exact ⟨rfl, h1⟩
  · exact ⟨rfl, h0⟩
  · exact ⟨rfl, h0⟩

/-- Witness for C105, in binary64. -/
example (p : Profile) (kind : Kind) : ∃ (d d' : Dm (Timestep B64)) (g' : VecGrid B64) (y : B64), Dm.new p kind (fun _ => oneStep) 1 Timestep.default = .ok d ∧
    vectorfield p d unitGrid Selector.default = .ok (d', g') ∧ (g'.comp 0).st.data.get (fun _ => 0) = fin y ∧ |y - 1| ≤ 6 / 2 ^ 52 + 4 / 2 ^ 535 := by
  obtain ⟨d, e, hinv, hS, hw, hv, hc⟩ := one_stored p kind
  obtain ⟨d', g', h1, h2⟩ := C105_vectorfield p d hinv unitGrid (fillable_cart p _ unit_isCart) (fun _ => ⟨rfl, rfl⟩) rfl Selector.default usable_default hw
    (by rw [hS]; norm_num) (fun _ => ![1, 0, 0]) (by rw [hS]; intro x hx; rw [List.mem_singleton.1 hx]; exact hv)
  obtain ⟨_, h3⟩ := h2 0 (fun _ => 0) (fun a => by simp [unitGrid, Grid.newCart, CartGeom.new, Geom.cells])
  have hf : ((d.samples Selector.default).filter fun x => inCell p (unitGrid (K := B64)).geom (posOf d.file x) fun _ => 0) = [(0, 0)] := by
    rw [hS]; simp [hc]
  rw [hf] at h3
  obtain ⟨y, y1, y2⟩ := h3 (by simp)
  refine ⟨d, d', g', y, e, h1, y1, ?_⟩
  have a1 : avg [((0 : ℕ), (0 : ℕ))] (fun _ => (1 : B64)) = 1 := by simp [avg]
  have a2 : avg [((0 : ℕ), (0 : ℕ))] (fun _ => |(1 : B64)|) = 1 := by simp [avg]
  change |y - avg [((0 : ℕ), (0 : ℕ))] (fun _ => (1 : B64))| ≤ ((1 : ℕ) + 5) / 2 ^ 52 * avg [((0 : ℕ), (0 : ℕ))] (fun _ => |(1 : B64)|) + 4 / 2 ^ 535 at y2
  rw [a1, a2, mul_one, Nat.cast_one, show (1 + 5 : B64) = 6 by norm_num] at y2
  exact y2


/-- Witness for C106, in binary64: the speed of one particle. -/
example (p : Profile) (kind : Kind) : ∃ (d d' : Dm (Timestep B64)) (g' : Grid B64) (y : B64), Dm.new p kind (fun _ => oneStep) 1 Timestep.default = .ok d ∧
    velocityfield p d unitGrid Selector.default "absolute" (fin 0) (fin 2) = .ok (d', g') ∧ g'.st.data.get (fun _ => 0) = fin y ∧
    |y - 1| ≤ 6 / 2 ^ 52 + 4 / 2 ^ 535 := by
  obtain ⟨d, e, hinv, hS, hw, hv, hc⟩ := one_stored p kind
  obtain ⟨d', g', h1, acc, h2, h3⟩ := C106_velocityfield p d hinv unitGrid (fillable_cart p _ unit_isCart) (fun _ => rfl) Selector.default usable_default hw
    (by rw [hS]; norm_num) (fun _ => ![1, 0, 0]) (by rw [hS]; intro x hx; rw [List.mem_singleton.1 hx]; exact hv) "absolute" (by simp) 0 2
    (fun _ => 1) (fun x _ => Or.inr (Or.inr (Or.inr ⟨zero_le_one, Or.inl ⟨rfl, by simp⟩⟩)))
  have hq : (1 : B64) / 2 ^ 535 ≤ 1 / 4 := by
    refine one_div_le_one_div_of_le (by norm_num) ?_
    rw [show (4 : B64) = 2 ^ 2 by norm_num]
    exact pow_le_pow_right₀ (by norm_num) (by norm_num)
  have hacc : acc (0, 0) = true := (h2 (0, 0) (by rw [hS]; simp)).2 (by
    rw [abs_one]
    generalize (1 : B64) / 2 ^ 535 = q at *
    constructor
    · have : (1 : B64) / 2 ^ 51 ≤ 1 / 4 := by norm_num
      linarith
    · have : (1 : B64) / 2 ^ 51 ≤ 1 / 4 := by norm_num
      linarith)
  obtain ⟨_, _, h4⟩ := h3 (fun _ => 0) (fun a => by simp [unitGrid, Grid.newCart, CartGeom.new, Geom.cells])
  have hf : ((d.samples Selector.default).filter fun x => inCell p (unitGrid (K := B64)).geom (posOf d.file x) (fun _ => 0) && acc x) = [(0, 0)] := by
    rw [hS]; simp [hc, hacc]
  rw [hf] at h4
  obtain ⟨y, y1, y2⟩ := h4 (by simp)
  refine ⟨d, d', g', y, e, h1, y1, ?_⟩
  have a1 : avg [((0 : ℕ), (0 : ℕ))] (fun _ => (1 : B64)) = 1 := by simp [avg]
  have a2 : avg [((0 : ℕ), (0 : ℕ))] (fun _ => |(1 : B64)|) = 1 := by simp [avg]
  change |y - avg [((0 : ℕ), (0 : ℕ))] (fun _ => (1 : B64))| ≤ ((1 : ℕ) + 5) / 2 ^ 52 * avg [((0 : ℕ), (0 : ℕ))] (fun _ => |(1 : B64)|) + 4 / 2 ^ 535 at y2
  rw [a1, a2, mul_one, Nat.cast_one, show (1 + 5 : B64) = 6 by norm_num] at y2
  exact y2

end Up4
