import Mathlib.Algebra.Order.Floor.Semifield
import Verif.Props.Pooling
import Verif.Props.CartLookup
import Verif.Props.Dispersion
import Verif.Props.UsedGrid

set_option linter.unusedSectionVars false

/-!
# C112, C113, C114: change of units, of the origin and of the resolution
-/

namespace Up4
open F

variable {K : Type} [Field K] [LinearOrder K] [IsStrictOrderedRing K] [FloorRing K] [Arith K]

/-- Which cell of a Cartesian grid contains a position, in exact arithmetic. The factor is the number of cells minus one: cell `i` covers
`[i/(n-1), (i+1)/(n-1))` of the extent, so the last cell consists of the upper limit only. -/
theorem cart_inCell [LawfulArith K] [ExactArith K] (p : Profile) (cells : CellId) (hc : CellsOk cells) (lo hi : Fin 3 → K) (hlt : ∀ a, lo a < hi a)
    (pos : Pos K) (c : CellId) :
    inCell p (Grid.newCart cells (finLimits lo hi)).geom pos c = true ↔
      ∃ x : Fin 3 → K, pos = finPos x ∧ ∀ a, lo a ≤ x a ∧ x a ≤ hi a ∧ c a = ⌊(x a - lo a) / (hi a - lo a) * ((cells a - 1 : ℕ) : K)⌋₊ := by
  have hbox : (Grid.newCart cells (finLimits lo hi)).geom.isInside pos = true ↔ ∃ x : Fin 3 → K, pos = finPos x ∧ ∀ a, lo a ≤ x a ∧ x a ≤ hi a := by
    constructor
    · intro h
      have h := (CartGeom.isInside_iff (CartGeom.new cells (finLimits lo hi)) pos).1 h
      have hx : ∀ a, ∃ x, pos a = fin x ∧ lo a ≤ x ∧ x ≤ hi a := by
        intro a
        obtain ⟨h0, h1, h2⟩ := h a
        change fin (lo a) ≤ pos a at h1
        change pos a ≤ fin (hi a) at h2
        cases hq : pos a with
        | nan => exact absurd hq h0
        | ninf => rw [hq] at h1; simp at h1
        | pinf => rw [hq] at h2; simp at h2
        | fin x => rw [hq, F.le_fin] at h1 h2; exact ⟨x, rfl, h1, h2⟩
      choose x hx using hx
      exact ⟨x, funext fun a => (hx a).1, fun a => (hx a).2⟩
    · rintro ⟨x, rfl, h⟩
      exact (cart_inside cells lo hi x).2 h
  have hlook : ∀ x : Fin 3 → K, (∀ a, lo a ≤ x a ∧ x a ≤ hi a) → (Grid.newCart cells (finLimits lo hi)).geom.lookup p (finPos x) =
      some fun a => ⌊(x a - lo a) / (hi a - lo a) * ((cells a - 1 : ℕ) : K)⌋₊ := by
    intro x hx
    have hin : (CartGeom.new cells (finLimits lo hi)).isInside (finPos x) = true := (cart_inside cells lo hi x).2 hx
    unfold Geom.lookup
    change (match (CartGeom.new cells (finLimits lo hi)).cellId p (finPos x) with | .ok r => r | .error _ => none) = _
    rw [CartGeom.cellId_eq p _ hc, if_pos hin]
    dsimp only
    congr 1
    funext a
    change CartGeom.axisVal (fin (lo a), fin (hi a)) (cells a) (fin (x a)) = _
    have hd : hi a - lo a ≠ 0 := (sub_pos.2 (hlt a)).ne'
    unfold CartGeom.axisVal
    rw [esub, esub, ediv _ hd, eofNat, emul]
    change min _ _ = _
    refine min_eq_left ?_
    have h1 : (x a - lo a) / (hi a - lo a) * ((cells a - 1 : ℕ) : K) ≤ ((cells a - 1 : ℕ) : K) := by
      refine mul_le_of_le_one_left (Nat.cast_nonneg _) ?_
      rw [div_le_one (sub_pos.2 (hlt a))]
      linarith [(hx a).2]
    have h2 := Nat.floor_le_floor h1
    rw [Nat.floor_natCast] at h2
    have h3 := (hc a).2
    unfold usizeMax
    omega
  unfold inCell
  rw [Bool.and_eq_true, hbox, decide_eq_true_eq]
  constructor
  · rintro ⟨⟨x, rfl, hx⟩, hl⟩
    rw [hlook x hx] at hl
    have hl := Option.some.inj hl
    exact ⟨x, rfl, fun a => ⟨(hx a).1, (hx a).2, (congrFun hl a).symm⟩⟩
  · rintro ⟨x, rfl, hx⟩
    refine ⟨⟨x, rfl, fun a => ⟨(hx a).1, (hx a).2.1⟩⟩, ?_⟩
    rw [hlook x fun a => ⟨(hx a).1, (hx a).2.1⟩]
    congr 1
    funext a
    exact ((hx a).2.2).symm

/-! ### C112 -/

/-- Another unit of length and another origin, per axis. -/
def affine (k s : Fin 3 → K) (q : Pos K) : Pos K := fun a => match q a with
  | .fin x => fin (k a * x + s a)
  | y => y

/-- The second dataset holds the positions of the first in other units, and everything else unchanged. -/
structure Rescaled (k s : Fin 3 → K) (d₁ d₂ : Dm (Timestep K)) : Prop where
  steps : d₂.n = d₁.n
  file : ∀ t, t < d₁.n → d₂.file t = { d₁.file t with position := (d₁.file t).position.map (affine k s) }

theorem affine_inCell [LawfulArith K] [ExactArith K] (p : Profile) (cells : CellId) (hc : CellsOk cells) (lo hi : Fin 3 → K) (hlt : ∀ a, lo a < hi a)
    (k s : Fin 3 → K) (hk : ∀ a, 0 < k a) (pos : Pos K) (c : CellId) :
    inCell p (Grid.newCart cells (finLimits (fun a => k a * lo a + s a) fun a => k a * hi a + s a)).geom (affine k s pos) c =
      inCell p (Grid.newCart cells (finLimits lo hi)).geom pos c := by
  have hlt' : ∀ a, k a * lo a + s a < k a * hi a + s a := fun a => by have := mul_lt_mul_of_pos_left (hlt a) (hk a); linarith
  have frac : ∀ a x, (k a * x + s a - (k a * lo a + s a)) / (k a * hi a + s a - (k a * lo a + s a)) = (x - lo a) / (hi a - lo a) := by
    intro a x
    rw [show k a * x + s a - (k a * lo a + s a) = k a * (x - lo a) by ring, show k a * hi a + s a - (k a * lo a + s a) = k a * (hi a - lo a) by ring,
      mul_div_mul_left _ _ (hk a).ne']
  rw [Bool.eq_iff_iff, cart_inCell p cells hc _ _ hlt', cart_inCell p cells hc _ _ hlt]
  constructor
  · rintro ⟨y, hy, h⟩
    have hx : ∀ a, ∃ x, pos a = fin x ∧ y a = k a * x + s a := by
      intro a
      have := congrFun hy a
      unfold affine finPos at this
      cases hq : pos a with
      | fin x =>
        rw [hq] at this
        dsimp only at this
        exact ⟨x, rfl, (F.fin.inj this).symm⟩
      | _ => rw [hq] at this; cases this
    choose x hx hxy using hx
    refine ⟨x, funext hx, fun a => ?_⟩
    obtain ⟨h1, h2, h3⟩ := h a
    rw [hxy a] at h1 h2 h3
    rw [frac] at h3
    exact ⟨le_of_mul_le_mul_left (by linarith) (hk a), le_of_mul_le_mul_left (by linarith) (hk a), h3⟩
  · rintro ⟨x, rfl, h⟩
    refine ⟨fun a => k a * x a + s a, rfl, fun a => ?_⟩
    obtain ⟨h1, h2, h3⟩ := h a
    rw [frac]
    have g1 := mul_le_mul_of_nonneg_left h1 (hk a).le
    have g2 := mul_le_mul_of_nonneg_left h2 (hk a).le
    exact ⟨by linarith, by linarith, h3⟩

theorem rescaled_seen {k s : Fin 3 → K} {d₁ d₂ : Dm (Timestep K)} (h : Rescaled k s d₁ d₂) (sel : Selector K) :
    d₂.samples sel = d₁.samples sel ∧ d₂.seen sel = (d₁.seen sel).map fun x => (affine k s x.1, x.2) := by
  have hs : d₂.samples sel = d₁.samples sel := by
    unfold Dm.samples samples
    rw [h.steps]
    refine List.flatMap_congr fun t ht => ?_
    rw [h.file t (List.mem_range.1 ht)]
    unfold Timestep.picks
    simp only [List.length_map]
    rfl
  refine ⟨hs, ?_⟩
  unfold Dm.seen
  rw [hs, List.map_map]
  refine List.map_congr_left fun x hx => ?_
  obtain ⟨t, i⟩ := x
  obtain ⟨ht, _, hi, _⟩ := (mem_samples _ _ _ _ _).1 hx
  have hf := h.file t (List.mem_range.1 ht)
  have e1 : posOf d₂.file (t, i) = affine k s (posOf d₁.file (t, i)) := by
    change (d₂.file t).pos i = affine k s ((d₁.file t).pos i)
    rw [hf]
    unfold Timestep.pos
    simp only [List.getD_eq_getElem?_getD, List.getElem?_map, List.getElem?_eq_getElem hi, Option.map_some, Option.getD_some]
  have e2 : velOf d₂.file (t, i) = velOf d₁.file (t, i) := by
    change (d₂.file t).vel i = (d₁.file t).vel i
    rw [hf]
    rfl
  rw [e1, e2]
  rfl

theorem rescaled_ready {k s : Fin 3 → K} {d₁ d₂ : Dm (Timestep K)} (h : Rescaled k s d₁ d₂) (hi : d₂.Inv) (sel : Selector K) (hr : Ready d₁ sel) :
    Ready d₂ sel := by
  refine ⟨hi, fun t ht => ?_, hr.usable, by rw [(rescaled_seen h sel).1]; exact hr.few⟩
  rw [h.steps] at ht
  obtain ⟨w1, w2, w3, w4, w5, w6⟩ := hr.wf t ht
  rw [h.file t ht]
  unfold Timestep.Wf
  simp only [List.length_map]
  exact ⟨w1, w2, w3, w4, w5, w6⟩

/-- **C112.** Positions and grid in other units and relative to another origin: every cell of the number, velocity and vector fields is unchanged. Cartesian grids, exact arithmetic. -/
theorem C112_units [LawfulArith K] [ExactArith K] (p : Profile) (cells : CellId) (hc : CellsOk cells) (lo hi : Fin 3 → K) (hlt : ∀ a, lo a < hi a)
    (k s : Fin 3 → K) (hk : ∀ a, 0 < k a) (d₁ d₂ : Dm (Timestep K)) (hd : Rescaled k s d₁ d₂) (hi₂ : d₂.Inv) (sel : Selector K) (hr : Ready d₁ sel)
    (hv : FiniteVel (d₁.seen sel)) :
    let grid₁ := Grid.newCart cells (finLimits lo hi)
    let grid₂ := Grid.newCart cells (finLimits (fun a => k a * lo a + s a) fun a => k a * hi a + s a)
    (∃ d₁' g₁ d₂' g₂, numberfield p d₁ grid₁ sel = .ok (d₁', g₁) ∧ numberfield p d₂ grid₂ sel = .ok (d₂', g₂) ∧
      ∀ c, g₁.st.data.get c = g₂.st.data.get c) ∧
    (∀ mode vlo vhi, mode ∈ ["x", "r", "y", "theta", "z", "absolute", "xy", "xz", "yz"] →
      ∃ d₁' g₁ d₂' g₂, velocityfield p d₁ grid₁ sel mode (fin vlo) (fin vhi) = .ok (d₁', g₁) ∧ velocityfield p d₂ grid₂ sel mode (fin vlo) (fin vhi) = .ok (d₂', g₂) ∧
        ∀ c, InB cells c → g₁.st.data.get c = g₂.st.data.get c) ∧
    (∃ d₁' g₁ d₂' g₂, vectorfield p d₁ grid₁ sel = .ok (d₁', g₁) ∧ vectorfield p d₂ grid₂ sel = .ok (d₂', g₂) ∧
      ∀ a c, InB cells c → (g₁.comp a).st.data.get c = (g₂.comp a).st.data.get c) := by
  intro grid₁ grid₂
  have hr₂ := rescaled_ready hd hi₂ sel hr
  obtain ⟨hsam, hseen⟩ := rescaled_seen hd sel
  have hg₁ : grid₁.Fillable p := fillable_cart p _ (isCart_new _ _ hc)
  have hg₂ : grid₂.Fillable p := fillable_cart p _ (isCart_new _ _ hc)
  have hin := affine_inCell p cells hc lo hi hlt k s hk
  have hv₂ : FiniteVel (d₂.seen sel) := by
    rw [hseen]
    intro x hx a
    obtain ⟨y, hy, rfl⟩ := List.mem_map.1 hx
    exact hv y hy a
  refine ⟨?_, ?_, ?_⟩
  · obtain ⟨d₁', g₁, r₁, _, _, _, _, _, e₁, _⟩ := C34_numberfield p d₁ hr.inv grid₁ hg₁ sel hr.usable hr.wf hr.few
    obtain ⟨d₂', g₂, r₂, _, _, _, _, _, e₂, _⟩ := C34_numberfield p d₂ hr₂.inv grid₂ hg₂ sel hr₂.usable hr₂.wf hr₂.few
    refine ⟨d₁', g₁, d₂', g₂, r₁, r₂, fun c => ?_⟩
    rw [e₁ c, e₂ c, seen_count sel d₁ fun q => inCell p grid₁.geom q c, seen_count sel d₂ fun q => inCell p grid₂.geom q c, hseen, List.countP_map]
    congr 3
    funext x
    exact (hin x.1 c).symm
  · intro mode vlo vhi hm
    obtain ⟨vcal, hvc⟩ : ∃ vcal, velMode (K := K) mode = .ok vcal := by
      simp only [List.mem_cons, List.not_mem_nil, or_false] at hm
      rcases hm with rfl | rfl | rfl | rfl | rfl | rfl | rfl | rfl | rfl <;> exact ⟨_, rfl⟩
    obtain ⟨d₁', g₁, r₁, e₁⟩ := velocity_cells p grid₁ hg₁ (fun _ => rfl) d₁ sel hr mode vcal hvc vlo vhi
    obtain ⟨d₂', g₂, r₂, e₂⟩ := velocity_cells p grid₂ hg₂ (fun _ => rfl) d₂ sel hr₂ mode vcal hvc vlo vhi
    refine ⟨d₁', g₁, d₂', g₂, r₁, r₂, fun c hcb => ?_⟩
    obtain ⟨u, u1, _, u3⟩ := e₁ c hcb
    obtain ⟨v, v1, _, v3⟩ := e₂ c hcb
    have huv : u = v := by
      have hperm : u.map fin = v.map fin := by
        rw [u1, v1, hseen]
        unfold cellValues
        rw [List.filter_map, List.map_map]
        congr 1
        refine List.filter_congr fun x _ => ?_
        simp only [Function.comp]
        rw [hin x.1 c]
      exact List.map_injective_iff.2 (fun x y h => F.fin.inj h) hperm
    rw [u3, v3, huv]
  · obtain ⟨d₁', g₁, r₁, e₁⟩ := vector_cells p grid₁ hg₁ (fun _ => ⟨rfl, rfl⟩) rfl d₁ sel hr hv
    obtain ⟨d₂', g₂, r₂, e₂⟩ := vector_cells p grid₂ hg₂ (fun _ => ⟨rfl, rfl⟩) rfl d₂ sel hr₂ hv₂
    refine ⟨d₁', g₁, d₂', g₂, r₁, r₂, fun a c hcb => ?_⟩
    obtain ⟨u, u1, _, u3⟩ := e₁ a c hcb
    obtain ⟨v, v1, _, v3⟩ := e₂ a c hcb
    have huv : u = v := by
      have hperm : u.map fin = v.map fin := by
        rw [u1, v1, hseen]
        unfold cellVelocities
        rw [List.filter_map, List.map_map]
        congr 1
        refine List.filter_congr fun x _ => ?_
        simp only [Function.comp]
        rw [hin x.1 c]
      exact List.map_injective_iff.2 (fun x y h => F.fin.inj h) hperm
    rw [u3, v3, huv]

/-- Witness for C112: metres against millimetres measured from another origin, four timesteps of the demo dataset, all its samples finite. -/
example (p : Profile) (kind : Kind) : ∃ d₁ d₂ : Dm (Timestep ℝ), Dm.new p kind demoFile 4 Timestep.default = .ok d₁ ∧
    Rescaled (fun _ => (1000 : ℝ)) (fun _ => 7) d₁ d₂ ∧ d₂.Inv ∧ Ready d₁ Selector.default ∧ FiniteVel (d₁.seen Selector.default) ∧
    d₁.seen Selector.default ≠ [] ∧ posOf d₂.file (2, 0) = finPos (fun _ => 1007) := by
  obtain ⟨d, e, hinv, hf, hn, hw, hS⟩ := demo_manager p kind 4 (by norm_num) (by norm_num)
  obtain ⟨d₂, _, hinv₂, hf₂, hn₂, _⟩ := Dm.new_ok p kind (fun t => { demoFile t with position := (demoFile t).position.map (affine (fun _ => 1000) fun _ => 7) }) 4
    Timestep.default (by norm_num) (by norm_num)
  refine ⟨d, d₂, e, ⟨by rw [hn, hn₂], fun t _ => by rw [hf, hf₂]⟩, hinv₂, ⟨hinv, hw, usable_default, by rw [hS]; simp⟩, ?_, ?_, ?_⟩
  · intro x hx a
    unfold Dm.seen at hx
    rw [hS] at hx
    obtain ⟨y, hy, rfl⟩ := List.mem_map.1 hx
    obtain ⟨t, _, rfl⟩ := List.mem_map.1 hy
    rw [hf]
    fin_cases a <;> exact ⟨_, rfl⟩
  · unfold Dm.seen
    rw [hS]
    simp
  · rw [hf₂]
    funext a
    change fin ((1000 : ℝ) * (((2 : ℕ) : ℝ) / 2) + 7) = fin 1007
    norm_num

/-! ### C113 -/

/-- The second dataset holds the velocities of the first in another unit, and everything else unchanged. -/
structure Faster (k : K) (d₁ d₂ : Dm (Timestep K)) : Prop where
  steps : d₂.n = d₁.n
  file : ∀ t, t < d₁.n → d₂.file t = { d₁.file t with velocity := (d₁.file t).velocity.map fun v a => fin k * v a }

theorem faster_seen {k : K} {d₁ d₂ : Dm (Timestep K)} (h : Faster k d₁ d₂) (hw : ∀ t, t < d₁.n → (d₁.file t).Wf) (sel : Selector K) :
    d₂.samples sel = d₁.samples sel ∧ d₂.seen sel = (d₁.seen sel).map fun x => (x.1, fun a => fin k * x.2 a) := by
  have hs : d₂.samples sel = d₁.samples sel := by
    unfold Dm.samples samples
    rw [h.steps]
    refine List.flatMap_congr fun t ht => ?_
    rw [h.file t (List.mem_range.1 ht)]
    rfl
  refine ⟨hs, ?_⟩
  unfold Dm.seen
  rw [hs, List.map_map]
  refine List.map_congr_left fun x hx => ?_
  obtain ⟨t, i⟩ := x
  obtain ⟨ht, _, hi, _⟩ := (mem_samples _ _ _ _ _).1 hx
  have hf := h.file t (List.mem_range.1 ht)
  have hi' : i < (d₁.file t).velocity.length := by rw [(hw t (List.mem_range.1 ht)).1]; exact hi
  have e1 : posOf d₂.file (t, i) = posOf d₁.file (t, i) := by
    change (d₂.file t).pos i = (d₁.file t).pos i
    rw [hf]
    rfl
  have e2 : velOf d₂.file (t, i) = fun a => fin k * velOf d₁.file (t, i) a := by
    change (d₂.file t).vel i = fun a => fin k * (d₁.file t).vel i a
    rw [hf]
    unfold Timestep.vel
    simp only [List.getD_eq_getElem?_getD, List.getElem?_map, List.getElem?_eq_getElem hi', Option.map_some, Option.getD_some]
  rw [e1, e2]
  rfl

theorem faster_ready {k : K} {d₁ d₂ : Dm (Timestep K)} (h : Faster k d₁ d₂) (hi : d₂.Inv) (sel : Selector K) (hr : Ready d₁ sel) :
    Ready d₂ sel := by
  refine ⟨hi, fun t ht => ?_, hr.usable, by rw [(faster_seen h hr.wf sel).1]; exact hr.few⟩
  rw [h.steps] at ht
  obtain ⟨w1, w2, w3, w4, w5, w6⟩ := hr.wf t ht
  rw [h.file t ht]
  unfold Timestep.Wf
  simp only [List.length_map]
  exact ⟨w1, w2, w3, w4, w5, w6⟩

theorem root_scale {k : K} (hk : 0 ≤ k) {a b S T : K} (hS : 0 ≤ S) (hT : 0 ≤ T) (h1 : S * S = a) (h2 : T * T = b) (h : b = k * k * a) : T = k * S := by
  refine (mul_self_inj hT (mul_nonneg hk hS)).1 ?_
  rw [h2, h, ← h1]
  ring

/-- Every measure of speed `velocityfield` knows scales with the unit of velocity. -/
theorem mode_scale [ExactArith K] (mode : String) (vcal : (Fin 3 → F K) → F K) (hm : velMode mode = .ok vcal) (k : K) (hk : 0 < k) (v : Fin 3 → F K)
    (hv : ∀ a, ∃ w, v a = fin w) : ∃ s, vcal v = fin s ∧ vcal (fun a => fin k * v a) = fin (k * s) := by
  choose w hw using hv
  obtain rfl : v = fun a => fin (w a) := funext hw
  simp only [emul]
  have two : ∀ x y : K, ∃ s, (F.sq (fin x) + F.sq (fin y)).sqrt = fin s ∧ (F.sq (fin (k * x)) + F.sq (fin (k * y))).sqrt = fin (k * s) := by
    intro x y
    unfold F.sq
    rw [emul, emul, emul, emul, eadd, eadd]
    obtain ⟨S, e1, e2, e3⟩ := sqrt_root (K := K) (x := x * x + y * y) (by nlinarith [mul_self_nonneg x, mul_self_nonneg y])
    obtain ⟨T, f1, f2, f3⟩ := sqrt_root (K := K) (x := k * x * (k * x) + k * y * (k * y)) (by nlinarith [mul_self_nonneg (k * x), mul_self_nonneg (k * y)])
    exact ⟨S, e1, by rw [f1, root_scale hk.le e2 f2 e3 f3 (by ring)]⟩
  have three : ∀ x y z : K, ∃ s, (F.sq (fin x) + F.sq (fin y) + F.sq (fin z)).sqrt = fin s ∧
      (F.sq (fin (k * x)) + F.sq (fin (k * y)) + F.sq (fin (k * z))).sqrt = fin (k * s) := by
    intro x y z
    unfold F.sq
    rw [emul, emul, emul, emul, emul, emul, eadd, eadd, eadd, eadd]
    obtain ⟨S, e1, e2, e3⟩ := sqrt_root (K := K) (x := x * x + y * y + z * z) (by nlinarith [mul_self_nonneg x, mul_self_nonneg y, mul_self_nonneg z])
    obtain ⟨T, f1, f2, f3⟩ := sqrt_root (K := K) (x := k * x * (k * x) + k * y * (k * y) + k * z * (k * z))
      (by nlinarith [mul_self_nonneg (k * x), mul_self_nonneg (k * y), mul_self_nonneg (k * z)])
    exact ⟨S, e1, by rw [f1, root_scale hk.le e2 f2 e3 f3 (by ring)]⟩
  unfold velMode at hm
  split_ifs at hm
  all_goals first
    | (cases hm; done)
    | (cases Except.ok.inj hm; exact three _ _ _)
    | (cases Except.ok.inj hm; exact two _ _)
    | (cases Except.ok.inj hm; exact ⟨_, rfl, rfl⟩)

theorem within_scale (k : K) (hk : 0 < k) (lo hi s : K) : within (fin (k * lo)) (fin (k * hi)) (fin (k * s)) = within (fin lo) (fin hi) (fin s) := by
  unfold within
  rw [Bool.eq_iff_iff]
  simp only [decide_eq_true_eq, F.le_fin]
  rw [mul_le_mul_iff_right₀ hk, mul_le_mul_iff_right₀ hk]

theorem scale_mean [ExactArith K] (k : K) {u v : List K} (h : v = u.map (k * ·)) :
    (if v = [] then F.nan else fin (v.sum / v.length)) = fin k * (if u = [] then F.nan else fin (u.sum / u.length)) := by
  subst h
  rw [List.sum_map_mul_left, List.map_id', List.length_map]
  by_cases h0 : u = []
  · rw [if_pos (by rw [h0]; rfl), if_pos h0]; rfl
  · rw [if_neg (by simpa using h0), if_neg h0, emul, mul_div_assoc]

/-- **C113.** Velocities in another unit (`k > 0` of the new unit per old one): every cell of the velocity fields (with the velocity limits in the new unit) and of
the granular temperature is the old value in the new unit; empty cells stay NaN. Exact arithmetic; any grid for the speeds and temperatures, Cartesian for the vector field. -/
theorem C113_velocityfield [LawfulArith K] [ExactArith K] (p : Profile) (grid : Grid K) (hg : grid.Fillable p) (hfresh : ∀ c, grid.st.weight.get c = 0)
    (k : K) (hk : 0 < k) (d₁ d₂ : Dm (Timestep K)) (hd : Faster k d₁ d₂) (hi₂ : d₂.Inv) (sel : Selector K) (hr : Ready d₁ sel)
    (hv : FiniteVel (d₁.seen sel)) (mode : String) (hm : mode ∈ ["x", "r", "y", "theta", "z", "absolute", "xy", "xz", "yz"]) (vlo vhi : K) :
    ∃ d₁' g₁ d₂' g₂, velocityfield p d₁ grid sel mode (fin vlo) (fin vhi) = .ok (d₁', g₁) ∧
      velocityfield p d₂ grid sel mode (fin (k * vlo)) (fin (k * vhi)) = .ok (d₂', g₂) ∧
      ∀ c, InB grid.geom.cells c → g₂.st.data.get c = fin k * g₁.st.data.get c ∧ g₂.st.weight.get c = g₁.st.weight.get c := by
  have hr₂ := faster_ready hd hi₂ sel hr
  obtain ⟨hsam, hseen⟩ := faster_seen hd hr.wf sel
  obtain ⟨vcal, hvc⟩ : ∃ vcal, velMode (K := K) mode = .ok vcal := by
    simp only [List.mem_cons, List.not_mem_nil, or_false] at hm
    rcases hm with rfl | rfl | rfl | rfl | rfl | rfl | rfl | rfl | rfl <;> exact ⟨_, rfl⟩
  obtain ⟨d₁', g₁, r₁, e₁⟩ := velocity_cells p grid hg hfresh d₁ sel hr mode vcal hvc vlo vhi
  obtain ⟨d₂', g₂, r₂, e₂⟩ := velocity_cells p grid hg hfresh d₂ sel hr₂ mode vcal hvc (k * vlo) (k * vhi)
  refine ⟨d₁', g₁, d₂', g₂, r₁, r₂, fun c hcb => ?_⟩
  obtain ⟨u, u1, u2, u3⟩ := e₁ c hcb
  obtain ⟨v, v1, v2, v3⟩ := e₂ c hcb
  have huv : v = u.map (k * ·) := by
    have hl : v.map fin = (u.map (k * ·)).map fin := by
      have e : (u.map (k * ·)).map fin = (u.map fin).map fun x : F K => fin k * x := by
        rw [List.map_map, List.map_map]
        exact List.map_congr_left fun x _ => (emul k x).symm
      rw [e, u1, v1, hseen]
      unfold cellValues
      rw [List.filter_map, List.map_map, List.map_map]
      have hf : ∀ x ∈ d₁.seen sel, ((fun x : Pos K × (Fin 3 → F K) => inCell p grid.geom x.1 c && within (fin (k * vlo)) (fin (k * vhi)) (vcal x.2)) ∘
          fun x => (x.1, fun a => fin k * x.2 a)) x = (inCell p grid.geom x.1 c && within (fin vlo) (fin vhi) (vcal x.2)) := by
        intro x hx
        obtain ⟨s, s1, s2⟩ := mode_scale mode vcal hvc k hk x.2 (hv x hx)
        simp only [Function.comp]
        rw [s1, s2, within_scale k hk]
      rw [List.filter_congr hf]
      refine List.map_congr_left fun x hx => ?_
      obtain ⟨s, s1, s2⟩ := mode_scale mode vcal hvc k hk x.2 (hv x (List.mem_of_mem_filter hx))
      simp only [Function.comp]
      rw [s1, s2, emul]
    exact List.map_injective_iff.2 (fun x y h => F.fin.inj h) hl
  refine ⟨by rw [u3, v3, scale_mean k huv], by rw [u2, v2, huv, List.length_map]⟩

/-- **C113 (vector field).** -/
theorem C113_vectorfield [LawfulArith K] [ExactArith K] (p : Profile) (grid : Grid K) (hg : grid.Fillable p)
    (hfresh : ∀ c, grid.st.weight.get c = 0 ∧ grid.st.data.get c = 0) (hcart : grid.geom.isCylindrical = false)
    (k : K) (d₁ d₂ : Dm (Timestep K)) (hd : Faster k d₁ d₂) (hi₂ : d₂.Inv) (sel : Selector K) (hr : Ready d₁ sel) (hv : FiniteVel (d₁.seen sel)) :
    ∃ d₁' g₁ d₂' g₂, vectorfield p d₁ grid sel = .ok (d₁', g₁) ∧ vectorfield p d₂ grid sel = .ok (d₂', g₂) ∧
      ∀ a c, InB grid.geom.cells c → (g₂.comp a).st.data.get c = fin k * (g₁.comp a).st.data.get c := by
  have hr₂ := faster_ready hd hi₂ sel hr
  obtain ⟨hsam, hseen⟩ := faster_seen hd hr.wf sel
  have hv₂ : FiniteVel (d₂.seen sel) := by
    rw [hseen]
    intro x hx a
    obtain ⟨y, hy, rfl⟩ := List.mem_map.1 hx
    obtain ⟨w, hw⟩ := hv y hy a
    exact ⟨k * w, by dsimp only; rw [hw, emul]⟩
  obtain ⟨d₁', g₁, r₁, e₁⟩ := vector_cells p grid hg hfresh hcart d₁ sel hr hv
  obtain ⟨d₂', g₂, r₂, e₂⟩ := vector_cells p grid hg hfresh hcart d₂ sel hr₂ hv₂
  refine ⟨d₁', g₁, d₂', g₂, r₁, r₂, fun a c hcb => ?_⟩
  obtain ⟨u, u1, u2, u3⟩ := e₁ a c hcb
  obtain ⟨v, v1, v2, v3⟩ := e₂ a c hcb
  have huv : v = u.map (k * ·) := by
    have hl : v.map fin = (u.map (k * ·)).map fin := by
      have e : (u.map (k * ·)).map fin = (u.map fin).map fun x : F K => fin k * x := by
        rw [List.map_map, List.map_map]
        exact List.map_congr_left fun x _ => (emul k x).symm
      rw [e, u1, v1, hseen]
      unfold cellVelocities
      rw [List.filter_map, List.map_map, List.map_map]
      rfl
    exact List.map_injective_iff.2 (fun x y h => F.fin.inj h) hl
  rw [u3, v3, scale_mean k huv]

theorem meanSqDev_scale (k : K) (l : List K) : meanSqDev (l.map (k * ·)) = k * k * meanSqDev l := by
  unfold meanSqDev mean
  rw [List.length_map, List.map_map, List.sum_map_mul_left, List.map_id', ← mul_div_assoc, ← List.sum_map_mul_left]
  congr 2
  refine List.map_congr_left fun x _ => ?_
  simp only [Function.comp]
  ring

theorem fluctuation_scale (mode : String) (k : K) (l : Fin 3 → List K) : fluctuation mode (fun a => (l a).map (k * ·)) = k * k * fluctuation mode l := by
  unfold fluctuation
  simp only [meanSqDev_scale]
  split_ifs
  · rfl
  · rfl
  · rfl
  · ring

/-- **C113 (granular temperature).** -/
theorem C113_granular [LawfulArith K] [ExactArith K] (p : Profile) (grid : Grid K) (hg : grid.Fillable p) (hfresh : ∀ c, grid.st.data.get c = 0)
    (k : K) (hk : 0 < k) (d₁ d₂ : Dm (Timestep K)) (hd : Faster k d₁ d₂) (hi₂ : d₂.Inv) (sel : Selector K) (hr : Ready d₁ sel) (hv : FiniteVel (d₁.seen sel))
    (mode : String) (hm : mode = "x" ∨ mode = "y" ∨ mode = "z" ∨ mode = "xyz") :
    ∃ d₁' g₁ d₂' g₂, granularTemperature p d₁ grid sel mode = .ok (d₁', g₁) ∧ granularTemperature p d₂ grid sel mode = .ok (d₂', g₂) ∧
      ∀ c, InB grid.geom.cells c → g₂.st.data.get c = fin k * g₁.st.data.get c := by
  have hr₂ := faster_ready hd hi₂ sel hr
  obtain ⟨hsam, hseen⟩ := faster_seen hd hr.wf sel
  obtain ⟨v, hv₁⟩ := seen_finite hv
  have hall : ∀ x ∈ d₁.samples sel, posOf d₂.file x = posOf d₁.file x ∧ ∀ a, velOf d₂.file x a = fin (k * v x a) := by
    intro x hx
    have hb := hseen
    unfold Dm.seen at hb
    rw [hsam, List.map_map, List.map_inj_left] at hb
    have hb := hb x hx
    refine ⟨(Prod.mk.inj hb).1, fun a => ?_⟩
    have := congrFun (Prod.mk.inj hb).2 a
    rw [this, ← emul, ← hv₁ x hx a]
  obtain ⟨d₁', g₁, r₁, _, _, _, _, e₁⟩ := C40_granular p d₁ hr.inv grid hg hfresh sel hr.usable hr.wf v (fun x hx _ => hv₁ x hx) mode hm
  obtain ⟨d₂', g₂, r₂, _, _, _, _, e₂⟩ := C40_granular p d₂ hr₂.inv grid hg hfresh sel hr₂.usable hr₂.wf (fun x a => k * v x a)
    (fun x hx _ => (hall x (by rwa [hsam] at hx)).2) mode hm
  refine ⟨d₁', g₁, d₂', g₂, r₁, r₂, fun c hc => ?_⟩
  obtain ⟨_, u2, u3⟩ := e₁ c hc
  obtain ⟨_, w2, w3⟩ := e₂ c hc
  have hS : ((d₂.samples sel).filter fun x => inCell p grid.geom (posOf d₂.file x) c) = (d₁.samples sel).filter fun x => inCell p grid.geom (posOf d₁.file x) c := by
    rw [hsam]
    exact List.filter_congr fun x hx => by rw [(hall x hx).1]
  rw [hS] at w2 w3
  by_cases h : ((d₁.samples sel).filter fun x => inCell p grid.geom (posOf d₁.file x) c) = []
  · rw [u2 h, w2 h]; rfl
  · obtain ⟨T, t1, t2, t3⟩ := u3 h
    obtain ⟨U, q1, q2, q3⟩ := w3 h
    rw [t1, q1, emul, root_scale hk.le t2 q2 t3 q3]
    rw [← fluctuation_scale]
    simp only [List.map_map]
    rfl

/-- Witness for C113: the demo dataset with speeds in cm/s instead of m/s. -/
example (p : Profile) (kind : Kind) : ∃ d₁ d₂ : Dm (Timestep ℝ), Dm.new p kind demoFile 4 Timestep.default = .ok d₁ ∧
    Faster (100 : ℝ) d₁ d₂ ∧ d₂.Inv ∧ Ready d₁ Selector.default ∧ FiniteVel (d₁.seen Selector.default) ∧
    d₁.seen Selector.default ≠ [] ∧ velOf d₂.file (2, 0) 2 = fin 400 := by
  obtain ⟨d, e, hinv, hf, hn, hw, hS⟩ := demo_manager p kind 4 (by norm_num) (by norm_num)
  obtain ⟨d₂, _, hinv₂, hf₂, hn₂, _⟩ := Dm.new_ok p kind (fun t => { demoFile t with velocity := (demoFile t).velocity.map fun v a => fin 100 * v a }) 4
    Timestep.default (by norm_num) (by norm_num)
  refine ⟨d, d₂, e, ⟨by rw [hn, hn₂], fun t _ => by rw [hf, hf₂]⟩, hinv₂, ⟨hinv, hw, usable_default, by rw [hS]; simp⟩, ?_, ?_, ?_⟩
  · intro x hx a
    unfold Dm.seen at hx
    rw [hS] at hx
    obtain ⟨y, hy, rfl⟩ := List.mem_map.1 hx
    obtain ⟨t, _, rfl⟩ := List.mem_map.1 hy
    rw [hf]
    fin_cases a <;> exact ⟨_, rfl⟩
  · unfold Dm.seen
    rw [hS]
    simp
  · rw [hf₂]
    change (fin (100 : ℝ) : F ℝ) * fin 4 = fin 400
    rw [emul]
    norm_num

/-! ### C114 -/

/-- A partition of the positions of one cell refines its count. -/
theorem count_refine {α ι : Type} [DecidableEq ι] (l : List α) (P : α → Bool) (Q : α → ι → Bool) (fs : Finset ι)
    (h : ∀ x ∈ l, P x = true → ∃ i ∈ fs, ∀ j ∈ fs, Q x j = true ↔ j = i) (h' : ∀ x ∈ l, P x = false → ∀ j ∈ fs, Q x j = false) :
    l.countP P = ∑ i ∈ fs, l.countP fun x => Q x i := by
  induction l with
  | nil => simp
  | cons x l ih =>
    simp only [List.countP_cons]
    rw [Finset.sum_add_distrib, ← ih (fun y hy => h y (List.mem_cons_of_mem _ hy)) (fun y hy => h' y (List.mem_cons_of_mem _ hy))]
    congr 1
    cases hp : P x with
    | true =>
      obtain ⟨i, hi, hj⟩ := h x (by simp) hp
      rw [Finset.sum_congr rfl fun j hjm => by
        rw [show (if Q x j = true then 1 else 0) = if j = i then 1 else 0 by simp only [hj j hjm]]]
      simp [hi]
    | false =>
      rw [Finset.sum_congr rfl fun j hjm => by rw [h' x (by simp) hp j hjm]]
      simp

/-- **C114, the part that holds.** If every axis has `m·(n - 1) + 1` instead of `n` cells, the number in a cell of the coarse grid is the sum of the numbers in the
fine cells whose index divided by `m` is the coarse index. Exact arithmetic. Missing: any other number of cells, for instance twice as many (`C114_false`). -/
theorem C114_numberfield_partial [LawfulArith K] [ExactArith K] (p : Profile) (cells fine m : CellId) (hm : ∀ a, 1 ≤ m a) (hc : CellsOk cells) (hcf : CellsOk fine)
    (hfine : ∀ a, fine a = m a * (cells a - 1) + 1) (lo hi : Fin 3 → K) (hlt : ∀ a, lo a < hi a) (d : Dm (Timestep K)) (sel : Selector K) (hr : Ready d sel) :
    ∃ d₁ g₁ d₂ g₂, numberfield p d (Grid.newCart cells (finLimits lo hi)) sel = .ok (d₁, g₁) ∧ numberfield p d (Grid.newCart fine (finLimits lo hi)) sel = .ok (d₂, g₂) ∧
      ∃ N M : CellId → ℕ, (∀ c, g₁.st.data.get c = fin (N c : K)) ∧ (∀ f, g₂.st.data.get f = fin (M f : K)) ∧
        ∀ c, N c = ∑ f ∈ cellsOf fine with (∀ a, f a / m a = c a), M f := by
  obtain ⟨d₁, g₁, r₁, _, _, _, _, _, e₁, _⟩ := C34_numberfield p d hr.inv _ (fillable_cart p _ (isCart_new _ (finLimits lo hi) hc)) sel hr.usable hr.wf hr.few
  obtain ⟨d₂, g₂, r₂, _, _, _, _, _, e₂, _⟩ := C34_numberfield p d hr.inv _ (fillable_cart p _ (isCart_new _ (finLimits lo hi) hcf)) sel hr.usable hr.wf hr.few
  refine ⟨d₁, g₁, d₂, g₂, r₁, r₂, _, _, e₁, e₂, fun c => ?_⟩
  have hidx : ∀ (x : Fin 3 → K) a, ⌊(x a - lo a) / (hi a - lo a) * ((fine a - 1 : ℕ) : K)⌋₊ / m a = ⌊(x a - lo a) / (hi a - lo a) * ((cells a - 1 : ℕ) : K)⌋₊ := by
    intro x a
    have hm0 : ((m a : ℕ) : K) ≠ 0 := by have := hm a; exact_mod_cast (by omega : m a ≠ 0)
    rw [← Nat.floor_div_natCast, hfine a, Nat.add_sub_cancel, Nat.cast_mul]
    congr 1
    field_simp
  refine count_refine (d.samples sel) _ (fun x f => inCell p (Grid.newCart fine (finLimits lo hi)).geom (posOf d.file x) f) _ ?_ ?_
  · intro y _ hy
    obtain ⟨x, hx, h⟩ := (cart_inCell p cells hc lo hi hlt _ c).1 hy
    refine ⟨fun a => ⌊(x a - lo a) / (hi a - lo a) * ((fine a - 1 : ℕ) : K)⌋₊, ?_, fun f hf => ?_⟩
    · rw [Finset.mem_filter]
      refine ⟨(mem_cellsOf _ _).2 fun a => ?_, fun a => by rw [hidx]; exact ((h a).2.2).symm⟩
      have h1 : (x a - lo a) / (hi a - lo a) * ((fine a - 1 : ℕ) : K) ≤ ((fine a - 1 : ℕ) : K) := by
        refine mul_le_of_le_one_left (Nat.cast_nonneg _) ?_
        rw [div_le_one (sub_pos.2 (hlt a))]
        linarith [(h a).2.1]
      have h2 := Nat.floor_le_floor h1
      rw [Nat.floor_natCast] at h2
      have := (hcf a).1
      omega
    · rw [hx, cart_inCell p fine hcf lo hi hlt]
      constructor
      · rintro ⟨z, hz, hz'⟩
        obtain rfl : x = z := funext fun a => F.fin.inj (congrFun hz a)
        exact funext fun a => (hz' a).2.2
      · intro hf
        exact ⟨x, rfl, fun a => ⟨(h a).1, (h a).2.1, congrFun hf a⟩⟩
  · intro y _ hy f hf
    rw [← Bool.not_eq_true, cart_inCell p fine hcf lo hi hlt]
    rintro ⟨x, hx, h⟩
    rw [← Bool.not_eq_true] at hy
    refine hy ((cart_inCell p cells hc lo hi hlt _ c).2 ⟨x, hx, fun a => ⟨(h a).1, (h a).2.1, ?_⟩⟩)
    rw [← (Finset.mem_filter.1 hf).2 a, (h a).2.2, hidx]

/-- Witness for C114: three cells refined to five, on the demo dataset. -/
example (p : Profile) (kind : Kind) : CellsOk (fun _ => 3) ∧ CellsOk (fun _ => 5) ∧ (∀ _ : Fin 3, 5 = 2 * (3 - 1) + 1) ∧
    ∃ d : Dm (Timestep ℝ), Dm.new p kind demoFile 4 Timestep.default = .ok d ∧ Ready d Selector.default ∧ (d.samples Selector.default).length = 4 := by
  obtain ⟨d, e, hinv, hf, hn, hw, hS⟩ := demo_manager p kind 4 (by norm_num) (by norm_num)
  exact ⟨fun _ => by norm_num, fun _ => by norm_num, fun _ => by norm_num, d, e, ⟨hinv, hw, usable_default, by rw [hS]; simp⟩, by rw [hS]; simp⟩

/-- One particle at `(3, 3, 3)`. -/
def threeStep : Timestep K :=
  ⟨fin 0, [fun _ => fin 3], [fun _ => fin 0], [fin 1], [fin 1], [fin 0], [fin 0], [fin 0]⟩

/-- **C114 fails.** Twice as many cells per axis: the particle counted in cell `(0,0,0)` of two cells per axis is not in one of the fine cells `0, 1` but in fine cell `2`,
whose parent is cell `1`. -/
theorem C114_false [LawfulArith K] [ExactArith K] (p : Profile) (kind : Kind) :
    ∃ d d₁ d₂ : Dm (Timestep K), ∃ g₁ g₂ : Grid K, Dm.new p kind (fun _ => threeStep) 1 Timestep.default = .ok d ∧
      numberfield p d (Grid.newCart (fun _ => 2) (finLimits (fun _ => 0) fun _ => 4)) Selector.default = .ok (d₁, g₁) ∧
      numberfield p d (Grid.newCart (fun _ => 4) (finLimits (fun _ => 0) fun _ => 4)) Selector.default = .ok (d₂, g₂) ∧
      g₁.st.data.get (fun _ => 0) = fin 1 ∧ g₁.st.data.get (fun _ => 1) = fin 0 ∧
      ∀ f : CellId, g₂.st.data.get f = if f = (fun _ => 2) then fin 1 else fin 0 := by
  obtain ⟨d, e, hinv, hf, hn, _⟩ := Dm.new_ok p kind (fun _ => threeStep (K := K)) 1 Timestep.default (by norm_num) (by norm_num)
  have hS : d.samples Selector.default = [(0, 0)] := by
    unfold Dm.samples
    rw [hf, hn]
    have ht : (Selector.default : Selector K).timestepValid (threeStep (K := K)).time = true := one_time
    unfold samples Timestep.picks
    simp only [ht, if_true]
    simp [threeStep, chosen_default]
  have hw : ∀ t, t < d.n → (d.file t).Wf := fun t _ => by rw [hf]; exact ⟨rfl, rfl, rfl, rfl, rfl, rfl⟩
  have hc2 : CellsOk (fun _ => 2) := fun _ => by norm_num
  have hc4 : CellsOk (fun _ => 4) := fun _ => by norm_num
  have hlt : ∀ _ : Fin 3, (0 : K) < 4 := fun _ => by norm_num
  obtain ⟨d₁, g₁, r₁, _, _, _, _, _, e₁, _⟩ := C34_numberfield p d hinv _ (fillable_cart p _ (isCart_new _ (finLimits (fun _ => (0 : K)) fun _ => 4) hc2)) Selector.default
    usable_default hw (by rw [hS]; norm_num)
  obtain ⟨d₂, g₂, r₂, _, _, _, _, _, e₂, _⟩ := C34_numberfield p d hinv _ (fillable_cart p _ (isCart_new _ (finLimits (fun _ => (0 : K)) fun _ => 4) hc4)) Selector.default
    usable_default hw (by rw [hS]; norm_num)
  have hpos : posOf d.file (0, 0) = finPos fun _ => (3 : K) := by rw [hf]; rfl
  have f2 : ⌊(3 - 0 : K) / (4 - 0) * (((2 : ℕ) - 1 : ℕ) : K)⌋₊ = 0 := by
    rw [Nat.floor_eq_iff (by norm_num)]
    norm_num
  have f4 : ⌊(3 - 0 : K) / (4 - 0) * (((4 : ℕ) - 1 : ℕ) : K)⌋₊ = 2 := by
    rw [Nat.floor_eq_iff (by norm_num)]
    norm_num
  have c2 : ∀ c, inCell p (Grid.newCart (fun _ => 2) (finLimits (fun _ => (0 : K)) fun _ => 4)).geom (posOf d.file (0, 0)) c = decide (c = fun _ => 0) := by
    intro c
    rw [Bool.eq_iff_iff, hpos, cart_inCell p _ hc2 _ _ hlt, decide_eq_true_eq]
    constructor
    · rintro ⟨x, hx, h⟩
      obtain rfl : (fun _ => (3 : K)) = x := funext fun a => F.fin.inj (congrFun hx a)
      exact funext fun a => (h a).2.2.trans f2
    · rintro rfl
      exact ⟨fun _ => 3, rfl, fun a => ⟨by norm_num, by norm_num, f2.symm⟩⟩
  have c4 : ∀ c, inCell p (Grid.newCart (fun _ => 4) (finLimits (fun _ => (0 : K)) fun _ => 4)).geom (posOf d.file (0, 0)) c = decide (c = fun _ => 2) := by
    intro c
    rw [Bool.eq_iff_iff, hpos, cart_inCell p _ hc4 _ _ hlt, decide_eq_true_eq]
    constructor
    · rintro ⟨x, hx, h⟩
      obtain rfl : (fun _ => (3 : K)) = x := funext fun a => F.fin.inj (congrFun hx a)
      exact funext fun a => (h a).2.2.trans f4
    · rintro rfl
      exact ⟨fun _ => 3, rfl, fun a => ⟨by norm_num, by norm_num, f4.symm⟩⟩
  refine ⟨d, d₁, d₂, g₁, g₂, e, r₁, r₂, ?_, ?_, fun f => ?_⟩
  · rw [e₁, hS, List.countP_cons, c2]
    simp
  · rw [e₁, hS, List.countP_cons, c2, if_neg]
    · simp
    · simp only [decide_eq_true_eq]
      exact fun h => absurd (congrFun h 0) (by norm_num)
  · rw [e₂, hS, List.countP_cons, c4]
    by_cases h : f = fun _ => 2
    · simp [h]
    · simp [h]

end Up4
