import Verif.Props.Units
import Verif.Props.UsedGrid

set_option linter.unusedSectionVars false

/-! # C139: mirror images -/

namespace Up4
open F

variable {K : Type} [Field K] [LinearOrder K] [IsStrictOrderedRing K] [FloorRing K] [Arith K]

/-- The mirror image of a position in the plane halfway between the limits `lo` and `hi` of axis `b` (`s = lo + hi`). -/
def mirrorPos (b : Fin 3) (s : K) (q : Pos K) : Pos K := Function.update q b (fin s - q b)

/-- The mirror image of a velocity. -/
def mirrorVel (b : Fin 3) (v : Fin 3 → F K) : Fin 3 → F K := Function.update v b (-(v b))

/-- The second dataset is the mirror image of the first. -/
structure Mirrored (b : Fin 3) (s : K) (d₁ d₂ : Dm (Timestep K)) : Prop where
  steps : d₂.n = d₁.n
  file : ∀ t, t < d₁.n → d₂.file t =
    { d₁.file t with position := (d₁.file t).position.map (mirrorPos b s), velocity := (d₁.file t).velocity.map (mirrorVel b) }

theorem mirrored_seen {b : Fin 3} {s : K} {d₁ d₂ : Dm (Timestep K)} (h : Mirrored b s d₁ d₂) (hw : ∀ t, t < d₁.n → (d₁.file t).Wf) (sel : Selector K) :
    d₂.samples sel = d₁.samples sel ∧ d₂.seen sel = (d₁.seen sel).map fun x => (mirrorPos b s x.1, mirrorVel b x.2) := by
  have hs : d₂.samples sel = d₁.samples sel := by
    unfold Dm.samples samples
    rw [h.steps]
    refine List.flatMap_congr fun t ht => ?_
    rw [h.file t (List.mem_range.1 ht)]
    unfold Timestep.picks
    simp only [List.length_map]
    rfl
  refine ⟨hs, ?_⟩
  unfold Dm.seen
  rw [hs, List.map_map]
  refine List.map_congr_left fun x hx => ?_
  obtain ⟨t, i⟩ := x
  obtain ⟨ht, _, hi, _⟩ := (mem_samples _ _ _ _ _).1 hx
  have hf := h.file t (List.mem_range.1 ht)
  have hi' : i < (d₁.file t).velocity.length := by rw [(hw t (List.mem_range.1 ht)).1]; exact hi
  have e1 : posOf d₂.file (t, i) = mirrorPos b s (posOf d₁.file (t, i)) := by
    change (d₂.file t).pos i = mirrorPos b s ((d₁.file t).pos i)
    rw [hf]
    unfold Timestep.pos
    simp only [List.getD_eq_getElem?_getD, List.getElem?_map, List.getElem?_eq_getElem hi, Option.map_some, Option.getD_some]
  have e2 : velOf d₂.file (t, i) = mirrorVel b (velOf d₁.file (t, i)) := by
    change (d₂.file t).vel i = mirrorVel b ((d₁.file t).vel i)
    rw [hf]
    unfold Timestep.vel
    simp only [List.getD_eq_getElem?_getD, List.getElem?_map, List.getElem?_eq_getElem hi', Option.map_some, Option.getD_some]
  rw [e1, e2]
  rfl

theorem mirrored_ready {b : Fin 3} {s : K} {d₁ d₂ : Dm (Timestep K)} (h : Mirrored b s d₁ d₂) (hi : d₂.Inv) (sel : Selector K) (hr : Ready d₁ sel) :
    Ready d₂ sel := by
  refine ⟨hi, fun t ht => ?_, hr.usable, by rw [(mirrored_seen h hr.wf sel).1]; exact hr.few⟩
  rw [h.steps] at ht
  obtain ⟨w1, w2, w3, w4, w5, w6⟩ := hr.wf t ht
  rw [h.file t ht]
  unfold Timestep.Wf
  simp only [List.length_map]
  exact ⟨w1, w2, w3, w4, w5, w6⟩

theorem floor_mirror (m : ℕ) (y : K) (h0 : 0 ≤ y) (h1 : y ≤ m) (hy : ∀ i : ℕ, y ≠ i) : ⌊y⌋₊ < m ∧ ⌊(m : K) - y⌋₊ = m - 1 - ⌊y⌋₊ := by
  have g1 := Nat.floor_le h0
  have g2 := Nat.lt_floor_add_one y
  have g3 : (⌊y⌋₊ : K) < y := lt_of_le_of_ne g1 fun h => hy _ h.symm
  have g4 : ⌊y⌋₊ < m := by exact_mod_cast lt_of_lt_of_le g3 h1
  refine ⟨g4, ?_⟩
  rw [Nat.floor_eq_iff (by linarith)]
  have e : ((m - 1 - ⌊y⌋₊ : ℕ) : K) = (m : K) - 1 - ⌊y⌋₊ := by
    rw [Nat.sub_sub, Nat.cast_sub (by omega)]
    push_cast
    ring
  rw [e]
  constructor <;> linarith

/-- The faces between the cells along an axis: at `i/(n - 1)` of the extent (see C04: the cells are one more than the intervals). -/
def face (lo hi : K) (n i : ℕ) : K := lo + (i : K) * ((hi - lo) / ((n - 1 : ℕ) : K))

/-- The index of the mirror image of a cell: cell `i` covers the interval from face `i` to face `i + 1`, so this is `n - 2 - i`. -/
def mirrorCell (b : Fin 3) (cells c : CellId) : CellId := Function.update c b (cells b - 2 - c b)

theorem mirror_inCell [LawfulArith K] [ExactArith K] (p : Profile) (b : Fin 3) (cells : CellId) (hc : CellsOk cells) (h2 : 2 ≤ cells b) (lo hi : Fin 3 → K)
    (hlt : ∀ a, lo a < hi a) (pos : Pos K) (hoff : ∀ i : ℕ, pos b ≠ fin (face (lo b) (hi b) (cells b) i)) (c : CellId) (hcb : c b + 1 < cells b) :
    inCell p (Grid.newCart cells (finLimits lo hi)).geom (mirrorPos b (lo b + hi b) pos) (mirrorCell b cells c) =
      inCell p (Grid.newCart cells (finLimits lo hi)).geom pos c := by
  have hd : hi b - lo b ≠ 0 := (sub_pos.2 (hlt b)).ne'
  have hm0 : ((cells b - 1 : ℕ) : K) ≠ 0 := by
    have : cells b - 1 ≠ 0 := by omega
    exact_mod_cast this
  -- on the mirrored axis
  have key : ∀ x : K, pos b = fin x → lo b ≤ x → x ≤ hi b →
      ⌊(lo b + hi b - x - lo b) / (hi b - lo b) * ((cells b - 1 : ℕ) : K)⌋₊ = cells b - 2 - ⌊(x - lo b) / (hi b - lo b) * ((cells b - 1 : ℕ) : K)⌋₊ ∧
        ⌊(x - lo b) / (hi b - lo b) * ((cells b - 1 : ℕ) : K)⌋₊ < cells b - 1 := by
    intro x hx h1 h2'
    have hpos := sub_pos.2 (hlt b)
    have f := floor_mirror (cells b - 1) ((x - lo b) / (hi b - lo b) * ((cells b - 1 : ℕ) : K))
      (mul_nonneg (div_nonneg (by linarith) hpos.le) (Nat.cast_nonneg _))
      (mul_le_of_le_one_left (Nat.cast_nonneg _) (by rw [div_le_one hpos]; linarith)) (by
        intro i hi'
        refine hoff i ?_
        rw [hx]
        congr 1
        unfold face
        rw [← hi']
        field_simp
        ring)
    refine ⟨?_, f.1⟩
    have e : (lo b + hi b - x - lo b) / (hi b - lo b) * ((cells b - 1 : ℕ) : K) = ((cells b - 1 : ℕ) : K) - (x - lo b) / (hi b - lo b) * ((cells b - 1 : ℕ) : K) := by
      field_simp
      ring
    rw [e, f.2]
    omega
  rw [Bool.eq_iff_iff, cart_inCell p cells hc _ _ hlt, cart_inCell p cells hc _ _ hlt]
  constructor
  · rintro ⟨y, hy, h⟩
    -- the original position is finite
    have hb := congrFun hy b
    unfold mirrorPos at hb
    rw [Function.update_self] at hb
    obtain ⟨x, hx⟩ : ∃ x, pos b = fin x := by
      cases hq : pos b with
      | fin x => exact ⟨x, rfl⟩
      | _ => rw [hq] at hb; cases hb
    have hyb : y b = lo b + hi b - x := by
      rw [hx, esub] at hb
      exact (F.fin.inj hb).symm
    refine ⟨Function.update y b x, ?_, ?_⟩
    · funext a
      by_cases hab : a = b
      · subst hab
        change _ = fin _
        rw [Function.update_self, hx]
      · have := congrFun hy a
        unfold mirrorPos at this
        rw [Function.update_of_ne hab] at this
        change _ = fin _
        rw [Function.update_of_ne hab, this]
        rfl
    · intro a
      by_cases hab : a = b
      · subst hab
        obtain ⟨h1, h2', h3⟩ := h a
        rw [hyb] at h1 h2' h3
        obtain ⟨k1, k2⟩ := key x hx (by linarith) (by linarith)
        unfold mirrorCell at h3
        rw [Function.update_self] at h3 ⊢
        rw [k1] at h3
        refine ⟨by linarith, by linarith, ?_⟩
        omega
      · have := h a
        unfold mirrorCell at this
        rw [Function.update_of_ne hab] at this ⊢
        exact this
  · rintro ⟨x, rfl, h⟩
    refine ⟨Function.update x b (lo b + hi b - x b), ?_, ?_⟩
    · funext a
      unfold mirrorPos finPos
      by_cases hab : a = b
      · subst hab
        rw [Function.update_self, Function.update_self, esub]
      · rw [Function.update_of_ne hab, Function.update_of_ne hab]
    · intro a
      by_cases hab : a = b
      · subst hab
        obtain ⟨h1, h2', h3⟩ := h a
        obtain ⟨k1, k2⟩ := key (x a) rfl h1 h2'
        unfold mirrorCell
        rw [Function.update_self, Function.update_self, k1]
        exact ⟨by linarith, by linarith, by omega⟩
      · unfold mirrorCell
        rw [Function.update_of_ne hab, Function.update_of_ne hab]
        exact h a

/-- Nobody is in the last cell of an axis, except exactly on the upper limit. -/
theorem last_empty [LawfulArith K] [ExactArith K] (p : Profile) (b : Fin 3) (cells : CellId) (hc : CellsOk cells) (h2 : 2 ≤ cells b) (lo hi : Fin 3 → K)
    (hlt : ∀ a, lo a < hi a) (pos : Pos K) (hoff : pos b ≠ fin (hi b)) (c : CellId) (hcb : c b + 1 = cells b) :
    inCell p (Grid.newCart cells (finLimits lo hi)).geom pos c = false := by
  have hd : 0 < hi b - lo b := sub_pos.2 (hlt b)
  rw [← Bool.not_eq_true, cart_inCell p cells hc _ _ hlt]
  rintro ⟨x, rfl, h⟩
  obtain ⟨h1, h3, h4⟩ := h b
  have hne : x b ≠ hi b := fun e => hoff (by change fin (x b) = _; rw [e])
  have hm0 : (0 : K) < ((cells b - 1 : ℕ) : K) := by
    have : 0 < cells b - 1 := by omega
    exact_mod_cast this
  have hlt1 : (x b - lo b) / (hi b - lo b) < 1 := by
    rw [div_lt_one hd]
    have := lt_of_le_of_ne h3 hne
    linarith
  have : (x b - lo b) / (hi b - lo b) * ((cells b - 1 : ℕ) : K) < ((cells b - 1 : ℕ) : K) := by
    have := mul_lt_mul_of_pos_right hlt1 hm0
    rwa [one_mul] at this
  have h5 := (Nat.floor_lt' (by omega)).2 this
  omega

theorem neg_mean [ExactArith K] {u v : List K} (h : v = u.map (fun x => -x)) :
    (if v = [] then F.nan else fin (v.sum / v.length)) = -(if u = [] then F.nan else fin (u.sum / u.length)) := by
  subst h
  by_cases h0 : u = []
  · rw [if_pos (by rw [h0]; rfl), if_pos h0]; rfl
  · rw [if_neg (by simpa using h0), if_neg h0]
    change _ = fin _
    congr 1
    rw [List.length_map, ← neg_div]
    congr 1
    induction u with
    | nil => simp
    | cons a u ih =>
      by_cases hu : u = []
      · subst hu; simp
      · rw [List.map_cons, List.sum_cons, List.sum_cons, ih hu]; ring

theorem absolute_mirror [ExactArith K] (b : Fin 3) (v : Fin 3 → F K) (hv : ∀ a, ∃ w, v a = fin w) (vcal : (Fin 3 → F K) → F K) (hm : velMode "absolute" = .ok vcal) :
    vcal (mirrorVel b v) = vcal v := by
  choose w hw using hv
  obtain rfl : v = fun a => fin (w a) := funext hw
  obtain rfl : (fun v : Fin 3 → F K => (F.sq (v 0) + F.sq (v 1) + F.sq (v 2)).sqrt) = vcal := Except.ok.inj hm
  have sq : ∀ a, F.sq (mirrorVel b (fun a => fin (w a)) a) = F.sq (fin (w a)) := by
    intro a
    unfold mirrorVel
    by_cases hab : a = b
    · subst hab
      rw [Function.update_self]
      change fin (-w a) * fin (-w a) = fin (w a) * fin (w a)
      rw [emul, emul, neg_mul_neg]
    · rw [Function.update_of_ne hab]
  dsimp only
  rw [sq, sq, sq]

/-- **C139, the part that holds** (exact arithmetic, Cartesian grids). If no particle is exactly on a face between two cells, then the count, the mean speed and the mean velocity (with the
sign of its component along the axis changed) of a cell are those of cell `n - 2 - i` of the mirror image, where `i` is the index of the cell and `n` the number of cells along the axis;
cells with the last index are empty before and after. Missing: that it is cell `n - 1 - i`, and particles on faces. -/
theorem C139_mirror_partial [LawfulArith K] [ExactArith K] (p : Profile) (b : Fin 3) (cells : CellId) (hc : CellsOk cells) (h2 : 2 ≤ cells b) (lo hi : Fin 3 → K)
    (hlt : ∀ a, lo a < hi a) (d₁ d₂ : Dm (Timestep K)) (hd : Mirrored b (lo b + hi b) d₁ d₂) (hi₂ : d₂.Inv) (sel : Selector K) (hr : Ready d₁ sel)
    (hv : FiniteVel (d₁.seen sel)) (hoff : ∀ x ∈ d₁.seen sel, ∀ i : ℕ, x.1 b ≠ fin (face (lo b) (hi b) (cells b) i)) :
    let grid := Grid.newCart cells (finLimits lo hi)
    (∃ d₁' g₁ d₂' g₂, numberfield p d₁ grid sel = .ok (d₁', g₁) ∧ numberfield p d₂ grid sel = .ok (d₂', g₂) ∧
      (∀ c, c b + 1 < cells b → g₂.st.data.get (mirrorCell b cells c) = g₁.st.data.get c) ∧
      ∀ c, c b + 1 = cells b → g₁.st.data.get c = fin 0 ∧ g₂.st.data.get c = fin 0) ∧
    (∀ vlo vhi, ∃ d₁' g₁ d₂' g₂, velocityfield p d₁ grid sel "absolute" (fin vlo) (fin vhi) = .ok (d₁', g₁) ∧
      velocityfield p d₂ grid sel "absolute" (fin vlo) (fin vhi) = .ok (d₂', g₂) ∧
      ∀ c, InB cells c → c b + 1 < cells b → g₂.st.data.get (mirrorCell b cells c) = g₁.st.data.get c) ∧
    (∃ d₁' g₁ d₂' g₂, vectorfield p d₁ grid sel = .ok (d₁', g₁) ∧ vectorfield p d₂ grid sel = .ok (d₂', g₂) ∧
      ∀ a c, InB cells c → c b + 1 < cells b →
        (g₂.comp a).st.data.get (mirrorCell b cells c) = if a = b then -((g₁.comp a).st.data.get c) else (g₁.comp a).st.data.get c) := by
  intro grid
  have hr₂ := mirrored_ready hd hi₂ sel hr
  obtain ⟨hsam, hseen⟩ := mirrored_seen hd hr.wf sel
  have hg : grid.Fillable p := fillable_cart p _ (isCart_new _ _ hc)
  have hin : ∀ x ∈ d₁.seen sel, ∀ c : CellId, c b + 1 < cells b → inCell p grid.geom (mirrorPos b (lo b + hi b) x.1) (mirrorCell b cells c) = inCell p grid.geom x.1 c :=
    fun x hx c hcb => mirror_inCell p b cells hc h2 lo hi hlt x.1 (hoff x hx) c hcb
  have hB : ∀ c : CellId, InB cells c → c b + 1 < cells b → InB cells (mirrorCell b cells c) := by
    intro c hcB _ a
    unfold mirrorCell
    by_cases hab : a = b
    · subst hab
      rw [Function.update_self]
      omega
    · rw [Function.update_of_ne hab]; exact hcB a
  have hv₂ : FiniteVel (d₂.seen sel) := by
    rw [hseen]
    intro x hx a
    obtain ⟨y, hy, rfl⟩ := List.mem_map.1 hx
    obtain ⟨w, hw⟩ := hv y hy a
    dsimp only
    unfold mirrorVel
    by_cases hab : a = b
    · subst hab
      rw [Function.update_self, hw]
      exact ⟨-w, rfl⟩
    · rw [Function.update_of_ne hab]
      exact ⟨w, hw⟩
  refine ⟨?_, fun vlo vhi => ?_, ?_⟩
  · obtain ⟨d₁', g₁, r₁, _, _, _, _, _, e₁, _⟩ := C34_numberfield p d₁ hr.inv grid hg sel hr.usable hr.wf hr.few
    obtain ⟨d₂', g₂, r₂, _, _, _, _, _, e₂, _⟩ := C34_numberfield p d₂ hi₂ grid hg sel hr.usable hr₂.wf hr₂.few
    refine ⟨d₁', g₁, d₂', g₂, r₁, r₂, fun c hcb => ?_, fun c hcb => ⟨?_, ?_⟩⟩
    · rw [e₁ c, e₂ _, seen_count sel d₁ fun q => inCell p grid.geom q c, seen_count sel d₂ fun q => inCell p grid.geom q (mirrorCell b cells c), hseen, List.countP_map]
      congr 2
      refine List.countP_congr fun x hx => ?_
      simp only [Function.comp]
      rw [hin x hx c hcb]
    · rw [e₁ c, seen_count sel d₁ fun q => inCell p grid.geom q c, List.countP_eq_zero.2, Nat.cast_zero]
      intro x hx
      rw [last_empty p b cells hc h2 lo hi hlt x.1 ?_ c hcb]
      · simp
      · have := hoff x hx (cells b - 1)
        rwa [show face (lo b) (hi b) (cells b) (cells b - 1) = hi b from ?_] at this
        unfold face
        have hm0 : ((cells b - 1 : ℕ) : K) ≠ 0 := by
          have : cells b - 1 ≠ 0 := by omega
          exact_mod_cast this
        field_simp
        ring
    · rw [e₂ c, seen_count sel d₂ fun q => inCell p grid.geom q c, List.countP_eq_zero.2, Nat.cast_zero]
      intro x hx
      rw [hseen] at hx
      obtain ⟨y, hy, rfl⟩ := List.mem_map.1 hx
      rw [last_empty p b cells hc h2 lo hi hlt _ ?_ c hcb]
      · simp
      · intro h
        dsimp only [mirrorPos] at h
        rw [Function.update_self] at h
        refine hoff y hy 0 ?_
        cases hq : y.1 b with
        | fin x =>
          rw [hq, esub] at h
          have := F.fin.inj h
          congr 1
          unfold face
          rw [Nat.cast_zero, zero_mul, add_zero]
          linarith
        | _ => rw [hq] at h; cases h
  · obtain ⟨vcal, hvc⟩ : ∃ vcal, velMode (K := K) "absolute" = .ok vcal := ⟨_, rfl⟩
    obtain ⟨d₁', g₁, r₁, e₁⟩ := velocity_cells p grid hg (fun _ => rfl) d₁ sel hr "absolute" vcal hvc vlo vhi
    obtain ⟨d₂', g₂, r₂, e₂⟩ := velocity_cells p grid hg (fun _ => rfl) d₂ sel hr₂ "absolute" vcal hvc vlo vhi
    refine ⟨d₁', g₁, d₂', g₂, r₁, r₂, fun c hcB hcb => ?_⟩
    obtain ⟨u, u1, _, u3⟩ := e₁ c hcB
    obtain ⟨v, v1, _, v3⟩ := e₂ _ (hB c hcB hcb)
    have huv : u = v := by
      have hperm : u.map fin = v.map fin := by
        rw [u1, v1, hseen]
        unfold cellValues
        rw [List.filter_map, List.map_map]
        have hfil : List.filter ((fun x : Pos K × (Fin 3 → F K) => inCell p grid.geom x.1 (mirrorCell b cells c) && within (fin vlo) (fin vhi) (vcal x.2)) ∘
            fun x => (mirrorPos b (lo b + hi b) x.1, mirrorVel b x.2)) (d₁.seen sel) =
            List.filter (fun x => inCell p grid.geom x.1 c && within (fin vlo) (fin vhi) (vcal x.2)) (d₁.seen sel) := by
          refine List.filter_congr fun x hx => ?_
          simp only [Function.comp]
          rw [hin x hx c hcb, absolute_mirror b x.2 (hv x hx) vcal hvc]
        rw [hfil]
        refine List.map_congr_left fun x hx => ?_
        exact (absolute_mirror b x.2 (hv x (List.mem_filter.1 hx).1) vcal hvc).symm
      exact List.map_injective_iff.2 (fun x y h => F.fin.inj h) hperm
    rw [u3, v3, huv]
  · obtain ⟨d₁', g₁, r₁, e₁⟩ := vector_cells p grid hg (fun _ => ⟨rfl, rfl⟩) rfl d₁ sel hr hv
    obtain ⟨d₂', g₂, r₂, e₂⟩ := vector_cells p grid hg (fun _ => ⟨rfl, rfl⟩) rfl d₂ sel hr₂ hv₂
    refine ⟨d₁', g₁, d₂', g₂, r₁, r₂, fun a c hcB hcb => ?_⟩
    obtain ⟨u, u1, _, u3⟩ := e₁ a c hcB
    obtain ⟨v, v1, _, v3⟩ := e₂ a _ (hB c hcB hcb)
    have hfil : v.map fin = ((d₁.seen sel).filter fun x => inCell p grid.geom x.1 c).map fun x => mirrorVel b x.2 a := by
      rw [v1, hseen]
      unfold cellVelocities
      rw [List.filter_map, List.map_map]
      have : List.filter ((fun x : Pos K × (Fin 3 → F K) => inCell p grid.geom x.1 (mirrorCell b cells c)) ∘
          fun x => (mirrorPos b (lo b + hi b) x.1, mirrorVel b x.2)) (d₁.seen sel) = List.filter (fun x => inCell p grid.geom x.1 c) (d₁.seen sel) := by
        refine List.filter_congr fun x hx => ?_
        simp only [Function.comp]
        exact hin x hx c hcb
      rw [this]
      rfl
    unfold cellVelocities at u1
    by_cases hab : a = b
    · rw [if_pos hab, u3, v3]
      refine neg_mean ?_
      refine List.map_injective_iff.2 (fun x y h => F.fin.inj h) (hfil.trans ?_)
      have : (u.map fun x => -x).map fin = (u.map fin).map fun x : F K => -x := by
        rw [List.map_map, List.map_map]
        rfl
      rw [this, u1, List.map_map]
      refine List.map_congr_left fun x _ => ?_
      unfold mirrorVel
      subst hab
      rw [Function.update_self]
      rfl
    · rw [if_neg hab, u3, v3]
      have : v = u := by
        refine List.map_injective_iff.2 (fun x y h => F.fin.inj h) (hfil.trans ?_)
        rw [u1]
        refine List.map_congr_left fun x _ => ?_
        unfold mirrorVel
        rw [Function.update_of_ne hab]
      rw [this]

/-- One particle at rest except along x, at a quarter of the unit cube. -/
def quarterStep : Timestep K :=
  ⟨fin 0, [fun _ => fin (1 / 4)], [![fin 1, fin 0, fin 0]], [fin 1], [fin 1], [fin 0], [fin 0], [fin 0]⟩

theorem quarter_samples [LawfulArith K] : samples Selector.default (fun _ => quarterStep (K := K)) (List.range 1) = [(0, 0)] := by
  have h1 : (Selector.default : Selector K).timestepValid (quarterStep (K := K)).time = true := one_time
  unfold samples Timestep.picks
  simp only [h1, if_true]
  simp [quarterStep, chosen_default]

/-- The dataset with this particle and its mirror image. -/
theorem quarter_mirrored [LawfulArith K] [ExactArith K] (p : Profile) (kind : Kind) : ∃ d₁ d₂ : Dm (Timestep K), Dm.new p kind (fun _ => quarterStep) 1 Timestep.default = .ok d₁ ∧
    Mirrored 0 (0 + 1) d₁ d₂ ∧ d₂.Inv ∧ Ready d₁ Selector.default ∧ FiniteVel (d₁.seen Selector.default) ∧
    d₁.seen Selector.default = [(fun _ => fin (1 / 4), ![fin 1, fin 0, fin 0])] := by
  obtain ⟨d, e, hinv, hf, hn, _⟩ := Dm.new_ok p kind (fun _ => quarterStep (K := K)) 1 Timestep.default (by norm_num) (by norm_num)
  obtain ⟨d₂, _, hinv₂, hf₂, hn₂, _⟩ := Dm.new_ok p kind (fun _ => { quarterStep (K := K) with
    position := quarterStep.position.map (mirrorPos 0 (0 + 1)), velocity := quarterStep.velocity.map (mirrorVel 0) }) 1 Timestep.default (by norm_num) (by norm_num)
  have hS : d.samples Selector.default = [(0, 0)] := by unfold Dm.samples; rw [hf, hn]; exact quarter_samples
  have hseen : d.seen Selector.default = [(fun _ => fin (1 / 4), ![fin 1, fin 0, fin 0])] := by
    unfold Dm.seen
    rw [hS, hf]
    rfl
  refine ⟨d, d₂, e, ⟨by rw [hn, hn₂], fun t _ => by rw [hf, hf₂]⟩, hinv₂,
    ⟨hinv, fun t _ => by rw [hf]; exact ⟨rfl, rfl, rfl, rfl, rfl, rfl⟩, usable_default, by rw [hS]; simp⟩, ?_, hseen⟩
  rw [hseen]
  intro x hx a
  rw [List.mem_singleton.1 hx]
  fin_cases a <;> exact ⟨_, rfl⟩

theorem quarter_off (x : Pos K × (Fin 3 → F K)) (hx : x ∈ [((fun _ => fin (1 / 4) : Pos K), (![fin 1, fin 0, fin 0] : Fin 3 → F K))]) (i : ℕ) :
    x.1 0 ≠ fin (face (0 : K) 1 2 i) := by
  rw [List.mem_singleton.1 hx]
  intro h
  have h := F.fin.inj h
  unfold face at h
  norm_num at h
  rcases i with _ | i
  · norm_num at h
  · push_cast at h
    have : (0 : K) ≤ i := Nat.cast_nonneg _
    linarith

/-- Case for `C139_mirror_partial`: one particle in the first of two cells along x; in the mirror image it is in the first cell again. -/
example (p : Profile) (kind : Kind) : ∃ (d₁ d₂ : Dm (Timestep ℝ)) (d₁' d₂' : Dm (Timestep ℝ)) (g₁ g₂ : Grid ℝ), Mirrored 0 (0 + 1) d₁ d₂ ∧
    numberfield p d₁ (Grid.newCart (fun _ => 2) (finLimits (fun _ => 0) fun _ => 1)) Selector.default = .ok (d₁', g₁) ∧
    numberfield p d₂ (Grid.newCart (fun _ => 2) (finLimits (fun _ => 0) fun _ => 1)) Selector.default = .ok (d₂', g₂) ∧
    g₂.st.data.get (mirrorCell 0 (fun _ => 2) fun _ => 0) = g₁.st.data.get fun _ => 0 := by
  obtain ⟨d₁, d₂, e, hm, hi₂, hr, hv, hs⟩ := quarter_mirrored (K := ℝ) p kind
  obtain ⟨⟨d₁', g₁, d₂', g₂, r₁, r₂, h, -⟩, -⟩ := C139_mirror_partial p 0 (fun _ => 2) (fun _ => ⟨by norm_num, by norm_num [usizeMod]⟩) le_rfl (fun _ => 0) (fun _ => 1)
    (fun _ => by norm_num) d₁ d₂ hm hi₂ Selector.default hr hv (by rw [hs]; exact fun x hx i => quarter_off x hx i)
  exact ⟨d₁, d₂, d₁', d₂', g₁, g₂, hm, r₁, r₂, h _ (by norm_num)⟩

/-- **C139 is false of the code.** One particle at a quarter of the unit cube, two cells along each axis: it is in the first cell along x, and the mirror image of the particle is not in
the second. -/
theorem C139_false (p : Profile) (kind : Kind) : ∃ (d₁ d₂ : Dm (Timestep ℝ)) (d₁' d₂' : Dm (Timestep ℝ)) (g₁ g₂ : Grid ℝ),
    Dm.new p kind (fun _ => quarterStep) 1 Timestep.default = .ok d₁ ∧ Mirrored 0 (0 + 1) d₁ d₂ ∧
    numberfield p d₁ (Grid.newCart (fun _ => 2) (finLimits (fun _ => 0) fun _ => 1)) Selector.default = .ok (d₁', g₁) ∧
    numberfield p d₂ (Grid.newCart (fun _ => 2) (finLimits (fun _ => 0) fun _ => 1)) Selector.default = .ok (d₂', g₂) ∧
    g₁.st.data.get ![0, 0, 0] = fin 1 ∧ g₂.st.data.get ![1, 0, 0] = fin 0 := by
  obtain ⟨d₁, d₂, e, hm, hi₂, hr, hv, hs⟩ := quarter_mirrored (K := ℝ) p kind
  have hc : CellsOk (fun _ => 2) := fun _ => ⟨by norm_num, by norm_num [usizeMod]⟩
  obtain ⟨⟨d₁', g₁, d₂', g₂, r₁, r₂, -, h⟩, -⟩ := C139_mirror_partial p 0 (fun _ => 2) hc le_rfl (fun _ => 0) (fun _ => 1)
    (fun _ => by norm_num) d₁ d₂ hm hi₂ Selector.default hr hv (by rw [hs]; exact fun x hx i => quarter_off x hx i)
  refine ⟨d₁, d₂, d₁', d₂', g₁, g₂, e, hm, r₁, r₂, ?_, (h ![1, 0, 0] rfl).2⟩
  obtain ⟨d₁'', g₁', r₁', _, _, _, _, _, e₁, _⟩ := C34_numberfield p d₁ hr.inv (Grid.newCart (fun _ => 2) (finLimits (fun _ => 0) fun _ => 1))
    (fillable_cart p _ (isCart_new _ _ hc)) Selector.default hr.usable hr.wf hr.few
  rw [r₁] at r₁'
  cases r₁'
  rw [e₁, seen_count Selector.default d₁ fun q => inCell p _ q ![0, 0, 0], hs, List.countP_cons_of_pos, List.countP_nil]
  · norm_num
  · rw [cart_inCell p _ hc _ _ (fun _ => by norm_num)]
    refine ⟨fun _ => 1 / 4, rfl, fun a => ⟨by norm_num, by norm_num, ?_⟩⟩
    have : (![0, 0, 0] : CellId) a = 0 := by fin_cases a <;> rfl
    rw [this]
    symm
    rw [Nat.floor_eq_zero]
    norm_num

/-- Case for `C139_false`: it needs nothing. -/
example (p : Profile) : ∃ (d₁ d₂ : Dm (Timestep ℝ)) (d₁' d₂' : Dm (Timestep ℝ)) (g₁ g₂ : Grid ℝ), Mirrored 0 (0 + 1) d₁ d₂ ∧
    numberfield p d₁ (Grid.newCart (fun _ => 2) (finLimits (fun _ => 0) fun _ => 1)) Selector.default = .ok (d₁', g₁) ∧
    numberfield p d₂ (Grid.newCart (fun _ => 2) (finLimits (fun _ => 0) fun _ => 1)) Selector.default = .ok (d₂', g₂) ∧
    g₁.st.data.get ![0, 0, 0] ≠ g₂.st.data.get ![1, 0, 0] := by
  obtain ⟨d₁, d₂, d₁', d₂', g₁, g₂, -, hm, r₁, r₂, e₁, e₂⟩ := C139_false p .pdata
  exact ⟨d₁, d₂, d₁', d₂', g₁, g₂, hm, r₁, r₂, by rw [e₁, e₂]; simp⟩

end Up4
