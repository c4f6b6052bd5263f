import Verif.Props.Units
import Verif.Props.Concentration
import Verif.Props.Narrow

set_option linter.unusedSectionVars false

/-! # C135: the names of the axes do not matter -/

namespace Up4
open F

variable {K : Type} [Field K] [LinearOrder K] [IsStrictOrderedRing K] [FloorRing K] [Arith K]

/-- The same vector with the axes named differently: what was axis `σ a` is now axis `a`. -/
def relabel {α : Type} (σ : Equiv.Perm (Fin 3)) (v : Fin 3 → α) : Fin 3 → α := fun a => v (σ a)

/-- The second dataset is the first with the axes of positions and velocities named differently. -/
structure Relabelled (σ : Equiv.Perm (Fin 3)) (d₁ d₂ : Dm (Timestep K)) : Prop where
  steps : d₂.n = d₁.n
  file : ∀ t, t < d₁.n → d₂.file t =
    { d₁.file t with position := (d₁.file t).position.map (relabel σ), velocity := (d₁.file t).velocity.map (relabel σ) }

theorem relabel_inj {α : Type} (σ : Equiv.Perm (Fin 3)) {u v : Fin 3 → α} : relabel σ u = relabel σ v ↔ u = v := by
  constructor
  · intro h
    funext a
    have := congrFun h (σ.symm a)
    unfold relabel at this
    rwa [σ.apply_symm_apply] at this
  · rintro rfl; rfl

theorem relabel_inCell [LawfulArith K] (p : Profile) (σ : Equiv.Perm (Fin 3)) (cells : CellId) (hc : CellsOk cells) (lims : Limits K) (q : Pos K) (c : CellId) :
    inCell p (Grid.newCart (relabel σ cells) (relabel σ lims)).geom (relabel σ q) (relabel σ c) = inCell p (Grid.newCart cells lims).geom q c := by
  have hc' : CellsOk (relabel σ cells) := fun a => hc (σ a)
  have hin : (CartGeom.new (relabel σ cells) (relabel σ lims)).isInside (relabel σ q) = (CartGeom.new cells lims).isInside q := by
    rw [Bool.eq_iff_iff, CartGeom.isInside_iff, CartGeom.isInside_iff]
    constructor
    · intro h a
      have := h (σ.symm a)
      change q (σ _) ≠ _ ∧ (lims (σ _)).1 ≤ q (σ _) ∧ q (σ _) ≤ (lims (σ _)).2 at this
      rwa [σ.apply_symm_apply] at this
    · intro h a
      exact h (σ a)
  unfold inCell
  change ((CartGeom.new (relabel σ cells) (relabel σ lims)).isInside (relabel σ q) && _) = ((CartGeom.new cells lims).isInside q && _)
  rw [hin]
  cases hq : (CartGeom.new cells lims).isInside q with
  | false => rfl
  | true =>
    rw [hq] at hin
    rw [Bool.true_and, Bool.true_and]
    have l1 : Geom.lookup p (.cart (CartGeom.new (relabel σ cells) (relabel σ lims))) (relabel σ q) =
        some (relabel σ fun a => CartGeom.axisVal (lims a) (cells a) (q a)) := by
      unfold Geom.lookup
      change (match (CartGeom.new (relabel σ cells) (relabel σ lims)).cellId p (relabel σ q) with | .ok r => r | .error _ => none) = _
      rw [CartGeom.cellId_eq p _ hc', if_pos hin]
      rfl
    have l2 : Geom.lookup p (.cart (CartGeom.new cells lims)) q = some (fun a => CartGeom.axisVal (lims a) (cells a) (q a)) := by
      unfold Geom.lookup
      change (match (CartGeom.new cells lims).cellId p q with | .ok r => r | .error _ => none) = _
      rw [CartGeom.cellId_eq p _ hc, if_pos hq]
      rfl
    change decide (Geom.lookup p (.cart (CartGeom.new (relabel σ cells) (relabel σ lims))) (relabel σ q) = some (relabel σ c)) =
      decide (Geom.lookup p (.cart (CartGeom.new cells lims)) q = some c)
    rw [l1, l2]
    congr 1
    rw [Option.some.injEq, Option.some.injEq, relabel_inj]

theorem pos_relabel (σ : Equiv.Perm (Fin 3)) {d₁ d₂ : Dm (Timestep K)} (h : Relabelled σ d₁ d₂) (t i : ℕ) (ht : t < d₁.n) :
    (d₂.file t).pos i = relabel σ ((d₁.file t).pos i) ∧ (d₂.file t).vel i = relabel σ ((d₁.file t).vel i) := by
  rw [h.file t ht]
  constructor
  · unfold Timestep.pos
    simp only [List.getD_eq_getElem?_getD, List.getElem?_map]
    cases (d₁.file t).position[i]? <;> rfl
  · unfold Timestep.vel
    simp only [List.getD_eq_getElem?_getD, List.getElem?_map]
    cases (d₁.file t).velocity[i]? <;> rfl

theorem relabelled_samples {σ : Equiv.Perm (Fin 3)} {d₁ d₂ : Dm (Timestep K)} (h : Relabelled σ d₁ d₂) (sel : Selector K) (m : ℕ) (hm : m ≤ d₁.n) :
    samples sel d₂.file (List.range m) = samples sel d₁.file (List.range m) := by
  unfold samples
  refine List.flatMap_congr fun t ht => ?_
  rw [h.file t (by have := List.mem_range.1 ht; omega)]
  unfold Timestep.picks
  simp only [List.length_map]
  rfl

theorem relabelled_seen {σ : Equiv.Perm (Fin 3)} {d₁ d₂ : Dm (Timestep K)} (h : Relabelled σ d₁ d₂) (sel : Selector K) :
    d₂.samples sel = d₁.samples sel ∧ d₂.seen sel = (d₁.seen sel).map fun x => (relabel σ x.1, relabel σ x.2) := by
  have hs : d₂.samples sel = d₁.samples sel := by
    unfold Dm.samples
    rw [h.steps]
    exact relabelled_samples h sel _ (le_refl _)
  refine ⟨hs, ?_⟩
  unfold Dm.seen
  rw [hs, List.map_map]
  refine List.map_congr_left fun x hx => ?_
  obtain ⟨t, i⟩ := x
  obtain ⟨ht, _, _, _⟩ := (mem_samples _ _ _ _ _).1 hx
  obtain ⟨e1, e2⟩ := pos_relabel σ h t i (List.mem_range.1 ht)
  change ((d₂.file t).pos i, (d₂.file t).vel i) = _
  rw [e1, e2]
  rfl

theorem relabelled_wf {σ : Equiv.Perm (Fin 3)} {d₁ d₂ : Dm (Timestep K)} (h : Relabelled σ d₁ d₂) (hw : ∀ t, t < d₁.n → (d₁.file t).Wf) :
    ∀ t, t < d₂.n → (d₂.file t).Wf := by
  intro t ht
  rw [h.steps] at ht
  obtain ⟨w1, w2, w3, w4, w5, w6⟩ := hw t ht
  rw [h.file t ht]
  unfold Timestep.Wf
  simp only [List.length_map]
  exact ⟨w1, w2, w3, w4, w5, w6⟩

/-- **C135, counts and concentrations.** In any lawful arithmetic: with the axes of data and grid named differently, each cell of the number field and of the concentration field keeps its
value, at the index that is renamed in the same way. -/
theorem C135_counts [LawfulArith K] (p : Profile) (σ : Equiv.Perm (Fin 3)) (cells : CellId) (hc : CellsOk cells) (lims : Limits K)
    (d₁ d₂ : Dm (Timestep K)) (hd : Relabelled σ d₁ d₂) (hi₂ : d₂.Inv) (sel : Selector K) (hr : Ready d₁ sel) :
    let grid₁ := Grid.newCart cells lims
    let grid₂ := Grid.newCart (relabel σ cells) (relabel σ lims)
    (∃ d₁' g₁ d₂' g₂, numberfield p d₁ grid₁ sel = .ok (d₁', g₁) ∧ numberfield p d₂ grid₂ sel = .ok (d₂', g₂) ∧
      ∀ c, g₂.st.data.get (relabel σ c) = g₁.st.data.get c) ∧
    (∀ a b, a ≠ b → (d₁.samples sel).length ≤ 2 ^ 52 →
      ∃ d₁' g₁ d₂' g₂, concentrationField p d₁ grid₁ sel a b = .ok (d₁', g₁) ∧ concentrationField p d₂ grid₂ sel a b = .ok (d₂', g₂) ∧
        ∀ c, InB cells c → g₂.st.data.get (relabel σ c) = g₁.st.data.get c) := by
  intro grid₁ grid₂
  obtain ⟨hsam, hseen⟩ := relabelled_seen hd sel
  have hw₂ := relabelled_wf hd hr.wf
  have hc' : CellsOk (relabel σ cells) := fun a => hc (σ a)
  have hg₁ : grid₁.Fillable p := fillable_cart p _ (isCart_new _ _ hc)
  have hg₂ : grid₂.Fillable p := fillable_cart p _ (isCart_new _ _ hc')
  have hin := relabel_inCell p σ cells hc lims
  refine ⟨?_, fun a b hab hlen => ?_⟩
  · obtain ⟨d₁', g₁, r₁, _, _, _, _, _, e₁, _⟩ := C34_numberfield p d₁ hr.inv grid₁ hg₁ sel hr.usable hr.wf hr.few
    obtain ⟨d₂', g₂, r₂, _, _, _, _, _, e₂, _⟩ := C34_numberfield p d₂ hi₂ grid₂ hg₂ sel hr.usable hw₂ (by rw [hsam]; exact hr.few)
    refine ⟨d₁', g₁, d₂', g₂, r₁, r₂, fun c => ?_⟩
    rw [e₁ c, e₂ (relabel σ c), seen_count sel d₁ fun q => inCell p grid₁.geom q c, seen_count sel d₂ fun q => inCell p grid₂.geom q (relabel σ c), hseen, List.countP_map]
    congr 3
    funext x
    exact hin x.1 c
  · have hS := relabelled_samples hd sel (d₁.n - 1) (by omega)
    have hsub : (samples sel d₁.file (List.range (d₁.n - 1))).length ≤ 2 ^ 52 := by
      refine le_trans ?_ hlen
      unfold Dm.samples samples
      have : (List.range (d₁.n - 1)).Sublist (List.range d₁.n) := List.range_sublist.2 (by omega)
      exact (this.flatMap _).length_le
    obtain ⟨d₁', g₁, r₁, _, _, _, _, _, e₁⟩ := C43_concentration p d₁ hr.inv grid₁ hg₁ sel hr.usable hr.wf a b hab hsub
    obtain ⟨d₂', g₂, r₂, _, _, _, _, _, e₂⟩ := C43_concentration p d₂ hi₂ grid₂ hg₂ sel hr.usable hw₂ a b hab (by rw [hd.steps, hS]; exact hsub)
    refine ⟨d₁', g₁, d₂', g₂, r₁, r₂, fun c hcb => ?_⟩
    obtain ⟨u1, u2, _⟩ := e₁ c hcb
    obtain ⟨v1, v2, _⟩ := e₂ (relabel σ c) (fun a => hcb (σ a))
    have cnt : ∀ k, (samples sel d₂.file (List.range (d₂.n - 1))).countP (fun x => inCell p grid₂.geom (posOf d₂.file x) (relabel σ c) && decide (typOf d₂.file x = k)) =
        (samples sel d₁.file (List.range (d₁.n - 1))).countP (fun x => inCell p grid₁.geom (posOf d₁.file x) c && decide (typOf d₁.file x = k)) := by
      intro k
      rw [hd.steps, hS]
      refine List.countP_congr fun x hx => ?_
      obtain ⟨t, i⟩ := x
      obtain ⟨ht, _, _, _⟩ := (mem_samples _ _ _ _ _).1 hx
      have ht : t < d₁.n := by have := List.mem_range.1 ht; omega
      have e1 : posOf d₂.file (t, i) = relabel σ (posOf d₁.file (t, i)) := (pos_relabel σ hd t i ht).1
      have e2 : typOf d₂.file (t, i) = typOf d₁.file (t, i) := by
        unfold typOf
        rw [hd.file t ht]
        rfl
      rw [e1, e2, hin]
    rw [cnt, cnt] at v1 v2
    by_cases h0 : (samples sel d₁.file (List.range (d₁.n - 1))).countP (fun x => inCell p grid₁.geom (posOf d₁.file x) c && decide (typOf d₁.file x = a)) +
        (samples sel d₁.file (List.range (d₁.n - 1))).countP (fun x => inCell p grid₁.geom (posOf d₁.file x) c && decide (typOf d₁.file x = b)) = 0
    · rw [u1 h0, v1 h0]
    · rw [(u2 h0).1, (v2 h0).1]

/-- Two measures of speed which say the same with the axes named differently. -/
def SameSpeed (σ : Equiv.Perm (Fin 3)) (m₁ m₂ : String) : Prop :=
  m₁ = "absolute" ∧ m₂ = "absolute" ∨ (∃ a, m₂ = ![("x"), "y", "z"] a ∧ m₁ = ![("x"), "y", "z"] (σ a)) ∨
    ∃ a, m₂ = ![("yz"), "xz", "xy"] a ∧ m₁ = ![("yz"), "xz", "xy"] (σ a)

theorem perm_rest (σ : Equiv.Perm (Fin 3)) (w : Fin 3 → K) (a : Fin 3) :
    w (σ 0) + w (σ 1) + w (σ 2) = w 0 + w 1 + w 2 ∧ w (σ 0) + w (σ 1) + w (σ 2) - w (σ a) = w 0 + w 1 + w 2 - w (σ a) := by
  have h : ∑ a, w (σ a) = ∑ a, w a := Equiv.sum_comp σ w
  rw [Fin.sum_univ_three, Fin.sum_univ_three] at h
  exact ⟨h, by rw [h]⟩

theorem sameSpeed_vcal [ExactArith K] (σ : Equiv.Perm (Fin 3)) (m₁ m₂ : String) (h : SameSpeed σ m₁ m₂) :
    ∃ f₁ f₂ : (Fin 3 → F K) → F K, velMode m₁ = .ok f₁ ∧ velMode m₂ = .ok f₂ ∧ ∀ v : Fin 3 → F K, (∀ a, ∃ w, v a = fin w) → f₂ (relabel σ v) = f₁ v := by
  have sq : ∀ w : K, F.sq (fin w) = fin (w * w) := fun w => by unfold F.sq; rw [emul]
  rcases h with ⟨rfl, rfl⟩ | ⟨a, rfl, rfl⟩ | ⟨a, rfl, rfl⟩
  · refine ⟨_, _, rfl, rfl, fun v hv => ?_⟩
    choose w hw using hv
    obtain rfl : v = fun a => fin (w a) := funext hw
    unfold relabel
    dsimp only
    rw [sq, sq, sq, sq, sq, sq, eadd, eadd, eadd, eadd, (perm_rest σ (fun a => w a * w a) 0).1]
  · have key : ∀ b : Fin 3, velMode (K := K) (![("x"), "y", "z"] b) = .ok fun v => v b := by
      intro b; fin_cases b <;> rfl
    exact ⟨_, _, key _, key _, fun v _ => rfl⟩
  · have key : ∀ b : Fin 3, ∃ f : (Fin 3 → F K) → F K, velMode (K := K) (![("yz"), "xz", "xy"] b) = .ok f ∧
        ∀ w : Fin 3 → K, f (fun a => fin (w a)) = F.sqrt (fin (w 0 * w 0 + w 1 * w 1 + w 2 * w 2 - w b * w b)) := by
      intro b
      fin_cases b
      · refine ⟨_, rfl, fun w => ?_⟩
        dsimp only
        rw [sq, sq, eadd]
        congr 2
        change _ = _ - w 0 * w 0
        ring
      · refine ⟨_, rfl, fun w => ?_⟩
        dsimp only
        rw [sq, sq, eadd]
        congr 2
        change _ = _ - w 1 * w 1
        ring
      · refine ⟨_, rfl, fun w => ?_⟩
        dsimp only
        rw [sq, sq, eadd]
        congr 2
        change _ = _ - w 2 * w 2
        ring
    obtain ⟨f₁, e₁, k₁⟩ := key (σ a)
    obtain ⟨f₂, e₂, k₂⟩ := key a
    refine ⟨f₁, f₂, e₁, e₂, fun v hv => ?_⟩
    choose w hw using hv
    obtain rfl : v = fun a => fin (w a) := funext hw
    rw [k₁ w]
    have := k₂ fun a => w (σ a)
    unfold relabel
    rw [this, (perm_rest σ (fun a => w a * w a) a).2]

/-- **C135, velocities.** In exact arithmetic the mean velocities are renamed likewise: component `a` of the vector field is the former component `σ a`, and each measure of speed is the one
that says the same with the former names. -/
theorem C135_velocities [LawfulArith K] [ExactArith K] (p : Profile) (σ : Equiv.Perm (Fin 3)) (cells : CellId) (hc : CellsOk cells) (lims : Limits K)
    (d₁ d₂ : Dm (Timestep K)) (hd : Relabelled σ d₁ d₂) (hi₂ : d₂.Inv) (sel : Selector K) (hr : Ready d₁ sel) (hv : FiniteVel (d₁.seen sel)) :
    let grid₁ := Grid.newCart cells lims
    let grid₂ := Grid.newCart (relabel σ cells) (relabel σ lims)
    (∃ d₁' g₁ d₂' g₂, vectorfield p d₁ grid₁ sel = .ok (d₁', g₁) ∧ vectorfield p d₂ grid₂ sel = .ok (d₂', g₂) ∧
      ∀ a c, InB cells c → (g₂.comp a).st.data.get (relabel σ c) = (g₁.comp (σ a)).st.data.get c) ∧
    (∀ m₁ m₂ vlo vhi, SameSpeed σ m₁ m₂ →
      ∃ d₁' g₁ d₂' g₂, velocityfield p d₁ grid₁ sel m₁ (fin vlo) (fin vhi) = .ok (d₁', g₁) ∧ velocityfield p d₂ grid₂ sel m₂ (fin vlo) (fin vhi) = .ok (d₂', g₂) ∧
        ∀ c, InB cells c → g₂.st.data.get (relabel σ c) = g₁.st.data.get c) := by
  intro grid₁ grid₂
  obtain ⟨hsam, hseen⟩ := relabelled_seen hd sel
  have hw₂ := relabelled_wf hd hr.wf
  have hr₂ : Ready d₂ sel := ⟨hi₂, hw₂, hr.usable, by rw [hsam]; exact hr.few⟩
  have hc' : CellsOk (relabel σ cells) := fun a => hc (σ a)
  have hg₁ : grid₁.Fillable p := fillable_cart p _ (isCart_new _ _ hc)
  have hg₂ : grid₂.Fillable p := fillable_cart p _ (isCart_new _ _ hc')
  have hin := relabel_inCell p σ cells hc lims
  have hv₂ : FiniteVel (d₂.seen sel) := by
    rw [hseen]
    intro x hx a
    obtain ⟨y, hy, rfl⟩ := List.mem_map.1 hx
    exact hv y hy (σ a)
  refine ⟨?_, fun m₁ m₂ vlo vhi hm => ?_⟩
  · obtain ⟨d₁', g₁, r₁, e₁⟩ := vector_cells p grid₁ hg₁ (fun _ => ⟨rfl, rfl⟩) rfl d₁ sel hr hv
    obtain ⟨d₂', g₂, r₂, e₂⟩ := vector_cells p grid₂ hg₂ (fun _ => ⟨rfl, rfl⟩) rfl d₂ sel hr₂ hv₂
    refine ⟨d₁', g₁, d₂', g₂, r₁, r₂, fun a c hcb => ?_⟩
    obtain ⟨u, u1, _, u3⟩ := e₁ (σ a) c hcb
    obtain ⟨v, v1, _, v3⟩ := e₂ a (relabel σ c) (fun a => hcb (σ a))
    have huv : u = v := by
      have hperm : u.map fin = v.map fin := by
        rw [u1, v1, hseen]
        unfold cellVelocities
        rw [List.filter_map, List.map_map]
        congr 1
        refine List.filter_congr fun x _ => ?_
        simp only [Function.comp]
        rw [hin x.1 c]
      exact List.map_injective_iff.2 (fun x y h => F.fin.inj h) hperm
    rw [u3, v3, huv]
  · obtain ⟨f₁, f₂, q₁, q₂, hf⟩ := sameSpeed_vcal (K := K) σ m₁ m₂ hm
    obtain ⟨d₁', g₁, r₁, e₁⟩ := velocity_cells p grid₁ hg₁ (fun _ => rfl) d₁ sel hr m₁ f₁ q₁ vlo vhi
    obtain ⟨d₂', g₂, r₂, e₂⟩ := velocity_cells p grid₂ hg₂ (fun _ => rfl) d₂ sel hr₂ m₂ f₂ q₂ vlo vhi
    refine ⟨d₁', g₁, d₂', g₂, r₁, r₂, fun c hcb => ?_⟩
    obtain ⟨u, u1, _, u3⟩ := e₁ c hcb
    obtain ⟨v, v1, _, v3⟩ := e₂ (relabel σ c) (fun a => hcb (σ a))
    have huv : u = v := by
      have hperm : u.map fin = v.map fin := by
        rw [u1, v1, hseen]
        unfold cellValues
        rw [List.filter_map, List.map_map]
        have hfil : List.filter ((fun x : Pos K × (Fin 3 → F K) => inCell p grid₂.geom x.1 (relabel σ c) && within (fin vlo) (fin vhi) (f₂ x.2)) ∘
            fun x => (relabel σ x.1, relabel σ x.2)) (d₁.seen sel) =
            List.filter (fun x => inCell p grid₁.geom x.1 c && within (fin vlo) (fin vhi) (f₁ x.2)) (d₁.seen sel) := by
          refine List.filter_congr fun x hx => ?_
          simp only [Function.comp]
          rw [hin x.1 c, hf x.2 (hv x hx)]
        rw [hfil]
        refine List.map_congr_left fun x hx => ?_
        exact (hf x.2 (hv x (List.mem_filter.1 hx).1)).symm
      exact List.map_injective_iff.2 (fun x y h => F.fin.inj h) hperm
    rw [u3, v3, huv]

theorem consecutive_snd (old : ℕ) (l : List ℕ) (x : ℕ × ℕ) (h : x ∈ consecutive old l) : x.2 ∈ l := by
  unfold consecutive at h
  obtain ⟨a, b⟩ := x
  exact (List.of_mem_zip h).2

theorem foldl_congr_mem {α β : Type} (f g : β → α → β) (l : List α) (s₀ : β) (h : ∀ s, ∀ o ∈ l, f s o = g s o) : l.foldl f s₀ = l.foldl g s₀ := by
  induction l generalizing s₀ with
  | nil => rfl
  | cons a l ih =>
    rw [List.foldl_cons, List.foldl_cons, h s₀ a List.mem_cons_self]
    exact ih _ fun s o ho => h s o (List.mem_cons_of_mem _ ho)

theorem relabelled_watched {σ : Equiv.Perm (Fin 3)} {d₁ d₂ : Dm (Timestep K)} (h : Relabelled σ d₁ d₂) (sel : Selector K) : watched sel d₂ = watched sel d₁ := by
  unfold watched observations
  rw [h.steps]
  have hl : ∀ t ∈ List.range' 1 (d₁.n - 2), t < d₁.n := fun t ht => by have := List.mem_range'_1.1 ht; omega
  have hf : (List.range' 1 (d₁.n - 2)).filter (fun t => sel.timestepValid (d₂.file t).time) =
      (List.range' 1 (d₁.n - 2)).filter (fun t => sel.timestepValid (d₁.file t).time) := by
    refine List.filter_congr fun t ht => ?_
    rw [h.file t (hl t ht)]
  rw [hf]
  refine List.flatMap_congr fun x hx => ?_
  have hx2 : x.2 < d₁.n := by
    have : x.2 ∈ (List.range' 1 (d₁.n - 2)).filter (fun t => sel.timestepValid (d₁.file t).time) := consecutive_snd _ _ _ hx
    exact hl _ (List.mem_filter.1 this).1
  rw [h.file _ hx2]
  unfold Timestep.picks
  simp only [List.length_map]
  rfl

/-- **C135, circulation.** The circulation times along axis `a` are the former ones along axis `σ a`, for one and for two boundaries. -/
theorem C135_circulation [LawfulArith K] (p : Profile) (σ : Equiv.Perm (Fin 3)) (d₁ d₂ : Dm (Timestep K)) (hd : Relabelled σ d₁ d₂) (hi₁ : d₁.Inv) (hi₂ : d₂.Inv)
    (st₁ st₂ : Stats K) (hst : ∀ a, st₂.dims a = st₁.dims (σ a)) (hnum : st₂.nparticles = st₁.nparticles) (sel : Selector K) (hs : sel.Usable)
    (hw : ∀ t, t < d₁.n → (d₁.file t).Wf) (m : ℕ) (hm : Steady d₁.file d₁.n m) (hnp : m ≤ st₁.nparticles + 1) (a : Fin 3) :
    (∀ bound, ¬ (bound > (st₂.dims a).2 ∨ bound < (st₂.dims a).1) →
      ∃ o, answerOf (circulationTime p d₂ st₂ sel a bound) = .ok o ∧ answerOf (circulationTime p d₁ st₁ sel (σ a) bound) = .ok o) ∧
    (∀ lo hi, ¬ (lo > (st₂.dims a).2 ∨ lo < (st₂.dims a).1) → ¬ (hi > (st₂.dims a).2 ∨ hi < (st₂.dims a).1) →
      ∃ o, answerOf (circulationTwoBoundary p d₂ st₂ sel a lo hi) = .ok o ∧ answerOf (circulationTwoBoundary p d₁ st₁ sel (σ a) lo hi) = .ok o) := by
  have hw₂ := relabelled_wf hd hw
  have hm₂ : Steady d₂.file d₂.n m := by
    intro t ht
    rw [hd.steps] at ht
    rw [hd.file t ht]
    simp only [List.length_map]
    exact hm t ht
  have hwat := relabelled_watched hd sel
  have obs : ∀ o ∈ watched sel d₁, obsTime d₂.file o = obsTime d₁.file o ∧ sameId d₂.file o = sameId d₁.file o ∧ before d₂.file a o = before d₁.file (σ a) o ∧
      after d₂.file a o = after d₁.file (σ a) o := by
    intro o ho
    obtain ⟨h1, h2, _⟩ := watched_ok sel d₁ hi₁ m hm o ho
    refine ⟨?_, ?_, ?_, ?_⟩
    · unfold obsTime; rw [hd.file _ h2]
    · unfold sameId; rw [hd.file _ h2, hd.file _ h1]; rfl
    · unfold before; rw [(pos_relabel σ hd _ _ h1).1]; rfl
    · unfold after; rw [(pos_relabel σ hd _ _ h2).1]; rfl
  refine ⟨fun bound hb => ?_, fun lo hi hb hb' => ?_⟩
  · have run : ∀ (d : Dm (Timestep K)) (st : Stats K) (b : Fin 3), d.Inv → (∀ t, t < d.n → (d.file t).Wf) → Steady d.file d.n m → m ≤ st.nparticles + 1 →
        ¬ (bound > (st.dims b).2 ∨ bound < (st.dims b).1) → answerOf (circulationTime p d st sel b bound) =
        .ok ((watched sel d).foldl (slotStep (fun o : Obs => o.2.2) (crossObs d.file b bound)) (fun _ => ⟨0, 0⟩, [])).2 := by
      intro d st b hd hw hm hnp hb
      unfold circulationTime
      rw [if_neg hb, circ_answer p d hd hw sel hs (circBody st.nparticles b bound) ⟨fun _ => ⟨0, 0⟩, []⟩ (fun s : Circ K => s.out)]
      have := circ_fold st.nparticles b bound d.file (watched sel d) (watched_wf hd hw m hm st hnp) (fun _ => ⟨0, 0⟩, [])
      change (List.foldlM _ _ (watched sel d) >>= _) = _
      rw [this]; rfl
    refine ⟨_, run d₂ st₂ a hi₂ hw₂ hm₂ (by rw [hnum]; exact hnp) hb, ?_⟩
    rw [run d₁ st₁ (σ a) hi₁ hw hm hnp (by rw [← hst]; exact hb), hwat]
    congr 2
    refine foldl_congr_mem _ _ _ _ fun s o ho => ?_
    obtain ⟨o1, o2, o3, o4⟩ := obs o ho
    unfold slotStep crossObs
    rw [o1, o2, o3, o4]
  · have run : ∀ (d : Dm (Timestep K)) (st : Stats K) (b : Fin 3), d.Inv → (∀ t, t < d.n → (d.file t).Wf) → Steady d.file d.n m → m ≤ st.nparticles + 1 →
        ¬ (lo > (st.dims b).2 ∨ lo < (st.dims b).1) → ¬ (hi > (st.dims b).2 ∨ hi < (st.dims b).1) → answerOf (circulationTwoBoundary p d st sel b lo hi) =
        .ok ((watched sel d).foldl (slotStep (fun o : Obs => o.2.2) (twoOf d.file b lo hi)) (fun _ => ⟨0, 0, 0⟩, [])).2 := by
      intro d st b hd hw hm hnp hb hb'
      unfold circulationTwoBoundary
      rw [if_neg hb, if_neg hb', circ_answer p d hd hw sel hs (circ2Body st.nparticles b lo hi) ⟨fun _ => ⟨0, 0, 0⟩, []⟩ (fun s : Circ2 K => s.out)]
      have := circ2_fold st.nparticles b lo hi d.file (watched sel d) (watched_wf hd hw m hm st hnp) (fun _ => ⟨0, 0, 0⟩, [])
      change (List.foldlM _ _ (watched sel d) >>= _) = _
      rw [this]; rfl
    refine ⟨_, run d₂ st₂ a hi₂ hw₂ hm₂ (by rw [hnum]; exact hnp) hb hb', ?_⟩
    rw [run d₁ st₁ (σ a) hi₁ hw hm hnp (by rw [← hst]; exact hb) (by rw [← hst]; exact hb'), hwat]
    congr 2
    refine foldl_congr_mem _ _ _ _ fun s o ho => ?_
    obtain ⟨o1, o2, o3, o4⟩ := obs o ho
    unfold slotStep twoOf
    rw [o1, o2, o3, o4]

/-- The demo dataset with the axes x and z exchanged: its particle moves with (4, 0, 3) where the demo dataset's moves with (3, 0, 4). -/
theorem demo_relabelled (p : Profile) (kind : Kind) : ∃ d₁ d₂ : Dm (Timestep ℝ), Dm.new p kind demoFile 4 Timestep.default = .ok d₁ ∧
    Relabelled (Equiv.swap 0 2) d₁ d₂ ∧ d₂.Inv ∧ Ready d₁ Selector.default ∧ FiniteVel (d₁.seen Selector.default) ∧ d₁.seen Selector.default ≠ [] ∧
    (d₁.samples Selector.default).length = 4 ∧ Steady d₁.file d₁.n 1 ∧ velOf d₁.file (1, 0) = ![fin 3, fin 0, fin 4] ∧ velOf d₂.file (1, 0) = ![fin 4, fin 0, fin 3] := by
  obtain ⟨d, e, hinv, hf, hn, hw, hS⟩ := demo_manager p kind 4 (by norm_num) (by norm_num)
  obtain ⟨d₂, _, hinv₂, hf₂, hn₂, _⟩ := Dm.new_ok p kind (fun t => { demoFile t with position := (demoFile t).position.map (relabel (Equiv.swap 0 2)), velocity := (demoFile t).velocity.map (relabel (Equiv.swap 0 2)) }) 4
    Timestep.default (by norm_num) (by norm_num)
  refine ⟨d, d₂, e, ⟨by rw [hn, hn₂], fun t _ => by rw [hf, hf₂]⟩, hinv₂, ⟨hinv, hw, usable_default, by rw [hS]; simp⟩, ?_, ?_, ?_, ?_, ?_, ?_⟩
  · intro x hx a
    unfold Dm.seen at hx
    rw [hS] at hx
    obtain ⟨y, hy, rfl⟩ := List.mem_map.1 hx
    obtain ⟨t, _, rfl⟩ := List.mem_map.1 hy
    rw [hf]
    fin_cases a <;> exact ⟨_, rfl⟩
  · unfold Dm.seen
    rw [hS]
    simp
  · rw [hS]; simp
  · intro t _
    rw [hf]
    rfl
  · rw [hf]; rfl
  · rw [hf₂]
    change relabel (Equiv.swap 0 2) ![fin 3, fin 0, fin 4] = _
    funext a
    fin_cases a <;> rfl

/-- Case for `C135_counts`: x and z exchanged on a grid of 2 × 3 × 4 cells, which becomes one of 4 × 3 × 2 cells. -/
example (p : Profile) (kind : Kind) : ∃ d₁ d₂ : Dm (Timestep ℝ), Relabelled (Equiv.swap 0 2) d₁ d₂ ∧ d₂.Inv ∧ Ready d₁ Selector.default ∧ d₁.seen Selector.default ≠ [] ∧
    (d₁.samples Selector.default).length ≤ 2 ^ 52 ∧ CellsOk ![2, 3, 4] ∧ relabel (Equiv.swap 0 2) ![2, 3, 4] = ![4, 3, 2] := by
  obtain ⟨d₁, d₂, _, h1, h2, h3, _, h5, h6, _⟩ := demo_relabelled p kind
  refine ⟨d₁, d₂, h1, h2, h3, h5, by rw [h6]; norm_num, fun a => by fin_cases a <;> norm_num, ?_⟩
  funext a
  fin_cases a <;> rfl

/-- Case for `C135_velocities`: with x and z exchanged the measure "x" says what "z" said and "yz" what "xy" said. -/
example (p : Profile) (kind : Kind) : (∃ d₁ d₂ : Dm (Timestep ℝ), Relabelled (Equiv.swap 0 2) d₁ d₂ ∧ d₂.Inv ∧ Ready d₁ Selector.default ∧ FiniteVel (d₁.seen Selector.default) ∧
      velOf d₁.file (1, 0) = ![fin 3, fin 0, fin 4] ∧ velOf d₂.file (1, 0) = ![fin 4, fin 0, fin 3]) ∧
    SameSpeed (Equiv.swap 0 2) "z" "x" ∧ SameSpeed (Equiv.swap 0 2) "xy" "yz" ∧ SameSpeed (Equiv.swap 0 2) "xz" "xz" ∧ SameSpeed (Equiv.swap 0 2) "absolute" "absolute" := by
  obtain ⟨d₁, d₂, _, h1, h2, h3, h4, _, _, _, h8, h9⟩ := demo_relabelled p kind
  exact ⟨⟨d₁, d₂, h1, h2, h3, h4, h8, h9⟩, .inr (.inl ⟨0, rfl, rfl⟩), .inr (.inr ⟨0, rfl, rfl⟩), .inr (.inr ⟨1, rfl, rfl⟩), .inl ⟨rfl, rfl⟩⟩

/-- Case for `C135_circulation`: the demo dataset, the boundary half way between the limits 0 and 2. -/
example (p : Profile) (kind : Kind) : ∃ d₁ d₂ : Dm (Timestep ℝ), ∃ st₁ st₂ : Stats ℝ, Relabelled (Equiv.swap 0 2) d₁ d₂ ∧ d₁.Inv ∧ d₂.Inv ∧
    (∀ a, st₂.dims a = st₁.dims (Equiv.swap 0 2 a)) ∧ st₂.nparticles = st₁.nparticles ∧ (∀ t, t < d₁.n → (d₁.file t).Wf) ∧ Steady d₁.file d₁.n 1 ∧ 1 ≤ st₁.nparticles + 1 ∧
    ¬ (fin (1 : ℝ) > (st₂.dims 0).2 ∨ fin (1 : ℝ) < (st₂.dims 0).1) := by
  obtain ⟨d₁, d₂, _, h1, h2, h3, _, _, _, h7, _⟩ := demo_relabelled p kind
  refine ⟨d₁, d₂, ⟨fun _ => (fin 0, fin 2), 1, [], fun _ => fin 5⟩, ⟨fun _ => (fin 0, fin 2), 1, [], fun _ => fin 5⟩, h1, h3.inv, h2, fun _ => rfl, rfl, h3.wf, h7, by norm_num, ?_⟩
  change ¬ (fin (2 : ℝ) < fin 1 ∨ fin (1 : ℝ) < fin 0)
  rw [lt_fin, lt_fin]
  norm_num

end Up4
