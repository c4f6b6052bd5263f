import Verif.Props.Fields

set_option linter.unusedSectionVars false

/-! # C58: do the fields depend on the contents of the grid passed in? -/

namespace Up4
open F

variable {K : Type} [Field K] [LinearOrder K] [IsStrictOrderedRing K] [FloorRing K] [Arith K]

/-- **C58, number field.** Two grids of the same geometry, whatever they contain, give the same number field. -/
theorem C58_numberfield [LawfulArith K] (p : Profile) (d : Dm (Timestep K)) (hd : d.Inv) (grid grid' : Grid K)
    (hgeo : grid'.geom = grid.geom) (hg : grid.Fillable p) (hg' : grid'.Fillable p) (sel : Selector K) (hs : sel.Usable)
    (hw : ∀ t, t < d.n → (d.file t).Wf) (hlen : (d.samples sel).length ≤ 2 ^ 53) :
    ∃ d₁ g₁ d₂ g₂, numberfield p d grid sel = .ok (d₁, g₁) ∧ numberfield p d grid' sel = .ok (d₂, g₂) ∧
      ∀ c, g₁.st.data.get c = g₂.st.data.get c := by
  obtain ⟨d₁, g₁, e₁, _, _, _, _, _, h₁, _⟩ := C34_numberfield p d hd grid hg sel hs hw hlen
  obtain ⟨d₂, g₂, e₂, _, _, _, _, _, h₂, _⟩ := C34_numberfield p d hd grid' hg' sel hs hw hlen
  exact ⟨d₁, g₁, d₂, g₂, e₁, e₂, fun c => by rw [h₁, h₂, hgeo]⟩

/-- One particle resting at the origin with recorded velocity `(1, 0, 0)`. -/
def oneStep : Timestep K :=
  ⟨fin 0, [fun _ => fin 0], [![fin 1, fin 0, fin 0]], [fin 1], [fin 1], [fin 0], [fin 0], [fin 0]⟩

theorem one_time [LawfulArith K] : (Selector.default : Selector K).timestepValid (oneStep (K := K)).time = true := by
  have h := LawfulArith.max_pos (K := K)
  unfold Selector.timestepValid
  simp only [Selector.default, oneStep, Bool.and_eq_true, decide_eq_true_eq, ge_iff_le, F.le_fin]
  constructor <;> linarith

theorem one_samples [LawfulArith K] : samples Selector.default (fun _ => oneStep (K := K)) (List.range 1) = [(0, 0)] := by
  unfold samples Timestep.picks
  simp only [one_time, if_true]
  simp [oneStep, chosen_default]

/-- The unit-cube grid with one cell. -/
def unitGrid : Grid K := Grid.newCart (fun _ => 1) (finLimits (fun _ => 0) (fun _ => 1))

theorem unit_isCart : IsCart (unitGrid (K := K)) := isCart_new _ _ (fun _ => by norm_num)

theorem unit_lookup [LawfulArith K] (p : Profile) :
    inCell p (unitGrid (K := K)).geom (posOf (fun _ => oneStep) (0, 0)) (fun _ => 0) = true := by
  have hin : (unitGrid (K := K)).geom.isInside (posOf (fun _ => oneStep) (0, 0)) = true := by
    change CartGeom.isInside (CartGeom.new (fun _ => 1) (finLimits (fun _ => (0 : K)) (fun _ => 1)))
      (posOf (fun _ => oneStep) (0, 0)) = true
    refine (CartGeom.isInside_iff _ _).2 (fun a => ?_)
    simp [posOf, Timestep.pos, oneStep, CartGeom.new, finLimits]
  obtain ⟨c, hc, hb⟩ := (fillable_cart p _ unit_isCart).2.isSome hin
  have hc0 : c = fun _ => 0 := by
    funext a; have := hb a; simpa [unitGrid, Grid.newCart, CartGeom.new, Geom.cells] using this
  subst hc0
  unfold inCell
  rw [hin, hc]; simp

/-- **C58 is false of `velocityfield` and `vectorfield`**, in every lawful arithmetic and both profiles: record one particle
with velocity `(1,0,0)` on the one-cell grid over `[0,1]³`. On the fresh grid the x velocity is 1 and the y component 0; on
a grid of the same geometry that had one value added before, the x velocity is 1/2 and the y component 1/2. -/
theorem C58_false [LawfulArith K] (p : Profile) (kind : Kind) :
    ∃ (d : Dm (Timestep K)) (used : Grid K),
      Dm.new p kind (fun _ => oneStep) 1 Timestep.default = .ok d ∧
      (unitGrid (K := K)).addValue p (finPos fun _ => 0) 1 = .ok used ∧ used.geom = (unitGrid (K := K)).geom ∧
      (∃ d₁ g₁, velocityfield p d unitGrid Selector.default "x" (fin 0) (fin 2) = .ok (d₁, g₁) ∧
        g₁.st.data.get (fun _ => 0) = fin 1) ∧
      (∃ d₂ g₂, velocityfield p d used Selector.default "x" (fin 0) (fin 2) = .ok (d₂, g₂) ∧
        g₂.st.data.get (fun _ => 0) = fin (1 / 2)) ∧
      (∃ d₃ g₃, vectorfield p d unitGrid Selector.default = .ok (d₃, g₃) ∧
        (g₃.comp 1).st.data.get (fun _ => 0) = fin 0) ∧
      (∃ d₄ g₄, vectorfield p d used Selector.default = .ok (d₄, g₄) ∧
        (g₄.comp 1).st.data.get (fun _ => 0) = fin (1 / 2)) := by
  obtain ⟨d, e, hinv, hf, hn, _⟩ := Dm.new_ok p kind (fun _ => oneStep (K := K)) 1 Timestep.default (by norm_num) (by norm_num)
  have hin : InBox (finLimits (fun _ => (0 : K)) (fun _ => 1)) (finPos fun _ => 0) := by
    intro a; simp [finLimits, finPos]
  obtain ⟨used, h1, h2, h3, _, h5⟩ := C06_addValue p (unitGrid (K := K)) unit_isCart (finPos fun _ => 0) 1
  obtain ⟨c, _, hcb, hd, hwt, _⟩ := h5 hin
  have hc0 : c = fun _ => 0 := by
    funext a; have := hcb a; simpa [unitGrid, Grid.newCart, CartGeom.new, Geom.cells] using this
  subst hc0
  have e01 : (0 : F K) + 1 = fin 1 := by rw [F.zero_def, F.one_def, F.add_fin, zero_add, F.rnd_one]
  have hd' : used.st.data.get (fun _ => 0) = fin 1 := hd.trans e01
  have hwt' : used.st.weight.get (fun _ => 0) = fin 1 := hwt.trans e01
  have hw : ∀ t, t < d.n → (d.file t).Wf := fun t _ => by rw [hf]; exact ⟨rfl, rfl, rfl, rfl, rfl, rfl⟩
  have hS : d.samples Selector.default = [(0, 0)] := by unfold Dm.samples; rw [hf, hn]; exact one_samples
  have hm : velMode (K := K) "x" = .ok fun v => v 0 := by simp [velMode]
  have hcB : InB (unitGrid (K := K)).geom.cells (fun _ => 0) := fun a => by
    simp [unitGrid, Grid.newCart, CartGeom.new, Geom.cells]
  have h01 : (fin 0 : F K) ≤ fin 1 := by simp
  have h12 : (fin 1 : F K) ≤ fin 2 := by simp
  have e11 : (fin 1 : F K) + 1 = fin 2 := by
    rw [F.one_def, F.add_fin]
    have := F.rnd_nat (K := K) 2 (by norm_num)
    rw [show (1 : K) + 1 = ((2 : ℕ) : K) by norm_num, this]; norm_num
  have ehalf : (fin 1 : F K) / fin 2 = fin (1 / 2) := by
    rw [F.div_fin_ne _ (by norm_num), F.rnd_half]
  have eone : (fin 1 : F K) / fin 1 = fin 1 := by rw [F.div_fin_ne _ (by norm_num), div_one, F.rnd_one]
  have ezero : (fin 0 : F K) / fin 1 = fin 0 := by rw [F.div_fin_ne _ (by norm_num), div_one, F.rnd_zero]
  have e00 : (0 : F K) + fin 0 = fin 0 := by rw [F.zero_def, F.add_fin, zero_add, F.rnd_zero]
  have e10 : (fin 1 : F K) + fin 0 = fin 1 := by rw [F.add_fin, add_zero, F.rnd_one]
  have evals : ∀ g : Geom K, g = (unitGrid (K := K)).geom →
      ((d.samples Selector.default).filter fun x => inCell p g (posOf d.file x) (fun _ => 0) &&
      within (fin 0) (fin 2) (velOf d.file x 0)).map (fun x => velOf d.file x 0) = [fin 1] := by
    intro g hg
    have hwn : within (fin 0) (fin 2) (velOf (fun _ => oneStep (K := K)) (0, 0) 0) = true := by
      unfold within
      exact decide_eq_true ⟨h01, h12⟩
    rw [hS, hf, hg, List.filter_cons, unit_lookup, hwn]
    rfl
  have evec : ∀ g : Geom K, g = (unitGrid (K := K)).geom →
      ((d.samples Selector.default).filter fun x => inCell p g (posOf d.file x) (fun _ => 0)) = [(0, 0)] := by
    intro g hg
    rw [hS, hf, hg, List.filter_cons, unit_lookup]
    rfl
  refine ⟨d, used, e, h1, h2, ?_, ?_, ?_, ?_⟩
  · obtain ⟨d₁, g₁, k1, _, _, _, _, _, k⟩ := velocityfield_run p d hinv unitGrid (fillable_cart p _ unit_isCart)
      Selector.default usable_default hw "x" _ hm (fin 0) (fin 2) (by simp) (by simp)
    refine ⟨d₁, g₁, k1, ?_⟩
    obtain ⟨k2, k3⟩ := k (fun _ => 0) hcB
    rw [evals _ rfl] at k2 k3
    rw [k3, k2]
    change (0 + fin 1 : F K) / (0 + 1) = fin 1
    rw [← F.one_def, e01, F.one_def, eone]
  · obtain ⟨d₁, g₁, k1, _, _, _, _, _, k⟩ := velocityfield_run p d hinv used (fillable_cart p _ h3)
      Selector.default usable_default hw "x" _ hm (fin 0) (fin 2) (by simp) (by simp)
    refine ⟨d₁, g₁, k1, ?_⟩
    obtain ⟨k2, k3⟩ := k (fun _ => 0) (by rw [h2]; exact hcB)
    rw [evals _ h2] at k2 k3
    rw [k3, k2, hwt']
    change (0 + 1 : F K) / (fin 1 + 1) = fin (1 / 2)
    rw [e11, e01, ehalf]
  · obtain ⟨d₁, g₁, k1, _, _, _, k⟩ := vectorfield_run p d hinv unitGrid (fillable_cart p _ unit_isCart)
      Selector.default usable_default hw
    refine ⟨d₁, g₁, k1, ?_⟩
    obtain ⟨k2, k3⟩ := (k 1).2.2 (fun _ => 0) hcB
    rw [evec _ rfl, hf] at k2 k3
    rw [k3, k2]
    change (0 + fin 0 : F K) / (0 + 1) = fin 0
    rw [e01, e00, ezero]
  · obtain ⟨d₁, g₁, k1, _, _, _, k⟩ := vectorfield_run p d hinv used (fillable_cart p _ h3)
      Selector.default usable_default hw
    refine ⟨d₁, g₁, k1, ?_⟩
    obtain ⟨k2, k3⟩ := (k 1).2.2 (fun _ => 0) (by rw [h2]; exact hcB)
    rw [evec _ h2, hf] at k2 k3
    have hcy : (VecGrid.new used).cyl = none := by unfold VecGrid.new; rw [h2]; rfl
    have hv : (VecGrid.new used).velocityCalculation (posOf (fun _ => oneStep) (0, 0)) (velOf (fun _ => oneStep) (0, 0)) 1
        = fin 0 := by unfold VecGrid.velocityCalculation; rw [hcy]; rfl
    simp only [List.map_cons, List.map_nil, hv, List.length_singleton] at k2 k3
    rw [k3, k2, hwt', hd']
    change (fin 1 + fin 0 : F K) / (fin 1 + 1) = fin (1 / 2)
    rw [e11, e10, ehalf]

end Up4
