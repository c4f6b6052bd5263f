import Verif.Props.Units

set_option linter.unusedSectionVars false

/-!
# C138: an observer who moves with a constant velocity
-/

namespace Up4
open F

variable {K : Type} [Field K] [LinearOrder K] [IsStrictOrderedRing K] [FloorRing K] [Arith K]

/-- The second dataset holds the velocities of the first as seen by an observer who moves with the velocity `-u`, and everything else unchanged. -/
structure Drifting (u : Fin 3 → K) (d₁ d₂ : Dm (Timestep K)) : Prop where
  steps : d₂.n = d₁.n
  file : ∀ t, t < d₁.n → d₂.file t = { d₁.file t with velocity := (d₁.file t).velocity.map fun v a => v a + fin (u a) }

theorem drifting_seen {u : Fin 3 → K} {d₁ d₂ : Dm (Timestep K)} (h : Drifting u d₁ d₂) (hw : ∀ t, t < d₁.n → (d₁.file t).Wf) (sel : Selector K) :
    d₂.samples sel = d₁.samples sel ∧ d₂.seen sel = (d₁.seen sel).map fun x => (x.1, fun a => x.2 a + fin (u a)) := by
  have hs : d₂.samples sel = d₁.samples sel := by
    unfold Dm.samples samples
    rw [h.steps]
    refine List.flatMap_congr fun t ht => ?_
    rw [h.file t (List.mem_range.1 ht)]
    rfl
  refine ⟨hs, ?_⟩
  unfold Dm.seen
  rw [hs, List.map_map]
  refine List.map_congr_left fun x hx => ?_
  obtain ⟨t, i⟩ := x
  obtain ⟨ht, _, hi, _⟩ := (mem_samples _ _ _ _ _).1 hx
  have hf := h.file t (List.mem_range.1 ht)
  have hi' : i < (d₁.file t).velocity.length := by rw [(hw t (List.mem_range.1 ht)).1]; exact hi
  have e1 : posOf d₂.file (t, i) = posOf d₁.file (t, i) := by
    change (d₂.file t).pos i = (d₁.file t).pos i
    rw [hf]
    rfl
  have e2 : velOf d₂.file (t, i) = fun a => velOf d₁.file (t, i) a + fin (u a) := by
    change (d₂.file t).vel i = fun a => (d₁.file t).vel i a + fin (u a)
    rw [hf]
    unfold Timestep.vel
    simp only [List.getD_eq_getElem?_getD, List.getElem?_map, List.getElem?_eq_getElem hi', Option.map_some, Option.getD_some]
  rw [e1, e2]
  rfl

theorem drifting_ready {u : Fin 3 → K} {d₁ d₂ : Dm (Timestep K)} (h : Drifting u d₁ d₂) (hi : d₂.Inv) (sel : Selector K) (hr : Ready d₁ sel) :
    Ready d₂ sel := by
  refine ⟨hi, fun t ht => ?_, hr.usable, by rw [(drifting_seen h hr.wf sel).1]; exact hr.few⟩
  rw [h.steps] at ht
  obtain ⟨w1, w2, w3, w4, w5, w6⟩ := hr.wf t ht
  rw [h.file t ht]
  unfold Timestep.Wf
  simp only [List.length_map]
  exact ⟨w1, w2, w3, w4, w5, w6⟩

theorem shift_mean [ExactArith K] (k : K) {u v : List K} (h : v = u.map (· + k)) :
    (if v = [] then F.nan else fin (v.sum / v.length)) = (if u = [] then F.nan else fin (u.sum / u.length)) + fin k := by
  subst h
  by_cases h0 : u = []
  · rw [if_pos (by rw [h0]; rfl), if_pos h0]; rfl
  · have hl : (u.length : K) ≠ 0 := by exact_mod_cast (List.length_pos_iff.2 h0).ne'
    have hs : (u.map (· + k)).sum = u.sum + u.length * k := by
      rw [List.sum_map_add, List.map_id', List.map_const', List.sum_replicate, nsmul_eq_mul]
    rw [if_neg (by simpa using h0), if_neg h0, eadd, List.length_map, hs]
    congr 1
    field_simp

/-- Which component a mode of `velocityfield` is about. -/
def oneMode (a : Fin 3) : String := if a = 0 then "x" else if a = 1 then "y" else "z"

/-- **C138 (components of the velocity).** Every cell of the field of one velocity component (with the velocity limits shifted likewise) is the old value plus the
component of the velocity that was added; empty cells stay NaN. Exact arithmetic, any grid. -/
theorem C138_velocityfield [LawfulArith K] [ExactArith K] (p : Profile) (grid : Grid K) (hg : grid.Fillable p) (hfresh : ∀ c, grid.st.weight.get c = 0)
    (u : Fin 3 → K) (d₁ d₂ : Dm (Timestep K)) (hd : Drifting u d₁ d₂) (hi₂ : d₂.Inv) (sel : Selector K) (hr : Ready d₁ sel)
    (hv : FiniteVel (d₁.seen sel)) (a : Fin 3) (vlo vhi : K) :
    ∃ d₁' g₁ d₂' g₂, velocityfield p d₁ grid sel (oneMode a) (fin vlo) (fin vhi) = .ok (d₁', g₁) ∧
      velocityfield p d₂ grid sel (oneMode a) (fin (vlo + u a)) (fin (vhi + u a)) = .ok (d₂', g₂) ∧
      ∀ c, InB grid.geom.cells c → g₂.st.data.get c = g₁.st.data.get c + fin (u a) ∧ g₂.st.weight.get c = g₁.st.weight.get c := by
  have hr₂ := drifting_ready hd hi₂ sel hr
  obtain ⟨hsam, hseen⟩ := drifting_seen hd hr.wf sel
  have hvc : velMode (K := K) (oneMode a) = .ok fun v => v a := by fin_cases a <;> rfl
  obtain ⟨d₁', g₁, r₁, e₁⟩ := velocity_cells p grid hg hfresh d₁ sel hr (oneMode a) _ hvc vlo vhi
  obtain ⟨d₂', g₂, r₂, e₂⟩ := velocity_cells p grid hg hfresh d₂ sel hr₂ (oneMode a) _ hvc (vlo + u a) (vhi + u a)
  refine ⟨d₁', g₁, d₂', g₂, r₁, r₂, fun c hcb => ?_⟩
  obtain ⟨l, u1, u2, u3⟩ := e₁ c hcb
  obtain ⟨v, v1, v2, v3⟩ := e₂ c hcb
  have huv : v = l.map (· + u a) := by
    have hl : v.map fin = (l.map (· + u a)).map fin := by
      have e : (l.map (· + u a)).map fin = (l.map fin).map fun x : F K => x + fin (u a) := by
        rw [List.map_map, List.map_map]
        exact List.map_congr_left fun x _ => (eadd x (u a)).symm
      rw [e, u1, v1, hseen]
      unfold cellValues
      rw [List.filter_map, List.map_map, List.map_map]
      have hf : ∀ x ∈ d₁.seen sel, ((fun x : Pos K × (Fin 3 → F K) => inCell p grid.geom x.1 c && within (fin (vlo + u a)) (fin (vhi + u a)) (x.2 a)) ∘
          fun x => (x.1, fun a => x.2 a + fin (u a))) x = (inCell p grid.geom x.1 c && within (fin vlo) (fin vhi) (x.2 a)) := by
        intro x hx
        obtain ⟨s, s1⟩ := hv x hx a
        simp only [Function.comp]
        rw [s1, eadd]
        congr 1
        unfold within
        rw [Bool.eq_iff_iff]
        simp only [decide_eq_true_eq, F.le_fin, add_le_add_iff_right]
      rw [List.filter_congr hf]
      rfl
    exact List.map_injective_iff.2 (fun x y h => F.fin.inj h) hl
  refine ⟨by rw [u3, v3, shift_mean (u a) huv], by rw [u2, v2, huv, List.length_map]⟩

/-- **C138 (vector field).** Every vector of the field is the old one plus the velocity that was added. Exact arithmetic, Cartesian grids. -/
theorem C138_vectorfield [LawfulArith K] [ExactArith K] (p : Profile) (grid : Grid K) (hg : grid.Fillable p)
    (hfresh : ∀ c, grid.st.weight.get c = 0 ∧ grid.st.data.get c = 0) (hcart : grid.geom.isCylindrical = false)
    (u : Fin 3 → K) (d₁ d₂ : Dm (Timestep K)) (hd : Drifting u d₁ d₂) (hi₂ : d₂.Inv) (sel : Selector K) (hr : Ready d₁ sel) (hv : FiniteVel (d₁.seen sel)) :
    ∃ d₁' g₁ d₂' g₂, vectorfield p d₁ grid sel = .ok (d₁', g₁) ∧ vectorfield p d₂ grid sel = .ok (d₂', g₂) ∧
      ∀ a c, InB grid.geom.cells c → (g₂.comp a).st.data.get c = (g₁.comp a).st.data.get c + fin (u a) := by
  have hr₂ := drifting_ready hd hi₂ sel hr
  obtain ⟨hsam, hseen⟩ := drifting_seen hd hr.wf sel
  have hv₂ : FiniteVel (d₂.seen sel) := by
    rw [hseen]
    intro x hx a
    obtain ⟨y, hy, rfl⟩ := List.mem_map.1 hx
    obtain ⟨w, hw⟩ := hv y hy a
    exact ⟨w + u a, by dsimp only; rw [hw, eadd]⟩
  obtain ⟨d₁', g₁, r₁, e₁⟩ := vector_cells p grid hg hfresh hcart d₁ sel hr hv
  obtain ⟨d₂', g₂, r₂, e₂⟩ := vector_cells p grid hg hfresh hcart d₂ sel hr₂ hv₂
  refine ⟨d₁', g₁, d₂', g₂, r₁, r₂, fun a c hcb => ?_⟩
  obtain ⟨l, u1, u2, u3⟩ := e₁ a c hcb
  obtain ⟨v, v1, v2, v3⟩ := e₂ a c hcb
  have huv : v = l.map (· + u a) := by
    have hl : v.map fin = (l.map (· + u a)).map fin := by
      have e : (l.map (· + u a)).map fin = (l.map fin).map fun x : F K => x + fin (u a) := by
        rw [List.map_map, List.map_map]
        exact List.map_congr_left fun x _ => (eadd x (u a)).symm
      rw [e, u1, v1, hseen]
      unfold cellVelocities
      rw [List.filter_map, List.map_map, List.map_map]
      rfl
    exact List.map_injective_iff.2 (fun x y h => F.fin.inj h) hl
  rw [u3, v3, shift_mean (u a) huv]

theorem meanSqDev_shift (k : K) (l : List K) : meanSqDev (l.map (· + k)) = meanSqDev l := by
  by_cases h0 : l = []
  · subst h0; rfl
  have hl : (l.length : K) ≠ 0 := by exact_mod_cast (List.length_pos_iff.2 h0).ne'
  have hm : mean (l.map (· + k)) = mean l + k := by
    unfold mean
    rw [List.length_map, List.sum_map_add, List.map_id', List.map_const', List.sum_replicate, nsmul_eq_mul]
    field_simp
  unfold meanSqDev
  rw [hm, List.length_map, List.map_map]
  congr 2
  refine List.map_congr_left fun x _ => ?_
  simp only [Function.comp]
  ring

theorem fluctuation_shift (mode : String) (u : Fin 3 → K) (l : Fin 3 → List K) : fluctuation mode (fun a => (l a).map (· + u a)) = fluctuation mode l := by
  unfold fluctuation
  simp only [meanSqDev_shift]

/-- **C138 (granular temperature).** No cell changes. Exact arithmetic, any grid. -/
theorem C138_granular [LawfulArith K] [ExactArith K] (p : Profile) (grid : Grid K) (hg : grid.Fillable p) (hfresh : ∀ c, grid.st.data.get c = 0)
    (u : Fin 3 → K) (d₁ d₂ : Dm (Timestep K)) (hd : Drifting u d₁ d₂) (hi₂ : d₂.Inv) (sel : Selector K) (hr : Ready d₁ sel) (hv : FiniteVel (d₁.seen sel))
    (mode : String) (hm : mode = "x" ∨ mode = "y" ∨ mode = "z" ∨ mode = "xyz") :
    ∃ d₁' g₁ d₂' g₂, granularTemperature p d₁ grid sel mode = .ok (d₁', g₁) ∧ granularTemperature p d₂ grid sel mode = .ok (d₂', g₂) ∧
      ∀ c, InB grid.geom.cells c → g₂.st.data.get c = g₁.st.data.get c := by
  have hr₂ := drifting_ready hd hi₂ sel hr
  obtain ⟨hsam, hseen⟩ := drifting_seen hd hr.wf sel
  obtain ⟨v, hv₁⟩ := seen_finite hv
  have hall : ∀ x ∈ d₁.samples sel, posOf d₂.file x = posOf d₁.file x ∧ ∀ a, velOf d₂.file x a = fin (v x a + u a) := by
    intro x hx
    have hb := hseen
    unfold Dm.seen at hb
    rw [hsam, List.map_map, List.map_inj_left] at hb
    have hb := hb x hx
    refine ⟨(Prod.mk.inj hb).1, fun a => ?_⟩
    have := congrFun (Prod.mk.inj hb).2 a
    rw [this, ← eadd, ← hv₁ x hx a]
  obtain ⟨d₁', g₁, r₁, _, _, _, _, e₁⟩ := C40_granular p d₁ hr.inv grid hg hfresh sel hr.usable hr.wf v (fun x hx _ => hv₁ x hx) mode hm
  obtain ⟨d₂', g₂, r₂, _, _, _, _, e₂⟩ := C40_granular p d₂ hr₂.inv grid hg hfresh sel hr₂.usable hr₂.wf (fun x a => v x a + u a)
    (fun x hx _ => (hall x (by rwa [hsam] at hx)).2) mode hm
  refine ⟨d₁', g₁, d₂', g₂, r₁, r₂, fun c hc => ?_⟩
  obtain ⟨_, u2, u3⟩ := e₁ c hc
  obtain ⟨_, w2, w3⟩ := e₂ c hc
  have hS : ((d₂.samples sel).filter fun x => inCell p grid.geom (posOf d₂.file x) c) = (d₁.samples sel).filter fun x => inCell p grid.geom (posOf d₁.file x) c := by
    rw [hsam]
    exact List.filter_congr fun x hx => by rw [(hall x hx).1]
  rw [hS] at w2 w3
  by_cases h : ((d₁.samples sel).filter fun x => inCell p grid.geom (posOf d₁.file x) c) = []
  · rw [u2 h, w2 h]
  · obtain ⟨T, t1, t2, t3⟩ := u3 h
    obtain ⟨U, q1, q2, q3⟩ := w3 h
    have e := fluctuation_shift mode u fun a => ((d₁.samples sel).filter fun x => inCell p grid.geom (posOf d₁.file x) c).map fun x => v x a
    simp only [List.map_map] at e
    rw [t1, q1, (mul_self_inj q2 t2).1 (q3.trans (e.trans t3.symm))]

/-- Case for `C138_velocityfield`, `C138_vectorfield`, `C138_granular`: the demo dataset seen from a belt that moves with the velocity (-1, 0, -3). -/
example (p : Profile) (kind : Kind) : ∃ d₁ d₂ : Dm (Timestep ℝ), Dm.new p kind demoFile 4 Timestep.default = .ok d₁ ∧
    Drifting (![1, 0, 3] : Fin 3 → ℝ) d₁ d₂ ∧ d₂.Inv ∧ Ready d₁ Selector.default ∧ FiniteVel (d₁.seen Selector.default) ∧
    d₁.seen Selector.default ≠ [] ∧ velOf d₂.file (2, 0) 2 = fin 7 := by
  obtain ⟨d, e, hinv, hf, hn, hw, hS⟩ := demo_manager p kind 4 (by norm_num) (by norm_num)
  obtain ⟨d₂, _, hinv₂, hf₂, hn₂, _⟩ := Dm.new_ok p kind (fun t => { demoFile t with velocity := (demoFile t).velocity.map fun v a => v a + fin ((![1, 0, 3] : Fin 3 → ℝ) a) }) 4
    Timestep.default (by norm_num) (by norm_num)
  refine ⟨d, d₂, e, ⟨by rw [hn, hn₂], fun t _ => by rw [hf, hf₂]⟩, hinv₂, ⟨hinv, hw, usable_default, by rw [hS]; simp⟩, ?_, ?_, ?_⟩
  · intro x hx a
    unfold Dm.seen at hx
    rw [hS] at hx
    obtain ⟨y, hy, rfl⟩ := List.mem_map.1 hx
    obtain ⟨t, _, rfl⟩ := List.mem_map.1 hy
    rw [hf]
    fin_cases a <;> exact ⟨_, rfl⟩
  · unfold Dm.seen
    rw [hS]
    simp
  · rw [hf₂]
    change (fin (4 : ℝ) : F ℝ) + fin 3 = fin 7
    rw [eadd]
    norm_num

end Up4
