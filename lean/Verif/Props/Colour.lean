import Verif.Model.Colour
import Verif.Props.PlotArgs
import Verif.Props.QuiverColour
import Verif.Props.Maps

set_option linter.unusedSectionVars false

/-! # C133: colour maps -/

namespace Up4
open F

variable {K : Type} [Field K] [LinearOrder K] [IsStrictOrderedRing K] [FloorRing K] [Arith K]

/-- **C133, names.** The names the Python checks let through are exactly those the Rust layer knows, and each stands for the colour map of that name. -/
theorem C133_names (n : String) : (colourAccepted (some n) = true ↔ getGradient (some n) = some n) ∧ (colourAccepted (some n) = false → getGradient (some n) = none) := by
  have h1 : ∀ x ∈ pyColourMaps, rustGradients.lookup x = some x := by decide
  have h2 : ∀ x ∈ rustGradients, x.1 ∈ pyColourMaps := by decide
  have h3 : n ∉ pyColourMaps → rustGradients.lookup n = none := by
    intro hn
    rw [List.lookup_eq_none_iff]
    intro p hp
    have hne : n ≠ p.1 := fun e => hn (by rw [e]; exact h2 p hp)
    simpa using hne
  unfold colourAccepted getGradient
  dsimp only
  by_cases h : n ∈ pyColourMaps
  · rw [h1 n h, decide_eq_true h]
    exact ⟨⟨fun _ => rfl, fun _ => rfl⟩, fun h => by cases h⟩
  · rw [h3 h, decide_eq_false h]
    exact ⟨⟨fun h => (by cases h), fun h => (by cases h)⟩, fun _ => rfl⟩

/-- The colour scale of a colour map: eleven places from 0 to 1 with the colours there. -/
def ScaleOf (eval : String → F K → String) (n : String) (scale : List (F K × String)) : Prop :=
  scale.length = 11 ∧ ∀ k : ℕ, k ≤ 10 → scale[k]? = some (fin ((k : K) / 10), eval n (fin ((k : K) / 10)))

theorem scaleOf [ExactArith K] (eval : String → F K → String) (c : Option String) : ScaleOf eval ((getGradient c).getD "plasma") (colourScale eval c) := by
  unfold colourScale
  refine ⟨by simp, fun k hk => ?_⟩
  have e : (F.ofNat k / F.ofNat 10 : F K) = fin ((k : K) / 10) := by
    rw [F.eofNat, F.eofNat, F.ediv _ (by norm_num)]
    norm_num
  rw [List.getElem?_map, List.getElem?_range (by omega)]
  simp only [Option.map_some, e]

/-- **C133, quiver plots with a colour map.** The colour bar spans the least to the greatest speed, an arrow has the colour of the map at the place of its speed in that range,
and an arrow whose speed is at one of the marks of the bar has the very colour the bar shows there. -/
theorem C133_bar_partial [ExactArith K] (eval : String → F K → String) (n : String) (hn : colourAccepted (some n) = true) (g : VecGrid K) (args : PlotArgs K)
    (a : Fin 3) (sel : Sel) (m : Scaling K) (h1 : Asks args a sel) (h2 : Scales args m) (h : g.Plottable a sel) (hax : a ≠ 1 ∨ ∃ k, sel = .plane k)
    (hd : ∀ k, FinOrNaN (g.comp k).st.data) (lo hi : K) (hlo : Least g a sel lo) (hhi : Greatest g a sel hi) (hlt : lo < hi) (f : QuiverFig K)
    (hf : quiverPlot g a sel m = .ok f) :
    ∃ P, paintQuiver eval g args (some n) = .ran (.ok P) ∧ P.fig = f ∧ P.bar = true ∧ ScaleOf eval n P.scale ∧ f.cmin = fin lo ∧ f.cmax = fin hi ∧
      ∀ i j, i < (g.comp 0).geom.cells (absc a) → j < (g.comp 0).geom.cells (ordi a) → ∀ s, speedAt g a sel i j = fin s →
        P.arrows[i * (g.comp 0).geom.cells (ordi a) + j]? = some (eval n (fin ((s - lo) / (hi - lo)))) ∧
        ∀ k : ℕ, k ≤ 10 → s = lo + (k : K) / 10 * (hi - lo) →
          P.arrows[i * (g.comp 0).geom.cells (ordi a) + j]? = (P.scale[k]?).map Prod.snd := by
  have hgrad := (C133_names n).1.1 hn
  obtain ⟨e1, e2⟩ := sel_asks args a sel h1
  have e3 := scaling_scales args m h2
  obtain ⟨c1, c2, c3⟩ := C79_colours_partial g a sel h hax hd lo hi hlo hhi hlt m f hf
  have hsc := scaleOf eval (some n)
  rw [hgrad, Option.getD_some] at hsc
  refine ⟨⟨f, f.arrows.map fun t => arrowColour eval (some n) t.colour, colourScale eval (some n), true⟩, ?_, rfl, rfl, hsc, c1, c2, ?_⟩
  · unfold paintQuiver
    rw [validate_of args a sel m h1 h2, hn]
    simp only [Bool.and_self, if_true, e1, e2, e3, run_bind_ok, hf, hgrad]
    rfl
  · intro i j hi' hj s hs
    obtain ⟨t, t1, t2, _⟩ := c3 i j hi' hj s hs
    have harrow : (f.arrows.map fun t => arrowColour eval (some n) t.colour)[i * (g.comp 0).geom.cells (ordi a) + j]? =
        some (eval n (fin ((s - lo) / (hi - lo)))) := by
      rw [List.getElem?_map, t1, Option.map_some, t2]
      unfold arrowColour
      rw [hgrad]
    refine ⟨harrow, fun k hk hs => ?_⟩
    rw [harrow, hsc.2 k hk, Option.map_some, hs, add_sub_cancel_left, mul_div_cancel_right₀ _ (sub_pos.2 hlt).ne']

/-- **C133, quiver plots without a colour map**: black arrows and no colour bar. -/
theorem C133_black (eval : String → F K → String) (g : VecGrid K) (args : PlotArgs K) (n : ℕ) (sel : Sel) (m : Scaling K) (h1 : Asks args n sel) (h2 : Scales args m)
    (f : QuiverFig K) (hf : quiverPlot g n sel m = .ok f) :
    ∃ P, paintQuiver eval g args none = .ran (.ok P) ∧ P.fig = f ∧ P.bar = false ∧ P.arrows.length = f.arrows.length ∧ ∀ x ∈ P.arrows, x = "Black" := by
  obtain ⟨e1, e2⟩ := sel_asks args n sel h1
  have e3 := scaling_scales args m h2
  refine ⟨⟨f, f.arrows.map fun t => arrowColour eval none t.colour, colourScale eval none, false⟩, ?_, rfl, rfl, by simp, ?_⟩
  · unfold paintQuiver
    rw [validate_of args n sel m h1 h2]
    simp only [colourAccepted, Bool.and_self, if_true, e1, e2, e3, run_bind_ok, hf]
    rfl
  · intro x hx
    obtain ⟨t, _, rfl⟩ := List.mem_map.1 hx
    rfl

/-- The colour map a plot uses for an accepted choice. -/
def mapUsed (c : Option String) : String := c.getD "plasma"

theorem accepted_used (c : Option String) (h : colourAccepted c = true) : (getGradient c).getD "plasma" = mapUsed c := by
  cases c with
  | none => rfl
  | some n => rw [(C133_names n).1.1 h]; rfl

theorem scales_plain (axis : ℤ) (selection : String) (index : Option ℕ) : Scales (PlotArgs.plain (K := K) axis selection index) .asIs := .none _ rfl

/-- **C133, maps, contours and unit vector plots.** An accepted colour map changes nothing but the colour scale, which is that of the named map (of `plasma` if none is
named). -/
theorem C133_maps [ExactArith K] (eval : String → F K → String) (c : Option String) (hc : colourAccepted c = true) (axis : ℤ) (selection : String) (index : Option ℕ)
    (n : ℕ) (sel : Sel) (h : Asks (⟨axis, selection, index, none, none, none⟩ : PlotArgs K) n sel) :
    (∀ (g : Plotted K) f, scalarMap g n sel = .ok f → ∃ P, paintMap eval g axis selection index c = .ran (.ok P) ∧ P.fig = f ∧ ScaleOf eval (mapUsed c) P.scale) ∧
    (∀ (g : Plotted K) f, scalarContour g n sel 10 = .ok f →
      ∃ P, paintContour eval g axis selection index c = .ran (.ok P) ∧ P.fig = f ∧ ScaleOf eval (mapUsed c) P.scale) ∧
    (∀ (g : VecGrid K) f, unitPlot g n sel .asIs = .ok f →
      ∃ P, paintUnit eval g ⟨axis, selection, index, none, none, none⟩ c = .ran (.ok P) ∧ P.fig = f ∧ ScaleOf eval (mapUsed c) P.scale) := by
  have h : Asks (PlotArgs.plain (K := K) axis selection index) n sel := h
  change _ ∧ _ ∧ ∀ (g : VecGrid K) f, _ → ∃ P, paintUnit eval g (PlotArgs.plain axis selection index) c = _ ∧ _
  obtain ⟨e1, e2⟩ := sel_asks _ n sel h
  have e2 : axis.toNat = n := e2
  have e3 := scaling_scales _ _ (scales_plain (K := K) axis selection index)
  have hv := validate_of _ n sel _ h (scales_plain (K := K) axis selection index)
  have hsc := scaleOf eval c
  rw [accepted_used c hc] at hsc
  refine ⟨fun g f hf => ⟨⟨f, [], colourScale eval c, true⟩, ?_, rfl, hsc⟩, fun g f hf => ⟨⟨f, [], colourScale eval c, true⟩, ?_, rfl, hsc⟩,
    fun g f hf => ⟨⟨f, f.arrows.map fun _ => "Black", colourScale eval c, true⟩, ?_, rfl, hsc⟩⟩
  · unfold paintMap
    rw [hv, hc]
    simp only [Bool.and_self, if_true, e1, e2, run_bind_ok, hf]
    rfl
  · unfold paintContour
    rw [hv, hc]
    simp only [Bool.and_self, if_true, e1, e2, run_bind_ok, hf]
    rfl
  · have hp : { PlotArgs.plain (K := K) axis selection index with maxSize := (PlotArgs.plain (K := K) axis selection index).minSize } =
        PlotArgs.plain (K := K) axis selection index := rfl
    have e2' : (PlotArgs.plain (K := K) axis selection index).axis.toNat = n := e2
    unfold paintUnit
    rw [hp, hv, hc]
    simp only [Bool.and_self, if_true, e1, e2', e3, run_bind_ok, hf]
    rfl

/-- **C133, unknown names** raise `ValueError` in the four plots that check them. -/
theorem C133_refused (eval : String → F K → String) (c : Option String) (hc : colourAccepted c = false) (args : PlotArgs K) (axis : ℤ) (selection : String)
    (index : Option ℕ) (g : VecGrid K) (s : Plotted K) :
    paintQuiver eval g args c = .refused ∧ paintUnit eval g args c = .refused ∧ paintMap eval s axis selection index c = .refused ∧
      paintContour eval s axis selection index c = .refused := by
  unfold paintQuiver paintUnit paintMap paintContour
  rw [hc]
  simp

/-- **C133 is false of the code** in two ways. The documentation calls the names case-insensitive: `viridis` is accepted, `Viridis` is refused. And `parity_map` and
`parity_contour`, which take a colour map as well, ignore it: any name, known or unknown, gives the same figure, without the colour scale of the named map. -/
theorem C133_false (eval : String → F K → String) (axis : ℤ) (selection : String) (index : Option ℕ) (s t : Plotted K) :
    colourAccepted (some "viridis") = true ∧ paintMap eval s axis selection index (some "Viridis") = .refused ∧
    (∀ c c', paintParity s t axis selection index c = paintParity s t axis selection index c') ∧
    ∀ c P, paintParity s t axis selection index c = .ran (.ok P) → P.scale = [] := by
  refine ⟨by decide, ?_, fun _ _ => rfl, fun c P h => ?_⟩
  · have : colourAccepted (some "Viridis") = false := by decide
    unfold paintMap
    rw [this]
    simp
  · unfold paintParity at h
    by_cases hv : (PlotArgs.plain (K := K) axis selection index).validate = true
    · rw [if_pos hv] at h
      have h' : (_ : Run _) = .ok P := Called.ran.inj h
      obtain ⟨sel, _, h''⟩ := run_bind_inv h'
      obtain ⟨f, _, h'''⟩ := run_bind_inv h''
      cases h'''
      rfl
    · rw [if_neg hv] at h
      cases h

/-- Case for `C133_bar_partial`: speeds 5 and 10; the slow arrow has the colour at the foot of the bar, the fast one the colour at its top. -/
example (eval : String → F ℝ → String) : ∃ P, paintQuiver eval twoSpeeds ⟨2, "plane", some 0, none, none, none⟩ (some "magma") = .ran (.ok P) ∧
    P.arrows[0]? = (P.scale[0]?).map Prod.snd ∧ P.arrows[3]? = (P.scale[10]?).map Prod.snd ∧ P.arrows[3]? = some (eval "magma" (fin 1)) := by
  have hax : (2 : Fin 3) ≠ 1 ∨ ∃ k, Sel.plane 0 = .plane k := Or.inl (by decide)
  have hlo : Least twoSpeeds 2 (.plane 0) 5 := by
    refine ⟨⟨0, 0, by decide, by decide, by rw [twoSpeeds_speed, if_pos rfl]⟩, fun i j s _ _ hs => ?_⟩
    rw [twoSpeeds_speed] at hs
    split_ifs at hs <;> cases hs <;> norm_num
  have hhi : Greatest twoSpeeds 2 (.plane 0) 10 := by
    refine ⟨⟨1, 0, by decide, by decide, by rw [twoSpeeds_speed, if_neg (by norm_num)]⟩, fun i j s _ _ hs => ?_⟩
    rw [twoSpeeds_speed] at hs
    split_ifs at hs <;> cases hs <;> norm_num
  obtain ⟨f, e, _⟩ := C76_arrows_partial twoSpeeds 2 (.plane 0) twoSpeeds_plottable hax
  obtain ⟨P, h1, _, _, _, _, _, h2⟩ := C133_bar_partial eval "magma" (by decide) twoSpeeds ⟨2, "plane", some 0, none, none, none⟩ 2 (.plane 0) .asIs
    (.plane _ 2 0 (by norm_num) rfl rfl rfl) (.none _ rfl) twoSpeeds_plottable hax
    (fun k i _ => by change (if i 0 = 0 then _ else _) = nan ∨ ∃ x, (if i 0 = 0 then _ else _) = fin x; split_ifs <;> exact Or.inr ⟨_, rfl⟩) 5 10 hlo hhi (by norm_num) f e
  obtain ⟨_, a2⟩ := h2 0 0 (by decide) (by decide) 5 (by rw [twoSpeeds_speed, if_pos rfl])
  obtain ⟨b1, b2⟩ := h2 1 0 (by decide) (by decide) 10 (by rw [twoSpeeds_speed, if_neg (by norm_num)])
  refine ⟨P, h1, a2 0 (by norm_num) (by norm_num), b2 10 (by norm_num) (by norm_num), ?_⟩
  have : ((10 : ℝ) - 5) / (10 - 5) = 1 := by norm_num
  rw [this] at b1
  exact b1

/-- Case for `C133_black` and `C133_maps`: the same field, without a colour map, and a scalar map in `greys`. -/
example (eval : String → F ℝ → String) : (∃ P, paintQuiver eval twoSpeeds ⟨2, "plane", some 0, none, none, none⟩ none = .ran (.ok P) ∧ ∀ x ∈ P.arrows, x = "Black") ∧
    ∃ P, paintMap eval (.scalar (scalarGrid ![3, 2, 2] (fun _ => (6 : ℝ)) (fun c => fin (10 * c 0 + c 1)))) 2 "plane" (some 0) (some "greys") = .ran (.ok P) ∧
      ScaleOf eval "greys" P.scale := by
  have hax : (2 : Fin 3) ≠ 1 ∨ ∃ k, Sel.plane 0 = .plane k := Or.inl (by decide)
  obtain ⟨f, e, _⟩ := C76_arrows_partial twoSpeeds 2 (.plane 0) twoSpeeds_plottable hax
  obtain ⟨P, h1, _, _, _, h2⟩ := C133_black eval twoSpeeds ⟨2, "plane", some 0, none, none, none⟩ 2 (.plane 0) .asIs
    (.plane _ 2 0 (by norm_num) rfl rfl rfl) (.none _ rfl) f e
  refine ⟨⟨P, h1, h2⟩, ?_⟩
  obtain ⟨k1, _, _⟩ := C133_maps eval (some "greys") (by decide) 2 "plane" (some 0) 2 (.plane 0) (.plane _ 2 0 (by norm_num) rfl rfl rfl)
  obtain ⟨h, eh, _⟩ := C82_scalar_map (.scalar (scalarGrid ![3, 2, 2] (fun _ => (6 : ℝ)) (fun c => fin (10 * c 0 + c 1)))) 2 (.plane 0)
    ⟨scalarGrid_regular _ _ _, scalarGrid_shows _ _ _ _ _ (by decide)⟩
  obtain ⟨Q, q1, _, q2⟩ := k1 _ h eh
  exact ⟨Q, q1, q2⟩

/-- Case for `C133_refused` and `C133_names`: `jet` is not among the names, whatever is plotted; `red_grey` is. -/
example (eval : String → F ℝ → String) : paintQuiver eval twoSpeeds ⟨2, "plane", some 0, none, none, none⟩ (some "jet") = .refused ∧
    getGradient (some "red_grey") = some "red_grey" :=
  ⟨(C133_refused eval (some "jet") (by decide) ⟨2, "plane", some 0, none, none, none⟩ 2 "plane" none twoSpeeds (.vector twoSpeeds)).1,
    (C133_names "red_grey").1.1 (by decide)⟩

end Up4
