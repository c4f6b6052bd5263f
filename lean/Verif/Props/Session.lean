import Verif.Proofs.Session
import Verif.Props.Items
import Verif.Props.Occupancy
import Verif.Props.Fields

set_option linter.unusedSectionVars false

/-! # C88: answers do not depend on earlier calls -/

namespace Up4
open F
open Selector (at')

variable {K : Type} [Field K] [LinearOrder K] [IsStrictOrderedRing K] [FloorRing K] [Arith K]

/-- Calls with arguments that fit a dataset of `n` timesteps: an item index between `-n` and `n - 1` (see C75 for others), and at least three
timesteps for the two analyses that stop three timesteps before the end. All other arguments are arbitrary. -/
def Call.Fits (n : ℕ) : Call K → Prop
  | .item i => -(n : ℤ) ≤ i ∧ i < n
  | .occupancyfield _ _ => 3 ≤ n
  | .homogenityIndex _ _ => 3 ≤ n
  | _ => True

/-- Is the call a `set_time`? -/
def Call.setsTime : Call K → Bool
  | .setTime _ _ => true
  | _ => false

/-- The settings in force after the calls: the last `set_time`, if any. -/
def settings (cs : List (Call K)) : List (Call K) := (cs.filter Call.setsTime).getLast?.toList

/-- The answer to the last of the calls after opening the file. -/
def OnDisk.answer (p : Profile) (f : OnDisk K) (cs : List (Call K)) : Run (Option (Answer K)) := do
  let r ← f.session p cs
  pure r.2.getLast?

/-- Two data objects on the same file with the same settings. -/
structure PyData.Alike (kind : Kind) (f : OnDisk K) (s s' : PyData K) : Prop where
  steady : s.dm.Steady Timestep.default kind f.file f.n
  steady' : s'.dm.Steady Timestep.default kind f.file f.n
  st : s.st = f.st ∧ s'.st = f.st
  maxTime : s.maxTime = f.maxTime ∧ s'.maxTime = f.maxTime
  sel : s.sel = s'.sel

/-- One call on two such objects: same answer or same panic, and they stay alike; calls other than `set_time` keep the settings. -/
theorem call_alike [LawfulArith K] (p : Profile) (kind : Kind) (f : OnDisk K) (h1 : 1 ≤ f.n) {s s' : PyData K} (h : PyData.Alike kind f s s')
    (c : Call K) (hc : c.Fits f.n) :
    (∃ e, s.call p c = .error e ∧ s'.call p c = .error e) ∨
    (∃ t t' a, s.call p c = .ok (t, a) ∧ s'.call p c = .ok (t', a) ∧ PyData.Alike kind f t t' ∧ (c.setsTime = false → t.sel = s.sel)) := by
  rcases s with ⟨d, st, mt, sel⟩
  rcases s' with ⟨d', st', mt', sel'⟩
  obtain ⟨k1, k2, ⟨k3, k3'⟩, ⟨k4, k4'⟩, k5⟩ := h
  dsimp only at k1 k2 k3 k3' k4 k4' k5
  subst k3 k3' k4 k4' k5
  -- from agreement of the analyses to agreement of the calls
  have lift : ∀ {α : Type} (x y : Run (Dm (Timestep K) × α)) (w : α → Answer K), Agree Timestep.default kind f.file f.n x y →
      (∃ e, (x >>= fun r => pure ((⟨r.1, f.st, f.maxTime, sel⟩ : PyData K), w r.2) : Run _) = .error e ∧
        (y >>= fun r => pure ((⟨r.1, f.st, f.maxTime, sel⟩ : PyData K), w r.2) : Run _) = .error e) ∨
      (∃ t t' a, (x >>= fun r => pure ((⟨r.1, f.st, f.maxTime, sel⟩ : PyData K), w r.2) : Run _) = .ok (t, a) ∧
        (y >>= fun r => pure ((⟨r.1, f.st, f.maxTime, sel⟩ : PyData K), w r.2) : Run _) = .ok (t', a) ∧ PyData.Alike kind f t t' ∧
        (c.setsTime = false → t.sel = sel)) := by
    intro α x y w hag
    rcases hag with ⟨e, rfl, rfl⟩ | ⟨d1, d2, a, rfl, rfl, g1, g2⟩
    · exact Or.inl ⟨e, rfl, rfl⟩
    · exact Or.inr ⟨⟨d1, f.st, f.maxTime, sel⟩, ⟨d2, f.st, f.maxTime, sel⟩, w a, rfl, rfl, ⟨g1, g2, ⟨rfl, rfl⟩, ⟨rfl, rfl⟩, rfl⟩, fun _ => rfl⟩
  have same : PyData.Alike kind f ⟨d, f.st, f.maxTime, sel⟩ ⟨d', f.st, f.maxTime, sel⟩ := ⟨k1, k2, ⟨rfl, rfl⟩, ⟨rfl, rfl⟩, rfl⟩
  cases c with
  | setTime a b =>
    by_cases hm : f.maxTime < a
    · refine Or.inl ⟨.explicit, ?_, ?_⟩ <;>
      · unfold PyData.call PyData.setTime
        dsimp only
        rw [if_pos hm]; rfl
    · refine Or.inr ⟨⟨d, f.st, f.maxTime, sel.setTime a b⟩, ⟨d', f.st, f.maxTime, sel.setTime a b⟩, .none, ?_, ?_,
        ⟨k1, k2, ⟨rfl, rfl⟩, ⟨rfl, rfl⟩, rfl⟩, fun h => by cases h⟩ <;>
      · unfold PyData.call PyData.setTime
        dsimp only
        rw [if_neg hm]; rfl
  | dimensions => exact Or.inr ⟨_, _, _, rfl, rfl, same, fun _ => rfl⟩
  | minPosition => exact Or.inr ⟨_, _, _, rfl, rfl, same, fun _ => rfl⟩
  | maxPosition => exact Or.inr ⟨_, _, _, rfl, rfl, same, fun _ => rfl⟩
  | nparticles => exact Or.inr ⟨_, _, _, rfl, rfl, same, fun _ => rfl⟩
  | time => exact Or.inr ⟨_, _, _, rfl, rfl, same, fun _ => rfl⟩
  | meanVelocity => exact Or.inr ⟨_, _, _, rfl, rfl, same, fun _ => rfl⟩
  | len =>
    refine Or.inr ⟨⟨d, f.st, f.maxTime, sel⟩, ⟨d', f.st, f.maxTime, sel⟩, .nat f.n, ?_, ?_, same, fun _ => rfl⟩
    · change (pure _ : Run _) = _; rw [k1.num]; rfl
    · change (pure _ : Run _) = _; rw [k2.num]; rfl
  | numberfield g => exact lift _ _ .grid (numberfield_agree p g sel k1 k2)
  | vectorfield g => exact lift _ _ .vec (vectorfield_agree p g sel k1 k2)
  | velocityfield g mode lo hi => exact lift _ _ .grid (velocityfield_agree p g sel mode lo hi k1 k2)
  | occupancyfield g minV => exact lift _ _ .grid (occupancy_agree p g sel minV hc k1 k2)
  | homogenityIndex g minV => exact lift _ _ .num (homogeneity_agree p g sel minV hc k1 k2)
  | granularTemperature g mode => exact lift _ _ .grid (granular_agree p g sel mode k1 k2)
  | histogram g property bins limit => exact lift _ _ (fun r => .counts r.1 r.2) (histogram_agree p f.st g sel property limit bins k1 k2)
  | laceyMixingIndex g a b threshold => exact lift _ _ .pairs (lacey_agree p g sel a b threshold h1 k1 k2)
  | concentrationField g a b => exact lift _ _ .grid (concentration_agree p g sel a b h1 k1 k2)
  | dispersion g dt => exact lift _ _ (fun r => .gridNum r.1 r.2) (dispersion_agree p f.st g sel dt k1 k2)
  | msdField g dt => exact lift _ _ .grid (msdField_agree p f.st g sel dt h1 k1 k2)
  | msd g t0 t1 steps => exact lift _ _ (fun r => .two r.1 r.2) (msdCurve_agree p f.st g sel t0 t1 steps h1 k1 k2)
  | circulationTime bound axis => exact lift _ _ .nums (circulation_agree p f.st sel axis bound h1 k1 k2)
  | circulationTwoBoundary lo hi axis => exact lift _ _ .pairs (twoBoundary_agree p f.st sel axis lo hi h1 k1 k2)
  | extract i a b => exact lift _ _ .table (extract_agree p i a b k1 k2)
  | item i =>
    refine lift (PyData.item p d i) (PyData.item p d' i) .matrix ?_
    unfold PyData.item
    rw [k1.num, k2.num]
    obtain ⟨e1, e2⟩ := asUsize_index f.n k1.small i hc.1 hc.2
    rw [e1]
    refine Agree.get p k1 k2 e2 fun d d' h h' => ?_
    exact Agree.run _ fun _ _ => Agree.value h h' _

/-- Calls one after the other: the last one last. -/
theorem calls_snoc (p : Profile) (cs : List (Call K)) (c : Call K) (s : PyData K) :
    s.calls p (cs ++ [c]) = (s.calls p cs >>= fun r => r.1.call p c >>= fun r' => pure (r'.1, r.2 ++ [r'.2])) := by
  induction cs generalizing s with
  | nil =>
    change (s.call p c >>= fun r => _) = (s.call p c >>= fun r => _)
    cases s.call p c <;> rfl
  | cons c' cs ih =>
    rw [List.cons_append]
    unfold PyData.calls
    cases e : s.call p c' with
    | error _ => rfl
    | ok r =>
      rw [run_bind_ok, run_bind_ok, ih]
      cases r.1.calls p cs with
      | error _ => rfl
      | ok r1 =>
        rw [run_bind_ok, run_bind_ok]
        change _ = (r1.1.call p c >>= _)
        cases r1.1.call p c <;> rfl

theorem settings_snoc (cs : List (Call K)) (c : Call K) : settings (cs ++ [c]) = if c.setsTime then [c] else settings cs := by
  unfold settings
  cases h : c.setsTime <;> simp [List.filter_append, h]

/-- The state after calls that returned: on the same file, and with the settings of the last `set_time`. -/
theorem calls_settings [LawfulArith K] (p : Profile) (kind : Kind) (f : OnDisk K) (h1 : 1 ≤ f.n) {s : PyData K} (h : PyData.Alike kind f s s)
    (cs : List (Call K)) (hc : ∀ c ∈ cs, c.Fits f.n) {t : PyData K} {as : List (Answer K)} (e : s.calls p cs = .ok (t, as)) :
    (∃ t' as', s.calls p (settings cs) = .ok (t', as') ∧ PyData.Alike kind f t t') ∧ (∀ a b, t.sel.setTime a b = s.sel.setTime a b) := by
  induction cs using List.reverseRecOn generalizing t as with
  | nil =>
    cases e
    exact ⟨⟨s, [], rfl, h⟩, fun _ _ => rfl⟩
  | append_singleton cs c ih =>
    rw [calls_snoc] at e
    cases e0 : s.calls p cs with
    | error _ => rw [e0] at e; cases e
    | ok r0 =>
      rw [e0, run_bind_ok] at e
      cases e1 : r0.1.call p c with
      | error _ => rw [e1] at e; cases e
      | ok r1 =>
        rw [e1, run_bind_ok] at e
        cases e
        obtain ⟨⟨t', as', g1, g2⟩, g3⟩ := ih (fun c hc' => hc c (by simp [hc'])) e0
        have self : PyData.Alike kind f r0.1 r0.1 := ⟨g2.steady, g2.steady, ⟨g2.st.1, g2.st.1⟩, ⟨g2.maxTime.1, g2.maxTime.1⟩, rfl⟩
        rcases call_alike p kind f h1 self c (hc c (by simp)) with ⟨_, x, _⟩ | ⟨t1, _, a, x, x', y, z⟩
        · rw [e1] at x; cases x
        · rw [e1] at x; cases x
          dsimp only
          rw [settings_snoc]
          cases hs : c.setsTime with
          | false =>
            rw [if_neg (by simp)]
            have z := z hs
            exact ⟨⟨t', as', g1, ⟨y.steady, g2.steady', ⟨y.st.1, g2.st.2⟩, ⟨y.maxTime.1, g2.maxTime.2⟩, z.trans g2.sel⟩⟩, fun a b => by rw [z]; exact g3 a b⟩
          | true =>
            rw [if_pos rfl]
            cases c <;> try (cases hs)
            rename_i a0 b0
            change (r0.1.setTime a0 b0 >>= fun s => pure (s, Answer.none)) = _ at e1
            unfold PyData.setTime at e1
            by_cases hm : r0.1.maxTime < a0
            · rw [if_pos hm] at e1; cases e1
            · rw [if_neg hm] at e1
              cases e1
              refine ⟨⟨{ s with sel := s.sel.setTime a0 b0 }, [.none], ?_, ?_⟩, ?_⟩
              · change (PyData.setTime s a0 b0 >>= fun s => pure (s, Answer.none)) >>= _ = _
                unfold PyData.setTime
                rw [if_neg (by rw [h.maxTime.1, ← g2.maxTime.1]; exact hm)]
                rfl
              · exact ⟨y.steady, h.steady, ⟨y.st.1, h.st.1⟩, ⟨y.maxTime.1, h.maxTime.1⟩, g3 a0 b0⟩
              · intro a b
                exact g3 a b

/-- A freshly opened file. -/
theorem load_alike (p : Profile) (f : OnDisk K) (h1 : 1 ≤ f.n) (h2 : f.n ≤ 2 ^ 50) :
    (∃ e, f.load p = .error e) ∨ (∃ kind s, f.load p = .ok s ∧ PyData.Alike kind f s s) := by
  have key : ∀ kind, ∃ d, Dm.new p kind f.file f.n Timestep.default = .ok d ∧ d.Steady Timestep.default kind f.file f.n := by
    intro kind
    obtain ⟨d, e, hinv, e1, e2, e3, e4, e5, e6, e7⟩ := Dm.new_ok p kind f.file f.n Timestep.default h1 h2
    refine ⟨d, e, ?_⟩
    have hl := Buf.load_first (kind := kind) (file := f.file) (n := f.n) (dflt := Timestep.default) p ⟨fun _ => Timestep.default, 0, 0, BUFFERSIZE⟩ (fun _ _ => rfl)
    unfold Dm.new at e
    rw [hl, run_bind_ok] at e
    cases e
    refine ⟨rfl, rfl, rfl, h2, hinv.1, ?_, fun _ => rfl, Or.inl ⟨rfl, rfl⟩⟩
    intro i hi
    change (if i < min BUFFERSIZE f.n then _ else _) = _
    rw [if_neg (by omega)]
  unfold OnDisk.load
  split_ifs
  · obtain ⟨d, e, hd⟩ := key .tdata
    rw [e, run_bind_ok]
    exact Or.inr ⟨.tdata, _, rfl, hd, hd, ⟨rfl, rfl⟩, ⟨rfl, rfl⟩, rfl⟩
  · obtain ⟨d, e, hd⟩ := key .pdata
    rw [e, run_bind_ok]
    exact Or.inr ⟨.pdata, _, rfl, hd, hd, ⟨rfl, rfl⟩, ⟨rfl, rfl⟩, rfl⟩
  · exact Or.inl ⟨_, rfl⟩

theorem answer_snoc (p : Profile) (f : OnDisk K) (cs : List (Call K)) (c : Call K) :
    f.answer p (cs ++ [c]) = (f.session p cs >>= fun r => r.1.call p c >>= fun r' => pure (some r'.2)) := by
  unfold OnDisk.answer OnDisk.session
  cases f.load p with
  | error _ => rfl
  | ok s =>
    rw [run_bind_ok, run_bind_ok, calls_snoc]
    cases s.calls p cs with
    | error _ => rfl
    | ok r =>
      rw [run_bind_ok, run_bind_ok]
      cases r.1.call p c with
      | error _ => rfl
      | ok r' =>
        rw [run_bind_ok, run_bind_ok]
        change (pure (r.2 ++ [r'.2]).getLast? : Run _) = pure _
        rw [List.getLast?_append]; rfl

/-- **C88.** Open a file of up4 with at least one timestep and make calls on the `Data` object, with any arguments (item indices within range; for
`occupancyfield` and `homogenity_index` at least three timesteps). If all of them returned, the answer to one more call, value or panic, is the answer
to that call on a freshly opened object on which only the last `set_time` has been repeated. So which analyses ran before, in what order, how far the
buffers had moved, and whether an earlier analysis had set up a look-ahead buffer, makes no difference: only the last `set_time` does. -/
theorem C88_history [LawfulArith K] (p : Profile) (f : OnDisk K) (h1 : 1 ≤ f.n) (h2 : f.n ≤ 2 ^ 50) (cs : List (Call K)) (c : Call K)
    (hcs : ∀ c ∈ cs, c.Fits f.n) (hc : c.Fits f.n) (hr : ∃ r, f.session p cs = .ok r) :
    f.answer p (cs ++ [c]) = f.answer p (settings cs ++ [c]) := by
  obtain ⟨⟨t, as⟩, hr⟩ := hr
  rw [answer_snoc, answer_snoc, hr, run_bind_ok]
  unfold OnDisk.session at hr ⊢
  rcases load_alike p f h1 h2 with ⟨e, he⟩ | ⟨kind, s, he, hs⟩
  · rw [he] at hr; cases hr
  · rw [he, run_bind_ok] at hr ⊢
    obtain ⟨⟨t', as', g1, g2⟩, _⟩ := calls_settings p kind f h1 hs cs hcs hr
    rw [g1, run_bind_ok]
    rcases call_alike p kind f h1 g2 c hc with ⟨e, x, x'⟩ | ⟨_, _, a, x, x', _, _⟩
    · dsimp only; rw [x, x']
    · dsimp only; rw [x, x']; rfl

/-- Corollary: a call that is not `set_time` can be left out of the history. -/
theorem C88_forget [LawfulArith K] (p : Profile) (f : OnDisk K) (h1 : 1 ≤ f.n) (h2 : f.n ≤ 2 ^ 50) (cs : List (Call K)) (b c : Call K)
    (hb : b.setsTime = false) (hcs : ∀ c ∈ cs, c.Fits f.n) (hbf : b.Fits f.n) (hc : c.Fits f.n) (hr : ∃ r, f.session p (cs ++ [b]) = .ok r) :
    f.answer p (cs ++ [b] ++ [c]) = f.answer p (cs ++ [c]) := by
  have hr' : ∃ r, f.session p cs = .ok r := by
    obtain ⟨r, hr⟩ := hr
    unfold OnDisk.session at hr ⊢
    cases e : f.load p with
    | error _ => rw [e] at hr; cases hr
    | ok s =>
      rw [e, run_bind_ok, calls_snoc] at hr
      rw [run_bind_ok]
      cases e' : s.calls p cs with
      | error _ => rw [e'] at hr; cases hr
      | ok r => exact ⟨r, rfl⟩
  rw [C88_history p f h1 h2 (cs ++ [b]) c (by simpa [or_imp, forall_and] using ⟨hcs, hbf⟩) hc hr, C88_history p f h1 h2 cs c hcs hc hr',
    settings_snoc, hb, if_neg (by simp)]

/-- A file of four timesteps, and three calls on it that return: a number field, a time window, and the last timestep. -/
example (p : Profile) (c : Call ℝ) (hc : c.Fits 4) :
    let f : OnDisk ℝ := ⟨1, demoFile, 4, ⟨fun _ => (fin 0, fin 2), 1, [], ![fin 5, fin 5, fin 5]⟩, fin 3⟩
    let cs : List (Call ℝ) := [.numberfield (Grid.newCart (fun _ => 3) (finLimits (fun _ => (0 : ℝ)) (fun _ => 1))), .setTime (fin 1) (fin 2), .item (-1)]
    f.answer p (cs ++ [c]) = f.answer p [.setTime (fin 1) (fin 2), c] := by
  intro f cs
  have hs : settings cs = [.setTime (fin 1) (fin 2)] := by simp [settings, cs, Call.setsTime]
  have hf : ∀ c ∈ cs, c.Fits f.n := by
    intro c hc
    simp only [cs, List.mem_cons, List.not_mem_nil, or_false] at hc
    rcases hc with rfl | rfl | rfl
    · trivial
    · trivial
    · exact ⟨by change -(4 : ℤ) ≤ -1; norm_num, by change (-1 : ℤ) < 4; norm_num⟩
  refine (C88_history p f (by change 1 ≤ 4; norm_num) (by change 4 ≤ 2 ^ 50; norm_num) cs c hf hc ?_).trans (by rw [hs]; rfl)
  obtain ⟨d, e, hinv, hfile, hn, hw, hsam⟩ := demo_manager p .tdata 4 (by norm_num) (by norm_num)
  obtain ⟨d', g', e1, hinv', hf', hn', _⟩ := C34_numberfield p d hinv (Grid.newCart (fun _ => 3) (finLimits (fun _ => (0 : ℝ)) (fun _ => 1)))
    (fillable_cart _ _ (isCart_new _ _ (fun _ => by norm_num))) Selector.default usable_default hw (by rw [hsam]; simp)
  obtain ⟨b, e2, _⟩ := Dm.get_ok (K := ℝ) p d' hinv' 3 (by rw [hn', hn]; norm_num)
  have hl : f.load p = .ok ⟨d, f.st, f.maxTime, Selector.default⟩ := by
    unfold OnDisk.load
    rw [if_pos (show f.ty = 1 from rfl)]
    change (Dm.new p .tdata demoFile 4 Timestep.default >>= _) = _
    rw [e]; rfl
  obtain ⟨rows, e3, _⟩ := pyRows_ok (demoFile 3) (le_refl 1) (le_refl 1)
  have c1 : PyData.call p ⟨d, f.st, f.maxTime, Selector.default⟩ (.numberfield (Grid.newCart (fun _ => 3) (finLimits (fun _ => (0 : ℝ)) (fun _ => 1)))) =
      .ok (⟨d', f.st, f.maxTime, Selector.default⟩, .grid g') := by
    change (numberfield p d _ Selector.default >>= _) = _
    rw [e1]; rfl
  have c2 : PyData.call p ⟨d', f.st, f.maxTime, Selector.default⟩ (.setTime (fin 1) (fin 2)) =
      .ok (⟨d', f.st, f.maxTime, Selector.default.setTime (fin 1) (fin 2)⟩, .none) := by
    change (PyData.setTime _ _ _ >>= _) = _
    unfold PyData.setTime
    rw [if_neg]
    · rfl
    · change ¬ (fin (3 : ℝ) < fin 1)
      rw [F.lt_fin]; norm_num
  have c3 : PyData.call p ⟨d', f.st, f.maxTime, Selector.default.setTime (fin 1) (fin 2)⟩ (.item (-1)) =
      .ok (⟨{ d' with main := b }, f.st, f.maxTime, Selector.default.setTime (fin 1) (fin 2)⟩, .matrix rows) := by
    change (PyData.item p d' (-1) >>= _) = _
    have hn4 : d'.n = 4 := hn'.trans hn
    unfold PyData.item
    rw [show pyIndex d'.n (-1) = pyIndex 4 (-1) by rw [hn4], (asUsize_index 4 (by norm_num) (-1) (by norm_num) (by norm_num)).1]
    have : fromEnd 4 (-1) = 3 := by decide
    have e3' : pyRows (d'.file 3) = .ok rows := by rw [hf', hfile]; exact e3
    rw [this, e2, run_bind_ok, e3', run_bind_ok]; rfl
  refine ⟨(⟨{ d' with main := b }, f.st, f.maxTime, Selector.default.setTime (fin 1) (fin 2)⟩, [.grid g', .none, .matrix rows]), ?_⟩
  · unfold OnDisk.session
    rw [hl, run_bind_ok]
    unfold PyData.calls
    rw [c1, run_bind_ok]
    unfold PyData.calls
    rw [c2, run_bind_ok]
    unfold PyData.calls
    rw [c3, run_bind_ok]
    rfl

end Up4
