import Verif.Props.Info

/-!
C155: `stats()` prints the statistics of the file, and nothing of them is lost: who reads the text knows the limits, the last time, the number of particles and the speeds. (The
description of C137, in contrast, gives two digits behind the point.)
-/

set_option linter.unusedSectionVars false

namespace Up4

open F

variable {K : Type} [Field K] [LinearOrder K] [IsStrictOrderedRing K] [FloorRing K] [Arith K]

/-- Numbers in the set `V` are printed without blanks, commas, brackets and line ends, and different numbers are printed differently. For the standard library `V` is the set of
all doubles: the shortest decimal that is read back as the same number. -/
structure Formats.Faithful (fmt : Formats K) (V : Set (F K)) : Prop where
  debug_inj : Set.InjOn fmt.debug V
  display_inj : Set.InjOn fmt.display V
  debug_plain : ∀ x ∈ V, ∀ c ∈ fmt.debug x, c ∉ [' ', ',', '[', ']', '\n']
  display_plain : ∀ x ∈ V, ∀ c ∈ fmt.display x, c ∉ [' ', ',', '[', ']', '\n']
  shape_plain : '\n' ∉ fmt.shape

/-- All numbers of the statistics are in `V`. -/
structure Stats.Within (st : Stats K) (V : Set (F K)) : Prop where
  lo : ∀ a, (st.dims a).1 ∈ V
  hi : ∀ a, (st.dims a).2 ∈ V
  speed : ∀ i, st.speed i ∈ V

/-- Two texts with the same continuation from a character on that neither beginning has. -/
theorem same_until (c : Char) : ∀ (a a' b b' : List Char), c ∉ a → c ∉ a' → a ++ c :: b = a' ++ c :: b' → a = a' ∧ b = b'
  | [], [], b, b', _, _, e => by simpa using e
  | [], x :: a', b, b', _, h', e => by
    simp only [List.nil_append, List.cons_append, List.cons.injEq] at e
    exact absurd (e.1 ▸ List.mem_cons_self) h'
  | x :: a, [], b, b', h, _, e => by
    simp only [List.nil_append, List.cons_append, List.cons.injEq] at e
    exact absurd (e.1 ▸ List.mem_cons_self) h
  | x :: a, y :: a', b, b', h, h', e => by
    simp only [List.cons_append, List.cons.injEq] at e
    obtain ⟨k1, k2⟩ := same_until c a a' b b' (fun k => h (List.mem_cons_of_mem _ k)) (fun k => h' (List.mem_cons_of_mem _ k)) e.2
    exact ⟨by rw [e.1, k1], k2⟩

theorem Formats.Faithful.debug_cut {fmt : Formats K} {V : Set (F K)} (h : fmt.Faithful V) {x y : F K} (hx : x ∈ V) (hy : y ∈ V) {c : Char}
    (hc : c ∈ [' ', ',', '[', ']', '\n']) {b b' : List Char} (e : fmt.debug x ++ c :: b = fmt.debug y ++ c :: b') : x = y ∧ b = b' := by
  obtain ⟨k1, k2⟩ := same_until c _ _ b b' (fun k => h.debug_plain x hx c k hc) (fun k => h.debug_plain y hy c k hc) e
  exact ⟨h.debug_inj hx hy k1, k2⟩

theorem Formats.Faithful.display_cut {fmt : Formats K} {V : Set (F K)} (h : fmt.Faithful V) {x y : F K} (hx : x ∈ V) (hy : y ∈ V) {c : Char}
    (hc : c ∈ [' ', ',', '[', ']', '\n']) {b b' : List Char} (e : fmt.display x ++ c :: b = fmt.display y ++ c :: b') : x = y ∧ b = b' := by
  obtain ⟨k1, k2⟩ := same_until c _ _ b b' (fun k => h.display_plain x hx c k hc) (fun k => h.display_plain y hy c k hc) e
  exact ⟨h.display_inj hx hy k1, k2⟩

theorem showNat_inj {m n : ℕ} (h : showNat m = showNat n) : m = n := by
  have : readDigits (showNat m) = readDigits (showNat n) := by rw [h]
  unfold showNat at this
  rw [ofDigits_read, ofDigits_read, Nat.ofDigitChars_ten_toDigits, Nat.ofDigitChars_ten_toDigits] at this
  exact this

theorem row_cut {fmt : Formats K} {V : Set (F K)} (h : fmt.Faithful V) {v w : Fin 3 → F K} (hv : ∀ a, v a ∈ V) (hw : ∀ a, w a ∈ V) {b b' : List Char}
    (e : showRow fmt v ++ b = showRow fmt w ++ b') : v = w ∧ b = b' := by
  unfold showRow at e
  simp only [List.cons_append, List.append_assoc, List.cons.injEq, true_and, List.nil_append,
    show ", ".toList = [',', ' '] from by decide] at e
  obtain ⟨k0, e⟩ := h.debug_cut (hv 0) (hw 0) (by simp) e
  simp only [List.cons.injEq, true_and] at e
  obtain ⟨k1, e⟩ := h.debug_cut (hv 1) (hw 1) (by simp) e
  simp only [List.cons.injEq, true_and] at e
  obtain ⟨k2, e⟩ := h.debug_cut (hv 2) (hw 2) (by simp) e
  exact ⟨by funext a; fin_cases a <;> assumption, e⟩

/-- **C155, nothing is lost.** Two files for which `stats()` prints the same text have the same limits, last time, number of particles and speeds. -/
theorem C155_faithful (fmt : Formats K) (V : Set (F K)) (h : fmt.Faithful V) (st st' : Stats K) (m m' : F K) (hs : st.Within V) (hs' : st'.Within V)
    (hm : m ∈ V) (hm' : m' ∈ V) (e : statsText fmt st m = statsText fmt st' m') :
    st.dims = st'.dims ∧ m = m' ∧ st.nparticles = st'.nparticles ∧ st.speed = st'.speed := by
  unfold statsText at e
  simp only [List.append_assoc, List.cons_append] at e
  have e := List.append_cancel_left e
  obtain ⟨k1, e⟩ := row_cut h hs.lo hs'.lo e
  have e := List.append_cancel_left e
  obtain ⟨k2, e⟩ := row_cut h hs.hi hs'.hi e
  simp only [List.cons.injEq, true_and] at e
  have e := List.append_cancel_left (List.append_cancel_left e)
  have ln : ∀ s : List Char, "\nNumber of Particles: ".toList ++ s = '\n' :: ("Number of Particles: ".toList ++ s) := fun _ => rfl
  have lm : ∀ s : List Char, "\nMean velocity of: ".toList ++ s = '\n' :: ("Mean velocity of: ".toList ++ s) := fun _ => rfl
  have l1 : ∀ s : List Char, " m/s\nMinimum velocity ".toList ++ s = ' ' :: ("m/s\nMinimum velocity ".toList ++ s) := fun _ => rfl
  have l2 : ∀ s : List Char, " m/s \nMaximum Velocity ".toList ++ s = ' ' :: ("m/s \nMaximum Velocity ".toList ++ s) := fun _ => rfl
  have l3 : " m/s\n".toList = ' ' :: "m/s\n".toList := rfl
  rw [ln, ln] at e
  obtain ⟨k3, e⟩ := h.debug_cut hm hm' (by simp) e
  have e := List.append_cancel_left e
  rw [lm, lm] at e
  obtain ⟨k4, e⟩ := same_until '\n' _ _ _ _ (showsNat_line _ _ (showNat_shows _)) (showsNat_line _ _ (showNat_shows _)) e
  have e := List.append_cancel_left e
  rw [l1, l1] at e
  obtain ⟨k5, e⟩ := h.display_cut (hs.speed 1) (hs'.speed 1) (by simp) e
  have e := List.append_cancel_left e
  rw [l2, l2] at e
  obtain ⟨k6, e⟩ := h.display_cut (hs.speed 0) (hs'.speed 0) (by simp) e
  have e := List.append_cancel_left e
  rw [l3] at e
  obtain ⟨k7, -⟩ := h.display_cut (hs.speed 2) (hs'.speed 2) (by simp) e
  refine ⟨?_, k3, showNat_inj k4, ?_⟩
  · funext a
    exact Prod.ext (congrFun k1 a) (congrFun k2 a)
  · funext i; fin_cases i <;> assumption

/-- **C155, the text.** Seven lines: the limits of the system as two rows of the three axes, the last time, the number of particles, and the mean, the lowest and the highest speed,
each under its name. -/
theorem C155_text (fmt : Formats K) (V : Set (F K)) (h : fmt.Faithful V) (st : Stats K) (m : F K) (hs : st.Within V) (hm : m ∈ V) :
    ∃ n, PrintsNat n st.nparticles ∧ textLines (statsText fmt st m) =
      ["Dimensions of the system:: [[".toList ++ fmt.debug (st.dims 0).1 ++ ", ".toList ++ fmt.debug (st.dims 1).1 ++ ", ".toList ++ fmt.debug (st.dims 2).1 ++ "],".toList,
       " [".toList ++ fmt.debug (st.dims 0).2 ++ ", ".toList ++ fmt.debug (st.dims 1).2 ++ ", ".toList ++ fmt.debug (st.dims 2).2 ++ "]]".toList ++ fmt.shape,
       "The max time of this set is : ".toList ++ fmt.debug m,
       "Number of Particles: ".toList ++ n,
       "Mean velocity of: ".toList ++ fmt.display (st.speed 1) ++ " m/s".toList,
       "Minimum velocity ".toList ++ fmt.display (st.speed 0) ++ " m/s ".toList,
       "Maximum Velocity ".toList ++ fmt.display (st.speed 2) ++ " m/s".toList, []] := by
  have d : ∀ x ∈ V, '\n' ∉ fmt.debug x := fun x hx k => h.debug_plain x hx _ k (by simp)
  have s : ∀ x ∈ V, '\n' ∉ fmt.display x := fun x hx k => h.display_plain x hx _ k (by simp)
  refine ⟨showNat st.nparticles, showNat_shows _, ?_⟩
  have hn := showsNat_line _ _ (showNat_shows st.nparticles)
  have e : statsText fmt st m =
      ("Dimensions of the system:: [[".toList ++ fmt.debug (st.dims 0).1 ++ ", ".toList ++ fmt.debug (st.dims 1).1 ++ ", ".toList ++ fmt.debug (st.dims 2).1 ++ "],".toList) ++ '\n' ::
      ((" [".toList ++ fmt.debug (st.dims 0).2 ++ ", ".toList ++ fmt.debug (st.dims 1).2 ++ ", ".toList ++ fmt.debug (st.dims 2).2 ++ "]]".toList ++ fmt.shape) ++ '\n' ::
      (("The max time of this set is : ".toList ++ fmt.debug m) ++ '\n' ::
      (("Number of Particles: ".toList ++ showNat st.nparticles) ++ '\n' ::
      (("Mean velocity of: ".toList ++ fmt.display (st.speed 1) ++ " m/s".toList) ++ '\n' ::
      (("Minimum velocity ".toList ++ fmt.display (st.speed 0) ++ " m/s ".toList) ++ '\n' ::
      (("Maximum Velocity ".toList ++ fmt.display (st.speed 2) ++ " m/s".toList) ++ '\n' :: [])))))) := by
    unfold statsText showRow
    simp only [show "Dimensions of the system:: [".toList = ['D','i','m','e','n','s','i','o','n','s',' ','o','f',' ','t','h','e',' ','s','y','s','t','e','m',':',':',' ','['] from by decide,
      show "Dimensions of the system:: [[".toList = ['D','i','m','e','n','s','i','o','n','s',' ','o','f',' ','t','h','e',' ','s','y','s','t','e','m',':',':',' ','[','['] from by decide,
      show ",\n ".toList = [',','\n',' '] from by decide, show "],".toList = [']',','] from by decide, show " [".toList = [' ','['] from by decide,
      show "]]".toList = [']',']'] from by decide,
      show "\nThe max time of this set is : ".toList = '\n' :: "The max time of this set is : ".toList from rfl,
      show "\nNumber of Particles: ".toList = '\n' :: "Number of Particles: ".toList from rfl,
      show "\nMean velocity of: ".toList = '\n' :: "Mean velocity of: ".toList from rfl,
      show " m/s\nMinimum velocity ".toList = " m/s".toList ++ '\n' :: "Minimum velocity ".toList from rfl,
      show " m/s \nMaximum Velocity ".toList = " m/s ".toList ++ '\n' :: "Maximum Velocity ".toList from rfl,
      show " m/s\n".toList = " m/s".toList ++ ['\n'] from rfl,
      List.append_assoc, List.cons_append, List.nil_append]
  rw [e]
  have lo := fun a => d _ (hs.lo a)
  have hi := fun a => d _ (hs.hi a)
  rw [lines_cons _ _ (by simp only [List.mem_append, not_or]; exact ⟨⟨⟨⟨⟨⟨by decide, lo 0⟩, by decide⟩, lo 1⟩, by decide⟩, lo 2⟩, by decide⟩),
    lines_cons _ _ (by simp only [List.mem_append, not_or]; exact ⟨⟨⟨⟨⟨⟨⟨by decide, hi 0⟩, by decide⟩, hi 1⟩, by decide⟩, hi 2⟩, by decide⟩, h.shape_plain⟩),
    lines_cons _ _ (by simp only [List.mem_append, not_or]; exact ⟨by decide, d m hm⟩),
    lines_cons _ _ (by simp only [List.mem_append, not_or]; exact ⟨by decide, hn⟩),
    lines_cons _ _ (by simp only [List.mem_append, not_or]; exact ⟨⟨by decide, s _ (hs.speed 1)⟩, by decide⟩),
    lines_cons _ _ (by simp only [List.mem_append, not_or]; exact ⟨⟨by decide, s _ (hs.speed 0)⟩, by decide⟩),
    lines_cons _ _ (by simp only [List.mem_append, not_or]; exact ⟨⟨by decide, s _ (hs.speed 2)⟩, by decide⟩)]
  rfl

/-- **C155, in a session.** After any calls, `stats()` prints what it prints for the file that was opened. -/
theorem C155_session [LawfulArith K] (fmt : Formats K) (p : Profile) (f : OnDisk K) (h1 : 1 ≤ f.n) (h2 : f.n ≤ 2 ^ 50) (cs : List (Call K)) (hc : ∀ c ∈ cs, c.Fits f.n)
    (s : PyData K) (as : List (Answer K)) (e : f.session p cs = .ok (s, as)) : s.stats fmt = statsText fmt f.st f.maxTime := by
  unfold OnDisk.session at e
  obtain ⟨s0, e0, e1⟩ := run_bind_inv e
  rcases load_alike p f h1 h2 with ⟨x, hx⟩ | ⟨kind, s', hs', ha⟩
  · rw [hx] at e0; cases e0
  · rw [hs'] at e0
    cases e0
    obtain ⟨⟨t', as', -, ht⟩, -⟩ := calls_settings p kind f h1 ha cs hc e1
    unfold PyData.stats
    rw [ht.st.1, ht.maxTime.1]

/-! ### Cases -/

/-- The whole number of a number. -/
noncomputable def wholeOf : F ℝ → ℕ
  | .fin x => ⌊x⌋₊
  | _ => 0

/-- Whole numbers as Rust prints them: `7` and `7.0`. -/
noncomputable def wholeFormats : Formats ℝ :=
  ⟨fun x => showNat (wholeOf x), fun x => showNat (wholeOf x) ++ ".0".toList, ", shape=[2, 3], strides=[3, 1], layout=Cc (0x5), const ndim=2".toList⟩

/-- The whole numbers. -/
def wholes : Set (F ℝ) := {x | ∃ n : ℕ, x = fin (n : ℝ)}

theorem wholeOf_nat (n : ℕ) : wholeOf (fin (n : ℝ)) = n := by simp [wholeOf]

theorem showNat_plain (n : ℕ) : ∀ c ∈ showNat n, c ∉ [' ', ',', '[', ']', '\n'] := by
  intro c hc
  have h : c.isDigit = true := Nat.isDigit_of_mem_toDigits (b := 10) (by decide) (by decide) hc
  intro k
  simp only [List.mem_cons, List.not_mem_nil, or_false] at k
  rcases k with rfl | rfl | rfl | rfl | rfl <;> exact absurd h (by decide)

theorem wholeFormats_faithful : wholeFormats.Faithful wholes := by
  refine ⟨?_, ?_, ?_, ?_, by decide⟩
  · rintro _ ⟨m, rfl⟩ _ ⟨n, rfl⟩ e
    change showNat _ ++ _ = showNat _ ++ _ at e
    have e := List.append_cancel_right e
    rw [wholeOf_nat, wholeOf_nat] at e
    rw [showNat_inj e]
  · rintro _ ⟨m, rfl⟩ _ ⟨n, rfl⟩ e
    change showNat _ = showNat _ at e
    rw [wholeOf_nat, wholeOf_nat] at e
    rw [showNat_inj e]
  · rintro _ ⟨n, rfl⟩ c hc
    rcases List.mem_append.1 hc with hc | hc
    · exact showNat_plain _ c hc
    · simp only [show ".0".toList = ['.', '0'] from by decide, List.mem_cons, List.not_mem_nil, or_false] at hc
      rcases hc with rfl | rfl <;> decide
  · rintro _ ⟨n, rfl⟩ c hc
    exact showNat_plain _ c hc

/-- A file with the limits 0 and 20, 12 particles, and the speeds 1, 2 and 3. -/
noncomputable def wholeStats : Stats ℝ := ⟨fun _ => (fin ((0 : ℕ) : ℝ), fin ((20 : ℕ) : ℝ)), 12, [], fun i => fin ((i.val + 1 : ℕ) : ℝ)⟩

theorem wholeStats_within : wholeStats.Within wholes := ⟨fun _ => ⟨0, rfl⟩, fun _ => ⟨20, rfl⟩, fun _ => ⟨_, rfl⟩⟩

set_option maxRecDepth 20000 in
/-- Case for `C155_text` and `C155_faithful`: the formats and the statistics of whole numbers; the text, and a file with 13 particles that prints another one. -/
example : wholeFormats.Faithful wholes ∧ wholeStats.Within wholes ∧ statsText wholeFormats wholeStats (fin ((7 : ℕ) : ℝ)) =
    "Dimensions of the system:: [[0.0, 0.0, 0.0],\n [20.0, 20.0, 20.0]], shape=[2, 3], strides=[3, 1], layout=Cc (0x5), const ndim=2\nThe max time of this set is : 7.0\nNumber of Particles: 12\nMean velocity of: 2 m/s\nMinimum velocity 1 m/s \nMaximum Velocity 3 m/s\n".toList ∧
    statsText wholeFormats { wholeStats with nparticles := 13 } (fin ((7 : ℕ) : ℝ)) ≠ statsText wholeFormats wholeStats (fin ((7 : ℕ) : ℝ)) := by
  refine ⟨wholeFormats_faithful, wholeStats_within, ?_, fun e => ?_⟩
  · unfold statsText showRow
    simp only [wholeFormats, wholeStats, wholeOf_nat]
    decide +kernel
  · have := (C155_faithful wholeFormats wholes wholeFormats_faithful { wholeStats with nparticles := 13 } _ _ _ ⟨wholeStats_within.lo, wholeStats_within.hi, wholeStats_within.speed⟩ wholeStats_within
      ⟨7, rfl⟩ ⟨7, rfl⟩ e).2.2.1
    change 13 = 12 at this
    omega

/-- Case for `C155_session`: a file of four timesteps after a field, a narrower window and an item. -/
example (fmt : Formats ℝ) (p : Profile) : ∃ s as, (soundFile 4).session p [.numberfield soundGrid, .setTime (fin 1) (fin 2), .item (-1)] = .ok (s, as) ∧
    s.stats fmt = statsText fmt (soundFile 4).st (fin 3) := by
  have hcs : ∀ c ∈ ([.numberfield soundGrid, .setTime (fin 1) (fin 2), .item (-1)] : List (Call ℝ)), c.Fits 4 := by
    intro c hc
    simp only [List.mem_cons, List.not_mem_nil, or_false] at hc
    rcases hc with rfl | rfl | rfl
    · trivial
    · trivial
    · change _ ∧ _
      norm_num
  obtain ⟨s, as, e, -⟩ := C136_answers_partial p (soundFile 4) (soundFile_sound 4 (by norm_num) le_rfl) [.numberfield soundGrid, .setTime (fin 1) (fin 2), .item (-1)] (by
    have hg := soundGrid_fit p
    have w1 : ¬ (fin (3 : ℝ) < fin 1) := by rw [F.lt_fin]; norm_num
    intro c hc
    simp only [List.mem_cons, List.not_mem_nil, or_false] at hc
    rcases hc with rfl | rfl | rfl
    · exact hg
    · exact w1
    · change _ ∧ _
      constructor <;> norm_num [soundFile])
  exact ⟨s, as, e, C155_session fmt p (soundFile 4) (by change 1 ≤ 4; norm_num) (by change 4 ≤ 2 ^ 50; norm_num) _ hcs s as e⟩

end Up4
