import Verif.Model.Info
import Verif.Props.CsvNumber
import Verif.Props.EndToEnd
import Verif.Props.Answers
import Verif.Cases.Sessions

set_option linter.unusedSectionVars false

namespace Up4
open F Decimal

variable {K : Type} [Field K] [LinearOrder K] [IsStrictOrderedRing K] [FloorRing K] [Arith K]

/-- A text that shows a whole number: its digits. -/
def PrintsNat (s : List Char) (n : ℕ) : Prop := ∃ l : List (Fin 10), l ≠ [] ∧ s = l.map digitChar ∧ whole l = n

/-- A text that shows a number: `NaN`, `inf`, `-inf`, or a decimal number with two digits behind the point and no exponent that is at most half a hundredth away,
with a minus sign exactly for negative numbers. -/
def Prints (s : List Char) : F K → Prop
  | .nan => s = "NaN".toList
  | .pinf => s = "inf".toList
  | .ninf => s = "-inf".toList
  | .fin x => ∃ d : Decimal, d.Ok ∧ s = d.text ∧ (∃ a b, d.frac = some [a, b]) ∧ d.exp = none ∧ |d.value - x| ≤ 1 / 200 ∧ (d.sign.text = if x < 0 then ['-'] else [])

theorem ofDigits_read (s : List Char) : readDigits s = Nat.ofDigitChars 10 s 0 := rfl

theorem showNat_shows (n : ℕ) : PrintsNat (showNat n) n := by
  obtain ⟨l, hl⟩ := digits_of (showNat n) (fun c hc => Nat.isDigit_of_mem_toDigits (by decide) (by decide) hc)
  refine ⟨l, ?_, hl.symm, ?_⟩
  · rintro rfl
    have : showNat n = [] := hl.symm
    exact Nat.toDigits_ne_nil this
  · rw [← readDigits_map, hl, ofDigits_read]
    exact Nat.ofDigitChars_ten_toDigits

theorem digit_char (n : ℕ) (h : n < 10) : Nat.digitChar n = digitChar ⟨n, h⟩ := by
  interval_cases n <;> rfl

/-- Half a hundredth at most. -/
theorem hundredths_near (x : K) (h : 0 ≤ x) : |(hundredths x : K) / 100 - x| ≤ 1 / 200 := by
  have h0 : (0 : K) ≤ 100 * x := by positivity
  have h1 := Nat.floor_le h0
  have h2 := Nat.lt_floor_add_one (100 * x)
  unfold hundredths
  dsimp only
  generalize ⌊100 * x⌋₊ = n at *
  rw [abs_le]
  split
  · constructor <;> linarith
  · split
    · push_cast
      constructor <;> linarith
    · split
      · constructor <;> linarith
      · push_cast
        constructor <;> linarith

theorem showHundredths_text (n : ℕ) : ∃ d : Decimal, d.Ok ∧ showHundredths n = d.text ∧ (∃ a b, d.frac = some [a, b]) ∧ d.exp = none ∧ d.sign = .none ∧
    d.value (K := K) = (n : K) / 100 := by
  obtain ⟨l, hl, hs, hw⟩ := showNat_shows (n / 100)
  have ha : n % 100 / 10 < 10 := by omega
  have hb : n % 10 < 10 := by omega
  refine ⟨⟨.none, l, some [⟨n % 100 / 10, ha⟩, ⟨n % 10, hb⟩], none⟩, ⟨Or.inl hl, fun e h => by cases h⟩, ?_, ⟨_, _, rfl⟩, rfl, rfl, ?_⟩
  · unfold showHundredths
    rw [hs, digit_char _ ha, digit_char _ hb]
    simp [Decimal.text, ShownSign.text]
  · have e : n = 100 * (n / 100) + 10 * (n % 100 / 10) + n % 10 := by omega
    have ec : (n : K) = 100 * (n / 100 : ℕ) + 10 * (n % 100 / 10 : ℕ) + (n % 10 : ℕ) := by exact_mod_cast congrArg (Nat.cast (R := K)) e
    simp only [Decimal.value, ShownSign.apply, Option.getD, fraction, zpow_zero, mul_one, hw]
    rw [ec]
    ring

theorem showF64_shows (x : F K) : Prints (showF64 x) x := by
  cases x with
  | nan => rfl
  | pinf => rfl
  | ninf => rfl
  | fin x =>
    change Prints (if x < 0 then '-' :: showHundredths (hundredths (-x)) else showHundredths (hundredths x)) (fin x)
    by_cases hx : x < 0
    · rw [if_pos hx]
      obtain ⟨d, hd, ht, hf, he, hs, hv⟩ := showHundredths_text (K := K) (hundredths (-x))
      obtain ⟨sg, i, f, e⟩ := d
      dsimp only at hf he hs
      subst hs he
      refine ⟨⟨.minus, i, f, none⟩, hd, ?_, hf, rfl, ?_, ?_⟩
      · rw [ht]; rfl
      · have hv' : Decimal.value (K := K) ⟨.minus, i, f, none⟩ = -Decimal.value (K := K) ⟨.none, i, f, none⟩ := rfl
        rw [hv', hv]
        have := hundredths_near (-x) (by linarith)
        rw [show -((hundredths (-x) : K) / 100) - x = -((hundredths (-x) : K) / 100 - -x) by ring, abs_neg]
        exact this
      · rw [if_pos hx]; rfl
    · rw [if_neg hx]
      obtain ⟨d, hd, ht, hf, he, hs, hv⟩ := showHundredths_text (K := K) (hundredths x)
      refine ⟨d, hd, ht, hf, he, ?_, ?_⟩
      · rw [hv]; exact hundredths_near x (not_lt.mp hx)
      · rw [hs, if_neg hx]; rfl

theorem shows_line (s : List Char) (x : F K) (h : Prints s x) : '\n' ∉ s := by
  cases x with
  | nan => cases h; decide
  | pinf => cases h; decide
  | ninf => cases h; decide
  | fin x =>
    obtain ⟨d, _, rfl, _⟩ := h
    intro hc
    rcases text_chars d _ hc with h | h
    · exact absurd h (by decide)
    · exact absurd h (by decide)

theorem showsNat_line (s : List Char) (n : ℕ) (h : PrintsNat s n) : '\n' ∉ s := by
  obtain ⟨l, _, rfl, _⟩ := h
  intro hc
  exact absurd (digits_all l _ hc) (by decide)

/-- The lines of a text. -/
def textLines (s : List Char) : List (List Char) := s.splitOn '\n'

theorem lines_cons (a b : List Char) (h : '\n' ∉ a) : textLines (a ++ '\n' :: b) = a :: textLines b := by
  unfold textLines
  unfold List.splitOn
  rw [List.splitOnP_append_cons _ _ (by simp), List.splitOnP_eq_singleton]
  · rfl
  · intro x hx
    simp only [beq_eq_false_iff_ne]
    rintro rfl
    exact h hx

theorem lines2 (a b c : List Char) (ha : '\n' ∉ a) (hb : '\n' ∉ b) : textLines (a ++ (b ++ '\n' :: c)) = (a ++ b) :: textLines c := by
  rw [← lines_cons (a ++ b) c (by simp [ha, hb])]
  simp only [List.append_assoc]

theorem lines3 (a b c d : List Char) (ha : '\n' ∉ a) (hb : '\n' ∉ b) (hc : '\n' ∉ c) :
    textLines (a ++ (b ++ (c ++ '\n' :: d))) = (a ++ b ++ c) :: textLines d := by
  rw [← lines2 (a ++ b) c d (by simp [ha, hb]) hc]
  simp only [List.append_assoc]

theorem lines6 (a b c d e f r : List Char) (ha : '\n' ∉ a) (hb : '\n' ∉ b) (hc : '\n' ∉ c) (hd : '\n' ∉ d) (he : '\n' ∉ e) (hf : '\n' ∉ f) :
    textLines (a ++ (b ++ (c ++ (d ++ (e ++ (f ++ '\n' :: r)))))) = (a ++ b ++ c ++ d ++ e ++ f) :: textLines r := by
  rw [← lines2 (a ++ b ++ c ++ d ++ e) f r (by simp [ha, hb, hc, hd, he]) hf]
  simp only [List.append_assoc]

/-- What the description of a dataset has to say: the kind of the file; for each axis the smallest and the largest coordinate and their difference; the last time;
the numbers of particles and timesteps; the mean, smallest and largest speed. Each of them in a line of its own. -/
def SaysAll (lines : List (List Char)) (kind : Kind) (st : Stats K) (n : ℕ) (maxTime : F K) : Prop :=
  ∃ (lo hi diff : Fin 3 → List Char) (time np nt mean least most : List Char),
    (∀ a, Prints (lo a) (st.dims a).1 ∧ Prints (hi a) (st.dims a).2 ∧ Prints (diff a) ((st.dims a).2 - (st.dims a).1)) ∧
    Prints time maxTime ∧ PrintsNat np st.nparticles ∧ PrintsNat nt n ∧ Prints least (st.speed 0) ∧ Prints mean (st.speed 1) ∧ Prints most (st.speed 2) ∧
    lines = [
      (if kind = .tdata then "Time-Based HDF5 Dataset." else "Particle-Based HDF5 Dataset.").toList,
      "Dimensions of the system:".toList,
      "|   Min --> Max\t||   Diff".toList,
      "|x ".toList ++ lo 0 ++ "-->".toList ++ hi 0 ++ "\t||  ".toList ++ diff 0,
      "|y ".toList ++ lo 1 ++ "-->".toList ++ hi 1 ++ "\t||  ".toList ++ diff 1,
      "|z ".toList ++ lo 2 ++ "-->".toList ++ hi 2 ++ "\t||  ".toList ++ diff 2,
      "The max time of this set is : ".toList ++ time,
      "Number of Particles: ".toList ++ np,
      "Number of Timesteps: ".toList ++ nt,
      "Mean velocity of: ".toList ++ mean ++ " m/s".toList,
      "Minimum velocity ".toList ++ least ++ " m/s ".toList,
      "Maximum Velocity ".toList ++ most ++ " m/s".toList]

theorem info_describes (kind : Kind) (st : Stats K) (n : ℕ) (m : F K) (r : Rotation K) :
    ∃ lines, SaysAll lines kind st n m ∧ textLines (info kind st n m r) = lines ++ textLines
      (if r.isSet then showDegrees "Rotation is set to: " r.angle ++ showDegrees "Rotation is performed around: " r.center else []) := by
  have hl : ∀ x : F K, '\n' ∉ showF64 x := fun x => shows_line _ _ (showF64_shows x)
  have hn : ∀ k : ℕ, '\n' ∉ showNat k := fun k => showsNat_line _ _ (showNat_shows k)
  refine ⟨_, ⟨fun a => showF64 (st.dims a).1, fun a => showF64 (st.dims a).2, fun a => showF64 ((st.dims a).2 - (st.dims a).1), showF64 m, showNat st.nparticles, showNat n,
    showF64 (st.speed 1), showF64 (st.speed 0), showF64 (st.speed 2), fun a => ⟨showF64_shows _, showF64_shows _, showF64_shows _⟩, showF64_shows _, showNat_shows _, showNat_shows _, showF64_shows _, showF64_shows _, showF64_shows _, rfl⟩, ?_⟩
  unfold info
  generalize (if r.isSet then showDegrees "Rotation is set to: " r.angle ++ showDegrees "Rotation is performed around: " r.center else []) = tail
  unfold showAxis
  obtain ⟨w, hw, e1, e2⟩ : ∃ w : List Char, '\n' ∉ w ∧ showKind kind = w ++ ['\n'] ∧
      (if kind = .tdata then "Time-Based HDF5 Dataset." else "Particle-Based HDF5 Dataset.").toList = w := by
    cases kind
    · exact ⟨"Particle-Based HDF5 Dataset.".toList, by decide, by decide, rfl⟩
    · exact ⟨"Time-Based HDF5 Dataset.".toList, by decide, by decide, rfl⟩
  rw [e1, e2]
  clear e1 e2
  have l2 : "Dimensions of the system:\n".toList = "Dimensions of the system:".toList ++ ['\n'] := by decide
  have l3 : "|   Min --> Max\t||   Diff\n".toList = "|   Min --> Max\t||   Diff".toList ++ ['\n'] := by decide
  have l4 : "\nNumber of Particles: ".toList = '\n' :: "Number of Particles: ".toList := by decide
  have l5 : "\nNumber of Timesteps: ".toList = '\n' :: "Number of Timesteps: ".toList := by decide
  have l6 : "\nMean velocity of: ".toList = '\n' :: "Mean velocity of: ".toList := by decide
  have l7 : " m/s\nMinimum velocity ".toList = " m/s".toList ++ '\n' :: "Minimum velocity ".toList := by decide
  have l8 : " m/s \nMaximum Velocity ".toList = " m/s ".toList ++ '\n' :: "Maximum Velocity ".toList := by decide
  have l9 : " m/s\n".toList = " m/s".toList ++ ['\n'] := by decide
  have x1 : ("|" ++ "x" ++ " ").toList = "|x ".toList := by decide
  have x2 : ("|" ++ "y" ++ " ").toList = "|y ".toList := by decide
  have x3 : ("|" ++ "z" ++ " ").toList = "|z ".toList := by decide
  rw [l2, l3, l4, l5, l6, l7, l8, l9, x1, x2, x3]
  clear l2 l3 l4 l5 l6 l7 l8 l9 x1 x2 x3
  simp only [List.append_assoc, List.cons_append, List.nil_append]
  rw [lines_cons _ _ hw, lines_cons _ _ (by decide), lines_cons _ _ (by decide)]
  rw [lines6 _ _ _ _ _ _ _ (by decide) (hl _) (by decide) (hl _) (by decide) (hl _)]
  rw [lines6 _ _ _ _ _ _ _ (by decide) (hl _) (by decide) (hl _) (by decide) (hl _)]
  rw [lines6 _ _ _ _ _ _ _ (by decide) (hl _) (by decide) (hl _) (by decide) (hl _)]
  rw [lines2 _ _ _ (by decide) (hl _), lines2 _ _ _ (by decide) (hn _), lines2 _ _ _ (by decide) (hn _)]
  rw [lines3 _ _ _ _ (by decide) (hl _) (by decide), lines3 _ _ _ _ (by decide) (hl _) (by decide), lines3 _ _ _ _ (by decide) (hl _) (by decide)]
  simp only [List.append_assoc]

/-- What is said about a rotation: three angles and the point around which it turns, all called degrees. -/
def SaysRotation (lines : List (List Char)) (r : Rotation K) : Prop :=
  ∃ angle point : Fin 3 → List Char, (∀ a, Prints (angle a) (r.angle a) ∧ Prints (point a) (r.center a)) ∧ lines = [
    "Rotation is set to: ".toList,
    "\t x: ".toList ++ angle 0 ++ " degree".toList,
    "\t y: ".toList ++ angle 1 ++ " degree".toList,
    "\t z: ".toList ++ angle 2 ++ " degree".toList,
    "Rotation is performed around: ".toList,
    "\t x: ".toList ++ point 0 ++ " degree".toList,
    "\t y: ".toList ++ point 1 ++ " degree".toList,
    "\t z: ".toList ++ point 2 ++ " degree".toList]

theorem degrees_lines (head : String) (hh : '\n' ∉ head.toList) (v : Fin 3 → F K) (rest : List Char) : textLines (showDegrees head v ++ rest) =
    [head.toList, "\t x: ".toList ++ showF64 (v 0) ++ " degree".toList, "\t y: ".toList ++ showF64 (v 1) ++ " degree".toList,
      "\t z: ".toList ++ showF64 (v 2) ++ " degree".toList] ++ textLines rest := by
  have hl : ∀ x : F K, '\n' ∉ showF64 x := fun x => shows_line _ _ (showF64_shows x)
  have l1 : "\n\t x: ".toList = '\n' :: "\t x: ".toList := by decide
  have l2 : " degree\n\t y: ".toList = " degree".toList ++ '\n' :: "\t y: ".toList := by decide
  have l3 : " degree\n\t z: ".toList = " degree".toList ++ '\n' :: "\t z: ".toList := by decide
  have l4 : " degree\n".toList = " degree".toList ++ ['\n'] := by decide
  unfold showDegrees
  rw [l1, l2, l3, l4]
  simp only [List.append_assoc, List.cons_append, List.nil_append]
  rw [lines_cons _ _ hh, lines3 _ _ _ _ (by decide) (hl _) (by decide), lines3 _ _ _ _ (by decide) (hl _) (by decide), lines3 _ _ _ _ (by decide) (hl _) (by decide)]
  simp only [List.append_assoc]

/-- **C137.** The description of a file with any statistics and any rotation: first the statistics, each number to two digits behind the point, then the rotation if
there is one. -/
theorem C137_text (kind : Kind) (st : Stats K) (n : ℕ) (m : F K) (r : Rotation K) :
    ∃ lines more, SaysAll lines kind st n m ∧ (if r.isSet then SaysRotation more r else more = []) ∧
      textLines (info kind st n m r) = lines ++ more ++ [[]] := by
  obtain ⟨lines, h, e⟩ := info_describes kind st n m r
  by_cases hr : r.isSet = true
  · have ed : textLines (showDegrees "Rotation is set to: " r.angle ++ showDegrees "Rotation is performed around: " r.center) =
        ["Rotation is set to: ".toList, "\t x: ".toList ++ showF64 (r.angle 0) ++ " degree".toList, "\t y: ".toList ++ showF64 (r.angle 1) ++ " degree".toList,
          "\t z: ".toList ++ showF64 (r.angle 2) ++ " degree".toList, "Rotation is performed around: ".toList,
          "\t x: ".toList ++ showF64 (r.center 0) ++ " degree".toList, "\t y: ".toList ++ showF64 (r.center 1) ++ " degree".toList,
          "\t z: ".toList ++ showF64 (r.center 2) ++ " degree".toList] ++ [[]] := by
      rw [degrees_lines _ (by decide), ← List.append_nil (showDegrees _ r.center), degrees_lines _ (by decide)]
      rfl
    rw [if_pos hr, ed, ← List.append_assoc] at e
    refine ⟨lines, _, h, ?_, e⟩
    rw [if_pos hr]
    exact ⟨fun a => showF64 (r.angle a), fun a => showF64 (r.center a), fun a => ⟨showF64_shows _, showF64_shows _⟩, rfl⟩
  · refine ⟨lines, [], h, ?_, ?_⟩
    · rw [if_neg hr]
    · rw [e, if_neg hr, List.append_nil]; rfl

theorem load_kind (p : Profile) (f : OnDisk K) (s : PyData K) (h : f.load p = .ok s) : s.dm.kind = if f.ty = 1 then .tdata else .pdata := by
  have key : ∀ kind d, Dm.new p kind f.file f.n Timestep.default = .ok d → d.kind = kind := by
    intro kind d hd
    unfold Dm.new at hd
    obtain ⟨b, _, e⟩ := run_bind_inv hd
    cases e
    rfl
  unfold OnDisk.load at h
  by_cases h1 : f.ty = 1
  · rw [if_pos h1] at h ⊢
    obtain ⟨d, hd, e⟩ := run_bind_inv h
    cases e
    exact key _ _ hd
  · rw [if_neg h1] at h ⊢
    by_cases h2 : f.ty = 2
    · rw [if_pos h2] at h
      obtain ⟨d, hd, e⟩ := run_bind_inv h
      cases e
      exact key _ _ hd
    · rw [if_neg h2] at h
      cases h

/-- **C137.** Printing a dataset after any calls: the statistics of the file that was opened, each number to two digits behind the point, and nothing else. -/
theorem C137_session [LawfulArith K] (p : Profile) (f : OnDisk K) (h1 : 1 ≤ f.n) (h2 : f.n ≤ 2 ^ 50) (cs : List (Call K)) (hc : ∀ c ∈ cs, c.Fits f.n) (s : PyData K)
    (as : List (Answer K)) (e : f.session p cs = .ok (s, as)) :
    ∃ lines, SaysAll lines (if f.ty = 1 then .tdata else .pdata) f.st f.n f.maxTime ∧ textLines s.str = lines ++ [[]] := by
  unfold OnDisk.session at e
  obtain ⟨s0, e0, e1⟩ := run_bind_inv e
  have hk := load_kind p f s0 e0
  rcases load_alike p f h1 h2 with ⟨x, hx⟩ | ⟨kind, s', hs', ha⟩
  · rw [hx] at e0; cases e0
  · rw [hs'] at e0
    cases e0
    obtain ⟨⟨t', as', -, ht⟩, -⟩ := calls_settings p kind f h1 ha cs hc e1
    rw [ha.steady.kindEq] at hk
    obtain ⟨lines, more, hl, hm, et⟩ := C137_text s.dm.kind s.st s.dm.n s.maxTime Rotation.new
    rw [if_neg (by simp [Rotation.new])] at hm
    subst hm
    refine ⟨lines, ?_, ?_⟩
    · rw [ht.steady.kindEq, ht.steady.num, ht.st.1, ht.maxTime.1, hk] at hl
      exact hl
    · unfold PyData.str
      rw [et, List.append_nil]

/-- **C137, from VTK files to the description** (exact arithmetic). After converting VTK files and any calls, the description gives the number of files as the number
of timesteps, the time of the last file, and the mean speed of all particles of all files, to half a hundredth. -/
theorem C137_vtk [LawfulArith K] [ExactArith K] (p : Profile) (o : VtkOpts) (dt : F K) (files : List (ℤ × List (Rec K))) (out : TOut K) (cs : List (Call K))
    (h : Sitting o dt files out p cs) (sp : Rec K → K) (hsp : ∀ f ∈ files, ∀ r ∈ f.2, speed r.vel = fin (sp r)) (s : PyData K) (as : List (Answer K))
    (e : out.onDisk.session p cs = .ok (s, as)) :
    ∃ nt time mean : List Char, PrintsNat nt files.length ∧ "Number of Timesteps: ".toList ++ nt ∈ textLines s.str ∧
      (∃ last, (fileTimes dt files).getLast? = some last ∧ Prints time last) ∧ "The max time of this set is : ".toList ++ time ∈ textLines s.str ∧
      Prints mean (fin (((files.flatMap Prod.snd).map sp).sum / ((files.flatMap Prod.snd).length : K))) ∧ "Mean velocity of: ".toList ++ mean ++ " m/s".toList ∈ textLines s.str := by
  have hv := holdsVtk o h.full dt files h.given h.nonempty out h.converted
  have h1 : 1 ≤ files.length := List.length_pos_iff.2 h.given
  obtain ⟨lines, hl, et⟩ := C137_session p out.onDisk (by rw [hv.num]; exact h1) (by rw [hv.num]; exact h.count) cs (by rw [hv.num]; exact h.fits) s as e
  obtain ⟨l, ⟨parts, rfl, hp⟩, -, hm, -⟩ := C64_velocity_partial o h.full dt files h.given h.nonempty out h.converted
  have hperm : parts.flatten.Perm (files.flatMap Prod.snd) := by
    clear hm e et hl hsp h h1 hv
    induction hp with
    | nil => exact List.Perm.refl _
    | cons a _ ih =>
      rw [List.flatten_cons, List.flatMap_cons]
      exact a.1.append ih
  have hne : files.flatMap Prod.snd ≠ [] := by
    obtain ⟨f, hf⟩ := List.exists_mem_of_ne_nil _ h.given
    obtain ⟨r, hr⟩ := List.exists_mem_of_ne_nil _ (h.nonempty f hf)
    exact List.ne_nil_of_mem (List.mem_flatMap.2 ⟨f, hf, hr⟩)
  have hcast : ((files.flatMap Prod.snd).length : K) ≠ 0 := by
    exact_mod_cast (List.length_pos_iff.2 hne).ne'
  have hmap : (parts.flatten.map fun r => speed r.vel) = (parts.flatten.map sp).map fin := by
    rw [List.map_map]
    refine List.map_congr_left fun r hr => ?_
    obtain ⟨f, hf, hrf⟩ := List.mem_flatMap.1 (hperm.mem_iff.1 hr)
    exact hsp f hf r hrf
  have hmean : out.attrs.mag.2.1 = fin (((files.flatMap Prod.snd).map sp).sum / ((files.flatMap Prod.snd).length : K)) := by
    rw [hm, hmap, F.zero_def, foldl_fin, zero_add, hperm.length_eq, (hperm.map sp).sum_eq, F.eofNat, F.ediv _ hcast]
  obtain ⟨lo, hi, diff, time, np, nt, mean, least, most, -, ht, -, hn, -, hme, -, rfl⟩ := hl
  have hme' : Prints mean out.attrs.mag.2.1 := hme
  rw [hmean] at hme'
  rw [hv.num] at hn
  refine ⟨nt, time, mean, hn, ?_, ⟨_, hv.last, ht⟩, ?_, hme', ?_⟩ <;> rw [et] <;> simp

/-! ## Cases -/

theorem show_fin (x : ℝ) (n : ℕ) (hx : 0 ≤ x) (h0 : (n : ℝ) ≤ 100 * x) (h1 : 100 * x - n < 1 / 2) : showF64 (fin x) = showHundredths n := by
  have hf : ⌊100 * x⌋₊ = n := (Nat.floor_eq_iff (by positivity)).2 ⟨h0, by linarith⟩
  change (if x < 0 then '-' :: showHundredths (hundredths (-x)) else showHundredths (hundredths x)) = _
  rw [if_neg (not_lt.2 hx)]
  unfold hundredths
  dsimp only
  rw [hf, if_pos h1]

set_option maxRecDepth 20000 in
/-- Case for `C137_text`: a particle-based file that has been turned by 1.5 about the x axis. -/
example : info .pdata (⟨fun _ => (fin 0, fin 2.25), 12, [], fun _ => fin 0⟩ : Stats ℝ) 7 (fin 3) ⟨true, ![fin 1.5, fin 0, fin 0], fun _ => fin 0⟩ =
    "Particle-Based HDF5 Dataset.\nDimensions of the system:\n|   Min --> Max\t||   Diff\n|x 0.00-->2.25\t||  2.25\n|y 0.00-->2.25\t||  2.25\n|z 0.00-->2.25\t||  2.25\nThe max time of this set is : 3.00\nNumber of Particles: 12\nNumber of Timesteps: 7\nMean velocity of: 0.00 m/s\nMinimum velocity 0.00 m/s \nMaximum Velocity 0.00 m/s\nRotation is set to: \n\t x: 1.50 degree\n\t y: 0.00 degree\n\t z: 0.00 degree\nRotation is performed around: \n\t x: 0.00 degree\n\t y: 0.00 degree\n\t z: 0.00 degree\n".toList := by
  have a0 : showF64 (fin (0 : ℝ)) = "0.00".toList := (show_fin 0 0 le_rfl (by norm_num) (by norm_num)).trans (by decide)
  have a1 : showF64 (fin (2.25 : ℝ)) = "2.25".toList := (show_fin 2.25 225 (by norm_num) (by norm_num) (by norm_num)).trans (by decide)
  have a2 : showF64 (fin (1.5 : ℝ)) = "1.50".toList := (show_fin 1.5 150 (by norm_num) (by norm_num) (by norm_num)).trans (by decide)
  have a3 : showF64 (fin (3 : ℝ)) = "3.00".toList := (show_fin 3 300 (by norm_num) (by norm_num) (by norm_num)).trans (by decide)
  have ad : fin (2.25 : ℝ) - fin 0 = fin 2.25 := by rw [F.esub]; norm_num
  unfold info showAxis showDegrees
  dsimp only [Matrix.cons_val_zero, Matrix.cons_val_one, Matrix.cons_val]
  rw [if_pos rfl, ad, a0, a1, a2, a3]
  decide +kernel

/-- Case for `C137_session`: a file of four timesteps after a field, a narrower window and an item. -/
example (p : Profile) : ∃ s as lines, (soundFile 4).session p [.numberfield soundGrid, .setTime (fin 1) (fin 2), .item (-1)] = .ok (s, as) ∧
    SaysAll lines .tdata (soundFile 4).st 4 (fin 3) ∧ textLines s.str = lines ++ [[]] := by
  have hcs : ∀ c ∈ ([.numberfield soundGrid, .setTime (fin 1) (fin 2), .item (-1)] : List (Call ℝ)), c.Fits 4 := by
    intro c hc
    simp only [List.mem_cons, List.not_mem_nil, or_false] at hc
    rcases hc with rfl | rfl | rfl
    · trivial
    · trivial
    · change _ ∧ _
      norm_num
  obtain ⟨s, as, e, -⟩ := C136_answers_partial p (soundFile 4) (soundFile_sound 4 (by norm_num) le_rfl) [.numberfield soundGrid, .setTime (fin 1) (fin 2), .item (-1)] (by
    have hg := soundGrid_fit p
    have w1 : ¬ (fin (3 : ℝ) < fin 1) := by rw [F.lt_fin]; norm_num
    intro c hc
    simp only [List.mem_cons, List.not_mem_nil, or_false] at hc
    rcases hc with rfl | rfl | rfl
    · exact hg
    · exact w1
    · change _ ∧ _
      constructor <;> norm_num [soundFile])
  obtain ⟨lines, hl, et⟩ := C137_session p (soundFile 4) (by change 1 ≤ 4; norm_num) (by change 4 ≤ 2 ^ 50; norm_num) _ hcs s as e
  exact ⟨s, as, lines, e, hl, et⟩

/-- Case for `C137_vtk`: two VTK files with two particles each, of speed 1 in the first and of speed 3 in the second: the mean is 2. -/
example (p : Profile) : ∃ out s as, Sitting fullOpts (fin 1) goFiles out p [.setTime (fin 1) (fin 2)] ∧ out.onDisk.session p [.setTime (fin 1) (fin 2)] = .ok (s, as) ∧
    ∃ mean : List Char, Prints mean (fin (2 : ℝ)) ∧ "Mean velocity of: ".toList ++ mean ++ " m/s".toList ∈ textLines s.str := by
  obtain ⟨out, h⟩ := goFiles_sitting p
  obtain ⟨⟨s, as⟩, e⟩ := h.returned
  have key : ∀ (num : ℕ) (x v : ℝ), 0 ≤ v → speed (goRec num x v).vel = fin v := by
    intro num x v hv
    unfold speed
    change F.sqrt (0 + fin v * fin v + fin 0 * fin 0 + fin 0 * fin 0) = fin v
    rw [F.zero_def, F.emul, F.emul, F.eadd, F.eadd, F.eadd]
    obtain ⟨T, e1, e2, e3⟩ := sqrt_root (K := ℝ) (x := 0 + v * v + 0 * 0 + 0 * 0) (by positivity)
    rw [e1]
    have : T = v := (mul_self_inj e2 hv).1 (by linarith)
    rw [this]
  refine ⟨out, s, as, h, e, ?_⟩
  obtain ⟨nt, time, mean, -, -, -, -, hm, hin⟩ := C137_vtk p fullOpts (fin 1) goFiles out _ h (fun r => match r.vel 0 with | fin v => v | _ => 0) (by
    intro f hf r hr
    simp only [goFiles, List.mem_cons, List.not_mem_nil, or_false] at hf
    rcases hf with rfl | rfl <;> simp only [List.mem_cons, List.not_mem_nil, or_false] at hr <;> rcases hr with rfl | rfl
    · exact key _ _ _ (by norm_num)
    · exact key _ _ _ (by norm_num)
    · exact key _ _ _ (by norm_num)
    · exact key _ _ _ (by norm_num)) s as e
  refine ⟨mean, ?_, hin⟩
  have e2 : (((goFiles.flatMap Prod.snd).map fun r => match r.vel 0 with | fin v => v | _ => (0 : ℝ)).sum / ((goFiles.flatMap Prod.snd).length : ℝ)) = 2 := by
    simp [goFiles, goRec]
    norm_num
  rw [e2] at hm
  exact hm

end Up4
