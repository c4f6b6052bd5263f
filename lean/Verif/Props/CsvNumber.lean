import Verif.Model.CsvNumber
import Verif.Props.CsvText
import Verif.Rounding

set_option linter.unusedSectionVars false

/-!
# C121: numbers in CSV files

Which texts are numbers, and which number each is read as.
-/

namespace Up4
open F

variable {K : Type} [Field K] [LinearOrder K] [IsStrictOrderedRing K] [FloorRing K] [Arith K]

/-- The ten digits. -/
def digitChar (d : Fin 10) : Char := ['0', '1', '2', '3', '4', '5', '6', '7', '8', '9'].getD d '0'

/-- A sign, or none. -/
inductive ShownSign | none | plus | minus

def ShownSign.text : ShownSign → List Char
  | .none => []
  | .plus => ['+']
  | .minus => ['-']

def ShownSign.apply {α : Type} [Neg α] : ShownSign → α → α
  | .minus, x => -x
  | _, x => x

/-- A decimal number as it is written: sign, digits before and after the point, exponent. -/
structure Decimal where
  sign : ShownSign
  int : List (Fin 10)
  /-- the digits after the point; `none`: there is no point -/
  frac : Option (List (Fin 10))
  /-- the exponent: `E` or `e`, sign, digits -/
  exp : Option (Bool × ShownSign × List (Fin 10))

namespace Decimal

/-- There is a digit, also in the exponent. -/
def Ok (d : Decimal) : Prop := (d.int ≠ [] ∨ ∃ f, d.frac = some f ∧ f ≠ []) ∧ ∀ e, d.exp = some e → e.2.2 ≠ []

/-- How it is written. -/
def text (d : Decimal) : List Char :=
  d.sign.text ++ (d.int.map digitChar ++ ((match d.frac with | some f => '.' :: f.map digitChar | none => []) ++
    match d.exp with | some (b, s, e) => (if b then 'E' else 'e') :: (s.text ++ e.map digitChar) | none => []))

/-- The number a list of digits denotes: the last digit counts once, each one before it ten times as much as the next. -/
def whole : List (Fin 10) → ℕ
  | [] => 0
  | d :: l => d.val * 10 ^ l.length + whole l

/-- The fraction the digits after the point denote: a tenth of the first, a hundredth of the second, and so on. -/
def fraction : List (Fin 10) → K
  | [] => 0
  | d :: l => ((d.val : K) + fraction l) / 10

/-- The number it denotes. -/
def value (d : Decimal) : K :=
  d.sign.apply (((whole d.int : K) + fraction (d.frac.getD [])) *
    (10 : K) ^ (match d.exp with | some (_, s, e) => s.apply (whole e : ℤ) | none => (0 : ℤ)))

end Decimal
open Decimal

theorem digit_isDigit (d : Fin 10) : (digitChar d).isDigit = true := by fin_cases d <;> rfl
theorem digit_toNat (d : Fin 10) : (digitChar d).toNat - 48 = d.val := by fin_cases d <;> rfl
theorem digit_of (c : Char) (h : c.isDigit = true) : ∃ d, digitChar d = c := by
  have h1 : 48 ≤ c.toNat ∧ c.toNat ≤ 57 := by
    unfold Char.isDigit at h
    rw [Bool.and_eq_true, decide_eq_true_eq, decide_eq_true_eq] at h
    exact ⟨h.1, h.2⟩
  have e : c = Char.ofNat c.toNat := (Char.ofNat_toNat c).symm
  obtain ⟨h2, h3⟩ := h1
  generalize c.toNat = n at *
  subst e
  interval_cases n
  exacts [⟨0, rfl⟩, ⟨1, rfl⟩, ⟨2, rfl⟩, ⟨3, rfl⟩, ⟨4, rfl⟩, ⟨5, rfl⟩, ⟨6, rfl⟩, ⟨7, rfl⟩, ⟨8, rfl⟩, ⟨9, rfl⟩]

theorem digits_of (s : List Char) (h : ∀ c ∈ s, c.isDigit = true) : ∃ l : List (Fin 10), l.map digitChar = s := by
  induction s with
  | nil => exact ⟨[], rfl⟩
  | cons c s ih =>
    obtain ⟨d, hd⟩ := digit_of c (h c (by simp))
    obtain ⟨l, hl⟩ := ih fun c hc => h c (by simp [hc])
    exact ⟨d :: l, by rw [List.map_cons, hd, hl]⟩

theorem digits_all (l : List (Fin 10)) : ∀ c ∈ l.map digitChar, c.isDigit = true := by
  intro c hc
  obtain ⟨d, _, rfl⟩ := List.mem_map.1 hc
  exact digit_isDigit d

theorem readDigits_from (l : List (Fin 10)) (n : ℕ) :
    (l.map digitChar).foldl (fun n c => 10 * n + (c.toNat - 48)) n = n * 10 ^ l.length + whole l := by
  induction l generalizing n with
  | nil => simp [whole]
  | cons d l ih =>
    rw [List.map_cons, List.foldl_cons, ih, digit_toNat, whole, List.length_cons, pow_succ]
    ring

theorem readDigits_map (l : List (Fin 10)) : readDigits (l.map digitChar) = whole l := by
  unfold readDigits
  rw [readDigits_from]
  simp

theorem whole_append (l m : List (Fin 10)) : whole (l ++ m) = whole l * 10 ^ m.length + whole m := by
  induction l with
  | nil => simp [whole]
  | cons d l ih =>
    rw [List.cons_append, whole, ih, whole, List.length_append, pow_add]
    ring

theorem fraction_whole (l : List (Fin 10)) : fraction (K := K) l = (whole l : K) / 10 ^ l.length := by
  induction l with
  | nil => simp [fraction, whole]
  | cons d l ih =>
    rw [fraction, ih, whole, List.length_cons, pow_succ]
    push_cast
    field_simp

theorem splitDigits_map (l : List (Fin 10)) (s : List Char) (h : ∀ c, s.head? = some c → c.isDigit = false) :
    splitDigits (l.map digitChar ++ s) = (l.map digitChar, s) := by
  unfold splitDigits
  have h1 : s.takeWhile Char.isDigit = [] ∧ s.dropWhile Char.isDigit = s := by
    cases s with
    | nil => exact ⟨rfl, rfl⟩
    | cons c s => rw [List.takeWhile_cons, List.dropWhile_cons, h c rfl]; exact ⟨rfl, rfl⟩
  rw [List.takeWhile_append_of_pos (digits_all l), List.dropWhile_append_of_pos (digits_all l), h1.1, h1.2, List.append_nil]

/-- The sign is a minus. -/
def ShownSign.neg : ShownSign → Bool
  | .minus => true
  | _ => false

theorem ShownSign.apply_eq {α : Type} [Neg α] (s : ShownSign) (x : α) : s.apply x = if s.neg then -x else x := by cases s <;> rfl

theorem splitSign_text (g : ShownSign) (s : List Char) (h : s.head? ≠ some '-' ∧ s.head? ≠ some '+') : splitSign (g.text ++ s) = (g.neg, s) := by
  cases g with
  | none => unfold splitSign; change (if s.head? = some '-' then _ else if s.head? = some '+' then _ else (false, s)) = (false, s); rw [if_neg h.1, if_neg h.2]
  | plus => rfl
  | minus => rfl

theorem splitSign_spec (s : List Char) : ∃ g : ShownSign, s = g.text ++ (splitSign s).2 ∧ (splitSign s).1 = g.neg := by
  unfold splitSign
  by_cases h1 : s.head? = some '-'
  · rw [if_pos h1]
    refine ⟨.minus, ?_, rfl⟩
    cases s with
    | nil => cases h1
    | cons c s => cases h1; rfl
  · rw [if_neg h1]
    by_cases h2 : s.head? = some '+'
    · rw [if_pos h2]
      refine ⟨.plus, ?_, rfl⟩
      cases s with
      | nil => cases h2
      | cons c s => cases h2; rfl
    · rw [if_neg h2]
      exact ⟨.none, rfl, rfl⟩

theorem head_digits (l : List (Fin 10)) (s : List Char) (hl : l ≠ []) : ∃ d, (l.map digitChar ++ s).head? = some (digitChar d) := by
  cases l with
  | nil => exact absurd rfl hl
  | cons d l => exact ⟨d, rfl⟩

theorem digit_ne (d : Fin 10) : digitChar d ≠ '-' ∧ digitChar d ≠ '+' ∧ digitChar d ≠ '.' := by fin_cases d <;> decide

/-- The exponent as it is written. -/
def expText (x : Option (Bool × ShownSign × List (Fin 10))) : List Char :=
  match x with | some (b, s, e) => (if b then 'E' else 'e') :: (s.text ++ e.map digitChar) | none => []

/-- The exponent as a number. -/
def expValue (x : Option (Bool × ShownSign × List (Fin 10))) : ℤ := match x with | some (_, s, e) => s.apply (whole e : ℤ) | none => (0 : ℤ)

theorem readExp_text (x : Option (Bool × ShownSign × List (Fin 10))) (h : ∀ e, x = some e → e.2.2 ≠ []) : readExp (expText x) = some (expValue x) := by
  cases x with
  | none => rfl
  | some e =>
    obtain ⟨b, g, e⟩ := e
    have he : e ≠ [] := h _ rfl
    have hne : e.map digitChar ≠ [] := by simpa using he
    obtain ⟨d, hd⟩ := head_digits e [] he
    rw [List.append_nil] at hd
    have hs := splitSign_text g (e.map digitChar) (by
      rw [hd]
      exact ⟨fun h => (digit_ne d).1 (Option.some.inj h), fun h => (digit_ne d).2.1 (Option.some.inj h)⟩)
    have hall : (e.map digitChar).all Char.isDigit = true := List.all_eq_true.2 (digits_all e)
    change readExp ((if b then 'E' else 'e') :: (g.text ++ e.map digitChar)) = some (g.apply (whole e : ℤ))
    unfold readExp
    rw [if_neg (by simp), if_pos (by cases b <;> simp)]
    have hs' : splitSign ((if b then 'E' else 'e') :: (g.text ++ e.map digitChar)).tail = (g.neg, e.map digitChar) := hs
    simp only [hs']
    rw [if_pos ⟨hne, hall⟩, readDigits_map, ShownSign.apply_eq]

theorem readExp_spec (s : List Char) (n : ℤ) (h : readExp s = some n) : ∃ x, s = expText x ∧ n = expValue x ∧ ∀ e, x = some e → e.2.2 ≠ [] := by
  unfold readExp at h
  by_cases h0 : s = []
  · rw [if_pos h0] at h
    cases h
    exact ⟨none, h0, rfl, fun _ h => by cases h⟩
  · rw [if_neg h0] at h
    by_cases h1 : s.head? = some 'e' ∨ s.head? = some 'E'
    · rw [if_pos h1] at h
      obtain ⟨g, hg, hn⟩ := splitSign_spec s.tail
      by_cases h2 : (splitSign s.tail).2 ≠ [] ∧ (splitSign s.tail).2.all Char.isDigit = true
      · rw [if_pos h2] at h
        obtain ⟨l, hl⟩ := digits_of _ (List.all_eq_true.1 h2.2)
        have hs : s = (if decide (s.head? = some 'E') then 'E' else 'e') :: s.tail := by
          cases s with
          | nil => exact absurd rfl h0
          | cons c s =>
            rcases h1 with h1 | h1 <;> cases h1 <;> rfl
        refine ⟨some (decide (s.head? = some 'E'), g, l), ?_, ?_, ?_⟩
        · change s = _ :: (g.text ++ l.map digitChar)
          rw [hl, ← hg]
          exact hs
        · change n = g.apply (whole l : ℤ)
          rw [ShownSign.apply_eq, ← hn, ← readDigits_map, hl]
          exact (Option.some.inj h).symm
        · rintro e he
          cases he
          rintro rfl
          exact h2.1 hl.symm
      · rw [if_neg h2] at h; cases h
    · rw [if_neg h1] at h; cases h

theorem expText_head (x : Option (Bool × ShownSign × List (Fin 10))) : ∀ c, (expText x).head? = some c → c.isDigit = false ∧ c ≠ '.' := by
  intro c h
  cases x with
  | none => cases h
  | some e =>
    obtain ⟨b, g, e⟩ := e
    cases b <;> cases h <;> decide

/-- The part after the digits before the point. -/
def fracText (f : Option (List (Fin 10))) : List Char := match f with | some f => '.' :: f.map digitChar | none => []

theorem decimal_text (d : Decimal) : d.text = d.sign.text ++ (d.int.map digitChar ++ (fracText d.frac ++ expText d.exp)) := rfl

/-- The absolute value. -/
def Decimal.magnitude (d : Decimal) : K := ((whole d.int : K) + fraction (d.frac.getD [])) * (10 : K) ^ expValue d.exp

theorem decimal_value (d : Decimal) : d.value (K := K) = if d.sign.neg then -d.magnitude else d.magnitude := by
  rw [← ShownSign.apply_eq]; rfl

theorem magnitude_eq (i f : List (Fin 10)) (e : ℤ) :
    (readDigits (i.map digitChar ++ f.map digitChar) : K) * (10 : K) ^ (e - ((f.map digitChar).length : ℤ)) = ((whole i : K) + fraction f) * (10 : K) ^ e := by
  rw [← List.map_append, readDigits_map, whole_append, fraction_whole, List.length_map, zpow_sub₀ (by norm_num), zpow_natCast]
  push_cast
  field_simp

theorem readNumber_text (d : Decimal) (h : d.Ok) : readNumber (K := K) (d.int.map digitChar ++ (fracText d.frac ++ expText d.exp)) = some d.magnitude := by
  obtain ⟨h1, h2⟩ := h
  have he := expText_head d.exp
  unfold readNumber
  cases hf : d.frac with
  | none =>
    have hi : d.int ≠ [] := by
      rcases h1 with h1 | ⟨f, h1, _⟩
      · exact h1
      · rw [hf] at h1; cases h1
    have e1 : splitDigits (d.int.map digitChar ++ (fracText none ++ expText d.exp)) = (d.int.map digitChar, expText d.exp) :=
      splitDigits_map _ _ fun c hc => (he c hc).1
    rw [e1]
    dsimp only
    rw [if_neg (fun h => (he '.' h).2 rfl)]
    dsimp only
    rw [if_neg (by simp [hi]), readExp_text _ h2, Option.map_some]
    have := magnitude_eq (K := K) d.int [] (expValue d.exp)
    unfold Decimal.magnitude
    rw [hf]
    exact congrArg some this
  | some f =>
    have e1 : splitDigits (d.int.map digitChar ++ (fracText (some f) ++ expText d.exp)) = (d.int.map digitChar, '.' :: (f.map digitChar ++ expText d.exp)) :=
      splitDigits_map _ _ fun c hc => by cases hc; rfl
    have e2 : splitDigits (f.map digitChar ++ expText d.exp) = (f.map digitChar, expText d.exp) := splitDigits_map _ _ fun c hc => (he c hc).1
    rw [e1]
    dsimp only
    rw [if_pos List.head?_cons, List.tail_cons, e2]
    dsimp only
    have hne : ¬(d.int.map digitChar = [] ∧ f.map digitChar = []) := by
      rintro ⟨k1, k2⟩
      rcases h1 with h1 | ⟨f', h1, h1'⟩
      · exact h1 (by simpa using k1)
      · rw [hf] at h1
        cases h1
        exact h1' (by simpa using k2)
    rw [if_neg hne, readExp_text _ h2, Option.map_some]
    unfold Decimal.magnitude
    rw [hf]
    exact congrArg some (magnitude_eq d.int f _)

theorem splitDigits_spec (s : List Char) : ∃ l : List (Fin 10), (splitDigits s).1 = l.map digitChar ∧ s = l.map digitChar ++ (splitDigits s).2 := by
  obtain ⟨l, hl⟩ := digits_of (s.takeWhile Char.isDigit) fun c hc => (List.all_eq_true.1 List.all_takeWhile) c hc
  refine ⟨l, hl.symm, ?_⟩
  rw [hl]
  exact (List.takeWhile_append_dropWhile).symm

theorem readNumber_spec (s : List Char) (x : K) (h : readNumber s = some x) :
    ∃ d : Decimal, d.Ok ∧ s = d.int.map digitChar ++ (fracText d.frac ++ expText d.exp) ∧ x = d.magnitude := by
  unfold readNumber at h
  dsimp only at h
  obtain ⟨i, hi, hs⟩ := splitDigits_spec s
  by_cases hd : (splitDigits s).2.head? = some '.'
  · rw [if_pos hd] at h
    obtain ⟨f, hf, ht⟩ := splitDigits_spec (splitDigits s).2.tail
    rw [hi, hf] at h
    split_ifs at h with h0
    obtain ⟨e, he, hx⟩ := Option.map_eq_some_iff.1 h
    obtain ⟨y, hy1, hy2, hy3⟩ := readExp_spec _ _ he
    refine ⟨⟨.none, i, some f, y⟩, ⟨?_, hy3⟩, ?_, ?_⟩
    · by_cases hi0 : i = []
      · right
        refine ⟨f, rfl, ?_⟩
        rintro rfl
        exact h0 ⟨by rw [hi0]; rfl, rfl⟩
      · left; exact hi0
    · conv_lhs => rw [hs]
      congr 1
      change _ = '.' :: (f.map digitChar ++ expText y)
      rw [← hy1, ← ht]
      generalize (splitDigits s).2 = r at hd
      cases r with
      | nil => cases hd
      | cons c r => cases hd; rfl
    · rw [← hx, hy2]
      exact magnitude_eq i f _
  · rw [if_neg hd] at h
    dsimp only at h
    rw [hi] at h
    split_ifs at h with h0
    obtain ⟨e, he, hx⟩ := Option.map_eq_some_iff.1 h
    obtain ⟨y, hy1, hy2, hy3⟩ := readExp_spec _ _ he
    refine ⟨⟨.none, i, none, y⟩, ⟨Or.inl ?_, hy3⟩, ?_, ?_⟩
    · rintro rfl
      exact h0 ⟨rfl, rfl⟩
    · conv_lhs => rw [hs]
      rw [hy1]
      rfl
    · rw [← hx, hy2]
      exact magnitude_eq i [] _

/-- The words that are read as infinity or NaN. -/
def InfWord (w : List Char) : Prop := w.map Char.toLower = "inf".toList ∨ w.map Char.toLower = "infinity".toList
def NanWord (w : List Char) : Prop := w.map Char.toLower = "nan".toList

theorem number_head (d : Decimal) (h : d.Ok) : ∃ c, (d.int.map digitChar ++ (fracText d.frac ++ expText d.exp)).head? = some c ∧ (c = '.' ∨ c.isDigit = true) := by
  cases hi : d.int with
  | cons x l => exact ⟨digitChar x, rfl, Or.inr (digit_isDigit x)⟩
  | nil =>
    rcases h.1 with h1 | ⟨f, h1, _⟩
    · exact absurd hi h1
    · rw [h1]; exact ⟨'.', rfl, Or.inl rfl⟩

theorem not_word (s w : List Char) (c x : Char) (hs : s.head? = some c) (hw : w.head? = some x) (hx : x = 'i' ∨ x = 'n') (hc : c = '.' ∨ c.isDigit = true) :
    s.map Char.toLower ≠ w := by
  intro e
  have h1 : (s.map Char.toLower).head? = some c.toLower := by rw [List.head?_map, hs]; rfl
  rw [e, hw] at h1
  have h2 : x = c.toLower := Option.some.inj h1
  rcases hc with rfl | hc
  · rcases hx with rfl | rfl <;> exact absurd h2 (by decide)
  · obtain ⟨d, rfl⟩ := digit_of c hc
    rcases hx with rfl | rfl <;> revert h2 <;> fin_cases d <;> decide

/-- **C121, decimals.** A decimal number in any of the usual notations is read as the number it denotes, rounded once. -/
theorem C121_decimal (d : Decimal) (h : d.Ok) : parseF64 (K := K) d.text = some (Arith.rnd d.value) := by
  obtain ⟨c, hc, hc'⟩ := number_head d h
  have hsign : c ≠ '-' ∧ c ≠ '+' := by
    rcases hc' with rfl | hc'
    · decide
    · obtain ⟨x, rfl⟩ := digit_of c hc'
      exact ⟨(digit_ne x).1, (digit_ne x).2.1⟩
  have e1 := splitSign_text d.sign (d.int.map digitChar ++ (fracText d.frac ++ expText d.exp)) (by
    rw [hc]
    exact ⟨fun h => hsign.1 (Option.some.inj h), fun h => hsign.2 (Option.some.inj h)⟩)
  unfold parseF64
  rw [decimal_text]
  simp only [e1]
  rw [if_neg, if_neg, readNumber_text d h, Option.map_some, decimal_value]
  · exact not_word _ _ c 'n' hc rfl (Or.inr rfl) hc'
  · rintro (h | h)
    · exact not_word _ _ c 'i' hc rfl (Or.inl rfl) hc' h
    · exact not_word _ _ c 'i' hc rfl (Or.inl rfl) hc' h

/-- **C121, nothing else is a number.** A text that is read as a number is a decimal number or one of the words for infinity and NaN, in any case, with or without sign. In
particular blanks in front or behind are not allowed. -/
theorem C121_only (s : List Char) (x : F K) : parseF64 s = some x ↔
    (∃ d : Decimal, d.Ok ∧ s = d.text ∧ x = Arith.rnd d.value) ∨
    (∃ (g : ShownSign) (w : List Char), InfWord w ∧ s = g.text ++ w ∧ x = g.apply pinf) ∨
    ∃ (g : ShownSign) (w : List Char), NanWord w ∧ s = g.text ++ w ∧ x = F.nan := by
  have hword : ∀ (g : ShownSign) (w v : List Char) (y : Char), w.map Char.toLower = v → v.head? = some y → y = 'i' ∨ y = 'n' →
      splitSign (g.text ++ w) = (g.neg, w) := by
    intro g w v y h1 h2 h3
    refine splitSign_text g w ?_
    rw [← h1, List.head?_map] at h2
    constructor <;> intro h <;> rw [h] at h2 <;> cases h2 <;> revert h3 <;> decide
  constructor
  · intro h
    unfold parseF64 at h
    dsimp only at h
    obtain ⟨g, hg, hn⟩ := splitSign_spec s
    by_cases h1 : (splitSign s).2.map Char.toLower = "inf".toList ∨ (splitSign s).2.map Char.toLower = "infinity".toList
    · rw [if_pos h1] at h
      right; left
      refine ⟨g, _, h1, hg, ?_⟩
      rw [ShownSign.apply_eq, ← hn]
      exact (Option.some.inj h).symm
    · rw [if_neg h1] at h
      by_cases h2 : (splitSign s).2.map Char.toLower = "nan".toList
      · rw [if_pos h2] at h
        right; right
        exact ⟨g, _, h2, hg, (Option.some.inj h).symm⟩
      · rw [if_neg h2] at h
        obtain ⟨y, hy, hx⟩ := Option.map_eq_some_iff.1 h
        obtain ⟨d, hd, ht, hv⟩ := readNumber_spec _ _ hy
        left
        refine ⟨{ d with sign := g }, hd, ?_, ?_⟩
        · rw [decimal_text]
          change s = g.text ++ (d.int.map digitChar ++ (fracText d.frac ++ expText d.exp))
          rw [← ht]
          exact hg
        · rw [decimal_value, ← hx, hn, hv]
          rfl
  · rintro (⟨d, hd, rfl, rfl⟩ | ⟨g, w, hw, rfl, rfl⟩ | ⟨g, w, hw, rfl, rfl⟩)
    · exact C121_decimal d hd
    · have e : splitSign (g.text ++ w) = (g.neg, w) := by
        rcases hw with hw | hw
        · exact hword g w _ 'i' hw rfl (Or.inl rfl)
        · exact hword g w _ 'i' hw rfl (Or.inl rfl)
      unfold parseF64
      simp only [e]
      have hw' : w.map Char.toLower = "inf".toList ∨ w.map Char.toLower = "infinity".toList := hw
      rw [if_pos hw', ShownSign.apply_eq]
      rfl
    · have e : splitSign (g.text ++ w) = (g.neg, w) := hword g w _ 'n' hw rfl (Or.inr rfl)
      have hw' : w.map Char.toLower = "nan".toList := hw
      unfold parseF64
      simp only [e]
      rw [if_neg (by rw [hw']; decide), if_pos hw']

/-- **C121, accuracy.** A decimal number up to `2^1023` in size is read as a finite double within half a unit in the last place; one that is a double is read exactly. -/
theorem C121_accuracy [LawfulArith K] [RoundedArith K] (d : Decimal) (h : d.Ok) :
    (|d.value (K := K)| ≤ 2 ^ 1023 → ∃ y : K, parseF64 d.text = some (fin y) ∧ |y - d.value| ≤ |d.value (K := K)| / 2 ^ 53 + 1 / 2 ^ 1075) ∧
    (IsDouble (d.value (K := K)) → parseF64 d.text = some (fin (d.value (K := K)))) := by
  rw [C121_decimal d h]
  constructor
  · intro hb
    obtain ⟨y, hy⟩ := RoundedArith.rnd_finite (K := K) d.value hb
    refine ⟨y, by rw [hy], ?_⟩
    have := RoundedArith.rnd_err _ y hy
    unfold roundoff tiny at this
    rwa [one_div_mul_eq_div] at this
  · intro hd
    rw [hd]

/-- **C121, order.** Reading keeps the order of decimal numbers. -/
theorem C121_order [LawfulArith K] (d d' : Decimal) (h : d.Ok) (h' : d'.Ok) (hle : d.value (K := K) ≤ d'.value) (x y : F K)
    (hx : parseF64 d.text = some x) (hy : parseF64 d'.text = some y) : x ≤ y := by
  rw [C121_decimal d h] at hx
  rw [C121_decimal d' h'] at hy
  cases hx
  cases hy
  exact LawfulArith.rnd_mono _ _ hle

/-- Witness for C121: `-12.50e+1` is minus one hundred and twenty-five. -/
def sample125 : Decimal := ⟨.minus, [1, 2], some [5, 0], some (false, .plus, [1])⟩

example : sample125.Ok ∧ sample125.text = "-12.50e+1".toList ∧ sample125.value (K := K) = -125 ∧ parseF64 (K := K) "-12.50e+1".toList = some (Arith.rnd (-125)) := by
  have h : sample125.Ok := ⟨Or.inl (by decide), fun e he => by cases he; decide⟩
  have ht : sample125.text = "-12.50e+1".toList := by decide
  have hv : sample125.value (K := K) = -125 := by
    simp [sample125, Decimal.value, ShownSign.apply, whole, fraction]
    norm_num
  refine ⟨h, ht, hv, ?_⟩
  rw [← ht, C121_decimal _ h, hv]

/-- The characters of a decimal number. -/
theorem text_chars (d : Decimal) : ∀ c ∈ d.text, c.isDigit = true ∨ c ∈ ['+', '-', '.', 'e', 'E'] := by
  have hs : ∀ (g : ShownSign), ∀ c ∈ g.text, c ∈ ['+', '-', '.', 'e', 'E'] := by
    intro g c hc
    cases g with
    | none => cases hc
    | plus => rw [List.mem_singleton.1 hc]; decide
    | minus => rw [List.mem_singleton.1 hc]; decide
  intro c hc
  rw [decimal_text] at hc
  rw [List.mem_append, List.mem_append, List.mem_append] at hc
  rcases hc with h | h | h | h
  · exact Or.inr (hs _ c h)
  · exact Or.inl (digits_all _ c h)
  · cases hf : d.frac with
    | none => rw [hf] at h; cases h
    | some f =>
      rw [hf] at h
      rcases List.mem_cons.1 h with rfl | h
      · right; decide
      · exact Or.inl (digits_all _ c h)
  · cases he : d.exp with
    | none => rw [he] at h; cases h
    | some e =>
      obtain ⟨b, g, e⟩ := e
      rw [he] at h
      rcases List.mem_cons.1 h with rfl | h
      · right; cases b <;> decide
      · rcases List.mem_append.1 h with h | h
        · exact Or.inr (hs _ c h)
        · exact Or.inl (digits_all _ c h)

/-- **C121, blanks.** A text with a blank is not a number. -/
theorem C121_blank (s : List Char) (h : ' ' ∈ s) : parseF64 (K := K) s = none := by
  have hsign : ∀ (g : ShownSign) (w v : List Char), w.map Char.toLower = v → ' ' ∈ g.text ++ w → ' ' ∈ v := by
    intro g w v e hm
    rcases List.mem_append.1 hm with hm | hm
    · exfalso; cases g <;> revert hm <;> decide
    · rw [← e]; exact List.mem_map.2 ⟨' ', hm, rfl⟩
  cases hp : parseF64 (K := K) s with
  | none => rfl
  | some x =>
    exfalso
    rcases (C121_only s x).1 hp with ⟨d, _, rfl, _⟩ | ⟨g, w, hw, rfl, _⟩ | ⟨g, w, hw, rfl, _⟩
    · rcases text_chars d ' ' h with h | h <;> revert h <;> decide
    · rcases hw with hw | hw
      · exact absurd (hsign g w _ hw h) (by decide)
      · exact absurd (hsign g w _ hw h) (by decide)
    · exact absurd (hsign g w _ hw h) (by decide)

/-- The `csv` crate with the numbers of the standard library. -/
def stdCsv (endNote : Bool) : CsvLib K := ⟨parseF64, endNote⟩

theorem text_ne (d : Decimal) (h : d.Ok) : d.text ≠ [] := by
  obtain ⟨c, hc, _⟩ := number_head d h
  rw [decimal_text]
  intro e
  rw [(List.append_eq_nil_iff.1 e).2] at hc
  cases hc

theorem text_plain (d : Decimal) : ∀ c ∈ d.text, c ≠ ',' ∧ PlainChar c ∧ c ≠ '#' := by
  intro c hc
  rcases text_chars d c hc with h | h
  · obtain ⟨x, rfl⟩ := digit_of c h
    unfold PlainChar
    fin_cases x <;> decide
  · unfold PlainChar
    simp only [List.mem_cons, List.not_mem_nil, or_false] at h
    rcases h with rfl | rfl | rfl | rfl | rfl <;> decide

/-- Numbers as a line of a CSV file. -/
def numberLine (r : List Decimal) : QuotedLine := .row (r.map fun d => ⟨d.text, false⟩)

/-- A CSV file of decimal numbers below a header, which may be in quotation marks. -/
def numberFile (esc : Bool) (head : List CsvCell) (rows : List (List Decimal)) (crlf : Bool) : List Char :=
  quotedText esc ',' '#' ((QuotedLine.row head :: rows.map numberLine).map fun l => (l, crlf)) .blank

theorem row_plain (r : List Decimal) (hr : r ≠ []) (h : ∀ d ∈ r, d.Ok) : (CsvLine.row (r.map Decimal.text)).Plain ',' '#' := by
  cases r with
  | nil => exact absurd rfl hr
  | cons d r =>
    have hd := text_ne d (h d (by simp))
    obtain ⟨c, l, hl⟩ := List.exists_cons_of_ne_nil hd
    have hhead : ([','].intercalate ((d :: r).map Decimal.text)).head? = some c := by
      rw [List.map_cons, hl]
      cases r.map Decimal.text with
      | nil => rfl
      | cons a b => rfl
    refine ⟨?_, ?_, ?_⟩
    · intro cell hc x hx
      obtain ⟨e, _, rfl⟩ := List.mem_map.1 hc
      exact ⟨(text_plain e x hx).1, (text_plain e x hx).2.1⟩
    · intro e
      rw [e] at hhead
      cases hhead
    · rw [hhead]
      intro e
      exact (text_plain d c (by rw [hl]; simp)).2.2 (Option.some.inj e)

theorem numberLine_fine (esc : Bool) (r : List Decimal) (hr : r ≠ []) (h : ∀ d ∈ r, d.Ok) : (numberLine r).Fine esc ',' '#' := by
  have := bare_fine (esc := esc) (row_plain r hr h)
  change (QuotedLine.row ((r.map Decimal.text).map fun t => ⟨t, false⟩)).Fine esc ',' '#' at this
  rw [List.map_map] at this
  exact this

theorem numberLines_shown (rows : List (List Decimal)) : shownRows (rows.map numberLine) = rows.map fun r => r.map Decimal.text := by
  induction rows with
  | nil => rfl
  | cons r rows ih =>
    unfold shownRows at ih ⊢
    rw [List.map_cons, List.map_cons, List.filterMap_cons, ← ih]
    change ((r.map fun d => (⟨d.text, false⟩ : CsvCell)).map CsvCell.text) :: _ = _
    rw [List.map_map]
    rfl

/-- **C121, files.** A comma-separated file of decimal numbers below a header is read as the table of these numbers, each rounded once. -/
theorem C121_file (endNote : Bool) (flexible esc : Bool) (head : List CsvCell) (hh : (QuotedLine.row head).Fine esc ',' '#')
    (rows : List (List Decimal)) (hlen : ∀ r ∈ rows, r.length = head.length) (hpos : head ≠ []) (hok : ∀ r ∈ rows, ∀ d ∈ r, d.Ok) (crlf : Bool) :
    readTable (K := K) (stdCsv endNote) flexible esc ⟨",", true, "#"⟩ (numberFile esc head rows crlf) = .ok (rows.map fun r => r.map fun d => Arith.rnd d.value) := by
  unfold numberFile
  refine (C122_quoted_partial (stdCsv endNote) flexible esc ⟨",", true, "#"⟩ (d := ',') (c := '#') (ds := []) (cs := []) (by decide) (by decide) (by unfold PlainChar; decide)
    (by unfold PlainChar; decide) _ .blank ?_ (Or.inl fun _ h => by cases h) _).2 ?_
  · rw [List.map_map]
    intro l hl
    rw [List.mem_append, List.mem_singleton] at hl
    rcases hl with hl | rfl
    · obtain ⟨l', hl', rfl⟩ := List.mem_map.1 hl
      rcases List.mem_cons.1 hl' with rfl | hl'
      · exact hh
      · obtain ⟨r, hr, rfl⟩ := List.mem_map.1 hl'
        refine numberLine_fine esc r ?_ (hok r hr)
        rintro rfl
        have := hlen [] hr
        exact hpos (List.length_eq_zero_iff.1 this.symm)
    · trivial
  · have hrec : shownRows ((List.map (fun l => (l, crlf)) (QuotedLine.row head :: rows.map numberLine)).map Prod.fst ++ [QuotedLine.blank]) =
        head.map CsvCell.text :: rows.map fun r => r.map Decimal.text := by
      rw [List.map_map]
      have e : (QuotedLine.row head :: rows.map numberLine).map (Prod.fst ∘ fun l => (l, crlf)) = QuotedLine.row head :: rows.map numberLine := List.map_id' _
      rw [e, shownRows_eq, List.map_append, List.flatten_append, ← shownRows_eq, ← numberLines_shown]
      exact List.append_nil _
    rw [hrec]
    dsimp only
    rw [if_pos rfl, List.tail_cons]
    have hall : ∀ r ∈ rows.map (fun r => r.map Decimal.text), r.length = head.length := by
      intro r hr
      obtain ⟨r', h', rfl⟩ := List.mem_map.1 hr
      rw [List.length_map]
      exact hlen r' h'
    refine ⟨?_, ⟨head.length, hall⟩, fun _ => ⟨head.length, ?_⟩⟩
    · rw [List.forall₂_map_left_iff, List.forall₂_map_right_iff]
      refine List.forall₂_same.2 fun r hr => ?_
      unfold Reads
      rw [List.forall₂_map_left_iff, List.forall₂_map_right_iff]
      exact List.forall₂_same.2 fun d hd => C121_decimal d (hok r hr d hd)
    · intro r hr
      rcases List.mem_cons.1 hr with rfl | hr
      · rw [List.length_map]
      · exact hall r hr

/-- A row of a file: time, position and velocity as decimal numbers. -/
structure ShownRow where
  t : Decimal
  p : Fin 3 → Decimal
  v : Fin 3 → Decimal

/-- Its cells in the order of the columns. -/
def ShownRow.cells (r : ShownRow) : List Decimal := [r.t, r.p 0, r.p 1, r.p 2, r.v 0, r.v 1, r.v 2]

/-- Its numbers, rounded. -/
def ShownRow.numbers (r : ShownRow) : Row7 K := ⟨Arith.rnd r.t.value, fun i => Arith.rnd (r.p i).value, fun i => Arith.rnd (r.v i).value⟩

/-- **C121, from the digits in a file to answers.** A comma-separated file with a header of seven columns (in quotation marks or not) and rows of decimal numbers time, x,
y, z, vx, vy, vz, whose rounded times are positive and increase: `Converter.csv` converts it, and in every session on the result `len` is the number of rows,
`time()` and `extract` give the shown numbers, rounded once, and `numberfield` counts the rows with (rounded) positions in the cell. -/
theorem C121_answers [LawfulArith K] (lib : FitLib K) (endNote : Bool) (o : CsvOpts K) (hv : o.vel = false) (hi : o.interp = false) (h7 : o.cols = [0, 1, 2, 3, 4, 5, 6])
    (hsamp : o.sampling % 2 = 1) (head : List CsvCell) (hh : (QuotedLine.row head).Fine true ',' '#') (hhead : head.length = 7) (rows : List ShownRow)
    (hok : ∀ r ∈ rows, ∀ d ∈ r.cells, d.Ok) (hs : rows.Pairwise fun a b => (Arith.rnd a.t.value : F K) < Arith.rnd b.t.value)
    (hp : ∀ r ∈ rows, (0 : F K) < Arith.rnd r.t.value) (hne : rows ≠ []) (hlen : rows.length ≤ 2 ^ 50) (crlf : Bool) :
    ∃ out, csvFromText lib (stdCsv endNote) o ⟨",", true, "#"⟩ (numberFile true head (rows.map ShownRow.cells) crlf) = .ok out ∧
      ∀ (p : Profile) (calls : List (Call K)), (∀ c ∈ calls, c.Fits rows.length) → (∃ r, (out.onDisk p).session p calls = .ok r) →
        (out.onDisk p).answer p (calls ++ [.len]) = .ok (some (.nat rows.length)) ∧
        (out.onDisk p).answer p (calls ++ [.time]) = .ok (some (.nums (rows.map fun r => Arith.rnd r.t.value))) ∧
        (∀ i j, i ≤ j → j < rows.length → (out.onDisk p).answer p (calls ++ [.extract 0 i j]) =
          .ok (some (.table (((rows.drop i).take (j - i)).map fun r => r.cells.map fun d => Arith.rnd d.value)))) ∧
        ∀ g : Grid K, g.Fillable p → ∃ g', (out.onDisk p).answer p (calls ++ [.numberfield g]) = .ok (some (.grid g')) ∧ g'.geom = g.geom ∧
          ∀ c, g'.st.data.get c = fin (((rowsIn (windowOf calls) (rows.map ShownRow.numbers)).countP fun r => inCell p g.geom r.p c : ℕ) : K) := by
  have hread := C121_file (K := K) endNote false true head hh (rows.map ShownRow.cells) (by
    intro r hr
    obtain ⟨r, _, rfl⟩ := List.mem_map.1 hr
    rw [hhead]
    rfl) (by
    rintro rfl
    cases hhead) (by
    intro r hr
    obtain ⟨r, hr', rfl⟩ := List.mem_map.1 hr
    exact hok r hr') crlf
  rw [List.map_map] at hread
  obtain ⟨r0, rest, hr0⟩ := List.exists_cons_of_ne_nil hne
  obtain ⟨out, e, h⟩ := table_answers lib (stdCsv endNote) o hv hi (by rw [h7]; rfl) hsamp _ _ _ hread (rows.map ShownRow.numbers) (by
    rw [List.forall₂_map_left_iff, List.forall₂_map_right_iff]
    refine List.forall₂_same.2 fun r _ => ?_
    rw [h7]
    refine ⟨?_, fun j => ?_, fun j => ?_⟩
    · rfl
    · fin_cases j <;> rfl
    · fin_cases j <;> rfl) (by
    rw [List.pairwise_map]
    exact hs) (by
    intro r hr
    obtain ⟨r, hr', rfl⟩ := List.mem_map.1 hr
    exact hp r hr') r0.numbers (by rw [hr0]; rfl) (LawfulArith.rnd_ne_nan _) (by rw [List.length_map]; exact hlen)
  refine ⟨out, e, fun p calls hf hr => ?_⟩
  rw [List.length_map] at h
  obtain ⟨k1, k2, k3, k4⟩ := h p calls hf hr
  refine ⟨k1, ?_, ?_, k4⟩
  · rw [k2, List.map_map]
    rfl
  · intro i j hij hj
    rw [k3 i j hij hj, ← List.map_drop, ← List.map_take, List.map_map]
    rfl

/-- **C121, padded cells.** If a cell below the header contains a blank, the CSV converters raise. -/
theorem C121_padded (lib : FitLib K) (endNote : Bool) (o : CsvOpts K) (a : CsvArgs) {d c : Char} {ds cs : List Char}
    (hd : a.delimiter.toList = d :: ds) (hc : a.comment.toList = c :: cs) (pd : PlainChar d) (pc : PlainChar c) (ls : List (CsvLine × Bool)) (last : CsvLine)
    (h : ∀ l ∈ ls.map Prod.fst ++ [last], l.Plain d c) (hend : (∀ t, last ≠ .note t) ∨ endNote = true)
    (hb : ∃ r ∈ (if a.header then (recordsOf (ls.map Prod.fst ++ [last])).tail else recordsOf (ls.map Prod.fst ++ [last])), ∃ cell ∈ r, ' ' ∈ cell) :
    (∃ e, csvFromText lib (stdCsv endNote) o a (csvText d c ls last) = .error e) ∧
    (∀ mode, mode = "chain" ∨ mode = "id_line" → ∃ e, csvMultiFromText lib (stdCsv endNote) o a mode (csvText d c ls last) = .error e) ∧
    ∀ cols times texts, csvText d c ls last ∈ texts → ∃ e, csvFilesFromText (K := K) (stdCsv endNote) cols a times texts = .error e := by
  refine C102_refused lib (stdCsv endNote) o a hd hc pd pc ls last h hend (Or.inl ?_)
  obtain ⟨r, hr, cell, hcell, hs⟩ := hb
  exact ⟨r, hr, cell, hcell, C121_blank cell hs⟩

/-- Witness for `C121_file`: a header and one row, `0.5,-12.50e+1`. -/
example (endNote flexible esc : Bool) :
    readTable (K := ℝ) (stdCsv endNote) flexible esc ⟨",", true, "#"⟩ "t,\"x, left\"\n0.5,-12.50e+1\n".toList = .ok [[fin (1 / 2), fin (-125)]] := by
  have h := C121_file (K := ℝ) endNote flexible esc [⟨['t'], false⟩, ⟨"x, left".toList, true⟩] (by
    refine ⟨?_, by cases esc <;> decide, by cases esc <;> decide⟩
    intro x hx
    simp only [List.mem_cons, List.not_mem_nil, or_false] at hx
    rcases hx with rfl | rfl
    · unfold CsvCell.Fine PlainChar; cases esc <;> decide
    · exact fun _ => by decide) [[⟨.none, [0], some [5], none⟩, sample125]] (by decide) (by decide)
    (by
      intro r hr d hd
      rw [List.mem_singleton.1 hr] at hd
      simp only [List.mem_cons, List.not_mem_nil, or_false] at hd
      rcases hd with rfl | rfl
      · exact ⟨Or.inl (by decide), fun e he => by cases he⟩
      · exact ⟨Or.inl (by decide), fun e he => by cases he; decide⟩) false
  have ht : numberFile esc [⟨['t'], false⟩, ⟨"x, left".toList, true⟩] [[⟨.none, [0], some [5], none⟩, sample125]] false = "t,\"x, left\"\n0.5,-12.50e+1\n".toList := by
    cases esc <;> decide
  rw [ht] at h
  rw [h]
  have h1 : Decimal.value (K := ℝ) ⟨.none, [0], some [5], none⟩ = 1 / 2 := by
    simp [Decimal.value, ShownSign.apply, whole, fraction]
    norm_num
  have h2 : sample125.value (K := ℝ) = -125 := by
    simp [sample125, Decimal.value, ShownSign.apply, whole, fraction]
    norm_num
  simp only [List.map_cons, List.map_nil, h1, h2]
  rfl

/-- Witness for `C121_answers`: two rows with times 0.5 and 1.5. -/
example (lib : FitLib ℝ) (endNote : Bool) : ∃ out, csvFromText lib (stdCsv endNote) ⟨[0, 1, 2, 3, 4, 5, 6], false, false, fin 1, 9⟩ ⟨",", true, "#"⟩
    "t,x,y,z,u,v,w\n0.5,0.5,0.5,0.5,0.5,0.5,0.5\n1.5,0.5,0.5,0.5,0.5,0.5,0.5\n".toList = .ok out := by
  have h1 : Decimal.value (K := ℝ) ⟨.none, [0], some [5], none⟩ = 1 / 2 := by
    simp [Decimal.value, ShownSign.apply, whole, fraction]
    norm_num
  have h2 : Decimal.value (K := ℝ) ⟨.none, [1], some [5], none⟩ = 3 / 2 := by
    simp [Decimal.value, ShownSign.apply, whole, fraction]
    norm_num
  obtain ⟨out, e, -⟩ := C121_answers (K := ℝ) lib endNote ⟨[0, 1, 2, 3, 4, 5, 6], false, false, fin 1, 9⟩ rfl rfl rfl rfl
    ([['t'], ['x'], ['y'], ['z'], ['u'], ['v'], ['w']].map fun t => ⟨t, false⟩) (bare_fine (l := .row [['t'], ['x'], ['y'], ['z'], ['u'], ['v'], ['w']]) (by unfold CsvLine.Plain PlainChar; decide)) rfl
    [⟨⟨.none, [0], some [5], none⟩, fun _ => ⟨.none, [0], some [5], none⟩, fun _ => ⟨.none, [0], some [5], none⟩⟩,
     ⟨⟨.none, [1], some [5], none⟩, fun _ => ⟨.none, [0], some [5], none⟩, fun _ => ⟨.none, [0], some [5], none⟩⟩] (by
      intro r hr d hd
      simp only [List.mem_cons, List.not_mem_nil, or_false] at hr
      rcases hr with rfl | rfl <;>
      · simp only [ShownRow.cells, List.mem_cons, List.not_mem_nil, or_false] at hd
        rcases hd with rfl | rfl | rfl | rfl | rfl | rfl | rfl <;> exact ⟨Or.inl (by decide), fun e he => by cases he⟩) (by
      simp only [List.pairwise_cons, List.mem_singleton, forall_eq, List.not_mem_nil, IsEmpty.forall_iff, implies_true, List.Pairwise.nil, and_true, h1, h2]
      exact (F.lt_fin _ _).2 (by norm_num)) (by
      simp only [List.mem_cons, List.not_mem_nil, or_false, forall_eq_or_imp, forall_eq, h1, h2, F.zero_def]
      exact ⟨(F.lt_fin _ _).2 (by norm_num), (F.lt_fin _ _).2 (by norm_num)⟩) (by simp) (by simp) false
  refine ⟨out, ?_⟩
  rw [← e]
  congr 1

end Up4
