import Verif.Model.CsvText

set_option linter.unusedSectionVars false

/-!
# Numbers in CSV files

`str::parse::<f64>()` of the Rust standard library, which the `csv` crate applies to each field without trimming it (src/converter.rs:83-86 and the csv modes read
`Vec<f64>` records). Grammar and rounding as documented for `impl FromStr for f64`:

    Float  ::= Sign? ( 'inf' | 'infinity' | 'nan' | Number )     (in any case)
    Number ::= ( Digit+ | Digit+ '.' Digit* | Digit* '.' Digit+ ) Exp?
    Exp    ::= ('e' | 'E') Sign? Digit+
-/

namespace Up4
open F

variable {K : Type} [Field K] [LinearOrder K] [IsStrictOrderedRing K] [FloorRing K] [Arith K]

/-- A sign in front. -/
def splitSign (s : List Char) : Bool × List Char :=
  if s.head? = some '-' then (true, s.tail) else if s.head? = some '+' then (false, s.tail) else (false, s)

/-- The number a string of digits denotes. -/
def readDigits (s : List Char) : ℕ := s.foldl (fun n c => 10 * n + (c.toNat - 48)) 0

/-- The digits in front and the rest. -/
def splitDigits (s : List Char) : List Char × List Char := (s.takeWhile Char.isDigit, s.dropWhile Char.isDigit)

/-- `Exp?` up to the end of the text. -/
def readExp (s : List Char) : Option ℤ :=
  if s = [] then some 0
  else if s.head? = some 'e' ∨ s.head? = some 'E' then
    let t := splitSign s.tail
    if t.2 ≠ [] ∧ t.2.all Char.isDigit = true then some (if t.1 then -(readDigits t.2 : ℤ) else readDigits t.2) else none
  else none

/-- `Number`: the decimal number, rounded once. Simplified: the exponent has no upper limit. -/
def readNumber (s : List Char) : Option K :=
  let i := splitDigits s
  let f := if i.2.head? = some '.' then splitDigits i.2.tail else ([], i.2)
  if i.1 = [] ∧ f.1 = [] then none
  else (readExp f.2).map fun e : ℤ => (readDigits (i.1 ++ f.1) : K) * (10 : K) ^ (e - (f.1.length : ℤ))

/-- `str::parse::<f64>()`. -/
def parseF64 (s : List Char) : Option (F K) :=
  let t := splitSign s
  let low := t.2.map Char.toLower
  if low = "inf".toList ∨ low = "infinity".toList then some (if t.1 then ninf else pinf)
  else if low = "nan".toList then some F.nan
  else (readNumber t.2).map fun x => Arith.rnd (if t.1 then -x else x)

end Up4
