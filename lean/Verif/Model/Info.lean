import Verif.Model.Session
import Verif.Model.Rotation

set_option linter.unusedSectionVars false

/-!
# The description of a dataset

`info` of both data managers (src/datamanager/tdata.rs:1114-1167, src/datamanager/pdata.rs:1130-1182), which `Data.__str__` and `Data.__repr__` return
(src/pylib.rs:819-825). The text is a list of characters. Simplified: there is no negative zero (Rust prints it as `-0.00`).
-/

namespace Up4

variable {K : Type} [Field K] [LinearOrder K] [IsStrictOrderedRing K] [FloorRing K] [Arith K]

/-- The multiple of a hundredth nearest to a nonnegative number, in hundredths; halfway the even one. This is the rounding of `{:.2}` (core::fmt::float; the
exact value is rounded, not a product in floating-point arithmetic). -/
def hundredths (x : K) : ℕ :=
  let n := ⌊100 * x⌋₊
  if 100 * x - n < 1 / 2 then n else if 1 / 2 < 100 * x - n then n + 1 else if n % 2 = 0 then n else n + 1

/-- A whole number as `{:.2}` prints a `usize`: the precision makes no difference. -/
def showNat (n : ℕ) : List Char := Nat.toDigits 10 n

/-- A number of hundredths as `{:.2}` prints it: the whole part, a point, and two digits. -/
def showHundredths (n : ℕ) : List Char := showNat (n / 100) ++ '.' :: [Nat.digitChar (n % 100 / 10), Nat.digitChar (n % 10)]

/-- An `f64` as `{:.2}` prints it. -/
def showF64 : F K → List Char
  | .nan => ['N', 'a', 'N']
  | .pinf => ['i', 'n', 'f']
  | .ninf => ['-', 'i', 'n', 'f']
  | .fin x => if x < 0 then '-' :: showHundredths (hundredths (-x)) else showHundredths (hundredths x)

/-- One line about an axis (src/datamanager/tdata.rs:1125-1127, src/datamanager/pdata.rs:1141-1143). -/
def showAxis (name : String) (d : F K × F K) : List Char :=
  ("|" ++ name ++ " ").toList ++ showF64 d.1 ++ "-->".toList ++ showF64 d.2 ++ "\t||  ".toList ++ showF64 (d.2 - d.1) ++ ['\n']

/-- Three numbers in degrees (src/datamanager/tdata.rs:1150-1163, src/datamanager/pdata.rs:1167-1178). -/
def showDegrees (head : String) (v : Fin 3 → F K) : List Char :=
  head.toList ++ "\n\t x: ".toList ++ showF64 (v 0) ++ " degree\n\t y: ".toList ++ showF64 (v 1) ++ " degree\n\t z: ".toList ++ showF64 (v 2) ++ " degree\n".toList

/-- The first line (src/datamanager/tdata.rs:1122, src/datamanager/pdata.rs:1138). -/
def showKind : Kind → List Char
  | .tdata => "Time-Based HDF5 Dataset.\n".toList
  | .pdata => "Particle-Based HDF5 Dataset.\n".toList

/-- `info` (src/datamanager/tdata.rs:1114-1167, src/datamanager/pdata.rs:1130-1182; only the first line differs). -/
def info (kind : Kind) (st : Stats K) (n : ℕ) (maxTime : F K) (r : Rotation K) : List Char :=
  showKind kind ++
  "Dimensions of the system:\n".toList ++ "|   Min --> Max\t||   Diff\n".toList ++
  showAxis "x" (st.dims 0) ++ showAxis "y" (st.dims 1) ++ showAxis "z" (st.dims 2) ++
  "The max time of this set is : ".toList ++ showF64 maxTime ++
  "\nNumber of Particles: ".toList ++ showNat st.nparticles ++
  "\nNumber of Timesteps: ".toList ++ showNat n ++
  "\nMean velocity of: ".toList ++ showF64 (st.speed 1) ++
  " m/s\nMinimum velocity ".toList ++ showF64 (st.speed 0) ++ " m/s \nMaximum Velocity ".toList ++ showF64 (st.speed 2) ++ " m/s\n".toList ++
  if r.isSet then showDegrees "Rotation is set to: " r.angle ++ showDegrees "Rotation is performed around: " r.center else []

/-- `Data.__str__` and `Data.__repr__` (src/pylib.rs:819-825). No method of `Data` sets a rotation (`set_rotation`, src/pylib.rs:802-817, is commented out), so the
manager has the one it was made with. -/
def PyData.str (s : PyData K) : List Char := info s.dm.kind s.st s.dm.n s.maxTime Rotation.new

/-- How a number is printed with `{}` and with `{:?}`, and what `{:?}` prints after the entries of an array (its shape, strides and layout). They belong to the standard
library and to ndarray and are parameters here. -/
structure Formats (K : Type) where
  display : F K → List Char
  debug : F K → List Char
  shape : List Char

/-- A row of an array with `{:?}` (external: ndarray 0.15 `arrayformat.rs`; printed at src/datamanager/tdata.rs:1044). -/
def showRow (fmt : Formats K) (v : Fin 3 → F K) : List Char :=
  '[' :: fmt.debug (v 0) ++ ", ".toList ++ fmt.debug (v 1) ++ ", ".toList ++ fmt.debug (v 2) ++ [']']

/-- The text `stats` prints (src/datamanager/tdata.rs:1040-1055, src/datamanager/pdata.rs:1062-1076, which agree; each `println!` ends its line). The array `dimensions` has the
lower limits in its first row and the upper limits in its second. -/
def statsText (fmt : Formats K) (st : Stats K) (maxTime : F K) : List Char :=
  "Dimensions of the system:: [".toList ++ showRow fmt (fun i => (st.dims i).1) ++ ",\n ".toList ++ showRow fmt (fun i => (st.dims i).2) ++ ']' :: fmt.shape ++
  "\nThe max time of this set is : ".toList ++ fmt.debug maxTime ++
  "\nNumber of Particles: ".toList ++ showNat st.nparticles ++
  "\nMean velocity of: ".toList ++ fmt.display (st.speed 1) ++
  " m/s\nMinimum velocity ".toList ++ fmt.display (st.speed 0) ++ " m/s \nMaximum Velocity ".toList ++ fmt.display (st.speed 2) ++ " m/s\n".toList

/-- `Data.stats` (src/pylib.rs:195-197). -/
def PyData.stats (fmt : Formats K) (s : PyData K) : List Char := statsText fmt s.st s.maxTime

end Up4
