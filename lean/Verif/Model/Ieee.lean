import Verif.Model.Basic
import Mathlib.Data.Int.Log
import Mathlib.Data.Rat.Floor

/-!
# Doubles, and the decimal texts they are read from and written as

What `std::istringstream >> double`, `>> int` and `std::ostringstream << double` do in the functions of
src/kml/base/string_util.cc.  The standard library is not in the repository: it is modelled as the C++ standard
([facet.num.get.virtuals], [facet.num.put.virtuals]), the C standard (`strtod`, `printf` with `%.15g`) and IEEE 754
(binary64, round to nearest, ties to even) have it, with libstdc++'s rules where the standards leave a choice.  A
finite double is a sign and a magnitude, and the magnitude is the rational number it stands for.
-/

namespace Kml.Ieee

/-- To the nearest integer, and to the even one of two that are equally near (IEEE 754, 4.3.1). -/
def nearest (q : ℚ) : ℤ :=
  if q - ⌊q⌋ < 1 / 2 ∨ (q - ⌊q⌋ = 1 / 2 ∧ ⌊q⌋ % 2 = 0) then ⌊q⌋ else ⌊q⌋ + 1

/-- The distance of neighbouring doubles at the magnitude `q`: 53 significant bits, and no less than the smallest
subnormal number. -/
def ulp (q : ℚ) : ℚ := 2 ^ max (Int.log 2 q - 52) (-1074)

/-- `DBL_MAX`. -/
def maxDouble : ℚ := (2 ^ 53 - 1) * 2 ^ 971

/-- The magnitude rounded to 53 bits, the range of the exponent not considered. -/
def rounded (q : ℚ) : ℚ := nearest (q / ulp q) * ulp q

/-- The magnitude of the double that is read for the magnitude `q`: the nearest one, or the greatest one where `strtod`
gives `HUGE_VAL` (libstdc++'s `__convert_to_v` puts `DBL_MAX` in its place; string_util.cc:84-91 does not look at the
failure that is set with it). -/
def toDouble (q : ℚ) : ℚ :=
  if q ≤ 0 then 0 else if 2 ^ 1024 ≤ rounded q then maxDouble else rounded q

/-- The value of a row of digits. -/
def digitsVal (ds : Str) : ℕ := ds.foldl (fun a c => 10 * a + (c.toNat - 48)) 0

/-- What follows the mantissa: `none` if an exponent mark is not followed by digits. -/
def readExponent : Str → Option ℤ
  | '+' :: r => if r.takeWhile isDigit = [] then none else some (digitsVal (r.takeWhile isDigit))
  | '-' :: r => if r.takeWhile isDigit = [] then none else some (-digitsVal (r.takeWhile isDigit))
  | r => if r.takeWhile isDigit = [] then none else some (digitsVal (r.takeWhile isDigit))

/-- The number with the digits `i` before and `f` after the point, times the power `k` of ten. -/
def scaled (i f : Str) (k : ℤ) : ℚ := digitsVal (i ++ f) * (10 : ℚ) ^ (k - f.length)

/-- After the digits `i` before and `f` after the point. -/
def readScaled (i f : Str) (s : Str) : Option ℚ :=
  if i = [] ∧ f = [] then none else
  match s with
  | 'e' :: r => (readExponent r).map (scaled i f)
  | 'E' :: r => (readExponent r).map (scaled i f)
  | _ => some (scaled i f 0)

/-- After the digits before the point. -/
def readFraction (i : Str) : Str → Option ℚ
  | '.' :: r => readScaled i (r.takeWhile isDigit) (r.dropWhile isDigit)
  | s => readScaled i [] s

/-- The magnitude of a number at the start of a text: digits with at most one point, and an exponent.  Reading stops at
the first character that cannot continue a number; what was collected up to there must be a number (libstdc++
`num_get::_M_extract_float`, which hands `strtod` the characters that may belong to a number). -/
def readMagnitude (s : Str) : Option ℚ := readFraction (s.takeWhile isDigit) (s.dropWhile isDigit)

/-- With the sign: `true` for a minus. -/
def readSigned : Str → Option (Bool × ℚ)
  | '-' :: r => (readMagnitude r).map fun q => (true, q)
  | '+' :: r => (readMagnitude r).map fun q => (false, q)
  | r => (readMagnitude r).map fun q => (false, q)

/-- `std::istringstream >> double`: white space is skipped, and a text that is no number reads as 0 (C++11).
src/kml/base/string_util.cc:84-91 (`FromString`), 162-177 (`StringToDouble`). -/
def readDouble (s : Str) : Bool × ℚ :=
  match readSigned (s.dropWhile isSpace) with
  | some (n, q) => (n, toDouble q)
  | none => (false, 0)

/-- A digit. -/
def digit (n : ℕ) : Char := Char.ofNat (48 + n % 10)

/-- The last `w` digits of a number, with zeros in front. -/
def digitsOf : ℕ → ℕ → Str
  | 0, _ => []
  | w + 1, n => digitsOf w (n / 10) ++ [digit n]

/-- The power of ten of the first digit of a magnitude. -/
def exponent (x : ℚ) : ℤ := Int.log 10 x

/-- The 15 significant digits of a magnitude above 0 as one number, and the power of ten of the first of them: what
`printf` with `%.14e` writes. -/
def significant (x : ℚ) : ℕ × ℤ :=
  if (nearest (x / 10 ^ (exponent x - 14))).toNat = 10 ^ 15 then (10 ^ 14, exponent x + 1)
  else ((nearest (x / 10 ^ (exponent x - 14))).toNat, exponent x)

/-- Without the zeros at the end. -/
def stripZeros (ds : Str) : Str := (ds.reverse.dropWhile (· == '0')).reverse

/-- The digits after the point, with the point if there are any. -/
def pointed (f : Str) : Str := if f = [] then [] else '.' :: f

/-- An exponent: a sign and at least two digits. -/
def exponentText (e : ℤ) : Str :=
  (if e < 0 then '-' else '+') :: (if e.natAbs < 100 then digitsOf 2 e.natAbs else digitsOf 3 e.natAbs)

/-- `printf` with `%.15g`, from the significant digits: with an exponent if it is less than -4 or at least 15, and
without the zeros at the end. -/
def significantText (n : ℕ) (e : ℤ) : Str :=
  if e < -4 ∨ 15 ≤ e then
    (digitsOf 15 n).take 1 ++ pointed (stripZeros ((digitsOf 15 n).drop 1)) ++ 'e' :: exponentText e
  else if 0 ≤ e then
    (digitsOf 15 n).take (e.toNat + 1) ++ pointed (stripZeros ((digitsOf 15 n).drop (e.toNat + 1)))
  else '0' :: '.' :: (List.replicate (-e - 1).toNat '0' ++ stripZeros (digitsOf 15 n))

/-- A magnitude as text. -/
def magnitudeText (x : ℚ) : Str :=
  if x ≤ 0 then ['0'] else significantText (significant x).1 (significant x).2

/-- `ToString(double)`: src/kml/base/string_util.cc:129-135 (`precision(15)`, `<<`). -/
def writeDouble (d : Bool × ℚ) : Str := if d.1 then '-' :: magnitudeText d.2 else magnitudeText d.2

/-- The doubles that are not finite. -/
inductive Special where
  | inf
  | nan
  deriving DecidableEq, Repr

/-- `ToString(double)` of those: src/kml/base/string_util.cc:129-135 (`printf` with `%.15g`, as glibc has it). -/
def specialText : Bool → Special → Str
  | false, .inf => ['i', 'n', 'f']
  | true, .inf => ['-', 'i', 'n', 'f']
  | false, .nan => ['n', 'a', 'n']
  | true, .nan => ['-', 'n', 'a', 'n']

/-- The integer at the start of a text, as it stands. -/
def readInteger : Str → ℤ
  | '-' :: r => -digitsVal (r.takeWhile isDigit)
  | '+' :: r => digitsVal (r.takeWhile isDigit)
  | r => digitsVal (r.takeWhile isDigit)

/-- `std::istringstream >> int`: white space is skipped, what is too great or too small becomes `INT_MAX` or `INT_MIN`,
and a text that is no number reads as 0.  src/kml/base/string_util.cc:93-106 (`FromString`). -/
def readInt (s : Str) : ℤ := max (-2147483648) (min 2147483647 (readInteger (s.dropWhile isSpace)))

/-- An `int` as text: `<<` in the template `ToString` of src/kml/base/string_util.h:90-97. -/
def writeInt (i : ℤ) : Str :=
  if i < 0 then '-' :: (digitsOf 10 i.natAbs).dropWhile (· == '0')
  else if i = 0 then ['0'] else (digitsOf 10 i.natAbs).dropWhile (· == '0')

end Kml.Ieee
