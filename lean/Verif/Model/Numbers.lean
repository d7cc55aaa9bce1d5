import Verif.Model.Basic
import Verif.Model.Lit

/-!
# Numbers as text

The library reads numbers with `std::istringstream >> double` (or `>> int`) and writes them with
`std::ostringstream << double` at a precision of 15 digits (src/kml/base/string_util.cc).  The
standard library is not part of the repository, so reading and writing are a parameter here: a
number is identified with the text `ToString` writes for it, and `NumLib` carries what the proofs use
about the C++ library.  Infinities and NaN, which no text reads as, are left out.
-/

namespace Kml

/-- A text of the kind `ToString` writes for a number: an optional minus sign, then a digit, then
digits, signs, points and exponent marks; at most 32 characters long. -/
def IsNumText (t : Str) : Prop :=
  (∃ c r, (t = c :: r ∨ t = '-' :: c :: r) ∧ isDigit c = true) ∧
  (∀ c ∈ t, isDigit c = true ∨ c = '-' ∨ c = '+' ∨ c = '.' ∨ c = 'e') ∧ t.length ≤ 32

/-- What the C++ library does with numbers.  `num s` is the text `ToString` writes for the `double`
that `>>` reads from the non-blank text `s` (src/kml/base/string_util.cc:84-88, 117-122, 167-177);
`int s` is the same for an `int`
(string_util.cc:94-106).  A text that is not a number reads as 0. -/
structure NumLib where
  num : Str → Str
  int : Str → Str
  /-- Reading back what was written gives the same number, up to 15 digits. -/
  num_num : ∀ s, num (num s) = num s
  int_int : ∀ s, int (int s) = int s
  /-- What is written looks like a number. -/
  num_text : ∀ s, IsNumText (num s)
  int_text : ∀ s, IsNumText (int s)
  /-- `>>` stops at white space. -/
  num_stop : ∀ s r, num (num s ++ '\n' :: r) = num s
  /-- The small integers the constructors use as defaults are written as themselves. -/
  num_small : ∀ s ∈ [chars! "0", chars! "1", chars! "-1", chars! "4", chars! "180", chars! "-180"],
    num s = s
  int_small : ∀ s ∈ [chars! "0", chars! "2", chars! "256"], int s = s

end Kml
